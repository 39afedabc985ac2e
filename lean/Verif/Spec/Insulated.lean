import Verif.Spec.Boundary

/-
Boxes with a boundary condition on all faces.
-/

namespace Verif.F

variable {T : Type}

/-- every face of the boundary of the box belongs to a piece -/
def Covered (box : List (Int × Int)) (n : Int) (O : Int → List Int) (ps : List (Piece T)) : Prop :=
  ∀ p, InBounds box p → ∀ e, 1 ≤ e → e ≤ n - 1 → ¬ InBounds box (shift p (O e)) → ∃ k ∈ ps, k.cells p ∧ k.ghost = e

end Verif.F
