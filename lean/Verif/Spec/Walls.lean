import Verif.Spec.Fill

/-
Ghost cells for which no call of a boundary condition kernel is made.
-/

namespace Verif.Spec

/-- the ghost cells that a row of the table `O` leads to from a cell of the box, and that belong to no segment -/
def Uncovered {C : Type} (seg : C → List Int → Prop) (l : List C) (box : List (Int × Int)) (n : Int) (O : Int → List Int) (g : List Int) : Prop :=
  ¬ F.InBounds box g ∧ (∃ p e, F.InBounds box p ∧ 1 ≤ e ∧ e ≤ n - 1 ∧ g = F.shift p (O e)) ∧ ∀ c ∈ l, ¬ seg c g

/-- a call with piece `k`: the mesh width is positive, and the coefficient of the derivative in its condition is not negative -/
def BcCall.Positive {T : Type} [Zero T] [LT T] [LE T] (k : F.Piece T) : Prop := 0 < k.width ∧ ∀ p, k.cells p → 0 ≤ k.coef p

end Verif.Spec
