import Verif.Spec.Smooth
import Mathlib.Order.Defs.LinearOrder

/-
The energy of an error: its product with what the equations of the cells make of it.
-/

namespace Verif.F

variable {T : Type}

/-- the cells of a box -/
def cells : List (Int × Int) → List (List Int)
  | [] => [[]]
  | b :: bs => (cells bs).flatMap fun is => (irange b.1 b.2).map (· :: is)

section
variable [Zero T] [Add T]

/-- the coefficient with which the value at `q` enters the equation of cell `p` -/
def coupling (n : Int) (O : Int → List Int) (S : List Int → T) (p q : List Int) : T := sum 0 (n - 1) fun s => if shift p (O s) = q then S (s :: p) else 0

/-- each cell of the box enters the equation of another with the same coefficient as the other enters its equation -/
def Symmetric (box : List (Int × Int)) (n : Int) (O : Int → List Int) (S : List Int → T) : Prop :=
  ∀ p q, InBounds box p → InBounds box q → coupling n O S p q = coupling n O S q p

/-- sum over the cells of the box of the function times the left hand side of the equation of the cell -/
def energy [Mul T] (box : List (Int × Int)) (n : Int) (O : Int → List Int) (S E : List Int → T) : T :=
  ((cells box).map fun p => E p * sum 0 (n - 1) fun s => S (s :: p) * E (shift p (O s))).sum
end

/-- no displacement but the first is none -/
def Alone (N : Nat) (n : Int) (O : Int → List Int) : Prop := ∀ s, 1 ≤ s → s < n → O s ≠ List.replicate N 0

/-- `X` solves the equations of the box, and `U` has the same values as `X` elsewhere -/
structure Solved [Zero T] [Add T] [Mul T] (box : List (Int × Int)) (n : Int) (O : Int → List Int) (S F X U : List Int → T) : Prop where
  eqn : ∀ p, InBounds box p → Eqn n O S F X p
  outside : ∀ p, ¬ InBounds box p → U p = X p

end Verif.F
