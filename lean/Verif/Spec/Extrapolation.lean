import Verif.Spec.Elements
import Mathlib.Algebra.Polynomial.Derivative
import Mathlib.Algebra.Polynomial.Eval.Degree
import Mathlib.Algebra.Field.Basic

/-
What a ghost value is for: along the normal of a boundary face, with the face at 0, the ghost cell at `-h/2` and the k-th cell of the
box at `(k - 1/2) h`, it continues a polynomial that meets the boundary condition.
-/

namespace Verif.Spec
open Polynomial

variable {T : Type} [Field T]

/-- the `n` cells next to the face contain the values of `p` at their centres -/
def Samples (m : Mem T) (u : F.Arr) (c : Int → List Int) (h : T) (n : Nat) (p : T[X]) : Prop :=
  ∀ k : Nat, 1 ≤ k → k ≤ n → F.El m u (c k) (p.eval ((k - 1 / 2) * h))

/-- The ghost cell `c 0` contains in `m'` the value at its centre of every polynomial of degree at most `deg` with property `bc` that the
first `n` cells `c 1`, `c 2`, ... sample in `m`. -/
def Continues (m m' : Mem T) (u : F.Arr) (c : Int → List Int) (h : T) (n deg : Nat) (bc : T[X] → Prop) : Prop :=
  ∀ p : T[X], p.natDegree ≤ deg → bc p → Samples m u c h n p → F.El m' u (c 0) (p.eval (-(1 / 2) * h))

/-- Dirichlet: zero on the face -/
def Dirichlet (p : T[X]) : Prop := p.eval 0 = 0

/-- Neumann: no slope on the face -/
def Neumann (p : T[X]) : Prop := p.derivative.eval 0 = 0

/-- Robin: `alpha b ∂u/∂n + beta u = 0` on the face, with the normal pointing out of the box (towards the ghost cell) -/
def Robin (alpha b beta : T) (p : T[X]) : Prop := alpha * b * -p.derivative.eval 0 + beta * p.eval 0 = 0

/-- the corner or edge cell `c 0 0` of `m'` contains `f 0 + g 0` whenever its three neighbours contain the sums `f a + g b` -/
def ContinuesSum (m m' : Mem T) (u : F.Arr) (c : Int → Int → List Int) : Prop :=
  ∀ f g : Int → T, F.El m u (c 1 0) (f 1 + g 0) → F.El m u (c 0 1) (f 0 + g 1) → F.El m u (c 1 1) (f 1 + g 1) → F.El m' u (c 0 0) (f 0 + g 0)

end Verif.Spec
