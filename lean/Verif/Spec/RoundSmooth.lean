import Verif.Spec.Binary64
import Verif.Spec.Converge

/-
What is needed to say how close the smoothers come to the solution when every operation is rounded to 53 bits.
-/

namespace Verif.F
open Spec

/-- the numbers of an array -/
def vals (V : List Int → B64) : List Int → Rat := fun l => (V l).v

/-- what `k` roundings can do, relatively -/
def drift (k : Nat) : Rat := (1 + 1 / 2 ^ 53) ^ k - 1

/-- what a Jacobi sweep with factor `d` multiplies errors with: without rounding, and the part due to roundings of relative size `g` -/
def jrate (g d q : Rat) : Rat := 1 - d + d * q + g * (1 + d * (1 + q))

/-- in every cell of the box the right hand side and the terms of the equation at the solution add up, in absolute value, to at most `Z` times the diagonal
coefficient, weighted with `w` -/
def Sized (box : List (Int × Int)) (n : Int) (O : Int → List Int) (S B X w : List Int → Rat) (Z : Rat) : Prop :=
  ∀ p, InBounds box p → |B p| + sum 0 (n - 1) (fun s => |S (s :: p)| * |X (shift p (O s))|) ≤ Z * (|S (0 :: p)| * w p)

end Verif.F
