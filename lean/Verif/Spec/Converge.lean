import Verif.Spec.Smooth
import Mathlib.Algebra.Order.Group.Abs
import Mathlib.Algebra.Field.Defs

/-
Repeated sweeps and the condition under which they converge.
-/

namespace Verif.F

variable {T : Type}

/-- the command `k` times -/
def times (c : Cmd T) : Nat → Cmd T
  | 0, m => .ok m
  | k + 1, m => times c k m >>= c

/-- the cell itself, then its neighbours, lower before upper, along each axis -/
def points1 : List (List Int) := [[0], [-1], [1]]
def points2 : List (List Int) := [[0, 0], [-1, 0], [1, 0], [0, -1], [0, 1]]
def points3 : List (List Int) := [[0, 0, 0], [-1, 0, 0], [1, 0, 0], [0, -1, 0], [0, 1, 0], [0, 0, -1], [0, 0, 1]]

/-- row `s` of a table -/
def row (rows : List (List Int)) (s : Int) : List Int := rows[s.toNat]?.getD []

/-- generalised diagonal dominance: in every cell of the box the other coefficients in absolute value, weighted with the positive function `w` at the
displaced cells, add up to at most `q` times the diagonal one weighted with `w` at the cell; `w = 1` is ordinary dominance -/
structure Dominant [Field T] [LinearOrder T] (box : List (Int × Int)) (n : Int) (O : Int → List Int) (q : T) (w S : List Int → T) : Prop where
  diag : ∀ p, InBounds box p → S (0 :: p) ≠ 0
  pos : ∀ p, InBounds box p → 0 < w p
  nonneg : ∀ p, 0 ≤ w p
  row : ∀ p, InBounds box p → sum 1 (n - 1) (fun s => |S (s :: p)| * w (shift p (O s))) ≤ q * (|S (0 :: p)| * w p)

end Verif.F
