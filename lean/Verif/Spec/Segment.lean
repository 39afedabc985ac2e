import Mathlib.Order.Lattice
import Mathlib.Algebra.Order.Ring.Int

/-
Where a boundary segment lies, in terms of the index ranges of the box.
-/

namespace Verif.Spec

/-- `l` and `l + s` are indices of an array over `lo..hi` with `g` ghost cells on both sides -/
def Reach (lo hi g l s : Int) : Prop := (lo - g ≤ l ∧ l ≤ hi + g) ∧ lo - g ≤ l + s ∧ l + s ≤ hi + g

/-- `q` is an index of an array over the faces of `lo..hi` with `g` ghost cells on both sides -/
def OnFaces (lo hi g q : Int) : Prop := lo - g ≤ q ∧ q ≤ hi + 1 + g

/-- `a..b` is a nonempty part of `lo..hi` -/
def Part (lo hi a b : Int) : Prop := lo ≤ a ∧ a ≤ b ∧ b ≤ hi

/-- `a..b` and `lo..hi` have an index in common -/
def Meets (lo hi a b : Int) : Prop := max lo a ≤ min hi b

/-- direction from a ghost cell into the box along the first of the two axes an edge or corner leaves fixed; `face` numbers them -/
def dir0 (face : Int) : Int := if face % 2 = 0 then 1 else -1

/-- the same along the second -/
def dir1 (face : Int) : Int := if face % 4 < 2 then 1 else -1

end Verif.Spec
