import Verif.Spec.Elements

/-
An update of part of an array.
-/

namespace Verif.F

/-- `m'` is `m` with the elements of `a` in the box `b` replaced by the values `v` -/
structure Filled {T : Type} (a : Arr) (b : List (Int × Int)) (v : List Int → T) (m m' : Mem T) : Prop where
  el : ∀ p, InBounds b p → El m' a p (v p)
  other : ∀ q, (∀ p, InBounds b p → a.ptr.add (colMajor a.dims p) ≠ q) → m'.val q = m.val q
  ints : m'.ints = m.ints

end Verif.F
