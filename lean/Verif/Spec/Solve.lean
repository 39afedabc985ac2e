import Verif.Spec.Fortran

/-
Memories that differ only in part of one array.
-/

namespace Verif.F

variable {T : Type}

/-- only elements of `a` with indices in `box` may differ -/
structure Within (a : Arr) (box : List (Int × Int)) (m m' : Mem T) : Prop where
  val : ∀ q, (∀ p, InBounds box p → a.ptr.add (colMajor a.dims p) ≠ q) → m'.val q = m.val q
  ints : m'.ints = m.ints

end Verif.F
