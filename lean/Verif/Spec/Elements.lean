import Verif.Spec.Fortran

/-
Contents of array elements.
-/

namespace Verif.F

variable {T : Type}

/-- element `a(is)` exists and contains `v` -/
def El (m : Mem T) (a : Arr) (is : List Int) (v : T) : Prop := InBounds a.dims is ∧ m.val (a.ptr.add (colMajor a.dims is)) = some v

/-- the sum of `f` over `lo .. hi`, in the order of a Fortran loop -/
def sum {T : Type} [Zero T] [Add T] (lo hi : Int) (f : Int → T) : T := ((irange lo hi).map f).sum

end Verif.F
