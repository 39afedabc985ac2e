import Verif.Spec.Fortran

/-
Transcription of m4/applystencil1d.m4, m4/applystencil2d.m4, m4/applystencil3d.m4: a stencil given by a table of displacements, applied at a
cell and on a box.  The table is an INTEGER array, read from the integer store.
-/

namespace Verif.F

variable {T : Type}

/-- element of an INTEGER array -/
def intRef (a : Arr) (is : List Int) (m : Mem T) : M Int := do
  let q ← a.addr is
  m.loadInt q

/-- element `a(is)` of an INTEGER array exists and contains `z` -/
def IntEl (m : Mem T) (a : Arr) (is : List Int) (z : Int) : Prop := InBounds a.dims is ∧ m.ints (a.ptr.add (colMajor a.dims is)) = some z

/-- `integer offsets(1:NDIM,1:stencilsize)` -/
def offsets (o : Ptr) (N n : Int) : Arr := ⟨o, [(1, N), (1, n)]⟩
/-- `stencil(1:stencilsize,CELL1d(lo,hi,0))` -/
def stn1d (t : Ptr) (n lo0 hi0 : Int) : Arr := ⟨t, [(1, n), (lo0, hi0)]⟩
/-- `stencil(1:stencilsize,CELL2d(lo,hi,0))` -/
def stn2d (t : Ptr) (n lo0 lo1 hi0 hi1 : Int) : Arr := ⟨t, [(1, n), (lo0, hi0), (lo1, hi1)]⟩
/-- `stencil(1:stencilsize,CELL3d(lo,hi,0))` -/
def stn3d (t : Ptr) (n lo0 lo1 lo2 hi0 hi1 hi2 : Int) : Arr := ⟨t, [(1, n), (lo0, hi0), (lo1, hi1), (lo2, hi2)]⟩

/-- the table of displacements is there, and no displacement reaches beyond `g` layers of ghost cells -/
def Reach (m : Mem T) (o : Ptr) (N n g : Int) : Prop :=
  ∀ s c, 1 ≤ s → s ≤ n → 1 ≤ c → c ≤ N → ∃ z, IntEl m (offsets o N n) [c, s] z ∧ -g ≤ z ∧ z ≤ g

/-- the coefficient array of src/cuda/dot_offset_test.cpp:19: `w1` entries per cell, numbered from 0, cells with `g` layers of ghost cells -/
def coef1d (t : Ptr) (w1 lo0 hi0 g : Int) : Arr := ⟨t, [(0, w1 - 1), (lo0 - g, hi0 + g)]⟩
/-- the same in two dimensions (src/cuda/dot_offset_test.cpp:45) -/
def coef2d (t : Ptr) (w1 lo0 lo1 hi0 hi1 g : Int) : Arr := ⟨t, [(0, w1 - 1), (lo0 - g, hi0 + g), (lo1 - g, hi1 + g)]⟩
/-- the same in three dimensions (src/cuda/dot_offset_test.cpp:75) -/
def coef3d (t : Ptr) (w1 lo0 lo1 lo2 hi0 hi1 hi2 g : Int) : Arr := ⟨t, [(0, w1 - 1), (lo0 - g, hi0 + g), (lo1 - g, hi1 + g), (lo2 - g, hi2 + g)]⟩

variable [Add T] [Sub T] [Mul T] [Div T] [Neg T]

/-- `applystencilatpoint1d` (m4/applystencil1d.m4:24-61) -/
def applystencilatpoint1d (lo0 hi0 i stencilsize : Int) (offsets_ stencil_ : Ptr) (a b : T) (fgcw : Int) (f_ : Ptr) (ugcw : Int) (u_ : Ptr) (rgcw : Int)
    (r_ : Ptr) : Cmd T :=
  let offsets := offsets offsets_ 1 stencilsize
  let stencil := stn1d stencil_ stencilsize lo0 hi0
  let u := cell1d u_ lo0 hi0 ugcw
  let f := cell1d f_ lo0 hi0 fgcw
  let r := cell1d r_ lo0 hi0 rgcw
  block [
    assign r [i] (.const b * f.el [i]),
    doLoop 1 stencilsize fun s m => do
      let io ← intRef offsets [1, s] m
      assign r [i] (r.el [i] + .const a * stencil.el [s, i] * u.el [i + io]) m]

/-- `applystencilonpatch1d` (m4/applystencil1d.m4:63-101) -/
def applystencilonpatch1d (lo0 hi0 stencilsize : Int) (offsets_ stencil_ : Ptr) (a b : T) (fgcw : Int) (f_ : Ptr) (ugcw : Int) (u_ : Ptr) (rgcw : Int)
    (r_ : Ptr) : Cmd T :=
  let offsets := offsets offsets_ 1 stencilsize
  let stencil := stn1d stencil_ stencilsize lo0 hi0
  let u := cell1d u_ lo0 hi0 ugcw
  let f := cell1d f_ lo0 hi0 fgcw
  let r := cell1d r_ lo0 hi0 rgcw
  doLoop lo0 hi0 fun i => block [
    assign r [i] (.const b * f.el [i]),
    doLoop 1 stencilsize fun s m => do
      let io ← intRef offsets [1, s] m
      assign r [i] (r.el [i] + .const a * stencil.el [s, i] * u.el [i + io]) m]

/-- `applystencilatpoint2d` (m4/applystencil2d.m4:24-62) -/
def applystencilatpoint2d (lo0 hi0 lo1 hi1 i j stencilsize : Int) (offsets_ stencil_ : Ptr) (a b : T) (fgcw : Int) (f_ : Ptr) (ugcw : Int) (u_ : Ptr)
    (rgcw : Int) (r_ : Ptr) : Cmd T :=
  let offsets := offsets offsets_ 2 stencilsize
  let stencil := stn2d stencil_ stencilsize lo0 lo1 hi0 hi1
  let u := cell2d u_ lo0 lo1 hi0 hi1 ugcw
  let f := cell2d f_ lo0 lo1 hi0 hi1 fgcw
  let r := cell2d r_ lo0 lo1 hi0 hi1 rgcw
  block [
    assign r [i, j] (.const b * f.el [i, j]),
    doLoop 1 stencilsize fun s m => do
      let io ← intRef offsets [1, s] m
      let jo ← intRef offsets [2, s] m
      assign r [i, j] (r.el [i, j] + .const a * stencil.el [s, i, j] * u.el [i + io, j + jo]) m]

/-- `applystencilonpatch2d` (m4/applystencil2d.m4:64-105); `j` runs over the bounds of the first dimension, `i` over those of the second -/
def applystencilonpatch2d (lo0 hi0 lo1 hi1 stencilsize : Int) (offsets_ stencil_ : Ptr) (a b : T) (fgcw : Int) (f_ : Ptr) (ugcw : Int) (u_ : Ptr)
    (rgcw : Int) (r_ : Ptr) : Cmd T :=
  let offsets := offsets offsets_ 2 stencilsize
  let stencil := stn2d stencil_ stencilsize lo0 lo1 hi0 hi1
  let u := cell2d u_ lo0 lo1 hi0 hi1 ugcw
  let f := cell2d f_ lo0 lo1 hi0 hi1 fgcw
  let r := cell2d r_ lo0 lo1 hi0 hi1 rgcw
  doLoop lo0 hi0 fun j => doLoop lo1 hi1 fun i => block [
    assign r [i, j] (.const b * f.el [i, j]),
    doLoop 1 stencilsize fun s m => do
      let io ← intRef offsets [1, s] m
      let jo ← intRef offsets [2, s] m
      assign r [i, j] (r.el [i, j] + .const a * stencil.el [s, i, j] * u.el [i + io, j + jo]) m]

/-- `applystencilatpoint3d` (m4/applystencil3d.m4:24-66) -/
def applystencilatpoint3d (lo0 hi0 lo1 hi1 lo2 hi2 i j k stencilsize : Int) (offsets_ stencil_ : Ptr) (a b : T) (fgcw : Int) (f_ : Ptr) (ugcw : Int)
    (u_ : Ptr) (rgcw : Int) (r_ : Ptr) : Cmd T :=
  let offsets := offsets offsets_ 3 stencilsize
  let stencil := stn3d stencil_ stencilsize lo0 lo1 lo2 hi0 hi1 hi2
  let u := cell3d u_ lo0 lo1 lo2 hi0 hi1 hi2 ugcw
  let f := cell3d f_ lo0 lo1 lo2 hi0 hi1 hi2 fgcw
  let r := cell3d r_ lo0 lo1 lo2 hi0 hi1 hi2 rgcw
  block [
    assign r [i, j, k] (.const b * f.el [i, j, k]),
    doLoop 1 stencilsize fun s m => do
      let io ← intRef offsets [1, s] m
      let jo ← intRef offsets [2, s] m
      let ko ← intRef offsets [3, s] m
      assign r [i, j, k] (r.el [i, j, k] + .const a * stencil.el [s, i, j, k] * u.el [i + io, j + jo, k + ko]) m]

/-- `applystencilonpatch3d` (m4/applystencil3d.m4:68-116) -/
def applystencilonpatch3d (lo0 hi0 lo1 hi1 lo2 hi2 stencilsize : Int) (offsets_ stencil_ : Ptr) (a b : T) (fgcw : Int) (f_ : Ptr) (ugcw : Int)
    (u_ : Ptr) (rgcw : Int) (r_ : Ptr) : Cmd T :=
  let offsets := offsets offsets_ 3 stencilsize
  let stencil := stn3d stencil_ stencilsize lo0 lo1 lo2 hi0 hi1 hi2
  let u := cell3d u_ lo0 lo1 lo2 hi0 hi1 hi2 ugcw
  let f := cell3d f_ lo0 lo1 lo2 hi0 hi1 hi2 fgcw
  let r := cell3d r_ lo0 lo1 lo2 hi0 hi1 hi2 rgcw
  doLoop lo2 hi2 fun k => doLoop lo1 hi1 fun j => doLoop lo0 hi0 fun i => block [
    assign r [i, j, k] (.const b * f.el [i, j, k]),
    doLoop 1 stencilsize fun s m => do
      let io ← intRef offsets [1, s] m
      let jo ← intRef offsets [2, s] m
      let ko ← intRef offsets [3, s] m
      assign r [i, j, k] (r.el [i, j, k] + .const a * stencil.el [s, i, j, k] * u.el [i + io, j + jo, k + ko]) m]

end Verif.F
