import Verif.Spec.Kernels.ApplyStencil

/-
Transcription of the smoothers in m4/cellsmooth1d.m4, m4/cellsmooth2d.m4, m4/cellsmooth3d.m4: damped Jacobi, Gauss-Seidel and red-black
Gauss-Seidel for a stencil given by a table of displacements, and the versions written out for five, nine and seven points.

Simplifications: INTEGER arithmetic is exact (the routines form `j + color` and `i + io`, which the bounds check confines to declared bounds, and
the loop variable after the last pass).  The automatic array `r` of the Jacobi routines is storage `r_` provided by the caller, with arbitrary
contents.  Decimal constants are quotients of integers.  `ccellblkjacobi3d` is in LapackSmooth.lean.
-/

namespace Verif.F

variable {T : Type}

/-- `lo, lo + st, ...` up to `hi`: `max(int((hi - lo + st) / st), 0)` values -/
def srange (lo hi st : Int) : List Int := (List.range ((hi - lo + st).tdiv st).toNat).map fun k : Nat => lo + k * st

/-- `do i = lo, hi, st` -/
def doStep (lo hi st : Int) (body : Int → Cmd T) : Cmd T := fun m => (srange lo hi st).foldlM (fun m i => body i m) m

/-- `do s = lo, hi` changing only the local variable `r` -/
def doLocal (lo hi : Int) (r : T) (body : Int → T → M T) : M T := (irange lo hi).foldlM (fun r s => body s r) r

/-- `integer offset(0:NDIM-1,0:stencilsize-1)` -/
def offset0 (o : Ptr) (N n : Int) : Arr := ⟨o, [(0, N - 1), (0, n - 1)]⟩
/-- `stencil(0:stencilsize-1,CELL1d(slo,shi,0))` -/
def sm1d (t : Ptr) (n lo0 hi0 : Int) : Arr := ⟨t, [(0, n - 1), (lo0, hi0)]⟩
/-- `stencil(0:stencilsize-1,CELL2d(slo,shi,0))` -/
def sm2d (t : Ptr) (n lo0 lo1 hi0 hi1 : Int) : Arr := ⟨t, [(0, n - 1), (lo0, hi0), (lo1, hi1)]⟩
/-- `stencil(0:stencilsize-1,CELL3d(slo,shi,0))` -/
def sm3d (t : Ptr) (n lo0 lo1 lo2 hi0 hi1 hi2 : Int) : Arr := ⟨t, [(0, n - 1), (lo0, hi0), (lo1, hi1), (lo2, hi2)]⟩

/-- `CELL1d(lo,hi,0)` -/
def box1d (t : Ptr) (lo0 hi0 : Int) : Arr := ⟨t, [(lo0, hi0)]⟩
/-- `CELL2d(lo,hi,0)` -/
def box2d (t : Ptr) (lo0 lo1 hi0 hi1 : Int) : Arr := ⟨t, [(lo0, hi0), (lo1, hi1)]⟩
/-- `CELL3d(lo,hi,0)` -/
def box3d (t : Ptr) (lo0 lo1 lo2 hi0 hi1 hi2 : Int) : Arr := ⟨t, [(lo0, hi0), (lo1, hi1), (lo2, hi2)]⟩

variable [NatCast T] [Add T] [Sub T] [Mul T] [Div T] [Neg T]

/-! ### one dimension -/

/-- `celljacobi1d` (m4/cellsmooth1d.m4:35-81) -/
def celljacobi1d (lo0 hi0 stencilsize : Int) (offset_ : Ptr) (slo0 shi0 : Int) (stencil_ : Ptr) (flo0 fhi0 : Int) (f_ : Ptr) (ulo0 uhi0 : Int)
    (u_ r_ : Ptr) : Cmd T :=
  let offset := offset0 offset_ 1 stencilsize
  let stencil := sm1d stencil_ stencilsize slo0 shi0
  let u := box1d u_ ulo0 uhi0
  let f := box1d f_ flo0 fhi0
  let r := box1d r_ lo0 hi0
  let w : T := (2 : Nat) / (3 : Nat)
  block [
    doLoop lo0 hi0 fun i => block [
      assign r [i] (f.el [i]),
      doLoop 0 (stencilsize - 1) fun s m => do
        let io ← intRef offset [0, s] m
        assign r [i] (r.el [i] - stencil.el [s, i] * u.el [i + io]) m,
      assign r [i] (r.el [i] / stencil.el [0, i])],
    doLoop lo0 hi0 fun i => assign u [i] (u.el [i] + .const w * r.el [i])]

/-- `cellgs1d` (m4/cellsmooth1d.m4:83-121); `f` is declared with the bounds of `u` -/
def cellgs1d (lo0 hi0 stencilsize : Int) (offset_ : Ptr) (slo0 shi0 : Int) (stencil_ : Ptr) (_flo0 _fhi0 : Int) (f_ : Ptr) (ulo0 uhi0 : Int)
    (u_ : Ptr) : Cmd T :=
  let offset := offset0 offset_ 1 stencilsize
  let stencil := sm1d stencil_ stencilsize slo0 shi0
  let u := box1d u_ ulo0 uhi0
  let f := box1d f_ ulo0 uhi0
  doLoop lo0 hi0 fun i m => do
    let r ← (f.el [i] : Expr T).eval m
    let r ← doLocal 1 (stencilsize - 1) r fun s r => do
      let io ← intRef offset [0, s] m
      (.const r - stencil.el [s, i] * u.el [i + io] : Expr T).eval m
    assign u [i] (.const r / stencil.el [0, i]) m

/-- `cellrbgs1d` (m4/cellsmooth1d.m4:123-163) -/
def cellrbgs1d (lo0 hi0 color stencilsize : Int) (offset_ : Ptr) (slo0 shi0 : Int) (stencil_ : Ptr) (flo0 fhi0 : Int) (f_ : Ptr) (ulo0 uhi0 : Int)
    (u_ : Ptr) : Cmd T :=
  let offset := offset0 offset_ 1 stencilsize
  let stencil := sm1d stencil_ stencilsize slo0 shi0
  let u := box1d u_ ulo0 uhi0
  let f := box1d f_ flo0 fhi0
  doStep (lo0 + color.tmod 2) hi0 2 fun i m => do
    let r ← (f.el [i] : Expr T).eval m
    let r ← doLocal 1 (stencilsize - 1) r fun s r => do
      let io ← intRef offset [0, s] m
      (.const r - stencil.el [s, i] * u.el [i + io] : Expr T).eval m
    assign u [i] (.const r / stencil.el [0, i]) m

/-! ### two dimensions -/

/-- `celljacobi2d` (m4/cellsmooth2d.m4:35-86); `w=0.8` is a single precision constant, 13421773 / 2^24 -/
def celljacobi2d (lo0 hi0 lo1 hi1 stencilsize : Int) (offset_ : Ptr) (slo0 shi0 slo1 shi1 : Int) (stencil_ : Ptr) (flo0 fhi0 flo1 fhi1 : Int) (f_ : Ptr)
    (ulo0 uhi0 ulo1 uhi1 : Int) (u_ r_ : Ptr) : Cmd T :=
  let offset := offset0 offset_ 2 stencilsize
  let stencil := sm2d stencil_ stencilsize slo0 slo1 shi0 shi1
  let u := box2d u_ ulo0 ulo1 uhi0 uhi1
  let f := box2d f_ flo0 flo1 fhi0 fhi1
  let r := box2d r_ lo0 lo1 hi0 hi1
  let w : T := (13421773 : Nat) / (16777216 : Nat)
  block [
    doLoop lo1 hi1 fun j => doLoop lo0 hi0 fun i => block [
      assign r [i, j] (f.el [i, j]),
      doLoop 0 (stencilsize - 1) fun s m => do
        let io ← intRef offset [0, s] m
        let jo ← intRef offset [1, s] m
        assign r [i, j] (r.el [i, j] - stencil.el [s, i, j] * u.el [i + io, j + jo]) m,
      assign r [i, j] (r.el [i, j] / stencil.el [0, i, j])],
    doLoop lo1 hi1 fun j => doLoop lo0 hi0 fun i => assign u [i, j] (u.el [i, j] + .const w * r.el [i, j])]

/-- `cellgs2d` (m4/cellsmooth2d.m4:88-131) -/
def cellgs2d (lo0 hi0 lo1 hi1 stencilsize : Int) (offset_ : Ptr) (slo0 shi0 slo1 shi1 : Int) (stencil_ : Ptr) (flo0 fhi0 flo1 fhi1 : Int) (f_ : Ptr)
    (ulo0 uhi0 ulo1 uhi1 : Int) (u_ : Ptr) : Cmd T :=
  let offset := offset0 offset_ 2 stencilsize
  let stencil := sm2d stencil_ stencilsize slo0 slo1 shi0 shi1
  let u := box2d u_ ulo0 ulo1 uhi0 uhi1
  let f := box2d f_ flo0 flo1 fhi0 fhi1
  doLoop lo1 hi1 fun j => doLoop lo0 hi0 fun i m => do
    let r ← (f.el [i, j] : Expr T).eval m
    let r ← doLocal 1 (stencilsize - 1) r fun s r => do
      let io ← intRef offset [0, s] m
      let jo ← intRef offset [1, s] m
      (.const r - stencil.el [s, i, j] * u.el [i + io, j + jo] : Expr T).eval m
    assign u [i, j] (.const r / stencil.el [0, i, j]) m

/-- `cellrbgs2d` (m4/cellsmooth2d.m4:133-178) -/
def cellrbgs2d (lo0 hi0 lo1 hi1 color stencilsize : Int) (offset_ : Ptr) (slo0 shi0 slo1 shi1 : Int) (stencil_ : Ptr) (flo0 fhi0 flo1 fhi1 : Int)
    (f_ : Ptr) (ulo0 uhi0 ulo1 uhi1 : Int) (u_ : Ptr) : Cmd T :=
  let offset := offset0 offset_ 2 stencilsize
  let stencil := sm2d stencil_ stencilsize slo0 slo1 shi0 shi1
  let u := box2d u_ ulo0 ulo1 uhi0 uhi1
  let f := box2d f_ flo0 flo1 fhi0 fhi1
  doLoop lo1 hi1 fun j => doStep (lo0 + (j + color).tmod 2) hi0 2 fun i m => do
    let r ← (f.el [i, j] : Expr T).eval m
    let r ← doLocal 1 (stencilsize - 1) r fun s r => do
      let io ← intRef offset [0, s] m
      let jo ← intRef offset [1, s] m
      (.const r - stencil.el [s, i, j] * u.el [i + io, j + jo] : Expr T).eval m
    assign u [i, j] (.const r / stencil.el [0, i, j]) m

/-- `cells5rbgs2d` (m4/cellsmooth2d.m4:180-217) -/
def cells5rbgs2d (lo0 hi0 lo1 hi1 color : Int) (slo0 shi0 slo1 shi1 : Int) (stencil_ : Ptr) (flo0 fhi0 flo1 fhi1 : Int) (f_ : Ptr)
    (ulo0 uhi0 ulo1 uhi1 : Int) (u_ : Ptr) : Cmd T :=
  let stencil := sm2d stencil_ 5 slo0 slo1 shi0 shi1
  let u := box2d u_ ulo0 ulo1 uhi0 uhi1
  let f := box2d f_ flo0 flo1 fhi0 fhi1
  doLoop lo1 hi1 fun j => doStep (lo0 + (j + color).tmod 2) hi0 2 fun i =>
    assign u [i, j] ((f.el [i, j] - stencil.el [1, i, j] * u.el [i - 1, j]
      - stencil.el [2, i, j] * u.el [i + 1, j]
      - stencil.el [3, i, j] * u.el [i, j - 1]
      - stencil.el [4, i, j] * u.el [i, j + 1]) / stencil.el [0, i, j])

/-- `cells9rbgs2d` (m4/cellsmooth2d.m4:219-260) -/
def cells9rbgs2d (lo0 hi0 lo1 hi1 color : Int) (slo0 shi0 slo1 shi1 : Int) (stencil_ : Ptr) (flo0 fhi0 flo1 fhi1 : Int) (f_ : Ptr)
    (ulo0 uhi0 ulo1 uhi1 : Int) (u_ : Ptr) : Cmd T :=
  let stencil := sm2d stencil_ 9 slo0 slo1 shi0 shi1
  let u := box2d u_ ulo0 ulo1 uhi0 uhi1
  let f := box2d f_ flo0 flo1 fhi0 fhi1
  doLoop lo1 hi1 fun j => doStep (lo0 + (j + color).tmod 2) hi0 2 fun i =>
    assign u [i, j] ((f.el [i, j] - stencil.el [1, i, j] * u.el [i - 1, j + 0]
      - stencil.el [2, i, j] * u.el [i + 1, j + 0]
      - stencil.el [3, i, j] * u.el [i + 0, j - 1]
      - stencil.el [4, i, j] * u.el [i + 0, j + 1]
      - stencil.el [5, i, j] * u.el [i - 1, j - 1]
      - stencil.el [6, i, j] * u.el [i + 1, j - 1]
      - stencil.el [7, i, j] * u.el [i - 1, j + 1]
      - stencil.el [8, i, j] * u.el [i + 1, j + 1]) / stencil.el [0, i, j])

/-! ### three dimensions -/

/-- `celljacobi3d` (m4/cellsmooth3d.m4:35-103) -/
def celljacobi3d (lo0 hi0 lo1 hi1 lo2 hi2 stencilsize : Int) (offset_ : Ptr) (slo0 shi0 slo1 shi1 slo2 shi2 : Int) (stencil_ : Ptr)
    (flo0 fhi0 flo1 fhi1 flo2 fhi2 : Int) (f_ : Ptr) (ulo0 uhi0 ulo1 uhi1 ulo2 uhi2 : Int) (u_ r_ : Ptr) : Cmd T :=
  let offset := offset0 offset_ 3 stencilsize
  let stencil := sm3d stencil_ stencilsize slo0 slo1 slo2 shi0 shi1 shi2
  let u := box3d u_ ulo0 ulo1 ulo2 uhi0 uhi1 uhi2
  let f := box3d f_ flo0 flo1 flo2 fhi0 fhi1 fhi2
  let r := box3d r_ lo0 lo1 lo2 hi0 hi1 hi2
  let w : T := (8 : Nat) / (10 : Nat)
  block [
    doLoop lo2 hi2 fun k => doLoop lo1 hi1 fun j => doLoop lo0 hi0 fun i => block [
      assign r [i, j, k] (f.el [i, j, k]),
      doLoop 0 (stencilsize - 1) fun s m => do
        let io ← intRef offset [0, s] m
        let jo ← intRef offset [1, s] m
        let ko ← intRef offset [2, s] m
        assign r [i, j, k] (r.el [i, j, k] - stencil.el [s, i, j, k] * u.el [i + io, j + jo, k + ko]) m,
      assign r [i, j, k] (r.el [i, j, k] / stencil.el [0, i, j, k])],
    doLoop lo2 hi2 fun k => doLoop lo1 hi1 fun j => doLoop lo0 hi0 fun i => assign u [i, j, k] (u.el [i, j, k] + .const w * r.el [i, j, k])]

/-- `cellgs3d` (m4/cellsmooth3d.m4:105-163) -/
def cellgs3d (lo0 hi0 lo1 hi1 lo2 hi2 stencilsize : Int) (offset_ : Ptr) (slo0 shi0 slo1 shi1 slo2 shi2 : Int) (stencil_ : Ptr)
    (flo0 fhi0 flo1 fhi1 flo2 fhi2 : Int) (f_ : Ptr) (ulo0 uhi0 ulo1 uhi1 ulo2 uhi2 : Int) (u_ : Ptr) : Cmd T :=
  let offset := offset0 offset_ 3 stencilsize
  let stencil := sm3d stencil_ stencilsize slo0 slo1 slo2 shi0 shi1 shi2
  let u := box3d u_ ulo0 ulo1 ulo2 uhi0 uhi1 uhi2
  let f := box3d f_ flo0 flo1 flo2 fhi0 fhi1 fhi2
  doLoop lo2 hi2 fun k => doLoop lo1 hi1 fun j => doLoop lo0 hi0 fun i m => do
    let r ← (f.el [i, j, k] : Expr T).eval m
    let r ← doLocal 1 (stencilsize - 1) r fun s r => do
      let io ← intRef offset [0, s] m
      let jo ← intRef offset [1, s] m
      let ko ← intRef offset [2, s] m
      (.const r - stencil.el [s, i, j, k] * u.el [i + io, j + jo, k + ko] : Expr T).eval m
    assign u [i, j, k] (.const r / stencil.el [0, i, j, k]) m

/-- `cellrbgs3d` (m4/cellsmooth3d.m4:165-225) -/
def cellrbgs3d (lo0 hi0 lo1 hi1 lo2 hi2 color stencilsize : Int) (offset_ : Ptr) (slo0 shi0 slo1 shi1 slo2 shi2 : Int) (stencil_ : Ptr)
    (flo0 fhi0 flo1 fhi1 flo2 fhi2 : Int) (f_ : Ptr) (ulo0 uhi0 ulo1 uhi1 ulo2 uhi2 : Int) (u_ : Ptr) : Cmd T :=
  let offset := offset0 offset_ 3 stencilsize
  let stencil := sm3d stencil_ stencilsize slo0 slo1 slo2 shi0 shi1 shi2
  let u := box3d u_ ulo0 ulo1 ulo2 uhi0 uhi1 uhi2
  let f := box3d f_ flo0 flo1 flo2 fhi0 fhi1 fhi2
  doLoop lo2 hi2 fun k => doLoop lo1 hi1 fun j => doStep (lo0 + (((j + k).natAbs : Int) + color).tmod 2) hi0 2 fun i m => do
    let r ← (f.el [i, j, k] : Expr T).eval m
    let r ← doLocal 1 (stencilsize - 1) r fun s r => do
      let io ← intRef offset [0, s] m
      let jo ← intRef offset [1, s] m
      let ko ← intRef offset [2, s] m
      (.const r - stencil.el [s, i, j, k] * u.el [i + io, j + jo, k + ko] : Expr T).eval m
    assign u [i, j, k] (.const r / stencil.el [0, i, j, k]) m

/-- `cells7rbgs3d` (m4/cellsmooth3d.m4:227-279) -/
def cells7rbgs3d (lo0 hi0 lo1 hi1 lo2 hi2 color : Int) (slo0 shi0 slo1 shi1 slo2 shi2 : Int) (stencil_ : Ptr)
    (flo0 fhi0 flo1 fhi1 flo2 fhi2 : Int) (f_ : Ptr) (ulo0 uhi0 ulo1 uhi1 ulo2 uhi2 : Int) (u_ : Ptr) : Cmd T :=
  let stencil := sm3d stencil_ 7 slo0 slo1 slo2 shi0 shi1 shi2
  let u := box3d u_ ulo0 ulo1 ulo2 uhi0 uhi1 uhi2
  let f := box3d f_ flo0 flo1 flo2 fhi0 fhi1 fhi2
  doLoop lo2 hi2 fun k => doLoop lo1 hi1 fun j => doStep (lo0 + (((j + k).natAbs : Int) + color).tmod 2) hi0 2 fun i => block [
    assign u [i, j, k] (f.el [i, j, k] - stencil.el [1, i, j, k] * u.el [i - 1, j, k]
      - stencil.el [2, i, j, k] * u.el [i + 1, j, k]
      - stencil.el [3, i, j, k] * u.el [i, j - 1, k]
      - stencil.el [4, i, j, k] * u.el [i, j + 1, k]
      - stencil.el [5, i, j, k] * u.el [i, j, k - 1]
      - stencil.el [6, i, j, k] * u.el [i, j, k + 1]),
    assign u [i, j, k] (u.el [i, j, k] / stencil.el [0, i, j, k])]

end Verif.F
