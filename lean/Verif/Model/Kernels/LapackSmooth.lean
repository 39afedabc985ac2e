import Verif.Spec.Elements
import Verif.Model.Kernels.Smooth

/-
Transcription of the two smoothers that call LAPACK: `ccellblkjacobi3d` (m4/cellsmooth3d.m4) and `creatematrix`, `apply`, `cellblockjacobi3d`
(m4/cellblocksmooth3d.m4).

Simplifications: LAPACK is a parameter, a function from the matrix and the right hand side to what the call leaves in the right hand side (the
factorisation it leaves in the matrix is not read again).  A whole-array assignment reads all values before it writes any.  Local arrays are functions;
automatic arrays that are as large as the box are storage provided by the caller, as in m4/cellsmooth*.m4.  INTEGER arithmetic is exact.  The messages
written on errors are left out.
-/

namespace Verif.F

variable {T : Type}

/-- what a call of LAPACK leaves in the right hand side `b`: order of the system, matrix, `b`; all indices count from 1 -/
abbrev Lapack (T : Type) := Int → (Int → Int → T) → (Int → T) → Int → T

/-- the values of an expression for `c = lo, ..., hi`; `z` elsewhere, where nothing reads them -/
def vec {X : Type} (z : X) (lo hi : Int) (e : Int → M X) : M (Int → X) :=
  (irange lo hi).foldlM (fun v c => do
    let x ← e c
    .ok (fun d => if d = c then x else v d)) fun _ => z

variable [Zero T] [NatCast T] [Add T] [Sub T] [Mul T] [Div T] [Neg T]

/-- `a(:,is)` for `a` declared `(ndof,...)` -/
def column (a : Arr) (ndof : Int) (is : List Int) (m : Mem T) : M (Int → T) := vec 0 1 ndof fun c => (a.el (c :: is)).eval m

/-- `a(:,is) = v` -/
def setColumn (a : Arr) (ndof : Int) (is : List Int) (v : Int → T) : Cmd T := doLoop 1 ndof fun c => assign a (c :: is) (.const (v c))

/-- `reshape(stencil(s,:,is), (/ndof,ndof/))`: the first index varies fastest -/
def couplings (stencil : Arr) (ndof s : Int) (is : List Int) (m : Mem T) : M (Int → Int → T) :=
  vec (fun _ => 0) 1 ndof fun c => vec 0 1 ndof fun d => (stencil.el (s :: ((d - 1) * ndof + c) :: is)).eval m

/-- `matmul(block, w)` -/
def matvec (ndof : Int) (block : Int → Int → T) (w : Int → T) (c : Int) : T := sum 1 ndof fun d => block c d * w d

/-- `x(ndof,CELL3d(lo,hi,g))` -/
def dof3d (t : Ptr) (ndof lo0 lo1 lo2 hi0 hi1 hi2 g : Int) : Arr := ⟨t, [(1, ndof), (lo0 - g, hi0 + g), (lo1 - g, hi1 + g), (lo2 - g, hi2 + g)]⟩

/-- `stencil(size, ndof*ndof,CELL3d(lo,hi,0))` -/
def dofst3d (t : Ptr) (size ndof lo0 lo1 lo2 hi0 hi1 hi2 : Int) : Arr :=
  ⟨t, [(1, size), (1, ndof * ndof), (lo0 - 0, hi0 + 0), (lo1 - 0, hi1 + 0), (lo2 - 0, hi2 + 0)]⟩

/-- the body of the loops of `ccellblkjacobi3d` (m4/cellsmooth3d.m4:322-333) -/
def ccellblk (dgesv : Lapack T) (offset stencil f u r : Arr) (size ndof : Int) (i j k : Int) : Cmd T := block [
  fun m => do
    let x ← column f ndof [i, j, k] m
    setColumn r ndof [i, j, k] x m,
  doLoop 2 size fun s m => do
    let io ← intRef offset [1, s] m
    let jo ← intRef offset [2, s] m
    let ko ← intRef offset [3, s] m
    let blk ← couplings stencil ndof s [i, j, k] m
    let x ← column r ndof [i, j, k] m
    let w ← column u ndof [i + io, j + jo, k + ko] m
    setColumn r ndof [i, j, k] (fun c => x c - matvec ndof blk w c) m,
  fun m => do
    let blk ← couplings stencil ndof 1 [i, j, k] m
    let x ← column r ndof [i, j, k] m
    setColumn r ndof [i, j, k] (dgesv ndof blk x) m,
  fun m => do
    let y ← column u ndof [i, j, k] m
    let x ← column r ndof [i, j, k] m
    setColumn u ndof [i, j, k] (fun c => y c + x c) m]

/-- `ccellblkjacobi3d` (m4/cellsmooth3d.m4:281-339) -/
def ccellblkjacobi3d (dgesv : Lapack T) (lo0 hi0 lo1 hi1 lo2 hi2 size : Int) (offset_ stencil_ : Ptr) (ndof fgcw : Int) (f_ : Ptr) (ugcw : Int) (u_ : Ptr)
    (rgcw : Int) (r_ : Ptr) : Cmd T :=
  let offset := offsets offset_ 3 size
  let stencil := dofst3d stencil_ size ndof lo0 lo1 lo2 hi0 hi1 hi2
  let f := dof3d f_ ndof lo0 lo1 lo2 hi0 hi1 hi2 fgcw
  let u := dof3d u_ ndof lo0 lo1 lo2 hi0 hi1 hi2 ugcw
  let r := dof3d r_ ndof lo0 lo1 lo2 hi0 hi1 hi2 rgcw
  doLoop lo2 hi2 fun k => doLoop lo1 hi1 fun j => doLoop lo0 hi0 fun i => ccellblk dgesv offset stencil f u r size ndof i j k

/-! ### m4/cellblocksmooth3d.m4 -/

/-- `creatematrix` (m4/cellblocksmooth3d.m4:7-45): the dense matrix `A(0:n-1,0:n-1)` as a function; `stencil` is the local array of the caller -/
def creatematrix (A : Int → Int → T) (stencilSize : Int) (stencil : List Int → T) (offset : Arr) (bSizeX bSizeY bSizeZ : Int) (m : Mem T) :
    M (Int → Int → T) :=
  let ref (is : List Int) : M T :=
    if InBounds [(0, stencilSize - 1), (0, bSizeX - 1), (0, bSizeY - 1), (0, bSizeZ - 1)] is then .ok (stencil is) else .error .oob
  let set (A : Int → Int → T) (a b : Int) (v : T) : M (Int → Int → T) :=
    if InBounds [(0, bSizeX * bSizeY * bSizeZ - 1), (0, bSizeX * bSizeY * bSizeZ - 1)] [a, b] then .ok (fun x y => if x = a ∧ y = b then v else A x y)
    else .error .oob
  (irange 0 (bSizeZ - 1)).foldlM (fun A k => (irange 0 (bSizeY - 1)).foldlM (fun A j => (irange 0 (bSizeX - 1)).foldlM (fun A i => do
    let idx := k * bSizeY * bSizeX + j * bSizeX + i
    let v ← ref [0, i, j, k]
    let A ← set A idx idx v
    (irange 1 stencilSize).foldlM (fun A s => do
      let o0 ← intRef offset [0, s] m
      let o1 ← intRef offset [1, s] m
      let o2 ← intRef offset [2, s] m
      let ix := i + o0
      let iy := j + o1
      let iz := k + o2
      if ix ≥ 0 ∧ ix < bSizeX ∧ iy ≥ 0 ∧ iy < bSizeY ∧ iz ≥ 0 ∧ iz < bSizeZ then do
        let idxr := iz * bSizeY * bSizeX + iy * bSizeX + ix
        let v ← ref [s, i, j, k]
        set A idx idxr v
      else .ok A) A) A) A) A

/-- all elements of a local array `(0:nx-1,0:ny-1,0:nz-1)` -/
def vec3 (nx ny nz : Int) (e : Int → Int → Int → M T) : M (Int → Int → Int → T) :=
  vec (fun _ _ => 0) 0 (nx - 1) fun a => vec (fun _ => 0) 0 (ny - 1) fun b => vec 0 0 (nz - 1) fun c => e a b c

/-- the block at `i, j, k` (m4/cellblocksmooth3d.m4:156-181).  `apply` (m4/cellblocksmooth3d.m4:48-78) copies the right hand side and calls `dgetrf` and
`dgetrs`; its arrays count from 0 -/
def cellblock (lapack : Lapack T) (offset stencil u r : Arr) (stencilSize bSizeX bSizeY bSizeZ : Int) (w : T) (i j k : Int) : Cmd T := fun m => do
  let br ← vec3 bSizeX bSizeY bSizeZ fun a b c => (r.el [i + a, j + b, k + c]).eval m
  let bst ← vec (fun _ _ _ => 0) 0 (stencilSize - 1) fun s => vec3 bSizeX bSizeY bSizeZ fun a b c => (stencil.el [s, i + a, j + b, k + c]).eval m
  let A ← creatematrix (fun _ _ => 0) stencilSize (fun is => bst (is.getD 0 0) (is.getD 1 0) (is.getD 2 0) (is.getD 3 0)) offset bSizeX bSizeY bSizeZ m
  let x := lapack (bSizeX * bSizeY * bSizeZ) (fun a b => A (a - 1) (b - 1))
    (fun p => br ((p - 1) % bSizeX) ((p - 1) / bSizeX % bSizeY) ((p - 1) / (bSizeX * bSizeY)))
  let v ← vec3 bSizeX bSizeY bSizeZ fun a b c => (u.el [i + a, j + b, k + c]).eval m
  doLoop 0 (bSizeZ - 1) (fun c => doLoop 0 (bSizeY - 1) fun b => doLoop 0 (bSizeX - 1) fun a =>
    assign u [i + a, j + b, k + c] (.const (v a b c + w * x (c * bSizeY * bSizeX + b * bSizeX + a + 1)))) m

/-- `cellblockjacobi3d` (m4/cellblocksmooth3d.m4:80-188); `0.8D0` is a double precision constant, here `8 / 10` -/
def cellblockjacobi3d (lapack : Lapack T) (lo0 hi0 lo1 hi1 lo2 hi2 stencilSize : Int) (offset_ stencil_ : Ptr) (flo0 fhi0 flo1 fhi1 flo2 fhi2 : Int)
    (f_ : Ptr) (ulo0 uhi0 ulo1 uhi1 ulo2 uhi2 : Int) (u_ : Ptr) (bDispX_ : Ptr) (bNumX bSizeX : Int) (bDispY_ : Ptr) (bNumY bSizeY : Int)
    (bDispZ_ : Ptr) (bNumZ bSizeZ : Int) (r_ : Ptr) : Cmd T :=
  let offset := offset0 offset_ 3 stencilSize
  let stencil := sm3d stencil_ stencilSize lo0 lo1 lo2 hi0 hi1 hi2
  let u := box3d u_ ulo0 ulo1 ulo2 uhi0 uhi1 uhi2
  let f := box3d f_ flo0 flo1 flo2 fhi0 fhi1 fhi2
  let r := box3d r_ lo0 lo1 lo2 hi0 hi1 hi2
  let bDispX : Arr := ⟨bDispX_, [(0, bNumX - 1)]⟩
  let bDispY : Arr := ⟨bDispY_, [(0, bNumY - 1)]⟩
  let bDispZ : Arr := ⟨bDispZ_, [(0, bNumZ - 1)]⟩
  let w : T := (8 : Nat) / (10 : Nat)
  block [
    doLoop lo2 hi2 fun k => doLoop lo1 hi1 fun j => doLoop lo0 hi0 fun i => block [
      assign r [i, j, k] (f.el [i, j, k]),
      doLoop 0 (stencilSize - 1) fun s m => do
        let io ← intRef offset [0, s] m
        let jo ← intRef offset [1, s] m
        let ko ← intRef offset [2, s] m
        assign r [i, j, k] (r.el [i, j, k] - stencil.el [s, i, j, k] * u.el [i + io, j + jo, k + ko]) m],
    fun m => do
      let z0 ← intRef bDispZ [0] m
      let z1 ← intRef bDispZ [bNumZ - 1] m
      doStep (lo2 + z0) (lo2 + z1) bSizeZ (fun k m => do
        let y0 ← intRef bDispY [0] m
        let y1 ← intRef bDispY [bNumY - 1] m
        doStep (lo1 + y0) (lo1 + y1) bSizeY (fun j m => do
          let x0 ← intRef bDispX [0] m
          let x1 ← intRef bDispX [bNumX - 1] m
          doStep (lo0 + x0) (lo0 + x1) bSizeX (fun i => cellblock lapack offset stencil u r stencilSize bSizeX bSizeY bSizeZ w i j k) m) m) m]

end Verif.F
