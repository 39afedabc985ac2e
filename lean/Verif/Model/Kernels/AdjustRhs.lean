import Verif.Model.Kernels.Smooth

/-
Transcription of m4/celladjustrhs1d.m4, m4/celladjustrhs2d.m4, m4/celladjustrhs3d.m4: terms of the equations moved to the right hand side.

The local array `ul` is a function together with its declared bounds; it starts with arbitrary contents `ul0`.  Simplifications: as for
m4/cellsmooth*.m4.  The loop over the table that ends each branch of `adjcellcrsfinebdryrhs*` is written once per dimension.
-/

namespace Verif.F

variable {T : Type}

/-- `do i = lo, hi` over any state -/
def doSt {σ : Type} (lo hi : Int) (body : Int → σ → M σ) : σ → M σ := fun s => (irange lo hi).foldlM (fun s i => body i s) s

/-- element of a local array -/
def locRef (b : List (Int × Int)) (ul : List Int → T) (is : List Int) : M T := if InBounds b is then .ok (ul is) else .error .oob

/-- assignment to an element of a local array -/
def locSet (b : List (Int × Int)) (ul : List Int → T) (is : List Int) (v : T) : M (List Int → T) :=
  if InBounds b is then .ok (fun js => if js = is then v else ul js) else .error .oob

variable [Zero T] [Add T] [Sub T] [Mul T] [Div T] [Neg T]

/-! ### one dimension -/

/-- the loop over the table in `adjcellcrsfinebdryrhs1d` (m4/celladjustrhs1d.m4:77-80, 84-87) at the cell `p` -/
def bdryrhs1 (offset stencil rhs : Arr) (n : Int) (ul : List Int → T) (p : List Int) : Cmd T :=
  doLoop 0 (n - 1) fun s m => do
    let i ← intRef offset [0, s] m
    let x ← locRef [(-1, 1)] ul [i]
    assign rhs p (rhs.el p - stencil.el (s :: p) * .const x) m

/-- `adjcellcrsfinebdryrhs1d` (m4/celladjustrhs1d.m4:35-92) -/
def adjcellcrsfinebdryrhs1d (ifirst0 ilast0 pfirst0 plast0 side stencilsize : Int) (offset_ stencil_ : Ptr) (gcw : Int)
    (u_ rhs_ : Ptr) (ul0 : List Int → T) : Cmd T := fun m => do
  let offset := offset0 offset_ 1 stencilsize
  let stencil := sm1d stencil_ stencilsize ifirst0 ilast0
  let u := cell1d u_ ifirst0 ilast0 gcw
  let rhs := cell1d rhs_ ifirst0 ilast0 0
  let ul ← doSt (-1) 1 (fun i ul => locSet [(-1, 1)] ul [i] 0) ul0
  let ie0 := pfirst0 + 1 - 2 * side
  if side = 0 then
    let i : Int := -1
    let x ← (u.el [ie0 + i] : Expr T).eval m
    let ul ← locSet [(-1, 1)] ul [i] x
    bdryrhs1 offset stencil rhs stencilsize ul [ie0] m
  else
    let i : Int := 1
    let x ← (u.el [ie0 + i] : Expr T).eval m
    let ul ← locSet [(-1, 1)] ul [i] x
    bdryrhs1 offset stencil rhs stencilsize ul [ie0] m

/-- `celladjustsystemrhspatch1d` (m4/celladjustrhs1d.m4:94-133) -/
def celladjustsystemrhspatch1d (ifirst0 ilast0 noffsets : Int) (offset_ : Ptr) (stencilsize : Int) (stencil_ : Ptr) (ugcw : Int) (u_ : Ptr)
    (fgcw : Int) (f_ : Ptr) : Cmd T :=
  let offset := offsets offset_ 1 noffsets
  let stencil := stn1d stencil_ stencilsize ifirst0 ilast0
  let u := cell1d u_ ifirst0 ilast0 ugcw
  let f := cell1d f_ ifirst0 ilast0 fgcw
  doLoop ifirst0 ilast0 fun i => doLoop 1 noffsets fun s m => do
    let io ← intRef offset [1, s] m
    assign f [i] (f.el [i] + stencil.el [s, i] * u.el [i + io]) m

/-! ### two dimensions -/

/-- the loop over the table in `adjcellcrsfinebdryrhs2d` (m4/celladjustrhs2d.m4:84-89, 97-102, 113-118, 126-131) at the cell `p` -/
def bdryrhs2 (offset stencil rhs : Arr) (n : Int) (ul : List Int → T) (p : List Int) : Cmd T :=
  doLoop 0 (n - 1) fun s m => do
    let i ← intRef offset [0, s] m
    let j ← intRef offset [1, s] m
    let x ← locRef [(-1, 1), (-1, 1)] ul [i, j]
    assign rhs p (rhs.el p - stencil.el (s :: p) * .const x) m

/-- `adjcellcrsfinebdryrhs2d` (m4/celladjustrhs2d.m4:35-136) -/
def adjcellcrsfinebdryrhs2d (ifirst0 ifirst1 ilast0 ilast1 pfirst0 pfirst1 plast0 plast1 direction side stencilsize : Int) (offset_ stencil_ : Ptr) (gcw : Int)
    (u_ rhs_ : Ptr) (ul0 : List Int → T) : Cmd T := fun m => do
  let offset := offset0 offset_ 2 stencilsize
  let stencil := sm2d stencil_ stencilsize ifirst0 ifirst1 ilast0 ilast1
  let u := cell2d u_ ifirst0 ifirst1 ilast0 ilast1 gcw
  let rhs := cell2d rhs_ ifirst0 ifirst1 ilast0 ilast1 0
  let ul ← doSt (-1) 1 (fun i => doSt (-1) 1 (fun j ul => locSet [(-1, 1), (-1, 1)] ul [i, j] 0)) ul0
  if direction = 0 then
    let ie0 := pfirst0 + 1 - 2 * side
    if side = 0 then
      let s ← doSt pfirst1 plast1 (fun ic1 (s : (List Int → T) × Mem T) => do
          let (ul, m) := s
          let i : Int := -1
          let ul ← doSt (-1) 1 (fun j ul => do
              let x ← (u.el [ie0 + i, ic1 + j] : Expr T).eval m
              locSet [(-1, 1), (-1, 1)] ul [i, j] x) ul
          let m ← bdryrhs2 offset stencil rhs stencilsize ul [ie0, ic1] m
          .ok (ul, m)) (ul, m)
      .ok s.2
    else
      let s ← doSt pfirst1 plast1 (fun ic1 (s : (List Int → T) × Mem T) => do
          let (ul, m) := s
          let i : Int := 1
          let ul ← doSt (-1) 1 (fun j ul => do
              let x ← (u.el [ie0 + i, ic1 + j] : Expr T).eval m
              locSet [(-1, 1), (-1, 1)] ul [i, j] x) ul
          let m ← bdryrhs2 offset stencil rhs stencilsize ul [ie0, ic1] m
          .ok (ul, m)) (ul, m)
      .ok s.2
  else if direction = 1 then
    let ie1 := pfirst1 + 1 - 2 * side
    if side = 0 then
      let s ← doSt pfirst0 plast0 (fun ic0 (s : (List Int → T) × Mem T) => do
          let (ul, m) := s
          let j : Int := -1
          let ul ← doSt (-1) 1 (fun i ul => do
              let x ← (u.el [ic0 + i, ie1 + j] : Expr T).eval m
              locSet [(-1, 1), (-1, 1)] ul [i, j] x) ul
          let m ← bdryrhs2 offset stencil rhs stencilsize ul [ic0, ie1] m
          .ok (ul, m)) (ul, m)
      .ok s.2
    else
      let s ← doSt pfirst0 plast0 (fun ic0 (s : (List Int → T) × Mem T) => do
          let (ul, m) := s
          let j : Int := 1
          let ul ← doSt (-1) 1 (fun i ul => do
              let x ← (u.el [ic0 + i, ie1 + j] : Expr T).eval m
              locSet [(-1, 1), (-1, 1)] ul [i, j] x) ul
          let m ← bdryrhs2 offset stencil rhs stencilsize ul [ic0, ie1] m
          .ok (ul, m)) (ul, m)
      .ok s.2
  else .ok m

/-- `celladjustsystemrhspatch2d` (m4/celladjustrhs2d.m4:138-180); `j` runs over the bounds of the first dimension, `i` over those of the second -/
def celladjustsystemrhspatch2d (ifirst0 ifirst1 ilast0 ilast1 noffsets : Int) (offset_ : Ptr) (stencilsize : Int) (stencil_ : Ptr) (ugcw : Int) (u_ : Ptr)
    (fgcw : Int) (f_ : Ptr) : Cmd T :=
  let offset := offsets offset_ 2 noffsets
  let stencil := stn2d stencil_ stencilsize ifirst0 ifirst1 ilast0 ilast1
  let u := cell2d u_ ifirst0 ifirst1 ilast0 ilast1 ugcw
  let f := cell2d f_ ifirst0 ifirst1 ilast0 ilast1 fgcw
  doLoop ifirst0 ilast0 fun j => doLoop ifirst1 ilast1 fun i => doLoop 1 noffsets fun s m => do
    let io ← intRef offset [1, s] m
    let jo ← intRef offset [2, s] m
    assign f [i, j] (f.el [i, j] + stencil.el [s, i, j] * u.el [i + io, j + jo]) m

/-! ### three dimensions -/

/-- the loop over the table in `adjcellcrsfinebdryrhs3d` (m4/celladjustrhs3d.m4:91-97, 109-115, 131-137, 149-155, 171-177, 189-195) at the cell `p` -/
def bdryrhs3 (offset stencil rhs : Arr) (n : Int) (ul : List Int → T) (p : List Int) : Cmd T :=
  doLoop 0 (n - 1) fun s m => do
    let i ← intRef offset [0, s] m
    let j ← intRef offset [1, s] m
    let k ← intRef offset [2, s] m
    let x ← locRef [(-1, 1), (-1, 1), (-1, 1)] ul [i, j, k]
    assign rhs p (rhs.el p - stencil.el (s :: p) * .const x) m

/-- `adjcellcrsfinebdryrhs3d` (m4/celladjustrhs3d.m4:35-200) -/
def adjcellcrsfinebdryrhs3d (ifirst0 ifirst1 ifirst2 ilast0 ilast1 ilast2 pfirst0 pfirst1 pfirst2 plast0 plast1 plast2 direction side stencilsize : Int) (offset_ stencil_ : Ptr) (gcw : Int)
    (u_ rhs_ : Ptr) (ul0 : List Int → T) : Cmd T := fun m => do
  let offset := offset0 offset_ 3 stencilsize
  let stencil := sm3d stencil_ stencilsize ifirst0 ifirst1 ifirst2 ilast0 ilast1 ilast2
  let u := cell3d u_ ifirst0 ifirst1 ifirst2 ilast0 ilast1 ilast2 gcw
  let rhs := cell3d rhs_ ifirst0 ifirst1 ifirst2 ilast0 ilast1 ilast2 0
  let ul ← doSt (-1) 1 (fun k => doSt (-1) 1 (fun j => doSt (-1) 1 (fun i ul => locSet [(-1, 1), (-1, 1), (-1, 1)] ul [i, j, k] 0))) ul0
  if direction = 0 then
    let ie0 := pfirst0 + 1 - 2 * side
    if side = 0 then
      let s ← doSt pfirst2 plast2 (fun ic2 => doSt pfirst1 plast1 (fun ic1 (s : (List Int → T) × Mem T) => do
          let (ul, m) := s
          let i : Int := -1
          let ul ← doSt (-1) 1 (fun k => doSt (-1) 1 (fun j ul => do
              let x ← (u.el [ie0 + i, ic1 + j, ic2 + k] : Expr T).eval m
              locSet [(-1, 1), (-1, 1), (-1, 1)] ul [i, j, k] x)) ul
          let m ← bdryrhs3 offset stencil rhs stencilsize ul [ie0, ic1, ic2] m
          .ok (ul, m))) (ul, m)
      .ok s.2
    else
      let s ← doSt pfirst2 plast2 (fun ic2 => doSt pfirst1 plast1 (fun ic1 (s : (List Int → T) × Mem T) => do
          let (ul, m) := s
          let i : Int := 1
          let ul ← doSt (-1) 1 (fun k => doSt (-1) 1 (fun j ul => do
              let x ← (u.el [ie0 + i, ic1 + j, ic2 + k] : Expr T).eval m
              locSet [(-1, 1), (-1, 1), (-1, 1)] ul [i, j, k] x)) ul
          let m ← bdryrhs3 offset stencil rhs stencilsize ul [ie0, ic1, ic2] m
          .ok (ul, m))) (ul, m)
      .ok s.2
  else if direction = 1 then
    let ie1 := pfirst1 + 1 - 2 * side
    if side = 0 then
      let s ← doSt pfirst2 plast2 (fun ic2 => doSt pfirst0 plast0 (fun ic0 (s : (List Int → T) × Mem T) => do
          let (ul, m) := s
          let j : Int := -1
          let ul ← doSt (-1) 1 (fun k => doSt (-1) 1 (fun i ul => do
              let x ← (u.el [ic0 + i, ie1 + j, ic2 + k] : Expr T).eval m
              locSet [(-1, 1), (-1, 1), (-1, 1)] ul [i, j, k] x)) ul
          let m ← bdryrhs3 offset stencil rhs stencilsize ul [ic0, ie1, ic2] m
          .ok (ul, m))) (ul, m)
      .ok s.2
    else
      let s ← doSt pfirst2 plast2 (fun ic2 => doSt pfirst0 plast0 (fun ic0 (s : (List Int → T) × Mem T) => do
          let (ul, m) := s
          let j : Int := 1
          let ul ← doSt (-1) 1 (fun k => doSt (-1) 1 (fun i ul => do
              let x ← (u.el [ic0 + i, ie1 + j, ic2 + k] : Expr T).eval m
              locSet [(-1, 1), (-1, 1), (-1, 1)] ul [i, j, k] x)) ul
          let m ← bdryrhs3 offset stencil rhs stencilsize ul [ic0, ie1, ic2] m
          .ok (ul, m))) (ul, m)
      .ok s.2
  else if direction = 2 then
    let ie2 := pfirst2 + 1 - 2 * side
    if side = 0 then
      let s ← doSt pfirst1 plast1 (fun ic1 => doSt pfirst0 plast0 (fun ic0 (s : (List Int → T) × Mem T) => do
          let (ul, m) := s
          let k : Int := -1
          let ul ← doSt (-1) 1 (fun j => doSt (-1) 1 (fun i ul => do
              let x ← (u.el [ic0 + i, ic1 + j, ie2 + k] : Expr T).eval m
              locSet [(-1, 1), (-1, 1), (-1, 1)] ul [i, j, k] x)) ul
          let m ← bdryrhs3 offset stencil rhs stencilsize ul [ic0, ic1, ie2] m
          .ok (ul, m))) (ul, m)
      .ok s.2
    else
      let s ← doSt pfirst1 plast1 (fun ic1 => doSt pfirst0 plast0 (fun ic0 (s : (List Int → T) × Mem T) => do
          let (ul, m) := s
          let k : Int := 1
          let ul ← doSt (-1) 1 (fun j => doSt (-1) 1 (fun i ul => do
              let x ← (u.el [ic0 + i, ic1 + j, ie2 + k] : Expr T).eval m
              locSet [(-1, 1), (-1, 1), (-1, 1)] ul [i, j, k] x)) ul
          let m ← bdryrhs3 offset stencil rhs stencilsize ul [ic0, ic1, ie2] m
          .ok (ul, m))) (ul, m)
      .ok s.2
  else .ok m

end Verif.F
