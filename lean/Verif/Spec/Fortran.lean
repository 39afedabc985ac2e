import Verif.Model.Memory

/-
The part of Fortran 77 the reference kernels in /repo/m4 use: explicit-shape dummy arrays (column-major), scalar expressions,
assignments, DO loops with step 1, sequences.  INTEGER arithmetic is exact (the kernels only form indices next to declared bounds).
Referring to an element outside the declared bounds is the error `oob`.
-/

namespace Verif.F

/-- a dummy array: where it starts and its declared bounds `(l:u, ...)`, leftmost varying fastest -/
structure Arr where
  ptr : Ptr
  dims : List (Int × Int)
deriving DecidableEq, Repr

/-- the index list lies within the declared bounds -/
def InBounds : List (Int × Int) → List Int → Prop
  | [], [] => True
  | (l, u) :: ds, i :: is => (l ≤ i ∧ i ≤ u) ∧ InBounds ds is
  | _, _ => False

instance decInBounds : ∀ (ds : List (Int × Int)) (is : List Int), Decidable (InBounds ds is)
  | [], [] => isTrue trivial
  | _ :: ds, _ :: is =>
    have := decInBounds ds is
    inferInstanceAs (Decidable (_ ∧ _))
  | [], _ :: _ => isFalse id
  | _ :: _, [] => isFalse id

/-- column-major offset -/
def colMajor : List (Int × Int) → List Int → Int
  | (l, u) :: ds, i :: is => i - l + (u - l + 1) * colMajor ds is
  | _, _ => 0

/-- address of an element -/
def Arr.addr (a : Arr) (is : List Int) : M Ptr :=
  if InBounds a.dims is then .ok (a.ptr.add (colMajor a.dims is)) else .error .oob

/-- scalar expressions -/
inductive Expr (T : Type) where
  | const (t : T)
  | ref (a : Arr) (is : List Int)
  | neg (e : Expr T)
  | add (e f : Expr T)
  | sub (e f : Expr T)
  | mul (e f : Expr T)
  | div (e f : Expr T)

namespace Expr

variable {T : Type}

instance : Neg (Expr T) := ⟨neg⟩
instance : Add (Expr T) := ⟨add⟩
instance : Sub (Expr T) := ⟨sub⟩
instance : Mul (Expr T) := ⟨mul⟩
instance : Div (Expr T) := ⟨div⟩
instance : Coe T (Expr T) := ⟨const⟩

variable [Add T] [Sub T] [Mul T] [Div T] [Neg T]

def eval (m : Mem T) : Expr T → M T
  | const t => .ok t
  | ref a is => do
    let q ← a.addr is
    m.load q
  | neg e => do
    let x ← e.eval m
    .ok (-x)
  | add e f => do
    let x ← e.eval m
    let y ← f.eval m
    .ok (x + y)
  | sub e f => do
    let x ← e.eval m
    let y ← f.eval m
    .ok (x - y)
  | mul e f => do
    let x ← e.eval m
    let y ← f.eval m
    .ok (x * y)
  | div e f => do
    let x ← e.eval m
    let y ← f.eval m
    .ok (x / y)

end Expr

/-- array element as expression -/
abbrev Arr.el {T : Type} (a : Arr) (is : List Int) : Expr T := .ref a is

/-- statements -/
abbrev Cmd (T : Type) := Mem T → M (Mem T)

variable {T : Type}

/-- `a(is) = e` -/
def assign [Add T] [Sub T] [Mul T] [Div T] [Neg T] (a : Arr) (is : List Int) (e : Expr T) : Cmd T := fun m => do
  let v ← e.eval m
  let q ← a.addr is
  m.store q v

/-- `lo, lo + 1, ..., hi` -/
def irange (lo hi : Int) : List Int := (List.range (hi - lo + 1).toNat).map fun k : Nat => lo + k

/-- `do i = lo, hi` -/
def doLoop (lo hi : Int) (body : Int → Cmd T) : Cmd T := fun m => (irange lo hi).foldlM (fun m i => body i m) m

/-- statements one after the other -/
def block : List (Cmd T) → Cmd T
  | [] => .ok
  | c :: cs => fun m => do
    let m' ← c m
    block cs m'

/-- nothing -/
def skip : Cmd T := .ok

/-! ### declared shapes (m4/pdat_m4arrdim1d.i, pdat_m4arrdim2d.i, pdat_m4arrdim3d.i) -/

/-- `CELL1d(lo,hi,g)` -/
def cell1d (t : Ptr) (lo0 hi0 g : Int) : Arr := ⟨t, [(lo0 - g, hi0 + g)]⟩
/-- `FACE1d(lo,hi,g)` -/
def face1d (t : Ptr) (lo0 hi0 g : Int) : Arr := ⟨t, [(lo0 - g, hi0 + 1 + g)]⟩
/-- `CELL2d(lo,hi,g)` -/
def cell2d (t : Ptr) (lo0 lo1 hi0 hi1 g : Int) : Arr := ⟨t, [(lo0 - g, hi0 + g), (lo1 - g, hi1 + g)]⟩
/-- `FACE2d0(lo,hi,g)` -/
def face2d0 (t : Ptr) (lo0 lo1 hi0 hi1 g : Int) : Arr := ⟨t, [(lo0 - g, hi0 + 1 + g), (lo1 - g, hi1 + g)]⟩
/-- `FACE2d1(lo,hi,g)` -/
def face2d1 (t : Ptr) (lo0 lo1 hi0 hi1 g : Int) : Arr := ⟨t, [(lo1 - g, hi1 + 1 + g), (lo0 - g, hi0 + g)]⟩
/-- `CELL3d(lo,hi,g)` -/
def cell3d (t : Ptr) (lo0 lo1 lo2 hi0 hi1 hi2 g : Int) : Arr := ⟨t, [(lo0 - g, hi0 + g), (lo1 - g, hi1 + g), (lo2 - g, hi2 + g)]⟩
/-- `FACE3d0(lo,hi,g)` -/
def face3d0 (t : Ptr) (lo0 lo1 lo2 hi0 hi1 hi2 g : Int) : Arr := ⟨t, [(lo0 - g, hi0 + 1 + g), (lo1 - g, hi1 + g), (lo2 - g, hi2 + g)]⟩
/-- `FACE3d1(lo,hi,g)` -/
def face3d1 (t : Ptr) (lo0 lo1 lo2 hi0 hi1 hi2 g : Int) : Arr := ⟨t, [(lo1 - g, hi1 + 1 + g), (lo2 - g, hi2 + g), (lo0 - g, hi0 + g)]⟩
/-- `FACE3d2(lo,hi,g)` -/
def face3d2 (t : Ptr) (lo0 lo1 lo2 hi0 hi1 hi2 g : Int) : Arr := ⟨t, [(lo2 - g, hi2 + 1 + g), (lo0 - g, hi0 + g), (lo1 - g, hi1 + g)]⟩

/-- `stencil(0:2,CELL1d(lo,hi,g))` -/
def st1d (t : Ptr) (lo0 hi0 g : Int) : Arr := ⟨t, [(0, 2), (lo0 - g, hi0 + g)]⟩
/-- `stencil(0:4,CELL2d(lo,hi,g))` -/
def st2d (t : Ptr) (lo0 lo1 hi0 hi1 g : Int) : Arr := ⟨t, [(0, 4), (lo0 - g, hi0 + g), (lo1 - g, hi1 + g)]⟩
/-- `stencil(0:6,CELL3d(lo,hi,g))` -/
def st3d (t : Ptr) (lo0 lo1 lo2 hi0 hi1 hi2 g : Int) : Arr := ⟨t, [(0, 6), (lo0 - g, hi0 + g), (lo1 - g, hi1 + g), (lo2 - g, hi2 + g)]⟩

/-! ### what callers provide -/

/-- the array is allocated, and its bounds and its number of elements fit an int -/
structure ArrOK (m : Mem T) (a : Arr) : Prop where
  alloc : ∀ is, InBounds a.dims is → ∃ v, m.val (a.ptr.add (colMajor a.dims is)) = some v
  fits : (a.dims.map fun d => d.2 - d.1 + 1).prod ≤ 2147483647
  int : ∀ d ∈ a.dims, InInt d.1 ∧ InInt (d.2 + 1)

/-- the arrays share no element -/
def Apart (a b : Arr) : Prop := ∀ is js, InBounds a.dims is → InBounds b.dims js → a.ptr.add (colMajor a.dims is) ≠ b.ptr.add (colMajor b.dims js)

/-- arguments of a call: all arrays are usable, no output shares an element with an input -/
structure Args (m : Mem T) (ins outs : List Arr) : Prop where
  ok : ∀ a ∈ ins ++ outs, ArrOK m a
  apart : ∀ o ∈ outs, ∀ a ∈ ins, Apart o a

end Verif.F
