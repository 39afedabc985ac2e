import Verif.Model.Span
import Verif.Model.Window

/-
Transcription of the class md_device_vector (src/md_device_vector.hpp:33-156): a host copy, a device copy, a flag.
-/

namespace Verif

/-- data members (src/md_device_vector.hpp:132-136); `copies` counts the device-to-host copies and is read by nothing -/
structure DevVec (T : Type) where
  h : List T
  d : List T
  geo : List DB
  sync : Bool
  copies : Nat

namespace DevVec

variable {T : Type}

/-- the constructor from bounds (src/md_device_vector.hpp:41-44): `bounds_sz` is the same fold as in `with_domain`
(src/cuda/md_bounds.hpp:156-160), `h(n)` holds n value-initialised elements, `d(h)` copies them.  A negative size throws.
The default constructor (src/md_device_vector.hpp:40) leaves `sync` indeterminate and is not modelled. -/
def make (zero : T) (bnds : List DB) : M (DevVec T) := do
  let n ← foldSize bnds
  if n < 0 then .error .illFormed
  else .ok ⟨List.replicate n.toNat zero, List.replicate n.toNat zero, bnds, true, 0⟩

/-- `make_md_vec(bnds...)` (src/md_device_vector.hpp:139-143) -/
def makeVec (zero : T) (bnds : List DB) : M (DevVec T) := make zero bnds

/-- `make_md_vec(offset, bnds...)` (src/md_device_vector.hpp:145-151) -/
def makeVecOffset (zero : T) (offset : Int) (bnds : List DB) : M (DevVec T) := do
  let g ← bnds.mapM fun x => do
    let b ← expandBounds offset x.1 x.2
    .ok (x.1, b)
  make zero g

/-- `data()`, const or not (src/md_device_vector.hpp:46-57) -/
def data (v : DevVec T) : DevVec T := { v with sync := false }

/-- device code that was given the pointer: any function of the device contents, storing wherever it wants inside the
allocation -/
def kernel (f : List T → Nat → Option T) (v : DevVec T) : DevVec T :=
  { v with d := v.d.mapIdx fun i x => (f v.d i).getD x }

/-- stores through the pointer `host_data()` returns (src/md_device_vector.hpp:59-70) -/
def hostStore (f : List T → Nat → Option T) (v : DevVec T) : DevVec T :=
  { v with h := v.h.mapIdx fun i x => (f v.h i).getD x }

/-- `host()` (src/md_device_vector.hpp:72-79): the vector returned is `h` of the result -/
def host (v : DevVec T) : DevVec T :=
  if v.sync then v else { v with sync := true, h := v.d, copies := v.copies + 1 }

/-- `operator std::vector<T>()` (src/md_device_vector.hpp:81-93): the result is a copy of `h` into a vector of the size `h` had
before -/
def toStd (v : DevVec T) : DevVec T × List T :=
  let w := if v.sync then v else { v with sync := true, h := v.d, copies := v.copies + 1 }
  (w, w.h)

/-- `fill_random`: the numbers drawn are arbitrary (src/md_device_vector.hpp:112-118) -/
def fill (xs : Nat → T) (v : DevVec T) : DevVec T :=
  let h := v.h.mapIdx fun i _ => xs i
  { v with h := h, d := h, sync := true }

/-- the loop of `set_offset`: `h[n * sz + i] = idx[i]` from `i` on; a store outside the vector is an error
(src/md_device_vector.hpp:126-127) -/
def offsetLoop (n sz : Int) : Int → List T → List T → M (List T)
  | _, [], h => .ok h
  | i, x :: xs, h => do
    let a ← imul n sz
    let k ← iadd a i
    if 0 ≤ k ∧ k < h.length then offsetLoop n sz (i + 1) xs (h.set k.toNat x)
    else .error .oob

/-- `set_offset(n, args...)` (src/md_device_vector.hpp:120-130); the assertion compares the number of arguments with the last
bound -/
def setOffset (n : Int) (args : List T) (v : DevVec T) : M (DevVec T) := do
  match v.geo.getLast? with
  | none => .error .illFormed
  | some (_, b) => do
    let s ← b.size
    if s ≠ args.length then .error .illFormed
    else do
      let h ← offsetLoop n args.length 0 args v.h
      .ok { v with h := h, d := h }

/-- `index(args...)` (src/md_device_vector.hpp:95-106) -/
def index (v : DevVec T) (args : List Int) : M Int :=
  if args.length ≠ v.geo.length then .error .illFormed
  else do
    let c ← (args.zip v.geo).mapM fun x => isub x.1 x.2.2.lb
    let sz ← v.geo.mapM (·.2.size)
    ravel sz c

/-- `size()` (src/md_device_vector.hpp:108) -/
def size (v : DevVec T) : Int := v.h.length

end DevVec

/-- operations on a device vector -/
inductive VecOp (T : Type) where
  | data
  | kernel (f : List T → Nat → Option T)
  | hostStore (f : List T → Nat → Option T)
  | host
  | toStd
  | fill (xs : Nat → T)
  | setOffset (n : Int) (args : List T)

def VecOp.run {T : Type} (v : DevVec T) : VecOp T → M (DevVec T)
  | .data => .ok v.data
  | .kernel f => .ok (v.kernel f)
  | .hostStore f => .ok (v.hostStore f)
  | .host => .ok v.host
  | .toStd => .ok v.toStd.1
  | .fill xs => .ok (v.fill xs)
  | .setOffset n args => v.setOffset n args

/-- operations one after the other -/
def runOps {T : Type} : List (VecOp T) → DevVec T → M (DevVec T)
  | [], v => .ok v
  | o :: os, v => do
    let w ← o.run v
    runOps os w

/-- `make_offset_vec(n, dims)`: `Wb{0, n - 1}, Ib{0, dims - 1}` (src/md_device_vector.hpp:153-156), storage in this order -/
def makeOffsetVec (n dims : Int) : M (DevVec Int) := do
  let n' ← isub n 1
  let d' ← isub dims 1
  let w ← Bounds.make 0 n'
  let i ← Bounds.make 0 d'
  DevVec.make 0 [(Dim.W, w), (Dim.I, i)]

end Verif
