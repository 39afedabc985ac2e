import Verif.Model.DeviceVector
import Verif.Model.Memory

/-
What the programs src/cd_*.t.cpp are made of: vectors with a host and a device copy (class md_device_vector), calls of Fortran routines on the
host copies, calls of kernels on the device copies, comparisons.

The vectors of a test case are numbered in the order of their declaration; vector `k` lies in block `k` of host memory and in block `k` of device
memory.
-/

namespace Verif.Test

variable {T : Type}

/-- `v.host_data()` and `v.data()`: the first element of vector `k` (src/md_device_vector.hpp:46-70) -/
def at_ (k : Nat) : Ptr := ⟨k, 0⟩

/-- the elements of lists, block by block -/
def blocks (ls : List (List T)) : Mem T :=
  { val := fun q => if 0 ≤ q.off then (ls[q.blk]?).bind fun l => l[q.off.toNat]? else none
    ints := fun _ => none }

/-- host memory: the members `h` -/
def hostMem (vs : List (DevVec T)) : Mem T := blocks (vs.map (·.h))

/-- device memory: the members `d` -/
def devMem (vs : List (DevVec T)) : Mem T := blocks (vs.map (·.d))

/-- what memory holds in block `k` after a call, element by element -/
def newBlock (m : Mem T) (k : Nat) (l : List T) : List T := l.mapIdx fun i x => (m.val ⟨k, (i : Int)⟩).getD x

/-- a Fortran routine called with pointers from `host_data()`: it works on the host copies; the flags stay as they are
(src/md_device_vector.hpp:59-70) -/
def onHost (c : Mem T → M (Mem T)) (vs : List (DevVec T)) : M (List (DevVec T)) := do
  let m ← c (hostMem vs)
  .ok (vs.mapIdx fun k v => { v with h := newBlock m k v.h })

/-- a kernel called with pointers from `data()` of the vectors `args`: it works on the device copies; `data()` clears the flag
(src/md_device_vector.hpp:46-57) -/
def onDevice (args : List Nat) (c : Mem T → M (Mem T)) (vs : List (DevVec T)) : M (List (DevVec T)) := do
  let m ← c (devMem vs)
  .ok (vs.mapIdx fun k v => { (if k ∈ args then v.data else v) with d := newBlock m k v.d })

/-- `std::vector<T> x = v` for vector `k` (src/md_device_vector.hpp:81-93) -/
def std (k : Nat) (vs : List (DevVec T)) : M (List T × List (DevVec T)) :=
  match vs[k]? with
  | some v => .ok (v.toStd.2, vs.set k v.toStd.1)
  | none => .error .illFormed

/-- `compare<T>(x, y)` of two vectors, that is `REQUIRE_THAT(x, Approx(y))` (for instance src/cd_flux_2d.t.cpp:34-38): whether the vectors have the
same length and the same elements.  `Approx` allows for rounding errors as well; equal elements pass in any case. -/
def compare [DecidableEq T] (a b : Nat) (vs : List (DevVec T)) : M (Bool × List (DevVec T)) := do
  let (x, vs) ← std a vs
  let (y, vs) ← std b vs
  .ok (decide (x = y), vs)

/-- comparisons one after the other; whether all of them hold -/
def compareAll [DecidableEq T] : List (Nat × Nat) → List (DevVec T) → M Bool
  | [], _ => .ok true
  | p :: ps, vs => do
    let (r, vs) ← compare p.1 p.2 vs
    let r' ← compareAll ps vs
    .ok (r && r')

/-- `thrust::device_vector<T> w = v.host()` (for instance src/cd_correct_bc_2d.t.cpp:70): a device vector with the elements of `h`.  It is treated as a
vector whose host copy nobody asks for; `to_std(w)` reads its elements (src/md_device_vector.hpp:158-164), as the conversion of a vector
whose flag is cleared does. -/
def copyOfHost (v : DevVec T) : DevVec T := { v with d := v.host.h, h := v.host.h, sync := true }

end Verif.Test
