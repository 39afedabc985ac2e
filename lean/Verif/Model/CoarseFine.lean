import Verif.Model.Span

/-
Transcription of src/cuda/coarse_to_fine_iterator.hpp and of `coarse_to_fine` / `fine` of md_device_span.
-/

namespace Verif

/-- `detail::coarse_index(r, fi)` (src/cuda/coarse_to_fine_iterator.hpp:27-35) -/
def coarseIndex (r fi : Int) : M Int := do
  let neg : Int := if fi < 0 then 1 else 0
  let a ← idiv fi r
  let p ← imul (1 - neg) a
  let f1 ← iadd fi 1
  let b ← idiv f1 r
  let b1 ← isub b 1
  let q ← imul neg b1
  iadd p q

/-- data members of `coarse_to_fine_iterator` (src/cuda/coarse_to_fine_iterator.hpp:88-93) -/
structure C2F where
  first : Ptr
  r : Int
  s : Int
  fi : Int
  ci : Int
deriving DecidableEq, Repr

namespace C2F

/-- constructor (src/cuda/coarse_to_fine_iterator.hpp:48-56) -/
def make (first : Ptr) (ratio stride fine : Int) : M C2F := do
  let ci ← coarseIndex ratio fine
  .ok ⟨first, ratio, stride, fine, ci⟩

/-- the address `dereference()` reads (src/cuda/coarse_to_fine_iterator.hpp:63-66) -/
def addr (c : C2F) : M Ptr := do
  let k ← coarseIndex c.r c.fi
  let d ← isub k c.ci
  let o ← imul d c.s
  .ok (c.first.add o)

/-- `equal()` (src/cuda/coarse_to_fine_iterator.hpp:68-72) -/
def equal (a b : C2F) : Bool := a.fi == b.fi

/-- `increment()` (src/cuda/coarse_to_fine_iterator.hpp:74) -/
def inc (c : C2F) : M C2F := do
  let f ← iadd c.fi 1
  .ok { c with fi := f }

/-- `decrement()` (src/cuda/coarse_to_fine_iterator.hpp:76) -/
def dec (c : C2F) : M C2F := do
  let f ← isub c.fi 1
  .ok { c with fi := f }

/-- `advance(dist)`: the sum is formed in `diff_t` and converted back (src/cuda/coarse_to_fine_iterator.hpp:78) -/
def adv (c : C2F) (dist : Int) : M C2F := do
  let d ← dadd c.fi dist
  let f ← narrow d
  .ok { c with fi := f }

/-- `distance_to()` (src/cuda/coarse_to_fine_iterator.hpp:80-86) -/
def distTo (a b : C2F) : M Int := isub b.fi a.fi

instance : RA C2F := { inc := C2F.inc, dec := C2F.dec, adv := C2F.adv, addr := C2F.addr }

end C2F

/-- `make_coarse_to_fine<I, N>(it, sz, ci, fi, ratio)` (src/cuda/coarse_to_fine_iterator.hpp:96-102) -/
def makeC2F (i : Nat) (it : Ptr) (sz ci : List Int) (fi ratio : Int) : M C2F := do
  let r ← ravel sz ci
  let st ← strideDim sz (i + 1)
  C2F.make (it.add r) ratio st fi

/-- `coarse_to_fine(r, cbnds, fbnds...)` (src/cuda/md_device_span.hpp:511-543): `CO` are the coarse, `FO` the fine
directions; the direction iterated over is the first fine one that is not among the coarse ones (`missing_index_v`,
src/cuda/traits.hpp:362-364) -/
def Span.fine (sp : Span) (r : Int) (cb fb : List DB) : M C2F :=
  if cb.length + 1 ≠ fb.length then .error .illFormed
  else
    match fb.find? fun x => !((cb.map (·.1)).contains x.1) with
    | none => .error .illFormed
    | some x => do
      let fi := x.2.lb
      let order := sp.geo.map (·.1)
      let co := cb.map (·.1)
      let lbB := cb.map (·.2.lb) ++ List.replicate (sp.geo.length - cb.length) 0
      let lb0 ← order.mapM fun d => get lbB (co.idxOf d)
      let base := order.idxOf x.1
      if base < lb0.length then
        let c ← coarseIndex r fi
        let lb1 := lb0.set base c
        let lb ← (lb1.zip sp.geo).mapM fun y => isub y.1 y.2.2.lb
        let sz ← sp.geo.mapM (·.2.size)
        makeC2F base sp.ptr sz lb fi r
      else .error .illFormed

end Verif
