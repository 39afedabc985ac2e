import Verif.Model.Iter

/-
Transcription of src/cuda/forward_stencil_iterator.hpp and of the `stencil` members of
src/cuda/matrix_traversal_iterator.hpp.
-/

namespace Verif

/-- data members of `forward_stencil_iterator` (src/cuda/forward_stencil_iterator.hpp:151-155) -/
structure FS (β : Type) where
  first : β
  stencilStride : Int
  maxStrideDistance : Int
  distanceToLast : Int
  currentDistance : Int
deriving DecidableEq, Repr

namespace FS

variable {β : Type} [RA β]

/-- `make_forward_stencil` and the constructor (src/cuda/forward_stencil_iterator.hpp:55-65, 158-166) -/
def make (it : β) (stencilStride maxStrideDistance distanceToLast : Int) : FS β :=
  ⟨it, stencilStride, maxStrideDistance, distanceToLast, 0⟩

/-- `dereference()`: the two addresses of the pair (src/cuda/forward_stencil_iterator.hpp:83-86) -/
def addrs (s : FS β) : M (Ptr × Ptr) := do
  let a ← RA.addr s.first
  let f ← Step.adv s.first s.stencilStride
  let b ← RA.addr f
  .ok (a, b)

/-- `increment()` (src/cuda/forward_stencil_iterator.hpp:94-107) -/
def inc (s : FS β) : M (FS β) := do
  let first ← Step.inc s.first
  let cur ← dadd s.currentDistance 1
  let dtl ← dsub s.distanceToLast 1
  let lastNotReached := lnotnot dtl
  let d ← dsub s.maxStrideDistance cur
  let reached := lastNotReached * lnot d
  let m ← dmul reached s.maxStrideDistance
  let cur' ← dsub cur m
  let st ← dmul reached s.stencilStride
  let first' ← Step.adv first st
  .ok { s with first := first', currentDistance := cur', distanceToLast := dtl }

/-- `decrement()` (src/cuda/forward_stencil_iterator.hpp:109-119) -/
def dec (s : FS β) : M (FS β) := do
  let first ← Step.dec s.first
  let cur ← dsub s.currentDistance 1
  let dtl ← dadd s.distanceToLast 1
  let d ← dadd 1 cur
  let reached := lnot d
  let m ← dmul reached s.maxStrideDistance
  let cur' ← dadd cur m
  let st ← dmul reached s.stencilStride
  let first' ← Step.adv first (-st)
  .ok { s with first := first', currentDistance := cur', distanceToLast := dtl }

/-- `advance(dist)` (src/cuda/forward_stencil_iterator.hpp:121-142) -/
def adv (s : FS β) (dist : Int) : M (FS β) := do
  let dtl ← dsub s.distanceToLast dist
  let base ← dadd dist s.currentDistance
  let backwards : Int := if base < 0 then 1 else 0
  let atLast := lnot dtl
  let q ← ddiv base s.maxStrideDistance
  let qs ← dmul q s.stencilStride
  let i1 ← dadd dist qs
  let bs ← dmul backwards s.stencilStride
  let i2 ← dsub i1 bs
  let s1 ← dsub s.stencilStride 1
  let as1 ← dmul atLast s1
  let iterDist ← dsub i2 as1
  let bm ← dmul backwards s.maxStrideDistance
  let r ← dmod base s.maxStrideDistance
  let c1 ← dadd bm r
  let am ← dmul atLast s.maxStrideDistance
  let cur ← dadd c1 am
  let first ← Step.adv s.first iterDist
  .ok { s with first := first, currentDistance := cur, distanceToLast := dtl }

/-- `a.distance_to(b)` (src/cuda/forward_stencil_iterator.hpp:144-149) -/
def distTo (a b : FS β) : M Int := dsub a.distanceToLast b.distanceToLast

/-- `equal()` compares the base iterators (src/cuda/forward_stencil_iterator.hpp:88-92); shown for the traversal iterator base -/
def equal (a b : FS MT) : Bool := a.first.equal b.first

instance : Step (FS β) := ⟨FS.inc, FS.dec, FS.adv⟩

end FS

/-- extents with one taken off dimension `i` (src/cuda/matrix_traversal_iterator.hpp:80-81, 93-94) -/
def shrink : List Int → Nat → M (List Int)
  | [], _ => .ok []
  | n :: ns, 0 => do
    let m ← isub n 1
    .ok (m :: ns)
  | n :: ns, i + 1 => do
    let ms ← shrink ns i
    .ok (n :: ms)

/-- `stencil<I>()` and `stencil(int I)` (src/cuda/matrix_traversal_iterator.hpp:78-101) -/
def MT.stencil (it : MT) (i : Nat) : M (FS MT) := do
  let dims ← shrink it.n i
  let stride ← strideDim it.n (i + 1)
  let limit ← strideDim dims i
  let sz ← strideDim dims 0
  .ok (FS.make it stride limit sz)

end Verif
