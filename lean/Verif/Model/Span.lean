import Verif.Model.Bounds
import Verif.Model.Submatrix

/-
Transcription of the class md_device_span (src/cuda/md_device_span.hpp:336-632): storage geometry, the call operator that
turns bounds into an iterator, and `at`.  `Order...` and `O...` are the first components of the bounds lists.
-/

namespace Verif

/-- `dir_bounds<d>` values: the dimension is part of the C++ type -/
abbrev DB := Dim × Bounds

/-- data members `v`, `b[N]` and the type parameters `Order...` (src/cuda/md_device_span.hpp:336-345, 599-600) -/
structure Span where
  ptr : Ptr
  geo : List DB
deriving DecidableEq, Repr

/-- `make_md_span(t, bnds...)` (src/cuda/md_device_span.hpp:603-614) -/
def makeSpan (t : Ptr) (bnds : List DB) : Span := ⟨t, bnds.map fun x => (x.1, x.2.unitStride)⟩

/-- `make_md_span(t, offset, bnds...)` (src/cuda/md_device_span.hpp:616-632) -/
def makeSpanOffset (t : Ptr) (offset : Int) (bnds : List DB) : M Span := do
  let g ← bnds.mapM fun x => do
    let b ← expandBounds offset x.1 x.2.unitStride
    .ok (x.1, b)
  .ok ⟨t, g⟩

/-- `call_helper(it, b, bnds...)` (src/cuda/md_device_span.hpp:560-597).  `List.idxOf` is `map_index_v`
(src/cuda/traits.hpp:317-329): the position of the dimension, or the length of the list when absent; `O.map order.idxOf` is
`transpose_sequence_t` (src/cuda/traits.hpp:350-357). -/
def callHelper (it : Ptr) (geo req : List DB) : M MT :=
  if req.length > geo.length then .error .illFormed
  else do
    let order := geo.map (·.1)
    let O := req.map (·.1)
    let pad := List.replicate (geo.length - req.length) (0 : Int)
    let lbB := req.map (·.2.lb) ++ pad
    let ubs ← req.mapM (·.2.ub)
    let ubB := ubs ++ pad
    let stmB := req.map (·.2.stride) ++ pad
    let lb0 ← order.mapM fun d => get lbB (O.idxOf d)
    let ub0 ← order.mapM fun d => get ubB (O.idxOf d)
    let stm0 ← order.mapM fun d => get stmB (O.idxOf d)
    let rest := geo.drop req.length
    let restUb ← rest.mapM (·.2.ub)
    let lb1 := lb0.take req.length ++ rest.map (·.2.lb)
    let ub1 := ub0.take req.length ++ restUb
    let stm := stm0.take req.length ++ rest.map (·.2.stride)
    let lb ← (lb1.zip geo).mapM fun x => isub x.1 x.2.2.lb
    let ub ← (ub1.zip geo).mapM fun x => isub x.1 x.2.2.lb
    let sz ← geo.mapM (·.2.size)
    submatrixHelper (O.map fun d => order.idxOf d) it sz lb ub stm

/-- the call operator of a span (src/cuda/md_device_span.hpp:374-398) -/
def Span.call (s : Span) (req : List DB) : M MT := callHelper s.ptr s.geo req

/-- the address read by `at(is...)` (src/cuda/md_device_span.hpp:405-417) -/
def Span.at_ (s : Span) (is : List Int) : M Ptr :=
  if is.length ≠ s.geo.length then .error .illFormed
  else do
    let c ← (is.zip s.geo).mapM fun x => isub x.1 x.2.2.lb
    let sz ← s.geo.mapM (·.2.size)
    let r ← ravel sz c
    .ok (s.ptr.add r)

/-- `dir_bounds()` (src/cuda/md_device_span.hpp:554-557) -/
def Span.dirBounds (s : Span) : List DB := s.geo

end Verif
