import Verif.Model.Kernels.Common

/-
Transcription of the dot product kernels: src/cuda/dot_offset_test.cpp.
-/

namespace Verif.Cuda

variable {T : Type} [Zero T] [Add T] [Mul T]

/-- `st.dot(u.offset(o))` (src/cuda/md_device_span.hpp:117-178, 476-486): `res` starts at `T{}`, each term is added with `res += st[i] * o[i]` -/
def dotE (st u : Span) (o : Ptr) : Expr T := .dot 0 (fun res x y => res + x * y) st u o

/-- `dot_offset_test::init`, one dimension (src/cuda/dot_offset_test.cpp:4-25) -/
def dotOffset1d (st_ : Ptr) (sgcw : Int) (u_ : Ptr) (ugcw : Int) (v_ : Ptr) (vgcw : Int) (offset : Ptr) (i0 i1 w1 : Int) (β : Backend) (m : Mem T) :
    M (Mem T) := do
  let i ← mkB .I i0 i1
  let w' ← isub w1 1
  let w ← mkB .W 0 w'
  let st ← makeSpanOffset st_ sgcw [i, w]
  let u ← makeSpanOffset u_ ugcw [i]
  let v ← makeSpanOffset v_ vgcw [i]
  withDomain [i] [(v.set (dotE st u offset), β)] m

/-- `dot_offset_test::init`, two dimensions (src/cuda/dot_offset_test.cpp:27-52) -/
def dotOffset2d (st_ : Ptr) (sgcw : Int) (u_ : Ptr) (ugcw : Int) (v_ : Ptr) (vgcw : Int) (offset : Ptr) (i0 i1 j0 j1 w1 : Int) (β : Backend) (m : Mem T) :
    M (Mem T) := do
  let i ← mkB .I i0 i1
  let j ← mkB .J j0 j1
  let w' ← isub w1 1
  let w ← mkB .W 0 w'
  let st ← makeSpanOffset st_ sgcw [j, i, w]
  let u ← makeSpanOffset u_ ugcw [j, i]
  let v ← makeSpanOffset v_ vgcw [j, i]
  withDomain [j, i] [(v.set (dotE st u offset), β)] m

/-- `dot_offset_test::init`, three dimensions (src/cuda/dot_offset_test.cpp:54-82) -/
def dotOffset3d (st_ : Ptr) (sgcw : Int) (u_ : Ptr) (ugcw : Int) (v_ : Ptr) (vgcw : Int) (offset : Ptr) (i0 i1 j0 j1 k0 k1 w1 : Int) (β : Backend)
    (m : Mem T) : M (Mem T) := do
  let i ← mkB .I i0 i1
  let j ← mkB .J j0 j1
  let k ← mkB .K k0 k1
  let w' ← isub w1 1
  let w ← mkB .W 0 w'
  let st ← makeSpanOffset st_ sgcw [k, j, i, w]
  let u ← makeSpanOffset u_ ugcw [k, j, i]
  let v ← makeSpanOffset v_ vgcw [k, j, i]
  withDomain [k, j, i] [(v.set (dotE st u offset), β)] m

end Verif.Cuda
