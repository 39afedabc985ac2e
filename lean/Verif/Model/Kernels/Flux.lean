import Verif.Model.Kernels.Common

/-
Transcription of the flux kernels: src/cuda/cdf_1d_cuda.cpp, src/cuda/cdf_2d_cuda.cpp, src/cuda/cdf_3d_cuda.cpp.

`dx` is read on the host.  Statement `n` of a kernel runs under schedule `β n`.  `copy_to` does nothing
(src/cuda/md_device_span.hpp:550-552) and is left out.
-/

namespace Verif.Cuda

variable {T : Type} [Sub T] [Mul T] [Div T]

/-- `cdf_1d_cuda::flux` (src/cuda/cdf_1d_cuda.cpp:19-37) -/
def flux1d (i0 i1 : Int) (dx : Nat → T) (b0_ : Ptr) (gcw : Int) (u_ f0_ : Ptr) (β : Nat → Backend) (m : Mem T) : M (Mem T) := do
  let i ← mkB .I i0 i1
  let u ← makeSpanOffset u_ gcw [i]
  let i' ← i.plus 1
  let f0 := makeSpan f0_ [i']
  let b0 := makeSpan b0_ [i']
  withLhsDomain (f0.set (b0.e T * u.grad .I (dx 0) down)) (β 0) m

/-- `cdf_1d_cuda::poisson_flux` (src/cuda/cdf_1d_cuda.cpp:39-51) -/
def poissonFlux1d (i0 i1 : Int) (dx : Nat → T) (gcw : Int) (u_ f0_ : Ptr) (β : Nat → Backend) (m : Mem T) : M (Mem T) := do
  let i ← mkB .I i0 i1
  let u ← makeSpanOffset u_ gcw [i]
  let i' ← i.plus 1
  let f0 := makeSpan f0_ [i']
  withLhsDomain (f0.set (u.grad .I (dx 0) down)) (β 0) m

/-- `cdf_2d_cuda::flux` (src/cuda/cdf_2d_cuda.cpp:19-46) -/
def flux2d (i0 j0 i1 j1 : Int) (dx : Nat → T) (b0_ b1_ : Ptr) (gcw : Int) (u_ f0_ f1_ : Ptr) (β : Nat → Backend) (m : Mem T) :
    M (Mem T) := do
  let i ← mkB .I i0 i1
  let j ← mkB .J j0 j1
  let u ← makeSpanOffset u_ gcw [j, i]
  let i' ← i.plus 1
  let f0 := makeSpan f0_ [j, i']
  let b0 := makeSpan b0_ [j, i']
  let j' ← j.plus 1
  let f1 := makeSpan f1_ [i, j']
  let b1 := makeSpan b1_ [i, j']
  let m ← withLhsDomain (f0.set (b0.e T * u.grad .I (dx 0) down)) (β 0) m
  withLhsDomain (f1.set (b1.e T * u.grad .J (dx 1) down)) (β 1) m

/-- `cdf_2d_cuda::poisson_flux` (src/cuda/cdf_2d_cuda.cpp:48-71) -/
def poissonFlux2d (i0 j0 i1 j1 : Int) (dx : Nat → T) (gcw : Int) (u_ f0_ f1_ : Ptr) (β : Nat → Backend) (m : Mem T) : M (Mem T) := do
  let i ← mkB .I i0 i1
  let j ← mkB .J j0 j1
  let u ← makeSpanOffset u_ gcw [j, i]
  let i' ← i.plus 1
  let f0 := makeSpan f0_ [j, i']
  let j' ← j.plus 1
  let f1 := makeSpan f1_ [i, j']
  let m ← withLhsDomain (f0.set (u.grad .I (dx 0) down)) (β 0) m
  withLhsDomain (f1.set (u.grad .J (dx 1) down)) (β 1) m

/-- `cdf_3d_cuda::flux` (src/cuda/cdf_3d_cuda.cpp:19-55) -/
def flux3d (i0 j0 k0 i1 j1 k1 : Int) (dx : Nat → T) (b0_ b1_ b2_ : Ptr) (gcw : Int) (u_ f0_ f1_ f2_ : Ptr) (β : Nat → Backend)
    (m : Mem T) : M (Mem T) := do
  let i ← mkB .I i0 i1
  let j ← mkB .J j0 j1
  let k ← mkB .K k0 k1
  let u ← makeSpanOffset u_ gcw [k, j, i]
  let i' ← i.plus 1
  let f0 := makeSpan f0_ [k, j, i']
  let b0 := makeSpan b0_ [k, j, i']
  let j' ← j.plus 1
  let f1 := makeSpan f1_ [i, k, j']
  let b1 := makeSpan b1_ [i, k, j']
  let k' ← k.plus 1
  let f2 := makeSpan f2_ [j, i, k']
  let b2 := makeSpan b2_ [j, i, k']
  let m ← withLhsDomain (f0.set (b0.e T * u.grad .I (dx 0) down)) (β 0) m
  let m ← withLhsDomain (f1.set (b1.e T * u.grad .J (dx 1) down)) (β 1) m
  withLhsDomain (f2.set (b2.e T * u.grad .K (dx 2) down)) (β 2) m

/-- `cdf_3d_cuda::poisson_flux` (src/cuda/cdf_3d_cuda.cpp:57-87) -/
def poissonFlux3d (i0 j0 k0 i1 j1 k1 : Int) (dx : Nat → T) (gcw : Int) (u_ f0_ f1_ f2_ : Ptr) (β : Nat → Backend) (m : Mem T) :
    M (Mem T) := do
  let i ← mkB .I i0 i1
  let j ← mkB .J j0 j1
  let k ← mkB .K k0 k1
  let u ← makeSpanOffset u_ gcw [k, j, i]
  let i' ← i.plus 1
  let f0 := makeSpan f0_ [k, j, i']
  let j' ← j.plus 1
  let f1 := makeSpan f1_ [i, k, j']
  let k' ← k.plus 1
  let f2 := makeSpan f2_ [j, i, k']
  let m ← withLhsDomain (f0.set (u.grad .I (dx 0) down)) (β 0) m
  let m ← withLhsDomain (f1.set (u.grad .J (dx 1) down)) (β 1) m
  withLhsDomain (f2.set (u.grad .K (dx 2) down)) (β 2) m

end Verif.Cuda
