import Verif.Model.Kernels.Common

/-
Transcription of the residual and operator kernels: src/cuda/cd_apply_1d_cuda.cpp, src/cuda/cd_apply_2d_cuda.cpp,
src/cuda/cd_apply_3d_cuda.cpp.

`alpha`, `beta` and `dx` are read on the host.  `copy_to` does nothing (src/cuda/md_device_span.hpp:550-552) and is left out.
-/

namespace Verif.Cuda

variable {T : Type} [Add T] [Sub T] [Mul T] [Div T] [Neg T]

/-- `cd_apply_1d_cuda::diffusion_v1_res` (src/cuda/cd_apply_1d_cuda.cpp:19-45) -/
def diffusionV1Res1d (i0 i1 : Int) (alpha beta : T) (dx : Nat → T) (agcw : Int) (a_ : Ptr) (ugcw : Int) (u_ : Ptr) (fgcw : Int) (f_ : Ptr) (f0_ : Ptr) (rgcw : Int) (res_ : Ptr) (β : Nat → Backend)
    (m : Mem T) : M (Mem T) := do
  let i ← mkB .I i0 i1
  let a ← makeSpanOffset a_ agcw [i]
  let u ← makeSpanOffset u_ ugcw [i]
  let f ← makeSpanOffset f_ fgcw [i]
  let res ← makeSpanOffset res_ rgcw [i]
  let i' ← i.plus 1
  let f0 := makeSpan f0_ [i']
  withDomain [i] [(res.set (f.e T + beta * (f0.grad .I (dx 0)) - alpha * a.e T * u.e T), β 0)] m

/-- `cd_apply_1d_cuda::diffusion_v2_res` (src/cuda/cd_apply_1d_cuda.cpp:47-70) -/
def diffusionV2Res1d (i0 i1 : Int) (alpha beta : T) (dx : Nat → T) (ugcw : Int) (u_ : Ptr) (fgcw : Int) (f_ : Ptr) (f0_ : Ptr) (rgcw : Int) (res_ : Ptr) (β : Nat → Backend)
    (m : Mem T) : M (Mem T) := do
  let i ← mkB .I i0 i1
  let u ← makeSpanOffset u_ ugcw [i]
  let f ← makeSpanOffset f_ fgcw [i]
  let res ← makeSpanOffset res_ rgcw [i]
  let i' ← i.plus 1
  let f0 := makeSpan f0_ [i']
  withDomain [i] [(res.set (f.e T + beta * (f0.grad .I (dx 0)) - alpha * u.e T), β 0)] m

/-- `cd_apply_1d_cuda::poisson_v1_res` (src/cuda/cd_apply_1d_cuda.cpp:72-91) -/
def poissonV1Res1d (i0 i1 : Int) (beta : T) (dx : Nat → T) (fgcw : Int) (f_ : Ptr) (f0_ : Ptr) (rgcw : Int) (res_ : Ptr) (β : Nat → Backend)
    (m : Mem T) : M (Mem T) := do
  let i ← mkB .I i0 i1
  let f ← makeSpanOffset f_ fgcw [i]
  let res ← makeSpanOffset res_ rgcw [i]
  let i' ← i.plus 1
  let f0 := makeSpan f0_ [i']
  withDomain [i] [(res.set (f.e T + beta * (f0.grad .I (dx 0))), β 0)] m

/-- `cd_apply_1d_cuda::diffusion_v1_apply` (src/cuda/cd_apply_1d_cuda.cpp:93-116) -/
def diffusionV1Apply1d (i0 i1 : Int) (alpha beta : T) (dx : Nat → T) (agcw : Int) (a_ : Ptr) (ugcw : Int) (u_ : Ptr) (f0_ : Ptr) (rgcw : Int) (res_ : Ptr) (β : Nat → Backend)
    (m : Mem T) : M (Mem T) := do
  let i ← mkB .I i0 i1
  let a ← makeSpanOffset a_ agcw [i]
  let u ← makeSpanOffset u_ ugcw [i]
  let res ← makeSpanOffset res_ rgcw [i]
  let i' ← i.plus 1
  let f0 := makeSpan f0_ [i']
  withDomain [i] [(res.set (-beta * (f0.grad .I (dx 0)) + alpha * a.e T * u.e T), β 0)] m

/-- `cd_apply_1d_cuda::diffusion_v2_apply` (src/cuda/cd_apply_1d_cuda.cpp:118-138) -/
def diffusionV2Apply1d (i0 i1 : Int) (alpha beta : T) (dx : Nat → T) (ugcw : Int) (u_ : Ptr) (f0_ : Ptr) (rgcw : Int) (res_ : Ptr) (β : Nat → Backend)
    (m : Mem T) : M (Mem T) := do
  let i ← mkB .I i0 i1
  let u ← makeSpanOffset u_ ugcw [i]
  let res ← makeSpanOffset res_ rgcw [i]
  let i' ← i.plus 1
  let f0 := makeSpan f0_ [i']
  withDomain [i] [(res.set (-beta * (f0.grad .I (dx 0)) + alpha * u.e T), β 0)] m

/-- `cd_apply_1d_cuda::poisson_v2_apply` (src/cuda/cd_apply_1d_cuda.cpp:140-156) -/
def poissonV2Apply1d (i0 i1 : Int) (beta : T) (dx : Nat → T) (f0_ : Ptr) (rgcw : Int) (res_ : Ptr) (β : Nat → Backend)
    (m : Mem T) : M (Mem T) := do
  let i ← mkB .I i0 i1
  let res ← makeSpanOffset res_ rgcw [i]
  let i' ← i.plus 1
  let f0 := makeSpan f0_ [i']
  withDomain [i] [(res.set (-beta * (f0.grad .I (dx 0))), β 0)] m

/-- `cd_apply_2d_cuda::diffusion_v1_res` (src/cuda/cd_apply_2d_cuda.cpp:19-51) -/
def diffusionV1Res2d (i0 i1 j0 j1 : Int) (alpha beta : T) (dx : Nat → T) (agcw : Int) (a_ : Ptr) (ugcw : Int) (u_ : Ptr) (fgcw : Int) (f_ : Ptr) (f0_ f1_ : Ptr) (rgcw : Int) (res_ : Ptr) (β : Nat → Backend)
    (m : Mem T) : M (Mem T) := do
  let i ← mkB .I i0 i1
  let j ← mkB .J j0 j1
  let a ← makeSpanOffset a_ agcw [j, i]
  let u ← makeSpanOffset u_ ugcw [j, i]
  let f ← makeSpanOffset f_ fgcw [j, i]
  let res ← makeSpanOffset res_ rgcw [j, i]
  let i' ← i.plus 1
  let f0 := makeSpan f0_ [j, i']
  let j' ← j.plus 1
  let f1 := makeSpan f1_ [i, j']
  withDomain [j, i] [(res.set (f.e T + beta * (f0.grad .I (dx 0) + f1.grad .J (dx 1)) - alpha * a.e T * u.e T), β 0)] m

/-- `cd_apply_2d_cuda::diffusion_v2_res` (src/cuda/cd_apply_2d_cuda.cpp:53-81) -/
def diffusionV2Res2d (i0 i1 j0 j1 : Int) (alpha beta : T) (dx : Nat → T) (ugcw : Int) (u_ : Ptr) (fgcw : Int) (f_ : Ptr) (f0_ f1_ : Ptr) (rgcw : Int) (res_ : Ptr) (β : Nat → Backend)
    (m : Mem T) : M (Mem T) := do
  let i ← mkB .I i0 i1
  let j ← mkB .J j0 j1
  let u ← makeSpanOffset u_ ugcw [j, i]
  let f ← makeSpanOffset f_ fgcw [j, i]
  let res ← makeSpanOffset res_ rgcw [j, i]
  let i' ← i.plus 1
  let f0 := makeSpan f0_ [j, i']
  let j' ← j.plus 1
  let f1 := makeSpan f1_ [i, j']
  withDomain [j, i] [(res.set (f.e T + beta * (f0.grad .I (dx 0) + f1.grad .J (dx 1)) - alpha * u.e T), β 0)] m

/-- `cd_apply_2d_cuda::poisson_v1_res` (src/cuda/cd_apply_2d_cuda.cpp:83-107) -/
def poissonV1Res2d (i0 i1 j0 j1 : Int) (beta : T) (dx : Nat → T) (fgcw : Int) (f_ : Ptr) (f0_ f1_ : Ptr) (rgcw : Int) (res_ : Ptr) (β : Nat → Backend)
    (m : Mem T) : M (Mem T) := do
  let i ← mkB .I i0 i1
  let j ← mkB .J j0 j1
  let f ← makeSpanOffset f_ fgcw [j, i]
  let res ← makeSpanOffset res_ rgcw [j, i]
  let i' ← i.plus 1
  let f0 := makeSpan f0_ [j, i']
  let j' ← j.plus 1
  let f1 := makeSpan f1_ [i, j']
  withDomain [j, i] [(res.set (f.e T + beta * (f0.grad .I (dx 0) + f1.grad .J (dx 1))), β 0)] m

/-- `cd_apply_2d_cuda::diffusion_v1_apply` (src/cuda/cd_apply_2d_cuda.cpp:109-138) -/
def diffusionV1Apply2d (i0 i1 j0 j1 : Int) (alpha beta : T) (dx : Nat → T) (agcw : Int) (a_ : Ptr) (ugcw : Int) (u_ : Ptr) (f0_ f1_ : Ptr) (rgcw : Int) (res_ : Ptr) (β : Nat → Backend)
    (m : Mem T) : M (Mem T) := do
  let i ← mkB .I i0 i1
  let j ← mkB .J j0 j1
  let a ← makeSpanOffset a_ agcw [j, i]
  let u ← makeSpanOffset u_ ugcw [j, i]
  let res ← makeSpanOffset res_ rgcw [j, i]
  let i' ← i.plus 1
  let f0 := makeSpan f0_ [j, i']
  let j' ← j.plus 1
  let f1 := makeSpan f1_ [i, j']
  withDomain [j, i] [(res.set (-beta * (f0.grad .I (dx 0) + f1.grad .J (dx 1)) + alpha * a.e T * u.e T), β 0)] m

/-- `cd_apply_2d_cuda::diffusion_v2_apply` (src/cuda/cd_apply_2d_cuda.cpp:140-165) -/
def diffusionV2Apply2d (i0 i1 j0 j1 : Int) (alpha beta : T) (dx : Nat → T) (ugcw : Int) (u_ : Ptr) (f0_ f1_ : Ptr) (rgcw : Int) (res_ : Ptr) (β : Nat → Backend)
    (m : Mem T) : M (Mem T) := do
  let i ← mkB .I i0 i1
  let j ← mkB .J j0 j1
  let u ← makeSpanOffset u_ ugcw [j, i]
  let res ← makeSpanOffset res_ rgcw [j, i]
  let i' ← i.plus 1
  let f0 := makeSpan f0_ [j, i']
  let j' ← j.plus 1
  let f1 := makeSpan f1_ [i, j']
  withDomain [j, i] [(res.set (-beta * (f0.grad .I (dx 0) + f1.grad .J (dx 1)) + alpha * u.e T), β 0)] m

/-- `cd_apply_2d_cuda::poisson_v2_apply` (src/cuda/cd_apply_2d_cuda.cpp:167-188) -/
def poissonV2Apply2d (i0 i1 j0 j1 : Int) (beta : T) (dx : Nat → T) (f0_ f1_ : Ptr) (rgcw : Int) (res_ : Ptr) (β : Nat → Backend)
    (m : Mem T) : M (Mem T) := do
  let i ← mkB .I i0 i1
  let j ← mkB .J j0 j1
  let res ← makeSpanOffset res_ rgcw [j, i]
  let i' ← i.plus 1
  let f0 := makeSpan f0_ [j, i']
  let j' ← j.plus 1
  let f1 := makeSpan f1_ [i, j']
  withDomain [j, i] [(res.set (-beta * (f0.grad .I (dx 0) + f1.grad .J (dx 1))), β 0)] m

/-- `cd_apply_3d_cuda::diffusion_v1_res` (src/cuda/cd_apply_3d_cuda.cpp:19-57) -/
def diffusionV1Res3d (i0 i1 j0 j1 k0 k1 : Int) (alpha beta : T) (dx : Nat → T) (agcw : Int) (a_ : Ptr) (ugcw : Int) (u_ : Ptr) (fgcw : Int) (f_ : Ptr) (f0_ f1_ f2_ : Ptr) (rgcw : Int) (res_ : Ptr) (β : Nat → Backend)
    (m : Mem T) : M (Mem T) := do
  let i ← mkB .I i0 i1
  let j ← mkB .J j0 j1
  let k ← mkB .K k0 k1
  let a ← makeSpanOffset a_ agcw [k, j, i]
  let u ← makeSpanOffset u_ ugcw [k, j, i]
  let f ← makeSpanOffset f_ fgcw [k, j, i]
  let res ← makeSpanOffset res_ rgcw [k, j, i]
  let i' ← i.plus 1
  let f0 := makeSpan f0_ [k, j, i']
  let j' ← j.plus 1
  let f1 := makeSpan f1_ [i, k, j']
  let k' ← k.plus 1
  let f2 := makeSpan f2_ [j, i, k']
  withDomain [k, j, i] [(res.set (f.e T + beta * (f0.grad .I (dx 0) + f1.grad .J (dx 1) + f2.grad .K (dx 2)) - alpha * a.e T * u.e T), β 0)] m

/-- `cd_apply_3d_cuda::diffusion_v2_res` (src/cuda/cd_apply_3d_cuda.cpp:59-94) -/
def diffusionV2Res3d (i0 i1 j0 j1 k0 k1 : Int) (alpha beta : T) (dx : Nat → T) (ugcw : Int) (u_ : Ptr) (fgcw : Int) (f_ : Ptr) (f0_ f1_ f2_ : Ptr) (rgcw : Int) (res_ : Ptr) (β : Nat → Backend)
    (m : Mem T) : M (Mem T) := do
  let i ← mkB .I i0 i1
  let j ← mkB .J j0 j1
  let k ← mkB .K k0 k1
  let u ← makeSpanOffset u_ ugcw [k, j, i]
  let f ← makeSpanOffset f_ fgcw [k, j, i]
  let res ← makeSpanOffset res_ rgcw [k, j, i]
  let i' ← i.plus 1
  let f0 := makeSpan f0_ [k, j, i']
  let j' ← j.plus 1
  let f1 := makeSpan f1_ [i, k, j']
  let k' ← k.plus 1
  let f2 := makeSpan f2_ [j, i, k']
  withDomain [k, j, i] [(res.set (f.e T + beta * (f0.grad .I (dx 0) + f1.grad .J (dx 1) + f2.grad .K (dx 2)) - alpha * u.e T), β 0)] m

/-- `cd_apply_3d_cuda::poisson_v1_res` (src/cuda/cd_apply_3d_cuda.cpp:96-126) -/
def poissonV1Res3d (i0 i1 j0 j1 k0 k1 : Int) (beta : T) (dx : Nat → T) (fgcw : Int) (f_ : Ptr) (f0_ f1_ f2_ : Ptr) (rgcw : Int) (res_ : Ptr) (β : Nat → Backend)
    (m : Mem T) : M (Mem T) := do
  let i ← mkB .I i0 i1
  let j ← mkB .J j0 j1
  let k ← mkB .K k0 k1
  let f ← makeSpanOffset f_ fgcw [k, j, i]
  let res ← makeSpanOffset res_ rgcw [k, j, i]
  let i' ← i.plus 1
  let f0 := makeSpan f0_ [k, j, i']
  let j' ← j.plus 1
  let f1 := makeSpan f1_ [i, k, j']
  let k' ← k.plus 1
  let f2 := makeSpan f2_ [j, i, k']
  withDomain [k, j, i] [(res.set (f.e T + beta * (f0.grad .I (dx 0) + f1.grad .J (dx 1) + f2.grad .K (dx 2))), β 0)] m

/-- `cd_apply_3d_cuda::diffusion_v1_apply` (src/cuda/cd_apply_3d_cuda.cpp:128-164) -/
def diffusionV1Apply3d (i0 i1 j0 j1 k0 k1 : Int) (alpha beta : T) (dx : Nat → T) (agcw : Int) (a_ : Ptr) (ugcw : Int) (u_ : Ptr) (f0_ f1_ f2_ : Ptr) (rgcw : Int) (res_ : Ptr) (β : Nat → Backend)
    (m : Mem T) : M (Mem T) := do
  let i ← mkB .I i0 i1
  let j ← mkB .J j0 j1
  let k ← mkB .K k0 k1
  let a ← makeSpanOffset a_ agcw [k, j, i]
  let u ← makeSpanOffset u_ ugcw [k, j, i]
  let res ← makeSpanOffset res_ rgcw [k, j, i]
  let i' ← i.plus 1
  let f0 := makeSpan f0_ [k, j, i']
  let j' ← j.plus 1
  let f1 := makeSpan f1_ [i, k, j']
  let k' ← k.plus 1
  let f2 := makeSpan f2_ [j, i, k']
  withDomain [k, j, i] [(res.set (-beta * (f0.grad .I (dx 0) + f1.grad .J (dx 1) + f2.grad .K (dx 2)) + alpha * a.e T * u.e T), β 0)] m

/-- `cd_apply_3d_cuda::diffusion_v2_apply` (src/cuda/cd_apply_3d_cuda.cpp:166-199) -/
def diffusionV2Apply3d (i0 i1 j0 j1 k0 k1 : Int) (alpha beta : T) (dx : Nat → T) (ugcw : Int) (u_ : Ptr) (f0_ f1_ f2_ : Ptr) (rgcw : Int) (res_ : Ptr) (β : Nat → Backend)
    (m : Mem T) : M (Mem T) := do
  let i ← mkB .I i0 i1
  let j ← mkB .J j0 j1
  let k ← mkB .K k0 k1
  let u ← makeSpanOffset u_ ugcw [k, j, i]
  let res ← makeSpanOffset res_ rgcw [k, j, i]
  let i' ← i.plus 1
  let f0 := makeSpan f0_ [k, j, i']
  let j' ← j.plus 1
  let f1 := makeSpan f1_ [i, k, j']
  let k' ← k.plus 1
  let f2 := makeSpan f2_ [j, i, k']
  withDomain [k, j, i] [(res.set (-beta * (f0.grad .I (dx 0) + f1.grad .J (dx 1) + f2.grad .K (dx 2)) + alpha * u.e T), β 0)] m

/-- `cd_apply_3d_cuda::poisson_v2_apply` (src/cuda/cd_apply_3d_cuda.cpp:201-229) -/
def poissonV2Apply3d (i0 i1 j0 j1 k0 k1 : Int) (beta : T) (dx : Nat → T) (f0_ f1_ f2_ : Ptr) (rgcw : Int) (res_ : Ptr) (β : Nat → Backend)
    (m : Mem T) : M (Mem T) := do
  let i ← mkB .I i0 i1
  let j ← mkB .J j0 j1
  let k ← mkB .K k0 k1
  let res ← makeSpanOffset res_ rgcw [k, j, i]
  let i' ← i.plus 1
  let f0 := makeSpan f0_ [k, j, i']
  let j' ← j.plus 1
  let f1 := makeSpan f1_ [i, k, j']
  let k' ← k.plus 1
  let f2 := makeSpan f2_ [j, i, k']
  withDomain [k, j, i] [(res.set (-beta * (f0.grad .I (dx 0) + f1.grad .J (dx 1) + f2.grad .K (dx 2))), β 0)] m

end Verif.Cuda
