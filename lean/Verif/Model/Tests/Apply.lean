import Verif.Model.Tests.Driver
import Verif.Model.Kernels.Apply
import Verif.Spec.Kernels.Apply
import Mathlib.Algebra.Field.Defs

/-
The host side of the residual and operator tests, src/cd_apply_1d.t.cpp, src/cd_apply_2d.t.cpp, src/cd_apply_3d.t.cpp.  The numbers a test case fixes or picks at random, the random numbers `fill_random`
puts into a vector (`x` followed by the name of the vector) and the order in which the device works through a kernel (`β`) are arguments.
-/

namespace Verif.Test

variable {T : Type} [Field T] [DecidableEq T]

/-- `TEST_CASE("diffusion v1 res")` (src/cd_apply_1d.t.cpp:34-98) -/
def diffusionV1Res1d (i0 i1 : Int) (alpha beta : T) (dx : Nat → T) (agcw ugcw fgcw rgcw : Int) (xa xu xff xf0 : Nat → T) (β : Nat → Backend) : M
    Bool := do
  let i ← mkB .I i0 i1
  let a ← DevVec.makeVecOffset 0 agcw [i]
  let u ← DevVec.makeVecOffset 0 ugcw [i]
  let ff ← DevVec.makeVecOffset 0 fgcw [i]
  let res ← DevVec.makeVecOffset 0 rgcw [i]
  let res_cuda ← DevVec.makeVecOffset 0 rgcw [i]
  let i' ← i.plus 1
  let f0 ← DevVec.makeVec 0 [i']
  let vs := [a.fill xa, u.fill xu, ff.fill xff, res, res_cuda, f0.fill xf0]
  let vs ← onHost (F.celldiffusionv1res1d i0 i1 alpha beta dx agcw (at_ 0) ugcw (at_ 1) fgcw (at_ 2) (at_ 5) rgcw (at_ 3)) vs
  let vs ← onDevice [0, 1, 2, 5, 4] (Cuda.diffusionV1Res1d i0 i1 alpha beta dx agcw (at_ 0) ugcw (at_ 1) fgcw (at_ 2) (at_ 5) rgcw (at_ 4) β) vs
  compareAll [(3, 4)] vs

/-- `TEST_CASE("diffusion v2 res")` (src/cd_apply_1d.t.cpp:100-157) -/
def diffusionV2Res1d (i0 i1 : Int) (alpha beta : T) (dx : Nat → T) (ugcw fgcw rgcw : Int) (xu xff xf0 : Nat → T) (β : Nat → Backend) : M Bool := do
  let i ← mkB .I i0 i1
  let u ← DevVec.makeVecOffset 0 ugcw [i]
  let ff ← DevVec.makeVecOffset 0 fgcw [i]
  let res ← DevVec.makeVecOffset 0 rgcw [i]
  let res_cuda ← DevVec.makeVecOffset 0 rgcw [i]
  let i' ← i.plus 1
  let f0 ← DevVec.makeVec 0 [i']
  let vs := [u.fill xu, ff.fill xff, res, res_cuda, f0.fill xf0]
  let vs ← onHost (F.celldiffusionv2res1d i0 i1 alpha beta dx ugcw (at_ 0) fgcw (at_ 1) (at_ 4) rgcw (at_ 2)) vs
  let vs ← onDevice [0, 1, 4, 3] (Cuda.diffusionV2Res1d i0 i1 alpha beta dx ugcw (at_ 0) fgcw (at_ 1) (at_ 4) rgcw (at_ 3) β) vs
  compareAll [(2, 3)] vs

/-- `TEST_CASE("poisson v1 res")` (src/cd_apply_1d.t.cpp:159-201) -/
def poissonV1Res1d (i0 i1 : Int) (beta : T) (dx : Nat → T) (fgcw rgcw : Int) (xu xf0 : Nat → T) (β : Nat → Backend) : M Bool := do
  let i ← mkB .I i0 i1
  let u ← DevVec.makeVecOffset 0 fgcw [i]
  let res ← DevVec.makeVecOffset 0 rgcw [i]
  let res_cuda ← DevVec.makeVecOffset 0 rgcw [i]
  let i' ← i.plus 1
  let f0 ← DevVec.makeVec 0 [i']
  let vs := [u.fill xu, res, res_cuda, f0.fill xf0]
  let vs ← onHost (F.cellpoissonv1res1d i0 i1 beta dx fgcw (at_ 0) (at_ 3) rgcw (at_ 1)) vs
  let vs ← onDevice [0, 3, 2] (Cuda.poissonV1Res1d i0 i1 beta dx fgcw (at_ 0) (at_ 3) rgcw (at_ 2) β) vs
  compareAll [(1, 2)] vs

/-- `TEST_CASE("diffusion v1 apply")` (src/cd_apply_1d.t.cpp:203-261) -/
def diffusionV1Apply1d (i0 i1 : Int) (alpha beta : T) (dx : Nat → T) (agcw ugcw rgcw : Int) (xa xu xf0 : Nat → T) (β : Nat → Backend) : M Bool := do
  let i ← mkB .I i0 i1
  let a ← DevVec.makeVecOffset 0 agcw [i]
  let u ← DevVec.makeVecOffset 0 ugcw [i]
  let res ← DevVec.makeVecOffset 0 rgcw [i]
  let res_cuda ← DevVec.makeVecOffset 0 rgcw [i]
  let i' ← i.plus 1
  let f0 ← DevVec.makeVec 0 [i']
  let vs := [a.fill xa, u.fill xu, res, res_cuda, f0.fill xf0]
  let vs ← onHost (F.celldiffusionv1apply1d i0 i1 alpha beta dx agcw (at_ 0) ugcw (at_ 1) (at_ 4) rgcw (at_ 2)) vs
  let vs ← onDevice [0, 1, 4, 3] (Cuda.diffusionV1Apply1d i0 i1 alpha beta dx agcw (at_ 0) ugcw (at_ 1) (at_ 4) rgcw (at_ 3) β) vs
  compareAll [(2, 3)] vs

/-- `TEST_CASE("diffusion v2 apply")` (src/cd_apply_1d.t.cpp:263-306) -/
def diffusionV2Apply1d (i0 i1 : Int) (alpha beta : T) (dx : Nat → T) (ugcw rgcw : Int) (xu xf0 : Nat → T) (β : Nat → Backend) : M Bool := do
  let i ← mkB .I i0 i1
  let u ← DevVec.makeVecOffset 0 ugcw [i]
  let res ← DevVec.makeVecOffset 0 rgcw [i]
  let res_cuda ← DevVec.makeVecOffset 0 rgcw [i]
  let i' ← i.plus 1
  let f0 ← DevVec.makeVec 0 [i']
  let vs := [u.fill xu, res, res_cuda, f0.fill xf0]
  let vs ← onHost (F.celldiffusionv2apply1d i0 i1 alpha beta dx ugcw (at_ 0) (at_ 3) rgcw (at_ 1)) vs
  let vs ← onDevice [0, 3, 2] (Cuda.diffusionV2Apply1d i0 i1 alpha beta dx ugcw (at_ 0) (at_ 3) rgcw (at_ 2) β) vs
  compareAll [(1, 2)] vs

/-- `TEST_CASE("poisson v2 apply")` (src/cd_apply_1d.t.cpp:308-338) -/
def poissonV2Apply1d (i0 i1 : Int) (beta : T) (dx : Nat → T) (rgcw : Int) (xf0 : Nat → T) (β : Nat → Backend) : M Bool := do
  let i ← mkB .I i0 i1
  let res ← DevVec.makeVecOffset 0 rgcw [i]
  let res_cuda ← DevVec.makeVecOffset 0 rgcw [i]
  let i' ← i.plus 1
  let f0 ← DevVec.makeVec 0 [i']
  let vs := [res, res_cuda, f0.fill xf0]
  let vs ← onHost (F.cellpoissonv2apply1d i0 i1 beta dx (at_ 2) rgcw (at_ 0)) vs
  let vs ← onDevice [2, 1] (Cuda.poissonV2Apply1d i0 i1 beta dx (at_ 2) rgcw (at_ 1) β) vs
  compareAll [(0, 1)] vs

/-- `TEST_CASE("diffusion v1 res")` (src/cd_apply_2d.t.cpp:34-108) -/
def diffusionV1Res2d (i0 i1 j0 j1 : Int) (alpha beta : T) (dx : Nat → T) (agcw ugcw fgcw rgcw : Int) (xa xu xff xf0 xf1 : Nat → T)
    (β : Nat → Backend) : M Bool := do
  let j ← mkB .J j0 j1
  let i ← mkB .I i0 i1
  let a ← DevVec.makeVecOffset 0 agcw [j, i]
  let u ← DevVec.makeVecOffset 0 ugcw [j, i]
  let ff ← DevVec.makeVecOffset 0 fgcw [j, i]
  let res ← DevVec.makeVecOffset 0 rgcw [j, i]
  let res_cuda ← DevVec.makeVecOffset 0 rgcw [j, i]
  let i' ← i.plus 1
  let f0 ← DevVec.makeVec 0 [j, i']
  let j' ← j.plus 1
  let f1 ← DevVec.makeVec 0 [i, j']
  let vs := [a.fill xa, u.fill xu, ff.fill xff, res, res_cuda, f0.fill xf0, f1.fill xf1]
  let vs ← onHost (F.celldiffusionv1res2d i0 i1 j0 j1 alpha beta dx agcw (at_ 0) ugcw (at_ 1) fgcw (at_ 2) (at_ 5) (at_ 6) rgcw (at_ 3)) vs
  let vs ← onDevice [0, 1, 2, 5, 6, 4]
      (Cuda.diffusionV1Res2d i0 i1 j0 j1 alpha beta dx agcw (at_ 0) ugcw (at_ 1) fgcw (at_ 2) (at_ 5) (at_ 6) rgcw (at_ 4) β) vs
  compareAll [(3, 4)] vs

/-- `TEST_CASE("diffusion v2 res")` (src/cd_apply_2d.t.cpp:110-177) -/
def diffusionV2Res2d (i0 i1 j0 j1 : Int) (alpha beta : T) (dx : Nat → T) (ugcw fgcw rgcw : Int) (xu xff xf0 xf1 : Nat → T) (β : Nat → Backend) : M
    Bool := do
  let j ← mkB .J j0 j1
  let i ← mkB .I i0 i1
  let u ← DevVec.makeVecOffset 0 ugcw [j, i]
  let ff ← DevVec.makeVecOffset 0 fgcw [j, i]
  let res ← DevVec.makeVecOffset 0 rgcw [j, i]
  let res_cuda ← DevVec.makeVecOffset 0 rgcw [j, i]
  let i' ← i.plus 1
  let f0 ← DevVec.makeVec 0 [j, i']
  let j' ← j.plus 1
  let f1 ← DevVec.makeVec 0 [i, j']
  let vs := [u.fill xu, ff.fill xff, res, res_cuda, f0.fill xf0, f1.fill xf1]
  let vs ← onHost (F.celldiffusionv2res2d i0 i1 j0 j1 alpha beta dx ugcw (at_ 0) fgcw (at_ 1) (at_ 4) (at_ 5) rgcw (at_ 2)) vs
  let vs ← onDevice [0, 1, 4, 5, 3] (Cuda.diffusionV2Res2d i0 i1 j0 j1 alpha beta dx ugcw (at_ 0) fgcw (at_ 1) (at_ 4) (at_ 5) rgcw (at_ 3) β) vs
  compareAll [(2, 3)] vs

/-- `TEST_CASE("poisson v1 res")` (src/cd_apply_2d.t.cpp:179-237) -/
def poissonV1Res2d (i0 i1 j0 j1 : Int) (beta : T) (dx : Nat → T) (fgcw rgcw : Int) (xu xf0 xf1 : Nat → T) (β : Nat → Backend) : M Bool := do
  let j ← mkB .J j0 j1
  let i ← mkB .I i0 i1
  let u ← DevVec.makeVecOffset 0 fgcw [j, i]
  let res ← DevVec.makeVecOffset 0 rgcw [j, i]
  let res_cuda ← DevVec.makeVecOffset 0 rgcw [j, i]
  let i' ← i.plus 1
  let f0 ← DevVec.makeVec 0 [j, i']
  let j' ← j.plus 1
  let f1 ← DevVec.makeVec 0 [i, j']
  let vs := [u.fill xu, res, res_cuda, f0.fill xf0, f1.fill xf1]
  let vs ← onHost (F.cellpoissonv1res2d i0 i1 j0 j1 beta dx fgcw (at_ 0) (at_ 3) (at_ 4) rgcw (at_ 1)) vs
  let vs ← onDevice [0, 3, 4, 2] (Cuda.poissonV1Res2d i0 i1 j0 j1 beta dx fgcw (at_ 0) (at_ 3) (at_ 4) rgcw (at_ 2) β) vs
  compareAll [(1, 2)] vs

/-- `TEST_CASE("diffusion v1 apply")` (src/cd_apply_2d.t.cpp:239-306) -/
def diffusionV1Apply2d (i0 i1 j0 j1 : Int) (alpha beta : T) (dx : Nat → T) (agcw ugcw rgcw : Int) (xa xu xf0 xf1 : Nat → T) (β : Nat → Backend) : M
    Bool := do
  let j ← mkB .J j0 j1
  let i ← mkB .I i0 i1
  let a ← DevVec.makeVecOffset 0 agcw [j, i]
  let u ← DevVec.makeVecOffset 0 ugcw [j, i]
  let res ← DevVec.makeVecOffset 0 rgcw [j, i]
  let res_cuda ← DevVec.makeVecOffset 0 rgcw [j, i]
  let i' ← i.plus 1
  let f0 ← DevVec.makeVec 0 [j, i']
  let j' ← j.plus 1
  let f1 ← DevVec.makeVec 0 [i, j']
  let vs := [a.fill xa, u.fill xu, res, res_cuda, f0.fill xf0, f1.fill xf1]
  let vs ← onHost (F.celldiffusionv1apply2d i0 i1 j0 j1 alpha beta dx agcw (at_ 0) ugcw (at_ 1) (at_ 4) (at_ 5) rgcw (at_ 2)) vs
  let vs ← onDevice [0, 1, 4, 5, 3] (Cuda.diffusionV1Apply2d i0 i1 j0 j1 alpha beta dx agcw (at_ 0) ugcw (at_ 1) (at_ 4) (at_ 5) rgcw (at_ 3) β) vs
  compareAll [(2, 3)] vs

/-- `TEST_CASE("diffusion v2 apply")` (src/cd_apply_2d.t.cpp:308-368) -/
def diffusionV2Apply2d (i0 i1 j0 j1 : Int) (alpha beta : T) (dx : Nat → T) (ugcw rgcw : Int) (xu xf0 xf1 : Nat → T) (β : Nat → Backend) : M Bool :=
    do
  let j ← mkB .J j0 j1
  let i ← mkB .I i0 i1
  let u ← DevVec.makeVecOffset 0 ugcw [j, i]
  let res ← DevVec.makeVecOffset 0 rgcw [j, i]
  let res_cuda ← DevVec.makeVecOffset 0 rgcw [j, i]
  let i' ← i.plus 1
  let f0 ← DevVec.makeVec 0 [j, i']
  let j' ← j.plus 1
  let f1 ← DevVec.makeVec 0 [i, j']
  let vs := [u.fill xu, res, res_cuda, f0.fill xf0, f1.fill xf1]
  let vs ← onHost (F.celldiffusionv2apply2d i0 i1 j0 j1 alpha beta dx ugcw (at_ 0) (at_ 3) (at_ 4) rgcw (at_ 1)) vs
  let vs ← onDevice [0, 3, 4, 2] (Cuda.diffusionV2Apply2d i0 i1 j0 j1 alpha beta dx ugcw (at_ 0) (at_ 3) (at_ 4) rgcw (at_ 2) β) vs
  compareAll [(1, 2)] vs

/-- `TEST_CASE("poisson v2 apply")` (src/cd_apply_2d.t.cpp:370-412) -/
def poissonV2Apply2d (i0 i1 j0 j1 : Int) (beta : T) (dx : Nat → T) (rgcw : Int) (xf0 xf1 : Nat → T) (β : Nat → Backend) : M Bool := do
  let j ← mkB .J j0 j1
  let i ← mkB .I i0 i1
  let res ← DevVec.makeVecOffset 0 rgcw [j, i]
  let res_cuda ← DevVec.makeVecOffset 0 rgcw [j, i]
  let i' ← i.plus 1
  let f0 ← DevVec.makeVec 0 [j, i']
  let j' ← j.plus 1
  let f1 ← DevVec.makeVec 0 [i, j']
  let vs := [res, res_cuda, f0.fill xf0, f1.fill xf1]
  let vs ← onHost (F.cellpoissonv2apply2d i0 i1 j0 j1 beta dx (at_ 2) (at_ 3) rgcw (at_ 0)) vs
  let vs ← onDevice [2, 3, 1] (Cuda.poissonV2Apply2d i0 i1 j0 j1 beta dx (at_ 2) (at_ 3) rgcw (at_ 1) β) vs
  compareAll [(0, 1)] vs

/-- `TEST_CASE("diffusion v1 res")` (src/cd_apply_3d.t.cpp:34-116) -/
def diffusionV1Res3d (i0 i1 j0 j1 k0 k1 : Int) (alpha beta : T) (dx : Nat → T) (agcw ugcw fgcw rgcw : Int) (xa xu xff xf0 xf1 xf2 : Nat → T)
    (β : Nat → Backend) : M Bool := do
  let k ← mkB .K k0 k1
  let j ← mkB .J j0 j1
  let i ← mkB .I i0 i1
  let a ← DevVec.makeVecOffset 0 agcw [k, j, i]
  let u ← DevVec.makeVecOffset 0 ugcw [k, j, i]
  let ff ← DevVec.makeVecOffset 0 fgcw [k, j, i]
  let res ← DevVec.makeVecOffset 0 rgcw [k, j, i]
  let res_cuda ← DevVec.makeVecOffset 0 rgcw [k, j, i]
  let i' ← i.plus 1
  let f0 ← DevVec.makeVec 0 [k, j, i']
  let j' ← j.plus 1
  let f1 ← DevVec.makeVec 0 [i, k, j']
  let k' ← k.plus 1
  let f2 ← DevVec.makeVec 0 [j, i, k']
  let vs := [a.fill xa, u.fill xu, ff.fill xff, res, res_cuda, f0.fill xf0, f1.fill xf1, f2.fill xf2]
  let vs ← onHost
      (F.celldiffusionv1res3d i0 i1 j0 j1 k0 k1 alpha beta dx agcw (at_ 0) ugcw (at_ 1) fgcw (at_ 2) (at_ 5) (at_ 6) (at_ 7) rgcw (at_ 3)) vs
  let vs ← onDevice [0, 1, 2, 5, 6, 7, 4]
      (Cuda.diffusionV1Res3d i0 i1 j0 j1 k0 k1 alpha beta dx agcw (at_ 0) ugcw (at_ 1) fgcw (at_ 2) (at_ 5) (at_ 6) (at_ 7) rgcw (at_ 4) β) vs
  compareAll [(3, 4)] vs

/-- `TEST_CASE("diffusion v2 res")` (src/cd_apply_3d.t.cpp:118-194) -/
def diffusionV2Res3d (i0 i1 j0 j1 k0 k1 : Int) (alpha beta : T) (dx : Nat → T) (ugcw fgcw rgcw : Int) (xu xff xf0 xf1 xf2 : Nat → T)
    (β : Nat → Backend) : M Bool := do
  let k ← mkB .K k0 k1
  let j ← mkB .J j0 j1
  let i ← mkB .I i0 i1
  let u ← DevVec.makeVecOffset 0 ugcw [k, j, i]
  let ff ← DevVec.makeVecOffset 0 fgcw [k, j, i]
  let res ← DevVec.makeVecOffset 0 rgcw [k, j, i]
  let res_cuda ← DevVec.makeVecOffset 0 rgcw [k, j, i]
  let i' ← i.plus 1
  let f0 ← DevVec.makeVec 0 [k, j, i']
  let j' ← j.plus 1
  let f1 ← DevVec.makeVec 0 [i, k, j']
  let k' ← k.plus 1
  let f2 ← DevVec.makeVec 0 [j, i, k']
  let vs := [u.fill xu, ff.fill xff, res, res_cuda, f0.fill xf0, f1.fill xf1, f2.fill xf2]
  let vs ← onHost (F.celldiffusionv2res3d i0 i1 j0 j1 k0 k1 alpha beta dx ugcw (at_ 0) fgcw (at_ 1) (at_ 4) (at_ 5) (at_ 6) rgcw (at_ 2)) vs
  let vs ← onDevice [0, 1, 4, 5, 6, 3]
      (Cuda.diffusionV2Res3d i0 i1 j0 j1 k0 k1 alpha beta dx ugcw (at_ 0) fgcw (at_ 1) (at_ 4) (at_ 5) (at_ 6) rgcw (at_ 3) β) vs
  compareAll [(2, 3)] vs

/-- `TEST_CASE("poisson v1 res")` (src/cd_apply_3d.t.cpp:196-263) -/
def poissonV1Res3d (i0 i1 j0 j1 k0 k1 : Int) (beta : T) (dx : Nat → T) (fgcw rgcw : Int) (xff xf0 xf1 xf2 : Nat → T) (β : Nat → Backend) : M Bool :=
    do
  let k ← mkB .K k0 k1
  let j ← mkB .J j0 j1
  let i ← mkB .I i0 i1
  let ff ← DevVec.makeVecOffset 0 fgcw [k, j, i]
  let res ← DevVec.makeVecOffset 0 rgcw [k, j, i]
  let res_cuda ← DevVec.makeVecOffset 0 rgcw [k, j, i]
  let i' ← i.plus 1
  let f0 ← DevVec.makeVec 0 [k, j, i']
  let j' ← j.plus 1
  let f1 ← DevVec.makeVec 0 [i, k, j']
  let k' ← k.plus 1
  let f2 ← DevVec.makeVec 0 [j, i, k']
  let vs := [ff.fill xff, res, res_cuda, f0.fill xf0, f1.fill xf1, f2.fill xf2]
  let vs ← onHost (F.cellpoissonv1res3d i0 i1 j0 j1 k0 k1 beta dx fgcw (at_ 0) (at_ 3) (at_ 4) (at_ 5) rgcw (at_ 1)) vs
  let vs ← onDevice [0, 3, 4, 5, 2] (Cuda.poissonV1Res3d i0 i1 j0 j1 k0 k1 beta dx fgcw (at_ 0) (at_ 3) (at_ 4) (at_ 5) rgcw (at_ 2) β) vs
  compareAll [(1, 2)] vs

/-- `TEST_CASE("diffusion v1 apply")` (src/cd_apply_3d.t.cpp:265-341) -/
def diffusionV1Apply3d (i0 i1 j0 j1 k0 k1 : Int) (alpha beta : T) (dx : Nat → T) (agcw ugcw rgcw : Int) (xa xu xf0 xf1 xf2 : Nat → T)
    (β : Nat → Backend) : M Bool := do
  let k ← mkB .K k0 k1
  let j ← mkB .J j0 j1
  let i ← mkB .I i0 i1
  let a ← DevVec.makeVecOffset 0 agcw [k, j, i]
  let u ← DevVec.makeVecOffset 0 ugcw [k, j, i]
  let res ← DevVec.makeVecOffset 0 rgcw [k, j, i]
  let res_cuda ← DevVec.makeVecOffset 0 rgcw [k, j, i]
  let i' ← i.plus 1
  let f0 ← DevVec.makeVec 0 [k, j, i']
  let j' ← j.plus 1
  let f1 ← DevVec.makeVec 0 [i, k, j']
  let k' ← k.plus 1
  let f2 ← DevVec.makeVec 0 [j, i, k']
  let vs := [a.fill xa, u.fill xu, res, res_cuda, f0.fill xf0, f1.fill xf1, f2.fill xf2]
  let vs ← onHost (F.celldiffusionv1apply3d i0 i1 j0 j1 k0 k1 alpha beta dx agcw (at_ 0) ugcw (at_ 1) (at_ 4) (at_ 5) (at_ 6) rgcw (at_ 2)) vs
  let vs ← onDevice [0, 1, 4, 5, 6, 3]
      (Cuda.diffusionV1Apply3d i0 i1 j0 j1 k0 k1 alpha beta dx agcw (at_ 0) ugcw (at_ 1) (at_ 4) (at_ 5) (at_ 6) rgcw (at_ 3) β) vs
  compareAll [(2, 3)] vs

/-- `TEST_CASE("diffusion v2 apply")` (src/cd_apply_3d.t.cpp:343-412) -/
def diffusionV2Apply3d (i0 i1 j0 j1 k0 k1 : Int) (alpha beta : T) (dx : Nat → T) (ugcw rgcw : Int) (xu xf0 xf1 xf2 : Nat → T) (β : Nat → Backend) :
    M Bool := do
  let k ← mkB .K k0 k1
  let j ← mkB .J j0 j1
  let i ← mkB .I i0 i1
  let u ← DevVec.makeVecOffset 0 ugcw [k, j, i]
  let res ← DevVec.makeVecOffset 0 rgcw [k, j, i]
  let res_cuda ← DevVec.makeVecOffset 0 rgcw [k, j, i]
  let i' ← i.plus 1
  let f0 ← DevVec.makeVec 0 [k, j, i']
  let j' ← j.plus 1
  let f1 ← DevVec.makeVec 0 [i, k, j']
  let k' ← k.plus 1
  let f2 ← DevVec.makeVec 0 [j, i, k']
  let vs := [u.fill xu, res, res_cuda, f0.fill xf0, f1.fill xf1, f2.fill xf2]
  let vs ← onHost (F.celldiffusionv2apply3d i0 i1 j0 j1 k0 k1 alpha beta dx ugcw (at_ 0) (at_ 3) (at_ 4) (at_ 5) rgcw (at_ 1)) vs
  let vs ← onDevice [0, 3, 4, 5, 2] (Cuda.diffusionV2Apply3d i0 i1 j0 j1 k0 k1 alpha beta dx ugcw (at_ 0) (at_ 3) (at_ 4) (at_ 5) rgcw (at_ 2) β) vs
  compareAll [(1, 2)] vs

/-- `TEST_CASE("poisson v2 apply")` (src/cd_apply_3d.t.cpp:414-473) -/
def poissonV2Apply3d (i0 i1 j0 j1 k0 k1 : Int) (beta : T) (dx : Nat → T) (rgcw : Int) (xf0 xf1 xf2 : Nat → T) (β : Nat → Backend) : M Bool := do
  let k ← mkB .K k0 k1
  let j ← mkB .J j0 j1
  let i ← mkB .I i0 i1
  let res ← DevVec.makeVecOffset 0 rgcw [k, j, i]
  let res_cuda ← DevVec.makeVecOffset 0 rgcw [k, j, i]
  let i' ← i.plus 1
  let f0 ← DevVec.makeVec 0 [k, j, i']
  let j' ← j.plus 1
  let f1 ← DevVec.makeVec 0 [i, k, j']
  let k' ← k.plus 1
  let f2 ← DevVec.makeVec 0 [j, i, k']
  let vs := [res, res_cuda, f0.fill xf0, f1.fill xf1, f2.fill xf2]
  let vs ← onHost (F.cellpoissonv2apply3d i0 i1 j0 j1 k0 k1 beta dx (at_ 2) (at_ 3) (at_ 4) rgcw (at_ 0)) vs
  let vs ← onDevice [2, 3, 4, 1] (Cuda.poissonV2Apply3d i0 i1 j0 j1 k0 k1 beta dx (at_ 2) (at_ 3) (at_ 4) rgcw (at_ 1) β) vs
  compareAll [(0, 1)] vs

end Verif.Test
