import Verif.Model.Tests.Driver
import Verif.Model.Kernels.Flux
import Verif.Spec.Kernels.Flux
import Mathlib.Algebra.Field.Defs

/-
The host side of the flux tests, src/cd_flux_1d.t.cpp, src/cd_flux_2d.t.cpp, src/cd_flux_3d.t.cpp.  The numbers a test case fixes or picks at random, the random numbers `fill_random`
puts into a vector (`x` followed by the name of the vector) and the order in which the device works through a kernel (`β`) are arguments.
-/

namespace Verif.Test

variable {T : Type} [Field T] [DecidableEq T]

/-- `TEST_CASE("flux")` (src/cd_flux_1d.t.cpp:41-68) -/
def flux1d (i0 i1 : Int) (dx : Nat → T) (gcw : Int) (xu xb0 : Nat → T) (β : Nat → Backend) : M Bool := do
  let i ← mkB .I i0 i1
  let u ← DevVec.makeVecOffset 0 gcw [i]
  let i' ← i.plus 1
  let b0 ← DevVec.makeVec 0 [i']
  let f0 ← DevVec.makeVec 0 [i']
  let f0_cuda ← DevVec.makeVec 0 [i']
  let vs := [u.fill xu, b0.fill xb0, f0, f0_cuda]
  let vs ← onHost (F.celldiffusionflux1d i0 i1 dx (at_ 1) gcw (at_ 0) (at_ 2)) vs
  let vs ← onDevice [1, 0, 3] (Cuda.flux1d i0 i1 dx (at_ 1) gcw (at_ 0) (at_ 3) β) vs
  compareAll [(2, 3)] vs

/-- `TEST_CASE("poisson")` (src/cd_flux_1d.t.cpp:70-95) -/
def poissonFlux1d (i0 i1 : Int) (dx : Nat → T) (gcw : Int) (xu : Nat → T) (β : Nat → Backend) : M Bool := do
  let i ← mkB .I i0 i1
  let u ← DevVec.makeVecOffset 0 gcw [i]
  let i' ← i.plus 1
  let f0 ← DevVec.makeVec 0 [i']
  let f0_cuda ← DevVec.makeVec 0 [i']
  let vs := [u.fill xu, f0, f0_cuda]
  let vs ← onHost (F.cellpoissonflux1d i0 i1 dx gcw (at_ 0) (at_ 1)) vs
  let vs ← onDevice [0, 2] (Cuda.poissonFlux1d i0 i1 dx gcw (at_ 0) (at_ 2) β) vs
  compareAll [(1, 2)] vs

/-- `TEST_CASE("flux")` (src/cd_flux_2d.t.cpp:40-91) -/
def flux2d (i0 j0 i1 j1 : Int) (dx : Nat → T) (gcw : Int) (xu xb0 xb1 : Nat → T) (β : Nat → Backend) : M Bool := do
  let j ← mkB .J j0 j1
  let i ← mkB .I i0 i1
  let u ← DevVec.makeVecOffset 0 gcw [j, i]
  let i' ← i.plus 1
  let b0 ← DevVec.makeVec 0 [j, i']
  let f0 ← DevVec.makeVec 0 [j, i']
  let f0_cuda ← DevVec.makeVec 0 [j, i']
  let j' ← j.plus 1
  let b1 ← DevVec.makeVec 0 [i, j']
  let f1 ← DevVec.makeVec 0 [i, j']
  let f1_cuda ← DevVec.makeVec 0 [i, j']
  let vs := [u.fill xu, b0.fill xb0, f0, f0_cuda, b1.fill xb1, f1, f1_cuda]
  let vs ← onHost (F.celldiffusionflux2d i0 j0 i1 j1 dx (at_ 1) (at_ 4) gcw (at_ 0) (at_ 2) (at_ 5)) vs
  let vs ← onDevice [1, 4, 0, 3, 6] (Cuda.flux2d i0 j0 i1 j1 dx (at_ 1) (at_ 4) gcw (at_ 0) (at_ 3) (at_ 6) β) vs
  compareAll [(2, 3), (5, 6)] vs

/-- `TEST_CASE("poisson")` (src/cd_flux_2d.t.cpp:93-122) -/
def poissonFlux2d (i0 j0 i1 j1 : Int) (dx : Nat → T) (gcw : Int) (xu : Nat → T) (β : Nat → Backend) : M Bool := do
  let j ← mkB .J j0 j1
  let i ← mkB .I i0 i1
  let u ← DevVec.makeVecOffset 0 gcw [j, i]
  let i' ← i.plus 1
  let f0 ← DevVec.makeVec 0 [j, i']
  let f0_cuda ← DevVec.makeVec 0 [j, i']
  let j' ← j.plus 1
  let f1 ← DevVec.makeVec 0 [i, j']
  let f1_cuda ← DevVec.makeVec 0 [i, j']
  let vs := [u.fill xu, f0, f0_cuda, f1, f1_cuda]
  let vs ← onHost (F.cellpoissonflux2d i0 j0 i1 j1 dx gcw (at_ 0) (at_ 1) (at_ 3)) vs
  let vs ← onDevice [0, 2, 4] (Cuda.poissonFlux2d i0 j0 i1 j1 dx gcw (at_ 0) (at_ 2) (at_ 4) β) vs
  compareAll [(1, 2), (3, 4)] vs

/-- `TEST_CASE("flux")` (src/cd_flux_3d.t.cpp:40-104) -/
def flux3d (i0 j0 k0 i1 j1 k1 : Int) (dx : Nat → T) (gcw : Int) (xu xb0 xb1 xb2 : Nat → T) (β : Nat → Backend) : M Bool := do
  let k ← mkB .K k0 k1
  let j ← mkB .J j0 j1
  let i ← mkB .I i0 i1
  let u ← DevVec.makeVecOffset 0 gcw [k, j, i]
  let i' ← i.plus 1
  let b0 ← DevVec.makeVec 0 [k, j, i']
  let f0 ← DevVec.makeVec 0 [k, j, i']
  let f0_cuda ← DevVec.makeVec 0 [k, j, i']
  let j' ← j.plus 1
  let b1 ← DevVec.makeVec 0 [i, k, j']
  let f1 ← DevVec.makeVec 0 [i, k, j']
  let f1_cuda ← DevVec.makeVec 0 [i, k, j']
  let k' ← k.plus 1
  let b2 ← DevVec.makeVec 0 [j, i, k']
  let f2 ← DevVec.makeVec 0 [j, i, k']
  let f2_cuda ← DevVec.makeVec 0 [j, i, k']
  let vs := [u.fill xu, b0.fill xb0, f0, f0_cuda, b1.fill xb1, f1, f1_cuda, b2.fill xb2, f2, f2_cuda]
  let vs ← onHost (F.celldiffusionflux3d i0 j0 k0 i1 j1 k1 dx (at_ 1) (at_ 4) (at_ 7) gcw (at_ 0) (at_ 2) (at_ 5) (at_ 8)) vs
  let vs ← onDevice [1, 4, 7, 0, 3, 6, 9] (Cuda.flux3d i0 j0 k0 i1 j1 k1 dx (at_ 1) (at_ 4) (at_ 7) gcw (at_ 0) (at_ 3) (at_ 6) (at_ 9) β) vs
  compareAll [(2, 3), (5, 6), (8, 9)] vs

/-- `TEST_CASE("poisson")` (src/cd_flux_3d.t.cpp:106-159) -/
def poissonFlux3d (i0 j0 k0 i1 j1 k1 : Int) (dx : Nat → T) (gcw : Int) (xu : Nat → T) (β : Nat → Backend) : M Bool := do
  let k ← mkB .K k0 k1
  let j ← mkB .J j0 j1
  let i ← mkB .I i0 i1
  let u ← DevVec.makeVecOffset 0 gcw [k, j, i]
  let i' ← i.plus 1
  let f0 ← DevVec.makeVec 0 [k, j, i']
  let f0_cuda ← DevVec.makeVec 0 [k, j, i']
  let j' ← j.plus 1
  let f1 ← DevVec.makeVec 0 [i, k, j']
  let f1_cuda ← DevVec.makeVec 0 [i, k, j']
  let k' ← k.plus 1
  let f2 ← DevVec.makeVec 0 [j, i, k']
  let f2_cuda ← DevVec.makeVec 0 [j, i, k']
  let vs := [u.fill xu, f0, f0_cuda, f1, f1_cuda, f2, f2_cuda]
  let vs ← onHost (F.cellpoissonflux3d i0 j0 k0 i1 j1 k1 dx gcw (at_ 0) (at_ 1) (at_ 3) (at_ 5)) vs
  let vs ← onDevice [0, 2, 4, 6] (Cuda.poissonFlux3d i0 j0 k0 i1 j1 k1 dx gcw (at_ 0) (at_ 2) (at_ 4) (at_ 6) β) vs
  compareAll [(1, 2), (3, 4), (5, 6)] vs

end Verif.Test
