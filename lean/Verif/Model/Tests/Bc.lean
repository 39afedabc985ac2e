import Verif.Model.Tests.Driver
import Verif.Model.Kernels.Bc
import Verif.Spec.Kernels.Bc
import Mathlib.Algebra.Field.Defs

/-
The host side of the boundary condition tests, src/cd_correct_bc_1d.t.cpp, src/cd_correct_bc_2d.t.cpp, src/cd_correct_bc_3d.t.cpp.  The numbers a test case fixes or picks at random, the random numbers `fill_random`
puts into a vector (`x` followed by the name of the vector) and the order in which the device works through a kernel (`β`) are arguments.
-/

namespace Verif.Test

variable {T : Type} [Field T] [DecidableEq T]

/-- `TEST_CASE("set")` (src/cd_correct_bc_1d.t.cpp:44-105) -/
def setBc1d (i0 i1 : Int) (dx : Nat → T) (dgcw ugcw : Int) (bLo bHi : Nat → Int) (exOrder face btype : Int) (alpha beta : T) (xu xd0 : Nat → T)
    (β : Nat → Backend) : M Bool := do
  let i ← mkB .I i0 i1
  let u ← DevVec.makeVecOffset 0 ugcw [i]
  let i' ← i.plus 1
  let d0 ← DevVec.makeVecOffset 0 dgcw [i']
  let vs := [(u.fill xu).host, d0.fill xd0, copyOfHost (u.fill xu)]
  let vs ← onHost (F.cellsetcorrectionbc1d i0 i1 dx dgcw (at_ 1) ugcw (at_ 0) bLo bHi exOrder face btype alpha beta) vs
  let vs ← onDevice [1, 2] (Cuda.setBc1d i0 i1 dx dgcw (at_ 1) ugcw (at_ 2) bLo bHi exOrder face btype alpha beta β) vs
  compareAll [(0, 2)] vs

/-- `TEST_CASE("poisson")` (src/cd_correct_bc_1d.t.cpp:107-161) -/
def setPoissonBc1d (i0 i1 : Int) (dx : Nat → T) (ugcw : Int) (bLo bHi : Nat → Int) (exOrder face btype : Int) (alpha beta : T) (xu : Nat → T)
    (β : Nat → Backend) : M Bool := do
  let i ← mkB .I i0 i1
  let u ← DevVec.makeVecOffset 0 ugcw [i]
  let vs := [(u.fill xu).host, copyOfHost (u.fill xu)]
  let vs ← onHost (F.cellsetpoissoncorrectionbc1d i0 i1 dx ugcw (at_ 0) bLo bHi exOrder face btype alpha beta) vs
  let vs ← onDevice [1] (Cuda.setPoissonBc1d i0 i1 dx ugcw (at_ 1) bLo bHi exOrder face btype alpha beta β) vs
  compareAll [(0, 1)] vs

/-- `TEST_CASE("set")` (src/cd_correct_bc_2d.t.cpp:50-123) -/
def setBc2d (i0 i1 j0 j1 : Int) (dx : Nat → T) (dgcw ugcw : Int) (bLo bHi : Nat → Int) (exOrder face type btype : Int) (alpha beta : T)
    (xu xd0 xd1 : Nat → T) (β : Nat → Backend) : M Bool := do
  let j ← mkB .J j0 j1
  let i ← mkB .I i0 i1
  let u ← DevVec.makeVecOffset 0 ugcw [j, i]
  let i' ← i.plus 1
  let d0 ← DevVec.makeVecOffset 0 dgcw [j, i']
  let j' ← j.plus 1
  let d1 ← DevVec.makeVecOffset 0 dgcw [i, j']
  let vs := [(u.fill xu).host, d0.fill xd0, d1.fill xd1, copyOfHost (u.fill xu)]
  let vs ← onHost (F.cellsetcorrectionbc2d i0 i1 j0 j1 dx dgcw (at_ 1) (at_ 2) ugcw (at_ 0) bLo bHi exOrder face type btype alpha beta) vs
  let vs ← onDevice [1, 2, 3] (Cuda.setBc2d i0 i1 j0 j1 dx dgcw (at_ 1) (at_ 2) ugcw (at_ 3) bLo bHi exOrder face type btype alpha beta β) vs
  compareAll [(0, 3)] vs

/-- `TEST_CASE("poisson")` (src/cd_correct_bc_2d.t.cpp:125-186) -/
def setPoissonBc2d (i0 i1 j0 j1 : Int) (dx : Nat → T) (ugcw : Int) (bLo bHi : Nat → Int) (exOrder face type btype : Int) (alpha beta : T)
    (xu : Nat → T) (β : Nat → Backend) : M Bool := do
  let j ← mkB .J j0 j1
  let i ← mkB .I i0 i1
  let u ← DevVec.makeVecOffset 0 ugcw [j, i]
  let vs := [(u.fill xu).host, copyOfHost (u.fill xu)]
  let vs ← onHost (F.cellsetpoissoncorrectionbc2d i0 i1 j0 j1 dx ugcw (at_ 0) bLo bHi exOrder face type btype alpha beta) vs
  let vs ← onDevice [1] (Cuda.setPoissonBc2d i0 i1 j0 j1 dx ugcw (at_ 1) bLo bHi exOrder face type btype alpha beta β) vs
  compareAll [(0, 1)] vs

/-- `TEST_CASE("corner")` (src/cd_correct_bc_2d.t.cpp:188-251) -/
def setCornerBc2d (i0 i1 j0 j1 ugcw : Int) (dx : Nat → T) (bLo bHi : Nat → Int) (exOrder face type btype : Int) (xu xd0 xd1 : Nat → T)
    (β : Nat → Backend) : M Bool := do
  let j ← mkB .J j0 j1
  let i ← mkB .I i0 i1
  let u ← DevVec.makeVecOffset 0 ugcw [j, i]
  let i' ← i.plus 1
  let d0 ← DevVec.makeVec 0 [j, i']
  let j' ← j.plus 1
  let d1 ← DevVec.makeVec 0 [i, j']
  let vs := [(u.fill xu).host, d0.fill xd0, d1.fill xd1, copyOfHost (u.fill xu)]
  let vs ← onHost (F.cellsetinteriorcornerbc2d i0 i1 j0 j1 ugcw dx (at_ 1) (at_ 2) (at_ 0) bLo bHi exOrder face type btype) vs
  let vs ← onDevice [1, 2, 3] (Cuda.setCornerBc2d i0 i1 j0 j1 ugcw dx (at_ 1) (at_ 2) (at_ 3) bLo bHi exOrder face type btype β) vs
  compareAll [(0, 3)] vs

/-- `TEST_CASE("homogenous")` (src/cd_correct_bc_2d.t.cpp:253-291) -/
def setHomogenousBc2d (i0 j0 i1 j1 face : Int) (bLo bHi : Nat → Int) (exOrder : Int) (xu : Nat → T) (β : Nat → Backend) : M Bool := do
  let j ← mkB .J j0 j1
  let i ← mkB .I i0 i1
  let u ← DevVec.makeVecOffset 0 1 [j, i]
  let vs := [(u.fill xu).host, copyOfHost (u.fill xu)]
  let vs ← onHost (F.cellsethomogenousbc2d i0 j0 i1 j1 face bLo bHi exOrder (at_ 0)) vs
  let vs ← onDevice [1] (Cuda.setHomogenousBc2d i0 j0 i1 j1 face bLo bHi exOrder (at_ 1) β) vs
  compareAll [(0, 1)] vs

/-- `TEST_CASE("set")` (src/cd_correct_bc_3d.t.cpp:49-131) -/
def setBc3d (i0 i1 j0 j1 k0 k1 : Int) (dx : Nat → T) (dgcw ugcw : Int) (bLo bHi : Nat → Int) (exOrder face type btype : Int) (alpha beta : T)
    (xu xd0 xd1 xd2 : Nat → T) (β : Nat → Backend) : M Bool := do
  let k ← mkB .K k0 k1
  let j ← mkB .J j0 j1
  let i ← mkB .I i0 i1
  let u ← DevVec.makeVecOffset 0 ugcw [k, j, i]
  let i' ← i.plus 1
  let d0 ← DevVec.makeVecOffset 0 dgcw [k, j, i']
  let j' ← j.plus 1
  let d1 ← DevVec.makeVecOffset 0 dgcw [i, k, j']
  let k' ← k.plus 1
  let d2 ← DevVec.makeVecOffset 0 dgcw [j, i, k']
  let vs := [(u.fill xu).host, d0.fill xd0, d1.fill xd1, d2.fill xd2, copyOfHost (u.fill xu)]
  let vs ← onHost
      (F.cellsetcorrectionbc3d i0 i1 j0 j1 k0 k1 dx dgcw (at_ 1) (at_ 2) (at_ 3) ugcw (at_ 0) bLo bHi exOrder face type btype alpha beta) vs
  let vs ← onDevice [1, 2, 3, 4]
      (Cuda.setBc3d i0 i1 j0 j1 k0 k1 dx dgcw (at_ 1) (at_ 2) (at_ 3) ugcw (at_ 4) bLo bHi exOrder face type btype alpha beta β) vs
  compareAll [(0, 4)] vs

/-- `TEST_CASE("poisson")` (src/cd_correct_bc_3d.t.cpp:133-200) -/
def setPoissonBc3d (i0 i1 j0 j1 k0 k1 : Int) (dx : Nat → T) (ugcw : Int) (bLo bHi : Nat → Int) (exOrder face type btype : Int) (alpha beta : T)
    (xu : Nat → T) (β : Nat → Backend) : M Bool := do
  let k ← mkB .K k0 k1
  let j ← mkB .J j0 j1
  let i ← mkB .I i0 i1
  let u ← DevVec.makeVecOffset 0 ugcw [k, j, i]
  let vs := [(u.fill xu).host, copyOfHost (u.fill xu)]
  let vs ← onHost (F.cellsetpoissoncorrectionbc3d i0 i1 j0 j1 k0 k1 dx ugcw (at_ 0) bLo bHi exOrder face type btype alpha beta) vs
  let vs ← onDevice [1] (Cuda.setPoissonBc3d i0 i1 j0 j1 k0 k1 dx ugcw (at_ 1) bLo bHi exOrder face type btype alpha beta β) vs
  compareAll [(0, 1)] vs

end Verif.Test
