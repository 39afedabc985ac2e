import Verif.Model.Tests.Driver
import Verif.Model.Kernels.Stencil
import Verif.Spec.Kernels.Stencil
import Mathlib.Algebra.Field.Defs

/-
The host side of the coefficient tests, src/cd_stencil_1d.t.cpp, src/cd_stencil_2d.t.cpp, src/cd_stencil_3d.t.cpp.  The numbers a test case fixes or picks at random, the random numbers `fill_random`
puts into a vector (`x` followed by the name of the vector) and the order in which the device works through a kernel (`β`) are arguments.
-/

namespace Verif.Test

variable {T : Type} [Field T] [DecidableEq T]

/-- `TEST_CASE("offdiag")` (src/cd_stencil_1d.t.cpp:52-82) -/
def offdiag1d (i0 i1 bi0 bi1 : Int) (dx : Nat → T) (beta : T) (sgcw : Int) (xb0 : Nat → T) (β : Backend) : M Bool := do
  let bi ← mkB .I bi0 bi1
  let i ← mkB .I i0 i1
  let w ← mkB .W 0 2
  let bi' ← bi.plus 1
  let b0 ← DevVec.makeVec 0 [bi']
  let st ← DevVec.makeVecOffset 0 sgcw [i, w]
  let st_cuda ← DevVec.makeVecOffset 0 sgcw [i, w]
  let vs := [b0.fill xb0, st, st_cuda]
  let vs ← onHost (F.celldiffusionoffdiag1d i0 i1 bi0 bi1 dx beta (at_ 0) sgcw (at_ 1)) vs
  let vs ← onDevice [0, 2] (Cuda.offdiag1d i0 i1 bi0 bi1 dx beta (at_ 0) sgcw (at_ 2) β) vs
  compareAll [(1, 2)] vs

/-- `TEST_CASE("poisson offdiag")` (src/cd_stencil_1d.t.cpp:84-105) -/
def poissonOffdiag1d (i0 i1 : Int) (dx : Nat → T) (beta : T) (sgcw : Int) (β : Backend) : M Bool := do
  let i ← mkB .I i0 i1
  let w ← mkB .W 0 2
  let st ← DevVec.makeVecOffset 0 sgcw [i, w]
  let st_cuda ← DevVec.makeVecOffset 0 sgcw [i, w]
  let vs := [st, st_cuda]
  let vs ← onHost (F.cellpoissonoffdiag1d i0 i1 dx beta sgcw (at_ 0)) vs
  let vs ← onDevice [1] (Cuda.poissonOffdiag1d i0 i1 dx beta sgcw (at_ 1) β) vs
  compareAll [(0, 1)] vs

/-- `TEST_CASE("v1diag")` (src/cd_stencil_1d.t.cpp:107-143) -/
def v1diag1d (i0 i1 ai0 ai1 : Int) (alpha : T) (sgcw : Int) (xa xst : Nat → T) (β : Backend) : M Bool := do
  let ai ← mkB .I ai0 ai1
  let i ← mkB .I i0 i1
  let w ← mkB .W 0 2
  let a ← DevVec.makeVec 0 [ai]
  let st ← DevVec.makeVecOffset 0 sgcw [i, w]
  let vs := [a.fill xa, (st.fill xst).host, copyOfHost (st.fill xst)]
  let vs ← onHost (F.celldiffusionv1diag1d i0 i1 ai0 ai1 alpha (at_ 0) sgcw (at_ 1)) vs
  let vs ← onDevice [0, 2] (Cuda.v1diag1d i0 i1 ai0 ai1 alpha (at_ 0) sgcw (at_ 2) β) vs
  compareAll [(1, 2)] vs

/-- `TEST_CASE("v2diag")` (src/cd_stencil_1d.t.cpp:145-168) -/
def v2diag1d (i0 i1 : Int) (alpha : T) (sgcw : Int) (xst : Nat → T) (β : Backend) : M Bool := do
  let i ← mkB .I i0 i1
  let w ← mkB .W 0 2
  let st ← DevVec.makeVecOffset 0 sgcw [i, w]
  let vs := [(st.fill xst).host, copyOfHost (st.fill xst)]
  let vs ← onHost (F.celldiffusionv2diag1d i0 i1 alpha sgcw (at_ 0)) vs
  let vs ← onDevice [1] (Cuda.v2diag1d i0 i1 alpha sgcw (at_ 1) β) vs
  compareAll [(0, 1)] vs

/-- `TEST_CASE("poisson diag")` (src/cd_stencil_1d.t.cpp:170-191) -/
def poissonDiag1d (i0 i1 sgcw : Int) (xst : Nat → T) (β : Backend) : M Bool := do
  let i ← mkB .I i0 i1
  let w ← mkB .W 0 2
  let st ← DevVec.makeVecOffset 0 sgcw [i, w]
  let vs := [(st.fill xst).host, copyOfHost (st.fill xst)]
  let vs ← onHost (F.cellpoissondiag1d i0 i1 sgcw (at_ 0)) vs
  let vs ← onDevice [1] (Cuda.poissonDiag1d i0 i1 sgcw (at_ 1) β) vs
  compareAll [(0, 1)] vs

/-- `TEST_CASE("adjdiag")` (src/cd_stencil_1d.t.cpp:193-248) -/
def adjDiag1d (i0 i1 pi0 pi1 side btype exOrder : Int) (dx : Nat → T) (beta : T) (sgcw : Int) (xb0 xst : Nat → T) (β : Backend) : M Bool := do
  let i ← mkB .I i0 i1
  let w ← mkB .W 0 2
  let i' ← i.plus 1
  let b0 ← DevVec.makeVec 0 [i']
  let st ← DevVec.makeVecOffset 0 sgcw [i, w]
  let vs := [b0.fill xb0, (st.fill xst).host, copyOfHost (st.fill xst)]
  let vs ← onHost (F.adjcelldiffusiondiag1d i0 i1 pi0 pi1 side btype exOrder dx beta (at_ 0) sgcw (at_ 1)) vs
  let vs ← onDevice [0, 2] (Cuda.adjDiag1d i0 i1 pi0 pi1 side btype exOrder dx beta (at_ 0) sgcw (at_ 2) β) vs
  compareAll [(1, 2)] vs

/-- `TEST_CASE("poisson adjdiag")` (src/cd_stencil_1d.t.cpp:250-292) -/
def adjPoissonDiag1d (i0 i1 pi0 pi1 side btype exOrder : Int) (dx : Nat → T) (beta : T) (sgcw : Int) (xst : Nat → T) (β : Backend) : M Bool := do
  let i ← mkB .I i0 i1
  let w ← mkB .W 0 2
  let st ← DevVec.makeVecOffset 0 sgcw [i, w]
  let vs := [(st.fill xst).host, copyOfHost (st.fill xst)]
  let vs ← onHost (F.adjcellpoissondiag1d i0 i1 pi0 pi1 side btype exOrder dx beta sgcw (at_ 0)) vs
  let vs ← onDevice [1] (Cuda.adjPoissonDiag1d i0 i1 pi0 pi1 side btype exOrder dx beta sgcw (at_ 1) β) vs
  compareAll [(0, 1)] vs

/-- `TEST_CASE("adj cfdiag")` (src/cd_stencil_1d.t.cpp:294-347) -/
def adjCfDiag1d (i0 i1 pi0 pi1 r side intOrder : Int) (dx : Nat → T) (beta : T) (sgcw : Int) (xb0 xst : Nat → T) (β : Backend) : M Bool := do
  let i ← mkB .I i0 i1
  let w2 ← mkB .W 0 6
  let i' ← i.plus 1
  let b0 ← DevVec.makeVec 0 [i']
  let st ← DevVec.makeVecOffset 0 sgcw [i, w2]
  let vs := [b0.fill xb0, (st.fill xst).host, copyOfHost (st.fill xst)]
  let vs ← onHost (F.adjcelldiffusioncfdiag1d i0 i1 pi0 pi1 r side intOrder dx beta (at_ 0) sgcw (at_ 1)) vs
  let vs ← onDevice [0, 2] (Cuda.adjCfDiag1d i0 i1 pi0 pi1 r side intOrder dx beta (at_ 0) sgcw (at_ 2) β) vs
  compareAll [(1, 2)] vs

/-- `TEST_CASE("adj poisson cfdiag")` (src/cd_stencil_1d.t.cpp:349-389) -/
def adjPoissonCfDiag1d (i0 i1 pi0 pi1 r side intOrder : Int) (dx : Nat → T) (beta : T) (sgcw : Int) (xst : Nat → T) (β : Backend) : M Bool := do
  let i ← mkB .I i0 i1
  let w2 ← mkB .W 0 6
  let st ← DevVec.makeVecOffset 0 sgcw [i, w2]
  let vs := [(st.fill xst).host, copyOfHost (st.fill xst)]
  let vs ← onHost (F.adjcellpoissoncfdiag1d i0 i1 pi0 pi1 r side intOrder dx beta sgcw (at_ 0)) vs
  let vs ← onDevice [1] (Cuda.adjPoissonCfDiag1d i0 i1 pi0 pi1 r side intOrder dx beta sgcw (at_ 1) β) vs
  compareAll [(0, 1)] vs

/-- `TEST_CASE("adj offdiag")` (src/cd_stencil_1d.t.cpp:391-453) -/
def adjOffdiag1d (i0 i1 pi0 pi1 side btype exOrder : Int) (dx : Nat → T) (dir_factor neu_factor beta : T) (sgcw : Int) (xb0 xst : Nat → T)
    (β : Backend) : M Bool := do
  let i ← mkB .I i0 i1
  let w ← mkB .W 0 2
  let i' ← i.plus 1
  let b0 ← DevVec.makeVec 0 [i']
  let st ← DevVec.makeVecOffset 0 sgcw [i, w]
  let vs := [b0.fill xb0, (st.fill xst).host, copyOfHost (st.fill xst)]
  let vs ← onHost (F.adjcelldiffusionoffdiag1d i0 i1 pi0 pi1 side btype exOrder dx dir_factor neu_factor beta (at_ 0) sgcw (at_ 1)) vs
  let vs ← onDevice [0, 2] (Cuda.adjOffdiag1d i0 i1 pi0 pi1 side btype exOrder dx dir_factor neu_factor beta (at_ 0) sgcw (at_ 2) β) vs
  compareAll [(1, 2)] vs

/-- `TEST_CASE("adj poisson offdiag")` (src/cd_stencil_1d.t.cpp:455-513) -/
def adjPoissonOffdiag1d (i0 i1 pi0 pi1 side btype exOrder : Int) (dx : Nat → T) (dir_factor neu_factor beta : T) (sgcw : Int) (xst : Nat → T)
    (β : Backend) : M Bool := do
  let i ← mkB .I i0 i1
  let w ← mkB .W 0 2
  let st ← DevVec.makeVecOffset 0 sgcw [i, w]
  let vs := [(st.fill xst).host, copyOfHost (st.fill xst)]
  let vs ← onHost (F.adjcellpoissonoffdiag1d i0 i1 pi0 pi1 side btype exOrder dx dir_factor neu_factor beta sgcw (at_ 0)) vs
  let vs ← onDevice [1] (Cuda.adjPoissonOffdiag1d i0 i1 pi0 pi1 side btype exOrder dx dir_factor neu_factor beta sgcw (at_ 1) β) vs
  compareAll [(0, 1)] vs

/-- `TEST_CASE("adj cf offdiag")` (src/cd_stencil_1d.t.cpp:515-552) -/
def adjCfOffdiag1d (i0 i1 pi0 pi1 r side intOrder sgcw : Int) (xst : Nat → T) (β : Backend) : M Bool := do
  let i ← mkB .I i0 i1
  let w ← mkB .W 0 2
  let st ← DevVec.makeVecOffset 0 sgcw [i, w]
  let vs := [(st.fill xst).host, copyOfHost (st.fill xst)]
  let vs ← onHost (F.adjcelldiffusioncfoffdiag1d i0 i1 pi0 pi1 r side intOrder sgcw (at_ 0)) vs
  let vs ← onDevice [1] (Cuda.adjCfOffdiag1d i0 i1 pi0 pi1 r side intOrder sgcw (at_ 1) β) vs
  compareAll [(0, 1)] vs

/-- `TEST_CASE("readj offdiag")` (src/cd_stencil_1d.t.cpp:554-581) -/
def readjOffdiag1d (i0 i1 pi0 pi1 side sgcw : Int) (xst : Nat → T) (β : Backend) : M Bool := do
  let i ← mkB .I i0 i1
  let w ← mkB .W 0 2
  let st ← DevVec.makeVecOffset 0 sgcw [i, w]
  let vs := [(st.fill xst).host, copyOfHost (st.fill xst)]
  let vs ← onHost (F.readjcelldiffusionoffdiag1d i0 i1 pi0 pi1 side sgcw (at_ 0)) vs
  let vs ← onDevice [1] (Cuda.readjOffdiag1d i0 i1 pi0 pi1 side sgcw (at_ 1) β) vs
  compareAll [(0, 1)] vs

/-- `TEST_CASE("adj cf bdryrhs")` (src/cd_stencil_1d.t.cpp:583-632) -/
def adjCfBdryrhs1d (i0 i1 pi0 pi1 side sgcw gcw : Int) (xst xu xrhs : Nat → T) (β : Backend) : M Bool := do
  let i ← mkB .I i0 i1
  let w ← mkB .W 0 2
  let st ← DevVec.makeVecOffset 0 sgcw [i, w]
  let u ← DevVec.makeVecOffset 0 gcw [i]
  let rhs ← DevVec.makeVec 0 [i]
  let vs := [st.fill xst, u.fill xu, (rhs.fill xrhs).host, copyOfHost (rhs.fill xrhs)]
  let vs ← onHost (F.adjcelldiffusioncfbdryrhs1d i0 i1 pi0 pi1 side sgcw (at_ 0) gcw (at_ 1) (at_ 2)) vs
  let vs ← onDevice [0, 1, 3] (Cuda.adjCfBdryrhs1d i0 i1 pi0 pi1 side sgcw (at_ 0) gcw (at_ 1) (at_ 3) β) vs
  compareAll [(2, 3)] vs

/-- `TEST_CASE("offdiag")` (src/cd_stencil_2d.t.cpp:52-108) -/
def offdiag2d (i0 j0 i1 j1 bi0 bj0 bi1 bj1 : Int) (dx : Nat → T) (beta : T) (sgcw : Int) (xb0 xb1 : Nat → T) (β : Backend) : M Bool := do
  let bj ← mkB .J bj0 bj1
  let bi ← mkB .I bi0 bi1
  let j ← mkB .J j0 j1
  let i ← mkB .I i0 i1
  let w ← mkB .W 0 4
  let bi' ← bi.plus 1
  let b0 ← DevVec.makeVec 0 [bj, bi']
  let bj' ← bj.plus 1
  let b1 ← DevVec.makeVec 0 [bi, bj']
  let st ← DevVec.makeVecOffset 0 sgcw [j, i, w]
  let st_cuda ← DevVec.makeVecOffset 0 sgcw [j, i, w]
  let vs := [b0.fill xb0, b1.fill xb1, st, st_cuda]
  let vs ← onHost (F.celldiffusionoffdiag2d i0 j0 i1 j1 bi0 bj0 bi1 bj1 dx beta (at_ 0) (at_ 1) sgcw (at_ 2)) vs
  let vs ← onDevice [0, 1, 3] (Cuda.offdiag2d i0 j0 i1 j1 bi0 bj0 bi1 bj1 dx beta (at_ 0) (at_ 1) sgcw (at_ 3) β) vs
  compareAll [(2, 3)] vs

/-- `TEST_CASE("poisson offdiag")` (src/cd_stencil_2d.t.cpp:110-132) -/
def poissonOffdiag2d (i0 j0 i1 j1 : Int) (dx : Nat → T) (beta : T) (sgcw : Int) (β : Backend) : M Bool := do
  let j ← mkB .J j0 j1
  let i ← mkB .I i0 i1
  let w ← mkB .W 0 4
  let st ← DevVec.makeVecOffset 0 sgcw [j, i, w]
  let st_cuda ← DevVec.makeVecOffset 0 sgcw [j, i, w]
  let vs := [st, st_cuda]
  let vs ← onHost (F.cellpoissonoffdiag2d i0 j0 i1 j1 dx beta sgcw (at_ 0)) vs
  let vs ← onDevice [1] (Cuda.poissonOffdiag2d i0 j0 i1 j1 dx beta sgcw (at_ 1) β) vs
  compareAll [(0, 1)] vs

/-- `TEST_CASE("v1diag")` (src/cd_stencil_2d.t.cpp:134-175) -/
def v1diag2d (i0 j0 i1 j1 ai0 aj0 ai1 aj1 : Int) (alpha : T) (sgcw : Int) (xst xa : Nat → T) (β : Backend) : M Bool := do
  let j ← mkB .J j0 j1
  let i ← mkB .I i0 i1
  let w ← mkB .W 0 4
  let aj ← mkB .J aj0 aj1
  let ai ← mkB .I ai0 ai1
  let st ← DevVec.makeVecOffset 0 sgcw [j, i, w]
  let a ← DevVec.makeVec 0 [aj, ai]
  let vs := [(st.fill xst).host, a.fill xa, copyOfHost (st.fill xst)]
  let vs ← onHost (F.celldiffusionv1diag2d i0 j0 i1 j1 ai0 aj0 ai1 aj1 alpha (at_ 1) sgcw (at_ 0)) vs
  let vs ← onDevice [1, 2] (Cuda.v1diag2d i0 j0 i1 j1 ai0 aj0 ai1 aj1 alpha (at_ 1) sgcw (at_ 2) β) vs
  compareAll [(0, 2)] vs

/-- `TEST_CASE("v2diag")` (src/cd_stencil_2d.t.cpp:177-202) -/
def v2diag2d (i0 j0 i1 j1 : Int) (alpha : T) (sgcw : Int) (xst : Nat → T) (β : Backend) : M Bool := do
  let j ← mkB .J j0 j1
  let i ← mkB .I i0 i1
  let w ← mkB .W 0 4
  let st ← DevVec.makeVecOffset 0 sgcw [j, i, w]
  let vs := [(st.fill xst).host, copyOfHost (st.fill xst)]
  let vs ← onHost (F.celldiffusionv2diag2d i0 j0 i1 j1 alpha sgcw (at_ 0)) vs
  let vs ← onDevice [1] (Cuda.v2diag2d i0 j0 i1 j1 alpha sgcw (at_ 1) β) vs
  compareAll [(0, 1)] vs

/-- `TEST_CASE("poisson diag")` (src/cd_stencil_2d.t.cpp:204-228) -/
def poissonDiag2d (i0 j0 i1 j1 sgcw : Int) (xst : Nat → T) (β : Backend) : M Bool := do
  let j ← mkB .J j0 j1
  let i ← mkB .I i0 i1
  let w ← mkB .W 0 4
  let st ← DevVec.makeVecOffset 0 sgcw [j, i, w]
  let vs := [(st.fill xst).host, copyOfHost (st.fill xst)]
  let vs ← onHost (F.cellpoissondiag2d i0 j0 i1 j1 sgcw (at_ 0)) vs
  let vs ← onDevice [1] (Cuda.poissonDiag2d i0 j0 i1 j1 sgcw (at_ 1) β) vs
  compareAll [(0, 1)] vs

/-- `TEST_CASE("adjdiag")` (src/cd_stencil_2d.t.cpp:230-300) -/
def adjDiag2d (i0 j0 i1 j1 pi0 pj0 pi1 pj1 dir side btype exOrder : Int) (dx : Nat → T) (beta : T) (sgcw : Int) (xst xb0 xb1 : Nat → T)
    (β : Backend) : M Bool := do
  let j ← mkB .J j0 j1
  let i ← mkB .I i0 i1
  let w ← mkB .W 0 4
  let st ← DevVec.makeVecOffset 0 sgcw [j, i, w]
  let i' ← i.plus 1
  let b0 ← DevVec.makeVec 0 [j, i']
  let j' ← j.plus 1
  let b1 ← DevVec.makeVec 0 [i, j']
  let vs := [(st.fill xst).host, b0.fill xb0, b1.fill xb1, copyOfHost (st.fill xst)]
  let vs ← onHost (F.adjcelldiffusiondiag2d i0 j0 i1 j1 pi0 pj0 pi1 pj1 dir side btype exOrder dx beta (at_ 1) (at_ 2) sgcw (at_ 0)) vs
  let vs ← onDevice [1, 2, 3] (Cuda.adjDiag2d i0 j0 i1 j1 pi0 pj0 pi1 pj1 dir side btype exOrder dx beta (at_ 1) (at_ 2) sgcw (at_ 3) β) vs
  compareAll [(0, 3)] vs

/-- `TEST_CASE("poisson adjdiag")` (src/cd_stencil_2d.t.cpp:302-364) -/
def adjPoissonDiag2d (i0 j0 i1 j1 pi0 pj0 pi1 pj1 dir side btype exOrder : Int) (dx : Nat → T) (beta : T) (sgcw : Int) (xst : Nat → T) (β : Backend)
    : M Bool := do
  let j ← mkB .J j0 j1
  let i ← mkB .I i0 i1
  let w ← mkB .W 0 4
  let st ← DevVec.makeVecOffset 0 sgcw [j, i, w]
  let vs := [(st.fill xst).host, copyOfHost (st.fill xst)]
  let vs ← onHost (F.adjcellpoissondiag2d i0 j0 i1 j1 pi0 pj0 pi1 pj1 dir side btype exOrder dx beta sgcw (at_ 0)) vs
  let vs ← onDevice [1] (Cuda.adjPoissonDiag2d i0 j0 i1 j1 pi0 pj0 pi1 pj1 dir side btype exOrder dx beta sgcw (at_ 1) β) vs
  compareAll [(0, 1)] vs

/-- `TEST_CASE("adj cfdiag")` (src/cd_stencil_2d.t.cpp:366-435) -/
def adjCfDiag2d (i0 j0 i1 j1 pi0 pj0 pi1 pj1 r dir side intOrder : Int) (dx : Nat → T) (beta : T) (sgcw : Int) (xst xb0 xb1 : Nat → T) (β : Backend)
    : M Bool := do
  let j ← mkB .J j0 j1
  let i ← mkB .I i0 i1
  let w ← mkB .W 0 4
  let st ← DevVec.makeVecOffset 0 sgcw [j, i, w]
  let i' ← i.plus 1
  let b0 ← DevVec.makeVec 0 [j, i']
  let j' ← j.plus 1
  let b1 ← DevVec.makeVec 0 [i, j']
  let vs := [(st.fill xst).host, b0.fill xb0, b1.fill xb1, copyOfHost (st.fill xst)]
  let vs ← onHost (F.adjcelldiffusioncfdiag2d i0 j0 i1 j1 pi0 pj0 pi1 pj1 r dir side intOrder dx beta (at_ 1) (at_ 2) sgcw (at_ 0)) vs
  let vs ← onDevice [1, 2, 3] (Cuda.adjCfDiag2d i0 j0 i1 j1 pi0 pj0 pi1 pj1 r dir side intOrder dx beta (at_ 1) (at_ 2) sgcw (at_ 3) β) vs
  compareAll [(0, 3)] vs

/-- `TEST_CASE("adj poisson cfdiag")` (src/cd_stencil_2d.t.cpp:437-498) -/
def adjPoissonCfDiag2d (i0 j0 i1 j1 pi0 pj0 pi1 pj1 r dir side intOrder : Int) (dx : Nat → T) (beta : T) (sgcw : Int) (xst : Nat → T) (β : Backend)
    : M Bool := do
  let j ← mkB .J j0 j1
  let i ← mkB .I i0 i1
  let w ← mkB .W 0 4
  let st ← DevVec.makeVecOffset 0 sgcw [j, i, w]
  let vs := [(st.fill xst).host, copyOfHost (st.fill xst)]
  let vs ← onHost (F.adjcellpoissoncfdiag2d i0 j0 i1 j1 pi0 pj0 pi1 pj1 r dir side intOrder dx beta sgcw (at_ 0)) vs
  let vs ← onDevice [1] (Cuda.adjPoissonCfDiag2d i0 j0 i1 j1 pi0 pj0 pi1 pj1 r dir side intOrder dx beta sgcw (at_ 1) β) vs
  compareAll [(0, 1)] vs

/-- `TEST_CASE("adj offdiag")` (src/cd_stencil_2d.t.cpp:500-575) -/
def adjOffdiag2d (i0 j0 i1 j1 pi0 pj0 pi1 pj1 dir side btype exOrder : Int) (dx : Nat → T) (dir_factor neu_factor beta : T) (sgcw : Int)
    (xst xb0 xb1 : Nat → T) (β : Backend) : M Bool := do
  let j ← mkB .J j0 j1
  let i ← mkB .I i0 i1
  let w ← mkB .W 0 4
  let st ← DevVec.makeVecOffset 0 sgcw [j, i, w]
  let i' ← i.plus 1
  let b0 ← DevVec.makeVec 0 [j, i']
  let j' ← j.plus 1
  let b1 ← DevVec.makeVec 0 [i, j']
  let vs := [(st.fill xst).host, b0.fill xb0, b1.fill xb1, copyOfHost (st.fill xst)]
  let vs ← onHost
      (F.adjcelldiffusionoffdiag2d i0 j0 i1 j1 pi0 pj0 pi1 pj1 dir side btype exOrder dx dir_factor neu_factor beta (at_ 1) (at_ 2) sgcw (at_ 0)) vs
  let vs ← onDevice [1, 2, 3]
      (Cuda.adjOffdiag2d i0 j0 i1 j1 pi0 pj0 pi1 pj1 dir side btype exOrder dx dir_factor neu_factor beta (at_ 1) (at_ 2) sgcw (at_ 3) β) vs
  compareAll [(0, 3)] vs

/-- `TEST_CASE("adj poisson offdiag")` (src/cd_stencil_2d.t.cpp:577-644) -/
def adjPoissonOffdiag2d (i0 j0 i1 j1 pi0 pj0 pi1 pj1 dir side btype exOrder : Int) (dx : Nat → T) (dir_factor neu_factor beta : T) (sgcw : Int)
    (xst : Nat → T) (β : Backend) : M Bool := do
  let j ← mkB .J j0 j1
  let i ← mkB .I i0 i1
  let w ← mkB .W 0 4
  let st ← DevVec.makeVecOffset 0 sgcw [j, i, w]
  let vs := [(st.fill xst).host, copyOfHost (st.fill xst)]
  let vs ← onHost (F.adjcellpoissonoffdiag2d i0 j0 i1 j1 pi0 pj0 pi1 pj1 dir side btype exOrder dx dir_factor neu_factor beta sgcw (at_ 0)) vs
  let vs ← onDevice [1] (Cuda.adjPoissonOffdiag2d i0 j0 i1 j1 pi0 pj0 pi1 pj1 dir side btype exOrder dx dir_factor neu_factor beta sgcw (at_ 1) β)
      vs
  compareAll [(0, 1)] vs

/-- `TEST_CASE("adj cf offdiag")` (src/cd_stencil_2d.t.cpp:646-689) -/
def adjCfOffdiag2d (i0 j0 i1 j1 pi0 pj0 pi1 pj1 r dir side intOrder sgcw : Int) (xst : Nat → T) (β : Backend) : M Bool := do
  let j ← mkB .J j0 j1
  let i ← mkB .I i0 i1
  let w ← mkB .W 0 4
  let st ← DevVec.makeVecOffset 0 sgcw [j, i, w]
  let vs := [(st.fill xst).host, copyOfHost (st.fill xst)]
  let vs ← onHost (F.adjcelldiffusioncfoffdiag2d i0 j0 i1 j1 pi0 pj0 pi1 pj1 r dir side intOrder sgcw (at_ 0)) vs
  let vs ← onDevice [1] (Cuda.adjCfOffdiag2d i0 j0 i1 j1 pi0 pj0 pi1 pj1 r dir side intOrder sgcw (at_ 1) β) vs
  compareAll [(0, 1)] vs

/-- `TEST_CASE("readj offdiag")` (src/cd_stencil_2d.t.cpp:691-730) -/
def readjOffdiag2d (i0 j0 i1 j1 pi0 pj0 pi1 pj1 dir side sgcw : Int) (xst : Nat → T) (β : Backend) : M Bool := do
  let j ← mkB .J j0 j1
  let i ← mkB .I i0 i1
  let w ← mkB .W 0 4
  let st ← DevVec.makeVecOffset 0 sgcw [j, i, w]
  let vs := [(st.fill xst).host, copyOfHost (st.fill xst)]
  let vs ← onHost (F.readjcelldiffusionoffdiag2d i0 j0 i1 j1 pi0 pj0 pi1 pj1 dir side sgcw (at_ 0)) vs
  let vs ← onDevice [1] (Cuda.readjOffdiag2d i0 j0 i1 j1 pi0 pj0 pi1 pj1 dir side sgcw (at_ 1) β) vs
  compareAll [(0, 1)] vs

/-- `TEST_CASE("adj cf bdryrhs")` (src/cd_stencil_2d.t.cpp:732-793) -/
def adjCfBdryrhs2d (i0 j0 i1 j1 pi0 pj0 pi1 pj1 dir side sgcw gcw : Int) (xst xu xrhs : Nat → T) (β : Backend) : M Bool := do
  let j ← mkB .J j0 j1
  let i ← mkB .I i0 i1
  let w ← mkB .W 0 4
  let st ← DevVec.makeVecOffset 0 sgcw [j, i, w]
  let u ← DevVec.makeVecOffset 0 gcw [j, i]
  let rhs ← DevVec.makeVec 0 [j, i]
  let vs := [st.fill xst, u.fill xu, (rhs.fill xrhs).host, copyOfHost (rhs.fill xrhs)]
  let vs ← onHost (F.adjcelldiffusioncfbdryrhs2d i0 j0 i1 j1 pi0 pj0 pi1 pj1 dir side sgcw (at_ 0) gcw (at_ 1) (at_ 2)) vs
  let vs ← onDevice [0, 1, 3] (Cuda.adjCfBdryrhs2d i0 j0 i1 j1 pi0 pj0 pi1 pj1 dir side sgcw (at_ 0) gcw (at_ 1) (at_ 3) β) vs
  compareAll [(2, 3)] vs

/-- `TEST_CASE("offdiag")` (src/cd_stencil_3d.t.cpp:49-118) -/
def offdiag3d (i0 j0 k0 i1 j1 k1 bi0 bj0 bk0 bi1 bj1 bk1 : Int) (dx : Nat → T) (beta : T) (sgcw : Int) (xb0 xb1 xb2 : Nat → T) (β : Backend) : M
    Bool := do
  let bk ← mkB .K bk0 bk1
  let bj ← mkB .J bj0 bj1
  let bi ← mkB .I bi0 bi1
  let k ← mkB .K k0 k1
  let j ← mkB .J j0 j1
  let i ← mkB .I i0 i1
  let w ← mkB .W 0 6
  let bi' ← bi.plus 1
  let b0 ← DevVec.makeVec 0 [bk, bj, bi']
  let bj' ← bj.plus 1
  let b1 ← DevVec.makeVec 0 [bi, bk, bj']
  let bk' ← bk.plus 1
  let b2 ← DevVec.makeVec 0 [bj, bi, bk']
  let st ← DevVec.makeVecOffset 0 sgcw [k, j, i, w]
  let st_cuda ← DevVec.makeVecOffset 0 sgcw [k, j, i, w]
  let vs := [b0.fill xb0, b1.fill xb1, b2.fill xb2, st, st_cuda]
  let vs ← onHost (F.celldiffusionoffdiag3d i0 j0 k0 i1 j1 k1 bi0 bj0 bk0 bi1 bj1 bk1 dx beta (at_ 0) (at_ 1) (at_ 2) sgcw (at_ 3)) vs
  let vs ← onDevice [0, 1, 2, 4] (Cuda.offdiag3d i0 j0 k0 i1 j1 k1 bi0 bj0 bk0 bi1 bj1 bk1 dx beta (at_ 0) (at_ 1) (at_ 2) sgcw (at_ 4) β) vs
  compareAll [(3, 4)] vs

/-- `TEST_CASE("poisson offdiag")` (src/cd_stencil_3d.t.cpp:120-145) -/
def poissonOffdiag3d (i0 j0 k0 i1 j1 k1 : Int) (dx : Nat → T) (beta : T) (sgcw : Int) (β : Backend) : M Bool := do
  let k ← mkB .K k0 k1
  let j ← mkB .J j0 j1
  let i ← mkB .I i0 i1
  let w ← mkB .W 0 6
  let st ← DevVec.makeVecOffset 0 sgcw [k, j, i, w]
  let st_cuda ← DevVec.makeVecOffset 0 sgcw [k, j, i, w]
  let vs := [st, st_cuda]
  let vs ← onHost (F.cellpoissonoffdiag3d i0 j0 k0 i1 j1 k1 dx beta sgcw (at_ 0)) vs
  let vs ← onDevice [1] (Cuda.poissonOffdiag3d i0 j0 k0 i1 j1 k1 dx beta sgcw (at_ 1) β) vs
  compareAll [(0, 1)] vs

/-- `TEST_CASE("v1diag")` (src/cd_stencil_3d.t.cpp:147-206) -/
def v1diag3d (i0 j0 k0 i1 j1 k1 ai0 aj0 ak0 ai1 aj1 ak1 : Int) (alpha : T) (sgcw : Int) (xa xst : Nat → T) (β : Backend) : M Bool := do
  let ak ← mkB .K ak0 ak1
  let aj ← mkB .J aj0 aj1
  let ai ← mkB .I ai0 ai1
  let k ← mkB .K k0 k1
  let j ← mkB .J j0 j1
  let i ← mkB .I i0 i1
  let w ← mkB .W 0 6
  let a ← DevVec.makeVec 0 [ak, aj, ai]
  let st ← DevVec.makeVecOffset 0 sgcw [k, j, i, w]
  let vs := [a.fill xa, (st.fill xst).host, copyOfHost (st.fill xst)]
  let vs ← onHost (F.celldiffusionv1diag3d i0 j0 k0 i1 j1 k1 ai0 aj0 ak0 ai1 aj1 ak1 alpha (at_ 0) sgcw (at_ 1)) vs
  let vs ← onDevice [0, 2] (Cuda.v1diag3d i0 j0 k0 i1 j1 k1 ai0 aj0 ak0 ai1 aj1 ak1 alpha (at_ 0) sgcw (at_ 2) β) vs
  compareAll [(1, 2)] vs

/-- `TEST_CASE("v2diag")` (src/cd_stencil_3d.t.cpp:208-234) -/
def v2diag3d (i0 j0 k0 i1 j1 k1 : Int) (alpha : T) (sgcw : Int) (xst : Nat → T) (β : Backend) : M Bool := do
  let k ← mkB .K k0 k1
  let j ← mkB .J j0 j1
  let i ← mkB .I i0 i1
  let w ← mkB .W 0 6
  let st ← DevVec.makeVecOffset 0 sgcw [k, j, i, w]
  let vs := [(st.fill xst).host, copyOfHost (st.fill xst)]
  let vs ← onHost (F.celldiffusionv2diag3d i0 j0 k0 i1 j1 k1 alpha sgcw (at_ 0)) vs
  let vs ← onDevice [1] (Cuda.v2diag3d i0 j0 k0 i1 j1 k1 alpha sgcw (at_ 1) β) vs
  compareAll [(0, 1)] vs

/-- `TEST_CASE("poisson diag")` (src/cd_stencil_3d.t.cpp:236-262) -/
def poissonDiag3d (i0 j0 k0 i1 j1 k1 sgcw : Int) (xst : Nat → T) (β : Backend) : M Bool := do
  let k ← mkB .K k0 k1
  let j ← mkB .J j0 j1
  let i ← mkB .I i0 i1
  let w ← mkB .W 0 6
  let st ← DevVec.makeVecOffset 0 sgcw [k, j, i, w]
  let vs := [(st.fill xst).host, copyOfHost (st.fill xst)]
  let vs ← onHost (F.cellpoissondiag3d i0 j0 k0 i1 j1 k1 sgcw (at_ 0)) vs
  let vs ← onDevice [1] (Cuda.poissonDiag3d i0 j0 k0 i1 j1 k1 sgcw (at_ 1) β) vs
  compareAll [(0, 1)] vs

/-- `TEST_CASE("adjdiag")` (src/cd_stencil_3d.t.cpp:264-346) -/
def adjDiag3d (i0 j0 k0 i1 j1 k1 pi0 pj0 pk0 pi1 pj1 pk1 dir side btype exOrder : Int) (dx : Nat → T) (beta : T) (sgcw : Int)
    (xst xb0 xb1 xb2 : Nat → T) (β : Backend) : M Bool := do
  let k ← mkB .K k0 k1
  let j ← mkB .J j0 j1
  let i ← mkB .I i0 i1
  let w ← mkB .W 0 6
  let st ← DevVec.makeVecOffset 0 sgcw [k, j, i, w]
  let i' ← i.plus 1
  let b0 ← DevVec.makeVec 0 [k, j, i']
  let j' ← j.plus 1
  let b1 ← DevVec.makeVec 0 [i, k, j']
  let k' ← k.plus 1
  let b2 ← DevVec.makeVec 0 [j, i, k']
  let vs := [(st.fill xst).host, b0.fill xb0, b1.fill xb1, b2.fill xb2, copyOfHost (st.fill xst)]
  let vs ← onHost
      (F.adjcelldiffusiondiag3d i0 j0 k0 i1 j1 k1 pi0 pj0 pk0 pi1 pj1 pk1 dir side btype exOrder dx beta (at_ 1) (at_ 2) (at_ 3) sgcw (at_ 0)) vs
  let vs ← onDevice [1, 2, 3, 4]
      (Cuda.adjDiag3d i0 j0 k0 i1 j1 k1 pi0 pj0 pk0 pi1 pj1 pk1 dir side btype exOrder dx beta (at_ 1) (at_ 2) (at_ 3) sgcw (at_ 4) β) vs
  compareAll [(0, 4)] vs

/-- `TEST_CASE("adj_poissondiag")` (src/cd_stencil_3d.t.cpp:348-419) -/
def adjPoissonDiag3d (i0 j0 k0 i1 j1 k1 pi0 pj0 pk0 pi1 pj1 pk1 dir side btype exOrder : Int) (dx : Nat → T) (beta : T) (sgcw : Int) (xst : Nat → T)
    (β : Backend) : M Bool := do
  let k ← mkB .K k0 k1
  let j ← mkB .J j0 j1
  let i ← mkB .I i0 i1
  let w ← mkB .W 0 6
  let st ← DevVec.makeVecOffset 0 sgcw [k, j, i, w]
  let vs := [(st.fill xst).host, copyOfHost (st.fill xst)]
  let vs ← onHost (F.adjcellpoissondiag3d i0 j0 k0 i1 j1 k1 pi0 pj0 pk0 pi1 pj1 pk1 dir side btype exOrder dx beta sgcw (at_ 0)) vs
  let vs ← onDevice [1] (Cuda.adjPoissonDiag3d i0 j0 k0 i1 j1 k1 pi0 pj0 pk0 pi1 pj1 pk1 dir side btype exOrder dx beta sgcw (at_ 1) β) vs
  compareAll [(0, 1)] vs

/-- `TEST_CASE("adj cfdiag")` (src/cd_stencil_3d.t.cpp:421-503) -/
def adjCfDiag3d (i0 j0 k0 i1 j1 k1 pi0 pj0 pk0 pi1 pj1 pk1 r dir side intOrder : Int) (dx : Nat → T) (beta : T) (sgcw : Int)
    (xst xb0 xb1 xb2 : Nat → T) (β : Backend) : M Bool := do
  let k ← mkB .K k0 k1
  let j ← mkB .J j0 j1
  let i ← mkB .I i0 i1
  let w ← mkB .W 0 6
  let st ← DevVec.makeVecOffset 0 sgcw [k, j, i, w]
  let i' ← i.plus 1
  let b0 ← DevVec.makeVec 0 [k, j, i']
  let j' ← j.plus 1
  let b1 ← DevVec.makeVec 0 [i, k, j']
  let k' ← k.plus 1
  let b2 ← DevVec.makeVec 0 [j, i, k']
  let vs := [(st.fill xst).host, b0.fill xb0, b1.fill xb1, b2.fill xb2, copyOfHost (st.fill xst)]
  let vs ← onHost
      (F.adjcelldiffusioncfdiag3d i0 j0 k0 i1 j1 k1 pi0 pj0 pk0 pi1 pj1 pk1 r dir side intOrder dx beta (at_ 1) (at_ 2) (at_ 3) sgcw (at_ 0)) vs
  let vs ← onDevice [1, 2, 3, 4]
      (Cuda.adjCfDiag3d i0 j0 k0 i1 j1 k1 pi0 pj0 pk0 pi1 pj1 pk1 r dir side intOrder dx beta (at_ 1) (at_ 2) (at_ 3) sgcw (at_ 4) β) vs
  compareAll [(0, 4)] vs

/-- `TEST_CASE("adj poisson cfdiag")` (src/cd_stencil_3d.t.cpp:505-575) -/
def adjPoissonCfDiag3d (i0 j0 k0 i1 j1 k1 pi0 pj0 pk0 pi1 pj1 pk1 r dir side intOrder : Int) (dx : Nat → T) (beta : T) (sgcw : Int) (xst : Nat → T)
    (β : Backend) : M Bool := do
  let k ← mkB .K k0 k1
  let j ← mkB .J j0 j1
  let i ← mkB .I i0 i1
  let w ← mkB .W 0 6
  let st ← DevVec.makeVecOffset 0 sgcw [k, j, i, w]
  let vs := [(st.fill xst).host, copyOfHost (st.fill xst)]
  let vs ← onHost (F.adjcellpoissoncfdiag3d i0 j0 k0 i1 j1 k1 pi0 pj0 pk0 pi1 pj1 pk1 r dir side intOrder dx beta sgcw (at_ 0)) vs
  let vs ← onDevice [1] (Cuda.adjPoissonCfDiag3d i0 j0 k0 i1 j1 k1 pi0 pj0 pk0 pi1 pj1 pk1 r dir side intOrder dx beta sgcw (at_ 1) β) vs
  compareAll [(0, 1)] vs

/-- `TEST_CASE("adj offdiag")` (src/cd_stencil_3d.t.cpp:577-666) -/
def adjOffdiag3d (i0 j0 k0 i1 j1 k1 pi0 pj0 pk0 pi1 pj1 pk1 dir side btype exOrder : Int) (dx : Nat → T) (dir_factor neu_factor beta : T)
    (sgcw : Int) (xst xb0 xb1 xb2 : Nat → T) (β : Backend) : M Bool := do
  let k ← mkB .K k0 k1
  let j ← mkB .J j0 j1
  let i ← mkB .I i0 i1
  let w ← mkB .W 0 6
  let st ← DevVec.makeVecOffset 0 sgcw [k, j, i, w]
  let i' ← i.plus 1
  let b0 ← DevVec.makeVec 0 [k, j, i']
  let j' ← j.plus 1
  let b1 ← DevVec.makeVec 0 [i, k, j']
  let k' ← k.plus 1
  let b2 ← DevVec.makeVec 0 [j, i, k']
  let vs := [(st.fill xst).host, b0.fill xb0, b1.fill xb1, b2.fill xb2, copyOfHost (st.fill xst)]
  let vs ← onHost (F.adjcelldiffusionoffdiag3d i0 j0 k0 i1 j1 k1 pi0 pj0 pk0 pi1 pj1 pk1 dir side btype exOrder dx dir_factor neu_factor beta (at_
      1) (at_ 2) (at_ 3) sgcw (at_ 0)) vs
  let vs ← onDevice [1, 2, 3, 4] (Cuda.adjOffdiag3d i0 j0 k0 i1 j1 k1 pi0 pj0 pk0 pi1 pj1 pk1 dir side btype exOrder dx dir_factor neu_factor beta
      (at_ 1) (at_ 2) (at_ 3) sgcw (at_ 4) β) vs
  compareAll [(0, 4)] vs

/-- `TEST_CASE("adj poisson offdiag")` (src/cd_stencil_3d.t.cpp:668-745) -/
def adjPoissonOffdiag3d (i0 j0 k0 i1 j1 k1 pi0 pj0 pk0 pi1 pj1 pk1 dir side btype exOrder : Int) (dx : Nat → T) (dir_factor neu_factor beta : T)
    (sgcw : Int) (xst : Nat → T) (β : Backend) : M Bool := do
  let k ← mkB .K k0 k1
  let j ← mkB .J j0 j1
  let i ← mkB .I i0 i1
  let w ← mkB .W 0 6
  let st ← DevVec.makeVecOffset 0 sgcw [k, j, i, w]
  let vs := [(st.fill xst).host, copyOfHost (st.fill xst)]
  let vs ← onHost
      (F.adjcellpoissonoffdiag3d i0 j0 k0 i1 j1 k1 pi0 pj0 pk0 pi1 pj1 pk1 dir side btype exOrder dx dir_factor neu_factor beta sgcw (at_ 0)) vs
  let vs ← onDevice [1]
      (Cuda.adjPoissonOffdiag3d i0 j0 k0 i1 j1 k1 pi0 pj0 pk0 pi1 pj1 pk1 dir side btype exOrder dx dir_factor neu_factor beta sgcw (at_ 1) β) vs
  compareAll [(0, 1)] vs

/-- `TEST_CASE("adj cf offdiag")` (src/cd_stencil_3d.t.cpp:747-812) -/
def adjCfOffdiag3d (i0 j0 k0 i1 j1 k1 pi0 pj0 pk0 pi1 pj1 pk1 r dir side intOrder sgcw : Int) (xst : Nat → T) (β : Backend) : M Bool := do
  let k ← mkB .K k0 k1
  let j ← mkB .J j0 j1
  let i ← mkB .I i0 i1
  let w ← mkB .W 0 6
  let st ← DevVec.makeVecOffset 0 sgcw [k, j, i, w]
  let vs := [(st.fill xst).host, copyOfHost (st.fill xst)]
  let vs ← onHost (F.adjcelldiffusioncfoffdiag3d i0 j0 k0 i1 j1 k1 pi0 pj0 pk0 pi1 pj1 pk1 r dir side intOrder sgcw (at_ 0)) vs
  let vs ← onDevice [1] (Cuda.adjCfOffdiag3d i0 j0 k0 i1 j1 k1 pi0 pj0 pk0 pi1 pj1 pk1 r dir side intOrder sgcw (at_ 1) β) vs
  compareAll [(0, 1)] vs

/-- `TEST_CASE("readj offdiag")` (src/cd_stencil_3d.t.cpp:814-873) -/
def readjOffdiag3d (i0 j0 k0 i1 j1 k1 pi0 pj0 pk0 pi1 pj1 pk1 dir side sgcw : Int) (xst : Nat → T) (β : Backend) : M Bool := do
  let k ← mkB .K k0 k1
  let j ← mkB .J j0 j1
  let i ← mkB .I i0 i1
  let w ← mkB .W 0 6
  let st ← DevVec.makeVecOffset 0 sgcw [k, j, i, w]
  let vs := [(st.fill xst).host, copyOfHost (st.fill xst)]
  let vs ← onHost (F.readjcelldiffusionoffdiag3d i0 j0 k0 i1 j1 k1 pi0 pj0 pk0 pi1 pj1 pk1 dir side sgcw (at_ 0)) vs
  let vs ← onDevice [1] (Cuda.readjOffdiag3d i0 j0 k0 i1 j1 k1 pi0 pj0 pk0 pi1 pj1 pk1 dir side sgcw (at_ 1) β) vs
  compareAll [(0, 1)] vs

/-- `TEST_CASE("adj cf bdryrhs")` (src/cd_stencil_3d.t.cpp:875-945) -/
def adjCfBdryrhs3d (i0 j0 k0 i1 j1 k1 pi0 pj0 pk0 pi1 pj1 pk1 dir side sgcw gcw : Int) (xst xu xrhs : Nat → T) (β : Backend) : M Bool := do
  let k ← mkB .K k0 k1
  let j ← mkB .J j0 j1
  let i ← mkB .I i0 i1
  let w ← mkB .W 0 6
  let st ← DevVec.makeVecOffset 0 sgcw [k, j, i, w]
  let u ← DevVec.makeVecOffset 0 gcw [k, j, i]
  let rhs ← DevVec.makeVec 0 [k, j, i]
  let vs := [st.fill xst, u.fill xu, (rhs.fill xrhs).host, copyOfHost (rhs.fill xrhs)]
  let vs ← onHost (F.adjcelldiffusioncfbdryrhs3d i0 j0 k0 i1 j1 k1 pi0 pj0 pk0 pi1 pj1 pk1 dir side sgcw (at_ 0) gcw (at_ 1) (at_ 2)) vs
  let vs ← onDevice [0, 1, 3] (Cuda.adjCfBdryrhs3d i0 j0 k0 i1 j1 k1 pi0 pj0 pk0 pi1 pj1 pk1 dir side sgcw (at_ 0) gcw (at_ 1) (at_ 3) β) vs
  compareAll [(2, 3)] vs

end Verif.Test
