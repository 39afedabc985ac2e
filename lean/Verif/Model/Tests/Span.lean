import Verif.Model.Tests.Host
import Verif.Model.Kernels.SpanTest
import Mathlib.Algebra.Field.Defs

/-
The host side of the span tests, src/md_device_span.t.cpp.  The numbers a test case fixes or picks at random, the random numbers `fill_random` puts into
`u` (`xu`) and the order in which the device works through a kernel (`β`) are arguments.  `udims` and `rdims` of the first two test cases are not used
there and left out.
-/

namespace Verif.Test

variable {T : Type} [Field T] [DecidableEq T]

/-- `TEST_CASE("init")` (src/md_device_span.t.cpp:35-72), with any function `K` in the place of the one it calls -/
def spanInit1dOf (i0 i1 : Int) (dx : Nat → T) (ugcw rgcw : Int) (xu : Nat → T) (K : Mem T → M (Mem T)) : M Bool := do
  let i ← mkB .I i0 i1
  let u ← DevVec.makeVecOffset 0 ugcw [i]
  let res ← DevVec.makeVecOffset 0 rgcw [i]
  let vs := [u.fill xu, res]
  let vs ← onDevice [0, 1] K vs
  let expected ← zeros 1 vs
  let (v, vs) ← hostOf 0 vs
  let (res_h, _) ← std 1 vs
  let expected ← forTo i0 i1 1 (fun i e => do
    let a ← isub i0 ugcw
    let ui ← isub i a
    let b ← isub i0 rgcw
    let ri ← isub i b
    let x ← vget v ui
    let ui1 ← isub ui 1
    let y ← vget v ui1
    let grad_down := (x - y) / dx 0
    let ui2 ← iadd ui 1
    let z ← vget v ui2
    let grad_up := (z - x) / dx 0
    vset e ri (2 * (grad_down + grad_up) / (x + 10))) expected
  .ok (decide (res_h = expected))

/-- `TEST_CASE("init")` (src/md_device_span.t.cpp:35-72) -/
def spanInit1d (i0 i1 : Int) (beta : T) (dx : Nat → T) (ugcw rgcw : Int) (xu : Nat → T) (β : Nat → Backend) : M Bool :=
  spanInit1dOf i0 i1 dx ugcw rgcw xu (Cuda.spanInit1d i0 i1 beta dx ugcw (at_ 0) rgcw (at_ 1) β)

/-- `TEST_CASE("stride")` (src/md_device_span.t.cpp:74-109), with any function `K` in the place of the one it calls -/
def spanStride1dOf (i0 i1 stride : Int) (beta : T) (ugcw rgcw : Int) (xu : Nat → T) (K : Mem T → M (Mem T)) : M Bool := do
  let i ← mkB .I i0 i1
  let u ← DevVec.makeVecOffset 0 ugcw [i]
  let res ← DevVec.makeVecOffset 0 rgcw [i]
  let vs := [u.fill xu, res]
  let vs ← onDevice [0, 1] K vs
  let expected ← zeros 1 vs
  let (v, vs) ← hostOf 0 vs
  let (res_h, _) ← std 1 vs
  let expected ← forTo i0 i1 stride (fun i e => do
    let a ← isub i0 ugcw
    let ui ← isub i a
    let b ← isub i0 rgcw
    let ri ← isub i b
    let x ← vget v ui
    vset e ri (beta * x)) expected
  .ok (decide (res_h = expected))

/-- `TEST_CASE("stride")` (src/md_device_span.t.cpp:74-109) -/
def spanStride1d (i0 i1 stride : Int) (beta : T) (dx : Nat → T) (ugcw rgcw : Int) (xu : Nat → T) (β : Nat → Backend) : M Bool :=
  spanStride1dOf i0 i1 stride beta ugcw rgcw xu (Cuda.spanStride1d i0 i1 stride beta dx ugcw (at_ 0) rgcw (at_ 1) β)

/-- `hi + g - (lo - g) + 1`, an element of `udims` and `rdims` (src/md_device_span.t.cpp:136-137) -/
def extent (lo hi g : Int) : M Int := do
  let a ← iadd hi g
  let b ← isub lo g
  let c ← isub a b
  iadd c 1

/-- `TEST_CASE("init2")` (src/md_device_span.t.cpp:111-148); of `udims` and `rdims` only the first element is used, with any function `K` in the place of the one it calls -/
def spanInit2dOf (i0 i1 j0 j1 : Int) (dx : Nat → T) (ugcw rgcw : Int) (xu : Nat → T) (K : Mem T → M (Mem T)) : M Bool := do
  let i ← mkB .I i0 i1
  let j ← mkB .J j0 j1
  let u ← DevVec.makeVecOffset 0 ugcw [i, j]
  let res ← DevVec.makeVecOffset 0 rgcw [j, i]
  let vs := [u.fill xu, res]
  let vs ← onDevice [0, 1] K vs
  let expected ← zeros 1 vs
  let (res_h, vs) ← std 1 vs
  let (uv, _) ← hostOf 0 vs
  let udim ← extent j0 j1 ugcw
  let rdim ← extent i0 i1 rgcw
  let expected ← forTo j0 j1 1 (fun j => forTo i0 i1 1 fun i e => do
    let a ← isub i0 ugcw
    let ui ← isub i a
    let b ← isub j0 ugcw
    let uj ← isub j b
    let c ← isub i0 rgcw
    let ri ← isub i c
    let d ← isub j0 rgcw
    let rj ← isub j d
    let ui1 ← iadd ui 1
    let p ← imul ui1 udim
    let p ← iadd p uj
    let q ← imul ui udim
    let q ← iadd q uj
    let q1 ← iadd q 1
    let x ← vget uv p
    let y ← vget uv q
    let z ← vget uv q1
    let grad_x := (x - y) / dx 0
    let grad_y := (z - y) / dx 1
    let r ← imul rj rdim
    let r ← iadd r ri
    vset e r (3 * (grad_x + grad_y))) expected
  .ok (decide (res_h = expected))

/-- `TEST_CASE("init2")` (src/md_device_span.t.cpp:111-148); of `udims` and `rdims` only the first element is used -/
def spanInit2d (i0 i1 j0 j1 : Int) (beta : T) (dx : Nat → T) (ugcw rgcw : Int) (xu : Nat → T) (β : Nat → Backend) : M Bool :=
  spanInit2dOf i0 i1 j0 j1 dx ugcw rgcw xu (Cuda.spanInit2d i0 i1 j0 j1 beta dx ugcw (at_ 0) rgcw (at_ 1) β)

/-- `TEST_CASE("stride2")` (src/md_device_span.t.cpp:150-193) for one of its sections, with any function `K` in the place of the one it calls -/
def spanStride2dOf (i0 i1 is j0 j1 js : Int) (beta : T) (ugcw rgcw : Int) (xu : Nat → T) (K : Mem T → M (Mem T)) : M Bool := do
  let i ← mkB .I i0 i1
  let j ← mkB .J j0 j1
  let u ← DevVec.makeVecOffset 0 ugcw [i, j]
  let res ← DevVec.makeVecOffset 0 rgcw [j, i]
  let vs := [u.fill xu, res]
  let vs ← onDevice [0, 1] K vs
  let expected ← zeros 1 vs
  let (v, vs) ← hostOf 0 vs
  let (res_h, vs) ← std 1 vs
  let expected ← forTo j0 j1 js (fun j => forTo i0 i1 is fun i e => do
    let r ← indexOf 1 vs [j, i]
    let q ← indexOf 0 vs [i, j]
    let x ← vget v q
    vset e r (beta * x)) expected
  .ok (decide (res_h = expected))

/-- `TEST_CASE("stride2")` (src/md_device_span.t.cpp:150-193) for one of its sections -/
def spanStride2d (i0 i1 is j0 j1 js : Int) (beta : T) (dx : Nat → T) (ugcw rgcw : Int) (xu : Nat → T) (β : Nat → Backend) : M Bool :=
  spanStride2dOf i0 i1 is j0 j1 js beta ugcw rgcw xu (Cuda.spanStride2d i0 i1 is j0 j1 js beta dx ugcw (at_ 0) rgcw (at_ 1) β)

/-- `TEST_CASE("stride3")` (src/md_device_span.t.cpp:195-253) for one of its sections, with any function `K` in the place of the one it calls -/
def spanStride3dOf (i0 i1 is j0 j1 js k0 k1 ks : Int) (beta : T) (ugcw rgcw : Int) (xu : Nat → T) (K : Mem T → M (Mem T)) : M Bool := do
  let i ← mkB .I i0 i1
  let j ← mkB .J j0 j1
  let k ← mkB .K k0 k1
  let u ← DevVec.makeVecOffset 0 ugcw [i, j, k]
  let res ← DevVec.makeVecOffset 0 rgcw [k, j, i]
  let vs := [u.fill xu, res]
  let vs ← onDevice [0, 1] K vs
  let expected ← zeros 1 vs
  let (v, vs) ← hostOf 0 vs
  let (res_h, vs) ← std 1 vs
  let expected ← forTo k0 k1 ks (fun k => forTo j0 j1 js fun j => forTo i0 i1 is fun i e => do
    let r ← indexOf 1 vs [k, j, i]
    let q ← indexOf 0 vs [i, j, k]
    let x ← vget v q
    vset e r (beta * x)) expected
  .ok (decide (res_h = expected))

/-- `TEST_CASE("stride3")` (src/md_device_span.t.cpp:195-253) for one of its sections -/
def spanStride3d (i0 i1 is j0 j1 js k0 k1 ks : Int) (beta : T) (dx : Nat → T) (ugcw rgcw : Int) (xu : Nat → T) (β : Nat → Backend) : M Bool :=
  spanStride3dOf i0 i1 is j0 j1 js k0 k1 ks beta ugcw rgcw xu (Cuda.spanStride3d i0 i1 is j0 j1 js k0 k1 ks beta dx ugcw (at_ 0) rgcw (at_ 1) β)

end Verif.Test
