import Verif.Model.Tests.Host
import Verif.Model.Kernels.SpanTest
import Mathlib.Algebra.Field.Defs

/-
The host side of the window tests, src/window_iterator.t.cpp.  The random numbers `fill_random` puts into a vector (`x` followed by the name of the
vector) and the order in which the device works through a kernel (`β`) are arguments.
-/

namespace Verif.Test

variable {T : Type} [Field T] [DecidableEq T]

/-- `for (int i = 0; i < sz; i++)` (for instance src/window_iterator.t.cpp:73) -/
def forBelow (sz : Int) (body : Int → List T → M (List T)) (l : List T) : M (List T) := forTo 0 (sz - 1) 1 body l

/-- `v.size()` of vector `k` -/
def sizeOfVec (k : Nat) (vs : List (DevVec T)) : M Int :=
  match vs[k]? with
  | some v => .ok v.size
  | none => .error .illFormed

/-- `TEST_CASE("window_iterator basic")` (src/window_iterator.t.cpp:31-44): whether all four requirements hold; the function under test is arbitrary here -/
def windowInitOf (K : Int → Mem T → M (Mem T)) : M Bool := do
  let i ← mkB .I 1 10
  let u ← DevVec.makeVec (0 : T) [i]
  let vs := [u]
  let n ← sizeOfVec 0 vs
  let vs ← onDevice [0] (K n) vs
  let (v, _) ← hostOf 0 vs
  let a ← vget v 0
  let b ← vget v 1
  let c ← vget v 5
  let d ← vget v 6
  .ok (decide (a = 1) && decide (b = 2) && decide (c = 3) && decide (d = 4))

/-- `TEST_CASE("window_iterator basic")` (src/window_iterator.t.cpp:31-44): whether all four requirements hold -/
def windowInit : M Bool := windowInitOf (T := T) fun n => Cuda.windowInit (at_ 0) n

/-- `TEST_CASE("window_iterator transform")` (src/window_iterator.t.cpp:46-56); the function under test is arbitrary here -/
def windowTransformOf (K : Int → Mem T → M (Mem T)) : M Bool := do
  let i ← mkB .I 1 10
  let v ← DevVec.makeVec (0 : T) [i]
  let vs := [v]
  let n ← sizeOfVec 0 vs
  let vs ← onDevice [0] (K n) vs
  let u : List T := [1, 2, 1, 2, 1, 2, 1, 2, 1, 2]
  let (v_h, _) ← std 0 vs
  .ok (decide (v_h = u))

/-- `TEST_CASE("window_iterator transform")` (src/window_iterator.t.cpp:46-56) -/
def windowTransform (β : Nat → Backend) : M Bool := windowTransformOf (T := T) fun n => Cuda.windowTransform (at_ 0) n β

/-- one round of the loop (src/window_iterator.t.cpp:74-77) -/
def round2 (v : List T) (i : Int) (u : List T) : M (List T) := do
  let j ← imul i 3
  let j1 ← iadd j 1
  let j2 ← iadd j 2
  let x ← vget v j1
  let u ← vset u j1 x
  let y ← vget v j2
  let u ← vset u j2 y
  let a ← vget u j1
  let b ← vget u j2
  vset u j (-(a + b) + 3)

/-- `TEST_CASE("window_iterator transform2")` (src/window_iterator.t.cpp:58-81); the function under test is arbitrary here -/
def windowTransform2Of (xv : Nat → T) (K : Int → Mem T → M (Mem T)) : M Bool := do
  let i ← mkB .I 1 5
  let w ← mkB .W 1 3
  let vd ← DevVec.makeVec (0 : T) [i, w]
  let vs := [vd.fill xv]
  let n ← sizeOfVec 0 vs
  let vs ← onDevice [0] (K n) vs
  let (v, _) ← std 0 vs
  let u ← forBelow 5 (round2 v) (List.replicate v.length 0)
  .ok (decide (v = u))

/-- `TEST_CASE("window_iterator transform2")` (src/window_iterator.t.cpp:58-81) -/
def windowTransform2 (xv : Nat → T) (β : Nat → Backend) : M Bool := windowTransform2Of (T := T) xv fun n => Cuda.windowTransform2 (at_ 0) n β

/-- one round of the loop (src/window_iterator.t.cpp:103-106) -/
def round3 (v x : List T) (i : Int) (u : List T) : M (List T) := do
  let j ← imul i 3
  let j1 ← iadd j 1
  let j2 ← iadd j 2
  let a ← vget v j1
  let u ← vset u j1 a
  let b ← vget v j2
  let u ← vset u j2 b
  let a ← vget u j1
  let b ← vget u j2
  let c ← vget x i
  vset u j (-(a + b) + 3 * c)

/-- `TEST_CASE("window_iterator transform3")` (src/window_iterator.t.cpp:83-110); the function under test is arbitrary here -/
def windowTransform3Of (xv xx : Nat → T) (K : Int → Mem T → M (Mem T)) : M Bool := do
  let i ← mkB .I 1 5
  let w ← mkB .W 1 3
  let vd ← DevVec.makeVec (0 : T) [i, w]
  let xd ← DevVec.makeVec (0 : T) [i]
  let vs := [vd.fill xv, xd.fill xx]
  let n ← sizeOfVec 0 vs
  let vs ← onDevice [0, 1] (K n) vs
  let (v, vs) ← std 0 vs
  let (x, _) ← hostOf 1 vs
  let u ← forBelow 5 (round3 v x) (List.replicate v.length 0)
  .ok (decide (v = u))

/-- `TEST_CASE("window_iterator transform3")` (src/window_iterator.t.cpp:83-110) -/
def windowTransform3 (xv xx : Nat → T) (β : Nat → Backend) : M Bool := windowTransform3Of (T := T) xv xx fun n => Cuda.windowTransform3 (at_ 0) n (at_ 1) β

/-- one round of the loop (src/window_iterator.t.cpp:132-136) -/
def round4 (v x : List T) (i : Int) (u : List T) : M (List T) := do
  let j ← imul i 4
  let j1 ← iadd j 1
  let j2 ← iadd j 2
  let j3 ← iadd j 3
  let a ← vget v j2
  let b ← vget v j3
  let c ← vget x i
  let u ← vset u j (-(a + b) - 3 * c)
  let u ← vset u j1 (6 * c)
  let u ← vset u j2 a
  vset u j3 b

/-- `TEST_CASE("window_iterator transform4")` (src/window_iterator.t.cpp:112-140); the function under test is arbitrary here -/
def windowTransform4Of (xv xx : Nat → T) (K : Int → Mem T → M (Mem T)) : M Bool := do
  let i ← mkB .I 1 5
  let w ← mkB .W 1 4
  let vd ← DevVec.makeVec (0 : T) [i, w]
  let xd ← DevVec.makeVec (0 : T) [i]
  let vs := [vd.fill xv, xd.fill xx]
  let n ← sizeOfVec 0 vs
  let vs ← onDevice [0, 1] (K n) vs
  let (v, vs) ← std 0 vs
  let (x, _) ← hostOf 1 vs
  let u ← forBelow 5 (round4 v x) (List.replicate v.length 0)
  .ok (decide (v = u))

/-- `TEST_CASE("window_iterator transform4")` (src/window_iterator.t.cpp:112-140) -/
def windowTransform4 (xv xx : Nat → T) (β : Nat → Backend) : M Bool := windowTransform4Of (T := T) xv xx fun n => Cuda.windowTransform4 (at_ 0) n (at_ 1) β

/-- one round of the loop (src/window_iterator.t.cpp:166-167) -/
def roundRhs (v x : List T) (i : Int) (ans : List T) : M (List T) := do
  let j ← imul i 4
  let j1 ← iadd j 1
  let r ← vget ans i
  let a ← vget v j1
  let b ← vget x i
  vset ans i (r - a * b)

/-- `TEST_CASE("window_iterator rhs")` (src/window_iterator.t.cpp:142-171); the function under test is arbitrary here -/
def windowRhsOf (xv xx xr : Nat → T) (K : Int → Mem T → M (Mem T)) : M Bool := do
  let i ← mkB .I 1 5
  let w ← mkB .W 1 4
  let vd ← DevVec.makeVec (0 : T) [i, w]
  let xd ← DevVec.makeVec (0 : T) [i]
  let rhsd ← DevVec.makeVec (0 : T) [i]
  let vs := [vd.fill xv, xd.fill xx, rhsd.fill xr]
  let (ans, vs) ← std 2 vs
  let n ← sizeOfVec 0 vs
  let vs ← onDevice [2, 0, 1] (K n) vs
  let (rhs, vs) ← std 2 vs
  let (v, vs) ← hostOf 0 vs
  let (x, _) ← hostOf 1 vs
  let ans ← forBelow 5 (roundRhs v x) ans
  .ok (decide (rhs = ans))

/-- `TEST_CASE("window_iterator rhs")` (src/window_iterator.t.cpp:142-171) -/
def windowRhs (xv xx xr : Nat → T) (β : Nat → Backend) : M Bool := windowRhsOf (T := T) xv xx xr fun n => Cuda.windowRhs (at_ 2) (at_ 0) n (at_ 1) β

end Verif.Test
