import Verif.Model.Tests.Iter
import Verif.Model.Kernels.SpanTest
import Verif.Model.Kernels.IterTest
import Verif.Model.Kernels.DotOffset

/-
The host side of src/coarse_to_fine_iterator.t.cpp, src/offset_iterator.t.cpp and src/dot_offset.t.cpp.
-/

namespace Verif.Test

variable {T : Type}

/-- `TEST_CASE("init")` (src/coarse_to_fine_iterator.t.cpp:27-60): whether no assertion fails.  `fd` and `cd` are device vectors made from host vectors and
never changed on the host, so the elements of the device copies are kept only; `fine` is vector 0, `coarse` vector 1.  The function called on the device is an argument. -/
def fineInitOf [Field T] [DecidableEq T] (K : Mem T → M (Mem T)) : M Bool := do
  let n ← isub 6 2
  let n ← iadd n 1
  let fine ← newVec n (-1 : T)
  let coarse ← newVec 3 (0 : T)
  let coarse ← vset coarse 0 1
  let coarse ← vset coarse 1 2
  let coarse ← vset coarse 2 3
  let ls ← onVecs K [fine, coarse]
  let w ← vec 0 ls
  .ok (decide (fine.length = 5) && decide (coarse.length = 3) && decide (w = [1, 1, 2, 2, 3]))

/-- the test case (src/coarse_to_fine_iterator.t.cpp:27-60) with the function it tests -/
def fineInit [Field T] [DecidableEq T] (β : Nat → Backend) : M Bool := fineInitOf (T := T) (Cuda.fineTest 2 6 1 3 2 (at_ 1) (at_ 0) β)

/-- `make_offset_vec(n, dims)` and calls of `set_offset` (for instance src/dot_offset.t.cpp:33-36) -/
def offsetTable (n dims : Int) (rows : List (Int × List Int)) : M (DevVec Int) := do
  let o ← makeOffsetVec n dims
  runOps (rows.map fun r => .setOffset r.1 r.2) o

/-- device memory that holds a table of numbers of type int in block `b` as well; the kernels read the table only -/
def tabled (b : Nat) (t : List Int) (m : Mem T) : Mem T :=
  { m with ints := fun q => if q.blk = b ∧ 0 ≤ q.off then t[q.off.toNat]? else none }

/-- `for (int i = 0; i < n; i++) o.set_offset(i, ...)` for a constant `n` (for instance src/offset_iterator.t.cpp:24) -/
def rowsOf (n : Nat) (f : Int → List Int) : List (Int × List Int) := (List.range n).map fun i : Nat => ((i : Int), f i)

/-- `result[u.index(...)] == z` (for instance src/offset_iterator.t.cpp:49) -/
def holdsAt [IntCast T] [DecidableEq T] (w : List T) (vs : List (DevVec T)) (x : List Int) (z : Int) : M Bool := do
  let p ← indexOf 0 vs x
  holds w p z

/-- `TEST_CASE("init 1d")` (src/offset_iterator.t.cpp:16-33); the function called on the device is an argument -/
def offset1dOf [Field T] [DecidableEq T] (K : Mem T → M (Mem T)) : M Bool := do
  let i ← mkB .I 1 10
  let u ← DevVec.makeVec (0 : T) [i]
  let o ← offsetTable 3 1 (rowsOf 3 fun i => [i + 2])
  let vs ← onDevice [0] (fun m => K (tabled 1 o.data.d m)) [u]
  let (w, _) ← std 0 vs
  let a ← holds w 2 (-1)
  let b ← holds w 3 (-2)
  let c ← holds w 4 (-3)
  .ok (a && b && c)

/-- the test case (src/offset_iterator.t.cpp:16-33) with the function it tests -/
def offset1d [Field T] [DecidableEq T] : M Bool := offset1dOf (T := T) (Cuda.offsetInit (at_ 0) 3 (at_ 1) [10])

/-- `TEST_CASE("init 2d")` (src/offset_iterator.t.cpp:35-52) -/
def offset2dOf [Field T] [DecidableEq T] (K : Mem T → M (Mem T)) : M Bool := do
  let j ← mkB .J 0 6
  let i ← mkB .I 0 9
  let u ← DevVec.makeVec (0 : T) [j, i]
  let o ← offsetTable 3 2 (rowsOf 3 fun i => [i + 3, i + 2])
  let vs ← onDevice [0] (fun m => K (tabled 1 o.data.d m)) [u]
  let (w, vs) ← std 0 vs
  let a ← holdsAt w vs [3, 2] (-1)
  let b ← holdsAt w vs [4, 3] (-2)
  let c ← holdsAt w vs [5, 4] (-3)
  .ok (a && b && c)

/-- the test case (src/offset_iterator.t.cpp:35-52) with the function it tests -/
def offset2d [Field T] [DecidableEq T] : M Bool := offset2dOf (T := T) (Cuda.offsetInit (at_ 0) 3 (at_ 1) [7, 10])

/-- `TEST_CASE("init 3d")` (src/offset_iterator.t.cpp:54-71) -/
def offset3dOf [Field T] [DecidableEq T] (K : Mem T → M (Mem T)) : M Bool := do
  let k ← mkB .K 0 10
  let j ← mkB .J 0 6
  let i ← mkB .I 0 9
  let u ← DevVec.makeVec (0 : T) [k, j, i]
  let o ← offsetTable 3 3 (rowsOf 3 fun i => [i + 3, i + 2, i + 1])
  let vs ← onDevice [0] (fun m => K (tabled 1 o.data.d m)) [u]
  let (w, vs) ← std 0 vs
  let a ← holdsAt w vs [3, 2, 1] (-1)
  let b ← holdsAt w vs [4, 3, 2] (-2)
  let c ← holdsAt w vs [5, 4, 3] (-3)
  .ok (a && b && c)

/-- the test case (src/offset_iterator.t.cpp:54-71) with the function it tests -/
def offset3d [Field T] [DecidableEq T] : M Bool := offset3dOf (T := T) (Cuda.offsetInit (at_ 0) 3 (at_ 1) [11, 7, 10])

/-- `off[o.index(n, d)]` (for instance src/dot_offset.t.cpp:55) -/
def offAt (o : DevVec Int) (n d : Int) : M Int := do
  let p ← o.data.toStd.1.index [n, d]
  vget o.data.toStd.2 p

/-- `exact[vi] += uvec[ui] * stvec[si]` (for instance src/dot_offset.t.cpp:56) -/
def addProd [Add T] [Mul T] (vi : Int) (uvec : List T) (ui : Int) (stvec : List T) (si : Int) (e : List T) : M (List T) := do
  let a ← vget uvec ui
  let b ← vget stvec si
  let c ← vget e vi
  vset e vi (c + a * b)

/-- one round of the loop over the cells (src/dot_offset.t.cpp:50-58) -/
def dotRound1 [Zero T] [Add T] [Mul T] (vs : List (DevVec T)) (o : DevVec Int) (uvec stvec : List T) (i : Int) (e : List T) : M (List T) := do
  let vi ← indexOf 2 vs [i]
  let e ← vset e vi 0
  forLt 0 3 (fun j e => do
    let io ← offAt o j 0
    let a ← iadd i io
    let ui ← indexOf 1 vs [a]
    let si ← indexOf 0 vs [i, j]
    addProd vi uvec ui stvec si e) e

/-- `TEST_CASE("init 1d")` (src/dot_offset.t.cpp:17-60); the ghost widths, the random numbers in `st` (`xs`) and `u` (`xu`) and the function
called on the device with the number of displacements are arguments -/
def dotOffset1dOf [Zero T] [Add T] [Mul T] [DecidableEq T] (i0 i1 sgcw ugcw vgcw : Int) (xs xu : Nat → T) (K : Int → Mem T → M (Mem T)) : M Bool := do
  let i ← mkB .I i0 i1
  let w ← mkB .W 0 2
  let st ← DevVec.makeVecOffset 0 sgcw [i, w]
  let u ← DevVec.makeVecOffset 0 ugcw [i]
  let v ← DevVec.makeVecOffset 0 vgcw [i]
  let o ← offsetTable 3 1 (rowsOf 3 fun i => [i - 1])
  let n ← w.2.size
  let vs ← onDevice [0, 1, 2] (fun m => K n (tabled 3 o.data.d m)) [st.fill xs, u.fill xu, v]
  let (result, vs) ← std 2 vs
  let exact := List.replicate result.length 0
  let (uvec, vs) ← std 1 vs
  let (stvec, vs) ← std 0 vs
  let exact ← forTo i0 i1 1 (dotRound1 vs o uvec stvec) exact
  .ok (decide (result = exact))

/-- the test case (src/dot_offset.t.cpp:17-60) with the function it tests -/
def dotOffset1d [Zero T] [Add T] [Mul T] [DecidableEq T] (i0 i1 sgcw ugcw vgcw : Int) (xs xu : Nat → T) (β : Backend) : M Bool :=
  dotOffset1dOf i0 i1 sgcw ugcw vgcw xs xu fun n => Cuda.dotOffset1d (at_ 0) sgcw (at_ 1) ugcw (at_ 2) vgcw (at_ 3) i0 i1 n β

/-- one round of the loop over the cells (src/dot_offset.t.cpp:114-123) -/
def dotRound2 [Zero T] [Add T] [Mul T] (vs : List (DevVec T)) (o : DevVec Int) (uvec stvec : List T) (j i : Int) (e : List T) : M (List T) := do
  let vi ← indexOf 2 vs [j, i]
  let e ← vset e vi 0
  forLt 0 7 (fun n e => do
    let io ← offAt o n 0
    let jo ← offAt o n 1
    let b ← iadd j jo
    let a ← iadd i io
    let ui ← indexOf 1 vs [b, a]
    let si ← indexOf 0 vs [j, i, n]
    addProd vi uvec ui stvec si e) e

/-- `TEST_CASE("init 2d")` (src/dot_offset.t.cpp:62-125) -/
def dotOffset2dOf [Zero T] [Add T] [Mul T] [DecidableEq T] (i0 i1 j0 j1 sgcw ugcw vgcw : Int) (xs xu : Nat → T) (K : Int → Mem T → M (Mem T)) : M Bool := do
  let i ← mkB .I i0 i1
  let j ← mkB .J j0 j1
  let w ← mkB .W 0 6
  let st ← DevVec.makeVecOffset 0 sgcw [j, i, w]
  let u ← DevVec.makeVecOffset 0 ugcw [j, i]
  let v ← DevVec.makeVecOffset 0 vgcw [j, i]
  let o ← offsetTable 7 2 [(0, [0, 0]), (1, [-1, 0]), (2, [1, 0]), (3, [0, -1]), (4, [0, 1]), (5, [-1, 1]), (6, [1, -1])]
  let n ← w.2.size
  let vs ← onDevice [0, 1, 2] (fun m => K n (tabled 3 o.data.d m)) [st.fill xs, u.fill xu, v]
  let (result, vs) ← std 2 vs
  let exact := List.replicate result.length 0
  let (uvec, vs) ← std 1 vs
  let (stvec, vs) ← std 0 vs
  let exact ← forTo j0 j1 1 (fun j => forTo i0 i1 1 (dotRound2 vs o uvec stvec j)) exact
  .ok (decide (result = exact))

/-- the test case (src/dot_offset.t.cpp:62-125) with the function it tests -/
def dotOffset2d [Zero T] [Add T] [Mul T] [DecidableEq T] (i0 i1 j0 j1 sgcw ugcw vgcw : Int) (xs xu : Nat → T) (β : Backend) : M Bool :=
  dotOffset2dOf i0 i1 j0 j1 sgcw ugcw vgcw xs xu fun n => Cuda.dotOffset2d (at_ 0) sgcw (at_ 1) ugcw (at_ 2) vgcw (at_ 3) i0 i1 j0 j1 n β

/-- one round of the loop over the cells (src/dot_offset.t.cpp:181-192) -/
def dotRound3 [Zero T] [Add T] [Mul T] (vs : List (DevVec T)) (o : DevVec Int) (uvec stvec : List T) (k j i : Int) (e : List T) : M (List T) := do
  let vi ← indexOf 2 vs [k, j, i]
  let e ← vset e vi 0
  forLt 0 27 (fun n e => do
    let io ← offAt o n 0
    let jo ← offAt o n 1
    let ko ← offAt o n 2
    let c ← iadd k ko
    let b ← iadd j jo
    let a ← iadd i io
    let ui ← indexOf 1 vs [c, b, a]
    let si ← indexOf 0 vs [k, j, i, n]
    addProd vi uvec ui stvec si e) e

/-- the calls of `set_offset` in the three nested loops over `ok`, `oj` and `oi` (src/dot_offset.t.cpp:150-153) -/
def rows27 : List (Int × List Int) :=
  ([0, 1, 2] : List Int).flatMap fun ok => ([0, 1, 2] : List Int).flatMap fun oj => ([0, 1, 2] : List Int).map fun oi =>
    (9 * ok + 3 * oj + oi, [oi - 1, oj - 1, ok - 1])

/-- `TEST_CASE("init 3d")` (src/dot_offset.t.cpp:127-194) -/
def dotOffset3dOf [Zero T] [Add T] [Mul T] [DecidableEq T] (i0 i1 j0 j1 k0 k1 sgcw ugcw vgcw : Int) (xs xu : Nat → T) (K : Int → Mem T → M (Mem T)) : M Bool := do
  let i ← mkB .I i0 i1
  let j ← mkB .J j0 j1
  let k ← mkB .K k0 k1
  let w ← mkB .W 0 26
  let st ← DevVec.makeVecOffset 0 sgcw [k, j, i, w]
  let u ← DevVec.makeVecOffset 0 ugcw [k, j, i]
  let v ← DevVec.makeVecOffset 0 vgcw [k, j, i]
  let o ← offsetTable 27 3 rows27
  let n ← w.2.size
  let vs ← onDevice [0, 1, 2] (fun m => K n (tabled 3 o.data.d m)) [st.fill xs, u.fill xu, v]
  let (result, vs) ← std 2 vs
  let exact := List.replicate result.length 0
  let (uvec, vs) ← std 1 vs
  let (stvec, vs) ← std 0 vs
  let exact ← forTo k0 k1 1 (fun k => forTo j0 j1 1 fun j => forTo i0 i1 1 (dotRound3 vs o uvec stvec k j)) exact
  .ok (decide (result = exact))

/-- the test case (src/dot_offset.t.cpp:127-194) with the function it tests -/
def dotOffset3d [Zero T] [Add T] [Mul T] [DecidableEq T] (i0 i1 j0 j1 k0 k1 sgcw ugcw vgcw : Int) (xs xu : Nat → T) (β : Backend) : M Bool :=
  dotOffset3dOf i0 i1 j0 j1 k0 k1 sgcw ugcw vgcw xs xu fun n => Cuda.dotOffset3d (at_ 0) sgcw (at_ 1) ugcw (at_ 2) vgcw (at_ 3) i0 i1 j0 j1 k0 k1 n β

end Verif.Test
