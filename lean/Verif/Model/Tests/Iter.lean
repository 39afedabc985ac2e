import Verif.Model.Tests.Host
import Verif.Model.Kernels.IterTest
import Mathlib.Algebra.Field.Defs

/-
The tests of the forward stencil, submatrix and transpose iterators: src/forward_stencil_iterator.t.cpp, src/submatrix_iterator.t.cpp,
src/transpose_iterator.t.cpp.  Here host vectors are passed by pointer to functions that copy them to the device and back.

Simplifications: the random numbers `f` yields (`x`) and the order in which the device works (`β`) are arguments, and so are the sizes the tests write
down as constants, where the expected values are not constants as well.  The vectors of a test case are numbered in the order of the pointers passed;
vector `k` lies in block `k`, blocks from the number of vectors on are free for the device.
-/

namespace Verif.Test

variable {T : Type}

/-- a function called with pointers to the first elements of the vectors (for instance src/transpose_iterator.t.cpp:38) -/
def onVecs (c : Mem T → M (Mem T)) (ls : List (List T)) : M (List (List T)) := do
  let m ← c (blocks ls)
  .ok (ls.mapIdx fun k l => newBlock m k l)

/-- vector `k` -/
def vec (k : Nat) (ls : List (List T)) : M (List T) :=
  match ls[k]? with
  | some l => .ok l
  | none => .error .illFormed

/-- `std::vector<T> v(n, a)`; a negative number of elements has no result (for instance src/submatrix_iterator.t.cpp:30) -/
def newVec (n : Int) (a : T) : M (List T) := if 0 ≤ n then .ok (List.replicate n.toNat a) else .error .illFormed

/-- `std::generate(v.begin(), v.end(), f)` (for instance src/forward_stencil_iterator.t.cpp:52) -/
def generate (x : Nat → T) (l : List T) : List T := l.mapIdx fun k _ => x k

/-- at most `n` rounds of `for (int i = ...; i < hi; i++)`, from `i` on -/
def rep {σ : Type} (hi : Int) (body : Int → σ → M σ) : Nat → Int → σ → M σ
  | 0, i, s => if i < hi then .error .illFormed else .ok s
  | n + 1, i, s =>
    if i < hi then do
      let s ← body i s
      let i ← iadd i 1
      rep hi body n i s
    else .ok s

/-- `for (int i = lo; i < hi; i++)` (for instance src/forward_stencil_iterator.t.cpp:58, 79); `i <= hi` is `i < hi + 1` -/
def forLt {σ : Type} (lo hi : Int) (body : Int → σ → M σ) (s : σ) : M σ := rep hi body (hi - lo).toNat lo s

/-- `*r++ = a` for an iterator `r` of a vector, kept as the position (for instance src/forward_stencil_iterator.t.cpp:81) -/
def putNext (a : T) (s : List T × Int) : M (List T × Int) := do
  let l ← vset s.1 s.2 a
  .ok (l, s.2 + 1)

/-- `v[k] - v[l]` -/
def diff [Sub T] (v : List T) (k l : Int) : M T := do
  let a ← vget v k
  let b ← vget v l
  .ok (a - b)

/-- `TEST_CASE("forward basic")` (src/forward_stencil_iterator.t.cpp:25-31): whether no assertion fails -/
def forwardBasic [Zero T] (n : Int) : M Bool := do
  let v ← newVec n (0 : T)
  let _ ← onVecs (Cuda.fsInit [n] 0 (at_ 0) 1) [v]
  .ok true

/-- `TEST_CASE("forward basic 2D")` (src/forward_stencil_iterator.t.cpp:33-42) -/
def forwardBasic2d [Zero T] (n0 n1 : Int) : M Bool := do
  let n ← imul n0 n1
  let v ← newVec n (0 : T)
  let ls ← onVecs (Cuda.fsInit [n0, n1] 1 (at_ 0) 1) [v]
  let _ ← onVecs (Cuda.fsInit [n0, n1] 0 (at_ 0) 1) ls
  .ok true

/-- one round of the loop (src/forward_stencil_iterator.t.cpp:58) -/
def round1 [Sub T] (v : List T) (i : Int) (r : List T) : M (List T) := do
  let j ← iadd i 1
  let d ← diff v j i
  vset r i d

/-- `TEST_CASE("forward transformation")` (src/forward_stencil_iterator.t.cpp:44-61), with any function `K` for `transform` -/
def forward1dOf [Zero T] [Sub T] [DecidableEq T] (n : Int) (x : Nat → T) (K : Mem T → M (Mem T)) : M Bool := do
  let v ← newVec n (0 : T)
  let v := generate x v
  let u ← newVec (v.length - 1) (0 : T)
  let ls ← onVecs K [v, u]
  let v ← vec 0 ls
  let u ← vec 1 ls
  let r ← newVec u.length (0 : T)
  let r ← forLt 0 r.length (round1 v) r
  .ok (decide (u = r))

/-- the test case as it is (src/forward_stencil_iterator.t.cpp:44-61) -/
def forward1d [Zero T] [Sub T] [DecidableEq T] (n : Int) (x : Nat → T) (β : Backend) : M Bool :=
  forward1dOf n x (Cuda.fsTransform [n] 0 (at_ 0) (at_ 1) 2 3 β)

/-- one round of the inner loop: `v[i * dims[1] + j + 1] - v[i * dims[1] + j]` (src/forward_stencil_iterator.t.cpp:81) -/
def round21 [Sub T] (n1 : Int) (v : List T) (i j : Int) (s : List T × Int) : M (List T × Int) := do
  let a ← imul i n1
  let l ← iadd a j
  let k ← iadd l 1
  let d ← diff v k l
  putNext d s

/-- the first block of the test case, with any function `K` for `transform` (src/forward_stencil_iterator.t.cpp:73-84) -/
def forward2d1 [Zero T] [Sub T] [DecidableEq T] (n0 n1 : Int) (v : List T) (K : Mem T → M (Mem T)) : M Bool := do
  let w ← isub n1 1
  let n ← imul n0 w
  let u ← newVec n (0 : T)
  let ls ← onVecs K [v, u]
  let v ← vec 0 ls
  let u ← vec 1 ls
  let r ← newVec u.length (0 : T)
  let (r, _) ← forLt 0 n0 (fun i => forLt 0 w (round21 n1 v i)) (r, 0)
  .ok (decide (u = r))

/-- one round of the inner loop: `v[(i + 1) * dims[1] + j] - v[i * dims[1] + j]` (src/forward_stencil_iterator.t.cpp:96) -/
def round20 [Sub T] (n1 : Int) (v : List T) (i j : Int) (s : List T × Int) : M (List T × Int) := do
  let i' ← iadd i 1
  let a ← imul i' n1
  let k ← iadd a j
  let b ← imul i n1
  let l ← iadd b j
  let d ← diff v k l
  putNext d s

/-- the second block of the test case, with any function `K` for `transform` (src/forward_stencil_iterator.t.cpp:86-99) -/
def forward2d0 [Zero T] [Sub T] [DecidableEq T] (n0 n1 : Int) (v : List T) (K : Mem T → M (Mem T)) : M Bool := do
  let w ← isub n0 1
  let n ← imul w n1
  let u ← newVec n (0 : T)
  let ls ← onVecs K [v, u]
  let v ← vec 0 ls
  let u ← vec 1 ls
  let r ← newVec u.length (0 : T)
  let (r, _) ← forLt 0 w (fun i => forLt 0 n1 (round20 n1 v i)) (r, 0)
  .ok (decide (u = r))

/-- `TEST_CASE("forward 2D transformation")` (src/forward_stencil_iterator.t.cpp:63-100), with any functions for the calls of `transform` -/
def forward2dOf [Zero T] [Sub T] [DecidableEq T] (n0 n1 : Int) (x : Nat → T) (K₁ K₀ : Mem T → M (Mem T)) : M Bool := do
  let n ← imul n0 n1
  let v ← newVec n (0 : T)
  let v := generate x v
  let a ← forward2d1 n0 n1 v K₁
  let b ← forward2d0 n0 n1 v K₀
  .ok (a && b)

/-- the test case as it is (src/forward_stencil_iterator.t.cpp:63-100) -/
def forward2d [Zero T] [Sub T] [DecidableEq T] (n0 n1 : Int) (x : Nat → T) (β₁ β₀ : Backend) : M Bool :=
  forward2dOf n0 n1 x (Cuda.fsTransform [n0, n1] 1 (at_ 0) (at_ 1) 2 3 β₁) (Cuda.fsTransform [n0, n1] 0 (at_ 0) (at_ 1) 2 3 β₀)

/-- `dims[2] * (i * dims[1] + j) + k` (src/forward_stencil_iterator.t.cpp:123-124, 141, 157-158) -/
def pos3 (n1 n2 i j k : Int) : M Int := do
  let a ← imul i n1
  let b ← iadd a j
  let c ← imul n2 b
  iadd c k

/-- one round of the inner loop for direction 2 (src/forward_stencil_iterator.t.cpp:123-124) -/
def round32 [Sub T] (n1 n2 : Int) (v : List T) (i j k : Int) (s : List T × Int) : M (List T × Int) := do
  let a ← pos3 n1 n2 i j k
  let a ← iadd a 1
  let b ← pos3 n1 n2 i j k
  let d ← diff v a b
  putNext d s

/-- one round of the inner loop for direction 1: `v[dims[2] * (i * dims[1] + j + 1) + k]` minus the element at `pos3`
(src/forward_stencil_iterator.t.cpp:140-141) -/
def round31 [Sub T] (n1 n2 : Int) (v : List T) (i j k : Int) (s : List T × Int) : M (List T × Int) := do
  let a ← imul i n1
  let a ← iadd a j
  let a ← iadd a 1
  let a ← imul n2 a
  let a ← iadd a k
  let b ← pos3 n1 n2 i j k
  let d ← diff v a b
  putNext d s

/-- one round of the inner loop for direction 0 (src/forward_stencil_iterator.t.cpp:157-158) -/
def round30 [Sub T] (n1 n2 : Int) (v : List T) (i j k : Int) (s : List T × Int) : M (List T × Int) := do
  let i' ← iadd i 1
  let a ← pos3 n1 n2 i' j k
  let b ← pos3 n1 n2 i j k
  let d ← diff v a b
  putNext d s

/-- a block of the test case: `udims` of the block, the round of its loops, any function `K` for `transform`
(src/forward_stencil_iterator.t.cpp:112-127, 129-144, 146-161) -/
def forward3dBlock [Zero T] [Sub T] [DecidableEq T] (w0 w1 w2 : Int)
    (round : List T → Int → Int → Int → List T × Int → M (List T × Int)) (v : List T) (K : Mem T → M (Mem T)) : M Bool := do
  let n ← imul w0 w1
  let n ← imul n w2
  let u ← newVec n (0 : T)
  let ls ← onVecs K [v, u]
  let v ← vec 0 ls
  let u ← vec 1 ls
  let r ← newVec u.length (0 : T)
  let (r, _) ← forLt 0 w0 (fun i => forLt 0 w1 fun j => forLt 0 w2 (round v i j)) (r, 0)
  .ok (decide (u = r))

/-- `TEST_CASE("forward 3D transformation")` (src/forward_stencil_iterator.t.cpp:102-162), with any functions for the calls of `transform` -/
def forward3dOf [Zero T] [Sub T] [DecidableEq T] (n0 n1 n2 : Int) (x : Nat → T) (K₂ K₁ K₀ : Mem T → M (Mem T)) : M Bool := do
  let n ← imul n0 n1
  let n ← imul n n2
  let v ← newVec n (0 : T)
  let v := generate x v
  let w ← isub n2 1
  let a ← forward3dBlock n0 n1 w (round32 n1 n2) v K₂
  let w ← isub n1 1
  let b ← forward3dBlock n0 w n2 (round31 n1 n2) v K₁
  let w ← isub n0 1
  let c ← forward3dBlock w n1 n2 (round30 n1 n2) v K₀
  .ok (a && b && c)

/-- the test case as it is (src/forward_stencil_iterator.t.cpp:102-162) -/
def forward3d [Zero T] [Sub T] [DecidableEq T] (n0 n1 n2 : Int) (x : Nat → T) (β₂ β₁ β₀ : Backend) : M Bool :=
  forward3dOf n0 n1 n2 x (Cuda.fsTransform [n0, n1, n2] 2 (at_ 0) (at_ 1) 2 3 β₂) (Cuda.fsTransform [n0, n1, n2] 1 (at_ 0) (at_ 1) 2 3 β₁)
    (Cuda.fsTransform [n0, n1, n2] 0 (at_ 0) (at_ 1) 2 3 β₀)

/-- `TEST_CASE("transpose 2D basic")` (src/transpose_iterator.t.cpp:26-47); the function under test is arbitrary here -/
def transpose2dOf [Zero T] [One T] [OfNat T 2] [OfNat T 3] [OfNat T 4] [OfNat T 5] [OfNat T 6] [DecidableEq T] (K₁ K₂ K₃ : Mem T → M (Mem T)) : M Bool := do
  let v : List T := [1, 2, 3, 4, 5, 6]
  let u ← newVec v.length (0 : T)
  let ls ← onVecs K₁ [v, u]
  let v ← vec 0 ls
  let u ← vec 1 ls
  let a := decide (u = v)
  let ls ← onVecs K₂ [v, u]
  let v ← vec 0 ls
  let u ← vec 1 ls
  let b := decide (u = [1, 4, 2, 5, 3, 6])
  let w ← newVec u.length (0 : T)
  let ls ← onVecs K₃ [u, w]
  let w ← vec 1 ls
  .ok (a && b && decide (w = v))

/-- `TEST_CASE("transpose 2D basic")` (src/transpose_iterator.t.cpp:26-47) -/
def transpose2d [Zero T] [One T] [OfNat T 2] [OfNat T 3] [OfNat T 4] [OfNat T 5] [OfNat T 6] [DecidableEq T] (β₁ β₂ β₃ : Backend) : M Bool :=
  transpose2dOf (T := T) (Cuda.transposeInit [0, 1] [2, 3] (at_ 0) (at_ 1) 2 β₁) (Cuda.transposeInit [1, 0] [2, 3] (at_ 0) (at_ 1) 2 β₂) (Cuda.transposeInit [1, 0] [3, 2] (at_ 0) (at_ 1) 2 β₃)

/-- `TEST_CASE("transpose 3D")` (src/transpose_iterator.t.cpp:49-70); the function under test is arbitrary here -/
def transpose3dOf [Zero T] [DecidableEq T] (n0 n1 n2 : Int) (x : Nat → T) (K₁ K₂ K₃ : Mem T → M (Mem T)) : M Bool := do
  let n ← imul n0 n1
  let n ← imul n n2
  let v ← newVec n (0 : T)
  let u ← newVec v.length (0 : T)
  let v := generate x v
  let ls ← onVecs K₁ [v, u]
  let v ← vec 0 ls
  let u ← vec 1 ls
  let a := decide (u = v)
  let ls ← onVecs K₂ [v, u]
  let v ← vec 0 ls
  let u ← vec 1 ls
  let w ← newVec u.length (0 : T)
  let ls ← onVecs K₃ [u, w]
  let w ← vec 1 ls
  .ok (a && decide (w = v))

/-- `TEST_CASE("transpose 3D")` (src/transpose_iterator.t.cpp:49-70) -/
def transpose3d [Zero T] [DecidableEq T] (n0 n1 n2 : Int) (x : Nat → T) (β₁ β₂ β₃ : Backend) : M Bool :=
  transpose3dOf n0 n1 n2 x (Cuda.transposeInit [0, 1, 2] [n0, n1, n2] (at_ 0) (at_ 1) 2 β₁) (Cuda.transposeInit [2, 0, 1] [n0, n1, n2] (at_ 0) (at_ 1) 2 β₂)
    (Cuda.transposeInit [1, 2, 0] [n2, n0, n1] (at_ 0) (at_ 1) 2 β₃)

/-- `lb * sz[1] + c` (src/submatrix_iterator.t.cpp:34-38) -/
def pos2 (s1 a b : Int) : M Int := do
  let p ← imul a s1
  iadd p b

/-- `v[p] == z` for a number `z` -/
def holds [IntCast T] [DecidableEq T] (v : List T) (p z : Int) : M Bool := do
  let a ← vget v p
  .ok (decide (a = (z : T)))

/-- `TEST_CASE("submatrix_iterator basic")` (src/submatrix_iterator.t.cpp:21-39); the function under test is arbitrary here -/
def subBasicOf [One T] [IntCast T] [DecidableEq T] (s0 s1 l0 l1 u0 u1 : Int) (K : Mem T → M (Mem T)) : M Bool := do
  let n ← imul s0 s1
  let v ← newVec n (1 : T)
  let ls ← onVecs K [v]
  let w ← vec 0 ls
  let p ← pos2 s1 l0 l1
  let a ← holds w p (-1)
  let p' ← iadd p 1
  let b ← holds w p' (-2)
  let p ← pos2 s1 l0 u1
  let c ← holds w p (-3)
  let l0' ← iadd l0 1
  let p ← pos2 s1 l0' l1
  let d ← holds w p (-4)
  let p ← pos2 s1 u0 u1
  let e ← holds w p (-5)
  .ok (decide ((v.length : Int) = n) && a && b && c && d && e)

/-- `TEST_CASE("submatrix_iterator basic")` (src/submatrix_iterator.t.cpp:21-39) -/
def subBasic [One T] [IntCast T] [DecidableEq T] (s0 s1 l0 l1 u0 u1 : Int) : M Bool :=
  subBasicOf (T := T) s0 s1 l0 l1 u0 u1 (Cuda.subInit [s0, s1] [l0, l1] [u0, u1] (at_ 0) 1)

/-- the position `v_at` and `at` compute: `j = (j + coord[i]) * sz[i + 1]` from `j = 0` on, then `j + coord[N - 1]`
(src/submatrix_iterator.t.cpp:53-57, 107-111) -/
def at3 (s1 s2 a b c : Int) : M Int := do
  let j ← iadd 0 a
  let j ← imul j s1
  let j ← iadd j b
  let j ← imul j s2
  iadd j c

/-- `TEST_CASE("submatrix 3D")` (src/submatrix_iterator.t.cpp:41-67); the function under test is arbitrary here -/
def sub3dOf [One T] [IntCast T] [DecidableEq T] (s0 s1 s2 l0 l1 l2 u0 u1 u2 : Int) (K : Mem T → M (Mem T)) : M Bool := do
  let n ← imul s0 s1
  let n ← imul n s2
  let v ← newVec n (1 : T)
  let ls ← onVecs K [v]
  let w ← vec 0 ls
  let p ← at3 s1 s2 l0 l1 l2
  let a ← holds w p (-1)
  let l2' ← iadd l2 1
  let p ← at3 s1 s2 l0 l1 l2'
  let b ← holds w p (-2)
  let p ← at3 s1 s2 l0 l1 u2
  let c ← holds w p (-3)
  let l1' ← iadd l1 1
  let p ← at3 s1 s2 l0 l1' l2
  let d ← holds w p (-4)
  let p ← at3 s1 s2 u0 u1 u2
  let e ← holds w p (-5)
  let p ← at3 s1 s2 l0 u1 u2
  let f ← holds w p (-6)
  let l0' ← iadd l0 1
  let p ← at3 s1 s2 l0' l1 l2
  let g ← holds w p (-7)
  .ok (decide ((v.length : Int) = n) && a && b && c && d && e && f && g)

/-- `TEST_CASE("submatrix 3D")` (src/submatrix_iterator.t.cpp:41-67) -/
def sub3d [One T] [IntCast T] [DecidableEq T] (s0 s1 s2 l0 l1 l2 u0 u1 u2 : Int) : M Bool :=
  sub3dOf (T := T) s0 s1 s2 l0 l1 l2 u0 u1 u2 (Cuda.subInit [s0, s1, s2] [l0, l1, l2] [u0, u1, u2] (at_ 0) 1)

/-- `TEST_CASE("tabulate 2D")` (src/submatrix_iterator.t.cpp:69-90); the function under test is arbitrary here -/
def tabulate2dOf [Field T] [DecidableEq T] (K : Mem T → M (Mem T)) : M Bool := do
  let v ← newVec 20 (1 : T)
  let ls ← onVecs K [v]
  let w ← vec 0 ls
  .ok (decide (v.length = 20) && decide (w = [1, 1, 1, 1, 1, 1, 1, 1, 1, 0, -1, 1, 1, -2, -3, 1, 1, -4, -5, 1]))

/-- `TEST_CASE("tabulate 2D")` (src/submatrix_iterator.t.cpp:69-90) -/
def tabulate2d [Field T] [DecidableEq T] (β : Backend) : M Bool :=
  tabulate2dOf (T := T) (Cuda.subTabulate [5, 4] [2, 1] [4, 2] (at_ 0) 1 β)

/-- one round of the inner loop: `at(ans, std::array{i, j, k}) = -m++` (src/submatrix_iterator.t.cpp:116) -/
def roundTab [IntCast T] (s1 s2 i j k : Int) (s : List T × Int) : M (List T × Int) := do
  let p ← at3 s1 s2 i j k
  let m ← iadd s.2 1
  let z ← isub 0 s.2
  let l ← vset s.1 p (z : T)
  .ok (l, m)

/-- `TEST_CASE("tabulate 3D")` (src/submatrix_iterator.t.cpp:92-119); the function under test is arbitrary here -/
def tabulate3dOf [Field T] [DecidableEq T] (s0 s1 s2 l0 l1 l2 u0 u1 u2 : Int) (K : Mem T → M (Mem T)) : M Bool := do
  let n ← imul s0 s1
  let n ← imul n s2
  let v ← newVec n (2 : T)
  let ls ← onVecs K [v]
  let w ← vec 0 ls
  let ans ← newVec w.length (2 : T)
  let (ans, _) ← forLt l0 (u0 + 1) (fun i => forLt l1 (u1 + 1) fun j => forLt l2 (u2 + 1) (roundTab s1 s2 i j)) (ans, 0)
  .ok (decide ((v.length : Int) = n) && decide (w = ans))

/-- `TEST_CASE("tabulate 3D")` (src/submatrix_iterator.t.cpp:92-119) -/
def tabulate3d [Field T] [DecidableEq T] (s0 s1 s2 l0 l1 l2 u0 u1 u2 : Int) (β : Backend) : M Bool :=
  tabulate3dOf (T := T) s0 s1 s2 l0 l1 l2 u0 u1 u2 (Cuda.subTabulate [s0, s1, s2] [l0, l1, l2] [u0, u1, u2] (at_ 0) 1 β)

end Verif.Test
