import Verif.Model.Kernels.SpanTest
import Verif.Model.ForwardStencil
import Verif.Model.Submatrix

/-
Transcription of the device code behind the iterator tests: src/cuda/forward_stencil_iterator_test.cpp,
src/cuda/submatrix_iterator_test.cpp, src/cuda/transpose_iterator_test.cpp, src/cuda/offset_iterator_test.cpp, of
src/cuda/offset_iterator.hpp as an iterator and of `stride_from_size` (src/cuda/matrix_utils.hpp:23-28).

A `thrust::device_vector` is a block of memory of its own; which block it gets is a parameter.  Copies between host and device are
run element by element; vectors are freed at the end.  A failing `assert` ends the program and is kept apart as an error.
-/

namespace Verif

variable {T : Type}

/-- `thrust::device_vector<T> x(src, src + n)` in block `b` -/
def Mem.fromHost (m : Mem T) (src : Ptr) (n : Int) (b : Nat) : M (Mem T) := do
  let xs ← (List.range n.toNat).mapM fun (k : Nat) => m.load (src.add k)
  .ok { m with val := fun q => if q.blk = b then (if 0 ≤ q.off then xs[q.off.toNat]? else none) else m.val q }

/-- `thrust::copy(x.begin(), x.end(), dst)`, `x` being the vector of `n` elements in block `b` -/
def Mem.toHost (m : Mem T) (b : Nat) (n : Int) (dst : Ptr) : M (Mem T) :=
  (List.range n.toNat).foldlM (fun m (k : Nat) => do
    let x ← m.load ⟨b, k⟩
    m.store (dst.add k) x) m

/-- the destructor of the vector in block `b` -/
def Mem.free (m : Mem T) (b : Nat) : Mem T := { m with val := fun q => if q.blk = b then none else m.val q }

/-- the two steps of element `k` of a thrust algorithm: evaluate, store through the output iterator -/
def walkThread {ι : Type} [RA ι] (rd : Int → Mem T → M T) (out : ι) (σ : Sched) (k : Int) : List (Micro T) :=
  [.rd (fun _ m => do
    let x ← rd k m
    .ok (.val (.num x))), .wr (do
    let o ← runMoves (σ.whist k) out
    RA.addr o)]

/-- `int z = sz[0]; for (int i = 1; i < N; i++) z *= sz[i];` (src/cuda/submatrix_iterator_test.cpp:30-31, 76-77, 116-120,
src/cuda/transpose_iterator_test.cpp:28-29) -/
def prodFrom : List Int → M Int
  | [] => .error .illFormed
  | s :: ss => prodLoop s ss

/-- `stride_from_size(size, stride)` (src/cuda/matrix_utils.hpp:23-28) -/
def strideFromSize : List Int → M (List Int)
  | [] => .error .illFormed
  | [_] => .ok [1]
  | _ :: t :: rest => do
    let r ← strideFromSize (t :: rest)
    let y ← imul (r.headD 1) t
    .ok (y :: r)

/-- `offset_iterator` (src/cuda/offset_iterator.hpp:13-68): data members; `o_idx` is an `int` -/
structure OffIt where
  first : Ptr
  stride : List Int
  o : Ptr
  idx : Int
deriving DecidableEq, Repr

namespace OffIt

/-- `make_offset_iterator` (src/cuda/offset_iterator.hpp:24-30, 70-75) -/
def make (it : Ptr) (stride : List Int) (o : Ptr) : OffIt := ⟨it, stride, o, 0⟩

/-- `increment()` (src/cuda/offset_iterator.hpp:52) -/
def inc (a : OffIt) : M OffIt := do
  let i ← iadd a.idx 1
  .ok { a with idx := i }

/-- `decrement()` (src/cuda/offset_iterator.hpp:54) -/
def dec (a : OffIt) : M OffIt := do
  let i ← isub a.idx 1
  .ok { a with idx := i }

/-- `advance(dist)` (src/cuda/offset_iterator.hpp:56): the sum is a `ptrdiff_t`, converted back to `int`; a value that does not fit is
an error here -/
def adv (a : OffIt) (dist : Int) : M OffIt := do
  let d ← dadd a.idx dist
  let i ← narrow d
  .ok { a with idx := i }

/-- `a.distance_to(b)` (src/cuda/offset_iterator.hpp:58-62) -/
def distTo (a b : OffIt) : M Int := isub b.idx a.idx

/-- `equal()` (src/cuda/offset_iterator.hpp:46-50) -/
def equal (a b : OffIt) : Bool := b.idx == a.idx

/-- `dereference()`: the address (src/cuda/offset_iterator.hpp:38-44); the offsets are read from memory -/
def addr (m : Mem T) (a : OffIt) : M Ptr := offAddr m a.first a.stride a.o a.idx

instance : Step OffIt := ⟨inc, dec, adv⟩

end OffIt

namespace Cuda

/-- `forward_stencil_test_cuda::init` (src/cuda/forward_stencil_iterator_test.cpp:20-68): `b` is the block of the vector.  Distances of
`s + i` for all `i` come first; the rollover part is compiled for `I != 0` only. -/
def fsInit (dims : List Int) (i : Nat) (v : Ptr) (b : Nat) (m : Mem T) : M (Mem T) := do
  let n ← strideDim dims 0
  let l ← strideDim dims i
  let limit ← isub l 1
  let stride ← strideDim dims (i + 1)
  let ud ← shrink dims i
  let sz ← prodLoop 1 ud
  let m1 ← m.fromHost v n b
  let s := FS.make (⟨b, 0⟩ : Ptr) stride limit sz
  let a ← s.adv 1
  check ((← s.distTo a) == 1)
  let a ← a.dec
  check (a.first == s.first)
  let a ← a.inc
  let a ← a.dec
  check (a.first == s.first)
  check ((← s.distTo a) == 0)
  let _ ← (List.range sz.toNat).mapM fun (k : Nat) => do
    let t ← s.adv k
    check ((← s.distTo t) == k)
  let e ← s.adv (sz - 1)
  check ((← s.distTo e) == sz - 1)
  let e ← e.inc
  check ((← s.distTo e) == sz)
  let e ← s.adv sz
  check ((← s.distTo e) == sz)
  if i != 0 then do
    let a ← s.adv limit
    let a ← a.adv (-1)
    check ((← s.distTo a) == limit - 1)
    let a ← a.inc
    let a ← a.dec
    check ((← s.distTo a) == limit - 1)
    let b ← a.adv 1
    let b ← b.dec
    check (b.first == a.first)
    let b ← s.adv limit
    let b ← b.adv (-1)
    check ((← s.distTo b) == limit - 1)
    check ((← b.distTo s) == 1 - limit)
    let b ← b.inc
    check ((← s.distTo b) == limit)
    check ((← b.distTo s) == -limit)
    let b ← b.inc
    check ((← s.distTo b) == limit + 1)
    check ((← b.distTo s) == -limit - 1)
  .ok (m1.free b)

/-- `forward_stencil_test_cuda::transform` (src/cuda/forward_stencil_iterator_test.cpp:83-107): `bx` and `by` are the blocks of the two
vectors; the differences `b - a` (line 77) go to `y`, then to `u`; at the end the first pair is read -/
def fsTransform [Sub T] (dims : List Int) (i : Nat) (v u : Ptr) (bx bY : Nat) (β : Backend) (m : Mem T) : M (Mem T) := do
  let n ← strideDim dims 0
  let ud ← shrink dims i
  let limit ← strideDim ud i
  let stride ← strideDim dims (i + 1)
  let sz ← strideDim ud 0
  let m1 ← m.fromHost v n bx
  let m2 ← m1.fromHost u sz bY
  let s := FS.make (⟨bx, 0⟩ : Ptr) stride limit sz
  let e ← s.adv sz
  let d ← s.distTo e
  check (d == sz)
  let σ := β d 2
  let m3 ← parallel (walkThread (fun k m => do
    let t ← runMoves (σ.rhist k) s
    let p ← t.addrs
    let a ← m.load p.1
    let b ← m.load p.2
    .ok (b - a)) (⟨bY, 0⟩ : Ptr) σ) σ.trace m2
  let m4 ← m3.toHost bY sz u
  let p ← s.addrs
  let _ ← m4.load p.1
  let _ ← m4.load p.2
  .ok ((m4.free bx).free bY)

/-- `submatrix_test_cuda::tabulate` (src/cuda/submatrix_iterator_test.cpp:110-131): `thrust::tabulate` stores `-k` in element `k` -/
def subTabulate [Neg T] [IntCast T] (sz lb ub : List Int) (v : Ptr) (b : Nat) (β : Backend) (m : Mem T) : M (Mem T) := do
  let z ← prodFrom sz
  let n ← (List.range sz.length).mapM fun i => do
    let u ← get ub i
    let l ← get lb i
    let d ← isub u l
    iadd d 1
  let nsz ← prodFrom n
  let m1 ← m.fromHost v z b
  let s ← makeSubmatrix ⟨b, 0⟩ sz lb ub (sz.map fun _ => 1)
  let e ← s.adv nsz
  let d ← s.distTo e
  let σ := β d 2
  let m2 ← parallel (walkThread (fun k _ => .ok (-(k : T))) s σ) σ.trace m1
  let m3 ← m2.toHost b z v
  .ok (m3.free b)

/-- `submatrix_test_cuda::init` (src/cuda/submatrix_iterator_test.cpp:24-108), instantiated for two and three dimensions; `ss` is a chain of
`s + i`, `++` and `--`, every step is run; the products in lines 89 and 90 are `int`s -/
def subInit [IntCast T] [BEq T] (sz lb ub : List Int) (v : Ptr) (b : Nat) (m : Mem T) : M (Mem T) := do
  let z ← prodFrom sz
  let n ← (List.range sz.length).mapM fun i => do
    let u ← get ub i
    let l ← get lb i
    let d ← isub u l
    iadd d 1
  let m ← m.fromHost v z b
  let s ← makeSubmatrix ⟨b, 0⟩ sz lb ub (sz.map fun _ => 1)
  let p ← s.addr
  let m ← m.store p ((-1 : Int) : T)
  let t ← s.adv 0
  let p ← t.addr
  let x ← m.load p
  check (x == ((-1 : Int) : T))
  let ss ← s.adv 1
  let d ← s.distTo ss
  check (d == 1)
  let s ← s.inc
  let s ← s.dec
  let p ← s.addr
  let x ← m.load p
  check (x == ((-1 : Int) : T))
  let t ← s.adv 1
  let p ← t.addr
  let m ← m.store p ((-2 : Int) : T)
  let l ← get n (sz.length - 1)
  let ss ← s.adv l
  let ss ← ss.adv (-1)
  let p ← ss.addr
  let m ← m.store p ((-3 : Int) : T)
  let d ← s.distTo ss
  check (d == l - 1)
  let ss ← ss.inc
  let p ← ss.addr
  let m ← m.store p ((-4 : Int) : T)
  let d ← s.distTo ss
  check (d == l)
  let ss ← ss.dec
  let p ← ss.addr
  let x ← m.load p
  check (x == ((-3 : Int) : T))
  let d ← s.distTo ss
  check (d == l - 1)
  let ss ← s.adv l
  let p ← ss.addr
  let x ← m.load p
  check (x == ((-4 : Int) : T))
  let d ← s.distTo ss
  check (d == l)
  let nsz ← prodFrom n
  let e ← isub nsz 1
  let ss ← s.adv e
  let d ← s.distTo ss
  check (d == e)
  let p ← ss.addr
  let m ← m.store p ((-5 : Int) : T)
  let ss ← ss.inc
  let d ← s.distTo ss
  check (d == nsz)
  let ss ← s.adv nsz
  let d ← s.distTo ss
  check (d == nsz)
  let m ← if sz.length = 3 then do
    let k ← get n 1
    let kl ← imul k l
    let ss ← s.adv kl
    let ss ← ss.adv (-1)
    let d ← s.distTo ss
    check (d == kl - 1)
    let p ← ss.addr
    let m ← m.store p ((-6 : Int) : T)
    let ss ← ss.inc
    let d ← s.distTo ss
    check (d == kl)
    let p ← ss.addr
    let m ← m.store p ((-7 : Int) : T)
    let ss ← ss.dec
    let p ← ss.addr
    let x ← m.load p
    check (x == ((-6 : Int) : T))
    .ok m
  else .ok m
  let m ← m.toHost b z v
  .ok (m.free b)

/-- `transpose_test_cuda<T, I...>::init` (src/cuda/transpose_iterator_test.cpp:25-36): `seq` is `I...` -/
def transposeInit (seq : List Nat) (sz : List Int) (v u : Ptr) (b : Nat) (β : Backend) (m : Mem T) : M (Mem T) := do
  let z ← prodFrom sz
  let m1 ← m.fromHost v z b
  let first ← makeTranspose seq ⟨b, 0⟩ sz
  let last ← first.adv z
  let d ← first.distTo last
  check (d == z)
  let σ := β z 2
  let m2 ← parallel (walkThread (fun k m => do
    let t ← runMoves (σ.rhist k) first
    let p ← t.addr
    m.load p) u σ) σ.trace m1
  .ok (m2.free b)

/-- `offset_test_cuda::init` (src/cuda/offset_iterator_test.cpp:8-34): the offsets are a table of ints in memory; `it[i] = -1 - i`, the
index converted to `T` -/
def offsetInit [IntCast T] (v : Ptr) (nOff : Int) (o : Ptr) (dims : List Int) (m : Mem T) : M (Mem T) := do
  let stride ← strideFromSize dims
  let it := OffIt.make v stride o
  let a ← it.adv 1
  check ((← it.distTo a) == 1)
  let x ← it.inc
  let x ← x.dec
  check (x.equal it)
  check ((← x.distTo it) == 0)
  (List.range nOff.toNat).foldlM (fun m (i : Nat) => do
    let t ← it.adv i
    let p ← t.addr m
    let y ← isub (-1) i
    m.store p (y : T)) m

end Cuda
end Verif
