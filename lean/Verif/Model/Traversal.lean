import Verif.Model.MatrixUtils

/-
Transcription of src/cuda/matrix_traversal_iterator.hpp.
-/

namespace Verif

/-- a device pointer: allocation and offset in elements.  `thrust::device_ptr<T>` arithmetic moves the offset. -/
structure Ptr where
  blk : Nat
  off : Int
deriving DecidableEq, Repr

/-- pointer arithmetic.  Simplification: forming an out-of-range pointer is not an error, only accessing it is. -/
def Ptr.add (p : Ptr) (d : Int) : Ptr := { p with off := p.off + d }

/-- `matrix_traversal_iterator` data members (src/cuda/matrix_traversal_iterator.hpp:181-184) -/
structure MT where
  first : Ptr
  stride : List Int
  current : List Int
  n : List Int
deriving DecidableEq, Repr

namespace MT

/-- `size()` (src/cuda/matrix_traversal_iterator.hpp:76) -/
def size (it : MT) : M Int := strideDim it.n 0

/-- the accumulation `o += stride[j] * current[j]`; the product is an `int` product, the sum a `diff_t` sum
(src/cuda/matrix_traversal_iterator.hpp:111-112) -/
def offLoop : Int → List Int → List Int → M Int
  | o, [], [] => .ok o
  | o, s :: ss, c :: cs => do
    let m ← imul s c
    let o' ← dadd o m
    offLoop o' ss cs
  | _, _, _ => .error .illFormed

/-- `dereference()`: the address `first + o`.  The value-returning instantiation reads that address, the
iterator-returning one (windows) returns it (src/cuda/matrix_traversal_iterator.hpp:108-118) -/
def addr (it : MT) : M Ptr := do
  let o ← offLoop 0 it.stride it.current
  .ok (it.first.add o)

/-- `equal()` compares the coordinates only (src/cuda/matrix_traversal_iterator.hpp:28-34, 120-124) -/
def equal (a b : MT) : Bool := a.current == b.current

/-- loop of `increment()`, from the last dimension to the first; returns the new coordinates and the flag `f`
(src/cuda/matrix_traversal_iterator.hpp:132-141) -/
def incLoop : List Int → List Int → M (List Int × Int)
  | [], [] => .ok ([], 1)
  | n :: ns, c :: cs => do
    let (cs', f) ← incLoop ns cs
    let m ← isub n 1
    let d ← isub m c
    let a := lnot d
    let an ← imul a n
    let b ← isub 1 an
    let shift ← imul f b
    let c' ← iadd c shift
    let g ← isub shift 1
    let f' ← imul f (lnotnot g)
    .ok (c' :: cs', f')
  | _, _ => .error .illFormed

/-- `increment()` (src/cuda/matrix_traversal_iterator.hpp:126-147) -/
def inc (it : MT) : M MT := do
  let (cs, f) ← incLoop it.n it.current
  let cs' ← lastAdj f it.n cs
  .ok { it with current := cs' }

/-- loop of `decrement()` (src/cuda/matrix_traversal_iterator.hpp:154-163) -/
def decLoop : List Int → List Int → M (List Int × Int)
  | [], [] => .ok ([], 1)
  | n :: ns, c :: cs => do
    let (cs', f) ← decLoop ns cs
    let a := lnot c
    let an ← imul a n
    let b ← iadd (-1) an
    let shift ← imul f b
    let c' ← iadd c shift
    let g ← iadd shift 1
    let f' ← imul f (lnotnot g)
    .ok (c' :: cs', f')
  | _, _ => .error .illFormed

/-- `decrement()` (src/cuda/matrix_traversal_iterator.hpp:149-164) -/
def dec (it : MT) : M MT := do
  let (cs, _) ← decLoop it.n it.current
  .ok { it with current := cs }

/-- `advance(dist)`; `dist` is a `diff_t`, it is narrowed to the `int` parameter of `unravel`
(src/cuda/matrix_traversal_iterator.hpp:166-171) -/
def adv (it : MT) (dist : Int) : M MT := do
  let r ← ravel it.n it.current
  let d ← dadd dist r
  let i ← narrow d
  let cs ← unravel it.n i
  .ok { it with current := cs }

/-- `a.distance_to(b)`: an `int` subtraction converted to `diff_t`
(src/cuda/matrix_traversal_iterator.hpp:173-179).  `b - a` is `a.distance_to(b)`. -/
def distTo (a b : MT) : M Int := do
  let rb ← ravel a.n b.current
  let ra ← ravel a.n a.current
  isub rb ra

end MT

end Verif
