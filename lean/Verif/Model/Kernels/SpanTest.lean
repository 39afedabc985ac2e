import Verif.Model.Kernels.Common
import Verif.Model.Window

/-
Transcription of the device code behind the span, window and coarse to fine tests: src/cuda/md_device_span_test.cpp,
src/cuda/window_iterator_test.cpp:27-150 and src/cuda/coarse_to_fine_iterator_test.cpp.

`beta` and `dx` are read on the host; the integer constants of the expressions are converted to `T`.  A failing `assert` ends the
program and is kept apart from normal results as an error.
-/

namespace Verif

/-- `Ib{lo, hi, s}` and so on (src/cuda/md_bounds.hpp:21-24, 131-136): inclusive -/
def mkBS (d : Dim) (lo hi s : Int) : M DB := do
  let b ← Bounds.make lo hi s
  .ok (d, b)

/-- `assert(b)`; no result if it fails -/
def check (b : Bool) : M Unit := if b then .ok () else .error .illFormed

/-- `x.a`, `x.b` of what `*it` yields: a `stencil_t` -/
def Val.asPair {T : Type} : Val T → M (T × T)
  | .pair a b => .ok (a, b)
  | .num _ => .error .illFormed

namespace Cuda

variable {T : Type}

section
variable [Add T] [Sub T] [Mul T] [Div T] [OfNat T 2] [OfNat T 3] [OfNat T 10]

/-- `md_device_span_cuda::init`, one dimension (src/cuda/md_device_span_test.cpp:22-44): the assignment, then the first pair of
`3 * u.stencil_x()` is read -/
def spanInit1d (i0 i1 : Int) (_beta : T) (dx : Nat → T) (ugcw : Int) (u_ : Ptr) (rgcw : Int) (res_ : Ptr) (β : Nat → Backend) (m : Mem T) :
    M (Mem T) := do
  let i ← mkB .I i0 i1
  let u ← makeSpanOffset u_ ugcw [i]
  let res ← makeSpanOffset res_ rgcw [i]
  let m' ← withDomain [i] [(res.set ((2 : T) * (u.grad .I (dx 0) down + u.grad .I (dx 0)) / (u.e T + (10 : T))), β 0)] m
  let it ← ((3 : T) * (Expr.stencil 1 .I u : Expr T)).call [i]
  let x ← it.deref m'
  let _ ← x.asPair
  .ok m'

/-- `md_device_span_cuda::init`, two dimensions (src/cuda/md_device_span_test.cpp:66-93): `u` keeps `j` fastest, `res` keeps `i` fastest -/
def spanInit2d (i0 i1 j0 j1 : Int) (_beta : T) (dx : Nat → T) (ugcw : Int) (u_ : Ptr) (rgcw : Int) (res_ : Ptr) (β : Nat → Backend) (m : Mem T) :
    M (Mem T) := do
  let i ← mkB .I i0 i1
  let j ← mkB .J j0 j1
  let u ← makeSpanOffset u_ ugcw [i, j]
  let res ← makeSpanOffset res_ rgcw [j, i]
  withDomain [j, i] [(res.set ((3 : T) * (u.grad .J (dx 1) + u.grad .I (dx 0))), β 0)] m

end

section
variable [Mul T]

/-- `md_device_span_cuda::stride`, one dimension (src/cuda/md_device_span_test.cpp:46-64) -/
def spanStride1d (i0 i1 is : Int) (beta : T) (_dx : Nat → T) (ugcw : Int) (u_ : Ptr) (rgcw : Int) (res_ : Ptr) (β : Nat → Backend) (m : Mem T) :
    M (Mem T) := do
  let i ← mkBS .I i0 i1 is
  let u ← makeSpanOffset u_ ugcw [i]
  let res ← makeSpanOffset res_ rgcw [i]
  withDomain [i] [(res.set (beta * u.e T), β 0)] m

/-- `md_device_span_cuda::stride`, two dimensions (src/cuda/md_device_span_test.cpp:95-116) -/
def spanStride2d (i0 i1 is j0 j1 js : Int) (beta : T) (_dx : Nat → T) (ugcw : Int) (u_ : Ptr) (rgcw : Int) (res_ : Ptr) (β : Nat → Backend)
    (m : Mem T) : M (Mem T) := do
  let i ← mkBS .I i0 i1 is
  let j ← mkBS .J j0 j1 js
  let u ← makeSpanOffset u_ ugcw [i, j]
  let res ← makeSpanOffset res_ rgcw [j, i]
  withDomain [j, i] [(res.set (beta * u.e T), β 0)] m

/-- `md_device_span_cuda::stride`, three dimensions (src/cuda/md_device_span_test.cpp:118-143) -/
def spanStride3d (i0 i1 is j0 j1 js k0 k1 ks : Int) (beta : T) (_dx : Nat → T) (ugcw : Int) (u_ : Ptr) (rgcw : Int) (res_ : Ptr)
    (β : Nat → Backend) (m : Mem T) : M (Mem T) := do
  let i ← mkBS .I i0 i1 is
  let j ← mkBS .J j0 j1 js
  let k ← mkBS .K k0 k1 ks
  let u ← makeSpanOffset u_ ugcw [i, j, k]
  let res ← makeSpanOffset res_ rgcw [k, j, i]
  withDomain [k, j, i] [(res.set (beta * u.e T), β 0)] m

end

/-- `test::init` (src/cuda/coarse_to_fine_iterator_test.cpp:19-27) -/
def fineTest (fi0 fi1 ci0 ci1 ratio : Int) (c_ f_ : Ptr) (β : Nat → Backend) (m : Mem T) : M (Mem T) := do
  let ci ← mkB .I ci0 ci1
  let fi ← mkB .I fi0 fi1
  let c := makeSpan c_ [ci]
  let f := makeSpan f_ [fi]
  withDomain [fi] [(f.set (.fine c ratio []), β 0)] m

section
variable [Add T] [Sub T] [Mul T] [Neg T] [OfNat T 1] [OfNat T 2] [OfNat T 3] [OfNat T 4]

/-- calling one statement on the window that starts at `q`: its steps one after another (src/cuda/stencil_proxy.hpp:265-282) -/
def stmtAt (q : Ptr) (s : WStmt T) (m : Mem T) : M (Mem T) := do
  let x ← (s.steps (.ok q) (.error .illFormed) 0).foldlM (fun (x : List (Reg T) × Mem T) step => step.run x.1 x.2) ([], m)
  .ok x.2

/-- `window_test_cuda::init` (src/cuda/window_iterator_test.cpp:27-48) -/
def windowInit (v_ : Ptr) (n : Int) (m : Mem T) : M (Mem T) := do
  check (n == 10)
  let i ← mkB .I 1 2
  let w ← mkB .W 0 4
  let v := makeSpan v_ [i, w]
  let st ← v.call [i]
  let it ← st.addr
  let m ← m.store it 1
  let m ← m.store (it.add 1) 2
  let st ← st.inc
  let it ← st.addr
  let m ← stmtAt it (.set1 0 (.num 3)) m
  stmtAt it (.set1 1 (.num 4)) m

/-- `window_test_cuda::transform` (src/cuda/window_iterator_test.cpp:50-60) -/
def windowTransform (v_ : Ptr) (n : Int) (β : Nat → Backend) (m : Mem T) : M (Mem T) := do
  check (n == 10)
  let i ← mkB .I 1 5
  let w ← mkB .W 0 1
  let v := makeSpan v_ [i, w]
  windowExec v [i] [.set1 0 (.num 1), .set1 1 (.proxy (.pn (arith (· + ·)) (.entry 1) 2))] (β 0) m

/-- `window_test_cuda::transform2` (src/cuda/window_iterator_test.cpp:62-73): `-(v(1) + v(2)) + x - 1` with `x = 4` -/
def windowTransform2 (v_ : Ptr) (n : Int) (β : Nat → Backend) (m : Mem T) : M (Mem T) := do
  check (n == 15)
  let i ← mkB .I 1 5
  let w ← mkB .W 0 2
  let v := makeSpan v_ [i, w]
  let x : T := 4
  windowExec v [i] [.set1 0 (.proxy (.pn (arith (· - ·)) (.pn (arith (· + ·))
    (Proxy.neg (· * ·) (-1 : T) (.pp (arith (· + ·)) (.entry 1) (.entry 2))) x) 1))] (β 0) m

/-- `window_test_cuda::transform3` (src/cuda/window_iterator_test.cpp:75-105): the first element of the iterators of `f` is read
before the statement runs -/
def windowTransform3 (v_ : Ptr) (n : Int) (u_ : Ptr) (β : Nat → Backend) (m : Mem T) : M (Mem T) := do
  check (n == 15)
  let i ← mkB .I 1 5
  let w ← mkB .W 0 2
  let v := makeSpan v_ [i, w]
  let u := makeSpan u_ [i]
  let f : Proxy T := .pe (arith (· + ·)) (Proxy.neg (· * ·) (-1 : T) (.pp (arith (· + ·)) (.entry 1) (.entry 2))) ((3 : T) * u.e T)
  let its ← f.iters.mapM (·.call [i])
  let _ ← its.mapM (·.deref m)
  windowExec v [i] [.set1 0 (.proxy f)] (β 0) m

/-- `window_test_cuda::transform4` (src/cuda/window_iterator_test.cpp:107-122) -/
def windowTransform4 (v_ : Ptr) (n : Int) (u_ : Ptr) (β : Nat → Backend) (m : Mem T) : M (Mem T) := do
  check (n == 20)
  let i ← mkBS .I 1 5 1
  let w ← mkB .W 0 3
  let v := makeSpan v_ [i, w]
  let u := makeSpan u_ [i]
  let f : Expr T := (3 : T) * u.e T
  windowExec v [i] [.set1 0 (.proxy (.pe (arith (· - ·)) (Proxy.neg (· * ·) (-1 : T) (.pp (arith (· + ·)) (.entry 2) (.entry 3))) f)),
    .set1 1 (.expr ((2 : T) * f))] (β 0) m

/-- `window_test_cuda::rhs` (src/cuda/window_iterator_test.cpp:124-150) -/
def windowRhs (rhs_ v_ : Ptr) (n : Int) (u_ : Ptr) (β : Nat → Backend) (m : Mem T) : M (Mem T) := do
  check (n == 20)
  let i ← mkB .I 1 5
  let w ← mkB .W 0 3
  let rhs := makeSpan rhs_ [i]
  let v := makeSpan v_ [i, w]
  let u := makeSpan u_ [i]
  windowExec v [i] [WStmt.subEq (· * ·) (· + ·) (-1 : T) rhs (.pe (arith (· * ·)) (.entry 1) (u.e T))] (β 0) m

end

end Cuda
end Verif
