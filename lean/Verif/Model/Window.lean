import Verif.Model.Assign

/-
Transcription of statements on stencil windows: src/cuda/stencil_proxy.hpp, the index rules of src/cuda/traits.hpp:217-264,
src/cuda/tuple_utils.hpp, and `with_domain(w, ps...)` (src/cuda/md_device_span.hpp:287-315, 353-358, 400-403).

`st(0) = b * (st(1) + u)` builds a statement object; `with_domain(st, k, j, i)(statements...)` runs all statements for each
point.  A zip of the window iterator and the iterators of all statements is dereferenced once per point; then the statements
run in order.
-/

namespace Verif

/-- `stencil_proxy`: an entry of the window, or a binary operation on two proxies, a proxy and a number, or a proxy and an
array expression, either way round (src/cuda/stencil_proxy.hpp:28-60, 90-96, 151-155) -/
inductive Proxy (T : Type) where
  | entry (i : Int)
  | pp (op : VOp T) (u v : Proxy T)
  | pn (op : VOp T) (u : Proxy T) (t : T)
  | np (op : VOp T) (t : T) (v : Proxy T)
  | pe (op : VOp T) (u : Proxy T) (e : Expr T)
  | ep (op : VOp T) (e : Expr T) (v : Proxy T)

namespace Proxy

variable {T : Type}

/-- unary minus: multiplication by -1 (src/cuda/stencil_proxy.hpp:62-70) -/
def neg (mul : T → T → T) (minusOne : T) (u : Proxy T) : Proxy T := .np (arith mul) minusOne u

/-- the template parameter N: `next_proxy_index` (src/cuda/traits.hpp:229-258) -/
def index : Proxy T → Nat
  | entry _ => 0
  | pp _ u v => if v.index > u.index then v.index else u.index
  | pn _ u _ => u.index
  | np _ _ v => v.index
  | pe _ u _ => u.index + 1
  | ep _ _ v => v.index + 1

/-- the expressions whose iterators `get_iterators` puts into the tuple, in that order (src/cuda/stencil_proxy.hpp:116-148,
169-173): `merge_tuples`, `append_to_tuple`, `prepend_to_tuple` (src/cuda/tuple_utils.hpp) -/
def iters : Proxy T → List (Expr T)
  | entry _ => []
  | pp _ u v => u.iters ++ v.iters
  | pn _ u _ => u.iters
  | np _ _ v => v.iters
  | pe _ u e => u.iters ++ [e]
  | ep _ e v => e :: v.iters

/-- the call operator with `maybe_invoke_with` (src/cuda/stencil_proxy.hpp:75-103, 163-167): `win i` is `it[i]` and `t j` is
`thrust::get<j>` of the tuple of the whole right hand side; an array operand of a node with index N uses `get<N - 1>` -/
def eval (win : Int → M (Val T)) (t : Nat → M (Val T)) : Proxy T → M (Val T)
  | entry i => win i
  | pp op u v => do
    let x ← u.eval win t
    let y ← v.eval win t
    op x y
  | pn op u c => do
    let x ← u.eval win t
    op x (.num c)
  | np op c v => do
    let y ← v.eval win t
    op (.num c) y
  | pe op u e => do
    let x ← u.eval win t
    let y ← t ((Proxy.pe op u e).index - 1)
    op x y
  | ep op e v => do
    let x ← t ((Proxy.ep op e v).index - 1)
    let y ← v.eval win t
    op x y

end Proxy

/-- right hand side of a window statement: the T of `stencil_assign_proxy` -/
inductive WRhs (T : Type) where
  | num (t : T)
  | expr (e : Expr T)
  | proxy (u : Proxy T)

/-- statements: `st(i) = r` (`stencil_assign_proxy<1>`), `st(i, j) = r` (`stencil_assign_proxy<2>`), and what
`rhs -= u` builds (`self_assign_proxy`) (src/cuda/stencil_proxy.hpp:157-161, 179-188, 260-355) -/
inductive WStmt (T : Type) where
  | set1 (i : Int) (r : WRhs T)
  | set2 (i j : Int) (r : WRhs T)
  | self (l : Span) (r : Proxy T)

/-- `rhs -= v`: `{*this, -v + *this}` (src/cuda/md_device_span.hpp:353-358) -/
def WStmt.subEq {T : Type} (mul add : T → T → T) (minusOne : T) (l : Span) (v : Proxy T) : WStmt T :=
  .self l (.pe (arith add) (v.neg mul minusOne) (.acc (.span l)))

namespace WStmt

variable {T : Type}

/-- `is_rhs_number_v` (src/cuda/traits.hpp:156-169) -/
def isNum : WStmt T → Bool
  | set1 _ (.num _) => true
  | set2 _ _ (.num _) => true
  | _ => false

/-- `is_self_assign_proxy_v` (src/cuda/traits.hpp:275-288) -/
def isSelf : WStmt T → Bool
  | self _ _ => true
  | _ => false

/-- the array operands, in the order of the tuple `get_iterator` makes (src/cuda/stencil_proxy.hpp:284-291, 319-326,
350-354); numbers contribute a constant iterator, which nothing reads -/
def operands : WStmt T → List (Expr T)
  | set1 _ (.num _) => []
  | set1 _ (.expr e) => [e]
  | set1 _ (.proxy u) => u.iters
  | set2 _ _ (.num _) => []
  | set2 _ _ (.expr e) => [e]
  | set2 _ _ (.proxy u) => u.iters
  | self _ u => u.iters

/-- statements that compile in the zip branch (src/cuda/md_device_span.hpp:308-312): `st(i, j) = r` needs a `stencil_t`
(src/cuda/stencil_proxy.hpp:310-317), and `st(i) = st(j)` is the implicit assignment of proxies, not a statement -/
def okZip : WStmt T → Bool
  | set1 _ (.proxy (.entry _)) => false
  | set1 _ _ => true
  | set2 _ _ (.expr _) => true
  | set2 _ _ _ => false
  | self _ _ => false

end WStmt

/-- is this `fine(...)`, which is no `iter_math` and so no operand -/
def Expr.isFine {T : Type} : Expr T → Bool
  | .fine _ _ _ => true
  | _ => false

/-- which statement lists one `with_domain(w, ps...)` accepts: all numeric, all self assignments, or any mixture of
`st(..) = ..` (src/cuda/md_device_span.hpp:296-312) -/
def acceptable {T : Type} (ss : List (WStmt T)) : Bool :=
  (ss.all WStmt.isNum || ss.all WStmt.isSelf || ss.all WStmt.okZip) && ss.all fun s => s.operands.all fun e => !e.isFine

/-- what dereferencing the zip yields for one component: a reference for traversal iterators, a pair of references for bare
stencils, a value for transform iterators.  (Thrust's zip_iterator dereferences its components when it is dereferenced.) -/
def It.derefRef {T : Type} (m : Mem T) : It T → M (Reg T)
  | .mt v => do
    let p ← v.addr
    .ok (.ref p)
  | .fs v => do
    let p ← v.addrs
    .ok (.refs p.1 p.2)
  | .c2f v => do
    let p ← v.addr
    .ok (.ref p)
  | i => do
    let x ← i.deref m
    .ok (.val x)

/-- `it[i]` of the window pointer, no bounds check (src/cuda/stencil_proxy.hpp:163-167, 265-282) -/
def winAddr (win : M Ptr) (i : Int) : M Ptr := do
  let q ← win
  .ok (q.add i)

/-- component `j` of the tuple that starts at `base` -/
def tupleGet {T : Type} (r : List (Reg T)) (m : Mem T) (base j : Nat) : M (Val T) :=
  match r[base + j]? with
  | some g => g.get m
  | none => .error .illFormed

/-- evaluate and store -/
def setStep {T : Type} (f : List (Reg T) → Mem T → M (Val T)) (p : M Ptr) : List (Micro T) :=
  [.rd fun r m => do
    let x ← f r m
    let y ← x.toNum
    .ok (.val (.num y)), .wr p]

/-- `u.a`, `u.b` of a `stencil_t` -/
def Val.fst {T : Type} : Val T → M (Val T)
  | .pair a _ => .ok (.num a)
  | .num _ => .error .illFormed

def Val.snd {T : Type} : Val T → M (Val T)
  | .pair _ b => .ok (.num b)
  | .num _ => .error .illFormed

/-- value of a proxy with the window pointer `win`, the tuple starting at `base` -/
def proxyVal {T : Type} (win : M Ptr) (base : Nat) (u : Proxy T) (r : List (Reg T)) (m : Mem T) : M (Val T) :=
  u.eval (fun i => do
    let q ← winAddr win i
    let x ← m.load q
    .ok (.num x)) (tupleGet r m base)

/-- the steps of one statement (src/cuda/stencil_proxy.hpp:265-282, 299-317, 338-342): `win` is the window pointer, `lhs` the
address of the element a self assignment writes -/
def WStmt.steps {T : Type} (win lhs : M Ptr) (base : Nat) : WStmt T → List (Micro T)
  | .set1 i (.num t) => setStep (fun _ _ => .ok (.num t)) (winAddr win i)
  | .set1 i (.expr _) => setStep (fun r m => tupleGet r m base 0) (winAddr win i)
  | .set1 i (.proxy u) => setStep (proxyVal win base u) (winAddr win i)
  | .set2 i j (.num t) => setStep (fun _ _ => .ok (.num t)) (winAddr win i) ++ setStep (fun _ _ => .ok (.num t)) (winAddr win j)
  | .set2 i j (.expr _) =>
    setStep (fun r m => do let x ← tupleGet r m base 0; x.fst) (winAddr win i) ++
      setStep (fun r m => do let x ← tupleGet r m base 0; x.snd) (winAddr win j)
  | .set2 _ _ (.proxy _) => [.rd fun _ _ => .error .illFormed]
  | .self _ u => setStep (proxyVal win base u) lhs

/-- a statement with the iterators it needs -/
structure Prepared (T : Type) where
  stmt : WStmt T
  lhs : Option MT
  ops : List (It T)

/-- `get_lhs_iterator(ps...)` and `get_iterator(ps...)` -/
def WStmt.prepare {T : Type} (D : List DB) (s : WStmt T) : M (Prepared T) := do
  let ops ← s.operands.mapM (·.call D)
  match s with
  | .self l _ => do
    let v ← l.callAll D
    .ok ⟨s, some v, ops⟩
  | _ => .ok ⟨s, none, ops⟩

/-- address of an element reached by the moves `h` -/
def addrAfter (h : List Move) (v : MT) : M Ptr := do
  let o ← runMoves h v
  o.addr

def Prepared.lhsAddr {T : Type} (h : List Move) (x : Prepared T) : M Ptr :=
  match x.lhs with
  | some v => addrAfter h v
  | none => .error .illFormed

/-- the steps of all statements: `tp_invoke`, `tp_layered_invoke` (src/cuda/stencil_proxy.hpp:194-255) -/
def allSteps {T : Type} (h : List Move) (w : MT) : Nat → List (Prepared T) → List (Micro T)
  | _, [] => []
  | base, x :: xs => x.stmt.steps (addrAfter h w) (x.lhsAddr h) base ++ allSteps h w (base + x.ops.length) xs

/-- dereferencing one component of the zip -/
def operandStep {T : Type} (h : List Move) (i : It T) : Micro T := .rd fun _ m => do
  let j ← runMoves h i
  j.derefRef m

/-- the steps for one element: dereference the zip, then run the statements -/
def windowThread {T : Type} (h : List Move) (w : MT) (ps : List (Prepared T)) : List (Micro T) :=
  (ps.flatMap (·.ops)).map (operandStep h) ++ allSteps h w 0 ps

/-- the fold `(ps.size() * ...)` (src/cuda/md_device_span.hpp:295) -/
def foldSize : List DB → M Int
  | [] => .error .illFormed
  | [x] => x.2.size
  | x :: xs => do
    let n ← foldSize xs
    let s ← x.2.size
    imul s n

/-- `with_domain(w, ps...)(ss...)` (src/cuda/md_device_span.hpp:287-315).  The window has dimensions beyond those of the
domain (otherwise `w(ps...)` is no window iterator and `it[i]` does not compile). -/
def windowExec {T : Type} (w : Span) (D : List DB) (ss : List (WStmt T)) (β : Backend) (m : Mem T) : M (Mem T) :=
  if acceptable ss = false ∨ w.geo.length ≤ D.length then .error .illFormed
  else do
    let n ← foldSize D
    let wi ← w.call D
    let ps ← ss.mapM (·.prepare D)
    let σ := β n (windowThread [] wi ps).length
    parallel (fun k => windowThread (σ.rhist k) wi ps) σ.trace m

end Verif
