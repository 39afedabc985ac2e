import Verif.Model.Assign
import Verif.Model.Window

/-
A finer model of the same statements: every single load and store is a step of its own, so that the loads of one right hand
side are interleaved with the loads and stores of all other elements.  The code transcribed is the one of Model/Expr,
Model/Assign and Model/Window; Lemmas/Steps shows that the computations here, run without interruption, are those.
-/

namespace Verif

/-- a computation that may load: each load is a node that goes on with the value found -/
inductive Comp (T : Type) (A : Type) where
  | ret (a : A)
  | fail (e : UB)
  | load (p : Ptr) (f : T → Comp T A)
  | loadInt (p : Ptr) (f : Int → Comp T A)

namespace Comp

variable {T A B : Type}

def bind : Comp T A → (A → Comp T B) → Comp T B
  | ret a, g => g a
  | fail e, _ => fail e
  | load p f, g => load p fun v => (f v).bind g
  | loadInt p f, g => loadInt p fun v => (f v).bind g

/-- a computation that does not look at memory -/
def lift : M A → Comp T A
  | .ok a => ret a
  | .error e => fail e

/-- the computation without interruption -/
def run : Comp T A → Mem T → M A
  | ret a, _ => .ok a
  | fail e, _ => .error e
  | load p f, m => do
    let v ← m.load p
    (f v).run m
  | loadInt p f, m => do
    let v ← m.loadInt p
    (f v).run m

end Comp

instance {T : Type} : Monad (Comp T) where
  pure := Comp.ret
  bind := Comp.bind

section

variable {T : Type}

/-- load one element -/
def ldv (p : Ptr) : Comp T (Val T) := .load p fun x => .ret (.num x)

/-- load two elements -/
def ldp (p q : Ptr) : Comp T (Val T) := .load p fun x => .load q fun y => .ret (.pair x y)

/-- `offset_iterator::dereference` with its loads of the table (src/cuda/offset_iterator.hpp:35-41) -/
def offLoopC (o : Ptr) (base : Int) : Int → List Int → Int → Comp T Int
  | _, [], acc => .ret acc
  | j, s :: ss, acc => do
    let k ← .lift (iadd base j)
    .loadInt (o.add k) fun x => do
      let p ← .lift (imul s x)
      let acc' ← .lift (dadd acc p)
      offLoopC o base (j + 1) ss acc'

/-- address of element `i` of an offset iterator (src/cuda/offset_iterator.hpp:22-41, 56) -/
def offAddrC (first : Ptr) (stride : List Int) (o : Ptr) (i : Int) : Comp T Ptr := do
  let base ← .lift (imul i stride.length)
  let d ← offLoopC o base 0 stride 0
  .ret (first.add d)

/-- the loop of `dot_impl` (src/cuda/md_device_span.hpp:137-150) -/
def dotLoopC (acc : T → T → T → T) (st it : Ptr) (stride : List Int) (o : Ptr) : Nat → Int → T → Comp T T
  | 0, _, res => .ret res
  | fuel + 1, i, res => .load (st.add i) fun a => do
    let q ← offAddrC it stride o i
    .load q fun b => dotLoopC acc st it stride o fuel (i + 1) (acc res a b)

/-- dereferencing, one load at a time (src/cuda/iter_math.hpp:75-111, src/cuda/md_device_span.hpp:137-150) -/
def It.derefC : It T → Comp T (Val T)
  | mt v => do
    let p ← .lift v.addr
    ldv p
  | fs v => do
    let p ← .lift v.addrs
    ldp p.1 p.2
  | c2f v => do
    let p ← .lift v.addr
    ldv p
  | right op t i => do
    let x ← i.derefC
    .lift (op (.num t) x)
  | left op i t => do
    let x ← i.derefC
    .lift (op x (.num t))
  | zip op i j => do
    let x ← i.derefC
    let y ← j.derefC
    .lift (op x y)
  | dot z a i j s o n => do
    let p ← .lift i.addr
    let q ← .lift j.addr
    let x ← dotLoopC a p q s o n.toNat 0 z
    .ret (.num x)

/-- a step of an element split into its loads: a computation, or a store of the number kept last -/
inductive Fine (T : Type) where
  | rd (f : List (Reg T) → Comp T (Reg T))
  | wr (p : M Ptr)

/-- what is left to do for one element: a tree of single accesses -/
inductive Prog (T : Type) where
  | done
  | fail (e : UB)
  | load (p : Ptr) (f : T → Prog T)
  | loadInt (p : Ptr) (f : Int → Prog T)
  | store (p : Ptr) (v : T) (f : Prog T)

/-- a computation followed by the rest -/
def Comp.andThen {A : Type} : Comp T A → (A → Prog T) → Prog T
  | .ret a, g => g a
  | .fail e, _ => .fail e
  | .load p f, g => .load p fun v => (f v).andThen g
  | .loadInt p f, g => .loadInt p fun v => (f v).andThen g

/-- the accesses of a list of steps, given what the element keeps -/
def fineProg : List (Fine T) → List (Reg T) → Prog T
  | [], _ => .done
  | .rd f :: as, r => (f r).andThen fun v => fineProg as (r ++ [v])
  | .wr p :: as, r =>
    match p with
    | .error e => .fail e
    | .ok q =>
      match r.getLast? with
      | some (.val (.num v)) => .store q v (fineProg as r)
      | _ => .fail .illFormed

/-- memory, and what is left to do for each element -/
structure FState (T : Type) where
  mem : Mem T
  prog : Int → Prog T

/-- the next access of element `k` -/
def FState.step (s : FState T) (k : Int) : M (FState T) :=
  match s.prog k with
  | .done => .error .illFormed
  | .fail e => .error e
  | .load p f => do
    let v ← s.mem.load p
    .ok ⟨s.mem, fun j => if j = k then f v else s.prog j⟩
  | .loadInt p f => do
    let v ← s.mem.loadInt p
    .ok ⟨s.mem, fun j => if j = k then f v else s.prog j⟩
  | .store p v f => do
    let m ← s.mem.store p v
    .ok ⟨m, fun j => if j = k then f else s.prog j⟩

/-- accesses in the order of a trace of element numbers -/
def runFine : List Int → FState T → M (FState T)
  | [], s => .ok s
  | k :: ks, s => do
    let s' ← s.step k
    runFine ks s'

/-- n elements, before the first access -/
def startFine (n : Int) (threads : Int → List (Fine T)) (m : Mem T) : FState T :=
  ⟨m, fun k => if 0 ≤ k ∧ k < n then fineProg (threads k) [] else .done⟩

/-- the steps of element k of an assignment (src/cuda/md_device_span.hpp:73-83) -/
def assignFine (rd : Int → Comp T T) (out : MT) (wh : Int → List Move) (k : Int) : List (Fine T) :=
  [.rd (fun _ => do
    let x ← rd k
    .ret (.val (.num x))), .wr (do
    let o ← runMoves (wh k) out
    o.addr)]

/-- `assign_proxy::operator()(bnds...)` before the first access; `rh`, `wh`: how the iterators reach each element
(src/cuda/md_device_span.hpp:73-83) -/
def Assign.start (a : Assign T) (D : List DB) (rh wh : Int → List Move) (m : Mem T) : M (FState T) := do
  let out ← a.lhs.call D
  let n ← out.size
  match a.rhs with
  | .num t => .ok (startFine n (assignFine (fun _ => .ret t) out wh) m)
  | .expr e => do
    let v ← e.call D
    .ok (startFine n (assignFine (fun k => do
      let i ← .lift (runMoves (rh k) v)
      let x ← i.derefC
      .lift x.toNum) out wh) m)

/-! window statements -/

/-- the value held or referred to -/
def Reg.getC : Reg T → Comp T (Val T)
  | .val x => .ret x
  | .ref p => ldv p
  | .refs p q => ldp p q

/-- what dereferencing the zip yields for one component -/
def It.derefRefC : It T → Comp T (Reg T)
  | .mt v => do
    let p ← .lift v.addr
    .ret (.ref p)
  | .fs v => do
    let p ← .lift v.addrs
    .ret (.refs p.1 p.2)
  | .c2f v => do
    let p ← .lift v.addr
    .ret (.ref p)
  | i => do
    let x ← i.derefC
    .ret (.val x)

def tupleGetC (r : List (Reg T)) (base j : Nat) : Comp T (Val T) :=
  match r[base + j]? with
  | some g => g.getC
  | none => .fail .illFormed

/-- the call operator of a stencil expression (src/cuda/stencil_proxy.hpp:75-103, 163-167) -/
def Proxy.evalC (win : Int → Comp T (Val T)) (t : Nat → Comp T (Val T)) : Proxy T → Comp T (Val T)
  | .entry i => win i
  | .pp op u v => do
    let x ← u.evalC win t
    let y ← v.evalC win t
    .lift (op x y)
  | .pn op u c => do
    let x ← u.evalC win t
    .lift (op x (.num c))
  | .np op c v => do
    let y ← v.evalC win t
    .lift (op (.num c) y)
  | .pe op u e => do
    let x ← u.evalC win t
    let y ← t ((Proxy.pe op u e).index - 1)
    .lift (op x y)
  | .ep op e v => do
    let x ← t ((Proxy.ep op e v).index - 1)
    let y ← v.evalC win t
    .lift (op x y)

def setFine (f : List (Reg T) → Comp T (Val T)) (p : M Ptr) : List (Fine T) :=
  [.rd fun r => do
    let x ← f r
    let y ← .lift x.toNum
    .ret (.val (.num y)), .wr p]

def proxyValC (win : M Ptr) (base : Nat) (u : Proxy T) (r : List (Reg T)) : Comp T (Val T) :=
  u.evalC (fun i => do
    let q ← .lift (winAddr win i)
    ldv q) (tupleGetC r base)

/-- the accesses of one statement (src/cuda/stencil_proxy.hpp:265-282, 299-317, 338-342) -/
def WStmt.fine (win lhs : M Ptr) (base : Nat) : WStmt T → List (Fine T)
  | .set1 i (.num t) => setFine (fun _ => .ret (.num t)) (winAddr win i)
  | .set1 i (.expr _) => setFine (fun r => tupleGetC r base 0) (winAddr win i)
  | .set1 i (.proxy u) => setFine (proxyValC win base u) (winAddr win i)
  | .set2 i j (.num t) => setFine (fun _ => .ret (.num t)) (winAddr win i) ++ setFine (fun _ => .ret (.num t)) (winAddr win j)
  | .set2 i j (.expr _) =>
    setFine (fun r => do let x ← tupleGetC r base 0; .lift x.fst) (winAddr win i) ++
      setFine (fun r => do let x ← tupleGetC r base 0; .lift x.snd) (winAddr win j)
  | .set2 _ _ (.proxy _) => [.rd fun _ => .fail .illFormed]
  | .self _ u => setFine (proxyValC win base u) lhs

/-- the accesses of all statements: `tp_invoke`, `tp_layered_invoke` (src/cuda/stencil_proxy.hpp:194-255) -/
def allFine (h : List Move) (w : MT) : Nat → List (Prepared T) → List (Fine T)
  | _, [] => []
  | base, x :: xs => x.stmt.fine (addrAfter h w) (x.lhsAddr h) base ++ allFine h w (base + x.ops.length) xs

def operandFine (h : List Move) (i : It T) : Fine T := .rd fun _ => do
  let j ← .lift (runMoves h i)
  j.derefRefC

def windowFine (h : List Move) (w : MT) (ps : List (Prepared T)) : List (Fine T) :=
  (ps.flatMap (·.ops)).map (operandFine h) ++ allFine h w 0 ps

/-- `with_domain(w, ps...)(ss...)` before the first access (src/cuda/md_device_span.hpp:287-315) -/
def windowStart (w : Span) (D : List DB) (ss : List (WStmt T)) (rh : Int → List Move) (m : Mem T) : M (FState T) :=
  if acceptable ss = false ∨ w.geo.length ≤ D.length then .error .illFormed
  else do
    let n ← foldSize D
    let wi ← w.call D
    let ps ← ss.mapM (·.prepare D)
    .ok (startFine n (fun k => windowFine (rh k) wi ps) m)

end

end Verif
