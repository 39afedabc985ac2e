import Verif.Model.Expr

/-
The parallel backend.  `thrust::copy_n`, `fill_n` and `for_each_n` handle n elements; which thread handles which element, in
which order, and how the steps of different elements interleave is left open.  An execution is a trace: a list of element
numbers, each occurrence of which performs the next step of that element.  Thrust itself is not transcribed; that its
algorithms behave in this way is trusted.
-/

namespace Verif

/-- what a thread holds: a value, or what dereferencing a plain iterator yields, a reference or a pair of references that are
read when they are used (src/cuda/matrix_traversal_iterator.hpp:108-118, src/cuda/forward_stencil_iterator.hpp:37-38, 83-86,
src/cuda/coarse_to_fine_iterator.hpp:63-66) -/
inductive Reg (T : Type) where
  | val (x : Val T)
  | ref (p : Ptr)
  | refs (p q : Ptr)

/-- the value held or referred to -/
def Reg.get {T : Type} (m : Mem T) : Reg T → M (Val T)
  | .val x => .ok x
  | .ref p => do
    let x ← m.load p
    .ok (.num x)
  | .refs p q => do
    let x ← m.load p
    let y ← m.load q
    .ok (.pair x y)

/-- one step of the work on an element: compute something from what was kept so far and from the memory, and keep it; or
store the number kept last.  All loads of one computation happen in one step. -/
inductive Micro (T : Type) where
  | rd (f : List (Reg T) → Mem T → M (Reg T))
  | wr (p : M Ptr)

/-- perform a step, given what the element keeps (in the order computed) -/
def Micro.run {T : Type} : Micro T → List (Reg T) → Mem T → M (List (Reg T) × Mem T)
  | .rd f, r, m => do
    let v ← f r m
    .ok (r ++ [v], m)
  | .wr p, r, m => do
    let q ← p
    match r.getLast? with
    | some (.val (.num v)) => do
      let m' ← m.store q v
      .ok (r, m')
    | _ => .error .illFormed

/-- memory, and for each element what it keeps and the steps still to do -/
structure PState (T : Type) where
  mem : Mem T
  reg : Int → List (Reg T)
  todo : Int → List (Micro T)

/-- the next step of element `k` -/
def PState.step {T : Type} (s : PState T) (k : Int) : M (PState T) :=
  match s.todo k with
  | [] => .error .illFormed
  | a :: as => do
    let r ← a.run (s.reg k) s.mem
    .ok ⟨r.2, fun j => if j = k then r.1 else s.reg j, fun j => if j = k then as else s.todo j⟩

def runTrace {T : Type} : List Int → PState T → M (PState T)
  | [], s => .ok s
  | k :: ks, s => do
    let s' ← s.step k
    runTrace ks s'

/-- what the backend chose for one call: the trace, and how the iterator reaches element k from the first one when the
element is read and when it is written -/
structure Sched where
  trace : List Int
  rhist : Int → List Move
  whist : Int → List Move

/-- a backend chooses for n elements with c steps each -/
abbrev Backend := Int → Nat → Sched

/-- the elements' steps executed in the order of a trace -/
def parallel {T : Type} (threads : Int → List (Micro T)) (trace : List Int) (m : Mem T) : M (Mem T) := do
  let s ← runTrace trace ⟨m, fun _ => [], threads⟩
  .ok s.mem

end Verif
