import Verif.Spec.Assign
import Verif.Model.Window

/-
What window statements mean: at each point of the domain, one statement after the other, as a sequential program.
-/

namespace Verif.Spec

variable {T : Type}

/-- entry `i` of the window at point `p`: the last stored dimension counts the entries -/
def entryCell (w : Span) (p : Pt) (i : Int) : Ptr :=
  match w.geo.getLast? with
  | some (d, b) => cell w (setPt p d (b.first + i))
  | none => w.ptr

/-- number of entries of the window -/
def winLen (w : Span) : Int :=
  match w.geo.getLast? with
  | some (_, b) => b.last - b.first
  | none => 0

/-- value of a stencil expression at a point, every array where it is written -/
def proxyDen (m : Mem T) (dims : List Dim) (w : Span) (p : Pt) : Proxy T → M (Val T)
  | .entry i => do
    let x ← m.load (entryCell w p i)
    .ok (.num x)
  | .pp op u v => do
    let x ← proxyDen m dims w p u
    let y ← proxyDen m dims w p v
    op x y
  | .pn op u c => do
    let x ← proxyDen m dims w p u
    op x (.num c)
  | .np op c v => do
    let y ← proxyDen m dims w p v
    op (.num c) y
  | .pe op u e => do
    let x ← proxyDen m dims w p u
    let y ← den m dims e p
    op x y
  | .ep op e v => do
    let x ← den m dims e p
    let y ← proxyDen m dims w p v
    op x y

/-- store a number -/
def put (m : Mem T) (q : Ptr) : Val T → M (Mem T)
  | .num x => m.store q x
  | .pair _ _ => .error .illFormed

/-- one statement at point `p` -/
def doStmt (dims : List Dim) (w : Span) (p : Pt) : WStmt T → Mem T → M (Mem T)
  | .set1 i (.num t), m => put m (entryCell w p i) (.num t)
  | .set1 i (.expr e), m => do
    let x ← den m dims e p
    put m (entryCell w p i) x
  | .set1 i (.proxy u), m => do
    let x ← proxyDen m dims w p u
    put m (entryCell w p i) x
  | .set2 i j (.num t), m => do
    let m' ← put m (entryCell w p i) (.num t)
    put m' (entryCell w p j) (.num t)
  | .set2 i j (.expr e), m => do
    match ← den m dims e p with
    | .num _ => .error .illFormed
    | .pair a b => do
      let m' ← put m (entryCell w p i) (.num a)
      put m' (entryCell w p j) (.num b)
  | .set2 _ _ (.proxy _), _ => .error .illFormed
  | .self l u, m => do
    let x ← proxyDen m dims w p u
    put m (cell l p) x

/-- all statements at point `p`, in order -/
def doStmts (dims : List Dim) (w : Span) (p : Pt) : List (WStmt T) → Mem T → M (Mem T)
  | [], m => .ok m
  | s :: ss, m => do
    let m' ← doStmt dims w p s m
    doStmts dims w p ss m'

/-- stencil expressions the C++ compiler accepts, with the shape of their value -/
inductive ProxyShape : Proxy T → Shape → Prop where
  | entry {i : Int} : ProxyShape (.entry i) .num
  | pp {op : VOp T} {u v : Proxy T} {a b c : Shape} : ProxyShape u a → ProxyShape v b → OpShape op a b c → ProxyShape (.pp op u v) c
  | pn {op : VOp T} {u : Proxy T} {t : T} {a b : Shape} : ProxyShape u a → OpShape op a .num b → ProxyShape (.pn op u t) b
  | np {op : VOp T} {v : Proxy T} {t : T} {a b : Shape} : ProxyShape v a → OpShape op .num a b → ProxyShape (.np op t v) b
  | pe {op : VOp T} {u : Proxy T} {e : Expr T} {a b c : Shape} : ProxyShape u a → HasShape e b → OpShape op a b c → ProxyShape (.pe op u e) c
  | ep {op : VOp T} {e : Expr T} {v : Proxy T} {a b c : Shape} : HasShape e a → ProxyShape v b → OpShape op a b c → ProxyShape (.ep op e v) c

/-- statements whose right hand side can be assigned -/
def StmtTyped : WStmt T → Prop
  | .set1 _ (.num _) => True
  | .set1 _ (.expr e) => HasShape e .num
  | .set1 _ (.proxy u) => ProxyShape u .num
  | .set2 _ _ (.num _) => True
  | .set2 _ _ (.expr e) => HasShape e .pair
  | .set2 _ _ (.proxy _) => False
  | .self _ u => ProxyShape u .num

/-- the entries a statement assigns -/
def named : WStmt T → List Int
  | .set1 i _ => [i]
  | .set2 i j _ => [i, j]
  | .self _ _ => []

/-- cells the statements assign at point `p` -/
def stmtWrites (w : Span) (p : Pt) : WStmt T → List Ptr
  | .set1 i _ => [entryCell w p i]
  | .set2 i j _ => [entryCell w p i, entryCell w p j]
  | .self l _ => [cell l p]

/-- entries of the window a stencil expression mentions -/
def entries : Proxy T → List Int
  | .entry i => [i]
  | .pp _ u v => entries u ++ entries v
  | .pn _ u _ => entries u
  | .np _ _ v => entries v
  | .pe _ u _ => entries u
  | .ep _ _ v => entries v

/-- entries of the window a statement assigns or reads -/
def stmtEntries : WStmt T → List Int
  | .set1 i (.proxy u) => i :: entries u
  | .set1 i _ => [i]
  | .set2 i j (.proxy u) => i :: j :: entries u
  | .set2 i j _ => [i, j]
  | .self _ u => entries u

/-- cells of the window a statement reads at point `p` -/
def stmtEntryReads (w : Span) (p : Pt) : WStmt T → List Ptr
  | .set1 _ (.proxy u) => (entries u).map (entryCell w p)
  | .set2 _ _ (.proxy u) => (entries u).map (entryCell w p)
  | .self _ u => (entries u).map (entryCell w p)
  | _ => []

/-- cells of other arrays a statement reads at point `p` -/
def stmtArrayReads (tab : Ptr → Option Int) (dims : List Dim) (p : Pt) (s : WStmt T) : List Ptr :=
  s.operands.flatMap fun e => reads tab dims e p

/-- no array in a stencil expression -/
def noArray : Proxy T → Prop
  | .entry _ => True
  | .pp _ u v => noArray u ∧ noArray v
  | .pn _ u _ => noArray u
  | .np _ _ v => noArray v
  | .pe _ _ _ => False
  | .ep _ _ _ => False

/-- stencil expressions in which arrays are added one after the other, each to the right of all before it; an array may stand on
the left only of a part without arrays, and of two joined parts only one has arrays -/
def InOrder : Proxy T → Prop
  | .entry _ => True
  | .pp _ u v => (InOrder u ∧ noArray v) ∨ (noArray u ∧ InOrder v)
  | .pn _ u _ => InOrder u
  | .np _ _ v => InOrder v
  | .pe _ u _ => InOrder u
  | .ep _ _ v => noArray v

/-- cells read at point `p` -/
def allReads (tab : Ptr → Option Int) (dims : List Dim) (w : Span) (p : Pt) (ss : List (WStmt T)) (q : Ptr) : Prop :=
  ∃ s ∈ ss, q ∈ stmtEntryReads w p s ∨ q ∈ stmtArrayReads tab dims p s

/-- cells written at point `p` -/
def allWrites (w : Span) (p : Pt) (ss : List (WStmt T)) (q : Ptr) : Prop := ∃ s ∈ ss, q ∈ stmtWrites w p s

/-- the points among the first ⌊n₁/s₁⌋ · ⌊n₂/s₂⌋ · ... of the domain, nᵢ being the number of indices from the lower to the
upper end and sᵢ the stride -/
def Reached (D : List (Dim × Bounds)) (p : Pt) : Prop :=
  ∃ k, 0 ≤ k ∧ k < (D.map fun x => (x.2.last - x.2.first) / x.2.stride).prod ∧ ∀ x ∈ D, pt D k x.1 = p x.1

end Verif.Spec

namespace Verif

/-- operands that are read when a statement uses them (bare arrays); all others are read before the first statement -/
def Expr.lazy {T : Type} : Expr T → Bool
  | .acc _ => true
  | .stencil _ _ _ => true
  | .fine _ _ _ => true
  | _ => false

end Verif
