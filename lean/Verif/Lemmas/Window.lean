import Verif.Spec.Window
import Verif.Lemmas.Assign
import Verif.Lemmas.Empty
import Verif.Lemmas.Access

namespace Verif
open Spec

variable {T : Type}

/-! ### operands -/

/-- iterators that dereference to references -/
def It.lazy : It T → Bool
  | .mt _ => true
  | .fs _ => true
  | .c2f _ => true
  | _ => false

theorem It.adv_lazy {i j : It T} {k : Int} (h : Step.adv i k = .ok j) : j.lazy = i.lazy := by
  change It.adv k i = .ok j at h
  cases i <;> simp only [It.adv] at h <;>
    (obtain ⟨x, -, h⟩ := bind_inv h) <;> first
      | (injection h with h; subst h; rfl)
      | (obtain ⟨y, -, h⟩ := bind_inv h; injection h with h; subst h; rfl)

theorem Expr.call_lazy {e : Expr T} {D : List DB} {i : It T} (h : e.call D = .ok i) : i.lazy = e.lazy := by
  cases e with
  | acc a => simp only [Expr.call] at h; obtain ⟨x, -, h⟩ := bind_inv h; injection h with h; subst h; rfl
  | stencil S d s => simp only [Expr.call] at h; obtain ⟨x, -, h⟩ := bind_inv h; injection h with h; subst h; rfl
  | right op t e => simp only [Expr.call] at h; obtain ⟨x, -, h⟩ := bind_inv h; injection h with h; subst h; rfl
  | left op t e => simp only [Expr.call] at h; obtain ⟨x, -, h⟩ := bind_inv h; injection h with h; subst h; rfl
  | zip op e f =>
    simp only [Expr.call] at h; obtain ⟨x, -, h⟩ := bind_inv h; obtain ⟨y, -, h⟩ := bind_inv h
    injection h with h; subst h; rfl
  | dot z a u v o =>
    simp only [Expr.call, Expr.callDot] at h
    split at h
    · cases h
    · obtain ⟨x, -, h⟩ := bind_inv h; obtain ⟨y, -, h⟩ := bind_inv h
      split at h
      · cases h
      · obtain ⟨z, -, h⟩ := bind_inv h; injection h with h; subst h; rfl
  | fine s r cb => simp only [Expr.call] at h; obtain ⟨x, -, h⟩ := bind_inv h; injection h with h; subst h; rfl

/-- `i` is the iterator an expression evaluates to over the domain -/
def LeadsAt (tab : Ptr → Option Int) (D : List DB) (e : Expr T) (i : It T) : Prop :=
  i.lazy = e.lazy ∧ ∃ st : Int → It T, i = st 0 ∧ FWalk (npts D) st ∧
    ∀ (m : Mem T) (k : Int), m.ints = tab → 0 ≤ k → k < npts D → (st k).deref m = den m (D.map (·.1)) e (pt D k)

theorem leadsAt {tab : Ptr → Option Int} {D : List DB} (hD : DomInt D) {e : Expr T} (h : ExprOK tab D e) :
    ∃ i, e.call D = .ok i ∧ LeadsAt tab D e i := by
  obtain ⟨st, h1, h2, h3⟩ := leads_expr hD h
  exact ⟨st 0, h1, Expr.call_lazy h1, st, rfl, h2, h3⟩

/-- what an element keeps for an operand: reads as the operand's value, now or later -/
structure GetOK (tab : Ptr → Option Int) (dims : List Dim) (p : Pt) (R W : Ptr → Prop) (m0 : Mem T) (e : Expr T) (g : Reg T) : Prop where
  get : ∀ m : Mem T, m.ints = tab → (e.lazy = false → ∀ q ∈ reads tab dims e p, m.val q = m0.val q) → g.get m = den m dims e p
  loc : ∀ m m' : Mem T, m.ints = tab → Agree (fun q => R q ∨ W q) m m' → g.get m = g.get m'

/-- dereferencing a component of the zip -/
theorem derefRef_ok {tab : Ptr → Option Int} {D : List DB} {e : Expr T} {i : It T} (hl : LeadsAt tab D e i) {n k : Int}
    (hn : n ≤ npts D) (hN : npts D ≤ 2147483647) {h : List Move} (hf : Fwd n 0 h) (hk : net h = k) (k0 : 0 ≤ k) (k1 : k < n)
    {R W : Ptr → Prop} (hR : ∀ q ∈ reads tab (D.map (·.1)) e (pt D k), R q) {m0 : Mem T} (hm0 : m0.ints = tab)
    {m1 : Mem T} {x : Val T} (hm1 : m1.ints = tab) (hag : e.lazy = false → ∀ q ∈ reads tab (D.map (·.1)) e (pt D k), m1.val q = m0.val q)
    (hx : den m1 (D.map (·.1)) e (pt D k) = .ok x) (r : List (Reg T)) :
    ∃ g, Safe tab R W [operandStep h i] r m0 (r ++ [g], m0) ∧ GetOK tab (D.map (·.1)) (pt D k) R W m0 e g := by
  obtain ⟨hlz, st, rfl, hw, hd⟩ := hl
  have hw' : FWalk n st := ⟨fun a b => hw.inc a (by omega), fun a b c => hw.adv a b (by omega)⟩
  have hrun : runMoves h (st 0) = .ok (st k) := by
    have := hw'.run (by omega) hf
    rwa [zero_add, hk] at this
  have hlk : (st k).lazy = e.lazy := by
    rw [← hlz]
    have := hw.adv (k := 0) (d := k) (le_refl _) k0 (by omega)
    rw [zero_add] at this
    exact It.adv_lazy this
  have hdk := fun (m : Mem T) (hm : m.ints = tab) => hd m k hm k0 (by omega)
  have hcong : ∀ m m' : Mem T, m.ints = tab → Agree (fun q => R q ∨ W q) m m' →
      den m (D.map (·.1)) e (pt D k) = den m' (D.map (·.1)) e (pt D k) := by
    intro m m' hm ha
    refine den_congr ha.1 fun q hq => ha.2 q (Or.inl (hR q ?_))
    rwa [hm] at hq
  -- the value kept, provided it does not depend on memory and reads as the operand's value
  have fin : ∀ g : Reg T, (∀ m : Mem T, m.ints = tab → (e.lazy = false → ∀ q ∈ reads tab (D.map (·.1)) e (pt D k), m.val q = m0.val q) →
      (st k).derefRef m = .ok g) → (∀ m m' : Mem T, m.ints = tab → Agree (fun q => R q ∨ W q) m m' → (st k).derefRef m = (st k).derefRef m') →
      GetOK tab (D.map (·.1)) (pt D k) R W m0 e g →
      ∃ g, Safe tab R W [operandStep h (st 0)] r m0 (r ++ [g], m0) ∧ GetOK tab (D.map (·.1)) (pt D k) R W m0 e g := by
    intro g h1 h2 h3
    refine ⟨g, ⟨?_, (r ++ [g], m0), ?_, rfl⟩, h3⟩
    · intro m m' hm ha
      dsimp only
      rw [hrun, M.ok_bind, M.ok_bind]
      exact h2 m m' hm ha
    · simp only [operandStep, Micro.run]
      rw [hrun, M.ok_bind, h1 m0 hm0 (fun _ _ _ => rfl)]
      rfl
  cases hst : st k with
  | mt v =>
    rw [hst] at hdk hlk fin
    have hx' := hdk m1 hm1
    rw [hx] at hx'
    simp only [It.deref] at hx'
    obtain ⟨q, hq, -⟩ := bind_inv hx'
    have hg : ∀ m : Mem T, m.ints = tab → (Reg.ref q).get m = den m (D.map (·.1)) e (pt D k) := by
      intro m hm
      rw [← hdk m hm]
      simp only [It.deref, hq, M.ok_bind, Reg.get]
    refine fin (.ref q) (fun m _ _ => by simp only [It.derefRef, hq, M.ok_bind]) (fun _ _ _ _ => rfl)
      ⟨fun m hm _ => hg m hm, fun m m' hm ha => ?_⟩
    rw [hg m hm, hg m' (ha.1.symm.trans hm)]; exact hcong m m' hm ha
  | fs v =>
    rw [hst] at hdk hlk fin
    have hx' := hdk m1 hm1
    rw [hx] at hx'
    simp only [It.deref] at hx'
    obtain ⟨q, hq, -⟩ := bind_inv hx'
    have hg : ∀ m : Mem T, m.ints = tab → (Reg.refs q.1 q.2).get m = den m (D.map (·.1)) e (pt D k) := by
      intro m hm
      rw [← hdk m hm]
      simp only [It.deref, hq, M.ok_bind, Reg.get]
    refine fin (.refs q.1 q.2) (fun m _ _ => by simp only [It.derefRef, hq, M.ok_bind]) (fun _ _ _ _ => rfl)
      ⟨fun m hm _ => hg m hm, fun m m' hm ha => ?_⟩
    rw [hg m hm, hg m' (ha.1.symm.trans hm)]; exact hcong m m' hm ha
  | c2f v =>
    rw [hst] at hdk hlk fin
    have hx' := hdk m1 hm1
    rw [hx] at hx'
    simp only [It.deref] at hx'
    obtain ⟨q, hq, -⟩ := bind_inv hx'
    have hg : ∀ m : Mem T, m.ints = tab → (Reg.ref q).get m = den m (D.map (·.1)) e (pt D k) := by
      intro m hm
      rw [← hdk m hm]
      simp only [It.deref, hq, M.ok_bind, Reg.get]
    refine fin (.ref q) (fun m _ _ => by simp only [It.derefRef, hq, M.ok_bind]) (fun _ _ _ _ => rfl)
      ⟨fun m hm _ => hg m hm, fun m m' hm ha => ?_⟩
    rw [hg m hm, hg m' (ha.1.symm.trans hm)]; exact hcong m m' hm ha
  | right op t i =>
    rw [hst] at hdk hlk fin
    exact eager hx hm1 hm0 hag hlk.symm hdk fin (fun m => rfl) hcong
  | left op i t =>
    rw [hst] at hdk hlk fin
    exact eager hx hm1 hm0 hag hlk.symm hdk fin (fun m => rfl) hcong
  | zip op i j =>
    rw [hst] at hdk hlk fin
    exact eager hx hm1 hm0 hag hlk.symm hdk fin (fun m => rfl) hcong
  | dot z a i j s o n =>
    rw [hst] at hdk hlk fin
    exact eager hx hm1 hm0 hag hlk.symm hdk fin (fun m => rfl) hcong
where
  eager {tab : Ptr → Option Int} {dims : List Dim} {e : Expr T} {p : Pt} {j : It T} {R W : Ptr → Prop} {m0 m1 : Mem T} {x : Val T} {P : Prop}
      (hx : den m1 dims e p = .ok x) (hm1 : m1.ints = tab) (hm0 : m0.ints = tab)
      (hag : e.lazy = false → ∀ q ∈ reads tab dims e p, m1.val q = m0.val q) (hl : e.lazy = false)
      (hd : ∀ m : Mem T, m.ints = tab → j.deref m = den m dims e p)
      (fin : ∀ g : Reg T, (∀ m : Mem T, m.ints = tab → (e.lazy = false → ∀ q ∈ reads tab dims e p, m.val q = m0.val q) →
        j.derefRef m = .ok g) → (∀ m m' : Mem T, m.ints = tab → Agree (fun q => R q ∨ W q) m m' → j.derefRef m = j.derefRef m') →
        GetOK tab dims p R W m0 e g → P)
      (hr : ∀ m, j.derefRef m = (do let x ← j.deref m; .ok (.val x))) (hcong : ∀ m m' : Mem T, m.ints = tab → Agree (fun q => R q ∨ W q) m m' →
        den m dims e p = den m' dims e p) : P := by
    have hval : ∀ m : Mem T, m.ints = tab → (e.lazy = false → ∀ q ∈ reads tab dims e p, m.val q = m0.val q) → den m dims e p = .ok x := by
      intro m hm h
      rw [← hx]
      refine den_congr (hm.trans hm1.symm) fun q hq => ?_
      rw [hm] at hq
      rw [h hl q hq, hag hl q hq]
    refine fin (.val x) (fun m hm h => ?_) (fun m m' hm ha => ?_) ⟨fun m hm h => ?_, fun _ _ _ _ => rfl⟩
    · rw [hr, hd m hm, hval m hm h]; rfl
    · rw [hr, hr, hd m hm, hd m' (ha.1.symm.trans hm), hcong m m' hm ha]
    · rw [hval m hm h]; rfl


/-! ### the sequential program -/

theorem store_inv {m m' : Mem T} {q : Ptr} {x : T} (h : m.store q x = .ok m') :
    m' = { m with val := fun z => if z = q then some x else m.val z } ∧ ∃ v, m.val q = some v := by
  unfold Mem.store at h
  split at h
  · rename_i v hv
    injection h with h
    exact ⟨h.symm, v, hv⟩
  · cases h

theorem put_inv {m m' : Mem T} {q : Ptr} {x : Val T} (h : put m q x = .ok m') : ∃ y, x = .num y ∧ m.store q y = .ok m' := by
  cases x with
  | num y => exact ⟨y, rfl, h⟩
  | pair a b => cases h

/-- only the given cells may have changed -/
def Only (F : Ptr → Prop) (m m' : Mem T) : Prop := m'.ints = m.ints ∧ ∀ q, ¬ F q → m'.val q = m.val q

theorem Only.refl {F : Ptr → Prop} {m : Mem T} : Only F m m := ⟨rfl, fun _ _ => rfl⟩

theorem Only.trans {F : Ptr → Prop} {m m' m'' : Mem T} (h : Only F m m') (h' : Only F m' m'') : Only F m m'' :=
  ⟨h'.1.trans h.1, fun q hq => (h'.2 q hq).trans (h.2 q hq)⟩

theorem Only.mono {F G : Ptr → Prop} {m m' : Mem T} (h : Only F m m') (hs : ∀ q, F q → G q) : Only G m m' :=
  ⟨h.1, fun q hq => h.2 q fun hf => hq (hs q hf)⟩

theorem put_only {m m' : Mem T} {q : Ptr} {x : Val T} (h : put m q x = .ok m') : Only (· = q) m m' := by
  obtain ⟨y, -, h⟩ := put_inv h
  obtain ⟨rfl, -⟩ := store_inv h
  exact ⟨rfl, fun z hz => by simp [hz]⟩

theorem doStmt_only {dims : List Dim} {w : Span} {p : Pt} {s : WStmt T} {m m' : Mem T} (h : doStmt dims w p s m = .ok m') :
    Only (· ∈ stmtWrites w p s) m m' := by
  have one : ∀ {q : Ptr} {x : Val T} {l : List Ptr} {m m' : Mem T}, put m q x = .ok m' → q ∈ l → Only (· ∈ l) m m' := by
    intro q x l m m' h hq
    exact (put_only h).mono fun z hz => by rw [hz]; exact hq
  cases s with
  | set1 i r =>
    cases r with
    | num t => simp only [doStmt] at h; exact one h (by simp [stmtWrites])
    | expr e => simp only [doStmt] at h; obtain ⟨x, -, h⟩ := bind_inv h; exact one h (by simp [stmtWrites])
    | proxy u => simp only [doStmt] at h; obtain ⟨x, -, h⟩ := bind_inv h; exact one h (by simp [stmtWrites])
  | set2 i j r =>
    cases r with
    | num t =>
      simp only [doStmt] at h; obtain ⟨x, h1, h⟩ := bind_inv h
      exact (one h1 (by simp [stmtWrites])).trans (one h (by simp [stmtWrites]))
    | expr e =>
      simp only [doStmt] at h; obtain ⟨x, -, h⟩ := bind_inv h
      cases x with
      | num a => cases h
      | pair a b =>
        simp only at h
        obtain ⟨x, h1, h⟩ := bind_inv h
        exact (one h1 (by simp [stmtWrites])).trans (one h (by simp [stmtWrites]))
    | proxy u => cases h
  | self l u => simp only [doStmt] at h; obtain ⟨x, -, h⟩ := bind_inv h; exact one h (by simp [stmtWrites])

theorem proxyDen_used {m : Mem T} {dims : List Dim} {w : Span} {p : Pt} : ∀ {u : Proxy T} {x : Val T}, proxyDen m dims w p u = .ok x →
    ∀ e ∈ u.iters, ∃ y, den m dims e p = .ok y
  | .entry i, x, h => by intro e he; cases he
  | .pp op u v, x, h => by
    simp only [proxyDen] at h
    obtain ⟨a, h1, h⟩ := bind_inv h
    obtain ⟨b, h2, h⟩ := bind_inv h
    intro e he
    simp only [Proxy.iters, List.mem_append] at he
    rcases he with he | he
    · exact proxyDen_used h1 e he
    · exact proxyDen_used h2 e he
  | .pn op u c, x, h => by
    simp only [proxyDen] at h
    obtain ⟨a, h1, h⟩ := bind_inv h
    exact proxyDen_used (u := u) h1
  | .np op c v, x, h => by
    simp only [proxyDen] at h
    obtain ⟨a, h1, h⟩ := bind_inv h
    exact proxyDen_used (u := v) h1
  | .pe op u f, x, h => by
    simp only [proxyDen] at h
    obtain ⟨a, h1, h⟩ := bind_inv h
    obtain ⟨b, h2, h⟩ := bind_inv h
    intro e he
    simp only [Proxy.iters, List.mem_append, List.mem_singleton] at he
    rcases he with he | rfl
    · exact proxyDen_used h1 e he
    · exact ⟨b, h2⟩
  | .ep op f v, x, h => by
    simp only [proxyDen] at h
    obtain ⟨a, h1, h⟩ := bind_inv h
    obtain ⟨b, h2, h⟩ := bind_inv h
    intro e he
    simp only [Proxy.iters, List.mem_cons] at he
    rcases he with rfl | he
    · exact ⟨a, h1⟩
    · exact proxyDen_used h2 e he

theorem doStmt_used {dims : List Dim} {w : Span} {p : Pt} {s : WStmt T} {m m' : Mem T} (h : doStmt dims w p s m = .ok m') :
    ∀ e ∈ s.operands, ∃ y, den m dims e p = .ok y := by
  cases s with
  | set1 i r =>
    cases r with
    | num t => intro e he; cases he
    | expr f =>
      simp only [doStmt] at h; obtain ⟨x, h1, h⟩ := bind_inv h
      intro e he
      simp only [WStmt.operands, List.mem_singleton] at he
      subst he; exact ⟨x, h1⟩
    | proxy u => simp only [doStmt] at h; obtain ⟨x, h1, h⟩ := bind_inv h; exact proxyDen_used h1
  | set2 i j r =>
    cases r with
    | num t => intro e he; cases he
    | expr f =>
      simp only [doStmt] at h; obtain ⟨x, h1, h⟩ := bind_inv h
      intro e he
      simp only [WStmt.operands, List.mem_singleton] at he
      subst he; exact ⟨x, h1⟩
    | proxy u => cases h
  | self l u => simp only [doStmt] at h; obtain ⟨x, h1, h⟩ := bind_inv h; exact proxyDen_used h1

theorem doStmts_used {dims : List Dim} {w : Span} {p : Pt} : ∀ {ss : List (WStmt T)} {m m' : Mem T}, doStmts dims w p ss m = .ok m' →
    ∀ s ∈ ss, ∀ e ∈ s.operands, ∃ m1 y, Only (· ∈ ss.flatMap (stmtWrites w p)) m m1 ∧ den m1 dims e p = .ok y
  | [], m, m', h, s, hs => by cases hs
  | t :: ss, m, m', h, s, hs => by
    simp only [doStmts] at h
    obtain ⟨m1, h1, h⟩ := bind_inv h
    intro e he
    rcases List.mem_cons.1 hs with rfl | hs
    · obtain ⟨y, hy⟩ := doStmt_used h1 e he
      exact ⟨m, y, Only.refl, hy⟩
    · obtain ⟨m2, y, h2, hy⟩ := doStmts_used h s hs e he
      refine ⟨m2, y, ((doStmt_only h1).mono ?_).trans (h2.mono ?_), hy⟩
      · intro q hq; exact List.mem_flatMap.2 ⟨t, List.mem_cons_self, hq⟩
      · intro q hq; rw [List.flatMap_cons]; exact List.mem_append_right _ hq

/-! ### operands in stencil expressions -/

/-- every array operand looks at its own place in the tuple, the tuple of `u` starting at `off` -/
def Matched : Proxy T → Nat → Prop
  | .entry _, _ => True
  | .pp _ u v, off => Matched u off ∧ Matched v (off + u.iters.length)
  | .pn _ u _, off => Matched u off
  | .np _ _ v, off => Matched v off
  | .pe _ u _, off => Matched u off ∧ u.index = off + u.iters.length
  | .ep _ _ v, off => v.index = off ∧ Matched v (off + 1)

theorem noArray_iters : ∀ {u : Proxy T}, noArray u ↔ u.iters = []
  | .entry _ => by simp [noArray, Proxy.iters]
  | .pp _ u v => by simp only [noArray, Proxy.iters, List.append_eq_nil_iff]; rw [noArray_iters, noArray_iters]
  | .pn _ u _ => by simp only [noArray, Proxy.iters]; exact noArray_iters
  | .np _ _ v => by simp only [noArray, Proxy.iters]; exact noArray_iters
  | .pe _ u e => by simp [noArray, Proxy.iters]
  | .ep _ e v => by simp [noArray, Proxy.iters]

theorem noArray_index : ∀ {u : Proxy T}, noArray u → u.index = 0
  | .entry _, _ => rfl
  | .pp _ u v, h => by
    simp only [Proxy.index]; rw [noArray_index (u := u) h.1, noArray_index (u := v) h.2]; rfl
  | .pn _ u _, h => noArray_index (u := u) h
  | .np _ _ v, h => noArray_index (u := v) h
  | .pe _ _ _, h => h.elim
  | .ep _ _ _, h => h.elim

theorem noArray_matched : ∀ {u : Proxy T} {off : Nat}, noArray u → Matched u off
  | .entry _, _, _ => trivial
  | .pp _ _ _, _, h => ⟨noArray_matched h.1, noArray_matched h.2⟩
  | .pn _ u _, _, h => noArray_matched (u := u) h
  | .np _ _ v, _, h => noArray_matched (u := v) h
  | .pe _ _ _, _, h => h.elim
  | .ep _ _ _, _, h => h.elim

theorem inOrder_index : ∀ {u : Proxy T}, InOrder u → u.index = u.iters.length
  | .entry _, _ => rfl
  | .pp _ u v, h => by
    simp only [Proxy.index, Proxy.iters, List.length_append]
    rcases h with ⟨h1, h2⟩ | ⟨h1, h2⟩
    · rw [noArray_index h2, noArray_iters.1 h2, inOrder_index h1]; simp
    · rw [noArray_index h1, noArray_iters.1 h1, inOrder_index h2, List.length_nil]; split <;> omega
  | .pn _ u _, h => inOrder_index (u := u) h
  | .np _ _ v, h => inOrder_index (u := v) h
  | .pe _ u _, h => by simp only [Proxy.index, Proxy.iters, List.length_append, List.length_singleton]; rw [inOrder_index (u := u) h]
  | .ep _ _ v, h => by simp only [Proxy.index, Proxy.iters]; rw [noArray_index h, noArray_iters.1 h]; rfl

theorem _root_.Verif.Spec.InOrder.matched : ∀ {u : Proxy T}, InOrder u → Matched u 0
  | .entry _, _ => trivial
  | .pp _ u v, h => by
    simp only [Matched]
    rcases h with ⟨h1, h2⟩ | ⟨h1, h2⟩
    · exact ⟨h1.matched, noArray_matched h2⟩
    · rw [noArray_iters.1 h1]; exact ⟨noArray_matched h1, h2.matched⟩
  | .pn _ u _, h => InOrder.matched (u := u) h
  | .np _ _ v, h => InOrder.matched (u := v) h
  | .pe _ u _, h => ⟨InOrder.matched (u := u) h, by rw [inOrder_index (u := u) h]; omega⟩
  | .ep _ _ v, h => ⟨noArray_index h, noArray_matched h⟩

theorem matched_inv : ∀ {u : Proxy T} {off : Nat}, Matched u off → noArray u ∨ (off = 0 ∧ InOrder u)
  | .entry _, _, _ => .inl trivial
  | .pp _ u v, off, h => by
    rcases matched_inv h.1 with h1 | ⟨rfl, h1⟩
    · rcases matched_inv h.2 with h2 | ⟨h0, h2⟩
      · exact .inl ⟨h1, h2⟩
      · exact .inr ⟨by omega, .inr ⟨h1, h2⟩⟩
    · rcases matched_inv h.2 with h2 | ⟨h0, h2⟩
      · exact .inr ⟨rfl, .inl ⟨h1, h2⟩⟩
      · refine .inr ⟨rfl, .inr ⟨noArray_iters.2 (List.length_eq_zero_iff.1 (by omega)), h2⟩⟩
  | .pn _ u _, off, h => matched_inv (u := u) h
  | .np _ _ v, off, h => matched_inv (u := v) h
  | .pe _ u _, off, h => by
    rcases matched_inv h.1 with h1 | ⟨rfl, h1⟩
    · have := h.2
      rw [noArray_index h1, noArray_iters.1 h1] at this
      exact .inr ⟨by simpa using this.symm, noArray_inOrder (u := u) h1⟩
    · exact .inr ⟨rfl, h1⟩
  | .ep _ _ v, off, h => by
    rcases matched_inv h.2 with h1 | ⟨h0, -⟩
    · have := h.1
      rw [noArray_index h1] at this
      exact .inr ⟨this.symm, h1⟩
    · omega
where
  noArray_inOrder : ∀ {u : Proxy T}, noArray u → InOrder u
    | .entry _, _ => trivial
    | .pp _ _ _, h => .inl ⟨noArray_inOrder h.1, h.2⟩
    | .pn _ u _, h => noArray_inOrder (u := u) h
    | .np _ _ v, h => noArray_inOrder (u := v) h
    | .pe _ _ _, h => h.elim
    | .ep _ _ _, h => h.elim

theorem eval_matched {m : Mem T} {dims : List Dim} {w : Span} {p : Pt} {win : Int → M (Val T)} {t : Nat → M (Val T)} :
    ∀ {u : Proxy T} {off : Nat}, Matched u off → (∀ i ∈ entries u, win i = do let x ← m.load (entryCell w p i); .ok (.num x)) →
      (∀ j e, u.iters[j]? = some e → t (off + j) = den m dims e p) → u.eval win t = proxyDen m dims w p u
  | .entry i, off, hm, hw, ht => by
    simp only [Proxy.eval, proxyDen]; exact hw i (by simp [entries])
  | .pp op u v, off, hm, hw, ht => by
    simp only [entries, List.mem_append] at hw
    simp only [Proxy.eval, proxyDen]
    rw [eval_matched hm.1 (fun i hi => hw i (Or.inl hi)) fun j e he => ht j e (by
        simp only [Proxy.iters]
        have : j < u.iters.length := by rw [List.getElem?_eq_some_iff] at he; exact he.1
        rw [List.getElem?_append_left this]; exact he),
      eval_matched hm.2 (fun i hi => hw i (Or.inr hi)) fun j e he => by
        rw [← ht (u.iters.length + j) e (by
          simp only [Proxy.iters]
          rw [List.getElem?_append_right (by omega), Nat.add_sub_cancel_left]; exact he), Nat.add_assoc]]
  | .pn op u c, off, hm, hw, ht => by
    simp only [Proxy.eval, proxyDen]; rw [eval_matched (u := u) hm hw ht]
  | .np op c v, off, hm, hw, ht => by
    simp only [Proxy.eval, proxyDen]; rw [eval_matched (u := v) hm hw ht]
  | .pe op u f, off, hm, hw, ht => by
    simp only [Proxy.eval, proxyDen, Proxy.index, Nat.add_sub_cancel]
    rw [eval_matched hm.1 hw fun j e he => ht j e (by
        simp only [Proxy.iters]
        have : j < u.iters.length := by rw [List.getElem?_eq_some_iff] at he; exact he.1
        rw [List.getElem?_append_left this]; exact he), hm.2, ht u.iters.length f (by simp [Proxy.iters])]
  | .ep op f v, off, hm, hw, ht => by
    simp only [Proxy.eval, proxyDen, Proxy.index, Nat.add_sub_cancel]
    rw [hm.1]
    have := ht 0 f (by simp [Proxy.iters])
    rw [Nat.add_zero] at this
    rw [this, eval_matched hm.2 hw fun j e he => by
      rw [← ht (j + 1) e (by simpa [Proxy.iters] using he)]; congr 1; omega]

theorem eval_congr {win win' : Int → M (Val T)} {t t' : Nat → M (Val T)} : ∀ {u : Proxy T} {off : Nat}, Matched u off →
    (∀ i ∈ entries u, win i = win' i) → (∀ j, j < u.iters.length → t (off + j) = t' (off + j)) → u.eval win t = u.eval win' t'
  | .entry i, off, hm, hw, ht => hw i (by simp [entries])
  | .pp op u v, off, hm, hw, ht => by
    simp only [entries, List.mem_append] at hw
    simp only [Proxy.iters, List.length_append] at ht
    simp only [Proxy.eval]
    rw [eval_congr hm.1 (fun i hi => hw i (Or.inl hi)) fun j hj => ht j (by omega),
      eval_congr (win' := win') (t' := t') hm.2 (fun i hi => hw i (Or.inr hi)) fun j hj => by rw [Nat.add_assoc]; exact ht _ (by omega)]
  | .pn op u c, off, hm, hw, ht => by simp only [Proxy.eval]; rw [eval_congr (u := u) hm hw ht]
  | .np op c v, off, hm, hw, ht => by simp only [Proxy.eval]; rw [eval_congr (u := v) hm hw ht]
  | .pe op u f, off, hm, hw, ht => by
    simp only [Proxy.iters, List.length_append, List.length_singleton] at ht
    simp only [Proxy.eval, Proxy.index, Nat.add_sub_cancel]
    rw [eval_congr hm.1 hw fun j hj => ht j (by omega), hm.2, ht u.iters.length (by omega)]
  | .ep op f v, off, hm, hw, ht => by
    simp only [Proxy.iters, List.length_cons] at ht
    simp only [Proxy.eval, Proxy.index, Nat.add_sub_cancel]
    have := ht 0 (by omega)
    rw [Nat.add_zero] at this
    rw [hm.1, this, eval_congr (win' := win') (t' := t') hm.2 hw fun j hj => by
      have := ht (j + 1) (by omega)
      rwa [← Nat.add_assoc, Nat.add_right_comm] at this]


/-! ### the steps of one element -/

theorem setStep_safe {tab : Ptr → Option Int} {R W : Ptr → Prop} {f : List (Reg T) → Mem T → M (Val T)} {r : List (Reg T)} {m m' : Mem T}
    {q : Ptr} {x : Val T} (hloc : ∀ m1 m2 : Mem T, m1.ints = tab → Agree (fun q => R q ∨ W q) m1 m2 → f r m1 = f r m2)
    (hf : f r m = .ok x) (hq : W q) (hs : put m q x = .ok m') :
    ∃ g, Safe tab R W (setStep f (.ok q)) r m (r ++ [g], m') := by
  obtain ⟨y, rfl, hst⟩ := put_inv hs
  show ∃ g, _ ∧ _
  refine ⟨.val (.num y), fun m1 m2 h1 h2 => ?_, (r ++ [Reg.val (Val.num y)], m), ?_, ⟨q, rfl, hq⟩, (r ++ [Reg.val (Val.num y)], m'), ?_, rfl⟩
  · dsimp only
    rw [hloc m1 m2 h1 h2]
  · simp only [Micro.run, hf, M.ok_bind, Val.toNum]
  · simp only [Micro.run, M.ok_bind, List.getLast?_concat, hst]

/-- what the statements see -/
structure Around (tab : Ptr → Option Int) (dims : List Dim) (w : Span) (p : Pt) (R W : Ptr → Prop) (m0 : Mem T) (s : WStmt T) : Prop where
  writes : ∀ q ∈ stmtWrites w p s, W q
  entries : ∀ q ∈ stmtEntryReads w p s, R q
  arrays : ∀ q ∈ stmtArrayReads tab dims p s, R q
  matched : ∀ i u, s = .set1 i (.proxy u) → Matched u 0
  matchedSelf : ∀ l u, s = .self l u → Matched u 0
  before : ∀ e ∈ s.operands, e.lazy = false → ∀ q ∈ reads tab dims e p, ¬ W q
  pair : ∀ i j e, s = .set2 i j (.expr e) → ∀ q ∈ reads tab dims e p, ¬ W q

/-- what the element keeps for the operands `es`, from place `base` on -/
def Kept (tab : Ptr → Option Int) (dims : List Dim) (p : Pt) (R W : Ptr → Prop) (m0 : Mem T) (r : List (Reg T)) (base : Nat)
    (es : List (Expr T)) : Prop :=
  ∀ j e, es[j]? = some e → ∃ g, r[base + j]? = some g ∧ GetOK tab dims p R W m0 e g

theorem Kept.append {tab : Ptr → Option Int} {dims : List Dim} {p : Pt} {R W : Ptr → Prop} {m0 : Mem T} {r : List (Reg T)} {base : Nat}
    {es : List (Expr T)} (h : Kept tab dims p R W m0 r base es) (x : List (Reg T)) : Kept tab dims p R W m0 (r ++ x) base es := by
  intro j e he
  obtain ⟨g, h1, h2⟩ := h j e he
  refine ⟨g, ?_, h2⟩
  rw [List.getElem?_append_left (List.getElem?_eq_some_iff.1 h1).1]; exact h1

theorem Kept.val {tab : Ptr → Option Int} {dims : List Dim} {p : Pt} {R W : Ptr → Prop} {m0 m : Mem T} {r : List (Reg T)} {base : Nat}
    {es : List (Expr T)} (h : Kept tab dims p R W m0 r base es) (hb : ∀ e ∈ es, e.lazy = false → ∀ q ∈ reads tab dims e p, ¬ W q)
    (hm0 : m0.ints = tab) (hm : Only W m0 m) {j : Nat} {e : Expr T} (he : es[j]? = some e) :
    tupleGet r m base j = den m dims e p := by
  obtain ⟨g, h1, h2⟩ := h j e he
  unfold tupleGet
  rw [h1]
  exact h2.get m (hm.1.trans hm0) fun hl q hq => hm.2 q (hb e (List.mem_of_getElem? he) hl q hq)

theorem Kept.loc {tab : Ptr → Option Int} {dims : List Dim} {p : Pt} {R W : Ptr → Prop} {m0 m1 m2 : Mem T} {r : List (Reg T)} {base : Nat}
    {es : List (Expr T)} (h : Kept tab dims p R W m0 r base es) (h1 : m1.ints = tab) (ha : Agree (fun q => R q ∨ W q) m1 m2)
    {j : Nat} (hj : j < es.length) : tupleGet r m1 base j = tupleGet r m2 base j := by
  obtain ⟨g, g1, g2⟩ := h j es[j] (List.getElem?_eq_getElem hj)
  unfold tupleGet
  rw [g1]
  exact g2.loc m1 m2 h1 ha

theorem stmt_safe {tab : Ptr → Option Int} {dims : List Dim} {w : Span} {p : Pt} {R W : Ptr → Prop} {m0 m m' : Mem T} {s : WStmt T}
    {base : Nat} {win lhs : M Ptr} {r : List (Reg T)} (hm0 : m0.ints = tab) (h : Around tab dims w p R W m0 s)
    (hk : Kept tab dims p R W m0 r base s.operands) (hwin : ∀ i, winAddr win i = .ok (entryCell w p i))
    (hlhs : ∀ l u, s = .self l u → lhs = .ok (cell l p)) (hm : Only W m0 m) (hdo : doStmt dims w p s m = .ok m') :
    ∃ x, Safe tab R W (s.steps win lhs base) r m (r ++ x, m') := by
  -- proxies
  have hproxy : ∀ u : Proxy T, s.operands = u.iters → Matched u 0 → (∀ i ∈ Spec.entries u, R (entryCell w p i)) →
      (∀ m1 m2 : Mem T, m1.ints = tab → Agree (fun q => R q ∨ W q) m1 m2 → proxyVal win base u r m1 = proxyVal win base u r m2) ∧
      proxyVal win base u r m = proxyDen m dims w p u := by
    intro u hu hM hR
    rw [hu] at hk
    constructor
    · intro m1 m2 h1 h2
      unfold proxyVal
      refine eval_congr hM (fun i hi => ?_) fun j hj => ?_
      · rw [hwin i, M.ok_bind, M.ok_bind, load_congr (h2.2 _ (Or.inl (hR i hi)))]
      · rw [Nat.zero_add]; exact hk.loc h1 h2 hj
    · unfold proxyVal
      refine eval_matched hM (fun i _ => ?_) fun j e he => ?_
      · rw [hwin i, M.ok_bind]
      · rw [Nat.zero_add]
        exact hk.val (by rw [← hu]; exact h.before) hm0 hm he
  cases s with
  | set1 i rr =>
    have hW : W (entryCell w p i) := h.writes _ (by simp [stmtWrites])
    cases rr with
    | num t =>
      simp only [doStmt] at hdo
      simp only [WStmt.steps]
      rw [hwin i]
      obtain ⟨g, hg⟩ := setStep_safe (tab := tab) (R := R) (W := W) (f := fun _ _ => .ok (.num t)) (r := r) (fun _ _ _ _ => rfl) rfl hW hdo
      exact ⟨[g], hg⟩
    | expr e =>
      simp only [doStmt] at hdo
      obtain ⟨x, h1, h2⟩ := bind_inv hdo
      simp only [WStmt.steps]
      rw [hwin i]
      obtain ⟨g, hg⟩ := setStep_safe (tab := tab) (R := R) (W := W) (f := fun r m => tupleGet r m base 0) (r := r)
        (fun m1 m2 a b => hk.loc a b (by simp [WStmt.operands])) (by
          rw [hk.val h.before hm0 hm (j := 0) (e := e) (by simp [WStmt.operands]), h1]) hW h2
      exact ⟨[g], hg⟩
    | proxy u =>
      simp only [doStmt] at hdo
      obtain ⟨x, h1, h2⟩ := bind_inv hdo
      simp only [WStmt.steps]
      rw [hwin i]
      obtain ⟨p1, p2⟩ := hproxy u rfl (h.matched i u rfl) fun i hi => h.entries _ (by
        simp only [stmtEntryReads]; exact List.mem_map_of_mem hi)
      obtain ⟨g, hg⟩ := setStep_safe (tab := tab) (R := R) (W := W) (f := proxyVal win base u) (r := r) p1 (p2.trans h1) hW h2
      exact ⟨[g], hg⟩
  | set2 i j rr =>
    have hW : W (entryCell w p i) := h.writes _ (by simp [stmtWrites])
    have hW' : W (entryCell w p j) := h.writes _ (by simp [stmtWrites])
    cases rr with
    | num t =>
      simp only [doStmt] at hdo
      obtain ⟨m1, h1, h2⟩ := bind_inv hdo
      simp only [WStmt.steps]
      rw [hwin i, hwin j]
      obtain ⟨g, hg⟩ := setStep_safe (tab := tab) (R := R) (W := W) (f := fun _ _ => .ok (.num t)) (r := r) (fun _ _ _ _ => rfl) rfl hW h1
      obtain ⟨g', hg'⟩ := setStep_safe (tab := tab) (R := R) (W := W) (f := fun _ _ => .ok (.num t)) (r := r ++ [g]) (fun _ _ _ _ => rfl) rfl hW' h2
      exact ⟨[g] ++ [g'], by rw [← List.append_assoc]; exact hg.append hg'⟩
    | expr e =>
      simp only [doStmt] at hdo
      obtain ⟨x, h1, h2⟩ := bind_inv hdo
      cases x with
      | num a => cases h2
      | pair a b =>
        simp only at h2
        obtain ⟨m1, h2, h3⟩ := bind_inv h2
        simp only [WStmt.steps]
        rw [hwin i, hwin j]
        have hm1 : Only W m0 m1 := hm.trans ((put_only h2).mono fun q hq => by rw [hq]; exact hW)
        have hd1 : den m1 dims e p = den m dims e p := by
          refine den_congr (hm1.1.trans hm.1.symm) fun q hq => ?_
          rw [hm1.1.trans hm0] at hq
          rw [hm1.2 q (h.pair i j e rfl q hq), hm.2 q (h.pair i j e rfl q hq)]
        obtain ⟨g, hg⟩ := setStep_safe (tab := tab) (R := R) (W := W) (f := fun r m => do let x ← tupleGet r m base 0; x.fst) (r := r) (x := .num a)
          (fun m1 m2 a b => by rw [hk.loc a b (by simp [WStmt.operands])]) (by
            rw [hk.val h.before hm0 hm (j := 0) (e := e) (by simp [WStmt.operands]), h1]; rfl) hW h2
        obtain ⟨g', hg'⟩ := setStep_safe (tab := tab) (R := R) (W := W) (f := fun r m => do let x ← tupleGet r m base 0; x.snd) (r := r ++ [g])
          (x := .num b) (fun m1 m2 a b => by rw [(hk.append [g]).loc a b (by simp [WStmt.operands])]) (by
            rw [(hk.append [g]).val h.before hm0 hm1 (j := 0) (e := e) (by simp [WStmt.operands]), hd1, h1]; rfl) hW' h3
        exact ⟨[g] ++ [g'], by rw [← List.append_assoc]; exact hg.append hg'⟩
    | proxy u => cases hdo
  | self l u =>
    have hW : W (cell l p) := h.writes _ (by simp [stmtWrites])
    simp only [doStmt] at hdo
    obtain ⟨x, h1, h2⟩ := bind_inv hdo
    simp only [WStmt.steps]
    rw [hlhs l u rfl]
    obtain ⟨p1, p2⟩ := hproxy u rfl (h.matchedSelf l u rfl) fun i hi => h.entries _ (by
      simp only [stmtEntryReads]; exact List.mem_map_of_mem hi)
    obtain ⟨g, hg⟩ := setStep_safe (tab := tab) (R := R) (W := W) (f := proxyVal win base u) (r := r) p1 (p2.trans h1) hW h2
    exact ⟨[g], hg⟩

/-- a statement and the iterators made for it -/
structure PrepOK (tab : Ptr → Option Int) (D : List DB) (s : WStmt T) (x : Prepared T) : Prop where
  stmt : x.stmt = s
  ops : List.Forall₂ (LeadsAt tab D) s.operands x.ops
  lhs : ∀ l u, s = .self l u → ∃ v, x.lhs = some v ∧ l.call D = .ok v

theorem allSteps_safe {tab : Ptr → Option Int} {D : List DB} {w : Span} {p : Pt} {R W : Ptr → Prop} {m0 : Mem T} {h : List Move} {wi : MT}
    (hm0 : m0.ints = tab) (hwin : ∀ i, winAddr (addrAfter h wi) i = .ok (entryCell w p i)) :
    ∀ {ss : List (WStmt T)} {ps : List (Prepared T)} {base : Nat} {r : List (Reg T)} {m m' : Mem T},
      List.Forall₂ (PrepOK tab D) ss ps → (∀ s ∈ ss, Around tab (D.map (·.1)) w p R W m0 s) →
      (∀ l u v, WStmt.self l u ∈ ss → l.call D = .ok v → addrAfter h v = .ok (cell l p)) →
      Kept tab (D.map (·.1)) p R W m0 r base (ss.flatMap (·.operands)) → Only W m0 m → doStmts (D.map (·.1)) w p ss m = .ok m' →
      ∃ x, Safe tab R W (allSteps h wi base ps) r m (r ++ x, m')
  | [], ps, base, r, m, m', hp, ha, hl, hk, hm, hdo => by
    cases hp
    simp only [doStmts, Except.ok.injEq] at hdo
    subst hdo
    exact ⟨[], by simp [allSteps, Safe]⟩
  | s :: ss, ps, base, r, m, m', hp, ha, hl, hk, hm, hdo => by
    rcases hp with _ | ⟨h1, h2⟩
    rename_i x ps
    simp only [doStmts] at hdo
    obtain ⟨m1, d1, d2⟩ := bind_inv hdo
    have hs := ha s List.mem_cons_self
    have hlen : s.operands.length = x.ops.length := h1.ops.length_eq
    have hk1 : Kept tab (D.map (·.1)) p R W m0 r base s.operands := by
      intro j e he
      refine hk j e ?_
      rw [List.flatMap_cons, List.getElem?_append_left (List.getElem?_eq_some_iff.1 he).1]; exact he
    have hk2 : Kept tab (D.map (·.1)) p R W m0 r (base + x.ops.length) (ss.flatMap (·.operands)) := by
      intro j e he
      obtain ⟨g, g1, g2⟩ := hk (x.ops.length + j) e (by
        rw [List.flatMap_cons, List.getElem?_append_right (by omega), hlen, Nat.add_sub_cancel_left]; exact he)
      exact ⟨g, by rw [Nat.add_assoc]; exact g1, g2⟩
    obtain ⟨y, hy⟩ := stmt_safe (win := addrAfter h wi) (lhs := x.lhsAddr h) hm0 hs hk1 hwin (by
      intro l u e
      obtain ⟨v, v1, v2⟩ := h1.lhs l u e
      unfold Prepared.lhsAddr
      rw [v1]
      exact hl l u v (by rw [e]; exact List.mem_cons_self) v2) hm d1
    have hm1 : Only W m0 m1 := hm.trans ((doStmt_only d1).mono hs.writes)
    obtain ⟨z, hz⟩ := allSteps_safe hm0 hwin h2 (fun s hs => ha s (List.mem_cons_of_mem _ hs))
      (fun l u v hlu => hl l u v (List.mem_cons_of_mem _ hlu)) (hk2.append y) hm1 d2
    refine ⟨y ++ z, ?_⟩
    simp only [allSteps]
    rw [h1.stmt, ← List.append_assoc]
    exact hy.append hz

theorem operands_safe {tab : Ptr → Option Int} {D : List DB} {n k : Int} (hn : n ≤ npts D) (hN : npts D ≤ 2147483647) {h : List Move}
    (hf : Fwd n 0 h) (hk : net h = k) (k0 : 0 ≤ k) (k1 : k < n) {R W : Ptr → Prop} {m0 : Mem T} (hm0 : m0.ints = tab) :
    ∀ {es : List (Expr T)} {is : List (It T)} {r : List (Reg T)}, List.Forall₂ (LeadsAt tab D) es is →
      (∀ e ∈ es, ∀ q ∈ reads tab (D.map (·.1)) e (pt D k), R q) →
      (∀ e ∈ es, ∃ m1 y, m1.ints = tab ∧ (e.lazy = false → ∀ q ∈ reads tab (D.map (·.1)) e (pt D k), m1.val q = m0.val q) ∧
        den m1 (D.map (·.1)) e (pt D k) = .ok y) →
      ∃ gs, Safe tab R W (is.map (operandStep h)) r m0 (r ++ gs, m0) ∧ List.Forall₂ (GetOK tab (D.map (·.1)) (pt D k) R W m0) es gs
  | [], is, r, hl, hR, hx => by
    cases hl
    exact ⟨[], by simp [Safe], .nil⟩
  | e :: es, is, r, hl, hR, hx => by
    rcases hl with _ | ⟨h1, h2⟩
    rename_i i is
    obtain ⟨m1, y, a1, a2, a3⟩ := hx e List.mem_cons_self
    obtain ⟨g, g1, g2⟩ := derefRef_ok h1 hn hN hf hk k0 k1 (W := W) (hR e List.mem_cons_self) hm0 a1 a2 a3 r
    obtain ⟨gs, s1, s2⟩ := operands_safe hn hN hf hk k0 k1 hm0 (r := r ++ [g]) h2 (fun e he => hR e (List.mem_cons_of_mem _ he))
      (fun e he => hx e (List.mem_cons_of_mem _ he))
    refine ⟨g :: gs, ?_, .cons g2 s2⟩
    have := g1.append s1
    simpa using this


/-! ### the number of elements -/

/-- sizes by rounding down -/
def floors (D : List DB) : List Int := D.map fun x => (x.2.last - x.2.first) / x.2.stride

theorem floor_le_count {b : Bounds} (h : b.first < b.last) (hs : 1 ≤ b.stride) :
    0 ≤ (b.last - b.first) / b.stride ∧ (b.last - b.first) / b.stride ≤ count b := by
  refine ⟨Int.ediv_nonneg (by omega) (by omega), ?_⟩
  unfold count
  have : (b.last - b.first) / b.stride ≤ (b.last - 1 - b.first + b.stride) / b.stride := Int.ediv_le_ediv (by omega) (by omega)
  rwa [Int.add_ediv_of_dvd_right (Int.dvd_refl _), Int.ediv_self (by omega)] at this

theorem floor_eq_count {b : Bounds} (h : b.first < b.last) (hs : 1 ≤ b.stride) (hd : b.stride ∣ b.last - b.first) :
    (b.last - b.first) / b.stride = count b := by
  obtain ⟨c, hc⟩ := hd
  have hc0 : 0 < c := by
    by_contra hcon
    have : b.stride * c ≤ 0 := mul_nonpos_of_nonneg_of_nonpos (by omega) (by omega)
    omega
  unfold count
  rw [hc, Int.mul_ediv_cancel_left _ (by omega)]
  have e : b.last - 1 - b.first = (b.stride - 1) + b.stride * (c - 1) := by
    have : b.stride * (c - 1) = b.stride * c - b.stride := by ring
    omega
  rw [e, Int.add_mul_ediv_left _ _ (by omega), Int.ediv_eq_zero_of_lt (by omega) (by omega)]
  omega

theorem floors_le : ∀ {D : List DB}, (∀ x ∈ D, x.2.first < x.2.last ∧ 1 ≤ x.2.stride) → 0 ≤ (floors D).prod ∧ (floors D).prod ≤ npts D ∧ 1 ≤ npts D
  | [], _ => by simp [floors, npts, extents]
  | x :: D, h => by
    obtain ⟨h1, h2, h3⟩ := floors_le (D := D) fun y hy => h y (List.mem_cons_of_mem _ hy)
    obtain ⟨hx, hs⟩ := h x List.mem_cons_self
    obtain ⟨f1, f2⟩ := floor_le_count hx hs
    have hc := count_pos hx hs
    rw [npts_cons]
    simp only [floors, List.map_cons, List.prod_cons]
    have e1 : (x.2.last - x.2.first) / x.2.stride * (floors D).prod ≤ count x.2 * (floors D).prod := mul_le_mul_of_nonneg_right f2 h1
    have e2 : count x.2 * (floors D).prod ≤ count x.2 * npts D := mul_le_mul_of_nonneg_left h2 (by omega)
    have e3 : 1 * npts D ≤ count x.2 * npts D := mul_le_mul_of_nonneg_right hc (by omega)
    exact ⟨mul_nonneg f1 h1, by unfold floors at e1 e2; omega, by omega⟩

theorem foldSize_ok : ∀ {D : List DB}, D ≠ [] → (∀ x ∈ D, x.2.first < x.2.last ∧ 1 ≤ x.2.stride) →
    (∀ x ∈ D, x.2.last - x.2.first ≤ 2147483647) → npts D ≤ 2147483647 → foldSize D = .ok (floors D).prod
  | [], h, _, _, _ => absurd rfl h
  | [x], _, h, hf, _ => by
    obtain ⟨hx, hs⟩ := h x List.mem_cons_self
    have := hf x List.mem_cons_self
    have := Int.ediv_le_self (b := x.2.stride) (a := x.2.last - x.2.first) (by omega)
    have := Int.ediv_nonneg (a := x.2.last - x.2.first) (b := x.2.stride) (by omega) (by omega)
    simp only [foldSize, Bounds.size, floors, List.map_cons, List.map_nil, List.prod_cons, List.prod_nil, mul_one]
    rw [isub_ok (by unfold InInt; omega), M.ok_bind, idiv_ok (by omega) (by omega) (by unfold InInt; omega)]
  | x :: y :: D, _, h, hf, hN => by
    obtain ⟨hx, hs⟩ := h x List.mem_cons_self
    have hfx := hf x List.mem_cons_self
    have hc := count_pos hx hs
    have ht : ∀ z ∈ y :: D, z.2.first < z.2.last ∧ 1 ≤ z.2.stride := fun z hz => h z (List.mem_cons_of_mem _ hz)
    obtain ⟨l1, l2, l3⟩ := floors_le ht
    obtain ⟨L1, L2, -⟩ := floors_le h
    rw [npts_cons] at hN
    have e3 : 1 * npts (y :: D) ≤ count x.2 * npts (y :: D) := mul_le_mul_of_nonneg_right hc (by omega)
    have ih := foldSize_ok (D := y :: D) (by simp) ht (fun z hz => hf z (List.mem_cons_of_mem _ hz)) (by omega)
    have := Int.ediv_le_self (b := x.2.stride) (a := x.2.last - x.2.first) (by omega)
    have := Int.ediv_nonneg (a := x.2.last - x.2.first) (b := x.2.stride) (by omega) (by omega)
    simp only [foldSize]
    rw [ih, M.ok_bind]
    simp only [Bounds.size]
    rw [isub_ok (by unfold InInt; omega), M.ok_bind, idiv_ok (by omega) (by omega) (by unfold InInt; omega), M.ok_bind]
    rw [npts_cons] at L2
    have e : (floors (x :: y :: D)).prod = (x.2.last - x.2.first) / x.2.stride * (floors (y :: D)).prod := by
      simp only [floors, List.map_cons, List.prod_cons]
    rw [imul_ok (by rw [← e]; unfold InInt; omega), e]

theorem floors_eq : ∀ {D : List DB}, (∀ x ∈ D, x.2.first < x.2.last ∧ 1 ≤ x.2.stride) → (∀ x ∈ D, x.2.stride ∣ x.2.last - x.2.first) →
    (floors D).prod = npts D
  | [], _, _ => by simp [floors, npts, extents]
  | x :: D, h, hd => by
    have := floors_eq (D := D) (fun y hy => h y (List.mem_cons_of_mem _ hy)) fun y hy => hd y (List.mem_cons_of_mem _ hy)
    rw [npts_cons, ← this, ← floor_eq_count (h x List.mem_cons_self).1 (h x List.mem_cons_self).2 (hd x List.mem_cons_self)]
    simp [floors]

/-! ### the whole statement -/

theorem mapM_forall₂ {α β : Type} {f : α → M β} {P : α → β → Prop} : ∀ {l : List α}, (∀ a ∈ l, ∃ b, f a = .ok b ∧ P a b) →
    ∃ bs, l.mapM f = .ok bs ∧ List.Forall₂ P l bs
  | [], _ => ⟨[], rfl, .nil⟩
  | a :: l, h => by
    obtain ⟨b, h1, h2⟩ := h a List.mem_cons_self
    obtain ⟨bs, h3, h4⟩ := mapM_forall₂ (l := l) fun c hc => h c (List.mem_cons_of_mem _ hc)
    refine ⟨b :: bs, ?_, .cons h2 h4⟩
    rw [List.mapM_cons, h1, M.ok_bind, h3]; rfl

theorem steps_length {s : WStmt T} {win lhs win' lhs' : M Ptr} {b b' : Nat} : (s.steps win lhs b).length = (s.steps win' lhs' b').length := by
  cases s with
  | set1 i r => cases r <;> rfl
  | set2 i j r => cases r <;> rfl
  | self l u => rfl

theorem allSteps_length {h h' : List Move} {w : MT} : ∀ {ps : List (Prepared T)} {b b' : Nat},
    (allSteps h w b ps).length = (allSteps h' w b' ps).length
  | [], _, _ => rfl
  | x :: ps, b, b' => by
    simp only [allSteps, List.length_append]
    rw [steps_length (win' := addrAfter h' w) (lhs' := x.lhsAddr h') (b' := b'), allSteps_length (ps := ps)]

theorem windowThread_length {h h' : List Move} {w : MT} {ps : List (Prepared T)} : (windowThread h w ps).length = (windowThread h' w ps).length := by
  simp only [windowThread, List.length_append, List.length_map]
  rw [allSteps_length (h' := h')]

/-- a window array, a domain and statements that fit together -/
structure WindowFit (tab : Ptr → Option Int) (w : Span) (D : List DB) (ss : List (WStmt T)) : Prop where
  geo : GeoOK w.geo
  req : ReqOK w.geo D
  len : w.geo.length = D.length + 1
  accept : acceptable ss = true
  ops : ∀ s ∈ ss, ∀ e ∈ s.operands, ExprOK tab D e
  lhs : ∀ l u, WStmt.self l u ∈ ss → LhsOK l D
  order : ∀ i u, WStmt.set1 i (.proxy u) ∈ ss → InOrder u
  orderSelf : ∀ l u, WStmt.self l u ∈ ss → InOrder u

theorem WindowFit.npts_le {tab : Ptr → Option Int} {w : Span} {D : List DB} {ss : List (WStmt T)} (h : WindowFit tab w D ss) : npts D ≤ 2147483647 := by
  obtain ⟨v, -, hb, hn, -, -⟩ := call_ok (it := w.ptr) h.geo h.req
  have := hb.toWF.lt
  rw [hn] at this
  exact this

/-- the window dimension -/
theorem WindowFit.last {tab : Ptr → Option Int} {w : Span} {D : List DB} {ss : List (WStmt T)} (h : WindowFit tab w D ss) :
    ∃ gi d b, w.geo = gi ++ [(d, b)] ∧ gi.length = D.length ∧ d ∉ gi.map (·.1) ∧ d ∉ D.map (·.1) ∧ (gi.map (·.1)).Perm (D.map (·.1)) ∧
      ∀ p i, entryCell w p i = cell w (setPt p d (b.first + i)) := by
  obtain ⟨gi, x, hgi⟩ : ∃ gi x, w.geo = gi ++ [x] := by
    have := h.geo.ne
    exact ⟨w.geo.dropLast, w.geo.getLast this, (List.dropLast_append_getLast this).symm⟩
  obtain ⟨d, b⟩ := x
  have hlen : gi.length = D.length := by have := h.len; rw [hgi] at this; simpa using this
  have hnd := h.geo.nodup
  rw [hgi, List.map_append, List.nodup_append] at hnd
  have hd : d ∉ gi.map (·.1) := fun hm => hnd.2.2 d hm d (by simp) rfl
  have hl := h.req.lead
  rw [hgi, ← hlen, List.take_left] at hl
  refine ⟨gi, d, b, hgi, hlen, hd, fun hm => hd (hl.mem_iff.2 hm), hl, fun p i => ?_⟩
  unfold entryCell
  rw [hgi, List.getLast?_concat]

/-- what the statements leave, and that the elements do not get in each other's way -/
theorem window_free {w : Span} {D : List DB} {ss : List (WStmt T)} {β : Backend} {m : Mem T} (hβ : ValidBackend β) (hD : DomInt D)
    (h : WindowFit m.ints w D ss) {n : Int} (hn : n = (floors D).prod) {mp : Int → Mem T}
    (hrun : ∀ k, 0 ≤ k → k < n → doStmts (D.map (·.1)) w (pt D k) ss m = .ok (mp k))
    (hbefore : ∀ k, 0 ≤ k → k < n → ∀ s ∈ ss, ∀ e ∈ s.operands, e.lazy = false → ∀ q ∈ reads m.ints (D.map (·.1)) e (pt D k),
      ¬ allWrites w (pt D k) ss q)
    (hpair : ∀ k, 0 ≤ k → k < n → ∀ i j e, WStmt.set2 i j (.expr e) ∈ ss → ∀ q ∈ reads m.ints (D.map (·.1)) e (pt D k),
      ¬ allWrites w (pt D k) ss q)
    (hsep : ∀ k k', 0 ≤ k → k < n → 0 ≤ k' → k' < n → k ≠ k' → ∀ q, allWrites w (pt D k) ss q →
      ¬ allReads m.ints (D.map (·.1)) w (pt D k') ss q ∧ ¬ allWrites w (pt D k') ss q) :
    ∃ m', windowExec w D ss β m = .ok m' ∧ m'.ints = m.ints ∧
      (∀ k, 0 ≤ k → k < n → ∀ q, allWrites w (pt D k) ss q → m'.val q = (mp k).val q) ∧
      (∀ q, (∀ k, 0 ≤ k → k < n → ¬ allWrites w (pt D k) ss q) → m'.val q = m.val q) ∧
      ∃ wi ps, foldSize D = .ok n ∧ w.call D = .ok wi ∧ ss.mapM (·.prepare D) = .ok ps ∧
        RaceFree n (fun k => windowThread ((β n (windowThread [] wi ps).length).rhist k) wi ps) m m' := by
  have hpos : ∀ x ∈ D, x.2.first < x.2.last ∧ 1 ≤ x.2.stride := fun x hx => ⟨h.req.nonempty x hx, h.req.stride x hx⟩
  obtain ⟨f0, f1, -⟩ := floors_le hpos
  have hN := h.npts_le
  have hfold : foldSize D = .ok n := by
    rw [hn]
    exact foldSize_ok h.req.ne hpos (fun x hx => by have := h.req.fit x hx; have := hpos x hx; omega) hN
  obtain ⟨wi, hwi, hb, hwn, -, hat⟩ := call_ok (it := w.ptr) h.geo h.req
  obtain ⟨gi, d, b, hgi, hgl, hdg, hdD, hperm, hent⟩ := h.last
  have hwalk : FWalk (β := MT) n wi.at_ := by
    have := hb.fwalk; rw [hwn] at this
    exact ⟨fun a c => this.inc a (by rw [show (extents D).prod = npts D from rfl]; omega),
      fun a c e => this.adv a c (by rw [show (extents D).prod = npts D from rfl]; omega)⟩
  -- the iterators
  obtain ⟨ps, hps, hprep⟩ : ∃ ps, ss.mapM (·.prepare D) = .ok ps ∧ List.Forall₂ (PrepOK m.ints D) ss ps := by
    refine mapM_forall₂ fun s hs => ?_
    obtain ⟨is, i1, i2⟩ : ∃ is, s.operands.mapM (·.call D) = .ok is ∧ List.Forall₂ (LeadsAt m.ints D) s.operands is :=
      mapM_forall₂ fun e he => leadsAt hD (h.ops s hs e he)
    unfold WStmt.prepare
    rw [i1, M.ok_bind]
    cases s with
    | set1 i r => exact ⟨_, rfl, rfl, i2, fun l u e => by cases e⟩
    | set2 i j r => exact ⟨_, rfl, rfl, i2, fun l u e => by cases e⟩
    | self l u =>
      have hl := h.lhs l u hs
      obtain ⟨v, hv, -⟩ := call_ok (it := l.ptr) hl.geo hl.req
      have hc : l.callAll D = .ok v := by unfold Span.callAll; rw [if_pos hl.len]; exact hv
      refine ⟨⟨.self l u, some v, is⟩, ?_, rfl, i2, fun l' u' e => ?_⟩
      · dsimp only; rw [hc]; rfl
      · cases e; exact ⟨v, rfl, hv⟩
  set c := (windowThread [] wi ps).length with hc
  have hσ := hβ n c
  set σ := β n c with hσd
  -- addresses
  have hwin : ∀ k, 0 ≤ k → k < n → ∀ i, winAddr (addrAfter (σ.rhist k) wi) i = .ok (entryCell w (pt D k) i) := by
    intro k k0 k1 i
    obtain ⟨r1, r2⟩ := hσ.rhist k k0 k1
    have := hwalk.run (by omega) r1
    rw [zero_add, r2, ← hb.eq_at] at this
    unfold winAddr addrAfter
    rw [this, M.ok_bind, (hat k k0 (by omega) (setPt (pt D k) d b.first) (fun x hx => by
        have : x.1 ≠ d := fun e => hdD (e ▸ List.mem_map_of_mem hx)
        simp [setPt, this]) (by
        rw [hgi, ← hgl, List.drop_left]
        intro x hx
        rw [List.mem_singleton] at hx; subst hx
        simp [setPt])).1, M.ok_bind, hent]
    unfold cell
    rw [hgi, storeOff_last hdg]
    simp only [Ptr.add, Except.ok.injEq, Ptr.mk.injEq, true_and]; omega
  have hlhs : ∀ k, 0 ≤ k → k < n → ∀ l u v, WStmt.self l u ∈ ss → l.call D = .ok v →
      addrAfter (σ.rhist k) v = .ok (cell l (pt D k)) := by
    intro k k0 k1 l u v hlu hv
    have hl := h.lhs l u hlu
    obtain ⟨v', hv', hb', hn', -, hat'⟩ := call_ok (it := l.ptr) hl.geo hl.req
    have : v = v' := by
      have := hv'.symm.trans hv
      injection this with this; exact this.symm
    subst this
    have hw' : FWalk (β := MT) n v.at_ := by
      have := hb'.fwalk; rw [hn'] at this
      exact ⟨fun a c => this.inc a (by rw [show (extents D).prod = npts D from rfl]; omega),
        fun a c e => this.adv a c (by rw [show (extents D).prod = npts D from rfl]; omega)⟩
    obtain ⟨r1, r2⟩ := hσ.rhist k k0 k1
    have := hw'.run (by omega) r1
    rw [zero_add, r2, ← hb'.eq_at] at this
    unfold addrAfter
    rw [this, M.ok_bind]
    exact (hat' k k0 (by omega) (pt D k) (fun _ _ => rfl) (by
      rw [List.drop_eq_nil_of_le (by have := hl.len; omega)]; intro x hx; cases hx)).1
  -- each element on its own
  have hsafe : ∀ k, ∃ x : List (Reg T) × Mem T, 0 ≤ k → k < n → x.2 = mp k ∧
      Safe m.ints (allReads m.ints (D.map (·.1)) w (pt D k) ss) (allWrites w (pt D k) ss) (windowThread (σ.rhist k) wi ps) [] m x := by
    intro k
    by_cases hk : 0 ≤ k ∧ k < n
    · obtain ⟨k0, k1⟩ := hk
      obtain ⟨r1, r2⟩ := hσ.rhist k k0 k1
      have hmem : ∀ e ∈ ss.flatMap (·.operands), ∃ s ∈ ss, e ∈ s.operands := fun e he => List.mem_flatMap.1 he
      have hops : List.Forall₂ (LeadsAt m.ints D) (ss.flatMap (·.operands)) (ps.flatMap (·.ops)) := by
        clear hps hc hσ hσd hmem
        clear_value σ c
        clear hrun hbefore hpair hsep hwin hlhs h
        induction hprep with
        | nil => exact .nil
        | cons h1 _ ih => rw [List.flatMap_cons, List.flatMap_cons]; exact List.rel_append h1.ops ih
      obtain ⟨gs, g1, g2⟩ := operands_safe (R := allReads m.ints (D.map (·.1)) w (pt D k) ss) (W := allWrites w (pt D k) ss)
        (by omega : n ≤ npts D) hN r1 r2 k0 k1 (m0 := m) rfl (r := []) hops
        (fun e he q hq => by
          obtain ⟨s, hs, he⟩ := hmem e he
          exact ⟨s, hs, Or.inr (List.mem_flatMap.2 ⟨e, he, hq⟩)⟩)
        (fun e he => by
          obtain ⟨s, hs, he⟩ := hmem e he
          obtain ⟨m1, y, y1, y2⟩ := doStmts_used (hrun k k0 k1) s hs e he
          refine ⟨m1, y, y1.1, fun hl q hq => y1.2 q fun hw => hbefore k k0 k1 s hs e he hl q hq ?_, y2⟩
          obtain ⟨t, ht, hq⟩ := List.mem_flatMap.1 hw
          exact ⟨t, ht, hq⟩)
      rw [List.nil_append] at g1
      obtain ⟨x, hx⟩ := allSteps_safe (R := allReads m.ints (D.map (·.1)) w (pt D k) ss) (W := allWrites w (pt D k) ss) (w := w) (m0 := m)
        (wi := wi) (h := σ.rhist k) (p := pt D k) rfl (hwin k k0 k1) (base := 0) (r := gs) (m := m) hprep
        (fun s hs => ⟨fun q hq => ⟨s, hs, hq⟩, fun q hq => ⟨s, hs, Or.inl hq⟩, fun q hq => ⟨s, hs, Or.inr hq⟩,
          fun i u e => (h.order i u (e ▸ hs)).matched, fun l u e => (h.orderSelf l u (e ▸ hs)).matched,
          fun e he hl q hq => hbefore k k0 k1 s hs e he hl q hq,
          fun i j e es q hq => hpair k k0 k1 i j e (es ▸ hs) q hq⟩)
        (hlhs k k0 k1) (by
          intro j e he
          obtain ⟨hj, rfl⟩ := List.getElem?_eq_some_iff.1 he
          have hj' : j < gs.length := by rw [← g2.length_eq]; exact hj
          refine ⟨gs[j], by rw [Nat.zero_add]; exact List.getElem?_eq_getElem hj', ?_⟩
          exact (List.forall₂_iff_get.1 g2).2 j hj hj') Only.refl (hrun k k0 k1)
      exact ⟨(gs ++ x, mp k), fun _ _ => ⟨rfl, g1.append hx⟩⟩
    · exact ⟨([], m), fun a b => absurd ⟨a, b⟩ hk⟩
  choose fin hfin using hsafe
  obtain ⟨m', e1, hfree, e2, e3, e4⟩ := parallel_free (n := n) (c := c) (threads := fun k => windowThread (σ.rhist k) wi ps) (m := m)
    (R := fun k => allReads m.ints (D.map (·.1)) w (pt D k) ss) (W := fun k => allWrites w (pt D k) ss) (fin := fin) (trace := σ.trace)
    (fun k _ _ => windowThread_length) (fun k k0 k1 => (hfin k k0 k1).2) hsep hσ.once
  refine ⟨m', ?_, e2, fun k k0 k1 q hq => by rw [e3 k k0 k1 q hq, (hfin k k0 k1).1], e4, wi, ps, hfold, hwi, hps, hfree⟩
  unfold windowExec
  rw [if_neg (by rw [h.accept]; have := h.len; simp only [Bool.true_eq_false, false_or]; omega), hfold, M.ok_bind]
  show (callHelper _ _ _ >>= _) = _
  rw [hwi, M.ok_bind, hps, M.ok_bind]
  exact e1

theorem window_core {w : Span} {D : List DB} {ss : List (WStmt T)} {β : Backend} {m : Mem T} (hβ : ValidBackend β) (hD : DomInt D)
    (h : WindowFit m.ints w D ss) {n : Int} (hn : n = (floors D).prod) {mp : Int → Mem T}
    (hrun : ∀ k, 0 ≤ k → k < n → doStmts (D.map (·.1)) w (pt D k) ss m = .ok (mp k))
    (hbefore : ∀ k, 0 ≤ k → k < n → ∀ s ∈ ss, ∀ e ∈ s.operands, e.lazy = false → ∀ q ∈ reads m.ints (D.map (·.1)) e (pt D k),
      ¬ allWrites w (pt D k) ss q)
    (hpair : ∀ k, 0 ≤ k → k < n → ∀ i j e, WStmt.set2 i j (.expr e) ∈ ss → ∀ q ∈ reads m.ints (D.map (·.1)) e (pt D k),
      ¬ allWrites w (pt D k) ss q)
    (hsep : ∀ k k', 0 ≤ k → k < n → 0 ≤ k' → k' < n → k ≠ k' → ∀ q, allWrites w (pt D k) ss q →
      ¬ allReads m.ints (D.map (·.1)) w (pt D k') ss q ∧ ¬ allWrites w (pt D k') ss q) :
    ∃ m', windowExec w D ss β m = .ok m' ∧ m'.ints = m.ints ∧
      (∀ k, 0 ≤ k → k < n → ∀ q, allWrites w (pt D k) ss q → m'.val q = (mp k).val q) ∧
      (∀ q, (∀ k, 0 ≤ k → k < n → ¬ allWrites w (pt D k) ss q) → m'.val q = m.val q) := by
  obtain ⟨m', h1, h2, h3, h4, -⟩ := window_free hβ hD h hn hrun hbefore hpair hsep
  exact ⟨m', h1, h2, h3, h4⟩

/-! ### points and entries -/

theorem WindowFit.entry_congr {tab : Ptr → Option Int} {w : Span} {D : List DB} {ss : List (WStmt T)} (h : WindowFit tab w D ss) {p q : Pt}
    (hpq : ∀ x ∈ D, p x.1 = q x.1) (i : Int) : entryCell w p i = entryCell w q i := by
  obtain ⟨gi, d, b, hgi, -, -, -, hperm, hent⟩ := h.last
  rw [hent, hent]
  refine cell_congr fun x hx => ?_
  rw [hgi] at hx
  rcases List.mem_append.1 hx with hx | hx
  · obtain ⟨y, hy, e⟩ := List.mem_map.1 (hperm.mem_iff.1 (List.mem_map_of_mem (f := (·.1)) hx))
    simp only [setPt, ← e, hpq y hy]
  · rw [List.mem_singleton] at hx; subst hx
    simp [setPt]

theorem WindowFit.entry_inside {tab : Ptr → Option Int} {w : Span} {D : List DB} {ss : List (WStmt T)} (h : WindowFit tab w D ss) {p : Pt}
    (hp : InDom D p) {i : Int} (h0 : 0 ≤ i) (h1 : i < winLen w) : ∃ d b, (d, b) ∈ w.geo ∧ d ∉ D.map (·.1) ∧
      entryCell w p i = cell w (setPt p d (b.first + i)) ∧ Inside w.geo (setPt p d (b.first + i)) := by
  obtain ⟨gi, d, b, hgi, -, hdg, hdD, hperm, hent⟩ := h.last
  unfold winLen at h1
  rw [hgi, List.getLast?_concat] at h1
  refine ⟨d, b, by simp [hgi], hdD, hent p i, fun x hx => ?_⟩
  have hx0 := hx
  rw [hgi] at hx
  rcases List.mem_append.1 hx with hx | hx
  · have hxd : x.1 ≠ d := fun e => hdg (e ▸ List.mem_map_of_mem hx)
    have hm := hperm.mem_iff.1 (List.mem_map_of_mem (f := (·.1)) hx)
    have hb := bnd_mem hm
    have h1 := hp _ hb
    have h2 := h.req.inside _ hb x.2 hx0
    obtain ⟨⟨h3, h4⟩, -⟩ := h1
    simp only [setPt, if_neg hxd]
    simp only at h2 h3 h4
    exact ⟨by omega, by omega⟩
  · rw [List.mem_singleton] at hx; subst hx
    simp only [setPt, if_true]
    dsimp only at h1
    exact ⟨by omega, by omega⟩

theorem WindowFit.entry_inj {tab : Ptr → Option Int} {w : Span} {D : List DB} {ss : List (WStmt T)} (h : WindowFit tab w D ss) {p q : Pt}
    (hp : InDom D p) (hq : InDom D q) {i j : Int} (hi : 0 ≤ i ∧ i < winLen w) (hj : 0 ≤ j ∧ j < winLen w)
    (e : entryCell w p i = entryCell w q j) : (∀ x ∈ D, p x.1 = q x.1) ∧ i = j := by
  obtain ⟨d, b, hdb, hdD, e1, in1⟩ := h.entry_inside hp hi.1 hi.2
  obtain ⟨d', b', hdb', hdD', e2, in2⟩ := h.entry_inside hq hj.1 hj.2
  obtain ⟨gi, d0, b0, hgi, -, -, -, hperm, -⟩ := h.last
  have only : ∀ d b, (d, b) ∈ w.geo → d ∉ D.map (·.1) → d = d0 ∧ b = b0 := by
    intro d b hm hn
    rw [hgi] at hm
    rcases List.mem_append.1 hm with hm | hm
    · exact absurd (hperm.mem_iff.1 (List.mem_map_of_mem (f := (·.1)) hm)) hn
    · rw [List.mem_singleton] at hm
      injection hm with a b; exact ⟨a, b⟩
  obtain ⟨rfl, rfl⟩ := only d b hdb hdD
  obtain ⟨rfl, rfl⟩ := only d' b' hdb' hdD'
  rw [e1, e2] at e
  have : storeOff w.geo (setPt p d' (b'.first + i)) = storeOff w.geo (setPt q d' (b'.first + j)) := by
    simp only [cell, Ptr.add, Ptr.mk.injEq] at e; omega
  have := storeOff_inj in1 in2 this
  constructor
  · intro x hx
    obtain ⟨g, hg⟩ := h.req.mem_geo hx
    have hxd : x.1 ≠ d' := fun e => hdD (e ▸ List.mem_map_of_mem hx)
    have := this (x.1, g) hg
    simpa [setPt, hxd] using this
  · have := this (d', b') hdb'
    simp [setPt] at this
    exact this

theorem proxyDen_pt {tab : Ptr → Option Int} {w : Span} {D : List DB} {m : Mem T} (hm : m.ints = tab) {p q : Pt} (hpq : ∀ x ∈ D, p x.1 = q x.1)
    (hent : ∀ i, entryCell w p i = entryCell w q i) : ∀ {u : Proxy T}, (∀ e ∈ u.iters, ExprOK tab D e) →
      proxyDen m (D.map (·.1)) w p u = proxyDen m (D.map (·.1)) w q u
  | .entry i, h => by simp only [proxyDen, hent i]
  | .pp op u v, h => by
    simp only [proxyDen]
    rw [proxyDen_pt hm hpq hent (u := u) fun e he => h e (by simp only [Proxy.iters]; exact List.mem_append_left _ he),
      proxyDen_pt hm hpq hent (u := v) fun e he => h e (by simp only [Proxy.iters]; exact List.mem_append_right _ he)]
  | .pn op u c, h => by
    simp only [proxyDen]; rw [proxyDen_pt hm hpq hent (u := u) h]
  | .np op c u, h => by
    simp only [proxyDen]; rw [proxyDen_pt hm hpq hent (u := u) h]
  | .pe op u e, h => by
    simp only [proxyDen]
    rw [proxyDen_pt hm hpq hent (u := u) fun e he => h e (by simp only [Proxy.iters]; exact List.mem_append_left _ he),
      den_pt hpq (e := e) (by rw [hm]; exact h e (by simp [Proxy.iters]))]
  | .ep op e v, h => by
    simp only [proxyDen]
    rw [proxyDen_pt hm hpq hent (u := v) fun e he => h e (by simp only [Proxy.iters]; exact List.mem_cons_of_mem _ he),
      den_pt hpq (e := e) (by rw [hm]; exact h e (by simp [Proxy.iters]))]

theorem WindowFit.doStmt_pt {tab : Ptr → Option Int} {w : Span} {D : List DB} {ss : List (WStmt T)} (h : WindowFit tab w D ss) {p q : Pt}
    (hpq : ∀ x ∈ D, p x.1 = q x.1) {m : Mem T} (hm : m.ints = tab) {s : WStmt T} (hs : s ∈ ss) :
    doStmt (D.map (·.1)) w p s m = doStmt (D.map (·.1)) w q s m := by
  have hent := h.entry_congr hpq
  have hden : ∀ e ∈ s.operands, den m (D.map (·.1)) e p = den m (D.map (·.1)) e q := fun e he =>
    den_pt hpq (by rw [hm]; exact h.ops s hs e he)
  cases s with
  | set1 i r =>
    cases r with
    | num t => simp only [doStmt, hent]
    | expr e => simp only [doStmt, hent, hden e (by simp [WStmt.operands])]
    | proxy u => simp only [doStmt, hent, proxyDen_pt hm hpq hent (u := u) (h.ops _ hs)]
  | set2 i j r =>
    cases r with
    | num t => simp only [doStmt, hent]
    | expr e => simp only [doStmt, hent, hden e (by simp [WStmt.operands])]
    | proxy u => rfl
  | self l u =>
    have hl := h.lhs l u hs
    simp only [doStmt, proxyDen_pt hm hpq hent (u := u) (h.ops _ hs), cell_congr (full_agree hl.req hl.len hpq)]

theorem WindowFit.doStmts_pt {tab : Ptr → Option Int} {w : Span} {D : List DB} {ss : List (WStmt T)} (h : WindowFit tab w D ss) {p q : Pt}
    (hpq : ∀ x ∈ D, p x.1 = q x.1) : ∀ {ts : List (WStmt T)} {m : Mem T}, m.ints = tab → (∀ s ∈ ts, s ∈ ss) →
      doStmts (D.map (·.1)) w p ts m = doStmts (D.map (·.1)) w q ts m
  | [], m, _, _ => rfl
  | s :: ts, m, hm, hs => by
    simp only [doStmts]
    rw [h.doStmt_pt hpq hm (hs s List.mem_cons_self)]
    cases e : doStmt (D.map (·.1)) w q s m with
    | error u => rfl
    | ok m1 =>
      rw [M.ok_bind, M.ok_bind]
      exact h.doStmts_pt hpq ((doStmt_only e).1.trans hm) fun t ht => hs t (List.mem_cons_of_mem _ ht)

theorem WindowFit.writes_pt {tab : Ptr → Option Int} {w : Span} {D : List DB} {ss : List (WStmt T)} (h : WindowFit tab w D ss) {p q : Pt}
    (hpq : ∀ x ∈ D, p x.1 = q x.1) {z : Ptr} : allWrites w p ss z ↔ allWrites w q ss z := by
  have hent := h.entry_congr hpq
  have : ∀ s ∈ ss, stmtWrites w p s = stmtWrites w q s := by
    intro s hs
    cases s with
    | set1 i r => simp only [stmtWrites, hent]
    | set2 i j r => simp only [stmtWrites, hent]
    | self l u =>
      have hl := h.lhs l u hs
      simp only [stmtWrites, cell_congr (full_agree hl.req hl.len hpq)]
  unfold allWrites
  constructor
  · rintro ⟨s, hs, hz⟩; exact ⟨s, hs, by rw [← this s hs]; exact hz⟩
  · rintro ⟨s, hs, hz⟩; exact ⟨s, hs, by rw [this s hs]; exact hz⟩


/-! ### statements that cannot fail -/

/-- the same cells are allocated -/
def SameCells (m m' : Mem T) : Prop := m'.ints = m.ints ∧ ∀ q, (∃ v, m.val q = some v) → ∃ v, m'.val q = some v

theorem SameCells.trans {m m' m'' : Mem T} (h : SameCells m m') (h' : SameCells m' m'') : SameCells m m'' :=
  ⟨h'.1.trans h.1, fun q hq => h'.2 q (h.2 q hq)⟩

theorem put_ok {m : Mem T} {q : Ptr} {x : Val T} (hx : shapeOf x = .num) (hq : ∃ v, m.val q = some v) :
    ∃ m', put m q x = .ok m' ∧ SameCells m m' := by
  cases x with
  | pair a b => cases hx
  | num y =>
    obtain ⟨v, hv⟩ := hq
    refine ⟨⟨fun z => if z = q then some y else m.val z, m.ints⟩, ?_, rfl, fun z hz => ?_⟩
    · simp only [put, Mem.store, hv]
    · by_cases e : z = q
      · exact ⟨y, if_pos e⟩
      · simp only [if_neg e]; exact hz

theorem proxyDen_ok {m : Mem T} {tab : Ptr → Option Int} {D : List DB} {w : Span} {p : Pt} {u : Proxy T} {a : Shape} (hs : ProxyShape u a) :
    (∀ i ∈ entries u, ∃ v, m.val (entryCell w p i) = some v) →
    (∀ e ∈ u.iters, ExprOK tab D e ∧ ∀ q ∈ reads m.ints (D.map (·.1)) e p, ∃ v, m.val q = some v) →
    ∃ x, proxyDen m (D.map (·.1)) w p u = .ok x ∧ shapeOf x = a := by
  induction hs with
  | entry =>
    intro h _
    obtain ⟨v, hv⟩ := load_ok (h _ (List.mem_singleton_self _))
    exact ⟨.num v, by simp only [proxyDen]; rw [hv, M.ok_bind], rfl⟩
  | pp _ _ hop ih1 ih2 =>
    intro h h'
    simp only [entries, List.mem_append] at h
    simp only [Proxy.iters, List.mem_append] at h'
    obtain ⟨x, x1, x2⟩ := ih1 (fun i hi => h i (Or.inl hi)) fun e he => h' e (Or.inl he)
    obtain ⟨y, y1, y2⟩ := ih2 (fun i hi => h i (Or.inr hi)) fun e he => h' e (Or.inr he)
    obtain ⟨z, z1, z2⟩ := hop x y x2 y2
    exact ⟨z, by simp only [proxyDen]; rw [x1, M.ok_bind, y1, M.ok_bind, z1], z2⟩
  | @pn op u t a b _ hop ih =>
    intro h h'
    obtain ⟨x, x1, x2⟩ := ih h h'
    obtain ⟨z, z1, z2⟩ := hop x (.num t) x2 rfl
    exact ⟨z, by simp only [proxyDen]; rw [x1, M.ok_bind, z1], z2⟩
  | @np op v t a b _ hop ih =>
    intro h h'
    obtain ⟨x, x1, x2⟩ := ih h h'
    obtain ⟨z, z1, z2⟩ := hop (.num t) x rfl x2
    exact ⟨z, by simp only [proxyDen]; rw [x1, M.ok_bind, z1], z2⟩
  | @pe op u e a b c _ he hop ih =>
    intro h h'
    simp only [Proxy.iters, List.mem_append, List.mem_singleton] at h'
    obtain ⟨x, x1, x2⟩ := ih h fun e he => h' e (Or.inl he)
    obtain ⟨h1, h2⟩ := h' e (Or.inr rfl)
    obtain ⟨y, y1, y2⟩ := den_ok he h2 h1
    obtain ⟨z, z1, z2⟩ := hop x y x2 y2
    exact ⟨z, by simp only [proxyDen]; rw [x1, M.ok_bind, y1, M.ok_bind, z1], z2⟩
  | @ep op e v a b c he _ hop ih =>
    intro h h'
    simp only [Proxy.iters, List.mem_cons] at h'
    obtain ⟨y, y1, y2⟩ := ih h fun e he => h' e (Or.inr he)
    obtain ⟨h1, h2⟩ := h' e (Or.inl rfl)
    obtain ⟨x, x1, x2⟩ := den_ok he h2 h1
    obtain ⟨z, z1, z2⟩ := hop x y x2 y2
    exact ⟨z, by simp only [proxyDen]; rw [x1, M.ok_bind, y1, M.ok_bind, z1], z2⟩

theorem doStmt_ok {m : Mem T} {D : List DB} {w : Span} {p : Pt} {s : WStmt T} (ht : StmtTyped s)
    (hent : ∀ i ∈ stmtEntries s, ∃ v, m.val (entryCell w p i) = some v)
    (hlhs : ∀ l u, s = .self l u → ∃ v, m.val (cell l p) = some v)
    (hops : ∀ e ∈ s.operands, ExprOK m.ints D e ∧ ∀ q ∈ reads m.ints (D.map (·.1)) e p, ∃ v, m.val q = some v) :
    ∃ m', doStmt (D.map (·.1)) w p s m = .ok m' ∧ SameCells m m' := by
  cases s with
  | set1 i r =>
    cases r with
    | num t =>
      simp only [doStmt]
      exact put_ok rfl (hent i (by simp [stmtEntries]))
    | expr e =>
      simp only [doStmt]
      obtain ⟨h1, h2⟩ := hops e (by simp [WStmt.operands])
      obtain ⟨x, x1, x2⟩ := den_ok ht h2 h1
      rw [x1, M.ok_bind]
      exact put_ok x2 (hent i (by simp [stmtEntries]))
    | proxy u =>
      simp only [doStmt]
      obtain ⟨x, x1, x2⟩ := proxyDen_ok (w := w) ht (fun i hi => hent i (by simp only [stmtEntries]; exact List.mem_cons_of_mem _ hi)) hops
      rw [x1, M.ok_bind]
      exact put_ok x2 (hent i (by simp [stmtEntries]))
  | set2 i j r =>
    cases r with
    | num t =>
      simp only [doStmt]
      obtain ⟨m1, h1, h2⟩ := put_ok (x := .num t) rfl (hent i (by simp [stmtEntries]))
      obtain ⟨m2, h3, h4⟩ := put_ok (x := .num t) rfl (h2.2 _ (hent j (by simp [stmtEntries])))
      exact ⟨m2, by rw [h1, M.ok_bind, h3], h2.trans h4⟩
    | expr e =>
      simp only [doStmt]
      obtain ⟨h1, h2⟩ := hops e (by simp [WStmt.operands])
      obtain ⟨x, x1, x2⟩ := den_ok ht h2 h1
      rw [x1, M.ok_bind]
      cases x with
      | num a => cases x2
      | pair a b =>
        obtain ⟨m1, h1, h2⟩ := put_ok (x := .num a) rfl (hent i (by simp [stmtEntries]))
        obtain ⟨m2, h3, h4⟩ := put_ok (x := .num b) rfl (h2.2 _ (hent j (by simp [stmtEntries])))
        exact ⟨m2, by dsimp only; rw [h1, M.ok_bind, h3], h2.trans h4⟩
    | proxy u => cases ht
  | self l u =>
    simp only [doStmt]
    obtain ⟨x, x1, x2⟩ := proxyDen_ok (w := w) ht hent hops
    rw [x1, M.ok_bind]
    exact put_ok x2 (hlhs l u rfl)

theorem doStmts_ok {D : List DB} {w : Span} {p : Pt} : ∀ {ss : List (WStmt T)} {m : Mem T}, (∀ s ∈ ss, StmtTyped s) →
    (∀ s ∈ ss, ∀ i ∈ stmtEntries s, ∃ v, m.val (entryCell w p i) = some v) →
    (∀ l u, WStmt.self l u ∈ ss → ∃ v, m.val (cell l p) = some v) →
    (∀ s ∈ ss, ∀ e ∈ s.operands, ExprOK m.ints D e ∧ ∀ q ∈ reads m.ints (D.map (·.1)) e p, ∃ v, m.val q = some v) →
    ∃ m', doStmts (D.map (·.1)) w p ss m = .ok m' ∧ SameCells m m'
  | [], m, _, _, _, _ => ⟨m, rfl, rfl, fun _ h => h⟩
  | s :: ss, m, ht, he, hl, ho => by
    obtain ⟨m1, h1, h2⟩ := doStmt_ok (w := w) (ht s List.mem_cons_self) (he s List.mem_cons_self)
      (fun l u e => hl l u (by rw [e]; exact List.mem_cons_self)) (ho s List.mem_cons_self)
    obtain ⟨m2, h3, h4⟩ := doStmts_ok (D := D) (w := w) (p := p) (ss := ss) (m := m1) (fun t h => ht t (List.mem_cons_of_mem _ h))
      (fun t h i hi => h2.2 _ (he t (List.mem_cons_of_mem _ h) i hi)) (fun l u h => h2.2 _ (hl l u (List.mem_cons_of_mem _ h)))
      (fun t h e hh => by
        obtain ⟨a, b⟩ := ho t (List.mem_cons_of_mem _ h) e hh
        rw [h2.1]
        exact ⟨a, fun q hq => h2.2 _ (b q hq)⟩)
    exact ⟨m2, by simp only [doStmts]; rw [h1, M.ok_bind, h3], h2.trans h4⟩

/-! ### statements on memories that look alike -/

theorem proxyDen_congr {m m' : Mem T} {dims : List Dim} {w : Span} {p : Pt} (hi : m.ints = m'.ints) : ∀ {u : Proxy T},
    (∀ i ∈ entries u, m.val (entryCell w p i) = m'.val (entryCell w p i)) →
    (∀ e ∈ u.iters, ∀ q ∈ reads m.ints dims e p, m.val q = m'.val q) → proxyDen m dims w p u = proxyDen m' dims w p u
  | .entry i, h, _ => by simp only [proxyDen]; rw [load_congr (h i (List.mem_singleton_self _))]
  | .pp op u v, h, h' => by
    simp only [entries, List.mem_append] at h
    simp only [Proxy.iters, List.mem_append] at h'
    simp only [proxyDen]
    rw [proxyDen_congr hi (u := u) (fun i hi => h i (Or.inl hi)) fun e he => h' e (Or.inl he),
      proxyDen_congr hi (u := v) (fun i hi => h i (Or.inr hi)) fun e he => h' e (Or.inr he)]
  | .pn op u c, h, h' => by simp only [proxyDen]; rw [proxyDen_congr hi (u := u) h h']
  | .np op c u, h, h' => by simp only [proxyDen]; rw [proxyDen_congr hi (u := u) h h']
  | .pe op u e, h, h' => by
    simp only [Proxy.iters, List.mem_append, List.mem_singleton] at h'
    simp only [proxyDen]
    rw [proxyDen_congr hi (u := u) h fun e he => h' e (Or.inl he), den_congr hi (h' e (Or.inr rfl))]
  | .ep op e v, h, h' => by
    simp only [Proxy.iters, List.mem_cons] at h'
    simp only [proxyDen]
    rw [proxyDen_congr hi (u := v) h fun e he => h' e (Or.inr he), den_congr hi (h' e (Or.inl rfl))]

theorem put_congr {F : Ptr → Prop} {m m' r : Mem T} {q : Ptr} {x : Val T} (hq : F q) (ha : Agree F m m') (h : put m q x = .ok r) :
    ∃ r', put m' q x = .ok r' ∧ Agree F r r' := by
  obtain ⟨y, rfl, h⟩ := put_inv h
  obtain ⟨rfl, v, hv⟩ := store_inv h
  refine ⟨⟨fun z => if z = q then some y else m'.val z, m'.ints⟩, ?_, ha.1, fun z hz => ?_⟩
  · simp only [put, Mem.store]; rw [← ha.2 q hq, hv]
  · simp only
    split
    · rfl
    · exact ha.2 z hz

theorem doStmt_congr {F : Ptr → Prop} {dims : List Dim} {w : Span} {p : Pt} {s : WStmt T} {m m' r : Mem T}
    (hw : ∀ q ∈ stmtWrites w p s, F q) (he : ∀ q ∈ stmtEntryReads w p s, F q) (ho : ∀ q ∈ stmtArrayReads m.ints dims p s, F q)
    (ha : Agree F m m') (h : doStmt dims w p s m = .ok r) : ∃ r', doStmt dims w p s m' = .ok r' ∧ Agree F r r' := by
  have hden : ∀ e ∈ s.operands, den m dims e p = den m' dims e p := fun e hm =>
    den_congr ha.1 fun q hq => ha.2 q (ho q (List.mem_flatMap.2 ⟨e, hm, hq⟩))
  have hpr : ∀ u : Proxy T, s.operands = u.iters → (∀ i ∈ entries u, F (entryCell w p i)) → proxyDen m dims w p u = proxyDen m' dims w p u :=
    fun u hu hE => proxyDen_congr ha.1 (fun i hi => ha.2 _ (hE i hi)) fun e hm q hq =>
      ha.2 q (ho q (List.mem_flatMap.2 ⟨e, hu ▸ hm, hq⟩))
  cases s with
  | set1 i r =>
    have hF := hw (entryCell w p i) (by simp [stmtWrites])
    cases r with
    | num t => simp only [doStmt] at h ⊢; exact put_congr hF ha h
    | expr e =>
      simp only [doStmt] at h ⊢
      rw [hden e (by simp [WStmt.operands])] at h
      obtain ⟨x, h1, h2⟩ := bind_inv h
      rw [h1, M.ok_bind]
      exact put_congr hF ha h2
    | proxy u =>
      simp only [doStmt] at h ⊢
      rw [hpr u rfl fun i hi => he _ (by simp only [stmtEntryReads]; exact List.mem_map_of_mem hi)] at h
      obtain ⟨x, h1, h2⟩ := bind_inv h
      rw [h1, M.ok_bind]
      exact put_congr hF ha h2
  | set2 i j r =>
    have hF := hw (entryCell w p i) (by simp [stmtWrites])
    have hF' := hw (entryCell w p j) (by simp [stmtWrites])
    cases r with
    | num t =>
      simp only [doStmt] at h ⊢
      obtain ⟨x, h1, h2⟩ := bind_inv h
      obtain ⟨y, h3, h4⟩ := put_congr hF ha h1
      rw [h3, M.ok_bind]
      exact put_congr hF' h4 h2
    | expr e =>
      simp only [doStmt] at h ⊢
      rw [hden e (by simp [WStmt.operands])] at h
      obtain ⟨x, h1, h2⟩ := bind_inv h
      rw [h1, M.ok_bind]
      cases x with
      | num a => cases h2
      | pair a b =>
        dsimp only at h2 ⊢
        obtain ⟨x, h1, h2⟩ := bind_inv h2
        obtain ⟨y, h3, h4⟩ := put_congr hF ha h1
        rw [h3, M.ok_bind]
        exact put_congr hF' h4 h2
    | proxy u => cases h
  | self l u =>
    have hF := hw (cell l p) (by simp [stmtWrites])
    simp only [doStmt] at h ⊢
    rw [hpr u rfl fun i hi => he _ (by simp only [stmtEntryReads]; exact List.mem_map_of_mem hi)] at h
    obtain ⟨x, h1, h2⟩ := bind_inv h
    rw [h1, M.ok_bind]
    exact put_congr hF ha h2

theorem doStmts_congr {F : Ptr → Prop} {dims : List Dim} {w : Span} {p : Pt} : ∀ {ss : List (WStmt T)} {m m' r : Mem T},
    (∀ s ∈ ss, (∀ q ∈ stmtWrites w p s, F q) ∧ (∀ q ∈ stmtEntryReads w p s, F q) ∧ ∀ q ∈ stmtArrayReads m.ints dims p s, F q) →
    Agree F m m' → doStmts dims w p ss m = .ok r → ∃ r', doStmts dims w p ss m' = .ok r' ∧ Agree F r r'
  | [], m, m', r, _, ha, h => by
    simp only [doStmts, Except.ok.injEq] at h
    subst h; exact ⟨m', rfl, ha⟩
  | s :: ss, m, m', r, hF, ha, h => by
    simp only [doStmts] at h
    obtain ⟨m1, h1, h2⟩ := bind_inv h
    obtain ⟨a, b, c⟩ := hF s List.mem_cons_self
    obtain ⟨m1', h3, h4⟩ := doStmt_congr a b c ha h1
    obtain ⟨r', h5, h6⟩ := doStmts_congr (ss := ss) (m := m1) (fun t ht => by
      rw [(doStmt_only h1).1]; exact hF t (List.mem_cons_of_mem _ ht)) h4 h2
    exact ⟨r', by simp only [doStmts]; rw [h3, M.ok_bind, h5], h6⟩

theorem doStmts_append {dims : List Dim} {w : Span} {p : Pt} : ∀ {ss ts : List (WStmt T)} {m : Mem T},
    doStmts dims w p (ss ++ ts) m = do
      let m' ← doStmts dims w p ss m
      doStmts dims w p ts m'
  | [], ts, m => rfl
  | s :: ss, ts, m => by
    simp only [List.cons_append, doStmts]
    cases doStmt dims w p s m with
    | error e => rfl
    | ok m1 => simp only [M.ok_bind]; exact doStmts_append

theorem doStmts_only {dims : List Dim} {w : Span} {p : Pt} : ∀ {ss : List (WStmt T)} {m m' : Mem T}, doStmts dims w p ss m = .ok m' →
    Only (allWrites w p ss) m m'
  | [], m, m', h => by simp only [doStmts, Except.ok.injEq] at h; subst h; exact Only.refl
  | s :: ss, m, m', h => by
    simp only [doStmts] at h
    obtain ⟨m1, h1, h2⟩ := bind_inv h
    exact ((doStmt_only h1).mono fun q hq => ⟨s, List.mem_cons_self, hq⟩).trans
      ((doStmts_only h2).mono fun q ⟨t, ht, hq⟩ => ⟨t, List.mem_cons_of_mem _ ht, hq⟩)

end Verif
