import Verif.Lemmas.Kernel
import Verif.Props.Window

/-
Statements and window statements against Fortran loop nests, also when the loops leave out dimensions that have one index only.
-/

namespace Verif
open Spec

variable {T : Type}

/-! ### a loop nest that reaches a given memory -/

namespace F

theorem runPts_target {P : Type} {stmt : P → Cmd T} {m m' : Mem T} {W : P → Ptr → Prop} {L0 : List P} (hn : L0.Nodup)
    (hstep : ∀ p ∈ L0, ∀ m1 : Mem T, m1.ints = m.ints → (∀ q, (∀ p' ∈ L0, p' ≠ p → ¬ W p' q) → m1.val q = m.val q) →
      ∃ m2, stmt p m1 = .ok m2 ∧ m2.ints = m1.ints ∧ (∀ q, W p q → m2.val q = m'.val q) ∧ ∀ q, ¬ W p q → m2.val q = m1.val q)
    (hd : ∀ p ∈ L0, ∀ p' ∈ L0, p ≠ p' → ∀ q, W p q → ¬ W p' q)
    (hf : ∀ q, (∀ p ∈ L0, ¬ W p q) → m'.val q = m.val q) (hi : m'.ints = m.ints) : runPts L0 stmt m = .ok m' := by
  have key : ∀ L : List P, L.Nodup → (∀ p ∈ L, p ∈ L0) → ∀ m1 : Mem T, m1.ints = m.ints →
      (∀ q, (∃ p ∈ L0, p ∉ L ∧ W p q) → m1.val q = m'.val q) →
      (∀ q, (∀ p ∈ L0, p ∉ L → ¬ W p q) → m1.val q = m.val q) → runPts L stmt m1 = .ok m' := by
    intro L
    induction L with
    | nil =>
      intro _ _ m1 h1 h2 h3
      have : m1 = m' := by
        have hv : m1.val = m'.val := by
          funext q
          by_cases hq : ∃ p ∈ L0, W p q
          · obtain ⟨p, hp, hq⟩ := hq
            exact h2 q ⟨p, hp, by simp, hq⟩
          · rw [h3 q fun p hp _ h => hq ⟨p, hp, h⟩, hf q fun p hp h => hq ⟨p, hp, h⟩]
        have hi' : m1.ints = m'.ints := h1.trans hi.symm
        cases m1; cases m'
        cases hv; cases hi'; rfl
      subst this
      rfl
    | cons p L ih =>
      intro hnd hL m1 h1 h2 h3
      rw [List.nodup_cons] at hnd
      have hp := hL p List.mem_cons_self
      obtain ⟨m2, g1, g2, g3, g4⟩ := hstep p hp m1 h1 fun q hq => h3 q fun p' hp' hn' => hq p' hp' fun e => hn' (by rw [e]; exact List.mem_cons_self)
      have := ih hnd.2 (fun q hq => hL q (List.mem_cons_of_mem _ hq)) m2 (g2.trans h1) (fun q ⟨p', hp', hn', hw⟩ => by
        by_cases e : p' = p
        · subst e; exact g3 q hw
        · rw [g4 q (hd p' hp' p hp e q hw)]
          exact h2 q ⟨p', hp', by simp [e, hn'], hw⟩) (fun q hq => by
        rw [g4 q (hq p hp hnd.1)]
        exact h3 q fun p' hp' hn' => hq p' hp' fun e => hn' (List.mem_cons_of_mem _ e))
      show (p :: L).foldlM (fun m p => stmt p m) m1 = _
      rw [List.foldlM_cons, g1, M.ok_bind]
      exact this
  exact key L0 hn (fun p hp => hp) m rfl (fun q ⟨p, hp, hn', _⟩ => absurd hp hn') fun q _ => rfl

end F

/-- the loops run over the domain; dimensions without a loop have the one index `p0` gives -/
structure Loop (D : List DB) (r : List (Dim × Int × Int)) (p0 : Pt) : Prop where
  nodup : (r.map (·.1)).Nodup
  sub : ∀ x ∈ r, x.1 ∈ D.map (·.1)
  dom : ∀ p, InDom D p ↔ (∀ x ∈ r, x.2.1 ≤ p x.1 ∧ p x.1 ≤ x.2.2) ∧ ∀ d ∈ D.map (·.1), d ∉ r.map (·.1) → p d = p0 d

theorem Loop.inDom {D : List DB} {r : List (Dim × Int × Int)} {p0 p : Pt} (h : Loop D r p0) (hp : p ∈ F.nestPts r p0) : InDom D p := by
  rw [F.mem_nestPts h.nodup] at hp
  exact (h.dom p).2 ⟨hp.1, fun d _ hd => hp.2 d hd⟩

theorem Loop.surj {D : List DB} {r : List (Dim × Int × Int)} {p0 p : Pt} (h : Loop D r p0) (hp : InDom D p) :
    ∃ q ∈ F.nestPts r p0, ∀ x ∈ D, p x.1 = q x.1 := by
  have hp := (h.dom p).1 hp
  refine ⟨fun d => if d ∈ r.map (·.1) then p d else p0 d, (F.mem_nestPts h.nodup).2 ⟨fun x hx => ?_, fun d hd => if_neg hd⟩, fun x hx => ?_⟩
  · rw [if_pos (List.mem_map_of_mem hx)]; exact hp.1 x hx
  · dsimp only
    split
    · rfl
    · rename_i hx'; exact hp.2 _ (List.mem_map_of_mem hx) hx'

theorem Loop.inj {D : List DB} {r : List (Dim × Int × Int)} {p0 p q : Pt} (h : Loop D r p0) (hp : p ∈ F.nestPts r p0) (hq : q ∈ F.nestPts r p0)
    (he : ∀ x ∈ D, p x.1 = q x.1) : p = q := by
  rw [F.mem_nestPts h.nodup] at hp hq
  funext d
  by_cases hd : d ∈ r.map (·.1)
  · obtain ⟨x, hx, rfl⟩ := List.mem_map.1 hd
    obtain ⟨y, hy, e⟩ := List.mem_map.1 (h.sub x hx)
    rw [← e]; exact he y hy
  · rw [hp.2 d hd, hq.2 d hd]

/-! ### sequences of stores -/

def storeAll : List (Ptr × (Mem T → T)) → Mem T → Mem T
  | [], m => m
  | (q, f) :: l, m => storeAll l { m with val := fun z => if z = q then some (f m) else m.val z }

theorem storeAll_append : ∀ {l l' : List (Ptr × (Mem T → T))} {m : Mem T}, storeAll (l ++ l') m = storeAll l' (storeAll l m)
  | [], _, _ => rfl
  | _ :: l, _, _ => storeAll_append (l := l)

section
variable [Zero T]

/-- value of a stencil expression, disregarding errors -/
def proxyT (m : Mem T) (dims : List Dim) (w : Span) (p : Pt) : Proxy T → Val T
  | .entry i => .num (ld m (entryCell w p i))
  | .pp op u v => okOr (op (proxyT m dims w p u) (proxyT m dims w p v))
  | .pn op u c => okOr (op (proxyT m dims w p u) (.num c))
  | .np op c v => okOr (op (.num c) (proxyT m dims w p v))
  | .pe op u e => okOr (op (proxyT m dims w p u) (denT m dims e p))
  | .ep op e v => okOr (op (denT m dims e p) (proxyT m dims w p v))

def Val.second : Val T → T
  | .num a => a
  | .pair _ b => b

/-- the stores of a statement at a point -/
def flatS (dims : List Dim) (w : Span) (p : Pt) : WStmt T → List (Ptr × (Mem T → T))
  | .set1 i (.num t) => [(entryCell w p i, fun _ => t)]
  | .set1 i (.expr e) => [(entryCell w p i, fun m => (denT m dims e p).first)]
  | .set1 i (.proxy u) => [(entryCell w p i, fun m => (proxyT m dims w p u).first)]
  | .set2 i j (.num t) => [(entryCell w p i, fun _ => t), (entryCell w p j, fun _ => t)]
  | .set2 i j (.expr e) => [(entryCell w p i, fun m => (denT m dims e p).first), (entryCell w p j, fun m => (denT m dims e p).second)]
  | .set2 _ _ (.proxy _) => []
  | .self l u => [(cell l p, fun m => (proxyT m dims w p u).first)]

theorem proxyT_eq {m : Mem T} {dims : List Dim} {w : Span} {p : Pt} : ∀ {u : Proxy T} {x : Val T}, proxyDen m dims w p u = .ok x →
    proxyT m dims w p u = x
  | .entry i, x, h => by
    simp only [proxyDen] at h
    obtain ⟨y, h1, h2⟩ := bind_inv h
    injection h2 with h2
    rw [proxyT, load_ld h1, h2]
  | .pp op u v, x, h => by
    simp only [proxyDen] at h
    obtain ⟨a, h1, h⟩ := bind_inv h
    obtain ⟨b, h2, h⟩ := bind_inv h
    rw [proxyT, proxyT_eq h1, proxyT_eq h2, h]; rfl
  | .pn op u c, x, h => by
    simp only [proxyDen] at h
    obtain ⟨a, h1, h⟩ := bind_inv h
    rw [proxyT, proxyT_eq h1, h]; rfl
  | .np op c v, x, h => by
    simp only [proxyDen] at h
    obtain ⟨a, h1, h⟩ := bind_inv h
    rw [proxyT, proxyT_eq h1, h]; rfl
  | .pe op u e, x, h => by
    simp only [proxyDen] at h
    obtain ⟨a, h1, h⟩ := bind_inv h
    obtain ⟨b, h2, h⟩ := bind_inv h
    rw [proxyT, proxyT_eq h1, denT_eq h2, h]; rfl
  | .ep op e v, x, h => by
    simp only [proxyDen] at h
    obtain ⟨a, h1, h⟩ := bind_inv h
    obtain ⟨b, h2, h⟩ := bind_inv h
    rw [proxyT, denT_eq h1, proxyT_eq h2, h]; rfl

theorem doStmt_storeAll {dims : List Dim} {w : Span} {p : Pt} {s : WStmt T} {m m' : Mem T} (h : doStmt dims w p s m = .ok m')
    (hr : ∀ i j e, s = .set2 i j (.expr e) → entryCell w p i ∉ reads m.ints dims e p) : m' = storeAll (flatS dims w p s) m := by
  cases s with
  | set1 i r =>
    cases r with
    | num t =>
      simp only [doStmt] at h
      obtain ⟨rfl, -⟩ := store_inv h; rfl
    | expr e =>
      simp only [doStmt] at h
      obtain ⟨x, h1, h⟩ := bind_inv h
      obtain ⟨y, rfl, h⟩ := put_inv h
      obtain ⟨rfl, -⟩ := store_inv h
      simp only [flatS, storeAll, denT_eq h1, Val.first]
    | proxy u =>
      simp only [doStmt] at h
      obtain ⟨x, h1, h⟩ := bind_inv h
      obtain ⟨y, rfl, h⟩ := put_inv h
      obtain ⟨rfl, -⟩ := store_inv h
      simp only [flatS, storeAll, proxyT_eq h1, Val.first]
  | set2 i j r =>
    cases r with
    | num t =>
      simp only [doStmt] at h
      obtain ⟨m1, h1, h⟩ := bind_inv h
      obtain ⟨rfl, -⟩ := store_inv h1
      obtain ⟨rfl, -⟩ := store_inv h
      rfl
    | expr e =>
      simp only [doStmt] at h
      obtain ⟨x, h1, h⟩ := bind_inv h
      cases x with
      | num a => cases h
      | pair a b =>
        simp only at h
        obtain ⟨m1, h2, h⟩ := bind_inv h
        obtain ⟨rfl, -⟩ := store_inv h2
        obtain ⟨rfl, -⟩ := store_inv h
        have h3 : den { m with val := fun z => if z = entryCell w p i then some a else m.val z } dims e p = .ok (.pair a b) := by
          rw [← h1]
          refine (den_congr (m := m) (m' := { m with val := fun z => if z = entryCell w p i then some a else m.val z }) rfl fun q hq => ?_).symm
          dsimp only
          rw [if_neg fun e' : q = entryCell w p i => hr i j e rfl (e' ▸ hq)]
        simp only [flatS, storeAll, denT_eq h1, denT_eq h3, Val.first, Val.second]
    | proxy u => cases h
  | self l u =>
    simp only [doStmt] at h
    obtain ⟨x, h1, h⟩ := bind_inv h
    obtain ⟨y, rfl, h⟩ := put_inv h
    obtain ⟨rfl, -⟩ := store_inv h
    simp only [flatS, storeAll, proxyT_eq h1, Val.first]

theorem doStmts_storeAll {dims : List Dim} {w : Span} {p : Pt} : ∀ {ss : List (WStmt T)} {m m' : Mem T}, doStmts dims w p ss m = .ok m' →
    (∀ i j e, WStmt.set2 i j (.expr e) ∈ ss → entryCell w p i ∉ reads m.ints dims e p) → m' = storeAll (ss.flatMap (flatS dims w p)) m
  | [], m, m', h, _ => by
    simp only [doStmts, Except.ok.injEq] at h
    exact h.symm
  | s :: ss, m, m', h, hr => by
    simp only [doStmts] at h
    obtain ⟨m1, h1, h⟩ := bind_inv h
    rw [List.flatMap_cons, storeAll_append, ← doStmt_storeAll h1 fun i j e he => hr i j e (by rw [he]; exact List.mem_cons_self)]
    refine doStmts_storeAll h fun i j e he => ?_
    rw [(doStmt_only h1).1]
    exact hr i j e (List.mem_cons_of_mem _ he)

/-- every store goes to a cell the statements write -/
theorem flatS_writes {dims : List Dim} {w : Span} {p : Pt} {ss : List (WStmt T)} {c : Ptr × (Mem T → T)} (h : c ∈ ss.flatMap (flatS dims w p)) :
    allWrites w p ss c.1 := by
  obtain ⟨s, hs, hc⟩ := List.mem_flatMap.1 h
  refine ⟨s, hs, ?_⟩
  cases s with
  | set1 i r => cases r <;> simp only [flatS, List.mem_singleton] at hc <;> subst hc <;> simp [stmtWrites]
  | set2 i j r =>
    cases r with
    | proxy u => cases hc
    | _ => simp only [flatS, List.mem_cons, List.not_mem_nil, or_false] at hc; rcases hc with rfl | rfl <;> simp [stmtWrites]
  | self l u => simp only [flatS, List.mem_singleton] at hc; subst hc; simp [stmtWrites]

end

section
variable [Zero T] [Add T] [Sub T] [Mul T] [Div T] [Neg T]

theorem F.block_local {A : Ptr → Prop} : ∀ {fs : List (F.Arr × List Int × F.Expr T)} {m m1 : Mem T},
    (∀ x ∈ fs, F.Good m A (x.1, x.2.1) ∧ ∀ y ∈ x.2.2.refs, F.Good m A y) → (∀ q, ¬ A q → m1.val q = m.val q) →
    ∃ m2, F.block (fs.map fun x => F.assign x.1 x.2.1 x.2.2) m1 = .ok m2 ∧ m2.ints = m1.ints ∧
      (∀ q, ¬ A q → m2.val q = (storeAll (fs.map fun x => (x.1.addrT x.2.1, fun m => x.2.2.evalT m)) m).val q) ∧
      ∀ q, (∀ x ∈ fs, x.1.addrT x.2.1 ≠ q) → m2.val q = m1.val q
  | [], m, m1, _, h => ⟨m1, rfl, rfl, h, fun _ _ => rfl⟩
  | (a, is, e) :: fs, m, m1, hf, h => by
    obtain ⟨hl, he⟩ := hf _ List.mem_cons_self
    have hev := F.eval_good h he
    obtain ⟨v, hv⟩ := hl.alloc
    have hv1 : m1.val (a.addrT is) = some v := by rw [h _ hl.other]; exact hv
    have hstep : F.assign a is e m1 = .ok { m1 with val := fun z => if z = a.addrT is then some (e.evalT m) else m1.val z } := by
      unfold F.assign
      rw [hev, M.ok_bind, F.Arr.addr, if_pos hl.bounds, M.ok_bind]
      unfold F.Arr.addrT at hv1
      rw [Mem.store, hv1]; rfl
    obtain ⟨m2, g1, g2, g3, g4⟩ := F.block_local (A := A) (fs := fs)
      (m := { m with val := fun z => if z = a.addrT is then some (e.evalT m) else m.val z })
      (m1 := { m1 with val := fun z => if z = a.addrT is then some (e.evalT m) else m1.val z }) (fun x hx => by
        have hc : ∀ y, F.Good m A y → F.Good { m with val := fun z => if z = a.addrT is then some (e.evalT m) else m.val z } A y := fun y hy =>
          ⟨hy.bounds, by
            dsimp only
            split
            · exact ⟨_, rfl⟩
            · exact hy.alloc, hy.other⟩
        obtain ⟨k1, k2⟩ := hf x (List.mem_cons_of_mem _ hx)
        exact ⟨hc _ k1, fun y hy => hc _ (k2 y hy)⟩) (fun q hq => by
        dsimp only
        split
        · rfl
        · exact h q hq)
    refine ⟨m2, ?_, g2, g3, fun q hq => ?_⟩
    · simp only [List.map_cons, F.block]
      rw [hstep, M.ok_bind]; exact g1
    · rw [g4 q fun x hx => hq x (List.mem_cons_of_mem _ hx)]
      dsimp only
      rw [if_neg fun e' => hq _ List.mem_cons_self e'.symm]

/-- the same store: same place, same value whatever the memory -/
structure SameStore (m : Mem T) (A : Ptr → Prop) (c : Ptr × (Mem T → T)) (x : F.Arr × List Int × F.Expr T) : Prop where
  bounds : F.InBounds x.1.dims x.2.1
  addr : x.1.addrT x.2.1 = c.1
  refs : ∀ y ∈ x.2.2.refs, F.Good m A y
  val : ∀ m1, x.2.2.evalT m1 = c.2 m1

theorem sameStores_eq {m : Mem T} {A : Ptr → Prop} {cs : List (Ptr × (Mem T → T))} {fs : List (F.Arr × List Int × F.Expr T)}
    (h : List.Forall₂ (SameStore m A) cs fs) : (fs.map fun x => (x.1.addrT x.2.1, fun m => x.2.2.evalT m)) = cs := by
  induction h with
  | nil => rfl
  | cons h _ ih => rw [List.map_cons, ih, h.addr, funext h.val]

theorem forall₂_right {α β : Type} {R : α → β → Prop} {l : List α} {l' : List β} (h : List.Forall₂ R l l') : ∀ b ∈ l', ∃ a ∈ l, R a b := by
  induction h with
  | nil => intro b hb; cases hb
  | cons h _ ih =>
    intro b hb
    rcases List.mem_cons.1 hb with rfl | hb
    · exact ⟨_, List.mem_cons_self, h⟩
    · obtain ⟨a, ha, h⟩ := ih b hb
      exact ⟨a, List.mem_cons_of_mem _ ha, h⟩

/-- cells other points of the domain write -/
def Elsewhere (w : Span) (D : List DB) (ss : List (WStmt T)) (p : Pt) (z : Ptr) : Prop :=
  ∃ q, InDom D q ∧ (∃ x ∈ D, p x.1 ≠ q x.1) ∧ allWrites w q ss z

/-- Window statements and a loop nest that makes, at each point, the same stores in the same order. -/
theorem win_nest {w : Span} {D : List DB} {ss : List (WStmt T)} {β : Backend} {m : Mem T} {r : List (Dim × Int × Int)} {p0 : Pt}
    {stmt : Pt → F.Cmd T} (hβ : ValidBackend β) (hDi : DomInt D) (hdv : Divides D) (h : WindowOK m w D ss) (hL : Loop D r p0)
    (hs : ∀ p ∈ F.nestPts r p0, ∃ fs : List (F.Arr × List Int × F.Expr T), stmt p = F.block (fs.map fun x => F.assign x.1 x.2.1 x.2.2) ∧
      List.Forall₂ (SameStore m (Elsewhere w D ss p)) (ss.flatMap (flatS (D.map (·.1)) w p)) fs) :
    ∃ m', windowExec w D ss β m = .ok m' ∧ F.nest stmt r p0 m = .ok m' ∧ WindowDoes (InDom D) w (D.map (·.1)) ss m m' := by
  obtain ⟨m', h1, h2⟩ := window_run_all hβ hDi hdv h
  refine ⟨m', h1, ?_, h2⟩
  have hsep : ∀ p, p ∈ F.nestPts r p0 → ∀ p', InDom D p' → (∃ x ∈ D, p x.1 ≠ p' x.1) → ∀ q, allWrites w p ss q → ¬ allWrites w p' ss q :=
    fun p hp p' hp' hne q hq => (h.sep p p' (hL.inDom hp) hp' hne q hq).2
  have hdiff : ∀ p, p ∈ F.nestPts r p0 → ∀ p', p' ∈ F.nestPts r p0 → p ≠ p' → ∃ x ∈ D, p x.1 ≠ p' x.1 := fun p hp p' hp' hne => by
    by_contra hc
    push Not at hc
    exact hne (hL.inj hp hp' hc)
  rw [F.nest_eq]
  refine F.runPts_target (W := fun p z => allWrites w p ss z) (F.nodup_nestPts hL.nodup) (fun p hp m1 hi hv => ?_)
    (fun p hp p' hp' hne => hsep p hp p' (hL.inDom hp') (hdiff p hp p' hp' hne)) (fun q hq => h2.frame q fun p hp hw => ?_) h2.ints
  · obtain ⟨fs, e, hf⟩ := hs p hp
    obtain ⟨mp, g1, g2⟩ := h2.at_ p (hL.inDom hp)
    have g3 := doStmts_storeAll g1 fun i j e he hr =>
      h.before p (hL.inDom hp) _ he e (by simp [WStmt.operands]) (.inr ⟨i, j, _, rfl⟩) _ hr ⟨_, he, by simp [stmtWrites]⟩
    have hwa : ∀ z, allWrites w p ss z → ∃ v, m.val z = some v := fun z ⟨s, hs', hz⟩ => by
      have hent : ∀ i ∈ stmtEntries s, ∃ v, m.val (entryCell w p i) = some v := fun i hi => by
        obtain ⟨h0, h1⟩ := h.entries s hs' i hi
        obtain ⟨d, b, -, -, e, hin⟩ := h.toWindowFit.entry_inside (hL.inDom hp) h0 h1
        rw [e]; exact h.walloc _ hin
      cases s with
      | set1 i r =>
        simp only [stmtWrites, List.mem_singleton] at hz
        rw [hz]; exact hent i (by cases r <;> simp [stmtEntries])
      | set2 i j r =>
        simp only [stmtWrites, List.mem_cons, List.not_mem_nil, or_false] at hz
        rcases hz with rfl | rfl
        · exact hent i (by cases r <;> simp [stmtEntries])
        · exact hent j (by cases r <;> simp [stmtEntries])
      | self l u =>
        simp only [stmtWrites, List.mem_singleton] at hz
        rw [hz]; exact h.lalloc l u hs' p ((h.lhs l u hs').inside (hL.inDom hp))
    have hno : ∀ q, allWrites w p ss q → ¬ Elsewhere w D ss p q := fun q hq ⟨p', k1, k2, k3⟩ => hsep p hp p' k1 k2 q hq k3
    obtain ⟨m2, f1, f2, f3, f4⟩ := F.block_local (A := Elsewhere w D ss p) (fs := fs) (m := m) (m1 := m1) (fun x hx => by
      obtain ⟨c, hc, hcx⟩ := forall₂_right hf x hx
      have := flatS_writes hc
      refine ⟨⟨hcx.bounds, ?_, ?_⟩, hcx.refs⟩
      · rw [show (x.1, x.2.1).1.addrT (x.1, x.2.1).2 = c.1 from hcx.addr]; exact hwa _ this
      · rw [show (x.1, x.2.1).1.addrT (x.1, x.2.1).2 = c.1 from hcx.addr]; exact hno _ this) (fun q hq => by
      refine hv q fun p' hp' hne hw => hq ⟨p', hL.inDom hp', hdiff p hp p' hp' (Ne.symm hne), hw⟩)
    rw [sameStores_eq hf, ← g3] at f3
    refine ⟨m2, by rw [e]; exact f1, f2, fun q hq => ?_, fun q hq => f4 q fun x hx hxq => ?_⟩
    · rw [f3 q (hno q hq), g2 q hq]
    · obtain ⟨c, hc, hcx⟩ := forall₂_right hf x hx
      exact hq (by rw [← hxq, hcx.addr]; exact flatS_writes hc)
  · obtain ⟨p', hp', he⟩ := hL.surj hp
    exact hq p' hp' ((h.toWindowFit.writes_pt he).1 hw)

end

/-! ### plain statements -/

/-- operands of a statement that writes the cells `A`: they fit, are allocated, and are not in `A` -/
def Okay (m : Mem T) (A : Ptr → Prop) (D : List DB) : Expr T → Prop
  | .acc a => AccOK a D ∧ Allocated m (accArray a) ∧ ∀ p, InDom D p → ¬ A (accCell a p)
  | .stencil S d s => StencilOK S d s D ∧ Allocated m s ∧ ∀ p, InDom D p → ¬ A (cell s (lowPt S d p)) ∧ ¬ A (cell s (shiftPt (lowPt S d p) d 1))
  | .right _ _ e => Okay m A D e
  | .left _ e _ => Okay m A D e
  | .zip _ e f => Okay m A D e ∧ Okay m A D f
  | .dot _ _ _ _ _ => False
  | .fine _ _ _ => False

theorem Okay.exprOK {m : Mem T} {A : Ptr → Prop} {D : List DB} : ∀ {e : Expr T}, Okay m A D e → ExprOK m.ints D e
  | .acc _, h => h.1
  | .stencil _ _ _, h => h.1
  | .right _ _ e, h => Okay.exprOK (e := e) h
  | .left _ e _, h => Okay.exprOK (e := e) h
  | .zip _ e f, h => ⟨Okay.exprOK (e := e) h.1, Okay.exprOK (e := f) h.2⟩

theorem Okay.alloc {m : Mem T} {A : Ptr → Prop} {D : List DB} : ∀ {e : Expr T}, Okay m A D e → ∀ s ∈ arrays e, Allocated m s
  | .acc _, h, s, hs => by
    simp only [arrays, List.mem_singleton] at hs
    rw [hs]; exact h.2.1
  | .stencil _ _ _, h, s, hs => by
    simp only [arrays, List.mem_singleton] at hs
    rw [hs]; exact h.2.1
  | .right _ _ e, h, s, hs => Okay.alloc (e := e) h s hs
  | .left _ e _, h, s, hs => Okay.alloc (e := e) h s hs
  | .zip _ e f, h, s, hs => by
    simp only [arrays, List.mem_append] at hs
    rcases hs with hs | hs
    · exact Okay.alloc h.1 s hs
    · exact Okay.alloc h.2 s hs

theorem Okay.reads {m : Mem T} {A : Ptr → Prop} {D : List DB} {p : Pt} (hp : InDom D p) : ∀ {e : Expr T}, Okay m A D e →
    ∀ q ∈ reads m.ints (D.map (·.1)) e p, ¬ A q
  | .acc _, h, q, hq => by
    simp only [Spec.reads, List.mem_singleton] at hq
    rw [hq]; exact h.2.2 p hp
  | .stencil _ _ _, h, q, hq => by
    simp only [Spec.reads, List.mem_cons, List.not_mem_nil, or_false] at hq
    rcases hq with rfl | rfl
    · exact (h.2.2 p hp).1
    · exact (h.2.2 p hp).2
  | .right _ _ e, h, q, hq => Okay.reads hp (e := e) h q hq
  | .left _ e _, h, q, hq => Okay.reads hp (e := e) h q hq
  | .zip _ e f, h, q, hq => by
    simp only [Spec.reads, List.mem_append] at hq
    rcases hq with hq | hq
    · exact Okay.reads hp h.1 q hq
    · exact Okay.reads hp h.2 q hq

section
variable [Zero T] [Add T] [Sub T] [Mul T] [Div T] [Neg T]

/-- A statement and a loop nest that assigns the same values; the operands may be the array written, at cells not written. -/
theorem set_nest {lhs : Span} {e : Expr T} {D : List DB} {β : Backend} {m : Mem T} {r : List (Dim × Int × Int)} {p0 : Pt}
    {stmt : Pt → F.Cmd T} (hβ : ValidBackend β) (hD : UnitDom D) (hl : ArrOK m lhs) (hw : Within lhs.geo D)
    (he : Okay m (Writes D lhs) D e) (ht : HasShape e .num) (hL : Loop D r p0)
    (hs : ∀ p ∈ F.nestPts r p0, ∃ is fe, stmt p = F.assign (farr lhs) is fe ∧ is.reverse = lhs.geo.map (fun x => p x.1) ∧
      (∀ x ∈ fe.refs, F.Good m (Writes D lhs) x) ∧ fe.evalT m = (denT m (D.map (·.1)) e p).first) :
    ∃ m', (lhs.set e).exec D β m = .ok m' ∧ F.nest stmt r p0 m = .ok m' ∧ Left D lhs (fun p => (denT m (D.map (·.1)) e p).first) m m' := by
  have hlo : LhsOK lhs D := ⟨hl.geo, hw.req hl.geo hD, hw.len⟩
  obtain ⟨m', h1, h2⟩ := C15_assign (a := ⟨lhs, .expr e⟩) hβ (hw.int hl.geo hD) ⟨hlo, he.exprOK, ht, hl.alloc, he.alloc, fun p q hp hq hm =>
    absurd ⟨p, hp, rfl⟩ (he.reads hq _ hm)⟩
  have hval : ∀ p, InDom D p → m'.val (cell lhs p) = some (denT m (D.map (·.1)) e p).first := fun p hp => by
    obtain ⟨v, h3, h4⟩ := h2.at_ p hp
    have := rhsT_eq h3
    simp only [rhsT] at this
    rw [h4, this]
  refine ⟨m', h1, ?_, hval, fun q hq => h2.frame q fun p hp e => hq ⟨p, hp, e⟩, h2.ints⟩
  rw [F.nest_eq]
  refine F.runPts_target (W := fun p z => cell lhs p = z) (F.nodup_nestPts hL.nodup) (fun p hp m1 hi hv => ?_)
    (fun p hp p' hp' hne q e1 e2 => hne (hL.inj hp hp' (hlo.cell_inj (hL.inDom hp) (hL.inDom hp') (e1.trans e2.symm))))
    (fun q hq => h2.frame q fun p hp e => ?_) h2.ints
  · obtain ⟨is, fe, g1, g2, g3, g4⟩ := hs p hp
    have hpD := hL.inDom hp
    have hin := inside_addr (hw.elem hl.geo hD hpD)
    rw [← g2, List.reverse_reverse] at hin
    have hev := F.eval_good (m := m) (m1 := m1) (A := Writes D lhs) (fun q hq => hv q fun p' hp' _ e' => hq ⟨p', hL.inDom hp', e'⟩) g3
    obtain ⟨v, hvv⟩ := hl.alloc p (hlo.inside hpD)
    have hvv1 : m1.val (cell lhs p) = some v := by
      rw [hv _ fun p' hp' hne e' => hne (hL.inj hp' hp (hlo.cell_inj (hL.inDom hp') hpD e'))]; exact hvv
    refine ⟨{ m1 with val := fun z => if z = cell lhs p then some (denT m (D.map (·.1)) e p).first else m1.val z }, ?_, rfl, fun q hq => ?_, fun q hq => ?_⟩
    · rw [g1]
      unfold F.assign
      rw [hev, M.ok_bind, F.Arr.addr, if_pos hin.1, M.ok_bind]
      have := hin.2
      unfold F.Arr.addrT at this
      rw [this, Mem.store, hvv1, g4]
    · dsimp only
      rw [if_pos hq.symm, ← hq, hval p hpD]
    · dsimp only
      rw [if_neg fun e' => hq e'.symm]
  · obtain ⟨p', hp', hx⟩ := hL.surj hp
    exact hq p' hp' (by rw [← e]; exact (cell_congr (full_agree hlo.req hlo.len hx)).symm)

end

end Verif
