import Verif.Spec.Steps
import Verif.Lemmas.Parallel

/-
Single accesses against whole steps.
-/

namespace Verif
open Spec

variable {T A B : Type}

/-! ### the computations are those of the coarser model -/

@[simp] theorem Comp.run_bind : ∀ (c : Comp T A) (g : A → Comp T B) (m : Mem T), (c >>= g).run m = c.run m >>= fun a => (g a).run m
  | .ret _, _, _ => rfl
  | .fail _, _, _ => rfl
  | .load p f, g, m => by
    show (m.load p >>= fun v => ((f v) >>= g).run m) = (m.load p >>= fun v => (f v).run m) >>= _
    cases m.load p with
    | error e => rfl
    | ok v => exact Comp.run_bind (f v) g m
  | .loadInt p f, g, m => by
    show (m.loadInt p >>= fun v => ((f v) >>= g).run m) = (m.loadInt p >>= fun v => (f v).run m) >>= _
    cases m.loadInt p with
    | error e => rfl
    | ok v => exact Comp.run_bind (f v) g m

@[simp] theorem Comp.run_lift (x : M A) (m : Mem T) : (Comp.lift x : Comp T A).run m = x := by cases x <;> rfl

@[simp] theorem Comp.run_ret (a : A) (m : Mem T) : (Comp.ret a : Comp T A).run m = .ok a := rfl

@[simp] theorem Comp.run_fail (e : UB) (m : Mem T) : (Comp.fail e : Comp T A).run m = .error e := rfl

@[simp] theorem Comp.run_load (p : Ptr) (f : T → Comp T A) (m : Mem T) : (Comp.load p f).run m = m.load p >>= fun v => (f v).run m := rfl

@[simp] theorem Comp.run_loadInt (p : Ptr) (f : Int → Comp T A) (m : Mem T) :
    (Comp.loadInt p f).run m = m.loadInt p >>= fun v => (f v).run m := rfl

theorem ldv_run (p : Ptr) (m : Mem T) : (ldv p : Comp T (Val T)).run m = (do let x ← m.load p; .ok (.num x)) := rfl

theorem ldp_run (p q : Ptr) (m : Mem T) :
    (ldp p q : Comp T (Val T)).run m = (do let x ← m.load p; let y ← m.load q; .ok (.pair x y)) := rfl

theorem offLoopC_run (o : Ptr) (base : Int) (m : Mem T) : ∀ (ss : List Int) (j acc : Int),
    (offLoopC o base j ss acc : Comp T Int).run m = offLoopI m o base j ss acc
  | [], _, _ => rfl
  | s :: ss, j, acc => by simp only [offLoopC, offLoopI, Comp.run_bind, Comp.run_lift, Comp.run_loadInt, offLoopC_run o base m ss]

theorem offAddrC_run (first : Ptr) (stride : List Int) (o : Ptr) (i : Int) (m : Mem T) :
    (offAddrC first stride o i : Comp T Ptr).run m = offAddr m first stride o i := by
  simp only [offAddrC, offAddr, Comp.run_bind, Comp.run_lift, offLoopC_run, Comp.run_ret]

theorem dotLoopC_run (acc : T → T → T → T) (st it : Ptr) (stride : List Int) (o : Ptr) (m : Mem T) : ∀ (n : Nat) (i : Int) (res : T),
    (dotLoopC acc st it stride o n i res).run m = dotLoop m acc st it stride o n i res
  | 0, _, _ => rfl
  | n + 1, i, res => by
    simp only [dotLoopC, dotLoop, Comp.run_bind, Comp.run_load, offAddrC_run, dotLoopC_run acc st it stride o m n]

theorem It.derefC_run (m : Mem T) : ∀ i : It T, i.derefC.run m = i.deref m
  | mt v => by simp only [derefC, deref, Comp.run_bind, Comp.run_lift, ldv_run]
  | fs v => by simp only [derefC, deref, Comp.run_bind, Comp.run_lift, ldp_run]
  | c2f v => by simp only [derefC, deref, Comp.run_bind, Comp.run_lift, ldv_run]
  | right op t i => by simp only [derefC, deref, Comp.run_bind, Comp.run_lift, It.derefC_run m i]
  | left op i t => by simp only [derefC, deref, Comp.run_bind, Comp.run_lift, It.derefC_run m i]
  | zip op i j => by simp only [derefC, deref, Comp.run_bind, Comp.run_lift, It.derefC_run m i, It.derefC_run m j]
  | dot z a i j s o n => by simp only [derefC, deref, Comp.run_bind, Comp.run_lift, dotLoopC_run, Comp.run_ret]

theorem Reg.getC_run (m : Mem T) : ∀ g : Reg T, g.getC.run m = g.get m
  | .val _ => rfl
  | .ref _ => rfl
  | .refs _ _ => rfl

theorem It.derefRefC_run (m : Mem T) (i : It T) : i.derefRefC.run m = i.derefRef m := by
  cases i <;> simp only [derefRefC, derefRef, Comp.run_bind, Comp.run_lift, Comp.run_ret, It.derefC_run]

theorem tupleGetC_run (r : List (Reg T)) (m : Mem T) (base j : Nat) : (tupleGetC r base j).run m = tupleGet r m base j := by
  unfold tupleGetC tupleGet
  cases r[base + j]? with
  | none => rfl
  | some g => exact Reg.getC_run m g

theorem Proxy.evalC_run {win : Int → Comp T (Val T)} {t : Nat → Comp T (Val T)} {m : Mem T} {win' : Int → M (Val T)} {t' : Nat → M (Val T)}
    (hw : ∀ i, (win i).run m = win' i) (ht : ∀ j, (t j).run m = t' j) : ∀ u : Proxy T, (u.evalC win t).run m = u.eval win' t'
  | .entry i => hw i
  | .pp op u v => by simp only [evalC, eval, Comp.run_bind, Comp.run_lift, Proxy.evalC_run hw ht u, Proxy.evalC_run hw ht v]
  | .pn op u c => by simp only [evalC, eval, Comp.run_bind, Comp.run_lift, Proxy.evalC_run hw ht u]
  | .np op c v => by simp only [evalC, eval, Comp.run_bind, Comp.run_lift, Proxy.evalC_run hw ht v]
  | .pe op u e => by simp only [evalC, eval, Comp.run_bind, Comp.run_lift, Proxy.evalC_run hw ht u, ht]
  | .ep op e v => by simp only [evalC, eval, Comp.run_bind, Comp.run_lift, Proxy.evalC_run hw ht v, ht]

theorem proxyValC_run (win : M Ptr) (base : Nat) (u : Proxy T) (r : List (Reg T)) (m : Mem T) :
    (proxyValC win base u r).run m = proxyVal win base u r m :=
  Proxy.evalC_run (fun i => by simp only [Comp.run_bind, Comp.run_lift, ldv_run]) (fun j => tupleGetC_run r m base j) u

/-- a step whose loads happen together -/
def Fine.micro : Fine T → Micro T
  | .rd f => .rd fun r m => (f r).run m
  | .wr p => .wr p

theorem assignFine_micro {rd : Int → Comp T T} {rd' : Int → Mem T → M T} (h : ∀ k m, (rd k).run m = rd' k m) (out : MT) (σ : Sched) (k : Int) :
    (assignFine rd out σ.whist k).map Fine.micro = assignThread rd' out σ k := by
  simp only [assignFine, assignThread, List.map_cons, List.map_nil, Fine.micro, Comp.run_bind, h, Comp.run_ret]

theorem setFine_micro {f : List (Reg T) → Comp T (Val T)} {f' : List (Reg T) → Mem T → M (Val T)} (h : ∀ r m, (f r).run m = f' r m) (p : M Ptr) :
    (setFine f p).map Fine.micro = setStep f' p := by
  simp only [setFine, setStep, List.map_cons, List.map_nil, Fine.micro, Comp.run_bind, h, Comp.run_ret, Comp.run_lift]

theorem WStmt.fine_micro (win lhs : M Ptr) (base : Nat) (s : WStmt T) : (s.fine win lhs base).map Fine.micro = s.steps win lhs base := by
  rcases s with ⟨i, t | e | u⟩ | ⟨i, j, t | e | u⟩ | ⟨l, u⟩ <;> simp only [WStmt.fine, WStmt.steps, List.map_append]
  · exact setFine_micro (fun _ _ => rfl) _
  · exact setFine_micro (fun _ _ => tupleGetC_run _ _ _ _) _
  · exact setFine_micro (fun _ _ => proxyValC_run _ _ _ _ _) _
  · rw [setFine_micro (f' := fun _ _ => .ok (.num t)) (fun _ _ => rfl), setFine_micro (f' := fun _ _ => .ok (.num t)) (fun _ _ => rfl)]
  · rw [setFine_micro (f' := fun r m => do let x ← tupleGet r m base 0; x.fst), setFine_micro (f' := fun r m => do let x ← tupleGet r m base 0; x.snd)]
    all_goals
      intro r m
      simp only [Comp.run_bind, tupleGetC_run, Comp.run_lift]
  · rfl
  · exact setFine_micro (fun _ _ => proxyValC_run _ _ _ _ _) _

theorem allFine_micro (h : List Move) (w : MT) : ∀ (ps : List (Prepared T)) (base : Nat), (allFine h w base ps).map Fine.micro = allSteps h w base ps
  | [], _ => rfl
  | x :: xs, base => by simp only [allFine, allSteps, List.map_append, WStmt.fine_micro, allFine_micro h w xs]

theorem windowFine_micro (h : List Move) (w : MT) (ps : List (Prepared T)) : (windowFine h w ps).map Fine.micro = windowThread h w ps := by
  unfold windowFine windowThread
  rw [List.map_append, allFine_micro, List.map_map]
  congr 1
  refine List.map_congr_left fun i _ => ?_
  simp only [Function.comp, operandFine, operandStep, Fine.micro, Comp.run_bind, Comp.run_lift, It.derefRefC_run]

/-! ### an element on its own -/

/-- the accesses left, done without interruption, keep to the cells `R` and `W`; there are `c` of them, and they end in `fin` -/
def Alone (R W : Ptr → Prop) : Prog T → Nat → Mem T → Mem T → Prop
  | .done, c, m, fin => c = 0 ∧ fin = m
  | .fail _, _, _, _ => False
  | .load p f, c, m, fin => (R p ∨ W p) ∧ ∃ v c', c = c' + 1 ∧ m.val p = some v ∧ Alone R W (f v) c' m fin
  | .loadInt p f, c, m, fin => ∃ v c', c = c' + 1 ∧ m.ints p = some v ∧ Alone R W (f v) c' m fin
  | .store p v f, c, m, fin => W p ∧ ∃ w c', c = c' + 1 ∧ m.val p = some w ∧
      Alone R W f c' { m with val := fun q => if q = p then some v else m.val q } fin

open Classical in
/-- a memory that holds only the cells in `F` -/
noncomputable def Mem.only (F : Ptr → Prop) (m : Mem T) : Mem T := ⟨fun q => if F q then m.val q else none, m.ints⟩

theorem Mem.only_agree (F : Ptr → Prop) (m : Mem T) : Agree F m (m.only F) :=
  ⟨rfl, fun q hq => by simp only [Mem.only, if_pos hq]⟩

theorem alone_andThen {R W : Ptr → Prop} {m fin : Mem T} {g : A → Prog T} {a : A} {c' : Nat} (hg : Alone R W (g a) c' m fin) :
    ∀ {c : Comp T A}, c.run (m.only fun q => R q ∨ W q) = .ok a → ∃ n, Alone R W (c.andThen g) n m fin
  | .ret b, h => by
    simp only [Comp.run_ret, Except.ok.injEq] at h
    subst h
    exact ⟨c', hg⟩
  | .fail e, h => by cases h
  | .load p f, h => by
    simp only [Comp.run_load, Mem.load, Mem.only] at h
    by_cases hp : R p ∨ W p
    · rw [if_pos hp] at h
      cases hv : m.val p with
      | none => rw [hv] at h; cases h
      | some v =>
        rw [hv] at h
        obtain ⟨n, hn⟩ := alone_andThen hg (c := f v) h
        exact ⟨n + 1, hp, v, n, rfl, hv, hn⟩
    · rw [if_neg hp] at h; cases h
  | .loadInt p f, h => by
    simp only [Comp.run_loadInt, Mem.loadInt, Mem.only] at h
    cases hv : m.ints p with
    | none => rw [hv] at h; cases h
    | some v =>
      rw [hv] at h
      obtain ⟨n, hn⟩ := alone_andThen hg (c := f v) h
      exact ⟨n + 1, v, n, rfl, hv, hn⟩

theorem Safe.alone {R W : Ptr → Prop} : ∀ {as : List (Fine T)} {r : List (Reg T)} {m : Mem T} {out : List (Reg T) × Mem T} {tab : Ptr → Option Int},
    m.ints = tab → Safe tab R W (as.map Fine.micro) r m out → ∃ c, Alone R W (fineProg as r) c m out.2
  | [], r, m, out, tab, _, h => by
    simp only [List.map_nil, Safe] at h
    exact ⟨0, rfl, by rw [h]⟩
  | .rd f :: as, r, m, out, tab, hm, h => by
    obtain ⟨h1, ⟨r', m'⟩, h2, h3⟩ := h
    simp only [Fine.micro, Micro.Local] at h1
    simp only [Fine.micro, Micro.run] at h2
    cases e : (f r).run m with
    | error e' => rw [e] at h2; cases h2
    | ok v =>
      rw [e] at h2
      simp only [M.ok_bind, Except.ok.injEq, Prod.mk.injEq] at h2
      obtain ⟨rfl, rfl⟩ := h2
      obtain ⟨c, hc⟩ := Safe.alone hm h3
      have := h1 m (m.only fun q => R q ∨ W q) hm (Mem.only_agree _ m)
      rw [e] at this
      exact alone_andThen (g := fun v => fineProg as (r ++ [v])) hc this.symm
  | .wr p :: as, r, m, out, tab, hm, h => by
    obtain ⟨⟨q, rfl, hq⟩, ⟨r', m'⟩, h2, h3⟩ := h
    simp only [Fine.micro, Micro.run, M.ok_bind] at h2
    simp only [fineProg]
    cases hr : r.getLast? with
    | none => rw [hr] at h2; cases h2
    | some g =>
      rw [hr] at h2
      rcases g with ⟨v | ⟨v1, v2⟩⟩ | g | ⟨g1, g2⟩
      rotate_left
      · cases h2
      · cases h2
      · cases h2
      simp only [Mem.store] at h2
      cases e : m.val q with
      | none => rw [e] at h2; cases h2
      | some w =>
        rw [e] at h2
        simp only [M.ok_bind, Except.ok.injEq, Prod.mk.injEq] at h2
        obtain ⟨rfl, rfl⟩ := h2
        obtain ⟨c, hc⟩ := Safe.alone (m := { m with val := fun z => if z = q then some v else m.val z }) hm h3
        exact ⟨c + 1, hq, w, c, rfl, e, hc⟩

/-- the next access gives the same on memories that agree on the cells in question -/
theorem Alone.step {R W : Ptr → Prop} {s : FState T} {k : Int} {c : Nat} {mk fin : Mem T} (h : Alone R W (s.prog k) (c + 1) mk fin)
    (ha : Agree (fun q => R q ∨ W q) mk s.mem) : ∃ s' mk', s.step k = .ok s' ∧ (∀ j, j ≠ k → s'.prog j = s.prog j) ∧
      Alone R W (s'.prog k) c mk' fin ∧ Agree (fun q => R q ∨ W q) mk' s'.mem ∧ s'.mem.ints = s.mem.ints ∧
      ∀ q, ¬ W q → s'.mem.val q = s.mem.val q := by
  unfold FState.step
  cases e : s.prog k with
  | done => rw [e] at h; simp only [Alone] at h; omega
  | fail _ => rw [e] at h; exact h.elim
  | load p f =>
    rw [e] at h
    obtain ⟨hp, v, c', hc, hv, h⟩ := h
    obtain rfl : c = c' := by omega
    rw [ha.2 p hp] at hv
    simp only [Mem.load, hv, M.ok_bind]
    exact ⟨_, mk, rfl, fun j hj => if_neg hj, by simp only [if_true]; exact h, ha, rfl, fun _ _ => rfl⟩
  | loadInt p f =>
    rw [e] at h
    obtain ⟨v, c', hc, hv, h⟩ := h
    obtain rfl : c = c' := by omega
    rw [ha.1] at hv
    simp only [Mem.loadInt, hv, M.ok_bind]
    exact ⟨_, mk, rfl, fun j hj => if_neg hj, by simp only [if_true]; exact h, ha, rfl, fun _ _ => rfl⟩
  | store p v f =>
    rw [e] at h
    obtain ⟨hp, w, c', hc, hv, h⟩ := h
    obtain rfl : c = c' := by omega
    rw [ha.2 p (Or.inr hp)] at hv
    simp only [Mem.store, hv, M.ok_bind]
    refine ⟨_, { mk with val := fun q => if q = p then some v else mk.val q }, rfl, fun j hj => if_neg hj,
      by simp only [if_true]; exact h, ⟨ha.1, fun z hz => ?_⟩, rfl, fun z hz => ?_⟩
    · simp only
      split
      · rfl
      · exact ha.2 z hz
    · have : z ≠ p := fun e => hz (e ▸ hp)
      simp [this]

theorem Alone.zero {R W : Ptr → Prop} {p : Prog T} {m fin : Mem T} (h : Alone R W p 0 m fin) : p = .done ∧ fin = m := by
  cases p with
  | done => exact ⟨rfl, h.2⟩
  | fail _ => exact h.elim
  | load _ _ => obtain ⟨-, _, _, h, -⟩ := h; omega
  | loadInt _ _ => obtain ⟨_, _, h, -⟩ := h; omega
  | store _ _ _ => obtain ⟨-, _, _, h, -⟩ := h; omega

/-! ### all elements together -/

theorem runFine_append {s s' : FState T} {tr' : List Int} : ∀ {tr : List Int} {s0 : FState T}, runFine tr s0 = .ok s → runFine tr' s = .ok s' →
    runFine (tr ++ tr') s0 = .ok s'
  | [], s0, h, h' => by
    simp only [runFine, Except.ok.injEq] at h
    subst h; exact h'
  | k :: tr, s0, h, h' => by
    simp only [runFine, List.cons_append] at h ⊢
    cases e : s0.step k with
    | error e' => rw [e] at h; cases h
    | ok s1 =>
      rw [e] at h
      exact runFine_append h h'

theorem Mem.ext' {m m' : Mem T} (h : m.val = m'.val) (h' : m.ints = m'.ints) : m = m' := by
  cases m; cases m'; cases h; cases h'; rfl

theorem RaceFree.settles {n : Int} {threads : Int → List (Fine T)} {m m' : Mem T} (h : RaceFree n (fun k => (threads k).map Fine.micro) m m') :
    Settles (startFine n threads m) m' := by
  obtain ⟨R, W, fin, hsafe, hdis, hints, hat, hframe⟩ := h
  have hcnt : ∀ k, ∃ c, (0 ≤ k ∧ k < n → Alone (R k) (W k) (fineProg (threads k) []) c m (fin k).2) ∧ (¬ (0 ≤ k ∧ k < n) → c = 0) := by
    intro k
    by_cases hk : 0 ≤ k ∧ k < n
    · obtain ⟨c, hc⟩ := Safe.alone rfl (hsafe k hk.1 hk.2)
      exact ⟨c, fun _ => hc, fun h => absurd hk h⟩
    · exact ⟨0, fun h => absurd h hk, fun _ => rfl⟩
  choose c hc hc0 using hcnt
  -- what holds after any number of accesses
  let Inv : FState T → (Int → Nat) → Prop := fun s left =>
    s.mem.ints = m.ints ∧ (∀ q, (∀ k, 0 ≤ k → k < n → ¬ W k q) → s.mem.val q = m.val q) ∧
    (∀ k, 0 ≤ k ∧ k < n → ∃ mk, Alone (R k) (W k) (s.prog k) (left k) mk (fin k).2 ∧ Agree (fun q => R k q ∨ W k q) mk s.mem) ∧
    ∀ k, ¬ (0 ≤ k ∧ k < n) → s.prog k = .done ∧ left k = 0
  have hstep : ∀ s left k, Inv s left → 0 < left k → ∃ s', s.step k = .ok s' ∧ Inv s' (fun j => if j = k then left k - 1 else left j) := by
    intro s left k hI hpos
    obtain ⟨hi, ho, hth, hout⟩ := hI
    by_cases hk : 0 ≤ k ∧ k < n
    · obtain ⟨mk, hal, hag⟩ := hth k hk
      obtain ⟨c', hc'⟩ : ∃ c', left k = c' + 1 := ⟨left k - 1, by omega⟩
      rw [hc'] at hal
      obtain ⟨s', mk', h1, h2, h3, h4, h5, h6⟩ := hal.step hag
      refine ⟨s', h1, h5.trans hi, fun q hq => by rw [h6 q (hq k hk.1 hk.2), ho q hq], fun j hj => ?_, fun j hj => ?_⟩
      · by_cases e : j = k
        · subst e
          simp only [if_true, hc']
          exact ⟨mk', h3, h4⟩
        · simp only [if_neg e, h2 j e]
          obtain ⟨mj, t1, t2⟩ := hth j hj
          refine ⟨mj, t1, t2.1.trans h5.symm, fun q hq => ?_⟩
          rw [t2.2 q hq, h6 q]
          intro hw
          have := hdis k j hk.1 hk.2 hj.1 hj.2 (Ne.symm e) q hw
          rcases hq with h | h
          · exact this.1 h
          · exact this.2 h
      · have e : j ≠ k := fun e => hj (e ▸ hk)
        simp only [if_neg e, h2 j e]
        exact hout j hj
    · rw [(hout k hk).2] at hpos; omega
  have hdone : ∀ s left k, Inv s left → left k = 0 → s.prog k = .done := by
    intro s left k hI hz
    by_cases hk : 0 ≤ k ∧ k < n
    · obtain ⟨mk, hal, -⟩ := hI.2.2.1 k hk
      rw [hz] at hal
      exact hal.zero.1
    · exact (hI.2.2.2 k hk).1
  have main : ∀ tr s left s', Inv s left → runFine tr s = .ok s' →
      (∀ k, tr.count k ≤ left k) ∧ Inv s' (fun k => left k - tr.count k) := by
    intro tr
    induction tr with
    | nil =>
      intro s left s' hI hr
      simp only [runFine, Except.ok.injEq] at hr
      subst hr
      exact ⟨fun k => by simp, by simpa using hI⟩
    | cons k tr ih =>
      intro s left s' hI hr
      rcases Nat.eq_zero_or_pos (left k) with hz | hpos
      · simp only [runFine, FState.step, hdone s left k hI hz] at hr
        cases hr
      · obtain ⟨s1, h1, hI1⟩ := hstep s left k hI hpos
        simp only [runFine, h1, M.ok_bind] at hr
        obtain ⟨h2, h3⟩ := ih s1 _ s' hI1 hr
        refine ⟨fun j => ?_, ?_⟩
        · have := h2 j
          by_cases e : j = k
          · subst e; simp only [if_true] at this; rw [List.count_cons_self]; omega
          · simp only [if_neg e] at this; rw [List.count_cons_of_ne (Ne.symm e)]; exact this
        · have : (fun j => (if j = k then left k - 1 else left j) - tr.count j) = fun j => left j - (k :: tr).count j := by
            funext j
            by_cases e : j = k
            · subst e; simp only [if_true, List.count_cons_self]; omega
            · simp only [if_neg e, List.count_cons_of_ne (Ne.symm e)]
          rw [this] at h3; exact h3
  have hinit : Inv (startFine n threads m) c := by
    refine ⟨rfl, fun _ _ => rfl, fun k hk => ⟨m, ?_, rfl, fun _ _ => rfl⟩, fun k hk => ⟨?_, hc0 k hk⟩⟩
    · simp only [startFine, if_pos hk]; exact hc k hk
    · simp only [startFine, if_neg hk]
  -- one element after the other
  have one : ∀ (d : Nat) s left k, Inv s left → left k = d → ∃ tr s' left', runFine tr s = .ok s' ∧ Inv s' left' ∧ left' k = 0 ∧ ∀ j, left' j ≤ left j := by
    intro d
    induction d with
    | zero => intro s left k hI h0; exact ⟨[], s, left, rfl, hI, h0, fun _ => Nat.le_refl _⟩
    | succ d ih =>
      intro s left k hI h0
      obtain ⟨s1, h1, hI1⟩ := hstep s left k hI (by omega)
      obtain ⟨tr, s', left', h2, h3, h4, h5⟩ := ih s1 _ k hI1 (by simp only [if_true]; omega)
      refine ⟨k :: tr, s', left', by simp only [runFine, h1, M.ok_bind, h2], h3, h4, fun j => Nat.le_trans (h5 j) ?_⟩
      split
      · rename_i e; subst e; omega
      · exact Nat.le_refl _
  have all : ∀ (ks : List Int) s left, Inv s left → ∃ tr s' left', runFine tr s = .ok s' ∧ Inv s' left' ∧ (∀ k ∈ ks, left' k = 0) ∧
      ∀ j, left' j ≤ left j := by
    intro ks
    induction ks with
    | nil => intro s left hI; exact ⟨[], s, left, rfl, hI, fun _ h => (List.not_mem_nil h).elim, fun _ => Nat.le_refl _⟩
    | cons k ks ih =>
      intro s left hI
      obtain ⟨tr, s1, l1, h1, h2, h3, h4⟩ := one _ s left k hI rfl
      obtain ⟨tr', s2, l2, h5, h6, h7, h8⟩ := ih s1 l1 h2
      refine ⟨tr ++ tr', s2, l2, runFine_append h1 h5, h6, fun j hj => ?_, fun j => Nat.le_trans (h8 j) (h4 j)⟩
      rcases List.mem_cons.1 hj with rfl | hj
      · have := h8 j; omega
      · exact h7 j hj
  refine ⟨⟨c, fun tr s' hr => (main tr _ _ s' hinit hr).1⟩, fun tr s' hr k => ?_, fun tr s' hr hd => ?_, ?_⟩
  · obtain ⟨-, hI⟩ := main tr _ _ s' hinit hr
    rcases Nat.eq_zero_or_pos (c k - tr.count k) with hz | hpos
    · exact Or.inl (hdone _ _ _ hI hz)
    · obtain ⟨s'', h1, -⟩ := hstep _ _ k hI hpos
      exact Or.inr ⟨s'', h1⟩
  · obtain ⟨-, hi, ho, hth, -⟩ := main tr _ _ s' hinit hr
    refine Mem.ext' (funext fun q => ?_) (hi.trans hints.symm)
    by_cases hq : ∃ k, (0 ≤ k ∧ k < n) ∧ W k q
    · obtain ⟨k, hk, hw⟩ := hq
      obtain ⟨mk, hal, hag⟩ := hth k hk
      rw [hd k] at hal
      rw [hat k hk.1 hk.2 q hw, hal.2]
      exact (hag.2 q (Or.inr hw)).symm
    · rw [ho q fun k k0 k1 hw => hq ⟨k, ⟨k0, k1⟩, hw⟩, hframe q fun k k0 k1 hw => hq ⟨k, ⟨k0, k1⟩, hw⟩]
  · obtain ⟨tr, s', left', h1, h2, h3, -⟩ := all ((List.range n.toNat).map fun j : Nat => (j : Int)) _ _ hinit
    refine ⟨tr, s', h1, fun k => ?_⟩
    by_cases hk : 0 ≤ k ∧ k < n
    · exact hdone _ _ _ h2 (h3 k (List.mem_map.2 ⟨k.toNat, List.mem_range.2 (by omega), by omega⟩))
    · exact (h2.2.2.2 k hk).1

end Verif
