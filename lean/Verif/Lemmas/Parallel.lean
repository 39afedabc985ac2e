import Verif.Spec.Parallel

namespace Verif
open Spec

variable {T : Type}

/-- memories that agree on a set of cells (and on the offset tables) -/
def Agree (F : Ptr → Prop) (m m' : Mem T) : Prop := m.ints = m'.ints ∧ ∀ q, F q → m.val q = m'.val q

/-- a step that, given what the element keeps, looks at cells in `R` or `W` and writes cells in `W`, with offset tables `tab` -/
def Micro.Local (tab : Ptr → Option Int) (R W : Ptr → Prop) (r : List (Reg T)) : Micro T → Prop
  | .rd f => ∀ m m' : Mem T, m.ints = tab → Agree (fun q => R q ∨ W q) m m' → f r m = f r m'
  | .wr p => ∃ q, p = .ok q ∧ W q

/-- the steps of one element executed without interruption keep to their cells and end in `out` -/
def Safe (tab : Ptr → Option Int) (R W : Ptr → Prop) : List (Micro T) → List (Reg T) → Mem T → List (Reg T) × Mem T → Prop
  | [], r, m, out => out = (r, m)
  | a :: as, r, m, out => a.Local tab R W r ∧ ∃ x, a.run r m = .ok x ∧ Safe tab R W as x.1 x.2 out

theorem Safe.append {tab : Ptr → Option Int} {R W : Ptr → Prop} : ∀ {as bs : List (Micro T)} {r : List (Reg T)} {m : Mem T}
    {x y : List (Reg T) × Mem T}, Safe tab R W as r m x → Safe tab R W bs x.1 x.2 y → Safe tab R W (as ++ bs) r m y
  | [], bs, r, m, x, y, h, h' => by
    simp only [Safe] at h
    subst h; exact h'
  | a :: as, bs, r, m, x, y, h, h' => by
    obtain ⟨h1, z, h2, h3⟩ := h
    exact ⟨h1, z, h2, Safe.append h3 h'⟩

/-- a step does the same on memories that agree where it looks, and changes only cells it may write -/
theorem Micro.run_local {tab : Ptr → Option Int} {R W : Ptr → Prop} {a : Micro T} {r : List (Reg T)} (h : a.Local tab R W r)
    {m m' : Mem T} (hm : m.ints = tab) (ha : Agree (fun q => R q ∨ W q) m m') {r1 : List (Reg T)} {m1 : Mem T} (h1 : a.run r m = .ok (r1, m1)) :
    ∃ m1', a.run r m' = .ok (r1, m1') ∧ Agree (fun q => R q ∨ W q) m1 m1' ∧ m1'.ints = m'.ints ∧
      ∀ q, ¬ W q → m1'.val q = m'.val q := by
  cases a with
  | rd f =>
    simp only [Micro.run] at *
    rw [← h m m' hm ha]
    cases e : f r m with
    | error e' => rw [e] at h1; cases h1
    | ok v =>
      rw [e] at h1
      simp only [M.ok_bind, Except.ok.injEq, Prod.mk.injEq] at h1
      obtain ⟨rfl, rfl⟩ := h1
      exact ⟨m', rfl, ha, rfl, fun _ _ => rfl⟩
  | wr p =>
    obtain ⟨q, rfl, hq⟩ := h
    simp only [Micro.run, M.ok_bind] at *
    cases hr : r.getLast? with
    | none => rw [hr] at h1; cases h1
    | some g =>
      rw [hr] at h1
      rcases g with ⟨v | ⟨v1, v2⟩⟩ | g | ⟨g1, g2⟩
      rotate_left
      · cases h1
      · cases h1
      · cases h1
      simp only [Mem.store] at *
      rw [← ha.2 q (Or.inr hq)]
      cases e : m.val q with
      | none => rw [e] at h1; cases h1
      | some w =>
        rw [e] at h1
        simp only [M.ok_bind, Except.ok.injEq, Prod.mk.injEq] at h1
        obtain ⟨rfl, rfl⟩ := h1
        refine ⟨_, rfl, ⟨ha.1, fun z hz => ?_⟩, rfl, fun z hz => ?_⟩
        · simp only
          split
          · rfl
          · exact ha.2 z hz
        · have : z ≠ q := fun e => hz (e ▸ hq)
          simp [this]

/-- elements whose written cells no other element looks at: every trace gives the same memory -/
theorem parallel_ok {n : Int} {c : Nat} {threads : Int → List (Micro T)} {R W : Int → Ptr → Prop} {m : Mem T}
    {fin : Int → List (Reg T) × Mem T} {trace : List Int}
    (hlen : ∀ k, 0 ≤ k → k < n → (threads k).length = c)
    (hsafe : ∀ k, 0 ≤ k → k < n → Safe m.ints (R k) (W k) (threads k) [] m (fin k))
    (hdis : ∀ k k', 0 ≤ k → k < n → 0 ≤ k' → k' < n → k ≠ k' → ∀ q, W k q → ¬ R k' q ∧ ¬ W k' q)
    (htr : ∀ k, trace.count k = if 0 ≤ k ∧ k < n then c else 0) :
    ∃ m', parallel threads trace m = .ok m' ∧ m'.ints = m.ints ∧
      (∀ k, 0 ≤ k → k < n → ∀ q, W k q → m'.val q = (fin k).2.val q) ∧
      (∀ q, (∀ k, 0 ≤ k → k < n → ¬ W k q) → m'.val q = m.val q) := by
  -- invariant: around each element memory looks as if it were alone
  let Inv : PState T → (Int → Nat) → Prop := fun s left =>
    s.mem.ints = m.ints ∧ (∀ q, (∀ k, 0 ≤ k → k < n → ¬ W k q) → s.mem.val q = m.val q) ∧
    ∀ k, 0 ≤ k → k < n → (s.todo k).length = left k ∧ ∃ mk, Safe m.ints (R k) (W k) (s.todo k) (s.reg k) mk (fin k) ∧
      Agree (fun q => R k q ∨ W k q) mk s.mem
  have main : ∀ (tr : List Int) (s : PState T) (left : Int → Nat), Inv s left → (∀ k ∈ tr, 0 ≤ k ∧ k < n) →
      (∀ k, 0 ≤ k → k < n → tr.count k ≤ left k) →
      ∃ s', runTrace tr s = .ok s' ∧ Inv s' fun k => left k - tr.count k := by
    intro tr
    induction tr with
    | nil => intro s left hI _ _; exact ⟨s, rfl, by simpa using hI⟩
    | cons k tr ih =>
      intro s left hI hr hc
      obtain ⟨hints, hout, hth⟩ := hI
      obtain ⟨k0, k1⟩ := hr k List.mem_cons_self
      obtain ⟨htl, mk, hso, hag⟩ := hth k k0 k1
      have hck := hc k k0 k1
      rw [List.count_cons_self] at hck
      obtain ⟨a, as, has⟩ : ∃ a as, s.todo k = a :: as := by
        cases e : s.todo k with
        | nil => rw [e] at htl; simp at htl; omega
        | cons a as => exact ⟨a, as, rfl⟩
      rw [has] at hso
      obtain ⟨hal, ⟨r1, mk1⟩, hrun, hrest⟩ := hso
      obtain ⟨m1, hm1, hag1, hi1, ho1⟩ := Micro.run_local hal (hag.1.trans hints) hag hrun
      have hstep : s.step k = .ok ⟨m1, fun j => if j = k then r1 else s.reg j, fun j => if j = k then as else s.todo j⟩ := by
        unfold PState.step
        rw [has]
        simp only [hm1, M.ok_bind]
      have hInv : Inv ⟨m1, fun j => if j = k then r1 else s.reg j, fun j => if j = k then as else s.todo j⟩
          (fun j => if j = k then left k - 1 else left j) := by
        refine ⟨hi1.trans hints, fun q hq => ?_, fun j j0 j1 => ?_⟩
        · rw [ho1 q (hq k k0 k1)]; exact hout q hq
        · by_cases e : j = k
          · subst e
            simp only [if_true]
            refine ⟨?_, mk1, hrest, hag1⟩
            rw [has] at htl; simp at htl; omega
          · simp only [if_neg e]
            obtain ⟨t1, mj, t3, t4⟩ := hth j j0 j1
            refine ⟨t1, mj, t3, ⟨t4.1.trans hi1.symm, fun q hq => ?_⟩⟩
            rw [t4.2 q hq, ho1 q]
            intro hw
            have := hdis k j k0 k1 j0 j1 (Ne.symm e) q hw
            rcases hq with h | h
            · exact this.1 h
            · exact this.2 h
      obtain ⟨s', hs', hI'⟩ := ih _ _ hInv (fun j hj => hr j (List.mem_cons_of_mem _ hj)) (by
        intro j j0 j1
        have := hc j j0 j1
        by_cases e : j = k
        · subst e; simp only [if_true]; omega
        · simp only [if_neg e]
          rw [List.count_cons_of_ne (Ne.symm e)] at this; exact this)
      refine ⟨s', ?_, ?_⟩
      · simp only [runTrace, hstep, M.ok_bind]; exact hs'
      · have : (fun j => (if j = k then left k - 1 else left j) - tr.count j) = fun j => left j - (k :: tr).count j := by
          funext j
          by_cases e : j = k
          · subst e; simp only [if_true, List.count_cons_self]; omega
          · simp only [if_neg e, List.count_cons_of_ne (Ne.symm e)]
        rw [this] at hI'; exact hI'
  obtain ⟨s', hs', hi, ho, hth⟩ := main trace ⟨m, fun _ => [], threads⟩ (fun _ => c)
    ⟨rfl, fun _ _ => rfl, fun k k0 k1 => ⟨hlen k k0 k1, m, hsafe k k0 k1, rfl, fun _ _ => rfl⟩⟩ (by
      intro k hk
      have := htr k
      by_contra hcon
      rw [if_neg hcon] at this
      have := List.count_pos_iff.2 hk
      omega) (by
      intro k k0 k1
      rw [htr k, if_pos ⟨k0, k1⟩]
      exact Nat.le_refl c)
  refine ⟨s'.mem, ?_, hi, fun k k0 k1 q hq => ?_, ho⟩
  · unfold parallel; rw [hs']; rfl
  · obtain ⟨hl, mk, h2, h3⟩ := hth k k0 k1
    simp only [htr k, if_pos (And.intro k0 k1), Nat.sub_self, List.length_eq_zero_iff] at hl
    rw [hl] at h2
    simp only [Safe] at h2
    rw [h2]
    exact (h3.2 q (Or.inr hq)).symm

/-- n elements whose written cells no other element looks at, and the memory they leave -/
def RaceFree (n : Int) (threads : Int → List (Micro T)) (m m' : Mem T) : Prop :=
  ∃ (R W : Int → Ptr → Prop) (fin : Int → List (Reg T) × Mem T),
    (∀ k, 0 ≤ k → k < n → Safe m.ints (R k) (W k) (threads k) [] m (fin k)) ∧
    (∀ k k', 0 ≤ k → k < n → 0 ≤ k' → k' < n → k ≠ k' → ∀ q, W k q → ¬ R k' q ∧ ¬ W k' q) ∧
    m'.ints = m.ints ∧ (∀ k, 0 ≤ k → k < n → ∀ q, W k q → m'.val q = (fin k).2.val q) ∧
    (∀ q, (∀ k, 0 ≤ k → k < n → ¬ W k q) → m'.val q = m.val q)

/-- `parallel_ok`, with the reason -/
theorem parallel_free {n : Int} {c : Nat} {threads : Int → List (Micro T)} {R W : Int → Ptr → Prop} {m : Mem T}
    {fin : Int → List (Reg T) × Mem T} {trace : List Int}
    (hlen : ∀ k, 0 ≤ k → k < n → (threads k).length = c)
    (hsafe : ∀ k, 0 ≤ k → k < n → Safe m.ints (R k) (W k) (threads k) [] m (fin k))
    (hdis : ∀ k k', 0 ≤ k → k < n → 0 ≤ k' → k' < n → k ≠ k' → ∀ q, W k q → ¬ R k' q ∧ ¬ W k' q)
    (htr : ∀ k, trace.count k = if 0 ≤ k ∧ k < n then c else 0) :
    ∃ m', parallel threads trace m = .ok m' ∧ RaceFree n threads m m' ∧ m'.ints = m.ints ∧
      (∀ k, 0 ≤ k → k < n → ∀ q, W k q → m'.val q = (fin k).2.val q) ∧
      (∀ q, (∀ k, 0 ≤ k → k < n → ¬ W k q) → m'.val q = m.val q) := by
  obtain ⟨m', h1, h2, h3, h4⟩ := parallel_ok hlen hsafe hdis htr
  exact ⟨m', h1, ⟨R, W, fin, hsafe, hdis, h2, h3, h4⟩, h2, h3, h4⟩

/-! ### a backend exists -/

/-- one element after the other, each reached by a jump -/
def seqBackend : Backend := fun n c =>
  ⟨(List.range n.toNat).flatMap fun k : Nat => List.replicate c (k : Int), fun k => [.add k], fun k => [.add k]⟩

theorem count_range (c : Nat) : ∀ (n : Nat) (k : Int), (List.map (fun j : Nat => if (j : Int) = k then c else 0) (List.range n)).sum =
    if 0 ≤ k ∧ k < n then c else 0
  | 0, k => by
    have : ¬ (0 ≤ k ∧ k < (0 : Nat)) := by omega
    rw [if_neg this]; rfl
  | n + 1, k => by
    rw [List.range_succ, List.map_append, List.sum_append, count_range c n k]
    simp only [List.map_cons, List.map_nil, List.sum_cons, List.sum_nil]
    push_cast
    split_ifs <;> omega

theorem seqBackend_ok : ValidBackend seqBackend := by
  intro n c
  refine ⟨fun k => ?_, fun k h0 h1 => ?_, fun k h0 h1 => ?_⟩
  · simp only [seqBackend]
    rw [List.count_flatMap]
    have : (List.count k ∘ fun j : Nat => List.replicate c (j : Int)) = fun j : Nat => if (j : Int) = k then c else 0 := by
      funext j
      simp only [Function.comp, List.count_replicate, beq_iff_eq]
    rw [this, count_range]
    by_cases h : 0 ≤ k ∧ k < n
    · rw [if_pos h, if_pos (by omega)]
    · rw [if_neg h, if_neg (by omega)]
  all_goals
    simp only [seqBackend, Fwd, net, delta, List.map_cons, List.map_nil, List.sum_cons, List.sum_nil]
    omega

end Verif
