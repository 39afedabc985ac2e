import Verif.Spec.Smooth
import Verif.Model.Kernels.Smooth
import Verif.Lemmas.DotKernel

/-
Sweeps: one array updated cell by cell, each new value a function of the current contents.
-/

namespace Verif.F

variable {T : Type}

/-! ### contents as functions -/

/-- one element changed -/
def upd (W : List Int → T) (p : List Int) (v : T) : List Int → T := fun q => if q = p then v else W q

/-- the updates one after the other -/
def swp (G : List Int → (List Int → T) → T) : List (List Int) → (List Int → T) → List Int → T
  | [], W => W
  | p :: ps, W => swp G ps (upd W p (G p W))

theorem swp_append {G : List Int → (List Int → T) → T} : ∀ {l l' : List (List Int)} {W : List Int → T}, swp G (l ++ l') W = swp G l' (swp G l W)
  | [], _, _ => rfl
  | _ :: l, _, _ => swp_append (l := l)

theorem swp_not_mem {G : List Int → (List Int → T) → T} {q : List Int} : ∀ {l : List (List Int)} {W : List Int → T}, q ∉ l → swp G l W q = W q
  | [], _, _ => rfl
  | p :: l, W, h => by
    simp only [List.mem_cons, not_or] at h
    rw [swp, swp_not_mem h.2, upd, if_neg h.1]

/-- each new value is formed from the new values of the cells before and the old values of the others -/
theorem swp_mem {G : List Int → (List Int → T) → T} {R : List Int → List Int → Prop} {l : List (List Int)} {W : List Int → T} {p : List Int}
    (hR : l.Pairwise R) (hirr : ∀ a b, R a b → ¬ R b a) (hp : p ∈ l) :
    ∃ V : List Int → T, swp G l W p = G p V ∧ (∀ q, q ∈ l → R q p → V q = swp G l W q) ∧ ∀ q, ¬ (q ∈ l ∧ R q p) → V q = W q := by
  obtain ⟨l1, l2, rfl⟩ := List.append_of_mem hp
  have hirr' : ∀ a, ¬ R a a := fun a h => hirr a a h h
  rw [List.pairwise_append, List.pairwise_cons] at hR
  obtain ⟨h1, ⟨h2, h3⟩, h4⟩ := hR
  have n1 : ∀ q, q ∈ l1 → q ∉ p :: l2 := fun q hq hq' => hirr' q (h4 q hq q hq')
  have n2 : p ∉ l2 := fun h => hirr' p (h2 p h)
  refine ⟨swp G l1 W, ?_, fun q hq hr => ?_, fun q hq => ?_⟩
  · rw [swp_append, swp, swp_not_mem n2, upd, if_pos rfl]
  · have hq1 : q ∈ l1 := by
      rcases List.mem_append.1 hq with h | h
      · exact h
      · rcases List.mem_cons.1 h with rfl | h
        · exact absurd hr (hirr' q)
        · exact absurd hr (hirr _ _ (h2 q h))
    rw [swp_append, swp_not_mem (n1 q hq1)]
  · refine swp_not_mem fun hq1 => hq ⟨List.mem_append_left _ hq1, h4 q hq1 p List.mem_cons_self⟩

/-! ### arrays -/

theorem Only.refl {as : List Arr} {m : Mem T} : Only as m m := ⟨fun _ _ => rfl, rfl⟩

theorem Only.trans {as : List Arr} {m m1 m2 : Mem T} (h : Only as m m1) (h' : Only as m1 m2) : Only as m m2 :=
  ⟨fun q hq => (h'.val q hq).trans (h.val q hq), h'.ints.trans h.ints⟩

theorem Only.mono {as bs : List Arr} {m m1 : Mem T} (h : Only as m m1) (hs : ∀ a ∈ as, a ∈ bs) : Only bs m m1 :=
  ⟨fun q hq => h.val q fun a ha => hq a (hs a ha), h.ints⟩

/-- a store to an element -/
def put (m : Mem T) (a : Arr) (p : List Int) (v : T) : Mem T := { m with val := fun q => if q = a.addrT p then some v else m.val q }

theorem only_put {m : Mem T} {a : Arr} {p : List Int} {v : T} (hp : InBounds a.dims p) : Only [a] m (put m a p v) :=
  ⟨fun q hq => by
    have := hq a (by simp) p hp
    exact if_neg (Ne.symm this), rfl⟩

theorem holds_put {m : Mem T} {a : Arr} {p : List Int} {v : T} {W : List Int → T} (hp : InBounds a.dims p) (h : Holds m a W) :
    Holds (put m a p v) a (upd W p v) := fun is hi => by
  refine ⟨hi, ?_⟩
  show (if a.addrT is = a.addrT p then some v else m.val (a.addrT is)) = some (if is = p then v else W is)
  by_cases e : is = p
  · rw [if_pos (by rw [e]), if_pos e]
  · rw [if_neg fun h => e (addrT_inj hi hp h), if_neg e]
    exact (h is hi).2

theorem Holds.only {m m1 : Mem T} {a : Arr} {as : List Arr} {V : List Int → T} (h : Holds m a V) (ho : Only as m m1) (ha : ∀ b ∈ as, Apart b a) :
    Holds m1 a V := fun is hi => by
  refine ⟨hi, ?_⟩
  rw [ho.val _ fun b hb js hj => ha b hb js is hj hi]
  exact (h is hi).2

theorem Holds.congr {m : Mem T} {a : Arr} {V W : List Int → T} (h : Holds m a V) (hw : ∀ is, InBounds a.dims is → V is = W is) : Holds m a W :=
  fun is hi => by
    have := h is hi
    rw [hw is hi] at this
    exact this

/-- nothing changed -/
theorem Only.eq_iff {m m1 : Mem T} {a : Arr} {V W : List Int → T} (h : Holds m a V) (h1 : Holds m1 a W) (ho : Only [a] m m1) :
    m1 = m ↔ ∀ is, InBounds a.dims is → W is = V is := by
  constructor
  · rintro rfl is hi
    exact (h1 is hi).inj (h is hi)
  · intro hw
    have : m1.val = m.val := by
      funext q
      by_cases hq : ∃ is, InBounds a.dims is ∧ a.ptr.add (colMajor a.dims is) = q
      · obtain ⟨is, hi, rfl⟩ := hq
        rw [(h1 is hi).2, (h is hi).2, hw is hi]
      · exact ho.val q fun b hb is hi e => hq (by
          rw [List.mem_singleton] at hb
          subst hb
          exact ⟨is, hi, e⟩)
    cases m1
    cases m
    simp only at this
    have := ho.ints
    simp_all

theorem Holds.ref [Add T] [Sub T] [Mul T] [Div T] [Neg T] {m : Mem T} {a : Arr} {V : List Int → T} (h : Holds m a V) {is : List Int}
    (hi : InBounds a.dims is) : (Expr.ref a is : Expr T).eval m = .ok (V is) := ref_ok hi (h is hi).2

theorem Holds.assign [Add T] [Sub T] [Mul T] [Div T] [Neg T] {m : Mem T} {a : Arr} {V : List Int → T} (h : Holds m a V) {is : List Int} {e : Expr T}
    {v : T} (hi : InBounds a.dims is) (he : e.eval m = .ok v) : F.assign a is e m = .ok (put m a is v) := assign_ok he hi (h is hi).2

/-- a sweep -/
theorem sweep {u : Arr} {c : List Int → Cmd T} {G : List Int → (List Int → T) → T} {m0 : Mem T} : ∀ {l : List (List Int)} {m : Mem T} {W : List Int → T},
    Holds m u W → Only [u] m0 m → (∀ p ∈ l, InBounds u.dims p) →
    (∀ p ∈ l, ∀ m1 V, Holds m1 u V → Only [u] m0 m1 → c p m1 = .ok (put m1 u p (G p V))) →
    ∃ m', runPts l c m = .ok m' ∧ Holds m' u (swp G l W) ∧ Only [u] m0 m'
  | [], m, W, h, ho, _, _ => ⟨m, rfl, h, ho⟩
  | p :: l, m, W, h, ho, hb, hc => by
    obtain ⟨m', g1, g2, g3⟩ := sweep (l := l) (holds_put (v := G p W) (hb p List.mem_cons_self) h) (ho.trans (only_put (hb p List.mem_cons_self)))
      (fun q hq => hb q (List.mem_cons_of_mem _ hq)) fun q hq => hc q (List.mem_cons_of_mem _ hq)
    refine ⟨m', ?_, g2, g3⟩
    simp only [runPts, List.foldlM_cons] at g1 ⊢
    rw [hc p List.mem_cons_self m W h ho, M.ok_bind]
    exact g1

theorem block2 {a b : Cmd T} {m : Mem T} : block [a, b] m = (a m >>= b) := by
  simp only [block]
  cases a m with
  | error e => rfl
  | ok m1 => simp only [M.ok_bind]; cases b m1 <;> rfl

/-! ### loops with a step -/

theorem mem_srange {lo hi i : Int} : i ∈ srange lo hi 2 ↔ lo ≤ i ∧ i ≤ hi ∧ (i - lo) % 2 = 0 := by
  simp only [srange, List.mem_map, List.mem_range]
  constructor
  · rintro ⟨k, hk, rfl⟩
    rcases Int.le_total 0 (hi - lo + 2) with h | h
    · rw [Int.tdiv_eq_ediv_of_nonneg h] at hk; omega
    · have : (hi - lo + 2).tdiv 2 ≤ 0 := by
        rw [show hi - lo + 2 = -(-(hi - lo + 2)) by omega, Int.neg_tdiv, Int.tdiv_eq_ediv_of_nonneg (by omega)]
        omega
      omega
  · rintro ⟨h1, h2, h3⟩
    refine ⟨((i - lo) / 2).toNat, ?_, ?_⟩
    · rw [Int.tdiv_eq_ediv_of_nonneg (by omega)]; omega
    · omega

theorem srange_lt {lo hi : Int} : (srange lo hi 2).Pairwise (· < ·) := by
  unfold srange
  rw [List.pairwise_map]
  refine List.Pairwise.imp (R := fun a b : Nat => a < b) (fun h => ?_) List.pairwise_lt_range
  omega

theorem irange_lt {lo hi : Int} : (irange lo hi).Pairwise (· < ·) := by
  unfold irange
  rw [List.pairwise_map]
  refine List.Pairwise.imp (R := fun a b : Nat => a < b) (fun h => ?_) List.pairwise_lt_range
  omega

theorem foldlM_pts {P : Type} {body : Int → Cmd T} {L : Int → List P} {stmt : P → Cmd T} : ∀ {l : List Int} {m : Mem T},
    (∀ i ∈ l, body i = runPts (L i) stmt) → l.foldlM (fun m i => body i m) m = runPts (l.flatMap L) stmt m
  | [], _, _ => rfl
  | i :: l, m, h => by
    have ih := fun m => foldlM_pts (l := l) (m := m) fun j hj => h j (List.mem_cons_of_mem _ hj)
    simp only [List.foldlM_cons, List.flatMap_cons, runPts, foldlM_append', h i List.mem_cons_self]
    cases (L i).foldlM (fun m p => stmt p m) m with
    | error e => rfl
    | ok m' => exact ih m'

/-- the cells nested loops visit: the range of the first index depends on the others -/
def pts1 (r : List Int) : List (List Int) := r.map fun i => [i]
def pts2 (R : List Int) (r : Int → List Int) : List (List Int) := R.flatMap fun j => (r j).map fun i => [i, j]
def pts3 (R3 R2 : List Int) (r : Int → Int → List Int) : List (List Int) := R3.flatMap fun k => R2.flatMap fun j => (r j k).map fun i => [i, j, k]

theorem run1 {r : List Int} {c : Int → Cmd T} {stmt : List Int → Cmd T} {m : Mem T} (h : ∀ i ∈ r, c i = stmt [i]) :
    r.foldlM (fun m i => c i m) m = runPts (pts1 r) stmt m := by
  rw [foldlM_pts (L := fun i => [[i]]) (stmt := stmt) fun i hi => by rw [runPts_single, h i hi]]
  rw [pts1, List.map_eq_flatMap]

theorem run2 {R : List Int} {r : Int → List Int} {c : Int → Int → Cmd T} {stmt : List Int → Cmd T} {m : Mem T}
    (h : ∀ j ∈ R, ∀ i ∈ r j, c j i = stmt [i, j]) :
    R.foldlM (fun m j => (r j).foldlM (fun m i => c j i m) m) m = runPts (pts2 R r) stmt m := by
  refine foldlM_pts (body := fun j m => (r j).foldlM (fun m i => c j i m) m) fun j hj => ?_
  funext m
  rw [foldlM_pts (L := fun i => [[i, j]]) (stmt := stmt) fun i hi => by rw [runPts_single, h j hj i hi], List.map_eq_flatMap]

theorem run3 {R3 R2 : List Int} {r : Int → Int → List Int} {c : Int → Int → Int → Cmd T} {stmt : List Int → Cmd T} {m : Mem T}
    (h : ∀ k ∈ R3, ∀ j ∈ R2, ∀ i ∈ r j k, c k j i = stmt [i, j, k]) :
    R3.foldlM (fun m k => R2.foldlM (fun m j => (r j k).foldlM (fun m i => c k j i m) m) m) m = runPts (pts3 R3 R2 r) stmt m := by
  refine foldlM_pts (body := fun k m => R2.foldlM (fun m j => (r j k).foldlM (fun m i => c k j i m) m) m) fun k hk => ?_
  funext m
  refine foldlM_pts (body := fun j m => (r j k).foldlM (fun m i => c k j i m) m) fun j hj => ?_
  funext m
  rw [foldlM_pts (L := fun i => [[i, j, k]]) (stmt := stmt) fun i hi => by rw [runPts_single, h k hk j hj i hi], List.map_eq_flatMap]

theorem before_asymm : ∀ a b : List Int, Before a b → ¬ Before b a
  | [], _, h => by simp [Before] at h
  | _ :: _, [], h => by simp [Before] at h
  | a :: as, b :: bs, h => by
    simp only [Before] at h ⊢
    have ih := before_asymm as bs
    have ir := before_asymm as as
    rintro (h' | ⟨h', h''⟩)
    · rcases h with h | ⟨rfl, _⟩
      · exact ih h h'
      · exact ir h' h'
    · rcases h with h | ⟨rfl, _⟩
      · subst h'; exact ir h h
      · omega

theorem pts1_before {r : List Int} (h : r.Pairwise (· < ·)) : (pts1 r).Pairwise Before := by
  rw [pts1, List.pairwise_map]
  exact h.imp fun h => by simp [Before, h]

theorem pts2_before {R : List Int} {r : Int → List Int} (hR : R.Pairwise (· < ·)) (h : ∀ j, (r j).Pairwise (· < ·)) : (pts2 R r).Pairwise Before := by
  rw [pts2, List.pairwise_flatMap]
  refine ⟨fun j _ => ?_, hR.imp fun hj p hp q hq => ?_⟩
  · rw [List.pairwise_map]
    exact (h j).imp fun h => by simp [Before, h]
  · simp only [List.mem_map] at hp hq
    obtain ⟨_, -, rfl⟩ := hp
    obtain ⟨_, -, rfl⟩ := hq
    simp [Before, hj]

theorem pts3_before {R3 R2 : List Int} {r : Int → Int → List Int} (h3 : R3.Pairwise (· < ·)) (h2 : R2.Pairwise (· < ·))
    (h : ∀ j k, (r j k).Pairwise (· < ·)) : (pts3 R3 R2 r).Pairwise Before := by
  rw [pts3, List.pairwise_flatMap]
  refine ⟨fun k _ => ?_, h3.imp fun hk p hp q hq => ?_⟩
  · rw [List.pairwise_flatMap]
    refine ⟨fun j _ => ?_, h2.imp fun hj p hp q hq => ?_⟩
    · rw [List.pairwise_map]
      exact (h j k).imp fun h => by simp [Before, h]
    · simp only [List.mem_map] at hp hq
      obtain ⟨_, -, rfl⟩ := hp
      obtain ⟨_, -, rfl⟩ := hq
      simp [Before, hj]
  · simp only [List.mem_flatMap, List.mem_map] at hp hq
    obtain ⟨_, -, _, -, rfl⟩ := hp
    obtain ⟨_, -, _, -, rfl⟩ := hq
    simp [Before, hk]

end Verif.F
