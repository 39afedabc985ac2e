import Verif.Model.Traversal
import Verif.Lemmas.MatrixUtils

namespace Verif

open Spec

theorem zeros_inBox : ∀ {n : List Int}, Pos n → InBox n (zeros n)
  | [], _ => trivial
  | s :: ss, h => ⟨⟨le_refl _, by have := h.head; omega⟩, zeros_inBox h.tail⟩

theorem rowMajor_zeros : ∀ (n : List Int), rowMajor n (zeros n) = 0
  | [] => rfl
  | s :: ss => by simp [rowMajor, zeros, rowMajor_zeros ss]

namespace MT

theorem incLoop_ok : ∀ {n c : List Int}, InBox n c → n.prod ≤ 2147483647 →
    (rowMajor n c + 1 = n.prod → incLoop n c = .ok (zeros n, 1)) ∧
    (rowMajor n c + 1 < n.prod → ∃ c', incLoop n c = .ok (c', 0) ∧ InBox n c' ∧ rowMajor n c' = rowMajor n c + 1)
  | [], [], _, _ => by simp [incLoop, zeros, rowMajor]
  | n :: ns, c :: cs, hb, hN => by
    obtain ⟨⟨hc0, hc1⟩, hb'⟩ := hb
    have hP := hb'.pos.prod_pos
    have hr0 := rowMajor_nonneg hb'
    have hr1 := rowMajor_lt hb'
    rw [List.prod_cons] at hN
    have hn : n ≤ 2147483647 := by nlinarith
    have hPN : ns.prod ≤ 2147483647 := by nlinarith
    obtain ⟨ih1, ih2⟩ := incLoop_ok hb' hPN
    simp only [rowMajor, List.prod_cons]
    by_cases ht : rowMajor ns cs + 1 = ns.prod
    · have e := ih1 ht
      by_cases hc : c = n - 1
      · refine ⟨fun _ => ?_, fun h => absurd h ?_⟩
        · simp only [incLoop, e, M.ok_bind]
          rw [isub_ok (by unfold InInt; omega), M.ok_bind, isub_ok (by unfold InInt; omega), M.ok_bind]
          have : lnot (n - 1 - c) = 1 := by unfold lnot; rw [if_pos (by omega)]
          rw [this, one_mul_imul (by unfold InInt; omega), M.ok_bind, isub_ok (by unfold InInt; omega), M.ok_bind,
            one_mul_imul (by unfold InInt; omega), M.ok_bind, iadd_ok (by unfold InInt; omega), M.ok_bind,
            isub_ok (by unfold InInt; omega), M.ok_bind]
          have : lnotnot (1 - n - 1) = 1 := by unfold lnotnot; rw [if_neg (by omega)]
          rw [this, one_mul_imul (by decide), M.ok_bind]
          simp [zeros, hc]
        · subst hc; nlinarith
      · refine ⟨fun h => absurd h ?_, fun _ => ?_⟩
        · have : c + 1 ≤ n - 1 := by omega
          nlinarith
        · refine ⟨(c + 1) :: zeros ns, ?_, ⟨⟨by omega, by omega⟩, zeros_inBox hb'.pos⟩, ?_⟩
          · simp only [incLoop, e, M.ok_bind]
            rw [isub_ok (by unfold InInt; omega), M.ok_bind, isub_ok (by unfold InInt; omega), M.ok_bind]
            have : lnot (n - 1 - c) = 0 := by unfold lnot; rw [if_neg (by omega)]
            rw [this, zero_mul_imul, M.ok_bind, isub_ok (by decide), M.ok_bind,
              one_mul_imul (by decide), M.ok_bind, iadd_ok (by unfold InInt; omega), M.ok_bind,
              isub_ok (by decide), M.ok_bind]
            simp [lnotnot, imul_ok (a := 1) (b := 0) (by decide)]
          · simp only [rowMajor, rowMajor_zeros]; rw [show rowMajor ns cs = ns.prod - 1 by omega]; ring
    · obtain ⟨c', e, hb2, hr2⟩ := ih2 (by omega)
      refine ⟨fun h => absurd h ?_, fun _ => ⟨c :: c', ?_, ⟨⟨hc0, hc1⟩, hb2⟩, ?_⟩⟩
      · have : c + 1 ≤ n := by omega
        have : rowMajor ns cs + 1 < ns.prod := by omega
        nlinarith
      · simp only [incLoop, e, M.ok_bind]
        rw [isub_ok (by unfold InInt; omega), M.ok_bind, isub_ok (by unfold InInt; omega), M.ok_bind]
        have hl : lnot (n - 1 - c) = 0 ∨ lnot (n - 1 - c) = 1 := by unfold lnot; split <;> simp
        rcases hl with hl | hl
        · rw [hl, zero_mul_imul, M.ok_bind, isub_ok (by decide), M.ok_bind, zero_mul_imul, M.ok_bind,
            iadd_ok (by unfold InInt; omega), M.ok_bind, isub_ok (by decide), M.ok_bind, zero_mul_imul, M.ok_bind]
          simp
        · rw [hl, one_mul_imul (by unfold InInt; omega), M.ok_bind, isub_ok (by unfold InInt; omega), M.ok_bind,
            zero_mul_imul, M.ok_bind,
            iadd_ok (by unfold InInt; omega), M.ok_bind, isub_ok (by decide), M.ok_bind, zero_mul_imul, M.ok_bind]
          simp
      · simp only [rowMajor, hr2]; ring
where
  one_mul_imul {b : Int} (h : InInt b) : imul 1 b = .ok b := by rw [imul_ok (by simpa using h), one_mul]
  zero_mul_imul {b : Int} : imul 0 b = .ok 0 := by rw [imul_ok (by simp [InInt]), zero_mul]

theorem one_imul {b : Int} (h : InInt b) : imul 1 b = .ok b := by rw [imul_ok (by simpa using h), one_mul]
theorem zero_imul {b : Int} : imul 0 b = .ok 0 := by rw [imul_ok (by simp [InInt]), zero_mul]

theorem coords_last : ∀ {n : List Int}, Pos n → InBox n (coords n (n.prod - 1)) := by
  intro n h
  have := h.prod_pos
  exact coords_inBox h (by omega) (by omega)

theorem decLoop_ok : ∀ {n c : List Int}, InBox n c → n.prod ≤ 2147483647 →
    (rowMajor n c = 0 → ∃ c', decLoop n c = .ok (c', 1) ∧ InBox n c' ∧ rowMajor n c' = n.prod - 1) ∧
    (0 < rowMajor n c → ∃ c', decLoop n c = .ok (c', 0) ∧ InBox n c' ∧ rowMajor n c' = rowMajor n c - 1)
  | [], [], _, _ => by simp [decLoop, rowMajor, InBox]
  | n :: ns, c :: cs, hb, hN => by
    obtain ⟨⟨hc0, hc1⟩, hb'⟩ := hb
    have hP := hb'.pos.prod_pos
    have hr0 := rowMajor_nonneg hb'
    have hr1 := rowMajor_lt hb'
    rw [List.prod_cons] at hN
    have hn : n ≤ 2147483647 := by nlinarith
    have hPN : ns.prod ≤ 2147483647 := by nlinarith
    obtain ⟨ih1, ih2⟩ := decLoop_ok hb' hPN
    simp only [rowMajor, List.prod_cons]
    by_cases ht : rowMajor ns cs = 0
    · obtain ⟨c', e, hb2, hr2⟩ := ih1 ht
      by_cases hc : c = 0
      · refine ⟨fun _ => ⟨(n - 1) :: c', ?_, ⟨⟨by omega, by omega⟩, hb2⟩, ?_⟩, fun h => absurd h ?_⟩
        · simp only [decLoop, e, M.ok_bind]
          have : lnot c = 1 := by unfold lnot; rw [if_pos hc]
          rw [this, one_imul (by unfold InInt; omega), M.ok_bind, iadd_ok (by unfold InInt; omega), M.ok_bind,
            one_imul (by unfold InInt; omega), M.ok_bind, iadd_ok (by unfold InInt; omega), M.ok_bind,
            iadd_ok (by unfold InInt; omega), M.ok_bind]
          have : lnotnot (-1 + n + 1) = 1 := by unfold lnotnot; rw [if_neg (by omega)]
          rw [this, one_imul (by decide), M.ok_bind, show c + (-1 + n) = n - 1 by omega]
        · simp only [rowMajor, hr2]; ring
        · subst hc; omega
      · refine ⟨fun h => absurd h ?_, fun _ => ⟨(c - 1) :: c', ?_, ⟨⟨by omega, by omega⟩, hb2⟩, ?_⟩⟩
        · have : 1 ≤ c := by omega
          nlinarith
        · simp only [decLoop, e, M.ok_bind]
          have : lnot c = 0 := by unfold lnot; rw [if_neg hc]
          rw [this, zero_imul, M.ok_bind, iadd_ok (by decide), M.ok_bind, one_imul (by decide), M.ok_bind,
            iadd_ok (by unfold InInt; omega), M.ok_bind, iadd_ok (by decide), M.ok_bind]
          simp [lnotnot, imul_ok (a := 1) (b := 0) (by decide)]
          omega
        · simp only [rowMajor, hr2, ht]; ring
    · obtain ⟨c', e, hb2, hr2⟩ := ih2 (by omega)
      refine ⟨fun h => absurd h ?_, fun _ => ⟨c :: c', ?_, ⟨⟨hc0, hc1⟩, hb2⟩, ?_⟩⟩
      · have : 0 ≤ c * ns.prod := by positivity
        omega
      · simp only [decLoop, e, M.ok_bind]
        have hl : lnot c = 0 ∨ lnot c = 1 := by unfold lnot; split <;> simp
        rcases hl with hl | hl
        · rw [hl, zero_imul, M.ok_bind, iadd_ok (by decide), M.ok_bind, zero_imul, M.ok_bind,
            iadd_ok (by unfold InInt; omega), M.ok_bind, iadd_ok (by decide), M.ok_bind, zero_imul, M.ok_bind]
          simp
        · rw [hl, one_imul (by unfold InInt; omega), M.ok_bind, iadd_ok (by unfold InInt; omega), M.ok_bind,
            zero_imul, M.ok_bind,
            iadd_ok (by unfold InInt; omega), M.ok_bind, iadd_ok (by decide), M.ok_bind, zero_imul, M.ok_bind]
          simp
      · simp only [rowMajor, hr2]; ring

theorem decLoop_end : ∀ {n : List Int}, n ≠ [] → Pos n → n.prod ≤ 2147483647 →
    ∃ c', decLoop n (endCoord n) = .ok (c', 0) ∧ InBox n c' ∧ rowMajor n c' = n.prod - 1
  | [], h, _, _ => absurd rfl h
  | [s], _, hp, hN => by
    have h1 := hp.head
    simp at hN
    refine ⟨[s - 1], ?_, ⟨⟨by omega, by omega⟩, trivial⟩, by simp [rowMajor]⟩
    simp only [endCoord, decLoop, M.ok_bind]
    have : lnot s = 0 := by unfold lnot; rw [if_neg (by omega)]
    rw [this, zero_imul, M.ok_bind, iadd_ok (by decide), M.ok_bind, one_imul (by decide), M.ok_bind,
      iadd_ok (by unfold InInt; omega), M.ok_bind, iadd_ok (by decide), M.ok_bind]
    simp [lnotnot, imul_ok (a := 1) (b := 0) (by decide)]
    omega
  | s :: s' :: ss, _, hp, hN => by
    have h1 := hp.head
    have hP := hp.tail.prod_pos
    rw [List.prod_cons] at hN
    have hs : s ≤ 2147483647 := by nlinarith
    obtain ⟨c', e, hb, hr⟩ := decLoop_end (n := s' :: ss) (by simp) hp.tail (by nlinarith)
    refine ⟨(s - 1) :: c', ?_, ⟨⟨by omega, by omega⟩, hb⟩, ?_⟩
    · simp only [endCoord, decLoop, e, M.ok_bind]
      have hl : lnot (s - 1) = 0 ∨ lnot (s - 1) = 1 := by unfold lnot; split <;> simp
      rcases hl with hl | hl
      · rw [hl, zero_imul, M.ok_bind, iadd_ok (by decide), M.ok_bind, zero_imul, M.ok_bind,
          iadd_ok (by unfold InInt; omega), M.ok_bind, iadd_ok (by decide), M.ok_bind, zero_imul, M.ok_bind]
        simp
      · rw [hl, one_imul (by unfold InInt; omega), M.ok_bind, iadd_ok (by unfold InInt; omega), M.ok_bind,
          zero_imul, M.ok_bind,
          iadd_ok (by unfold InInt; omega), M.ok_bind, iadd_ok (by decide), M.ok_bind, zero_imul, M.ok_bind]
        simp
    · simp only [rowMajor, hr, List.prod_cons]; ring

/-- the iterator placed at position `k` of its box -/
def at_ (it : MT) (k : Int) : MT := { it with current := posCoord it.n k }

/-- a usable view: at least one dimension, positive extents, fewer than 2^31 elements, one stride per dimension -/
structure WF (it : MT) : Prop where
  ne : it.n ≠ []
  pos : Pos it.n
  lt : it.n.prod ≤ 2147483647
  len : it.stride.length = it.n.length

theorem WF.at_ {it : MT} (h : it.WF) (k : Int) : (it.at_ k).WF := ⟨h.ne, h.pos, h.lt, h.len⟩

theorem inc_at {it : MT} (h : it.WF) {k : Int} (h0 : 0 ≤ k) (h1 : k < it.n.prod) :
    (it.at_ k).inc = .ok (it.at_ (k + 1)) := by
  have hb := coords_inBox h.pos h0 h1
  have hr := rowMajor_coords h.pos h0 h1
  obtain ⟨i1, i2⟩ := incLoop_ok hb h.lt
  simp only [MT.inc, MT.at_]
  rw [posCoord_of_lt h1]
  rw [hr] at i1 i2
  by_cases he : k + 1 = it.n.prod
  · rw [i1 he, M.ok_bind]
    simp only []
    rw [lastAdj_one h.ne h.pos h.lt, M.ok_bind]
    simp [posCoord, he]
  · obtain ⟨c', e, hb', hr'⟩ := i2 (by omega)
    rw [e, M.ok_bind]
    simp only []
    have hl := h.lt
    rw [lastAdj_zero h.ne h.pos h.lt hb'.length_eq.symm (fun x hx => by
      have a := coords_mem_le hb' x hx; have b := hb'.nonneg x hx; unfold InInt; omega), M.ok_bind]
    rw [posCoord_of_lt (by omega), ← hr', coords_rowMajor hb']

theorem dec_at {it : MT} (h : it.WF) {k : Int} (h0 : 0 ≤ k) (h1 : k < it.n.prod) :
    (it.at_ (k + 1)).dec = .ok (it.at_ k) := by
  simp only [MT.dec, MT.at_]
  by_cases he : k + 1 = it.n.prod
  · obtain ⟨c', e, hb, hr⟩ := decLoop_end h.ne h.pos h.lt
    have : posCoord it.n (k + 1) = endCoord it.n := by unfold posCoord; rw [if_pos he]
    rw [this, e, M.ok_bind]
    simp only []
    rw [posCoord_of_lt h1, show k = rowMajor it.n c' by omega, coords_rowMajor hb]
  · have hb := coords_inBox h.pos (show 0 ≤ k + 1 by omega) (by omega)
    have hr := rowMajor_coords h.pos (show 0 ≤ k + 1 by omega) (by omega)
    obtain ⟨_, i2⟩ := decLoop_ok hb h.lt
    obtain ⟨c', e, hb', hr'⟩ := i2 (by omega)
    rw [posCoord_of_lt (by omega), e, M.ok_bind]
    simp only []
    rw [posCoord_of_lt h1, show k = rowMajor it.n c' by omega, coords_rowMajor hb']

theorem adv_at {it : MT} (h : it.WF) {k d : Int} (h0 : 0 ≤ k) (h1 : k ≤ it.n.prod)
    (h2 : 0 ≤ k + d) (h3 : k + d ≤ it.n.prod) :
    (it.at_ k).adv d = .ok (it.at_ (k + d)) := by
  have hl := h.lt
  simp only [MT.adv, MT.at_]
  rw [ravel_posCoord h.ne h.pos h.lt h0 h1, M.ok_bind, dadd_ok (by unfold InDiff; omega), M.ok_bind,
    narrow_ok (by unfold InInt; omega), M.ok_bind, show d + k = k + d by omega, unravel_ok h.ne h.pos h.lt h2 h3, M.ok_bind]

theorem distTo_at {it : MT} (h : it.WF) {j k : Int} (hj0 : 0 ≤ j) (hj1 : j ≤ it.n.prod) (hk0 : 0 ≤ k) (hk1 : k ≤ it.n.prod) :
    (it.at_ j).distTo (it.at_ k) = .ok (k - j) := by
  have hl := h.lt
  simp only [MT.distTo, MT.at_]
  rw [ravel_posCoord h.ne h.pos h.lt hk0 hk1, M.ok_bind, ravel_posCoord h.ne h.pos h.lt hj0 hj1, M.ok_bind,
    isub_ok (by unfold InInt; omega)]

theorem equal_at {it : MT} (h : it.WF) {j k : Int} (hj0 : 0 ≤ j) (hj1 : j ≤ it.n.prod) (hk0 : 0 ≤ k) (hk1 : k ≤ it.n.prod) :
    ((it.at_ j).equal (it.at_ k) = true ↔ j = k) := by
  simp only [MT.equal, MT.at_, beq_iff_eq]
  exact ⟨posCoord_inj h.pos h.ne hj0 hj1 hk0 hk1, fun e => by rw [e]⟩

theorem size_ok {it : MT} (h : it.WF) : it.size = .ok it.n.prod := by
  unfold MT.size
  rw [strideDim_ok 0 h.pos h.lt, List.drop_zero]

end MT
end Verif
