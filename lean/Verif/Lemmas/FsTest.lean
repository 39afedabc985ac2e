import Verif.Lemmas.IterTest

namespace Verif
open Spec

/-- a forward stencil on a plain pointer after `p` steps, the number of pairs `N` unrelated to the block length `L` -/
def fsAt (b : Ptr) (S L N p : Int) : FS Ptr := ⟨b.add (p + p / L * S), S, L, N - p, p % L⟩

structure Small (S L N p : Int) : Prop where
  s : 1 ≤ S ∧ S ≤ 2147483647
  l : 1 ≤ L ∧ L ≤ 2147483647
  n : 1 ≤ N ∧ N ≤ 2147483647
  p : 0 ≤ p ∧ p ≤ 2147483648

theorem Small.facts {S L N p : Int} (h : Small S L N p) : 0 ≤ p / L ∧ p / L ≤ p ∧ 0 ≤ p % L ∧ p % L < L ∧ 0 ≤ p / L * S ∧
    p / L * S ≤ 4611686018427387904 ∧ p = L * (p / L) + p % L := by
  have hs := h.s; have hl := h.l; have hp := h.p
  have h0 : 0 ≤ p / L := Int.ediv_nonneg (by omega) (by omega)
  have h1 : p / L ≤ p := Int.ediv_le_self L hp.1
  refine ⟨h0, h1, Int.emod_nonneg _ (by omega), Int.emod_lt_of_pos _ (by omega), by nlinarith, by nlinarith, (Int.mul_ediv_add_emod p L).symm⟩

macro "ptr_close" : tactic => `(tactic| (congr 2 <;> first | omega | (simp only [Ptr.add, Ptr.mk.injEq, true_and]; ring_nf; try omega)))

theorem fsAt_inc {b : Ptr} {S L N p : Int} (h : Small S L N p) (hN : p + 1 ≠ N) : (fsAt b S L N p).inc = .ok (fsAt b S L N (p + 1)) := by
  obtain ⟨q0, q1, r0, r1, s0, s1, e⟩ := h.facts
  have hs := h.s; have hl := h.l; have hn := h.n; have hp := h.p
  simp only [FS.inc, fsAt, Step.inc, Step.adv]
  rw [M.ok_bind, dadd_ok (by unfold InDiff; omega), M.ok_bind, dsub_ok (by unfold InDiff; omega), M.ok_bind, dsub_ok (by unfold InDiff; omega), M.ok_bind]
  have e1 : lnotnot (N - p - 1) = 1 := by unfold lnotnot; rw [if_neg (by omega)]
  rw [e1, one_mul]
  by_cases hr : p % L + 1 = L
  · have e2 : lnot (L - (p % L + 1)) = 1 := by unfold lnot; rw [if_pos (by omega)]
    obtain ⟨f1, f2⟩ := FS.div_mod_wrap hl.1 hr
    rw [e2, dmul_ok (by unfold InDiff; omega), M.ok_bind, dsub_ok (by unfold InDiff; omega), M.ok_bind, dmul_ok (by unfold InDiff; omega), M.ok_bind, M.ok_bind, f1, f2]
    congr 2
    · simp only [Ptr.add, Ptr.mk.injEq, true_and]; ring
    · omega
    · omega
  · have e2 : lnot (L - (p % L + 1)) = 0 := by unfold lnot; rw [if_neg (by omega)]
    obtain ⟨f1, f2⟩ := FS.div_mod_succ hl.1 (p := p) (by omega)
    rw [e2, dmul_ok (by unfold InDiff; omega), M.ok_bind, dsub_ok (by unfold InDiff; omega), M.ok_bind, dmul_ok (by unfold InDiff; omega), M.ok_bind, M.ok_bind, f1, f2]
    congr 2
    · simp only [Ptr.add, Ptr.mk.injEq, true_and]; ring
    · omega
    · omega

/-- the step to the end -/
theorem fsAt_inc_end {b : Ptr} {S L N p : Int} (h : Small S L N p) (hN : p + 1 = N) : ∃ r, (fsAt b S L N p).inc = .ok r ∧ r.distanceToLast = 0 := by
  obtain ⟨q0, q1, r0, r1, s0, s1, e⟩ := h.facts
  have hs := h.s; have hl := h.l; have hn := h.n; have hp := h.p
  simp only [FS.inc, fsAt, Step.inc, Step.adv]
  rw [M.ok_bind, dadd_ok (by unfold InDiff; omega), M.ok_bind, dsub_ok (by unfold InDiff; omega), M.ok_bind, dsub_ok (by unfold InDiff; omega), M.ok_bind]
  have e1 : lnotnot (N - p - 1) = 0 := by unfold lnotnot; rw [if_pos (by omega)]
  rw [e1, zero_mul, dmul_ok (by unfold InDiff; omega), M.ok_bind, dsub_ok (by unfold InDiff; omega), M.ok_bind, dmul_ok (by unfold InDiff; omega), M.ok_bind, M.ok_bind]
  exact ⟨_, rfl, by show N - p - 1 = 0; omega⟩

theorem fsAt_dec {b : Ptr} {S L N p : Int} (h : Small S L N p) : (fsAt b S L N (p + 1)).dec = .ok (fsAt b S L N p) := by
  obtain ⟨q0, q1, r0, r1, s0, s1, e⟩ := h.facts
  have hs := h.s; have hl := h.l; have hn := h.n; have hp := h.p
  simp only [FS.dec, fsAt, Step.dec, Step.adv]
  by_cases hr : p % L + 1 = L
  · obtain ⟨f1, f2⟩ := FS.div_mod_wrap hl.1 hr
    rw [f1, f2, M.ok_bind, dsub_ok (by unfold InDiff; omega), M.ok_bind, dadd_ok (by unfold InDiff; omega), M.ok_bind, dadd_ok (by unfold InDiff; omega), M.ok_bind]
    have e2 : lnot (1 + (0 - 1)) = 1 := by decide
    rw [e2, dmul_ok (by unfold InDiff; omega), M.ok_bind, dadd_ok (by unfold InDiff; omega), M.ok_bind, dmul_ok (by unfold InDiff; omega), M.ok_bind, M.ok_bind]
    congr 2
    · simp only [Ptr.add, Ptr.mk.injEq, true_and]; ring
    · omega
    · omega
  · obtain ⟨f1, f2⟩ := FS.div_mod_succ hl.1 (p := p) (by omega)
    rw [f1, f2, M.ok_bind, dsub_ok (by unfold InDiff; omega), M.ok_bind, dadd_ok (by unfold InDiff; omega), M.ok_bind, dadd_ok (by unfold InDiff; omega), M.ok_bind]
    have e2 : lnot (1 + (p % L + 1 - 1)) = 0 := by unfold lnot; rw [if_neg (by omega)]
    rw [e2, dmul_ok (by unfold InDiff; omega), M.ok_bind, dadd_ok (by unfold InDiff; omega), M.ok_bind, dmul_ok (by unfold InDiff; omega), M.ok_bind, M.ok_bind]
    congr 2
    · simp only [Ptr.add, Ptr.mk.injEq, true_and]; ring
    · omega
    · omega

/-- a jump forward; the one to the end leaves the distance right -/
theorem fsAt_adv {b : Ptr} {S L N p d : Int} (h : Small S L N p) (h' : Small S L N (p + d)) (hd : 0 ≤ d) :
    ∃ r, (fsAt b S L N p).adv d = .ok r ∧ r.distanceToLast = N - (p + d) ∧ (p + d ≠ N → r = fsAt b S L N (p + d)) := by
  obtain ⟨q0, q1, r0, r1, s0, s1, e⟩ := h.facts
  obtain ⟨q0', q1', r0', r1', s0', s1', e'⟩ := h'.facts
  have hs := h.s; have hl := h.l; have hn := h.n; have hp := h.p; have hp' := h'.p
  have hdiv : (d + p % L) / L = (p + d) / L - p / L := by
    have : p + d = (d + p % L) + L * (p / L) := by omega
    rw [this, Int.add_mul_ediv_left _ _ (by omega)]; omega
  have hmod : (d + p % L) % L = (p + d) % L := by
    have : p + d = (d + p % L) + L * (p / L) := by omega
    rw [this, Int.add_mul_emod_self_left]
  have hdS : ((p + d) / L - p / L) * S = (p + d) / L * S - p / L * S := by ring
  have hb0 : 0 ≤ d + p % L := by omega
  simp only [FS.adv, fsAt, Step.adv]
  have hz : lnot (N - p - d) = 0 ∨ lnot (N - p - d) = 1 := by unfold lnot; split <;> simp
  rw [dsub_ok (by unfold InDiff; omega), M.ok_bind, dadd_ok (by unfold InDiff; omega), M.ok_bind, if_neg (show ¬ d + p % L < 0 by omega)]
  simp only [ddiv, dmod, if_neg (show L ≠ 0 by omega), tdiv_eq_ediv hb0, tmod_eq_emod hb0, hdiv, hmod]
  rw [chk64_ok (by unfold InDiff; omega), M.ok_bind, dmul_ok (by rw [hdS]; unfold InDiff; omega), M.ok_bind, hdS,
      dadd_ok (by unfold InDiff; omega), M.ok_bind, dmul_ok (by unfold InDiff; omega), M.ok_bind,
      dsub_ok (by unfold InDiff; omega), M.ok_bind, dsub_ok (by unfold InDiff; omega), M.ok_bind]
  rcases hz with hz | hz <;> rw [hz]
  · rw [dmul_ok (by unfold InDiff; omega), M.ok_bind, dsub_ok (by unfold InDiff; omega), M.ok_bind,
      dmul_ok (by unfold InDiff; omega), M.ok_bind, M.ok_bind, chk64_ok (by unfold InDiff; omega), M.ok_bind,
      dadd_ok (by unfold InDiff; omega), M.ok_bind, M.ok_bind,
      dadd_ok (by unfold InDiff; omega), M.ok_bind]
    refine ⟨_, rfl, by show N - p - d = _; omega, fun _ => ?_⟩
    congr 1
    · simp only [Ptr.add, Ptr.mk.injEq, true_and]; ring
    · omega
    · omega
  · rw [dmul_ok (by unfold InDiff; omega), M.ok_bind, dsub_ok (by unfold InDiff; omega), M.ok_bind,
      dmul_ok (by unfold InDiff; omega), M.ok_bind, M.ok_bind, chk64_ok (by unfold InDiff; omega), M.ok_bind,
      dadd_ok (by unfold InDiff; omega), M.ok_bind, dmul_ok (by unfold InDiff; omega), M.ok_bind,
      dadd_ok (by unfold InDiff; omega), M.ok_bind]
    refine ⟨_, rfl, by show N - p - d = _; omega, fun hne => ?_⟩
    unfold lnot at hz
    rw [if_neg (by omega)] at hz
    cases hz

/-- one back by a jump, with blocks of at least two -/
theorem fsAt_back {b : Ptr} {S L N p : Int} (h : Small S L N p) (hL : 2 ≤ L) (hN : p ≠ N) :
    (fsAt b S L N (p + 1)).adv (-1) = .ok (fsAt b S L N p) := by
  obtain ⟨q0, q1, r0, r1, s0, s1, e⟩ := h.facts
  have hs := h.s; have hl := h.l; have hn := h.n; have hp := h.p
  have e0 : lnot (N - (p + 1) - -1) = 0 := by unfold lnot; rw [if_neg (by omega)]
  by_cases hr : p % L + 1 = L
  · obtain ⟨f1, f2⟩ := FS.div_mod_wrap hl.1 hr
    have t1 : (-1 + 0 : Int).tdiv L = 0 := by
      show (-1 : Int).tdiv L = 0
      rw [Int.neg_tdiv, Int.tdiv_eq_zero_of_lt (by omega) (by omega)]; rfl
    have t2 : (-1 + 0 : Int).tmod L = -1 := by
      show (-1 : Int).tmod L = -1
      rw [Int.neg_tmod, Int.tmod_eq_of_lt (by omega) (by omega)]
    simp only [FS.adv, fsAt, Step.adv, f1, f2]
    rw [dsub_ok (by unfold InDiff; omega), M.ok_bind, dadd_ok (by unfold InDiff; omega), M.ok_bind, if_pos (show (-1 + 0 : Int) < 0 by omega), e0]
    simp only [ddiv, dmod, if_neg (show L ≠ 0 by omega), t1, t2]
    rw [chk64_ok (by unfold InDiff; omega), M.ok_bind, dmul_ok (by unfold InDiff; omega), M.ok_bind,
      dadd_ok (by unfold InDiff; omega), M.ok_bind, dmul_ok (by unfold InDiff; omega), M.ok_bind,
      dsub_ok (by unfold InDiff; omega), M.ok_bind, dsub_ok (by unfold InDiff; omega), M.ok_bind,
      dmul_ok (by unfold InDiff; omega), M.ok_bind, dsub_ok (by unfold InDiff; omega), M.ok_bind,
      dmul_ok (by unfold InDiff; omega), M.ok_bind, M.ok_bind, chk64_ok (by unfold InDiff; omega), M.ok_bind,
      dadd_ok (by unfold InDiff; omega), M.ok_bind, dmul_ok (by unfold InDiff; omega), M.ok_bind,
      dadd_ok (by unfold InDiff; omega), M.ok_bind, M.ok_bind]
    congr 2
    · simp only [Ptr.add, Ptr.mk.injEq, true_and]; ring
    · omega
    · omega
  · obtain ⟨f1, f2⟩ := FS.div_mod_succ hl.1 (p := p) (by omega)
    have hb0 : 0 ≤ -1 + (p % L + 1) := by omega
    have t1 : (-1 + (p % L + 1)) / L = 0 := Int.ediv_eq_zero_of_lt (by omega) (by omega)
    have t2 : (-1 + (p % L + 1)) % L = p % L := by rw [Int.emod_eq_of_lt (by omega) (by omega)]; omega
    simp only [FS.adv, fsAt, Step.adv, f1, f2]
    rw [dsub_ok (by unfold InDiff; omega), M.ok_bind, dadd_ok (by unfold InDiff; omega), M.ok_bind, if_neg (show ¬ -1 + (p % L + 1) < 0 by omega), e0]
    simp only [ddiv, dmod, if_neg (show L ≠ 0 by omega), tdiv_eq_ediv hb0, tmod_eq_emod hb0, t1, t2]
    rw [chk64_ok (by unfold InDiff; omega), M.ok_bind, dmul_ok (by unfold InDiff; omega), M.ok_bind,
      dadd_ok (by unfold InDiff; omega), M.ok_bind, dmul_ok (by unfold InDiff; omega), M.ok_bind,
      dsub_ok (by unfold InDiff; omega), M.ok_bind, dsub_ok (by unfold InDiff; omega), M.ok_bind,
      dmul_ok (by unfold InDiff; omega), M.ok_bind, dsub_ok (by unfold InDiff; omega), M.ok_bind,
      M.ok_bind, M.ok_bind, chk64_ok (by unfold InDiff; omega), M.ok_bind,
      dadd_ok (by unfold InDiff; omega), M.ok_bind, M.ok_bind,
      dadd_ok (by unfold InDiff; omega), M.ok_bind, M.ok_bind]
    congr 2
    · simp only [Ptr.add, Ptr.mk.injEq, true_and]; ring
    · omega
    · omega

end Verif
