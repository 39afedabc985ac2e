import Verif.Lemmas.Walk

namespace Verif
namespace FS

variable {β : Type} [RA β]

/-- geometry of a forward stencil: `B` blocks of `L` pairs, consecutive blocks separated by a gap of `S` base elements -/
structure Geo (S L B T : Int) : Prop where
  hS : 1 ≤ S
  hL : 1 ≤ L
  hB : 1 ≤ B
  hT : B * (L + S) ≤ T
  hI : T ≤ 2147483647

/-- state after `p` increments, `p` not the end -/
def at_ (st : Int → β) (S L B p : Int) : FS β :=
  ⟨st (p + p / L * S), S, L, B * L - p, p % L⟩

/-- state after incrementing to the end -/
def end_ (st : Int → β) (S L B : Int) : FS β :=
  ⟨st (B * L + (B - 1) * S), S, L, 0, L⟩

/-- base position of pair `p` -/
theorem pos_lt {S L B T p : Int} (g : Geo S L B T) (h0 : 0 ≤ p) (h1 : p < B * L) :
    p / L ≤ B - 1 ∧ 0 ≤ p / L ∧ 0 ≤ p % L ∧ p % L < L ∧ L * (p / L) + p % L = p ∧ p + p / L * S + S < T := by
  have hL := g.hL; have hS := g.hS; have hB := g.hB; have hT := g.hT
  have a : p / L < B := Int.ediv_lt_of_lt_mul (by omega) h1
  have b : 0 ≤ p / L := Int.ediv_nonneg h0 (by omega)
  have c : 0 ≤ p % L := Int.emod_nonneg _ (by omega)
  have d : p % L < L := Int.emod_lt_of_pos _ (by omega)
  have e := Int.mul_ediv_add_emod p L
  refine ⟨by omega, b, c, d, e, ?_⟩
  have : p / L * S ≤ (B - 1) * S := by nlinarith
  nlinarith

theorem Geo.L_le {S L B T : Int} (g : Geo S L B T) : L ≤ T ∧ S ≤ T ∧ B * L ≤ T ∧ B * S ≤ T ∧ B * L + B * S ≤ T := by
  have hL := g.hL; have hS := g.hS; have hB := g.hB; have hT := g.hT
  have e : B * (L + S) = B * L + B * S := by ring
  have h1 : L ≤ B * L := by nlinarith
  have h2 : S ≤ B * S := by nlinarith
  omega

theorem div_mod_succ {L p : Int} (hL : 1 ≤ L) (h : p % L + 1 < L) : (p + 1) / L = p / L ∧ (p + 1) % L = p % L + 1 := by
  have e := Int.mul_ediv_add_emod p L
  have c : 0 ≤ p % L := Int.emod_nonneg _ (by omega)
  have h1 : p + 1 = (p % L + 1) + L * (p / L) := by omega
  constructor
  · rw [h1, Int.add_mul_ediv_left _ _ (by omega), Int.ediv_eq_zero_of_lt (by omega) h]; omega
  · rw [h1, Int.add_mul_emod_self_left, Int.emod_eq_of_lt (by omega) h]

theorem div_mod_wrap {L p : Int} (hL : 1 ≤ L) (h : p % L + 1 = L) : (p + 1) / L = p / L + 1 ∧ (p + 1) % L = 0 := by
  have e := Int.mul_ediv_add_emod p L
  have h1 : p + 1 = L * (p / L + 1) := by rw [mul_add]; omega
  constructor
  · rw [h1, Int.mul_ediv_cancel_left _ (by omega)]
  · rw [h1, Int.mul_emod_right]

theorem inc_at {S L B T p : Int} {st : Int → β} (g : Geo S L B T) (w : RAWalk T st) (h0 : 0 ≤ p) (h1 : p + 1 < B * L) :
    (at_ st S L B p).inc = .ok (at_ st S L B (p + 1)) := by
  have hL := g.hL; have hS := g.hS; have hB := g.hB; have hT := g.hT; have hI := g.hI
  obtain ⟨hq, hq0, hm0, hm1, he, hp⟩ := pos_lt g h0 (by omega)
  obtain ⟨l1, l2, l3, l4, l5⟩ := g.L_le
  have hqS : 0 ≤ p / L * S := by positivity
  simp only [inc, at_]
  rw [w.inc (by omega) (by omega), M.ok_bind, dadd_ok (by unfold InDiff; omega), M.ok_bind,
    dsub_ok (by unfold InDiff; omega), M.ok_bind, dsub_ok (by unfold InDiff; omega), M.ok_bind]
  have e1 : lnotnot (B * L - p - 1) = 1 := by unfold lnotnot; rw [if_neg (by omega)]
  rw [e1, one_mul]
  by_cases hr : p % L + 1 = L
  · have e2 : lnot (L - (p % L + 1)) = 1 := by unfold lnot; rw [if_pos (by omega)]
    obtain ⟨f1, f2⟩ := div_mod_wrap hL hr
    have hp1 := (pos_lt g (show 0 ≤ p + 1 by omega) h1).2.2.2.2.2
    rw [f1] at hp1
    have ee : (p / L + 1) * S = p / L * S + S := by ring
    rw [ee] at hp1
    rw [e2, dmul_ok (by unfold InDiff; omega), M.ok_bind, dsub_ok (by unfold InDiff; omega), M.ok_bind,
      dmul_ok (by unfold InDiff; omega), M.ok_bind, w.adv (by omega) (by omega) (by omega) (by omega), M.ok_bind]
    congr 2
    · congr 1; rw [f1, ee]; omega
    · omega
    · rw [f2]; omega
  · have e2 : lnot (L - (p % L + 1)) = 0 := by unfold lnot; rw [if_neg (by omega)]
    obtain ⟨f1, f2⟩ := div_mod_succ hL (p := p) (by omega)
    rw [e2, dmul_ok (by unfold InDiff; omega), M.ok_bind, dsub_ok (by unfold InDiff; omega), M.ok_bind,
      dmul_ok (by unfold InDiff; omega), M.ok_bind, w.adv (by omega) (by omega) (by omega) (by omega), M.ok_bind]
    congr 2
    · congr 1; rw [f1]; omega
    · omega
    · rw [f2]; omega

theorem inc_last {S L B T : Int} {st : Int → β} (g : Geo S L B T) (w : RAWalk T st) :
    (at_ st S L B (B * L - 1)).inc = .ok (end_ st S L B) := by
  have hL := g.hL; have hS := g.hS; have hB := g.hB; have hT := g.hT; have hI := g.hI
  have hBL : 1 ≤ B * L := by nlinarith
  obtain ⟨hq, hq0, hm0, hm1, he, hp⟩ := pos_lt g (show 0 ≤ B * L - 1 by omega) (by omega)
  obtain ⟨l1, l2, l3, l4, l5⟩ := g.L_le
  have hqB : (B * L - 1) / L = B - 1 := by
    have : B * L - 1 = (L - 1) + L * (B - 1) := by ring
    rw [this, Int.add_mul_ediv_left _ _ (by omega), Int.ediv_eq_zero_of_lt (by omega) (by omega)]; omega
  have hmB : (B * L - 1) % L = L - 1 := by
    have : B * L - 1 = (L - 1) + L * (B - 1) := by ring
    rw [this, Int.add_mul_emod_self_left, Int.emod_eq_of_lt (by omega) (by omega)]
  have hqS : 0 ≤ (B - 1) * S := by nlinarith
  rw [hqB] at hp
  simp only [inc, at_, hqB, hmB]
  rw [w.inc (by omega) (by omega), M.ok_bind, dadd_ok (by unfold InDiff; omega), M.ok_bind,
    dsub_ok (by unfold InDiff; omega), M.ok_bind, dsub_ok (by unfold InDiff; omega), M.ok_bind]
  have e1 : lnotnot (B * L - (B * L - 1) - 1) = 0 := by unfold lnotnot; rw [if_pos (by omega)]
  rw [e1, zero_mul, dmul_ok (by unfold InDiff; omega), M.ok_bind, dsub_ok (by unfold InDiff; omega), M.ok_bind,
      dmul_ok (by unfold InDiff; omega), M.ok_bind, w.adv (by omega) (by omega) (by omega) (by omega), M.ok_bind]
  unfold end_
  congr 2
  · congr 1; omega
  · omega
  · omega

/-- a jump that does not land on the first pair of an earlier block -/
theorem adv_at {S L B T p d : Int} {st : Int → β} (g : Geo S L B T) (w : RAWalk T st) (h0 : 0 ≤ p) (h1 : p < B * L)
    (h2 : 0 ≤ p + d) (h3 : p + d < B * L) (h4 : 0 ≤ p % L + d ∨ (p + d) % L ≠ 0) :
    (at_ st S L B p).adv d = .ok (at_ st S L B (p + d)) := by
  have hL := g.hL; have hS := g.hS; have hB := g.hB; have hT := g.hT; have hI := g.hI
  obtain ⟨hq, hq0, hm0, hm1, he, hp⟩ := pos_lt g h0 h1
  obtain ⟨hq', hq0', hm0', hm1', he', hp'⟩ := pos_lt g h2 h3
  obtain ⟨l1, l2, l3, l4, l5⟩ := g.L_le
  have hqS : 0 ≤ p / L * S := by positivity
  have hqS' : 0 ≤ (p + d) / L * S := by positivity
  have hqL : p / L ≤ T := by nlinarith
  have hqL' : (p + d) / L ≤ T := by nlinarith
  -- quotient and remainder of the base distance
  have hdiv : (d + p % L) / L = (p + d) / L - p / L := by
    have : p + d = (d + p % L) + L * (p / L) := by omega
    rw [this, Int.add_mul_ediv_left _ _ (by omega)]; omega
  have hmod : (d + p % L) % L = (p + d) % L := by
    have : p + d = (d + p % L) + L * (p / L) := by omega
    rw [this, Int.add_mul_emod_self_left]
  have hdS : ((p + d) / L - p / L) * S = (p + d) / L * S - p / L * S := by ring
  simp only [adv, at_]
  rw [dsub_ok (by unfold InDiff; omega), M.ok_bind, dadd_ok (by unfold InDiff; omega), M.ok_bind]
  have e1 : lnot (B * L - p - d) = 0 := by unfold lnot; rw [if_neg (by omega)]
  rw [e1]
  by_cases hb : d + p % L < 0
  · -- truncating division of a negative non-multiple
    have hne : (d + p % L) % L ≠ 0 := by rw [hmod]; rcases h4 with h | h <;> [omega; exact h]
    have ht : (d + p % L).tdiv L = (p + d) / L - p / L + 1 := by
      rw [Int.tdiv_eq_ediv, if_neg, hdiv, Int.sign_eq_one_of_pos (by omega)]
      rw [not_or]; exact ⟨by omega, fun hd => hne (Int.emod_eq_zero_of_dvd hd)⟩
    have htm : (d + p % L).tmod L = (p + d) % L - L := by
      have := Int.tdiv_mul_add_tmod (d + p % L) L
      have h5 := Int.mul_ediv_add_emod (d + p % L) L
      rw [ht] at this
      rw [hdiv, hmod] at h5
      have : ((p + d) / L - p / L + 1) * L = L * ((p + d) / L - p / L) + L := by ring
      omega
    have htS : ((p + d) / L - p / L + 1) * S = (p + d) / L * S - p / L * S + S := by ring
    rw [if_pos hb]
    simp only [ddiv, dmod, if_neg (show L ≠ 0 by omega), ht, htm]
    rw [chk64_ok (by unfold InDiff; omega), M.ok_bind, dmul_ok (by rw [htS]; unfold InDiff; omega), M.ok_bind, htS,
      dadd_ok (by unfold InDiff; omega), M.ok_bind, dmul_ok (by unfold InDiff; omega), M.ok_bind,
      dsub_ok (by unfold InDiff; omega), M.ok_bind, dsub_ok (by unfold InDiff; omega), M.ok_bind,
      dmul_ok (by unfold InDiff; omega), M.ok_bind, dsub_ok (by unfold InDiff; omega), M.ok_bind,
      dmul_ok (by unfold InDiff; omega), M.ok_bind, M.ok_bind, chk64_ok (by unfold InDiff; omega), M.ok_bind,
      dadd_ok (by unfold InDiff; omega), M.ok_bind, dmul_ok (by unfold InDiff; omega), M.ok_bind,
      dadd_ok (by unfold InDiff; omega), M.ok_bind, w.adv (by omega) (by omega) (by omega) (by omega), M.ok_bind]
    congr 2
    · congr 1; omega
    · omega
    · omega
  · have hb0 : 0 ≤ d + p % L := by omega
    rw [if_neg hb]
    simp only [ddiv, dmod, if_neg (show L ≠ 0 by omega), tdiv_eq_ediv hb0, tmod_eq_emod hb0, hdiv, hmod]
    rw [chk64_ok (by unfold InDiff; omega), M.ok_bind, dmul_ok (by rw [hdS]; unfold InDiff; omega), M.ok_bind, hdS,
      dadd_ok (by unfold InDiff; omega), M.ok_bind, dmul_ok (by unfold InDiff; omega), M.ok_bind,
      dsub_ok (by unfold InDiff; omega), M.ok_bind, dsub_ok (by unfold InDiff; omega), M.ok_bind,
      dmul_ok (by unfold InDiff; omega), M.ok_bind, dsub_ok (by unfold InDiff; omega), M.ok_bind,
      dmul_ok (by unfold InDiff; omega), M.ok_bind, M.ok_bind, chk64_ok (by unfold InDiff; omega), M.ok_bind,
      dadd_ok (by unfold InDiff; omega), M.ok_bind, M.ok_bind,
      dadd_ok (by unfold InDiff; omega), M.ok_bind, w.adv (by omega) (by omega) (by omega) (by omega), M.ok_bind]
    congr 2
    · congr 1; omega
    · omega
    · omega

/-- step back, not from the end -/
theorem dec_at {S L B T p : Int} {st : Int → β} (g : Geo S L B T) (w : RAWalk T st) (h0 : 0 ≤ p) (h1 : p + 1 < B * L) :
    (at_ st S L B (p + 1)).dec = .ok (at_ st S L B p) := by
  have hL := g.hL; have hS := g.hS; have hB := g.hB; have hT := g.hT; have hI := g.hI
  obtain ⟨hq, hq0, hm0, hm1, he, hp⟩ := pos_lt g h0 (by omega)
  obtain ⟨hq', hq0', hm0', hm1', he', hp'⟩ := pos_lt g (show 0 ≤ p + 1 by omega) h1
  obtain ⟨l1, l2, l3, l4, l5⟩ := g.L_le
  have hqS : 0 ≤ p / L * S := by positivity
  have hqS' : 0 ≤ (p + 1) / L * S := by positivity
  simp only [dec, at_]
  have e0 : p + 1 + (p + 1) / L * S = (p + (p + 1) / L * S) + 1 := by ring
  rw [e0, w.dec (by omega) (by omega), M.ok_bind, dsub_ok (by unfold InDiff; omega), M.ok_bind,
    dadd_ok (by unfold InDiff; omega), M.ok_bind, dadd_ok (by unfold InDiff; omega), M.ok_bind]
  by_cases hr : p % L + 1 = L
  · obtain ⟨f1, f2⟩ := div_mod_wrap hL hr
    have e2 : lnot (1 + ((p + 1) % L - 1)) = 1 := by unfold lnot; rw [if_pos (by omega)]
    have ee : (p / L + 1) * S = p / L * S + S := by ring
    rw [e2, dmul_ok (by unfold InDiff; omega), M.ok_bind, dadd_ok (by unfold InDiff; omega), M.ok_bind,
      dmul_ok (by unfold InDiff; omega), M.ok_bind]
    rw [f1, ee] at hp' hqS' ⊢
    rw [w.adv (by omega) (by omega) (by omega) (by omega), M.ok_bind]
    congr 2
    · congr 1; omega
    · omega
    · omega
  · obtain ⟨f1, f2⟩ := div_mod_succ hL (p := p) (by omega)
    have e2 : lnot (1 + ((p + 1) % L - 1)) = 0 := by unfold lnot; rw [if_neg (by omega)]
    rw [e2, dmul_ok (by unfold InDiff; omega), M.ok_bind, dadd_ok (by unfold InDiff; omega), M.ok_bind,
      dmul_ok (by unfold InDiff; omega), M.ok_bind]
    rw [f1] at hp' hqS' ⊢
    rw [w.adv (by omega) (by omega) (by omega) (by omega), M.ok_bind]
    congr 2
    · congr 1; omega
    · omega
    · omega

/-- step back from the incremented end -/
theorem dec_end {S L B T : Int} {st : Int → β} (g : Geo S L B T) (w : RAWalk T st) :
    (end_ st S L B).dec = .ok (at_ st S L B (B * L - 1)) := by
  have hL := g.hL; have hS := g.hS; have hB := g.hB; have hT := g.hT; have hI := g.hI
  have hBL : 1 ≤ B * L := by nlinarith
  obtain ⟨l1, l2, l3, l4, l5⟩ := g.L_le
  have hqS : 0 ≤ (B - 1) * S := by nlinarith
  have hqS' : (B - 1) * S = B * S - S := by ring
  have hqB : (B * L - 1) / L = B - 1 := by
    have : B * L - 1 = (L - 1) + L * (B - 1) := by ring
    rw [this, Int.add_mul_ediv_left _ _ (by omega), Int.ediv_eq_zero_of_lt (by omega) (by omega)]; omega
  have hmB : (B * L - 1) % L = L - 1 := by
    have : B * L - 1 = (L - 1) + L * (B - 1) := by ring
    rw [this, Int.add_mul_emod_self_left, Int.emod_eq_of_lt (by omega) (by omega)]
  simp only [dec, end_]
  have e0 : B * L + (B - 1) * S = (B * L - 1 + (B - 1) * S) + 1 := by ring
  have e2 : lnot (1 + (L - 1)) = 0 := by unfold lnot; rw [if_neg (by omega)]
  rw [e0, w.dec (by omega) (by omega), M.ok_bind, dsub_ok (by unfold InDiff; omega), M.ok_bind,
    dadd_ok (by unfold InDiff; omega), M.ok_bind, dadd_ok (by unfold InDiff; omega), M.ok_bind, e2,
    dmul_ok (by unfold InDiff; omega), M.ok_bind, dadd_ok (by unfold InDiff; omega), M.ok_bind,
      dmul_ok (by unfold InDiff; omega), M.ok_bind, w.adv (by omega) (by omega) (by omega) (by omega), M.ok_bind]
  unfold at_
  rw [hqB, hmB]
  congr 2
  · congr 1; omega
  · omega
  · omega

/-- a jump to the end lands one base element further than incrementing to the end -/
theorem adv_to_end {S L B T p : Int} {st : Int → β} (g : Geo S L B T) (w : RAWalk T st) (h0 : 0 ≤ p) (h1 : p < B * L) :
    (at_ st S L B p).adv (B * L - p) = .ok ⟨st (B * L + (B - 1) * S + 1), S, L, 0, L⟩ := by
  have hBL : 1 ≤ B * L := by have := g.hL; have := g.hB; nlinarith
  have hBS : 0 ≤ (B - 1) * S := by have := g.hS; have := g.hB; nlinarith
  have hL := g.hL; have hS := g.hS; have hB := g.hB; have hT := g.hT; have hI := g.hI
  obtain ⟨hq, hq0, hm0, hm1, he, hp⟩ := pos_lt g h0 h1
  obtain ⟨l1, l2, l3, l4, l5⟩ := g.L_le
  have hqS : 0 ≤ p / L * S := by positivity
  have hqS1 : 0 ≤ (B - p / L) * S := mul_nonneg (by omega) (by omega)
  have hqS2 : (B - p / L) * S = B * S - p / L * S := by ring
  have hqS3 : (B - 1) * S = B * S - S := by ring
  have hqL : p / L ≤ T := by nlinarith
  have hBT : B ≤ T := by nlinarith
  have hb : B * L - p + p % L = L * (B - p / L) := by rw [mul_sub, mul_comm L B]; omega
  have hb0 : 0 ≤ L * (B - p / L) := mul_nonneg (by omega) (by omega)
  simp only [adv, at_]
  rw [dsub_ok (by unfold InDiff; omega), M.ok_bind, dadd_ok (by unfold InDiff; omega), M.ok_bind, hb, if_neg (by omega)]
  have e1 : lnot (B * L - p - (B * L - p)) = 1 := by unfold lnot; rw [if_pos (by omega)]
  rw [e1]
  simp only [ddiv, dmod, if_neg (show L ≠ 0 by omega), tdiv_eq_ediv hb0, tmod_eq_emod hb0,
    Int.mul_ediv_cancel_left _ (show L ≠ 0 by omega), Int.mul_emod_right]
  rw [chk64_ok (by unfold InDiff; omega), M.ok_bind, dmul_ok (by unfold InDiff; omega), M.ok_bind, hqS2,
      dadd_ok (by unfold InDiff; omega), M.ok_bind, dmul_ok (by unfold InDiff; omega), M.ok_bind,
      dsub_ok (by unfold InDiff; omega), M.ok_bind, dsub_ok (by unfold InDiff; omega), M.ok_bind,
      dmul_ok (by unfold InDiff; omega), M.ok_bind, dsub_ok (by unfold InDiff; omega), M.ok_bind,
      dmul_ok (by unfold InDiff; omega), M.ok_bind, M.ok_bind, chk64_ok (by unfold InDiff; omega), M.ok_bind,
      dadd_ok (by unfold InDiff; omega), M.ok_bind, dmul_ok (by unfold InDiff; omega), M.ok_bind,
      dadd_ok (by unfold InDiff; omega), M.ok_bind, w.adv (by omega) (by omega) (by omega) (by omega), M.ok_bind]
  congr 2
  · congr 1; omega
  · omega
  · omega

/-- a jump backwards onto the first pair of an earlier block lands one gap too low, with the block counter at its
limit instead of at zero -/
theorem adv_back_block {S L B T p d : Int} {st : Int → β} (g : Geo S L B T) (w : RAWalk T st) (h0 : 0 ≤ p) (h1 : p < B * L)
    (h2 : 0 ≤ p + d) (h4 : p % L + d < 0) (h5 : (p + d) % L = 0) (h6 : S ≤ p + d + (p + d) / L * S) :
    (at_ st S L B p).adv d = .ok ⟨st (p + d + (p + d) / L * S - S), S, L, B * L - (p + d), L⟩ := by
  have hL := g.hL; have hS := g.hS; have hB := g.hB; have hT := g.hT; have hI := g.hI
  obtain ⟨hq, hq0, hm0, hm1, he, hp⟩ := pos_lt g h0 h1
  obtain ⟨hq', hq0', hm0', hm1', he', hp'⟩ := pos_lt g h2 (by omega)
  obtain ⟨l1, l2, l3, l4, l5⟩ := g.L_le
  have hqS : 0 ≤ p / L * S := by positivity
  have hqS' : 0 ≤ (p + d) / L * S := by positivity
  have hqL : p / L ≤ T := by nlinarith
  have hqL' : (p + d) / L ≤ T := by nlinarith
  have hbase : d + p % L = L * ((p + d) / L - p / L) := by rw [mul_sub]; omega
  have hdS : ((p + d) / L - p / L) * S = (p + d) / L * S - p / L * S := by ring
  simp only [adv, at_]
  rw [dsub_ok (by unfold InDiff; omega), M.ok_bind, dadd_ok (by unfold InDiff; omega), M.ok_bind]
  have e1 : lnot (B * L - p - d) = 0 := by unfold lnot; rw [if_neg (by omega)]
  rw [e1, if_pos (by omega), hbase]
  simp only [ddiv, dmod, if_neg (show L ≠ 0 by omega), Int.mul_tdiv_cancel_left _ (show L ≠ 0 by omega), Int.mul_tmod_right]
  rw [chk64_ok (by unfold InDiff; omega), M.ok_bind, dmul_ok (by rw [hdS]; unfold InDiff; omega), M.ok_bind, hdS,
      dadd_ok (by unfold InDiff; omega), M.ok_bind, dmul_ok (by unfold InDiff; omega), M.ok_bind,
      dsub_ok (by unfold InDiff; omega), M.ok_bind, dsub_ok (by unfold InDiff; omega), M.ok_bind,
      dmul_ok (by unfold InDiff; omega), M.ok_bind, dsub_ok (by unfold InDiff; omega), M.ok_bind,
      dmul_ok (by unfold InDiff; omega), M.ok_bind, M.ok_bind, chk64_ok (by unfold InDiff; omega), M.ok_bind,
      dadd_ok (by unfold InDiff; omega), M.ok_bind, dmul_ok (by unfold InDiff; omega), M.ok_bind,
      dadd_ok (by unfold InDiff; omega), M.ok_bind, w.adv (by omega) (by omega) (by omega) (by omega), M.ok_bind]
  congr 2
  · congr 1; omega
  · omega
  · omega

end FS
end Verif
