import Verif.Lemmas.Rounded

/-
Rounding to 53 bits commutes with multiplication by powers of two; identities of the rounded arithmetic for mesh widths that are powers of two.
-/

namespace Verif
open Spec

theorem nearest_scale {a b c : Nat} (hc : 0 < c) : nearest (a * c) (b * c) = nearest a b := by
  unfold nearest
  rw [Nat.mul_div_mul_right _ _ hc, Nat.mul_mod_mul_right]
  simp only
  have e1 : 2 * (a % b * c) < b * c ↔ 2 * (a % b) < b := by
    rw [← Nat.mul_assoc]; exact Nat.mul_lt_mul_right hc
  have e2 : b * c < 2 * (a % b * c) ↔ b < 2 * (a % b) := by
    rw [← Nat.mul_assoc]; exact Nat.mul_lt_mul_right hc
  simp only [e1, e2]

theorem nearest_congr {a b a' b' : Nat} (hb : 0 < b) (hb' : 0 < b') (h : (a : Rat) / b = a' / b') : nearest a b = nearest a' b' := by
  have h1 : (b : Rat) ≠ 0 := by exact_mod_cast hb.ne'
  have h2 : (b' : Rat) ≠ 0 := by exact_mod_cast hb'.ne'
  rw [div_eq_div_iff h1 h2] at h
  have e : a * b' = a' * b := by exact_mod_cast h
  rw [← nearest_scale (a := a) (b := b) hb', e, Nat.mul_comm b b', nearest_scale hb]

theorem rnd_pos {x : Rat} (hx : 0 < x) : rnd x = round53 x.num.natAbs x.den := by
  have hnum := Rat.num_pos.2 hx
  unfold rnd
  rw [if_neg (by omega), if_pos hnum]

theorem natAbs_div_den {x : Rat} (hx : 0 < x) : ((x.num.natAbs : Nat) : Rat) / x.den = x := by
  have hnum := Rat.num_pos.2 hx
  have : ((x.num.natAbs : Nat) : Rat) = x.num := by
    rw [← Int.cast_natCast, Int.natAbs_of_nonneg hnum.le]
  rw [this, Rat.num_div_den]

theorem rnd_scale (x : Rat) (k : Int) : rnd (x * 2 ^ k) = rnd x * 2 ^ k := by
  have pos : ∀ x : Rat, 0 < x → rnd (x * 2 ^ k) = rnd x * 2 ^ k := by
    intro x hx
    have p : (0 : Rat) < 2 ^ k := by positivity
    have hy : 0 < x * 2 ^ k := by positivity
    have nx := Rat.num_pos.2 hx
    have ny := Rat.num_pos.2 hy
    have ex := natAbs_div_den hx
    have ey := natAbs_div_den hy
    have ⟨s1, s2⟩ := expo_spec (n := x.num.natAbs) (d := x.den) (by omega) x.den_pos
    rw [ex] at s1 s2
    have he : expo (x * 2 ^ k).num.natAbs (x * 2 ^ k).den = expo x.num.natAbs x.den + k := by
      refine expo_unique (by omega) (x * 2 ^ k).den_pos ?_ ?_
      · rw [ey, zpow_add₀ (by norm_num)]
        exact mul_le_mul_of_nonneg_right s1 p.le
      · rw [ey, add_right_comm, zpow_add₀ (by norm_num)]
        exact mul_lt_mul_of_pos_right s2 p
    rw [rnd_pos hx, rnd_pos hy]
    obtain ⟨a, b, hb, ab, r⟩ := round53_eq (n := x.num.natAbs) x.den_pos _ rfl
    obtain ⟨a', b', hb', ab', r'⟩ := round53_eq (n := (x * 2 ^ k).num.natAbs) (x * 2 ^ k).den_pos (expo x.num.natAbs x.den - 52 + k) (by omega)
    rw [r, r', zpow_add₀ (by norm_num), mul_assoc]
    congr 1
    rw [ex] at ab
    rw [ey, zpow_add₀ (by norm_num), mul_div_mul_right _ _ p.ne', ← ab] at ab'
    rw [nearest_congr hb' hb ab']
  rcases lt_trichotomy x 0 with h | h | h
  · have := pos (-x) (by linarith)
    rw [neg_mul, rnd_neg, rnd_neg] at this
    linarith
  · subst h
    rw [zero_mul]
    rw [show rnd 0 = 0 by decide +kernel, zero_mul]
  · exact pos x h

theorem rnd_unscale (x : Rat) (k : Int) : rnd (x / 2 ^ k) = rnd x / 2 ^ k := by
  rw [div_eq_mul_inv, ← zpow_neg, rnd_scale, zpow_neg, ← div_eq_mul_inv]

theorem B64.div_v {x h : B64} {k : Int} (e : h.v = 2 ^ k) : (x / h).v = x.v / 2 ^ k := by
  show rnd (x.v / h.v) = _
  rw [e, rnd_unscale, x.ok]

theorem B64.mul_v {x h : B64} {k : Int} (e : h.v = 2 ^ k) : (x * h).v = x.v * 2 ^ k := by
  show rnd (x.v * h.v) = _
  rw [e, rnd_scale, x.ok]

/-- the product of powers of two -/
theorem Spec.PowTwo.mul {h h' : B64} (a : PowTwo h) (b : PowTwo h') : PowTwo (h * h') := by
  obtain ⟨k, e⟩ := a
  obtain ⟨l, e'⟩ := b
  exact ⟨k + l, by rw [B64.mul_v e', e, zpow_add₀ (by norm_num)]⟩

theorem B64.sq (h : B64) : h ^ 2 = h * h := rfl

theorem Spec.PowTwo.mul_div {h : B64} (a : PowTwo h) (x y : B64) : x * (y / h) = x * y / h := B64.ext <| by
  obtain ⟨k, e⟩ := a
  rw [B64.div_v e]
  show rnd (x.v * (y / h).v) = rnd (x.v * y.v) / 2 ^ k
  rw [B64.div_v e, ← mul_div_assoc, rnd_unscale]

theorem Spec.PowTwo.div_mul {h : B64} (a : PowTwo h) (x y : B64) : x / h * y = x * y / h := by
  rw [B64.mul_comm, a.mul_div, B64.mul_comm]

theorem Spec.PowTwo.mul_mul {h : B64} (a : PowTwo h) (x y : B64) : x * y * h = x * (y * h) := B64.ext <| by
  obtain ⟨k, e⟩ := a
  rw [B64.mul_v e]
  show rnd (x.v * y.v) * 2 ^ k = rnd (x.v * (y * h).v)
  rw [B64.mul_v e, ← mul_assoc, rnd_scale]

theorem Spec.PowTwo.div_div {h : B64} (a : PowTwo h) (x y : B64) : x / h / y = x / (y * h) := B64.ext <| by
  obtain ⟨k, e⟩ := a
  show rnd ((x / h).v / y.v) = rnd (x.v / (y * h).v)
  rw [B64.div_v e, B64.mul_v e, _root_.div_div, _root_.mul_comm]

end Verif
