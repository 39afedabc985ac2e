import Verif.Spec.RoundError
import Mathlib.Tactic.GCongr
import Mathlib.Tactic.NormNum

/-
How rounding errors grow: `Near k a x s` bounds the error of the computed `a` against the exact `x` after `k` roundings, relative to the size `s` of the
numbers `x` was made of.
-/

namespace Verif
open Spec

/-- half a unit in the last place of 1 -/
def ulp : Rat := 1 / 2 ^ 53

theorem ulp_pos : 0 < ulp := by unfold ulp; positivity
theorem ulp_lt : ulp < 1 / 4 := by unfold ulp; norm_num

/-- `a` is off `x` by at most `k` roundings of numbers of size `s` -/
structure Near (k : Nat) (a : B64) (x s : Rat) : Prop where
  err : |a.v - x| ≤ ((1 + ulp) ^ k - 1) * s
  size : |x| ≤ s

theorem rnd_ulp (x : Rat) : |rnd x - x| ≤ ulp * |x| := by
  have := rnd_error x
  unfold ulp
  rw [div_mul_eq_mul_div, one_mul]
  exact this

theorem one_le_pow_ulp (k : Nat) : 1 ≤ (1 + ulp) ^ k := one_le_pow₀ (by have := ulp_pos; linarith)

namespace Near

theorem nonneg {k : Nat} {a : B64} {x s : Rat} (h : Near k a x s) : 0 ≤ s := (abs_nonneg x).trans h.size

/-- a datum is exact -/
theorem datum (a : B64) : Near 0 a a.v |a.v| := ⟨by simp, le_refl _⟩

theorem mono {k l : Nat} {a : B64} {x s : Rat} (h : Near k a x s) (hk : k ≤ l) : Near l a x s := by
  refine ⟨h.err.trans ?_, h.size⟩
  have := pow_le_pow_right₀ (show 1 ≤ 1 + ulp by have := ulp_pos; linarith) hk
  exact mul_le_mul_of_nonneg_right (by linarith) h.nonneg

theorem abs_le {k : Nat} {a : B64} {x s : Rat} (h : Near k a x s) : |a.v| ≤ (1 + ulp) ^ k * s := by
  have e := h.err
  have z := h.size
  have : |a.v| ≤ |a.v - x| + |x| := by
    have := abs_add_le (a.v - x) x
    rwa [sub_add_cancel] at this
  linarith

/-- rounding a number close to `x` -/
theorem round {k : Nat} {y x s : Rat} (h : |y - x| ≤ ((1 + ulp) ^ k - 1) * s) (hx : |x| ≤ s) : Near (k + 1) (B64.near y) x s := by
  refine ⟨?_, hx⟩
  have r := rnd_ulp y
  have hy : |y| ≤ (1 + ulp) ^ k * s := by
    have := abs_add_le (y - x) x
    rw [sub_add_cancel] at this
    linarith
  have t : |rnd y - x| ≤ |rnd y - y| + |y - x| := by
    have := abs_add_le (rnd y - y) (y - x)
    rwa [sub_add_sub_cancel] at this
  have m := mul_le_mul_of_nonneg_left hy ulp_pos.le
  show |rnd y - x| ≤ _
  rw [pow_succ]
  linarith

theorem neg {k : Nat} {a : B64} {x s : Rat} (h : Near k a x s) : Near k (-a) (-x) s := by
  refine ⟨?_, by rw [abs_neg]; exact h.size⟩
  show |-a.v - -x| ≤ _
  rw [neg_sub_neg, abs_sub_comm]
  exact h.err

theorem add {k l : Nat} {a b : B64} {x y s t : Rat} (h : Near k a x s) (g : Near l b y t) : Near (max k l + 1) (a + b) (x + y) (s + t) := by
  have h := h.mono (le_max_left k l)
  have g := g.mono (le_max_right k l)
  refine round ?_ ((abs_add_le x y).trans (add_le_add h.size g.size))
  rw [add_sub_add_comm, mul_add]
  exact (abs_add_le _ _).trans (add_le_add h.err g.err)

theorem sub {k l : Nat} {a b : B64} {x y s t : Rat} (h : Near k a x s) (g : Near l b y t) : Near (max k l + 1) (a - b) (x - y) (s + t) := by
  have := h.add g.neg
  have e : a + -b = a - b := by
    show B64.near (a.v + -b.v) = B64.near (a.v - b.v)
    rw [sub_eq_add_neg]
  rw [e, ← sub_eq_add_neg] at this
  exact this

/-- the difference of two data is off by one rounding of the difference -/
theorem diff (a b : B64) : Near 1 (a - b) (a.v - b.v) |a.v - b.v| :=
  round (k := 0) (y := a.v - b.v) (by simp) (le_refl _)

theorem mul {k l : Nat} {a b : B64} {x y s t : Rat} (h : Near k a x s) (g : Near l b y t) : Near (k + l + 1) (a * b) (x * y) (s * t) := by
  refine round ?_ (by rw [abs_mul]; exact mul_le_mul h.size g.size (abs_nonneg _) h.nonneg)
  have e : a.v * b.v - x * y = a.v * (b.v - y) + (a.v - x) * y := by ring
  rw [e]
  refine (abs_add_le _ _).trans ?_
  rw [abs_mul, abs_mul]
  have p := one_le_pow_ulp k
  have q := one_le_pow_ulp l
  have m1 := mul_le_mul h.abs_le g.err (abs_nonneg _) (mul_nonneg (by linarith) h.nonneg)
  have m2 := mul_le_mul h.err g.size (abs_nonneg _) (mul_nonneg (by linarith) h.nonneg)
  rw [pow_add]
  linarith

/-- division by a datum -/
theorem div {k : Nat} {a : B64} {x s : Rat} (h : Near k a x s) {d : B64} (hd : d.v ≠ 0) : Near (k + 1) (a / d) (x / d.v) (s / |d.v|) := by
  have hd' : 0 < |d.v| := abs_pos.2 hd
  refine round ?_ (by rw [abs_div]; exact div_le_div_of_nonneg_right h.size hd'.le)
  rw [← sub_div, abs_div, mul_div_assoc']
  exact div_le_div_of_nonneg_right h.err hd'.le

/-- division by the rounded square of a datum -/
theorem div_sq {k : Nat} {a : B64} {x s : Rat} (h : Near k a x s) {d : B64} (hd : d.v ≠ 0) : Near (k + 3) (a / (d * d)) (x / (d.v * d.v)) (s / (d.v * d.v)) := by
  have hp : 0 < d.v * d.v := mul_self_pos.2 hd
  have u := ulp_pos
  have u4 := ulp_lt
  have r := rnd_ulp (d.v * d.v)
  rw [abs_of_pos hp, _root_.abs_le] at r
  set q := rnd (d.v * d.v) with hq
  have hq0 : 0 < q := by nlinarith [r.1, r.2]
  refine round (k := k + 2) (y := a.v / q) ?_ (by rw [abs_div, abs_of_pos hp]; exact div_le_div_of_nonneg_right h.size hp.le)
  have e : a.v / q - x / (d.v * d.v) = a.v / (d.v * d.v) * ((d.v * d.v - q) / q) + (a.v - x) / (d.v * d.v) := by
    field_simp
    ring
  have c : |(d.v * d.v - q) / q| ≤ (1 + ulp) ^ 2 - 1 := by
    rw [abs_div, abs_of_pos hq0, div_le_iff₀ hq0, _root_.abs_le]
    have : (1 - ulp) * (d.v * d.v) ≤ q := by linarith [r.2]
    have b : ulp * (d.v * d.v) ≤ ((1 + ulp) ^ 2 - 1) * q := by
      calc ulp * (d.v * d.v) ≤ ((1 + ulp) ^ 2 - 1) * ((1 - ulp) * (d.v * d.v)) := by
            have w : 0 ≤ 1 - ulp - ulp ^ 2 := by nlinarith
            have : ulp ≤ ((1 + ulp) ^ 2 - 1) * (1 - ulp) := by nlinarith [mul_nonneg u.le w]
            calc ulp * (d.v * d.v) ≤ ((1 + ulp) ^ 2 - 1) * (1 - ulp) * (d.v * d.v) := mul_le_mul_of_nonneg_right this hp.le
              _ = _ := by ring
        _ ≤ _ := mul_le_mul_of_nonneg_left this (by nlinarith)
    constructor <;> linarith [r.1, r.2]
  rw [e]
  refine (abs_add_le _ _).trans ?_
  rw [abs_mul, abs_div a.v, abs_of_pos hp, abs_div (a.v - x), abs_of_pos hp]
  have m1 : |a.v| / (d.v * d.v) ≤ (1 + ulp) ^ k * s / (d.v * d.v) := div_le_div_of_nonneg_right h.abs_le hp.le
  have m2 : |a.v - x| / (d.v * d.v) ≤ ((1 + ulp) ^ k - 1) * s / (d.v * d.v) := div_le_div_of_nonneg_right h.err hp.le
  have p := one_le_pow_ulp k
  have z := h.nonneg
  have m3 := mul_le_mul m1 c (abs_nonneg _) (by positivity)
  have f : ((1 + ulp) ^ (k + 2) - 1) * (s / (d.v * d.v)) = (1 + ulp) ^ k * s / (d.v * d.v) * ((1 + ulp) ^ 2 - 1) + ((1 + ulp) ^ k - 1) * s / (d.v * d.v) := by
    rw [pow_add]; ring
  rw [f]
  linarith

/-- `k` roundings are at most `k + 1` rounding errors -/
theorem within {k n : Nat} {a : B64} {x s : Rat} (h : Near k a x s) (hk : (1 + ulp) ^ k - 1 ≤ n * ulp) : F.Within n a x s := by
  have := mul_le_mul_of_nonneg_right hk h.nonneg
  have e := h.err.trans this
  unfold F.Within
  unfold ulp at e
  refine e.trans (le_of_eq ?_)
  ring

theorem eqs {k : Nat} {a : B64} {x y s t : Rat} (h : Near k a x s) (hx : x = y) (hs : s = t) : Near k a y t := by rwa [← hx, ← hs]

end Near

end Verif
