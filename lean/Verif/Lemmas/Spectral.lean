import Verif.Lemmas.Energy
import Verif.Spec.Spectral
import Mathlib.Tactic.FieldSimp
import Mathlib.Tactic.Positivity
import Mathlib.Tactic.Linarith

/-
Bounds for the quadratic form of the diffusion operator, and what they mean for explicit steps.
-/

namespace Verif.F

set_option linter.unusedVariables false
set_option linter.unusedSectionVars false

variable {T : Type} [Field T] [LinearOrder T] [IsStrictOrderedRing T]

theorem sum_last {lo hi : Int} {g : Int → T} (h : lo ≤ hi + 1) : sum lo (hi + 1) g = sum lo hi g + g (hi + 1) := by
  unfold sum irange
  rw [show (hi + 1 - lo + 1).toNat = (hi - lo + 1).toNat + 1 by omega, List.range_succ]
  simp only [List.map_append, List.map_cons, List.map_nil, List.sum_append, List.sum_cons, List.sum_nil, add_zero]
  congr 2
  omega

theorem sum_shift {lo hi : Int} {g h : Int → T} (hl : lo ≤ hi) (h0 : h (lo - 1) = 0) (h1 : g (hi + 1) = 0) :
    sum lo (hi + 1) (fun i => g i + h (i - 1)) = sum lo hi fun i => g i + h i := by
  rw [sum_add, sum_add, sum_last (by omega), h1, add_zero, sum_first (f := fun i => h (i - 1)) (by omega), h0, zero_add]
  congr 1
  exact sum_congr fun i _ _ => by rw [show i + 1 - 1 = i by omega]

theorem sum3_in {a b c d e g : Int} {f : Int → Int → Int → T} :
    (sum a b fun i => sum c d fun j => sum e g fun k => f i j k) = sum c d fun j => sum e g fun k => sum a b fun i => f i j k := by
  rw [sum_comm]
  exact sum_congr fun j _ _ => sum_comm

/-- upper bound along a line -/
theorem line_top {lo hi : Int} {b f : Int → T} {d : T} (hl : lo ≤ hi) (h0 : f (lo - 1) = 0) (h1 : f (hi + 1) = 0) (hb : ∀ i, lo ≤ i → i ≤ hi + 1 → 0 ≤ b i) :
    (sum lo (hi + 1) fun i => b i * ((f i - f (i - 1)) * (f i - f (i - 1))) / (d * d)) ≤ sum lo hi fun i => 2 * ((b i + b (i + 1)) / (d * d)) * (f i * f i) := by
  have e := sum_shift (g := fun i => 2 * (b i / (d * d)) * (f i * f i)) (h := fun i => 2 * (b (i + 1) / (d * d)) * (f i * f i)) hl (by simp [h0]) (by simp [h1])
  refine le_of_le_of_eq (le_of_le_of_eq (sum_mono fun i ha hb' => ?_) e) (sum_congr fun i _ _ => by rw [add_div]; ring)
  simp only [show i - 1 + 1 = i by omega]
  have c : 0 ≤ b i / (d * d) := div_nonneg (hb i ha hb') (mul_self_nonneg d)
  have q := mul_nonneg c (mul_self_nonneg (f i + f (i - 1)))
  have : b i * ((f i - f (i - 1)) * (f i - f (i - 1))) / (d * d) = b i / (d * d) * ((f i - f (i - 1)) * (f i - f (i - 1))) := by ring
  rw [this]
  linarith

theorem edge_low {a b x y : T} (hx : 0 ≤ x) (hy : 0 ≤ y) (ha : x = 0 → a = 0) (hb : y = 0 → b = 0) : a * a * (1 - y / x) + b * b * (1 - x / y) ≤ (a - b) * (a - b) := by
  rcases hx.eq_or_lt with e | hx
  · rw [ha e.symm, ← e]; simp
  rcases hy.eq_or_lt with e | hy
  · rw [hb e.symm, ← e]; simp
  have : (a - b) * (a - b) - (a * a * (1 - y / x) + b * b * (1 - x / y)) = (a * y - b * x) * (a * y - b * x) / (x * y) := by
    field_simp
    ring
  have p : 0 ≤ (a * y - b * x) * (a * y - b * x) / (x * y) := div_nonneg (mul_self_nonneg _) (mul_nonneg hx.le hy.le)
  linarith

/-- lower bound along a line -/
theorem line_low1 {lo hi : Int} {f : Int → T} (hl : lo ≤ hi) (h0 : f (lo - 1) = 0) (h1 : f (hi + 1) = 0) :
    (8 / (((hi - lo + 2 : Int) : T) * ((hi - lo + 2 : Int) : T)) * sum lo hi fun i => f i * f i) ≤ sum lo (hi + 1) fun i => (f i - f (i - 1)) * (f i - f (i - 1)) := by
  let w : Int → T := fun i => ((i - lo + 1 : Int) : T) * ((hi + 1 - i : Int) : T)
  have wp : ∀ i, lo ≤ i → i ≤ hi → 0 < w i := fun i ha hb => mul_pos (by exact_mod_cast (by omega : 0 < i - lo + 1)) (by exact_mod_cast (by omega : 0 < hi + 1 - i))
  have w0 : w (lo - 1) = 0 := by simp [w]
  have w1 : w (hi + 1) = 0 := by simp [w]
  have wn : ∀ i, lo - 1 ≤ i → i ≤ hi + 1 → 0 ≤ w i := fun i ha hb => mul_nonneg (by exact_mod_cast (by omega : 0 ≤ i - lo + 1)) (by exact_mod_cast (by omega : 0 ≤ hi + 1 - i))
  have wf : ∀ i, lo - 1 ≤ i → i ≤ hi + 1 → w i = 0 → f i = 0 := fun i ha hb hw => by
    rcases (by omega : i = lo - 1 ∨ i = hi + 1 ∨ (lo ≤ i ∧ i ≤ hi)) with rfl | rfl | ⟨h2, h3⟩
    · exact h0
    · exact h1
    · exact absurd hw (wp i h2 h3).ne'
  have e := sum_shift (g := fun i => f i * f i * (1 - w (i - 1) / w i)) (h := fun i => f i * f i * (1 - w (i + 1) / w i)) hl (by simp [h0]) (by simp [h1])
  have s1 : (sum lo hi fun i => f i * f i * (1 - w (i - 1) / w i) + f i * f i * (1 - w (i + 1) / w i)) ≤ sum lo (hi + 1) fun i => (f i - f (i - 1)) * (f i - f (i - 1)) := by
    rw [← e]
    refine sum_mono fun i ha hb => ?_
    simp only [show i - 1 + 1 = i by omega]
    exact edge_low (wn i (by omega) hb) (wn (i - 1) (by omega) (by omega)) (wf i (by omega) hb) (wf (i - 1) (by omega) (by omega))
  refine le_trans ?_ s1
  rw [mul_sum]
  refine sum_mono fun i ha hb => ?_
  have hw := wp i ha hb
  have hN : (0 : T) < ((hi - lo + 2 : Int) : T) := by exact_mod_cast (by omega : 0 < hi - lo + 2)
  have q : f i * f i * (1 - w (i - 1) / w i) + f i * f i * (1 - w (i + 1) / w i) = 2 / w i * (f i * f i) := by
    have : w (i - 1) + w (i + 1) = 2 * w i - 2 := by
      simp only [w]
      push_cast
      ring
    have h2 : w (i - 1) / w i + w (i + 1) / w i = 2 - 2 / w i := by
      rw [← add_div, this, sub_div, mul_div_assoc, div_self hw.ne', mul_one]
    calc _ = f i * f i * (2 - (w (i - 1) / w i + w (i + 1) / w i)) := by ring
      _ = _ := by rw [h2]; ring
  rw [q]
  refine mul_le_mul_of_nonneg_right ?_ (mul_self_nonneg _)
  rw [div_le_div_iff₀ (mul_pos hN hN) hw]
  have hN' : ((hi - lo + 2 : Int) : T) = ((i - lo + 1 : Int) : T) + ((hi + 1 - i : Int) : T) := by push_cast; ring
  have := mul_self_nonneg (((i - lo + 1 : Int) : T) - ((hi + 1 - i : Int) : T))
  rw [hN']
  simp only [w]
  linarith

theorem line_low {lo hi : Int} {b f : Int → T} {d c : T} (hl : lo ≤ hi) (h0 : f (lo - 1) = 0) (h1 : f (hi + 1) = 0) (hc : 0 ≤ c) (hb : ∀ i, lo ≤ i → i ≤ hi + 1 → c ≤ b i) :
    (sum lo hi fun i => c * (8 / (((hi - lo + 2 : Int) : T) * d * (((hi - lo + 2 : Int) : T) * d))) * (f i * f i)) ≤ sum lo (hi + 1) fun i => b i * ((f i - f (i - 1)) * (f i - f (i - 1))) / (d * d) := by
  have h := mul_le_mul_of_nonneg_left (line_low1 (f := f) hl h0 h1) (div_nonneg hc (mul_self_nonneg d))
  rw [← mul_assoc, mul_sum, mul_sum] at h
  refine le_trans (le_of_eq (sum_congr fun i _ _ => ?_)) (le_trans h (sum_mono fun i ha hb' => ?_))
  · rw [show ((hi - lo + 2 : Int) : T) * d * (((hi - lo + 2 : Int) : T) * d) = ((hi - lo + 2 : Int) : T) * ((hi - lo + 2 : Int) : T) * (d * d) by ring, ← div_div]
    ring
  · have := mul_le_mul_of_nonneg_right (div_le_div_of_nonneg_right (hb i ha hb') (mul_self_nonneg d)) (mul_self_nonneg (f i - f (i - 1)))
    refine this.trans (le_of_eq ?_)
    ring

/-- the estimate for a step -/
theorem step_le {s a q L l t : T} (hq : q ≤ L * a) (hl : l * s ≤ a) (h0 : 0 ≤ t) (h2 : t * L ≤ 2) : s - 2 * t * a + t * t * q ≤ (1 - t * (2 - t * L) * l) * s := by
  have h1 := mul_le_mul_of_nonneg_left hq (mul_nonneg h0 h0)
  have h3 := mul_le_mul_of_nonneg_left hl (mul_nonneg h0 (by linarith : 0 ≤ 2 - t * L))
  linarith

theorem res_le {a q e L : T} (hL : 0 < L) (h : ∀ t : T, 0 ≤ a - 2 * t * q + t * t * e) (he : e ≤ L * q) : q ≤ L * a := by
  have h1 := h (1 / L)
  have h2 : L * (a - 2 * (1 / L) * q + 1 / L * (1 / L) * e) = L * a - 2 * q + e / L := by
    field_simp
  have h3 := mul_nonneg hL.le h1
  have h4 : e / L ≤ q := (div_le_iff₀ hL).2 (by linarith)
  linarith

theorem form1_top {i0 i1 : Int} {alpha beta : T} {dx : Nat → T} {A B0 : List Int → T} {U : List Int → T} {L : T} (hi : i0 ≤ i1)
    (he : Elliptic1 i0 i1 alpha beta dx A B0) (hT : Top1 i0 i1 alpha beta dx A B0 L) (hU : ∀ p, ¬ InBounds [(i0, i1)] p → U p = 0) :
    form1 i0 i1 alpha beta dx A B0 U U ≤ L * (sum i0 i1 fun i => U [i] * U [i]) := by
  have t0 : (sum i0 (i1 + 1) fun i => B0 [i] * ((U [i] - U [i - 1]) * (U [i] - U [i - 1])) / (dx 0 * dx 0)) ≤ (sum i0 i1 fun i => 2 * ((B0 [i] + B0 [i + 1]) / (dx 0 * dx 0)) * (U [i] * U [i])) := by
    exact line_top (b := fun i => B0 [i]) (f := fun i => U [i]) hi (hU _ (by simp [InBounds])) (hU _ (by simp [InBounds])) (fun i ha hb => (he.face0 i ha hb).le)
  have e : beta * ((sum i0 i1 fun i => 2 * ((B0 [i] + B0 [i + 1]) / (dx 0 * dx 0)) * (U [i] * U [i]))) + alpha * (sum i0 i1 fun i => A [i] * U [i] * U [i]) = (sum i0 i1 fun i => (alpha * A [i] + 2 * (beta * ((B0 [i] + B0 [i + 1]) / (dx 0 * dx 0)))) * (U [i] * U [i])) := by
    simp only [mul_add, mul_sum, ← sum_add]
    exact sum_congr fun i _ _ => by ring
  have := mul_le_mul_of_nonneg_left (t0) he.beta.le
  unfold form1
  refine (add_le_add_left this _).trans ?_
  rw [e]
  simp only [mul_sum]
  exact sum_mono fun i hia hib => mul_le_mul_of_nonneg_right (hT i hia hib) (mul_self_nonneg _)

theorem Top1.pos {i0 i1 : Int} {alpha beta : T} {dx : Nat → T} {A B0 : List Int → T} {L : T} (hi : i0 ≤ i1)
    (he : Elliptic1 i0 i1 alpha beta dx A B0) (hT : Top1 i0 i1 alpha beta dx A B0 L) : 0 < L := by
  have h := hT i0 le_rfl hi
  have c := he.cell i0 le_rfl hi
  have f0 : 0 < (B0 [i0] + B0 [i0 + 1]) / (dx 0 * dx 0) := div_pos (add_pos (he.face0 i0 le_rfl (by omega)) (he.face0 (i0 + 1) (by omega) (by omega))) (mul_self_pos.2 he.dx0)
  have := mul_pos he.beta (f0)
  linarith

theorem form1_low {i0 i1 : Int} {alpha beta : T} {dx : Nat → T} {A B0 : List Int → T} {U : List Int → T} {amin bmin : T} (hi : i0 ≤ i1) (hb : 0 ≤ beta)
    (hL : Low1 i0 i1 alpha A B0 amin bmin) (hU : ∀ p, ¬ InBounds [(i0, i1)] p → U p = 0) :
    low1 i0 i1 beta dx amin bmin * (sum i0 i1 fun i => U [i] * U [i]) ≤ form1 i0 i1 alpha beta dx A B0 U U := by
  have t0 : (sum i0 i1 fun i => bmin * (8 / (((i1 - i0 + 2 : Int) : T) * dx 0 * (((i1 - i0 + 2 : Int) : T) * dx 0))) * (U [i] * U [i])) ≤ (sum i0 (i1 + 1) fun i => B0 [i] * ((U [i] - U [i - 1]) * (U [i] - U [i - 1])) / (dx 0 * dx 0)) := by
    exact line_low (b := fun i => B0 [i]) (f := fun i => U [i]) hi (hU _ (by simp [InBounds])) (hU _ (by simp [InBounds])) hL.bmin0 (fun i ha hb => hL.face0 i ha hb)
  have ta : (sum i0 i1 fun i => amin * (U [i] * U [i])) ≤ alpha * (sum i0 i1 fun i => A [i] * U [i] * U [i]) := by
    simp only [mul_sum]
    exact sum_mono fun i hia hib => by
      have := mul_le_mul_of_nonneg_right (hL.cell i hia hib) (mul_self_nonneg (U [i]))
      linarith
  have := add_le_add (mul_le_mul_of_nonneg_left (t0) hb) ta
  unfold form1
  refine le_trans (le_of_eq ?_) this
  unfold low1
  simp only [mul_add, add_mul, mul_sum, ← sum_add]
  exact sum_congr fun i _ _ => by ring

theorem form1_smul {i0 i1 : Int} {alpha beta : T} {dx : Nat → T} {A B0 : List Int → T} {U V : List Int → T} {t : T} : form1 i0 i1 alpha beta dx A B0 (fun p => t * U p) V = t * form1 i0 i1 alpha beta dx A B0 U V := by
  unfold form1
  simp only [mul_add, mul_sum, ← sum_add]
  congr 1
  · exact sum_congr fun i _ _ => by ring
  · exact sum_congr fun i _ _ => by ring

theorem form1_res {i0 i1 : Int} {alpha beta : T} {dx : Nat → T} {A B0 : List Int → T} {D E : List Int → T} {L : T} (hi : i0 ≤ i1)
    (he : Elliptic1 i0 i1 alpha beta dx A B0) (hT : Top1 i0 i1 alpha beta dx A B0 L) (hE : ∀ p, ¬ InBounds [(i0, i1)] p → E p = 0)
    (hq : form1 i0 i1 alpha beta dx A B0 D E = (sum i0 i1 fun i => E [i] * E [i])) : (sum i0 i1 fun i => E [i] * E [i]) ≤ L * form1 i0 i1 alpha beta dx A B0 D D := by
  refine res_le (Top1.pos hi he hT) (fun t => ?_) (form1_top hi he hT hE)
  have p := he.nonneg (U := fun p => D p - t * E p)
  have s1 : form1 i0 i1 alpha beta dx A B0 D (fun p => D p - t * E p) = form1 i0 i1 alpha beta dx A B0 D D - t * form1 i0 i1 alpha beta dx A B0 E D := by rw [form1_symm, form1_sub, form1_smul]
  have s2 : form1 i0 i1 alpha beta dx A B0 (fun p => t * E p) (fun p => D p - t * E p) = t * (form1 i0 i1 alpha beta dx A B0 D E - t * form1 i0 i1 alpha beta dx A B0 E E) := by rw [form1_smul, form1_symm (U := E), form1_sub, form1_smul]
  rw [form1_sub, s1, s2, form1_symm (U := E) (V := D), hq] at p
  linarith

theorem op1_mono {i0 i1 : Int} {alpha beta : T} {dx : Nat → T} {A B0 : List Int → T} {U V : List Int → T} {t : T} (hi : 0 ≤ t) (he : Elliptic1 i0 i1 alpha beta dx A B0)
    (hs : Step1 i0 i1 alpha beta dx A B0 t) (hUV : ∀ p, InBounds [(i0 - 1, i1 + 1)] p → U p ≤ V p)
    {i : Int} (hia : i0 ≤ i) (hib : i ≤ i1) :
    U [i] - t * op1 alpha beta dx A B0 U i ≤ V [i] - t * op1 alpha beta dx A B0 V i := by
  have s := hs i hia hib
  have o := hUV [i] (inBounds1.2 ⟨i, rfl, by omega⟩)
  have so := mul_le_mul_of_nonneg_right s (sub_nonneg.2 o)
  have tb := mul_nonneg hi he.beta.le
  have m0 := mul_nonneg (mul_nonneg tb (div_nonneg (he.face0 i (by omega) (by omega)).le (mul_self_nonneg (dx 0)))) (sub_nonneg.2 (hUV [i - 1] (inBounds1.2 ⟨i - 1, rfl, by omega⟩)))
  have p0 := mul_nonneg (mul_nonneg tb (div_nonneg (he.face0 (i + 1) (by omega) (by omega)).le (mul_self_nonneg (dx 0)))) (sub_nonneg.2 (hUV [i + 1] (inBounds1.2 ⟨i + 1, rfl, by omega⟩)))
  have x : ∀ X : List Int → T, op1 alpha beta dx A B0 X i = beta * (B0 [i + 1] / (dx 0 * dx 0) * (X [i] - X [i + 1]) + B0 [i] / (dx 0 * dx 0) * (X [i] - X [i - 1])) + alpha * A [i] * X [i] := fun X => by
    unfold op1
    have q0 := he.dx0
    field_simp
    ring
  rw [x U, x V]
  simp only [add_div] at so
  linarith

theorem form2_top {i0 j0 i1 j1 : Int} {alpha beta : T} {dx : Nat → T} {A B0 B1 : List Int → T} {U : List Int → T} {L : T} (hi : i0 ≤ i1) (hj : j0 ≤ j1)
    (he : Elliptic2 i0 j0 i1 j1 alpha beta dx A B0 B1) (hT : Top2 i0 j0 i1 j1 alpha beta dx A B0 B1 L) (hU : ∀ p, ¬ InBounds [(i0, i1), (j0, j1)] p → U p = 0) :
    form2 i0 j0 i1 j1 alpha beta dx A B0 B1 U U ≤ L * (sum i0 i1 fun i => sum j0 j1 fun j => U [i, j] * U [i, j]) := by
  have t0 : (sum i0 (i1 + 1) fun i => sum j0 j1 fun j => B0 [i, j] * ((U [i, j] - U [i - 1, j]) * (U [i, j] - U [i - 1, j])) / (dx 0 * dx 0)) ≤ (sum i0 i1 fun i => sum j0 j1 fun j => 2 * ((B0 [i, j] + B0 [i + 1, j]) / (dx 0 * dx 0)) * (U [i, j] * U [i, j])) := by
    rw [sum_comm (a := i0) (b := i1 + 1), sum_comm (a := i0) (b := i1)]
    exact sum_mono fun j hja hjb => line_top (b := fun i => B0 [i, j]) (f := fun i => U [i, j]) hi (hU _ (by simp [InBounds])) (hU _ (by simp [InBounds])) (fun i ha hb => (he.face0 i j ha hb hja hjb).le)
  have t1 : (sum i0 i1 fun i => sum j0 (j1 + 1) fun j => B1 [j, i] * ((U [i, j] - U [i, j - 1]) * (U [i, j] - U [i, j - 1])) / (dx 1 * dx 1)) ≤ (sum i0 i1 fun i => sum j0 j1 fun j => 2 * ((B1 [j, i] + B1 [j + 1, i]) / (dx 1 * dx 1)) * (U [i, j] * U [i, j])) := by
    exact sum_mono fun i hia hib => line_top (b := fun j => B1 [j, i]) (f := fun j => U [i, j]) hj (hU _ (by simp [InBounds])) (hU _ (by simp [InBounds])) (fun j ha hb => (he.face1 i j hia hib ha hb).le)
  have e : beta * ((sum i0 i1 fun i => sum j0 j1 fun j => 2 * ((B0 [i, j] + B0 [i + 1, j]) / (dx 0 * dx 0)) * (U [i, j] * U [i, j])) + (sum i0 i1 fun i => sum j0 j1 fun j => 2 * ((B1 [j, i] + B1 [j + 1, i]) / (dx 1 * dx 1)) * (U [i, j] * U [i, j]))) + alpha * (sum i0 i1 fun i => sum j0 j1 fun j => A [i, j] * U [i, j] * U [i, j]) = (sum i0 i1 fun i => sum j0 j1 fun j => (alpha * A [i, j] + 2 * (beta * ((B0 [i, j] + B0 [i + 1, j]) / (dx 0 * dx 0) + (B1 [j, i] + B1 [j + 1, i]) / (dx 1 * dx 1)))) * (U [i, j] * U [i, j])) := by
    simp only [mul_add, mul_sum, ← sum_add]
    exact sum_congr fun i _ _ => sum_congr fun j _ _ => by ring
  have := mul_le_mul_of_nonneg_left (add_le_add t0 t1) he.beta.le
  unfold form2
  refine (add_le_add_left this _).trans ?_
  rw [e]
  simp only [mul_sum]
  exact sum_mono fun i hia hib => sum_mono fun j hja hjb => mul_le_mul_of_nonneg_right (hT i j hia hib hja hjb) (mul_self_nonneg _)

theorem Top2.pos {i0 j0 i1 j1 : Int} {alpha beta : T} {dx : Nat → T} {A B0 B1 : List Int → T} {L : T} (hi : i0 ≤ i1) (hj : j0 ≤ j1)
    (he : Elliptic2 i0 j0 i1 j1 alpha beta dx A B0 B1) (hT : Top2 i0 j0 i1 j1 alpha beta dx A B0 B1 L) : 0 < L := by
  have h := hT i0 j0 le_rfl hi le_rfl hj
  have c := he.cell i0 j0 le_rfl hi le_rfl hj
  have f0 : 0 < (B0 [i0, j0] + B0 [i0 + 1, j0]) / (dx 0 * dx 0) := div_pos (add_pos (he.face0 i0 j0 le_rfl (by omega) le_rfl hj) (he.face0 (i0 + 1) j0 (by omega) (by omega) le_rfl hj)) (mul_self_pos.2 he.dx0)
  have f1 : 0 < (B1 [j0, i0] + B1 [j0 + 1, i0]) / (dx 1 * dx 1) := div_pos (add_pos (he.face1 i0 j0 le_rfl hi le_rfl (by omega)) (he.face1 i0 (j0 + 1) le_rfl hi (by omega) (by omega))) (mul_self_pos.2 he.dx1)
  have := mul_pos he.beta (add_pos f0 f1)
  linarith

theorem form2_low {i0 j0 i1 j1 : Int} {alpha beta : T} {dx : Nat → T} {A B0 B1 : List Int → T} {U : List Int → T} {amin bmin : T} (hi : i0 ≤ i1) (hj : j0 ≤ j1) (hb : 0 ≤ beta)
    (hL : Low2 i0 j0 i1 j1 alpha A B0 B1 amin bmin) (hU : ∀ p, ¬ InBounds [(i0, i1), (j0, j1)] p → U p = 0) :
    low2 i0 j0 i1 j1 beta dx amin bmin * (sum i0 i1 fun i => sum j0 j1 fun j => U [i, j] * U [i, j]) ≤ form2 i0 j0 i1 j1 alpha beta dx A B0 B1 U U := by
  have t0 : (sum i0 i1 fun i => sum j0 j1 fun j => bmin * (8 / (((i1 - i0 + 2 : Int) : T) * dx 0 * (((i1 - i0 + 2 : Int) : T) * dx 0))) * (U [i, j] * U [i, j])) ≤ (sum i0 (i1 + 1) fun i => sum j0 j1 fun j => B0 [i, j] * ((U [i, j] - U [i - 1, j]) * (U [i, j] - U [i - 1, j])) / (dx 0 * dx 0)) := by
    rw [sum_comm (a := i0) (b := i1), sum_comm (a := i0) (b := i1 + 1)]
    exact sum_mono fun j hja hjb => line_low (b := fun i => B0 [i, j]) (f := fun i => U [i, j]) hi (hU _ (by simp [InBounds])) (hU _ (by simp [InBounds])) hL.bmin0 (fun i ha hb => hL.face0 i j ha hb hja hjb)
  have t1 : (sum i0 i1 fun i => sum j0 j1 fun j => bmin * (8 / (((j1 - j0 + 2 : Int) : T) * dx 1 * (((j1 - j0 + 2 : Int) : T) * dx 1))) * (U [i, j] * U [i, j])) ≤ (sum i0 i1 fun i => sum j0 (j1 + 1) fun j => B1 [j, i] * ((U [i, j] - U [i, j - 1]) * (U [i, j] - U [i, j - 1])) / (dx 1 * dx 1)) := by
    exact sum_mono fun i hia hib => line_low (b := fun j => B1 [j, i]) (f := fun j => U [i, j]) hj (hU _ (by simp [InBounds])) (hU _ (by simp [InBounds])) hL.bmin0 (fun j ha hb => hL.face1 i j hia hib ha hb)
  have ta : (sum i0 i1 fun i => sum j0 j1 fun j => amin * (U [i, j] * U [i, j])) ≤ alpha * (sum i0 i1 fun i => sum j0 j1 fun j => A [i, j] * U [i, j] * U [i, j]) := by
    simp only [mul_sum]
    exact sum_mono fun i hia hib => sum_mono fun j hja hjb => by
      have := mul_le_mul_of_nonneg_right (hL.cell i j hia hib hja hjb) (mul_self_nonneg (U [i, j]))
      linarith
  have := add_le_add (mul_le_mul_of_nonneg_left (add_le_add t0 t1) hb) ta
  unfold form2
  refine le_trans (le_of_eq ?_) this
  unfold low2
  simp only [mul_add, add_mul, mul_sum, ← sum_add]
  exact sum_congr fun i _ _ => sum_congr fun j _ _ => by ring

theorem form2_smul {i0 j0 i1 j1 : Int} {alpha beta : T} {dx : Nat → T} {A B0 B1 : List Int → T} {U V : List Int → T} {t : T} : form2 i0 j0 i1 j1 alpha beta dx A B0 B1 (fun p => t * U p) V = t * form2 i0 j0 i1 j1 alpha beta dx A B0 B1 U V := by
  unfold form2
  simp only [mul_add, mul_sum, ← sum_add]
  congr 1
  · congr 1 <;> exact sum_congr fun i _ _ => sum_congr fun j _ _ => by ring
  · exact sum_congr fun i _ _ => sum_congr fun j _ _ => by ring

theorem form2_res {i0 j0 i1 j1 : Int} {alpha beta : T} {dx : Nat → T} {A B0 B1 : List Int → T} {D E : List Int → T} {L : T} (hi : i0 ≤ i1) (hj : j0 ≤ j1)
    (he : Elliptic2 i0 j0 i1 j1 alpha beta dx A B0 B1) (hT : Top2 i0 j0 i1 j1 alpha beta dx A B0 B1 L) (hE : ∀ p, ¬ InBounds [(i0, i1), (j0, j1)] p → E p = 0)
    (hq : form2 i0 j0 i1 j1 alpha beta dx A B0 B1 D E = (sum i0 i1 fun i => sum j0 j1 fun j => E [i, j] * E [i, j])) : (sum i0 i1 fun i => sum j0 j1 fun j => E [i, j] * E [i, j]) ≤ L * form2 i0 j0 i1 j1 alpha beta dx A B0 B1 D D := by
  refine res_le (Top2.pos hi hj he hT) (fun t => ?_) (form2_top hi hj he hT hE)
  have p := he.nonneg (U := fun p => D p - t * E p)
  have s1 : form2 i0 j0 i1 j1 alpha beta dx A B0 B1 D (fun p => D p - t * E p) = form2 i0 j0 i1 j1 alpha beta dx A B0 B1 D D - t * form2 i0 j0 i1 j1 alpha beta dx A B0 B1 E D := by rw [form2_symm, form2_sub, form2_smul]
  have s2 : form2 i0 j0 i1 j1 alpha beta dx A B0 B1 (fun p => t * E p) (fun p => D p - t * E p) = t * (form2 i0 j0 i1 j1 alpha beta dx A B0 B1 D E - t * form2 i0 j0 i1 j1 alpha beta dx A B0 B1 E E) := by rw [form2_smul, form2_symm (U := E), form2_sub, form2_smul]
  rw [form2_sub, s1, s2, form2_symm (U := E) (V := D), hq] at p
  linarith

theorem op2_mono {i0 j0 i1 j1 : Int} {alpha beta : T} {dx : Nat → T} {A B0 B1 : List Int → T} {U V : List Int → T} {t : T} (hi : 0 ≤ t) (he : Elliptic2 i0 j0 i1 j1 alpha beta dx A B0 B1)
    (hs : Step2 i0 j0 i1 j1 alpha beta dx A B0 B1 t) (hUV : ∀ p, InBounds [(i0 - 1, i1 + 1), (j0 - 1, j1 + 1)] p → U p ≤ V p)
    {i j : Int} (hia : i0 ≤ i) (hib : i ≤ i1) (hja : j0 ≤ j) (hjb : j ≤ j1) :
    U [i, j] - t * op2 alpha beta dx A B0 B1 U i j ≤ V [i, j] - t * op2 alpha beta dx A B0 B1 V i j := by
  have s := hs i j hia hib hja hjb
  have o := hUV [i, j] (inBounds2.2 ⟨i, j, rfl, by omega⟩)
  have so := mul_le_mul_of_nonneg_right s (sub_nonneg.2 o)
  have tb := mul_nonneg hi he.beta.le
  have m0 := mul_nonneg (mul_nonneg tb (div_nonneg (he.face0 i j (by omega) (by omega) hja hjb).le (mul_self_nonneg (dx 0)))) (sub_nonneg.2 (hUV [i - 1, j] (inBounds2.2 ⟨i - 1, j, rfl, by omega⟩)))
  have p0 := mul_nonneg (mul_nonneg tb (div_nonneg (he.face0 (i + 1) j (by omega) (by omega) hja hjb).le (mul_self_nonneg (dx 0)))) (sub_nonneg.2 (hUV [i + 1, j] (inBounds2.2 ⟨i + 1, j, rfl, by omega⟩)))
  have m1 := mul_nonneg (mul_nonneg tb (div_nonneg (he.face1 i j hia hib (by omega) (by omega)).le (mul_self_nonneg (dx 1)))) (sub_nonneg.2 (hUV [i, j - 1] (inBounds2.2 ⟨i, j - 1, rfl, by omega⟩)))
  have p1 := mul_nonneg (mul_nonneg tb (div_nonneg (he.face1 i (j + 1) hia hib (by omega) (by omega)).le (mul_self_nonneg (dx 1)))) (sub_nonneg.2 (hUV [i, j + 1] (inBounds2.2 ⟨i, j + 1, rfl, by omega⟩)))
  have x : ∀ X : List Int → T, op2 alpha beta dx A B0 B1 X i j = beta * (B0 [i + 1, j] / (dx 0 * dx 0) * (X [i, j] - X [i + 1, j]) + B0 [i, j] / (dx 0 * dx 0) * (X [i, j] - X [i - 1, j]) + B1 [j + 1, i] / (dx 1 * dx 1) * (X [i, j] - X [i, j + 1]) + B1 [j, i] / (dx 1 * dx 1) * (X [i, j] - X [i, j - 1])) + alpha * A [i, j] * X [i, j] := fun X => by
    unfold op2
    have q0 := he.dx0
    have q1 := he.dx1
    field_simp
    ring
  rw [x U, x V]
  simp only [add_div] at so
  linarith

theorem form3_top {i0 j0 k0 i1 j1 k1 : Int} {alpha beta : T} {dx : Nat → T} {A B0 B1 B2 : List Int → T} {U : List Int → T} {L : T} (hi : i0 ≤ i1) (hj : j0 ≤ j1) (hk : k0 ≤ k1)
    (he : Elliptic3 i0 j0 k0 i1 j1 k1 alpha beta dx A B0 B1 B2) (hT : Top3 i0 j0 k0 i1 j1 k1 alpha beta dx A B0 B1 B2 L) (hU : ∀ p, ¬ InBounds [(i0, i1), (j0, j1), (k0, k1)] p → U p = 0) :
    form3 i0 j0 k0 i1 j1 k1 alpha beta dx A B0 B1 B2 U U ≤ L * (sum i0 i1 fun i => sum j0 j1 fun j => sum k0 k1 fun k => U [i, j, k] * U [i, j, k]) := by
  have t0 : (sum i0 (i1 + 1) fun i => sum j0 j1 fun j => sum k0 k1 fun k => B0 [i, j, k] * ((U [i, j, k] - U [i - 1, j, k]) * (U [i, j, k] - U [i - 1, j, k])) / (dx 0 * dx 0)) ≤ (sum i0 i1 fun i => sum j0 j1 fun j => sum k0 k1 fun k => 2 * ((B0 [i, j, k] + B0 [i + 1, j, k]) / (dx 0 * dx 0)) * (U [i, j, k] * U [i, j, k])) := by
    rw [sum3_in (a := i0) (b := i1 + 1), sum3_in (a := i0) (b := i1)]
    exact sum_mono fun j hja hjb => sum_mono fun k hka hkb => line_top (b := fun i => B0 [i, j, k]) (f := fun i => U [i, j, k]) hi (hU _ (by simp [InBounds])) (hU _ (by simp [InBounds])) (fun i ha hb => (he.face0 i j k ha hb hja hjb hka hkb).le)
  have t1 : (sum i0 i1 fun i => sum j0 (j1 + 1) fun j => sum k0 k1 fun k => B1 [j, k, i] * ((U [i, j, k] - U [i, j - 1, k]) * (U [i, j, k] - U [i, j - 1, k])) / (dx 1 * dx 1)) ≤ (sum i0 i1 fun i => sum j0 j1 fun j => sum k0 k1 fun k => 2 * ((B1 [j, k, i] + B1 [j + 1, k, i]) / (dx 1 * dx 1)) * (U [i, j, k] * U [i, j, k])) := by
    refine sum_mono fun i hia hib => ?_
    rw [sum_comm (a := j0) (b := j1 + 1), sum_comm (a := j0) (b := j1)]
    exact sum_mono fun k hka hkb => line_top (b := fun j => B1 [j, k, i]) (f := fun j => U [i, j, k]) hj (hU _ (by simp [InBounds])) (hU _ (by simp [InBounds])) (fun j ha hb => (he.face1 i j k hia hib ha hb hka hkb).le)
  have t2 : (sum i0 i1 fun i => sum j0 j1 fun j => sum k0 (k1 + 1) fun k => B2 [k, i, j] * ((U [i, j, k] - U [i, j, k - 1]) * (U [i, j, k] - U [i, j, k - 1])) / (dx 2 * dx 2)) ≤ (sum i0 i1 fun i => sum j0 j1 fun j => sum k0 k1 fun k => 2 * ((B2 [k, i, j] + B2 [k + 1, i, j]) / (dx 2 * dx 2)) * (U [i, j, k] * U [i, j, k])) := by
    exact sum_mono fun i hia hib => sum_mono fun j hja hjb => line_top (b := fun k => B2 [k, i, j]) (f := fun k => U [i, j, k]) hk (hU _ (by simp [InBounds])) (hU _ (by simp [InBounds])) (fun k ha hb => (he.face2 i j k hia hib hja hjb ha hb).le)
  have e : beta * ((sum i0 i1 fun i => sum j0 j1 fun j => sum k0 k1 fun k => 2 * ((B0 [i, j, k] + B0 [i + 1, j, k]) / (dx 0 * dx 0)) * (U [i, j, k] * U [i, j, k])) + (sum i0 i1 fun i => sum j0 j1 fun j => sum k0 k1 fun k => 2 * ((B1 [j, k, i] + B1 [j + 1, k, i]) / (dx 1 * dx 1)) * (U [i, j, k] * U [i, j, k])) + (sum i0 i1 fun i => sum j0 j1 fun j => sum k0 k1 fun k => 2 * ((B2 [k, i, j] + B2 [k + 1, i, j]) / (dx 2 * dx 2)) * (U [i, j, k] * U [i, j, k]))) + alpha * (sum i0 i1 fun i => sum j0 j1 fun j => sum k0 k1 fun k => A [i, j, k] * U [i, j, k] * U [i, j, k]) = (sum i0 i1 fun i => sum j0 j1 fun j => sum k0 k1 fun k => (alpha * A [i, j, k] + 2 * (beta * ((B0 [i, j, k] + B0 [i + 1, j, k]) / (dx 0 * dx 0) + (B1 [j, k, i] + B1 [j + 1, k, i]) / (dx 1 * dx 1) + (B2 [k, i, j] + B2 [k + 1, i, j]) / (dx 2 * dx 2)))) * (U [i, j, k] * U [i, j, k])) := by
    simp only [mul_add, mul_sum, ← sum_add]
    exact sum_congr fun i _ _ => sum_congr fun j _ _ => sum_congr fun k _ _ => by ring
  have := mul_le_mul_of_nonneg_left (add_le_add (add_le_add t0 t1) t2) he.beta.le
  unfold form3
  refine (add_le_add_left this _).trans ?_
  rw [e]
  simp only [mul_sum]
  exact sum_mono fun i hia hib => sum_mono fun j hja hjb => sum_mono fun k hka hkb => mul_le_mul_of_nonneg_right (hT i j k hia hib hja hjb hka hkb) (mul_self_nonneg _)

theorem Top3.pos {i0 j0 k0 i1 j1 k1 : Int} {alpha beta : T} {dx : Nat → T} {A B0 B1 B2 : List Int → T} {L : T} (hi : i0 ≤ i1) (hj : j0 ≤ j1) (hk : k0 ≤ k1)
    (he : Elliptic3 i0 j0 k0 i1 j1 k1 alpha beta dx A B0 B1 B2) (hT : Top3 i0 j0 k0 i1 j1 k1 alpha beta dx A B0 B1 B2 L) : 0 < L := by
  have h := hT i0 j0 k0 le_rfl hi le_rfl hj le_rfl hk
  have c := he.cell i0 j0 k0 le_rfl hi le_rfl hj le_rfl hk
  have f0 : 0 < (B0 [i0, j0, k0] + B0 [i0 + 1, j0, k0]) / (dx 0 * dx 0) := div_pos (add_pos (he.face0 i0 j0 k0 le_rfl (by omega) le_rfl hj le_rfl hk) (he.face0 (i0 + 1) j0 k0 (by omega) (by omega) le_rfl hj le_rfl hk)) (mul_self_pos.2 he.dx0)
  have f1 : 0 < (B1 [j0, k0, i0] + B1 [j0 + 1, k0, i0]) / (dx 1 * dx 1) := div_pos (add_pos (he.face1 i0 j0 k0 le_rfl hi le_rfl (by omega) le_rfl hk) (he.face1 i0 (j0 + 1) k0 le_rfl hi (by omega) (by omega) le_rfl hk)) (mul_self_pos.2 he.dx1)
  have f2 : 0 < (B2 [k0, i0, j0] + B2 [k0 + 1, i0, j0]) / (dx 2 * dx 2) := div_pos (add_pos (he.face2 i0 j0 k0 le_rfl hi le_rfl hj le_rfl (by omega)) (he.face2 i0 j0 (k0 + 1) le_rfl hi le_rfl hj (by omega) (by omega))) (mul_self_pos.2 he.dx2)
  have := mul_pos he.beta (add_pos (add_pos f0 f1) f2)
  linarith

theorem form3_low {i0 j0 k0 i1 j1 k1 : Int} {alpha beta : T} {dx : Nat → T} {A B0 B1 B2 : List Int → T} {U : List Int → T} {amin bmin : T} (hi : i0 ≤ i1) (hj : j0 ≤ j1) (hk : k0 ≤ k1) (hb : 0 ≤ beta)
    (hL : Low3 i0 j0 k0 i1 j1 k1 alpha A B0 B1 B2 amin bmin) (hU : ∀ p, ¬ InBounds [(i0, i1), (j0, j1), (k0, k1)] p → U p = 0) :
    low3 i0 j0 k0 i1 j1 k1 beta dx amin bmin * (sum i0 i1 fun i => sum j0 j1 fun j => sum k0 k1 fun k => U [i, j, k] * U [i, j, k]) ≤ form3 i0 j0 k0 i1 j1 k1 alpha beta dx A B0 B1 B2 U U := by
  have t0 : (sum i0 i1 fun i => sum j0 j1 fun j => sum k0 k1 fun k => bmin * (8 / (((i1 - i0 + 2 : Int) : T) * dx 0 * (((i1 - i0 + 2 : Int) : T) * dx 0))) * (U [i, j, k] * U [i, j, k])) ≤ (sum i0 (i1 + 1) fun i => sum j0 j1 fun j => sum k0 k1 fun k => B0 [i, j, k] * ((U [i, j, k] - U [i - 1, j, k]) * (U [i, j, k] - U [i - 1, j, k])) / (dx 0 * dx 0)) := by
    rw [sum3_in (a := i0) (b := i1), sum3_in (a := i0) (b := i1 + 1)]
    exact sum_mono fun j hja hjb => sum_mono fun k hka hkb => line_low (b := fun i => B0 [i, j, k]) (f := fun i => U [i, j, k]) hi (hU _ (by simp [InBounds])) (hU _ (by simp [InBounds])) hL.bmin0 (fun i ha hb => hL.face0 i j k ha hb hja hjb hka hkb)
  have t1 : (sum i0 i1 fun i => sum j0 j1 fun j => sum k0 k1 fun k => bmin * (8 / (((j1 - j0 + 2 : Int) : T) * dx 1 * (((j1 - j0 + 2 : Int) : T) * dx 1))) * (U [i, j, k] * U [i, j, k])) ≤ (sum i0 i1 fun i => sum j0 (j1 + 1) fun j => sum k0 k1 fun k => B1 [j, k, i] * ((U [i, j, k] - U [i, j - 1, k]) * (U [i, j, k] - U [i, j - 1, k])) / (dx 1 * dx 1)) := by
    refine sum_mono fun i hia hib => ?_
    rw [sum_comm (a := j0) (b := j1), sum_comm (a := j0) (b := j1 + 1)]
    exact sum_mono fun k hka hkb => line_low (b := fun j => B1 [j, k, i]) (f := fun j => U [i, j, k]) hj (hU _ (by simp [InBounds])) (hU _ (by simp [InBounds])) hL.bmin0 (fun j ha hb => hL.face1 i j k hia hib ha hb hka hkb)
  have t2 : (sum i0 i1 fun i => sum j0 j1 fun j => sum k0 k1 fun k => bmin * (8 / (((k1 - k0 + 2 : Int) : T) * dx 2 * (((k1 - k0 + 2 : Int) : T) * dx 2))) * (U [i, j, k] * U [i, j, k])) ≤ (sum i0 i1 fun i => sum j0 j1 fun j => sum k0 (k1 + 1) fun k => B2 [k, i, j] * ((U [i, j, k] - U [i, j, k - 1]) * (U [i, j, k] - U [i, j, k - 1])) / (dx 2 * dx 2)) := by
    exact sum_mono fun i hia hib => sum_mono fun j hja hjb => line_low (b := fun k => B2 [k, i, j]) (f := fun k => U [i, j, k]) hk (hU _ (by simp [InBounds])) (hU _ (by simp [InBounds])) hL.bmin0 (fun k ha hb => hL.face2 i j k hia hib hja hjb ha hb)
  have ta : (sum i0 i1 fun i => sum j0 j1 fun j => sum k0 k1 fun k => amin * (U [i, j, k] * U [i, j, k])) ≤ alpha * (sum i0 i1 fun i => sum j0 j1 fun j => sum k0 k1 fun k => A [i, j, k] * U [i, j, k] * U [i, j, k]) := by
    simp only [mul_sum]
    exact sum_mono fun i hia hib => sum_mono fun j hja hjb => sum_mono fun k hka hkb => by
      have := mul_le_mul_of_nonneg_right (hL.cell i j k hia hib hja hjb hka hkb) (mul_self_nonneg (U [i, j, k]))
      linarith
  have := add_le_add (mul_le_mul_of_nonneg_left (add_le_add (add_le_add t0 t1) t2) hb) ta
  unfold form3
  refine le_trans (le_of_eq ?_) this
  unfold low3
  simp only [mul_add, add_mul, mul_sum, ← sum_add]
  exact sum_congr fun i _ _ => sum_congr fun j _ _ => sum_congr fun k _ _ => by ring

theorem form3_smul {i0 j0 k0 i1 j1 k1 : Int} {alpha beta : T} {dx : Nat → T} {A B0 B1 B2 : List Int → T} {U V : List Int → T} {t : T} : form3 i0 j0 k0 i1 j1 k1 alpha beta dx A B0 B1 B2 (fun p => t * U p) V = t * form3 i0 j0 k0 i1 j1 k1 alpha beta dx A B0 B1 B2 U V := by
  unfold form3
  simp only [mul_add, mul_sum, ← sum_add]
  congr 1
  · congr 1
    · congr 1 <;> exact sum_congr fun i _ _ => sum_congr fun j _ _ => sum_congr fun k _ _ => by ring
    · exact sum_congr fun i _ _ => sum_congr fun j _ _ => sum_congr fun k _ _ => by ring
  · exact sum_congr fun i _ _ => sum_congr fun j _ _ => sum_congr fun k _ _ => by ring

theorem form3_res {i0 j0 k0 i1 j1 k1 : Int} {alpha beta : T} {dx : Nat → T} {A B0 B1 B2 : List Int → T} {D E : List Int → T} {L : T} (hi : i0 ≤ i1) (hj : j0 ≤ j1) (hk : k0 ≤ k1)
    (he : Elliptic3 i0 j0 k0 i1 j1 k1 alpha beta dx A B0 B1 B2) (hT : Top3 i0 j0 k0 i1 j1 k1 alpha beta dx A B0 B1 B2 L) (hE : ∀ p, ¬ InBounds [(i0, i1), (j0, j1), (k0, k1)] p → E p = 0)
    (hq : form3 i0 j0 k0 i1 j1 k1 alpha beta dx A B0 B1 B2 D E = (sum i0 i1 fun i => sum j0 j1 fun j => sum k0 k1 fun k => E [i, j, k] * E [i, j, k])) : (sum i0 i1 fun i => sum j0 j1 fun j => sum k0 k1 fun k => E [i, j, k] * E [i, j, k]) ≤ L * form3 i0 j0 k0 i1 j1 k1 alpha beta dx A B0 B1 B2 D D := by
  refine res_le (Top3.pos hi hj hk he hT) (fun t => ?_) (form3_top hi hj hk he hT hE)
  have p := he.nonneg (U := fun p => D p - t * E p)
  have s1 : form3 i0 j0 k0 i1 j1 k1 alpha beta dx A B0 B1 B2 D (fun p => D p - t * E p) = form3 i0 j0 k0 i1 j1 k1 alpha beta dx A B0 B1 B2 D D - t * form3 i0 j0 k0 i1 j1 k1 alpha beta dx A B0 B1 B2 E D := by rw [form3_symm, form3_sub, form3_smul]
  have s2 : form3 i0 j0 k0 i1 j1 k1 alpha beta dx A B0 B1 B2 (fun p => t * E p) (fun p => D p - t * E p) = t * (form3 i0 j0 k0 i1 j1 k1 alpha beta dx A B0 B1 B2 D E - t * form3 i0 j0 k0 i1 j1 k1 alpha beta dx A B0 B1 B2 E E) := by rw [form3_smul, form3_symm (U := E), form3_sub, form3_smul]
  rw [form3_sub, s1, s2, form3_symm (U := E) (V := D), hq] at p
  linarith

theorem op3_mono {i0 j0 k0 i1 j1 k1 : Int} {alpha beta : T} {dx : Nat → T} {A B0 B1 B2 : List Int → T} {U V : List Int → T} {t : T} (hi : 0 ≤ t) (he : Elliptic3 i0 j0 k0 i1 j1 k1 alpha beta dx A B0 B1 B2)
    (hs : Step3 i0 j0 k0 i1 j1 k1 alpha beta dx A B0 B1 B2 t) (hUV : ∀ p, InBounds [(i0 - 1, i1 + 1), (j0 - 1, j1 + 1), (k0 - 1, k1 + 1)] p → U p ≤ V p)
    {i j k : Int} (hia : i0 ≤ i) (hib : i ≤ i1) (hja : j0 ≤ j) (hjb : j ≤ j1) (hka : k0 ≤ k) (hkb : k ≤ k1) :
    U [i, j, k] - t * op3 alpha beta dx A B0 B1 B2 U i j k ≤ V [i, j, k] - t * op3 alpha beta dx A B0 B1 B2 V i j k := by
  have s := hs i j k hia hib hja hjb hka hkb
  have o := hUV [i, j, k] (inBounds3.2 ⟨i, j, k, rfl, by omega⟩)
  have so := mul_le_mul_of_nonneg_right s (sub_nonneg.2 o)
  have tb := mul_nonneg hi he.beta.le
  have m0 := mul_nonneg (mul_nonneg tb (div_nonneg (he.face0 i j k (by omega) (by omega) hja hjb hka hkb).le (mul_self_nonneg (dx 0)))) (sub_nonneg.2 (hUV [i - 1, j, k] (inBounds3.2 ⟨i - 1, j, k, rfl, by omega⟩)))
  have p0 := mul_nonneg (mul_nonneg tb (div_nonneg (he.face0 (i + 1) j k (by omega) (by omega) hja hjb hka hkb).le (mul_self_nonneg (dx 0)))) (sub_nonneg.2 (hUV [i + 1, j, k] (inBounds3.2 ⟨i + 1, j, k, rfl, by omega⟩)))
  have m1 := mul_nonneg (mul_nonneg tb (div_nonneg (he.face1 i j k hia hib (by omega) (by omega) hka hkb).le (mul_self_nonneg (dx 1)))) (sub_nonneg.2 (hUV [i, j - 1, k] (inBounds3.2 ⟨i, j - 1, k, rfl, by omega⟩)))
  have p1 := mul_nonneg (mul_nonneg tb (div_nonneg (he.face1 i (j + 1) k hia hib (by omega) (by omega) hka hkb).le (mul_self_nonneg (dx 1)))) (sub_nonneg.2 (hUV [i, j + 1, k] (inBounds3.2 ⟨i, j + 1, k, rfl, by omega⟩)))
  have m2 := mul_nonneg (mul_nonneg tb (div_nonneg (he.face2 i j k hia hib hja hjb (by omega) (by omega)).le (mul_self_nonneg (dx 2)))) (sub_nonneg.2 (hUV [i, j, k - 1] (inBounds3.2 ⟨i, j, k - 1, rfl, by omega⟩)))
  have p2 := mul_nonneg (mul_nonneg tb (div_nonneg (he.face2 i j (k + 1) hia hib hja hjb (by omega) (by omega)).le (mul_self_nonneg (dx 2)))) (sub_nonneg.2 (hUV [i, j, k + 1] (inBounds3.2 ⟨i, j, k + 1, rfl, by omega⟩)))
  have x : ∀ X : List Int → T, op3 alpha beta dx A B0 B1 B2 X i j k = beta * (B0 [i + 1, j, k] / (dx 0 * dx 0) * (X [i, j, k] - X [i + 1, j, k]) + B0 [i, j, k] / (dx 0 * dx 0) * (X [i, j, k] - X [i - 1, j, k]) + B1 [j + 1, k, i] / (dx 1 * dx 1) * (X [i, j, k] - X [i, j + 1, k]) + B1 [j, k, i] / (dx 1 * dx 1) * (X [i, j, k] - X [i, j - 1, k]) + B2 [k + 1, i, j] / (dx 2 * dx 2) * (X [i, j, k] - X [i, j, k + 1]) + B2 [k, i, j] / (dx 2 * dx 2) * (X [i, j, k] - X [i, j, k - 1])) + alpha * A [i, j, k] * X [i, j, k] := fun X => by
    unfold op3
    have q0 := he.dx0
    have q1 := he.dx1
    have q2 := he.dx2
    field_simp
    ring
  rw [x U, x V]
  simp only [add_div] at so
  linarith

end Verif.F
