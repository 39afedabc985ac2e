import Mathlib.Analysis.Calculus.MeanValue
import Mathlib.Analysis.Calculus.IteratedDeriv.Lemmas
import Mathlib.Analysis.Calculus.Deriv.Pow

/-
Central differences of smooth functions.
-/

namespace Verif

/-- a function that starts at 0 and whose derivative is at most `c t^n` -/
theorem grow {f f' : ℝ → ℝ} {c T : ℝ} {n : ℕ} (hf : ∀ t, HasDerivAt f (f' t) t) (h0 : f 0 = 0) (hb : ∀ t, 0 ≤ t → t ≤ T → |f' t| ≤ c * t ^ n) :
    ∀ t, 0 ≤ t → t ≤ T → |f t| ≤ c * t ^ (n + 1) / (n + 1) := by
  intro t h1 h2
  have hB : ∀ x, HasDerivAt (fun t : ℝ => c * t ^ (n + 1) / (n + 1)) (c * x ^ n) x := by
    intro x
    have := ((hasDerivAt_pow (n + 1) x).const_mul c).div_const ((n : ℝ) + 1)
    have hn : (n : ℝ) + 1 ≠ 0 := by positivity
    refine this.congr_deriv ?_
    push_cast
    field_simp
  have := image_norm_le_of_norm_deriv_right_le_deriv_boundary (f := f) (f' := f') (a := 0) (b := T) (B := fun t => c * t ^ (n + 1) / (n + 1)) (B' := fun t => c * t ^ n)
    (fun x _ => (hf x).continuousAt.continuousWithinAt) (fun x _ => (hf x).hasDerivWithinAt) (by simp [h0]) hB (fun x hx => hb x hx.1 hx.2.le) (x := t) ⟨h1, h2⟩
  exact this

/-- the central difference quotient of a function with bounded third derivative -/
theorem central {g g1 g2 g3 : ℝ → ℝ} {x h K : ℝ} (d1 : ∀ y, HasDerivAt g (g1 y) y) (d2 : ∀ y, HasDerivAt g1 (g2 y) y) (d3 : ∀ y, HasDerivAt g2 (g3 y) y)
    (hh : 0 < h) (hK : ∀ y, x - h / 2 ≤ y → y ≤ x + h / 2 → |g3 y| ≤ K) : |(g (x + h / 2) - g (x - h / 2)) / h - g1 x| ≤ K * h ^ 2 / 24 := by
  have up : ∀ {f f' : ℝ → ℝ}, (∀ y, HasDerivAt f (f' y) y) → ∀ t, HasDerivAt (fun t => f (x + t)) (f' (x + t)) t := fun {f f'} d t => by
    exact ((d (x + t)).comp t ((hasDerivAt_id t).const_add x)).congr_deriv (mul_one _)
  have dn : ∀ {f f' : ℝ → ℝ}, (∀ y, HasDerivAt f (f' y) y) → ∀ t, HasDerivAt (fun t => f (x - t)) (-f' (x - t)) t := fun {f f'} d t => by
    exact ((d (x - t)).comp t ((hasDerivAt_id t).const_sub x)).congr_deriv (by ring)
  have e2 := grow (f := fun t => g2 (x + t) - g2 (x - t)) (f' := fun t => g3 (x + t) + g3 (x - t)) (c := 2 * K) (T := h / 2) (n := 0)
    (fun t => ((up d3 t).sub (dn d3 t)).congr_deriv (by ring)) (by simp) (fun t h0 h1 => by
      have a := hK (x + t) (by linarith) (by linarith)
      have b := hK (x - t) (by linarith) (by linarith)
      have := abs_add_le (g3 (x + t)) (g3 (x - t))
      simp only [pow_zero, mul_one]
      linarith)
  have e1 := grow (f := fun t => g1 (x + t) + g1 (x - t) - 2 * g1 x) (f' := fun t => g2 (x + t) - g2 (x - t)) (c := 2 * K) (T := h / 2) (n := 1)
    (fun t => (((up d2 t).add (dn d2 t)).sub_const (2 * g1 x)).congr_deriv (by ring)) (by simp; ring) (fun t h0 h1 => by simpa using e2 t h0 h1)
  have e0 := grow (f := fun t => g (x + t) - g (x - t) - 2 * g1 x * t) (f' := fun t => g1 (x + t) + g1 (x - t) - 2 * g1 x) (c := K) (T := h / 2) (n := 2)
    (fun t => (((up d1 t).sub (dn d1 t)).sub ((hasDerivAt_id t).const_mul (2 * g1 x))).congr_deriv (by ring)) (by simp) (fun t h0 h1 => by
      have := e1 t h0 h1
      norm_num at this ⊢
      linarith)
  have := e0 (h / 2) (by linarith) le_rfl
  norm_num at this
  rw [show (g (x + h / 2) - g (x - h / 2)) / h - g1 x = (g (x + h / 2) - g (x - h / 2) - 2 * g1 x * (h / 2)) / h by field_simp, abs_div, abs_of_pos hh, div_le_iff₀ hh]
  refine this.trans (le_of_eq ?_)
  ring

/-- the difference of the fluxes through the two faces of a cell -/
theorem central_flux {u u1 u2 u3 u4 b b1 w1 w2 w3 : ℝ → ℝ} {x h K B B' M3 M4 : ℝ} (d1 : ∀ y, HasDerivAt u (u1 y) y) (d2 : ∀ y, HasDerivAt u1 (u2 y) y)
    (d3 : ∀ y, HasDerivAt u2 (u3 y) y) (d4 : ∀ y, HasDerivAt u3 (u4 y) y) (db : ∀ y, HasDerivAt b (b1 y) y)
    (dw1 : ∀ y, HasDerivAt (fun y => b y * u1 y) (w1 y) y) (dw2 : ∀ y, HasDerivAt w1 (w2 y) y) (dw3 : ∀ y, HasDerivAt w2 (w3 y) y) (hh : 0 < h)
    (hb : ∀ y, x - h ≤ y → y ≤ x + h → |w3 y| ≤ K ∧ |b y| ≤ B ∧ |b1 y| ≤ B' ∧ |u3 y| ≤ M3 ∧ |u4 y| ≤ M4) :
    |(b (x + h / 2) * (u (x + h) - u x) / h - b (x - h / 2) * (u x - u (x - h)) / h) / h - w1 x| ≤ (K + B' * M3 + B * M4) * h ^ 2 / 24 := by
  have cw := central dw1 dw2 dw3 hh (K := K) (x := x) fun y h0 h1 => (hb y (by linarith) (by linarith)).1
  let E : ℝ → ℝ := fun y => (u (y + h / 2) - u (y - h / 2)) / h - u1 y
  let E' : ℝ → ℝ := fun y => (u1 (y + h / 2) - u1 (y - h / 2)) / h - u2 y
  have sh : ∀ {f f' : ℝ → ℝ} (c : ℝ), (∀ y, HasDerivAt f (f' y) y) → ∀ y, HasDerivAt (fun y => f (y + c)) (f' (y + c)) y := fun {f f'} c d y => by
    exact ((d (y + c)).comp y ((hasDerivAt_id y).add_const c)).congr_deriv (mul_one _)
  have dE : ∀ y, HasDerivAt E (E' y) y := fun y => by
    have := (((sh (h / 2) d1 y).sub (sh (-(h / 2)) d1 y)).div_const h).sub (d2 y)
    exact this
  have e0 : ∀ y, x - h / 2 ≤ y → y ≤ x + h / 2 → |E y| ≤ M3 * h ^ 2 / 24 := fun y h0 h1 =>
    central d1 d2 d3 hh fun z h2 h3 => (hb z (by linarith) (by linarith)).2.2.2.1
  have e1 : ∀ y, x - h / 2 ≤ y → y ≤ x + h / 2 → |E' y| ≤ M4 * h ^ 2 / 24 := fun y h0 h1 =>
    central d2 d3 d4 hh fun z h2 h3 => (hb z (by linarith) (by linarith)).2.2.2.2
  have mv := (convex_Icc (x - h / 2) (x + h / 2)).norm_image_sub_le_of_norm_hasDerivWithin_le (f := fun y => b y * E y) (f' := fun y => b1 y * E y + b y * E' y)
    (C := (B' * M3 + B * M4) * h ^ 2 / 24) (x := x - h / 2) (y := x + h / 2) (fun y _ => ((db y).mul (dE y)).hasDerivWithinAt) (fun y hy => by
      have q := hb y (by linarith [hy.1]) (by linarith [hy.2])
      have a := mul_le_mul q.2.2.1 (e0 y hy.1 hy.2) (abs_nonneg _) ((abs_nonneg _).trans q.2.2.1)
      have c := mul_le_mul q.2.1 (e1 y hy.1 hy.2) (abs_nonneg _) ((abs_nonneg _).trans q.2.1)
      have := abs_add_le (b1 y * E y) (b y * E' y)
      rw [abs_mul, abs_mul] at this
      rw [Real.norm_eq_abs]
      linarith) ⟨le_rfl, by linarith⟩ ⟨by linarith, le_rfl⟩
  rw [Real.norm_eq_abs, Real.norm_eq_abs, show x + h / 2 - (x - h / 2) = h by ring, abs_of_pos hh] at mv
  have e : (b (x + h / 2) * (u (x + h) - u x) / h - b (x - h / 2) * (u x - u (x - h)) / h) / h - w1 x =
      ((b (x + h / 2) * u1 (x + h / 2) - b (x - h / 2) * u1 (x - h / 2)) / h - w1 x) + (b (x + h / 2) * E (x + h / 2) - b (x - h / 2) * E (x - h / 2)) / h := by
    simp only [E]
    rw [show x + h / 2 + h / 2 = x + h by ring, show x + h / 2 - h / 2 = x by ring, show x - h / 2 + h / 2 = x by ring, show x - h / 2 - h / 2 = x - h by ring]
    field_simp
    ring
  rw [e]
  refine (abs_add_le _ _).trans ?_
  have : |(b (x + h / 2) * E (x + h / 2) - b (x - h / 2) * E (x - h / 2)) / h| ≤ (B' * M3 + B * M4) * h ^ 2 / 24 := by
    rw [abs_div, abs_of_pos hh, div_le_iff₀ hh]
    exact mv
  linarith

end Verif
