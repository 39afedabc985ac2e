import Verif.Spec.Accuracy
import Verif.Lemmas.Taylor
import Mathlib.Analysis.Calculus.ContDiff.Operations

/-
From `SmoothFlux` and `SmoothField` to the error of the difference quotients of one axis.
-/

namespace Verif.F

theorem hasDeriv_iter {f : ℝ → ℝ} {n k : ℕ} (hf : ContDiff ℝ n f) (hk : k < n) (y : ℝ) : HasDerivAt (iteratedDeriv k f) (iteratedDeriv (k + 1) f y) y := by
  rw [iteratedDeriv_succ]
  exact (hf.differentiable_iteratedDeriv k (by exact_mod_cast hk) y).hasDerivAt

theorem SmoothFlux.axis {φ b : ℝ → ℝ} {lo hi C x h : ℝ} (s : SmoothFlux φ b lo hi C) (hh : 0 < h) (h0 : lo ≤ x - h) (h1 : x + h ≤ hi) :
    |(b (x + h / 2) * (φ (x + h) - φ x) / h - b (x - h / 2) * (φ x - φ (x - h)) / h) / h - deriv (fun s => b s * deriv φ s) x| ≤ C * h ^ 2 / 24 := by
  obtain ⟨K, B, B', M3, M4, hC, hb⟩ := s.bound
  have f := s.field
  have dφ : ContDiff ℝ 3 (deriv φ) := ((contDiff_succ_iff_deriv (n := 3)).1 f).2.2
  have w : ContDiff ℝ 3 (fun s => b s * deriv φ s) := s.coef.mul dφ
  have d := fun k (hk : k < 4) => hasDeriv_iter (n := 4) f hk
  have c := fun k (hk : k < 3) => hasDeriv_iter (n := 3) s.coef hk
  have e := fun k (hk : k < 3) => hasDeriv_iter (n := 3) w hk
  have d0 := d 0 (by decide)
  have c0 := c 0 (by decide)
  have e0 := e 0 (by decide)
  have d1 := d 1 (by decide)
  have e1 := e 1 (by decide)
  simp only [iteratedDeriv_zero, zero_add, iteratedDeriv_one] at d0 c0 e0 d1 e1
  have := central_flux (x := x) (h := h) d0 d1 (d 2 (by decide)) (d 3 (by decide)) c0 e0 e1 (e 2 (by decide)) hh
    (fun y ha hb' => hb y (by linarith) (by linarith))
  refine this.trans ?_
  have := mul_le_mul_of_nonneg_right hC (sq_nonneg h)
  linarith

theorem SmoothField.axis {φ : ℝ → ℝ} {lo hi C x h : ℝ} (s : SmoothField φ lo hi C) (hh : 0 < h) (h0 : lo ≤ x - h) (h1 : x + h ≤ hi) :
    |(1 * (φ (x + h) - φ x) / h - 1 * (φ x - φ (x - h)) / h) / h - iteratedDeriv 2 φ x| ≤ C * h ^ 2 / 12 := by
  have f := s.field
  have d := fun k (hk : k < 4) => hasDeriv_iter (n := 4) f hk
  have d0 := d 0 (by decide)
  have d1 := d 1 (by decide)
  simp only [iteratedDeriv_zero, zero_add, iteratedDeriv_one] at d0 d1
  have c : ∃ M3, ∀ y, x - h ≤ y → y ≤ x + h → |iteratedDeriv 3 φ y| ≤ M3 := by
    obtain ⟨M, hM⟩ := isCompact_Icc.exists_bound_of_continuousOn (s := Set.Icc (x - h) (x + h)) (f.continuous_iteratedDeriv 3 (by norm_num)).continuousOn
    exact ⟨M, fun y a b => hM y ⟨a, b⟩⟩
  obtain ⟨M3, c⟩ := c
  have := central_flux (x := x) (h := h) (K := C) (B := 1) (B' := 0) (M3 := M3) (M4 := C) (b := fun _ => 1) (b1 := fun _ => 0) (w1 := iteratedDeriv 2 φ) (w2 := iteratedDeriv 3 φ) (w3 := iteratedDeriv 4 φ)
    d0 d1 (d 2 (by decide)) (d 3 (by decide)) (fun y => hasDerivAt_const y 1) (fun y => by simp only [one_mul]; exact d1 y) (d 2 (by decide)) (d 3 (by decide)) hh
    (fun y ha hb => by
      have := s.bound y (by linarith) (by linarith)
      exact ⟨this, by norm_num, by norm_num, c y ha hb, this⟩)
  refine this.trans (le_of_eq ?_)
  ring

end Verif.F
