import Verif.Spec.BoundaryExact
import Verif.Lemmas.BoundaryOne
import Verif.Lemmas.AccuracyOp
import Mathlib.Tactic.ComputeDegree

/-
Fields that meet boundary conditions of first order and difference equations, compared with a function that meets the conditions and the differential
equation.
-/

namespace Verif.F
open Polynomial

set_option linter.unusedVariables false

/-- values on both sides of the point in the middle -/
theorem mean_near {g : ℝ → ℝ} {x h M : ℝ} (hg : ContDiff ℝ 4 g) (hh : 0 < h) (hM : ∀ y, x - h / 2 ≤ y → y ≤ x + h / 2 → |iteratedDeriv 2 g y| ≤ M) :
    |g (x + h / 2) + g (x - h / 2) - 2 * g x| ≤ M * h ^ 2 / 4 := by
  have d1 : ∀ y, HasDerivAt g (iteratedDeriv 1 g y) y := fun y => by simpa using hasDeriv_iter (k := 0) hg (by norm_num) y
  have d2 : ∀ y, HasDerivAt (iteratedDeriv 1 g) (iteratedDeriv 2 g y) y := fun y => hasDeriv_iter (k := 1) hg (by norm_num) y
  have up : ∀ {f f' : ℝ → ℝ}, (∀ y, HasDerivAt f (f' y) y) → ∀ t, HasDerivAt (fun t => f (x + t)) (f' (x + t)) t := fun {f f'} d t => by
    exact ((d (x + t)).comp t ((hasDerivAt_id t).const_add x)).congr_deriv (mul_one _)
  have dn : ∀ {f f' : ℝ → ℝ}, (∀ y, HasDerivAt f (f' y) y) → ∀ t, HasDerivAt (fun t => f (x - t)) (-f' (x - t)) t := fun {f f'} d t => by
    exact ((d (x - t)).comp t ((hasDerivAt_id t).const_sub x)).congr_deriv (by ring)
  have e1 := grow (f := fun t => iteratedDeriv 1 g (x + t) - iteratedDeriv 1 g (x - t)) (f' := fun t => iteratedDeriv 2 g (x + t) + iteratedDeriv 2 g (x - t)) (c := 2 * M) (T := h / 2) (n := 0)
    (fun t => ((up d2 t).sub (dn d2 t)).congr_deriv (by ring)) (by simp) (fun t h0 h1 => by
      have a := hM (x + t) (by linarith) (by linarith)
      have b := hM (x - t) (by linarith) (by linarith)
      have := abs_add_le (iteratedDeriv 2 g (x + t)) (iteratedDeriv 2 g (x - t))
      simp only [pow_zero, mul_one]
      linarith)
  have e0 := grow (f := fun t => g (x + t) + g (x - t) - 2 * g x) (f' := fun t => iteratedDeriv 1 g (x + t) - iteratedDeriv 1 g (x - t)) (c := 2 * M) (T := h / 2) (n := 1)
    (fun t => (((up d1 t).add (dn d1 t)).sub_const (2 * g x)).congr_deriv (by ring)) (by simp; ring) (fun t h0 h1 => by simpa using e1 t h0 h1)
  have := e0 (h / 2) (by linarith) le_rfl
  norm_num at this
  refine this.trans (le_of_eq ?_)
  ring

/-- the difference of the values on both sides -/
theorem slope_near {g : ℝ → ℝ} {x h M : ℝ} (hg : ContDiff ℝ 4 g) (hh : 0 < h) (hM : ∀ y, x - h / 2 ≤ y → y ≤ x + h / 2 → |iteratedDeriv 3 g y| ≤ M) :
    |g (x + h / 2) - g (x - h / 2) - h * deriv g x| ≤ M * h ^ 3 / 24 := by
  have d1 : ∀ y, HasDerivAt g (iteratedDeriv 1 g y) y := fun y => by simpa using hasDeriv_iter (k := 0) hg (by norm_num) y
  have c := central d1 (fun y => hasDeriv_iter (k := 1) hg (by norm_num) y) (fun y => hasDeriv_iter (k := 2) hg (by norm_num) y) hh hM
  rw [iteratedDeriv_one] at c
  rw [show g (x + h / 2) - g (x - h / 2) - h * deriv g x = ((g (x + h / 2) - g (x - h / 2)) / h - deriv g x) * h by field_simp, abs_mul, abs_of_pos hh]
  calc _ ≤ M * h ^ 2 / 24 * h := mul_le_mul_of_nonneg_right c hh.le
    _ = _ := by ring

/-- what conditions of first order say of the values on both sides of a face -/
theorem first_values {btype order : Int} {b g h : ℝ} {y : ℝ[X]} (hf : First btype order) (hm : Meets btype order b g y) :
    (btype = 0 ∧ y.eval (1 / 2 * h) + y.eval (-(1 / 2) * h) = 2 * g) ∨ (btype = 1 ∧ y.eval (-(1 / 2) * h) = y.eval (1 / 2 * h)) ∨
    (btype = 4 ∧ 2 * b * (y.eval (-(1 / 2) * h) - y.eval (1 / 2 * h)) + h * ((y.eval (1 / 2 * h) + y.eval (-(1 / 2) * h)) / 2) = h * g) := by
  have lin : y.natDegree ≤ 1 → ∀ x, y.eval x = y.eval 0 + y.derivative.eval 0 * x := fun hd x => by
    rw [eq_X_add_C_of_natDegree_le_one hd]
    simp
    ring
  have quad : y.natDegree ≤ 2 → ∀ x, y.eval x = y.eval 0 + y.derivative.eval 0 * x + y.coeff 2 * x ^ 2 := fun hd x => by
    rw [← coeff_zero_eq_eval_zero, ← coeff_zero_eq_eval_zero, coeff_derivative, eval_eq_sum_range' (show y.natDegree < 3 by omega) x]
    simp [Finset.sum_range_succ]
  rcases hm with ⟨rfl, _, hd, h0⟩ | ⟨rfl, h2, hd, h0⟩ | ⟨rfl, hd, h0⟩ | ⟨rfl, _, hd, h0⟩ | ⟨rfl, h2, hd, h0⟩
  · left
    refine ⟨rfl, ?_⟩
    rw [lin hd (1 / 2 * h), lin hd (-(1 / 2) * h), h0]
    ring
  · rcases hf with ⟨_, h⟩ | h | ⟨h, _⟩ <;> omega
  · right; left
    refine ⟨rfl, ?_⟩
    rw [quad hd (1 / 2 * h), quad hd (-(1 / 2) * h), h0]
    ring
  · right; right
    refine ⟨rfl, ?_⟩
    rw [lin hd (1 / 2 * h), lin hd (-(1 / 2) * h), ← h0]
    ring
  · rcases hf with ⟨_, h⟩ | h | ⟨h, _⟩ <;> omega

/-- one face: a barrier that is large enough there does not have its least distance from the error in the cell inside -/
theorem face_over {btype : Int} {b g h xc xg wc wg pc pg M2 M3 : ℝ} {f : ℝ → ℝ} (hh : 0 < h) (hb : 0 ≤ b)
    (hx : (btype = 0 ∧ xc + xg = 2 * g) ∨ (btype = 1 ∧ xg = xc) ∨ (btype = 4 ∧ 2 * b * (xg - xc) + h * ((xc + xg) / 2) = h * g))
    (hc : Condition btype b g f) (hm : |pc + pg - 2 * f 0| ≤ M2 * h ^ 2 / 4) (hs : |pc - pg - h * deriv f 0| ≤ M3 * h ^ 3 / 24)
    (h0 : M2 * h ^ 2 / 4 ≤ wc + wg) (h1 : btype ≠ 0 → M3 * h ^ 3 / 24 ≤ wg - wc) :
    (wc - (xc - pc) < 0 → wc - (xc - pc) ≤ wg - (xg - pg)) ∧ (wc + (xc - pc) < 0 → wc + (xc - pc) ≤ wg + (xg - pg)) := by
  rw [abs_le] at hm hs
  rcases hx with ⟨rfl, hx⟩ | ⟨rfl, hx⟩ | ⟨rfl, hx⟩
  · have hv : f 0 = g := by simpa [Condition] using hc
    constructor <;> intro _ <;> linarith [hm.1, hm.2]
  · have hv : deriv f 0 = 0 := by simpa [Condition] using hc
    rw [hv, mul_zero, sub_zero] at hs
    have := h1 (by decide)
    constructor <;> intro _ <;> linarith [hs.1, hs.2]
  · have hv : 2 * b * -deriv f 0 + f 0 = g := by simpa [Condition] using hc
    have h1 := h1 (by decide)
    rw [← hv] at hx
    have b1 : 2 * b * (pc - pg - h * deriv f 0) ≤ 2 * b * (wg - wc) := mul_le_mul_of_nonneg_left (hs.2.trans h1) (by linarith)
    have b2 : 2 * b * -(pc - pg - h * deriv f 0) ≤ 2 * b * (wg - wc) := mul_le_mul_of_nonneg_left (by linarith [hs.1]) (by linarith)
    have b3 : h * (pc + pg - 2 * f 0) ≤ h * (wc + wg) := mul_le_mul_of_nonneg_left (hm.2.trans h0) hh.le
    have b4 : h * -(pc + pg - 2 * f 0) ≤ h * (wc + wg) := mul_le_mul_of_nonneg_left (by linarith [hm.1]) hh.le
    constructor <;> intro hn <;> by_contra hcon <;> rw [not_le] at hcon
    · have c1 : 2 * b * ((wg - (xg - pg)) - (wc - (xc - pc))) ≤ 0 := mul_nonpos_of_nonneg_of_nonpos (by linarith) (by linarith)
      have c2 : h * ((wg - (xg - pg)) + (wc - (xc - pc))) < 0 := mul_neg_of_pos_of_neg hh (by linarith)
      linarith
    · have c1 : 2 * b * ((wg + (xg - pg)) - (wc + (xc - pc))) ≤ 0 := mul_nonpos_of_nonneg_of_nonpos (by linarith) (by linarith)
      have c2 : h * ((wg + (xg - pg)) + (wc + (xc - pc))) < 0 := mul_neg_of_pos_of_neg hh (by linarith)
      linarith

/-- a barrier that is large enough at all faces of the boundary, where `P` are the samples of the function -/
theorem boundary_up {box : List (Int × Int)} {n : Int} {O : Int → List Int} {dx : Nat → ℝ} {ps : List (Piece ℝ)} {D X P W : List Int → ℝ} {N : Int → List Int → ℝ → ℝ} {M2 M3 : Int → ℝ} {d : ℝ}
    (hp : Pieces box n O ps) (hX : Fulfils box n O ps D X) (hN : Exact dx O ps D N)
    (hT : ∀ p, InBounds box p → ∀ e, 1 ≤ e → e ≤ n - 1 → ¬ InBounds box (shift p (O e)) →
      |P p + P (shift p (O e)) - 2 * N e p 0| ≤ M2 e * across dx e ^ 2 / 4 ∧ |P p - P (shift p (O e)) - across dx e * deriv (N e p) 0| ≤ M3 e * across dx e ^ 3 / 24)
    (hd : ∀ p, InBounds box p → ∀ e, 1 ≤ e → e ≤ n - 1 → ¬ InBounds box (shift p (O e)) → (∀ k ∈ ps, k.cells p → k.ghost ≠ e) → |D (shift p (O e)) - P (shift p (O e))| ≤ d)
    (w0 : ∀ p, InBounds box p → ∀ e, 1 ≤ e → e ≤ n - 1 → ¬ InBounds box (shift p (O e)) → M2 e * across dx e ^ 2 / 4 ≤ W p + W (shift p (O e)))
    (w1 : ∀ p, InBounds box p → ∀ e, 1 ≤ e → e ≤ n - 1 → ¬ InBounds box (shift p (O e)) → (∃ k ∈ ps, k.cells p ∧ k.ghost = e ∧ k.btype ≠ 0) →
      M3 e * across dx e ^ 3 / 24 ≤ W (shift p (O e)) - W p)
    (w2 : ∀ p, InBounds box p → ∀ e, 1 ≤ e → e ≤ n - 1 → ¬ InBounds box (shift p (O e)) → d ≤ W (shift p (O e))) :
    ∀ p, InBounds box p → ∀ e, 1 ≤ e → e ≤ n - 1 → ¬ InBounds box (shift p (O e)) →
      (W p - (X p - P p) < 0 → W p - (X p - P p) ≤ W (shift p (O e)) - (X (shift p (O e)) - P (shift p (O e)))) ∧
      (W p + (X p - P p) < 0 → W p + (X p - P p) ≤ W (shift p (O e)) + (X (shift p (O e)) - P (shift p (O e)))) := by
  intro p hpb e e1 e2 ho
  by_cases hk : ∀ k ∈ ps, k.cells p → k.ghost ≠ e
  · have x := hX.free p hpb e e1 e2 ho hk
    have y := abs_le.1 (hd p hpb e e1 e2 ho hk)
    have z := w2 p hpb e e1 e2 ho
    rw [x]
    constructor <;> intro hn <;> linarith [y.1, y.2]
  · push Not at hk
    obtain ⟨k, km, kc, rfl⟩ := hk
    obtain ⟨y, hy, xc, xg⟩ := hX.given k km p kc
    obtain ⟨hw, hc⟩ := hN k km
    have t := hT p hpb k.ghost e1 e2 ho
    rw [hw] at xc xg
    exact face_over (hw ▸ hp.width k km) (hp.coef k km p kc) (by rw [xc, xg]; exact first_values (hp.first k km) hy) (hc p kc) t.1 t.2 (w0 p hpb _ e1 e2 ho)
      (fun hb => w1 p hpb _ e1 e2 ho ⟨k, km, kc, rfl, hb⟩)

/-- the least value in a box -/
theorem exists_least {box : List (Int × Int)} (v : List Int → ℝ) {c : List Int} (hc : InBounds box c) : ∃ p, InBounds box p ∧ ∀ q, InBounds box q → v p ≤ v q := by
  have fin := finite_inBounds box
  obtain ⟨p, hp, h⟩ := fin.exists_minimalFor v _ ⟨c, hc⟩
  exact ⟨p, hp, fun q hq => (le_total (v p) (v q)).elim id fun hle => h hq hle⟩

end Verif.F
