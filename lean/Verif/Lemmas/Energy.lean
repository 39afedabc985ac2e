import Verif.Spec.Energy
import Verif.Lemmas.Sums
import Verif.Lemmas.SmoothRun
import Mathlib.Algebra.Order.Field.Basic
import Mathlib.Tactic.Linarith
import Mathlib.Tactic.Positivity

/-
Summation by parts for the diffusion operator.
-/

set_option linter.unusedVariables false
set_option linter.unusedSectionVars false

namespace Verif.F

section
variable {T : Type} [Field T]

theorem sum_neg {lo hi : Int} {f : Int → T} : sum lo hi (fun i => -f i) = -sum lo hi f := by
  rw [sum_congr (g := fun i => f i * (-1)) fun i _ _ => by ring, sum_mul]; ring

theorem mul_sum {lo hi : Int} {f : Int → T} {c : T} : c * sum lo hi f = sum lo hi fun i => c * f i := by
  rw [mul_comm, ← sum_mul]
  exact sum_congr fun i _ _ => mul_comm _ _

theorem sum_sub {lo hi : Int} {f g : Int → T} : sum lo hi (fun i => f i - g i) = sum lo hi f - sum lo hi g := by
  rw [sum_congr (g := fun i => f i + -g i) fun i _ _ => by ring, sum_add, sum_neg]; ring

theorem sum_zero {lo hi : Int} : sum lo hi (fun _ => (0 : T)) = 0 := by
  have := sum_mul (lo := lo) (hi := hi) (f := fun _ => (0 : T)) (c := 0)
  simpa using this

theorem sum_first {lo hi : Int} {f : Int → T} (h : lo ≤ hi + 1) : sum lo (hi + 1) f = f lo + sum lo hi (fun i => f (i + 1)) := by
  unfold sum irange
  obtain ⟨n, hn⟩ : ∃ n : Nat, (hi - lo + 1).toNat = n := ⟨_, rfl⟩
  rw [hn, show (hi + 1 - lo + 1).toNat = n + 1 by omega, List.range_succ_eq_map]
  simp only [List.map_cons, List.sum_cons, List.map_map]
  congr 1
  · simp
  · refine congrArg List.sum (List.map_congr_left fun k _ => ?_)
    simp only [Function.comp_def, Nat.cast_succ]
    congr 1
    ring

/-- summation by parts; `w` vanishes next to the range -/
theorem sum_parts {lo hi : Int} {w G : Int → T} (h : lo ≤ hi) (h0 : w (lo - 1) = 0) (h1 : w (hi + 1) = 0) :
    sum lo hi (fun i => w i * (G (i + 1) - G i)) = -sum lo (hi + 1) (fun i => G i * (w i - w (i - 1))) := by
  have e1 : sum lo hi (fun i => w i * (G (i + 1) - G i)) =
      sum lo hi (fun i => w (i + 1) * G (i + 1) - w i * G i) - sum lo hi (fun i => G (i + 1) * (w (i + 1) - w i)) := by
    rw [← sum_sub]
    exact sum_congr fun i _ _ => by ring
  rw [e1, sum_tele (f := fun i => w i * G i) h, sum_first (by omega), h0, h1,
    sum_congr (f := fun i => G (i + 1) * (w (i + 1) - w (i + 1 - 1))) (g := fun i => G (i + 1) * (w (i + 1) - w i)) fun i _ _ => by rw [add_sub_cancel_right]]
  ring

/-- the operator, 1D -/
def op1 (alpha beta : T) (dx : Nat → T) (A B0 U : List Int → T) (i : Int) : T :=
  -(beta * ((B0 [i + 1] * (U [i + 1] - U [i]) / dx 0 - B0 [i] * (U [i] - U [i - 1]) / dx 0) / dx 0)) + alpha * A [i] * U [i]

/-- the operator, 2D -/
def op2 (alpha beta : T) (dx : Nat → T) (A B0 B1 U : List Int → T) (i j : Int) : T :=
  -(beta * ((B0 [i + 1, j] * (U [i + 1, j] - U [i, j]) / dx 0 - B0 [i, j] * (U [i, j] - U [i - 1, j]) / dx 0) / dx 0 + (B1 [j + 1, i] * (U [i, j + 1] - U [i, j]) / dx 1 - B1 [j, i] * (U [i, j] - U [i, j - 1]) / dx 1) / dx 1)) + alpha * A [i, j] * U [i, j]

/-- the operator, 3D -/
def op3 (alpha beta : T) (dx : Nat → T) (A B0 B1 B2 U : List Int → T) (i j k : Int) : T :=
  -(beta * ((B0 [i + 1, j, k] * (U [i + 1, j, k] - U [i, j, k]) / dx 0 - B0 [i, j, k] * (U [i, j, k] - U [i - 1, j, k]) / dx 0) / dx 0 + (B1 [j + 1, k, i] * (U [i, j + 1, k] - U [i, j, k]) / dx 1 - B1 [j, k, i] * (U [i, j, k] - U [i, j - 1, k]) / dx 1) / dx 1 + (B2 [k + 1, i, j] * (U [i, j, k + 1] - U [i, j, k]) / dx 2 - B2 [k, i, j] * (U [i, j, k] - U [i, j, k - 1]) / dx 2) / dx 2)) + alpha * A [i, j, k] * U [i, j, k]

theorem weak1 {i0 i1 : Int} {alpha beta : T} {dx : Nat → T} {A B0 U V : List Int → T} (hi : i0 ≤ i1) (hV : ∀ p, ¬ InBounds [(i0, i1)] p → V p = 0) :
    (sum i0 i1 fun i => V [i] * op1 alpha beta dx A B0 U i) = form1 i0 i1 alpha beta dx A B0 U V := by
  have e : (sum i0 i1 fun i => V [i] * op1 alpha beta dx A B0 U i) =
      (sum i0 i1 fun i => V [i] * (B0 [i + 1] * (U [i + 1] - U [i]) / dx 0 - B0 [i] * (U [i] - U [i - 1]) / dx 0)) * (-(beta / dx 0)) +
      (sum i0 i1 fun i => A [i] * U [i] * V [i]) * alpha := by
    rw [sum_congr (g := fun i => V [i] * (B0 [i + 1] * (U [i + 1] - U [i]) / dx 0 - B0 [i] * (U [i] - U [i - 1]) / dx 0) * (-(beta / dx 0)) + A [i] * U [i] * V [i] * alpha) fun i _ _ => by unfold op1; simp only [div_eq_mul_inv]; ring]
    simp only [sum_add, sum_mul]
  rw [e]
  have p0 : (sum i0 i1 fun i => V [i] * (B0 [i + 1] * (U [i + 1] - U [i]) / dx 0 - B0 [i] * (U [i] - U [i - 1]) / dx 0)) = -(sum i0 (i1 + 1) fun i => B0 [i] * (U [i] - U [i - 1]) / dx 0 * (V [i] - V [i - 1])) := by
    have t := sum_parts (w := fun i => V [i]) (G := fun i => B0 [i] * (U [i] - U [i - 1]) / dx 0) hi (hV _ (by simp [InBounds])) (hV _ (by simp [InBounds]))
    simp only [add_sub_cancel_right] at t
    exact t
  have q0 : (sum i0 (i1 + 1) fun i => B0 [i] * ((U [i] - U [i - 1]) * (V [i] - V [i - 1])) / (dx 0 * dx 0)) = (sum i0 (i1 + 1) fun i => B0 [i] * (U [i] - U [i - 1]) / dx 0 * (V [i] - V [i - 1])) * (dx 0)⁻¹ := by
    simp only [← sum_mul]
    exact sum_congr fun i _ _ => by simp only [div_eq_mul_inv]; ring
  unfold form1
  rw [p0, q0]
  simp only [div_eq_mul_inv]
  ring

theorem weak2 {i0 j0 i1 j1 : Int} {alpha beta : T} {dx : Nat → T} {A B0 B1 U V : List Int → T} (hi : i0 ≤ i1) (hj : j0 ≤ j1) (hV : ∀ p, ¬ InBounds [(i0, i1), (j0, j1)] p → V p = 0) :
    (sum i0 i1 fun i => sum j0 j1 fun j => V [i, j] * op2 alpha beta dx A B0 B1 U i j) = form2 i0 j0 i1 j1 alpha beta dx A B0 B1 U V := by
  have e : (sum i0 i1 fun i => sum j0 j1 fun j => V [i, j] * op2 alpha beta dx A B0 B1 U i j) =
      (sum i0 i1 fun i => sum j0 j1 fun j => V [i, j] * (B0 [i + 1, j] * (U [i + 1, j] - U [i, j]) / dx 0 - B0 [i, j] * (U [i, j] - U [i - 1, j]) / dx 0)) * (-(beta / dx 0)) +
      (sum i0 i1 fun i => sum j0 j1 fun j => V [i, j] * (B1 [j + 1, i] * (U [i, j + 1] - U [i, j]) / dx 1 - B1 [j, i] * (U [i, j] - U [i, j - 1]) / dx 1)) * (-(beta / dx 1)) +
      (sum i0 i1 fun i => sum j0 j1 fun j => A [i, j] * U [i, j] * V [i, j]) * alpha := by
    rw [sum_congr fun i _ _ => sum_congr (g := fun j => V [i, j] * (B0 [i + 1, j] * (U [i + 1, j] - U [i, j]) / dx 0 - B0 [i, j] * (U [i, j] - U [i - 1, j]) / dx 0) * (-(beta / dx 0)) + V [i, j] * (B1 [j + 1, i] * (U [i, j + 1] - U [i, j]) / dx 1 - B1 [j, i] * (U [i, j] - U [i, j - 1]) / dx 1) * (-(beta / dx 1)) + A [i, j] * U [i, j] * V [i, j] * alpha) fun j _ _ => by unfold op2; simp only [div_eq_mul_inv]; ring]
    simp only [sum_add, sum_mul]
  rw [e]
  have p0 : (sum i0 i1 fun i => sum j0 j1 fun j => V [i, j] * (B0 [i + 1, j] * (U [i + 1, j] - U [i, j]) / dx 0 - B0 [i, j] * (U [i, j] - U [i - 1, j]) / dx 0)) = -(sum i0 (i1 + 1) fun i => sum j0 j1 fun j => B0 [i, j] * (U [i, j] - U [i - 1, j]) / dx 0 * (V [i, j] - V [i - 1, j])) := by
    have t : ∀ j, _ := fun j => sum_parts (w := fun i => V [i, j]) (G := fun i => B0 [i, j] * (U [i, j] - U [i - 1, j]) / dx 0) hi (hV _ (by simp [InBounds])) (hV _ (by simp [InBounds]))
    simp only [add_sub_cancel_right] at t
    rw [sum_comm, sum_congr fun j _ _ => t j, sum_neg, sum_comm]
  have p1 : (sum i0 i1 fun i => sum j0 j1 fun j => V [i, j] * (B1 [j + 1, i] * (U [i, j + 1] - U [i, j]) / dx 1 - B1 [j, i] * (U [i, j] - U [i, j - 1]) / dx 1)) = -(sum i0 i1 fun i => sum j0 (j1 + 1) fun j => B1 [j, i] * (U [i, j] - U [i, j - 1]) / dx 1 * (V [i, j] - V [i, j - 1])) := by
    have t : ∀ i, _ := fun i => sum_parts (w := fun j => V [i, j]) (G := fun j => B1 [j, i] * (U [i, j] - U [i, j - 1]) / dx 1) hj (hV _ (by simp [InBounds])) (hV _ (by simp [InBounds]))
    simp only [add_sub_cancel_right] at t
    rw [sum_congr fun i _ _ => t i, sum_neg]
  have q0 : (sum i0 (i1 + 1) fun i => sum j0 j1 fun j => B0 [i, j] * ((U [i, j] - U [i - 1, j]) * (V [i, j] - V [i - 1, j])) / (dx 0 * dx 0)) = (sum i0 (i1 + 1) fun i => sum j0 j1 fun j => B0 [i, j] * (U [i, j] - U [i - 1, j]) / dx 0 * (V [i, j] - V [i - 1, j])) * (dx 0)⁻¹ := by
    simp only [← sum_mul]
    exact sum_congr fun i _ _ => sum_congr fun j _ _ => by simp only [div_eq_mul_inv]; ring
  have q1 : (sum i0 i1 fun i => sum j0 (j1 + 1) fun j => B1 [j, i] * ((U [i, j] - U [i, j - 1]) * (V [i, j] - V [i, j - 1])) / (dx 1 * dx 1)) = (sum i0 i1 fun i => sum j0 (j1 + 1) fun j => B1 [j, i] * (U [i, j] - U [i, j - 1]) / dx 1 * (V [i, j] - V [i, j - 1])) * (dx 1)⁻¹ := by
    simp only [← sum_mul]
    exact sum_congr fun i _ _ => sum_congr fun j _ _ => by simp only [div_eq_mul_inv]; ring
  unfold form2
  rw [p0, q0, p1, q1]
  simp only [div_eq_mul_inv]
  ring

theorem weak3 {i0 j0 k0 i1 j1 k1 : Int} {alpha beta : T} {dx : Nat → T} {A B0 B1 B2 U V : List Int → T} (hi : i0 ≤ i1) (hj : j0 ≤ j1) (hk : k0 ≤ k1) (hV : ∀ p, ¬ InBounds [(i0, i1), (j0, j1), (k0, k1)] p → V p = 0) :
    (sum i0 i1 fun i => sum j0 j1 fun j => sum k0 k1 fun k => V [i, j, k] * op3 alpha beta dx A B0 B1 B2 U i j k) = form3 i0 j0 k0 i1 j1 k1 alpha beta dx A B0 B1 B2 U V := by
  have e : (sum i0 i1 fun i => sum j0 j1 fun j => sum k0 k1 fun k => V [i, j, k] * op3 alpha beta dx A B0 B1 B2 U i j k) =
      (sum i0 i1 fun i => sum j0 j1 fun j => sum k0 k1 fun k => V [i, j, k] * (B0 [i + 1, j, k] * (U [i + 1, j, k] - U [i, j, k]) / dx 0 - B0 [i, j, k] * (U [i, j, k] - U [i - 1, j, k]) / dx 0)) * (-(beta / dx 0)) +
      (sum i0 i1 fun i => sum j0 j1 fun j => sum k0 k1 fun k => V [i, j, k] * (B1 [j + 1, k, i] * (U [i, j + 1, k] - U [i, j, k]) / dx 1 - B1 [j, k, i] * (U [i, j, k] - U [i, j - 1, k]) / dx 1)) * (-(beta / dx 1)) +
      (sum i0 i1 fun i => sum j0 j1 fun j => sum k0 k1 fun k => V [i, j, k] * (B2 [k + 1, i, j] * (U [i, j, k + 1] - U [i, j, k]) / dx 2 - B2 [k, i, j] * (U [i, j, k] - U [i, j, k - 1]) / dx 2)) * (-(beta / dx 2)) +
      (sum i0 i1 fun i => sum j0 j1 fun j => sum k0 k1 fun k => A [i, j, k] * U [i, j, k] * V [i, j, k]) * alpha := by
    rw [sum_congr fun i _ _ => sum_congr fun j _ _ => sum_congr (g := fun k => V [i, j, k] * (B0 [i + 1, j, k] * (U [i + 1, j, k] - U [i, j, k]) / dx 0 - B0 [i, j, k] * (U [i, j, k] - U [i - 1, j, k]) / dx 0) * (-(beta / dx 0)) + V [i, j, k] * (B1 [j + 1, k, i] * (U [i, j + 1, k] - U [i, j, k]) / dx 1 - B1 [j, k, i] * (U [i, j, k] - U [i, j - 1, k]) / dx 1) * (-(beta / dx 1)) + V [i, j, k] * (B2 [k + 1, i, j] * (U [i, j, k + 1] - U [i, j, k]) / dx 2 - B2 [k, i, j] * (U [i, j, k] - U [i, j, k - 1]) / dx 2) * (-(beta / dx 2)) + A [i, j, k] * U [i, j, k] * V [i, j, k] * alpha) fun k _ _ => by unfold op3; simp only [div_eq_mul_inv]; ring]
    simp only [sum_add, sum_mul]
  rw [e]
  have p0 : (sum i0 i1 fun i => sum j0 j1 fun j => sum k0 k1 fun k => V [i, j, k] * (B0 [i + 1, j, k] * (U [i + 1, j, k] - U [i, j, k]) / dx 0 - B0 [i, j, k] * (U [i, j, k] - U [i - 1, j, k]) / dx 0)) = -(sum i0 (i1 + 1) fun i => sum j0 j1 fun j => sum k0 k1 fun k => B0 [i, j, k] * (U [i, j, k] - U [i - 1, j, k]) / dx 0 * (V [i, j, k] - V [i - 1, j, k])) := by
    have t : ∀ j k, _ := fun j k => sum_parts (w := fun i => V [i, j, k]) (G := fun i => B0 [i, j, k] * (U [i, j, k] - U [i - 1, j, k]) / dx 0) hi (hV _ (by simp [InBounds])) (hV _ (by simp [InBounds]))
    simp only [add_sub_cancel_right] at t
    rw [sum_comm, sum_congr fun j _ _ => sum_comm, sum_congr fun j _ _ => sum_congr fun k _ _ => t j k]
    simp only [sum_neg]
    rw [sum_congr (lo := j0) fun j _ _ => sum_comm, sum_comm]
  have p1 : (sum i0 i1 fun i => sum j0 j1 fun j => sum k0 k1 fun k => V [i, j, k] * (B1 [j + 1, k, i] * (U [i, j + 1, k] - U [i, j, k]) / dx 1 - B1 [j, k, i] * (U [i, j, k] - U [i, j - 1, k]) / dx 1)) = -(sum i0 i1 fun i => sum j0 (j1 + 1) fun j => sum k0 k1 fun k => B1 [j, k, i] * (U [i, j, k] - U [i, j - 1, k]) / dx 1 * (V [i, j, k] - V [i, j - 1, k])) := by
    have t : ∀ i k, _ := fun i k => sum_parts (w := fun j => V [i, j, k]) (G := fun j => B1 [j, k, i] * (U [i, j, k] - U [i, j - 1, k]) / dx 1) hj (hV _ (by simp [InBounds])) (hV _ (by simp [InBounds]))
    simp only [add_sub_cancel_right] at t
    rw [sum_congr fun i _ _ => sum_comm, sum_congr fun i _ _ => sum_congr fun k _ _ => t i k]
    simp only [sum_neg]
    rw [sum_congr (lo := i0) fun i _ _ => sum_comm]
  have p2 : (sum i0 i1 fun i => sum j0 j1 fun j => sum k0 k1 fun k => V [i, j, k] * (B2 [k + 1, i, j] * (U [i, j, k + 1] - U [i, j, k]) / dx 2 - B2 [k, i, j] * (U [i, j, k] - U [i, j, k - 1]) / dx 2)) = -(sum i0 i1 fun i => sum j0 j1 fun j => sum k0 (k1 + 1) fun k => B2 [k, i, j] * (U [i, j, k] - U [i, j, k - 1]) / dx 2 * (V [i, j, k] - V [i, j, k - 1])) := by
    have t : ∀ i j, _ := fun i j => sum_parts (w := fun k => V [i, j, k]) (G := fun k => B2 [k, i, j] * (U [i, j, k] - U [i, j, k - 1]) / dx 2) hk (hV _ (by simp [InBounds])) (hV _ (by simp [InBounds]))
    simp only [add_sub_cancel_right] at t
    rw [sum_congr fun i _ _ => sum_congr fun j _ _ => t i j]
    simp only [sum_neg]
  have q0 : (sum i0 (i1 + 1) fun i => sum j0 j1 fun j => sum k0 k1 fun k => B0 [i, j, k] * ((U [i, j, k] - U [i - 1, j, k]) * (V [i, j, k] - V [i - 1, j, k])) / (dx 0 * dx 0)) = (sum i0 (i1 + 1) fun i => sum j0 j1 fun j => sum k0 k1 fun k => B0 [i, j, k] * (U [i, j, k] - U [i - 1, j, k]) / dx 0 * (V [i, j, k] - V [i - 1, j, k])) * (dx 0)⁻¹ := by
    simp only [← sum_mul]
    exact sum_congr fun i _ _ => sum_congr fun j _ _ => sum_congr fun k _ _ => by simp only [div_eq_mul_inv]; ring
  have q1 : (sum i0 i1 fun i => sum j0 (j1 + 1) fun j => sum k0 k1 fun k => B1 [j, k, i] * ((U [i, j, k] - U [i, j - 1, k]) * (V [i, j, k] - V [i, j - 1, k])) / (dx 1 * dx 1)) = (sum i0 i1 fun i => sum j0 (j1 + 1) fun j => sum k0 k1 fun k => B1 [j, k, i] * (U [i, j, k] - U [i, j - 1, k]) / dx 1 * (V [i, j, k] - V [i, j - 1, k])) * (dx 1)⁻¹ := by
    simp only [← sum_mul]
    exact sum_congr fun i _ _ => sum_congr fun j _ _ => sum_congr fun k _ _ => by simp only [div_eq_mul_inv]; ring
  have q2 : (sum i0 i1 fun i => sum j0 j1 fun j => sum k0 (k1 + 1) fun k => B2 [k, i, j] * ((U [i, j, k] - U [i, j, k - 1]) * (V [i, j, k] - V [i, j, k - 1])) / (dx 2 * dx 2)) = (sum i0 i1 fun i => sum j0 j1 fun j => sum k0 (k1 + 1) fun k => B2 [k, i, j] * (U [i, j, k] - U [i, j, k - 1]) / dx 2 * (V [i, j, k] - V [i, j, k - 1])) * (dx 2)⁻¹ := by
    simp only [← sum_mul]
    exact sum_congr fun i _ _ => sum_congr fun j _ _ => sum_congr fun k _ _ => by simp only [div_eq_mul_inv]; ring
  unfold form3
  rw [p0, q0, p1, q1, p2, q2]
  simp only [div_eq_mul_inv]
  ring

theorem form1_symm {i0 i1 : Int} {alpha beta : T} {dx : Nat → T} {A B0 U V : List Int → T} : form1 i0 i1 alpha beta dx A B0 U V = form1 i0 i1 alpha beta dx A B0 V U := by
  unfold form1
  have e0 : (sum i0 (i1 + 1) fun i => B0 [i] * ((U [i] - U [i - 1]) * (V [i] - V [i - 1])) / (dx 0 * dx 0)) = (sum i0 (i1 + 1) fun i => B0 [i] * ((V [i] - V [i - 1]) * (U [i] - U [i - 1])) / (dx 0 * dx 0)) := sum_congr fun i _ _ => by ring
  have ea : (sum i0 i1 fun i => A [i] * U [i] * V [i]) = (sum i0 i1 fun i => A [i] * V [i] * U [i]) := sum_congr fun i _ _ => by ring
  rw [e0, ea]

theorem form1_sub {i0 i1 : Int} {alpha beta : T} {dx : Nat → T} {A B0 U W V : List Int → T} :
    form1 i0 i1 alpha beta dx A B0 (fun p => U p - W p) V = form1 i0 i1 alpha beta dx A B0 U V - form1 i0 i1 alpha beta dx A B0 W V := by
  unfold form1
  have e0 : (sum i0 (i1 + 1) fun i => B0 [i] * ((U [i] - W [i] - (U [i - 1] - W [i - 1])) * (V [i] - V [i - 1])) / (dx 0 * dx 0)) = (sum i0 (i1 + 1) fun i => B0 [i] * ((U [i] - U [i - 1]) * (V [i] - V [i - 1])) / (dx 0 * dx 0)) - (sum i0 (i1 + 1) fun i => B0 [i] * ((W [i] - W [i - 1]) * (V [i] - V [i - 1])) / (dx 0 * dx 0)) := by
    simp only [← sum_sub]
    exact sum_congr fun i _ _ => by ring
  have ea : (sum i0 i1 fun i => A [i] * (U [i] - W [i]) * V [i]) = (sum i0 i1 fun i => A [i] * U [i] * V [i]) - (sum i0 i1 fun i => A [i] * W [i] * V [i]) := by
    simp only [← sum_sub]
    exact sum_congr fun i _ _ => by ring
  rw [e0, ea]
  ring

theorem form2_symm {i0 j0 i1 j1 : Int} {alpha beta : T} {dx : Nat → T} {A B0 B1 U V : List Int → T} : form2 i0 j0 i1 j1 alpha beta dx A B0 B1 U V = form2 i0 j0 i1 j1 alpha beta dx A B0 B1 V U := by
  unfold form2
  have e0 : (sum i0 (i1 + 1) fun i => sum j0 j1 fun j => B0 [i, j] * ((U [i, j] - U [i - 1, j]) * (V [i, j] - V [i - 1, j])) / (dx 0 * dx 0)) = (sum i0 (i1 + 1) fun i => sum j0 j1 fun j => B0 [i, j] * ((V [i, j] - V [i - 1, j]) * (U [i, j] - U [i - 1, j])) / (dx 0 * dx 0)) := sum_congr fun i _ _ => sum_congr fun j _ _ => by ring
  have e1 : (sum i0 i1 fun i => sum j0 (j1 + 1) fun j => B1 [j, i] * ((U [i, j] - U [i, j - 1]) * (V [i, j] - V [i, j - 1])) / (dx 1 * dx 1)) = (sum i0 i1 fun i => sum j0 (j1 + 1) fun j => B1 [j, i] * ((V [i, j] - V [i, j - 1]) * (U [i, j] - U [i, j - 1])) / (dx 1 * dx 1)) := sum_congr fun i _ _ => sum_congr fun j _ _ => by ring
  have ea : (sum i0 i1 fun i => sum j0 j1 fun j => A [i, j] * U [i, j] * V [i, j]) = (sum i0 i1 fun i => sum j0 j1 fun j => A [i, j] * V [i, j] * U [i, j]) := sum_congr fun i _ _ => sum_congr fun j _ _ => by ring
  rw [e0, e1, ea]

theorem form2_sub {i0 j0 i1 j1 : Int} {alpha beta : T} {dx : Nat → T} {A B0 B1 U W V : List Int → T} :
    form2 i0 j0 i1 j1 alpha beta dx A B0 B1 (fun p => U p - W p) V = form2 i0 j0 i1 j1 alpha beta dx A B0 B1 U V - form2 i0 j0 i1 j1 alpha beta dx A B0 B1 W V := by
  unfold form2
  have e0 : (sum i0 (i1 + 1) fun i => sum j0 j1 fun j => B0 [i, j] * ((U [i, j] - W [i, j] - (U [i - 1, j] - W [i - 1, j])) * (V [i, j] - V [i - 1, j])) / (dx 0 * dx 0)) = (sum i0 (i1 + 1) fun i => sum j0 j1 fun j => B0 [i, j] * ((U [i, j] - U [i - 1, j]) * (V [i, j] - V [i - 1, j])) / (dx 0 * dx 0)) - (sum i0 (i1 + 1) fun i => sum j0 j1 fun j => B0 [i, j] * ((W [i, j] - W [i - 1, j]) * (V [i, j] - V [i - 1, j])) / (dx 0 * dx 0)) := by
    simp only [← sum_sub]
    exact sum_congr fun i _ _ => sum_congr fun j _ _ => by ring
  have e1 : (sum i0 i1 fun i => sum j0 (j1 + 1) fun j => B1 [j, i] * ((U [i, j] - W [i, j] - (U [i, j - 1] - W [i, j - 1])) * (V [i, j] - V [i, j - 1])) / (dx 1 * dx 1)) = (sum i0 i1 fun i => sum j0 (j1 + 1) fun j => B1 [j, i] * ((U [i, j] - U [i, j - 1]) * (V [i, j] - V [i, j - 1])) / (dx 1 * dx 1)) - (sum i0 i1 fun i => sum j0 (j1 + 1) fun j => B1 [j, i] * ((W [i, j] - W [i, j - 1]) * (V [i, j] - V [i, j - 1])) / (dx 1 * dx 1)) := by
    simp only [← sum_sub]
    exact sum_congr fun i _ _ => sum_congr fun j _ _ => by ring
  have ea : (sum i0 i1 fun i => sum j0 j1 fun j => A [i, j] * (U [i, j] - W [i, j]) * V [i, j]) = (sum i0 i1 fun i => sum j0 j1 fun j => A [i, j] * U [i, j] * V [i, j]) - (sum i0 i1 fun i => sum j0 j1 fun j => A [i, j] * W [i, j] * V [i, j]) := by
    simp only [← sum_sub]
    exact sum_congr fun i _ _ => sum_congr fun j _ _ => by ring
  rw [e0, e1, ea]
  ring

theorem form3_symm {i0 j0 k0 i1 j1 k1 : Int} {alpha beta : T} {dx : Nat → T} {A B0 B1 B2 U V : List Int → T} : form3 i0 j0 k0 i1 j1 k1 alpha beta dx A B0 B1 B2 U V = form3 i0 j0 k0 i1 j1 k1 alpha beta dx A B0 B1 B2 V U := by
  unfold form3
  have e0 : (sum i0 (i1 + 1) fun i => sum j0 j1 fun j => sum k0 k1 fun k => B0 [i, j, k] * ((U [i, j, k] - U [i - 1, j, k]) * (V [i, j, k] - V [i - 1, j, k])) / (dx 0 * dx 0)) = (sum i0 (i1 + 1) fun i => sum j0 j1 fun j => sum k0 k1 fun k => B0 [i, j, k] * ((V [i, j, k] - V [i - 1, j, k]) * (U [i, j, k] - U [i - 1, j, k])) / (dx 0 * dx 0)) := sum_congr fun i _ _ => sum_congr fun j _ _ => sum_congr fun k _ _ => by ring
  have e1 : (sum i0 i1 fun i => sum j0 (j1 + 1) fun j => sum k0 k1 fun k => B1 [j, k, i] * ((U [i, j, k] - U [i, j - 1, k]) * (V [i, j, k] - V [i, j - 1, k])) / (dx 1 * dx 1)) = (sum i0 i1 fun i => sum j0 (j1 + 1) fun j => sum k0 k1 fun k => B1 [j, k, i] * ((V [i, j, k] - V [i, j - 1, k]) * (U [i, j, k] - U [i, j - 1, k])) / (dx 1 * dx 1)) := sum_congr fun i _ _ => sum_congr fun j _ _ => sum_congr fun k _ _ => by ring
  have e2 : (sum i0 i1 fun i => sum j0 j1 fun j => sum k0 (k1 + 1) fun k => B2 [k, i, j] * ((U [i, j, k] - U [i, j, k - 1]) * (V [i, j, k] - V [i, j, k - 1])) / (dx 2 * dx 2)) = (sum i0 i1 fun i => sum j0 j1 fun j => sum k0 (k1 + 1) fun k => B2 [k, i, j] * ((V [i, j, k] - V [i, j, k - 1]) * (U [i, j, k] - U [i, j, k - 1])) / (dx 2 * dx 2)) := sum_congr fun i _ _ => sum_congr fun j _ _ => sum_congr fun k _ _ => by ring
  have ea : (sum i0 i1 fun i => sum j0 j1 fun j => sum k0 k1 fun k => A [i, j, k] * U [i, j, k] * V [i, j, k]) = (sum i0 i1 fun i => sum j0 j1 fun j => sum k0 k1 fun k => A [i, j, k] * V [i, j, k] * U [i, j, k]) := sum_congr fun i _ _ => sum_congr fun j _ _ => sum_congr fun k _ _ => by ring
  rw [e0, e1, e2, ea]

theorem form3_sub {i0 j0 k0 i1 j1 k1 : Int} {alpha beta : T} {dx : Nat → T} {A B0 B1 B2 U W V : List Int → T} :
    form3 i0 j0 k0 i1 j1 k1 alpha beta dx A B0 B1 B2 (fun p => U p - W p) V = form3 i0 j0 k0 i1 j1 k1 alpha beta dx A B0 B1 B2 U V - form3 i0 j0 k0 i1 j1 k1 alpha beta dx A B0 B1 B2 W V := by
  unfold form3
  have e0 : (sum i0 (i1 + 1) fun i => sum j0 j1 fun j => sum k0 k1 fun k => B0 [i, j, k] * ((U [i, j, k] - W [i, j, k] - (U [i - 1, j, k] - W [i - 1, j, k])) * (V [i, j, k] - V [i - 1, j, k])) / (dx 0 * dx 0)) = (sum i0 (i1 + 1) fun i => sum j0 j1 fun j => sum k0 k1 fun k => B0 [i, j, k] * ((U [i, j, k] - U [i - 1, j, k]) * (V [i, j, k] - V [i - 1, j, k])) / (dx 0 * dx 0)) - (sum i0 (i1 + 1) fun i => sum j0 j1 fun j => sum k0 k1 fun k => B0 [i, j, k] * ((W [i, j, k] - W [i - 1, j, k]) * (V [i, j, k] - V [i - 1, j, k])) / (dx 0 * dx 0)) := by
    simp only [← sum_sub]
    exact sum_congr fun i _ _ => sum_congr fun j _ _ => sum_congr fun k _ _ => by ring
  have e1 : (sum i0 i1 fun i => sum j0 (j1 + 1) fun j => sum k0 k1 fun k => B1 [j, k, i] * ((U [i, j, k] - W [i, j, k] - (U [i, j - 1, k] - W [i, j - 1, k])) * (V [i, j, k] - V [i, j - 1, k])) / (dx 1 * dx 1)) = (sum i0 i1 fun i => sum j0 (j1 + 1) fun j => sum k0 k1 fun k => B1 [j, k, i] * ((U [i, j, k] - U [i, j - 1, k]) * (V [i, j, k] - V [i, j - 1, k])) / (dx 1 * dx 1)) - (sum i0 i1 fun i => sum j0 (j1 + 1) fun j => sum k0 k1 fun k => B1 [j, k, i] * ((W [i, j, k] - W [i, j - 1, k]) * (V [i, j, k] - V [i, j - 1, k])) / (dx 1 * dx 1)) := by
    simp only [← sum_sub]
    exact sum_congr fun i _ _ => sum_congr fun j _ _ => sum_congr fun k _ _ => by ring
  have e2 : (sum i0 i1 fun i => sum j0 j1 fun j => sum k0 (k1 + 1) fun k => B2 [k, i, j] * ((U [i, j, k] - W [i, j, k] - (U [i, j, k - 1] - W [i, j, k - 1])) * (V [i, j, k] - V [i, j, k - 1])) / (dx 2 * dx 2)) = (sum i0 i1 fun i => sum j0 j1 fun j => sum k0 (k1 + 1) fun k => B2 [k, i, j] * ((U [i, j, k] - U [i, j, k - 1]) * (V [i, j, k] - V [i, j, k - 1])) / (dx 2 * dx 2)) - (sum i0 i1 fun i => sum j0 j1 fun j => sum k0 (k1 + 1) fun k => B2 [k, i, j] * ((W [i, j, k] - W [i, j, k - 1]) * (V [i, j, k] - V [i, j, k - 1])) / (dx 2 * dx 2)) := by
    simp only [← sum_sub]
    exact sum_congr fun i _ _ => sum_congr fun j _ _ => sum_congr fun k _ _ => by ring
  have ea : (sum i0 i1 fun i => sum j0 j1 fun j => sum k0 k1 fun k => A [i, j, k] * (U [i, j, k] - W [i, j, k]) * V [i, j, k]) = (sum i0 i1 fun i => sum j0 j1 fun j => sum k0 k1 fun k => A [i, j, k] * U [i, j, k] * V [i, j, k]) - (sum i0 i1 fun i => sum j0 j1 fun j => sum k0 k1 fun k => A [i, j, k] * W [i, j, k] * V [i, j, k]) := by
    simp only [← sum_sub]
    exact sum_congr fun i _ _ => sum_congr fun j _ _ => sum_congr fun k _ _ => by ring
  rw [e0, e1, e2, ea]
  ring

end

section
variable {T : Type} [Field T] [LinearOrder T] [IsStrictOrderedRing T]

theorem sum_nonneg {lo hi : Int} {f : Int → T} (h : ∀ i, lo ≤ i → i ≤ hi → 0 ≤ f i) : 0 ≤ sum lo hi f := by
  unfold sum
  have h' : ∀ i ∈ irange lo hi, 0 ≤ f i := fun i hm => h i (irange_mem hm).1 (irange_mem hm).2
  generalize irange lo hi = l at h'
  induction l with
  | nil => simp
  | cons a l ih =>
    rw [List.map_cons, List.sum_cons]
    exact add_nonneg (h' a (by simp)) (ih fun i hm => h' i (by simp [hm]))

theorem sum_mono {lo hi : Int} {f g : Int → T} (h : ∀ i, lo ≤ i → i ≤ hi → f i ≤ g i) : sum lo hi f ≤ sum lo hi g := by
  have := sum_nonneg (f := fun i => g i - f i) fun i h0 h1 => sub_nonneg.2 (h i h0 h1)
  rw [sum_sub] at this
  exact sub_nonneg.1 this

theorem sum_pos_zero {lo hi : Int} {f : Int → T} (h : ∀ i, lo ≤ i → i ≤ hi → 0 ≤ f i) (h0 : sum lo hi f ≤ 0) {i : Int} (h1 : lo ≤ i) (h2 : i ≤ hi) : f i = 0 := by
  have hm : i ∈ irange lo hi := mem_irange.2 ⟨h1, h2⟩
  unfold sum at h0
  have h' : ∀ i ∈ irange lo hi, 0 ≤ f i := fun i hm => h i (irange_mem hm).1 (irange_mem hm).2
  generalize irange lo hi = l at h' h0 hm
  induction l with
  | nil => cases hm
  | cons a l ih =>
    rw [List.map_cons, List.sum_cons] at h0
    have s0 : 0 ≤ (l.map f).sum := by
      have : ∀ l : List Int, (∀ i ∈ l, 0 ≤ f i) → 0 ≤ (l.map f).sum := fun l => by
        induction l with
        | nil => simp
        | cons b l ih => exact fun hb => by rw [List.map_cons, List.sum_cons]; exact add_nonneg (hb b (by simp)) (ih fun i hm => hb i (by simp [hm]))
      exact this l fun i hm => h' i (by simp [hm])
    have a0 := h' a (by simp)
    rcases List.mem_cons.1 hm with rfl | hm
    · linarith
    · exact ih (fun i hm => h' i (by simp [hm])) (by linarith) hm

theorem cut_le (x y M : T) : (max (x - M) 0 - max (y - M) 0) * (max (x - M) 0 - max (y - M) 0) ≤ (x - y) * (max (x - M) 0 - max (y - M) 0) := by
  rcases le_total (x - M) 0 with h1 | h1 <;> rcases le_total (y - M) 0 with h2 | h2
  · rw [max_eq_right h1, max_eq_right h2]; simp
  · rw [max_eq_right h1, max_eq_left h2]; nlinarith
  · rw [max_eq_left h1, max_eq_right h2]; nlinarith
  · rw [max_eq_left h1, max_eq_left h2]; nlinarith

theorem cut_cell (x : T) {M : T} (hM : 0 ≤ M) : max (x - M) 0 * max (x - M) 0 ≤ x * max (x - M) 0 := by
  rcases le_total (x - M) 0 with h1 | h1
  · rw [max_eq_right h1]; simp
  · rw [max_eq_left h1]; nlinarith

/-- a function of one index without jumps that starts from 0 -/
theorem flat_zero {lo hi : Int} {f : Int → T} (h0 : f (lo - 1) = 0) (h : ∀ i, lo ≤ i → i ≤ hi + 1 → f i - f (i - 1) = 0) : ∀ i, lo ≤ i → i ≤ hi → f i = 0 := by
  have : ∀ n : Nat, lo - 1 + n ≤ hi → f (lo - 1 + n) = 0 := fun n => by
    induction n with
    | zero => intro _; simpa using h0
    | succ n ih =>
      intro hn
      have := h (lo - 1 + (n + 1 : Nat)) (by push_cast; omega) (by omega)
      rw [show lo - 1 + ((n + 1 : Nat) : Int) - 1 = lo - 1 + n by push_cast; ring, ih (by push_cast at hn; omega)] at this
      linarith
  intro i h1 h2
  have := this (i - (lo - 1)).toNat (by omega)
  rwa [show lo - 1 + ((i - (lo - 1)).toNat : Int) = i by omega] at this

theorem Elliptic1.nonneg {i0 i1 : Int} {alpha beta : T} {dx : Nat → T} {A B0 U : List Int → T} (h : Elliptic1 i0 i1 alpha beta dx A B0) : 0 ≤ form1 i0 i1 alpha beta dx A B0 U U := by
  have p0 : 0 ≤ (sum i0 (i1 + 1) fun i => B0 [i] * ((U [i] - U [i - 1]) * (U [i] - U [i - 1])) / (dx 0 * dx 0)) := sum_nonneg fun i hi0 hi1 => 
    div_nonneg (mul_nonneg (h.face0 i hi0 hi1).le (mul_self_nonneg _)) (mul_self_nonneg _)
  have pa : 0 ≤ alpha * (sum i0 i1 fun i => A [i] * U [i] * U [i]) := by
    simp only [mul_sum]
    exact sum_nonneg fun i hi0 hi1 => by
      have := mul_nonneg (h.cell i hi0 hi1) (mul_self_nonneg (U [i]))
      linarith
  unfold form1
  have := h.beta
  positivity

theorem Elliptic1.zero {i0 i1 : Int} {alpha beta : T} {dx : Nat → T} {A B0 U : List Int → T} (h : Elliptic1 i0 i1 alpha beta dx A B0) (hU : ∀ p, ¬ InBounds [(i0, i1)] p → U p = 0) (h0 : form1 i0 i1 alpha beta dx A B0 U U ≤ 0) :
    ∀ p, InBounds [(i0, i1)] p → U p = 0 := by
  have p0 : 0 ≤ (sum i0 (i1 + 1) fun i => B0 [i] * ((U [i] - U [i - 1]) * (U [i] - U [i - 1])) / (dx 0 * dx 0)) := sum_nonneg fun i hi0 hi1 => 
    div_nonneg (mul_nonneg (h.face0 i hi0 hi1).le (mul_self_nonneg _)) (mul_self_nonneg _)
  have pa : 0 ≤ alpha * (sum i0 i1 fun i => A [i] * U [i] * U [i]) := by
    simp only [mul_sum]
    exact sum_nonneg fun i hi0 hi1 => by
      have := mul_nonneg (h.cell i hi0 hi1) (mul_self_nonneg (U [i]))
      linarith
  unfold form1 at h0
  have hb := h.beta
  have z : (sum i0 (i1 + 1) fun i => B0 [i] * ((U [i] - U [i - 1]) * (U [i] - U [i - 1])) / (dx 0 * dx 0)) ≤ 0 := by
    by_contra hc
    have : 0 < beta * ((sum i0 (i1 + 1) fun i => B0 [i] * ((U [i] - U [i - 1]) * (U [i] - U [i - 1])) / (dx 0 * dx 0))) := mul_pos hb (by linarith)
    linarith
  intro p hp
  rw [inBounds1] at hp
  obtain ⟨i, rfl, hp⟩ := hp
  refine flat_zero (lo := i0) (hi := i1) (f := fun i => U [i]) (hU _ (by simp [InBounds])) (fun i h0 h1 => ?_) i (by omega) (by omega)
  have t := sum_pos_zero (fun i h0 h1 => div_nonneg (mul_nonneg (h.face0 i h0 h1).le (mul_self_nonneg _)) (mul_self_nonneg _)) z h0 h1
  have b := h.face0 i h0 h1
  rcases div_eq_zero_iff.1 t with t | t
  · rcases mul_eq_zero.1 t with t | t
    · exact absurd t b.ne'
    · exact mul_self_eq_zero.1 t
  · exact absurd (mul_self_eq_zero.1 t) h.dx0

/-- the positive part of `U - M` as test function -/
theorem Elliptic1.cut {M : T} {i0 i1 : Int} {alpha beta : T} {dx : Nat → T} {A B0 U : List Int → T} (h : Elliptic1 i0 i1 alpha beta dx A B0) (hM : 0 ≤ M ∨ alpha = 0) :
    form1 i0 i1 alpha beta dx A B0 (fun p => max (U p - M) 0) (fun p => max (U p - M) 0) ≤ form1 i0 i1 alpha beta dx A B0 U (fun p => max (U p - M) 0) := by
  have p0 : (sum i0 (i1 + 1) fun i => B0 [i] * ((max (U [i] - M) 0 - max (U [i - 1] - M) 0) * (max (U [i] - M) 0 - max (U [i - 1] - M) 0)) / (dx 0 * dx 0)) ≤ (sum i0 (i1 + 1) fun i => B0 [i] * ((U [i] - U [i - 1]) * (max (U [i] - M) 0 - max (U [i - 1] - M) 0)) / (dx 0 * dx 0)) := sum_mono fun i hi0 hi1 => 
    div_le_div_of_nonneg_right (mul_le_mul_of_nonneg_left (cut_le _ _ M) (h.face0 i hi0 hi1).le) (mul_self_nonneg _)
  have pa : alpha * (sum i0 i1 fun i => A [i] * (max (U [i] - M) 0) * max (U [i] - M) 0) ≤ alpha * (sum i0 i1 fun i => A [i] * U [i] * max (U [i] - M) 0) := by
    simp only [mul_sum]
    exact sum_mono fun i hi0 hi1 => by
      have c := h.cell i hi0 hi1
      rcases hM with hM | hM
      · have := mul_le_mul_of_nonneg_left (cut_cell (U [i]) hM) c
        linarith
      · rw [hM]; simp
  unfold form1
  have := mul_le_mul_of_nonneg_left (p0) h.beta.le
  exact add_le_add this pa

theorem Elliptic2.nonneg {i0 j0 i1 j1 : Int} {alpha beta : T} {dx : Nat → T} {A B0 B1 U : List Int → T} (h : Elliptic2 i0 j0 i1 j1 alpha beta dx A B0 B1) : 0 ≤ form2 i0 j0 i1 j1 alpha beta dx A B0 B1 U U := by
  have p0 : 0 ≤ (sum i0 (i1 + 1) fun i => sum j0 j1 fun j => B0 [i, j] * ((U [i, j] - U [i - 1, j]) * (U [i, j] - U [i - 1, j])) / (dx 0 * dx 0)) := sum_nonneg fun i hi0 hi1 => sum_nonneg fun j hj0 hj1 => 
    div_nonneg (mul_nonneg (h.face0 i j hi0 hi1 hj0 hj1).le (mul_self_nonneg _)) (mul_self_nonneg _)
  have p1 : 0 ≤ (sum i0 i1 fun i => sum j0 (j1 + 1) fun j => B1 [j, i] * ((U [i, j] - U [i, j - 1]) * (U [i, j] - U [i, j - 1])) / (dx 1 * dx 1)) := sum_nonneg fun i hi0 hi1 => sum_nonneg fun j hj0 hj1 => 
    div_nonneg (mul_nonneg (h.face1 i j hi0 hi1 hj0 hj1).le (mul_self_nonneg _)) (mul_self_nonneg _)
  have pa : 0 ≤ alpha * (sum i0 i1 fun i => sum j0 j1 fun j => A [i, j] * U [i, j] * U [i, j]) := by
    simp only [mul_sum]
    exact sum_nonneg fun i hi0 hi1 => sum_nonneg fun j hj0 hj1 => by
      have := mul_nonneg (h.cell i j hi0 hi1 hj0 hj1) (mul_self_nonneg (U [i, j]))
      linarith
  unfold form2
  have := h.beta
  positivity

theorem Elliptic2.zero {i0 j0 i1 j1 : Int} {alpha beta : T} {dx : Nat → T} {A B0 B1 U : List Int → T} (h : Elliptic2 i0 j0 i1 j1 alpha beta dx A B0 B1) (hU : ∀ p, ¬ InBounds [(i0, i1), (j0, j1)] p → U p = 0) (h0 : form2 i0 j0 i1 j1 alpha beta dx A B0 B1 U U ≤ 0) :
    ∀ p, InBounds [(i0, i1), (j0, j1)] p → U p = 0 := by
  have p0 : 0 ≤ (sum i0 (i1 + 1) fun i => sum j0 j1 fun j => B0 [i, j] * ((U [i, j] - U [i - 1, j]) * (U [i, j] - U [i - 1, j])) / (dx 0 * dx 0)) := sum_nonneg fun i hi0 hi1 => sum_nonneg fun j hj0 hj1 => 
    div_nonneg (mul_nonneg (h.face0 i j hi0 hi1 hj0 hj1).le (mul_self_nonneg _)) (mul_self_nonneg _)
  have p1 : 0 ≤ (sum i0 i1 fun i => sum j0 (j1 + 1) fun j => B1 [j, i] * ((U [i, j] - U [i, j - 1]) * (U [i, j] - U [i, j - 1])) / (dx 1 * dx 1)) := sum_nonneg fun i hi0 hi1 => sum_nonneg fun j hj0 hj1 => 
    div_nonneg (mul_nonneg (h.face1 i j hi0 hi1 hj0 hj1).le (mul_self_nonneg _)) (mul_self_nonneg _)
  have pa : 0 ≤ alpha * (sum i0 i1 fun i => sum j0 j1 fun j => A [i, j] * U [i, j] * U [i, j]) := by
    simp only [mul_sum]
    exact sum_nonneg fun i hi0 hi1 => sum_nonneg fun j hj0 hj1 => by
      have := mul_nonneg (h.cell i j hi0 hi1 hj0 hj1) (mul_self_nonneg (U [i, j]))
      linarith
  unfold form2 at h0
  have hb := h.beta
  have z : (sum i0 (i1 + 1) fun i => sum j0 j1 fun j => B0 [i, j] * ((U [i, j] - U [i - 1, j]) * (U [i, j] - U [i - 1, j])) / (dx 0 * dx 0)) ≤ 0 := by
    by_contra hc
    have : 0 < beta * ((sum i0 (i1 + 1) fun i => sum j0 j1 fun j => B0 [i, j] * ((U [i, j] - U [i - 1, j]) * (U [i, j] - U [i - 1, j])) / (dx 0 * dx 0)) + (sum i0 i1 fun i => sum j0 (j1 + 1) fun j => B1 [j, i] * ((U [i, j] - U [i, j - 1]) * (U [i, j] - U [i, j - 1])) / (dx 1 * dx 1))) := mul_pos hb (by linarith)
    linarith
  intro p hp
  rw [inBounds2] at hp
  obtain ⟨i, j, rfl, hp⟩ := hp
  refine flat_zero (lo := i0) (hi := i1) (f := fun i => U [i, j]) (hU _ (by simp [InBounds])) (fun i h0 h1 => ?_) i (by omega) (by omega)
  have t1 := sum_pos_zero (fun i h0 h1 => sum_nonneg fun j h2 h3 => div_nonneg (mul_nonneg (h.face0 i j h0 h1 h2 h3).le (mul_self_nonneg _)) (mul_self_nonneg _)) z h0 h1
  have t := sum_pos_zero (fun j h2 h3 => div_nonneg (mul_nonneg (h.face0 i j h0 h1 h2 h3).le (mul_self_nonneg _)) (mul_self_nonneg _)) t1.le (i := j) (by omega) (by omega)
  have b := h.face0 i j h0 h1 (by omega) (by omega)
  rcases div_eq_zero_iff.1 t with t | t
  · rcases mul_eq_zero.1 t with t | t
    · exact absurd t b.ne'
    · exact mul_self_eq_zero.1 t
  · exact absurd (mul_self_eq_zero.1 t) h.dx0

/-- the positive part of `U - M` as test function -/
theorem Elliptic2.cut {M : T} {i0 j0 i1 j1 : Int} {alpha beta : T} {dx : Nat → T} {A B0 B1 U : List Int → T} (h : Elliptic2 i0 j0 i1 j1 alpha beta dx A B0 B1) (hM : 0 ≤ M ∨ alpha = 0) :
    form2 i0 j0 i1 j1 alpha beta dx A B0 B1 (fun p => max (U p - M) 0) (fun p => max (U p - M) 0) ≤ form2 i0 j0 i1 j1 alpha beta dx A B0 B1 U (fun p => max (U p - M) 0) := by
  have p0 : (sum i0 (i1 + 1) fun i => sum j0 j1 fun j => B0 [i, j] * ((max (U [i, j] - M) 0 - max (U [i - 1, j] - M) 0) * (max (U [i, j] - M) 0 - max (U [i - 1, j] - M) 0)) / (dx 0 * dx 0)) ≤ (sum i0 (i1 + 1) fun i => sum j0 j1 fun j => B0 [i, j] * ((U [i, j] - U [i - 1, j]) * (max (U [i, j] - M) 0 - max (U [i - 1, j] - M) 0)) / (dx 0 * dx 0)) := sum_mono fun i hi0 hi1 => sum_mono fun j hj0 hj1 => 
    div_le_div_of_nonneg_right (mul_le_mul_of_nonneg_left (cut_le _ _ M) (h.face0 i j hi0 hi1 hj0 hj1).le) (mul_self_nonneg _)
  have p1 : (sum i0 i1 fun i => sum j0 (j1 + 1) fun j => B1 [j, i] * ((max (U [i, j] - M) 0 - max (U [i, j - 1] - M) 0) * (max (U [i, j] - M) 0 - max (U [i, j - 1] - M) 0)) / (dx 1 * dx 1)) ≤ (sum i0 i1 fun i => sum j0 (j1 + 1) fun j => B1 [j, i] * ((U [i, j] - U [i, j - 1]) * (max (U [i, j] - M) 0 - max (U [i, j - 1] - M) 0)) / (dx 1 * dx 1)) := sum_mono fun i hi0 hi1 => sum_mono fun j hj0 hj1 => 
    div_le_div_of_nonneg_right (mul_le_mul_of_nonneg_left (cut_le _ _ M) (h.face1 i j hi0 hi1 hj0 hj1).le) (mul_self_nonneg _)
  have pa : alpha * (sum i0 i1 fun i => sum j0 j1 fun j => A [i, j] * (max (U [i, j] - M) 0) * max (U [i, j] - M) 0) ≤ alpha * (sum i0 i1 fun i => sum j0 j1 fun j => A [i, j] * U [i, j] * max (U [i, j] - M) 0) := by
    simp only [mul_sum]
    exact sum_mono fun i hi0 hi1 => sum_mono fun j hj0 hj1 => by
      have c := h.cell i j hi0 hi1 hj0 hj1
      rcases hM with hM | hM
      · have := mul_le_mul_of_nonneg_left (cut_cell (U [i, j]) hM) c
        linarith
      · rw [hM]; simp
  unfold form2
  have := mul_le_mul_of_nonneg_left (add_le_add p0 p1) h.beta.le
  exact add_le_add this pa

theorem Elliptic3.nonneg {i0 j0 k0 i1 j1 k1 : Int} {alpha beta : T} {dx : Nat → T} {A B0 B1 B2 U : List Int → T} (h : Elliptic3 i0 j0 k0 i1 j1 k1 alpha beta dx A B0 B1 B2) : 0 ≤ form3 i0 j0 k0 i1 j1 k1 alpha beta dx A B0 B1 B2 U U := by
  have p0 : 0 ≤ (sum i0 (i1 + 1) fun i => sum j0 j1 fun j => sum k0 k1 fun k => B0 [i, j, k] * ((U [i, j, k] - U [i - 1, j, k]) * (U [i, j, k] - U [i - 1, j, k])) / (dx 0 * dx 0)) := sum_nonneg fun i hi0 hi1 => sum_nonneg fun j hj0 hj1 => sum_nonneg fun k hk0 hk1 => 
    div_nonneg (mul_nonneg (h.face0 i j k hi0 hi1 hj0 hj1 hk0 hk1).le (mul_self_nonneg _)) (mul_self_nonneg _)
  have p1 : 0 ≤ (sum i0 i1 fun i => sum j0 (j1 + 1) fun j => sum k0 k1 fun k => B1 [j, k, i] * ((U [i, j, k] - U [i, j - 1, k]) * (U [i, j, k] - U [i, j - 1, k])) / (dx 1 * dx 1)) := sum_nonneg fun i hi0 hi1 => sum_nonneg fun j hj0 hj1 => sum_nonneg fun k hk0 hk1 => 
    div_nonneg (mul_nonneg (h.face1 i j k hi0 hi1 hj0 hj1 hk0 hk1).le (mul_self_nonneg _)) (mul_self_nonneg _)
  have p2 : 0 ≤ (sum i0 i1 fun i => sum j0 j1 fun j => sum k0 (k1 + 1) fun k => B2 [k, i, j] * ((U [i, j, k] - U [i, j, k - 1]) * (U [i, j, k] - U [i, j, k - 1])) / (dx 2 * dx 2)) := sum_nonneg fun i hi0 hi1 => sum_nonneg fun j hj0 hj1 => sum_nonneg fun k hk0 hk1 => 
    div_nonneg (mul_nonneg (h.face2 i j k hi0 hi1 hj0 hj1 hk0 hk1).le (mul_self_nonneg _)) (mul_self_nonneg _)
  have pa : 0 ≤ alpha * (sum i0 i1 fun i => sum j0 j1 fun j => sum k0 k1 fun k => A [i, j, k] * U [i, j, k] * U [i, j, k]) := by
    simp only [mul_sum]
    exact sum_nonneg fun i hi0 hi1 => sum_nonneg fun j hj0 hj1 => sum_nonneg fun k hk0 hk1 => by
      have := mul_nonneg (h.cell i j k hi0 hi1 hj0 hj1 hk0 hk1) (mul_self_nonneg (U [i, j, k]))
      linarith
  unfold form3
  have := h.beta
  positivity

theorem Elliptic3.zero {i0 j0 k0 i1 j1 k1 : Int} {alpha beta : T} {dx : Nat → T} {A B0 B1 B2 U : List Int → T} (h : Elliptic3 i0 j0 k0 i1 j1 k1 alpha beta dx A B0 B1 B2) (hU : ∀ p, ¬ InBounds [(i0, i1), (j0, j1), (k0, k1)] p → U p = 0) (h0 : form3 i0 j0 k0 i1 j1 k1 alpha beta dx A B0 B1 B2 U U ≤ 0) :
    ∀ p, InBounds [(i0, i1), (j0, j1), (k0, k1)] p → U p = 0 := by
  have p0 : 0 ≤ (sum i0 (i1 + 1) fun i => sum j0 j1 fun j => sum k0 k1 fun k => B0 [i, j, k] * ((U [i, j, k] - U [i - 1, j, k]) * (U [i, j, k] - U [i - 1, j, k])) / (dx 0 * dx 0)) := sum_nonneg fun i hi0 hi1 => sum_nonneg fun j hj0 hj1 => sum_nonneg fun k hk0 hk1 => 
    div_nonneg (mul_nonneg (h.face0 i j k hi0 hi1 hj0 hj1 hk0 hk1).le (mul_self_nonneg _)) (mul_self_nonneg _)
  have p1 : 0 ≤ (sum i0 i1 fun i => sum j0 (j1 + 1) fun j => sum k0 k1 fun k => B1 [j, k, i] * ((U [i, j, k] - U [i, j - 1, k]) * (U [i, j, k] - U [i, j - 1, k])) / (dx 1 * dx 1)) := sum_nonneg fun i hi0 hi1 => sum_nonneg fun j hj0 hj1 => sum_nonneg fun k hk0 hk1 => 
    div_nonneg (mul_nonneg (h.face1 i j k hi0 hi1 hj0 hj1 hk0 hk1).le (mul_self_nonneg _)) (mul_self_nonneg _)
  have p2 : 0 ≤ (sum i0 i1 fun i => sum j0 j1 fun j => sum k0 (k1 + 1) fun k => B2 [k, i, j] * ((U [i, j, k] - U [i, j, k - 1]) * (U [i, j, k] - U [i, j, k - 1])) / (dx 2 * dx 2)) := sum_nonneg fun i hi0 hi1 => sum_nonneg fun j hj0 hj1 => sum_nonneg fun k hk0 hk1 => 
    div_nonneg (mul_nonneg (h.face2 i j k hi0 hi1 hj0 hj1 hk0 hk1).le (mul_self_nonneg _)) (mul_self_nonneg _)
  have pa : 0 ≤ alpha * (sum i0 i1 fun i => sum j0 j1 fun j => sum k0 k1 fun k => A [i, j, k] * U [i, j, k] * U [i, j, k]) := by
    simp only [mul_sum]
    exact sum_nonneg fun i hi0 hi1 => sum_nonneg fun j hj0 hj1 => sum_nonneg fun k hk0 hk1 => by
      have := mul_nonneg (h.cell i j k hi0 hi1 hj0 hj1 hk0 hk1) (mul_self_nonneg (U [i, j, k]))
      linarith
  unfold form3 at h0
  have hb := h.beta
  have z : (sum i0 (i1 + 1) fun i => sum j0 j1 fun j => sum k0 k1 fun k => B0 [i, j, k] * ((U [i, j, k] - U [i - 1, j, k]) * (U [i, j, k] - U [i - 1, j, k])) / (dx 0 * dx 0)) ≤ 0 := by
    by_contra hc
    have : 0 < beta * ((sum i0 (i1 + 1) fun i => sum j0 j1 fun j => sum k0 k1 fun k => B0 [i, j, k] * ((U [i, j, k] - U [i - 1, j, k]) * (U [i, j, k] - U [i - 1, j, k])) / (dx 0 * dx 0)) + (sum i0 i1 fun i => sum j0 (j1 + 1) fun j => sum k0 k1 fun k => B1 [j, k, i] * ((U [i, j, k] - U [i, j - 1, k]) * (U [i, j, k] - U [i, j - 1, k])) / (dx 1 * dx 1)) + (sum i0 i1 fun i => sum j0 j1 fun j => sum k0 (k1 + 1) fun k => B2 [k, i, j] * ((U [i, j, k] - U [i, j, k - 1]) * (U [i, j, k] - U [i, j, k - 1])) / (dx 2 * dx 2))) := mul_pos hb (by linarith)
    linarith
  intro p hp
  rw [inBounds3] at hp
  obtain ⟨i, j, k, rfl, hp⟩ := hp
  refine flat_zero (lo := i0) (hi := i1) (f := fun i => U [i, j, k]) (hU _ (by simp [InBounds])) (fun i h0 h1 => ?_) i (by omega) (by omega)
  have t1 := sum_pos_zero (fun i h0 h1 => sum_nonneg fun j h2 h3 => sum_nonneg fun k h4 h5 => div_nonneg (mul_nonneg (h.face0 i j k h0 h1 h2 h3 h4 h5).le (mul_self_nonneg _)) (mul_self_nonneg _)) z h0 h1
  have t2 := sum_pos_zero (fun j h2 h3 => sum_nonneg fun k h4 h5 => div_nonneg (mul_nonneg (h.face0 i j k h0 h1 h2 h3 h4 h5).le (mul_self_nonneg _)) (mul_self_nonneg _)) t1.le (i := j) (by omega) (by omega)
  have t := sum_pos_zero (fun k h4 h5 => div_nonneg (mul_nonneg (h.face0 i j k h0 h1 (by omega) (by omega) h4 h5).le (mul_self_nonneg _)) (mul_self_nonneg _)) t2.le (i := k) (by omega) (by omega)
  have b := h.face0 i j k h0 h1 (by omega) (by omega) (by omega) (by omega)
  rcases div_eq_zero_iff.1 t with t | t
  · rcases mul_eq_zero.1 t with t | t
    · exact absurd t b.ne'
    · exact mul_self_eq_zero.1 t
  · exact absurd (mul_self_eq_zero.1 t) h.dx0

/-- the positive part of `U - M` as test function -/
theorem Elliptic3.cut {M : T} {i0 j0 k0 i1 j1 k1 : Int} {alpha beta : T} {dx : Nat → T} {A B0 B1 B2 U : List Int → T} (h : Elliptic3 i0 j0 k0 i1 j1 k1 alpha beta dx A B0 B1 B2) (hM : 0 ≤ M ∨ alpha = 0) :
    form3 i0 j0 k0 i1 j1 k1 alpha beta dx A B0 B1 B2 (fun p => max (U p - M) 0) (fun p => max (U p - M) 0) ≤ form3 i0 j0 k0 i1 j1 k1 alpha beta dx A B0 B1 B2 U (fun p => max (U p - M) 0) := by
  have p0 : (sum i0 (i1 + 1) fun i => sum j0 j1 fun j => sum k0 k1 fun k => B0 [i, j, k] * ((max (U [i, j, k] - M) 0 - max (U [i - 1, j, k] - M) 0) * (max (U [i, j, k] - M) 0 - max (U [i - 1, j, k] - M) 0)) / (dx 0 * dx 0)) ≤ (sum i0 (i1 + 1) fun i => sum j0 j1 fun j => sum k0 k1 fun k => B0 [i, j, k] * ((U [i, j, k] - U [i - 1, j, k]) * (max (U [i, j, k] - M) 0 - max (U [i - 1, j, k] - M) 0)) / (dx 0 * dx 0)) := sum_mono fun i hi0 hi1 => sum_mono fun j hj0 hj1 => sum_mono fun k hk0 hk1 => 
    div_le_div_of_nonneg_right (mul_le_mul_of_nonneg_left (cut_le _ _ M) (h.face0 i j k hi0 hi1 hj0 hj1 hk0 hk1).le) (mul_self_nonneg _)
  have p1 : (sum i0 i1 fun i => sum j0 (j1 + 1) fun j => sum k0 k1 fun k => B1 [j, k, i] * ((max (U [i, j, k] - M) 0 - max (U [i, j - 1, k] - M) 0) * (max (U [i, j, k] - M) 0 - max (U [i, j - 1, k] - M) 0)) / (dx 1 * dx 1)) ≤ (sum i0 i1 fun i => sum j0 (j1 + 1) fun j => sum k0 k1 fun k => B1 [j, k, i] * ((U [i, j, k] - U [i, j - 1, k]) * (max (U [i, j, k] - M) 0 - max (U [i, j - 1, k] - M) 0)) / (dx 1 * dx 1)) := sum_mono fun i hi0 hi1 => sum_mono fun j hj0 hj1 => sum_mono fun k hk0 hk1 => 
    div_le_div_of_nonneg_right (mul_le_mul_of_nonneg_left (cut_le _ _ M) (h.face1 i j k hi0 hi1 hj0 hj1 hk0 hk1).le) (mul_self_nonneg _)
  have p2 : (sum i0 i1 fun i => sum j0 j1 fun j => sum k0 (k1 + 1) fun k => B2 [k, i, j] * ((max (U [i, j, k] - M) 0 - max (U [i, j, k - 1] - M) 0) * (max (U [i, j, k] - M) 0 - max (U [i, j, k - 1] - M) 0)) / (dx 2 * dx 2)) ≤ (sum i0 i1 fun i => sum j0 j1 fun j => sum k0 (k1 + 1) fun k => B2 [k, i, j] * ((U [i, j, k] - U [i, j, k - 1]) * (max (U [i, j, k] - M) 0 - max (U [i, j, k - 1] - M) 0)) / (dx 2 * dx 2)) := sum_mono fun i hi0 hi1 => sum_mono fun j hj0 hj1 => sum_mono fun k hk0 hk1 => 
    div_le_div_of_nonneg_right (mul_le_mul_of_nonneg_left (cut_le _ _ M) (h.face2 i j k hi0 hi1 hj0 hj1 hk0 hk1).le) (mul_self_nonneg _)
  have pa : alpha * (sum i0 i1 fun i => sum j0 j1 fun j => sum k0 k1 fun k => A [i, j, k] * (max (U [i, j, k] - M) 0) * max (U [i, j, k] - M) 0) ≤ alpha * (sum i0 i1 fun i => sum j0 j1 fun j => sum k0 k1 fun k => A [i, j, k] * U [i, j, k] * max (U [i, j, k] - M) 0) := by
    simp only [mul_sum]
    exact sum_mono fun i hi0 hi1 => sum_mono fun j hj0 hj1 => sum_mono fun k hk0 hk1 => by
      have c := h.cell i j k hi0 hi1 hj0 hj1 hk0 hk1
      rcases hM with hM | hM
      · have := mul_le_mul_of_nonneg_left (cut_cell (U [i, j, k]) hM) c
        linarith
      · rw [hM]; simp
  unfold form3
  have := mul_le_mul_of_nonneg_left (add_le_add (add_le_add p0 p1) p2) h.beta.le
  exact add_le_add this pa

end

end Verif.F
