import Verif.Lemmas.StepSharp

/-
What a step does to the mean square distance of two fields that differ in one cell.
-/

namespace Verif
open Spec

set_option linter.unusedVariables false
set_option linter.unusedSectionVars false

namespace F
variable {T : Type} [Field T] [LinearOrder T] [IsStrictOrderedRing T]

theorem sum_only {lo hi i : Int} {f : Int → T} (h0 : lo ≤ i) (h1 : i ≤ hi) (h : ∀ x, lo ≤ x → x ≤ hi → x ≠ i → f x = 0) : sum lo hi f = f i := by
  obtain ⟨n, rfl⟩ : ∃ n : Nat, hi = lo + n := ⟨(hi - lo).toNat, by omega⟩
  induction n with
  | zero =>
    obtain rfl : i = lo := by simp at h1; omega
    simp [sum, irange]
  | succ n ih =>
    rw [show lo + ((n + 1 : Nat) : Int) = lo + n + 1 by push_cast; ring, sum_last (by omega)]
    by_cases e : i = lo + n + 1
    · subst e
      rw [sum_congr (g := fun _ => (0 : T)) fun x a b => h x a (by push_cast; omega) (by omega), sum_zero, zero_add]
    · rw [ih (by push_cast at h1; omega) (fun x a b c => h x a (by push_cast; omega) c), h (lo + n + 1) (by omega) (by push_cast; omega) (fun e' => e e'.symm), add_zero]

theorem le_sum {lo hi i : Int} {f : Int → T} (h0 : lo ≤ i) (h1 : i ≤ hi) (h : ∀ x, lo ≤ x → x ≤ hi → 0 ≤ f x) : f i ≤ sum lo hi f := by
  rw [← sum_only (f := fun x => if x = i then f x else 0) h0 h1 (fun x _ _ hx => if_neg hx) |>.trans (if_pos rfl)]
  refine sum_mono fun x a b => ?_
  split
  · exact le_rfl
  · exact h x a b

theorem op1_far {i0 i1 i : Int} {alpha beta t : T} {dx : Nat → T} {A B0 U V R S : List Int → T}
    (hia : i0 ≤ i) (hib : i ≤ i1)
    (hUV : ∀ p, InBounds [(i0 - 1, i1 + 1)] p → p ≠ [i] → U p = V p) (hne : U [i] ≠ V [i])
    (hs : 2 < t * (alpha * A [i] + beta * ((B0 [i] + B0 [i + 1]) / (dx 0 * dx 0)))) (hR : R [i] = op1 alpha beta dx A B0 U i) (hS : S [i] = op1 alpha beta dx A B0 V i) :
    (sum i0 i1 fun i => (U [i] - V [i]) * (U [i] - V [i])) <
      (sum i0 i1 fun i => (U [i] - t * R [i] - (V [i] - t * S [i])) * (U [i] - t * R [i] - (V [i] - t * S [i]))) := by
  have hip := hUV [i + 1] (inBounds1.2 ⟨i + 1, rfl, by omega⟩) (fun e => by simp at e)
  have him := hUV [i - 1] (inBounds1.2 ⟨i - 1, rfl, by omega⟩) (fun e => by simp at e)
  have e : op1 alpha beta dx A B0 U i - op1 alpha beta dx A B0 V i = (alpha * A [i] + beta * ((B0 [i] + B0 [i + 1]) / (dx 0 * dx 0))) * (U [i] - V [i]) := by
    simp only [op1, hip, him]
    ring
  have hz : ∀ i', i0 ≤ i' → i' ≤ i1 → [i'] ≠ [i] → (U [i'] - V [i']) * (U [i'] - V [i']) = 0 := fun i' i2 i3 hn => by
    rw [hUV [i'] (inBounds1.2 ⟨i', rfl, by omega⟩) hn, sub_self, mul_zero]
  have h1 : (sum i0 i1 fun i => (U [i] - V [i]) * (U [i] - V [i])) = (U [i] - V [i]) * (U [i] - V [i]) := by
    exact sum_only hia hib fun x a b hx => hz x a b (by simpa using hx)
  have h2 : (U [i] - t * R [i] - (V [i] - t * S [i])) * (U [i] - t * R [i] - (V [i] - t * S [i])) ≤ (sum i0 i1 fun i => (U [i] - t * R [i] - (V [i] - t * S [i])) * (U [i] - t * R [i] - (V [i] - t * S [i]))) := by
    exact le_sum (f := fun i => (U [i] - t * R [i] - (V [i] - t * S [i])) * (U [i] - t * R [i] - (V [i] - t * S [i]))) hia hib fun x _ _ => mul_self_nonneg _
  have h3 : (U [i] - t * R [i] - (V [i] - t * S [i])) = (1 - t * (alpha * A [i] + beta * ((B0 [i] + B0 [i + 1]) / (dx 0 * dx 0)))) * (U [i] - V [i]) := by
    rw [hR, hS]
    linear_combination (-t) * e
  rw [h1]
  refine lt_of_lt_of_le ?_ h2
  rw [h3]
  have h4 : 0 < (U [i] - V [i]) * (U [i] - V [i]) := mul_self_pos.2 (sub_ne_zero.2 hne)
  generalize t * (alpha * A [i] + beta * ((B0 [i] + B0 [i + 1]) / (dx 0 * dx 0))) = w at hs
  nlinarith [mul_pos (mul_pos (show 0 < w by linarith) (show 0 < w - 2 by linarith)) h4]

theorem op2_far {i0 j0 i1 j1 i j : Int} {alpha beta t : T} {dx : Nat → T} {A B0 B1 U V R S : List Int → T}
    (hia : i0 ≤ i) (hib : i ≤ i1) (hja : j0 ≤ j) (hjb : j ≤ j1)
    (hUV : ∀ p, InBounds [(i0 - 1, i1 + 1), (j0 - 1, j1 + 1)] p → p ≠ [i, j] → U p = V p) (hne : U [i, j] ≠ V [i, j])
    (hs : 2 < t * (alpha * A [i, j] + beta * ((B0 [i, j] + B0 [i + 1, j]) / (dx 0 * dx 0) + (B1 [j, i] + B1 [j + 1, i]) / (dx 1 * dx 1)))) (hR : R [i, j] = op2 alpha beta dx A B0 B1 U i j) (hS : S [i, j] = op2 alpha beta dx A B0 B1 V i j) :
    (sum i0 i1 fun i => (sum j0 j1 fun j => (U [i, j] - V [i, j]) * (U [i, j] - V [i, j]))) <
      (sum i0 i1 fun i => (sum j0 j1 fun j => (U [i, j] - t * R [i, j] - (V [i, j] - t * S [i, j])) * (U [i, j] - t * R [i, j] - (V [i, j] - t * S [i, j])))) := by
  have hip := hUV [i + 1, j] (inBounds2.2 ⟨i + 1, j, rfl, by omega⟩) (fun e => by simp at e)
  have him := hUV [i - 1, j] (inBounds2.2 ⟨i - 1, j, rfl, by omega⟩) (fun e => by simp at e)
  have hjp := hUV [i, j + 1] (inBounds2.2 ⟨i, j + 1, rfl, by omega⟩) (fun e => by simp at e)
  have hjm := hUV [i, j - 1] (inBounds2.2 ⟨i, j - 1, rfl, by omega⟩) (fun e => by simp at e)
  have e : op2 alpha beta dx A B0 B1 U i j - op2 alpha beta dx A B0 B1 V i j = (alpha * A [i, j] + beta * ((B0 [i, j] + B0 [i + 1, j]) / (dx 0 * dx 0) + (B1 [j, i] + B1 [j + 1, i]) / (dx 1 * dx 1))) * (U [i, j] - V [i, j]) := by
    simp only [op2, hip, him, hjp, hjm]
    ring
  have hz : ∀ i' j', i0 ≤ i' → i' ≤ i1 → j0 ≤ j' → j' ≤ j1 → [i', j'] ≠ [i, j] → (U [i', j'] - V [i', j']) * (U [i', j'] - V [i', j']) = 0 := fun i' j' i2 i3 j2 j3 hn => by
    rw [hUV [i', j'] (inBounds2.2 ⟨i', j', rfl, by omega⟩) hn, sub_self, mul_zero]
  have h1 : (sum i0 i1 fun i => (sum j0 j1 fun j => (U [i, j] - V [i, j]) * (U [i, j] - V [i, j]))) = (U [i, j] - V [i, j]) * (U [i, j] - V [i, j]) := by
    rw [sum_only hia hib fun x a b hx => (sum_congr (g := fun _ => (0 : T)) fun y a' b' => hz x y a b a' b' (by simp [hx])).trans sum_zero]
    exact sum_only hja hjb fun y a b hy => hz i y hia hib a b (by simp [hy])
  have h2 : (U [i, j] - t * R [i, j] - (V [i, j] - t * S [i, j])) * (U [i, j] - t * R [i, j] - (V [i, j] - t * S [i, j])) ≤ (sum i0 i1 fun i => (sum j0 j1 fun j => (U [i, j] - t * R [i, j] - (V [i, j] - t * S [i, j])) * (U [i, j] - t * R [i, j] - (V [i, j] - t * S [i, j])))) := by
    refine le_trans (le_sum (f := fun j => (U [i, j] - t * R [i, j] - (V [i, j] - t * S [i, j])) * (U [i, j] - t * R [i, j] - (V [i, j] - t * S [i, j]))) hja hjb fun y _ _ => mul_self_nonneg _) ?_
    exact le_sum (f := fun i => sum j0 j1 fun j => (U [i, j] - t * R [i, j] - (V [i, j] - t * S [i, j])) * (U [i, j] - t * R [i, j] - (V [i, j] - t * S [i, j]))) hia hib fun x _ _ => sum_nonneg fun y _ _ => mul_self_nonneg _
  have h3 : (U [i, j] - t * R [i, j] - (V [i, j] - t * S [i, j])) = (1 - t * (alpha * A [i, j] + beta * ((B0 [i, j] + B0 [i + 1, j]) / (dx 0 * dx 0) + (B1 [j, i] + B1 [j + 1, i]) / (dx 1 * dx 1)))) * (U [i, j] - V [i, j]) := by
    rw [hR, hS]
    linear_combination (-t) * e
  rw [h1]
  refine lt_of_lt_of_le ?_ h2
  rw [h3]
  have h4 : 0 < (U [i, j] - V [i, j]) * (U [i, j] - V [i, j]) := mul_self_pos.2 (sub_ne_zero.2 hne)
  generalize t * (alpha * A [i, j] + beta * ((B0 [i, j] + B0 [i + 1, j]) / (dx 0 * dx 0) + (B1 [j, i] + B1 [j + 1, i]) / (dx 1 * dx 1))) = w at hs
  nlinarith [mul_pos (mul_pos (show 0 < w by linarith) (show 0 < w - 2 by linarith)) h4]

theorem op3_far {i0 j0 k0 i1 j1 k1 i j k : Int} {alpha beta t : T} {dx : Nat → T} {A B0 B1 B2 U V R S : List Int → T}
    (hia : i0 ≤ i) (hib : i ≤ i1) (hja : j0 ≤ j) (hjb : j ≤ j1) (hka : k0 ≤ k) (hkb : k ≤ k1)
    (hUV : ∀ p, InBounds [(i0 - 1, i1 + 1), (j0 - 1, j1 + 1), (k0 - 1, k1 + 1)] p → p ≠ [i, j, k] → U p = V p) (hne : U [i, j, k] ≠ V [i, j, k])
    (hs : 2 < t * (alpha * A [i, j, k] + beta * ((B0 [i, j, k] + B0 [i + 1, j, k]) / (dx 0 * dx 0) + (B1 [j, k, i] + B1 [j + 1, k, i]) / (dx 1 * dx 1) + (B2 [k, i, j] + B2 [k + 1, i, j]) / (dx 2 * dx 2)))) (hR : R [i, j, k] = op3 alpha beta dx A B0 B1 B2 U i j k) (hS : S [i, j, k] = op3 alpha beta dx A B0 B1 B2 V i j k) :
    (sum i0 i1 fun i => (sum j0 j1 fun j => (sum k0 k1 fun k => (U [i, j, k] - V [i, j, k]) * (U [i, j, k] - V [i, j, k])))) <
      (sum i0 i1 fun i => (sum j0 j1 fun j => (sum k0 k1 fun k => (U [i, j, k] - t * R [i, j, k] - (V [i, j, k] - t * S [i, j, k])) * (U [i, j, k] - t * R [i, j, k] - (V [i, j, k] - t * S [i, j, k]))))) := by
  have hip := hUV [i + 1, j, k] (inBounds3.2 ⟨i + 1, j, k, rfl, by omega⟩) (fun e => by simp at e)
  have him := hUV [i - 1, j, k] (inBounds3.2 ⟨i - 1, j, k, rfl, by omega⟩) (fun e => by simp at e)
  have hjp := hUV [i, j + 1, k] (inBounds3.2 ⟨i, j + 1, k, rfl, by omega⟩) (fun e => by simp at e)
  have hjm := hUV [i, j - 1, k] (inBounds3.2 ⟨i, j - 1, k, rfl, by omega⟩) (fun e => by simp at e)
  have hkp := hUV [i, j, k + 1] (inBounds3.2 ⟨i, j, k + 1, rfl, by omega⟩) (fun e => by simp at e)
  have hkm := hUV [i, j, k - 1] (inBounds3.2 ⟨i, j, k - 1, rfl, by omega⟩) (fun e => by simp at e)
  have e : op3 alpha beta dx A B0 B1 B2 U i j k - op3 alpha beta dx A B0 B1 B2 V i j k = (alpha * A [i, j, k] + beta * ((B0 [i, j, k] + B0 [i + 1, j, k]) / (dx 0 * dx 0) + (B1 [j, k, i] + B1 [j + 1, k, i]) / (dx 1 * dx 1) + (B2 [k, i, j] + B2 [k + 1, i, j]) / (dx 2 * dx 2))) * (U [i, j, k] - V [i, j, k]) := by
    simp only [op3, hip, him, hjp, hjm, hkp, hkm]
    ring
  have hz : ∀ i' j' k', i0 ≤ i' → i' ≤ i1 → j0 ≤ j' → j' ≤ j1 → k0 ≤ k' → k' ≤ k1 → [i', j', k'] ≠ [i, j, k] → (U [i', j', k'] - V [i', j', k']) * (U [i', j', k'] - V [i', j', k']) = 0 := fun i' j' k' i2 i3 j2 j3 k2 k3 hn => by
    rw [hUV [i', j', k'] (inBounds3.2 ⟨i', j', k', rfl, by omega⟩) hn, sub_self, mul_zero]
  have h1 : (sum i0 i1 fun i => (sum j0 j1 fun j => (sum k0 k1 fun k => (U [i, j, k] - V [i, j, k]) * (U [i, j, k] - V [i, j, k])))) = (U [i, j, k] - V [i, j, k]) * (U [i, j, k] - V [i, j, k]) := by
    rw [sum_only hia hib fun x a b hx => (sum_congr (g := fun _ => (0 : T)) fun y a' b' => (sum_congr (g := fun _ => (0 : T)) fun z a'' b'' => hz x y z a b a' b' a'' b'' (by simp [hx])).trans sum_zero).trans sum_zero]
    rw [sum_only hja hjb fun y a b hy => (sum_congr (g := fun _ => (0 : T)) fun z a' b' => hz i y z hia hib a b a' b' (by simp [hy])).trans sum_zero]
    exact sum_only hka hkb fun z a b hz' => hz i j z hia hib hja hjb a b (by simp [hz'])
  have h2 : (U [i, j, k] - t * R [i, j, k] - (V [i, j, k] - t * S [i, j, k])) * (U [i, j, k] - t * R [i, j, k] - (V [i, j, k] - t * S [i, j, k])) ≤ (sum i0 i1 fun i => (sum j0 j1 fun j => (sum k0 k1 fun k => (U [i, j, k] - t * R [i, j, k] - (V [i, j, k] - t * S [i, j, k])) * (U [i, j, k] - t * R [i, j, k] - (V [i, j, k] - t * S [i, j, k]))))) := by
    refine le_trans (le_sum (f := fun k => (U [i, j, k] - t * R [i, j, k] - (V [i, j, k] - t * S [i, j, k])) * (U [i, j, k] - t * R [i, j, k] - (V [i, j, k] - t * S [i, j, k]))) hka hkb fun y _ _ => mul_self_nonneg _) ?_
    refine le_trans (le_sum (f := fun j => sum k0 k1 fun k => (U [i, j, k] - t * R [i, j, k] - (V [i, j, k] - t * S [i, j, k])) * (U [i, j, k] - t * R [i, j, k] - (V [i, j, k] - t * S [i, j, k]))) hja hjb fun y _ _ => sum_nonneg fun z _ _ => mul_self_nonneg _) ?_
    exact le_sum (f := fun i => sum j0 j1 fun j => sum k0 k1 fun k => (U [i, j, k] - t * R [i, j, k] - (V [i, j, k] - t * S [i, j, k])) * (U [i, j, k] - t * R [i, j, k] - (V [i, j, k] - t * S [i, j, k]))) hia hib fun x _ _ => sum_nonneg fun y _ _ => sum_nonneg fun z _ _ => mul_self_nonneg _
  have h3 : (U [i, j, k] - t * R [i, j, k] - (V [i, j, k] - t * S [i, j, k])) = (1 - t * (alpha * A [i, j, k] + beta * ((B0 [i, j, k] + B0 [i + 1, j, k]) / (dx 0 * dx 0) + (B1 [j, k, i] + B1 [j + 1, k, i]) / (dx 1 * dx 1) + (B2 [k, i, j] + B2 [k + 1, i, j]) / (dx 2 * dx 2)))) * (U [i, j, k] - V [i, j, k]) := by
    rw [hR, hS]
    linear_combination (-t) * e
  rw [h1]
  refine lt_of_lt_of_le ?_ h2
  rw [h3]
  have h4 : 0 < (U [i, j, k] - V [i, j, k]) * (U [i, j, k] - V [i, j, k]) := mul_self_pos.2 (sub_ne_zero.2 hne)
  generalize t * (alpha * A [i, j, k] + beta * ((B0 [i, j, k] + B0 [i + 1, j, k]) / (dx 0 * dx 0) + (B1 [j, k, i] + B1 [j + 1, k, i]) / (dx 1 * dx 1) + (B2 [k, i, j] + B2 [k + 1, i, j]) / (dx 2 * dx 2))) = w at hs
  nlinarith [mul_pos (mul_pos (show 0 < w by linarith) (show 0 < w - 2 by linarith)) h4]

end F
end Verif
