import Verif.Lemmas.EnergyRun
import Mathlib.Tactic.Positivity
import Mathlib.Tactic.FieldSimp

/-
Stability of the discrete operators in the maximum norm.
-/

namespace Verif.F

set_option linter.unusedVariables false

variable {T : Type} [Field T] [LinearOrder T] [IsStrictOrderedRing T]

theorem InBounds.wide1 {i0 i1 : Int} {p : List Int} (h : InBounds [(i0, i1)] p) : InBounds [(i0 - 1, i1 + 1)] p := by
  obtain ⟨i, rfl, h⟩ := inBounds1.1 h
  exact inBounds1.2 ⟨i, rfl, by omega⟩

/-- comparison with 0: it is enough to look at the layer of cells around the box -/
theorem Elliptic1.compare {i0 i1 : Int} {alpha beta : T} {dx : Nat → T} {A B0 U : List Int → T} (hi : i0 ≤ i1)
    (he : Elliptic1 i0 i1 alpha beta dx A B0) (ho : ∀ p, InBounds [(i0 - 1, i1 + 1)] p → ¬ InBounds [(i0, i1)] p → U p ≤ 0)
    (hq : ∀ i, i0 ≤ i → i ≤ i1 → op1 alpha beta dx A B0 U i ≤ 0) : ∀ p, InBounds [(i0, i1)] p → U p ≤ 0 := by
  classical
  let W : List Int → T := fun p => if InBounds [(i0 - 1, i1 + 1)] p then U p else 0
  have w : ∀ p, InBounds [(i0 - 1, i1 + 1)] p → W p = U p := fun p hp => if_pos hp
  have hD : ∀ p, ¬ InBounds [(i0, i1)] p → (fun p => max (W p - 0) 0) p = 0 := fun p hp => by
    refine max_eq_right ?_
    rw [sub_zero]
    by_cases hw : InBounds [(i0 - 1, i1 + 1)] p
    · rw [w p hw]; exact ho p hw hp
    · exact (if_neg hw).le
  have e := weak1 (alpha := alpha) (beta := beta) (dx := dx) (A := A) (B0 := B0) (U := W) hi hD
  have z : (sum i0 i1 fun i => max (W [i] - 0) 0 * op1 alpha beta dx A B0 W i) ≤ 0 := by
    have : 0 ≤ -(sum i0 i1 fun i => max (W [i] - 0) 0 * op1 alpha beta dx A B0 W i) := by
      simp only [← sum_neg]
      exact sum_nonneg fun i h0 h1 => by
        have o : op1 alpha beta dx A B0 W i = op1 alpha beta dx A B0 U i := by
          unfold op1
          rw [w [i] (inBounds1.2 ⟨i, rfl, by omega⟩), w [i + 1] (inBounds1.2 ⟨i + 1, rfl, by omega⟩), w [i - 1] (inBounds1.2 ⟨i - 1, rfl, by omega⟩)]
        have := mul_nonneg (le_max_right (W [i] - 0) 0) (neg_nonneg.2 (hq i h0 h1))
        rwa [← o, mul_neg] at this
    linarith
  intro p hp
  have := he.zero hD ((he.cut (U := W) (M := 0) (Or.inl le_rfl)).trans (e ▸ z)) p hp
  have q : W p ≤ 0 := by
    have := le_of_le_of_eq (le_max_left _ _) this
    rwa [sub_zero] at this
  rwa [w p (InBounds.wide1 hp)] at q

/-- stability: fields that differ by at most `E` around the box, and their images by at most `c E`, differ by at most `E` -/
theorem Elliptic1.near {i0 i1 : Int} {alpha beta c E : T} {dx : Nat → T} {A B0 U V : List Int → T} (hi : i0 ≤ i1)
    (he : Elliptic1 i0 i1 alpha beta dx A B0) (hE : 0 ≤ E) (hc : ∀ i, i0 ≤ i → i ≤ i1 → c ≤ alpha * A [i])
    (ho : ∀ p, InBounds [(i0 - 1, i1 + 1)] p → ¬ InBounds [(i0, i1)] p → U p - V p ≤ E)
    (hq : ∀ i, i0 ≤ i → i ≤ i1 → op1 alpha beta dx A B0 U i - op1 alpha beta dx A B0 V i ≤ c * E) : ∀ p, InBounds [(i0, i1)] p → U p - V p ≤ E := by
  intro p hp
  have := he.compare (U := fun p => U p - V p - E) hi (fun p hw hb => by have := ho p hw hb; linarith) (fun i h0 h1 => ?_) p hp
  · linarith
  · have a := hq i h0 h1
    have b := mul_le_mul_of_nonneg_right (hc i h0 h1) hE
    have e : op1 alpha beta dx A B0 (fun p => U p - V p - E) i = op1 alpha beta dx A B0 U i - op1 alpha beta dx A B0 V i - alpha * A [i] * E := by
      unfold op1
      ring
    rw [e]
    linarith

/-- the Poisson operator, with a quadratic function along axis 0 to compare with -/
theorem Elliptic1.barrier0 {i0 i1 : Int} {beta D t : T} {dx : Nat → T} {U V : List Int → T} (hi : i0 ≤ i1)
    (he : Elliptic1 i0 i1 0 beta dx (fun _ => 1) (fun _ => 1)) (ht : 0 ≤ t)
    (ho : ∀ p, InBounds [(i0 - 1, i1 + 1)] p → ¬ InBounds [(i0, i1)] p → U p - V p ≤ D)
    (hq : ∀ i, i0 ≤ i → i ≤ i1 → op1 0 beta dx (fun _ => 1) (fun _ => 1) U i - op1 0 beta dx (fun _ => 1) (fun _ => 1) V i ≤ t) :
    ∀ i, i0 ≤ i → i ≤ i1 → U [i] - V [i] ≤ D + t * (((i - i0 + 1 : Int) : T) * ((i1 + 1 - i : Int) : T) * (dx 0 * dx 0)) / (2 * beta) := by
  intro i h0 h1
  have hb := he.beta
  have := he.compare (U := fun p => U p - V p - (D + t * ((((p.getD 0 0) - i0 + 1 : Int) : T) * ((i1 + 1 - (p.getD 0 0) : Int) : T) * (dx 0 * dx 0)) / (2 * beta))) hi ?_ ?_ [i] (inBounds1.2 ⟨i, rfl, by omega⟩)
  · simp only [List.getD_cons_zero, List.getD_cons_succ] at this
    linarith
  · intro p hw hbx
    have a := ho p hw hbx
    obtain ⟨i, rfl, hw⟩ := inBounds1.1 hw
    have q : 0 ≤ t * (((i - i0 + 1 : Int) : T) * ((i1 + 1 - i : Int) : T) * (dx 0 * dx 0)) / (2 * beta) := by
      have q0 : (0 : T) ≤ ((i - i0 + 1 : Int) : T) := by exact_mod_cast (by omega : (0 : Int) ≤ i - i0 + 1)
      have q1 : (0 : T) ≤ ((i1 + 1 - i : Int) : T) := by exact_mod_cast (by omega : (0 : Int) ≤ i1 + 1 - i)
      have q2 := mul_self_nonneg (dx 0)
      positivity
    simp only [List.getD_cons_zero, List.getD_cons_succ]
    linarith
  · intro i h0 h1
    have a := hq i h0 h1
    have e : op1 0 beta dx (fun _ => 1) (fun _ => 1) (fun p => U p - V p - (D + t * ((((p.getD 0 0) - i0 + 1 : Int) : T) * ((i1 + 1 - (p.getD 0 0) : Int) : T) * (dx 0 * dx 0)) / (2 * beta))) i = op1 0 beta dx (fun _ => 1) (fun _ => 1) U i - op1 0 beta dx (fun _ => 1) (fun _ => 1) V i - t := by
      unfold op1
      simp only [List.getD_cons_zero, List.getD_cons_succ]
      have hd := he.dx0
      push_cast
      field_simp
      ring
    rw [e]
    linarith

theorem InBounds.wide2 {i0 j0 i1 j1 : Int} {p : List Int} (h : InBounds [(i0, i1), (j0, j1)] p) : InBounds [(i0 - 1, i1 + 1), (j0 - 1, j1 + 1)] p := by
  obtain ⟨i, j, rfl, h⟩ := inBounds2.1 h
  exact inBounds2.2 ⟨i, j, rfl, by omega⟩

/-- comparison with 0: it is enough to look at the layer of cells around the box -/
theorem Elliptic2.compare {i0 j0 i1 j1 : Int} {alpha beta : T} {dx : Nat → T} {A B0 B1 U : List Int → T} (hi : i0 ≤ i1) (hj : j0 ≤ j1)
    (he : Elliptic2 i0 j0 i1 j1 alpha beta dx A B0 B1) (ho : ∀ p, InBounds [(i0 - 1, i1 + 1), (j0 - 1, j1 + 1)] p → ¬ InBounds [(i0, i1), (j0, j1)] p → U p ≤ 0)
    (hq : ∀ i j, i0 ≤ i → i ≤ i1 → j0 ≤ j → j ≤ j1 → op2 alpha beta dx A B0 B1 U i j ≤ 0) : ∀ p, InBounds [(i0, i1), (j0, j1)] p → U p ≤ 0 := by
  classical
  let W : List Int → T := fun p => if InBounds [(i0 - 1, i1 + 1), (j0 - 1, j1 + 1)] p then U p else 0
  have w : ∀ p, InBounds [(i0 - 1, i1 + 1), (j0 - 1, j1 + 1)] p → W p = U p := fun p hp => if_pos hp
  have hD : ∀ p, ¬ InBounds [(i0, i1), (j0, j1)] p → (fun p => max (W p - 0) 0) p = 0 := fun p hp => by
    refine max_eq_right ?_
    rw [sub_zero]
    by_cases hw : InBounds [(i0 - 1, i1 + 1), (j0 - 1, j1 + 1)] p
    · rw [w p hw]; exact ho p hw hp
    · exact (if_neg hw).le
  have e := weak2 (alpha := alpha) (beta := beta) (dx := dx) (A := A) (B0 := B0) (B1 := B1) (U := W) hi hj hD
  have z : (sum i0 i1 fun i => sum j0 j1 fun j => max (W [i, j] - 0) 0 * op2 alpha beta dx A B0 B1 W i j) ≤ 0 := by
    have : 0 ≤ -(sum i0 i1 fun i => sum j0 j1 fun j => max (W [i, j] - 0) 0 * op2 alpha beta dx A B0 B1 W i j) := by
      simp only [← sum_neg]
      exact sum_nonneg fun i h0 h1 => sum_nonneg fun j h2 h3 => by
        have o : op2 alpha beta dx A B0 B1 W i j = op2 alpha beta dx A B0 B1 U i j := by
          unfold op2
          rw [w [i, j] (inBounds2.2 ⟨i, j, rfl, by omega⟩), w [i + 1, j] (inBounds2.2 ⟨i + 1, j, rfl, by omega⟩), w [i - 1, j] (inBounds2.2 ⟨i - 1, j, rfl, by omega⟩), w [i, j + 1] (inBounds2.2 ⟨i, j + 1, rfl, by omega⟩), w [i, j - 1] (inBounds2.2 ⟨i, j - 1, rfl, by omega⟩)]
        have := mul_nonneg (le_max_right (W [i, j] - 0) 0) (neg_nonneg.2 (hq i j h0 h1 h2 h3))
        rwa [← o, mul_neg] at this
    linarith
  intro p hp
  have := he.zero hD ((he.cut (U := W) (M := 0) (Or.inl le_rfl)).trans (e ▸ z)) p hp
  have q : W p ≤ 0 := by
    have := le_of_le_of_eq (le_max_left _ _) this
    rwa [sub_zero] at this
  rwa [w p (InBounds.wide2 hp)] at q

/-- stability: fields that differ by at most `E` around the box, and their images by at most `c E`, differ by at most `E` -/
theorem Elliptic2.near {i0 j0 i1 j1 : Int} {alpha beta c E : T} {dx : Nat → T} {A B0 B1 U V : List Int → T} (hi : i0 ≤ i1) (hj : j0 ≤ j1)
    (he : Elliptic2 i0 j0 i1 j1 alpha beta dx A B0 B1) (hE : 0 ≤ E) (hc : ∀ i j, i0 ≤ i → i ≤ i1 → j0 ≤ j → j ≤ j1 → c ≤ alpha * A [i, j])
    (ho : ∀ p, InBounds [(i0 - 1, i1 + 1), (j0 - 1, j1 + 1)] p → ¬ InBounds [(i0, i1), (j0, j1)] p → U p - V p ≤ E)
    (hq : ∀ i j, i0 ≤ i → i ≤ i1 → j0 ≤ j → j ≤ j1 → op2 alpha beta dx A B0 B1 U i j - op2 alpha beta dx A B0 B1 V i j ≤ c * E) : ∀ p, InBounds [(i0, i1), (j0, j1)] p → U p - V p ≤ E := by
  intro p hp
  have := he.compare (U := fun p => U p - V p - E) hi hj (fun p hw hb => by have := ho p hw hb; linarith) (fun i j h0 h1 h2 h3 => ?_) p hp
  · linarith
  · have a := hq i j h0 h1 h2 h3
    have b := mul_le_mul_of_nonneg_right (hc i j h0 h1 h2 h3) hE
    have e : op2 alpha beta dx A B0 B1 (fun p => U p - V p - E) i j = op2 alpha beta dx A B0 B1 U i j - op2 alpha beta dx A B0 B1 V i j - alpha * A [i, j] * E := by
      unfold op2
      ring
    rw [e]
    linarith

/-- the Poisson operator, with a quadratic function along axis 0 to compare with -/
theorem Elliptic2.barrier0 {i0 j0 i1 j1 : Int} {beta D t : T} {dx : Nat → T} {U V : List Int → T} (hi : i0 ≤ i1) (hj : j0 ≤ j1)
    (he : Elliptic2 i0 j0 i1 j1 0 beta dx (fun _ => 1) (fun _ => 1) (fun _ => 1)) (ht : 0 ≤ t)
    (ho : ∀ p, InBounds [(i0 - 1, i1 + 1), (j0 - 1, j1 + 1)] p → ¬ InBounds [(i0, i1), (j0, j1)] p → U p - V p ≤ D)
    (hq : ∀ i j, i0 ≤ i → i ≤ i1 → j0 ≤ j → j ≤ j1 → op2 0 beta dx (fun _ => 1) (fun _ => 1) (fun _ => 1) U i j - op2 0 beta dx (fun _ => 1) (fun _ => 1) (fun _ => 1) V i j ≤ t) :
    ∀ i j, i0 ≤ i → i ≤ i1 → j0 ≤ j → j ≤ j1 → U [i, j] - V [i, j] ≤ D + t * (((i - i0 + 1 : Int) : T) * ((i1 + 1 - i : Int) : T) * (dx 0 * dx 0)) / (2 * beta) := by
  intro i j h0 h1 h2 h3
  have hb := he.beta
  have := he.compare (U := fun p => U p - V p - (D + t * ((((p.getD 0 0) - i0 + 1 : Int) : T) * ((i1 + 1 - (p.getD 0 0) : Int) : T) * (dx 0 * dx 0)) / (2 * beta))) hi hj ?_ ?_ [i, j] (inBounds2.2 ⟨i, j, rfl, by omega⟩)
  · simp only [List.getD_cons_zero, List.getD_cons_succ] at this
    linarith
  · intro p hw hbx
    have a := ho p hw hbx
    obtain ⟨i, j, rfl, hw⟩ := inBounds2.1 hw
    have q : 0 ≤ t * (((i - i0 + 1 : Int) : T) * ((i1 + 1 - i : Int) : T) * (dx 0 * dx 0)) / (2 * beta) := by
      have q0 : (0 : T) ≤ ((i - i0 + 1 : Int) : T) := by exact_mod_cast (by omega : (0 : Int) ≤ i - i0 + 1)
      have q1 : (0 : T) ≤ ((i1 + 1 - i : Int) : T) := by exact_mod_cast (by omega : (0 : Int) ≤ i1 + 1 - i)
      have q2 := mul_self_nonneg (dx 0)
      positivity
    simp only [List.getD_cons_zero, List.getD_cons_succ]
    linarith
  · intro i j h0 h1 h2 h3
    have a := hq i j h0 h1 h2 h3
    have e : op2 0 beta dx (fun _ => 1) (fun _ => 1) (fun _ => 1) (fun p => U p - V p - (D + t * ((((p.getD 0 0) - i0 + 1 : Int) : T) * ((i1 + 1 - (p.getD 0 0) : Int) : T) * (dx 0 * dx 0)) / (2 * beta))) i j = op2 0 beta dx (fun _ => 1) (fun _ => 1) (fun _ => 1) U i j - op2 0 beta dx (fun _ => 1) (fun _ => 1) (fun _ => 1) V i j - t := by
      unfold op2
      simp only [List.getD_cons_zero, List.getD_cons_succ]
      have hd := he.dx0
      have hd1 := he.dx1
      push_cast
      field_simp
      ring
    rw [e]
    linarith

/-- the Poisson operator, with a quadratic function along axis 1 to compare with -/
theorem Elliptic2.barrier1 {i0 j0 i1 j1 : Int} {beta D t : T} {dx : Nat → T} {U V : List Int → T} (hi : i0 ≤ i1) (hj : j0 ≤ j1)
    (he : Elliptic2 i0 j0 i1 j1 0 beta dx (fun _ => 1) (fun _ => 1) (fun _ => 1)) (ht : 0 ≤ t)
    (ho : ∀ p, InBounds [(i0 - 1, i1 + 1), (j0 - 1, j1 + 1)] p → ¬ InBounds [(i0, i1), (j0, j1)] p → U p - V p ≤ D)
    (hq : ∀ i j, i0 ≤ i → i ≤ i1 → j0 ≤ j → j ≤ j1 → op2 0 beta dx (fun _ => 1) (fun _ => 1) (fun _ => 1) U i j - op2 0 beta dx (fun _ => 1) (fun _ => 1) (fun _ => 1) V i j ≤ t) :
    ∀ i j, i0 ≤ i → i ≤ i1 → j0 ≤ j → j ≤ j1 → U [i, j] - V [i, j] ≤ D + t * (((j - j0 + 1 : Int) : T) * ((j1 + 1 - j : Int) : T) * (dx 1 * dx 1)) / (2 * beta) := by
  intro i j h0 h1 h2 h3
  have hb := he.beta
  have := he.compare (U := fun p => U p - V p - (D + t * ((((p.getD 1 0) - j0 + 1 : Int) : T) * ((j1 + 1 - (p.getD 1 0) : Int) : T) * (dx 1 * dx 1)) / (2 * beta))) hi hj ?_ ?_ [i, j] (inBounds2.2 ⟨i, j, rfl, by omega⟩)
  · simp only [List.getD_cons_zero, List.getD_cons_succ] at this
    linarith
  · intro p hw hbx
    have a := ho p hw hbx
    obtain ⟨i, j, rfl, hw⟩ := inBounds2.1 hw
    have q : 0 ≤ t * (((j - j0 + 1 : Int) : T) * ((j1 + 1 - j : Int) : T) * (dx 1 * dx 1)) / (2 * beta) := by
      have q0 : (0 : T) ≤ ((j - j0 + 1 : Int) : T) := by exact_mod_cast (by omega : (0 : Int) ≤ j - j0 + 1)
      have q1 : (0 : T) ≤ ((j1 + 1 - j : Int) : T) := by exact_mod_cast (by omega : (0 : Int) ≤ j1 + 1 - j)
      have q2 := mul_self_nonneg (dx 1)
      positivity
    simp only [List.getD_cons_zero, List.getD_cons_succ]
    linarith
  · intro i j h0 h1 h2 h3
    have a := hq i j h0 h1 h2 h3
    have e : op2 0 beta dx (fun _ => 1) (fun _ => 1) (fun _ => 1) (fun p => U p - V p - (D + t * ((((p.getD 1 0) - j0 + 1 : Int) : T) * ((j1 + 1 - (p.getD 1 0) : Int) : T) * (dx 1 * dx 1)) / (2 * beta))) i j = op2 0 beta dx (fun _ => 1) (fun _ => 1) (fun _ => 1) U i j - op2 0 beta dx (fun _ => 1) (fun _ => 1) (fun _ => 1) V i j - t := by
      unfold op2
      simp only [List.getD_cons_zero, List.getD_cons_succ]
      have hd := he.dx1
      have hd0 := he.dx0
      push_cast
      field_simp
      ring
    rw [e]
    linarith

theorem InBounds.wide3 {i0 j0 k0 i1 j1 k1 : Int} {p : List Int} (h : InBounds [(i0, i1), (j0, j1), (k0, k1)] p) : InBounds [(i0 - 1, i1 + 1), (j0 - 1, j1 + 1), (k0 - 1, k1 + 1)] p := by
  obtain ⟨i, j, k, rfl, h⟩ := inBounds3.1 h
  exact inBounds3.2 ⟨i, j, k, rfl, by omega⟩

/-- comparison with 0: it is enough to look at the layer of cells around the box -/
theorem Elliptic3.compare {i0 j0 k0 i1 j1 k1 : Int} {alpha beta : T} {dx : Nat → T} {A B0 B1 B2 U : List Int → T} (hi : i0 ≤ i1) (hj : j0 ≤ j1) (hk : k0 ≤ k1)
    (he : Elliptic3 i0 j0 k0 i1 j1 k1 alpha beta dx A B0 B1 B2) (ho : ∀ p, InBounds [(i0 - 1, i1 + 1), (j0 - 1, j1 + 1), (k0 - 1, k1 + 1)] p → ¬ InBounds [(i0, i1), (j0, j1), (k0, k1)] p → U p ≤ 0)
    (hq : ∀ i j k, i0 ≤ i → i ≤ i1 → j0 ≤ j → j ≤ j1 → k0 ≤ k → k ≤ k1 → op3 alpha beta dx A B0 B1 B2 U i j k ≤ 0) : ∀ p, InBounds [(i0, i1), (j0, j1), (k0, k1)] p → U p ≤ 0 := by
  classical
  let W : List Int → T := fun p => if InBounds [(i0 - 1, i1 + 1), (j0 - 1, j1 + 1), (k0 - 1, k1 + 1)] p then U p else 0
  have w : ∀ p, InBounds [(i0 - 1, i1 + 1), (j0 - 1, j1 + 1), (k0 - 1, k1 + 1)] p → W p = U p := fun p hp => if_pos hp
  have hD : ∀ p, ¬ InBounds [(i0, i1), (j0, j1), (k0, k1)] p → (fun p => max (W p - 0) 0) p = 0 := fun p hp => by
    refine max_eq_right ?_
    rw [sub_zero]
    by_cases hw : InBounds [(i0 - 1, i1 + 1), (j0 - 1, j1 + 1), (k0 - 1, k1 + 1)] p
    · rw [w p hw]; exact ho p hw hp
    · exact (if_neg hw).le
  have e := weak3 (alpha := alpha) (beta := beta) (dx := dx) (A := A) (B0 := B0) (B1 := B1) (B2 := B2) (U := W) hi hj hk hD
  have z : (sum i0 i1 fun i => sum j0 j1 fun j => sum k0 k1 fun k => max (W [i, j, k] - 0) 0 * op3 alpha beta dx A B0 B1 B2 W i j k) ≤ 0 := by
    have : 0 ≤ -(sum i0 i1 fun i => sum j0 j1 fun j => sum k0 k1 fun k => max (W [i, j, k] - 0) 0 * op3 alpha beta dx A B0 B1 B2 W i j k) := by
      simp only [← sum_neg]
      exact sum_nonneg fun i h0 h1 => sum_nonneg fun j h2 h3 => sum_nonneg fun k h4 h5 => by
        have o : op3 alpha beta dx A B0 B1 B2 W i j k = op3 alpha beta dx A B0 B1 B2 U i j k := by
          unfold op3
          rw [w [i, j, k] (inBounds3.2 ⟨i, j, k, rfl, by omega⟩), w [i + 1, j, k] (inBounds3.2 ⟨i + 1, j, k, rfl, by omega⟩), w [i - 1, j, k] (inBounds3.2 ⟨i - 1, j, k, rfl, by omega⟩), w [i, j + 1, k] (inBounds3.2 ⟨i, j + 1, k, rfl, by omega⟩), w [i, j - 1, k] (inBounds3.2 ⟨i, j - 1, k, rfl, by omega⟩), w [i, j, k + 1] (inBounds3.2 ⟨i, j, k + 1, rfl, by omega⟩), w [i, j, k - 1] (inBounds3.2 ⟨i, j, k - 1, rfl, by omega⟩)]
        have := mul_nonneg (le_max_right (W [i, j, k] - 0) 0) (neg_nonneg.2 (hq i j k h0 h1 h2 h3 h4 h5))
        rwa [← o, mul_neg] at this
    linarith
  intro p hp
  have := he.zero hD ((he.cut (U := W) (M := 0) (Or.inl le_rfl)).trans (e ▸ z)) p hp
  have q : W p ≤ 0 := by
    have := le_of_le_of_eq (le_max_left _ _) this
    rwa [sub_zero] at this
  rwa [w p (InBounds.wide3 hp)] at q

/-- stability: fields that differ by at most `E` around the box, and their images by at most `c E`, differ by at most `E` -/
theorem Elliptic3.near {i0 j0 k0 i1 j1 k1 : Int} {alpha beta c E : T} {dx : Nat → T} {A B0 B1 B2 U V : List Int → T} (hi : i0 ≤ i1) (hj : j0 ≤ j1) (hk : k0 ≤ k1)
    (he : Elliptic3 i0 j0 k0 i1 j1 k1 alpha beta dx A B0 B1 B2) (hE : 0 ≤ E) (hc : ∀ i j k, i0 ≤ i → i ≤ i1 → j0 ≤ j → j ≤ j1 → k0 ≤ k → k ≤ k1 → c ≤ alpha * A [i, j, k])
    (ho : ∀ p, InBounds [(i0 - 1, i1 + 1), (j0 - 1, j1 + 1), (k0 - 1, k1 + 1)] p → ¬ InBounds [(i0, i1), (j0, j1), (k0, k1)] p → U p - V p ≤ E)
    (hq : ∀ i j k, i0 ≤ i → i ≤ i1 → j0 ≤ j → j ≤ j1 → k0 ≤ k → k ≤ k1 → op3 alpha beta dx A B0 B1 B2 U i j k - op3 alpha beta dx A B0 B1 B2 V i j k ≤ c * E) : ∀ p, InBounds [(i0, i1), (j0, j1), (k0, k1)] p → U p - V p ≤ E := by
  intro p hp
  have := he.compare (U := fun p => U p - V p - E) hi hj hk (fun p hw hb => by have := ho p hw hb; linarith) (fun i j k h0 h1 h2 h3 h4 h5 => ?_) p hp
  · linarith
  · have a := hq i j k h0 h1 h2 h3 h4 h5
    have b := mul_le_mul_of_nonneg_right (hc i j k h0 h1 h2 h3 h4 h5) hE
    have e : op3 alpha beta dx A B0 B1 B2 (fun p => U p - V p - E) i j k = op3 alpha beta dx A B0 B1 B2 U i j k - op3 alpha beta dx A B0 B1 B2 V i j k - alpha * A [i, j, k] * E := by
      unfold op3
      ring
    rw [e]
    linarith

/-- the Poisson operator, with a quadratic function along axis 0 to compare with -/
theorem Elliptic3.barrier0 {i0 j0 k0 i1 j1 k1 : Int} {beta D t : T} {dx : Nat → T} {U V : List Int → T} (hi : i0 ≤ i1) (hj : j0 ≤ j1) (hk : k0 ≤ k1)
    (he : Elliptic3 i0 j0 k0 i1 j1 k1 0 beta dx (fun _ => 1) (fun _ => 1) (fun _ => 1) (fun _ => 1)) (ht : 0 ≤ t)
    (ho : ∀ p, InBounds [(i0 - 1, i1 + 1), (j0 - 1, j1 + 1), (k0 - 1, k1 + 1)] p → ¬ InBounds [(i0, i1), (j0, j1), (k0, k1)] p → U p - V p ≤ D)
    (hq : ∀ i j k, i0 ≤ i → i ≤ i1 → j0 ≤ j → j ≤ j1 → k0 ≤ k → k ≤ k1 → op3 0 beta dx (fun _ => 1) (fun _ => 1) (fun _ => 1) (fun _ => 1) U i j k - op3 0 beta dx (fun _ => 1) (fun _ => 1) (fun _ => 1) (fun _ => 1) V i j k ≤ t) :
    ∀ i j k, i0 ≤ i → i ≤ i1 → j0 ≤ j → j ≤ j1 → k0 ≤ k → k ≤ k1 → U [i, j, k] - V [i, j, k] ≤ D + t * (((i - i0 + 1 : Int) : T) * ((i1 + 1 - i : Int) : T) * (dx 0 * dx 0)) / (2 * beta) := by
  intro i j k h0 h1 h2 h3 h4 h5
  have hb := he.beta
  have := he.compare (U := fun p => U p - V p - (D + t * ((((p.getD 0 0) - i0 + 1 : Int) : T) * ((i1 + 1 - (p.getD 0 0) : Int) : T) * (dx 0 * dx 0)) / (2 * beta))) hi hj hk ?_ ?_ [i, j, k] (inBounds3.2 ⟨i, j, k, rfl, by omega⟩)
  · simp only [List.getD_cons_zero, List.getD_cons_succ] at this
    linarith
  · intro p hw hbx
    have a := ho p hw hbx
    obtain ⟨i, j, k, rfl, hw⟩ := inBounds3.1 hw
    have q : 0 ≤ t * (((i - i0 + 1 : Int) : T) * ((i1 + 1 - i : Int) : T) * (dx 0 * dx 0)) / (2 * beta) := by
      have q0 : (0 : T) ≤ ((i - i0 + 1 : Int) : T) := by exact_mod_cast (by omega : (0 : Int) ≤ i - i0 + 1)
      have q1 : (0 : T) ≤ ((i1 + 1 - i : Int) : T) := by exact_mod_cast (by omega : (0 : Int) ≤ i1 + 1 - i)
      have q2 := mul_self_nonneg (dx 0)
      positivity
    simp only [List.getD_cons_zero, List.getD_cons_succ]
    linarith
  · intro i j k h0 h1 h2 h3 h4 h5
    have a := hq i j k h0 h1 h2 h3 h4 h5
    have e : op3 0 beta dx (fun _ => 1) (fun _ => 1) (fun _ => 1) (fun _ => 1) (fun p => U p - V p - (D + t * ((((p.getD 0 0) - i0 + 1 : Int) : T) * ((i1 + 1 - (p.getD 0 0) : Int) : T) * (dx 0 * dx 0)) / (2 * beta))) i j k = op3 0 beta dx (fun _ => 1) (fun _ => 1) (fun _ => 1) (fun _ => 1) U i j k - op3 0 beta dx (fun _ => 1) (fun _ => 1) (fun _ => 1) (fun _ => 1) V i j k - t := by
      unfold op3
      simp only [List.getD_cons_zero, List.getD_cons_succ]
      have hd := he.dx0
      have hd1 := he.dx1
      have hd2 := he.dx2
      push_cast
      field_simp
      ring
    rw [e]
    linarith

/-- the Poisson operator, with a quadratic function along axis 1 to compare with -/
theorem Elliptic3.barrier1 {i0 j0 k0 i1 j1 k1 : Int} {beta D t : T} {dx : Nat → T} {U V : List Int → T} (hi : i0 ≤ i1) (hj : j0 ≤ j1) (hk : k0 ≤ k1)
    (he : Elliptic3 i0 j0 k0 i1 j1 k1 0 beta dx (fun _ => 1) (fun _ => 1) (fun _ => 1) (fun _ => 1)) (ht : 0 ≤ t)
    (ho : ∀ p, InBounds [(i0 - 1, i1 + 1), (j0 - 1, j1 + 1), (k0 - 1, k1 + 1)] p → ¬ InBounds [(i0, i1), (j0, j1), (k0, k1)] p → U p - V p ≤ D)
    (hq : ∀ i j k, i0 ≤ i → i ≤ i1 → j0 ≤ j → j ≤ j1 → k0 ≤ k → k ≤ k1 → op3 0 beta dx (fun _ => 1) (fun _ => 1) (fun _ => 1) (fun _ => 1) U i j k - op3 0 beta dx (fun _ => 1) (fun _ => 1) (fun _ => 1) (fun _ => 1) V i j k ≤ t) :
    ∀ i j k, i0 ≤ i → i ≤ i1 → j0 ≤ j → j ≤ j1 → k0 ≤ k → k ≤ k1 → U [i, j, k] - V [i, j, k] ≤ D + t * (((j - j0 + 1 : Int) : T) * ((j1 + 1 - j : Int) : T) * (dx 1 * dx 1)) / (2 * beta) := by
  intro i j k h0 h1 h2 h3 h4 h5
  have hb := he.beta
  have := he.compare (U := fun p => U p - V p - (D + t * ((((p.getD 1 0) - j0 + 1 : Int) : T) * ((j1 + 1 - (p.getD 1 0) : Int) : T) * (dx 1 * dx 1)) / (2 * beta))) hi hj hk ?_ ?_ [i, j, k] (inBounds3.2 ⟨i, j, k, rfl, by omega⟩)
  · simp only [List.getD_cons_zero, List.getD_cons_succ] at this
    linarith
  · intro p hw hbx
    have a := ho p hw hbx
    obtain ⟨i, j, k, rfl, hw⟩ := inBounds3.1 hw
    have q : 0 ≤ t * (((j - j0 + 1 : Int) : T) * ((j1 + 1 - j : Int) : T) * (dx 1 * dx 1)) / (2 * beta) := by
      have q0 : (0 : T) ≤ ((j - j0 + 1 : Int) : T) := by exact_mod_cast (by omega : (0 : Int) ≤ j - j0 + 1)
      have q1 : (0 : T) ≤ ((j1 + 1 - j : Int) : T) := by exact_mod_cast (by omega : (0 : Int) ≤ j1 + 1 - j)
      have q2 := mul_self_nonneg (dx 1)
      positivity
    simp only [List.getD_cons_zero, List.getD_cons_succ]
    linarith
  · intro i j k h0 h1 h2 h3 h4 h5
    have a := hq i j k h0 h1 h2 h3 h4 h5
    have e : op3 0 beta dx (fun _ => 1) (fun _ => 1) (fun _ => 1) (fun _ => 1) (fun p => U p - V p - (D + t * ((((p.getD 1 0) - j0 + 1 : Int) : T) * ((j1 + 1 - (p.getD 1 0) : Int) : T) * (dx 1 * dx 1)) / (2 * beta))) i j k = op3 0 beta dx (fun _ => 1) (fun _ => 1) (fun _ => 1) (fun _ => 1) U i j k - op3 0 beta dx (fun _ => 1) (fun _ => 1) (fun _ => 1) (fun _ => 1) V i j k - t := by
      unfold op3
      simp only [List.getD_cons_zero, List.getD_cons_succ]
      have hd := he.dx1
      have hd0 := he.dx0
      have hd2 := he.dx2
      push_cast
      field_simp
      ring
    rw [e]
    linarith

/-- the Poisson operator, with a quadratic function along axis 2 to compare with -/
theorem Elliptic3.barrier2 {i0 j0 k0 i1 j1 k1 : Int} {beta D t : T} {dx : Nat → T} {U V : List Int → T} (hi : i0 ≤ i1) (hj : j0 ≤ j1) (hk : k0 ≤ k1)
    (he : Elliptic3 i0 j0 k0 i1 j1 k1 0 beta dx (fun _ => 1) (fun _ => 1) (fun _ => 1) (fun _ => 1)) (ht : 0 ≤ t)
    (ho : ∀ p, InBounds [(i0 - 1, i1 + 1), (j0 - 1, j1 + 1), (k0 - 1, k1 + 1)] p → ¬ InBounds [(i0, i1), (j0, j1), (k0, k1)] p → U p - V p ≤ D)
    (hq : ∀ i j k, i0 ≤ i → i ≤ i1 → j0 ≤ j → j ≤ j1 → k0 ≤ k → k ≤ k1 → op3 0 beta dx (fun _ => 1) (fun _ => 1) (fun _ => 1) (fun _ => 1) U i j k - op3 0 beta dx (fun _ => 1) (fun _ => 1) (fun _ => 1) (fun _ => 1) V i j k ≤ t) :
    ∀ i j k, i0 ≤ i → i ≤ i1 → j0 ≤ j → j ≤ j1 → k0 ≤ k → k ≤ k1 → U [i, j, k] - V [i, j, k] ≤ D + t * (((k - k0 + 1 : Int) : T) * ((k1 + 1 - k : Int) : T) * (dx 2 * dx 2)) / (2 * beta) := by
  intro i j k h0 h1 h2 h3 h4 h5
  have hb := he.beta
  have := he.compare (U := fun p => U p - V p - (D + t * ((((p.getD 2 0) - k0 + 1 : Int) : T) * ((k1 + 1 - (p.getD 2 0) : Int) : T) * (dx 2 * dx 2)) / (2 * beta))) hi hj hk ?_ ?_ [i, j, k] (inBounds3.2 ⟨i, j, k, rfl, by omega⟩)
  · simp only [List.getD_cons_zero, List.getD_cons_succ] at this
    linarith
  · intro p hw hbx
    have a := ho p hw hbx
    obtain ⟨i, j, k, rfl, hw⟩ := inBounds3.1 hw
    have q : 0 ≤ t * (((k - k0 + 1 : Int) : T) * ((k1 + 1 - k : Int) : T) * (dx 2 * dx 2)) / (2 * beta) := by
      have q0 : (0 : T) ≤ ((k - k0 + 1 : Int) : T) := by exact_mod_cast (by omega : (0 : Int) ≤ k - k0 + 1)
      have q1 : (0 : T) ≤ ((k1 + 1 - k : Int) : T) := by exact_mod_cast (by omega : (0 : Int) ≤ k1 + 1 - k)
      have q2 := mul_self_nonneg (dx 2)
      positivity
    simp only [List.getD_cons_zero, List.getD_cons_succ]
    linarith
  · intro i j k h0 h1 h2 h3 h4 h5
    have a := hq i j k h0 h1 h2 h3 h4 h5
    have e : op3 0 beta dx (fun _ => 1) (fun _ => 1) (fun _ => 1) (fun _ => 1) (fun p => U p - V p - (D + t * ((((p.getD 2 0) - k0 + 1 : Int) : T) * ((k1 + 1 - (p.getD 2 0) : Int) : T) * (dx 2 * dx 2)) / (2 * beta))) i j k = op3 0 beta dx (fun _ => 1) (fun _ => 1) (fun _ => 1) (fun _ => 1) U i j k - op3 0 beta dx (fun _ => 1) (fun _ => 1) (fun _ => 1) (fun _ => 1) V i j k - t := by
      unfold op3
      simp only [List.getD_cons_zero, List.getD_cons_succ]
      have hd := he.dx2
      have hd0 := he.dx0
      have hd1 := he.dx1
      push_cast
      field_simp
      ring
    rw [e]
    linarith

end Verif.F
