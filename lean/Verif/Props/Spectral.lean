import Verif.Lemmas.SpectralEx

/-
C108: bounds of the operator of the flux and apply kernels in the mean square norm.
-/

namespace Verif
open Spec

set_option linter.unusedVariables false
set_option linter.unusedSectionVars false

variable {T : Type} [Field T] [LinearOrder T] [IsStrictOrderedRing T]

/-- 1D, diffusion operator with cell coefficients: for `U` zero outside the box `∑ U R` lies between `low` and `L` times `∑ U U`, and `∑ R R` between the squares of these times `∑ U U`. -/
theorem C108_v1_1d {i0 i1 agcw gcw rgcw : Int} {alpha beta : T} {dx : Nat → T} {a u b0 f0 res : Ptr} {β1 β2 : Nat → Backend} {m : Mem T} {A B0 U : List Int → T} {amin bmin L : T}
    (hβ1 : ∀ n, ValidBackend (β1 n)) (hβ2 : ∀ n, ValidBackend (β2 n)) (hi : i0 ≤ i1) (hg : 1 ≤ gcw) (hagcw : 0 ≤ agcw) (hrgcw : 0 ≤ rgcw)
    (h : F.Args m [(F.cell1d a i0 i1 agcw), (F.cell1d u i0 i1 gcw), (F.face1d b0 i0 i1 0)] [(F.face1d f0 i0 i1 0), (F.cell1d res i0 i1 rgcw)])
    (hr : F.Apart (F.cell1d res i0 i1 rgcw) (F.face1d f0 i0 i1 0))
    (hA : F.Holds m (F.cell1d a i0 i1 agcw) A) (hB0 : F.Holds m (F.face1d b0 i0 i1 0) B0) (hU : F.Holds m (F.cell1d u i0 i1 gcw) U)
    (hU0 : ∀ p, ¬ F.InBounds [(i0, i1)] p → U p = 0) (he : F.Elliptic1 i0 i1 alpha beta dx A B0)
    (hL : F.Low1 i0 i1 alpha A B0 amin bmin) (hT : F.Top1 i0 i1 alpha beta dx A B0 L) :
    ∃ m1 m2, ∃ R : List Int → T, Cuda.flux1d i0 i1 dx b0 gcw u f0 β1 m = .ok m1 ∧ Cuda.diffusionV1Apply1d i0 i1 alpha beta dx agcw a gcw u f0 rgcw res β2 m1 = .ok m2 ∧
      (∀ p, F.InBounds [(i0, i1)] p → F.El m2 (F.cell1d res i0 i1 rgcw) p (R p)) ∧
      F.low1 i0 i1 beta dx amin bmin * (F.sum i0 i1 fun i => U [i] * U [i]) ≤ (F.sum i0 i1 fun i => U [i] * R [i]) ∧ (F.sum i0 i1 fun i => U [i] * R [i]) ≤ L * (F.sum i0 i1 fun i => U [i] * U [i]) ∧
      F.low1 i0 i1 beta dx amin bmin * F.low1 i0 i1 beta dx amin bmin * (F.sum i0 i1 fun i => U [i] * U [i]) ≤ (F.sum i0 i1 fun i => R [i] * R [i]) ∧ (F.sum i0 i1 fun i => R [i] * R [i]) ≤ L * L * (F.sum i0 i1 fun i => U [i] * U [i]) := by
  obtain ⟨m1, m2, R, c1, c2, E, hR⟩ := energy_v1_1 (alpha := alpha) (beta := beta) (dx := dx) hβ1 hβ2 hi hg hagcw hrgcw h hr hA hB0 hU
  have e : (F.sum i0 i1 fun i => U [i] * R [i]) = F.form1 i0 i1 alpha beta dx A B0 U U := by
    rw [← F.weak1 hi hU0]
    exact F.sum_congr fun i h0 h1 => (by rw [hR i h0 h1])
  obtain ⟨E0, hE, hEz⟩ := F.cut_off (F.InBounds [(i0, i1)]) R
  have qe : (F.sum i0 i1 fun i => E0 [i] * E0 [i]) = (F.sum i0 i1 fun i => R [i] * R [i]) := F.sum_congr fun i h0 h1 => by rw [hE _ (F.inBounds1.2 ⟨i, rfl, by omega⟩)]
  have hq : F.form1 i0 i1 alpha beta dx A B0 U E0 = (F.sum i0 i1 fun i => E0 [i] * E0 [i]) := by
    rw [← F.weak1 hi hEz]
    exact F.sum_congr fun i h0 h1 => by rw [← hR i h0 h1, hE _ (F.inBounds1.2 ⟨i, rfl, by omega⟩)]
  have r := F.form1_res hi he hT hEz hq
  have lo := F.form1_low (dx := dx) hi he.beta.le hL hU0
  have up := F.form1_top hi he hT hU0
  rw [qe] at r
  refine ⟨m1, m2, R, c1, c2, E, by rw [e]; exact lo, by rw [e]; exact up, ?_, ?_⟩
  · have l0 : 0 ≤ F.low1 i0 i1 beta dx amin bmin := add_nonneg hL.amin0 (mul_nonneg he.beta.le (mul_nonneg hL.bmin0 (by
      have : ∀ x : T, 0 ≤ 8 / (x * x) := fun x => div_nonneg (by norm_num) (mul_self_nonneg x)
      exact this _)))
    have sq := F.sq1 (X := R) (Y := U) (t := F.low1 i0 i1 beta dx amin bmin) (i0 := i0) (i1 := i1)
    have p : 0 ≤ (F.sum i0 i1 fun i => (R [i] - F.low1 i0 i1 beta dx amin bmin * U [i]) * (R [i] - F.low1 i0 i1 beta dx amin bmin * U [i])) := F.sum_nonneg fun i _ _ => mul_self_nonneg _
    have c : (F.sum i0 i1 fun i => R [i] * U [i]) = (F.sum i0 i1 fun i => U [i] * R [i]) := F.sum_congr fun i h0 h1 => mul_comm _ _
    rw [sq, c, e] at p
    have := mul_le_mul_of_nonneg_left lo l0
    linarith
  · have := mul_le_mul_of_nonneg_left up (F.Top1.pos hi he hT).le
    linarith

example : ∃ m1 m2, ∃ R : List Int → Rat, Cuda.flux1d 0 3 exDx ⟨2, 0⟩ 2 ⟨1, 0⟩ ⟨5, 0⟩ (fun _ => revBackend) (exDir 1 5 1) = .ok m1 ∧ Cuda.diffusionV1Apply1d 0 3 3 2 exDx 1 ⟨0, 0⟩ 2 ⟨1, 0⟩ ⟨5, 0⟩ 1 ⟨8, 0⟩ (fun _ => seqBackend) m1 = .ok m2 ∧
      (∀ p, F.InBounds [(0, 3)] p → F.El m2 (F.cell1d ⟨8, 0⟩ 0 3 1) p (R p)) ∧
      F.low1 (T := Rat) 0 3 2 exDx 0 14 * (F.sum 0 3 fun i => (exIns 1 5) [i] * (exIns 1 5) [i]) ≤ (F.sum 0 3 fun i => (exIns 1 5) [i] * R [i]) ∧ (F.sum 0 3 fun i => (exIns 1 5) [i] * R [i]) ≤ 100000 * (F.sum 0 3 fun i => (exIns 1 5) [i] * (exIns 1 5) [i]) ∧
      F.low1 (T := Rat) 0 3 2 exDx 0 14 * F.low1 (T := Rat) 0 3 2 exDx 0 14 * (F.sum 0 3 fun i => (exIns 1 5) [i] * (exIns 1 5) [i]) ≤ (F.sum 0 3 fun i => R [i] * R [i]) ∧ (F.sum 0 3 fun i => R [i] * R [i]) ≤ 100000 * 100000 * (F.sum 0 3 fun i => (exIns 1 5) [i] * (exIns 1 5) [i]) :=
  C108_v1_1d (T := Rat) (fun _ => revBackend_ok) (fun _ => seqBackend_ok) (by decide) (by decide) (by decide) (by decide) (exDir_args (by ex_args)) (apart_blk (by decide))
    (exDir_rd (by decide) (exRat_ok rfl (by decide) (by decide))) (exDir_rd (by decide) (exRat_ok rfl (by decide) (by decide))) exDir_u1 exIns_zero1 exEll_v1_1 exLow_v1_1 exTop_v1_1

/-- 1D, diffusion operator with constant reaction: for `U` zero outside the box `∑ U R` lies between `low` and `L` times `∑ U U`, and `∑ R R` between the squares of these times `∑ U U`. -/
theorem C108_v2_1d {i0 i1 gcw rgcw : Int} {alpha beta : T} {dx : Nat → T} {u b0 f0 res : Ptr} {β1 β2 : Nat → Backend} {m : Mem T} {B0 U : List Int → T} {amin bmin L : T}
    (hβ1 : ∀ n, ValidBackend (β1 n)) (hβ2 : ∀ n, ValidBackend (β2 n)) (hi : i0 ≤ i1) (hg : 1 ≤ gcw) (hrgcw : 0 ≤ rgcw)
    (h : F.Args m [(F.cell1d u i0 i1 gcw), (F.face1d b0 i0 i1 0)] [(F.face1d f0 i0 i1 0), (F.cell1d res i0 i1 rgcw)])
    (hr : F.Apart (F.cell1d res i0 i1 rgcw) (F.face1d f0 i0 i1 0))
    (hB0 : F.Holds m (F.face1d b0 i0 i1 0) B0) (hU : F.Holds m (F.cell1d u i0 i1 gcw) U)
    (hU0 : ∀ p, ¬ F.InBounds [(i0, i1)] p → U p = 0) (he : F.Elliptic1 i0 i1 alpha beta dx (fun _ => 1) B0)
    (hL : F.Low1 i0 i1 alpha (fun _ => 1) B0 amin bmin) (hT : F.Top1 i0 i1 alpha beta dx (fun _ => 1) B0 L) :
    ∃ m1 m2, ∃ R : List Int → T, Cuda.flux1d i0 i1 dx b0 gcw u f0 β1 m = .ok m1 ∧ Cuda.diffusionV2Apply1d i0 i1 alpha beta dx gcw u f0 rgcw res β2 m1 = .ok m2 ∧
      (∀ p, F.InBounds [(i0, i1)] p → F.El m2 (F.cell1d res i0 i1 rgcw) p (R p)) ∧
      F.low1 i0 i1 beta dx amin bmin * (F.sum i0 i1 fun i => U [i] * U [i]) ≤ (F.sum i0 i1 fun i => U [i] * R [i]) ∧ (F.sum i0 i1 fun i => U [i] * R [i]) ≤ L * (F.sum i0 i1 fun i => U [i] * U [i]) ∧
      F.low1 i0 i1 beta dx amin bmin * F.low1 i0 i1 beta dx amin bmin * (F.sum i0 i1 fun i => U [i] * U [i]) ≤ (F.sum i0 i1 fun i => R [i] * R [i]) ∧ (F.sum i0 i1 fun i => R [i] * R [i]) ≤ L * L * (F.sum i0 i1 fun i => U [i] * U [i]) := by
  obtain ⟨m1, m2, R, c1, c2, E, hR⟩ := energy_v2_1 (alpha := alpha) (beta := beta) (dx := dx) hβ1 hβ2 hi hg hrgcw h hr hB0 hU
  have e : (F.sum i0 i1 fun i => U [i] * R [i]) = F.form1 i0 i1 alpha beta dx (fun _ => 1) B0 U U := by
    rw [← F.weak1 hi hU0]
    exact F.sum_congr fun i h0 h1 => (by rw [hR i h0 h1])
  obtain ⟨E0, hE, hEz⟩ := F.cut_off (F.InBounds [(i0, i1)]) R
  have qe : (F.sum i0 i1 fun i => E0 [i] * E0 [i]) = (F.sum i0 i1 fun i => R [i] * R [i]) := F.sum_congr fun i h0 h1 => by rw [hE _ (F.inBounds1.2 ⟨i, rfl, by omega⟩)]
  have hq : F.form1 i0 i1 alpha beta dx (fun _ => 1) B0 U E0 = (F.sum i0 i1 fun i => E0 [i] * E0 [i]) := by
    rw [← F.weak1 hi hEz]
    exact F.sum_congr fun i h0 h1 => by rw [← hR i h0 h1, hE _ (F.inBounds1.2 ⟨i, rfl, by omega⟩)]
  have r := F.form1_res hi he hT hEz hq
  have lo := F.form1_low (dx := dx) hi he.beta.le hL hU0
  have up := F.form1_top hi he hT hU0
  rw [qe] at r
  refine ⟨m1, m2, R, c1, c2, E, by rw [e]; exact lo, by rw [e]; exact up, ?_, ?_⟩
  · have l0 : 0 ≤ F.low1 i0 i1 beta dx amin bmin := add_nonneg hL.amin0 (mul_nonneg he.beta.le (mul_nonneg hL.bmin0 (by
      have : ∀ x : T, 0 ≤ 8 / (x * x) := fun x => div_nonneg (by norm_num) (mul_self_nonneg x)
      exact this _)))
    have sq := F.sq1 (X := R) (Y := U) (t := F.low1 i0 i1 beta dx amin bmin) (i0 := i0) (i1 := i1)
    have p : 0 ≤ (F.sum i0 i1 fun i => (R [i] - F.low1 i0 i1 beta dx amin bmin * U [i]) * (R [i] - F.low1 i0 i1 beta dx amin bmin * U [i])) := F.sum_nonneg fun i _ _ => mul_self_nonneg _
    have c : (F.sum i0 i1 fun i => R [i] * U [i]) = (F.sum i0 i1 fun i => U [i] * R [i]) := F.sum_congr fun i h0 h1 => mul_comm _ _
    rw [sq, c, e] at p
    have := mul_le_mul_of_nonneg_left lo l0
    linarith
  · have := mul_le_mul_of_nonneg_left up (F.Top1.pos hi he hT).le
    linarith

example : ∃ m1 m2, ∃ R : List Int → Rat, Cuda.flux1d 0 3 exDx ⟨2, 0⟩ 2 ⟨1, 0⟩ ⟨5, 0⟩ (fun _ => revBackend) (exDir 1 5 1) = .ok m1 ∧ Cuda.diffusionV2Apply1d 0 3 3 2 exDx 2 ⟨1, 0⟩ ⟨5, 0⟩ 1 ⟨8, 0⟩ (fun _ => seqBackend) m1 = .ok m2 ∧
      (∀ p, F.InBounds [(0, 3)] p → F.El m2 (F.cell1d ⟨8, 0⟩ 0 3 1) p (R p)) ∧
      F.low1 (T := Rat) 0 3 2 exDx 3 14 * (F.sum 0 3 fun i => (exIns 1 5) [i] * (exIns 1 5) [i]) ≤ (F.sum 0 3 fun i => (exIns 1 5) [i] * R [i]) ∧ (F.sum 0 3 fun i => (exIns 1 5) [i] * R [i]) ≤ 100000 * (F.sum 0 3 fun i => (exIns 1 5) [i] * (exIns 1 5) [i]) ∧
      F.low1 (T := Rat) 0 3 2 exDx 3 14 * F.low1 (T := Rat) 0 3 2 exDx 3 14 * (F.sum 0 3 fun i => (exIns 1 5) [i] * (exIns 1 5) [i]) ≤ (F.sum 0 3 fun i => R [i] * R [i]) ∧ (F.sum 0 3 fun i => R [i] * R [i]) ≤ 100000 * 100000 * (F.sum 0 3 fun i => (exIns 1 5) [i] * (exIns 1 5) [i]) :=
  C108_v2_1d (T := Rat) (fun _ => revBackend_ok) (fun _ => seqBackend_ok) (by decide) (by decide) (by decide) (exDir_args (by ex_args)) (apart_blk (by decide))
    (exDir_rd (by decide) (exRat_ok rfl (by decide) (by decide))) exDir_u1 exIns_zero1 exEll_v2_1 exLow_v2_1 exTop_v2_1

/-- 1D, Poisson operator: for `U` zero outside the box `∑ U R` lies between `low` and `4 beta ∑ 1 / h²` times `∑ U U`, and `∑ R R` between the squares of these times `∑ U U`. -/
theorem C108_poisson_1d {i0 i1 gcw rgcw : Int} {beta : T} {dx : Nat → T} {u f0 res : Ptr} {β1 β2 : Nat → Backend} {m : Mem T} {U : List Int → T}
    (hβ1 : ∀ n, ValidBackend (β1 n)) (hβ2 : ∀ n, ValidBackend (β2 n)) (hi : i0 ≤ i1) (hg : 1 ≤ gcw) (hrgcw : 0 ≤ rgcw)
    (h : F.Args m [(F.cell1d u i0 i1 gcw)] [(F.face1d f0 i0 i1 0), (F.cell1d res i0 i1 rgcw)])
    (hr : F.Apart (F.cell1d res i0 i1 rgcw) (F.face1d f0 i0 i1 0))
    (hU : F.Holds m (F.cell1d u i0 i1 gcw) U)
    (hU0 : ∀ p, ¬ F.InBounds [(i0, i1)] p → U p = 0) (he : F.Elliptic1 i0 i1 0 beta dx (fun _ => 1) (fun _ => 1)) :
    ∃ m1 m2, ∃ R : List Int → T, Cuda.poissonFlux1d i0 i1 dx gcw u f0 β1 m = .ok m1 ∧ Cuda.poissonV2Apply1d i0 i1 beta dx f0 rgcw res β2 m1 = .ok m2 ∧
      (∀ p, F.InBounds [(i0, i1)] p → F.El m2 (F.cell1d res i0 i1 rgcw) p (R p)) ∧
      F.low1 i0 i1 beta dx 0 1 * (F.sum i0 i1 fun i => U [i] * U [i]) ≤ (F.sum i0 i1 fun i => U [i] * R [i]) ∧ (F.sum i0 i1 fun i => U [i] * R [i]) ≤ (4 * beta * (1 / (dx 0 * dx 0))) * (F.sum i0 i1 fun i => U [i] * U [i]) ∧
      F.low1 i0 i1 beta dx 0 1 * F.low1 i0 i1 beta dx 0 1 * (F.sum i0 i1 fun i => U [i] * U [i]) ≤ (F.sum i0 i1 fun i => R [i] * R [i]) ∧ (F.sum i0 i1 fun i => R [i] * R [i]) ≤ (4 * beta * (1 / (dx 0 * dx 0))) * (4 * beta * (1 / (dx 0 * dx 0))) * (F.sum i0 i1 fun i => U [i] * U [i]) := by
  obtain ⟨m1, m2, R, c1, c2, E, hR⟩ := energy_p_1 (beta := beta) (dx := dx) hβ1 hβ2 hi hg hrgcw h hr hU
  have e : (F.sum i0 i1 fun i => U [i] * R [i]) = F.form1 i0 i1 0 beta dx (fun _ => 1) (fun _ => 1) U U := by
    rw [← F.weak1 hi hU0]
    exact F.sum_congr fun i h0 h1 => (by rw [hR i h0 h1])
  have hL : F.Low1 i0 i1 0 (fun _ => 1) (fun _ => 1) 0 (1 : T) := ⟨le_rfl, zero_le_one, fun _ _ _ => le_rfl, fun _ _ _ => by simp⟩
  have hT : F.Top1 i0 i1 0 beta dx (fun _ => 1) (fun _ => 1) (4 * beta * (1 / (dx 0 * dx 0))) := fun _ _ _ => le_of_eq (by ring)
  obtain ⟨E0, hE, hEz⟩ := F.cut_off (F.InBounds [(i0, i1)]) R
  have qe : (F.sum i0 i1 fun i => E0 [i] * E0 [i]) = (F.sum i0 i1 fun i => R [i] * R [i]) := F.sum_congr fun i h0 h1 => by rw [hE _ (F.inBounds1.2 ⟨i, rfl, by omega⟩)]
  have hq : F.form1 i0 i1 0 beta dx (fun _ => 1) (fun _ => 1) U E0 = (F.sum i0 i1 fun i => E0 [i] * E0 [i]) := by
    rw [← F.weak1 hi hEz]
    exact F.sum_congr fun i h0 h1 => by rw [← hR i h0 h1, hE _ (F.inBounds1.2 ⟨i, rfl, by omega⟩)]
  have r := F.form1_res hi he hT hEz hq
  have lo := F.form1_low (dx := dx) hi he.beta.le hL hU0
  have up := F.form1_top hi he hT hU0
  rw [qe] at r
  refine ⟨m1, m2, R, c1, c2, E, by rw [e]; exact lo, by rw [e]; exact up, ?_, ?_⟩
  · have l0 : 0 ≤ F.low1 i0 i1 beta dx 0 1 := add_nonneg hL.amin0 (mul_nonneg he.beta.le (mul_nonneg hL.bmin0 (by
      have : ∀ x : T, 0 ≤ 8 / (x * x) := fun x => div_nonneg (by norm_num) (mul_self_nonneg x)
      exact this _)))
    have sq := F.sq1 (X := R) (Y := U) (t := F.low1 i0 i1 beta dx 0 1) (i0 := i0) (i1 := i1)
    have p : 0 ≤ (F.sum i0 i1 fun i => (R [i] - F.low1 i0 i1 beta dx 0 1 * U [i]) * (R [i] - F.low1 i0 i1 beta dx 0 1 * U [i])) := F.sum_nonneg fun i _ _ => mul_self_nonneg _
    have c : (F.sum i0 i1 fun i => R [i] * U [i]) = (F.sum i0 i1 fun i => U [i] * R [i]) := F.sum_congr fun i h0 h1 => mul_comm _ _
    rw [sq, c, e] at p
    have := mul_le_mul_of_nonneg_left lo l0
    linarith
  · have := mul_le_mul_of_nonneg_left up (F.Top1.pos hi he hT).le
    linarith

example : ∃ m1 m2, ∃ R : List Int → Rat, Cuda.poissonFlux1d 0 3 exDx 2 ⟨1, 0⟩ ⟨5, 0⟩ (fun _ => revBackend) (exDir 1 5 1) = .ok m1 ∧ Cuda.poissonV2Apply1d 0 3 2 exDx ⟨5, 0⟩ 1 ⟨8, 0⟩ (fun _ => seqBackend) m1 = .ok m2 ∧
      (∀ p, F.InBounds [(0, 3)] p → F.El m2 (F.cell1d ⟨8, 0⟩ 0 3 1) p (R p)) ∧
      F.low1 (T := Rat) 0 3 2 exDx 0 1 * (F.sum 0 3 fun i => (exIns 1 5) [i] * (exIns 1 5) [i]) ≤ (F.sum 0 3 fun i => (exIns 1 5) [i] * R [i]) ∧ (F.sum 0 3 fun i => (exIns 1 5) [i] * R [i]) ≤ (4 * 2 * (1 / (exDx 0 * exDx 0))) * (F.sum 0 3 fun i => (exIns 1 5) [i] * (exIns 1 5) [i]) ∧
      F.low1 (T := Rat) 0 3 2 exDx 0 1 * F.low1 (T := Rat) 0 3 2 exDx 0 1 * (F.sum 0 3 fun i => (exIns 1 5) [i] * (exIns 1 5) [i]) ≤ (F.sum 0 3 fun i => R [i] * R [i]) ∧ (F.sum 0 3 fun i => R [i] * R [i]) ≤ (4 * 2 * (1 / (exDx 0 * exDx 0))) * (4 * 2 * (1 / (exDx 0 * exDx 0))) * (F.sum 0 3 fun i => (exIns 1 5) [i] * (exIns 1 5) [i]) :=
  C108_poisson_1d (T := Rat) (fun _ => revBackend_ok) (fun _ => seqBackend_ok) (by decide) (by decide) (by decide) (exDir_args (by ex_args)) (apart_blk (by decide))
     exDir_u1 exIns_zero1 exEll_p_1

/-- 2D, diffusion operator with cell coefficients: for `U` zero outside the box `∑ U R` lies between `low` and `L` times `∑ U U`, and `∑ R R` between the squares of these times `∑ U U`. -/
theorem C108_v1_2d {i0 j0 i1 j1 agcw gcw rgcw : Int} {alpha beta : T} {dx : Nat → T} {a u b0 b1 f0 f1 res : Ptr} {β1 β2 : Nat → Backend} {m : Mem T} {A B0 B1 U : List Int → T} {amin bmin L : T}
    (hβ1 : ∀ n, ValidBackend (β1 n)) (hβ2 : ∀ n, ValidBackend (β2 n)) (hi : i0 ≤ i1) (hj : j0 ≤ j1) (hg : 1 ≤ gcw) (hagcw : 0 ≤ agcw) (hrgcw : 0 ≤ rgcw)
    (h : F.Args m [(F.cell2d a i0 j0 i1 j1 agcw), (F.cell2d u i0 j0 i1 j1 gcw), (F.face2d0 b0 i0 j0 i1 j1 0), (F.face2d1 b1 i0 j0 i1 j1 0)] [(F.face2d0 f0 i0 j0 i1 j1 0), (F.face2d1 f1 i0 j0 i1 j1 0), (F.cell2d res i0 j0 i1 j1 rgcw)])
    (hp : F.Apart (F.face2d0 f0 i0 j0 i1 j1 0) (F.face2d1 f1 i0 j0 i1 j1 0))
    (hr : F.Apart (F.cell2d res i0 j0 i1 j1 rgcw) (F.face2d0 f0 i0 j0 i1 j1 0) ∧ F.Apart (F.cell2d res i0 j0 i1 j1 rgcw) (F.face2d1 f1 i0 j0 i1 j1 0))
    (hA : F.Holds m (F.cell2d a i0 j0 i1 j1 agcw) A) (hB0 : F.Holds m (F.face2d0 b0 i0 j0 i1 j1 0) B0) (hB1 : F.Holds m (F.face2d1 b1 i0 j0 i1 j1 0) B1) (hU : F.Holds m (F.cell2d u i0 j0 i1 j1 gcw) U)
    (hU0 : ∀ p, ¬ F.InBounds [(i0, i1), (j0, j1)] p → U p = 0) (he : F.Elliptic2 i0 j0 i1 j1 alpha beta dx A B0 B1)
    (hL : F.Low2 i0 j0 i1 j1 alpha A B0 B1 amin bmin) (hT : F.Top2 i0 j0 i1 j1 alpha beta dx A B0 B1 L) :
    ∃ m1 m2, ∃ R : List Int → T, Cuda.flux2d i0 j0 i1 j1 dx b0 b1 gcw u f0 f1 β1 m = .ok m1 ∧ Cuda.diffusionV1Apply2d i0 i1 j0 j1 alpha beta dx agcw a gcw u f0 f1 rgcw res β2 m1 = .ok m2 ∧
      (∀ p, F.InBounds [(i0, i1), (j0, j1)] p → F.El m2 (F.cell2d res i0 j0 i1 j1 rgcw) p (R p)) ∧
      F.low2 i0 j0 i1 j1 beta dx amin bmin * (F.sum i0 i1 fun i => F.sum j0 j1 fun j => U [i, j] * U [i, j]) ≤ (F.sum i0 i1 fun i => F.sum j0 j1 fun j => U [i, j] * R [i, j]) ∧ (F.sum i0 i1 fun i => F.sum j0 j1 fun j => U [i, j] * R [i, j]) ≤ L * (F.sum i0 i1 fun i => F.sum j0 j1 fun j => U [i, j] * U [i, j]) ∧
      F.low2 i0 j0 i1 j1 beta dx amin bmin * F.low2 i0 j0 i1 j1 beta dx amin bmin * (F.sum i0 i1 fun i => F.sum j0 j1 fun j => U [i, j] * U [i, j]) ≤ (F.sum i0 i1 fun i => F.sum j0 j1 fun j => R [i, j] * R [i, j]) ∧ (F.sum i0 i1 fun i => F.sum j0 j1 fun j => R [i, j] * R [i, j]) ≤ L * L * (F.sum i0 i1 fun i => F.sum j0 j1 fun j => U [i, j] * U [i, j]) := by
  obtain ⟨m1, m2, R, c1, c2, E, hR⟩ := energy_v1_2 (alpha := alpha) (beta := beta) (dx := dx) hβ1 hβ2 hi hj hg hagcw hrgcw h hp hr hA hB0 hB1 hU
  have e : (F.sum i0 i1 fun i => F.sum j0 j1 fun j => U [i, j] * R [i, j]) = F.form2 i0 j0 i1 j1 alpha beta dx A B0 B1 U U := by
    rw [← F.weak2 hi hj hU0]
    exact F.sum_congr fun i h0 h1 => F.sum_congr fun j h2 h3 => (by rw [hR i j h0 h1 h2 h3])
  obtain ⟨E0, hE, hEz⟩ := F.cut_off (F.InBounds [(i0, i1), (j0, j1)]) R
  have qe : (F.sum i0 i1 fun i => F.sum j0 j1 fun j => E0 [i, j] * E0 [i, j]) = (F.sum i0 i1 fun i => F.sum j0 j1 fun j => R [i, j] * R [i, j]) := F.sum_congr fun i h0 h1 => F.sum_congr fun j h2 h3 => by rw [hE _ (F.inBounds2.2 ⟨i, j, rfl, by omega⟩)]
  have hq : F.form2 i0 j0 i1 j1 alpha beta dx A B0 B1 U E0 = (F.sum i0 i1 fun i => F.sum j0 j1 fun j => E0 [i, j] * E0 [i, j]) := by
    rw [← F.weak2 hi hj hEz]
    exact F.sum_congr fun i h0 h1 => F.sum_congr fun j h2 h3 => by rw [← hR i j h0 h1 h2 h3, hE _ (F.inBounds2.2 ⟨i, j, rfl, by omega⟩)]
  have r := F.form2_res hi hj he hT hEz hq
  have lo := F.form2_low (dx := dx) hi hj he.beta.le hL hU0
  have up := F.form2_top hi hj he hT hU0
  rw [qe] at r
  refine ⟨m1, m2, R, c1, c2, E, by rw [e]; exact lo, by rw [e]; exact up, ?_, ?_⟩
  · have l0 : 0 ≤ F.low2 i0 j0 i1 j1 beta dx amin bmin := add_nonneg hL.amin0 (mul_nonneg he.beta.le (mul_nonneg hL.bmin0 (by
      have : ∀ x : T, 0 ≤ 8 / (x * x) := fun x => div_nonneg (by norm_num) (mul_self_nonneg x)
      exact add_nonneg (this _) (this _))))
    have sq := F.sq2 (X := R) (Y := U) (t := F.low2 i0 j0 i1 j1 beta dx amin bmin) (i0 := i0) (i1 := i1) (j0 := j0) (j1 := j1)
    have p : 0 ≤ (F.sum i0 i1 fun i => F.sum j0 j1 fun j => (R [i, j] - F.low2 i0 j0 i1 j1 beta dx amin bmin * U [i, j]) * (R [i, j] - F.low2 i0 j0 i1 j1 beta dx amin bmin * U [i, j])) := F.sum_nonneg fun i _ _ => F.sum_nonneg fun j _ _ => mul_self_nonneg _
    have c : (F.sum i0 i1 fun i => F.sum j0 j1 fun j => R [i, j] * U [i, j]) = (F.sum i0 i1 fun i => F.sum j0 j1 fun j => U [i, j] * R [i, j]) := F.sum_congr fun i h0 h1 => F.sum_congr fun j h2 h3 => mul_comm _ _
    rw [sq, c, e] at p
    have := mul_le_mul_of_nonneg_left lo l0
    linarith
  · have := mul_le_mul_of_nonneg_left up (F.Top2.pos hi hj he hT).le
    linarith

example : ∃ m1 m2, ∃ R : List Int → Rat, Cuda.flux2d 0 1 2 3 exDx ⟨2, 0⟩ ⟨3, 0⟩ 2 ⟨1, 0⟩ ⟨5, 0⟩ ⟨6, 0⟩ (fun _ => revBackend) (exDir 2 5 1) = .ok m1 ∧ Cuda.diffusionV1Apply2d 0 2 1 3 3 2 exDx 1 ⟨0, 0⟩ 2 ⟨1, 0⟩ ⟨5, 0⟩ ⟨6, 0⟩ 1 ⟨8, 0⟩ (fun _ => seqBackend) m1 = .ok m2 ∧
      (∀ p, F.InBounds [(0, 2), (1, 3)] p → F.El m2 (F.cell2d ⟨8, 0⟩ 0 1 2 3 1) p (R p)) ∧
      F.low2 (T := Rat) 0 1 2 3 2 exDx 0 14 * (F.sum 0 2 fun i => F.sum 1 3 fun j => (exIns 2 5) [i, j] * (exIns 2 5) [i, j]) ≤ (F.sum 0 2 fun i => F.sum 1 3 fun j => (exIns 2 5) [i, j] * R [i, j]) ∧ (F.sum 0 2 fun i => F.sum 1 3 fun j => (exIns 2 5) [i, j] * R [i, j]) ≤ 100000 * (F.sum 0 2 fun i => F.sum 1 3 fun j => (exIns 2 5) [i, j] * (exIns 2 5) [i, j]) ∧
      F.low2 (T := Rat) 0 1 2 3 2 exDx 0 14 * F.low2 (T := Rat) 0 1 2 3 2 exDx 0 14 * (F.sum 0 2 fun i => F.sum 1 3 fun j => (exIns 2 5) [i, j] * (exIns 2 5) [i, j]) ≤ (F.sum 0 2 fun i => F.sum 1 3 fun j => R [i, j] * R [i, j]) ∧ (F.sum 0 2 fun i => F.sum 1 3 fun j => R [i, j] * R [i, j]) ≤ 100000 * 100000 * (F.sum 0 2 fun i => F.sum 1 3 fun j => (exIns 2 5) [i, j] * (exIns 2 5) [i, j]) :=
  C108_v1_2d (T := Rat) (fun _ => revBackend_ok) (fun _ => seqBackend_ok) (by decide) (by decide) (by decide) (by decide) (by decide) (exDir_args (by ex_args)) (apart_blk (by decide)) ⟨apart_blk (by decide), apart_blk (by decide)⟩
    (exDir_rd (by decide) (exRat_ok rfl (by decide) (by decide))) (exDir_rd (by decide) (exRat_ok rfl (by decide) (by decide))) (exDir_rd (by decide) (exRat_ok rfl (by decide) (by decide))) exDir_u2 exIns_zero2 exEll_v1_2 exLow_v1_2 exTop_v1_2

/-- 2D, diffusion operator with constant reaction: for `U` zero outside the box `∑ U R` lies between `low` and `L` times `∑ U U`, and `∑ R R` between the squares of these times `∑ U U`. -/
theorem C108_v2_2d {i0 j0 i1 j1 gcw rgcw : Int} {alpha beta : T} {dx : Nat → T} {u b0 b1 f0 f1 res : Ptr} {β1 β2 : Nat → Backend} {m : Mem T} {B0 B1 U : List Int → T} {amin bmin L : T}
    (hβ1 : ∀ n, ValidBackend (β1 n)) (hβ2 : ∀ n, ValidBackend (β2 n)) (hi : i0 ≤ i1) (hj : j0 ≤ j1) (hg : 1 ≤ gcw) (hrgcw : 0 ≤ rgcw)
    (h : F.Args m [(F.cell2d u i0 j0 i1 j1 gcw), (F.face2d0 b0 i0 j0 i1 j1 0), (F.face2d1 b1 i0 j0 i1 j1 0)] [(F.face2d0 f0 i0 j0 i1 j1 0), (F.face2d1 f1 i0 j0 i1 j1 0), (F.cell2d res i0 j0 i1 j1 rgcw)])
    (hp : F.Apart (F.face2d0 f0 i0 j0 i1 j1 0) (F.face2d1 f1 i0 j0 i1 j1 0))
    (hr : F.Apart (F.cell2d res i0 j0 i1 j1 rgcw) (F.face2d0 f0 i0 j0 i1 j1 0) ∧ F.Apart (F.cell2d res i0 j0 i1 j1 rgcw) (F.face2d1 f1 i0 j0 i1 j1 0))
    (hB0 : F.Holds m (F.face2d0 b0 i0 j0 i1 j1 0) B0) (hB1 : F.Holds m (F.face2d1 b1 i0 j0 i1 j1 0) B1) (hU : F.Holds m (F.cell2d u i0 j0 i1 j1 gcw) U)
    (hU0 : ∀ p, ¬ F.InBounds [(i0, i1), (j0, j1)] p → U p = 0) (he : F.Elliptic2 i0 j0 i1 j1 alpha beta dx (fun _ => 1) B0 B1)
    (hL : F.Low2 i0 j0 i1 j1 alpha (fun _ => 1) B0 B1 amin bmin) (hT : F.Top2 i0 j0 i1 j1 alpha beta dx (fun _ => 1) B0 B1 L) :
    ∃ m1 m2, ∃ R : List Int → T, Cuda.flux2d i0 j0 i1 j1 dx b0 b1 gcw u f0 f1 β1 m = .ok m1 ∧ Cuda.diffusionV2Apply2d i0 i1 j0 j1 alpha beta dx gcw u f0 f1 rgcw res β2 m1 = .ok m2 ∧
      (∀ p, F.InBounds [(i0, i1), (j0, j1)] p → F.El m2 (F.cell2d res i0 j0 i1 j1 rgcw) p (R p)) ∧
      F.low2 i0 j0 i1 j1 beta dx amin bmin * (F.sum i0 i1 fun i => F.sum j0 j1 fun j => U [i, j] * U [i, j]) ≤ (F.sum i0 i1 fun i => F.sum j0 j1 fun j => U [i, j] * R [i, j]) ∧ (F.sum i0 i1 fun i => F.sum j0 j1 fun j => U [i, j] * R [i, j]) ≤ L * (F.sum i0 i1 fun i => F.sum j0 j1 fun j => U [i, j] * U [i, j]) ∧
      F.low2 i0 j0 i1 j1 beta dx amin bmin * F.low2 i0 j0 i1 j1 beta dx amin bmin * (F.sum i0 i1 fun i => F.sum j0 j1 fun j => U [i, j] * U [i, j]) ≤ (F.sum i0 i1 fun i => F.sum j0 j1 fun j => R [i, j] * R [i, j]) ∧ (F.sum i0 i1 fun i => F.sum j0 j1 fun j => R [i, j] * R [i, j]) ≤ L * L * (F.sum i0 i1 fun i => F.sum j0 j1 fun j => U [i, j] * U [i, j]) := by
  obtain ⟨m1, m2, R, c1, c2, E, hR⟩ := energy_v2_2 (alpha := alpha) (beta := beta) (dx := dx) hβ1 hβ2 hi hj hg hrgcw h hp hr hB0 hB1 hU
  have e : (F.sum i0 i1 fun i => F.sum j0 j1 fun j => U [i, j] * R [i, j]) = F.form2 i0 j0 i1 j1 alpha beta dx (fun _ => 1) B0 B1 U U := by
    rw [← F.weak2 hi hj hU0]
    exact F.sum_congr fun i h0 h1 => F.sum_congr fun j h2 h3 => (by rw [hR i j h0 h1 h2 h3])
  obtain ⟨E0, hE, hEz⟩ := F.cut_off (F.InBounds [(i0, i1), (j0, j1)]) R
  have qe : (F.sum i0 i1 fun i => F.sum j0 j1 fun j => E0 [i, j] * E0 [i, j]) = (F.sum i0 i1 fun i => F.sum j0 j1 fun j => R [i, j] * R [i, j]) := F.sum_congr fun i h0 h1 => F.sum_congr fun j h2 h3 => by rw [hE _ (F.inBounds2.2 ⟨i, j, rfl, by omega⟩)]
  have hq : F.form2 i0 j0 i1 j1 alpha beta dx (fun _ => 1) B0 B1 U E0 = (F.sum i0 i1 fun i => F.sum j0 j1 fun j => E0 [i, j] * E0 [i, j]) := by
    rw [← F.weak2 hi hj hEz]
    exact F.sum_congr fun i h0 h1 => F.sum_congr fun j h2 h3 => by rw [← hR i j h0 h1 h2 h3, hE _ (F.inBounds2.2 ⟨i, j, rfl, by omega⟩)]
  have r := F.form2_res hi hj he hT hEz hq
  have lo := F.form2_low (dx := dx) hi hj he.beta.le hL hU0
  have up := F.form2_top hi hj he hT hU0
  rw [qe] at r
  refine ⟨m1, m2, R, c1, c2, E, by rw [e]; exact lo, by rw [e]; exact up, ?_, ?_⟩
  · have l0 : 0 ≤ F.low2 i0 j0 i1 j1 beta dx amin bmin := add_nonneg hL.amin0 (mul_nonneg he.beta.le (mul_nonneg hL.bmin0 (by
      have : ∀ x : T, 0 ≤ 8 / (x * x) := fun x => div_nonneg (by norm_num) (mul_self_nonneg x)
      exact add_nonneg (this _) (this _))))
    have sq := F.sq2 (X := R) (Y := U) (t := F.low2 i0 j0 i1 j1 beta dx amin bmin) (i0 := i0) (i1 := i1) (j0 := j0) (j1 := j1)
    have p : 0 ≤ (F.sum i0 i1 fun i => F.sum j0 j1 fun j => (R [i, j] - F.low2 i0 j0 i1 j1 beta dx amin bmin * U [i, j]) * (R [i, j] - F.low2 i0 j0 i1 j1 beta dx amin bmin * U [i, j])) := F.sum_nonneg fun i _ _ => F.sum_nonneg fun j _ _ => mul_self_nonneg _
    have c : (F.sum i0 i1 fun i => F.sum j0 j1 fun j => R [i, j] * U [i, j]) = (F.sum i0 i1 fun i => F.sum j0 j1 fun j => U [i, j] * R [i, j]) := F.sum_congr fun i h0 h1 => F.sum_congr fun j h2 h3 => mul_comm _ _
    rw [sq, c, e] at p
    have := mul_le_mul_of_nonneg_left lo l0
    linarith
  · have := mul_le_mul_of_nonneg_left up (F.Top2.pos hi hj he hT).le
    linarith

example : ∃ m1 m2, ∃ R : List Int → Rat, Cuda.flux2d 0 1 2 3 exDx ⟨2, 0⟩ ⟨3, 0⟩ 2 ⟨1, 0⟩ ⟨5, 0⟩ ⟨6, 0⟩ (fun _ => revBackend) (exDir 2 5 1) = .ok m1 ∧ Cuda.diffusionV2Apply2d 0 2 1 3 3 2 exDx 2 ⟨1, 0⟩ ⟨5, 0⟩ ⟨6, 0⟩ 1 ⟨8, 0⟩ (fun _ => seqBackend) m1 = .ok m2 ∧
      (∀ p, F.InBounds [(0, 2), (1, 3)] p → F.El m2 (F.cell2d ⟨8, 0⟩ 0 1 2 3 1) p (R p)) ∧
      F.low2 (T := Rat) 0 1 2 3 2 exDx 3 14 * (F.sum 0 2 fun i => F.sum 1 3 fun j => (exIns 2 5) [i, j] * (exIns 2 5) [i, j]) ≤ (F.sum 0 2 fun i => F.sum 1 3 fun j => (exIns 2 5) [i, j] * R [i, j]) ∧ (F.sum 0 2 fun i => F.sum 1 3 fun j => (exIns 2 5) [i, j] * R [i, j]) ≤ 100000 * (F.sum 0 2 fun i => F.sum 1 3 fun j => (exIns 2 5) [i, j] * (exIns 2 5) [i, j]) ∧
      F.low2 (T := Rat) 0 1 2 3 2 exDx 3 14 * F.low2 (T := Rat) 0 1 2 3 2 exDx 3 14 * (F.sum 0 2 fun i => F.sum 1 3 fun j => (exIns 2 5) [i, j] * (exIns 2 5) [i, j]) ≤ (F.sum 0 2 fun i => F.sum 1 3 fun j => R [i, j] * R [i, j]) ∧ (F.sum 0 2 fun i => F.sum 1 3 fun j => R [i, j] * R [i, j]) ≤ 100000 * 100000 * (F.sum 0 2 fun i => F.sum 1 3 fun j => (exIns 2 5) [i, j] * (exIns 2 5) [i, j]) :=
  C108_v2_2d (T := Rat) (fun _ => revBackend_ok) (fun _ => seqBackend_ok) (by decide) (by decide) (by decide) (by decide) (exDir_args (by ex_args)) (apart_blk (by decide)) ⟨apart_blk (by decide), apart_blk (by decide)⟩
    (exDir_rd (by decide) (exRat_ok rfl (by decide) (by decide))) (exDir_rd (by decide) (exRat_ok rfl (by decide) (by decide))) exDir_u2 exIns_zero2 exEll_v2_2 exLow_v2_2 exTop_v2_2

/-- 2D, Poisson operator: for `U` zero outside the box `∑ U R` lies between `low` and `4 beta ∑ 1 / h²` times `∑ U U`, and `∑ R R` between the squares of these times `∑ U U`. -/
theorem C108_poisson_2d {i0 j0 i1 j1 gcw rgcw : Int} {beta : T} {dx : Nat → T} {u f0 f1 res : Ptr} {β1 β2 : Nat → Backend} {m : Mem T} {U : List Int → T}
    (hβ1 : ∀ n, ValidBackend (β1 n)) (hβ2 : ∀ n, ValidBackend (β2 n)) (hi : i0 ≤ i1) (hj : j0 ≤ j1) (hg : 1 ≤ gcw) (hrgcw : 0 ≤ rgcw)
    (h : F.Args m [(F.cell2d u i0 j0 i1 j1 gcw)] [(F.face2d0 f0 i0 j0 i1 j1 0), (F.face2d1 f1 i0 j0 i1 j1 0), (F.cell2d res i0 j0 i1 j1 rgcw)])
    (hp : F.Apart (F.face2d0 f0 i0 j0 i1 j1 0) (F.face2d1 f1 i0 j0 i1 j1 0))
    (hr : F.Apart (F.cell2d res i0 j0 i1 j1 rgcw) (F.face2d0 f0 i0 j0 i1 j1 0) ∧ F.Apart (F.cell2d res i0 j0 i1 j1 rgcw) (F.face2d1 f1 i0 j0 i1 j1 0))
    (hU : F.Holds m (F.cell2d u i0 j0 i1 j1 gcw) U)
    (hU0 : ∀ p, ¬ F.InBounds [(i0, i1), (j0, j1)] p → U p = 0) (he : F.Elliptic2 i0 j0 i1 j1 0 beta dx (fun _ => 1) (fun _ => 1) (fun _ => 1)) :
    ∃ m1 m2, ∃ R : List Int → T, Cuda.poissonFlux2d i0 j0 i1 j1 dx gcw u f0 f1 β1 m = .ok m1 ∧ Cuda.poissonV2Apply2d i0 i1 j0 j1 beta dx f0 f1 rgcw res β2 m1 = .ok m2 ∧
      (∀ p, F.InBounds [(i0, i1), (j0, j1)] p → F.El m2 (F.cell2d res i0 j0 i1 j1 rgcw) p (R p)) ∧
      F.low2 i0 j0 i1 j1 beta dx 0 1 * (F.sum i0 i1 fun i => F.sum j0 j1 fun j => U [i, j] * U [i, j]) ≤ (F.sum i0 i1 fun i => F.sum j0 j1 fun j => U [i, j] * R [i, j]) ∧ (F.sum i0 i1 fun i => F.sum j0 j1 fun j => U [i, j] * R [i, j]) ≤ (4 * beta * (1 / (dx 0 * dx 0) + 1 / (dx 1 * dx 1))) * (F.sum i0 i1 fun i => F.sum j0 j1 fun j => U [i, j] * U [i, j]) ∧
      F.low2 i0 j0 i1 j1 beta dx 0 1 * F.low2 i0 j0 i1 j1 beta dx 0 1 * (F.sum i0 i1 fun i => F.sum j0 j1 fun j => U [i, j] * U [i, j]) ≤ (F.sum i0 i1 fun i => F.sum j0 j1 fun j => R [i, j] * R [i, j]) ∧ (F.sum i0 i1 fun i => F.sum j0 j1 fun j => R [i, j] * R [i, j]) ≤ (4 * beta * (1 / (dx 0 * dx 0) + 1 / (dx 1 * dx 1))) * (4 * beta * (1 / (dx 0 * dx 0) + 1 / (dx 1 * dx 1))) * (F.sum i0 i1 fun i => F.sum j0 j1 fun j => U [i, j] * U [i, j]) := by
  obtain ⟨m1, m2, R, c1, c2, E, hR⟩ := energy_p_2 (beta := beta) (dx := dx) hβ1 hβ2 hi hj hg hrgcw h hp hr hU
  have e : (F.sum i0 i1 fun i => F.sum j0 j1 fun j => U [i, j] * R [i, j]) = F.form2 i0 j0 i1 j1 0 beta dx (fun _ => 1) (fun _ => 1) (fun _ => 1) U U := by
    rw [← F.weak2 hi hj hU0]
    exact F.sum_congr fun i h0 h1 => F.sum_congr fun j h2 h3 => (by rw [hR i j h0 h1 h2 h3])
  have hL : F.Low2 i0 j0 i1 j1 0 (fun _ => 1) (fun _ => 1) (fun _ => 1) 0 (1 : T) := ⟨le_rfl, zero_le_one, fun _ _ _ _ _ _ => le_rfl, fun _ _ _ _ _ _ => le_rfl, fun _ _ _ _ _ _ => by simp⟩
  have hT : F.Top2 i0 j0 i1 j1 0 beta dx (fun _ => 1) (fun _ => 1) (fun _ => 1) (4 * beta * (1 / (dx 0 * dx 0) + 1 / (dx 1 * dx 1))) := fun _ _ _ _ _ _ => le_of_eq (by ring)
  obtain ⟨E0, hE, hEz⟩ := F.cut_off (F.InBounds [(i0, i1), (j0, j1)]) R
  have qe : (F.sum i0 i1 fun i => F.sum j0 j1 fun j => E0 [i, j] * E0 [i, j]) = (F.sum i0 i1 fun i => F.sum j0 j1 fun j => R [i, j] * R [i, j]) := F.sum_congr fun i h0 h1 => F.sum_congr fun j h2 h3 => by rw [hE _ (F.inBounds2.2 ⟨i, j, rfl, by omega⟩)]
  have hq : F.form2 i0 j0 i1 j1 0 beta dx (fun _ => 1) (fun _ => 1) (fun _ => 1) U E0 = (F.sum i0 i1 fun i => F.sum j0 j1 fun j => E0 [i, j] * E0 [i, j]) := by
    rw [← F.weak2 hi hj hEz]
    exact F.sum_congr fun i h0 h1 => F.sum_congr fun j h2 h3 => by rw [← hR i j h0 h1 h2 h3, hE _ (F.inBounds2.2 ⟨i, j, rfl, by omega⟩)]
  have r := F.form2_res hi hj he hT hEz hq
  have lo := F.form2_low (dx := dx) hi hj he.beta.le hL hU0
  have up := F.form2_top hi hj he hT hU0
  rw [qe] at r
  refine ⟨m1, m2, R, c1, c2, E, by rw [e]; exact lo, by rw [e]; exact up, ?_, ?_⟩
  · have l0 : 0 ≤ F.low2 i0 j0 i1 j1 beta dx 0 1 := add_nonneg hL.amin0 (mul_nonneg he.beta.le (mul_nonneg hL.bmin0 (by
      have : ∀ x : T, 0 ≤ 8 / (x * x) := fun x => div_nonneg (by norm_num) (mul_self_nonneg x)
      exact add_nonneg (this _) (this _))))
    have sq := F.sq2 (X := R) (Y := U) (t := F.low2 i0 j0 i1 j1 beta dx 0 1) (i0 := i0) (i1 := i1) (j0 := j0) (j1 := j1)
    have p : 0 ≤ (F.sum i0 i1 fun i => F.sum j0 j1 fun j => (R [i, j] - F.low2 i0 j0 i1 j1 beta dx 0 1 * U [i, j]) * (R [i, j] - F.low2 i0 j0 i1 j1 beta dx 0 1 * U [i, j])) := F.sum_nonneg fun i _ _ => F.sum_nonneg fun j _ _ => mul_self_nonneg _
    have c : (F.sum i0 i1 fun i => F.sum j0 j1 fun j => R [i, j] * U [i, j]) = (F.sum i0 i1 fun i => F.sum j0 j1 fun j => U [i, j] * R [i, j]) := F.sum_congr fun i h0 h1 => F.sum_congr fun j h2 h3 => mul_comm _ _
    rw [sq, c, e] at p
    have := mul_le_mul_of_nonneg_left lo l0
    linarith
  · have := mul_le_mul_of_nonneg_left up (F.Top2.pos hi hj he hT).le
    linarith

example : ∃ m1 m2, ∃ R : List Int → Rat, Cuda.poissonFlux2d 0 1 2 3 exDx 2 ⟨1, 0⟩ ⟨5, 0⟩ ⟨6, 0⟩ (fun _ => revBackend) (exDir 2 5 1) = .ok m1 ∧ Cuda.poissonV2Apply2d 0 2 1 3 2 exDx ⟨5, 0⟩ ⟨6, 0⟩ 1 ⟨8, 0⟩ (fun _ => seqBackend) m1 = .ok m2 ∧
      (∀ p, F.InBounds [(0, 2), (1, 3)] p → F.El m2 (F.cell2d ⟨8, 0⟩ 0 1 2 3 1) p (R p)) ∧
      F.low2 (T := Rat) 0 1 2 3 2 exDx 0 1 * (F.sum 0 2 fun i => F.sum 1 3 fun j => (exIns 2 5) [i, j] * (exIns 2 5) [i, j]) ≤ (F.sum 0 2 fun i => F.sum 1 3 fun j => (exIns 2 5) [i, j] * R [i, j]) ∧ (F.sum 0 2 fun i => F.sum 1 3 fun j => (exIns 2 5) [i, j] * R [i, j]) ≤ (4 * 2 * (1 / (exDx 0 * exDx 0) + 1 / (exDx 1 * exDx 1))) * (F.sum 0 2 fun i => F.sum 1 3 fun j => (exIns 2 5) [i, j] * (exIns 2 5) [i, j]) ∧
      F.low2 (T := Rat) 0 1 2 3 2 exDx 0 1 * F.low2 (T := Rat) 0 1 2 3 2 exDx 0 1 * (F.sum 0 2 fun i => F.sum 1 3 fun j => (exIns 2 5) [i, j] * (exIns 2 5) [i, j]) ≤ (F.sum 0 2 fun i => F.sum 1 3 fun j => R [i, j] * R [i, j]) ∧ (F.sum 0 2 fun i => F.sum 1 3 fun j => R [i, j] * R [i, j]) ≤ (4 * 2 * (1 / (exDx 0 * exDx 0) + 1 / (exDx 1 * exDx 1))) * (4 * 2 * (1 / (exDx 0 * exDx 0) + 1 / (exDx 1 * exDx 1))) * (F.sum 0 2 fun i => F.sum 1 3 fun j => (exIns 2 5) [i, j] * (exIns 2 5) [i, j]) :=
  C108_poisson_2d (T := Rat) (fun _ => revBackend_ok) (fun _ => seqBackend_ok) (by decide) (by decide) (by decide) (by decide) (exDir_args (by ex_args)) (apart_blk (by decide)) ⟨apart_blk (by decide), apart_blk (by decide)⟩
     exDir_u2 exIns_zero2 exEll_p_2

/-- 3D, diffusion operator with cell coefficients: for `U` zero outside the box `∑ U R` lies between `low` and `L` times `∑ U U`, and `∑ R R` between the squares of these times `∑ U U`. -/
theorem C108_v1_3d {i0 j0 k0 i1 j1 k1 agcw gcw rgcw : Int} {alpha beta : T} {dx : Nat → T} {a u b0 b1 b2 f0 f1 f2 res : Ptr} {β1 β2 : Nat → Backend} {m : Mem T} {A B0 B1 B2 U : List Int → T} {amin bmin L : T}
    (hβ1 : ∀ n, ValidBackend (β1 n)) (hβ2 : ∀ n, ValidBackend (β2 n)) (hi : i0 ≤ i1) (hj : j0 ≤ j1) (hk : k0 ≤ k1) (hg : 1 ≤ gcw) (hagcw : 0 ≤ agcw) (hrgcw : 0 ≤ rgcw)
    (h : F.Args m [(F.cell3d a i0 j0 k0 i1 j1 k1 agcw), (F.cell3d u i0 j0 k0 i1 j1 k1 gcw), (F.face3d0 b0 i0 j0 k0 i1 j1 k1 0), (F.face3d1 b1 i0 j0 k0 i1 j1 k1 0), (F.face3d2 b2 i0 j0 k0 i1 j1 k1 0)] [(F.face3d0 f0 i0 j0 k0 i1 j1 k1 0), (F.face3d1 f1 i0 j0 k0 i1 j1 k1 0), (F.face3d2 f2 i0 j0 k0 i1 j1 k1 0), (F.cell3d res i0 j0 k0 i1 j1 k1 rgcw)])
    (hp : F.Apart (F.face3d0 f0 i0 j0 k0 i1 j1 k1 0) (F.face3d1 f1 i0 j0 k0 i1 j1 k1 0) ∧ F.Apart (F.face3d0 f0 i0 j0 k0 i1 j1 k1 0) (F.face3d2 f2 i0 j0 k0 i1 j1 k1 0) ∧ F.Apart (F.face3d1 f1 i0 j0 k0 i1 j1 k1 0) (F.face3d2 f2 i0 j0 k0 i1 j1 k1 0))
    (hr : F.Apart (F.cell3d res i0 j0 k0 i1 j1 k1 rgcw) (F.face3d0 f0 i0 j0 k0 i1 j1 k1 0) ∧ F.Apart (F.cell3d res i0 j0 k0 i1 j1 k1 rgcw) (F.face3d1 f1 i0 j0 k0 i1 j1 k1 0) ∧ F.Apart (F.cell3d res i0 j0 k0 i1 j1 k1 rgcw) (F.face3d2 f2 i0 j0 k0 i1 j1 k1 0))
    (hA : F.Holds m (F.cell3d a i0 j0 k0 i1 j1 k1 agcw) A) (hB0 : F.Holds m (F.face3d0 b0 i0 j0 k0 i1 j1 k1 0) B0) (hB1 : F.Holds m (F.face3d1 b1 i0 j0 k0 i1 j1 k1 0) B1) (hB2 : F.Holds m (F.face3d2 b2 i0 j0 k0 i1 j1 k1 0) B2) (hU : F.Holds m (F.cell3d u i0 j0 k0 i1 j1 k1 gcw) U)
    (hU0 : ∀ p, ¬ F.InBounds [(i0, i1), (j0, j1), (k0, k1)] p → U p = 0) (he : F.Elliptic3 i0 j0 k0 i1 j1 k1 alpha beta dx A B0 B1 B2)
    (hL : F.Low3 i0 j0 k0 i1 j1 k1 alpha A B0 B1 B2 amin bmin) (hT : F.Top3 i0 j0 k0 i1 j1 k1 alpha beta dx A B0 B1 B2 L) :
    ∃ m1 m2, ∃ R : List Int → T, Cuda.flux3d i0 j0 k0 i1 j1 k1 dx b0 b1 b2 gcw u f0 f1 f2 β1 m = .ok m1 ∧ Cuda.diffusionV1Apply3d i0 i1 j0 j1 k0 k1 alpha beta dx agcw a gcw u f0 f1 f2 rgcw res β2 m1 = .ok m2 ∧
      (∀ p, F.InBounds [(i0, i1), (j0, j1), (k0, k1)] p → F.El m2 (F.cell3d res i0 j0 k0 i1 j1 k1 rgcw) p (R p)) ∧
      F.low3 i0 j0 k0 i1 j1 k1 beta dx amin bmin * (F.sum i0 i1 fun i => F.sum j0 j1 fun j => F.sum k0 k1 fun k => U [i, j, k] * U [i, j, k]) ≤ (F.sum i0 i1 fun i => F.sum j0 j1 fun j => F.sum k0 k1 fun k => U [i, j, k] * R [i, j, k]) ∧ (F.sum i0 i1 fun i => F.sum j0 j1 fun j => F.sum k0 k1 fun k => U [i, j, k] * R [i, j, k]) ≤ L * (F.sum i0 i1 fun i => F.sum j0 j1 fun j => F.sum k0 k1 fun k => U [i, j, k] * U [i, j, k]) ∧
      F.low3 i0 j0 k0 i1 j1 k1 beta dx amin bmin * F.low3 i0 j0 k0 i1 j1 k1 beta dx amin bmin * (F.sum i0 i1 fun i => F.sum j0 j1 fun j => F.sum k0 k1 fun k => U [i, j, k] * U [i, j, k]) ≤ (F.sum i0 i1 fun i => F.sum j0 j1 fun j => F.sum k0 k1 fun k => R [i, j, k] * R [i, j, k]) ∧ (F.sum i0 i1 fun i => F.sum j0 j1 fun j => F.sum k0 k1 fun k => R [i, j, k] * R [i, j, k]) ≤ L * L * (F.sum i0 i1 fun i => F.sum j0 j1 fun j => F.sum k0 k1 fun k => U [i, j, k] * U [i, j, k]) := by
  obtain ⟨m1, m2, R, c1, c2, E, hR⟩ := energy_v1_3 (alpha := alpha) (beta := beta) (dx := dx) hβ1 hβ2 hi hj hk hg hagcw hrgcw h hp hr hA hB0 hB1 hB2 hU
  have e : (F.sum i0 i1 fun i => F.sum j0 j1 fun j => F.sum k0 k1 fun k => U [i, j, k] * R [i, j, k]) = F.form3 i0 j0 k0 i1 j1 k1 alpha beta dx A B0 B1 B2 U U := by
    rw [← F.weak3 hi hj hk hU0]
    exact F.sum_congr fun i h0 h1 => F.sum_congr fun j h2 h3 => F.sum_congr fun k h4 h5 => (by rw [hR i j k h0 h1 h2 h3 h4 h5])
  obtain ⟨E0, hE, hEz⟩ := F.cut_off (F.InBounds [(i0, i1), (j0, j1), (k0, k1)]) R
  have qe : (F.sum i0 i1 fun i => F.sum j0 j1 fun j => F.sum k0 k1 fun k => E0 [i, j, k] * E0 [i, j, k]) = (F.sum i0 i1 fun i => F.sum j0 j1 fun j => F.sum k0 k1 fun k => R [i, j, k] * R [i, j, k]) := F.sum_congr fun i h0 h1 => F.sum_congr fun j h2 h3 => F.sum_congr fun k h4 h5 => by rw [hE _ (F.inBounds3.2 ⟨i, j, k, rfl, by omega⟩)]
  have hq : F.form3 i0 j0 k0 i1 j1 k1 alpha beta dx A B0 B1 B2 U E0 = (F.sum i0 i1 fun i => F.sum j0 j1 fun j => F.sum k0 k1 fun k => E0 [i, j, k] * E0 [i, j, k]) := by
    rw [← F.weak3 hi hj hk hEz]
    exact F.sum_congr fun i h0 h1 => F.sum_congr fun j h2 h3 => F.sum_congr fun k h4 h5 => by rw [← hR i j k h0 h1 h2 h3 h4 h5, hE _ (F.inBounds3.2 ⟨i, j, k, rfl, by omega⟩)]
  have r := F.form3_res hi hj hk he hT hEz hq
  have lo := F.form3_low (dx := dx) hi hj hk he.beta.le hL hU0
  have up := F.form3_top hi hj hk he hT hU0
  rw [qe] at r
  refine ⟨m1, m2, R, c1, c2, E, by rw [e]; exact lo, by rw [e]; exact up, ?_, ?_⟩
  · have l0 : 0 ≤ F.low3 i0 j0 k0 i1 j1 k1 beta dx amin bmin := add_nonneg hL.amin0 (mul_nonneg he.beta.le (mul_nonneg hL.bmin0 (by
      have : ∀ x : T, 0 ≤ 8 / (x * x) := fun x => div_nonneg (by norm_num) (mul_self_nonneg x)
      exact add_nonneg (add_nonneg (this _) (this _)) (this _))))
    have sq := F.sq3 (X := R) (Y := U) (t := F.low3 i0 j0 k0 i1 j1 k1 beta dx amin bmin) (i0 := i0) (i1 := i1) (j0 := j0) (j1 := j1) (k0 := k0) (k1 := k1)
    have p : 0 ≤ (F.sum i0 i1 fun i => F.sum j0 j1 fun j => F.sum k0 k1 fun k => (R [i, j, k] - F.low3 i0 j0 k0 i1 j1 k1 beta dx amin bmin * U [i, j, k]) * (R [i, j, k] - F.low3 i0 j0 k0 i1 j1 k1 beta dx amin bmin * U [i, j, k])) := F.sum_nonneg fun i _ _ => F.sum_nonneg fun j _ _ => F.sum_nonneg fun k _ _ => mul_self_nonneg _
    have c : (F.sum i0 i1 fun i => F.sum j0 j1 fun j => F.sum k0 k1 fun k => R [i, j, k] * U [i, j, k]) = (F.sum i0 i1 fun i => F.sum j0 j1 fun j => F.sum k0 k1 fun k => U [i, j, k] * R [i, j, k]) := F.sum_congr fun i h0 h1 => F.sum_congr fun j h2 h3 => F.sum_congr fun k h4 h5 => mul_comm _ _
    rw [sq, c, e] at p
    have := mul_le_mul_of_nonneg_left lo l0
    linarith
  · have := mul_le_mul_of_nonneg_left up (F.Top3.pos hi hj hk he hT).le
    linarith

example : ∃ m1 m2, ∃ R : List Int → Rat, Cuda.flux3d 0 1 2 1 2 3 exDx ⟨2, 0⟩ ⟨3, 0⟩ ⟨4, 0⟩ 2 ⟨1, 0⟩ ⟨5, 0⟩ ⟨6, 0⟩ ⟨7, 0⟩ (fun _ => revBackend) (exDir 3 5 1) = .ok m1 ∧ Cuda.diffusionV1Apply3d 0 1 1 2 2 3 3 2 exDx 1 ⟨0, 0⟩ 2 ⟨1, 0⟩ ⟨5, 0⟩ ⟨6, 0⟩ ⟨7, 0⟩ 1 ⟨8, 0⟩ (fun _ => seqBackend) m1 = .ok m2 ∧
      (∀ p, F.InBounds [(0, 1), (1, 2), (2, 3)] p → F.El m2 (F.cell3d ⟨8, 0⟩ 0 1 2 1 2 3 1) p (R p)) ∧
      F.low3 (T := Rat) 0 1 2 1 2 3 2 exDx 0 14 * (F.sum 0 1 fun i => F.sum 1 2 fun j => F.sum 2 3 fun k => (exIns 3 5) [i, j, k] * (exIns 3 5) [i, j, k]) ≤ (F.sum 0 1 fun i => F.sum 1 2 fun j => F.sum 2 3 fun k => (exIns 3 5) [i, j, k] * R [i, j, k]) ∧ (F.sum 0 1 fun i => F.sum 1 2 fun j => F.sum 2 3 fun k => (exIns 3 5) [i, j, k] * R [i, j, k]) ≤ 100000 * (F.sum 0 1 fun i => F.sum 1 2 fun j => F.sum 2 3 fun k => (exIns 3 5) [i, j, k] * (exIns 3 5) [i, j, k]) ∧
      F.low3 (T := Rat) 0 1 2 1 2 3 2 exDx 0 14 * F.low3 (T := Rat) 0 1 2 1 2 3 2 exDx 0 14 * (F.sum 0 1 fun i => F.sum 1 2 fun j => F.sum 2 3 fun k => (exIns 3 5) [i, j, k] * (exIns 3 5) [i, j, k]) ≤ (F.sum 0 1 fun i => F.sum 1 2 fun j => F.sum 2 3 fun k => R [i, j, k] * R [i, j, k]) ∧ (F.sum 0 1 fun i => F.sum 1 2 fun j => F.sum 2 3 fun k => R [i, j, k] * R [i, j, k]) ≤ 100000 * 100000 * (F.sum 0 1 fun i => F.sum 1 2 fun j => F.sum 2 3 fun k => (exIns 3 5) [i, j, k] * (exIns 3 5) [i, j, k]) :=
  C108_v1_3d (T := Rat) (fun _ => revBackend_ok) (fun _ => seqBackend_ok) (by decide) (by decide) (by decide) (by decide) (by decide) (by decide) (exDir_args (by ex_args)) (⟨apart_blk (by decide), apart_blk (by decide), apart_blk (by decide)⟩) ⟨apart_blk (by decide), apart_blk (by decide), apart_blk (by decide)⟩
    (exDir_rd (by decide) (exRat_ok rfl (by decide) (by decide))) (exDir_rd (by decide) (exRat_ok rfl (by decide) (by decide))) (exDir_rd (by decide) (exRat_ok rfl (by decide) (by decide))) (exDir_rd (by decide) (exRat_ok rfl (by decide) (by decide))) exDir_u3 exIns_zero3 exEll_v1_3 exLow_v1_3 exTop_v1_3

/-- 3D, diffusion operator with constant reaction: for `U` zero outside the box `∑ U R` lies between `low` and `L` times `∑ U U`, and `∑ R R` between the squares of these times `∑ U U`. -/
theorem C108_v2_3d {i0 j0 k0 i1 j1 k1 gcw rgcw : Int} {alpha beta : T} {dx : Nat → T} {u b0 b1 b2 f0 f1 f2 res : Ptr} {β1 β2 : Nat → Backend} {m : Mem T} {B0 B1 B2 U : List Int → T} {amin bmin L : T}
    (hβ1 : ∀ n, ValidBackend (β1 n)) (hβ2 : ∀ n, ValidBackend (β2 n)) (hi : i0 ≤ i1) (hj : j0 ≤ j1) (hk : k0 ≤ k1) (hg : 1 ≤ gcw) (hrgcw : 0 ≤ rgcw)
    (h : F.Args m [(F.cell3d u i0 j0 k0 i1 j1 k1 gcw), (F.face3d0 b0 i0 j0 k0 i1 j1 k1 0), (F.face3d1 b1 i0 j0 k0 i1 j1 k1 0), (F.face3d2 b2 i0 j0 k0 i1 j1 k1 0)] [(F.face3d0 f0 i0 j0 k0 i1 j1 k1 0), (F.face3d1 f1 i0 j0 k0 i1 j1 k1 0), (F.face3d2 f2 i0 j0 k0 i1 j1 k1 0), (F.cell3d res i0 j0 k0 i1 j1 k1 rgcw)])
    (hp : F.Apart (F.face3d0 f0 i0 j0 k0 i1 j1 k1 0) (F.face3d1 f1 i0 j0 k0 i1 j1 k1 0) ∧ F.Apart (F.face3d0 f0 i0 j0 k0 i1 j1 k1 0) (F.face3d2 f2 i0 j0 k0 i1 j1 k1 0) ∧ F.Apart (F.face3d1 f1 i0 j0 k0 i1 j1 k1 0) (F.face3d2 f2 i0 j0 k0 i1 j1 k1 0))
    (hr : F.Apart (F.cell3d res i0 j0 k0 i1 j1 k1 rgcw) (F.face3d0 f0 i0 j0 k0 i1 j1 k1 0) ∧ F.Apart (F.cell3d res i0 j0 k0 i1 j1 k1 rgcw) (F.face3d1 f1 i0 j0 k0 i1 j1 k1 0) ∧ F.Apart (F.cell3d res i0 j0 k0 i1 j1 k1 rgcw) (F.face3d2 f2 i0 j0 k0 i1 j1 k1 0))
    (hB0 : F.Holds m (F.face3d0 b0 i0 j0 k0 i1 j1 k1 0) B0) (hB1 : F.Holds m (F.face3d1 b1 i0 j0 k0 i1 j1 k1 0) B1) (hB2 : F.Holds m (F.face3d2 b2 i0 j0 k0 i1 j1 k1 0) B2) (hU : F.Holds m (F.cell3d u i0 j0 k0 i1 j1 k1 gcw) U)
    (hU0 : ∀ p, ¬ F.InBounds [(i0, i1), (j0, j1), (k0, k1)] p → U p = 0) (he : F.Elliptic3 i0 j0 k0 i1 j1 k1 alpha beta dx (fun _ => 1) B0 B1 B2)
    (hL : F.Low3 i0 j0 k0 i1 j1 k1 alpha (fun _ => 1) B0 B1 B2 amin bmin) (hT : F.Top3 i0 j0 k0 i1 j1 k1 alpha beta dx (fun _ => 1) B0 B1 B2 L) :
    ∃ m1 m2, ∃ R : List Int → T, Cuda.flux3d i0 j0 k0 i1 j1 k1 dx b0 b1 b2 gcw u f0 f1 f2 β1 m = .ok m1 ∧ Cuda.diffusionV2Apply3d i0 i1 j0 j1 k0 k1 alpha beta dx gcw u f0 f1 f2 rgcw res β2 m1 = .ok m2 ∧
      (∀ p, F.InBounds [(i0, i1), (j0, j1), (k0, k1)] p → F.El m2 (F.cell3d res i0 j0 k0 i1 j1 k1 rgcw) p (R p)) ∧
      F.low3 i0 j0 k0 i1 j1 k1 beta dx amin bmin * (F.sum i0 i1 fun i => F.sum j0 j1 fun j => F.sum k0 k1 fun k => U [i, j, k] * U [i, j, k]) ≤ (F.sum i0 i1 fun i => F.sum j0 j1 fun j => F.sum k0 k1 fun k => U [i, j, k] * R [i, j, k]) ∧ (F.sum i0 i1 fun i => F.sum j0 j1 fun j => F.sum k0 k1 fun k => U [i, j, k] * R [i, j, k]) ≤ L * (F.sum i0 i1 fun i => F.sum j0 j1 fun j => F.sum k0 k1 fun k => U [i, j, k] * U [i, j, k]) ∧
      F.low3 i0 j0 k0 i1 j1 k1 beta dx amin bmin * F.low3 i0 j0 k0 i1 j1 k1 beta dx amin bmin * (F.sum i0 i1 fun i => F.sum j0 j1 fun j => F.sum k0 k1 fun k => U [i, j, k] * U [i, j, k]) ≤ (F.sum i0 i1 fun i => F.sum j0 j1 fun j => F.sum k0 k1 fun k => R [i, j, k] * R [i, j, k]) ∧ (F.sum i0 i1 fun i => F.sum j0 j1 fun j => F.sum k0 k1 fun k => R [i, j, k] * R [i, j, k]) ≤ L * L * (F.sum i0 i1 fun i => F.sum j0 j1 fun j => F.sum k0 k1 fun k => U [i, j, k] * U [i, j, k]) := by
  obtain ⟨m1, m2, R, c1, c2, E, hR⟩ := energy_v2_3 (alpha := alpha) (beta := beta) (dx := dx) hβ1 hβ2 hi hj hk hg hrgcw h hp hr hB0 hB1 hB2 hU
  have e : (F.sum i0 i1 fun i => F.sum j0 j1 fun j => F.sum k0 k1 fun k => U [i, j, k] * R [i, j, k]) = F.form3 i0 j0 k0 i1 j1 k1 alpha beta dx (fun _ => 1) B0 B1 B2 U U := by
    rw [← F.weak3 hi hj hk hU0]
    exact F.sum_congr fun i h0 h1 => F.sum_congr fun j h2 h3 => F.sum_congr fun k h4 h5 => (by rw [hR i j k h0 h1 h2 h3 h4 h5])
  obtain ⟨E0, hE, hEz⟩ := F.cut_off (F.InBounds [(i0, i1), (j0, j1), (k0, k1)]) R
  have qe : (F.sum i0 i1 fun i => F.sum j0 j1 fun j => F.sum k0 k1 fun k => E0 [i, j, k] * E0 [i, j, k]) = (F.sum i0 i1 fun i => F.sum j0 j1 fun j => F.sum k0 k1 fun k => R [i, j, k] * R [i, j, k]) := F.sum_congr fun i h0 h1 => F.sum_congr fun j h2 h3 => F.sum_congr fun k h4 h5 => by rw [hE _ (F.inBounds3.2 ⟨i, j, k, rfl, by omega⟩)]
  have hq : F.form3 i0 j0 k0 i1 j1 k1 alpha beta dx (fun _ => 1) B0 B1 B2 U E0 = (F.sum i0 i1 fun i => F.sum j0 j1 fun j => F.sum k0 k1 fun k => E0 [i, j, k] * E0 [i, j, k]) := by
    rw [← F.weak3 hi hj hk hEz]
    exact F.sum_congr fun i h0 h1 => F.sum_congr fun j h2 h3 => F.sum_congr fun k h4 h5 => by rw [← hR i j k h0 h1 h2 h3 h4 h5, hE _ (F.inBounds3.2 ⟨i, j, k, rfl, by omega⟩)]
  have r := F.form3_res hi hj hk he hT hEz hq
  have lo := F.form3_low (dx := dx) hi hj hk he.beta.le hL hU0
  have up := F.form3_top hi hj hk he hT hU0
  rw [qe] at r
  refine ⟨m1, m2, R, c1, c2, E, by rw [e]; exact lo, by rw [e]; exact up, ?_, ?_⟩
  · have l0 : 0 ≤ F.low3 i0 j0 k0 i1 j1 k1 beta dx amin bmin := add_nonneg hL.amin0 (mul_nonneg he.beta.le (mul_nonneg hL.bmin0 (by
      have : ∀ x : T, 0 ≤ 8 / (x * x) := fun x => div_nonneg (by norm_num) (mul_self_nonneg x)
      exact add_nonneg (add_nonneg (this _) (this _)) (this _))))
    have sq := F.sq3 (X := R) (Y := U) (t := F.low3 i0 j0 k0 i1 j1 k1 beta dx amin bmin) (i0 := i0) (i1 := i1) (j0 := j0) (j1 := j1) (k0 := k0) (k1 := k1)
    have p : 0 ≤ (F.sum i0 i1 fun i => F.sum j0 j1 fun j => F.sum k0 k1 fun k => (R [i, j, k] - F.low3 i0 j0 k0 i1 j1 k1 beta dx amin bmin * U [i, j, k]) * (R [i, j, k] - F.low3 i0 j0 k0 i1 j1 k1 beta dx amin bmin * U [i, j, k])) := F.sum_nonneg fun i _ _ => F.sum_nonneg fun j _ _ => F.sum_nonneg fun k _ _ => mul_self_nonneg _
    have c : (F.sum i0 i1 fun i => F.sum j0 j1 fun j => F.sum k0 k1 fun k => R [i, j, k] * U [i, j, k]) = (F.sum i0 i1 fun i => F.sum j0 j1 fun j => F.sum k0 k1 fun k => U [i, j, k] * R [i, j, k]) := F.sum_congr fun i h0 h1 => F.sum_congr fun j h2 h3 => F.sum_congr fun k h4 h5 => mul_comm _ _
    rw [sq, c, e] at p
    have := mul_le_mul_of_nonneg_left lo l0
    linarith
  · have := mul_le_mul_of_nonneg_left up (F.Top3.pos hi hj hk he hT).le
    linarith

example : ∃ m1 m2, ∃ R : List Int → Rat, Cuda.flux3d 0 1 2 1 2 3 exDx ⟨2, 0⟩ ⟨3, 0⟩ ⟨4, 0⟩ 2 ⟨1, 0⟩ ⟨5, 0⟩ ⟨6, 0⟩ ⟨7, 0⟩ (fun _ => revBackend) (exDir 3 5 1) = .ok m1 ∧ Cuda.diffusionV2Apply3d 0 1 1 2 2 3 3 2 exDx 2 ⟨1, 0⟩ ⟨5, 0⟩ ⟨6, 0⟩ ⟨7, 0⟩ 1 ⟨8, 0⟩ (fun _ => seqBackend) m1 = .ok m2 ∧
      (∀ p, F.InBounds [(0, 1), (1, 2), (2, 3)] p → F.El m2 (F.cell3d ⟨8, 0⟩ 0 1 2 1 2 3 1) p (R p)) ∧
      F.low3 (T := Rat) 0 1 2 1 2 3 2 exDx 3 14 * (F.sum 0 1 fun i => F.sum 1 2 fun j => F.sum 2 3 fun k => (exIns 3 5) [i, j, k] * (exIns 3 5) [i, j, k]) ≤ (F.sum 0 1 fun i => F.sum 1 2 fun j => F.sum 2 3 fun k => (exIns 3 5) [i, j, k] * R [i, j, k]) ∧ (F.sum 0 1 fun i => F.sum 1 2 fun j => F.sum 2 3 fun k => (exIns 3 5) [i, j, k] * R [i, j, k]) ≤ 100000 * (F.sum 0 1 fun i => F.sum 1 2 fun j => F.sum 2 3 fun k => (exIns 3 5) [i, j, k] * (exIns 3 5) [i, j, k]) ∧
      F.low3 (T := Rat) 0 1 2 1 2 3 2 exDx 3 14 * F.low3 (T := Rat) 0 1 2 1 2 3 2 exDx 3 14 * (F.sum 0 1 fun i => F.sum 1 2 fun j => F.sum 2 3 fun k => (exIns 3 5) [i, j, k] * (exIns 3 5) [i, j, k]) ≤ (F.sum 0 1 fun i => F.sum 1 2 fun j => F.sum 2 3 fun k => R [i, j, k] * R [i, j, k]) ∧ (F.sum 0 1 fun i => F.sum 1 2 fun j => F.sum 2 3 fun k => R [i, j, k] * R [i, j, k]) ≤ 100000 * 100000 * (F.sum 0 1 fun i => F.sum 1 2 fun j => F.sum 2 3 fun k => (exIns 3 5) [i, j, k] * (exIns 3 5) [i, j, k]) :=
  C108_v2_3d (T := Rat) (fun _ => revBackend_ok) (fun _ => seqBackend_ok) (by decide) (by decide) (by decide) (by decide) (by decide) (exDir_args (by ex_args)) (⟨apart_blk (by decide), apart_blk (by decide), apart_blk (by decide)⟩) ⟨apart_blk (by decide), apart_blk (by decide), apart_blk (by decide)⟩
    (exDir_rd (by decide) (exRat_ok rfl (by decide) (by decide))) (exDir_rd (by decide) (exRat_ok rfl (by decide) (by decide))) (exDir_rd (by decide) (exRat_ok rfl (by decide) (by decide))) exDir_u3 exIns_zero3 exEll_v2_3 exLow_v2_3 exTop_v2_3

/-- 3D, Poisson operator: for `U` zero outside the box `∑ U R` lies between `low` and `4 beta ∑ 1 / h²` times `∑ U U`, and `∑ R R` between the squares of these times `∑ U U`. -/
theorem C108_poisson_3d {i0 j0 k0 i1 j1 k1 gcw rgcw : Int} {beta : T} {dx : Nat → T} {u f0 f1 f2 res : Ptr} {β1 β2 : Nat → Backend} {m : Mem T} {U : List Int → T}
    (hβ1 : ∀ n, ValidBackend (β1 n)) (hβ2 : ∀ n, ValidBackend (β2 n)) (hi : i0 ≤ i1) (hj : j0 ≤ j1) (hk : k0 ≤ k1) (hg : 1 ≤ gcw) (hrgcw : 0 ≤ rgcw)
    (h : F.Args m [(F.cell3d u i0 j0 k0 i1 j1 k1 gcw)] [(F.face3d0 f0 i0 j0 k0 i1 j1 k1 0), (F.face3d1 f1 i0 j0 k0 i1 j1 k1 0), (F.face3d2 f2 i0 j0 k0 i1 j1 k1 0), (F.cell3d res i0 j0 k0 i1 j1 k1 rgcw)])
    (hp : F.Apart (F.face3d0 f0 i0 j0 k0 i1 j1 k1 0) (F.face3d1 f1 i0 j0 k0 i1 j1 k1 0) ∧ F.Apart (F.face3d0 f0 i0 j0 k0 i1 j1 k1 0) (F.face3d2 f2 i0 j0 k0 i1 j1 k1 0) ∧ F.Apart (F.face3d1 f1 i0 j0 k0 i1 j1 k1 0) (F.face3d2 f2 i0 j0 k0 i1 j1 k1 0))
    (hr : F.Apart (F.cell3d res i0 j0 k0 i1 j1 k1 rgcw) (F.face3d0 f0 i0 j0 k0 i1 j1 k1 0) ∧ F.Apart (F.cell3d res i0 j0 k0 i1 j1 k1 rgcw) (F.face3d1 f1 i0 j0 k0 i1 j1 k1 0) ∧ F.Apart (F.cell3d res i0 j0 k0 i1 j1 k1 rgcw) (F.face3d2 f2 i0 j0 k0 i1 j1 k1 0))
    (hU : F.Holds m (F.cell3d u i0 j0 k0 i1 j1 k1 gcw) U)
    (hU0 : ∀ p, ¬ F.InBounds [(i0, i1), (j0, j1), (k0, k1)] p → U p = 0) (he : F.Elliptic3 i0 j0 k0 i1 j1 k1 0 beta dx (fun _ => 1) (fun _ => 1) (fun _ => 1) (fun _ => 1)) :
    ∃ m1 m2, ∃ R : List Int → T, Cuda.poissonFlux3d i0 j0 k0 i1 j1 k1 dx gcw u f0 f1 f2 β1 m = .ok m1 ∧ Cuda.poissonV2Apply3d i0 i1 j0 j1 k0 k1 beta dx f0 f1 f2 rgcw res β2 m1 = .ok m2 ∧
      (∀ p, F.InBounds [(i0, i1), (j0, j1), (k0, k1)] p → F.El m2 (F.cell3d res i0 j0 k0 i1 j1 k1 rgcw) p (R p)) ∧
      F.low3 i0 j0 k0 i1 j1 k1 beta dx 0 1 * (F.sum i0 i1 fun i => F.sum j0 j1 fun j => F.sum k0 k1 fun k => U [i, j, k] * U [i, j, k]) ≤ (F.sum i0 i1 fun i => F.sum j0 j1 fun j => F.sum k0 k1 fun k => U [i, j, k] * R [i, j, k]) ∧ (F.sum i0 i1 fun i => F.sum j0 j1 fun j => F.sum k0 k1 fun k => U [i, j, k] * R [i, j, k]) ≤ (4 * beta * (1 / (dx 0 * dx 0) + 1 / (dx 1 * dx 1) + 1 / (dx 2 * dx 2))) * (F.sum i0 i1 fun i => F.sum j0 j1 fun j => F.sum k0 k1 fun k => U [i, j, k] * U [i, j, k]) ∧
      F.low3 i0 j0 k0 i1 j1 k1 beta dx 0 1 * F.low3 i0 j0 k0 i1 j1 k1 beta dx 0 1 * (F.sum i0 i1 fun i => F.sum j0 j1 fun j => F.sum k0 k1 fun k => U [i, j, k] * U [i, j, k]) ≤ (F.sum i0 i1 fun i => F.sum j0 j1 fun j => F.sum k0 k1 fun k => R [i, j, k] * R [i, j, k]) ∧ (F.sum i0 i1 fun i => F.sum j0 j1 fun j => F.sum k0 k1 fun k => R [i, j, k] * R [i, j, k]) ≤ (4 * beta * (1 / (dx 0 * dx 0) + 1 / (dx 1 * dx 1) + 1 / (dx 2 * dx 2))) * (4 * beta * (1 / (dx 0 * dx 0) + 1 / (dx 1 * dx 1) + 1 / (dx 2 * dx 2))) * (F.sum i0 i1 fun i => F.sum j0 j1 fun j => F.sum k0 k1 fun k => U [i, j, k] * U [i, j, k]) := by
  obtain ⟨m1, m2, R, c1, c2, E, hR⟩ := energy_p_3 (beta := beta) (dx := dx) hβ1 hβ2 hi hj hk hg hrgcw h hp hr hU
  have e : (F.sum i0 i1 fun i => F.sum j0 j1 fun j => F.sum k0 k1 fun k => U [i, j, k] * R [i, j, k]) = F.form3 i0 j0 k0 i1 j1 k1 0 beta dx (fun _ => 1) (fun _ => 1) (fun _ => 1) (fun _ => 1) U U := by
    rw [← F.weak3 hi hj hk hU0]
    exact F.sum_congr fun i h0 h1 => F.sum_congr fun j h2 h3 => F.sum_congr fun k h4 h5 => (by rw [hR i j k h0 h1 h2 h3 h4 h5])
  have hL : F.Low3 i0 j0 k0 i1 j1 k1 0 (fun _ => 1) (fun _ => 1) (fun _ => 1) (fun _ => 1) 0 (1 : T) := ⟨le_rfl, zero_le_one, fun _ _ _ _ _ _ _ _ _ => le_rfl, fun _ _ _ _ _ _ _ _ _ => le_rfl, fun _ _ _ _ _ _ _ _ _ => le_rfl, fun _ _ _ _ _ _ _ _ _ => by simp⟩
  have hT : F.Top3 i0 j0 k0 i1 j1 k1 0 beta dx (fun _ => 1) (fun _ => 1) (fun _ => 1) (fun _ => 1) (4 * beta * (1 / (dx 0 * dx 0) + 1 / (dx 1 * dx 1) + 1 / (dx 2 * dx 2))) := fun _ _ _ _ _ _ _ _ _ => le_of_eq (by ring)
  obtain ⟨E0, hE, hEz⟩ := F.cut_off (F.InBounds [(i0, i1), (j0, j1), (k0, k1)]) R
  have qe : (F.sum i0 i1 fun i => F.sum j0 j1 fun j => F.sum k0 k1 fun k => E0 [i, j, k] * E0 [i, j, k]) = (F.sum i0 i1 fun i => F.sum j0 j1 fun j => F.sum k0 k1 fun k => R [i, j, k] * R [i, j, k]) := F.sum_congr fun i h0 h1 => F.sum_congr fun j h2 h3 => F.sum_congr fun k h4 h5 => by rw [hE _ (F.inBounds3.2 ⟨i, j, k, rfl, by omega⟩)]
  have hq : F.form3 i0 j0 k0 i1 j1 k1 0 beta dx (fun _ => 1) (fun _ => 1) (fun _ => 1) (fun _ => 1) U E0 = (F.sum i0 i1 fun i => F.sum j0 j1 fun j => F.sum k0 k1 fun k => E0 [i, j, k] * E0 [i, j, k]) := by
    rw [← F.weak3 hi hj hk hEz]
    exact F.sum_congr fun i h0 h1 => F.sum_congr fun j h2 h3 => F.sum_congr fun k h4 h5 => by rw [← hR i j k h0 h1 h2 h3 h4 h5, hE _ (F.inBounds3.2 ⟨i, j, k, rfl, by omega⟩)]
  have r := F.form3_res hi hj hk he hT hEz hq
  have lo := F.form3_low (dx := dx) hi hj hk he.beta.le hL hU0
  have up := F.form3_top hi hj hk he hT hU0
  rw [qe] at r
  refine ⟨m1, m2, R, c1, c2, E, by rw [e]; exact lo, by rw [e]; exact up, ?_, ?_⟩
  · have l0 : 0 ≤ F.low3 i0 j0 k0 i1 j1 k1 beta dx 0 1 := add_nonneg hL.amin0 (mul_nonneg he.beta.le (mul_nonneg hL.bmin0 (by
      have : ∀ x : T, 0 ≤ 8 / (x * x) := fun x => div_nonneg (by norm_num) (mul_self_nonneg x)
      exact add_nonneg (add_nonneg (this _) (this _)) (this _))))
    have sq := F.sq3 (X := R) (Y := U) (t := F.low3 i0 j0 k0 i1 j1 k1 beta dx 0 1) (i0 := i0) (i1 := i1) (j0 := j0) (j1 := j1) (k0 := k0) (k1 := k1)
    have p : 0 ≤ (F.sum i0 i1 fun i => F.sum j0 j1 fun j => F.sum k0 k1 fun k => (R [i, j, k] - F.low3 i0 j0 k0 i1 j1 k1 beta dx 0 1 * U [i, j, k]) * (R [i, j, k] - F.low3 i0 j0 k0 i1 j1 k1 beta dx 0 1 * U [i, j, k])) := F.sum_nonneg fun i _ _ => F.sum_nonneg fun j _ _ => F.sum_nonneg fun k _ _ => mul_self_nonneg _
    have c : (F.sum i0 i1 fun i => F.sum j0 j1 fun j => F.sum k0 k1 fun k => R [i, j, k] * U [i, j, k]) = (F.sum i0 i1 fun i => F.sum j0 j1 fun j => F.sum k0 k1 fun k => U [i, j, k] * R [i, j, k]) := F.sum_congr fun i h0 h1 => F.sum_congr fun j h2 h3 => F.sum_congr fun k h4 h5 => mul_comm _ _
    rw [sq, c, e] at p
    have := mul_le_mul_of_nonneg_left lo l0
    linarith
  · have := mul_le_mul_of_nonneg_left up (F.Top3.pos hi hj hk he hT).le
    linarith

example : ∃ m1 m2, ∃ R : List Int → Rat, Cuda.poissonFlux3d 0 1 2 1 2 3 exDx 2 ⟨1, 0⟩ ⟨5, 0⟩ ⟨6, 0⟩ ⟨7, 0⟩ (fun _ => revBackend) (exDir 3 5 1) = .ok m1 ∧ Cuda.poissonV2Apply3d 0 1 1 2 2 3 2 exDx ⟨5, 0⟩ ⟨6, 0⟩ ⟨7, 0⟩ 1 ⟨8, 0⟩ (fun _ => seqBackend) m1 = .ok m2 ∧
      (∀ p, F.InBounds [(0, 1), (1, 2), (2, 3)] p → F.El m2 (F.cell3d ⟨8, 0⟩ 0 1 2 1 2 3 1) p (R p)) ∧
      F.low3 (T := Rat) 0 1 2 1 2 3 2 exDx 0 1 * (F.sum 0 1 fun i => F.sum 1 2 fun j => F.sum 2 3 fun k => (exIns 3 5) [i, j, k] * (exIns 3 5) [i, j, k]) ≤ (F.sum 0 1 fun i => F.sum 1 2 fun j => F.sum 2 3 fun k => (exIns 3 5) [i, j, k] * R [i, j, k]) ∧ (F.sum 0 1 fun i => F.sum 1 2 fun j => F.sum 2 3 fun k => (exIns 3 5) [i, j, k] * R [i, j, k]) ≤ (4 * 2 * (1 / (exDx 0 * exDx 0) + 1 / (exDx 1 * exDx 1) + 1 / (exDx 2 * exDx 2))) * (F.sum 0 1 fun i => F.sum 1 2 fun j => F.sum 2 3 fun k => (exIns 3 5) [i, j, k] * (exIns 3 5) [i, j, k]) ∧
      F.low3 (T := Rat) 0 1 2 1 2 3 2 exDx 0 1 * F.low3 (T := Rat) 0 1 2 1 2 3 2 exDx 0 1 * (F.sum 0 1 fun i => F.sum 1 2 fun j => F.sum 2 3 fun k => (exIns 3 5) [i, j, k] * (exIns 3 5) [i, j, k]) ≤ (F.sum 0 1 fun i => F.sum 1 2 fun j => F.sum 2 3 fun k => R [i, j, k] * R [i, j, k]) ∧ (F.sum 0 1 fun i => F.sum 1 2 fun j => F.sum 2 3 fun k => R [i, j, k] * R [i, j, k]) ≤ (4 * 2 * (1 / (exDx 0 * exDx 0) + 1 / (exDx 1 * exDx 1) + 1 / (exDx 2 * exDx 2))) * (4 * 2 * (1 / (exDx 0 * exDx 0) + 1 / (exDx 1 * exDx 1) + 1 / (exDx 2 * exDx 2))) * (F.sum 0 1 fun i => F.sum 1 2 fun j => F.sum 2 3 fun k => (exIns 3 5) [i, j, k] * (exIns 3 5) [i, j, k]) :=
  C108_poisson_3d (T := Rat) (fun _ => revBackend_ok) (fun _ => seqBackend_ok) (by decide) (by decide) (by decide) (by decide) (by decide) (exDir_args (by ex_args)) (⟨apart_blk (by decide), apart_blk (by decide), apart_blk (by decide)⟩) ⟨apart_blk (by decide), apart_blk (by decide), apart_blk (by decide)⟩
     exDir_u3 exIns_zero3 exEll_p_3

end Verif
