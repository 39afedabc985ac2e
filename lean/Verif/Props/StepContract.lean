import Verif.Lemmas.SpectralEx

/-
C109: explicit steps with the operator of the flux and apply kernels bring fields closer to each other in the mean square norm.
-/

namespace Verif
open Spec

set_option linter.unusedVariables false
set_option linter.unusedSectionVars false

variable {T : Type} [Field T] [LinearOrder T] [IsStrictOrderedRing T]

/-- 1D, diffusion operator with cell coefficients: for runs from unknowns that agree outside the box, steps of length `t` with `t L ≤ 2` reduce the mean square distance by the factor given. -/
theorem C109_v1_1d {i0 i1 agcw gcw rgcw : Int} {alpha beta : T} {dx : Nat → T} {a u b0 f0 res : Ptr} {β1 β2 : Nat → Backend} {β3 β4 : Nat → Backend} {m m' : Mem T} {A B0 U V : List Int → T} {amin bmin L : T} {t : T}
    (hβ1 : ∀ n, ValidBackend (β1 n)) (hβ2 : ∀ n, ValidBackend (β2 n)) (hβ3 : ∀ n, ValidBackend (β3 n)) (hβ4 : ∀ n, ValidBackend (β4 n)) (hi : i0 ≤ i1) (hg : 1 ≤ gcw) (hagcw : 0 ≤ agcw) (hrgcw : 0 ≤ rgcw)
    (h : F.Args m [(F.cell1d a i0 i1 agcw), (F.cell1d u i0 i1 gcw), (F.face1d b0 i0 i1 0)] [(F.face1d f0 i0 i1 0), (F.cell1d res i0 i1 rgcw)]) (h' : F.Args m' [(F.cell1d a i0 i1 agcw), (F.cell1d u i0 i1 gcw), (F.face1d b0 i0 i1 0)] [(F.face1d f0 i0 i1 0), (F.cell1d res i0 i1 rgcw)])
    (hr : F.Apart (F.cell1d res i0 i1 rgcw) (F.face1d f0 i0 i1 0))
    (hA : F.Holds m (F.cell1d a i0 i1 agcw) A) (hB0 : F.Holds m (F.face1d b0 i0 i1 0) B0) (hU : F.Holds m (F.cell1d u i0 i1 gcw) U)
    (hA' : F.Holds m' (F.cell1d a i0 i1 agcw) A) (hB0' : F.Holds m' (F.face1d b0 i0 i1 0) B0) (hV : F.Holds m' (F.cell1d u i0 i1 gcw) V)
    (hUV : ∀ p, ¬ F.InBounds [(i0, i1)] p → U p = V p) (he : F.Elliptic1 i0 i1 alpha beta dx A B0)
    (hL : F.Low1 i0 i1 alpha A B0 amin bmin) (hT : F.Top1 i0 i1 alpha beta dx A B0 L) (ht0 : 0 ≤ t) (ht : t * L ≤ 2) :
    ∃ m1 m2 p1 p2, ∃ R S : List Int → T, Cuda.flux1d i0 i1 dx b0 gcw u f0 β1 m = .ok m1 ∧ Cuda.diffusionV1Apply1d i0 i1 alpha beta dx agcw a gcw u f0 rgcw res β2 m1 = .ok m2 ∧
      (∀ p, F.InBounds [(i0, i1)] p → F.El m2 (F.cell1d res i0 i1 rgcw) p (R p)) ∧
      Cuda.flux1d i0 i1 dx b0 gcw u f0 β3 m' = .ok p1 ∧ Cuda.diffusionV1Apply1d i0 i1 alpha beta dx agcw a gcw u f0 rgcw res β4 p1 = .ok p2 ∧
      (∀ p, F.InBounds [(i0, i1)] p → F.El p2 (F.cell1d res i0 i1 rgcw) p (S p)) ∧
      (F.sum i0 i1 fun i => (U [i] - t * R [i] - (V [i] - t * S [i])) * (U [i] - t * R [i] - (V [i] - t * S [i]))) ≤ (1 - t * (2 - t * L) * F.low1 i0 i1 beta dx amin bmin) * (F.sum i0 i1 fun i => (U [i] - V [i]) * (U [i] - V [i])) := by
  obtain ⟨m1, m2, R, c1, c2, E, hR⟩ := energy_v1_1 (alpha := alpha) (beta := beta) (dx := dx) hβ1 hβ2 hi hg hagcw hrgcw h hr hA hB0 hU
  obtain ⟨p1, p2, S, d1, d2, E', hS⟩ := energy_v1_1 (alpha := alpha) (beta := beta) (dx := dx) hβ3 hβ4 hi hg hagcw hrgcw h' hr hA' hB0' hV
  have hD : ∀ p, ¬ F.InBounds [(i0, i1)] p → (fun p => U p - V p) p = 0 := fun p hp => sub_eq_zero.2 (hUV p hp)
  have e : (F.sum i0 i1 fun i => (U [i] - V [i]) * R [i]) = F.form1 i0 i1 alpha beta dx A B0 U (fun p => U p - V p) := by
    rw [← F.weak1 hi hD]
    exact F.sum_congr fun i h0 h1 => (by rw [hR i h0 h1])
  have e' : (F.sum i0 i1 fun i => (U [i] - V [i]) * S [i]) = F.form1 i0 i1 alpha beta dx A B0 V (fun p => U p - V p) := by
    rw [← F.weak1 hi hD]
    exact F.sum_congr fun i h0 h1 => (by rw [hS i h0 h1])
  obtain ⟨E0, hE, hEz⟩ := F.cut_off (F.InBounds [(i0, i1)]) (fun p => R p - S p)
  have qe : (F.sum i0 i1 fun i => E0 [i] * E0 [i]) = (F.sum i0 i1 fun i => (R [i] - S [i]) * (R [i] - S [i])) := F.sum_congr fun i h0 h1 => by rw [hE _ (F.inBounds1.2 ⟨i, rfl, by omega⟩)]
  have hq : F.form1 i0 i1 alpha beta dx A B0 (fun p => U p - V p) E0 = (F.sum i0 i1 fun i => E0 [i] * E0 [i]) := by
    rw [F.form1_sub, ← F.weak1 hi hEz, ← F.weak1 hi hEz]
    simp only [← F.sum_sub]
    exact F.sum_congr fun i h0 h1 => by rw [← hR i h0 h1, ← hS i h0 h1, hE _ (F.inBounds1.2 ⟨i, rfl, by omega⟩)]; ring
  have r := F.form1_res hi he hT hEz hq
  have lo := F.form1_low (dx := dx) hi he.beta.le hL hD
  rw [qe] at r
  have a : (F.sum i0 i1 fun i => (U [i] - V [i]) * (R [i] - S [i])) = F.form1 i0 i1 alpha beta dx A B0 (fun p => U p - V p) (fun p => U p - V p) := by
    rw [F.form1_sub, ← e, ← e']
    simp only [← F.sum_sub]
    exact F.sum_congr fun i h0 h1 => by ring
  have sq := F.sq1 (X := (fun p => U p - V p)) (Y := fun p => R p - S p) (t := t) (i0 := i0) (i1 := i1)
  refine ⟨m1, m2, p1, p2, R, S, c1, c2, E, d1, d2, E', ?_⟩
  refine le_trans (le_of_eq ?_) (F.step_le r lo ht0 ht)
  rw [← a, ← sq]
  exact F.sum_congr fun i h0 h1 => by ring

example : ∃ m1 m2 p1 p2, ∃ R S : List Int → Rat, Cuda.flux1d 0 3 exDx ⟨2, 0⟩ 2 ⟨1, 0⟩ ⟨5, 0⟩ (fun _ => revBackend) (exDir 1 5 1) = .ok m1 ∧ Cuda.diffusionV1Apply1d 0 3 3 2 exDx 1 ⟨0, 0⟩ 2 ⟨1, 0⟩ ⟨5, 0⟩ 1 ⟨8, 0⟩ (fun _ => seqBackend) m1 = .ok m2 ∧
      (∀ p, F.InBounds [(0, 3)] p → F.El m2 (F.cell1d ⟨8, 0⟩ 0 3 1) p (R p)) ∧
      Cuda.flux1d 0 3 exDx ⟨2, 0⟩ 2 ⟨1, 0⟩ ⟨5, 0⟩ (fun _ => seqBackend) (exDir 1 7 2) = .ok p1 ∧ Cuda.diffusionV1Apply1d 0 3 3 2 exDx 1 ⟨0, 0⟩ 2 ⟨1, 0⟩ ⟨5, 0⟩ 1 ⟨8, 0⟩ (fun _ => revBackend) p1 = .ok p2 ∧
      (∀ p, F.InBounds [(0, 3)] p → F.El p2 (F.cell1d ⟨8, 0⟩ 0 3 1) p (S p)) ∧
      (F.sum 0 3 fun i => ((exIns 1 5) [i] - 1 / 100000 * R [i] - ((exIns 1 7) [i] - 1 / 100000 * S [i])) * ((exIns 1 5) [i] - 1 / 100000 * R [i] - ((exIns 1 7) [i] - 1 / 100000 * S [i]))) ≤ (1 - 1 / 100000 * (2 - 1 / 100000 * 100000) * F.low1 (T := Rat) 0 3 2 exDx 0 14) * (F.sum 0 3 fun i => ((exIns 1 5) [i] - (exIns 1 7) [i]) * ((exIns 1 5) [i] - (exIns 1 7) [i])) :=
  C109_v1_1d (T := Rat) (fun _ => revBackend_ok) (fun _ => seqBackend_ok) (fun _ => seqBackend_ok) (fun _ => revBackend_ok) (by decide) (by decide) (by decide) (by decide) (exDir_args (by ex_args)) (exDir_args (by ex_args)) (apart_blk (by decide))
    (exDir_rd (by decide) (exRat_ok rfl (by decide) (by decide))) (exDir_rd (by decide) (exRat_ok rfl (by decide) (by decide))) exDir_u1 (exDir_rd (by decide) (exRat_ok rfl (by decide) (by decide))) (exDir_rd (by decide) (exRat_ok rfl (by decide) (by decide))) exDir_u1 (fun p hp => (exIns_zero1 p hp).trans (exIns_zero1 p hp).symm) exEll_v1_1 exLow_v1_1 exTop_v1_1 (by norm_num) (by norm_num [exDx])

/-- 1D, diffusion operator with constant reaction: for runs from unknowns that agree outside the box, steps of length `t` with `t L ≤ 2` reduce the mean square distance by the factor given. -/
theorem C109_v2_1d {i0 i1 gcw rgcw : Int} {alpha beta : T} {dx : Nat → T} {u b0 f0 res : Ptr} {β1 β2 : Nat → Backend} {β3 β4 : Nat → Backend} {m m' : Mem T} {B0 U V : List Int → T} {amin bmin L : T} {t : T}
    (hβ1 : ∀ n, ValidBackend (β1 n)) (hβ2 : ∀ n, ValidBackend (β2 n)) (hβ3 : ∀ n, ValidBackend (β3 n)) (hβ4 : ∀ n, ValidBackend (β4 n)) (hi : i0 ≤ i1) (hg : 1 ≤ gcw) (hrgcw : 0 ≤ rgcw)
    (h : F.Args m [(F.cell1d u i0 i1 gcw), (F.face1d b0 i0 i1 0)] [(F.face1d f0 i0 i1 0), (F.cell1d res i0 i1 rgcw)]) (h' : F.Args m' [(F.cell1d u i0 i1 gcw), (F.face1d b0 i0 i1 0)] [(F.face1d f0 i0 i1 0), (F.cell1d res i0 i1 rgcw)])
    (hr : F.Apart (F.cell1d res i0 i1 rgcw) (F.face1d f0 i0 i1 0))
    (hB0 : F.Holds m (F.face1d b0 i0 i1 0) B0) (hU : F.Holds m (F.cell1d u i0 i1 gcw) U)
    (hB0' : F.Holds m' (F.face1d b0 i0 i1 0) B0) (hV : F.Holds m' (F.cell1d u i0 i1 gcw) V)
    (hUV : ∀ p, ¬ F.InBounds [(i0, i1)] p → U p = V p) (he : F.Elliptic1 i0 i1 alpha beta dx (fun _ => 1) B0)
    (hL : F.Low1 i0 i1 alpha (fun _ => 1) B0 amin bmin) (hT : F.Top1 i0 i1 alpha beta dx (fun _ => 1) B0 L) (ht0 : 0 ≤ t) (ht : t * L ≤ 2) :
    ∃ m1 m2 p1 p2, ∃ R S : List Int → T, Cuda.flux1d i0 i1 dx b0 gcw u f0 β1 m = .ok m1 ∧ Cuda.diffusionV2Apply1d i0 i1 alpha beta dx gcw u f0 rgcw res β2 m1 = .ok m2 ∧
      (∀ p, F.InBounds [(i0, i1)] p → F.El m2 (F.cell1d res i0 i1 rgcw) p (R p)) ∧
      Cuda.flux1d i0 i1 dx b0 gcw u f0 β3 m' = .ok p1 ∧ Cuda.diffusionV2Apply1d i0 i1 alpha beta dx gcw u f0 rgcw res β4 p1 = .ok p2 ∧
      (∀ p, F.InBounds [(i0, i1)] p → F.El p2 (F.cell1d res i0 i1 rgcw) p (S p)) ∧
      (F.sum i0 i1 fun i => (U [i] - t * R [i] - (V [i] - t * S [i])) * (U [i] - t * R [i] - (V [i] - t * S [i]))) ≤ (1 - t * (2 - t * L) * F.low1 i0 i1 beta dx amin bmin) * (F.sum i0 i1 fun i => (U [i] - V [i]) * (U [i] - V [i])) := by
  obtain ⟨m1, m2, R, c1, c2, E, hR⟩ := energy_v2_1 (alpha := alpha) (beta := beta) (dx := dx) hβ1 hβ2 hi hg hrgcw h hr hB0 hU
  obtain ⟨p1, p2, S, d1, d2, E', hS⟩ := energy_v2_1 (alpha := alpha) (beta := beta) (dx := dx) hβ3 hβ4 hi hg hrgcw h' hr hB0' hV
  have hD : ∀ p, ¬ F.InBounds [(i0, i1)] p → (fun p => U p - V p) p = 0 := fun p hp => sub_eq_zero.2 (hUV p hp)
  have e : (F.sum i0 i1 fun i => (U [i] - V [i]) * R [i]) = F.form1 i0 i1 alpha beta dx (fun _ => 1) B0 U (fun p => U p - V p) := by
    rw [← F.weak1 hi hD]
    exact F.sum_congr fun i h0 h1 => (by rw [hR i h0 h1])
  have e' : (F.sum i0 i1 fun i => (U [i] - V [i]) * S [i]) = F.form1 i0 i1 alpha beta dx (fun _ => 1) B0 V (fun p => U p - V p) := by
    rw [← F.weak1 hi hD]
    exact F.sum_congr fun i h0 h1 => (by rw [hS i h0 h1])
  obtain ⟨E0, hE, hEz⟩ := F.cut_off (F.InBounds [(i0, i1)]) (fun p => R p - S p)
  have qe : (F.sum i0 i1 fun i => E0 [i] * E0 [i]) = (F.sum i0 i1 fun i => (R [i] - S [i]) * (R [i] - S [i])) := F.sum_congr fun i h0 h1 => by rw [hE _ (F.inBounds1.2 ⟨i, rfl, by omega⟩)]
  have hq : F.form1 i0 i1 alpha beta dx (fun _ => 1) B0 (fun p => U p - V p) E0 = (F.sum i0 i1 fun i => E0 [i] * E0 [i]) := by
    rw [F.form1_sub, ← F.weak1 hi hEz, ← F.weak1 hi hEz]
    simp only [← F.sum_sub]
    exact F.sum_congr fun i h0 h1 => by rw [← hR i h0 h1, ← hS i h0 h1, hE _ (F.inBounds1.2 ⟨i, rfl, by omega⟩)]; ring
  have r := F.form1_res hi he hT hEz hq
  have lo := F.form1_low (dx := dx) hi he.beta.le hL hD
  rw [qe] at r
  have a : (F.sum i0 i1 fun i => (U [i] - V [i]) * (R [i] - S [i])) = F.form1 i0 i1 alpha beta dx (fun _ => 1) B0 (fun p => U p - V p) (fun p => U p - V p) := by
    rw [F.form1_sub, ← e, ← e']
    simp only [← F.sum_sub]
    exact F.sum_congr fun i h0 h1 => by ring
  have sq := F.sq1 (X := (fun p => U p - V p)) (Y := fun p => R p - S p) (t := t) (i0 := i0) (i1 := i1)
  refine ⟨m1, m2, p1, p2, R, S, c1, c2, E, d1, d2, E', ?_⟩
  refine le_trans (le_of_eq ?_) (F.step_le r lo ht0 ht)
  rw [← a, ← sq]
  exact F.sum_congr fun i h0 h1 => by ring

example : ∃ m1 m2 p1 p2, ∃ R S : List Int → Rat, Cuda.flux1d 0 3 exDx ⟨2, 0⟩ 2 ⟨1, 0⟩ ⟨5, 0⟩ (fun _ => revBackend) (exDir 1 5 1) = .ok m1 ∧ Cuda.diffusionV2Apply1d 0 3 3 2 exDx 2 ⟨1, 0⟩ ⟨5, 0⟩ 1 ⟨8, 0⟩ (fun _ => seqBackend) m1 = .ok m2 ∧
      (∀ p, F.InBounds [(0, 3)] p → F.El m2 (F.cell1d ⟨8, 0⟩ 0 3 1) p (R p)) ∧
      Cuda.flux1d 0 3 exDx ⟨2, 0⟩ 2 ⟨1, 0⟩ ⟨5, 0⟩ (fun _ => seqBackend) (exDir 1 7 2) = .ok p1 ∧ Cuda.diffusionV2Apply1d 0 3 3 2 exDx 2 ⟨1, 0⟩ ⟨5, 0⟩ 1 ⟨8, 0⟩ (fun _ => revBackend) p1 = .ok p2 ∧
      (∀ p, F.InBounds [(0, 3)] p → F.El p2 (F.cell1d ⟨8, 0⟩ 0 3 1) p (S p)) ∧
      (F.sum 0 3 fun i => ((exIns 1 5) [i] - 1 / 100000 * R [i] - ((exIns 1 7) [i] - 1 / 100000 * S [i])) * ((exIns 1 5) [i] - 1 / 100000 * R [i] - ((exIns 1 7) [i] - 1 / 100000 * S [i]))) ≤ (1 - 1 / 100000 * (2 - 1 / 100000 * 100000) * F.low1 (T := Rat) 0 3 2 exDx 3 14) * (F.sum 0 3 fun i => ((exIns 1 5) [i] - (exIns 1 7) [i]) * ((exIns 1 5) [i] - (exIns 1 7) [i])) :=
  C109_v2_1d (T := Rat) (fun _ => revBackend_ok) (fun _ => seqBackend_ok) (fun _ => seqBackend_ok) (fun _ => revBackend_ok) (by decide) (by decide) (by decide) (exDir_args (by ex_args)) (exDir_args (by ex_args)) (apart_blk (by decide))
    (exDir_rd (by decide) (exRat_ok rfl (by decide) (by decide))) exDir_u1 (exDir_rd (by decide) (exRat_ok rfl (by decide) (by decide))) exDir_u1 (fun p hp => (exIns_zero1 p hp).trans (exIns_zero1 p hp).symm) exEll_v2_1 exLow_v2_1 exTop_v2_1 (by norm_num) (by norm_num [exDx])

/-- 1D, Poisson operator: for runs from unknowns that agree outside the box, steps of length `t` with `t L ≤ 2` reduce the mean square distance by the factor given. -/
theorem C109_poisson_1d {i0 i1 gcw rgcw : Int} {beta : T} {dx : Nat → T} {u f0 res : Ptr} {β1 β2 : Nat → Backend} {β3 β4 : Nat → Backend} {m m' : Mem T} {U V : List Int → T} {t : T}
    (hβ1 : ∀ n, ValidBackend (β1 n)) (hβ2 : ∀ n, ValidBackend (β2 n)) (hβ3 : ∀ n, ValidBackend (β3 n)) (hβ4 : ∀ n, ValidBackend (β4 n)) (hi : i0 ≤ i1) (hg : 1 ≤ gcw) (hrgcw : 0 ≤ rgcw)
    (h : F.Args m [(F.cell1d u i0 i1 gcw)] [(F.face1d f0 i0 i1 0), (F.cell1d res i0 i1 rgcw)]) (h' : F.Args m' [(F.cell1d u i0 i1 gcw)] [(F.face1d f0 i0 i1 0), (F.cell1d res i0 i1 rgcw)])
    (hr : F.Apart (F.cell1d res i0 i1 rgcw) (F.face1d f0 i0 i1 0))
    (hU : F.Holds m (F.cell1d u i0 i1 gcw) U)
    (hV : F.Holds m' (F.cell1d u i0 i1 gcw) V)
    (hUV : ∀ p, ¬ F.InBounds [(i0, i1)] p → U p = V p) (he : F.Elliptic1 i0 i1 0 beta dx (fun _ => 1) (fun _ => 1)) (ht0 : 0 ≤ t) (ht : t * (4 * beta * (1 / (dx 0 * dx 0))) ≤ 2) :
    ∃ m1 m2 p1 p2, ∃ R S : List Int → T, Cuda.poissonFlux1d i0 i1 dx gcw u f0 β1 m = .ok m1 ∧ Cuda.poissonV2Apply1d i0 i1 beta dx f0 rgcw res β2 m1 = .ok m2 ∧
      (∀ p, F.InBounds [(i0, i1)] p → F.El m2 (F.cell1d res i0 i1 rgcw) p (R p)) ∧
      Cuda.poissonFlux1d i0 i1 dx gcw u f0 β3 m' = .ok p1 ∧ Cuda.poissonV2Apply1d i0 i1 beta dx f0 rgcw res β4 p1 = .ok p2 ∧
      (∀ p, F.InBounds [(i0, i1)] p → F.El p2 (F.cell1d res i0 i1 rgcw) p (S p)) ∧
      (F.sum i0 i1 fun i => (U [i] - t * R [i] - (V [i] - t * S [i])) * (U [i] - t * R [i] - (V [i] - t * S [i]))) ≤ (1 - t * (2 - t * (4 * beta * (1 / (dx 0 * dx 0)))) * F.low1 i0 i1 beta dx 0 1) * (F.sum i0 i1 fun i => (U [i] - V [i]) * (U [i] - V [i])) := by
  obtain ⟨m1, m2, R, c1, c2, E, hR⟩ := energy_p_1 (beta := beta) (dx := dx) hβ1 hβ2 hi hg hrgcw h hr hU
  obtain ⟨p1, p2, S, d1, d2, E', hS⟩ := energy_p_1 (beta := beta) (dx := dx) hβ3 hβ4 hi hg hrgcw h' hr hV
  have hD : ∀ p, ¬ F.InBounds [(i0, i1)] p → (fun p => U p - V p) p = 0 := fun p hp => sub_eq_zero.2 (hUV p hp)
  have e : (F.sum i0 i1 fun i => (U [i] - V [i]) * R [i]) = F.form1 i0 i1 0 beta dx (fun _ => 1) (fun _ => 1) U (fun p => U p - V p) := by
    rw [← F.weak1 hi hD]
    exact F.sum_congr fun i h0 h1 => (by rw [hR i h0 h1])
  have e' : (F.sum i0 i1 fun i => (U [i] - V [i]) * S [i]) = F.form1 i0 i1 0 beta dx (fun _ => 1) (fun _ => 1) V (fun p => U p - V p) := by
    rw [← F.weak1 hi hD]
    exact F.sum_congr fun i h0 h1 => (by rw [hS i h0 h1])
  have hL : F.Low1 i0 i1 0 (fun _ => 1) (fun _ => 1) 0 (1 : T) := ⟨le_rfl, zero_le_one, fun _ _ _ => le_rfl, fun _ _ _ => by simp⟩
  have hT : F.Top1 i0 i1 0 beta dx (fun _ => 1) (fun _ => 1) (4 * beta * (1 / (dx 0 * dx 0))) := fun _ _ _ => le_of_eq (by ring)
  obtain ⟨E0, hE, hEz⟩ := F.cut_off (F.InBounds [(i0, i1)]) (fun p => R p - S p)
  have qe : (F.sum i0 i1 fun i => E0 [i] * E0 [i]) = (F.sum i0 i1 fun i => (R [i] - S [i]) * (R [i] - S [i])) := F.sum_congr fun i h0 h1 => by rw [hE _ (F.inBounds1.2 ⟨i, rfl, by omega⟩)]
  have hq : F.form1 i0 i1 0 beta dx (fun _ => 1) (fun _ => 1) (fun p => U p - V p) E0 = (F.sum i0 i1 fun i => E0 [i] * E0 [i]) := by
    rw [F.form1_sub, ← F.weak1 hi hEz, ← F.weak1 hi hEz]
    simp only [← F.sum_sub]
    exact F.sum_congr fun i h0 h1 => by rw [← hR i h0 h1, ← hS i h0 h1, hE _ (F.inBounds1.2 ⟨i, rfl, by omega⟩)]; ring
  have r := F.form1_res hi he hT hEz hq
  have lo := F.form1_low (dx := dx) hi he.beta.le hL hD
  rw [qe] at r
  have a : (F.sum i0 i1 fun i => (U [i] - V [i]) * (R [i] - S [i])) = F.form1 i0 i1 0 beta dx (fun _ => 1) (fun _ => 1) (fun p => U p - V p) (fun p => U p - V p) := by
    rw [F.form1_sub, ← e, ← e']
    simp only [← F.sum_sub]
    exact F.sum_congr fun i h0 h1 => by ring
  have sq := F.sq1 (X := (fun p => U p - V p)) (Y := fun p => R p - S p) (t := t) (i0 := i0) (i1 := i1)
  refine ⟨m1, m2, p1, p2, R, S, c1, c2, E, d1, d2, E', ?_⟩
  refine le_trans (le_of_eq ?_) (F.step_le r lo ht0 ht)
  rw [← a, ← sq]
  exact F.sum_congr fun i h0 h1 => by ring

example : ∃ m1 m2 p1 p2, ∃ R S : List Int → Rat, Cuda.poissonFlux1d 0 3 exDx 2 ⟨1, 0⟩ ⟨5, 0⟩ (fun _ => revBackend) (exDir 1 5 1) = .ok m1 ∧ Cuda.poissonV2Apply1d 0 3 2 exDx ⟨5, 0⟩ 1 ⟨8, 0⟩ (fun _ => seqBackend) m1 = .ok m2 ∧
      (∀ p, F.InBounds [(0, 3)] p → F.El m2 (F.cell1d ⟨8, 0⟩ 0 3 1) p (R p)) ∧
      Cuda.poissonFlux1d 0 3 exDx 2 ⟨1, 0⟩ ⟨5, 0⟩ (fun _ => seqBackend) (exDir 1 7 2) = .ok p1 ∧ Cuda.poissonV2Apply1d 0 3 2 exDx ⟨5, 0⟩ 1 ⟨8, 0⟩ (fun _ => revBackend) p1 = .ok p2 ∧
      (∀ p, F.InBounds [(0, 3)] p → F.El p2 (F.cell1d ⟨8, 0⟩ 0 3 1) p (S p)) ∧
      (F.sum 0 3 fun i => ((exIns 1 5) [i] - 1 / 200 * R [i] - ((exIns 1 7) [i] - 1 / 200 * S [i])) * ((exIns 1 5) [i] - 1 / 200 * R [i] - ((exIns 1 7) [i] - 1 / 200 * S [i]))) ≤ (1 - 1 / 200 * (2 - 1 / 200 * (4 * 2 * (1 / (exDx 0 * exDx 0)))) * F.low1 (T := Rat) 0 3 2 exDx 0 1) * (F.sum 0 3 fun i => ((exIns 1 5) [i] - (exIns 1 7) [i]) * ((exIns 1 5) [i] - (exIns 1 7) [i])) :=
  C109_poisson_1d (T := Rat) (fun _ => revBackend_ok) (fun _ => seqBackend_ok) (fun _ => seqBackend_ok) (fun _ => revBackend_ok) (by decide) (by decide) (by decide) (exDir_args (by ex_args)) (exDir_args (by ex_args)) (apart_blk (by decide))
     exDir_u1  exDir_u1 (fun p hp => (exIns_zero1 p hp).trans (exIns_zero1 p hp).symm) exEll_p_1 (by norm_num) (by norm_num [exDx])

/-- 2D, diffusion operator with cell coefficients: for runs from unknowns that agree outside the box, steps of length `t` with `t L ≤ 2` reduce the mean square distance by the factor given. -/
theorem C109_v1_2d {i0 j0 i1 j1 agcw gcw rgcw : Int} {alpha beta : T} {dx : Nat → T} {a u b0 b1 f0 f1 res : Ptr} {β1 β2 : Nat → Backend} {β3 β4 : Nat → Backend} {m m' : Mem T} {A B0 B1 U V : List Int → T} {amin bmin L : T} {t : T}
    (hβ1 : ∀ n, ValidBackend (β1 n)) (hβ2 : ∀ n, ValidBackend (β2 n)) (hβ3 : ∀ n, ValidBackend (β3 n)) (hβ4 : ∀ n, ValidBackend (β4 n)) (hi : i0 ≤ i1) (hj : j0 ≤ j1) (hg : 1 ≤ gcw) (hagcw : 0 ≤ agcw) (hrgcw : 0 ≤ rgcw)
    (h : F.Args m [(F.cell2d a i0 j0 i1 j1 agcw), (F.cell2d u i0 j0 i1 j1 gcw), (F.face2d0 b0 i0 j0 i1 j1 0), (F.face2d1 b1 i0 j0 i1 j1 0)] [(F.face2d0 f0 i0 j0 i1 j1 0), (F.face2d1 f1 i0 j0 i1 j1 0), (F.cell2d res i0 j0 i1 j1 rgcw)]) (h' : F.Args m' [(F.cell2d a i0 j0 i1 j1 agcw), (F.cell2d u i0 j0 i1 j1 gcw), (F.face2d0 b0 i0 j0 i1 j1 0), (F.face2d1 b1 i0 j0 i1 j1 0)] [(F.face2d0 f0 i0 j0 i1 j1 0), (F.face2d1 f1 i0 j0 i1 j1 0), (F.cell2d res i0 j0 i1 j1 rgcw)])
    (hp : F.Apart (F.face2d0 f0 i0 j0 i1 j1 0) (F.face2d1 f1 i0 j0 i1 j1 0))
    (hr : F.Apart (F.cell2d res i0 j0 i1 j1 rgcw) (F.face2d0 f0 i0 j0 i1 j1 0) ∧ F.Apart (F.cell2d res i0 j0 i1 j1 rgcw) (F.face2d1 f1 i0 j0 i1 j1 0))
    (hA : F.Holds m (F.cell2d a i0 j0 i1 j1 agcw) A) (hB0 : F.Holds m (F.face2d0 b0 i0 j0 i1 j1 0) B0) (hB1 : F.Holds m (F.face2d1 b1 i0 j0 i1 j1 0) B1) (hU : F.Holds m (F.cell2d u i0 j0 i1 j1 gcw) U)
    (hA' : F.Holds m' (F.cell2d a i0 j0 i1 j1 agcw) A) (hB0' : F.Holds m' (F.face2d0 b0 i0 j0 i1 j1 0) B0) (hB1' : F.Holds m' (F.face2d1 b1 i0 j0 i1 j1 0) B1) (hV : F.Holds m' (F.cell2d u i0 j0 i1 j1 gcw) V)
    (hUV : ∀ p, ¬ F.InBounds [(i0, i1), (j0, j1)] p → U p = V p) (he : F.Elliptic2 i0 j0 i1 j1 alpha beta dx A B0 B1)
    (hL : F.Low2 i0 j0 i1 j1 alpha A B0 B1 amin bmin) (hT : F.Top2 i0 j0 i1 j1 alpha beta dx A B0 B1 L) (ht0 : 0 ≤ t) (ht : t * L ≤ 2) :
    ∃ m1 m2 p1 p2, ∃ R S : List Int → T, Cuda.flux2d i0 j0 i1 j1 dx b0 b1 gcw u f0 f1 β1 m = .ok m1 ∧ Cuda.diffusionV1Apply2d i0 i1 j0 j1 alpha beta dx agcw a gcw u f0 f1 rgcw res β2 m1 = .ok m2 ∧
      (∀ p, F.InBounds [(i0, i1), (j0, j1)] p → F.El m2 (F.cell2d res i0 j0 i1 j1 rgcw) p (R p)) ∧
      Cuda.flux2d i0 j0 i1 j1 dx b0 b1 gcw u f0 f1 β3 m' = .ok p1 ∧ Cuda.diffusionV1Apply2d i0 i1 j0 j1 alpha beta dx agcw a gcw u f0 f1 rgcw res β4 p1 = .ok p2 ∧
      (∀ p, F.InBounds [(i0, i1), (j0, j1)] p → F.El p2 (F.cell2d res i0 j0 i1 j1 rgcw) p (S p)) ∧
      (F.sum i0 i1 fun i => F.sum j0 j1 fun j => (U [i, j] - t * R [i, j] - (V [i, j] - t * S [i, j])) * (U [i, j] - t * R [i, j] - (V [i, j] - t * S [i, j]))) ≤ (1 - t * (2 - t * L) * F.low2 i0 j0 i1 j1 beta dx amin bmin) * (F.sum i0 i1 fun i => F.sum j0 j1 fun j => (U [i, j] - V [i, j]) * (U [i, j] - V [i, j])) := by
  obtain ⟨m1, m2, R, c1, c2, E, hR⟩ := energy_v1_2 (alpha := alpha) (beta := beta) (dx := dx) hβ1 hβ2 hi hj hg hagcw hrgcw h hp hr hA hB0 hB1 hU
  obtain ⟨p1, p2, S, d1, d2, E', hS⟩ := energy_v1_2 (alpha := alpha) (beta := beta) (dx := dx) hβ3 hβ4 hi hj hg hagcw hrgcw h' hp hr hA' hB0' hB1' hV
  have hD : ∀ p, ¬ F.InBounds [(i0, i1), (j0, j1)] p → (fun p => U p - V p) p = 0 := fun p hp => sub_eq_zero.2 (hUV p hp)
  have e : (F.sum i0 i1 fun i => F.sum j0 j1 fun j => (U [i, j] - V [i, j]) * R [i, j]) = F.form2 i0 j0 i1 j1 alpha beta dx A B0 B1 U (fun p => U p - V p) := by
    rw [← F.weak2 hi hj hD]
    exact F.sum_congr fun i h0 h1 => F.sum_congr fun j h2 h3 => (by rw [hR i j h0 h1 h2 h3])
  have e' : (F.sum i0 i1 fun i => F.sum j0 j1 fun j => (U [i, j] - V [i, j]) * S [i, j]) = F.form2 i0 j0 i1 j1 alpha beta dx A B0 B1 V (fun p => U p - V p) := by
    rw [← F.weak2 hi hj hD]
    exact F.sum_congr fun i h0 h1 => F.sum_congr fun j h2 h3 => (by rw [hS i j h0 h1 h2 h3])
  obtain ⟨E0, hE, hEz⟩ := F.cut_off (F.InBounds [(i0, i1), (j0, j1)]) (fun p => R p - S p)
  have qe : (F.sum i0 i1 fun i => F.sum j0 j1 fun j => E0 [i, j] * E0 [i, j]) = (F.sum i0 i1 fun i => F.sum j0 j1 fun j => (R [i, j] - S [i, j]) * (R [i, j] - S [i, j])) := F.sum_congr fun i h0 h1 => F.sum_congr fun j h2 h3 => by rw [hE _ (F.inBounds2.2 ⟨i, j, rfl, by omega⟩)]
  have hq : F.form2 i0 j0 i1 j1 alpha beta dx A B0 B1 (fun p => U p - V p) E0 = (F.sum i0 i1 fun i => F.sum j0 j1 fun j => E0 [i, j] * E0 [i, j]) := by
    rw [F.form2_sub, ← F.weak2 hi hj hEz, ← F.weak2 hi hj hEz]
    simp only [← F.sum_sub]
    exact F.sum_congr fun i h0 h1 => F.sum_congr fun j h2 h3 => by rw [← hR i j h0 h1 h2 h3, ← hS i j h0 h1 h2 h3, hE _ (F.inBounds2.2 ⟨i, j, rfl, by omega⟩)]; ring
  have r := F.form2_res hi hj he hT hEz hq
  have lo := F.form2_low (dx := dx) hi hj he.beta.le hL hD
  rw [qe] at r
  have a : (F.sum i0 i1 fun i => F.sum j0 j1 fun j => (U [i, j] - V [i, j]) * (R [i, j] - S [i, j])) = F.form2 i0 j0 i1 j1 alpha beta dx A B0 B1 (fun p => U p - V p) (fun p => U p - V p) := by
    rw [F.form2_sub, ← e, ← e']
    simp only [← F.sum_sub]
    exact F.sum_congr fun i h0 h1 => F.sum_congr fun j h2 h3 => by ring
  have sq := F.sq2 (X := (fun p => U p - V p)) (Y := fun p => R p - S p) (t := t) (i0 := i0) (i1 := i1) (j0 := j0) (j1 := j1)
  refine ⟨m1, m2, p1, p2, R, S, c1, c2, E, d1, d2, E', ?_⟩
  refine le_trans (le_of_eq ?_) (F.step_le r lo ht0 ht)
  rw [← a, ← sq]
  exact F.sum_congr fun i h0 h1 => F.sum_congr fun j h2 h3 => by ring

example : ∃ m1 m2 p1 p2, ∃ R S : List Int → Rat, Cuda.flux2d 0 1 2 3 exDx ⟨2, 0⟩ ⟨3, 0⟩ 2 ⟨1, 0⟩ ⟨5, 0⟩ ⟨6, 0⟩ (fun _ => revBackend) (exDir 2 5 1) = .ok m1 ∧ Cuda.diffusionV1Apply2d 0 2 1 3 3 2 exDx 1 ⟨0, 0⟩ 2 ⟨1, 0⟩ ⟨5, 0⟩ ⟨6, 0⟩ 1 ⟨8, 0⟩ (fun _ => seqBackend) m1 = .ok m2 ∧
      (∀ p, F.InBounds [(0, 2), (1, 3)] p → F.El m2 (F.cell2d ⟨8, 0⟩ 0 1 2 3 1) p (R p)) ∧
      Cuda.flux2d 0 1 2 3 exDx ⟨2, 0⟩ ⟨3, 0⟩ 2 ⟨1, 0⟩ ⟨5, 0⟩ ⟨6, 0⟩ (fun _ => seqBackend) (exDir 2 7 2) = .ok p1 ∧ Cuda.diffusionV1Apply2d 0 2 1 3 3 2 exDx 1 ⟨0, 0⟩ 2 ⟨1, 0⟩ ⟨5, 0⟩ ⟨6, 0⟩ 1 ⟨8, 0⟩ (fun _ => revBackend) p1 = .ok p2 ∧
      (∀ p, F.InBounds [(0, 2), (1, 3)] p → F.El p2 (F.cell2d ⟨8, 0⟩ 0 1 2 3 1) p (S p)) ∧
      (F.sum 0 2 fun i => F.sum 1 3 fun j => ((exIns 2 5) [i, j] - 1 / 100000 * R [i, j] - ((exIns 2 7) [i, j] - 1 / 100000 * S [i, j])) * ((exIns 2 5) [i, j] - 1 / 100000 * R [i, j] - ((exIns 2 7) [i, j] - 1 / 100000 * S [i, j]))) ≤ (1 - 1 / 100000 * (2 - 1 / 100000 * 100000) * F.low2 (T := Rat) 0 1 2 3 2 exDx 0 14) * (F.sum 0 2 fun i => F.sum 1 3 fun j => ((exIns 2 5) [i, j] - (exIns 2 7) [i, j]) * ((exIns 2 5) [i, j] - (exIns 2 7) [i, j])) :=
  C109_v1_2d (T := Rat) (fun _ => revBackend_ok) (fun _ => seqBackend_ok) (fun _ => seqBackend_ok) (fun _ => revBackend_ok) (by decide) (by decide) (by decide) (by decide) (by decide) (exDir_args (by ex_args)) (exDir_args (by ex_args)) (apart_blk (by decide)) ⟨apart_blk (by decide), apart_blk (by decide)⟩
    (exDir_rd (by decide) (exRat_ok rfl (by decide) (by decide))) (exDir_rd (by decide) (exRat_ok rfl (by decide) (by decide))) (exDir_rd (by decide) (exRat_ok rfl (by decide) (by decide))) exDir_u2 (exDir_rd (by decide) (exRat_ok rfl (by decide) (by decide))) (exDir_rd (by decide) (exRat_ok rfl (by decide) (by decide))) (exDir_rd (by decide) (exRat_ok rfl (by decide) (by decide))) exDir_u2 (fun p hp => (exIns_zero2 p hp).trans (exIns_zero2 p hp).symm) exEll_v1_2 exLow_v1_2 exTop_v1_2 (by norm_num) (by norm_num [exDx])

/-- 2D, diffusion operator with constant reaction: for runs from unknowns that agree outside the box, steps of length `t` with `t L ≤ 2` reduce the mean square distance by the factor given. -/
theorem C109_v2_2d {i0 j0 i1 j1 gcw rgcw : Int} {alpha beta : T} {dx : Nat → T} {u b0 b1 f0 f1 res : Ptr} {β1 β2 : Nat → Backend} {β3 β4 : Nat → Backend} {m m' : Mem T} {B0 B1 U V : List Int → T} {amin bmin L : T} {t : T}
    (hβ1 : ∀ n, ValidBackend (β1 n)) (hβ2 : ∀ n, ValidBackend (β2 n)) (hβ3 : ∀ n, ValidBackend (β3 n)) (hβ4 : ∀ n, ValidBackend (β4 n)) (hi : i0 ≤ i1) (hj : j0 ≤ j1) (hg : 1 ≤ gcw) (hrgcw : 0 ≤ rgcw)
    (h : F.Args m [(F.cell2d u i0 j0 i1 j1 gcw), (F.face2d0 b0 i0 j0 i1 j1 0), (F.face2d1 b1 i0 j0 i1 j1 0)] [(F.face2d0 f0 i0 j0 i1 j1 0), (F.face2d1 f1 i0 j0 i1 j1 0), (F.cell2d res i0 j0 i1 j1 rgcw)]) (h' : F.Args m' [(F.cell2d u i0 j0 i1 j1 gcw), (F.face2d0 b0 i0 j0 i1 j1 0), (F.face2d1 b1 i0 j0 i1 j1 0)] [(F.face2d0 f0 i0 j0 i1 j1 0), (F.face2d1 f1 i0 j0 i1 j1 0), (F.cell2d res i0 j0 i1 j1 rgcw)])
    (hp : F.Apart (F.face2d0 f0 i0 j0 i1 j1 0) (F.face2d1 f1 i0 j0 i1 j1 0))
    (hr : F.Apart (F.cell2d res i0 j0 i1 j1 rgcw) (F.face2d0 f0 i0 j0 i1 j1 0) ∧ F.Apart (F.cell2d res i0 j0 i1 j1 rgcw) (F.face2d1 f1 i0 j0 i1 j1 0))
    (hB0 : F.Holds m (F.face2d0 b0 i0 j0 i1 j1 0) B0) (hB1 : F.Holds m (F.face2d1 b1 i0 j0 i1 j1 0) B1) (hU : F.Holds m (F.cell2d u i0 j0 i1 j1 gcw) U)
    (hB0' : F.Holds m' (F.face2d0 b0 i0 j0 i1 j1 0) B0) (hB1' : F.Holds m' (F.face2d1 b1 i0 j0 i1 j1 0) B1) (hV : F.Holds m' (F.cell2d u i0 j0 i1 j1 gcw) V)
    (hUV : ∀ p, ¬ F.InBounds [(i0, i1), (j0, j1)] p → U p = V p) (he : F.Elliptic2 i0 j0 i1 j1 alpha beta dx (fun _ => 1) B0 B1)
    (hL : F.Low2 i0 j0 i1 j1 alpha (fun _ => 1) B0 B1 amin bmin) (hT : F.Top2 i0 j0 i1 j1 alpha beta dx (fun _ => 1) B0 B1 L) (ht0 : 0 ≤ t) (ht : t * L ≤ 2) :
    ∃ m1 m2 p1 p2, ∃ R S : List Int → T, Cuda.flux2d i0 j0 i1 j1 dx b0 b1 gcw u f0 f1 β1 m = .ok m1 ∧ Cuda.diffusionV2Apply2d i0 i1 j0 j1 alpha beta dx gcw u f0 f1 rgcw res β2 m1 = .ok m2 ∧
      (∀ p, F.InBounds [(i0, i1), (j0, j1)] p → F.El m2 (F.cell2d res i0 j0 i1 j1 rgcw) p (R p)) ∧
      Cuda.flux2d i0 j0 i1 j1 dx b0 b1 gcw u f0 f1 β3 m' = .ok p1 ∧ Cuda.diffusionV2Apply2d i0 i1 j0 j1 alpha beta dx gcw u f0 f1 rgcw res β4 p1 = .ok p2 ∧
      (∀ p, F.InBounds [(i0, i1), (j0, j1)] p → F.El p2 (F.cell2d res i0 j0 i1 j1 rgcw) p (S p)) ∧
      (F.sum i0 i1 fun i => F.sum j0 j1 fun j => (U [i, j] - t * R [i, j] - (V [i, j] - t * S [i, j])) * (U [i, j] - t * R [i, j] - (V [i, j] - t * S [i, j]))) ≤ (1 - t * (2 - t * L) * F.low2 i0 j0 i1 j1 beta dx amin bmin) * (F.sum i0 i1 fun i => F.sum j0 j1 fun j => (U [i, j] - V [i, j]) * (U [i, j] - V [i, j])) := by
  obtain ⟨m1, m2, R, c1, c2, E, hR⟩ := energy_v2_2 (alpha := alpha) (beta := beta) (dx := dx) hβ1 hβ2 hi hj hg hrgcw h hp hr hB0 hB1 hU
  obtain ⟨p1, p2, S, d1, d2, E', hS⟩ := energy_v2_2 (alpha := alpha) (beta := beta) (dx := dx) hβ3 hβ4 hi hj hg hrgcw h' hp hr hB0' hB1' hV
  have hD : ∀ p, ¬ F.InBounds [(i0, i1), (j0, j1)] p → (fun p => U p - V p) p = 0 := fun p hp => sub_eq_zero.2 (hUV p hp)
  have e : (F.sum i0 i1 fun i => F.sum j0 j1 fun j => (U [i, j] - V [i, j]) * R [i, j]) = F.form2 i0 j0 i1 j1 alpha beta dx (fun _ => 1) B0 B1 U (fun p => U p - V p) := by
    rw [← F.weak2 hi hj hD]
    exact F.sum_congr fun i h0 h1 => F.sum_congr fun j h2 h3 => (by rw [hR i j h0 h1 h2 h3])
  have e' : (F.sum i0 i1 fun i => F.sum j0 j1 fun j => (U [i, j] - V [i, j]) * S [i, j]) = F.form2 i0 j0 i1 j1 alpha beta dx (fun _ => 1) B0 B1 V (fun p => U p - V p) := by
    rw [← F.weak2 hi hj hD]
    exact F.sum_congr fun i h0 h1 => F.sum_congr fun j h2 h3 => (by rw [hS i j h0 h1 h2 h3])
  obtain ⟨E0, hE, hEz⟩ := F.cut_off (F.InBounds [(i0, i1), (j0, j1)]) (fun p => R p - S p)
  have qe : (F.sum i0 i1 fun i => F.sum j0 j1 fun j => E0 [i, j] * E0 [i, j]) = (F.sum i0 i1 fun i => F.sum j0 j1 fun j => (R [i, j] - S [i, j]) * (R [i, j] - S [i, j])) := F.sum_congr fun i h0 h1 => F.sum_congr fun j h2 h3 => by rw [hE _ (F.inBounds2.2 ⟨i, j, rfl, by omega⟩)]
  have hq : F.form2 i0 j0 i1 j1 alpha beta dx (fun _ => 1) B0 B1 (fun p => U p - V p) E0 = (F.sum i0 i1 fun i => F.sum j0 j1 fun j => E0 [i, j] * E0 [i, j]) := by
    rw [F.form2_sub, ← F.weak2 hi hj hEz, ← F.weak2 hi hj hEz]
    simp only [← F.sum_sub]
    exact F.sum_congr fun i h0 h1 => F.sum_congr fun j h2 h3 => by rw [← hR i j h0 h1 h2 h3, ← hS i j h0 h1 h2 h3, hE _ (F.inBounds2.2 ⟨i, j, rfl, by omega⟩)]; ring
  have r := F.form2_res hi hj he hT hEz hq
  have lo := F.form2_low (dx := dx) hi hj he.beta.le hL hD
  rw [qe] at r
  have a : (F.sum i0 i1 fun i => F.sum j0 j1 fun j => (U [i, j] - V [i, j]) * (R [i, j] - S [i, j])) = F.form2 i0 j0 i1 j1 alpha beta dx (fun _ => 1) B0 B1 (fun p => U p - V p) (fun p => U p - V p) := by
    rw [F.form2_sub, ← e, ← e']
    simp only [← F.sum_sub]
    exact F.sum_congr fun i h0 h1 => F.sum_congr fun j h2 h3 => by ring
  have sq := F.sq2 (X := (fun p => U p - V p)) (Y := fun p => R p - S p) (t := t) (i0 := i0) (i1 := i1) (j0 := j0) (j1 := j1)
  refine ⟨m1, m2, p1, p2, R, S, c1, c2, E, d1, d2, E', ?_⟩
  refine le_trans (le_of_eq ?_) (F.step_le r lo ht0 ht)
  rw [← a, ← sq]
  exact F.sum_congr fun i h0 h1 => F.sum_congr fun j h2 h3 => by ring

example : ∃ m1 m2 p1 p2, ∃ R S : List Int → Rat, Cuda.flux2d 0 1 2 3 exDx ⟨2, 0⟩ ⟨3, 0⟩ 2 ⟨1, 0⟩ ⟨5, 0⟩ ⟨6, 0⟩ (fun _ => revBackend) (exDir 2 5 1) = .ok m1 ∧ Cuda.diffusionV2Apply2d 0 2 1 3 3 2 exDx 2 ⟨1, 0⟩ ⟨5, 0⟩ ⟨6, 0⟩ 1 ⟨8, 0⟩ (fun _ => seqBackend) m1 = .ok m2 ∧
      (∀ p, F.InBounds [(0, 2), (1, 3)] p → F.El m2 (F.cell2d ⟨8, 0⟩ 0 1 2 3 1) p (R p)) ∧
      Cuda.flux2d 0 1 2 3 exDx ⟨2, 0⟩ ⟨3, 0⟩ 2 ⟨1, 0⟩ ⟨5, 0⟩ ⟨6, 0⟩ (fun _ => seqBackend) (exDir 2 7 2) = .ok p1 ∧ Cuda.diffusionV2Apply2d 0 2 1 3 3 2 exDx 2 ⟨1, 0⟩ ⟨5, 0⟩ ⟨6, 0⟩ 1 ⟨8, 0⟩ (fun _ => revBackend) p1 = .ok p2 ∧
      (∀ p, F.InBounds [(0, 2), (1, 3)] p → F.El p2 (F.cell2d ⟨8, 0⟩ 0 1 2 3 1) p (S p)) ∧
      (F.sum 0 2 fun i => F.sum 1 3 fun j => ((exIns 2 5) [i, j] - 1 / 100000 * R [i, j] - ((exIns 2 7) [i, j] - 1 / 100000 * S [i, j])) * ((exIns 2 5) [i, j] - 1 / 100000 * R [i, j] - ((exIns 2 7) [i, j] - 1 / 100000 * S [i, j]))) ≤ (1 - 1 / 100000 * (2 - 1 / 100000 * 100000) * F.low2 (T := Rat) 0 1 2 3 2 exDx 3 14) * (F.sum 0 2 fun i => F.sum 1 3 fun j => ((exIns 2 5) [i, j] - (exIns 2 7) [i, j]) * ((exIns 2 5) [i, j] - (exIns 2 7) [i, j])) :=
  C109_v2_2d (T := Rat) (fun _ => revBackend_ok) (fun _ => seqBackend_ok) (fun _ => seqBackend_ok) (fun _ => revBackend_ok) (by decide) (by decide) (by decide) (by decide) (exDir_args (by ex_args)) (exDir_args (by ex_args)) (apart_blk (by decide)) ⟨apart_blk (by decide), apart_blk (by decide)⟩
    (exDir_rd (by decide) (exRat_ok rfl (by decide) (by decide))) (exDir_rd (by decide) (exRat_ok rfl (by decide) (by decide))) exDir_u2 (exDir_rd (by decide) (exRat_ok rfl (by decide) (by decide))) (exDir_rd (by decide) (exRat_ok rfl (by decide) (by decide))) exDir_u2 (fun p hp => (exIns_zero2 p hp).trans (exIns_zero2 p hp).symm) exEll_v2_2 exLow_v2_2 exTop_v2_2 (by norm_num) (by norm_num [exDx])

/-- 2D, Poisson operator: for runs from unknowns that agree outside the box, steps of length `t` with `t L ≤ 2` reduce the mean square distance by the factor given. -/
theorem C109_poisson_2d {i0 j0 i1 j1 gcw rgcw : Int} {beta : T} {dx : Nat → T} {u f0 f1 res : Ptr} {β1 β2 : Nat → Backend} {β3 β4 : Nat → Backend} {m m' : Mem T} {U V : List Int → T} {t : T}
    (hβ1 : ∀ n, ValidBackend (β1 n)) (hβ2 : ∀ n, ValidBackend (β2 n)) (hβ3 : ∀ n, ValidBackend (β3 n)) (hβ4 : ∀ n, ValidBackend (β4 n)) (hi : i0 ≤ i1) (hj : j0 ≤ j1) (hg : 1 ≤ gcw) (hrgcw : 0 ≤ rgcw)
    (h : F.Args m [(F.cell2d u i0 j0 i1 j1 gcw)] [(F.face2d0 f0 i0 j0 i1 j1 0), (F.face2d1 f1 i0 j0 i1 j1 0), (F.cell2d res i0 j0 i1 j1 rgcw)]) (h' : F.Args m' [(F.cell2d u i0 j0 i1 j1 gcw)] [(F.face2d0 f0 i0 j0 i1 j1 0), (F.face2d1 f1 i0 j0 i1 j1 0), (F.cell2d res i0 j0 i1 j1 rgcw)])
    (hp : F.Apart (F.face2d0 f0 i0 j0 i1 j1 0) (F.face2d1 f1 i0 j0 i1 j1 0))
    (hr : F.Apart (F.cell2d res i0 j0 i1 j1 rgcw) (F.face2d0 f0 i0 j0 i1 j1 0) ∧ F.Apart (F.cell2d res i0 j0 i1 j1 rgcw) (F.face2d1 f1 i0 j0 i1 j1 0))
    (hU : F.Holds m (F.cell2d u i0 j0 i1 j1 gcw) U)
    (hV : F.Holds m' (F.cell2d u i0 j0 i1 j1 gcw) V)
    (hUV : ∀ p, ¬ F.InBounds [(i0, i1), (j0, j1)] p → U p = V p) (he : F.Elliptic2 i0 j0 i1 j1 0 beta dx (fun _ => 1) (fun _ => 1) (fun _ => 1)) (ht0 : 0 ≤ t) (ht : t * (4 * beta * (1 / (dx 0 * dx 0) + 1 / (dx 1 * dx 1))) ≤ 2) :
    ∃ m1 m2 p1 p2, ∃ R S : List Int → T, Cuda.poissonFlux2d i0 j0 i1 j1 dx gcw u f0 f1 β1 m = .ok m1 ∧ Cuda.poissonV2Apply2d i0 i1 j0 j1 beta dx f0 f1 rgcw res β2 m1 = .ok m2 ∧
      (∀ p, F.InBounds [(i0, i1), (j0, j1)] p → F.El m2 (F.cell2d res i0 j0 i1 j1 rgcw) p (R p)) ∧
      Cuda.poissonFlux2d i0 j0 i1 j1 dx gcw u f0 f1 β3 m' = .ok p1 ∧ Cuda.poissonV2Apply2d i0 i1 j0 j1 beta dx f0 f1 rgcw res β4 p1 = .ok p2 ∧
      (∀ p, F.InBounds [(i0, i1), (j0, j1)] p → F.El p2 (F.cell2d res i0 j0 i1 j1 rgcw) p (S p)) ∧
      (F.sum i0 i1 fun i => F.sum j0 j1 fun j => (U [i, j] - t * R [i, j] - (V [i, j] - t * S [i, j])) * (U [i, j] - t * R [i, j] - (V [i, j] - t * S [i, j]))) ≤ (1 - t * (2 - t * (4 * beta * (1 / (dx 0 * dx 0) + 1 / (dx 1 * dx 1)))) * F.low2 i0 j0 i1 j1 beta dx 0 1) * (F.sum i0 i1 fun i => F.sum j0 j1 fun j => (U [i, j] - V [i, j]) * (U [i, j] - V [i, j])) := by
  obtain ⟨m1, m2, R, c1, c2, E, hR⟩ := energy_p_2 (beta := beta) (dx := dx) hβ1 hβ2 hi hj hg hrgcw h hp hr hU
  obtain ⟨p1, p2, S, d1, d2, E', hS⟩ := energy_p_2 (beta := beta) (dx := dx) hβ3 hβ4 hi hj hg hrgcw h' hp hr hV
  have hD : ∀ p, ¬ F.InBounds [(i0, i1), (j0, j1)] p → (fun p => U p - V p) p = 0 := fun p hp => sub_eq_zero.2 (hUV p hp)
  have e : (F.sum i0 i1 fun i => F.sum j0 j1 fun j => (U [i, j] - V [i, j]) * R [i, j]) = F.form2 i0 j0 i1 j1 0 beta dx (fun _ => 1) (fun _ => 1) (fun _ => 1) U (fun p => U p - V p) := by
    rw [← F.weak2 hi hj hD]
    exact F.sum_congr fun i h0 h1 => F.sum_congr fun j h2 h3 => (by rw [hR i j h0 h1 h2 h3])
  have e' : (F.sum i0 i1 fun i => F.sum j0 j1 fun j => (U [i, j] - V [i, j]) * S [i, j]) = F.form2 i0 j0 i1 j1 0 beta dx (fun _ => 1) (fun _ => 1) (fun _ => 1) V (fun p => U p - V p) := by
    rw [← F.weak2 hi hj hD]
    exact F.sum_congr fun i h0 h1 => F.sum_congr fun j h2 h3 => (by rw [hS i j h0 h1 h2 h3])
  have hL : F.Low2 i0 j0 i1 j1 0 (fun _ => 1) (fun _ => 1) (fun _ => 1) 0 (1 : T) := ⟨le_rfl, zero_le_one, fun _ _ _ _ _ _ => le_rfl, fun _ _ _ _ _ _ => le_rfl, fun _ _ _ _ _ _ => by simp⟩
  have hT : F.Top2 i0 j0 i1 j1 0 beta dx (fun _ => 1) (fun _ => 1) (fun _ => 1) (4 * beta * (1 / (dx 0 * dx 0) + 1 / (dx 1 * dx 1))) := fun _ _ _ _ _ _ => le_of_eq (by ring)
  obtain ⟨E0, hE, hEz⟩ := F.cut_off (F.InBounds [(i0, i1), (j0, j1)]) (fun p => R p - S p)
  have qe : (F.sum i0 i1 fun i => F.sum j0 j1 fun j => E0 [i, j] * E0 [i, j]) = (F.sum i0 i1 fun i => F.sum j0 j1 fun j => (R [i, j] - S [i, j]) * (R [i, j] - S [i, j])) := F.sum_congr fun i h0 h1 => F.sum_congr fun j h2 h3 => by rw [hE _ (F.inBounds2.2 ⟨i, j, rfl, by omega⟩)]
  have hq : F.form2 i0 j0 i1 j1 0 beta dx (fun _ => 1) (fun _ => 1) (fun _ => 1) (fun p => U p - V p) E0 = (F.sum i0 i1 fun i => F.sum j0 j1 fun j => E0 [i, j] * E0 [i, j]) := by
    rw [F.form2_sub, ← F.weak2 hi hj hEz, ← F.weak2 hi hj hEz]
    simp only [← F.sum_sub]
    exact F.sum_congr fun i h0 h1 => F.sum_congr fun j h2 h3 => by rw [← hR i j h0 h1 h2 h3, ← hS i j h0 h1 h2 h3, hE _ (F.inBounds2.2 ⟨i, j, rfl, by omega⟩)]; ring
  have r := F.form2_res hi hj he hT hEz hq
  have lo := F.form2_low (dx := dx) hi hj he.beta.le hL hD
  rw [qe] at r
  have a : (F.sum i0 i1 fun i => F.sum j0 j1 fun j => (U [i, j] - V [i, j]) * (R [i, j] - S [i, j])) = F.form2 i0 j0 i1 j1 0 beta dx (fun _ => 1) (fun _ => 1) (fun _ => 1) (fun p => U p - V p) (fun p => U p - V p) := by
    rw [F.form2_sub, ← e, ← e']
    simp only [← F.sum_sub]
    exact F.sum_congr fun i h0 h1 => F.sum_congr fun j h2 h3 => by ring
  have sq := F.sq2 (X := (fun p => U p - V p)) (Y := fun p => R p - S p) (t := t) (i0 := i0) (i1 := i1) (j0 := j0) (j1 := j1)
  refine ⟨m1, m2, p1, p2, R, S, c1, c2, E, d1, d2, E', ?_⟩
  refine le_trans (le_of_eq ?_) (F.step_le r lo ht0 ht)
  rw [← a, ← sq]
  exact F.sum_congr fun i h0 h1 => F.sum_congr fun j h2 h3 => by ring

example : ∃ m1 m2 p1 p2, ∃ R S : List Int → Rat, Cuda.poissonFlux2d 0 1 2 3 exDx 2 ⟨1, 0⟩ ⟨5, 0⟩ ⟨6, 0⟩ (fun _ => revBackend) (exDir 2 5 1) = .ok m1 ∧ Cuda.poissonV2Apply2d 0 2 1 3 2 exDx ⟨5, 0⟩ ⟨6, 0⟩ 1 ⟨8, 0⟩ (fun _ => seqBackend) m1 = .ok m2 ∧
      (∀ p, F.InBounds [(0, 2), (1, 3)] p → F.El m2 (F.cell2d ⟨8, 0⟩ 0 1 2 3 1) p (R p)) ∧
      Cuda.poissonFlux2d 0 1 2 3 exDx 2 ⟨1, 0⟩ ⟨5, 0⟩ ⟨6, 0⟩ (fun _ => seqBackend) (exDir 2 7 2) = .ok p1 ∧ Cuda.poissonV2Apply2d 0 2 1 3 2 exDx ⟨5, 0⟩ ⟨6, 0⟩ 1 ⟨8, 0⟩ (fun _ => revBackend) p1 = .ok p2 ∧
      (∀ p, F.InBounds [(0, 2), (1, 3)] p → F.El p2 (F.cell2d ⟨8, 0⟩ 0 1 2 3 1) p (S p)) ∧
      (F.sum 0 2 fun i => F.sum 1 3 fun j => ((exIns 2 5) [i, j] - 1 / 200 * R [i, j] - ((exIns 2 7) [i, j] - 1 / 200 * S [i, j])) * ((exIns 2 5) [i, j] - 1 / 200 * R [i, j] - ((exIns 2 7) [i, j] - 1 / 200 * S [i, j]))) ≤ (1 - 1 / 200 * (2 - 1 / 200 * (4 * 2 * (1 / (exDx 0 * exDx 0) + 1 / (exDx 1 * exDx 1)))) * F.low2 (T := Rat) 0 1 2 3 2 exDx 0 1) * (F.sum 0 2 fun i => F.sum 1 3 fun j => ((exIns 2 5) [i, j] - (exIns 2 7) [i, j]) * ((exIns 2 5) [i, j] - (exIns 2 7) [i, j])) :=
  C109_poisson_2d (T := Rat) (fun _ => revBackend_ok) (fun _ => seqBackend_ok) (fun _ => seqBackend_ok) (fun _ => revBackend_ok) (by decide) (by decide) (by decide) (by decide) (exDir_args (by ex_args)) (exDir_args (by ex_args)) (apart_blk (by decide)) ⟨apart_blk (by decide), apart_blk (by decide)⟩
     exDir_u2  exDir_u2 (fun p hp => (exIns_zero2 p hp).trans (exIns_zero2 p hp).symm) exEll_p_2 (by norm_num) (by norm_num [exDx])

/-- 3D, diffusion operator with cell coefficients: for runs from unknowns that agree outside the box, steps of length `t` with `t L ≤ 2` reduce the mean square distance by the factor given. -/
theorem C109_v1_3d {i0 j0 k0 i1 j1 k1 agcw gcw rgcw : Int} {alpha beta : T} {dx : Nat → T} {a u b0 b1 b2 f0 f1 f2 res : Ptr} {β1 β2 : Nat → Backend} {β3 β4 : Nat → Backend} {m m' : Mem T} {A B0 B1 B2 U V : List Int → T} {amin bmin L : T} {t : T}
    (hβ1 : ∀ n, ValidBackend (β1 n)) (hβ2 : ∀ n, ValidBackend (β2 n)) (hβ3 : ∀ n, ValidBackend (β3 n)) (hβ4 : ∀ n, ValidBackend (β4 n)) (hi : i0 ≤ i1) (hj : j0 ≤ j1) (hk : k0 ≤ k1) (hg : 1 ≤ gcw) (hagcw : 0 ≤ agcw) (hrgcw : 0 ≤ rgcw)
    (h : F.Args m [(F.cell3d a i0 j0 k0 i1 j1 k1 agcw), (F.cell3d u i0 j0 k0 i1 j1 k1 gcw), (F.face3d0 b0 i0 j0 k0 i1 j1 k1 0), (F.face3d1 b1 i0 j0 k0 i1 j1 k1 0), (F.face3d2 b2 i0 j0 k0 i1 j1 k1 0)] [(F.face3d0 f0 i0 j0 k0 i1 j1 k1 0), (F.face3d1 f1 i0 j0 k0 i1 j1 k1 0), (F.face3d2 f2 i0 j0 k0 i1 j1 k1 0), (F.cell3d res i0 j0 k0 i1 j1 k1 rgcw)]) (h' : F.Args m' [(F.cell3d a i0 j0 k0 i1 j1 k1 agcw), (F.cell3d u i0 j0 k0 i1 j1 k1 gcw), (F.face3d0 b0 i0 j0 k0 i1 j1 k1 0), (F.face3d1 b1 i0 j0 k0 i1 j1 k1 0), (F.face3d2 b2 i0 j0 k0 i1 j1 k1 0)] [(F.face3d0 f0 i0 j0 k0 i1 j1 k1 0), (F.face3d1 f1 i0 j0 k0 i1 j1 k1 0), (F.face3d2 f2 i0 j0 k0 i1 j1 k1 0), (F.cell3d res i0 j0 k0 i1 j1 k1 rgcw)])
    (hp : F.Apart (F.face3d0 f0 i0 j0 k0 i1 j1 k1 0) (F.face3d1 f1 i0 j0 k0 i1 j1 k1 0) ∧ F.Apart (F.face3d0 f0 i0 j0 k0 i1 j1 k1 0) (F.face3d2 f2 i0 j0 k0 i1 j1 k1 0) ∧ F.Apart (F.face3d1 f1 i0 j0 k0 i1 j1 k1 0) (F.face3d2 f2 i0 j0 k0 i1 j1 k1 0))
    (hr : F.Apart (F.cell3d res i0 j0 k0 i1 j1 k1 rgcw) (F.face3d0 f0 i0 j0 k0 i1 j1 k1 0) ∧ F.Apart (F.cell3d res i0 j0 k0 i1 j1 k1 rgcw) (F.face3d1 f1 i0 j0 k0 i1 j1 k1 0) ∧ F.Apart (F.cell3d res i0 j0 k0 i1 j1 k1 rgcw) (F.face3d2 f2 i0 j0 k0 i1 j1 k1 0))
    (hA : F.Holds m (F.cell3d a i0 j0 k0 i1 j1 k1 agcw) A) (hB0 : F.Holds m (F.face3d0 b0 i0 j0 k0 i1 j1 k1 0) B0) (hB1 : F.Holds m (F.face3d1 b1 i0 j0 k0 i1 j1 k1 0) B1) (hB2 : F.Holds m (F.face3d2 b2 i0 j0 k0 i1 j1 k1 0) B2) (hU : F.Holds m (F.cell3d u i0 j0 k0 i1 j1 k1 gcw) U)
    (hA' : F.Holds m' (F.cell3d a i0 j0 k0 i1 j1 k1 agcw) A) (hB0' : F.Holds m' (F.face3d0 b0 i0 j0 k0 i1 j1 k1 0) B0) (hB1' : F.Holds m' (F.face3d1 b1 i0 j0 k0 i1 j1 k1 0) B1) (hB2' : F.Holds m' (F.face3d2 b2 i0 j0 k0 i1 j1 k1 0) B2) (hV : F.Holds m' (F.cell3d u i0 j0 k0 i1 j1 k1 gcw) V)
    (hUV : ∀ p, ¬ F.InBounds [(i0, i1), (j0, j1), (k0, k1)] p → U p = V p) (he : F.Elliptic3 i0 j0 k0 i1 j1 k1 alpha beta dx A B0 B1 B2)
    (hL : F.Low3 i0 j0 k0 i1 j1 k1 alpha A B0 B1 B2 amin bmin) (hT : F.Top3 i0 j0 k0 i1 j1 k1 alpha beta dx A B0 B1 B2 L) (ht0 : 0 ≤ t) (ht : t * L ≤ 2) :
    ∃ m1 m2 p1 p2, ∃ R S : List Int → T, Cuda.flux3d i0 j0 k0 i1 j1 k1 dx b0 b1 b2 gcw u f0 f1 f2 β1 m = .ok m1 ∧ Cuda.diffusionV1Apply3d i0 i1 j0 j1 k0 k1 alpha beta dx agcw a gcw u f0 f1 f2 rgcw res β2 m1 = .ok m2 ∧
      (∀ p, F.InBounds [(i0, i1), (j0, j1), (k0, k1)] p → F.El m2 (F.cell3d res i0 j0 k0 i1 j1 k1 rgcw) p (R p)) ∧
      Cuda.flux3d i0 j0 k0 i1 j1 k1 dx b0 b1 b2 gcw u f0 f1 f2 β3 m' = .ok p1 ∧ Cuda.diffusionV1Apply3d i0 i1 j0 j1 k0 k1 alpha beta dx agcw a gcw u f0 f1 f2 rgcw res β4 p1 = .ok p2 ∧
      (∀ p, F.InBounds [(i0, i1), (j0, j1), (k0, k1)] p → F.El p2 (F.cell3d res i0 j0 k0 i1 j1 k1 rgcw) p (S p)) ∧
      (F.sum i0 i1 fun i => F.sum j0 j1 fun j => F.sum k0 k1 fun k => (U [i, j, k] - t * R [i, j, k] - (V [i, j, k] - t * S [i, j, k])) * (U [i, j, k] - t * R [i, j, k] - (V [i, j, k] - t * S [i, j, k]))) ≤ (1 - t * (2 - t * L) * F.low3 i0 j0 k0 i1 j1 k1 beta dx amin bmin) * (F.sum i0 i1 fun i => F.sum j0 j1 fun j => F.sum k0 k1 fun k => (U [i, j, k] - V [i, j, k]) * (U [i, j, k] - V [i, j, k])) := by
  obtain ⟨m1, m2, R, c1, c2, E, hR⟩ := energy_v1_3 (alpha := alpha) (beta := beta) (dx := dx) hβ1 hβ2 hi hj hk hg hagcw hrgcw h hp hr hA hB0 hB1 hB2 hU
  obtain ⟨p1, p2, S, d1, d2, E', hS⟩ := energy_v1_3 (alpha := alpha) (beta := beta) (dx := dx) hβ3 hβ4 hi hj hk hg hagcw hrgcw h' hp hr hA' hB0' hB1' hB2' hV
  have hD : ∀ p, ¬ F.InBounds [(i0, i1), (j0, j1), (k0, k1)] p → (fun p => U p - V p) p = 0 := fun p hp => sub_eq_zero.2 (hUV p hp)
  have e : (F.sum i0 i1 fun i => F.sum j0 j1 fun j => F.sum k0 k1 fun k => (U [i, j, k] - V [i, j, k]) * R [i, j, k]) = F.form3 i0 j0 k0 i1 j1 k1 alpha beta dx A B0 B1 B2 U (fun p => U p - V p) := by
    rw [← F.weak3 hi hj hk hD]
    exact F.sum_congr fun i h0 h1 => F.sum_congr fun j h2 h3 => F.sum_congr fun k h4 h5 => (by rw [hR i j k h0 h1 h2 h3 h4 h5])
  have e' : (F.sum i0 i1 fun i => F.sum j0 j1 fun j => F.sum k0 k1 fun k => (U [i, j, k] - V [i, j, k]) * S [i, j, k]) = F.form3 i0 j0 k0 i1 j1 k1 alpha beta dx A B0 B1 B2 V (fun p => U p - V p) := by
    rw [← F.weak3 hi hj hk hD]
    exact F.sum_congr fun i h0 h1 => F.sum_congr fun j h2 h3 => F.sum_congr fun k h4 h5 => (by rw [hS i j k h0 h1 h2 h3 h4 h5])
  obtain ⟨E0, hE, hEz⟩ := F.cut_off (F.InBounds [(i0, i1), (j0, j1), (k0, k1)]) (fun p => R p - S p)
  have qe : (F.sum i0 i1 fun i => F.sum j0 j1 fun j => F.sum k0 k1 fun k => E0 [i, j, k] * E0 [i, j, k]) = (F.sum i0 i1 fun i => F.sum j0 j1 fun j => F.sum k0 k1 fun k => (R [i, j, k] - S [i, j, k]) * (R [i, j, k] - S [i, j, k])) := F.sum_congr fun i h0 h1 => F.sum_congr fun j h2 h3 => F.sum_congr fun k h4 h5 => by rw [hE _ (F.inBounds3.2 ⟨i, j, k, rfl, by omega⟩)]
  have hq : F.form3 i0 j0 k0 i1 j1 k1 alpha beta dx A B0 B1 B2 (fun p => U p - V p) E0 = (F.sum i0 i1 fun i => F.sum j0 j1 fun j => F.sum k0 k1 fun k => E0 [i, j, k] * E0 [i, j, k]) := by
    rw [F.form3_sub, ← F.weak3 hi hj hk hEz, ← F.weak3 hi hj hk hEz]
    simp only [← F.sum_sub]
    exact F.sum_congr fun i h0 h1 => F.sum_congr fun j h2 h3 => F.sum_congr fun k h4 h5 => by rw [← hR i j k h0 h1 h2 h3 h4 h5, ← hS i j k h0 h1 h2 h3 h4 h5, hE _ (F.inBounds3.2 ⟨i, j, k, rfl, by omega⟩)]; ring
  have r := F.form3_res hi hj hk he hT hEz hq
  have lo := F.form3_low (dx := dx) hi hj hk he.beta.le hL hD
  rw [qe] at r
  have a : (F.sum i0 i1 fun i => F.sum j0 j1 fun j => F.sum k0 k1 fun k => (U [i, j, k] - V [i, j, k]) * (R [i, j, k] - S [i, j, k])) = F.form3 i0 j0 k0 i1 j1 k1 alpha beta dx A B0 B1 B2 (fun p => U p - V p) (fun p => U p - V p) := by
    rw [F.form3_sub, ← e, ← e']
    simp only [← F.sum_sub]
    exact F.sum_congr fun i h0 h1 => F.sum_congr fun j h2 h3 => F.sum_congr fun k h4 h5 => by ring
  have sq := F.sq3 (X := (fun p => U p - V p)) (Y := fun p => R p - S p) (t := t) (i0 := i0) (i1 := i1) (j0 := j0) (j1 := j1) (k0 := k0) (k1 := k1)
  refine ⟨m1, m2, p1, p2, R, S, c1, c2, E, d1, d2, E', ?_⟩
  refine le_trans (le_of_eq ?_) (F.step_le r lo ht0 ht)
  rw [← a, ← sq]
  exact F.sum_congr fun i h0 h1 => F.sum_congr fun j h2 h3 => F.sum_congr fun k h4 h5 => by ring

example : ∃ m1 m2 p1 p2, ∃ R S : List Int → Rat, Cuda.flux3d 0 1 2 1 2 3 exDx ⟨2, 0⟩ ⟨3, 0⟩ ⟨4, 0⟩ 2 ⟨1, 0⟩ ⟨5, 0⟩ ⟨6, 0⟩ ⟨7, 0⟩ (fun _ => revBackend) (exDir 3 5 1) = .ok m1 ∧ Cuda.diffusionV1Apply3d 0 1 1 2 2 3 3 2 exDx 1 ⟨0, 0⟩ 2 ⟨1, 0⟩ ⟨5, 0⟩ ⟨6, 0⟩ ⟨7, 0⟩ 1 ⟨8, 0⟩ (fun _ => seqBackend) m1 = .ok m2 ∧
      (∀ p, F.InBounds [(0, 1), (1, 2), (2, 3)] p → F.El m2 (F.cell3d ⟨8, 0⟩ 0 1 2 1 2 3 1) p (R p)) ∧
      Cuda.flux3d 0 1 2 1 2 3 exDx ⟨2, 0⟩ ⟨3, 0⟩ ⟨4, 0⟩ 2 ⟨1, 0⟩ ⟨5, 0⟩ ⟨6, 0⟩ ⟨7, 0⟩ (fun _ => seqBackend) (exDir 3 7 2) = .ok p1 ∧ Cuda.diffusionV1Apply3d 0 1 1 2 2 3 3 2 exDx 1 ⟨0, 0⟩ 2 ⟨1, 0⟩ ⟨5, 0⟩ ⟨6, 0⟩ ⟨7, 0⟩ 1 ⟨8, 0⟩ (fun _ => revBackend) p1 = .ok p2 ∧
      (∀ p, F.InBounds [(0, 1), (1, 2), (2, 3)] p → F.El p2 (F.cell3d ⟨8, 0⟩ 0 1 2 1 2 3 1) p (S p)) ∧
      (F.sum 0 1 fun i => F.sum 1 2 fun j => F.sum 2 3 fun k => ((exIns 3 5) [i, j, k] - 1 / 100000 * R [i, j, k] - ((exIns 3 7) [i, j, k] - 1 / 100000 * S [i, j, k])) * ((exIns 3 5) [i, j, k] - 1 / 100000 * R [i, j, k] - ((exIns 3 7) [i, j, k] - 1 / 100000 * S [i, j, k]))) ≤ (1 - 1 / 100000 * (2 - 1 / 100000 * 100000) * F.low3 (T := Rat) 0 1 2 1 2 3 2 exDx 0 14) * (F.sum 0 1 fun i => F.sum 1 2 fun j => F.sum 2 3 fun k => ((exIns 3 5) [i, j, k] - (exIns 3 7) [i, j, k]) * ((exIns 3 5) [i, j, k] - (exIns 3 7) [i, j, k])) :=
  C109_v1_3d (T := Rat) (fun _ => revBackend_ok) (fun _ => seqBackend_ok) (fun _ => seqBackend_ok) (fun _ => revBackend_ok) (by decide) (by decide) (by decide) (by decide) (by decide) (by decide) (exDir_args (by ex_args)) (exDir_args (by ex_args)) (⟨apart_blk (by decide), apart_blk (by decide), apart_blk (by decide)⟩) ⟨apart_blk (by decide), apart_blk (by decide), apart_blk (by decide)⟩
    (exDir_rd (by decide) (exRat_ok rfl (by decide) (by decide))) (exDir_rd (by decide) (exRat_ok rfl (by decide) (by decide))) (exDir_rd (by decide) (exRat_ok rfl (by decide) (by decide))) (exDir_rd (by decide) (exRat_ok rfl (by decide) (by decide))) exDir_u3 (exDir_rd (by decide) (exRat_ok rfl (by decide) (by decide))) (exDir_rd (by decide) (exRat_ok rfl (by decide) (by decide))) (exDir_rd (by decide) (exRat_ok rfl (by decide) (by decide))) (exDir_rd (by decide) (exRat_ok rfl (by decide) (by decide))) exDir_u3 (fun p hp => (exIns_zero3 p hp).trans (exIns_zero3 p hp).symm) exEll_v1_3 exLow_v1_3 exTop_v1_3 (by norm_num) (by norm_num [exDx])

/-- 3D, diffusion operator with constant reaction: for runs from unknowns that agree outside the box, steps of length `t` with `t L ≤ 2` reduce the mean square distance by the factor given. -/
theorem C109_v2_3d {i0 j0 k0 i1 j1 k1 gcw rgcw : Int} {alpha beta : T} {dx : Nat → T} {u b0 b1 b2 f0 f1 f2 res : Ptr} {β1 β2 : Nat → Backend} {β3 β4 : Nat → Backend} {m m' : Mem T} {B0 B1 B2 U V : List Int → T} {amin bmin L : T} {t : T}
    (hβ1 : ∀ n, ValidBackend (β1 n)) (hβ2 : ∀ n, ValidBackend (β2 n)) (hβ3 : ∀ n, ValidBackend (β3 n)) (hβ4 : ∀ n, ValidBackend (β4 n)) (hi : i0 ≤ i1) (hj : j0 ≤ j1) (hk : k0 ≤ k1) (hg : 1 ≤ gcw) (hrgcw : 0 ≤ rgcw)
    (h : F.Args m [(F.cell3d u i0 j0 k0 i1 j1 k1 gcw), (F.face3d0 b0 i0 j0 k0 i1 j1 k1 0), (F.face3d1 b1 i0 j0 k0 i1 j1 k1 0), (F.face3d2 b2 i0 j0 k0 i1 j1 k1 0)] [(F.face3d0 f0 i0 j0 k0 i1 j1 k1 0), (F.face3d1 f1 i0 j0 k0 i1 j1 k1 0), (F.face3d2 f2 i0 j0 k0 i1 j1 k1 0), (F.cell3d res i0 j0 k0 i1 j1 k1 rgcw)]) (h' : F.Args m' [(F.cell3d u i0 j0 k0 i1 j1 k1 gcw), (F.face3d0 b0 i0 j0 k0 i1 j1 k1 0), (F.face3d1 b1 i0 j0 k0 i1 j1 k1 0), (F.face3d2 b2 i0 j0 k0 i1 j1 k1 0)] [(F.face3d0 f0 i0 j0 k0 i1 j1 k1 0), (F.face3d1 f1 i0 j0 k0 i1 j1 k1 0), (F.face3d2 f2 i0 j0 k0 i1 j1 k1 0), (F.cell3d res i0 j0 k0 i1 j1 k1 rgcw)])
    (hp : F.Apart (F.face3d0 f0 i0 j0 k0 i1 j1 k1 0) (F.face3d1 f1 i0 j0 k0 i1 j1 k1 0) ∧ F.Apart (F.face3d0 f0 i0 j0 k0 i1 j1 k1 0) (F.face3d2 f2 i0 j0 k0 i1 j1 k1 0) ∧ F.Apart (F.face3d1 f1 i0 j0 k0 i1 j1 k1 0) (F.face3d2 f2 i0 j0 k0 i1 j1 k1 0))
    (hr : F.Apart (F.cell3d res i0 j0 k0 i1 j1 k1 rgcw) (F.face3d0 f0 i0 j0 k0 i1 j1 k1 0) ∧ F.Apart (F.cell3d res i0 j0 k0 i1 j1 k1 rgcw) (F.face3d1 f1 i0 j0 k0 i1 j1 k1 0) ∧ F.Apart (F.cell3d res i0 j0 k0 i1 j1 k1 rgcw) (F.face3d2 f2 i0 j0 k0 i1 j1 k1 0))
    (hB0 : F.Holds m (F.face3d0 b0 i0 j0 k0 i1 j1 k1 0) B0) (hB1 : F.Holds m (F.face3d1 b1 i0 j0 k0 i1 j1 k1 0) B1) (hB2 : F.Holds m (F.face3d2 b2 i0 j0 k0 i1 j1 k1 0) B2) (hU : F.Holds m (F.cell3d u i0 j0 k0 i1 j1 k1 gcw) U)
    (hB0' : F.Holds m' (F.face3d0 b0 i0 j0 k0 i1 j1 k1 0) B0) (hB1' : F.Holds m' (F.face3d1 b1 i0 j0 k0 i1 j1 k1 0) B1) (hB2' : F.Holds m' (F.face3d2 b2 i0 j0 k0 i1 j1 k1 0) B2) (hV : F.Holds m' (F.cell3d u i0 j0 k0 i1 j1 k1 gcw) V)
    (hUV : ∀ p, ¬ F.InBounds [(i0, i1), (j0, j1), (k0, k1)] p → U p = V p) (he : F.Elliptic3 i0 j0 k0 i1 j1 k1 alpha beta dx (fun _ => 1) B0 B1 B2)
    (hL : F.Low3 i0 j0 k0 i1 j1 k1 alpha (fun _ => 1) B0 B1 B2 amin bmin) (hT : F.Top3 i0 j0 k0 i1 j1 k1 alpha beta dx (fun _ => 1) B0 B1 B2 L) (ht0 : 0 ≤ t) (ht : t * L ≤ 2) :
    ∃ m1 m2 p1 p2, ∃ R S : List Int → T, Cuda.flux3d i0 j0 k0 i1 j1 k1 dx b0 b1 b2 gcw u f0 f1 f2 β1 m = .ok m1 ∧ Cuda.diffusionV2Apply3d i0 i1 j0 j1 k0 k1 alpha beta dx gcw u f0 f1 f2 rgcw res β2 m1 = .ok m2 ∧
      (∀ p, F.InBounds [(i0, i1), (j0, j1), (k0, k1)] p → F.El m2 (F.cell3d res i0 j0 k0 i1 j1 k1 rgcw) p (R p)) ∧
      Cuda.flux3d i0 j0 k0 i1 j1 k1 dx b0 b1 b2 gcw u f0 f1 f2 β3 m' = .ok p1 ∧ Cuda.diffusionV2Apply3d i0 i1 j0 j1 k0 k1 alpha beta dx gcw u f0 f1 f2 rgcw res β4 p1 = .ok p2 ∧
      (∀ p, F.InBounds [(i0, i1), (j0, j1), (k0, k1)] p → F.El p2 (F.cell3d res i0 j0 k0 i1 j1 k1 rgcw) p (S p)) ∧
      (F.sum i0 i1 fun i => F.sum j0 j1 fun j => F.sum k0 k1 fun k => (U [i, j, k] - t * R [i, j, k] - (V [i, j, k] - t * S [i, j, k])) * (U [i, j, k] - t * R [i, j, k] - (V [i, j, k] - t * S [i, j, k]))) ≤ (1 - t * (2 - t * L) * F.low3 i0 j0 k0 i1 j1 k1 beta dx amin bmin) * (F.sum i0 i1 fun i => F.sum j0 j1 fun j => F.sum k0 k1 fun k => (U [i, j, k] - V [i, j, k]) * (U [i, j, k] - V [i, j, k])) := by
  obtain ⟨m1, m2, R, c1, c2, E, hR⟩ := energy_v2_3 (alpha := alpha) (beta := beta) (dx := dx) hβ1 hβ2 hi hj hk hg hrgcw h hp hr hB0 hB1 hB2 hU
  obtain ⟨p1, p2, S, d1, d2, E', hS⟩ := energy_v2_3 (alpha := alpha) (beta := beta) (dx := dx) hβ3 hβ4 hi hj hk hg hrgcw h' hp hr hB0' hB1' hB2' hV
  have hD : ∀ p, ¬ F.InBounds [(i0, i1), (j0, j1), (k0, k1)] p → (fun p => U p - V p) p = 0 := fun p hp => sub_eq_zero.2 (hUV p hp)
  have e : (F.sum i0 i1 fun i => F.sum j0 j1 fun j => F.sum k0 k1 fun k => (U [i, j, k] - V [i, j, k]) * R [i, j, k]) = F.form3 i0 j0 k0 i1 j1 k1 alpha beta dx (fun _ => 1) B0 B1 B2 U (fun p => U p - V p) := by
    rw [← F.weak3 hi hj hk hD]
    exact F.sum_congr fun i h0 h1 => F.sum_congr fun j h2 h3 => F.sum_congr fun k h4 h5 => (by rw [hR i j k h0 h1 h2 h3 h4 h5])
  have e' : (F.sum i0 i1 fun i => F.sum j0 j1 fun j => F.sum k0 k1 fun k => (U [i, j, k] - V [i, j, k]) * S [i, j, k]) = F.form3 i0 j0 k0 i1 j1 k1 alpha beta dx (fun _ => 1) B0 B1 B2 V (fun p => U p - V p) := by
    rw [← F.weak3 hi hj hk hD]
    exact F.sum_congr fun i h0 h1 => F.sum_congr fun j h2 h3 => F.sum_congr fun k h4 h5 => (by rw [hS i j k h0 h1 h2 h3 h4 h5])
  obtain ⟨E0, hE, hEz⟩ := F.cut_off (F.InBounds [(i0, i1), (j0, j1), (k0, k1)]) (fun p => R p - S p)
  have qe : (F.sum i0 i1 fun i => F.sum j0 j1 fun j => F.sum k0 k1 fun k => E0 [i, j, k] * E0 [i, j, k]) = (F.sum i0 i1 fun i => F.sum j0 j1 fun j => F.sum k0 k1 fun k => (R [i, j, k] - S [i, j, k]) * (R [i, j, k] - S [i, j, k])) := F.sum_congr fun i h0 h1 => F.sum_congr fun j h2 h3 => F.sum_congr fun k h4 h5 => by rw [hE _ (F.inBounds3.2 ⟨i, j, k, rfl, by omega⟩)]
  have hq : F.form3 i0 j0 k0 i1 j1 k1 alpha beta dx (fun _ => 1) B0 B1 B2 (fun p => U p - V p) E0 = (F.sum i0 i1 fun i => F.sum j0 j1 fun j => F.sum k0 k1 fun k => E0 [i, j, k] * E0 [i, j, k]) := by
    rw [F.form3_sub, ← F.weak3 hi hj hk hEz, ← F.weak3 hi hj hk hEz]
    simp only [← F.sum_sub]
    exact F.sum_congr fun i h0 h1 => F.sum_congr fun j h2 h3 => F.sum_congr fun k h4 h5 => by rw [← hR i j k h0 h1 h2 h3 h4 h5, ← hS i j k h0 h1 h2 h3 h4 h5, hE _ (F.inBounds3.2 ⟨i, j, k, rfl, by omega⟩)]; ring
  have r := F.form3_res hi hj hk he hT hEz hq
  have lo := F.form3_low (dx := dx) hi hj hk he.beta.le hL hD
  rw [qe] at r
  have a : (F.sum i0 i1 fun i => F.sum j0 j1 fun j => F.sum k0 k1 fun k => (U [i, j, k] - V [i, j, k]) * (R [i, j, k] - S [i, j, k])) = F.form3 i0 j0 k0 i1 j1 k1 alpha beta dx (fun _ => 1) B0 B1 B2 (fun p => U p - V p) (fun p => U p - V p) := by
    rw [F.form3_sub, ← e, ← e']
    simp only [← F.sum_sub]
    exact F.sum_congr fun i h0 h1 => F.sum_congr fun j h2 h3 => F.sum_congr fun k h4 h5 => by ring
  have sq := F.sq3 (X := (fun p => U p - V p)) (Y := fun p => R p - S p) (t := t) (i0 := i0) (i1 := i1) (j0 := j0) (j1 := j1) (k0 := k0) (k1 := k1)
  refine ⟨m1, m2, p1, p2, R, S, c1, c2, E, d1, d2, E', ?_⟩
  refine le_trans (le_of_eq ?_) (F.step_le r lo ht0 ht)
  rw [← a, ← sq]
  exact F.sum_congr fun i h0 h1 => F.sum_congr fun j h2 h3 => F.sum_congr fun k h4 h5 => by ring

example : ∃ m1 m2 p1 p2, ∃ R S : List Int → Rat, Cuda.flux3d 0 1 2 1 2 3 exDx ⟨2, 0⟩ ⟨3, 0⟩ ⟨4, 0⟩ 2 ⟨1, 0⟩ ⟨5, 0⟩ ⟨6, 0⟩ ⟨7, 0⟩ (fun _ => revBackend) (exDir 3 5 1) = .ok m1 ∧ Cuda.diffusionV2Apply3d 0 1 1 2 2 3 3 2 exDx 2 ⟨1, 0⟩ ⟨5, 0⟩ ⟨6, 0⟩ ⟨7, 0⟩ 1 ⟨8, 0⟩ (fun _ => seqBackend) m1 = .ok m2 ∧
      (∀ p, F.InBounds [(0, 1), (1, 2), (2, 3)] p → F.El m2 (F.cell3d ⟨8, 0⟩ 0 1 2 1 2 3 1) p (R p)) ∧
      Cuda.flux3d 0 1 2 1 2 3 exDx ⟨2, 0⟩ ⟨3, 0⟩ ⟨4, 0⟩ 2 ⟨1, 0⟩ ⟨5, 0⟩ ⟨6, 0⟩ ⟨7, 0⟩ (fun _ => seqBackend) (exDir 3 7 2) = .ok p1 ∧ Cuda.diffusionV2Apply3d 0 1 1 2 2 3 3 2 exDx 2 ⟨1, 0⟩ ⟨5, 0⟩ ⟨6, 0⟩ ⟨7, 0⟩ 1 ⟨8, 0⟩ (fun _ => revBackend) p1 = .ok p2 ∧
      (∀ p, F.InBounds [(0, 1), (1, 2), (2, 3)] p → F.El p2 (F.cell3d ⟨8, 0⟩ 0 1 2 1 2 3 1) p (S p)) ∧
      (F.sum 0 1 fun i => F.sum 1 2 fun j => F.sum 2 3 fun k => ((exIns 3 5) [i, j, k] - 1 / 100000 * R [i, j, k] - ((exIns 3 7) [i, j, k] - 1 / 100000 * S [i, j, k])) * ((exIns 3 5) [i, j, k] - 1 / 100000 * R [i, j, k] - ((exIns 3 7) [i, j, k] - 1 / 100000 * S [i, j, k]))) ≤ (1 - 1 / 100000 * (2 - 1 / 100000 * 100000) * F.low3 (T := Rat) 0 1 2 1 2 3 2 exDx 3 14) * (F.sum 0 1 fun i => F.sum 1 2 fun j => F.sum 2 3 fun k => ((exIns 3 5) [i, j, k] - (exIns 3 7) [i, j, k]) * ((exIns 3 5) [i, j, k] - (exIns 3 7) [i, j, k])) :=
  C109_v2_3d (T := Rat) (fun _ => revBackend_ok) (fun _ => seqBackend_ok) (fun _ => seqBackend_ok) (fun _ => revBackend_ok) (by decide) (by decide) (by decide) (by decide) (by decide) (exDir_args (by ex_args)) (exDir_args (by ex_args)) (⟨apart_blk (by decide), apart_blk (by decide), apart_blk (by decide)⟩) ⟨apart_blk (by decide), apart_blk (by decide), apart_blk (by decide)⟩
    (exDir_rd (by decide) (exRat_ok rfl (by decide) (by decide))) (exDir_rd (by decide) (exRat_ok rfl (by decide) (by decide))) (exDir_rd (by decide) (exRat_ok rfl (by decide) (by decide))) exDir_u3 (exDir_rd (by decide) (exRat_ok rfl (by decide) (by decide))) (exDir_rd (by decide) (exRat_ok rfl (by decide) (by decide))) (exDir_rd (by decide) (exRat_ok rfl (by decide) (by decide))) exDir_u3 (fun p hp => (exIns_zero3 p hp).trans (exIns_zero3 p hp).symm) exEll_v2_3 exLow_v2_3 exTop_v2_3 (by norm_num) (by norm_num [exDx])

/-- 3D, Poisson operator: for runs from unknowns that agree outside the box, steps of length `t` with `t L ≤ 2` reduce the mean square distance by the factor given. -/
theorem C109_poisson_3d {i0 j0 k0 i1 j1 k1 gcw rgcw : Int} {beta : T} {dx : Nat → T} {u f0 f1 f2 res : Ptr} {β1 β2 : Nat → Backend} {β3 β4 : Nat → Backend} {m m' : Mem T} {U V : List Int → T} {t : T}
    (hβ1 : ∀ n, ValidBackend (β1 n)) (hβ2 : ∀ n, ValidBackend (β2 n)) (hβ3 : ∀ n, ValidBackend (β3 n)) (hβ4 : ∀ n, ValidBackend (β4 n)) (hi : i0 ≤ i1) (hj : j0 ≤ j1) (hk : k0 ≤ k1) (hg : 1 ≤ gcw) (hrgcw : 0 ≤ rgcw)
    (h : F.Args m [(F.cell3d u i0 j0 k0 i1 j1 k1 gcw)] [(F.face3d0 f0 i0 j0 k0 i1 j1 k1 0), (F.face3d1 f1 i0 j0 k0 i1 j1 k1 0), (F.face3d2 f2 i0 j0 k0 i1 j1 k1 0), (F.cell3d res i0 j0 k0 i1 j1 k1 rgcw)]) (h' : F.Args m' [(F.cell3d u i0 j0 k0 i1 j1 k1 gcw)] [(F.face3d0 f0 i0 j0 k0 i1 j1 k1 0), (F.face3d1 f1 i0 j0 k0 i1 j1 k1 0), (F.face3d2 f2 i0 j0 k0 i1 j1 k1 0), (F.cell3d res i0 j0 k0 i1 j1 k1 rgcw)])
    (hp : F.Apart (F.face3d0 f0 i0 j0 k0 i1 j1 k1 0) (F.face3d1 f1 i0 j0 k0 i1 j1 k1 0) ∧ F.Apart (F.face3d0 f0 i0 j0 k0 i1 j1 k1 0) (F.face3d2 f2 i0 j0 k0 i1 j1 k1 0) ∧ F.Apart (F.face3d1 f1 i0 j0 k0 i1 j1 k1 0) (F.face3d2 f2 i0 j0 k0 i1 j1 k1 0))
    (hr : F.Apart (F.cell3d res i0 j0 k0 i1 j1 k1 rgcw) (F.face3d0 f0 i0 j0 k0 i1 j1 k1 0) ∧ F.Apart (F.cell3d res i0 j0 k0 i1 j1 k1 rgcw) (F.face3d1 f1 i0 j0 k0 i1 j1 k1 0) ∧ F.Apart (F.cell3d res i0 j0 k0 i1 j1 k1 rgcw) (F.face3d2 f2 i0 j0 k0 i1 j1 k1 0))
    (hU : F.Holds m (F.cell3d u i0 j0 k0 i1 j1 k1 gcw) U)
    (hV : F.Holds m' (F.cell3d u i0 j0 k0 i1 j1 k1 gcw) V)
    (hUV : ∀ p, ¬ F.InBounds [(i0, i1), (j0, j1), (k0, k1)] p → U p = V p) (he : F.Elliptic3 i0 j0 k0 i1 j1 k1 0 beta dx (fun _ => 1) (fun _ => 1) (fun _ => 1) (fun _ => 1)) (ht0 : 0 ≤ t) (ht : t * (4 * beta * (1 / (dx 0 * dx 0) + 1 / (dx 1 * dx 1) + 1 / (dx 2 * dx 2))) ≤ 2) :
    ∃ m1 m2 p1 p2, ∃ R S : List Int → T, Cuda.poissonFlux3d i0 j0 k0 i1 j1 k1 dx gcw u f0 f1 f2 β1 m = .ok m1 ∧ Cuda.poissonV2Apply3d i0 i1 j0 j1 k0 k1 beta dx f0 f1 f2 rgcw res β2 m1 = .ok m2 ∧
      (∀ p, F.InBounds [(i0, i1), (j0, j1), (k0, k1)] p → F.El m2 (F.cell3d res i0 j0 k0 i1 j1 k1 rgcw) p (R p)) ∧
      Cuda.poissonFlux3d i0 j0 k0 i1 j1 k1 dx gcw u f0 f1 f2 β3 m' = .ok p1 ∧ Cuda.poissonV2Apply3d i0 i1 j0 j1 k0 k1 beta dx f0 f1 f2 rgcw res β4 p1 = .ok p2 ∧
      (∀ p, F.InBounds [(i0, i1), (j0, j1), (k0, k1)] p → F.El p2 (F.cell3d res i0 j0 k0 i1 j1 k1 rgcw) p (S p)) ∧
      (F.sum i0 i1 fun i => F.sum j0 j1 fun j => F.sum k0 k1 fun k => (U [i, j, k] - t * R [i, j, k] - (V [i, j, k] - t * S [i, j, k])) * (U [i, j, k] - t * R [i, j, k] - (V [i, j, k] - t * S [i, j, k]))) ≤ (1 - t * (2 - t * (4 * beta * (1 / (dx 0 * dx 0) + 1 / (dx 1 * dx 1) + 1 / (dx 2 * dx 2)))) * F.low3 i0 j0 k0 i1 j1 k1 beta dx 0 1) * (F.sum i0 i1 fun i => F.sum j0 j1 fun j => F.sum k0 k1 fun k => (U [i, j, k] - V [i, j, k]) * (U [i, j, k] - V [i, j, k])) := by
  obtain ⟨m1, m2, R, c1, c2, E, hR⟩ := energy_p_3 (beta := beta) (dx := dx) hβ1 hβ2 hi hj hk hg hrgcw h hp hr hU
  obtain ⟨p1, p2, S, d1, d2, E', hS⟩ := energy_p_3 (beta := beta) (dx := dx) hβ3 hβ4 hi hj hk hg hrgcw h' hp hr hV
  have hD : ∀ p, ¬ F.InBounds [(i0, i1), (j0, j1), (k0, k1)] p → (fun p => U p - V p) p = 0 := fun p hp => sub_eq_zero.2 (hUV p hp)
  have e : (F.sum i0 i1 fun i => F.sum j0 j1 fun j => F.sum k0 k1 fun k => (U [i, j, k] - V [i, j, k]) * R [i, j, k]) = F.form3 i0 j0 k0 i1 j1 k1 0 beta dx (fun _ => 1) (fun _ => 1) (fun _ => 1) (fun _ => 1) U (fun p => U p - V p) := by
    rw [← F.weak3 hi hj hk hD]
    exact F.sum_congr fun i h0 h1 => F.sum_congr fun j h2 h3 => F.sum_congr fun k h4 h5 => (by rw [hR i j k h0 h1 h2 h3 h4 h5])
  have e' : (F.sum i0 i1 fun i => F.sum j0 j1 fun j => F.sum k0 k1 fun k => (U [i, j, k] - V [i, j, k]) * S [i, j, k]) = F.form3 i0 j0 k0 i1 j1 k1 0 beta dx (fun _ => 1) (fun _ => 1) (fun _ => 1) (fun _ => 1) V (fun p => U p - V p) := by
    rw [← F.weak3 hi hj hk hD]
    exact F.sum_congr fun i h0 h1 => F.sum_congr fun j h2 h3 => F.sum_congr fun k h4 h5 => (by rw [hS i j k h0 h1 h2 h3 h4 h5])
  have hL : F.Low3 i0 j0 k0 i1 j1 k1 0 (fun _ => 1) (fun _ => 1) (fun _ => 1) (fun _ => 1) 0 (1 : T) := ⟨le_rfl, zero_le_one, fun _ _ _ _ _ _ _ _ _ => le_rfl, fun _ _ _ _ _ _ _ _ _ => le_rfl, fun _ _ _ _ _ _ _ _ _ => le_rfl, fun _ _ _ _ _ _ _ _ _ => by simp⟩
  have hT : F.Top3 i0 j0 k0 i1 j1 k1 0 beta dx (fun _ => 1) (fun _ => 1) (fun _ => 1) (fun _ => 1) (4 * beta * (1 / (dx 0 * dx 0) + 1 / (dx 1 * dx 1) + 1 / (dx 2 * dx 2))) := fun _ _ _ _ _ _ _ _ _ => le_of_eq (by ring)
  obtain ⟨E0, hE, hEz⟩ := F.cut_off (F.InBounds [(i0, i1), (j0, j1), (k0, k1)]) (fun p => R p - S p)
  have qe : (F.sum i0 i1 fun i => F.sum j0 j1 fun j => F.sum k0 k1 fun k => E0 [i, j, k] * E0 [i, j, k]) = (F.sum i0 i1 fun i => F.sum j0 j1 fun j => F.sum k0 k1 fun k => (R [i, j, k] - S [i, j, k]) * (R [i, j, k] - S [i, j, k])) := F.sum_congr fun i h0 h1 => F.sum_congr fun j h2 h3 => F.sum_congr fun k h4 h5 => by rw [hE _ (F.inBounds3.2 ⟨i, j, k, rfl, by omega⟩)]
  have hq : F.form3 i0 j0 k0 i1 j1 k1 0 beta dx (fun _ => 1) (fun _ => 1) (fun _ => 1) (fun _ => 1) (fun p => U p - V p) E0 = (F.sum i0 i1 fun i => F.sum j0 j1 fun j => F.sum k0 k1 fun k => E0 [i, j, k] * E0 [i, j, k]) := by
    rw [F.form3_sub, ← F.weak3 hi hj hk hEz, ← F.weak3 hi hj hk hEz]
    simp only [← F.sum_sub]
    exact F.sum_congr fun i h0 h1 => F.sum_congr fun j h2 h3 => F.sum_congr fun k h4 h5 => by rw [← hR i j k h0 h1 h2 h3 h4 h5, ← hS i j k h0 h1 h2 h3 h4 h5, hE _ (F.inBounds3.2 ⟨i, j, k, rfl, by omega⟩)]; ring
  have r := F.form3_res hi hj hk he hT hEz hq
  have lo := F.form3_low (dx := dx) hi hj hk he.beta.le hL hD
  rw [qe] at r
  have a : (F.sum i0 i1 fun i => F.sum j0 j1 fun j => F.sum k0 k1 fun k => (U [i, j, k] - V [i, j, k]) * (R [i, j, k] - S [i, j, k])) = F.form3 i0 j0 k0 i1 j1 k1 0 beta dx (fun _ => 1) (fun _ => 1) (fun _ => 1) (fun _ => 1) (fun p => U p - V p) (fun p => U p - V p) := by
    rw [F.form3_sub, ← e, ← e']
    simp only [← F.sum_sub]
    exact F.sum_congr fun i h0 h1 => F.sum_congr fun j h2 h3 => F.sum_congr fun k h4 h5 => by ring
  have sq := F.sq3 (X := (fun p => U p - V p)) (Y := fun p => R p - S p) (t := t) (i0 := i0) (i1 := i1) (j0 := j0) (j1 := j1) (k0 := k0) (k1 := k1)
  refine ⟨m1, m2, p1, p2, R, S, c1, c2, E, d1, d2, E', ?_⟩
  refine le_trans (le_of_eq ?_) (F.step_le r lo ht0 ht)
  rw [← a, ← sq]
  exact F.sum_congr fun i h0 h1 => F.sum_congr fun j h2 h3 => F.sum_congr fun k h4 h5 => by ring

example : ∃ m1 m2 p1 p2, ∃ R S : List Int → Rat, Cuda.poissonFlux3d 0 1 2 1 2 3 exDx 2 ⟨1, 0⟩ ⟨5, 0⟩ ⟨6, 0⟩ ⟨7, 0⟩ (fun _ => revBackend) (exDir 3 5 1) = .ok m1 ∧ Cuda.poissonV2Apply3d 0 1 1 2 2 3 2 exDx ⟨5, 0⟩ ⟨6, 0⟩ ⟨7, 0⟩ 1 ⟨8, 0⟩ (fun _ => seqBackend) m1 = .ok m2 ∧
      (∀ p, F.InBounds [(0, 1), (1, 2), (2, 3)] p → F.El m2 (F.cell3d ⟨8, 0⟩ 0 1 2 1 2 3 1) p (R p)) ∧
      Cuda.poissonFlux3d 0 1 2 1 2 3 exDx 2 ⟨1, 0⟩ ⟨5, 0⟩ ⟨6, 0⟩ ⟨7, 0⟩ (fun _ => seqBackend) (exDir 3 7 2) = .ok p1 ∧ Cuda.poissonV2Apply3d 0 1 1 2 2 3 2 exDx ⟨5, 0⟩ ⟨6, 0⟩ ⟨7, 0⟩ 1 ⟨8, 0⟩ (fun _ => revBackend) p1 = .ok p2 ∧
      (∀ p, F.InBounds [(0, 1), (1, 2), (2, 3)] p → F.El p2 (F.cell3d ⟨8, 0⟩ 0 1 2 1 2 3 1) p (S p)) ∧
      (F.sum 0 1 fun i => F.sum 1 2 fun j => F.sum 2 3 fun k => ((exIns 3 5) [i, j, k] - 1 / 200 * R [i, j, k] - ((exIns 3 7) [i, j, k] - 1 / 200 * S [i, j, k])) * ((exIns 3 5) [i, j, k] - 1 / 200 * R [i, j, k] - ((exIns 3 7) [i, j, k] - 1 / 200 * S [i, j, k]))) ≤ (1 - 1 / 200 * (2 - 1 / 200 * (4 * 2 * (1 / (exDx 0 * exDx 0) + 1 / (exDx 1 * exDx 1) + 1 / (exDx 2 * exDx 2)))) * F.low3 (T := Rat) 0 1 2 1 2 3 2 exDx 0 1) * (F.sum 0 1 fun i => F.sum 1 2 fun j => F.sum 2 3 fun k => ((exIns 3 5) [i, j, k] - (exIns 3 7) [i, j, k]) * ((exIns 3 5) [i, j, k] - (exIns 3 7) [i, j, k])) :=
  C109_poisson_3d (T := Rat) (fun _ => revBackend_ok) (fun _ => seqBackend_ok) (fun _ => seqBackend_ok) (fun _ => revBackend_ok) (by decide) (by decide) (by decide) (by decide) (by decide) (exDir_args (by ex_args)) (exDir_args (by ex_args)) (⟨apart_blk (by decide), apart_blk (by decide), apart_blk (by decide)⟩) ⟨apart_blk (by decide), apart_blk (by decide), apart_blk (by decide)⟩
     exDir_u3  exDir_u3 (fun p hp => (exIns_zero3 p hp).trans (exIns_zero3 p hp).symm) exEll_p_3 (by norm_num) (by norm_num [exDx])

end Verif
