import Verif.Lemmas.EnergyEx

/-
C56, C57 and C58: positivity, unique solvability and the maximum principle.
-/

namespace Verif
open Spec

set_option linter.unusedVariables false
set_option linter.unusedSectionVars false

variable {T : Type} [Field T] [LinearOrder T] [IsStrictOrderedRing T]

/-- 1D, diffusion operator with cell coefficients: for `U` zero outside the box `∑ U R` is not negative, and it is zero only for `U = 0`. -/
theorem C56_v1_1d {i0 i1 agcw gcw rgcw : Int} {alpha beta : T} {dx : Nat → T} {a u b0 f0 res : Ptr} {β1 β2 : Nat → Backend} {m : Mem T} {A B0 U : List Int → T}
    (hβ1 : ∀ n, ValidBackend (β1 n)) (hβ2 : ∀ n, ValidBackend (β2 n)) (hi : i0 ≤ i1) (hg : 1 ≤ gcw) (hagcw : 0 ≤ agcw) (hrgcw : 0 ≤ rgcw)
    (h : F.Args m [(F.cell1d a i0 i1 agcw), (F.cell1d u i0 i1 gcw), (F.face1d b0 i0 i1 0)] [(F.face1d f0 i0 i1 0), (F.cell1d res i0 i1 rgcw)])
    (hr : F.Apart (F.cell1d res i0 i1 rgcw) (F.face1d f0 i0 i1 0))
    (hA : F.Holds m (F.cell1d a i0 i1 agcw) A) (hB0 : F.Holds m (F.face1d b0 i0 i1 0) B0) (hU : F.Holds m (F.cell1d u i0 i1 gcw) U)
    (hU0 : ∀ p, ¬ F.InBounds [(i0, i1)] p → U p = 0) (he : F.Elliptic1 i0 i1 alpha beta dx A B0) :
    ∃ m1 m2, ∃ R : List Int → T, Cuda.flux1d i0 i1 dx b0 gcw u f0 β1 m = .ok m1 ∧ Cuda.diffusionV1Apply1d i0 i1 alpha beta dx agcw a gcw u f0 rgcw res β2 m1 = .ok m2 ∧
      (∀ p, F.InBounds [(i0, i1)] p → F.El m2 (F.cell1d res i0 i1 rgcw) p (R p)) ∧
      0 ≤ (F.sum i0 i1 fun i => U [i] * R [i]) ∧
      ((F.sum i0 i1 fun i => U [i] * R [i]) ≤ 0 → ∀ p, F.InBounds [(i0, i1)] p → U p = 0) := by
  obtain ⟨m1, m2, R, c1, c2, E, hR⟩ := energy_v1_1 (alpha := alpha) (beta := beta) (dx := dx) hβ1 hβ2 hi hg hagcw hrgcw h hr hA hB0 hU
  have e : (F.sum i0 i1 fun i => U [i] * R [i]) = F.form1 i0 i1 alpha beta dx A B0 U U := by
    rw [← F.weak1 hi hU0]
    exact F.sum_congr fun i h0 h1 => (by rw [hR i h0 h1])
  refine ⟨m1, m2, R, c1, c2, E, ?_⟩
  rw [e]
  exact ⟨he.nonneg, he.zero hU0⟩

example : ∃ m1 m2, ∃ R : List Int → Rat, Cuda.flux1d 0 3 exDx ⟨2, 0⟩ 2 ⟨1, 0⟩ ⟨5, 0⟩ (fun _ => revBackend) (exDir 1 5 1) = .ok m1 ∧ Cuda.diffusionV1Apply1d 0 3 3 2 exDx 1 ⟨0, 0⟩ 2 ⟨1, 0⟩ ⟨5, 0⟩ 1 ⟨8, 0⟩ (fun _ => seqBackend) m1 = .ok m2 ∧
      (∀ p, F.InBounds [(0, 3)] p → F.El m2 (F.cell1d ⟨8, 0⟩ 0 3 1) p (R p)) ∧
      0 ≤ (F.sum 0 3 fun i => (exIns 1 5) [i] * R [i]) ∧
      ((F.sum 0 3 fun i => (exIns 1 5) [i] * R [i]) ≤ 0 → ∀ p, F.InBounds [(0, 3)] p → (exIns 1 5) p = 0) :=
  C56_v1_1d (T := Rat) (fun _ => revBackend_ok) (fun _ => seqBackend_ok) (by decide) (by decide) (by decide) (by decide) (exDir_args (by ex_args)) (apart_blk (by decide))
    (exDir_rd (by decide) (exRat_ok rfl (by decide) (by decide))) (exDir_rd (by decide) (exRat_ok rfl (by decide) (by decide))) exDir_u1 exIns_zero1 exEll_v1_1

/-- 1D, diffusion operator with constant reaction: for `U` zero outside the box `∑ U R` is not negative, and it is zero only for `U = 0`. -/
theorem C56_v2_1d {i0 i1 gcw rgcw : Int} {alpha beta : T} {dx : Nat → T} {u b0 f0 res : Ptr} {β1 β2 : Nat → Backend} {m : Mem T} {B0 U : List Int → T}
    (hβ1 : ∀ n, ValidBackend (β1 n)) (hβ2 : ∀ n, ValidBackend (β2 n)) (hi : i0 ≤ i1) (hg : 1 ≤ gcw) (hrgcw : 0 ≤ rgcw)
    (h : F.Args m [(F.cell1d u i0 i1 gcw), (F.face1d b0 i0 i1 0)] [(F.face1d f0 i0 i1 0), (F.cell1d res i0 i1 rgcw)])
    (hr : F.Apart (F.cell1d res i0 i1 rgcw) (F.face1d f0 i0 i1 0))
    (hB0 : F.Holds m (F.face1d b0 i0 i1 0) B0) (hU : F.Holds m (F.cell1d u i0 i1 gcw) U)
    (hU0 : ∀ p, ¬ F.InBounds [(i0, i1)] p → U p = 0) (he : F.Elliptic1 i0 i1 alpha beta dx (fun _ => 1) B0) :
    ∃ m1 m2, ∃ R : List Int → T, Cuda.flux1d i0 i1 dx b0 gcw u f0 β1 m = .ok m1 ∧ Cuda.diffusionV2Apply1d i0 i1 alpha beta dx gcw u f0 rgcw res β2 m1 = .ok m2 ∧
      (∀ p, F.InBounds [(i0, i1)] p → F.El m2 (F.cell1d res i0 i1 rgcw) p (R p)) ∧
      0 ≤ (F.sum i0 i1 fun i => U [i] * R [i]) ∧
      ((F.sum i0 i1 fun i => U [i] * R [i]) ≤ 0 → ∀ p, F.InBounds [(i0, i1)] p → U p = 0) := by
  obtain ⟨m1, m2, R, c1, c2, E, hR⟩ := energy_v2_1 (alpha := alpha) (beta := beta) (dx := dx) hβ1 hβ2 hi hg hrgcw h hr hB0 hU
  have e : (F.sum i0 i1 fun i => U [i] * R [i]) = F.form1 i0 i1 alpha beta dx (fun _ => 1) B0 U U := by
    rw [← F.weak1 hi hU0]
    exact F.sum_congr fun i h0 h1 => (by rw [hR i h0 h1])
  refine ⟨m1, m2, R, c1, c2, E, ?_⟩
  rw [e]
  exact ⟨he.nonneg, he.zero hU0⟩

example : ∃ m1 m2, ∃ R : List Int → Rat, Cuda.flux1d 0 3 exDx ⟨2, 0⟩ 2 ⟨1, 0⟩ ⟨5, 0⟩ (fun _ => revBackend) (exDir 1 5 1) = .ok m1 ∧ Cuda.diffusionV2Apply1d 0 3 3 2 exDx 2 ⟨1, 0⟩ ⟨5, 0⟩ 1 ⟨8, 0⟩ (fun _ => seqBackend) m1 = .ok m2 ∧
      (∀ p, F.InBounds [(0, 3)] p → F.El m2 (F.cell1d ⟨8, 0⟩ 0 3 1) p (R p)) ∧
      0 ≤ (F.sum 0 3 fun i => (exIns 1 5) [i] * R [i]) ∧
      ((F.sum 0 3 fun i => (exIns 1 5) [i] * R [i]) ≤ 0 → ∀ p, F.InBounds [(0, 3)] p → (exIns 1 5) p = 0) :=
  C56_v2_1d (T := Rat) (fun _ => revBackend_ok) (fun _ => seqBackend_ok) (by decide) (by decide) (by decide) (exDir_args (by ex_args)) (apart_blk (by decide))
    (exDir_rd (by decide) (exRat_ok rfl (by decide) (by decide))) exDir_u1 exIns_zero1 exEll_v2_1

/-- 1D, Poisson operator: for `U` zero outside the box `∑ U R` is not negative, and it is zero only for `U = 0`. -/
theorem C56_poisson_1d {i0 i1 gcw rgcw : Int} {beta : T} {dx : Nat → T} {u f0 res : Ptr} {β1 β2 : Nat → Backend} {m : Mem T} {U : List Int → T}
    (hβ1 : ∀ n, ValidBackend (β1 n)) (hβ2 : ∀ n, ValidBackend (β2 n)) (hi : i0 ≤ i1) (hg : 1 ≤ gcw) (hrgcw : 0 ≤ rgcw)
    (h : F.Args m [(F.cell1d u i0 i1 gcw)] [(F.face1d f0 i0 i1 0), (F.cell1d res i0 i1 rgcw)])
    (hr : F.Apart (F.cell1d res i0 i1 rgcw) (F.face1d f0 i0 i1 0))
    (hU : F.Holds m (F.cell1d u i0 i1 gcw) U)
    (hU0 : ∀ p, ¬ F.InBounds [(i0, i1)] p → U p = 0) (he : F.Elliptic1 i0 i1 0 beta dx (fun _ => 1) (fun _ => 1)) :
    ∃ m1 m2, ∃ R : List Int → T, Cuda.poissonFlux1d i0 i1 dx gcw u f0 β1 m = .ok m1 ∧ Cuda.poissonV2Apply1d i0 i1 beta dx f0 rgcw res β2 m1 = .ok m2 ∧
      (∀ p, F.InBounds [(i0, i1)] p → F.El m2 (F.cell1d res i0 i1 rgcw) p (R p)) ∧
      0 ≤ (F.sum i0 i1 fun i => U [i] * R [i]) ∧
      ((F.sum i0 i1 fun i => U [i] * R [i]) ≤ 0 → ∀ p, F.InBounds [(i0, i1)] p → U p = 0) := by
  obtain ⟨m1, m2, R, c1, c2, E, hR⟩ := energy_p_1 (beta := beta) (dx := dx) hβ1 hβ2 hi hg hrgcw h hr hU
  have e : (F.sum i0 i1 fun i => U [i] * R [i]) = F.form1 i0 i1 0 beta dx (fun _ => 1) (fun _ => 1) U U := by
    rw [← F.weak1 hi hU0]
    exact F.sum_congr fun i h0 h1 => (by rw [hR i h0 h1])
  refine ⟨m1, m2, R, c1, c2, E, ?_⟩
  rw [e]
  exact ⟨he.nonneg, he.zero hU0⟩

example : ∃ m1 m2, ∃ R : List Int → Rat, Cuda.poissonFlux1d 0 3 exDx 2 ⟨1, 0⟩ ⟨5, 0⟩ (fun _ => revBackend) (exDir 1 5 1) = .ok m1 ∧ Cuda.poissonV2Apply1d 0 3 2 exDx ⟨5, 0⟩ 1 ⟨8, 0⟩ (fun _ => seqBackend) m1 = .ok m2 ∧
      (∀ p, F.InBounds [(0, 3)] p → F.El m2 (F.cell1d ⟨8, 0⟩ 0 3 1) p (R p)) ∧
      0 ≤ (F.sum 0 3 fun i => (exIns 1 5) [i] * R [i]) ∧
      ((F.sum 0 3 fun i => (exIns 1 5) [i] * R [i]) ≤ 0 → ∀ p, F.InBounds [(0, 3)] p → (exIns 1 5) p = 0) :=
  C56_poisson_1d (T := Rat) (fun _ => revBackend_ok) (fun _ => seqBackend_ok) (by decide) (by decide) (by decide) (exDir_args (by ex_args)) (apart_blk (by decide))
     exDir_u1 exIns_zero1 exEll_p_1

/-- 2D, diffusion operator with cell coefficients: for `U` zero outside the box `∑ U R` is not negative, and it is zero only for `U = 0`. -/
theorem C56_v1_2d {i0 j0 i1 j1 agcw gcw rgcw : Int} {alpha beta : T} {dx : Nat → T} {a u b0 b1 f0 f1 res : Ptr} {β1 β2 : Nat → Backend} {m : Mem T} {A B0 B1 U : List Int → T}
    (hβ1 : ∀ n, ValidBackend (β1 n)) (hβ2 : ∀ n, ValidBackend (β2 n)) (hi : i0 ≤ i1) (hj : j0 ≤ j1) (hg : 1 ≤ gcw) (hagcw : 0 ≤ agcw) (hrgcw : 0 ≤ rgcw)
    (h : F.Args m [(F.cell2d a i0 j0 i1 j1 agcw), (F.cell2d u i0 j0 i1 j1 gcw), (F.face2d0 b0 i0 j0 i1 j1 0), (F.face2d1 b1 i0 j0 i1 j1 0)] [(F.face2d0 f0 i0 j0 i1 j1 0), (F.face2d1 f1 i0 j0 i1 j1 0), (F.cell2d res i0 j0 i1 j1 rgcw)])
    (hp : F.Apart (F.face2d0 f0 i0 j0 i1 j1 0) (F.face2d1 f1 i0 j0 i1 j1 0))
    (hr : F.Apart (F.cell2d res i0 j0 i1 j1 rgcw) (F.face2d0 f0 i0 j0 i1 j1 0) ∧ F.Apart (F.cell2d res i0 j0 i1 j1 rgcw) (F.face2d1 f1 i0 j0 i1 j1 0))
    (hA : F.Holds m (F.cell2d a i0 j0 i1 j1 agcw) A) (hB0 : F.Holds m (F.face2d0 b0 i0 j0 i1 j1 0) B0) (hB1 : F.Holds m (F.face2d1 b1 i0 j0 i1 j1 0) B1) (hU : F.Holds m (F.cell2d u i0 j0 i1 j1 gcw) U)
    (hU0 : ∀ p, ¬ F.InBounds [(i0, i1), (j0, j1)] p → U p = 0) (he : F.Elliptic2 i0 j0 i1 j1 alpha beta dx A B0 B1) :
    ∃ m1 m2, ∃ R : List Int → T, Cuda.flux2d i0 j0 i1 j1 dx b0 b1 gcw u f0 f1 β1 m = .ok m1 ∧ Cuda.diffusionV1Apply2d i0 i1 j0 j1 alpha beta dx agcw a gcw u f0 f1 rgcw res β2 m1 = .ok m2 ∧
      (∀ p, F.InBounds [(i0, i1), (j0, j1)] p → F.El m2 (F.cell2d res i0 j0 i1 j1 rgcw) p (R p)) ∧
      0 ≤ (F.sum i0 i1 fun i => F.sum j0 j1 fun j => U [i, j] * R [i, j]) ∧
      ((F.sum i0 i1 fun i => F.sum j0 j1 fun j => U [i, j] * R [i, j]) ≤ 0 → ∀ p, F.InBounds [(i0, i1), (j0, j1)] p → U p = 0) := by
  obtain ⟨m1, m2, R, c1, c2, E, hR⟩ := energy_v1_2 (alpha := alpha) (beta := beta) (dx := dx) hβ1 hβ2 hi hj hg hagcw hrgcw h hp hr hA hB0 hB1 hU
  have e : (F.sum i0 i1 fun i => F.sum j0 j1 fun j => U [i, j] * R [i, j]) = F.form2 i0 j0 i1 j1 alpha beta dx A B0 B1 U U := by
    rw [← F.weak2 hi hj hU0]
    exact F.sum_congr fun i h0 h1 => F.sum_congr fun j h2 h3 => (by rw [hR i j h0 h1 h2 h3])
  refine ⟨m1, m2, R, c1, c2, E, ?_⟩
  rw [e]
  exact ⟨he.nonneg, he.zero hU0⟩

example : ∃ m1 m2, ∃ R : List Int → Rat, Cuda.flux2d 0 1 2 3 exDx ⟨2, 0⟩ ⟨3, 0⟩ 2 ⟨1, 0⟩ ⟨5, 0⟩ ⟨6, 0⟩ (fun _ => revBackend) (exDir 2 5 1) = .ok m1 ∧ Cuda.diffusionV1Apply2d 0 2 1 3 3 2 exDx 1 ⟨0, 0⟩ 2 ⟨1, 0⟩ ⟨5, 0⟩ ⟨6, 0⟩ 1 ⟨8, 0⟩ (fun _ => seqBackend) m1 = .ok m2 ∧
      (∀ p, F.InBounds [(0, 2), (1, 3)] p → F.El m2 (F.cell2d ⟨8, 0⟩ 0 1 2 3 1) p (R p)) ∧
      0 ≤ (F.sum 0 2 fun i => F.sum 1 3 fun j => (exIns 2 5) [i, j] * R [i, j]) ∧
      ((F.sum 0 2 fun i => F.sum 1 3 fun j => (exIns 2 5) [i, j] * R [i, j]) ≤ 0 → ∀ p, F.InBounds [(0, 2), (1, 3)] p → (exIns 2 5) p = 0) :=
  C56_v1_2d (T := Rat) (fun _ => revBackend_ok) (fun _ => seqBackend_ok) (by decide) (by decide) (by decide) (by decide) (by decide) (exDir_args (by ex_args)) (apart_blk (by decide)) ⟨apart_blk (by decide), apart_blk (by decide)⟩
    (exDir_rd (by decide) (exRat_ok rfl (by decide) (by decide))) (exDir_rd (by decide) (exRat_ok rfl (by decide) (by decide))) (exDir_rd (by decide) (exRat_ok rfl (by decide) (by decide))) exDir_u2 exIns_zero2 exEll_v1_2

/-- 2D, diffusion operator with constant reaction: for `U` zero outside the box `∑ U R` is not negative, and it is zero only for `U = 0`. -/
theorem C56_v2_2d {i0 j0 i1 j1 gcw rgcw : Int} {alpha beta : T} {dx : Nat → T} {u b0 b1 f0 f1 res : Ptr} {β1 β2 : Nat → Backend} {m : Mem T} {B0 B1 U : List Int → T}
    (hβ1 : ∀ n, ValidBackend (β1 n)) (hβ2 : ∀ n, ValidBackend (β2 n)) (hi : i0 ≤ i1) (hj : j0 ≤ j1) (hg : 1 ≤ gcw) (hrgcw : 0 ≤ rgcw)
    (h : F.Args m [(F.cell2d u i0 j0 i1 j1 gcw), (F.face2d0 b0 i0 j0 i1 j1 0), (F.face2d1 b1 i0 j0 i1 j1 0)] [(F.face2d0 f0 i0 j0 i1 j1 0), (F.face2d1 f1 i0 j0 i1 j1 0), (F.cell2d res i0 j0 i1 j1 rgcw)])
    (hp : F.Apart (F.face2d0 f0 i0 j0 i1 j1 0) (F.face2d1 f1 i0 j0 i1 j1 0))
    (hr : F.Apart (F.cell2d res i0 j0 i1 j1 rgcw) (F.face2d0 f0 i0 j0 i1 j1 0) ∧ F.Apart (F.cell2d res i0 j0 i1 j1 rgcw) (F.face2d1 f1 i0 j0 i1 j1 0))
    (hB0 : F.Holds m (F.face2d0 b0 i0 j0 i1 j1 0) B0) (hB1 : F.Holds m (F.face2d1 b1 i0 j0 i1 j1 0) B1) (hU : F.Holds m (F.cell2d u i0 j0 i1 j1 gcw) U)
    (hU0 : ∀ p, ¬ F.InBounds [(i0, i1), (j0, j1)] p → U p = 0) (he : F.Elliptic2 i0 j0 i1 j1 alpha beta dx (fun _ => 1) B0 B1) :
    ∃ m1 m2, ∃ R : List Int → T, Cuda.flux2d i0 j0 i1 j1 dx b0 b1 gcw u f0 f1 β1 m = .ok m1 ∧ Cuda.diffusionV2Apply2d i0 i1 j0 j1 alpha beta dx gcw u f0 f1 rgcw res β2 m1 = .ok m2 ∧
      (∀ p, F.InBounds [(i0, i1), (j0, j1)] p → F.El m2 (F.cell2d res i0 j0 i1 j1 rgcw) p (R p)) ∧
      0 ≤ (F.sum i0 i1 fun i => F.sum j0 j1 fun j => U [i, j] * R [i, j]) ∧
      ((F.sum i0 i1 fun i => F.sum j0 j1 fun j => U [i, j] * R [i, j]) ≤ 0 → ∀ p, F.InBounds [(i0, i1), (j0, j1)] p → U p = 0) := by
  obtain ⟨m1, m2, R, c1, c2, E, hR⟩ := energy_v2_2 (alpha := alpha) (beta := beta) (dx := dx) hβ1 hβ2 hi hj hg hrgcw h hp hr hB0 hB1 hU
  have e : (F.sum i0 i1 fun i => F.sum j0 j1 fun j => U [i, j] * R [i, j]) = F.form2 i0 j0 i1 j1 alpha beta dx (fun _ => 1) B0 B1 U U := by
    rw [← F.weak2 hi hj hU0]
    exact F.sum_congr fun i h0 h1 => F.sum_congr fun j h2 h3 => (by rw [hR i j h0 h1 h2 h3])
  refine ⟨m1, m2, R, c1, c2, E, ?_⟩
  rw [e]
  exact ⟨he.nonneg, he.zero hU0⟩

example : ∃ m1 m2, ∃ R : List Int → Rat, Cuda.flux2d 0 1 2 3 exDx ⟨2, 0⟩ ⟨3, 0⟩ 2 ⟨1, 0⟩ ⟨5, 0⟩ ⟨6, 0⟩ (fun _ => revBackend) (exDir 2 5 1) = .ok m1 ∧ Cuda.diffusionV2Apply2d 0 2 1 3 3 2 exDx 2 ⟨1, 0⟩ ⟨5, 0⟩ ⟨6, 0⟩ 1 ⟨8, 0⟩ (fun _ => seqBackend) m1 = .ok m2 ∧
      (∀ p, F.InBounds [(0, 2), (1, 3)] p → F.El m2 (F.cell2d ⟨8, 0⟩ 0 1 2 3 1) p (R p)) ∧
      0 ≤ (F.sum 0 2 fun i => F.sum 1 3 fun j => (exIns 2 5) [i, j] * R [i, j]) ∧
      ((F.sum 0 2 fun i => F.sum 1 3 fun j => (exIns 2 5) [i, j] * R [i, j]) ≤ 0 → ∀ p, F.InBounds [(0, 2), (1, 3)] p → (exIns 2 5) p = 0) :=
  C56_v2_2d (T := Rat) (fun _ => revBackend_ok) (fun _ => seqBackend_ok) (by decide) (by decide) (by decide) (by decide) (exDir_args (by ex_args)) (apart_blk (by decide)) ⟨apart_blk (by decide), apart_blk (by decide)⟩
    (exDir_rd (by decide) (exRat_ok rfl (by decide) (by decide))) (exDir_rd (by decide) (exRat_ok rfl (by decide) (by decide))) exDir_u2 exIns_zero2 exEll_v2_2

/-- 2D, Poisson operator: for `U` zero outside the box `∑ U R` is not negative, and it is zero only for `U = 0`. -/
theorem C56_poisson_2d {i0 j0 i1 j1 gcw rgcw : Int} {beta : T} {dx : Nat → T} {u f0 f1 res : Ptr} {β1 β2 : Nat → Backend} {m : Mem T} {U : List Int → T}
    (hβ1 : ∀ n, ValidBackend (β1 n)) (hβ2 : ∀ n, ValidBackend (β2 n)) (hi : i0 ≤ i1) (hj : j0 ≤ j1) (hg : 1 ≤ gcw) (hrgcw : 0 ≤ rgcw)
    (h : F.Args m [(F.cell2d u i0 j0 i1 j1 gcw)] [(F.face2d0 f0 i0 j0 i1 j1 0), (F.face2d1 f1 i0 j0 i1 j1 0), (F.cell2d res i0 j0 i1 j1 rgcw)])
    (hp : F.Apart (F.face2d0 f0 i0 j0 i1 j1 0) (F.face2d1 f1 i0 j0 i1 j1 0))
    (hr : F.Apart (F.cell2d res i0 j0 i1 j1 rgcw) (F.face2d0 f0 i0 j0 i1 j1 0) ∧ F.Apart (F.cell2d res i0 j0 i1 j1 rgcw) (F.face2d1 f1 i0 j0 i1 j1 0))
    (hU : F.Holds m (F.cell2d u i0 j0 i1 j1 gcw) U)
    (hU0 : ∀ p, ¬ F.InBounds [(i0, i1), (j0, j1)] p → U p = 0) (he : F.Elliptic2 i0 j0 i1 j1 0 beta dx (fun _ => 1) (fun _ => 1) (fun _ => 1)) :
    ∃ m1 m2, ∃ R : List Int → T, Cuda.poissonFlux2d i0 j0 i1 j1 dx gcw u f0 f1 β1 m = .ok m1 ∧ Cuda.poissonV2Apply2d i0 i1 j0 j1 beta dx f0 f1 rgcw res β2 m1 = .ok m2 ∧
      (∀ p, F.InBounds [(i0, i1), (j0, j1)] p → F.El m2 (F.cell2d res i0 j0 i1 j1 rgcw) p (R p)) ∧
      0 ≤ (F.sum i0 i1 fun i => F.sum j0 j1 fun j => U [i, j] * R [i, j]) ∧
      ((F.sum i0 i1 fun i => F.sum j0 j1 fun j => U [i, j] * R [i, j]) ≤ 0 → ∀ p, F.InBounds [(i0, i1), (j0, j1)] p → U p = 0) := by
  obtain ⟨m1, m2, R, c1, c2, E, hR⟩ := energy_p_2 (beta := beta) (dx := dx) hβ1 hβ2 hi hj hg hrgcw h hp hr hU
  have e : (F.sum i0 i1 fun i => F.sum j0 j1 fun j => U [i, j] * R [i, j]) = F.form2 i0 j0 i1 j1 0 beta dx (fun _ => 1) (fun _ => 1) (fun _ => 1) U U := by
    rw [← F.weak2 hi hj hU0]
    exact F.sum_congr fun i h0 h1 => F.sum_congr fun j h2 h3 => (by rw [hR i j h0 h1 h2 h3])
  refine ⟨m1, m2, R, c1, c2, E, ?_⟩
  rw [e]
  exact ⟨he.nonneg, he.zero hU0⟩

example : ∃ m1 m2, ∃ R : List Int → Rat, Cuda.poissonFlux2d 0 1 2 3 exDx 2 ⟨1, 0⟩ ⟨5, 0⟩ ⟨6, 0⟩ (fun _ => revBackend) (exDir 2 5 1) = .ok m1 ∧ Cuda.poissonV2Apply2d 0 2 1 3 2 exDx ⟨5, 0⟩ ⟨6, 0⟩ 1 ⟨8, 0⟩ (fun _ => seqBackend) m1 = .ok m2 ∧
      (∀ p, F.InBounds [(0, 2), (1, 3)] p → F.El m2 (F.cell2d ⟨8, 0⟩ 0 1 2 3 1) p (R p)) ∧
      0 ≤ (F.sum 0 2 fun i => F.sum 1 3 fun j => (exIns 2 5) [i, j] * R [i, j]) ∧
      ((F.sum 0 2 fun i => F.sum 1 3 fun j => (exIns 2 5) [i, j] * R [i, j]) ≤ 0 → ∀ p, F.InBounds [(0, 2), (1, 3)] p → (exIns 2 5) p = 0) :=
  C56_poisson_2d (T := Rat) (fun _ => revBackend_ok) (fun _ => seqBackend_ok) (by decide) (by decide) (by decide) (by decide) (exDir_args (by ex_args)) (apart_blk (by decide)) ⟨apart_blk (by decide), apart_blk (by decide)⟩
     exDir_u2 exIns_zero2 exEll_p_2

/-- 3D, diffusion operator with cell coefficients: for `U` zero outside the box `∑ U R` is not negative, and it is zero only for `U = 0`. -/
theorem C56_v1_3d {i0 j0 k0 i1 j1 k1 agcw gcw rgcw : Int} {alpha beta : T} {dx : Nat → T} {a u b0 b1 b2 f0 f1 f2 res : Ptr} {β1 β2 : Nat → Backend} {m : Mem T} {A B0 B1 B2 U : List Int → T}
    (hβ1 : ∀ n, ValidBackend (β1 n)) (hβ2 : ∀ n, ValidBackend (β2 n)) (hi : i0 ≤ i1) (hj : j0 ≤ j1) (hk : k0 ≤ k1) (hg : 1 ≤ gcw) (hagcw : 0 ≤ agcw) (hrgcw : 0 ≤ rgcw)
    (h : F.Args m [(F.cell3d a i0 j0 k0 i1 j1 k1 agcw), (F.cell3d u i0 j0 k0 i1 j1 k1 gcw), (F.face3d0 b0 i0 j0 k0 i1 j1 k1 0), (F.face3d1 b1 i0 j0 k0 i1 j1 k1 0), (F.face3d2 b2 i0 j0 k0 i1 j1 k1 0)] [(F.face3d0 f0 i0 j0 k0 i1 j1 k1 0), (F.face3d1 f1 i0 j0 k0 i1 j1 k1 0), (F.face3d2 f2 i0 j0 k0 i1 j1 k1 0), (F.cell3d res i0 j0 k0 i1 j1 k1 rgcw)])
    (hp : F.Apart (F.face3d0 f0 i0 j0 k0 i1 j1 k1 0) (F.face3d1 f1 i0 j0 k0 i1 j1 k1 0) ∧ F.Apart (F.face3d0 f0 i0 j0 k0 i1 j1 k1 0) (F.face3d2 f2 i0 j0 k0 i1 j1 k1 0) ∧ F.Apart (F.face3d1 f1 i0 j0 k0 i1 j1 k1 0) (F.face3d2 f2 i0 j0 k0 i1 j1 k1 0))
    (hr : F.Apart (F.cell3d res i0 j0 k0 i1 j1 k1 rgcw) (F.face3d0 f0 i0 j0 k0 i1 j1 k1 0) ∧ F.Apart (F.cell3d res i0 j0 k0 i1 j1 k1 rgcw) (F.face3d1 f1 i0 j0 k0 i1 j1 k1 0) ∧ F.Apart (F.cell3d res i0 j0 k0 i1 j1 k1 rgcw) (F.face3d2 f2 i0 j0 k0 i1 j1 k1 0))
    (hA : F.Holds m (F.cell3d a i0 j0 k0 i1 j1 k1 agcw) A) (hB0 : F.Holds m (F.face3d0 b0 i0 j0 k0 i1 j1 k1 0) B0) (hB1 : F.Holds m (F.face3d1 b1 i0 j0 k0 i1 j1 k1 0) B1) (hB2 : F.Holds m (F.face3d2 b2 i0 j0 k0 i1 j1 k1 0) B2) (hU : F.Holds m (F.cell3d u i0 j0 k0 i1 j1 k1 gcw) U)
    (hU0 : ∀ p, ¬ F.InBounds [(i0, i1), (j0, j1), (k0, k1)] p → U p = 0) (he : F.Elliptic3 i0 j0 k0 i1 j1 k1 alpha beta dx A B0 B1 B2) :
    ∃ m1 m2, ∃ R : List Int → T, Cuda.flux3d i0 j0 k0 i1 j1 k1 dx b0 b1 b2 gcw u f0 f1 f2 β1 m = .ok m1 ∧ Cuda.diffusionV1Apply3d i0 i1 j0 j1 k0 k1 alpha beta dx agcw a gcw u f0 f1 f2 rgcw res β2 m1 = .ok m2 ∧
      (∀ p, F.InBounds [(i0, i1), (j0, j1), (k0, k1)] p → F.El m2 (F.cell3d res i0 j0 k0 i1 j1 k1 rgcw) p (R p)) ∧
      0 ≤ (F.sum i0 i1 fun i => F.sum j0 j1 fun j => F.sum k0 k1 fun k => U [i, j, k] * R [i, j, k]) ∧
      ((F.sum i0 i1 fun i => F.sum j0 j1 fun j => F.sum k0 k1 fun k => U [i, j, k] * R [i, j, k]) ≤ 0 → ∀ p, F.InBounds [(i0, i1), (j0, j1), (k0, k1)] p → U p = 0) := by
  obtain ⟨m1, m2, R, c1, c2, E, hR⟩ := energy_v1_3 (alpha := alpha) (beta := beta) (dx := dx) hβ1 hβ2 hi hj hk hg hagcw hrgcw h hp hr hA hB0 hB1 hB2 hU
  have e : (F.sum i0 i1 fun i => F.sum j0 j1 fun j => F.sum k0 k1 fun k => U [i, j, k] * R [i, j, k]) = F.form3 i0 j0 k0 i1 j1 k1 alpha beta dx A B0 B1 B2 U U := by
    rw [← F.weak3 hi hj hk hU0]
    exact F.sum_congr fun i h0 h1 => F.sum_congr fun j h2 h3 => F.sum_congr fun k h4 h5 => (by rw [hR i j k h0 h1 h2 h3 h4 h5])
  refine ⟨m1, m2, R, c1, c2, E, ?_⟩
  rw [e]
  exact ⟨he.nonneg, he.zero hU0⟩

example : ∃ m1 m2, ∃ R : List Int → Rat, Cuda.flux3d 0 1 2 1 2 3 exDx ⟨2, 0⟩ ⟨3, 0⟩ ⟨4, 0⟩ 2 ⟨1, 0⟩ ⟨5, 0⟩ ⟨6, 0⟩ ⟨7, 0⟩ (fun _ => revBackend) (exDir 3 5 1) = .ok m1 ∧ Cuda.diffusionV1Apply3d 0 1 1 2 2 3 3 2 exDx 1 ⟨0, 0⟩ 2 ⟨1, 0⟩ ⟨5, 0⟩ ⟨6, 0⟩ ⟨7, 0⟩ 1 ⟨8, 0⟩ (fun _ => seqBackend) m1 = .ok m2 ∧
      (∀ p, F.InBounds [(0, 1), (1, 2), (2, 3)] p → F.El m2 (F.cell3d ⟨8, 0⟩ 0 1 2 1 2 3 1) p (R p)) ∧
      0 ≤ (F.sum 0 1 fun i => F.sum 1 2 fun j => F.sum 2 3 fun k => (exIns 3 5) [i, j, k] * R [i, j, k]) ∧
      ((F.sum 0 1 fun i => F.sum 1 2 fun j => F.sum 2 3 fun k => (exIns 3 5) [i, j, k] * R [i, j, k]) ≤ 0 → ∀ p, F.InBounds [(0, 1), (1, 2), (2, 3)] p → (exIns 3 5) p = 0) :=
  C56_v1_3d (T := Rat) (fun _ => revBackend_ok) (fun _ => seqBackend_ok) (by decide) (by decide) (by decide) (by decide) (by decide) (by decide) (exDir_args (by ex_args)) (⟨apart_blk (by decide), apart_blk (by decide), apart_blk (by decide)⟩) ⟨apart_blk (by decide), apart_blk (by decide), apart_blk (by decide)⟩
    (exDir_rd (by decide) (exRat_ok rfl (by decide) (by decide))) (exDir_rd (by decide) (exRat_ok rfl (by decide) (by decide))) (exDir_rd (by decide) (exRat_ok rfl (by decide) (by decide))) (exDir_rd (by decide) (exRat_ok rfl (by decide) (by decide))) exDir_u3 exIns_zero3 exEll_v1_3

/-- 3D, diffusion operator with constant reaction: for `U` zero outside the box `∑ U R` is not negative, and it is zero only for `U = 0`. -/
theorem C56_v2_3d {i0 j0 k0 i1 j1 k1 gcw rgcw : Int} {alpha beta : T} {dx : Nat → T} {u b0 b1 b2 f0 f1 f2 res : Ptr} {β1 β2 : Nat → Backend} {m : Mem T} {B0 B1 B2 U : List Int → T}
    (hβ1 : ∀ n, ValidBackend (β1 n)) (hβ2 : ∀ n, ValidBackend (β2 n)) (hi : i0 ≤ i1) (hj : j0 ≤ j1) (hk : k0 ≤ k1) (hg : 1 ≤ gcw) (hrgcw : 0 ≤ rgcw)
    (h : F.Args m [(F.cell3d u i0 j0 k0 i1 j1 k1 gcw), (F.face3d0 b0 i0 j0 k0 i1 j1 k1 0), (F.face3d1 b1 i0 j0 k0 i1 j1 k1 0), (F.face3d2 b2 i0 j0 k0 i1 j1 k1 0)] [(F.face3d0 f0 i0 j0 k0 i1 j1 k1 0), (F.face3d1 f1 i0 j0 k0 i1 j1 k1 0), (F.face3d2 f2 i0 j0 k0 i1 j1 k1 0), (F.cell3d res i0 j0 k0 i1 j1 k1 rgcw)])
    (hp : F.Apart (F.face3d0 f0 i0 j0 k0 i1 j1 k1 0) (F.face3d1 f1 i0 j0 k0 i1 j1 k1 0) ∧ F.Apart (F.face3d0 f0 i0 j0 k0 i1 j1 k1 0) (F.face3d2 f2 i0 j0 k0 i1 j1 k1 0) ∧ F.Apart (F.face3d1 f1 i0 j0 k0 i1 j1 k1 0) (F.face3d2 f2 i0 j0 k0 i1 j1 k1 0))
    (hr : F.Apart (F.cell3d res i0 j0 k0 i1 j1 k1 rgcw) (F.face3d0 f0 i0 j0 k0 i1 j1 k1 0) ∧ F.Apart (F.cell3d res i0 j0 k0 i1 j1 k1 rgcw) (F.face3d1 f1 i0 j0 k0 i1 j1 k1 0) ∧ F.Apart (F.cell3d res i0 j0 k0 i1 j1 k1 rgcw) (F.face3d2 f2 i0 j0 k0 i1 j1 k1 0))
    (hB0 : F.Holds m (F.face3d0 b0 i0 j0 k0 i1 j1 k1 0) B0) (hB1 : F.Holds m (F.face3d1 b1 i0 j0 k0 i1 j1 k1 0) B1) (hB2 : F.Holds m (F.face3d2 b2 i0 j0 k0 i1 j1 k1 0) B2) (hU : F.Holds m (F.cell3d u i0 j0 k0 i1 j1 k1 gcw) U)
    (hU0 : ∀ p, ¬ F.InBounds [(i0, i1), (j0, j1), (k0, k1)] p → U p = 0) (he : F.Elliptic3 i0 j0 k0 i1 j1 k1 alpha beta dx (fun _ => 1) B0 B1 B2) :
    ∃ m1 m2, ∃ R : List Int → T, Cuda.flux3d i0 j0 k0 i1 j1 k1 dx b0 b1 b2 gcw u f0 f1 f2 β1 m = .ok m1 ∧ Cuda.diffusionV2Apply3d i0 i1 j0 j1 k0 k1 alpha beta dx gcw u f0 f1 f2 rgcw res β2 m1 = .ok m2 ∧
      (∀ p, F.InBounds [(i0, i1), (j0, j1), (k0, k1)] p → F.El m2 (F.cell3d res i0 j0 k0 i1 j1 k1 rgcw) p (R p)) ∧
      0 ≤ (F.sum i0 i1 fun i => F.sum j0 j1 fun j => F.sum k0 k1 fun k => U [i, j, k] * R [i, j, k]) ∧
      ((F.sum i0 i1 fun i => F.sum j0 j1 fun j => F.sum k0 k1 fun k => U [i, j, k] * R [i, j, k]) ≤ 0 → ∀ p, F.InBounds [(i0, i1), (j0, j1), (k0, k1)] p → U p = 0) := by
  obtain ⟨m1, m2, R, c1, c2, E, hR⟩ := energy_v2_3 (alpha := alpha) (beta := beta) (dx := dx) hβ1 hβ2 hi hj hk hg hrgcw h hp hr hB0 hB1 hB2 hU
  have e : (F.sum i0 i1 fun i => F.sum j0 j1 fun j => F.sum k0 k1 fun k => U [i, j, k] * R [i, j, k]) = F.form3 i0 j0 k0 i1 j1 k1 alpha beta dx (fun _ => 1) B0 B1 B2 U U := by
    rw [← F.weak3 hi hj hk hU0]
    exact F.sum_congr fun i h0 h1 => F.sum_congr fun j h2 h3 => F.sum_congr fun k h4 h5 => (by rw [hR i j k h0 h1 h2 h3 h4 h5])
  refine ⟨m1, m2, R, c1, c2, E, ?_⟩
  rw [e]
  exact ⟨he.nonneg, he.zero hU0⟩

example : ∃ m1 m2, ∃ R : List Int → Rat, Cuda.flux3d 0 1 2 1 2 3 exDx ⟨2, 0⟩ ⟨3, 0⟩ ⟨4, 0⟩ 2 ⟨1, 0⟩ ⟨5, 0⟩ ⟨6, 0⟩ ⟨7, 0⟩ (fun _ => revBackend) (exDir 3 5 1) = .ok m1 ∧ Cuda.diffusionV2Apply3d 0 1 1 2 2 3 3 2 exDx 2 ⟨1, 0⟩ ⟨5, 0⟩ ⟨6, 0⟩ ⟨7, 0⟩ 1 ⟨8, 0⟩ (fun _ => seqBackend) m1 = .ok m2 ∧
      (∀ p, F.InBounds [(0, 1), (1, 2), (2, 3)] p → F.El m2 (F.cell3d ⟨8, 0⟩ 0 1 2 1 2 3 1) p (R p)) ∧
      0 ≤ (F.sum 0 1 fun i => F.sum 1 2 fun j => F.sum 2 3 fun k => (exIns 3 5) [i, j, k] * R [i, j, k]) ∧
      ((F.sum 0 1 fun i => F.sum 1 2 fun j => F.sum 2 3 fun k => (exIns 3 5) [i, j, k] * R [i, j, k]) ≤ 0 → ∀ p, F.InBounds [(0, 1), (1, 2), (2, 3)] p → (exIns 3 5) p = 0) :=
  C56_v2_3d (T := Rat) (fun _ => revBackend_ok) (fun _ => seqBackend_ok) (by decide) (by decide) (by decide) (by decide) (by decide) (exDir_args (by ex_args)) (⟨apart_blk (by decide), apart_blk (by decide), apart_blk (by decide)⟩) ⟨apart_blk (by decide), apart_blk (by decide), apart_blk (by decide)⟩
    (exDir_rd (by decide) (exRat_ok rfl (by decide) (by decide))) (exDir_rd (by decide) (exRat_ok rfl (by decide) (by decide))) (exDir_rd (by decide) (exRat_ok rfl (by decide) (by decide))) exDir_u3 exIns_zero3 exEll_v2_3

/-- 3D, Poisson operator: for `U` zero outside the box `∑ U R` is not negative, and it is zero only for `U = 0`. -/
theorem C56_poisson_3d {i0 j0 k0 i1 j1 k1 gcw rgcw : Int} {beta : T} {dx : Nat → T} {u f0 f1 f2 res : Ptr} {β1 β2 : Nat → Backend} {m : Mem T} {U : List Int → T}
    (hβ1 : ∀ n, ValidBackend (β1 n)) (hβ2 : ∀ n, ValidBackend (β2 n)) (hi : i0 ≤ i1) (hj : j0 ≤ j1) (hk : k0 ≤ k1) (hg : 1 ≤ gcw) (hrgcw : 0 ≤ rgcw)
    (h : F.Args m [(F.cell3d u i0 j0 k0 i1 j1 k1 gcw)] [(F.face3d0 f0 i0 j0 k0 i1 j1 k1 0), (F.face3d1 f1 i0 j0 k0 i1 j1 k1 0), (F.face3d2 f2 i0 j0 k0 i1 j1 k1 0), (F.cell3d res i0 j0 k0 i1 j1 k1 rgcw)])
    (hp : F.Apart (F.face3d0 f0 i0 j0 k0 i1 j1 k1 0) (F.face3d1 f1 i0 j0 k0 i1 j1 k1 0) ∧ F.Apart (F.face3d0 f0 i0 j0 k0 i1 j1 k1 0) (F.face3d2 f2 i0 j0 k0 i1 j1 k1 0) ∧ F.Apart (F.face3d1 f1 i0 j0 k0 i1 j1 k1 0) (F.face3d2 f2 i0 j0 k0 i1 j1 k1 0))
    (hr : F.Apart (F.cell3d res i0 j0 k0 i1 j1 k1 rgcw) (F.face3d0 f0 i0 j0 k0 i1 j1 k1 0) ∧ F.Apart (F.cell3d res i0 j0 k0 i1 j1 k1 rgcw) (F.face3d1 f1 i0 j0 k0 i1 j1 k1 0) ∧ F.Apart (F.cell3d res i0 j0 k0 i1 j1 k1 rgcw) (F.face3d2 f2 i0 j0 k0 i1 j1 k1 0))
    (hU : F.Holds m (F.cell3d u i0 j0 k0 i1 j1 k1 gcw) U)
    (hU0 : ∀ p, ¬ F.InBounds [(i0, i1), (j0, j1), (k0, k1)] p → U p = 0) (he : F.Elliptic3 i0 j0 k0 i1 j1 k1 0 beta dx (fun _ => 1) (fun _ => 1) (fun _ => 1) (fun _ => 1)) :
    ∃ m1 m2, ∃ R : List Int → T, Cuda.poissonFlux3d i0 j0 k0 i1 j1 k1 dx gcw u f0 f1 f2 β1 m = .ok m1 ∧ Cuda.poissonV2Apply3d i0 i1 j0 j1 k0 k1 beta dx f0 f1 f2 rgcw res β2 m1 = .ok m2 ∧
      (∀ p, F.InBounds [(i0, i1), (j0, j1), (k0, k1)] p → F.El m2 (F.cell3d res i0 j0 k0 i1 j1 k1 rgcw) p (R p)) ∧
      0 ≤ (F.sum i0 i1 fun i => F.sum j0 j1 fun j => F.sum k0 k1 fun k => U [i, j, k] * R [i, j, k]) ∧
      ((F.sum i0 i1 fun i => F.sum j0 j1 fun j => F.sum k0 k1 fun k => U [i, j, k] * R [i, j, k]) ≤ 0 → ∀ p, F.InBounds [(i0, i1), (j0, j1), (k0, k1)] p → U p = 0) := by
  obtain ⟨m1, m2, R, c1, c2, E, hR⟩ := energy_p_3 (beta := beta) (dx := dx) hβ1 hβ2 hi hj hk hg hrgcw h hp hr hU
  have e : (F.sum i0 i1 fun i => F.sum j0 j1 fun j => F.sum k0 k1 fun k => U [i, j, k] * R [i, j, k]) = F.form3 i0 j0 k0 i1 j1 k1 0 beta dx (fun _ => 1) (fun _ => 1) (fun _ => 1) (fun _ => 1) U U := by
    rw [← F.weak3 hi hj hk hU0]
    exact F.sum_congr fun i h0 h1 => F.sum_congr fun j h2 h3 => F.sum_congr fun k h4 h5 => (by rw [hR i j k h0 h1 h2 h3 h4 h5])
  refine ⟨m1, m2, R, c1, c2, E, ?_⟩
  rw [e]
  exact ⟨he.nonneg, he.zero hU0⟩

example : ∃ m1 m2, ∃ R : List Int → Rat, Cuda.poissonFlux3d 0 1 2 1 2 3 exDx 2 ⟨1, 0⟩ ⟨5, 0⟩ ⟨6, 0⟩ ⟨7, 0⟩ (fun _ => revBackend) (exDir 3 5 1) = .ok m1 ∧ Cuda.poissonV2Apply3d 0 1 1 2 2 3 2 exDx ⟨5, 0⟩ ⟨6, 0⟩ ⟨7, 0⟩ 1 ⟨8, 0⟩ (fun _ => seqBackend) m1 = .ok m2 ∧
      (∀ p, F.InBounds [(0, 1), (1, 2), (2, 3)] p → F.El m2 (F.cell3d ⟨8, 0⟩ 0 1 2 1 2 3 1) p (R p)) ∧
      0 ≤ (F.sum 0 1 fun i => F.sum 1 2 fun j => F.sum 2 3 fun k => (exIns 3 5) [i, j, k] * R [i, j, k]) ∧
      ((F.sum 0 1 fun i => F.sum 1 2 fun j => F.sum 2 3 fun k => (exIns 3 5) [i, j, k] * R [i, j, k]) ≤ 0 → ∀ p, F.InBounds [(0, 1), (1, 2), (2, 3)] p → (exIns 3 5) p = 0) :=
  C56_poisson_3d (T := Rat) (fun _ => revBackend_ok) (fun _ => seqBackend_ok) (by decide) (by decide) (by decide) (by decide) (by decide) (exDir_args (by ex_args)) (⟨apart_blk (by decide), apart_blk (by decide), apart_blk (by decide)⟩) ⟨apart_blk (by decide), apart_blk (by decide), apart_blk (by decide)⟩
     exDir_u3 exIns_zero3 exEll_p_3

/-- 1D, diffusion operator with cell coefficients: runs from unknowns that agree outside the box leave equal results only if the unknowns agree in the box. -/
theorem C57_v1_1d {i0 i1 agcw gcw rgcw : Int} {alpha beta : T} {dx : Nat → T} {a u b0 f0 res : Ptr} {β1 β2 : Nat → Backend} {β3 β4 : Nat → Backend} {m m' : Mem T} {A B0 U V : List Int → T}
    (hβ1 : ∀ n, ValidBackend (β1 n)) (hβ2 : ∀ n, ValidBackend (β2 n)) (hβ3 : ∀ n, ValidBackend (β3 n)) (hβ4 : ∀ n, ValidBackend (β4 n)) (hi : i0 ≤ i1) (hg : 1 ≤ gcw) (hagcw : 0 ≤ agcw) (hrgcw : 0 ≤ rgcw)
    (h : F.Args m [(F.cell1d a i0 i1 agcw), (F.cell1d u i0 i1 gcw), (F.face1d b0 i0 i1 0)] [(F.face1d f0 i0 i1 0), (F.cell1d res i0 i1 rgcw)]) (h' : F.Args m' [(F.cell1d a i0 i1 agcw), (F.cell1d u i0 i1 gcw), (F.face1d b0 i0 i1 0)] [(F.face1d f0 i0 i1 0), (F.cell1d res i0 i1 rgcw)])
    (hr : F.Apart (F.cell1d res i0 i1 rgcw) (F.face1d f0 i0 i1 0))
    (hA : F.Holds m (F.cell1d a i0 i1 agcw) A) (hB0 : F.Holds m (F.face1d b0 i0 i1 0) B0) (hU : F.Holds m (F.cell1d u i0 i1 gcw) U)
    (hA' : F.Holds m' (F.cell1d a i0 i1 agcw) A) (hB0' : F.Holds m' (F.face1d b0 i0 i1 0) B0) (hV : F.Holds m' (F.cell1d u i0 i1 gcw) V)
    (hUV : ∀ p, ¬ F.InBounds [(i0, i1)] p → U p = V p) (he : F.Elliptic1 i0 i1 alpha beta dx A B0) :
    ∃ m1 m2 p1 p2, ∃ R S : List Int → T, Cuda.flux1d i0 i1 dx b0 gcw u f0 β1 m = .ok m1 ∧ Cuda.diffusionV1Apply1d i0 i1 alpha beta dx agcw a gcw u f0 rgcw res β2 m1 = .ok m2 ∧
      (∀ p, F.InBounds [(i0, i1)] p → F.El m2 (F.cell1d res i0 i1 rgcw) p (R p)) ∧
      Cuda.flux1d i0 i1 dx b0 gcw u f0 β3 m' = .ok p1 ∧ Cuda.diffusionV1Apply1d i0 i1 alpha beta dx agcw a gcw u f0 rgcw res β4 p1 = .ok p2 ∧
      (∀ p, F.InBounds [(i0, i1)] p → F.El p2 (F.cell1d res i0 i1 rgcw) p (S p)) ∧
      ((∀ p, F.InBounds [(i0, i1)] p → R p = S p) → ∀ p, F.InBounds [(i0, i1)] p → U p = V p) := by
  obtain ⟨m1, m2, R, c1, c2, E, hR⟩ := energy_v1_1 (alpha := alpha) (beta := beta) (dx := dx) hβ1 hβ2 hi hg hagcw hrgcw h hr hA hB0 hU
  obtain ⟨p1, p2, S, d1, d2, E', hS⟩ := energy_v1_1 (alpha := alpha) (beta := beta) (dx := dx) hβ3 hβ4 hi hg hagcw hrgcw h' hr hA' hB0' hV
  have hD : ∀ p, ¬ F.InBounds [(i0, i1)] p → (fun p => U p - V p) p = 0 := fun p hp => sub_eq_zero.2 (hUV p hp)
  have e : (F.sum i0 i1 fun i => (U [i] - V [i]) * R [i]) = F.form1 i0 i1 alpha beta dx A B0 U (fun p => U p - V p) := by
    rw [← F.weak1 hi hD]
    exact F.sum_congr fun i h0 h1 => (by rw [hR i h0 h1])
  have e' : (F.sum i0 i1 fun i => (U [i] - V [i]) * S [i]) = F.form1 i0 i1 alpha beta dx A B0 V (fun p => U p - V p) := by
    rw [← F.weak1 hi hD]
    exact F.sum_congr fun i h0 h1 => (by rw [hS i h0 h1])
  refine ⟨m1, m2, p1, p2, R, S, c1, c2, E, d1, d2, E', fun hRS p hp => ?_⟩
  have z : F.form1 i0 i1 alpha beta dx A B0 (fun p => U p - V p) (fun p => U p - V p) ≤ 0 := by
    rw [F.form1_sub, ← e, ← e', F.sum_congr fun i h0 h1 => (by rw [hRS [i] (F.inBounds1.2 ⟨i, rfl, by omega⟩)]), sub_self]
  exact sub_eq_zero.1 (he.zero hD z p hp)

example : ∃ m1 m2 p1 p2, ∃ R S : List Int → Rat, Cuda.flux1d 0 3 exDx ⟨2, 0⟩ 2 ⟨1, 0⟩ ⟨5, 0⟩ (fun _ => revBackend) (exDir 1 5 1) = .ok m1 ∧ Cuda.diffusionV1Apply1d 0 3 3 2 exDx 1 ⟨0, 0⟩ 2 ⟨1, 0⟩ ⟨5, 0⟩ 1 ⟨8, 0⟩ (fun _ => seqBackend) m1 = .ok m2 ∧
      (∀ p, F.InBounds [(0, 3)] p → F.El m2 (F.cell1d ⟨8, 0⟩ 0 3 1) p (R p)) ∧
      Cuda.flux1d 0 3 exDx ⟨2, 0⟩ 2 ⟨1, 0⟩ ⟨5, 0⟩ (fun _ => seqBackend) (exDir 1 5 2) = .ok p1 ∧ Cuda.diffusionV1Apply1d 0 3 3 2 exDx 1 ⟨0, 0⟩ 2 ⟨1, 0⟩ ⟨5, 0⟩ 1 ⟨8, 0⟩ (fun _ => revBackend) p1 = .ok p2 ∧
      (∀ p, F.InBounds [(0, 3)] p → F.El p2 (F.cell1d ⟨8, 0⟩ 0 3 1) p (S p)) ∧
      ((∀ p, F.InBounds [(0, 3)] p → R p = S p) → ∀ p, F.InBounds [(0, 3)] p → (exIns 1 5) p = (exIns 1 5) p) :=
  C57_v1_1d (T := Rat) (fun _ => revBackend_ok) (fun _ => seqBackend_ok) (fun _ => seqBackend_ok) (fun _ => revBackend_ok) (by decide) (by decide) (by decide) (by decide) (exDir_args (by ex_args)) (exDir_args (by ex_args)) (apart_blk (by decide))
    (exDir_rd (by decide) (exRat_ok rfl (by decide) (by decide))) (exDir_rd (by decide) (exRat_ok rfl (by decide) (by decide))) exDir_u1 (exDir_rd (by decide) (exRat_ok rfl (by decide) (by decide))) (exDir_rd (by decide) (exRat_ok rfl (by decide) (by decide))) exDir_u1 (fun p hp => (exIns_zero1 p hp).trans (exIns_zero1 p hp).symm) exEll_v1_1

/-- 1D, diffusion operator with constant reaction: runs from unknowns that agree outside the box leave equal results only if the unknowns agree in the box. -/
theorem C57_v2_1d {i0 i1 gcw rgcw : Int} {alpha beta : T} {dx : Nat → T} {u b0 f0 res : Ptr} {β1 β2 : Nat → Backend} {β3 β4 : Nat → Backend} {m m' : Mem T} {B0 U V : List Int → T}
    (hβ1 : ∀ n, ValidBackend (β1 n)) (hβ2 : ∀ n, ValidBackend (β2 n)) (hβ3 : ∀ n, ValidBackend (β3 n)) (hβ4 : ∀ n, ValidBackend (β4 n)) (hi : i0 ≤ i1) (hg : 1 ≤ gcw) (hrgcw : 0 ≤ rgcw)
    (h : F.Args m [(F.cell1d u i0 i1 gcw), (F.face1d b0 i0 i1 0)] [(F.face1d f0 i0 i1 0), (F.cell1d res i0 i1 rgcw)]) (h' : F.Args m' [(F.cell1d u i0 i1 gcw), (F.face1d b0 i0 i1 0)] [(F.face1d f0 i0 i1 0), (F.cell1d res i0 i1 rgcw)])
    (hr : F.Apart (F.cell1d res i0 i1 rgcw) (F.face1d f0 i0 i1 0))
    (hB0 : F.Holds m (F.face1d b0 i0 i1 0) B0) (hU : F.Holds m (F.cell1d u i0 i1 gcw) U)
    (hB0' : F.Holds m' (F.face1d b0 i0 i1 0) B0) (hV : F.Holds m' (F.cell1d u i0 i1 gcw) V)
    (hUV : ∀ p, ¬ F.InBounds [(i0, i1)] p → U p = V p) (he : F.Elliptic1 i0 i1 alpha beta dx (fun _ => 1) B0) :
    ∃ m1 m2 p1 p2, ∃ R S : List Int → T, Cuda.flux1d i0 i1 dx b0 gcw u f0 β1 m = .ok m1 ∧ Cuda.diffusionV2Apply1d i0 i1 alpha beta dx gcw u f0 rgcw res β2 m1 = .ok m2 ∧
      (∀ p, F.InBounds [(i0, i1)] p → F.El m2 (F.cell1d res i0 i1 rgcw) p (R p)) ∧
      Cuda.flux1d i0 i1 dx b0 gcw u f0 β3 m' = .ok p1 ∧ Cuda.diffusionV2Apply1d i0 i1 alpha beta dx gcw u f0 rgcw res β4 p1 = .ok p2 ∧
      (∀ p, F.InBounds [(i0, i1)] p → F.El p2 (F.cell1d res i0 i1 rgcw) p (S p)) ∧
      ((∀ p, F.InBounds [(i0, i1)] p → R p = S p) → ∀ p, F.InBounds [(i0, i1)] p → U p = V p) := by
  obtain ⟨m1, m2, R, c1, c2, E, hR⟩ := energy_v2_1 (alpha := alpha) (beta := beta) (dx := dx) hβ1 hβ2 hi hg hrgcw h hr hB0 hU
  obtain ⟨p1, p2, S, d1, d2, E', hS⟩ := energy_v2_1 (alpha := alpha) (beta := beta) (dx := dx) hβ3 hβ4 hi hg hrgcw h' hr hB0' hV
  have hD : ∀ p, ¬ F.InBounds [(i0, i1)] p → (fun p => U p - V p) p = 0 := fun p hp => sub_eq_zero.2 (hUV p hp)
  have e : (F.sum i0 i1 fun i => (U [i] - V [i]) * R [i]) = F.form1 i0 i1 alpha beta dx (fun _ => 1) B0 U (fun p => U p - V p) := by
    rw [← F.weak1 hi hD]
    exact F.sum_congr fun i h0 h1 => (by rw [hR i h0 h1])
  have e' : (F.sum i0 i1 fun i => (U [i] - V [i]) * S [i]) = F.form1 i0 i1 alpha beta dx (fun _ => 1) B0 V (fun p => U p - V p) := by
    rw [← F.weak1 hi hD]
    exact F.sum_congr fun i h0 h1 => (by rw [hS i h0 h1])
  refine ⟨m1, m2, p1, p2, R, S, c1, c2, E, d1, d2, E', fun hRS p hp => ?_⟩
  have z : F.form1 i0 i1 alpha beta dx (fun _ => 1) B0 (fun p => U p - V p) (fun p => U p - V p) ≤ 0 := by
    rw [F.form1_sub, ← e, ← e', F.sum_congr fun i h0 h1 => (by rw [hRS [i] (F.inBounds1.2 ⟨i, rfl, by omega⟩)]), sub_self]
  exact sub_eq_zero.1 (he.zero hD z p hp)

example : ∃ m1 m2 p1 p2, ∃ R S : List Int → Rat, Cuda.flux1d 0 3 exDx ⟨2, 0⟩ 2 ⟨1, 0⟩ ⟨5, 0⟩ (fun _ => revBackend) (exDir 1 5 1) = .ok m1 ∧ Cuda.diffusionV2Apply1d 0 3 3 2 exDx 2 ⟨1, 0⟩ ⟨5, 0⟩ 1 ⟨8, 0⟩ (fun _ => seqBackend) m1 = .ok m2 ∧
      (∀ p, F.InBounds [(0, 3)] p → F.El m2 (F.cell1d ⟨8, 0⟩ 0 3 1) p (R p)) ∧
      Cuda.flux1d 0 3 exDx ⟨2, 0⟩ 2 ⟨1, 0⟩ ⟨5, 0⟩ (fun _ => seqBackend) (exDir 1 5 2) = .ok p1 ∧ Cuda.diffusionV2Apply1d 0 3 3 2 exDx 2 ⟨1, 0⟩ ⟨5, 0⟩ 1 ⟨8, 0⟩ (fun _ => revBackend) p1 = .ok p2 ∧
      (∀ p, F.InBounds [(0, 3)] p → F.El p2 (F.cell1d ⟨8, 0⟩ 0 3 1) p (S p)) ∧
      ((∀ p, F.InBounds [(0, 3)] p → R p = S p) → ∀ p, F.InBounds [(0, 3)] p → (exIns 1 5) p = (exIns 1 5) p) :=
  C57_v2_1d (T := Rat) (fun _ => revBackend_ok) (fun _ => seqBackend_ok) (fun _ => seqBackend_ok) (fun _ => revBackend_ok) (by decide) (by decide) (by decide) (exDir_args (by ex_args)) (exDir_args (by ex_args)) (apart_blk (by decide))
    (exDir_rd (by decide) (exRat_ok rfl (by decide) (by decide))) exDir_u1 (exDir_rd (by decide) (exRat_ok rfl (by decide) (by decide))) exDir_u1 (fun p hp => (exIns_zero1 p hp).trans (exIns_zero1 p hp).symm) exEll_v2_1

/-- 1D, Poisson operator: runs from unknowns that agree outside the box leave equal results only if the unknowns agree in the box. -/
theorem C57_poisson_1d {i0 i1 gcw rgcw : Int} {beta : T} {dx : Nat → T} {u f0 res : Ptr} {β1 β2 : Nat → Backend} {β3 β4 : Nat → Backend} {m m' : Mem T} {U V : List Int → T}
    (hβ1 : ∀ n, ValidBackend (β1 n)) (hβ2 : ∀ n, ValidBackend (β2 n)) (hβ3 : ∀ n, ValidBackend (β3 n)) (hβ4 : ∀ n, ValidBackend (β4 n)) (hi : i0 ≤ i1) (hg : 1 ≤ gcw) (hrgcw : 0 ≤ rgcw)
    (h : F.Args m [(F.cell1d u i0 i1 gcw)] [(F.face1d f0 i0 i1 0), (F.cell1d res i0 i1 rgcw)]) (h' : F.Args m' [(F.cell1d u i0 i1 gcw)] [(F.face1d f0 i0 i1 0), (F.cell1d res i0 i1 rgcw)])
    (hr : F.Apart (F.cell1d res i0 i1 rgcw) (F.face1d f0 i0 i1 0))
    (hU : F.Holds m (F.cell1d u i0 i1 gcw) U)
    (hV : F.Holds m' (F.cell1d u i0 i1 gcw) V)
    (hUV : ∀ p, ¬ F.InBounds [(i0, i1)] p → U p = V p) (he : F.Elliptic1 i0 i1 0 beta dx (fun _ => 1) (fun _ => 1)) :
    ∃ m1 m2 p1 p2, ∃ R S : List Int → T, Cuda.poissonFlux1d i0 i1 dx gcw u f0 β1 m = .ok m1 ∧ Cuda.poissonV2Apply1d i0 i1 beta dx f0 rgcw res β2 m1 = .ok m2 ∧
      (∀ p, F.InBounds [(i0, i1)] p → F.El m2 (F.cell1d res i0 i1 rgcw) p (R p)) ∧
      Cuda.poissonFlux1d i0 i1 dx gcw u f0 β3 m' = .ok p1 ∧ Cuda.poissonV2Apply1d i0 i1 beta dx f0 rgcw res β4 p1 = .ok p2 ∧
      (∀ p, F.InBounds [(i0, i1)] p → F.El p2 (F.cell1d res i0 i1 rgcw) p (S p)) ∧
      ((∀ p, F.InBounds [(i0, i1)] p → R p = S p) → ∀ p, F.InBounds [(i0, i1)] p → U p = V p) := by
  obtain ⟨m1, m2, R, c1, c2, E, hR⟩ := energy_p_1 (beta := beta) (dx := dx) hβ1 hβ2 hi hg hrgcw h hr hU
  obtain ⟨p1, p2, S, d1, d2, E', hS⟩ := energy_p_1 (beta := beta) (dx := dx) hβ3 hβ4 hi hg hrgcw h' hr hV
  have hD : ∀ p, ¬ F.InBounds [(i0, i1)] p → (fun p => U p - V p) p = 0 := fun p hp => sub_eq_zero.2 (hUV p hp)
  have e : (F.sum i0 i1 fun i => (U [i] - V [i]) * R [i]) = F.form1 i0 i1 0 beta dx (fun _ => 1) (fun _ => 1) U (fun p => U p - V p) := by
    rw [← F.weak1 hi hD]
    exact F.sum_congr fun i h0 h1 => (by rw [hR i h0 h1])
  have e' : (F.sum i0 i1 fun i => (U [i] - V [i]) * S [i]) = F.form1 i0 i1 0 beta dx (fun _ => 1) (fun _ => 1) V (fun p => U p - V p) := by
    rw [← F.weak1 hi hD]
    exact F.sum_congr fun i h0 h1 => (by rw [hS i h0 h1])
  refine ⟨m1, m2, p1, p2, R, S, c1, c2, E, d1, d2, E', fun hRS p hp => ?_⟩
  have z : F.form1 i0 i1 0 beta dx (fun _ => 1) (fun _ => 1) (fun p => U p - V p) (fun p => U p - V p) ≤ 0 := by
    rw [F.form1_sub, ← e, ← e', F.sum_congr fun i h0 h1 => (by rw [hRS [i] (F.inBounds1.2 ⟨i, rfl, by omega⟩)]), sub_self]
  exact sub_eq_zero.1 (he.zero hD z p hp)

example : ∃ m1 m2 p1 p2, ∃ R S : List Int → Rat, Cuda.poissonFlux1d 0 3 exDx 2 ⟨1, 0⟩ ⟨5, 0⟩ (fun _ => revBackend) (exDir 1 5 1) = .ok m1 ∧ Cuda.poissonV2Apply1d 0 3 2 exDx ⟨5, 0⟩ 1 ⟨8, 0⟩ (fun _ => seqBackend) m1 = .ok m2 ∧
      (∀ p, F.InBounds [(0, 3)] p → F.El m2 (F.cell1d ⟨8, 0⟩ 0 3 1) p (R p)) ∧
      Cuda.poissonFlux1d 0 3 exDx 2 ⟨1, 0⟩ ⟨5, 0⟩ (fun _ => seqBackend) (exDir 1 5 2) = .ok p1 ∧ Cuda.poissonV2Apply1d 0 3 2 exDx ⟨5, 0⟩ 1 ⟨8, 0⟩ (fun _ => revBackend) p1 = .ok p2 ∧
      (∀ p, F.InBounds [(0, 3)] p → F.El p2 (F.cell1d ⟨8, 0⟩ 0 3 1) p (S p)) ∧
      ((∀ p, F.InBounds [(0, 3)] p → R p = S p) → ∀ p, F.InBounds [(0, 3)] p → (exIns 1 5) p = (exIns 1 5) p) :=
  C57_poisson_1d (T := Rat) (fun _ => revBackend_ok) (fun _ => seqBackend_ok) (fun _ => seqBackend_ok) (fun _ => revBackend_ok) (by decide) (by decide) (by decide) (exDir_args (by ex_args)) (exDir_args (by ex_args)) (apart_blk (by decide))
     exDir_u1  exDir_u1 (fun p hp => (exIns_zero1 p hp).trans (exIns_zero1 p hp).symm) exEll_p_1

/-- 2D, diffusion operator with cell coefficients: runs from unknowns that agree outside the box leave equal results only if the unknowns agree in the box. -/
theorem C57_v1_2d {i0 j0 i1 j1 agcw gcw rgcw : Int} {alpha beta : T} {dx : Nat → T} {a u b0 b1 f0 f1 res : Ptr} {β1 β2 : Nat → Backend} {β3 β4 : Nat → Backend} {m m' : Mem T} {A B0 B1 U V : List Int → T}
    (hβ1 : ∀ n, ValidBackend (β1 n)) (hβ2 : ∀ n, ValidBackend (β2 n)) (hβ3 : ∀ n, ValidBackend (β3 n)) (hβ4 : ∀ n, ValidBackend (β4 n)) (hi : i0 ≤ i1) (hj : j0 ≤ j1) (hg : 1 ≤ gcw) (hagcw : 0 ≤ agcw) (hrgcw : 0 ≤ rgcw)
    (h : F.Args m [(F.cell2d a i0 j0 i1 j1 agcw), (F.cell2d u i0 j0 i1 j1 gcw), (F.face2d0 b0 i0 j0 i1 j1 0), (F.face2d1 b1 i0 j0 i1 j1 0)] [(F.face2d0 f0 i0 j0 i1 j1 0), (F.face2d1 f1 i0 j0 i1 j1 0), (F.cell2d res i0 j0 i1 j1 rgcw)]) (h' : F.Args m' [(F.cell2d a i0 j0 i1 j1 agcw), (F.cell2d u i0 j0 i1 j1 gcw), (F.face2d0 b0 i0 j0 i1 j1 0), (F.face2d1 b1 i0 j0 i1 j1 0)] [(F.face2d0 f0 i0 j0 i1 j1 0), (F.face2d1 f1 i0 j0 i1 j1 0), (F.cell2d res i0 j0 i1 j1 rgcw)])
    (hp : F.Apart (F.face2d0 f0 i0 j0 i1 j1 0) (F.face2d1 f1 i0 j0 i1 j1 0))
    (hr : F.Apart (F.cell2d res i0 j0 i1 j1 rgcw) (F.face2d0 f0 i0 j0 i1 j1 0) ∧ F.Apart (F.cell2d res i0 j0 i1 j1 rgcw) (F.face2d1 f1 i0 j0 i1 j1 0))
    (hA : F.Holds m (F.cell2d a i0 j0 i1 j1 agcw) A) (hB0 : F.Holds m (F.face2d0 b0 i0 j0 i1 j1 0) B0) (hB1 : F.Holds m (F.face2d1 b1 i0 j0 i1 j1 0) B1) (hU : F.Holds m (F.cell2d u i0 j0 i1 j1 gcw) U)
    (hA' : F.Holds m' (F.cell2d a i0 j0 i1 j1 agcw) A) (hB0' : F.Holds m' (F.face2d0 b0 i0 j0 i1 j1 0) B0) (hB1' : F.Holds m' (F.face2d1 b1 i0 j0 i1 j1 0) B1) (hV : F.Holds m' (F.cell2d u i0 j0 i1 j1 gcw) V)
    (hUV : ∀ p, ¬ F.InBounds [(i0, i1), (j0, j1)] p → U p = V p) (he : F.Elliptic2 i0 j0 i1 j1 alpha beta dx A B0 B1) :
    ∃ m1 m2 p1 p2, ∃ R S : List Int → T, Cuda.flux2d i0 j0 i1 j1 dx b0 b1 gcw u f0 f1 β1 m = .ok m1 ∧ Cuda.diffusionV1Apply2d i0 i1 j0 j1 alpha beta dx agcw a gcw u f0 f1 rgcw res β2 m1 = .ok m2 ∧
      (∀ p, F.InBounds [(i0, i1), (j0, j1)] p → F.El m2 (F.cell2d res i0 j0 i1 j1 rgcw) p (R p)) ∧
      Cuda.flux2d i0 j0 i1 j1 dx b0 b1 gcw u f0 f1 β3 m' = .ok p1 ∧ Cuda.diffusionV1Apply2d i0 i1 j0 j1 alpha beta dx agcw a gcw u f0 f1 rgcw res β4 p1 = .ok p2 ∧
      (∀ p, F.InBounds [(i0, i1), (j0, j1)] p → F.El p2 (F.cell2d res i0 j0 i1 j1 rgcw) p (S p)) ∧
      ((∀ p, F.InBounds [(i0, i1), (j0, j1)] p → R p = S p) → ∀ p, F.InBounds [(i0, i1), (j0, j1)] p → U p = V p) := by
  obtain ⟨m1, m2, R, c1, c2, E, hR⟩ := energy_v1_2 (alpha := alpha) (beta := beta) (dx := dx) hβ1 hβ2 hi hj hg hagcw hrgcw h hp hr hA hB0 hB1 hU
  obtain ⟨p1, p2, S, d1, d2, E', hS⟩ := energy_v1_2 (alpha := alpha) (beta := beta) (dx := dx) hβ3 hβ4 hi hj hg hagcw hrgcw h' hp hr hA' hB0' hB1' hV
  have hD : ∀ p, ¬ F.InBounds [(i0, i1), (j0, j1)] p → (fun p => U p - V p) p = 0 := fun p hp => sub_eq_zero.2 (hUV p hp)
  have e : (F.sum i0 i1 fun i => F.sum j0 j1 fun j => (U [i, j] - V [i, j]) * R [i, j]) = F.form2 i0 j0 i1 j1 alpha beta dx A B0 B1 U (fun p => U p - V p) := by
    rw [← F.weak2 hi hj hD]
    exact F.sum_congr fun i h0 h1 => F.sum_congr fun j h2 h3 => (by rw [hR i j h0 h1 h2 h3])
  have e' : (F.sum i0 i1 fun i => F.sum j0 j1 fun j => (U [i, j] - V [i, j]) * S [i, j]) = F.form2 i0 j0 i1 j1 alpha beta dx A B0 B1 V (fun p => U p - V p) := by
    rw [← F.weak2 hi hj hD]
    exact F.sum_congr fun i h0 h1 => F.sum_congr fun j h2 h3 => (by rw [hS i j h0 h1 h2 h3])
  refine ⟨m1, m2, p1, p2, R, S, c1, c2, E, d1, d2, E', fun hRS p hp => ?_⟩
  have z : F.form2 i0 j0 i1 j1 alpha beta dx A B0 B1 (fun p => U p - V p) (fun p => U p - V p) ≤ 0 := by
    rw [F.form2_sub, ← e, ← e', F.sum_congr fun i h0 h1 => F.sum_congr fun j h2 h3 => (by rw [hRS [i, j] (F.inBounds2.2 ⟨i, j, rfl, by omega⟩)]), sub_self]
  exact sub_eq_zero.1 (he.zero hD z p hp)

example : ∃ m1 m2 p1 p2, ∃ R S : List Int → Rat, Cuda.flux2d 0 1 2 3 exDx ⟨2, 0⟩ ⟨3, 0⟩ 2 ⟨1, 0⟩ ⟨5, 0⟩ ⟨6, 0⟩ (fun _ => revBackend) (exDir 2 5 1) = .ok m1 ∧ Cuda.diffusionV1Apply2d 0 2 1 3 3 2 exDx 1 ⟨0, 0⟩ 2 ⟨1, 0⟩ ⟨5, 0⟩ ⟨6, 0⟩ 1 ⟨8, 0⟩ (fun _ => seqBackend) m1 = .ok m2 ∧
      (∀ p, F.InBounds [(0, 2), (1, 3)] p → F.El m2 (F.cell2d ⟨8, 0⟩ 0 1 2 3 1) p (R p)) ∧
      Cuda.flux2d 0 1 2 3 exDx ⟨2, 0⟩ ⟨3, 0⟩ 2 ⟨1, 0⟩ ⟨5, 0⟩ ⟨6, 0⟩ (fun _ => seqBackend) (exDir 2 5 2) = .ok p1 ∧ Cuda.diffusionV1Apply2d 0 2 1 3 3 2 exDx 1 ⟨0, 0⟩ 2 ⟨1, 0⟩ ⟨5, 0⟩ ⟨6, 0⟩ 1 ⟨8, 0⟩ (fun _ => revBackend) p1 = .ok p2 ∧
      (∀ p, F.InBounds [(0, 2), (1, 3)] p → F.El p2 (F.cell2d ⟨8, 0⟩ 0 1 2 3 1) p (S p)) ∧
      ((∀ p, F.InBounds [(0, 2), (1, 3)] p → R p = S p) → ∀ p, F.InBounds [(0, 2), (1, 3)] p → (exIns 2 5) p = (exIns 2 5) p) :=
  C57_v1_2d (T := Rat) (fun _ => revBackend_ok) (fun _ => seqBackend_ok) (fun _ => seqBackend_ok) (fun _ => revBackend_ok) (by decide) (by decide) (by decide) (by decide) (by decide) (exDir_args (by ex_args)) (exDir_args (by ex_args)) (apart_blk (by decide)) ⟨apart_blk (by decide), apart_blk (by decide)⟩
    (exDir_rd (by decide) (exRat_ok rfl (by decide) (by decide))) (exDir_rd (by decide) (exRat_ok rfl (by decide) (by decide))) (exDir_rd (by decide) (exRat_ok rfl (by decide) (by decide))) exDir_u2 (exDir_rd (by decide) (exRat_ok rfl (by decide) (by decide))) (exDir_rd (by decide) (exRat_ok rfl (by decide) (by decide))) (exDir_rd (by decide) (exRat_ok rfl (by decide) (by decide))) exDir_u2 (fun p hp => (exIns_zero2 p hp).trans (exIns_zero2 p hp).symm) exEll_v1_2

/-- 2D, diffusion operator with constant reaction: runs from unknowns that agree outside the box leave equal results only if the unknowns agree in the box. -/
theorem C57_v2_2d {i0 j0 i1 j1 gcw rgcw : Int} {alpha beta : T} {dx : Nat → T} {u b0 b1 f0 f1 res : Ptr} {β1 β2 : Nat → Backend} {β3 β4 : Nat → Backend} {m m' : Mem T} {B0 B1 U V : List Int → T}
    (hβ1 : ∀ n, ValidBackend (β1 n)) (hβ2 : ∀ n, ValidBackend (β2 n)) (hβ3 : ∀ n, ValidBackend (β3 n)) (hβ4 : ∀ n, ValidBackend (β4 n)) (hi : i0 ≤ i1) (hj : j0 ≤ j1) (hg : 1 ≤ gcw) (hrgcw : 0 ≤ rgcw)
    (h : F.Args m [(F.cell2d u i0 j0 i1 j1 gcw), (F.face2d0 b0 i0 j0 i1 j1 0), (F.face2d1 b1 i0 j0 i1 j1 0)] [(F.face2d0 f0 i0 j0 i1 j1 0), (F.face2d1 f1 i0 j0 i1 j1 0), (F.cell2d res i0 j0 i1 j1 rgcw)]) (h' : F.Args m' [(F.cell2d u i0 j0 i1 j1 gcw), (F.face2d0 b0 i0 j0 i1 j1 0), (F.face2d1 b1 i0 j0 i1 j1 0)] [(F.face2d0 f0 i0 j0 i1 j1 0), (F.face2d1 f1 i0 j0 i1 j1 0), (F.cell2d res i0 j0 i1 j1 rgcw)])
    (hp : F.Apart (F.face2d0 f0 i0 j0 i1 j1 0) (F.face2d1 f1 i0 j0 i1 j1 0))
    (hr : F.Apart (F.cell2d res i0 j0 i1 j1 rgcw) (F.face2d0 f0 i0 j0 i1 j1 0) ∧ F.Apart (F.cell2d res i0 j0 i1 j1 rgcw) (F.face2d1 f1 i0 j0 i1 j1 0))
    (hB0 : F.Holds m (F.face2d0 b0 i0 j0 i1 j1 0) B0) (hB1 : F.Holds m (F.face2d1 b1 i0 j0 i1 j1 0) B1) (hU : F.Holds m (F.cell2d u i0 j0 i1 j1 gcw) U)
    (hB0' : F.Holds m' (F.face2d0 b0 i0 j0 i1 j1 0) B0) (hB1' : F.Holds m' (F.face2d1 b1 i0 j0 i1 j1 0) B1) (hV : F.Holds m' (F.cell2d u i0 j0 i1 j1 gcw) V)
    (hUV : ∀ p, ¬ F.InBounds [(i0, i1), (j0, j1)] p → U p = V p) (he : F.Elliptic2 i0 j0 i1 j1 alpha beta dx (fun _ => 1) B0 B1) :
    ∃ m1 m2 p1 p2, ∃ R S : List Int → T, Cuda.flux2d i0 j0 i1 j1 dx b0 b1 gcw u f0 f1 β1 m = .ok m1 ∧ Cuda.diffusionV2Apply2d i0 i1 j0 j1 alpha beta dx gcw u f0 f1 rgcw res β2 m1 = .ok m2 ∧
      (∀ p, F.InBounds [(i0, i1), (j0, j1)] p → F.El m2 (F.cell2d res i0 j0 i1 j1 rgcw) p (R p)) ∧
      Cuda.flux2d i0 j0 i1 j1 dx b0 b1 gcw u f0 f1 β3 m' = .ok p1 ∧ Cuda.diffusionV2Apply2d i0 i1 j0 j1 alpha beta dx gcw u f0 f1 rgcw res β4 p1 = .ok p2 ∧
      (∀ p, F.InBounds [(i0, i1), (j0, j1)] p → F.El p2 (F.cell2d res i0 j0 i1 j1 rgcw) p (S p)) ∧
      ((∀ p, F.InBounds [(i0, i1), (j0, j1)] p → R p = S p) → ∀ p, F.InBounds [(i0, i1), (j0, j1)] p → U p = V p) := by
  obtain ⟨m1, m2, R, c1, c2, E, hR⟩ := energy_v2_2 (alpha := alpha) (beta := beta) (dx := dx) hβ1 hβ2 hi hj hg hrgcw h hp hr hB0 hB1 hU
  obtain ⟨p1, p2, S, d1, d2, E', hS⟩ := energy_v2_2 (alpha := alpha) (beta := beta) (dx := dx) hβ3 hβ4 hi hj hg hrgcw h' hp hr hB0' hB1' hV
  have hD : ∀ p, ¬ F.InBounds [(i0, i1), (j0, j1)] p → (fun p => U p - V p) p = 0 := fun p hp => sub_eq_zero.2 (hUV p hp)
  have e : (F.sum i0 i1 fun i => F.sum j0 j1 fun j => (U [i, j] - V [i, j]) * R [i, j]) = F.form2 i0 j0 i1 j1 alpha beta dx (fun _ => 1) B0 B1 U (fun p => U p - V p) := by
    rw [← F.weak2 hi hj hD]
    exact F.sum_congr fun i h0 h1 => F.sum_congr fun j h2 h3 => (by rw [hR i j h0 h1 h2 h3])
  have e' : (F.sum i0 i1 fun i => F.sum j0 j1 fun j => (U [i, j] - V [i, j]) * S [i, j]) = F.form2 i0 j0 i1 j1 alpha beta dx (fun _ => 1) B0 B1 V (fun p => U p - V p) := by
    rw [← F.weak2 hi hj hD]
    exact F.sum_congr fun i h0 h1 => F.sum_congr fun j h2 h3 => (by rw [hS i j h0 h1 h2 h3])
  refine ⟨m1, m2, p1, p2, R, S, c1, c2, E, d1, d2, E', fun hRS p hp => ?_⟩
  have z : F.form2 i0 j0 i1 j1 alpha beta dx (fun _ => 1) B0 B1 (fun p => U p - V p) (fun p => U p - V p) ≤ 0 := by
    rw [F.form2_sub, ← e, ← e', F.sum_congr fun i h0 h1 => F.sum_congr fun j h2 h3 => (by rw [hRS [i, j] (F.inBounds2.2 ⟨i, j, rfl, by omega⟩)]), sub_self]
  exact sub_eq_zero.1 (he.zero hD z p hp)

example : ∃ m1 m2 p1 p2, ∃ R S : List Int → Rat, Cuda.flux2d 0 1 2 3 exDx ⟨2, 0⟩ ⟨3, 0⟩ 2 ⟨1, 0⟩ ⟨5, 0⟩ ⟨6, 0⟩ (fun _ => revBackend) (exDir 2 5 1) = .ok m1 ∧ Cuda.diffusionV2Apply2d 0 2 1 3 3 2 exDx 2 ⟨1, 0⟩ ⟨5, 0⟩ ⟨6, 0⟩ 1 ⟨8, 0⟩ (fun _ => seqBackend) m1 = .ok m2 ∧
      (∀ p, F.InBounds [(0, 2), (1, 3)] p → F.El m2 (F.cell2d ⟨8, 0⟩ 0 1 2 3 1) p (R p)) ∧
      Cuda.flux2d 0 1 2 3 exDx ⟨2, 0⟩ ⟨3, 0⟩ 2 ⟨1, 0⟩ ⟨5, 0⟩ ⟨6, 0⟩ (fun _ => seqBackend) (exDir 2 5 2) = .ok p1 ∧ Cuda.diffusionV2Apply2d 0 2 1 3 3 2 exDx 2 ⟨1, 0⟩ ⟨5, 0⟩ ⟨6, 0⟩ 1 ⟨8, 0⟩ (fun _ => revBackend) p1 = .ok p2 ∧
      (∀ p, F.InBounds [(0, 2), (1, 3)] p → F.El p2 (F.cell2d ⟨8, 0⟩ 0 1 2 3 1) p (S p)) ∧
      ((∀ p, F.InBounds [(0, 2), (1, 3)] p → R p = S p) → ∀ p, F.InBounds [(0, 2), (1, 3)] p → (exIns 2 5) p = (exIns 2 5) p) :=
  C57_v2_2d (T := Rat) (fun _ => revBackend_ok) (fun _ => seqBackend_ok) (fun _ => seqBackend_ok) (fun _ => revBackend_ok) (by decide) (by decide) (by decide) (by decide) (exDir_args (by ex_args)) (exDir_args (by ex_args)) (apart_blk (by decide)) ⟨apart_blk (by decide), apart_blk (by decide)⟩
    (exDir_rd (by decide) (exRat_ok rfl (by decide) (by decide))) (exDir_rd (by decide) (exRat_ok rfl (by decide) (by decide))) exDir_u2 (exDir_rd (by decide) (exRat_ok rfl (by decide) (by decide))) (exDir_rd (by decide) (exRat_ok rfl (by decide) (by decide))) exDir_u2 (fun p hp => (exIns_zero2 p hp).trans (exIns_zero2 p hp).symm) exEll_v2_2

/-- 2D, Poisson operator: runs from unknowns that agree outside the box leave equal results only if the unknowns agree in the box. -/
theorem C57_poisson_2d {i0 j0 i1 j1 gcw rgcw : Int} {beta : T} {dx : Nat → T} {u f0 f1 res : Ptr} {β1 β2 : Nat → Backend} {β3 β4 : Nat → Backend} {m m' : Mem T} {U V : List Int → T}
    (hβ1 : ∀ n, ValidBackend (β1 n)) (hβ2 : ∀ n, ValidBackend (β2 n)) (hβ3 : ∀ n, ValidBackend (β3 n)) (hβ4 : ∀ n, ValidBackend (β4 n)) (hi : i0 ≤ i1) (hj : j0 ≤ j1) (hg : 1 ≤ gcw) (hrgcw : 0 ≤ rgcw)
    (h : F.Args m [(F.cell2d u i0 j0 i1 j1 gcw)] [(F.face2d0 f0 i0 j0 i1 j1 0), (F.face2d1 f1 i0 j0 i1 j1 0), (F.cell2d res i0 j0 i1 j1 rgcw)]) (h' : F.Args m' [(F.cell2d u i0 j0 i1 j1 gcw)] [(F.face2d0 f0 i0 j0 i1 j1 0), (F.face2d1 f1 i0 j0 i1 j1 0), (F.cell2d res i0 j0 i1 j1 rgcw)])
    (hp : F.Apart (F.face2d0 f0 i0 j0 i1 j1 0) (F.face2d1 f1 i0 j0 i1 j1 0))
    (hr : F.Apart (F.cell2d res i0 j0 i1 j1 rgcw) (F.face2d0 f0 i0 j0 i1 j1 0) ∧ F.Apart (F.cell2d res i0 j0 i1 j1 rgcw) (F.face2d1 f1 i0 j0 i1 j1 0))
    (hU : F.Holds m (F.cell2d u i0 j0 i1 j1 gcw) U)
    (hV : F.Holds m' (F.cell2d u i0 j0 i1 j1 gcw) V)
    (hUV : ∀ p, ¬ F.InBounds [(i0, i1), (j0, j1)] p → U p = V p) (he : F.Elliptic2 i0 j0 i1 j1 0 beta dx (fun _ => 1) (fun _ => 1) (fun _ => 1)) :
    ∃ m1 m2 p1 p2, ∃ R S : List Int → T, Cuda.poissonFlux2d i0 j0 i1 j1 dx gcw u f0 f1 β1 m = .ok m1 ∧ Cuda.poissonV2Apply2d i0 i1 j0 j1 beta dx f0 f1 rgcw res β2 m1 = .ok m2 ∧
      (∀ p, F.InBounds [(i0, i1), (j0, j1)] p → F.El m2 (F.cell2d res i0 j0 i1 j1 rgcw) p (R p)) ∧
      Cuda.poissonFlux2d i0 j0 i1 j1 dx gcw u f0 f1 β3 m' = .ok p1 ∧ Cuda.poissonV2Apply2d i0 i1 j0 j1 beta dx f0 f1 rgcw res β4 p1 = .ok p2 ∧
      (∀ p, F.InBounds [(i0, i1), (j0, j1)] p → F.El p2 (F.cell2d res i0 j0 i1 j1 rgcw) p (S p)) ∧
      ((∀ p, F.InBounds [(i0, i1), (j0, j1)] p → R p = S p) → ∀ p, F.InBounds [(i0, i1), (j0, j1)] p → U p = V p) := by
  obtain ⟨m1, m2, R, c1, c2, E, hR⟩ := energy_p_2 (beta := beta) (dx := dx) hβ1 hβ2 hi hj hg hrgcw h hp hr hU
  obtain ⟨p1, p2, S, d1, d2, E', hS⟩ := energy_p_2 (beta := beta) (dx := dx) hβ3 hβ4 hi hj hg hrgcw h' hp hr hV
  have hD : ∀ p, ¬ F.InBounds [(i0, i1), (j0, j1)] p → (fun p => U p - V p) p = 0 := fun p hp => sub_eq_zero.2 (hUV p hp)
  have e : (F.sum i0 i1 fun i => F.sum j0 j1 fun j => (U [i, j] - V [i, j]) * R [i, j]) = F.form2 i0 j0 i1 j1 0 beta dx (fun _ => 1) (fun _ => 1) (fun _ => 1) U (fun p => U p - V p) := by
    rw [← F.weak2 hi hj hD]
    exact F.sum_congr fun i h0 h1 => F.sum_congr fun j h2 h3 => (by rw [hR i j h0 h1 h2 h3])
  have e' : (F.sum i0 i1 fun i => F.sum j0 j1 fun j => (U [i, j] - V [i, j]) * S [i, j]) = F.form2 i0 j0 i1 j1 0 beta dx (fun _ => 1) (fun _ => 1) (fun _ => 1) V (fun p => U p - V p) := by
    rw [← F.weak2 hi hj hD]
    exact F.sum_congr fun i h0 h1 => F.sum_congr fun j h2 h3 => (by rw [hS i j h0 h1 h2 h3])
  refine ⟨m1, m2, p1, p2, R, S, c1, c2, E, d1, d2, E', fun hRS p hp => ?_⟩
  have z : F.form2 i0 j0 i1 j1 0 beta dx (fun _ => 1) (fun _ => 1) (fun _ => 1) (fun p => U p - V p) (fun p => U p - V p) ≤ 0 := by
    rw [F.form2_sub, ← e, ← e', F.sum_congr fun i h0 h1 => F.sum_congr fun j h2 h3 => (by rw [hRS [i, j] (F.inBounds2.2 ⟨i, j, rfl, by omega⟩)]), sub_self]
  exact sub_eq_zero.1 (he.zero hD z p hp)

example : ∃ m1 m2 p1 p2, ∃ R S : List Int → Rat, Cuda.poissonFlux2d 0 1 2 3 exDx 2 ⟨1, 0⟩ ⟨5, 0⟩ ⟨6, 0⟩ (fun _ => revBackend) (exDir 2 5 1) = .ok m1 ∧ Cuda.poissonV2Apply2d 0 2 1 3 2 exDx ⟨5, 0⟩ ⟨6, 0⟩ 1 ⟨8, 0⟩ (fun _ => seqBackend) m1 = .ok m2 ∧
      (∀ p, F.InBounds [(0, 2), (1, 3)] p → F.El m2 (F.cell2d ⟨8, 0⟩ 0 1 2 3 1) p (R p)) ∧
      Cuda.poissonFlux2d 0 1 2 3 exDx 2 ⟨1, 0⟩ ⟨5, 0⟩ ⟨6, 0⟩ (fun _ => seqBackend) (exDir 2 5 2) = .ok p1 ∧ Cuda.poissonV2Apply2d 0 2 1 3 2 exDx ⟨5, 0⟩ ⟨6, 0⟩ 1 ⟨8, 0⟩ (fun _ => revBackend) p1 = .ok p2 ∧
      (∀ p, F.InBounds [(0, 2), (1, 3)] p → F.El p2 (F.cell2d ⟨8, 0⟩ 0 1 2 3 1) p (S p)) ∧
      ((∀ p, F.InBounds [(0, 2), (1, 3)] p → R p = S p) → ∀ p, F.InBounds [(0, 2), (1, 3)] p → (exIns 2 5) p = (exIns 2 5) p) :=
  C57_poisson_2d (T := Rat) (fun _ => revBackend_ok) (fun _ => seqBackend_ok) (fun _ => seqBackend_ok) (fun _ => revBackend_ok) (by decide) (by decide) (by decide) (by decide) (exDir_args (by ex_args)) (exDir_args (by ex_args)) (apart_blk (by decide)) ⟨apart_blk (by decide), apart_blk (by decide)⟩
     exDir_u2  exDir_u2 (fun p hp => (exIns_zero2 p hp).trans (exIns_zero2 p hp).symm) exEll_p_2

/-- 3D, diffusion operator with cell coefficients: runs from unknowns that agree outside the box leave equal results only if the unknowns agree in the box. -/
theorem C57_v1_3d {i0 j0 k0 i1 j1 k1 agcw gcw rgcw : Int} {alpha beta : T} {dx : Nat → T} {a u b0 b1 b2 f0 f1 f2 res : Ptr} {β1 β2 : Nat → Backend} {β3 β4 : Nat → Backend} {m m' : Mem T} {A B0 B1 B2 U V : List Int → T}
    (hβ1 : ∀ n, ValidBackend (β1 n)) (hβ2 : ∀ n, ValidBackend (β2 n)) (hβ3 : ∀ n, ValidBackend (β3 n)) (hβ4 : ∀ n, ValidBackend (β4 n)) (hi : i0 ≤ i1) (hj : j0 ≤ j1) (hk : k0 ≤ k1) (hg : 1 ≤ gcw) (hagcw : 0 ≤ agcw) (hrgcw : 0 ≤ rgcw)
    (h : F.Args m [(F.cell3d a i0 j0 k0 i1 j1 k1 agcw), (F.cell3d u i0 j0 k0 i1 j1 k1 gcw), (F.face3d0 b0 i0 j0 k0 i1 j1 k1 0), (F.face3d1 b1 i0 j0 k0 i1 j1 k1 0), (F.face3d2 b2 i0 j0 k0 i1 j1 k1 0)] [(F.face3d0 f0 i0 j0 k0 i1 j1 k1 0), (F.face3d1 f1 i0 j0 k0 i1 j1 k1 0), (F.face3d2 f2 i0 j0 k0 i1 j1 k1 0), (F.cell3d res i0 j0 k0 i1 j1 k1 rgcw)]) (h' : F.Args m' [(F.cell3d a i0 j0 k0 i1 j1 k1 agcw), (F.cell3d u i0 j0 k0 i1 j1 k1 gcw), (F.face3d0 b0 i0 j0 k0 i1 j1 k1 0), (F.face3d1 b1 i0 j0 k0 i1 j1 k1 0), (F.face3d2 b2 i0 j0 k0 i1 j1 k1 0)] [(F.face3d0 f0 i0 j0 k0 i1 j1 k1 0), (F.face3d1 f1 i0 j0 k0 i1 j1 k1 0), (F.face3d2 f2 i0 j0 k0 i1 j1 k1 0), (F.cell3d res i0 j0 k0 i1 j1 k1 rgcw)])
    (hp : F.Apart (F.face3d0 f0 i0 j0 k0 i1 j1 k1 0) (F.face3d1 f1 i0 j0 k0 i1 j1 k1 0) ∧ F.Apart (F.face3d0 f0 i0 j0 k0 i1 j1 k1 0) (F.face3d2 f2 i0 j0 k0 i1 j1 k1 0) ∧ F.Apart (F.face3d1 f1 i0 j0 k0 i1 j1 k1 0) (F.face3d2 f2 i0 j0 k0 i1 j1 k1 0))
    (hr : F.Apart (F.cell3d res i0 j0 k0 i1 j1 k1 rgcw) (F.face3d0 f0 i0 j0 k0 i1 j1 k1 0) ∧ F.Apart (F.cell3d res i0 j0 k0 i1 j1 k1 rgcw) (F.face3d1 f1 i0 j0 k0 i1 j1 k1 0) ∧ F.Apart (F.cell3d res i0 j0 k0 i1 j1 k1 rgcw) (F.face3d2 f2 i0 j0 k0 i1 j1 k1 0))
    (hA : F.Holds m (F.cell3d a i0 j0 k0 i1 j1 k1 agcw) A) (hB0 : F.Holds m (F.face3d0 b0 i0 j0 k0 i1 j1 k1 0) B0) (hB1 : F.Holds m (F.face3d1 b1 i0 j0 k0 i1 j1 k1 0) B1) (hB2 : F.Holds m (F.face3d2 b2 i0 j0 k0 i1 j1 k1 0) B2) (hU : F.Holds m (F.cell3d u i0 j0 k0 i1 j1 k1 gcw) U)
    (hA' : F.Holds m' (F.cell3d a i0 j0 k0 i1 j1 k1 agcw) A) (hB0' : F.Holds m' (F.face3d0 b0 i0 j0 k0 i1 j1 k1 0) B0) (hB1' : F.Holds m' (F.face3d1 b1 i0 j0 k0 i1 j1 k1 0) B1) (hB2' : F.Holds m' (F.face3d2 b2 i0 j0 k0 i1 j1 k1 0) B2) (hV : F.Holds m' (F.cell3d u i0 j0 k0 i1 j1 k1 gcw) V)
    (hUV : ∀ p, ¬ F.InBounds [(i0, i1), (j0, j1), (k0, k1)] p → U p = V p) (he : F.Elliptic3 i0 j0 k0 i1 j1 k1 alpha beta dx A B0 B1 B2) :
    ∃ m1 m2 p1 p2, ∃ R S : List Int → T, Cuda.flux3d i0 j0 k0 i1 j1 k1 dx b0 b1 b2 gcw u f0 f1 f2 β1 m = .ok m1 ∧ Cuda.diffusionV1Apply3d i0 i1 j0 j1 k0 k1 alpha beta dx agcw a gcw u f0 f1 f2 rgcw res β2 m1 = .ok m2 ∧
      (∀ p, F.InBounds [(i0, i1), (j0, j1), (k0, k1)] p → F.El m2 (F.cell3d res i0 j0 k0 i1 j1 k1 rgcw) p (R p)) ∧
      Cuda.flux3d i0 j0 k0 i1 j1 k1 dx b0 b1 b2 gcw u f0 f1 f2 β3 m' = .ok p1 ∧ Cuda.diffusionV1Apply3d i0 i1 j0 j1 k0 k1 alpha beta dx agcw a gcw u f0 f1 f2 rgcw res β4 p1 = .ok p2 ∧
      (∀ p, F.InBounds [(i0, i1), (j0, j1), (k0, k1)] p → F.El p2 (F.cell3d res i0 j0 k0 i1 j1 k1 rgcw) p (S p)) ∧
      ((∀ p, F.InBounds [(i0, i1), (j0, j1), (k0, k1)] p → R p = S p) → ∀ p, F.InBounds [(i0, i1), (j0, j1), (k0, k1)] p → U p = V p) := by
  obtain ⟨m1, m2, R, c1, c2, E, hR⟩ := energy_v1_3 (alpha := alpha) (beta := beta) (dx := dx) hβ1 hβ2 hi hj hk hg hagcw hrgcw h hp hr hA hB0 hB1 hB2 hU
  obtain ⟨p1, p2, S, d1, d2, E', hS⟩ := energy_v1_3 (alpha := alpha) (beta := beta) (dx := dx) hβ3 hβ4 hi hj hk hg hagcw hrgcw h' hp hr hA' hB0' hB1' hB2' hV
  have hD : ∀ p, ¬ F.InBounds [(i0, i1), (j0, j1), (k0, k1)] p → (fun p => U p - V p) p = 0 := fun p hp => sub_eq_zero.2 (hUV p hp)
  have e : (F.sum i0 i1 fun i => F.sum j0 j1 fun j => F.sum k0 k1 fun k => (U [i, j, k] - V [i, j, k]) * R [i, j, k]) = F.form3 i0 j0 k0 i1 j1 k1 alpha beta dx A B0 B1 B2 U (fun p => U p - V p) := by
    rw [← F.weak3 hi hj hk hD]
    exact F.sum_congr fun i h0 h1 => F.sum_congr fun j h2 h3 => F.sum_congr fun k h4 h5 => (by rw [hR i j k h0 h1 h2 h3 h4 h5])
  have e' : (F.sum i0 i1 fun i => F.sum j0 j1 fun j => F.sum k0 k1 fun k => (U [i, j, k] - V [i, j, k]) * S [i, j, k]) = F.form3 i0 j0 k0 i1 j1 k1 alpha beta dx A B0 B1 B2 V (fun p => U p - V p) := by
    rw [← F.weak3 hi hj hk hD]
    exact F.sum_congr fun i h0 h1 => F.sum_congr fun j h2 h3 => F.sum_congr fun k h4 h5 => (by rw [hS i j k h0 h1 h2 h3 h4 h5])
  refine ⟨m1, m2, p1, p2, R, S, c1, c2, E, d1, d2, E', fun hRS p hp => ?_⟩
  have z : F.form3 i0 j0 k0 i1 j1 k1 alpha beta dx A B0 B1 B2 (fun p => U p - V p) (fun p => U p - V p) ≤ 0 := by
    rw [F.form3_sub, ← e, ← e', F.sum_congr fun i h0 h1 => F.sum_congr fun j h2 h3 => F.sum_congr fun k h4 h5 => (by rw [hRS [i, j, k] (F.inBounds3.2 ⟨i, j, k, rfl, by omega⟩)]), sub_self]
  exact sub_eq_zero.1 (he.zero hD z p hp)

example : ∃ m1 m2 p1 p2, ∃ R S : List Int → Rat, Cuda.flux3d 0 1 2 1 2 3 exDx ⟨2, 0⟩ ⟨3, 0⟩ ⟨4, 0⟩ 2 ⟨1, 0⟩ ⟨5, 0⟩ ⟨6, 0⟩ ⟨7, 0⟩ (fun _ => revBackend) (exDir 3 5 1) = .ok m1 ∧ Cuda.diffusionV1Apply3d 0 1 1 2 2 3 3 2 exDx 1 ⟨0, 0⟩ 2 ⟨1, 0⟩ ⟨5, 0⟩ ⟨6, 0⟩ ⟨7, 0⟩ 1 ⟨8, 0⟩ (fun _ => seqBackend) m1 = .ok m2 ∧
      (∀ p, F.InBounds [(0, 1), (1, 2), (2, 3)] p → F.El m2 (F.cell3d ⟨8, 0⟩ 0 1 2 1 2 3 1) p (R p)) ∧
      Cuda.flux3d 0 1 2 1 2 3 exDx ⟨2, 0⟩ ⟨3, 0⟩ ⟨4, 0⟩ 2 ⟨1, 0⟩ ⟨5, 0⟩ ⟨6, 0⟩ ⟨7, 0⟩ (fun _ => seqBackend) (exDir 3 5 2) = .ok p1 ∧ Cuda.diffusionV1Apply3d 0 1 1 2 2 3 3 2 exDx 1 ⟨0, 0⟩ 2 ⟨1, 0⟩ ⟨5, 0⟩ ⟨6, 0⟩ ⟨7, 0⟩ 1 ⟨8, 0⟩ (fun _ => revBackend) p1 = .ok p2 ∧
      (∀ p, F.InBounds [(0, 1), (1, 2), (2, 3)] p → F.El p2 (F.cell3d ⟨8, 0⟩ 0 1 2 1 2 3 1) p (S p)) ∧
      ((∀ p, F.InBounds [(0, 1), (1, 2), (2, 3)] p → R p = S p) → ∀ p, F.InBounds [(0, 1), (1, 2), (2, 3)] p → (exIns 3 5) p = (exIns 3 5) p) :=
  C57_v1_3d (T := Rat) (fun _ => revBackend_ok) (fun _ => seqBackend_ok) (fun _ => seqBackend_ok) (fun _ => revBackend_ok) (by decide) (by decide) (by decide) (by decide) (by decide) (by decide) (exDir_args (by ex_args)) (exDir_args (by ex_args)) (⟨apart_blk (by decide), apart_blk (by decide), apart_blk (by decide)⟩) ⟨apart_blk (by decide), apart_blk (by decide), apart_blk (by decide)⟩
    (exDir_rd (by decide) (exRat_ok rfl (by decide) (by decide))) (exDir_rd (by decide) (exRat_ok rfl (by decide) (by decide))) (exDir_rd (by decide) (exRat_ok rfl (by decide) (by decide))) (exDir_rd (by decide) (exRat_ok rfl (by decide) (by decide))) exDir_u3 (exDir_rd (by decide) (exRat_ok rfl (by decide) (by decide))) (exDir_rd (by decide) (exRat_ok rfl (by decide) (by decide))) (exDir_rd (by decide) (exRat_ok rfl (by decide) (by decide))) (exDir_rd (by decide) (exRat_ok rfl (by decide) (by decide))) exDir_u3 (fun p hp => (exIns_zero3 p hp).trans (exIns_zero3 p hp).symm) exEll_v1_3

/-- 3D, diffusion operator with constant reaction: runs from unknowns that agree outside the box leave equal results only if the unknowns agree in the box. -/
theorem C57_v2_3d {i0 j0 k0 i1 j1 k1 gcw rgcw : Int} {alpha beta : T} {dx : Nat → T} {u b0 b1 b2 f0 f1 f2 res : Ptr} {β1 β2 : Nat → Backend} {β3 β4 : Nat → Backend} {m m' : Mem T} {B0 B1 B2 U V : List Int → T}
    (hβ1 : ∀ n, ValidBackend (β1 n)) (hβ2 : ∀ n, ValidBackend (β2 n)) (hβ3 : ∀ n, ValidBackend (β3 n)) (hβ4 : ∀ n, ValidBackend (β4 n)) (hi : i0 ≤ i1) (hj : j0 ≤ j1) (hk : k0 ≤ k1) (hg : 1 ≤ gcw) (hrgcw : 0 ≤ rgcw)
    (h : F.Args m [(F.cell3d u i0 j0 k0 i1 j1 k1 gcw), (F.face3d0 b0 i0 j0 k0 i1 j1 k1 0), (F.face3d1 b1 i0 j0 k0 i1 j1 k1 0), (F.face3d2 b2 i0 j0 k0 i1 j1 k1 0)] [(F.face3d0 f0 i0 j0 k0 i1 j1 k1 0), (F.face3d1 f1 i0 j0 k0 i1 j1 k1 0), (F.face3d2 f2 i0 j0 k0 i1 j1 k1 0), (F.cell3d res i0 j0 k0 i1 j1 k1 rgcw)]) (h' : F.Args m' [(F.cell3d u i0 j0 k0 i1 j1 k1 gcw), (F.face3d0 b0 i0 j0 k0 i1 j1 k1 0), (F.face3d1 b1 i0 j0 k0 i1 j1 k1 0), (F.face3d2 b2 i0 j0 k0 i1 j1 k1 0)] [(F.face3d0 f0 i0 j0 k0 i1 j1 k1 0), (F.face3d1 f1 i0 j0 k0 i1 j1 k1 0), (F.face3d2 f2 i0 j0 k0 i1 j1 k1 0), (F.cell3d res i0 j0 k0 i1 j1 k1 rgcw)])
    (hp : F.Apart (F.face3d0 f0 i0 j0 k0 i1 j1 k1 0) (F.face3d1 f1 i0 j0 k0 i1 j1 k1 0) ∧ F.Apart (F.face3d0 f0 i0 j0 k0 i1 j1 k1 0) (F.face3d2 f2 i0 j0 k0 i1 j1 k1 0) ∧ F.Apart (F.face3d1 f1 i0 j0 k0 i1 j1 k1 0) (F.face3d2 f2 i0 j0 k0 i1 j1 k1 0))
    (hr : F.Apart (F.cell3d res i0 j0 k0 i1 j1 k1 rgcw) (F.face3d0 f0 i0 j0 k0 i1 j1 k1 0) ∧ F.Apart (F.cell3d res i0 j0 k0 i1 j1 k1 rgcw) (F.face3d1 f1 i0 j0 k0 i1 j1 k1 0) ∧ F.Apart (F.cell3d res i0 j0 k0 i1 j1 k1 rgcw) (F.face3d2 f2 i0 j0 k0 i1 j1 k1 0))
    (hB0 : F.Holds m (F.face3d0 b0 i0 j0 k0 i1 j1 k1 0) B0) (hB1 : F.Holds m (F.face3d1 b1 i0 j0 k0 i1 j1 k1 0) B1) (hB2 : F.Holds m (F.face3d2 b2 i0 j0 k0 i1 j1 k1 0) B2) (hU : F.Holds m (F.cell3d u i0 j0 k0 i1 j1 k1 gcw) U)
    (hB0' : F.Holds m' (F.face3d0 b0 i0 j0 k0 i1 j1 k1 0) B0) (hB1' : F.Holds m' (F.face3d1 b1 i0 j0 k0 i1 j1 k1 0) B1) (hB2' : F.Holds m' (F.face3d2 b2 i0 j0 k0 i1 j1 k1 0) B2) (hV : F.Holds m' (F.cell3d u i0 j0 k0 i1 j1 k1 gcw) V)
    (hUV : ∀ p, ¬ F.InBounds [(i0, i1), (j0, j1), (k0, k1)] p → U p = V p) (he : F.Elliptic3 i0 j0 k0 i1 j1 k1 alpha beta dx (fun _ => 1) B0 B1 B2) :
    ∃ m1 m2 p1 p2, ∃ R S : List Int → T, Cuda.flux3d i0 j0 k0 i1 j1 k1 dx b0 b1 b2 gcw u f0 f1 f2 β1 m = .ok m1 ∧ Cuda.diffusionV2Apply3d i0 i1 j0 j1 k0 k1 alpha beta dx gcw u f0 f1 f2 rgcw res β2 m1 = .ok m2 ∧
      (∀ p, F.InBounds [(i0, i1), (j0, j1), (k0, k1)] p → F.El m2 (F.cell3d res i0 j0 k0 i1 j1 k1 rgcw) p (R p)) ∧
      Cuda.flux3d i0 j0 k0 i1 j1 k1 dx b0 b1 b2 gcw u f0 f1 f2 β3 m' = .ok p1 ∧ Cuda.diffusionV2Apply3d i0 i1 j0 j1 k0 k1 alpha beta dx gcw u f0 f1 f2 rgcw res β4 p1 = .ok p2 ∧
      (∀ p, F.InBounds [(i0, i1), (j0, j1), (k0, k1)] p → F.El p2 (F.cell3d res i0 j0 k0 i1 j1 k1 rgcw) p (S p)) ∧
      ((∀ p, F.InBounds [(i0, i1), (j0, j1), (k0, k1)] p → R p = S p) → ∀ p, F.InBounds [(i0, i1), (j0, j1), (k0, k1)] p → U p = V p) := by
  obtain ⟨m1, m2, R, c1, c2, E, hR⟩ := energy_v2_3 (alpha := alpha) (beta := beta) (dx := dx) hβ1 hβ2 hi hj hk hg hrgcw h hp hr hB0 hB1 hB2 hU
  obtain ⟨p1, p2, S, d1, d2, E', hS⟩ := energy_v2_3 (alpha := alpha) (beta := beta) (dx := dx) hβ3 hβ4 hi hj hk hg hrgcw h' hp hr hB0' hB1' hB2' hV
  have hD : ∀ p, ¬ F.InBounds [(i0, i1), (j0, j1), (k0, k1)] p → (fun p => U p - V p) p = 0 := fun p hp => sub_eq_zero.2 (hUV p hp)
  have e : (F.sum i0 i1 fun i => F.sum j0 j1 fun j => F.sum k0 k1 fun k => (U [i, j, k] - V [i, j, k]) * R [i, j, k]) = F.form3 i0 j0 k0 i1 j1 k1 alpha beta dx (fun _ => 1) B0 B1 B2 U (fun p => U p - V p) := by
    rw [← F.weak3 hi hj hk hD]
    exact F.sum_congr fun i h0 h1 => F.sum_congr fun j h2 h3 => F.sum_congr fun k h4 h5 => (by rw [hR i j k h0 h1 h2 h3 h4 h5])
  have e' : (F.sum i0 i1 fun i => F.sum j0 j1 fun j => F.sum k0 k1 fun k => (U [i, j, k] - V [i, j, k]) * S [i, j, k]) = F.form3 i0 j0 k0 i1 j1 k1 alpha beta dx (fun _ => 1) B0 B1 B2 V (fun p => U p - V p) := by
    rw [← F.weak3 hi hj hk hD]
    exact F.sum_congr fun i h0 h1 => F.sum_congr fun j h2 h3 => F.sum_congr fun k h4 h5 => (by rw [hS i j k h0 h1 h2 h3 h4 h5])
  refine ⟨m1, m2, p1, p2, R, S, c1, c2, E, d1, d2, E', fun hRS p hp => ?_⟩
  have z : F.form3 i0 j0 k0 i1 j1 k1 alpha beta dx (fun _ => 1) B0 B1 B2 (fun p => U p - V p) (fun p => U p - V p) ≤ 0 := by
    rw [F.form3_sub, ← e, ← e', F.sum_congr fun i h0 h1 => F.sum_congr fun j h2 h3 => F.sum_congr fun k h4 h5 => (by rw [hRS [i, j, k] (F.inBounds3.2 ⟨i, j, k, rfl, by omega⟩)]), sub_self]
  exact sub_eq_zero.1 (he.zero hD z p hp)

example : ∃ m1 m2 p1 p2, ∃ R S : List Int → Rat, Cuda.flux3d 0 1 2 1 2 3 exDx ⟨2, 0⟩ ⟨3, 0⟩ ⟨4, 0⟩ 2 ⟨1, 0⟩ ⟨5, 0⟩ ⟨6, 0⟩ ⟨7, 0⟩ (fun _ => revBackend) (exDir 3 5 1) = .ok m1 ∧ Cuda.diffusionV2Apply3d 0 1 1 2 2 3 3 2 exDx 2 ⟨1, 0⟩ ⟨5, 0⟩ ⟨6, 0⟩ ⟨7, 0⟩ 1 ⟨8, 0⟩ (fun _ => seqBackend) m1 = .ok m2 ∧
      (∀ p, F.InBounds [(0, 1), (1, 2), (2, 3)] p → F.El m2 (F.cell3d ⟨8, 0⟩ 0 1 2 1 2 3 1) p (R p)) ∧
      Cuda.flux3d 0 1 2 1 2 3 exDx ⟨2, 0⟩ ⟨3, 0⟩ ⟨4, 0⟩ 2 ⟨1, 0⟩ ⟨5, 0⟩ ⟨6, 0⟩ ⟨7, 0⟩ (fun _ => seqBackend) (exDir 3 5 2) = .ok p1 ∧ Cuda.diffusionV2Apply3d 0 1 1 2 2 3 3 2 exDx 2 ⟨1, 0⟩ ⟨5, 0⟩ ⟨6, 0⟩ ⟨7, 0⟩ 1 ⟨8, 0⟩ (fun _ => revBackend) p1 = .ok p2 ∧
      (∀ p, F.InBounds [(0, 1), (1, 2), (2, 3)] p → F.El p2 (F.cell3d ⟨8, 0⟩ 0 1 2 1 2 3 1) p (S p)) ∧
      ((∀ p, F.InBounds [(0, 1), (1, 2), (2, 3)] p → R p = S p) → ∀ p, F.InBounds [(0, 1), (1, 2), (2, 3)] p → (exIns 3 5) p = (exIns 3 5) p) :=
  C57_v2_3d (T := Rat) (fun _ => revBackend_ok) (fun _ => seqBackend_ok) (fun _ => seqBackend_ok) (fun _ => revBackend_ok) (by decide) (by decide) (by decide) (by decide) (by decide) (exDir_args (by ex_args)) (exDir_args (by ex_args)) (⟨apart_blk (by decide), apart_blk (by decide), apart_blk (by decide)⟩) ⟨apart_blk (by decide), apart_blk (by decide), apart_blk (by decide)⟩
    (exDir_rd (by decide) (exRat_ok rfl (by decide) (by decide))) (exDir_rd (by decide) (exRat_ok rfl (by decide) (by decide))) (exDir_rd (by decide) (exRat_ok rfl (by decide) (by decide))) exDir_u3 (exDir_rd (by decide) (exRat_ok rfl (by decide) (by decide))) (exDir_rd (by decide) (exRat_ok rfl (by decide) (by decide))) (exDir_rd (by decide) (exRat_ok rfl (by decide) (by decide))) exDir_u3 (fun p hp => (exIns_zero3 p hp).trans (exIns_zero3 p hp).symm) exEll_v2_3

/-- 3D, Poisson operator: runs from unknowns that agree outside the box leave equal results only if the unknowns agree in the box. -/
theorem C57_poisson_3d {i0 j0 k0 i1 j1 k1 gcw rgcw : Int} {beta : T} {dx : Nat → T} {u f0 f1 f2 res : Ptr} {β1 β2 : Nat → Backend} {β3 β4 : Nat → Backend} {m m' : Mem T} {U V : List Int → T}
    (hβ1 : ∀ n, ValidBackend (β1 n)) (hβ2 : ∀ n, ValidBackend (β2 n)) (hβ3 : ∀ n, ValidBackend (β3 n)) (hβ4 : ∀ n, ValidBackend (β4 n)) (hi : i0 ≤ i1) (hj : j0 ≤ j1) (hk : k0 ≤ k1) (hg : 1 ≤ gcw) (hrgcw : 0 ≤ rgcw)
    (h : F.Args m [(F.cell3d u i0 j0 k0 i1 j1 k1 gcw)] [(F.face3d0 f0 i0 j0 k0 i1 j1 k1 0), (F.face3d1 f1 i0 j0 k0 i1 j1 k1 0), (F.face3d2 f2 i0 j0 k0 i1 j1 k1 0), (F.cell3d res i0 j0 k0 i1 j1 k1 rgcw)]) (h' : F.Args m' [(F.cell3d u i0 j0 k0 i1 j1 k1 gcw)] [(F.face3d0 f0 i0 j0 k0 i1 j1 k1 0), (F.face3d1 f1 i0 j0 k0 i1 j1 k1 0), (F.face3d2 f2 i0 j0 k0 i1 j1 k1 0), (F.cell3d res i0 j0 k0 i1 j1 k1 rgcw)])
    (hp : F.Apart (F.face3d0 f0 i0 j0 k0 i1 j1 k1 0) (F.face3d1 f1 i0 j0 k0 i1 j1 k1 0) ∧ F.Apart (F.face3d0 f0 i0 j0 k0 i1 j1 k1 0) (F.face3d2 f2 i0 j0 k0 i1 j1 k1 0) ∧ F.Apart (F.face3d1 f1 i0 j0 k0 i1 j1 k1 0) (F.face3d2 f2 i0 j0 k0 i1 j1 k1 0))
    (hr : F.Apart (F.cell3d res i0 j0 k0 i1 j1 k1 rgcw) (F.face3d0 f0 i0 j0 k0 i1 j1 k1 0) ∧ F.Apart (F.cell3d res i0 j0 k0 i1 j1 k1 rgcw) (F.face3d1 f1 i0 j0 k0 i1 j1 k1 0) ∧ F.Apart (F.cell3d res i0 j0 k0 i1 j1 k1 rgcw) (F.face3d2 f2 i0 j0 k0 i1 j1 k1 0))
    (hU : F.Holds m (F.cell3d u i0 j0 k0 i1 j1 k1 gcw) U)
    (hV : F.Holds m' (F.cell3d u i0 j0 k0 i1 j1 k1 gcw) V)
    (hUV : ∀ p, ¬ F.InBounds [(i0, i1), (j0, j1), (k0, k1)] p → U p = V p) (he : F.Elliptic3 i0 j0 k0 i1 j1 k1 0 beta dx (fun _ => 1) (fun _ => 1) (fun _ => 1) (fun _ => 1)) :
    ∃ m1 m2 p1 p2, ∃ R S : List Int → T, Cuda.poissonFlux3d i0 j0 k0 i1 j1 k1 dx gcw u f0 f1 f2 β1 m = .ok m1 ∧ Cuda.poissonV2Apply3d i0 i1 j0 j1 k0 k1 beta dx f0 f1 f2 rgcw res β2 m1 = .ok m2 ∧
      (∀ p, F.InBounds [(i0, i1), (j0, j1), (k0, k1)] p → F.El m2 (F.cell3d res i0 j0 k0 i1 j1 k1 rgcw) p (R p)) ∧
      Cuda.poissonFlux3d i0 j0 k0 i1 j1 k1 dx gcw u f0 f1 f2 β3 m' = .ok p1 ∧ Cuda.poissonV2Apply3d i0 i1 j0 j1 k0 k1 beta dx f0 f1 f2 rgcw res β4 p1 = .ok p2 ∧
      (∀ p, F.InBounds [(i0, i1), (j0, j1), (k0, k1)] p → F.El p2 (F.cell3d res i0 j0 k0 i1 j1 k1 rgcw) p (S p)) ∧
      ((∀ p, F.InBounds [(i0, i1), (j0, j1), (k0, k1)] p → R p = S p) → ∀ p, F.InBounds [(i0, i1), (j0, j1), (k0, k1)] p → U p = V p) := by
  obtain ⟨m1, m2, R, c1, c2, E, hR⟩ := energy_p_3 (beta := beta) (dx := dx) hβ1 hβ2 hi hj hk hg hrgcw h hp hr hU
  obtain ⟨p1, p2, S, d1, d2, E', hS⟩ := energy_p_3 (beta := beta) (dx := dx) hβ3 hβ4 hi hj hk hg hrgcw h' hp hr hV
  have hD : ∀ p, ¬ F.InBounds [(i0, i1), (j0, j1), (k0, k1)] p → (fun p => U p - V p) p = 0 := fun p hp => sub_eq_zero.2 (hUV p hp)
  have e : (F.sum i0 i1 fun i => F.sum j0 j1 fun j => F.sum k0 k1 fun k => (U [i, j, k] - V [i, j, k]) * R [i, j, k]) = F.form3 i0 j0 k0 i1 j1 k1 0 beta dx (fun _ => 1) (fun _ => 1) (fun _ => 1) (fun _ => 1) U (fun p => U p - V p) := by
    rw [← F.weak3 hi hj hk hD]
    exact F.sum_congr fun i h0 h1 => F.sum_congr fun j h2 h3 => F.sum_congr fun k h4 h5 => (by rw [hR i j k h0 h1 h2 h3 h4 h5])
  have e' : (F.sum i0 i1 fun i => F.sum j0 j1 fun j => F.sum k0 k1 fun k => (U [i, j, k] - V [i, j, k]) * S [i, j, k]) = F.form3 i0 j0 k0 i1 j1 k1 0 beta dx (fun _ => 1) (fun _ => 1) (fun _ => 1) (fun _ => 1) V (fun p => U p - V p) := by
    rw [← F.weak3 hi hj hk hD]
    exact F.sum_congr fun i h0 h1 => F.sum_congr fun j h2 h3 => F.sum_congr fun k h4 h5 => (by rw [hS i j k h0 h1 h2 h3 h4 h5])
  refine ⟨m1, m2, p1, p2, R, S, c1, c2, E, d1, d2, E', fun hRS p hp => ?_⟩
  have z : F.form3 i0 j0 k0 i1 j1 k1 0 beta dx (fun _ => 1) (fun _ => 1) (fun _ => 1) (fun _ => 1) (fun p => U p - V p) (fun p => U p - V p) ≤ 0 := by
    rw [F.form3_sub, ← e, ← e', F.sum_congr fun i h0 h1 => F.sum_congr fun j h2 h3 => F.sum_congr fun k h4 h5 => (by rw [hRS [i, j, k] (F.inBounds3.2 ⟨i, j, k, rfl, by omega⟩)]), sub_self]
  exact sub_eq_zero.1 (he.zero hD z p hp)

example : ∃ m1 m2 p1 p2, ∃ R S : List Int → Rat, Cuda.poissonFlux3d 0 1 2 1 2 3 exDx 2 ⟨1, 0⟩ ⟨5, 0⟩ ⟨6, 0⟩ ⟨7, 0⟩ (fun _ => revBackend) (exDir 3 5 1) = .ok m1 ∧ Cuda.poissonV2Apply3d 0 1 1 2 2 3 2 exDx ⟨5, 0⟩ ⟨6, 0⟩ ⟨7, 0⟩ 1 ⟨8, 0⟩ (fun _ => seqBackend) m1 = .ok m2 ∧
      (∀ p, F.InBounds [(0, 1), (1, 2), (2, 3)] p → F.El m2 (F.cell3d ⟨8, 0⟩ 0 1 2 1 2 3 1) p (R p)) ∧
      Cuda.poissonFlux3d 0 1 2 1 2 3 exDx 2 ⟨1, 0⟩ ⟨5, 0⟩ ⟨6, 0⟩ ⟨7, 0⟩ (fun _ => seqBackend) (exDir 3 5 2) = .ok p1 ∧ Cuda.poissonV2Apply3d 0 1 1 2 2 3 2 exDx ⟨5, 0⟩ ⟨6, 0⟩ ⟨7, 0⟩ 1 ⟨8, 0⟩ (fun _ => revBackend) p1 = .ok p2 ∧
      (∀ p, F.InBounds [(0, 1), (1, 2), (2, 3)] p → F.El p2 (F.cell3d ⟨8, 0⟩ 0 1 2 1 2 3 1) p (S p)) ∧
      ((∀ p, F.InBounds [(0, 1), (1, 2), (2, 3)] p → R p = S p) → ∀ p, F.InBounds [(0, 1), (1, 2), (2, 3)] p → (exIns 3 5) p = (exIns 3 5) p) :=
  C57_poisson_3d (T := Rat) (fun _ => revBackend_ok) (fun _ => seqBackend_ok) (fun _ => seqBackend_ok) (fun _ => revBackend_ok) (by decide) (by decide) (by decide) (by decide) (by decide) (exDir_args (by ex_args)) (exDir_args (by ex_args)) (⟨apart_blk (by decide), apart_blk (by decide), apart_blk (by decide)⟩) ⟨apart_blk (by decide), apart_blk (by decide), apart_blk (by decide)⟩
     exDir_u3  exDir_u3 (fun p hp => (exIns_zero3 p hp).trans (exIns_zero3 p hp).symm) exEll_p_3

/-- 1D, diffusion operator with cell coefficients: if the result is nowhere positive, a bound on `U` outside the box holds in the box. -/
theorem C58_v1_1d {i0 i1 agcw gcw rgcw : Int} {alpha beta : T} {dx : Nat → T} {a u b0 f0 res : Ptr} {β1 β2 : Nat → Backend} {m : Mem T} {A B0 U : List Int → T} {M : T}
    (hβ1 : ∀ n, ValidBackend (β1 n)) (hβ2 : ∀ n, ValidBackend (β2 n)) (hi : i0 ≤ i1) (hg : 1 ≤ gcw) (hagcw : 0 ≤ agcw) (hrgcw : 0 ≤ rgcw)
    (h : F.Args m [(F.cell1d a i0 i1 agcw), (F.cell1d u i0 i1 gcw), (F.face1d b0 i0 i1 0)] [(F.face1d f0 i0 i1 0), (F.cell1d res i0 i1 rgcw)])
    (hr : F.Apart (F.cell1d res i0 i1 rgcw) (F.face1d f0 i0 i1 0))
    (hA : F.Holds m (F.cell1d a i0 i1 agcw) A) (hB0 : F.Holds m (F.face1d b0 i0 i1 0) B0) (hU : F.Holds m (F.cell1d u i0 i1 gcw) U)
    (hUM : ∀ p, ¬ F.InBounds [(i0, i1)] p → U p ≤ M) (he : F.Elliptic1 i0 i1 alpha beta dx A B0) (hM : 0 ≤ M) :
    ∃ m1 m2, ∃ R : List Int → T, Cuda.flux1d i0 i1 dx b0 gcw u f0 β1 m = .ok m1 ∧ Cuda.diffusionV1Apply1d i0 i1 alpha beta dx agcw a gcw u f0 rgcw res β2 m1 = .ok m2 ∧
      (∀ p, F.InBounds [(i0, i1)] p → F.El m2 (F.cell1d res i0 i1 rgcw) p (R p)) ∧
      ((∀ p, F.InBounds [(i0, i1)] p → R p ≤ 0) → ∀ p, F.InBounds [(i0, i1)] p → U p ≤ M) := by
  obtain ⟨m1, m2, R, c1, c2, E, hR⟩ := energy_v1_1 (alpha := alpha) (beta := beta) (dx := dx) hβ1 hβ2 hi hg hagcw hrgcw h hr hA hB0 hU
  have hD : ∀ p, ¬ F.InBounds [(i0, i1)] p → (fun p => max (U p - M) 0) p = 0 := fun p hp => max_eq_right (sub_nonpos.2 (hUM p hp))
  have e : (F.sum i0 i1 fun i => max (U [i] - M) 0 * R [i]) = F.form1 i0 i1 alpha beta dx A B0 U (fun p => max (U p - M) 0) := by
    rw [← F.weak1 hi hD]
    exact F.sum_congr fun i h0 h1 => (by rw [hR i h0 h1])
  refine ⟨m1, m2, R, c1, c2, E, fun hR0 p hp => ?_⟩
  have z : (F.sum i0 i1 fun i => max (U [i] - M) 0 * R [i]) ≤ 0 := by
    have : 0 ≤ -(F.sum i0 i1 fun i => max (U [i] - M) 0 * R [i]) := by
      simp only [← F.sum_neg]
      exact F.sum_nonneg fun i h0 h1 => by
        have := mul_nonneg (le_max_right (U [i] - M) 0) (neg_nonneg.2 (hR0 [i] (F.inBounds1.2 ⟨i, rfl, by omega⟩)))
        rwa [mul_neg] at this
    linarith
  have := he.zero hD ((he.cut (U := U) (M := M) (Or.inl hM)).trans (e ▸ z)) p hp
  exact sub_nonpos.1 (le_of_le_of_eq (le_max_left _ _) this)

example : ∃ m1 m2, ∃ R : List Int → Rat, Cuda.flux1d 0 3 exDx ⟨2, 0⟩ 2 ⟨1, 0⟩ ⟨5, 0⟩ (fun _ => revBackend) (exDir 1 (-5) 1) = .ok m1 ∧ Cuda.diffusionV1Apply1d 0 3 3 2 exDx 1 ⟨0, 0⟩ 2 ⟨1, 0⟩ ⟨5, 0⟩ 1 ⟨8, 0⟩ (fun _ => seqBackend) m1 = .ok m2 ∧
      (∀ p, F.InBounds [(0, 3)] p → F.El m2 (F.cell1d ⟨8, 0⟩ 0 3 1) p (R p)) ∧
      ((∀ p, F.InBounds [(0, 3)] p → R p ≤ 0) → ∀ p, F.InBounds [(0, 3)] p → (exIns 1 (-5)) p ≤ 0) :=
  C58_v1_1d (T := Rat) (fun _ => revBackend_ok) (fun _ => seqBackend_ok) (by decide) (by decide) (by decide) (by decide) (exDir_args (by ex_args)) (apart_blk (by decide))
    (exDir_rd (by decide) (exRat_ok rfl (by decide) (by decide))) (exDir_rd (by decide) (exRat_ok rfl (by decide) (by decide))) exDir_u1 (fun p hp => (exIns_zero1 p hp).le) exEll_v1_1 le_rfl

/-- 1D, diffusion operator with constant reaction: if the result is nowhere positive, a bound on `U` outside the box holds in the box. -/
theorem C58_v2_1d {i0 i1 gcw rgcw : Int} {alpha beta : T} {dx : Nat → T} {u b0 f0 res : Ptr} {β1 β2 : Nat → Backend} {m : Mem T} {B0 U : List Int → T} {M : T}
    (hβ1 : ∀ n, ValidBackend (β1 n)) (hβ2 : ∀ n, ValidBackend (β2 n)) (hi : i0 ≤ i1) (hg : 1 ≤ gcw) (hrgcw : 0 ≤ rgcw)
    (h : F.Args m [(F.cell1d u i0 i1 gcw), (F.face1d b0 i0 i1 0)] [(F.face1d f0 i0 i1 0), (F.cell1d res i0 i1 rgcw)])
    (hr : F.Apart (F.cell1d res i0 i1 rgcw) (F.face1d f0 i0 i1 0))
    (hB0 : F.Holds m (F.face1d b0 i0 i1 0) B0) (hU : F.Holds m (F.cell1d u i0 i1 gcw) U)
    (hUM : ∀ p, ¬ F.InBounds [(i0, i1)] p → U p ≤ M) (he : F.Elliptic1 i0 i1 alpha beta dx (fun _ => 1) B0) (hM : 0 ≤ M) :
    ∃ m1 m2, ∃ R : List Int → T, Cuda.flux1d i0 i1 dx b0 gcw u f0 β1 m = .ok m1 ∧ Cuda.diffusionV2Apply1d i0 i1 alpha beta dx gcw u f0 rgcw res β2 m1 = .ok m2 ∧
      (∀ p, F.InBounds [(i0, i1)] p → F.El m2 (F.cell1d res i0 i1 rgcw) p (R p)) ∧
      ((∀ p, F.InBounds [(i0, i1)] p → R p ≤ 0) → ∀ p, F.InBounds [(i0, i1)] p → U p ≤ M) := by
  obtain ⟨m1, m2, R, c1, c2, E, hR⟩ := energy_v2_1 (alpha := alpha) (beta := beta) (dx := dx) hβ1 hβ2 hi hg hrgcw h hr hB0 hU
  have hD : ∀ p, ¬ F.InBounds [(i0, i1)] p → (fun p => max (U p - M) 0) p = 0 := fun p hp => max_eq_right (sub_nonpos.2 (hUM p hp))
  have e : (F.sum i0 i1 fun i => max (U [i] - M) 0 * R [i]) = F.form1 i0 i1 alpha beta dx (fun _ => 1) B0 U (fun p => max (U p - M) 0) := by
    rw [← F.weak1 hi hD]
    exact F.sum_congr fun i h0 h1 => (by rw [hR i h0 h1])
  refine ⟨m1, m2, R, c1, c2, E, fun hR0 p hp => ?_⟩
  have z : (F.sum i0 i1 fun i => max (U [i] - M) 0 * R [i]) ≤ 0 := by
    have : 0 ≤ -(F.sum i0 i1 fun i => max (U [i] - M) 0 * R [i]) := by
      simp only [← F.sum_neg]
      exact F.sum_nonneg fun i h0 h1 => by
        have := mul_nonneg (le_max_right (U [i] - M) 0) (neg_nonneg.2 (hR0 [i] (F.inBounds1.2 ⟨i, rfl, by omega⟩)))
        rwa [mul_neg] at this
    linarith
  have := he.zero hD ((he.cut (U := U) (M := M) (Or.inl hM)).trans (e ▸ z)) p hp
  exact sub_nonpos.1 (le_of_le_of_eq (le_max_left _ _) this)

example : ∃ m1 m2, ∃ R : List Int → Rat, Cuda.flux1d 0 3 exDx ⟨2, 0⟩ 2 ⟨1, 0⟩ ⟨5, 0⟩ (fun _ => revBackend) (exDir 1 (-5) 1) = .ok m1 ∧ Cuda.diffusionV2Apply1d 0 3 3 2 exDx 2 ⟨1, 0⟩ ⟨5, 0⟩ 1 ⟨8, 0⟩ (fun _ => seqBackend) m1 = .ok m2 ∧
      (∀ p, F.InBounds [(0, 3)] p → F.El m2 (F.cell1d ⟨8, 0⟩ 0 3 1) p (R p)) ∧
      ((∀ p, F.InBounds [(0, 3)] p → R p ≤ 0) → ∀ p, F.InBounds [(0, 3)] p → (exIns 1 (-5)) p ≤ 0) :=
  C58_v2_1d (T := Rat) (fun _ => revBackend_ok) (fun _ => seqBackend_ok) (by decide) (by decide) (by decide) (exDir_args (by ex_args)) (apart_blk (by decide))
    (exDir_rd (by decide) (exRat_ok rfl (by decide) (by decide))) exDir_u1 (fun p hp => (exIns_zero1 p hp).le) exEll_v2_1 le_rfl

/-- 1D, Poisson operator: if the result is nowhere positive, a bound on `U` outside the box holds in the box. -/
theorem C58_poisson_1d {i0 i1 gcw rgcw : Int} {beta : T} {dx : Nat → T} {u f0 res : Ptr} {β1 β2 : Nat → Backend} {m : Mem T} {U : List Int → T} {M : T}
    (hβ1 : ∀ n, ValidBackend (β1 n)) (hβ2 : ∀ n, ValidBackend (β2 n)) (hi : i0 ≤ i1) (hg : 1 ≤ gcw) (hrgcw : 0 ≤ rgcw)
    (h : F.Args m [(F.cell1d u i0 i1 gcw)] [(F.face1d f0 i0 i1 0), (F.cell1d res i0 i1 rgcw)])
    (hr : F.Apart (F.cell1d res i0 i1 rgcw) (F.face1d f0 i0 i1 0))
    (hU : F.Holds m (F.cell1d u i0 i1 gcw) U)
    (hUM : ∀ p, ¬ F.InBounds [(i0, i1)] p → U p ≤ M) (he : F.Elliptic1 i0 i1 0 beta dx (fun _ => 1) (fun _ => 1)) :
    ∃ m1 m2, ∃ R : List Int → T, Cuda.poissonFlux1d i0 i1 dx gcw u f0 β1 m = .ok m1 ∧ Cuda.poissonV2Apply1d i0 i1 beta dx f0 rgcw res β2 m1 = .ok m2 ∧
      (∀ p, F.InBounds [(i0, i1)] p → F.El m2 (F.cell1d res i0 i1 rgcw) p (R p)) ∧
      ((∀ p, F.InBounds [(i0, i1)] p → R p ≤ 0) → ∀ p, F.InBounds [(i0, i1)] p → U p ≤ M) := by
  obtain ⟨m1, m2, R, c1, c2, E, hR⟩ := energy_p_1 (beta := beta) (dx := dx) hβ1 hβ2 hi hg hrgcw h hr hU
  have hD : ∀ p, ¬ F.InBounds [(i0, i1)] p → (fun p => max (U p - M) 0) p = 0 := fun p hp => max_eq_right (sub_nonpos.2 (hUM p hp))
  have e : (F.sum i0 i1 fun i => max (U [i] - M) 0 * R [i]) = F.form1 i0 i1 0 beta dx (fun _ => 1) (fun _ => 1) U (fun p => max (U p - M) 0) := by
    rw [← F.weak1 hi hD]
    exact F.sum_congr fun i h0 h1 => (by rw [hR i h0 h1])
  refine ⟨m1, m2, R, c1, c2, E, fun hR0 p hp => ?_⟩
  have z : (F.sum i0 i1 fun i => max (U [i] - M) 0 * R [i]) ≤ 0 := by
    have : 0 ≤ -(F.sum i0 i1 fun i => max (U [i] - M) 0 * R [i]) := by
      simp only [← F.sum_neg]
      exact F.sum_nonneg fun i h0 h1 => by
        have := mul_nonneg (le_max_right (U [i] - M) 0) (neg_nonneg.2 (hR0 [i] (F.inBounds1.2 ⟨i, rfl, by omega⟩)))
        rwa [mul_neg] at this
    linarith
  have := he.zero hD ((he.cut (U := U) (M := M) (Or.inr rfl)).trans (e ▸ z)) p hp
  exact sub_nonpos.1 (le_of_le_of_eq (le_max_left _ _) this)

example : ∃ m1 m2, ∃ R : List Int → Rat, Cuda.poissonFlux1d 0 3 exDx 2 ⟨1, 0⟩ ⟨5, 0⟩ (fun _ => revBackend) (exDir 1 (-5) 1) = .ok m1 ∧ Cuda.poissonV2Apply1d 0 3 2 exDx ⟨5, 0⟩ 1 ⟨8, 0⟩ (fun _ => seqBackend) m1 = .ok m2 ∧
      (∀ p, F.InBounds [(0, 3)] p → F.El m2 (F.cell1d ⟨8, 0⟩ 0 3 1) p (R p)) ∧
      ((∀ p, F.InBounds [(0, 3)] p → R p ≤ 0) → ∀ p, F.InBounds [(0, 3)] p → (exIns 1 (-5)) p ≤ 0) :=
  C58_poisson_1d (T := Rat) (fun _ => revBackend_ok) (fun _ => seqBackend_ok) (by decide) (by decide) (by decide) (exDir_args (by ex_args)) (apart_blk (by decide))
     exDir_u1 (fun p hp => (exIns_zero1 p hp).le) exEll_p_1

/-- 2D, diffusion operator with cell coefficients: if the result is nowhere positive, a bound on `U` outside the box holds in the box. -/
theorem C58_v1_2d {i0 j0 i1 j1 agcw gcw rgcw : Int} {alpha beta : T} {dx : Nat → T} {a u b0 b1 f0 f1 res : Ptr} {β1 β2 : Nat → Backend} {m : Mem T} {A B0 B1 U : List Int → T} {M : T}
    (hβ1 : ∀ n, ValidBackend (β1 n)) (hβ2 : ∀ n, ValidBackend (β2 n)) (hi : i0 ≤ i1) (hj : j0 ≤ j1) (hg : 1 ≤ gcw) (hagcw : 0 ≤ agcw) (hrgcw : 0 ≤ rgcw)
    (h : F.Args m [(F.cell2d a i0 j0 i1 j1 agcw), (F.cell2d u i0 j0 i1 j1 gcw), (F.face2d0 b0 i0 j0 i1 j1 0), (F.face2d1 b1 i0 j0 i1 j1 0)] [(F.face2d0 f0 i0 j0 i1 j1 0), (F.face2d1 f1 i0 j0 i1 j1 0), (F.cell2d res i0 j0 i1 j1 rgcw)])
    (hp : F.Apart (F.face2d0 f0 i0 j0 i1 j1 0) (F.face2d1 f1 i0 j0 i1 j1 0))
    (hr : F.Apart (F.cell2d res i0 j0 i1 j1 rgcw) (F.face2d0 f0 i0 j0 i1 j1 0) ∧ F.Apart (F.cell2d res i0 j0 i1 j1 rgcw) (F.face2d1 f1 i0 j0 i1 j1 0))
    (hA : F.Holds m (F.cell2d a i0 j0 i1 j1 agcw) A) (hB0 : F.Holds m (F.face2d0 b0 i0 j0 i1 j1 0) B0) (hB1 : F.Holds m (F.face2d1 b1 i0 j0 i1 j1 0) B1) (hU : F.Holds m (F.cell2d u i0 j0 i1 j1 gcw) U)
    (hUM : ∀ p, ¬ F.InBounds [(i0, i1), (j0, j1)] p → U p ≤ M) (he : F.Elliptic2 i0 j0 i1 j1 alpha beta dx A B0 B1) (hM : 0 ≤ M) :
    ∃ m1 m2, ∃ R : List Int → T, Cuda.flux2d i0 j0 i1 j1 dx b0 b1 gcw u f0 f1 β1 m = .ok m1 ∧ Cuda.diffusionV1Apply2d i0 i1 j0 j1 alpha beta dx agcw a gcw u f0 f1 rgcw res β2 m1 = .ok m2 ∧
      (∀ p, F.InBounds [(i0, i1), (j0, j1)] p → F.El m2 (F.cell2d res i0 j0 i1 j1 rgcw) p (R p)) ∧
      ((∀ p, F.InBounds [(i0, i1), (j0, j1)] p → R p ≤ 0) → ∀ p, F.InBounds [(i0, i1), (j0, j1)] p → U p ≤ M) := by
  obtain ⟨m1, m2, R, c1, c2, E, hR⟩ := energy_v1_2 (alpha := alpha) (beta := beta) (dx := dx) hβ1 hβ2 hi hj hg hagcw hrgcw h hp hr hA hB0 hB1 hU
  have hD : ∀ p, ¬ F.InBounds [(i0, i1), (j0, j1)] p → (fun p => max (U p - M) 0) p = 0 := fun p hp => max_eq_right (sub_nonpos.2 (hUM p hp))
  have e : (F.sum i0 i1 fun i => F.sum j0 j1 fun j => max (U [i, j] - M) 0 * R [i, j]) = F.form2 i0 j0 i1 j1 alpha beta dx A B0 B1 U (fun p => max (U p - M) 0) := by
    rw [← F.weak2 hi hj hD]
    exact F.sum_congr fun i h0 h1 => F.sum_congr fun j h2 h3 => (by rw [hR i j h0 h1 h2 h3])
  refine ⟨m1, m2, R, c1, c2, E, fun hR0 p hp => ?_⟩
  have z : (F.sum i0 i1 fun i => F.sum j0 j1 fun j => max (U [i, j] - M) 0 * R [i, j]) ≤ 0 := by
    have : 0 ≤ -(F.sum i0 i1 fun i => F.sum j0 j1 fun j => max (U [i, j] - M) 0 * R [i, j]) := by
      simp only [← F.sum_neg]
      exact F.sum_nonneg fun i h0 h1 => F.sum_nonneg fun j h2 h3 => by
        have := mul_nonneg (le_max_right (U [i, j] - M) 0) (neg_nonneg.2 (hR0 [i, j] (F.inBounds2.2 ⟨i, j, rfl, by omega⟩)))
        rwa [mul_neg] at this
    linarith
  have := he.zero hD ((he.cut (U := U) (M := M) (Or.inl hM)).trans (e ▸ z)) p hp
  exact sub_nonpos.1 (le_of_le_of_eq (le_max_left _ _) this)

example : ∃ m1 m2, ∃ R : List Int → Rat, Cuda.flux2d 0 1 2 3 exDx ⟨2, 0⟩ ⟨3, 0⟩ 2 ⟨1, 0⟩ ⟨5, 0⟩ ⟨6, 0⟩ (fun _ => revBackend) (exDir 2 (-5) 1) = .ok m1 ∧ Cuda.diffusionV1Apply2d 0 2 1 3 3 2 exDx 1 ⟨0, 0⟩ 2 ⟨1, 0⟩ ⟨5, 0⟩ ⟨6, 0⟩ 1 ⟨8, 0⟩ (fun _ => seqBackend) m1 = .ok m2 ∧
      (∀ p, F.InBounds [(0, 2), (1, 3)] p → F.El m2 (F.cell2d ⟨8, 0⟩ 0 1 2 3 1) p (R p)) ∧
      ((∀ p, F.InBounds [(0, 2), (1, 3)] p → R p ≤ 0) → ∀ p, F.InBounds [(0, 2), (1, 3)] p → (exIns 2 (-5)) p ≤ 0) :=
  C58_v1_2d (T := Rat) (fun _ => revBackend_ok) (fun _ => seqBackend_ok) (by decide) (by decide) (by decide) (by decide) (by decide) (exDir_args (by ex_args)) (apart_blk (by decide)) ⟨apart_blk (by decide), apart_blk (by decide)⟩
    (exDir_rd (by decide) (exRat_ok rfl (by decide) (by decide))) (exDir_rd (by decide) (exRat_ok rfl (by decide) (by decide))) (exDir_rd (by decide) (exRat_ok rfl (by decide) (by decide))) exDir_u2 (fun p hp => (exIns_zero2 p hp).le) exEll_v1_2 le_rfl

/-- 2D, diffusion operator with constant reaction: if the result is nowhere positive, a bound on `U` outside the box holds in the box. -/
theorem C58_v2_2d {i0 j0 i1 j1 gcw rgcw : Int} {alpha beta : T} {dx : Nat → T} {u b0 b1 f0 f1 res : Ptr} {β1 β2 : Nat → Backend} {m : Mem T} {B0 B1 U : List Int → T} {M : T}
    (hβ1 : ∀ n, ValidBackend (β1 n)) (hβ2 : ∀ n, ValidBackend (β2 n)) (hi : i0 ≤ i1) (hj : j0 ≤ j1) (hg : 1 ≤ gcw) (hrgcw : 0 ≤ rgcw)
    (h : F.Args m [(F.cell2d u i0 j0 i1 j1 gcw), (F.face2d0 b0 i0 j0 i1 j1 0), (F.face2d1 b1 i0 j0 i1 j1 0)] [(F.face2d0 f0 i0 j0 i1 j1 0), (F.face2d1 f1 i0 j0 i1 j1 0), (F.cell2d res i0 j0 i1 j1 rgcw)])
    (hp : F.Apart (F.face2d0 f0 i0 j0 i1 j1 0) (F.face2d1 f1 i0 j0 i1 j1 0))
    (hr : F.Apart (F.cell2d res i0 j0 i1 j1 rgcw) (F.face2d0 f0 i0 j0 i1 j1 0) ∧ F.Apart (F.cell2d res i0 j0 i1 j1 rgcw) (F.face2d1 f1 i0 j0 i1 j1 0))
    (hB0 : F.Holds m (F.face2d0 b0 i0 j0 i1 j1 0) B0) (hB1 : F.Holds m (F.face2d1 b1 i0 j0 i1 j1 0) B1) (hU : F.Holds m (F.cell2d u i0 j0 i1 j1 gcw) U)
    (hUM : ∀ p, ¬ F.InBounds [(i0, i1), (j0, j1)] p → U p ≤ M) (he : F.Elliptic2 i0 j0 i1 j1 alpha beta dx (fun _ => 1) B0 B1) (hM : 0 ≤ M) :
    ∃ m1 m2, ∃ R : List Int → T, Cuda.flux2d i0 j0 i1 j1 dx b0 b1 gcw u f0 f1 β1 m = .ok m1 ∧ Cuda.diffusionV2Apply2d i0 i1 j0 j1 alpha beta dx gcw u f0 f1 rgcw res β2 m1 = .ok m2 ∧
      (∀ p, F.InBounds [(i0, i1), (j0, j1)] p → F.El m2 (F.cell2d res i0 j0 i1 j1 rgcw) p (R p)) ∧
      ((∀ p, F.InBounds [(i0, i1), (j0, j1)] p → R p ≤ 0) → ∀ p, F.InBounds [(i0, i1), (j0, j1)] p → U p ≤ M) := by
  obtain ⟨m1, m2, R, c1, c2, E, hR⟩ := energy_v2_2 (alpha := alpha) (beta := beta) (dx := dx) hβ1 hβ2 hi hj hg hrgcw h hp hr hB0 hB1 hU
  have hD : ∀ p, ¬ F.InBounds [(i0, i1), (j0, j1)] p → (fun p => max (U p - M) 0) p = 0 := fun p hp => max_eq_right (sub_nonpos.2 (hUM p hp))
  have e : (F.sum i0 i1 fun i => F.sum j0 j1 fun j => max (U [i, j] - M) 0 * R [i, j]) = F.form2 i0 j0 i1 j1 alpha beta dx (fun _ => 1) B0 B1 U (fun p => max (U p - M) 0) := by
    rw [← F.weak2 hi hj hD]
    exact F.sum_congr fun i h0 h1 => F.sum_congr fun j h2 h3 => (by rw [hR i j h0 h1 h2 h3])
  refine ⟨m1, m2, R, c1, c2, E, fun hR0 p hp => ?_⟩
  have z : (F.sum i0 i1 fun i => F.sum j0 j1 fun j => max (U [i, j] - M) 0 * R [i, j]) ≤ 0 := by
    have : 0 ≤ -(F.sum i0 i1 fun i => F.sum j0 j1 fun j => max (U [i, j] - M) 0 * R [i, j]) := by
      simp only [← F.sum_neg]
      exact F.sum_nonneg fun i h0 h1 => F.sum_nonneg fun j h2 h3 => by
        have := mul_nonneg (le_max_right (U [i, j] - M) 0) (neg_nonneg.2 (hR0 [i, j] (F.inBounds2.2 ⟨i, j, rfl, by omega⟩)))
        rwa [mul_neg] at this
    linarith
  have := he.zero hD ((he.cut (U := U) (M := M) (Or.inl hM)).trans (e ▸ z)) p hp
  exact sub_nonpos.1 (le_of_le_of_eq (le_max_left _ _) this)

example : ∃ m1 m2, ∃ R : List Int → Rat, Cuda.flux2d 0 1 2 3 exDx ⟨2, 0⟩ ⟨3, 0⟩ 2 ⟨1, 0⟩ ⟨5, 0⟩ ⟨6, 0⟩ (fun _ => revBackend) (exDir 2 (-5) 1) = .ok m1 ∧ Cuda.diffusionV2Apply2d 0 2 1 3 3 2 exDx 2 ⟨1, 0⟩ ⟨5, 0⟩ ⟨6, 0⟩ 1 ⟨8, 0⟩ (fun _ => seqBackend) m1 = .ok m2 ∧
      (∀ p, F.InBounds [(0, 2), (1, 3)] p → F.El m2 (F.cell2d ⟨8, 0⟩ 0 1 2 3 1) p (R p)) ∧
      ((∀ p, F.InBounds [(0, 2), (1, 3)] p → R p ≤ 0) → ∀ p, F.InBounds [(0, 2), (1, 3)] p → (exIns 2 (-5)) p ≤ 0) :=
  C58_v2_2d (T := Rat) (fun _ => revBackend_ok) (fun _ => seqBackend_ok) (by decide) (by decide) (by decide) (by decide) (exDir_args (by ex_args)) (apart_blk (by decide)) ⟨apart_blk (by decide), apart_blk (by decide)⟩
    (exDir_rd (by decide) (exRat_ok rfl (by decide) (by decide))) (exDir_rd (by decide) (exRat_ok rfl (by decide) (by decide))) exDir_u2 (fun p hp => (exIns_zero2 p hp).le) exEll_v2_2 le_rfl

/-- 2D, Poisson operator: if the result is nowhere positive, a bound on `U` outside the box holds in the box. -/
theorem C58_poisson_2d {i0 j0 i1 j1 gcw rgcw : Int} {beta : T} {dx : Nat → T} {u f0 f1 res : Ptr} {β1 β2 : Nat → Backend} {m : Mem T} {U : List Int → T} {M : T}
    (hβ1 : ∀ n, ValidBackend (β1 n)) (hβ2 : ∀ n, ValidBackend (β2 n)) (hi : i0 ≤ i1) (hj : j0 ≤ j1) (hg : 1 ≤ gcw) (hrgcw : 0 ≤ rgcw)
    (h : F.Args m [(F.cell2d u i0 j0 i1 j1 gcw)] [(F.face2d0 f0 i0 j0 i1 j1 0), (F.face2d1 f1 i0 j0 i1 j1 0), (F.cell2d res i0 j0 i1 j1 rgcw)])
    (hp : F.Apart (F.face2d0 f0 i0 j0 i1 j1 0) (F.face2d1 f1 i0 j0 i1 j1 0))
    (hr : F.Apart (F.cell2d res i0 j0 i1 j1 rgcw) (F.face2d0 f0 i0 j0 i1 j1 0) ∧ F.Apart (F.cell2d res i0 j0 i1 j1 rgcw) (F.face2d1 f1 i0 j0 i1 j1 0))
    (hU : F.Holds m (F.cell2d u i0 j0 i1 j1 gcw) U)
    (hUM : ∀ p, ¬ F.InBounds [(i0, i1), (j0, j1)] p → U p ≤ M) (he : F.Elliptic2 i0 j0 i1 j1 0 beta dx (fun _ => 1) (fun _ => 1) (fun _ => 1)) :
    ∃ m1 m2, ∃ R : List Int → T, Cuda.poissonFlux2d i0 j0 i1 j1 dx gcw u f0 f1 β1 m = .ok m1 ∧ Cuda.poissonV2Apply2d i0 i1 j0 j1 beta dx f0 f1 rgcw res β2 m1 = .ok m2 ∧
      (∀ p, F.InBounds [(i0, i1), (j0, j1)] p → F.El m2 (F.cell2d res i0 j0 i1 j1 rgcw) p (R p)) ∧
      ((∀ p, F.InBounds [(i0, i1), (j0, j1)] p → R p ≤ 0) → ∀ p, F.InBounds [(i0, i1), (j0, j1)] p → U p ≤ M) := by
  obtain ⟨m1, m2, R, c1, c2, E, hR⟩ := energy_p_2 (beta := beta) (dx := dx) hβ1 hβ2 hi hj hg hrgcw h hp hr hU
  have hD : ∀ p, ¬ F.InBounds [(i0, i1), (j0, j1)] p → (fun p => max (U p - M) 0) p = 0 := fun p hp => max_eq_right (sub_nonpos.2 (hUM p hp))
  have e : (F.sum i0 i1 fun i => F.sum j0 j1 fun j => max (U [i, j] - M) 0 * R [i, j]) = F.form2 i0 j0 i1 j1 0 beta dx (fun _ => 1) (fun _ => 1) (fun _ => 1) U (fun p => max (U p - M) 0) := by
    rw [← F.weak2 hi hj hD]
    exact F.sum_congr fun i h0 h1 => F.sum_congr fun j h2 h3 => (by rw [hR i j h0 h1 h2 h3])
  refine ⟨m1, m2, R, c1, c2, E, fun hR0 p hp => ?_⟩
  have z : (F.sum i0 i1 fun i => F.sum j0 j1 fun j => max (U [i, j] - M) 0 * R [i, j]) ≤ 0 := by
    have : 0 ≤ -(F.sum i0 i1 fun i => F.sum j0 j1 fun j => max (U [i, j] - M) 0 * R [i, j]) := by
      simp only [← F.sum_neg]
      exact F.sum_nonneg fun i h0 h1 => F.sum_nonneg fun j h2 h3 => by
        have := mul_nonneg (le_max_right (U [i, j] - M) 0) (neg_nonneg.2 (hR0 [i, j] (F.inBounds2.2 ⟨i, j, rfl, by omega⟩)))
        rwa [mul_neg] at this
    linarith
  have := he.zero hD ((he.cut (U := U) (M := M) (Or.inr rfl)).trans (e ▸ z)) p hp
  exact sub_nonpos.1 (le_of_le_of_eq (le_max_left _ _) this)

example : ∃ m1 m2, ∃ R : List Int → Rat, Cuda.poissonFlux2d 0 1 2 3 exDx 2 ⟨1, 0⟩ ⟨5, 0⟩ ⟨6, 0⟩ (fun _ => revBackend) (exDir 2 (-5) 1) = .ok m1 ∧ Cuda.poissonV2Apply2d 0 2 1 3 2 exDx ⟨5, 0⟩ ⟨6, 0⟩ 1 ⟨8, 0⟩ (fun _ => seqBackend) m1 = .ok m2 ∧
      (∀ p, F.InBounds [(0, 2), (1, 3)] p → F.El m2 (F.cell2d ⟨8, 0⟩ 0 1 2 3 1) p (R p)) ∧
      ((∀ p, F.InBounds [(0, 2), (1, 3)] p → R p ≤ 0) → ∀ p, F.InBounds [(0, 2), (1, 3)] p → (exIns 2 (-5)) p ≤ 0) :=
  C58_poisson_2d (T := Rat) (fun _ => revBackend_ok) (fun _ => seqBackend_ok) (by decide) (by decide) (by decide) (by decide) (exDir_args (by ex_args)) (apart_blk (by decide)) ⟨apart_blk (by decide), apart_blk (by decide)⟩
     exDir_u2 (fun p hp => (exIns_zero2 p hp).le) exEll_p_2

/-- 3D, diffusion operator with cell coefficients: if the result is nowhere positive, a bound on `U` outside the box holds in the box. -/
theorem C58_v1_3d {i0 j0 k0 i1 j1 k1 agcw gcw rgcw : Int} {alpha beta : T} {dx : Nat → T} {a u b0 b1 b2 f0 f1 f2 res : Ptr} {β1 β2 : Nat → Backend} {m : Mem T} {A B0 B1 B2 U : List Int → T} {M : T}
    (hβ1 : ∀ n, ValidBackend (β1 n)) (hβ2 : ∀ n, ValidBackend (β2 n)) (hi : i0 ≤ i1) (hj : j0 ≤ j1) (hk : k0 ≤ k1) (hg : 1 ≤ gcw) (hagcw : 0 ≤ agcw) (hrgcw : 0 ≤ rgcw)
    (h : F.Args m [(F.cell3d a i0 j0 k0 i1 j1 k1 agcw), (F.cell3d u i0 j0 k0 i1 j1 k1 gcw), (F.face3d0 b0 i0 j0 k0 i1 j1 k1 0), (F.face3d1 b1 i0 j0 k0 i1 j1 k1 0), (F.face3d2 b2 i0 j0 k0 i1 j1 k1 0)] [(F.face3d0 f0 i0 j0 k0 i1 j1 k1 0), (F.face3d1 f1 i0 j0 k0 i1 j1 k1 0), (F.face3d2 f2 i0 j0 k0 i1 j1 k1 0), (F.cell3d res i0 j0 k0 i1 j1 k1 rgcw)])
    (hp : F.Apart (F.face3d0 f0 i0 j0 k0 i1 j1 k1 0) (F.face3d1 f1 i0 j0 k0 i1 j1 k1 0) ∧ F.Apart (F.face3d0 f0 i0 j0 k0 i1 j1 k1 0) (F.face3d2 f2 i0 j0 k0 i1 j1 k1 0) ∧ F.Apart (F.face3d1 f1 i0 j0 k0 i1 j1 k1 0) (F.face3d2 f2 i0 j0 k0 i1 j1 k1 0))
    (hr : F.Apart (F.cell3d res i0 j0 k0 i1 j1 k1 rgcw) (F.face3d0 f0 i0 j0 k0 i1 j1 k1 0) ∧ F.Apart (F.cell3d res i0 j0 k0 i1 j1 k1 rgcw) (F.face3d1 f1 i0 j0 k0 i1 j1 k1 0) ∧ F.Apart (F.cell3d res i0 j0 k0 i1 j1 k1 rgcw) (F.face3d2 f2 i0 j0 k0 i1 j1 k1 0))
    (hA : F.Holds m (F.cell3d a i0 j0 k0 i1 j1 k1 agcw) A) (hB0 : F.Holds m (F.face3d0 b0 i0 j0 k0 i1 j1 k1 0) B0) (hB1 : F.Holds m (F.face3d1 b1 i0 j0 k0 i1 j1 k1 0) B1) (hB2 : F.Holds m (F.face3d2 b2 i0 j0 k0 i1 j1 k1 0) B2) (hU : F.Holds m (F.cell3d u i0 j0 k0 i1 j1 k1 gcw) U)
    (hUM : ∀ p, ¬ F.InBounds [(i0, i1), (j0, j1), (k0, k1)] p → U p ≤ M) (he : F.Elliptic3 i0 j0 k0 i1 j1 k1 alpha beta dx A B0 B1 B2) (hM : 0 ≤ M) :
    ∃ m1 m2, ∃ R : List Int → T, Cuda.flux3d i0 j0 k0 i1 j1 k1 dx b0 b1 b2 gcw u f0 f1 f2 β1 m = .ok m1 ∧ Cuda.diffusionV1Apply3d i0 i1 j0 j1 k0 k1 alpha beta dx agcw a gcw u f0 f1 f2 rgcw res β2 m1 = .ok m2 ∧
      (∀ p, F.InBounds [(i0, i1), (j0, j1), (k0, k1)] p → F.El m2 (F.cell3d res i0 j0 k0 i1 j1 k1 rgcw) p (R p)) ∧
      ((∀ p, F.InBounds [(i0, i1), (j0, j1), (k0, k1)] p → R p ≤ 0) → ∀ p, F.InBounds [(i0, i1), (j0, j1), (k0, k1)] p → U p ≤ M) := by
  obtain ⟨m1, m2, R, c1, c2, E, hR⟩ := energy_v1_3 (alpha := alpha) (beta := beta) (dx := dx) hβ1 hβ2 hi hj hk hg hagcw hrgcw h hp hr hA hB0 hB1 hB2 hU
  have hD : ∀ p, ¬ F.InBounds [(i0, i1), (j0, j1), (k0, k1)] p → (fun p => max (U p - M) 0) p = 0 := fun p hp => max_eq_right (sub_nonpos.2 (hUM p hp))
  have e : (F.sum i0 i1 fun i => F.sum j0 j1 fun j => F.sum k0 k1 fun k => max (U [i, j, k] - M) 0 * R [i, j, k]) = F.form3 i0 j0 k0 i1 j1 k1 alpha beta dx A B0 B1 B2 U (fun p => max (U p - M) 0) := by
    rw [← F.weak3 hi hj hk hD]
    exact F.sum_congr fun i h0 h1 => F.sum_congr fun j h2 h3 => F.sum_congr fun k h4 h5 => (by rw [hR i j k h0 h1 h2 h3 h4 h5])
  refine ⟨m1, m2, R, c1, c2, E, fun hR0 p hp => ?_⟩
  have z : (F.sum i0 i1 fun i => F.sum j0 j1 fun j => F.sum k0 k1 fun k => max (U [i, j, k] - M) 0 * R [i, j, k]) ≤ 0 := by
    have : 0 ≤ -(F.sum i0 i1 fun i => F.sum j0 j1 fun j => F.sum k0 k1 fun k => max (U [i, j, k] - M) 0 * R [i, j, k]) := by
      simp only [← F.sum_neg]
      exact F.sum_nonneg fun i h0 h1 => F.sum_nonneg fun j h2 h3 => F.sum_nonneg fun k h4 h5 => by
        have := mul_nonneg (le_max_right (U [i, j, k] - M) 0) (neg_nonneg.2 (hR0 [i, j, k] (F.inBounds3.2 ⟨i, j, k, rfl, by omega⟩)))
        rwa [mul_neg] at this
    linarith
  have := he.zero hD ((he.cut (U := U) (M := M) (Or.inl hM)).trans (e ▸ z)) p hp
  exact sub_nonpos.1 (le_of_le_of_eq (le_max_left _ _) this)

example : ∃ m1 m2, ∃ R : List Int → Rat, Cuda.flux3d 0 1 2 1 2 3 exDx ⟨2, 0⟩ ⟨3, 0⟩ ⟨4, 0⟩ 2 ⟨1, 0⟩ ⟨5, 0⟩ ⟨6, 0⟩ ⟨7, 0⟩ (fun _ => revBackend) (exDir 3 (-5) 1) = .ok m1 ∧ Cuda.diffusionV1Apply3d 0 1 1 2 2 3 3 2 exDx 1 ⟨0, 0⟩ 2 ⟨1, 0⟩ ⟨5, 0⟩ ⟨6, 0⟩ ⟨7, 0⟩ 1 ⟨8, 0⟩ (fun _ => seqBackend) m1 = .ok m2 ∧
      (∀ p, F.InBounds [(0, 1), (1, 2), (2, 3)] p → F.El m2 (F.cell3d ⟨8, 0⟩ 0 1 2 1 2 3 1) p (R p)) ∧
      ((∀ p, F.InBounds [(0, 1), (1, 2), (2, 3)] p → R p ≤ 0) → ∀ p, F.InBounds [(0, 1), (1, 2), (2, 3)] p → (exIns 3 (-5)) p ≤ 0) :=
  C58_v1_3d (T := Rat) (fun _ => revBackend_ok) (fun _ => seqBackend_ok) (by decide) (by decide) (by decide) (by decide) (by decide) (by decide) (exDir_args (by ex_args)) (⟨apart_blk (by decide), apart_blk (by decide), apart_blk (by decide)⟩) ⟨apart_blk (by decide), apart_blk (by decide), apart_blk (by decide)⟩
    (exDir_rd (by decide) (exRat_ok rfl (by decide) (by decide))) (exDir_rd (by decide) (exRat_ok rfl (by decide) (by decide))) (exDir_rd (by decide) (exRat_ok rfl (by decide) (by decide))) (exDir_rd (by decide) (exRat_ok rfl (by decide) (by decide))) exDir_u3 (fun p hp => (exIns_zero3 p hp).le) exEll_v1_3 le_rfl

/-- 3D, diffusion operator with constant reaction: if the result is nowhere positive, a bound on `U` outside the box holds in the box. -/
theorem C58_v2_3d {i0 j0 k0 i1 j1 k1 gcw rgcw : Int} {alpha beta : T} {dx : Nat → T} {u b0 b1 b2 f0 f1 f2 res : Ptr} {β1 β2 : Nat → Backend} {m : Mem T} {B0 B1 B2 U : List Int → T} {M : T}
    (hβ1 : ∀ n, ValidBackend (β1 n)) (hβ2 : ∀ n, ValidBackend (β2 n)) (hi : i0 ≤ i1) (hj : j0 ≤ j1) (hk : k0 ≤ k1) (hg : 1 ≤ gcw) (hrgcw : 0 ≤ rgcw)
    (h : F.Args m [(F.cell3d u i0 j0 k0 i1 j1 k1 gcw), (F.face3d0 b0 i0 j0 k0 i1 j1 k1 0), (F.face3d1 b1 i0 j0 k0 i1 j1 k1 0), (F.face3d2 b2 i0 j0 k0 i1 j1 k1 0)] [(F.face3d0 f0 i0 j0 k0 i1 j1 k1 0), (F.face3d1 f1 i0 j0 k0 i1 j1 k1 0), (F.face3d2 f2 i0 j0 k0 i1 j1 k1 0), (F.cell3d res i0 j0 k0 i1 j1 k1 rgcw)])
    (hp : F.Apart (F.face3d0 f0 i0 j0 k0 i1 j1 k1 0) (F.face3d1 f1 i0 j0 k0 i1 j1 k1 0) ∧ F.Apart (F.face3d0 f0 i0 j0 k0 i1 j1 k1 0) (F.face3d2 f2 i0 j0 k0 i1 j1 k1 0) ∧ F.Apart (F.face3d1 f1 i0 j0 k0 i1 j1 k1 0) (F.face3d2 f2 i0 j0 k0 i1 j1 k1 0))
    (hr : F.Apart (F.cell3d res i0 j0 k0 i1 j1 k1 rgcw) (F.face3d0 f0 i0 j0 k0 i1 j1 k1 0) ∧ F.Apart (F.cell3d res i0 j0 k0 i1 j1 k1 rgcw) (F.face3d1 f1 i0 j0 k0 i1 j1 k1 0) ∧ F.Apart (F.cell3d res i0 j0 k0 i1 j1 k1 rgcw) (F.face3d2 f2 i0 j0 k0 i1 j1 k1 0))
    (hB0 : F.Holds m (F.face3d0 b0 i0 j0 k0 i1 j1 k1 0) B0) (hB1 : F.Holds m (F.face3d1 b1 i0 j0 k0 i1 j1 k1 0) B1) (hB2 : F.Holds m (F.face3d2 b2 i0 j0 k0 i1 j1 k1 0) B2) (hU : F.Holds m (F.cell3d u i0 j0 k0 i1 j1 k1 gcw) U)
    (hUM : ∀ p, ¬ F.InBounds [(i0, i1), (j0, j1), (k0, k1)] p → U p ≤ M) (he : F.Elliptic3 i0 j0 k0 i1 j1 k1 alpha beta dx (fun _ => 1) B0 B1 B2) (hM : 0 ≤ M) :
    ∃ m1 m2, ∃ R : List Int → T, Cuda.flux3d i0 j0 k0 i1 j1 k1 dx b0 b1 b2 gcw u f0 f1 f2 β1 m = .ok m1 ∧ Cuda.diffusionV2Apply3d i0 i1 j0 j1 k0 k1 alpha beta dx gcw u f0 f1 f2 rgcw res β2 m1 = .ok m2 ∧
      (∀ p, F.InBounds [(i0, i1), (j0, j1), (k0, k1)] p → F.El m2 (F.cell3d res i0 j0 k0 i1 j1 k1 rgcw) p (R p)) ∧
      ((∀ p, F.InBounds [(i0, i1), (j0, j1), (k0, k1)] p → R p ≤ 0) → ∀ p, F.InBounds [(i0, i1), (j0, j1), (k0, k1)] p → U p ≤ M) := by
  obtain ⟨m1, m2, R, c1, c2, E, hR⟩ := energy_v2_3 (alpha := alpha) (beta := beta) (dx := dx) hβ1 hβ2 hi hj hk hg hrgcw h hp hr hB0 hB1 hB2 hU
  have hD : ∀ p, ¬ F.InBounds [(i0, i1), (j0, j1), (k0, k1)] p → (fun p => max (U p - M) 0) p = 0 := fun p hp => max_eq_right (sub_nonpos.2 (hUM p hp))
  have e : (F.sum i0 i1 fun i => F.sum j0 j1 fun j => F.sum k0 k1 fun k => max (U [i, j, k] - M) 0 * R [i, j, k]) = F.form3 i0 j0 k0 i1 j1 k1 alpha beta dx (fun _ => 1) B0 B1 B2 U (fun p => max (U p - M) 0) := by
    rw [← F.weak3 hi hj hk hD]
    exact F.sum_congr fun i h0 h1 => F.sum_congr fun j h2 h3 => F.sum_congr fun k h4 h5 => (by rw [hR i j k h0 h1 h2 h3 h4 h5])
  refine ⟨m1, m2, R, c1, c2, E, fun hR0 p hp => ?_⟩
  have z : (F.sum i0 i1 fun i => F.sum j0 j1 fun j => F.sum k0 k1 fun k => max (U [i, j, k] - M) 0 * R [i, j, k]) ≤ 0 := by
    have : 0 ≤ -(F.sum i0 i1 fun i => F.sum j0 j1 fun j => F.sum k0 k1 fun k => max (U [i, j, k] - M) 0 * R [i, j, k]) := by
      simp only [← F.sum_neg]
      exact F.sum_nonneg fun i h0 h1 => F.sum_nonneg fun j h2 h3 => F.sum_nonneg fun k h4 h5 => by
        have := mul_nonneg (le_max_right (U [i, j, k] - M) 0) (neg_nonneg.2 (hR0 [i, j, k] (F.inBounds3.2 ⟨i, j, k, rfl, by omega⟩)))
        rwa [mul_neg] at this
    linarith
  have := he.zero hD ((he.cut (U := U) (M := M) (Or.inl hM)).trans (e ▸ z)) p hp
  exact sub_nonpos.1 (le_of_le_of_eq (le_max_left _ _) this)

example : ∃ m1 m2, ∃ R : List Int → Rat, Cuda.flux3d 0 1 2 1 2 3 exDx ⟨2, 0⟩ ⟨3, 0⟩ ⟨4, 0⟩ 2 ⟨1, 0⟩ ⟨5, 0⟩ ⟨6, 0⟩ ⟨7, 0⟩ (fun _ => revBackend) (exDir 3 (-5) 1) = .ok m1 ∧ Cuda.diffusionV2Apply3d 0 1 1 2 2 3 3 2 exDx 2 ⟨1, 0⟩ ⟨5, 0⟩ ⟨6, 0⟩ ⟨7, 0⟩ 1 ⟨8, 0⟩ (fun _ => seqBackend) m1 = .ok m2 ∧
      (∀ p, F.InBounds [(0, 1), (1, 2), (2, 3)] p → F.El m2 (F.cell3d ⟨8, 0⟩ 0 1 2 1 2 3 1) p (R p)) ∧
      ((∀ p, F.InBounds [(0, 1), (1, 2), (2, 3)] p → R p ≤ 0) → ∀ p, F.InBounds [(0, 1), (1, 2), (2, 3)] p → (exIns 3 (-5)) p ≤ 0) :=
  C58_v2_3d (T := Rat) (fun _ => revBackend_ok) (fun _ => seqBackend_ok) (by decide) (by decide) (by decide) (by decide) (by decide) (exDir_args (by ex_args)) (⟨apart_blk (by decide), apart_blk (by decide), apart_blk (by decide)⟩) ⟨apart_blk (by decide), apart_blk (by decide), apart_blk (by decide)⟩
    (exDir_rd (by decide) (exRat_ok rfl (by decide) (by decide))) (exDir_rd (by decide) (exRat_ok rfl (by decide) (by decide))) (exDir_rd (by decide) (exRat_ok rfl (by decide) (by decide))) exDir_u3 (fun p hp => (exIns_zero3 p hp).le) exEll_v2_3 le_rfl

/-- 3D, Poisson operator: if the result is nowhere positive, a bound on `U` outside the box holds in the box. -/
theorem C58_poisson_3d {i0 j0 k0 i1 j1 k1 gcw rgcw : Int} {beta : T} {dx : Nat → T} {u f0 f1 f2 res : Ptr} {β1 β2 : Nat → Backend} {m : Mem T} {U : List Int → T} {M : T}
    (hβ1 : ∀ n, ValidBackend (β1 n)) (hβ2 : ∀ n, ValidBackend (β2 n)) (hi : i0 ≤ i1) (hj : j0 ≤ j1) (hk : k0 ≤ k1) (hg : 1 ≤ gcw) (hrgcw : 0 ≤ rgcw)
    (h : F.Args m [(F.cell3d u i0 j0 k0 i1 j1 k1 gcw)] [(F.face3d0 f0 i0 j0 k0 i1 j1 k1 0), (F.face3d1 f1 i0 j0 k0 i1 j1 k1 0), (F.face3d2 f2 i0 j0 k0 i1 j1 k1 0), (F.cell3d res i0 j0 k0 i1 j1 k1 rgcw)])
    (hp : F.Apart (F.face3d0 f0 i0 j0 k0 i1 j1 k1 0) (F.face3d1 f1 i0 j0 k0 i1 j1 k1 0) ∧ F.Apart (F.face3d0 f0 i0 j0 k0 i1 j1 k1 0) (F.face3d2 f2 i0 j0 k0 i1 j1 k1 0) ∧ F.Apart (F.face3d1 f1 i0 j0 k0 i1 j1 k1 0) (F.face3d2 f2 i0 j0 k0 i1 j1 k1 0))
    (hr : F.Apart (F.cell3d res i0 j0 k0 i1 j1 k1 rgcw) (F.face3d0 f0 i0 j0 k0 i1 j1 k1 0) ∧ F.Apart (F.cell3d res i0 j0 k0 i1 j1 k1 rgcw) (F.face3d1 f1 i0 j0 k0 i1 j1 k1 0) ∧ F.Apart (F.cell3d res i0 j0 k0 i1 j1 k1 rgcw) (F.face3d2 f2 i0 j0 k0 i1 j1 k1 0))
    (hU : F.Holds m (F.cell3d u i0 j0 k0 i1 j1 k1 gcw) U)
    (hUM : ∀ p, ¬ F.InBounds [(i0, i1), (j0, j1), (k0, k1)] p → U p ≤ M) (he : F.Elliptic3 i0 j0 k0 i1 j1 k1 0 beta dx (fun _ => 1) (fun _ => 1) (fun _ => 1) (fun _ => 1)) :
    ∃ m1 m2, ∃ R : List Int → T, Cuda.poissonFlux3d i0 j0 k0 i1 j1 k1 dx gcw u f0 f1 f2 β1 m = .ok m1 ∧ Cuda.poissonV2Apply3d i0 i1 j0 j1 k0 k1 beta dx f0 f1 f2 rgcw res β2 m1 = .ok m2 ∧
      (∀ p, F.InBounds [(i0, i1), (j0, j1), (k0, k1)] p → F.El m2 (F.cell3d res i0 j0 k0 i1 j1 k1 rgcw) p (R p)) ∧
      ((∀ p, F.InBounds [(i0, i1), (j0, j1), (k0, k1)] p → R p ≤ 0) → ∀ p, F.InBounds [(i0, i1), (j0, j1), (k0, k1)] p → U p ≤ M) := by
  obtain ⟨m1, m2, R, c1, c2, E, hR⟩ := energy_p_3 (beta := beta) (dx := dx) hβ1 hβ2 hi hj hk hg hrgcw h hp hr hU
  have hD : ∀ p, ¬ F.InBounds [(i0, i1), (j0, j1), (k0, k1)] p → (fun p => max (U p - M) 0) p = 0 := fun p hp => max_eq_right (sub_nonpos.2 (hUM p hp))
  have e : (F.sum i0 i1 fun i => F.sum j0 j1 fun j => F.sum k0 k1 fun k => max (U [i, j, k] - M) 0 * R [i, j, k]) = F.form3 i0 j0 k0 i1 j1 k1 0 beta dx (fun _ => 1) (fun _ => 1) (fun _ => 1) (fun _ => 1) U (fun p => max (U p - M) 0) := by
    rw [← F.weak3 hi hj hk hD]
    exact F.sum_congr fun i h0 h1 => F.sum_congr fun j h2 h3 => F.sum_congr fun k h4 h5 => (by rw [hR i j k h0 h1 h2 h3 h4 h5])
  refine ⟨m1, m2, R, c1, c2, E, fun hR0 p hp => ?_⟩
  have z : (F.sum i0 i1 fun i => F.sum j0 j1 fun j => F.sum k0 k1 fun k => max (U [i, j, k] - M) 0 * R [i, j, k]) ≤ 0 := by
    have : 0 ≤ -(F.sum i0 i1 fun i => F.sum j0 j1 fun j => F.sum k0 k1 fun k => max (U [i, j, k] - M) 0 * R [i, j, k]) := by
      simp only [← F.sum_neg]
      exact F.sum_nonneg fun i h0 h1 => F.sum_nonneg fun j h2 h3 => F.sum_nonneg fun k h4 h5 => by
        have := mul_nonneg (le_max_right (U [i, j, k] - M) 0) (neg_nonneg.2 (hR0 [i, j, k] (F.inBounds3.2 ⟨i, j, k, rfl, by omega⟩)))
        rwa [mul_neg] at this
    linarith
  have := he.zero hD ((he.cut (U := U) (M := M) (Or.inr rfl)).trans (e ▸ z)) p hp
  exact sub_nonpos.1 (le_of_le_of_eq (le_max_left _ _) this)

example : ∃ m1 m2, ∃ R : List Int → Rat, Cuda.poissonFlux3d 0 1 2 1 2 3 exDx 2 ⟨1, 0⟩ ⟨5, 0⟩ ⟨6, 0⟩ ⟨7, 0⟩ (fun _ => revBackend) (exDir 3 (-5) 1) = .ok m1 ∧ Cuda.poissonV2Apply3d 0 1 1 2 2 3 2 exDx ⟨5, 0⟩ ⟨6, 0⟩ ⟨7, 0⟩ 1 ⟨8, 0⟩ (fun _ => seqBackend) m1 = .ok m2 ∧
      (∀ p, F.InBounds [(0, 1), (1, 2), (2, 3)] p → F.El m2 (F.cell3d ⟨8, 0⟩ 0 1 2 1 2 3 1) p (R p)) ∧
      ((∀ p, F.InBounds [(0, 1), (1, 2), (2, 3)] p → R p ≤ 0) → ∀ p, F.InBounds [(0, 1), (1, 2), (2, 3)] p → (exIns 3 (-5)) p ≤ 0) :=
  C58_poisson_3d (T := Rat) (fun _ => revBackend_ok) (fun _ => seqBackend_ok) (by decide) (by decide) (by decide) (by decide) (by decide) (exDir_args (by ex_args)) (⟨apart_blk (by decide), apart_blk (by decide), apart_blk (by decide)⟩) ⟨apart_blk (by decide), apart_blk (by decide), apart_blk (by decide)⟩
     exDir_u3 (fun p hp => (exIns_zero3 p hp).le) exEll_p_3

end Verif
