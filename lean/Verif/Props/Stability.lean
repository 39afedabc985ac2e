import Verif.Lemmas.Stability
import Verif.Lemmas.EnergyEx

/-
C70: stability of the operator kernels in the maximum norm.
-/

namespace Verif
open Spec

set_option linter.unusedVariables false
set_option linter.unusedSectionVars false

variable {T : Type} [Field T] [LinearOrder T] [IsStrictOrderedRing T]

/-- the reaction coefficient of the examples is at least 3 in the box -/
theorem exCell1 : ∀ p, F.InBounds [(0, 3)] p → (3 : Rat) ≤ 3 * exRd (F.cell1d ⟨0, 0⟩ 0 3 1) p := by
  intro p hp
  obtain ⟨i, rfl, hp⟩ := F.inBounds1.1 hp
  simp only [exRd, F.cell1d, F.colMajor]
  have x : (1 : Rat) ≤ (i : Rat) + 1 := by exact_mod_cast (by omega : (1 : Int) ≤ i + 1)
  norm_num
  nlinarith

/-- the reaction coefficient of the examples is at least 3 in the box -/
theorem exCell2 : ∀ p, F.InBounds [(0, 2), (1, 3)] p → (3 : Rat) ≤ 3 * exRd (F.cell2d ⟨0, 0⟩ 0 1 2 3 1) p := by
  intro p hp
  obtain ⟨i, j, rfl, hp⟩ := F.inBounds2.1 hp
  simp only [exRd, F.cell2d, F.colMajor]
  have x : (1 : Rat) ≤ (i : Rat) + 1 + 5 * j := by exact_mod_cast (by omega : (1 : Int) ≤ i + 1 + 5 * j)
  norm_num
  nlinarith

/-- the reaction coefficient of the examples is at least 3 in the box -/
theorem exCell3 : ∀ p, F.InBounds [(0, 1), (1, 2), (2, 3)] p → (3 : Rat) ≤ 3 * exRd (F.cell3d ⟨0, 0⟩ 0 1 2 1 2 3 1) p := by
  intro p hp
  obtain ⟨i, j, k, rfl, hp⟩ := F.inBounds3.1 hp
  simp only [exRd, F.cell3d, F.colMajor]
  have x : (1 : Rat) ≤ (i : Rat) + 1 + 4 * (j + 4 * (k - 1)) := by exact_mod_cast (by omega : (1 : Int) ≤ i + 1 + 4 * (j + 4 * (k - 1)))
  norm_num
  nlinarith

/-- 1D, diffusion operator with cell coefficients: if the unknowns of two runs differ from each other by at most `E` in the cells around the box and the results by at most `c E`, `c` a lower bound of the reaction coefficient, the unknowns differ by at most `E` in the box. -/
theorem C70_v1_1d {i0 i1 agcw gcw rgcw : Int} {alpha beta : T} {dx : Nat → T} {a u b0 f0 res : Ptr} {β1 β2 : Nat → Backend} {β3 β4 : Nat → Backend} {m m' : Mem T} {A B0 U V : List Int → T} {c E : T}
    (hβ1 : ∀ n, ValidBackend (β1 n)) (hβ2 : ∀ n, ValidBackend (β2 n)) (hβ3 : ∀ n, ValidBackend (β3 n)) (hβ4 : ∀ n, ValidBackend (β4 n)) (hi : i0 ≤ i1) (hg : 1 ≤ gcw) (hagcw : 0 ≤ agcw) (hrgcw : 0 ≤ rgcw)
    (h : F.Args m [(F.cell1d a i0 i1 agcw), (F.cell1d u i0 i1 gcw), (F.face1d b0 i0 i1 0)] [(F.face1d f0 i0 i1 0), (F.cell1d res i0 i1 rgcw)]) (h' : F.Args m' [(F.cell1d a i0 i1 agcw), (F.cell1d u i0 i1 gcw), (F.face1d b0 i0 i1 0)] [(F.face1d f0 i0 i1 0), (F.cell1d res i0 i1 rgcw)])
    (hr : F.Apart (F.cell1d res i0 i1 rgcw) (F.face1d f0 i0 i1 0))
    (hA : F.Holds m (F.cell1d a i0 i1 agcw) A) (hB0 : F.Holds m (F.face1d b0 i0 i1 0) B0) (hU : F.Holds m (F.cell1d u i0 i1 gcw) U)
    (hA' : F.Holds m' (F.cell1d a i0 i1 agcw) A) (hB0' : F.Holds m' (F.face1d b0 i0 i1 0) B0) (hV : F.Holds m' (F.cell1d u i0 i1 gcw) V)
    (hUV : ∀ p, F.InBounds [(i0 - 1, i1 + 1)] p → ¬ F.InBounds [(i0, i1)] p → |U p - V p| ≤ E) (hc : ∀ p, F.InBounds [(i0, i1)] p → c ≤ alpha * A p) (he : F.Elliptic1 i0 i1 alpha beta dx A B0) :
    ∃ m1 m2 p1 p2, ∃ R S : List Int → T, Cuda.flux1d i0 i1 dx b0 gcw u f0 β1 m = .ok m1 ∧ Cuda.diffusionV1Apply1d i0 i1 alpha beta dx agcw a gcw u f0 rgcw res β2 m1 = .ok m2 ∧
      (∀ p, F.InBounds [(i0, i1)] p → F.El m2 (F.cell1d res i0 i1 rgcw) p (R p)) ∧
      Cuda.flux1d i0 i1 dx b0 gcw u f0 β3 m' = .ok p1 ∧ Cuda.diffusionV1Apply1d i0 i1 alpha beta dx agcw a gcw u f0 rgcw res β4 p1 = .ok p2 ∧
      (∀ p, F.InBounds [(i0, i1)] p → F.El p2 (F.cell1d res i0 i1 rgcw) p (S p)) ∧
      ((∀ p, F.InBounds [(i0, i1)] p → |R p - S p| ≤ c * E) → ∀ p, F.InBounds [(i0, i1)] p → |U p - V p| ≤ E) := by
  obtain ⟨m1, m2, R, c1, c2, e1, hR⟩ := energy_v1_1 (alpha := alpha) (beta := beta) (dx := dx) hβ1 hβ2 hi hg hagcw hrgcw h hr hA hB0 hU
  obtain ⟨p1, p2, S, d1, d2, e2, hS⟩ := energy_v1_1 (alpha := alpha) (beta := beta) (dx := dx) hβ3 hβ4 hi hg hagcw hrgcw h' hr hA' hB0' hV
  refine ⟨m1, m2, p1, p2, R, S, c1, c2, e1, d1, d2, e2, fun hRS p hp => ?_⟩
  have hE : 0 ≤ E := (abs_nonneg _).trans (hUV [i0 - 1] (F.inBounds1.2 ⟨i0 - 1, rfl, by omega⟩) fun h => by simp [F.InBounds] at h)
  have hRS' : ∀ i, i0 ≤ i → i ≤ i1 → _ ∧ _ := fun i h0 h1 => abs_le.1 (hR i h0 h1 ▸ hS i h0 h1 ▸ hRS [i] (F.inBounds1.2 ⟨i, rfl, by omega⟩))
  have a := he.near (c := c) (E := E) hi hE (fun i h0 h1 => hc [i] (F.inBounds1.2 ⟨i, rfl, by omega⟩)) (fun p hw hb => (abs_le.1 (hUV p hw hb)).2) (fun i h0 h1 => (hRS' i h0 h1).2) p hp
  have b := he.near (c := c) (E := E) (U := V) (V := U) hi hE (fun i h0 h1 => hc [i] (F.inBounds1.2 ⟨i, rfl, by omega⟩)) (fun p hw hb => by have := (abs_le.1 (hUV p hw hb)).1; linarith) (fun i h0 h1 => by have := (hRS' i h0 h1).1; linarith) p hp
  exact abs_le.2 ⟨by linarith, a⟩

example : ∃ m1 m2 p1 p2, ∃ R S : List Int → Rat, Cuda.flux1d 0 3 exDx ⟨2, 0⟩ 2 ⟨1, 0⟩ ⟨5, 0⟩ (fun _ => revBackend) (exDir 1 5 1) = .ok m1 ∧ Cuda.diffusionV1Apply1d 0 3 3 2 exDx 1 ⟨0, 0⟩ 2 ⟨1, 0⟩ ⟨5, 0⟩ 1 ⟨8, 0⟩ (fun _ => seqBackend) m1 = .ok m2 ∧
      (∀ p, F.InBounds [(0, 3)] p → F.El m2 (F.cell1d ⟨8, 0⟩ 0 3 1) p (R p)) ∧
      Cuda.flux1d 0 3 exDx ⟨2, 0⟩ 2 ⟨1, 0⟩ ⟨5, 0⟩ (fun _ => seqBackend) (exDir 1 3 2) = .ok p1 ∧ Cuda.diffusionV1Apply1d 0 3 3 2 exDx 1 ⟨0, 0⟩ 2 ⟨1, 0⟩ ⟨5, 0⟩ 1 ⟨8, 0⟩ (fun _ => revBackend) p1 = .ok p2 ∧
      (∀ p, F.InBounds [(0, 3)] p → F.El p2 (F.cell1d ⟨8, 0⟩ 0 3 1) p (S p)) ∧
      ((∀ p, F.InBounds [(0, 3)] p → |R p - S p| ≤ 3 * 7) → ∀ p, F.InBounds [(0, 3)] p → |exIns 1 5 p - exIns 1 3 p| ≤ 7) :=
  C70_v1_1d (T := Rat) (fun _ => revBackend_ok) (fun _ => seqBackend_ok) (fun _ => seqBackend_ok) (fun _ => revBackend_ok) (by decide) (by decide) (by decide) (by decide) (exDir_args (by ex_args)) (exDir_args (by ex_args)) (apart_blk (by decide))
    (exDir_rd (by decide) (exRat_ok rfl (by decide) (by decide))) (exDir_rd (by decide) (exRat_ok rfl (by decide) (by decide))) exDir_u1 (exDir_rd (by decide) (exRat_ok rfl (by decide) (by decide))) (exDir_rd (by decide) (exRat_ok rfl (by decide) (by decide))) exDir_u1 (fun p hw hp => by rw [exIns_zero1 p hp, exIns_zero1 p hp]; norm_num) exCell1 exEll_v1_1

/-- 1D, diffusion operator with constant reaction: if the unknowns of two runs differ from each other by at most `E` in the cells around the box and the results by at most `c E`, `c` a lower bound of the reaction coefficient, the unknowns differ by at most `E` in the box. -/
theorem C70_v2_1d {i0 i1 gcw rgcw : Int} {alpha beta : T} {dx : Nat → T} {u b0 f0 res : Ptr} {β1 β2 : Nat → Backend} {β3 β4 : Nat → Backend} {m m' : Mem T} {B0 U V : List Int → T} {c E : T}
    (hβ1 : ∀ n, ValidBackend (β1 n)) (hβ2 : ∀ n, ValidBackend (β2 n)) (hβ3 : ∀ n, ValidBackend (β3 n)) (hβ4 : ∀ n, ValidBackend (β4 n)) (hi : i0 ≤ i1) (hg : 1 ≤ gcw) (hrgcw : 0 ≤ rgcw)
    (h : F.Args m [(F.cell1d u i0 i1 gcw), (F.face1d b0 i0 i1 0)] [(F.face1d f0 i0 i1 0), (F.cell1d res i0 i1 rgcw)]) (h' : F.Args m' [(F.cell1d u i0 i1 gcw), (F.face1d b0 i0 i1 0)] [(F.face1d f0 i0 i1 0), (F.cell1d res i0 i1 rgcw)])
    (hr : F.Apart (F.cell1d res i0 i1 rgcw) (F.face1d f0 i0 i1 0))
    (hB0 : F.Holds m (F.face1d b0 i0 i1 0) B0) (hU : F.Holds m (F.cell1d u i0 i1 gcw) U)
    (hB0' : F.Holds m' (F.face1d b0 i0 i1 0) B0) (hV : F.Holds m' (F.cell1d u i0 i1 gcw) V)
    (hUV : ∀ p, F.InBounds [(i0 - 1, i1 + 1)] p → ¬ F.InBounds [(i0, i1)] p → |U p - V p| ≤ E) (hc : c ≤ alpha) (he : F.Elliptic1 i0 i1 alpha beta dx (fun _ => 1) B0) :
    ∃ m1 m2 p1 p2, ∃ R S : List Int → T, Cuda.flux1d i0 i1 dx b0 gcw u f0 β1 m = .ok m1 ∧ Cuda.diffusionV2Apply1d i0 i1 alpha beta dx gcw u f0 rgcw res β2 m1 = .ok m2 ∧
      (∀ p, F.InBounds [(i0, i1)] p → F.El m2 (F.cell1d res i0 i1 rgcw) p (R p)) ∧
      Cuda.flux1d i0 i1 dx b0 gcw u f0 β3 m' = .ok p1 ∧ Cuda.diffusionV2Apply1d i0 i1 alpha beta dx gcw u f0 rgcw res β4 p1 = .ok p2 ∧
      (∀ p, F.InBounds [(i0, i1)] p → F.El p2 (F.cell1d res i0 i1 rgcw) p (S p)) ∧
      ((∀ p, F.InBounds [(i0, i1)] p → |R p - S p| ≤ c * E) → ∀ p, F.InBounds [(i0, i1)] p → |U p - V p| ≤ E) := by
  obtain ⟨m1, m2, R, c1, c2, e1, hR⟩ := energy_v2_1 (alpha := alpha) (beta := beta) (dx := dx) hβ1 hβ2 hi hg hrgcw h hr hB0 hU
  obtain ⟨p1, p2, S, d1, d2, e2, hS⟩ := energy_v2_1 (alpha := alpha) (beta := beta) (dx := dx) hβ3 hβ4 hi hg hrgcw h' hr hB0' hV
  refine ⟨m1, m2, p1, p2, R, S, c1, c2, e1, d1, d2, e2, fun hRS p hp => ?_⟩
  have hE : 0 ≤ E := (abs_nonneg _).trans (hUV [i0 - 1] (F.inBounds1.2 ⟨i0 - 1, rfl, by omega⟩) fun h => by simp [F.InBounds] at h)
  have hRS' : ∀ i, i0 ≤ i → i ≤ i1 → _ ∧ _ := fun i h0 h1 => abs_le.1 (hR i h0 h1 ▸ hS i h0 h1 ▸ hRS [i] (F.inBounds1.2 ⟨i, rfl, by omega⟩))
  have a := he.near (c := c) (E := E) hi hE (fun i h0 h1 => by simpa using hc) (fun p hw hb => (abs_le.1 (hUV p hw hb)).2) (fun i h0 h1 => (hRS' i h0 h1).2) p hp
  have b := he.near (c := c) (E := E) (U := V) (V := U) hi hE (fun i h0 h1 => by simpa using hc) (fun p hw hb => by have := (abs_le.1 (hUV p hw hb)).1; linarith) (fun i h0 h1 => by have := (hRS' i h0 h1).1; linarith) p hp
  exact abs_le.2 ⟨by linarith, a⟩

example : ∃ m1 m2 p1 p2, ∃ R S : List Int → Rat, Cuda.flux1d 0 3 exDx ⟨2, 0⟩ 2 ⟨1, 0⟩ ⟨5, 0⟩ (fun _ => revBackend) (exDir 1 5 1) = .ok m1 ∧ Cuda.diffusionV2Apply1d 0 3 3 2 exDx 2 ⟨1, 0⟩ ⟨5, 0⟩ 1 ⟨8, 0⟩ (fun _ => seqBackend) m1 = .ok m2 ∧
      (∀ p, F.InBounds [(0, 3)] p → F.El m2 (F.cell1d ⟨8, 0⟩ 0 3 1) p (R p)) ∧
      Cuda.flux1d 0 3 exDx ⟨2, 0⟩ 2 ⟨1, 0⟩ ⟨5, 0⟩ (fun _ => seqBackend) (exDir 1 3 2) = .ok p1 ∧ Cuda.diffusionV2Apply1d 0 3 3 2 exDx 2 ⟨1, 0⟩ ⟨5, 0⟩ 1 ⟨8, 0⟩ (fun _ => revBackend) p1 = .ok p2 ∧
      (∀ p, F.InBounds [(0, 3)] p → F.El p2 (F.cell1d ⟨8, 0⟩ 0 3 1) p (S p)) ∧
      ((∀ p, F.InBounds [(0, 3)] p → |R p - S p| ≤ 3 * 7) → ∀ p, F.InBounds [(0, 3)] p → |exIns 1 5 p - exIns 1 3 p| ≤ 7) :=
  C70_v2_1d (T := Rat) (fun _ => revBackend_ok) (fun _ => seqBackend_ok) (fun _ => seqBackend_ok) (fun _ => revBackend_ok) (by decide) (by decide) (by decide) (exDir_args (by ex_args)) (exDir_args (by ex_args)) (apart_blk (by decide))
    (exDir_rd (by decide) (exRat_ok rfl (by decide) (by decide))) exDir_u1 (exDir_rd (by decide) (exRat_ok rfl (by decide) (by decide))) exDir_u1 (fun p hw hp => by rw [exIns_zero1 p hp, exIns_zero1 p hp]; norm_num) (by norm_num) exEll_v2_1

/-- 1D, Poisson operator: if the unknowns of two runs differ by at most `D` in the cells around the box and the results by at most `t`, the unknowns differ by at most `D` plus `t` over `2 beta` times the product of the distances to the two layers of cells next to the box, along each axis. -/
theorem C70_poisson_1d {i0 i1 gcw rgcw : Int} {beta : T} {dx : Nat → T} {u f0 res : Ptr} {β1 β2 : Nat → Backend} {β3 β4 : Nat → Backend} {m m' : Mem T} {U V : List Int → T} {D : T}
    (hβ1 : ∀ n, ValidBackend (β1 n)) (hβ2 : ∀ n, ValidBackend (β2 n)) (hβ3 : ∀ n, ValidBackend (β3 n)) (hβ4 : ∀ n, ValidBackend (β4 n)) (hi : i0 ≤ i1) (hg : 1 ≤ gcw) (hrgcw : 0 ≤ rgcw)
    (h : F.Args m [(F.cell1d u i0 i1 gcw)] [(F.face1d f0 i0 i1 0), (F.cell1d res i0 i1 rgcw)]) (h' : F.Args m' [(F.cell1d u i0 i1 gcw)] [(F.face1d f0 i0 i1 0), (F.cell1d res i0 i1 rgcw)])
    (hr : F.Apart (F.cell1d res i0 i1 rgcw) (F.face1d f0 i0 i1 0))
    (hU : F.Holds m (F.cell1d u i0 i1 gcw) U)
    (hV : F.Holds m' (F.cell1d u i0 i1 gcw) V)
    (hUV : ∀ p, F.InBounds [(i0 - 1, i1 + 1)] p → ¬ F.InBounds [(i0, i1)] p → |U p - V p| ≤ D) (he : F.Elliptic1 i0 i1 0 beta dx (fun _ => 1) (fun _ => 1)) :
    ∃ m1 m2 p1 p2, ∃ R S : List Int → T, Cuda.poissonFlux1d i0 i1 dx gcw u f0 β1 m = .ok m1 ∧ Cuda.poissonV2Apply1d i0 i1 beta dx f0 rgcw res β2 m1 = .ok m2 ∧
      (∀ p, F.InBounds [(i0, i1)] p → F.El m2 (F.cell1d res i0 i1 rgcw) p (R p)) ∧
      Cuda.poissonFlux1d i0 i1 dx gcw u f0 β3 m' = .ok p1 ∧ Cuda.poissonV2Apply1d i0 i1 beta dx f0 rgcw res β4 p1 = .ok p2 ∧
      (∀ p, F.InBounds [(i0, i1)] p → F.El p2 (F.cell1d res i0 i1 rgcw) p (S p)) ∧
      ∀ t, (∀ p, F.InBounds [(i0, i1)] p → |R p - S p| ≤ t) → ∀ i, i0 ≤ i → i ≤ i1 →
        |U [i] - V [i]| ≤ D + t * (((i - i0 + 1 : Int) : T) * ((i1 + 1 - i : Int) : T) * (dx 0 * dx 0)) / (2 * beta) := by
  obtain ⟨m1, m2, R, c1, c2, e1, hR⟩ := energy_p_1 (beta := beta) (dx := dx) hβ1 hβ2 hi hg hrgcw h hr hU
  obtain ⟨p1, p2, S, d1, d2, e2, hS⟩ := energy_p_1 (beta := beta) (dx := dx) hβ3 hβ4 hi hg hrgcw h' hr hV
  refine ⟨m1, m2, p1, p2, R, S, c1, c2, e1, d1, d2, e2, fun t hRS i h0 h1 => ?_⟩
  have ht : 0 ≤ t := (abs_nonneg _).trans (hRS [i] (F.inBounds1.2 ⟨i, rfl, by omega⟩))
  have hRS' : ∀ i, i0 ≤ i → i ≤ i1 → _ ∧ _ := fun i h0 h1 => abs_le.1 (hR i h0 h1 ▸ hS i h0 h1 ▸ hRS [i] (F.inBounds1.2 ⟨i, rfl, by omega⟩))
  have a0 := he.barrier0 hi ht (fun p hw hb => (abs_le.1 (hUV p hw hb)).2) (fun i h0 h1 => (hRS' i h0 h1).2) i h0 h1
  have b0 := he.barrier0 (U := V) (V := U) (D := D) (t := t) hi ht (fun p hw hb => by have := (abs_le.1 (hUV p hw hb)).1; linarith) (fun i h0 h1 => by have := (hRS' i h0 h1).1; linarith) i h0 h1
  exact abs_le.2 ⟨by linarith, a0⟩

example : ∃ m1 m2 p1 p2, ∃ R S : List Int → Rat, Cuda.poissonFlux1d 0 3 exDx 2 ⟨1, 0⟩ ⟨5, 0⟩ (fun _ => revBackend) (exDir 1 5 1) = .ok m1 ∧ Cuda.poissonV2Apply1d 0 3 2 exDx ⟨5, 0⟩ 1 ⟨8, 0⟩ (fun _ => seqBackend) m1 = .ok m2 ∧
      (∀ p, F.InBounds [(0, 3)] p → F.El m2 (F.cell1d ⟨8, 0⟩ 0 3 1) p (R p)) ∧
      Cuda.poissonFlux1d 0 3 exDx 2 ⟨1, 0⟩ ⟨5, 0⟩ (fun _ => seqBackend) (exDir 1 3 2) = .ok p1 ∧ Cuda.poissonV2Apply1d 0 3 2 exDx ⟨5, 0⟩ 1 ⟨8, 0⟩ (fun _ => revBackend) p1 = .ok p2 ∧
      (∀ p, F.InBounds [(0, 3)] p → F.El p2 (F.cell1d ⟨8, 0⟩ 0 3 1) p (S p)) ∧
      ∀ t, (∀ p, F.InBounds [(0, 3)] p → |R p - S p| ≤ t) → ∀ i, 0 ≤ i → i ≤ 3 →
        |exIns 1 5 [i] - exIns 1 3 [i]| ≤ 0 + t * (((i - 0 + 1 : Int) : Rat) * ((3 + 1 - i : Int) : Rat) * (exDx 0 * exDx 0)) / (2 * 2) :=
  C70_poisson_1d (T := Rat) (fun _ => revBackend_ok) (fun _ => seqBackend_ok) (fun _ => seqBackend_ok) (fun _ => revBackend_ok) (by decide) (by decide) (by decide) (exDir_args (by ex_args)) (exDir_args (by ex_args)) (apart_blk (by decide))
     exDir_u1  exDir_u1 (fun p hw hp => by rw [exIns_zero1 p hp, exIns_zero1 p hp]; norm_num) exEll_p_1

/-- 2D, diffusion operator with cell coefficients: if the unknowns of two runs differ from each other by at most `E` in the cells around the box and the results by at most `c E`, `c` a lower bound of the reaction coefficient, the unknowns differ by at most `E` in the box. -/
theorem C70_v1_2d {i0 j0 i1 j1 agcw gcw rgcw : Int} {alpha beta : T} {dx : Nat → T} {a u b0 b1 f0 f1 res : Ptr} {β1 β2 : Nat → Backend} {β3 β4 : Nat → Backend} {m m' : Mem T} {A B0 B1 U V : List Int → T} {c E : T}
    (hβ1 : ∀ n, ValidBackend (β1 n)) (hβ2 : ∀ n, ValidBackend (β2 n)) (hβ3 : ∀ n, ValidBackend (β3 n)) (hβ4 : ∀ n, ValidBackend (β4 n)) (hi : i0 ≤ i1) (hj : j0 ≤ j1) (hg : 1 ≤ gcw) (hagcw : 0 ≤ agcw) (hrgcw : 0 ≤ rgcw)
    (h : F.Args m [(F.cell2d a i0 j0 i1 j1 agcw), (F.cell2d u i0 j0 i1 j1 gcw), (F.face2d0 b0 i0 j0 i1 j1 0), (F.face2d1 b1 i0 j0 i1 j1 0)] [(F.face2d0 f0 i0 j0 i1 j1 0), (F.face2d1 f1 i0 j0 i1 j1 0), (F.cell2d res i0 j0 i1 j1 rgcw)]) (h' : F.Args m' [(F.cell2d a i0 j0 i1 j1 agcw), (F.cell2d u i0 j0 i1 j1 gcw), (F.face2d0 b0 i0 j0 i1 j1 0), (F.face2d1 b1 i0 j0 i1 j1 0)] [(F.face2d0 f0 i0 j0 i1 j1 0), (F.face2d1 f1 i0 j0 i1 j1 0), (F.cell2d res i0 j0 i1 j1 rgcw)])
    (hp : F.Apart (F.face2d0 f0 i0 j0 i1 j1 0) (F.face2d1 f1 i0 j0 i1 j1 0))
    (hr : F.Apart (F.cell2d res i0 j0 i1 j1 rgcw) (F.face2d0 f0 i0 j0 i1 j1 0) ∧ F.Apart (F.cell2d res i0 j0 i1 j1 rgcw) (F.face2d1 f1 i0 j0 i1 j1 0))
    (hA : F.Holds m (F.cell2d a i0 j0 i1 j1 agcw) A) (hB0 : F.Holds m (F.face2d0 b0 i0 j0 i1 j1 0) B0) (hB1 : F.Holds m (F.face2d1 b1 i0 j0 i1 j1 0) B1) (hU : F.Holds m (F.cell2d u i0 j0 i1 j1 gcw) U)
    (hA' : F.Holds m' (F.cell2d a i0 j0 i1 j1 agcw) A) (hB0' : F.Holds m' (F.face2d0 b0 i0 j0 i1 j1 0) B0) (hB1' : F.Holds m' (F.face2d1 b1 i0 j0 i1 j1 0) B1) (hV : F.Holds m' (F.cell2d u i0 j0 i1 j1 gcw) V)
    (hUV : ∀ p, F.InBounds [(i0 - 1, i1 + 1), (j0 - 1, j1 + 1)] p → ¬ F.InBounds [(i0, i1), (j0, j1)] p → |U p - V p| ≤ E) (hc : ∀ p, F.InBounds [(i0, i1), (j0, j1)] p → c ≤ alpha * A p) (he : F.Elliptic2 i0 j0 i1 j1 alpha beta dx A B0 B1) :
    ∃ m1 m2 p1 p2, ∃ R S : List Int → T, Cuda.flux2d i0 j0 i1 j1 dx b0 b1 gcw u f0 f1 β1 m = .ok m1 ∧ Cuda.diffusionV1Apply2d i0 i1 j0 j1 alpha beta dx agcw a gcw u f0 f1 rgcw res β2 m1 = .ok m2 ∧
      (∀ p, F.InBounds [(i0, i1), (j0, j1)] p → F.El m2 (F.cell2d res i0 j0 i1 j1 rgcw) p (R p)) ∧
      Cuda.flux2d i0 j0 i1 j1 dx b0 b1 gcw u f0 f1 β3 m' = .ok p1 ∧ Cuda.diffusionV1Apply2d i0 i1 j0 j1 alpha beta dx agcw a gcw u f0 f1 rgcw res β4 p1 = .ok p2 ∧
      (∀ p, F.InBounds [(i0, i1), (j0, j1)] p → F.El p2 (F.cell2d res i0 j0 i1 j1 rgcw) p (S p)) ∧
      ((∀ p, F.InBounds [(i0, i1), (j0, j1)] p → |R p - S p| ≤ c * E) → ∀ p, F.InBounds [(i0, i1), (j0, j1)] p → |U p - V p| ≤ E) := by
  obtain ⟨m1, m2, R, c1, c2, e1, hR⟩ := energy_v1_2 (alpha := alpha) (beta := beta) (dx := dx) hβ1 hβ2 hi hj hg hagcw hrgcw h hp hr hA hB0 hB1 hU
  obtain ⟨p1, p2, S, d1, d2, e2, hS⟩ := energy_v1_2 (alpha := alpha) (beta := beta) (dx := dx) hβ3 hβ4 hi hj hg hagcw hrgcw h' hp hr hA' hB0' hB1' hV
  refine ⟨m1, m2, p1, p2, R, S, c1, c2, e1, d1, d2, e2, fun hRS p hp => ?_⟩
  have hE : 0 ≤ E := (abs_nonneg _).trans (hUV [i0 - 1, j0] (F.inBounds2.2 ⟨i0 - 1, j0, rfl, by omega⟩) fun h => by simp [F.InBounds] at h)
  have hRS' : ∀ i j, i0 ≤ i → i ≤ i1 → j0 ≤ j → j ≤ j1 → _ ∧ _ := fun i j h0 h1 h2 h3 => abs_le.1 (hR i j h0 h1 h2 h3 ▸ hS i j h0 h1 h2 h3 ▸ hRS [i, j] (F.inBounds2.2 ⟨i, j, rfl, by omega⟩))
  have a := he.near (c := c) (E := E) hi hj hE (fun i j h0 h1 h2 h3 => hc [i, j] (F.inBounds2.2 ⟨i, j, rfl, by omega⟩)) (fun p hw hb => (abs_le.1 (hUV p hw hb)).2) (fun i j h0 h1 h2 h3 => (hRS' i j h0 h1 h2 h3).2) p hp
  have b := he.near (c := c) (E := E) (U := V) (V := U) hi hj hE (fun i j h0 h1 h2 h3 => hc [i, j] (F.inBounds2.2 ⟨i, j, rfl, by omega⟩)) (fun p hw hb => by have := (abs_le.1 (hUV p hw hb)).1; linarith) (fun i j h0 h1 h2 h3 => by have := (hRS' i j h0 h1 h2 h3).1; linarith) p hp
  exact abs_le.2 ⟨by linarith, a⟩

example : ∃ m1 m2 p1 p2, ∃ R S : List Int → Rat, Cuda.flux2d 0 1 2 3 exDx ⟨2, 0⟩ ⟨3, 0⟩ 2 ⟨1, 0⟩ ⟨5, 0⟩ ⟨6, 0⟩ (fun _ => revBackend) (exDir 2 5 1) = .ok m1 ∧ Cuda.diffusionV1Apply2d 0 2 1 3 3 2 exDx 1 ⟨0, 0⟩ 2 ⟨1, 0⟩ ⟨5, 0⟩ ⟨6, 0⟩ 1 ⟨8, 0⟩ (fun _ => seqBackend) m1 = .ok m2 ∧
      (∀ p, F.InBounds [(0, 2), (1, 3)] p → F.El m2 (F.cell2d ⟨8, 0⟩ 0 1 2 3 1) p (R p)) ∧
      Cuda.flux2d 0 1 2 3 exDx ⟨2, 0⟩ ⟨3, 0⟩ 2 ⟨1, 0⟩ ⟨5, 0⟩ ⟨6, 0⟩ (fun _ => seqBackend) (exDir 2 3 2) = .ok p1 ∧ Cuda.diffusionV1Apply2d 0 2 1 3 3 2 exDx 1 ⟨0, 0⟩ 2 ⟨1, 0⟩ ⟨5, 0⟩ ⟨6, 0⟩ 1 ⟨8, 0⟩ (fun _ => revBackend) p1 = .ok p2 ∧
      (∀ p, F.InBounds [(0, 2), (1, 3)] p → F.El p2 (F.cell2d ⟨8, 0⟩ 0 1 2 3 1) p (S p)) ∧
      ((∀ p, F.InBounds [(0, 2), (1, 3)] p → |R p - S p| ≤ 3 * 7) → ∀ p, F.InBounds [(0, 2), (1, 3)] p → |exIns 2 5 p - exIns 2 3 p| ≤ 7) :=
  C70_v1_2d (T := Rat) (fun _ => revBackend_ok) (fun _ => seqBackend_ok) (fun _ => seqBackend_ok) (fun _ => revBackend_ok) (by decide) (by decide) (by decide) (by decide) (by decide) (exDir_args (by ex_args)) (exDir_args (by ex_args)) (apart_blk (by decide)) ⟨apart_blk (by decide), apart_blk (by decide)⟩
    (exDir_rd (by decide) (exRat_ok rfl (by decide) (by decide))) (exDir_rd (by decide) (exRat_ok rfl (by decide) (by decide))) (exDir_rd (by decide) (exRat_ok rfl (by decide) (by decide))) exDir_u2 (exDir_rd (by decide) (exRat_ok rfl (by decide) (by decide))) (exDir_rd (by decide) (exRat_ok rfl (by decide) (by decide))) (exDir_rd (by decide) (exRat_ok rfl (by decide) (by decide))) exDir_u2 (fun p hw hp => by rw [exIns_zero2 p hp, exIns_zero2 p hp]; norm_num) exCell2 exEll_v1_2

/-- 2D, diffusion operator with constant reaction: if the unknowns of two runs differ from each other by at most `E` in the cells around the box and the results by at most `c E`, `c` a lower bound of the reaction coefficient, the unknowns differ by at most `E` in the box. -/
theorem C70_v2_2d {i0 j0 i1 j1 gcw rgcw : Int} {alpha beta : T} {dx : Nat → T} {u b0 b1 f0 f1 res : Ptr} {β1 β2 : Nat → Backend} {β3 β4 : Nat → Backend} {m m' : Mem T} {B0 B1 U V : List Int → T} {c E : T}
    (hβ1 : ∀ n, ValidBackend (β1 n)) (hβ2 : ∀ n, ValidBackend (β2 n)) (hβ3 : ∀ n, ValidBackend (β3 n)) (hβ4 : ∀ n, ValidBackend (β4 n)) (hi : i0 ≤ i1) (hj : j0 ≤ j1) (hg : 1 ≤ gcw) (hrgcw : 0 ≤ rgcw)
    (h : F.Args m [(F.cell2d u i0 j0 i1 j1 gcw), (F.face2d0 b0 i0 j0 i1 j1 0), (F.face2d1 b1 i0 j0 i1 j1 0)] [(F.face2d0 f0 i0 j0 i1 j1 0), (F.face2d1 f1 i0 j0 i1 j1 0), (F.cell2d res i0 j0 i1 j1 rgcw)]) (h' : F.Args m' [(F.cell2d u i0 j0 i1 j1 gcw), (F.face2d0 b0 i0 j0 i1 j1 0), (F.face2d1 b1 i0 j0 i1 j1 0)] [(F.face2d0 f0 i0 j0 i1 j1 0), (F.face2d1 f1 i0 j0 i1 j1 0), (F.cell2d res i0 j0 i1 j1 rgcw)])
    (hp : F.Apart (F.face2d0 f0 i0 j0 i1 j1 0) (F.face2d1 f1 i0 j0 i1 j1 0))
    (hr : F.Apart (F.cell2d res i0 j0 i1 j1 rgcw) (F.face2d0 f0 i0 j0 i1 j1 0) ∧ F.Apart (F.cell2d res i0 j0 i1 j1 rgcw) (F.face2d1 f1 i0 j0 i1 j1 0))
    (hB0 : F.Holds m (F.face2d0 b0 i0 j0 i1 j1 0) B0) (hB1 : F.Holds m (F.face2d1 b1 i0 j0 i1 j1 0) B1) (hU : F.Holds m (F.cell2d u i0 j0 i1 j1 gcw) U)
    (hB0' : F.Holds m' (F.face2d0 b0 i0 j0 i1 j1 0) B0) (hB1' : F.Holds m' (F.face2d1 b1 i0 j0 i1 j1 0) B1) (hV : F.Holds m' (F.cell2d u i0 j0 i1 j1 gcw) V)
    (hUV : ∀ p, F.InBounds [(i0 - 1, i1 + 1), (j0 - 1, j1 + 1)] p → ¬ F.InBounds [(i0, i1), (j0, j1)] p → |U p - V p| ≤ E) (hc : c ≤ alpha) (he : F.Elliptic2 i0 j0 i1 j1 alpha beta dx (fun _ => 1) B0 B1) :
    ∃ m1 m2 p1 p2, ∃ R S : List Int → T, Cuda.flux2d i0 j0 i1 j1 dx b0 b1 gcw u f0 f1 β1 m = .ok m1 ∧ Cuda.diffusionV2Apply2d i0 i1 j0 j1 alpha beta dx gcw u f0 f1 rgcw res β2 m1 = .ok m2 ∧
      (∀ p, F.InBounds [(i0, i1), (j0, j1)] p → F.El m2 (F.cell2d res i0 j0 i1 j1 rgcw) p (R p)) ∧
      Cuda.flux2d i0 j0 i1 j1 dx b0 b1 gcw u f0 f1 β3 m' = .ok p1 ∧ Cuda.diffusionV2Apply2d i0 i1 j0 j1 alpha beta dx gcw u f0 f1 rgcw res β4 p1 = .ok p2 ∧
      (∀ p, F.InBounds [(i0, i1), (j0, j1)] p → F.El p2 (F.cell2d res i0 j0 i1 j1 rgcw) p (S p)) ∧
      ((∀ p, F.InBounds [(i0, i1), (j0, j1)] p → |R p - S p| ≤ c * E) → ∀ p, F.InBounds [(i0, i1), (j0, j1)] p → |U p - V p| ≤ E) := by
  obtain ⟨m1, m2, R, c1, c2, e1, hR⟩ := energy_v2_2 (alpha := alpha) (beta := beta) (dx := dx) hβ1 hβ2 hi hj hg hrgcw h hp hr hB0 hB1 hU
  obtain ⟨p1, p2, S, d1, d2, e2, hS⟩ := energy_v2_2 (alpha := alpha) (beta := beta) (dx := dx) hβ3 hβ4 hi hj hg hrgcw h' hp hr hB0' hB1' hV
  refine ⟨m1, m2, p1, p2, R, S, c1, c2, e1, d1, d2, e2, fun hRS p hp => ?_⟩
  have hE : 0 ≤ E := (abs_nonneg _).trans (hUV [i0 - 1, j0] (F.inBounds2.2 ⟨i0 - 1, j0, rfl, by omega⟩) fun h => by simp [F.InBounds] at h)
  have hRS' : ∀ i j, i0 ≤ i → i ≤ i1 → j0 ≤ j → j ≤ j1 → _ ∧ _ := fun i j h0 h1 h2 h3 => abs_le.1 (hR i j h0 h1 h2 h3 ▸ hS i j h0 h1 h2 h3 ▸ hRS [i, j] (F.inBounds2.2 ⟨i, j, rfl, by omega⟩))
  have a := he.near (c := c) (E := E) hi hj hE (fun i j h0 h1 h2 h3 => by simpa using hc) (fun p hw hb => (abs_le.1 (hUV p hw hb)).2) (fun i j h0 h1 h2 h3 => (hRS' i j h0 h1 h2 h3).2) p hp
  have b := he.near (c := c) (E := E) (U := V) (V := U) hi hj hE (fun i j h0 h1 h2 h3 => by simpa using hc) (fun p hw hb => by have := (abs_le.1 (hUV p hw hb)).1; linarith) (fun i j h0 h1 h2 h3 => by have := (hRS' i j h0 h1 h2 h3).1; linarith) p hp
  exact abs_le.2 ⟨by linarith, a⟩

example : ∃ m1 m2 p1 p2, ∃ R S : List Int → Rat, Cuda.flux2d 0 1 2 3 exDx ⟨2, 0⟩ ⟨3, 0⟩ 2 ⟨1, 0⟩ ⟨5, 0⟩ ⟨6, 0⟩ (fun _ => revBackend) (exDir 2 5 1) = .ok m1 ∧ Cuda.diffusionV2Apply2d 0 2 1 3 3 2 exDx 2 ⟨1, 0⟩ ⟨5, 0⟩ ⟨6, 0⟩ 1 ⟨8, 0⟩ (fun _ => seqBackend) m1 = .ok m2 ∧
      (∀ p, F.InBounds [(0, 2), (1, 3)] p → F.El m2 (F.cell2d ⟨8, 0⟩ 0 1 2 3 1) p (R p)) ∧
      Cuda.flux2d 0 1 2 3 exDx ⟨2, 0⟩ ⟨3, 0⟩ 2 ⟨1, 0⟩ ⟨5, 0⟩ ⟨6, 0⟩ (fun _ => seqBackend) (exDir 2 3 2) = .ok p1 ∧ Cuda.diffusionV2Apply2d 0 2 1 3 3 2 exDx 2 ⟨1, 0⟩ ⟨5, 0⟩ ⟨6, 0⟩ 1 ⟨8, 0⟩ (fun _ => revBackend) p1 = .ok p2 ∧
      (∀ p, F.InBounds [(0, 2), (1, 3)] p → F.El p2 (F.cell2d ⟨8, 0⟩ 0 1 2 3 1) p (S p)) ∧
      ((∀ p, F.InBounds [(0, 2), (1, 3)] p → |R p - S p| ≤ 3 * 7) → ∀ p, F.InBounds [(0, 2), (1, 3)] p → |exIns 2 5 p - exIns 2 3 p| ≤ 7) :=
  C70_v2_2d (T := Rat) (fun _ => revBackend_ok) (fun _ => seqBackend_ok) (fun _ => seqBackend_ok) (fun _ => revBackend_ok) (by decide) (by decide) (by decide) (by decide) (exDir_args (by ex_args)) (exDir_args (by ex_args)) (apart_blk (by decide)) ⟨apart_blk (by decide), apart_blk (by decide)⟩
    (exDir_rd (by decide) (exRat_ok rfl (by decide) (by decide))) (exDir_rd (by decide) (exRat_ok rfl (by decide) (by decide))) exDir_u2 (exDir_rd (by decide) (exRat_ok rfl (by decide) (by decide))) (exDir_rd (by decide) (exRat_ok rfl (by decide) (by decide))) exDir_u2 (fun p hw hp => by rw [exIns_zero2 p hp, exIns_zero2 p hp]; norm_num) (by norm_num) exEll_v2_2

/-- 2D, Poisson operator: if the unknowns of two runs differ by at most `D` in the cells around the box and the results by at most `t`, the unknowns differ by at most `D` plus `t` over `2 beta` times the product of the distances to the two layers of cells next to the box, along each axis. -/
theorem C70_poisson_2d {i0 j0 i1 j1 gcw rgcw : Int} {beta : T} {dx : Nat → T} {u f0 f1 res : Ptr} {β1 β2 : Nat → Backend} {β3 β4 : Nat → Backend} {m m' : Mem T} {U V : List Int → T} {D : T}
    (hβ1 : ∀ n, ValidBackend (β1 n)) (hβ2 : ∀ n, ValidBackend (β2 n)) (hβ3 : ∀ n, ValidBackend (β3 n)) (hβ4 : ∀ n, ValidBackend (β4 n)) (hi : i0 ≤ i1) (hj : j0 ≤ j1) (hg : 1 ≤ gcw) (hrgcw : 0 ≤ rgcw)
    (h : F.Args m [(F.cell2d u i0 j0 i1 j1 gcw)] [(F.face2d0 f0 i0 j0 i1 j1 0), (F.face2d1 f1 i0 j0 i1 j1 0), (F.cell2d res i0 j0 i1 j1 rgcw)]) (h' : F.Args m' [(F.cell2d u i0 j0 i1 j1 gcw)] [(F.face2d0 f0 i0 j0 i1 j1 0), (F.face2d1 f1 i0 j0 i1 j1 0), (F.cell2d res i0 j0 i1 j1 rgcw)])
    (hp : F.Apart (F.face2d0 f0 i0 j0 i1 j1 0) (F.face2d1 f1 i0 j0 i1 j1 0))
    (hr : F.Apart (F.cell2d res i0 j0 i1 j1 rgcw) (F.face2d0 f0 i0 j0 i1 j1 0) ∧ F.Apart (F.cell2d res i0 j0 i1 j1 rgcw) (F.face2d1 f1 i0 j0 i1 j1 0))
    (hU : F.Holds m (F.cell2d u i0 j0 i1 j1 gcw) U)
    (hV : F.Holds m' (F.cell2d u i0 j0 i1 j1 gcw) V)
    (hUV : ∀ p, F.InBounds [(i0 - 1, i1 + 1), (j0 - 1, j1 + 1)] p → ¬ F.InBounds [(i0, i1), (j0, j1)] p → |U p - V p| ≤ D) (he : F.Elliptic2 i0 j0 i1 j1 0 beta dx (fun _ => 1) (fun _ => 1) (fun _ => 1)) :
    ∃ m1 m2 p1 p2, ∃ R S : List Int → T, Cuda.poissonFlux2d i0 j0 i1 j1 dx gcw u f0 f1 β1 m = .ok m1 ∧ Cuda.poissonV2Apply2d i0 i1 j0 j1 beta dx f0 f1 rgcw res β2 m1 = .ok m2 ∧
      (∀ p, F.InBounds [(i0, i1), (j0, j1)] p → F.El m2 (F.cell2d res i0 j0 i1 j1 rgcw) p (R p)) ∧
      Cuda.poissonFlux2d i0 j0 i1 j1 dx gcw u f0 f1 β3 m' = .ok p1 ∧ Cuda.poissonV2Apply2d i0 i1 j0 j1 beta dx f0 f1 rgcw res β4 p1 = .ok p2 ∧
      (∀ p, F.InBounds [(i0, i1), (j0, j1)] p → F.El p2 (F.cell2d res i0 j0 i1 j1 rgcw) p (S p)) ∧
      ∀ t, (∀ p, F.InBounds [(i0, i1), (j0, j1)] p → |R p - S p| ≤ t) → ∀ i j, i0 ≤ i → i ≤ i1 → j0 ≤ j → j ≤ j1 →
        |U [i, j] - V [i, j]| ≤ D + t * (((i - i0 + 1 : Int) : T) * ((i1 + 1 - i : Int) : T) * (dx 0 * dx 0)) / (2 * beta) ∧
        |U [i, j] - V [i, j]| ≤ D + t * (((j - j0 + 1 : Int) : T) * ((j1 + 1 - j : Int) : T) * (dx 1 * dx 1)) / (2 * beta) := by
  obtain ⟨m1, m2, R, c1, c2, e1, hR⟩ := energy_p_2 (beta := beta) (dx := dx) hβ1 hβ2 hi hj hg hrgcw h hp hr hU
  obtain ⟨p1, p2, S, d1, d2, e2, hS⟩ := energy_p_2 (beta := beta) (dx := dx) hβ3 hβ4 hi hj hg hrgcw h' hp hr hV
  refine ⟨m1, m2, p1, p2, R, S, c1, c2, e1, d1, d2, e2, fun t hRS i j h0 h1 h2 h3 => ?_⟩
  have ht : 0 ≤ t := (abs_nonneg _).trans (hRS [i, j] (F.inBounds2.2 ⟨i, j, rfl, by omega⟩))
  have hRS' : ∀ i j, i0 ≤ i → i ≤ i1 → j0 ≤ j → j ≤ j1 → _ ∧ _ := fun i j h0 h1 h2 h3 => abs_le.1 (hR i j h0 h1 h2 h3 ▸ hS i j h0 h1 h2 h3 ▸ hRS [i, j] (F.inBounds2.2 ⟨i, j, rfl, by omega⟩))
  have a0 := he.barrier0 hi hj ht (fun p hw hb => (abs_le.1 (hUV p hw hb)).2) (fun i j h0 h1 h2 h3 => (hRS' i j h0 h1 h2 h3).2) i j h0 h1 h2 h3
  have b0 := he.barrier0 (U := V) (V := U) (D := D) (t := t) hi hj ht (fun p hw hb => by have := (abs_le.1 (hUV p hw hb)).1; linarith) (fun i j h0 h1 h2 h3 => by have := (hRS' i j h0 h1 h2 h3).1; linarith) i j h0 h1 h2 h3
  have a1 := he.barrier1 hi hj ht (fun p hw hb => (abs_le.1 (hUV p hw hb)).2) (fun i j h0 h1 h2 h3 => (hRS' i j h0 h1 h2 h3).2) i j h0 h1 h2 h3
  have b1 := he.barrier1 (U := V) (V := U) (D := D) (t := t) hi hj ht (fun p hw hb => by have := (abs_le.1 (hUV p hw hb)).1; linarith) (fun i j h0 h1 h2 h3 => by have := (hRS' i j h0 h1 h2 h3).1; linarith) i j h0 h1 h2 h3
  exact ⟨abs_le.2 ⟨by linarith, a0⟩, abs_le.2 ⟨by linarith, a1⟩⟩

example : ∃ m1 m2 p1 p2, ∃ R S : List Int → Rat, Cuda.poissonFlux2d 0 1 2 3 exDx 2 ⟨1, 0⟩ ⟨5, 0⟩ ⟨6, 0⟩ (fun _ => revBackend) (exDir 2 5 1) = .ok m1 ∧ Cuda.poissonV2Apply2d 0 2 1 3 2 exDx ⟨5, 0⟩ ⟨6, 0⟩ 1 ⟨8, 0⟩ (fun _ => seqBackend) m1 = .ok m2 ∧
      (∀ p, F.InBounds [(0, 2), (1, 3)] p → F.El m2 (F.cell2d ⟨8, 0⟩ 0 1 2 3 1) p (R p)) ∧
      Cuda.poissonFlux2d 0 1 2 3 exDx 2 ⟨1, 0⟩ ⟨5, 0⟩ ⟨6, 0⟩ (fun _ => seqBackend) (exDir 2 3 2) = .ok p1 ∧ Cuda.poissonV2Apply2d 0 2 1 3 2 exDx ⟨5, 0⟩ ⟨6, 0⟩ 1 ⟨8, 0⟩ (fun _ => revBackend) p1 = .ok p2 ∧
      (∀ p, F.InBounds [(0, 2), (1, 3)] p → F.El p2 (F.cell2d ⟨8, 0⟩ 0 1 2 3 1) p (S p)) ∧
      ∀ t, (∀ p, F.InBounds [(0, 2), (1, 3)] p → |R p - S p| ≤ t) → ∀ i j, 0 ≤ i → i ≤ 2 → 1 ≤ j → j ≤ 3 →
        |exIns 2 5 [i, j] - exIns 2 3 [i, j]| ≤ 0 + t * (((i - 0 + 1 : Int) : Rat) * ((2 + 1 - i : Int) : Rat) * (exDx 0 * exDx 0)) / (2 * 2) ∧
        |exIns 2 5 [i, j] - exIns 2 3 [i, j]| ≤ 0 + t * (((j - 1 + 1 : Int) : Rat) * ((3 + 1 - j : Int) : Rat) * (exDx 1 * exDx 1)) / (2 * 2) :=
  C70_poisson_2d (T := Rat) (fun _ => revBackend_ok) (fun _ => seqBackend_ok) (fun _ => seqBackend_ok) (fun _ => revBackend_ok) (by decide) (by decide) (by decide) (by decide) (exDir_args (by ex_args)) (exDir_args (by ex_args)) (apart_blk (by decide)) ⟨apart_blk (by decide), apart_blk (by decide)⟩
     exDir_u2  exDir_u2 (fun p hw hp => by rw [exIns_zero2 p hp, exIns_zero2 p hp]; norm_num) exEll_p_2

/-- 3D, diffusion operator with cell coefficients: if the unknowns of two runs differ from each other by at most `E` in the cells around the box and the results by at most `c E`, `c` a lower bound of the reaction coefficient, the unknowns differ by at most `E` in the box. -/
theorem C70_v1_3d {i0 j0 k0 i1 j1 k1 agcw gcw rgcw : Int} {alpha beta : T} {dx : Nat → T} {a u b0 b1 b2 f0 f1 f2 res : Ptr} {β1 β2 : Nat → Backend} {β3 β4 : Nat → Backend} {m m' : Mem T} {A B0 B1 B2 U V : List Int → T} {c E : T}
    (hβ1 : ∀ n, ValidBackend (β1 n)) (hβ2 : ∀ n, ValidBackend (β2 n)) (hβ3 : ∀ n, ValidBackend (β3 n)) (hβ4 : ∀ n, ValidBackend (β4 n)) (hi : i0 ≤ i1) (hj : j0 ≤ j1) (hk : k0 ≤ k1) (hg : 1 ≤ gcw) (hagcw : 0 ≤ agcw) (hrgcw : 0 ≤ rgcw)
    (h : F.Args m [(F.cell3d a i0 j0 k0 i1 j1 k1 agcw), (F.cell3d u i0 j0 k0 i1 j1 k1 gcw), (F.face3d0 b0 i0 j0 k0 i1 j1 k1 0), (F.face3d1 b1 i0 j0 k0 i1 j1 k1 0), (F.face3d2 b2 i0 j0 k0 i1 j1 k1 0)] [(F.face3d0 f0 i0 j0 k0 i1 j1 k1 0), (F.face3d1 f1 i0 j0 k0 i1 j1 k1 0), (F.face3d2 f2 i0 j0 k0 i1 j1 k1 0), (F.cell3d res i0 j0 k0 i1 j1 k1 rgcw)]) (h' : F.Args m' [(F.cell3d a i0 j0 k0 i1 j1 k1 agcw), (F.cell3d u i0 j0 k0 i1 j1 k1 gcw), (F.face3d0 b0 i0 j0 k0 i1 j1 k1 0), (F.face3d1 b1 i0 j0 k0 i1 j1 k1 0), (F.face3d2 b2 i0 j0 k0 i1 j1 k1 0)] [(F.face3d0 f0 i0 j0 k0 i1 j1 k1 0), (F.face3d1 f1 i0 j0 k0 i1 j1 k1 0), (F.face3d2 f2 i0 j0 k0 i1 j1 k1 0), (F.cell3d res i0 j0 k0 i1 j1 k1 rgcw)])
    (hp : F.Apart (F.face3d0 f0 i0 j0 k0 i1 j1 k1 0) (F.face3d1 f1 i0 j0 k0 i1 j1 k1 0) ∧ F.Apart (F.face3d0 f0 i0 j0 k0 i1 j1 k1 0) (F.face3d2 f2 i0 j0 k0 i1 j1 k1 0) ∧ F.Apart (F.face3d1 f1 i0 j0 k0 i1 j1 k1 0) (F.face3d2 f2 i0 j0 k0 i1 j1 k1 0))
    (hr : F.Apart (F.cell3d res i0 j0 k0 i1 j1 k1 rgcw) (F.face3d0 f0 i0 j0 k0 i1 j1 k1 0) ∧ F.Apart (F.cell3d res i0 j0 k0 i1 j1 k1 rgcw) (F.face3d1 f1 i0 j0 k0 i1 j1 k1 0) ∧ F.Apart (F.cell3d res i0 j0 k0 i1 j1 k1 rgcw) (F.face3d2 f2 i0 j0 k0 i1 j1 k1 0))
    (hA : F.Holds m (F.cell3d a i0 j0 k0 i1 j1 k1 agcw) A) (hB0 : F.Holds m (F.face3d0 b0 i0 j0 k0 i1 j1 k1 0) B0) (hB1 : F.Holds m (F.face3d1 b1 i0 j0 k0 i1 j1 k1 0) B1) (hB2 : F.Holds m (F.face3d2 b2 i0 j0 k0 i1 j1 k1 0) B2) (hU : F.Holds m (F.cell3d u i0 j0 k0 i1 j1 k1 gcw) U)
    (hA' : F.Holds m' (F.cell3d a i0 j0 k0 i1 j1 k1 agcw) A) (hB0' : F.Holds m' (F.face3d0 b0 i0 j0 k0 i1 j1 k1 0) B0) (hB1' : F.Holds m' (F.face3d1 b1 i0 j0 k0 i1 j1 k1 0) B1) (hB2' : F.Holds m' (F.face3d2 b2 i0 j0 k0 i1 j1 k1 0) B2) (hV : F.Holds m' (F.cell3d u i0 j0 k0 i1 j1 k1 gcw) V)
    (hUV : ∀ p, F.InBounds [(i0 - 1, i1 + 1), (j0 - 1, j1 + 1), (k0 - 1, k1 + 1)] p → ¬ F.InBounds [(i0, i1), (j0, j1), (k0, k1)] p → |U p - V p| ≤ E) (hc : ∀ p, F.InBounds [(i0, i1), (j0, j1), (k0, k1)] p → c ≤ alpha * A p) (he : F.Elliptic3 i0 j0 k0 i1 j1 k1 alpha beta dx A B0 B1 B2) :
    ∃ m1 m2 p1 p2, ∃ R S : List Int → T, Cuda.flux3d i0 j0 k0 i1 j1 k1 dx b0 b1 b2 gcw u f0 f1 f2 β1 m = .ok m1 ∧ Cuda.diffusionV1Apply3d i0 i1 j0 j1 k0 k1 alpha beta dx agcw a gcw u f0 f1 f2 rgcw res β2 m1 = .ok m2 ∧
      (∀ p, F.InBounds [(i0, i1), (j0, j1), (k0, k1)] p → F.El m2 (F.cell3d res i0 j0 k0 i1 j1 k1 rgcw) p (R p)) ∧
      Cuda.flux3d i0 j0 k0 i1 j1 k1 dx b0 b1 b2 gcw u f0 f1 f2 β3 m' = .ok p1 ∧ Cuda.diffusionV1Apply3d i0 i1 j0 j1 k0 k1 alpha beta dx agcw a gcw u f0 f1 f2 rgcw res β4 p1 = .ok p2 ∧
      (∀ p, F.InBounds [(i0, i1), (j0, j1), (k0, k1)] p → F.El p2 (F.cell3d res i0 j0 k0 i1 j1 k1 rgcw) p (S p)) ∧
      ((∀ p, F.InBounds [(i0, i1), (j0, j1), (k0, k1)] p → |R p - S p| ≤ c * E) → ∀ p, F.InBounds [(i0, i1), (j0, j1), (k0, k1)] p → |U p - V p| ≤ E) := by
  obtain ⟨m1, m2, R, c1, c2, e1, hR⟩ := energy_v1_3 (alpha := alpha) (beta := beta) (dx := dx) hβ1 hβ2 hi hj hk hg hagcw hrgcw h hp hr hA hB0 hB1 hB2 hU
  obtain ⟨p1, p2, S, d1, d2, e2, hS⟩ := energy_v1_3 (alpha := alpha) (beta := beta) (dx := dx) hβ3 hβ4 hi hj hk hg hagcw hrgcw h' hp hr hA' hB0' hB1' hB2' hV
  refine ⟨m1, m2, p1, p2, R, S, c1, c2, e1, d1, d2, e2, fun hRS p hp => ?_⟩
  have hE : 0 ≤ E := (abs_nonneg _).trans (hUV [i0 - 1, j0, k0] (F.inBounds3.2 ⟨i0 - 1, j0, k0, rfl, by omega⟩) fun h => by simp [F.InBounds] at h)
  have hRS' : ∀ i j k, i0 ≤ i → i ≤ i1 → j0 ≤ j → j ≤ j1 → k0 ≤ k → k ≤ k1 → _ ∧ _ := fun i j k h0 h1 h2 h3 h4 h5 => abs_le.1 (hR i j k h0 h1 h2 h3 h4 h5 ▸ hS i j k h0 h1 h2 h3 h4 h5 ▸ hRS [i, j, k] (F.inBounds3.2 ⟨i, j, k, rfl, by omega⟩))
  have a := he.near (c := c) (E := E) hi hj hk hE (fun i j k h0 h1 h2 h3 h4 h5 => hc [i, j, k] (F.inBounds3.2 ⟨i, j, k, rfl, by omega⟩)) (fun p hw hb => (abs_le.1 (hUV p hw hb)).2) (fun i j k h0 h1 h2 h3 h4 h5 => (hRS' i j k h0 h1 h2 h3 h4 h5).2) p hp
  have b := he.near (c := c) (E := E) (U := V) (V := U) hi hj hk hE (fun i j k h0 h1 h2 h3 h4 h5 => hc [i, j, k] (F.inBounds3.2 ⟨i, j, k, rfl, by omega⟩)) (fun p hw hb => by have := (abs_le.1 (hUV p hw hb)).1; linarith) (fun i j k h0 h1 h2 h3 h4 h5 => by have := (hRS' i j k h0 h1 h2 h3 h4 h5).1; linarith) p hp
  exact abs_le.2 ⟨by linarith, a⟩

example : ∃ m1 m2 p1 p2, ∃ R S : List Int → Rat, Cuda.flux3d 0 1 2 1 2 3 exDx ⟨2, 0⟩ ⟨3, 0⟩ ⟨4, 0⟩ 2 ⟨1, 0⟩ ⟨5, 0⟩ ⟨6, 0⟩ ⟨7, 0⟩ (fun _ => revBackend) (exDir 3 5 1) = .ok m1 ∧ Cuda.diffusionV1Apply3d 0 1 1 2 2 3 3 2 exDx 1 ⟨0, 0⟩ 2 ⟨1, 0⟩ ⟨5, 0⟩ ⟨6, 0⟩ ⟨7, 0⟩ 1 ⟨8, 0⟩ (fun _ => seqBackend) m1 = .ok m2 ∧
      (∀ p, F.InBounds [(0, 1), (1, 2), (2, 3)] p → F.El m2 (F.cell3d ⟨8, 0⟩ 0 1 2 1 2 3 1) p (R p)) ∧
      Cuda.flux3d 0 1 2 1 2 3 exDx ⟨2, 0⟩ ⟨3, 0⟩ ⟨4, 0⟩ 2 ⟨1, 0⟩ ⟨5, 0⟩ ⟨6, 0⟩ ⟨7, 0⟩ (fun _ => seqBackend) (exDir 3 3 2) = .ok p1 ∧ Cuda.diffusionV1Apply3d 0 1 1 2 2 3 3 2 exDx 1 ⟨0, 0⟩ 2 ⟨1, 0⟩ ⟨5, 0⟩ ⟨6, 0⟩ ⟨7, 0⟩ 1 ⟨8, 0⟩ (fun _ => revBackend) p1 = .ok p2 ∧
      (∀ p, F.InBounds [(0, 1), (1, 2), (2, 3)] p → F.El p2 (F.cell3d ⟨8, 0⟩ 0 1 2 1 2 3 1) p (S p)) ∧
      ((∀ p, F.InBounds [(0, 1), (1, 2), (2, 3)] p → |R p - S p| ≤ 3 * 7) → ∀ p, F.InBounds [(0, 1), (1, 2), (2, 3)] p → |exIns 3 5 p - exIns 3 3 p| ≤ 7) :=
  C70_v1_3d (T := Rat) (fun _ => revBackend_ok) (fun _ => seqBackend_ok) (fun _ => seqBackend_ok) (fun _ => revBackend_ok) (by decide) (by decide) (by decide) (by decide) (by decide) (by decide) (exDir_args (by ex_args)) (exDir_args (by ex_args)) (⟨apart_blk (by decide), apart_blk (by decide), apart_blk (by decide)⟩) ⟨apart_blk (by decide), apart_blk (by decide), apart_blk (by decide)⟩
    (exDir_rd (by decide) (exRat_ok rfl (by decide) (by decide))) (exDir_rd (by decide) (exRat_ok rfl (by decide) (by decide))) (exDir_rd (by decide) (exRat_ok rfl (by decide) (by decide))) (exDir_rd (by decide) (exRat_ok rfl (by decide) (by decide))) exDir_u3 (exDir_rd (by decide) (exRat_ok rfl (by decide) (by decide))) (exDir_rd (by decide) (exRat_ok rfl (by decide) (by decide))) (exDir_rd (by decide) (exRat_ok rfl (by decide) (by decide))) (exDir_rd (by decide) (exRat_ok rfl (by decide) (by decide))) exDir_u3 (fun p hw hp => by rw [exIns_zero3 p hp, exIns_zero3 p hp]; norm_num) exCell3 exEll_v1_3

/-- 3D, diffusion operator with constant reaction: if the unknowns of two runs differ from each other by at most `E` in the cells around the box and the results by at most `c E`, `c` a lower bound of the reaction coefficient, the unknowns differ by at most `E` in the box. -/
theorem C70_v2_3d {i0 j0 k0 i1 j1 k1 gcw rgcw : Int} {alpha beta : T} {dx : Nat → T} {u b0 b1 b2 f0 f1 f2 res : Ptr} {β1 β2 : Nat → Backend} {β3 β4 : Nat → Backend} {m m' : Mem T} {B0 B1 B2 U V : List Int → T} {c E : T}
    (hβ1 : ∀ n, ValidBackend (β1 n)) (hβ2 : ∀ n, ValidBackend (β2 n)) (hβ3 : ∀ n, ValidBackend (β3 n)) (hβ4 : ∀ n, ValidBackend (β4 n)) (hi : i0 ≤ i1) (hj : j0 ≤ j1) (hk : k0 ≤ k1) (hg : 1 ≤ gcw) (hrgcw : 0 ≤ rgcw)
    (h : F.Args m [(F.cell3d u i0 j0 k0 i1 j1 k1 gcw), (F.face3d0 b0 i0 j0 k0 i1 j1 k1 0), (F.face3d1 b1 i0 j0 k0 i1 j1 k1 0), (F.face3d2 b2 i0 j0 k0 i1 j1 k1 0)] [(F.face3d0 f0 i0 j0 k0 i1 j1 k1 0), (F.face3d1 f1 i0 j0 k0 i1 j1 k1 0), (F.face3d2 f2 i0 j0 k0 i1 j1 k1 0), (F.cell3d res i0 j0 k0 i1 j1 k1 rgcw)]) (h' : F.Args m' [(F.cell3d u i0 j0 k0 i1 j1 k1 gcw), (F.face3d0 b0 i0 j0 k0 i1 j1 k1 0), (F.face3d1 b1 i0 j0 k0 i1 j1 k1 0), (F.face3d2 b2 i0 j0 k0 i1 j1 k1 0)] [(F.face3d0 f0 i0 j0 k0 i1 j1 k1 0), (F.face3d1 f1 i0 j0 k0 i1 j1 k1 0), (F.face3d2 f2 i0 j0 k0 i1 j1 k1 0), (F.cell3d res i0 j0 k0 i1 j1 k1 rgcw)])
    (hp : F.Apart (F.face3d0 f0 i0 j0 k0 i1 j1 k1 0) (F.face3d1 f1 i0 j0 k0 i1 j1 k1 0) ∧ F.Apart (F.face3d0 f0 i0 j0 k0 i1 j1 k1 0) (F.face3d2 f2 i0 j0 k0 i1 j1 k1 0) ∧ F.Apart (F.face3d1 f1 i0 j0 k0 i1 j1 k1 0) (F.face3d2 f2 i0 j0 k0 i1 j1 k1 0))
    (hr : F.Apart (F.cell3d res i0 j0 k0 i1 j1 k1 rgcw) (F.face3d0 f0 i0 j0 k0 i1 j1 k1 0) ∧ F.Apart (F.cell3d res i0 j0 k0 i1 j1 k1 rgcw) (F.face3d1 f1 i0 j0 k0 i1 j1 k1 0) ∧ F.Apart (F.cell3d res i0 j0 k0 i1 j1 k1 rgcw) (F.face3d2 f2 i0 j0 k0 i1 j1 k1 0))
    (hB0 : F.Holds m (F.face3d0 b0 i0 j0 k0 i1 j1 k1 0) B0) (hB1 : F.Holds m (F.face3d1 b1 i0 j0 k0 i1 j1 k1 0) B1) (hB2 : F.Holds m (F.face3d2 b2 i0 j0 k0 i1 j1 k1 0) B2) (hU : F.Holds m (F.cell3d u i0 j0 k0 i1 j1 k1 gcw) U)
    (hB0' : F.Holds m' (F.face3d0 b0 i0 j0 k0 i1 j1 k1 0) B0) (hB1' : F.Holds m' (F.face3d1 b1 i0 j0 k0 i1 j1 k1 0) B1) (hB2' : F.Holds m' (F.face3d2 b2 i0 j0 k0 i1 j1 k1 0) B2) (hV : F.Holds m' (F.cell3d u i0 j0 k0 i1 j1 k1 gcw) V)
    (hUV : ∀ p, F.InBounds [(i0 - 1, i1 + 1), (j0 - 1, j1 + 1), (k0 - 1, k1 + 1)] p → ¬ F.InBounds [(i0, i1), (j0, j1), (k0, k1)] p → |U p - V p| ≤ E) (hc : c ≤ alpha) (he : F.Elliptic3 i0 j0 k0 i1 j1 k1 alpha beta dx (fun _ => 1) B0 B1 B2) :
    ∃ m1 m2 p1 p2, ∃ R S : List Int → T, Cuda.flux3d i0 j0 k0 i1 j1 k1 dx b0 b1 b2 gcw u f0 f1 f2 β1 m = .ok m1 ∧ Cuda.diffusionV2Apply3d i0 i1 j0 j1 k0 k1 alpha beta dx gcw u f0 f1 f2 rgcw res β2 m1 = .ok m2 ∧
      (∀ p, F.InBounds [(i0, i1), (j0, j1), (k0, k1)] p → F.El m2 (F.cell3d res i0 j0 k0 i1 j1 k1 rgcw) p (R p)) ∧
      Cuda.flux3d i0 j0 k0 i1 j1 k1 dx b0 b1 b2 gcw u f0 f1 f2 β3 m' = .ok p1 ∧ Cuda.diffusionV2Apply3d i0 i1 j0 j1 k0 k1 alpha beta dx gcw u f0 f1 f2 rgcw res β4 p1 = .ok p2 ∧
      (∀ p, F.InBounds [(i0, i1), (j0, j1), (k0, k1)] p → F.El p2 (F.cell3d res i0 j0 k0 i1 j1 k1 rgcw) p (S p)) ∧
      ((∀ p, F.InBounds [(i0, i1), (j0, j1), (k0, k1)] p → |R p - S p| ≤ c * E) → ∀ p, F.InBounds [(i0, i1), (j0, j1), (k0, k1)] p → |U p - V p| ≤ E) := by
  obtain ⟨m1, m2, R, c1, c2, e1, hR⟩ := energy_v2_3 (alpha := alpha) (beta := beta) (dx := dx) hβ1 hβ2 hi hj hk hg hrgcw h hp hr hB0 hB1 hB2 hU
  obtain ⟨p1, p2, S, d1, d2, e2, hS⟩ := energy_v2_3 (alpha := alpha) (beta := beta) (dx := dx) hβ3 hβ4 hi hj hk hg hrgcw h' hp hr hB0' hB1' hB2' hV
  refine ⟨m1, m2, p1, p2, R, S, c1, c2, e1, d1, d2, e2, fun hRS p hp => ?_⟩
  have hE : 0 ≤ E := (abs_nonneg _).trans (hUV [i0 - 1, j0, k0] (F.inBounds3.2 ⟨i0 - 1, j0, k0, rfl, by omega⟩) fun h => by simp [F.InBounds] at h)
  have hRS' : ∀ i j k, i0 ≤ i → i ≤ i1 → j0 ≤ j → j ≤ j1 → k0 ≤ k → k ≤ k1 → _ ∧ _ := fun i j k h0 h1 h2 h3 h4 h5 => abs_le.1 (hR i j k h0 h1 h2 h3 h4 h5 ▸ hS i j k h0 h1 h2 h3 h4 h5 ▸ hRS [i, j, k] (F.inBounds3.2 ⟨i, j, k, rfl, by omega⟩))
  have a := he.near (c := c) (E := E) hi hj hk hE (fun i j k h0 h1 h2 h3 h4 h5 => by simpa using hc) (fun p hw hb => (abs_le.1 (hUV p hw hb)).2) (fun i j k h0 h1 h2 h3 h4 h5 => (hRS' i j k h0 h1 h2 h3 h4 h5).2) p hp
  have b := he.near (c := c) (E := E) (U := V) (V := U) hi hj hk hE (fun i j k h0 h1 h2 h3 h4 h5 => by simpa using hc) (fun p hw hb => by have := (abs_le.1 (hUV p hw hb)).1; linarith) (fun i j k h0 h1 h2 h3 h4 h5 => by have := (hRS' i j k h0 h1 h2 h3 h4 h5).1; linarith) p hp
  exact abs_le.2 ⟨by linarith, a⟩

example : ∃ m1 m2 p1 p2, ∃ R S : List Int → Rat, Cuda.flux3d 0 1 2 1 2 3 exDx ⟨2, 0⟩ ⟨3, 0⟩ ⟨4, 0⟩ 2 ⟨1, 0⟩ ⟨5, 0⟩ ⟨6, 0⟩ ⟨7, 0⟩ (fun _ => revBackend) (exDir 3 5 1) = .ok m1 ∧ Cuda.diffusionV2Apply3d 0 1 1 2 2 3 3 2 exDx 2 ⟨1, 0⟩ ⟨5, 0⟩ ⟨6, 0⟩ ⟨7, 0⟩ 1 ⟨8, 0⟩ (fun _ => seqBackend) m1 = .ok m2 ∧
      (∀ p, F.InBounds [(0, 1), (1, 2), (2, 3)] p → F.El m2 (F.cell3d ⟨8, 0⟩ 0 1 2 1 2 3 1) p (R p)) ∧
      Cuda.flux3d 0 1 2 1 2 3 exDx ⟨2, 0⟩ ⟨3, 0⟩ ⟨4, 0⟩ 2 ⟨1, 0⟩ ⟨5, 0⟩ ⟨6, 0⟩ ⟨7, 0⟩ (fun _ => seqBackend) (exDir 3 3 2) = .ok p1 ∧ Cuda.diffusionV2Apply3d 0 1 1 2 2 3 3 2 exDx 2 ⟨1, 0⟩ ⟨5, 0⟩ ⟨6, 0⟩ ⟨7, 0⟩ 1 ⟨8, 0⟩ (fun _ => revBackend) p1 = .ok p2 ∧
      (∀ p, F.InBounds [(0, 1), (1, 2), (2, 3)] p → F.El p2 (F.cell3d ⟨8, 0⟩ 0 1 2 1 2 3 1) p (S p)) ∧
      ((∀ p, F.InBounds [(0, 1), (1, 2), (2, 3)] p → |R p - S p| ≤ 3 * 7) → ∀ p, F.InBounds [(0, 1), (1, 2), (2, 3)] p → |exIns 3 5 p - exIns 3 3 p| ≤ 7) :=
  C70_v2_3d (T := Rat) (fun _ => revBackend_ok) (fun _ => seqBackend_ok) (fun _ => seqBackend_ok) (fun _ => revBackend_ok) (by decide) (by decide) (by decide) (by decide) (by decide) (exDir_args (by ex_args)) (exDir_args (by ex_args)) (⟨apart_blk (by decide), apart_blk (by decide), apart_blk (by decide)⟩) ⟨apart_blk (by decide), apart_blk (by decide), apart_blk (by decide)⟩
    (exDir_rd (by decide) (exRat_ok rfl (by decide) (by decide))) (exDir_rd (by decide) (exRat_ok rfl (by decide) (by decide))) (exDir_rd (by decide) (exRat_ok rfl (by decide) (by decide))) exDir_u3 (exDir_rd (by decide) (exRat_ok rfl (by decide) (by decide))) (exDir_rd (by decide) (exRat_ok rfl (by decide) (by decide))) (exDir_rd (by decide) (exRat_ok rfl (by decide) (by decide))) exDir_u3 (fun p hw hp => by rw [exIns_zero3 p hp, exIns_zero3 p hp]; norm_num) (by norm_num) exEll_v2_3

/-- 3D, Poisson operator: if the unknowns of two runs differ by at most `D` in the cells around the box and the results by at most `t`, the unknowns differ by at most `D` plus `t` over `2 beta` times the product of the distances to the two layers of cells next to the box, along each axis. -/
theorem C70_poisson_3d {i0 j0 k0 i1 j1 k1 gcw rgcw : Int} {beta : T} {dx : Nat → T} {u f0 f1 f2 res : Ptr} {β1 β2 : Nat → Backend} {β3 β4 : Nat → Backend} {m m' : Mem T} {U V : List Int → T} {D : T}
    (hβ1 : ∀ n, ValidBackend (β1 n)) (hβ2 : ∀ n, ValidBackend (β2 n)) (hβ3 : ∀ n, ValidBackend (β3 n)) (hβ4 : ∀ n, ValidBackend (β4 n)) (hi : i0 ≤ i1) (hj : j0 ≤ j1) (hk : k0 ≤ k1) (hg : 1 ≤ gcw) (hrgcw : 0 ≤ rgcw)
    (h : F.Args m [(F.cell3d u i0 j0 k0 i1 j1 k1 gcw)] [(F.face3d0 f0 i0 j0 k0 i1 j1 k1 0), (F.face3d1 f1 i0 j0 k0 i1 j1 k1 0), (F.face3d2 f2 i0 j0 k0 i1 j1 k1 0), (F.cell3d res i0 j0 k0 i1 j1 k1 rgcw)]) (h' : F.Args m' [(F.cell3d u i0 j0 k0 i1 j1 k1 gcw)] [(F.face3d0 f0 i0 j0 k0 i1 j1 k1 0), (F.face3d1 f1 i0 j0 k0 i1 j1 k1 0), (F.face3d2 f2 i0 j0 k0 i1 j1 k1 0), (F.cell3d res i0 j0 k0 i1 j1 k1 rgcw)])
    (hp : F.Apart (F.face3d0 f0 i0 j0 k0 i1 j1 k1 0) (F.face3d1 f1 i0 j0 k0 i1 j1 k1 0) ∧ F.Apart (F.face3d0 f0 i0 j0 k0 i1 j1 k1 0) (F.face3d2 f2 i0 j0 k0 i1 j1 k1 0) ∧ F.Apart (F.face3d1 f1 i0 j0 k0 i1 j1 k1 0) (F.face3d2 f2 i0 j0 k0 i1 j1 k1 0))
    (hr : F.Apart (F.cell3d res i0 j0 k0 i1 j1 k1 rgcw) (F.face3d0 f0 i0 j0 k0 i1 j1 k1 0) ∧ F.Apart (F.cell3d res i0 j0 k0 i1 j1 k1 rgcw) (F.face3d1 f1 i0 j0 k0 i1 j1 k1 0) ∧ F.Apart (F.cell3d res i0 j0 k0 i1 j1 k1 rgcw) (F.face3d2 f2 i0 j0 k0 i1 j1 k1 0))
    (hU : F.Holds m (F.cell3d u i0 j0 k0 i1 j1 k1 gcw) U)
    (hV : F.Holds m' (F.cell3d u i0 j0 k0 i1 j1 k1 gcw) V)
    (hUV : ∀ p, F.InBounds [(i0 - 1, i1 + 1), (j0 - 1, j1 + 1), (k0 - 1, k1 + 1)] p → ¬ F.InBounds [(i0, i1), (j0, j1), (k0, k1)] p → |U p - V p| ≤ D) (he : F.Elliptic3 i0 j0 k0 i1 j1 k1 0 beta dx (fun _ => 1) (fun _ => 1) (fun _ => 1) (fun _ => 1)) :
    ∃ m1 m2 p1 p2, ∃ R S : List Int → T, Cuda.poissonFlux3d i0 j0 k0 i1 j1 k1 dx gcw u f0 f1 f2 β1 m = .ok m1 ∧ Cuda.poissonV2Apply3d i0 i1 j0 j1 k0 k1 beta dx f0 f1 f2 rgcw res β2 m1 = .ok m2 ∧
      (∀ p, F.InBounds [(i0, i1), (j0, j1), (k0, k1)] p → F.El m2 (F.cell3d res i0 j0 k0 i1 j1 k1 rgcw) p (R p)) ∧
      Cuda.poissonFlux3d i0 j0 k0 i1 j1 k1 dx gcw u f0 f1 f2 β3 m' = .ok p1 ∧ Cuda.poissonV2Apply3d i0 i1 j0 j1 k0 k1 beta dx f0 f1 f2 rgcw res β4 p1 = .ok p2 ∧
      (∀ p, F.InBounds [(i0, i1), (j0, j1), (k0, k1)] p → F.El p2 (F.cell3d res i0 j0 k0 i1 j1 k1 rgcw) p (S p)) ∧
      ∀ t, (∀ p, F.InBounds [(i0, i1), (j0, j1), (k0, k1)] p → |R p - S p| ≤ t) → ∀ i j k, i0 ≤ i → i ≤ i1 → j0 ≤ j → j ≤ j1 → k0 ≤ k → k ≤ k1 →
        |U [i, j, k] - V [i, j, k]| ≤ D + t * (((i - i0 + 1 : Int) : T) * ((i1 + 1 - i : Int) : T) * (dx 0 * dx 0)) / (2 * beta) ∧
        |U [i, j, k] - V [i, j, k]| ≤ D + t * (((j - j0 + 1 : Int) : T) * ((j1 + 1 - j : Int) : T) * (dx 1 * dx 1)) / (2 * beta) ∧
        |U [i, j, k] - V [i, j, k]| ≤ D + t * (((k - k0 + 1 : Int) : T) * ((k1 + 1 - k : Int) : T) * (dx 2 * dx 2)) / (2 * beta) := by
  obtain ⟨m1, m2, R, c1, c2, e1, hR⟩ := energy_p_3 (beta := beta) (dx := dx) hβ1 hβ2 hi hj hk hg hrgcw h hp hr hU
  obtain ⟨p1, p2, S, d1, d2, e2, hS⟩ := energy_p_3 (beta := beta) (dx := dx) hβ3 hβ4 hi hj hk hg hrgcw h' hp hr hV
  refine ⟨m1, m2, p1, p2, R, S, c1, c2, e1, d1, d2, e2, fun t hRS i j k h0 h1 h2 h3 h4 h5 => ?_⟩
  have ht : 0 ≤ t := (abs_nonneg _).trans (hRS [i, j, k] (F.inBounds3.2 ⟨i, j, k, rfl, by omega⟩))
  have hRS' : ∀ i j k, i0 ≤ i → i ≤ i1 → j0 ≤ j → j ≤ j1 → k0 ≤ k → k ≤ k1 → _ ∧ _ := fun i j k h0 h1 h2 h3 h4 h5 => abs_le.1 (hR i j k h0 h1 h2 h3 h4 h5 ▸ hS i j k h0 h1 h2 h3 h4 h5 ▸ hRS [i, j, k] (F.inBounds3.2 ⟨i, j, k, rfl, by omega⟩))
  have a0 := he.barrier0 hi hj hk ht (fun p hw hb => (abs_le.1 (hUV p hw hb)).2) (fun i j k h0 h1 h2 h3 h4 h5 => (hRS' i j k h0 h1 h2 h3 h4 h5).2) i j k h0 h1 h2 h3 h4 h5
  have b0 := he.barrier0 (U := V) (V := U) (D := D) (t := t) hi hj hk ht (fun p hw hb => by have := (abs_le.1 (hUV p hw hb)).1; linarith) (fun i j k h0 h1 h2 h3 h4 h5 => by have := (hRS' i j k h0 h1 h2 h3 h4 h5).1; linarith) i j k h0 h1 h2 h3 h4 h5
  have a1 := he.barrier1 hi hj hk ht (fun p hw hb => (abs_le.1 (hUV p hw hb)).2) (fun i j k h0 h1 h2 h3 h4 h5 => (hRS' i j k h0 h1 h2 h3 h4 h5).2) i j k h0 h1 h2 h3 h4 h5
  have b1 := he.barrier1 (U := V) (V := U) (D := D) (t := t) hi hj hk ht (fun p hw hb => by have := (abs_le.1 (hUV p hw hb)).1; linarith) (fun i j k h0 h1 h2 h3 h4 h5 => by have := (hRS' i j k h0 h1 h2 h3 h4 h5).1; linarith) i j k h0 h1 h2 h3 h4 h5
  have a2 := he.barrier2 hi hj hk ht (fun p hw hb => (abs_le.1 (hUV p hw hb)).2) (fun i j k h0 h1 h2 h3 h4 h5 => (hRS' i j k h0 h1 h2 h3 h4 h5).2) i j k h0 h1 h2 h3 h4 h5
  have b2 := he.barrier2 (U := V) (V := U) (D := D) (t := t) hi hj hk ht (fun p hw hb => by have := (abs_le.1 (hUV p hw hb)).1; linarith) (fun i j k h0 h1 h2 h3 h4 h5 => by have := (hRS' i j k h0 h1 h2 h3 h4 h5).1; linarith) i j k h0 h1 h2 h3 h4 h5
  exact ⟨abs_le.2 ⟨by linarith, a0⟩, abs_le.2 ⟨by linarith, a1⟩, abs_le.2 ⟨by linarith, a2⟩⟩

example : ∃ m1 m2 p1 p2, ∃ R S : List Int → Rat, Cuda.poissonFlux3d 0 1 2 1 2 3 exDx 2 ⟨1, 0⟩ ⟨5, 0⟩ ⟨6, 0⟩ ⟨7, 0⟩ (fun _ => revBackend) (exDir 3 5 1) = .ok m1 ∧ Cuda.poissonV2Apply3d 0 1 1 2 2 3 2 exDx ⟨5, 0⟩ ⟨6, 0⟩ ⟨7, 0⟩ 1 ⟨8, 0⟩ (fun _ => seqBackend) m1 = .ok m2 ∧
      (∀ p, F.InBounds [(0, 1), (1, 2), (2, 3)] p → F.El m2 (F.cell3d ⟨8, 0⟩ 0 1 2 1 2 3 1) p (R p)) ∧
      Cuda.poissonFlux3d 0 1 2 1 2 3 exDx 2 ⟨1, 0⟩ ⟨5, 0⟩ ⟨6, 0⟩ ⟨7, 0⟩ (fun _ => seqBackend) (exDir 3 3 2) = .ok p1 ∧ Cuda.poissonV2Apply3d 0 1 1 2 2 3 2 exDx ⟨5, 0⟩ ⟨6, 0⟩ ⟨7, 0⟩ 1 ⟨8, 0⟩ (fun _ => revBackend) p1 = .ok p2 ∧
      (∀ p, F.InBounds [(0, 1), (1, 2), (2, 3)] p → F.El p2 (F.cell3d ⟨8, 0⟩ 0 1 2 1 2 3 1) p (S p)) ∧
      ∀ t, (∀ p, F.InBounds [(0, 1), (1, 2), (2, 3)] p → |R p - S p| ≤ t) → ∀ i j k, 0 ≤ i → i ≤ 1 → 1 ≤ j → j ≤ 2 → 2 ≤ k → k ≤ 3 →
        |exIns 3 5 [i, j, k] - exIns 3 3 [i, j, k]| ≤ 0 + t * (((i - 0 + 1 : Int) : Rat) * ((1 + 1 - i : Int) : Rat) * (exDx 0 * exDx 0)) / (2 * 2) ∧
        |exIns 3 5 [i, j, k] - exIns 3 3 [i, j, k]| ≤ 0 + t * (((j - 1 + 1 : Int) : Rat) * ((2 + 1 - j : Int) : Rat) * (exDx 1 * exDx 1)) / (2 * 2) ∧
        |exIns 3 5 [i, j, k] - exIns 3 3 [i, j, k]| ≤ 0 + t * (((k - 2 + 1 : Int) : Rat) * ((3 + 1 - k : Int) : Rat) * (exDx 2 * exDx 2)) / (2 * 2) :=
  C70_poisson_3d (T := Rat) (fun _ => revBackend_ok) (fun _ => seqBackend_ok) (fun _ => seqBackend_ok) (fun _ => revBackend_ok) (by decide) (by decide) (by decide) (by decide) (by decide) (exDir_args (by ex_args)) (exDir_args (by ex_args)) (⟨apart_blk (by decide), apart_blk (by decide), apart_blk (by decide)⟩) ⟨apart_blk (by decide), apart_blk (by decide), apart_blk (by decide)⟩
     exDir_u3  exDir_u3 (fun p hw hp => by rw [exIns_zero3 p hp, exIns_zero3 p hp]; norm_num) exEll_p_3

end Verif
