import Verif.Lemmas.EnergyEx

/-
C54 and C55: the operator applied by the flux and apply kernels in weak form, and its symmetry.
-/

namespace Verif
open Spec

set_option linter.unusedVariables false
set_option linter.unusedSectionVars false

variable {T : Type} [Field T]

/-- 1D, diffusion operator with cell coefficients: for every `V` that vanishes outside the box, the sum over the box of `V` times the result is the bilinear form of
`U` and `V`. -/
theorem C54_v1_1d {i0 i1 agcw gcw rgcw : Int} {alpha beta : T} {dx : Nat → T} {a u b0 f0 res : Ptr} {β1 β2 : Nat → Backend} {m : Mem T} {A B0 U V : List Int → T}
    (hβ1 : ∀ n, ValidBackend (β1 n)) (hβ2 : ∀ n, ValidBackend (β2 n)) (hi : i0 ≤ i1) (hg : 1 ≤ gcw) (hagcw : 0 ≤ agcw) (hrgcw : 0 ≤ rgcw)
    (h : F.Args m [(F.cell1d a i0 i1 agcw), (F.cell1d u i0 i1 gcw), (F.face1d b0 i0 i1 0)] [(F.face1d f0 i0 i1 0), (F.cell1d res i0 i1 rgcw)])
    (hr : F.Apart (F.cell1d res i0 i1 rgcw) (F.face1d f0 i0 i1 0))
    (hA : F.Holds m (F.cell1d a i0 i1 agcw) A) (hB0 : F.Holds m (F.face1d b0 i0 i1 0) B0) (hU : F.Holds m (F.cell1d u i0 i1 gcw) U) (hV0 : ∀ p, ¬ F.InBounds [(i0, i1)] p → V p = 0) :
    ∃ m1 m2, ∃ R : List Int → T, Cuda.flux1d i0 i1 dx b0 gcw u f0 β1 m = .ok m1 ∧ Cuda.diffusionV1Apply1d i0 i1 alpha beta dx agcw a gcw u f0 rgcw res β2 m1 = .ok m2 ∧
      (∀ p, F.InBounds [(i0, i1)] p → F.El m2 (F.cell1d res i0 i1 rgcw) p (R p)) ∧
      (F.sum i0 i1 fun i => V [i] * R [i]) =
        F.form1 i0 i1 alpha beta dx A B0 U V := by
  obtain ⟨m1, m2, R, c1, c2, E, hR⟩ := energy_v1_1 (alpha := alpha) (beta := beta) (dx := dx) hβ1 hβ2 hi hg hagcw hrgcw h hr hA hB0 hU
  have e : (F.sum i0 i1 fun i => V [i] * R [i]) = F.form1 i0 i1 alpha beta dx A B0 U V := by
    rw [← F.weak1 hi hV0]
    exact F.sum_congr fun i h0 h1 => (by rw [hR i h0 h1])
  exact ⟨m1, m2, R, c1, c2, E, e⟩

example : ∃ m1 m2, ∃ R : List Int → Rat, Cuda.flux1d 0 3 exDx ⟨2, 0⟩ 2 ⟨1, 0⟩ ⟨5, 0⟩ (fun _ => revBackend) (exDir 1 5 1) = .ok m1 ∧ Cuda.diffusionV1Apply1d 0 3 3 2 exDx 1 ⟨0, 0⟩ 2 ⟨1, 0⟩ ⟨5, 0⟩ 1 ⟨8, 0⟩ (fun _ => seqBackend) m1 = .ok m2 ∧
      (∀ p, F.InBounds [(0, 3)] p → F.El m2 (F.cell1d ⟨8, 0⟩ 0 3 1) p (R p)) ∧
      (F.sum 0 3 fun i => (exIns 1 3) [i] * R [i]) =
        F.form1 0 3 3 2 exDx (exRd (F.cell1d ⟨0, 0⟩ 0 3 1)) (exRd (F.face1d ⟨2, 0⟩ 0 3 0)) (exIns 1 5) (exIns 1 3) :=
  C54_v1_1d (T := Rat) (fun _ => revBackend_ok) (fun _ => seqBackend_ok) (by decide) (by decide) (by decide) (by decide) (exDir_args (by ex_args)) (apart_blk (by decide))
    (exDir_rd (by decide) (exRat_ok rfl (by decide) (by decide))) (exDir_rd (by decide) (exRat_ok rfl (by decide) (by decide))) exDir_u1 exIns_zero1

/-- 1D, diffusion operator with constant reaction: for every `V` that vanishes outside the box, the sum over the box of `V` times the result is the bilinear form of
`U` and `V`. -/
theorem C54_v2_1d {i0 i1 gcw rgcw : Int} {alpha beta : T} {dx : Nat → T} {u b0 f0 res : Ptr} {β1 β2 : Nat → Backend} {m : Mem T} {B0 U V : List Int → T}
    (hβ1 : ∀ n, ValidBackend (β1 n)) (hβ2 : ∀ n, ValidBackend (β2 n)) (hi : i0 ≤ i1) (hg : 1 ≤ gcw) (hrgcw : 0 ≤ rgcw)
    (h : F.Args m [(F.cell1d u i0 i1 gcw), (F.face1d b0 i0 i1 0)] [(F.face1d f0 i0 i1 0), (F.cell1d res i0 i1 rgcw)])
    (hr : F.Apart (F.cell1d res i0 i1 rgcw) (F.face1d f0 i0 i1 0))
    (hB0 : F.Holds m (F.face1d b0 i0 i1 0) B0) (hU : F.Holds m (F.cell1d u i0 i1 gcw) U) (hV0 : ∀ p, ¬ F.InBounds [(i0, i1)] p → V p = 0) :
    ∃ m1 m2, ∃ R : List Int → T, Cuda.flux1d i0 i1 dx b0 gcw u f0 β1 m = .ok m1 ∧ Cuda.diffusionV2Apply1d i0 i1 alpha beta dx gcw u f0 rgcw res β2 m1 = .ok m2 ∧
      (∀ p, F.InBounds [(i0, i1)] p → F.El m2 (F.cell1d res i0 i1 rgcw) p (R p)) ∧
      (F.sum i0 i1 fun i => V [i] * R [i]) =
        F.form1 i0 i1 alpha beta dx (fun _ => 1) B0 U V := by
  obtain ⟨m1, m2, R, c1, c2, E, hR⟩ := energy_v2_1 (alpha := alpha) (beta := beta) (dx := dx) hβ1 hβ2 hi hg hrgcw h hr hB0 hU
  have e : (F.sum i0 i1 fun i => V [i] * R [i]) = F.form1 i0 i1 alpha beta dx (fun _ => 1) B0 U V := by
    rw [← F.weak1 hi hV0]
    exact F.sum_congr fun i h0 h1 => (by rw [hR i h0 h1])
  exact ⟨m1, m2, R, c1, c2, E, e⟩

example : ∃ m1 m2, ∃ R : List Int → Rat, Cuda.flux1d 0 3 exDx ⟨2, 0⟩ 2 ⟨1, 0⟩ ⟨5, 0⟩ (fun _ => revBackend) (exDir 1 5 1) = .ok m1 ∧ Cuda.diffusionV2Apply1d 0 3 3 2 exDx 2 ⟨1, 0⟩ ⟨5, 0⟩ 1 ⟨8, 0⟩ (fun _ => seqBackend) m1 = .ok m2 ∧
      (∀ p, F.InBounds [(0, 3)] p → F.El m2 (F.cell1d ⟨8, 0⟩ 0 3 1) p (R p)) ∧
      (F.sum 0 3 fun i => (exIns 1 3) [i] * R [i]) =
        F.form1 0 3 3 2 exDx (fun _ => 1) (exRd (F.face1d ⟨2, 0⟩ 0 3 0)) (exIns 1 5) (exIns 1 3) :=
  C54_v2_1d (T := Rat) (fun _ => revBackend_ok) (fun _ => seqBackend_ok) (by decide) (by decide) (by decide) (exDir_args (by ex_args)) (apart_blk (by decide))
    (exDir_rd (by decide) (exRat_ok rfl (by decide) (by decide))) exDir_u1 exIns_zero1

/-- 1D, Poisson operator: for every `V` that vanishes outside the box, the sum over the box of `V` times the result is the bilinear form of
`U` and `V`. -/
theorem C54_poisson_1d {i0 i1 gcw rgcw : Int} {beta : T} {dx : Nat → T} {u f0 res : Ptr} {β1 β2 : Nat → Backend} {m : Mem T} {U V : List Int → T}
    (hβ1 : ∀ n, ValidBackend (β1 n)) (hβ2 : ∀ n, ValidBackend (β2 n)) (hi : i0 ≤ i1) (hg : 1 ≤ gcw) (hrgcw : 0 ≤ rgcw)
    (h : F.Args m [(F.cell1d u i0 i1 gcw)] [(F.face1d f0 i0 i1 0), (F.cell1d res i0 i1 rgcw)])
    (hr : F.Apart (F.cell1d res i0 i1 rgcw) (F.face1d f0 i0 i1 0))
    (hU : F.Holds m (F.cell1d u i0 i1 gcw) U) (hV0 : ∀ p, ¬ F.InBounds [(i0, i1)] p → V p = 0) :
    ∃ m1 m2, ∃ R : List Int → T, Cuda.poissonFlux1d i0 i1 dx gcw u f0 β1 m = .ok m1 ∧ Cuda.poissonV2Apply1d i0 i1 beta dx f0 rgcw res β2 m1 = .ok m2 ∧
      (∀ p, F.InBounds [(i0, i1)] p → F.El m2 (F.cell1d res i0 i1 rgcw) p (R p)) ∧
      (F.sum i0 i1 fun i => V [i] * R [i]) =
        F.form1 i0 i1 0 beta dx (fun _ => 1) (fun _ => 1) U V := by
  obtain ⟨m1, m2, R, c1, c2, E, hR⟩ := energy_p_1 (beta := beta) (dx := dx) hβ1 hβ2 hi hg hrgcw h hr hU
  have e : (F.sum i0 i1 fun i => V [i] * R [i]) = F.form1 i0 i1 0 beta dx (fun _ => 1) (fun _ => 1) U V := by
    rw [← F.weak1 hi hV0]
    exact F.sum_congr fun i h0 h1 => (by rw [hR i h0 h1])
  exact ⟨m1, m2, R, c1, c2, E, e⟩

example : ∃ m1 m2, ∃ R : List Int → Rat, Cuda.poissonFlux1d 0 3 exDx 2 ⟨1, 0⟩ ⟨5, 0⟩ (fun _ => revBackend) (exDir 1 5 1) = .ok m1 ∧ Cuda.poissonV2Apply1d 0 3 2 exDx ⟨5, 0⟩ 1 ⟨8, 0⟩ (fun _ => seqBackend) m1 = .ok m2 ∧
      (∀ p, F.InBounds [(0, 3)] p → F.El m2 (F.cell1d ⟨8, 0⟩ 0 3 1) p (R p)) ∧
      (F.sum 0 3 fun i => (exIns 1 3) [i] * R [i]) =
        F.form1 0 3 0 2 exDx (fun _ => 1) (fun _ => 1) (exIns 1 5) (exIns 1 3) :=
  C54_poisson_1d (T := Rat) (fun _ => revBackend_ok) (fun _ => seqBackend_ok) (by decide) (by decide) (by decide) (exDir_args (by ex_args)) (apart_blk (by decide))
     exDir_u1 exIns_zero1

/-- 2D, diffusion operator with cell coefficients: for every `V` that vanishes outside the box, the sum over the box of `V` times the result is the bilinear form of
`U` and `V`. -/
theorem C54_v1_2d {i0 j0 i1 j1 agcw gcw rgcw : Int} {alpha beta : T} {dx : Nat → T} {a u b0 b1 f0 f1 res : Ptr} {β1 β2 : Nat → Backend} {m : Mem T} {A B0 B1 U V : List Int → T}
    (hβ1 : ∀ n, ValidBackend (β1 n)) (hβ2 : ∀ n, ValidBackend (β2 n)) (hi : i0 ≤ i1) (hj : j0 ≤ j1) (hg : 1 ≤ gcw) (hagcw : 0 ≤ agcw) (hrgcw : 0 ≤ rgcw)
    (h : F.Args m [(F.cell2d a i0 j0 i1 j1 agcw), (F.cell2d u i0 j0 i1 j1 gcw), (F.face2d0 b0 i0 j0 i1 j1 0), (F.face2d1 b1 i0 j0 i1 j1 0)] [(F.face2d0 f0 i0 j0 i1 j1 0), (F.face2d1 f1 i0 j0 i1 j1 0), (F.cell2d res i0 j0 i1 j1 rgcw)])
    (hp : F.Apart (F.face2d0 f0 i0 j0 i1 j1 0) (F.face2d1 f1 i0 j0 i1 j1 0))
    (hr : F.Apart (F.cell2d res i0 j0 i1 j1 rgcw) (F.face2d0 f0 i0 j0 i1 j1 0) ∧ F.Apart (F.cell2d res i0 j0 i1 j1 rgcw) (F.face2d1 f1 i0 j0 i1 j1 0))
    (hA : F.Holds m (F.cell2d a i0 j0 i1 j1 agcw) A) (hB0 : F.Holds m (F.face2d0 b0 i0 j0 i1 j1 0) B0) (hB1 : F.Holds m (F.face2d1 b1 i0 j0 i1 j1 0) B1) (hU : F.Holds m (F.cell2d u i0 j0 i1 j1 gcw) U) (hV0 : ∀ p, ¬ F.InBounds [(i0, i1), (j0, j1)] p → V p = 0) :
    ∃ m1 m2, ∃ R : List Int → T, Cuda.flux2d i0 j0 i1 j1 dx b0 b1 gcw u f0 f1 β1 m = .ok m1 ∧ Cuda.diffusionV1Apply2d i0 i1 j0 j1 alpha beta dx agcw a gcw u f0 f1 rgcw res β2 m1 = .ok m2 ∧
      (∀ p, F.InBounds [(i0, i1), (j0, j1)] p → F.El m2 (F.cell2d res i0 j0 i1 j1 rgcw) p (R p)) ∧
      (F.sum i0 i1 fun i => F.sum j0 j1 fun j => V [i, j] * R [i, j]) =
        F.form2 i0 j0 i1 j1 alpha beta dx A B0 B1 U V := by
  obtain ⟨m1, m2, R, c1, c2, E, hR⟩ := energy_v1_2 (alpha := alpha) (beta := beta) (dx := dx) hβ1 hβ2 hi hj hg hagcw hrgcw h hp hr hA hB0 hB1 hU
  have e : (F.sum i0 i1 fun i => F.sum j0 j1 fun j => V [i, j] * R [i, j]) = F.form2 i0 j0 i1 j1 alpha beta dx A B0 B1 U V := by
    rw [← F.weak2 hi hj hV0]
    exact F.sum_congr fun i h0 h1 => F.sum_congr fun j h2 h3 => (by rw [hR i j h0 h1 h2 h3])
  exact ⟨m1, m2, R, c1, c2, E, e⟩

example : ∃ m1 m2, ∃ R : List Int → Rat, Cuda.flux2d 0 1 2 3 exDx ⟨2, 0⟩ ⟨3, 0⟩ 2 ⟨1, 0⟩ ⟨5, 0⟩ ⟨6, 0⟩ (fun _ => revBackend) (exDir 2 5 1) = .ok m1 ∧ Cuda.diffusionV1Apply2d 0 2 1 3 3 2 exDx 1 ⟨0, 0⟩ 2 ⟨1, 0⟩ ⟨5, 0⟩ ⟨6, 0⟩ 1 ⟨8, 0⟩ (fun _ => seqBackend) m1 = .ok m2 ∧
      (∀ p, F.InBounds [(0, 2), (1, 3)] p → F.El m2 (F.cell2d ⟨8, 0⟩ 0 1 2 3 1) p (R p)) ∧
      (F.sum 0 2 fun i => F.sum 1 3 fun j => (exIns 2 3) [i, j] * R [i, j]) =
        F.form2 0 1 2 3 3 2 exDx (exRd (F.cell2d ⟨0, 0⟩ 0 1 2 3 1)) (exRd (F.face2d0 ⟨2, 0⟩ 0 1 2 3 0)) (exRd (F.face2d1 ⟨3, 0⟩ 0 1 2 3 0)) (exIns 2 5) (exIns 2 3) :=
  C54_v1_2d (T := Rat) (fun _ => revBackend_ok) (fun _ => seqBackend_ok) (by decide) (by decide) (by decide) (by decide) (by decide) (exDir_args (by ex_args)) (apart_blk (by decide)) ⟨apart_blk (by decide), apart_blk (by decide)⟩
    (exDir_rd (by decide) (exRat_ok rfl (by decide) (by decide))) (exDir_rd (by decide) (exRat_ok rfl (by decide) (by decide))) (exDir_rd (by decide) (exRat_ok rfl (by decide) (by decide))) exDir_u2 exIns_zero2

/-- 2D, diffusion operator with constant reaction: for every `V` that vanishes outside the box, the sum over the box of `V` times the result is the bilinear form of
`U` and `V`. -/
theorem C54_v2_2d {i0 j0 i1 j1 gcw rgcw : Int} {alpha beta : T} {dx : Nat → T} {u b0 b1 f0 f1 res : Ptr} {β1 β2 : Nat → Backend} {m : Mem T} {B0 B1 U V : List Int → T}
    (hβ1 : ∀ n, ValidBackend (β1 n)) (hβ2 : ∀ n, ValidBackend (β2 n)) (hi : i0 ≤ i1) (hj : j0 ≤ j1) (hg : 1 ≤ gcw) (hrgcw : 0 ≤ rgcw)
    (h : F.Args m [(F.cell2d u i0 j0 i1 j1 gcw), (F.face2d0 b0 i0 j0 i1 j1 0), (F.face2d1 b1 i0 j0 i1 j1 0)] [(F.face2d0 f0 i0 j0 i1 j1 0), (F.face2d1 f1 i0 j0 i1 j1 0), (F.cell2d res i0 j0 i1 j1 rgcw)])
    (hp : F.Apart (F.face2d0 f0 i0 j0 i1 j1 0) (F.face2d1 f1 i0 j0 i1 j1 0))
    (hr : F.Apart (F.cell2d res i0 j0 i1 j1 rgcw) (F.face2d0 f0 i0 j0 i1 j1 0) ∧ F.Apart (F.cell2d res i0 j0 i1 j1 rgcw) (F.face2d1 f1 i0 j0 i1 j1 0))
    (hB0 : F.Holds m (F.face2d0 b0 i0 j0 i1 j1 0) B0) (hB1 : F.Holds m (F.face2d1 b1 i0 j0 i1 j1 0) B1) (hU : F.Holds m (F.cell2d u i0 j0 i1 j1 gcw) U) (hV0 : ∀ p, ¬ F.InBounds [(i0, i1), (j0, j1)] p → V p = 0) :
    ∃ m1 m2, ∃ R : List Int → T, Cuda.flux2d i0 j0 i1 j1 dx b0 b1 gcw u f0 f1 β1 m = .ok m1 ∧ Cuda.diffusionV2Apply2d i0 i1 j0 j1 alpha beta dx gcw u f0 f1 rgcw res β2 m1 = .ok m2 ∧
      (∀ p, F.InBounds [(i0, i1), (j0, j1)] p → F.El m2 (F.cell2d res i0 j0 i1 j1 rgcw) p (R p)) ∧
      (F.sum i0 i1 fun i => F.sum j0 j1 fun j => V [i, j] * R [i, j]) =
        F.form2 i0 j0 i1 j1 alpha beta dx (fun _ => 1) B0 B1 U V := by
  obtain ⟨m1, m2, R, c1, c2, E, hR⟩ := energy_v2_2 (alpha := alpha) (beta := beta) (dx := dx) hβ1 hβ2 hi hj hg hrgcw h hp hr hB0 hB1 hU
  have e : (F.sum i0 i1 fun i => F.sum j0 j1 fun j => V [i, j] * R [i, j]) = F.form2 i0 j0 i1 j1 alpha beta dx (fun _ => 1) B0 B1 U V := by
    rw [← F.weak2 hi hj hV0]
    exact F.sum_congr fun i h0 h1 => F.sum_congr fun j h2 h3 => (by rw [hR i j h0 h1 h2 h3])
  exact ⟨m1, m2, R, c1, c2, E, e⟩

example : ∃ m1 m2, ∃ R : List Int → Rat, Cuda.flux2d 0 1 2 3 exDx ⟨2, 0⟩ ⟨3, 0⟩ 2 ⟨1, 0⟩ ⟨5, 0⟩ ⟨6, 0⟩ (fun _ => revBackend) (exDir 2 5 1) = .ok m1 ∧ Cuda.diffusionV2Apply2d 0 2 1 3 3 2 exDx 2 ⟨1, 0⟩ ⟨5, 0⟩ ⟨6, 0⟩ 1 ⟨8, 0⟩ (fun _ => seqBackend) m1 = .ok m2 ∧
      (∀ p, F.InBounds [(0, 2), (1, 3)] p → F.El m2 (F.cell2d ⟨8, 0⟩ 0 1 2 3 1) p (R p)) ∧
      (F.sum 0 2 fun i => F.sum 1 3 fun j => (exIns 2 3) [i, j] * R [i, j]) =
        F.form2 0 1 2 3 3 2 exDx (fun _ => 1) (exRd (F.face2d0 ⟨2, 0⟩ 0 1 2 3 0)) (exRd (F.face2d1 ⟨3, 0⟩ 0 1 2 3 0)) (exIns 2 5) (exIns 2 3) :=
  C54_v2_2d (T := Rat) (fun _ => revBackend_ok) (fun _ => seqBackend_ok) (by decide) (by decide) (by decide) (by decide) (exDir_args (by ex_args)) (apart_blk (by decide)) ⟨apart_blk (by decide), apart_blk (by decide)⟩
    (exDir_rd (by decide) (exRat_ok rfl (by decide) (by decide))) (exDir_rd (by decide) (exRat_ok rfl (by decide) (by decide))) exDir_u2 exIns_zero2

/-- 2D, Poisson operator: for every `V` that vanishes outside the box, the sum over the box of `V` times the result is the bilinear form of
`U` and `V`. -/
theorem C54_poisson_2d {i0 j0 i1 j1 gcw rgcw : Int} {beta : T} {dx : Nat → T} {u f0 f1 res : Ptr} {β1 β2 : Nat → Backend} {m : Mem T} {U V : List Int → T}
    (hβ1 : ∀ n, ValidBackend (β1 n)) (hβ2 : ∀ n, ValidBackend (β2 n)) (hi : i0 ≤ i1) (hj : j0 ≤ j1) (hg : 1 ≤ gcw) (hrgcw : 0 ≤ rgcw)
    (h : F.Args m [(F.cell2d u i0 j0 i1 j1 gcw)] [(F.face2d0 f0 i0 j0 i1 j1 0), (F.face2d1 f1 i0 j0 i1 j1 0), (F.cell2d res i0 j0 i1 j1 rgcw)])
    (hp : F.Apart (F.face2d0 f0 i0 j0 i1 j1 0) (F.face2d1 f1 i0 j0 i1 j1 0))
    (hr : F.Apart (F.cell2d res i0 j0 i1 j1 rgcw) (F.face2d0 f0 i0 j0 i1 j1 0) ∧ F.Apart (F.cell2d res i0 j0 i1 j1 rgcw) (F.face2d1 f1 i0 j0 i1 j1 0))
    (hU : F.Holds m (F.cell2d u i0 j0 i1 j1 gcw) U) (hV0 : ∀ p, ¬ F.InBounds [(i0, i1), (j0, j1)] p → V p = 0) :
    ∃ m1 m2, ∃ R : List Int → T, Cuda.poissonFlux2d i0 j0 i1 j1 dx gcw u f0 f1 β1 m = .ok m1 ∧ Cuda.poissonV2Apply2d i0 i1 j0 j1 beta dx f0 f1 rgcw res β2 m1 = .ok m2 ∧
      (∀ p, F.InBounds [(i0, i1), (j0, j1)] p → F.El m2 (F.cell2d res i0 j0 i1 j1 rgcw) p (R p)) ∧
      (F.sum i0 i1 fun i => F.sum j0 j1 fun j => V [i, j] * R [i, j]) =
        F.form2 i0 j0 i1 j1 0 beta dx (fun _ => 1) (fun _ => 1) (fun _ => 1) U V := by
  obtain ⟨m1, m2, R, c1, c2, E, hR⟩ := energy_p_2 (beta := beta) (dx := dx) hβ1 hβ2 hi hj hg hrgcw h hp hr hU
  have e : (F.sum i0 i1 fun i => F.sum j0 j1 fun j => V [i, j] * R [i, j]) = F.form2 i0 j0 i1 j1 0 beta dx (fun _ => 1) (fun _ => 1) (fun _ => 1) U V := by
    rw [← F.weak2 hi hj hV0]
    exact F.sum_congr fun i h0 h1 => F.sum_congr fun j h2 h3 => (by rw [hR i j h0 h1 h2 h3])
  exact ⟨m1, m2, R, c1, c2, E, e⟩

example : ∃ m1 m2, ∃ R : List Int → Rat, Cuda.poissonFlux2d 0 1 2 3 exDx 2 ⟨1, 0⟩ ⟨5, 0⟩ ⟨6, 0⟩ (fun _ => revBackend) (exDir 2 5 1) = .ok m1 ∧ Cuda.poissonV2Apply2d 0 2 1 3 2 exDx ⟨5, 0⟩ ⟨6, 0⟩ 1 ⟨8, 0⟩ (fun _ => seqBackend) m1 = .ok m2 ∧
      (∀ p, F.InBounds [(0, 2), (1, 3)] p → F.El m2 (F.cell2d ⟨8, 0⟩ 0 1 2 3 1) p (R p)) ∧
      (F.sum 0 2 fun i => F.sum 1 3 fun j => (exIns 2 3) [i, j] * R [i, j]) =
        F.form2 0 1 2 3 0 2 exDx (fun _ => 1) (fun _ => 1) (fun _ => 1) (exIns 2 5) (exIns 2 3) :=
  C54_poisson_2d (T := Rat) (fun _ => revBackend_ok) (fun _ => seqBackend_ok) (by decide) (by decide) (by decide) (by decide) (exDir_args (by ex_args)) (apart_blk (by decide)) ⟨apart_blk (by decide), apart_blk (by decide)⟩
     exDir_u2 exIns_zero2

/-- 3D, diffusion operator with cell coefficients: for every `V` that vanishes outside the box, the sum over the box of `V` times the result is the bilinear form of
`U` and `V`. -/
theorem C54_v1_3d {i0 j0 k0 i1 j1 k1 agcw gcw rgcw : Int} {alpha beta : T} {dx : Nat → T} {a u b0 b1 b2 f0 f1 f2 res : Ptr} {β1 β2 : Nat → Backend} {m : Mem T} {A B0 B1 B2 U V : List Int → T}
    (hβ1 : ∀ n, ValidBackend (β1 n)) (hβ2 : ∀ n, ValidBackend (β2 n)) (hi : i0 ≤ i1) (hj : j0 ≤ j1) (hk : k0 ≤ k1) (hg : 1 ≤ gcw) (hagcw : 0 ≤ agcw) (hrgcw : 0 ≤ rgcw)
    (h : F.Args m [(F.cell3d a i0 j0 k0 i1 j1 k1 agcw), (F.cell3d u i0 j0 k0 i1 j1 k1 gcw), (F.face3d0 b0 i0 j0 k0 i1 j1 k1 0), (F.face3d1 b1 i0 j0 k0 i1 j1 k1 0), (F.face3d2 b2 i0 j0 k0 i1 j1 k1 0)] [(F.face3d0 f0 i0 j0 k0 i1 j1 k1 0), (F.face3d1 f1 i0 j0 k0 i1 j1 k1 0), (F.face3d2 f2 i0 j0 k0 i1 j1 k1 0), (F.cell3d res i0 j0 k0 i1 j1 k1 rgcw)])
    (hp : F.Apart (F.face3d0 f0 i0 j0 k0 i1 j1 k1 0) (F.face3d1 f1 i0 j0 k0 i1 j1 k1 0) ∧ F.Apart (F.face3d0 f0 i0 j0 k0 i1 j1 k1 0) (F.face3d2 f2 i0 j0 k0 i1 j1 k1 0) ∧ F.Apart (F.face3d1 f1 i0 j0 k0 i1 j1 k1 0) (F.face3d2 f2 i0 j0 k0 i1 j1 k1 0))
    (hr : F.Apart (F.cell3d res i0 j0 k0 i1 j1 k1 rgcw) (F.face3d0 f0 i0 j0 k0 i1 j1 k1 0) ∧ F.Apart (F.cell3d res i0 j0 k0 i1 j1 k1 rgcw) (F.face3d1 f1 i0 j0 k0 i1 j1 k1 0) ∧ F.Apart (F.cell3d res i0 j0 k0 i1 j1 k1 rgcw) (F.face3d2 f2 i0 j0 k0 i1 j1 k1 0))
    (hA : F.Holds m (F.cell3d a i0 j0 k0 i1 j1 k1 agcw) A) (hB0 : F.Holds m (F.face3d0 b0 i0 j0 k0 i1 j1 k1 0) B0) (hB1 : F.Holds m (F.face3d1 b1 i0 j0 k0 i1 j1 k1 0) B1) (hB2 : F.Holds m (F.face3d2 b2 i0 j0 k0 i1 j1 k1 0) B2) (hU : F.Holds m (F.cell3d u i0 j0 k0 i1 j1 k1 gcw) U) (hV0 : ∀ p, ¬ F.InBounds [(i0, i1), (j0, j1), (k0, k1)] p → V p = 0) :
    ∃ m1 m2, ∃ R : List Int → T, Cuda.flux3d i0 j0 k0 i1 j1 k1 dx b0 b1 b2 gcw u f0 f1 f2 β1 m = .ok m1 ∧ Cuda.diffusionV1Apply3d i0 i1 j0 j1 k0 k1 alpha beta dx agcw a gcw u f0 f1 f2 rgcw res β2 m1 = .ok m2 ∧
      (∀ p, F.InBounds [(i0, i1), (j0, j1), (k0, k1)] p → F.El m2 (F.cell3d res i0 j0 k0 i1 j1 k1 rgcw) p (R p)) ∧
      (F.sum i0 i1 fun i => F.sum j0 j1 fun j => F.sum k0 k1 fun k => V [i, j, k] * R [i, j, k]) =
        F.form3 i0 j0 k0 i1 j1 k1 alpha beta dx A B0 B1 B2 U V := by
  obtain ⟨m1, m2, R, c1, c2, E, hR⟩ := energy_v1_3 (alpha := alpha) (beta := beta) (dx := dx) hβ1 hβ2 hi hj hk hg hagcw hrgcw h hp hr hA hB0 hB1 hB2 hU
  have e : (F.sum i0 i1 fun i => F.sum j0 j1 fun j => F.sum k0 k1 fun k => V [i, j, k] * R [i, j, k]) = F.form3 i0 j0 k0 i1 j1 k1 alpha beta dx A B0 B1 B2 U V := by
    rw [← F.weak3 hi hj hk hV0]
    exact F.sum_congr fun i h0 h1 => F.sum_congr fun j h2 h3 => F.sum_congr fun k h4 h5 => (by rw [hR i j k h0 h1 h2 h3 h4 h5])
  exact ⟨m1, m2, R, c1, c2, E, e⟩

example : ∃ m1 m2, ∃ R : List Int → Rat, Cuda.flux3d 0 1 2 1 2 3 exDx ⟨2, 0⟩ ⟨3, 0⟩ ⟨4, 0⟩ 2 ⟨1, 0⟩ ⟨5, 0⟩ ⟨6, 0⟩ ⟨7, 0⟩ (fun _ => revBackend) (exDir 3 5 1) = .ok m1 ∧ Cuda.diffusionV1Apply3d 0 1 1 2 2 3 3 2 exDx 1 ⟨0, 0⟩ 2 ⟨1, 0⟩ ⟨5, 0⟩ ⟨6, 0⟩ ⟨7, 0⟩ 1 ⟨8, 0⟩ (fun _ => seqBackend) m1 = .ok m2 ∧
      (∀ p, F.InBounds [(0, 1), (1, 2), (2, 3)] p → F.El m2 (F.cell3d ⟨8, 0⟩ 0 1 2 1 2 3 1) p (R p)) ∧
      (F.sum 0 1 fun i => F.sum 1 2 fun j => F.sum 2 3 fun k => (exIns 3 3) [i, j, k] * R [i, j, k]) =
        F.form3 0 1 2 1 2 3 3 2 exDx (exRd (F.cell3d ⟨0, 0⟩ 0 1 2 1 2 3 1)) (exRd (F.face3d0 ⟨2, 0⟩ 0 1 2 1 2 3 0)) (exRd (F.face3d1 ⟨3, 0⟩ 0 1 2 1 2 3 0)) (exRd (F.face3d2 ⟨4, 0⟩ 0 1 2 1 2 3 0)) (exIns 3 5) (exIns 3 3) :=
  C54_v1_3d (T := Rat) (fun _ => revBackend_ok) (fun _ => seqBackend_ok) (by decide) (by decide) (by decide) (by decide) (by decide) (by decide) (exDir_args (by ex_args)) (⟨apart_blk (by decide), apart_blk (by decide), apart_blk (by decide)⟩) ⟨apart_blk (by decide), apart_blk (by decide), apart_blk (by decide)⟩
    (exDir_rd (by decide) (exRat_ok rfl (by decide) (by decide))) (exDir_rd (by decide) (exRat_ok rfl (by decide) (by decide))) (exDir_rd (by decide) (exRat_ok rfl (by decide) (by decide))) (exDir_rd (by decide) (exRat_ok rfl (by decide) (by decide))) exDir_u3 exIns_zero3

/-- 3D, diffusion operator with constant reaction: for every `V` that vanishes outside the box, the sum over the box of `V` times the result is the bilinear form of
`U` and `V`. -/
theorem C54_v2_3d {i0 j0 k0 i1 j1 k1 gcw rgcw : Int} {alpha beta : T} {dx : Nat → T} {u b0 b1 b2 f0 f1 f2 res : Ptr} {β1 β2 : Nat → Backend} {m : Mem T} {B0 B1 B2 U V : List Int → T}
    (hβ1 : ∀ n, ValidBackend (β1 n)) (hβ2 : ∀ n, ValidBackend (β2 n)) (hi : i0 ≤ i1) (hj : j0 ≤ j1) (hk : k0 ≤ k1) (hg : 1 ≤ gcw) (hrgcw : 0 ≤ rgcw)
    (h : F.Args m [(F.cell3d u i0 j0 k0 i1 j1 k1 gcw), (F.face3d0 b0 i0 j0 k0 i1 j1 k1 0), (F.face3d1 b1 i0 j0 k0 i1 j1 k1 0), (F.face3d2 b2 i0 j0 k0 i1 j1 k1 0)] [(F.face3d0 f0 i0 j0 k0 i1 j1 k1 0), (F.face3d1 f1 i0 j0 k0 i1 j1 k1 0), (F.face3d2 f2 i0 j0 k0 i1 j1 k1 0), (F.cell3d res i0 j0 k0 i1 j1 k1 rgcw)])
    (hp : F.Apart (F.face3d0 f0 i0 j0 k0 i1 j1 k1 0) (F.face3d1 f1 i0 j0 k0 i1 j1 k1 0) ∧ F.Apart (F.face3d0 f0 i0 j0 k0 i1 j1 k1 0) (F.face3d2 f2 i0 j0 k0 i1 j1 k1 0) ∧ F.Apart (F.face3d1 f1 i0 j0 k0 i1 j1 k1 0) (F.face3d2 f2 i0 j0 k0 i1 j1 k1 0))
    (hr : F.Apart (F.cell3d res i0 j0 k0 i1 j1 k1 rgcw) (F.face3d0 f0 i0 j0 k0 i1 j1 k1 0) ∧ F.Apart (F.cell3d res i0 j0 k0 i1 j1 k1 rgcw) (F.face3d1 f1 i0 j0 k0 i1 j1 k1 0) ∧ F.Apart (F.cell3d res i0 j0 k0 i1 j1 k1 rgcw) (F.face3d2 f2 i0 j0 k0 i1 j1 k1 0))
    (hB0 : F.Holds m (F.face3d0 b0 i0 j0 k0 i1 j1 k1 0) B0) (hB1 : F.Holds m (F.face3d1 b1 i0 j0 k0 i1 j1 k1 0) B1) (hB2 : F.Holds m (F.face3d2 b2 i0 j0 k0 i1 j1 k1 0) B2) (hU : F.Holds m (F.cell3d u i0 j0 k0 i1 j1 k1 gcw) U) (hV0 : ∀ p, ¬ F.InBounds [(i0, i1), (j0, j1), (k0, k1)] p → V p = 0) :
    ∃ m1 m2, ∃ R : List Int → T, Cuda.flux3d i0 j0 k0 i1 j1 k1 dx b0 b1 b2 gcw u f0 f1 f2 β1 m = .ok m1 ∧ Cuda.diffusionV2Apply3d i0 i1 j0 j1 k0 k1 alpha beta dx gcw u f0 f1 f2 rgcw res β2 m1 = .ok m2 ∧
      (∀ p, F.InBounds [(i0, i1), (j0, j1), (k0, k1)] p → F.El m2 (F.cell3d res i0 j0 k0 i1 j1 k1 rgcw) p (R p)) ∧
      (F.sum i0 i1 fun i => F.sum j0 j1 fun j => F.sum k0 k1 fun k => V [i, j, k] * R [i, j, k]) =
        F.form3 i0 j0 k0 i1 j1 k1 alpha beta dx (fun _ => 1) B0 B1 B2 U V := by
  obtain ⟨m1, m2, R, c1, c2, E, hR⟩ := energy_v2_3 (alpha := alpha) (beta := beta) (dx := dx) hβ1 hβ2 hi hj hk hg hrgcw h hp hr hB0 hB1 hB2 hU
  have e : (F.sum i0 i1 fun i => F.sum j0 j1 fun j => F.sum k0 k1 fun k => V [i, j, k] * R [i, j, k]) = F.form3 i0 j0 k0 i1 j1 k1 alpha beta dx (fun _ => 1) B0 B1 B2 U V := by
    rw [← F.weak3 hi hj hk hV0]
    exact F.sum_congr fun i h0 h1 => F.sum_congr fun j h2 h3 => F.sum_congr fun k h4 h5 => (by rw [hR i j k h0 h1 h2 h3 h4 h5])
  exact ⟨m1, m2, R, c1, c2, E, e⟩

example : ∃ m1 m2, ∃ R : List Int → Rat, Cuda.flux3d 0 1 2 1 2 3 exDx ⟨2, 0⟩ ⟨3, 0⟩ ⟨4, 0⟩ 2 ⟨1, 0⟩ ⟨5, 0⟩ ⟨6, 0⟩ ⟨7, 0⟩ (fun _ => revBackend) (exDir 3 5 1) = .ok m1 ∧ Cuda.diffusionV2Apply3d 0 1 1 2 2 3 3 2 exDx 2 ⟨1, 0⟩ ⟨5, 0⟩ ⟨6, 0⟩ ⟨7, 0⟩ 1 ⟨8, 0⟩ (fun _ => seqBackend) m1 = .ok m2 ∧
      (∀ p, F.InBounds [(0, 1), (1, 2), (2, 3)] p → F.El m2 (F.cell3d ⟨8, 0⟩ 0 1 2 1 2 3 1) p (R p)) ∧
      (F.sum 0 1 fun i => F.sum 1 2 fun j => F.sum 2 3 fun k => (exIns 3 3) [i, j, k] * R [i, j, k]) =
        F.form3 0 1 2 1 2 3 3 2 exDx (fun _ => 1) (exRd (F.face3d0 ⟨2, 0⟩ 0 1 2 1 2 3 0)) (exRd (F.face3d1 ⟨3, 0⟩ 0 1 2 1 2 3 0)) (exRd (F.face3d2 ⟨4, 0⟩ 0 1 2 1 2 3 0)) (exIns 3 5) (exIns 3 3) :=
  C54_v2_3d (T := Rat) (fun _ => revBackend_ok) (fun _ => seqBackend_ok) (by decide) (by decide) (by decide) (by decide) (by decide) (exDir_args (by ex_args)) (⟨apart_blk (by decide), apart_blk (by decide), apart_blk (by decide)⟩) ⟨apart_blk (by decide), apart_blk (by decide), apart_blk (by decide)⟩
    (exDir_rd (by decide) (exRat_ok rfl (by decide) (by decide))) (exDir_rd (by decide) (exRat_ok rfl (by decide) (by decide))) (exDir_rd (by decide) (exRat_ok rfl (by decide) (by decide))) exDir_u3 exIns_zero3

/-- 3D, Poisson operator: for every `V` that vanishes outside the box, the sum over the box of `V` times the result is the bilinear form of
`U` and `V`. -/
theorem C54_poisson_3d {i0 j0 k0 i1 j1 k1 gcw rgcw : Int} {beta : T} {dx : Nat → T} {u f0 f1 f2 res : Ptr} {β1 β2 : Nat → Backend} {m : Mem T} {U V : List Int → T}
    (hβ1 : ∀ n, ValidBackend (β1 n)) (hβ2 : ∀ n, ValidBackend (β2 n)) (hi : i0 ≤ i1) (hj : j0 ≤ j1) (hk : k0 ≤ k1) (hg : 1 ≤ gcw) (hrgcw : 0 ≤ rgcw)
    (h : F.Args m [(F.cell3d u i0 j0 k0 i1 j1 k1 gcw)] [(F.face3d0 f0 i0 j0 k0 i1 j1 k1 0), (F.face3d1 f1 i0 j0 k0 i1 j1 k1 0), (F.face3d2 f2 i0 j0 k0 i1 j1 k1 0), (F.cell3d res i0 j0 k0 i1 j1 k1 rgcw)])
    (hp : F.Apart (F.face3d0 f0 i0 j0 k0 i1 j1 k1 0) (F.face3d1 f1 i0 j0 k0 i1 j1 k1 0) ∧ F.Apart (F.face3d0 f0 i0 j0 k0 i1 j1 k1 0) (F.face3d2 f2 i0 j0 k0 i1 j1 k1 0) ∧ F.Apart (F.face3d1 f1 i0 j0 k0 i1 j1 k1 0) (F.face3d2 f2 i0 j0 k0 i1 j1 k1 0))
    (hr : F.Apart (F.cell3d res i0 j0 k0 i1 j1 k1 rgcw) (F.face3d0 f0 i0 j0 k0 i1 j1 k1 0) ∧ F.Apart (F.cell3d res i0 j0 k0 i1 j1 k1 rgcw) (F.face3d1 f1 i0 j0 k0 i1 j1 k1 0) ∧ F.Apart (F.cell3d res i0 j0 k0 i1 j1 k1 rgcw) (F.face3d2 f2 i0 j0 k0 i1 j1 k1 0))
    (hU : F.Holds m (F.cell3d u i0 j0 k0 i1 j1 k1 gcw) U) (hV0 : ∀ p, ¬ F.InBounds [(i0, i1), (j0, j1), (k0, k1)] p → V p = 0) :
    ∃ m1 m2, ∃ R : List Int → T, Cuda.poissonFlux3d i0 j0 k0 i1 j1 k1 dx gcw u f0 f1 f2 β1 m = .ok m1 ∧ Cuda.poissonV2Apply3d i0 i1 j0 j1 k0 k1 beta dx f0 f1 f2 rgcw res β2 m1 = .ok m2 ∧
      (∀ p, F.InBounds [(i0, i1), (j0, j1), (k0, k1)] p → F.El m2 (F.cell3d res i0 j0 k0 i1 j1 k1 rgcw) p (R p)) ∧
      (F.sum i0 i1 fun i => F.sum j0 j1 fun j => F.sum k0 k1 fun k => V [i, j, k] * R [i, j, k]) =
        F.form3 i0 j0 k0 i1 j1 k1 0 beta dx (fun _ => 1) (fun _ => 1) (fun _ => 1) (fun _ => 1) U V := by
  obtain ⟨m1, m2, R, c1, c2, E, hR⟩ := energy_p_3 (beta := beta) (dx := dx) hβ1 hβ2 hi hj hk hg hrgcw h hp hr hU
  have e : (F.sum i0 i1 fun i => F.sum j0 j1 fun j => F.sum k0 k1 fun k => V [i, j, k] * R [i, j, k]) = F.form3 i0 j0 k0 i1 j1 k1 0 beta dx (fun _ => 1) (fun _ => 1) (fun _ => 1) (fun _ => 1) U V := by
    rw [← F.weak3 hi hj hk hV0]
    exact F.sum_congr fun i h0 h1 => F.sum_congr fun j h2 h3 => F.sum_congr fun k h4 h5 => (by rw [hR i j k h0 h1 h2 h3 h4 h5])
  exact ⟨m1, m2, R, c1, c2, E, e⟩

example : ∃ m1 m2, ∃ R : List Int → Rat, Cuda.poissonFlux3d 0 1 2 1 2 3 exDx 2 ⟨1, 0⟩ ⟨5, 0⟩ ⟨6, 0⟩ ⟨7, 0⟩ (fun _ => revBackend) (exDir 3 5 1) = .ok m1 ∧ Cuda.poissonV2Apply3d 0 1 1 2 2 3 2 exDx ⟨5, 0⟩ ⟨6, 0⟩ ⟨7, 0⟩ 1 ⟨8, 0⟩ (fun _ => seqBackend) m1 = .ok m2 ∧
      (∀ p, F.InBounds [(0, 1), (1, 2), (2, 3)] p → F.El m2 (F.cell3d ⟨8, 0⟩ 0 1 2 1 2 3 1) p (R p)) ∧
      (F.sum 0 1 fun i => F.sum 1 2 fun j => F.sum 2 3 fun k => (exIns 3 3) [i, j, k] * R [i, j, k]) =
        F.form3 0 1 2 1 2 3 0 2 exDx (fun _ => 1) (fun _ => 1) (fun _ => 1) (fun _ => 1) (exIns 3 5) (exIns 3 3) :=
  C54_poisson_3d (T := Rat) (fun _ => revBackend_ok) (fun _ => seqBackend_ok) (by decide) (by decide) (by decide) (by decide) (by decide) (exDir_args (by ex_args)) (⟨apart_blk (by decide), apart_blk (by decide), apart_blk (by decide)⟩) ⟨apart_blk (by decide), apart_blk (by decide), apart_blk (by decide)⟩
     exDir_u3 exIns_zero3

/-- 1D, diffusion operator with cell coefficients: two runs with the same coefficients on `U` and `V`, both zero outside the box, leave results `R` and `S` with
`∑ V R = ∑ U S`. -/
theorem C55_v1_1d {i0 i1 agcw gcw rgcw : Int} {alpha beta : T} {dx : Nat → T} {a u b0 f0 res : Ptr} {β1 β2 : Nat → Backend} {β3 β4 : Nat → Backend} {m m' : Mem T} {A B0 U V : List Int → T}
    (hβ1 : ∀ n, ValidBackend (β1 n)) (hβ2 : ∀ n, ValidBackend (β2 n)) (hβ3 : ∀ n, ValidBackend (β3 n)) (hβ4 : ∀ n, ValidBackend (β4 n)) (hi : i0 ≤ i1) (hg : 1 ≤ gcw) (hagcw : 0 ≤ agcw) (hrgcw : 0 ≤ rgcw)
    (h : F.Args m [(F.cell1d a i0 i1 agcw), (F.cell1d u i0 i1 gcw), (F.face1d b0 i0 i1 0)] [(F.face1d f0 i0 i1 0), (F.cell1d res i0 i1 rgcw)]) (h' : F.Args m' [(F.cell1d a i0 i1 agcw), (F.cell1d u i0 i1 gcw), (F.face1d b0 i0 i1 0)] [(F.face1d f0 i0 i1 0), (F.cell1d res i0 i1 rgcw)])
    (hr : F.Apart (F.cell1d res i0 i1 rgcw) (F.face1d f0 i0 i1 0))
    (hA : F.Holds m (F.cell1d a i0 i1 agcw) A) (hB0 : F.Holds m (F.face1d b0 i0 i1 0) B0) (hU : F.Holds m (F.cell1d u i0 i1 gcw) U)
    (hA' : F.Holds m' (F.cell1d a i0 i1 agcw) A) (hB0' : F.Holds m' (F.face1d b0 i0 i1 0) B0) (hV : F.Holds m' (F.cell1d u i0 i1 gcw) V)
    (hU0 : ∀ p, ¬ F.InBounds [(i0, i1)] p → U p = 0) (hV0 : ∀ p, ¬ F.InBounds [(i0, i1)] p → V p = 0) :
    ∃ m1 m2 p1 p2, ∃ R S : List Int → T, Cuda.flux1d i0 i1 dx b0 gcw u f0 β1 m = .ok m1 ∧ Cuda.diffusionV1Apply1d i0 i1 alpha beta dx agcw a gcw u f0 rgcw res β2 m1 = .ok m2 ∧
      (∀ p, F.InBounds [(i0, i1)] p → F.El m2 (F.cell1d res i0 i1 rgcw) p (R p)) ∧
      Cuda.flux1d i0 i1 dx b0 gcw u f0 β3 m' = .ok p1 ∧ Cuda.diffusionV1Apply1d i0 i1 alpha beta dx agcw a gcw u f0 rgcw res β4 p1 = .ok p2 ∧
      (∀ p, F.InBounds [(i0, i1)] p → F.El p2 (F.cell1d res i0 i1 rgcw) p (S p)) ∧
      (F.sum i0 i1 fun i => V [i] * R [i]) =
        (F.sum i0 i1 fun i => U [i] * S [i]) := by
  obtain ⟨m1, m2, R, c1, c2, E, hR⟩ := energy_v1_1 (alpha := alpha) (beta := beta) (dx := dx) hβ1 hβ2 hi hg hagcw hrgcw h hr hA hB0 hU
  obtain ⟨p1, p2, S, d1, d2, E', hS⟩ := energy_v1_1 (alpha := alpha) (beta := beta) (dx := dx) hβ3 hβ4 hi hg hagcw hrgcw h' hr hA' hB0' hV
  have e : (F.sum i0 i1 fun i => V [i] * R [i]) = F.form1 i0 i1 alpha beta dx A B0 U V := by
    rw [← F.weak1 hi hV0]
    exact F.sum_congr fun i h0 h1 => (by rw [hR i h0 h1])
  have e' : (F.sum i0 i1 fun i => U [i] * S [i]) = F.form1 i0 i1 alpha beta dx A B0 V U := by
    rw [← F.weak1 hi hU0]
    exact F.sum_congr fun i h0 h1 => (by rw [hS i h0 h1])
  refine ⟨m1, m2, p1, p2, R, S, c1, c2, E, d1, d2, E', ?_⟩
  rw [e, e', F.form1_symm]

example : ∃ m1 m2 p1 p2, ∃ R S : List Int → Rat, Cuda.flux1d 0 3 exDx ⟨2, 0⟩ 2 ⟨1, 0⟩ ⟨5, 0⟩ (fun _ => revBackend) (exDir 1 5 1) = .ok m1 ∧ Cuda.diffusionV1Apply1d 0 3 3 2 exDx 1 ⟨0, 0⟩ 2 ⟨1, 0⟩ ⟨5, 0⟩ 1 ⟨8, 0⟩ (fun _ => seqBackend) m1 = .ok m2 ∧
      (∀ p, F.InBounds [(0, 3)] p → F.El m2 (F.cell1d ⟨8, 0⟩ 0 3 1) p (R p)) ∧
      Cuda.flux1d 0 3 exDx ⟨2, 0⟩ 2 ⟨1, 0⟩ ⟨5, 0⟩ (fun _ => seqBackend) (exDir 1 3 2) = .ok p1 ∧ Cuda.diffusionV1Apply1d 0 3 3 2 exDx 1 ⟨0, 0⟩ 2 ⟨1, 0⟩ ⟨5, 0⟩ 1 ⟨8, 0⟩ (fun _ => revBackend) p1 = .ok p2 ∧
      (∀ p, F.InBounds [(0, 3)] p → F.El p2 (F.cell1d ⟨8, 0⟩ 0 3 1) p (S p)) ∧
      (F.sum 0 3 fun i => (exIns 1 3) [i] * R [i]) =
        (F.sum 0 3 fun i => (exIns 1 5) [i] * S [i]) :=
  C55_v1_1d (T := Rat) (fun _ => revBackend_ok) (fun _ => seqBackend_ok) (fun _ => seqBackend_ok) (fun _ => revBackend_ok) (by decide) (by decide) (by decide) (by decide) (exDir_args (by ex_args)) (exDir_args (by ex_args)) (apart_blk (by decide))
    (exDir_rd (by decide) (exRat_ok rfl (by decide) (by decide))) (exDir_rd (by decide) (exRat_ok rfl (by decide) (by decide))) exDir_u1 (exDir_rd (by decide) (exRat_ok rfl (by decide) (by decide))) (exDir_rd (by decide) (exRat_ok rfl (by decide) (by decide))) exDir_u1 exIns_zero1 exIns_zero1

/-- 1D, diffusion operator with constant reaction: two runs with the same coefficients on `U` and `V`, both zero outside the box, leave results `R` and `S` with
`∑ V R = ∑ U S`. -/
theorem C55_v2_1d {i0 i1 gcw rgcw : Int} {alpha beta : T} {dx : Nat → T} {u b0 f0 res : Ptr} {β1 β2 : Nat → Backend} {β3 β4 : Nat → Backend} {m m' : Mem T} {B0 U V : List Int → T}
    (hβ1 : ∀ n, ValidBackend (β1 n)) (hβ2 : ∀ n, ValidBackend (β2 n)) (hβ3 : ∀ n, ValidBackend (β3 n)) (hβ4 : ∀ n, ValidBackend (β4 n)) (hi : i0 ≤ i1) (hg : 1 ≤ gcw) (hrgcw : 0 ≤ rgcw)
    (h : F.Args m [(F.cell1d u i0 i1 gcw), (F.face1d b0 i0 i1 0)] [(F.face1d f0 i0 i1 0), (F.cell1d res i0 i1 rgcw)]) (h' : F.Args m' [(F.cell1d u i0 i1 gcw), (F.face1d b0 i0 i1 0)] [(F.face1d f0 i0 i1 0), (F.cell1d res i0 i1 rgcw)])
    (hr : F.Apart (F.cell1d res i0 i1 rgcw) (F.face1d f0 i0 i1 0))
    (hB0 : F.Holds m (F.face1d b0 i0 i1 0) B0) (hU : F.Holds m (F.cell1d u i0 i1 gcw) U)
    (hB0' : F.Holds m' (F.face1d b0 i0 i1 0) B0) (hV : F.Holds m' (F.cell1d u i0 i1 gcw) V)
    (hU0 : ∀ p, ¬ F.InBounds [(i0, i1)] p → U p = 0) (hV0 : ∀ p, ¬ F.InBounds [(i0, i1)] p → V p = 0) :
    ∃ m1 m2 p1 p2, ∃ R S : List Int → T, Cuda.flux1d i0 i1 dx b0 gcw u f0 β1 m = .ok m1 ∧ Cuda.diffusionV2Apply1d i0 i1 alpha beta dx gcw u f0 rgcw res β2 m1 = .ok m2 ∧
      (∀ p, F.InBounds [(i0, i1)] p → F.El m2 (F.cell1d res i0 i1 rgcw) p (R p)) ∧
      Cuda.flux1d i0 i1 dx b0 gcw u f0 β3 m' = .ok p1 ∧ Cuda.diffusionV2Apply1d i0 i1 alpha beta dx gcw u f0 rgcw res β4 p1 = .ok p2 ∧
      (∀ p, F.InBounds [(i0, i1)] p → F.El p2 (F.cell1d res i0 i1 rgcw) p (S p)) ∧
      (F.sum i0 i1 fun i => V [i] * R [i]) =
        (F.sum i0 i1 fun i => U [i] * S [i]) := by
  obtain ⟨m1, m2, R, c1, c2, E, hR⟩ := energy_v2_1 (alpha := alpha) (beta := beta) (dx := dx) hβ1 hβ2 hi hg hrgcw h hr hB0 hU
  obtain ⟨p1, p2, S, d1, d2, E', hS⟩ := energy_v2_1 (alpha := alpha) (beta := beta) (dx := dx) hβ3 hβ4 hi hg hrgcw h' hr hB0' hV
  have e : (F.sum i0 i1 fun i => V [i] * R [i]) = F.form1 i0 i1 alpha beta dx (fun _ => 1) B0 U V := by
    rw [← F.weak1 hi hV0]
    exact F.sum_congr fun i h0 h1 => (by rw [hR i h0 h1])
  have e' : (F.sum i0 i1 fun i => U [i] * S [i]) = F.form1 i0 i1 alpha beta dx (fun _ => 1) B0 V U := by
    rw [← F.weak1 hi hU0]
    exact F.sum_congr fun i h0 h1 => (by rw [hS i h0 h1])
  refine ⟨m1, m2, p1, p2, R, S, c1, c2, E, d1, d2, E', ?_⟩
  rw [e, e', F.form1_symm]

example : ∃ m1 m2 p1 p2, ∃ R S : List Int → Rat, Cuda.flux1d 0 3 exDx ⟨2, 0⟩ 2 ⟨1, 0⟩ ⟨5, 0⟩ (fun _ => revBackend) (exDir 1 5 1) = .ok m1 ∧ Cuda.diffusionV2Apply1d 0 3 3 2 exDx 2 ⟨1, 0⟩ ⟨5, 0⟩ 1 ⟨8, 0⟩ (fun _ => seqBackend) m1 = .ok m2 ∧
      (∀ p, F.InBounds [(0, 3)] p → F.El m2 (F.cell1d ⟨8, 0⟩ 0 3 1) p (R p)) ∧
      Cuda.flux1d 0 3 exDx ⟨2, 0⟩ 2 ⟨1, 0⟩ ⟨5, 0⟩ (fun _ => seqBackend) (exDir 1 3 2) = .ok p1 ∧ Cuda.diffusionV2Apply1d 0 3 3 2 exDx 2 ⟨1, 0⟩ ⟨5, 0⟩ 1 ⟨8, 0⟩ (fun _ => revBackend) p1 = .ok p2 ∧
      (∀ p, F.InBounds [(0, 3)] p → F.El p2 (F.cell1d ⟨8, 0⟩ 0 3 1) p (S p)) ∧
      (F.sum 0 3 fun i => (exIns 1 3) [i] * R [i]) =
        (F.sum 0 3 fun i => (exIns 1 5) [i] * S [i]) :=
  C55_v2_1d (T := Rat) (fun _ => revBackend_ok) (fun _ => seqBackend_ok) (fun _ => seqBackend_ok) (fun _ => revBackend_ok) (by decide) (by decide) (by decide) (exDir_args (by ex_args)) (exDir_args (by ex_args)) (apart_blk (by decide))
    (exDir_rd (by decide) (exRat_ok rfl (by decide) (by decide))) exDir_u1 (exDir_rd (by decide) (exRat_ok rfl (by decide) (by decide))) exDir_u1 exIns_zero1 exIns_zero1

/-- 1D, Poisson operator: two runs with the same coefficients on `U` and `V`, both zero outside the box, leave results `R` and `S` with
`∑ V R = ∑ U S`. -/
theorem C55_poisson_1d {i0 i1 gcw rgcw : Int} {beta : T} {dx : Nat → T} {u f0 res : Ptr} {β1 β2 : Nat → Backend} {β3 β4 : Nat → Backend} {m m' : Mem T} {U V : List Int → T}
    (hβ1 : ∀ n, ValidBackend (β1 n)) (hβ2 : ∀ n, ValidBackend (β2 n)) (hβ3 : ∀ n, ValidBackend (β3 n)) (hβ4 : ∀ n, ValidBackend (β4 n)) (hi : i0 ≤ i1) (hg : 1 ≤ gcw) (hrgcw : 0 ≤ rgcw)
    (h : F.Args m [(F.cell1d u i0 i1 gcw)] [(F.face1d f0 i0 i1 0), (F.cell1d res i0 i1 rgcw)]) (h' : F.Args m' [(F.cell1d u i0 i1 gcw)] [(F.face1d f0 i0 i1 0), (F.cell1d res i0 i1 rgcw)])
    (hr : F.Apart (F.cell1d res i0 i1 rgcw) (F.face1d f0 i0 i1 0))
    (hU : F.Holds m (F.cell1d u i0 i1 gcw) U)
    (hV : F.Holds m' (F.cell1d u i0 i1 gcw) V)
    (hU0 : ∀ p, ¬ F.InBounds [(i0, i1)] p → U p = 0) (hV0 : ∀ p, ¬ F.InBounds [(i0, i1)] p → V p = 0) :
    ∃ m1 m2 p1 p2, ∃ R S : List Int → T, Cuda.poissonFlux1d i0 i1 dx gcw u f0 β1 m = .ok m1 ∧ Cuda.poissonV2Apply1d i0 i1 beta dx f0 rgcw res β2 m1 = .ok m2 ∧
      (∀ p, F.InBounds [(i0, i1)] p → F.El m2 (F.cell1d res i0 i1 rgcw) p (R p)) ∧
      Cuda.poissonFlux1d i0 i1 dx gcw u f0 β3 m' = .ok p1 ∧ Cuda.poissonV2Apply1d i0 i1 beta dx f0 rgcw res β4 p1 = .ok p2 ∧
      (∀ p, F.InBounds [(i0, i1)] p → F.El p2 (F.cell1d res i0 i1 rgcw) p (S p)) ∧
      (F.sum i0 i1 fun i => V [i] * R [i]) =
        (F.sum i0 i1 fun i => U [i] * S [i]) := by
  obtain ⟨m1, m2, R, c1, c2, E, hR⟩ := energy_p_1 (beta := beta) (dx := dx) hβ1 hβ2 hi hg hrgcw h hr hU
  obtain ⟨p1, p2, S, d1, d2, E', hS⟩ := energy_p_1 (beta := beta) (dx := dx) hβ3 hβ4 hi hg hrgcw h' hr hV
  have e : (F.sum i0 i1 fun i => V [i] * R [i]) = F.form1 i0 i1 0 beta dx (fun _ => 1) (fun _ => 1) U V := by
    rw [← F.weak1 hi hV0]
    exact F.sum_congr fun i h0 h1 => (by rw [hR i h0 h1])
  have e' : (F.sum i0 i1 fun i => U [i] * S [i]) = F.form1 i0 i1 0 beta dx (fun _ => 1) (fun _ => 1) V U := by
    rw [← F.weak1 hi hU0]
    exact F.sum_congr fun i h0 h1 => (by rw [hS i h0 h1])
  refine ⟨m1, m2, p1, p2, R, S, c1, c2, E, d1, d2, E', ?_⟩
  rw [e, e', F.form1_symm]

example : ∃ m1 m2 p1 p2, ∃ R S : List Int → Rat, Cuda.poissonFlux1d 0 3 exDx 2 ⟨1, 0⟩ ⟨5, 0⟩ (fun _ => revBackend) (exDir 1 5 1) = .ok m1 ∧ Cuda.poissonV2Apply1d 0 3 2 exDx ⟨5, 0⟩ 1 ⟨8, 0⟩ (fun _ => seqBackend) m1 = .ok m2 ∧
      (∀ p, F.InBounds [(0, 3)] p → F.El m2 (F.cell1d ⟨8, 0⟩ 0 3 1) p (R p)) ∧
      Cuda.poissonFlux1d 0 3 exDx 2 ⟨1, 0⟩ ⟨5, 0⟩ (fun _ => seqBackend) (exDir 1 3 2) = .ok p1 ∧ Cuda.poissonV2Apply1d 0 3 2 exDx ⟨5, 0⟩ 1 ⟨8, 0⟩ (fun _ => revBackend) p1 = .ok p2 ∧
      (∀ p, F.InBounds [(0, 3)] p → F.El p2 (F.cell1d ⟨8, 0⟩ 0 3 1) p (S p)) ∧
      (F.sum 0 3 fun i => (exIns 1 3) [i] * R [i]) =
        (F.sum 0 3 fun i => (exIns 1 5) [i] * S [i]) :=
  C55_poisson_1d (T := Rat) (fun _ => revBackend_ok) (fun _ => seqBackend_ok) (fun _ => seqBackend_ok) (fun _ => revBackend_ok) (by decide) (by decide) (by decide) (exDir_args (by ex_args)) (exDir_args (by ex_args)) (apart_blk (by decide))
     exDir_u1  exDir_u1 exIns_zero1 exIns_zero1

/-- 2D, diffusion operator with cell coefficients: two runs with the same coefficients on `U` and `V`, both zero outside the box, leave results `R` and `S` with
`∑ V R = ∑ U S`. -/
theorem C55_v1_2d {i0 j0 i1 j1 agcw gcw rgcw : Int} {alpha beta : T} {dx : Nat → T} {a u b0 b1 f0 f1 res : Ptr} {β1 β2 : Nat → Backend} {β3 β4 : Nat → Backend} {m m' : Mem T} {A B0 B1 U V : List Int → T}
    (hβ1 : ∀ n, ValidBackend (β1 n)) (hβ2 : ∀ n, ValidBackend (β2 n)) (hβ3 : ∀ n, ValidBackend (β3 n)) (hβ4 : ∀ n, ValidBackend (β4 n)) (hi : i0 ≤ i1) (hj : j0 ≤ j1) (hg : 1 ≤ gcw) (hagcw : 0 ≤ agcw) (hrgcw : 0 ≤ rgcw)
    (h : F.Args m [(F.cell2d a i0 j0 i1 j1 agcw), (F.cell2d u i0 j0 i1 j1 gcw), (F.face2d0 b0 i0 j0 i1 j1 0), (F.face2d1 b1 i0 j0 i1 j1 0)] [(F.face2d0 f0 i0 j0 i1 j1 0), (F.face2d1 f1 i0 j0 i1 j1 0), (F.cell2d res i0 j0 i1 j1 rgcw)]) (h' : F.Args m' [(F.cell2d a i0 j0 i1 j1 agcw), (F.cell2d u i0 j0 i1 j1 gcw), (F.face2d0 b0 i0 j0 i1 j1 0), (F.face2d1 b1 i0 j0 i1 j1 0)] [(F.face2d0 f0 i0 j0 i1 j1 0), (F.face2d1 f1 i0 j0 i1 j1 0), (F.cell2d res i0 j0 i1 j1 rgcw)])
    (hp : F.Apart (F.face2d0 f0 i0 j0 i1 j1 0) (F.face2d1 f1 i0 j0 i1 j1 0))
    (hr : F.Apart (F.cell2d res i0 j0 i1 j1 rgcw) (F.face2d0 f0 i0 j0 i1 j1 0) ∧ F.Apart (F.cell2d res i0 j0 i1 j1 rgcw) (F.face2d1 f1 i0 j0 i1 j1 0))
    (hA : F.Holds m (F.cell2d a i0 j0 i1 j1 agcw) A) (hB0 : F.Holds m (F.face2d0 b0 i0 j0 i1 j1 0) B0) (hB1 : F.Holds m (F.face2d1 b1 i0 j0 i1 j1 0) B1) (hU : F.Holds m (F.cell2d u i0 j0 i1 j1 gcw) U)
    (hA' : F.Holds m' (F.cell2d a i0 j0 i1 j1 agcw) A) (hB0' : F.Holds m' (F.face2d0 b0 i0 j0 i1 j1 0) B0) (hB1' : F.Holds m' (F.face2d1 b1 i0 j0 i1 j1 0) B1) (hV : F.Holds m' (F.cell2d u i0 j0 i1 j1 gcw) V)
    (hU0 : ∀ p, ¬ F.InBounds [(i0, i1), (j0, j1)] p → U p = 0) (hV0 : ∀ p, ¬ F.InBounds [(i0, i1), (j0, j1)] p → V p = 0) :
    ∃ m1 m2 p1 p2, ∃ R S : List Int → T, Cuda.flux2d i0 j0 i1 j1 dx b0 b1 gcw u f0 f1 β1 m = .ok m1 ∧ Cuda.diffusionV1Apply2d i0 i1 j0 j1 alpha beta dx agcw a gcw u f0 f1 rgcw res β2 m1 = .ok m2 ∧
      (∀ p, F.InBounds [(i0, i1), (j0, j1)] p → F.El m2 (F.cell2d res i0 j0 i1 j1 rgcw) p (R p)) ∧
      Cuda.flux2d i0 j0 i1 j1 dx b0 b1 gcw u f0 f1 β3 m' = .ok p1 ∧ Cuda.diffusionV1Apply2d i0 i1 j0 j1 alpha beta dx agcw a gcw u f0 f1 rgcw res β4 p1 = .ok p2 ∧
      (∀ p, F.InBounds [(i0, i1), (j0, j1)] p → F.El p2 (F.cell2d res i0 j0 i1 j1 rgcw) p (S p)) ∧
      (F.sum i0 i1 fun i => F.sum j0 j1 fun j => V [i, j] * R [i, j]) =
        (F.sum i0 i1 fun i => F.sum j0 j1 fun j => U [i, j] * S [i, j]) := by
  obtain ⟨m1, m2, R, c1, c2, E, hR⟩ := energy_v1_2 (alpha := alpha) (beta := beta) (dx := dx) hβ1 hβ2 hi hj hg hagcw hrgcw h hp hr hA hB0 hB1 hU
  obtain ⟨p1, p2, S, d1, d2, E', hS⟩ := energy_v1_2 (alpha := alpha) (beta := beta) (dx := dx) hβ3 hβ4 hi hj hg hagcw hrgcw h' hp hr hA' hB0' hB1' hV
  have e : (F.sum i0 i1 fun i => F.sum j0 j1 fun j => V [i, j] * R [i, j]) = F.form2 i0 j0 i1 j1 alpha beta dx A B0 B1 U V := by
    rw [← F.weak2 hi hj hV0]
    exact F.sum_congr fun i h0 h1 => F.sum_congr fun j h2 h3 => (by rw [hR i j h0 h1 h2 h3])
  have e' : (F.sum i0 i1 fun i => F.sum j0 j1 fun j => U [i, j] * S [i, j]) = F.form2 i0 j0 i1 j1 alpha beta dx A B0 B1 V U := by
    rw [← F.weak2 hi hj hU0]
    exact F.sum_congr fun i h0 h1 => F.sum_congr fun j h2 h3 => (by rw [hS i j h0 h1 h2 h3])
  refine ⟨m1, m2, p1, p2, R, S, c1, c2, E, d1, d2, E', ?_⟩
  rw [e, e', F.form2_symm]

example : ∃ m1 m2 p1 p2, ∃ R S : List Int → Rat, Cuda.flux2d 0 1 2 3 exDx ⟨2, 0⟩ ⟨3, 0⟩ 2 ⟨1, 0⟩ ⟨5, 0⟩ ⟨6, 0⟩ (fun _ => revBackend) (exDir 2 5 1) = .ok m1 ∧ Cuda.diffusionV1Apply2d 0 2 1 3 3 2 exDx 1 ⟨0, 0⟩ 2 ⟨1, 0⟩ ⟨5, 0⟩ ⟨6, 0⟩ 1 ⟨8, 0⟩ (fun _ => seqBackend) m1 = .ok m2 ∧
      (∀ p, F.InBounds [(0, 2), (1, 3)] p → F.El m2 (F.cell2d ⟨8, 0⟩ 0 1 2 3 1) p (R p)) ∧
      Cuda.flux2d 0 1 2 3 exDx ⟨2, 0⟩ ⟨3, 0⟩ 2 ⟨1, 0⟩ ⟨5, 0⟩ ⟨6, 0⟩ (fun _ => seqBackend) (exDir 2 3 2) = .ok p1 ∧ Cuda.diffusionV1Apply2d 0 2 1 3 3 2 exDx 1 ⟨0, 0⟩ 2 ⟨1, 0⟩ ⟨5, 0⟩ ⟨6, 0⟩ 1 ⟨8, 0⟩ (fun _ => revBackend) p1 = .ok p2 ∧
      (∀ p, F.InBounds [(0, 2), (1, 3)] p → F.El p2 (F.cell2d ⟨8, 0⟩ 0 1 2 3 1) p (S p)) ∧
      (F.sum 0 2 fun i => F.sum 1 3 fun j => (exIns 2 3) [i, j] * R [i, j]) =
        (F.sum 0 2 fun i => F.sum 1 3 fun j => (exIns 2 5) [i, j] * S [i, j]) :=
  C55_v1_2d (T := Rat) (fun _ => revBackend_ok) (fun _ => seqBackend_ok) (fun _ => seqBackend_ok) (fun _ => revBackend_ok) (by decide) (by decide) (by decide) (by decide) (by decide) (exDir_args (by ex_args)) (exDir_args (by ex_args)) (apart_blk (by decide)) ⟨apart_blk (by decide), apart_blk (by decide)⟩
    (exDir_rd (by decide) (exRat_ok rfl (by decide) (by decide))) (exDir_rd (by decide) (exRat_ok rfl (by decide) (by decide))) (exDir_rd (by decide) (exRat_ok rfl (by decide) (by decide))) exDir_u2 (exDir_rd (by decide) (exRat_ok rfl (by decide) (by decide))) (exDir_rd (by decide) (exRat_ok rfl (by decide) (by decide))) (exDir_rd (by decide) (exRat_ok rfl (by decide) (by decide))) exDir_u2 exIns_zero2 exIns_zero2

/-- 2D, diffusion operator with constant reaction: two runs with the same coefficients on `U` and `V`, both zero outside the box, leave results `R` and `S` with
`∑ V R = ∑ U S`. -/
theorem C55_v2_2d {i0 j0 i1 j1 gcw rgcw : Int} {alpha beta : T} {dx : Nat → T} {u b0 b1 f0 f1 res : Ptr} {β1 β2 : Nat → Backend} {β3 β4 : Nat → Backend} {m m' : Mem T} {B0 B1 U V : List Int → T}
    (hβ1 : ∀ n, ValidBackend (β1 n)) (hβ2 : ∀ n, ValidBackend (β2 n)) (hβ3 : ∀ n, ValidBackend (β3 n)) (hβ4 : ∀ n, ValidBackend (β4 n)) (hi : i0 ≤ i1) (hj : j0 ≤ j1) (hg : 1 ≤ gcw) (hrgcw : 0 ≤ rgcw)
    (h : F.Args m [(F.cell2d u i0 j0 i1 j1 gcw), (F.face2d0 b0 i0 j0 i1 j1 0), (F.face2d1 b1 i0 j0 i1 j1 0)] [(F.face2d0 f0 i0 j0 i1 j1 0), (F.face2d1 f1 i0 j0 i1 j1 0), (F.cell2d res i0 j0 i1 j1 rgcw)]) (h' : F.Args m' [(F.cell2d u i0 j0 i1 j1 gcw), (F.face2d0 b0 i0 j0 i1 j1 0), (F.face2d1 b1 i0 j0 i1 j1 0)] [(F.face2d0 f0 i0 j0 i1 j1 0), (F.face2d1 f1 i0 j0 i1 j1 0), (F.cell2d res i0 j0 i1 j1 rgcw)])
    (hp : F.Apart (F.face2d0 f0 i0 j0 i1 j1 0) (F.face2d1 f1 i0 j0 i1 j1 0))
    (hr : F.Apart (F.cell2d res i0 j0 i1 j1 rgcw) (F.face2d0 f0 i0 j0 i1 j1 0) ∧ F.Apart (F.cell2d res i0 j0 i1 j1 rgcw) (F.face2d1 f1 i0 j0 i1 j1 0))
    (hB0 : F.Holds m (F.face2d0 b0 i0 j0 i1 j1 0) B0) (hB1 : F.Holds m (F.face2d1 b1 i0 j0 i1 j1 0) B1) (hU : F.Holds m (F.cell2d u i0 j0 i1 j1 gcw) U)
    (hB0' : F.Holds m' (F.face2d0 b0 i0 j0 i1 j1 0) B0) (hB1' : F.Holds m' (F.face2d1 b1 i0 j0 i1 j1 0) B1) (hV : F.Holds m' (F.cell2d u i0 j0 i1 j1 gcw) V)
    (hU0 : ∀ p, ¬ F.InBounds [(i0, i1), (j0, j1)] p → U p = 0) (hV0 : ∀ p, ¬ F.InBounds [(i0, i1), (j0, j1)] p → V p = 0) :
    ∃ m1 m2 p1 p2, ∃ R S : List Int → T, Cuda.flux2d i0 j0 i1 j1 dx b0 b1 gcw u f0 f1 β1 m = .ok m1 ∧ Cuda.diffusionV2Apply2d i0 i1 j0 j1 alpha beta dx gcw u f0 f1 rgcw res β2 m1 = .ok m2 ∧
      (∀ p, F.InBounds [(i0, i1), (j0, j1)] p → F.El m2 (F.cell2d res i0 j0 i1 j1 rgcw) p (R p)) ∧
      Cuda.flux2d i0 j0 i1 j1 dx b0 b1 gcw u f0 f1 β3 m' = .ok p1 ∧ Cuda.diffusionV2Apply2d i0 i1 j0 j1 alpha beta dx gcw u f0 f1 rgcw res β4 p1 = .ok p2 ∧
      (∀ p, F.InBounds [(i0, i1), (j0, j1)] p → F.El p2 (F.cell2d res i0 j0 i1 j1 rgcw) p (S p)) ∧
      (F.sum i0 i1 fun i => F.sum j0 j1 fun j => V [i, j] * R [i, j]) =
        (F.sum i0 i1 fun i => F.sum j0 j1 fun j => U [i, j] * S [i, j]) := by
  obtain ⟨m1, m2, R, c1, c2, E, hR⟩ := energy_v2_2 (alpha := alpha) (beta := beta) (dx := dx) hβ1 hβ2 hi hj hg hrgcw h hp hr hB0 hB1 hU
  obtain ⟨p1, p2, S, d1, d2, E', hS⟩ := energy_v2_2 (alpha := alpha) (beta := beta) (dx := dx) hβ3 hβ4 hi hj hg hrgcw h' hp hr hB0' hB1' hV
  have e : (F.sum i0 i1 fun i => F.sum j0 j1 fun j => V [i, j] * R [i, j]) = F.form2 i0 j0 i1 j1 alpha beta dx (fun _ => 1) B0 B1 U V := by
    rw [← F.weak2 hi hj hV0]
    exact F.sum_congr fun i h0 h1 => F.sum_congr fun j h2 h3 => (by rw [hR i j h0 h1 h2 h3])
  have e' : (F.sum i0 i1 fun i => F.sum j0 j1 fun j => U [i, j] * S [i, j]) = F.form2 i0 j0 i1 j1 alpha beta dx (fun _ => 1) B0 B1 V U := by
    rw [← F.weak2 hi hj hU0]
    exact F.sum_congr fun i h0 h1 => F.sum_congr fun j h2 h3 => (by rw [hS i j h0 h1 h2 h3])
  refine ⟨m1, m2, p1, p2, R, S, c1, c2, E, d1, d2, E', ?_⟩
  rw [e, e', F.form2_symm]

example : ∃ m1 m2 p1 p2, ∃ R S : List Int → Rat, Cuda.flux2d 0 1 2 3 exDx ⟨2, 0⟩ ⟨3, 0⟩ 2 ⟨1, 0⟩ ⟨5, 0⟩ ⟨6, 0⟩ (fun _ => revBackend) (exDir 2 5 1) = .ok m1 ∧ Cuda.diffusionV2Apply2d 0 2 1 3 3 2 exDx 2 ⟨1, 0⟩ ⟨5, 0⟩ ⟨6, 0⟩ 1 ⟨8, 0⟩ (fun _ => seqBackend) m1 = .ok m2 ∧
      (∀ p, F.InBounds [(0, 2), (1, 3)] p → F.El m2 (F.cell2d ⟨8, 0⟩ 0 1 2 3 1) p (R p)) ∧
      Cuda.flux2d 0 1 2 3 exDx ⟨2, 0⟩ ⟨3, 0⟩ 2 ⟨1, 0⟩ ⟨5, 0⟩ ⟨6, 0⟩ (fun _ => seqBackend) (exDir 2 3 2) = .ok p1 ∧ Cuda.diffusionV2Apply2d 0 2 1 3 3 2 exDx 2 ⟨1, 0⟩ ⟨5, 0⟩ ⟨6, 0⟩ 1 ⟨8, 0⟩ (fun _ => revBackend) p1 = .ok p2 ∧
      (∀ p, F.InBounds [(0, 2), (1, 3)] p → F.El p2 (F.cell2d ⟨8, 0⟩ 0 1 2 3 1) p (S p)) ∧
      (F.sum 0 2 fun i => F.sum 1 3 fun j => (exIns 2 3) [i, j] * R [i, j]) =
        (F.sum 0 2 fun i => F.sum 1 3 fun j => (exIns 2 5) [i, j] * S [i, j]) :=
  C55_v2_2d (T := Rat) (fun _ => revBackend_ok) (fun _ => seqBackend_ok) (fun _ => seqBackend_ok) (fun _ => revBackend_ok) (by decide) (by decide) (by decide) (by decide) (exDir_args (by ex_args)) (exDir_args (by ex_args)) (apart_blk (by decide)) ⟨apart_blk (by decide), apart_blk (by decide)⟩
    (exDir_rd (by decide) (exRat_ok rfl (by decide) (by decide))) (exDir_rd (by decide) (exRat_ok rfl (by decide) (by decide))) exDir_u2 (exDir_rd (by decide) (exRat_ok rfl (by decide) (by decide))) (exDir_rd (by decide) (exRat_ok rfl (by decide) (by decide))) exDir_u2 exIns_zero2 exIns_zero2

/-- 2D, Poisson operator: two runs with the same coefficients on `U` and `V`, both zero outside the box, leave results `R` and `S` with
`∑ V R = ∑ U S`. -/
theorem C55_poisson_2d {i0 j0 i1 j1 gcw rgcw : Int} {beta : T} {dx : Nat → T} {u f0 f1 res : Ptr} {β1 β2 : Nat → Backend} {β3 β4 : Nat → Backend} {m m' : Mem T} {U V : List Int → T}
    (hβ1 : ∀ n, ValidBackend (β1 n)) (hβ2 : ∀ n, ValidBackend (β2 n)) (hβ3 : ∀ n, ValidBackend (β3 n)) (hβ4 : ∀ n, ValidBackend (β4 n)) (hi : i0 ≤ i1) (hj : j0 ≤ j1) (hg : 1 ≤ gcw) (hrgcw : 0 ≤ rgcw)
    (h : F.Args m [(F.cell2d u i0 j0 i1 j1 gcw)] [(F.face2d0 f0 i0 j0 i1 j1 0), (F.face2d1 f1 i0 j0 i1 j1 0), (F.cell2d res i0 j0 i1 j1 rgcw)]) (h' : F.Args m' [(F.cell2d u i0 j0 i1 j1 gcw)] [(F.face2d0 f0 i0 j0 i1 j1 0), (F.face2d1 f1 i0 j0 i1 j1 0), (F.cell2d res i0 j0 i1 j1 rgcw)])
    (hp : F.Apart (F.face2d0 f0 i0 j0 i1 j1 0) (F.face2d1 f1 i0 j0 i1 j1 0))
    (hr : F.Apart (F.cell2d res i0 j0 i1 j1 rgcw) (F.face2d0 f0 i0 j0 i1 j1 0) ∧ F.Apart (F.cell2d res i0 j0 i1 j1 rgcw) (F.face2d1 f1 i0 j0 i1 j1 0))
    (hU : F.Holds m (F.cell2d u i0 j0 i1 j1 gcw) U)
    (hV : F.Holds m' (F.cell2d u i0 j0 i1 j1 gcw) V)
    (hU0 : ∀ p, ¬ F.InBounds [(i0, i1), (j0, j1)] p → U p = 0) (hV0 : ∀ p, ¬ F.InBounds [(i0, i1), (j0, j1)] p → V p = 0) :
    ∃ m1 m2 p1 p2, ∃ R S : List Int → T, Cuda.poissonFlux2d i0 j0 i1 j1 dx gcw u f0 f1 β1 m = .ok m1 ∧ Cuda.poissonV2Apply2d i0 i1 j0 j1 beta dx f0 f1 rgcw res β2 m1 = .ok m2 ∧
      (∀ p, F.InBounds [(i0, i1), (j0, j1)] p → F.El m2 (F.cell2d res i0 j0 i1 j1 rgcw) p (R p)) ∧
      Cuda.poissonFlux2d i0 j0 i1 j1 dx gcw u f0 f1 β3 m' = .ok p1 ∧ Cuda.poissonV2Apply2d i0 i1 j0 j1 beta dx f0 f1 rgcw res β4 p1 = .ok p2 ∧
      (∀ p, F.InBounds [(i0, i1), (j0, j1)] p → F.El p2 (F.cell2d res i0 j0 i1 j1 rgcw) p (S p)) ∧
      (F.sum i0 i1 fun i => F.sum j0 j1 fun j => V [i, j] * R [i, j]) =
        (F.sum i0 i1 fun i => F.sum j0 j1 fun j => U [i, j] * S [i, j]) := by
  obtain ⟨m1, m2, R, c1, c2, E, hR⟩ := energy_p_2 (beta := beta) (dx := dx) hβ1 hβ2 hi hj hg hrgcw h hp hr hU
  obtain ⟨p1, p2, S, d1, d2, E', hS⟩ := energy_p_2 (beta := beta) (dx := dx) hβ3 hβ4 hi hj hg hrgcw h' hp hr hV
  have e : (F.sum i0 i1 fun i => F.sum j0 j1 fun j => V [i, j] * R [i, j]) = F.form2 i0 j0 i1 j1 0 beta dx (fun _ => 1) (fun _ => 1) (fun _ => 1) U V := by
    rw [← F.weak2 hi hj hV0]
    exact F.sum_congr fun i h0 h1 => F.sum_congr fun j h2 h3 => (by rw [hR i j h0 h1 h2 h3])
  have e' : (F.sum i0 i1 fun i => F.sum j0 j1 fun j => U [i, j] * S [i, j]) = F.form2 i0 j0 i1 j1 0 beta dx (fun _ => 1) (fun _ => 1) (fun _ => 1) V U := by
    rw [← F.weak2 hi hj hU0]
    exact F.sum_congr fun i h0 h1 => F.sum_congr fun j h2 h3 => (by rw [hS i j h0 h1 h2 h3])
  refine ⟨m1, m2, p1, p2, R, S, c1, c2, E, d1, d2, E', ?_⟩
  rw [e, e', F.form2_symm]

example : ∃ m1 m2 p1 p2, ∃ R S : List Int → Rat, Cuda.poissonFlux2d 0 1 2 3 exDx 2 ⟨1, 0⟩ ⟨5, 0⟩ ⟨6, 0⟩ (fun _ => revBackend) (exDir 2 5 1) = .ok m1 ∧ Cuda.poissonV2Apply2d 0 2 1 3 2 exDx ⟨5, 0⟩ ⟨6, 0⟩ 1 ⟨8, 0⟩ (fun _ => seqBackend) m1 = .ok m2 ∧
      (∀ p, F.InBounds [(0, 2), (1, 3)] p → F.El m2 (F.cell2d ⟨8, 0⟩ 0 1 2 3 1) p (R p)) ∧
      Cuda.poissonFlux2d 0 1 2 3 exDx 2 ⟨1, 0⟩ ⟨5, 0⟩ ⟨6, 0⟩ (fun _ => seqBackend) (exDir 2 3 2) = .ok p1 ∧ Cuda.poissonV2Apply2d 0 2 1 3 2 exDx ⟨5, 0⟩ ⟨6, 0⟩ 1 ⟨8, 0⟩ (fun _ => revBackend) p1 = .ok p2 ∧
      (∀ p, F.InBounds [(0, 2), (1, 3)] p → F.El p2 (F.cell2d ⟨8, 0⟩ 0 1 2 3 1) p (S p)) ∧
      (F.sum 0 2 fun i => F.sum 1 3 fun j => (exIns 2 3) [i, j] * R [i, j]) =
        (F.sum 0 2 fun i => F.sum 1 3 fun j => (exIns 2 5) [i, j] * S [i, j]) :=
  C55_poisson_2d (T := Rat) (fun _ => revBackend_ok) (fun _ => seqBackend_ok) (fun _ => seqBackend_ok) (fun _ => revBackend_ok) (by decide) (by decide) (by decide) (by decide) (exDir_args (by ex_args)) (exDir_args (by ex_args)) (apart_blk (by decide)) ⟨apart_blk (by decide), apart_blk (by decide)⟩
     exDir_u2  exDir_u2 exIns_zero2 exIns_zero2

/-- 3D, diffusion operator with cell coefficients: two runs with the same coefficients on `U` and `V`, both zero outside the box, leave results `R` and `S` with
`∑ V R = ∑ U S`. -/
theorem C55_v1_3d {i0 j0 k0 i1 j1 k1 agcw gcw rgcw : Int} {alpha beta : T} {dx : Nat → T} {a u b0 b1 b2 f0 f1 f2 res : Ptr} {β1 β2 : Nat → Backend} {β3 β4 : Nat → Backend} {m m' : Mem T} {A B0 B1 B2 U V : List Int → T}
    (hβ1 : ∀ n, ValidBackend (β1 n)) (hβ2 : ∀ n, ValidBackend (β2 n)) (hβ3 : ∀ n, ValidBackend (β3 n)) (hβ4 : ∀ n, ValidBackend (β4 n)) (hi : i0 ≤ i1) (hj : j0 ≤ j1) (hk : k0 ≤ k1) (hg : 1 ≤ gcw) (hagcw : 0 ≤ agcw) (hrgcw : 0 ≤ rgcw)
    (h : F.Args m [(F.cell3d a i0 j0 k0 i1 j1 k1 agcw), (F.cell3d u i0 j0 k0 i1 j1 k1 gcw), (F.face3d0 b0 i0 j0 k0 i1 j1 k1 0), (F.face3d1 b1 i0 j0 k0 i1 j1 k1 0), (F.face3d2 b2 i0 j0 k0 i1 j1 k1 0)] [(F.face3d0 f0 i0 j0 k0 i1 j1 k1 0), (F.face3d1 f1 i0 j0 k0 i1 j1 k1 0), (F.face3d2 f2 i0 j0 k0 i1 j1 k1 0), (F.cell3d res i0 j0 k0 i1 j1 k1 rgcw)]) (h' : F.Args m' [(F.cell3d a i0 j0 k0 i1 j1 k1 agcw), (F.cell3d u i0 j0 k0 i1 j1 k1 gcw), (F.face3d0 b0 i0 j0 k0 i1 j1 k1 0), (F.face3d1 b1 i0 j0 k0 i1 j1 k1 0), (F.face3d2 b2 i0 j0 k0 i1 j1 k1 0)] [(F.face3d0 f0 i0 j0 k0 i1 j1 k1 0), (F.face3d1 f1 i0 j0 k0 i1 j1 k1 0), (F.face3d2 f2 i0 j0 k0 i1 j1 k1 0), (F.cell3d res i0 j0 k0 i1 j1 k1 rgcw)])
    (hp : F.Apart (F.face3d0 f0 i0 j0 k0 i1 j1 k1 0) (F.face3d1 f1 i0 j0 k0 i1 j1 k1 0) ∧ F.Apart (F.face3d0 f0 i0 j0 k0 i1 j1 k1 0) (F.face3d2 f2 i0 j0 k0 i1 j1 k1 0) ∧ F.Apart (F.face3d1 f1 i0 j0 k0 i1 j1 k1 0) (F.face3d2 f2 i0 j0 k0 i1 j1 k1 0))
    (hr : F.Apart (F.cell3d res i0 j0 k0 i1 j1 k1 rgcw) (F.face3d0 f0 i0 j0 k0 i1 j1 k1 0) ∧ F.Apart (F.cell3d res i0 j0 k0 i1 j1 k1 rgcw) (F.face3d1 f1 i0 j0 k0 i1 j1 k1 0) ∧ F.Apart (F.cell3d res i0 j0 k0 i1 j1 k1 rgcw) (F.face3d2 f2 i0 j0 k0 i1 j1 k1 0))
    (hA : F.Holds m (F.cell3d a i0 j0 k0 i1 j1 k1 agcw) A) (hB0 : F.Holds m (F.face3d0 b0 i0 j0 k0 i1 j1 k1 0) B0) (hB1 : F.Holds m (F.face3d1 b1 i0 j0 k0 i1 j1 k1 0) B1) (hB2 : F.Holds m (F.face3d2 b2 i0 j0 k0 i1 j1 k1 0) B2) (hU : F.Holds m (F.cell3d u i0 j0 k0 i1 j1 k1 gcw) U)
    (hA' : F.Holds m' (F.cell3d a i0 j0 k0 i1 j1 k1 agcw) A) (hB0' : F.Holds m' (F.face3d0 b0 i0 j0 k0 i1 j1 k1 0) B0) (hB1' : F.Holds m' (F.face3d1 b1 i0 j0 k0 i1 j1 k1 0) B1) (hB2' : F.Holds m' (F.face3d2 b2 i0 j0 k0 i1 j1 k1 0) B2) (hV : F.Holds m' (F.cell3d u i0 j0 k0 i1 j1 k1 gcw) V)
    (hU0 : ∀ p, ¬ F.InBounds [(i0, i1), (j0, j1), (k0, k1)] p → U p = 0) (hV0 : ∀ p, ¬ F.InBounds [(i0, i1), (j0, j1), (k0, k1)] p → V p = 0) :
    ∃ m1 m2 p1 p2, ∃ R S : List Int → T, Cuda.flux3d i0 j0 k0 i1 j1 k1 dx b0 b1 b2 gcw u f0 f1 f2 β1 m = .ok m1 ∧ Cuda.diffusionV1Apply3d i0 i1 j0 j1 k0 k1 alpha beta dx agcw a gcw u f0 f1 f2 rgcw res β2 m1 = .ok m2 ∧
      (∀ p, F.InBounds [(i0, i1), (j0, j1), (k0, k1)] p → F.El m2 (F.cell3d res i0 j0 k0 i1 j1 k1 rgcw) p (R p)) ∧
      Cuda.flux3d i0 j0 k0 i1 j1 k1 dx b0 b1 b2 gcw u f0 f1 f2 β3 m' = .ok p1 ∧ Cuda.diffusionV1Apply3d i0 i1 j0 j1 k0 k1 alpha beta dx agcw a gcw u f0 f1 f2 rgcw res β4 p1 = .ok p2 ∧
      (∀ p, F.InBounds [(i0, i1), (j0, j1), (k0, k1)] p → F.El p2 (F.cell3d res i0 j0 k0 i1 j1 k1 rgcw) p (S p)) ∧
      (F.sum i0 i1 fun i => F.sum j0 j1 fun j => F.sum k0 k1 fun k => V [i, j, k] * R [i, j, k]) =
        (F.sum i0 i1 fun i => F.sum j0 j1 fun j => F.sum k0 k1 fun k => U [i, j, k] * S [i, j, k]) := by
  obtain ⟨m1, m2, R, c1, c2, E, hR⟩ := energy_v1_3 (alpha := alpha) (beta := beta) (dx := dx) hβ1 hβ2 hi hj hk hg hagcw hrgcw h hp hr hA hB0 hB1 hB2 hU
  obtain ⟨p1, p2, S, d1, d2, E', hS⟩ := energy_v1_3 (alpha := alpha) (beta := beta) (dx := dx) hβ3 hβ4 hi hj hk hg hagcw hrgcw h' hp hr hA' hB0' hB1' hB2' hV
  have e : (F.sum i0 i1 fun i => F.sum j0 j1 fun j => F.sum k0 k1 fun k => V [i, j, k] * R [i, j, k]) = F.form3 i0 j0 k0 i1 j1 k1 alpha beta dx A B0 B1 B2 U V := by
    rw [← F.weak3 hi hj hk hV0]
    exact F.sum_congr fun i h0 h1 => F.sum_congr fun j h2 h3 => F.sum_congr fun k h4 h5 => (by rw [hR i j k h0 h1 h2 h3 h4 h5])
  have e' : (F.sum i0 i1 fun i => F.sum j0 j1 fun j => F.sum k0 k1 fun k => U [i, j, k] * S [i, j, k]) = F.form3 i0 j0 k0 i1 j1 k1 alpha beta dx A B0 B1 B2 V U := by
    rw [← F.weak3 hi hj hk hU0]
    exact F.sum_congr fun i h0 h1 => F.sum_congr fun j h2 h3 => F.sum_congr fun k h4 h5 => (by rw [hS i j k h0 h1 h2 h3 h4 h5])
  refine ⟨m1, m2, p1, p2, R, S, c1, c2, E, d1, d2, E', ?_⟩
  rw [e, e', F.form3_symm]

example : ∃ m1 m2 p1 p2, ∃ R S : List Int → Rat, Cuda.flux3d 0 1 2 1 2 3 exDx ⟨2, 0⟩ ⟨3, 0⟩ ⟨4, 0⟩ 2 ⟨1, 0⟩ ⟨5, 0⟩ ⟨6, 0⟩ ⟨7, 0⟩ (fun _ => revBackend) (exDir 3 5 1) = .ok m1 ∧ Cuda.diffusionV1Apply3d 0 1 1 2 2 3 3 2 exDx 1 ⟨0, 0⟩ 2 ⟨1, 0⟩ ⟨5, 0⟩ ⟨6, 0⟩ ⟨7, 0⟩ 1 ⟨8, 0⟩ (fun _ => seqBackend) m1 = .ok m2 ∧
      (∀ p, F.InBounds [(0, 1), (1, 2), (2, 3)] p → F.El m2 (F.cell3d ⟨8, 0⟩ 0 1 2 1 2 3 1) p (R p)) ∧
      Cuda.flux3d 0 1 2 1 2 3 exDx ⟨2, 0⟩ ⟨3, 0⟩ ⟨4, 0⟩ 2 ⟨1, 0⟩ ⟨5, 0⟩ ⟨6, 0⟩ ⟨7, 0⟩ (fun _ => seqBackend) (exDir 3 3 2) = .ok p1 ∧ Cuda.diffusionV1Apply3d 0 1 1 2 2 3 3 2 exDx 1 ⟨0, 0⟩ 2 ⟨1, 0⟩ ⟨5, 0⟩ ⟨6, 0⟩ ⟨7, 0⟩ 1 ⟨8, 0⟩ (fun _ => revBackend) p1 = .ok p2 ∧
      (∀ p, F.InBounds [(0, 1), (1, 2), (2, 3)] p → F.El p2 (F.cell3d ⟨8, 0⟩ 0 1 2 1 2 3 1) p (S p)) ∧
      (F.sum 0 1 fun i => F.sum 1 2 fun j => F.sum 2 3 fun k => (exIns 3 3) [i, j, k] * R [i, j, k]) =
        (F.sum 0 1 fun i => F.sum 1 2 fun j => F.sum 2 3 fun k => (exIns 3 5) [i, j, k] * S [i, j, k]) :=
  C55_v1_3d (T := Rat) (fun _ => revBackend_ok) (fun _ => seqBackend_ok) (fun _ => seqBackend_ok) (fun _ => revBackend_ok) (by decide) (by decide) (by decide) (by decide) (by decide) (by decide) (exDir_args (by ex_args)) (exDir_args (by ex_args)) (⟨apart_blk (by decide), apart_blk (by decide), apart_blk (by decide)⟩) ⟨apart_blk (by decide), apart_blk (by decide), apart_blk (by decide)⟩
    (exDir_rd (by decide) (exRat_ok rfl (by decide) (by decide))) (exDir_rd (by decide) (exRat_ok rfl (by decide) (by decide))) (exDir_rd (by decide) (exRat_ok rfl (by decide) (by decide))) (exDir_rd (by decide) (exRat_ok rfl (by decide) (by decide))) exDir_u3 (exDir_rd (by decide) (exRat_ok rfl (by decide) (by decide))) (exDir_rd (by decide) (exRat_ok rfl (by decide) (by decide))) (exDir_rd (by decide) (exRat_ok rfl (by decide) (by decide))) (exDir_rd (by decide) (exRat_ok rfl (by decide) (by decide))) exDir_u3 exIns_zero3 exIns_zero3

/-- 3D, diffusion operator with constant reaction: two runs with the same coefficients on `U` and `V`, both zero outside the box, leave results `R` and `S` with
`∑ V R = ∑ U S`. -/
theorem C55_v2_3d {i0 j0 k0 i1 j1 k1 gcw rgcw : Int} {alpha beta : T} {dx : Nat → T} {u b0 b1 b2 f0 f1 f2 res : Ptr} {β1 β2 : Nat → Backend} {β3 β4 : Nat → Backend} {m m' : Mem T} {B0 B1 B2 U V : List Int → T}
    (hβ1 : ∀ n, ValidBackend (β1 n)) (hβ2 : ∀ n, ValidBackend (β2 n)) (hβ3 : ∀ n, ValidBackend (β3 n)) (hβ4 : ∀ n, ValidBackend (β4 n)) (hi : i0 ≤ i1) (hj : j0 ≤ j1) (hk : k0 ≤ k1) (hg : 1 ≤ gcw) (hrgcw : 0 ≤ rgcw)
    (h : F.Args m [(F.cell3d u i0 j0 k0 i1 j1 k1 gcw), (F.face3d0 b0 i0 j0 k0 i1 j1 k1 0), (F.face3d1 b1 i0 j0 k0 i1 j1 k1 0), (F.face3d2 b2 i0 j0 k0 i1 j1 k1 0)] [(F.face3d0 f0 i0 j0 k0 i1 j1 k1 0), (F.face3d1 f1 i0 j0 k0 i1 j1 k1 0), (F.face3d2 f2 i0 j0 k0 i1 j1 k1 0), (F.cell3d res i0 j0 k0 i1 j1 k1 rgcw)]) (h' : F.Args m' [(F.cell3d u i0 j0 k0 i1 j1 k1 gcw), (F.face3d0 b0 i0 j0 k0 i1 j1 k1 0), (F.face3d1 b1 i0 j0 k0 i1 j1 k1 0), (F.face3d2 b2 i0 j0 k0 i1 j1 k1 0)] [(F.face3d0 f0 i0 j0 k0 i1 j1 k1 0), (F.face3d1 f1 i0 j0 k0 i1 j1 k1 0), (F.face3d2 f2 i0 j0 k0 i1 j1 k1 0), (F.cell3d res i0 j0 k0 i1 j1 k1 rgcw)])
    (hp : F.Apart (F.face3d0 f0 i0 j0 k0 i1 j1 k1 0) (F.face3d1 f1 i0 j0 k0 i1 j1 k1 0) ∧ F.Apart (F.face3d0 f0 i0 j0 k0 i1 j1 k1 0) (F.face3d2 f2 i0 j0 k0 i1 j1 k1 0) ∧ F.Apart (F.face3d1 f1 i0 j0 k0 i1 j1 k1 0) (F.face3d2 f2 i0 j0 k0 i1 j1 k1 0))
    (hr : F.Apart (F.cell3d res i0 j0 k0 i1 j1 k1 rgcw) (F.face3d0 f0 i0 j0 k0 i1 j1 k1 0) ∧ F.Apart (F.cell3d res i0 j0 k0 i1 j1 k1 rgcw) (F.face3d1 f1 i0 j0 k0 i1 j1 k1 0) ∧ F.Apart (F.cell3d res i0 j0 k0 i1 j1 k1 rgcw) (F.face3d2 f2 i0 j0 k0 i1 j1 k1 0))
    (hB0 : F.Holds m (F.face3d0 b0 i0 j0 k0 i1 j1 k1 0) B0) (hB1 : F.Holds m (F.face3d1 b1 i0 j0 k0 i1 j1 k1 0) B1) (hB2 : F.Holds m (F.face3d2 b2 i0 j0 k0 i1 j1 k1 0) B2) (hU : F.Holds m (F.cell3d u i0 j0 k0 i1 j1 k1 gcw) U)
    (hB0' : F.Holds m' (F.face3d0 b0 i0 j0 k0 i1 j1 k1 0) B0) (hB1' : F.Holds m' (F.face3d1 b1 i0 j0 k0 i1 j1 k1 0) B1) (hB2' : F.Holds m' (F.face3d2 b2 i0 j0 k0 i1 j1 k1 0) B2) (hV : F.Holds m' (F.cell3d u i0 j0 k0 i1 j1 k1 gcw) V)
    (hU0 : ∀ p, ¬ F.InBounds [(i0, i1), (j0, j1), (k0, k1)] p → U p = 0) (hV0 : ∀ p, ¬ F.InBounds [(i0, i1), (j0, j1), (k0, k1)] p → V p = 0) :
    ∃ m1 m2 p1 p2, ∃ R S : List Int → T, Cuda.flux3d i0 j0 k0 i1 j1 k1 dx b0 b1 b2 gcw u f0 f1 f2 β1 m = .ok m1 ∧ Cuda.diffusionV2Apply3d i0 i1 j0 j1 k0 k1 alpha beta dx gcw u f0 f1 f2 rgcw res β2 m1 = .ok m2 ∧
      (∀ p, F.InBounds [(i0, i1), (j0, j1), (k0, k1)] p → F.El m2 (F.cell3d res i0 j0 k0 i1 j1 k1 rgcw) p (R p)) ∧
      Cuda.flux3d i0 j0 k0 i1 j1 k1 dx b0 b1 b2 gcw u f0 f1 f2 β3 m' = .ok p1 ∧ Cuda.diffusionV2Apply3d i0 i1 j0 j1 k0 k1 alpha beta dx gcw u f0 f1 f2 rgcw res β4 p1 = .ok p2 ∧
      (∀ p, F.InBounds [(i0, i1), (j0, j1), (k0, k1)] p → F.El p2 (F.cell3d res i0 j0 k0 i1 j1 k1 rgcw) p (S p)) ∧
      (F.sum i0 i1 fun i => F.sum j0 j1 fun j => F.sum k0 k1 fun k => V [i, j, k] * R [i, j, k]) =
        (F.sum i0 i1 fun i => F.sum j0 j1 fun j => F.sum k0 k1 fun k => U [i, j, k] * S [i, j, k]) := by
  obtain ⟨m1, m2, R, c1, c2, E, hR⟩ := energy_v2_3 (alpha := alpha) (beta := beta) (dx := dx) hβ1 hβ2 hi hj hk hg hrgcw h hp hr hB0 hB1 hB2 hU
  obtain ⟨p1, p2, S, d1, d2, E', hS⟩ := energy_v2_3 (alpha := alpha) (beta := beta) (dx := dx) hβ3 hβ4 hi hj hk hg hrgcw h' hp hr hB0' hB1' hB2' hV
  have e : (F.sum i0 i1 fun i => F.sum j0 j1 fun j => F.sum k0 k1 fun k => V [i, j, k] * R [i, j, k]) = F.form3 i0 j0 k0 i1 j1 k1 alpha beta dx (fun _ => 1) B0 B1 B2 U V := by
    rw [← F.weak3 hi hj hk hV0]
    exact F.sum_congr fun i h0 h1 => F.sum_congr fun j h2 h3 => F.sum_congr fun k h4 h5 => (by rw [hR i j k h0 h1 h2 h3 h4 h5])
  have e' : (F.sum i0 i1 fun i => F.sum j0 j1 fun j => F.sum k0 k1 fun k => U [i, j, k] * S [i, j, k]) = F.form3 i0 j0 k0 i1 j1 k1 alpha beta dx (fun _ => 1) B0 B1 B2 V U := by
    rw [← F.weak3 hi hj hk hU0]
    exact F.sum_congr fun i h0 h1 => F.sum_congr fun j h2 h3 => F.sum_congr fun k h4 h5 => (by rw [hS i j k h0 h1 h2 h3 h4 h5])
  refine ⟨m1, m2, p1, p2, R, S, c1, c2, E, d1, d2, E', ?_⟩
  rw [e, e', F.form3_symm]

example : ∃ m1 m2 p1 p2, ∃ R S : List Int → Rat, Cuda.flux3d 0 1 2 1 2 3 exDx ⟨2, 0⟩ ⟨3, 0⟩ ⟨4, 0⟩ 2 ⟨1, 0⟩ ⟨5, 0⟩ ⟨6, 0⟩ ⟨7, 0⟩ (fun _ => revBackend) (exDir 3 5 1) = .ok m1 ∧ Cuda.diffusionV2Apply3d 0 1 1 2 2 3 3 2 exDx 2 ⟨1, 0⟩ ⟨5, 0⟩ ⟨6, 0⟩ ⟨7, 0⟩ 1 ⟨8, 0⟩ (fun _ => seqBackend) m1 = .ok m2 ∧
      (∀ p, F.InBounds [(0, 1), (1, 2), (2, 3)] p → F.El m2 (F.cell3d ⟨8, 0⟩ 0 1 2 1 2 3 1) p (R p)) ∧
      Cuda.flux3d 0 1 2 1 2 3 exDx ⟨2, 0⟩ ⟨3, 0⟩ ⟨4, 0⟩ 2 ⟨1, 0⟩ ⟨5, 0⟩ ⟨6, 0⟩ ⟨7, 0⟩ (fun _ => seqBackend) (exDir 3 3 2) = .ok p1 ∧ Cuda.diffusionV2Apply3d 0 1 1 2 2 3 3 2 exDx 2 ⟨1, 0⟩ ⟨5, 0⟩ ⟨6, 0⟩ ⟨7, 0⟩ 1 ⟨8, 0⟩ (fun _ => revBackend) p1 = .ok p2 ∧
      (∀ p, F.InBounds [(0, 1), (1, 2), (2, 3)] p → F.El p2 (F.cell3d ⟨8, 0⟩ 0 1 2 1 2 3 1) p (S p)) ∧
      (F.sum 0 1 fun i => F.sum 1 2 fun j => F.sum 2 3 fun k => (exIns 3 3) [i, j, k] * R [i, j, k]) =
        (F.sum 0 1 fun i => F.sum 1 2 fun j => F.sum 2 3 fun k => (exIns 3 5) [i, j, k] * S [i, j, k]) :=
  C55_v2_3d (T := Rat) (fun _ => revBackend_ok) (fun _ => seqBackend_ok) (fun _ => seqBackend_ok) (fun _ => revBackend_ok) (by decide) (by decide) (by decide) (by decide) (by decide) (exDir_args (by ex_args)) (exDir_args (by ex_args)) (⟨apart_blk (by decide), apart_blk (by decide), apart_blk (by decide)⟩) ⟨apart_blk (by decide), apart_blk (by decide), apart_blk (by decide)⟩
    (exDir_rd (by decide) (exRat_ok rfl (by decide) (by decide))) (exDir_rd (by decide) (exRat_ok rfl (by decide) (by decide))) (exDir_rd (by decide) (exRat_ok rfl (by decide) (by decide))) exDir_u3 (exDir_rd (by decide) (exRat_ok rfl (by decide) (by decide))) (exDir_rd (by decide) (exRat_ok rfl (by decide) (by decide))) (exDir_rd (by decide) (exRat_ok rfl (by decide) (by decide))) exDir_u3 exIns_zero3 exIns_zero3

/-- 3D, Poisson operator: two runs with the same coefficients on `U` and `V`, both zero outside the box, leave results `R` and `S` with
`∑ V R = ∑ U S`. -/
theorem C55_poisson_3d {i0 j0 k0 i1 j1 k1 gcw rgcw : Int} {beta : T} {dx : Nat → T} {u f0 f1 f2 res : Ptr} {β1 β2 : Nat → Backend} {β3 β4 : Nat → Backend} {m m' : Mem T} {U V : List Int → T}
    (hβ1 : ∀ n, ValidBackend (β1 n)) (hβ2 : ∀ n, ValidBackend (β2 n)) (hβ3 : ∀ n, ValidBackend (β3 n)) (hβ4 : ∀ n, ValidBackend (β4 n)) (hi : i0 ≤ i1) (hj : j0 ≤ j1) (hk : k0 ≤ k1) (hg : 1 ≤ gcw) (hrgcw : 0 ≤ rgcw)
    (h : F.Args m [(F.cell3d u i0 j0 k0 i1 j1 k1 gcw)] [(F.face3d0 f0 i0 j0 k0 i1 j1 k1 0), (F.face3d1 f1 i0 j0 k0 i1 j1 k1 0), (F.face3d2 f2 i0 j0 k0 i1 j1 k1 0), (F.cell3d res i0 j0 k0 i1 j1 k1 rgcw)]) (h' : F.Args m' [(F.cell3d u i0 j0 k0 i1 j1 k1 gcw)] [(F.face3d0 f0 i0 j0 k0 i1 j1 k1 0), (F.face3d1 f1 i0 j0 k0 i1 j1 k1 0), (F.face3d2 f2 i0 j0 k0 i1 j1 k1 0), (F.cell3d res i0 j0 k0 i1 j1 k1 rgcw)])
    (hp : F.Apart (F.face3d0 f0 i0 j0 k0 i1 j1 k1 0) (F.face3d1 f1 i0 j0 k0 i1 j1 k1 0) ∧ F.Apart (F.face3d0 f0 i0 j0 k0 i1 j1 k1 0) (F.face3d2 f2 i0 j0 k0 i1 j1 k1 0) ∧ F.Apart (F.face3d1 f1 i0 j0 k0 i1 j1 k1 0) (F.face3d2 f2 i0 j0 k0 i1 j1 k1 0))
    (hr : F.Apart (F.cell3d res i0 j0 k0 i1 j1 k1 rgcw) (F.face3d0 f0 i0 j0 k0 i1 j1 k1 0) ∧ F.Apart (F.cell3d res i0 j0 k0 i1 j1 k1 rgcw) (F.face3d1 f1 i0 j0 k0 i1 j1 k1 0) ∧ F.Apart (F.cell3d res i0 j0 k0 i1 j1 k1 rgcw) (F.face3d2 f2 i0 j0 k0 i1 j1 k1 0))
    (hU : F.Holds m (F.cell3d u i0 j0 k0 i1 j1 k1 gcw) U)
    (hV : F.Holds m' (F.cell3d u i0 j0 k0 i1 j1 k1 gcw) V)
    (hU0 : ∀ p, ¬ F.InBounds [(i0, i1), (j0, j1), (k0, k1)] p → U p = 0) (hV0 : ∀ p, ¬ F.InBounds [(i0, i1), (j0, j1), (k0, k1)] p → V p = 0) :
    ∃ m1 m2 p1 p2, ∃ R S : List Int → T, Cuda.poissonFlux3d i0 j0 k0 i1 j1 k1 dx gcw u f0 f1 f2 β1 m = .ok m1 ∧ Cuda.poissonV2Apply3d i0 i1 j0 j1 k0 k1 beta dx f0 f1 f2 rgcw res β2 m1 = .ok m2 ∧
      (∀ p, F.InBounds [(i0, i1), (j0, j1), (k0, k1)] p → F.El m2 (F.cell3d res i0 j0 k0 i1 j1 k1 rgcw) p (R p)) ∧
      Cuda.poissonFlux3d i0 j0 k0 i1 j1 k1 dx gcw u f0 f1 f2 β3 m' = .ok p1 ∧ Cuda.poissonV2Apply3d i0 i1 j0 j1 k0 k1 beta dx f0 f1 f2 rgcw res β4 p1 = .ok p2 ∧
      (∀ p, F.InBounds [(i0, i1), (j0, j1), (k0, k1)] p → F.El p2 (F.cell3d res i0 j0 k0 i1 j1 k1 rgcw) p (S p)) ∧
      (F.sum i0 i1 fun i => F.sum j0 j1 fun j => F.sum k0 k1 fun k => V [i, j, k] * R [i, j, k]) =
        (F.sum i0 i1 fun i => F.sum j0 j1 fun j => F.sum k0 k1 fun k => U [i, j, k] * S [i, j, k]) := by
  obtain ⟨m1, m2, R, c1, c2, E, hR⟩ := energy_p_3 (beta := beta) (dx := dx) hβ1 hβ2 hi hj hk hg hrgcw h hp hr hU
  obtain ⟨p1, p2, S, d1, d2, E', hS⟩ := energy_p_3 (beta := beta) (dx := dx) hβ3 hβ4 hi hj hk hg hrgcw h' hp hr hV
  have e : (F.sum i0 i1 fun i => F.sum j0 j1 fun j => F.sum k0 k1 fun k => V [i, j, k] * R [i, j, k]) = F.form3 i0 j0 k0 i1 j1 k1 0 beta dx (fun _ => 1) (fun _ => 1) (fun _ => 1) (fun _ => 1) U V := by
    rw [← F.weak3 hi hj hk hV0]
    exact F.sum_congr fun i h0 h1 => F.sum_congr fun j h2 h3 => F.sum_congr fun k h4 h5 => (by rw [hR i j k h0 h1 h2 h3 h4 h5])
  have e' : (F.sum i0 i1 fun i => F.sum j0 j1 fun j => F.sum k0 k1 fun k => U [i, j, k] * S [i, j, k]) = F.form3 i0 j0 k0 i1 j1 k1 0 beta dx (fun _ => 1) (fun _ => 1) (fun _ => 1) (fun _ => 1) V U := by
    rw [← F.weak3 hi hj hk hU0]
    exact F.sum_congr fun i h0 h1 => F.sum_congr fun j h2 h3 => F.sum_congr fun k h4 h5 => (by rw [hS i j k h0 h1 h2 h3 h4 h5])
  refine ⟨m1, m2, p1, p2, R, S, c1, c2, E, d1, d2, E', ?_⟩
  rw [e, e', F.form3_symm]

example : ∃ m1 m2 p1 p2, ∃ R S : List Int → Rat, Cuda.poissonFlux3d 0 1 2 1 2 3 exDx 2 ⟨1, 0⟩ ⟨5, 0⟩ ⟨6, 0⟩ ⟨7, 0⟩ (fun _ => revBackend) (exDir 3 5 1) = .ok m1 ∧ Cuda.poissonV2Apply3d 0 1 1 2 2 3 2 exDx ⟨5, 0⟩ ⟨6, 0⟩ ⟨7, 0⟩ 1 ⟨8, 0⟩ (fun _ => seqBackend) m1 = .ok m2 ∧
      (∀ p, F.InBounds [(0, 1), (1, 2), (2, 3)] p → F.El m2 (F.cell3d ⟨8, 0⟩ 0 1 2 1 2 3 1) p (R p)) ∧
      Cuda.poissonFlux3d 0 1 2 1 2 3 exDx 2 ⟨1, 0⟩ ⟨5, 0⟩ ⟨6, 0⟩ ⟨7, 0⟩ (fun _ => seqBackend) (exDir 3 3 2) = .ok p1 ∧ Cuda.poissonV2Apply3d 0 1 1 2 2 3 2 exDx ⟨5, 0⟩ ⟨6, 0⟩ ⟨7, 0⟩ 1 ⟨8, 0⟩ (fun _ => revBackend) p1 = .ok p2 ∧
      (∀ p, F.InBounds [(0, 1), (1, 2), (2, 3)] p → F.El p2 (F.cell3d ⟨8, 0⟩ 0 1 2 1 2 3 1) p (S p)) ∧
      (F.sum 0 1 fun i => F.sum 1 2 fun j => F.sum 2 3 fun k => (exIns 3 3) [i, j, k] * R [i, j, k]) =
        (F.sum 0 1 fun i => F.sum 1 2 fun j => F.sum 2 3 fun k => (exIns 3 5) [i, j, k] * S [i, j, k]) :=
  C55_poisson_3d (T := Rat) (fun _ => revBackend_ok) (fun _ => seqBackend_ok) (fun _ => seqBackend_ok) (fun _ => revBackend_ok) (by decide) (by decide) (by decide) (by decide) (by decide) (exDir_args (by ex_args)) (exDir_args (by ex_args)) (⟨apart_blk (by decide), apart_blk (by decide), apart_blk (by decide)⟩) ⟨apart_blk (by decide), apart_blk (by decide), apart_blk (by decide)⟩
     exDir_u3  exDir_u3 exIns_zero3 exIns_zero3

end Verif
