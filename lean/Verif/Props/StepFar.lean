import Verif.Lemmas.StepFar

/-
C122: explicit steps with the operator of the flux and apply kernels longer than two over the diagonal at a cell move fields apart.
-/

namespace Verif
open Spec

set_option linter.unusedVariables false
set_option linter.unusedSectionVars false

variable {T : Type} [Field T] [LinearOrder T] [IsStrictOrderedRing T]

/-- 1D, diffusion operator with cell coefficients: if `U` and `V` agree in the box and next to it except at one cell of the box, a step longer than two over the diagonal at that cell makes the mean square distance grow. -/
theorem C122_v1_1d {i0 i1 agcw gcw rgcw : Int} {alpha beta : T} {dx : Nat → T} {a u b0 f0 res : Ptr} {β1 β2 : Nat → Backend} {β3 β4 : Nat → Backend} {m m' : Mem T} {A B0 U V : List Int → T} {t : T} {i : Int}
    (hβ1 : ∀ n, ValidBackend (β1 n)) (hβ2 : ∀ n, ValidBackend (β2 n)) (hβ3 : ∀ n, ValidBackend (β3 n)) (hβ4 : ∀ n, ValidBackend (β4 n)) (hi : i0 ≤ i1) (hg : 1 ≤ gcw) (hagcw : 0 ≤ agcw) (hrgcw : 0 ≤ rgcw)
    (h : F.Args m [(F.cell1d a i0 i1 agcw), (F.cell1d u i0 i1 gcw), (F.face1d b0 i0 i1 0)] [(F.face1d f0 i0 i1 0), (F.cell1d res i0 i1 rgcw)]) (h' : F.Args m' [(F.cell1d a i0 i1 agcw), (F.cell1d u i0 i1 gcw), (F.face1d b0 i0 i1 0)] [(F.face1d f0 i0 i1 0), (F.cell1d res i0 i1 rgcw)])
    (hr : F.Apart (F.cell1d res i0 i1 rgcw) (F.face1d f0 i0 i1 0))
    (hA : F.Holds m (F.cell1d a i0 i1 agcw) A) (hB0 : F.Holds m (F.face1d b0 i0 i1 0) B0) (hU : F.Holds m (F.cell1d u i0 i1 gcw) U)
    (hA' : F.Holds m' (F.cell1d a i0 i1 agcw) A) (hB0' : F.Holds m' (F.face1d b0 i0 i1 0) B0) (hV : F.Holds m' (F.cell1d u i0 i1 gcw) V)
    (hia : i0 ≤ i) (hib : i ≤ i1)
    (hUV : ∀ p, F.InBounds [(i0 - 1, i1 + 1)] p → p ≠ [i] → U p = V p) (hne : U [i] ≠ V [i]) (hs : 2 < t * (alpha * A [i] + beta * ((B0 [i] + B0 [i + 1]) / (dx 0 * dx 0)))) :
    ∃ m1 m2 p1 p2, ∃ R S : List Int → T, Cuda.flux1d i0 i1 dx b0 gcw u f0 β1 m = .ok m1 ∧ Cuda.diffusionV1Apply1d i0 i1 alpha beta dx agcw a gcw u f0 rgcw res β2 m1 = .ok m2 ∧
      (∀ p, F.InBounds [(i0, i1)] p → F.El m2 (F.cell1d res i0 i1 rgcw) p (R p)) ∧
      Cuda.flux1d i0 i1 dx b0 gcw u f0 β3 m' = .ok p1 ∧ Cuda.diffusionV1Apply1d i0 i1 alpha beta dx agcw a gcw u f0 rgcw res β4 p1 = .ok p2 ∧
      (∀ p, F.InBounds [(i0, i1)] p → F.El p2 (F.cell1d res i0 i1 rgcw) p (S p)) ∧
      (F.sum i0 i1 fun i => (U [i] - V [i]) * (U [i] - V [i])) < (F.sum i0 i1 fun i => (U [i] - t * R [i] - (V [i] - t * S [i])) * (U [i] - t * R [i] - (V [i] - t * S [i]))) := by
  obtain ⟨m1, m2, R, c1, c2, E, hR⟩ := energy_v1_1 (alpha := alpha) (beta := beta) (dx := dx) hβ1 hβ2 hi hg hagcw hrgcw h hr hA hB0 hU
  obtain ⟨p1, p2, S, d1, d2, E', hS⟩ := energy_v1_1 (alpha := alpha) (beta := beta) (dx := dx) hβ3 hβ4 hi hg hagcw hrgcw h' hr hA' hB0' hV
  refine ⟨m1, m2, p1, p2, R, S, c1, c2, E, d1, d2, E', ?_⟩
  exact F.op1_far hia hib hUV hne hs (hR i hia hib) (hS i hia hib)

example : ∃ m1 m2 p1 p2, ∃ R S : List Int → Rat, Cuda.flux1d 0 3 exDx ⟨2, 0⟩ 2 ⟨1, 0⟩ ⟨5, 0⟩ (fun _ => revBackend) (exDir 1 5 1) = .ok m1 ∧ Cuda.diffusionV1Apply1d 0 3 3 2 exDx 1 ⟨0, 0⟩ 2 ⟨1, 0⟩ ⟨5, 0⟩ 1 ⟨8, 0⟩ (fun _ => seqBackend) m1 = .ok m2 ∧
      (∀ p, F.InBounds [(0, 3)] p → F.El m2 (F.cell1d ⟨8, 0⟩ 0 3 1) p (R p)) ∧
      Cuda.flux1d 0 3 exDx ⟨2, 0⟩ 2 ⟨1, 0⟩ ⟨5, 0⟩ (fun _ => seqBackend) (exAt (exDir 1 5 2) ((⟨1, 0⟩ : Ptr).add (F.colMajor (F.cell1d ⟨1, 0⟩ 0 3 2).dims [1])) 7) = .ok p1 ∧ Cuda.diffusionV1Apply1d 0 3 3 2 exDx 1 ⟨0, 0⟩ 2 ⟨1, 0⟩ ⟨5, 0⟩ 1 ⟨8, 0⟩ (fun _ => revBackend) p1 = .ok p2 ∧
      (∀ p, F.InBounds [(0, 3)] p → F.El p2 (F.cell1d ⟨8, 0⟩ 0 3 1) p (S p)) ∧
      (F.sum 0 3 fun i => (exIns 1 5 [i] - exUp (exIns 1 5) [1] 7 [i]) * (exIns 1 5 [i] - exUp (exIns 1 5) [1] 7 [i])) < (F.sum 0 3 fun i => (exIns 1 5 [i] - 1 * R [i] - (exUp (exIns 1 5) [1] 7 [i] - 1 * S [i])) * (exIns 1 5 [i] - 1 * R [i] - (exUp (exIns 1 5) [1] 7 [i] - 1 * S [i]))) :=
  C122_v1_1d (T := Rat) (fun _ => revBackend_ok) (fun _ => seqBackend_ok) (fun _ => seqBackend_ok) (fun _ => revBackend_ok) (by decide) (by decide) (by decide) (by decide) (exDir_args (by ex_args)) (exAt_args (exDir_args (by ex_args))) (apart_blk (by decide))
    (exDir_rd (by decide) (exRat_ok rfl (by decide) (by decide))) (exDir_rd (by decide) (exRat_ok rfl (by decide) (by decide))) exDir_u1 (exAt_rd (by decide) (exDir_rd (by decide) (exRat_ok rfl (by decide) (by decide)))) (exAt_rd (by decide) (exDir_rd (by decide) (exRat_ok rfl (by decide) (by decide)))) (exAt_up (by decide) exDir_u1)
    (by decide) (by decide) (fun p _ hp => (if_neg hp).symm) (by norm_num [exUp, exIns]) (by norm_num [exRd, exDx, exIns, exUp, F.colMajor, F.cell1d, F.face1d])

/-- 1D, diffusion operator with constant reaction: if `U` and `V` agree in the box and next to it except at one cell of the box, a step longer than two over the diagonal at that cell makes the mean square distance grow. -/
theorem C122_v2_1d {i0 i1 gcw rgcw : Int} {alpha beta : T} {dx : Nat → T} {u b0 f0 res : Ptr} {β1 β2 : Nat → Backend} {β3 β4 : Nat → Backend} {m m' : Mem T} {B0 U V : List Int → T} {t : T} {i : Int}
    (hβ1 : ∀ n, ValidBackend (β1 n)) (hβ2 : ∀ n, ValidBackend (β2 n)) (hβ3 : ∀ n, ValidBackend (β3 n)) (hβ4 : ∀ n, ValidBackend (β4 n)) (hi : i0 ≤ i1) (hg : 1 ≤ gcw) (hrgcw : 0 ≤ rgcw)
    (h : F.Args m [(F.cell1d u i0 i1 gcw), (F.face1d b0 i0 i1 0)] [(F.face1d f0 i0 i1 0), (F.cell1d res i0 i1 rgcw)]) (h' : F.Args m' [(F.cell1d u i0 i1 gcw), (F.face1d b0 i0 i1 0)] [(F.face1d f0 i0 i1 0), (F.cell1d res i0 i1 rgcw)])
    (hr : F.Apart (F.cell1d res i0 i1 rgcw) (F.face1d f0 i0 i1 0))
    (hB0 : F.Holds m (F.face1d b0 i0 i1 0) B0) (hU : F.Holds m (F.cell1d u i0 i1 gcw) U)
    (hB0' : F.Holds m' (F.face1d b0 i0 i1 0) B0) (hV : F.Holds m' (F.cell1d u i0 i1 gcw) V)
    (hia : i0 ≤ i) (hib : i ≤ i1)
    (hUV : ∀ p, F.InBounds [(i0 - 1, i1 + 1)] p → p ≠ [i] → U p = V p) (hne : U [i] ≠ V [i]) (hs : 2 < t * (alpha + beta * ((B0 [i] + B0 [i + 1]) / (dx 0 * dx 0)))) :
    ∃ m1 m2 p1 p2, ∃ R S : List Int → T, Cuda.flux1d i0 i1 dx b0 gcw u f0 β1 m = .ok m1 ∧ Cuda.diffusionV2Apply1d i0 i1 alpha beta dx gcw u f0 rgcw res β2 m1 = .ok m2 ∧
      (∀ p, F.InBounds [(i0, i1)] p → F.El m2 (F.cell1d res i0 i1 rgcw) p (R p)) ∧
      Cuda.flux1d i0 i1 dx b0 gcw u f0 β3 m' = .ok p1 ∧ Cuda.diffusionV2Apply1d i0 i1 alpha beta dx gcw u f0 rgcw res β4 p1 = .ok p2 ∧
      (∀ p, F.InBounds [(i0, i1)] p → F.El p2 (F.cell1d res i0 i1 rgcw) p (S p)) ∧
      (F.sum i0 i1 fun i => (U [i] - V [i]) * (U [i] - V [i])) < (F.sum i0 i1 fun i => (U [i] - t * R [i] - (V [i] - t * S [i])) * (U [i] - t * R [i] - (V [i] - t * S [i]))) := by
  obtain ⟨m1, m2, R, c1, c2, E, hR⟩ := energy_v2_1 (alpha := alpha) (beta := beta) (dx := dx) hβ1 hβ2 hi hg hrgcw h hr hB0 hU
  obtain ⟨p1, p2, S, d1, d2, E', hS⟩ := energy_v2_1 (alpha := alpha) (beta := beta) (dx := dx) hβ3 hβ4 hi hg hrgcw h' hr hB0' hV
  refine ⟨m1, m2, p1, p2, R, S, c1, c2, E, d1, d2, E', ?_⟩
  exact F.op1_far (A := fun _ => 1) hia hib hUV hne (by simpa using hs) (hR i hia hib) (hS i hia hib)

example : ∃ m1 m2 p1 p2, ∃ R S : List Int → Rat, Cuda.flux1d 0 3 exDx ⟨2, 0⟩ 2 ⟨1, 0⟩ ⟨5, 0⟩ (fun _ => revBackend) (exDir 1 5 1) = .ok m1 ∧ Cuda.diffusionV2Apply1d 0 3 3 2 exDx 2 ⟨1, 0⟩ ⟨5, 0⟩ 1 ⟨8, 0⟩ (fun _ => seqBackend) m1 = .ok m2 ∧
      (∀ p, F.InBounds [(0, 3)] p → F.El m2 (F.cell1d ⟨8, 0⟩ 0 3 1) p (R p)) ∧
      Cuda.flux1d 0 3 exDx ⟨2, 0⟩ 2 ⟨1, 0⟩ ⟨5, 0⟩ (fun _ => seqBackend) (exAt (exDir 1 5 2) ((⟨1, 0⟩ : Ptr).add (F.colMajor (F.cell1d ⟨1, 0⟩ 0 3 2).dims [1])) 7) = .ok p1 ∧ Cuda.diffusionV2Apply1d 0 3 3 2 exDx 2 ⟨1, 0⟩ ⟨5, 0⟩ 1 ⟨8, 0⟩ (fun _ => revBackend) p1 = .ok p2 ∧
      (∀ p, F.InBounds [(0, 3)] p → F.El p2 (F.cell1d ⟨8, 0⟩ 0 3 1) p (S p)) ∧
      (F.sum 0 3 fun i => (exIns 1 5 [i] - exUp (exIns 1 5) [1] 7 [i]) * (exIns 1 5 [i] - exUp (exIns 1 5) [1] 7 [i])) < (F.sum 0 3 fun i => (exIns 1 5 [i] - 1 * R [i] - (exUp (exIns 1 5) [1] 7 [i] - 1 * S [i])) * (exIns 1 5 [i] - 1 * R [i] - (exUp (exIns 1 5) [1] 7 [i] - 1 * S [i]))) :=
  C122_v2_1d (T := Rat) (fun _ => revBackend_ok) (fun _ => seqBackend_ok) (fun _ => seqBackend_ok) (fun _ => revBackend_ok) (by decide) (by decide) (by decide) (exDir_args (by ex_args)) (exAt_args (exDir_args (by ex_args))) (apart_blk (by decide))
    (exDir_rd (by decide) (exRat_ok rfl (by decide) (by decide))) exDir_u1 (exAt_rd (by decide) (exDir_rd (by decide) (exRat_ok rfl (by decide) (by decide)))) (exAt_up (by decide) exDir_u1)
    (by decide) (by decide) (fun p _ hp => (if_neg hp).symm) (by norm_num [exUp, exIns]) (by norm_num [exRd, exDx, exIns, exUp, F.colMajor, F.cell1d, F.face1d])

/-- 1D, Poisson operator: if `U` and `V` agree in the box and next to it except at one cell of the box, a step longer than two over the diagonal at that cell makes the mean square distance grow. -/
theorem C122_poisson_1d {i0 i1 gcw rgcw : Int} {beta : T} {dx : Nat → T} {u f0 res : Ptr} {β1 β2 : Nat → Backend} {β3 β4 : Nat → Backend} {m m' : Mem T} {U V : List Int → T} {t : T} {i : Int}
    (hβ1 : ∀ n, ValidBackend (β1 n)) (hβ2 : ∀ n, ValidBackend (β2 n)) (hβ3 : ∀ n, ValidBackend (β3 n)) (hβ4 : ∀ n, ValidBackend (β4 n)) (hi : i0 ≤ i1) (hg : 1 ≤ gcw) (hrgcw : 0 ≤ rgcw)
    (h : F.Args m [(F.cell1d u i0 i1 gcw)] [(F.face1d f0 i0 i1 0), (F.cell1d res i0 i1 rgcw)]) (h' : F.Args m' [(F.cell1d u i0 i1 gcw)] [(F.face1d f0 i0 i1 0), (F.cell1d res i0 i1 rgcw)])
    (hr : F.Apart (F.cell1d res i0 i1 rgcw) (F.face1d f0 i0 i1 0))
    (hU : F.Holds m (F.cell1d u i0 i1 gcw) U)
    (hV : F.Holds m' (F.cell1d u i0 i1 gcw) V)
    (hia : i0 ≤ i) (hib : i ≤ i1)
    (hUV : ∀ p, F.InBounds [(i0 - 1, i1 + 1)] p → p ≠ [i] → U p = V p) (hne : U [i] ≠ V [i]) (hs : 2 < t * (beta * ((1 + 1) / (dx 0 * dx 0)))) :
    ∃ m1 m2 p1 p2, ∃ R S : List Int → T, Cuda.poissonFlux1d i0 i1 dx gcw u f0 β1 m = .ok m1 ∧ Cuda.poissonV2Apply1d i0 i1 beta dx f0 rgcw res β2 m1 = .ok m2 ∧
      (∀ p, F.InBounds [(i0, i1)] p → F.El m2 (F.cell1d res i0 i1 rgcw) p (R p)) ∧
      Cuda.poissonFlux1d i0 i1 dx gcw u f0 β3 m' = .ok p1 ∧ Cuda.poissonV2Apply1d i0 i1 beta dx f0 rgcw res β4 p1 = .ok p2 ∧
      (∀ p, F.InBounds [(i0, i1)] p → F.El p2 (F.cell1d res i0 i1 rgcw) p (S p)) ∧
      (F.sum i0 i1 fun i => (U [i] - V [i]) * (U [i] - V [i])) < (F.sum i0 i1 fun i => (U [i] - t * R [i] - (V [i] - t * S [i])) * (U [i] - t * R [i] - (V [i] - t * S [i]))) := by
  obtain ⟨m1, m2, R, c1, c2, E, hR⟩ := energy_p_1 (beta := beta) (dx := dx) hβ1 hβ2 hi hg hrgcw h hr hU
  obtain ⟨p1, p2, S, d1, d2, E', hS⟩ := energy_p_1 (beta := beta) (dx := dx) hβ3 hβ4 hi hg hrgcw h' hr hV
  refine ⟨m1, m2, p1, p2, R, S, c1, c2, E, d1, d2, E', ?_⟩
  exact F.op1_far (alpha := 0) (A := fun _ => 1) (B0 := fun _ => 1) hia hib hUV hne (by simpa using hs) (hR i hia hib) (hS i hia hib)

example : ∃ m1 m2 p1 p2, ∃ R S : List Int → Rat, Cuda.poissonFlux1d 0 3 exDx 2 ⟨1, 0⟩ ⟨5, 0⟩ (fun _ => revBackend) (exDir 1 5 1) = .ok m1 ∧ Cuda.poissonV2Apply1d 0 3 2 exDx ⟨5, 0⟩ 1 ⟨8, 0⟩ (fun _ => seqBackend) m1 = .ok m2 ∧
      (∀ p, F.InBounds [(0, 3)] p → F.El m2 (F.cell1d ⟨8, 0⟩ 0 3 1) p (R p)) ∧
      Cuda.poissonFlux1d 0 3 exDx 2 ⟨1, 0⟩ ⟨5, 0⟩ (fun _ => seqBackend) (exAt (exDir 1 5 2) ((⟨1, 0⟩ : Ptr).add (F.colMajor (F.cell1d ⟨1, 0⟩ 0 3 2).dims [1])) 7) = .ok p1 ∧ Cuda.poissonV2Apply1d 0 3 2 exDx ⟨5, 0⟩ 1 ⟨8, 0⟩ (fun _ => revBackend) p1 = .ok p2 ∧
      (∀ p, F.InBounds [(0, 3)] p → F.El p2 (F.cell1d ⟨8, 0⟩ 0 3 1) p (S p)) ∧
      (F.sum 0 3 fun i => (exIns 1 5 [i] - exUp (exIns 1 5) [1] 7 [i]) * (exIns 1 5 [i] - exUp (exIns 1 5) [1] 7 [i])) < (F.sum 0 3 fun i => (exIns 1 5 [i] - 1 * R [i] - (exUp (exIns 1 5) [1] 7 [i] - 1 * S [i])) * (exIns 1 5 [i] - 1 * R [i] - (exUp (exIns 1 5) [1] 7 [i] - 1 * S [i]))) :=
  C122_poisson_1d (T := Rat) (fun _ => revBackend_ok) (fun _ => seqBackend_ok) (fun _ => seqBackend_ok) (fun _ => revBackend_ok) (by decide) (by decide) (by decide) (exDir_args (by ex_args)) (exAt_args (exDir_args (by ex_args))) (apart_blk (by decide))
     exDir_u1  (exAt_up (by decide) exDir_u1)
    (by decide) (by decide) (fun p _ hp => (if_neg hp).symm) (by norm_num [exUp, exIns]) (by norm_num [exRd, exDx, exIns, exUp, F.colMajor, F.cell1d, F.face1d])

/-- 2D, diffusion operator with cell coefficients: if `U` and `V` agree in the box and next to it except at one cell of the box, a step longer than two over the diagonal at that cell makes the mean square distance grow. -/
theorem C122_v1_2d {i0 j0 i1 j1 agcw gcw rgcw : Int} {alpha beta : T} {dx : Nat → T} {a u b0 b1 f0 f1 res : Ptr} {β1 β2 : Nat → Backend} {β3 β4 : Nat → Backend} {m m' : Mem T} {A B0 B1 U V : List Int → T} {t : T} {i j : Int}
    (hβ1 : ∀ n, ValidBackend (β1 n)) (hβ2 : ∀ n, ValidBackend (β2 n)) (hβ3 : ∀ n, ValidBackend (β3 n)) (hβ4 : ∀ n, ValidBackend (β4 n)) (hi : i0 ≤ i1) (hj : j0 ≤ j1) (hg : 1 ≤ gcw) (hagcw : 0 ≤ agcw) (hrgcw : 0 ≤ rgcw)
    (h : F.Args m [(F.cell2d a i0 j0 i1 j1 agcw), (F.cell2d u i0 j0 i1 j1 gcw), (F.face2d0 b0 i0 j0 i1 j1 0), (F.face2d1 b1 i0 j0 i1 j1 0)] [(F.face2d0 f0 i0 j0 i1 j1 0), (F.face2d1 f1 i0 j0 i1 j1 0), (F.cell2d res i0 j0 i1 j1 rgcw)]) (h' : F.Args m' [(F.cell2d a i0 j0 i1 j1 agcw), (F.cell2d u i0 j0 i1 j1 gcw), (F.face2d0 b0 i0 j0 i1 j1 0), (F.face2d1 b1 i0 j0 i1 j1 0)] [(F.face2d0 f0 i0 j0 i1 j1 0), (F.face2d1 f1 i0 j0 i1 j1 0), (F.cell2d res i0 j0 i1 j1 rgcw)])
    (hp : F.Apart (F.face2d0 f0 i0 j0 i1 j1 0) (F.face2d1 f1 i0 j0 i1 j1 0))
    (hr : F.Apart (F.cell2d res i0 j0 i1 j1 rgcw) (F.face2d0 f0 i0 j0 i1 j1 0) ∧ F.Apart (F.cell2d res i0 j0 i1 j1 rgcw) (F.face2d1 f1 i0 j0 i1 j1 0))
    (hA : F.Holds m (F.cell2d a i0 j0 i1 j1 agcw) A) (hB0 : F.Holds m (F.face2d0 b0 i0 j0 i1 j1 0) B0) (hB1 : F.Holds m (F.face2d1 b1 i0 j0 i1 j1 0) B1) (hU : F.Holds m (F.cell2d u i0 j0 i1 j1 gcw) U)
    (hA' : F.Holds m' (F.cell2d a i0 j0 i1 j1 agcw) A) (hB0' : F.Holds m' (F.face2d0 b0 i0 j0 i1 j1 0) B0) (hB1' : F.Holds m' (F.face2d1 b1 i0 j0 i1 j1 0) B1) (hV : F.Holds m' (F.cell2d u i0 j0 i1 j1 gcw) V)
    (hia : i0 ≤ i) (hib : i ≤ i1) (hja : j0 ≤ j) (hjb : j ≤ j1)
    (hUV : ∀ p, F.InBounds [(i0 - 1, i1 + 1), (j0 - 1, j1 + 1)] p → p ≠ [i, j] → U p = V p) (hne : U [i, j] ≠ V [i, j]) (hs : 2 < t * (alpha * A [i, j] + beta * ((B0 [i, j] + B0 [i + 1, j]) / (dx 0 * dx 0) + (B1 [j, i] + B1 [j + 1, i]) / (dx 1 * dx 1)))) :
    ∃ m1 m2 p1 p2, ∃ R S : List Int → T, Cuda.flux2d i0 j0 i1 j1 dx b0 b1 gcw u f0 f1 β1 m = .ok m1 ∧ Cuda.diffusionV1Apply2d i0 i1 j0 j1 alpha beta dx agcw a gcw u f0 f1 rgcw res β2 m1 = .ok m2 ∧
      (∀ p, F.InBounds [(i0, i1), (j0, j1)] p → F.El m2 (F.cell2d res i0 j0 i1 j1 rgcw) p (R p)) ∧
      Cuda.flux2d i0 j0 i1 j1 dx b0 b1 gcw u f0 f1 β3 m' = .ok p1 ∧ Cuda.diffusionV1Apply2d i0 i1 j0 j1 alpha beta dx agcw a gcw u f0 f1 rgcw res β4 p1 = .ok p2 ∧
      (∀ p, F.InBounds [(i0, i1), (j0, j1)] p → F.El p2 (F.cell2d res i0 j0 i1 j1 rgcw) p (S p)) ∧
      (F.sum i0 i1 fun i => (F.sum j0 j1 fun j => (U [i, j] - V [i, j]) * (U [i, j] - V [i, j]))) < (F.sum i0 i1 fun i => (F.sum j0 j1 fun j => (U [i, j] - t * R [i, j] - (V [i, j] - t * S [i, j])) * (U [i, j] - t * R [i, j] - (V [i, j] - t * S [i, j])))) := by
  obtain ⟨m1, m2, R, c1, c2, E, hR⟩ := energy_v1_2 (alpha := alpha) (beta := beta) (dx := dx) hβ1 hβ2 hi hj hg hagcw hrgcw h hp hr hA hB0 hB1 hU
  obtain ⟨p1, p2, S, d1, d2, E', hS⟩ := energy_v1_2 (alpha := alpha) (beta := beta) (dx := dx) hβ3 hβ4 hi hj hg hagcw hrgcw h' hp hr hA' hB0' hB1' hV
  refine ⟨m1, m2, p1, p2, R, S, c1, c2, E, d1, d2, E', ?_⟩
  exact F.op2_far hia hib hja hjb hUV hne hs (hR i j hia hib hja hjb) (hS i j hia hib hja hjb)

example : ∃ m1 m2 p1 p2, ∃ R S : List Int → Rat, Cuda.flux2d 0 1 2 3 exDx ⟨2, 0⟩ ⟨3, 0⟩ 2 ⟨1, 0⟩ ⟨5, 0⟩ ⟨6, 0⟩ (fun _ => revBackend) (exDir 2 5 1) = .ok m1 ∧ Cuda.diffusionV1Apply2d 0 2 1 3 3 2 exDx 1 ⟨0, 0⟩ 2 ⟨1, 0⟩ ⟨5, 0⟩ ⟨6, 0⟩ 1 ⟨8, 0⟩ (fun _ => seqBackend) m1 = .ok m2 ∧
      (∀ p, F.InBounds [(0, 2), (1, 3)] p → F.El m2 (F.cell2d ⟨8, 0⟩ 0 1 2 3 1) p (R p)) ∧
      Cuda.flux2d 0 1 2 3 exDx ⟨2, 0⟩ ⟨3, 0⟩ 2 ⟨1, 0⟩ ⟨5, 0⟩ ⟨6, 0⟩ (fun _ => seqBackend) (exAt (exDir 2 5 2) ((⟨1, 0⟩ : Ptr).add (F.colMajor (F.cell2d ⟨1, 0⟩ 0 1 2 3 2).dims [1, 2])) 7) = .ok p1 ∧ Cuda.diffusionV1Apply2d 0 2 1 3 3 2 exDx 1 ⟨0, 0⟩ 2 ⟨1, 0⟩ ⟨5, 0⟩ ⟨6, 0⟩ 1 ⟨8, 0⟩ (fun _ => revBackend) p1 = .ok p2 ∧
      (∀ p, F.InBounds [(0, 2), (1, 3)] p → F.El p2 (F.cell2d ⟨8, 0⟩ 0 1 2 3 1) p (S p)) ∧
      (F.sum 0 2 fun i => (F.sum 1 3 fun j => (exIns 2 5 [i, j] - exUp (exIns 2 5) [1, 2] 7 [i, j]) * (exIns 2 5 [i, j] - exUp (exIns 2 5) [1, 2] 7 [i, j]))) < (F.sum 0 2 fun i => (F.sum 1 3 fun j => (exIns 2 5 [i, j] - 1 * R [i, j] - (exUp (exIns 2 5) [1, 2] 7 [i, j] - 1 * S [i, j])) * (exIns 2 5 [i, j] - 1 * R [i, j] - (exUp (exIns 2 5) [1, 2] 7 [i, j] - 1 * S [i, j])))) :=
  C122_v1_2d (T := Rat) (fun _ => revBackend_ok) (fun _ => seqBackend_ok) (fun _ => seqBackend_ok) (fun _ => revBackend_ok) (by decide) (by decide) (by decide) (by decide) (by decide) (exDir_args (by ex_args)) (exAt_args (exDir_args (by ex_args))) (apart_blk (by decide)) ⟨apart_blk (by decide), apart_blk (by decide)⟩
    (exDir_rd (by decide) (exRat_ok rfl (by decide) (by decide))) (exDir_rd (by decide) (exRat_ok rfl (by decide) (by decide))) (exDir_rd (by decide) (exRat_ok rfl (by decide) (by decide))) exDir_u2 (exAt_rd (by decide) (exDir_rd (by decide) (exRat_ok rfl (by decide) (by decide)))) (exAt_rd (by decide) (exDir_rd (by decide) (exRat_ok rfl (by decide) (by decide)))) (exAt_rd (by decide) (exDir_rd (by decide) (exRat_ok rfl (by decide) (by decide)))) (exAt_up (by decide) exDir_u2)
    (by decide) (by decide) (by decide) (by decide) (fun p _ hp => (if_neg hp).symm) (by norm_num [exUp, exIns]) (by norm_num [exRd, exDx, exIns, exUp, F.colMajor, F.cell2d, F.face2d0, F.face2d1])

/-- 2D, diffusion operator with constant reaction: if `U` and `V` agree in the box and next to it except at one cell of the box, a step longer than two over the diagonal at that cell makes the mean square distance grow. -/
theorem C122_v2_2d {i0 j0 i1 j1 gcw rgcw : Int} {alpha beta : T} {dx : Nat → T} {u b0 b1 f0 f1 res : Ptr} {β1 β2 : Nat → Backend} {β3 β4 : Nat → Backend} {m m' : Mem T} {B0 B1 U V : List Int → T} {t : T} {i j : Int}
    (hβ1 : ∀ n, ValidBackend (β1 n)) (hβ2 : ∀ n, ValidBackend (β2 n)) (hβ3 : ∀ n, ValidBackend (β3 n)) (hβ4 : ∀ n, ValidBackend (β4 n)) (hi : i0 ≤ i1) (hj : j0 ≤ j1) (hg : 1 ≤ gcw) (hrgcw : 0 ≤ rgcw)
    (h : F.Args m [(F.cell2d u i0 j0 i1 j1 gcw), (F.face2d0 b0 i0 j0 i1 j1 0), (F.face2d1 b1 i0 j0 i1 j1 0)] [(F.face2d0 f0 i0 j0 i1 j1 0), (F.face2d1 f1 i0 j0 i1 j1 0), (F.cell2d res i0 j0 i1 j1 rgcw)]) (h' : F.Args m' [(F.cell2d u i0 j0 i1 j1 gcw), (F.face2d0 b0 i0 j0 i1 j1 0), (F.face2d1 b1 i0 j0 i1 j1 0)] [(F.face2d0 f0 i0 j0 i1 j1 0), (F.face2d1 f1 i0 j0 i1 j1 0), (F.cell2d res i0 j0 i1 j1 rgcw)])
    (hp : F.Apart (F.face2d0 f0 i0 j0 i1 j1 0) (F.face2d1 f1 i0 j0 i1 j1 0))
    (hr : F.Apart (F.cell2d res i0 j0 i1 j1 rgcw) (F.face2d0 f0 i0 j0 i1 j1 0) ∧ F.Apart (F.cell2d res i0 j0 i1 j1 rgcw) (F.face2d1 f1 i0 j0 i1 j1 0))
    (hB0 : F.Holds m (F.face2d0 b0 i0 j0 i1 j1 0) B0) (hB1 : F.Holds m (F.face2d1 b1 i0 j0 i1 j1 0) B1) (hU : F.Holds m (F.cell2d u i0 j0 i1 j1 gcw) U)
    (hB0' : F.Holds m' (F.face2d0 b0 i0 j0 i1 j1 0) B0) (hB1' : F.Holds m' (F.face2d1 b1 i0 j0 i1 j1 0) B1) (hV : F.Holds m' (F.cell2d u i0 j0 i1 j1 gcw) V)
    (hia : i0 ≤ i) (hib : i ≤ i1) (hja : j0 ≤ j) (hjb : j ≤ j1)
    (hUV : ∀ p, F.InBounds [(i0 - 1, i1 + 1), (j0 - 1, j1 + 1)] p → p ≠ [i, j] → U p = V p) (hne : U [i, j] ≠ V [i, j]) (hs : 2 < t * (alpha + beta * ((B0 [i, j] + B0 [i + 1, j]) / (dx 0 * dx 0) + (B1 [j, i] + B1 [j + 1, i]) / (dx 1 * dx 1)))) :
    ∃ m1 m2 p1 p2, ∃ R S : List Int → T, Cuda.flux2d i0 j0 i1 j1 dx b0 b1 gcw u f0 f1 β1 m = .ok m1 ∧ Cuda.diffusionV2Apply2d i0 i1 j0 j1 alpha beta dx gcw u f0 f1 rgcw res β2 m1 = .ok m2 ∧
      (∀ p, F.InBounds [(i0, i1), (j0, j1)] p → F.El m2 (F.cell2d res i0 j0 i1 j1 rgcw) p (R p)) ∧
      Cuda.flux2d i0 j0 i1 j1 dx b0 b1 gcw u f0 f1 β3 m' = .ok p1 ∧ Cuda.diffusionV2Apply2d i0 i1 j0 j1 alpha beta dx gcw u f0 f1 rgcw res β4 p1 = .ok p2 ∧
      (∀ p, F.InBounds [(i0, i1), (j0, j1)] p → F.El p2 (F.cell2d res i0 j0 i1 j1 rgcw) p (S p)) ∧
      (F.sum i0 i1 fun i => (F.sum j0 j1 fun j => (U [i, j] - V [i, j]) * (U [i, j] - V [i, j]))) < (F.sum i0 i1 fun i => (F.sum j0 j1 fun j => (U [i, j] - t * R [i, j] - (V [i, j] - t * S [i, j])) * (U [i, j] - t * R [i, j] - (V [i, j] - t * S [i, j])))) := by
  obtain ⟨m1, m2, R, c1, c2, E, hR⟩ := energy_v2_2 (alpha := alpha) (beta := beta) (dx := dx) hβ1 hβ2 hi hj hg hrgcw h hp hr hB0 hB1 hU
  obtain ⟨p1, p2, S, d1, d2, E', hS⟩ := energy_v2_2 (alpha := alpha) (beta := beta) (dx := dx) hβ3 hβ4 hi hj hg hrgcw h' hp hr hB0' hB1' hV
  refine ⟨m1, m2, p1, p2, R, S, c1, c2, E, d1, d2, E', ?_⟩
  exact F.op2_far (A := fun _ => 1) hia hib hja hjb hUV hne (by simpa using hs) (hR i j hia hib hja hjb) (hS i j hia hib hja hjb)

example : ∃ m1 m2 p1 p2, ∃ R S : List Int → Rat, Cuda.flux2d 0 1 2 3 exDx ⟨2, 0⟩ ⟨3, 0⟩ 2 ⟨1, 0⟩ ⟨5, 0⟩ ⟨6, 0⟩ (fun _ => revBackend) (exDir 2 5 1) = .ok m1 ∧ Cuda.diffusionV2Apply2d 0 2 1 3 3 2 exDx 2 ⟨1, 0⟩ ⟨5, 0⟩ ⟨6, 0⟩ 1 ⟨8, 0⟩ (fun _ => seqBackend) m1 = .ok m2 ∧
      (∀ p, F.InBounds [(0, 2), (1, 3)] p → F.El m2 (F.cell2d ⟨8, 0⟩ 0 1 2 3 1) p (R p)) ∧
      Cuda.flux2d 0 1 2 3 exDx ⟨2, 0⟩ ⟨3, 0⟩ 2 ⟨1, 0⟩ ⟨5, 0⟩ ⟨6, 0⟩ (fun _ => seqBackend) (exAt (exDir 2 5 2) ((⟨1, 0⟩ : Ptr).add (F.colMajor (F.cell2d ⟨1, 0⟩ 0 1 2 3 2).dims [1, 2])) 7) = .ok p1 ∧ Cuda.diffusionV2Apply2d 0 2 1 3 3 2 exDx 2 ⟨1, 0⟩ ⟨5, 0⟩ ⟨6, 0⟩ 1 ⟨8, 0⟩ (fun _ => revBackend) p1 = .ok p2 ∧
      (∀ p, F.InBounds [(0, 2), (1, 3)] p → F.El p2 (F.cell2d ⟨8, 0⟩ 0 1 2 3 1) p (S p)) ∧
      (F.sum 0 2 fun i => (F.sum 1 3 fun j => (exIns 2 5 [i, j] - exUp (exIns 2 5) [1, 2] 7 [i, j]) * (exIns 2 5 [i, j] - exUp (exIns 2 5) [1, 2] 7 [i, j]))) < (F.sum 0 2 fun i => (F.sum 1 3 fun j => (exIns 2 5 [i, j] - 1 * R [i, j] - (exUp (exIns 2 5) [1, 2] 7 [i, j] - 1 * S [i, j])) * (exIns 2 5 [i, j] - 1 * R [i, j] - (exUp (exIns 2 5) [1, 2] 7 [i, j] - 1 * S [i, j])))) :=
  C122_v2_2d (T := Rat) (fun _ => revBackend_ok) (fun _ => seqBackend_ok) (fun _ => seqBackend_ok) (fun _ => revBackend_ok) (by decide) (by decide) (by decide) (by decide) (exDir_args (by ex_args)) (exAt_args (exDir_args (by ex_args))) (apart_blk (by decide)) ⟨apart_blk (by decide), apart_blk (by decide)⟩
    (exDir_rd (by decide) (exRat_ok rfl (by decide) (by decide))) (exDir_rd (by decide) (exRat_ok rfl (by decide) (by decide))) exDir_u2 (exAt_rd (by decide) (exDir_rd (by decide) (exRat_ok rfl (by decide) (by decide)))) (exAt_rd (by decide) (exDir_rd (by decide) (exRat_ok rfl (by decide) (by decide)))) (exAt_up (by decide) exDir_u2)
    (by decide) (by decide) (by decide) (by decide) (fun p _ hp => (if_neg hp).symm) (by norm_num [exUp, exIns]) (by norm_num [exRd, exDx, exIns, exUp, F.colMajor, F.cell2d, F.face2d0, F.face2d1])

/-- 2D, Poisson operator: if `U` and `V` agree in the box and next to it except at one cell of the box, a step longer than two over the diagonal at that cell makes the mean square distance grow. -/
theorem C122_poisson_2d {i0 j0 i1 j1 gcw rgcw : Int} {beta : T} {dx : Nat → T} {u f0 f1 res : Ptr} {β1 β2 : Nat → Backend} {β3 β4 : Nat → Backend} {m m' : Mem T} {U V : List Int → T} {t : T} {i j : Int}
    (hβ1 : ∀ n, ValidBackend (β1 n)) (hβ2 : ∀ n, ValidBackend (β2 n)) (hβ3 : ∀ n, ValidBackend (β3 n)) (hβ4 : ∀ n, ValidBackend (β4 n)) (hi : i0 ≤ i1) (hj : j0 ≤ j1) (hg : 1 ≤ gcw) (hrgcw : 0 ≤ rgcw)
    (h : F.Args m [(F.cell2d u i0 j0 i1 j1 gcw)] [(F.face2d0 f0 i0 j0 i1 j1 0), (F.face2d1 f1 i0 j0 i1 j1 0), (F.cell2d res i0 j0 i1 j1 rgcw)]) (h' : F.Args m' [(F.cell2d u i0 j0 i1 j1 gcw)] [(F.face2d0 f0 i0 j0 i1 j1 0), (F.face2d1 f1 i0 j0 i1 j1 0), (F.cell2d res i0 j0 i1 j1 rgcw)])
    (hp : F.Apart (F.face2d0 f0 i0 j0 i1 j1 0) (F.face2d1 f1 i0 j0 i1 j1 0))
    (hr : F.Apart (F.cell2d res i0 j0 i1 j1 rgcw) (F.face2d0 f0 i0 j0 i1 j1 0) ∧ F.Apart (F.cell2d res i0 j0 i1 j1 rgcw) (F.face2d1 f1 i0 j0 i1 j1 0))
    (hU : F.Holds m (F.cell2d u i0 j0 i1 j1 gcw) U)
    (hV : F.Holds m' (F.cell2d u i0 j0 i1 j1 gcw) V)
    (hia : i0 ≤ i) (hib : i ≤ i1) (hja : j0 ≤ j) (hjb : j ≤ j1)
    (hUV : ∀ p, F.InBounds [(i0 - 1, i1 + 1), (j0 - 1, j1 + 1)] p → p ≠ [i, j] → U p = V p) (hne : U [i, j] ≠ V [i, j]) (hs : 2 < t * (beta * ((1 + 1) / (dx 0 * dx 0) + (1 + 1) / (dx 1 * dx 1)))) :
    ∃ m1 m2 p1 p2, ∃ R S : List Int → T, Cuda.poissonFlux2d i0 j0 i1 j1 dx gcw u f0 f1 β1 m = .ok m1 ∧ Cuda.poissonV2Apply2d i0 i1 j0 j1 beta dx f0 f1 rgcw res β2 m1 = .ok m2 ∧
      (∀ p, F.InBounds [(i0, i1), (j0, j1)] p → F.El m2 (F.cell2d res i0 j0 i1 j1 rgcw) p (R p)) ∧
      Cuda.poissonFlux2d i0 j0 i1 j1 dx gcw u f0 f1 β3 m' = .ok p1 ∧ Cuda.poissonV2Apply2d i0 i1 j0 j1 beta dx f0 f1 rgcw res β4 p1 = .ok p2 ∧
      (∀ p, F.InBounds [(i0, i1), (j0, j1)] p → F.El p2 (F.cell2d res i0 j0 i1 j1 rgcw) p (S p)) ∧
      (F.sum i0 i1 fun i => (F.sum j0 j1 fun j => (U [i, j] - V [i, j]) * (U [i, j] - V [i, j]))) < (F.sum i0 i1 fun i => (F.sum j0 j1 fun j => (U [i, j] - t * R [i, j] - (V [i, j] - t * S [i, j])) * (U [i, j] - t * R [i, j] - (V [i, j] - t * S [i, j])))) := by
  obtain ⟨m1, m2, R, c1, c2, E, hR⟩ := energy_p_2 (beta := beta) (dx := dx) hβ1 hβ2 hi hj hg hrgcw h hp hr hU
  obtain ⟨p1, p2, S, d1, d2, E', hS⟩ := energy_p_2 (beta := beta) (dx := dx) hβ3 hβ4 hi hj hg hrgcw h' hp hr hV
  refine ⟨m1, m2, p1, p2, R, S, c1, c2, E, d1, d2, E', ?_⟩
  exact F.op2_far (alpha := 0) (A := fun _ => 1) (B0 := fun _ => 1) (B1 := fun _ => 1) hia hib hja hjb hUV hne (by simpa using hs) (hR i j hia hib hja hjb) (hS i j hia hib hja hjb)

example : ∃ m1 m2 p1 p2, ∃ R S : List Int → Rat, Cuda.poissonFlux2d 0 1 2 3 exDx 2 ⟨1, 0⟩ ⟨5, 0⟩ ⟨6, 0⟩ (fun _ => revBackend) (exDir 2 5 1) = .ok m1 ∧ Cuda.poissonV2Apply2d 0 2 1 3 2 exDx ⟨5, 0⟩ ⟨6, 0⟩ 1 ⟨8, 0⟩ (fun _ => seqBackend) m1 = .ok m2 ∧
      (∀ p, F.InBounds [(0, 2), (1, 3)] p → F.El m2 (F.cell2d ⟨8, 0⟩ 0 1 2 3 1) p (R p)) ∧
      Cuda.poissonFlux2d 0 1 2 3 exDx 2 ⟨1, 0⟩ ⟨5, 0⟩ ⟨6, 0⟩ (fun _ => seqBackend) (exAt (exDir 2 5 2) ((⟨1, 0⟩ : Ptr).add (F.colMajor (F.cell2d ⟨1, 0⟩ 0 1 2 3 2).dims [1, 2])) 7) = .ok p1 ∧ Cuda.poissonV2Apply2d 0 2 1 3 2 exDx ⟨5, 0⟩ ⟨6, 0⟩ 1 ⟨8, 0⟩ (fun _ => revBackend) p1 = .ok p2 ∧
      (∀ p, F.InBounds [(0, 2), (1, 3)] p → F.El p2 (F.cell2d ⟨8, 0⟩ 0 1 2 3 1) p (S p)) ∧
      (F.sum 0 2 fun i => (F.sum 1 3 fun j => (exIns 2 5 [i, j] - exUp (exIns 2 5) [1, 2] 7 [i, j]) * (exIns 2 5 [i, j] - exUp (exIns 2 5) [1, 2] 7 [i, j]))) < (F.sum 0 2 fun i => (F.sum 1 3 fun j => (exIns 2 5 [i, j] - 1 * R [i, j] - (exUp (exIns 2 5) [1, 2] 7 [i, j] - 1 * S [i, j])) * (exIns 2 5 [i, j] - 1 * R [i, j] - (exUp (exIns 2 5) [1, 2] 7 [i, j] - 1 * S [i, j])))) :=
  C122_poisson_2d (T := Rat) (fun _ => revBackend_ok) (fun _ => seqBackend_ok) (fun _ => seqBackend_ok) (fun _ => revBackend_ok) (by decide) (by decide) (by decide) (by decide) (exDir_args (by ex_args)) (exAt_args (exDir_args (by ex_args))) (apart_blk (by decide)) ⟨apart_blk (by decide), apart_blk (by decide)⟩
     exDir_u2  (exAt_up (by decide) exDir_u2)
    (by decide) (by decide) (by decide) (by decide) (fun p _ hp => (if_neg hp).symm) (by norm_num [exUp, exIns]) (by norm_num [exRd, exDx, exIns, exUp, F.colMajor, F.cell2d, F.face2d0, F.face2d1])

/-- 3D, diffusion operator with cell coefficients: if `U` and `V` agree in the box and next to it except at one cell of the box, a step longer than two over the diagonal at that cell makes the mean square distance grow. -/
theorem C122_v1_3d {i0 j0 k0 i1 j1 k1 agcw gcw rgcw : Int} {alpha beta : T} {dx : Nat → T} {a u b0 b1 b2 f0 f1 f2 res : Ptr} {β1 β2 : Nat → Backend} {β3 β4 : Nat → Backend} {m m' : Mem T} {A B0 B1 B2 U V : List Int → T} {t : T} {i j k : Int}
    (hβ1 : ∀ n, ValidBackend (β1 n)) (hβ2 : ∀ n, ValidBackend (β2 n)) (hβ3 : ∀ n, ValidBackend (β3 n)) (hβ4 : ∀ n, ValidBackend (β4 n)) (hi : i0 ≤ i1) (hj : j0 ≤ j1) (hk : k0 ≤ k1) (hg : 1 ≤ gcw) (hagcw : 0 ≤ agcw) (hrgcw : 0 ≤ rgcw)
    (h : F.Args m [(F.cell3d a i0 j0 k0 i1 j1 k1 agcw), (F.cell3d u i0 j0 k0 i1 j1 k1 gcw), (F.face3d0 b0 i0 j0 k0 i1 j1 k1 0), (F.face3d1 b1 i0 j0 k0 i1 j1 k1 0), (F.face3d2 b2 i0 j0 k0 i1 j1 k1 0)] [(F.face3d0 f0 i0 j0 k0 i1 j1 k1 0), (F.face3d1 f1 i0 j0 k0 i1 j1 k1 0), (F.face3d2 f2 i0 j0 k0 i1 j1 k1 0), (F.cell3d res i0 j0 k0 i1 j1 k1 rgcw)]) (h' : F.Args m' [(F.cell3d a i0 j0 k0 i1 j1 k1 agcw), (F.cell3d u i0 j0 k0 i1 j1 k1 gcw), (F.face3d0 b0 i0 j0 k0 i1 j1 k1 0), (F.face3d1 b1 i0 j0 k0 i1 j1 k1 0), (F.face3d2 b2 i0 j0 k0 i1 j1 k1 0)] [(F.face3d0 f0 i0 j0 k0 i1 j1 k1 0), (F.face3d1 f1 i0 j0 k0 i1 j1 k1 0), (F.face3d2 f2 i0 j0 k0 i1 j1 k1 0), (F.cell3d res i0 j0 k0 i1 j1 k1 rgcw)])
    (hp : F.Apart (F.face3d0 f0 i0 j0 k0 i1 j1 k1 0) (F.face3d1 f1 i0 j0 k0 i1 j1 k1 0) ∧ F.Apart (F.face3d0 f0 i0 j0 k0 i1 j1 k1 0) (F.face3d2 f2 i0 j0 k0 i1 j1 k1 0) ∧ F.Apart (F.face3d1 f1 i0 j0 k0 i1 j1 k1 0) (F.face3d2 f2 i0 j0 k0 i1 j1 k1 0))
    (hr : F.Apart (F.cell3d res i0 j0 k0 i1 j1 k1 rgcw) (F.face3d0 f0 i0 j0 k0 i1 j1 k1 0) ∧ F.Apart (F.cell3d res i0 j0 k0 i1 j1 k1 rgcw) (F.face3d1 f1 i0 j0 k0 i1 j1 k1 0) ∧ F.Apart (F.cell3d res i0 j0 k0 i1 j1 k1 rgcw) (F.face3d2 f2 i0 j0 k0 i1 j1 k1 0))
    (hA : F.Holds m (F.cell3d a i0 j0 k0 i1 j1 k1 agcw) A) (hB0 : F.Holds m (F.face3d0 b0 i0 j0 k0 i1 j1 k1 0) B0) (hB1 : F.Holds m (F.face3d1 b1 i0 j0 k0 i1 j1 k1 0) B1) (hB2 : F.Holds m (F.face3d2 b2 i0 j0 k0 i1 j1 k1 0) B2) (hU : F.Holds m (F.cell3d u i0 j0 k0 i1 j1 k1 gcw) U)
    (hA' : F.Holds m' (F.cell3d a i0 j0 k0 i1 j1 k1 agcw) A) (hB0' : F.Holds m' (F.face3d0 b0 i0 j0 k0 i1 j1 k1 0) B0) (hB1' : F.Holds m' (F.face3d1 b1 i0 j0 k0 i1 j1 k1 0) B1) (hB2' : F.Holds m' (F.face3d2 b2 i0 j0 k0 i1 j1 k1 0) B2) (hV : F.Holds m' (F.cell3d u i0 j0 k0 i1 j1 k1 gcw) V)
    (hia : i0 ≤ i) (hib : i ≤ i1) (hja : j0 ≤ j) (hjb : j ≤ j1) (hka : k0 ≤ k) (hkb : k ≤ k1)
    (hUV : ∀ p, F.InBounds [(i0 - 1, i1 + 1), (j0 - 1, j1 + 1), (k0 - 1, k1 + 1)] p → p ≠ [i, j, k] → U p = V p) (hne : U [i, j, k] ≠ V [i, j, k]) (hs : 2 < t * (alpha * A [i, j, k] + beta * ((B0 [i, j, k] + B0 [i + 1, j, k]) / (dx 0 * dx 0) + (B1 [j, k, i] + B1 [j + 1, k, i]) / (dx 1 * dx 1) + (B2 [k, i, j] + B2 [k + 1, i, j]) / (dx 2 * dx 2)))) :
    ∃ m1 m2 p1 p2, ∃ R S : List Int → T, Cuda.flux3d i0 j0 k0 i1 j1 k1 dx b0 b1 b2 gcw u f0 f1 f2 β1 m = .ok m1 ∧ Cuda.diffusionV1Apply3d i0 i1 j0 j1 k0 k1 alpha beta dx agcw a gcw u f0 f1 f2 rgcw res β2 m1 = .ok m2 ∧
      (∀ p, F.InBounds [(i0, i1), (j0, j1), (k0, k1)] p → F.El m2 (F.cell3d res i0 j0 k0 i1 j1 k1 rgcw) p (R p)) ∧
      Cuda.flux3d i0 j0 k0 i1 j1 k1 dx b0 b1 b2 gcw u f0 f1 f2 β3 m' = .ok p1 ∧ Cuda.diffusionV1Apply3d i0 i1 j0 j1 k0 k1 alpha beta dx agcw a gcw u f0 f1 f2 rgcw res β4 p1 = .ok p2 ∧
      (∀ p, F.InBounds [(i0, i1), (j0, j1), (k0, k1)] p → F.El p2 (F.cell3d res i0 j0 k0 i1 j1 k1 rgcw) p (S p)) ∧
      (F.sum i0 i1 fun i => (F.sum j0 j1 fun j => (F.sum k0 k1 fun k => (U [i, j, k] - V [i, j, k]) * (U [i, j, k] - V [i, j, k])))) < (F.sum i0 i1 fun i => (F.sum j0 j1 fun j => (F.sum k0 k1 fun k => (U [i, j, k] - t * R [i, j, k] - (V [i, j, k] - t * S [i, j, k])) * (U [i, j, k] - t * R [i, j, k] - (V [i, j, k] - t * S [i, j, k]))))) := by
  obtain ⟨m1, m2, R, c1, c2, E, hR⟩ := energy_v1_3 (alpha := alpha) (beta := beta) (dx := dx) hβ1 hβ2 hi hj hk hg hagcw hrgcw h hp hr hA hB0 hB1 hB2 hU
  obtain ⟨p1, p2, S, d1, d2, E', hS⟩ := energy_v1_3 (alpha := alpha) (beta := beta) (dx := dx) hβ3 hβ4 hi hj hk hg hagcw hrgcw h' hp hr hA' hB0' hB1' hB2' hV
  refine ⟨m1, m2, p1, p2, R, S, c1, c2, E, d1, d2, E', ?_⟩
  exact F.op3_far hia hib hja hjb hka hkb hUV hne hs (hR i j k hia hib hja hjb hka hkb) (hS i j k hia hib hja hjb hka hkb)

example : ∃ m1 m2 p1 p2, ∃ R S : List Int → Rat, Cuda.flux3d 0 1 2 1 2 3 exDx ⟨2, 0⟩ ⟨3, 0⟩ ⟨4, 0⟩ 2 ⟨1, 0⟩ ⟨5, 0⟩ ⟨6, 0⟩ ⟨7, 0⟩ (fun _ => revBackend) (exDir 3 5 1) = .ok m1 ∧ Cuda.diffusionV1Apply3d 0 1 1 2 2 3 3 2 exDx 1 ⟨0, 0⟩ 2 ⟨1, 0⟩ ⟨5, 0⟩ ⟨6, 0⟩ ⟨7, 0⟩ 1 ⟨8, 0⟩ (fun _ => seqBackend) m1 = .ok m2 ∧
      (∀ p, F.InBounds [(0, 1), (1, 2), (2, 3)] p → F.El m2 (F.cell3d ⟨8, 0⟩ 0 1 2 1 2 3 1) p (R p)) ∧
      Cuda.flux3d 0 1 2 1 2 3 exDx ⟨2, 0⟩ ⟨3, 0⟩ ⟨4, 0⟩ 2 ⟨1, 0⟩ ⟨5, 0⟩ ⟨6, 0⟩ ⟨7, 0⟩ (fun _ => seqBackend) (exAt (exDir 3 5 2) ((⟨1, 0⟩ : Ptr).add (F.colMajor (F.cell3d ⟨1, 0⟩ 0 1 2 1 2 3 2).dims [1, 1, 2])) 7) = .ok p1 ∧ Cuda.diffusionV1Apply3d 0 1 1 2 2 3 3 2 exDx 1 ⟨0, 0⟩ 2 ⟨1, 0⟩ ⟨5, 0⟩ ⟨6, 0⟩ ⟨7, 0⟩ 1 ⟨8, 0⟩ (fun _ => revBackend) p1 = .ok p2 ∧
      (∀ p, F.InBounds [(0, 1), (1, 2), (2, 3)] p → F.El p2 (F.cell3d ⟨8, 0⟩ 0 1 2 1 2 3 1) p (S p)) ∧
      (F.sum 0 1 fun i => (F.sum 1 2 fun j => (F.sum 2 3 fun k => (exIns 3 5 [i, j, k] - exUp (exIns 3 5) [1, 1, 2] 7 [i, j, k]) * (exIns 3 5 [i, j, k] - exUp (exIns 3 5) [1, 1, 2] 7 [i, j, k])))) < (F.sum 0 1 fun i => (F.sum 1 2 fun j => (F.sum 2 3 fun k => (exIns 3 5 [i, j, k] - 1 * R [i, j, k] - (exUp (exIns 3 5) [1, 1, 2] 7 [i, j, k] - 1 * S [i, j, k])) * (exIns 3 5 [i, j, k] - 1 * R [i, j, k] - (exUp (exIns 3 5) [1, 1, 2] 7 [i, j, k] - 1 * S [i, j, k]))))) :=
  C122_v1_3d (T := Rat) (fun _ => revBackend_ok) (fun _ => seqBackend_ok) (fun _ => seqBackend_ok) (fun _ => revBackend_ok) (by decide) (by decide) (by decide) (by decide) (by decide) (by decide) (exDir_args (by ex_args)) (exAt_args (exDir_args (by ex_args))) (⟨apart_blk (by decide), apart_blk (by decide), apart_blk (by decide)⟩) ⟨apart_blk (by decide), apart_blk (by decide), apart_blk (by decide)⟩
    (exDir_rd (by decide) (exRat_ok rfl (by decide) (by decide))) (exDir_rd (by decide) (exRat_ok rfl (by decide) (by decide))) (exDir_rd (by decide) (exRat_ok rfl (by decide) (by decide))) (exDir_rd (by decide) (exRat_ok rfl (by decide) (by decide))) exDir_u3 (exAt_rd (by decide) (exDir_rd (by decide) (exRat_ok rfl (by decide) (by decide)))) (exAt_rd (by decide) (exDir_rd (by decide) (exRat_ok rfl (by decide) (by decide)))) (exAt_rd (by decide) (exDir_rd (by decide) (exRat_ok rfl (by decide) (by decide)))) (exAt_rd (by decide) (exDir_rd (by decide) (exRat_ok rfl (by decide) (by decide)))) (exAt_up (by decide) exDir_u3)
    (by decide) (by decide) (by decide) (by decide) (by decide) (by decide) (fun p _ hp => (if_neg hp).symm) (by norm_num [exUp, exIns]) (by norm_num [exRd, exDx, exIns, exUp, F.colMajor, F.cell3d, F.face3d0, F.face3d1, F.face3d2])

/-- 3D, diffusion operator with constant reaction: if `U` and `V` agree in the box and next to it except at one cell of the box, a step longer than two over the diagonal at that cell makes the mean square distance grow. -/
theorem C122_v2_3d {i0 j0 k0 i1 j1 k1 gcw rgcw : Int} {alpha beta : T} {dx : Nat → T} {u b0 b1 b2 f0 f1 f2 res : Ptr} {β1 β2 : Nat → Backend} {β3 β4 : Nat → Backend} {m m' : Mem T} {B0 B1 B2 U V : List Int → T} {t : T} {i j k : Int}
    (hβ1 : ∀ n, ValidBackend (β1 n)) (hβ2 : ∀ n, ValidBackend (β2 n)) (hβ3 : ∀ n, ValidBackend (β3 n)) (hβ4 : ∀ n, ValidBackend (β4 n)) (hi : i0 ≤ i1) (hj : j0 ≤ j1) (hk : k0 ≤ k1) (hg : 1 ≤ gcw) (hrgcw : 0 ≤ rgcw)
    (h : F.Args m [(F.cell3d u i0 j0 k0 i1 j1 k1 gcw), (F.face3d0 b0 i0 j0 k0 i1 j1 k1 0), (F.face3d1 b1 i0 j0 k0 i1 j1 k1 0), (F.face3d2 b2 i0 j0 k0 i1 j1 k1 0)] [(F.face3d0 f0 i0 j0 k0 i1 j1 k1 0), (F.face3d1 f1 i0 j0 k0 i1 j1 k1 0), (F.face3d2 f2 i0 j0 k0 i1 j1 k1 0), (F.cell3d res i0 j0 k0 i1 j1 k1 rgcw)]) (h' : F.Args m' [(F.cell3d u i0 j0 k0 i1 j1 k1 gcw), (F.face3d0 b0 i0 j0 k0 i1 j1 k1 0), (F.face3d1 b1 i0 j0 k0 i1 j1 k1 0), (F.face3d2 b2 i0 j0 k0 i1 j1 k1 0)] [(F.face3d0 f0 i0 j0 k0 i1 j1 k1 0), (F.face3d1 f1 i0 j0 k0 i1 j1 k1 0), (F.face3d2 f2 i0 j0 k0 i1 j1 k1 0), (F.cell3d res i0 j0 k0 i1 j1 k1 rgcw)])
    (hp : F.Apart (F.face3d0 f0 i0 j0 k0 i1 j1 k1 0) (F.face3d1 f1 i0 j0 k0 i1 j1 k1 0) ∧ F.Apart (F.face3d0 f0 i0 j0 k0 i1 j1 k1 0) (F.face3d2 f2 i0 j0 k0 i1 j1 k1 0) ∧ F.Apart (F.face3d1 f1 i0 j0 k0 i1 j1 k1 0) (F.face3d2 f2 i0 j0 k0 i1 j1 k1 0))
    (hr : F.Apart (F.cell3d res i0 j0 k0 i1 j1 k1 rgcw) (F.face3d0 f0 i0 j0 k0 i1 j1 k1 0) ∧ F.Apart (F.cell3d res i0 j0 k0 i1 j1 k1 rgcw) (F.face3d1 f1 i0 j0 k0 i1 j1 k1 0) ∧ F.Apart (F.cell3d res i0 j0 k0 i1 j1 k1 rgcw) (F.face3d2 f2 i0 j0 k0 i1 j1 k1 0))
    (hB0 : F.Holds m (F.face3d0 b0 i0 j0 k0 i1 j1 k1 0) B0) (hB1 : F.Holds m (F.face3d1 b1 i0 j0 k0 i1 j1 k1 0) B1) (hB2 : F.Holds m (F.face3d2 b2 i0 j0 k0 i1 j1 k1 0) B2) (hU : F.Holds m (F.cell3d u i0 j0 k0 i1 j1 k1 gcw) U)
    (hB0' : F.Holds m' (F.face3d0 b0 i0 j0 k0 i1 j1 k1 0) B0) (hB1' : F.Holds m' (F.face3d1 b1 i0 j0 k0 i1 j1 k1 0) B1) (hB2' : F.Holds m' (F.face3d2 b2 i0 j0 k0 i1 j1 k1 0) B2) (hV : F.Holds m' (F.cell3d u i0 j0 k0 i1 j1 k1 gcw) V)
    (hia : i0 ≤ i) (hib : i ≤ i1) (hja : j0 ≤ j) (hjb : j ≤ j1) (hka : k0 ≤ k) (hkb : k ≤ k1)
    (hUV : ∀ p, F.InBounds [(i0 - 1, i1 + 1), (j0 - 1, j1 + 1), (k0 - 1, k1 + 1)] p → p ≠ [i, j, k] → U p = V p) (hne : U [i, j, k] ≠ V [i, j, k]) (hs : 2 < t * (alpha + beta * ((B0 [i, j, k] + B0 [i + 1, j, k]) / (dx 0 * dx 0) + (B1 [j, k, i] + B1 [j + 1, k, i]) / (dx 1 * dx 1) + (B2 [k, i, j] + B2 [k + 1, i, j]) / (dx 2 * dx 2)))) :
    ∃ m1 m2 p1 p2, ∃ R S : List Int → T, Cuda.flux3d i0 j0 k0 i1 j1 k1 dx b0 b1 b2 gcw u f0 f1 f2 β1 m = .ok m1 ∧ Cuda.diffusionV2Apply3d i0 i1 j0 j1 k0 k1 alpha beta dx gcw u f0 f1 f2 rgcw res β2 m1 = .ok m2 ∧
      (∀ p, F.InBounds [(i0, i1), (j0, j1), (k0, k1)] p → F.El m2 (F.cell3d res i0 j0 k0 i1 j1 k1 rgcw) p (R p)) ∧
      Cuda.flux3d i0 j0 k0 i1 j1 k1 dx b0 b1 b2 gcw u f0 f1 f2 β3 m' = .ok p1 ∧ Cuda.diffusionV2Apply3d i0 i1 j0 j1 k0 k1 alpha beta dx gcw u f0 f1 f2 rgcw res β4 p1 = .ok p2 ∧
      (∀ p, F.InBounds [(i0, i1), (j0, j1), (k0, k1)] p → F.El p2 (F.cell3d res i0 j0 k0 i1 j1 k1 rgcw) p (S p)) ∧
      (F.sum i0 i1 fun i => (F.sum j0 j1 fun j => (F.sum k0 k1 fun k => (U [i, j, k] - V [i, j, k]) * (U [i, j, k] - V [i, j, k])))) < (F.sum i0 i1 fun i => (F.sum j0 j1 fun j => (F.sum k0 k1 fun k => (U [i, j, k] - t * R [i, j, k] - (V [i, j, k] - t * S [i, j, k])) * (U [i, j, k] - t * R [i, j, k] - (V [i, j, k] - t * S [i, j, k]))))) := by
  obtain ⟨m1, m2, R, c1, c2, E, hR⟩ := energy_v2_3 (alpha := alpha) (beta := beta) (dx := dx) hβ1 hβ2 hi hj hk hg hrgcw h hp hr hB0 hB1 hB2 hU
  obtain ⟨p1, p2, S, d1, d2, E', hS⟩ := energy_v2_3 (alpha := alpha) (beta := beta) (dx := dx) hβ3 hβ4 hi hj hk hg hrgcw h' hp hr hB0' hB1' hB2' hV
  refine ⟨m1, m2, p1, p2, R, S, c1, c2, E, d1, d2, E', ?_⟩
  exact F.op3_far (A := fun _ => 1) hia hib hja hjb hka hkb hUV hne (by simpa using hs) (hR i j k hia hib hja hjb hka hkb) (hS i j k hia hib hja hjb hka hkb)

example : ∃ m1 m2 p1 p2, ∃ R S : List Int → Rat, Cuda.flux3d 0 1 2 1 2 3 exDx ⟨2, 0⟩ ⟨3, 0⟩ ⟨4, 0⟩ 2 ⟨1, 0⟩ ⟨5, 0⟩ ⟨6, 0⟩ ⟨7, 0⟩ (fun _ => revBackend) (exDir 3 5 1) = .ok m1 ∧ Cuda.diffusionV2Apply3d 0 1 1 2 2 3 3 2 exDx 2 ⟨1, 0⟩ ⟨5, 0⟩ ⟨6, 0⟩ ⟨7, 0⟩ 1 ⟨8, 0⟩ (fun _ => seqBackend) m1 = .ok m2 ∧
      (∀ p, F.InBounds [(0, 1), (1, 2), (2, 3)] p → F.El m2 (F.cell3d ⟨8, 0⟩ 0 1 2 1 2 3 1) p (R p)) ∧
      Cuda.flux3d 0 1 2 1 2 3 exDx ⟨2, 0⟩ ⟨3, 0⟩ ⟨4, 0⟩ 2 ⟨1, 0⟩ ⟨5, 0⟩ ⟨6, 0⟩ ⟨7, 0⟩ (fun _ => seqBackend) (exAt (exDir 3 5 2) ((⟨1, 0⟩ : Ptr).add (F.colMajor (F.cell3d ⟨1, 0⟩ 0 1 2 1 2 3 2).dims [1, 1, 2])) 7) = .ok p1 ∧ Cuda.diffusionV2Apply3d 0 1 1 2 2 3 3 2 exDx 2 ⟨1, 0⟩ ⟨5, 0⟩ ⟨6, 0⟩ ⟨7, 0⟩ 1 ⟨8, 0⟩ (fun _ => revBackend) p1 = .ok p2 ∧
      (∀ p, F.InBounds [(0, 1), (1, 2), (2, 3)] p → F.El p2 (F.cell3d ⟨8, 0⟩ 0 1 2 1 2 3 1) p (S p)) ∧
      (F.sum 0 1 fun i => (F.sum 1 2 fun j => (F.sum 2 3 fun k => (exIns 3 5 [i, j, k] - exUp (exIns 3 5) [1, 1, 2] 7 [i, j, k]) * (exIns 3 5 [i, j, k] - exUp (exIns 3 5) [1, 1, 2] 7 [i, j, k])))) < (F.sum 0 1 fun i => (F.sum 1 2 fun j => (F.sum 2 3 fun k => (exIns 3 5 [i, j, k] - 1 * R [i, j, k] - (exUp (exIns 3 5) [1, 1, 2] 7 [i, j, k] - 1 * S [i, j, k])) * (exIns 3 5 [i, j, k] - 1 * R [i, j, k] - (exUp (exIns 3 5) [1, 1, 2] 7 [i, j, k] - 1 * S [i, j, k]))))) :=
  C122_v2_3d (T := Rat) (fun _ => revBackend_ok) (fun _ => seqBackend_ok) (fun _ => seqBackend_ok) (fun _ => revBackend_ok) (by decide) (by decide) (by decide) (by decide) (by decide) (exDir_args (by ex_args)) (exAt_args (exDir_args (by ex_args))) (⟨apart_blk (by decide), apart_blk (by decide), apart_blk (by decide)⟩) ⟨apart_blk (by decide), apart_blk (by decide), apart_blk (by decide)⟩
    (exDir_rd (by decide) (exRat_ok rfl (by decide) (by decide))) (exDir_rd (by decide) (exRat_ok rfl (by decide) (by decide))) (exDir_rd (by decide) (exRat_ok rfl (by decide) (by decide))) exDir_u3 (exAt_rd (by decide) (exDir_rd (by decide) (exRat_ok rfl (by decide) (by decide)))) (exAt_rd (by decide) (exDir_rd (by decide) (exRat_ok rfl (by decide) (by decide)))) (exAt_rd (by decide) (exDir_rd (by decide) (exRat_ok rfl (by decide) (by decide)))) (exAt_up (by decide) exDir_u3)
    (by decide) (by decide) (by decide) (by decide) (by decide) (by decide) (fun p _ hp => (if_neg hp).symm) (by norm_num [exUp, exIns]) (by norm_num [exRd, exDx, exIns, exUp, F.colMajor, F.cell3d, F.face3d0, F.face3d1, F.face3d2])

/-- 3D, Poisson operator: if `U` and `V` agree in the box and next to it except at one cell of the box, a step longer than two over the diagonal at that cell makes the mean square distance grow. -/
theorem C122_poisson_3d {i0 j0 k0 i1 j1 k1 gcw rgcw : Int} {beta : T} {dx : Nat → T} {u f0 f1 f2 res : Ptr} {β1 β2 : Nat → Backend} {β3 β4 : Nat → Backend} {m m' : Mem T} {U V : List Int → T} {t : T} {i j k : Int}
    (hβ1 : ∀ n, ValidBackend (β1 n)) (hβ2 : ∀ n, ValidBackend (β2 n)) (hβ3 : ∀ n, ValidBackend (β3 n)) (hβ4 : ∀ n, ValidBackend (β4 n)) (hi : i0 ≤ i1) (hj : j0 ≤ j1) (hk : k0 ≤ k1) (hg : 1 ≤ gcw) (hrgcw : 0 ≤ rgcw)
    (h : F.Args m [(F.cell3d u i0 j0 k0 i1 j1 k1 gcw)] [(F.face3d0 f0 i0 j0 k0 i1 j1 k1 0), (F.face3d1 f1 i0 j0 k0 i1 j1 k1 0), (F.face3d2 f2 i0 j0 k0 i1 j1 k1 0), (F.cell3d res i0 j0 k0 i1 j1 k1 rgcw)]) (h' : F.Args m' [(F.cell3d u i0 j0 k0 i1 j1 k1 gcw)] [(F.face3d0 f0 i0 j0 k0 i1 j1 k1 0), (F.face3d1 f1 i0 j0 k0 i1 j1 k1 0), (F.face3d2 f2 i0 j0 k0 i1 j1 k1 0), (F.cell3d res i0 j0 k0 i1 j1 k1 rgcw)])
    (hp : F.Apart (F.face3d0 f0 i0 j0 k0 i1 j1 k1 0) (F.face3d1 f1 i0 j0 k0 i1 j1 k1 0) ∧ F.Apart (F.face3d0 f0 i0 j0 k0 i1 j1 k1 0) (F.face3d2 f2 i0 j0 k0 i1 j1 k1 0) ∧ F.Apart (F.face3d1 f1 i0 j0 k0 i1 j1 k1 0) (F.face3d2 f2 i0 j0 k0 i1 j1 k1 0))
    (hr : F.Apart (F.cell3d res i0 j0 k0 i1 j1 k1 rgcw) (F.face3d0 f0 i0 j0 k0 i1 j1 k1 0) ∧ F.Apart (F.cell3d res i0 j0 k0 i1 j1 k1 rgcw) (F.face3d1 f1 i0 j0 k0 i1 j1 k1 0) ∧ F.Apart (F.cell3d res i0 j0 k0 i1 j1 k1 rgcw) (F.face3d2 f2 i0 j0 k0 i1 j1 k1 0))
    (hU : F.Holds m (F.cell3d u i0 j0 k0 i1 j1 k1 gcw) U)
    (hV : F.Holds m' (F.cell3d u i0 j0 k0 i1 j1 k1 gcw) V)
    (hia : i0 ≤ i) (hib : i ≤ i1) (hja : j0 ≤ j) (hjb : j ≤ j1) (hka : k0 ≤ k) (hkb : k ≤ k1)
    (hUV : ∀ p, F.InBounds [(i0 - 1, i1 + 1), (j0 - 1, j1 + 1), (k0 - 1, k1 + 1)] p → p ≠ [i, j, k] → U p = V p) (hne : U [i, j, k] ≠ V [i, j, k]) (hs : 2 < t * (beta * ((1 + 1) / (dx 0 * dx 0) + (1 + 1) / (dx 1 * dx 1) + (1 + 1) / (dx 2 * dx 2)))) :
    ∃ m1 m2 p1 p2, ∃ R S : List Int → T, Cuda.poissonFlux3d i0 j0 k0 i1 j1 k1 dx gcw u f0 f1 f2 β1 m = .ok m1 ∧ Cuda.poissonV2Apply3d i0 i1 j0 j1 k0 k1 beta dx f0 f1 f2 rgcw res β2 m1 = .ok m2 ∧
      (∀ p, F.InBounds [(i0, i1), (j0, j1), (k0, k1)] p → F.El m2 (F.cell3d res i0 j0 k0 i1 j1 k1 rgcw) p (R p)) ∧
      Cuda.poissonFlux3d i0 j0 k0 i1 j1 k1 dx gcw u f0 f1 f2 β3 m' = .ok p1 ∧ Cuda.poissonV2Apply3d i0 i1 j0 j1 k0 k1 beta dx f0 f1 f2 rgcw res β4 p1 = .ok p2 ∧
      (∀ p, F.InBounds [(i0, i1), (j0, j1), (k0, k1)] p → F.El p2 (F.cell3d res i0 j0 k0 i1 j1 k1 rgcw) p (S p)) ∧
      (F.sum i0 i1 fun i => (F.sum j0 j1 fun j => (F.sum k0 k1 fun k => (U [i, j, k] - V [i, j, k]) * (U [i, j, k] - V [i, j, k])))) < (F.sum i0 i1 fun i => (F.sum j0 j1 fun j => (F.sum k0 k1 fun k => (U [i, j, k] - t * R [i, j, k] - (V [i, j, k] - t * S [i, j, k])) * (U [i, j, k] - t * R [i, j, k] - (V [i, j, k] - t * S [i, j, k]))))) := by
  obtain ⟨m1, m2, R, c1, c2, E, hR⟩ := energy_p_3 (beta := beta) (dx := dx) hβ1 hβ2 hi hj hk hg hrgcw h hp hr hU
  obtain ⟨p1, p2, S, d1, d2, E', hS⟩ := energy_p_3 (beta := beta) (dx := dx) hβ3 hβ4 hi hj hk hg hrgcw h' hp hr hV
  refine ⟨m1, m2, p1, p2, R, S, c1, c2, E, d1, d2, E', ?_⟩
  exact F.op3_far (alpha := 0) (A := fun _ => 1) (B0 := fun _ => 1) (B1 := fun _ => 1) (B2 := fun _ => 1) hia hib hja hjb hka hkb hUV hne (by simpa using hs) (hR i j k hia hib hja hjb hka hkb) (hS i j k hia hib hja hjb hka hkb)

example : ∃ m1 m2 p1 p2, ∃ R S : List Int → Rat, Cuda.poissonFlux3d 0 1 2 1 2 3 exDx 2 ⟨1, 0⟩ ⟨5, 0⟩ ⟨6, 0⟩ ⟨7, 0⟩ (fun _ => revBackend) (exDir 3 5 1) = .ok m1 ∧ Cuda.poissonV2Apply3d 0 1 1 2 2 3 2 exDx ⟨5, 0⟩ ⟨6, 0⟩ ⟨7, 0⟩ 1 ⟨8, 0⟩ (fun _ => seqBackend) m1 = .ok m2 ∧
      (∀ p, F.InBounds [(0, 1), (1, 2), (2, 3)] p → F.El m2 (F.cell3d ⟨8, 0⟩ 0 1 2 1 2 3 1) p (R p)) ∧
      Cuda.poissonFlux3d 0 1 2 1 2 3 exDx 2 ⟨1, 0⟩ ⟨5, 0⟩ ⟨6, 0⟩ ⟨7, 0⟩ (fun _ => seqBackend) (exAt (exDir 3 5 2) ((⟨1, 0⟩ : Ptr).add (F.colMajor (F.cell3d ⟨1, 0⟩ 0 1 2 1 2 3 2).dims [1, 1, 2])) 7) = .ok p1 ∧ Cuda.poissonV2Apply3d 0 1 1 2 2 3 2 exDx ⟨5, 0⟩ ⟨6, 0⟩ ⟨7, 0⟩ 1 ⟨8, 0⟩ (fun _ => revBackend) p1 = .ok p2 ∧
      (∀ p, F.InBounds [(0, 1), (1, 2), (2, 3)] p → F.El p2 (F.cell3d ⟨8, 0⟩ 0 1 2 1 2 3 1) p (S p)) ∧
      (F.sum 0 1 fun i => (F.sum 1 2 fun j => (F.sum 2 3 fun k => (exIns 3 5 [i, j, k] - exUp (exIns 3 5) [1, 1, 2] 7 [i, j, k]) * (exIns 3 5 [i, j, k] - exUp (exIns 3 5) [1, 1, 2] 7 [i, j, k])))) < (F.sum 0 1 fun i => (F.sum 1 2 fun j => (F.sum 2 3 fun k => (exIns 3 5 [i, j, k] - 1 * R [i, j, k] - (exUp (exIns 3 5) [1, 1, 2] 7 [i, j, k] - 1 * S [i, j, k])) * (exIns 3 5 [i, j, k] - 1 * R [i, j, k] - (exUp (exIns 3 5) [1, 1, 2] 7 [i, j, k] - 1 * S [i, j, k]))))) :=
  C122_poisson_3d (T := Rat) (fun _ => revBackend_ok) (fun _ => seqBackend_ok) (fun _ => seqBackend_ok) (fun _ => revBackend_ok) (by decide) (by decide) (by decide) (by decide) (by decide) (exDir_args (by ex_args)) (exAt_args (exDir_args (by ex_args))) (⟨apart_blk (by decide), apart_blk (by decide), apart_blk (by decide)⟩) ⟨apart_blk (by decide), apart_blk (by decide), apart_blk (by decide)⟩
     exDir_u3  (exAt_up (by decide) exDir_u3)
    (by decide) (by decide) (by decide) (by decide) (by decide) (by decide) (fun p _ hp => (if_neg hp).symm) (by norm_num [exUp, exIns]) (by norm_num [exRd, exDx, exIns, exUp, F.colMajor, F.cell3d, F.face3d0, F.face3d1, F.face3d2])

end Verif
