import Verif.Lemmas.RoundRes
import Verif.Lemmas.RoundClose
import Verif.Lemmas.RoundApprox

/-
C128: the relative comparison of the tests always accepts the fluxes, and for no tolerance always accepts the residuals.
-/

namespace Verif
open Spec

set_option linter.unusedVariables false

/-- A test that compares the fluxes of the kernel and of `celldiffusionflux1d` relative to either of them, with a tolerance of at least 6 rounding errors, passes for all
data, however close the values of neighbouring cells are. -/
theorem C128_flux_1d {i0 i1 gcw : Int} {eps : Rat} {dx : Nat → B64} {u b0 f0 : Ptr} {β : Nat → Backend} {m : Mem B64} {U B0 : List Int → B64}
    (hβ : ∀ n, ValidBackend (β n)) (hi : i0 ≤ i1) (hg : 1 ≤ gcw) (hdx : ∀ n, (dx n).v ≠ 0) (he : 6 / 2 ^ 53 ≤ eps)
    (h : F.Args m [(F.cell1d u i0 i1 gcw), (F.face1d b0 i0 i1 0)] [(F.face1d f0 i0 i1 0)])
    (hU : F.Holds m (F.cell1d u i0 i1 gcw) U) (hB0 : F.Holds m (F.face1d b0 i0 i1 0) B0) :
    ∃ m1 m2, Cuda.flux1d i0 i1 dx b0 gcw u f0 β m = .ok m1 ∧ F.celldiffusionflux1d i0 i1 dx b0 gcw u f0 m = .ok m2 ∧
      (∀ i, i0 ≤ i → i ≤ i1 + 1 → ∃ v w, F.El m1 (F.face1d f0 i0 i1 0) [i] v ∧ F.El m2 (F.face1d f0 i0 i1 0) [i] w ∧ F.Approx eps v w ∧ F.Approx eps w v) := by
  obtain ⟨m1, c1, -, V0⟩ := cflux1_run (dx := dx) hβ hi hg h
  obtain ⟨m2, c2, -, -, W0⟩ := flux1_run (dx := dx) hi hg h
  refine ⟨m1, m2, c1, c2, ?_⟩
  · intro i h0 h1
    have w := V0 i h0 h1
    have w2 := W0 i h0 h1
    rw [(hU [i] (by in_bounds)).rd, (hU [i - 1] (by in_bounds)).rd, (hB0 [i] (by in_bounds)).rd] at w w2
    exact ⟨_, _, w, w2, approx_face he (hdx 0)⟩

example :
    ∃ m1 m2, Cuda.flux1d 0 3 exDxB ⟨2, 0⟩ 2 ⟨1, 0⟩ ⟨5, 0⟩ (fun _ => revBackend) exB64 = .ok m1 ∧ F.celldiffusionflux1d 0 3 exDxB ⟨2, 0⟩ 2 ⟨1, 0⟩ ⟨5, 0⟩ exB64 = .ok m2 ∧
      (∀ i, 0 ≤ i → i ≤ 3 + 1 → ∃ v w, F.El m1 (F.face1d ⟨5, 0⟩ 0 3 0) [i] v ∧ F.El m2 (F.face1d ⟨5, 0⟩ 0 3 0) [i] w ∧ F.Approx (1 / 10 ^ 15) v w ∧ F.Approx (1 / 10 ^ 15) w v) :=
  C128_flux_1d (fun _ => revBackend_ok) (by decide) (by decide) exDxB_ne (by norm_num) (by ex_argsB) (exB64_holds (exRat_ok rfl (by decide) (by decide))) (exB64_holds (exRat_ok rfl (by decide) (by decide)))

/-- A test that compares the fluxes of the kernel and of `celldiffusionflux2d` relative to either of them, with a tolerance of at least 6 rounding errors, passes for all
data, however close the values of neighbouring cells are. -/
theorem C128_flux_2d {i0 j0 i1 j1 gcw : Int} {eps : Rat} {dx : Nat → B64} {u b0 b1 f0 f1 : Ptr} {β : Nat → Backend} {m : Mem B64} {U B0 B1 : List Int → B64}
    (hβ : ∀ n, ValidBackend (β n)) (hi : i0 ≤ i1) (hj : j0 ≤ j1) (hg : 1 ≤ gcw) (hdx : ∀ n, (dx n).v ≠ 0) (he : 6 / 2 ^ 53 ≤ eps)
    (h : F.Args m [(F.cell2d u i0 j0 i1 j1 gcw), (F.face2d0 b0 i0 j0 i1 j1 0), (F.face2d1 b1 i0 j0 i1 j1 0)] [(F.face2d0 f0 i0 j0 i1 j1 0), (F.face2d1 f1 i0 j0 i1 j1 0)])
    (hp : F.Apart (F.face2d0 f0 i0 j0 i1 j1 0) (F.face2d1 f1 i0 j0 i1 j1 0))
    (hU : F.Holds m (F.cell2d u i0 j0 i1 j1 gcw) U) (hB0 : F.Holds m (F.face2d0 b0 i0 j0 i1 j1 0) B0) (hB1 : F.Holds m (F.face2d1 b1 i0 j0 i1 j1 0) B1) :
    ∃ m1 m2, Cuda.flux2d i0 j0 i1 j1 dx b0 b1 gcw u f0 f1 β m = .ok m1 ∧ F.celldiffusionflux2d i0 j0 i1 j1 dx b0 b1 gcw u f0 f1 m = .ok m2 ∧
      (∀ i j, i0 ≤ i → i ≤ i1 + 1 → j0 ≤ j → j ≤ j1 → ∃ v w, F.El m1 (F.face2d0 f0 i0 j0 i1 j1 0) [i, j] v ∧ F.El m2 (F.face2d0 f0 i0 j0 i1 j1 0) [i, j] w ∧ F.Approx eps v w ∧ F.Approx eps w v) ∧
      (∀ i j, i0 ≤ i → i ≤ i1 → j0 ≤ j → j ≤ j1 + 1 → ∃ v w, F.El m1 (F.face2d1 f1 i0 j0 i1 j1 0) [j, i] v ∧ F.El m2 (F.face2d1 f1 i0 j0 i1 j1 0) [j, i] w ∧ F.Approx eps v w ∧ F.Approx eps w v) := by
  obtain ⟨m1, c1, -, V0, V1⟩ := cflux2_run (dx := dx) hβ hi hj hg h hp
  obtain ⟨m2, c2, -, -, W0, W1⟩ := flux2_run (dx := dx) hi hj hg h hp
  refine ⟨m1, m2, c1, c2, ?_, ?_⟩
  · intro i j h0 h1 h2 h3
    have w := V0 i j h0 h1 h2 h3
    have w2 := W0 i j h0 h1 h2 h3
    rw [(hU [i, j] (by in_bounds)).rd, (hU [i - 1, j] (by in_bounds)).rd, (hB0 [i, j] (by in_bounds)).rd] at w w2
    exact ⟨_, _, w, w2, approx_face he (hdx 0)⟩
  · intro i j h0 h1 h2 h3
    have w := V1 i j h0 h1 h2 h3
    have w2 := W1 i j h0 h1 h2 h3
    rw [(hU [i, j] (by in_bounds)).rd, (hU [i, j - 1] (by in_bounds)).rd, (hB1 [j, i] (by in_bounds)).rd] at w w2
    exact ⟨_, _, w, w2, approx_face he (hdx 1)⟩

example :
    ∃ m1 m2, Cuda.flux2d 0 1 2 3 exDxB ⟨2, 0⟩ ⟨3, 0⟩ 2 ⟨1, 0⟩ ⟨5, 0⟩ ⟨6, 0⟩ (fun _ => revBackend) exB64 = .ok m1 ∧ F.celldiffusionflux2d 0 1 2 3 exDxB ⟨2, 0⟩ ⟨3, 0⟩ 2 ⟨1, 0⟩ ⟨5, 0⟩ ⟨6, 0⟩ exB64 = .ok m2 ∧
      (∀ i j, 0 ≤ i → i ≤ 2 + 1 → 1 ≤ j → j ≤ 3 → ∃ v w, F.El m1 (F.face2d0 ⟨5, 0⟩ 0 1 2 3 0) [i, j] v ∧ F.El m2 (F.face2d0 ⟨5, 0⟩ 0 1 2 3 0) [i, j] w ∧ F.Approx (1 / 10 ^ 15) v w ∧ F.Approx (1 / 10 ^ 15) w v) ∧
      (∀ i j, 0 ≤ i → i ≤ 2 → 1 ≤ j → j ≤ 3 + 1 → ∃ v w, F.El m1 (F.face2d1 ⟨6, 0⟩ 0 1 2 3 0) [j, i] v ∧ F.El m2 (F.face2d1 ⟨6, 0⟩ 0 1 2 3 0) [j, i] w ∧ F.Approx (1 / 10 ^ 15) v w ∧ F.Approx (1 / 10 ^ 15) w v) :=
  C128_flux_2d (fun _ => revBackend_ok) (by decide) (by decide) (by decide) exDxB_ne (by norm_num) (by ex_argsB) (apart_blk (by decide)) (exB64_holds (exRat_ok rfl (by decide) (by decide))) (exB64_holds (exRat_ok rfl (by decide) (by decide))) (exB64_holds (exRat_ok rfl (by decide) (by decide)))

/-- A test that compares the fluxes of the kernel and of `celldiffusionflux3d` relative to either of them, with a tolerance of at least 6 rounding errors, passes for all
data, however close the values of neighbouring cells are. -/
theorem C128_flux_3d {i0 j0 k0 i1 j1 k1 gcw : Int} {eps : Rat} {dx : Nat → B64} {u b0 b1 b2 f0 f1 f2 : Ptr} {β : Nat → Backend} {m : Mem B64} {U B0 B1 B2 : List Int → B64}
    (hβ : ∀ n, ValidBackend (β n)) (hi : i0 ≤ i1) (hj : j0 ≤ j1) (hk : k0 ≤ k1) (hg : 1 ≤ gcw) (hdx : ∀ n, (dx n).v ≠ 0) (he : 6 / 2 ^ 53 ≤ eps)
    (h : F.Args m [(F.cell3d u i0 j0 k0 i1 j1 k1 gcw), (F.face3d0 b0 i0 j0 k0 i1 j1 k1 0), (F.face3d1 b1 i0 j0 k0 i1 j1 k1 0), (F.face3d2 b2 i0 j0 k0 i1 j1 k1 0)] [(F.face3d0 f0 i0 j0 k0 i1 j1 k1 0), (F.face3d1 f1 i0 j0 k0 i1 j1 k1 0), (F.face3d2 f2 i0 j0 k0 i1 j1 k1 0)])
    (hp : F.Apart (F.face3d0 f0 i0 j0 k0 i1 j1 k1 0) (F.face3d1 f1 i0 j0 k0 i1 j1 k1 0) ∧ F.Apart (F.face3d0 f0 i0 j0 k0 i1 j1 k1 0) (F.face3d2 f2 i0 j0 k0 i1 j1 k1 0) ∧ F.Apart (F.face3d1 f1 i0 j0 k0 i1 j1 k1 0) (F.face3d2 f2 i0 j0 k0 i1 j1 k1 0))
    (hU : F.Holds m (F.cell3d u i0 j0 k0 i1 j1 k1 gcw) U) (hB0 : F.Holds m (F.face3d0 b0 i0 j0 k0 i1 j1 k1 0) B0) (hB1 : F.Holds m (F.face3d1 b1 i0 j0 k0 i1 j1 k1 0) B1) (hB2 : F.Holds m (F.face3d2 b2 i0 j0 k0 i1 j1 k1 0) B2) :
    ∃ m1 m2, Cuda.flux3d i0 j0 k0 i1 j1 k1 dx b0 b1 b2 gcw u f0 f1 f2 β m = .ok m1 ∧ F.celldiffusionflux3d i0 j0 k0 i1 j1 k1 dx b0 b1 b2 gcw u f0 f1 f2 m = .ok m2 ∧
      (∀ i j k, i0 ≤ i → i ≤ i1 + 1 → j0 ≤ j → j ≤ j1 → k0 ≤ k → k ≤ k1 → ∃ v w, F.El m1 (F.face3d0 f0 i0 j0 k0 i1 j1 k1 0) [i, j, k] v ∧ F.El m2 (F.face3d0 f0 i0 j0 k0 i1 j1 k1 0) [i, j, k] w ∧ F.Approx eps v w ∧ F.Approx eps w v) ∧
      (∀ i j k, i0 ≤ i → i ≤ i1 → j0 ≤ j → j ≤ j1 + 1 → k0 ≤ k → k ≤ k1 → ∃ v w, F.El m1 (F.face3d1 f1 i0 j0 k0 i1 j1 k1 0) [j, k, i] v ∧ F.El m2 (F.face3d1 f1 i0 j0 k0 i1 j1 k1 0) [j, k, i] w ∧ F.Approx eps v w ∧ F.Approx eps w v) ∧
      (∀ i j k, i0 ≤ i → i ≤ i1 → j0 ≤ j → j ≤ j1 → k0 ≤ k → k ≤ k1 + 1 → ∃ v w, F.El m1 (F.face3d2 f2 i0 j0 k0 i1 j1 k1 0) [k, i, j] v ∧ F.El m2 (F.face3d2 f2 i0 j0 k0 i1 j1 k1 0) [k, i, j] w ∧ F.Approx eps v w ∧ F.Approx eps w v) := by
  obtain ⟨m1, c1, -, V0, V1, V2⟩ := cflux3_run (dx := dx) hβ hi hj hk hg h hp
  obtain ⟨m2, c2, -, -, W0, W1, W2⟩ := flux3_run (dx := dx) hi hj hk hg h hp
  refine ⟨m1, m2, c1, c2, ?_, ?_, ?_⟩
  · intro i j k h0 h1 h2 h3 h4 h5
    have w := V0 i j k h0 h1 h2 h3 h4 h5
    have w2 := W0 i j k h0 h1 h2 h3 h4 h5
    rw [(hU [i, j, k] (by in_bounds)).rd, (hU [i - 1, j, k] (by in_bounds)).rd, (hB0 [i, j, k] (by in_bounds)).rd] at w w2
    exact ⟨_, _, w, w2, approx_face he (hdx 0)⟩
  · intro i j k h0 h1 h2 h3 h4 h5
    have w := V1 i j k h0 h1 h2 h3 h4 h5
    have w2 := W1 i j k h0 h1 h2 h3 h4 h5
    rw [(hU [i, j, k] (by in_bounds)).rd, (hU [i, j - 1, k] (by in_bounds)).rd, (hB1 [j, k, i] (by in_bounds)).rd] at w w2
    exact ⟨_, _, w, w2, approx_face he (hdx 1)⟩
  · intro i j k h0 h1 h2 h3 h4 h5
    have w := V2 i j k h0 h1 h2 h3 h4 h5
    have w2 := W2 i j k h0 h1 h2 h3 h4 h5
    rw [(hU [i, j, k] (by in_bounds)).rd, (hU [i, j, k - 1] (by in_bounds)).rd, (hB2 [k, i, j] (by in_bounds)).rd] at w w2
    exact ⟨_, _, w, w2, approx_face he (hdx 2)⟩

example :
    ∃ m1 m2, Cuda.flux3d 0 1 2 1 2 3 exDxB ⟨2, 0⟩ ⟨3, 0⟩ ⟨4, 0⟩ 2 ⟨1, 0⟩ ⟨5, 0⟩ ⟨6, 0⟩ ⟨7, 0⟩ (fun _ => revBackend) exB64 = .ok m1 ∧ F.celldiffusionflux3d 0 1 2 1 2 3 exDxB ⟨2, 0⟩ ⟨3, 0⟩ ⟨4, 0⟩ 2 ⟨1, 0⟩ ⟨5, 0⟩ ⟨6, 0⟩ ⟨7, 0⟩ exB64 = .ok m2 ∧
      (∀ i j k, 0 ≤ i → i ≤ 1 + 1 → 1 ≤ j → j ≤ 2 → 2 ≤ k → k ≤ 3 → ∃ v w, F.El m1 (F.face3d0 ⟨5, 0⟩ 0 1 2 1 2 3 0) [i, j, k] v ∧ F.El m2 (F.face3d0 ⟨5, 0⟩ 0 1 2 1 2 3 0) [i, j, k] w ∧ F.Approx (1 / 10 ^ 15) v w ∧ F.Approx (1 / 10 ^ 15) w v) ∧
      (∀ i j k, 0 ≤ i → i ≤ 1 → 1 ≤ j → j ≤ 2 + 1 → 2 ≤ k → k ≤ 3 → ∃ v w, F.El m1 (F.face3d1 ⟨6, 0⟩ 0 1 2 1 2 3 0) [j, k, i] v ∧ F.El m2 (F.face3d1 ⟨6, 0⟩ 0 1 2 1 2 3 0) [j, k, i] w ∧ F.Approx (1 / 10 ^ 15) v w ∧ F.Approx (1 / 10 ^ 15) w v) ∧
      (∀ i j k, 0 ≤ i → i ≤ 1 → 1 ≤ j → j ≤ 2 → 2 ≤ k → k ≤ 3 + 1 → ∃ v w, F.El m1 (F.face3d2 ⟨7, 0⟩ 0 1 2 1 2 3 0) [k, i, j] v ∧ F.El m2 (F.face3d2 ⟨7, 0⟩ 0 1 2 1 2 3 0) [k, i, j] w ∧ F.Approx (1 / 10 ^ 15) v w ∧ F.Approx (1 / 10 ^ 15) w v) :=
  C128_flux_3d (fun _ => revBackend_ok) (by decide) (by decide) (by decide) (by decide) exDxB_ne (by norm_num) (by ex_argsB) ⟨apart_blk (by decide), apart_blk (by decide), apart_blk (by decide)⟩ (exB64_holds (exRat_ok rfl (by decide) (by decide))) (exB64_holds (exRat_ok rfl (by decide) (by decide))) (exB64_holds (exRat_ok rfl (by decide) (by decide))) (exB64_holds (exRat_ok rfl (by decide) (by decide)))

/-- A test that compares the residuals of the kernel and of `celldiffusionv1res1d` relative to either of them does not pass for all data in `[0, 1)`, however large its
tolerance below 1: on the box and with the spacing of the test, with `beta` and `alpha` in `[0, 1)`, data exist for which the kernel leaves 0 in the first cell, under all
schedules, and the routine does not. -/
theorem C128_res_v1_1d_false : ∃ (alpha beta : B64) (m : Mem B64), (0 ≤ alpha.v ∧ alpha.v < 1) ∧ (0 ≤ beta.v ∧ beta.v < 1) ∧ (∀ q x, m.val q = some x → 0 ≤ x.v ∧ x.v < 1) ∧
    F.Args m [F.cell1d ⟨0, 0⟩ 7 54 3, F.cell1d ⟨1, 0⟩ 7 54 2, F.cell1d ⟨2, 0⟩ 7 54 1, F.face1d ⟨3, 0⟩ 7 54 0] [F.cell1d ⟨6, 0⟩ 7 54 2] ∧
    ∀ dx : Nat → B64, dx = (fun _ => .near (15 / 100)) → ∀ β : Nat → Backend, (∀ n, ValidBackend (β n)) →
      ∃ m1 m2 v w, Cuda.diffusionV1Res1d 7 54 alpha beta dx 3 ⟨0, 0⟩ 2 ⟨1, 0⟩ 1 ⟨2, 0⟩ ⟨3, 0⟩ 2 ⟨6, 0⟩ β m = .ok m1 ∧ F.celldiffusionv1res1d 7 54 alpha beta dx 3 ⟨0, 0⟩ 2 ⟨1, 0⟩ 1 ⟨2, 0⟩ ⟨3, 0⟩ 2 ⟨6, 0⟩ m = .ok m2 ∧
        F.El m1 (F.cell1d ⟨6, 0⟩ 7 54 2) [7] v ∧ F.El m2 (F.cell1d ⟨6, 0⟩ 7 54 2) [7] w ∧
        ∀ eps : Rat, eps < 1 → ¬ F.Approx eps v w ∧ ¬ F.Approx eps w v := by
  have ha : F.Args (wU (.near (15 / 100))) [F.cell1d ⟨0, 0⟩ 7 54 3, F.cell1d ⟨1, 0⟩ 7 54 2, F.cell1d ⟨2, 0⟩ 7 54 1, F.face1d ⟨3, 0⟩ 7 54 0] [F.cell1d ⟨6, 0⟩ 7 54 2] := by wu_args
  refine ⟨.near (1 / 2), .near (1 / 4), wU (.near (15 / 100)), by decide +kernel, by decide +kernel, wU_range (by decide +kernel), ha, ?_⟩
  rintro dx rfl β hβ
  obtain ⟨m1, c1, -, W1⟩ := cres_v1_1 (alpha := .near (1 / 2)) (beta := .near (1 / 4)) (dx := fun _ => .near (15 / 100)) hβ (by decide) (by decide) (by decide) (by decide) (by decide) ha
  obtain ⟨m2, c2, -, W2⟩ := fres_v1_1 (alpha := .near (1 / 2)) (beta := .near (1 / 4)) (dx := fun _ => .near (15 / 100)) (by decide) (by decide) (by decide) (by decide) (by decide) ha
  have w1 := W1 7 (by decide) (by decide)
  have w2 := W2 7 (by decide) (by decide)
  exact ⟨m1, m2, _, _, c1, c2, w1, w2, fun eps he => approx_zero (by decide +kernel) (by decide +kernel) he⟩

/-- A test that compares the residuals of the kernel and of `celldiffusionv2res1d` relative to either of them does not pass for all data in `[0, 1)`, however large its
tolerance below 1: on the box and with the spacing of the test, with `beta` and `alpha` in `[0, 1)`, data exist for which the kernel leaves 0 in the first cell, under all
schedules, and the routine does not. -/
theorem C128_res_v2_1d_false : ∃ (alpha beta : B64) (m : Mem B64), (0 ≤ alpha.v ∧ alpha.v < 1) ∧ (0 ≤ beta.v ∧ beta.v < 1) ∧ (∀ q x, m.val q = some x → 0 ≤ x.v ∧ x.v < 1) ∧
    F.Args m [F.cell1d ⟨1, 0⟩ 5 73 2, F.cell1d ⟨2, 0⟩ 5 73 1, F.face1d ⟨3, 0⟩ 5 73 0] [F.cell1d ⟨6, 0⟩ 5 73 2] ∧
    ∀ dx : Nat → B64, dx = (fun _ => .near (15 / 100)) → ∀ β : Nat → Backend, (∀ n, ValidBackend (β n)) →
      ∃ m1 m2 v w, Cuda.diffusionV2Res1d 5 73 alpha beta dx 2 ⟨1, 0⟩ 1 ⟨2, 0⟩ ⟨3, 0⟩ 2 ⟨6, 0⟩ β m = .ok m1 ∧ F.celldiffusionv2res1d 5 73 alpha beta dx 2 ⟨1, 0⟩ 1 ⟨2, 0⟩ ⟨3, 0⟩ 2 ⟨6, 0⟩ m = .ok m2 ∧
        F.El m1 (F.cell1d ⟨6, 0⟩ 5 73 2) [5] v ∧ F.El m2 (F.cell1d ⟨6, 0⟩ 5 73 2) [5] w ∧
        ∀ eps : Rat, eps < 1 → ¬ F.Approx eps v w ∧ ¬ F.Approx eps w v := by
  have ha : F.Args (wU (.near (15 / 100))) [F.cell1d ⟨1, 0⟩ 5 73 2, F.cell1d ⟨2, 0⟩ 5 73 1, F.face1d ⟨3, 0⟩ 5 73 0] [F.cell1d ⟨6, 0⟩ 5 73 2] := by wu_args
  refine ⟨.near (1 / 4), .near (1 / 4), wU (.near (15 / 100)), by decide +kernel, by decide +kernel, wU_range (by decide +kernel), ha, ?_⟩
  rintro dx rfl β hβ
  obtain ⟨m1, c1, -, W1⟩ := cres_v2_1 (alpha := .near (1 / 4)) (beta := .near (1 / 4)) (dx := fun _ => .near (15 / 100)) hβ (by decide) (by decide) (by decide) (by decide) ha
  obtain ⟨m2, c2, -, W2⟩ := fres_v2_1 (alpha := .near (1 / 4)) (beta := .near (1 / 4)) (dx := fun _ => .near (15 / 100)) (by decide) (by decide) (by decide) (by decide) ha
  have w1 := W1 5 (by decide) (by decide)
  have w2 := W2 5 (by decide) (by decide)
  exact ⟨m1, m2, _, _, c1, c2, w1, w2, fun eps he => approx_zero (by decide +kernel) (by decide +kernel) he⟩

/-- A test that compares the residuals of the kernel and of `celldiffusionv1res2d` relative to either of them does not pass for all data in `[0, 1)`, however large its
tolerance below 1: on a box of one cell, with the spacing of the test, with `beta` and `alpha` in `[0, 1)`, data exist for which the kernel leaves 0 in the first cell, under all
schedules, and the routine does not. -/
theorem C128_res_v1_2d_false : ∃ (alpha beta : B64) (m : Mem B64), (0 ≤ alpha.v ∧ alpha.v < 1) ∧ (0 ≤ beta.v ∧ beta.v < 1) ∧ (∀ q x, m.val q = some x → 0 ≤ x.v ∧ x.v < 1) ∧
    F.Args m [F.cell2d ⟨0, 0⟩ 0 0 0 0 0, F.cell2d ⟨1, 0⟩ 0 0 0 0 0, F.cell2d ⟨2, 0⟩ 0 0 0 0 0, F.face2d0 ⟨3, 0⟩ 0 0 0 0 0, F.face2d1 ⟨4, 0⟩ 0 0 0 0 0] [F.cell2d ⟨6, 0⟩ 0 0 0 0 0] ∧
    ∀ dx : Nat → B64, dx = (fun n => .near (if n = 0 then 15 / 100 else 13 / 100)) → ∀ β : Nat → Backend, (∀ n, ValidBackend (β n)) →
      ∃ m1 m2 v w, Cuda.diffusionV1Res2d 0 0 0 0 alpha beta dx 0 ⟨0, 0⟩ 0 ⟨1, 0⟩ 0 ⟨2, 0⟩ ⟨3, 0⟩ ⟨4, 0⟩ 0 ⟨6, 0⟩ β m = .ok m1 ∧ F.celldiffusionv1res2d 0 0 0 0 alpha beta dx 0 ⟨0, 0⟩ 0 ⟨1, 0⟩ 0 ⟨2, 0⟩ ⟨3, 0⟩ ⟨4, 0⟩ 0 ⟨6, 0⟩ m = .ok m2 ∧
        F.El m1 (F.cell2d ⟨6, 0⟩ 0 0 0 0 0) [0, 0] v ∧ F.El m2 (F.cell2d ⟨6, 0⟩ 0 0 0 0 0) [0, 0] w ∧
        ∀ eps : Rat, eps < 1 → ¬ F.Approx eps v w ∧ ¬ F.Approx eps w v := by
  have ha : F.Args (wU (.near (15 / 100))) [F.cell2d ⟨0, 0⟩ 0 0 0 0 0, F.cell2d ⟨1, 0⟩ 0 0 0 0 0, F.cell2d ⟨2, 0⟩ 0 0 0 0 0, F.face2d0 ⟨3, 0⟩ 0 0 0 0 0, F.face2d1 ⟨4, 0⟩ 0 0 0 0 0] [F.cell2d ⟨6, 0⟩ 0 0 0 0 0] := by wu_args
  refine ⟨.near (1 / 2), .near (1 / 4), wU (.near (15 / 100)), by decide +kernel, by decide +kernel, wU_range (by decide +kernel), ha, ?_⟩
  rintro dx rfl β hβ
  obtain ⟨m1, c1, -, W1⟩ := cres_v1_2 (alpha := .near (1 / 2)) (beta := .near (1 / 4)) (dx := fun n => .near (if n = 0 then 15 / 100 else 13 / 100)) hβ (by decide) (by decide) (by decide) (by decide) (by decide) (by decide) ha
  obtain ⟨m2, c2, -, W2⟩ := fres_v1_2 (alpha := .near (1 / 2)) (beta := .near (1 / 4)) (dx := fun n => .near (if n = 0 then 15 / 100 else 13 / 100)) (by decide) (by decide) (by decide) (by decide) (by decide) (by decide) ha
  have w1 := W1 0 0 (by decide) (by decide) (by decide) (by decide)
  have w2 := W2 0 0 (by decide) (by decide) (by decide) (by decide)
  exact ⟨m1, m2, _, _, c1, c2, w1, w2, fun eps he => approx_zero (by decide +kernel) (by decide +kernel) he⟩

/-- A test that compares the residuals of the kernel and of `celldiffusionv2res2d` relative to either of them does not pass for all data in `[0, 1)`, however large its
tolerance below 1: on a box of one cell, with the spacing of the test, with `beta` and `alpha` in `[0, 1)`, data exist for which the kernel leaves 0 in the first cell, under all
schedules, and the routine does not. -/
theorem C128_res_v2_2d_false : ∃ (alpha beta : B64) (m : Mem B64), (0 ≤ alpha.v ∧ alpha.v < 1) ∧ (0 ≤ beta.v ∧ beta.v < 1) ∧ (∀ q x, m.val q = some x → 0 ≤ x.v ∧ x.v < 1) ∧
    F.Args m [F.cell2d ⟨1, 0⟩ 0 0 0 0 0, F.cell2d ⟨2, 0⟩ 0 0 0 0 0, F.face2d0 ⟨3, 0⟩ 0 0 0 0 0, F.face2d1 ⟨4, 0⟩ 0 0 0 0 0] [F.cell2d ⟨6, 0⟩ 0 0 0 0 0] ∧
    ∀ dx : Nat → B64, dx = (fun n => .near (if n = 0 then 15 / 100 else 13 / 100)) → ∀ β : Nat → Backend, (∀ n, ValidBackend (β n)) →
      ∃ m1 m2 v w, Cuda.diffusionV2Res2d 0 0 0 0 alpha beta dx 0 ⟨1, 0⟩ 0 ⟨2, 0⟩ ⟨3, 0⟩ ⟨4, 0⟩ 0 ⟨6, 0⟩ β m = .ok m1 ∧ F.celldiffusionv2res2d 0 0 0 0 alpha beta dx 0 ⟨1, 0⟩ 0 ⟨2, 0⟩ ⟨3, 0⟩ ⟨4, 0⟩ 0 ⟨6, 0⟩ m = .ok m2 ∧
        F.El m1 (F.cell2d ⟨6, 0⟩ 0 0 0 0 0) [0, 0] v ∧ F.El m2 (F.cell2d ⟨6, 0⟩ 0 0 0 0 0) [0, 0] w ∧
        ∀ eps : Rat, eps < 1 → ¬ F.Approx eps v w ∧ ¬ F.Approx eps w v := by
  have ha : F.Args (wU (.near (15 / 100))) [F.cell2d ⟨1, 0⟩ 0 0 0 0 0, F.cell2d ⟨2, 0⟩ 0 0 0 0 0, F.face2d0 ⟨3, 0⟩ 0 0 0 0 0, F.face2d1 ⟨4, 0⟩ 0 0 0 0 0] [F.cell2d ⟨6, 0⟩ 0 0 0 0 0] := by wu_args
  refine ⟨.near (1 / 4), .near (1 / 4), wU (.near (15 / 100)), by decide +kernel, by decide +kernel, wU_range (by decide +kernel), ha, ?_⟩
  rintro dx rfl β hβ
  obtain ⟨m1, c1, -, W1⟩ := cres_v2_2 (alpha := .near (1 / 4)) (beta := .near (1 / 4)) (dx := fun n => .near (if n = 0 then 15 / 100 else 13 / 100)) hβ (by decide) (by decide) (by decide) (by decide) (by decide) ha
  obtain ⟨m2, c2, -, W2⟩ := fres_v2_2 (alpha := .near (1 / 4)) (beta := .near (1 / 4)) (dx := fun n => .near (if n = 0 then 15 / 100 else 13 / 100)) (by decide) (by decide) (by decide) (by decide) (by decide) ha
  have w1 := W1 0 0 (by decide) (by decide) (by decide) (by decide)
  have w2 := W2 0 0 (by decide) (by decide) (by decide) (by decide)
  exact ⟨m1, m2, _, _, c1, c2, w1, w2, fun eps he => approx_zero (by decide +kernel) (by decide +kernel) he⟩

/-- A test that compares the residuals of the kernel and of `celldiffusionv1res3d` relative to either of them does not pass for all data in `[0, 1)`, however large its
tolerance below 1: on a box of one cell, with the spacing of the test, with `beta` and `alpha` in `[0, 1)`, data exist for which the kernel leaves 0 in the first cell, under all
schedules, and the routine does not. -/
theorem C128_res_v1_3d_false : ∃ (alpha beta : B64) (m : Mem B64), (0 ≤ alpha.v ∧ alpha.v < 1) ∧ (0 ≤ beta.v ∧ beta.v < 1) ∧ (∀ q x, m.val q = some x → 0 ≤ x.v ∧ x.v < 1) ∧
    F.Args m [F.cell3d ⟨0, 0⟩ 0 0 0 0 0 0 0, F.cell3d ⟨1, 0⟩ 0 0 0 0 0 0 0, F.cell3d ⟨2, 0⟩ 0 0 0 0 0 0 0, F.face3d0 ⟨3, 0⟩ 0 0 0 0 0 0 0, F.face3d1 ⟨4, 0⟩ 0 0 0 0 0 0 0, F.face3d2 ⟨5, 0⟩ 0 0 0 0 0 0 0] [F.cell3d ⟨6, 0⟩ 0 0 0 0 0 0 0] ∧
    ∀ dx : Nat → B64, dx = (fun n => .near (if n = 0 then 98989 / 100000 else if n = 1 then 15 / 100 else 13 / 100)) → ∀ β : Nat → Backend, (∀ n, ValidBackend (β n)) →
      ∃ m1 m2 v w, Cuda.diffusionV1Res3d 0 0 0 0 0 0 alpha beta dx 0 ⟨0, 0⟩ 0 ⟨1, 0⟩ 0 ⟨2, 0⟩ ⟨3, 0⟩ ⟨4, 0⟩ ⟨5, 0⟩ 0 ⟨6, 0⟩ β m = .ok m1 ∧ F.celldiffusionv1res3d 0 0 0 0 0 0 alpha beta dx 0 ⟨0, 0⟩ 0 ⟨1, 0⟩ 0 ⟨2, 0⟩ ⟨3, 0⟩ ⟨4, 0⟩ ⟨5, 0⟩ 0 ⟨6, 0⟩ m = .ok m2 ∧
        F.El m1 (F.cell3d ⟨6, 0⟩ 0 0 0 0 0 0 0) [0, 0, 0] v ∧ F.El m2 (F.cell3d ⟨6, 0⟩ 0 0 0 0 0 0 0) [0, 0, 0] w ∧
        ∀ eps : Rat, eps < 1 → ¬ F.Approx eps v w ∧ ¬ F.Approx eps w v := by
  have ha : F.Args (wU (.near (98989 / 100000))) [F.cell3d ⟨0, 0⟩ 0 0 0 0 0 0 0, F.cell3d ⟨1, 0⟩ 0 0 0 0 0 0 0, F.cell3d ⟨2, 0⟩ 0 0 0 0 0 0 0, F.face3d0 ⟨3, 0⟩ 0 0 0 0 0 0 0, F.face3d1 ⟨4, 0⟩ 0 0 0 0 0 0 0, F.face3d2 ⟨5, 0⟩ 0 0 0 0 0 0 0] [F.cell3d ⟨6, 0⟩ 0 0 0 0 0 0 0] := by wu_args
  refine ⟨.near (1 / 2), .near (1 / 4), wU (.near (98989 / 100000)), by decide +kernel, by decide +kernel, wU_range (by decide +kernel), ha, ?_⟩
  rintro dx rfl β hβ
  obtain ⟨m1, c1, -, W1⟩ := cres_v1_3 (alpha := .near (1 / 2)) (beta := .near (1 / 4)) (dx := fun n => .near (if n = 0 then 98989 / 100000 else if n = 1 then 15 / 100 else 13 / 100)) hβ (by decide) (by decide) (by decide) (by decide) (by decide) (by decide) (by decide) ha
  obtain ⟨m2, c2, -, W2⟩ := fres_v1_3 (alpha := .near (1 / 2)) (beta := .near (1 / 4)) (dx := fun n => .near (if n = 0 then 98989 / 100000 else if n = 1 then 15 / 100 else 13 / 100)) (by decide) (by decide) (by decide) (by decide) (by decide) (by decide) (by decide) ha
  have w1 := W1 0 0 0 (by decide) (by decide) (by decide) (by decide) (by decide) (by decide)
  have w2 := W2 0 0 0 (by decide) (by decide) (by decide) (by decide) (by decide) (by decide)
  exact ⟨m1, m2, _, _, c1, c2, w1, w2, fun eps he => approx_zero (by decide +kernel) (by decide +kernel) he⟩

/-- A test that compares the residuals of the kernel and of `celldiffusionv2res3d` relative to either of them does not pass for all data in `[0, 1)`, however large its
tolerance below 1: on a box of one cell, with the spacing of the test, with `beta` and `alpha` in `[0, 1)`, data exist for which the kernel leaves 0 in the first cell, under all
schedules, and the routine does not. -/
theorem C128_res_v2_3d_false : ∃ (alpha beta : B64) (m : Mem B64), (0 ≤ alpha.v ∧ alpha.v < 1) ∧ (0 ≤ beta.v ∧ beta.v < 1) ∧ (∀ q x, m.val q = some x → 0 ≤ x.v ∧ x.v < 1) ∧
    F.Args m [F.cell3d ⟨1, 0⟩ 0 0 0 0 0 0 0, F.cell3d ⟨2, 0⟩ 0 0 0 0 0 0 0, F.face3d0 ⟨3, 0⟩ 0 0 0 0 0 0 0, F.face3d1 ⟨4, 0⟩ 0 0 0 0 0 0 0, F.face3d2 ⟨5, 0⟩ 0 0 0 0 0 0 0] [F.cell3d ⟨6, 0⟩ 0 0 0 0 0 0 0] ∧
    ∀ dx : Nat → B64, dx = (fun n => .near (if n = 0 then 98989 / 100000 else if n = 1 then 15 / 100 else 13 / 100)) → ∀ β : Nat → Backend, (∀ n, ValidBackend (β n)) →
      ∃ m1 m2 v w, Cuda.diffusionV2Res3d 0 0 0 0 0 0 alpha beta dx 0 ⟨1, 0⟩ 0 ⟨2, 0⟩ ⟨3, 0⟩ ⟨4, 0⟩ ⟨5, 0⟩ 0 ⟨6, 0⟩ β m = .ok m1 ∧ F.celldiffusionv2res3d 0 0 0 0 0 0 alpha beta dx 0 ⟨1, 0⟩ 0 ⟨2, 0⟩ ⟨3, 0⟩ ⟨4, 0⟩ ⟨5, 0⟩ 0 ⟨6, 0⟩ m = .ok m2 ∧
        F.El m1 (F.cell3d ⟨6, 0⟩ 0 0 0 0 0 0 0) [0, 0, 0] v ∧ F.El m2 (F.cell3d ⟨6, 0⟩ 0 0 0 0 0 0 0) [0, 0, 0] w ∧
        ∀ eps : Rat, eps < 1 → ¬ F.Approx eps v w ∧ ¬ F.Approx eps w v := by
  have ha : F.Args (wU (.near (98989 / 100000))) [F.cell3d ⟨1, 0⟩ 0 0 0 0 0 0 0, F.cell3d ⟨2, 0⟩ 0 0 0 0 0 0 0, F.face3d0 ⟨3, 0⟩ 0 0 0 0 0 0 0, F.face3d1 ⟨4, 0⟩ 0 0 0 0 0 0 0, F.face3d2 ⟨5, 0⟩ 0 0 0 0 0 0 0] [F.cell3d ⟨6, 0⟩ 0 0 0 0 0 0 0] := by wu_args
  refine ⟨.near (1 / 4), .near (1 / 4), wU (.near (98989 / 100000)), by decide +kernel, by decide +kernel, wU_range (by decide +kernel), ha, ?_⟩
  rintro dx rfl β hβ
  obtain ⟨m1, c1, -, W1⟩ := cres_v2_3 (alpha := .near (1 / 4)) (beta := .near (1 / 4)) (dx := fun n => .near (if n = 0 then 98989 / 100000 else if n = 1 then 15 / 100 else 13 / 100)) hβ (by decide) (by decide) (by decide) (by decide) (by decide) (by decide) ha
  obtain ⟨m2, c2, -, W2⟩ := fres_v2_3 (alpha := .near (1 / 4)) (beta := .near (1 / 4)) (dx := fun n => .near (if n = 0 then 98989 / 100000 else if n = 1 then 15 / 100 else 13 / 100)) (by decide) (by decide) (by decide) (by decide) (by decide) (by decide) ha
  have w1 := W1 0 0 0 (by decide) (by decide) (by decide) (by decide) (by decide) (by decide)
  have w2 := W2 0 0 0 (by decide) (by decide) (by decide) (by decide) (by decide) (by decide)
  exact ⟨m1, m2, _, _, c1, c2, w1, w2, fun eps he => approx_zero (by decide +kernel) (by decide +kernel) he⟩

end Verif
