import Verif.Lemmas.RoundRes
import Verif.Lemmas.RoundClose

/-
C127: in 53 bit arithmetic the flux and residual kernels and the Fortran routines they replace stay a few rounding errors apart.
-/

namespace Verif
open Spec

set_option linter.unusedVariables false

/-- The flux kernel and `celldiffusionflux1d` multiply and divide in different orders (`C49_flux_1d_false`); their fluxes are never more than 5 rounding errors of
the flux apart. -/
theorem C127_flux_1d {i0 i1 gcw : Int} {dx : Nat → B64} {u b0 f0 : Ptr} {β : Nat → Backend} {m : Mem B64} {U B0 : List Int → B64}
    (hβ : ∀ n, ValidBackend (β n)) (hi : i0 ≤ i1) (hg : 1 ≤ gcw) (hdx : ∀ n, (dx n).v ≠ 0)
    (h : F.Args m [(F.cell1d u i0 i1 gcw), (F.face1d b0 i0 i1 0)] [(F.face1d f0 i0 i1 0)])
    (hU : F.Holds m (F.cell1d u i0 i1 gcw) U) (hB0 : F.Holds m (F.face1d b0 i0 i1 0) B0) :
    ∃ m1 m2, Cuda.flux1d i0 i1 dx b0 gcw u f0 β m = .ok m1 ∧ F.celldiffusionflux1d i0 i1 dx b0 gcw u f0 m = .ok m2 ∧
      (∀ i, i0 ≤ i → i ≤ i1 + 1 → ∃ v w, F.El m1 (F.face1d f0 i0 i1 0) [i] v ∧ F.El m2 (F.face1d f0 i0 i1 0) [i] w ∧ F.Within 5 v w.v |F.face (B0 [i]).v (U [i - 1]).v (U [i]).v (dx 0).v|) := by
  obtain ⟨m1, c1, -, V0⟩ := cflux1_run (dx := dx) hβ hi hg h
  obtain ⟨m2, c2, -, -, W0⟩ := flux1_run (dx := dx) hi hg h
  refine ⟨m1, m2, c1, c2, ?_⟩
  · intro i h0 h1
    have w := V0 i h0 h1
    have w2 := W0 i h0 h1
    rw [(hU [i] (by in_bounds)).rd, (hU [i - 1] (by in_bounds)).rd, (hB0 [i] (by in_bounds)).rd] at w w2
    exact ⟨_, _, w, w2, close_face (hdx 0)⟩

example :
    ∃ m1 m2, Cuda.flux1d 0 3 exDxB ⟨2, 0⟩ 2 ⟨1, 0⟩ ⟨5, 0⟩ (fun _ => revBackend) exB64 = .ok m1 ∧ F.celldiffusionflux1d 0 3 exDxB ⟨2, 0⟩ 2 ⟨1, 0⟩ ⟨5, 0⟩ exB64 = .ok m2 ∧
      (∀ i, 0 ≤ i → i ≤ 3 + 1 → ∃ v w, F.El m1 (F.face1d ⟨5, 0⟩ 0 3 0) [i] v ∧ F.El m2 (F.face1d ⟨5, 0⟩ 0 3 0) [i] w ∧ F.Within 5 v w.v |F.face ((F.rd exB64 (F.face1d ⟨2, 0⟩ 0 3 0)) [i]).v ((F.rd exB64 (F.cell1d ⟨1, 0⟩ 0 3 2)) [i - 1]).v ((F.rd exB64 (F.cell1d ⟨1, 0⟩ 0 3 2)) [i]).v (exDxB 0).v|) :=
  C127_flux_1d (fun _ => revBackend_ok) (by decide) (by decide) exDxB_ne (by ex_argsB) (exB64_holds (exRat_ok rfl (by decide) (by decide))) (exB64_holds (exRat_ok rfl (by decide) (by decide)))

/-- The flux kernel and `celldiffusionflux2d` multiply and divide in different orders (`C49_flux_2d_false`); their fluxes are never more than 5 rounding errors of
the flux apart. -/
theorem C127_flux_2d {i0 j0 i1 j1 gcw : Int} {dx : Nat → B64} {u b0 b1 f0 f1 : Ptr} {β : Nat → Backend} {m : Mem B64} {U B0 B1 : List Int → B64}
    (hβ : ∀ n, ValidBackend (β n)) (hi : i0 ≤ i1) (hj : j0 ≤ j1) (hg : 1 ≤ gcw) (hdx : ∀ n, (dx n).v ≠ 0)
    (h : F.Args m [(F.cell2d u i0 j0 i1 j1 gcw), (F.face2d0 b0 i0 j0 i1 j1 0), (F.face2d1 b1 i0 j0 i1 j1 0)] [(F.face2d0 f0 i0 j0 i1 j1 0), (F.face2d1 f1 i0 j0 i1 j1 0)])
    (hp : F.Apart (F.face2d0 f0 i0 j0 i1 j1 0) (F.face2d1 f1 i0 j0 i1 j1 0))
    (hU : F.Holds m (F.cell2d u i0 j0 i1 j1 gcw) U) (hB0 : F.Holds m (F.face2d0 b0 i0 j0 i1 j1 0) B0) (hB1 : F.Holds m (F.face2d1 b1 i0 j0 i1 j1 0) B1) :
    ∃ m1 m2, Cuda.flux2d i0 j0 i1 j1 dx b0 b1 gcw u f0 f1 β m = .ok m1 ∧ F.celldiffusionflux2d i0 j0 i1 j1 dx b0 b1 gcw u f0 f1 m = .ok m2 ∧
      (∀ i j, i0 ≤ i → i ≤ i1 + 1 → j0 ≤ j → j ≤ j1 → ∃ v w, F.El m1 (F.face2d0 f0 i0 j0 i1 j1 0) [i, j] v ∧ F.El m2 (F.face2d0 f0 i0 j0 i1 j1 0) [i, j] w ∧ F.Within 5 v w.v |F.face (B0 [i, j]).v (U [i - 1, j]).v (U [i, j]).v (dx 0).v|) ∧
      (∀ i j, i0 ≤ i → i ≤ i1 → j0 ≤ j → j ≤ j1 + 1 → ∃ v w, F.El m1 (F.face2d1 f1 i0 j0 i1 j1 0) [j, i] v ∧ F.El m2 (F.face2d1 f1 i0 j0 i1 j1 0) [j, i] w ∧ F.Within 5 v w.v |F.face (B1 [j, i]).v (U [i, j - 1]).v (U [i, j]).v (dx 1).v|) := by
  obtain ⟨m1, c1, -, V0, V1⟩ := cflux2_run (dx := dx) hβ hi hj hg h hp
  obtain ⟨m2, c2, -, -, W0, W1⟩ := flux2_run (dx := dx) hi hj hg h hp
  refine ⟨m1, m2, c1, c2, ?_, ?_⟩
  · intro i j h0 h1 h2 h3
    have w := V0 i j h0 h1 h2 h3
    have w2 := W0 i j h0 h1 h2 h3
    rw [(hU [i, j] (by in_bounds)).rd, (hU [i - 1, j] (by in_bounds)).rd, (hB0 [i, j] (by in_bounds)).rd] at w w2
    exact ⟨_, _, w, w2, close_face (hdx 0)⟩
  · intro i j h0 h1 h2 h3
    have w := V1 i j h0 h1 h2 h3
    have w2 := W1 i j h0 h1 h2 h3
    rw [(hU [i, j] (by in_bounds)).rd, (hU [i, j - 1] (by in_bounds)).rd, (hB1 [j, i] (by in_bounds)).rd] at w w2
    exact ⟨_, _, w, w2, close_face (hdx 1)⟩

example :
    ∃ m1 m2, Cuda.flux2d 0 1 2 3 exDxB ⟨2, 0⟩ ⟨3, 0⟩ 2 ⟨1, 0⟩ ⟨5, 0⟩ ⟨6, 0⟩ (fun _ => revBackend) exB64 = .ok m1 ∧ F.celldiffusionflux2d 0 1 2 3 exDxB ⟨2, 0⟩ ⟨3, 0⟩ 2 ⟨1, 0⟩ ⟨5, 0⟩ ⟨6, 0⟩ exB64 = .ok m2 ∧
      (∀ i j, 0 ≤ i → i ≤ 2 + 1 → 1 ≤ j → j ≤ 3 → ∃ v w, F.El m1 (F.face2d0 ⟨5, 0⟩ 0 1 2 3 0) [i, j] v ∧ F.El m2 (F.face2d0 ⟨5, 0⟩ 0 1 2 3 0) [i, j] w ∧ F.Within 5 v w.v |F.face ((F.rd exB64 (F.face2d0 ⟨2, 0⟩ 0 1 2 3 0)) [i, j]).v ((F.rd exB64 (F.cell2d ⟨1, 0⟩ 0 1 2 3 2)) [i - 1, j]).v ((F.rd exB64 (F.cell2d ⟨1, 0⟩ 0 1 2 3 2)) [i, j]).v (exDxB 0).v|) ∧
      (∀ i j, 0 ≤ i → i ≤ 2 → 1 ≤ j → j ≤ 3 + 1 → ∃ v w, F.El m1 (F.face2d1 ⟨6, 0⟩ 0 1 2 3 0) [j, i] v ∧ F.El m2 (F.face2d1 ⟨6, 0⟩ 0 1 2 3 0) [j, i] w ∧ F.Within 5 v w.v |F.face ((F.rd exB64 (F.face2d1 ⟨3, 0⟩ 0 1 2 3 0)) [j, i]).v ((F.rd exB64 (F.cell2d ⟨1, 0⟩ 0 1 2 3 2)) [i, j - 1]).v ((F.rd exB64 (F.cell2d ⟨1, 0⟩ 0 1 2 3 2)) [i, j]).v (exDxB 1).v|) :=
  C127_flux_2d (fun _ => revBackend_ok) (by decide) (by decide) (by decide) exDxB_ne (by ex_argsB) (apart_blk (by decide)) (exB64_holds (exRat_ok rfl (by decide) (by decide))) (exB64_holds (exRat_ok rfl (by decide) (by decide))) (exB64_holds (exRat_ok rfl (by decide) (by decide)))

/-- The flux kernel and `celldiffusionflux3d` multiply and divide in different orders (`C49_flux_3d_false`); their fluxes are never more than 5 rounding errors of
the flux apart. -/
theorem C127_flux_3d {i0 j0 k0 i1 j1 k1 gcw : Int} {dx : Nat → B64} {u b0 b1 b2 f0 f1 f2 : Ptr} {β : Nat → Backend} {m : Mem B64} {U B0 B1 B2 : List Int → B64}
    (hβ : ∀ n, ValidBackend (β n)) (hi : i0 ≤ i1) (hj : j0 ≤ j1) (hk : k0 ≤ k1) (hg : 1 ≤ gcw) (hdx : ∀ n, (dx n).v ≠ 0)
    (h : F.Args m [(F.cell3d u i0 j0 k0 i1 j1 k1 gcw), (F.face3d0 b0 i0 j0 k0 i1 j1 k1 0), (F.face3d1 b1 i0 j0 k0 i1 j1 k1 0), (F.face3d2 b2 i0 j0 k0 i1 j1 k1 0)] [(F.face3d0 f0 i0 j0 k0 i1 j1 k1 0), (F.face3d1 f1 i0 j0 k0 i1 j1 k1 0), (F.face3d2 f2 i0 j0 k0 i1 j1 k1 0)])
    (hp : F.Apart (F.face3d0 f0 i0 j0 k0 i1 j1 k1 0) (F.face3d1 f1 i0 j0 k0 i1 j1 k1 0) ∧ F.Apart (F.face3d0 f0 i0 j0 k0 i1 j1 k1 0) (F.face3d2 f2 i0 j0 k0 i1 j1 k1 0) ∧ F.Apart (F.face3d1 f1 i0 j0 k0 i1 j1 k1 0) (F.face3d2 f2 i0 j0 k0 i1 j1 k1 0))
    (hU : F.Holds m (F.cell3d u i0 j0 k0 i1 j1 k1 gcw) U) (hB0 : F.Holds m (F.face3d0 b0 i0 j0 k0 i1 j1 k1 0) B0) (hB1 : F.Holds m (F.face3d1 b1 i0 j0 k0 i1 j1 k1 0) B1) (hB2 : F.Holds m (F.face3d2 b2 i0 j0 k0 i1 j1 k1 0) B2) :
    ∃ m1 m2, Cuda.flux3d i0 j0 k0 i1 j1 k1 dx b0 b1 b2 gcw u f0 f1 f2 β m = .ok m1 ∧ F.celldiffusionflux3d i0 j0 k0 i1 j1 k1 dx b0 b1 b2 gcw u f0 f1 f2 m = .ok m2 ∧
      (∀ i j k, i0 ≤ i → i ≤ i1 + 1 → j0 ≤ j → j ≤ j1 → k0 ≤ k → k ≤ k1 → ∃ v w, F.El m1 (F.face3d0 f0 i0 j0 k0 i1 j1 k1 0) [i, j, k] v ∧ F.El m2 (F.face3d0 f0 i0 j0 k0 i1 j1 k1 0) [i, j, k] w ∧ F.Within 5 v w.v |F.face (B0 [i, j, k]).v (U [i - 1, j, k]).v (U [i, j, k]).v (dx 0).v|) ∧
      (∀ i j k, i0 ≤ i → i ≤ i1 → j0 ≤ j → j ≤ j1 + 1 → k0 ≤ k → k ≤ k1 → ∃ v w, F.El m1 (F.face3d1 f1 i0 j0 k0 i1 j1 k1 0) [j, k, i] v ∧ F.El m2 (F.face3d1 f1 i0 j0 k0 i1 j1 k1 0) [j, k, i] w ∧ F.Within 5 v w.v |F.face (B1 [j, k, i]).v (U [i, j - 1, k]).v (U [i, j, k]).v (dx 1).v|) ∧
      (∀ i j k, i0 ≤ i → i ≤ i1 → j0 ≤ j → j ≤ j1 → k0 ≤ k → k ≤ k1 + 1 → ∃ v w, F.El m1 (F.face3d2 f2 i0 j0 k0 i1 j1 k1 0) [k, i, j] v ∧ F.El m2 (F.face3d2 f2 i0 j0 k0 i1 j1 k1 0) [k, i, j] w ∧ F.Within 5 v w.v |F.face (B2 [k, i, j]).v (U [i, j, k - 1]).v (U [i, j, k]).v (dx 2).v|) := by
  obtain ⟨m1, c1, -, V0, V1, V2⟩ := cflux3_run (dx := dx) hβ hi hj hk hg h hp
  obtain ⟨m2, c2, -, -, W0, W1, W2⟩ := flux3_run (dx := dx) hi hj hk hg h hp
  refine ⟨m1, m2, c1, c2, ?_, ?_, ?_⟩
  · intro i j k h0 h1 h2 h3 h4 h5
    have w := V0 i j k h0 h1 h2 h3 h4 h5
    have w2 := W0 i j k h0 h1 h2 h3 h4 h5
    rw [(hU [i, j, k] (by in_bounds)).rd, (hU [i - 1, j, k] (by in_bounds)).rd, (hB0 [i, j, k] (by in_bounds)).rd] at w w2
    exact ⟨_, _, w, w2, close_face (hdx 0)⟩
  · intro i j k h0 h1 h2 h3 h4 h5
    have w := V1 i j k h0 h1 h2 h3 h4 h5
    have w2 := W1 i j k h0 h1 h2 h3 h4 h5
    rw [(hU [i, j, k] (by in_bounds)).rd, (hU [i, j - 1, k] (by in_bounds)).rd, (hB1 [j, k, i] (by in_bounds)).rd] at w w2
    exact ⟨_, _, w, w2, close_face (hdx 1)⟩
  · intro i j k h0 h1 h2 h3 h4 h5
    have w := V2 i j k h0 h1 h2 h3 h4 h5
    have w2 := W2 i j k h0 h1 h2 h3 h4 h5
    rw [(hU [i, j, k] (by in_bounds)).rd, (hU [i, j, k - 1] (by in_bounds)).rd, (hB2 [k, i, j] (by in_bounds)).rd] at w w2
    exact ⟨_, _, w, w2, close_face (hdx 2)⟩

example :
    ∃ m1 m2, Cuda.flux3d 0 1 2 1 2 3 exDxB ⟨2, 0⟩ ⟨3, 0⟩ ⟨4, 0⟩ 2 ⟨1, 0⟩ ⟨5, 0⟩ ⟨6, 0⟩ ⟨7, 0⟩ (fun _ => revBackend) exB64 = .ok m1 ∧ F.celldiffusionflux3d 0 1 2 1 2 3 exDxB ⟨2, 0⟩ ⟨3, 0⟩ ⟨4, 0⟩ 2 ⟨1, 0⟩ ⟨5, 0⟩ ⟨6, 0⟩ ⟨7, 0⟩ exB64 = .ok m2 ∧
      (∀ i j k, 0 ≤ i → i ≤ 1 + 1 → 1 ≤ j → j ≤ 2 → 2 ≤ k → k ≤ 3 → ∃ v w, F.El m1 (F.face3d0 ⟨5, 0⟩ 0 1 2 1 2 3 0) [i, j, k] v ∧ F.El m2 (F.face3d0 ⟨5, 0⟩ 0 1 2 1 2 3 0) [i, j, k] w ∧ F.Within 5 v w.v |F.face ((F.rd exB64 (F.face3d0 ⟨2, 0⟩ 0 1 2 1 2 3 0)) [i, j, k]).v ((F.rd exB64 (F.cell3d ⟨1, 0⟩ 0 1 2 1 2 3 2)) [i - 1, j, k]).v ((F.rd exB64 (F.cell3d ⟨1, 0⟩ 0 1 2 1 2 3 2)) [i, j, k]).v (exDxB 0).v|) ∧
      (∀ i j k, 0 ≤ i → i ≤ 1 → 1 ≤ j → j ≤ 2 + 1 → 2 ≤ k → k ≤ 3 → ∃ v w, F.El m1 (F.face3d1 ⟨6, 0⟩ 0 1 2 1 2 3 0) [j, k, i] v ∧ F.El m2 (F.face3d1 ⟨6, 0⟩ 0 1 2 1 2 3 0) [j, k, i] w ∧ F.Within 5 v w.v |F.face ((F.rd exB64 (F.face3d1 ⟨3, 0⟩ 0 1 2 1 2 3 0)) [j, k, i]).v ((F.rd exB64 (F.cell3d ⟨1, 0⟩ 0 1 2 1 2 3 2)) [i, j - 1, k]).v ((F.rd exB64 (F.cell3d ⟨1, 0⟩ 0 1 2 1 2 3 2)) [i, j, k]).v (exDxB 1).v|) ∧
      (∀ i j k, 0 ≤ i → i ≤ 1 → 1 ≤ j → j ≤ 2 → 2 ≤ k → k ≤ 3 + 1 → ∃ v w, F.El m1 (F.face3d2 ⟨7, 0⟩ 0 1 2 1 2 3 0) [k, i, j] v ∧ F.El m2 (F.face3d2 ⟨7, 0⟩ 0 1 2 1 2 3 0) [k, i, j] w ∧ F.Within 5 v w.v |F.face ((F.rd exB64 (F.face3d2 ⟨4, 0⟩ 0 1 2 1 2 3 0)) [k, i, j]).v ((F.rd exB64 (F.cell3d ⟨1, 0⟩ 0 1 2 1 2 3 2)) [i, j, k - 1]).v ((F.rd exB64 (F.cell3d ⟨1, 0⟩ 0 1 2 1 2 3 2)) [i, j, k]).v (exDxB 2).v|) :=
  C127_flux_3d (fun _ => revBackend_ok) (by decide) (by decide) (by decide) (by decide) exDxB_ne (by ex_argsB) ⟨apart_blk (by decide), apart_blk (by decide), apart_blk (by decide)⟩ (exB64_holds (exRat_ok rfl (by decide) (by decide))) (exB64_holds (exRat_ok rfl (by decide) (by decide))) (exB64_holds (exRat_ok rfl (by decide) (by decide))) (exB64_holds (exRat_ok rfl (by decide) (by decide)))

/-- The residual kernel and `celldiffusionv1res1d` sum in different orders (`C49_v1_res_1d_false`); their residuals are never more than 5 rounding errors of the sum of
the sizes of the terms apart. -/
theorem C127_res_v1_1d {i0 i1 agcw ugcw fgcw rgcw : Int} {alpha beta : B64} {dx : Nat → B64} {a u f f0 res : Ptr} {β : Nat → Backend} {A U G F0 : List Int → B64} {m : Mem B64}
    (hβ : ∀ n, ValidBackend (β n)) (hi : i0 ≤ i1) (hagcw : 0 ≤ agcw) (hugcw : 0 ≤ ugcw) (hfgcw : 0 ≤ fgcw) (hrgcw : 0 ≤ rgcw) (hdx : ∀ n, (dx n).v ≠ 0)
    (h : F.Args m [F.cell1d a i0 i1 agcw, F.cell1d u i0 i1 ugcw, F.cell1d f i0 i1 fgcw, F.face1d f0 i0 i1 0] [F.cell1d res i0 i1 rgcw])
    (hA : F.Holds m (F.cell1d a i0 i1 agcw) A) (hU : F.Holds m (F.cell1d u i0 i1 ugcw) U) (hG : F.Holds m (F.cell1d f i0 i1 fgcw) G) (hF0 : F.Holds m (F.face1d f0 i0 i1 0) F0) :
    ∃ m1 m2, Cuda.diffusionV1Res1d i0 i1 alpha beta dx agcw a ugcw u fgcw f f0 rgcw res β m = .ok m1 ∧ F.celldiffusionv1res1d i0 i1 alpha beta dx agcw a ugcw u fgcw f f0 rgcw res m = .ok m2 ∧
      (∀ i, i0 ≤ i → i ≤ i1 → ∃ v w, F.El m1 (F.cell1d res i0 i1 rgcw) [i] v ∧ F.El m2 (F.cell1d res i0 i1 rgcw) [i] w ∧
        F.Within 5 v w.v (|(G [i]).v| + |beta.v| * (|((F0 [i + 1]).v - (F0 [i]).v) / (dx 0).v|) + |alpha.v * (A [i]).v * (U [i]).v|)) := by
  obtain ⟨m1, c1, -, W1⟩ := cres_v1_1 (alpha := alpha) (beta := beta) (dx := dx) hβ hi hagcw hugcw hfgcw hrgcw h
  obtain ⟨m2, c2, -, W2⟩ := fres_v1_1 (alpha := alpha) (beta := beta) (dx := dx) hi hagcw hugcw hfgcw hrgcw h
  refine ⟨m1, m2, c1, c2, fun i h0 h1 => ?_⟩
  have w1 := W1 i h0 h1
  have w2 := W2 i h0 h1
  rw [(hG [i] (by in_bounds)).rd, (hF0 [i + 1] (by in_bounds)).rd, (hF0 [i] (by in_bounds)).rd, (hA [i] (by in_bounds)).rd, (hU [i] (by in_bounds)).rd] at w1 w2
  refine ⟨_, _, w1, w2, close_sum (k := 6) (Near.mono (Near.eqs ((Near.datum beta).mul ((Near.diff _ _).div (hdx 0))) rfl ?_) (by decide)) (Near.mono (Near.eqs (((Near.datum alpha).mul (Near.datum _)).mul (Near.datum _)) rfl ?_) (by decide)) (by ulps)⟩
  · simp only [abs_div]
  · rw [abs_mul (_ * _), abs_mul alpha.v]

example :
    ∃ m1 m2, Cuda.diffusionV1Res1d 0 3 3 2 exDxB 1 ⟨0, 0⟩ 2 ⟨1, 0⟩ 1 ⟨2, 0⟩ ⟨3, 0⟩ 1 ⟨8, 0⟩ (fun _ => revBackend) exB64 = .ok m1 ∧ F.celldiffusionv1res1d 0 3 3 2 exDxB 1 ⟨0, 0⟩ 2 ⟨1, 0⟩ 1 ⟨2, 0⟩ ⟨3, 0⟩ 1 ⟨8, 0⟩ exB64 = .ok m2 ∧
      (∀ i, 0 ≤ i → i ≤ 3 → ∃ v w, F.El m1 (F.cell1d ⟨8, 0⟩ 0 3 1) [i] v ∧ F.El m2 (F.cell1d ⟨8, 0⟩ 0 3 1) [i] w ∧
        F.Within 5 v w.v (|((F.rd exB64 (F.cell1d ⟨2, 0⟩ 0 3 1)) [i]).v| + |(2 : B64).v| * (|(((F.rd exB64 (F.face1d ⟨3, 0⟩ 0 3 0)) [i + 1]).v - ((F.rd exB64 (F.face1d ⟨3, 0⟩ 0 3 0)) [i]).v) / (exDxB 0).v|) + |(3 : B64).v * ((F.rd exB64 (F.cell1d ⟨0, 0⟩ 0 3 1)) [i]).v * ((F.rd exB64 (F.cell1d ⟨1, 0⟩ 0 3 2)) [i]).v|)) :=
  C127_res_v1_1d (fun _ => revBackend_ok) (by decide) (by decide) (by decide) (by decide) (by decide) exDxB_ne (by ex_argsB) (exB64_holds (exRat_ok rfl (by decide) (by decide))) (exB64_holds (exRat_ok rfl (by decide) (by decide))) (exB64_holds (exRat_ok rfl (by decide) (by decide))) (exB64_holds (exRat_ok rfl (by decide) (by decide)))

/-- The residual kernel and `celldiffusionv2res1d` sum in different orders (`C49_v2_res_1d_false`); their residuals are never more than 5 rounding errors of the sum of
the sizes of the terms apart. -/
theorem C127_res_v2_1d {i0 i1 ugcw fgcw rgcw : Int} {alpha beta : B64} {dx : Nat → B64} {u f f0 res : Ptr} {β : Nat → Backend} {U G F0 : List Int → B64} {m : Mem B64}
    (hβ : ∀ n, ValidBackend (β n)) (hi : i0 ≤ i1) (hugcw : 0 ≤ ugcw) (hfgcw : 0 ≤ fgcw) (hrgcw : 0 ≤ rgcw) (hdx : ∀ n, (dx n).v ≠ 0)
    (h : F.Args m [F.cell1d u i0 i1 ugcw, F.cell1d f i0 i1 fgcw, F.face1d f0 i0 i1 0] [F.cell1d res i0 i1 rgcw])
    (hU : F.Holds m (F.cell1d u i0 i1 ugcw) U) (hG : F.Holds m (F.cell1d f i0 i1 fgcw) G) (hF0 : F.Holds m (F.face1d f0 i0 i1 0) F0) :
    ∃ m1 m2, Cuda.diffusionV2Res1d i0 i1 alpha beta dx ugcw u fgcw f f0 rgcw res β m = .ok m1 ∧ F.celldiffusionv2res1d i0 i1 alpha beta dx ugcw u fgcw f f0 rgcw res m = .ok m2 ∧
      (∀ i, i0 ≤ i → i ≤ i1 → ∃ v w, F.El m1 (F.cell1d res i0 i1 rgcw) [i] v ∧ F.El m2 (F.cell1d res i0 i1 rgcw) [i] w ∧
        F.Within 5 v w.v (|(G [i]).v| + |beta.v| * (|((F0 [i + 1]).v - (F0 [i]).v) / (dx 0).v|) + |alpha.v * (U [i]).v|)) := by
  obtain ⟨m1, c1, -, W1⟩ := cres_v2_1 (alpha := alpha) (beta := beta) (dx := dx) hβ hi hugcw hfgcw hrgcw h
  obtain ⟨m2, c2, -, W2⟩ := fres_v2_1 (alpha := alpha) (beta := beta) (dx := dx) hi hugcw hfgcw hrgcw h
  refine ⟨m1, m2, c1, c2, fun i h0 h1 => ?_⟩
  have w1 := W1 i h0 h1
  have w2 := W2 i h0 h1
  rw [(hG [i] (by in_bounds)).rd, (hF0 [i + 1] (by in_bounds)).rd, (hF0 [i] (by in_bounds)).rd, (hU [i] (by in_bounds)).rd] at w1 w2
  refine ⟨_, _, w1, w2, close_sum (k := 6) (Near.mono (Near.eqs ((Near.datum beta).mul ((Near.diff _ _).div (hdx 0))) rfl ?_) (by decide)) (Near.mono (Near.eqs ((Near.datum alpha).mul (Near.datum _)) rfl ?_) (by decide)) (by ulps)⟩
  · simp only [abs_div]
  · rw [abs_mul alpha.v]

example :
    ∃ m1 m2, Cuda.diffusionV2Res1d 0 3 3 2 exDxB 2 ⟨1, 0⟩ 1 ⟨2, 0⟩ ⟨3, 0⟩ 1 ⟨8, 0⟩ (fun _ => revBackend) exB64 = .ok m1 ∧ F.celldiffusionv2res1d 0 3 3 2 exDxB 2 ⟨1, 0⟩ 1 ⟨2, 0⟩ ⟨3, 0⟩ 1 ⟨8, 0⟩ exB64 = .ok m2 ∧
      (∀ i, 0 ≤ i → i ≤ 3 → ∃ v w, F.El m1 (F.cell1d ⟨8, 0⟩ 0 3 1) [i] v ∧ F.El m2 (F.cell1d ⟨8, 0⟩ 0 3 1) [i] w ∧
        F.Within 5 v w.v (|((F.rd exB64 (F.cell1d ⟨2, 0⟩ 0 3 1)) [i]).v| + |(2 : B64).v| * (|(((F.rd exB64 (F.face1d ⟨3, 0⟩ 0 3 0)) [i + 1]).v - ((F.rd exB64 (F.face1d ⟨3, 0⟩ 0 3 0)) [i]).v) / (exDxB 0).v|) + |(3 : B64).v * ((F.rd exB64 (F.cell1d ⟨1, 0⟩ 0 3 2)) [i]).v|)) :=
  C127_res_v2_1d (fun _ => revBackend_ok) (by decide) (by decide) (by decide) (by decide) exDxB_ne (by ex_argsB) (exB64_holds (exRat_ok rfl (by decide) (by decide))) (exB64_holds (exRat_ok rfl (by decide) (by decide))) (exB64_holds (exRat_ok rfl (by decide) (by decide)))

/-- The residual kernel and `celldiffusionv1res2d` sum in different orders (`C49_v1_res_2d_false`); their residuals are never more than 5 rounding errors of the sum of
the sizes of the terms apart. -/
theorem C127_res_v1_2d {i0 i1 j0 j1 agcw ugcw fgcw rgcw : Int} {alpha beta : B64} {dx : Nat → B64} {a u f f0 f1 res : Ptr} {β : Nat → Backend} {A U G F0 F1 : List Int → B64} {m : Mem B64}
    (hβ : ∀ n, ValidBackend (β n)) (hi : i0 ≤ i1) (hj : j0 ≤ j1) (hagcw : 0 ≤ agcw) (hugcw : 0 ≤ ugcw) (hfgcw : 0 ≤ fgcw) (hrgcw : 0 ≤ rgcw) (hdx : ∀ n, (dx n).v ≠ 0)
    (h : F.Args m [F.cell2d a i0 j0 i1 j1 agcw, F.cell2d u i0 j0 i1 j1 ugcw, F.cell2d f i0 j0 i1 j1 fgcw, F.face2d0 f0 i0 j0 i1 j1 0, F.face2d1 f1 i0 j0 i1 j1 0] [F.cell2d res i0 j0 i1 j1 rgcw])
    (hA : F.Holds m (F.cell2d a i0 j0 i1 j1 agcw) A) (hU : F.Holds m (F.cell2d u i0 j0 i1 j1 ugcw) U) (hG : F.Holds m (F.cell2d f i0 j0 i1 j1 fgcw) G) (hF0 : F.Holds m (F.face2d0 f0 i0 j0 i1 j1 0) F0) (hF1 : F.Holds m (F.face2d1 f1 i0 j0 i1 j1 0) F1) :
    ∃ m1 m2, Cuda.diffusionV1Res2d i0 i1 j0 j1 alpha beta dx agcw a ugcw u fgcw f f0 f1 rgcw res β m = .ok m1 ∧ F.celldiffusionv1res2d i0 i1 j0 j1 alpha beta dx agcw a ugcw u fgcw f f0 f1 rgcw res m = .ok m2 ∧
      (∀ i j, i0 ≤ i → i ≤ i1 → j0 ≤ j → j ≤ j1 → ∃ v w, F.El m1 (F.cell2d res i0 j0 i1 j1 rgcw) [i, j] v ∧ F.El m2 (F.cell2d res i0 j0 i1 j1 rgcw) [i, j] w ∧
        F.Within 5 v w.v (|(G [i, j]).v| + |beta.v| * (|((F0 [i + 1, j]).v - (F0 [i, j]).v) / (dx 0).v| + |((F1 [j + 1, i]).v - (F1 [j, i]).v) / (dx 1).v|) + |alpha.v * (A [i, j]).v * (U [i, j]).v|)) := by
  obtain ⟨m1, c1, -, W1⟩ := cres_v1_2 (alpha := alpha) (beta := beta) (dx := dx) hβ hi hj hagcw hugcw hfgcw hrgcw h
  obtain ⟨m2, c2, -, W2⟩ := fres_v1_2 (alpha := alpha) (beta := beta) (dx := dx) hi hj hagcw hugcw hfgcw hrgcw h
  refine ⟨m1, m2, c1, c2, fun i j h0 h1 h2 h3 => ?_⟩
  have w1 := W1 i j h0 h1 h2 h3
  have w2 := W2 i j h0 h1 h2 h3
  rw [(hG [i, j] (by in_bounds)).rd, (hF0 [i + 1, j] (by in_bounds)).rd, (hF0 [i, j] (by in_bounds)).rd, (hF1 [j + 1, i] (by in_bounds)).rd, (hF1 [j, i] (by in_bounds)).rd, (hA [i, j] (by in_bounds)).rd, (hU [i, j] (by in_bounds)).rd] at w1 w2
  refine ⟨_, _, w1, w2, close_sum (k := 6) (Near.mono (Near.eqs ((Near.datum beta).mul (((Near.diff _ _).div (hdx 0)).add ((Near.diff _ _).div (hdx 1)))) rfl ?_) (by decide)) (Near.mono (Near.eqs (((Near.datum alpha).mul (Near.datum _)).mul (Near.datum _)) rfl ?_) (by decide)) (by ulps)⟩
  · simp only [abs_div]
  · rw [abs_mul (_ * _), abs_mul alpha.v]

example :
    ∃ m1 m2, Cuda.diffusionV1Res2d 0 2 1 3 3 2 exDxB 1 ⟨0, 0⟩ 2 ⟨1, 0⟩ 1 ⟨2, 0⟩ ⟨3, 0⟩ ⟨4, 0⟩ 1 ⟨8, 0⟩ (fun _ => revBackend) exB64 = .ok m1 ∧ F.celldiffusionv1res2d 0 2 1 3 3 2 exDxB 1 ⟨0, 0⟩ 2 ⟨1, 0⟩ 1 ⟨2, 0⟩ ⟨3, 0⟩ ⟨4, 0⟩ 1 ⟨8, 0⟩ exB64 = .ok m2 ∧
      (∀ i j, 0 ≤ i → i ≤ 2 → 1 ≤ j → j ≤ 3 → ∃ v w, F.El m1 (F.cell2d ⟨8, 0⟩ 0 1 2 3 1) [i, j] v ∧ F.El m2 (F.cell2d ⟨8, 0⟩ 0 1 2 3 1) [i, j] w ∧
        F.Within 5 v w.v (|((F.rd exB64 (F.cell2d ⟨2, 0⟩ 0 1 2 3 1)) [i, j]).v| + |(2 : B64).v| * (|(((F.rd exB64 (F.face2d0 ⟨3, 0⟩ 0 1 2 3 0)) [i + 1, j]).v - ((F.rd exB64 (F.face2d0 ⟨3, 0⟩ 0 1 2 3 0)) [i, j]).v) / (exDxB 0).v| + |(((F.rd exB64 (F.face2d1 ⟨4, 0⟩ 0 1 2 3 0)) [j + 1, i]).v - ((F.rd exB64 (F.face2d1 ⟨4, 0⟩ 0 1 2 3 0)) [j, i]).v) / (exDxB 1).v|) + |(3 : B64).v * ((F.rd exB64 (F.cell2d ⟨0, 0⟩ 0 1 2 3 1)) [i, j]).v * ((F.rd exB64 (F.cell2d ⟨1, 0⟩ 0 1 2 3 2)) [i, j]).v|)) :=
  C127_res_v1_2d (fun _ => revBackend_ok) (by decide) (by decide) (by decide) (by decide) (by decide) (by decide) exDxB_ne (by ex_argsB) (exB64_holds (exRat_ok rfl (by decide) (by decide))) (exB64_holds (exRat_ok rfl (by decide) (by decide))) (exB64_holds (exRat_ok rfl (by decide) (by decide))) (exB64_holds (exRat_ok rfl (by decide) (by decide))) (exB64_holds (exRat_ok rfl (by decide) (by decide)))

/-- The residual kernel and `celldiffusionv2res2d` sum in different orders (`C49_v2_res_2d_false`); their residuals are never more than 5 rounding errors of the sum of
the sizes of the terms apart. -/
theorem C127_res_v2_2d {i0 i1 j0 j1 ugcw fgcw rgcw : Int} {alpha beta : B64} {dx : Nat → B64} {u f f0 f1 res : Ptr} {β : Nat → Backend} {U G F0 F1 : List Int → B64} {m : Mem B64}
    (hβ : ∀ n, ValidBackend (β n)) (hi : i0 ≤ i1) (hj : j0 ≤ j1) (hugcw : 0 ≤ ugcw) (hfgcw : 0 ≤ fgcw) (hrgcw : 0 ≤ rgcw) (hdx : ∀ n, (dx n).v ≠ 0)
    (h : F.Args m [F.cell2d u i0 j0 i1 j1 ugcw, F.cell2d f i0 j0 i1 j1 fgcw, F.face2d0 f0 i0 j0 i1 j1 0, F.face2d1 f1 i0 j0 i1 j1 0] [F.cell2d res i0 j0 i1 j1 rgcw])
    (hU : F.Holds m (F.cell2d u i0 j0 i1 j1 ugcw) U) (hG : F.Holds m (F.cell2d f i0 j0 i1 j1 fgcw) G) (hF0 : F.Holds m (F.face2d0 f0 i0 j0 i1 j1 0) F0) (hF1 : F.Holds m (F.face2d1 f1 i0 j0 i1 j1 0) F1) :
    ∃ m1 m2, Cuda.diffusionV2Res2d i0 i1 j0 j1 alpha beta dx ugcw u fgcw f f0 f1 rgcw res β m = .ok m1 ∧ F.celldiffusionv2res2d i0 i1 j0 j1 alpha beta dx ugcw u fgcw f f0 f1 rgcw res m = .ok m2 ∧
      (∀ i j, i0 ≤ i → i ≤ i1 → j0 ≤ j → j ≤ j1 → ∃ v w, F.El m1 (F.cell2d res i0 j0 i1 j1 rgcw) [i, j] v ∧ F.El m2 (F.cell2d res i0 j0 i1 j1 rgcw) [i, j] w ∧
        F.Within 5 v w.v (|(G [i, j]).v| + |beta.v| * (|((F0 [i + 1, j]).v - (F0 [i, j]).v) / (dx 0).v| + |((F1 [j + 1, i]).v - (F1 [j, i]).v) / (dx 1).v|) + |alpha.v * (U [i, j]).v|)) := by
  obtain ⟨m1, c1, -, W1⟩ := cres_v2_2 (alpha := alpha) (beta := beta) (dx := dx) hβ hi hj hugcw hfgcw hrgcw h
  obtain ⟨m2, c2, -, W2⟩ := fres_v2_2 (alpha := alpha) (beta := beta) (dx := dx) hi hj hugcw hfgcw hrgcw h
  refine ⟨m1, m2, c1, c2, fun i j h0 h1 h2 h3 => ?_⟩
  have w1 := W1 i j h0 h1 h2 h3
  have w2 := W2 i j h0 h1 h2 h3
  rw [(hG [i, j] (by in_bounds)).rd, (hF0 [i + 1, j] (by in_bounds)).rd, (hF0 [i, j] (by in_bounds)).rd, (hF1 [j + 1, i] (by in_bounds)).rd, (hF1 [j, i] (by in_bounds)).rd, (hU [i, j] (by in_bounds)).rd] at w1 w2
  refine ⟨_, _, w1, w2, close_sum (k := 6) (Near.mono (Near.eqs ((Near.datum beta).mul (((Near.diff _ _).div (hdx 0)).add ((Near.diff _ _).div (hdx 1)))) rfl ?_) (by decide)) (Near.mono (Near.eqs ((Near.datum alpha).mul (Near.datum _)) rfl ?_) (by decide)) (by ulps)⟩
  · simp only [abs_div]
  · rw [abs_mul alpha.v]

example :
    ∃ m1 m2, Cuda.diffusionV2Res2d 0 2 1 3 3 2 exDxB 2 ⟨1, 0⟩ 1 ⟨2, 0⟩ ⟨3, 0⟩ ⟨4, 0⟩ 1 ⟨8, 0⟩ (fun _ => revBackend) exB64 = .ok m1 ∧ F.celldiffusionv2res2d 0 2 1 3 3 2 exDxB 2 ⟨1, 0⟩ 1 ⟨2, 0⟩ ⟨3, 0⟩ ⟨4, 0⟩ 1 ⟨8, 0⟩ exB64 = .ok m2 ∧
      (∀ i j, 0 ≤ i → i ≤ 2 → 1 ≤ j → j ≤ 3 → ∃ v w, F.El m1 (F.cell2d ⟨8, 0⟩ 0 1 2 3 1) [i, j] v ∧ F.El m2 (F.cell2d ⟨8, 0⟩ 0 1 2 3 1) [i, j] w ∧
        F.Within 5 v w.v (|((F.rd exB64 (F.cell2d ⟨2, 0⟩ 0 1 2 3 1)) [i, j]).v| + |(2 : B64).v| * (|(((F.rd exB64 (F.face2d0 ⟨3, 0⟩ 0 1 2 3 0)) [i + 1, j]).v - ((F.rd exB64 (F.face2d0 ⟨3, 0⟩ 0 1 2 3 0)) [i, j]).v) / (exDxB 0).v| + |(((F.rd exB64 (F.face2d1 ⟨4, 0⟩ 0 1 2 3 0)) [j + 1, i]).v - ((F.rd exB64 (F.face2d1 ⟨4, 0⟩ 0 1 2 3 0)) [j, i]).v) / (exDxB 1).v|) + |(3 : B64).v * ((F.rd exB64 (F.cell2d ⟨1, 0⟩ 0 1 2 3 2)) [i, j]).v|)) :=
  C127_res_v2_2d (fun _ => revBackend_ok) (by decide) (by decide) (by decide) (by decide) (by decide) exDxB_ne (by ex_argsB) (exB64_holds (exRat_ok rfl (by decide) (by decide))) (exB64_holds (exRat_ok rfl (by decide) (by decide))) (exB64_holds (exRat_ok rfl (by decide) (by decide))) (exB64_holds (exRat_ok rfl (by decide) (by decide)))

/-- The residual kernel and `celldiffusionv1res3d` sum in different orders (`C49_v1_res_3d_false`); their residuals are never more than 5 rounding errors of the sum of
the sizes of the terms apart. -/
theorem C127_res_v1_3d {i0 i1 j0 j1 k0 k1 agcw ugcw fgcw rgcw : Int} {alpha beta : B64} {dx : Nat → B64} {a u f f0 f1 f2 res : Ptr} {β : Nat → Backend} {A U G F0 F1 F2 : List Int → B64} {m : Mem B64}
    (hβ : ∀ n, ValidBackend (β n)) (hi : i0 ≤ i1) (hj : j0 ≤ j1) (hk : k0 ≤ k1) (hagcw : 0 ≤ agcw) (hugcw : 0 ≤ ugcw) (hfgcw : 0 ≤ fgcw) (hrgcw : 0 ≤ rgcw) (hdx : ∀ n, (dx n).v ≠ 0)
    (h : F.Args m [F.cell3d a i0 j0 k0 i1 j1 k1 agcw, F.cell3d u i0 j0 k0 i1 j1 k1 ugcw, F.cell3d f i0 j0 k0 i1 j1 k1 fgcw, F.face3d0 f0 i0 j0 k0 i1 j1 k1 0, F.face3d1 f1 i0 j0 k0 i1 j1 k1 0, F.face3d2 f2 i0 j0 k0 i1 j1 k1 0] [F.cell3d res i0 j0 k0 i1 j1 k1 rgcw])
    (hA : F.Holds m (F.cell3d a i0 j0 k0 i1 j1 k1 agcw) A) (hU : F.Holds m (F.cell3d u i0 j0 k0 i1 j1 k1 ugcw) U) (hG : F.Holds m (F.cell3d f i0 j0 k0 i1 j1 k1 fgcw) G) (hF0 : F.Holds m (F.face3d0 f0 i0 j0 k0 i1 j1 k1 0) F0) (hF1 : F.Holds m (F.face3d1 f1 i0 j0 k0 i1 j1 k1 0) F1) (hF2 : F.Holds m (F.face3d2 f2 i0 j0 k0 i1 j1 k1 0) F2) :
    ∃ m1 m2, Cuda.diffusionV1Res3d i0 i1 j0 j1 k0 k1 alpha beta dx agcw a ugcw u fgcw f f0 f1 f2 rgcw res β m = .ok m1 ∧ F.celldiffusionv1res3d i0 i1 j0 j1 k0 k1 alpha beta dx agcw a ugcw u fgcw f f0 f1 f2 rgcw res m = .ok m2 ∧
      (∀ i j k, i0 ≤ i → i ≤ i1 → j0 ≤ j → j ≤ j1 → k0 ≤ k → k ≤ k1 → ∃ v w, F.El m1 (F.cell3d res i0 j0 k0 i1 j1 k1 rgcw) [i, j, k] v ∧ F.El m2 (F.cell3d res i0 j0 k0 i1 j1 k1 rgcw) [i, j, k] w ∧
        F.Within 5 v w.v (|(G [i, j, k]).v| + |beta.v| * (|((F0 [i + 1, j, k]).v - (F0 [i, j, k]).v) / (dx 0).v| + |((F1 [j + 1, k, i]).v - (F1 [j, k, i]).v) / (dx 1).v| + |((F2 [k + 1, i, j]).v - (F2 [k, i, j]).v) / (dx 2).v|) + |alpha.v * (A [i, j, k]).v * (U [i, j, k]).v|)) := by
  obtain ⟨m1, c1, -, W1⟩ := cres_v1_3 (alpha := alpha) (beta := beta) (dx := dx) hβ hi hj hk hagcw hugcw hfgcw hrgcw h
  obtain ⟨m2, c2, -, W2⟩ := fres_v1_3 (alpha := alpha) (beta := beta) (dx := dx) hi hj hk hagcw hugcw hfgcw hrgcw h
  refine ⟨m1, m2, c1, c2, fun i j k h0 h1 h2 h3 h4 h5 => ?_⟩
  have w1 := W1 i j k h0 h1 h2 h3 h4 h5
  have w2 := W2 i j k h0 h1 h2 h3 h4 h5
  rw [(hG [i, j, k] (by in_bounds)).rd, (hF0 [i + 1, j, k] (by in_bounds)).rd, (hF0 [i, j, k] (by in_bounds)).rd, (hF1 [j + 1, k, i] (by in_bounds)).rd, (hF1 [j, k, i] (by in_bounds)).rd, (hF2 [k + 1, i, j] (by in_bounds)).rd, (hF2 [k, i, j] (by in_bounds)).rd, (hA [i, j, k] (by in_bounds)).rd, (hU [i, j, k] (by in_bounds)).rd] at w1 w2
  refine ⟨_, _, w1, w2, close_sum (k := 6) (Near.mono (Near.eqs ((Near.datum beta).mul ((((Near.diff _ _).div (hdx 0)).add ((Near.diff _ _).div (hdx 1))).add ((Near.diff _ _).div (hdx 2)))) rfl ?_) (by decide)) (Near.mono (Near.eqs (((Near.datum alpha).mul (Near.datum _)).mul (Near.datum _)) rfl ?_) (by decide)) (by ulps)⟩
  · simp only [abs_div]
  · rw [abs_mul (_ * _), abs_mul alpha.v]

example :
    ∃ m1 m2, Cuda.diffusionV1Res3d 0 1 1 2 2 3 3 2 exDxB 1 ⟨0, 0⟩ 2 ⟨1, 0⟩ 1 ⟨2, 0⟩ ⟨3, 0⟩ ⟨4, 0⟩ ⟨5, 0⟩ 1 ⟨8, 0⟩ (fun _ => revBackend) exB64 = .ok m1 ∧ F.celldiffusionv1res3d 0 1 1 2 2 3 3 2 exDxB 1 ⟨0, 0⟩ 2 ⟨1, 0⟩ 1 ⟨2, 0⟩ ⟨3, 0⟩ ⟨4, 0⟩ ⟨5, 0⟩ 1 ⟨8, 0⟩ exB64 = .ok m2 ∧
      (∀ i j k, 0 ≤ i → i ≤ 1 → 1 ≤ j → j ≤ 2 → 2 ≤ k → k ≤ 3 → ∃ v w, F.El m1 (F.cell3d ⟨8, 0⟩ 0 1 2 1 2 3 1) [i, j, k] v ∧ F.El m2 (F.cell3d ⟨8, 0⟩ 0 1 2 1 2 3 1) [i, j, k] w ∧
        F.Within 5 v w.v (|((F.rd exB64 (F.cell3d ⟨2, 0⟩ 0 1 2 1 2 3 1)) [i, j, k]).v| + |(2 : B64).v| * (|(((F.rd exB64 (F.face3d0 ⟨3, 0⟩ 0 1 2 1 2 3 0)) [i + 1, j, k]).v - ((F.rd exB64 (F.face3d0 ⟨3, 0⟩ 0 1 2 1 2 3 0)) [i, j, k]).v) / (exDxB 0).v| + |(((F.rd exB64 (F.face3d1 ⟨4, 0⟩ 0 1 2 1 2 3 0)) [j + 1, k, i]).v - ((F.rd exB64 (F.face3d1 ⟨4, 0⟩ 0 1 2 1 2 3 0)) [j, k, i]).v) / (exDxB 1).v| + |(((F.rd exB64 (F.face3d2 ⟨5, 0⟩ 0 1 2 1 2 3 0)) [k + 1, i, j]).v - ((F.rd exB64 (F.face3d2 ⟨5, 0⟩ 0 1 2 1 2 3 0)) [k, i, j]).v) / (exDxB 2).v|) + |(3 : B64).v * ((F.rd exB64 (F.cell3d ⟨0, 0⟩ 0 1 2 1 2 3 1)) [i, j, k]).v * ((F.rd exB64 (F.cell3d ⟨1, 0⟩ 0 1 2 1 2 3 2)) [i, j, k]).v|)) :=
  C127_res_v1_3d (fun _ => revBackend_ok) (by decide) (by decide) (by decide) (by decide) (by decide) (by decide) (by decide) exDxB_ne (by ex_argsB) (exB64_holds (exRat_ok rfl (by decide) (by decide))) (exB64_holds (exRat_ok rfl (by decide) (by decide))) (exB64_holds (exRat_ok rfl (by decide) (by decide))) (exB64_holds (exRat_ok rfl (by decide) (by decide))) (exB64_holds (exRat_ok rfl (by decide) (by decide))) (exB64_holds (exRat_ok rfl (by decide) (by decide)))

/-- The residual kernel and `celldiffusionv2res3d` sum in different orders (`C49_v2_res_3d_false`); their residuals are never more than 5 rounding errors of the sum of
the sizes of the terms apart. -/
theorem C127_res_v2_3d {i0 i1 j0 j1 k0 k1 ugcw fgcw rgcw : Int} {alpha beta : B64} {dx : Nat → B64} {u f f0 f1 f2 res : Ptr} {β : Nat → Backend} {U G F0 F1 F2 : List Int → B64} {m : Mem B64}
    (hβ : ∀ n, ValidBackend (β n)) (hi : i0 ≤ i1) (hj : j0 ≤ j1) (hk : k0 ≤ k1) (hugcw : 0 ≤ ugcw) (hfgcw : 0 ≤ fgcw) (hrgcw : 0 ≤ rgcw) (hdx : ∀ n, (dx n).v ≠ 0)
    (h : F.Args m [F.cell3d u i0 j0 k0 i1 j1 k1 ugcw, F.cell3d f i0 j0 k0 i1 j1 k1 fgcw, F.face3d0 f0 i0 j0 k0 i1 j1 k1 0, F.face3d1 f1 i0 j0 k0 i1 j1 k1 0, F.face3d2 f2 i0 j0 k0 i1 j1 k1 0] [F.cell3d res i0 j0 k0 i1 j1 k1 rgcw])
    (hU : F.Holds m (F.cell3d u i0 j0 k0 i1 j1 k1 ugcw) U) (hG : F.Holds m (F.cell3d f i0 j0 k0 i1 j1 k1 fgcw) G) (hF0 : F.Holds m (F.face3d0 f0 i0 j0 k0 i1 j1 k1 0) F0) (hF1 : F.Holds m (F.face3d1 f1 i0 j0 k0 i1 j1 k1 0) F1) (hF2 : F.Holds m (F.face3d2 f2 i0 j0 k0 i1 j1 k1 0) F2) :
    ∃ m1 m2, Cuda.diffusionV2Res3d i0 i1 j0 j1 k0 k1 alpha beta dx ugcw u fgcw f f0 f1 f2 rgcw res β m = .ok m1 ∧ F.celldiffusionv2res3d i0 i1 j0 j1 k0 k1 alpha beta dx ugcw u fgcw f f0 f1 f2 rgcw res m = .ok m2 ∧
      (∀ i j k, i0 ≤ i → i ≤ i1 → j0 ≤ j → j ≤ j1 → k0 ≤ k → k ≤ k1 → ∃ v w, F.El m1 (F.cell3d res i0 j0 k0 i1 j1 k1 rgcw) [i, j, k] v ∧ F.El m2 (F.cell3d res i0 j0 k0 i1 j1 k1 rgcw) [i, j, k] w ∧
        F.Within 5 v w.v (|(G [i, j, k]).v| + |beta.v| * (|((F0 [i + 1, j, k]).v - (F0 [i, j, k]).v) / (dx 0).v| + |((F1 [j + 1, k, i]).v - (F1 [j, k, i]).v) / (dx 1).v| + |((F2 [k + 1, i, j]).v - (F2 [k, i, j]).v) / (dx 2).v|) + |alpha.v * (U [i, j, k]).v|)) := by
  obtain ⟨m1, c1, -, W1⟩ := cres_v2_3 (alpha := alpha) (beta := beta) (dx := dx) hβ hi hj hk hugcw hfgcw hrgcw h
  obtain ⟨m2, c2, -, W2⟩ := fres_v2_3 (alpha := alpha) (beta := beta) (dx := dx) hi hj hk hugcw hfgcw hrgcw h
  refine ⟨m1, m2, c1, c2, fun i j k h0 h1 h2 h3 h4 h5 => ?_⟩
  have w1 := W1 i j k h0 h1 h2 h3 h4 h5
  have w2 := W2 i j k h0 h1 h2 h3 h4 h5
  rw [(hG [i, j, k] (by in_bounds)).rd, (hF0 [i + 1, j, k] (by in_bounds)).rd, (hF0 [i, j, k] (by in_bounds)).rd, (hF1 [j + 1, k, i] (by in_bounds)).rd, (hF1 [j, k, i] (by in_bounds)).rd, (hF2 [k + 1, i, j] (by in_bounds)).rd, (hF2 [k, i, j] (by in_bounds)).rd, (hU [i, j, k] (by in_bounds)).rd] at w1 w2
  refine ⟨_, _, w1, w2, close_sum (k := 6) (Near.mono (Near.eqs ((Near.datum beta).mul ((((Near.diff _ _).div (hdx 0)).add ((Near.diff _ _).div (hdx 1))).add ((Near.diff _ _).div (hdx 2)))) rfl ?_) (by decide)) (Near.mono (Near.eqs ((Near.datum alpha).mul (Near.datum _)) rfl ?_) (by decide)) (by ulps)⟩
  · simp only [abs_div]
  · rw [abs_mul alpha.v]

example :
    ∃ m1 m2, Cuda.diffusionV2Res3d 0 1 1 2 2 3 3 2 exDxB 2 ⟨1, 0⟩ 1 ⟨2, 0⟩ ⟨3, 0⟩ ⟨4, 0⟩ ⟨5, 0⟩ 1 ⟨8, 0⟩ (fun _ => revBackend) exB64 = .ok m1 ∧ F.celldiffusionv2res3d 0 1 1 2 2 3 3 2 exDxB 2 ⟨1, 0⟩ 1 ⟨2, 0⟩ ⟨3, 0⟩ ⟨4, 0⟩ ⟨5, 0⟩ 1 ⟨8, 0⟩ exB64 = .ok m2 ∧
      (∀ i j k, 0 ≤ i → i ≤ 1 → 1 ≤ j → j ≤ 2 → 2 ≤ k → k ≤ 3 → ∃ v w, F.El m1 (F.cell3d ⟨8, 0⟩ 0 1 2 1 2 3 1) [i, j, k] v ∧ F.El m2 (F.cell3d ⟨8, 0⟩ 0 1 2 1 2 3 1) [i, j, k] w ∧
        F.Within 5 v w.v (|((F.rd exB64 (F.cell3d ⟨2, 0⟩ 0 1 2 1 2 3 1)) [i, j, k]).v| + |(2 : B64).v| * (|(((F.rd exB64 (F.face3d0 ⟨3, 0⟩ 0 1 2 1 2 3 0)) [i + 1, j, k]).v - ((F.rd exB64 (F.face3d0 ⟨3, 0⟩ 0 1 2 1 2 3 0)) [i, j, k]).v) / (exDxB 0).v| + |(((F.rd exB64 (F.face3d1 ⟨4, 0⟩ 0 1 2 1 2 3 0)) [j + 1, k, i]).v - ((F.rd exB64 (F.face3d1 ⟨4, 0⟩ 0 1 2 1 2 3 0)) [j, k, i]).v) / (exDxB 1).v| + |(((F.rd exB64 (F.face3d2 ⟨5, 0⟩ 0 1 2 1 2 3 0)) [k + 1, i, j]).v - ((F.rd exB64 (F.face3d2 ⟨5, 0⟩ 0 1 2 1 2 3 0)) [k, i, j]).v) / (exDxB 2).v|) + |(3 : B64).v * ((F.rd exB64 (F.cell3d ⟨1, 0⟩ 0 1 2 1 2 3 2)) [i, j, k]).v|)) :=
  C127_res_v2_3d (fun _ => revBackend_ok) (by decide) (by decide) (by decide) (by decide) (by decide) (by decide) exDxB_ne (by ex_argsB) (exB64_holds (exRat_ok rfl (by decide) (by decide))) (exB64_holds (exRat_ok rfl (by decide) (by decide))) (exB64_holds (exRat_ok rfl (by decide) (by decide))) (exB64_holds (exRat_ok rfl (by decide) (by decide))) (exB64_holds (exRat_ok rfl (by decide) (by decide)))

end Verif
