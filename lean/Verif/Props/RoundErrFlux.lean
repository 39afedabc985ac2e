import Verif.Lemmas.RoundOp
import Mathlib.Tactic.Ring

/-
C82: in 53 bit arithmetic the kernels lose no more than a few rounding errors of the sizes of their terms.
-/

namespace Verif
open Spec

set_option linter.unusedVariables false

/-- every flux left by the kernel is off the exact flux of the data by at most 4 rounding errors of the flux: no digits are lost except by the
subtraction of the data themselves -/
theorem C82_flux_1d {i0 i1 gcw : Int} {dx : Nat → B64} {u b0 f0 : Ptr} {β : Nat → Backend} {m : Mem B64} {U B0 : List Int → B64}
    (hβ : ∀ n, ValidBackend (β n)) (hi : i0 ≤ i1) (hg : 1 ≤ gcw) (hdx : ∀ n, (dx n).v ≠ 0)
    (h : F.Args m [(F.cell1d u i0 i1 gcw), (F.face1d b0 i0 i1 0)] [(F.face1d f0 i0 i1 0)])
    (hU : F.Holds m (F.cell1d u i0 i1 gcw) U) (hB0 : F.Holds m (F.face1d b0 i0 i1 0) B0) :
    ∃ m', Cuda.flux1d i0 i1 dx b0 gcw u f0 β m = .ok m' ∧
      (∀ i, i0 ≤ i → i ≤ i1 + 1 → ∃ v, F.El m' (F.face1d f0 i0 i1 0) [i] v ∧ F.Within 4 v (F.face (B0 [i]).v (U [i - 1]).v (U [i]).v (dx 0).v) |F.face (B0 [i]).v (U [i - 1]).v (U [i]).v (dx 0).v|) := by
  obtain ⟨m', c1, K1, V0⟩ := cflux1_run (dx := dx) hβ hi hg h
  refine ⟨m', c1, ?_⟩
  · intro i h0 h1
    have w := V0 i h0 h1
    rw [(hU [i] (by in_bounds)).rd, (hU [i - 1] (by in_bounds)).rd, (hB0 [i] (by in_bounds)).rd] at w
    exact ⟨_, w, (near_face (hdx 0)).within (by ulps)⟩

example :
    ∃ m', Cuda.flux1d 0 3 exDxB ⟨2, 0⟩ 2 ⟨1, 0⟩ ⟨5, 0⟩ (fun _ => revBackend) exB64 = .ok m' ∧
      (∀ i, 0 ≤ i → i ≤ 3 + 1 → ∃ v, F.El m' (F.face1d ⟨5, 0⟩ 0 3 0) [i] v ∧ F.Within 4 v (F.face ((F.rd exB64 (F.face1d ⟨2, 0⟩ 0 3 0)) [i]).v ((F.rd exB64 (F.cell1d ⟨1, 0⟩ 0 3 2)) [i - 1]).v ((F.rd exB64 (F.cell1d ⟨1, 0⟩ 0 3 2)) [i]).v (exDxB 0).v) |F.face ((F.rd exB64 (F.face1d ⟨2, 0⟩ 0 3 0)) [i]).v ((F.rd exB64 (F.cell1d ⟨1, 0⟩ 0 3 2)) [i - 1]).v ((F.rd exB64 (F.cell1d ⟨1, 0⟩ 0 3 2)) [i]).v (exDxB 0).v|) :=
  C82_flux_1d (fun _ => revBackend_ok) (by decide) (by decide) exDxB_ne (by ex_argsB) (exB64_holds (exRat_ok rfl (by decide) (by decide))) (exB64_holds (exRat_ok rfl (by decide) (by decide)))

/-- every Poisson flux left by the kernel is off the exact flux of the data by at most 3 rounding errors of the flux: no digits are lost except by the
subtraction of the data themselves -/
theorem C82_poisson_flux_1d {i0 i1 gcw : Int} {dx : Nat → B64} {u f0 : Ptr} {β : Nat → Backend} {m : Mem B64} {U : List Int → B64}
    (hβ : ∀ n, ValidBackend (β n)) (hi : i0 ≤ i1) (hg : 1 ≤ gcw) (hdx : ∀ n, (dx n).v ≠ 0)
    (h : F.Args m [(F.cell1d u i0 i1 gcw)] [(F.face1d f0 i0 i1 0)])
    (hU : F.Holds m (F.cell1d u i0 i1 gcw) U) :
    ∃ m', Cuda.poissonFlux1d i0 i1 dx gcw u f0 β m = .ok m' ∧
      (∀ i, i0 ≤ i → i ≤ i1 + 1 → ∃ v, F.El m' (F.face1d f0 i0 i1 0) [i] v ∧ F.Within 3 v (F.face 1 (U [i - 1]).v (U [i]).v (dx 0).v) |F.face 1 (U [i - 1]).v (U [i]).v (dx 0).v|) := by
  obtain ⟨m', q1, -, K1, V0⟩ := pflux1_run (dx := dx) hi hg h
  obtain ⟨m1, c1, e1⟩ := C49_flux_poisson_1d (dx := dx) (β := β) hβ hi hg h
  obtain rfl : m' = m1 := Except.ok.inj (q1.symm.trans e1)
  refine ⟨m', c1, ?_⟩
  · intro i h0 h1
    have w := V0 i h0 h1
    rw [(hU [i] (by in_bounds)).rd, (hU [i - 1] (by in_bounds)).rd] at w
    exact ⟨_, w, (near_face1 (hdx 0)).within (by ulps)⟩

example :
    ∃ m', Cuda.poissonFlux1d 0 3 exDxB 2 ⟨1, 0⟩ ⟨5, 0⟩ (fun _ => revBackend) exB64 = .ok m' ∧
      (∀ i, 0 ≤ i → i ≤ 3 + 1 → ∃ v, F.El m' (F.face1d ⟨5, 0⟩ 0 3 0) [i] v ∧ F.Within 3 v (F.face 1 ((F.rd exB64 (F.cell1d ⟨1, 0⟩ 0 3 2)) [i - 1]).v ((F.rd exB64 (F.cell1d ⟨1, 0⟩ 0 3 2)) [i]).v (exDxB 0).v) |F.face 1 ((F.rd exB64 (F.cell1d ⟨1, 0⟩ 0 3 2)) [i - 1]).v ((F.rd exB64 (F.cell1d ⟨1, 0⟩ 0 3 2)) [i]).v (exDxB 0).v|) :=
  C82_poisson_flux_1d (fun _ => revBackend_ok) (by decide) (by decide) exDxB_ne (by ex_argsB) (exB64_holds (exRat_ok rfl (by decide) (by decide)))

/-- every flux left by the kernel is off the exact flux of the data by at most 4 rounding errors of the flux: no digits are lost except by the
subtraction of the data themselves -/
theorem C82_flux_2d {i0 j0 i1 j1 gcw : Int} {dx : Nat → B64} {u b0 b1 f0 f1 : Ptr} {β : Nat → Backend} {m : Mem B64} {U B0 B1 : List Int → B64}
    (hβ : ∀ n, ValidBackend (β n)) (hi : i0 ≤ i1) (hj : j0 ≤ j1) (hg : 1 ≤ gcw) (hdx : ∀ n, (dx n).v ≠ 0)
    (h : F.Args m [(F.cell2d u i0 j0 i1 j1 gcw), (F.face2d0 b0 i0 j0 i1 j1 0), (F.face2d1 b1 i0 j0 i1 j1 0)] [(F.face2d0 f0 i0 j0 i1 j1 0), (F.face2d1 f1 i0 j0 i1 j1 0)])
    (hp : F.Apart (F.face2d0 f0 i0 j0 i1 j1 0) (F.face2d1 f1 i0 j0 i1 j1 0))
    (hU : F.Holds m (F.cell2d u i0 j0 i1 j1 gcw) U) (hB0 : F.Holds m (F.face2d0 b0 i0 j0 i1 j1 0) B0) (hB1 : F.Holds m (F.face2d1 b1 i0 j0 i1 j1 0) B1) :
    ∃ m', Cuda.flux2d i0 j0 i1 j1 dx b0 b1 gcw u f0 f1 β m = .ok m' ∧
      (∀ i j, i0 ≤ i → i ≤ i1 + 1 → j0 ≤ j → j ≤ j1 → ∃ v, F.El m' (F.face2d0 f0 i0 j0 i1 j1 0) [i, j] v ∧ F.Within 4 v (F.face (B0 [i, j]).v (U [i - 1, j]).v (U [i, j]).v (dx 0).v) |F.face (B0 [i, j]).v (U [i - 1, j]).v (U [i, j]).v (dx 0).v|) ∧
      (∀ i j, i0 ≤ i → i ≤ i1 → j0 ≤ j → j ≤ j1 + 1 → ∃ v, F.El m' (F.face2d1 f1 i0 j0 i1 j1 0) [j, i] v ∧ F.Within 4 v (F.face (B1 [j, i]).v (U [i, j - 1]).v (U [i, j]).v (dx 1).v) |F.face (B1 [j, i]).v (U [i, j - 1]).v (U [i, j]).v (dx 1).v|) := by
  obtain ⟨m', c1, K1, V0, V1⟩ := cflux2_run (dx := dx) hβ hi hj hg h hp
  refine ⟨m', c1, ?_, ?_⟩
  · intro i j h0 h1 h2 h3
    have w := V0 i j h0 h1 h2 h3
    rw [(hU [i, j] (by in_bounds)).rd, (hU [i - 1, j] (by in_bounds)).rd, (hB0 [i, j] (by in_bounds)).rd] at w
    exact ⟨_, w, (near_face (hdx 0)).within (by ulps)⟩
  · intro i j h0 h1 h2 h3
    have w := V1 i j h0 h1 h2 h3
    rw [(hU [i, j] (by in_bounds)).rd, (hU [i, j - 1] (by in_bounds)).rd, (hB1 [j, i] (by in_bounds)).rd] at w
    exact ⟨_, w, (near_face (hdx 1)).within (by ulps)⟩

example :
    ∃ m', Cuda.flux2d 0 1 2 3 exDxB ⟨2, 0⟩ ⟨3, 0⟩ 2 ⟨1, 0⟩ ⟨5, 0⟩ ⟨6, 0⟩ (fun _ => revBackend) exB64 = .ok m' ∧
      (∀ i j, 0 ≤ i → i ≤ 2 + 1 → 1 ≤ j → j ≤ 3 → ∃ v, F.El m' (F.face2d0 ⟨5, 0⟩ 0 1 2 3 0) [i, j] v ∧ F.Within 4 v (F.face ((F.rd exB64 (F.face2d0 ⟨2, 0⟩ 0 1 2 3 0)) [i, j]).v ((F.rd exB64 (F.cell2d ⟨1, 0⟩ 0 1 2 3 2)) [i - 1, j]).v ((F.rd exB64 (F.cell2d ⟨1, 0⟩ 0 1 2 3 2)) [i, j]).v (exDxB 0).v) |F.face ((F.rd exB64 (F.face2d0 ⟨2, 0⟩ 0 1 2 3 0)) [i, j]).v ((F.rd exB64 (F.cell2d ⟨1, 0⟩ 0 1 2 3 2)) [i - 1, j]).v ((F.rd exB64 (F.cell2d ⟨1, 0⟩ 0 1 2 3 2)) [i, j]).v (exDxB 0).v|) ∧
      (∀ i j, 0 ≤ i → i ≤ 2 → 1 ≤ j → j ≤ 3 + 1 → ∃ v, F.El m' (F.face2d1 ⟨6, 0⟩ 0 1 2 3 0) [j, i] v ∧ F.Within 4 v (F.face ((F.rd exB64 (F.face2d1 ⟨3, 0⟩ 0 1 2 3 0)) [j, i]).v ((F.rd exB64 (F.cell2d ⟨1, 0⟩ 0 1 2 3 2)) [i, j - 1]).v ((F.rd exB64 (F.cell2d ⟨1, 0⟩ 0 1 2 3 2)) [i, j]).v (exDxB 1).v) |F.face ((F.rd exB64 (F.face2d1 ⟨3, 0⟩ 0 1 2 3 0)) [j, i]).v ((F.rd exB64 (F.cell2d ⟨1, 0⟩ 0 1 2 3 2)) [i, j - 1]).v ((F.rd exB64 (F.cell2d ⟨1, 0⟩ 0 1 2 3 2)) [i, j]).v (exDxB 1).v|) :=
  C82_flux_2d (fun _ => revBackend_ok) (by decide) (by decide) (by decide) exDxB_ne (by ex_argsB) (apart_blk (by decide)) (exB64_holds (exRat_ok rfl (by decide) (by decide))) (exB64_holds (exRat_ok rfl (by decide) (by decide))) (exB64_holds (exRat_ok rfl (by decide) (by decide)))

/-- every Poisson flux left by the kernel is off the exact flux of the data by at most 3 rounding errors of the flux: no digits are lost except by the
subtraction of the data themselves -/
theorem C82_poisson_flux_2d {i0 j0 i1 j1 gcw : Int} {dx : Nat → B64} {u f0 f1 : Ptr} {β : Nat → Backend} {m : Mem B64} {U : List Int → B64}
    (hβ : ∀ n, ValidBackend (β n)) (hi : i0 ≤ i1) (hj : j0 ≤ j1) (hg : 1 ≤ gcw) (hdx : ∀ n, (dx n).v ≠ 0)
    (h : F.Args m [(F.cell2d u i0 j0 i1 j1 gcw)] [(F.face2d0 f0 i0 j0 i1 j1 0), (F.face2d1 f1 i0 j0 i1 j1 0)])
    (hp : F.Apart (F.face2d0 f0 i0 j0 i1 j1 0) (F.face2d1 f1 i0 j0 i1 j1 0))
    (hU : F.Holds m (F.cell2d u i0 j0 i1 j1 gcw) U) :
    ∃ m', Cuda.poissonFlux2d i0 j0 i1 j1 dx gcw u f0 f1 β m = .ok m' ∧
      (∀ i j, i0 ≤ i → i ≤ i1 + 1 → j0 ≤ j → j ≤ j1 → ∃ v, F.El m' (F.face2d0 f0 i0 j0 i1 j1 0) [i, j] v ∧ F.Within 3 v (F.face 1 (U [i - 1, j]).v (U [i, j]).v (dx 0).v) |F.face 1 (U [i - 1, j]).v (U [i, j]).v (dx 0).v|) ∧
      (∀ i j, i0 ≤ i → i ≤ i1 → j0 ≤ j → j ≤ j1 + 1 → ∃ v, F.El m' (F.face2d1 f1 i0 j0 i1 j1 0) [j, i] v ∧ F.Within 3 v (F.face 1 (U [i, j - 1]).v (U [i, j]).v (dx 1).v) |F.face 1 (U [i, j - 1]).v (U [i, j]).v (dx 1).v|) := by
  obtain ⟨m', q1, -, K1, V0, V1⟩ := pflux2_run (dx := dx) hi hj hg h hp
  obtain ⟨m1, c1, e1⟩ := C49_flux_poisson_2d (dx := dx) (β := β) hβ hi hj hg h
  obtain rfl : m' = m1 := Except.ok.inj (q1.symm.trans e1)
  refine ⟨m', c1, ?_, ?_⟩
  · intro i j h0 h1 h2 h3
    have w := V0 i j h0 h1 h2 h3
    rw [(hU [i, j] (by in_bounds)).rd, (hU [i - 1, j] (by in_bounds)).rd] at w
    exact ⟨_, w, (near_face1 (hdx 0)).within (by ulps)⟩
  · intro i j h0 h1 h2 h3
    have w := V1 i j h0 h1 h2 h3
    rw [(hU [i, j] (by in_bounds)).rd, (hU [i, j - 1] (by in_bounds)).rd] at w
    exact ⟨_, w, (near_face1 (hdx 1)).within (by ulps)⟩

example :
    ∃ m', Cuda.poissonFlux2d 0 1 2 3 exDxB 2 ⟨1, 0⟩ ⟨5, 0⟩ ⟨6, 0⟩ (fun _ => revBackend) exB64 = .ok m' ∧
      (∀ i j, 0 ≤ i → i ≤ 2 + 1 → 1 ≤ j → j ≤ 3 → ∃ v, F.El m' (F.face2d0 ⟨5, 0⟩ 0 1 2 3 0) [i, j] v ∧ F.Within 3 v (F.face 1 ((F.rd exB64 (F.cell2d ⟨1, 0⟩ 0 1 2 3 2)) [i - 1, j]).v ((F.rd exB64 (F.cell2d ⟨1, 0⟩ 0 1 2 3 2)) [i, j]).v (exDxB 0).v) |F.face 1 ((F.rd exB64 (F.cell2d ⟨1, 0⟩ 0 1 2 3 2)) [i - 1, j]).v ((F.rd exB64 (F.cell2d ⟨1, 0⟩ 0 1 2 3 2)) [i, j]).v (exDxB 0).v|) ∧
      (∀ i j, 0 ≤ i → i ≤ 2 → 1 ≤ j → j ≤ 3 + 1 → ∃ v, F.El m' (F.face2d1 ⟨6, 0⟩ 0 1 2 3 0) [j, i] v ∧ F.Within 3 v (F.face 1 ((F.rd exB64 (F.cell2d ⟨1, 0⟩ 0 1 2 3 2)) [i, j - 1]).v ((F.rd exB64 (F.cell2d ⟨1, 0⟩ 0 1 2 3 2)) [i, j]).v (exDxB 1).v) |F.face 1 ((F.rd exB64 (F.cell2d ⟨1, 0⟩ 0 1 2 3 2)) [i, j - 1]).v ((F.rd exB64 (F.cell2d ⟨1, 0⟩ 0 1 2 3 2)) [i, j]).v (exDxB 1).v|) :=
  C82_poisson_flux_2d (fun _ => revBackend_ok) (by decide) (by decide) (by decide) exDxB_ne (by ex_argsB) (apart_blk (by decide)) (exB64_holds (exRat_ok rfl (by decide) (by decide)))

/-- every flux left by the kernel is off the exact flux of the data by at most 4 rounding errors of the flux: no digits are lost except by the
subtraction of the data themselves -/
theorem C82_flux_3d {i0 j0 k0 i1 j1 k1 gcw : Int} {dx : Nat → B64} {u b0 b1 b2 f0 f1 f2 : Ptr} {β : Nat → Backend} {m : Mem B64} {U B0 B1 B2 : List Int → B64}
    (hβ : ∀ n, ValidBackend (β n)) (hi : i0 ≤ i1) (hj : j0 ≤ j1) (hk : k0 ≤ k1) (hg : 1 ≤ gcw) (hdx : ∀ n, (dx n).v ≠ 0)
    (h : F.Args m [(F.cell3d u i0 j0 k0 i1 j1 k1 gcw), (F.face3d0 b0 i0 j0 k0 i1 j1 k1 0), (F.face3d1 b1 i0 j0 k0 i1 j1 k1 0), (F.face3d2 b2 i0 j0 k0 i1 j1 k1 0)] [(F.face3d0 f0 i0 j0 k0 i1 j1 k1 0), (F.face3d1 f1 i0 j0 k0 i1 j1 k1 0), (F.face3d2 f2 i0 j0 k0 i1 j1 k1 0)])
    (hp : F.Apart (F.face3d0 f0 i0 j0 k0 i1 j1 k1 0) (F.face3d1 f1 i0 j0 k0 i1 j1 k1 0) ∧ F.Apart (F.face3d0 f0 i0 j0 k0 i1 j1 k1 0) (F.face3d2 f2 i0 j0 k0 i1 j1 k1 0) ∧ F.Apart (F.face3d1 f1 i0 j0 k0 i1 j1 k1 0) (F.face3d2 f2 i0 j0 k0 i1 j1 k1 0))
    (hU : F.Holds m (F.cell3d u i0 j0 k0 i1 j1 k1 gcw) U) (hB0 : F.Holds m (F.face3d0 b0 i0 j0 k0 i1 j1 k1 0) B0) (hB1 : F.Holds m (F.face3d1 b1 i0 j0 k0 i1 j1 k1 0) B1) (hB2 : F.Holds m (F.face3d2 b2 i0 j0 k0 i1 j1 k1 0) B2) :
    ∃ m', Cuda.flux3d i0 j0 k0 i1 j1 k1 dx b0 b1 b2 gcw u f0 f1 f2 β m = .ok m' ∧
      (∀ i j k, i0 ≤ i → i ≤ i1 + 1 → j0 ≤ j → j ≤ j1 → k0 ≤ k → k ≤ k1 → ∃ v, F.El m' (F.face3d0 f0 i0 j0 k0 i1 j1 k1 0) [i, j, k] v ∧ F.Within 4 v (F.face (B0 [i, j, k]).v (U [i - 1, j, k]).v (U [i, j, k]).v (dx 0).v) |F.face (B0 [i, j, k]).v (U [i - 1, j, k]).v (U [i, j, k]).v (dx 0).v|) ∧
      (∀ i j k, i0 ≤ i → i ≤ i1 → j0 ≤ j → j ≤ j1 + 1 → k0 ≤ k → k ≤ k1 → ∃ v, F.El m' (F.face3d1 f1 i0 j0 k0 i1 j1 k1 0) [j, k, i] v ∧ F.Within 4 v (F.face (B1 [j, k, i]).v (U [i, j - 1, k]).v (U [i, j, k]).v (dx 1).v) |F.face (B1 [j, k, i]).v (U [i, j - 1, k]).v (U [i, j, k]).v (dx 1).v|) ∧
      (∀ i j k, i0 ≤ i → i ≤ i1 → j0 ≤ j → j ≤ j1 → k0 ≤ k → k ≤ k1 + 1 → ∃ v, F.El m' (F.face3d2 f2 i0 j0 k0 i1 j1 k1 0) [k, i, j] v ∧ F.Within 4 v (F.face (B2 [k, i, j]).v (U [i, j, k - 1]).v (U [i, j, k]).v (dx 2).v) |F.face (B2 [k, i, j]).v (U [i, j, k - 1]).v (U [i, j, k]).v (dx 2).v|) := by
  obtain ⟨m', c1, K1, V0, V1, V2⟩ := cflux3_run (dx := dx) hβ hi hj hk hg h hp
  refine ⟨m', c1, ?_, ?_, ?_⟩
  · intro i j k h0 h1 h2 h3 h4 h5
    have w := V0 i j k h0 h1 h2 h3 h4 h5
    rw [(hU [i, j, k] (by in_bounds)).rd, (hU [i - 1, j, k] (by in_bounds)).rd, (hB0 [i, j, k] (by in_bounds)).rd] at w
    exact ⟨_, w, (near_face (hdx 0)).within (by ulps)⟩
  · intro i j k h0 h1 h2 h3 h4 h5
    have w := V1 i j k h0 h1 h2 h3 h4 h5
    rw [(hU [i, j, k] (by in_bounds)).rd, (hU [i, j - 1, k] (by in_bounds)).rd, (hB1 [j, k, i] (by in_bounds)).rd] at w
    exact ⟨_, w, (near_face (hdx 1)).within (by ulps)⟩
  · intro i j k h0 h1 h2 h3 h4 h5
    have w := V2 i j k h0 h1 h2 h3 h4 h5
    rw [(hU [i, j, k] (by in_bounds)).rd, (hU [i, j, k - 1] (by in_bounds)).rd, (hB2 [k, i, j] (by in_bounds)).rd] at w
    exact ⟨_, w, (near_face (hdx 2)).within (by ulps)⟩

example :
    ∃ m', Cuda.flux3d 0 1 2 1 2 3 exDxB ⟨2, 0⟩ ⟨3, 0⟩ ⟨4, 0⟩ 2 ⟨1, 0⟩ ⟨5, 0⟩ ⟨6, 0⟩ ⟨7, 0⟩ (fun _ => revBackend) exB64 = .ok m' ∧
      (∀ i j k, 0 ≤ i → i ≤ 1 + 1 → 1 ≤ j → j ≤ 2 → 2 ≤ k → k ≤ 3 → ∃ v, F.El m' (F.face3d0 ⟨5, 0⟩ 0 1 2 1 2 3 0) [i, j, k] v ∧ F.Within 4 v (F.face ((F.rd exB64 (F.face3d0 ⟨2, 0⟩ 0 1 2 1 2 3 0)) [i, j, k]).v ((F.rd exB64 (F.cell3d ⟨1, 0⟩ 0 1 2 1 2 3 2)) [i - 1, j, k]).v ((F.rd exB64 (F.cell3d ⟨1, 0⟩ 0 1 2 1 2 3 2)) [i, j, k]).v (exDxB 0).v) |F.face ((F.rd exB64 (F.face3d0 ⟨2, 0⟩ 0 1 2 1 2 3 0)) [i, j, k]).v ((F.rd exB64 (F.cell3d ⟨1, 0⟩ 0 1 2 1 2 3 2)) [i - 1, j, k]).v ((F.rd exB64 (F.cell3d ⟨1, 0⟩ 0 1 2 1 2 3 2)) [i, j, k]).v (exDxB 0).v|) ∧
      (∀ i j k, 0 ≤ i → i ≤ 1 → 1 ≤ j → j ≤ 2 + 1 → 2 ≤ k → k ≤ 3 → ∃ v, F.El m' (F.face3d1 ⟨6, 0⟩ 0 1 2 1 2 3 0) [j, k, i] v ∧ F.Within 4 v (F.face ((F.rd exB64 (F.face3d1 ⟨3, 0⟩ 0 1 2 1 2 3 0)) [j, k, i]).v ((F.rd exB64 (F.cell3d ⟨1, 0⟩ 0 1 2 1 2 3 2)) [i, j - 1, k]).v ((F.rd exB64 (F.cell3d ⟨1, 0⟩ 0 1 2 1 2 3 2)) [i, j, k]).v (exDxB 1).v) |F.face ((F.rd exB64 (F.face3d1 ⟨3, 0⟩ 0 1 2 1 2 3 0)) [j, k, i]).v ((F.rd exB64 (F.cell3d ⟨1, 0⟩ 0 1 2 1 2 3 2)) [i, j - 1, k]).v ((F.rd exB64 (F.cell3d ⟨1, 0⟩ 0 1 2 1 2 3 2)) [i, j, k]).v (exDxB 1).v|) ∧
      (∀ i j k, 0 ≤ i → i ≤ 1 → 1 ≤ j → j ≤ 2 → 2 ≤ k → k ≤ 3 + 1 → ∃ v, F.El m' (F.face3d2 ⟨7, 0⟩ 0 1 2 1 2 3 0) [k, i, j] v ∧ F.Within 4 v (F.face ((F.rd exB64 (F.face3d2 ⟨4, 0⟩ 0 1 2 1 2 3 0)) [k, i, j]).v ((F.rd exB64 (F.cell3d ⟨1, 0⟩ 0 1 2 1 2 3 2)) [i, j, k - 1]).v ((F.rd exB64 (F.cell3d ⟨1, 0⟩ 0 1 2 1 2 3 2)) [i, j, k]).v (exDxB 2).v) |F.face ((F.rd exB64 (F.face3d2 ⟨4, 0⟩ 0 1 2 1 2 3 0)) [k, i, j]).v ((F.rd exB64 (F.cell3d ⟨1, 0⟩ 0 1 2 1 2 3 2)) [i, j, k - 1]).v ((F.rd exB64 (F.cell3d ⟨1, 0⟩ 0 1 2 1 2 3 2)) [i, j, k]).v (exDxB 2).v|) :=
  C82_flux_3d (fun _ => revBackend_ok) (by decide) (by decide) (by decide) (by decide) exDxB_ne (by ex_argsB) ⟨apart_blk (by decide), apart_blk (by decide), apart_blk (by decide)⟩ (exB64_holds (exRat_ok rfl (by decide) (by decide))) (exB64_holds (exRat_ok rfl (by decide) (by decide))) (exB64_holds (exRat_ok rfl (by decide) (by decide))) (exB64_holds (exRat_ok rfl (by decide) (by decide)))

/-- every Poisson flux left by the kernel is off the exact flux of the data by at most 3 rounding errors of the flux: no digits are lost except by the
subtraction of the data themselves -/
theorem C82_poisson_flux_3d {i0 j0 k0 i1 j1 k1 gcw : Int} {dx : Nat → B64} {u f0 f1 f2 : Ptr} {β : Nat → Backend} {m : Mem B64} {U : List Int → B64}
    (hβ : ∀ n, ValidBackend (β n)) (hi : i0 ≤ i1) (hj : j0 ≤ j1) (hk : k0 ≤ k1) (hg : 1 ≤ gcw) (hdx : ∀ n, (dx n).v ≠ 0)
    (h : F.Args m [(F.cell3d u i0 j0 k0 i1 j1 k1 gcw)] [(F.face3d0 f0 i0 j0 k0 i1 j1 k1 0), (F.face3d1 f1 i0 j0 k0 i1 j1 k1 0), (F.face3d2 f2 i0 j0 k0 i1 j1 k1 0)])
    (hp : F.Apart (F.face3d0 f0 i0 j0 k0 i1 j1 k1 0) (F.face3d1 f1 i0 j0 k0 i1 j1 k1 0) ∧ F.Apart (F.face3d0 f0 i0 j0 k0 i1 j1 k1 0) (F.face3d2 f2 i0 j0 k0 i1 j1 k1 0) ∧ F.Apart (F.face3d1 f1 i0 j0 k0 i1 j1 k1 0) (F.face3d2 f2 i0 j0 k0 i1 j1 k1 0))
    (hU : F.Holds m (F.cell3d u i0 j0 k0 i1 j1 k1 gcw) U) :
    ∃ m', Cuda.poissonFlux3d i0 j0 k0 i1 j1 k1 dx gcw u f0 f1 f2 β m = .ok m' ∧
      (∀ i j k, i0 ≤ i → i ≤ i1 + 1 → j0 ≤ j → j ≤ j1 → k0 ≤ k → k ≤ k1 → ∃ v, F.El m' (F.face3d0 f0 i0 j0 k0 i1 j1 k1 0) [i, j, k] v ∧ F.Within 3 v (F.face 1 (U [i - 1, j, k]).v (U [i, j, k]).v (dx 0).v) |F.face 1 (U [i - 1, j, k]).v (U [i, j, k]).v (dx 0).v|) ∧
      (∀ i j k, i0 ≤ i → i ≤ i1 → j0 ≤ j → j ≤ j1 + 1 → k0 ≤ k → k ≤ k1 → ∃ v, F.El m' (F.face3d1 f1 i0 j0 k0 i1 j1 k1 0) [j, k, i] v ∧ F.Within 3 v (F.face 1 (U [i, j - 1, k]).v (U [i, j, k]).v (dx 1).v) |F.face 1 (U [i, j - 1, k]).v (U [i, j, k]).v (dx 1).v|) ∧
      (∀ i j k, i0 ≤ i → i ≤ i1 → j0 ≤ j → j ≤ j1 → k0 ≤ k → k ≤ k1 + 1 → ∃ v, F.El m' (F.face3d2 f2 i0 j0 k0 i1 j1 k1 0) [k, i, j] v ∧ F.Within 3 v (F.face 1 (U [i, j, k - 1]).v (U [i, j, k]).v (dx 2).v) |F.face 1 (U [i, j, k - 1]).v (U [i, j, k]).v (dx 2).v|) := by
  obtain ⟨m', q1, -, K1, V0, V1, V2⟩ := pflux3_run (dx := dx) hi hj hk hg h hp
  obtain ⟨m1, c1, e1⟩ := C49_flux_poisson_3d (dx := dx) (β := β) hβ hi hj hk hg h
  obtain rfl : m' = m1 := Except.ok.inj (q1.symm.trans e1)
  refine ⟨m', c1, ?_, ?_, ?_⟩
  · intro i j k h0 h1 h2 h3 h4 h5
    have w := V0 i j k h0 h1 h2 h3 h4 h5
    rw [(hU [i, j, k] (by in_bounds)).rd, (hU [i - 1, j, k] (by in_bounds)).rd] at w
    exact ⟨_, w, (near_face1 (hdx 0)).within (by ulps)⟩
  · intro i j k h0 h1 h2 h3 h4 h5
    have w := V1 i j k h0 h1 h2 h3 h4 h5
    rw [(hU [i, j, k] (by in_bounds)).rd, (hU [i, j - 1, k] (by in_bounds)).rd] at w
    exact ⟨_, w, (near_face1 (hdx 1)).within (by ulps)⟩
  · intro i j k h0 h1 h2 h3 h4 h5
    have w := V2 i j k h0 h1 h2 h3 h4 h5
    rw [(hU [i, j, k] (by in_bounds)).rd, (hU [i, j, k - 1] (by in_bounds)).rd] at w
    exact ⟨_, w, (near_face1 (hdx 2)).within (by ulps)⟩

example :
    ∃ m', Cuda.poissonFlux3d 0 1 2 1 2 3 exDxB 2 ⟨1, 0⟩ ⟨5, 0⟩ ⟨6, 0⟩ ⟨7, 0⟩ (fun _ => revBackend) exB64 = .ok m' ∧
      (∀ i j k, 0 ≤ i → i ≤ 1 + 1 → 1 ≤ j → j ≤ 2 → 2 ≤ k → k ≤ 3 → ∃ v, F.El m' (F.face3d0 ⟨5, 0⟩ 0 1 2 1 2 3 0) [i, j, k] v ∧ F.Within 3 v (F.face 1 ((F.rd exB64 (F.cell3d ⟨1, 0⟩ 0 1 2 1 2 3 2)) [i - 1, j, k]).v ((F.rd exB64 (F.cell3d ⟨1, 0⟩ 0 1 2 1 2 3 2)) [i, j, k]).v (exDxB 0).v) |F.face 1 ((F.rd exB64 (F.cell3d ⟨1, 0⟩ 0 1 2 1 2 3 2)) [i - 1, j, k]).v ((F.rd exB64 (F.cell3d ⟨1, 0⟩ 0 1 2 1 2 3 2)) [i, j, k]).v (exDxB 0).v|) ∧
      (∀ i j k, 0 ≤ i → i ≤ 1 → 1 ≤ j → j ≤ 2 + 1 → 2 ≤ k → k ≤ 3 → ∃ v, F.El m' (F.face3d1 ⟨6, 0⟩ 0 1 2 1 2 3 0) [j, k, i] v ∧ F.Within 3 v (F.face 1 ((F.rd exB64 (F.cell3d ⟨1, 0⟩ 0 1 2 1 2 3 2)) [i, j - 1, k]).v ((F.rd exB64 (F.cell3d ⟨1, 0⟩ 0 1 2 1 2 3 2)) [i, j, k]).v (exDxB 1).v) |F.face 1 ((F.rd exB64 (F.cell3d ⟨1, 0⟩ 0 1 2 1 2 3 2)) [i, j - 1, k]).v ((F.rd exB64 (F.cell3d ⟨1, 0⟩ 0 1 2 1 2 3 2)) [i, j, k]).v (exDxB 1).v|) ∧
      (∀ i j k, 0 ≤ i → i ≤ 1 → 1 ≤ j → j ≤ 2 → 2 ≤ k → k ≤ 3 + 1 → ∃ v, F.El m' (F.face3d2 ⟨7, 0⟩ 0 1 2 1 2 3 0) [k, i, j] v ∧ F.Within 3 v (F.face 1 ((F.rd exB64 (F.cell3d ⟨1, 0⟩ 0 1 2 1 2 3 2)) [i, j, k - 1]).v ((F.rd exB64 (F.cell3d ⟨1, 0⟩ 0 1 2 1 2 3 2)) [i, j, k]).v (exDxB 2).v) |F.face 1 ((F.rd exB64 (F.cell3d ⟨1, 0⟩ 0 1 2 1 2 3 2)) [i, j, k - 1]).v ((F.rd exB64 (F.cell3d ⟨1, 0⟩ 0 1 2 1 2 3 2)) [i, j, k]).v (exDxB 2).v|) :=
  C82_poisson_flux_3d (fun _ => revBackend_ok) (by decide) (by decide) (by decide) (by decide) exDxB_ne (by ex_argsB) ⟨apart_blk (by decide), apart_blk (by decide), apart_blk (by decide)⟩ (exB64_holds (exRat_ok rfl (by decide) (by decide)))

end Verif
