import Verif.Lemmas.AccuracyEx

/-
C71: the error of the operator kernels on smooth functions.
-/

namespace Verif
open Spec

set_option linter.unusedVariables false

/-- 1D, diffusion operator with cell coefficients: if the field is sampled from a smooth function and the coefficients are sampled from smooth functions, the result is the differential operator applied to the function, up to the square of the mesh widths. -/
theorem C71_v1_1d {i0 i1 agcw gcw rgcw : Int} {alpha beta : ℝ} {dx : Nat → ℝ} {a u b0 f0 res : Ptr} {β1 β2 : Nat → Backend} {m : Mem ℝ} {A U : List Int → ℝ} {o : Nat → ℝ} {φ q κ0 : ℝ → ℝ} {C0 : ℝ}
    (hβ1 : ∀ n, ValidBackend (β1 n)) (hβ2 : ∀ n, ValidBackend (β2 n)) (hi : i0 ≤ i1) (hg : 1 ≤ gcw) (hagcw : 0 ≤ agcw) (hrgcw : 0 ≤ rgcw)
    (h : F.Args m [(F.cell1d a i0 i1 agcw), (F.cell1d u i0 i1 gcw), (F.face1d b0 i0 i1 0)] [(F.face1d f0 i0 i1 0), (F.cell1d res i0 i1 rgcw)])
    (hr : F.Apart (F.cell1d res i0 i1 rgcw) (F.face1d f0 i0 i1 0)) (hA : F.Holds m (F.cell1d a i0 i1 agcw) A) (hB0 : F.Holds m (F.face1d b0 i0 i1 0) (F.faces1 o dx κ0)) (hU : F.Holds m (F.cell1d u i0 i1 gcw) U)
    (hd0 : 0 < dx 0) (hUφ : ∀ p, F.InBounds [(i0 - 1, i1 + 1)] p → U p = F.cells1 o dx φ p) (hAq : ∀ p, F.InBounds [(i0, i1)] p → A p = F.cells1 o dx q p)
    (s0 : F.SmoothFlux (fun s => φ s) (fun s => κ0 s) (F.centre (o 0) (dx 0) (i0 - 1)) (F.centre (o 0) (dx 0) (i1 + 1)) C0) :
    ∃ m1 m2, ∃ R : List Int → ℝ, Cuda.flux1d i0 i1 dx b0 gcw u f0 β1 m = .ok m1 ∧ Cuda.diffusionV1Apply1d i0 i1 alpha beta dx agcw a gcw u f0 rgcw res β2 m1 = .ok m2 ∧
      (∀ p, F.InBounds [(i0, i1)] p → F.El m2 (F.cell1d res i0 i1 rgcw) p (R p)) ∧
      ∀ i, i0 ≤ i → i ≤ i1 → |R [i] - F.diffusion1 alpha beta q κ0 φ (F.centre (o 0) (dx 0) i)| ≤ |beta| * (C0 * dx 0 ^ 2) / 24 := by
  obtain ⟨m1, m2, R, c1, c2, e, hR⟩ := energy_v1_1 (alpha := alpha) (beta := beta) (dx := dx) hβ1 hβ2 hi hg hagcw hrgcw h hr hA hB0 hU
  refine ⟨m1, m2, R, c1, c2, e, fun i h0 h1 => ?_⟩
  rw [hR i h0 h1]
  exact F.near_diffusion1 (beta := beta) (q := q) (alpha := alpha) hd0 hUφ hAq s0 i h0 h1

example : ∃ m1 m2, ∃ R : List Int → ℝ, Cuda.flux1d 0 3 exW ⟨2, 0⟩ 2 ⟨1, 0⟩ ⟨5, 0⟩ (fun _ => revBackend) (exFun (exG1 (F.cells1 ex0 exW exφ1))) = .ok m1 ∧ Cuda.diffusionV1Apply1d 0 3 3 2 exW 1 ⟨0, 0⟩ 2 ⟨1, 0⟩ ⟨5, 0⟩ 1 ⟨8, 0⟩ (fun _ => seqBackend) m1 = .ok m2 ∧
      (∀ p, F.InBounds [(0, 3)] p → F.El m2 (F.cell1d ⟨8, 0⟩ 0 3 1) p (R p)) ∧
      ∀ i, 0 ≤ i → i ≤ 3 → |R [i] - F.diffusion1 3 2 exq1 exk10 exφ1 (F.centre (ex0 0) (exW 0) i)| ≤ |(2 : ℝ)| * ((48 + 312 * 3 ^ 2) * exW 0 ^ 2) / 24 :=
  C71_v1_1d (fun _ => revBackend_ok) (fun _ => seqBackend_ok) (by decide) (by decide) (by decide) (by decide) (exFun_args (by ex_args)) (apart_blk (by decide)) (exFun_holds rfl rfl (exRat_ok rfl (by decide) (by decide))) (exFun_holds rfl rfl (exRat_ok rfl (by decide) (by decide))) (exFun_holds rfl rfl (exRat_ok rfl (by decide) (by decide))) (exW_pos 0) (fun _ _ => rfl) (fun _ _ => rfl) (exSmooth (L := 3) (c := 0) (fun x => by ex_field) (fun x => rfl) (by norm_num [F.centre, exW, ex0]) (by norm_num [F.centre, exW, ex0]))

/-- 1D, diffusion operator with constant reaction: if the field is sampled from a smooth function and the coefficients are sampled from smooth functions, the result is the differential operator applied to the function, up to the square of the mesh widths. -/
theorem C71_v2_1d {i0 i1 gcw rgcw : Int} {alpha beta : ℝ} {dx : Nat → ℝ} {u b0 f0 res : Ptr} {β1 β2 : Nat → Backend} {m : Mem ℝ} {U : List Int → ℝ} {o : Nat → ℝ} {φ κ0 : ℝ → ℝ} {C0 : ℝ}
    (hβ1 : ∀ n, ValidBackend (β1 n)) (hβ2 : ∀ n, ValidBackend (β2 n)) (hi : i0 ≤ i1) (hg : 1 ≤ gcw) (hrgcw : 0 ≤ rgcw)
    (h : F.Args m [(F.cell1d u i0 i1 gcw), (F.face1d b0 i0 i1 0)] [(F.face1d f0 i0 i1 0), (F.cell1d res i0 i1 rgcw)])
    (hr : F.Apart (F.cell1d res i0 i1 rgcw) (F.face1d f0 i0 i1 0)) (hB0 : F.Holds m (F.face1d b0 i0 i1 0) (F.faces1 o dx κ0)) (hU : F.Holds m (F.cell1d u i0 i1 gcw) U)
    (hd0 : 0 < dx 0) (hUφ : ∀ p, F.InBounds [(i0 - 1, i1 + 1)] p → U p = F.cells1 o dx φ p)
    (s0 : F.SmoothFlux (fun s => φ s) (fun s => κ0 s) (F.centre (o 0) (dx 0) (i0 - 1)) (F.centre (o 0) (dx 0) (i1 + 1)) C0) :
    ∃ m1 m2, ∃ R : List Int → ℝ, Cuda.flux1d i0 i1 dx b0 gcw u f0 β1 m = .ok m1 ∧ Cuda.diffusionV2Apply1d i0 i1 alpha beta dx gcw u f0 rgcw res β2 m1 = .ok m2 ∧
      (∀ p, F.InBounds [(i0, i1)] p → F.El m2 (F.cell1d res i0 i1 rgcw) p (R p)) ∧
      ∀ i, i0 ≤ i → i ≤ i1 → |R [i] - F.diffusion1 alpha beta (fun _ => 1) κ0 φ (F.centre (o 0) (dx 0) i)| ≤ |beta| * (C0 * dx 0 ^ 2) / 24 := by
  obtain ⟨m1, m2, R, c1, c2, e, hR⟩ := energy_v2_1 (alpha := alpha) (beta := beta) (dx := dx) hβ1 hβ2 hi hg hrgcw h hr hB0 hU
  refine ⟨m1, m2, R, c1, c2, e, fun i h0 h1 => ?_⟩
  rw [hR i h0 h1]
  exact F.near_diffusion1 (beta := beta) (q := fun _ => 1) (A := fun _ => 1) (alpha := alpha) hd0 hUφ (fun _ _ => rfl) s0 i h0 h1

example : ∃ m1 m2, ∃ R : List Int → ℝ, Cuda.flux1d 0 3 exW ⟨2, 0⟩ 2 ⟨1, 0⟩ ⟨5, 0⟩ (fun _ => revBackend) (exFun (exG1 (F.cells1 ex0 exW exφ1))) = .ok m1 ∧ Cuda.diffusionV2Apply1d 0 3 3 2 exW 2 ⟨1, 0⟩ ⟨5, 0⟩ 1 ⟨8, 0⟩ (fun _ => seqBackend) m1 = .ok m2 ∧
      (∀ p, F.InBounds [(0, 3)] p → F.El m2 (F.cell1d ⟨8, 0⟩ 0 3 1) p (R p)) ∧
      ∀ i, 0 ≤ i → i ≤ 3 → |R [i] - F.diffusion1 3 2 (fun _ => 1) exk10 exφ1 (F.centre (ex0 0) (exW 0) i)| ≤ |(2 : ℝ)| * ((48 + 312 * 3 ^ 2) * exW 0 ^ 2) / 24 :=
  C71_v2_1d (fun _ => revBackend_ok) (fun _ => seqBackend_ok) (by decide) (by decide) (by decide) (exFun_args (by ex_args)) (apart_blk (by decide)) (exFun_holds rfl rfl (exRat_ok rfl (by decide) (by decide))) (exFun_holds rfl rfl (exRat_ok rfl (by decide) (by decide))) (exW_pos 0) (fun _ _ => rfl) (exSmooth (L := 3) (c := 0) (fun x => by ex_field) (fun x => rfl) (by norm_num [F.centre, exW, ex0]) (by norm_num [F.centre, exW, ex0]))

/-- 1D, Poisson operator: if the field is sampled from a smooth function, the result is `-beta` times the sum of the second derivatives of the function, up to the square of the mesh widths. -/
theorem C71_poisson_1d {i0 i1 gcw rgcw : Int} {beta : ℝ} {dx : Nat → ℝ} {u f0 res : Ptr} {β1 β2 : Nat → Backend} {m : Mem ℝ} {U : List Int → ℝ} {o : Nat → ℝ} {φ : ℝ → ℝ} {C0 : ℝ}
    (hβ1 : ∀ n, ValidBackend (β1 n)) (hβ2 : ∀ n, ValidBackend (β2 n)) (hi : i0 ≤ i1) (hg : 1 ≤ gcw) (hrgcw : 0 ≤ rgcw)
    (h : F.Args m [(F.cell1d u i0 i1 gcw)] [(F.face1d f0 i0 i1 0), (F.cell1d res i0 i1 rgcw)])
    (hr : F.Apart (F.cell1d res i0 i1 rgcw) (F.face1d f0 i0 i1 0)) (hU : F.Holds m (F.cell1d u i0 i1 gcw) U)
    (hd0 : 0 < dx 0) (hUφ : ∀ p, F.InBounds [(i0 - 1, i1 + 1)] p → U p = F.cells1 o dx φ p)
    (s0 : F.SmoothField (fun s => φ s) (F.centre (o 0) (dx 0) (i0 - 1)) (F.centre (o 0) (dx 0) (i1 + 1)) C0) :
    ∃ m1 m2, ∃ R : List Int → ℝ, Cuda.poissonFlux1d i0 i1 dx gcw u f0 β1 m = .ok m1 ∧ Cuda.poissonV2Apply1d i0 i1 beta dx f0 rgcw res β2 m1 = .ok m2 ∧
      (∀ p, F.InBounds [(i0, i1)] p → F.El m2 (F.cell1d res i0 i1 rgcw) p (R p)) ∧
      ∀ i, i0 ≤ i → i ≤ i1 → |R [i] - -(beta * iteratedDeriv 2 φ (F.centre (o 0) (dx 0) i))| ≤ |beta| * (C0 * dx 0 ^ 2) / 12 := by
  obtain ⟨m1, m2, R, c1, c2, e, hR⟩ := energy_p_1 (beta := beta) (dx := dx) hβ1 hβ2 hi hg hrgcw h hr hU
  refine ⟨m1, m2, R, c1, c2, e, fun i h0 h1 => ?_⟩
  rw [hR i h0 h1]
  exact F.near_laplace1 (beta := beta) hd0 hUφ s0 i h0 h1

example : ∃ m1 m2, ∃ R : List Int → ℝ, Cuda.poissonFlux1d 0 3 exW 2 ⟨1, 0⟩ ⟨5, 0⟩ (fun _ => revBackend) (exFun (exG1 (F.cells1 ex0 exW exφ1))) = .ok m1 ∧ Cuda.poissonV2Apply1d 0 3 2 exW ⟨5, 0⟩ 1 ⟨8, 0⟩ (fun _ => seqBackend) m1 = .ok m2 ∧
      (∀ p, F.InBounds [(0, 3)] p → F.El m2 (F.cell1d ⟨8, 0⟩ 0 3 1) p (R p)) ∧
      ∀ i, 0 ≤ i → i ≤ 3 → |R [i] - -(2 * iteratedDeriv 2 exφ1 (F.centre (ex0 0) (exW 0) i))| ≤ |(2 : ℝ)| * (24 * exW 0 ^ 2) / 12 :=
  C71_poisson_1d (fun _ => revBackend_ok) (fun _ => seqBackend_ok) (by decide) (by decide) (by decide) (exFun_args (by ex_args)) (apart_blk (by decide)) (exFun_holds rfl rfl (exRat_ok rfl (by decide) (by decide))) (exW_pos 0) (fun _ _ => rfl) (exSmoothF (c := 0) fun x => by ex_field)

/-- 2D, diffusion operator with cell coefficients: if the field is sampled from a smooth function and the coefficients are sampled from smooth functions, the result is the differential operator applied to the function, up to the square of the mesh widths. -/
theorem C71_v1_2d {i0 j0 i1 j1 agcw gcw rgcw : Int} {alpha beta : ℝ} {dx : Nat → ℝ} {a u b0 b1 f0 f1 res : Ptr} {β1 β2 : Nat → Backend} {m : Mem ℝ} {A U : List Int → ℝ} {o : Nat → ℝ} {φ q κ0 κ1 : ℝ → ℝ → ℝ} {C0 C1 : ℝ}
    (hβ1 : ∀ n, ValidBackend (β1 n)) (hβ2 : ∀ n, ValidBackend (β2 n)) (hi : i0 ≤ i1) (hj : j0 ≤ j1) (hg : 1 ≤ gcw) (hagcw : 0 ≤ agcw) (hrgcw : 0 ≤ rgcw)
    (h : F.Args m [(F.cell2d a i0 j0 i1 j1 agcw), (F.cell2d u i0 j0 i1 j1 gcw), (F.face2d0 b0 i0 j0 i1 j1 0), (F.face2d1 b1 i0 j0 i1 j1 0)] [(F.face2d0 f0 i0 j0 i1 j1 0), (F.face2d1 f1 i0 j0 i1 j1 0), (F.cell2d res i0 j0 i1 j1 rgcw)])
    (hp : F.Apart (F.face2d0 f0 i0 j0 i1 j1 0) (F.face2d1 f1 i0 j0 i1 j1 0))
    (hr : F.Apart (F.cell2d res i0 j0 i1 j1 rgcw) (F.face2d0 f0 i0 j0 i1 j1 0) ∧ F.Apart (F.cell2d res i0 j0 i1 j1 rgcw) (F.face2d1 f1 i0 j0 i1 j1 0)) (hA : F.Holds m (F.cell2d a i0 j0 i1 j1 agcw) A) (hB0 : F.Holds m (F.face2d0 b0 i0 j0 i1 j1 0) (F.faces20 o dx κ0)) (hB1 : F.Holds m (F.face2d1 b1 i0 j0 i1 j1 0) (F.faces21 o dx κ1)) (hU : F.Holds m (F.cell2d u i0 j0 i1 j1 gcw) U)
    (hd0 : 0 < dx 0) (hd1 : 0 < dx 1) (hUφ : ∀ p, F.InBounds [(i0 - 1, i1 + 1), (j0 - 1, j1 + 1)] p → U p = F.cells2 o dx φ p) (hAq : ∀ p, F.InBounds [(i0, i1), (j0, j1)] p → A p = F.cells2 o dx q p)
    (s0 : ∀ j, j0 ≤ j → j ≤ j1 → F.SmoothFlux (fun s => φ s (F.centre (o 1) (dx 1) j)) (fun s => κ0 s (F.centre (o 1) (dx 1) j)) (F.centre (o 0) (dx 0) (i0 - 1)) (F.centre (o 0) (dx 0) (i1 + 1)) C0) (s1 : ∀ i, i0 ≤ i → i ≤ i1 → F.SmoothFlux (fun s => φ (F.centre (o 0) (dx 0) i) s) (fun s => κ1 (F.centre (o 0) (dx 0) i) s) (F.centre (o 1) (dx 1) (j0 - 1)) (F.centre (o 1) (dx 1) (j1 + 1)) C1) :
    ∃ m1 m2, ∃ R : List Int → ℝ, Cuda.flux2d i0 j0 i1 j1 dx b0 b1 gcw u f0 f1 β1 m = .ok m1 ∧ Cuda.diffusionV1Apply2d i0 i1 j0 j1 alpha beta dx agcw a gcw u f0 f1 rgcw res β2 m1 = .ok m2 ∧
      (∀ p, F.InBounds [(i0, i1), (j0, j1)] p → F.El m2 (F.cell2d res i0 j0 i1 j1 rgcw) p (R p)) ∧
      ∀ i j, i0 ≤ i → i ≤ i1 → j0 ≤ j → j ≤ j1 → |R [i, j] - F.diffusion2 alpha beta q κ0 κ1 φ (F.centre (o 0) (dx 0) i) (F.centre (o 1) (dx 1) j)| ≤ |beta| * (C0 * dx 0 ^ 2 + C1 * dx 1 ^ 2) / 24 := by
  obtain ⟨m1, m2, R, c1, c2, e, hR⟩ := energy_v1_2 (alpha := alpha) (beta := beta) (dx := dx) hβ1 hβ2 hi hj hg hagcw hrgcw h hp hr hA hB0 hB1 hU
  refine ⟨m1, m2, R, c1, c2, e, fun i j h0 h1 h2 h3 => ?_⟩
  rw [hR i j h0 h1 h2 h3]
  exact F.near_diffusion2 (beta := beta) (q := q) (alpha := alpha) hd0 hd1 hUφ hAq s0 s1 i j h0 h1 h2 h3

example : ∃ m1 m2, ∃ R : List Int → ℝ, Cuda.flux2d 0 1 2 3 exW ⟨2, 0⟩ ⟨3, 0⟩ 2 ⟨1, 0⟩ ⟨5, 0⟩ ⟨6, 0⟩ (fun _ => revBackend) (exFun (exG2 (F.cells2 ex0 exW exφ2))) = .ok m1 ∧ Cuda.diffusionV1Apply2d 0 2 1 3 3 2 exW 1 ⟨0, 0⟩ 2 ⟨1, 0⟩ ⟨5, 0⟩ ⟨6, 0⟩ 1 ⟨8, 0⟩ (fun _ => seqBackend) m1 = .ok m2 ∧
      (∀ p, F.InBounds [(0, 2), (1, 3)] p → F.El m2 (F.cell2d ⟨8, 0⟩ 0 1 2 3 1) p (R p)) ∧
      ∀ i j, 0 ≤ i → i ≤ 2 → 1 ≤ j → j ≤ 3 → |R [i, j] - F.diffusion2 3 2 exq2 exk20 exk21 exφ2 (F.centre (ex0 0) (exW 0) i) (F.centre (ex0 1) (exW 1) j)| ≤ |(2 : ℝ)| * ((48 + 312 * 3 ^ 2) * exW 0 ^ 2 + (48 + 312 * 7 ^ 2) * exW 1 ^ 2) / 24 :=
  C71_v1_2d (fun _ => revBackend_ok) (fun _ => seqBackend_ok) (by decide) (by decide) (by decide) (by decide) (by decide) (exFun_args (by ex_args)) (apart_blk (by decide)) ⟨apart_blk (by decide), apart_blk (by decide)⟩ (exFun_holds rfl rfl (exRat_ok rfl (by decide) (by decide))) (exFun_holds rfl rfl (exRat_ok rfl (by decide) (by decide))) (exFun_holds rfl rfl (exRat_ok rfl (by decide) (by decide))) (exFun_holds rfl rfl (exRat_ok rfl (by decide) (by decide))) (exW_pos 0) (exW_pos 1) (fun _ _ => rfl) (fun _ _ => rfl) (fun j _ _ => exSmooth (L := 3) (c := (F.centre (ex0 1) (exW 1) j) ^ 4) (fun x => by ex_field) (fun x => rfl) (by norm_num [F.centre, exW, ex0]) (by norm_num [F.centre, exW, ex0])) (fun i _ _ => exSmooth (L := 7) (c := (F.centre (ex0 0) (exW 0) i) ^ 4) (fun x => by ex_field) (fun x => rfl) (by norm_num [F.centre, exW, ex0]) (by norm_num [F.centre, exW, ex0]))

/-- 2D, diffusion operator with constant reaction: if the field is sampled from a smooth function and the coefficients are sampled from smooth functions, the result is the differential operator applied to the function, up to the square of the mesh widths. -/
theorem C71_v2_2d {i0 j0 i1 j1 gcw rgcw : Int} {alpha beta : ℝ} {dx : Nat → ℝ} {u b0 b1 f0 f1 res : Ptr} {β1 β2 : Nat → Backend} {m : Mem ℝ} {U : List Int → ℝ} {o : Nat → ℝ} {φ κ0 κ1 : ℝ → ℝ → ℝ} {C0 C1 : ℝ}
    (hβ1 : ∀ n, ValidBackend (β1 n)) (hβ2 : ∀ n, ValidBackend (β2 n)) (hi : i0 ≤ i1) (hj : j0 ≤ j1) (hg : 1 ≤ gcw) (hrgcw : 0 ≤ rgcw)
    (h : F.Args m [(F.cell2d u i0 j0 i1 j1 gcw), (F.face2d0 b0 i0 j0 i1 j1 0), (F.face2d1 b1 i0 j0 i1 j1 0)] [(F.face2d0 f0 i0 j0 i1 j1 0), (F.face2d1 f1 i0 j0 i1 j1 0), (F.cell2d res i0 j0 i1 j1 rgcw)])
    (hp : F.Apart (F.face2d0 f0 i0 j0 i1 j1 0) (F.face2d1 f1 i0 j0 i1 j1 0))
    (hr : F.Apart (F.cell2d res i0 j0 i1 j1 rgcw) (F.face2d0 f0 i0 j0 i1 j1 0) ∧ F.Apart (F.cell2d res i0 j0 i1 j1 rgcw) (F.face2d1 f1 i0 j0 i1 j1 0)) (hB0 : F.Holds m (F.face2d0 b0 i0 j0 i1 j1 0) (F.faces20 o dx κ0)) (hB1 : F.Holds m (F.face2d1 b1 i0 j0 i1 j1 0) (F.faces21 o dx κ1)) (hU : F.Holds m (F.cell2d u i0 j0 i1 j1 gcw) U)
    (hd0 : 0 < dx 0) (hd1 : 0 < dx 1) (hUφ : ∀ p, F.InBounds [(i0 - 1, i1 + 1), (j0 - 1, j1 + 1)] p → U p = F.cells2 o dx φ p)
    (s0 : ∀ j, j0 ≤ j → j ≤ j1 → F.SmoothFlux (fun s => φ s (F.centre (o 1) (dx 1) j)) (fun s => κ0 s (F.centre (o 1) (dx 1) j)) (F.centre (o 0) (dx 0) (i0 - 1)) (F.centre (o 0) (dx 0) (i1 + 1)) C0) (s1 : ∀ i, i0 ≤ i → i ≤ i1 → F.SmoothFlux (fun s => φ (F.centre (o 0) (dx 0) i) s) (fun s => κ1 (F.centre (o 0) (dx 0) i) s) (F.centre (o 1) (dx 1) (j0 - 1)) (F.centre (o 1) (dx 1) (j1 + 1)) C1) :
    ∃ m1 m2, ∃ R : List Int → ℝ, Cuda.flux2d i0 j0 i1 j1 dx b0 b1 gcw u f0 f1 β1 m = .ok m1 ∧ Cuda.diffusionV2Apply2d i0 i1 j0 j1 alpha beta dx gcw u f0 f1 rgcw res β2 m1 = .ok m2 ∧
      (∀ p, F.InBounds [(i0, i1), (j0, j1)] p → F.El m2 (F.cell2d res i0 j0 i1 j1 rgcw) p (R p)) ∧
      ∀ i j, i0 ≤ i → i ≤ i1 → j0 ≤ j → j ≤ j1 → |R [i, j] - F.diffusion2 alpha beta (fun _ _ => 1) κ0 κ1 φ (F.centre (o 0) (dx 0) i) (F.centre (o 1) (dx 1) j)| ≤ |beta| * (C0 * dx 0 ^ 2 + C1 * dx 1 ^ 2) / 24 := by
  obtain ⟨m1, m2, R, c1, c2, e, hR⟩ := energy_v2_2 (alpha := alpha) (beta := beta) (dx := dx) hβ1 hβ2 hi hj hg hrgcw h hp hr hB0 hB1 hU
  refine ⟨m1, m2, R, c1, c2, e, fun i j h0 h1 h2 h3 => ?_⟩
  rw [hR i j h0 h1 h2 h3]
  exact F.near_diffusion2 (beta := beta) (q := fun _ _ => 1) (A := fun _ => 1) (alpha := alpha) hd0 hd1 hUφ (fun _ _ => rfl) s0 s1 i j h0 h1 h2 h3

example : ∃ m1 m2, ∃ R : List Int → ℝ, Cuda.flux2d 0 1 2 3 exW ⟨2, 0⟩ ⟨3, 0⟩ 2 ⟨1, 0⟩ ⟨5, 0⟩ ⟨6, 0⟩ (fun _ => revBackend) (exFun (exG2 (F.cells2 ex0 exW exφ2))) = .ok m1 ∧ Cuda.diffusionV2Apply2d 0 2 1 3 3 2 exW 2 ⟨1, 0⟩ ⟨5, 0⟩ ⟨6, 0⟩ 1 ⟨8, 0⟩ (fun _ => seqBackend) m1 = .ok m2 ∧
      (∀ p, F.InBounds [(0, 2), (1, 3)] p → F.El m2 (F.cell2d ⟨8, 0⟩ 0 1 2 3 1) p (R p)) ∧
      ∀ i j, 0 ≤ i → i ≤ 2 → 1 ≤ j → j ≤ 3 → |R [i, j] - F.diffusion2 3 2 (fun _ _ => 1) exk20 exk21 exφ2 (F.centre (ex0 0) (exW 0) i) (F.centre (ex0 1) (exW 1) j)| ≤ |(2 : ℝ)| * ((48 + 312 * 3 ^ 2) * exW 0 ^ 2 + (48 + 312 * 7 ^ 2) * exW 1 ^ 2) / 24 :=
  C71_v2_2d (fun _ => revBackend_ok) (fun _ => seqBackend_ok) (by decide) (by decide) (by decide) (by decide) (exFun_args (by ex_args)) (apart_blk (by decide)) ⟨apart_blk (by decide), apart_blk (by decide)⟩ (exFun_holds rfl rfl (exRat_ok rfl (by decide) (by decide))) (exFun_holds rfl rfl (exRat_ok rfl (by decide) (by decide))) (exFun_holds rfl rfl (exRat_ok rfl (by decide) (by decide))) (exW_pos 0) (exW_pos 1) (fun _ _ => rfl) (fun j _ _ => exSmooth (L := 3) (c := (F.centre (ex0 1) (exW 1) j) ^ 4) (fun x => by ex_field) (fun x => rfl) (by norm_num [F.centre, exW, ex0]) (by norm_num [F.centre, exW, ex0])) (fun i _ _ => exSmooth (L := 7) (c := (F.centre (ex0 0) (exW 0) i) ^ 4) (fun x => by ex_field) (fun x => rfl) (by norm_num [F.centre, exW, ex0]) (by norm_num [F.centre, exW, ex0]))

/-- 2D, Poisson operator: if the field is sampled from a smooth function, the result is `-beta` times the sum of the second derivatives of the function, up to the square of the mesh widths. -/
theorem C71_poisson_2d {i0 j0 i1 j1 gcw rgcw : Int} {beta : ℝ} {dx : Nat → ℝ} {u f0 f1 res : Ptr} {β1 β2 : Nat → Backend} {m : Mem ℝ} {U : List Int → ℝ} {o : Nat → ℝ} {φ : ℝ → ℝ → ℝ} {C0 C1 : ℝ}
    (hβ1 : ∀ n, ValidBackend (β1 n)) (hβ2 : ∀ n, ValidBackend (β2 n)) (hi : i0 ≤ i1) (hj : j0 ≤ j1) (hg : 1 ≤ gcw) (hrgcw : 0 ≤ rgcw)
    (h : F.Args m [(F.cell2d u i0 j0 i1 j1 gcw)] [(F.face2d0 f0 i0 j0 i1 j1 0), (F.face2d1 f1 i0 j0 i1 j1 0), (F.cell2d res i0 j0 i1 j1 rgcw)])
    (hp : F.Apart (F.face2d0 f0 i0 j0 i1 j1 0) (F.face2d1 f1 i0 j0 i1 j1 0))
    (hr : F.Apart (F.cell2d res i0 j0 i1 j1 rgcw) (F.face2d0 f0 i0 j0 i1 j1 0) ∧ F.Apart (F.cell2d res i0 j0 i1 j1 rgcw) (F.face2d1 f1 i0 j0 i1 j1 0)) (hU : F.Holds m (F.cell2d u i0 j0 i1 j1 gcw) U)
    (hd0 : 0 < dx 0) (hd1 : 0 < dx 1) (hUφ : ∀ p, F.InBounds [(i0 - 1, i1 + 1), (j0 - 1, j1 + 1)] p → U p = F.cells2 o dx φ p)
    (s0 : ∀ j, j0 ≤ j → j ≤ j1 → F.SmoothField (fun s => φ s (F.centre (o 1) (dx 1) j)) (F.centre (o 0) (dx 0) (i0 - 1)) (F.centre (o 0) (dx 0) (i1 + 1)) C0) (s1 : ∀ i, i0 ≤ i → i ≤ i1 → F.SmoothField (fun s => φ (F.centre (o 0) (dx 0) i) s) (F.centre (o 1) (dx 1) (j0 - 1)) (F.centre (o 1) (dx 1) (j1 + 1)) C1) :
    ∃ m1 m2, ∃ R : List Int → ℝ, Cuda.poissonFlux2d i0 j0 i1 j1 dx gcw u f0 f1 β1 m = .ok m1 ∧ Cuda.poissonV2Apply2d i0 i1 j0 j1 beta dx f0 f1 rgcw res β2 m1 = .ok m2 ∧
      (∀ p, F.InBounds [(i0, i1), (j0, j1)] p → F.El m2 (F.cell2d res i0 j0 i1 j1 rgcw) p (R p)) ∧
      ∀ i j, i0 ≤ i → i ≤ i1 → j0 ≤ j → j ≤ j1 → |R [i, j] - -(beta * F.laplace2 φ (F.centre (o 0) (dx 0) i) (F.centre (o 1) (dx 1) j))| ≤ |beta| * (C0 * dx 0 ^ 2 + C1 * dx 1 ^ 2) / 12 := by
  obtain ⟨m1, m2, R, c1, c2, e, hR⟩ := energy_p_2 (beta := beta) (dx := dx) hβ1 hβ2 hi hj hg hrgcw h hp hr hU
  refine ⟨m1, m2, R, c1, c2, e, fun i j h0 h1 h2 h3 => ?_⟩
  rw [hR i j h0 h1 h2 h3]
  exact F.near_laplace2 (beta := beta) hd0 hd1 hUφ s0 s1 i j h0 h1 h2 h3

example : ∃ m1 m2, ∃ R : List Int → ℝ, Cuda.poissonFlux2d 0 1 2 3 exW 2 ⟨1, 0⟩ ⟨5, 0⟩ ⟨6, 0⟩ (fun _ => revBackend) (exFun (exG2 (F.cells2 ex0 exW exφ2))) = .ok m1 ∧ Cuda.poissonV2Apply2d 0 2 1 3 2 exW ⟨5, 0⟩ ⟨6, 0⟩ 1 ⟨8, 0⟩ (fun _ => seqBackend) m1 = .ok m2 ∧
      (∀ p, F.InBounds [(0, 2), (1, 3)] p → F.El m2 (F.cell2d ⟨8, 0⟩ 0 1 2 3 1) p (R p)) ∧
      ∀ i j, 0 ≤ i → i ≤ 2 → 1 ≤ j → j ≤ 3 → |R [i, j] - -(2 * F.laplace2 exφ2 (F.centre (ex0 0) (exW 0) i) (F.centre (ex0 1) (exW 1) j))| ≤ |(2 : ℝ)| * (24 * exW 0 ^ 2 + 24 * exW 1 ^ 2) / 12 :=
  C71_poisson_2d (fun _ => revBackend_ok) (fun _ => seqBackend_ok) (by decide) (by decide) (by decide) (by decide) (exFun_args (by ex_args)) (apart_blk (by decide)) ⟨apart_blk (by decide), apart_blk (by decide)⟩ (exFun_holds rfl rfl (exRat_ok rfl (by decide) (by decide))) (exW_pos 0) (exW_pos 1) (fun _ _ => rfl) (fun j _ _ => exSmoothF (c := (F.centre (ex0 1) (exW 1) j) ^ 4) fun x => by ex_field) (fun i _ _ => exSmoothF (c := (F.centre (ex0 0) (exW 0) i) ^ 4) fun x => by ex_field)

/-- 3D, diffusion operator with cell coefficients: if the field is sampled from a smooth function and the coefficients are sampled from smooth functions, the result is the differential operator applied to the function, up to the square of the mesh widths. -/
theorem C71_v1_3d {i0 j0 k0 i1 j1 k1 agcw gcw rgcw : Int} {alpha beta : ℝ} {dx : Nat → ℝ} {a u b0 b1 b2 f0 f1 f2 res : Ptr} {β1 β2 : Nat → Backend} {m : Mem ℝ} {A U : List Int → ℝ} {o : Nat → ℝ} {φ q κ0 κ1 κ2 : ℝ → ℝ → ℝ → ℝ} {C0 C1 C2 : ℝ}
    (hβ1 : ∀ n, ValidBackend (β1 n)) (hβ2 : ∀ n, ValidBackend (β2 n)) (hi : i0 ≤ i1) (hj : j0 ≤ j1) (hk : k0 ≤ k1) (hg : 1 ≤ gcw) (hagcw : 0 ≤ agcw) (hrgcw : 0 ≤ rgcw)
    (h : F.Args m [(F.cell3d a i0 j0 k0 i1 j1 k1 agcw), (F.cell3d u i0 j0 k0 i1 j1 k1 gcw), (F.face3d0 b0 i0 j0 k0 i1 j1 k1 0), (F.face3d1 b1 i0 j0 k0 i1 j1 k1 0), (F.face3d2 b2 i0 j0 k0 i1 j1 k1 0)] [(F.face3d0 f0 i0 j0 k0 i1 j1 k1 0), (F.face3d1 f1 i0 j0 k0 i1 j1 k1 0), (F.face3d2 f2 i0 j0 k0 i1 j1 k1 0), (F.cell3d res i0 j0 k0 i1 j1 k1 rgcw)])
    (hp : F.Apart (F.face3d0 f0 i0 j0 k0 i1 j1 k1 0) (F.face3d1 f1 i0 j0 k0 i1 j1 k1 0) ∧ F.Apart (F.face3d0 f0 i0 j0 k0 i1 j1 k1 0) (F.face3d2 f2 i0 j0 k0 i1 j1 k1 0) ∧ F.Apart (F.face3d1 f1 i0 j0 k0 i1 j1 k1 0) (F.face3d2 f2 i0 j0 k0 i1 j1 k1 0))
    (hr : F.Apart (F.cell3d res i0 j0 k0 i1 j1 k1 rgcw) (F.face3d0 f0 i0 j0 k0 i1 j1 k1 0) ∧ F.Apart (F.cell3d res i0 j0 k0 i1 j1 k1 rgcw) (F.face3d1 f1 i0 j0 k0 i1 j1 k1 0) ∧ F.Apart (F.cell3d res i0 j0 k0 i1 j1 k1 rgcw) (F.face3d2 f2 i0 j0 k0 i1 j1 k1 0)) (hA : F.Holds m (F.cell3d a i0 j0 k0 i1 j1 k1 agcw) A) (hB0 : F.Holds m (F.face3d0 b0 i0 j0 k0 i1 j1 k1 0) (F.faces30 o dx κ0)) (hB1 : F.Holds m (F.face3d1 b1 i0 j0 k0 i1 j1 k1 0) (F.faces31 o dx κ1)) (hB2 : F.Holds m (F.face3d2 b2 i0 j0 k0 i1 j1 k1 0) (F.faces32 o dx κ2)) (hU : F.Holds m (F.cell3d u i0 j0 k0 i1 j1 k1 gcw) U)
    (hd0 : 0 < dx 0) (hd1 : 0 < dx 1) (hd2 : 0 < dx 2) (hUφ : ∀ p, F.InBounds [(i0 - 1, i1 + 1), (j0 - 1, j1 + 1), (k0 - 1, k1 + 1)] p → U p = F.cells3 o dx φ p) (hAq : ∀ p, F.InBounds [(i0, i1), (j0, j1), (k0, k1)] p → A p = F.cells3 o dx q p)
    (s0 : ∀ j k, j0 ≤ j → j ≤ j1 → k0 ≤ k → k ≤ k1 → F.SmoothFlux (fun s => φ s (F.centre (o 1) (dx 1) j) (F.centre (o 2) (dx 2) k)) (fun s => κ0 s (F.centre (o 1) (dx 1) j) (F.centre (o 2) (dx 2) k)) (F.centre (o 0) (dx 0) (i0 - 1)) (F.centre (o 0) (dx 0) (i1 + 1)) C0) (s1 : ∀ i k, i0 ≤ i → i ≤ i1 → k0 ≤ k → k ≤ k1 → F.SmoothFlux (fun s => φ (F.centre (o 0) (dx 0) i) s (F.centre (o 2) (dx 2) k)) (fun s => κ1 (F.centre (o 0) (dx 0) i) s (F.centre (o 2) (dx 2) k)) (F.centre (o 1) (dx 1) (j0 - 1)) (F.centre (o 1) (dx 1) (j1 + 1)) C1) (s2 : ∀ i j, i0 ≤ i → i ≤ i1 → j0 ≤ j → j ≤ j1 → F.SmoothFlux (fun s => φ (F.centre (o 0) (dx 0) i) (F.centre (o 1) (dx 1) j) s) (fun s => κ2 (F.centre (o 0) (dx 0) i) (F.centre (o 1) (dx 1) j) s) (F.centre (o 2) (dx 2) (k0 - 1)) (F.centre (o 2) (dx 2) (k1 + 1)) C2) :
    ∃ m1 m2, ∃ R : List Int → ℝ, Cuda.flux3d i0 j0 k0 i1 j1 k1 dx b0 b1 b2 gcw u f0 f1 f2 β1 m = .ok m1 ∧ Cuda.diffusionV1Apply3d i0 i1 j0 j1 k0 k1 alpha beta dx agcw a gcw u f0 f1 f2 rgcw res β2 m1 = .ok m2 ∧
      (∀ p, F.InBounds [(i0, i1), (j0, j1), (k0, k1)] p → F.El m2 (F.cell3d res i0 j0 k0 i1 j1 k1 rgcw) p (R p)) ∧
      ∀ i j k, i0 ≤ i → i ≤ i1 → j0 ≤ j → j ≤ j1 → k0 ≤ k → k ≤ k1 → |R [i, j, k] - F.diffusion3 alpha beta q κ0 κ1 κ2 φ (F.centre (o 0) (dx 0) i) (F.centre (o 1) (dx 1) j) (F.centre (o 2) (dx 2) k)| ≤ |beta| * (C0 * dx 0 ^ 2 + C1 * dx 1 ^ 2 + C2 * dx 2 ^ 2) / 24 := by
  obtain ⟨m1, m2, R, c1, c2, e, hR⟩ := energy_v1_3 (alpha := alpha) (beta := beta) (dx := dx) hβ1 hβ2 hi hj hk hg hagcw hrgcw h hp hr hA hB0 hB1 hB2 hU
  refine ⟨m1, m2, R, c1, c2, e, fun i j k h0 h1 h2 h3 h4 h5 => ?_⟩
  rw [hR i j k h0 h1 h2 h3 h4 h5]
  exact F.near_diffusion3 (beta := beta) (q := q) (alpha := alpha) hd0 hd1 hd2 hUφ hAq s0 s1 s2 i j k h0 h1 h2 h3 h4 h5

example : ∃ m1 m2, ∃ R : List Int → ℝ, Cuda.flux3d 0 1 2 1 2 3 exW ⟨2, 0⟩ ⟨3, 0⟩ ⟨4, 0⟩ 2 ⟨1, 0⟩ ⟨5, 0⟩ ⟨6, 0⟩ ⟨7, 0⟩ (fun _ => revBackend) (exFun (exG3 (F.cells3 ex0 exW exφ3))) = .ok m1 ∧ Cuda.diffusionV1Apply3d 0 1 1 2 2 3 3 2 exW 1 ⟨0, 0⟩ 2 ⟨1, 0⟩ ⟨5, 0⟩ ⟨6, 0⟩ ⟨7, 0⟩ 1 ⟨8, 0⟩ (fun _ => seqBackend) m1 = .ok m2 ∧
      (∀ p, F.InBounds [(0, 1), (1, 2), (2, 3)] p → F.El m2 (F.cell3d ⟨8, 0⟩ 0 1 2 1 2 3 1) p (R p)) ∧
      ∀ i j k, 0 ≤ i → i ≤ 1 → 1 ≤ j → j ≤ 2 → 2 ≤ k → k ≤ 3 → |R [i, j, k] - F.diffusion3 3 2 exq3 exk30 exk31 exk32 exφ3 (F.centre (ex0 0) (exW 0) i) (F.centre (ex0 1) (exW 1) j) (F.centre (ex0 2) (exW 2) k)| ≤ |(2 : ℝ)| * ((48 + 312 * 3 ^ 2) * exW 0 ^ 2 + (48 + 312 * 7 ^ 2) * exW 1 ^ 2 + (48 + 312 * 12 ^ 2) * exW 2 ^ 2) / 24 :=
  C71_v1_3d (fun _ => revBackend_ok) (fun _ => seqBackend_ok) (by decide) (by decide) (by decide) (by decide) (by decide) (by decide) (exFun_args (by ex_args)) ⟨apart_blk (by decide), apart_blk (by decide), apart_blk (by decide)⟩ ⟨apart_blk (by decide), apart_blk (by decide), apart_blk (by decide)⟩ (exFun_holds rfl rfl (exRat_ok rfl (by decide) (by decide))) (exFun_holds rfl rfl (exRat_ok rfl (by decide) (by decide))) (exFun_holds rfl rfl (exRat_ok rfl (by decide) (by decide))) (exFun_holds rfl rfl (exRat_ok rfl (by decide) (by decide))) (exFun_holds rfl rfl (exRat_ok rfl (by decide) (by decide))) (exW_pos 0) (exW_pos 1) (exW_pos 2) (fun _ _ => rfl) (fun _ _ => rfl) (fun j k _ _ _ _ => exSmooth (L := 3) (c := (F.centre (ex0 1) (exW 1) j) ^ 4 + (F.centre (ex0 2) (exW 2) k) ^ 4) (fun x => by ex_field) (fun x => rfl) (by norm_num [F.centre, exW, ex0]) (by norm_num [F.centre, exW, ex0])) (fun i k _ _ _ _ => exSmooth (L := 7) (c := (F.centre (ex0 0) (exW 0) i) ^ 4 + (F.centre (ex0 2) (exW 2) k) ^ 4) (fun x => by ex_field) (fun x => rfl) (by norm_num [F.centre, exW, ex0]) (by norm_num [F.centre, exW, ex0])) (fun i j _ _ _ _ => exSmooth (L := 12) (c := (F.centre (ex0 0) (exW 0) i) ^ 4 + (F.centre (ex0 1) (exW 1) j) ^ 4) (fun x => by ex_field) (fun x => rfl) (by norm_num [F.centre, exW, ex0]) (by norm_num [F.centre, exW, ex0]))

/-- 3D, diffusion operator with constant reaction: if the field is sampled from a smooth function and the coefficients are sampled from smooth functions, the result is the differential operator applied to the function, up to the square of the mesh widths. -/
theorem C71_v2_3d {i0 j0 k0 i1 j1 k1 gcw rgcw : Int} {alpha beta : ℝ} {dx : Nat → ℝ} {u b0 b1 b2 f0 f1 f2 res : Ptr} {β1 β2 : Nat → Backend} {m : Mem ℝ} {U : List Int → ℝ} {o : Nat → ℝ} {φ κ0 κ1 κ2 : ℝ → ℝ → ℝ → ℝ} {C0 C1 C2 : ℝ}
    (hβ1 : ∀ n, ValidBackend (β1 n)) (hβ2 : ∀ n, ValidBackend (β2 n)) (hi : i0 ≤ i1) (hj : j0 ≤ j1) (hk : k0 ≤ k1) (hg : 1 ≤ gcw) (hrgcw : 0 ≤ rgcw)
    (h : F.Args m [(F.cell3d u i0 j0 k0 i1 j1 k1 gcw), (F.face3d0 b0 i0 j0 k0 i1 j1 k1 0), (F.face3d1 b1 i0 j0 k0 i1 j1 k1 0), (F.face3d2 b2 i0 j0 k0 i1 j1 k1 0)] [(F.face3d0 f0 i0 j0 k0 i1 j1 k1 0), (F.face3d1 f1 i0 j0 k0 i1 j1 k1 0), (F.face3d2 f2 i0 j0 k0 i1 j1 k1 0), (F.cell3d res i0 j0 k0 i1 j1 k1 rgcw)])
    (hp : F.Apart (F.face3d0 f0 i0 j0 k0 i1 j1 k1 0) (F.face3d1 f1 i0 j0 k0 i1 j1 k1 0) ∧ F.Apart (F.face3d0 f0 i0 j0 k0 i1 j1 k1 0) (F.face3d2 f2 i0 j0 k0 i1 j1 k1 0) ∧ F.Apart (F.face3d1 f1 i0 j0 k0 i1 j1 k1 0) (F.face3d2 f2 i0 j0 k0 i1 j1 k1 0))
    (hr : F.Apart (F.cell3d res i0 j0 k0 i1 j1 k1 rgcw) (F.face3d0 f0 i0 j0 k0 i1 j1 k1 0) ∧ F.Apart (F.cell3d res i0 j0 k0 i1 j1 k1 rgcw) (F.face3d1 f1 i0 j0 k0 i1 j1 k1 0) ∧ F.Apart (F.cell3d res i0 j0 k0 i1 j1 k1 rgcw) (F.face3d2 f2 i0 j0 k0 i1 j1 k1 0)) (hB0 : F.Holds m (F.face3d0 b0 i0 j0 k0 i1 j1 k1 0) (F.faces30 o dx κ0)) (hB1 : F.Holds m (F.face3d1 b1 i0 j0 k0 i1 j1 k1 0) (F.faces31 o dx κ1)) (hB2 : F.Holds m (F.face3d2 b2 i0 j0 k0 i1 j1 k1 0) (F.faces32 o dx κ2)) (hU : F.Holds m (F.cell3d u i0 j0 k0 i1 j1 k1 gcw) U)
    (hd0 : 0 < dx 0) (hd1 : 0 < dx 1) (hd2 : 0 < dx 2) (hUφ : ∀ p, F.InBounds [(i0 - 1, i1 + 1), (j0 - 1, j1 + 1), (k0 - 1, k1 + 1)] p → U p = F.cells3 o dx φ p)
    (s0 : ∀ j k, j0 ≤ j → j ≤ j1 → k0 ≤ k → k ≤ k1 → F.SmoothFlux (fun s => φ s (F.centre (o 1) (dx 1) j) (F.centre (o 2) (dx 2) k)) (fun s => κ0 s (F.centre (o 1) (dx 1) j) (F.centre (o 2) (dx 2) k)) (F.centre (o 0) (dx 0) (i0 - 1)) (F.centre (o 0) (dx 0) (i1 + 1)) C0) (s1 : ∀ i k, i0 ≤ i → i ≤ i1 → k0 ≤ k → k ≤ k1 → F.SmoothFlux (fun s => φ (F.centre (o 0) (dx 0) i) s (F.centre (o 2) (dx 2) k)) (fun s => κ1 (F.centre (o 0) (dx 0) i) s (F.centre (o 2) (dx 2) k)) (F.centre (o 1) (dx 1) (j0 - 1)) (F.centre (o 1) (dx 1) (j1 + 1)) C1) (s2 : ∀ i j, i0 ≤ i → i ≤ i1 → j0 ≤ j → j ≤ j1 → F.SmoothFlux (fun s => φ (F.centre (o 0) (dx 0) i) (F.centre (o 1) (dx 1) j) s) (fun s => κ2 (F.centre (o 0) (dx 0) i) (F.centre (o 1) (dx 1) j) s) (F.centre (o 2) (dx 2) (k0 - 1)) (F.centre (o 2) (dx 2) (k1 + 1)) C2) :
    ∃ m1 m2, ∃ R : List Int → ℝ, Cuda.flux3d i0 j0 k0 i1 j1 k1 dx b0 b1 b2 gcw u f0 f1 f2 β1 m = .ok m1 ∧ Cuda.diffusionV2Apply3d i0 i1 j0 j1 k0 k1 alpha beta dx gcw u f0 f1 f2 rgcw res β2 m1 = .ok m2 ∧
      (∀ p, F.InBounds [(i0, i1), (j0, j1), (k0, k1)] p → F.El m2 (F.cell3d res i0 j0 k0 i1 j1 k1 rgcw) p (R p)) ∧
      ∀ i j k, i0 ≤ i → i ≤ i1 → j0 ≤ j → j ≤ j1 → k0 ≤ k → k ≤ k1 → |R [i, j, k] - F.diffusion3 alpha beta (fun _ _ _ => 1) κ0 κ1 κ2 φ (F.centre (o 0) (dx 0) i) (F.centre (o 1) (dx 1) j) (F.centre (o 2) (dx 2) k)| ≤ |beta| * (C0 * dx 0 ^ 2 + C1 * dx 1 ^ 2 + C2 * dx 2 ^ 2) / 24 := by
  obtain ⟨m1, m2, R, c1, c2, e, hR⟩ := energy_v2_3 (alpha := alpha) (beta := beta) (dx := dx) hβ1 hβ2 hi hj hk hg hrgcw h hp hr hB0 hB1 hB2 hU
  refine ⟨m1, m2, R, c1, c2, e, fun i j k h0 h1 h2 h3 h4 h5 => ?_⟩
  rw [hR i j k h0 h1 h2 h3 h4 h5]
  exact F.near_diffusion3 (beta := beta) (q := fun _ _ _ => 1) (A := fun _ => 1) (alpha := alpha) hd0 hd1 hd2 hUφ (fun _ _ => rfl) s0 s1 s2 i j k h0 h1 h2 h3 h4 h5

example : ∃ m1 m2, ∃ R : List Int → ℝ, Cuda.flux3d 0 1 2 1 2 3 exW ⟨2, 0⟩ ⟨3, 0⟩ ⟨4, 0⟩ 2 ⟨1, 0⟩ ⟨5, 0⟩ ⟨6, 0⟩ ⟨7, 0⟩ (fun _ => revBackend) (exFun (exG3 (F.cells3 ex0 exW exφ3))) = .ok m1 ∧ Cuda.diffusionV2Apply3d 0 1 1 2 2 3 3 2 exW 2 ⟨1, 0⟩ ⟨5, 0⟩ ⟨6, 0⟩ ⟨7, 0⟩ 1 ⟨8, 0⟩ (fun _ => seqBackend) m1 = .ok m2 ∧
      (∀ p, F.InBounds [(0, 1), (1, 2), (2, 3)] p → F.El m2 (F.cell3d ⟨8, 0⟩ 0 1 2 1 2 3 1) p (R p)) ∧
      ∀ i j k, 0 ≤ i → i ≤ 1 → 1 ≤ j → j ≤ 2 → 2 ≤ k → k ≤ 3 → |R [i, j, k] - F.diffusion3 3 2 (fun _ _ _ => 1) exk30 exk31 exk32 exφ3 (F.centre (ex0 0) (exW 0) i) (F.centre (ex0 1) (exW 1) j) (F.centre (ex0 2) (exW 2) k)| ≤ |(2 : ℝ)| * ((48 + 312 * 3 ^ 2) * exW 0 ^ 2 + (48 + 312 * 7 ^ 2) * exW 1 ^ 2 + (48 + 312 * 12 ^ 2) * exW 2 ^ 2) / 24 :=
  C71_v2_3d (fun _ => revBackend_ok) (fun _ => seqBackend_ok) (by decide) (by decide) (by decide) (by decide) (by decide) (exFun_args (by ex_args)) ⟨apart_blk (by decide), apart_blk (by decide), apart_blk (by decide)⟩ ⟨apart_blk (by decide), apart_blk (by decide), apart_blk (by decide)⟩ (exFun_holds rfl rfl (exRat_ok rfl (by decide) (by decide))) (exFun_holds rfl rfl (exRat_ok rfl (by decide) (by decide))) (exFun_holds rfl rfl (exRat_ok rfl (by decide) (by decide))) (exFun_holds rfl rfl (exRat_ok rfl (by decide) (by decide))) (exW_pos 0) (exW_pos 1) (exW_pos 2) (fun _ _ => rfl) (fun j k _ _ _ _ => exSmooth (L := 3) (c := (F.centre (ex0 1) (exW 1) j) ^ 4 + (F.centre (ex0 2) (exW 2) k) ^ 4) (fun x => by ex_field) (fun x => rfl) (by norm_num [F.centre, exW, ex0]) (by norm_num [F.centre, exW, ex0])) (fun i k _ _ _ _ => exSmooth (L := 7) (c := (F.centre (ex0 0) (exW 0) i) ^ 4 + (F.centre (ex0 2) (exW 2) k) ^ 4) (fun x => by ex_field) (fun x => rfl) (by norm_num [F.centre, exW, ex0]) (by norm_num [F.centre, exW, ex0])) (fun i j _ _ _ _ => exSmooth (L := 12) (c := (F.centre (ex0 0) (exW 0) i) ^ 4 + (F.centre (ex0 1) (exW 1) j) ^ 4) (fun x => by ex_field) (fun x => rfl) (by norm_num [F.centre, exW, ex0]) (by norm_num [F.centre, exW, ex0]))

/-- 3D, Poisson operator: if the field is sampled from a smooth function, the result is `-beta` times the sum of the second derivatives of the function, up to the square of the mesh widths. -/
theorem C71_poisson_3d {i0 j0 k0 i1 j1 k1 gcw rgcw : Int} {beta : ℝ} {dx : Nat → ℝ} {u f0 f1 f2 res : Ptr} {β1 β2 : Nat → Backend} {m : Mem ℝ} {U : List Int → ℝ} {o : Nat → ℝ} {φ : ℝ → ℝ → ℝ → ℝ} {C0 C1 C2 : ℝ}
    (hβ1 : ∀ n, ValidBackend (β1 n)) (hβ2 : ∀ n, ValidBackend (β2 n)) (hi : i0 ≤ i1) (hj : j0 ≤ j1) (hk : k0 ≤ k1) (hg : 1 ≤ gcw) (hrgcw : 0 ≤ rgcw)
    (h : F.Args m [(F.cell3d u i0 j0 k0 i1 j1 k1 gcw)] [(F.face3d0 f0 i0 j0 k0 i1 j1 k1 0), (F.face3d1 f1 i0 j0 k0 i1 j1 k1 0), (F.face3d2 f2 i0 j0 k0 i1 j1 k1 0), (F.cell3d res i0 j0 k0 i1 j1 k1 rgcw)])
    (hp : F.Apart (F.face3d0 f0 i0 j0 k0 i1 j1 k1 0) (F.face3d1 f1 i0 j0 k0 i1 j1 k1 0) ∧ F.Apart (F.face3d0 f0 i0 j0 k0 i1 j1 k1 0) (F.face3d2 f2 i0 j0 k0 i1 j1 k1 0) ∧ F.Apart (F.face3d1 f1 i0 j0 k0 i1 j1 k1 0) (F.face3d2 f2 i0 j0 k0 i1 j1 k1 0))
    (hr : F.Apart (F.cell3d res i0 j0 k0 i1 j1 k1 rgcw) (F.face3d0 f0 i0 j0 k0 i1 j1 k1 0) ∧ F.Apart (F.cell3d res i0 j0 k0 i1 j1 k1 rgcw) (F.face3d1 f1 i0 j0 k0 i1 j1 k1 0) ∧ F.Apart (F.cell3d res i0 j0 k0 i1 j1 k1 rgcw) (F.face3d2 f2 i0 j0 k0 i1 j1 k1 0)) (hU : F.Holds m (F.cell3d u i0 j0 k0 i1 j1 k1 gcw) U)
    (hd0 : 0 < dx 0) (hd1 : 0 < dx 1) (hd2 : 0 < dx 2) (hUφ : ∀ p, F.InBounds [(i0 - 1, i1 + 1), (j0 - 1, j1 + 1), (k0 - 1, k1 + 1)] p → U p = F.cells3 o dx φ p)
    (s0 : ∀ j k, j0 ≤ j → j ≤ j1 → k0 ≤ k → k ≤ k1 → F.SmoothField (fun s => φ s (F.centre (o 1) (dx 1) j) (F.centre (o 2) (dx 2) k)) (F.centre (o 0) (dx 0) (i0 - 1)) (F.centre (o 0) (dx 0) (i1 + 1)) C0) (s1 : ∀ i k, i0 ≤ i → i ≤ i1 → k0 ≤ k → k ≤ k1 → F.SmoothField (fun s => φ (F.centre (o 0) (dx 0) i) s (F.centre (o 2) (dx 2) k)) (F.centre (o 1) (dx 1) (j0 - 1)) (F.centre (o 1) (dx 1) (j1 + 1)) C1) (s2 : ∀ i j, i0 ≤ i → i ≤ i1 → j0 ≤ j → j ≤ j1 → F.SmoothField (fun s => φ (F.centre (o 0) (dx 0) i) (F.centre (o 1) (dx 1) j) s) (F.centre (o 2) (dx 2) (k0 - 1)) (F.centre (o 2) (dx 2) (k1 + 1)) C2) :
    ∃ m1 m2, ∃ R : List Int → ℝ, Cuda.poissonFlux3d i0 j0 k0 i1 j1 k1 dx gcw u f0 f1 f2 β1 m = .ok m1 ∧ Cuda.poissonV2Apply3d i0 i1 j0 j1 k0 k1 beta dx f0 f1 f2 rgcw res β2 m1 = .ok m2 ∧
      (∀ p, F.InBounds [(i0, i1), (j0, j1), (k0, k1)] p → F.El m2 (F.cell3d res i0 j0 k0 i1 j1 k1 rgcw) p (R p)) ∧
      ∀ i j k, i0 ≤ i → i ≤ i1 → j0 ≤ j → j ≤ j1 → k0 ≤ k → k ≤ k1 → |R [i, j, k] - -(beta * F.laplace3 φ (F.centre (o 0) (dx 0) i) (F.centre (o 1) (dx 1) j) (F.centre (o 2) (dx 2) k))| ≤ |beta| * (C0 * dx 0 ^ 2 + C1 * dx 1 ^ 2 + C2 * dx 2 ^ 2) / 12 := by
  obtain ⟨m1, m2, R, c1, c2, e, hR⟩ := energy_p_3 (beta := beta) (dx := dx) hβ1 hβ2 hi hj hk hg hrgcw h hp hr hU
  refine ⟨m1, m2, R, c1, c2, e, fun i j k h0 h1 h2 h3 h4 h5 => ?_⟩
  rw [hR i j k h0 h1 h2 h3 h4 h5]
  exact F.near_laplace3 (beta := beta) hd0 hd1 hd2 hUφ s0 s1 s2 i j k h0 h1 h2 h3 h4 h5

example : ∃ m1 m2, ∃ R : List Int → ℝ, Cuda.poissonFlux3d 0 1 2 1 2 3 exW 2 ⟨1, 0⟩ ⟨5, 0⟩ ⟨6, 0⟩ ⟨7, 0⟩ (fun _ => revBackend) (exFun (exG3 (F.cells3 ex0 exW exφ3))) = .ok m1 ∧ Cuda.poissonV2Apply3d 0 1 1 2 2 3 2 exW ⟨5, 0⟩ ⟨6, 0⟩ ⟨7, 0⟩ 1 ⟨8, 0⟩ (fun _ => seqBackend) m1 = .ok m2 ∧
      (∀ p, F.InBounds [(0, 1), (1, 2), (2, 3)] p → F.El m2 (F.cell3d ⟨8, 0⟩ 0 1 2 1 2 3 1) p (R p)) ∧
      ∀ i j k, 0 ≤ i → i ≤ 1 → 1 ≤ j → j ≤ 2 → 2 ≤ k → k ≤ 3 → |R [i, j, k] - -(2 * F.laplace3 exφ3 (F.centre (ex0 0) (exW 0) i) (F.centre (ex0 1) (exW 1) j) (F.centre (ex0 2) (exW 2) k))| ≤ |(2 : ℝ)| * (24 * exW 0 ^ 2 + 24 * exW 1 ^ 2 + 24 * exW 2 ^ 2) / 12 :=
  C71_poisson_3d (fun _ => revBackend_ok) (fun _ => seqBackend_ok) (by decide) (by decide) (by decide) (by decide) (by decide) (exFun_args (by ex_args)) ⟨apart_blk (by decide), apart_blk (by decide), apart_blk (by decide)⟩ ⟨apart_blk (by decide), apart_blk (by decide), apart_blk (by decide)⟩ (exFun_holds rfl rfl (exRat_ok rfl (by decide) (by decide))) (exW_pos 0) (exW_pos 1) (exW_pos 2) (fun _ _ => rfl) (fun j k _ _ _ _ => exSmoothF (c := (F.centre (ex0 1) (exW 1) j) ^ 4 + (F.centre (ex0 2) (exW 2) k) ^ 4) fun x => by ex_field) (fun i k _ _ _ _ => exSmoothF (c := (F.centre (ex0 0) (exW 0) i) ^ 4 + (F.centre (ex0 2) (exW 2) k) ^ 4) fun x => by ex_field) (fun i j _ _ _ _ => exSmoothF (c := (F.centre (ex0 0) (exW 0) i) ^ 4 + (F.centre (ex0 1) (exW 1) j) ^ 4) fun x => by ex_field)

end Verif
