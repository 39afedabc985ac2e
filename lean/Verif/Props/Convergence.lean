import Verif.Lemmas.AccuracyEx

/-
C72: the distance of the solution of the difference equations from the solution of the differential equation.
-/

namespace Verif
open Spec

set_option linter.unusedVariables false

/-- 1D, diffusion operator with cell coefficients, a smooth function: if the result is within `t` of the differential operator applied to the function and the field is within `D` of it in the cells around the box, the field is within the larger of `D` and (`t` plus the error of the difference quotients) over `c` of the function, `c` a lower bound of the reaction coefficient. -/
theorem C72_v1_1d {i0 i1 agcw gcw rgcw : Int} {alpha beta : ℝ} {dx : Nat → ℝ} {a u b0 f0 res : Ptr} {β1 β2 : Nat → Backend} {m : Mem ℝ} {A U : List Int → ℝ} {o : Nat → ℝ} {φ q κ0 : ℝ → ℝ} {C0 D c : ℝ}
    (hβ1 : ∀ n, ValidBackend (β1 n)) (hβ2 : ∀ n, ValidBackend (β2 n)) (hi : i0 ≤ i1) (hg : 1 ≤ gcw) (hagcw : 0 ≤ agcw) (hrgcw : 0 ≤ rgcw)
    (h : F.Args m [(F.cell1d a i0 i1 agcw), (F.cell1d u i0 i1 gcw), (F.face1d b0 i0 i1 0)] [(F.face1d f0 i0 i1 0), (F.cell1d res i0 i1 rgcw)])
    (hr : F.Apart (F.cell1d res i0 i1 rgcw) (F.face1d f0 i0 i1 0)) (hA : F.Holds m (F.cell1d a i0 i1 agcw) A) (hB0 : F.Holds m (F.face1d b0 i0 i1 0) (F.faces1 o dx κ0)) (hU : F.Holds m (F.cell1d u i0 i1 gcw) U)
    (hd0 : 0 < dx 0) (hUφ : ∀ p, F.InBounds [(i0 - 1, i1 + 1)] p → ¬ F.InBounds [(i0, i1)] p → |U p - F.cells1 o dx φ p| ≤ D) (hAq : ∀ p, F.InBounds [(i0, i1)] p → A p = F.cells1 o dx q p)
    (s0 : F.SmoothFlux (fun s => φ s) (fun s => κ0 s) (F.centre (o 0) (dx 0) (i0 - 1)) (F.centre (o 0) (dx 0) (i1 + 1)) C0) (hc : 0 < c) (hca : ∀ p, F.InBounds [(i0, i1)] p → c ≤ alpha * A p)
    (he : F.Elliptic1 i0 i1 alpha beta dx A (F.faces1 o dx κ0)) :
    ∃ m1 m2, ∃ R : List Int → ℝ, Cuda.flux1d i0 i1 dx b0 gcw u f0 β1 m = .ok m1 ∧ Cuda.diffusionV1Apply1d i0 i1 alpha beta dx agcw a gcw u f0 rgcw res β2 m1 = .ok m2 ∧
      (∀ p, F.InBounds [(i0, i1)] p → F.El m2 (F.cell1d res i0 i1 rgcw) p (R p)) ∧
      ∀ t, (∀ i, i0 ≤ i → i ≤ i1 → |R [i] - F.diffusion1 alpha beta q κ0 φ (F.centre (o 0) (dx 0) i)| ≤ t) → ∀ i, i0 ≤ i → i ≤ i1 →
        |U [i] - φ (F.centre (o 0) (dx 0) i)| ≤ max D ((t + beta * (C0 * dx 0 ^ 2) / 24) / c) := by
  obtain ⟨m1, m2, R, c1, c2, e, hR⟩ := energy_v1_1 (alpha := alpha) (beta := beta) (dx := dx) hβ1 hβ2 hi hg hagcw hrgcw h hr hA hB0 hU
  refine ⟨m1, m2, R, c1, c2, e, fun t ht => ?_⟩
  have N := F.near_diffusion1 (beta := beta) (U := F.cells1 o dx φ) (q := q) (alpha := alpha) hd0 (fun _ _ => rfl) hAq s0
  rw [abs_of_pos he.beta] at N
  have both : ∀ i, i0 ≤ i → i ≤ i1 → |F.op1 alpha beta dx A (F.faces1 o dx κ0) U i - F.op1 alpha beta dx A (F.faces1 o dx κ0) (F.cells1 o dx φ) i| ≤ t + beta * (C0 * dx 0 ^ 2) / 24 := fun i h0 h1 => by
    have x := ht i h0 h1
    rw [hR i h0 h1] at x
    have y := N i h0 h1
    rw [abs_le] at x y ⊢
    constructor <;> linarith [x.1, x.2, y.1, y.2]
  intro i h0 h1
  have hD : 0 ≤ D := (abs_nonneg _).trans (hUφ [i0 - 1] (F.inBounds1.2 ⟨i0 - 1, rfl, by omega⟩) fun h => by simp [F.InBounds] at h)
  have hE : 0 ≤ max D ((t + beta * (C0 * dx 0 ^ 2) / 24) / c) := hD.trans (le_max_left _ _)
  have hm : t + beta * (C0 * dx 0 ^ 2) / 24 ≤ c * max D ((t + beta * (C0 * dx 0 ^ 2) / 24) / c) := by
    have := mul_le_mul_of_nonneg_left (le_max_right D ((t + beta * (C0 * dx 0 ^ 2) / 24) / c)) hc.le
    rwa [mul_div_cancel₀ _ hc.ne'] at this
  have x := he.near (U := U) (V := F.cells1 o dx φ) (c := c) (E := max D ((t + beta * (C0 * dx 0 ^ 2) / 24) / c)) hi hE (fun i h0 h1 => hca [i] (F.inBounds1.2 ⟨i, rfl, by omega⟩)) (fun p hw hb => (abs_le.1 (hUφ p hw hb)).2.trans (le_max_left _ _)) (fun i h0 h1 => (abs_le.1 (both i h0 h1)).2.trans hm) [i] (F.inBounds1.2 ⟨i, rfl, by omega⟩)
  have y := he.near (U := F.cells1 o dx φ) (V := U) (c := c) (E := max D ((t + beta * (C0 * dx 0 ^ 2) / 24) / c)) hi hE (fun i h0 h1 => hca [i] (F.inBounds1.2 ⟨i, rfl, by omega⟩)) (fun p hw hb => by have := (abs_le.1 (hUφ p hw hb)).1; have := le_max_left D ((t + beta * (C0 * dx 0 ^ 2) / 24) / c); linarith) (fun i h0 h1 => by have := (abs_le.1 (both i h0 h1)).1; linarith) [i] (F.inBounds1.2 ⟨i, rfl, by omega⟩)
  simp only [F.cells1, List.getD_cons_zero, List.getD_cons_succ] at x y
  exact abs_le.2 ⟨by linarith, by linarith⟩

example : ∃ m1 m2, ∃ R : List Int → ℝ, Cuda.flux1d 0 3 exW ⟨2, 0⟩ 2 ⟨1, 0⟩ ⟨5, 0⟩ (fun _ => revBackend) (exFun (exG1 (exU1))) = .ok m1 ∧ Cuda.diffusionV1Apply1d 0 3 3 2 exW 1 ⟨0, 0⟩ 2 ⟨1, 0⟩ ⟨5, 0⟩ 1 ⟨8, 0⟩ (fun _ => seqBackend) m1 = .ok m2 ∧
      (∀ p, F.InBounds [(0, 3)] p → F.El m2 (F.cell1d ⟨8, 0⟩ 0 3 1) p (R p)) ∧
      ∀ t, (∀ i, 0 ≤ i → i ≤ 3 → |R [i] - F.diffusion1 3 2 exq1 exk10 exφ1 (F.centre (ex0 0) (exW 0) i)| ≤ t) → ∀ i, 0 ≤ i → i ≤ 3 →
        |exU1 [i] - exφ1 (F.centre (ex0 0) (exW 0) i)| ≤ max 1 ((t + 2 * ((48 + 312 * 3 ^ 2) * exW 0 ^ 2) / 24) / 3) :=
  C72_v1_1d (fun _ => revBackend_ok) (fun _ => seqBackend_ok) (by decide) (by decide) (by decide) (by decide) (exFun_args (by ex_args)) (apart_blk (by decide)) (exFun_holds rfl rfl (exRat_ok rfl (by decide) (by decide))) (exFun_holds rfl rfl (exRat_ok rfl (by decide) (by decide))) (exFun_holds rfl rfl (exRat_ok rfl (by decide) (by decide))) (exW_pos 0) (fun p _ _ => by simp [exU1]) (fun _ _ => rfl) (exSmooth (L := 3) (c := 0) (fun x => by ex_field) (fun x => rfl) (by norm_num [F.centre, exW, ex0]) (by norm_num [F.centre, exW, ex0])) (by norm_num) exC1 exAcc_v1_1

/-- 1D, diffusion operator with constant reaction, a smooth function: if the result is within `t` of the differential operator applied to the function and the field is within `D` of it in the cells around the box, the field is within the larger of `D` and (`t` plus the error of the difference quotients) over `c` of the function, `c` a lower bound of the reaction coefficient. -/
theorem C72_v2_1d {i0 i1 gcw rgcw : Int} {alpha beta : ℝ} {dx : Nat → ℝ} {u b0 f0 res : Ptr} {β1 β2 : Nat → Backend} {m : Mem ℝ} {U : List Int → ℝ} {o : Nat → ℝ} {φ κ0 : ℝ → ℝ} {C0 D c : ℝ}
    (hβ1 : ∀ n, ValidBackend (β1 n)) (hβ2 : ∀ n, ValidBackend (β2 n)) (hi : i0 ≤ i1) (hg : 1 ≤ gcw) (hrgcw : 0 ≤ rgcw)
    (h : F.Args m [(F.cell1d u i0 i1 gcw), (F.face1d b0 i0 i1 0)] [(F.face1d f0 i0 i1 0), (F.cell1d res i0 i1 rgcw)])
    (hr : F.Apart (F.cell1d res i0 i1 rgcw) (F.face1d f0 i0 i1 0)) (hB0 : F.Holds m (F.face1d b0 i0 i1 0) (F.faces1 o dx κ0)) (hU : F.Holds m (F.cell1d u i0 i1 gcw) U)
    (hd0 : 0 < dx 0) (hUφ : ∀ p, F.InBounds [(i0 - 1, i1 + 1)] p → ¬ F.InBounds [(i0, i1)] p → |U p - F.cells1 o dx φ p| ≤ D)
    (s0 : F.SmoothFlux (fun s => φ s) (fun s => κ0 s) (F.centre (o 0) (dx 0) (i0 - 1)) (F.centre (o 0) (dx 0) (i1 + 1)) C0) (hc : 0 < c) (hca : c ≤ alpha)
    (he : F.Elliptic1 i0 i1 alpha beta dx (fun _ => 1) (F.faces1 o dx κ0)) :
    ∃ m1 m2, ∃ R : List Int → ℝ, Cuda.flux1d i0 i1 dx b0 gcw u f0 β1 m = .ok m1 ∧ Cuda.diffusionV2Apply1d i0 i1 alpha beta dx gcw u f0 rgcw res β2 m1 = .ok m2 ∧
      (∀ p, F.InBounds [(i0, i1)] p → F.El m2 (F.cell1d res i0 i1 rgcw) p (R p)) ∧
      ∀ t, (∀ i, i0 ≤ i → i ≤ i1 → |R [i] - F.diffusion1 alpha beta (fun _ => 1) κ0 φ (F.centre (o 0) (dx 0) i)| ≤ t) → ∀ i, i0 ≤ i → i ≤ i1 →
        |U [i] - φ (F.centre (o 0) (dx 0) i)| ≤ max D ((t + beta * (C0 * dx 0 ^ 2) / 24) / c) := by
  obtain ⟨m1, m2, R, c1, c2, e, hR⟩ := energy_v2_1 (alpha := alpha) (beta := beta) (dx := dx) hβ1 hβ2 hi hg hrgcw h hr hB0 hU
  refine ⟨m1, m2, R, c1, c2, e, fun t ht => ?_⟩
  have N := F.near_diffusion1 (beta := beta) (U := F.cells1 o dx φ) (q := fun _ => 1) (A := fun _ => 1) (alpha := alpha) hd0 (fun _ _ => rfl) (fun _ _ => rfl) s0
  rw [abs_of_pos he.beta] at N
  have both : ∀ i, i0 ≤ i → i ≤ i1 → |F.op1 alpha beta dx (fun _ => 1) (F.faces1 o dx κ0) U i - F.op1 alpha beta dx (fun _ => 1) (F.faces1 o dx κ0) (F.cells1 o dx φ) i| ≤ t + beta * (C0 * dx 0 ^ 2) / 24 := fun i h0 h1 => by
    have x := ht i h0 h1
    rw [hR i h0 h1] at x
    have y := N i h0 h1
    rw [abs_le] at x y ⊢
    constructor <;> linarith [x.1, x.2, y.1, y.2]
  intro i h0 h1
  have hD : 0 ≤ D := (abs_nonneg _).trans (hUφ [i0 - 1] (F.inBounds1.2 ⟨i0 - 1, rfl, by omega⟩) fun h => by simp [F.InBounds] at h)
  have hE : 0 ≤ max D ((t + beta * (C0 * dx 0 ^ 2) / 24) / c) := hD.trans (le_max_left _ _)
  have hm : t + beta * (C0 * dx 0 ^ 2) / 24 ≤ c * max D ((t + beta * (C0 * dx 0 ^ 2) / 24) / c) := by
    have := mul_le_mul_of_nonneg_left (le_max_right D ((t + beta * (C0 * dx 0 ^ 2) / 24) / c)) hc.le
    rwa [mul_div_cancel₀ _ hc.ne'] at this
  have x := he.near (U := U) (V := F.cells1 o dx φ) (c := c) (E := max D ((t + beta * (C0 * dx 0 ^ 2) / 24) / c)) hi hE (fun i h0 h1 => by simpa using hca) (fun p hw hb => (abs_le.1 (hUφ p hw hb)).2.trans (le_max_left _ _)) (fun i h0 h1 => (abs_le.1 (both i h0 h1)).2.trans hm) [i] (F.inBounds1.2 ⟨i, rfl, by omega⟩)
  have y := he.near (U := F.cells1 o dx φ) (V := U) (c := c) (E := max D ((t + beta * (C0 * dx 0 ^ 2) / 24) / c)) hi hE (fun i h0 h1 => by simpa using hca) (fun p hw hb => by have := (abs_le.1 (hUφ p hw hb)).1; have := le_max_left D ((t + beta * (C0 * dx 0 ^ 2) / 24) / c); linarith) (fun i h0 h1 => by have := (abs_le.1 (both i h0 h1)).1; linarith) [i] (F.inBounds1.2 ⟨i, rfl, by omega⟩)
  simp only [F.cells1, List.getD_cons_zero, List.getD_cons_succ] at x y
  exact abs_le.2 ⟨by linarith, by linarith⟩

example : ∃ m1 m2, ∃ R : List Int → ℝ, Cuda.flux1d 0 3 exW ⟨2, 0⟩ 2 ⟨1, 0⟩ ⟨5, 0⟩ (fun _ => revBackend) (exFun (exG1 (exU1))) = .ok m1 ∧ Cuda.diffusionV2Apply1d 0 3 3 2 exW 2 ⟨1, 0⟩ ⟨5, 0⟩ 1 ⟨8, 0⟩ (fun _ => seqBackend) m1 = .ok m2 ∧
      (∀ p, F.InBounds [(0, 3)] p → F.El m2 (F.cell1d ⟨8, 0⟩ 0 3 1) p (R p)) ∧
      ∀ t, (∀ i, 0 ≤ i → i ≤ 3 → |R [i] - F.diffusion1 3 2 (fun _ => 1) exk10 exφ1 (F.centre (ex0 0) (exW 0) i)| ≤ t) → ∀ i, 0 ≤ i → i ≤ 3 →
        |exU1 [i] - exφ1 (F.centre (ex0 0) (exW 0) i)| ≤ max 1 ((t + 2 * ((48 + 312 * 3 ^ 2) * exW 0 ^ 2) / 24) / 3) :=
  C72_v2_1d (fun _ => revBackend_ok) (fun _ => seqBackend_ok) (by decide) (by decide) (by decide) (exFun_args (by ex_args)) (apart_blk (by decide)) (exFun_holds rfl rfl (exRat_ok rfl (by decide) (by decide))) (exFun_holds rfl rfl (exRat_ok rfl (by decide) (by decide))) (exW_pos 0) (fun p _ _ => by simp [exU1]) (exSmooth (L := 3) (c := 0) (fun x => by ex_field) (fun x => rfl) (by norm_num [F.centre, exW, ex0]) (by norm_num [F.centre, exW, ex0])) (by norm_num) (by norm_num) exAcc_v2_1

/-- 1D, Poisson operator, a smooth function: if the result is within `t` of the differential operator applied to the function and the field is within `D` of it in the cells around the box, the field is within `D` plus (`t` plus the error of the difference quotients) times the product of the distances to the layers of cells next to the box over `2 beta` of the function, along each axis. -/
theorem C72_poisson_1d {i0 i1 gcw rgcw : Int} {beta : ℝ} {dx : Nat → ℝ} {u f0 res : Ptr} {β1 β2 : Nat → Backend} {m : Mem ℝ} {U : List Int → ℝ} {o : Nat → ℝ} {φ : ℝ → ℝ} {C0 D : ℝ}
    (hβ1 : ∀ n, ValidBackend (β1 n)) (hβ2 : ∀ n, ValidBackend (β2 n)) (hi : i0 ≤ i1) (hg : 1 ≤ gcw) (hrgcw : 0 ≤ rgcw)
    (h : F.Args m [(F.cell1d u i0 i1 gcw)] [(F.face1d f0 i0 i1 0), (F.cell1d res i0 i1 rgcw)])
    (hr : F.Apart (F.cell1d res i0 i1 rgcw) (F.face1d f0 i0 i1 0)) (hU : F.Holds m (F.cell1d u i0 i1 gcw) U)
    (hd0 : 0 < dx 0) (hUφ : ∀ p, F.InBounds [(i0 - 1, i1 + 1)] p → ¬ F.InBounds [(i0, i1)] p → |U p - F.cells1 o dx φ p| ≤ D)
    (s0 : F.SmoothField (fun s => φ s) (F.centre (o 0) (dx 0) (i0 - 1)) (F.centre (o 0) (dx 0) (i1 + 1)) C0)
    (he : F.Elliptic1 i0 i1 0 beta dx (fun _ => 1) (fun _ => 1)) :
    ∃ m1 m2, ∃ R : List Int → ℝ, Cuda.poissonFlux1d i0 i1 dx gcw u f0 β1 m = .ok m1 ∧ Cuda.poissonV2Apply1d i0 i1 beta dx f0 rgcw res β2 m1 = .ok m2 ∧
      (∀ p, F.InBounds [(i0, i1)] p → F.El m2 (F.cell1d res i0 i1 rgcw) p (R p)) ∧
      ∀ t, (∀ i, i0 ≤ i → i ≤ i1 → |R [i] - -(beta * iteratedDeriv 2 φ (F.centre (o 0) (dx 0) i))| ≤ t) → ∀ i, i0 ≤ i → i ≤ i1 →
        |U [i] - φ (F.centre (o 0) (dx 0) i)| ≤ D + (t + beta * (C0 * dx 0 ^ 2) / 12) * (((i - i0 + 1 : Int) : ℝ) * ((i1 + 1 - i : Int) : ℝ) * (dx 0 * dx 0)) / (2 * beta) := by
  obtain ⟨m1, m2, R, c1, c2, e, hR⟩ := energy_p_1 (beta := beta) (dx := dx) hβ1 hβ2 hi hg hrgcw h hr hU
  refine ⟨m1, m2, R, c1, c2, e, fun t ht => ?_⟩
  have N := F.near_laplace1 (beta := beta) (U := F.cells1 o dx φ) hd0 (fun _ _ => rfl) s0
  rw [abs_of_pos he.beta] at N
  have both : ∀ i, i0 ≤ i → i ≤ i1 → |F.op1 0 beta dx (fun _ => 1) (fun _ => 1) U i - F.op1 0 beta dx (fun _ => 1) (fun _ => 1) (F.cells1 o dx φ) i| ≤ t + beta * (C0 * dx 0 ^ 2) / 12 := fun i h0 h1 => by
    have x := ht i h0 h1
    rw [hR i h0 h1] at x
    have y := N i h0 h1
    rw [abs_le] at x y ⊢
    constructor <;> linarith [x.1, x.2, y.1, y.2]
  intro i h0 h1
  have hT : 0 ≤ t + beta * (C0 * dx 0 ^ 2) / 12 := (abs_nonneg _).trans (both i h0 h1)
  have a0 := he.barrier0 (U := U) (V := F.cells1 o dx φ) (D := D) (t := t + beta * (C0 * dx 0 ^ 2) / 12) hi hT (fun p hw hb => (abs_le.1 (hUφ p hw hb)).2) (fun i h0 h1 => (abs_le.1 (both i h0 h1)).2) i h0 h1
  have b0 := he.barrier0 (U := F.cells1 o dx φ) (V := U) (D := D) (t := t + beta * (C0 * dx 0 ^ 2) / 12) hi hT (fun p hw hb => by have := (abs_le.1 (hUφ p hw hb)).1; linarith) (fun i h0 h1 => by have := (abs_le.1 (both i h0 h1)).1; linarith) i h0 h1
  simp only [F.cells1, List.getD_cons_zero, List.getD_cons_succ] at a0 b0
  exact abs_le.2 ⟨by linarith, by linarith⟩

example : ∃ m1 m2, ∃ R : List Int → ℝ, Cuda.poissonFlux1d 0 3 exW 2 ⟨1, 0⟩ ⟨5, 0⟩ (fun _ => revBackend) (exFun (exG1 (exU1))) = .ok m1 ∧ Cuda.poissonV2Apply1d 0 3 2 exW ⟨5, 0⟩ 1 ⟨8, 0⟩ (fun _ => seqBackend) m1 = .ok m2 ∧
      (∀ p, F.InBounds [(0, 3)] p → F.El m2 (F.cell1d ⟨8, 0⟩ 0 3 1) p (R p)) ∧
      ∀ t, (∀ i, 0 ≤ i → i ≤ 3 → |R [i] - -(2 * iteratedDeriv 2 exφ1 (F.centre (ex0 0) (exW 0) i))| ≤ t) → ∀ i, 0 ≤ i → i ≤ 3 →
        |exU1 [i] - exφ1 (F.centre (ex0 0) (exW 0) i)| ≤ 1 + (t + 2 * (24 * exW 0 ^ 2) / 12) * (((i - 0 + 1 : Int) : ℝ) * ((3 + 1 - i : Int) : ℝ) * (exW 0 * exW 0)) / (2 * 2) :=
  C72_poisson_1d (fun _ => revBackend_ok) (fun _ => seqBackend_ok) (by decide) (by decide) (by decide) (exFun_args (by ex_args)) (apart_blk (by decide)) (exFun_holds rfl rfl (exRat_ok rfl (by decide) (by decide))) (exW_pos 0) (fun p _ _ => by simp [exU1]) (exSmoothF (c := 0) fun x => by ex_field) exAcc_p_1

/-- 2D, diffusion operator with cell coefficients, a smooth function: if the result is within `t` of the differential operator applied to the function and the field is within `D` of it in the cells around the box, the field is within the larger of `D` and (`t` plus the error of the difference quotients) over `c` of the function, `c` a lower bound of the reaction coefficient. -/
theorem C72_v1_2d {i0 j0 i1 j1 agcw gcw rgcw : Int} {alpha beta : ℝ} {dx : Nat → ℝ} {a u b0 b1 f0 f1 res : Ptr} {β1 β2 : Nat → Backend} {m : Mem ℝ} {A U : List Int → ℝ} {o : Nat → ℝ} {φ q κ0 κ1 : ℝ → ℝ → ℝ} {C0 C1 D c : ℝ}
    (hβ1 : ∀ n, ValidBackend (β1 n)) (hβ2 : ∀ n, ValidBackend (β2 n)) (hi : i0 ≤ i1) (hj : j0 ≤ j1) (hg : 1 ≤ gcw) (hagcw : 0 ≤ agcw) (hrgcw : 0 ≤ rgcw)
    (h : F.Args m [(F.cell2d a i0 j0 i1 j1 agcw), (F.cell2d u i0 j0 i1 j1 gcw), (F.face2d0 b0 i0 j0 i1 j1 0), (F.face2d1 b1 i0 j0 i1 j1 0)] [(F.face2d0 f0 i0 j0 i1 j1 0), (F.face2d1 f1 i0 j0 i1 j1 0), (F.cell2d res i0 j0 i1 j1 rgcw)])
    (hp : F.Apart (F.face2d0 f0 i0 j0 i1 j1 0) (F.face2d1 f1 i0 j0 i1 j1 0))
    (hr : F.Apart (F.cell2d res i0 j0 i1 j1 rgcw) (F.face2d0 f0 i0 j0 i1 j1 0) ∧ F.Apart (F.cell2d res i0 j0 i1 j1 rgcw) (F.face2d1 f1 i0 j0 i1 j1 0)) (hA : F.Holds m (F.cell2d a i0 j0 i1 j1 agcw) A) (hB0 : F.Holds m (F.face2d0 b0 i0 j0 i1 j1 0) (F.faces20 o dx κ0)) (hB1 : F.Holds m (F.face2d1 b1 i0 j0 i1 j1 0) (F.faces21 o dx κ1)) (hU : F.Holds m (F.cell2d u i0 j0 i1 j1 gcw) U)
    (hd0 : 0 < dx 0) (hd1 : 0 < dx 1) (hUφ : ∀ p, F.InBounds [(i0 - 1, i1 + 1), (j0 - 1, j1 + 1)] p → ¬ F.InBounds [(i0, i1), (j0, j1)] p → |U p - F.cells2 o dx φ p| ≤ D) (hAq : ∀ p, F.InBounds [(i0, i1), (j0, j1)] p → A p = F.cells2 o dx q p)
    (s0 : ∀ j, j0 ≤ j → j ≤ j1 → F.SmoothFlux (fun s => φ s (F.centre (o 1) (dx 1) j)) (fun s => κ0 s (F.centre (o 1) (dx 1) j)) (F.centre (o 0) (dx 0) (i0 - 1)) (F.centre (o 0) (dx 0) (i1 + 1)) C0) (s1 : ∀ i, i0 ≤ i → i ≤ i1 → F.SmoothFlux (fun s => φ (F.centre (o 0) (dx 0) i) s) (fun s => κ1 (F.centre (o 0) (dx 0) i) s) (F.centre (o 1) (dx 1) (j0 - 1)) (F.centre (o 1) (dx 1) (j1 + 1)) C1) (hc : 0 < c) (hca : ∀ p, F.InBounds [(i0, i1), (j0, j1)] p → c ≤ alpha * A p)
    (he : F.Elliptic2 i0 j0 i1 j1 alpha beta dx A (F.faces20 o dx κ0) (F.faces21 o dx κ1)) :
    ∃ m1 m2, ∃ R : List Int → ℝ, Cuda.flux2d i0 j0 i1 j1 dx b0 b1 gcw u f0 f1 β1 m = .ok m1 ∧ Cuda.diffusionV1Apply2d i0 i1 j0 j1 alpha beta dx agcw a gcw u f0 f1 rgcw res β2 m1 = .ok m2 ∧
      (∀ p, F.InBounds [(i0, i1), (j0, j1)] p → F.El m2 (F.cell2d res i0 j0 i1 j1 rgcw) p (R p)) ∧
      ∀ t, (∀ i j, i0 ≤ i → i ≤ i1 → j0 ≤ j → j ≤ j1 → |R [i, j] - F.diffusion2 alpha beta q κ0 κ1 φ (F.centre (o 0) (dx 0) i) (F.centre (o 1) (dx 1) j)| ≤ t) → ∀ i j, i0 ≤ i → i ≤ i1 → j0 ≤ j → j ≤ j1 →
        |U [i, j] - φ (F.centre (o 0) (dx 0) i) (F.centre (o 1) (dx 1) j)| ≤ max D ((t + beta * (C0 * dx 0 ^ 2 + C1 * dx 1 ^ 2) / 24) / c) := by
  obtain ⟨m1, m2, R, c1, c2, e, hR⟩ := energy_v1_2 (alpha := alpha) (beta := beta) (dx := dx) hβ1 hβ2 hi hj hg hagcw hrgcw h hp hr hA hB0 hB1 hU
  refine ⟨m1, m2, R, c1, c2, e, fun t ht => ?_⟩
  have N := F.near_diffusion2 (beta := beta) (U := F.cells2 o dx φ) (q := q) (alpha := alpha) hd0 hd1 (fun _ _ => rfl) hAq s0 s1
  rw [abs_of_pos he.beta] at N
  have both : ∀ i j, i0 ≤ i → i ≤ i1 → j0 ≤ j → j ≤ j1 → |F.op2 alpha beta dx A (F.faces20 o dx κ0) (F.faces21 o dx κ1) U i j - F.op2 alpha beta dx A (F.faces20 o dx κ0) (F.faces21 o dx κ1) (F.cells2 o dx φ) i j| ≤ t + beta * (C0 * dx 0 ^ 2 + C1 * dx 1 ^ 2) / 24 := fun i j h0 h1 h2 h3 => by
    have x := ht i j h0 h1 h2 h3
    rw [hR i j h0 h1 h2 h3] at x
    have y := N i j h0 h1 h2 h3
    rw [abs_le] at x y ⊢
    constructor <;> linarith [x.1, x.2, y.1, y.2]
  intro i j h0 h1 h2 h3
  have hD : 0 ≤ D := (abs_nonneg _).trans (hUφ [i0 - 1, j0] (F.inBounds2.2 ⟨i0 - 1, j0, rfl, by omega⟩) fun h => by simp [F.InBounds] at h)
  have hE : 0 ≤ max D ((t + beta * (C0 * dx 0 ^ 2 + C1 * dx 1 ^ 2) / 24) / c) := hD.trans (le_max_left _ _)
  have hm : t + beta * (C0 * dx 0 ^ 2 + C1 * dx 1 ^ 2) / 24 ≤ c * max D ((t + beta * (C0 * dx 0 ^ 2 + C1 * dx 1 ^ 2) / 24) / c) := by
    have := mul_le_mul_of_nonneg_left (le_max_right D ((t + beta * (C0 * dx 0 ^ 2 + C1 * dx 1 ^ 2) / 24) / c)) hc.le
    rwa [mul_div_cancel₀ _ hc.ne'] at this
  have x := he.near (U := U) (V := F.cells2 o dx φ) (c := c) (E := max D ((t + beta * (C0 * dx 0 ^ 2 + C1 * dx 1 ^ 2) / 24) / c)) hi hj hE (fun i j h0 h1 h2 h3 => hca [i, j] (F.inBounds2.2 ⟨i, j, rfl, by omega⟩)) (fun p hw hb => (abs_le.1 (hUφ p hw hb)).2.trans (le_max_left _ _)) (fun i j h0 h1 h2 h3 => (abs_le.1 (both i j h0 h1 h2 h3)).2.trans hm) [i, j] (F.inBounds2.2 ⟨i, j, rfl, by omega⟩)
  have y := he.near (U := F.cells2 o dx φ) (V := U) (c := c) (E := max D ((t + beta * (C0 * dx 0 ^ 2 + C1 * dx 1 ^ 2) / 24) / c)) hi hj hE (fun i j h0 h1 h2 h3 => hca [i, j] (F.inBounds2.2 ⟨i, j, rfl, by omega⟩)) (fun p hw hb => by have := (abs_le.1 (hUφ p hw hb)).1; have := le_max_left D ((t + beta * (C0 * dx 0 ^ 2 + C1 * dx 1 ^ 2) / 24) / c); linarith) (fun i j h0 h1 h2 h3 => by have := (abs_le.1 (both i j h0 h1 h2 h3)).1; linarith) [i, j] (F.inBounds2.2 ⟨i, j, rfl, by omega⟩)
  simp only [F.cells2, List.getD_cons_zero, List.getD_cons_succ] at x y
  exact abs_le.2 ⟨by linarith, by linarith⟩

example : ∃ m1 m2, ∃ R : List Int → ℝ, Cuda.flux2d 0 1 2 3 exW ⟨2, 0⟩ ⟨3, 0⟩ 2 ⟨1, 0⟩ ⟨5, 0⟩ ⟨6, 0⟩ (fun _ => revBackend) (exFun (exG2 (exU2))) = .ok m1 ∧ Cuda.diffusionV1Apply2d 0 2 1 3 3 2 exW 1 ⟨0, 0⟩ 2 ⟨1, 0⟩ ⟨5, 0⟩ ⟨6, 0⟩ 1 ⟨8, 0⟩ (fun _ => seqBackend) m1 = .ok m2 ∧
      (∀ p, F.InBounds [(0, 2), (1, 3)] p → F.El m2 (F.cell2d ⟨8, 0⟩ 0 1 2 3 1) p (R p)) ∧
      ∀ t, (∀ i j, 0 ≤ i → i ≤ 2 → 1 ≤ j → j ≤ 3 → |R [i, j] - F.diffusion2 3 2 exq2 exk20 exk21 exφ2 (F.centre (ex0 0) (exW 0) i) (F.centre (ex0 1) (exW 1) j)| ≤ t) → ∀ i j, 0 ≤ i → i ≤ 2 → 1 ≤ j → j ≤ 3 →
        |exU2 [i, j] - exφ2 (F.centre (ex0 0) (exW 0) i) (F.centre (ex0 1) (exW 1) j)| ≤ max 1 ((t + 2 * ((48 + 312 * 3 ^ 2) * exW 0 ^ 2 + (48 + 312 * 7 ^ 2) * exW 1 ^ 2) / 24) / 3) :=
  C72_v1_2d (fun _ => revBackend_ok) (fun _ => seqBackend_ok) (by decide) (by decide) (by decide) (by decide) (by decide) (exFun_args (by ex_args)) (apart_blk (by decide)) ⟨apart_blk (by decide), apart_blk (by decide)⟩ (exFun_holds rfl rfl (exRat_ok rfl (by decide) (by decide))) (exFun_holds rfl rfl (exRat_ok rfl (by decide) (by decide))) (exFun_holds rfl rfl (exRat_ok rfl (by decide) (by decide))) (exFun_holds rfl rfl (exRat_ok rfl (by decide) (by decide))) (exW_pos 0) (exW_pos 1) (fun p _ _ => by simp [exU2]) (fun _ _ => rfl) (fun j _ _ => exSmooth (L := 3) (c := (F.centre (ex0 1) (exW 1) j) ^ 4) (fun x => by ex_field) (fun x => rfl) (by norm_num [F.centre, exW, ex0]) (by norm_num [F.centre, exW, ex0])) (fun i _ _ => exSmooth (L := 7) (c := (F.centre (ex0 0) (exW 0) i) ^ 4) (fun x => by ex_field) (fun x => rfl) (by norm_num [F.centre, exW, ex0]) (by norm_num [F.centre, exW, ex0])) (by norm_num) exC2 exAcc_v1_2

/-- 2D, diffusion operator with constant reaction, a smooth function: if the result is within `t` of the differential operator applied to the function and the field is within `D` of it in the cells around the box, the field is within the larger of `D` and (`t` plus the error of the difference quotients) over `c` of the function, `c` a lower bound of the reaction coefficient. -/
theorem C72_v2_2d {i0 j0 i1 j1 gcw rgcw : Int} {alpha beta : ℝ} {dx : Nat → ℝ} {u b0 b1 f0 f1 res : Ptr} {β1 β2 : Nat → Backend} {m : Mem ℝ} {U : List Int → ℝ} {o : Nat → ℝ} {φ κ0 κ1 : ℝ → ℝ → ℝ} {C0 C1 D c : ℝ}
    (hβ1 : ∀ n, ValidBackend (β1 n)) (hβ2 : ∀ n, ValidBackend (β2 n)) (hi : i0 ≤ i1) (hj : j0 ≤ j1) (hg : 1 ≤ gcw) (hrgcw : 0 ≤ rgcw)
    (h : F.Args m [(F.cell2d u i0 j0 i1 j1 gcw), (F.face2d0 b0 i0 j0 i1 j1 0), (F.face2d1 b1 i0 j0 i1 j1 0)] [(F.face2d0 f0 i0 j0 i1 j1 0), (F.face2d1 f1 i0 j0 i1 j1 0), (F.cell2d res i0 j0 i1 j1 rgcw)])
    (hp : F.Apart (F.face2d0 f0 i0 j0 i1 j1 0) (F.face2d1 f1 i0 j0 i1 j1 0))
    (hr : F.Apart (F.cell2d res i0 j0 i1 j1 rgcw) (F.face2d0 f0 i0 j0 i1 j1 0) ∧ F.Apart (F.cell2d res i0 j0 i1 j1 rgcw) (F.face2d1 f1 i0 j0 i1 j1 0)) (hB0 : F.Holds m (F.face2d0 b0 i0 j0 i1 j1 0) (F.faces20 o dx κ0)) (hB1 : F.Holds m (F.face2d1 b1 i0 j0 i1 j1 0) (F.faces21 o dx κ1)) (hU : F.Holds m (F.cell2d u i0 j0 i1 j1 gcw) U)
    (hd0 : 0 < dx 0) (hd1 : 0 < dx 1) (hUφ : ∀ p, F.InBounds [(i0 - 1, i1 + 1), (j0 - 1, j1 + 1)] p → ¬ F.InBounds [(i0, i1), (j0, j1)] p → |U p - F.cells2 o dx φ p| ≤ D)
    (s0 : ∀ j, j0 ≤ j → j ≤ j1 → F.SmoothFlux (fun s => φ s (F.centre (o 1) (dx 1) j)) (fun s => κ0 s (F.centre (o 1) (dx 1) j)) (F.centre (o 0) (dx 0) (i0 - 1)) (F.centre (o 0) (dx 0) (i1 + 1)) C0) (s1 : ∀ i, i0 ≤ i → i ≤ i1 → F.SmoothFlux (fun s => φ (F.centre (o 0) (dx 0) i) s) (fun s => κ1 (F.centre (o 0) (dx 0) i) s) (F.centre (o 1) (dx 1) (j0 - 1)) (F.centre (o 1) (dx 1) (j1 + 1)) C1) (hc : 0 < c) (hca : c ≤ alpha)
    (he : F.Elliptic2 i0 j0 i1 j1 alpha beta dx (fun _ => 1) (F.faces20 o dx κ0) (F.faces21 o dx κ1)) :
    ∃ m1 m2, ∃ R : List Int → ℝ, Cuda.flux2d i0 j0 i1 j1 dx b0 b1 gcw u f0 f1 β1 m = .ok m1 ∧ Cuda.diffusionV2Apply2d i0 i1 j0 j1 alpha beta dx gcw u f0 f1 rgcw res β2 m1 = .ok m2 ∧
      (∀ p, F.InBounds [(i0, i1), (j0, j1)] p → F.El m2 (F.cell2d res i0 j0 i1 j1 rgcw) p (R p)) ∧
      ∀ t, (∀ i j, i0 ≤ i → i ≤ i1 → j0 ≤ j → j ≤ j1 → |R [i, j] - F.diffusion2 alpha beta (fun _ _ => 1) κ0 κ1 φ (F.centre (o 0) (dx 0) i) (F.centre (o 1) (dx 1) j)| ≤ t) → ∀ i j, i0 ≤ i → i ≤ i1 → j0 ≤ j → j ≤ j1 →
        |U [i, j] - φ (F.centre (o 0) (dx 0) i) (F.centre (o 1) (dx 1) j)| ≤ max D ((t + beta * (C0 * dx 0 ^ 2 + C1 * dx 1 ^ 2) / 24) / c) := by
  obtain ⟨m1, m2, R, c1, c2, e, hR⟩ := energy_v2_2 (alpha := alpha) (beta := beta) (dx := dx) hβ1 hβ2 hi hj hg hrgcw h hp hr hB0 hB1 hU
  refine ⟨m1, m2, R, c1, c2, e, fun t ht => ?_⟩
  have N := F.near_diffusion2 (beta := beta) (U := F.cells2 o dx φ) (q := fun _ _ => 1) (A := fun _ => 1) (alpha := alpha) hd0 hd1 (fun _ _ => rfl) (fun _ _ => rfl) s0 s1
  rw [abs_of_pos he.beta] at N
  have both : ∀ i j, i0 ≤ i → i ≤ i1 → j0 ≤ j → j ≤ j1 → |F.op2 alpha beta dx (fun _ => 1) (F.faces20 o dx κ0) (F.faces21 o dx κ1) U i j - F.op2 alpha beta dx (fun _ => 1) (F.faces20 o dx κ0) (F.faces21 o dx κ1) (F.cells2 o dx φ) i j| ≤ t + beta * (C0 * dx 0 ^ 2 + C1 * dx 1 ^ 2) / 24 := fun i j h0 h1 h2 h3 => by
    have x := ht i j h0 h1 h2 h3
    rw [hR i j h0 h1 h2 h3] at x
    have y := N i j h0 h1 h2 h3
    rw [abs_le] at x y ⊢
    constructor <;> linarith [x.1, x.2, y.1, y.2]
  intro i j h0 h1 h2 h3
  have hD : 0 ≤ D := (abs_nonneg _).trans (hUφ [i0 - 1, j0] (F.inBounds2.2 ⟨i0 - 1, j0, rfl, by omega⟩) fun h => by simp [F.InBounds] at h)
  have hE : 0 ≤ max D ((t + beta * (C0 * dx 0 ^ 2 + C1 * dx 1 ^ 2) / 24) / c) := hD.trans (le_max_left _ _)
  have hm : t + beta * (C0 * dx 0 ^ 2 + C1 * dx 1 ^ 2) / 24 ≤ c * max D ((t + beta * (C0 * dx 0 ^ 2 + C1 * dx 1 ^ 2) / 24) / c) := by
    have := mul_le_mul_of_nonneg_left (le_max_right D ((t + beta * (C0 * dx 0 ^ 2 + C1 * dx 1 ^ 2) / 24) / c)) hc.le
    rwa [mul_div_cancel₀ _ hc.ne'] at this
  have x := he.near (U := U) (V := F.cells2 o dx φ) (c := c) (E := max D ((t + beta * (C0 * dx 0 ^ 2 + C1 * dx 1 ^ 2) / 24) / c)) hi hj hE (fun i j h0 h1 h2 h3 => by simpa using hca) (fun p hw hb => (abs_le.1 (hUφ p hw hb)).2.trans (le_max_left _ _)) (fun i j h0 h1 h2 h3 => (abs_le.1 (both i j h0 h1 h2 h3)).2.trans hm) [i, j] (F.inBounds2.2 ⟨i, j, rfl, by omega⟩)
  have y := he.near (U := F.cells2 o dx φ) (V := U) (c := c) (E := max D ((t + beta * (C0 * dx 0 ^ 2 + C1 * dx 1 ^ 2) / 24) / c)) hi hj hE (fun i j h0 h1 h2 h3 => by simpa using hca) (fun p hw hb => by have := (abs_le.1 (hUφ p hw hb)).1; have := le_max_left D ((t + beta * (C0 * dx 0 ^ 2 + C1 * dx 1 ^ 2) / 24) / c); linarith) (fun i j h0 h1 h2 h3 => by have := (abs_le.1 (both i j h0 h1 h2 h3)).1; linarith) [i, j] (F.inBounds2.2 ⟨i, j, rfl, by omega⟩)
  simp only [F.cells2, List.getD_cons_zero, List.getD_cons_succ] at x y
  exact abs_le.2 ⟨by linarith, by linarith⟩

example : ∃ m1 m2, ∃ R : List Int → ℝ, Cuda.flux2d 0 1 2 3 exW ⟨2, 0⟩ ⟨3, 0⟩ 2 ⟨1, 0⟩ ⟨5, 0⟩ ⟨6, 0⟩ (fun _ => revBackend) (exFun (exG2 (exU2))) = .ok m1 ∧ Cuda.diffusionV2Apply2d 0 2 1 3 3 2 exW 2 ⟨1, 0⟩ ⟨5, 0⟩ ⟨6, 0⟩ 1 ⟨8, 0⟩ (fun _ => seqBackend) m1 = .ok m2 ∧
      (∀ p, F.InBounds [(0, 2), (1, 3)] p → F.El m2 (F.cell2d ⟨8, 0⟩ 0 1 2 3 1) p (R p)) ∧
      ∀ t, (∀ i j, 0 ≤ i → i ≤ 2 → 1 ≤ j → j ≤ 3 → |R [i, j] - F.diffusion2 3 2 (fun _ _ => 1) exk20 exk21 exφ2 (F.centre (ex0 0) (exW 0) i) (F.centre (ex0 1) (exW 1) j)| ≤ t) → ∀ i j, 0 ≤ i → i ≤ 2 → 1 ≤ j → j ≤ 3 →
        |exU2 [i, j] - exφ2 (F.centre (ex0 0) (exW 0) i) (F.centre (ex0 1) (exW 1) j)| ≤ max 1 ((t + 2 * ((48 + 312 * 3 ^ 2) * exW 0 ^ 2 + (48 + 312 * 7 ^ 2) * exW 1 ^ 2) / 24) / 3) :=
  C72_v2_2d (fun _ => revBackend_ok) (fun _ => seqBackend_ok) (by decide) (by decide) (by decide) (by decide) (exFun_args (by ex_args)) (apart_blk (by decide)) ⟨apart_blk (by decide), apart_blk (by decide)⟩ (exFun_holds rfl rfl (exRat_ok rfl (by decide) (by decide))) (exFun_holds rfl rfl (exRat_ok rfl (by decide) (by decide))) (exFun_holds rfl rfl (exRat_ok rfl (by decide) (by decide))) (exW_pos 0) (exW_pos 1) (fun p _ _ => by simp [exU2]) (fun j _ _ => exSmooth (L := 3) (c := (F.centre (ex0 1) (exW 1) j) ^ 4) (fun x => by ex_field) (fun x => rfl) (by norm_num [F.centre, exW, ex0]) (by norm_num [F.centre, exW, ex0])) (fun i _ _ => exSmooth (L := 7) (c := (F.centre (ex0 0) (exW 0) i) ^ 4) (fun x => by ex_field) (fun x => rfl) (by norm_num [F.centre, exW, ex0]) (by norm_num [F.centre, exW, ex0])) (by norm_num) (by norm_num) exAcc_v2_2

/-- 2D, Poisson operator, a smooth function: if the result is within `t` of the differential operator applied to the function and the field is within `D` of it in the cells around the box, the field is within `D` plus (`t` plus the error of the difference quotients) times the product of the distances to the layers of cells next to the box over `2 beta` of the function, along each axis. -/
theorem C72_poisson_2d {i0 j0 i1 j1 gcw rgcw : Int} {beta : ℝ} {dx : Nat → ℝ} {u f0 f1 res : Ptr} {β1 β2 : Nat → Backend} {m : Mem ℝ} {U : List Int → ℝ} {o : Nat → ℝ} {φ : ℝ → ℝ → ℝ} {C0 C1 D : ℝ}
    (hβ1 : ∀ n, ValidBackend (β1 n)) (hβ2 : ∀ n, ValidBackend (β2 n)) (hi : i0 ≤ i1) (hj : j0 ≤ j1) (hg : 1 ≤ gcw) (hrgcw : 0 ≤ rgcw)
    (h : F.Args m [(F.cell2d u i0 j0 i1 j1 gcw)] [(F.face2d0 f0 i0 j0 i1 j1 0), (F.face2d1 f1 i0 j0 i1 j1 0), (F.cell2d res i0 j0 i1 j1 rgcw)])
    (hp : F.Apart (F.face2d0 f0 i0 j0 i1 j1 0) (F.face2d1 f1 i0 j0 i1 j1 0))
    (hr : F.Apart (F.cell2d res i0 j0 i1 j1 rgcw) (F.face2d0 f0 i0 j0 i1 j1 0) ∧ F.Apart (F.cell2d res i0 j0 i1 j1 rgcw) (F.face2d1 f1 i0 j0 i1 j1 0)) (hU : F.Holds m (F.cell2d u i0 j0 i1 j1 gcw) U)
    (hd0 : 0 < dx 0) (hd1 : 0 < dx 1) (hUφ : ∀ p, F.InBounds [(i0 - 1, i1 + 1), (j0 - 1, j1 + 1)] p → ¬ F.InBounds [(i0, i1), (j0, j1)] p → |U p - F.cells2 o dx φ p| ≤ D)
    (s0 : ∀ j, j0 ≤ j → j ≤ j1 → F.SmoothField (fun s => φ s (F.centre (o 1) (dx 1) j)) (F.centre (o 0) (dx 0) (i0 - 1)) (F.centre (o 0) (dx 0) (i1 + 1)) C0) (s1 : ∀ i, i0 ≤ i → i ≤ i1 → F.SmoothField (fun s => φ (F.centre (o 0) (dx 0) i) s) (F.centre (o 1) (dx 1) (j0 - 1)) (F.centre (o 1) (dx 1) (j1 + 1)) C1)
    (he : F.Elliptic2 i0 j0 i1 j1 0 beta dx (fun _ => 1) (fun _ => 1) (fun _ => 1)) :
    ∃ m1 m2, ∃ R : List Int → ℝ, Cuda.poissonFlux2d i0 j0 i1 j1 dx gcw u f0 f1 β1 m = .ok m1 ∧ Cuda.poissonV2Apply2d i0 i1 j0 j1 beta dx f0 f1 rgcw res β2 m1 = .ok m2 ∧
      (∀ p, F.InBounds [(i0, i1), (j0, j1)] p → F.El m2 (F.cell2d res i0 j0 i1 j1 rgcw) p (R p)) ∧
      ∀ t, (∀ i j, i0 ≤ i → i ≤ i1 → j0 ≤ j → j ≤ j1 → |R [i, j] - -(beta * F.laplace2 φ (F.centre (o 0) (dx 0) i) (F.centre (o 1) (dx 1) j))| ≤ t) → ∀ i j, i0 ≤ i → i ≤ i1 → j0 ≤ j → j ≤ j1 →
        |U [i, j] - φ (F.centre (o 0) (dx 0) i) (F.centre (o 1) (dx 1) j)| ≤ D + (t + beta * (C0 * dx 0 ^ 2 + C1 * dx 1 ^ 2) / 12) * (((i - i0 + 1 : Int) : ℝ) * ((i1 + 1 - i : Int) : ℝ) * (dx 0 * dx 0)) / (2 * beta) ∧
        |U [i, j] - φ (F.centre (o 0) (dx 0) i) (F.centre (o 1) (dx 1) j)| ≤ D + (t + beta * (C0 * dx 0 ^ 2 + C1 * dx 1 ^ 2) / 12) * (((j - j0 + 1 : Int) : ℝ) * ((j1 + 1 - j : Int) : ℝ) * (dx 1 * dx 1)) / (2 * beta) := by
  obtain ⟨m1, m2, R, c1, c2, e, hR⟩ := energy_p_2 (beta := beta) (dx := dx) hβ1 hβ2 hi hj hg hrgcw h hp hr hU
  refine ⟨m1, m2, R, c1, c2, e, fun t ht => ?_⟩
  have N := F.near_laplace2 (beta := beta) (U := F.cells2 o dx φ) hd0 hd1 (fun _ _ => rfl) s0 s1
  rw [abs_of_pos he.beta] at N
  have both : ∀ i j, i0 ≤ i → i ≤ i1 → j0 ≤ j → j ≤ j1 → |F.op2 0 beta dx (fun _ => 1) (fun _ => 1) (fun _ => 1) U i j - F.op2 0 beta dx (fun _ => 1) (fun _ => 1) (fun _ => 1) (F.cells2 o dx φ) i j| ≤ t + beta * (C0 * dx 0 ^ 2 + C1 * dx 1 ^ 2) / 12 := fun i j h0 h1 h2 h3 => by
    have x := ht i j h0 h1 h2 h3
    rw [hR i j h0 h1 h2 h3] at x
    have y := N i j h0 h1 h2 h3
    rw [abs_le] at x y ⊢
    constructor <;> linarith [x.1, x.2, y.1, y.2]
  intro i j h0 h1 h2 h3
  have hT : 0 ≤ t + beta * (C0 * dx 0 ^ 2 + C1 * dx 1 ^ 2) / 12 := (abs_nonneg _).trans (both i j h0 h1 h2 h3)
  have a0 := he.barrier0 (U := U) (V := F.cells2 o dx φ) (D := D) (t := t + beta * (C0 * dx 0 ^ 2 + C1 * dx 1 ^ 2) / 12) hi hj hT (fun p hw hb => (abs_le.1 (hUφ p hw hb)).2) (fun i j h0 h1 h2 h3 => (abs_le.1 (both i j h0 h1 h2 h3)).2) i j h0 h1 h2 h3
  have b0 := he.barrier0 (U := F.cells2 o dx φ) (V := U) (D := D) (t := t + beta * (C0 * dx 0 ^ 2 + C1 * dx 1 ^ 2) / 12) hi hj hT (fun p hw hb => by have := (abs_le.1 (hUφ p hw hb)).1; linarith) (fun i j h0 h1 h2 h3 => by have := (abs_le.1 (both i j h0 h1 h2 h3)).1; linarith) i j h0 h1 h2 h3
  have a1 := he.barrier1 (U := U) (V := F.cells2 o dx φ) (D := D) (t := t + beta * (C0 * dx 0 ^ 2 + C1 * dx 1 ^ 2) / 12) hi hj hT (fun p hw hb => (abs_le.1 (hUφ p hw hb)).2) (fun i j h0 h1 h2 h3 => (abs_le.1 (both i j h0 h1 h2 h3)).2) i j h0 h1 h2 h3
  have b1 := he.barrier1 (U := F.cells2 o dx φ) (V := U) (D := D) (t := t + beta * (C0 * dx 0 ^ 2 + C1 * dx 1 ^ 2) / 12) hi hj hT (fun p hw hb => by have := (abs_le.1 (hUφ p hw hb)).1; linarith) (fun i j h0 h1 h2 h3 => by have := (abs_le.1 (both i j h0 h1 h2 h3)).1; linarith) i j h0 h1 h2 h3
  simp only [F.cells2, List.getD_cons_zero, List.getD_cons_succ] at a0 b0 a1 b1
  exact ⟨abs_le.2 ⟨by linarith, by linarith⟩, abs_le.2 ⟨by linarith, by linarith⟩⟩

example : ∃ m1 m2, ∃ R : List Int → ℝ, Cuda.poissonFlux2d 0 1 2 3 exW 2 ⟨1, 0⟩ ⟨5, 0⟩ ⟨6, 0⟩ (fun _ => revBackend) (exFun (exG2 (exU2))) = .ok m1 ∧ Cuda.poissonV2Apply2d 0 2 1 3 2 exW ⟨5, 0⟩ ⟨6, 0⟩ 1 ⟨8, 0⟩ (fun _ => seqBackend) m1 = .ok m2 ∧
      (∀ p, F.InBounds [(0, 2), (1, 3)] p → F.El m2 (F.cell2d ⟨8, 0⟩ 0 1 2 3 1) p (R p)) ∧
      ∀ t, (∀ i j, 0 ≤ i → i ≤ 2 → 1 ≤ j → j ≤ 3 → |R [i, j] - -(2 * F.laplace2 exφ2 (F.centre (ex0 0) (exW 0) i) (F.centre (ex0 1) (exW 1) j))| ≤ t) → ∀ i j, 0 ≤ i → i ≤ 2 → 1 ≤ j → j ≤ 3 →
        |exU2 [i, j] - exφ2 (F.centre (ex0 0) (exW 0) i) (F.centre (ex0 1) (exW 1) j)| ≤ 1 + (t + 2 * (24 * exW 0 ^ 2 + 24 * exW 1 ^ 2) / 12) * (((i - 0 + 1 : Int) : ℝ) * ((2 + 1 - i : Int) : ℝ) * (exW 0 * exW 0)) / (2 * 2) ∧
        |exU2 [i, j] - exφ2 (F.centre (ex0 0) (exW 0) i) (F.centre (ex0 1) (exW 1) j)| ≤ 1 + (t + 2 * (24 * exW 0 ^ 2 + 24 * exW 1 ^ 2) / 12) * (((j - 1 + 1 : Int) : ℝ) * ((3 + 1 - j : Int) : ℝ) * (exW 1 * exW 1)) / (2 * 2) :=
  C72_poisson_2d (fun _ => revBackend_ok) (fun _ => seqBackend_ok) (by decide) (by decide) (by decide) (by decide) (exFun_args (by ex_args)) (apart_blk (by decide)) ⟨apart_blk (by decide), apart_blk (by decide)⟩ (exFun_holds rfl rfl (exRat_ok rfl (by decide) (by decide))) (exW_pos 0) (exW_pos 1) (fun p _ _ => by simp [exU2]) (fun j _ _ => exSmoothF (c := (F.centre (ex0 1) (exW 1) j) ^ 4) fun x => by ex_field) (fun i _ _ => exSmoothF (c := (F.centre (ex0 0) (exW 0) i) ^ 4) fun x => by ex_field) exAcc_p_2

/-- 3D, diffusion operator with cell coefficients, a smooth function: if the result is within `t` of the differential operator applied to the function and the field is within `D` of it in the cells around the box, the field is within the larger of `D` and (`t` plus the error of the difference quotients) over `c` of the function, `c` a lower bound of the reaction coefficient. -/
theorem C72_v1_3d {i0 j0 k0 i1 j1 k1 agcw gcw rgcw : Int} {alpha beta : ℝ} {dx : Nat → ℝ} {a u b0 b1 b2 f0 f1 f2 res : Ptr} {β1 β2 : Nat → Backend} {m : Mem ℝ} {A U : List Int → ℝ} {o : Nat → ℝ} {φ q κ0 κ1 κ2 : ℝ → ℝ → ℝ → ℝ} {C0 C1 C2 D c : ℝ}
    (hβ1 : ∀ n, ValidBackend (β1 n)) (hβ2 : ∀ n, ValidBackend (β2 n)) (hi : i0 ≤ i1) (hj : j0 ≤ j1) (hk : k0 ≤ k1) (hg : 1 ≤ gcw) (hagcw : 0 ≤ agcw) (hrgcw : 0 ≤ rgcw)
    (h : F.Args m [(F.cell3d a i0 j0 k0 i1 j1 k1 agcw), (F.cell3d u i0 j0 k0 i1 j1 k1 gcw), (F.face3d0 b0 i0 j0 k0 i1 j1 k1 0), (F.face3d1 b1 i0 j0 k0 i1 j1 k1 0), (F.face3d2 b2 i0 j0 k0 i1 j1 k1 0)] [(F.face3d0 f0 i0 j0 k0 i1 j1 k1 0), (F.face3d1 f1 i0 j0 k0 i1 j1 k1 0), (F.face3d2 f2 i0 j0 k0 i1 j1 k1 0), (F.cell3d res i0 j0 k0 i1 j1 k1 rgcw)])
    (hp : F.Apart (F.face3d0 f0 i0 j0 k0 i1 j1 k1 0) (F.face3d1 f1 i0 j0 k0 i1 j1 k1 0) ∧ F.Apart (F.face3d0 f0 i0 j0 k0 i1 j1 k1 0) (F.face3d2 f2 i0 j0 k0 i1 j1 k1 0) ∧ F.Apart (F.face3d1 f1 i0 j0 k0 i1 j1 k1 0) (F.face3d2 f2 i0 j0 k0 i1 j1 k1 0))
    (hr : F.Apart (F.cell3d res i0 j0 k0 i1 j1 k1 rgcw) (F.face3d0 f0 i0 j0 k0 i1 j1 k1 0) ∧ F.Apart (F.cell3d res i0 j0 k0 i1 j1 k1 rgcw) (F.face3d1 f1 i0 j0 k0 i1 j1 k1 0) ∧ F.Apart (F.cell3d res i0 j0 k0 i1 j1 k1 rgcw) (F.face3d2 f2 i0 j0 k0 i1 j1 k1 0)) (hA : F.Holds m (F.cell3d a i0 j0 k0 i1 j1 k1 agcw) A) (hB0 : F.Holds m (F.face3d0 b0 i0 j0 k0 i1 j1 k1 0) (F.faces30 o dx κ0)) (hB1 : F.Holds m (F.face3d1 b1 i0 j0 k0 i1 j1 k1 0) (F.faces31 o dx κ1)) (hB2 : F.Holds m (F.face3d2 b2 i0 j0 k0 i1 j1 k1 0) (F.faces32 o dx κ2)) (hU : F.Holds m (F.cell3d u i0 j0 k0 i1 j1 k1 gcw) U)
    (hd0 : 0 < dx 0) (hd1 : 0 < dx 1) (hd2 : 0 < dx 2) (hUφ : ∀ p, F.InBounds [(i0 - 1, i1 + 1), (j0 - 1, j1 + 1), (k0 - 1, k1 + 1)] p → ¬ F.InBounds [(i0, i1), (j0, j1), (k0, k1)] p → |U p - F.cells3 o dx φ p| ≤ D) (hAq : ∀ p, F.InBounds [(i0, i1), (j0, j1), (k0, k1)] p → A p = F.cells3 o dx q p)
    (s0 : ∀ j k, j0 ≤ j → j ≤ j1 → k0 ≤ k → k ≤ k1 → F.SmoothFlux (fun s => φ s (F.centre (o 1) (dx 1) j) (F.centre (o 2) (dx 2) k)) (fun s => κ0 s (F.centre (o 1) (dx 1) j) (F.centre (o 2) (dx 2) k)) (F.centre (o 0) (dx 0) (i0 - 1)) (F.centre (o 0) (dx 0) (i1 + 1)) C0) (s1 : ∀ i k, i0 ≤ i → i ≤ i1 → k0 ≤ k → k ≤ k1 → F.SmoothFlux (fun s => φ (F.centre (o 0) (dx 0) i) s (F.centre (o 2) (dx 2) k)) (fun s => κ1 (F.centre (o 0) (dx 0) i) s (F.centre (o 2) (dx 2) k)) (F.centre (o 1) (dx 1) (j0 - 1)) (F.centre (o 1) (dx 1) (j1 + 1)) C1) (s2 : ∀ i j, i0 ≤ i → i ≤ i1 → j0 ≤ j → j ≤ j1 → F.SmoothFlux (fun s => φ (F.centre (o 0) (dx 0) i) (F.centre (o 1) (dx 1) j) s) (fun s => κ2 (F.centre (o 0) (dx 0) i) (F.centre (o 1) (dx 1) j) s) (F.centre (o 2) (dx 2) (k0 - 1)) (F.centre (o 2) (dx 2) (k1 + 1)) C2) (hc : 0 < c) (hca : ∀ p, F.InBounds [(i0, i1), (j0, j1), (k0, k1)] p → c ≤ alpha * A p)
    (he : F.Elliptic3 i0 j0 k0 i1 j1 k1 alpha beta dx A (F.faces30 o dx κ0) (F.faces31 o dx κ1) (F.faces32 o dx κ2)) :
    ∃ m1 m2, ∃ R : List Int → ℝ, Cuda.flux3d i0 j0 k0 i1 j1 k1 dx b0 b1 b2 gcw u f0 f1 f2 β1 m = .ok m1 ∧ Cuda.diffusionV1Apply3d i0 i1 j0 j1 k0 k1 alpha beta dx agcw a gcw u f0 f1 f2 rgcw res β2 m1 = .ok m2 ∧
      (∀ p, F.InBounds [(i0, i1), (j0, j1), (k0, k1)] p → F.El m2 (F.cell3d res i0 j0 k0 i1 j1 k1 rgcw) p (R p)) ∧
      ∀ t, (∀ i j k, i0 ≤ i → i ≤ i1 → j0 ≤ j → j ≤ j1 → k0 ≤ k → k ≤ k1 → |R [i, j, k] - F.diffusion3 alpha beta q κ0 κ1 κ2 φ (F.centre (o 0) (dx 0) i) (F.centre (o 1) (dx 1) j) (F.centre (o 2) (dx 2) k)| ≤ t) → ∀ i j k, i0 ≤ i → i ≤ i1 → j0 ≤ j → j ≤ j1 → k0 ≤ k → k ≤ k1 →
        |U [i, j, k] - φ (F.centre (o 0) (dx 0) i) (F.centre (o 1) (dx 1) j) (F.centre (o 2) (dx 2) k)| ≤ max D ((t + beta * (C0 * dx 0 ^ 2 + C1 * dx 1 ^ 2 + C2 * dx 2 ^ 2) / 24) / c) := by
  obtain ⟨m1, m2, R, c1, c2, e, hR⟩ := energy_v1_3 (alpha := alpha) (beta := beta) (dx := dx) hβ1 hβ2 hi hj hk hg hagcw hrgcw h hp hr hA hB0 hB1 hB2 hU
  refine ⟨m1, m2, R, c1, c2, e, fun t ht => ?_⟩
  have N := F.near_diffusion3 (beta := beta) (U := F.cells3 o dx φ) (q := q) (alpha := alpha) hd0 hd1 hd2 (fun _ _ => rfl) hAq s0 s1 s2
  rw [abs_of_pos he.beta] at N
  have both : ∀ i j k, i0 ≤ i → i ≤ i1 → j0 ≤ j → j ≤ j1 → k0 ≤ k → k ≤ k1 → |F.op3 alpha beta dx A (F.faces30 o dx κ0) (F.faces31 o dx κ1) (F.faces32 o dx κ2) U i j k - F.op3 alpha beta dx A (F.faces30 o dx κ0) (F.faces31 o dx κ1) (F.faces32 o dx κ2) (F.cells3 o dx φ) i j k| ≤ t + beta * (C0 * dx 0 ^ 2 + C1 * dx 1 ^ 2 + C2 * dx 2 ^ 2) / 24 := fun i j k h0 h1 h2 h3 h4 h5 => by
    have x := ht i j k h0 h1 h2 h3 h4 h5
    rw [hR i j k h0 h1 h2 h3 h4 h5] at x
    have y := N i j k h0 h1 h2 h3 h4 h5
    rw [abs_le] at x y ⊢
    constructor <;> linarith [x.1, x.2, y.1, y.2]
  intro i j k h0 h1 h2 h3 h4 h5
  have hD : 0 ≤ D := (abs_nonneg _).trans (hUφ [i0 - 1, j0, k0] (F.inBounds3.2 ⟨i0 - 1, j0, k0, rfl, by omega⟩) fun h => by simp [F.InBounds] at h)
  have hE : 0 ≤ max D ((t + beta * (C0 * dx 0 ^ 2 + C1 * dx 1 ^ 2 + C2 * dx 2 ^ 2) / 24) / c) := hD.trans (le_max_left _ _)
  have hm : t + beta * (C0 * dx 0 ^ 2 + C1 * dx 1 ^ 2 + C2 * dx 2 ^ 2) / 24 ≤ c * max D ((t + beta * (C0 * dx 0 ^ 2 + C1 * dx 1 ^ 2 + C2 * dx 2 ^ 2) / 24) / c) := by
    have := mul_le_mul_of_nonneg_left (le_max_right D ((t + beta * (C0 * dx 0 ^ 2 + C1 * dx 1 ^ 2 + C2 * dx 2 ^ 2) / 24) / c)) hc.le
    rwa [mul_div_cancel₀ _ hc.ne'] at this
  have x := he.near (U := U) (V := F.cells3 o dx φ) (c := c) (E := max D ((t + beta * (C0 * dx 0 ^ 2 + C1 * dx 1 ^ 2 + C2 * dx 2 ^ 2) / 24) / c)) hi hj hk hE (fun i j k h0 h1 h2 h3 h4 h5 => hca [i, j, k] (F.inBounds3.2 ⟨i, j, k, rfl, by omega⟩)) (fun p hw hb => (abs_le.1 (hUφ p hw hb)).2.trans (le_max_left _ _)) (fun i j k h0 h1 h2 h3 h4 h5 => (abs_le.1 (both i j k h0 h1 h2 h3 h4 h5)).2.trans hm) [i, j, k] (F.inBounds3.2 ⟨i, j, k, rfl, by omega⟩)
  have y := he.near (U := F.cells3 o dx φ) (V := U) (c := c) (E := max D ((t + beta * (C0 * dx 0 ^ 2 + C1 * dx 1 ^ 2 + C2 * dx 2 ^ 2) / 24) / c)) hi hj hk hE (fun i j k h0 h1 h2 h3 h4 h5 => hca [i, j, k] (F.inBounds3.2 ⟨i, j, k, rfl, by omega⟩)) (fun p hw hb => by have := (abs_le.1 (hUφ p hw hb)).1; have := le_max_left D ((t + beta * (C0 * dx 0 ^ 2 + C1 * dx 1 ^ 2 + C2 * dx 2 ^ 2) / 24) / c); linarith) (fun i j k h0 h1 h2 h3 h4 h5 => by have := (abs_le.1 (both i j k h0 h1 h2 h3 h4 h5)).1; linarith) [i, j, k] (F.inBounds3.2 ⟨i, j, k, rfl, by omega⟩)
  simp only [F.cells3, List.getD_cons_zero, List.getD_cons_succ] at x y
  exact abs_le.2 ⟨by linarith, by linarith⟩

example : ∃ m1 m2, ∃ R : List Int → ℝ, Cuda.flux3d 0 1 2 1 2 3 exW ⟨2, 0⟩ ⟨3, 0⟩ ⟨4, 0⟩ 2 ⟨1, 0⟩ ⟨5, 0⟩ ⟨6, 0⟩ ⟨7, 0⟩ (fun _ => revBackend) (exFun (exG3 (exU3))) = .ok m1 ∧ Cuda.diffusionV1Apply3d 0 1 1 2 2 3 3 2 exW 1 ⟨0, 0⟩ 2 ⟨1, 0⟩ ⟨5, 0⟩ ⟨6, 0⟩ ⟨7, 0⟩ 1 ⟨8, 0⟩ (fun _ => seqBackend) m1 = .ok m2 ∧
      (∀ p, F.InBounds [(0, 1), (1, 2), (2, 3)] p → F.El m2 (F.cell3d ⟨8, 0⟩ 0 1 2 1 2 3 1) p (R p)) ∧
      ∀ t, (∀ i j k, 0 ≤ i → i ≤ 1 → 1 ≤ j → j ≤ 2 → 2 ≤ k → k ≤ 3 → |R [i, j, k] - F.diffusion3 3 2 exq3 exk30 exk31 exk32 exφ3 (F.centre (ex0 0) (exW 0) i) (F.centre (ex0 1) (exW 1) j) (F.centre (ex0 2) (exW 2) k)| ≤ t) → ∀ i j k, 0 ≤ i → i ≤ 1 → 1 ≤ j → j ≤ 2 → 2 ≤ k → k ≤ 3 →
        |exU3 [i, j, k] - exφ3 (F.centre (ex0 0) (exW 0) i) (F.centre (ex0 1) (exW 1) j) (F.centre (ex0 2) (exW 2) k)| ≤ max 1 ((t + 2 * ((48 + 312 * 3 ^ 2) * exW 0 ^ 2 + (48 + 312 * 7 ^ 2) * exW 1 ^ 2 + (48 + 312 * 12 ^ 2) * exW 2 ^ 2) / 24) / 3) :=
  C72_v1_3d (fun _ => revBackend_ok) (fun _ => seqBackend_ok) (by decide) (by decide) (by decide) (by decide) (by decide) (by decide) (exFun_args (by ex_args)) ⟨apart_blk (by decide), apart_blk (by decide), apart_blk (by decide)⟩ ⟨apart_blk (by decide), apart_blk (by decide), apart_blk (by decide)⟩ (exFun_holds rfl rfl (exRat_ok rfl (by decide) (by decide))) (exFun_holds rfl rfl (exRat_ok rfl (by decide) (by decide))) (exFun_holds rfl rfl (exRat_ok rfl (by decide) (by decide))) (exFun_holds rfl rfl (exRat_ok rfl (by decide) (by decide))) (exFun_holds rfl rfl (exRat_ok rfl (by decide) (by decide))) (exW_pos 0) (exW_pos 1) (exW_pos 2) (fun p _ _ => by simp [exU3]) (fun _ _ => rfl) (fun j k _ _ _ _ => exSmooth (L := 3) (c := (F.centre (ex0 1) (exW 1) j) ^ 4 + (F.centre (ex0 2) (exW 2) k) ^ 4) (fun x => by ex_field) (fun x => rfl) (by norm_num [F.centre, exW, ex0]) (by norm_num [F.centre, exW, ex0])) (fun i k _ _ _ _ => exSmooth (L := 7) (c := (F.centre (ex0 0) (exW 0) i) ^ 4 + (F.centre (ex0 2) (exW 2) k) ^ 4) (fun x => by ex_field) (fun x => rfl) (by norm_num [F.centre, exW, ex0]) (by norm_num [F.centre, exW, ex0])) (fun i j _ _ _ _ => exSmooth (L := 12) (c := (F.centre (ex0 0) (exW 0) i) ^ 4 + (F.centre (ex0 1) (exW 1) j) ^ 4) (fun x => by ex_field) (fun x => rfl) (by norm_num [F.centre, exW, ex0]) (by norm_num [F.centre, exW, ex0])) (by norm_num) exC3 exAcc_v1_3

/-- 3D, diffusion operator with constant reaction, a smooth function: if the result is within `t` of the differential operator applied to the function and the field is within `D` of it in the cells around the box, the field is within the larger of `D` and (`t` plus the error of the difference quotients) over `c` of the function, `c` a lower bound of the reaction coefficient. -/
theorem C72_v2_3d {i0 j0 k0 i1 j1 k1 gcw rgcw : Int} {alpha beta : ℝ} {dx : Nat → ℝ} {u b0 b1 b2 f0 f1 f2 res : Ptr} {β1 β2 : Nat → Backend} {m : Mem ℝ} {U : List Int → ℝ} {o : Nat → ℝ} {φ κ0 κ1 κ2 : ℝ → ℝ → ℝ → ℝ} {C0 C1 C2 D c : ℝ}
    (hβ1 : ∀ n, ValidBackend (β1 n)) (hβ2 : ∀ n, ValidBackend (β2 n)) (hi : i0 ≤ i1) (hj : j0 ≤ j1) (hk : k0 ≤ k1) (hg : 1 ≤ gcw) (hrgcw : 0 ≤ rgcw)
    (h : F.Args m [(F.cell3d u i0 j0 k0 i1 j1 k1 gcw), (F.face3d0 b0 i0 j0 k0 i1 j1 k1 0), (F.face3d1 b1 i0 j0 k0 i1 j1 k1 0), (F.face3d2 b2 i0 j0 k0 i1 j1 k1 0)] [(F.face3d0 f0 i0 j0 k0 i1 j1 k1 0), (F.face3d1 f1 i0 j0 k0 i1 j1 k1 0), (F.face3d2 f2 i0 j0 k0 i1 j1 k1 0), (F.cell3d res i0 j0 k0 i1 j1 k1 rgcw)])
    (hp : F.Apart (F.face3d0 f0 i0 j0 k0 i1 j1 k1 0) (F.face3d1 f1 i0 j0 k0 i1 j1 k1 0) ∧ F.Apart (F.face3d0 f0 i0 j0 k0 i1 j1 k1 0) (F.face3d2 f2 i0 j0 k0 i1 j1 k1 0) ∧ F.Apart (F.face3d1 f1 i0 j0 k0 i1 j1 k1 0) (F.face3d2 f2 i0 j0 k0 i1 j1 k1 0))
    (hr : F.Apart (F.cell3d res i0 j0 k0 i1 j1 k1 rgcw) (F.face3d0 f0 i0 j0 k0 i1 j1 k1 0) ∧ F.Apart (F.cell3d res i0 j0 k0 i1 j1 k1 rgcw) (F.face3d1 f1 i0 j0 k0 i1 j1 k1 0) ∧ F.Apart (F.cell3d res i0 j0 k0 i1 j1 k1 rgcw) (F.face3d2 f2 i0 j0 k0 i1 j1 k1 0)) (hB0 : F.Holds m (F.face3d0 b0 i0 j0 k0 i1 j1 k1 0) (F.faces30 o dx κ0)) (hB1 : F.Holds m (F.face3d1 b1 i0 j0 k0 i1 j1 k1 0) (F.faces31 o dx κ1)) (hB2 : F.Holds m (F.face3d2 b2 i0 j0 k0 i1 j1 k1 0) (F.faces32 o dx κ2)) (hU : F.Holds m (F.cell3d u i0 j0 k0 i1 j1 k1 gcw) U)
    (hd0 : 0 < dx 0) (hd1 : 0 < dx 1) (hd2 : 0 < dx 2) (hUφ : ∀ p, F.InBounds [(i0 - 1, i1 + 1), (j0 - 1, j1 + 1), (k0 - 1, k1 + 1)] p → ¬ F.InBounds [(i0, i1), (j0, j1), (k0, k1)] p → |U p - F.cells3 o dx φ p| ≤ D)
    (s0 : ∀ j k, j0 ≤ j → j ≤ j1 → k0 ≤ k → k ≤ k1 → F.SmoothFlux (fun s => φ s (F.centre (o 1) (dx 1) j) (F.centre (o 2) (dx 2) k)) (fun s => κ0 s (F.centre (o 1) (dx 1) j) (F.centre (o 2) (dx 2) k)) (F.centre (o 0) (dx 0) (i0 - 1)) (F.centre (o 0) (dx 0) (i1 + 1)) C0) (s1 : ∀ i k, i0 ≤ i → i ≤ i1 → k0 ≤ k → k ≤ k1 → F.SmoothFlux (fun s => φ (F.centre (o 0) (dx 0) i) s (F.centre (o 2) (dx 2) k)) (fun s => κ1 (F.centre (o 0) (dx 0) i) s (F.centre (o 2) (dx 2) k)) (F.centre (o 1) (dx 1) (j0 - 1)) (F.centre (o 1) (dx 1) (j1 + 1)) C1) (s2 : ∀ i j, i0 ≤ i → i ≤ i1 → j0 ≤ j → j ≤ j1 → F.SmoothFlux (fun s => φ (F.centre (o 0) (dx 0) i) (F.centre (o 1) (dx 1) j) s) (fun s => κ2 (F.centre (o 0) (dx 0) i) (F.centre (o 1) (dx 1) j) s) (F.centre (o 2) (dx 2) (k0 - 1)) (F.centre (o 2) (dx 2) (k1 + 1)) C2) (hc : 0 < c) (hca : c ≤ alpha)
    (he : F.Elliptic3 i0 j0 k0 i1 j1 k1 alpha beta dx (fun _ => 1) (F.faces30 o dx κ0) (F.faces31 o dx κ1) (F.faces32 o dx κ2)) :
    ∃ m1 m2, ∃ R : List Int → ℝ, Cuda.flux3d i0 j0 k0 i1 j1 k1 dx b0 b1 b2 gcw u f0 f1 f2 β1 m = .ok m1 ∧ Cuda.diffusionV2Apply3d i0 i1 j0 j1 k0 k1 alpha beta dx gcw u f0 f1 f2 rgcw res β2 m1 = .ok m2 ∧
      (∀ p, F.InBounds [(i0, i1), (j0, j1), (k0, k1)] p → F.El m2 (F.cell3d res i0 j0 k0 i1 j1 k1 rgcw) p (R p)) ∧
      ∀ t, (∀ i j k, i0 ≤ i → i ≤ i1 → j0 ≤ j → j ≤ j1 → k0 ≤ k → k ≤ k1 → |R [i, j, k] - F.diffusion3 alpha beta (fun _ _ _ => 1) κ0 κ1 κ2 φ (F.centre (o 0) (dx 0) i) (F.centre (o 1) (dx 1) j) (F.centre (o 2) (dx 2) k)| ≤ t) → ∀ i j k, i0 ≤ i → i ≤ i1 → j0 ≤ j → j ≤ j1 → k0 ≤ k → k ≤ k1 →
        |U [i, j, k] - φ (F.centre (o 0) (dx 0) i) (F.centre (o 1) (dx 1) j) (F.centre (o 2) (dx 2) k)| ≤ max D ((t + beta * (C0 * dx 0 ^ 2 + C1 * dx 1 ^ 2 + C2 * dx 2 ^ 2) / 24) / c) := by
  obtain ⟨m1, m2, R, c1, c2, e, hR⟩ := energy_v2_3 (alpha := alpha) (beta := beta) (dx := dx) hβ1 hβ2 hi hj hk hg hrgcw h hp hr hB0 hB1 hB2 hU
  refine ⟨m1, m2, R, c1, c2, e, fun t ht => ?_⟩
  have N := F.near_diffusion3 (beta := beta) (U := F.cells3 o dx φ) (q := fun _ _ _ => 1) (A := fun _ => 1) (alpha := alpha) hd0 hd1 hd2 (fun _ _ => rfl) (fun _ _ => rfl) s0 s1 s2
  rw [abs_of_pos he.beta] at N
  have both : ∀ i j k, i0 ≤ i → i ≤ i1 → j0 ≤ j → j ≤ j1 → k0 ≤ k → k ≤ k1 → |F.op3 alpha beta dx (fun _ => 1) (F.faces30 o dx κ0) (F.faces31 o dx κ1) (F.faces32 o dx κ2) U i j k - F.op3 alpha beta dx (fun _ => 1) (F.faces30 o dx κ0) (F.faces31 o dx κ1) (F.faces32 o dx κ2) (F.cells3 o dx φ) i j k| ≤ t + beta * (C0 * dx 0 ^ 2 + C1 * dx 1 ^ 2 + C2 * dx 2 ^ 2) / 24 := fun i j k h0 h1 h2 h3 h4 h5 => by
    have x := ht i j k h0 h1 h2 h3 h4 h5
    rw [hR i j k h0 h1 h2 h3 h4 h5] at x
    have y := N i j k h0 h1 h2 h3 h4 h5
    rw [abs_le] at x y ⊢
    constructor <;> linarith [x.1, x.2, y.1, y.2]
  intro i j k h0 h1 h2 h3 h4 h5
  have hD : 0 ≤ D := (abs_nonneg _).trans (hUφ [i0 - 1, j0, k0] (F.inBounds3.2 ⟨i0 - 1, j0, k0, rfl, by omega⟩) fun h => by simp [F.InBounds] at h)
  have hE : 0 ≤ max D ((t + beta * (C0 * dx 0 ^ 2 + C1 * dx 1 ^ 2 + C2 * dx 2 ^ 2) / 24) / c) := hD.trans (le_max_left _ _)
  have hm : t + beta * (C0 * dx 0 ^ 2 + C1 * dx 1 ^ 2 + C2 * dx 2 ^ 2) / 24 ≤ c * max D ((t + beta * (C0 * dx 0 ^ 2 + C1 * dx 1 ^ 2 + C2 * dx 2 ^ 2) / 24) / c) := by
    have := mul_le_mul_of_nonneg_left (le_max_right D ((t + beta * (C0 * dx 0 ^ 2 + C1 * dx 1 ^ 2 + C2 * dx 2 ^ 2) / 24) / c)) hc.le
    rwa [mul_div_cancel₀ _ hc.ne'] at this
  have x := he.near (U := U) (V := F.cells3 o dx φ) (c := c) (E := max D ((t + beta * (C0 * dx 0 ^ 2 + C1 * dx 1 ^ 2 + C2 * dx 2 ^ 2) / 24) / c)) hi hj hk hE (fun i j k h0 h1 h2 h3 h4 h5 => by simpa using hca) (fun p hw hb => (abs_le.1 (hUφ p hw hb)).2.trans (le_max_left _ _)) (fun i j k h0 h1 h2 h3 h4 h5 => (abs_le.1 (both i j k h0 h1 h2 h3 h4 h5)).2.trans hm) [i, j, k] (F.inBounds3.2 ⟨i, j, k, rfl, by omega⟩)
  have y := he.near (U := F.cells3 o dx φ) (V := U) (c := c) (E := max D ((t + beta * (C0 * dx 0 ^ 2 + C1 * dx 1 ^ 2 + C2 * dx 2 ^ 2) / 24) / c)) hi hj hk hE (fun i j k h0 h1 h2 h3 h4 h5 => by simpa using hca) (fun p hw hb => by have := (abs_le.1 (hUφ p hw hb)).1; have := le_max_left D ((t + beta * (C0 * dx 0 ^ 2 + C1 * dx 1 ^ 2 + C2 * dx 2 ^ 2) / 24) / c); linarith) (fun i j k h0 h1 h2 h3 h4 h5 => by have := (abs_le.1 (both i j k h0 h1 h2 h3 h4 h5)).1; linarith) [i, j, k] (F.inBounds3.2 ⟨i, j, k, rfl, by omega⟩)
  simp only [F.cells3, List.getD_cons_zero, List.getD_cons_succ] at x y
  exact abs_le.2 ⟨by linarith, by linarith⟩

example : ∃ m1 m2, ∃ R : List Int → ℝ, Cuda.flux3d 0 1 2 1 2 3 exW ⟨2, 0⟩ ⟨3, 0⟩ ⟨4, 0⟩ 2 ⟨1, 0⟩ ⟨5, 0⟩ ⟨6, 0⟩ ⟨7, 0⟩ (fun _ => revBackend) (exFun (exG3 (exU3))) = .ok m1 ∧ Cuda.diffusionV2Apply3d 0 1 1 2 2 3 3 2 exW 2 ⟨1, 0⟩ ⟨5, 0⟩ ⟨6, 0⟩ ⟨7, 0⟩ 1 ⟨8, 0⟩ (fun _ => seqBackend) m1 = .ok m2 ∧
      (∀ p, F.InBounds [(0, 1), (1, 2), (2, 3)] p → F.El m2 (F.cell3d ⟨8, 0⟩ 0 1 2 1 2 3 1) p (R p)) ∧
      ∀ t, (∀ i j k, 0 ≤ i → i ≤ 1 → 1 ≤ j → j ≤ 2 → 2 ≤ k → k ≤ 3 → |R [i, j, k] - F.diffusion3 3 2 (fun _ _ _ => 1) exk30 exk31 exk32 exφ3 (F.centre (ex0 0) (exW 0) i) (F.centre (ex0 1) (exW 1) j) (F.centre (ex0 2) (exW 2) k)| ≤ t) → ∀ i j k, 0 ≤ i → i ≤ 1 → 1 ≤ j → j ≤ 2 → 2 ≤ k → k ≤ 3 →
        |exU3 [i, j, k] - exφ3 (F.centre (ex0 0) (exW 0) i) (F.centre (ex0 1) (exW 1) j) (F.centre (ex0 2) (exW 2) k)| ≤ max 1 ((t + 2 * ((48 + 312 * 3 ^ 2) * exW 0 ^ 2 + (48 + 312 * 7 ^ 2) * exW 1 ^ 2 + (48 + 312 * 12 ^ 2) * exW 2 ^ 2) / 24) / 3) :=
  C72_v2_3d (fun _ => revBackend_ok) (fun _ => seqBackend_ok) (by decide) (by decide) (by decide) (by decide) (by decide) (exFun_args (by ex_args)) ⟨apart_blk (by decide), apart_blk (by decide), apart_blk (by decide)⟩ ⟨apart_blk (by decide), apart_blk (by decide), apart_blk (by decide)⟩ (exFun_holds rfl rfl (exRat_ok rfl (by decide) (by decide))) (exFun_holds rfl rfl (exRat_ok rfl (by decide) (by decide))) (exFun_holds rfl rfl (exRat_ok rfl (by decide) (by decide))) (exFun_holds rfl rfl (exRat_ok rfl (by decide) (by decide))) (exW_pos 0) (exW_pos 1) (exW_pos 2) (fun p _ _ => by simp [exU3]) (fun j k _ _ _ _ => exSmooth (L := 3) (c := (F.centre (ex0 1) (exW 1) j) ^ 4 + (F.centre (ex0 2) (exW 2) k) ^ 4) (fun x => by ex_field) (fun x => rfl) (by norm_num [F.centre, exW, ex0]) (by norm_num [F.centre, exW, ex0])) (fun i k _ _ _ _ => exSmooth (L := 7) (c := (F.centre (ex0 0) (exW 0) i) ^ 4 + (F.centre (ex0 2) (exW 2) k) ^ 4) (fun x => by ex_field) (fun x => rfl) (by norm_num [F.centre, exW, ex0]) (by norm_num [F.centre, exW, ex0])) (fun i j _ _ _ _ => exSmooth (L := 12) (c := (F.centre (ex0 0) (exW 0) i) ^ 4 + (F.centre (ex0 1) (exW 1) j) ^ 4) (fun x => by ex_field) (fun x => rfl) (by norm_num [F.centre, exW, ex0]) (by norm_num [F.centre, exW, ex0])) (by norm_num) (by norm_num) exAcc_v2_3

/-- 3D, Poisson operator, a smooth function: if the result is within `t` of the differential operator applied to the function and the field is within `D` of it in the cells around the box, the field is within `D` plus (`t` plus the error of the difference quotients) times the product of the distances to the layers of cells next to the box over `2 beta` of the function, along each axis. -/
theorem C72_poisson_3d {i0 j0 k0 i1 j1 k1 gcw rgcw : Int} {beta : ℝ} {dx : Nat → ℝ} {u f0 f1 f2 res : Ptr} {β1 β2 : Nat → Backend} {m : Mem ℝ} {U : List Int → ℝ} {o : Nat → ℝ} {φ : ℝ → ℝ → ℝ → ℝ} {C0 C1 C2 D : ℝ}
    (hβ1 : ∀ n, ValidBackend (β1 n)) (hβ2 : ∀ n, ValidBackend (β2 n)) (hi : i0 ≤ i1) (hj : j0 ≤ j1) (hk : k0 ≤ k1) (hg : 1 ≤ gcw) (hrgcw : 0 ≤ rgcw)
    (h : F.Args m [(F.cell3d u i0 j0 k0 i1 j1 k1 gcw)] [(F.face3d0 f0 i0 j0 k0 i1 j1 k1 0), (F.face3d1 f1 i0 j0 k0 i1 j1 k1 0), (F.face3d2 f2 i0 j0 k0 i1 j1 k1 0), (F.cell3d res i0 j0 k0 i1 j1 k1 rgcw)])
    (hp : F.Apart (F.face3d0 f0 i0 j0 k0 i1 j1 k1 0) (F.face3d1 f1 i0 j0 k0 i1 j1 k1 0) ∧ F.Apart (F.face3d0 f0 i0 j0 k0 i1 j1 k1 0) (F.face3d2 f2 i0 j0 k0 i1 j1 k1 0) ∧ F.Apart (F.face3d1 f1 i0 j0 k0 i1 j1 k1 0) (F.face3d2 f2 i0 j0 k0 i1 j1 k1 0))
    (hr : F.Apart (F.cell3d res i0 j0 k0 i1 j1 k1 rgcw) (F.face3d0 f0 i0 j0 k0 i1 j1 k1 0) ∧ F.Apart (F.cell3d res i0 j0 k0 i1 j1 k1 rgcw) (F.face3d1 f1 i0 j0 k0 i1 j1 k1 0) ∧ F.Apart (F.cell3d res i0 j0 k0 i1 j1 k1 rgcw) (F.face3d2 f2 i0 j0 k0 i1 j1 k1 0)) (hU : F.Holds m (F.cell3d u i0 j0 k0 i1 j1 k1 gcw) U)
    (hd0 : 0 < dx 0) (hd1 : 0 < dx 1) (hd2 : 0 < dx 2) (hUφ : ∀ p, F.InBounds [(i0 - 1, i1 + 1), (j0 - 1, j1 + 1), (k0 - 1, k1 + 1)] p → ¬ F.InBounds [(i0, i1), (j0, j1), (k0, k1)] p → |U p - F.cells3 o dx φ p| ≤ D)
    (s0 : ∀ j k, j0 ≤ j → j ≤ j1 → k0 ≤ k → k ≤ k1 → F.SmoothField (fun s => φ s (F.centre (o 1) (dx 1) j) (F.centre (o 2) (dx 2) k)) (F.centre (o 0) (dx 0) (i0 - 1)) (F.centre (o 0) (dx 0) (i1 + 1)) C0) (s1 : ∀ i k, i0 ≤ i → i ≤ i1 → k0 ≤ k → k ≤ k1 → F.SmoothField (fun s => φ (F.centre (o 0) (dx 0) i) s (F.centre (o 2) (dx 2) k)) (F.centre (o 1) (dx 1) (j0 - 1)) (F.centre (o 1) (dx 1) (j1 + 1)) C1) (s2 : ∀ i j, i0 ≤ i → i ≤ i1 → j0 ≤ j → j ≤ j1 → F.SmoothField (fun s => φ (F.centre (o 0) (dx 0) i) (F.centre (o 1) (dx 1) j) s) (F.centre (o 2) (dx 2) (k0 - 1)) (F.centre (o 2) (dx 2) (k1 + 1)) C2)
    (he : F.Elliptic3 i0 j0 k0 i1 j1 k1 0 beta dx (fun _ => 1) (fun _ => 1) (fun _ => 1) (fun _ => 1)) :
    ∃ m1 m2, ∃ R : List Int → ℝ, Cuda.poissonFlux3d i0 j0 k0 i1 j1 k1 dx gcw u f0 f1 f2 β1 m = .ok m1 ∧ Cuda.poissonV2Apply3d i0 i1 j0 j1 k0 k1 beta dx f0 f1 f2 rgcw res β2 m1 = .ok m2 ∧
      (∀ p, F.InBounds [(i0, i1), (j0, j1), (k0, k1)] p → F.El m2 (F.cell3d res i0 j0 k0 i1 j1 k1 rgcw) p (R p)) ∧
      ∀ t, (∀ i j k, i0 ≤ i → i ≤ i1 → j0 ≤ j → j ≤ j1 → k0 ≤ k → k ≤ k1 → |R [i, j, k] - -(beta * F.laplace3 φ (F.centre (o 0) (dx 0) i) (F.centre (o 1) (dx 1) j) (F.centre (o 2) (dx 2) k))| ≤ t) → ∀ i j k, i0 ≤ i → i ≤ i1 → j0 ≤ j → j ≤ j1 → k0 ≤ k → k ≤ k1 →
        |U [i, j, k] - φ (F.centre (o 0) (dx 0) i) (F.centre (o 1) (dx 1) j) (F.centre (o 2) (dx 2) k)| ≤ D + (t + beta * (C0 * dx 0 ^ 2 + C1 * dx 1 ^ 2 + C2 * dx 2 ^ 2) / 12) * (((i - i0 + 1 : Int) : ℝ) * ((i1 + 1 - i : Int) : ℝ) * (dx 0 * dx 0)) / (2 * beta) ∧
        |U [i, j, k] - φ (F.centre (o 0) (dx 0) i) (F.centre (o 1) (dx 1) j) (F.centre (o 2) (dx 2) k)| ≤ D + (t + beta * (C0 * dx 0 ^ 2 + C1 * dx 1 ^ 2 + C2 * dx 2 ^ 2) / 12) * (((j - j0 + 1 : Int) : ℝ) * ((j1 + 1 - j : Int) : ℝ) * (dx 1 * dx 1)) / (2 * beta) ∧
        |U [i, j, k] - φ (F.centre (o 0) (dx 0) i) (F.centre (o 1) (dx 1) j) (F.centre (o 2) (dx 2) k)| ≤ D + (t + beta * (C0 * dx 0 ^ 2 + C1 * dx 1 ^ 2 + C2 * dx 2 ^ 2) / 12) * (((k - k0 + 1 : Int) : ℝ) * ((k1 + 1 - k : Int) : ℝ) * (dx 2 * dx 2)) / (2 * beta) := by
  obtain ⟨m1, m2, R, c1, c2, e, hR⟩ := energy_p_3 (beta := beta) (dx := dx) hβ1 hβ2 hi hj hk hg hrgcw h hp hr hU
  refine ⟨m1, m2, R, c1, c2, e, fun t ht => ?_⟩
  have N := F.near_laplace3 (beta := beta) (U := F.cells3 o dx φ) hd0 hd1 hd2 (fun _ _ => rfl) s0 s1 s2
  rw [abs_of_pos he.beta] at N
  have both : ∀ i j k, i0 ≤ i → i ≤ i1 → j0 ≤ j → j ≤ j1 → k0 ≤ k → k ≤ k1 → |F.op3 0 beta dx (fun _ => 1) (fun _ => 1) (fun _ => 1) (fun _ => 1) U i j k - F.op3 0 beta dx (fun _ => 1) (fun _ => 1) (fun _ => 1) (fun _ => 1) (F.cells3 o dx φ) i j k| ≤ t + beta * (C0 * dx 0 ^ 2 + C1 * dx 1 ^ 2 + C2 * dx 2 ^ 2) / 12 := fun i j k h0 h1 h2 h3 h4 h5 => by
    have x := ht i j k h0 h1 h2 h3 h4 h5
    rw [hR i j k h0 h1 h2 h3 h4 h5] at x
    have y := N i j k h0 h1 h2 h3 h4 h5
    rw [abs_le] at x y ⊢
    constructor <;> linarith [x.1, x.2, y.1, y.2]
  intro i j k h0 h1 h2 h3 h4 h5
  have hT : 0 ≤ t + beta * (C0 * dx 0 ^ 2 + C1 * dx 1 ^ 2 + C2 * dx 2 ^ 2) / 12 := (abs_nonneg _).trans (both i j k h0 h1 h2 h3 h4 h5)
  have a0 := he.barrier0 (U := U) (V := F.cells3 o dx φ) (D := D) (t := t + beta * (C0 * dx 0 ^ 2 + C1 * dx 1 ^ 2 + C2 * dx 2 ^ 2) / 12) hi hj hk hT (fun p hw hb => (abs_le.1 (hUφ p hw hb)).2) (fun i j k h0 h1 h2 h3 h4 h5 => (abs_le.1 (both i j k h0 h1 h2 h3 h4 h5)).2) i j k h0 h1 h2 h3 h4 h5
  have b0 := he.barrier0 (U := F.cells3 o dx φ) (V := U) (D := D) (t := t + beta * (C0 * dx 0 ^ 2 + C1 * dx 1 ^ 2 + C2 * dx 2 ^ 2) / 12) hi hj hk hT (fun p hw hb => by have := (abs_le.1 (hUφ p hw hb)).1; linarith) (fun i j k h0 h1 h2 h3 h4 h5 => by have := (abs_le.1 (both i j k h0 h1 h2 h3 h4 h5)).1; linarith) i j k h0 h1 h2 h3 h4 h5
  have a1 := he.barrier1 (U := U) (V := F.cells3 o dx φ) (D := D) (t := t + beta * (C0 * dx 0 ^ 2 + C1 * dx 1 ^ 2 + C2 * dx 2 ^ 2) / 12) hi hj hk hT (fun p hw hb => (abs_le.1 (hUφ p hw hb)).2) (fun i j k h0 h1 h2 h3 h4 h5 => (abs_le.1 (both i j k h0 h1 h2 h3 h4 h5)).2) i j k h0 h1 h2 h3 h4 h5
  have b1 := he.barrier1 (U := F.cells3 o dx φ) (V := U) (D := D) (t := t + beta * (C0 * dx 0 ^ 2 + C1 * dx 1 ^ 2 + C2 * dx 2 ^ 2) / 12) hi hj hk hT (fun p hw hb => by have := (abs_le.1 (hUφ p hw hb)).1; linarith) (fun i j k h0 h1 h2 h3 h4 h5 => by have := (abs_le.1 (both i j k h0 h1 h2 h3 h4 h5)).1; linarith) i j k h0 h1 h2 h3 h4 h5
  have a2 := he.barrier2 (U := U) (V := F.cells3 o dx φ) (D := D) (t := t + beta * (C0 * dx 0 ^ 2 + C1 * dx 1 ^ 2 + C2 * dx 2 ^ 2) / 12) hi hj hk hT (fun p hw hb => (abs_le.1 (hUφ p hw hb)).2) (fun i j k h0 h1 h2 h3 h4 h5 => (abs_le.1 (both i j k h0 h1 h2 h3 h4 h5)).2) i j k h0 h1 h2 h3 h4 h5
  have b2 := he.barrier2 (U := F.cells3 o dx φ) (V := U) (D := D) (t := t + beta * (C0 * dx 0 ^ 2 + C1 * dx 1 ^ 2 + C2 * dx 2 ^ 2) / 12) hi hj hk hT (fun p hw hb => by have := (abs_le.1 (hUφ p hw hb)).1; linarith) (fun i j k h0 h1 h2 h3 h4 h5 => by have := (abs_le.1 (both i j k h0 h1 h2 h3 h4 h5)).1; linarith) i j k h0 h1 h2 h3 h4 h5
  simp only [F.cells3, List.getD_cons_zero, List.getD_cons_succ] at a0 b0 a1 b1 a2 b2
  exact ⟨abs_le.2 ⟨by linarith, by linarith⟩, abs_le.2 ⟨by linarith, by linarith⟩, abs_le.2 ⟨by linarith, by linarith⟩⟩

example : ∃ m1 m2, ∃ R : List Int → ℝ, Cuda.poissonFlux3d 0 1 2 1 2 3 exW 2 ⟨1, 0⟩ ⟨5, 0⟩ ⟨6, 0⟩ ⟨7, 0⟩ (fun _ => revBackend) (exFun (exG3 (exU3))) = .ok m1 ∧ Cuda.poissonV2Apply3d 0 1 1 2 2 3 2 exW ⟨5, 0⟩ ⟨6, 0⟩ ⟨7, 0⟩ 1 ⟨8, 0⟩ (fun _ => seqBackend) m1 = .ok m2 ∧
      (∀ p, F.InBounds [(0, 1), (1, 2), (2, 3)] p → F.El m2 (F.cell3d ⟨8, 0⟩ 0 1 2 1 2 3 1) p (R p)) ∧
      ∀ t, (∀ i j k, 0 ≤ i → i ≤ 1 → 1 ≤ j → j ≤ 2 → 2 ≤ k → k ≤ 3 → |R [i, j, k] - -(2 * F.laplace3 exφ3 (F.centre (ex0 0) (exW 0) i) (F.centre (ex0 1) (exW 1) j) (F.centre (ex0 2) (exW 2) k))| ≤ t) → ∀ i j k, 0 ≤ i → i ≤ 1 → 1 ≤ j → j ≤ 2 → 2 ≤ k → k ≤ 3 →
        |exU3 [i, j, k] - exφ3 (F.centre (ex0 0) (exW 0) i) (F.centre (ex0 1) (exW 1) j) (F.centre (ex0 2) (exW 2) k)| ≤ 1 + (t + 2 * (24 * exW 0 ^ 2 + 24 * exW 1 ^ 2 + 24 * exW 2 ^ 2) / 12) * (((i - 0 + 1 : Int) : ℝ) * ((1 + 1 - i : Int) : ℝ) * (exW 0 * exW 0)) / (2 * 2) ∧
        |exU3 [i, j, k] - exφ3 (F.centre (ex0 0) (exW 0) i) (F.centre (ex0 1) (exW 1) j) (F.centre (ex0 2) (exW 2) k)| ≤ 1 + (t + 2 * (24 * exW 0 ^ 2 + 24 * exW 1 ^ 2 + 24 * exW 2 ^ 2) / 12) * (((j - 1 + 1 : Int) : ℝ) * ((2 + 1 - j : Int) : ℝ) * (exW 1 * exW 1)) / (2 * 2) ∧
        |exU3 [i, j, k] - exφ3 (F.centre (ex0 0) (exW 0) i) (F.centre (ex0 1) (exW 1) j) (F.centre (ex0 2) (exW 2) k)| ≤ 1 + (t + 2 * (24 * exW 0 ^ 2 + 24 * exW 1 ^ 2 + 24 * exW 2 ^ 2) / 12) * (((k - 2 + 1 : Int) : ℝ) * ((3 + 1 - k : Int) : ℝ) * (exW 2 * exW 2)) / (2 * 2) :=
  C72_poisson_3d (fun _ => revBackend_ok) (fun _ => seqBackend_ok) (by decide) (by decide) (by decide) (by decide) (by decide) (exFun_args (by ex_args)) ⟨apart_blk (by decide), apart_blk (by decide), apart_blk (by decide)⟩ ⟨apart_blk (by decide), apart_blk (by decide), apart_blk (by decide)⟩ (exFun_holds rfl rfl (exRat_ok rfl (by decide) (by decide))) (exW_pos 0) (exW_pos 1) (exW_pos 2) (fun p _ _ => by simp [exU3]) (fun j k _ _ _ _ => exSmoothF (c := (F.centre (ex0 1) (exW 1) j) ^ 4 + (F.centre (ex0 2) (exW 2) k) ^ 4) fun x => by ex_field) (fun i k _ _ _ _ => exSmoothF (c := (F.centre (ex0 0) (exW 0) i) ^ 4 + (F.centre (ex0 2) (exW 2) k) ^ 4) fun x => by ex_field) (fun i j _ _ _ _ => exSmoothF (c := (F.centre (ex0 0) (exW 0) i) ^ 4 + (F.centre (ex0 1) (exW 1) j) ^ 4) fun x => by ex_field) exAcc_p_3

end Verif
