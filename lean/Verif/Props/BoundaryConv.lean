import Verif.Lemmas.BoundaryConvDim
import Verif.Lemmas.BoundaryConvEx
import Verif.Lemmas.AccuracyOp
import Verif.Lemmas.EnergyRun

/-
C89: fields that fulfil the boundary conditions and the difference equations are second order approximations of the solution of the boundary value
problem.
-/

namespace Verif
open Spec

set_option linter.unusedVariables false

/-- 1D, diffusion operator with cell coefficients, a smooth function that fulfils the boundary conditions: the distance of the field to the function is bounded by that of the given ghost values, by `t` over `c`, `t` the distance of the result to the differential operator, and by terms of second order in the mesh widths. -/
theorem C89_v1_1d {i0 i1 agcw gcw rgcw : Int} {alpha beta : ℝ} {dx : Nat → ℝ} {a u b0 f0 res : Ptr} {β1 β2 : Nat → Backend} {m : Mem ℝ} {A U : List Int → ℝ} {o : Nat → ℝ} {φ q κ0 : ℝ → ℝ} {C0 c d : ℝ} {P0 M0 K0 L0 : ℝ} {D : List Int → ℝ} {ps : List (F.Piece ℝ)}
    (hβ1 : ∀ n, ValidBackend (β1 n)) (hβ2 : ∀ n, ValidBackend (β2 n)) (hi : i0 ≤ i1) (hg : 1 ≤ gcw) (hagcw : 0 ≤ agcw) (hrgcw : 0 ≤ rgcw)
    (h : F.Args m [(F.cell1d a i0 i1 agcw), (F.cell1d u i0 i1 gcw), (F.face1d b0 i0 i1 0)] [(F.face1d f0 i0 i1 0), (F.cell1d res i0 i1 rgcw)])
    (hr : F.Apart (F.cell1d res i0 i1 rgcw) (F.face1d f0 i0 i1 0)) (hA : F.Holds m (F.cell1d a i0 i1 agcw) A) (hB0 : F.Holds m (F.face1d b0 i0 i1 0) (F.faces1 o dx κ0)) (hU : F.Holds m (F.cell1d u i0 i1 gcw) U)
    (hd0 : 0 < dx 0) (hAq : ∀ p, F.InBounds [(i0, i1)] p → A p = F.cells1 o dx q p)
    (s0 : F.SmoothFlux (fun s => φ s) (fun s => κ0 s) (F.centre (o 0) (dx 0) (i0 - 1)) (F.centre (o 0) (dx 0) (i1 + 1)) C0) (hc : 0 < c) (hca : ∀ p, F.InBounds [(i0, i1)] p → c ≤ alpha * A p)
    (w0 : F.Bends (fun s => φ s) (F.centre (o 0) (dx 0) (i0 - 1)) (F.centre (o 0) (dx 0) (i1 + 1)) P0 M0)
    (v0 : F.Varies (fun s => κ0 s) (F.centre (o 0) (dx 0) (i0 - 1)) (F.centre (o 0) (dx 0) (i1 + 1)) K0 L0)
    (hps : F.Pieces [(i0, i1)] 3 (F.row F.points1) ps) (hX : F.Fulfils [(i0, i1)] 3 (F.row F.points1) ps D U) (hN : F.Exact dx (F.row F.points1) ps D (F.normal1 o dx φ))
    (hd : ∀ p, F.InBounds [(i0, i1)] p → ∀ e, 1 ≤ e → e ≤ 3 - 1 → ¬ F.InBounds [(i0, i1)] (F.shift p (F.row F.points1 e)) → (∀ k ∈ ps, k.cells p → k.ghost ≠ e) →
      |D (F.shift p (F.row F.points1 e)) - F.cells1 o dx φ (F.shift p (F.row F.points1 e))| ≤ d)
    (he : F.Elliptic1 i0 i1 alpha beta dx A (F.faces1 o dx κ0)) :
    ∃ m1 m2, ∃ R : List Int → ℝ, Cuda.flux1d i0 i1 dx b0 gcw u f0 β1 m = .ok m1 ∧ Cuda.diffusionV1Apply1d i0 i1 alpha beta dx agcw a gcw u f0 rgcw res β2 m1 = .ok m2 ∧
      (∀ p, F.InBounds [(i0, i1)] p → F.El m2 (F.cell1d res i0 i1 rgcw) p (R p)) ∧
      ∀ t, (∀ i, i0 ≤ i → i ≤ i1 → |R [i] - F.diffusion1 alpha beta q κ0 φ (F.centre (o 0) (dx 0) i)| ≤ t) → ∀ E, d ≤ E → P0 * dx 0 ^ 2 / 8 ≤ E → t + beta * (C0 * dx 0 ^ 2) / 24 + beta * (2 * (K0 + L0 * F.extent (dx 0) i0 i1 / 2) * (M0 * dx 0 ^ 2 / (24 * F.extent (dx 0) i0 i1))) ≤ c * E → 
        ∀ i, i0 ≤ i → i ≤ i1 → |U [i] - φ (F.centre (o 0) (dx 0) i)| ≤ E + (M0 * F.extent (dx 0) i0 i1 * dx 0 ^ 2 / 96) := by
  obtain ⟨m1, m2, R, c1, c2, e, hR⟩ := energy_v1_1 (alpha := alpha) (beta := beta) (dx := dx) hβ1 hβ2 hi hg hagcw hrgcw h hr hA hB0 hU
  refine ⟨m1, m2, R, c1, c2, e, fun t ht => ?_⟩
  have N := F.near_diffusion1 (beta := beta) (U := F.cells1 o dx φ) (q := q) (alpha := alpha) hd0 (fun _ _ => rfl) hAq s0
  rw [abs_of_pos he.beta] at N
  have both : ∀ i, i0 ≤ i → i ≤ i1 → |F.op1 alpha beta dx A (F.faces1 o dx κ0) U i - F.op1 alpha beta dx A (F.faces1 o dx κ0) (F.cells1 o dx φ) i| ≤ t + beta * (C0 * dx 0 ^ 2) / 24 := fun i h0 h1 => by
    have x := ht i h0 h1
    rw [hR i h0 h1] at x
    have y := N i h0 h1
    rw [abs_le] at x y ⊢
    constructor <;> linarith [x.1, x.2, y.1, y.2]
  intro E hdE hm0 hE i h0 h1
  have x := he.conv hi hd0 hps hX hN s0.field w0 s0.coef v0 hd both hc (fun i h0 h1 => hca [i] (F.inBounds1.2 ⟨i, rfl, by omega⟩)) hdE hm0 hE [i] (F.inBounds1.2 ⟨i, rfl, by omega⟩)
  simp only [F.cells1, List.getD_cons_zero, List.getD_cons_succ] at x
  exact x

example := exBv1_v1.imp fun X hX =>
  C89_v1_1d (m := exFun (exG1 X)) (U := X) (φ := exφ1) (alpha := 3) (beta := 2) (c := 3) (q := exq1) (u := ⟨1, 0⟩) (f0 := ⟨5, 0⟩) (res := ⟨8, 0⟩) (agcw := 1) (gcw := 2) (rgcw := 1) (a := ⟨0, 0⟩) (b0 := ⟨2, 0⟩) (κ0 := exk10) (fun _ => revBackend_ok) (fun _ => seqBackend_ok) (by decide) (by decide) (by decide) (by decide) (exFun_args (by ex_args)) (apart_blk (by decide)) (exFun_holds rfl rfl (exRat_ok rfl (by decide) (by decide))) (exFun_holds rfl rfl (exRat_ok rfl (by decide) (by decide))) (exFun_holds rfl rfl (exRat_ok rfl (by decide) (by decide))) (exW_pos 0) (fun _ _ => rfl) (exSmooth (L := 3) (c := 0) (fun x => by ex_field) (fun x => rfl) (by norm_num [F.centre, exW, ex0]) (by norm_num [F.centre, exW, ex0])) (by norm_num) exC1 (exBends (L := 3) (c := 0) (fun x => by ex_field) (by norm_num [F.centre, exW, ex0]) (by norm_num [F.centre, exW, ex0])) (exVaries (L := 3) (fun x => rfl) (by norm_num [F.centre, exW, ex0]) (by norm_num [F.centre, exW, ex0])) exBc1v_ok hX exBc1v_exact exBd1v_near exAcc_v1_1

/-- 1D, diffusion operator with constant reaction, a smooth function that fulfils the boundary conditions: the distance of the field to the function is bounded by that of the given ghost values, by `t` over `c`, `t` the distance of the result to the differential operator, and by terms of second order in the mesh widths. -/
theorem C89_v2_1d {i0 i1 gcw rgcw : Int} {alpha beta : ℝ} {dx : Nat → ℝ} {u b0 f0 res : Ptr} {β1 β2 : Nat → Backend} {m : Mem ℝ} {U : List Int → ℝ} {o : Nat → ℝ} {φ κ0 : ℝ → ℝ} {C0 c d : ℝ} {P0 M0 K0 L0 : ℝ} {D : List Int → ℝ} {ps : List (F.Piece ℝ)}
    (hβ1 : ∀ n, ValidBackend (β1 n)) (hβ2 : ∀ n, ValidBackend (β2 n)) (hi : i0 ≤ i1) (hg : 1 ≤ gcw) (hrgcw : 0 ≤ rgcw)
    (h : F.Args m [(F.cell1d u i0 i1 gcw), (F.face1d b0 i0 i1 0)] [(F.face1d f0 i0 i1 0), (F.cell1d res i0 i1 rgcw)])
    (hr : F.Apart (F.cell1d res i0 i1 rgcw) (F.face1d f0 i0 i1 0)) (hB0 : F.Holds m (F.face1d b0 i0 i1 0) (F.faces1 o dx κ0)) (hU : F.Holds m (F.cell1d u i0 i1 gcw) U)
    (hd0 : 0 < dx 0)
    (s0 : F.SmoothFlux (fun s => φ s) (fun s => κ0 s) (F.centre (o 0) (dx 0) (i0 - 1)) (F.centre (o 0) (dx 0) (i1 + 1)) C0) (hc : 0 < c) (hca : c ≤ alpha)
    (w0 : F.Bends (fun s => φ s) (F.centre (o 0) (dx 0) (i0 - 1)) (F.centre (o 0) (dx 0) (i1 + 1)) P0 M0)
    (v0 : F.Varies (fun s => κ0 s) (F.centre (o 0) (dx 0) (i0 - 1)) (F.centre (o 0) (dx 0) (i1 + 1)) K0 L0)
    (hps : F.Pieces [(i0, i1)] 3 (F.row F.points1) ps) (hX : F.Fulfils [(i0, i1)] 3 (F.row F.points1) ps D U) (hN : F.Exact dx (F.row F.points1) ps D (F.normal1 o dx φ))
    (hd : ∀ p, F.InBounds [(i0, i1)] p → ∀ e, 1 ≤ e → e ≤ 3 - 1 → ¬ F.InBounds [(i0, i1)] (F.shift p (F.row F.points1 e)) → (∀ k ∈ ps, k.cells p → k.ghost ≠ e) →
      |D (F.shift p (F.row F.points1 e)) - F.cells1 o dx φ (F.shift p (F.row F.points1 e))| ≤ d)
    (he : F.Elliptic1 i0 i1 alpha beta dx (fun _ => 1) (F.faces1 o dx κ0)) :
    ∃ m1 m2, ∃ R : List Int → ℝ, Cuda.flux1d i0 i1 dx b0 gcw u f0 β1 m = .ok m1 ∧ Cuda.diffusionV2Apply1d i0 i1 alpha beta dx gcw u f0 rgcw res β2 m1 = .ok m2 ∧
      (∀ p, F.InBounds [(i0, i1)] p → F.El m2 (F.cell1d res i0 i1 rgcw) p (R p)) ∧
      ∀ t, (∀ i, i0 ≤ i → i ≤ i1 → |R [i] - F.diffusion1 alpha beta (fun _ => 1) κ0 φ (F.centre (o 0) (dx 0) i)| ≤ t) → ∀ E, d ≤ E → P0 * dx 0 ^ 2 / 8 ≤ E → t + beta * (C0 * dx 0 ^ 2) / 24 + beta * (2 * (K0 + L0 * F.extent (dx 0) i0 i1 / 2) * (M0 * dx 0 ^ 2 / (24 * F.extent (dx 0) i0 i1))) ≤ c * E → 
        ∀ i, i0 ≤ i → i ≤ i1 → |U [i] - φ (F.centre (o 0) (dx 0) i)| ≤ E + (M0 * F.extent (dx 0) i0 i1 * dx 0 ^ 2 / 96) := by
  obtain ⟨m1, m2, R, c1, c2, e, hR⟩ := energy_v2_1 (alpha := alpha) (beta := beta) (dx := dx) hβ1 hβ2 hi hg hrgcw h hr hB0 hU
  refine ⟨m1, m2, R, c1, c2, e, fun t ht => ?_⟩
  have N := F.near_diffusion1 (beta := beta) (U := F.cells1 o dx φ) (q := fun _ => 1) (A := fun _ => 1) (alpha := alpha) hd0 (fun _ _ => rfl) (fun _ _ => rfl) s0
  rw [abs_of_pos he.beta] at N
  have both : ∀ i, i0 ≤ i → i ≤ i1 → |F.op1 alpha beta dx (fun _ => 1) (F.faces1 o dx κ0) U i - F.op1 alpha beta dx (fun _ => 1) (F.faces1 o dx κ0) (F.cells1 o dx φ) i| ≤ t + beta * (C0 * dx 0 ^ 2) / 24 := fun i h0 h1 => by
    have x := ht i h0 h1
    rw [hR i h0 h1] at x
    have y := N i h0 h1
    rw [abs_le] at x y ⊢
    constructor <;> linarith [x.1, x.2, y.1, y.2]
  intro E hdE hm0 hE i h0 h1
  have x := he.conv hi hd0 hps hX hN s0.field w0 s0.coef v0 hd both hc (fun i h0 h1 => by simpa using hca) hdE hm0 hE [i] (F.inBounds1.2 ⟨i, rfl, by omega⟩)
  simp only [F.cells1, List.getD_cons_zero, List.getD_cons_succ] at x
  exact x

example := exBv1_v2.imp fun X hX =>
  C89_v2_1d (m := exFun (exG1 X)) (U := X) (φ := exφ1) (alpha := 3) (beta := 2) (c := 3) (u := ⟨1, 0⟩) (f0 := ⟨5, 0⟩) (res := ⟨8, 0⟩) (gcw := 2) (rgcw := 1) (b0 := ⟨2, 0⟩) (κ0 := exk10) (fun _ => revBackend_ok) (fun _ => seqBackend_ok) (by decide) (by decide) (by decide) (exFun_args (by ex_args)) (apart_blk (by decide)) (exFun_holds rfl rfl (exRat_ok rfl (by decide) (by decide))) (exFun_holds rfl rfl (exRat_ok rfl (by decide) (by decide))) (exW_pos 0) (exSmooth (L := 3) (c := 0) (fun x => by ex_field) (fun x => rfl) (by norm_num [F.centre, exW, ex0]) (by norm_num [F.centre, exW, ex0])) (by norm_num) (by norm_num) (exBends (L := 3) (c := 0) (fun x => by ex_field) (by norm_num [F.centre, exW, ex0]) (by norm_num [F.centre, exW, ex0])) (exVaries (L := 3) (fun x => rfl) (by norm_num [F.centre, exW, ex0]) (by norm_num [F.centre, exW, ex0])) exBc1v_ok hX exBc1v_exact exBd1v_near exAcc_v2_1

/-- 1D, Poisson operator with Dirichlet conditions or given ghost values across axis 0, a smooth function that fulfils the boundary conditions: the distance of the field to the function is bounded by that of the given ghost values, by `t`, the distance of the result to the differential operator, and by terms of second order in the mesh widths. -/
theorem C89_poisson_1d_axis0 {i0 i1 gcw rgcw : Int} {beta : ℝ} {dx : Nat → ℝ} {u f0 res : Ptr} {β1 β2 : Nat → Backend} {m : Mem ℝ} {U : List Int → ℝ} {o : Nat → ℝ} {φ : ℝ → ℝ} {C0 d : ℝ} {P0 M0 : ℝ} {D : List Int → ℝ} {ps : List (F.Piece ℝ)}
    (hβ1 : ∀ n, ValidBackend (β1 n)) (hβ2 : ∀ n, ValidBackend (β2 n)) (hi : i0 ≤ i1) (hg : 1 ≤ gcw) (hrgcw : 0 ≤ rgcw)
    (h : F.Args m [(F.cell1d u i0 i1 gcw)] [(F.face1d f0 i0 i1 0), (F.cell1d res i0 i1 rgcw)])
    (hr : F.Apart (F.cell1d res i0 i1 rgcw) (F.face1d f0 i0 i1 0)) (hU : F.Holds m (F.cell1d u i0 i1 gcw) U)
    (hd0 : 0 < dx 0)
    (s0 : F.SmoothField (fun s => φ s) (F.centre (o 0) (dx 0) (i0 - 1)) (F.centre (o 0) (dx 0) (i1 + 1)) C0)
    (w0 : F.Bends (fun s => φ s) (F.centre (o 0) (dx 0) (i0 - 1)) (F.centre (o 0) (dx 0) (i1 + 1)) P0 M0)
    (hps : F.Pieces [(i0, i1)] 3 (F.row F.points1) ps) (hX : F.Fulfils [(i0, i1)] 3 (F.row F.points1) ps D U) (hN : F.Exact dx (F.row F.points1) ps D (F.normal1 o dx φ))
    (ha : ∀ r ∈ ps, r.ghost = 1 ∨ r.ghost = 2 → r.btype = 0)
    (hd : ∀ p, F.InBounds [(i0, i1)] p → ∀ e, 1 ≤ e → e ≤ 3 - 1 → ¬ F.InBounds [(i0, i1)] (F.shift p (F.row F.points1 e)) → (∀ k ∈ ps, k.cells p → k.ghost ≠ e) →
      |D (F.shift p (F.row F.points1 e)) - F.cells1 o dx φ (F.shift p (F.row F.points1 e))| ≤ d)
    (he : F.Elliptic1 i0 i1 0 beta dx (fun _ => 1) (fun _ => 1)) :
    ∃ m1 m2, ∃ R : List Int → ℝ, Cuda.poissonFlux1d i0 i1 dx gcw u f0 β1 m = .ok m1 ∧ Cuda.poissonV2Apply1d i0 i1 beta dx f0 rgcw res β2 m1 = .ok m2 ∧
      (∀ p, F.InBounds [(i0, i1)] p → F.El m2 (F.cell1d res i0 i1 rgcw) p (R p)) ∧
      ∀ t, (∀ i, i0 ≤ i → i ≤ i1 → |R [i] - -(beta * iteratedDeriv 2 φ (F.centre (o 0) (dx 0) i))| ≤ t) → ∀ E, d ≤ E → P0 * dx 0 ^ 2 / 8 ≤ E → 
        ∀ i, i0 ≤ i → i ≤ i1 → |U [i] - φ (F.centre (o 0) (dx 0) i)| ≤ E + ((t + beta * (C0 * dx 0 ^ 2) / 12) / (2 * beta)) * ((F.extent (dx 0) i0 i1 + dx 0) ^ 2 / 4) := by
  obtain ⟨m1, m2, R, c1, c2, e, hR⟩ := energy_p_1 (beta := beta) (dx := dx) hβ1 hβ2 hi hg hrgcw h hr hU
  refine ⟨m1, m2, R, c1, c2, e, fun t ht => ?_⟩
  have N := F.near_laplace1 (beta := beta) (U := F.cells1 o dx φ) hd0 (fun _ _ => rfl) s0
  rw [abs_of_pos he.beta] at N
  have both : ∀ i, i0 ≤ i → i ≤ i1 → |F.op1 0 beta dx (fun _ => 1) (fun _ => 1) U i - F.op1 0 beta dx (fun _ => 1) (fun _ => 1) (F.cells1 o dx φ) i| ≤ t + beta * (C0 * dx 0 ^ 2) / 12 := fun i h0 h1 => by
    have x := ht i h0 h1
    rw [hR i h0 h1] at x
    have y := N i h0 h1
    rw [abs_le] at x y ⊢
    constructor <;> linarith [x.1, x.2, y.1, y.2]
  intro E hdE hm0 i h0 h1
  have x := he.convp0 hi hd0 hps hX hN s0.field w0 hd both ha hdE hm0 [i] (F.inBounds1.2 ⟨i, rfl, by omega⟩)
  simp only [F.cells1, List.getD_cons_zero, List.getD_cons_succ, add_zero] at x
  exact x

example := exBv1_p0.imp fun X hX =>
  C89_poisson_1d_axis0 (m := exFun (exG1 X)) (U := X) (φ := exφ1) (beta := 2) (u := ⟨1, 0⟩) (f0 := ⟨5, 0⟩) (res := ⟨8, 0⟩) (gcw := 2) (rgcw := 1) (fun _ => revBackend_ok) (fun _ => seqBackend_ok) (by decide) (by decide) (by decide) (exFun_args (by ex_args)) (apart_blk (by decide)) (exFun_holds rfl rfl (exRat_ok rfl (by decide) (by decide))) (exW_pos 0) (exSmoothF (c := 0) fun x => by ex_field) (exBends (L := 3) (c := 0) (fun x => by ex_field) (by norm_num [F.centre, exW, ex0]) (by norm_num [F.centre, exW, ex0])) exBc1p0_ok hX exBc1p0_exact (fun k hk hz => by
    simp only [exBc1p0, List.mem_cons, List.not_mem_nil, or_false] at hk
    rcases hk with rfl <;> first | rfl | exact absurd hz (by decide)) exBd1p0_near exAcc_p_1

/-- 2D, diffusion operator with cell coefficients, a smooth function that fulfils the boundary conditions: the distance of the field to the function is bounded by that of the given ghost values, by `t` over `c`, `t` the distance of the result to the differential operator, and by terms of second order in the mesh widths. -/
theorem C89_v1_2d {i0 j0 i1 j1 agcw gcw rgcw : Int} {alpha beta : ℝ} {dx : Nat → ℝ} {a u b0 b1 f0 f1 res : Ptr} {β1 β2 : Nat → Backend} {m : Mem ℝ} {A U : List Int → ℝ} {o : Nat → ℝ} {φ q κ0 κ1 : ℝ → ℝ → ℝ} {C0 C1 c d : ℝ} {P0 M0 K0 L0 P1 M1 K1 L1 : ℝ} {D : List Int → ℝ} {ps : List (F.Piece ℝ)}
    (hβ1 : ∀ n, ValidBackend (β1 n)) (hβ2 : ∀ n, ValidBackend (β2 n)) (hi : i0 ≤ i1) (hj : j0 ≤ j1) (hg : 1 ≤ gcw) (hagcw : 0 ≤ agcw) (hrgcw : 0 ≤ rgcw)
    (h : F.Args m [(F.cell2d a i0 j0 i1 j1 agcw), (F.cell2d u i0 j0 i1 j1 gcw), (F.face2d0 b0 i0 j0 i1 j1 0), (F.face2d1 b1 i0 j0 i1 j1 0)] [(F.face2d0 f0 i0 j0 i1 j1 0), (F.face2d1 f1 i0 j0 i1 j1 0), (F.cell2d res i0 j0 i1 j1 rgcw)])
    (hp : F.Apart (F.face2d0 f0 i0 j0 i1 j1 0) (F.face2d1 f1 i0 j0 i1 j1 0))
    (hr : F.Apart (F.cell2d res i0 j0 i1 j1 rgcw) (F.face2d0 f0 i0 j0 i1 j1 0) ∧ F.Apart (F.cell2d res i0 j0 i1 j1 rgcw) (F.face2d1 f1 i0 j0 i1 j1 0)) (hA : F.Holds m (F.cell2d a i0 j0 i1 j1 agcw) A) (hB0 : F.Holds m (F.face2d0 b0 i0 j0 i1 j1 0) (F.faces20 o dx κ0)) (hB1 : F.Holds m (F.face2d1 b1 i0 j0 i1 j1 0) (F.faces21 o dx κ1)) (hU : F.Holds m (F.cell2d u i0 j0 i1 j1 gcw) U)
    (hd0 : 0 < dx 0) (hd1 : 0 < dx 1) (hAq : ∀ p, F.InBounds [(i0, i1), (j0, j1)] p → A p = F.cells2 o dx q p)
    (s0 : ∀ j, j0 ≤ j → j ≤ j1 → F.SmoothFlux (fun s => φ s (F.centre (o 1) (dx 1) j)) (fun s => κ0 s (F.centre (o 1) (dx 1) j)) (F.centre (o 0) (dx 0) (i0 - 1)) (F.centre (o 0) (dx 0) (i1 + 1)) C0) (s1 : ∀ i, i0 ≤ i → i ≤ i1 → F.SmoothFlux (fun s => φ (F.centre (o 0) (dx 0) i) s) (fun s => κ1 (F.centre (o 0) (dx 0) i) s) (F.centre (o 1) (dx 1) (j0 - 1)) (F.centre (o 1) (dx 1) (j1 + 1)) C1) (hc : 0 < c) (hca : ∀ p, F.InBounds [(i0, i1), (j0, j1)] p → c ≤ alpha * A p)
    (w0 : ∀ j, j0 ≤ j → j ≤ j1 → F.Bends (fun s => φ s (F.centre (o 1) (dx 1) j)) (F.centre (o 0) (dx 0) (i0 - 1)) (F.centre (o 0) (dx 0) (i1 + 1)) P0 M0) (w1 : ∀ i, i0 ≤ i → i ≤ i1 → F.Bends (fun s => φ (F.centre (o 0) (dx 0) i) s) (F.centre (o 1) (dx 1) (j0 - 1)) (F.centre (o 1) (dx 1) (j1 + 1)) P1 M1)
    (v0 : ∀ j, j0 ≤ j → j ≤ j1 → F.Varies (fun s => κ0 s (F.centre (o 1) (dx 1) j)) (F.centre (o 0) (dx 0) (i0 - 1)) (F.centre (o 0) (dx 0) (i1 + 1)) K0 L0) (v1 : ∀ i, i0 ≤ i → i ≤ i1 → F.Varies (fun s => κ1 (F.centre (o 0) (dx 0) i) s) (F.centre (o 1) (dx 1) (j0 - 1)) (F.centre (o 1) (dx 1) (j1 + 1)) K1 L1)
    (hps : F.Pieces [(i0, i1), (j0, j1)] 5 (F.row F.points2) ps) (hX : F.Fulfils [(i0, i1), (j0, j1)] 5 (F.row F.points2) ps D U) (hN : F.Exact dx (F.row F.points2) ps D (F.normal2 o dx φ))
    (hd : ∀ p, F.InBounds [(i0, i1), (j0, j1)] p → ∀ e, 1 ≤ e → e ≤ 5 - 1 → ¬ F.InBounds [(i0, i1), (j0, j1)] (F.shift p (F.row F.points2 e)) → (∀ k ∈ ps, k.cells p → k.ghost ≠ e) →
      |D (F.shift p (F.row F.points2 e)) - F.cells2 o dx φ (F.shift p (F.row F.points2 e))| ≤ d)
    (he : F.Elliptic2 i0 j0 i1 j1 alpha beta dx A (F.faces20 o dx κ0) (F.faces21 o dx κ1)) :
    ∃ m1 m2, ∃ R : List Int → ℝ, Cuda.flux2d i0 j0 i1 j1 dx b0 b1 gcw u f0 f1 β1 m = .ok m1 ∧ Cuda.diffusionV1Apply2d i0 i1 j0 j1 alpha beta dx agcw a gcw u f0 f1 rgcw res β2 m1 = .ok m2 ∧
      (∀ p, F.InBounds [(i0, i1), (j0, j1)] p → F.El m2 (F.cell2d res i0 j0 i1 j1 rgcw) p (R p)) ∧
      ∀ t, (∀ i j, i0 ≤ i → i ≤ i1 → j0 ≤ j → j ≤ j1 → |R [i, j] - F.diffusion2 alpha beta q κ0 κ1 φ (F.centre (o 0) (dx 0) i) (F.centre (o 1) (dx 1) j)| ≤ t) → ∀ E, d ≤ E → P0 * dx 0 ^ 2 / 8 ≤ E → P1 * dx 1 ^ 2 / 8 ≤ E → t + beta * (C0 * dx 0 ^ 2 + C1 * dx 1 ^ 2) / 24 + beta * (2 * (K0 + L0 * F.extent (dx 0) i0 i1 / 2) * (M0 * dx 0 ^ 2 / (24 * F.extent (dx 0) i0 i1)) + 2 * (K1 + L1 * F.extent (dx 1) j0 j1 / 2) * (M1 * dx 1 ^ 2 / (24 * F.extent (dx 1) j0 j1))) ≤ c * E → 
        ∀ i j, i0 ≤ i → i ≤ i1 → j0 ≤ j → j ≤ j1 → |U [i, j] - φ (F.centre (o 0) (dx 0) i) (F.centre (o 1) (dx 1) j)| ≤ E + (M0 * F.extent (dx 0) i0 i1 * dx 0 ^ 2 / 96 + M1 * F.extent (dx 1) j0 j1 * dx 1 ^ 2 / 96) := by
  obtain ⟨m1, m2, R, c1, c2, e, hR⟩ := energy_v1_2 (alpha := alpha) (beta := beta) (dx := dx) hβ1 hβ2 hi hj hg hagcw hrgcw h hp hr hA hB0 hB1 hU
  refine ⟨m1, m2, R, c1, c2, e, fun t ht => ?_⟩
  have N := F.near_diffusion2 (beta := beta) (U := F.cells2 o dx φ) (q := q) (alpha := alpha) hd0 hd1 (fun _ _ => rfl) hAq s0 s1
  rw [abs_of_pos he.beta] at N
  have both : ∀ i j, i0 ≤ i → i ≤ i1 → j0 ≤ j → j ≤ j1 → |F.op2 alpha beta dx A (F.faces20 o dx κ0) (F.faces21 o dx κ1) U i j - F.op2 alpha beta dx A (F.faces20 o dx κ0) (F.faces21 o dx κ1) (F.cells2 o dx φ) i j| ≤ t + beta * (C0 * dx 0 ^ 2 + C1 * dx 1 ^ 2) / 24 := fun i j h0 h1 h2 h3 => by
    have x := ht i j h0 h1 h2 h3
    rw [hR i j h0 h1 h2 h3] at x
    have y := N i j h0 h1 h2 h3
    rw [abs_le] at x y ⊢
    constructor <;> linarith [x.1, x.2, y.1, y.2]
  intro E hdE hm0 hm1 hE i j h0 h1 h2 h3
  have x := he.conv hi hj hd0 hd1 hps hX hN (fun j a0 a1 => (s0 j a0 a1).field) (fun i a0 a1 => (s1 i a0 a1).field) w0 w1 (fun j a0 a1 => (s0 j a0 a1).coef) (fun i a0 a1 => (s1 i a0 a1).coef) v0 v1 hd both hc (fun i j h0 h1 h2 h3 => hca [i, j] (F.inBounds2.2 ⟨i, j, rfl, by omega⟩)) hdE hm0 hm1 hE [i, j] (F.inBounds2.2 ⟨i, j, rfl, by omega⟩)
  simp only [F.cells2, List.getD_cons_zero, List.getD_cons_succ] at x
  exact x

example := exBv2_v1.imp fun X hX =>
  C89_v1_2d (m := exFun (exG2 X)) (U := X) (φ := exφ2) (alpha := 3) (beta := 2) (c := 3) (q := exq2) (u := ⟨1, 0⟩) (f0 := ⟨5, 0⟩) (f1 := ⟨6, 0⟩) (res := ⟨8, 0⟩) (agcw := 1) (gcw := 2) (rgcw := 1) (a := ⟨0, 0⟩) (b0 := ⟨2, 0⟩) (b1 := ⟨3, 0⟩) (κ0 := exk20) (κ1 := exk21) (fun _ => revBackend_ok) (fun _ => seqBackend_ok) (by decide) (by decide) (by decide) (by decide) (by decide) (exFun_args (by ex_args)) (apart_blk (by decide)) ⟨apart_blk (by decide), apart_blk (by decide)⟩ (exFun_holds rfl rfl (exRat_ok rfl (by decide) (by decide))) (exFun_holds rfl rfl (exRat_ok rfl (by decide) (by decide))) (exFun_holds rfl rfl (exRat_ok rfl (by decide) (by decide))) (exFun_holds rfl rfl (exRat_ok rfl (by decide) (by decide))) (exW_pos 0) (exW_pos 1) (fun _ _ => rfl) (fun j _ _ => exSmooth (L := 3) (c := (F.centre (ex0 1) (exW 1) j) ^ 4) (fun x => by ex_field) (fun x => rfl) (by norm_num [F.centre, exW, ex0]) (by norm_num [F.centre, exW, ex0])) (fun i _ _ => exSmooth (L := 7) (c := (F.centre (ex0 0) (exW 0) i) ^ 4) (fun x => by ex_field) (fun x => rfl) (by norm_num [F.centre, exW, ex0]) (by norm_num [F.centre, exW, ex0])) (by norm_num) exC2 (fun j _ _ => exBends (L := 3) (c := (F.centre (ex0 1) (exW 1) j) ^ 4) (fun x => by ex_field) (by norm_num [F.centre, exW, ex0]) (by norm_num [F.centre, exW, ex0])) (fun i _ _ => exBends (L := 7) (c := (F.centre (ex0 0) (exW 0) i) ^ 4) (fun x => by ex_field) (by norm_num [F.centre, exW, ex0]) (by norm_num [F.centre, exW, ex0])) (fun j _ _ => exVaries (L := 3) (fun x => rfl) (by norm_num [F.centre, exW, ex0]) (by norm_num [F.centre, exW, ex0])) (fun i _ _ => exVaries (L := 7) (fun x => rfl) (by norm_num [F.centre, exW, ex0]) (by norm_num [F.centre, exW, ex0])) exBc2v_ok hX exBc2v_exact exBd2v_near exAcc_v1_2

/-- 2D, diffusion operator with constant reaction, a smooth function that fulfils the boundary conditions: the distance of the field to the function is bounded by that of the given ghost values, by `t` over `c`, `t` the distance of the result to the differential operator, and by terms of second order in the mesh widths. -/
theorem C89_v2_2d {i0 j0 i1 j1 gcw rgcw : Int} {alpha beta : ℝ} {dx : Nat → ℝ} {u b0 b1 f0 f1 res : Ptr} {β1 β2 : Nat → Backend} {m : Mem ℝ} {U : List Int → ℝ} {o : Nat → ℝ} {φ κ0 κ1 : ℝ → ℝ → ℝ} {C0 C1 c d : ℝ} {P0 M0 K0 L0 P1 M1 K1 L1 : ℝ} {D : List Int → ℝ} {ps : List (F.Piece ℝ)}
    (hβ1 : ∀ n, ValidBackend (β1 n)) (hβ2 : ∀ n, ValidBackend (β2 n)) (hi : i0 ≤ i1) (hj : j0 ≤ j1) (hg : 1 ≤ gcw) (hrgcw : 0 ≤ rgcw)
    (h : F.Args m [(F.cell2d u i0 j0 i1 j1 gcw), (F.face2d0 b0 i0 j0 i1 j1 0), (F.face2d1 b1 i0 j0 i1 j1 0)] [(F.face2d0 f0 i0 j0 i1 j1 0), (F.face2d1 f1 i0 j0 i1 j1 0), (F.cell2d res i0 j0 i1 j1 rgcw)])
    (hp : F.Apart (F.face2d0 f0 i0 j0 i1 j1 0) (F.face2d1 f1 i0 j0 i1 j1 0))
    (hr : F.Apart (F.cell2d res i0 j0 i1 j1 rgcw) (F.face2d0 f0 i0 j0 i1 j1 0) ∧ F.Apart (F.cell2d res i0 j0 i1 j1 rgcw) (F.face2d1 f1 i0 j0 i1 j1 0)) (hB0 : F.Holds m (F.face2d0 b0 i0 j0 i1 j1 0) (F.faces20 o dx κ0)) (hB1 : F.Holds m (F.face2d1 b1 i0 j0 i1 j1 0) (F.faces21 o dx κ1)) (hU : F.Holds m (F.cell2d u i0 j0 i1 j1 gcw) U)
    (hd0 : 0 < dx 0) (hd1 : 0 < dx 1)
    (s0 : ∀ j, j0 ≤ j → j ≤ j1 → F.SmoothFlux (fun s => φ s (F.centre (o 1) (dx 1) j)) (fun s => κ0 s (F.centre (o 1) (dx 1) j)) (F.centre (o 0) (dx 0) (i0 - 1)) (F.centre (o 0) (dx 0) (i1 + 1)) C0) (s1 : ∀ i, i0 ≤ i → i ≤ i1 → F.SmoothFlux (fun s => φ (F.centre (o 0) (dx 0) i) s) (fun s => κ1 (F.centre (o 0) (dx 0) i) s) (F.centre (o 1) (dx 1) (j0 - 1)) (F.centre (o 1) (dx 1) (j1 + 1)) C1) (hc : 0 < c) (hca : c ≤ alpha)
    (w0 : ∀ j, j0 ≤ j → j ≤ j1 → F.Bends (fun s => φ s (F.centre (o 1) (dx 1) j)) (F.centre (o 0) (dx 0) (i0 - 1)) (F.centre (o 0) (dx 0) (i1 + 1)) P0 M0) (w1 : ∀ i, i0 ≤ i → i ≤ i1 → F.Bends (fun s => φ (F.centre (o 0) (dx 0) i) s) (F.centre (o 1) (dx 1) (j0 - 1)) (F.centre (o 1) (dx 1) (j1 + 1)) P1 M1)
    (v0 : ∀ j, j0 ≤ j → j ≤ j1 → F.Varies (fun s => κ0 s (F.centre (o 1) (dx 1) j)) (F.centre (o 0) (dx 0) (i0 - 1)) (F.centre (o 0) (dx 0) (i1 + 1)) K0 L0) (v1 : ∀ i, i0 ≤ i → i ≤ i1 → F.Varies (fun s => κ1 (F.centre (o 0) (dx 0) i) s) (F.centre (o 1) (dx 1) (j0 - 1)) (F.centre (o 1) (dx 1) (j1 + 1)) K1 L1)
    (hps : F.Pieces [(i0, i1), (j0, j1)] 5 (F.row F.points2) ps) (hX : F.Fulfils [(i0, i1), (j0, j1)] 5 (F.row F.points2) ps D U) (hN : F.Exact dx (F.row F.points2) ps D (F.normal2 o dx φ))
    (hd : ∀ p, F.InBounds [(i0, i1), (j0, j1)] p → ∀ e, 1 ≤ e → e ≤ 5 - 1 → ¬ F.InBounds [(i0, i1), (j0, j1)] (F.shift p (F.row F.points2 e)) → (∀ k ∈ ps, k.cells p → k.ghost ≠ e) →
      |D (F.shift p (F.row F.points2 e)) - F.cells2 o dx φ (F.shift p (F.row F.points2 e))| ≤ d)
    (he : F.Elliptic2 i0 j0 i1 j1 alpha beta dx (fun _ => 1) (F.faces20 o dx κ0) (F.faces21 o dx κ1)) :
    ∃ m1 m2, ∃ R : List Int → ℝ, Cuda.flux2d i0 j0 i1 j1 dx b0 b1 gcw u f0 f1 β1 m = .ok m1 ∧ Cuda.diffusionV2Apply2d i0 i1 j0 j1 alpha beta dx gcw u f0 f1 rgcw res β2 m1 = .ok m2 ∧
      (∀ p, F.InBounds [(i0, i1), (j0, j1)] p → F.El m2 (F.cell2d res i0 j0 i1 j1 rgcw) p (R p)) ∧
      ∀ t, (∀ i j, i0 ≤ i → i ≤ i1 → j0 ≤ j → j ≤ j1 → |R [i, j] - F.diffusion2 alpha beta (fun _ _ => 1) κ0 κ1 φ (F.centre (o 0) (dx 0) i) (F.centre (o 1) (dx 1) j)| ≤ t) → ∀ E, d ≤ E → P0 * dx 0 ^ 2 / 8 ≤ E → P1 * dx 1 ^ 2 / 8 ≤ E → t + beta * (C0 * dx 0 ^ 2 + C1 * dx 1 ^ 2) / 24 + beta * (2 * (K0 + L0 * F.extent (dx 0) i0 i1 / 2) * (M0 * dx 0 ^ 2 / (24 * F.extent (dx 0) i0 i1)) + 2 * (K1 + L1 * F.extent (dx 1) j0 j1 / 2) * (M1 * dx 1 ^ 2 / (24 * F.extent (dx 1) j0 j1))) ≤ c * E → 
        ∀ i j, i0 ≤ i → i ≤ i1 → j0 ≤ j → j ≤ j1 → |U [i, j] - φ (F.centre (o 0) (dx 0) i) (F.centre (o 1) (dx 1) j)| ≤ E + (M0 * F.extent (dx 0) i0 i1 * dx 0 ^ 2 / 96 + M1 * F.extent (dx 1) j0 j1 * dx 1 ^ 2 / 96) := by
  obtain ⟨m1, m2, R, c1, c2, e, hR⟩ := energy_v2_2 (alpha := alpha) (beta := beta) (dx := dx) hβ1 hβ2 hi hj hg hrgcw h hp hr hB0 hB1 hU
  refine ⟨m1, m2, R, c1, c2, e, fun t ht => ?_⟩
  have N := F.near_diffusion2 (beta := beta) (U := F.cells2 o dx φ) (q := fun _ _ => 1) (A := fun _ => 1) (alpha := alpha) hd0 hd1 (fun _ _ => rfl) (fun _ _ => rfl) s0 s1
  rw [abs_of_pos he.beta] at N
  have both : ∀ i j, i0 ≤ i → i ≤ i1 → j0 ≤ j → j ≤ j1 → |F.op2 alpha beta dx (fun _ => 1) (F.faces20 o dx κ0) (F.faces21 o dx κ1) U i j - F.op2 alpha beta dx (fun _ => 1) (F.faces20 o dx κ0) (F.faces21 o dx κ1) (F.cells2 o dx φ) i j| ≤ t + beta * (C0 * dx 0 ^ 2 + C1 * dx 1 ^ 2) / 24 := fun i j h0 h1 h2 h3 => by
    have x := ht i j h0 h1 h2 h3
    rw [hR i j h0 h1 h2 h3] at x
    have y := N i j h0 h1 h2 h3
    rw [abs_le] at x y ⊢
    constructor <;> linarith [x.1, x.2, y.1, y.2]
  intro E hdE hm0 hm1 hE i j h0 h1 h2 h3
  have x := he.conv hi hj hd0 hd1 hps hX hN (fun j a0 a1 => (s0 j a0 a1).field) (fun i a0 a1 => (s1 i a0 a1).field) w0 w1 (fun j a0 a1 => (s0 j a0 a1).coef) (fun i a0 a1 => (s1 i a0 a1).coef) v0 v1 hd both hc (fun i j h0 h1 h2 h3 => by simpa using hca) hdE hm0 hm1 hE [i, j] (F.inBounds2.2 ⟨i, j, rfl, by omega⟩)
  simp only [F.cells2, List.getD_cons_zero, List.getD_cons_succ] at x
  exact x

example := exBv2_v2.imp fun X hX =>
  C89_v2_2d (m := exFun (exG2 X)) (U := X) (φ := exφ2) (alpha := 3) (beta := 2) (c := 3) (u := ⟨1, 0⟩) (f0 := ⟨5, 0⟩) (f1 := ⟨6, 0⟩) (res := ⟨8, 0⟩) (gcw := 2) (rgcw := 1) (b0 := ⟨2, 0⟩) (b1 := ⟨3, 0⟩) (κ0 := exk20) (κ1 := exk21) (fun _ => revBackend_ok) (fun _ => seqBackend_ok) (by decide) (by decide) (by decide) (by decide) (exFun_args (by ex_args)) (apart_blk (by decide)) ⟨apart_blk (by decide), apart_blk (by decide)⟩ (exFun_holds rfl rfl (exRat_ok rfl (by decide) (by decide))) (exFun_holds rfl rfl (exRat_ok rfl (by decide) (by decide))) (exFun_holds rfl rfl (exRat_ok rfl (by decide) (by decide))) (exW_pos 0) (exW_pos 1) (fun j _ _ => exSmooth (L := 3) (c := (F.centre (ex0 1) (exW 1) j) ^ 4) (fun x => by ex_field) (fun x => rfl) (by norm_num [F.centre, exW, ex0]) (by norm_num [F.centre, exW, ex0])) (fun i _ _ => exSmooth (L := 7) (c := (F.centre (ex0 0) (exW 0) i) ^ 4) (fun x => by ex_field) (fun x => rfl) (by norm_num [F.centre, exW, ex0]) (by norm_num [F.centre, exW, ex0])) (by norm_num) (by norm_num) (fun j _ _ => exBends (L := 3) (c := (F.centre (ex0 1) (exW 1) j) ^ 4) (fun x => by ex_field) (by norm_num [F.centre, exW, ex0]) (by norm_num [F.centre, exW, ex0])) (fun i _ _ => exBends (L := 7) (c := (F.centre (ex0 0) (exW 0) i) ^ 4) (fun x => by ex_field) (by norm_num [F.centre, exW, ex0]) (by norm_num [F.centre, exW, ex0])) (fun j _ _ => exVaries (L := 3) (fun x => rfl) (by norm_num [F.centre, exW, ex0]) (by norm_num [F.centre, exW, ex0])) (fun i _ _ => exVaries (L := 7) (fun x => rfl) (by norm_num [F.centre, exW, ex0]) (by norm_num [F.centre, exW, ex0])) exBc2v_ok hX exBc2v_exact exBd2v_near exAcc_v2_2

/-- 2D, Poisson operator with Dirichlet conditions or given ghost values across axis 0, a smooth function that fulfils the boundary conditions: the distance of the field to the function is bounded by that of the given ghost values, by `t`, the distance of the result to the differential operator, and by terms of second order in the mesh widths. -/
theorem C89_poisson_2d_axis0 {i0 j0 i1 j1 gcw rgcw : Int} {beta : ℝ} {dx : Nat → ℝ} {u f0 f1 res : Ptr} {β1 β2 : Nat → Backend} {m : Mem ℝ} {U : List Int → ℝ} {o : Nat → ℝ} {φ : ℝ → ℝ → ℝ} {C0 C1 d : ℝ} {P0 M0 P1 M1 : ℝ} {D : List Int → ℝ} {ps : List (F.Piece ℝ)}
    (hβ1 : ∀ n, ValidBackend (β1 n)) (hβ2 : ∀ n, ValidBackend (β2 n)) (hi : i0 ≤ i1) (hj : j0 ≤ j1) (hg : 1 ≤ gcw) (hrgcw : 0 ≤ rgcw)
    (h : F.Args m [(F.cell2d u i0 j0 i1 j1 gcw)] [(F.face2d0 f0 i0 j0 i1 j1 0), (F.face2d1 f1 i0 j0 i1 j1 0), (F.cell2d res i0 j0 i1 j1 rgcw)])
    (hp : F.Apart (F.face2d0 f0 i0 j0 i1 j1 0) (F.face2d1 f1 i0 j0 i1 j1 0))
    (hr : F.Apart (F.cell2d res i0 j0 i1 j1 rgcw) (F.face2d0 f0 i0 j0 i1 j1 0) ∧ F.Apart (F.cell2d res i0 j0 i1 j1 rgcw) (F.face2d1 f1 i0 j0 i1 j1 0)) (hU : F.Holds m (F.cell2d u i0 j0 i1 j1 gcw) U)
    (hd0 : 0 < dx 0) (hd1 : 0 < dx 1)
    (s0 : ∀ j, j0 ≤ j → j ≤ j1 → F.SmoothField (fun s => φ s (F.centre (o 1) (dx 1) j)) (F.centre (o 0) (dx 0) (i0 - 1)) (F.centre (o 0) (dx 0) (i1 + 1)) C0) (s1 : ∀ i, i0 ≤ i → i ≤ i1 → F.SmoothField (fun s => φ (F.centre (o 0) (dx 0) i) s) (F.centre (o 1) (dx 1) (j0 - 1)) (F.centre (o 1) (dx 1) (j1 + 1)) C1)
    (w0 : ∀ j, j0 ≤ j → j ≤ j1 → F.Bends (fun s => φ s (F.centre (o 1) (dx 1) j)) (F.centre (o 0) (dx 0) (i0 - 1)) (F.centre (o 0) (dx 0) (i1 + 1)) P0 M0) (w1 : ∀ i, i0 ≤ i → i ≤ i1 → F.Bends (fun s => φ (F.centre (o 0) (dx 0) i) s) (F.centre (o 1) (dx 1) (j0 - 1)) (F.centre (o 1) (dx 1) (j1 + 1)) P1 M1)
    (hps : F.Pieces [(i0, i1), (j0, j1)] 5 (F.row F.points2) ps) (hX : F.Fulfils [(i0, i1), (j0, j1)] 5 (F.row F.points2) ps D U) (hN : F.Exact dx (F.row F.points2) ps D (F.normal2 o dx φ))
    (ha : ∀ r ∈ ps, r.ghost = 1 ∨ r.ghost = 2 → r.btype = 0)
    (hd : ∀ p, F.InBounds [(i0, i1), (j0, j1)] p → ∀ e, 1 ≤ e → e ≤ 5 - 1 → ¬ F.InBounds [(i0, i1), (j0, j1)] (F.shift p (F.row F.points2 e)) → (∀ k ∈ ps, k.cells p → k.ghost ≠ e) →
      |D (F.shift p (F.row F.points2 e)) - F.cells2 o dx φ (F.shift p (F.row F.points2 e))| ≤ d)
    (he : F.Elliptic2 i0 j0 i1 j1 0 beta dx (fun _ => 1) (fun _ => 1) (fun _ => 1)) :
    ∃ m1 m2, ∃ R : List Int → ℝ, Cuda.poissonFlux2d i0 j0 i1 j1 dx gcw u f0 f1 β1 m = .ok m1 ∧ Cuda.poissonV2Apply2d i0 i1 j0 j1 beta dx f0 f1 rgcw res β2 m1 = .ok m2 ∧
      (∀ p, F.InBounds [(i0, i1), (j0, j1)] p → F.El m2 (F.cell2d res i0 j0 i1 j1 rgcw) p (R p)) ∧
      ∀ t, (∀ i j, i0 ≤ i → i ≤ i1 → j0 ≤ j → j ≤ j1 → |R [i, j] - -(beta * F.laplace2 φ (F.centre (o 0) (dx 0) i) (F.centre (o 1) (dx 1) j))| ≤ t) → ∀ E, d ≤ E → P0 * dx 0 ^ 2 / 8 ≤ E → P1 * dx 1 ^ 2 / 8 ≤ E → 
        ∀ i j, i0 ≤ i → i ≤ i1 → j0 ≤ j → j ≤ j1 → |U [i, j] - φ (F.centre (o 0) (dx 0) i) (F.centre (o 1) (dx 1) j)| ≤ E + (M1 * F.extent (dx 1) j0 j1 * dx 1 ^ 2 / 96) + ((t + beta * (C0 * dx 0 ^ 2 + C1 * dx 1 ^ 2) / 12) / (2 * beta) + (M1 * dx 1 ^ 2 / (24 * F.extent (dx 1) j0 j1))) * ((F.extent (dx 0) i0 i1 + dx 0) ^ 2 / 4) := by
  obtain ⟨m1, m2, R, c1, c2, e, hR⟩ := energy_p_2 (beta := beta) (dx := dx) hβ1 hβ2 hi hj hg hrgcw h hp hr hU
  refine ⟨m1, m2, R, c1, c2, e, fun t ht => ?_⟩
  have N := F.near_laplace2 (beta := beta) (U := F.cells2 o dx φ) hd0 hd1 (fun _ _ => rfl) s0 s1
  rw [abs_of_pos he.beta] at N
  have both : ∀ i j, i0 ≤ i → i ≤ i1 → j0 ≤ j → j ≤ j1 → |F.op2 0 beta dx (fun _ => 1) (fun _ => 1) (fun _ => 1) U i j - F.op2 0 beta dx (fun _ => 1) (fun _ => 1) (fun _ => 1) (F.cells2 o dx φ) i j| ≤ t + beta * (C0 * dx 0 ^ 2 + C1 * dx 1 ^ 2) / 12 := fun i j h0 h1 h2 h3 => by
    have x := ht i j h0 h1 h2 h3
    rw [hR i j h0 h1 h2 h3] at x
    have y := N i j h0 h1 h2 h3
    rw [abs_le] at x y ⊢
    constructor <;> linarith [x.1, x.2, y.1, y.2]
  intro E hdE hm0 hm1 i j h0 h1 h2 h3
  have x := he.convp0 hi hj hd0 hd1 hps hX hN (fun j a0 a1 => (s0 j a0 a1).field) (fun i a0 a1 => (s1 i a0 a1).field) w0 w1 hd both ha hdE hm0 hm1 [i, j] (F.inBounds2.2 ⟨i, j, rfl, by omega⟩)
  simp only [F.cells2, List.getD_cons_zero, List.getD_cons_succ, add_zero] at x
  exact x

example := exBv2_p0.imp fun X hX =>
  C89_poisson_2d_axis0 (m := exFun (exG2 X)) (U := X) (φ := exφ2) (beta := 2) (u := ⟨1, 0⟩) (f0 := ⟨5, 0⟩) (f1 := ⟨6, 0⟩) (res := ⟨8, 0⟩) (gcw := 2) (rgcw := 1) (fun _ => revBackend_ok) (fun _ => seqBackend_ok) (by decide) (by decide) (by decide) (by decide) (exFun_args (by ex_args)) (apart_blk (by decide)) ⟨apart_blk (by decide), apart_blk (by decide)⟩ (exFun_holds rfl rfl (exRat_ok rfl (by decide) (by decide))) (exW_pos 0) (exW_pos 1) (fun j _ _ => exSmoothF (c := (F.centre (ex0 1) (exW 1) j) ^ 4) fun x => by ex_field) (fun i _ _ => exSmoothF (c := (F.centre (ex0 0) (exW 0) i) ^ 4) fun x => by ex_field) (fun j _ _ => exBends (L := 3) (c := (F.centre (ex0 1) (exW 1) j) ^ 4) (fun x => by ex_field) (by norm_num [F.centre, exW, ex0]) (by norm_num [F.centre, exW, ex0])) (fun i _ _ => exBends (L := 7) (c := (F.centre (ex0 0) (exW 0) i) ^ 4) (fun x => by ex_field) (by norm_num [F.centre, exW, ex0]) (by norm_num [F.centre, exW, ex0])) exBc2p0_ok hX exBc2p0_exact (fun k hk hz => by
    simp only [exBc2p0, List.mem_cons, List.not_mem_nil, or_false] at hk
    rcases hk with rfl | rfl | rfl <;> first | rfl | exact absurd hz (by decide)) exBd2p0_near exAcc_p_2

/-- 2D, Poisson operator with Dirichlet conditions or given ghost values across axis 1, a smooth function that fulfils the boundary conditions: the distance of the field to the function is bounded by that of the given ghost values, by `t`, the distance of the result to the differential operator, and by terms of second order in the mesh widths. -/
theorem C89_poisson_2d_axis1 {i0 j0 i1 j1 gcw rgcw : Int} {beta : ℝ} {dx : Nat → ℝ} {u f0 f1 res : Ptr} {β1 β2 : Nat → Backend} {m : Mem ℝ} {U : List Int → ℝ} {o : Nat → ℝ} {φ : ℝ → ℝ → ℝ} {C0 C1 d : ℝ} {P0 M0 P1 M1 : ℝ} {D : List Int → ℝ} {ps : List (F.Piece ℝ)}
    (hβ1 : ∀ n, ValidBackend (β1 n)) (hβ2 : ∀ n, ValidBackend (β2 n)) (hi : i0 ≤ i1) (hj : j0 ≤ j1) (hg : 1 ≤ gcw) (hrgcw : 0 ≤ rgcw)
    (h : F.Args m [(F.cell2d u i0 j0 i1 j1 gcw)] [(F.face2d0 f0 i0 j0 i1 j1 0), (F.face2d1 f1 i0 j0 i1 j1 0), (F.cell2d res i0 j0 i1 j1 rgcw)])
    (hp : F.Apart (F.face2d0 f0 i0 j0 i1 j1 0) (F.face2d1 f1 i0 j0 i1 j1 0))
    (hr : F.Apart (F.cell2d res i0 j0 i1 j1 rgcw) (F.face2d0 f0 i0 j0 i1 j1 0) ∧ F.Apart (F.cell2d res i0 j0 i1 j1 rgcw) (F.face2d1 f1 i0 j0 i1 j1 0)) (hU : F.Holds m (F.cell2d u i0 j0 i1 j1 gcw) U)
    (hd0 : 0 < dx 0) (hd1 : 0 < dx 1)
    (s0 : ∀ j, j0 ≤ j → j ≤ j1 → F.SmoothField (fun s => φ s (F.centre (o 1) (dx 1) j)) (F.centre (o 0) (dx 0) (i0 - 1)) (F.centre (o 0) (dx 0) (i1 + 1)) C0) (s1 : ∀ i, i0 ≤ i → i ≤ i1 → F.SmoothField (fun s => φ (F.centre (o 0) (dx 0) i) s) (F.centre (o 1) (dx 1) (j0 - 1)) (F.centre (o 1) (dx 1) (j1 + 1)) C1)
    (w0 : ∀ j, j0 ≤ j → j ≤ j1 → F.Bends (fun s => φ s (F.centre (o 1) (dx 1) j)) (F.centre (o 0) (dx 0) (i0 - 1)) (F.centre (o 0) (dx 0) (i1 + 1)) P0 M0) (w1 : ∀ i, i0 ≤ i → i ≤ i1 → F.Bends (fun s => φ (F.centre (o 0) (dx 0) i) s) (F.centre (o 1) (dx 1) (j0 - 1)) (F.centre (o 1) (dx 1) (j1 + 1)) P1 M1)
    (hps : F.Pieces [(i0, i1), (j0, j1)] 5 (F.row F.points2) ps) (hX : F.Fulfils [(i0, i1), (j0, j1)] 5 (F.row F.points2) ps D U) (hN : F.Exact dx (F.row F.points2) ps D (F.normal2 o dx φ))
    (ha : ∀ r ∈ ps, r.ghost = 3 ∨ r.ghost = 4 → r.btype = 0)
    (hd : ∀ p, F.InBounds [(i0, i1), (j0, j1)] p → ∀ e, 1 ≤ e → e ≤ 5 - 1 → ¬ F.InBounds [(i0, i1), (j0, j1)] (F.shift p (F.row F.points2 e)) → (∀ k ∈ ps, k.cells p → k.ghost ≠ e) →
      |D (F.shift p (F.row F.points2 e)) - F.cells2 o dx φ (F.shift p (F.row F.points2 e))| ≤ d)
    (he : F.Elliptic2 i0 j0 i1 j1 0 beta dx (fun _ => 1) (fun _ => 1) (fun _ => 1)) :
    ∃ m1 m2, ∃ R : List Int → ℝ, Cuda.poissonFlux2d i0 j0 i1 j1 dx gcw u f0 f1 β1 m = .ok m1 ∧ Cuda.poissonV2Apply2d i0 i1 j0 j1 beta dx f0 f1 rgcw res β2 m1 = .ok m2 ∧
      (∀ p, F.InBounds [(i0, i1), (j0, j1)] p → F.El m2 (F.cell2d res i0 j0 i1 j1 rgcw) p (R p)) ∧
      ∀ t, (∀ i j, i0 ≤ i → i ≤ i1 → j0 ≤ j → j ≤ j1 → |R [i, j] - -(beta * F.laplace2 φ (F.centre (o 0) (dx 0) i) (F.centre (o 1) (dx 1) j))| ≤ t) → ∀ E, d ≤ E → P0 * dx 0 ^ 2 / 8 ≤ E → P1 * dx 1 ^ 2 / 8 ≤ E → 
        ∀ i j, i0 ≤ i → i ≤ i1 → j0 ≤ j → j ≤ j1 → |U [i, j] - φ (F.centre (o 0) (dx 0) i) (F.centre (o 1) (dx 1) j)| ≤ E + (M0 * F.extent (dx 0) i0 i1 * dx 0 ^ 2 / 96) + ((t + beta * (C0 * dx 0 ^ 2 + C1 * dx 1 ^ 2) / 12) / (2 * beta) + (M0 * dx 0 ^ 2 / (24 * F.extent (dx 0) i0 i1))) * ((F.extent (dx 1) j0 j1 + dx 1) ^ 2 / 4) := by
  obtain ⟨m1, m2, R, c1, c2, e, hR⟩ := energy_p_2 (beta := beta) (dx := dx) hβ1 hβ2 hi hj hg hrgcw h hp hr hU
  refine ⟨m1, m2, R, c1, c2, e, fun t ht => ?_⟩
  have N := F.near_laplace2 (beta := beta) (U := F.cells2 o dx φ) hd0 hd1 (fun _ _ => rfl) s0 s1
  rw [abs_of_pos he.beta] at N
  have both : ∀ i j, i0 ≤ i → i ≤ i1 → j0 ≤ j → j ≤ j1 → |F.op2 0 beta dx (fun _ => 1) (fun _ => 1) (fun _ => 1) U i j - F.op2 0 beta dx (fun _ => 1) (fun _ => 1) (fun _ => 1) (F.cells2 o dx φ) i j| ≤ t + beta * (C0 * dx 0 ^ 2 + C1 * dx 1 ^ 2) / 12 := fun i j h0 h1 h2 h3 => by
    have x := ht i j h0 h1 h2 h3
    rw [hR i j h0 h1 h2 h3] at x
    have y := N i j h0 h1 h2 h3
    rw [abs_le] at x y ⊢
    constructor <;> linarith [x.1, x.2, y.1, y.2]
  intro E hdE hm0 hm1 i j h0 h1 h2 h3
  have x := he.convp1 hi hj hd0 hd1 hps hX hN (fun j a0 a1 => (s0 j a0 a1).field) (fun i a0 a1 => (s1 i a0 a1).field) w0 w1 hd both ha hdE hm0 hm1 [i, j] (F.inBounds2.2 ⟨i, j, rfl, by omega⟩)
  simp only [F.cells2, List.getD_cons_zero, List.getD_cons_succ, add_zero] at x
  exact x

example := exBv2_p1.imp fun X hX =>
  C89_poisson_2d_axis1 (m := exFun (exG2 X)) (U := X) (φ := exφ2) (beta := 2) (u := ⟨1, 0⟩) (f0 := ⟨5, 0⟩) (f1 := ⟨6, 0⟩) (res := ⟨8, 0⟩) (gcw := 2) (rgcw := 1) (fun _ => revBackend_ok) (fun _ => seqBackend_ok) (by decide) (by decide) (by decide) (by decide) (exFun_args (by ex_args)) (apart_blk (by decide)) ⟨apart_blk (by decide), apart_blk (by decide)⟩ (exFun_holds rfl rfl (exRat_ok rfl (by decide) (by decide))) (exW_pos 0) (exW_pos 1) (fun j _ _ => exSmoothF (c := (F.centre (ex0 1) (exW 1) j) ^ 4) fun x => by ex_field) (fun i _ _ => exSmoothF (c := (F.centre (ex0 0) (exW 0) i) ^ 4) fun x => by ex_field) (fun j _ _ => exBends (L := 3) (c := (F.centre (ex0 1) (exW 1) j) ^ 4) (fun x => by ex_field) (by norm_num [F.centre, exW, ex0]) (by norm_num [F.centre, exW, ex0])) (fun i _ _ => exBends (L := 7) (c := (F.centre (ex0 0) (exW 0) i) ^ 4) (fun x => by ex_field) (by norm_num [F.centre, exW, ex0]) (by norm_num [F.centre, exW, ex0])) exBc2p1_ok hX exBc2p1_exact (fun k hk hz => by
    simp only [exBc2p1, List.mem_cons, List.not_mem_nil, or_false] at hk
    rcases hk with rfl | rfl | rfl <;> first | rfl | exact absurd hz (by decide)) exBd2p1_near exAcc_p_2

/-- 3D, diffusion operator with cell coefficients, a smooth function that fulfils the boundary conditions: the distance of the field to the function is bounded by that of the given ghost values, by `t` over `c`, `t` the distance of the result to the differential operator, and by terms of second order in the mesh widths. -/
theorem C89_v1_3d {i0 j0 k0 i1 j1 k1 agcw gcw rgcw : Int} {alpha beta : ℝ} {dx : Nat → ℝ} {a u b0 b1 b2 f0 f1 f2 res : Ptr} {β1 β2 : Nat → Backend} {m : Mem ℝ} {A U : List Int → ℝ} {o : Nat → ℝ} {φ q κ0 κ1 κ2 : ℝ → ℝ → ℝ → ℝ} {C0 C1 C2 c d : ℝ} {P0 M0 K0 L0 P1 M1 K1 L1 P2 M2 K2 L2 : ℝ} {D : List Int → ℝ} {ps : List (F.Piece ℝ)}
    (hβ1 : ∀ n, ValidBackend (β1 n)) (hβ2 : ∀ n, ValidBackend (β2 n)) (hi : i0 ≤ i1) (hj : j0 ≤ j1) (hk : k0 ≤ k1) (hg : 1 ≤ gcw) (hagcw : 0 ≤ agcw) (hrgcw : 0 ≤ rgcw)
    (h : F.Args m [(F.cell3d a i0 j0 k0 i1 j1 k1 agcw), (F.cell3d u i0 j0 k0 i1 j1 k1 gcw), (F.face3d0 b0 i0 j0 k0 i1 j1 k1 0), (F.face3d1 b1 i0 j0 k0 i1 j1 k1 0), (F.face3d2 b2 i0 j0 k0 i1 j1 k1 0)] [(F.face3d0 f0 i0 j0 k0 i1 j1 k1 0), (F.face3d1 f1 i0 j0 k0 i1 j1 k1 0), (F.face3d2 f2 i0 j0 k0 i1 j1 k1 0), (F.cell3d res i0 j0 k0 i1 j1 k1 rgcw)])
    (hp : F.Apart (F.face3d0 f0 i0 j0 k0 i1 j1 k1 0) (F.face3d1 f1 i0 j0 k0 i1 j1 k1 0) ∧ F.Apart (F.face3d0 f0 i0 j0 k0 i1 j1 k1 0) (F.face3d2 f2 i0 j0 k0 i1 j1 k1 0) ∧ F.Apart (F.face3d1 f1 i0 j0 k0 i1 j1 k1 0) (F.face3d2 f2 i0 j0 k0 i1 j1 k1 0))
    (hr : F.Apart (F.cell3d res i0 j0 k0 i1 j1 k1 rgcw) (F.face3d0 f0 i0 j0 k0 i1 j1 k1 0) ∧ F.Apart (F.cell3d res i0 j0 k0 i1 j1 k1 rgcw) (F.face3d1 f1 i0 j0 k0 i1 j1 k1 0) ∧ F.Apart (F.cell3d res i0 j0 k0 i1 j1 k1 rgcw) (F.face3d2 f2 i0 j0 k0 i1 j1 k1 0)) (hA : F.Holds m (F.cell3d a i0 j0 k0 i1 j1 k1 agcw) A) (hB0 : F.Holds m (F.face3d0 b0 i0 j0 k0 i1 j1 k1 0) (F.faces30 o dx κ0)) (hB1 : F.Holds m (F.face3d1 b1 i0 j0 k0 i1 j1 k1 0) (F.faces31 o dx κ1)) (hB2 : F.Holds m (F.face3d2 b2 i0 j0 k0 i1 j1 k1 0) (F.faces32 o dx κ2)) (hU : F.Holds m (F.cell3d u i0 j0 k0 i1 j1 k1 gcw) U)
    (hd0 : 0 < dx 0) (hd1 : 0 < dx 1) (hd2 : 0 < dx 2) (hAq : ∀ p, F.InBounds [(i0, i1), (j0, j1), (k0, k1)] p → A p = F.cells3 o dx q p)
    (s0 : ∀ j k, j0 ≤ j → j ≤ j1 → k0 ≤ k → k ≤ k1 → F.SmoothFlux (fun s => φ s (F.centre (o 1) (dx 1) j) (F.centre (o 2) (dx 2) k)) (fun s => κ0 s (F.centre (o 1) (dx 1) j) (F.centre (o 2) (dx 2) k)) (F.centre (o 0) (dx 0) (i0 - 1)) (F.centre (o 0) (dx 0) (i1 + 1)) C0) (s1 : ∀ i k, i0 ≤ i → i ≤ i1 → k0 ≤ k → k ≤ k1 → F.SmoothFlux (fun s => φ (F.centre (o 0) (dx 0) i) s (F.centre (o 2) (dx 2) k)) (fun s => κ1 (F.centre (o 0) (dx 0) i) s (F.centre (o 2) (dx 2) k)) (F.centre (o 1) (dx 1) (j0 - 1)) (F.centre (o 1) (dx 1) (j1 + 1)) C1) (s2 : ∀ i j, i0 ≤ i → i ≤ i1 → j0 ≤ j → j ≤ j1 → F.SmoothFlux (fun s => φ (F.centre (o 0) (dx 0) i) (F.centre (o 1) (dx 1) j) s) (fun s => κ2 (F.centre (o 0) (dx 0) i) (F.centre (o 1) (dx 1) j) s) (F.centre (o 2) (dx 2) (k0 - 1)) (F.centre (o 2) (dx 2) (k1 + 1)) C2) (hc : 0 < c) (hca : ∀ p, F.InBounds [(i0, i1), (j0, j1), (k0, k1)] p → c ≤ alpha * A p)
    (w0 : ∀ j, j0 ≤ j → j ≤ j1 → ∀ k, k0 ≤ k → k ≤ k1 → F.Bends (fun s => φ s (F.centre (o 1) (dx 1) j) (F.centre (o 2) (dx 2) k)) (F.centre (o 0) (dx 0) (i0 - 1)) (F.centre (o 0) (dx 0) (i1 + 1)) P0 M0) (w1 : ∀ i, i0 ≤ i → i ≤ i1 → ∀ k, k0 ≤ k → k ≤ k1 → F.Bends (fun s => φ (F.centre (o 0) (dx 0) i) s (F.centre (o 2) (dx 2) k)) (F.centre (o 1) (dx 1) (j0 - 1)) (F.centre (o 1) (dx 1) (j1 + 1)) P1 M1) (w2 : ∀ i, i0 ≤ i → i ≤ i1 → ∀ j, j0 ≤ j → j ≤ j1 → F.Bends (fun s => φ (F.centre (o 0) (dx 0) i) (F.centre (o 1) (dx 1) j) s) (F.centre (o 2) (dx 2) (k0 - 1)) (F.centre (o 2) (dx 2) (k1 + 1)) P2 M2)
    (v0 : ∀ j, j0 ≤ j → j ≤ j1 → ∀ k, k0 ≤ k → k ≤ k1 → F.Varies (fun s => κ0 s (F.centre (o 1) (dx 1) j) (F.centre (o 2) (dx 2) k)) (F.centre (o 0) (dx 0) (i0 - 1)) (F.centre (o 0) (dx 0) (i1 + 1)) K0 L0) (v1 : ∀ i, i0 ≤ i → i ≤ i1 → ∀ k, k0 ≤ k → k ≤ k1 → F.Varies (fun s => κ1 (F.centre (o 0) (dx 0) i) s (F.centre (o 2) (dx 2) k)) (F.centre (o 1) (dx 1) (j0 - 1)) (F.centre (o 1) (dx 1) (j1 + 1)) K1 L1) (v2 : ∀ i, i0 ≤ i → i ≤ i1 → ∀ j, j0 ≤ j → j ≤ j1 → F.Varies (fun s => κ2 (F.centre (o 0) (dx 0) i) (F.centre (o 1) (dx 1) j) s) (F.centre (o 2) (dx 2) (k0 - 1)) (F.centre (o 2) (dx 2) (k1 + 1)) K2 L2)
    (hps : F.Pieces [(i0, i1), (j0, j1), (k0, k1)] 7 (F.row F.points3) ps) (hX : F.Fulfils [(i0, i1), (j0, j1), (k0, k1)] 7 (F.row F.points3) ps D U) (hN : F.Exact dx (F.row F.points3) ps D (F.normal3 o dx φ))
    (hd : ∀ p, F.InBounds [(i0, i1), (j0, j1), (k0, k1)] p → ∀ e, 1 ≤ e → e ≤ 7 - 1 → ¬ F.InBounds [(i0, i1), (j0, j1), (k0, k1)] (F.shift p (F.row F.points3 e)) → (∀ k ∈ ps, k.cells p → k.ghost ≠ e) →
      |D (F.shift p (F.row F.points3 e)) - F.cells3 o dx φ (F.shift p (F.row F.points3 e))| ≤ d)
    (he : F.Elliptic3 i0 j0 k0 i1 j1 k1 alpha beta dx A (F.faces30 o dx κ0) (F.faces31 o dx κ1) (F.faces32 o dx κ2)) :
    ∃ m1 m2, ∃ R : List Int → ℝ, Cuda.flux3d i0 j0 k0 i1 j1 k1 dx b0 b1 b2 gcw u f0 f1 f2 β1 m = .ok m1 ∧ Cuda.diffusionV1Apply3d i0 i1 j0 j1 k0 k1 alpha beta dx agcw a gcw u f0 f1 f2 rgcw res β2 m1 = .ok m2 ∧
      (∀ p, F.InBounds [(i0, i1), (j0, j1), (k0, k1)] p → F.El m2 (F.cell3d res i0 j0 k0 i1 j1 k1 rgcw) p (R p)) ∧
      ∀ t, (∀ i j k, i0 ≤ i → i ≤ i1 → j0 ≤ j → j ≤ j1 → k0 ≤ k → k ≤ k1 → |R [i, j, k] - F.diffusion3 alpha beta q κ0 κ1 κ2 φ (F.centre (o 0) (dx 0) i) (F.centre (o 1) (dx 1) j) (F.centre (o 2) (dx 2) k)| ≤ t) → ∀ E, d ≤ E → P0 * dx 0 ^ 2 / 8 ≤ E → P1 * dx 1 ^ 2 / 8 ≤ E → P2 * dx 2 ^ 2 / 8 ≤ E → t + beta * (C0 * dx 0 ^ 2 + C1 * dx 1 ^ 2 + C2 * dx 2 ^ 2) / 24 + beta * (2 * (K0 + L0 * F.extent (dx 0) i0 i1 / 2) * (M0 * dx 0 ^ 2 / (24 * F.extent (dx 0) i0 i1)) + 2 * (K1 + L1 * F.extent (dx 1) j0 j1 / 2) * (M1 * dx 1 ^ 2 / (24 * F.extent (dx 1) j0 j1)) + 2 * (K2 + L2 * F.extent (dx 2) k0 k1 / 2) * (M2 * dx 2 ^ 2 / (24 * F.extent (dx 2) k0 k1))) ≤ c * E → 
        ∀ i j k, i0 ≤ i → i ≤ i1 → j0 ≤ j → j ≤ j1 → k0 ≤ k → k ≤ k1 → |U [i, j, k] - φ (F.centre (o 0) (dx 0) i) (F.centre (o 1) (dx 1) j) (F.centre (o 2) (dx 2) k)| ≤ E + (M0 * F.extent (dx 0) i0 i1 * dx 0 ^ 2 / 96 + M1 * F.extent (dx 1) j0 j1 * dx 1 ^ 2 / 96 + M2 * F.extent (dx 2) k0 k1 * dx 2 ^ 2 / 96) := by
  obtain ⟨m1, m2, R, c1, c2, e, hR⟩ := energy_v1_3 (alpha := alpha) (beta := beta) (dx := dx) hβ1 hβ2 hi hj hk hg hagcw hrgcw h hp hr hA hB0 hB1 hB2 hU
  refine ⟨m1, m2, R, c1, c2, e, fun t ht => ?_⟩
  have N := F.near_diffusion3 (beta := beta) (U := F.cells3 o dx φ) (q := q) (alpha := alpha) hd0 hd1 hd2 (fun _ _ => rfl) hAq s0 s1 s2
  rw [abs_of_pos he.beta] at N
  have both : ∀ i j k, i0 ≤ i → i ≤ i1 → j0 ≤ j → j ≤ j1 → k0 ≤ k → k ≤ k1 → |F.op3 alpha beta dx A (F.faces30 o dx κ0) (F.faces31 o dx κ1) (F.faces32 o dx κ2) U i j k - F.op3 alpha beta dx A (F.faces30 o dx κ0) (F.faces31 o dx κ1) (F.faces32 o dx κ2) (F.cells3 o dx φ) i j k| ≤ t + beta * (C0 * dx 0 ^ 2 + C1 * dx 1 ^ 2 + C2 * dx 2 ^ 2) / 24 := fun i j k h0 h1 h2 h3 h4 h5 => by
    have x := ht i j k h0 h1 h2 h3 h4 h5
    rw [hR i j k h0 h1 h2 h3 h4 h5] at x
    have y := N i j k h0 h1 h2 h3 h4 h5
    rw [abs_le] at x y ⊢
    constructor <;> linarith [x.1, x.2, y.1, y.2]
  intro E hdE hm0 hm1 hm2 hE i j k h0 h1 h2 h3 h4 h5
  have x := he.conv hi hj hk hd0 hd1 hd2 hps hX hN (fun j a0 a1 k a2 a3 => (s0 j k a0 a1 a2 a3).field) (fun i a0 a1 k a2 a3 => (s1 i k a0 a1 a2 a3).field) (fun i a0 a1 j a2 a3 => (s2 i j a0 a1 a2 a3).field) w0 w1 w2 (fun j a0 a1 k a2 a3 => (s0 j k a0 a1 a2 a3).coef) (fun i a0 a1 k a2 a3 => (s1 i k a0 a1 a2 a3).coef) (fun i a0 a1 j a2 a3 => (s2 i j a0 a1 a2 a3).coef) v0 v1 v2 hd both hc (fun i j k h0 h1 h2 h3 h4 h5 => hca [i, j, k] (F.inBounds3.2 ⟨i, j, k, rfl, by omega⟩)) hdE hm0 hm1 hm2 hE [i, j, k] (F.inBounds3.2 ⟨i, j, k, rfl, by omega⟩)
  simp only [F.cells3, List.getD_cons_zero, List.getD_cons_succ] at x
  exact x

example := exBv3_v1.imp fun X hX =>
  C89_v1_3d (m := exFun (exG3 X)) (U := X) (φ := exφ3) (alpha := 3) (beta := 2) (c := 3) (q := exq3) (u := ⟨1, 0⟩) (f0 := ⟨5, 0⟩) (f1 := ⟨6, 0⟩) (f2 := ⟨7, 0⟩) (res := ⟨8, 0⟩) (agcw := 1) (gcw := 2) (rgcw := 1) (a := ⟨0, 0⟩) (b0 := ⟨2, 0⟩) (b1 := ⟨3, 0⟩) (b2 := ⟨4, 0⟩) (κ0 := exk30) (κ1 := exk31) (κ2 := exk32) (fun _ => revBackend_ok) (fun _ => seqBackend_ok) (by decide) (by decide) (by decide) (by decide) (by decide) (by decide) (exFun_args (by ex_args)) ⟨apart_blk (by decide), apart_blk (by decide), apart_blk (by decide)⟩ ⟨apart_blk (by decide), apart_blk (by decide), apart_blk (by decide)⟩ (exFun_holds rfl rfl (exRat_ok rfl (by decide) (by decide))) (exFun_holds rfl rfl (exRat_ok rfl (by decide) (by decide))) (exFun_holds rfl rfl (exRat_ok rfl (by decide) (by decide))) (exFun_holds rfl rfl (exRat_ok rfl (by decide) (by decide))) (exFun_holds rfl rfl (exRat_ok rfl (by decide) (by decide))) (exW_pos 0) (exW_pos 1) (exW_pos 2) (fun _ _ => rfl) (fun j k _ _ _ _ => exSmooth (L := 3) (c := (F.centre (ex0 1) (exW 1) j) ^ 4 + (F.centre (ex0 2) (exW 2) k) ^ 4) (fun x => by ex_field) (fun x => rfl) (by norm_num [F.centre, exW, ex0]) (by norm_num [F.centre, exW, ex0])) (fun i k _ _ _ _ => exSmooth (L := 7) (c := (F.centre (ex0 0) (exW 0) i) ^ 4 + (F.centre (ex0 2) (exW 2) k) ^ 4) (fun x => by ex_field) (fun x => rfl) (by norm_num [F.centre, exW, ex0]) (by norm_num [F.centre, exW, ex0])) (fun i j _ _ _ _ => exSmooth (L := 12) (c := (F.centre (ex0 0) (exW 0) i) ^ 4 + (F.centre (ex0 1) (exW 1) j) ^ 4) (fun x => by ex_field) (fun x => rfl) (by norm_num [F.centre, exW, ex0]) (by norm_num [F.centre, exW, ex0])) (by norm_num) exC3 (fun j _ _ k _ _ => exBends (L := 3) (c := (F.centre (ex0 1) (exW 1) j) ^ 4 + (F.centre (ex0 2) (exW 2) k) ^ 4) (fun x => by ex_field) (by norm_num [F.centre, exW, ex0]) (by norm_num [F.centre, exW, ex0])) (fun i _ _ k _ _ => exBends (L := 7) (c := (F.centre (ex0 0) (exW 0) i) ^ 4 + (F.centre (ex0 2) (exW 2) k) ^ 4) (fun x => by ex_field) (by norm_num [F.centre, exW, ex0]) (by norm_num [F.centre, exW, ex0])) (fun i _ _ j _ _ => exBends (L := 12) (c := (F.centre (ex0 0) (exW 0) i) ^ 4 + (F.centre (ex0 1) (exW 1) j) ^ 4) (fun x => by ex_field) (by norm_num [F.centre, exW, ex0]) (by norm_num [F.centre, exW, ex0])) (fun j _ _ k _ _ => exVaries (L := 3) (fun x => rfl) (by norm_num [F.centre, exW, ex0]) (by norm_num [F.centre, exW, ex0])) (fun i _ _ k _ _ => exVaries (L := 7) (fun x => rfl) (by norm_num [F.centre, exW, ex0]) (by norm_num [F.centre, exW, ex0])) (fun i _ _ j _ _ => exVaries (L := 12) (fun x => rfl) (by norm_num [F.centre, exW, ex0]) (by norm_num [F.centre, exW, ex0])) exBc3v_ok hX exBc3v_exact exBd3v_near exAcc_v1_3

/-- 3D, diffusion operator with constant reaction, a smooth function that fulfils the boundary conditions: the distance of the field to the function is bounded by that of the given ghost values, by `t` over `c`, `t` the distance of the result to the differential operator, and by terms of second order in the mesh widths. -/
theorem C89_v2_3d {i0 j0 k0 i1 j1 k1 gcw rgcw : Int} {alpha beta : ℝ} {dx : Nat → ℝ} {u b0 b1 b2 f0 f1 f2 res : Ptr} {β1 β2 : Nat → Backend} {m : Mem ℝ} {U : List Int → ℝ} {o : Nat → ℝ} {φ κ0 κ1 κ2 : ℝ → ℝ → ℝ → ℝ} {C0 C1 C2 c d : ℝ} {P0 M0 K0 L0 P1 M1 K1 L1 P2 M2 K2 L2 : ℝ} {D : List Int → ℝ} {ps : List (F.Piece ℝ)}
    (hβ1 : ∀ n, ValidBackend (β1 n)) (hβ2 : ∀ n, ValidBackend (β2 n)) (hi : i0 ≤ i1) (hj : j0 ≤ j1) (hk : k0 ≤ k1) (hg : 1 ≤ gcw) (hrgcw : 0 ≤ rgcw)
    (h : F.Args m [(F.cell3d u i0 j0 k0 i1 j1 k1 gcw), (F.face3d0 b0 i0 j0 k0 i1 j1 k1 0), (F.face3d1 b1 i0 j0 k0 i1 j1 k1 0), (F.face3d2 b2 i0 j0 k0 i1 j1 k1 0)] [(F.face3d0 f0 i0 j0 k0 i1 j1 k1 0), (F.face3d1 f1 i0 j0 k0 i1 j1 k1 0), (F.face3d2 f2 i0 j0 k0 i1 j1 k1 0), (F.cell3d res i0 j0 k0 i1 j1 k1 rgcw)])
    (hp : F.Apart (F.face3d0 f0 i0 j0 k0 i1 j1 k1 0) (F.face3d1 f1 i0 j0 k0 i1 j1 k1 0) ∧ F.Apart (F.face3d0 f0 i0 j0 k0 i1 j1 k1 0) (F.face3d2 f2 i0 j0 k0 i1 j1 k1 0) ∧ F.Apart (F.face3d1 f1 i0 j0 k0 i1 j1 k1 0) (F.face3d2 f2 i0 j0 k0 i1 j1 k1 0))
    (hr : F.Apart (F.cell3d res i0 j0 k0 i1 j1 k1 rgcw) (F.face3d0 f0 i0 j0 k0 i1 j1 k1 0) ∧ F.Apart (F.cell3d res i0 j0 k0 i1 j1 k1 rgcw) (F.face3d1 f1 i0 j0 k0 i1 j1 k1 0) ∧ F.Apart (F.cell3d res i0 j0 k0 i1 j1 k1 rgcw) (F.face3d2 f2 i0 j0 k0 i1 j1 k1 0)) (hB0 : F.Holds m (F.face3d0 b0 i0 j0 k0 i1 j1 k1 0) (F.faces30 o dx κ0)) (hB1 : F.Holds m (F.face3d1 b1 i0 j0 k0 i1 j1 k1 0) (F.faces31 o dx κ1)) (hB2 : F.Holds m (F.face3d2 b2 i0 j0 k0 i1 j1 k1 0) (F.faces32 o dx κ2)) (hU : F.Holds m (F.cell3d u i0 j0 k0 i1 j1 k1 gcw) U)
    (hd0 : 0 < dx 0) (hd1 : 0 < dx 1) (hd2 : 0 < dx 2)
    (s0 : ∀ j k, j0 ≤ j → j ≤ j1 → k0 ≤ k → k ≤ k1 → F.SmoothFlux (fun s => φ s (F.centre (o 1) (dx 1) j) (F.centre (o 2) (dx 2) k)) (fun s => κ0 s (F.centre (o 1) (dx 1) j) (F.centre (o 2) (dx 2) k)) (F.centre (o 0) (dx 0) (i0 - 1)) (F.centre (o 0) (dx 0) (i1 + 1)) C0) (s1 : ∀ i k, i0 ≤ i → i ≤ i1 → k0 ≤ k → k ≤ k1 → F.SmoothFlux (fun s => φ (F.centre (o 0) (dx 0) i) s (F.centre (o 2) (dx 2) k)) (fun s => κ1 (F.centre (o 0) (dx 0) i) s (F.centre (o 2) (dx 2) k)) (F.centre (o 1) (dx 1) (j0 - 1)) (F.centre (o 1) (dx 1) (j1 + 1)) C1) (s2 : ∀ i j, i0 ≤ i → i ≤ i1 → j0 ≤ j → j ≤ j1 → F.SmoothFlux (fun s => φ (F.centre (o 0) (dx 0) i) (F.centre (o 1) (dx 1) j) s) (fun s => κ2 (F.centre (o 0) (dx 0) i) (F.centre (o 1) (dx 1) j) s) (F.centre (o 2) (dx 2) (k0 - 1)) (F.centre (o 2) (dx 2) (k1 + 1)) C2) (hc : 0 < c) (hca : c ≤ alpha)
    (w0 : ∀ j, j0 ≤ j → j ≤ j1 → ∀ k, k0 ≤ k → k ≤ k1 → F.Bends (fun s => φ s (F.centre (o 1) (dx 1) j) (F.centre (o 2) (dx 2) k)) (F.centre (o 0) (dx 0) (i0 - 1)) (F.centre (o 0) (dx 0) (i1 + 1)) P0 M0) (w1 : ∀ i, i0 ≤ i → i ≤ i1 → ∀ k, k0 ≤ k → k ≤ k1 → F.Bends (fun s => φ (F.centre (o 0) (dx 0) i) s (F.centre (o 2) (dx 2) k)) (F.centre (o 1) (dx 1) (j0 - 1)) (F.centre (o 1) (dx 1) (j1 + 1)) P1 M1) (w2 : ∀ i, i0 ≤ i → i ≤ i1 → ∀ j, j0 ≤ j → j ≤ j1 → F.Bends (fun s => φ (F.centre (o 0) (dx 0) i) (F.centre (o 1) (dx 1) j) s) (F.centre (o 2) (dx 2) (k0 - 1)) (F.centre (o 2) (dx 2) (k1 + 1)) P2 M2)
    (v0 : ∀ j, j0 ≤ j → j ≤ j1 → ∀ k, k0 ≤ k → k ≤ k1 → F.Varies (fun s => κ0 s (F.centre (o 1) (dx 1) j) (F.centre (o 2) (dx 2) k)) (F.centre (o 0) (dx 0) (i0 - 1)) (F.centre (o 0) (dx 0) (i1 + 1)) K0 L0) (v1 : ∀ i, i0 ≤ i → i ≤ i1 → ∀ k, k0 ≤ k → k ≤ k1 → F.Varies (fun s => κ1 (F.centre (o 0) (dx 0) i) s (F.centre (o 2) (dx 2) k)) (F.centre (o 1) (dx 1) (j0 - 1)) (F.centre (o 1) (dx 1) (j1 + 1)) K1 L1) (v2 : ∀ i, i0 ≤ i → i ≤ i1 → ∀ j, j0 ≤ j → j ≤ j1 → F.Varies (fun s => κ2 (F.centre (o 0) (dx 0) i) (F.centre (o 1) (dx 1) j) s) (F.centre (o 2) (dx 2) (k0 - 1)) (F.centre (o 2) (dx 2) (k1 + 1)) K2 L2)
    (hps : F.Pieces [(i0, i1), (j0, j1), (k0, k1)] 7 (F.row F.points3) ps) (hX : F.Fulfils [(i0, i1), (j0, j1), (k0, k1)] 7 (F.row F.points3) ps D U) (hN : F.Exact dx (F.row F.points3) ps D (F.normal3 o dx φ))
    (hd : ∀ p, F.InBounds [(i0, i1), (j0, j1), (k0, k1)] p → ∀ e, 1 ≤ e → e ≤ 7 - 1 → ¬ F.InBounds [(i0, i1), (j0, j1), (k0, k1)] (F.shift p (F.row F.points3 e)) → (∀ k ∈ ps, k.cells p → k.ghost ≠ e) →
      |D (F.shift p (F.row F.points3 e)) - F.cells3 o dx φ (F.shift p (F.row F.points3 e))| ≤ d)
    (he : F.Elliptic3 i0 j0 k0 i1 j1 k1 alpha beta dx (fun _ => 1) (F.faces30 o dx κ0) (F.faces31 o dx κ1) (F.faces32 o dx κ2)) :
    ∃ m1 m2, ∃ R : List Int → ℝ, Cuda.flux3d i0 j0 k0 i1 j1 k1 dx b0 b1 b2 gcw u f0 f1 f2 β1 m = .ok m1 ∧ Cuda.diffusionV2Apply3d i0 i1 j0 j1 k0 k1 alpha beta dx gcw u f0 f1 f2 rgcw res β2 m1 = .ok m2 ∧
      (∀ p, F.InBounds [(i0, i1), (j0, j1), (k0, k1)] p → F.El m2 (F.cell3d res i0 j0 k0 i1 j1 k1 rgcw) p (R p)) ∧
      ∀ t, (∀ i j k, i0 ≤ i → i ≤ i1 → j0 ≤ j → j ≤ j1 → k0 ≤ k → k ≤ k1 → |R [i, j, k] - F.diffusion3 alpha beta (fun _ _ _ => 1) κ0 κ1 κ2 φ (F.centre (o 0) (dx 0) i) (F.centre (o 1) (dx 1) j) (F.centre (o 2) (dx 2) k)| ≤ t) → ∀ E, d ≤ E → P0 * dx 0 ^ 2 / 8 ≤ E → P1 * dx 1 ^ 2 / 8 ≤ E → P2 * dx 2 ^ 2 / 8 ≤ E → t + beta * (C0 * dx 0 ^ 2 + C1 * dx 1 ^ 2 + C2 * dx 2 ^ 2) / 24 + beta * (2 * (K0 + L0 * F.extent (dx 0) i0 i1 / 2) * (M0 * dx 0 ^ 2 / (24 * F.extent (dx 0) i0 i1)) + 2 * (K1 + L1 * F.extent (dx 1) j0 j1 / 2) * (M1 * dx 1 ^ 2 / (24 * F.extent (dx 1) j0 j1)) + 2 * (K2 + L2 * F.extent (dx 2) k0 k1 / 2) * (M2 * dx 2 ^ 2 / (24 * F.extent (dx 2) k0 k1))) ≤ c * E → 
        ∀ i j k, i0 ≤ i → i ≤ i1 → j0 ≤ j → j ≤ j1 → k0 ≤ k → k ≤ k1 → |U [i, j, k] - φ (F.centre (o 0) (dx 0) i) (F.centre (o 1) (dx 1) j) (F.centre (o 2) (dx 2) k)| ≤ E + (M0 * F.extent (dx 0) i0 i1 * dx 0 ^ 2 / 96 + M1 * F.extent (dx 1) j0 j1 * dx 1 ^ 2 / 96 + M2 * F.extent (dx 2) k0 k1 * dx 2 ^ 2 / 96) := by
  obtain ⟨m1, m2, R, c1, c2, e, hR⟩ := energy_v2_3 (alpha := alpha) (beta := beta) (dx := dx) hβ1 hβ2 hi hj hk hg hrgcw h hp hr hB0 hB1 hB2 hU
  refine ⟨m1, m2, R, c1, c2, e, fun t ht => ?_⟩
  have N := F.near_diffusion3 (beta := beta) (U := F.cells3 o dx φ) (q := fun _ _ _ => 1) (A := fun _ => 1) (alpha := alpha) hd0 hd1 hd2 (fun _ _ => rfl) (fun _ _ => rfl) s0 s1 s2
  rw [abs_of_pos he.beta] at N
  have both : ∀ i j k, i0 ≤ i → i ≤ i1 → j0 ≤ j → j ≤ j1 → k0 ≤ k → k ≤ k1 → |F.op3 alpha beta dx (fun _ => 1) (F.faces30 o dx κ0) (F.faces31 o dx κ1) (F.faces32 o dx κ2) U i j k - F.op3 alpha beta dx (fun _ => 1) (F.faces30 o dx κ0) (F.faces31 o dx κ1) (F.faces32 o dx κ2) (F.cells3 o dx φ) i j k| ≤ t + beta * (C0 * dx 0 ^ 2 + C1 * dx 1 ^ 2 + C2 * dx 2 ^ 2) / 24 := fun i j k h0 h1 h2 h3 h4 h5 => by
    have x := ht i j k h0 h1 h2 h3 h4 h5
    rw [hR i j k h0 h1 h2 h3 h4 h5] at x
    have y := N i j k h0 h1 h2 h3 h4 h5
    rw [abs_le] at x y ⊢
    constructor <;> linarith [x.1, x.2, y.1, y.2]
  intro E hdE hm0 hm1 hm2 hE i j k h0 h1 h2 h3 h4 h5
  have x := he.conv hi hj hk hd0 hd1 hd2 hps hX hN (fun j a0 a1 k a2 a3 => (s0 j k a0 a1 a2 a3).field) (fun i a0 a1 k a2 a3 => (s1 i k a0 a1 a2 a3).field) (fun i a0 a1 j a2 a3 => (s2 i j a0 a1 a2 a3).field) w0 w1 w2 (fun j a0 a1 k a2 a3 => (s0 j k a0 a1 a2 a3).coef) (fun i a0 a1 k a2 a3 => (s1 i k a0 a1 a2 a3).coef) (fun i a0 a1 j a2 a3 => (s2 i j a0 a1 a2 a3).coef) v0 v1 v2 hd both hc (fun i j k h0 h1 h2 h3 h4 h5 => by simpa using hca) hdE hm0 hm1 hm2 hE [i, j, k] (F.inBounds3.2 ⟨i, j, k, rfl, by omega⟩)
  simp only [F.cells3, List.getD_cons_zero, List.getD_cons_succ] at x
  exact x

example := exBv3_v2.imp fun X hX =>
  C89_v2_3d (m := exFun (exG3 X)) (U := X) (φ := exφ3) (alpha := 3) (beta := 2) (c := 3) (u := ⟨1, 0⟩) (f0 := ⟨5, 0⟩) (f1 := ⟨6, 0⟩) (f2 := ⟨7, 0⟩) (res := ⟨8, 0⟩) (gcw := 2) (rgcw := 1) (b0 := ⟨2, 0⟩) (b1 := ⟨3, 0⟩) (b2 := ⟨4, 0⟩) (κ0 := exk30) (κ1 := exk31) (κ2 := exk32) (fun _ => revBackend_ok) (fun _ => seqBackend_ok) (by decide) (by decide) (by decide) (by decide) (by decide) (exFun_args (by ex_args)) ⟨apart_blk (by decide), apart_blk (by decide), apart_blk (by decide)⟩ ⟨apart_blk (by decide), apart_blk (by decide), apart_blk (by decide)⟩ (exFun_holds rfl rfl (exRat_ok rfl (by decide) (by decide))) (exFun_holds rfl rfl (exRat_ok rfl (by decide) (by decide))) (exFun_holds rfl rfl (exRat_ok rfl (by decide) (by decide))) (exFun_holds rfl rfl (exRat_ok rfl (by decide) (by decide))) (exW_pos 0) (exW_pos 1) (exW_pos 2) (fun j k _ _ _ _ => exSmooth (L := 3) (c := (F.centre (ex0 1) (exW 1) j) ^ 4 + (F.centre (ex0 2) (exW 2) k) ^ 4) (fun x => by ex_field) (fun x => rfl) (by norm_num [F.centre, exW, ex0]) (by norm_num [F.centre, exW, ex0])) (fun i k _ _ _ _ => exSmooth (L := 7) (c := (F.centre (ex0 0) (exW 0) i) ^ 4 + (F.centre (ex0 2) (exW 2) k) ^ 4) (fun x => by ex_field) (fun x => rfl) (by norm_num [F.centre, exW, ex0]) (by norm_num [F.centre, exW, ex0])) (fun i j _ _ _ _ => exSmooth (L := 12) (c := (F.centre (ex0 0) (exW 0) i) ^ 4 + (F.centre (ex0 1) (exW 1) j) ^ 4) (fun x => by ex_field) (fun x => rfl) (by norm_num [F.centre, exW, ex0]) (by norm_num [F.centre, exW, ex0])) (by norm_num) (by norm_num) (fun j _ _ k _ _ => exBends (L := 3) (c := (F.centre (ex0 1) (exW 1) j) ^ 4 + (F.centre (ex0 2) (exW 2) k) ^ 4) (fun x => by ex_field) (by norm_num [F.centre, exW, ex0]) (by norm_num [F.centre, exW, ex0])) (fun i _ _ k _ _ => exBends (L := 7) (c := (F.centre (ex0 0) (exW 0) i) ^ 4 + (F.centre (ex0 2) (exW 2) k) ^ 4) (fun x => by ex_field) (by norm_num [F.centre, exW, ex0]) (by norm_num [F.centre, exW, ex0])) (fun i _ _ j _ _ => exBends (L := 12) (c := (F.centre (ex0 0) (exW 0) i) ^ 4 + (F.centre (ex0 1) (exW 1) j) ^ 4) (fun x => by ex_field) (by norm_num [F.centre, exW, ex0]) (by norm_num [F.centre, exW, ex0])) (fun j _ _ k _ _ => exVaries (L := 3) (fun x => rfl) (by norm_num [F.centre, exW, ex0]) (by norm_num [F.centre, exW, ex0])) (fun i _ _ k _ _ => exVaries (L := 7) (fun x => rfl) (by norm_num [F.centre, exW, ex0]) (by norm_num [F.centre, exW, ex0])) (fun i _ _ j _ _ => exVaries (L := 12) (fun x => rfl) (by norm_num [F.centre, exW, ex0]) (by norm_num [F.centre, exW, ex0])) exBc3v_ok hX exBc3v_exact exBd3v_near exAcc_v2_3

/-- 3D, Poisson operator with Dirichlet conditions or given ghost values across axis 0, a smooth function that fulfils the boundary conditions: the distance of the field to the function is bounded by that of the given ghost values, by `t`, the distance of the result to the differential operator, and by terms of second order in the mesh widths. -/
theorem C89_poisson_3d_axis0 {i0 j0 k0 i1 j1 k1 gcw rgcw : Int} {beta : ℝ} {dx : Nat → ℝ} {u f0 f1 f2 res : Ptr} {β1 β2 : Nat → Backend} {m : Mem ℝ} {U : List Int → ℝ} {o : Nat → ℝ} {φ : ℝ → ℝ → ℝ → ℝ} {C0 C1 C2 d : ℝ} {P0 M0 P1 M1 P2 M2 : ℝ} {D : List Int → ℝ} {ps : List (F.Piece ℝ)}
    (hβ1 : ∀ n, ValidBackend (β1 n)) (hβ2 : ∀ n, ValidBackend (β2 n)) (hi : i0 ≤ i1) (hj : j0 ≤ j1) (hk : k0 ≤ k1) (hg : 1 ≤ gcw) (hrgcw : 0 ≤ rgcw)
    (h : F.Args m [(F.cell3d u i0 j0 k0 i1 j1 k1 gcw)] [(F.face3d0 f0 i0 j0 k0 i1 j1 k1 0), (F.face3d1 f1 i0 j0 k0 i1 j1 k1 0), (F.face3d2 f2 i0 j0 k0 i1 j1 k1 0), (F.cell3d res i0 j0 k0 i1 j1 k1 rgcw)])
    (hp : F.Apart (F.face3d0 f0 i0 j0 k0 i1 j1 k1 0) (F.face3d1 f1 i0 j0 k0 i1 j1 k1 0) ∧ F.Apart (F.face3d0 f0 i0 j0 k0 i1 j1 k1 0) (F.face3d2 f2 i0 j0 k0 i1 j1 k1 0) ∧ F.Apart (F.face3d1 f1 i0 j0 k0 i1 j1 k1 0) (F.face3d2 f2 i0 j0 k0 i1 j1 k1 0))
    (hr : F.Apart (F.cell3d res i0 j0 k0 i1 j1 k1 rgcw) (F.face3d0 f0 i0 j0 k0 i1 j1 k1 0) ∧ F.Apart (F.cell3d res i0 j0 k0 i1 j1 k1 rgcw) (F.face3d1 f1 i0 j0 k0 i1 j1 k1 0) ∧ F.Apart (F.cell3d res i0 j0 k0 i1 j1 k1 rgcw) (F.face3d2 f2 i0 j0 k0 i1 j1 k1 0)) (hU : F.Holds m (F.cell3d u i0 j0 k0 i1 j1 k1 gcw) U)
    (hd0 : 0 < dx 0) (hd1 : 0 < dx 1) (hd2 : 0 < dx 2)
    (s0 : ∀ j k, j0 ≤ j → j ≤ j1 → k0 ≤ k → k ≤ k1 → F.SmoothField (fun s => φ s (F.centre (o 1) (dx 1) j) (F.centre (o 2) (dx 2) k)) (F.centre (o 0) (dx 0) (i0 - 1)) (F.centre (o 0) (dx 0) (i1 + 1)) C0) (s1 : ∀ i k, i0 ≤ i → i ≤ i1 → k0 ≤ k → k ≤ k1 → F.SmoothField (fun s => φ (F.centre (o 0) (dx 0) i) s (F.centre (o 2) (dx 2) k)) (F.centre (o 1) (dx 1) (j0 - 1)) (F.centre (o 1) (dx 1) (j1 + 1)) C1) (s2 : ∀ i j, i0 ≤ i → i ≤ i1 → j0 ≤ j → j ≤ j1 → F.SmoothField (fun s => φ (F.centre (o 0) (dx 0) i) (F.centre (o 1) (dx 1) j) s) (F.centre (o 2) (dx 2) (k0 - 1)) (F.centre (o 2) (dx 2) (k1 + 1)) C2)
    (w0 : ∀ j, j0 ≤ j → j ≤ j1 → ∀ k, k0 ≤ k → k ≤ k1 → F.Bends (fun s => φ s (F.centre (o 1) (dx 1) j) (F.centre (o 2) (dx 2) k)) (F.centre (o 0) (dx 0) (i0 - 1)) (F.centre (o 0) (dx 0) (i1 + 1)) P0 M0) (w1 : ∀ i, i0 ≤ i → i ≤ i1 → ∀ k, k0 ≤ k → k ≤ k1 → F.Bends (fun s => φ (F.centre (o 0) (dx 0) i) s (F.centre (o 2) (dx 2) k)) (F.centre (o 1) (dx 1) (j0 - 1)) (F.centre (o 1) (dx 1) (j1 + 1)) P1 M1) (w2 : ∀ i, i0 ≤ i → i ≤ i1 → ∀ j, j0 ≤ j → j ≤ j1 → F.Bends (fun s => φ (F.centre (o 0) (dx 0) i) (F.centre (o 1) (dx 1) j) s) (F.centre (o 2) (dx 2) (k0 - 1)) (F.centre (o 2) (dx 2) (k1 + 1)) P2 M2)
    (hps : F.Pieces [(i0, i1), (j0, j1), (k0, k1)] 7 (F.row F.points3) ps) (hX : F.Fulfils [(i0, i1), (j0, j1), (k0, k1)] 7 (F.row F.points3) ps D U) (hN : F.Exact dx (F.row F.points3) ps D (F.normal3 o dx φ))
    (ha : ∀ r ∈ ps, r.ghost = 1 ∨ r.ghost = 2 → r.btype = 0)
    (hd : ∀ p, F.InBounds [(i0, i1), (j0, j1), (k0, k1)] p → ∀ e, 1 ≤ e → e ≤ 7 - 1 → ¬ F.InBounds [(i0, i1), (j0, j1), (k0, k1)] (F.shift p (F.row F.points3 e)) → (∀ k ∈ ps, k.cells p → k.ghost ≠ e) →
      |D (F.shift p (F.row F.points3 e)) - F.cells3 o dx φ (F.shift p (F.row F.points3 e))| ≤ d)
    (he : F.Elliptic3 i0 j0 k0 i1 j1 k1 0 beta dx (fun _ => 1) (fun _ => 1) (fun _ => 1) (fun _ => 1)) :
    ∃ m1 m2, ∃ R : List Int → ℝ, Cuda.poissonFlux3d i0 j0 k0 i1 j1 k1 dx gcw u f0 f1 f2 β1 m = .ok m1 ∧ Cuda.poissonV2Apply3d i0 i1 j0 j1 k0 k1 beta dx f0 f1 f2 rgcw res β2 m1 = .ok m2 ∧
      (∀ p, F.InBounds [(i0, i1), (j0, j1), (k0, k1)] p → F.El m2 (F.cell3d res i0 j0 k0 i1 j1 k1 rgcw) p (R p)) ∧
      ∀ t, (∀ i j k, i0 ≤ i → i ≤ i1 → j0 ≤ j → j ≤ j1 → k0 ≤ k → k ≤ k1 → |R [i, j, k] - -(beta * F.laplace3 φ (F.centre (o 0) (dx 0) i) (F.centre (o 1) (dx 1) j) (F.centre (o 2) (dx 2) k))| ≤ t) → ∀ E, d ≤ E → P0 * dx 0 ^ 2 / 8 ≤ E → P1 * dx 1 ^ 2 / 8 ≤ E → P2 * dx 2 ^ 2 / 8 ≤ E → 
        ∀ i j k, i0 ≤ i → i ≤ i1 → j0 ≤ j → j ≤ j1 → k0 ≤ k → k ≤ k1 → |U [i, j, k] - φ (F.centre (o 0) (dx 0) i) (F.centre (o 1) (dx 1) j) (F.centre (o 2) (dx 2) k)| ≤ E + (M1 * F.extent (dx 1) j0 j1 * dx 1 ^ 2 / 96 + M2 * F.extent (dx 2) k0 k1 * dx 2 ^ 2 / 96) + ((t + beta * (C0 * dx 0 ^ 2 + C1 * dx 1 ^ 2 + C2 * dx 2 ^ 2) / 12) / (2 * beta) + (M1 * dx 1 ^ 2 / (24 * F.extent (dx 1) j0 j1) + M2 * dx 2 ^ 2 / (24 * F.extent (dx 2) k0 k1))) * ((F.extent (dx 0) i0 i1 + dx 0) ^ 2 / 4) := by
  obtain ⟨m1, m2, R, c1, c2, e, hR⟩ := energy_p_3 (beta := beta) (dx := dx) hβ1 hβ2 hi hj hk hg hrgcw h hp hr hU
  refine ⟨m1, m2, R, c1, c2, e, fun t ht => ?_⟩
  have N := F.near_laplace3 (beta := beta) (U := F.cells3 o dx φ) hd0 hd1 hd2 (fun _ _ => rfl) s0 s1 s2
  rw [abs_of_pos he.beta] at N
  have both : ∀ i j k, i0 ≤ i → i ≤ i1 → j0 ≤ j → j ≤ j1 → k0 ≤ k → k ≤ k1 → |F.op3 0 beta dx (fun _ => 1) (fun _ => 1) (fun _ => 1) (fun _ => 1) U i j k - F.op3 0 beta dx (fun _ => 1) (fun _ => 1) (fun _ => 1) (fun _ => 1) (F.cells3 o dx φ) i j k| ≤ t + beta * (C0 * dx 0 ^ 2 + C1 * dx 1 ^ 2 + C2 * dx 2 ^ 2) / 12 := fun i j k h0 h1 h2 h3 h4 h5 => by
    have x := ht i j k h0 h1 h2 h3 h4 h5
    rw [hR i j k h0 h1 h2 h3 h4 h5] at x
    have y := N i j k h0 h1 h2 h3 h4 h5
    rw [abs_le] at x y ⊢
    constructor <;> linarith [x.1, x.2, y.1, y.2]
  intro E hdE hm0 hm1 hm2 i j k h0 h1 h2 h3 h4 h5
  have x := he.convp0 hi hj hk hd0 hd1 hd2 hps hX hN (fun j a0 a1 k a2 a3 => (s0 j k a0 a1 a2 a3).field) (fun i a0 a1 k a2 a3 => (s1 i k a0 a1 a2 a3).field) (fun i a0 a1 j a2 a3 => (s2 i j a0 a1 a2 a3).field) w0 w1 w2 hd both ha hdE hm0 hm1 hm2 [i, j, k] (F.inBounds3.2 ⟨i, j, k, rfl, by omega⟩)
  simp only [F.cells3, List.getD_cons_zero, List.getD_cons_succ, add_zero] at x
  exact x

example := exBv3_p0.imp fun X hX =>
  C89_poisson_3d_axis0 (m := exFun (exG3 X)) (U := X) (φ := exφ3) (beta := 2) (u := ⟨1, 0⟩) (f0 := ⟨5, 0⟩) (f1 := ⟨6, 0⟩) (f2 := ⟨7, 0⟩) (res := ⟨8, 0⟩) (gcw := 2) (rgcw := 1) (fun _ => revBackend_ok) (fun _ => seqBackend_ok) (by decide) (by decide) (by decide) (by decide) (by decide) (exFun_args (by ex_args)) ⟨apart_blk (by decide), apart_blk (by decide), apart_blk (by decide)⟩ ⟨apart_blk (by decide), apart_blk (by decide), apart_blk (by decide)⟩ (exFun_holds rfl rfl (exRat_ok rfl (by decide) (by decide))) (exW_pos 0) (exW_pos 1) (exW_pos 2) (fun j k _ _ _ _ => exSmoothF (c := (F.centre (ex0 1) (exW 1) j) ^ 4 + (F.centre (ex0 2) (exW 2) k) ^ 4) fun x => by ex_field) (fun i k _ _ _ _ => exSmoothF (c := (F.centre (ex0 0) (exW 0) i) ^ 4 + (F.centre (ex0 2) (exW 2) k) ^ 4) fun x => by ex_field) (fun i j _ _ _ _ => exSmoothF (c := (F.centre (ex0 0) (exW 0) i) ^ 4 + (F.centre (ex0 1) (exW 1) j) ^ 4) fun x => by ex_field) (fun j _ _ k _ _ => exBends (L := 3) (c := (F.centre (ex0 1) (exW 1) j) ^ 4 + (F.centre (ex0 2) (exW 2) k) ^ 4) (fun x => by ex_field) (by norm_num [F.centre, exW, ex0]) (by norm_num [F.centre, exW, ex0])) (fun i _ _ k _ _ => exBends (L := 7) (c := (F.centre (ex0 0) (exW 0) i) ^ 4 + (F.centre (ex0 2) (exW 2) k) ^ 4) (fun x => by ex_field) (by norm_num [F.centre, exW, ex0]) (by norm_num [F.centre, exW, ex0])) (fun i _ _ j _ _ => exBends (L := 12) (c := (F.centre (ex0 0) (exW 0) i) ^ 4 + (F.centre (ex0 1) (exW 1) j) ^ 4) (fun x => by ex_field) (by norm_num [F.centre, exW, ex0]) (by norm_num [F.centre, exW, ex0])) exBc3p0_ok hX exBc3p0_exact (fun k hk hz => by
    simp only [exBc3p0, List.mem_cons, List.not_mem_nil, or_false] at hk
    rcases hk with rfl | rfl | rfl | rfl | rfl <;> first | rfl | exact absurd hz (by decide)) exBd3p0_near exAcc_p_3

/-- 3D, Poisson operator with Dirichlet conditions or given ghost values across axis 1, a smooth function that fulfils the boundary conditions: the distance of the field to the function is bounded by that of the given ghost values, by `t`, the distance of the result to the differential operator, and by terms of second order in the mesh widths. -/
theorem C89_poisson_3d_axis1 {i0 j0 k0 i1 j1 k1 gcw rgcw : Int} {beta : ℝ} {dx : Nat → ℝ} {u f0 f1 f2 res : Ptr} {β1 β2 : Nat → Backend} {m : Mem ℝ} {U : List Int → ℝ} {o : Nat → ℝ} {φ : ℝ → ℝ → ℝ → ℝ} {C0 C1 C2 d : ℝ} {P0 M0 P1 M1 P2 M2 : ℝ} {D : List Int → ℝ} {ps : List (F.Piece ℝ)}
    (hβ1 : ∀ n, ValidBackend (β1 n)) (hβ2 : ∀ n, ValidBackend (β2 n)) (hi : i0 ≤ i1) (hj : j0 ≤ j1) (hk : k0 ≤ k1) (hg : 1 ≤ gcw) (hrgcw : 0 ≤ rgcw)
    (h : F.Args m [(F.cell3d u i0 j0 k0 i1 j1 k1 gcw)] [(F.face3d0 f0 i0 j0 k0 i1 j1 k1 0), (F.face3d1 f1 i0 j0 k0 i1 j1 k1 0), (F.face3d2 f2 i0 j0 k0 i1 j1 k1 0), (F.cell3d res i0 j0 k0 i1 j1 k1 rgcw)])
    (hp : F.Apart (F.face3d0 f0 i0 j0 k0 i1 j1 k1 0) (F.face3d1 f1 i0 j0 k0 i1 j1 k1 0) ∧ F.Apart (F.face3d0 f0 i0 j0 k0 i1 j1 k1 0) (F.face3d2 f2 i0 j0 k0 i1 j1 k1 0) ∧ F.Apart (F.face3d1 f1 i0 j0 k0 i1 j1 k1 0) (F.face3d2 f2 i0 j0 k0 i1 j1 k1 0))
    (hr : F.Apart (F.cell3d res i0 j0 k0 i1 j1 k1 rgcw) (F.face3d0 f0 i0 j0 k0 i1 j1 k1 0) ∧ F.Apart (F.cell3d res i0 j0 k0 i1 j1 k1 rgcw) (F.face3d1 f1 i0 j0 k0 i1 j1 k1 0) ∧ F.Apart (F.cell3d res i0 j0 k0 i1 j1 k1 rgcw) (F.face3d2 f2 i0 j0 k0 i1 j1 k1 0)) (hU : F.Holds m (F.cell3d u i0 j0 k0 i1 j1 k1 gcw) U)
    (hd0 : 0 < dx 0) (hd1 : 0 < dx 1) (hd2 : 0 < dx 2)
    (s0 : ∀ j k, j0 ≤ j → j ≤ j1 → k0 ≤ k → k ≤ k1 → F.SmoothField (fun s => φ s (F.centre (o 1) (dx 1) j) (F.centre (o 2) (dx 2) k)) (F.centre (o 0) (dx 0) (i0 - 1)) (F.centre (o 0) (dx 0) (i1 + 1)) C0) (s1 : ∀ i k, i0 ≤ i → i ≤ i1 → k0 ≤ k → k ≤ k1 → F.SmoothField (fun s => φ (F.centre (o 0) (dx 0) i) s (F.centre (o 2) (dx 2) k)) (F.centre (o 1) (dx 1) (j0 - 1)) (F.centre (o 1) (dx 1) (j1 + 1)) C1) (s2 : ∀ i j, i0 ≤ i → i ≤ i1 → j0 ≤ j → j ≤ j1 → F.SmoothField (fun s => φ (F.centre (o 0) (dx 0) i) (F.centre (o 1) (dx 1) j) s) (F.centre (o 2) (dx 2) (k0 - 1)) (F.centre (o 2) (dx 2) (k1 + 1)) C2)
    (w0 : ∀ j, j0 ≤ j → j ≤ j1 → ∀ k, k0 ≤ k → k ≤ k1 → F.Bends (fun s => φ s (F.centre (o 1) (dx 1) j) (F.centre (o 2) (dx 2) k)) (F.centre (o 0) (dx 0) (i0 - 1)) (F.centre (o 0) (dx 0) (i1 + 1)) P0 M0) (w1 : ∀ i, i0 ≤ i → i ≤ i1 → ∀ k, k0 ≤ k → k ≤ k1 → F.Bends (fun s => φ (F.centre (o 0) (dx 0) i) s (F.centre (o 2) (dx 2) k)) (F.centre (o 1) (dx 1) (j0 - 1)) (F.centre (o 1) (dx 1) (j1 + 1)) P1 M1) (w2 : ∀ i, i0 ≤ i → i ≤ i1 → ∀ j, j0 ≤ j → j ≤ j1 → F.Bends (fun s => φ (F.centre (o 0) (dx 0) i) (F.centre (o 1) (dx 1) j) s) (F.centre (o 2) (dx 2) (k0 - 1)) (F.centre (o 2) (dx 2) (k1 + 1)) P2 M2)
    (hps : F.Pieces [(i0, i1), (j0, j1), (k0, k1)] 7 (F.row F.points3) ps) (hX : F.Fulfils [(i0, i1), (j0, j1), (k0, k1)] 7 (F.row F.points3) ps D U) (hN : F.Exact dx (F.row F.points3) ps D (F.normal3 o dx φ))
    (ha : ∀ r ∈ ps, r.ghost = 3 ∨ r.ghost = 4 → r.btype = 0)
    (hd : ∀ p, F.InBounds [(i0, i1), (j0, j1), (k0, k1)] p → ∀ e, 1 ≤ e → e ≤ 7 - 1 → ¬ F.InBounds [(i0, i1), (j0, j1), (k0, k1)] (F.shift p (F.row F.points3 e)) → (∀ k ∈ ps, k.cells p → k.ghost ≠ e) →
      |D (F.shift p (F.row F.points3 e)) - F.cells3 o dx φ (F.shift p (F.row F.points3 e))| ≤ d)
    (he : F.Elliptic3 i0 j0 k0 i1 j1 k1 0 beta dx (fun _ => 1) (fun _ => 1) (fun _ => 1) (fun _ => 1)) :
    ∃ m1 m2, ∃ R : List Int → ℝ, Cuda.poissonFlux3d i0 j0 k0 i1 j1 k1 dx gcw u f0 f1 f2 β1 m = .ok m1 ∧ Cuda.poissonV2Apply3d i0 i1 j0 j1 k0 k1 beta dx f0 f1 f2 rgcw res β2 m1 = .ok m2 ∧
      (∀ p, F.InBounds [(i0, i1), (j0, j1), (k0, k1)] p → F.El m2 (F.cell3d res i0 j0 k0 i1 j1 k1 rgcw) p (R p)) ∧
      ∀ t, (∀ i j k, i0 ≤ i → i ≤ i1 → j0 ≤ j → j ≤ j1 → k0 ≤ k → k ≤ k1 → |R [i, j, k] - -(beta * F.laplace3 φ (F.centre (o 0) (dx 0) i) (F.centre (o 1) (dx 1) j) (F.centre (o 2) (dx 2) k))| ≤ t) → ∀ E, d ≤ E → P0 * dx 0 ^ 2 / 8 ≤ E → P1 * dx 1 ^ 2 / 8 ≤ E → P2 * dx 2 ^ 2 / 8 ≤ E → 
        ∀ i j k, i0 ≤ i → i ≤ i1 → j0 ≤ j → j ≤ j1 → k0 ≤ k → k ≤ k1 → |U [i, j, k] - φ (F.centre (o 0) (dx 0) i) (F.centre (o 1) (dx 1) j) (F.centre (o 2) (dx 2) k)| ≤ E + (M0 * F.extent (dx 0) i0 i1 * dx 0 ^ 2 / 96 + M2 * F.extent (dx 2) k0 k1 * dx 2 ^ 2 / 96) + ((t + beta * (C0 * dx 0 ^ 2 + C1 * dx 1 ^ 2 + C2 * dx 2 ^ 2) / 12) / (2 * beta) + (M0 * dx 0 ^ 2 / (24 * F.extent (dx 0) i0 i1) + M2 * dx 2 ^ 2 / (24 * F.extent (dx 2) k0 k1))) * ((F.extent (dx 1) j0 j1 + dx 1) ^ 2 / 4) := by
  obtain ⟨m1, m2, R, c1, c2, e, hR⟩ := energy_p_3 (beta := beta) (dx := dx) hβ1 hβ2 hi hj hk hg hrgcw h hp hr hU
  refine ⟨m1, m2, R, c1, c2, e, fun t ht => ?_⟩
  have N := F.near_laplace3 (beta := beta) (U := F.cells3 o dx φ) hd0 hd1 hd2 (fun _ _ => rfl) s0 s1 s2
  rw [abs_of_pos he.beta] at N
  have both : ∀ i j k, i0 ≤ i → i ≤ i1 → j0 ≤ j → j ≤ j1 → k0 ≤ k → k ≤ k1 → |F.op3 0 beta dx (fun _ => 1) (fun _ => 1) (fun _ => 1) (fun _ => 1) U i j k - F.op3 0 beta dx (fun _ => 1) (fun _ => 1) (fun _ => 1) (fun _ => 1) (F.cells3 o dx φ) i j k| ≤ t + beta * (C0 * dx 0 ^ 2 + C1 * dx 1 ^ 2 + C2 * dx 2 ^ 2) / 12 := fun i j k h0 h1 h2 h3 h4 h5 => by
    have x := ht i j k h0 h1 h2 h3 h4 h5
    rw [hR i j k h0 h1 h2 h3 h4 h5] at x
    have y := N i j k h0 h1 h2 h3 h4 h5
    rw [abs_le] at x y ⊢
    constructor <;> linarith [x.1, x.2, y.1, y.2]
  intro E hdE hm0 hm1 hm2 i j k h0 h1 h2 h3 h4 h5
  have x := he.convp1 hi hj hk hd0 hd1 hd2 hps hX hN (fun j a0 a1 k a2 a3 => (s0 j k a0 a1 a2 a3).field) (fun i a0 a1 k a2 a3 => (s1 i k a0 a1 a2 a3).field) (fun i a0 a1 j a2 a3 => (s2 i j a0 a1 a2 a3).field) w0 w1 w2 hd both ha hdE hm0 hm1 hm2 [i, j, k] (F.inBounds3.2 ⟨i, j, k, rfl, by omega⟩)
  simp only [F.cells3, List.getD_cons_zero, List.getD_cons_succ, add_zero] at x
  exact x

example := exBv3_p1.imp fun X hX =>
  C89_poisson_3d_axis1 (m := exFun (exG3 X)) (U := X) (φ := exφ3) (beta := 2) (u := ⟨1, 0⟩) (f0 := ⟨5, 0⟩) (f1 := ⟨6, 0⟩) (f2 := ⟨7, 0⟩) (res := ⟨8, 0⟩) (gcw := 2) (rgcw := 1) (fun _ => revBackend_ok) (fun _ => seqBackend_ok) (by decide) (by decide) (by decide) (by decide) (by decide) (exFun_args (by ex_args)) ⟨apart_blk (by decide), apart_blk (by decide), apart_blk (by decide)⟩ ⟨apart_blk (by decide), apart_blk (by decide), apart_blk (by decide)⟩ (exFun_holds rfl rfl (exRat_ok rfl (by decide) (by decide))) (exW_pos 0) (exW_pos 1) (exW_pos 2) (fun j k _ _ _ _ => exSmoothF (c := (F.centre (ex0 1) (exW 1) j) ^ 4 + (F.centre (ex0 2) (exW 2) k) ^ 4) fun x => by ex_field) (fun i k _ _ _ _ => exSmoothF (c := (F.centre (ex0 0) (exW 0) i) ^ 4 + (F.centre (ex0 2) (exW 2) k) ^ 4) fun x => by ex_field) (fun i j _ _ _ _ => exSmoothF (c := (F.centre (ex0 0) (exW 0) i) ^ 4 + (F.centre (ex0 1) (exW 1) j) ^ 4) fun x => by ex_field) (fun j _ _ k _ _ => exBends (L := 3) (c := (F.centre (ex0 1) (exW 1) j) ^ 4 + (F.centre (ex0 2) (exW 2) k) ^ 4) (fun x => by ex_field) (by norm_num [F.centre, exW, ex0]) (by norm_num [F.centre, exW, ex0])) (fun i _ _ k _ _ => exBends (L := 7) (c := (F.centre (ex0 0) (exW 0) i) ^ 4 + (F.centre (ex0 2) (exW 2) k) ^ 4) (fun x => by ex_field) (by norm_num [F.centre, exW, ex0]) (by norm_num [F.centre, exW, ex0])) (fun i _ _ j _ _ => exBends (L := 12) (c := (F.centre (ex0 0) (exW 0) i) ^ 4 + (F.centre (ex0 1) (exW 1) j) ^ 4) (fun x => by ex_field) (by norm_num [F.centre, exW, ex0]) (by norm_num [F.centre, exW, ex0])) exBc3p1_ok hX exBc3p1_exact (fun k hk hz => by
    simp only [exBc3p1, List.mem_cons, List.not_mem_nil, or_false] at hk
    rcases hk with rfl | rfl | rfl | rfl | rfl <;> first | rfl | exact absurd hz (by decide)) exBd3p1_near exAcc_p_3

/-- 3D, Poisson operator with Dirichlet conditions or given ghost values across axis 2, a smooth function that fulfils the boundary conditions: the distance of the field to the function is bounded by that of the given ghost values, by `t`, the distance of the result to the differential operator, and by terms of second order in the mesh widths. -/
theorem C89_poisson_3d_axis2 {i0 j0 k0 i1 j1 k1 gcw rgcw : Int} {beta : ℝ} {dx : Nat → ℝ} {u f0 f1 f2 res : Ptr} {β1 β2 : Nat → Backend} {m : Mem ℝ} {U : List Int → ℝ} {o : Nat → ℝ} {φ : ℝ → ℝ → ℝ → ℝ} {C0 C1 C2 d : ℝ} {P0 M0 P1 M1 P2 M2 : ℝ} {D : List Int → ℝ} {ps : List (F.Piece ℝ)}
    (hβ1 : ∀ n, ValidBackend (β1 n)) (hβ2 : ∀ n, ValidBackend (β2 n)) (hi : i0 ≤ i1) (hj : j0 ≤ j1) (hk : k0 ≤ k1) (hg : 1 ≤ gcw) (hrgcw : 0 ≤ rgcw)
    (h : F.Args m [(F.cell3d u i0 j0 k0 i1 j1 k1 gcw)] [(F.face3d0 f0 i0 j0 k0 i1 j1 k1 0), (F.face3d1 f1 i0 j0 k0 i1 j1 k1 0), (F.face3d2 f2 i0 j0 k0 i1 j1 k1 0), (F.cell3d res i0 j0 k0 i1 j1 k1 rgcw)])
    (hp : F.Apart (F.face3d0 f0 i0 j0 k0 i1 j1 k1 0) (F.face3d1 f1 i0 j0 k0 i1 j1 k1 0) ∧ F.Apart (F.face3d0 f0 i0 j0 k0 i1 j1 k1 0) (F.face3d2 f2 i0 j0 k0 i1 j1 k1 0) ∧ F.Apart (F.face3d1 f1 i0 j0 k0 i1 j1 k1 0) (F.face3d2 f2 i0 j0 k0 i1 j1 k1 0))
    (hr : F.Apart (F.cell3d res i0 j0 k0 i1 j1 k1 rgcw) (F.face3d0 f0 i0 j0 k0 i1 j1 k1 0) ∧ F.Apart (F.cell3d res i0 j0 k0 i1 j1 k1 rgcw) (F.face3d1 f1 i0 j0 k0 i1 j1 k1 0) ∧ F.Apart (F.cell3d res i0 j0 k0 i1 j1 k1 rgcw) (F.face3d2 f2 i0 j0 k0 i1 j1 k1 0)) (hU : F.Holds m (F.cell3d u i0 j0 k0 i1 j1 k1 gcw) U)
    (hd0 : 0 < dx 0) (hd1 : 0 < dx 1) (hd2 : 0 < dx 2)
    (s0 : ∀ j k, j0 ≤ j → j ≤ j1 → k0 ≤ k → k ≤ k1 → F.SmoothField (fun s => φ s (F.centre (o 1) (dx 1) j) (F.centre (o 2) (dx 2) k)) (F.centre (o 0) (dx 0) (i0 - 1)) (F.centre (o 0) (dx 0) (i1 + 1)) C0) (s1 : ∀ i k, i0 ≤ i → i ≤ i1 → k0 ≤ k → k ≤ k1 → F.SmoothField (fun s => φ (F.centre (o 0) (dx 0) i) s (F.centre (o 2) (dx 2) k)) (F.centre (o 1) (dx 1) (j0 - 1)) (F.centre (o 1) (dx 1) (j1 + 1)) C1) (s2 : ∀ i j, i0 ≤ i → i ≤ i1 → j0 ≤ j → j ≤ j1 → F.SmoothField (fun s => φ (F.centre (o 0) (dx 0) i) (F.centre (o 1) (dx 1) j) s) (F.centre (o 2) (dx 2) (k0 - 1)) (F.centre (o 2) (dx 2) (k1 + 1)) C2)
    (w0 : ∀ j, j0 ≤ j → j ≤ j1 → ∀ k, k0 ≤ k → k ≤ k1 → F.Bends (fun s => φ s (F.centre (o 1) (dx 1) j) (F.centre (o 2) (dx 2) k)) (F.centre (o 0) (dx 0) (i0 - 1)) (F.centre (o 0) (dx 0) (i1 + 1)) P0 M0) (w1 : ∀ i, i0 ≤ i → i ≤ i1 → ∀ k, k0 ≤ k → k ≤ k1 → F.Bends (fun s => φ (F.centre (o 0) (dx 0) i) s (F.centre (o 2) (dx 2) k)) (F.centre (o 1) (dx 1) (j0 - 1)) (F.centre (o 1) (dx 1) (j1 + 1)) P1 M1) (w2 : ∀ i, i0 ≤ i → i ≤ i1 → ∀ j, j0 ≤ j → j ≤ j1 → F.Bends (fun s => φ (F.centre (o 0) (dx 0) i) (F.centre (o 1) (dx 1) j) s) (F.centre (o 2) (dx 2) (k0 - 1)) (F.centre (o 2) (dx 2) (k1 + 1)) P2 M2)
    (hps : F.Pieces [(i0, i1), (j0, j1), (k0, k1)] 7 (F.row F.points3) ps) (hX : F.Fulfils [(i0, i1), (j0, j1), (k0, k1)] 7 (F.row F.points3) ps D U) (hN : F.Exact dx (F.row F.points3) ps D (F.normal3 o dx φ))
    (ha : ∀ r ∈ ps, r.ghost = 5 ∨ r.ghost = 6 → r.btype = 0)
    (hd : ∀ p, F.InBounds [(i0, i1), (j0, j1), (k0, k1)] p → ∀ e, 1 ≤ e → e ≤ 7 - 1 → ¬ F.InBounds [(i0, i1), (j0, j1), (k0, k1)] (F.shift p (F.row F.points3 e)) → (∀ k ∈ ps, k.cells p → k.ghost ≠ e) →
      |D (F.shift p (F.row F.points3 e)) - F.cells3 o dx φ (F.shift p (F.row F.points3 e))| ≤ d)
    (he : F.Elliptic3 i0 j0 k0 i1 j1 k1 0 beta dx (fun _ => 1) (fun _ => 1) (fun _ => 1) (fun _ => 1)) :
    ∃ m1 m2, ∃ R : List Int → ℝ, Cuda.poissonFlux3d i0 j0 k0 i1 j1 k1 dx gcw u f0 f1 f2 β1 m = .ok m1 ∧ Cuda.poissonV2Apply3d i0 i1 j0 j1 k0 k1 beta dx f0 f1 f2 rgcw res β2 m1 = .ok m2 ∧
      (∀ p, F.InBounds [(i0, i1), (j0, j1), (k0, k1)] p → F.El m2 (F.cell3d res i0 j0 k0 i1 j1 k1 rgcw) p (R p)) ∧
      ∀ t, (∀ i j k, i0 ≤ i → i ≤ i1 → j0 ≤ j → j ≤ j1 → k0 ≤ k → k ≤ k1 → |R [i, j, k] - -(beta * F.laplace3 φ (F.centre (o 0) (dx 0) i) (F.centre (o 1) (dx 1) j) (F.centre (o 2) (dx 2) k))| ≤ t) → ∀ E, d ≤ E → P0 * dx 0 ^ 2 / 8 ≤ E → P1 * dx 1 ^ 2 / 8 ≤ E → P2 * dx 2 ^ 2 / 8 ≤ E → 
        ∀ i j k, i0 ≤ i → i ≤ i1 → j0 ≤ j → j ≤ j1 → k0 ≤ k → k ≤ k1 → |U [i, j, k] - φ (F.centre (o 0) (dx 0) i) (F.centre (o 1) (dx 1) j) (F.centre (o 2) (dx 2) k)| ≤ E + (M0 * F.extent (dx 0) i0 i1 * dx 0 ^ 2 / 96 + M1 * F.extent (dx 1) j0 j1 * dx 1 ^ 2 / 96) + ((t + beta * (C0 * dx 0 ^ 2 + C1 * dx 1 ^ 2 + C2 * dx 2 ^ 2) / 12) / (2 * beta) + (M0 * dx 0 ^ 2 / (24 * F.extent (dx 0) i0 i1) + M1 * dx 1 ^ 2 / (24 * F.extent (dx 1) j0 j1))) * ((F.extent (dx 2) k0 k1 + dx 2) ^ 2 / 4) := by
  obtain ⟨m1, m2, R, c1, c2, e, hR⟩ := energy_p_3 (beta := beta) (dx := dx) hβ1 hβ2 hi hj hk hg hrgcw h hp hr hU
  refine ⟨m1, m2, R, c1, c2, e, fun t ht => ?_⟩
  have N := F.near_laplace3 (beta := beta) (U := F.cells3 o dx φ) hd0 hd1 hd2 (fun _ _ => rfl) s0 s1 s2
  rw [abs_of_pos he.beta] at N
  have both : ∀ i j k, i0 ≤ i → i ≤ i1 → j0 ≤ j → j ≤ j1 → k0 ≤ k → k ≤ k1 → |F.op3 0 beta dx (fun _ => 1) (fun _ => 1) (fun _ => 1) (fun _ => 1) U i j k - F.op3 0 beta dx (fun _ => 1) (fun _ => 1) (fun _ => 1) (fun _ => 1) (F.cells3 o dx φ) i j k| ≤ t + beta * (C0 * dx 0 ^ 2 + C1 * dx 1 ^ 2 + C2 * dx 2 ^ 2) / 12 := fun i j k h0 h1 h2 h3 h4 h5 => by
    have x := ht i j k h0 h1 h2 h3 h4 h5
    rw [hR i j k h0 h1 h2 h3 h4 h5] at x
    have y := N i j k h0 h1 h2 h3 h4 h5
    rw [abs_le] at x y ⊢
    constructor <;> linarith [x.1, x.2, y.1, y.2]
  intro E hdE hm0 hm1 hm2 i j k h0 h1 h2 h3 h4 h5
  have x := he.convp2 hi hj hk hd0 hd1 hd2 hps hX hN (fun j a0 a1 k a2 a3 => (s0 j k a0 a1 a2 a3).field) (fun i a0 a1 k a2 a3 => (s1 i k a0 a1 a2 a3).field) (fun i a0 a1 j a2 a3 => (s2 i j a0 a1 a2 a3).field) w0 w1 w2 hd both ha hdE hm0 hm1 hm2 [i, j, k] (F.inBounds3.2 ⟨i, j, k, rfl, by omega⟩)
  simp only [F.cells3, List.getD_cons_zero, List.getD_cons_succ, add_zero] at x
  exact x

example := exBv3_p2.imp fun X hX =>
  C89_poisson_3d_axis2 (m := exFun (exG3 X)) (U := X) (φ := exφ3) (beta := 2) (u := ⟨1, 0⟩) (f0 := ⟨5, 0⟩) (f1 := ⟨6, 0⟩) (f2 := ⟨7, 0⟩) (res := ⟨8, 0⟩) (gcw := 2) (rgcw := 1) (fun _ => revBackend_ok) (fun _ => seqBackend_ok) (by decide) (by decide) (by decide) (by decide) (by decide) (exFun_args (by ex_args)) ⟨apart_blk (by decide), apart_blk (by decide), apart_blk (by decide)⟩ ⟨apart_blk (by decide), apart_blk (by decide), apart_blk (by decide)⟩ (exFun_holds rfl rfl (exRat_ok rfl (by decide) (by decide))) (exW_pos 0) (exW_pos 1) (exW_pos 2) (fun j k _ _ _ _ => exSmoothF (c := (F.centre (ex0 1) (exW 1) j) ^ 4 + (F.centre (ex0 2) (exW 2) k) ^ 4) fun x => by ex_field) (fun i k _ _ _ _ => exSmoothF (c := (F.centre (ex0 0) (exW 0) i) ^ 4 + (F.centre (ex0 2) (exW 2) k) ^ 4) fun x => by ex_field) (fun i j _ _ _ _ => exSmoothF (c := (F.centre (ex0 0) (exW 0) i) ^ 4 + (F.centre (ex0 1) (exW 1) j) ^ 4) fun x => by ex_field) (fun j _ _ k _ _ => exBends (L := 3) (c := (F.centre (ex0 1) (exW 1) j) ^ 4 + (F.centre (ex0 2) (exW 2) k) ^ 4) (fun x => by ex_field) (by norm_num [F.centre, exW, ex0]) (by norm_num [F.centre, exW, ex0])) (fun i _ _ k _ _ => exBends (L := 7) (c := (F.centre (ex0 0) (exW 0) i) ^ 4 + (F.centre (ex0 2) (exW 2) k) ^ 4) (fun x => by ex_field) (by norm_num [F.centre, exW, ex0]) (by norm_num [F.centre, exW, ex0])) (fun i _ _ j _ _ => exBends (L := 12) (c := (F.centre (ex0 0) (exW 0) i) ^ 4 + (F.centre (ex0 1) (exW 1) j) ^ 4) (fun x => by ex_field) (by norm_num [F.centre, exW, ex0]) (by norm_num [F.centre, exW, ex0])) exBc3p2_ok hX exBc3p2_exact (fun k hk hz => by
    simp only [exBc3p2, List.mem_cons, List.not_mem_nil, or_false] at hk
    rcases hk with rfl | rfl | rfl | rfl | rfl <;> first | rfl | exact absurd hz (by decide)) exBd3p2_near exAcc_p_3

end Verif
