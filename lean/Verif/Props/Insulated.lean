import Verif.Lemmas.Insulated

/-
C111: boxes with Neumann conditions on all sides.
-/

set_option linter.unusedVariables false
set_option linter.unusedSimpArgs false

namespace Verif
open Spec

variable {T : Type} [Field T] [CharZero T]

/-- 1D, diffusion operator with cell coefficients: with Neumann conditions on all faces the results of `set_bc`, the flux and the apply kernel add up to `alpha` times the sum of `A U`. -/
theorem C111_v1_1d {i0 i1 agcw gcw rgcw : Int} {alpha beta : T} {dx : Nat → T} {a b0 f0 u res : Ptr} {β1 β2 : Nat → Backend} {l : List (BcCall T)} {m : Mem T} {A B0 U : List Int → T}
    (hβ1 : ∀ n, ValidBackend (β1 n)) (hβ2 : ∀ n, ValidBackend (β2 n)) (hwi : i0 < i1) (hag : 0 ≤ agcw) (hg : 1 ≤ gcw) (hrg : 0 ≤ rgcw)
    (hu : ∀ c ∈ l, c.Usable 1) (hl : ∀ c ∈ l, c.Along1 i0 i1) (hs : ∀ c ∈ l, ∀ d ∈ l, Separate (fun c : BcCall T => F.onSeg1 c.lo c.hi c.face) c d) (hc : ∀ c ∈ l, c.Solvable (c.piece1 i0 i1 dx B0))
    (h1 : F.Args m [(F.cell1d a i0 i1 agcw), (F.face1d b0 i0 i1 0)] [(F.cell1d u i0 i1 gcw)]) (h2 : F.Args m [(F.cell1d a i0 i1 agcw), (F.cell1d u i0 i1 gcw), (F.face1d b0 i0 i1 0)] [(F.face1d f0 i0 i1 0), (F.cell1d res i0 i1 rgcw)])
    (hrf : F.Apart (F.cell1d res i0 i1 rgcw) (F.face1d f0 i0 i1 0))
    (hA : F.Holds m (F.cell1d a i0 i1 agcw) A) (hB0 : F.Holds m (F.face1d b0 i0 i1 0) B0) (hU : F.Holds m (F.cell1d u i0 i1 gcw) U)
    (hN : ∀ c ∈ l, c.btype = 1) (hcov : F.Covered [(i0, i1)] 3 (F.row F.points1) (l.map (fun c : BcCall T => c.piece1 i0 i1 dx B0))) :
    ∃ m0 m1 m2, ∃ R : List Int → T, inOrder (fun c : BcCall T => Cuda.setBc1d i0 i1 dx 0 b0 gcw u c.lo c.hi c.order c.face c.btype c.alpha c.beta c.sched) l m = .ok m0 ∧ Cuda.flux1d i0 i1 dx b0 gcw u f0 β1 m0 = .ok m1 ∧ Cuda.diffusionV1Apply1d i0 i1 alpha beta dx agcw a gcw u f0 rgcw res β2 m1 = .ok m2 ∧
      (∀ p, F.InBounds [(i0, i1)] p → F.El m2 (F.cell1d res i0 i1 rgcw) p (R p)) ∧
      (F.sum i0 i1 fun i => R [i]) = alpha * (F.sum i0 i1 fun i => A [i] * U [i]) := by
  obtain ⟨m0, m1, m2, X, R, a0, a1, a2, E, hin, hR, hj⟩ := wall_v1_1 (alpha := alpha) (beta := beta) hβ1 hβ2 hwi hag hg hrg hu hl hs hc h1 h2 hrf hA hB0 hU
  have hb : ∀ k ∈ (l.map (fun c : BcCall T => c.piece1 i0 i1 dx B0)), k.btype = 1 := fun k hk => by
    obtain ⟨c, hcl, rfl⟩ := List.mem_map.1 hk
    exact hN c hcl
  have wX : F.Walled [(i0, i1)] 3 (F.row F.points1) (fun _ _ => (0 : T)) X := fun p hp e e0 e1 ho => by
    have z := F.jump_zero (hcov p hp e e0 e1 ho) hb
    rcases hj p hp e e0 e1 ho with ⟨jn, j⟩ | ⟨j1, j2, j3⟩
    · rw [z] at j
      exact j
    · exact absurd (z.symm.trans j1) zero_ne_one
  refine ⟨m0, m1, m2, R, a0, a1, a2, E, ?_⟩
  have e1 : (F.sum i0 i1 fun i => R [i]) = F.form1 i0 i1 alpha beta dx A B0 X (F.cutTo [(i0, i1)] (fun _ => 1)) := by
    rw [← F.weak1 hwi.le (fun p hp => F.cutTo_out hp)]
    exact F.sum_congr fun i hi0 hi1 => by
      have hp : F.InBounds [(i0, i1)] [i] := F.inBounds1.2 ⟨i, rfl, by omega⟩
      rw [F.cutTo_in hp, one_mul, hR i hi0 hi1]
  rw [e1, wX.symm1 hwi.le F.walled_one, F.form1_one]
  congr 1
  exact F.sum_congr fun i hi0 hi1 => by
    have hp : F.InBounds [(i0, i1)] [i] := F.inBounds1.2 ⟨i, rfl, by omega⟩
    rw [F.cutTo_in hp, hin _ hp]

example :=
  C111_v1_1d (T := Rat) (l := exAll1) (i0 := 0) (i1 := 3) (dx := exDx) (alpha := 3) (beta := 2) (gcw := 2) (rgcw := 1) (u := ⟨1, 0⟩) (res := ⟨8, 0⟩) (a := ⟨0, 0⟩) (agcw := 1) (b0 := ⟨2, 0⟩) (f0 := ⟨5, 0⟩) (U := exBump 1 5) (m := exFun (exCase1 (exBump 1 5)))
    (fun _ => revBackend_ok) (fun _ => seqBackend_ok) (by decide) (by decide) (by decide) (by decide)
    (by unfold exAll1; ex_fusable) (by unfold exAll1; ex_falong) (by unfold exAll1; ex_fseparate) (by unfold exAll1; ex_solvable1 (fun _ => exRd_nonneg))
    (exFun_args (by ex_args)) (exFun_args (by ex_args)) (apart_blk (by decide)) (exFun_holds rfl rfl (exRat_ok rfl (by decide) (by decide))) (exFun_holds rfl rfl (exRat_ok rfl (by decide) (by decide))) (exFun_holds rfl rfl (exRat_ok rfl (by decide) (by decide)))
    (by simp [exAll1, exFill]) exAll1_covered

/-- 1D, diffusion operator with constant reaction: with Neumann conditions on all faces the results of `set_bc`, the flux and the apply kernel add up to `alpha` times the sum of `U`. -/
theorem C111_v2_1d {i0 i1 gcw rgcw : Int} {alpha beta : T} {dx : Nat → T} {b0 f0 u res : Ptr} {β1 β2 : Nat → Backend} {l : List (BcCall T)} {m : Mem T} {B0 U : List Int → T}
    (hβ1 : ∀ n, ValidBackend (β1 n)) (hβ2 : ∀ n, ValidBackend (β2 n)) (hwi : i0 < i1) (hg : 1 ≤ gcw) (hrg : 0 ≤ rgcw)
    (hu : ∀ c ∈ l, c.Usable 1) (hl : ∀ c ∈ l, c.Along1 i0 i1) (hs : ∀ c ∈ l, ∀ d ∈ l, Separate (fun c : BcCall T => F.onSeg1 c.lo c.hi c.face) c d) (hc : ∀ c ∈ l, c.Solvable (c.piece1 i0 i1 dx B0))
    (h1 : F.Args m [(F.face1d b0 i0 i1 0)] [(F.cell1d u i0 i1 gcw)]) (h2 : F.Args m [(F.cell1d u i0 i1 gcw), (F.face1d b0 i0 i1 0)] [(F.face1d f0 i0 i1 0), (F.cell1d res i0 i1 rgcw)])
    (hrf : F.Apart (F.cell1d res i0 i1 rgcw) (F.face1d f0 i0 i1 0))
    (hB0 : F.Holds m (F.face1d b0 i0 i1 0) B0) (hU : F.Holds m (F.cell1d u i0 i1 gcw) U)
    (hN : ∀ c ∈ l, c.btype = 1) (hcov : F.Covered [(i0, i1)] 3 (F.row F.points1) (l.map (fun c : BcCall T => c.piece1 i0 i1 dx B0))) :
    ∃ m0 m1 m2, ∃ R : List Int → T, inOrder (fun c : BcCall T => Cuda.setBc1d i0 i1 dx 0 b0 gcw u c.lo c.hi c.order c.face c.btype c.alpha c.beta c.sched) l m = .ok m0 ∧ Cuda.flux1d i0 i1 dx b0 gcw u f0 β1 m0 = .ok m1 ∧ Cuda.diffusionV2Apply1d i0 i1 alpha beta dx gcw u f0 rgcw res β2 m1 = .ok m2 ∧
      (∀ p, F.InBounds [(i0, i1)] p → F.El m2 (F.cell1d res i0 i1 rgcw) p (R p)) ∧
      (F.sum i0 i1 fun i => R [i]) = alpha * (F.sum i0 i1 fun i => U [i]) := by
  obtain ⟨m0, m1, m2, X, R, a0, a1, a2, E, hin, hR, hj⟩ := wall_v2_1 (alpha := alpha) (beta := beta) hβ1 hβ2 hwi hg hrg hu hl hs hc h1 h2 hrf hB0 hU
  have hb : ∀ k ∈ (l.map (fun c : BcCall T => c.piece1 i0 i1 dx B0)), k.btype = 1 := fun k hk => by
    obtain ⟨c, hcl, rfl⟩ := List.mem_map.1 hk
    exact hN c hcl
  have wX : F.Walled [(i0, i1)] 3 (F.row F.points1) (fun _ _ => (0 : T)) X := fun p hp e e0 e1 ho => by
    have z := F.jump_zero (hcov p hp e e0 e1 ho) hb
    rcases hj p hp e e0 e1 ho with ⟨jn, j⟩ | ⟨j1, j2, j3⟩
    · rw [z] at j
      exact j
    · exact absurd (z.symm.trans j1) zero_ne_one
  refine ⟨m0, m1, m2, R, a0, a1, a2, E, ?_⟩
  have e1 : (F.sum i0 i1 fun i => R [i]) = F.form1 i0 i1 alpha beta dx (fun _ => (1 : T)) B0 X (F.cutTo [(i0, i1)] (fun _ => 1)) := by
    rw [← F.weak1 hwi.le (fun p hp => F.cutTo_out hp)]
    exact F.sum_congr fun i hi0 hi1 => by
      have hp : F.InBounds [(i0, i1)] [i] := F.inBounds1.2 ⟨i, rfl, by omega⟩
      rw [F.cutTo_in hp, one_mul, hR i hi0 hi1]
  rw [e1, wX.symm1 hwi.le F.walled_one, F.form1_one]
  congr 1
  exact F.sum_congr fun i hi0 hi1 => by
    have hp : F.InBounds [(i0, i1)] [i] := F.inBounds1.2 ⟨i, rfl, by omega⟩
    rw [F.cutTo_in hp, hin _ hp, one_mul]

example :=
  C111_v2_1d (T := Rat) (l := exAll1) (i0 := 0) (i1 := 3) (dx := exDx) (alpha := 3) (beta := 2) (gcw := 2) (rgcw := 1) (u := ⟨1, 0⟩) (res := ⟨8, 0⟩) (b0 := ⟨2, 0⟩) (f0 := ⟨5, 0⟩) (U := exBump 1 5) (m := exFun (exCase1 (exBump 1 5)))
    (fun _ => revBackend_ok) (fun _ => seqBackend_ok) (by decide) (by decide) (by decide)
    (by unfold exAll1; ex_fusable) (by unfold exAll1; ex_falong) (by unfold exAll1; ex_fseparate) (by unfold exAll1; ex_solvable1 (fun _ => exRd_nonneg))
    (exFun_args (by ex_args)) (exFun_args (by ex_args)) (apart_blk (by decide)) (exFun_holds rfl rfl (exRat_ok rfl (by decide) (by decide))) (exFun_holds rfl rfl (exRat_ok rfl (by decide) (by decide)))
    (by simp [exAll1, exFill]) exAll1_covered

/-- 1D, Poisson operator: with Neumann conditions on all faces the results of `set_poisson_bc`, the flux and the apply kernel add up to zero. -/
theorem C111_poisson_1d {i0 i1 gcw rgcw : Int} {beta : T} {dx : Nat → T} {f0 u res : Ptr} {β1 β2 : Nat → Backend} {l : List (BcCall T)} {m : Mem T} {U : List Int → T}
    (hβ1 : ∀ n, ValidBackend (β1 n)) (hβ2 : ∀ n, ValidBackend (β2 n)) (hwi : i0 < i1) (hg : 1 ≤ gcw) (hrg : 0 ≤ rgcw)
    (hu : ∀ c ∈ l, c.Usable 1) (hl : ∀ c ∈ l, c.Along1 i0 i1) (hs : ∀ c ∈ l, ∀ d ∈ l, Separate (fun c : BcCall T => F.onSeg1 c.lo c.hi c.face) c d) (hc : ∀ c ∈ l, c.Solvable (c.piece1 i0 i1 dx (fun _ => (1 : T))))
    (h1 : F.Args m [] [(F.cell1d u i0 i1 gcw)]) (h2 : F.Args m [(F.cell1d u i0 i1 gcw)] [(F.face1d f0 i0 i1 0), (F.cell1d res i0 i1 rgcw)])
    (hrf : F.Apart (F.cell1d res i0 i1 rgcw) (F.face1d f0 i0 i1 0))
    (hU : F.Holds m (F.cell1d u i0 i1 gcw) U)
    (hN : ∀ c ∈ l, c.btype = 1) (hcov : F.Covered [(i0, i1)] 3 (F.row F.points1) (l.map (fun c : BcCall T => c.piece1 i0 i1 dx (fun _ => (1 : T))))) :
    ∃ m0 m1 m2, ∃ R : List Int → T, inOrder (fun c : BcCall T => Cuda.setPoissonBc1d i0 i1 dx gcw u c.lo c.hi c.order c.face c.btype c.alpha c.beta c.sched) l m = .ok m0 ∧ Cuda.poissonFlux1d i0 i1 dx gcw u f0 β1 m0 = .ok m1 ∧ Cuda.poissonV2Apply1d i0 i1 beta dx f0 rgcw res β2 m1 = .ok m2 ∧
      (∀ p, F.InBounds [(i0, i1)] p → F.El m2 (F.cell1d res i0 i1 rgcw) p (R p)) ∧
      (F.sum i0 i1 fun i => R [i]) = 0 := by
  obtain ⟨m0, m1, m2, X, R, a0, a1, a2, E, hin, hR, hj⟩ := wall_p_1 (beta := beta) hβ1 hβ2 hwi hg hrg hu hl hs hc (fun c hcl h4 => absurd ((hN c hcl).symm.trans h4) (by decide)) h1 h2 hrf hU
  have hb : ∀ k ∈ (l.map (fun c : BcCall T => c.piece1 i0 i1 dx (fun _ => (1 : T)))), k.btype = 1 := fun k hk => by
    obtain ⟨c, hcl, rfl⟩ := List.mem_map.1 hk
    exact hN c hcl
  have wX : F.Walled [(i0, i1)] 3 (F.row F.points1) (fun _ _ => (0 : T)) X := fun p hp e e0 e1 ho => by
    have z := F.jump_zero (hcov p hp e e0 e1 ho) hb
    rcases hj p hp e e0 e1 ho with ⟨jn, j⟩ | ⟨j1, j2, j3⟩
    · rw [z] at j
      exact j
    · exact absurd (z.symm.trans j1) zero_ne_one
  refine ⟨m0, m1, m2, R, a0, a1, a2, E, ?_⟩
  have e1 : (F.sum i0 i1 fun i => R [i]) = F.form1 i0 i1 0 beta dx (fun _ => (1 : T)) (fun _ => (1 : T)) X (F.cutTo [(i0, i1)] (fun _ => 1)) := by
    rw [← F.weak1 hwi.le (fun p hp => F.cutTo_out hp)]
    exact F.sum_congr fun i hi0 hi1 => by
      have hp : F.InBounds [(i0, i1)] [i] := F.inBounds1.2 ⟨i, rfl, by omega⟩
      rw [F.cutTo_in hp, one_mul, hR i hi0 hi1]
  rw [e1, wX.symm1 hwi.le F.walled_one, F.form1_one]
  exact zero_mul _

example :=
  C111_poisson_1d (T := Rat) (l := exAll1) (i0 := 0) (i1 := 3) (dx := exDx) (beta := 2) (gcw := 2) (rgcw := 1) (u := ⟨1, 0⟩) (res := ⟨8, 0⟩) (f0 := ⟨5, 0⟩) (U := exBump 1 5) (m := exFun (exCase1 (exBump 1 5)))
    (fun _ => revBackend_ok) (fun _ => seqBackend_ok) (by decide) (by decide) (by decide)
    (by unfold exAll1; ex_fusable) (by unfold exAll1; ex_falong) (by unfold exAll1; ex_fseparate) (by unfold exAll1; ex_solvable1 (fun p => exOne p))
    (exFun_args (by ex_args)) (exFun_args (by ex_args)) (apart_blk (by decide)) (exFun_holds rfl rfl (exRat_ok rfl (by decide) (by decide)))
    (by simp [exAll1, exFill]) exAll1_covered

/-- 2D, diffusion operator with cell coefficients: with Neumann conditions on all faces the results of `set_bc`, the flux and the apply kernel add up to `alpha` times the sum of `A U`. -/
theorem C111_v1_2d {i0 j0 i1 j1 agcw gcw rgcw : Int} {alpha beta : T} {dx : Nat → T} {a b0 b1 f0 f1 u res : Ptr} {β1 β2 : Nat → Backend} {l : List (BcCall T)} {m : Mem T} {A B0 B1 U : List Int → T}
    (hβ1 : ∀ n, ValidBackend (β1 n)) (hβ2 : ∀ n, ValidBackend (β2 n)) (hwi : i0 < i1) (hwj : j0 < j1) (hag : 0 ≤ agcw) (hg : 1 ≤ gcw) (hrg : 0 ≤ rgcw)
    (hu : ∀ c ∈ l, c.Usable 2) (hl : ∀ c ∈ l, c.Along2 1 i0 j0 i1 j1) (hs : ∀ c ∈ l, ∀ d ∈ l, Separate (fun c : BcCall T => F.onSeg2 c.lo c.hi 1 c.face) c d) (hc : ∀ c ∈ l, c.Solvable (c.piece2 i0 j0 i1 j1 dx B0 B1))
    (h1 : F.Args m [(F.cell2d a i0 j0 i1 j1 agcw), (F.face2d0 b0 i0 j0 i1 j1 0), (F.face2d1 b1 i0 j0 i1 j1 0)] [(F.cell2d u i0 j0 i1 j1 gcw)]) (h2 : F.Args m [(F.cell2d a i0 j0 i1 j1 agcw), (F.cell2d u i0 j0 i1 j1 gcw), (F.face2d0 b0 i0 j0 i1 j1 0), (F.face2d1 b1 i0 j0 i1 j1 0)] [(F.face2d0 f0 i0 j0 i1 j1 0), (F.face2d1 f1 i0 j0 i1 j1 0), (F.cell2d res i0 j0 i1 j1 rgcw)])
    (hpf : F.Apart (F.face2d0 f0 i0 j0 i1 j1 0) (F.face2d1 f1 i0 j0 i1 j1 0)) (hrf : F.Apart (F.cell2d res i0 j0 i1 j1 rgcw) (F.face2d0 f0 i0 j0 i1 j1 0) ∧ F.Apart (F.cell2d res i0 j0 i1 j1 rgcw) (F.face2d1 f1 i0 j0 i1 j1 0))
    (hA : F.Holds m (F.cell2d a i0 j0 i1 j1 agcw) A) (hB0 : F.Holds m (F.face2d0 b0 i0 j0 i1 j1 0) B0) (hB1 : F.Holds m (F.face2d1 b1 i0 j0 i1 j1 0) B1) (hU : F.Holds m (F.cell2d u i0 j0 i1 j1 gcw) U)
    (hN : ∀ c ∈ l, c.btype = 1) (hcov : F.Covered [(i0, i1), (j0, j1)] 5 (F.row F.points2) (l.map (fun c : BcCall T => c.piece2 i0 j0 i1 j1 dx B0 B1))) :
    ∃ m0 m1 m2, ∃ R : List Int → T, inOrder (fun c : BcCall T => Cuda.setBc2d i0 i1 j0 j1 dx 0 b0 b1 gcw u c.lo c.hi c.order c.face 1 c.btype c.alpha c.beta c.sched) l m = .ok m0 ∧ Cuda.flux2d i0 j0 i1 j1 dx b0 b1 gcw u f0 f1 β1 m0 = .ok m1 ∧ Cuda.diffusionV1Apply2d i0 i1 j0 j1 alpha beta dx agcw a gcw u f0 f1 rgcw res β2 m1 = .ok m2 ∧
      (∀ p, F.InBounds [(i0, i1), (j0, j1)] p → F.El m2 (F.cell2d res i0 j0 i1 j1 rgcw) p (R p)) ∧
      (F.sum i0 i1 fun i => F.sum j0 j1 fun j => R [i, j]) = alpha * (F.sum i0 i1 fun i => F.sum j0 j1 fun j => A [i, j] * U [i, j]) := by
  obtain ⟨m0, m1, m2, X, R, a0, a1, a2, E, hin, hR, hj⟩ := wall_v1_2 (alpha := alpha) (beta := beta) hβ1 hβ2 hwi hwj hag hg hrg hu hl hs hc h1 h2 hpf hrf hA hB0 hB1 hU
  have hb : ∀ k ∈ (l.map (fun c : BcCall T => c.piece2 i0 j0 i1 j1 dx B0 B1)), k.btype = 1 := fun k hk => by
    obtain ⟨c, hcl, rfl⟩ := List.mem_map.1 hk
    exact hN c hcl
  have wX : F.Walled [(i0, i1), (j0, j1)] 5 (F.row F.points2) (fun _ _ => (0 : T)) X := fun p hp e e0 e1 ho => by
    have z := F.jump_zero (hcov p hp e e0 e1 ho) hb
    rcases hj p hp e e0 e1 ho with ⟨jn, j⟩ | ⟨j1, j2, j3⟩
    · rw [z] at j
      exact j
    · exact absurd (z.symm.trans j1) zero_ne_one
  refine ⟨m0, m1, m2, R, a0, a1, a2, E, ?_⟩
  have e1 : (F.sum i0 i1 fun i => F.sum j0 j1 fun j => R [i, j]) = F.form2 i0 j0 i1 j1 alpha beta dx A B0 B1 X (F.cutTo [(i0, i1), (j0, j1)] (fun _ => 1)) := by
    rw [← F.weak2 hwi.le hwj.le (fun p hp => F.cutTo_out hp)]
    exact F.sum_congr fun i hi0 hi1 => F.sum_congr fun j hj0 hj1 => by
      have hp : F.InBounds [(i0, i1), (j0, j1)] [i, j] := F.inBounds2.2 ⟨i, j, rfl, by omega⟩
      rw [F.cutTo_in hp, one_mul, hR i j hi0 hi1 hj0 hj1]
  rw [e1, wX.symm2 hwi.le hwj.le F.walled_one, F.form2_one]
  congr 1
  exact F.sum_congr fun i hi0 hi1 => F.sum_congr fun j hj0 hj1 => by
    have hp : F.InBounds [(i0, i1), (j0, j1)] [i, j] := F.inBounds2.2 ⟨i, j, rfl, by omega⟩
    rw [F.cutTo_in hp, hin _ hp]

example :=
  C111_v1_2d (T := Rat) (l := exAll2) (i0 := 0) (i1 := 2) (j0 := 1) (j1 := 3) (dx := exDx) (alpha := 3) (beta := 2) (gcw := 2) (rgcw := 1) (u := ⟨1, 0⟩) (res := ⟨8, 0⟩) (a := ⟨0, 0⟩) (agcw := 1) (b0 := ⟨2, 0⟩) (f0 := ⟨5, 0⟩) (b1 := ⟨3, 0⟩) (f1 := ⟨6, 0⟩) (U := exBump 2 5) (m := exFun (exCase2 (exBump 2 5)))
    (fun _ => revBackend_ok) (fun _ => seqBackend_ok) (by decide) (by decide) (by decide) (by decide) (by decide)
    (by unfold exAll2; ex_fusable) (by unfold exAll2; ex_falong) (by unfold exAll2; ex_fseparate) (by unfold exAll2; ex_solvable2 (fun _ => exRd_nonneg))
    (exFun_args (by ex_args)) (exFun_args (by ex_args)) (apart_blk (by decide)) ⟨apart_blk (by decide), apart_blk (by decide)⟩ (exFun_holds rfl rfl (exRat_ok rfl (by decide) (by decide))) (exFun_holds rfl rfl (exRat_ok rfl (by decide) (by decide))) (exFun_holds rfl rfl (exRat_ok rfl (by decide) (by decide))) (exFun_holds rfl rfl (exRat_ok rfl (by decide) (by decide)))
    (by simp [exAll2, exFill]) exAll2_covered

/-- 2D, diffusion operator with constant reaction: with Neumann conditions on all faces the results of `set_bc`, the flux and the apply kernel add up to `alpha` times the sum of `U`. -/
theorem C111_v2_2d {i0 j0 i1 j1 gcw rgcw : Int} {alpha beta : T} {dx : Nat → T} {b0 b1 f0 f1 u res : Ptr} {β1 β2 : Nat → Backend} {l : List (BcCall T)} {m : Mem T} {B0 B1 U : List Int → T}
    (hβ1 : ∀ n, ValidBackend (β1 n)) (hβ2 : ∀ n, ValidBackend (β2 n)) (hwi : i0 < i1) (hwj : j0 < j1) (hg : 1 ≤ gcw) (hrg : 0 ≤ rgcw)
    (hu : ∀ c ∈ l, c.Usable 2) (hl : ∀ c ∈ l, c.Along2 1 i0 j0 i1 j1) (hs : ∀ c ∈ l, ∀ d ∈ l, Separate (fun c : BcCall T => F.onSeg2 c.lo c.hi 1 c.face) c d) (hc : ∀ c ∈ l, c.Solvable (c.piece2 i0 j0 i1 j1 dx B0 B1))
    (h1 : F.Args m [(F.face2d0 b0 i0 j0 i1 j1 0), (F.face2d1 b1 i0 j0 i1 j1 0)] [(F.cell2d u i0 j0 i1 j1 gcw)]) (h2 : F.Args m [(F.cell2d u i0 j0 i1 j1 gcw), (F.face2d0 b0 i0 j0 i1 j1 0), (F.face2d1 b1 i0 j0 i1 j1 0)] [(F.face2d0 f0 i0 j0 i1 j1 0), (F.face2d1 f1 i0 j0 i1 j1 0), (F.cell2d res i0 j0 i1 j1 rgcw)])
    (hpf : F.Apart (F.face2d0 f0 i0 j0 i1 j1 0) (F.face2d1 f1 i0 j0 i1 j1 0)) (hrf : F.Apart (F.cell2d res i0 j0 i1 j1 rgcw) (F.face2d0 f0 i0 j0 i1 j1 0) ∧ F.Apart (F.cell2d res i0 j0 i1 j1 rgcw) (F.face2d1 f1 i0 j0 i1 j1 0))
    (hB0 : F.Holds m (F.face2d0 b0 i0 j0 i1 j1 0) B0) (hB1 : F.Holds m (F.face2d1 b1 i0 j0 i1 j1 0) B1) (hU : F.Holds m (F.cell2d u i0 j0 i1 j1 gcw) U)
    (hN : ∀ c ∈ l, c.btype = 1) (hcov : F.Covered [(i0, i1), (j0, j1)] 5 (F.row F.points2) (l.map (fun c : BcCall T => c.piece2 i0 j0 i1 j1 dx B0 B1))) :
    ∃ m0 m1 m2, ∃ R : List Int → T, inOrder (fun c : BcCall T => Cuda.setBc2d i0 i1 j0 j1 dx 0 b0 b1 gcw u c.lo c.hi c.order c.face 1 c.btype c.alpha c.beta c.sched) l m = .ok m0 ∧ Cuda.flux2d i0 j0 i1 j1 dx b0 b1 gcw u f0 f1 β1 m0 = .ok m1 ∧ Cuda.diffusionV2Apply2d i0 i1 j0 j1 alpha beta dx gcw u f0 f1 rgcw res β2 m1 = .ok m2 ∧
      (∀ p, F.InBounds [(i0, i1), (j0, j1)] p → F.El m2 (F.cell2d res i0 j0 i1 j1 rgcw) p (R p)) ∧
      (F.sum i0 i1 fun i => F.sum j0 j1 fun j => R [i, j]) = alpha * (F.sum i0 i1 fun i => F.sum j0 j1 fun j => U [i, j]) := by
  obtain ⟨m0, m1, m2, X, R, a0, a1, a2, E, hin, hR, hj⟩ := wall_v2_2 (alpha := alpha) (beta := beta) hβ1 hβ2 hwi hwj hg hrg hu hl hs hc h1 h2 hpf hrf hB0 hB1 hU
  have hb : ∀ k ∈ (l.map (fun c : BcCall T => c.piece2 i0 j0 i1 j1 dx B0 B1)), k.btype = 1 := fun k hk => by
    obtain ⟨c, hcl, rfl⟩ := List.mem_map.1 hk
    exact hN c hcl
  have wX : F.Walled [(i0, i1), (j0, j1)] 5 (F.row F.points2) (fun _ _ => (0 : T)) X := fun p hp e e0 e1 ho => by
    have z := F.jump_zero (hcov p hp e e0 e1 ho) hb
    rcases hj p hp e e0 e1 ho with ⟨jn, j⟩ | ⟨j1, j2, j3⟩
    · rw [z] at j
      exact j
    · exact absurd (z.symm.trans j1) zero_ne_one
  refine ⟨m0, m1, m2, R, a0, a1, a2, E, ?_⟩
  have e1 : (F.sum i0 i1 fun i => F.sum j0 j1 fun j => R [i, j]) = F.form2 i0 j0 i1 j1 alpha beta dx (fun _ => (1 : T)) B0 B1 X (F.cutTo [(i0, i1), (j0, j1)] (fun _ => 1)) := by
    rw [← F.weak2 hwi.le hwj.le (fun p hp => F.cutTo_out hp)]
    exact F.sum_congr fun i hi0 hi1 => F.sum_congr fun j hj0 hj1 => by
      have hp : F.InBounds [(i0, i1), (j0, j1)] [i, j] := F.inBounds2.2 ⟨i, j, rfl, by omega⟩
      rw [F.cutTo_in hp, one_mul, hR i j hi0 hi1 hj0 hj1]
  rw [e1, wX.symm2 hwi.le hwj.le F.walled_one, F.form2_one]
  congr 1
  exact F.sum_congr fun i hi0 hi1 => F.sum_congr fun j hj0 hj1 => by
    have hp : F.InBounds [(i0, i1), (j0, j1)] [i, j] := F.inBounds2.2 ⟨i, j, rfl, by omega⟩
    rw [F.cutTo_in hp, hin _ hp, one_mul]

example :=
  C111_v2_2d (T := Rat) (l := exAll2) (i0 := 0) (i1 := 2) (j0 := 1) (j1 := 3) (dx := exDx) (alpha := 3) (beta := 2) (gcw := 2) (rgcw := 1) (u := ⟨1, 0⟩) (res := ⟨8, 0⟩) (b0 := ⟨2, 0⟩) (f0 := ⟨5, 0⟩) (b1 := ⟨3, 0⟩) (f1 := ⟨6, 0⟩) (U := exBump 2 5) (m := exFun (exCase2 (exBump 2 5)))
    (fun _ => revBackend_ok) (fun _ => seqBackend_ok) (by decide) (by decide) (by decide) (by decide)
    (by unfold exAll2; ex_fusable) (by unfold exAll2; ex_falong) (by unfold exAll2; ex_fseparate) (by unfold exAll2; ex_solvable2 (fun _ => exRd_nonneg))
    (exFun_args (by ex_args)) (exFun_args (by ex_args)) (apart_blk (by decide)) ⟨apart_blk (by decide), apart_blk (by decide)⟩ (exFun_holds rfl rfl (exRat_ok rfl (by decide) (by decide))) (exFun_holds rfl rfl (exRat_ok rfl (by decide) (by decide))) (exFun_holds rfl rfl (exRat_ok rfl (by decide) (by decide)))
    (by simp [exAll2, exFill]) exAll2_covered

/-- 2D, Poisson operator: with Neumann conditions on all faces the results of `set_poisson_bc`, the flux and the apply kernel add up to zero. -/
theorem C111_poisson_2d {i0 j0 i1 j1 gcw rgcw : Int} {beta : T} {dx : Nat → T} {f0 f1 u res : Ptr} {β1 β2 : Nat → Backend} {l : List (BcCall T)} {m : Mem T} {U : List Int → T}
    (hβ1 : ∀ n, ValidBackend (β1 n)) (hβ2 : ∀ n, ValidBackend (β2 n)) (hwi : i0 < i1) (hwj : j0 < j1) (hg : 1 ≤ gcw) (hrg : 0 ≤ rgcw)
    (hu : ∀ c ∈ l, c.Usable 2) (hl : ∀ c ∈ l, c.Along2 1 i0 j0 i1 j1) (hs : ∀ c ∈ l, ∀ d ∈ l, Separate (fun c : BcCall T => F.onSeg2 c.lo c.hi 1 c.face) c d) (hc : ∀ c ∈ l, c.Solvable (c.piece2 i0 j0 i1 j1 dx (fun _ => (1 : T)) (fun _ => (1 : T))))
    (h1 : F.Args m [] [(F.cell2d u i0 j0 i1 j1 gcw)]) (h2 : F.Args m [(F.cell2d u i0 j0 i1 j1 gcw)] [(F.face2d0 f0 i0 j0 i1 j1 0), (F.face2d1 f1 i0 j0 i1 j1 0), (F.cell2d res i0 j0 i1 j1 rgcw)])
    (hpf : F.Apart (F.face2d0 f0 i0 j0 i1 j1 0) (F.face2d1 f1 i0 j0 i1 j1 0)) (hrf : F.Apart (F.cell2d res i0 j0 i1 j1 rgcw) (F.face2d0 f0 i0 j0 i1 j1 0) ∧ F.Apart (F.cell2d res i0 j0 i1 j1 rgcw) (F.face2d1 f1 i0 j0 i1 j1 0))
    (hU : F.Holds m (F.cell2d u i0 j0 i1 j1 gcw) U)
    (hN : ∀ c ∈ l, c.btype = 1) (hcov : F.Covered [(i0, i1), (j0, j1)] 5 (F.row F.points2) (l.map (fun c : BcCall T => c.piece2 i0 j0 i1 j1 dx (fun _ => (1 : T)) (fun _ => (1 : T))))) :
    ∃ m0 m1 m2, ∃ R : List Int → T, inOrder (fun c : BcCall T => Cuda.setPoissonBc2d i0 i1 j0 j1 dx gcw u c.lo c.hi c.order c.face 1 c.btype c.alpha c.beta c.sched) l m = .ok m0 ∧ Cuda.poissonFlux2d i0 j0 i1 j1 dx gcw u f0 f1 β1 m0 = .ok m1 ∧ Cuda.poissonV2Apply2d i0 i1 j0 j1 beta dx f0 f1 rgcw res β2 m1 = .ok m2 ∧
      (∀ p, F.InBounds [(i0, i1), (j0, j1)] p → F.El m2 (F.cell2d res i0 j0 i1 j1 rgcw) p (R p)) ∧
      (F.sum i0 i1 fun i => F.sum j0 j1 fun j => R [i, j]) = 0 := by
  obtain ⟨m0, m1, m2, X, R, a0, a1, a2, E, hin, hR, hj⟩ := wall_p_2 (beta := beta) hβ1 hβ2 hwi hwj hg hrg hu hl hs hc (fun c hcl h4 => absurd ((hN c hcl).symm.trans h4) (by decide)) h1 h2 hpf hrf hU
  have hb : ∀ k ∈ (l.map (fun c : BcCall T => c.piece2 i0 j0 i1 j1 dx (fun _ => (1 : T)) (fun _ => (1 : T)))), k.btype = 1 := fun k hk => by
    obtain ⟨c, hcl, rfl⟩ := List.mem_map.1 hk
    exact hN c hcl
  have wX : F.Walled [(i0, i1), (j0, j1)] 5 (F.row F.points2) (fun _ _ => (0 : T)) X := fun p hp e e0 e1 ho => by
    have z := F.jump_zero (hcov p hp e e0 e1 ho) hb
    rcases hj p hp e e0 e1 ho with ⟨jn, j⟩ | ⟨j1, j2, j3⟩
    · rw [z] at j
      exact j
    · exact absurd (z.symm.trans j1) zero_ne_one
  refine ⟨m0, m1, m2, R, a0, a1, a2, E, ?_⟩
  have e1 : (F.sum i0 i1 fun i => F.sum j0 j1 fun j => R [i, j]) = F.form2 i0 j0 i1 j1 0 beta dx (fun _ => (1 : T)) (fun _ => (1 : T)) (fun _ => (1 : T)) X (F.cutTo [(i0, i1), (j0, j1)] (fun _ => 1)) := by
    rw [← F.weak2 hwi.le hwj.le (fun p hp => F.cutTo_out hp)]
    exact F.sum_congr fun i hi0 hi1 => F.sum_congr fun j hj0 hj1 => by
      have hp : F.InBounds [(i0, i1), (j0, j1)] [i, j] := F.inBounds2.2 ⟨i, j, rfl, by omega⟩
      rw [F.cutTo_in hp, one_mul, hR i j hi0 hi1 hj0 hj1]
  rw [e1, wX.symm2 hwi.le hwj.le F.walled_one, F.form2_one]
  exact zero_mul _

example :=
  C111_poisson_2d (T := Rat) (l := exAll2) (i0 := 0) (i1 := 2) (j0 := 1) (j1 := 3) (dx := exDx) (beta := 2) (gcw := 2) (rgcw := 1) (u := ⟨1, 0⟩) (res := ⟨8, 0⟩) (f0 := ⟨5, 0⟩) (f1 := ⟨6, 0⟩) (U := exBump 2 5) (m := exFun (exCase2 (exBump 2 5)))
    (fun _ => revBackend_ok) (fun _ => seqBackend_ok) (by decide) (by decide) (by decide) (by decide)
    (by unfold exAll2; ex_fusable) (by unfold exAll2; ex_falong) (by unfold exAll2; ex_fseparate) (by unfold exAll2; ex_solvable2 (fun p => exOne p))
    (exFun_args (by ex_args)) (exFun_args (by ex_args)) (apart_blk (by decide)) ⟨apart_blk (by decide), apart_blk (by decide)⟩ (exFun_holds rfl rfl (exRat_ok rfl (by decide) (by decide)))
    (by simp [exAll2, exFill]) exAll2_covered

/-- 3D, diffusion operator with cell coefficients: with Neumann conditions on all faces the results of `set_bc`, the flux and the apply kernel add up to `alpha` times the sum of `A U`. -/
theorem C111_v1_3d {i0 j0 k0 i1 j1 k1 agcw gcw rgcw : Int} {alpha beta : T} {dx : Nat → T} {a b0 b1 b2 f0 f1 f2 u res : Ptr} {β1 β2 : Nat → Backend} {l : List (BcCall T)} {m : Mem T} {A B0 B1 B2 U : List Int → T}
    (hβ1 : ∀ n, ValidBackend (β1 n)) (hβ2 : ∀ n, ValidBackend (β2 n)) (hwi : i0 < i1) (hwj : j0 < j1) (hwk : k0 < k1) (hag : 0 ≤ agcw) (hg : 1 ≤ gcw) (hrg : 0 ≤ rgcw)
    (hu : ∀ c ∈ l, c.Usable 3) (hl : ∀ c ∈ l, c.Along3 1 i0 j0 k0 i1 j1 k1) (hs : ∀ c ∈ l, ∀ d ∈ l, Separate (fun c : BcCall T => F.onSeg3 c.lo c.hi 1 c.face) c d) (hc : ∀ c ∈ l, c.Solvable (c.piece3 i0 j0 k0 i1 j1 k1 dx B0 B1 B2))
    (h1 : F.Args m [(F.cell3d a i0 j0 k0 i1 j1 k1 agcw), (F.face3d0 b0 i0 j0 k0 i1 j1 k1 0), (F.face3d1 b1 i0 j0 k0 i1 j1 k1 0), (F.face3d2 b2 i0 j0 k0 i1 j1 k1 0)] [(F.cell3d u i0 j0 k0 i1 j1 k1 gcw)]) (h2 : F.Args m [(F.cell3d a i0 j0 k0 i1 j1 k1 agcw), (F.cell3d u i0 j0 k0 i1 j1 k1 gcw), (F.face3d0 b0 i0 j0 k0 i1 j1 k1 0), (F.face3d1 b1 i0 j0 k0 i1 j1 k1 0), (F.face3d2 b2 i0 j0 k0 i1 j1 k1 0)] [(F.face3d0 f0 i0 j0 k0 i1 j1 k1 0), (F.face3d1 f1 i0 j0 k0 i1 j1 k1 0), (F.face3d2 f2 i0 j0 k0 i1 j1 k1 0), (F.cell3d res i0 j0 k0 i1 j1 k1 rgcw)])
    (hpf : F.Apart (F.face3d0 f0 i0 j0 k0 i1 j1 k1 0) (F.face3d1 f1 i0 j0 k0 i1 j1 k1 0) ∧ F.Apart (F.face3d0 f0 i0 j0 k0 i1 j1 k1 0) (F.face3d2 f2 i0 j0 k0 i1 j1 k1 0) ∧ F.Apart (F.face3d1 f1 i0 j0 k0 i1 j1 k1 0) (F.face3d2 f2 i0 j0 k0 i1 j1 k1 0)) (hrf : F.Apart (F.cell3d res i0 j0 k0 i1 j1 k1 rgcw) (F.face3d0 f0 i0 j0 k0 i1 j1 k1 0) ∧ F.Apart (F.cell3d res i0 j0 k0 i1 j1 k1 rgcw) (F.face3d1 f1 i0 j0 k0 i1 j1 k1 0) ∧ F.Apart (F.cell3d res i0 j0 k0 i1 j1 k1 rgcw) (F.face3d2 f2 i0 j0 k0 i1 j1 k1 0))
    (hA : F.Holds m (F.cell3d a i0 j0 k0 i1 j1 k1 agcw) A) (hB0 : F.Holds m (F.face3d0 b0 i0 j0 k0 i1 j1 k1 0) B0) (hB1 : F.Holds m (F.face3d1 b1 i0 j0 k0 i1 j1 k1 0) B1) (hB2 : F.Holds m (F.face3d2 b2 i0 j0 k0 i1 j1 k1 0) B2) (hU : F.Holds m (F.cell3d u i0 j0 k0 i1 j1 k1 gcw) U)
    (hN : ∀ c ∈ l, c.btype = 1) (hcov : F.Covered [(i0, i1), (j0, j1), (k0, k1)] 7 (F.row F.points3) (l.map (fun c : BcCall T => c.piece3 i0 j0 k0 i1 j1 k1 dx B0 B1 B2))) :
    ∃ m0 m1 m2, ∃ R : List Int → T, inOrder (fun c : BcCall T => Cuda.setBc3d i0 i1 j0 j1 k0 k1 dx 0 b0 b1 b2 gcw u c.lo c.hi c.order c.face 1 c.btype c.alpha c.beta c.sched) l m = .ok m0 ∧ Cuda.flux3d i0 j0 k0 i1 j1 k1 dx b0 b1 b2 gcw u f0 f1 f2 β1 m0 = .ok m1 ∧ Cuda.diffusionV1Apply3d i0 i1 j0 j1 k0 k1 alpha beta dx agcw a gcw u f0 f1 f2 rgcw res β2 m1 = .ok m2 ∧
      (∀ p, F.InBounds [(i0, i1), (j0, j1), (k0, k1)] p → F.El m2 (F.cell3d res i0 j0 k0 i1 j1 k1 rgcw) p (R p)) ∧
      (F.sum i0 i1 fun i => F.sum j0 j1 fun j => F.sum k0 k1 fun k => R [i, j, k]) = alpha * (F.sum i0 i1 fun i => F.sum j0 j1 fun j => F.sum k0 k1 fun k => A [i, j, k] * U [i, j, k]) := by
  obtain ⟨m0, m1, m2, X, R, a0, a1, a2, E, hin, hR, hj⟩ := wall_v1_3 (alpha := alpha) (beta := beta) hβ1 hβ2 hwi hwj hwk hag hg hrg hu hl hs hc h1 h2 hpf hrf hA hB0 hB1 hB2 hU
  have hb : ∀ k ∈ (l.map (fun c : BcCall T => c.piece3 i0 j0 k0 i1 j1 k1 dx B0 B1 B2)), k.btype = 1 := fun k hk => by
    obtain ⟨c, hcl, rfl⟩ := List.mem_map.1 hk
    exact hN c hcl
  have wX : F.Walled [(i0, i1), (j0, j1), (k0, k1)] 7 (F.row F.points3) (fun _ _ => (0 : T)) X := fun p hp e e0 e1 ho => by
    have z := F.jump_zero (hcov p hp e e0 e1 ho) hb
    rcases hj p hp e e0 e1 ho with ⟨jn, j⟩ | ⟨j1, j2, j3⟩
    · rw [z] at j
      exact j
    · exact absurd (z.symm.trans j1) zero_ne_one
  refine ⟨m0, m1, m2, R, a0, a1, a2, E, ?_⟩
  have e1 : (F.sum i0 i1 fun i => F.sum j0 j1 fun j => F.sum k0 k1 fun k => R [i, j, k]) = F.form3 i0 j0 k0 i1 j1 k1 alpha beta dx A B0 B1 B2 X (F.cutTo [(i0, i1), (j0, j1), (k0, k1)] (fun _ => 1)) := by
    rw [← F.weak3 hwi.le hwj.le hwk.le (fun p hp => F.cutTo_out hp)]
    exact F.sum_congr fun i hi0 hi1 => F.sum_congr fun j hj0 hj1 => F.sum_congr fun k hk0 hk1 => by
      have hp : F.InBounds [(i0, i1), (j0, j1), (k0, k1)] [i, j, k] := F.inBounds3.2 ⟨i, j, k, rfl, by omega⟩
      rw [F.cutTo_in hp, one_mul, hR i j k hi0 hi1 hj0 hj1 hk0 hk1]
  rw [e1, wX.symm3 hwi.le hwj.le hwk.le F.walled_one, F.form3_one]
  congr 1
  exact F.sum_congr fun i hi0 hi1 => F.sum_congr fun j hj0 hj1 => F.sum_congr fun k hk0 hk1 => by
    have hp : F.InBounds [(i0, i1), (j0, j1), (k0, k1)] [i, j, k] := F.inBounds3.2 ⟨i, j, k, rfl, by omega⟩
    rw [F.cutTo_in hp, hin _ hp]

example :=
  C111_v1_3d (T := Rat) (l := exAll3) (i0 := 0) (i1 := 1) (j0 := 1) (j1 := 2) (k0 := 2) (k1 := 3) (dx := exDx) (alpha := 3) (beta := 2) (gcw := 2) (rgcw := 1) (u := ⟨1, 0⟩) (res := ⟨8, 0⟩) (a := ⟨0, 0⟩) (agcw := 1) (b0 := ⟨2, 0⟩) (f0 := ⟨5, 0⟩) (b1 := ⟨3, 0⟩) (f1 := ⟨6, 0⟩) (b2 := ⟨4, 0⟩) (f2 := ⟨7, 0⟩) (U := exBump 3 5) (m := exFun (exCase3 (exBump 3 5)))
    (fun _ => revBackend_ok) (fun _ => seqBackend_ok) (by decide) (by decide) (by decide) (by decide) (by decide) (by decide)
    (by unfold exAll3; ex_fusable) (by unfold exAll3; ex_falong) (by unfold exAll3; ex_fseparate) (by unfold exAll3; ex_solvable3 (fun _ => exRd_nonneg))
    (exFun_args (by ex_args)) (exFun_args (by ex_args)) ⟨apart_blk (by decide), apart_blk (by decide), apart_blk (by decide)⟩ ⟨apart_blk (by decide), apart_blk (by decide), apart_blk (by decide)⟩ (exFun_holds rfl rfl (exRat_ok rfl (by decide) (by decide))) (exFun_holds rfl rfl (exRat_ok rfl (by decide) (by decide))) (exFun_holds rfl rfl (exRat_ok rfl (by decide) (by decide))) (exFun_holds rfl rfl (exRat_ok rfl (by decide) (by decide))) (exFun_holds rfl rfl (exRat_ok rfl (by decide) (by decide)))
    (by simp [exAll3, exFill]) exAll3_covered

/-- 3D, diffusion operator with constant reaction: with Neumann conditions on all faces the results of `set_bc`, the flux and the apply kernel add up to `alpha` times the sum of `U`. -/
theorem C111_v2_3d {i0 j0 k0 i1 j1 k1 gcw rgcw : Int} {alpha beta : T} {dx : Nat → T} {b0 b1 b2 f0 f1 f2 u res : Ptr} {β1 β2 : Nat → Backend} {l : List (BcCall T)} {m : Mem T} {B0 B1 B2 U : List Int → T}
    (hβ1 : ∀ n, ValidBackend (β1 n)) (hβ2 : ∀ n, ValidBackend (β2 n)) (hwi : i0 < i1) (hwj : j0 < j1) (hwk : k0 < k1) (hg : 1 ≤ gcw) (hrg : 0 ≤ rgcw)
    (hu : ∀ c ∈ l, c.Usable 3) (hl : ∀ c ∈ l, c.Along3 1 i0 j0 k0 i1 j1 k1) (hs : ∀ c ∈ l, ∀ d ∈ l, Separate (fun c : BcCall T => F.onSeg3 c.lo c.hi 1 c.face) c d) (hc : ∀ c ∈ l, c.Solvable (c.piece3 i0 j0 k0 i1 j1 k1 dx B0 B1 B2))
    (h1 : F.Args m [(F.face3d0 b0 i0 j0 k0 i1 j1 k1 0), (F.face3d1 b1 i0 j0 k0 i1 j1 k1 0), (F.face3d2 b2 i0 j0 k0 i1 j1 k1 0)] [(F.cell3d u i0 j0 k0 i1 j1 k1 gcw)]) (h2 : F.Args m [(F.cell3d u i0 j0 k0 i1 j1 k1 gcw), (F.face3d0 b0 i0 j0 k0 i1 j1 k1 0), (F.face3d1 b1 i0 j0 k0 i1 j1 k1 0), (F.face3d2 b2 i0 j0 k0 i1 j1 k1 0)] [(F.face3d0 f0 i0 j0 k0 i1 j1 k1 0), (F.face3d1 f1 i0 j0 k0 i1 j1 k1 0), (F.face3d2 f2 i0 j0 k0 i1 j1 k1 0), (F.cell3d res i0 j0 k0 i1 j1 k1 rgcw)])
    (hpf : F.Apart (F.face3d0 f0 i0 j0 k0 i1 j1 k1 0) (F.face3d1 f1 i0 j0 k0 i1 j1 k1 0) ∧ F.Apart (F.face3d0 f0 i0 j0 k0 i1 j1 k1 0) (F.face3d2 f2 i0 j0 k0 i1 j1 k1 0) ∧ F.Apart (F.face3d1 f1 i0 j0 k0 i1 j1 k1 0) (F.face3d2 f2 i0 j0 k0 i1 j1 k1 0)) (hrf : F.Apart (F.cell3d res i0 j0 k0 i1 j1 k1 rgcw) (F.face3d0 f0 i0 j0 k0 i1 j1 k1 0) ∧ F.Apart (F.cell3d res i0 j0 k0 i1 j1 k1 rgcw) (F.face3d1 f1 i0 j0 k0 i1 j1 k1 0) ∧ F.Apart (F.cell3d res i0 j0 k0 i1 j1 k1 rgcw) (F.face3d2 f2 i0 j0 k0 i1 j1 k1 0))
    (hB0 : F.Holds m (F.face3d0 b0 i0 j0 k0 i1 j1 k1 0) B0) (hB1 : F.Holds m (F.face3d1 b1 i0 j0 k0 i1 j1 k1 0) B1) (hB2 : F.Holds m (F.face3d2 b2 i0 j0 k0 i1 j1 k1 0) B2) (hU : F.Holds m (F.cell3d u i0 j0 k0 i1 j1 k1 gcw) U)
    (hN : ∀ c ∈ l, c.btype = 1) (hcov : F.Covered [(i0, i1), (j0, j1), (k0, k1)] 7 (F.row F.points3) (l.map (fun c : BcCall T => c.piece3 i0 j0 k0 i1 j1 k1 dx B0 B1 B2))) :
    ∃ m0 m1 m2, ∃ R : List Int → T, inOrder (fun c : BcCall T => Cuda.setBc3d i0 i1 j0 j1 k0 k1 dx 0 b0 b1 b2 gcw u c.lo c.hi c.order c.face 1 c.btype c.alpha c.beta c.sched) l m = .ok m0 ∧ Cuda.flux3d i0 j0 k0 i1 j1 k1 dx b0 b1 b2 gcw u f0 f1 f2 β1 m0 = .ok m1 ∧ Cuda.diffusionV2Apply3d i0 i1 j0 j1 k0 k1 alpha beta dx gcw u f0 f1 f2 rgcw res β2 m1 = .ok m2 ∧
      (∀ p, F.InBounds [(i0, i1), (j0, j1), (k0, k1)] p → F.El m2 (F.cell3d res i0 j0 k0 i1 j1 k1 rgcw) p (R p)) ∧
      (F.sum i0 i1 fun i => F.sum j0 j1 fun j => F.sum k0 k1 fun k => R [i, j, k]) = alpha * (F.sum i0 i1 fun i => F.sum j0 j1 fun j => F.sum k0 k1 fun k => U [i, j, k]) := by
  obtain ⟨m0, m1, m2, X, R, a0, a1, a2, E, hin, hR, hj⟩ := wall_v2_3 (alpha := alpha) (beta := beta) hβ1 hβ2 hwi hwj hwk hg hrg hu hl hs hc h1 h2 hpf hrf hB0 hB1 hB2 hU
  have hb : ∀ k ∈ (l.map (fun c : BcCall T => c.piece3 i0 j0 k0 i1 j1 k1 dx B0 B1 B2)), k.btype = 1 := fun k hk => by
    obtain ⟨c, hcl, rfl⟩ := List.mem_map.1 hk
    exact hN c hcl
  have wX : F.Walled [(i0, i1), (j0, j1), (k0, k1)] 7 (F.row F.points3) (fun _ _ => (0 : T)) X := fun p hp e e0 e1 ho => by
    have z := F.jump_zero (hcov p hp e e0 e1 ho) hb
    rcases hj p hp e e0 e1 ho with ⟨jn, j⟩ | ⟨j1, j2, j3⟩
    · rw [z] at j
      exact j
    · exact absurd (z.symm.trans j1) zero_ne_one
  refine ⟨m0, m1, m2, R, a0, a1, a2, E, ?_⟩
  have e1 : (F.sum i0 i1 fun i => F.sum j0 j1 fun j => F.sum k0 k1 fun k => R [i, j, k]) = F.form3 i0 j0 k0 i1 j1 k1 alpha beta dx (fun _ => (1 : T)) B0 B1 B2 X (F.cutTo [(i0, i1), (j0, j1), (k0, k1)] (fun _ => 1)) := by
    rw [← F.weak3 hwi.le hwj.le hwk.le (fun p hp => F.cutTo_out hp)]
    exact F.sum_congr fun i hi0 hi1 => F.sum_congr fun j hj0 hj1 => F.sum_congr fun k hk0 hk1 => by
      have hp : F.InBounds [(i0, i1), (j0, j1), (k0, k1)] [i, j, k] := F.inBounds3.2 ⟨i, j, k, rfl, by omega⟩
      rw [F.cutTo_in hp, one_mul, hR i j k hi0 hi1 hj0 hj1 hk0 hk1]
  rw [e1, wX.symm3 hwi.le hwj.le hwk.le F.walled_one, F.form3_one]
  congr 1
  exact F.sum_congr fun i hi0 hi1 => F.sum_congr fun j hj0 hj1 => F.sum_congr fun k hk0 hk1 => by
    have hp : F.InBounds [(i0, i1), (j0, j1), (k0, k1)] [i, j, k] := F.inBounds3.2 ⟨i, j, k, rfl, by omega⟩
    rw [F.cutTo_in hp, hin _ hp, one_mul]

example :=
  C111_v2_3d (T := Rat) (l := exAll3) (i0 := 0) (i1 := 1) (j0 := 1) (j1 := 2) (k0 := 2) (k1 := 3) (dx := exDx) (alpha := 3) (beta := 2) (gcw := 2) (rgcw := 1) (u := ⟨1, 0⟩) (res := ⟨8, 0⟩) (b0 := ⟨2, 0⟩) (f0 := ⟨5, 0⟩) (b1 := ⟨3, 0⟩) (f1 := ⟨6, 0⟩) (b2 := ⟨4, 0⟩) (f2 := ⟨7, 0⟩) (U := exBump 3 5) (m := exFun (exCase3 (exBump 3 5)))
    (fun _ => revBackend_ok) (fun _ => seqBackend_ok) (by decide) (by decide) (by decide) (by decide) (by decide)
    (by unfold exAll3; ex_fusable) (by unfold exAll3; ex_falong) (by unfold exAll3; ex_fseparate) (by unfold exAll3; ex_solvable3 (fun _ => exRd_nonneg))
    (exFun_args (by ex_args)) (exFun_args (by ex_args)) ⟨apart_blk (by decide), apart_blk (by decide), apart_blk (by decide)⟩ ⟨apart_blk (by decide), apart_blk (by decide), apart_blk (by decide)⟩ (exFun_holds rfl rfl (exRat_ok rfl (by decide) (by decide))) (exFun_holds rfl rfl (exRat_ok rfl (by decide) (by decide))) (exFun_holds rfl rfl (exRat_ok rfl (by decide) (by decide))) (exFun_holds rfl rfl (exRat_ok rfl (by decide) (by decide)))
    (by simp [exAll3, exFill]) exAll3_covered

/-- 3D, Poisson operator: with Neumann conditions on all faces the results of `set_poisson_bc`, the flux and the apply kernel add up to zero. -/
theorem C111_poisson_3d {i0 j0 k0 i1 j1 k1 gcw rgcw : Int} {beta : T} {dx : Nat → T} {f0 f1 f2 u res : Ptr} {β1 β2 : Nat → Backend} {l : List (BcCall T)} {m : Mem T} {U : List Int → T}
    (hβ1 : ∀ n, ValidBackend (β1 n)) (hβ2 : ∀ n, ValidBackend (β2 n)) (hwi : i0 < i1) (hwj : j0 < j1) (hwk : k0 < k1) (hg : 1 ≤ gcw) (hrg : 0 ≤ rgcw)
    (hu : ∀ c ∈ l, c.Usable 3) (hl : ∀ c ∈ l, c.Along3 1 i0 j0 k0 i1 j1 k1) (hs : ∀ c ∈ l, ∀ d ∈ l, Separate (fun c : BcCall T => F.onSeg3 c.lo c.hi 1 c.face) c d) (hc : ∀ c ∈ l, c.Solvable (c.piece3 i0 j0 k0 i1 j1 k1 dx (fun _ => (1 : T)) (fun _ => (1 : T)) (fun _ => (1 : T))))
    (h1 : F.Args m [] [(F.cell3d u i0 j0 k0 i1 j1 k1 gcw)]) (h2 : F.Args m [(F.cell3d u i0 j0 k0 i1 j1 k1 gcw)] [(F.face3d0 f0 i0 j0 k0 i1 j1 k1 0), (F.face3d1 f1 i0 j0 k0 i1 j1 k1 0), (F.face3d2 f2 i0 j0 k0 i1 j1 k1 0), (F.cell3d res i0 j0 k0 i1 j1 k1 rgcw)])
    (hpf : F.Apart (F.face3d0 f0 i0 j0 k0 i1 j1 k1 0) (F.face3d1 f1 i0 j0 k0 i1 j1 k1 0) ∧ F.Apart (F.face3d0 f0 i0 j0 k0 i1 j1 k1 0) (F.face3d2 f2 i0 j0 k0 i1 j1 k1 0) ∧ F.Apart (F.face3d1 f1 i0 j0 k0 i1 j1 k1 0) (F.face3d2 f2 i0 j0 k0 i1 j1 k1 0)) (hrf : F.Apart (F.cell3d res i0 j0 k0 i1 j1 k1 rgcw) (F.face3d0 f0 i0 j0 k0 i1 j1 k1 0) ∧ F.Apart (F.cell3d res i0 j0 k0 i1 j1 k1 rgcw) (F.face3d1 f1 i0 j0 k0 i1 j1 k1 0) ∧ F.Apart (F.cell3d res i0 j0 k0 i1 j1 k1 rgcw) (F.face3d2 f2 i0 j0 k0 i1 j1 k1 0))
    (hU : F.Holds m (F.cell3d u i0 j0 k0 i1 j1 k1 gcw) U)
    (hN : ∀ c ∈ l, c.btype = 1) (hcov : F.Covered [(i0, i1), (j0, j1), (k0, k1)] 7 (F.row F.points3) (l.map (fun c : BcCall T => c.piece3 i0 j0 k0 i1 j1 k1 dx (fun _ => (1 : T)) (fun _ => (1 : T)) (fun _ => (1 : T))))) :
    ∃ m0 m1 m2, ∃ R : List Int → T, inOrder (fun c : BcCall T => Cuda.setPoissonBc3d i0 i1 j0 j1 k0 k1 dx gcw u c.lo c.hi c.order c.face 1 c.btype c.alpha c.beta c.sched) l m = .ok m0 ∧ Cuda.poissonFlux3d i0 j0 k0 i1 j1 k1 dx gcw u f0 f1 f2 β1 m0 = .ok m1 ∧ Cuda.poissonV2Apply3d i0 i1 j0 j1 k0 k1 beta dx f0 f1 f2 rgcw res β2 m1 = .ok m2 ∧
      (∀ p, F.InBounds [(i0, i1), (j0, j1), (k0, k1)] p → F.El m2 (F.cell3d res i0 j0 k0 i1 j1 k1 rgcw) p (R p)) ∧
      (F.sum i0 i1 fun i => F.sum j0 j1 fun j => F.sum k0 k1 fun k => R [i, j, k]) = 0 := by
  obtain ⟨m0, m1, m2, X, R, a0, a1, a2, E, hin, hR, hj⟩ := wall_p_3 (beta := beta) hβ1 hβ2 hwi hwj hwk hg hrg hu hl hs hc h1 h2 hpf hrf hU
  have hb : ∀ k ∈ (l.map (fun c : BcCall T => c.piece3 i0 j0 k0 i1 j1 k1 dx (fun _ => (1 : T)) (fun _ => (1 : T)) (fun _ => (1 : T)))), k.btype = 1 := fun k hk => by
    obtain ⟨c, hcl, rfl⟩ := List.mem_map.1 hk
    exact hN c hcl
  have wX : F.Walled [(i0, i1), (j0, j1), (k0, k1)] 7 (F.row F.points3) (fun _ _ => (0 : T)) X := fun p hp e e0 e1 ho => by
    have z := F.jump_zero (hcov p hp e e0 e1 ho) hb
    rcases hj p hp e e0 e1 ho with ⟨jn, j⟩ | ⟨j1, j2, j3⟩
    · rw [z] at j
      exact j
    · exact absurd (z.symm.trans j1) zero_ne_one
  refine ⟨m0, m1, m2, R, a0, a1, a2, E, ?_⟩
  have e1 : (F.sum i0 i1 fun i => F.sum j0 j1 fun j => F.sum k0 k1 fun k => R [i, j, k]) = F.form3 i0 j0 k0 i1 j1 k1 0 beta dx (fun _ => (1 : T)) (fun _ => (1 : T)) (fun _ => (1 : T)) (fun _ => (1 : T)) X (F.cutTo [(i0, i1), (j0, j1), (k0, k1)] (fun _ => 1)) := by
    rw [← F.weak3 hwi.le hwj.le hwk.le (fun p hp => F.cutTo_out hp)]
    exact F.sum_congr fun i hi0 hi1 => F.sum_congr fun j hj0 hj1 => F.sum_congr fun k hk0 hk1 => by
      have hp : F.InBounds [(i0, i1), (j0, j1), (k0, k1)] [i, j, k] := F.inBounds3.2 ⟨i, j, k, rfl, by omega⟩
      rw [F.cutTo_in hp, one_mul, hR i j k hi0 hi1 hj0 hj1 hk0 hk1]
  rw [e1, wX.symm3 hwi.le hwj.le hwk.le F.walled_one, F.form3_one]
  exact zero_mul _

example :=
  C111_poisson_3d (T := Rat) (l := exAll3) (i0 := 0) (i1 := 1) (j0 := 1) (j1 := 2) (k0 := 2) (k1 := 3) (dx := exDx) (beta := 2) (gcw := 2) (rgcw := 1) (u := ⟨1, 0⟩) (res := ⟨8, 0⟩) (f0 := ⟨5, 0⟩) (f1 := ⟨6, 0⟩) (f2 := ⟨7, 0⟩) (U := exBump 3 5) (m := exFun (exCase3 (exBump 3 5)))
    (fun _ => revBackend_ok) (fun _ => seqBackend_ok) (by decide) (by decide) (by decide) (by decide) (by decide)
    (by unfold exAll3; ex_fusable) (by unfold exAll3; ex_falong) (by unfold exAll3; ex_fseparate) (by unfold exAll3; ex_solvable3 (fun p => exOne p))
    (exFun_args (by ex_args)) (exFun_args (by ex_args)) ⟨apart_blk (by decide), apart_blk (by decide), apart_blk (by decide)⟩ ⟨apart_blk (by decide), apart_blk (by decide), apart_blk (by decide)⟩ (exFun_holds rfl rfl (exRat_ok rfl (by decide) (by decide)))
    (by simp [exAll3, exFill]) exAll3_covered

end Verif
