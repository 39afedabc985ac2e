import Verif.Lemmas.WallsEx

/-
The operators on a box together with the boundary condition kernels.
-/

set_option linter.unusedVariables false
set_option linter.unusedSimpArgs false

namespace Verif
open Spec

section
variable {T : Type} [Field T] [CharZero T]

/-- 1D, diffusion operator with cell coefficients: `set_bc` for segments of the boundary, the flux and the apply kernel, on fields `U` and `V` that are zero in the ghost cells that belong to no segment, give `R` and `S` with `∑ V R = ∑ U S`. -/
theorem C92_v1_1d {i0 i1 agcw gcw rgcw : Int} {alpha beta : T} {dx : Nat → T} {a b0 f0 u res : Ptr} {β1 β2 β3 β4 : Nat → Backend} {l : List (BcCall T)} {m m' : Mem T} {A B0 U V : List Int → T}
    (hβ1 : ∀ n, ValidBackend (β1 n)) (hβ2 : ∀ n, ValidBackend (β2 n)) (hβ3 : ∀ n, ValidBackend (β3 n)) (hβ4 : ∀ n, ValidBackend (β4 n)) (hwi : i0 < i1) (hag : 0 ≤ agcw) (hg : 1 ≤ gcw) (hrg : 0 ≤ rgcw)
    (hu : ∀ c ∈ l, c.Usable 1) (hl : ∀ c ∈ l, c.Along1 i0 i1) (hs : ∀ c ∈ l, ∀ d ∈ l, Separate (fun c : BcCall T => F.onSeg1 c.lo c.hi c.face) c d) (hc : ∀ c ∈ l, c.Solvable (c.piece1 i0 i1 dx B0))
    (h1 : F.Args m [(F.cell1d a i0 i1 agcw), (F.face1d b0 i0 i1 0)] [(F.cell1d u i0 i1 gcw)]) (h2 : F.Args m [(F.cell1d a i0 i1 agcw), (F.cell1d u i0 i1 gcw), (F.face1d b0 i0 i1 0)] [(F.face1d f0 i0 i1 0), (F.cell1d res i0 i1 rgcw)])
    (hrf : F.Apart (F.cell1d res i0 i1 rgcw) (F.face1d f0 i0 i1 0))
    (hA : F.Holds m (F.cell1d a i0 i1 agcw) A) (hB0 : F.Holds m (F.face1d b0 i0 i1 0) B0) (hU : F.Holds m (F.cell1d u i0 i1 gcw) U)
    (h1' : F.Args m' [(F.cell1d a i0 i1 agcw), (F.face1d b0 i0 i1 0)] [(F.cell1d u i0 i1 gcw)]) (h2' : F.Args m' [(F.cell1d a i0 i1 agcw), (F.cell1d u i0 i1 gcw), (F.face1d b0 i0 i1 0)] [(F.face1d f0 i0 i1 0), (F.cell1d res i0 i1 rgcw)])
    (hA' : F.Holds m' (F.cell1d a i0 i1 agcw) A) (hB0' : F.Holds m' (F.face1d b0 i0 i1 0) B0) (hV : F.Holds m' (F.cell1d u i0 i1 gcw) V)
    (hz : ∀ g, Uncovered (fun c : BcCall T => F.onSeg1 c.lo c.hi c.face) l [(i0, i1)] 3 (F.row F.points1) g → U g = 0) (hz' : ∀ g, Uncovered (fun c : BcCall T => F.onSeg1 c.lo c.hi c.face) l [(i0, i1)] 3 (F.row F.points1) g → V g = 0) :
    ∃ m0 m1 m2 m0' m1' m2', ∃ R S : List Int → T, inOrder (fun c : BcCall T => Cuda.setBc1d i0 i1 dx 0 b0 gcw u c.lo c.hi c.order c.face c.btype c.alpha c.beta c.sched) l m = .ok m0 ∧ Cuda.flux1d i0 i1 dx b0 gcw u f0 β1 m0 = .ok m1 ∧ Cuda.diffusionV1Apply1d i0 i1 alpha beta dx agcw a gcw u f0 rgcw res β2 m1 = .ok m2 ∧
      inOrder (fun c : BcCall T => Cuda.setBc1d i0 i1 dx 0 b0 gcw u c.lo c.hi c.order c.face c.btype c.alpha c.beta c.sched) l m' = .ok m0' ∧ Cuda.flux1d i0 i1 dx b0 gcw u f0 β3 m0' = .ok m1' ∧ Cuda.diffusionV1Apply1d i0 i1 alpha beta dx agcw a gcw u f0 rgcw res β4 m1' = .ok m2' ∧
      (∀ p, F.InBounds [(i0, i1)] p → F.El m2 (F.cell1d res i0 i1 rgcw) p (R p)) ∧ (∀ p, F.InBounds [(i0, i1)] p → F.El m2' (F.cell1d res i0 i1 rgcw) p (S p)) ∧
      (F.sum i0 i1 fun i => V [i] * R [i]) = (F.sum i0 i1 fun i => U [i] * S [i]) := by
  obtain ⟨m0, m1, m2, X, R, a0, a1, a2, E, hin, hR, hj⟩ := wall_v1_1 (alpha := alpha) (beta := beta) hβ1 hβ2 hwi hag hg hrg hu hl hs hc h1 h2 hrf hA hB0 hU
  obtain ⟨m0', m1', m2', Z, S, a0', a1', a2', E', hin', hR', hj'⟩ := wall_v1_1 (alpha := alpha) (beta := beta) hβ3 hβ4 hwi hag hg hrg hu hl hs hc h1' h2' hrf hA' hB0' hV
  have wX : F.Walled [(i0, i1)] 3 (F.row F.points1) (F.jump (l.map (fun c : BcCall T => c.piece1 i0 i1 dx B0))) X := fun p hp e e0 e1 ho => by
    rcases hj p hp e e0 e1 ho with ⟨jn, j⟩ | ⟨j1, j2, j3⟩
    · exact j
    · rw [j1, j3, hz _ j2, sub_self, zero_mul]
  have wZ : F.Walled [(i0, i1)] 3 (F.row F.points1) (F.jump (l.map (fun c : BcCall T => c.piece1 i0 i1 dx B0))) Z := fun p hp e e0 e1 ho => by
    rcases hj' p hp e e0 e1 ho with ⟨jn, j⟩ | ⟨j1, j2, j3⟩
    · exact j
    · rw [j1, j3, hz' _ j2, sub_self, zero_mul]
  refine ⟨m0, m1, m2, m0', m1', m2', R, S, a0, a1, a2, a0', a1', a2', E, E', ?_⟩
  have e1 : (F.sum i0 i1 fun i => V [i] * R [i]) = F.form1 i0 i1 alpha beta dx A B0 X (F.cutTo [(i0, i1)] Z) := by
    rw [← F.weak1 hwi.le (fun p hp => F.cutTo_out hp)]
    exact F.sum_congr fun i hi0 hi1 => by
      have hp : F.InBounds [(i0, i1)] [i] := F.inBounds1.2 ⟨i, rfl, by omega⟩
      rw [F.cutTo_in hp, hin' _ hp, hR i hi0 hi1]
  have e2 : (F.sum i0 i1 fun i => U [i] * S [i]) = F.form1 i0 i1 alpha beta dx A B0 Z (F.cutTo [(i0, i1)] X) := by
    rw [← F.weak1 hwi.le (fun p hp => F.cutTo_out hp)]
    exact F.sum_congr fun i hi0 hi1 => by
      have hp : F.InBounds [(i0, i1)] [i] := F.inBounds1.2 ⟨i, rfl, by omega⟩
      rw [F.cutTo_in hp, hin _ hp, hR' i hi0 hi1]
  rw [e1, e2]
  exact wX.symm1 hwi.le wZ

example :=
  C92_v1_1d (T := Rat) (l := [exFill (exSeg (-1) 0 0) (exSeg (-1) 0 0) 0 4]) (i0 := 0) (i1 := 3) (dx := exDx) (alpha := 3) (beta := 2) (gcw := 2) (rgcw := 1) (u := ⟨1, 0⟩) (res := ⟨8, 0⟩) (a := ⟨0, 0⟩) (agcw := 1) (b0 := ⟨2, 0⟩) (f0 := ⟨5, 0⟩) (U := exBump 1 5) (m := exFun (exCase1 (exBump 1 5))) (V := exBump 1 40) (m' := exFun (exCase1 (exBump 1 40)))
    (fun _ => revBackend_ok) (fun _ => seqBackend_ok) (fun _ => seqBackend_ok) (fun _ => revBackend_ok) (by decide) (by decide) (by decide) (by decide)
    (by ex_fusable) (by ex_falong) (by ex_fseparate) (by ex_solvable1 (fun _ => exRd_nonneg))
    (exFun_args (by ex_args)) (exFun_args (by ex_args)) (apart_blk (by decide)) (exFun_holds rfl rfl (exRat_ok rfl (by decide) (by decide))) (exFun_holds rfl rfl (exRat_ok rfl (by decide) (by decide))) (exFun_holds rfl rfl (exRat_ok rfl (by decide) (by decide)))
    (exFun_args (by ex_args)) (exFun_args (by ex_args)) (exFun_holds rfl rfl (exRat_ok rfl (by decide) (by decide))) (exFun_holds rfl rfl (exRat_ok rfl (by decide) (by decide))) (exFun_holds rfl rfl (exRat_ok rfl (by decide) (by decide)))
    (fun g hg => exBump_zero1 g hg.1) (fun g hg => exBump_zero1 g hg.1)

/-- 1D, diffusion operator with constant reaction: `set_bc` for segments of the boundary, the flux and the apply kernel, on fields `U` and `V` that are zero in the ghost cells that belong to no segment, give `R` and `S` with `∑ V R = ∑ U S`. -/
theorem C92_v2_1d {i0 i1 gcw rgcw : Int} {alpha beta : T} {dx : Nat → T} {b0 f0 u res : Ptr} {β1 β2 β3 β4 : Nat → Backend} {l : List (BcCall T)} {m m' : Mem T} {B0 U V : List Int → T}
    (hβ1 : ∀ n, ValidBackend (β1 n)) (hβ2 : ∀ n, ValidBackend (β2 n)) (hβ3 : ∀ n, ValidBackend (β3 n)) (hβ4 : ∀ n, ValidBackend (β4 n)) (hwi : i0 < i1) (hg : 1 ≤ gcw) (hrg : 0 ≤ rgcw)
    (hu : ∀ c ∈ l, c.Usable 1) (hl : ∀ c ∈ l, c.Along1 i0 i1) (hs : ∀ c ∈ l, ∀ d ∈ l, Separate (fun c : BcCall T => F.onSeg1 c.lo c.hi c.face) c d) (hc : ∀ c ∈ l, c.Solvable (c.piece1 i0 i1 dx B0))
    (h1 : F.Args m [(F.face1d b0 i0 i1 0)] [(F.cell1d u i0 i1 gcw)]) (h2 : F.Args m [(F.cell1d u i0 i1 gcw), (F.face1d b0 i0 i1 0)] [(F.face1d f0 i0 i1 0), (F.cell1d res i0 i1 rgcw)])
    (hrf : F.Apart (F.cell1d res i0 i1 rgcw) (F.face1d f0 i0 i1 0))
    (hB0 : F.Holds m (F.face1d b0 i0 i1 0) B0) (hU : F.Holds m (F.cell1d u i0 i1 gcw) U)
    (h1' : F.Args m' [(F.face1d b0 i0 i1 0)] [(F.cell1d u i0 i1 gcw)]) (h2' : F.Args m' [(F.cell1d u i0 i1 gcw), (F.face1d b0 i0 i1 0)] [(F.face1d f0 i0 i1 0), (F.cell1d res i0 i1 rgcw)])
    (hB0' : F.Holds m' (F.face1d b0 i0 i1 0) B0) (hV : F.Holds m' (F.cell1d u i0 i1 gcw) V)
    (hz : ∀ g, Uncovered (fun c : BcCall T => F.onSeg1 c.lo c.hi c.face) l [(i0, i1)] 3 (F.row F.points1) g → U g = 0) (hz' : ∀ g, Uncovered (fun c : BcCall T => F.onSeg1 c.lo c.hi c.face) l [(i0, i1)] 3 (F.row F.points1) g → V g = 0) :
    ∃ m0 m1 m2 m0' m1' m2', ∃ R S : List Int → T, inOrder (fun c : BcCall T => Cuda.setBc1d i0 i1 dx 0 b0 gcw u c.lo c.hi c.order c.face c.btype c.alpha c.beta c.sched) l m = .ok m0 ∧ Cuda.flux1d i0 i1 dx b0 gcw u f0 β1 m0 = .ok m1 ∧ Cuda.diffusionV2Apply1d i0 i1 alpha beta dx gcw u f0 rgcw res β2 m1 = .ok m2 ∧
      inOrder (fun c : BcCall T => Cuda.setBc1d i0 i1 dx 0 b0 gcw u c.lo c.hi c.order c.face c.btype c.alpha c.beta c.sched) l m' = .ok m0' ∧ Cuda.flux1d i0 i1 dx b0 gcw u f0 β3 m0' = .ok m1' ∧ Cuda.diffusionV2Apply1d i0 i1 alpha beta dx gcw u f0 rgcw res β4 m1' = .ok m2' ∧
      (∀ p, F.InBounds [(i0, i1)] p → F.El m2 (F.cell1d res i0 i1 rgcw) p (R p)) ∧ (∀ p, F.InBounds [(i0, i1)] p → F.El m2' (F.cell1d res i0 i1 rgcw) p (S p)) ∧
      (F.sum i0 i1 fun i => V [i] * R [i]) = (F.sum i0 i1 fun i => U [i] * S [i]) := by
  obtain ⟨m0, m1, m2, X, R, a0, a1, a2, E, hin, hR, hj⟩ := wall_v2_1 (alpha := alpha) (beta := beta) hβ1 hβ2 hwi hg hrg hu hl hs hc h1 h2 hrf hB0 hU
  obtain ⟨m0', m1', m2', Z, S, a0', a1', a2', E', hin', hR', hj'⟩ := wall_v2_1 (alpha := alpha) (beta := beta) hβ3 hβ4 hwi hg hrg hu hl hs hc h1' h2' hrf hB0' hV
  have wX : F.Walled [(i0, i1)] 3 (F.row F.points1) (F.jump (l.map (fun c : BcCall T => c.piece1 i0 i1 dx B0))) X := fun p hp e e0 e1 ho => by
    rcases hj p hp e e0 e1 ho with ⟨jn, j⟩ | ⟨j1, j2, j3⟩
    · exact j
    · rw [j1, j3, hz _ j2, sub_self, zero_mul]
  have wZ : F.Walled [(i0, i1)] 3 (F.row F.points1) (F.jump (l.map (fun c : BcCall T => c.piece1 i0 i1 dx B0))) Z := fun p hp e e0 e1 ho => by
    rcases hj' p hp e e0 e1 ho with ⟨jn, j⟩ | ⟨j1, j2, j3⟩
    · exact j
    · rw [j1, j3, hz' _ j2, sub_self, zero_mul]
  refine ⟨m0, m1, m2, m0', m1', m2', R, S, a0, a1, a2, a0', a1', a2', E, E', ?_⟩
  have e1 : (F.sum i0 i1 fun i => V [i] * R [i]) = F.form1 i0 i1 alpha beta dx (fun _ => (1 : T)) B0 X (F.cutTo [(i0, i1)] Z) := by
    rw [← F.weak1 hwi.le (fun p hp => F.cutTo_out hp)]
    exact F.sum_congr fun i hi0 hi1 => by
      have hp : F.InBounds [(i0, i1)] [i] := F.inBounds1.2 ⟨i, rfl, by omega⟩
      rw [F.cutTo_in hp, hin' _ hp, hR i hi0 hi1]
  have e2 : (F.sum i0 i1 fun i => U [i] * S [i]) = F.form1 i0 i1 alpha beta dx (fun _ => (1 : T)) B0 Z (F.cutTo [(i0, i1)] X) := by
    rw [← F.weak1 hwi.le (fun p hp => F.cutTo_out hp)]
    exact F.sum_congr fun i hi0 hi1 => by
      have hp : F.InBounds [(i0, i1)] [i] := F.inBounds1.2 ⟨i, rfl, by omega⟩
      rw [F.cutTo_in hp, hin _ hp, hR' i hi0 hi1]
  rw [e1, e2]
  exact wX.symm1 hwi.le wZ

example :=
  C92_v2_1d (T := Rat) (l := [exFill (exSeg (-1) 0 0) (exSeg (-1) 0 0) 0 4]) (i0 := 0) (i1 := 3) (dx := exDx) (alpha := 3) (beta := 2) (gcw := 2) (rgcw := 1) (u := ⟨1, 0⟩) (res := ⟨8, 0⟩) (b0 := ⟨2, 0⟩) (f0 := ⟨5, 0⟩) (U := exBump 1 5) (m := exFun (exCase1 (exBump 1 5))) (V := exBump 1 40) (m' := exFun (exCase1 (exBump 1 40)))
    (fun _ => revBackend_ok) (fun _ => seqBackend_ok) (fun _ => seqBackend_ok) (fun _ => revBackend_ok) (by decide) (by decide) (by decide)
    (by ex_fusable) (by ex_falong) (by ex_fseparate) (by ex_solvable1 (fun _ => exRd_nonneg))
    (exFun_args (by ex_args)) (exFun_args (by ex_args)) (apart_blk (by decide)) (exFun_holds rfl rfl (exRat_ok rfl (by decide) (by decide))) (exFun_holds rfl rfl (exRat_ok rfl (by decide) (by decide)))
    (exFun_args (by ex_args)) (exFun_args (by ex_args)) (exFun_holds rfl rfl (exRat_ok rfl (by decide) (by decide))) (exFun_holds rfl rfl (exRat_ok rfl (by decide) (by decide)))
    (fun g hg => exBump_zero1 g hg.1) (fun g hg => exBump_zero1 g hg.1)

/-- 1D, Poisson operator: `set_poisson_bc` for segments of the boundary, the flux and the apply kernel, on fields `U` and `V` that are zero in the ghost cells that belong to no segment, give `R` and `S` with `∑ V R = ∑ U S`. Robin conditions with `alpha = 2 beta`, which `set_poisson_bc` takes for granted in 1D. -/
theorem C92_poisson_1d {i0 i1 gcw rgcw : Int} {beta : T} {dx : Nat → T} {f0 u res : Ptr} {β1 β2 β3 β4 : Nat → Backend} {l : List (BcCall T)} {m m' : Mem T} {U V : List Int → T}
    (hβ1 : ∀ n, ValidBackend (β1 n)) (hβ2 : ∀ n, ValidBackend (β2 n)) (hβ3 : ∀ n, ValidBackend (β3 n)) (hβ4 : ∀ n, ValidBackend (β4 n)) (hwi : i0 < i1) (hg : 1 ≤ gcw) (hrg : 0 ≤ rgcw)
    (hu : ∀ c ∈ l, c.Usable 1) (hl : ∀ c ∈ l, c.Along1 i0 i1) (hs : ∀ c ∈ l, ∀ d ∈ l, Separate (fun c : BcCall T => F.onSeg1 c.lo c.hi c.face) c d) (hc : ∀ c ∈ l, c.Solvable (c.piece1 i0 i1 dx (fun _ => (1 : T)))) (hrb : ∀ c ∈ l, c.btype = 4 → c.alpha = 2 * c.beta)
    (h1 : F.Args m [] [(F.cell1d u i0 i1 gcw)]) (h2 : F.Args m [(F.cell1d u i0 i1 gcw)] [(F.face1d f0 i0 i1 0), (F.cell1d res i0 i1 rgcw)])
    (hrf : F.Apart (F.cell1d res i0 i1 rgcw) (F.face1d f0 i0 i1 0))
    (hU : F.Holds m (F.cell1d u i0 i1 gcw) U)
    (h1' : F.Args m' [] [(F.cell1d u i0 i1 gcw)]) (h2' : F.Args m' [(F.cell1d u i0 i1 gcw)] [(F.face1d f0 i0 i1 0), (F.cell1d res i0 i1 rgcw)])
    (hV : F.Holds m' (F.cell1d u i0 i1 gcw) V)
    (hz : ∀ g, Uncovered (fun c : BcCall T => F.onSeg1 c.lo c.hi c.face) l [(i0, i1)] 3 (F.row F.points1) g → U g = 0) (hz' : ∀ g, Uncovered (fun c : BcCall T => F.onSeg1 c.lo c.hi c.face) l [(i0, i1)] 3 (F.row F.points1) g → V g = 0) :
    ∃ m0 m1 m2 m0' m1' m2', ∃ R S : List Int → T, inOrder (fun c : BcCall T => Cuda.setPoissonBc1d i0 i1 dx gcw u c.lo c.hi c.order c.face c.btype c.alpha c.beta c.sched) l m = .ok m0 ∧ Cuda.poissonFlux1d i0 i1 dx gcw u f0 β1 m0 = .ok m1 ∧ Cuda.poissonV2Apply1d i0 i1 beta dx f0 rgcw res β2 m1 = .ok m2 ∧
      inOrder (fun c : BcCall T => Cuda.setPoissonBc1d i0 i1 dx gcw u c.lo c.hi c.order c.face c.btype c.alpha c.beta c.sched) l m' = .ok m0' ∧ Cuda.poissonFlux1d i0 i1 dx gcw u f0 β3 m0' = .ok m1' ∧ Cuda.poissonV2Apply1d i0 i1 beta dx f0 rgcw res β4 m1' = .ok m2' ∧
      (∀ p, F.InBounds [(i0, i1)] p → F.El m2 (F.cell1d res i0 i1 rgcw) p (R p)) ∧ (∀ p, F.InBounds [(i0, i1)] p → F.El m2' (F.cell1d res i0 i1 rgcw) p (S p)) ∧
      (F.sum i0 i1 fun i => V [i] * R [i]) = (F.sum i0 i1 fun i => U [i] * S [i]) := by
  obtain ⟨m0, m1, m2, X, R, a0, a1, a2, E, hin, hR, hj⟩ := wall_p_1 (beta := beta) hβ1 hβ2 hwi hg hrg hu hl hs hc hrb h1 h2 hrf hU
  obtain ⟨m0', m1', m2', Z, S, a0', a1', a2', E', hin', hR', hj'⟩ := wall_p_1 (beta := beta) hβ3 hβ4 hwi hg hrg hu hl hs hc hrb h1' h2' hrf hV
  have wX : F.Walled [(i0, i1)] 3 (F.row F.points1) (F.jump (l.map (fun c : BcCall T => c.piece1 i0 i1 dx (fun _ => (1 : T))))) X := fun p hp e e0 e1 ho => by
    rcases hj p hp e e0 e1 ho with ⟨jn, j⟩ | ⟨j1, j2, j3⟩
    · exact j
    · rw [j1, j3, hz _ j2, sub_self, zero_mul]
  have wZ : F.Walled [(i0, i1)] 3 (F.row F.points1) (F.jump (l.map (fun c : BcCall T => c.piece1 i0 i1 dx (fun _ => (1 : T))))) Z := fun p hp e e0 e1 ho => by
    rcases hj' p hp e e0 e1 ho with ⟨jn, j⟩ | ⟨j1, j2, j3⟩
    · exact j
    · rw [j1, j3, hz' _ j2, sub_self, zero_mul]
  refine ⟨m0, m1, m2, m0', m1', m2', R, S, a0, a1, a2, a0', a1', a2', E, E', ?_⟩
  have e1 : (F.sum i0 i1 fun i => V [i] * R [i]) = F.form1 i0 i1 0 beta dx (fun _ => (1 : T)) (fun _ => (1 : T)) X (F.cutTo [(i0, i1)] Z) := by
    rw [← F.weak1 hwi.le (fun p hp => F.cutTo_out hp)]
    exact F.sum_congr fun i hi0 hi1 => by
      have hp : F.InBounds [(i0, i1)] [i] := F.inBounds1.2 ⟨i, rfl, by omega⟩
      rw [F.cutTo_in hp, hin' _ hp, hR i hi0 hi1]
  have e2 : (F.sum i0 i1 fun i => U [i] * S [i]) = F.form1 i0 i1 0 beta dx (fun _ => (1 : T)) (fun _ => (1 : T)) Z (F.cutTo [(i0, i1)] X) := by
    rw [← F.weak1 hwi.le (fun p hp => F.cutTo_out hp)]
    exact F.sum_congr fun i hi0 hi1 => by
      have hp : F.InBounds [(i0, i1)] [i] := F.inBounds1.2 ⟨i, rfl, by omega⟩
      rw [F.cutTo_in hp, hin _ hp, hR' i hi0 hi1]
  rw [e1, e2]
  exact wX.symm1 hwi.le wZ

example :=
  C92_poisson_1d (T := Rat) (l := [exFill (exSeg (-1) 0 0) (exSeg (-1) 0 0) 0 4]) (i0 := 0) (i1 := 3) (dx := exDx) (beta := 2) (gcw := 2) (rgcw := 1) (u := ⟨1, 0⟩) (res := ⟨8, 0⟩) (f0 := ⟨5, 0⟩) (U := exBump 1 5) (m := exFun (exCase1 (exBump 1 5))) (V := exBump 1 40) (m' := exFun (exCase1 (exBump 1 40)))
    (fun _ => revBackend_ok) (fun _ => seqBackend_ok) (fun _ => seqBackend_ok) (fun _ => revBackend_ok) (by decide) (by decide) (by decide)
    (by ex_fusable) (by ex_falong) (by ex_fseparate) (by ex_solvable1 (fun p => exOne p)) (by norm_num [exFill])
    (exFun_args (by ex_args)) (exFun_args (by ex_args)) (apart_blk (by decide)) (exFun_holds rfl rfl (exRat_ok rfl (by decide) (by decide)))
    (exFun_args (by ex_args)) (exFun_args (by ex_args)) (exFun_holds rfl rfl (exRat_ok rfl (by decide) (by decide)))
    (fun g hg => exBump_zero1 g hg.1) (fun g hg => exBump_zero1 g hg.1)

/-- 2D, diffusion operator with cell coefficients: `set_bc` for segments of the boundary, the flux and the apply kernel, on fields `U` and `V` that are zero in the ghost cells that belong to no segment, give `R` and `S` with `∑ V R = ∑ U S`. -/
theorem C92_v1_2d {i0 j0 i1 j1 agcw gcw rgcw : Int} {alpha beta : T} {dx : Nat → T} {a b0 b1 f0 f1 u res : Ptr} {β1 β2 β3 β4 : Nat → Backend} {l : List (BcCall T)} {m m' : Mem T} {A B0 B1 U V : List Int → T}
    (hβ1 : ∀ n, ValidBackend (β1 n)) (hβ2 : ∀ n, ValidBackend (β2 n)) (hβ3 : ∀ n, ValidBackend (β3 n)) (hβ4 : ∀ n, ValidBackend (β4 n)) (hwi : i0 < i1) (hwj : j0 < j1) (hag : 0 ≤ agcw) (hg : 1 ≤ gcw) (hrg : 0 ≤ rgcw)
    (hu : ∀ c ∈ l, c.Usable 2) (hl : ∀ c ∈ l, c.Along2 1 i0 j0 i1 j1) (hs : ∀ c ∈ l, ∀ d ∈ l, Separate (fun c : BcCall T => F.onSeg2 c.lo c.hi 1 c.face) c d) (hc : ∀ c ∈ l, c.Solvable (c.piece2 i0 j0 i1 j1 dx B0 B1))
    (h1 : F.Args m [(F.cell2d a i0 j0 i1 j1 agcw), (F.face2d0 b0 i0 j0 i1 j1 0), (F.face2d1 b1 i0 j0 i1 j1 0)] [(F.cell2d u i0 j0 i1 j1 gcw)]) (h2 : F.Args m [(F.cell2d a i0 j0 i1 j1 agcw), (F.cell2d u i0 j0 i1 j1 gcw), (F.face2d0 b0 i0 j0 i1 j1 0), (F.face2d1 b1 i0 j0 i1 j1 0)] [(F.face2d0 f0 i0 j0 i1 j1 0), (F.face2d1 f1 i0 j0 i1 j1 0), (F.cell2d res i0 j0 i1 j1 rgcw)])
    (hpf : F.Apart (F.face2d0 f0 i0 j0 i1 j1 0) (F.face2d1 f1 i0 j0 i1 j1 0)) (hrf : F.Apart (F.cell2d res i0 j0 i1 j1 rgcw) (F.face2d0 f0 i0 j0 i1 j1 0) ∧ F.Apart (F.cell2d res i0 j0 i1 j1 rgcw) (F.face2d1 f1 i0 j0 i1 j1 0))
    (hA : F.Holds m (F.cell2d a i0 j0 i1 j1 agcw) A) (hB0 : F.Holds m (F.face2d0 b0 i0 j0 i1 j1 0) B0) (hB1 : F.Holds m (F.face2d1 b1 i0 j0 i1 j1 0) B1) (hU : F.Holds m (F.cell2d u i0 j0 i1 j1 gcw) U)
    (h1' : F.Args m' [(F.cell2d a i0 j0 i1 j1 agcw), (F.face2d0 b0 i0 j0 i1 j1 0), (F.face2d1 b1 i0 j0 i1 j1 0)] [(F.cell2d u i0 j0 i1 j1 gcw)]) (h2' : F.Args m' [(F.cell2d a i0 j0 i1 j1 agcw), (F.cell2d u i0 j0 i1 j1 gcw), (F.face2d0 b0 i0 j0 i1 j1 0), (F.face2d1 b1 i0 j0 i1 j1 0)] [(F.face2d0 f0 i0 j0 i1 j1 0), (F.face2d1 f1 i0 j0 i1 j1 0), (F.cell2d res i0 j0 i1 j1 rgcw)])
    (hA' : F.Holds m' (F.cell2d a i0 j0 i1 j1 agcw) A) (hB0' : F.Holds m' (F.face2d0 b0 i0 j0 i1 j1 0) B0) (hB1' : F.Holds m' (F.face2d1 b1 i0 j0 i1 j1 0) B1) (hV : F.Holds m' (F.cell2d u i0 j0 i1 j1 gcw) V)
    (hz : ∀ g, Uncovered (fun c : BcCall T => F.onSeg2 c.lo c.hi 1 c.face) l [(i0, i1), (j0, j1)] 5 (F.row F.points2) g → U g = 0) (hz' : ∀ g, Uncovered (fun c : BcCall T => F.onSeg2 c.lo c.hi 1 c.face) l [(i0, i1), (j0, j1)] 5 (F.row F.points2) g → V g = 0) :
    ∃ m0 m1 m2 m0' m1' m2', ∃ R S : List Int → T, inOrder (fun c : BcCall T => Cuda.setBc2d i0 i1 j0 j1 dx 0 b0 b1 gcw u c.lo c.hi c.order c.face 1 c.btype c.alpha c.beta c.sched) l m = .ok m0 ∧ Cuda.flux2d i0 j0 i1 j1 dx b0 b1 gcw u f0 f1 β1 m0 = .ok m1 ∧ Cuda.diffusionV1Apply2d i0 i1 j0 j1 alpha beta dx agcw a gcw u f0 f1 rgcw res β2 m1 = .ok m2 ∧
      inOrder (fun c : BcCall T => Cuda.setBc2d i0 i1 j0 j1 dx 0 b0 b1 gcw u c.lo c.hi c.order c.face 1 c.btype c.alpha c.beta c.sched) l m' = .ok m0' ∧ Cuda.flux2d i0 j0 i1 j1 dx b0 b1 gcw u f0 f1 β3 m0' = .ok m1' ∧ Cuda.diffusionV1Apply2d i0 i1 j0 j1 alpha beta dx agcw a gcw u f0 f1 rgcw res β4 m1' = .ok m2' ∧
      (∀ p, F.InBounds [(i0, i1), (j0, j1)] p → F.El m2 (F.cell2d res i0 j0 i1 j1 rgcw) p (R p)) ∧ (∀ p, F.InBounds [(i0, i1), (j0, j1)] p → F.El m2' (F.cell2d res i0 j0 i1 j1 rgcw) p (S p)) ∧
      (F.sum i0 i1 fun i => F.sum j0 j1 fun j => V [i, j] * R [i, j]) = (F.sum i0 i1 fun i => F.sum j0 j1 fun j => U [i, j] * S [i, j]) := by
  obtain ⟨m0, m1, m2, X, R, a0, a1, a2, E, hin, hR, hj⟩ := wall_v1_2 (alpha := alpha) (beta := beta) hβ1 hβ2 hwi hwj hag hg hrg hu hl hs hc h1 h2 hpf hrf hA hB0 hB1 hU
  obtain ⟨m0', m1', m2', Z, S, a0', a1', a2', E', hin', hR', hj'⟩ := wall_v1_2 (alpha := alpha) (beta := beta) hβ3 hβ4 hwi hwj hag hg hrg hu hl hs hc h1' h2' hpf hrf hA' hB0' hB1' hV
  have wX : F.Walled [(i0, i1), (j0, j1)] 5 (F.row F.points2) (F.jump (l.map (fun c : BcCall T => c.piece2 i0 j0 i1 j1 dx B0 B1))) X := fun p hp e e0 e1 ho => by
    rcases hj p hp e e0 e1 ho with ⟨jn, j⟩ | ⟨j1, j2, j3⟩
    · exact j
    · rw [j1, j3, hz _ j2, sub_self, zero_mul]
  have wZ : F.Walled [(i0, i1), (j0, j1)] 5 (F.row F.points2) (F.jump (l.map (fun c : BcCall T => c.piece2 i0 j0 i1 j1 dx B0 B1))) Z := fun p hp e e0 e1 ho => by
    rcases hj' p hp e e0 e1 ho with ⟨jn, j⟩ | ⟨j1, j2, j3⟩
    · exact j
    · rw [j1, j3, hz' _ j2, sub_self, zero_mul]
  refine ⟨m0, m1, m2, m0', m1', m2', R, S, a0, a1, a2, a0', a1', a2', E, E', ?_⟩
  have e1 : (F.sum i0 i1 fun i => F.sum j0 j1 fun j => V [i, j] * R [i, j]) = F.form2 i0 j0 i1 j1 alpha beta dx A B0 B1 X (F.cutTo [(i0, i1), (j0, j1)] Z) := by
    rw [← F.weak2 hwi.le hwj.le (fun p hp => F.cutTo_out hp)]
    exact F.sum_congr fun i hi0 hi1 => F.sum_congr fun j hj0 hj1 => by
      have hp : F.InBounds [(i0, i1), (j0, j1)] [i, j] := F.inBounds2.2 ⟨i, j, rfl, by omega⟩
      rw [F.cutTo_in hp, hin' _ hp, hR i j hi0 hi1 hj0 hj1]
  have e2 : (F.sum i0 i1 fun i => F.sum j0 j1 fun j => U [i, j] * S [i, j]) = F.form2 i0 j0 i1 j1 alpha beta dx A B0 B1 Z (F.cutTo [(i0, i1), (j0, j1)] X) := by
    rw [← F.weak2 hwi.le hwj.le (fun p hp => F.cutTo_out hp)]
    exact F.sum_congr fun i hi0 hi1 => F.sum_congr fun j hj0 hj1 => by
      have hp : F.InBounds [(i0, i1), (j0, j1)] [i, j] := F.inBounds2.2 ⟨i, j, rfl, by omega⟩
      rw [F.cutTo_in hp, hin _ hp, hR' i j hi0 hi1 hj0 hj1]
  rw [e1, e2]
  exact wX.symm2 hwi.le hwj.le wZ

example :=
  C92_v1_2d (T := Rat) (l := [exFill (exSeg (-1) 1 0) (exSeg (-1) 2 0) 0 4, exFill (exSeg 0 4 0) (exSeg 2 4 0) 3 1, exFill (exSeg 0 0 0) (exSeg 1 0 0) 2 0]) (i0 := 0) (i1 := 2) (j0 := 1) (j1 := 3) (dx := exDx) (alpha := 3) (beta := 2) (gcw := 2) (rgcw := 1) (u := ⟨1, 0⟩) (res := ⟨8, 0⟩) (a := ⟨0, 0⟩) (agcw := 1) (b0 := ⟨2, 0⟩) (f0 := ⟨5, 0⟩) (b1 := ⟨3, 0⟩) (f1 := ⟨6, 0⟩) (U := exBump 2 5) (m := exFun (exCase2 (exBump 2 5))) (V := exBump 2 40) (m' := exFun (exCase2 (exBump 2 40)))
    (fun _ => revBackend_ok) (fun _ => seqBackend_ok) (fun _ => seqBackend_ok) (fun _ => revBackend_ok) (by decide) (by decide) (by decide) (by decide) (by decide)
    (by ex_fusable) (by ex_falong) (by ex_fseparate) (by ex_solvable2 (fun _ => exRd_nonneg))
    (exFun_args (by ex_args)) (exFun_args (by ex_args)) (apart_blk (by decide)) ⟨apart_blk (by decide), apart_blk (by decide)⟩ (exFun_holds rfl rfl (exRat_ok rfl (by decide) (by decide))) (exFun_holds rfl rfl (exRat_ok rfl (by decide) (by decide))) (exFun_holds rfl rfl (exRat_ok rfl (by decide) (by decide))) (exFun_holds rfl rfl (exRat_ok rfl (by decide) (by decide)))
    (exFun_args (by ex_args)) (exFun_args (by ex_args)) (exFun_holds rfl rfl (exRat_ok rfl (by decide) (by decide))) (exFun_holds rfl rfl (exRat_ok rfl (by decide) (by decide))) (exFun_holds rfl rfl (exRat_ok rfl (by decide) (by decide))) (exFun_holds rfl rfl (exRat_ok rfl (by decide) (by decide)))
    (fun g hg => exBump_zero2 g hg.1) (fun g hg => exBump_zero2 g hg.1)

/-- 2D, diffusion operator with constant reaction: `set_bc` for segments of the boundary, the flux and the apply kernel, on fields `U` and `V` that are zero in the ghost cells that belong to no segment, give `R` and `S` with `∑ V R = ∑ U S`. -/
theorem C92_v2_2d {i0 j0 i1 j1 gcw rgcw : Int} {alpha beta : T} {dx : Nat → T} {b0 b1 f0 f1 u res : Ptr} {β1 β2 β3 β4 : Nat → Backend} {l : List (BcCall T)} {m m' : Mem T} {B0 B1 U V : List Int → T}
    (hβ1 : ∀ n, ValidBackend (β1 n)) (hβ2 : ∀ n, ValidBackend (β2 n)) (hβ3 : ∀ n, ValidBackend (β3 n)) (hβ4 : ∀ n, ValidBackend (β4 n)) (hwi : i0 < i1) (hwj : j0 < j1) (hg : 1 ≤ gcw) (hrg : 0 ≤ rgcw)
    (hu : ∀ c ∈ l, c.Usable 2) (hl : ∀ c ∈ l, c.Along2 1 i0 j0 i1 j1) (hs : ∀ c ∈ l, ∀ d ∈ l, Separate (fun c : BcCall T => F.onSeg2 c.lo c.hi 1 c.face) c d) (hc : ∀ c ∈ l, c.Solvable (c.piece2 i0 j0 i1 j1 dx B0 B1))
    (h1 : F.Args m [(F.face2d0 b0 i0 j0 i1 j1 0), (F.face2d1 b1 i0 j0 i1 j1 0)] [(F.cell2d u i0 j0 i1 j1 gcw)]) (h2 : F.Args m [(F.cell2d u i0 j0 i1 j1 gcw), (F.face2d0 b0 i0 j0 i1 j1 0), (F.face2d1 b1 i0 j0 i1 j1 0)] [(F.face2d0 f0 i0 j0 i1 j1 0), (F.face2d1 f1 i0 j0 i1 j1 0), (F.cell2d res i0 j0 i1 j1 rgcw)])
    (hpf : F.Apart (F.face2d0 f0 i0 j0 i1 j1 0) (F.face2d1 f1 i0 j0 i1 j1 0)) (hrf : F.Apart (F.cell2d res i0 j0 i1 j1 rgcw) (F.face2d0 f0 i0 j0 i1 j1 0) ∧ F.Apart (F.cell2d res i0 j0 i1 j1 rgcw) (F.face2d1 f1 i0 j0 i1 j1 0))
    (hB0 : F.Holds m (F.face2d0 b0 i0 j0 i1 j1 0) B0) (hB1 : F.Holds m (F.face2d1 b1 i0 j0 i1 j1 0) B1) (hU : F.Holds m (F.cell2d u i0 j0 i1 j1 gcw) U)
    (h1' : F.Args m' [(F.face2d0 b0 i0 j0 i1 j1 0), (F.face2d1 b1 i0 j0 i1 j1 0)] [(F.cell2d u i0 j0 i1 j1 gcw)]) (h2' : F.Args m' [(F.cell2d u i0 j0 i1 j1 gcw), (F.face2d0 b0 i0 j0 i1 j1 0), (F.face2d1 b1 i0 j0 i1 j1 0)] [(F.face2d0 f0 i0 j0 i1 j1 0), (F.face2d1 f1 i0 j0 i1 j1 0), (F.cell2d res i0 j0 i1 j1 rgcw)])
    (hB0' : F.Holds m' (F.face2d0 b0 i0 j0 i1 j1 0) B0) (hB1' : F.Holds m' (F.face2d1 b1 i0 j0 i1 j1 0) B1) (hV : F.Holds m' (F.cell2d u i0 j0 i1 j1 gcw) V)
    (hz : ∀ g, Uncovered (fun c : BcCall T => F.onSeg2 c.lo c.hi 1 c.face) l [(i0, i1), (j0, j1)] 5 (F.row F.points2) g → U g = 0) (hz' : ∀ g, Uncovered (fun c : BcCall T => F.onSeg2 c.lo c.hi 1 c.face) l [(i0, i1), (j0, j1)] 5 (F.row F.points2) g → V g = 0) :
    ∃ m0 m1 m2 m0' m1' m2', ∃ R S : List Int → T, inOrder (fun c : BcCall T => Cuda.setBc2d i0 i1 j0 j1 dx 0 b0 b1 gcw u c.lo c.hi c.order c.face 1 c.btype c.alpha c.beta c.sched) l m = .ok m0 ∧ Cuda.flux2d i0 j0 i1 j1 dx b0 b1 gcw u f0 f1 β1 m0 = .ok m1 ∧ Cuda.diffusionV2Apply2d i0 i1 j0 j1 alpha beta dx gcw u f0 f1 rgcw res β2 m1 = .ok m2 ∧
      inOrder (fun c : BcCall T => Cuda.setBc2d i0 i1 j0 j1 dx 0 b0 b1 gcw u c.lo c.hi c.order c.face 1 c.btype c.alpha c.beta c.sched) l m' = .ok m0' ∧ Cuda.flux2d i0 j0 i1 j1 dx b0 b1 gcw u f0 f1 β3 m0' = .ok m1' ∧ Cuda.diffusionV2Apply2d i0 i1 j0 j1 alpha beta dx gcw u f0 f1 rgcw res β4 m1' = .ok m2' ∧
      (∀ p, F.InBounds [(i0, i1), (j0, j1)] p → F.El m2 (F.cell2d res i0 j0 i1 j1 rgcw) p (R p)) ∧ (∀ p, F.InBounds [(i0, i1), (j0, j1)] p → F.El m2' (F.cell2d res i0 j0 i1 j1 rgcw) p (S p)) ∧
      (F.sum i0 i1 fun i => F.sum j0 j1 fun j => V [i, j] * R [i, j]) = (F.sum i0 i1 fun i => F.sum j0 j1 fun j => U [i, j] * S [i, j]) := by
  obtain ⟨m0, m1, m2, X, R, a0, a1, a2, E, hin, hR, hj⟩ := wall_v2_2 (alpha := alpha) (beta := beta) hβ1 hβ2 hwi hwj hg hrg hu hl hs hc h1 h2 hpf hrf hB0 hB1 hU
  obtain ⟨m0', m1', m2', Z, S, a0', a1', a2', E', hin', hR', hj'⟩ := wall_v2_2 (alpha := alpha) (beta := beta) hβ3 hβ4 hwi hwj hg hrg hu hl hs hc h1' h2' hpf hrf hB0' hB1' hV
  have wX : F.Walled [(i0, i1), (j0, j1)] 5 (F.row F.points2) (F.jump (l.map (fun c : BcCall T => c.piece2 i0 j0 i1 j1 dx B0 B1))) X := fun p hp e e0 e1 ho => by
    rcases hj p hp e e0 e1 ho with ⟨jn, j⟩ | ⟨j1, j2, j3⟩
    · exact j
    · rw [j1, j3, hz _ j2, sub_self, zero_mul]
  have wZ : F.Walled [(i0, i1), (j0, j1)] 5 (F.row F.points2) (F.jump (l.map (fun c : BcCall T => c.piece2 i0 j0 i1 j1 dx B0 B1))) Z := fun p hp e e0 e1 ho => by
    rcases hj' p hp e e0 e1 ho with ⟨jn, j⟩ | ⟨j1, j2, j3⟩
    · exact j
    · rw [j1, j3, hz' _ j2, sub_self, zero_mul]
  refine ⟨m0, m1, m2, m0', m1', m2', R, S, a0, a1, a2, a0', a1', a2', E, E', ?_⟩
  have e1 : (F.sum i0 i1 fun i => F.sum j0 j1 fun j => V [i, j] * R [i, j]) = F.form2 i0 j0 i1 j1 alpha beta dx (fun _ => (1 : T)) B0 B1 X (F.cutTo [(i0, i1), (j0, j1)] Z) := by
    rw [← F.weak2 hwi.le hwj.le (fun p hp => F.cutTo_out hp)]
    exact F.sum_congr fun i hi0 hi1 => F.sum_congr fun j hj0 hj1 => by
      have hp : F.InBounds [(i0, i1), (j0, j1)] [i, j] := F.inBounds2.2 ⟨i, j, rfl, by omega⟩
      rw [F.cutTo_in hp, hin' _ hp, hR i j hi0 hi1 hj0 hj1]
  have e2 : (F.sum i0 i1 fun i => F.sum j0 j1 fun j => U [i, j] * S [i, j]) = F.form2 i0 j0 i1 j1 alpha beta dx (fun _ => (1 : T)) B0 B1 Z (F.cutTo [(i0, i1), (j0, j1)] X) := by
    rw [← F.weak2 hwi.le hwj.le (fun p hp => F.cutTo_out hp)]
    exact F.sum_congr fun i hi0 hi1 => F.sum_congr fun j hj0 hj1 => by
      have hp : F.InBounds [(i0, i1), (j0, j1)] [i, j] := F.inBounds2.2 ⟨i, j, rfl, by omega⟩
      rw [F.cutTo_in hp, hin _ hp, hR' i j hi0 hi1 hj0 hj1]
  rw [e1, e2]
  exact wX.symm2 hwi.le hwj.le wZ

example :=
  C92_v2_2d (T := Rat) (l := [exFill (exSeg (-1) 1 0) (exSeg (-1) 2 0) 0 4, exFill (exSeg 0 4 0) (exSeg 2 4 0) 3 1, exFill (exSeg 0 0 0) (exSeg 1 0 0) 2 0]) (i0 := 0) (i1 := 2) (j0 := 1) (j1 := 3) (dx := exDx) (alpha := 3) (beta := 2) (gcw := 2) (rgcw := 1) (u := ⟨1, 0⟩) (res := ⟨8, 0⟩) (b0 := ⟨2, 0⟩) (f0 := ⟨5, 0⟩) (b1 := ⟨3, 0⟩) (f1 := ⟨6, 0⟩) (U := exBump 2 5) (m := exFun (exCase2 (exBump 2 5))) (V := exBump 2 40) (m' := exFun (exCase2 (exBump 2 40)))
    (fun _ => revBackend_ok) (fun _ => seqBackend_ok) (fun _ => seqBackend_ok) (fun _ => revBackend_ok) (by decide) (by decide) (by decide) (by decide)
    (by ex_fusable) (by ex_falong) (by ex_fseparate) (by ex_solvable2 (fun _ => exRd_nonneg))
    (exFun_args (by ex_args)) (exFun_args (by ex_args)) (apart_blk (by decide)) ⟨apart_blk (by decide), apart_blk (by decide)⟩ (exFun_holds rfl rfl (exRat_ok rfl (by decide) (by decide))) (exFun_holds rfl rfl (exRat_ok rfl (by decide) (by decide))) (exFun_holds rfl rfl (exRat_ok rfl (by decide) (by decide)))
    (exFun_args (by ex_args)) (exFun_args (by ex_args)) (exFun_holds rfl rfl (exRat_ok rfl (by decide) (by decide))) (exFun_holds rfl rfl (exRat_ok rfl (by decide) (by decide))) (exFun_holds rfl rfl (exRat_ok rfl (by decide) (by decide)))
    (fun g hg => exBump_zero2 g hg.1) (fun g hg => exBump_zero2 g hg.1)

/-- 2D, Poisson operator: `set_poisson_bc` for segments of the boundary, the flux and the apply kernel, on fields `U` and `V` that are zero in the ghost cells that belong to no segment, give `R` and `S` with `∑ V R = ∑ U S`. Robin conditions only across the first direction: `set_poisson_bc` has none across the second in 2D. -/
theorem C92_poisson_2d_partial {i0 j0 i1 j1 gcw rgcw : Int} {beta : T} {dx : Nat → T} {f0 f1 u res : Ptr} {β1 β2 β3 β4 : Nat → Backend} {l : List (BcCall T)} {m m' : Mem T} {U V : List Int → T}
    (hβ1 : ∀ n, ValidBackend (β1 n)) (hβ2 : ∀ n, ValidBackend (β2 n)) (hβ3 : ∀ n, ValidBackend (β3 n)) (hβ4 : ∀ n, ValidBackend (β4 n)) (hwi : i0 < i1) (hwj : j0 < j1) (hg : 1 ≤ gcw) (hrg : 0 ≤ rgcw)
    (hu : ∀ c ∈ l, c.Usable 2) (hl : ∀ c ∈ l, c.Along2 1 i0 j0 i1 j1) (hs : ∀ c ∈ l, ∀ d ∈ l, Separate (fun c : BcCall T => F.onSeg2 c.lo c.hi 1 c.face) c d) (hc : ∀ c ∈ l, c.Solvable (c.piece2 i0 j0 i1 j1 dx (fun _ => (1 : T)) (fun _ => (1 : T)))) (hrb : ∀ c ∈ l, c.btype = 4 → c.face < 2)
    (h1 : F.Args m [] [(F.cell2d u i0 j0 i1 j1 gcw)]) (h2 : F.Args m [(F.cell2d u i0 j0 i1 j1 gcw)] [(F.face2d0 f0 i0 j0 i1 j1 0), (F.face2d1 f1 i0 j0 i1 j1 0), (F.cell2d res i0 j0 i1 j1 rgcw)])
    (hpf : F.Apart (F.face2d0 f0 i0 j0 i1 j1 0) (F.face2d1 f1 i0 j0 i1 j1 0)) (hrf : F.Apart (F.cell2d res i0 j0 i1 j1 rgcw) (F.face2d0 f0 i0 j0 i1 j1 0) ∧ F.Apart (F.cell2d res i0 j0 i1 j1 rgcw) (F.face2d1 f1 i0 j0 i1 j1 0))
    (hU : F.Holds m (F.cell2d u i0 j0 i1 j1 gcw) U)
    (h1' : F.Args m' [] [(F.cell2d u i0 j0 i1 j1 gcw)]) (h2' : F.Args m' [(F.cell2d u i0 j0 i1 j1 gcw)] [(F.face2d0 f0 i0 j0 i1 j1 0), (F.face2d1 f1 i0 j0 i1 j1 0), (F.cell2d res i0 j0 i1 j1 rgcw)])
    (hV : F.Holds m' (F.cell2d u i0 j0 i1 j1 gcw) V)
    (hz : ∀ g, Uncovered (fun c : BcCall T => F.onSeg2 c.lo c.hi 1 c.face) l [(i0, i1), (j0, j1)] 5 (F.row F.points2) g → U g = 0) (hz' : ∀ g, Uncovered (fun c : BcCall T => F.onSeg2 c.lo c.hi 1 c.face) l [(i0, i1), (j0, j1)] 5 (F.row F.points2) g → V g = 0) :
    ∃ m0 m1 m2 m0' m1' m2', ∃ R S : List Int → T, inOrder (fun c : BcCall T => Cuda.setPoissonBc2d i0 i1 j0 j1 dx gcw u c.lo c.hi c.order c.face 1 c.btype c.alpha c.beta c.sched) l m = .ok m0 ∧ Cuda.poissonFlux2d i0 j0 i1 j1 dx gcw u f0 f1 β1 m0 = .ok m1 ∧ Cuda.poissonV2Apply2d i0 i1 j0 j1 beta dx f0 f1 rgcw res β2 m1 = .ok m2 ∧
      inOrder (fun c : BcCall T => Cuda.setPoissonBc2d i0 i1 j0 j1 dx gcw u c.lo c.hi c.order c.face 1 c.btype c.alpha c.beta c.sched) l m' = .ok m0' ∧ Cuda.poissonFlux2d i0 j0 i1 j1 dx gcw u f0 f1 β3 m0' = .ok m1' ∧ Cuda.poissonV2Apply2d i0 i1 j0 j1 beta dx f0 f1 rgcw res β4 m1' = .ok m2' ∧
      (∀ p, F.InBounds [(i0, i1), (j0, j1)] p → F.El m2 (F.cell2d res i0 j0 i1 j1 rgcw) p (R p)) ∧ (∀ p, F.InBounds [(i0, i1), (j0, j1)] p → F.El m2' (F.cell2d res i0 j0 i1 j1 rgcw) p (S p)) ∧
      (F.sum i0 i1 fun i => F.sum j0 j1 fun j => V [i, j] * R [i, j]) = (F.sum i0 i1 fun i => F.sum j0 j1 fun j => U [i, j] * S [i, j]) := by
  obtain ⟨m0, m1, m2, X, R, a0, a1, a2, E, hin, hR, hj⟩ := wall_p_2 (beta := beta) hβ1 hβ2 hwi hwj hg hrg hu hl hs hc hrb h1 h2 hpf hrf hU
  obtain ⟨m0', m1', m2', Z, S, a0', a1', a2', E', hin', hR', hj'⟩ := wall_p_2 (beta := beta) hβ3 hβ4 hwi hwj hg hrg hu hl hs hc hrb h1' h2' hpf hrf hV
  have wX : F.Walled [(i0, i1), (j0, j1)] 5 (F.row F.points2) (F.jump (l.map (fun c : BcCall T => c.piece2 i0 j0 i1 j1 dx (fun _ => (1 : T)) (fun _ => (1 : T))))) X := fun p hp e e0 e1 ho => by
    rcases hj p hp e e0 e1 ho with ⟨jn, j⟩ | ⟨j1, j2, j3⟩
    · exact j
    · rw [j1, j3, hz _ j2, sub_self, zero_mul]
  have wZ : F.Walled [(i0, i1), (j0, j1)] 5 (F.row F.points2) (F.jump (l.map (fun c : BcCall T => c.piece2 i0 j0 i1 j1 dx (fun _ => (1 : T)) (fun _ => (1 : T))))) Z := fun p hp e e0 e1 ho => by
    rcases hj' p hp e e0 e1 ho with ⟨jn, j⟩ | ⟨j1, j2, j3⟩
    · exact j
    · rw [j1, j3, hz' _ j2, sub_self, zero_mul]
  refine ⟨m0, m1, m2, m0', m1', m2', R, S, a0, a1, a2, a0', a1', a2', E, E', ?_⟩
  have e1 : (F.sum i0 i1 fun i => F.sum j0 j1 fun j => V [i, j] * R [i, j]) = F.form2 i0 j0 i1 j1 0 beta dx (fun _ => (1 : T)) (fun _ => (1 : T)) (fun _ => (1 : T)) X (F.cutTo [(i0, i1), (j0, j1)] Z) := by
    rw [← F.weak2 hwi.le hwj.le (fun p hp => F.cutTo_out hp)]
    exact F.sum_congr fun i hi0 hi1 => F.sum_congr fun j hj0 hj1 => by
      have hp : F.InBounds [(i0, i1), (j0, j1)] [i, j] := F.inBounds2.2 ⟨i, j, rfl, by omega⟩
      rw [F.cutTo_in hp, hin' _ hp, hR i j hi0 hi1 hj0 hj1]
  have e2 : (F.sum i0 i1 fun i => F.sum j0 j1 fun j => U [i, j] * S [i, j]) = F.form2 i0 j0 i1 j1 0 beta dx (fun _ => (1 : T)) (fun _ => (1 : T)) (fun _ => (1 : T)) Z (F.cutTo [(i0, i1), (j0, j1)] X) := by
    rw [← F.weak2 hwi.le hwj.le (fun p hp => F.cutTo_out hp)]
    exact F.sum_congr fun i hi0 hi1 => F.sum_congr fun j hj0 hj1 => by
      have hp : F.InBounds [(i0, i1), (j0, j1)] [i, j] := F.inBounds2.2 ⟨i, j, rfl, by omega⟩
      rw [F.cutTo_in hp, hin _ hp, hR' i j hi0 hi1 hj0 hj1]
  rw [e1, e2]
  exact wX.symm2 hwi.le hwj.le wZ

example :=
  C92_poisson_2d_partial (T := Rat) (l := [exFill (exSeg (-1) 1 0) (exSeg (-1) 2 0) 0 4, exFill (exSeg 0 4 0) (exSeg 2 4 0) 3 1, exFill (exSeg 0 0 0) (exSeg 1 0 0) 2 0]) (i0 := 0) (i1 := 2) (j0 := 1) (j1 := 3) (dx := exDx) (beta := 2) (gcw := 2) (rgcw := 1) (u := ⟨1, 0⟩) (res := ⟨8, 0⟩) (f0 := ⟨5, 0⟩) (f1 := ⟨6, 0⟩) (U := exBump 2 5) (m := exFun (exCase2 (exBump 2 5))) (V := exBump 2 40) (m' := exFun (exCase2 (exBump 2 40)))
    (fun _ => revBackend_ok) (fun _ => seqBackend_ok) (fun _ => seqBackend_ok) (fun _ => revBackend_ok) (by decide) (by decide) (by decide) (by decide)
    (by ex_fusable) (by ex_falong) (by ex_fseparate) (by ex_solvable2 (fun p => exOne p)) (by simp [exFill])
    (exFun_args (by ex_args)) (exFun_args (by ex_args)) (apart_blk (by decide)) ⟨apart_blk (by decide), apart_blk (by decide)⟩ (exFun_holds rfl rfl (exRat_ok rfl (by decide) (by decide)))
    (exFun_args (by ex_args)) (exFun_args (by ex_args)) (exFun_holds rfl rfl (exRat_ok rfl (by decide) (by decide)))
    (fun g hg => exBump_zero2 g hg.1) (fun g hg => exBump_zero2 g hg.1)

end

section
variable {T : Type} [Field T] [LinearOrder T] [IsStrictOrderedRing T]

/-- 1D, diffusion operator with cell coefficients: `set_bc` for segments of the boundary, the flux and the apply kernel, on a field `U` that is zero in the ghost cells that belong to no segment, give `R` with `∑ U R ≥ 0`, and `∑ U R = 0` only for `U = 0` if there is a cell with a reaction, or a face without a Neumann condition. -/
theorem C93_v1_1d {i0 i1 agcw gcw rgcw : Int} {alpha beta : T} {dx : Nat → T} {a b0 f0 u res : Ptr} {β1 β2 : Nat → Backend} {l : List (BcCall T)} {m : Mem T} {A B0 U : List Int → T}
    (hβ1 : ∀ n, ValidBackend (β1 n)) (hβ2 : ∀ n, ValidBackend (β2 n)) (hwi : i0 < i1) (hag : 0 ≤ agcw) (hg : 1 ≤ gcw) (hrg : 0 ≤ rgcw)
    (hu : ∀ c ∈ l, c.Usable 1) (hl : ∀ c ∈ l, c.Along1 i0 i1) (hs : ∀ c ∈ l, ∀ d ∈ l, Separate (fun c : BcCall T => F.onSeg1 c.lo c.hi c.face) c d) (hc : ∀ c ∈ l, c.Solvable (c.piece1 i0 i1 dx B0))
    (h1 : F.Args m [(F.cell1d a i0 i1 agcw), (F.face1d b0 i0 i1 0)] [(F.cell1d u i0 i1 gcw)]) (h2 : F.Args m [(F.cell1d a i0 i1 agcw), (F.cell1d u i0 i1 gcw), (F.face1d b0 i0 i1 0)] [(F.face1d f0 i0 i1 0), (F.cell1d res i0 i1 rgcw)])
    (hrf : F.Apart (F.cell1d res i0 i1 rgcw) (F.face1d f0 i0 i1 0))
    (hA : F.Holds m (F.cell1d a i0 i1 agcw) A) (hB0 : F.Holds m (F.face1d b0 i0 i1 0) B0) (hU : F.Holds m (F.cell1d u i0 i1 gcw) U)
    (hz : ∀ g, Uncovered (fun c : BcCall T => F.onSeg1 c.lo c.hi c.face) l [(i0, i1)] 3 (F.row F.points1) g → U g = 0) (he : F.Elliptic1 i0 i1 alpha beta dx A B0) (hq : ∀ c ∈ l, BcCall.Positive (c.piece1 i0 i1 dx B0)) :
    ∃ m0 m1 m2, ∃ R : List Int → T, inOrder (fun c : BcCall T => Cuda.setBc1d i0 i1 dx 0 b0 gcw u c.lo c.hi c.order c.face c.btype c.alpha c.beta c.sched) l m = .ok m0 ∧ Cuda.flux1d i0 i1 dx b0 gcw u f0 β1 m0 = .ok m1 ∧ Cuda.diffusionV1Apply1d i0 i1 alpha beta dx agcw a gcw u f0 rgcw res β2 m1 = .ok m2 ∧
      (∀ p, F.InBounds [(i0, i1)] p → F.El m2 (F.cell1d res i0 i1 rgcw) p (R p)) ∧
      0 ≤ (F.sum i0 i1 fun i => U [i] * R [i]) ∧ (F.Tied [(i0, i1)] 3 (F.row F.points1) (l.map (fun c : BcCall T => c.piece1 i0 i1 dx B0)) (fun c => alpha * A c) → (F.sum i0 i1 fun i => U [i] * R [i]) ≤ 0 → ∀ p, F.InBounds [(i0, i1)] p → U p = 0) := by
  have hps : ∀ k ∈ l.map (fun c : BcCall T => c.piece1 i0 i1 dx B0), F.First k.btype k.order ∧ 0 < k.width ∧ ∀ p, k.cells p → 0 ≤ k.coef p := fun k hk => by
    obtain ⟨c, hcl, rfl⟩ := List.mem_map.1 hk
    exact ⟨(hc c hcl).1, hq c hcl⟩
  obtain ⟨m0, m1, m2, X, R, a0, a1, a2, E, hin, hR, hj⟩ := wall_v1_1 (alpha := alpha) (beta := beta) hβ1 hβ2 hwi hag hg hrg hu hl hs hc h1 h2 hrf hA hB0 hU
  have wX : F.Walled [(i0, i1)] 3 (F.row F.points1) (F.jump (l.map (fun c : BcCall T => c.piece1 i0 i1 dx B0))) X := fun p hp e e0 e1 ho => by
    rcases hj p hp e e0 e1 ho with ⟨jn, j⟩ | ⟨j1, j2, j3⟩
    · exact j
    · rw [j1, j3, hz _ j2, sub_self, zero_mul]
  refine ⟨m0, m1, m2, R, a0, a1, a2, E, ?_⟩
  have e1 : (F.sum i0 i1 fun i => U [i] * R [i]) = F.form1 i0 i1 alpha beta dx A B0 X (F.cutTo [(i0, i1)] X) := by
    rw [← F.weak1 hwi.le (fun p hp => F.cutTo_out hp)]
    exact F.sum_congr fun i hi0 hi1 => by
      have hp : F.InBounds [(i0, i1)] [i] := F.inBounds1.2 ⟨i, rfl, by omega⟩
      rw [F.cutTo_in hp, hin _ hp, hR i hi0 hi1]
  rw [e1]
  refine ⟨wX.leaky.nonneg1 hwi.le he (F.jump_nonneg hps) (fun _ _ => le_refl _) (fun _ => le_refl _), fun ht h0 p hp => ?_⟩
  have ht' : F.Tied [(i0, i1)] 3 (F.row F.points1) (l.map (fun c : BcCall T => c.piece1 i0 i1 dx B0)) (fun c => alpha * A c) := by
    simpa using ht
  rw [← hin p hp]
  exact wX.leaky.zero1 hwi.le he (F.jump_nonneg hps) (fun _ _ => le_refl _) (fun _ => le_refl _) ht' (F.jump_ne hps) h0 p hp

example :=
  C93_v1_1d (T := Rat) (l := [exFill (exSeg (-1) 0 0) (exSeg (-1) 0 0) 0 4]) (i0 := 0) (i1 := 3) (dx := exDx) (alpha := 3) (beta := 2) (gcw := 2) (rgcw := 1) (u := ⟨1, 0⟩) (res := ⟨8, 0⟩) (a := ⟨0, 0⟩) (agcw := 1) (b0 := ⟨2, 0⟩) (f0 := ⟨5, 0⟩) (U := exBump 1 5) (m := exFun (exCase1 (exBump 1 5)))
    (fun _ => revBackend_ok) (fun _ => seqBackend_ok) (by decide) (by decide) (by decide) (by decide)
    (by ex_fusable) (by ex_falong) (by ex_fseparate) (by ex_solvable1 (fun _ => exRd_nonneg))
    (exFun_args (by ex_args)) (exFun_args (by ex_args)) (apart_blk (by decide)) (exFun_holds rfl rfl (exRat_ok rfl (by decide) (by decide))) (exFun_holds rfl rfl (exRat_ok rfl (by decide) (by decide))) (exFun_holds rfl rfl (exRat_ok rfl (by decide) (by decide)))
    (fun g hg => exBump_zero1 g hg.1) exEll_v1_1 (by ex_positive1 (fun _ => exRd_nonneg))

/-- 1D, diffusion operator with constant reaction: `set_bc` for segments of the boundary, the flux and the apply kernel, on a field `U` that is zero in the ghost cells that belong to no segment, give `R` with `∑ U R ≥ 0`, and `∑ U R = 0` only for `U = 0` if there is a cell with a reaction, or a face without a Neumann condition. -/
theorem C93_v2_1d {i0 i1 gcw rgcw : Int} {alpha beta : T} {dx : Nat → T} {b0 f0 u res : Ptr} {β1 β2 : Nat → Backend} {l : List (BcCall T)} {m : Mem T} {B0 U : List Int → T}
    (hβ1 : ∀ n, ValidBackend (β1 n)) (hβ2 : ∀ n, ValidBackend (β2 n)) (hwi : i0 < i1) (hg : 1 ≤ gcw) (hrg : 0 ≤ rgcw)
    (hu : ∀ c ∈ l, c.Usable 1) (hl : ∀ c ∈ l, c.Along1 i0 i1) (hs : ∀ c ∈ l, ∀ d ∈ l, Separate (fun c : BcCall T => F.onSeg1 c.lo c.hi c.face) c d) (hc : ∀ c ∈ l, c.Solvable (c.piece1 i0 i1 dx B0))
    (h1 : F.Args m [(F.face1d b0 i0 i1 0)] [(F.cell1d u i0 i1 gcw)]) (h2 : F.Args m [(F.cell1d u i0 i1 gcw), (F.face1d b0 i0 i1 0)] [(F.face1d f0 i0 i1 0), (F.cell1d res i0 i1 rgcw)])
    (hrf : F.Apart (F.cell1d res i0 i1 rgcw) (F.face1d f0 i0 i1 0))
    (hB0 : F.Holds m (F.face1d b0 i0 i1 0) B0) (hU : F.Holds m (F.cell1d u i0 i1 gcw) U)
    (hz : ∀ g, Uncovered (fun c : BcCall T => F.onSeg1 c.lo c.hi c.face) l [(i0, i1)] 3 (F.row F.points1) g → U g = 0) (he : F.Elliptic1 i0 i1 alpha beta dx (fun _ => 1) B0) (hq : ∀ c ∈ l, BcCall.Positive (c.piece1 i0 i1 dx B0)) :
    ∃ m0 m1 m2, ∃ R : List Int → T, inOrder (fun c : BcCall T => Cuda.setBc1d i0 i1 dx 0 b0 gcw u c.lo c.hi c.order c.face c.btype c.alpha c.beta c.sched) l m = .ok m0 ∧ Cuda.flux1d i0 i1 dx b0 gcw u f0 β1 m0 = .ok m1 ∧ Cuda.diffusionV2Apply1d i0 i1 alpha beta dx gcw u f0 rgcw res β2 m1 = .ok m2 ∧
      (∀ p, F.InBounds [(i0, i1)] p → F.El m2 (F.cell1d res i0 i1 rgcw) p (R p)) ∧
      0 ≤ (F.sum i0 i1 fun i => U [i] * R [i]) ∧ (F.Tied [(i0, i1)] 3 (F.row F.points1) (l.map (fun c : BcCall T => c.piece1 i0 i1 dx B0)) (fun _ => alpha) → (F.sum i0 i1 fun i => U [i] * R [i]) ≤ 0 → ∀ p, F.InBounds [(i0, i1)] p → U p = 0) := by
  have hps : ∀ k ∈ l.map (fun c : BcCall T => c.piece1 i0 i1 dx B0), F.First k.btype k.order ∧ 0 < k.width ∧ ∀ p, k.cells p → 0 ≤ k.coef p := fun k hk => by
    obtain ⟨c, hcl, rfl⟩ := List.mem_map.1 hk
    exact ⟨(hc c hcl).1, hq c hcl⟩
  obtain ⟨m0, m1, m2, X, R, a0, a1, a2, E, hin, hR, hj⟩ := wall_v2_1 (alpha := alpha) (beta := beta) hβ1 hβ2 hwi hg hrg hu hl hs hc h1 h2 hrf hB0 hU
  have wX : F.Walled [(i0, i1)] 3 (F.row F.points1) (F.jump (l.map (fun c : BcCall T => c.piece1 i0 i1 dx B0))) X := fun p hp e e0 e1 ho => by
    rcases hj p hp e e0 e1 ho with ⟨jn, j⟩ | ⟨j1, j2, j3⟩
    · exact j
    · rw [j1, j3, hz _ j2, sub_self, zero_mul]
  refine ⟨m0, m1, m2, R, a0, a1, a2, E, ?_⟩
  have e1 : (F.sum i0 i1 fun i => U [i] * R [i]) = F.form1 i0 i1 alpha beta dx (fun _ => (1 : T)) B0 X (F.cutTo [(i0, i1)] X) := by
    rw [← F.weak1 hwi.le (fun p hp => F.cutTo_out hp)]
    exact F.sum_congr fun i hi0 hi1 => by
      have hp : F.InBounds [(i0, i1)] [i] := F.inBounds1.2 ⟨i, rfl, by omega⟩
      rw [F.cutTo_in hp, hin _ hp, hR i hi0 hi1]
  rw [e1]
  refine ⟨wX.leaky.nonneg1 hwi.le he (F.jump_nonneg hps) (fun _ _ => le_refl _) (fun _ => le_refl _), fun ht h0 p hp => ?_⟩
  have ht' : F.Tied [(i0, i1)] 3 (F.row F.points1) (l.map (fun c : BcCall T => c.piece1 i0 i1 dx B0)) (fun c => alpha * (fun _ => (1 : T)) c) := by
    simpa using ht
  rw [← hin p hp]
  exact wX.leaky.zero1 hwi.le he (F.jump_nonneg hps) (fun _ _ => le_refl _) (fun _ => le_refl _) ht' (F.jump_ne hps) h0 p hp

example :=
  C93_v2_1d (T := Rat) (l := [exFill (exSeg (-1) 0 0) (exSeg (-1) 0 0) 0 4]) (i0 := 0) (i1 := 3) (dx := exDx) (alpha := 3) (beta := 2) (gcw := 2) (rgcw := 1) (u := ⟨1, 0⟩) (res := ⟨8, 0⟩) (b0 := ⟨2, 0⟩) (f0 := ⟨5, 0⟩) (U := exBump 1 5) (m := exFun (exCase1 (exBump 1 5)))
    (fun _ => revBackend_ok) (fun _ => seqBackend_ok) (by decide) (by decide) (by decide)
    (by ex_fusable) (by ex_falong) (by ex_fseparate) (by ex_solvable1 (fun _ => exRd_nonneg))
    (exFun_args (by ex_args)) (exFun_args (by ex_args)) (apart_blk (by decide)) (exFun_holds rfl rfl (exRat_ok rfl (by decide) (by decide))) (exFun_holds rfl rfl (exRat_ok rfl (by decide) (by decide)))
    (fun g hg => exBump_zero1 g hg.1) exEll_v2_1 (by ex_positive1 (fun _ => exRd_nonneg))

/-- 1D, Poisson operator: `set_poisson_bc` for segments of the boundary, the flux and the apply kernel, on a field `U` that is zero in the ghost cells that belong to no segment, give `R` with `∑ U R ≥ 0`, and `∑ U R = 0` only for `U = 0` if there is a cell with a reaction, or a face without a Neumann condition. Robin conditions with `alpha = 2 beta`, which `set_poisson_bc` takes for granted in 1D. -/
theorem C93_poisson_1d {i0 i1 gcw rgcw : Int} {beta : T} {dx : Nat → T} {f0 u res : Ptr} {β1 β2 : Nat → Backend} {l : List (BcCall T)} {m : Mem T} {U : List Int → T}
    (hβ1 : ∀ n, ValidBackend (β1 n)) (hβ2 : ∀ n, ValidBackend (β2 n)) (hwi : i0 < i1) (hg : 1 ≤ gcw) (hrg : 0 ≤ rgcw)
    (hu : ∀ c ∈ l, c.Usable 1) (hl : ∀ c ∈ l, c.Along1 i0 i1) (hs : ∀ c ∈ l, ∀ d ∈ l, Separate (fun c : BcCall T => F.onSeg1 c.lo c.hi c.face) c d) (hc : ∀ c ∈ l, c.Solvable (c.piece1 i0 i1 dx (fun _ => (1 : T)))) (hrb : ∀ c ∈ l, c.btype = 4 → c.alpha = 2 * c.beta)
    (h1 : F.Args m [] [(F.cell1d u i0 i1 gcw)]) (h2 : F.Args m [(F.cell1d u i0 i1 gcw)] [(F.face1d f0 i0 i1 0), (F.cell1d res i0 i1 rgcw)])
    (hrf : F.Apart (F.cell1d res i0 i1 rgcw) (F.face1d f0 i0 i1 0))
    (hU : F.Holds m (F.cell1d u i0 i1 gcw) U)
    (hz : ∀ g, Uncovered (fun c : BcCall T => F.onSeg1 c.lo c.hi c.face) l [(i0, i1)] 3 (F.row F.points1) g → U g = 0) (he : F.Elliptic1 i0 i1 0 beta dx (fun _ => 1) (fun _ => 1)) (hq : ∀ c ∈ l, BcCall.Positive (c.piece1 i0 i1 dx (fun _ => (1 : T)))) :
    ∃ m0 m1 m2, ∃ R : List Int → T, inOrder (fun c : BcCall T => Cuda.setPoissonBc1d i0 i1 dx gcw u c.lo c.hi c.order c.face c.btype c.alpha c.beta c.sched) l m = .ok m0 ∧ Cuda.poissonFlux1d i0 i1 dx gcw u f0 β1 m0 = .ok m1 ∧ Cuda.poissonV2Apply1d i0 i1 beta dx f0 rgcw res β2 m1 = .ok m2 ∧
      (∀ p, F.InBounds [(i0, i1)] p → F.El m2 (F.cell1d res i0 i1 rgcw) p (R p)) ∧
      0 ≤ (F.sum i0 i1 fun i => U [i] * R [i]) ∧ (F.Tied [(i0, i1)] 3 (F.row F.points1) (l.map (fun c : BcCall T => c.piece1 i0 i1 dx (fun _ => (1 : T)))) (fun _ => 0) → (F.sum i0 i1 fun i => U [i] * R [i]) ≤ 0 → ∀ p, F.InBounds [(i0, i1)] p → U p = 0) := by
  have hps : ∀ k ∈ l.map (fun c : BcCall T => c.piece1 i0 i1 dx (fun _ => (1 : T))), F.First k.btype k.order ∧ 0 < k.width ∧ ∀ p, k.cells p → 0 ≤ k.coef p := fun k hk => by
    obtain ⟨c, hcl, rfl⟩ := List.mem_map.1 hk
    exact ⟨(hc c hcl).1, hq c hcl⟩
  obtain ⟨m0, m1, m2, X, R, a0, a1, a2, E, hin, hR, hj⟩ := wall_p_1 (beta := beta) hβ1 hβ2 hwi hg hrg hu hl hs hc hrb h1 h2 hrf hU
  have wX : F.Walled [(i0, i1)] 3 (F.row F.points1) (F.jump (l.map (fun c : BcCall T => c.piece1 i0 i1 dx (fun _ => (1 : T))))) X := fun p hp e e0 e1 ho => by
    rcases hj p hp e e0 e1 ho with ⟨jn, j⟩ | ⟨j1, j2, j3⟩
    · exact j
    · rw [j1, j3, hz _ j2, sub_self, zero_mul]
  refine ⟨m0, m1, m2, R, a0, a1, a2, E, ?_⟩
  have e1 : (F.sum i0 i1 fun i => U [i] * R [i]) = F.form1 i0 i1 0 beta dx (fun _ => (1 : T)) (fun _ => (1 : T)) X (F.cutTo [(i0, i1)] X) := by
    rw [← F.weak1 hwi.le (fun p hp => F.cutTo_out hp)]
    exact F.sum_congr fun i hi0 hi1 => by
      have hp : F.InBounds [(i0, i1)] [i] := F.inBounds1.2 ⟨i, rfl, by omega⟩
      rw [F.cutTo_in hp, hin _ hp, hR i hi0 hi1]
  rw [e1]
  refine ⟨wX.leaky.nonneg1 hwi.le he (F.jump_nonneg hps) (fun _ _ => le_refl _) (fun _ => le_refl _), fun ht h0 p hp => ?_⟩
  have ht' : F.Tied [(i0, i1)] 3 (F.row F.points1) (l.map (fun c : BcCall T => c.piece1 i0 i1 dx (fun _ => (1 : T)))) (fun c => 0 * (fun _ => (1 : T)) c) := by
    simpa using ht
  rw [← hin p hp]
  exact wX.leaky.zero1 hwi.le he (F.jump_nonneg hps) (fun _ _ => le_refl _) (fun _ => le_refl _) ht' (F.jump_ne hps) h0 p hp

example :=
  C93_poisson_1d (T := Rat) (l := [exFill (exSeg (-1) 0 0) (exSeg (-1) 0 0) 0 4]) (i0 := 0) (i1 := 3) (dx := exDx) (beta := 2) (gcw := 2) (rgcw := 1) (u := ⟨1, 0⟩) (res := ⟨8, 0⟩) (f0 := ⟨5, 0⟩) (U := exBump 1 5) (m := exFun (exCase1 (exBump 1 5)))
    (fun _ => revBackend_ok) (fun _ => seqBackend_ok) (by decide) (by decide) (by decide)
    (by ex_fusable) (by ex_falong) (by ex_fseparate) (by ex_solvable1 (fun p => exOne p)) (by norm_num [exFill])
    (exFun_args (by ex_args)) (exFun_args (by ex_args)) (apart_blk (by decide)) (exFun_holds rfl rfl (exRat_ok rfl (by decide) (by decide)))
    (fun g hg => exBump_zero1 g hg.1) exEll_p_1 (by ex_positive1 (fun p => exOne p))

/-- 2D, diffusion operator with cell coefficients: `set_bc` for segments of the boundary, the flux and the apply kernel, on a field `U` that is zero in the ghost cells that belong to no segment, give `R` with `∑ U R ≥ 0`, and `∑ U R = 0` only for `U = 0` if there is a cell with a reaction, or a face without a Neumann condition. -/
theorem C93_v1_2d {i0 j0 i1 j1 agcw gcw rgcw : Int} {alpha beta : T} {dx : Nat → T} {a b0 b1 f0 f1 u res : Ptr} {β1 β2 : Nat → Backend} {l : List (BcCall T)} {m : Mem T} {A B0 B1 U : List Int → T}
    (hβ1 : ∀ n, ValidBackend (β1 n)) (hβ2 : ∀ n, ValidBackend (β2 n)) (hwi : i0 < i1) (hwj : j0 < j1) (hag : 0 ≤ agcw) (hg : 1 ≤ gcw) (hrg : 0 ≤ rgcw)
    (hu : ∀ c ∈ l, c.Usable 2) (hl : ∀ c ∈ l, c.Along2 1 i0 j0 i1 j1) (hs : ∀ c ∈ l, ∀ d ∈ l, Separate (fun c : BcCall T => F.onSeg2 c.lo c.hi 1 c.face) c d) (hc : ∀ c ∈ l, c.Solvable (c.piece2 i0 j0 i1 j1 dx B0 B1))
    (h1 : F.Args m [(F.cell2d a i0 j0 i1 j1 agcw), (F.face2d0 b0 i0 j0 i1 j1 0), (F.face2d1 b1 i0 j0 i1 j1 0)] [(F.cell2d u i0 j0 i1 j1 gcw)]) (h2 : F.Args m [(F.cell2d a i0 j0 i1 j1 agcw), (F.cell2d u i0 j0 i1 j1 gcw), (F.face2d0 b0 i0 j0 i1 j1 0), (F.face2d1 b1 i0 j0 i1 j1 0)] [(F.face2d0 f0 i0 j0 i1 j1 0), (F.face2d1 f1 i0 j0 i1 j1 0), (F.cell2d res i0 j0 i1 j1 rgcw)])
    (hpf : F.Apart (F.face2d0 f0 i0 j0 i1 j1 0) (F.face2d1 f1 i0 j0 i1 j1 0)) (hrf : F.Apart (F.cell2d res i0 j0 i1 j1 rgcw) (F.face2d0 f0 i0 j0 i1 j1 0) ∧ F.Apart (F.cell2d res i0 j0 i1 j1 rgcw) (F.face2d1 f1 i0 j0 i1 j1 0))
    (hA : F.Holds m (F.cell2d a i0 j0 i1 j1 agcw) A) (hB0 : F.Holds m (F.face2d0 b0 i0 j0 i1 j1 0) B0) (hB1 : F.Holds m (F.face2d1 b1 i0 j0 i1 j1 0) B1) (hU : F.Holds m (F.cell2d u i0 j0 i1 j1 gcw) U)
    (hz : ∀ g, Uncovered (fun c : BcCall T => F.onSeg2 c.lo c.hi 1 c.face) l [(i0, i1), (j0, j1)] 5 (F.row F.points2) g → U g = 0) (he : F.Elliptic2 i0 j0 i1 j1 alpha beta dx A B0 B1) (hq : ∀ c ∈ l, BcCall.Positive (c.piece2 i0 j0 i1 j1 dx B0 B1)) :
    ∃ m0 m1 m2, ∃ R : List Int → T, inOrder (fun c : BcCall T => Cuda.setBc2d i0 i1 j0 j1 dx 0 b0 b1 gcw u c.lo c.hi c.order c.face 1 c.btype c.alpha c.beta c.sched) l m = .ok m0 ∧ Cuda.flux2d i0 j0 i1 j1 dx b0 b1 gcw u f0 f1 β1 m0 = .ok m1 ∧ Cuda.diffusionV1Apply2d i0 i1 j0 j1 alpha beta dx agcw a gcw u f0 f1 rgcw res β2 m1 = .ok m2 ∧
      (∀ p, F.InBounds [(i0, i1), (j0, j1)] p → F.El m2 (F.cell2d res i0 j0 i1 j1 rgcw) p (R p)) ∧
      0 ≤ (F.sum i0 i1 fun i => F.sum j0 j1 fun j => U [i, j] * R [i, j]) ∧ (F.Tied [(i0, i1), (j0, j1)] 5 (F.row F.points2) (l.map (fun c : BcCall T => c.piece2 i0 j0 i1 j1 dx B0 B1)) (fun c => alpha * A c) → (F.sum i0 i1 fun i => F.sum j0 j1 fun j => U [i, j] * R [i, j]) ≤ 0 → ∀ p, F.InBounds [(i0, i1), (j0, j1)] p → U p = 0) := by
  have hps : ∀ k ∈ l.map (fun c : BcCall T => c.piece2 i0 j0 i1 j1 dx B0 B1), F.First k.btype k.order ∧ 0 < k.width ∧ ∀ p, k.cells p → 0 ≤ k.coef p := fun k hk => by
    obtain ⟨c, hcl, rfl⟩ := List.mem_map.1 hk
    exact ⟨(hc c hcl).1, hq c hcl⟩
  obtain ⟨m0, m1, m2, X, R, a0, a1, a2, E, hin, hR, hj⟩ := wall_v1_2 (alpha := alpha) (beta := beta) hβ1 hβ2 hwi hwj hag hg hrg hu hl hs hc h1 h2 hpf hrf hA hB0 hB1 hU
  have wX : F.Walled [(i0, i1), (j0, j1)] 5 (F.row F.points2) (F.jump (l.map (fun c : BcCall T => c.piece2 i0 j0 i1 j1 dx B0 B1))) X := fun p hp e e0 e1 ho => by
    rcases hj p hp e e0 e1 ho with ⟨jn, j⟩ | ⟨j1, j2, j3⟩
    · exact j
    · rw [j1, j3, hz _ j2, sub_self, zero_mul]
  refine ⟨m0, m1, m2, R, a0, a1, a2, E, ?_⟩
  have e1 : (F.sum i0 i1 fun i => F.sum j0 j1 fun j => U [i, j] * R [i, j]) = F.form2 i0 j0 i1 j1 alpha beta dx A B0 B1 X (F.cutTo [(i0, i1), (j0, j1)] X) := by
    rw [← F.weak2 hwi.le hwj.le (fun p hp => F.cutTo_out hp)]
    exact F.sum_congr fun i hi0 hi1 => F.sum_congr fun j hj0 hj1 => by
      have hp : F.InBounds [(i0, i1), (j0, j1)] [i, j] := F.inBounds2.2 ⟨i, j, rfl, by omega⟩
      rw [F.cutTo_in hp, hin _ hp, hR i j hi0 hi1 hj0 hj1]
  rw [e1]
  refine ⟨wX.leaky.nonneg2 hwi.le hwj.le he (F.jump_nonneg hps) (fun _ _ => le_refl _) (fun _ => le_refl _), fun ht h0 p hp => ?_⟩
  have ht' : F.Tied [(i0, i1), (j0, j1)] 5 (F.row F.points2) (l.map (fun c : BcCall T => c.piece2 i0 j0 i1 j1 dx B0 B1)) (fun c => alpha * A c) := by
    simpa using ht
  rw [← hin p hp]
  exact wX.leaky.zero2 hwi.le hwj.le he (F.jump_nonneg hps) (fun _ _ => le_refl _) (fun _ => le_refl _) ht' (F.jump_ne hps) h0 p hp

example :=
  C93_v1_2d (T := Rat) (l := [exFill (exSeg (-1) 1 0) (exSeg (-1) 2 0) 0 4, exFill (exSeg 0 4 0) (exSeg 2 4 0) 3 1, exFill (exSeg 0 0 0) (exSeg 1 0 0) 2 0]) (i0 := 0) (i1 := 2) (j0 := 1) (j1 := 3) (dx := exDx) (alpha := 3) (beta := 2) (gcw := 2) (rgcw := 1) (u := ⟨1, 0⟩) (res := ⟨8, 0⟩) (a := ⟨0, 0⟩) (agcw := 1) (b0 := ⟨2, 0⟩) (f0 := ⟨5, 0⟩) (b1 := ⟨3, 0⟩) (f1 := ⟨6, 0⟩) (U := exBump 2 5) (m := exFun (exCase2 (exBump 2 5)))
    (fun _ => revBackend_ok) (fun _ => seqBackend_ok) (by decide) (by decide) (by decide) (by decide) (by decide)
    (by ex_fusable) (by ex_falong) (by ex_fseparate) (by ex_solvable2 (fun _ => exRd_nonneg))
    (exFun_args (by ex_args)) (exFun_args (by ex_args)) (apart_blk (by decide)) ⟨apart_blk (by decide), apart_blk (by decide)⟩ (exFun_holds rfl rfl (exRat_ok rfl (by decide) (by decide))) (exFun_holds rfl rfl (exRat_ok rfl (by decide) (by decide))) (exFun_holds rfl rfl (exRat_ok rfl (by decide) (by decide))) (exFun_holds rfl rfl (exRat_ok rfl (by decide) (by decide)))
    (fun g hg => exBump_zero2 g hg.1) exEll_v1_2 (by ex_positive2 (fun _ => exRd_nonneg))

/-- 2D, diffusion operator with constant reaction: `set_bc` for segments of the boundary, the flux and the apply kernel, on a field `U` that is zero in the ghost cells that belong to no segment, give `R` with `∑ U R ≥ 0`, and `∑ U R = 0` only for `U = 0` if there is a cell with a reaction, or a face without a Neumann condition. -/
theorem C93_v2_2d {i0 j0 i1 j1 gcw rgcw : Int} {alpha beta : T} {dx : Nat → T} {b0 b1 f0 f1 u res : Ptr} {β1 β2 : Nat → Backend} {l : List (BcCall T)} {m : Mem T} {B0 B1 U : List Int → T}
    (hβ1 : ∀ n, ValidBackend (β1 n)) (hβ2 : ∀ n, ValidBackend (β2 n)) (hwi : i0 < i1) (hwj : j0 < j1) (hg : 1 ≤ gcw) (hrg : 0 ≤ rgcw)
    (hu : ∀ c ∈ l, c.Usable 2) (hl : ∀ c ∈ l, c.Along2 1 i0 j0 i1 j1) (hs : ∀ c ∈ l, ∀ d ∈ l, Separate (fun c : BcCall T => F.onSeg2 c.lo c.hi 1 c.face) c d) (hc : ∀ c ∈ l, c.Solvable (c.piece2 i0 j0 i1 j1 dx B0 B1))
    (h1 : F.Args m [(F.face2d0 b0 i0 j0 i1 j1 0), (F.face2d1 b1 i0 j0 i1 j1 0)] [(F.cell2d u i0 j0 i1 j1 gcw)]) (h2 : F.Args m [(F.cell2d u i0 j0 i1 j1 gcw), (F.face2d0 b0 i0 j0 i1 j1 0), (F.face2d1 b1 i0 j0 i1 j1 0)] [(F.face2d0 f0 i0 j0 i1 j1 0), (F.face2d1 f1 i0 j0 i1 j1 0), (F.cell2d res i0 j0 i1 j1 rgcw)])
    (hpf : F.Apart (F.face2d0 f0 i0 j0 i1 j1 0) (F.face2d1 f1 i0 j0 i1 j1 0)) (hrf : F.Apart (F.cell2d res i0 j0 i1 j1 rgcw) (F.face2d0 f0 i0 j0 i1 j1 0) ∧ F.Apart (F.cell2d res i0 j0 i1 j1 rgcw) (F.face2d1 f1 i0 j0 i1 j1 0))
    (hB0 : F.Holds m (F.face2d0 b0 i0 j0 i1 j1 0) B0) (hB1 : F.Holds m (F.face2d1 b1 i0 j0 i1 j1 0) B1) (hU : F.Holds m (F.cell2d u i0 j0 i1 j1 gcw) U)
    (hz : ∀ g, Uncovered (fun c : BcCall T => F.onSeg2 c.lo c.hi 1 c.face) l [(i0, i1), (j0, j1)] 5 (F.row F.points2) g → U g = 0) (he : F.Elliptic2 i0 j0 i1 j1 alpha beta dx (fun _ => 1) B0 B1) (hq : ∀ c ∈ l, BcCall.Positive (c.piece2 i0 j0 i1 j1 dx B0 B1)) :
    ∃ m0 m1 m2, ∃ R : List Int → T, inOrder (fun c : BcCall T => Cuda.setBc2d i0 i1 j0 j1 dx 0 b0 b1 gcw u c.lo c.hi c.order c.face 1 c.btype c.alpha c.beta c.sched) l m = .ok m0 ∧ Cuda.flux2d i0 j0 i1 j1 dx b0 b1 gcw u f0 f1 β1 m0 = .ok m1 ∧ Cuda.diffusionV2Apply2d i0 i1 j0 j1 alpha beta dx gcw u f0 f1 rgcw res β2 m1 = .ok m2 ∧
      (∀ p, F.InBounds [(i0, i1), (j0, j1)] p → F.El m2 (F.cell2d res i0 j0 i1 j1 rgcw) p (R p)) ∧
      0 ≤ (F.sum i0 i1 fun i => F.sum j0 j1 fun j => U [i, j] * R [i, j]) ∧ (F.Tied [(i0, i1), (j0, j1)] 5 (F.row F.points2) (l.map (fun c : BcCall T => c.piece2 i0 j0 i1 j1 dx B0 B1)) (fun _ => alpha) → (F.sum i0 i1 fun i => F.sum j0 j1 fun j => U [i, j] * R [i, j]) ≤ 0 → ∀ p, F.InBounds [(i0, i1), (j0, j1)] p → U p = 0) := by
  have hps : ∀ k ∈ l.map (fun c : BcCall T => c.piece2 i0 j0 i1 j1 dx B0 B1), F.First k.btype k.order ∧ 0 < k.width ∧ ∀ p, k.cells p → 0 ≤ k.coef p := fun k hk => by
    obtain ⟨c, hcl, rfl⟩ := List.mem_map.1 hk
    exact ⟨(hc c hcl).1, hq c hcl⟩
  obtain ⟨m0, m1, m2, X, R, a0, a1, a2, E, hin, hR, hj⟩ := wall_v2_2 (alpha := alpha) (beta := beta) hβ1 hβ2 hwi hwj hg hrg hu hl hs hc h1 h2 hpf hrf hB0 hB1 hU
  have wX : F.Walled [(i0, i1), (j0, j1)] 5 (F.row F.points2) (F.jump (l.map (fun c : BcCall T => c.piece2 i0 j0 i1 j1 dx B0 B1))) X := fun p hp e e0 e1 ho => by
    rcases hj p hp e e0 e1 ho with ⟨jn, j⟩ | ⟨j1, j2, j3⟩
    · exact j
    · rw [j1, j3, hz _ j2, sub_self, zero_mul]
  refine ⟨m0, m1, m2, R, a0, a1, a2, E, ?_⟩
  have e1 : (F.sum i0 i1 fun i => F.sum j0 j1 fun j => U [i, j] * R [i, j]) = F.form2 i0 j0 i1 j1 alpha beta dx (fun _ => (1 : T)) B0 B1 X (F.cutTo [(i0, i1), (j0, j1)] X) := by
    rw [← F.weak2 hwi.le hwj.le (fun p hp => F.cutTo_out hp)]
    exact F.sum_congr fun i hi0 hi1 => F.sum_congr fun j hj0 hj1 => by
      have hp : F.InBounds [(i0, i1), (j0, j1)] [i, j] := F.inBounds2.2 ⟨i, j, rfl, by omega⟩
      rw [F.cutTo_in hp, hin _ hp, hR i j hi0 hi1 hj0 hj1]
  rw [e1]
  refine ⟨wX.leaky.nonneg2 hwi.le hwj.le he (F.jump_nonneg hps) (fun _ _ => le_refl _) (fun _ => le_refl _), fun ht h0 p hp => ?_⟩
  have ht' : F.Tied [(i0, i1), (j0, j1)] 5 (F.row F.points2) (l.map (fun c : BcCall T => c.piece2 i0 j0 i1 j1 dx B0 B1)) (fun c => alpha * (fun _ => (1 : T)) c) := by
    simpa using ht
  rw [← hin p hp]
  exact wX.leaky.zero2 hwi.le hwj.le he (F.jump_nonneg hps) (fun _ _ => le_refl _) (fun _ => le_refl _) ht' (F.jump_ne hps) h0 p hp

example :=
  C93_v2_2d (T := Rat) (l := [exFill (exSeg (-1) 1 0) (exSeg (-1) 2 0) 0 4, exFill (exSeg 0 4 0) (exSeg 2 4 0) 3 1, exFill (exSeg 0 0 0) (exSeg 1 0 0) 2 0]) (i0 := 0) (i1 := 2) (j0 := 1) (j1 := 3) (dx := exDx) (alpha := 3) (beta := 2) (gcw := 2) (rgcw := 1) (u := ⟨1, 0⟩) (res := ⟨8, 0⟩) (b0 := ⟨2, 0⟩) (f0 := ⟨5, 0⟩) (b1 := ⟨3, 0⟩) (f1 := ⟨6, 0⟩) (U := exBump 2 5) (m := exFun (exCase2 (exBump 2 5)))
    (fun _ => revBackend_ok) (fun _ => seqBackend_ok) (by decide) (by decide) (by decide) (by decide)
    (by ex_fusable) (by ex_falong) (by ex_fseparate) (by ex_solvable2 (fun _ => exRd_nonneg))
    (exFun_args (by ex_args)) (exFun_args (by ex_args)) (apart_blk (by decide)) ⟨apart_blk (by decide), apart_blk (by decide)⟩ (exFun_holds rfl rfl (exRat_ok rfl (by decide) (by decide))) (exFun_holds rfl rfl (exRat_ok rfl (by decide) (by decide))) (exFun_holds rfl rfl (exRat_ok rfl (by decide) (by decide)))
    (fun g hg => exBump_zero2 g hg.1) exEll_v2_2 (by ex_positive2 (fun _ => exRd_nonneg))

/-- 2D, Poisson operator: `set_poisson_bc` for segments of the boundary, the flux and the apply kernel, on a field `U` that is zero in the ghost cells that belong to no segment, give `R` with `∑ U R ≥ 0`, and `∑ U R = 0` only for `U = 0` if there is a cell with a reaction, or a face without a Neumann condition. Robin conditions only across the first direction: `set_poisson_bc` has none across the second in 2D. -/
theorem C93_poisson_2d_partial {i0 j0 i1 j1 gcw rgcw : Int} {beta : T} {dx : Nat → T} {f0 f1 u res : Ptr} {β1 β2 : Nat → Backend} {l : List (BcCall T)} {m : Mem T} {U : List Int → T}
    (hβ1 : ∀ n, ValidBackend (β1 n)) (hβ2 : ∀ n, ValidBackend (β2 n)) (hwi : i0 < i1) (hwj : j0 < j1) (hg : 1 ≤ gcw) (hrg : 0 ≤ rgcw)
    (hu : ∀ c ∈ l, c.Usable 2) (hl : ∀ c ∈ l, c.Along2 1 i0 j0 i1 j1) (hs : ∀ c ∈ l, ∀ d ∈ l, Separate (fun c : BcCall T => F.onSeg2 c.lo c.hi 1 c.face) c d) (hc : ∀ c ∈ l, c.Solvable (c.piece2 i0 j0 i1 j1 dx (fun _ => (1 : T)) (fun _ => (1 : T)))) (hrb : ∀ c ∈ l, c.btype = 4 → c.face < 2)
    (h1 : F.Args m [] [(F.cell2d u i0 j0 i1 j1 gcw)]) (h2 : F.Args m [(F.cell2d u i0 j0 i1 j1 gcw)] [(F.face2d0 f0 i0 j0 i1 j1 0), (F.face2d1 f1 i0 j0 i1 j1 0), (F.cell2d res i0 j0 i1 j1 rgcw)])
    (hpf : F.Apart (F.face2d0 f0 i0 j0 i1 j1 0) (F.face2d1 f1 i0 j0 i1 j1 0)) (hrf : F.Apart (F.cell2d res i0 j0 i1 j1 rgcw) (F.face2d0 f0 i0 j0 i1 j1 0) ∧ F.Apart (F.cell2d res i0 j0 i1 j1 rgcw) (F.face2d1 f1 i0 j0 i1 j1 0))
    (hU : F.Holds m (F.cell2d u i0 j0 i1 j1 gcw) U)
    (hz : ∀ g, Uncovered (fun c : BcCall T => F.onSeg2 c.lo c.hi 1 c.face) l [(i0, i1), (j0, j1)] 5 (F.row F.points2) g → U g = 0) (he : F.Elliptic2 i0 j0 i1 j1 0 beta dx (fun _ => 1) (fun _ => 1) (fun _ => 1)) (hq : ∀ c ∈ l, BcCall.Positive (c.piece2 i0 j0 i1 j1 dx (fun _ => (1 : T)) (fun _ => (1 : T)))) :
    ∃ m0 m1 m2, ∃ R : List Int → T, inOrder (fun c : BcCall T => Cuda.setPoissonBc2d i0 i1 j0 j1 dx gcw u c.lo c.hi c.order c.face 1 c.btype c.alpha c.beta c.sched) l m = .ok m0 ∧ Cuda.poissonFlux2d i0 j0 i1 j1 dx gcw u f0 f1 β1 m0 = .ok m1 ∧ Cuda.poissonV2Apply2d i0 i1 j0 j1 beta dx f0 f1 rgcw res β2 m1 = .ok m2 ∧
      (∀ p, F.InBounds [(i0, i1), (j0, j1)] p → F.El m2 (F.cell2d res i0 j0 i1 j1 rgcw) p (R p)) ∧
      0 ≤ (F.sum i0 i1 fun i => F.sum j0 j1 fun j => U [i, j] * R [i, j]) ∧ (F.Tied [(i0, i1), (j0, j1)] 5 (F.row F.points2) (l.map (fun c : BcCall T => c.piece2 i0 j0 i1 j1 dx (fun _ => (1 : T)) (fun _ => (1 : T)))) (fun _ => 0) → (F.sum i0 i1 fun i => F.sum j0 j1 fun j => U [i, j] * R [i, j]) ≤ 0 → ∀ p, F.InBounds [(i0, i1), (j0, j1)] p → U p = 0) := by
  have hps : ∀ k ∈ l.map (fun c : BcCall T => c.piece2 i0 j0 i1 j1 dx (fun _ => (1 : T)) (fun _ => (1 : T))), F.First k.btype k.order ∧ 0 < k.width ∧ ∀ p, k.cells p → 0 ≤ k.coef p := fun k hk => by
    obtain ⟨c, hcl, rfl⟩ := List.mem_map.1 hk
    exact ⟨(hc c hcl).1, hq c hcl⟩
  obtain ⟨m0, m1, m2, X, R, a0, a1, a2, E, hin, hR, hj⟩ := wall_p_2 (beta := beta) hβ1 hβ2 hwi hwj hg hrg hu hl hs hc hrb h1 h2 hpf hrf hU
  have wX : F.Walled [(i0, i1), (j0, j1)] 5 (F.row F.points2) (F.jump (l.map (fun c : BcCall T => c.piece2 i0 j0 i1 j1 dx (fun _ => (1 : T)) (fun _ => (1 : T))))) X := fun p hp e e0 e1 ho => by
    rcases hj p hp e e0 e1 ho with ⟨jn, j⟩ | ⟨j1, j2, j3⟩
    · exact j
    · rw [j1, j3, hz _ j2, sub_self, zero_mul]
  refine ⟨m0, m1, m2, R, a0, a1, a2, E, ?_⟩
  have e1 : (F.sum i0 i1 fun i => F.sum j0 j1 fun j => U [i, j] * R [i, j]) = F.form2 i0 j0 i1 j1 0 beta dx (fun _ => (1 : T)) (fun _ => (1 : T)) (fun _ => (1 : T)) X (F.cutTo [(i0, i1), (j0, j1)] X) := by
    rw [← F.weak2 hwi.le hwj.le (fun p hp => F.cutTo_out hp)]
    exact F.sum_congr fun i hi0 hi1 => F.sum_congr fun j hj0 hj1 => by
      have hp : F.InBounds [(i0, i1), (j0, j1)] [i, j] := F.inBounds2.2 ⟨i, j, rfl, by omega⟩
      rw [F.cutTo_in hp, hin _ hp, hR i j hi0 hi1 hj0 hj1]
  rw [e1]
  refine ⟨wX.leaky.nonneg2 hwi.le hwj.le he (F.jump_nonneg hps) (fun _ _ => le_refl _) (fun _ => le_refl _), fun ht h0 p hp => ?_⟩
  have ht' : F.Tied [(i0, i1), (j0, j1)] 5 (F.row F.points2) (l.map (fun c : BcCall T => c.piece2 i0 j0 i1 j1 dx (fun _ => (1 : T)) (fun _ => (1 : T)))) (fun c => 0 * (fun _ => (1 : T)) c) := by
    simpa using ht
  rw [← hin p hp]
  exact wX.leaky.zero2 hwi.le hwj.le he (F.jump_nonneg hps) (fun _ _ => le_refl _) (fun _ => le_refl _) ht' (F.jump_ne hps) h0 p hp

example :=
  C93_poisson_2d_partial (T := Rat) (l := [exFill (exSeg (-1) 1 0) (exSeg (-1) 2 0) 0 4, exFill (exSeg 0 4 0) (exSeg 2 4 0) 3 1, exFill (exSeg 0 0 0) (exSeg 1 0 0) 2 0]) (i0 := 0) (i1 := 2) (j0 := 1) (j1 := 3) (dx := exDx) (beta := 2) (gcw := 2) (rgcw := 1) (u := ⟨1, 0⟩) (res := ⟨8, 0⟩) (f0 := ⟨5, 0⟩) (f1 := ⟨6, 0⟩) (U := exBump 2 5) (m := exFun (exCase2 (exBump 2 5)))
    (fun _ => revBackend_ok) (fun _ => seqBackend_ok) (by decide) (by decide) (by decide) (by decide)
    (by ex_fusable) (by ex_falong) (by ex_fseparate) (by ex_solvable2 (fun p => exOne p)) (by simp [exFill])
    (exFun_args (by ex_args)) (exFun_args (by ex_args)) (apart_blk (by decide)) ⟨apart_blk (by decide), apart_blk (by decide)⟩ (exFun_holds rfl rfl (exRat_ok rfl (by decide) (by decide)))
    (fun g hg => exBump_zero2 g hg.1) exEll_p_2 (by ex_positive2 (fun p => exOne p))

/-- 1D, diffusion operator with cell coefficients: fields `U` and `V`, `U ≤ V` in the ghost cells that belong to no segment, for which `set_bc` for segments of the boundary, the flux and the apply kernel give `R ≤ S`, fulfil `U ≤ V` in the box if there is a cell with a reaction, or a face without a Neumann condition. -/
theorem C94_v1_1d {i0 i1 agcw gcw rgcw : Int} {alpha beta : T} {dx : Nat → T} {a b0 f0 u res : Ptr} {β1 β2 β3 β4 : Nat → Backend} {l : List (BcCall T)} {m m' : Mem T} {A B0 U V : List Int → T}
    (hβ1 : ∀ n, ValidBackend (β1 n)) (hβ2 : ∀ n, ValidBackend (β2 n)) (hβ3 : ∀ n, ValidBackend (β3 n)) (hβ4 : ∀ n, ValidBackend (β4 n)) (hwi : i0 < i1) (hag : 0 ≤ agcw) (hg : 1 ≤ gcw) (hrg : 0 ≤ rgcw)
    (hu : ∀ c ∈ l, c.Usable 1) (hl : ∀ c ∈ l, c.Along1 i0 i1) (hs : ∀ c ∈ l, ∀ d ∈ l, Separate (fun c : BcCall T => F.onSeg1 c.lo c.hi c.face) c d) (hc : ∀ c ∈ l, c.Solvable (c.piece1 i0 i1 dx B0))
    (h1 : F.Args m [(F.cell1d a i0 i1 agcw), (F.face1d b0 i0 i1 0)] [(F.cell1d u i0 i1 gcw)]) (h2 : F.Args m [(F.cell1d a i0 i1 agcw), (F.cell1d u i0 i1 gcw), (F.face1d b0 i0 i1 0)] [(F.face1d f0 i0 i1 0), (F.cell1d res i0 i1 rgcw)])
    (hrf : F.Apart (F.cell1d res i0 i1 rgcw) (F.face1d f0 i0 i1 0))
    (hA : F.Holds m (F.cell1d a i0 i1 agcw) A) (hB0 : F.Holds m (F.face1d b0 i0 i1 0) B0) (hU : F.Holds m (F.cell1d u i0 i1 gcw) U)
    (h1' : F.Args m' [(F.cell1d a i0 i1 agcw), (F.face1d b0 i0 i1 0)] [(F.cell1d u i0 i1 gcw)]) (h2' : F.Args m' [(F.cell1d a i0 i1 agcw), (F.cell1d u i0 i1 gcw), (F.face1d b0 i0 i1 0)] [(F.face1d f0 i0 i1 0), (F.cell1d res i0 i1 rgcw)])
    (hA' : F.Holds m' (F.cell1d a i0 i1 agcw) A) (hB0' : F.Holds m' (F.face1d b0 i0 i1 0) B0) (hV : F.Holds m' (F.cell1d u i0 i1 gcw) V)
    (hz : ∀ g, Uncovered (fun c : BcCall T => F.onSeg1 c.lo c.hi c.face) l [(i0, i1)] 3 (F.row F.points1) g → U g ≤ V g) (he : F.Elliptic1 i0 i1 alpha beta dx A B0) (hq : ∀ c ∈ l, BcCall.Positive (c.piece1 i0 i1 dx B0))
    (ht : F.Tied [(i0, i1)] 3 (F.row F.points1) (l.map (fun c : BcCall T => c.piece1 i0 i1 dx B0)) (fun c => alpha * A c)) :
    ∃ m0 m1 m2 m0' m1' m2', ∃ R S : List Int → T, inOrder (fun c : BcCall T => Cuda.setBc1d i0 i1 dx 0 b0 gcw u c.lo c.hi c.order c.face c.btype c.alpha c.beta c.sched) l m = .ok m0 ∧ Cuda.flux1d i0 i1 dx b0 gcw u f0 β1 m0 = .ok m1 ∧ Cuda.diffusionV1Apply1d i0 i1 alpha beta dx agcw a gcw u f0 rgcw res β2 m1 = .ok m2 ∧
      inOrder (fun c : BcCall T => Cuda.setBc1d i0 i1 dx 0 b0 gcw u c.lo c.hi c.order c.face c.btype c.alpha c.beta c.sched) l m' = .ok m0' ∧ Cuda.flux1d i0 i1 dx b0 gcw u f0 β3 m0' = .ok m1' ∧ Cuda.diffusionV1Apply1d i0 i1 alpha beta dx agcw a gcw u f0 rgcw res β4 m1' = .ok m2' ∧
      (∀ p, F.InBounds [(i0, i1)] p → F.El m2 (F.cell1d res i0 i1 rgcw) p (R p)) ∧ (∀ p, F.InBounds [(i0, i1)] p → F.El m2' (F.cell1d res i0 i1 rgcw) p (S p)) ∧
      ((∀ p, F.InBounds [(i0, i1)] p → R p ≤ S p) → ∀ p, F.InBounds [(i0, i1)] p → U p ≤ V p) := by
  have hps : ∀ k ∈ l.map (fun c : BcCall T => c.piece1 i0 i1 dx B0), F.First k.btype k.order ∧ 0 < k.width ∧ ∀ p, k.cells p → 0 ≤ k.coef p := fun k hk => by
    obtain ⟨c, hcl, rfl⟩ := List.mem_map.1 hk
    exact ⟨(hc c hcl).1, hq c hcl⟩
  obtain ⟨m0, m1, m2, X, R, a0, a1, a2, E, hin, hR, hj⟩ := wall_v1_1 (alpha := alpha) (beta := beta) hβ1 hβ2 hwi hag hg hrg hu hl hs hc h1 h2 hrf hA hB0 hU
  obtain ⟨m0', m1', m2', Z, S, a0', a1', a2', E', hin', hR', hj'⟩ := wall_v1_1 (alpha := alpha) (beta := beta) hβ3 hβ4 hwi hag hg hrg hu hl hs hc h1' h2' hrf hA' hB0' hV
  refine ⟨m0, m1, m2, m0', m1', m2', R, S, a0, a1, a2, a0', a1', a2', E, E', fun hRS p hp => ?_⟩
  have lk : F.Leaky [(i0, i1)] 3 (F.row F.points1) (F.jump (l.map (fun c : BcCall T => c.piece1 i0 i1 dx B0))) (fun p => X p - Z p) (fun p => max (X p - Z p) 0) := F.leaky_max (F.jump_nonneg hps) fun p hp e e0 e1 ho => by
    rcases hj p hp e e0 e1 ho with ⟨jn, j⟩ | ⟨j1, j2, j3⟩ <;> rcases hj' p hp e e0 e1 ho with ⟨kn, k⟩ | ⟨k1, k2, k3⟩
    · left
      show X _ - Z _ = _ * (X p - Z p)
      rw [j, k]
      ring
    · exact absurd k2 jn
    · exact absurd j2 kn
    · refine Or.inr ⟨j1, ?_⟩
      show X _ - Z _ ≤ 0
      rw [j3, k3]
      have := hz _ j2
      linarith
  have h0 : F.form1 i0 i1 alpha beta dx A B0 (fun p => X p - Z p) (F.cutTo [(i0, i1)] (fun p => max (X p - Z p) 0)) ≤ 0 := by
    rw [F.form1_sub, ← F.weak1 hwi.le (fun p hp => F.cutTo_out hp), ← F.weak1 hwi.le (fun p hp => F.cutTo_out hp), sub_nonpos]
    refine F.sum_mono fun i hi0 hi1 => ?_
    have hp : F.InBounds [(i0, i1)] [i] := F.inBounds1.2 ⟨i, rfl, by omega⟩
    rw [F.cutTo_in hp, ← hR i hi0 hi1, ← hR' i hi0 hi1]
    exact mul_le_mul_of_nonneg_left (hRS _ hp) (le_max_right _ _)
  have ht' : F.Tied [(i0, i1)] 3 (F.row F.points1) (l.map (fun c : BcCall T => c.piece1 i0 i1 dx B0)) (fun c => alpha * A c) := by
    simpa using ht
  have hm := lk.zero1 hwi.le he (F.jump_nonneg hps) (fun p q => by
    have := F.max_le (X p - Z p) (X q - Z q)
    exact this) (fun p => F.max_cell _) ht' (F.jump_ne hps) h0 p hp
  have hm : max (X p - Z p) 0 = 0 := hm
  have := le_max_left (X p - Z p) 0
  rw [← hin p hp, ← hin' p hp]
  linarith

example :=
  C94_v1_1d (T := Rat) (l := [exFill (exSeg (-1) 0 0) (exSeg (-1) 0 0) 0 4]) (i0 := 0) (i1 := 3) (dx := exDx) (alpha := 3) (beta := 2) (gcw := 2) (rgcw := 1) (u := ⟨1, 0⟩) (res := ⟨8, 0⟩) (a := ⟨0, 0⟩) (agcw := 1) (b0 := ⟨2, 0⟩) (f0 := ⟨5, 0⟩) (U := exBump 1 5) (m := exFun (exCase1 (exBump 1 5))) (V := exBump 1 40) (m' := exFun (exCase1 (exBump 1 40)))
    (fun _ => revBackend_ok) (fun _ => seqBackend_ok) (fun _ => seqBackend_ok) (fun _ => revBackend_ok) (by decide) (by decide) (by decide) (by decide)
    (by ex_fusable) (by ex_falong) (by ex_fseparate) (by ex_solvable1 (fun _ => exRd_nonneg))
    (exFun_args (by ex_args)) (exFun_args (by ex_args)) (apart_blk (by decide)) (exFun_holds rfl rfl (exRat_ok rfl (by decide) (by decide))) (exFun_holds rfl rfl (exRat_ok rfl (by decide) (by decide))) (exFun_holds rfl rfl (exRat_ok rfl (by decide) (by decide)))
    (exFun_args (by ex_args)) (exFun_args (by ex_args)) (exFun_holds rfl rfl (exRat_ok rfl (by decide) (by decide))) (exFun_holds rfl rfl (exRat_ok rfl (by decide) (by decide))) (exFun_holds rfl rfl (exRat_ok rfl (by decide) (by decide)))
    (fun g hg => by rw [exBump_zero1 g hg.1, exBump_zero1 g hg.1]) exEll_v1_1 (by ex_positive1 (fun _ => exRd_nonneg)) exFree1

/-- 1D, diffusion operator with constant reaction: fields `U` and `V`, `U ≤ V` in the ghost cells that belong to no segment, for which `set_bc` for segments of the boundary, the flux and the apply kernel give `R ≤ S`, fulfil `U ≤ V` in the box if there is a cell with a reaction, or a face without a Neumann condition. -/
theorem C94_v2_1d {i0 i1 gcw rgcw : Int} {alpha beta : T} {dx : Nat → T} {b0 f0 u res : Ptr} {β1 β2 β3 β4 : Nat → Backend} {l : List (BcCall T)} {m m' : Mem T} {B0 U V : List Int → T}
    (hβ1 : ∀ n, ValidBackend (β1 n)) (hβ2 : ∀ n, ValidBackend (β2 n)) (hβ3 : ∀ n, ValidBackend (β3 n)) (hβ4 : ∀ n, ValidBackend (β4 n)) (hwi : i0 < i1) (hg : 1 ≤ gcw) (hrg : 0 ≤ rgcw)
    (hu : ∀ c ∈ l, c.Usable 1) (hl : ∀ c ∈ l, c.Along1 i0 i1) (hs : ∀ c ∈ l, ∀ d ∈ l, Separate (fun c : BcCall T => F.onSeg1 c.lo c.hi c.face) c d) (hc : ∀ c ∈ l, c.Solvable (c.piece1 i0 i1 dx B0))
    (h1 : F.Args m [(F.face1d b0 i0 i1 0)] [(F.cell1d u i0 i1 gcw)]) (h2 : F.Args m [(F.cell1d u i0 i1 gcw), (F.face1d b0 i0 i1 0)] [(F.face1d f0 i0 i1 0), (F.cell1d res i0 i1 rgcw)])
    (hrf : F.Apart (F.cell1d res i0 i1 rgcw) (F.face1d f0 i0 i1 0))
    (hB0 : F.Holds m (F.face1d b0 i0 i1 0) B0) (hU : F.Holds m (F.cell1d u i0 i1 gcw) U)
    (h1' : F.Args m' [(F.face1d b0 i0 i1 0)] [(F.cell1d u i0 i1 gcw)]) (h2' : F.Args m' [(F.cell1d u i0 i1 gcw), (F.face1d b0 i0 i1 0)] [(F.face1d f0 i0 i1 0), (F.cell1d res i0 i1 rgcw)])
    (hB0' : F.Holds m' (F.face1d b0 i0 i1 0) B0) (hV : F.Holds m' (F.cell1d u i0 i1 gcw) V)
    (hz : ∀ g, Uncovered (fun c : BcCall T => F.onSeg1 c.lo c.hi c.face) l [(i0, i1)] 3 (F.row F.points1) g → U g ≤ V g) (he : F.Elliptic1 i0 i1 alpha beta dx (fun _ => 1) B0) (hq : ∀ c ∈ l, BcCall.Positive (c.piece1 i0 i1 dx B0))
    (ht : F.Tied [(i0, i1)] 3 (F.row F.points1) (l.map (fun c : BcCall T => c.piece1 i0 i1 dx B0)) (fun _ => alpha)) :
    ∃ m0 m1 m2 m0' m1' m2', ∃ R S : List Int → T, inOrder (fun c : BcCall T => Cuda.setBc1d i0 i1 dx 0 b0 gcw u c.lo c.hi c.order c.face c.btype c.alpha c.beta c.sched) l m = .ok m0 ∧ Cuda.flux1d i0 i1 dx b0 gcw u f0 β1 m0 = .ok m1 ∧ Cuda.diffusionV2Apply1d i0 i1 alpha beta dx gcw u f0 rgcw res β2 m1 = .ok m2 ∧
      inOrder (fun c : BcCall T => Cuda.setBc1d i0 i1 dx 0 b0 gcw u c.lo c.hi c.order c.face c.btype c.alpha c.beta c.sched) l m' = .ok m0' ∧ Cuda.flux1d i0 i1 dx b0 gcw u f0 β3 m0' = .ok m1' ∧ Cuda.diffusionV2Apply1d i0 i1 alpha beta dx gcw u f0 rgcw res β4 m1' = .ok m2' ∧
      (∀ p, F.InBounds [(i0, i1)] p → F.El m2 (F.cell1d res i0 i1 rgcw) p (R p)) ∧ (∀ p, F.InBounds [(i0, i1)] p → F.El m2' (F.cell1d res i0 i1 rgcw) p (S p)) ∧
      ((∀ p, F.InBounds [(i0, i1)] p → R p ≤ S p) → ∀ p, F.InBounds [(i0, i1)] p → U p ≤ V p) := by
  have hps : ∀ k ∈ l.map (fun c : BcCall T => c.piece1 i0 i1 dx B0), F.First k.btype k.order ∧ 0 < k.width ∧ ∀ p, k.cells p → 0 ≤ k.coef p := fun k hk => by
    obtain ⟨c, hcl, rfl⟩ := List.mem_map.1 hk
    exact ⟨(hc c hcl).1, hq c hcl⟩
  obtain ⟨m0, m1, m2, X, R, a0, a1, a2, E, hin, hR, hj⟩ := wall_v2_1 (alpha := alpha) (beta := beta) hβ1 hβ2 hwi hg hrg hu hl hs hc h1 h2 hrf hB0 hU
  obtain ⟨m0', m1', m2', Z, S, a0', a1', a2', E', hin', hR', hj'⟩ := wall_v2_1 (alpha := alpha) (beta := beta) hβ3 hβ4 hwi hg hrg hu hl hs hc h1' h2' hrf hB0' hV
  refine ⟨m0, m1, m2, m0', m1', m2', R, S, a0, a1, a2, a0', a1', a2', E, E', fun hRS p hp => ?_⟩
  have lk : F.Leaky [(i0, i1)] 3 (F.row F.points1) (F.jump (l.map (fun c : BcCall T => c.piece1 i0 i1 dx B0))) (fun p => X p - Z p) (fun p => max (X p - Z p) 0) := F.leaky_max (F.jump_nonneg hps) fun p hp e e0 e1 ho => by
    rcases hj p hp e e0 e1 ho with ⟨jn, j⟩ | ⟨j1, j2, j3⟩ <;> rcases hj' p hp e e0 e1 ho with ⟨kn, k⟩ | ⟨k1, k2, k3⟩
    · left
      show X _ - Z _ = _ * (X p - Z p)
      rw [j, k]
      ring
    · exact absurd k2 jn
    · exact absurd j2 kn
    · refine Or.inr ⟨j1, ?_⟩
      show X _ - Z _ ≤ 0
      rw [j3, k3]
      have := hz _ j2
      linarith
  have h0 : F.form1 i0 i1 alpha beta dx (fun _ => (1 : T)) B0 (fun p => X p - Z p) (F.cutTo [(i0, i1)] (fun p => max (X p - Z p) 0)) ≤ 0 := by
    rw [F.form1_sub, ← F.weak1 hwi.le (fun p hp => F.cutTo_out hp), ← F.weak1 hwi.le (fun p hp => F.cutTo_out hp), sub_nonpos]
    refine F.sum_mono fun i hi0 hi1 => ?_
    have hp : F.InBounds [(i0, i1)] [i] := F.inBounds1.2 ⟨i, rfl, by omega⟩
    rw [F.cutTo_in hp, ← hR i hi0 hi1, ← hR' i hi0 hi1]
    exact mul_le_mul_of_nonneg_left (hRS _ hp) (le_max_right _ _)
  have ht' : F.Tied [(i0, i1)] 3 (F.row F.points1) (l.map (fun c : BcCall T => c.piece1 i0 i1 dx B0)) (fun c => alpha * (fun _ => (1 : T)) c) := by
    simpa using ht
  have hm := lk.zero1 hwi.le he (F.jump_nonneg hps) (fun p q => by
    have := F.max_le (X p - Z p) (X q - Z q)
    exact this) (fun p => F.max_cell _) ht' (F.jump_ne hps) h0 p hp
  have hm : max (X p - Z p) 0 = 0 := hm
  have := le_max_left (X p - Z p) 0
  rw [← hin p hp, ← hin' p hp]
  linarith

example :=
  C94_v2_1d (T := Rat) (l := [exFill (exSeg (-1) 0 0) (exSeg (-1) 0 0) 0 4]) (i0 := 0) (i1 := 3) (dx := exDx) (alpha := 3) (beta := 2) (gcw := 2) (rgcw := 1) (u := ⟨1, 0⟩) (res := ⟨8, 0⟩) (b0 := ⟨2, 0⟩) (f0 := ⟨5, 0⟩) (U := exBump 1 5) (m := exFun (exCase1 (exBump 1 5))) (V := exBump 1 40) (m' := exFun (exCase1 (exBump 1 40)))
    (fun _ => revBackend_ok) (fun _ => seqBackend_ok) (fun _ => seqBackend_ok) (fun _ => revBackend_ok) (by decide) (by decide) (by decide)
    (by ex_fusable) (by ex_falong) (by ex_fseparate) (by ex_solvable1 (fun _ => exRd_nonneg))
    (exFun_args (by ex_args)) (exFun_args (by ex_args)) (apart_blk (by decide)) (exFun_holds rfl rfl (exRat_ok rfl (by decide) (by decide))) (exFun_holds rfl rfl (exRat_ok rfl (by decide) (by decide)))
    (exFun_args (by ex_args)) (exFun_args (by ex_args)) (exFun_holds rfl rfl (exRat_ok rfl (by decide) (by decide))) (exFun_holds rfl rfl (exRat_ok rfl (by decide) (by decide)))
    (fun g hg => by rw [exBump_zero1 g hg.1, exBump_zero1 g hg.1]) exEll_v2_1 (by ex_positive1 (fun _ => exRd_nonneg)) exFree1

/-- 1D, Poisson operator: fields `U` and `V`, `U ≤ V` in the ghost cells that belong to no segment, for which `set_poisson_bc` for segments of the boundary, the flux and the apply kernel give `R ≤ S`, fulfil `U ≤ V` in the box if there is a cell with a reaction, or a face without a Neumann condition. Robin conditions with `alpha = 2 beta`, which `set_poisson_bc` takes for granted in 1D. -/
theorem C94_poisson_1d {i0 i1 gcw rgcw : Int} {beta : T} {dx : Nat → T} {f0 u res : Ptr} {β1 β2 β3 β4 : Nat → Backend} {l : List (BcCall T)} {m m' : Mem T} {U V : List Int → T}
    (hβ1 : ∀ n, ValidBackend (β1 n)) (hβ2 : ∀ n, ValidBackend (β2 n)) (hβ3 : ∀ n, ValidBackend (β3 n)) (hβ4 : ∀ n, ValidBackend (β4 n)) (hwi : i0 < i1) (hg : 1 ≤ gcw) (hrg : 0 ≤ rgcw)
    (hu : ∀ c ∈ l, c.Usable 1) (hl : ∀ c ∈ l, c.Along1 i0 i1) (hs : ∀ c ∈ l, ∀ d ∈ l, Separate (fun c : BcCall T => F.onSeg1 c.lo c.hi c.face) c d) (hc : ∀ c ∈ l, c.Solvable (c.piece1 i0 i1 dx (fun _ => (1 : T)))) (hrb : ∀ c ∈ l, c.btype = 4 → c.alpha = 2 * c.beta)
    (h1 : F.Args m [] [(F.cell1d u i0 i1 gcw)]) (h2 : F.Args m [(F.cell1d u i0 i1 gcw)] [(F.face1d f0 i0 i1 0), (F.cell1d res i0 i1 rgcw)])
    (hrf : F.Apart (F.cell1d res i0 i1 rgcw) (F.face1d f0 i0 i1 0))
    (hU : F.Holds m (F.cell1d u i0 i1 gcw) U)
    (h1' : F.Args m' [] [(F.cell1d u i0 i1 gcw)]) (h2' : F.Args m' [(F.cell1d u i0 i1 gcw)] [(F.face1d f0 i0 i1 0), (F.cell1d res i0 i1 rgcw)])
    (hV : F.Holds m' (F.cell1d u i0 i1 gcw) V)
    (hz : ∀ g, Uncovered (fun c : BcCall T => F.onSeg1 c.lo c.hi c.face) l [(i0, i1)] 3 (F.row F.points1) g → U g ≤ V g) (he : F.Elliptic1 i0 i1 0 beta dx (fun _ => 1) (fun _ => 1)) (hq : ∀ c ∈ l, BcCall.Positive (c.piece1 i0 i1 dx (fun _ => (1 : T))))
    (ht : F.Tied [(i0, i1)] 3 (F.row F.points1) (l.map (fun c : BcCall T => c.piece1 i0 i1 dx (fun _ => (1 : T)))) (fun _ => 0)) :
    ∃ m0 m1 m2 m0' m1' m2', ∃ R S : List Int → T, inOrder (fun c : BcCall T => Cuda.setPoissonBc1d i0 i1 dx gcw u c.lo c.hi c.order c.face c.btype c.alpha c.beta c.sched) l m = .ok m0 ∧ Cuda.poissonFlux1d i0 i1 dx gcw u f0 β1 m0 = .ok m1 ∧ Cuda.poissonV2Apply1d i0 i1 beta dx f0 rgcw res β2 m1 = .ok m2 ∧
      inOrder (fun c : BcCall T => Cuda.setPoissonBc1d i0 i1 dx gcw u c.lo c.hi c.order c.face c.btype c.alpha c.beta c.sched) l m' = .ok m0' ∧ Cuda.poissonFlux1d i0 i1 dx gcw u f0 β3 m0' = .ok m1' ∧ Cuda.poissonV2Apply1d i0 i1 beta dx f0 rgcw res β4 m1' = .ok m2' ∧
      (∀ p, F.InBounds [(i0, i1)] p → F.El m2 (F.cell1d res i0 i1 rgcw) p (R p)) ∧ (∀ p, F.InBounds [(i0, i1)] p → F.El m2' (F.cell1d res i0 i1 rgcw) p (S p)) ∧
      ((∀ p, F.InBounds [(i0, i1)] p → R p ≤ S p) → ∀ p, F.InBounds [(i0, i1)] p → U p ≤ V p) := by
  have hps : ∀ k ∈ l.map (fun c : BcCall T => c.piece1 i0 i1 dx (fun _ => (1 : T))), F.First k.btype k.order ∧ 0 < k.width ∧ ∀ p, k.cells p → 0 ≤ k.coef p := fun k hk => by
    obtain ⟨c, hcl, rfl⟩ := List.mem_map.1 hk
    exact ⟨(hc c hcl).1, hq c hcl⟩
  obtain ⟨m0, m1, m2, X, R, a0, a1, a2, E, hin, hR, hj⟩ := wall_p_1 (beta := beta) hβ1 hβ2 hwi hg hrg hu hl hs hc hrb h1 h2 hrf hU
  obtain ⟨m0', m1', m2', Z, S, a0', a1', a2', E', hin', hR', hj'⟩ := wall_p_1 (beta := beta) hβ3 hβ4 hwi hg hrg hu hl hs hc hrb h1' h2' hrf hV
  refine ⟨m0, m1, m2, m0', m1', m2', R, S, a0, a1, a2, a0', a1', a2', E, E', fun hRS p hp => ?_⟩
  have lk : F.Leaky [(i0, i1)] 3 (F.row F.points1) (F.jump (l.map (fun c : BcCall T => c.piece1 i0 i1 dx (fun _ => (1 : T))))) (fun p => X p - Z p) (fun p => max (X p - Z p) 0) := F.leaky_max (F.jump_nonneg hps) fun p hp e e0 e1 ho => by
    rcases hj p hp e e0 e1 ho with ⟨jn, j⟩ | ⟨j1, j2, j3⟩ <;> rcases hj' p hp e e0 e1 ho with ⟨kn, k⟩ | ⟨k1, k2, k3⟩
    · left
      show X _ - Z _ = _ * (X p - Z p)
      rw [j, k]
      ring
    · exact absurd k2 jn
    · exact absurd j2 kn
    · refine Or.inr ⟨j1, ?_⟩
      show X _ - Z _ ≤ 0
      rw [j3, k3]
      have := hz _ j2
      linarith
  have h0 : F.form1 i0 i1 0 beta dx (fun _ => (1 : T)) (fun _ => (1 : T)) (fun p => X p - Z p) (F.cutTo [(i0, i1)] (fun p => max (X p - Z p) 0)) ≤ 0 := by
    rw [F.form1_sub, ← F.weak1 hwi.le (fun p hp => F.cutTo_out hp), ← F.weak1 hwi.le (fun p hp => F.cutTo_out hp), sub_nonpos]
    refine F.sum_mono fun i hi0 hi1 => ?_
    have hp : F.InBounds [(i0, i1)] [i] := F.inBounds1.2 ⟨i, rfl, by omega⟩
    rw [F.cutTo_in hp, ← hR i hi0 hi1, ← hR' i hi0 hi1]
    exact mul_le_mul_of_nonneg_left (hRS _ hp) (le_max_right _ _)
  have ht' : F.Tied [(i0, i1)] 3 (F.row F.points1) (l.map (fun c : BcCall T => c.piece1 i0 i1 dx (fun _ => (1 : T)))) (fun c => 0 * (fun _ => (1 : T)) c) := by
    simpa using ht
  have hm := lk.zero1 hwi.le he (F.jump_nonneg hps) (fun p q => by
    have := F.max_le (X p - Z p) (X q - Z q)
    exact this) (fun p => F.max_cell _) ht' (F.jump_ne hps) h0 p hp
  have hm : max (X p - Z p) 0 = 0 := hm
  have := le_max_left (X p - Z p) 0
  rw [← hin p hp, ← hin' p hp]
  linarith

example :=
  C94_poisson_1d (T := Rat) (l := [exFill (exSeg (-1) 0 0) (exSeg (-1) 0 0) 0 4]) (i0 := 0) (i1 := 3) (dx := exDx) (beta := 2) (gcw := 2) (rgcw := 1) (u := ⟨1, 0⟩) (res := ⟨8, 0⟩) (f0 := ⟨5, 0⟩) (U := exBump 1 5) (m := exFun (exCase1 (exBump 1 5))) (V := exBump 1 40) (m' := exFun (exCase1 (exBump 1 40)))
    (fun _ => revBackend_ok) (fun _ => seqBackend_ok) (fun _ => seqBackend_ok) (fun _ => revBackend_ok) (by decide) (by decide) (by decide)
    (by ex_fusable) (by ex_falong) (by ex_fseparate) (by ex_solvable1 (fun p => exOne p)) (by norm_num [exFill])
    (exFun_args (by ex_args)) (exFun_args (by ex_args)) (apart_blk (by decide)) (exFun_holds rfl rfl (exRat_ok rfl (by decide) (by decide)))
    (exFun_args (by ex_args)) (exFun_args (by ex_args)) (exFun_holds rfl rfl (exRat_ok rfl (by decide) (by decide)))
    (fun g hg => by rw [exBump_zero1 g hg.1, exBump_zero1 g hg.1]) exEll_p_1 (by ex_positive1 (fun p => exOne p)) exFree1

/-- 2D, diffusion operator with cell coefficients: fields `U` and `V`, `U ≤ V` in the ghost cells that belong to no segment, for which `set_bc` for segments of the boundary, the flux and the apply kernel give `R ≤ S`, fulfil `U ≤ V` in the box if there is a cell with a reaction, or a face without a Neumann condition. -/
theorem C94_v1_2d {i0 j0 i1 j1 agcw gcw rgcw : Int} {alpha beta : T} {dx : Nat → T} {a b0 b1 f0 f1 u res : Ptr} {β1 β2 β3 β4 : Nat → Backend} {l : List (BcCall T)} {m m' : Mem T} {A B0 B1 U V : List Int → T}
    (hβ1 : ∀ n, ValidBackend (β1 n)) (hβ2 : ∀ n, ValidBackend (β2 n)) (hβ3 : ∀ n, ValidBackend (β3 n)) (hβ4 : ∀ n, ValidBackend (β4 n)) (hwi : i0 < i1) (hwj : j0 < j1) (hag : 0 ≤ agcw) (hg : 1 ≤ gcw) (hrg : 0 ≤ rgcw)
    (hu : ∀ c ∈ l, c.Usable 2) (hl : ∀ c ∈ l, c.Along2 1 i0 j0 i1 j1) (hs : ∀ c ∈ l, ∀ d ∈ l, Separate (fun c : BcCall T => F.onSeg2 c.lo c.hi 1 c.face) c d) (hc : ∀ c ∈ l, c.Solvable (c.piece2 i0 j0 i1 j1 dx B0 B1))
    (h1 : F.Args m [(F.cell2d a i0 j0 i1 j1 agcw), (F.face2d0 b0 i0 j0 i1 j1 0), (F.face2d1 b1 i0 j0 i1 j1 0)] [(F.cell2d u i0 j0 i1 j1 gcw)]) (h2 : F.Args m [(F.cell2d a i0 j0 i1 j1 agcw), (F.cell2d u i0 j0 i1 j1 gcw), (F.face2d0 b0 i0 j0 i1 j1 0), (F.face2d1 b1 i0 j0 i1 j1 0)] [(F.face2d0 f0 i0 j0 i1 j1 0), (F.face2d1 f1 i0 j0 i1 j1 0), (F.cell2d res i0 j0 i1 j1 rgcw)])
    (hpf : F.Apart (F.face2d0 f0 i0 j0 i1 j1 0) (F.face2d1 f1 i0 j0 i1 j1 0)) (hrf : F.Apart (F.cell2d res i0 j0 i1 j1 rgcw) (F.face2d0 f0 i0 j0 i1 j1 0) ∧ F.Apart (F.cell2d res i0 j0 i1 j1 rgcw) (F.face2d1 f1 i0 j0 i1 j1 0))
    (hA : F.Holds m (F.cell2d a i0 j0 i1 j1 agcw) A) (hB0 : F.Holds m (F.face2d0 b0 i0 j0 i1 j1 0) B0) (hB1 : F.Holds m (F.face2d1 b1 i0 j0 i1 j1 0) B1) (hU : F.Holds m (F.cell2d u i0 j0 i1 j1 gcw) U)
    (h1' : F.Args m' [(F.cell2d a i0 j0 i1 j1 agcw), (F.face2d0 b0 i0 j0 i1 j1 0), (F.face2d1 b1 i0 j0 i1 j1 0)] [(F.cell2d u i0 j0 i1 j1 gcw)]) (h2' : F.Args m' [(F.cell2d a i0 j0 i1 j1 agcw), (F.cell2d u i0 j0 i1 j1 gcw), (F.face2d0 b0 i0 j0 i1 j1 0), (F.face2d1 b1 i0 j0 i1 j1 0)] [(F.face2d0 f0 i0 j0 i1 j1 0), (F.face2d1 f1 i0 j0 i1 j1 0), (F.cell2d res i0 j0 i1 j1 rgcw)])
    (hA' : F.Holds m' (F.cell2d a i0 j0 i1 j1 agcw) A) (hB0' : F.Holds m' (F.face2d0 b0 i0 j0 i1 j1 0) B0) (hB1' : F.Holds m' (F.face2d1 b1 i0 j0 i1 j1 0) B1) (hV : F.Holds m' (F.cell2d u i0 j0 i1 j1 gcw) V)
    (hz : ∀ g, Uncovered (fun c : BcCall T => F.onSeg2 c.lo c.hi 1 c.face) l [(i0, i1), (j0, j1)] 5 (F.row F.points2) g → U g ≤ V g) (he : F.Elliptic2 i0 j0 i1 j1 alpha beta dx A B0 B1) (hq : ∀ c ∈ l, BcCall.Positive (c.piece2 i0 j0 i1 j1 dx B0 B1))
    (ht : F.Tied [(i0, i1), (j0, j1)] 5 (F.row F.points2) (l.map (fun c : BcCall T => c.piece2 i0 j0 i1 j1 dx B0 B1)) (fun c => alpha * A c)) :
    ∃ m0 m1 m2 m0' m1' m2', ∃ R S : List Int → T, inOrder (fun c : BcCall T => Cuda.setBc2d i0 i1 j0 j1 dx 0 b0 b1 gcw u c.lo c.hi c.order c.face 1 c.btype c.alpha c.beta c.sched) l m = .ok m0 ∧ Cuda.flux2d i0 j0 i1 j1 dx b0 b1 gcw u f0 f1 β1 m0 = .ok m1 ∧ Cuda.diffusionV1Apply2d i0 i1 j0 j1 alpha beta dx agcw a gcw u f0 f1 rgcw res β2 m1 = .ok m2 ∧
      inOrder (fun c : BcCall T => Cuda.setBc2d i0 i1 j0 j1 dx 0 b0 b1 gcw u c.lo c.hi c.order c.face 1 c.btype c.alpha c.beta c.sched) l m' = .ok m0' ∧ Cuda.flux2d i0 j0 i1 j1 dx b0 b1 gcw u f0 f1 β3 m0' = .ok m1' ∧ Cuda.diffusionV1Apply2d i0 i1 j0 j1 alpha beta dx agcw a gcw u f0 f1 rgcw res β4 m1' = .ok m2' ∧
      (∀ p, F.InBounds [(i0, i1), (j0, j1)] p → F.El m2 (F.cell2d res i0 j0 i1 j1 rgcw) p (R p)) ∧ (∀ p, F.InBounds [(i0, i1), (j0, j1)] p → F.El m2' (F.cell2d res i0 j0 i1 j1 rgcw) p (S p)) ∧
      ((∀ p, F.InBounds [(i0, i1), (j0, j1)] p → R p ≤ S p) → ∀ p, F.InBounds [(i0, i1), (j0, j1)] p → U p ≤ V p) := by
  have hps : ∀ k ∈ l.map (fun c : BcCall T => c.piece2 i0 j0 i1 j1 dx B0 B1), F.First k.btype k.order ∧ 0 < k.width ∧ ∀ p, k.cells p → 0 ≤ k.coef p := fun k hk => by
    obtain ⟨c, hcl, rfl⟩ := List.mem_map.1 hk
    exact ⟨(hc c hcl).1, hq c hcl⟩
  obtain ⟨m0, m1, m2, X, R, a0, a1, a2, E, hin, hR, hj⟩ := wall_v1_2 (alpha := alpha) (beta := beta) hβ1 hβ2 hwi hwj hag hg hrg hu hl hs hc h1 h2 hpf hrf hA hB0 hB1 hU
  obtain ⟨m0', m1', m2', Z, S, a0', a1', a2', E', hin', hR', hj'⟩ := wall_v1_2 (alpha := alpha) (beta := beta) hβ3 hβ4 hwi hwj hag hg hrg hu hl hs hc h1' h2' hpf hrf hA' hB0' hB1' hV
  refine ⟨m0, m1, m2, m0', m1', m2', R, S, a0, a1, a2, a0', a1', a2', E, E', fun hRS p hp => ?_⟩
  have lk : F.Leaky [(i0, i1), (j0, j1)] 5 (F.row F.points2) (F.jump (l.map (fun c : BcCall T => c.piece2 i0 j0 i1 j1 dx B0 B1))) (fun p => X p - Z p) (fun p => max (X p - Z p) 0) := F.leaky_max (F.jump_nonneg hps) fun p hp e e0 e1 ho => by
    rcases hj p hp e e0 e1 ho with ⟨jn, j⟩ | ⟨j1, j2, j3⟩ <;> rcases hj' p hp e e0 e1 ho with ⟨kn, k⟩ | ⟨k1, k2, k3⟩
    · left
      show X _ - Z _ = _ * (X p - Z p)
      rw [j, k]
      ring
    · exact absurd k2 jn
    · exact absurd j2 kn
    · refine Or.inr ⟨j1, ?_⟩
      show X _ - Z _ ≤ 0
      rw [j3, k3]
      have := hz _ j2
      linarith
  have h0 : F.form2 i0 j0 i1 j1 alpha beta dx A B0 B1 (fun p => X p - Z p) (F.cutTo [(i0, i1), (j0, j1)] (fun p => max (X p - Z p) 0)) ≤ 0 := by
    rw [F.form2_sub, ← F.weak2 hwi.le hwj.le (fun p hp => F.cutTo_out hp), ← F.weak2 hwi.le hwj.le (fun p hp => F.cutTo_out hp), sub_nonpos]
    refine F.sum_mono fun i hi0 hi1 => F.sum_mono fun j hj0 hj1 => ?_
    have hp : F.InBounds [(i0, i1), (j0, j1)] [i, j] := F.inBounds2.2 ⟨i, j, rfl, by omega⟩
    rw [F.cutTo_in hp, ← hR i j hi0 hi1 hj0 hj1, ← hR' i j hi0 hi1 hj0 hj1]
    exact mul_le_mul_of_nonneg_left (hRS _ hp) (le_max_right _ _)
  have ht' : F.Tied [(i0, i1), (j0, j1)] 5 (F.row F.points2) (l.map (fun c : BcCall T => c.piece2 i0 j0 i1 j1 dx B0 B1)) (fun c => alpha * A c) := by
    simpa using ht
  have hm := lk.zero2 hwi.le hwj.le he (F.jump_nonneg hps) (fun p q => by
    have := F.max_le (X p - Z p) (X q - Z q)
    exact this) (fun p => F.max_cell _) ht' (F.jump_ne hps) h0 p hp
  have hm : max (X p - Z p) 0 = 0 := hm
  have := le_max_left (X p - Z p) 0
  rw [← hin p hp, ← hin' p hp]
  linarith

example :=
  C94_v1_2d (T := Rat) (l := [exFill (exSeg (-1) 1 0) (exSeg (-1) 2 0) 0 4, exFill (exSeg 0 4 0) (exSeg 2 4 0) 3 1, exFill (exSeg 0 0 0) (exSeg 1 0 0) 2 0]) (i0 := 0) (i1 := 2) (j0 := 1) (j1 := 3) (dx := exDx) (alpha := 3) (beta := 2) (gcw := 2) (rgcw := 1) (u := ⟨1, 0⟩) (res := ⟨8, 0⟩) (a := ⟨0, 0⟩) (agcw := 1) (b0 := ⟨2, 0⟩) (f0 := ⟨5, 0⟩) (b1 := ⟨3, 0⟩) (f1 := ⟨6, 0⟩) (U := exBump 2 5) (m := exFun (exCase2 (exBump 2 5))) (V := exBump 2 40) (m' := exFun (exCase2 (exBump 2 40)))
    (fun _ => revBackend_ok) (fun _ => seqBackend_ok) (fun _ => seqBackend_ok) (fun _ => revBackend_ok) (by decide) (by decide) (by decide) (by decide) (by decide)
    (by ex_fusable) (by ex_falong) (by ex_fseparate) (by ex_solvable2 (fun _ => exRd_nonneg))
    (exFun_args (by ex_args)) (exFun_args (by ex_args)) (apart_blk (by decide)) ⟨apart_blk (by decide), apart_blk (by decide)⟩ (exFun_holds rfl rfl (exRat_ok rfl (by decide) (by decide))) (exFun_holds rfl rfl (exRat_ok rfl (by decide) (by decide))) (exFun_holds rfl rfl (exRat_ok rfl (by decide) (by decide))) (exFun_holds rfl rfl (exRat_ok rfl (by decide) (by decide)))
    (exFun_args (by ex_args)) (exFun_args (by ex_args)) (exFun_holds rfl rfl (exRat_ok rfl (by decide) (by decide))) (exFun_holds rfl rfl (exRat_ok rfl (by decide) (by decide))) (exFun_holds rfl rfl (exRat_ok rfl (by decide) (by decide))) (exFun_holds rfl rfl (exRat_ok rfl (by decide) (by decide)))
    (fun g hg => by rw [exBump_zero2 g hg.1, exBump_zero2 g hg.1]) exEll_v1_2 (by ex_positive2 (fun _ => exRd_nonneg)) exFree2

/-- 2D, diffusion operator with constant reaction: fields `U` and `V`, `U ≤ V` in the ghost cells that belong to no segment, for which `set_bc` for segments of the boundary, the flux and the apply kernel give `R ≤ S`, fulfil `U ≤ V` in the box if there is a cell with a reaction, or a face without a Neumann condition. -/
theorem C94_v2_2d {i0 j0 i1 j1 gcw rgcw : Int} {alpha beta : T} {dx : Nat → T} {b0 b1 f0 f1 u res : Ptr} {β1 β2 β3 β4 : Nat → Backend} {l : List (BcCall T)} {m m' : Mem T} {B0 B1 U V : List Int → T}
    (hβ1 : ∀ n, ValidBackend (β1 n)) (hβ2 : ∀ n, ValidBackend (β2 n)) (hβ3 : ∀ n, ValidBackend (β3 n)) (hβ4 : ∀ n, ValidBackend (β4 n)) (hwi : i0 < i1) (hwj : j0 < j1) (hg : 1 ≤ gcw) (hrg : 0 ≤ rgcw)
    (hu : ∀ c ∈ l, c.Usable 2) (hl : ∀ c ∈ l, c.Along2 1 i0 j0 i1 j1) (hs : ∀ c ∈ l, ∀ d ∈ l, Separate (fun c : BcCall T => F.onSeg2 c.lo c.hi 1 c.face) c d) (hc : ∀ c ∈ l, c.Solvable (c.piece2 i0 j0 i1 j1 dx B0 B1))
    (h1 : F.Args m [(F.face2d0 b0 i0 j0 i1 j1 0), (F.face2d1 b1 i0 j0 i1 j1 0)] [(F.cell2d u i0 j0 i1 j1 gcw)]) (h2 : F.Args m [(F.cell2d u i0 j0 i1 j1 gcw), (F.face2d0 b0 i0 j0 i1 j1 0), (F.face2d1 b1 i0 j0 i1 j1 0)] [(F.face2d0 f0 i0 j0 i1 j1 0), (F.face2d1 f1 i0 j0 i1 j1 0), (F.cell2d res i0 j0 i1 j1 rgcw)])
    (hpf : F.Apart (F.face2d0 f0 i0 j0 i1 j1 0) (F.face2d1 f1 i0 j0 i1 j1 0)) (hrf : F.Apart (F.cell2d res i0 j0 i1 j1 rgcw) (F.face2d0 f0 i0 j0 i1 j1 0) ∧ F.Apart (F.cell2d res i0 j0 i1 j1 rgcw) (F.face2d1 f1 i0 j0 i1 j1 0))
    (hB0 : F.Holds m (F.face2d0 b0 i0 j0 i1 j1 0) B0) (hB1 : F.Holds m (F.face2d1 b1 i0 j0 i1 j1 0) B1) (hU : F.Holds m (F.cell2d u i0 j0 i1 j1 gcw) U)
    (h1' : F.Args m' [(F.face2d0 b0 i0 j0 i1 j1 0), (F.face2d1 b1 i0 j0 i1 j1 0)] [(F.cell2d u i0 j0 i1 j1 gcw)]) (h2' : F.Args m' [(F.cell2d u i0 j0 i1 j1 gcw), (F.face2d0 b0 i0 j0 i1 j1 0), (F.face2d1 b1 i0 j0 i1 j1 0)] [(F.face2d0 f0 i0 j0 i1 j1 0), (F.face2d1 f1 i0 j0 i1 j1 0), (F.cell2d res i0 j0 i1 j1 rgcw)])
    (hB0' : F.Holds m' (F.face2d0 b0 i0 j0 i1 j1 0) B0) (hB1' : F.Holds m' (F.face2d1 b1 i0 j0 i1 j1 0) B1) (hV : F.Holds m' (F.cell2d u i0 j0 i1 j1 gcw) V)
    (hz : ∀ g, Uncovered (fun c : BcCall T => F.onSeg2 c.lo c.hi 1 c.face) l [(i0, i1), (j0, j1)] 5 (F.row F.points2) g → U g ≤ V g) (he : F.Elliptic2 i0 j0 i1 j1 alpha beta dx (fun _ => 1) B0 B1) (hq : ∀ c ∈ l, BcCall.Positive (c.piece2 i0 j0 i1 j1 dx B0 B1))
    (ht : F.Tied [(i0, i1), (j0, j1)] 5 (F.row F.points2) (l.map (fun c : BcCall T => c.piece2 i0 j0 i1 j1 dx B0 B1)) (fun _ => alpha)) :
    ∃ m0 m1 m2 m0' m1' m2', ∃ R S : List Int → T, inOrder (fun c : BcCall T => Cuda.setBc2d i0 i1 j0 j1 dx 0 b0 b1 gcw u c.lo c.hi c.order c.face 1 c.btype c.alpha c.beta c.sched) l m = .ok m0 ∧ Cuda.flux2d i0 j0 i1 j1 dx b0 b1 gcw u f0 f1 β1 m0 = .ok m1 ∧ Cuda.diffusionV2Apply2d i0 i1 j0 j1 alpha beta dx gcw u f0 f1 rgcw res β2 m1 = .ok m2 ∧
      inOrder (fun c : BcCall T => Cuda.setBc2d i0 i1 j0 j1 dx 0 b0 b1 gcw u c.lo c.hi c.order c.face 1 c.btype c.alpha c.beta c.sched) l m' = .ok m0' ∧ Cuda.flux2d i0 j0 i1 j1 dx b0 b1 gcw u f0 f1 β3 m0' = .ok m1' ∧ Cuda.diffusionV2Apply2d i0 i1 j0 j1 alpha beta dx gcw u f0 f1 rgcw res β4 m1' = .ok m2' ∧
      (∀ p, F.InBounds [(i0, i1), (j0, j1)] p → F.El m2 (F.cell2d res i0 j0 i1 j1 rgcw) p (R p)) ∧ (∀ p, F.InBounds [(i0, i1), (j0, j1)] p → F.El m2' (F.cell2d res i0 j0 i1 j1 rgcw) p (S p)) ∧
      ((∀ p, F.InBounds [(i0, i1), (j0, j1)] p → R p ≤ S p) → ∀ p, F.InBounds [(i0, i1), (j0, j1)] p → U p ≤ V p) := by
  have hps : ∀ k ∈ l.map (fun c : BcCall T => c.piece2 i0 j0 i1 j1 dx B0 B1), F.First k.btype k.order ∧ 0 < k.width ∧ ∀ p, k.cells p → 0 ≤ k.coef p := fun k hk => by
    obtain ⟨c, hcl, rfl⟩ := List.mem_map.1 hk
    exact ⟨(hc c hcl).1, hq c hcl⟩
  obtain ⟨m0, m1, m2, X, R, a0, a1, a2, E, hin, hR, hj⟩ := wall_v2_2 (alpha := alpha) (beta := beta) hβ1 hβ2 hwi hwj hg hrg hu hl hs hc h1 h2 hpf hrf hB0 hB1 hU
  obtain ⟨m0', m1', m2', Z, S, a0', a1', a2', E', hin', hR', hj'⟩ := wall_v2_2 (alpha := alpha) (beta := beta) hβ3 hβ4 hwi hwj hg hrg hu hl hs hc h1' h2' hpf hrf hB0' hB1' hV
  refine ⟨m0, m1, m2, m0', m1', m2', R, S, a0, a1, a2, a0', a1', a2', E, E', fun hRS p hp => ?_⟩
  have lk : F.Leaky [(i0, i1), (j0, j1)] 5 (F.row F.points2) (F.jump (l.map (fun c : BcCall T => c.piece2 i0 j0 i1 j1 dx B0 B1))) (fun p => X p - Z p) (fun p => max (X p - Z p) 0) := F.leaky_max (F.jump_nonneg hps) fun p hp e e0 e1 ho => by
    rcases hj p hp e e0 e1 ho with ⟨jn, j⟩ | ⟨j1, j2, j3⟩ <;> rcases hj' p hp e e0 e1 ho with ⟨kn, k⟩ | ⟨k1, k2, k3⟩
    · left
      show X _ - Z _ = _ * (X p - Z p)
      rw [j, k]
      ring
    · exact absurd k2 jn
    · exact absurd j2 kn
    · refine Or.inr ⟨j1, ?_⟩
      show X _ - Z _ ≤ 0
      rw [j3, k3]
      have := hz _ j2
      linarith
  have h0 : F.form2 i0 j0 i1 j1 alpha beta dx (fun _ => (1 : T)) B0 B1 (fun p => X p - Z p) (F.cutTo [(i0, i1), (j0, j1)] (fun p => max (X p - Z p) 0)) ≤ 0 := by
    rw [F.form2_sub, ← F.weak2 hwi.le hwj.le (fun p hp => F.cutTo_out hp), ← F.weak2 hwi.le hwj.le (fun p hp => F.cutTo_out hp), sub_nonpos]
    refine F.sum_mono fun i hi0 hi1 => F.sum_mono fun j hj0 hj1 => ?_
    have hp : F.InBounds [(i0, i1), (j0, j1)] [i, j] := F.inBounds2.2 ⟨i, j, rfl, by omega⟩
    rw [F.cutTo_in hp, ← hR i j hi0 hi1 hj0 hj1, ← hR' i j hi0 hi1 hj0 hj1]
    exact mul_le_mul_of_nonneg_left (hRS _ hp) (le_max_right _ _)
  have ht' : F.Tied [(i0, i1), (j0, j1)] 5 (F.row F.points2) (l.map (fun c : BcCall T => c.piece2 i0 j0 i1 j1 dx B0 B1)) (fun c => alpha * (fun _ => (1 : T)) c) := by
    simpa using ht
  have hm := lk.zero2 hwi.le hwj.le he (F.jump_nonneg hps) (fun p q => by
    have := F.max_le (X p - Z p) (X q - Z q)
    exact this) (fun p => F.max_cell _) ht' (F.jump_ne hps) h0 p hp
  have hm : max (X p - Z p) 0 = 0 := hm
  have := le_max_left (X p - Z p) 0
  rw [← hin p hp, ← hin' p hp]
  linarith

example :=
  C94_v2_2d (T := Rat) (l := [exFill (exSeg (-1) 1 0) (exSeg (-1) 2 0) 0 4, exFill (exSeg 0 4 0) (exSeg 2 4 0) 3 1, exFill (exSeg 0 0 0) (exSeg 1 0 0) 2 0]) (i0 := 0) (i1 := 2) (j0 := 1) (j1 := 3) (dx := exDx) (alpha := 3) (beta := 2) (gcw := 2) (rgcw := 1) (u := ⟨1, 0⟩) (res := ⟨8, 0⟩) (b0 := ⟨2, 0⟩) (f0 := ⟨5, 0⟩) (b1 := ⟨3, 0⟩) (f1 := ⟨6, 0⟩) (U := exBump 2 5) (m := exFun (exCase2 (exBump 2 5))) (V := exBump 2 40) (m' := exFun (exCase2 (exBump 2 40)))
    (fun _ => revBackend_ok) (fun _ => seqBackend_ok) (fun _ => seqBackend_ok) (fun _ => revBackend_ok) (by decide) (by decide) (by decide) (by decide)
    (by ex_fusable) (by ex_falong) (by ex_fseparate) (by ex_solvable2 (fun _ => exRd_nonneg))
    (exFun_args (by ex_args)) (exFun_args (by ex_args)) (apart_blk (by decide)) ⟨apart_blk (by decide), apart_blk (by decide)⟩ (exFun_holds rfl rfl (exRat_ok rfl (by decide) (by decide))) (exFun_holds rfl rfl (exRat_ok rfl (by decide) (by decide))) (exFun_holds rfl rfl (exRat_ok rfl (by decide) (by decide)))
    (exFun_args (by ex_args)) (exFun_args (by ex_args)) (exFun_holds rfl rfl (exRat_ok rfl (by decide) (by decide))) (exFun_holds rfl rfl (exRat_ok rfl (by decide) (by decide))) (exFun_holds rfl rfl (exRat_ok rfl (by decide) (by decide)))
    (fun g hg => by rw [exBump_zero2 g hg.1, exBump_zero2 g hg.1]) exEll_v2_2 (by ex_positive2 (fun _ => exRd_nonneg)) exFree2

/-- 2D, Poisson operator: fields `U` and `V`, `U ≤ V` in the ghost cells that belong to no segment, for which `set_poisson_bc` for segments of the boundary, the flux and the apply kernel give `R ≤ S`, fulfil `U ≤ V` in the box if there is a cell with a reaction, or a face without a Neumann condition. Robin conditions only across the first direction: `set_poisson_bc` has none across the second in 2D. -/
theorem C94_poisson_2d_partial {i0 j0 i1 j1 gcw rgcw : Int} {beta : T} {dx : Nat → T} {f0 f1 u res : Ptr} {β1 β2 β3 β4 : Nat → Backend} {l : List (BcCall T)} {m m' : Mem T} {U V : List Int → T}
    (hβ1 : ∀ n, ValidBackend (β1 n)) (hβ2 : ∀ n, ValidBackend (β2 n)) (hβ3 : ∀ n, ValidBackend (β3 n)) (hβ4 : ∀ n, ValidBackend (β4 n)) (hwi : i0 < i1) (hwj : j0 < j1) (hg : 1 ≤ gcw) (hrg : 0 ≤ rgcw)
    (hu : ∀ c ∈ l, c.Usable 2) (hl : ∀ c ∈ l, c.Along2 1 i0 j0 i1 j1) (hs : ∀ c ∈ l, ∀ d ∈ l, Separate (fun c : BcCall T => F.onSeg2 c.lo c.hi 1 c.face) c d) (hc : ∀ c ∈ l, c.Solvable (c.piece2 i0 j0 i1 j1 dx (fun _ => (1 : T)) (fun _ => (1 : T)))) (hrb : ∀ c ∈ l, c.btype = 4 → c.face < 2)
    (h1 : F.Args m [] [(F.cell2d u i0 j0 i1 j1 gcw)]) (h2 : F.Args m [(F.cell2d u i0 j0 i1 j1 gcw)] [(F.face2d0 f0 i0 j0 i1 j1 0), (F.face2d1 f1 i0 j0 i1 j1 0), (F.cell2d res i0 j0 i1 j1 rgcw)])
    (hpf : F.Apart (F.face2d0 f0 i0 j0 i1 j1 0) (F.face2d1 f1 i0 j0 i1 j1 0)) (hrf : F.Apart (F.cell2d res i0 j0 i1 j1 rgcw) (F.face2d0 f0 i0 j0 i1 j1 0) ∧ F.Apart (F.cell2d res i0 j0 i1 j1 rgcw) (F.face2d1 f1 i0 j0 i1 j1 0))
    (hU : F.Holds m (F.cell2d u i0 j0 i1 j1 gcw) U)
    (h1' : F.Args m' [] [(F.cell2d u i0 j0 i1 j1 gcw)]) (h2' : F.Args m' [(F.cell2d u i0 j0 i1 j1 gcw)] [(F.face2d0 f0 i0 j0 i1 j1 0), (F.face2d1 f1 i0 j0 i1 j1 0), (F.cell2d res i0 j0 i1 j1 rgcw)])
    (hV : F.Holds m' (F.cell2d u i0 j0 i1 j1 gcw) V)
    (hz : ∀ g, Uncovered (fun c : BcCall T => F.onSeg2 c.lo c.hi 1 c.face) l [(i0, i1), (j0, j1)] 5 (F.row F.points2) g → U g ≤ V g) (he : F.Elliptic2 i0 j0 i1 j1 0 beta dx (fun _ => 1) (fun _ => 1) (fun _ => 1)) (hq : ∀ c ∈ l, BcCall.Positive (c.piece2 i0 j0 i1 j1 dx (fun _ => (1 : T)) (fun _ => (1 : T))))
    (ht : F.Tied [(i0, i1), (j0, j1)] 5 (F.row F.points2) (l.map (fun c : BcCall T => c.piece2 i0 j0 i1 j1 dx (fun _ => (1 : T)) (fun _ => (1 : T)))) (fun _ => 0)) :
    ∃ m0 m1 m2 m0' m1' m2', ∃ R S : List Int → T, inOrder (fun c : BcCall T => Cuda.setPoissonBc2d i0 i1 j0 j1 dx gcw u c.lo c.hi c.order c.face 1 c.btype c.alpha c.beta c.sched) l m = .ok m0 ∧ Cuda.poissonFlux2d i0 j0 i1 j1 dx gcw u f0 f1 β1 m0 = .ok m1 ∧ Cuda.poissonV2Apply2d i0 i1 j0 j1 beta dx f0 f1 rgcw res β2 m1 = .ok m2 ∧
      inOrder (fun c : BcCall T => Cuda.setPoissonBc2d i0 i1 j0 j1 dx gcw u c.lo c.hi c.order c.face 1 c.btype c.alpha c.beta c.sched) l m' = .ok m0' ∧ Cuda.poissonFlux2d i0 j0 i1 j1 dx gcw u f0 f1 β3 m0' = .ok m1' ∧ Cuda.poissonV2Apply2d i0 i1 j0 j1 beta dx f0 f1 rgcw res β4 m1' = .ok m2' ∧
      (∀ p, F.InBounds [(i0, i1), (j0, j1)] p → F.El m2 (F.cell2d res i0 j0 i1 j1 rgcw) p (R p)) ∧ (∀ p, F.InBounds [(i0, i1), (j0, j1)] p → F.El m2' (F.cell2d res i0 j0 i1 j1 rgcw) p (S p)) ∧
      ((∀ p, F.InBounds [(i0, i1), (j0, j1)] p → R p ≤ S p) → ∀ p, F.InBounds [(i0, i1), (j0, j1)] p → U p ≤ V p) := by
  have hps : ∀ k ∈ l.map (fun c : BcCall T => c.piece2 i0 j0 i1 j1 dx (fun _ => (1 : T)) (fun _ => (1 : T))), F.First k.btype k.order ∧ 0 < k.width ∧ ∀ p, k.cells p → 0 ≤ k.coef p := fun k hk => by
    obtain ⟨c, hcl, rfl⟩ := List.mem_map.1 hk
    exact ⟨(hc c hcl).1, hq c hcl⟩
  obtain ⟨m0, m1, m2, X, R, a0, a1, a2, E, hin, hR, hj⟩ := wall_p_2 (beta := beta) hβ1 hβ2 hwi hwj hg hrg hu hl hs hc hrb h1 h2 hpf hrf hU
  obtain ⟨m0', m1', m2', Z, S, a0', a1', a2', E', hin', hR', hj'⟩ := wall_p_2 (beta := beta) hβ3 hβ4 hwi hwj hg hrg hu hl hs hc hrb h1' h2' hpf hrf hV
  refine ⟨m0, m1, m2, m0', m1', m2', R, S, a0, a1, a2, a0', a1', a2', E, E', fun hRS p hp => ?_⟩
  have lk : F.Leaky [(i0, i1), (j0, j1)] 5 (F.row F.points2) (F.jump (l.map (fun c : BcCall T => c.piece2 i0 j0 i1 j1 dx (fun _ => (1 : T)) (fun _ => (1 : T))))) (fun p => X p - Z p) (fun p => max (X p - Z p) 0) := F.leaky_max (F.jump_nonneg hps) fun p hp e e0 e1 ho => by
    rcases hj p hp e e0 e1 ho with ⟨jn, j⟩ | ⟨j1, j2, j3⟩ <;> rcases hj' p hp e e0 e1 ho with ⟨kn, k⟩ | ⟨k1, k2, k3⟩
    · left
      show X _ - Z _ = _ * (X p - Z p)
      rw [j, k]
      ring
    · exact absurd k2 jn
    · exact absurd j2 kn
    · refine Or.inr ⟨j1, ?_⟩
      show X _ - Z _ ≤ 0
      rw [j3, k3]
      have := hz _ j2
      linarith
  have h0 : F.form2 i0 j0 i1 j1 0 beta dx (fun _ => (1 : T)) (fun _ => (1 : T)) (fun _ => (1 : T)) (fun p => X p - Z p) (F.cutTo [(i0, i1), (j0, j1)] (fun p => max (X p - Z p) 0)) ≤ 0 := by
    rw [F.form2_sub, ← F.weak2 hwi.le hwj.le (fun p hp => F.cutTo_out hp), ← F.weak2 hwi.le hwj.le (fun p hp => F.cutTo_out hp), sub_nonpos]
    refine F.sum_mono fun i hi0 hi1 => F.sum_mono fun j hj0 hj1 => ?_
    have hp : F.InBounds [(i0, i1), (j0, j1)] [i, j] := F.inBounds2.2 ⟨i, j, rfl, by omega⟩
    rw [F.cutTo_in hp, ← hR i j hi0 hi1 hj0 hj1, ← hR' i j hi0 hi1 hj0 hj1]
    exact mul_le_mul_of_nonneg_left (hRS _ hp) (le_max_right _ _)
  have ht' : F.Tied [(i0, i1), (j0, j1)] 5 (F.row F.points2) (l.map (fun c : BcCall T => c.piece2 i0 j0 i1 j1 dx (fun _ => (1 : T)) (fun _ => (1 : T)))) (fun c => 0 * (fun _ => (1 : T)) c) := by
    simpa using ht
  have hm := lk.zero2 hwi.le hwj.le he (F.jump_nonneg hps) (fun p q => by
    have := F.max_le (X p - Z p) (X q - Z q)
    exact this) (fun p => F.max_cell _) ht' (F.jump_ne hps) h0 p hp
  have hm : max (X p - Z p) 0 = 0 := hm
  have := le_max_left (X p - Z p) 0
  rw [← hin p hp, ← hin' p hp]
  linarith

example :=
  C94_poisson_2d_partial (T := Rat) (l := [exFill (exSeg (-1) 1 0) (exSeg (-1) 2 0) 0 4, exFill (exSeg 0 4 0) (exSeg 2 4 0) 3 1, exFill (exSeg 0 0 0) (exSeg 1 0 0) 2 0]) (i0 := 0) (i1 := 2) (j0 := 1) (j1 := 3) (dx := exDx) (beta := 2) (gcw := 2) (rgcw := 1) (u := ⟨1, 0⟩) (res := ⟨8, 0⟩) (f0 := ⟨5, 0⟩) (f1 := ⟨6, 0⟩) (U := exBump 2 5) (m := exFun (exCase2 (exBump 2 5))) (V := exBump 2 40) (m' := exFun (exCase2 (exBump 2 40)))
    (fun _ => revBackend_ok) (fun _ => seqBackend_ok) (fun _ => seqBackend_ok) (fun _ => revBackend_ok) (by decide) (by decide) (by decide) (by decide)
    (by ex_fusable) (by ex_falong) (by ex_fseparate) (by ex_solvable2 (fun p => exOne p)) (by simp [exFill])
    (exFun_args (by ex_args)) (exFun_args (by ex_args)) (apart_blk (by decide)) ⟨apart_blk (by decide), apart_blk (by decide)⟩ (exFun_holds rfl rfl (exRat_ok rfl (by decide) (by decide)))
    (exFun_args (by ex_args)) (exFun_args (by ex_args)) (exFun_holds rfl rfl (exRat_ok rfl (by decide) (by decide)))
    (fun g hg => by rw [exBump_zero2 g hg.1, exBump_zero2 g hg.1]) exEll_p_2 (by ex_positive2 (fun p => exOne p)) exFree2

end

/-- a field with two values, in the cell [0, 1] and in the cell below -/
def exTwo (x y : Rat) (p : List Int) : Rat := if p = [0, 1] then x else if p = [0, 0] then y else 0

theorem exTwo_unc {c : BcCall Rat} (hc : c = exFill (exSeg 0 0 0) (exSeg 1 0 0) 2 4) {x y : Rat} (g : List Int)
    (hg : Uncovered (fun c : BcCall Rat => F.onSeg2 c.lo c.hi 1 c.face) [c] [(0, 1), (1, 2)] 5 (F.row F.points2) g) : exTwo x y g = 0 := by
  unfold exTwo
  rw [if_neg, if_neg]
  · intro e
    refine hg.2.2 c (by simp) ?_
    rw [hc, e]
    exact ⟨0, 0, rfl, .inr (.inl (by decide))⟩
  · intro e
    exact hg.1 (by rw [e]; decide)

/-- `set_poisson_bc` in 2D has no Robin conditions across the second direction, and with what it leaves in the ghost cells there is no symmetry: all hypotheses of `C92_poisson_2d_partial` but the one on the directions. -/
theorem C92_poisson_2d_false : ∃ (c : BcCall Rat) (m m' : Mem Rat) (U V : List Int → Rat), c.Usable 2 ∧ c.Along2 1 0 1 1 2 ∧ c.Solvable (c.piece2 0 1 1 2 exDx (fun _ => (1 : Rat)) fun _ => (1 : Rat)) ∧
    F.Args m [] [F.cell2d ⟨1, 0⟩ 0 1 1 2 2] ∧ F.Args m [F.cell2d ⟨1, 0⟩ 0 1 1 2 2] [F.face2d0 ⟨5, 0⟩ 0 1 1 2 0, F.face2d1 ⟨6, 0⟩ 0 1 1 2 0, F.cell2d ⟨8, 0⟩ 0 1 1 2 1] ∧
    F.Args m' [] [F.cell2d ⟨1, 0⟩ 0 1 1 2 2] ∧ F.Args m' [F.cell2d ⟨1, 0⟩ 0 1 1 2 2] [F.face2d0 ⟨5, 0⟩ 0 1 1 2 0, F.face2d1 ⟨6, 0⟩ 0 1 1 2 0, F.cell2d ⟨8, 0⟩ 0 1 1 2 1] ∧
    F.Holds m (F.cell2d ⟨1, 0⟩ 0 1 1 2 2) U ∧ F.Holds m' (F.cell2d ⟨1, 0⟩ 0 1 1 2 2) V ∧
    (∀ g, Uncovered (fun c : BcCall Rat => F.onSeg2 c.lo c.hi 1 c.face) [c] [(0, 1), (1, 2)] 5 (F.row F.points2) g → U g = 0) ∧
    (∀ g, Uncovered (fun c : BcCall Rat => F.onSeg2 c.lo c.hi 1 c.face) [c] [(0, 1), (1, 2)] 5 (F.row F.points2) g → V g = 0) ∧
    ∃ m2, (inOrder (fun c : BcCall Rat => Cuda.setPoissonBc2d 0 1 1 2 exDx 2 ⟨1, 0⟩ c.lo c.hi c.order c.face 1 c.btype c.alpha c.beta c.sched) [c] m >>= fun m0 =>
        Cuda.poissonFlux2d 0 1 1 2 exDx 2 ⟨1, 0⟩ ⟨5, 0⟩ ⟨6, 0⟩ (fun _ => revBackend) m0 >>= fun m1 =>
        Cuda.poissonV2Apply2d 0 1 1 2 2 exDx ⟨5, 0⟩ ⟨6, 0⟩ 1 ⟨8, 0⟩ (fun _ => seqBackend) m1) = .ok m2 ∧
      ∀ R S : List Int → Rat, (∀ p, F.InBounds [(0, 1), (1, 2)] p → F.El m2 (F.cell2d ⟨8, 0⟩ 0 1 1 2 1) p (R p)) →
        (F.sum 0 1 fun i => F.sum 1 2 fun j => V [i, j] * R [i, j]) ≠ (F.sum 0 1 fun i => F.sum 1 2 fun j => U [i, j] * S [i, j]) := by
  have h1 : leaves (inOrder (fun c : BcCall Rat => Cuda.setPoissonBc2d 0 1 1 2 exDx 2 ⟨1, 0⟩ c.lo c.hi c.order c.face 1 c.btype c.alpha c.beta c.sched) [exFill (exSeg 0 0 0) (exSeg 1 0 0) 2 4]
        (exFun (fun _ => ((F.cell2d ⟨1, 0⟩ 0 1 1 2 2).dims, exTwo 0 1))) >>= fun m0 =>
        Cuda.poissonFlux2d 0 1 1 2 exDx 2 ⟨1, 0⟩ ⟨5, 0⟩ ⟨6, 0⟩ (fun _ => revBackend) m0 >>= fun m1 =>
        Cuda.poissonV2Apply2d 0 1 1 2 2 exDx ⟨5, 0⟩ ⟨6, 0⟩ 1 ⟨8, 0⟩ (fun _ => seqBackend) m1) ((F.cell2d ⟨8, 0⟩ 0 1 1 2 1).addrT [0, 1]) = some (some (-8 / 9)) := by decide +kernel
  obtain ⟨m2, e1, v1⟩ := leaves_eq h1
  refine ⟨_, _, exFun (fun _ => ((F.cell2d ⟨1, 0⟩ 0 1 1 2 2).dims, exTwo 1 0)), exTwo 0 1, exTwo 1 0, ⟨by simp only [InInt]; decide +kernel, fun _ => revBackend_ok⟩, ?_, ?_, exFun_args (by ex_args), exFun_args (by ex_args), exFun_args (by ex_args), exFun_args (by ex_args),
    exFun_holds rfl rfl (exRat_ok rfl (by decide) (by decide)), exFun_holds rfl rfl (exRat_ok rfl (by decide) (by decide)), exTwo_unc rfl, exTwo_unc rfl, m2, e1, fun R S hR => ?_⟩
  · simp [BcCall.Along2, Spec.Part, exFill, exSeg]
  · exact exSolvable (by simp [F.First, exFill]) (exDx_pos _) (exOn2 exOne exOne _ _) (by norm_num [exFill]) (by norm_num [exFill])
  · have r : R [0, 1] = -8 / 9 := by
      exact (hR [0, 1] (by decide)).inj ⟨by decide, v1⟩
    have i1 : F.irange 0 1 = [0, 1] := by decide
    have i2 : F.irange 1 2 = [1, 2] := by decide
    simp [F.sum, i1, i2, exTwo, r]

/-- With what `set_poisson_bc` leaves in the ghost cells across the second direction for Robin conditions, the operator is not positive: all hypotheses of `C93_poisson_2d_partial` but the one on the directions. -/
theorem C93_poisson_2d_false : ∃ (c : BcCall Rat) (m : Mem Rat) (U : List Int → Rat), c.Usable 2 ∧ c.Along2 1 0 1 1 2 ∧ c.Solvable (c.piece2 0 1 1 2 exDx (fun _ => (1 : Rat)) fun _ => (1 : Rat)) ∧
    F.Args m [] [F.cell2d ⟨1, 0⟩ 0 1 1 2 2] ∧ F.Args m [F.cell2d ⟨1, 0⟩ 0 1 1 2 2] [F.face2d0 ⟨5, 0⟩ 0 1 1 2 0, F.face2d1 ⟨6, 0⟩ 0 1 1 2 0, F.cell2d ⟨8, 0⟩ 0 1 1 2 1] ∧
    F.Holds m (F.cell2d ⟨1, 0⟩ 0 1 1 2 2) U ∧ (∀ g, Uncovered (fun c : BcCall Rat => F.onSeg2 c.lo c.hi 1 c.face) [c] [(0, 1), (1, 2)] 5 (F.row F.points2) g → U g = 0) ∧ F.Elliptic2 0 1 1 2 0 2 exDx (fun _ => 1) (fun _ => 1) (fun _ => 1) ∧
    BcCall.Positive (c.piece2 0 1 1 2 exDx (fun _ => (1 : Rat)) fun _ => (1 : Rat)) ∧
    ∃ m2, (inOrder (fun c : BcCall Rat => Cuda.setPoissonBc2d 0 1 1 2 exDx 2 ⟨1, 0⟩ c.lo c.hi c.order c.face 1 c.btype c.alpha c.beta c.sched) [c] m >>= fun m0 =>
        Cuda.poissonFlux2d 0 1 1 2 exDx 2 ⟨1, 0⟩ ⟨5, 0⟩ ⟨6, 0⟩ (fun _ => revBackend) m0 >>= fun m1 =>
        Cuda.poissonV2Apply2d 0 1 1 2 2 exDx ⟨5, 0⟩ ⟨6, 0⟩ 1 ⟨8, 0⟩ (fun _ => seqBackend) m1) = .ok m2 ∧
      ∀ R : List Int → Rat, (∀ p, F.InBounds [(0, 1), (1, 2)] p → F.El m2 (F.cell2d ⟨8, 0⟩ 0 1 1 2 1) p (R p)) → (F.sum 0 1 fun i => F.sum 1 2 fun j => U [i, j] * R [i, j]) < 0 := by
  have ell : F.Elliptic2 (T := Rat) 0 1 1 2 0 2 exDx (fun _ => 1) (fun _ => 1) (fun _ => 1) := ⟨by norm_num, by norm_num [exDx], by norm_num [exDx], fun _ _ _ _ _ _ => one_pos, fun _ _ _ _ _ _ => one_pos, fun _ _ _ _ _ _ => by norm_num⟩
  have h1 : leaves ((inOrder (fun c : BcCall Rat => Cuda.setPoissonBc2d 0 1 1 2 exDx 2 ⟨1, 0⟩ c.lo c.hi c.order c.face 1 c.btype c.alpha c.beta c.sched) [exFill (exSeg 0 0 0) (exSeg 1 0 0) 2 4] (exFun (fun _ => ((F.cell2d ⟨1, 0⟩ 0 1 1 2 2).dims, exTwo 1 100))) >>= fun m0 =>
        Cuda.poissonFlux2d 0 1 1 2 exDx 2 ⟨1, 0⟩ ⟨5, 0⟩ ⟨6, 0⟩ (fun _ => revBackend) m0 >>= fun m1 =>
        Cuda.poissonV2Apply2d 0 1 1 2 2 exDx ⟨5, 0⟩ ⟨6, 0⟩ 1 ⟨8, 0⟩ (fun _ => seqBackend) m1)) ((F.cell2d ⟨8, 0⟩ 0 1 1 2 1).addrT [0, 1]) = some (some (-640 / 9)) := by decide +kernel
  obtain ⟨m2, e1, v1⟩ := leaves_eq h1
  refine ⟨_, _, exTwo 1 100, ⟨by simp only [InInt]; decide +kernel, fun _ => revBackend_ok⟩, ?_, ?_, exFun_args (by ex_args), exFun_args (by ex_args),
    exFun_holds rfl rfl (exRat_ok rfl (by decide) (by decide)), exTwo_unc rfl, ell, ⟨exDx_pos _, fun p _ => mul_nonneg (by norm_num [exFill]) (exOn2 exOne exOne _ _ _)⟩, m2, e1, fun R hR => ?_⟩
  · simp [BcCall.Along2, Spec.Part, exFill, exSeg]
  · exact exSolvable (by simp [F.First, exFill]) (exDx_pos _) (exOn2 exOne exOne _ _) (by norm_num [exFill]) (by norm_num [exFill])
  · have r : R [0, 1] = -640 / 9 := (hR [0, 1] (by decide)).inj ⟨by decide, v1⟩
    have i1 : F.irange 0 1 = [0, 1] := by decide
    have i2 : F.irange 1 2 = [1, 2] := by decide
    norm_num [F.sum, i1, i2, exTwo, r]

/-- With what `set_poisson_bc` leaves in the ghost cells across the second direction for Robin conditions, the operator does not preserve order: all hypotheses of `C94_poisson_2d_partial` but the one on the directions. -/
theorem C94_poisson_2d_false : ∃ (c : BcCall Rat) (m m' : Mem Rat) (U V : List Int → Rat), c.Usable 2 ∧ c.Along2 1 0 1 1 2 ∧ c.Solvable (c.piece2 0 1 1 2 exDx (fun _ => (1 : Rat)) fun _ => (1 : Rat)) ∧
    F.Args m [] [F.cell2d ⟨1, 0⟩ 0 1 1 2 2] ∧ F.Args m [F.cell2d ⟨1, 0⟩ 0 1 1 2 2] [F.face2d0 ⟨5, 0⟩ 0 1 1 2 0, F.face2d1 ⟨6, 0⟩ 0 1 1 2 0, F.cell2d ⟨8, 0⟩ 0 1 1 2 1] ∧
    F.Args m' [] [F.cell2d ⟨1, 0⟩ 0 1 1 2 2] ∧ F.Args m' [F.cell2d ⟨1, 0⟩ 0 1 1 2 2] [F.face2d0 ⟨5, 0⟩ 0 1 1 2 0, F.face2d1 ⟨6, 0⟩ 0 1 1 2 0, F.cell2d ⟨8, 0⟩ 0 1 1 2 1] ∧
    F.Holds m (F.cell2d ⟨1, 0⟩ 0 1 1 2 2) U ∧ F.Holds m' (F.cell2d ⟨1, 0⟩ 0 1 1 2 2) V ∧ (∀ g, Uncovered (fun c : BcCall Rat => F.onSeg2 c.lo c.hi 1 c.face) [c] [(0, 1), (1, 2)] 5 (F.row F.points2) g → U g ≤ V g) ∧ F.Elliptic2 0 1 1 2 0 2 exDx (fun _ => 1) (fun _ => 1) (fun _ => 1) ∧
    BcCall.Positive (c.piece2 0 1 1 2 exDx (fun _ => (1 : Rat)) fun _ => (1 : Rat)) ∧
    F.Tied [(0, 1), (1, 2)] 5 (F.row F.points2) ([c].map fun c : BcCall Rat => c.piece2 0 1 1 2 exDx (fun _ => (1 : Rat)) fun _ => (1 : Rat)) (fun _ => 0) ∧
    ∃ m2 m2', (inOrder (fun c : BcCall Rat => Cuda.setPoissonBc2d 0 1 1 2 exDx 2 ⟨1, 0⟩ c.lo c.hi c.order c.face 1 c.btype c.alpha c.beta c.sched) [c] m >>= fun m0 =>
        Cuda.poissonFlux2d 0 1 1 2 exDx 2 ⟨1, 0⟩ ⟨5, 0⟩ ⟨6, 0⟩ (fun _ => revBackend) m0 >>= fun m1 =>
        Cuda.poissonV2Apply2d 0 1 1 2 2 exDx ⟨5, 0⟩ ⟨6, 0⟩ 1 ⟨8, 0⟩ (fun _ => seqBackend) m1) = .ok m2 ∧
      (inOrder (fun c : BcCall Rat => Cuda.setPoissonBc2d 0 1 1 2 exDx 2 ⟨1, 0⟩ c.lo c.hi c.order c.face 1 c.btype c.alpha c.beta c.sched) [c] m' >>= fun m0 =>
        Cuda.poissonFlux2d 0 1 1 2 exDx 2 ⟨1, 0⟩ ⟨5, 0⟩ ⟨6, 0⟩ (fun _ => revBackend) m0 >>= fun m1 =>
        Cuda.poissonV2Apply2d 0 1 1 2 2 exDx ⟨5, 0⟩ ⟨6, 0⟩ 1 ⟨8, 0⟩ (fun _ => seqBackend) m1) = .ok m2' ∧
      ∀ R S : List Int → Rat, (∀ p, F.InBounds [(0, 1), (1, 2)] p → F.El m2 (F.cell2d ⟨8, 0⟩ 0 1 1 2 1) p (R p)) → (∀ p, F.InBounds [(0, 1), (1, 2)] p → F.El m2' (F.cell2d ⟨8, 0⟩ 0 1 1 2 1) p (S p)) → (∀ p, F.InBounds [(0, 1), (1, 2)] p → R p ≤ S p) ∧ ¬ ∀ p, F.InBounds [(0, 1), (1, 2)] p → U p ≤ V p := by
  have ell : F.Elliptic2 (T := Rat) 0 1 1 2 0 2 exDx (fun _ => 1) (fun _ => 1) (fun _ => 1) := ⟨by norm_num, by norm_num [exDx], by norm_num [exDx], fun _ _ _ _ _ _ => one_pos, fun _ _ _ _ _ _ => one_pos, fun _ _ _ _ _ _ => by norm_num⟩
  have h0 : leaves ((inOrder (fun c : BcCall Rat => Cuda.setPoissonBc2d 0 1 1 2 exDx 2 ⟨1, 0⟩ c.lo c.hi c.order c.face 1 c.btype c.alpha c.beta c.sched) [exFill (exSeg 0 0 0) (exSeg 1 0 0) 2 4] (exFun (fun _ => ((F.cell2d ⟨1, 0⟩ 0 1 1 2 2).dims, exTwo 1 100))) >>= fun m0 =>
        Cuda.poissonFlux2d 0 1 1 2 exDx 2 ⟨1, 0⟩ ⟨5, 0⟩ ⟨6, 0⟩ (fun _ => revBackend) m0 >>= fun m1 =>
        Cuda.poissonV2Apply2d 0 1 1 2 2 exDx ⟨5, 0⟩ ⟨6, 0⟩ 1 ⟨8, 0⟩ (fun _ => seqBackend) m1)) ((F.cell2d ⟨8, 0⟩ 0 1 1 2 1).addrT [0, 1]) = some (some (-640 / 9)) := by decide +kernel
  have h1 : leaves ((inOrder (fun c : BcCall Rat => Cuda.setPoissonBc2d 0 1 1 2 exDx 2 ⟨1, 0⟩ c.lo c.hi c.order c.face 1 c.btype c.alpha c.beta c.sched) [exFill (exSeg 0 0 0) (exSeg 1 0 0) 2 4] (exFun (fun _ => ((F.cell2d ⟨1, 0⟩ 0 1 1 2 2).dims, exTwo 1 100))) >>= fun m0 =>
        Cuda.poissonFlux2d 0 1 1 2 exDx 2 ⟨1, 0⟩ ⟨5, 0⟩ ⟨6, 0⟩ (fun _ => revBackend) m0 >>= fun m1 =>
        Cuda.poissonV2Apply2d 0 1 1 2 2 exDx ⟨5, 0⟩ ⟨6, 0⟩ 1 ⟨8, 0⟩ (fun _ => seqBackend) m1)) ((F.cell2d ⟨8, 0⟩ 0 1 1 2 1).addrT [0, 2]) = some (some (-8 / 9)) := by decide +kernel
  have h2 : leaves ((inOrder (fun c : BcCall Rat => Cuda.setPoissonBc2d 0 1 1 2 exDx 2 ⟨1, 0⟩ c.lo c.hi c.order c.face 1 c.btype c.alpha c.beta c.sched) [exFill (exSeg 0 0 0) (exSeg 1 0 0) 2 4] (exFun (fun _ => ((F.cell2d ⟨1, 0⟩ 0 1 1 2 2).dims, exTwo 1 100))) >>= fun m0 =>
        Cuda.poissonFlux2d 0 1 1 2 exDx 2 ⟨1, 0⟩ ⟨5, 0⟩ ⟨6, 0⟩ (fun _ => revBackend) m0 >>= fun m1 =>
        Cuda.poissonV2Apply2d 0 1 1 2 2 exDx ⟨5, 0⟩ ⟨6, 0⟩ 1 ⟨8, 0⟩ (fun _ => seqBackend) m1)) ((F.cell2d ⟨8, 0⟩ 0 1 1 2 1).addrT [1, 1]) = some (some (-8)) := by decide +kernel
  have h3 : leaves ((inOrder (fun c : BcCall Rat => Cuda.setPoissonBc2d 0 1 1 2 exDx 2 ⟨1, 0⟩ c.lo c.hi c.order c.face 1 c.btype c.alpha c.beta c.sched) [exFill (exSeg 0 0 0) (exSeg 1 0 0) 2 4] (exFun (fun _ => ((F.cell2d ⟨1, 0⟩ 0 1 1 2 2).dims, exTwo 1 100))) >>= fun m0 =>
        Cuda.poissonFlux2d 0 1 1 2 exDx 2 ⟨1, 0⟩ ⟨5, 0⟩ ⟨6, 0⟩ (fun _ => revBackend) m0 >>= fun m1 =>
        Cuda.poissonV2Apply2d 0 1 1 2 2 exDx ⟨5, 0⟩ ⟨6, 0⟩ 1 ⟨8, 0⟩ (fun _ => seqBackend) m1)) ((F.cell2d ⟨8, 0⟩ 0 1 1 2 1).addrT [1, 2]) = some (some (0)) := by decide +kernel
  have g0 : leaves ((inOrder (fun c : BcCall Rat => Cuda.setPoissonBc2d 0 1 1 2 exDx 2 ⟨1, 0⟩ c.lo c.hi c.order c.face 1 c.btype c.alpha c.beta c.sched) [exFill (exSeg 0 0 0) (exSeg 1 0 0) 2 4] (exFun (fun _ => ((F.cell2d ⟨1, 0⟩ 0 1 1 2 2).dims, exTwo 0 0))) >>= fun m0 =>
        Cuda.poissonFlux2d 0 1 1 2 exDx 2 ⟨1, 0⟩ ⟨5, 0⟩ ⟨6, 0⟩ (fun _ => revBackend) m0 >>= fun m1 =>
        Cuda.poissonV2Apply2d 0 1 1 2 2 exDx ⟨5, 0⟩ ⟨6, 0⟩ 1 ⟨8, 0⟩ (fun _ => seqBackend) m1)) ((F.cell2d ⟨8, 0⟩ 0 1 1 2 1).addrT [0, 1]) = some (some (0)) := by decide +kernel
  have g1 : leaves ((inOrder (fun c : BcCall Rat => Cuda.setPoissonBc2d 0 1 1 2 exDx 2 ⟨1, 0⟩ c.lo c.hi c.order c.face 1 c.btype c.alpha c.beta c.sched) [exFill (exSeg 0 0 0) (exSeg 1 0 0) 2 4] (exFun (fun _ => ((F.cell2d ⟨1, 0⟩ 0 1 1 2 2).dims, exTwo 0 0))) >>= fun m0 =>
        Cuda.poissonFlux2d 0 1 1 2 exDx 2 ⟨1, 0⟩ ⟨5, 0⟩ ⟨6, 0⟩ (fun _ => revBackend) m0 >>= fun m1 =>
        Cuda.poissonV2Apply2d 0 1 1 2 2 exDx ⟨5, 0⟩ ⟨6, 0⟩ 1 ⟨8, 0⟩ (fun _ => seqBackend) m1)) ((F.cell2d ⟨8, 0⟩ 0 1 1 2 1).addrT [0, 2]) = some (some (0)) := by decide +kernel
  have g2 : leaves ((inOrder (fun c : BcCall Rat => Cuda.setPoissonBc2d 0 1 1 2 exDx 2 ⟨1, 0⟩ c.lo c.hi c.order c.face 1 c.btype c.alpha c.beta c.sched) [exFill (exSeg 0 0 0) (exSeg 1 0 0) 2 4] (exFun (fun _ => ((F.cell2d ⟨1, 0⟩ 0 1 1 2 2).dims, exTwo 0 0))) >>= fun m0 =>
        Cuda.poissonFlux2d 0 1 1 2 exDx 2 ⟨1, 0⟩ ⟨5, 0⟩ ⟨6, 0⟩ (fun _ => revBackend) m0 >>= fun m1 =>
        Cuda.poissonV2Apply2d 0 1 1 2 2 exDx ⟨5, 0⟩ ⟨6, 0⟩ 1 ⟨8, 0⟩ (fun _ => seqBackend) m1)) ((F.cell2d ⟨8, 0⟩ 0 1 1 2 1).addrT [1, 1]) = some (some (0)) := by decide +kernel
  have g3 : leaves ((inOrder (fun c : BcCall Rat => Cuda.setPoissonBc2d 0 1 1 2 exDx 2 ⟨1, 0⟩ c.lo c.hi c.order c.face 1 c.btype c.alpha c.beta c.sched) [exFill (exSeg 0 0 0) (exSeg 1 0 0) 2 4] (exFun (fun _ => ((F.cell2d ⟨1, 0⟩ 0 1 1 2 2).dims, exTwo 0 0))) >>= fun m0 =>
        Cuda.poissonFlux2d 0 1 1 2 exDx 2 ⟨1, 0⟩ ⟨5, 0⟩ ⟨6, 0⟩ (fun _ => revBackend) m0 >>= fun m1 =>
        Cuda.poissonV2Apply2d 0 1 1 2 2 exDx ⟨5, 0⟩ ⟨6, 0⟩ 1 ⟨8, 0⟩ (fun _ => seqBackend) m1)) ((F.cell2d ⟨8, 0⟩ 0 1 1 2 1).addrT [1, 2]) = some (some (0)) := by decide +kernel
  obtain ⟨m2, e0, v0⟩ := leaves_eq h0
  obtain ⟨n2, f0, w0⟩ := leaves_eq g0
  obtain ⟨q1, e1, v1⟩ := leaves_eq h1
  obtain ⟨r1, f1, w1⟩ := leaves_eq g1
  rw [e0] at e1
  rw [f0] at f1
  cases e1
  cases f1
  obtain ⟨q2, e2, v2⟩ := leaves_eq h2
  obtain ⟨r2, f2, w2⟩ := leaves_eq g2
  rw [e0] at e2
  rw [f0] at f2
  cases e2
  cases f2
  obtain ⟨q3, e3, v3⟩ := leaves_eq h3
  obtain ⟨r3, f3, w3⟩ := leaves_eq g3
  rw [e0] at e3
  rw [f0] at f3
  cases e3
  cases f3
  refine ⟨_, _, _, exTwo 1 100, exTwo 0 0, ⟨by simp only [InInt]; decide +kernel, fun _ => revBackend_ok⟩, ?_, ?_, exFun_args (by ex_args), exFun_args (by ex_args), exFun_args (by ex_args), exFun_args (by ex_args),
    exFun_holds rfl rfl (exRat_ok rfl (by decide) (by decide)), exFun_holds rfl rfl (exRat_ok rfl (by decide) (by decide)), fun g hg => by rw [exTwo_unc rfl g hg, exTwo_unc rfl g hg], ell, ⟨exDx_pos _, fun p _ => mul_nonneg (by norm_num [exFill]) (exOn2 exOne exOne _ _ _)⟩, ?_, m2, n2, e0, f0, fun R S hR hS => ⟨fun p hp => ?_, fun h => ?_⟩⟩
  · simp [BcCall.Along2, Spec.Part, exFill, exSeg]
  · exact exSolvable (by simp [F.First, exFill]) (exDx_pos _) (exOn2 exOne exOne _ _) (by norm_num [exFill]) (by norm_num [exFill])
  · refine ⟨[0, 1], by decide, Or.inr ⟨3, by decide, by decide, by rw [F.shift2_3]; simp [F.InBounds], fun q hq _ _ => ?_⟩⟩
    obtain ⟨s, hs, rfl⟩ := List.mem_map.1 hq
    rw [List.mem_singleton.1 hs]
    decide
  · obtain ⟨i, j, rfl, h⟩ := F.inBounds2.1 hp
    have hi : i = 0 ∨ i = 1 := by omega
    have hj : j = 1 ∨ j = 2 := by omega
    rcases hi with rfl | rfl <;> rcases hj with rfl | rfl
    · rw [(hR _ hp).inj ⟨by decide, v0⟩, (hS _ hp).inj ⟨by decide, w0⟩]; norm_num
    · rw [(hR _ hp).inj ⟨by decide, v1⟩, (hS _ hp).inj ⟨by decide, w1⟩]; norm_num
    · rw [(hR _ hp).inj ⟨by decide, v2⟩, (hS _ hp).inj ⟨by decide, w2⟩]; norm_num
    · rw [(hR _ hp).inj ⟨by decide, v3⟩, (hS _ hp).inj ⟨by decide, w3⟩]
  · have := h [0, 1] (by decide)
    norm_num [exTwo] at this


end Verif
