import Verif.Lemmas.EnergyRun
import Verif.Lemmas.ExWith

/-
C87: on data that do not depend on the last direction the operator kernels give the results of the kernels of one dimension less.
-/

namespace Verif
open Spec

set_option linter.unusedVariables false
set_option linter.unusedSectionVars false

variable {T : Type} [Field T] [LinearOrder T] [IsStrictOrderedRing T]

/-- 2D, diffusion operator with cell coefficients: on data that do not depend on the last direction, whatever the coefficients of the last faces, the results are those of the 1D kernels. -/
theorem C87_v1_2d {i0 j0 i1 j1 agcw gcw rgcw agcw' gcw' rgcw' : Int} {alpha beta : T} {dx : Nat → T} {a u b0 b1 f0 f1 res a' u' b0' f0' res' : Ptr} {β1 β2 β1' β2' : Nat → Backend} {m m' : Mem T} {A B0 B1 U : List Int → T}
    (hβ1 : ∀ n, ValidBackend (β1 n)) (hβ2 : ∀ n, ValidBackend (β2 n)) (hβ1' : ∀ n, ValidBackend (β1' n)) (hβ2' : ∀ n, ValidBackend (β2' n)) (hi : i0 ≤ i1) (hj : j0 ≤ j1) (hg : 1 ≤ gcw) (hagcw : 0 ≤ agcw) (hrgcw : 0 ≤ rgcw) (hg' : 1 ≤ gcw') (hagcw' : 0 ≤ agcw') (hrgcw' : 0 ≤ rgcw')
    (h : F.Args m [(F.cell2d a i0 j0 i1 j1 agcw), (F.cell2d u i0 j0 i1 j1 gcw), (F.face2d0 b0 i0 j0 i1 j1 0), (F.face2d1 b1 i0 j0 i1 j1 0)] [(F.face2d0 f0 i0 j0 i1 j1 0), (F.face2d1 f1 i0 j0 i1 j1 0), (F.cell2d res i0 j0 i1 j1 rgcw)]) (hp : F.Apart (F.face2d0 f0 i0 j0 i1 j1 0) (F.face2d1 f1 i0 j0 i1 j1 0)) (hr : F.Apart (F.cell2d res i0 j0 i1 j1 rgcw) (F.face2d0 f0 i0 j0 i1 j1 0) ∧ F.Apart (F.cell2d res i0 j0 i1 j1 rgcw) (F.face2d1 f1 i0 j0 i1 j1 0))
    (h' : F.Args m' [(F.cell1d a' i0 i1 agcw'), (F.cell1d u' i0 i1 gcw'), (F.face1d b0' i0 i1 0)] [(F.face1d f0' i0 i1 0), (F.cell1d res' i0 i1 rgcw')]) (hr' : F.Apart (F.cell1d res' i0 i1 rgcw') (F.face1d f0' i0 i1 0))
    (hA : F.Holds m (F.cell2d a i0 j0 i1 j1 agcw) (fun p => A [p.getD 0 0])) (hB0 : F.Holds m (F.face2d0 b0 i0 j0 i1 j1 0) (fun p => B0 [p.getD 0 0])) (hB1 : F.Holds m (F.face2d1 b1 i0 j0 i1 j1 0) B1) (hU : F.Holds m (F.cell2d u i0 j0 i1 j1 gcw) (fun p => U [p.getD 0 0]))
    (hA' : F.Holds m' (F.cell1d a' i0 i1 agcw') A) (hB0' : F.Holds m' (F.face1d b0' i0 i1 0) B0) (hU' : F.Holds m' (F.cell1d u' i0 i1 gcw') U) :
    ∃ m1 m2 m1' m2', Cuda.flux2d i0 j0 i1 j1 dx b0 b1 gcw u f0 f1 β1 m = .ok m1 ∧ Cuda.diffusionV1Apply2d i0 i1 j0 j1 alpha beta dx agcw a gcw u f0 f1 rgcw res β2 m1 = .ok m2 ∧ Cuda.flux1d i0 i1 dx b0' gcw' u' f0' β1' m' = .ok m1' ∧ Cuda.diffusionV1Apply1d i0 i1 alpha beta dx agcw' a' gcw' u' f0' rgcw' res' β2' m1' = .ok m2' ∧
      ∀ i j, i0 ≤ i → i ≤ i1 → j0 ≤ j → j ≤ j1 → ∃ v, F.El m2 (F.cell2d res i0 j0 i1 j1 rgcw) [i, j] v ∧ F.El m2' (F.cell1d res' i0 i1 rgcw') [i] v := by
  obtain ⟨m1, m2, R, c1, c2, e, hR⟩ := energy_v1_2 (alpha := alpha) (beta := beta) (dx := dx) hβ1 hβ2 hi hj hg hagcw hrgcw h hp hr hA hB0 hB1 hU
  obtain ⟨m1', m2', R', c1', c2', e', hR'⟩ := energy_v1_1 (alpha := alpha) (beta := beta) (dx := dx) hβ1' hβ2' hi hg' hagcw' hrgcw' h' hr' hA' hB0' hU'
  refine ⟨m1, m2, m1', m2', c1, c2, c1', c2', fun i j ia ib ja jb => ⟨_, e [i, j] (F.inBounds2.2 ⟨i, j, rfl, by omega⟩), ?_⟩⟩
  have x := e' [i] (F.inBounds1.2 ⟨i, rfl, by omega⟩)
  rw [hR' i ia ib] at x
  rw [hR i j ia ib ja jb]
  convert x using 1
  simp only [F.op2, F.op1, List.getD_cons_zero, List.getD_cons_succ]
  ring

example := C87_v1_2d (T := Rat) (i0 := 0) (j0 := 1) (i1 := 2) (j1 := 3) (agcw := 1) (gcw := 2) (rgcw := 1) (agcw' := 1) (gcw' := 2) (rgcw' := 1) (a := ⟨0, 0⟩) (u := ⟨1, 0⟩) (b0 := ⟨2, 0⟩) (b1 := ⟨3, 0⟩) (f0 := ⟨5, 0⟩) (f1 := ⟨6, 0⟩) (res := ⟨8, 0⟩) (a' := ⟨0, 0⟩) (u' := ⟨1, 0⟩) (b0' := ⟨2, 0⟩) (f0' := ⟨5, 0⟩) (res' := ⟨8, 0⟩) (alpha := 3) (beta := 2) (dx := exDx) (β1 := fun _ => revBackend) (β2 := fun _ => seqBackend) (β1' := fun _ => revBackend) (β2' := fun _ => seqBackend)
  (m := exWith [((F.cell2d ⟨0, 0⟩ 0 1 2 3 1), (fun p => exRd (F.cell1d ⟨0, 0⟩ 0 2 1) [p.getD 0 0])), ((F.face2d0 ⟨2, 0⟩ 0 1 2 3 0), (fun p => exRd (F.face1d ⟨2, 0⟩ 0 2 0) [p.getD 0 0])), ((F.face2d1 ⟨3, 0⟩ 0 1 2 3 0), (exRd (F.face2d1 ⟨3, 0⟩ 0 1 2 3 0))), ((F.cell2d ⟨1, 0⟩ 0 1 2 3 2), (fun p => exRd (F.cell1d ⟨1, 0⟩ 0 2 2) [p.getD 0 0]))])
  (m' := exWith [((F.cell1d ⟨0, 0⟩ 0 2 1), (exRd (F.cell1d ⟨0, 0⟩ 0 2 1))), ((F.face1d ⟨2, 0⟩ 0 2 0), (exRd (F.face1d ⟨2, 0⟩ 0 2 0))), ((F.cell1d ⟨1, 0⟩ 0 2 2), (exRd (F.cell1d ⟨1, 0⟩ 0 2 2)))])
  (fun _ => revBackend_ok) (fun _ => seqBackend_ok) (fun _ => revBackend_ok) (fun _ => seqBackend_ok) (by decide) (by decide) (by decide) (by decide) (by decide) (by decide) (by decide) (by decide) (exWith_args (by ex_args)) (apart_blk (by decide)) ⟨apart_blk (by decide), apart_blk (by decide)⟩ (exWith_args (by ex_args)) (apart_blk (by decide)) (exWith_rd (exRat_ok rfl (by decide) (by decide)) rfl rfl) (exWith_rd (exRat_ok rfl (by decide) (by decide)) rfl rfl) (exWith_rd (exRat_ok rfl (by decide) (by decide)) rfl rfl) (exWith_rd (exRat_ok rfl (by decide) (by decide)) rfl rfl) (exWith_rd (exRat_ok rfl (by decide) (by decide)) rfl rfl) (exWith_rd (exRat_ok rfl (by decide) (by decide)) rfl rfl) (exWith_rd (exRat_ok rfl (by decide) (by decide)) rfl rfl)

/-- 2D, diffusion operator with constant reaction: on data that do not depend on the last direction, whatever the coefficients of the last faces, the results are those of the 1D kernels. -/
theorem C87_v2_2d {i0 j0 i1 j1 gcw rgcw gcw' rgcw' : Int} {alpha beta : T} {dx : Nat → T} {u b0 b1 f0 f1 res u' b0' f0' res' : Ptr} {β1 β2 β1' β2' : Nat → Backend} {m m' : Mem T} {B0 B1 U : List Int → T}
    (hβ1 : ∀ n, ValidBackend (β1 n)) (hβ2 : ∀ n, ValidBackend (β2 n)) (hβ1' : ∀ n, ValidBackend (β1' n)) (hβ2' : ∀ n, ValidBackend (β2' n)) (hi : i0 ≤ i1) (hj : j0 ≤ j1) (hg : 1 ≤ gcw) (hrgcw : 0 ≤ rgcw) (hg' : 1 ≤ gcw') (hrgcw' : 0 ≤ rgcw')
    (h : F.Args m [(F.cell2d u i0 j0 i1 j1 gcw), (F.face2d0 b0 i0 j0 i1 j1 0), (F.face2d1 b1 i0 j0 i1 j1 0)] [(F.face2d0 f0 i0 j0 i1 j1 0), (F.face2d1 f1 i0 j0 i1 j1 0), (F.cell2d res i0 j0 i1 j1 rgcw)]) (hp : F.Apart (F.face2d0 f0 i0 j0 i1 j1 0) (F.face2d1 f1 i0 j0 i1 j1 0)) (hr : F.Apart (F.cell2d res i0 j0 i1 j1 rgcw) (F.face2d0 f0 i0 j0 i1 j1 0) ∧ F.Apart (F.cell2d res i0 j0 i1 j1 rgcw) (F.face2d1 f1 i0 j0 i1 j1 0))
    (h' : F.Args m' [(F.cell1d u' i0 i1 gcw'), (F.face1d b0' i0 i1 0)] [(F.face1d f0' i0 i1 0), (F.cell1d res' i0 i1 rgcw')]) (hr' : F.Apart (F.cell1d res' i0 i1 rgcw') (F.face1d f0' i0 i1 0))
    (hB0 : F.Holds m (F.face2d0 b0 i0 j0 i1 j1 0) (fun p => B0 [p.getD 0 0])) (hB1 : F.Holds m (F.face2d1 b1 i0 j0 i1 j1 0) B1) (hU : F.Holds m (F.cell2d u i0 j0 i1 j1 gcw) (fun p => U [p.getD 0 0]))
    (hB0' : F.Holds m' (F.face1d b0' i0 i1 0) B0) (hU' : F.Holds m' (F.cell1d u' i0 i1 gcw') U) :
    ∃ m1 m2 m1' m2', Cuda.flux2d i0 j0 i1 j1 dx b0 b1 gcw u f0 f1 β1 m = .ok m1 ∧ Cuda.diffusionV2Apply2d i0 i1 j0 j1 alpha beta dx gcw u f0 f1 rgcw res β2 m1 = .ok m2 ∧ Cuda.flux1d i0 i1 dx b0' gcw' u' f0' β1' m' = .ok m1' ∧ Cuda.diffusionV2Apply1d i0 i1 alpha beta dx gcw' u' f0' rgcw' res' β2' m1' = .ok m2' ∧
      ∀ i j, i0 ≤ i → i ≤ i1 → j0 ≤ j → j ≤ j1 → ∃ v, F.El m2 (F.cell2d res i0 j0 i1 j1 rgcw) [i, j] v ∧ F.El m2' (F.cell1d res' i0 i1 rgcw') [i] v := by
  obtain ⟨m1, m2, R, c1, c2, e, hR⟩ := energy_v2_2 (alpha := alpha) (beta := beta) (dx := dx) hβ1 hβ2 hi hj hg hrgcw h hp hr hB0 hB1 hU
  obtain ⟨m1', m2', R', c1', c2', e', hR'⟩ := energy_v2_1 (alpha := alpha) (beta := beta) (dx := dx) hβ1' hβ2' hi hg' hrgcw' h' hr' hB0' hU'
  refine ⟨m1, m2, m1', m2', c1, c2, c1', c2', fun i j ia ib ja jb => ⟨_, e [i, j] (F.inBounds2.2 ⟨i, j, rfl, by omega⟩), ?_⟩⟩
  have x := e' [i] (F.inBounds1.2 ⟨i, rfl, by omega⟩)
  rw [hR' i ia ib] at x
  rw [hR i j ia ib ja jb]
  convert x using 1
  simp only [F.op2, F.op1, List.getD_cons_zero, List.getD_cons_succ]
  ring

example := C87_v2_2d (T := Rat) (i0 := 0) (j0 := 1) (i1 := 2) (j1 := 3) (gcw := 2) (rgcw := 1) (gcw' := 2) (rgcw' := 1) (u := ⟨1, 0⟩) (b0 := ⟨2, 0⟩) (b1 := ⟨3, 0⟩) (f0 := ⟨5, 0⟩) (f1 := ⟨6, 0⟩) (res := ⟨8, 0⟩) (u' := ⟨1, 0⟩) (b0' := ⟨2, 0⟩) (f0' := ⟨5, 0⟩) (res' := ⟨8, 0⟩) (alpha := 3) (beta := 2) (dx := exDx) (β1 := fun _ => revBackend) (β2 := fun _ => seqBackend) (β1' := fun _ => revBackend) (β2' := fun _ => seqBackend)
  (m := exWith [((F.face2d0 ⟨2, 0⟩ 0 1 2 3 0), (fun p => exRd (F.face1d ⟨2, 0⟩ 0 2 0) [p.getD 0 0])), ((F.face2d1 ⟨3, 0⟩ 0 1 2 3 0), (exRd (F.face2d1 ⟨3, 0⟩ 0 1 2 3 0))), ((F.cell2d ⟨1, 0⟩ 0 1 2 3 2), (fun p => exRd (F.cell1d ⟨1, 0⟩ 0 2 2) [p.getD 0 0]))])
  (m' := exWith [((F.face1d ⟨2, 0⟩ 0 2 0), (exRd (F.face1d ⟨2, 0⟩ 0 2 0))), ((F.cell1d ⟨1, 0⟩ 0 2 2), (exRd (F.cell1d ⟨1, 0⟩ 0 2 2)))])
  (fun _ => revBackend_ok) (fun _ => seqBackend_ok) (fun _ => revBackend_ok) (fun _ => seqBackend_ok) (by decide) (by decide) (by decide) (by decide) (by decide) (by decide) (exWith_args (by ex_args)) (apart_blk (by decide)) ⟨apart_blk (by decide), apart_blk (by decide)⟩ (exWith_args (by ex_args)) (apart_blk (by decide)) (exWith_rd (exRat_ok rfl (by decide) (by decide)) rfl rfl) (exWith_rd (exRat_ok rfl (by decide) (by decide)) rfl rfl) (exWith_rd (exRat_ok rfl (by decide) (by decide)) rfl rfl) (exWith_rd (exRat_ok rfl (by decide) (by decide)) rfl rfl) (exWith_rd (exRat_ok rfl (by decide) (by decide)) rfl rfl)

/-- 2D, Poisson operator: on data that do not depend on the last direction the results are those of the 1D kernels. -/
theorem C87_poisson_2d {i0 j0 i1 j1 gcw rgcw gcw' rgcw' : Int} {beta : T} {dx : Nat → T} {u f0 f1 res u' f0' res' : Ptr} {β1 β2 β1' β2' : Nat → Backend} {m m' : Mem T} {U : List Int → T}
    (hβ1 : ∀ n, ValidBackend (β1 n)) (hβ2 : ∀ n, ValidBackend (β2 n)) (hβ1' : ∀ n, ValidBackend (β1' n)) (hβ2' : ∀ n, ValidBackend (β2' n)) (hi : i0 ≤ i1) (hj : j0 ≤ j1) (hg : 1 ≤ gcw) (hrgcw : 0 ≤ rgcw) (hg' : 1 ≤ gcw') (hrgcw' : 0 ≤ rgcw')
    (h : F.Args m [(F.cell2d u i0 j0 i1 j1 gcw)] [(F.face2d0 f0 i0 j0 i1 j1 0), (F.face2d1 f1 i0 j0 i1 j1 0), (F.cell2d res i0 j0 i1 j1 rgcw)]) (hp : F.Apart (F.face2d0 f0 i0 j0 i1 j1 0) (F.face2d1 f1 i0 j0 i1 j1 0)) (hr : F.Apart (F.cell2d res i0 j0 i1 j1 rgcw) (F.face2d0 f0 i0 j0 i1 j1 0) ∧ F.Apart (F.cell2d res i0 j0 i1 j1 rgcw) (F.face2d1 f1 i0 j0 i1 j1 0))
    (h' : F.Args m' [(F.cell1d u' i0 i1 gcw')] [(F.face1d f0' i0 i1 0), (F.cell1d res' i0 i1 rgcw')]) (hr' : F.Apart (F.cell1d res' i0 i1 rgcw') (F.face1d f0' i0 i1 0))
    (hU : F.Holds m (F.cell2d u i0 j0 i1 j1 gcw) (fun p => U [p.getD 0 0]))
    (hU' : F.Holds m' (F.cell1d u' i0 i1 gcw') U) :
    ∃ m1 m2 m1' m2', Cuda.poissonFlux2d i0 j0 i1 j1 dx gcw u f0 f1 β1 m = .ok m1 ∧ Cuda.poissonV2Apply2d i0 i1 j0 j1 beta dx f0 f1 rgcw res β2 m1 = .ok m2 ∧ Cuda.poissonFlux1d i0 i1 dx gcw' u' f0' β1' m' = .ok m1' ∧ Cuda.poissonV2Apply1d i0 i1 beta dx f0' rgcw' res' β2' m1' = .ok m2' ∧
      ∀ i j, i0 ≤ i → i ≤ i1 → j0 ≤ j → j ≤ j1 → ∃ v, F.El m2 (F.cell2d res i0 j0 i1 j1 rgcw) [i, j] v ∧ F.El m2' (F.cell1d res' i0 i1 rgcw') [i] v := by
  obtain ⟨m1, m2, R, c1, c2, e, hR⟩ := energy_p_2 (beta := beta) (dx := dx) hβ1 hβ2 hi hj hg hrgcw h hp hr hU
  obtain ⟨m1', m2', R', c1', c2', e', hR'⟩ := energy_p_1 (beta := beta) (dx := dx) hβ1' hβ2' hi hg' hrgcw' h' hr' hU'
  refine ⟨m1, m2, m1', m2', c1, c2, c1', c2', fun i j ia ib ja jb => ⟨_, e [i, j] (F.inBounds2.2 ⟨i, j, rfl, by omega⟩), ?_⟩⟩
  have x := e' [i] (F.inBounds1.2 ⟨i, rfl, by omega⟩)
  rw [hR' i ia ib] at x
  rw [hR i j ia ib ja jb]
  convert x using 1
  simp only [F.op2, F.op1, List.getD_cons_zero, List.getD_cons_succ]
  ring

example := C87_poisson_2d (T := Rat) (i0 := 0) (j0 := 1) (i1 := 2) (j1 := 3) (gcw := 2) (rgcw := 1) (gcw' := 2) (rgcw' := 1) (u := ⟨1, 0⟩) (f0 := ⟨5, 0⟩) (f1 := ⟨6, 0⟩) (res := ⟨8, 0⟩) (u' := ⟨1, 0⟩) (f0' := ⟨5, 0⟩) (res' := ⟨8, 0⟩) (beta := 2) (dx := exDx) (β1 := fun _ => revBackend) (β2 := fun _ => seqBackend) (β1' := fun _ => revBackend) (β2' := fun _ => seqBackend)
  (m := exWith [((F.cell2d ⟨1, 0⟩ 0 1 2 3 2), (fun p => exRd (F.cell1d ⟨1, 0⟩ 0 2 2) [p.getD 0 0]))])
  (m' := exWith [((F.cell1d ⟨1, 0⟩ 0 2 2), (exRd (F.cell1d ⟨1, 0⟩ 0 2 2)))])
  (fun _ => revBackend_ok) (fun _ => seqBackend_ok) (fun _ => revBackend_ok) (fun _ => seqBackend_ok) (by decide) (by decide) (by decide) (by decide) (by decide) (by decide) (exWith_args (by ex_args)) (apart_blk (by decide)) ⟨apart_blk (by decide), apart_blk (by decide)⟩ (exWith_args (by ex_args)) (apart_blk (by decide)) (exWith_rd (exRat_ok rfl (by decide) (by decide)) rfl rfl) (exWith_rd (exRat_ok rfl (by decide) (by decide)) rfl rfl)

/-- 3D, diffusion operator with cell coefficients: on data that do not depend on the last direction, whatever the coefficients of the last faces, the results are those of the 2D kernels. -/
theorem C87_v1_3d {i0 j0 k0 i1 j1 k1 agcw gcw rgcw agcw' gcw' rgcw' : Int} {alpha beta : T} {dx : Nat → T} {a u b0 b1 b2 f0 f1 f2 res a' u' b0' b1' f0' f1' res' : Ptr} {β1 β2 β1' β2' : Nat → Backend} {m m' : Mem T} {A B0 B1 B2 U : List Int → T}
    (hβ1 : ∀ n, ValidBackend (β1 n)) (hβ2 : ∀ n, ValidBackend (β2 n)) (hβ1' : ∀ n, ValidBackend (β1' n)) (hβ2' : ∀ n, ValidBackend (β2' n)) (hi : i0 ≤ i1) (hj : j0 ≤ j1) (hk : k0 ≤ k1) (hg : 1 ≤ gcw) (hagcw : 0 ≤ agcw) (hrgcw : 0 ≤ rgcw) (hg' : 1 ≤ gcw') (hagcw' : 0 ≤ agcw') (hrgcw' : 0 ≤ rgcw')
    (h : F.Args m [(F.cell3d a i0 j0 k0 i1 j1 k1 agcw), (F.cell3d u i0 j0 k0 i1 j1 k1 gcw), (F.face3d0 b0 i0 j0 k0 i1 j1 k1 0), (F.face3d1 b1 i0 j0 k0 i1 j1 k1 0), (F.face3d2 b2 i0 j0 k0 i1 j1 k1 0)] [(F.face3d0 f0 i0 j0 k0 i1 j1 k1 0), (F.face3d1 f1 i0 j0 k0 i1 j1 k1 0), (F.face3d2 f2 i0 j0 k0 i1 j1 k1 0), (F.cell3d res i0 j0 k0 i1 j1 k1 rgcw)]) (hp : F.Apart (F.face3d0 f0 i0 j0 k0 i1 j1 k1 0) (F.face3d1 f1 i0 j0 k0 i1 j1 k1 0) ∧ F.Apart (F.face3d0 f0 i0 j0 k0 i1 j1 k1 0) (F.face3d2 f2 i0 j0 k0 i1 j1 k1 0) ∧ F.Apart (F.face3d1 f1 i0 j0 k0 i1 j1 k1 0) (F.face3d2 f2 i0 j0 k0 i1 j1 k1 0)) (hr : F.Apart (F.cell3d res i0 j0 k0 i1 j1 k1 rgcw) (F.face3d0 f0 i0 j0 k0 i1 j1 k1 0) ∧ F.Apart (F.cell3d res i0 j0 k0 i1 j1 k1 rgcw) (F.face3d1 f1 i0 j0 k0 i1 j1 k1 0) ∧ F.Apart (F.cell3d res i0 j0 k0 i1 j1 k1 rgcw) (F.face3d2 f2 i0 j0 k0 i1 j1 k1 0))
    (h' : F.Args m' [(F.cell2d a' i0 j0 i1 j1 agcw'), (F.cell2d u' i0 j0 i1 j1 gcw'), (F.face2d0 b0' i0 j0 i1 j1 0), (F.face2d1 b1' i0 j0 i1 j1 0)] [(F.face2d0 f0' i0 j0 i1 j1 0), (F.face2d1 f1' i0 j0 i1 j1 0), (F.cell2d res' i0 j0 i1 j1 rgcw')]) (hp' : F.Apart (F.face2d0 f0' i0 j0 i1 j1 0) (F.face2d1 f1' i0 j0 i1 j1 0)) (hr' : F.Apart (F.cell2d res' i0 j0 i1 j1 rgcw') (F.face2d0 f0' i0 j0 i1 j1 0) ∧ F.Apart (F.cell2d res' i0 j0 i1 j1 rgcw') (F.face2d1 f1' i0 j0 i1 j1 0))
    (hA : F.Holds m (F.cell3d a i0 j0 k0 i1 j1 k1 agcw) (fun p => A [p.getD 0 0, p.getD 1 0])) (hB0 : F.Holds m (F.face3d0 b0 i0 j0 k0 i1 j1 k1 0) (fun p => B0 [p.getD 0 0, p.getD 1 0])) (hB1 : F.Holds m (F.face3d1 b1 i0 j0 k0 i1 j1 k1 0) (fun p => B1 [p.getD 0 0, p.getD 2 0])) (hB2 : F.Holds m (F.face3d2 b2 i0 j0 k0 i1 j1 k1 0) B2) (hU : F.Holds m (F.cell3d u i0 j0 k0 i1 j1 k1 gcw) (fun p => U [p.getD 0 0, p.getD 1 0]))
    (hA' : F.Holds m' (F.cell2d a' i0 j0 i1 j1 agcw') A) (hB0' : F.Holds m' (F.face2d0 b0' i0 j0 i1 j1 0) B0) (hB1' : F.Holds m' (F.face2d1 b1' i0 j0 i1 j1 0) B1) (hU' : F.Holds m' (F.cell2d u' i0 j0 i1 j1 gcw') U) :
    ∃ m1 m2 m1' m2', Cuda.flux3d i0 j0 k0 i1 j1 k1 dx b0 b1 b2 gcw u f0 f1 f2 β1 m = .ok m1 ∧ Cuda.diffusionV1Apply3d i0 i1 j0 j1 k0 k1 alpha beta dx agcw a gcw u f0 f1 f2 rgcw res β2 m1 = .ok m2 ∧ Cuda.flux2d i0 j0 i1 j1 dx b0' b1' gcw' u' f0' f1' β1' m' = .ok m1' ∧ Cuda.diffusionV1Apply2d i0 i1 j0 j1 alpha beta dx agcw' a' gcw' u' f0' f1' rgcw' res' β2' m1' = .ok m2' ∧
      ∀ i j k, i0 ≤ i → i ≤ i1 → j0 ≤ j → j ≤ j1 → k0 ≤ k → k ≤ k1 → ∃ v, F.El m2 (F.cell3d res i0 j0 k0 i1 j1 k1 rgcw) [i, j, k] v ∧ F.El m2' (F.cell2d res' i0 j0 i1 j1 rgcw') [i, j] v := by
  obtain ⟨m1, m2, R, c1, c2, e, hR⟩ := energy_v1_3 (alpha := alpha) (beta := beta) (dx := dx) hβ1 hβ2 hi hj hk hg hagcw hrgcw h hp hr hA hB0 hB1 hB2 hU
  obtain ⟨m1', m2', R', c1', c2', e', hR'⟩ := energy_v1_2 (alpha := alpha) (beta := beta) (dx := dx) hβ1' hβ2' hi hj hg' hagcw' hrgcw' h' hp' hr' hA' hB0' hB1' hU'
  refine ⟨m1, m2, m1', m2', c1, c2, c1', c2', fun i j k ia ib ja jb ka kb => ⟨_, e [i, j, k] (F.inBounds3.2 ⟨i, j, k, rfl, by omega⟩), ?_⟩⟩
  have x := e' [i, j] (F.inBounds2.2 ⟨i, j, rfl, by omega⟩)
  rw [hR' i j ia ib ja jb] at x
  rw [hR i j k ia ib ja jb ka kb]
  convert x using 1
  simp only [F.op3, F.op2, List.getD_cons_zero, List.getD_cons_succ]
  ring

example := C87_v1_3d (T := Rat) (i0 := 0) (j0 := 1) (k0 := 2) (i1 := 1) (j1 := 2) (k1 := 3) (agcw := 1) (gcw := 2) (rgcw := 1) (agcw' := 1) (gcw' := 2) (rgcw' := 1) (a := ⟨0, 0⟩) (u := ⟨1, 0⟩) (b0 := ⟨2, 0⟩) (b1 := ⟨3, 0⟩) (b2 := ⟨4, 0⟩) (f0 := ⟨5, 0⟩) (f1 := ⟨6, 0⟩) (f2 := ⟨7, 0⟩) (res := ⟨8, 0⟩) (a' := ⟨0, 0⟩) (u' := ⟨1, 0⟩) (b0' := ⟨2, 0⟩) (b1' := ⟨3, 0⟩) (f0' := ⟨5, 0⟩) (f1' := ⟨6, 0⟩) (res' := ⟨8, 0⟩) (alpha := 3) (beta := 2) (dx := exDx) (β1 := fun _ => revBackend) (β2 := fun _ => seqBackend) (β1' := fun _ => revBackend) (β2' := fun _ => seqBackend)
  (m := exWith [((F.cell3d ⟨0, 0⟩ 0 1 2 1 2 3 1), (fun p => exRd (F.cell2d ⟨0, 0⟩ 0 1 1 2 1) [p.getD 0 0, p.getD 1 0])), ((F.face3d0 ⟨2, 0⟩ 0 1 2 1 2 3 0), (fun p => exRd (F.face2d0 ⟨2, 0⟩ 0 1 1 2 0) [p.getD 0 0, p.getD 1 0])), ((F.face3d1 ⟨3, 0⟩ 0 1 2 1 2 3 0), (fun p => exRd (F.face2d1 ⟨3, 0⟩ 0 1 1 2 0) [p.getD 0 0, p.getD 2 0])), ((F.face3d2 ⟨4, 0⟩ 0 1 2 1 2 3 0), (exRd (F.face3d2 ⟨4, 0⟩ 0 1 2 1 2 3 0))), ((F.cell3d ⟨1, 0⟩ 0 1 2 1 2 3 2), (fun p => exRd (F.cell2d ⟨1, 0⟩ 0 1 1 2 2) [p.getD 0 0, p.getD 1 0]))])
  (m' := exWith [((F.cell2d ⟨0, 0⟩ 0 1 1 2 1), (exRd (F.cell2d ⟨0, 0⟩ 0 1 1 2 1))), ((F.face2d0 ⟨2, 0⟩ 0 1 1 2 0), (exRd (F.face2d0 ⟨2, 0⟩ 0 1 1 2 0))), ((F.face2d1 ⟨3, 0⟩ 0 1 1 2 0), (exRd (F.face2d1 ⟨3, 0⟩ 0 1 1 2 0))), ((F.cell2d ⟨1, 0⟩ 0 1 1 2 2), (exRd (F.cell2d ⟨1, 0⟩ 0 1 1 2 2)))])
  (fun _ => revBackend_ok) (fun _ => seqBackend_ok) (fun _ => revBackend_ok) (fun _ => seqBackend_ok) (by decide) (by decide) (by decide) (by decide) (by decide) (by decide) (by decide) (by decide) (by decide) (exWith_args (by ex_args)) ⟨apart_blk (by decide), apart_blk (by decide), apart_blk (by decide)⟩ ⟨apart_blk (by decide), apart_blk (by decide), apart_blk (by decide)⟩ (exWith_args (by ex_args)) (apart_blk (by decide)) ⟨apart_blk (by decide), apart_blk (by decide)⟩ (exWith_rd (exRat_ok rfl (by decide) (by decide)) rfl rfl) (exWith_rd (exRat_ok rfl (by decide) (by decide)) rfl rfl) (exWith_rd (exRat_ok rfl (by decide) (by decide)) rfl rfl) (exWith_rd (exRat_ok rfl (by decide) (by decide)) rfl rfl) (exWith_rd (exRat_ok rfl (by decide) (by decide)) rfl rfl) (exWith_rd (exRat_ok rfl (by decide) (by decide)) rfl rfl) (exWith_rd (exRat_ok rfl (by decide) (by decide)) rfl rfl) (exWith_rd (exRat_ok rfl (by decide) (by decide)) rfl rfl) (exWith_rd (exRat_ok rfl (by decide) (by decide)) rfl rfl)

/-- 3D, diffusion operator with constant reaction: on data that do not depend on the last direction, whatever the coefficients of the last faces, the results are those of the 2D kernels. -/
theorem C87_v2_3d {i0 j0 k0 i1 j1 k1 gcw rgcw gcw' rgcw' : Int} {alpha beta : T} {dx : Nat → T} {u b0 b1 b2 f0 f1 f2 res u' b0' b1' f0' f1' res' : Ptr} {β1 β2 β1' β2' : Nat → Backend} {m m' : Mem T} {B0 B1 B2 U : List Int → T}
    (hβ1 : ∀ n, ValidBackend (β1 n)) (hβ2 : ∀ n, ValidBackend (β2 n)) (hβ1' : ∀ n, ValidBackend (β1' n)) (hβ2' : ∀ n, ValidBackend (β2' n)) (hi : i0 ≤ i1) (hj : j0 ≤ j1) (hk : k0 ≤ k1) (hg : 1 ≤ gcw) (hrgcw : 0 ≤ rgcw) (hg' : 1 ≤ gcw') (hrgcw' : 0 ≤ rgcw')
    (h : F.Args m [(F.cell3d u i0 j0 k0 i1 j1 k1 gcw), (F.face3d0 b0 i0 j0 k0 i1 j1 k1 0), (F.face3d1 b1 i0 j0 k0 i1 j1 k1 0), (F.face3d2 b2 i0 j0 k0 i1 j1 k1 0)] [(F.face3d0 f0 i0 j0 k0 i1 j1 k1 0), (F.face3d1 f1 i0 j0 k0 i1 j1 k1 0), (F.face3d2 f2 i0 j0 k0 i1 j1 k1 0), (F.cell3d res i0 j0 k0 i1 j1 k1 rgcw)]) (hp : F.Apart (F.face3d0 f0 i0 j0 k0 i1 j1 k1 0) (F.face3d1 f1 i0 j0 k0 i1 j1 k1 0) ∧ F.Apart (F.face3d0 f0 i0 j0 k0 i1 j1 k1 0) (F.face3d2 f2 i0 j0 k0 i1 j1 k1 0) ∧ F.Apart (F.face3d1 f1 i0 j0 k0 i1 j1 k1 0) (F.face3d2 f2 i0 j0 k0 i1 j1 k1 0)) (hr : F.Apart (F.cell3d res i0 j0 k0 i1 j1 k1 rgcw) (F.face3d0 f0 i0 j0 k0 i1 j1 k1 0) ∧ F.Apart (F.cell3d res i0 j0 k0 i1 j1 k1 rgcw) (F.face3d1 f1 i0 j0 k0 i1 j1 k1 0) ∧ F.Apart (F.cell3d res i0 j0 k0 i1 j1 k1 rgcw) (F.face3d2 f2 i0 j0 k0 i1 j1 k1 0))
    (h' : F.Args m' [(F.cell2d u' i0 j0 i1 j1 gcw'), (F.face2d0 b0' i0 j0 i1 j1 0), (F.face2d1 b1' i0 j0 i1 j1 0)] [(F.face2d0 f0' i0 j0 i1 j1 0), (F.face2d1 f1' i0 j0 i1 j1 0), (F.cell2d res' i0 j0 i1 j1 rgcw')]) (hp' : F.Apart (F.face2d0 f0' i0 j0 i1 j1 0) (F.face2d1 f1' i0 j0 i1 j1 0)) (hr' : F.Apart (F.cell2d res' i0 j0 i1 j1 rgcw') (F.face2d0 f0' i0 j0 i1 j1 0) ∧ F.Apart (F.cell2d res' i0 j0 i1 j1 rgcw') (F.face2d1 f1' i0 j0 i1 j1 0))
    (hB0 : F.Holds m (F.face3d0 b0 i0 j0 k0 i1 j1 k1 0) (fun p => B0 [p.getD 0 0, p.getD 1 0])) (hB1 : F.Holds m (F.face3d1 b1 i0 j0 k0 i1 j1 k1 0) (fun p => B1 [p.getD 0 0, p.getD 2 0])) (hB2 : F.Holds m (F.face3d2 b2 i0 j0 k0 i1 j1 k1 0) B2) (hU : F.Holds m (F.cell3d u i0 j0 k0 i1 j1 k1 gcw) (fun p => U [p.getD 0 0, p.getD 1 0]))
    (hB0' : F.Holds m' (F.face2d0 b0' i0 j0 i1 j1 0) B0) (hB1' : F.Holds m' (F.face2d1 b1' i0 j0 i1 j1 0) B1) (hU' : F.Holds m' (F.cell2d u' i0 j0 i1 j1 gcw') U) :
    ∃ m1 m2 m1' m2', Cuda.flux3d i0 j0 k0 i1 j1 k1 dx b0 b1 b2 gcw u f0 f1 f2 β1 m = .ok m1 ∧ Cuda.diffusionV2Apply3d i0 i1 j0 j1 k0 k1 alpha beta dx gcw u f0 f1 f2 rgcw res β2 m1 = .ok m2 ∧ Cuda.flux2d i0 j0 i1 j1 dx b0' b1' gcw' u' f0' f1' β1' m' = .ok m1' ∧ Cuda.diffusionV2Apply2d i0 i1 j0 j1 alpha beta dx gcw' u' f0' f1' rgcw' res' β2' m1' = .ok m2' ∧
      ∀ i j k, i0 ≤ i → i ≤ i1 → j0 ≤ j → j ≤ j1 → k0 ≤ k → k ≤ k1 → ∃ v, F.El m2 (F.cell3d res i0 j0 k0 i1 j1 k1 rgcw) [i, j, k] v ∧ F.El m2' (F.cell2d res' i0 j0 i1 j1 rgcw') [i, j] v := by
  obtain ⟨m1, m2, R, c1, c2, e, hR⟩ := energy_v2_3 (alpha := alpha) (beta := beta) (dx := dx) hβ1 hβ2 hi hj hk hg hrgcw h hp hr hB0 hB1 hB2 hU
  obtain ⟨m1', m2', R', c1', c2', e', hR'⟩ := energy_v2_2 (alpha := alpha) (beta := beta) (dx := dx) hβ1' hβ2' hi hj hg' hrgcw' h' hp' hr' hB0' hB1' hU'
  refine ⟨m1, m2, m1', m2', c1, c2, c1', c2', fun i j k ia ib ja jb ka kb => ⟨_, e [i, j, k] (F.inBounds3.2 ⟨i, j, k, rfl, by omega⟩), ?_⟩⟩
  have x := e' [i, j] (F.inBounds2.2 ⟨i, j, rfl, by omega⟩)
  rw [hR' i j ia ib ja jb] at x
  rw [hR i j k ia ib ja jb ka kb]
  convert x using 1
  simp only [F.op3, F.op2, List.getD_cons_zero, List.getD_cons_succ]
  ring

example := C87_v2_3d (T := Rat) (i0 := 0) (j0 := 1) (k0 := 2) (i1 := 1) (j1 := 2) (k1 := 3) (gcw := 2) (rgcw := 1) (gcw' := 2) (rgcw' := 1) (u := ⟨1, 0⟩) (b0 := ⟨2, 0⟩) (b1 := ⟨3, 0⟩) (b2 := ⟨4, 0⟩) (f0 := ⟨5, 0⟩) (f1 := ⟨6, 0⟩) (f2 := ⟨7, 0⟩) (res := ⟨8, 0⟩) (u' := ⟨1, 0⟩) (b0' := ⟨2, 0⟩) (b1' := ⟨3, 0⟩) (f0' := ⟨5, 0⟩) (f1' := ⟨6, 0⟩) (res' := ⟨8, 0⟩) (alpha := 3) (beta := 2) (dx := exDx) (β1 := fun _ => revBackend) (β2 := fun _ => seqBackend) (β1' := fun _ => revBackend) (β2' := fun _ => seqBackend)
  (m := exWith [((F.face3d0 ⟨2, 0⟩ 0 1 2 1 2 3 0), (fun p => exRd (F.face2d0 ⟨2, 0⟩ 0 1 1 2 0) [p.getD 0 0, p.getD 1 0])), ((F.face3d1 ⟨3, 0⟩ 0 1 2 1 2 3 0), (fun p => exRd (F.face2d1 ⟨3, 0⟩ 0 1 1 2 0) [p.getD 0 0, p.getD 2 0])), ((F.face3d2 ⟨4, 0⟩ 0 1 2 1 2 3 0), (exRd (F.face3d2 ⟨4, 0⟩ 0 1 2 1 2 3 0))), ((F.cell3d ⟨1, 0⟩ 0 1 2 1 2 3 2), (fun p => exRd (F.cell2d ⟨1, 0⟩ 0 1 1 2 2) [p.getD 0 0, p.getD 1 0]))])
  (m' := exWith [((F.face2d0 ⟨2, 0⟩ 0 1 1 2 0), (exRd (F.face2d0 ⟨2, 0⟩ 0 1 1 2 0))), ((F.face2d1 ⟨3, 0⟩ 0 1 1 2 0), (exRd (F.face2d1 ⟨3, 0⟩ 0 1 1 2 0))), ((F.cell2d ⟨1, 0⟩ 0 1 1 2 2), (exRd (F.cell2d ⟨1, 0⟩ 0 1 1 2 2)))])
  (fun _ => revBackend_ok) (fun _ => seqBackend_ok) (fun _ => revBackend_ok) (fun _ => seqBackend_ok) (by decide) (by decide) (by decide) (by decide) (by decide) (by decide) (by decide) (exWith_args (by ex_args)) ⟨apart_blk (by decide), apart_blk (by decide), apart_blk (by decide)⟩ ⟨apart_blk (by decide), apart_blk (by decide), apart_blk (by decide)⟩ (exWith_args (by ex_args)) (apart_blk (by decide)) ⟨apart_blk (by decide), apart_blk (by decide)⟩ (exWith_rd (exRat_ok rfl (by decide) (by decide)) rfl rfl) (exWith_rd (exRat_ok rfl (by decide) (by decide)) rfl rfl) (exWith_rd (exRat_ok rfl (by decide) (by decide)) rfl rfl) (exWith_rd (exRat_ok rfl (by decide) (by decide)) rfl rfl) (exWith_rd (exRat_ok rfl (by decide) (by decide)) rfl rfl) (exWith_rd (exRat_ok rfl (by decide) (by decide)) rfl rfl) (exWith_rd (exRat_ok rfl (by decide) (by decide)) rfl rfl)

/-- 3D, Poisson operator: on data that do not depend on the last direction the results are those of the 2D kernels. -/
theorem C87_poisson_3d {i0 j0 k0 i1 j1 k1 gcw rgcw gcw' rgcw' : Int} {beta : T} {dx : Nat → T} {u f0 f1 f2 res u' f0' f1' res' : Ptr} {β1 β2 β1' β2' : Nat → Backend} {m m' : Mem T} {U : List Int → T}
    (hβ1 : ∀ n, ValidBackend (β1 n)) (hβ2 : ∀ n, ValidBackend (β2 n)) (hβ1' : ∀ n, ValidBackend (β1' n)) (hβ2' : ∀ n, ValidBackend (β2' n)) (hi : i0 ≤ i1) (hj : j0 ≤ j1) (hk : k0 ≤ k1) (hg : 1 ≤ gcw) (hrgcw : 0 ≤ rgcw) (hg' : 1 ≤ gcw') (hrgcw' : 0 ≤ rgcw')
    (h : F.Args m [(F.cell3d u i0 j0 k0 i1 j1 k1 gcw)] [(F.face3d0 f0 i0 j0 k0 i1 j1 k1 0), (F.face3d1 f1 i0 j0 k0 i1 j1 k1 0), (F.face3d2 f2 i0 j0 k0 i1 j1 k1 0), (F.cell3d res i0 j0 k0 i1 j1 k1 rgcw)]) (hp : F.Apart (F.face3d0 f0 i0 j0 k0 i1 j1 k1 0) (F.face3d1 f1 i0 j0 k0 i1 j1 k1 0) ∧ F.Apart (F.face3d0 f0 i0 j0 k0 i1 j1 k1 0) (F.face3d2 f2 i0 j0 k0 i1 j1 k1 0) ∧ F.Apart (F.face3d1 f1 i0 j0 k0 i1 j1 k1 0) (F.face3d2 f2 i0 j0 k0 i1 j1 k1 0)) (hr : F.Apart (F.cell3d res i0 j0 k0 i1 j1 k1 rgcw) (F.face3d0 f0 i0 j0 k0 i1 j1 k1 0) ∧ F.Apart (F.cell3d res i0 j0 k0 i1 j1 k1 rgcw) (F.face3d1 f1 i0 j0 k0 i1 j1 k1 0) ∧ F.Apart (F.cell3d res i0 j0 k0 i1 j1 k1 rgcw) (F.face3d2 f2 i0 j0 k0 i1 j1 k1 0))
    (h' : F.Args m' [(F.cell2d u' i0 j0 i1 j1 gcw')] [(F.face2d0 f0' i0 j0 i1 j1 0), (F.face2d1 f1' i0 j0 i1 j1 0), (F.cell2d res' i0 j0 i1 j1 rgcw')]) (hp' : F.Apart (F.face2d0 f0' i0 j0 i1 j1 0) (F.face2d1 f1' i0 j0 i1 j1 0)) (hr' : F.Apart (F.cell2d res' i0 j0 i1 j1 rgcw') (F.face2d0 f0' i0 j0 i1 j1 0) ∧ F.Apart (F.cell2d res' i0 j0 i1 j1 rgcw') (F.face2d1 f1' i0 j0 i1 j1 0))
    (hU : F.Holds m (F.cell3d u i0 j0 k0 i1 j1 k1 gcw) (fun p => U [p.getD 0 0, p.getD 1 0]))
    (hU' : F.Holds m' (F.cell2d u' i0 j0 i1 j1 gcw') U) :
    ∃ m1 m2 m1' m2', Cuda.poissonFlux3d i0 j0 k0 i1 j1 k1 dx gcw u f0 f1 f2 β1 m = .ok m1 ∧ Cuda.poissonV2Apply3d i0 i1 j0 j1 k0 k1 beta dx f0 f1 f2 rgcw res β2 m1 = .ok m2 ∧ Cuda.poissonFlux2d i0 j0 i1 j1 dx gcw' u' f0' f1' β1' m' = .ok m1' ∧ Cuda.poissonV2Apply2d i0 i1 j0 j1 beta dx f0' f1' rgcw' res' β2' m1' = .ok m2' ∧
      ∀ i j k, i0 ≤ i → i ≤ i1 → j0 ≤ j → j ≤ j1 → k0 ≤ k → k ≤ k1 → ∃ v, F.El m2 (F.cell3d res i0 j0 k0 i1 j1 k1 rgcw) [i, j, k] v ∧ F.El m2' (F.cell2d res' i0 j0 i1 j1 rgcw') [i, j] v := by
  obtain ⟨m1, m2, R, c1, c2, e, hR⟩ := energy_p_3 (beta := beta) (dx := dx) hβ1 hβ2 hi hj hk hg hrgcw h hp hr hU
  obtain ⟨m1', m2', R', c1', c2', e', hR'⟩ := energy_p_2 (beta := beta) (dx := dx) hβ1' hβ2' hi hj hg' hrgcw' h' hp' hr' hU'
  refine ⟨m1, m2, m1', m2', c1, c2, c1', c2', fun i j k ia ib ja jb ka kb => ⟨_, e [i, j, k] (F.inBounds3.2 ⟨i, j, k, rfl, by omega⟩), ?_⟩⟩
  have x := e' [i, j] (F.inBounds2.2 ⟨i, j, rfl, by omega⟩)
  rw [hR' i j ia ib ja jb] at x
  rw [hR i j k ia ib ja jb ka kb]
  convert x using 1
  simp only [F.op3, F.op2, List.getD_cons_zero, List.getD_cons_succ]
  ring

example := C87_poisson_3d (T := Rat) (i0 := 0) (j0 := 1) (k0 := 2) (i1 := 1) (j1 := 2) (k1 := 3) (gcw := 2) (rgcw := 1) (gcw' := 2) (rgcw' := 1) (u := ⟨1, 0⟩) (f0 := ⟨5, 0⟩) (f1 := ⟨6, 0⟩) (f2 := ⟨7, 0⟩) (res := ⟨8, 0⟩) (u' := ⟨1, 0⟩) (f0' := ⟨5, 0⟩) (f1' := ⟨6, 0⟩) (res' := ⟨8, 0⟩) (beta := 2) (dx := exDx) (β1 := fun _ => revBackend) (β2 := fun _ => seqBackend) (β1' := fun _ => revBackend) (β2' := fun _ => seqBackend)
  (m := exWith [((F.cell3d ⟨1, 0⟩ 0 1 2 1 2 3 2), (fun p => exRd (F.cell2d ⟨1, 0⟩ 0 1 1 2 2) [p.getD 0 0, p.getD 1 0]))])
  (m' := exWith [((F.cell2d ⟨1, 0⟩ 0 1 1 2 2), (exRd (F.cell2d ⟨1, 0⟩ 0 1 1 2 2)))])
  (fun _ => revBackend_ok) (fun _ => seqBackend_ok) (fun _ => revBackend_ok) (fun _ => seqBackend_ok) (by decide) (by decide) (by decide) (by decide) (by decide) (by decide) (by decide) (exWith_args (by ex_args)) ⟨apart_blk (by decide), apart_blk (by decide), apart_blk (by decide)⟩ ⟨apart_blk (by decide), apart_blk (by decide), apart_blk (by decide)⟩ (exWith_args (by ex_args)) (apart_blk (by decide)) ⟨apart_blk (by decide), apart_blk (by decide)⟩ (exWith_rd (exRat_ok rfl (by decide) (by decide)) rfl rfl) (exWith_rd (exRat_ok rfl (by decide) (by decide)) rfl rfl)

end Verif
