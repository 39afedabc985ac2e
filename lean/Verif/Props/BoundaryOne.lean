import Verif.Lemmas.BoundaryOne3
import Verif.Lemmas.BoundaryEx
import Verif.Lemmas.EnergyEx
import Verif.Lemmas.EnergyRun

/-
C85: the boundary value problems of the operator kernels have exactly one solution, unless nothing ties its level.
-/

namespace Verif
open Spec

set_option linter.unusedVariables false
set_option linter.unusedSectionVars false

variable {T : Type} [Field T] [LinearOrder T] [IsStrictOrderedRing T]

/-- 1D, diffusion operator with cell coefficients: for pieces of the boundary with conditions of first order, data `D` and right hand side `G` there is a field with ghost values
that fulfils the conditions and for which the kernels give `G`, and any such field agrees with it in the box, provided that the level is tied. -/
theorem C85_v1_1d {i0 i1 agcw gcw rgcw : Int} {alpha beta : T} {dx : Nat → T} {a u b0 f0 res : Ptr} {β1 β2 : Nat → Backend} {A B0 : List Int → T} {ps : List (F.Piece T)}
    (hβ1 : ∀ n, ValidBackend (β1 n)) (hβ2 : ∀ n, ValidBackend (β2 n)) (hi : i0 ≤ i1) (hg : 1 ≤ gcw) (hagcw : 0 ≤ agcw) (hrgcw : 0 ≤ rgcw)
    (hr : F.Apart (F.cell1d res i0 i1 rgcw) (F.face1d f0 i0 i1 0))
    (he : F.Elliptic1 i0 i1 alpha beta dx A B0) (hd : F.Disjoint ps) (hc : F.Pieces [(i0, i1)] 3 (F.row F.points1) ps)
    (ht : F.Tied [(i0, i1)] 3 (F.row F.points1) ps (fun c => alpha * A c)) (G D : List Int → T) :
    ∃ X, F.Fulfils [(i0, i1)] 3 (F.row F.points1) ps D X ∧
      (∀ m, F.Args m [(F.cell1d a i0 i1 agcw), (F.cell1d u i0 i1 gcw), (F.face1d b0 i0 i1 0)] [(F.face1d f0 i0 i1 0), (F.cell1d res i0 i1 rgcw)] → F.Holds m (F.cell1d a i0 i1 agcw) A → F.Holds m (F.face1d b0 i0 i1 0) B0 → F.Holds m (F.cell1d u i0 i1 gcw) X →
        ∃ m1 m2, Cuda.flux1d i0 i1 dx b0 gcw u f0 β1 m = .ok m1 ∧ Cuda.diffusionV1Apply1d i0 i1 alpha beta dx agcw a gcw u f0 rgcw res β2 m1 = .ok m2 ∧ ∀ p, F.InBounds [(i0, i1)] p → F.El m2 (F.cell1d res i0 i1 rgcw) p (G p)) ∧
      ∀ X', F.Fulfils [(i0, i1)] 3 (F.row F.points1) ps D X' →
        (∃ m m1 m2, F.Args m [(F.cell1d a i0 i1 agcw), (F.cell1d u i0 i1 gcw), (F.face1d b0 i0 i1 0)] [(F.face1d f0 i0 i1 0), (F.cell1d res i0 i1 rgcw)] ∧ F.Holds m (F.cell1d a i0 i1 agcw) A ∧ F.Holds m (F.face1d b0 i0 i1 0) B0 ∧ F.Holds m (F.cell1d u i0 i1 gcw) X' ∧ Cuda.flux1d i0 i1 dx b0 gcw u f0 β1 m = .ok m1 ∧ Cuda.diffusionV1Apply1d i0 i1 alpha beta dx agcw a gcw u f0 rgcw res β2 m1 = .ok m2 ∧ ∀ p, F.InBounds [(i0, i1)] p → F.El m2 (F.cell1d res i0 i1 rgcw) p (G p)) →
        ∀ p, F.InBounds [(i0, i1)] p → X' p = X p := by
  have ht' : F.Tied [(i0, i1)] 3 (F.row F.points1) ps (fun c => alpha * A c) := by
    simpa using ht
  obtain ⟨X, h1, h2, h3⟩ := F.bvone_1 he hd hc ht' G D
  refine ⟨X, h1, fun m h hA hB0 hU => ?_, fun X' hF => ?_⟩
  · obtain ⟨m1, m2, R, c1, c2, e, hR⟩ := energy_v1_1 (alpha := alpha) (beta := beta) (dx := dx) hβ1 hβ2 hi hg hagcw hrgcw h hr hA hB0 hU
    refine ⟨m1, m2, c1, c2, fun p hp => ?_⟩
    have x := e p hp
    obtain ⟨i, rfl, hp⟩ := F.inBounds1.1 hp
    rw [hR i (by omega) (by omega), h2 i (by omega) (by omega)] at x
    exact x
  · rintro ⟨m, m1, m2, h, hA, hB0, hU, e1, e2, hG⟩
    obtain ⟨n1, n2, R, c1, c2, e, hR⟩ := energy_v1_1 (alpha := alpha) (beta := beta) (dx := dx) hβ1 hβ2 hi hg hagcw hrgcw h hr hA hB0 hU
    have t1 : n1 = m1 := Except.ok.inj (c1.symm.trans e1)
    subst t1
    have t2 : n2 = m2 := Except.ok.inj (c2.symm.trans e2)
    subst t2
    refine h3 X' hF fun i ia ib => ?_
    have hp : F.InBounds [(i0, i1)] [i] := F.inBounds1.2 ⟨i, rfl, by omega⟩
    rw [← hR i ia ib]
    exact Option.some.inj ((e _ hp).2.symm.trans (hG _ hp).2)

/-- on the example box with Robin, Neumann and Dirichlet pieces -/
example := C85_v1_1d (T := Rat) (a := ⟨0, 0⟩) (agcw := 1) (b0 := ⟨2, 0⟩) (f0 := ⟨5, 0⟩) (u := ⟨1, 0⟩) (res := ⟨8, 0⟩) (gcw := 2) (rgcw := 1) (alpha := 3) (β1 := fun _ => revBackend) (β2 := fun _ => seqBackend) (ps := exSides1.map (F.Side1.piece exDx (fun _ => 1)))
  (fun _ => revBackend_ok) (fun _ => seqBackend_ok) (by decide) (by decide) (by decide) (by decide) (apart_blk (by decide))
  exEll_v1_1 exSides1_disjoint exPieces1 exTied1 (exIns 1 5) (exIns 1 7)

/-- 1D, diffusion operator with constant reaction: for pieces of the boundary with conditions of first order, data `D` and right hand side `G` there is a field with ghost values
that fulfils the conditions and for which the kernels give `G`, and any such field agrees with it in the box, provided that the level is tied. -/
theorem C85_v2_1d {i0 i1 gcw rgcw : Int} {alpha beta : T} {dx : Nat → T} {u b0 f0 res : Ptr} {β1 β2 : Nat → Backend} {B0 : List Int → T} {ps : List (F.Piece T)}
    (hβ1 : ∀ n, ValidBackend (β1 n)) (hβ2 : ∀ n, ValidBackend (β2 n)) (hi : i0 ≤ i1) (hg : 1 ≤ gcw) (hrgcw : 0 ≤ rgcw)
    (hr : F.Apart (F.cell1d res i0 i1 rgcw) (F.face1d f0 i0 i1 0))
    (he : F.Elliptic1 i0 i1 alpha beta dx (fun _ => 1) B0) (hd : F.Disjoint ps) (hc : F.Pieces [(i0, i1)] 3 (F.row F.points1) ps)
    (ht : F.Tied [(i0, i1)] 3 (F.row F.points1) ps (fun _ => alpha)) (G D : List Int → T) :
    ∃ X, F.Fulfils [(i0, i1)] 3 (F.row F.points1) ps D X ∧
      (∀ m, F.Args m [(F.cell1d u i0 i1 gcw), (F.face1d b0 i0 i1 0)] [(F.face1d f0 i0 i1 0), (F.cell1d res i0 i1 rgcw)] → F.Holds m (F.face1d b0 i0 i1 0) B0 → F.Holds m (F.cell1d u i0 i1 gcw) X →
        ∃ m1 m2, Cuda.flux1d i0 i1 dx b0 gcw u f0 β1 m = .ok m1 ∧ Cuda.diffusionV2Apply1d i0 i1 alpha beta dx gcw u f0 rgcw res β2 m1 = .ok m2 ∧ ∀ p, F.InBounds [(i0, i1)] p → F.El m2 (F.cell1d res i0 i1 rgcw) p (G p)) ∧
      ∀ X', F.Fulfils [(i0, i1)] 3 (F.row F.points1) ps D X' →
        (∃ m m1 m2, F.Args m [(F.cell1d u i0 i1 gcw), (F.face1d b0 i0 i1 0)] [(F.face1d f0 i0 i1 0), (F.cell1d res i0 i1 rgcw)] ∧ F.Holds m (F.face1d b0 i0 i1 0) B0 ∧ F.Holds m (F.cell1d u i0 i1 gcw) X' ∧ Cuda.flux1d i0 i1 dx b0 gcw u f0 β1 m = .ok m1 ∧ Cuda.diffusionV2Apply1d i0 i1 alpha beta dx gcw u f0 rgcw res β2 m1 = .ok m2 ∧ ∀ p, F.InBounds [(i0, i1)] p → F.El m2 (F.cell1d res i0 i1 rgcw) p (G p)) →
        ∀ p, F.InBounds [(i0, i1)] p → X' p = X p := by
  have ht' : F.Tied [(i0, i1)] 3 (F.row F.points1) ps (fun c => alpha * (fun _ => 1) c) := by
    simpa using ht
  obtain ⟨X, h1, h2, h3⟩ := F.bvone_1 he hd hc ht' G D
  refine ⟨X, h1, fun m h hB0 hU => ?_, fun X' hF => ?_⟩
  · obtain ⟨m1, m2, R, c1, c2, e, hR⟩ := energy_v2_1 (alpha := alpha) (beta := beta) (dx := dx) hβ1 hβ2 hi hg hrgcw h hr hB0 hU
    refine ⟨m1, m2, c1, c2, fun p hp => ?_⟩
    have x := e p hp
    obtain ⟨i, rfl, hp⟩ := F.inBounds1.1 hp
    rw [hR i (by omega) (by omega), h2 i (by omega) (by omega)] at x
    exact x
  · rintro ⟨m, m1, m2, h, hB0, hU, e1, e2, hG⟩
    obtain ⟨n1, n2, R, c1, c2, e, hR⟩ := energy_v2_1 (alpha := alpha) (beta := beta) (dx := dx) hβ1 hβ2 hi hg hrgcw h hr hB0 hU
    have t1 : n1 = m1 := Except.ok.inj (c1.symm.trans e1)
    subst t1
    have t2 : n2 = m2 := Except.ok.inj (c2.symm.trans e2)
    subst t2
    refine h3 X' hF fun i ia ib => ?_
    have hp : F.InBounds [(i0, i1)] [i] := F.inBounds1.2 ⟨i, rfl, by omega⟩
    rw [← hR i ia ib]
    exact Option.some.inj ((e _ hp).2.symm.trans (hG _ hp).2)

/-- on the example box with Robin, Neumann and Dirichlet pieces -/
example := C85_v2_1d (T := Rat) (b0 := ⟨2, 0⟩) (f0 := ⟨5, 0⟩) (u := ⟨1, 0⟩) (res := ⟨8, 0⟩) (gcw := 2) (rgcw := 1) (alpha := 3) (β1 := fun _ => revBackend) (β2 := fun _ => seqBackend) (ps := exSides1.map (F.Side1.piece exDx (fun _ => 1)))
  (fun _ => revBackend_ok) (fun _ => seqBackend_ok) (by decide) (by decide) (by decide) (apart_blk (by decide))
  exEll_v2_1 exSides1_disjoint exPieces1 exTied1 (exIns 1 5) (exIns 1 7)

/-- 1D, Poisson operator: for pieces of the boundary with conditions of first order, data `D` and right hand side `G` there is a field with ghost values
that fulfils the conditions and for which the kernels give `G`, and any such field agrees with it in the box, provided that the level is tied. -/
theorem C85_poisson_1d {i0 i1 gcw rgcw : Int} {beta : T} {dx : Nat → T} {u f0 res : Ptr} {β1 β2 : Nat → Backend} {ps : List (F.Piece T)}
    (hβ1 : ∀ n, ValidBackend (β1 n)) (hβ2 : ∀ n, ValidBackend (β2 n)) (hi : i0 ≤ i1) (hg : 1 ≤ gcw) (hrgcw : 0 ≤ rgcw)
    (hr : F.Apart (F.cell1d res i0 i1 rgcw) (F.face1d f0 i0 i1 0))
    (he : F.Elliptic1 i0 i1 0 beta dx (fun _ => 1) (fun _ => 1)) (hd : F.Disjoint ps) (hc : F.Pieces [(i0, i1)] 3 (F.row F.points1) ps)
    (ht : F.Tied [(i0, i1)] 3 (F.row F.points1) ps (fun _ => 0)) (G D : List Int → T) :
    ∃ X, F.Fulfils [(i0, i1)] 3 (F.row F.points1) ps D X ∧
      (∀ m, F.Args m [(F.cell1d u i0 i1 gcw)] [(F.face1d f0 i0 i1 0), (F.cell1d res i0 i1 rgcw)] → F.Holds m (F.cell1d u i0 i1 gcw) X →
        ∃ m1 m2, Cuda.poissonFlux1d i0 i1 dx gcw u f0 β1 m = .ok m1 ∧ Cuda.poissonV2Apply1d i0 i1 beta dx f0 rgcw res β2 m1 = .ok m2 ∧ ∀ p, F.InBounds [(i0, i1)] p → F.El m2 (F.cell1d res i0 i1 rgcw) p (G p)) ∧
      ∀ X', F.Fulfils [(i0, i1)] 3 (F.row F.points1) ps D X' →
        (∃ m m1 m2, F.Args m [(F.cell1d u i0 i1 gcw)] [(F.face1d f0 i0 i1 0), (F.cell1d res i0 i1 rgcw)] ∧ F.Holds m (F.cell1d u i0 i1 gcw) X' ∧ Cuda.poissonFlux1d i0 i1 dx gcw u f0 β1 m = .ok m1 ∧ Cuda.poissonV2Apply1d i0 i1 beta dx f0 rgcw res β2 m1 = .ok m2 ∧ ∀ p, F.InBounds [(i0, i1)] p → F.El m2 (F.cell1d res i0 i1 rgcw) p (G p)) →
        ∀ p, F.InBounds [(i0, i1)] p → X' p = X p := by
  have ht' : F.Tied [(i0, i1)] 3 (F.row F.points1) ps (fun c => 0 * (fun _ => 1) c) := by
    simpa using ht
  obtain ⟨X, h1, h2, h3⟩ := F.bvone_1 he hd hc ht' G D
  refine ⟨X, h1, fun m h  hU => ?_, fun X' hF => ?_⟩
  · obtain ⟨m1, m2, R, c1, c2, e, hR⟩ := energy_p_1 (beta := beta) (dx := dx) hβ1 hβ2 hi hg hrgcw h hr  hU
    refine ⟨m1, m2, c1, c2, fun p hp => ?_⟩
    have x := e p hp
    obtain ⟨i, rfl, hp⟩ := F.inBounds1.1 hp
    rw [hR i (by omega) (by omega), h2 i (by omega) (by omega)] at x
    exact x
  · rintro ⟨m, m1, m2, h, hU, e1, e2, hG⟩
    obtain ⟨n1, n2, R, c1, c2, e, hR⟩ := energy_p_1 (beta := beta) (dx := dx) hβ1 hβ2 hi hg hrgcw h hr  hU
    have t1 : n1 = m1 := Except.ok.inj (c1.symm.trans e1)
    subst t1
    have t2 : n2 = m2 := Except.ok.inj (c2.symm.trans e2)
    subst t2
    refine h3 X' hF fun i ia ib => ?_
    have hp : F.InBounds [(i0, i1)] [i] := F.inBounds1.2 ⟨i, rfl, by omega⟩
    rw [← hR i ia ib]
    exact Option.some.inj ((e _ hp).2.symm.trans (hG _ hp).2)

/-- on the example box with Robin, Neumann and Dirichlet pieces -/
example := C85_poisson_1d (T := Rat) (f0 := ⟨5, 0⟩) (u := ⟨1, 0⟩) (res := ⟨8, 0⟩) (gcw := 2) (rgcw := 1) (β1 := fun _ => revBackend) (β2 := fun _ => seqBackend) (ps := exSides1.map (F.Side1.piece exDx (fun _ => 1)))
  (fun _ => revBackend_ok) (fun _ => seqBackend_ok) (by decide) (by decide) (by decide) (apart_blk (by decide))
  exEll_p_1 exSides1_disjoint exPieces1 exTied1 (exIns 1 5) (exIns 1 7)

/-- 2D, diffusion operator with cell coefficients: for pieces of the boundary with conditions of first order, data `D` and right hand side `G` there is a field with ghost values
that fulfils the conditions and for which the kernels give `G`, and any such field agrees with it in the box, provided that the level is tied. -/
theorem C85_v1_2d {i0 j0 i1 j1 agcw gcw rgcw : Int} {alpha beta : T} {dx : Nat → T} {a u b0 b1 f0 f1 res : Ptr} {β1 β2 : Nat → Backend} {A B0 B1 : List Int → T} {ps : List (F.Piece T)}
    (hβ1 : ∀ n, ValidBackend (β1 n)) (hβ2 : ∀ n, ValidBackend (β2 n)) (hi : i0 ≤ i1) (hj : j0 ≤ j1) (hg : 1 ≤ gcw) (hagcw : 0 ≤ agcw) (hrgcw : 0 ≤ rgcw)
    (hp : F.Apart (F.face2d0 f0 i0 j0 i1 j1 0) (F.face2d1 f1 i0 j0 i1 j1 0))
    (hr : F.Apart (F.cell2d res i0 j0 i1 j1 rgcw) (F.face2d0 f0 i0 j0 i1 j1 0) ∧ F.Apart (F.cell2d res i0 j0 i1 j1 rgcw) (F.face2d1 f1 i0 j0 i1 j1 0))
    (he : F.Elliptic2 i0 j0 i1 j1 alpha beta dx A B0 B1) (hd : F.Disjoint ps) (hc : F.Pieces [(i0, i1), (j0, j1)] 5 (F.row F.points2) ps)
    (ht : F.Tied [(i0, i1), (j0, j1)] 5 (F.row F.points2) ps (fun c => alpha * A c)) (G D : List Int → T) :
    ∃ X, F.Fulfils [(i0, i1), (j0, j1)] 5 (F.row F.points2) ps D X ∧
      (∀ m, F.Args m [(F.cell2d a i0 j0 i1 j1 agcw), (F.cell2d u i0 j0 i1 j1 gcw), (F.face2d0 b0 i0 j0 i1 j1 0), (F.face2d1 b1 i0 j0 i1 j1 0)] [(F.face2d0 f0 i0 j0 i1 j1 0), (F.face2d1 f1 i0 j0 i1 j1 0), (F.cell2d res i0 j0 i1 j1 rgcw)] → F.Holds m (F.cell2d a i0 j0 i1 j1 agcw) A → F.Holds m (F.face2d0 b0 i0 j0 i1 j1 0) B0 → F.Holds m (F.face2d1 b1 i0 j0 i1 j1 0) B1 → F.Holds m (F.cell2d u i0 j0 i1 j1 gcw) X →
        ∃ m1 m2, Cuda.flux2d i0 j0 i1 j1 dx b0 b1 gcw u f0 f1 β1 m = .ok m1 ∧ Cuda.diffusionV1Apply2d i0 i1 j0 j1 alpha beta dx agcw a gcw u f0 f1 rgcw res β2 m1 = .ok m2 ∧ ∀ p, F.InBounds [(i0, i1), (j0, j1)] p → F.El m2 (F.cell2d res i0 j0 i1 j1 rgcw) p (G p)) ∧
      ∀ X', F.Fulfils [(i0, i1), (j0, j1)] 5 (F.row F.points2) ps D X' →
        (∃ m m1 m2, F.Args m [(F.cell2d a i0 j0 i1 j1 agcw), (F.cell2d u i0 j0 i1 j1 gcw), (F.face2d0 b0 i0 j0 i1 j1 0), (F.face2d1 b1 i0 j0 i1 j1 0)] [(F.face2d0 f0 i0 j0 i1 j1 0), (F.face2d1 f1 i0 j0 i1 j1 0), (F.cell2d res i0 j0 i1 j1 rgcw)] ∧ F.Holds m (F.cell2d a i0 j0 i1 j1 agcw) A ∧ F.Holds m (F.face2d0 b0 i0 j0 i1 j1 0) B0 ∧ F.Holds m (F.face2d1 b1 i0 j0 i1 j1 0) B1 ∧ F.Holds m (F.cell2d u i0 j0 i1 j1 gcw) X' ∧ Cuda.flux2d i0 j0 i1 j1 dx b0 b1 gcw u f0 f1 β1 m = .ok m1 ∧ Cuda.diffusionV1Apply2d i0 i1 j0 j1 alpha beta dx agcw a gcw u f0 f1 rgcw res β2 m1 = .ok m2 ∧ ∀ p, F.InBounds [(i0, i1), (j0, j1)] p → F.El m2 (F.cell2d res i0 j0 i1 j1 rgcw) p (G p)) →
        ∀ p, F.InBounds [(i0, i1), (j0, j1)] p → X' p = X p := by
  have ht' : F.Tied [(i0, i1), (j0, j1)] 5 (F.row F.points2) ps (fun c => alpha * A c) := by
    simpa using ht
  obtain ⟨X, h1, h2, h3⟩ := F.bvone_2 he hd hc ht' G D
  refine ⟨X, h1, fun m h hA hB0 hB1 hU => ?_, fun X' hF => ?_⟩
  · obtain ⟨m1, m2, R, c1, c2, e, hR⟩ := energy_v1_2 (alpha := alpha) (beta := beta) (dx := dx) hβ1 hβ2 hi hj hg hagcw hrgcw h hp hr hA hB0 hB1 hU
    refine ⟨m1, m2, c1, c2, fun p hp => ?_⟩
    have x := e p hp
    obtain ⟨i, j, rfl, hp⟩ := F.inBounds2.1 hp
    rw [hR i j (by omega) (by omega) (by omega) (by omega), h2 i j (by omega) (by omega) (by omega) (by omega)] at x
    exact x
  · rintro ⟨m, m1, m2, h, hA, hB0, hB1, hU, e1, e2, hG⟩
    obtain ⟨n1, n2, R, c1, c2, e, hR⟩ := energy_v1_2 (alpha := alpha) (beta := beta) (dx := dx) hβ1 hβ2 hi hj hg hagcw hrgcw h hp hr hA hB0 hB1 hU
    have t1 : n1 = m1 := Except.ok.inj (c1.symm.trans e1)
    subst t1
    have t2 : n2 = m2 := Except.ok.inj (c2.symm.trans e2)
    subst t2
    refine h3 X' hF fun i j ia ib ja jb => ?_
    have hp : F.InBounds [(i0, i1), (j0, j1)] [i, j] := F.inBounds2.2 ⟨i, j, rfl, by omega⟩
    rw [← hR i j ia ib ja jb]
    exact Option.some.inj ((e _ hp).2.symm.trans (hG _ hp).2)

/-- on the example box with Robin, Neumann and Dirichlet pieces -/
example := C85_v1_2d (T := Rat) (a := ⟨0, 0⟩) (agcw := 1) (b0 := ⟨2, 0⟩) (b1 := ⟨3, 0⟩) (f0 := ⟨5, 0⟩) (f1 := ⟨6, 0⟩) (u := ⟨1, 0⟩) (res := ⟨8, 0⟩) (gcw := 2) (rgcw := 1) (alpha := 3) (β1 := fun _ => revBackend) (β2 := fun _ => seqBackend) (ps := exSides2.map (F.Side2.piece exDx (fun _ => 1) (fun _ => 1)))
  (fun _ => revBackend_ok) (fun _ => seqBackend_ok) (by decide) (by decide) (by decide) (by decide) (by decide) (apart_blk (by decide)) ⟨apart_blk (by decide), apart_blk (by decide)⟩
  exEll_v1_2 exSides2_disjoint exPieces2 exTied2 (exIns 2 5) (exIns 2 7)

/-- 2D, diffusion operator with constant reaction: for pieces of the boundary with conditions of first order, data `D` and right hand side `G` there is a field with ghost values
that fulfils the conditions and for which the kernels give `G`, and any such field agrees with it in the box, provided that the level is tied. -/
theorem C85_v2_2d {i0 j0 i1 j1 gcw rgcw : Int} {alpha beta : T} {dx : Nat → T} {u b0 b1 f0 f1 res : Ptr} {β1 β2 : Nat → Backend} {B0 B1 : List Int → T} {ps : List (F.Piece T)}
    (hβ1 : ∀ n, ValidBackend (β1 n)) (hβ2 : ∀ n, ValidBackend (β2 n)) (hi : i0 ≤ i1) (hj : j0 ≤ j1) (hg : 1 ≤ gcw) (hrgcw : 0 ≤ rgcw)
    (hp : F.Apart (F.face2d0 f0 i0 j0 i1 j1 0) (F.face2d1 f1 i0 j0 i1 j1 0))
    (hr : F.Apart (F.cell2d res i0 j0 i1 j1 rgcw) (F.face2d0 f0 i0 j0 i1 j1 0) ∧ F.Apart (F.cell2d res i0 j0 i1 j1 rgcw) (F.face2d1 f1 i0 j0 i1 j1 0))
    (he : F.Elliptic2 i0 j0 i1 j1 alpha beta dx (fun _ => 1) B0 B1) (hd : F.Disjoint ps) (hc : F.Pieces [(i0, i1), (j0, j1)] 5 (F.row F.points2) ps)
    (ht : F.Tied [(i0, i1), (j0, j1)] 5 (F.row F.points2) ps (fun _ => alpha)) (G D : List Int → T) :
    ∃ X, F.Fulfils [(i0, i1), (j0, j1)] 5 (F.row F.points2) ps D X ∧
      (∀ m, F.Args m [(F.cell2d u i0 j0 i1 j1 gcw), (F.face2d0 b0 i0 j0 i1 j1 0), (F.face2d1 b1 i0 j0 i1 j1 0)] [(F.face2d0 f0 i0 j0 i1 j1 0), (F.face2d1 f1 i0 j0 i1 j1 0), (F.cell2d res i0 j0 i1 j1 rgcw)] → F.Holds m (F.face2d0 b0 i0 j0 i1 j1 0) B0 → F.Holds m (F.face2d1 b1 i0 j0 i1 j1 0) B1 → F.Holds m (F.cell2d u i0 j0 i1 j1 gcw) X →
        ∃ m1 m2, Cuda.flux2d i0 j0 i1 j1 dx b0 b1 gcw u f0 f1 β1 m = .ok m1 ∧ Cuda.diffusionV2Apply2d i0 i1 j0 j1 alpha beta dx gcw u f0 f1 rgcw res β2 m1 = .ok m2 ∧ ∀ p, F.InBounds [(i0, i1), (j0, j1)] p → F.El m2 (F.cell2d res i0 j0 i1 j1 rgcw) p (G p)) ∧
      ∀ X', F.Fulfils [(i0, i1), (j0, j1)] 5 (F.row F.points2) ps D X' →
        (∃ m m1 m2, F.Args m [(F.cell2d u i0 j0 i1 j1 gcw), (F.face2d0 b0 i0 j0 i1 j1 0), (F.face2d1 b1 i0 j0 i1 j1 0)] [(F.face2d0 f0 i0 j0 i1 j1 0), (F.face2d1 f1 i0 j0 i1 j1 0), (F.cell2d res i0 j0 i1 j1 rgcw)] ∧ F.Holds m (F.face2d0 b0 i0 j0 i1 j1 0) B0 ∧ F.Holds m (F.face2d1 b1 i0 j0 i1 j1 0) B1 ∧ F.Holds m (F.cell2d u i0 j0 i1 j1 gcw) X' ∧ Cuda.flux2d i0 j0 i1 j1 dx b0 b1 gcw u f0 f1 β1 m = .ok m1 ∧ Cuda.diffusionV2Apply2d i0 i1 j0 j1 alpha beta dx gcw u f0 f1 rgcw res β2 m1 = .ok m2 ∧ ∀ p, F.InBounds [(i0, i1), (j0, j1)] p → F.El m2 (F.cell2d res i0 j0 i1 j1 rgcw) p (G p)) →
        ∀ p, F.InBounds [(i0, i1), (j0, j1)] p → X' p = X p := by
  have ht' : F.Tied [(i0, i1), (j0, j1)] 5 (F.row F.points2) ps (fun c => alpha * (fun _ => 1) c) := by
    simpa using ht
  obtain ⟨X, h1, h2, h3⟩ := F.bvone_2 he hd hc ht' G D
  refine ⟨X, h1, fun m h hB0 hB1 hU => ?_, fun X' hF => ?_⟩
  · obtain ⟨m1, m2, R, c1, c2, e, hR⟩ := energy_v2_2 (alpha := alpha) (beta := beta) (dx := dx) hβ1 hβ2 hi hj hg hrgcw h hp hr hB0 hB1 hU
    refine ⟨m1, m2, c1, c2, fun p hp => ?_⟩
    have x := e p hp
    obtain ⟨i, j, rfl, hp⟩ := F.inBounds2.1 hp
    rw [hR i j (by omega) (by omega) (by omega) (by omega), h2 i j (by omega) (by omega) (by omega) (by omega)] at x
    exact x
  · rintro ⟨m, m1, m2, h, hB0, hB1, hU, e1, e2, hG⟩
    obtain ⟨n1, n2, R, c1, c2, e, hR⟩ := energy_v2_2 (alpha := alpha) (beta := beta) (dx := dx) hβ1 hβ2 hi hj hg hrgcw h hp hr hB0 hB1 hU
    have t1 : n1 = m1 := Except.ok.inj (c1.symm.trans e1)
    subst t1
    have t2 : n2 = m2 := Except.ok.inj (c2.symm.trans e2)
    subst t2
    refine h3 X' hF fun i j ia ib ja jb => ?_
    have hp : F.InBounds [(i0, i1), (j0, j1)] [i, j] := F.inBounds2.2 ⟨i, j, rfl, by omega⟩
    rw [← hR i j ia ib ja jb]
    exact Option.some.inj ((e _ hp).2.symm.trans (hG _ hp).2)

/-- on the example box with Robin, Neumann and Dirichlet pieces -/
example := C85_v2_2d (T := Rat) (b0 := ⟨2, 0⟩) (b1 := ⟨3, 0⟩) (f0 := ⟨5, 0⟩) (f1 := ⟨6, 0⟩) (u := ⟨1, 0⟩) (res := ⟨8, 0⟩) (gcw := 2) (rgcw := 1) (alpha := 3) (β1 := fun _ => revBackend) (β2 := fun _ => seqBackend) (ps := exSides2.map (F.Side2.piece exDx (fun _ => 1) (fun _ => 1)))
  (fun _ => revBackend_ok) (fun _ => seqBackend_ok) (by decide) (by decide) (by decide) (by decide) (apart_blk (by decide)) ⟨apart_blk (by decide), apart_blk (by decide)⟩
  exEll_v2_2 exSides2_disjoint exPieces2 exTied2 (exIns 2 5) (exIns 2 7)

/-- 2D, Poisson operator: for pieces of the boundary with conditions of first order, data `D` and right hand side `G` there is a field with ghost values
that fulfils the conditions and for which the kernels give `G`, and any such field agrees with it in the box, provided that the level is tied. -/
theorem C85_poisson_2d {i0 j0 i1 j1 gcw rgcw : Int} {beta : T} {dx : Nat → T} {u f0 f1 res : Ptr} {β1 β2 : Nat → Backend} {ps : List (F.Piece T)}
    (hβ1 : ∀ n, ValidBackend (β1 n)) (hβ2 : ∀ n, ValidBackend (β2 n)) (hi : i0 ≤ i1) (hj : j0 ≤ j1) (hg : 1 ≤ gcw) (hrgcw : 0 ≤ rgcw)
    (hp : F.Apart (F.face2d0 f0 i0 j0 i1 j1 0) (F.face2d1 f1 i0 j0 i1 j1 0))
    (hr : F.Apart (F.cell2d res i0 j0 i1 j1 rgcw) (F.face2d0 f0 i0 j0 i1 j1 0) ∧ F.Apart (F.cell2d res i0 j0 i1 j1 rgcw) (F.face2d1 f1 i0 j0 i1 j1 0))
    (he : F.Elliptic2 i0 j0 i1 j1 0 beta dx (fun _ => 1) (fun _ => 1) (fun _ => 1)) (hd : F.Disjoint ps) (hc : F.Pieces [(i0, i1), (j0, j1)] 5 (F.row F.points2) ps)
    (ht : F.Tied [(i0, i1), (j0, j1)] 5 (F.row F.points2) ps (fun _ => 0)) (G D : List Int → T) :
    ∃ X, F.Fulfils [(i0, i1), (j0, j1)] 5 (F.row F.points2) ps D X ∧
      (∀ m, F.Args m [(F.cell2d u i0 j0 i1 j1 gcw)] [(F.face2d0 f0 i0 j0 i1 j1 0), (F.face2d1 f1 i0 j0 i1 j1 0), (F.cell2d res i0 j0 i1 j1 rgcw)] → F.Holds m (F.cell2d u i0 j0 i1 j1 gcw) X →
        ∃ m1 m2, Cuda.poissonFlux2d i0 j0 i1 j1 dx gcw u f0 f1 β1 m = .ok m1 ∧ Cuda.poissonV2Apply2d i0 i1 j0 j1 beta dx f0 f1 rgcw res β2 m1 = .ok m2 ∧ ∀ p, F.InBounds [(i0, i1), (j0, j1)] p → F.El m2 (F.cell2d res i0 j0 i1 j1 rgcw) p (G p)) ∧
      ∀ X', F.Fulfils [(i0, i1), (j0, j1)] 5 (F.row F.points2) ps D X' →
        (∃ m m1 m2, F.Args m [(F.cell2d u i0 j0 i1 j1 gcw)] [(F.face2d0 f0 i0 j0 i1 j1 0), (F.face2d1 f1 i0 j0 i1 j1 0), (F.cell2d res i0 j0 i1 j1 rgcw)] ∧ F.Holds m (F.cell2d u i0 j0 i1 j1 gcw) X' ∧ Cuda.poissonFlux2d i0 j0 i1 j1 dx gcw u f0 f1 β1 m = .ok m1 ∧ Cuda.poissonV2Apply2d i0 i1 j0 j1 beta dx f0 f1 rgcw res β2 m1 = .ok m2 ∧ ∀ p, F.InBounds [(i0, i1), (j0, j1)] p → F.El m2 (F.cell2d res i0 j0 i1 j1 rgcw) p (G p)) →
        ∀ p, F.InBounds [(i0, i1), (j0, j1)] p → X' p = X p := by
  have ht' : F.Tied [(i0, i1), (j0, j1)] 5 (F.row F.points2) ps (fun c => 0 * (fun _ => 1) c) := by
    simpa using ht
  obtain ⟨X, h1, h2, h3⟩ := F.bvone_2 he hd hc ht' G D
  refine ⟨X, h1, fun m h  hU => ?_, fun X' hF => ?_⟩
  · obtain ⟨m1, m2, R, c1, c2, e, hR⟩ := energy_p_2 (beta := beta) (dx := dx) hβ1 hβ2 hi hj hg hrgcw h hp hr  hU
    refine ⟨m1, m2, c1, c2, fun p hp => ?_⟩
    have x := e p hp
    obtain ⟨i, j, rfl, hp⟩ := F.inBounds2.1 hp
    rw [hR i j (by omega) (by omega) (by omega) (by omega), h2 i j (by omega) (by omega) (by omega) (by omega)] at x
    exact x
  · rintro ⟨m, m1, m2, h, hU, e1, e2, hG⟩
    obtain ⟨n1, n2, R, c1, c2, e, hR⟩ := energy_p_2 (beta := beta) (dx := dx) hβ1 hβ2 hi hj hg hrgcw h hp hr  hU
    have t1 : n1 = m1 := Except.ok.inj (c1.symm.trans e1)
    subst t1
    have t2 : n2 = m2 := Except.ok.inj (c2.symm.trans e2)
    subst t2
    refine h3 X' hF fun i j ia ib ja jb => ?_
    have hp : F.InBounds [(i0, i1), (j0, j1)] [i, j] := F.inBounds2.2 ⟨i, j, rfl, by omega⟩
    rw [← hR i j ia ib ja jb]
    exact Option.some.inj ((e _ hp).2.symm.trans (hG _ hp).2)

/-- on the example box with Robin, Neumann and Dirichlet pieces -/
example := C85_poisson_2d (T := Rat) (f0 := ⟨5, 0⟩) (f1 := ⟨6, 0⟩) (u := ⟨1, 0⟩) (res := ⟨8, 0⟩) (gcw := 2) (rgcw := 1) (β1 := fun _ => revBackend) (β2 := fun _ => seqBackend) (ps := exSides2.map (F.Side2.piece exDx (fun _ => 1) (fun _ => 1)))
  (fun _ => revBackend_ok) (fun _ => seqBackend_ok) (by decide) (by decide) (by decide) (by decide) (apart_blk (by decide)) ⟨apart_blk (by decide), apart_blk (by decide)⟩
  exEll_p_2 exSides2_disjoint exPieces2 exTied2 (exIns 2 5) (exIns 2 7)

/-- 3D, diffusion operator with cell coefficients: for pieces of the boundary with conditions of first order, data `D` and right hand side `G` there is a field with ghost values
that fulfils the conditions and for which the kernels give `G`, and any such field agrees with it in the box, provided that the level is tied. -/
theorem C85_v1_3d {i0 j0 k0 i1 j1 k1 agcw gcw rgcw : Int} {alpha beta : T} {dx : Nat → T} {a u b0 b1 b2 f0 f1 f2 res : Ptr} {β1 β2 : Nat → Backend} {A B0 B1 B2 : List Int → T} {ps : List (F.Piece T)}
    (hβ1 : ∀ n, ValidBackend (β1 n)) (hβ2 : ∀ n, ValidBackend (β2 n)) (hi : i0 ≤ i1) (hj : j0 ≤ j1) (hk : k0 ≤ k1) (hg : 1 ≤ gcw) (hagcw : 0 ≤ agcw) (hrgcw : 0 ≤ rgcw)
    (hp : F.Apart (F.face3d0 f0 i0 j0 k0 i1 j1 k1 0) (F.face3d1 f1 i0 j0 k0 i1 j1 k1 0) ∧ F.Apart (F.face3d0 f0 i0 j0 k0 i1 j1 k1 0) (F.face3d2 f2 i0 j0 k0 i1 j1 k1 0) ∧ F.Apart (F.face3d1 f1 i0 j0 k0 i1 j1 k1 0) (F.face3d2 f2 i0 j0 k0 i1 j1 k1 0))
    (hr : F.Apart (F.cell3d res i0 j0 k0 i1 j1 k1 rgcw) (F.face3d0 f0 i0 j0 k0 i1 j1 k1 0) ∧ F.Apart (F.cell3d res i0 j0 k0 i1 j1 k1 rgcw) (F.face3d1 f1 i0 j0 k0 i1 j1 k1 0) ∧ F.Apart (F.cell3d res i0 j0 k0 i1 j1 k1 rgcw) (F.face3d2 f2 i0 j0 k0 i1 j1 k1 0))
    (he : F.Elliptic3 i0 j0 k0 i1 j1 k1 alpha beta dx A B0 B1 B2) (hd : F.Disjoint ps) (hc : F.Pieces [(i0, i1), (j0, j1), (k0, k1)] 7 (F.row F.points3) ps)
    (ht : F.Tied [(i0, i1), (j0, j1), (k0, k1)] 7 (F.row F.points3) ps (fun c => alpha * A c)) (G D : List Int → T) :
    ∃ X, F.Fulfils [(i0, i1), (j0, j1), (k0, k1)] 7 (F.row F.points3) ps D X ∧
      (∀ m, F.Args m [(F.cell3d a i0 j0 k0 i1 j1 k1 agcw), (F.cell3d u i0 j0 k0 i1 j1 k1 gcw), (F.face3d0 b0 i0 j0 k0 i1 j1 k1 0), (F.face3d1 b1 i0 j0 k0 i1 j1 k1 0), (F.face3d2 b2 i0 j0 k0 i1 j1 k1 0)] [(F.face3d0 f0 i0 j0 k0 i1 j1 k1 0), (F.face3d1 f1 i0 j0 k0 i1 j1 k1 0), (F.face3d2 f2 i0 j0 k0 i1 j1 k1 0), (F.cell3d res i0 j0 k0 i1 j1 k1 rgcw)] → F.Holds m (F.cell3d a i0 j0 k0 i1 j1 k1 agcw) A → F.Holds m (F.face3d0 b0 i0 j0 k0 i1 j1 k1 0) B0 → F.Holds m (F.face3d1 b1 i0 j0 k0 i1 j1 k1 0) B1 → F.Holds m (F.face3d2 b2 i0 j0 k0 i1 j1 k1 0) B2 → F.Holds m (F.cell3d u i0 j0 k0 i1 j1 k1 gcw) X →
        ∃ m1 m2, Cuda.flux3d i0 j0 k0 i1 j1 k1 dx b0 b1 b2 gcw u f0 f1 f2 β1 m = .ok m1 ∧ Cuda.diffusionV1Apply3d i0 i1 j0 j1 k0 k1 alpha beta dx agcw a gcw u f0 f1 f2 rgcw res β2 m1 = .ok m2 ∧ ∀ p, F.InBounds [(i0, i1), (j0, j1), (k0, k1)] p → F.El m2 (F.cell3d res i0 j0 k0 i1 j1 k1 rgcw) p (G p)) ∧
      ∀ X', F.Fulfils [(i0, i1), (j0, j1), (k0, k1)] 7 (F.row F.points3) ps D X' →
        (∃ m m1 m2, F.Args m [(F.cell3d a i0 j0 k0 i1 j1 k1 agcw), (F.cell3d u i0 j0 k0 i1 j1 k1 gcw), (F.face3d0 b0 i0 j0 k0 i1 j1 k1 0), (F.face3d1 b1 i0 j0 k0 i1 j1 k1 0), (F.face3d2 b2 i0 j0 k0 i1 j1 k1 0)] [(F.face3d0 f0 i0 j0 k0 i1 j1 k1 0), (F.face3d1 f1 i0 j0 k0 i1 j1 k1 0), (F.face3d2 f2 i0 j0 k0 i1 j1 k1 0), (F.cell3d res i0 j0 k0 i1 j1 k1 rgcw)] ∧ F.Holds m (F.cell3d a i0 j0 k0 i1 j1 k1 agcw) A ∧ F.Holds m (F.face3d0 b0 i0 j0 k0 i1 j1 k1 0) B0 ∧ F.Holds m (F.face3d1 b1 i0 j0 k0 i1 j1 k1 0) B1 ∧ F.Holds m (F.face3d2 b2 i0 j0 k0 i1 j1 k1 0) B2 ∧ F.Holds m (F.cell3d u i0 j0 k0 i1 j1 k1 gcw) X' ∧ Cuda.flux3d i0 j0 k0 i1 j1 k1 dx b0 b1 b2 gcw u f0 f1 f2 β1 m = .ok m1 ∧ Cuda.diffusionV1Apply3d i0 i1 j0 j1 k0 k1 alpha beta dx agcw a gcw u f0 f1 f2 rgcw res β2 m1 = .ok m2 ∧ ∀ p, F.InBounds [(i0, i1), (j0, j1), (k0, k1)] p → F.El m2 (F.cell3d res i0 j0 k0 i1 j1 k1 rgcw) p (G p)) →
        ∀ p, F.InBounds [(i0, i1), (j0, j1), (k0, k1)] p → X' p = X p := by
  have ht' : F.Tied [(i0, i1), (j0, j1), (k0, k1)] 7 (F.row F.points3) ps (fun c => alpha * A c) := by
    simpa using ht
  obtain ⟨X, h1, h2, h3⟩ := F.bvone_3 he hd hc ht' G D
  refine ⟨X, h1, fun m h hA hB0 hB1 hB2 hU => ?_, fun X' hF => ?_⟩
  · obtain ⟨m1, m2, R, c1, c2, e, hR⟩ := energy_v1_3 (alpha := alpha) (beta := beta) (dx := dx) hβ1 hβ2 hi hj hk hg hagcw hrgcw h hp hr hA hB0 hB1 hB2 hU
    refine ⟨m1, m2, c1, c2, fun p hp => ?_⟩
    have x := e p hp
    obtain ⟨i, j, k, rfl, hp⟩ := F.inBounds3.1 hp
    rw [hR i j k (by omega) (by omega) (by omega) (by omega) (by omega) (by omega), h2 i j k (by omega) (by omega) (by omega) (by omega) (by omega) (by omega)] at x
    exact x
  · rintro ⟨m, m1, m2, h, hA, hB0, hB1, hB2, hU, e1, e2, hG⟩
    obtain ⟨n1, n2, R, c1, c2, e, hR⟩ := energy_v1_3 (alpha := alpha) (beta := beta) (dx := dx) hβ1 hβ2 hi hj hk hg hagcw hrgcw h hp hr hA hB0 hB1 hB2 hU
    have t1 : n1 = m1 := Except.ok.inj (c1.symm.trans e1)
    subst t1
    have t2 : n2 = m2 := Except.ok.inj (c2.symm.trans e2)
    subst t2
    refine h3 X' hF fun i j k ia ib ja jb ka kb => ?_
    have hp : F.InBounds [(i0, i1), (j0, j1), (k0, k1)] [i, j, k] := F.inBounds3.2 ⟨i, j, k, rfl, by omega⟩
    rw [← hR i j k ia ib ja jb ka kb]
    exact Option.some.inj ((e _ hp).2.symm.trans (hG _ hp).2)

/-- on the example box with Robin, Neumann and Dirichlet pieces -/
example := C85_v1_3d (T := Rat) (a := ⟨0, 0⟩) (agcw := 1) (b0 := ⟨2, 0⟩) (b1 := ⟨3, 0⟩) (b2 := ⟨4, 0⟩) (f0 := ⟨5, 0⟩) (f1 := ⟨6, 0⟩) (f2 := ⟨7, 0⟩) (u := ⟨1, 0⟩) (res := ⟨8, 0⟩) (gcw := 2) (rgcw := 1) (alpha := 3) (β1 := fun _ => revBackend) (β2 := fun _ => seqBackend) (ps := exSides3.map (F.Side3.piece exDx (fun _ => 1) (fun _ => 1) (fun _ => 1)))
  (fun _ => revBackend_ok) (fun _ => seqBackend_ok) (by decide) (by decide) (by decide) (by decide) (by decide) (by decide) ⟨apart_blk (by decide), apart_blk (by decide), apart_blk (by decide)⟩ ⟨apart_blk (by decide), apart_blk (by decide), apart_blk (by decide)⟩
  exEll_v1_3 exSides3_disjoint exPieces3 exTied3 (exIns 3 5) (exIns 3 7)

/-- 3D, diffusion operator with constant reaction: for pieces of the boundary with conditions of first order, data `D` and right hand side `G` there is a field with ghost values
that fulfils the conditions and for which the kernels give `G`, and any such field agrees with it in the box, provided that the level is tied. -/
theorem C85_v2_3d {i0 j0 k0 i1 j1 k1 gcw rgcw : Int} {alpha beta : T} {dx : Nat → T} {u b0 b1 b2 f0 f1 f2 res : Ptr} {β1 β2 : Nat → Backend} {B0 B1 B2 : List Int → T} {ps : List (F.Piece T)}
    (hβ1 : ∀ n, ValidBackend (β1 n)) (hβ2 : ∀ n, ValidBackend (β2 n)) (hi : i0 ≤ i1) (hj : j0 ≤ j1) (hk : k0 ≤ k1) (hg : 1 ≤ gcw) (hrgcw : 0 ≤ rgcw)
    (hp : F.Apart (F.face3d0 f0 i0 j0 k0 i1 j1 k1 0) (F.face3d1 f1 i0 j0 k0 i1 j1 k1 0) ∧ F.Apart (F.face3d0 f0 i0 j0 k0 i1 j1 k1 0) (F.face3d2 f2 i0 j0 k0 i1 j1 k1 0) ∧ F.Apart (F.face3d1 f1 i0 j0 k0 i1 j1 k1 0) (F.face3d2 f2 i0 j0 k0 i1 j1 k1 0))
    (hr : F.Apart (F.cell3d res i0 j0 k0 i1 j1 k1 rgcw) (F.face3d0 f0 i0 j0 k0 i1 j1 k1 0) ∧ F.Apart (F.cell3d res i0 j0 k0 i1 j1 k1 rgcw) (F.face3d1 f1 i0 j0 k0 i1 j1 k1 0) ∧ F.Apart (F.cell3d res i0 j0 k0 i1 j1 k1 rgcw) (F.face3d2 f2 i0 j0 k0 i1 j1 k1 0))
    (he : F.Elliptic3 i0 j0 k0 i1 j1 k1 alpha beta dx (fun _ => 1) B0 B1 B2) (hd : F.Disjoint ps) (hc : F.Pieces [(i0, i1), (j0, j1), (k0, k1)] 7 (F.row F.points3) ps)
    (ht : F.Tied [(i0, i1), (j0, j1), (k0, k1)] 7 (F.row F.points3) ps (fun _ => alpha)) (G D : List Int → T) :
    ∃ X, F.Fulfils [(i0, i1), (j0, j1), (k0, k1)] 7 (F.row F.points3) ps D X ∧
      (∀ m, F.Args m [(F.cell3d u i0 j0 k0 i1 j1 k1 gcw), (F.face3d0 b0 i0 j0 k0 i1 j1 k1 0), (F.face3d1 b1 i0 j0 k0 i1 j1 k1 0), (F.face3d2 b2 i0 j0 k0 i1 j1 k1 0)] [(F.face3d0 f0 i0 j0 k0 i1 j1 k1 0), (F.face3d1 f1 i0 j0 k0 i1 j1 k1 0), (F.face3d2 f2 i0 j0 k0 i1 j1 k1 0), (F.cell3d res i0 j0 k0 i1 j1 k1 rgcw)] → F.Holds m (F.face3d0 b0 i0 j0 k0 i1 j1 k1 0) B0 → F.Holds m (F.face3d1 b1 i0 j0 k0 i1 j1 k1 0) B1 → F.Holds m (F.face3d2 b2 i0 j0 k0 i1 j1 k1 0) B2 → F.Holds m (F.cell3d u i0 j0 k0 i1 j1 k1 gcw) X →
        ∃ m1 m2, Cuda.flux3d i0 j0 k0 i1 j1 k1 dx b0 b1 b2 gcw u f0 f1 f2 β1 m = .ok m1 ∧ Cuda.diffusionV2Apply3d i0 i1 j0 j1 k0 k1 alpha beta dx gcw u f0 f1 f2 rgcw res β2 m1 = .ok m2 ∧ ∀ p, F.InBounds [(i0, i1), (j0, j1), (k0, k1)] p → F.El m2 (F.cell3d res i0 j0 k0 i1 j1 k1 rgcw) p (G p)) ∧
      ∀ X', F.Fulfils [(i0, i1), (j0, j1), (k0, k1)] 7 (F.row F.points3) ps D X' →
        (∃ m m1 m2, F.Args m [(F.cell3d u i0 j0 k0 i1 j1 k1 gcw), (F.face3d0 b0 i0 j0 k0 i1 j1 k1 0), (F.face3d1 b1 i0 j0 k0 i1 j1 k1 0), (F.face3d2 b2 i0 j0 k0 i1 j1 k1 0)] [(F.face3d0 f0 i0 j0 k0 i1 j1 k1 0), (F.face3d1 f1 i0 j0 k0 i1 j1 k1 0), (F.face3d2 f2 i0 j0 k0 i1 j1 k1 0), (F.cell3d res i0 j0 k0 i1 j1 k1 rgcw)] ∧ F.Holds m (F.face3d0 b0 i0 j0 k0 i1 j1 k1 0) B0 ∧ F.Holds m (F.face3d1 b1 i0 j0 k0 i1 j1 k1 0) B1 ∧ F.Holds m (F.face3d2 b2 i0 j0 k0 i1 j1 k1 0) B2 ∧ F.Holds m (F.cell3d u i0 j0 k0 i1 j1 k1 gcw) X' ∧ Cuda.flux3d i0 j0 k0 i1 j1 k1 dx b0 b1 b2 gcw u f0 f1 f2 β1 m = .ok m1 ∧ Cuda.diffusionV2Apply3d i0 i1 j0 j1 k0 k1 alpha beta dx gcw u f0 f1 f2 rgcw res β2 m1 = .ok m2 ∧ ∀ p, F.InBounds [(i0, i1), (j0, j1), (k0, k1)] p → F.El m2 (F.cell3d res i0 j0 k0 i1 j1 k1 rgcw) p (G p)) →
        ∀ p, F.InBounds [(i0, i1), (j0, j1), (k0, k1)] p → X' p = X p := by
  have ht' : F.Tied [(i0, i1), (j0, j1), (k0, k1)] 7 (F.row F.points3) ps (fun c => alpha * (fun _ => 1) c) := by
    simpa using ht
  obtain ⟨X, h1, h2, h3⟩ := F.bvone_3 he hd hc ht' G D
  refine ⟨X, h1, fun m h hB0 hB1 hB2 hU => ?_, fun X' hF => ?_⟩
  · obtain ⟨m1, m2, R, c1, c2, e, hR⟩ := energy_v2_3 (alpha := alpha) (beta := beta) (dx := dx) hβ1 hβ2 hi hj hk hg hrgcw h hp hr hB0 hB1 hB2 hU
    refine ⟨m1, m2, c1, c2, fun p hp => ?_⟩
    have x := e p hp
    obtain ⟨i, j, k, rfl, hp⟩ := F.inBounds3.1 hp
    rw [hR i j k (by omega) (by omega) (by omega) (by omega) (by omega) (by omega), h2 i j k (by omega) (by omega) (by omega) (by omega) (by omega) (by omega)] at x
    exact x
  · rintro ⟨m, m1, m2, h, hB0, hB1, hB2, hU, e1, e2, hG⟩
    obtain ⟨n1, n2, R, c1, c2, e, hR⟩ := energy_v2_3 (alpha := alpha) (beta := beta) (dx := dx) hβ1 hβ2 hi hj hk hg hrgcw h hp hr hB0 hB1 hB2 hU
    have t1 : n1 = m1 := Except.ok.inj (c1.symm.trans e1)
    subst t1
    have t2 : n2 = m2 := Except.ok.inj (c2.symm.trans e2)
    subst t2
    refine h3 X' hF fun i j k ia ib ja jb ka kb => ?_
    have hp : F.InBounds [(i0, i1), (j0, j1), (k0, k1)] [i, j, k] := F.inBounds3.2 ⟨i, j, k, rfl, by omega⟩
    rw [← hR i j k ia ib ja jb ka kb]
    exact Option.some.inj ((e _ hp).2.symm.trans (hG _ hp).2)

/-- on the example box with Robin, Neumann and Dirichlet pieces -/
example := C85_v2_3d (T := Rat) (b0 := ⟨2, 0⟩) (b1 := ⟨3, 0⟩) (b2 := ⟨4, 0⟩) (f0 := ⟨5, 0⟩) (f1 := ⟨6, 0⟩) (f2 := ⟨7, 0⟩) (u := ⟨1, 0⟩) (res := ⟨8, 0⟩) (gcw := 2) (rgcw := 1) (alpha := 3) (β1 := fun _ => revBackend) (β2 := fun _ => seqBackend) (ps := exSides3.map (F.Side3.piece exDx (fun _ => 1) (fun _ => 1) (fun _ => 1)))
  (fun _ => revBackend_ok) (fun _ => seqBackend_ok) (by decide) (by decide) (by decide) (by decide) (by decide) ⟨apart_blk (by decide), apart_blk (by decide), apart_blk (by decide)⟩ ⟨apart_blk (by decide), apart_blk (by decide), apart_blk (by decide)⟩
  exEll_v2_3 exSides3_disjoint exPieces3 exTied3 (exIns 3 5) (exIns 3 7)

/-- 3D, Poisson operator: for pieces of the boundary with conditions of first order, data `D` and right hand side `G` there is a field with ghost values
that fulfils the conditions and for which the kernels give `G`, and any such field agrees with it in the box, provided that the level is tied. -/
theorem C85_poisson_3d {i0 j0 k0 i1 j1 k1 gcw rgcw : Int} {beta : T} {dx : Nat → T} {u f0 f1 f2 res : Ptr} {β1 β2 : Nat → Backend} {ps : List (F.Piece T)}
    (hβ1 : ∀ n, ValidBackend (β1 n)) (hβ2 : ∀ n, ValidBackend (β2 n)) (hi : i0 ≤ i1) (hj : j0 ≤ j1) (hk : k0 ≤ k1) (hg : 1 ≤ gcw) (hrgcw : 0 ≤ rgcw)
    (hp : F.Apart (F.face3d0 f0 i0 j0 k0 i1 j1 k1 0) (F.face3d1 f1 i0 j0 k0 i1 j1 k1 0) ∧ F.Apart (F.face3d0 f0 i0 j0 k0 i1 j1 k1 0) (F.face3d2 f2 i0 j0 k0 i1 j1 k1 0) ∧ F.Apart (F.face3d1 f1 i0 j0 k0 i1 j1 k1 0) (F.face3d2 f2 i0 j0 k0 i1 j1 k1 0))
    (hr : F.Apart (F.cell3d res i0 j0 k0 i1 j1 k1 rgcw) (F.face3d0 f0 i0 j0 k0 i1 j1 k1 0) ∧ F.Apart (F.cell3d res i0 j0 k0 i1 j1 k1 rgcw) (F.face3d1 f1 i0 j0 k0 i1 j1 k1 0) ∧ F.Apart (F.cell3d res i0 j0 k0 i1 j1 k1 rgcw) (F.face3d2 f2 i0 j0 k0 i1 j1 k1 0))
    (he : F.Elliptic3 i0 j0 k0 i1 j1 k1 0 beta dx (fun _ => 1) (fun _ => 1) (fun _ => 1) (fun _ => 1)) (hd : F.Disjoint ps) (hc : F.Pieces [(i0, i1), (j0, j1), (k0, k1)] 7 (F.row F.points3) ps)
    (ht : F.Tied [(i0, i1), (j0, j1), (k0, k1)] 7 (F.row F.points3) ps (fun _ => 0)) (G D : List Int → T) :
    ∃ X, F.Fulfils [(i0, i1), (j0, j1), (k0, k1)] 7 (F.row F.points3) ps D X ∧
      (∀ m, F.Args m [(F.cell3d u i0 j0 k0 i1 j1 k1 gcw)] [(F.face3d0 f0 i0 j0 k0 i1 j1 k1 0), (F.face3d1 f1 i0 j0 k0 i1 j1 k1 0), (F.face3d2 f2 i0 j0 k0 i1 j1 k1 0), (F.cell3d res i0 j0 k0 i1 j1 k1 rgcw)] → F.Holds m (F.cell3d u i0 j0 k0 i1 j1 k1 gcw) X →
        ∃ m1 m2, Cuda.poissonFlux3d i0 j0 k0 i1 j1 k1 dx gcw u f0 f1 f2 β1 m = .ok m1 ∧ Cuda.poissonV2Apply3d i0 i1 j0 j1 k0 k1 beta dx f0 f1 f2 rgcw res β2 m1 = .ok m2 ∧ ∀ p, F.InBounds [(i0, i1), (j0, j1), (k0, k1)] p → F.El m2 (F.cell3d res i0 j0 k0 i1 j1 k1 rgcw) p (G p)) ∧
      ∀ X', F.Fulfils [(i0, i1), (j0, j1), (k0, k1)] 7 (F.row F.points3) ps D X' →
        (∃ m m1 m2, F.Args m [(F.cell3d u i0 j0 k0 i1 j1 k1 gcw)] [(F.face3d0 f0 i0 j0 k0 i1 j1 k1 0), (F.face3d1 f1 i0 j0 k0 i1 j1 k1 0), (F.face3d2 f2 i0 j0 k0 i1 j1 k1 0), (F.cell3d res i0 j0 k0 i1 j1 k1 rgcw)] ∧ F.Holds m (F.cell3d u i0 j0 k0 i1 j1 k1 gcw) X' ∧ Cuda.poissonFlux3d i0 j0 k0 i1 j1 k1 dx gcw u f0 f1 f2 β1 m = .ok m1 ∧ Cuda.poissonV2Apply3d i0 i1 j0 j1 k0 k1 beta dx f0 f1 f2 rgcw res β2 m1 = .ok m2 ∧ ∀ p, F.InBounds [(i0, i1), (j0, j1), (k0, k1)] p → F.El m2 (F.cell3d res i0 j0 k0 i1 j1 k1 rgcw) p (G p)) →
        ∀ p, F.InBounds [(i0, i1), (j0, j1), (k0, k1)] p → X' p = X p := by
  have ht' : F.Tied [(i0, i1), (j0, j1), (k0, k1)] 7 (F.row F.points3) ps (fun c => 0 * (fun _ => 1) c) := by
    simpa using ht
  obtain ⟨X, h1, h2, h3⟩ := F.bvone_3 he hd hc ht' G D
  refine ⟨X, h1, fun m h  hU => ?_, fun X' hF => ?_⟩
  · obtain ⟨m1, m2, R, c1, c2, e, hR⟩ := energy_p_3 (beta := beta) (dx := dx) hβ1 hβ2 hi hj hk hg hrgcw h hp hr  hU
    refine ⟨m1, m2, c1, c2, fun p hp => ?_⟩
    have x := e p hp
    obtain ⟨i, j, k, rfl, hp⟩ := F.inBounds3.1 hp
    rw [hR i j k (by omega) (by omega) (by omega) (by omega) (by omega) (by omega), h2 i j k (by omega) (by omega) (by omega) (by omega) (by omega) (by omega)] at x
    exact x
  · rintro ⟨m, m1, m2, h, hU, e1, e2, hG⟩
    obtain ⟨n1, n2, R, c1, c2, e, hR⟩ := energy_p_3 (beta := beta) (dx := dx) hβ1 hβ2 hi hj hk hg hrgcw h hp hr  hU
    have t1 : n1 = m1 := Except.ok.inj (c1.symm.trans e1)
    subst t1
    have t2 : n2 = m2 := Except.ok.inj (c2.symm.trans e2)
    subst t2
    refine h3 X' hF fun i j k ia ib ja jb ka kb => ?_
    have hp : F.InBounds [(i0, i1), (j0, j1), (k0, k1)] [i, j, k] := F.inBounds3.2 ⟨i, j, k, rfl, by omega⟩
    rw [← hR i j k ia ib ja jb ka kb]
    exact Option.some.inj ((e _ hp).2.symm.trans (hG _ hp).2)

/-- on the example box with Robin, Neumann and Dirichlet pieces -/
example := C85_poisson_3d (T := Rat) (f0 := ⟨5, 0⟩) (f1 := ⟨6, 0⟩) (f2 := ⟨7, 0⟩) (u := ⟨1, 0⟩) (res := ⟨8, 0⟩) (gcw := 2) (rgcw := 1) (β1 := fun _ => revBackend) (β2 := fun _ => seqBackend) (ps := exSides3.map (F.Side3.piece exDx (fun _ => 1) (fun _ => 1) (fun _ => 1)))
  (fun _ => revBackend_ok) (fun _ => seqBackend_ok) (by decide) (by decide) (by decide) (by decide) (by decide) ⟨apart_blk (by decide), apart_blk (by decide), apart_blk (by decide)⟩ ⟨apart_blk (by decide), apart_blk (by decide), apart_blk (by decide)⟩
  exEll_p_3 exSides3_disjoint exPieces3 exTied3 (exIns 3 5) (exIns 3 7)

/-- without something that ties the level the claim is false: with Neumann conditions on both sides every constant field solves the Poisson problem with zero data -/
theorem C85_poisson_1d_neumann_false : ¬ ∀ ps : List (F.Piece Rat), F.Disjoint ps → F.Pieces [(0, 3)] 3 (F.row F.points1) ps → ∀ X X',
    F.Fulfils [(0, 3)] 3 (F.row F.points1) ps (fun _ => 0) X → F.Fulfils [(0, 3)] 3 (F.row F.points1) ps (fun _ => 0) X' →
    (∀ Y, Y = X ∨ Y = X' → ∃ m m1 m2, F.Args m [F.cell1d ⟨1, 0⟩ 0 3 2] [F.face1d ⟨5, 0⟩ 0 3 0, F.cell1d ⟨8, 0⟩ 0 3 1] ∧ F.Holds m (F.cell1d ⟨1, 0⟩ 0 3 2) Y ∧
      Cuda.poissonFlux1d 0 3 exDx 2 ⟨1, 0⟩ ⟨5, 0⟩ (fun _ => revBackend) m = .ok m1 ∧ Cuda.poissonV2Apply1d 0 3 2 exDx ⟨5, 0⟩ 1 ⟨8, 0⟩ (fun _ => seqBackend) m1 = .ok m2 ∧
      ∀ p, F.InBounds [(0, 3)] p → F.El m2 (F.cell1d ⟨8, 0⟩ 0 3 1) p 0) →
    ∀ p, F.InBounds [(0, 3)] p → X' p = X p := by
  intro h
  have hf : ∀ c : Rat, F.Fulfils [(0, 3)] 3 (F.row F.points1) [⟨F.layer1 (-1) 0, 1, 1, 1, 1, fun _ => 1⟩, ⟨F.layer1 4 1, 2, 1, 1, 1, fun _ => 1⟩] (fun _ => 0) (fun _ => c) := fun c => by
    refine ⟨fun k hk p hp => ⟨Polynomial.C c, ?_, by simp, by simp⟩, fun p hp e h0 h1 ho hn => ?_⟩
    · simp only [List.mem_cons, List.not_mem_nil, or_false] at hk
      rcases hk with rfl | rfl <;> exact Or.inr (.inr (.inl ⟨rfl, by compute_degree; norm_num, by simp⟩))
    · exfalso
      obtain ⟨i, rfl, hp⟩ := F.inBounds1.1 hp
      have : e = 1 ∨ e = 2 := by omega
      rcases this with rfl | rfl
      · rw [F.shift1_1, F.inBounds1] at ho
        refine hn _ List.mem_cons_self ?_ rfl
        have : i = 0 := by by_contra hh; exact ho ⟨i - 1, rfl, by omega⟩
        simp [F.layer1, this]
      · rw [F.shift1_2, F.inBounds1] at ho
        refine hn _ (List.mem_cons_of_mem _ List.mem_cons_self) ?_ rfl
        have : i = 3 := by by_contra hh; exact ho ⟨i + 1, rfl, by omega⟩
        simp [F.layer1, this]
  have hz := h [⟨F.layer1 (-1) 0, 1, 1, 1, 1, fun _ => 1⟩, ⟨F.layer1 4 1, 2, 1, 1, 1, fun _ => 1⟩] (by simp [F.Disjoint]) ?_ (fun _ => 0) (fun _ => 1) (hf 0) (hf 1) ?_ [0] (by simp [F.InBounds])
  · exact one_ne_zero hz
  · constructor <;> intro q hq <;> simp only [List.mem_cons, List.not_mem_nil, or_false] at hq
    · rcases hq with rfl | rfl <;> simp [F.First]
    · rcases hq with rfl | rfl <;> simp
    · rcases hq with rfl | rfl <;> simp
    · rcases hq with rfl | rfl <;> rintro c rfl <;> simp [F.InBounds]
    · rcases hq with rfl | rfl <;> rintro c rfl
      · rw [F.shift1_1]; simp [F.InBounds]
      · rw [F.shift1_2]; simp [F.InBounds]
    · rcases hq with rfl | rfl <;> simp
  · have key : ∀ c : Rat, ∃ m m1 m2, F.Args m [F.cell1d ⟨1, 0⟩ 0 3 2] [F.face1d ⟨5, 0⟩ 0 3 0, F.cell1d ⟨8, 0⟩ 0 3 1] ∧ F.Holds m (F.cell1d ⟨1, 0⟩ 0 3 2) (fun _ => c) ∧
      Cuda.poissonFlux1d 0 3 exDx 2 ⟨1, 0⟩ ⟨5, 0⟩ (fun _ => revBackend) m = .ok m1 ∧ Cuda.poissonV2Apply1d 0 3 2 exDx ⟨5, 0⟩ 1 ⟨8, 0⟩ (fun _ => seqBackend) m1 = .ok m2 ∧
      ∀ p, F.InBounds [(0, 3)] p → F.El m2 (F.cell1d ⟨8, 0⟩ 0 3 1) p 0 := fun c => by
      have ha : F.Args (exConst c) [F.cell1d ⟨1, 0⟩ 0 3 2] [F.face1d ⟨5, 0⟩ 0 3 0, F.cell1d ⟨8, 0⟩ 0 3 1] := exConst_args (by ex_args)
      have hU : F.Holds (exConst c) (F.cell1d ⟨1, 0⟩ 0 3 2) (fun _ => c) := exConst_rd (exRat_ok rfl (by decide) (by decide))
      obtain ⟨m1, m2, R, c1, c2, e, hR⟩ := energy_p_1 (beta := 2) (dx := exDx) (β1 := fun _ => revBackend) (β2 := fun _ => seqBackend) (fun _ => revBackend_ok) (fun _ => seqBackend_ok) (by decide) (by decide) (by decide) ha (apart_blk (by decide)) hU
      refine ⟨_, m1, m2, ha, hU, c1, c2, fun p hp => ?_⟩
      have x := e p hp
      obtain ⟨i, rfl, hp⟩ := F.inBounds1.1 hp
      rw [hR i (by omega) (by omega)] at x
      simpa [F.op1] using x
    rintro Y (rfl | rfl)
    · exact key 0
    · exact key 1

end Verif
