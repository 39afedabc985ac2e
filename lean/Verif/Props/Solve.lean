import Verif.Lemmas.Solve
import Verif.Lemmas.EnergyEx

/-
C73: the equations of the operator kernels have exactly one solution.
-/

namespace Verif
open Spec

set_option linter.unusedVariables false
set_option linter.unusedSectionVars false

variable {T : Type} [Field T] [LinearOrder T] [IsStrictOrderedRing T]

/-- 1D, diffusion operator with cell coefficients: for all values around the box and all right hand sides `G` there is exactly one way to fill the box so that the kernels give `G`. -/
theorem C73_v1_1d {i0 i1 agcw gcw rgcw : Int} {alpha beta : T} {dx : Nat → T} {a u b0 f0 res : Ptr} {β1 β2 : Nat → Backend} {m : Mem T} {A B0 : List Int → T}
    (hβ1 : ∀ n, ValidBackend (β1 n)) (hβ2 : ∀ n, ValidBackend (β2 n)) (hi : i0 ≤ i1) (hg : 1 ≤ gcw) (hagcw : 0 ≤ agcw) (hrgcw : 0 ≤ rgcw)
    (h : F.Args m [(F.cell1d a i0 i1 agcw), (F.cell1d u i0 i1 gcw), (F.face1d b0 i0 i1 0)] [(F.face1d f0 i0 i1 0), (F.cell1d res i0 i1 rgcw)])
    (hr : F.Apart (F.cell1d res i0 i1 rgcw) (F.face1d f0 i0 i1 0)) (hA : F.Holds m (F.cell1d a i0 i1 agcw) A) (hB0 : F.Holds m (F.face1d b0 i0 i1 0) B0)
    (pA : F.Apart (F.cell1d u i0 i1 gcw) (F.cell1d a i0 i1 agcw)) (pB0 : F.Apart (F.cell1d u i0 i1 gcw) (F.face1d b0 i0 i1 0))
    (he : F.Elliptic1 i0 i1 alpha beta dx A B0) (G : List Int → T) :
    ∃! m', F.Within (F.cell1d u i0 i1 gcw) [(i0, i1)] m m' ∧ F.ArrOK m' (F.cell1d u i0 i1 gcw) ∧ ∃ m1 m2, Cuda.flux1d i0 i1 dx b0 gcw u f0 β1 m' = .ok m1 ∧ Cuda.diffusionV1Apply1d i0 i1 alpha beta dx agcw a gcw u f0 rgcw res β2 m1 = .ok m2 ∧
      ∀ p, F.InBounds [(i0, i1)] p → F.El m2 (F.cell1d res i0 i1 rgcw) p (G p) := by
  have hb : ∀ p, F.InBounds [(i0, i1)] p → F.InBounds (F.cell1d u i0 i1 gcw).dims p := fun p hp => by
    obtain ⟨i, rfl, hp⟩ := F.inBounds1.1 hp
    exact F.inBounds1.2 ⟨i, rfl, by omega⟩
  refine F.one_field (h.ok _ (by simp)) hb (fun U p => F.op1 alpha beta dx A B0 U (p.getD 0 0)) (fun U V p => by unfold F.op1; ring) (fun c U p => by unfold F.op1; ring)
    (fun U ho hq => he.only hi (fun p hw => ho p ?_) fun i h0 h1 => hq [i] (F.inBounds1.2 ⟨i, rfl, by omega⟩)) G fun m' U hw ho hU => ?_
  · obtain ⟨i, rfl, hw⟩ := F.inBounds1.1 hw
    exact F.inBounds1.2 ⟨i, rfl, by omega⟩
  · obtain ⟨m1, m2, R, c1, c2, e, hR⟩ := energy_v1_1 (alpha := alpha) (beta := beta) (dx := dx) hβ1 hβ2 hi hg hagcw hrgcw (hw.args hb ho h) hr (hw.holds hb pA hA) (hw.holds hb pB0 hB0) hU
    constructor
    · rintro ⟨n1, n2, e1, e2, hG⟩ p hp
      have t1 : n1 = m1 := Except.ok.inj (e1.symm.trans c1)
      subst t1
      have t2 : n2 = m2 := Except.ok.inj (e2.symm.trans c2)
      subst t2
      have r := Option.some.inj ((e p hp).2.symm.trans (hG p hp).2)
      obtain ⟨i, rfl, hp⟩ := F.inBounds1.1 hp
      rw [← r, hR i (by omega) (by omega)]
      rfl
    · intro hG
      refine ⟨m1, m2, c1, c2, fun p hp => ?_⟩
      have x := e p hp
      have y := hG p hp
      obtain ⟨i, rfl, hp⟩ := F.inBounds1.1 hp
      rw [hR i (by omega) (by omega)] at x
      rw [← y]
      exact x

example : ∃! m', F.Within (F.cell1d ⟨1, 0⟩ 0 3 2) [(0, 3)] (exDir 1 5 1) m' ∧ F.ArrOK m' (F.cell1d ⟨1, 0⟩ 0 3 2) ∧ ∃ m1 m2, Cuda.flux1d 0 3 exDx ⟨2, 0⟩ 2 ⟨1, 0⟩ ⟨5, 0⟩ (fun _ => revBackend) m' = .ok m1 ∧ Cuda.diffusionV1Apply1d 0 3 3 2 exDx 1 ⟨0, 0⟩ 2 ⟨1, 0⟩ ⟨5, 0⟩ 1 ⟨8, 0⟩ (fun _ => seqBackend) m1 = .ok m2 ∧
      ∀ p, F.InBounds [(0, 3)] p → F.El m2 (F.cell1d ⟨8, 0⟩ 0 3 1) p ((p.getD 0 0 : Int) : Rat) :=
  C73_v1_1d (T := Rat) (fun _ => revBackend_ok) (fun _ => seqBackend_ok) (by decide) (by decide) (by decide) (by decide) (exDir_args (by ex_args)) (apart_blk (by decide)) (exDir_rd (by decide) (exRat_ok rfl (by decide) (by decide))) (exDir_rd (by decide) (exRat_ok rfl (by decide) (by decide))) (apart_blk (by decide)) (apart_blk (by decide)) exEll_v1_1 _

/-- 1D, diffusion operator with constant reaction: for all values around the box and all right hand sides `G` there is exactly one way to fill the box so that the kernels give `G`. -/
theorem C73_v2_1d {i0 i1 gcw rgcw : Int} {alpha beta : T} {dx : Nat → T} {u b0 f0 res : Ptr} {β1 β2 : Nat → Backend} {m : Mem T} {B0 : List Int → T}
    (hβ1 : ∀ n, ValidBackend (β1 n)) (hβ2 : ∀ n, ValidBackend (β2 n)) (hi : i0 ≤ i1) (hg : 1 ≤ gcw) (hrgcw : 0 ≤ rgcw)
    (h : F.Args m [(F.cell1d u i0 i1 gcw), (F.face1d b0 i0 i1 0)] [(F.face1d f0 i0 i1 0), (F.cell1d res i0 i1 rgcw)])
    (hr : F.Apart (F.cell1d res i0 i1 rgcw) (F.face1d f0 i0 i1 0)) (hB0 : F.Holds m (F.face1d b0 i0 i1 0) B0)
    (pB0 : F.Apart (F.cell1d u i0 i1 gcw) (F.face1d b0 i0 i1 0))
    (he : F.Elliptic1 i0 i1 alpha beta dx (fun _ => 1) B0) (G : List Int → T) :
    ∃! m', F.Within (F.cell1d u i0 i1 gcw) [(i0, i1)] m m' ∧ F.ArrOK m' (F.cell1d u i0 i1 gcw) ∧ ∃ m1 m2, Cuda.flux1d i0 i1 dx b0 gcw u f0 β1 m' = .ok m1 ∧ Cuda.diffusionV2Apply1d i0 i1 alpha beta dx gcw u f0 rgcw res β2 m1 = .ok m2 ∧
      ∀ p, F.InBounds [(i0, i1)] p → F.El m2 (F.cell1d res i0 i1 rgcw) p (G p) := by
  have hb : ∀ p, F.InBounds [(i0, i1)] p → F.InBounds (F.cell1d u i0 i1 gcw).dims p := fun p hp => by
    obtain ⟨i, rfl, hp⟩ := F.inBounds1.1 hp
    exact F.inBounds1.2 ⟨i, rfl, by omega⟩
  refine F.one_field (h.ok _ (by simp)) hb (fun U p => F.op1 alpha beta dx (fun _ => 1) B0 U (p.getD 0 0)) (fun U V p => by unfold F.op1; ring) (fun c U p => by unfold F.op1; ring)
    (fun U ho hq => he.only hi (fun p hw => ho p ?_) fun i h0 h1 => hq [i] (F.inBounds1.2 ⟨i, rfl, by omega⟩)) G fun m' U hw ho hU => ?_
  · obtain ⟨i, rfl, hw⟩ := F.inBounds1.1 hw
    exact F.inBounds1.2 ⟨i, rfl, by omega⟩
  · obtain ⟨m1, m2, R, c1, c2, e, hR⟩ := energy_v2_1 (alpha := alpha) (beta := beta) (dx := dx) hβ1 hβ2 hi hg hrgcw (hw.args hb ho h) hr (hw.holds hb pB0 hB0) hU
    constructor
    · rintro ⟨n1, n2, e1, e2, hG⟩ p hp
      have t1 : n1 = m1 := Except.ok.inj (e1.symm.trans c1)
      subst t1
      have t2 : n2 = m2 := Except.ok.inj (e2.symm.trans c2)
      subst t2
      have r := Option.some.inj ((e p hp).2.symm.trans (hG p hp).2)
      obtain ⟨i, rfl, hp⟩ := F.inBounds1.1 hp
      rw [← r, hR i (by omega) (by omega)]
      rfl
    · intro hG
      refine ⟨m1, m2, c1, c2, fun p hp => ?_⟩
      have x := e p hp
      have y := hG p hp
      obtain ⟨i, rfl, hp⟩ := F.inBounds1.1 hp
      rw [hR i (by omega) (by omega)] at x
      rw [← y]
      exact x

example : ∃! m', F.Within (F.cell1d ⟨1, 0⟩ 0 3 2) [(0, 3)] (exDir 1 5 1) m' ∧ F.ArrOK m' (F.cell1d ⟨1, 0⟩ 0 3 2) ∧ ∃ m1 m2, Cuda.flux1d 0 3 exDx ⟨2, 0⟩ 2 ⟨1, 0⟩ ⟨5, 0⟩ (fun _ => revBackend) m' = .ok m1 ∧ Cuda.diffusionV2Apply1d 0 3 3 2 exDx 2 ⟨1, 0⟩ ⟨5, 0⟩ 1 ⟨8, 0⟩ (fun _ => seqBackend) m1 = .ok m2 ∧
      ∀ p, F.InBounds [(0, 3)] p → F.El m2 (F.cell1d ⟨8, 0⟩ 0 3 1) p ((p.getD 0 0 : Int) : Rat) :=
  C73_v2_1d (T := Rat) (fun _ => revBackend_ok) (fun _ => seqBackend_ok) (by decide) (by decide) (by decide) (exDir_args (by ex_args)) (apart_blk (by decide)) (exDir_rd (by decide) (exRat_ok rfl (by decide) (by decide))) (apart_blk (by decide)) exEll_v2_1 _

/-- 1D, Poisson operator: for all values around the box and all right hand sides `G` there is exactly one way to fill the box so that the kernels give `G`. -/
theorem C73_poisson_1d {i0 i1 gcw rgcw : Int} {beta : T} {dx : Nat → T} {u f0 res : Ptr} {β1 β2 : Nat → Backend} {m : Mem T} 
    (hβ1 : ∀ n, ValidBackend (β1 n)) (hβ2 : ∀ n, ValidBackend (β2 n)) (hi : i0 ≤ i1) (hg : 1 ≤ gcw) (hrgcw : 0 ≤ rgcw)
    (h : F.Args m [(F.cell1d u i0 i1 gcw)] [(F.face1d f0 i0 i1 0), (F.cell1d res i0 i1 rgcw)])
    (hr : F.Apart (F.cell1d res i0 i1 rgcw) (F.face1d f0 i0 i1 0))
    (he : F.Elliptic1 i0 i1 0 beta dx (fun _ => 1) (fun _ => 1)) (G : List Int → T) :
    ∃! m', F.Within (F.cell1d u i0 i1 gcw) [(i0, i1)] m m' ∧ F.ArrOK m' (F.cell1d u i0 i1 gcw) ∧ ∃ m1 m2, Cuda.poissonFlux1d i0 i1 dx gcw u f0 β1 m' = .ok m1 ∧ Cuda.poissonV2Apply1d i0 i1 beta dx f0 rgcw res β2 m1 = .ok m2 ∧
      ∀ p, F.InBounds [(i0, i1)] p → F.El m2 (F.cell1d res i0 i1 rgcw) p (G p) := by
  have hb : ∀ p, F.InBounds [(i0, i1)] p → F.InBounds (F.cell1d u i0 i1 gcw).dims p := fun p hp => by
    obtain ⟨i, rfl, hp⟩ := F.inBounds1.1 hp
    exact F.inBounds1.2 ⟨i, rfl, by omega⟩
  refine F.one_field (h.ok _ (by simp)) hb (fun U p => F.op1 0 beta dx (fun _ => 1) (fun _ => 1) U (p.getD 0 0)) (fun U V p => by unfold F.op1; ring) (fun c U p => by unfold F.op1; ring)
    (fun U ho hq => he.only hi (fun p hw => ho p ?_) fun i h0 h1 => hq [i] (F.inBounds1.2 ⟨i, rfl, by omega⟩)) G fun m' U hw ho hU => ?_
  · obtain ⟨i, rfl, hw⟩ := F.inBounds1.1 hw
    exact F.inBounds1.2 ⟨i, rfl, by omega⟩
  · obtain ⟨m1, m2, R, c1, c2, e, hR⟩ := energy_p_1 (beta := beta) (dx := dx) hβ1 hβ2 hi hg hrgcw (hw.args hb ho h) hr hU
    constructor
    · rintro ⟨n1, n2, e1, e2, hG⟩ p hp
      have t1 : n1 = m1 := Except.ok.inj (e1.symm.trans c1)
      subst t1
      have t2 : n2 = m2 := Except.ok.inj (e2.symm.trans c2)
      subst t2
      have r := Option.some.inj ((e p hp).2.symm.trans (hG p hp).2)
      obtain ⟨i, rfl, hp⟩ := F.inBounds1.1 hp
      rw [← r, hR i (by omega) (by omega)]
      rfl
    · intro hG
      refine ⟨m1, m2, c1, c2, fun p hp => ?_⟩
      have x := e p hp
      have y := hG p hp
      obtain ⟨i, rfl, hp⟩ := F.inBounds1.1 hp
      rw [hR i (by omega) (by omega)] at x
      rw [← y]
      exact x

example : ∃! m', F.Within (F.cell1d ⟨1, 0⟩ 0 3 2) [(0, 3)] (exDir 1 5 1) m' ∧ F.ArrOK m' (F.cell1d ⟨1, 0⟩ 0 3 2) ∧ ∃ m1 m2, Cuda.poissonFlux1d 0 3 exDx 2 ⟨1, 0⟩ ⟨5, 0⟩ (fun _ => revBackend) m' = .ok m1 ∧ Cuda.poissonV2Apply1d 0 3 2 exDx ⟨5, 0⟩ 1 ⟨8, 0⟩ (fun _ => seqBackend) m1 = .ok m2 ∧
      ∀ p, F.InBounds [(0, 3)] p → F.El m2 (F.cell1d ⟨8, 0⟩ 0 3 1) p ((p.getD 0 0 : Int) : Rat) :=
  C73_poisson_1d (T := Rat) (fun _ => revBackend_ok) (fun _ => seqBackend_ok) (by decide) (by decide) (by decide) (exDir_args (by ex_args)) (apart_blk (by decide)) exEll_p_1 _

/-- 2D, diffusion operator with cell coefficients: for all values around the box and all right hand sides `G` there is exactly one way to fill the box so that the kernels give `G`. -/
theorem C73_v1_2d {i0 j0 i1 j1 agcw gcw rgcw : Int} {alpha beta : T} {dx : Nat → T} {a u b0 b1 f0 f1 res : Ptr} {β1 β2 : Nat → Backend} {m : Mem T} {A B0 B1 : List Int → T}
    (hβ1 : ∀ n, ValidBackend (β1 n)) (hβ2 : ∀ n, ValidBackend (β2 n)) (hi : i0 ≤ i1) (hj : j0 ≤ j1) (hg : 1 ≤ gcw) (hagcw : 0 ≤ agcw) (hrgcw : 0 ≤ rgcw)
    (h : F.Args m [(F.cell2d a i0 j0 i1 j1 agcw), (F.cell2d u i0 j0 i1 j1 gcw), (F.face2d0 b0 i0 j0 i1 j1 0), (F.face2d1 b1 i0 j0 i1 j1 0)] [(F.face2d0 f0 i0 j0 i1 j1 0), (F.face2d1 f1 i0 j0 i1 j1 0), (F.cell2d res i0 j0 i1 j1 rgcw)])
    (hp : F.Apart (F.face2d0 f0 i0 j0 i1 j1 0) (F.face2d1 f1 i0 j0 i1 j1 0))
    (hr : F.Apart (F.cell2d res i0 j0 i1 j1 rgcw) (F.face2d0 f0 i0 j0 i1 j1 0) ∧ F.Apart (F.cell2d res i0 j0 i1 j1 rgcw) (F.face2d1 f1 i0 j0 i1 j1 0)) (hA : F.Holds m (F.cell2d a i0 j0 i1 j1 agcw) A) (hB0 : F.Holds m (F.face2d0 b0 i0 j0 i1 j1 0) B0) (hB1 : F.Holds m (F.face2d1 b1 i0 j0 i1 j1 0) B1)
    (pA : F.Apart (F.cell2d u i0 j0 i1 j1 gcw) (F.cell2d a i0 j0 i1 j1 agcw)) (pB0 : F.Apart (F.cell2d u i0 j0 i1 j1 gcw) (F.face2d0 b0 i0 j0 i1 j1 0)) (pB1 : F.Apart (F.cell2d u i0 j0 i1 j1 gcw) (F.face2d1 b1 i0 j0 i1 j1 0))
    (he : F.Elliptic2 i0 j0 i1 j1 alpha beta dx A B0 B1) (G : List Int → T) :
    ∃! m', F.Within (F.cell2d u i0 j0 i1 j1 gcw) [(i0, i1), (j0, j1)] m m' ∧ F.ArrOK m' (F.cell2d u i0 j0 i1 j1 gcw) ∧ ∃ m1 m2, Cuda.flux2d i0 j0 i1 j1 dx b0 b1 gcw u f0 f1 β1 m' = .ok m1 ∧ Cuda.diffusionV1Apply2d i0 i1 j0 j1 alpha beta dx agcw a gcw u f0 f1 rgcw res β2 m1 = .ok m2 ∧
      ∀ p, F.InBounds [(i0, i1), (j0, j1)] p → F.El m2 (F.cell2d res i0 j0 i1 j1 rgcw) p (G p) := by
  have hb : ∀ p, F.InBounds [(i0, i1), (j0, j1)] p → F.InBounds (F.cell2d u i0 j0 i1 j1 gcw).dims p := fun p hp => by
    obtain ⟨i, j, rfl, hp⟩ := F.inBounds2.1 hp
    exact F.inBounds2.2 ⟨i, j, rfl, by omega⟩
  refine F.one_field (h.ok _ (by simp)) hb (fun U p => F.op2 alpha beta dx A B0 B1 U (p.getD 0 0) (p.getD 1 0)) (fun U V p => by unfold F.op2; ring) (fun c U p => by unfold F.op2; ring)
    (fun U ho hq => he.only hi hj (fun p hw => ho p ?_) fun i j h0 h1 h2 h3 => hq [i, j] (F.inBounds2.2 ⟨i, j, rfl, by omega⟩)) G fun m' U hw ho hU => ?_
  · obtain ⟨i, j, rfl, hw⟩ := F.inBounds2.1 hw
    exact F.inBounds2.2 ⟨i, j, rfl, by omega⟩
  · obtain ⟨m1, m2, R, c1, c2, e, hR⟩ := energy_v1_2 (alpha := alpha) (beta := beta) (dx := dx) hβ1 hβ2 hi hj hg hagcw hrgcw (hw.args hb ho h) hp hr (hw.holds hb pA hA) (hw.holds hb pB0 hB0) (hw.holds hb pB1 hB1) hU
    constructor
    · rintro ⟨n1, n2, e1, e2, hG⟩ p hp
      have t1 : n1 = m1 := Except.ok.inj (e1.symm.trans c1)
      subst t1
      have t2 : n2 = m2 := Except.ok.inj (e2.symm.trans c2)
      subst t2
      have r := Option.some.inj ((e p hp).2.symm.trans (hG p hp).2)
      obtain ⟨i, j, rfl, hp⟩ := F.inBounds2.1 hp
      rw [← r, hR i j (by omega) (by omega) (by omega) (by omega)]
      rfl
    · intro hG
      refine ⟨m1, m2, c1, c2, fun p hp => ?_⟩
      have x := e p hp
      have y := hG p hp
      obtain ⟨i, j, rfl, hp⟩ := F.inBounds2.1 hp
      rw [hR i j (by omega) (by omega) (by omega) (by omega)] at x
      rw [← y]
      exact x

example : ∃! m', F.Within (F.cell2d ⟨1, 0⟩ 0 1 2 3 2) [(0, 2), (1, 3)] (exDir 2 5 1) m' ∧ F.ArrOK m' (F.cell2d ⟨1, 0⟩ 0 1 2 3 2) ∧ ∃ m1 m2, Cuda.flux2d 0 1 2 3 exDx ⟨2, 0⟩ ⟨3, 0⟩ 2 ⟨1, 0⟩ ⟨5, 0⟩ ⟨6, 0⟩ (fun _ => revBackend) m' = .ok m1 ∧ Cuda.diffusionV1Apply2d 0 2 1 3 3 2 exDx 1 ⟨0, 0⟩ 2 ⟨1, 0⟩ ⟨5, 0⟩ ⟨6, 0⟩ 1 ⟨8, 0⟩ (fun _ => seqBackend) m1 = .ok m2 ∧
      ∀ p, F.InBounds [(0, 2), (1, 3)] p → F.El m2 (F.cell2d ⟨8, 0⟩ 0 1 2 3 1) p ((p.getD 0 0 : Int) : Rat) :=
  C73_v1_2d (T := Rat) (fun _ => revBackend_ok) (fun _ => seqBackend_ok) (by decide) (by decide) (by decide) (by decide) (by decide) (exDir_args (by ex_args)) (apart_blk (by decide)) ⟨apart_blk (by decide), apart_blk (by decide)⟩ (exDir_rd (by decide) (exRat_ok rfl (by decide) (by decide))) (exDir_rd (by decide) (exRat_ok rfl (by decide) (by decide))) (exDir_rd (by decide) (exRat_ok rfl (by decide) (by decide))) (apart_blk (by decide)) (apart_blk (by decide)) (apart_blk (by decide)) exEll_v1_2 _

/-- 2D, diffusion operator with constant reaction: for all values around the box and all right hand sides `G` there is exactly one way to fill the box so that the kernels give `G`. -/
theorem C73_v2_2d {i0 j0 i1 j1 gcw rgcw : Int} {alpha beta : T} {dx : Nat → T} {u b0 b1 f0 f1 res : Ptr} {β1 β2 : Nat → Backend} {m : Mem T} {B0 B1 : List Int → T}
    (hβ1 : ∀ n, ValidBackend (β1 n)) (hβ2 : ∀ n, ValidBackend (β2 n)) (hi : i0 ≤ i1) (hj : j0 ≤ j1) (hg : 1 ≤ gcw) (hrgcw : 0 ≤ rgcw)
    (h : F.Args m [(F.cell2d u i0 j0 i1 j1 gcw), (F.face2d0 b0 i0 j0 i1 j1 0), (F.face2d1 b1 i0 j0 i1 j1 0)] [(F.face2d0 f0 i0 j0 i1 j1 0), (F.face2d1 f1 i0 j0 i1 j1 0), (F.cell2d res i0 j0 i1 j1 rgcw)])
    (hp : F.Apart (F.face2d0 f0 i0 j0 i1 j1 0) (F.face2d1 f1 i0 j0 i1 j1 0))
    (hr : F.Apart (F.cell2d res i0 j0 i1 j1 rgcw) (F.face2d0 f0 i0 j0 i1 j1 0) ∧ F.Apart (F.cell2d res i0 j0 i1 j1 rgcw) (F.face2d1 f1 i0 j0 i1 j1 0)) (hB0 : F.Holds m (F.face2d0 b0 i0 j0 i1 j1 0) B0) (hB1 : F.Holds m (F.face2d1 b1 i0 j0 i1 j1 0) B1)
    (pB0 : F.Apart (F.cell2d u i0 j0 i1 j1 gcw) (F.face2d0 b0 i0 j0 i1 j1 0)) (pB1 : F.Apart (F.cell2d u i0 j0 i1 j1 gcw) (F.face2d1 b1 i0 j0 i1 j1 0))
    (he : F.Elliptic2 i0 j0 i1 j1 alpha beta dx (fun _ => 1) B0 B1) (G : List Int → T) :
    ∃! m', F.Within (F.cell2d u i0 j0 i1 j1 gcw) [(i0, i1), (j0, j1)] m m' ∧ F.ArrOK m' (F.cell2d u i0 j0 i1 j1 gcw) ∧ ∃ m1 m2, Cuda.flux2d i0 j0 i1 j1 dx b0 b1 gcw u f0 f1 β1 m' = .ok m1 ∧ Cuda.diffusionV2Apply2d i0 i1 j0 j1 alpha beta dx gcw u f0 f1 rgcw res β2 m1 = .ok m2 ∧
      ∀ p, F.InBounds [(i0, i1), (j0, j1)] p → F.El m2 (F.cell2d res i0 j0 i1 j1 rgcw) p (G p) := by
  have hb : ∀ p, F.InBounds [(i0, i1), (j0, j1)] p → F.InBounds (F.cell2d u i0 j0 i1 j1 gcw).dims p := fun p hp => by
    obtain ⟨i, j, rfl, hp⟩ := F.inBounds2.1 hp
    exact F.inBounds2.2 ⟨i, j, rfl, by omega⟩
  refine F.one_field (h.ok _ (by simp)) hb (fun U p => F.op2 alpha beta dx (fun _ => 1) B0 B1 U (p.getD 0 0) (p.getD 1 0)) (fun U V p => by unfold F.op2; ring) (fun c U p => by unfold F.op2; ring)
    (fun U ho hq => he.only hi hj (fun p hw => ho p ?_) fun i j h0 h1 h2 h3 => hq [i, j] (F.inBounds2.2 ⟨i, j, rfl, by omega⟩)) G fun m' U hw ho hU => ?_
  · obtain ⟨i, j, rfl, hw⟩ := F.inBounds2.1 hw
    exact F.inBounds2.2 ⟨i, j, rfl, by omega⟩
  · obtain ⟨m1, m2, R, c1, c2, e, hR⟩ := energy_v2_2 (alpha := alpha) (beta := beta) (dx := dx) hβ1 hβ2 hi hj hg hrgcw (hw.args hb ho h) hp hr (hw.holds hb pB0 hB0) (hw.holds hb pB1 hB1) hU
    constructor
    · rintro ⟨n1, n2, e1, e2, hG⟩ p hp
      have t1 : n1 = m1 := Except.ok.inj (e1.symm.trans c1)
      subst t1
      have t2 : n2 = m2 := Except.ok.inj (e2.symm.trans c2)
      subst t2
      have r := Option.some.inj ((e p hp).2.symm.trans (hG p hp).2)
      obtain ⟨i, j, rfl, hp⟩ := F.inBounds2.1 hp
      rw [← r, hR i j (by omega) (by omega) (by omega) (by omega)]
      rfl
    · intro hG
      refine ⟨m1, m2, c1, c2, fun p hp => ?_⟩
      have x := e p hp
      have y := hG p hp
      obtain ⟨i, j, rfl, hp⟩ := F.inBounds2.1 hp
      rw [hR i j (by omega) (by omega) (by omega) (by omega)] at x
      rw [← y]
      exact x

example : ∃! m', F.Within (F.cell2d ⟨1, 0⟩ 0 1 2 3 2) [(0, 2), (1, 3)] (exDir 2 5 1) m' ∧ F.ArrOK m' (F.cell2d ⟨1, 0⟩ 0 1 2 3 2) ∧ ∃ m1 m2, Cuda.flux2d 0 1 2 3 exDx ⟨2, 0⟩ ⟨3, 0⟩ 2 ⟨1, 0⟩ ⟨5, 0⟩ ⟨6, 0⟩ (fun _ => revBackend) m' = .ok m1 ∧ Cuda.diffusionV2Apply2d 0 2 1 3 3 2 exDx 2 ⟨1, 0⟩ ⟨5, 0⟩ ⟨6, 0⟩ 1 ⟨8, 0⟩ (fun _ => seqBackend) m1 = .ok m2 ∧
      ∀ p, F.InBounds [(0, 2), (1, 3)] p → F.El m2 (F.cell2d ⟨8, 0⟩ 0 1 2 3 1) p ((p.getD 0 0 : Int) : Rat) :=
  C73_v2_2d (T := Rat) (fun _ => revBackend_ok) (fun _ => seqBackend_ok) (by decide) (by decide) (by decide) (by decide) (exDir_args (by ex_args)) (apart_blk (by decide)) ⟨apart_blk (by decide), apart_blk (by decide)⟩ (exDir_rd (by decide) (exRat_ok rfl (by decide) (by decide))) (exDir_rd (by decide) (exRat_ok rfl (by decide) (by decide))) (apart_blk (by decide)) (apart_blk (by decide)) exEll_v2_2 _

/-- 2D, Poisson operator: for all values around the box and all right hand sides `G` there is exactly one way to fill the box so that the kernels give `G`. -/
theorem C73_poisson_2d {i0 j0 i1 j1 gcw rgcw : Int} {beta : T} {dx : Nat → T} {u f0 f1 res : Ptr} {β1 β2 : Nat → Backend} {m : Mem T} 
    (hβ1 : ∀ n, ValidBackend (β1 n)) (hβ2 : ∀ n, ValidBackend (β2 n)) (hi : i0 ≤ i1) (hj : j0 ≤ j1) (hg : 1 ≤ gcw) (hrgcw : 0 ≤ rgcw)
    (h : F.Args m [(F.cell2d u i0 j0 i1 j1 gcw)] [(F.face2d0 f0 i0 j0 i1 j1 0), (F.face2d1 f1 i0 j0 i1 j1 0), (F.cell2d res i0 j0 i1 j1 rgcw)])
    (hp : F.Apart (F.face2d0 f0 i0 j0 i1 j1 0) (F.face2d1 f1 i0 j0 i1 j1 0))
    (hr : F.Apart (F.cell2d res i0 j0 i1 j1 rgcw) (F.face2d0 f0 i0 j0 i1 j1 0) ∧ F.Apart (F.cell2d res i0 j0 i1 j1 rgcw) (F.face2d1 f1 i0 j0 i1 j1 0))
    (he : F.Elliptic2 i0 j0 i1 j1 0 beta dx (fun _ => 1) (fun _ => 1) (fun _ => 1)) (G : List Int → T) :
    ∃! m', F.Within (F.cell2d u i0 j0 i1 j1 gcw) [(i0, i1), (j0, j1)] m m' ∧ F.ArrOK m' (F.cell2d u i0 j0 i1 j1 gcw) ∧ ∃ m1 m2, Cuda.poissonFlux2d i0 j0 i1 j1 dx gcw u f0 f1 β1 m' = .ok m1 ∧ Cuda.poissonV2Apply2d i0 i1 j0 j1 beta dx f0 f1 rgcw res β2 m1 = .ok m2 ∧
      ∀ p, F.InBounds [(i0, i1), (j0, j1)] p → F.El m2 (F.cell2d res i0 j0 i1 j1 rgcw) p (G p) := by
  have hb : ∀ p, F.InBounds [(i0, i1), (j0, j1)] p → F.InBounds (F.cell2d u i0 j0 i1 j1 gcw).dims p := fun p hp => by
    obtain ⟨i, j, rfl, hp⟩ := F.inBounds2.1 hp
    exact F.inBounds2.2 ⟨i, j, rfl, by omega⟩
  refine F.one_field (h.ok _ (by simp)) hb (fun U p => F.op2 0 beta dx (fun _ => 1) (fun _ => 1) (fun _ => 1) U (p.getD 0 0) (p.getD 1 0)) (fun U V p => by unfold F.op2; ring) (fun c U p => by unfold F.op2; ring)
    (fun U ho hq => he.only hi hj (fun p hw => ho p ?_) fun i j h0 h1 h2 h3 => hq [i, j] (F.inBounds2.2 ⟨i, j, rfl, by omega⟩)) G fun m' U hw ho hU => ?_
  · obtain ⟨i, j, rfl, hw⟩ := F.inBounds2.1 hw
    exact F.inBounds2.2 ⟨i, j, rfl, by omega⟩
  · obtain ⟨m1, m2, R, c1, c2, e, hR⟩ := energy_p_2 (beta := beta) (dx := dx) hβ1 hβ2 hi hj hg hrgcw (hw.args hb ho h) hp hr hU
    constructor
    · rintro ⟨n1, n2, e1, e2, hG⟩ p hp
      have t1 : n1 = m1 := Except.ok.inj (e1.symm.trans c1)
      subst t1
      have t2 : n2 = m2 := Except.ok.inj (e2.symm.trans c2)
      subst t2
      have r := Option.some.inj ((e p hp).2.symm.trans (hG p hp).2)
      obtain ⟨i, j, rfl, hp⟩ := F.inBounds2.1 hp
      rw [← r, hR i j (by omega) (by omega) (by omega) (by omega)]
      rfl
    · intro hG
      refine ⟨m1, m2, c1, c2, fun p hp => ?_⟩
      have x := e p hp
      have y := hG p hp
      obtain ⟨i, j, rfl, hp⟩ := F.inBounds2.1 hp
      rw [hR i j (by omega) (by omega) (by omega) (by omega)] at x
      rw [← y]
      exact x

example : ∃! m', F.Within (F.cell2d ⟨1, 0⟩ 0 1 2 3 2) [(0, 2), (1, 3)] (exDir 2 5 1) m' ∧ F.ArrOK m' (F.cell2d ⟨1, 0⟩ 0 1 2 3 2) ∧ ∃ m1 m2, Cuda.poissonFlux2d 0 1 2 3 exDx 2 ⟨1, 0⟩ ⟨5, 0⟩ ⟨6, 0⟩ (fun _ => revBackend) m' = .ok m1 ∧ Cuda.poissonV2Apply2d 0 2 1 3 2 exDx ⟨5, 0⟩ ⟨6, 0⟩ 1 ⟨8, 0⟩ (fun _ => seqBackend) m1 = .ok m2 ∧
      ∀ p, F.InBounds [(0, 2), (1, 3)] p → F.El m2 (F.cell2d ⟨8, 0⟩ 0 1 2 3 1) p ((p.getD 0 0 : Int) : Rat) :=
  C73_poisson_2d (T := Rat) (fun _ => revBackend_ok) (fun _ => seqBackend_ok) (by decide) (by decide) (by decide) (by decide) (exDir_args (by ex_args)) (apart_blk (by decide)) ⟨apart_blk (by decide), apart_blk (by decide)⟩ exEll_p_2 _

/-- 3D, diffusion operator with cell coefficients: for all values around the box and all right hand sides `G` there is exactly one way to fill the box so that the kernels give `G`. -/
theorem C73_v1_3d {i0 j0 k0 i1 j1 k1 agcw gcw rgcw : Int} {alpha beta : T} {dx : Nat → T} {a u b0 b1 b2 f0 f1 f2 res : Ptr} {β1 β2 : Nat → Backend} {m : Mem T} {A B0 B1 B2 : List Int → T}
    (hβ1 : ∀ n, ValidBackend (β1 n)) (hβ2 : ∀ n, ValidBackend (β2 n)) (hi : i0 ≤ i1) (hj : j0 ≤ j1) (hk : k0 ≤ k1) (hg : 1 ≤ gcw) (hagcw : 0 ≤ agcw) (hrgcw : 0 ≤ rgcw)
    (h : F.Args m [(F.cell3d a i0 j0 k0 i1 j1 k1 agcw), (F.cell3d u i0 j0 k0 i1 j1 k1 gcw), (F.face3d0 b0 i0 j0 k0 i1 j1 k1 0), (F.face3d1 b1 i0 j0 k0 i1 j1 k1 0), (F.face3d2 b2 i0 j0 k0 i1 j1 k1 0)] [(F.face3d0 f0 i0 j0 k0 i1 j1 k1 0), (F.face3d1 f1 i0 j0 k0 i1 j1 k1 0), (F.face3d2 f2 i0 j0 k0 i1 j1 k1 0), (F.cell3d res i0 j0 k0 i1 j1 k1 rgcw)])
    (hp : F.Apart (F.face3d0 f0 i0 j0 k0 i1 j1 k1 0) (F.face3d1 f1 i0 j0 k0 i1 j1 k1 0) ∧ F.Apart (F.face3d0 f0 i0 j0 k0 i1 j1 k1 0) (F.face3d2 f2 i0 j0 k0 i1 j1 k1 0) ∧ F.Apart (F.face3d1 f1 i0 j0 k0 i1 j1 k1 0) (F.face3d2 f2 i0 j0 k0 i1 j1 k1 0))
    (hr : F.Apart (F.cell3d res i0 j0 k0 i1 j1 k1 rgcw) (F.face3d0 f0 i0 j0 k0 i1 j1 k1 0) ∧ F.Apart (F.cell3d res i0 j0 k0 i1 j1 k1 rgcw) (F.face3d1 f1 i0 j0 k0 i1 j1 k1 0) ∧ F.Apart (F.cell3d res i0 j0 k0 i1 j1 k1 rgcw) (F.face3d2 f2 i0 j0 k0 i1 j1 k1 0)) (hA : F.Holds m (F.cell3d a i0 j0 k0 i1 j1 k1 agcw) A) (hB0 : F.Holds m (F.face3d0 b0 i0 j0 k0 i1 j1 k1 0) B0) (hB1 : F.Holds m (F.face3d1 b1 i0 j0 k0 i1 j1 k1 0) B1) (hB2 : F.Holds m (F.face3d2 b2 i0 j0 k0 i1 j1 k1 0) B2)
    (pA : F.Apart (F.cell3d u i0 j0 k0 i1 j1 k1 gcw) (F.cell3d a i0 j0 k0 i1 j1 k1 agcw)) (pB0 : F.Apart (F.cell3d u i0 j0 k0 i1 j1 k1 gcw) (F.face3d0 b0 i0 j0 k0 i1 j1 k1 0)) (pB1 : F.Apart (F.cell3d u i0 j0 k0 i1 j1 k1 gcw) (F.face3d1 b1 i0 j0 k0 i1 j1 k1 0)) (pB2 : F.Apart (F.cell3d u i0 j0 k0 i1 j1 k1 gcw) (F.face3d2 b2 i0 j0 k0 i1 j1 k1 0))
    (he : F.Elliptic3 i0 j0 k0 i1 j1 k1 alpha beta dx A B0 B1 B2) (G : List Int → T) :
    ∃! m', F.Within (F.cell3d u i0 j0 k0 i1 j1 k1 gcw) [(i0, i1), (j0, j1), (k0, k1)] m m' ∧ F.ArrOK m' (F.cell3d u i0 j0 k0 i1 j1 k1 gcw) ∧ ∃ m1 m2, Cuda.flux3d i0 j0 k0 i1 j1 k1 dx b0 b1 b2 gcw u f0 f1 f2 β1 m' = .ok m1 ∧ Cuda.diffusionV1Apply3d i0 i1 j0 j1 k0 k1 alpha beta dx agcw a gcw u f0 f1 f2 rgcw res β2 m1 = .ok m2 ∧
      ∀ p, F.InBounds [(i0, i1), (j0, j1), (k0, k1)] p → F.El m2 (F.cell3d res i0 j0 k0 i1 j1 k1 rgcw) p (G p) := by
  have hb : ∀ p, F.InBounds [(i0, i1), (j0, j1), (k0, k1)] p → F.InBounds (F.cell3d u i0 j0 k0 i1 j1 k1 gcw).dims p := fun p hp => by
    obtain ⟨i, j, k, rfl, hp⟩ := F.inBounds3.1 hp
    exact F.inBounds3.2 ⟨i, j, k, rfl, by omega⟩
  refine F.one_field (h.ok _ (by simp)) hb (fun U p => F.op3 alpha beta dx A B0 B1 B2 U (p.getD 0 0) (p.getD 1 0) (p.getD 2 0)) (fun U V p => by unfold F.op3; ring) (fun c U p => by unfold F.op3; ring)
    (fun U ho hq => he.only hi hj hk (fun p hw => ho p ?_) fun i j k h0 h1 h2 h3 h4 h5 => hq [i, j, k] (F.inBounds3.2 ⟨i, j, k, rfl, by omega⟩)) G fun m' U hw ho hU => ?_
  · obtain ⟨i, j, k, rfl, hw⟩ := F.inBounds3.1 hw
    exact F.inBounds3.2 ⟨i, j, k, rfl, by omega⟩
  · obtain ⟨m1, m2, R, c1, c2, e, hR⟩ := energy_v1_3 (alpha := alpha) (beta := beta) (dx := dx) hβ1 hβ2 hi hj hk hg hagcw hrgcw (hw.args hb ho h) hp hr (hw.holds hb pA hA) (hw.holds hb pB0 hB0) (hw.holds hb pB1 hB1) (hw.holds hb pB2 hB2) hU
    constructor
    · rintro ⟨n1, n2, e1, e2, hG⟩ p hp
      have t1 : n1 = m1 := Except.ok.inj (e1.symm.trans c1)
      subst t1
      have t2 : n2 = m2 := Except.ok.inj (e2.symm.trans c2)
      subst t2
      have r := Option.some.inj ((e p hp).2.symm.trans (hG p hp).2)
      obtain ⟨i, j, k, rfl, hp⟩ := F.inBounds3.1 hp
      rw [← r, hR i j k (by omega) (by omega) (by omega) (by omega) (by omega) (by omega)]
      rfl
    · intro hG
      refine ⟨m1, m2, c1, c2, fun p hp => ?_⟩
      have x := e p hp
      have y := hG p hp
      obtain ⟨i, j, k, rfl, hp⟩ := F.inBounds3.1 hp
      rw [hR i j k (by omega) (by omega) (by omega) (by omega) (by omega) (by omega)] at x
      rw [← y]
      exact x

example : ∃! m', F.Within (F.cell3d ⟨1, 0⟩ 0 1 2 1 2 3 2) [(0, 1), (1, 2), (2, 3)] (exDir 3 5 1) m' ∧ F.ArrOK m' (F.cell3d ⟨1, 0⟩ 0 1 2 1 2 3 2) ∧ ∃ m1 m2, Cuda.flux3d 0 1 2 1 2 3 exDx ⟨2, 0⟩ ⟨3, 0⟩ ⟨4, 0⟩ 2 ⟨1, 0⟩ ⟨5, 0⟩ ⟨6, 0⟩ ⟨7, 0⟩ (fun _ => revBackend) m' = .ok m1 ∧ Cuda.diffusionV1Apply3d 0 1 1 2 2 3 3 2 exDx 1 ⟨0, 0⟩ 2 ⟨1, 0⟩ ⟨5, 0⟩ ⟨6, 0⟩ ⟨7, 0⟩ 1 ⟨8, 0⟩ (fun _ => seqBackend) m1 = .ok m2 ∧
      ∀ p, F.InBounds [(0, 1), (1, 2), (2, 3)] p → F.El m2 (F.cell3d ⟨8, 0⟩ 0 1 2 1 2 3 1) p ((p.getD 0 0 : Int) : Rat) :=
  C73_v1_3d (T := Rat) (fun _ => revBackend_ok) (fun _ => seqBackend_ok) (by decide) (by decide) (by decide) (by decide) (by decide) (by decide) (exDir_args (by ex_args)) ⟨apart_blk (by decide), apart_blk (by decide), apart_blk (by decide)⟩ ⟨apart_blk (by decide), apart_blk (by decide), apart_blk (by decide)⟩ (exDir_rd (by decide) (exRat_ok rfl (by decide) (by decide))) (exDir_rd (by decide) (exRat_ok rfl (by decide) (by decide))) (exDir_rd (by decide) (exRat_ok rfl (by decide) (by decide))) (exDir_rd (by decide) (exRat_ok rfl (by decide) (by decide))) (apart_blk (by decide)) (apart_blk (by decide)) (apart_blk (by decide)) (apart_blk (by decide)) exEll_v1_3 _

/-- 3D, diffusion operator with constant reaction: for all values around the box and all right hand sides `G` there is exactly one way to fill the box so that the kernels give `G`. -/
theorem C73_v2_3d {i0 j0 k0 i1 j1 k1 gcw rgcw : Int} {alpha beta : T} {dx : Nat → T} {u b0 b1 b2 f0 f1 f2 res : Ptr} {β1 β2 : Nat → Backend} {m : Mem T} {B0 B1 B2 : List Int → T}
    (hβ1 : ∀ n, ValidBackend (β1 n)) (hβ2 : ∀ n, ValidBackend (β2 n)) (hi : i0 ≤ i1) (hj : j0 ≤ j1) (hk : k0 ≤ k1) (hg : 1 ≤ gcw) (hrgcw : 0 ≤ rgcw)
    (h : F.Args m [(F.cell3d u i0 j0 k0 i1 j1 k1 gcw), (F.face3d0 b0 i0 j0 k0 i1 j1 k1 0), (F.face3d1 b1 i0 j0 k0 i1 j1 k1 0), (F.face3d2 b2 i0 j0 k0 i1 j1 k1 0)] [(F.face3d0 f0 i0 j0 k0 i1 j1 k1 0), (F.face3d1 f1 i0 j0 k0 i1 j1 k1 0), (F.face3d2 f2 i0 j0 k0 i1 j1 k1 0), (F.cell3d res i0 j0 k0 i1 j1 k1 rgcw)])
    (hp : F.Apart (F.face3d0 f0 i0 j0 k0 i1 j1 k1 0) (F.face3d1 f1 i0 j0 k0 i1 j1 k1 0) ∧ F.Apart (F.face3d0 f0 i0 j0 k0 i1 j1 k1 0) (F.face3d2 f2 i0 j0 k0 i1 j1 k1 0) ∧ F.Apart (F.face3d1 f1 i0 j0 k0 i1 j1 k1 0) (F.face3d2 f2 i0 j0 k0 i1 j1 k1 0))
    (hr : F.Apart (F.cell3d res i0 j0 k0 i1 j1 k1 rgcw) (F.face3d0 f0 i0 j0 k0 i1 j1 k1 0) ∧ F.Apart (F.cell3d res i0 j0 k0 i1 j1 k1 rgcw) (F.face3d1 f1 i0 j0 k0 i1 j1 k1 0) ∧ F.Apart (F.cell3d res i0 j0 k0 i1 j1 k1 rgcw) (F.face3d2 f2 i0 j0 k0 i1 j1 k1 0)) (hB0 : F.Holds m (F.face3d0 b0 i0 j0 k0 i1 j1 k1 0) B0) (hB1 : F.Holds m (F.face3d1 b1 i0 j0 k0 i1 j1 k1 0) B1) (hB2 : F.Holds m (F.face3d2 b2 i0 j0 k0 i1 j1 k1 0) B2)
    (pB0 : F.Apart (F.cell3d u i0 j0 k0 i1 j1 k1 gcw) (F.face3d0 b0 i0 j0 k0 i1 j1 k1 0)) (pB1 : F.Apart (F.cell3d u i0 j0 k0 i1 j1 k1 gcw) (F.face3d1 b1 i0 j0 k0 i1 j1 k1 0)) (pB2 : F.Apart (F.cell3d u i0 j0 k0 i1 j1 k1 gcw) (F.face3d2 b2 i0 j0 k0 i1 j1 k1 0))
    (he : F.Elliptic3 i0 j0 k0 i1 j1 k1 alpha beta dx (fun _ => 1) B0 B1 B2) (G : List Int → T) :
    ∃! m', F.Within (F.cell3d u i0 j0 k0 i1 j1 k1 gcw) [(i0, i1), (j0, j1), (k0, k1)] m m' ∧ F.ArrOK m' (F.cell3d u i0 j0 k0 i1 j1 k1 gcw) ∧ ∃ m1 m2, Cuda.flux3d i0 j0 k0 i1 j1 k1 dx b0 b1 b2 gcw u f0 f1 f2 β1 m' = .ok m1 ∧ Cuda.diffusionV2Apply3d i0 i1 j0 j1 k0 k1 alpha beta dx gcw u f0 f1 f2 rgcw res β2 m1 = .ok m2 ∧
      ∀ p, F.InBounds [(i0, i1), (j0, j1), (k0, k1)] p → F.El m2 (F.cell3d res i0 j0 k0 i1 j1 k1 rgcw) p (G p) := by
  have hb : ∀ p, F.InBounds [(i0, i1), (j0, j1), (k0, k1)] p → F.InBounds (F.cell3d u i0 j0 k0 i1 j1 k1 gcw).dims p := fun p hp => by
    obtain ⟨i, j, k, rfl, hp⟩ := F.inBounds3.1 hp
    exact F.inBounds3.2 ⟨i, j, k, rfl, by omega⟩
  refine F.one_field (h.ok _ (by simp)) hb (fun U p => F.op3 alpha beta dx (fun _ => 1) B0 B1 B2 U (p.getD 0 0) (p.getD 1 0) (p.getD 2 0)) (fun U V p => by unfold F.op3; ring) (fun c U p => by unfold F.op3; ring)
    (fun U ho hq => he.only hi hj hk (fun p hw => ho p ?_) fun i j k h0 h1 h2 h3 h4 h5 => hq [i, j, k] (F.inBounds3.2 ⟨i, j, k, rfl, by omega⟩)) G fun m' U hw ho hU => ?_
  · obtain ⟨i, j, k, rfl, hw⟩ := F.inBounds3.1 hw
    exact F.inBounds3.2 ⟨i, j, k, rfl, by omega⟩
  · obtain ⟨m1, m2, R, c1, c2, e, hR⟩ := energy_v2_3 (alpha := alpha) (beta := beta) (dx := dx) hβ1 hβ2 hi hj hk hg hrgcw (hw.args hb ho h) hp hr (hw.holds hb pB0 hB0) (hw.holds hb pB1 hB1) (hw.holds hb pB2 hB2) hU
    constructor
    · rintro ⟨n1, n2, e1, e2, hG⟩ p hp
      have t1 : n1 = m1 := Except.ok.inj (e1.symm.trans c1)
      subst t1
      have t2 : n2 = m2 := Except.ok.inj (e2.symm.trans c2)
      subst t2
      have r := Option.some.inj ((e p hp).2.symm.trans (hG p hp).2)
      obtain ⟨i, j, k, rfl, hp⟩ := F.inBounds3.1 hp
      rw [← r, hR i j k (by omega) (by omega) (by omega) (by omega) (by omega) (by omega)]
      rfl
    · intro hG
      refine ⟨m1, m2, c1, c2, fun p hp => ?_⟩
      have x := e p hp
      have y := hG p hp
      obtain ⟨i, j, k, rfl, hp⟩ := F.inBounds3.1 hp
      rw [hR i j k (by omega) (by omega) (by omega) (by omega) (by omega) (by omega)] at x
      rw [← y]
      exact x

example : ∃! m', F.Within (F.cell3d ⟨1, 0⟩ 0 1 2 1 2 3 2) [(0, 1), (1, 2), (2, 3)] (exDir 3 5 1) m' ∧ F.ArrOK m' (F.cell3d ⟨1, 0⟩ 0 1 2 1 2 3 2) ∧ ∃ m1 m2, Cuda.flux3d 0 1 2 1 2 3 exDx ⟨2, 0⟩ ⟨3, 0⟩ ⟨4, 0⟩ 2 ⟨1, 0⟩ ⟨5, 0⟩ ⟨6, 0⟩ ⟨7, 0⟩ (fun _ => revBackend) m' = .ok m1 ∧ Cuda.diffusionV2Apply3d 0 1 1 2 2 3 3 2 exDx 2 ⟨1, 0⟩ ⟨5, 0⟩ ⟨6, 0⟩ ⟨7, 0⟩ 1 ⟨8, 0⟩ (fun _ => seqBackend) m1 = .ok m2 ∧
      ∀ p, F.InBounds [(0, 1), (1, 2), (2, 3)] p → F.El m2 (F.cell3d ⟨8, 0⟩ 0 1 2 1 2 3 1) p ((p.getD 0 0 : Int) : Rat) :=
  C73_v2_3d (T := Rat) (fun _ => revBackend_ok) (fun _ => seqBackend_ok) (by decide) (by decide) (by decide) (by decide) (by decide) (exDir_args (by ex_args)) ⟨apart_blk (by decide), apart_blk (by decide), apart_blk (by decide)⟩ ⟨apart_blk (by decide), apart_blk (by decide), apart_blk (by decide)⟩ (exDir_rd (by decide) (exRat_ok rfl (by decide) (by decide))) (exDir_rd (by decide) (exRat_ok rfl (by decide) (by decide))) (exDir_rd (by decide) (exRat_ok rfl (by decide) (by decide))) (apart_blk (by decide)) (apart_blk (by decide)) (apart_blk (by decide)) exEll_v2_3 _

/-- 3D, Poisson operator: for all values around the box and all right hand sides `G` there is exactly one way to fill the box so that the kernels give `G`. -/
theorem C73_poisson_3d {i0 j0 k0 i1 j1 k1 gcw rgcw : Int} {beta : T} {dx : Nat → T} {u f0 f1 f2 res : Ptr} {β1 β2 : Nat → Backend} {m : Mem T} 
    (hβ1 : ∀ n, ValidBackend (β1 n)) (hβ2 : ∀ n, ValidBackend (β2 n)) (hi : i0 ≤ i1) (hj : j0 ≤ j1) (hk : k0 ≤ k1) (hg : 1 ≤ gcw) (hrgcw : 0 ≤ rgcw)
    (h : F.Args m [(F.cell3d u i0 j0 k0 i1 j1 k1 gcw)] [(F.face3d0 f0 i0 j0 k0 i1 j1 k1 0), (F.face3d1 f1 i0 j0 k0 i1 j1 k1 0), (F.face3d2 f2 i0 j0 k0 i1 j1 k1 0), (F.cell3d res i0 j0 k0 i1 j1 k1 rgcw)])
    (hp : F.Apart (F.face3d0 f0 i0 j0 k0 i1 j1 k1 0) (F.face3d1 f1 i0 j0 k0 i1 j1 k1 0) ∧ F.Apart (F.face3d0 f0 i0 j0 k0 i1 j1 k1 0) (F.face3d2 f2 i0 j0 k0 i1 j1 k1 0) ∧ F.Apart (F.face3d1 f1 i0 j0 k0 i1 j1 k1 0) (F.face3d2 f2 i0 j0 k0 i1 j1 k1 0))
    (hr : F.Apart (F.cell3d res i0 j0 k0 i1 j1 k1 rgcw) (F.face3d0 f0 i0 j0 k0 i1 j1 k1 0) ∧ F.Apart (F.cell3d res i0 j0 k0 i1 j1 k1 rgcw) (F.face3d1 f1 i0 j0 k0 i1 j1 k1 0) ∧ F.Apart (F.cell3d res i0 j0 k0 i1 j1 k1 rgcw) (F.face3d2 f2 i0 j0 k0 i1 j1 k1 0))
    (he : F.Elliptic3 i0 j0 k0 i1 j1 k1 0 beta dx (fun _ => 1) (fun _ => 1) (fun _ => 1) (fun _ => 1)) (G : List Int → T) :
    ∃! m', F.Within (F.cell3d u i0 j0 k0 i1 j1 k1 gcw) [(i0, i1), (j0, j1), (k0, k1)] m m' ∧ F.ArrOK m' (F.cell3d u i0 j0 k0 i1 j1 k1 gcw) ∧ ∃ m1 m2, Cuda.poissonFlux3d i0 j0 k0 i1 j1 k1 dx gcw u f0 f1 f2 β1 m' = .ok m1 ∧ Cuda.poissonV2Apply3d i0 i1 j0 j1 k0 k1 beta dx f0 f1 f2 rgcw res β2 m1 = .ok m2 ∧
      ∀ p, F.InBounds [(i0, i1), (j0, j1), (k0, k1)] p → F.El m2 (F.cell3d res i0 j0 k0 i1 j1 k1 rgcw) p (G p) := by
  have hb : ∀ p, F.InBounds [(i0, i1), (j0, j1), (k0, k1)] p → F.InBounds (F.cell3d u i0 j0 k0 i1 j1 k1 gcw).dims p := fun p hp => by
    obtain ⟨i, j, k, rfl, hp⟩ := F.inBounds3.1 hp
    exact F.inBounds3.2 ⟨i, j, k, rfl, by omega⟩
  refine F.one_field (h.ok _ (by simp)) hb (fun U p => F.op3 0 beta dx (fun _ => 1) (fun _ => 1) (fun _ => 1) (fun _ => 1) U (p.getD 0 0) (p.getD 1 0) (p.getD 2 0)) (fun U V p => by unfold F.op3; ring) (fun c U p => by unfold F.op3; ring)
    (fun U ho hq => he.only hi hj hk (fun p hw => ho p ?_) fun i j k h0 h1 h2 h3 h4 h5 => hq [i, j, k] (F.inBounds3.2 ⟨i, j, k, rfl, by omega⟩)) G fun m' U hw ho hU => ?_
  · obtain ⟨i, j, k, rfl, hw⟩ := F.inBounds3.1 hw
    exact F.inBounds3.2 ⟨i, j, k, rfl, by omega⟩
  · obtain ⟨m1, m2, R, c1, c2, e, hR⟩ := energy_p_3 (beta := beta) (dx := dx) hβ1 hβ2 hi hj hk hg hrgcw (hw.args hb ho h) hp hr hU
    constructor
    · rintro ⟨n1, n2, e1, e2, hG⟩ p hp
      have t1 : n1 = m1 := Except.ok.inj (e1.symm.trans c1)
      subst t1
      have t2 : n2 = m2 := Except.ok.inj (e2.symm.trans c2)
      subst t2
      have r := Option.some.inj ((e p hp).2.symm.trans (hG p hp).2)
      obtain ⟨i, j, k, rfl, hp⟩ := F.inBounds3.1 hp
      rw [← r, hR i j k (by omega) (by omega) (by omega) (by omega) (by omega) (by omega)]
      rfl
    · intro hG
      refine ⟨m1, m2, c1, c2, fun p hp => ?_⟩
      have x := e p hp
      have y := hG p hp
      obtain ⟨i, j, k, rfl, hp⟩ := F.inBounds3.1 hp
      rw [hR i j k (by omega) (by omega) (by omega) (by omega) (by omega) (by omega)] at x
      rw [← y]
      exact x

example : ∃! m', F.Within (F.cell3d ⟨1, 0⟩ 0 1 2 1 2 3 2) [(0, 1), (1, 2), (2, 3)] (exDir 3 5 1) m' ∧ F.ArrOK m' (F.cell3d ⟨1, 0⟩ 0 1 2 1 2 3 2) ∧ ∃ m1 m2, Cuda.poissonFlux3d 0 1 2 1 2 3 exDx 2 ⟨1, 0⟩ ⟨5, 0⟩ ⟨6, 0⟩ ⟨7, 0⟩ (fun _ => revBackend) m' = .ok m1 ∧ Cuda.poissonV2Apply3d 0 1 1 2 2 3 2 exDx ⟨5, 0⟩ ⟨6, 0⟩ ⟨7, 0⟩ 1 ⟨8, 0⟩ (fun _ => seqBackend) m1 = .ok m2 ∧
      ∀ p, F.InBounds [(0, 1), (1, 2), (2, 3)] p → F.El m2 (F.cell3d ⟨8, 0⟩ 0 1 2 1 2 3 1) p ((p.getD 0 0 : Int) : Rat) :=
  C73_poisson_3d (T := Rat) (fun _ => revBackend_ok) (fun _ => seqBackend_ok) (by decide) (by decide) (by decide) (by decide) (by decide) (exDir_args (by ex_args)) ⟨apart_blk (by decide), apart_blk (by decide), apart_blk (by decide)⟩ ⟨apart_blk (by decide), apart_blk (by decide), apart_blk (by decide)⟩ exEll_p_3 _

end Verif
