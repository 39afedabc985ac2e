import Verif.Props.Fill
import Verif.Props.Fill3
import Verif.Lemmas.WallsFill
import Verif.Lemmas.EnergyRun

/-
Filling ghost cells for homogeneous conditions, then the flux and the apply kernel.
-/

set_option linter.unusedVariables false
set_option linter.unusedSimpArgs false

namespace Verif
open Spec

variable {T : Type} [Field T] [CharZero T]

theorem wall_v1_1 {i0 i1 agcw gcw rgcw : Int} {alpha beta : T} {dx : Nat → T} {a b0 f0 u res : Ptr} {β1 β2 : Nat → Backend} {l : List (BcCall T)} {m : Mem T} {A B0 V : List Int → T}
    (hβ1 : ∀ n, ValidBackend (β1 n)) (hβ2 : ∀ n, ValidBackend (β2 n)) (hwi : i0 < i1) (hag : 0 ≤ agcw) (hg : 1 ≤ gcw) (hrg : 0 ≤ rgcw)
    (hu : ∀ c ∈ l, c.Usable 1) (hl : ∀ c ∈ l, c.Along1 i0 i1) (hs : ∀ c ∈ l, ∀ d ∈ l, Separate (fun c : BcCall T => F.onSeg1 c.lo c.hi c.face) c d) (hc : ∀ c ∈ l, c.Solvable (c.piece1 i0 i1 dx B0))
    (h1 : F.Args m [(F.cell1d a i0 i1 agcw), (F.face1d b0 i0 i1 0)] [(F.cell1d u i0 i1 gcw)]) (h2 : F.Args m [(F.cell1d a i0 i1 agcw), (F.cell1d u i0 i1 gcw), (F.face1d b0 i0 i1 0)] [(F.face1d f0 i0 i1 0), (F.cell1d res i0 i1 rgcw)])
     (hrf : F.Apart (F.cell1d res i0 i1 rgcw) (F.face1d f0 i0 i1 0))
    (hA : F.Holds m (F.cell1d a i0 i1 agcw) A) (hB0 : F.Holds m (F.face1d b0 i0 i1 0) B0) (hV : F.Holds m (F.cell1d u i0 i1 gcw) V) :
    ∃ m0 m1 m2, ∃ X R : List Int → T, inOrder (fun c : BcCall T => Cuda.setBc1d i0 i1 dx 0 b0 gcw u c.lo c.hi c.order c.face c.btype c.alpha c.beta c.sched) l m = .ok m0 ∧ Cuda.flux1d i0 i1 dx b0 gcw u f0 β1 m0 = .ok m1 ∧ Cuda.diffusionV1Apply1d i0 i1 alpha beta dx agcw a gcw u f0 rgcw res β2 m1 = .ok m2 ∧
      (∀ p, F.InBounds [(i0, i1)] p → F.El m2 (F.cell1d res i0 i1 rgcw) p (R p)) ∧ (∀ p, F.InBounds [(i0, i1)] p → X p = V p) ∧ (∀ i, i0 ≤ i → i ≤ i1 → R [i] = F.op1 alpha beta dx A B0 X i) ∧
      ∀ p, F.InBounds [(i0, i1)] p → ∀ e, 1 ≤ e → e ≤ 3 - 1 → ¬ F.InBounds [(i0, i1)] (F.shift p ((F.row F.points1) e)) →
        (¬ Uncovered (fun c : BcCall T => F.onSeg1 c.lo c.hi c.face) l [(i0, i1)] 3 (F.row F.points1) (F.shift p ((F.row F.points1) e)) ∧ X (F.shift p ((F.row F.points1) e)) = (1 - F.jump (l.map (fun c : BcCall T => c.piece1 i0 i1 dx B0)) p e) * X p) ∨
        (F.jump (l.map (fun c : BcCall T => c.piece1 i0 i1 dx B0)) p e = 1 ∧ Uncovered (fun c : BcCall T => F.onSeg1 c.lo c.hi c.face) l [(i0, i1)] 3 (F.row F.points1) (F.shift p ((F.row F.points1) e)) ∧ X (F.shift p ((F.row F.points1) e)) = V (F.shift p ((F.row F.points1) e))) := by
  obtain ⟨m0, X, e0, ch, hX, hin, hj⟩ := filled_jump (C90_1d (dx := dx) hwi hg (le_refl 0) hu hl hs (h1.sub (ins' := [(F.face1d b0 i0 i1 0)]) (outs' := [(F.cell1d u i0 i1 gcw)]) (by simp) (by simp)) hV hB0 hc) (fun c hcl => ⟨(hc c hcl).1, fun h4 => ((hc c hcl).2.2 h4).2⟩) (fun c hcl p hp => hp.2)
    (fun c hcl => along_out1 (hl c hcl)) (fun p hp => by
      obtain ⟨i, rfl, hp⟩ := F.inBounds1.1 hp
      exact F.inBounds1.2 ⟨i, rfl, by omega⟩) hV
  obtain ⟨m1, m2, R, c1, c2, E, hR⟩ := energy_v1_1 (alpha := alpha) (beta := beta) (dx := dx) hβ1 hβ2 hwi.le hg hag hrg (ch.args h2) hrf (ch.keeps (h1.apart _ (by simp) _ (by simp)) hA) (ch.keeps (h1.apart _ (by simp) _ (by simp)) hB0) hX
  exact ⟨m0, m1, m2, X, R, e0, c1, c2, E, hin, hR, hj⟩

theorem wall_v2_1 {i0 i1 gcw rgcw : Int} {alpha beta : T} {dx : Nat → T} {b0 f0 u res : Ptr} {β1 β2 : Nat → Backend} {l : List (BcCall T)} {m : Mem T} {B0 V : List Int → T}
    (hβ1 : ∀ n, ValidBackend (β1 n)) (hβ2 : ∀ n, ValidBackend (β2 n)) (hwi : i0 < i1) (hg : 1 ≤ gcw) (hrg : 0 ≤ rgcw)
    (hu : ∀ c ∈ l, c.Usable 1) (hl : ∀ c ∈ l, c.Along1 i0 i1) (hs : ∀ c ∈ l, ∀ d ∈ l, Separate (fun c : BcCall T => F.onSeg1 c.lo c.hi c.face) c d) (hc : ∀ c ∈ l, c.Solvable (c.piece1 i0 i1 dx B0))
    (h1 : F.Args m [(F.face1d b0 i0 i1 0)] [(F.cell1d u i0 i1 gcw)]) (h2 : F.Args m [(F.cell1d u i0 i1 gcw), (F.face1d b0 i0 i1 0)] [(F.face1d f0 i0 i1 0), (F.cell1d res i0 i1 rgcw)])
     (hrf : F.Apart (F.cell1d res i0 i1 rgcw) (F.face1d f0 i0 i1 0))
    (hB0 : F.Holds m (F.face1d b0 i0 i1 0) B0) (hV : F.Holds m (F.cell1d u i0 i1 gcw) V) :
    ∃ m0 m1 m2, ∃ X R : List Int → T, inOrder (fun c : BcCall T => Cuda.setBc1d i0 i1 dx 0 b0 gcw u c.lo c.hi c.order c.face c.btype c.alpha c.beta c.sched) l m = .ok m0 ∧ Cuda.flux1d i0 i1 dx b0 gcw u f0 β1 m0 = .ok m1 ∧ Cuda.diffusionV2Apply1d i0 i1 alpha beta dx gcw u f0 rgcw res β2 m1 = .ok m2 ∧
      (∀ p, F.InBounds [(i0, i1)] p → F.El m2 (F.cell1d res i0 i1 rgcw) p (R p)) ∧ (∀ p, F.InBounds [(i0, i1)] p → X p = V p) ∧ (∀ i, i0 ≤ i → i ≤ i1 → R [i] = F.op1 alpha beta dx (fun _ => (1 : T)) B0 X i) ∧
      ∀ p, F.InBounds [(i0, i1)] p → ∀ e, 1 ≤ e → e ≤ 3 - 1 → ¬ F.InBounds [(i0, i1)] (F.shift p ((F.row F.points1) e)) →
        (¬ Uncovered (fun c : BcCall T => F.onSeg1 c.lo c.hi c.face) l [(i0, i1)] 3 (F.row F.points1) (F.shift p ((F.row F.points1) e)) ∧ X (F.shift p ((F.row F.points1) e)) = (1 - F.jump (l.map (fun c : BcCall T => c.piece1 i0 i1 dx B0)) p e) * X p) ∨
        (F.jump (l.map (fun c : BcCall T => c.piece1 i0 i1 dx B0)) p e = 1 ∧ Uncovered (fun c : BcCall T => F.onSeg1 c.lo c.hi c.face) l [(i0, i1)] 3 (F.row F.points1) (F.shift p ((F.row F.points1) e)) ∧ X (F.shift p ((F.row F.points1) e)) = V (F.shift p ((F.row F.points1) e))) := by
  obtain ⟨m0, X, e0, ch, hX, hin, hj⟩ := filled_jump (C90_1d (dx := dx) hwi hg (le_refl 0) hu hl hs (h1.sub (ins' := [(F.face1d b0 i0 i1 0)]) (outs' := [(F.cell1d u i0 i1 gcw)]) (by simp) (by simp)) hV hB0 hc) (fun c hcl => ⟨(hc c hcl).1, fun h4 => ((hc c hcl).2.2 h4).2⟩) (fun c hcl p hp => hp.2)
    (fun c hcl => along_out1 (hl c hcl)) (fun p hp => by
      obtain ⟨i, rfl, hp⟩ := F.inBounds1.1 hp
      exact F.inBounds1.2 ⟨i, rfl, by omega⟩) hV
  obtain ⟨m1, m2, R, c1, c2, E, hR⟩ := energy_v2_1 (alpha := alpha) (beta := beta) (dx := dx) hβ1 hβ2 hwi.le hg hrg (ch.args h2) hrf (ch.keeps (h1.apart _ (by simp) _ (by simp)) hB0) hX
  exact ⟨m0, m1, m2, X, R, e0, c1, c2, E, hin, hR, hj⟩

theorem wall_p_1 {i0 i1 gcw rgcw : Int} {beta : T} {dx : Nat → T} {f0 u res : Ptr} {β1 β2 : Nat → Backend} {l : List (BcCall T)} {m : Mem T} {V : List Int → T}
    (hβ1 : ∀ n, ValidBackend (β1 n)) (hβ2 : ∀ n, ValidBackend (β2 n)) (hwi : i0 < i1) (hg : 1 ≤ gcw) (hrg : 0 ≤ rgcw)
    (hu : ∀ c ∈ l, c.Usable 1) (hl : ∀ c ∈ l, c.Along1 i0 i1) (hs : ∀ c ∈ l, ∀ d ∈ l, Separate (fun c : BcCall T => F.onSeg1 c.lo c.hi c.face) c d) (hc : ∀ c ∈ l, c.Solvable (c.piece1 i0 i1 dx (fun _ => (1 : T)))) (hrb : ∀ c ∈ l, c.btype = 4 → c.alpha = 2 * c.beta)
    (h1 : F.Args m [] [(F.cell1d u i0 i1 gcw)]) (h2 : F.Args m [(F.cell1d u i0 i1 gcw)] [(F.face1d f0 i0 i1 0), (F.cell1d res i0 i1 rgcw)])
     (hrf : F.Apart (F.cell1d res i0 i1 rgcw) (F.face1d f0 i0 i1 0))
    (hV : F.Holds m (F.cell1d u i0 i1 gcw) V) :
    ∃ m0 m1 m2, ∃ X R : List Int → T, inOrder (fun c : BcCall T => Cuda.setPoissonBc1d i0 i1 dx gcw u c.lo c.hi c.order c.face c.btype c.alpha c.beta c.sched) l m = .ok m0 ∧ Cuda.poissonFlux1d i0 i1 dx gcw u f0 β1 m0 = .ok m1 ∧ Cuda.poissonV2Apply1d i0 i1 beta dx f0 rgcw res β2 m1 = .ok m2 ∧
      (∀ p, F.InBounds [(i0, i1)] p → F.El m2 (F.cell1d res i0 i1 rgcw) p (R p)) ∧ (∀ p, F.InBounds [(i0, i1)] p → X p = V p) ∧ (∀ i, i0 ≤ i → i ≤ i1 → R [i] = F.op1 0 beta dx (fun _ => (1 : T)) (fun _ => (1 : T)) X i) ∧
      ∀ p, F.InBounds [(i0, i1)] p → ∀ e, 1 ≤ e → e ≤ 3 - 1 → ¬ F.InBounds [(i0, i1)] (F.shift p ((F.row F.points1) e)) →
        (¬ Uncovered (fun c : BcCall T => F.onSeg1 c.lo c.hi c.face) l [(i0, i1)] 3 (F.row F.points1) (F.shift p ((F.row F.points1) e)) ∧ X (F.shift p ((F.row F.points1) e)) = (1 - F.jump (l.map (fun c : BcCall T => c.piece1 i0 i1 dx (fun _ => (1 : T)))) p e) * X p) ∨
        (F.jump (l.map (fun c : BcCall T => c.piece1 i0 i1 dx (fun _ => (1 : T)))) p e = 1 ∧ Uncovered (fun c : BcCall T => F.onSeg1 c.lo c.hi c.face) l [(i0, i1)] 3 (F.row F.points1) (F.shift p ((F.row F.points1) e)) ∧ X (F.shift p ((F.row F.points1) e)) = V (F.shift p ((F.row F.points1) e))) := by
  obtain ⟨m0, X, e0, ch, hX, hin, hj⟩ := filled_jump (C90_poisson_1d_partial (dx := dx) hwi hg hu hl hs (h1.sub (ins' := []) (outs' := [(F.cell1d u i0 i1 gcw)]) (by simp) (by simp)) hV hc hrb) (fun c hcl => ⟨(hc c hcl).1, fun h4 => ((hc c hcl).2.2 h4).2⟩) (fun c hcl p hp => hp.2)
    (fun c hcl => along_out1 (hl c hcl)) (fun p hp => by
      obtain ⟨i, rfl, hp⟩ := F.inBounds1.1 hp
      exact F.inBounds1.2 ⟨i, rfl, by omega⟩) hV
  obtain ⟨m1, m2, R, c1, c2, E, hR⟩ := energy_p_1 (beta := beta) (dx := dx) hβ1 hβ2 hwi.le hg hrg (ch.args h2) hrf  hX
  exact ⟨m0, m1, m2, X, R, e0, c1, c2, E, hin, hR, hj⟩

theorem wall_v1_2 {i0 j0 i1 j1 agcw gcw rgcw : Int} {alpha beta : T} {dx : Nat → T} {a b0 b1 f0 f1 u res : Ptr} {β1 β2 : Nat → Backend} {l : List (BcCall T)} {m : Mem T} {A B0 B1 V : List Int → T}
    (hβ1 : ∀ n, ValidBackend (β1 n)) (hβ2 : ∀ n, ValidBackend (β2 n)) (hwi : i0 < i1) (hwj : j0 < j1) (hag : 0 ≤ agcw) (hg : 1 ≤ gcw) (hrg : 0 ≤ rgcw)
    (hu : ∀ c ∈ l, c.Usable 2) (hl : ∀ c ∈ l, c.Along2 1 i0 j0 i1 j1) (hs : ∀ c ∈ l, ∀ d ∈ l, Separate (fun c : BcCall T => F.onSeg2 c.lo c.hi 1 c.face) c d) (hc : ∀ c ∈ l, c.Solvable (c.piece2 i0 j0 i1 j1 dx B0 B1))
    (h1 : F.Args m [(F.cell2d a i0 j0 i1 j1 agcw), (F.face2d0 b0 i0 j0 i1 j1 0), (F.face2d1 b1 i0 j0 i1 j1 0)] [(F.cell2d u i0 j0 i1 j1 gcw)]) (h2 : F.Args m [(F.cell2d a i0 j0 i1 j1 agcw), (F.cell2d u i0 j0 i1 j1 gcw), (F.face2d0 b0 i0 j0 i1 j1 0), (F.face2d1 b1 i0 j0 i1 j1 0)] [(F.face2d0 f0 i0 j0 i1 j1 0), (F.face2d1 f1 i0 j0 i1 j1 0), (F.cell2d res i0 j0 i1 j1 rgcw)])
    (hpf : F.Apart (F.face2d0 f0 i0 j0 i1 j1 0) (F.face2d1 f1 i0 j0 i1 j1 0)) (hrf : F.Apart (F.cell2d res i0 j0 i1 j1 rgcw) (F.face2d0 f0 i0 j0 i1 j1 0) ∧ F.Apart (F.cell2d res i0 j0 i1 j1 rgcw) (F.face2d1 f1 i0 j0 i1 j1 0))
    (hA : F.Holds m (F.cell2d a i0 j0 i1 j1 agcw) A) (hB0 : F.Holds m (F.face2d0 b0 i0 j0 i1 j1 0) B0) (hB1 : F.Holds m (F.face2d1 b1 i0 j0 i1 j1 0) B1) (hV : F.Holds m (F.cell2d u i0 j0 i1 j1 gcw) V) :
    ∃ m0 m1 m2, ∃ X R : List Int → T, inOrder (fun c : BcCall T => Cuda.setBc2d i0 i1 j0 j1 dx 0 b0 b1 gcw u c.lo c.hi c.order c.face 1 c.btype c.alpha c.beta c.sched) l m = .ok m0 ∧ Cuda.flux2d i0 j0 i1 j1 dx b0 b1 gcw u f0 f1 β1 m0 = .ok m1 ∧ Cuda.diffusionV1Apply2d i0 i1 j0 j1 alpha beta dx agcw a gcw u f0 f1 rgcw res β2 m1 = .ok m2 ∧
      (∀ p, F.InBounds [(i0, i1), (j0, j1)] p → F.El m2 (F.cell2d res i0 j0 i1 j1 rgcw) p (R p)) ∧ (∀ p, F.InBounds [(i0, i1), (j0, j1)] p → X p = V p) ∧ (∀ i j, i0 ≤ i → i ≤ i1 → j0 ≤ j → j ≤ j1 → R [i, j] = F.op2 alpha beta dx A B0 B1 X i j) ∧
      ∀ p, F.InBounds [(i0, i1), (j0, j1)] p → ∀ e, 1 ≤ e → e ≤ 5 - 1 → ¬ F.InBounds [(i0, i1), (j0, j1)] (F.shift p ((F.row F.points2) e)) →
        (¬ Uncovered (fun c : BcCall T => F.onSeg2 c.lo c.hi 1 c.face) l [(i0, i1), (j0, j1)] 5 (F.row F.points2) (F.shift p ((F.row F.points2) e)) ∧ X (F.shift p ((F.row F.points2) e)) = (1 - F.jump (l.map (fun c : BcCall T => c.piece2 i0 j0 i1 j1 dx B0 B1)) p e) * X p) ∨
        (F.jump (l.map (fun c : BcCall T => c.piece2 i0 j0 i1 j1 dx B0 B1)) p e = 1 ∧ Uncovered (fun c : BcCall T => F.onSeg2 c.lo c.hi 1 c.face) l [(i0, i1), (j0, j1)] 5 (F.row F.points2) (F.shift p ((F.row F.points2) e)) ∧ X (F.shift p ((F.row F.points2) e)) = V (F.shift p ((F.row F.points2) e))) := by
  obtain ⟨m0, X, e0, ch, hX, hin, hj⟩ := filled_jump (C90_2d (dx := dx) hwi hwj hg (le_refl 0) hu hl hs (h1.sub (ins' := [(F.face2d0 b0 i0 j0 i1 j1 0), (F.face2d1 b1 i0 j0 i1 j1 0)]) (outs' := [(F.cell2d u i0 j0 i1 j1 gcw)]) (by simp) (by simp)) hV hB0 hB1 hc) (fun c hcl => ⟨(hc c hcl).1, fun h4 => ((hc c hcl).2.2 h4).2⟩) (fun c hcl p hp => hp.2)
    (fun c hcl => along_out2 (hl c hcl)) (fun p hp => by
      obtain ⟨i, j, rfl, hp⟩ := F.inBounds2.1 hp
      exact F.inBounds2.2 ⟨i, j, rfl, by omega⟩) hV
  obtain ⟨m1, m2, R, c1, c2, E, hR⟩ := energy_v1_2 (alpha := alpha) (beta := beta) (dx := dx) hβ1 hβ2 hwi.le hwj.le hg hag hrg (ch.args h2) hpf hrf (ch.keeps (h1.apart _ (by simp) _ (by simp)) hA) (ch.keeps (h1.apart _ (by simp) _ (by simp)) hB0) (ch.keeps (h1.apart _ (by simp) _ (by simp)) hB1) hX
  exact ⟨m0, m1, m2, X, R, e0, c1, c2, E, hin, hR, hj⟩

theorem wall_v2_2 {i0 j0 i1 j1 gcw rgcw : Int} {alpha beta : T} {dx : Nat → T} {b0 b1 f0 f1 u res : Ptr} {β1 β2 : Nat → Backend} {l : List (BcCall T)} {m : Mem T} {B0 B1 V : List Int → T}
    (hβ1 : ∀ n, ValidBackend (β1 n)) (hβ2 : ∀ n, ValidBackend (β2 n)) (hwi : i0 < i1) (hwj : j0 < j1) (hg : 1 ≤ gcw) (hrg : 0 ≤ rgcw)
    (hu : ∀ c ∈ l, c.Usable 2) (hl : ∀ c ∈ l, c.Along2 1 i0 j0 i1 j1) (hs : ∀ c ∈ l, ∀ d ∈ l, Separate (fun c : BcCall T => F.onSeg2 c.lo c.hi 1 c.face) c d) (hc : ∀ c ∈ l, c.Solvable (c.piece2 i0 j0 i1 j1 dx B0 B1))
    (h1 : F.Args m [(F.face2d0 b0 i0 j0 i1 j1 0), (F.face2d1 b1 i0 j0 i1 j1 0)] [(F.cell2d u i0 j0 i1 j1 gcw)]) (h2 : F.Args m [(F.cell2d u i0 j0 i1 j1 gcw), (F.face2d0 b0 i0 j0 i1 j1 0), (F.face2d1 b1 i0 j0 i1 j1 0)] [(F.face2d0 f0 i0 j0 i1 j1 0), (F.face2d1 f1 i0 j0 i1 j1 0), (F.cell2d res i0 j0 i1 j1 rgcw)])
    (hpf : F.Apart (F.face2d0 f0 i0 j0 i1 j1 0) (F.face2d1 f1 i0 j0 i1 j1 0)) (hrf : F.Apart (F.cell2d res i0 j0 i1 j1 rgcw) (F.face2d0 f0 i0 j0 i1 j1 0) ∧ F.Apart (F.cell2d res i0 j0 i1 j1 rgcw) (F.face2d1 f1 i0 j0 i1 j1 0))
    (hB0 : F.Holds m (F.face2d0 b0 i0 j0 i1 j1 0) B0) (hB1 : F.Holds m (F.face2d1 b1 i0 j0 i1 j1 0) B1) (hV : F.Holds m (F.cell2d u i0 j0 i1 j1 gcw) V) :
    ∃ m0 m1 m2, ∃ X R : List Int → T, inOrder (fun c : BcCall T => Cuda.setBc2d i0 i1 j0 j1 dx 0 b0 b1 gcw u c.lo c.hi c.order c.face 1 c.btype c.alpha c.beta c.sched) l m = .ok m0 ∧ Cuda.flux2d i0 j0 i1 j1 dx b0 b1 gcw u f0 f1 β1 m0 = .ok m1 ∧ Cuda.diffusionV2Apply2d i0 i1 j0 j1 alpha beta dx gcw u f0 f1 rgcw res β2 m1 = .ok m2 ∧
      (∀ p, F.InBounds [(i0, i1), (j0, j1)] p → F.El m2 (F.cell2d res i0 j0 i1 j1 rgcw) p (R p)) ∧ (∀ p, F.InBounds [(i0, i1), (j0, j1)] p → X p = V p) ∧ (∀ i j, i0 ≤ i → i ≤ i1 → j0 ≤ j → j ≤ j1 → R [i, j] = F.op2 alpha beta dx (fun _ => (1 : T)) B0 B1 X i j) ∧
      ∀ p, F.InBounds [(i0, i1), (j0, j1)] p → ∀ e, 1 ≤ e → e ≤ 5 - 1 → ¬ F.InBounds [(i0, i1), (j0, j1)] (F.shift p ((F.row F.points2) e)) →
        (¬ Uncovered (fun c : BcCall T => F.onSeg2 c.lo c.hi 1 c.face) l [(i0, i1), (j0, j1)] 5 (F.row F.points2) (F.shift p ((F.row F.points2) e)) ∧ X (F.shift p ((F.row F.points2) e)) = (1 - F.jump (l.map (fun c : BcCall T => c.piece2 i0 j0 i1 j1 dx B0 B1)) p e) * X p) ∨
        (F.jump (l.map (fun c : BcCall T => c.piece2 i0 j0 i1 j1 dx B0 B1)) p e = 1 ∧ Uncovered (fun c : BcCall T => F.onSeg2 c.lo c.hi 1 c.face) l [(i0, i1), (j0, j1)] 5 (F.row F.points2) (F.shift p ((F.row F.points2) e)) ∧ X (F.shift p ((F.row F.points2) e)) = V (F.shift p ((F.row F.points2) e))) := by
  obtain ⟨m0, X, e0, ch, hX, hin, hj⟩ := filled_jump (C90_2d (dx := dx) hwi hwj hg (le_refl 0) hu hl hs (h1.sub (ins' := [(F.face2d0 b0 i0 j0 i1 j1 0), (F.face2d1 b1 i0 j0 i1 j1 0)]) (outs' := [(F.cell2d u i0 j0 i1 j1 gcw)]) (by simp) (by simp)) hV hB0 hB1 hc) (fun c hcl => ⟨(hc c hcl).1, fun h4 => ((hc c hcl).2.2 h4).2⟩) (fun c hcl p hp => hp.2)
    (fun c hcl => along_out2 (hl c hcl)) (fun p hp => by
      obtain ⟨i, j, rfl, hp⟩ := F.inBounds2.1 hp
      exact F.inBounds2.2 ⟨i, j, rfl, by omega⟩) hV
  obtain ⟨m1, m2, R, c1, c2, E, hR⟩ := energy_v2_2 (alpha := alpha) (beta := beta) (dx := dx) hβ1 hβ2 hwi.le hwj.le hg hrg (ch.args h2) hpf hrf (ch.keeps (h1.apart _ (by simp) _ (by simp)) hB0) (ch.keeps (h1.apart _ (by simp) _ (by simp)) hB1) hX
  exact ⟨m0, m1, m2, X, R, e0, c1, c2, E, hin, hR, hj⟩

theorem wall_p_2 {i0 j0 i1 j1 gcw rgcw : Int} {beta : T} {dx : Nat → T} {f0 f1 u res : Ptr} {β1 β2 : Nat → Backend} {l : List (BcCall T)} {m : Mem T} {V : List Int → T}
    (hβ1 : ∀ n, ValidBackend (β1 n)) (hβ2 : ∀ n, ValidBackend (β2 n)) (hwi : i0 < i1) (hwj : j0 < j1) (hg : 1 ≤ gcw) (hrg : 0 ≤ rgcw)
    (hu : ∀ c ∈ l, c.Usable 2) (hl : ∀ c ∈ l, c.Along2 1 i0 j0 i1 j1) (hs : ∀ c ∈ l, ∀ d ∈ l, Separate (fun c : BcCall T => F.onSeg2 c.lo c.hi 1 c.face) c d) (hc : ∀ c ∈ l, c.Solvable (c.piece2 i0 j0 i1 j1 dx (fun _ => (1 : T)) (fun _ => (1 : T)))) (hrb : ∀ c ∈ l, c.btype = 4 → c.face < 2)
    (h1 : F.Args m [] [(F.cell2d u i0 j0 i1 j1 gcw)]) (h2 : F.Args m [(F.cell2d u i0 j0 i1 j1 gcw)] [(F.face2d0 f0 i0 j0 i1 j1 0), (F.face2d1 f1 i0 j0 i1 j1 0), (F.cell2d res i0 j0 i1 j1 rgcw)])
    (hpf : F.Apart (F.face2d0 f0 i0 j0 i1 j1 0) (F.face2d1 f1 i0 j0 i1 j1 0)) (hrf : F.Apart (F.cell2d res i0 j0 i1 j1 rgcw) (F.face2d0 f0 i0 j0 i1 j1 0) ∧ F.Apart (F.cell2d res i0 j0 i1 j1 rgcw) (F.face2d1 f1 i0 j0 i1 j1 0))
    (hV : F.Holds m (F.cell2d u i0 j0 i1 j1 gcw) V) :
    ∃ m0 m1 m2, ∃ X R : List Int → T, inOrder (fun c : BcCall T => Cuda.setPoissonBc2d i0 i1 j0 j1 dx gcw u c.lo c.hi c.order c.face 1 c.btype c.alpha c.beta c.sched) l m = .ok m0 ∧ Cuda.poissonFlux2d i0 j0 i1 j1 dx gcw u f0 f1 β1 m0 = .ok m1 ∧ Cuda.poissonV2Apply2d i0 i1 j0 j1 beta dx f0 f1 rgcw res β2 m1 = .ok m2 ∧
      (∀ p, F.InBounds [(i0, i1), (j0, j1)] p → F.El m2 (F.cell2d res i0 j0 i1 j1 rgcw) p (R p)) ∧ (∀ p, F.InBounds [(i0, i1), (j0, j1)] p → X p = V p) ∧ (∀ i j, i0 ≤ i → i ≤ i1 → j0 ≤ j → j ≤ j1 → R [i, j] = F.op2 0 beta dx (fun _ => (1 : T)) (fun _ => (1 : T)) (fun _ => (1 : T)) X i j) ∧
      ∀ p, F.InBounds [(i0, i1), (j0, j1)] p → ∀ e, 1 ≤ e → e ≤ 5 - 1 → ¬ F.InBounds [(i0, i1), (j0, j1)] (F.shift p ((F.row F.points2) e)) →
        (¬ Uncovered (fun c : BcCall T => F.onSeg2 c.lo c.hi 1 c.face) l [(i0, i1), (j0, j1)] 5 (F.row F.points2) (F.shift p ((F.row F.points2) e)) ∧ X (F.shift p ((F.row F.points2) e)) = (1 - F.jump (l.map (fun c : BcCall T => c.piece2 i0 j0 i1 j1 dx (fun _ => (1 : T)) (fun _ => (1 : T)))) p e) * X p) ∨
        (F.jump (l.map (fun c : BcCall T => c.piece2 i0 j0 i1 j1 dx (fun _ => (1 : T)) (fun _ => (1 : T)))) p e = 1 ∧ Uncovered (fun c : BcCall T => F.onSeg2 c.lo c.hi 1 c.face) l [(i0, i1), (j0, j1)] 5 (F.row F.points2) (F.shift p ((F.row F.points2) e)) ∧ X (F.shift p ((F.row F.points2) e)) = V (F.shift p ((F.row F.points2) e))) := by
  obtain ⟨m0, X, e0, ch, hX, hin, hj⟩ := filled_jump (C90_poisson_2d_partial (dx := dx) hwi hwj hg hu hl hs (h1.sub (ins' := []) (outs' := [(F.cell2d u i0 j0 i1 j1 gcw)]) (by simp) (by simp)) hV hc hrb) (fun c hcl => ⟨(hc c hcl).1, fun h4 => ((hc c hcl).2.2 h4).2⟩) (fun c hcl p hp => hp.2)
    (fun c hcl => along_out2 (hl c hcl)) (fun p hp => by
      obtain ⟨i, j, rfl, hp⟩ := F.inBounds2.1 hp
      exact F.inBounds2.2 ⟨i, j, rfl, by omega⟩) hV
  obtain ⟨m1, m2, R, c1, c2, E, hR⟩ := energy_p_2 (beta := beta) (dx := dx) hβ1 hβ2 hwi.le hwj.le hg hrg (ch.args h2) hpf hrf  hX
  exact ⟨m0, m1, m2, X, R, e0, c1, c2, E, hin, hR, hj⟩

theorem wall_v1_3 {i0 j0 k0 i1 j1 k1 agcw gcw rgcw : Int} {alpha beta : T} {dx : Nat → T} {a b0 b1 b2 f0 f1 f2 u res : Ptr} {β1 β2 : Nat → Backend} {l : List (BcCall T)} {m : Mem T} {A B0 B1 B2 V : List Int → T}
    (hβ1 : ∀ n, ValidBackend (β1 n)) (hβ2 : ∀ n, ValidBackend (β2 n)) (hwi : i0 < i1) (hwj : j0 < j1) (hwk : k0 < k1) (hag : 0 ≤ agcw) (hg : 1 ≤ gcw) (hrg : 0 ≤ rgcw)
    (hu : ∀ c ∈ l, c.Usable 3) (hl : ∀ c ∈ l, c.Along3 1 i0 j0 k0 i1 j1 k1) (hs : ∀ c ∈ l, ∀ d ∈ l, Separate (fun c : BcCall T => F.onSeg3 c.lo c.hi 1 c.face) c d) (hc : ∀ c ∈ l, c.Solvable (c.piece3 i0 j0 k0 i1 j1 k1 dx B0 B1 B2))
    (h1 : F.Args m [(F.cell3d a i0 j0 k0 i1 j1 k1 agcw), (F.face3d0 b0 i0 j0 k0 i1 j1 k1 0), (F.face3d1 b1 i0 j0 k0 i1 j1 k1 0), (F.face3d2 b2 i0 j0 k0 i1 j1 k1 0)] [(F.cell3d u i0 j0 k0 i1 j1 k1 gcw)]) (h2 : F.Args m [(F.cell3d a i0 j0 k0 i1 j1 k1 agcw), (F.cell3d u i0 j0 k0 i1 j1 k1 gcw), (F.face3d0 b0 i0 j0 k0 i1 j1 k1 0), (F.face3d1 b1 i0 j0 k0 i1 j1 k1 0), (F.face3d2 b2 i0 j0 k0 i1 j1 k1 0)] [(F.face3d0 f0 i0 j0 k0 i1 j1 k1 0), (F.face3d1 f1 i0 j0 k0 i1 j1 k1 0), (F.face3d2 f2 i0 j0 k0 i1 j1 k1 0), (F.cell3d res i0 j0 k0 i1 j1 k1 rgcw)])
    (hpf : F.Apart (F.face3d0 f0 i0 j0 k0 i1 j1 k1 0) (F.face3d1 f1 i0 j0 k0 i1 j1 k1 0) ∧ F.Apart (F.face3d0 f0 i0 j0 k0 i1 j1 k1 0) (F.face3d2 f2 i0 j0 k0 i1 j1 k1 0) ∧ F.Apart (F.face3d1 f1 i0 j0 k0 i1 j1 k1 0) (F.face3d2 f2 i0 j0 k0 i1 j1 k1 0)) (hrf : F.Apart (F.cell3d res i0 j0 k0 i1 j1 k1 rgcw) (F.face3d0 f0 i0 j0 k0 i1 j1 k1 0) ∧ F.Apart (F.cell3d res i0 j0 k0 i1 j1 k1 rgcw) (F.face3d1 f1 i0 j0 k0 i1 j1 k1 0) ∧ F.Apart (F.cell3d res i0 j0 k0 i1 j1 k1 rgcw) (F.face3d2 f2 i0 j0 k0 i1 j1 k1 0))
    (hA : F.Holds m (F.cell3d a i0 j0 k0 i1 j1 k1 agcw) A) (hB0 : F.Holds m (F.face3d0 b0 i0 j0 k0 i1 j1 k1 0) B0) (hB1 : F.Holds m (F.face3d1 b1 i0 j0 k0 i1 j1 k1 0) B1) (hB2 : F.Holds m (F.face3d2 b2 i0 j0 k0 i1 j1 k1 0) B2) (hV : F.Holds m (F.cell3d u i0 j0 k0 i1 j1 k1 gcw) V) :
    ∃ m0 m1 m2, ∃ X R : List Int → T, inOrder (fun c : BcCall T => Cuda.setBc3d i0 i1 j0 j1 k0 k1 dx 0 b0 b1 b2 gcw u c.lo c.hi c.order c.face 1 c.btype c.alpha c.beta c.sched) l m = .ok m0 ∧ Cuda.flux3d i0 j0 k0 i1 j1 k1 dx b0 b1 b2 gcw u f0 f1 f2 β1 m0 = .ok m1 ∧ Cuda.diffusionV1Apply3d i0 i1 j0 j1 k0 k1 alpha beta dx agcw a gcw u f0 f1 f2 rgcw res β2 m1 = .ok m2 ∧
      (∀ p, F.InBounds [(i0, i1), (j0, j1), (k0, k1)] p → F.El m2 (F.cell3d res i0 j0 k0 i1 j1 k1 rgcw) p (R p)) ∧ (∀ p, F.InBounds [(i0, i1), (j0, j1), (k0, k1)] p → X p = V p) ∧ (∀ i j k, i0 ≤ i → i ≤ i1 → j0 ≤ j → j ≤ j1 → k0 ≤ k → k ≤ k1 → R [i, j, k] = F.op3 alpha beta dx A B0 B1 B2 X i j k) ∧
      ∀ p, F.InBounds [(i0, i1), (j0, j1), (k0, k1)] p → ∀ e, 1 ≤ e → e ≤ 7 - 1 → ¬ F.InBounds [(i0, i1), (j0, j1), (k0, k1)] (F.shift p ((F.row F.points3) e)) →
        (¬ Uncovered (fun c : BcCall T => F.onSeg3 c.lo c.hi 1 c.face) l [(i0, i1), (j0, j1), (k0, k1)] 7 (F.row F.points3) (F.shift p ((F.row F.points3) e)) ∧ X (F.shift p ((F.row F.points3) e)) = (1 - F.jump (l.map (fun c : BcCall T => c.piece3 i0 j0 k0 i1 j1 k1 dx B0 B1 B2)) p e) * X p) ∨
        (F.jump (l.map (fun c : BcCall T => c.piece3 i0 j0 k0 i1 j1 k1 dx B0 B1 B2)) p e = 1 ∧ Uncovered (fun c : BcCall T => F.onSeg3 c.lo c.hi 1 c.face) l [(i0, i1), (j0, j1), (k0, k1)] 7 (F.row F.points3) (F.shift p ((F.row F.points3) e)) ∧ X (F.shift p ((F.row F.points3) e)) = V (F.shift p ((F.row F.points3) e))) := by
  obtain ⟨m0, X, e0, ch, hX, hin, hj⟩ := filled_jump (C90_3d (dx := dx) hwi hwj hwk hg (le_refl 0) hu hl hs (h1.sub (ins' := [(F.face3d0 b0 i0 j0 k0 i1 j1 k1 0), (F.face3d1 b1 i0 j0 k0 i1 j1 k1 0), (F.face3d2 b2 i0 j0 k0 i1 j1 k1 0)]) (outs' := [(F.cell3d u i0 j0 k0 i1 j1 k1 gcw)]) (by simp) (by simp)) hV hB0 hB1 hB2 hc) (fun c hcl => ⟨(hc c hcl).1, fun h4 => ((hc c hcl).2.2 h4).2⟩) (fun c hcl p hp => hp.2)
    (fun c hcl => along_out3 (hl c hcl)) (fun p hp => by
      obtain ⟨i, j, k, rfl, hp⟩ := F.inBounds3.1 hp
      exact F.inBounds3.2 ⟨i, j, k, rfl, by omega⟩) hV
  obtain ⟨m1, m2, R, c1, c2, E, hR⟩ := energy_v1_3 (alpha := alpha) (beta := beta) (dx := dx) hβ1 hβ2 hwi.le hwj.le hwk.le hg hag hrg (ch.args h2) hpf hrf (ch.keeps (h1.apart _ (by simp) _ (by simp)) hA) (ch.keeps (h1.apart _ (by simp) _ (by simp)) hB0) (ch.keeps (h1.apart _ (by simp) _ (by simp)) hB1) (ch.keeps (h1.apart _ (by simp) _ (by simp)) hB2) hX
  exact ⟨m0, m1, m2, X, R, e0, c1, c2, E, hin, hR, hj⟩

theorem wall_v2_3 {i0 j0 k0 i1 j1 k1 gcw rgcw : Int} {alpha beta : T} {dx : Nat → T} {b0 b1 b2 f0 f1 f2 u res : Ptr} {β1 β2 : Nat → Backend} {l : List (BcCall T)} {m : Mem T} {B0 B1 B2 V : List Int → T}
    (hβ1 : ∀ n, ValidBackend (β1 n)) (hβ2 : ∀ n, ValidBackend (β2 n)) (hwi : i0 < i1) (hwj : j0 < j1) (hwk : k0 < k1) (hg : 1 ≤ gcw) (hrg : 0 ≤ rgcw)
    (hu : ∀ c ∈ l, c.Usable 3) (hl : ∀ c ∈ l, c.Along3 1 i0 j0 k0 i1 j1 k1) (hs : ∀ c ∈ l, ∀ d ∈ l, Separate (fun c : BcCall T => F.onSeg3 c.lo c.hi 1 c.face) c d) (hc : ∀ c ∈ l, c.Solvable (c.piece3 i0 j0 k0 i1 j1 k1 dx B0 B1 B2))
    (h1 : F.Args m [(F.face3d0 b0 i0 j0 k0 i1 j1 k1 0), (F.face3d1 b1 i0 j0 k0 i1 j1 k1 0), (F.face3d2 b2 i0 j0 k0 i1 j1 k1 0)] [(F.cell3d u i0 j0 k0 i1 j1 k1 gcw)]) (h2 : F.Args m [(F.cell3d u i0 j0 k0 i1 j1 k1 gcw), (F.face3d0 b0 i0 j0 k0 i1 j1 k1 0), (F.face3d1 b1 i0 j0 k0 i1 j1 k1 0), (F.face3d2 b2 i0 j0 k0 i1 j1 k1 0)] [(F.face3d0 f0 i0 j0 k0 i1 j1 k1 0), (F.face3d1 f1 i0 j0 k0 i1 j1 k1 0), (F.face3d2 f2 i0 j0 k0 i1 j1 k1 0), (F.cell3d res i0 j0 k0 i1 j1 k1 rgcw)])
    (hpf : F.Apart (F.face3d0 f0 i0 j0 k0 i1 j1 k1 0) (F.face3d1 f1 i0 j0 k0 i1 j1 k1 0) ∧ F.Apart (F.face3d0 f0 i0 j0 k0 i1 j1 k1 0) (F.face3d2 f2 i0 j0 k0 i1 j1 k1 0) ∧ F.Apart (F.face3d1 f1 i0 j0 k0 i1 j1 k1 0) (F.face3d2 f2 i0 j0 k0 i1 j1 k1 0)) (hrf : F.Apart (F.cell3d res i0 j0 k0 i1 j1 k1 rgcw) (F.face3d0 f0 i0 j0 k0 i1 j1 k1 0) ∧ F.Apart (F.cell3d res i0 j0 k0 i1 j1 k1 rgcw) (F.face3d1 f1 i0 j0 k0 i1 j1 k1 0) ∧ F.Apart (F.cell3d res i0 j0 k0 i1 j1 k1 rgcw) (F.face3d2 f2 i0 j0 k0 i1 j1 k1 0))
    (hB0 : F.Holds m (F.face3d0 b0 i0 j0 k0 i1 j1 k1 0) B0) (hB1 : F.Holds m (F.face3d1 b1 i0 j0 k0 i1 j1 k1 0) B1) (hB2 : F.Holds m (F.face3d2 b2 i0 j0 k0 i1 j1 k1 0) B2) (hV : F.Holds m (F.cell3d u i0 j0 k0 i1 j1 k1 gcw) V) :
    ∃ m0 m1 m2, ∃ X R : List Int → T, inOrder (fun c : BcCall T => Cuda.setBc3d i0 i1 j0 j1 k0 k1 dx 0 b0 b1 b2 gcw u c.lo c.hi c.order c.face 1 c.btype c.alpha c.beta c.sched) l m = .ok m0 ∧ Cuda.flux3d i0 j0 k0 i1 j1 k1 dx b0 b1 b2 gcw u f0 f1 f2 β1 m0 = .ok m1 ∧ Cuda.diffusionV2Apply3d i0 i1 j0 j1 k0 k1 alpha beta dx gcw u f0 f1 f2 rgcw res β2 m1 = .ok m2 ∧
      (∀ p, F.InBounds [(i0, i1), (j0, j1), (k0, k1)] p → F.El m2 (F.cell3d res i0 j0 k0 i1 j1 k1 rgcw) p (R p)) ∧ (∀ p, F.InBounds [(i0, i1), (j0, j1), (k0, k1)] p → X p = V p) ∧ (∀ i j k, i0 ≤ i → i ≤ i1 → j0 ≤ j → j ≤ j1 → k0 ≤ k → k ≤ k1 → R [i, j, k] = F.op3 alpha beta dx (fun _ => (1 : T)) B0 B1 B2 X i j k) ∧
      ∀ p, F.InBounds [(i0, i1), (j0, j1), (k0, k1)] p → ∀ e, 1 ≤ e → e ≤ 7 - 1 → ¬ F.InBounds [(i0, i1), (j0, j1), (k0, k1)] (F.shift p ((F.row F.points3) e)) →
        (¬ Uncovered (fun c : BcCall T => F.onSeg3 c.lo c.hi 1 c.face) l [(i0, i1), (j0, j1), (k0, k1)] 7 (F.row F.points3) (F.shift p ((F.row F.points3) e)) ∧ X (F.shift p ((F.row F.points3) e)) = (1 - F.jump (l.map (fun c : BcCall T => c.piece3 i0 j0 k0 i1 j1 k1 dx B0 B1 B2)) p e) * X p) ∨
        (F.jump (l.map (fun c : BcCall T => c.piece3 i0 j0 k0 i1 j1 k1 dx B0 B1 B2)) p e = 1 ∧ Uncovered (fun c : BcCall T => F.onSeg3 c.lo c.hi 1 c.face) l [(i0, i1), (j0, j1), (k0, k1)] 7 (F.row F.points3) (F.shift p ((F.row F.points3) e)) ∧ X (F.shift p ((F.row F.points3) e)) = V (F.shift p ((F.row F.points3) e))) := by
  obtain ⟨m0, X, e0, ch, hX, hin, hj⟩ := filled_jump (C90_3d (dx := dx) hwi hwj hwk hg (le_refl 0) hu hl hs (h1.sub (ins' := [(F.face3d0 b0 i0 j0 k0 i1 j1 k1 0), (F.face3d1 b1 i0 j0 k0 i1 j1 k1 0), (F.face3d2 b2 i0 j0 k0 i1 j1 k1 0)]) (outs' := [(F.cell3d u i0 j0 k0 i1 j1 k1 gcw)]) (by simp) (by simp)) hV hB0 hB1 hB2 hc) (fun c hcl => ⟨(hc c hcl).1, fun h4 => ((hc c hcl).2.2 h4).2⟩) (fun c hcl p hp => hp.2)
    (fun c hcl => along_out3 (hl c hcl)) (fun p hp => by
      obtain ⟨i, j, k, rfl, hp⟩ := F.inBounds3.1 hp
      exact F.inBounds3.2 ⟨i, j, k, rfl, by omega⟩) hV
  obtain ⟨m1, m2, R, c1, c2, E, hR⟩ := energy_v2_3 (alpha := alpha) (beta := beta) (dx := dx) hβ1 hβ2 hwi.le hwj.le hwk.le hg hrg (ch.args h2) hpf hrf (ch.keeps (h1.apart _ (by simp) _ (by simp)) hB0) (ch.keeps (h1.apart _ (by simp) _ (by simp)) hB1) (ch.keeps (h1.apart _ (by simp) _ (by simp)) hB2) hX
  exact ⟨m0, m1, m2, X, R, e0, c1, c2, E, hin, hR, hj⟩

theorem wall_p_3 {i0 j0 k0 i1 j1 k1 gcw rgcw : Int} {beta : T} {dx : Nat → T} {f0 f1 f2 u res : Ptr} {β1 β2 : Nat → Backend} {l : List (BcCall T)} {m : Mem T} {V : List Int → T}
    (hβ1 : ∀ n, ValidBackend (β1 n)) (hβ2 : ∀ n, ValidBackend (β2 n)) (hwi : i0 < i1) (hwj : j0 < j1) (hwk : k0 < k1) (hg : 1 ≤ gcw) (hrg : 0 ≤ rgcw)
    (hu : ∀ c ∈ l, c.Usable 3) (hl : ∀ c ∈ l, c.Along3 1 i0 j0 k0 i1 j1 k1) (hs : ∀ c ∈ l, ∀ d ∈ l, Separate (fun c : BcCall T => F.onSeg3 c.lo c.hi 1 c.face) c d) (hc : ∀ c ∈ l, c.Solvable (c.piece3 i0 j0 k0 i1 j1 k1 dx (fun _ => (1 : T)) (fun _ => (1 : T)) (fun _ => (1 : T))))
    (h1 : F.Args m [] [(F.cell3d u i0 j0 k0 i1 j1 k1 gcw)]) (h2 : F.Args m [(F.cell3d u i0 j0 k0 i1 j1 k1 gcw)] [(F.face3d0 f0 i0 j0 k0 i1 j1 k1 0), (F.face3d1 f1 i0 j0 k0 i1 j1 k1 0), (F.face3d2 f2 i0 j0 k0 i1 j1 k1 0), (F.cell3d res i0 j0 k0 i1 j1 k1 rgcw)])
    (hpf : F.Apart (F.face3d0 f0 i0 j0 k0 i1 j1 k1 0) (F.face3d1 f1 i0 j0 k0 i1 j1 k1 0) ∧ F.Apart (F.face3d0 f0 i0 j0 k0 i1 j1 k1 0) (F.face3d2 f2 i0 j0 k0 i1 j1 k1 0) ∧ F.Apart (F.face3d1 f1 i0 j0 k0 i1 j1 k1 0) (F.face3d2 f2 i0 j0 k0 i1 j1 k1 0)) (hrf : F.Apart (F.cell3d res i0 j0 k0 i1 j1 k1 rgcw) (F.face3d0 f0 i0 j0 k0 i1 j1 k1 0) ∧ F.Apart (F.cell3d res i0 j0 k0 i1 j1 k1 rgcw) (F.face3d1 f1 i0 j0 k0 i1 j1 k1 0) ∧ F.Apart (F.cell3d res i0 j0 k0 i1 j1 k1 rgcw) (F.face3d2 f2 i0 j0 k0 i1 j1 k1 0))
    (hV : F.Holds m (F.cell3d u i0 j0 k0 i1 j1 k1 gcw) V) :
    ∃ m0 m1 m2, ∃ X R : List Int → T, inOrder (fun c : BcCall T => Cuda.setPoissonBc3d i0 i1 j0 j1 k0 k1 dx gcw u c.lo c.hi c.order c.face 1 c.btype c.alpha c.beta c.sched) l m = .ok m0 ∧ Cuda.poissonFlux3d i0 j0 k0 i1 j1 k1 dx gcw u f0 f1 f2 β1 m0 = .ok m1 ∧ Cuda.poissonV2Apply3d i0 i1 j0 j1 k0 k1 beta dx f0 f1 f2 rgcw res β2 m1 = .ok m2 ∧
      (∀ p, F.InBounds [(i0, i1), (j0, j1), (k0, k1)] p → F.El m2 (F.cell3d res i0 j0 k0 i1 j1 k1 rgcw) p (R p)) ∧ (∀ p, F.InBounds [(i0, i1), (j0, j1), (k0, k1)] p → X p = V p) ∧ (∀ i j k, i0 ≤ i → i ≤ i1 → j0 ≤ j → j ≤ j1 → k0 ≤ k → k ≤ k1 → R [i, j, k] = F.op3 0 beta dx (fun _ => (1 : T)) (fun _ => (1 : T)) (fun _ => (1 : T)) (fun _ => (1 : T)) X i j k) ∧
      ∀ p, F.InBounds [(i0, i1), (j0, j1), (k0, k1)] p → ∀ e, 1 ≤ e → e ≤ 7 - 1 → ¬ F.InBounds [(i0, i1), (j0, j1), (k0, k1)] (F.shift p ((F.row F.points3) e)) →
        (¬ Uncovered (fun c : BcCall T => F.onSeg3 c.lo c.hi 1 c.face) l [(i0, i1), (j0, j1), (k0, k1)] 7 (F.row F.points3) (F.shift p ((F.row F.points3) e)) ∧ X (F.shift p ((F.row F.points3) e)) = (1 - F.jump (l.map (fun c : BcCall T => c.piece3 i0 j0 k0 i1 j1 k1 dx (fun _ => (1 : T)) (fun _ => (1 : T)) (fun _ => (1 : T)))) p e) * X p) ∨
        (F.jump (l.map (fun c : BcCall T => c.piece3 i0 j0 k0 i1 j1 k1 dx (fun _ => (1 : T)) (fun _ => (1 : T)) (fun _ => (1 : T)))) p e = 1 ∧ Uncovered (fun c : BcCall T => F.onSeg3 c.lo c.hi 1 c.face) l [(i0, i1), (j0, j1), (k0, k1)] 7 (F.row F.points3) (F.shift p ((F.row F.points3) e)) ∧ X (F.shift p ((F.row F.points3) e)) = V (F.shift p ((F.row F.points3) e))) := by
  obtain ⟨m0, X, e0, ch, hX, hin, hj⟩ := filled_jump (C90_poisson_3d (dx := dx) hwi hwj hwk hg hu hl hs (h1.sub (ins' := []) (outs' := [(F.cell3d u i0 j0 k0 i1 j1 k1 gcw)]) (by simp) (by simp)) hV hc) (fun c hcl => ⟨(hc c hcl).1, fun h4 => ((hc c hcl).2.2 h4).2⟩) (fun c hcl p hp => hp.2)
    (fun c hcl => along_out3 (hl c hcl)) (fun p hp => by
      obtain ⟨i, j, k, rfl, hp⟩ := F.inBounds3.1 hp
      exact F.inBounds3.2 ⟨i, j, k, rfl, by omega⟩) hV
  obtain ⟨m1, m2, R, c1, c2, E, hR⟩ := energy_p_3 (beta := beta) (dx := dx) hβ1 hβ2 hwi.le hwj.le hwk.le hg hrg (ch.args h2) hpf hrf  hX
  exact ⟨m0, m1, m2, X, R, e0, c1, c2, E, hin, hR, hj⟩

end Verif
