import Verif.Props.MatrixFree
import Verif.Props.Fill3
import Verif.Lemmas.EnergyRun
import Verif.Lemmas.AssembleEx

/-
C91: filling the ghost cells and running the flux and apply kernels gives what the assembled and adjusted coefficients give with the dot product kernel.
-/

set_option linter.unusedVariables false
set_option linter.unusedSimpArgs false

namespace Verif
open Spec Polynomial

set_option maxHeartbeats 400000

variable {T : Type} [Field T] [CharZero T]

/-- v1, 3D: from a field on a box at least two cells wide, `cd_correct_bc_3d_cuda::set_bc` for segments of its boundary without common cells, then the flux and the apply kernel, on the one hand, and the kernels that assemble the off-diagonal coefficients, adjust them for these segments and assemble the diagonal, then `dot_offset`, applied to the field with 0 in the segments, on the other hand, leave the same values in every cell of the box. The conditions are homogeneous of first order, Robin conditions with `alpha = 2 beta`, which the kernels that adjust the coefficients take for granted. -/
theorem C91_v1_3d {i0 j0 k0 i1 j1 k1 agcw agcw' gcw rgcw sgcw ugcw vgcw : Int} {alpha beta neu : T} {dx : Nat → T} {a a' b0 b1 b2 b0' b1' b2' f0 f1 f2 u u' res st v o : Ptr} {β1 β2 : Nat → Backend} {β3 β4 β5 : Backend} {βs : F.Side3 → Backend}
    {l : List (BcCall T)} {m m' : Mem T} {A B0 B1 B2 V Y : List Int → T}
    (hβ1 : ∀ n, ValidBackend (β1 n)) (hβ2 : ∀ n, ValidBackend (β2 n)) (hβ3 : ValidBackend β3) (hβ4 : ValidBackend β4) (hβ5 : ValidBackend β5) (hβs : ∀ s, ValidBackend (βs s)) (hwi : i0 < i1) (hwj : j0 < j1) (hwk : k0 < k1)
    (hag : 0 ≤ agcw) (hag' : 0 ≤ agcw') (hg : 1 ≤ gcw) (hrg : 0 ≤ rgcw) (hsg : 0 ≤ sgcw) (hug : 1 ≤ ugcw) (hvg : 0 ≤ vgcw)
    (hu : ∀ c ∈ l, c.Usable 3) (hl : ∀ c ∈ l, c.Thin3 i0 j0 k0 i1 j1 k1) (hs : NoCommon (fun c : BcCall T => F.onSeg3 c.lo c.hi 1 c.face) l) (hc : ∀ c ∈ l, c.Solvable (c.piece3 i0 j0 k0 i1 j1 k1 dx B0 B1 B2))
    (hr : ∀ c ∈ l, c.btype = 4 → c.alpha = 2 * c.beta)
    (h1 : F.Args m [(F.cell3d a i0 j0 k0 i1 j1 k1 agcw), (F.face3d0 b0 i0 j0 k0 i1 j1 k1 0), (F.face3d1 b1 i0 j0 k0 i1 j1 k1 0), (F.face3d2 b2 i0 j0 k0 i1 j1 k1 0)] [(F.cell3d u i0 j0 k0 i1 j1 k1 gcw)]) (h2 : F.Args m [(F.cell3d a i0 j0 k0 i1 j1 k1 agcw), (F.cell3d u i0 j0 k0 i1 j1 k1 gcw), (F.face3d0 b0 i0 j0 k0 i1 j1 k1 0), (F.face3d1 b1 i0 j0 k0 i1 j1 k1 0), (F.face3d2 b2 i0 j0 k0 i1 j1 k1 0)] [(F.face3d0 f0 i0 j0 k0 i1 j1 k1 0), (F.face3d1 f1 i0 j0 k0 i1 j1 k1 0), (F.face3d2 f2 i0 j0 k0 i1 j1 k1 0), (F.cell3d res i0 j0 k0 i1 j1 k1 rgcw)])
    (hff : F.Apart (F.face3d0 f0 i0 j0 k0 i1 j1 k1 0) (F.face3d1 f1 i0 j0 k0 i1 j1 k1 0) ∧ F.Apart (F.face3d0 f0 i0 j0 k0 i1 j1 k1 0) (F.face3d2 f2 i0 j0 k0 i1 j1 k1 0) ∧ F.Apart (F.face3d1 f1 i0 j0 k0 i1 j1 k1 0) (F.face3d2 f2 i0 j0 k0 i1 j1 k1 0)) (hrf : F.Apart (F.cell3d res i0 j0 k0 i1 j1 k1 rgcw) (F.face3d0 f0 i0 j0 k0 i1 j1 k1 0) ∧ F.Apart (F.cell3d res i0 j0 k0 i1 j1 k1 rgcw) (F.face3d1 f1 i0 j0 k0 i1 j1 k1 0) ∧ F.Apart (F.cell3d res i0 j0 k0 i1 j1 k1 rgcw) (F.face3d2 f2 i0 j0 k0 i1 j1 k1 0))
    (hA : F.Holds m (F.cell3d a i0 j0 k0 i1 j1 k1 agcw) A) (hB0 : F.Holds m (F.face3d0 b0 i0 j0 k0 i1 j1 k1 0) B0) (hB1 : F.Holds m (F.face3d1 b1 i0 j0 k0 i1 j1 k1 0) B1) (hB2 : F.Holds m (F.face3d2 b2 i0 j0 k0 i1 j1 k1 0) B2) (hV : F.Holds m (F.cell3d u i0 j0 k0 i1 j1 k1 gcw) V)
    (h3 : F.Args m' [(F.cell3d a' i0 j0 k0 i1 j1 k1 agcw'), (F.face3d0 b0' i0 j0 k0 i1 j1 k1 0), (F.face3d1 b1' i0 j0 k0 i1 j1 k1 0), (F.face3d2 b2' i0 j0 k0 i1 j1 k1 0), (F.cell3d u' i0 j0 k0 i1 j1 k1 ugcw)] [(F.st3d st i0 j0 k0 i1 j1 k1 sgcw), (F.cell3d v i0 j0 k0 i1 j1 k1 vgcw)]) (hvs : F.Apart (F.cell3d v i0 j0 k0 i1 j1 k1 vgcw) (F.st3d st i0 j0 k0 i1 j1 k1 sgcw))
    (hA' : F.Holds m' (F.cell3d a' i0 j0 k0 i1 j1 k1 agcw') A) (hB0' : F.Holds m' (F.face3d0 b0' i0 j0 k0 i1 j1 k1 0) B0) (hB1' : F.Holds m' (F.face3d1 b1' i0 j0 k0 i1 j1 k1 0) B1) (hB2' : F.Holds m' (F.face3d2 b2' i0 j0 k0 i1 j1 k1 0) B2) (hY : F.Holds m' (F.cell3d u' i0 j0 k0 i1 j1 k1 ugcw) Y) (ht : F.Rows m' (F.offset0 o 3 7) F.points3)
    (hz : Cleared (fun c : BcCall T => F.onSeg3 c.lo c.hi 1 c.face) l V Y) :
    ∃ m0 m1 m2 s1 s2 s3 s4, inOrder (fun c : BcCall T => Cuda.setBc3d i0 i1 j0 j1 k0 k1 dx 0 b0 b1 b2 gcw u c.lo c.hi c.order c.face 1 c.btype c.alpha c.beta c.sched) l m = .ok m0 ∧ Cuda.flux3d i0 j0 k0 i1 j1 k1 dx b0 b1 b2 gcw u f0 f1 f2 β1 m0 = .ok m1 ∧ Cuda.diffusionV1Apply3d i0 i1 j0 j1 k0 k1 alpha beta dx agcw a gcw u f0 f1 f2 rgcw res β2 m1 = .ok m2 ∧
      Cuda.offdiag3d i0 j0 k0 i1 j1 k1 i0 j0 k0 i1 j1 k1 dx beta b0' b1' b2' sgcw st β3 m' = .ok s1 ∧ (l.map BcCall.side3).foldlM (fun m s => Cuda.adjOffdiag3d i0 j0 k0 i1 j1 k1 s.i0 s.j0 s.k0 s.i1 s.j1 s.k1 s.dir s.side s.btype s.order dx 2 neu beta b0' b1' b2' sgcw st (βs s) m) s1 = .ok s2 ∧ Cuda.v1diag3d i0 j0 k0 i1 j1 k1 (i0 - agcw') (j0 - agcw') (k0 - agcw') (i1 + agcw') (j1 + agcw') (k1 + agcw') alpha a' sgcw st β4 s2 = .ok s3 ∧
      (l.map BcCall.side3).foldlM (fun m s => Cuda.adjDiag3d i0 j0 k0 i1 j1 k1 s.i0 s.j0 s.k0 s.i1 s.j1 s.k1 s.dir s.side s.btype s.order dx beta b0' b1' b2' sgcw st (βs s) m) s3 = .ok s3 ∧ Cuda.dotOffset3d st sgcw u' ugcw v vgcw o i0 i1 j0 j1 k0 k1 7 β5 s3 = .ok s4 ∧
      ∀ i j k, i0 ≤ i → i ≤ i1 → j0 ≤ j → j ≤ j1 → k0 ≤ k → k ≤ k1 → ∃ r, F.El m2 (F.cell3d res i0 j0 k0 i1 j1 k1 rgcw) [i, j, k] r ∧ F.El s4 (F.cell3d v i0 j0 k0 i1 j1 k1 vgcw) [i, j, k] r := by
  have hfill := C90_3d (dx := dx) hwi hwj hwk hg (le_refl 0) hu (fun c hcl => thin3_along (hl c hcl)) (apart_separate hs) (h1.sub (ins' := [(F.face3d0 b0 i0 j0 k0 i1 j1 k1 0), (F.face3d1 b1 i0 j0 k0 i1 j1 k1 0), (F.face3d2 b2 i0 j0 k0 i1 j1 k1 0)]) (by simp) (by simp)) hV hB0 hB1 hB2 hc
  obtain ⟨m0, V', e0, ch, hV', hful⟩ := hfill
  have hY' := hful Y hz.1 hz.2
  have same : ∀ c ∈ l, _ := fun c hcl => thin3_same (dx := dx) (B0 := B0) (B1 := B1) (B2 := B2) hwi.le hwj.le hwk.le (hl c hcl) (hr c hcl) (fun h4 => ((hc c hcl).2.2 h4).1)
  have hF := fulfils_of hY' same
  have hcell : ∀ c ∈ l, ∀ p, (c.side3.piece dx B0 B1 B2).cells p → (fun c : BcCall T => F.onSeg3 c.lo c.hi 1 c.face) c (F.shift p (F.row F.points3 (c.side3.piece dx B0 B1 B2).ghost)) := fun c hcl p hp => by
    obtain ⟨t1, t2, -⟩ := same c hcl
    rw [← t2]
    exact ((t1 p).2 hp).2
  have hd : F.Disjoint ((l.map BcCall.side3).map (F.Side3.piece dx B0 B1 B2)) := by
    rw [List.map_map]
    exact apart_disjoint hs hcell
  obtain ⟨m1, m2, R, c1, c2, E, hR⟩ := energy_v1_3 (alpha := alpha) (beta := beta) (dx := dx) hβ1 hβ2 hwi.le hwj.le hwk.le hg hag hrg (ch.args h2) hff hrf
    (ch.keeps (h1.apart _ (by simp) _ (by simp)) hA) (ch.keeps (h1.apart _ (by simp) _ (by simp)) hB0) (ch.keeps (h1.apart _ (by simp) _ (by simp)) hB1) (ch.keeps (h1.apart _ (by simp) _ (by simp)) hB2) hV'
  have hnoseg : ∀ c ∈ l, ∀ p, F.InBounds [(i0, i1), (j0, j1), (k0, k1)] p → ¬ (fun c : BcCall T => F.onSeg3 c.lo c.hi 1 c.face) c p := fun c hcl p hp hsg => by
    obtain ⟨ht, -⟩ := hl c hcl
    obtain ⟨i, j, k, rfl, hp⟩ := F.inBounds3.1 hp
    obtain ⟨i', j', k', e, hsg⟩ := hsg
    simp only [List.cons.injEq, and_true] at e
    unfold Spec.Part at ht
    rcases ht with ht | ht | ht | ht | ht | ht <;> obtain ⟨hf, ht⟩ := ht <;> rw [hf] at hsg <;> simp at hsg <;> omega
  have hYV : ∀ p, F.InBounds [(i0, i1), (j0, j1), (k0, k1)] p → Y p = V' p := fun p hp => by
    have hin : F.InBounds (F.cell3d u i0 j0 k0 i1 j1 k1 gcw).dims p := by
      obtain ⟨i, j, k, rfl, hp⟩ := F.inBounds3.1 hp
      exact F.inBounds3.2 ⟨i, j, k, rfl, by omega⟩
    rw [hz.2 p fun c hcl => hnoseg c hcl p hp, changes_same ch hV hV' hin fun ⟨c, hcl, hsg⟩ => hnoseg c hcl p hp hsg]
  obtain ⟨s1, s2, s3, s4, d1, d2, d3, d4, d5, E'⟩ := mat_v1_3 (neu := neu) (alpha := alpha) (beta := beta) (dx := dx) (sides := (l.map BcCall.side3)) (D := Y) (X := V') (o := o) (βs := βs) hβ3 hβ4 hβ5 hβs hwi.le hwj.le hwk.le hag' hsg hug hvg
    (fun s hsm => by
      obtain ⟨c, hcl, rfl⟩ := List.mem_map.1 hsm
      exact thin3_layer hwi.le hwj.le hwk.le (hl c hcl) (hu c hcl))
    (fun s hsm => by
      obtain ⟨c, hcl, rfl⟩ := List.mem_map.1 hsm
      exact thin3_out (hl c hcl))
    (fun s hsm => by
      obtain ⟨c, hcl, rfl⟩ := List.mem_map.1 hsm
      exact (hc c hcl).1)
    hd
    (fun s hsm h4 p hp => by
      obtain ⟨c, hcl, rfl⟩ := List.mem_map.1 hsm
      obtain ⟨t1, t2, t3, t4, t5, t6⟩ := same c hcl
      rw [← t5, ← t6 h4 p ((t1 p).2 hp)]
      exact ((hc c hcl).2.2 h4).2 p ((t1 p).2 hp))
    h3 hvs hA' hB0' hB1' hB2' hY ht (by rw [List.map_map]; exact hF) hYV (fun _ _ => rfl)
  refine ⟨m0, m1, m2, s1, s2, s3, s4, e0 l (List.Perm.refl l), c1, c2, d1, d2, d3, d4, d5, fun i j k hi0 hi1 hj0 hj1 hk0 hk1 => ⟨_, ?_, E' i j k hi0 hi1 hj0 hj1 hk0 hk1⟩⟩
  rw [← hR i j k hi0 hi1 hj0 hj1 hk0 hk1]
  exact E _ (F.inBounds3.2 ⟨i, j, k, rfl, by omega⟩)

example :=
  C91_v1_3d (T := Rat) (l := [exFill (exSeg (-1) 1 2) (exSeg (-1) 2 2) 0 4, exFill (exSeg (-1) 1 3) (exSeg (-1) 1 3) 0 1, exFill (exSeg 0 3 2) (exSeg 1 3 3) 3 0, exFill (exSeg 0 2 1) (exSeg 1 2 1) 4 4]) (m := exSolve 3) (m' := exSolve 3) (i0 := 0) (i1 := 1) (j0 := 1) (j1 := 2) (k0 := 2) (k1 := 3) (dx := exDx) (alpha := 3) (beta := 2) (neu := 3) (a := ⟨0, 0⟩) (a' := ⟨0, 0⟩) (agcw := 1) (agcw' := 1) (u := ⟨1, 0⟩) (u' := ⟨1, 0⟩) (b0 := ⟨2, 0⟩) (b0' := ⟨2, 0⟩) (f0 := ⟨5, 0⟩) (b1 := ⟨3, 0⟩) (b1' := ⟨3, 0⟩) (f1 := ⟨6, 0⟩) (b2 := ⟨4, 0⟩) (b2' := ⟨4, 0⟩) (f2 := ⟨7, 0⟩) (res := ⟨8, 0⟩) (st := ⟨9, 0⟩) (v := ⟨11, 0⟩) (o := ⟨23, 0⟩) (gcw := 2) (rgcw := 1) (sgcw := 1) (ugcw := 2) (vgcw := 1)
    (βs := fun _ => seqBackend) (fun _ => revBackend_ok) (fun _ => seqBackend_ok) revBackend_ok seqBackend_ok revBackend_ok (fun _ => seqBackend_ok) (by decide) (by decide) (by decide) (by decide) (by decide) (by decide) (by decide) (by decide) (by decide) (by decide)
    (by ex_fusable) (by ex_thin) (by ex_nocommon) (by ex_solvable3 (fun _ => exRd_nonneg)) (by norm_num [exFill])
    (exSolve_args (by ex_args)) (exSolve_args (by ex_args)) ⟨apart_blk (by decide), apart_blk (by decide), apart_blk (by decide)⟩ ⟨apart_blk (by decide), apart_blk (by decide), apart_blk (by decide)⟩ (exSolve_rd (by decide) (exRat_ok rfl (by decide) (by decide))) (exSolve_rd (by decide) (exRat_ok rfl (by decide) (by decide))) (exSolve_rd (by decide) (exRat_ok rfl (by decide) (by decide))) (exSolve_rd (by decide) (exRat_ok rfl (by decide) (by decide))) exSolve_u3 (exSolve_args (by ex_args)) (apart_blk (by decide)) (exSolve_rd (by decide) (exRat_ok rfl (by decide) (by decide))) (exSolve_rd (by decide) (exRat_ok rfl (by decide) (by decide))) (exSolve_rd (by decide) (exRat_ok rfl (by decide) (by decide))) (exSolve_rd (by decide) (exRat_ok rfl (by decide) (by decide))) exSolve_u3 exSolve_t3
    (by ex_cleared3)

/-- v2, 3D: from a field on a box at least two cells wide, `cd_correct_bc_3d_cuda::set_bc` for segments of its boundary without common cells, then the flux and the apply kernel, on the one hand, and the kernels that assemble the off-diagonal coefficients, adjust them for these segments and assemble the diagonal, then `dot_offset`, applied to the field with 0 in the segments, on the other hand, leave the same values in every cell of the box. The conditions are homogeneous of first order, Robin conditions with `alpha = 2 beta`, which the kernels that adjust the coefficients take for granted. -/
theorem C91_v2_3d {i0 j0 k0 i1 j1 k1 gcw rgcw sgcw ugcw vgcw : Int} {alpha beta neu : T} {dx : Nat → T} {b0 b1 b2 b0' b1' b2' f0 f1 f2 u u' res st v o : Ptr} {β1 β2 : Nat → Backend} {β3 β4 β5 : Backend} {βs : F.Side3 → Backend}
    {l : List (BcCall T)} {m m' : Mem T} {B0 B1 B2 V Y : List Int → T}
    (hβ1 : ∀ n, ValidBackend (β1 n)) (hβ2 : ∀ n, ValidBackend (β2 n)) (hβ3 : ValidBackend β3) (hβ4 : ValidBackend β4) (hβ5 : ValidBackend β5) (hβs : ∀ s, ValidBackend (βs s)) (hwi : i0 < i1) (hwj : j0 < j1) (hwk : k0 < k1)
    (hg : 1 ≤ gcw) (hrg : 0 ≤ rgcw) (hsg : 0 ≤ sgcw) (hug : 1 ≤ ugcw) (hvg : 0 ≤ vgcw)
    (hu : ∀ c ∈ l, c.Usable 3) (hl : ∀ c ∈ l, c.Thin3 i0 j0 k0 i1 j1 k1) (hs : NoCommon (fun c : BcCall T => F.onSeg3 c.lo c.hi 1 c.face) l) (hc : ∀ c ∈ l, c.Solvable (c.piece3 i0 j0 k0 i1 j1 k1 dx B0 B1 B2))
    (hr : ∀ c ∈ l, c.btype = 4 → c.alpha = 2 * c.beta)
    (h1 : F.Args m [(F.face3d0 b0 i0 j0 k0 i1 j1 k1 0), (F.face3d1 b1 i0 j0 k0 i1 j1 k1 0), (F.face3d2 b2 i0 j0 k0 i1 j1 k1 0)] [(F.cell3d u i0 j0 k0 i1 j1 k1 gcw)]) (h2 : F.Args m [(F.cell3d u i0 j0 k0 i1 j1 k1 gcw), (F.face3d0 b0 i0 j0 k0 i1 j1 k1 0), (F.face3d1 b1 i0 j0 k0 i1 j1 k1 0), (F.face3d2 b2 i0 j0 k0 i1 j1 k1 0)] [(F.face3d0 f0 i0 j0 k0 i1 j1 k1 0), (F.face3d1 f1 i0 j0 k0 i1 j1 k1 0), (F.face3d2 f2 i0 j0 k0 i1 j1 k1 0), (F.cell3d res i0 j0 k0 i1 j1 k1 rgcw)])
    (hff : F.Apart (F.face3d0 f0 i0 j0 k0 i1 j1 k1 0) (F.face3d1 f1 i0 j0 k0 i1 j1 k1 0) ∧ F.Apart (F.face3d0 f0 i0 j0 k0 i1 j1 k1 0) (F.face3d2 f2 i0 j0 k0 i1 j1 k1 0) ∧ F.Apart (F.face3d1 f1 i0 j0 k0 i1 j1 k1 0) (F.face3d2 f2 i0 j0 k0 i1 j1 k1 0)) (hrf : F.Apart (F.cell3d res i0 j0 k0 i1 j1 k1 rgcw) (F.face3d0 f0 i0 j0 k0 i1 j1 k1 0) ∧ F.Apart (F.cell3d res i0 j0 k0 i1 j1 k1 rgcw) (F.face3d1 f1 i0 j0 k0 i1 j1 k1 0) ∧ F.Apart (F.cell3d res i0 j0 k0 i1 j1 k1 rgcw) (F.face3d2 f2 i0 j0 k0 i1 j1 k1 0))
    (hB0 : F.Holds m (F.face3d0 b0 i0 j0 k0 i1 j1 k1 0) B0) (hB1 : F.Holds m (F.face3d1 b1 i0 j0 k0 i1 j1 k1 0) B1) (hB2 : F.Holds m (F.face3d2 b2 i0 j0 k0 i1 j1 k1 0) B2) (hV : F.Holds m (F.cell3d u i0 j0 k0 i1 j1 k1 gcw) V)
    (h3 : F.Args m' [(F.face3d0 b0' i0 j0 k0 i1 j1 k1 0), (F.face3d1 b1' i0 j0 k0 i1 j1 k1 0), (F.face3d2 b2' i0 j0 k0 i1 j1 k1 0), (F.cell3d u' i0 j0 k0 i1 j1 k1 ugcw)] [(F.st3d st i0 j0 k0 i1 j1 k1 sgcw), (F.cell3d v i0 j0 k0 i1 j1 k1 vgcw)]) (hvs : F.Apart (F.cell3d v i0 j0 k0 i1 j1 k1 vgcw) (F.st3d st i0 j0 k0 i1 j1 k1 sgcw))
    (hB0' : F.Holds m' (F.face3d0 b0' i0 j0 k0 i1 j1 k1 0) B0) (hB1' : F.Holds m' (F.face3d1 b1' i0 j0 k0 i1 j1 k1 0) B1) (hB2' : F.Holds m' (F.face3d2 b2' i0 j0 k0 i1 j1 k1 0) B2) (hY : F.Holds m' (F.cell3d u' i0 j0 k0 i1 j1 k1 ugcw) Y) (ht : F.Rows m' (F.offset0 o 3 7) F.points3)
    (hz : Cleared (fun c : BcCall T => F.onSeg3 c.lo c.hi 1 c.face) l V Y) :
    ∃ m0 m1 m2 s1 s2 s3 s4, inOrder (fun c : BcCall T => Cuda.setBc3d i0 i1 j0 j1 k0 k1 dx 0 b0 b1 b2 gcw u c.lo c.hi c.order c.face 1 c.btype c.alpha c.beta c.sched) l m = .ok m0 ∧ Cuda.flux3d i0 j0 k0 i1 j1 k1 dx b0 b1 b2 gcw u f0 f1 f2 β1 m0 = .ok m1 ∧ Cuda.diffusionV2Apply3d i0 i1 j0 j1 k0 k1 alpha beta dx gcw u f0 f1 f2 rgcw res β2 m1 = .ok m2 ∧
      Cuda.offdiag3d i0 j0 k0 i1 j1 k1 i0 j0 k0 i1 j1 k1 dx beta b0' b1' b2' sgcw st β3 m' = .ok s1 ∧ (l.map BcCall.side3).foldlM (fun m s => Cuda.adjOffdiag3d i0 j0 k0 i1 j1 k1 s.i0 s.j0 s.k0 s.i1 s.j1 s.k1 s.dir s.side s.btype s.order dx 2 neu beta b0' b1' b2' sgcw st (βs s) m) s1 = .ok s2 ∧ Cuda.v2diag3d i0 j0 k0 i1 j1 k1 alpha sgcw st β4 s2 = .ok s3 ∧
      (l.map BcCall.side3).foldlM (fun m s => Cuda.adjDiag3d i0 j0 k0 i1 j1 k1 s.i0 s.j0 s.k0 s.i1 s.j1 s.k1 s.dir s.side s.btype s.order dx beta b0' b1' b2' sgcw st (βs s) m) s3 = .ok s3 ∧ Cuda.dotOffset3d st sgcw u' ugcw v vgcw o i0 i1 j0 j1 k0 k1 7 β5 s3 = .ok s4 ∧
      ∀ i j k, i0 ≤ i → i ≤ i1 → j0 ≤ j → j ≤ j1 → k0 ≤ k → k ≤ k1 → ∃ r, F.El m2 (F.cell3d res i0 j0 k0 i1 j1 k1 rgcw) [i, j, k] r ∧ F.El s4 (F.cell3d v i0 j0 k0 i1 j1 k1 vgcw) [i, j, k] r := by
  have hfill := C90_3d (dx := dx) hwi hwj hwk hg (le_refl 0) hu (fun c hcl => thin3_along (hl c hcl)) (apart_separate hs) (h1.sub (ins' := [(F.face3d0 b0 i0 j0 k0 i1 j1 k1 0), (F.face3d1 b1 i0 j0 k0 i1 j1 k1 0), (F.face3d2 b2 i0 j0 k0 i1 j1 k1 0)]) (by simp) (by simp)) hV hB0 hB1 hB2 hc
  obtain ⟨m0, V', e0, ch, hV', hful⟩ := hfill
  have hY' := hful Y hz.1 hz.2
  have same : ∀ c ∈ l, _ := fun c hcl => thin3_same (dx := dx) (B0 := B0) (B1 := B1) (B2 := B2) hwi.le hwj.le hwk.le (hl c hcl) (hr c hcl) (fun h4 => ((hc c hcl).2.2 h4).1)
  have hF := fulfils_of hY' same
  have hcell : ∀ c ∈ l, ∀ p, (c.side3.piece dx B0 B1 B2).cells p → (fun c : BcCall T => F.onSeg3 c.lo c.hi 1 c.face) c (F.shift p (F.row F.points3 (c.side3.piece dx B0 B1 B2).ghost)) := fun c hcl p hp => by
    obtain ⟨t1, t2, -⟩ := same c hcl
    rw [← t2]
    exact ((t1 p).2 hp).2
  have hd : F.Disjoint ((l.map BcCall.side3).map (F.Side3.piece dx B0 B1 B2)) := by
    rw [List.map_map]
    exact apart_disjoint hs hcell
  obtain ⟨m1, m2, R, c1, c2, E, hR⟩ := energy_v2_3 (alpha := alpha) (beta := beta) (dx := dx) hβ1 hβ2 hwi.le hwj.le hwk.le hg hrg (ch.args h2) hff hrf
    (ch.keeps (h1.apart _ (by simp) _ (by simp)) hB0) (ch.keeps (h1.apart _ (by simp) _ (by simp)) hB1) (ch.keeps (h1.apart _ (by simp) _ (by simp)) hB2) hV'
  have hnoseg : ∀ c ∈ l, ∀ p, F.InBounds [(i0, i1), (j0, j1), (k0, k1)] p → ¬ (fun c : BcCall T => F.onSeg3 c.lo c.hi 1 c.face) c p := fun c hcl p hp hsg => by
    obtain ⟨ht, -⟩ := hl c hcl
    obtain ⟨i, j, k, rfl, hp⟩ := F.inBounds3.1 hp
    obtain ⟨i', j', k', e, hsg⟩ := hsg
    simp only [List.cons.injEq, and_true] at e
    unfold Spec.Part at ht
    rcases ht with ht | ht | ht | ht | ht | ht <;> obtain ⟨hf, ht⟩ := ht <;> rw [hf] at hsg <;> simp at hsg <;> omega
  have hYV : ∀ p, F.InBounds [(i0, i1), (j0, j1), (k0, k1)] p → Y p = V' p := fun p hp => by
    have hin : F.InBounds (F.cell3d u i0 j0 k0 i1 j1 k1 gcw).dims p := by
      obtain ⟨i, j, k, rfl, hp⟩ := F.inBounds3.1 hp
      exact F.inBounds3.2 ⟨i, j, k, rfl, by omega⟩
    rw [hz.2 p fun c hcl => hnoseg c hcl p hp, changes_same ch hV hV' hin fun ⟨c, hcl, hsg⟩ => hnoseg c hcl p hp hsg]
  obtain ⟨s1, s2, s3, s4, d1, d2, d3, d4, d5, E'⟩ := mat_v2_3 (neu := neu) (alpha := alpha) (beta := beta) (dx := dx) (sides := (l.map BcCall.side3)) (D := Y) (X := V') (o := o) (βs := βs) hβ3 hβ4 hβ5 hβs hwi.le hwj.le hwk.le hsg hug hvg
    (fun s hsm => by
      obtain ⟨c, hcl, rfl⟩ := List.mem_map.1 hsm
      exact thin3_layer hwi.le hwj.le hwk.le (hl c hcl) (hu c hcl))
    (fun s hsm => by
      obtain ⟨c, hcl, rfl⟩ := List.mem_map.1 hsm
      exact thin3_out (hl c hcl))
    (fun s hsm => by
      obtain ⟨c, hcl, rfl⟩ := List.mem_map.1 hsm
      exact (hc c hcl).1)
    hd
    (fun s hsm h4 p hp => by
      obtain ⟨c, hcl, rfl⟩ := List.mem_map.1 hsm
      obtain ⟨t1, t2, t3, t4, t5, t6⟩ := same c hcl
      rw [← t5, ← t6 h4 p ((t1 p).2 hp)]
      exact ((hc c hcl).2.2 h4).2 p ((t1 p).2 hp))
    h3 hvs hB0' hB1' hB2' hY ht (by rw [List.map_map]; exact hF) hYV (fun _ _ => rfl)
  refine ⟨m0, m1, m2, s1, s2, s3, s4, e0 l (List.Perm.refl l), c1, c2, d1, d2, d3, d4, d5, fun i j k hi0 hi1 hj0 hj1 hk0 hk1 => ⟨_, ?_, E' i j k hi0 hi1 hj0 hj1 hk0 hk1⟩⟩
  rw [← hR i j k hi0 hi1 hj0 hj1 hk0 hk1]
  exact E _ (F.inBounds3.2 ⟨i, j, k, rfl, by omega⟩)

example :=
  C91_v2_3d (T := Rat) (l := [exFill (exSeg (-1) 1 2) (exSeg (-1) 2 2) 0 4, exFill (exSeg (-1) 1 3) (exSeg (-1) 1 3) 0 1, exFill (exSeg 0 3 2) (exSeg 1 3 3) 3 0, exFill (exSeg 0 2 1) (exSeg 1 2 1) 4 4]) (m := exSolve 3) (m' := exSolve 3) (i0 := 0) (i1 := 1) (j0 := 1) (j1 := 2) (k0 := 2) (k1 := 3) (dx := exDx) (alpha := 3) (beta := 2) (neu := 3) (u := ⟨1, 0⟩) (u' := ⟨1, 0⟩) (b0 := ⟨2, 0⟩) (b0' := ⟨2, 0⟩) (f0 := ⟨5, 0⟩) (b1 := ⟨3, 0⟩) (b1' := ⟨3, 0⟩) (f1 := ⟨6, 0⟩) (b2 := ⟨4, 0⟩) (b2' := ⟨4, 0⟩) (f2 := ⟨7, 0⟩) (res := ⟨8, 0⟩) (st := ⟨9, 0⟩) (v := ⟨11, 0⟩) (o := ⟨23, 0⟩) (gcw := 2) (rgcw := 1) (sgcw := 1) (ugcw := 2) (vgcw := 1)
    (βs := fun _ => seqBackend) (fun _ => revBackend_ok) (fun _ => seqBackend_ok) revBackend_ok seqBackend_ok revBackend_ok (fun _ => seqBackend_ok) (by decide) (by decide) (by decide)  (by decide) (by decide) (by decide) (by decide) (by decide)
    (by ex_fusable) (by ex_thin) (by ex_nocommon) (by ex_solvable3 (fun _ => exRd_nonneg)) (by norm_num [exFill])
    (exSolve_args (by ex_args)) (exSolve_args (by ex_args)) ⟨apart_blk (by decide), apart_blk (by decide), apart_blk (by decide)⟩ ⟨apart_blk (by decide), apart_blk (by decide), apart_blk (by decide)⟩ (exSolve_rd (by decide) (exRat_ok rfl (by decide) (by decide))) (exSolve_rd (by decide) (exRat_ok rfl (by decide) (by decide))) (exSolve_rd (by decide) (exRat_ok rfl (by decide) (by decide))) exSolve_u3 (exSolve_args (by ex_args)) (apart_blk (by decide)) (exSolve_rd (by decide) (exRat_ok rfl (by decide) (by decide))) (exSolve_rd (by decide) (exRat_ok rfl (by decide) (by decide))) (exSolve_rd (by decide) (exRat_ok rfl (by decide) (by decide))) exSolve_u3 exSolve_t3
    (by ex_cleared3)

end Verif
