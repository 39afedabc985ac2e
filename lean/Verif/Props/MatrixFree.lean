import Verif.Lemmas.Thin
import Verif.Props.Fill
import Verif.Lemmas.EnergyRun
import Verif.Lemmas.AssembleEx

/-
C91: filling the ghost cells and running the flux and apply kernels gives what the assembled and adjusted coefficients give with the dot product kernel.
-/

set_option linter.unusedVariables false
set_option linter.unusedSimpArgs false

namespace Verif
open Spec Polynomial

macro "ex_thin" : tactic => `(tactic| (
  simp only [List.forall_mem_cons, List.not_mem_nil, false_imp_iff, implies_true, and_true, BcCall.Thin1, BcCall.Thin2, BcCall.Thin3, Spec.Part, exFill, exSeg, InInt]
  repeat' apply And.intro
  all_goals decide +kernel))

macro "ex_nocommon" : tactic => `(tactic| (
  unfold NoCommon
  simp only [List.pairwise_cons, List.Pairwise.nil, List.forall_mem_cons, List.not_mem_nil, false_imp_iff, implies_true, and_true]
  repeat' apply And.intro
  all_goals first
    | (intro p h h'
       simp [F.onSeg1, exFill, exSeg] at h h'
       have e := h.symm.trans h'
       simp at e)
    | (rintro p ⟨i, j, r, h⟩ ⟨i', j', e, h'⟩
       subst r
       simp only [exFill, exSeg, List.cons.injEq, and_true] at e h h'
       omega)
    | (rintro p ⟨i, j, k, r, h⟩ ⟨i', j', k', e, h'⟩
       subst r
       simp only [exFill, exSeg, List.cons.injEq, and_true] at e h h'
       omega)))

macro "ex_cleared1" : tactic => `(tactic| (
  refine ⟨?_, fun _ _ => rfl⟩
  intro c hc p hp
  refine exIns_zero1 p fun hb => ?_
  obtain ⟨i, hi, hb⟩ := F.inBounds1.1 hb
  subst hi
  simp only [List.mem_cons, List.not_mem_nil, or_false] at hc
  rcases hc with h | h <;> rw [h] at hp <;> simp [F.onSeg1, exFill, exSeg] at hp <;> omega))

macro "ex_cleared2" : tactic => `(tactic| (
  refine ⟨?_, fun _ _ => rfl⟩
  intro c hc p hp
  refine exIns_zero2 p fun hb => ?_
  obtain ⟨i, j, hi, hb⟩ := F.inBounds2.1 hb
  subst hi
  simp only [List.mem_cons, List.not_mem_nil, or_false] at hc
  rcases hc with h | h | h | h <;> rw [h] at hp <;> simp [F.onSeg2, exFill, exSeg] at hp <;> omega))

macro "ex_cleared3" : tactic => `(tactic| (
  refine ⟨?_, fun _ _ => rfl⟩
  intro c hc p hp
  refine exIns_zero3 p fun hb => ?_
  obtain ⟨i, j, k, hi, hb⟩ := F.inBounds3.1 hb
  subst hi
  simp only [List.mem_cons, List.not_mem_nil, or_false] at hc
  rcases hc with h | h | h | h <;> rw [h] at hp <;> simp [F.onSeg3, exFill, exSeg] at hp <;> omega))

variable {T : Type} [Field T] [CharZero T]

/-- v1, 1D: from a field on a box at least two cells wide, `cd_correct_bc_1d_cuda::set_bc` for segments of its boundary without common cells, then the flux and the apply kernel, on the one hand, and the kernels that assemble the off-diagonal coefficients, adjust them for these segments and assemble the diagonal, then `dot_offset`, applied to the field with 0 in the segments, on the other hand, leave the same values in every cell of the box. The conditions are homogeneous of first order, Robin conditions with `alpha = 2 beta`, which the kernels that adjust the coefficients take for granted. -/
theorem C91_v1_1d {i0 i1 agcw agcw' gcw rgcw sgcw ugcw vgcw : Int} {alpha beta neu : T} {dx : Nat → T} {a a' b0 b0' f0 u u' res st v o : Ptr} {β1 β2 : Nat → Backend} {β3 β4 β5 : Backend} {βs : F.Side1 → Backend}
    {l : List (BcCall T)} {m m' : Mem T} {A B0 V Y : List Int → T}
    (hβ1 : ∀ n, ValidBackend (β1 n)) (hβ2 : ∀ n, ValidBackend (β2 n)) (hβ3 : ValidBackend β3) (hβ4 : ValidBackend β4) (hβ5 : ValidBackend β5) (hβs : ∀ s, ValidBackend (βs s)) (hwi : i0 < i1)
    (hag : 0 ≤ agcw) (hag' : 0 ≤ agcw') (hg : 1 ≤ gcw) (hrg : 0 ≤ rgcw) (hsg : 0 ≤ sgcw) (hug : 1 ≤ ugcw) (hvg : 0 ≤ vgcw)
    (hu : ∀ c ∈ l, c.Usable 1) (hl : ∀ c ∈ l, c.Thin1 i0 i1) (hs : NoCommon (fun c : BcCall T => F.onSeg1 c.lo c.hi c.face) l) (hc : ∀ c ∈ l, c.Solvable (c.piece1 i0 i1 dx B0))
    (hr : ∀ c ∈ l, c.btype = 4 → c.alpha = 2 * c.beta)
    (h1 : F.Args m [(F.cell1d a i0 i1 agcw), (F.face1d b0 i0 i1 0)] [(F.cell1d u i0 i1 gcw)]) (h2 : F.Args m [(F.cell1d a i0 i1 agcw), (F.cell1d u i0 i1 gcw), (F.face1d b0 i0 i1 0)] [(F.face1d f0 i0 i1 0), (F.cell1d res i0 i1 rgcw)])
    (hrf : F.Apart (F.cell1d res i0 i1 rgcw) (F.face1d f0 i0 i1 0))
    (hA : F.Holds m (F.cell1d a i0 i1 agcw) A) (hB0 : F.Holds m (F.face1d b0 i0 i1 0) B0) (hV : F.Holds m (F.cell1d u i0 i1 gcw) V)
    (h3 : F.Args m' [(F.cell1d a' i0 i1 agcw'), (F.face1d b0' i0 i1 0), (F.cell1d u' i0 i1 ugcw)] [(F.st1d st i0 i1 sgcw), (F.cell1d v i0 i1 vgcw)]) (hvs : F.Apart (F.cell1d v i0 i1 vgcw) (F.st1d st i0 i1 sgcw))
    (hA' : F.Holds m' (F.cell1d a' i0 i1 agcw') A) (hB0' : F.Holds m' (F.face1d b0' i0 i1 0) B0) (hY : F.Holds m' (F.cell1d u' i0 i1 ugcw) Y) (ht : F.Rows m' (F.offset0 o 1 3) F.points1)
    (hz : Cleared (fun c : BcCall T => F.onSeg1 c.lo c.hi c.face) l V Y) :
    ∃ m0 m1 m2 s1 s2 s3 s4, inOrder (fun c : BcCall T => Cuda.setBc1d i0 i1 dx 0 b0 gcw u c.lo c.hi c.order c.face c.btype c.alpha c.beta c.sched) l m = .ok m0 ∧ Cuda.flux1d i0 i1 dx b0 gcw u f0 β1 m0 = .ok m1 ∧ Cuda.diffusionV1Apply1d i0 i1 alpha beta dx agcw a gcw u f0 rgcw res β2 m1 = .ok m2 ∧
      Cuda.offdiag1d i0 i1 i0 i1 dx beta b0' sgcw st β3 m' = .ok s1 ∧ (l.map BcCall.side1).foldlM (fun m s => Cuda.adjOffdiag1d i0 i1 s.i0 s.i1 s.side s.btype s.order dx 2 neu beta b0' sgcw st (βs s) m) s1 = .ok s2 ∧ Cuda.v1diag1d i0 i1 (i0 - agcw') (i1 + agcw') alpha a' sgcw st β4 s2 = .ok s3 ∧
      (l.map BcCall.side1).foldlM (fun m s => Cuda.adjDiag1d i0 i1 s.i0 s.i1 s.side s.btype s.order dx beta b0' sgcw st (βs s) m) s3 = .ok s3 ∧ Cuda.dotOffset1d st sgcw u' ugcw v vgcw o i0 i1 3 β5 s3 = .ok s4 ∧
      ∀ i, i0 ≤ i → i ≤ i1 → ∃ r, F.El m2 (F.cell1d res i0 i1 rgcw) [i] r ∧ F.El s4 (F.cell1d v i0 i1 vgcw) [i] r := by
  have hfill := C90_1d (dx := dx) hwi hg (le_refl 0) hu (fun c hcl => thin1_along (hl c hcl)) (apart_separate hs) (h1.sub (ins' := [(F.face1d b0 i0 i1 0)]) (by simp) (by simp)) hV hB0 hc
  obtain ⟨m0, V', e0, ch, hV', hful⟩ := hfill
  have hY' := hful Y hz.1 hz.2
  have same : ∀ c ∈ l, _ := fun c hcl => thin1_same (dx := dx) (B0 := B0) hwi.le (hl c hcl) (hr c hcl) (fun h4 => ((hc c hcl).2.2 h4).1)
  have hF := fulfils_of hY' same
  have hcell : ∀ c ∈ l, ∀ p, (c.side1.piece dx B0).cells p → (fun c : BcCall T => F.onSeg1 c.lo c.hi c.face) c (F.shift p (F.row F.points1 (c.side1.piece dx B0).ghost)) := fun c hcl p hp => by
    obtain ⟨t1, t2, -⟩ := same c hcl
    rw [← t2]
    exact ((t1 p).2 hp).2
  have hd : F.Disjoint ((l.map BcCall.side1).map (F.Side1.piece dx B0)) := by
    rw [List.map_map]
    exact apart_disjoint hs hcell
  obtain ⟨m1, m2, R, c1, c2, E, hR⟩ := energy_v1_1 (alpha := alpha) (beta := beta) (dx := dx) hβ1 hβ2 hwi.le hg hag hrg (ch.args h2) hrf
    (ch.keeps (h1.apart _ (by simp) _ (by simp)) hA) (ch.keeps (h1.apart _ (by simp) _ (by simp)) hB0) hV'
  have hnoseg : ∀ c ∈ l, ∀ p, F.InBounds [(i0, i1)] p → ¬ (fun c : BcCall T => F.onSeg1 c.lo c.hi c.face) c p := fun c hcl p hp hsg => by
    obtain ⟨ht, -⟩ := hl c hcl
    obtain ⟨i, rfl, hp⟩ := F.inBounds1.1 hp
    simp only [F.onSeg1, List.cons.injEq, and_true] at hsg
    rcases ht with ht | ht <;> obtain ⟨hf, ht⟩ := ht <;> rw [hf] at hsg <;> simp at hsg <;> omega
  have hYV : ∀ p, F.InBounds [(i0, i1)] p → Y p = V' p := fun p hp => by
    have hin : F.InBounds (F.cell1d u i0 i1 gcw).dims p := by
      obtain ⟨i, rfl, hp⟩ := F.inBounds1.1 hp
      exact F.inBounds1.2 ⟨i, rfl, by omega⟩
    rw [hz.2 p fun c hcl => hnoseg c hcl p hp, changes_same ch hV hV' hin fun ⟨c, hcl, hsg⟩ => hnoseg c hcl p hp hsg]
  obtain ⟨s1, s2, s3, s4, d1, d2, d3, d4, d5, E'⟩ := mat_v1_1 (neu := neu) (alpha := alpha) (beta := beta) (dx := dx) (sides := (l.map BcCall.side1)) (D := Y) (X := V') (o := o) (βs := βs) hβ3 hβ4 hβ5 hβs hwi.le hag' hsg hug hvg
    (fun s hsm => by
      obtain ⟨c, hcl, rfl⟩ := List.mem_map.1 hsm
      exact thin1_layer hwi.le (hl c hcl) (hu c hcl))
    (fun s hsm => by
      obtain ⟨c, hcl, rfl⟩ := List.mem_map.1 hsm
      exact thin1_out (hl c hcl))
    (fun s hsm => by
      obtain ⟨c, hcl, rfl⟩ := List.mem_map.1 hsm
      exact (hc c hcl).1)
    hd
    (fun s hsm h4 p hp => by
      obtain ⟨c, hcl, rfl⟩ := List.mem_map.1 hsm
      obtain ⟨t1, t2, t3, t4, t5, t6⟩ := same c hcl
      rw [← t5, ← t6 h4 p ((t1 p).2 hp)]
      exact ((hc c hcl).2.2 h4).2 p ((t1 p).2 hp))
    h3 hvs hA' hB0' hY ht (by rw [List.map_map]; exact hF) hYV (fun _ _ => rfl)
  refine ⟨m0, m1, m2, s1, s2, s3, s4, e0 l (List.Perm.refl l), c1, c2, d1, d2, d3, d4, d5, fun i hi0 hi1 => ⟨_, ?_, E' i hi0 hi1⟩⟩
  rw [← hR i hi0 hi1]
  exact E _ (F.inBounds1.2 ⟨i, rfl, by omega⟩)

example :=
  C91_v1_1d (T := Rat) (l := [exFill (exSeg (-1) 0 0) (exSeg (-1) 0 0) 0 4, exFill (exSeg 4 0 0) (exSeg 4 0 0) 1 0]) (m := exSolve 1) (m' := exSolve 1) (i0 := 0) (i1 := 3) (dx := exDx) (alpha := 3) (beta := 2) (neu := 3) (a := ⟨0, 0⟩) (a' := ⟨0, 0⟩) (agcw := 1) (agcw' := 1) (u := ⟨1, 0⟩) (u' := ⟨1, 0⟩) (b0 := ⟨2, 0⟩) (b0' := ⟨2, 0⟩) (f0 := ⟨5, 0⟩) (res := ⟨8, 0⟩) (st := ⟨9, 0⟩) (v := ⟨11, 0⟩) (o := ⟨21, 0⟩) (gcw := 2) (rgcw := 1) (sgcw := 1) (ugcw := 2) (vgcw := 1)
    (βs := fun _ => seqBackend) (fun _ => revBackend_ok) (fun _ => seqBackend_ok) revBackend_ok seqBackend_ok revBackend_ok (fun _ => seqBackend_ok) (by decide) (by decide) (by decide) (by decide) (by decide) (by decide) (by decide) (by decide)
    (by ex_fusable) (by ex_thin) (by ex_nocommon) (by ex_solvable1 (fun _ => exRd_nonneg)) (by norm_num [exFill])
    (exSolve_args (by ex_args)) (exSolve_args (by ex_args)) (apart_blk (by decide)) (exSolve_rd (by decide) (exRat_ok rfl (by decide) (by decide))) (exSolve_rd (by decide) (exRat_ok rfl (by decide) (by decide))) exSolve_u1 (exSolve_args (by ex_args)) (apart_blk (by decide)) (exSolve_rd (by decide) (exRat_ok rfl (by decide) (by decide))) (exSolve_rd (by decide) (exRat_ok rfl (by decide) (by decide))) exSolve_u1 exSolve_t1
    (by ex_cleared1)

/-- v2, 1D: from a field on a box at least two cells wide, `cd_correct_bc_1d_cuda::set_bc` for segments of its boundary without common cells, then the flux and the apply kernel, on the one hand, and the kernels that assemble the off-diagonal coefficients, adjust them for these segments and assemble the diagonal, then `dot_offset`, applied to the field with 0 in the segments, on the other hand, leave the same values in every cell of the box. The conditions are homogeneous of first order, Robin conditions with `alpha = 2 beta`, which the kernels that adjust the coefficients take for granted. -/
theorem C91_v2_1d {i0 i1 gcw rgcw sgcw ugcw vgcw : Int} {alpha beta neu : T} {dx : Nat → T} {b0 b0' f0 u u' res st v o : Ptr} {β1 β2 : Nat → Backend} {β3 β4 β5 : Backend} {βs : F.Side1 → Backend}
    {l : List (BcCall T)} {m m' : Mem T} {B0 V Y : List Int → T}
    (hβ1 : ∀ n, ValidBackend (β1 n)) (hβ2 : ∀ n, ValidBackend (β2 n)) (hβ3 : ValidBackend β3) (hβ4 : ValidBackend β4) (hβ5 : ValidBackend β5) (hβs : ∀ s, ValidBackend (βs s)) (hwi : i0 < i1)
    (hg : 1 ≤ gcw) (hrg : 0 ≤ rgcw) (hsg : 0 ≤ sgcw) (hug : 1 ≤ ugcw) (hvg : 0 ≤ vgcw)
    (hu : ∀ c ∈ l, c.Usable 1) (hl : ∀ c ∈ l, c.Thin1 i0 i1) (hs : NoCommon (fun c : BcCall T => F.onSeg1 c.lo c.hi c.face) l) (hc : ∀ c ∈ l, c.Solvable (c.piece1 i0 i1 dx B0))
    (hr : ∀ c ∈ l, c.btype = 4 → c.alpha = 2 * c.beta)
    (h1 : F.Args m [(F.face1d b0 i0 i1 0)] [(F.cell1d u i0 i1 gcw)]) (h2 : F.Args m [(F.cell1d u i0 i1 gcw), (F.face1d b0 i0 i1 0)] [(F.face1d f0 i0 i1 0), (F.cell1d res i0 i1 rgcw)])
    (hrf : F.Apart (F.cell1d res i0 i1 rgcw) (F.face1d f0 i0 i1 0))
    (hB0 : F.Holds m (F.face1d b0 i0 i1 0) B0) (hV : F.Holds m (F.cell1d u i0 i1 gcw) V)
    (h3 : F.Args m' [(F.face1d b0' i0 i1 0), (F.cell1d u' i0 i1 ugcw)] [(F.st1d st i0 i1 sgcw), (F.cell1d v i0 i1 vgcw)]) (hvs : F.Apart (F.cell1d v i0 i1 vgcw) (F.st1d st i0 i1 sgcw))
    (hB0' : F.Holds m' (F.face1d b0' i0 i1 0) B0) (hY : F.Holds m' (F.cell1d u' i0 i1 ugcw) Y) (ht : F.Rows m' (F.offset0 o 1 3) F.points1)
    (hz : Cleared (fun c : BcCall T => F.onSeg1 c.lo c.hi c.face) l V Y) :
    ∃ m0 m1 m2 s1 s2 s3 s4, inOrder (fun c : BcCall T => Cuda.setBc1d i0 i1 dx 0 b0 gcw u c.lo c.hi c.order c.face c.btype c.alpha c.beta c.sched) l m = .ok m0 ∧ Cuda.flux1d i0 i1 dx b0 gcw u f0 β1 m0 = .ok m1 ∧ Cuda.diffusionV2Apply1d i0 i1 alpha beta dx gcw u f0 rgcw res β2 m1 = .ok m2 ∧
      Cuda.offdiag1d i0 i1 i0 i1 dx beta b0' sgcw st β3 m' = .ok s1 ∧ (l.map BcCall.side1).foldlM (fun m s => Cuda.adjOffdiag1d i0 i1 s.i0 s.i1 s.side s.btype s.order dx 2 neu beta b0' sgcw st (βs s) m) s1 = .ok s2 ∧ Cuda.v2diag1d i0 i1 alpha sgcw st β4 s2 = .ok s3 ∧
      (l.map BcCall.side1).foldlM (fun m s => Cuda.adjDiag1d i0 i1 s.i0 s.i1 s.side s.btype s.order dx beta b0' sgcw st (βs s) m) s3 = .ok s3 ∧ Cuda.dotOffset1d st sgcw u' ugcw v vgcw o i0 i1 3 β5 s3 = .ok s4 ∧
      ∀ i, i0 ≤ i → i ≤ i1 → ∃ r, F.El m2 (F.cell1d res i0 i1 rgcw) [i] r ∧ F.El s4 (F.cell1d v i0 i1 vgcw) [i] r := by
  have hfill := C90_1d (dx := dx) hwi hg (le_refl 0) hu (fun c hcl => thin1_along (hl c hcl)) (apart_separate hs) (h1.sub (ins' := [(F.face1d b0 i0 i1 0)]) (by simp) (by simp)) hV hB0 hc
  obtain ⟨m0, V', e0, ch, hV', hful⟩ := hfill
  have hY' := hful Y hz.1 hz.2
  have same : ∀ c ∈ l, _ := fun c hcl => thin1_same (dx := dx) (B0 := B0) hwi.le (hl c hcl) (hr c hcl) (fun h4 => ((hc c hcl).2.2 h4).1)
  have hF := fulfils_of hY' same
  have hcell : ∀ c ∈ l, ∀ p, (c.side1.piece dx B0).cells p → (fun c : BcCall T => F.onSeg1 c.lo c.hi c.face) c (F.shift p (F.row F.points1 (c.side1.piece dx B0).ghost)) := fun c hcl p hp => by
    obtain ⟨t1, t2, -⟩ := same c hcl
    rw [← t2]
    exact ((t1 p).2 hp).2
  have hd : F.Disjoint ((l.map BcCall.side1).map (F.Side1.piece dx B0)) := by
    rw [List.map_map]
    exact apart_disjoint hs hcell
  obtain ⟨m1, m2, R, c1, c2, E, hR⟩ := energy_v2_1 (alpha := alpha) (beta := beta) (dx := dx) hβ1 hβ2 hwi.le hg hrg (ch.args h2) hrf
    (ch.keeps (h1.apart _ (by simp) _ (by simp)) hB0) hV'
  have hnoseg : ∀ c ∈ l, ∀ p, F.InBounds [(i0, i1)] p → ¬ (fun c : BcCall T => F.onSeg1 c.lo c.hi c.face) c p := fun c hcl p hp hsg => by
    obtain ⟨ht, -⟩ := hl c hcl
    obtain ⟨i, rfl, hp⟩ := F.inBounds1.1 hp
    simp only [F.onSeg1, List.cons.injEq, and_true] at hsg
    rcases ht with ht | ht <;> obtain ⟨hf, ht⟩ := ht <;> rw [hf] at hsg <;> simp at hsg <;> omega
  have hYV : ∀ p, F.InBounds [(i0, i1)] p → Y p = V' p := fun p hp => by
    have hin : F.InBounds (F.cell1d u i0 i1 gcw).dims p := by
      obtain ⟨i, rfl, hp⟩ := F.inBounds1.1 hp
      exact F.inBounds1.2 ⟨i, rfl, by omega⟩
    rw [hz.2 p fun c hcl => hnoseg c hcl p hp, changes_same ch hV hV' hin fun ⟨c, hcl, hsg⟩ => hnoseg c hcl p hp hsg]
  obtain ⟨s1, s2, s3, s4, d1, d2, d3, d4, d5, E'⟩ := mat_v2_1 (neu := neu) (alpha := alpha) (beta := beta) (dx := dx) (sides := (l.map BcCall.side1)) (D := Y) (X := V') (o := o) (βs := βs) hβ3 hβ4 hβ5 hβs hwi.le hsg hug hvg
    (fun s hsm => by
      obtain ⟨c, hcl, rfl⟩ := List.mem_map.1 hsm
      exact thin1_layer hwi.le (hl c hcl) (hu c hcl))
    (fun s hsm => by
      obtain ⟨c, hcl, rfl⟩ := List.mem_map.1 hsm
      exact thin1_out (hl c hcl))
    (fun s hsm => by
      obtain ⟨c, hcl, rfl⟩ := List.mem_map.1 hsm
      exact (hc c hcl).1)
    hd
    (fun s hsm h4 p hp => by
      obtain ⟨c, hcl, rfl⟩ := List.mem_map.1 hsm
      obtain ⟨t1, t2, t3, t4, t5, t6⟩ := same c hcl
      rw [← t5, ← t6 h4 p ((t1 p).2 hp)]
      exact ((hc c hcl).2.2 h4).2 p ((t1 p).2 hp))
    h3 hvs hB0' hY ht (by rw [List.map_map]; exact hF) hYV (fun _ _ => rfl)
  refine ⟨m0, m1, m2, s1, s2, s3, s4, e0 l (List.Perm.refl l), c1, c2, d1, d2, d3, d4, d5, fun i hi0 hi1 => ⟨_, ?_, E' i hi0 hi1⟩⟩
  rw [← hR i hi0 hi1]
  exact E _ (F.inBounds1.2 ⟨i, rfl, by omega⟩)

example :=
  C91_v2_1d (T := Rat) (l := [exFill (exSeg (-1) 0 0) (exSeg (-1) 0 0) 0 4, exFill (exSeg 4 0 0) (exSeg 4 0 0) 1 0]) (m := exSolve 1) (m' := exSolve 1) (i0 := 0) (i1 := 3) (dx := exDx) (alpha := 3) (beta := 2) (neu := 3) (u := ⟨1, 0⟩) (u' := ⟨1, 0⟩) (b0 := ⟨2, 0⟩) (b0' := ⟨2, 0⟩) (f0 := ⟨5, 0⟩) (res := ⟨8, 0⟩) (st := ⟨9, 0⟩) (v := ⟨11, 0⟩) (o := ⟨21, 0⟩) (gcw := 2) (rgcw := 1) (sgcw := 1) (ugcw := 2) (vgcw := 1)
    (βs := fun _ => seqBackend) (fun _ => revBackend_ok) (fun _ => seqBackend_ok) revBackend_ok seqBackend_ok revBackend_ok (fun _ => seqBackend_ok) (by decide)  (by decide) (by decide) (by decide) (by decide) (by decide)
    (by ex_fusable) (by ex_thin) (by ex_nocommon) (by ex_solvable1 (fun _ => exRd_nonneg)) (by norm_num [exFill])
    (exSolve_args (by ex_args)) (exSolve_args (by ex_args)) (apart_blk (by decide)) (exSolve_rd (by decide) (exRat_ok rfl (by decide) (by decide))) exSolve_u1 (exSolve_args (by ex_args)) (apart_blk (by decide)) (exSolve_rd (by decide) (exRat_ok rfl (by decide) (by decide))) exSolve_u1 exSolve_t1
    (by ex_cleared1)

/-- v1, 2D: from a field on a box at least two cells wide, `cd_correct_bc_2d_cuda::set_bc` for segments of its boundary without common cells, then the flux and the apply kernel, on the one hand, and the kernels that assemble the off-diagonal coefficients, adjust them for these segments and assemble the diagonal, then `dot_offset`, applied to the field with 0 in the segments, on the other hand, leave the same values in every cell of the box. The conditions are homogeneous of first order, Robin conditions with `alpha = 2 beta`, which the kernels that adjust the coefficients take for granted. Robin conditions only across the first direction: the kernel that adjusts the coefficients is wrong across the second. -/
theorem C91_v1_2d_partial {i0 j0 i1 j1 agcw agcw' gcw rgcw sgcw ugcw vgcw : Int} {alpha beta neu : T} {dx : Nat → T} {a a' b0 b1 b0' b1' f0 f1 u u' res st v o : Ptr} {β1 β2 : Nat → Backend} {β3 β4 β5 : Backend} {βs : F.Side2 → Backend}
    {l : List (BcCall T)} {m m' : Mem T} {A B0 B1 V Y : List Int → T}
    (hβ1 : ∀ n, ValidBackend (β1 n)) (hβ2 : ∀ n, ValidBackend (β2 n)) (hβ3 : ValidBackend β3) (hβ4 : ValidBackend β4) (hβ5 : ValidBackend β5) (hβs : ∀ s, ValidBackend (βs s)) (hwi : i0 < i1) (hwj : j0 < j1)
    (hag : 0 ≤ agcw) (hag' : 0 ≤ agcw') (hg : 1 ≤ gcw) (hrg : 0 ≤ rgcw) (hsg : 0 ≤ sgcw) (hug : 1 ≤ ugcw) (hvg : 0 ≤ vgcw)
    (hu : ∀ c ∈ l, c.Usable 2) (hl : ∀ c ∈ l, c.Thin2 i0 j0 i1 j1) (hs : NoCommon (fun c : BcCall T => F.onSeg2 c.lo c.hi 1 c.face) l) (hc : ∀ c ∈ l, c.Solvable (c.piece2 i0 j0 i1 j1 dx B0 B1))
    (hr : ∀ c ∈ l, c.btype = 4 → c.alpha = 2 * c.beta) (hrob : ∀ c ∈ l, c.btype = 4 → c.face < 2)
    (h1 : F.Args m [(F.cell2d a i0 j0 i1 j1 agcw), (F.face2d0 b0 i0 j0 i1 j1 0), (F.face2d1 b1 i0 j0 i1 j1 0)] [(F.cell2d u i0 j0 i1 j1 gcw)]) (h2 : F.Args m [(F.cell2d a i0 j0 i1 j1 agcw), (F.cell2d u i0 j0 i1 j1 gcw), (F.face2d0 b0 i0 j0 i1 j1 0), (F.face2d1 b1 i0 j0 i1 j1 0)] [(F.face2d0 f0 i0 j0 i1 j1 0), (F.face2d1 f1 i0 j0 i1 j1 0), (F.cell2d res i0 j0 i1 j1 rgcw)])
    (hff : F.Apart (F.face2d0 f0 i0 j0 i1 j1 0) (F.face2d1 f1 i0 j0 i1 j1 0)) (hrf : F.Apart (F.cell2d res i0 j0 i1 j1 rgcw) (F.face2d0 f0 i0 j0 i1 j1 0) ∧ F.Apart (F.cell2d res i0 j0 i1 j1 rgcw) (F.face2d1 f1 i0 j0 i1 j1 0))
    (hA : F.Holds m (F.cell2d a i0 j0 i1 j1 agcw) A) (hB0 : F.Holds m (F.face2d0 b0 i0 j0 i1 j1 0) B0) (hB1 : F.Holds m (F.face2d1 b1 i0 j0 i1 j1 0) B1) (hV : F.Holds m (F.cell2d u i0 j0 i1 j1 gcw) V)
    (h3 : F.Args m' [(F.cell2d a' i0 j0 i1 j1 agcw'), (F.face2d0 b0' i0 j0 i1 j1 0), (F.face2d1 b1' i0 j0 i1 j1 0), (F.cell2d u' i0 j0 i1 j1 ugcw)] [(F.st2d st i0 j0 i1 j1 sgcw), (F.cell2d v i0 j0 i1 j1 vgcw)]) (hvs : F.Apart (F.cell2d v i0 j0 i1 j1 vgcw) (F.st2d st i0 j0 i1 j1 sgcw))
    (hA' : F.Holds m' (F.cell2d a' i0 j0 i1 j1 agcw') A) (hB0' : F.Holds m' (F.face2d0 b0' i0 j0 i1 j1 0) B0) (hB1' : F.Holds m' (F.face2d1 b1' i0 j0 i1 j1 0) B1) (hY : F.Holds m' (F.cell2d u' i0 j0 i1 j1 ugcw) Y) (ht : F.Rows m' (F.offset0 o 2 5) F.points2)
    (hz : Cleared (fun c : BcCall T => F.onSeg2 c.lo c.hi 1 c.face) l V Y) :
    ∃ m0 m1 m2 s1 s2 s3 s4, inOrder (fun c : BcCall T => Cuda.setBc2d i0 i1 j0 j1 dx 0 b0 b1 gcw u c.lo c.hi c.order c.face 1 c.btype c.alpha c.beta c.sched) l m = .ok m0 ∧ Cuda.flux2d i0 j0 i1 j1 dx b0 b1 gcw u f0 f1 β1 m0 = .ok m1 ∧ Cuda.diffusionV1Apply2d i0 i1 j0 j1 alpha beta dx agcw a gcw u f0 f1 rgcw res β2 m1 = .ok m2 ∧
      Cuda.offdiag2d i0 j0 i1 j1 i0 j0 i1 j1 dx beta b0' b1' sgcw st β3 m' = .ok s1 ∧ (l.map BcCall.side2).foldlM (fun m s => Cuda.adjOffdiag2d i0 j0 i1 j1 s.i0 s.j0 s.i1 s.j1 s.dir s.side s.btype s.order dx 2 neu beta b0' b1' sgcw st (βs s) m) s1 = .ok s2 ∧ Cuda.v1diag2d i0 j0 i1 j1 (i0 - agcw') (j0 - agcw') (i1 + agcw') (j1 + agcw') alpha a' sgcw st β4 s2 = .ok s3 ∧
      (l.map BcCall.side2).foldlM (fun m s => Cuda.adjDiag2d i0 j0 i1 j1 s.i0 s.j0 s.i1 s.j1 s.dir s.side s.btype s.order dx beta b0' b1' sgcw st (βs s) m) s3 = .ok s3 ∧ Cuda.dotOffset2d st sgcw u' ugcw v vgcw o i0 i1 j0 j1 5 β5 s3 = .ok s4 ∧
      ∀ i j, i0 ≤ i → i ≤ i1 → j0 ≤ j → j ≤ j1 → ∃ r, F.El m2 (F.cell2d res i0 j0 i1 j1 rgcw) [i, j] r ∧ F.El s4 (F.cell2d v i0 j0 i1 j1 vgcw) [i, j] r := by
  have hfill := C90_2d (dx := dx) hwi hwj hg (le_refl 0) hu (fun c hcl => thin2_along (hl c hcl)) (apart_separate hs) (h1.sub (ins' := [(F.face2d0 b0 i0 j0 i1 j1 0), (F.face2d1 b1 i0 j0 i1 j1 0)]) (by simp) (by simp)) hV hB0 hB1 hc
  obtain ⟨m0, V', e0, ch, hV', hful⟩ := hfill
  have hY' := hful Y hz.1 hz.2
  have same : ∀ c ∈ l, _ := fun c hcl => thin2_same (dx := dx) (B0 := B0) (B1 := B1) hwi.le hwj.le (hl c hcl) (hr c hcl) (fun h4 => ((hc c hcl).2.2 h4).1)
  have hF := fulfils_of hY' same
  have hcell : ∀ c ∈ l, ∀ p, (c.side2.piece dx B0 B1).cells p → (fun c : BcCall T => F.onSeg2 c.lo c.hi 1 c.face) c (F.shift p (F.row F.points2 (c.side2.piece dx B0 B1).ghost)) := fun c hcl p hp => by
    obtain ⟨t1, t2, -⟩ := same c hcl
    rw [← t2]
    exact ((t1 p).2 hp).2
  have hd : F.Disjoint ((l.map BcCall.side2).map (F.Side2.piece dx B0 B1)) := by
    rw [List.map_map]
    exact apart_disjoint hs hcell
  obtain ⟨m1, m2, R, c1, c2, E, hR⟩ := energy_v1_2 (alpha := alpha) (beta := beta) (dx := dx) hβ1 hβ2 hwi.le hwj.le hg hag hrg (ch.args h2) hff hrf
    (ch.keeps (h1.apart _ (by simp) _ (by simp)) hA) (ch.keeps (h1.apart _ (by simp) _ (by simp)) hB0) (ch.keeps (h1.apart _ (by simp) _ (by simp)) hB1) hV'
  have hnoseg : ∀ c ∈ l, ∀ p, F.InBounds [(i0, i1), (j0, j1)] p → ¬ (fun c : BcCall T => F.onSeg2 c.lo c.hi 1 c.face) c p := fun c hcl p hp hsg => by
    obtain ⟨ht, -⟩ := hl c hcl
    obtain ⟨i, j, rfl, hp⟩ := F.inBounds2.1 hp
    obtain ⟨i', j', e, hsg⟩ := hsg
    simp only [List.cons.injEq, and_true] at e
    unfold Spec.Part at ht
    rcases ht with ht | ht | ht | ht <;> obtain ⟨hf, ht⟩ := ht <;> rw [hf] at hsg <;> simp at hsg <;> omega
  have hYV : ∀ p, F.InBounds [(i0, i1), (j0, j1)] p → Y p = V' p := fun p hp => by
    have hin : F.InBounds (F.cell2d u i0 j0 i1 j1 gcw).dims p := by
      obtain ⟨i, j, rfl, hp⟩ := F.inBounds2.1 hp
      exact F.inBounds2.2 ⟨i, j, rfl, by omega⟩
    rw [hz.2 p fun c hcl => hnoseg c hcl p hp, changes_same ch hV hV' hin fun ⟨c, hcl, hsg⟩ => hnoseg c hcl p hp hsg]
  obtain ⟨s1, s2, s3, s4, d1, d2, d3, d4, d5, E'⟩ := mat_v1_2 (neu := neu) (alpha := alpha) (beta := beta) (dx := dx) (sides := (l.map BcCall.side2)) (D := Y) (X := V') (o := o) (βs := βs) hβ3 hβ4 hβ5 hβs hwi.le hwj.le hag' hsg hug hvg
    (fun s hsm => by
      obtain ⟨c, hcl, rfl⟩ := List.mem_map.1 hsm
      exact thin2_layer hwi.le hwj.le (hl c hcl) (hu c hcl))
    (fun s hsm => by
      obtain ⟨c, hcl, rfl⟩ := List.mem_map.1 hsm
      exact thin2_out (hl c hcl))
    (fun s hsm => by
      obtain ⟨c, hcl, rfl⟩ := List.mem_map.1 hsm
      exact (hc c hcl).1)
    (fun s hsm h4 => by
      obtain ⟨c, hcl, rfl⟩ := List.mem_map.1 hsm
      have h5 := hrob c hcl h4
      obtain ⟨ht, -⟩ := hl c hcl
      show c.face / 2 = 0
      omega)
    hd
    (fun s hsm h4 p hp => by
      obtain ⟨c, hcl, rfl⟩ := List.mem_map.1 hsm
      obtain ⟨t1, t2, t3, t4, t5, t6⟩ := same c hcl
      rw [← t5, ← t6 h4 p ((t1 p).2 hp)]
      exact ((hc c hcl).2.2 h4).2 p ((t1 p).2 hp))
    h3 hvs hA' hB0' hB1' hY ht (by rw [List.map_map]; exact hF) hYV (fun _ _ => rfl)
  refine ⟨m0, m1, m2, s1, s2, s3, s4, e0 l (List.Perm.refl l), c1, c2, d1, d2, d3, d4, d5, fun i j hi0 hi1 hj0 hj1 => ⟨_, ?_, E' i j hi0 hi1 hj0 hj1⟩⟩
  rw [← hR i j hi0 hi1 hj0 hj1]
  exact E _ (F.inBounds2.2 ⟨i, j, rfl, by omega⟩)

example :=
  C91_v1_2d_partial (T := Rat) (l := [exFill (exSeg (-1) 1 0) (exSeg (-1) 1 0) 0 4, exFill (exSeg (-1) 2 0) (exSeg (-1) 3 0) 0 1, exFill (exSeg 3 2 0) (exSeg 3 3 0) 1 0, exFill (exSeg 0 4 0) (exSeg 2 4 0) 3 0]) (m := exSolve 2) (m' := exSolve 2) (i0 := 0) (i1 := 2) (j0 := 1) (j1 := 3) (dx := exDx) (alpha := 3) (beta := 2) (neu := 3) (a := ⟨0, 0⟩) (a' := ⟨0, 0⟩) (agcw := 1) (agcw' := 1) (u := ⟨1, 0⟩) (u' := ⟨1, 0⟩) (b0 := ⟨2, 0⟩) (b0' := ⟨2, 0⟩) (f0 := ⟨5, 0⟩) (b1 := ⟨3, 0⟩) (b1' := ⟨3, 0⟩) (f1 := ⟨6, 0⟩) (res := ⟨8, 0⟩) (st := ⟨9, 0⟩) (v := ⟨11, 0⟩) (o := ⟨22, 0⟩) (gcw := 2) (rgcw := 1) (sgcw := 1) (ugcw := 2) (vgcw := 1)
    (βs := fun _ => seqBackend) (fun _ => revBackend_ok) (fun _ => seqBackend_ok) revBackend_ok seqBackend_ok revBackend_ok (fun _ => seqBackend_ok) (by decide) (by decide) (by decide) (by decide) (by decide) (by decide) (by decide) (by decide) (by decide)
    (by ex_fusable) (by ex_thin) (by ex_nocommon) (by ex_solvable2 (fun _ => exRd_nonneg)) (by norm_num [exFill]) (by simp [exFill])
    (exSolve_args (by ex_args)) (exSolve_args (by ex_args)) (apart_blk (by decide)) ⟨apart_blk (by decide), apart_blk (by decide)⟩ (exSolve_rd (by decide) (exRat_ok rfl (by decide) (by decide))) (exSolve_rd (by decide) (exRat_ok rfl (by decide) (by decide))) (exSolve_rd (by decide) (exRat_ok rfl (by decide) (by decide))) exSolve_u2 (exSolve_args (by ex_args)) (apart_blk (by decide)) (exSolve_rd (by decide) (exRat_ok rfl (by decide) (by decide))) (exSolve_rd (by decide) (exRat_ok rfl (by decide) (by decide))) (exSolve_rd (by decide) (exRat_ok rfl (by decide) (by decide))) exSolve_u2 exSolve_t2
    (by ex_cleared2)

/-- v2, 2D: from a field on a box at least two cells wide, `cd_correct_bc_2d_cuda::set_bc` for segments of its boundary without common cells, then the flux and the apply kernel, on the one hand, and the kernels that assemble the off-diagonal coefficients, adjust them for these segments and assemble the diagonal, then `dot_offset`, applied to the field with 0 in the segments, on the other hand, leave the same values in every cell of the box. The conditions are homogeneous of first order, Robin conditions with `alpha = 2 beta`, which the kernels that adjust the coefficients take for granted. Robin conditions only across the first direction: the kernel that adjusts the coefficients is wrong across the second. -/
theorem C91_v2_2d_partial {i0 j0 i1 j1 gcw rgcw sgcw ugcw vgcw : Int} {alpha beta neu : T} {dx : Nat → T} {b0 b1 b0' b1' f0 f1 u u' res st v o : Ptr} {β1 β2 : Nat → Backend} {β3 β4 β5 : Backend} {βs : F.Side2 → Backend}
    {l : List (BcCall T)} {m m' : Mem T} {B0 B1 V Y : List Int → T}
    (hβ1 : ∀ n, ValidBackend (β1 n)) (hβ2 : ∀ n, ValidBackend (β2 n)) (hβ3 : ValidBackend β3) (hβ4 : ValidBackend β4) (hβ5 : ValidBackend β5) (hβs : ∀ s, ValidBackend (βs s)) (hwi : i0 < i1) (hwj : j0 < j1)
    (hg : 1 ≤ gcw) (hrg : 0 ≤ rgcw) (hsg : 0 ≤ sgcw) (hug : 1 ≤ ugcw) (hvg : 0 ≤ vgcw)
    (hu : ∀ c ∈ l, c.Usable 2) (hl : ∀ c ∈ l, c.Thin2 i0 j0 i1 j1) (hs : NoCommon (fun c : BcCall T => F.onSeg2 c.lo c.hi 1 c.face) l) (hc : ∀ c ∈ l, c.Solvable (c.piece2 i0 j0 i1 j1 dx B0 B1))
    (hr : ∀ c ∈ l, c.btype = 4 → c.alpha = 2 * c.beta) (hrob : ∀ c ∈ l, c.btype = 4 → c.face < 2)
    (h1 : F.Args m [(F.face2d0 b0 i0 j0 i1 j1 0), (F.face2d1 b1 i0 j0 i1 j1 0)] [(F.cell2d u i0 j0 i1 j1 gcw)]) (h2 : F.Args m [(F.cell2d u i0 j0 i1 j1 gcw), (F.face2d0 b0 i0 j0 i1 j1 0), (F.face2d1 b1 i0 j0 i1 j1 0)] [(F.face2d0 f0 i0 j0 i1 j1 0), (F.face2d1 f1 i0 j0 i1 j1 0), (F.cell2d res i0 j0 i1 j1 rgcw)])
    (hff : F.Apart (F.face2d0 f0 i0 j0 i1 j1 0) (F.face2d1 f1 i0 j0 i1 j1 0)) (hrf : F.Apart (F.cell2d res i0 j0 i1 j1 rgcw) (F.face2d0 f0 i0 j0 i1 j1 0) ∧ F.Apart (F.cell2d res i0 j0 i1 j1 rgcw) (F.face2d1 f1 i0 j0 i1 j1 0))
    (hB0 : F.Holds m (F.face2d0 b0 i0 j0 i1 j1 0) B0) (hB1 : F.Holds m (F.face2d1 b1 i0 j0 i1 j1 0) B1) (hV : F.Holds m (F.cell2d u i0 j0 i1 j1 gcw) V)
    (h3 : F.Args m' [(F.face2d0 b0' i0 j0 i1 j1 0), (F.face2d1 b1' i0 j0 i1 j1 0), (F.cell2d u' i0 j0 i1 j1 ugcw)] [(F.st2d st i0 j0 i1 j1 sgcw), (F.cell2d v i0 j0 i1 j1 vgcw)]) (hvs : F.Apart (F.cell2d v i0 j0 i1 j1 vgcw) (F.st2d st i0 j0 i1 j1 sgcw))
    (hB0' : F.Holds m' (F.face2d0 b0' i0 j0 i1 j1 0) B0) (hB1' : F.Holds m' (F.face2d1 b1' i0 j0 i1 j1 0) B1) (hY : F.Holds m' (F.cell2d u' i0 j0 i1 j1 ugcw) Y) (ht : F.Rows m' (F.offset0 o 2 5) F.points2)
    (hz : Cleared (fun c : BcCall T => F.onSeg2 c.lo c.hi 1 c.face) l V Y) :
    ∃ m0 m1 m2 s1 s2 s3 s4, inOrder (fun c : BcCall T => Cuda.setBc2d i0 i1 j0 j1 dx 0 b0 b1 gcw u c.lo c.hi c.order c.face 1 c.btype c.alpha c.beta c.sched) l m = .ok m0 ∧ Cuda.flux2d i0 j0 i1 j1 dx b0 b1 gcw u f0 f1 β1 m0 = .ok m1 ∧ Cuda.diffusionV2Apply2d i0 i1 j0 j1 alpha beta dx gcw u f0 f1 rgcw res β2 m1 = .ok m2 ∧
      Cuda.offdiag2d i0 j0 i1 j1 i0 j0 i1 j1 dx beta b0' b1' sgcw st β3 m' = .ok s1 ∧ (l.map BcCall.side2).foldlM (fun m s => Cuda.adjOffdiag2d i0 j0 i1 j1 s.i0 s.j0 s.i1 s.j1 s.dir s.side s.btype s.order dx 2 neu beta b0' b1' sgcw st (βs s) m) s1 = .ok s2 ∧ Cuda.v2diag2d i0 j0 i1 j1 alpha sgcw st β4 s2 = .ok s3 ∧
      (l.map BcCall.side2).foldlM (fun m s => Cuda.adjDiag2d i0 j0 i1 j1 s.i0 s.j0 s.i1 s.j1 s.dir s.side s.btype s.order dx beta b0' b1' sgcw st (βs s) m) s3 = .ok s3 ∧ Cuda.dotOffset2d st sgcw u' ugcw v vgcw o i0 i1 j0 j1 5 β5 s3 = .ok s4 ∧
      ∀ i j, i0 ≤ i → i ≤ i1 → j0 ≤ j → j ≤ j1 → ∃ r, F.El m2 (F.cell2d res i0 j0 i1 j1 rgcw) [i, j] r ∧ F.El s4 (F.cell2d v i0 j0 i1 j1 vgcw) [i, j] r := by
  have hfill := C90_2d (dx := dx) hwi hwj hg (le_refl 0) hu (fun c hcl => thin2_along (hl c hcl)) (apart_separate hs) (h1.sub (ins' := [(F.face2d0 b0 i0 j0 i1 j1 0), (F.face2d1 b1 i0 j0 i1 j1 0)]) (by simp) (by simp)) hV hB0 hB1 hc
  obtain ⟨m0, V', e0, ch, hV', hful⟩ := hfill
  have hY' := hful Y hz.1 hz.2
  have same : ∀ c ∈ l, _ := fun c hcl => thin2_same (dx := dx) (B0 := B0) (B1 := B1) hwi.le hwj.le (hl c hcl) (hr c hcl) (fun h4 => ((hc c hcl).2.2 h4).1)
  have hF := fulfils_of hY' same
  have hcell : ∀ c ∈ l, ∀ p, (c.side2.piece dx B0 B1).cells p → (fun c : BcCall T => F.onSeg2 c.lo c.hi 1 c.face) c (F.shift p (F.row F.points2 (c.side2.piece dx B0 B1).ghost)) := fun c hcl p hp => by
    obtain ⟨t1, t2, -⟩ := same c hcl
    rw [← t2]
    exact ((t1 p).2 hp).2
  have hd : F.Disjoint ((l.map BcCall.side2).map (F.Side2.piece dx B0 B1)) := by
    rw [List.map_map]
    exact apart_disjoint hs hcell
  obtain ⟨m1, m2, R, c1, c2, E, hR⟩ := energy_v2_2 (alpha := alpha) (beta := beta) (dx := dx) hβ1 hβ2 hwi.le hwj.le hg hrg (ch.args h2) hff hrf
    (ch.keeps (h1.apart _ (by simp) _ (by simp)) hB0) (ch.keeps (h1.apart _ (by simp) _ (by simp)) hB1) hV'
  have hnoseg : ∀ c ∈ l, ∀ p, F.InBounds [(i0, i1), (j0, j1)] p → ¬ (fun c : BcCall T => F.onSeg2 c.lo c.hi 1 c.face) c p := fun c hcl p hp hsg => by
    obtain ⟨ht, -⟩ := hl c hcl
    obtain ⟨i, j, rfl, hp⟩ := F.inBounds2.1 hp
    obtain ⟨i', j', e, hsg⟩ := hsg
    simp only [List.cons.injEq, and_true] at e
    unfold Spec.Part at ht
    rcases ht with ht | ht | ht | ht <;> obtain ⟨hf, ht⟩ := ht <;> rw [hf] at hsg <;> simp at hsg <;> omega
  have hYV : ∀ p, F.InBounds [(i0, i1), (j0, j1)] p → Y p = V' p := fun p hp => by
    have hin : F.InBounds (F.cell2d u i0 j0 i1 j1 gcw).dims p := by
      obtain ⟨i, j, rfl, hp⟩ := F.inBounds2.1 hp
      exact F.inBounds2.2 ⟨i, j, rfl, by omega⟩
    rw [hz.2 p fun c hcl => hnoseg c hcl p hp, changes_same ch hV hV' hin fun ⟨c, hcl, hsg⟩ => hnoseg c hcl p hp hsg]
  obtain ⟨s1, s2, s3, s4, d1, d2, d3, d4, d5, E'⟩ := mat_v2_2 (neu := neu) (alpha := alpha) (beta := beta) (dx := dx) (sides := (l.map BcCall.side2)) (D := Y) (X := V') (o := o) (βs := βs) hβ3 hβ4 hβ5 hβs hwi.le hwj.le hsg hug hvg
    (fun s hsm => by
      obtain ⟨c, hcl, rfl⟩ := List.mem_map.1 hsm
      exact thin2_layer hwi.le hwj.le (hl c hcl) (hu c hcl))
    (fun s hsm => by
      obtain ⟨c, hcl, rfl⟩ := List.mem_map.1 hsm
      exact thin2_out (hl c hcl))
    (fun s hsm => by
      obtain ⟨c, hcl, rfl⟩ := List.mem_map.1 hsm
      exact (hc c hcl).1)
    (fun s hsm h4 => by
      obtain ⟨c, hcl, rfl⟩ := List.mem_map.1 hsm
      have h5 := hrob c hcl h4
      obtain ⟨ht, -⟩ := hl c hcl
      show c.face / 2 = 0
      omega)
    hd
    (fun s hsm h4 p hp => by
      obtain ⟨c, hcl, rfl⟩ := List.mem_map.1 hsm
      obtain ⟨t1, t2, t3, t4, t5, t6⟩ := same c hcl
      rw [← t5, ← t6 h4 p ((t1 p).2 hp)]
      exact ((hc c hcl).2.2 h4).2 p ((t1 p).2 hp))
    h3 hvs hB0' hB1' hY ht (by rw [List.map_map]; exact hF) hYV (fun _ _ => rfl)
  refine ⟨m0, m1, m2, s1, s2, s3, s4, e0 l (List.Perm.refl l), c1, c2, d1, d2, d3, d4, d5, fun i j hi0 hi1 hj0 hj1 => ⟨_, ?_, E' i j hi0 hi1 hj0 hj1⟩⟩
  rw [← hR i j hi0 hi1 hj0 hj1]
  exact E _ (F.inBounds2.2 ⟨i, j, rfl, by omega⟩)

example :=
  C91_v2_2d_partial (T := Rat) (l := [exFill (exSeg (-1) 1 0) (exSeg (-1) 1 0) 0 4, exFill (exSeg (-1) 2 0) (exSeg (-1) 3 0) 0 1, exFill (exSeg 3 2 0) (exSeg 3 3 0) 1 0, exFill (exSeg 0 4 0) (exSeg 2 4 0) 3 0]) (m := exSolve 2) (m' := exSolve 2) (i0 := 0) (i1 := 2) (j0 := 1) (j1 := 3) (dx := exDx) (alpha := 3) (beta := 2) (neu := 3) (u := ⟨1, 0⟩) (u' := ⟨1, 0⟩) (b0 := ⟨2, 0⟩) (b0' := ⟨2, 0⟩) (f0 := ⟨5, 0⟩) (b1 := ⟨3, 0⟩) (b1' := ⟨3, 0⟩) (f1 := ⟨6, 0⟩) (res := ⟨8, 0⟩) (st := ⟨9, 0⟩) (v := ⟨11, 0⟩) (o := ⟨22, 0⟩) (gcw := 2) (rgcw := 1) (sgcw := 1) (ugcw := 2) (vgcw := 1)
    (βs := fun _ => seqBackend) (fun _ => revBackend_ok) (fun _ => seqBackend_ok) revBackend_ok seqBackend_ok revBackend_ok (fun _ => seqBackend_ok) (by decide) (by decide)  (by decide) (by decide) (by decide) (by decide) (by decide)
    (by ex_fusable) (by ex_thin) (by ex_nocommon) (by ex_solvable2 (fun _ => exRd_nonneg)) (by norm_num [exFill]) (by simp [exFill])
    (exSolve_args (by ex_args)) (exSolve_args (by ex_args)) (apart_blk (by decide)) ⟨apart_blk (by decide), apart_blk (by decide)⟩ (exSolve_rd (by decide) (exRat_ok rfl (by decide) (by decide))) (exSolve_rd (by decide) (exRat_ok rfl (by decide) (by decide))) exSolve_u2 (exSolve_args (by ex_args)) (apart_blk (by decide)) (exSolve_rd (by decide) (exRat_ok rfl (by decide) (by decide))) (exSolve_rd (by decide) (exRat_ok rfl (by decide) (by decide))) exSolve_u2 exSolve_t2
    (by ex_cleared2)

/-- Robin conditions across the second direction: the kernels that adjust the coefficients leave them as they are (src/cuda/cd_stencil_2d_cuda.cpp:405-410), and the two ways give different values, from the same contents, with all hypotheses of `C91_v2_2d_partial` but the one on the directions. -/
theorem C91_v2_2d_false : ∃ c : BcCall Rat, c.Usable 2 ∧ c.Thin2 0 1 2 3 ∧ c.Solvable (c.piece2 0 1 2 3 exDx (exRd (F.face2d0 ⟨2, 0⟩ 0 1 2 3 0)) (exRd (F.face2d1 ⟨3, 0⟩ 0 1 2 3 0))) ∧ c.alpha = 2 * c.beta ∧
    Cleared (fun c : BcCall Rat => F.onSeg2 c.lo c.hi 1 c.face) [c] (exIns 2 5) (exIns 2 5) ∧
    F.Holds (exSolve 2) (F.face2d0 ⟨2, 0⟩ 0 1 2 3 0) (exRd (F.face2d0 ⟨2, 0⟩ 0 1 2 3 0)) ∧ F.Holds (exSolve 2) (F.face2d1 ⟨3, 0⟩ 0 1 2 3 0) (exRd (F.face2d1 ⟨3, 0⟩ 0 1 2 3 0)) ∧
    F.Holds (exSolve 2) (F.cell2d ⟨1, 0⟩ 0 1 2 3 2) (exIns 2 5) ∧
    ∃ m2 s4 x y, (inOrder (fun c : BcCall Rat => Cuda.setBc2d 0 2 1 3 exDx 0 ⟨2, 0⟩ ⟨3, 0⟩ 2 ⟨1, 0⟩ c.lo c.hi c.order c.face 1 c.btype c.alpha c.beta c.sched) [c] (exSolve 2) >>= fun m0 =>
        Cuda.flux2d 0 1 2 3 exDx ⟨2, 0⟩ ⟨3, 0⟩ 2 ⟨1, 0⟩ ⟨5, 0⟩ ⟨6, 0⟩ (fun _ => revBackend) m0 >>= fun m1 =>
        Cuda.diffusionV2Apply2d 0 2 1 3 3 2 exDx 2 ⟨1, 0⟩ ⟨5, 0⟩ ⟨6, 0⟩ 1 ⟨8, 0⟩ (fun _ => seqBackend) m1) = .ok m2 ∧
      (Cuda.offdiag2d 0 1 2 3 0 1 2 3 exDx 2 ⟨2, 0⟩ ⟨3, 0⟩ 1 ⟨9, 0⟩ seqBackend (exSolve 2) >>= fun s1 =>
        Cuda.adjOffdiag2d 0 1 2 3 c.side2.i0 c.side2.j0 c.side2.i1 c.side2.j1 c.side2.dir c.side2.side c.side2.btype c.side2.order exDx 2 3 2 ⟨2, 0⟩ ⟨3, 0⟩ 1 ⟨9, 0⟩ seqBackend s1 >>= fun s2 =>
        Cuda.v2diag2d 0 1 2 3 3 1 ⟨9, 0⟩ seqBackend s2 >>= fun s3 =>
        Cuda.adjDiag2d 0 1 2 3 c.side2.i0 c.side2.j0 c.side2.i1 c.side2.j1 c.side2.dir c.side2.side c.side2.btype c.side2.order exDx 2 ⟨2, 0⟩ ⟨3, 0⟩ 1 ⟨9, 0⟩ seqBackend s3 >>= fun s3 =>
        Cuda.dotOffset2d ⟨9, 0⟩ 1 ⟨1, 0⟩ 2 ⟨11, 0⟩ 1 ⟨22, 0⟩ 0 2 1 3 5 seqBackend s3) = .ok s4 ∧
      F.El m2 (F.cell2d ⟨8, 0⟩ 0 1 2 3 1) [0, 1] x ∧ F.El s4 (F.cell2d ⟨11, 0⟩ 0 1 2 3 1) [0, 1] y ∧ x ≠ y := by
  refine ⟨exFill (exSeg 0 0 0) (exSeg 2 0 0) 2 4, ?_, ?_, ?_, by norm_num [exFill], ?_, exSolve_rd (by decide) (exRat_ok rfl (by decide) (by decide)), exSolve_rd (by decide) (exRat_ok rfl (by decide) (by decide)), exSolve_u2, ?_⟩
  · have : ∀ c ∈ [exFill (exSeg 0 0 0) (exSeg 2 0 0) 2 4], c.Usable 2 := by ex_fusable
    exact this _ (by simp)
  · have : ∀ c ∈ [exFill (exSeg 0 0 0) (exSeg 2 0 0) 2 4], c.Thin2 0 1 2 3 := by ex_thin
    exact this _ (by simp)
  · exact exSolvable (by simp [F.First, exFill]) (exDx_pos _) (exOn2 (fun _ => exRd_nonneg) (fun _ => exRd_nonneg) _ _) (by norm_num [exFill]) (by norm_num [exFill])
  · refine ⟨?_, fun _ _ => rfl⟩
    intro c hc p hp
    refine exIns_zero2 p fun hb => ?_
    obtain ⟨i, j, hi, hb⟩ := F.inBounds2.1 hb
    subst hi
    rw [List.mem_singleton] at hc
    rw [hc] at hp
    simp [F.onSeg2, exFill, exSeg] at hp
    omega
  · have h1 : leaves (inOrder (fun c : BcCall Rat => Cuda.setBc2d 0 2 1 3 exDx 0 ⟨2, 0⟩ ⟨3, 0⟩ 2 ⟨1, 0⟩ c.lo c.hi c.order c.face 1 c.btype c.alpha c.beta c.sched) [exFill (exSeg 0 0 0) (exSeg 2 0 0) 2 4] (exSolve 2) >>= fun m0 =>
        Cuda.flux2d 0 1 2 3 exDx ⟨2, 0⟩ ⟨3, 0⟩ 2 ⟨1, 0⟩ ⟨5, 0⟩ ⟨6, 0⟩ (fun _ => revBackend) m0 >>= fun m1 =>
        Cuda.diffusionV2Apply2d 0 2 1 3 3 2 exDx 2 ⟨1, 0⟩ ⟨5, 0⟩ ⟨6, 0⟩ 1 ⟨8, 0⟩ (fun _ => seqBackend) m1) ((F.cell2d ⟨8, 0⟩ 0 1 2 3 1).addrT [0, 1]) = some (some (98885 / 171)) := by decide +kernel
    have h2 : leaves (Cuda.offdiag2d 0 1 2 3 0 1 2 3 exDx 2 ⟨2, 0⟩ ⟨3, 0⟩ 1 ⟨9, 0⟩ seqBackend (exSolve 2) >>= fun s1 => Cuda.adjOffdiag2d 0 1 2 3 0 0 2 0 1 0 4 1 exDx 2 3 2 ⟨2, 0⟩ ⟨3, 0⟩ 1 ⟨9, 0⟩ seqBackend s1 >>= fun s2 =>
        Cuda.v2diag2d 0 1 2 3 3 1 ⟨9, 0⟩ seqBackend s2 >>= fun s3 => Cuda.adjDiag2d 0 1 2 3 0 0 2 0 1 0 4 1 exDx 2 ⟨2, 0⟩ ⟨3, 0⟩ 1 ⟨9, 0⟩ seqBackend s3 >>= fun s3 =>
        Cuda.dotOffset2d ⟨9, 0⟩ 1 ⟨1, 0⟩ 2 ⟨11, 0⟩ 1 ⟨22, 0⟩ 0 2 1 3 5 seqBackend s3) ((F.cell2d ⟨11, 0⟩ 0 1 2 3 1).addrT [0, 1]) = some (some (2005 / 3)) := by decide +kernel
    obtain ⟨m2, e1, v1⟩ := leaves_eq h1
    obtain ⟨s4, e2, v2⟩ := leaves_eq h2
    exact ⟨m2, s4, _, _, e1, e2, ⟨by decide, v1⟩, ⟨by decide, v2⟩, by norm_num⟩

end Verif
