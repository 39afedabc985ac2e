import Verif.Lemmas.WallsEx

/-
The operators on a box together with the boundary condition kernels.
-/

set_option linter.unusedVariables false
set_option linter.unusedSimpArgs false

namespace Verif
open Spec

section
variable {T : Type} [Field T] [CharZero T]

/-- 3D, diffusion operator with cell coefficients: `set_bc` for segments of the boundary, the flux and the apply kernel, on fields `U` and `V` that are zero in the ghost cells that belong to no segment, give `R` and `S` with `∑ V R = ∑ U S`. -/
theorem C92_v1_3d {i0 j0 k0 i1 j1 k1 agcw gcw rgcw : Int} {alpha beta : T} {dx : Nat → T} {a b0 b1 b2 f0 f1 f2 u res : Ptr} {β1 β2 β3 β4 : Nat → Backend} {l : List (BcCall T)} {m m' : Mem T} {A B0 B1 B2 U V : List Int → T}
    (hβ1 : ∀ n, ValidBackend (β1 n)) (hβ2 : ∀ n, ValidBackend (β2 n)) (hβ3 : ∀ n, ValidBackend (β3 n)) (hβ4 : ∀ n, ValidBackend (β4 n)) (hwi : i0 < i1) (hwj : j0 < j1) (hwk : k0 < k1) (hag : 0 ≤ agcw) (hg : 1 ≤ gcw) (hrg : 0 ≤ rgcw)
    (hu : ∀ c ∈ l, c.Usable 3) (hl : ∀ c ∈ l, c.Along3 1 i0 j0 k0 i1 j1 k1) (hs : ∀ c ∈ l, ∀ d ∈ l, Separate (fun c : BcCall T => F.onSeg3 c.lo c.hi 1 c.face) c d) (hc : ∀ c ∈ l, c.Solvable (c.piece3 i0 j0 k0 i1 j1 k1 dx B0 B1 B2))
    (h1 : F.Args m [(F.cell3d a i0 j0 k0 i1 j1 k1 agcw), (F.face3d0 b0 i0 j0 k0 i1 j1 k1 0), (F.face3d1 b1 i0 j0 k0 i1 j1 k1 0), (F.face3d2 b2 i0 j0 k0 i1 j1 k1 0)] [(F.cell3d u i0 j0 k0 i1 j1 k1 gcw)]) (h2 : F.Args m [(F.cell3d a i0 j0 k0 i1 j1 k1 agcw), (F.cell3d u i0 j0 k0 i1 j1 k1 gcw), (F.face3d0 b0 i0 j0 k0 i1 j1 k1 0), (F.face3d1 b1 i0 j0 k0 i1 j1 k1 0), (F.face3d2 b2 i0 j0 k0 i1 j1 k1 0)] [(F.face3d0 f0 i0 j0 k0 i1 j1 k1 0), (F.face3d1 f1 i0 j0 k0 i1 j1 k1 0), (F.face3d2 f2 i0 j0 k0 i1 j1 k1 0), (F.cell3d res i0 j0 k0 i1 j1 k1 rgcw)])
    (hpf : F.Apart (F.face3d0 f0 i0 j0 k0 i1 j1 k1 0) (F.face3d1 f1 i0 j0 k0 i1 j1 k1 0) ∧ F.Apart (F.face3d0 f0 i0 j0 k0 i1 j1 k1 0) (F.face3d2 f2 i0 j0 k0 i1 j1 k1 0) ∧ F.Apart (F.face3d1 f1 i0 j0 k0 i1 j1 k1 0) (F.face3d2 f2 i0 j0 k0 i1 j1 k1 0)) (hrf : F.Apart (F.cell3d res i0 j0 k0 i1 j1 k1 rgcw) (F.face3d0 f0 i0 j0 k0 i1 j1 k1 0) ∧ F.Apart (F.cell3d res i0 j0 k0 i1 j1 k1 rgcw) (F.face3d1 f1 i0 j0 k0 i1 j1 k1 0) ∧ F.Apart (F.cell3d res i0 j0 k0 i1 j1 k1 rgcw) (F.face3d2 f2 i0 j0 k0 i1 j1 k1 0))
    (hA : F.Holds m (F.cell3d a i0 j0 k0 i1 j1 k1 agcw) A) (hB0 : F.Holds m (F.face3d0 b0 i0 j0 k0 i1 j1 k1 0) B0) (hB1 : F.Holds m (F.face3d1 b1 i0 j0 k0 i1 j1 k1 0) B1) (hB2 : F.Holds m (F.face3d2 b2 i0 j0 k0 i1 j1 k1 0) B2) (hU : F.Holds m (F.cell3d u i0 j0 k0 i1 j1 k1 gcw) U)
    (h1' : F.Args m' [(F.cell3d a i0 j0 k0 i1 j1 k1 agcw), (F.face3d0 b0 i0 j0 k0 i1 j1 k1 0), (F.face3d1 b1 i0 j0 k0 i1 j1 k1 0), (F.face3d2 b2 i0 j0 k0 i1 j1 k1 0)] [(F.cell3d u i0 j0 k0 i1 j1 k1 gcw)]) (h2' : F.Args m' [(F.cell3d a i0 j0 k0 i1 j1 k1 agcw), (F.cell3d u i0 j0 k0 i1 j1 k1 gcw), (F.face3d0 b0 i0 j0 k0 i1 j1 k1 0), (F.face3d1 b1 i0 j0 k0 i1 j1 k1 0), (F.face3d2 b2 i0 j0 k0 i1 j1 k1 0)] [(F.face3d0 f0 i0 j0 k0 i1 j1 k1 0), (F.face3d1 f1 i0 j0 k0 i1 j1 k1 0), (F.face3d2 f2 i0 j0 k0 i1 j1 k1 0), (F.cell3d res i0 j0 k0 i1 j1 k1 rgcw)])
    (hA' : F.Holds m' (F.cell3d a i0 j0 k0 i1 j1 k1 agcw) A) (hB0' : F.Holds m' (F.face3d0 b0 i0 j0 k0 i1 j1 k1 0) B0) (hB1' : F.Holds m' (F.face3d1 b1 i0 j0 k0 i1 j1 k1 0) B1) (hB2' : F.Holds m' (F.face3d2 b2 i0 j0 k0 i1 j1 k1 0) B2) (hV : F.Holds m' (F.cell3d u i0 j0 k0 i1 j1 k1 gcw) V)
    (hz : ∀ g, Uncovered (fun c : BcCall T => F.onSeg3 c.lo c.hi 1 c.face) l [(i0, i1), (j0, j1), (k0, k1)] 7 (F.row F.points3) g → U g = 0) (hz' : ∀ g, Uncovered (fun c : BcCall T => F.onSeg3 c.lo c.hi 1 c.face) l [(i0, i1), (j0, j1), (k0, k1)] 7 (F.row F.points3) g → V g = 0) :
    ∃ m0 m1 m2 m0' m1' m2', ∃ R S : List Int → T, inOrder (fun c : BcCall T => Cuda.setBc3d i0 i1 j0 j1 k0 k1 dx 0 b0 b1 b2 gcw u c.lo c.hi c.order c.face 1 c.btype c.alpha c.beta c.sched) l m = .ok m0 ∧ Cuda.flux3d i0 j0 k0 i1 j1 k1 dx b0 b1 b2 gcw u f0 f1 f2 β1 m0 = .ok m1 ∧ Cuda.diffusionV1Apply3d i0 i1 j0 j1 k0 k1 alpha beta dx agcw a gcw u f0 f1 f2 rgcw res β2 m1 = .ok m2 ∧
      inOrder (fun c : BcCall T => Cuda.setBc3d i0 i1 j0 j1 k0 k1 dx 0 b0 b1 b2 gcw u c.lo c.hi c.order c.face 1 c.btype c.alpha c.beta c.sched) l m' = .ok m0' ∧ Cuda.flux3d i0 j0 k0 i1 j1 k1 dx b0 b1 b2 gcw u f0 f1 f2 β3 m0' = .ok m1' ∧ Cuda.diffusionV1Apply3d i0 i1 j0 j1 k0 k1 alpha beta dx agcw a gcw u f0 f1 f2 rgcw res β4 m1' = .ok m2' ∧
      (∀ p, F.InBounds [(i0, i1), (j0, j1), (k0, k1)] p → F.El m2 (F.cell3d res i0 j0 k0 i1 j1 k1 rgcw) p (R p)) ∧ (∀ p, F.InBounds [(i0, i1), (j0, j1), (k0, k1)] p → F.El m2' (F.cell3d res i0 j0 k0 i1 j1 k1 rgcw) p (S p)) ∧
      (F.sum i0 i1 fun i => F.sum j0 j1 fun j => F.sum k0 k1 fun k => V [i, j, k] * R [i, j, k]) = (F.sum i0 i1 fun i => F.sum j0 j1 fun j => F.sum k0 k1 fun k => U [i, j, k] * S [i, j, k]) := by
  obtain ⟨m0, m1, m2, X, R, a0, a1, a2, E, hin, hR, hj⟩ := wall_v1_3 (alpha := alpha) (beta := beta) hβ1 hβ2 hwi hwj hwk hag hg hrg hu hl hs hc h1 h2 hpf hrf hA hB0 hB1 hB2 hU
  obtain ⟨m0', m1', m2', Z, S, a0', a1', a2', E', hin', hR', hj'⟩ := wall_v1_3 (alpha := alpha) (beta := beta) hβ3 hβ4 hwi hwj hwk hag hg hrg hu hl hs hc h1' h2' hpf hrf hA' hB0' hB1' hB2' hV
  have wX : F.Walled [(i0, i1), (j0, j1), (k0, k1)] 7 (F.row F.points3) (F.jump (l.map (fun c : BcCall T => c.piece3 i0 j0 k0 i1 j1 k1 dx B0 B1 B2))) X := fun p hp e e0 e1 ho => by
    rcases hj p hp e e0 e1 ho with ⟨jn, j⟩ | ⟨j1, j2, j3⟩
    · exact j
    · rw [j1, j3, hz _ j2, sub_self, zero_mul]
  have wZ : F.Walled [(i0, i1), (j0, j1), (k0, k1)] 7 (F.row F.points3) (F.jump (l.map (fun c : BcCall T => c.piece3 i0 j0 k0 i1 j1 k1 dx B0 B1 B2))) Z := fun p hp e e0 e1 ho => by
    rcases hj' p hp e e0 e1 ho with ⟨jn, j⟩ | ⟨j1, j2, j3⟩
    · exact j
    · rw [j1, j3, hz' _ j2, sub_self, zero_mul]
  refine ⟨m0, m1, m2, m0', m1', m2', R, S, a0, a1, a2, a0', a1', a2', E, E', ?_⟩
  have e1 : (F.sum i0 i1 fun i => F.sum j0 j1 fun j => F.sum k0 k1 fun k => V [i, j, k] * R [i, j, k]) = F.form3 i0 j0 k0 i1 j1 k1 alpha beta dx A B0 B1 B2 X (F.cutTo [(i0, i1), (j0, j1), (k0, k1)] Z) := by
    rw [← F.weak3 hwi.le hwj.le hwk.le (fun p hp => F.cutTo_out hp)]
    exact F.sum_congr fun i hi0 hi1 => F.sum_congr fun j hj0 hj1 => F.sum_congr fun k hk0 hk1 => by
      have hp : F.InBounds [(i0, i1), (j0, j1), (k0, k1)] [i, j, k] := F.inBounds3.2 ⟨i, j, k, rfl, by omega⟩
      rw [F.cutTo_in hp, hin' _ hp, hR i j k hi0 hi1 hj0 hj1 hk0 hk1]
  have e2 : (F.sum i0 i1 fun i => F.sum j0 j1 fun j => F.sum k0 k1 fun k => U [i, j, k] * S [i, j, k]) = F.form3 i0 j0 k0 i1 j1 k1 alpha beta dx A B0 B1 B2 Z (F.cutTo [(i0, i1), (j0, j1), (k0, k1)] X) := by
    rw [← F.weak3 hwi.le hwj.le hwk.le (fun p hp => F.cutTo_out hp)]
    exact F.sum_congr fun i hi0 hi1 => F.sum_congr fun j hj0 hj1 => F.sum_congr fun k hk0 hk1 => by
      have hp : F.InBounds [(i0, i1), (j0, j1), (k0, k1)] [i, j, k] := F.inBounds3.2 ⟨i, j, k, rfl, by omega⟩
      rw [F.cutTo_in hp, hin _ hp, hR' i j k hi0 hi1 hj0 hj1 hk0 hk1]
  rw [e1, e2]
  exact wX.symm3 hwi.le hwj.le hwk.le wZ

example :=
  C92_v1_3d (T := Rat) (l := [exFill (exSeg (-1) 1 2) (exSeg (-1) 2 2) 0 4, exFill (exSeg (-1) 1 3) (exSeg (-1) 1 3) 0 1, exFill (exSeg 0 3 2) (exSeg 1 3 3) 3 0, exFill (exSeg 0 2 1) (exSeg 1 2 1) 4 4]) (i0 := 0) (i1 := 1) (j0 := 1) (j1 := 2) (k0 := 2) (k1 := 3) (dx := exDx) (alpha := 3) (beta := 2) (gcw := 2) (rgcw := 1) (u := ⟨1, 0⟩) (res := ⟨8, 0⟩) (a := ⟨0, 0⟩) (agcw := 1) (b0 := ⟨2, 0⟩) (f0 := ⟨5, 0⟩) (b1 := ⟨3, 0⟩) (f1 := ⟨6, 0⟩) (b2 := ⟨4, 0⟩) (f2 := ⟨7, 0⟩) (U := exBump 3 5) (m := exFun (exCase3 (exBump 3 5))) (V := exBump 3 40) (m' := exFun (exCase3 (exBump 3 40)))
    (fun _ => revBackend_ok) (fun _ => seqBackend_ok) (fun _ => seqBackend_ok) (fun _ => revBackend_ok) (by decide) (by decide) (by decide) (by decide) (by decide) (by decide)
    (by ex_fusable) (by ex_falong) (by ex_fseparate) (by ex_solvable3 (fun _ => exRd_nonneg))
    (exFun_args (by ex_args)) (exFun_args (by ex_args)) ⟨apart_blk (by decide), apart_blk (by decide), apart_blk (by decide)⟩ ⟨apart_blk (by decide), apart_blk (by decide), apart_blk (by decide)⟩ (exFun_holds rfl rfl (exRat_ok rfl (by decide) (by decide))) (exFun_holds rfl rfl (exRat_ok rfl (by decide) (by decide))) (exFun_holds rfl rfl (exRat_ok rfl (by decide) (by decide))) (exFun_holds rfl rfl (exRat_ok rfl (by decide) (by decide))) (exFun_holds rfl rfl (exRat_ok rfl (by decide) (by decide)))
    (exFun_args (by ex_args)) (exFun_args (by ex_args)) (exFun_holds rfl rfl (exRat_ok rfl (by decide) (by decide))) (exFun_holds rfl rfl (exRat_ok rfl (by decide) (by decide))) (exFun_holds rfl rfl (exRat_ok rfl (by decide) (by decide))) (exFun_holds rfl rfl (exRat_ok rfl (by decide) (by decide))) (exFun_holds rfl rfl (exRat_ok rfl (by decide) (by decide)))
    (fun g hg => exBump_zero3 g hg.1) (fun g hg => exBump_zero3 g hg.1)

/-- 3D, diffusion operator with constant reaction: `set_bc` for segments of the boundary, the flux and the apply kernel, on fields `U` and `V` that are zero in the ghost cells that belong to no segment, give `R` and `S` with `∑ V R = ∑ U S`. -/
theorem C92_v2_3d {i0 j0 k0 i1 j1 k1 gcw rgcw : Int} {alpha beta : T} {dx : Nat → T} {b0 b1 b2 f0 f1 f2 u res : Ptr} {β1 β2 β3 β4 : Nat → Backend} {l : List (BcCall T)} {m m' : Mem T} {B0 B1 B2 U V : List Int → T}
    (hβ1 : ∀ n, ValidBackend (β1 n)) (hβ2 : ∀ n, ValidBackend (β2 n)) (hβ3 : ∀ n, ValidBackend (β3 n)) (hβ4 : ∀ n, ValidBackend (β4 n)) (hwi : i0 < i1) (hwj : j0 < j1) (hwk : k0 < k1) (hg : 1 ≤ gcw) (hrg : 0 ≤ rgcw)
    (hu : ∀ c ∈ l, c.Usable 3) (hl : ∀ c ∈ l, c.Along3 1 i0 j0 k0 i1 j1 k1) (hs : ∀ c ∈ l, ∀ d ∈ l, Separate (fun c : BcCall T => F.onSeg3 c.lo c.hi 1 c.face) c d) (hc : ∀ c ∈ l, c.Solvable (c.piece3 i0 j0 k0 i1 j1 k1 dx B0 B1 B2))
    (h1 : F.Args m [(F.face3d0 b0 i0 j0 k0 i1 j1 k1 0), (F.face3d1 b1 i0 j0 k0 i1 j1 k1 0), (F.face3d2 b2 i0 j0 k0 i1 j1 k1 0)] [(F.cell3d u i0 j0 k0 i1 j1 k1 gcw)]) (h2 : F.Args m [(F.cell3d u i0 j0 k0 i1 j1 k1 gcw), (F.face3d0 b0 i0 j0 k0 i1 j1 k1 0), (F.face3d1 b1 i0 j0 k0 i1 j1 k1 0), (F.face3d2 b2 i0 j0 k0 i1 j1 k1 0)] [(F.face3d0 f0 i0 j0 k0 i1 j1 k1 0), (F.face3d1 f1 i0 j0 k0 i1 j1 k1 0), (F.face3d2 f2 i0 j0 k0 i1 j1 k1 0), (F.cell3d res i0 j0 k0 i1 j1 k1 rgcw)])
    (hpf : F.Apart (F.face3d0 f0 i0 j0 k0 i1 j1 k1 0) (F.face3d1 f1 i0 j0 k0 i1 j1 k1 0) ∧ F.Apart (F.face3d0 f0 i0 j0 k0 i1 j1 k1 0) (F.face3d2 f2 i0 j0 k0 i1 j1 k1 0) ∧ F.Apart (F.face3d1 f1 i0 j0 k0 i1 j1 k1 0) (F.face3d2 f2 i0 j0 k0 i1 j1 k1 0)) (hrf : F.Apart (F.cell3d res i0 j0 k0 i1 j1 k1 rgcw) (F.face3d0 f0 i0 j0 k0 i1 j1 k1 0) ∧ F.Apart (F.cell3d res i0 j0 k0 i1 j1 k1 rgcw) (F.face3d1 f1 i0 j0 k0 i1 j1 k1 0) ∧ F.Apart (F.cell3d res i0 j0 k0 i1 j1 k1 rgcw) (F.face3d2 f2 i0 j0 k0 i1 j1 k1 0))
    (hB0 : F.Holds m (F.face3d0 b0 i0 j0 k0 i1 j1 k1 0) B0) (hB1 : F.Holds m (F.face3d1 b1 i0 j0 k0 i1 j1 k1 0) B1) (hB2 : F.Holds m (F.face3d2 b2 i0 j0 k0 i1 j1 k1 0) B2) (hU : F.Holds m (F.cell3d u i0 j0 k0 i1 j1 k1 gcw) U)
    (h1' : F.Args m' [(F.face3d0 b0 i0 j0 k0 i1 j1 k1 0), (F.face3d1 b1 i0 j0 k0 i1 j1 k1 0), (F.face3d2 b2 i0 j0 k0 i1 j1 k1 0)] [(F.cell3d u i0 j0 k0 i1 j1 k1 gcw)]) (h2' : F.Args m' [(F.cell3d u i0 j0 k0 i1 j1 k1 gcw), (F.face3d0 b0 i0 j0 k0 i1 j1 k1 0), (F.face3d1 b1 i0 j0 k0 i1 j1 k1 0), (F.face3d2 b2 i0 j0 k0 i1 j1 k1 0)] [(F.face3d0 f0 i0 j0 k0 i1 j1 k1 0), (F.face3d1 f1 i0 j0 k0 i1 j1 k1 0), (F.face3d2 f2 i0 j0 k0 i1 j1 k1 0), (F.cell3d res i0 j0 k0 i1 j1 k1 rgcw)])
    (hB0' : F.Holds m' (F.face3d0 b0 i0 j0 k0 i1 j1 k1 0) B0) (hB1' : F.Holds m' (F.face3d1 b1 i0 j0 k0 i1 j1 k1 0) B1) (hB2' : F.Holds m' (F.face3d2 b2 i0 j0 k0 i1 j1 k1 0) B2) (hV : F.Holds m' (F.cell3d u i0 j0 k0 i1 j1 k1 gcw) V)
    (hz : ∀ g, Uncovered (fun c : BcCall T => F.onSeg3 c.lo c.hi 1 c.face) l [(i0, i1), (j0, j1), (k0, k1)] 7 (F.row F.points3) g → U g = 0) (hz' : ∀ g, Uncovered (fun c : BcCall T => F.onSeg3 c.lo c.hi 1 c.face) l [(i0, i1), (j0, j1), (k0, k1)] 7 (F.row F.points3) g → V g = 0) :
    ∃ m0 m1 m2 m0' m1' m2', ∃ R S : List Int → T, inOrder (fun c : BcCall T => Cuda.setBc3d i0 i1 j0 j1 k0 k1 dx 0 b0 b1 b2 gcw u c.lo c.hi c.order c.face 1 c.btype c.alpha c.beta c.sched) l m = .ok m0 ∧ Cuda.flux3d i0 j0 k0 i1 j1 k1 dx b0 b1 b2 gcw u f0 f1 f2 β1 m0 = .ok m1 ∧ Cuda.diffusionV2Apply3d i0 i1 j0 j1 k0 k1 alpha beta dx gcw u f0 f1 f2 rgcw res β2 m1 = .ok m2 ∧
      inOrder (fun c : BcCall T => Cuda.setBc3d i0 i1 j0 j1 k0 k1 dx 0 b0 b1 b2 gcw u c.lo c.hi c.order c.face 1 c.btype c.alpha c.beta c.sched) l m' = .ok m0' ∧ Cuda.flux3d i0 j0 k0 i1 j1 k1 dx b0 b1 b2 gcw u f0 f1 f2 β3 m0' = .ok m1' ∧ Cuda.diffusionV2Apply3d i0 i1 j0 j1 k0 k1 alpha beta dx gcw u f0 f1 f2 rgcw res β4 m1' = .ok m2' ∧
      (∀ p, F.InBounds [(i0, i1), (j0, j1), (k0, k1)] p → F.El m2 (F.cell3d res i0 j0 k0 i1 j1 k1 rgcw) p (R p)) ∧ (∀ p, F.InBounds [(i0, i1), (j0, j1), (k0, k1)] p → F.El m2' (F.cell3d res i0 j0 k0 i1 j1 k1 rgcw) p (S p)) ∧
      (F.sum i0 i1 fun i => F.sum j0 j1 fun j => F.sum k0 k1 fun k => V [i, j, k] * R [i, j, k]) = (F.sum i0 i1 fun i => F.sum j0 j1 fun j => F.sum k0 k1 fun k => U [i, j, k] * S [i, j, k]) := by
  obtain ⟨m0, m1, m2, X, R, a0, a1, a2, E, hin, hR, hj⟩ := wall_v2_3 (alpha := alpha) (beta := beta) hβ1 hβ2 hwi hwj hwk hg hrg hu hl hs hc h1 h2 hpf hrf hB0 hB1 hB2 hU
  obtain ⟨m0', m1', m2', Z, S, a0', a1', a2', E', hin', hR', hj'⟩ := wall_v2_3 (alpha := alpha) (beta := beta) hβ3 hβ4 hwi hwj hwk hg hrg hu hl hs hc h1' h2' hpf hrf hB0' hB1' hB2' hV
  have wX : F.Walled [(i0, i1), (j0, j1), (k0, k1)] 7 (F.row F.points3) (F.jump (l.map (fun c : BcCall T => c.piece3 i0 j0 k0 i1 j1 k1 dx B0 B1 B2))) X := fun p hp e e0 e1 ho => by
    rcases hj p hp e e0 e1 ho with ⟨jn, j⟩ | ⟨j1, j2, j3⟩
    · exact j
    · rw [j1, j3, hz _ j2, sub_self, zero_mul]
  have wZ : F.Walled [(i0, i1), (j0, j1), (k0, k1)] 7 (F.row F.points3) (F.jump (l.map (fun c : BcCall T => c.piece3 i0 j0 k0 i1 j1 k1 dx B0 B1 B2))) Z := fun p hp e e0 e1 ho => by
    rcases hj' p hp e e0 e1 ho with ⟨jn, j⟩ | ⟨j1, j2, j3⟩
    · exact j
    · rw [j1, j3, hz' _ j2, sub_self, zero_mul]
  refine ⟨m0, m1, m2, m0', m1', m2', R, S, a0, a1, a2, a0', a1', a2', E, E', ?_⟩
  have e1 : (F.sum i0 i1 fun i => F.sum j0 j1 fun j => F.sum k0 k1 fun k => V [i, j, k] * R [i, j, k]) = F.form3 i0 j0 k0 i1 j1 k1 alpha beta dx (fun _ => (1 : T)) B0 B1 B2 X (F.cutTo [(i0, i1), (j0, j1), (k0, k1)] Z) := by
    rw [← F.weak3 hwi.le hwj.le hwk.le (fun p hp => F.cutTo_out hp)]
    exact F.sum_congr fun i hi0 hi1 => F.sum_congr fun j hj0 hj1 => F.sum_congr fun k hk0 hk1 => by
      have hp : F.InBounds [(i0, i1), (j0, j1), (k0, k1)] [i, j, k] := F.inBounds3.2 ⟨i, j, k, rfl, by omega⟩
      rw [F.cutTo_in hp, hin' _ hp, hR i j k hi0 hi1 hj0 hj1 hk0 hk1]
  have e2 : (F.sum i0 i1 fun i => F.sum j0 j1 fun j => F.sum k0 k1 fun k => U [i, j, k] * S [i, j, k]) = F.form3 i0 j0 k0 i1 j1 k1 alpha beta dx (fun _ => (1 : T)) B0 B1 B2 Z (F.cutTo [(i0, i1), (j0, j1), (k0, k1)] X) := by
    rw [← F.weak3 hwi.le hwj.le hwk.le (fun p hp => F.cutTo_out hp)]
    exact F.sum_congr fun i hi0 hi1 => F.sum_congr fun j hj0 hj1 => F.sum_congr fun k hk0 hk1 => by
      have hp : F.InBounds [(i0, i1), (j0, j1), (k0, k1)] [i, j, k] := F.inBounds3.2 ⟨i, j, k, rfl, by omega⟩
      rw [F.cutTo_in hp, hin _ hp, hR' i j k hi0 hi1 hj0 hj1 hk0 hk1]
  rw [e1, e2]
  exact wX.symm3 hwi.le hwj.le hwk.le wZ

example :=
  C92_v2_3d (T := Rat) (l := [exFill (exSeg (-1) 1 2) (exSeg (-1) 2 2) 0 4, exFill (exSeg (-1) 1 3) (exSeg (-1) 1 3) 0 1, exFill (exSeg 0 3 2) (exSeg 1 3 3) 3 0, exFill (exSeg 0 2 1) (exSeg 1 2 1) 4 4]) (i0 := 0) (i1 := 1) (j0 := 1) (j1 := 2) (k0 := 2) (k1 := 3) (dx := exDx) (alpha := 3) (beta := 2) (gcw := 2) (rgcw := 1) (u := ⟨1, 0⟩) (res := ⟨8, 0⟩) (b0 := ⟨2, 0⟩) (f0 := ⟨5, 0⟩) (b1 := ⟨3, 0⟩) (f1 := ⟨6, 0⟩) (b2 := ⟨4, 0⟩) (f2 := ⟨7, 0⟩) (U := exBump 3 5) (m := exFun (exCase3 (exBump 3 5))) (V := exBump 3 40) (m' := exFun (exCase3 (exBump 3 40)))
    (fun _ => revBackend_ok) (fun _ => seqBackend_ok) (fun _ => seqBackend_ok) (fun _ => revBackend_ok) (by decide) (by decide) (by decide) (by decide) (by decide)
    (by ex_fusable) (by ex_falong) (by ex_fseparate) (by ex_solvable3 (fun _ => exRd_nonneg))
    (exFun_args (by ex_args)) (exFun_args (by ex_args)) ⟨apart_blk (by decide), apart_blk (by decide), apart_blk (by decide)⟩ ⟨apart_blk (by decide), apart_blk (by decide), apart_blk (by decide)⟩ (exFun_holds rfl rfl (exRat_ok rfl (by decide) (by decide))) (exFun_holds rfl rfl (exRat_ok rfl (by decide) (by decide))) (exFun_holds rfl rfl (exRat_ok rfl (by decide) (by decide))) (exFun_holds rfl rfl (exRat_ok rfl (by decide) (by decide)))
    (exFun_args (by ex_args)) (exFun_args (by ex_args)) (exFun_holds rfl rfl (exRat_ok rfl (by decide) (by decide))) (exFun_holds rfl rfl (exRat_ok rfl (by decide) (by decide))) (exFun_holds rfl rfl (exRat_ok rfl (by decide) (by decide))) (exFun_holds rfl rfl (exRat_ok rfl (by decide) (by decide)))
    (fun g hg => exBump_zero3 g hg.1) (fun g hg => exBump_zero3 g hg.1)

/-- 3D, Poisson operator: `set_poisson_bc` for segments of the boundary, the flux and the apply kernel, on fields `U` and `V` that are zero in the ghost cells that belong to no segment, give `R` and `S` with `∑ V R = ∑ U S`. -/
theorem C92_poisson_3d {i0 j0 k0 i1 j1 k1 gcw rgcw : Int} {beta : T} {dx : Nat → T} {f0 f1 f2 u res : Ptr} {β1 β2 β3 β4 : Nat → Backend} {l : List (BcCall T)} {m m' : Mem T} {U V : List Int → T}
    (hβ1 : ∀ n, ValidBackend (β1 n)) (hβ2 : ∀ n, ValidBackend (β2 n)) (hβ3 : ∀ n, ValidBackend (β3 n)) (hβ4 : ∀ n, ValidBackend (β4 n)) (hwi : i0 < i1) (hwj : j0 < j1) (hwk : k0 < k1) (hg : 1 ≤ gcw) (hrg : 0 ≤ rgcw)
    (hu : ∀ c ∈ l, c.Usable 3) (hl : ∀ c ∈ l, c.Along3 1 i0 j0 k0 i1 j1 k1) (hs : ∀ c ∈ l, ∀ d ∈ l, Separate (fun c : BcCall T => F.onSeg3 c.lo c.hi 1 c.face) c d) (hc : ∀ c ∈ l, c.Solvable (c.piece3 i0 j0 k0 i1 j1 k1 dx (fun _ => (1 : T)) (fun _ => (1 : T)) (fun _ => (1 : T))))
    (h1 : F.Args m [] [(F.cell3d u i0 j0 k0 i1 j1 k1 gcw)]) (h2 : F.Args m [(F.cell3d u i0 j0 k0 i1 j1 k1 gcw)] [(F.face3d0 f0 i0 j0 k0 i1 j1 k1 0), (F.face3d1 f1 i0 j0 k0 i1 j1 k1 0), (F.face3d2 f2 i0 j0 k0 i1 j1 k1 0), (F.cell3d res i0 j0 k0 i1 j1 k1 rgcw)])
    (hpf : F.Apart (F.face3d0 f0 i0 j0 k0 i1 j1 k1 0) (F.face3d1 f1 i0 j0 k0 i1 j1 k1 0) ∧ F.Apart (F.face3d0 f0 i0 j0 k0 i1 j1 k1 0) (F.face3d2 f2 i0 j0 k0 i1 j1 k1 0) ∧ F.Apart (F.face3d1 f1 i0 j0 k0 i1 j1 k1 0) (F.face3d2 f2 i0 j0 k0 i1 j1 k1 0)) (hrf : F.Apart (F.cell3d res i0 j0 k0 i1 j1 k1 rgcw) (F.face3d0 f0 i0 j0 k0 i1 j1 k1 0) ∧ F.Apart (F.cell3d res i0 j0 k0 i1 j1 k1 rgcw) (F.face3d1 f1 i0 j0 k0 i1 j1 k1 0) ∧ F.Apart (F.cell3d res i0 j0 k0 i1 j1 k1 rgcw) (F.face3d2 f2 i0 j0 k0 i1 j1 k1 0))
    (hU : F.Holds m (F.cell3d u i0 j0 k0 i1 j1 k1 gcw) U)
    (h1' : F.Args m' [] [(F.cell3d u i0 j0 k0 i1 j1 k1 gcw)]) (h2' : F.Args m' [(F.cell3d u i0 j0 k0 i1 j1 k1 gcw)] [(F.face3d0 f0 i0 j0 k0 i1 j1 k1 0), (F.face3d1 f1 i0 j0 k0 i1 j1 k1 0), (F.face3d2 f2 i0 j0 k0 i1 j1 k1 0), (F.cell3d res i0 j0 k0 i1 j1 k1 rgcw)])
    (hV : F.Holds m' (F.cell3d u i0 j0 k0 i1 j1 k1 gcw) V)
    (hz : ∀ g, Uncovered (fun c : BcCall T => F.onSeg3 c.lo c.hi 1 c.face) l [(i0, i1), (j0, j1), (k0, k1)] 7 (F.row F.points3) g → U g = 0) (hz' : ∀ g, Uncovered (fun c : BcCall T => F.onSeg3 c.lo c.hi 1 c.face) l [(i0, i1), (j0, j1), (k0, k1)] 7 (F.row F.points3) g → V g = 0) :
    ∃ m0 m1 m2 m0' m1' m2', ∃ R S : List Int → T, inOrder (fun c : BcCall T => Cuda.setPoissonBc3d i0 i1 j0 j1 k0 k1 dx gcw u c.lo c.hi c.order c.face 1 c.btype c.alpha c.beta c.sched) l m = .ok m0 ∧ Cuda.poissonFlux3d i0 j0 k0 i1 j1 k1 dx gcw u f0 f1 f2 β1 m0 = .ok m1 ∧ Cuda.poissonV2Apply3d i0 i1 j0 j1 k0 k1 beta dx f0 f1 f2 rgcw res β2 m1 = .ok m2 ∧
      inOrder (fun c : BcCall T => Cuda.setPoissonBc3d i0 i1 j0 j1 k0 k1 dx gcw u c.lo c.hi c.order c.face 1 c.btype c.alpha c.beta c.sched) l m' = .ok m0' ∧ Cuda.poissonFlux3d i0 j0 k0 i1 j1 k1 dx gcw u f0 f1 f2 β3 m0' = .ok m1' ∧ Cuda.poissonV2Apply3d i0 i1 j0 j1 k0 k1 beta dx f0 f1 f2 rgcw res β4 m1' = .ok m2' ∧
      (∀ p, F.InBounds [(i0, i1), (j0, j1), (k0, k1)] p → F.El m2 (F.cell3d res i0 j0 k0 i1 j1 k1 rgcw) p (R p)) ∧ (∀ p, F.InBounds [(i0, i1), (j0, j1), (k0, k1)] p → F.El m2' (F.cell3d res i0 j0 k0 i1 j1 k1 rgcw) p (S p)) ∧
      (F.sum i0 i1 fun i => F.sum j0 j1 fun j => F.sum k0 k1 fun k => V [i, j, k] * R [i, j, k]) = (F.sum i0 i1 fun i => F.sum j0 j1 fun j => F.sum k0 k1 fun k => U [i, j, k] * S [i, j, k]) := by
  obtain ⟨m0, m1, m2, X, R, a0, a1, a2, E, hin, hR, hj⟩ := wall_p_3 (beta := beta) hβ1 hβ2 hwi hwj hwk hg hrg hu hl hs hc h1 h2 hpf hrf hU
  obtain ⟨m0', m1', m2', Z, S, a0', a1', a2', E', hin', hR', hj'⟩ := wall_p_3 (beta := beta) hβ3 hβ4 hwi hwj hwk hg hrg hu hl hs hc h1' h2' hpf hrf hV
  have wX : F.Walled [(i0, i1), (j0, j1), (k0, k1)] 7 (F.row F.points3) (F.jump (l.map (fun c : BcCall T => c.piece3 i0 j0 k0 i1 j1 k1 dx (fun _ => (1 : T)) (fun _ => (1 : T)) (fun _ => (1 : T))))) X := fun p hp e e0 e1 ho => by
    rcases hj p hp e e0 e1 ho with ⟨jn, j⟩ | ⟨j1, j2, j3⟩
    · exact j
    · rw [j1, j3, hz _ j2, sub_self, zero_mul]
  have wZ : F.Walled [(i0, i1), (j0, j1), (k0, k1)] 7 (F.row F.points3) (F.jump (l.map (fun c : BcCall T => c.piece3 i0 j0 k0 i1 j1 k1 dx (fun _ => (1 : T)) (fun _ => (1 : T)) (fun _ => (1 : T))))) Z := fun p hp e e0 e1 ho => by
    rcases hj' p hp e e0 e1 ho with ⟨jn, j⟩ | ⟨j1, j2, j3⟩
    · exact j
    · rw [j1, j3, hz' _ j2, sub_self, zero_mul]
  refine ⟨m0, m1, m2, m0', m1', m2', R, S, a0, a1, a2, a0', a1', a2', E, E', ?_⟩
  have e1 : (F.sum i0 i1 fun i => F.sum j0 j1 fun j => F.sum k0 k1 fun k => V [i, j, k] * R [i, j, k]) = F.form3 i0 j0 k0 i1 j1 k1 0 beta dx (fun _ => (1 : T)) (fun _ => (1 : T)) (fun _ => (1 : T)) (fun _ => (1 : T)) X (F.cutTo [(i0, i1), (j0, j1), (k0, k1)] Z) := by
    rw [← F.weak3 hwi.le hwj.le hwk.le (fun p hp => F.cutTo_out hp)]
    exact F.sum_congr fun i hi0 hi1 => F.sum_congr fun j hj0 hj1 => F.sum_congr fun k hk0 hk1 => by
      have hp : F.InBounds [(i0, i1), (j0, j1), (k0, k1)] [i, j, k] := F.inBounds3.2 ⟨i, j, k, rfl, by omega⟩
      rw [F.cutTo_in hp, hin' _ hp, hR i j k hi0 hi1 hj0 hj1 hk0 hk1]
  have e2 : (F.sum i0 i1 fun i => F.sum j0 j1 fun j => F.sum k0 k1 fun k => U [i, j, k] * S [i, j, k]) = F.form3 i0 j0 k0 i1 j1 k1 0 beta dx (fun _ => (1 : T)) (fun _ => (1 : T)) (fun _ => (1 : T)) (fun _ => (1 : T)) Z (F.cutTo [(i0, i1), (j0, j1), (k0, k1)] X) := by
    rw [← F.weak3 hwi.le hwj.le hwk.le (fun p hp => F.cutTo_out hp)]
    exact F.sum_congr fun i hi0 hi1 => F.sum_congr fun j hj0 hj1 => F.sum_congr fun k hk0 hk1 => by
      have hp : F.InBounds [(i0, i1), (j0, j1), (k0, k1)] [i, j, k] := F.inBounds3.2 ⟨i, j, k, rfl, by omega⟩
      rw [F.cutTo_in hp, hin _ hp, hR' i j k hi0 hi1 hj0 hj1 hk0 hk1]
  rw [e1, e2]
  exact wX.symm3 hwi.le hwj.le hwk.le wZ

example :=
  C92_poisson_3d (T := Rat) (l := [exFill (exSeg (-1) 1 2) (exSeg (-1) 2 2) 0 4, exFill (exSeg (-1) 1 3) (exSeg (-1) 1 3) 0 1, exFill (exSeg 0 3 2) (exSeg 1 3 3) 3 0, exFill (exSeg 0 2 1) (exSeg 1 2 1) 4 4]) (i0 := 0) (i1 := 1) (j0 := 1) (j1 := 2) (k0 := 2) (k1 := 3) (dx := exDx) (beta := 2) (gcw := 2) (rgcw := 1) (u := ⟨1, 0⟩) (res := ⟨8, 0⟩) (f0 := ⟨5, 0⟩) (f1 := ⟨6, 0⟩) (f2 := ⟨7, 0⟩) (U := exBump 3 5) (m := exFun (exCase3 (exBump 3 5))) (V := exBump 3 40) (m' := exFun (exCase3 (exBump 3 40)))
    (fun _ => revBackend_ok) (fun _ => seqBackend_ok) (fun _ => seqBackend_ok) (fun _ => revBackend_ok) (by decide) (by decide) (by decide) (by decide) (by decide)
    (by ex_fusable) (by ex_falong) (by ex_fseparate) (by ex_solvable3 (fun p => exOne p))
    (exFun_args (by ex_args)) (exFun_args (by ex_args)) ⟨apart_blk (by decide), apart_blk (by decide), apart_blk (by decide)⟩ ⟨apart_blk (by decide), apart_blk (by decide), apart_blk (by decide)⟩ (exFun_holds rfl rfl (exRat_ok rfl (by decide) (by decide)))
    (exFun_args (by ex_args)) (exFun_args (by ex_args)) (exFun_holds rfl rfl (exRat_ok rfl (by decide) (by decide)))
    (fun g hg => exBump_zero3 g hg.1) (fun g hg => exBump_zero3 g hg.1)

end

section
variable {T : Type} [Field T] [LinearOrder T] [IsStrictOrderedRing T]

/-- 3D, diffusion operator with cell coefficients: `set_bc` for segments of the boundary, the flux and the apply kernel, on a field `U` that is zero in the ghost cells that belong to no segment, give `R` with `∑ U R ≥ 0`, and `∑ U R = 0` only for `U = 0` if there is a cell with a reaction, or a face without a Neumann condition. -/
theorem C93_v1_3d {i0 j0 k0 i1 j1 k1 agcw gcw rgcw : Int} {alpha beta : T} {dx : Nat → T} {a b0 b1 b2 f0 f1 f2 u res : Ptr} {β1 β2 : Nat → Backend} {l : List (BcCall T)} {m : Mem T} {A B0 B1 B2 U : List Int → T}
    (hβ1 : ∀ n, ValidBackend (β1 n)) (hβ2 : ∀ n, ValidBackend (β2 n)) (hwi : i0 < i1) (hwj : j0 < j1) (hwk : k0 < k1) (hag : 0 ≤ agcw) (hg : 1 ≤ gcw) (hrg : 0 ≤ rgcw)
    (hu : ∀ c ∈ l, c.Usable 3) (hl : ∀ c ∈ l, c.Along3 1 i0 j0 k0 i1 j1 k1) (hs : ∀ c ∈ l, ∀ d ∈ l, Separate (fun c : BcCall T => F.onSeg3 c.lo c.hi 1 c.face) c d) (hc : ∀ c ∈ l, c.Solvable (c.piece3 i0 j0 k0 i1 j1 k1 dx B0 B1 B2))
    (h1 : F.Args m [(F.cell3d a i0 j0 k0 i1 j1 k1 agcw), (F.face3d0 b0 i0 j0 k0 i1 j1 k1 0), (F.face3d1 b1 i0 j0 k0 i1 j1 k1 0), (F.face3d2 b2 i0 j0 k0 i1 j1 k1 0)] [(F.cell3d u i0 j0 k0 i1 j1 k1 gcw)]) (h2 : F.Args m [(F.cell3d a i0 j0 k0 i1 j1 k1 agcw), (F.cell3d u i0 j0 k0 i1 j1 k1 gcw), (F.face3d0 b0 i0 j0 k0 i1 j1 k1 0), (F.face3d1 b1 i0 j0 k0 i1 j1 k1 0), (F.face3d2 b2 i0 j0 k0 i1 j1 k1 0)] [(F.face3d0 f0 i0 j0 k0 i1 j1 k1 0), (F.face3d1 f1 i0 j0 k0 i1 j1 k1 0), (F.face3d2 f2 i0 j0 k0 i1 j1 k1 0), (F.cell3d res i0 j0 k0 i1 j1 k1 rgcw)])
    (hpf : F.Apart (F.face3d0 f0 i0 j0 k0 i1 j1 k1 0) (F.face3d1 f1 i0 j0 k0 i1 j1 k1 0) ∧ F.Apart (F.face3d0 f0 i0 j0 k0 i1 j1 k1 0) (F.face3d2 f2 i0 j0 k0 i1 j1 k1 0) ∧ F.Apart (F.face3d1 f1 i0 j0 k0 i1 j1 k1 0) (F.face3d2 f2 i0 j0 k0 i1 j1 k1 0)) (hrf : F.Apart (F.cell3d res i0 j0 k0 i1 j1 k1 rgcw) (F.face3d0 f0 i0 j0 k0 i1 j1 k1 0) ∧ F.Apart (F.cell3d res i0 j0 k0 i1 j1 k1 rgcw) (F.face3d1 f1 i0 j0 k0 i1 j1 k1 0) ∧ F.Apart (F.cell3d res i0 j0 k0 i1 j1 k1 rgcw) (F.face3d2 f2 i0 j0 k0 i1 j1 k1 0))
    (hA : F.Holds m (F.cell3d a i0 j0 k0 i1 j1 k1 agcw) A) (hB0 : F.Holds m (F.face3d0 b0 i0 j0 k0 i1 j1 k1 0) B0) (hB1 : F.Holds m (F.face3d1 b1 i0 j0 k0 i1 j1 k1 0) B1) (hB2 : F.Holds m (F.face3d2 b2 i0 j0 k0 i1 j1 k1 0) B2) (hU : F.Holds m (F.cell3d u i0 j0 k0 i1 j1 k1 gcw) U)
    (hz : ∀ g, Uncovered (fun c : BcCall T => F.onSeg3 c.lo c.hi 1 c.face) l [(i0, i1), (j0, j1), (k0, k1)] 7 (F.row F.points3) g → U g = 0) (he : F.Elliptic3 i0 j0 k0 i1 j1 k1 alpha beta dx A B0 B1 B2) (hq : ∀ c ∈ l, BcCall.Positive (c.piece3 i0 j0 k0 i1 j1 k1 dx B0 B1 B2)) :
    ∃ m0 m1 m2, ∃ R : List Int → T, inOrder (fun c : BcCall T => Cuda.setBc3d i0 i1 j0 j1 k0 k1 dx 0 b0 b1 b2 gcw u c.lo c.hi c.order c.face 1 c.btype c.alpha c.beta c.sched) l m = .ok m0 ∧ Cuda.flux3d i0 j0 k0 i1 j1 k1 dx b0 b1 b2 gcw u f0 f1 f2 β1 m0 = .ok m1 ∧ Cuda.diffusionV1Apply3d i0 i1 j0 j1 k0 k1 alpha beta dx agcw a gcw u f0 f1 f2 rgcw res β2 m1 = .ok m2 ∧
      (∀ p, F.InBounds [(i0, i1), (j0, j1), (k0, k1)] p → F.El m2 (F.cell3d res i0 j0 k0 i1 j1 k1 rgcw) p (R p)) ∧
      0 ≤ (F.sum i0 i1 fun i => F.sum j0 j1 fun j => F.sum k0 k1 fun k => U [i, j, k] * R [i, j, k]) ∧ (F.Tied [(i0, i1), (j0, j1), (k0, k1)] 7 (F.row F.points3) (l.map (fun c : BcCall T => c.piece3 i0 j0 k0 i1 j1 k1 dx B0 B1 B2)) (fun c => alpha * A c) → (F.sum i0 i1 fun i => F.sum j0 j1 fun j => F.sum k0 k1 fun k => U [i, j, k] * R [i, j, k]) ≤ 0 → ∀ p, F.InBounds [(i0, i1), (j0, j1), (k0, k1)] p → U p = 0) := by
  have hps : ∀ k ∈ l.map (fun c : BcCall T => c.piece3 i0 j0 k0 i1 j1 k1 dx B0 B1 B2), F.First k.btype k.order ∧ 0 < k.width ∧ ∀ p, k.cells p → 0 ≤ k.coef p := fun k hk => by
    obtain ⟨c, hcl, rfl⟩ := List.mem_map.1 hk
    exact ⟨(hc c hcl).1, hq c hcl⟩
  obtain ⟨m0, m1, m2, X, R, a0, a1, a2, E, hin, hR, hj⟩ := wall_v1_3 (alpha := alpha) (beta := beta) hβ1 hβ2 hwi hwj hwk hag hg hrg hu hl hs hc h1 h2 hpf hrf hA hB0 hB1 hB2 hU
  have wX : F.Walled [(i0, i1), (j0, j1), (k0, k1)] 7 (F.row F.points3) (F.jump (l.map (fun c : BcCall T => c.piece3 i0 j0 k0 i1 j1 k1 dx B0 B1 B2))) X := fun p hp e e0 e1 ho => by
    rcases hj p hp e e0 e1 ho with ⟨jn, j⟩ | ⟨j1, j2, j3⟩
    · exact j
    · rw [j1, j3, hz _ j2, sub_self, zero_mul]
  refine ⟨m0, m1, m2, R, a0, a1, a2, E, ?_⟩
  have e1 : (F.sum i0 i1 fun i => F.sum j0 j1 fun j => F.sum k0 k1 fun k => U [i, j, k] * R [i, j, k]) = F.form3 i0 j0 k0 i1 j1 k1 alpha beta dx A B0 B1 B2 X (F.cutTo [(i0, i1), (j0, j1), (k0, k1)] X) := by
    rw [← F.weak3 hwi.le hwj.le hwk.le (fun p hp => F.cutTo_out hp)]
    exact F.sum_congr fun i hi0 hi1 => F.sum_congr fun j hj0 hj1 => F.sum_congr fun k hk0 hk1 => by
      have hp : F.InBounds [(i0, i1), (j0, j1), (k0, k1)] [i, j, k] := F.inBounds3.2 ⟨i, j, k, rfl, by omega⟩
      rw [F.cutTo_in hp, hin _ hp, hR i j k hi0 hi1 hj0 hj1 hk0 hk1]
  rw [e1]
  refine ⟨wX.leaky.nonneg3 hwi.le hwj.le hwk.le he (F.jump_nonneg hps) (fun _ _ => le_refl _) (fun _ => le_refl _), fun ht h0 p hp => ?_⟩
  have ht' : F.Tied [(i0, i1), (j0, j1), (k0, k1)] 7 (F.row F.points3) (l.map (fun c : BcCall T => c.piece3 i0 j0 k0 i1 j1 k1 dx B0 B1 B2)) (fun c => alpha * A c) := by
    simpa using ht
  rw [← hin p hp]
  exact wX.leaky.zero3 hwi.le hwj.le hwk.le he (F.jump_nonneg hps) (fun _ _ => le_refl _) (fun _ => le_refl _) ht' (F.jump_ne hps) h0 p hp

example :=
  C93_v1_3d (T := Rat) (l := [exFill (exSeg (-1) 1 2) (exSeg (-1) 2 2) 0 4, exFill (exSeg (-1) 1 3) (exSeg (-1) 1 3) 0 1, exFill (exSeg 0 3 2) (exSeg 1 3 3) 3 0, exFill (exSeg 0 2 1) (exSeg 1 2 1) 4 4]) (i0 := 0) (i1 := 1) (j0 := 1) (j1 := 2) (k0 := 2) (k1 := 3) (dx := exDx) (alpha := 3) (beta := 2) (gcw := 2) (rgcw := 1) (u := ⟨1, 0⟩) (res := ⟨8, 0⟩) (a := ⟨0, 0⟩) (agcw := 1) (b0 := ⟨2, 0⟩) (f0 := ⟨5, 0⟩) (b1 := ⟨3, 0⟩) (f1 := ⟨6, 0⟩) (b2 := ⟨4, 0⟩) (f2 := ⟨7, 0⟩) (U := exBump 3 5) (m := exFun (exCase3 (exBump 3 5)))
    (fun _ => revBackend_ok) (fun _ => seqBackend_ok) (by decide) (by decide) (by decide) (by decide) (by decide) (by decide)
    (by ex_fusable) (by ex_falong) (by ex_fseparate) (by ex_solvable3 (fun _ => exRd_nonneg))
    (exFun_args (by ex_args)) (exFun_args (by ex_args)) ⟨apart_blk (by decide), apart_blk (by decide), apart_blk (by decide)⟩ ⟨apart_blk (by decide), apart_blk (by decide), apart_blk (by decide)⟩ (exFun_holds rfl rfl (exRat_ok rfl (by decide) (by decide))) (exFun_holds rfl rfl (exRat_ok rfl (by decide) (by decide))) (exFun_holds rfl rfl (exRat_ok rfl (by decide) (by decide))) (exFun_holds rfl rfl (exRat_ok rfl (by decide) (by decide))) (exFun_holds rfl rfl (exRat_ok rfl (by decide) (by decide)))
    (fun g hg => exBump_zero3 g hg.1) exEll_v1_3 (by ex_positive3 (fun _ => exRd_nonneg))

/-- 3D, diffusion operator with constant reaction: `set_bc` for segments of the boundary, the flux and the apply kernel, on a field `U` that is zero in the ghost cells that belong to no segment, give `R` with `∑ U R ≥ 0`, and `∑ U R = 0` only for `U = 0` if there is a cell with a reaction, or a face without a Neumann condition. -/
theorem C93_v2_3d {i0 j0 k0 i1 j1 k1 gcw rgcw : Int} {alpha beta : T} {dx : Nat → T} {b0 b1 b2 f0 f1 f2 u res : Ptr} {β1 β2 : Nat → Backend} {l : List (BcCall T)} {m : Mem T} {B0 B1 B2 U : List Int → T}
    (hβ1 : ∀ n, ValidBackend (β1 n)) (hβ2 : ∀ n, ValidBackend (β2 n)) (hwi : i0 < i1) (hwj : j0 < j1) (hwk : k0 < k1) (hg : 1 ≤ gcw) (hrg : 0 ≤ rgcw)
    (hu : ∀ c ∈ l, c.Usable 3) (hl : ∀ c ∈ l, c.Along3 1 i0 j0 k0 i1 j1 k1) (hs : ∀ c ∈ l, ∀ d ∈ l, Separate (fun c : BcCall T => F.onSeg3 c.lo c.hi 1 c.face) c d) (hc : ∀ c ∈ l, c.Solvable (c.piece3 i0 j0 k0 i1 j1 k1 dx B0 B1 B2))
    (h1 : F.Args m [(F.face3d0 b0 i0 j0 k0 i1 j1 k1 0), (F.face3d1 b1 i0 j0 k0 i1 j1 k1 0), (F.face3d2 b2 i0 j0 k0 i1 j1 k1 0)] [(F.cell3d u i0 j0 k0 i1 j1 k1 gcw)]) (h2 : F.Args m [(F.cell3d u i0 j0 k0 i1 j1 k1 gcw), (F.face3d0 b0 i0 j0 k0 i1 j1 k1 0), (F.face3d1 b1 i0 j0 k0 i1 j1 k1 0), (F.face3d2 b2 i0 j0 k0 i1 j1 k1 0)] [(F.face3d0 f0 i0 j0 k0 i1 j1 k1 0), (F.face3d1 f1 i0 j0 k0 i1 j1 k1 0), (F.face3d2 f2 i0 j0 k0 i1 j1 k1 0), (F.cell3d res i0 j0 k0 i1 j1 k1 rgcw)])
    (hpf : F.Apart (F.face3d0 f0 i0 j0 k0 i1 j1 k1 0) (F.face3d1 f1 i0 j0 k0 i1 j1 k1 0) ∧ F.Apart (F.face3d0 f0 i0 j0 k0 i1 j1 k1 0) (F.face3d2 f2 i0 j0 k0 i1 j1 k1 0) ∧ F.Apart (F.face3d1 f1 i0 j0 k0 i1 j1 k1 0) (F.face3d2 f2 i0 j0 k0 i1 j1 k1 0)) (hrf : F.Apart (F.cell3d res i0 j0 k0 i1 j1 k1 rgcw) (F.face3d0 f0 i0 j0 k0 i1 j1 k1 0) ∧ F.Apart (F.cell3d res i0 j0 k0 i1 j1 k1 rgcw) (F.face3d1 f1 i0 j0 k0 i1 j1 k1 0) ∧ F.Apart (F.cell3d res i0 j0 k0 i1 j1 k1 rgcw) (F.face3d2 f2 i0 j0 k0 i1 j1 k1 0))
    (hB0 : F.Holds m (F.face3d0 b0 i0 j0 k0 i1 j1 k1 0) B0) (hB1 : F.Holds m (F.face3d1 b1 i0 j0 k0 i1 j1 k1 0) B1) (hB2 : F.Holds m (F.face3d2 b2 i0 j0 k0 i1 j1 k1 0) B2) (hU : F.Holds m (F.cell3d u i0 j0 k0 i1 j1 k1 gcw) U)
    (hz : ∀ g, Uncovered (fun c : BcCall T => F.onSeg3 c.lo c.hi 1 c.face) l [(i0, i1), (j0, j1), (k0, k1)] 7 (F.row F.points3) g → U g = 0) (he : F.Elliptic3 i0 j0 k0 i1 j1 k1 alpha beta dx (fun _ => 1) B0 B1 B2) (hq : ∀ c ∈ l, BcCall.Positive (c.piece3 i0 j0 k0 i1 j1 k1 dx B0 B1 B2)) :
    ∃ m0 m1 m2, ∃ R : List Int → T, inOrder (fun c : BcCall T => Cuda.setBc3d i0 i1 j0 j1 k0 k1 dx 0 b0 b1 b2 gcw u c.lo c.hi c.order c.face 1 c.btype c.alpha c.beta c.sched) l m = .ok m0 ∧ Cuda.flux3d i0 j0 k0 i1 j1 k1 dx b0 b1 b2 gcw u f0 f1 f2 β1 m0 = .ok m1 ∧ Cuda.diffusionV2Apply3d i0 i1 j0 j1 k0 k1 alpha beta dx gcw u f0 f1 f2 rgcw res β2 m1 = .ok m2 ∧
      (∀ p, F.InBounds [(i0, i1), (j0, j1), (k0, k1)] p → F.El m2 (F.cell3d res i0 j0 k0 i1 j1 k1 rgcw) p (R p)) ∧
      0 ≤ (F.sum i0 i1 fun i => F.sum j0 j1 fun j => F.sum k0 k1 fun k => U [i, j, k] * R [i, j, k]) ∧ (F.Tied [(i0, i1), (j0, j1), (k0, k1)] 7 (F.row F.points3) (l.map (fun c : BcCall T => c.piece3 i0 j0 k0 i1 j1 k1 dx B0 B1 B2)) (fun _ => alpha) → (F.sum i0 i1 fun i => F.sum j0 j1 fun j => F.sum k0 k1 fun k => U [i, j, k] * R [i, j, k]) ≤ 0 → ∀ p, F.InBounds [(i0, i1), (j0, j1), (k0, k1)] p → U p = 0) := by
  have hps : ∀ k ∈ l.map (fun c : BcCall T => c.piece3 i0 j0 k0 i1 j1 k1 dx B0 B1 B2), F.First k.btype k.order ∧ 0 < k.width ∧ ∀ p, k.cells p → 0 ≤ k.coef p := fun k hk => by
    obtain ⟨c, hcl, rfl⟩ := List.mem_map.1 hk
    exact ⟨(hc c hcl).1, hq c hcl⟩
  obtain ⟨m0, m1, m2, X, R, a0, a1, a2, E, hin, hR, hj⟩ := wall_v2_3 (alpha := alpha) (beta := beta) hβ1 hβ2 hwi hwj hwk hg hrg hu hl hs hc h1 h2 hpf hrf hB0 hB1 hB2 hU
  have wX : F.Walled [(i0, i1), (j0, j1), (k0, k1)] 7 (F.row F.points3) (F.jump (l.map (fun c : BcCall T => c.piece3 i0 j0 k0 i1 j1 k1 dx B0 B1 B2))) X := fun p hp e e0 e1 ho => by
    rcases hj p hp e e0 e1 ho with ⟨jn, j⟩ | ⟨j1, j2, j3⟩
    · exact j
    · rw [j1, j3, hz _ j2, sub_self, zero_mul]
  refine ⟨m0, m1, m2, R, a0, a1, a2, E, ?_⟩
  have e1 : (F.sum i0 i1 fun i => F.sum j0 j1 fun j => F.sum k0 k1 fun k => U [i, j, k] * R [i, j, k]) = F.form3 i0 j0 k0 i1 j1 k1 alpha beta dx (fun _ => (1 : T)) B0 B1 B2 X (F.cutTo [(i0, i1), (j0, j1), (k0, k1)] X) := by
    rw [← F.weak3 hwi.le hwj.le hwk.le (fun p hp => F.cutTo_out hp)]
    exact F.sum_congr fun i hi0 hi1 => F.sum_congr fun j hj0 hj1 => F.sum_congr fun k hk0 hk1 => by
      have hp : F.InBounds [(i0, i1), (j0, j1), (k0, k1)] [i, j, k] := F.inBounds3.2 ⟨i, j, k, rfl, by omega⟩
      rw [F.cutTo_in hp, hin _ hp, hR i j k hi0 hi1 hj0 hj1 hk0 hk1]
  rw [e1]
  refine ⟨wX.leaky.nonneg3 hwi.le hwj.le hwk.le he (F.jump_nonneg hps) (fun _ _ => le_refl _) (fun _ => le_refl _), fun ht h0 p hp => ?_⟩
  have ht' : F.Tied [(i0, i1), (j0, j1), (k0, k1)] 7 (F.row F.points3) (l.map (fun c : BcCall T => c.piece3 i0 j0 k0 i1 j1 k1 dx B0 B1 B2)) (fun c => alpha * (fun _ => (1 : T)) c) := by
    simpa using ht
  rw [← hin p hp]
  exact wX.leaky.zero3 hwi.le hwj.le hwk.le he (F.jump_nonneg hps) (fun _ _ => le_refl _) (fun _ => le_refl _) ht' (F.jump_ne hps) h0 p hp

example :=
  C93_v2_3d (T := Rat) (l := [exFill (exSeg (-1) 1 2) (exSeg (-1) 2 2) 0 4, exFill (exSeg (-1) 1 3) (exSeg (-1) 1 3) 0 1, exFill (exSeg 0 3 2) (exSeg 1 3 3) 3 0, exFill (exSeg 0 2 1) (exSeg 1 2 1) 4 4]) (i0 := 0) (i1 := 1) (j0 := 1) (j1 := 2) (k0 := 2) (k1 := 3) (dx := exDx) (alpha := 3) (beta := 2) (gcw := 2) (rgcw := 1) (u := ⟨1, 0⟩) (res := ⟨8, 0⟩) (b0 := ⟨2, 0⟩) (f0 := ⟨5, 0⟩) (b1 := ⟨3, 0⟩) (f1 := ⟨6, 0⟩) (b2 := ⟨4, 0⟩) (f2 := ⟨7, 0⟩) (U := exBump 3 5) (m := exFun (exCase3 (exBump 3 5)))
    (fun _ => revBackend_ok) (fun _ => seqBackend_ok) (by decide) (by decide) (by decide) (by decide) (by decide)
    (by ex_fusable) (by ex_falong) (by ex_fseparate) (by ex_solvable3 (fun _ => exRd_nonneg))
    (exFun_args (by ex_args)) (exFun_args (by ex_args)) ⟨apart_blk (by decide), apart_blk (by decide), apart_blk (by decide)⟩ ⟨apart_blk (by decide), apart_blk (by decide), apart_blk (by decide)⟩ (exFun_holds rfl rfl (exRat_ok rfl (by decide) (by decide))) (exFun_holds rfl rfl (exRat_ok rfl (by decide) (by decide))) (exFun_holds rfl rfl (exRat_ok rfl (by decide) (by decide))) (exFun_holds rfl rfl (exRat_ok rfl (by decide) (by decide)))
    (fun g hg => exBump_zero3 g hg.1) exEll_v2_3 (by ex_positive3 (fun _ => exRd_nonneg))

/-- 3D, Poisson operator: `set_poisson_bc` for segments of the boundary, the flux and the apply kernel, on a field `U` that is zero in the ghost cells that belong to no segment, give `R` with `∑ U R ≥ 0`, and `∑ U R = 0` only for `U = 0` if there is a cell with a reaction, or a face without a Neumann condition. -/
theorem C93_poisson_3d {i0 j0 k0 i1 j1 k1 gcw rgcw : Int} {beta : T} {dx : Nat → T} {f0 f1 f2 u res : Ptr} {β1 β2 : Nat → Backend} {l : List (BcCall T)} {m : Mem T} {U : List Int → T}
    (hβ1 : ∀ n, ValidBackend (β1 n)) (hβ2 : ∀ n, ValidBackend (β2 n)) (hwi : i0 < i1) (hwj : j0 < j1) (hwk : k0 < k1) (hg : 1 ≤ gcw) (hrg : 0 ≤ rgcw)
    (hu : ∀ c ∈ l, c.Usable 3) (hl : ∀ c ∈ l, c.Along3 1 i0 j0 k0 i1 j1 k1) (hs : ∀ c ∈ l, ∀ d ∈ l, Separate (fun c : BcCall T => F.onSeg3 c.lo c.hi 1 c.face) c d) (hc : ∀ c ∈ l, c.Solvable (c.piece3 i0 j0 k0 i1 j1 k1 dx (fun _ => (1 : T)) (fun _ => (1 : T)) (fun _ => (1 : T))))
    (h1 : F.Args m [] [(F.cell3d u i0 j0 k0 i1 j1 k1 gcw)]) (h2 : F.Args m [(F.cell3d u i0 j0 k0 i1 j1 k1 gcw)] [(F.face3d0 f0 i0 j0 k0 i1 j1 k1 0), (F.face3d1 f1 i0 j0 k0 i1 j1 k1 0), (F.face3d2 f2 i0 j0 k0 i1 j1 k1 0), (F.cell3d res i0 j0 k0 i1 j1 k1 rgcw)])
    (hpf : F.Apart (F.face3d0 f0 i0 j0 k0 i1 j1 k1 0) (F.face3d1 f1 i0 j0 k0 i1 j1 k1 0) ∧ F.Apart (F.face3d0 f0 i0 j0 k0 i1 j1 k1 0) (F.face3d2 f2 i0 j0 k0 i1 j1 k1 0) ∧ F.Apart (F.face3d1 f1 i0 j0 k0 i1 j1 k1 0) (F.face3d2 f2 i0 j0 k0 i1 j1 k1 0)) (hrf : F.Apart (F.cell3d res i0 j0 k0 i1 j1 k1 rgcw) (F.face3d0 f0 i0 j0 k0 i1 j1 k1 0) ∧ F.Apart (F.cell3d res i0 j0 k0 i1 j1 k1 rgcw) (F.face3d1 f1 i0 j0 k0 i1 j1 k1 0) ∧ F.Apart (F.cell3d res i0 j0 k0 i1 j1 k1 rgcw) (F.face3d2 f2 i0 j0 k0 i1 j1 k1 0))
    (hU : F.Holds m (F.cell3d u i0 j0 k0 i1 j1 k1 gcw) U)
    (hz : ∀ g, Uncovered (fun c : BcCall T => F.onSeg3 c.lo c.hi 1 c.face) l [(i0, i1), (j0, j1), (k0, k1)] 7 (F.row F.points3) g → U g = 0) (he : F.Elliptic3 i0 j0 k0 i1 j1 k1 0 beta dx (fun _ => 1) (fun _ => 1) (fun _ => 1) (fun _ => 1)) (hq : ∀ c ∈ l, BcCall.Positive (c.piece3 i0 j0 k0 i1 j1 k1 dx (fun _ => (1 : T)) (fun _ => (1 : T)) (fun _ => (1 : T)))) :
    ∃ m0 m1 m2, ∃ R : List Int → T, inOrder (fun c : BcCall T => Cuda.setPoissonBc3d i0 i1 j0 j1 k0 k1 dx gcw u c.lo c.hi c.order c.face 1 c.btype c.alpha c.beta c.sched) l m = .ok m0 ∧ Cuda.poissonFlux3d i0 j0 k0 i1 j1 k1 dx gcw u f0 f1 f2 β1 m0 = .ok m1 ∧ Cuda.poissonV2Apply3d i0 i1 j0 j1 k0 k1 beta dx f0 f1 f2 rgcw res β2 m1 = .ok m2 ∧
      (∀ p, F.InBounds [(i0, i1), (j0, j1), (k0, k1)] p → F.El m2 (F.cell3d res i0 j0 k0 i1 j1 k1 rgcw) p (R p)) ∧
      0 ≤ (F.sum i0 i1 fun i => F.sum j0 j1 fun j => F.sum k0 k1 fun k => U [i, j, k] * R [i, j, k]) ∧ (F.Tied [(i0, i1), (j0, j1), (k0, k1)] 7 (F.row F.points3) (l.map (fun c : BcCall T => c.piece3 i0 j0 k0 i1 j1 k1 dx (fun _ => (1 : T)) (fun _ => (1 : T)) (fun _ => (1 : T)))) (fun _ => 0) → (F.sum i0 i1 fun i => F.sum j0 j1 fun j => F.sum k0 k1 fun k => U [i, j, k] * R [i, j, k]) ≤ 0 → ∀ p, F.InBounds [(i0, i1), (j0, j1), (k0, k1)] p → U p = 0) := by
  have hps : ∀ k ∈ l.map (fun c : BcCall T => c.piece3 i0 j0 k0 i1 j1 k1 dx (fun _ => (1 : T)) (fun _ => (1 : T)) (fun _ => (1 : T))), F.First k.btype k.order ∧ 0 < k.width ∧ ∀ p, k.cells p → 0 ≤ k.coef p := fun k hk => by
    obtain ⟨c, hcl, rfl⟩ := List.mem_map.1 hk
    exact ⟨(hc c hcl).1, hq c hcl⟩
  obtain ⟨m0, m1, m2, X, R, a0, a1, a2, E, hin, hR, hj⟩ := wall_p_3 (beta := beta) hβ1 hβ2 hwi hwj hwk hg hrg hu hl hs hc h1 h2 hpf hrf hU
  have wX : F.Walled [(i0, i1), (j0, j1), (k0, k1)] 7 (F.row F.points3) (F.jump (l.map (fun c : BcCall T => c.piece3 i0 j0 k0 i1 j1 k1 dx (fun _ => (1 : T)) (fun _ => (1 : T)) (fun _ => (1 : T))))) X := fun p hp e e0 e1 ho => by
    rcases hj p hp e e0 e1 ho with ⟨jn, j⟩ | ⟨j1, j2, j3⟩
    · exact j
    · rw [j1, j3, hz _ j2, sub_self, zero_mul]
  refine ⟨m0, m1, m2, R, a0, a1, a2, E, ?_⟩
  have e1 : (F.sum i0 i1 fun i => F.sum j0 j1 fun j => F.sum k0 k1 fun k => U [i, j, k] * R [i, j, k]) = F.form3 i0 j0 k0 i1 j1 k1 0 beta dx (fun _ => (1 : T)) (fun _ => (1 : T)) (fun _ => (1 : T)) (fun _ => (1 : T)) X (F.cutTo [(i0, i1), (j0, j1), (k0, k1)] X) := by
    rw [← F.weak3 hwi.le hwj.le hwk.le (fun p hp => F.cutTo_out hp)]
    exact F.sum_congr fun i hi0 hi1 => F.sum_congr fun j hj0 hj1 => F.sum_congr fun k hk0 hk1 => by
      have hp : F.InBounds [(i0, i1), (j0, j1), (k0, k1)] [i, j, k] := F.inBounds3.2 ⟨i, j, k, rfl, by omega⟩
      rw [F.cutTo_in hp, hin _ hp, hR i j k hi0 hi1 hj0 hj1 hk0 hk1]
  rw [e1]
  refine ⟨wX.leaky.nonneg3 hwi.le hwj.le hwk.le he (F.jump_nonneg hps) (fun _ _ => le_refl _) (fun _ => le_refl _), fun ht h0 p hp => ?_⟩
  have ht' : F.Tied [(i0, i1), (j0, j1), (k0, k1)] 7 (F.row F.points3) (l.map (fun c : BcCall T => c.piece3 i0 j0 k0 i1 j1 k1 dx (fun _ => (1 : T)) (fun _ => (1 : T)) (fun _ => (1 : T)))) (fun c => 0 * (fun _ => (1 : T)) c) := by
    simpa using ht
  rw [← hin p hp]
  exact wX.leaky.zero3 hwi.le hwj.le hwk.le he (F.jump_nonneg hps) (fun _ _ => le_refl _) (fun _ => le_refl _) ht' (F.jump_ne hps) h0 p hp

example :=
  C93_poisson_3d (T := Rat) (l := [exFill (exSeg (-1) 1 2) (exSeg (-1) 2 2) 0 4, exFill (exSeg (-1) 1 3) (exSeg (-1) 1 3) 0 1, exFill (exSeg 0 3 2) (exSeg 1 3 3) 3 0, exFill (exSeg 0 2 1) (exSeg 1 2 1) 4 4]) (i0 := 0) (i1 := 1) (j0 := 1) (j1 := 2) (k0 := 2) (k1 := 3) (dx := exDx) (beta := 2) (gcw := 2) (rgcw := 1) (u := ⟨1, 0⟩) (res := ⟨8, 0⟩) (f0 := ⟨5, 0⟩) (f1 := ⟨6, 0⟩) (f2 := ⟨7, 0⟩) (U := exBump 3 5) (m := exFun (exCase3 (exBump 3 5)))
    (fun _ => revBackend_ok) (fun _ => seqBackend_ok) (by decide) (by decide) (by decide) (by decide) (by decide)
    (by ex_fusable) (by ex_falong) (by ex_fseparate) (by ex_solvable3 (fun p => exOne p))
    (exFun_args (by ex_args)) (exFun_args (by ex_args)) ⟨apart_blk (by decide), apart_blk (by decide), apart_blk (by decide)⟩ ⟨apart_blk (by decide), apart_blk (by decide), apart_blk (by decide)⟩ (exFun_holds rfl rfl (exRat_ok rfl (by decide) (by decide)))
    (fun g hg => exBump_zero3 g hg.1) exEll_p_3 (by ex_positive3 (fun p => exOne p))

/-- 3D, diffusion operator with cell coefficients: fields `U` and `V`, `U ≤ V` in the ghost cells that belong to no segment, for which `set_bc` for segments of the boundary, the flux and the apply kernel give `R ≤ S`, fulfil `U ≤ V` in the box if there is a cell with a reaction, or a face without a Neumann condition. -/
theorem C94_v1_3d {i0 j0 k0 i1 j1 k1 agcw gcw rgcw : Int} {alpha beta : T} {dx : Nat → T} {a b0 b1 b2 f0 f1 f2 u res : Ptr} {β1 β2 β3 β4 : Nat → Backend} {l : List (BcCall T)} {m m' : Mem T} {A B0 B1 B2 U V : List Int → T}
    (hβ1 : ∀ n, ValidBackend (β1 n)) (hβ2 : ∀ n, ValidBackend (β2 n)) (hβ3 : ∀ n, ValidBackend (β3 n)) (hβ4 : ∀ n, ValidBackend (β4 n)) (hwi : i0 < i1) (hwj : j0 < j1) (hwk : k0 < k1) (hag : 0 ≤ agcw) (hg : 1 ≤ gcw) (hrg : 0 ≤ rgcw)
    (hu : ∀ c ∈ l, c.Usable 3) (hl : ∀ c ∈ l, c.Along3 1 i0 j0 k0 i1 j1 k1) (hs : ∀ c ∈ l, ∀ d ∈ l, Separate (fun c : BcCall T => F.onSeg3 c.lo c.hi 1 c.face) c d) (hc : ∀ c ∈ l, c.Solvable (c.piece3 i0 j0 k0 i1 j1 k1 dx B0 B1 B2))
    (h1 : F.Args m [(F.cell3d a i0 j0 k0 i1 j1 k1 agcw), (F.face3d0 b0 i0 j0 k0 i1 j1 k1 0), (F.face3d1 b1 i0 j0 k0 i1 j1 k1 0), (F.face3d2 b2 i0 j0 k0 i1 j1 k1 0)] [(F.cell3d u i0 j0 k0 i1 j1 k1 gcw)]) (h2 : F.Args m [(F.cell3d a i0 j0 k0 i1 j1 k1 agcw), (F.cell3d u i0 j0 k0 i1 j1 k1 gcw), (F.face3d0 b0 i0 j0 k0 i1 j1 k1 0), (F.face3d1 b1 i0 j0 k0 i1 j1 k1 0), (F.face3d2 b2 i0 j0 k0 i1 j1 k1 0)] [(F.face3d0 f0 i0 j0 k0 i1 j1 k1 0), (F.face3d1 f1 i0 j0 k0 i1 j1 k1 0), (F.face3d2 f2 i0 j0 k0 i1 j1 k1 0), (F.cell3d res i0 j0 k0 i1 j1 k1 rgcw)])
    (hpf : F.Apart (F.face3d0 f0 i0 j0 k0 i1 j1 k1 0) (F.face3d1 f1 i0 j0 k0 i1 j1 k1 0) ∧ F.Apart (F.face3d0 f0 i0 j0 k0 i1 j1 k1 0) (F.face3d2 f2 i0 j0 k0 i1 j1 k1 0) ∧ F.Apart (F.face3d1 f1 i0 j0 k0 i1 j1 k1 0) (F.face3d2 f2 i0 j0 k0 i1 j1 k1 0)) (hrf : F.Apart (F.cell3d res i0 j0 k0 i1 j1 k1 rgcw) (F.face3d0 f0 i0 j0 k0 i1 j1 k1 0) ∧ F.Apart (F.cell3d res i0 j0 k0 i1 j1 k1 rgcw) (F.face3d1 f1 i0 j0 k0 i1 j1 k1 0) ∧ F.Apart (F.cell3d res i0 j0 k0 i1 j1 k1 rgcw) (F.face3d2 f2 i0 j0 k0 i1 j1 k1 0))
    (hA : F.Holds m (F.cell3d a i0 j0 k0 i1 j1 k1 agcw) A) (hB0 : F.Holds m (F.face3d0 b0 i0 j0 k0 i1 j1 k1 0) B0) (hB1 : F.Holds m (F.face3d1 b1 i0 j0 k0 i1 j1 k1 0) B1) (hB2 : F.Holds m (F.face3d2 b2 i0 j0 k0 i1 j1 k1 0) B2) (hU : F.Holds m (F.cell3d u i0 j0 k0 i1 j1 k1 gcw) U)
    (h1' : F.Args m' [(F.cell3d a i0 j0 k0 i1 j1 k1 agcw), (F.face3d0 b0 i0 j0 k0 i1 j1 k1 0), (F.face3d1 b1 i0 j0 k0 i1 j1 k1 0), (F.face3d2 b2 i0 j0 k0 i1 j1 k1 0)] [(F.cell3d u i0 j0 k0 i1 j1 k1 gcw)]) (h2' : F.Args m' [(F.cell3d a i0 j0 k0 i1 j1 k1 agcw), (F.cell3d u i0 j0 k0 i1 j1 k1 gcw), (F.face3d0 b0 i0 j0 k0 i1 j1 k1 0), (F.face3d1 b1 i0 j0 k0 i1 j1 k1 0), (F.face3d2 b2 i0 j0 k0 i1 j1 k1 0)] [(F.face3d0 f0 i0 j0 k0 i1 j1 k1 0), (F.face3d1 f1 i0 j0 k0 i1 j1 k1 0), (F.face3d2 f2 i0 j0 k0 i1 j1 k1 0), (F.cell3d res i0 j0 k0 i1 j1 k1 rgcw)])
    (hA' : F.Holds m' (F.cell3d a i0 j0 k0 i1 j1 k1 agcw) A) (hB0' : F.Holds m' (F.face3d0 b0 i0 j0 k0 i1 j1 k1 0) B0) (hB1' : F.Holds m' (F.face3d1 b1 i0 j0 k0 i1 j1 k1 0) B1) (hB2' : F.Holds m' (F.face3d2 b2 i0 j0 k0 i1 j1 k1 0) B2) (hV : F.Holds m' (F.cell3d u i0 j0 k0 i1 j1 k1 gcw) V)
    (hz : ∀ g, Uncovered (fun c : BcCall T => F.onSeg3 c.lo c.hi 1 c.face) l [(i0, i1), (j0, j1), (k0, k1)] 7 (F.row F.points3) g → U g ≤ V g) (he : F.Elliptic3 i0 j0 k0 i1 j1 k1 alpha beta dx A B0 B1 B2) (hq : ∀ c ∈ l, BcCall.Positive (c.piece3 i0 j0 k0 i1 j1 k1 dx B0 B1 B2))
    (ht : F.Tied [(i0, i1), (j0, j1), (k0, k1)] 7 (F.row F.points3) (l.map (fun c : BcCall T => c.piece3 i0 j0 k0 i1 j1 k1 dx B0 B1 B2)) (fun c => alpha * A c)) :
    ∃ m0 m1 m2 m0' m1' m2', ∃ R S : List Int → T, inOrder (fun c : BcCall T => Cuda.setBc3d i0 i1 j0 j1 k0 k1 dx 0 b0 b1 b2 gcw u c.lo c.hi c.order c.face 1 c.btype c.alpha c.beta c.sched) l m = .ok m0 ∧ Cuda.flux3d i0 j0 k0 i1 j1 k1 dx b0 b1 b2 gcw u f0 f1 f2 β1 m0 = .ok m1 ∧ Cuda.diffusionV1Apply3d i0 i1 j0 j1 k0 k1 alpha beta dx agcw a gcw u f0 f1 f2 rgcw res β2 m1 = .ok m2 ∧
      inOrder (fun c : BcCall T => Cuda.setBc3d i0 i1 j0 j1 k0 k1 dx 0 b0 b1 b2 gcw u c.lo c.hi c.order c.face 1 c.btype c.alpha c.beta c.sched) l m' = .ok m0' ∧ Cuda.flux3d i0 j0 k0 i1 j1 k1 dx b0 b1 b2 gcw u f0 f1 f2 β3 m0' = .ok m1' ∧ Cuda.diffusionV1Apply3d i0 i1 j0 j1 k0 k1 alpha beta dx agcw a gcw u f0 f1 f2 rgcw res β4 m1' = .ok m2' ∧
      (∀ p, F.InBounds [(i0, i1), (j0, j1), (k0, k1)] p → F.El m2 (F.cell3d res i0 j0 k0 i1 j1 k1 rgcw) p (R p)) ∧ (∀ p, F.InBounds [(i0, i1), (j0, j1), (k0, k1)] p → F.El m2' (F.cell3d res i0 j0 k0 i1 j1 k1 rgcw) p (S p)) ∧
      ((∀ p, F.InBounds [(i0, i1), (j0, j1), (k0, k1)] p → R p ≤ S p) → ∀ p, F.InBounds [(i0, i1), (j0, j1), (k0, k1)] p → U p ≤ V p) := by
  have hps : ∀ k ∈ l.map (fun c : BcCall T => c.piece3 i0 j0 k0 i1 j1 k1 dx B0 B1 B2), F.First k.btype k.order ∧ 0 < k.width ∧ ∀ p, k.cells p → 0 ≤ k.coef p := fun k hk => by
    obtain ⟨c, hcl, rfl⟩ := List.mem_map.1 hk
    exact ⟨(hc c hcl).1, hq c hcl⟩
  obtain ⟨m0, m1, m2, X, R, a0, a1, a2, E, hin, hR, hj⟩ := wall_v1_3 (alpha := alpha) (beta := beta) hβ1 hβ2 hwi hwj hwk hag hg hrg hu hl hs hc h1 h2 hpf hrf hA hB0 hB1 hB2 hU
  obtain ⟨m0', m1', m2', Z, S, a0', a1', a2', E', hin', hR', hj'⟩ := wall_v1_3 (alpha := alpha) (beta := beta) hβ3 hβ4 hwi hwj hwk hag hg hrg hu hl hs hc h1' h2' hpf hrf hA' hB0' hB1' hB2' hV
  refine ⟨m0, m1, m2, m0', m1', m2', R, S, a0, a1, a2, a0', a1', a2', E, E', fun hRS p hp => ?_⟩
  have lk : F.Leaky [(i0, i1), (j0, j1), (k0, k1)] 7 (F.row F.points3) (F.jump (l.map (fun c : BcCall T => c.piece3 i0 j0 k0 i1 j1 k1 dx B0 B1 B2))) (fun p => X p - Z p) (fun p => max (X p - Z p) 0) := F.leaky_max (F.jump_nonneg hps) fun p hp e e0 e1 ho => by
    rcases hj p hp e e0 e1 ho with ⟨jn, j⟩ | ⟨j1, j2, j3⟩ <;> rcases hj' p hp e e0 e1 ho with ⟨kn, k⟩ | ⟨k1, k2, k3⟩
    · left
      show X _ - Z _ = _ * (X p - Z p)
      rw [j, k]
      ring
    · exact absurd k2 jn
    · exact absurd j2 kn
    · refine Or.inr ⟨j1, ?_⟩
      show X _ - Z _ ≤ 0
      rw [j3, k3]
      have := hz _ j2
      linarith
  have h0 : F.form3 i0 j0 k0 i1 j1 k1 alpha beta dx A B0 B1 B2 (fun p => X p - Z p) (F.cutTo [(i0, i1), (j0, j1), (k0, k1)] (fun p => max (X p - Z p) 0)) ≤ 0 := by
    rw [F.form3_sub, ← F.weak3 hwi.le hwj.le hwk.le (fun p hp => F.cutTo_out hp), ← F.weak3 hwi.le hwj.le hwk.le (fun p hp => F.cutTo_out hp), sub_nonpos]
    refine F.sum_mono fun i hi0 hi1 => F.sum_mono fun j hj0 hj1 => F.sum_mono fun k hk0 hk1 => ?_
    have hp : F.InBounds [(i0, i1), (j0, j1), (k0, k1)] [i, j, k] := F.inBounds3.2 ⟨i, j, k, rfl, by omega⟩
    rw [F.cutTo_in hp, ← hR i j k hi0 hi1 hj0 hj1 hk0 hk1, ← hR' i j k hi0 hi1 hj0 hj1 hk0 hk1]
    exact mul_le_mul_of_nonneg_left (hRS _ hp) (le_max_right _ _)
  have ht' : F.Tied [(i0, i1), (j0, j1), (k0, k1)] 7 (F.row F.points3) (l.map (fun c : BcCall T => c.piece3 i0 j0 k0 i1 j1 k1 dx B0 B1 B2)) (fun c => alpha * A c) := by
    simpa using ht
  have hm := lk.zero3 hwi.le hwj.le hwk.le he (F.jump_nonneg hps) (fun p q => by
    have := F.max_le (X p - Z p) (X q - Z q)
    exact this) (fun p => F.max_cell _) ht' (F.jump_ne hps) h0 p hp
  have hm : max (X p - Z p) 0 = 0 := hm
  have := le_max_left (X p - Z p) 0
  rw [← hin p hp, ← hin' p hp]
  linarith

example :=
  C94_v1_3d (T := Rat) (l := [exFill (exSeg (-1) 1 2) (exSeg (-1) 2 2) 0 4, exFill (exSeg (-1) 1 3) (exSeg (-1) 1 3) 0 1, exFill (exSeg 0 3 2) (exSeg 1 3 3) 3 0, exFill (exSeg 0 2 1) (exSeg 1 2 1) 4 4]) (i0 := 0) (i1 := 1) (j0 := 1) (j1 := 2) (k0 := 2) (k1 := 3) (dx := exDx) (alpha := 3) (beta := 2) (gcw := 2) (rgcw := 1) (u := ⟨1, 0⟩) (res := ⟨8, 0⟩) (a := ⟨0, 0⟩) (agcw := 1) (b0 := ⟨2, 0⟩) (f0 := ⟨5, 0⟩) (b1 := ⟨3, 0⟩) (f1 := ⟨6, 0⟩) (b2 := ⟨4, 0⟩) (f2 := ⟨7, 0⟩) (U := exBump 3 5) (m := exFun (exCase3 (exBump 3 5))) (V := exBump 3 40) (m' := exFun (exCase3 (exBump 3 40)))
    (fun _ => revBackend_ok) (fun _ => seqBackend_ok) (fun _ => seqBackend_ok) (fun _ => revBackend_ok) (by decide) (by decide) (by decide) (by decide) (by decide) (by decide)
    (by ex_fusable) (by ex_falong) (by ex_fseparate) (by ex_solvable3 (fun _ => exRd_nonneg))
    (exFun_args (by ex_args)) (exFun_args (by ex_args)) ⟨apart_blk (by decide), apart_blk (by decide), apart_blk (by decide)⟩ ⟨apart_blk (by decide), apart_blk (by decide), apart_blk (by decide)⟩ (exFun_holds rfl rfl (exRat_ok rfl (by decide) (by decide))) (exFun_holds rfl rfl (exRat_ok rfl (by decide) (by decide))) (exFun_holds rfl rfl (exRat_ok rfl (by decide) (by decide))) (exFun_holds rfl rfl (exRat_ok rfl (by decide) (by decide))) (exFun_holds rfl rfl (exRat_ok rfl (by decide) (by decide)))
    (exFun_args (by ex_args)) (exFun_args (by ex_args)) (exFun_holds rfl rfl (exRat_ok rfl (by decide) (by decide))) (exFun_holds rfl rfl (exRat_ok rfl (by decide) (by decide))) (exFun_holds rfl rfl (exRat_ok rfl (by decide) (by decide))) (exFun_holds rfl rfl (exRat_ok rfl (by decide) (by decide))) (exFun_holds rfl rfl (exRat_ok rfl (by decide) (by decide)))
    (fun g hg => by rw [exBump_zero3 g hg.1, exBump_zero3 g hg.1]) exEll_v1_3 (by ex_positive3 (fun _ => exRd_nonneg)) exFree3

/-- 3D, diffusion operator with constant reaction: fields `U` and `V`, `U ≤ V` in the ghost cells that belong to no segment, for which `set_bc` for segments of the boundary, the flux and the apply kernel give `R ≤ S`, fulfil `U ≤ V` in the box if there is a cell with a reaction, or a face without a Neumann condition. -/
theorem C94_v2_3d {i0 j0 k0 i1 j1 k1 gcw rgcw : Int} {alpha beta : T} {dx : Nat → T} {b0 b1 b2 f0 f1 f2 u res : Ptr} {β1 β2 β3 β4 : Nat → Backend} {l : List (BcCall T)} {m m' : Mem T} {B0 B1 B2 U V : List Int → T}
    (hβ1 : ∀ n, ValidBackend (β1 n)) (hβ2 : ∀ n, ValidBackend (β2 n)) (hβ3 : ∀ n, ValidBackend (β3 n)) (hβ4 : ∀ n, ValidBackend (β4 n)) (hwi : i0 < i1) (hwj : j0 < j1) (hwk : k0 < k1) (hg : 1 ≤ gcw) (hrg : 0 ≤ rgcw)
    (hu : ∀ c ∈ l, c.Usable 3) (hl : ∀ c ∈ l, c.Along3 1 i0 j0 k0 i1 j1 k1) (hs : ∀ c ∈ l, ∀ d ∈ l, Separate (fun c : BcCall T => F.onSeg3 c.lo c.hi 1 c.face) c d) (hc : ∀ c ∈ l, c.Solvable (c.piece3 i0 j0 k0 i1 j1 k1 dx B0 B1 B2))
    (h1 : F.Args m [(F.face3d0 b0 i0 j0 k0 i1 j1 k1 0), (F.face3d1 b1 i0 j0 k0 i1 j1 k1 0), (F.face3d2 b2 i0 j0 k0 i1 j1 k1 0)] [(F.cell3d u i0 j0 k0 i1 j1 k1 gcw)]) (h2 : F.Args m [(F.cell3d u i0 j0 k0 i1 j1 k1 gcw), (F.face3d0 b0 i0 j0 k0 i1 j1 k1 0), (F.face3d1 b1 i0 j0 k0 i1 j1 k1 0), (F.face3d2 b2 i0 j0 k0 i1 j1 k1 0)] [(F.face3d0 f0 i0 j0 k0 i1 j1 k1 0), (F.face3d1 f1 i0 j0 k0 i1 j1 k1 0), (F.face3d2 f2 i0 j0 k0 i1 j1 k1 0), (F.cell3d res i0 j0 k0 i1 j1 k1 rgcw)])
    (hpf : F.Apart (F.face3d0 f0 i0 j0 k0 i1 j1 k1 0) (F.face3d1 f1 i0 j0 k0 i1 j1 k1 0) ∧ F.Apart (F.face3d0 f0 i0 j0 k0 i1 j1 k1 0) (F.face3d2 f2 i0 j0 k0 i1 j1 k1 0) ∧ F.Apart (F.face3d1 f1 i0 j0 k0 i1 j1 k1 0) (F.face3d2 f2 i0 j0 k0 i1 j1 k1 0)) (hrf : F.Apart (F.cell3d res i0 j0 k0 i1 j1 k1 rgcw) (F.face3d0 f0 i0 j0 k0 i1 j1 k1 0) ∧ F.Apart (F.cell3d res i0 j0 k0 i1 j1 k1 rgcw) (F.face3d1 f1 i0 j0 k0 i1 j1 k1 0) ∧ F.Apart (F.cell3d res i0 j0 k0 i1 j1 k1 rgcw) (F.face3d2 f2 i0 j0 k0 i1 j1 k1 0))
    (hB0 : F.Holds m (F.face3d0 b0 i0 j0 k0 i1 j1 k1 0) B0) (hB1 : F.Holds m (F.face3d1 b1 i0 j0 k0 i1 j1 k1 0) B1) (hB2 : F.Holds m (F.face3d2 b2 i0 j0 k0 i1 j1 k1 0) B2) (hU : F.Holds m (F.cell3d u i0 j0 k0 i1 j1 k1 gcw) U)
    (h1' : F.Args m' [(F.face3d0 b0 i0 j0 k0 i1 j1 k1 0), (F.face3d1 b1 i0 j0 k0 i1 j1 k1 0), (F.face3d2 b2 i0 j0 k0 i1 j1 k1 0)] [(F.cell3d u i0 j0 k0 i1 j1 k1 gcw)]) (h2' : F.Args m' [(F.cell3d u i0 j0 k0 i1 j1 k1 gcw), (F.face3d0 b0 i0 j0 k0 i1 j1 k1 0), (F.face3d1 b1 i0 j0 k0 i1 j1 k1 0), (F.face3d2 b2 i0 j0 k0 i1 j1 k1 0)] [(F.face3d0 f0 i0 j0 k0 i1 j1 k1 0), (F.face3d1 f1 i0 j0 k0 i1 j1 k1 0), (F.face3d2 f2 i0 j0 k0 i1 j1 k1 0), (F.cell3d res i0 j0 k0 i1 j1 k1 rgcw)])
    (hB0' : F.Holds m' (F.face3d0 b0 i0 j0 k0 i1 j1 k1 0) B0) (hB1' : F.Holds m' (F.face3d1 b1 i0 j0 k0 i1 j1 k1 0) B1) (hB2' : F.Holds m' (F.face3d2 b2 i0 j0 k0 i1 j1 k1 0) B2) (hV : F.Holds m' (F.cell3d u i0 j0 k0 i1 j1 k1 gcw) V)
    (hz : ∀ g, Uncovered (fun c : BcCall T => F.onSeg3 c.lo c.hi 1 c.face) l [(i0, i1), (j0, j1), (k0, k1)] 7 (F.row F.points3) g → U g ≤ V g) (he : F.Elliptic3 i0 j0 k0 i1 j1 k1 alpha beta dx (fun _ => 1) B0 B1 B2) (hq : ∀ c ∈ l, BcCall.Positive (c.piece3 i0 j0 k0 i1 j1 k1 dx B0 B1 B2))
    (ht : F.Tied [(i0, i1), (j0, j1), (k0, k1)] 7 (F.row F.points3) (l.map (fun c : BcCall T => c.piece3 i0 j0 k0 i1 j1 k1 dx B0 B1 B2)) (fun _ => alpha)) :
    ∃ m0 m1 m2 m0' m1' m2', ∃ R S : List Int → T, inOrder (fun c : BcCall T => Cuda.setBc3d i0 i1 j0 j1 k0 k1 dx 0 b0 b1 b2 gcw u c.lo c.hi c.order c.face 1 c.btype c.alpha c.beta c.sched) l m = .ok m0 ∧ Cuda.flux3d i0 j0 k0 i1 j1 k1 dx b0 b1 b2 gcw u f0 f1 f2 β1 m0 = .ok m1 ∧ Cuda.diffusionV2Apply3d i0 i1 j0 j1 k0 k1 alpha beta dx gcw u f0 f1 f2 rgcw res β2 m1 = .ok m2 ∧
      inOrder (fun c : BcCall T => Cuda.setBc3d i0 i1 j0 j1 k0 k1 dx 0 b0 b1 b2 gcw u c.lo c.hi c.order c.face 1 c.btype c.alpha c.beta c.sched) l m' = .ok m0' ∧ Cuda.flux3d i0 j0 k0 i1 j1 k1 dx b0 b1 b2 gcw u f0 f1 f2 β3 m0' = .ok m1' ∧ Cuda.diffusionV2Apply3d i0 i1 j0 j1 k0 k1 alpha beta dx gcw u f0 f1 f2 rgcw res β4 m1' = .ok m2' ∧
      (∀ p, F.InBounds [(i0, i1), (j0, j1), (k0, k1)] p → F.El m2 (F.cell3d res i0 j0 k0 i1 j1 k1 rgcw) p (R p)) ∧ (∀ p, F.InBounds [(i0, i1), (j0, j1), (k0, k1)] p → F.El m2' (F.cell3d res i0 j0 k0 i1 j1 k1 rgcw) p (S p)) ∧
      ((∀ p, F.InBounds [(i0, i1), (j0, j1), (k0, k1)] p → R p ≤ S p) → ∀ p, F.InBounds [(i0, i1), (j0, j1), (k0, k1)] p → U p ≤ V p) := by
  have hps : ∀ k ∈ l.map (fun c : BcCall T => c.piece3 i0 j0 k0 i1 j1 k1 dx B0 B1 B2), F.First k.btype k.order ∧ 0 < k.width ∧ ∀ p, k.cells p → 0 ≤ k.coef p := fun k hk => by
    obtain ⟨c, hcl, rfl⟩ := List.mem_map.1 hk
    exact ⟨(hc c hcl).1, hq c hcl⟩
  obtain ⟨m0, m1, m2, X, R, a0, a1, a2, E, hin, hR, hj⟩ := wall_v2_3 (alpha := alpha) (beta := beta) hβ1 hβ2 hwi hwj hwk hg hrg hu hl hs hc h1 h2 hpf hrf hB0 hB1 hB2 hU
  obtain ⟨m0', m1', m2', Z, S, a0', a1', a2', E', hin', hR', hj'⟩ := wall_v2_3 (alpha := alpha) (beta := beta) hβ3 hβ4 hwi hwj hwk hg hrg hu hl hs hc h1' h2' hpf hrf hB0' hB1' hB2' hV
  refine ⟨m0, m1, m2, m0', m1', m2', R, S, a0, a1, a2, a0', a1', a2', E, E', fun hRS p hp => ?_⟩
  have lk : F.Leaky [(i0, i1), (j0, j1), (k0, k1)] 7 (F.row F.points3) (F.jump (l.map (fun c : BcCall T => c.piece3 i0 j0 k0 i1 j1 k1 dx B0 B1 B2))) (fun p => X p - Z p) (fun p => max (X p - Z p) 0) := F.leaky_max (F.jump_nonneg hps) fun p hp e e0 e1 ho => by
    rcases hj p hp e e0 e1 ho with ⟨jn, j⟩ | ⟨j1, j2, j3⟩ <;> rcases hj' p hp e e0 e1 ho with ⟨kn, k⟩ | ⟨k1, k2, k3⟩
    · left
      show X _ - Z _ = _ * (X p - Z p)
      rw [j, k]
      ring
    · exact absurd k2 jn
    · exact absurd j2 kn
    · refine Or.inr ⟨j1, ?_⟩
      show X _ - Z _ ≤ 0
      rw [j3, k3]
      have := hz _ j2
      linarith
  have h0 : F.form3 i0 j0 k0 i1 j1 k1 alpha beta dx (fun _ => (1 : T)) B0 B1 B2 (fun p => X p - Z p) (F.cutTo [(i0, i1), (j0, j1), (k0, k1)] (fun p => max (X p - Z p) 0)) ≤ 0 := by
    rw [F.form3_sub, ← F.weak3 hwi.le hwj.le hwk.le (fun p hp => F.cutTo_out hp), ← F.weak3 hwi.le hwj.le hwk.le (fun p hp => F.cutTo_out hp), sub_nonpos]
    refine F.sum_mono fun i hi0 hi1 => F.sum_mono fun j hj0 hj1 => F.sum_mono fun k hk0 hk1 => ?_
    have hp : F.InBounds [(i0, i1), (j0, j1), (k0, k1)] [i, j, k] := F.inBounds3.2 ⟨i, j, k, rfl, by omega⟩
    rw [F.cutTo_in hp, ← hR i j k hi0 hi1 hj0 hj1 hk0 hk1, ← hR' i j k hi0 hi1 hj0 hj1 hk0 hk1]
    exact mul_le_mul_of_nonneg_left (hRS _ hp) (le_max_right _ _)
  have ht' : F.Tied [(i0, i1), (j0, j1), (k0, k1)] 7 (F.row F.points3) (l.map (fun c : BcCall T => c.piece3 i0 j0 k0 i1 j1 k1 dx B0 B1 B2)) (fun c => alpha * (fun _ => (1 : T)) c) := by
    simpa using ht
  have hm := lk.zero3 hwi.le hwj.le hwk.le he (F.jump_nonneg hps) (fun p q => by
    have := F.max_le (X p - Z p) (X q - Z q)
    exact this) (fun p => F.max_cell _) ht' (F.jump_ne hps) h0 p hp
  have hm : max (X p - Z p) 0 = 0 := hm
  have := le_max_left (X p - Z p) 0
  rw [← hin p hp, ← hin' p hp]
  linarith

example :=
  C94_v2_3d (T := Rat) (l := [exFill (exSeg (-1) 1 2) (exSeg (-1) 2 2) 0 4, exFill (exSeg (-1) 1 3) (exSeg (-1) 1 3) 0 1, exFill (exSeg 0 3 2) (exSeg 1 3 3) 3 0, exFill (exSeg 0 2 1) (exSeg 1 2 1) 4 4]) (i0 := 0) (i1 := 1) (j0 := 1) (j1 := 2) (k0 := 2) (k1 := 3) (dx := exDx) (alpha := 3) (beta := 2) (gcw := 2) (rgcw := 1) (u := ⟨1, 0⟩) (res := ⟨8, 0⟩) (b0 := ⟨2, 0⟩) (f0 := ⟨5, 0⟩) (b1 := ⟨3, 0⟩) (f1 := ⟨6, 0⟩) (b2 := ⟨4, 0⟩) (f2 := ⟨7, 0⟩) (U := exBump 3 5) (m := exFun (exCase3 (exBump 3 5))) (V := exBump 3 40) (m' := exFun (exCase3 (exBump 3 40)))
    (fun _ => revBackend_ok) (fun _ => seqBackend_ok) (fun _ => seqBackend_ok) (fun _ => revBackend_ok) (by decide) (by decide) (by decide) (by decide) (by decide)
    (by ex_fusable) (by ex_falong) (by ex_fseparate) (by ex_solvable3 (fun _ => exRd_nonneg))
    (exFun_args (by ex_args)) (exFun_args (by ex_args)) ⟨apart_blk (by decide), apart_blk (by decide), apart_blk (by decide)⟩ ⟨apart_blk (by decide), apart_blk (by decide), apart_blk (by decide)⟩ (exFun_holds rfl rfl (exRat_ok rfl (by decide) (by decide))) (exFun_holds rfl rfl (exRat_ok rfl (by decide) (by decide))) (exFun_holds rfl rfl (exRat_ok rfl (by decide) (by decide))) (exFun_holds rfl rfl (exRat_ok rfl (by decide) (by decide)))
    (exFun_args (by ex_args)) (exFun_args (by ex_args)) (exFun_holds rfl rfl (exRat_ok rfl (by decide) (by decide))) (exFun_holds rfl rfl (exRat_ok rfl (by decide) (by decide))) (exFun_holds rfl rfl (exRat_ok rfl (by decide) (by decide))) (exFun_holds rfl rfl (exRat_ok rfl (by decide) (by decide)))
    (fun g hg => by rw [exBump_zero3 g hg.1, exBump_zero3 g hg.1]) exEll_v2_3 (by ex_positive3 (fun _ => exRd_nonneg)) exFree3

/-- 3D, Poisson operator: fields `U` and `V`, `U ≤ V` in the ghost cells that belong to no segment, for which `set_poisson_bc` for segments of the boundary, the flux and the apply kernel give `R ≤ S`, fulfil `U ≤ V` in the box if there is a cell with a reaction, or a face without a Neumann condition. -/
theorem C94_poisson_3d {i0 j0 k0 i1 j1 k1 gcw rgcw : Int} {beta : T} {dx : Nat → T} {f0 f1 f2 u res : Ptr} {β1 β2 β3 β4 : Nat → Backend} {l : List (BcCall T)} {m m' : Mem T} {U V : List Int → T}
    (hβ1 : ∀ n, ValidBackend (β1 n)) (hβ2 : ∀ n, ValidBackend (β2 n)) (hβ3 : ∀ n, ValidBackend (β3 n)) (hβ4 : ∀ n, ValidBackend (β4 n)) (hwi : i0 < i1) (hwj : j0 < j1) (hwk : k0 < k1) (hg : 1 ≤ gcw) (hrg : 0 ≤ rgcw)
    (hu : ∀ c ∈ l, c.Usable 3) (hl : ∀ c ∈ l, c.Along3 1 i0 j0 k0 i1 j1 k1) (hs : ∀ c ∈ l, ∀ d ∈ l, Separate (fun c : BcCall T => F.onSeg3 c.lo c.hi 1 c.face) c d) (hc : ∀ c ∈ l, c.Solvable (c.piece3 i0 j0 k0 i1 j1 k1 dx (fun _ => (1 : T)) (fun _ => (1 : T)) (fun _ => (1 : T))))
    (h1 : F.Args m [] [(F.cell3d u i0 j0 k0 i1 j1 k1 gcw)]) (h2 : F.Args m [(F.cell3d u i0 j0 k0 i1 j1 k1 gcw)] [(F.face3d0 f0 i0 j0 k0 i1 j1 k1 0), (F.face3d1 f1 i0 j0 k0 i1 j1 k1 0), (F.face3d2 f2 i0 j0 k0 i1 j1 k1 0), (F.cell3d res i0 j0 k0 i1 j1 k1 rgcw)])
    (hpf : F.Apart (F.face3d0 f0 i0 j0 k0 i1 j1 k1 0) (F.face3d1 f1 i0 j0 k0 i1 j1 k1 0) ∧ F.Apart (F.face3d0 f0 i0 j0 k0 i1 j1 k1 0) (F.face3d2 f2 i0 j0 k0 i1 j1 k1 0) ∧ F.Apart (F.face3d1 f1 i0 j0 k0 i1 j1 k1 0) (F.face3d2 f2 i0 j0 k0 i1 j1 k1 0)) (hrf : F.Apart (F.cell3d res i0 j0 k0 i1 j1 k1 rgcw) (F.face3d0 f0 i0 j0 k0 i1 j1 k1 0) ∧ F.Apart (F.cell3d res i0 j0 k0 i1 j1 k1 rgcw) (F.face3d1 f1 i0 j0 k0 i1 j1 k1 0) ∧ F.Apart (F.cell3d res i0 j0 k0 i1 j1 k1 rgcw) (F.face3d2 f2 i0 j0 k0 i1 j1 k1 0))
    (hU : F.Holds m (F.cell3d u i0 j0 k0 i1 j1 k1 gcw) U)
    (h1' : F.Args m' [] [(F.cell3d u i0 j0 k0 i1 j1 k1 gcw)]) (h2' : F.Args m' [(F.cell3d u i0 j0 k0 i1 j1 k1 gcw)] [(F.face3d0 f0 i0 j0 k0 i1 j1 k1 0), (F.face3d1 f1 i0 j0 k0 i1 j1 k1 0), (F.face3d2 f2 i0 j0 k0 i1 j1 k1 0), (F.cell3d res i0 j0 k0 i1 j1 k1 rgcw)])
    (hV : F.Holds m' (F.cell3d u i0 j0 k0 i1 j1 k1 gcw) V)
    (hz : ∀ g, Uncovered (fun c : BcCall T => F.onSeg3 c.lo c.hi 1 c.face) l [(i0, i1), (j0, j1), (k0, k1)] 7 (F.row F.points3) g → U g ≤ V g) (he : F.Elliptic3 i0 j0 k0 i1 j1 k1 0 beta dx (fun _ => 1) (fun _ => 1) (fun _ => 1) (fun _ => 1)) (hq : ∀ c ∈ l, BcCall.Positive (c.piece3 i0 j0 k0 i1 j1 k1 dx (fun _ => (1 : T)) (fun _ => (1 : T)) (fun _ => (1 : T))))
    (ht : F.Tied [(i0, i1), (j0, j1), (k0, k1)] 7 (F.row F.points3) (l.map (fun c : BcCall T => c.piece3 i0 j0 k0 i1 j1 k1 dx (fun _ => (1 : T)) (fun _ => (1 : T)) (fun _ => (1 : T)))) (fun _ => 0)) :
    ∃ m0 m1 m2 m0' m1' m2', ∃ R S : List Int → T, inOrder (fun c : BcCall T => Cuda.setPoissonBc3d i0 i1 j0 j1 k0 k1 dx gcw u c.lo c.hi c.order c.face 1 c.btype c.alpha c.beta c.sched) l m = .ok m0 ∧ Cuda.poissonFlux3d i0 j0 k0 i1 j1 k1 dx gcw u f0 f1 f2 β1 m0 = .ok m1 ∧ Cuda.poissonV2Apply3d i0 i1 j0 j1 k0 k1 beta dx f0 f1 f2 rgcw res β2 m1 = .ok m2 ∧
      inOrder (fun c : BcCall T => Cuda.setPoissonBc3d i0 i1 j0 j1 k0 k1 dx gcw u c.lo c.hi c.order c.face 1 c.btype c.alpha c.beta c.sched) l m' = .ok m0' ∧ Cuda.poissonFlux3d i0 j0 k0 i1 j1 k1 dx gcw u f0 f1 f2 β3 m0' = .ok m1' ∧ Cuda.poissonV2Apply3d i0 i1 j0 j1 k0 k1 beta dx f0 f1 f2 rgcw res β4 m1' = .ok m2' ∧
      (∀ p, F.InBounds [(i0, i1), (j0, j1), (k0, k1)] p → F.El m2 (F.cell3d res i0 j0 k0 i1 j1 k1 rgcw) p (R p)) ∧ (∀ p, F.InBounds [(i0, i1), (j0, j1), (k0, k1)] p → F.El m2' (F.cell3d res i0 j0 k0 i1 j1 k1 rgcw) p (S p)) ∧
      ((∀ p, F.InBounds [(i0, i1), (j0, j1), (k0, k1)] p → R p ≤ S p) → ∀ p, F.InBounds [(i0, i1), (j0, j1), (k0, k1)] p → U p ≤ V p) := by
  have hps : ∀ k ∈ l.map (fun c : BcCall T => c.piece3 i0 j0 k0 i1 j1 k1 dx (fun _ => (1 : T)) (fun _ => (1 : T)) (fun _ => (1 : T))), F.First k.btype k.order ∧ 0 < k.width ∧ ∀ p, k.cells p → 0 ≤ k.coef p := fun k hk => by
    obtain ⟨c, hcl, rfl⟩ := List.mem_map.1 hk
    exact ⟨(hc c hcl).1, hq c hcl⟩
  obtain ⟨m0, m1, m2, X, R, a0, a1, a2, E, hin, hR, hj⟩ := wall_p_3 (beta := beta) hβ1 hβ2 hwi hwj hwk hg hrg hu hl hs hc h1 h2 hpf hrf hU
  obtain ⟨m0', m1', m2', Z, S, a0', a1', a2', E', hin', hR', hj'⟩ := wall_p_3 (beta := beta) hβ3 hβ4 hwi hwj hwk hg hrg hu hl hs hc h1' h2' hpf hrf hV
  refine ⟨m0, m1, m2, m0', m1', m2', R, S, a0, a1, a2, a0', a1', a2', E, E', fun hRS p hp => ?_⟩
  have lk : F.Leaky [(i0, i1), (j0, j1), (k0, k1)] 7 (F.row F.points3) (F.jump (l.map (fun c : BcCall T => c.piece3 i0 j0 k0 i1 j1 k1 dx (fun _ => (1 : T)) (fun _ => (1 : T)) (fun _ => (1 : T))))) (fun p => X p - Z p) (fun p => max (X p - Z p) 0) := F.leaky_max (F.jump_nonneg hps) fun p hp e e0 e1 ho => by
    rcases hj p hp e e0 e1 ho with ⟨jn, j⟩ | ⟨j1, j2, j3⟩ <;> rcases hj' p hp e e0 e1 ho with ⟨kn, k⟩ | ⟨k1, k2, k3⟩
    · left
      show X _ - Z _ = _ * (X p - Z p)
      rw [j, k]
      ring
    · exact absurd k2 jn
    · exact absurd j2 kn
    · refine Or.inr ⟨j1, ?_⟩
      show X _ - Z _ ≤ 0
      rw [j3, k3]
      have := hz _ j2
      linarith
  have h0 : F.form3 i0 j0 k0 i1 j1 k1 0 beta dx (fun _ => (1 : T)) (fun _ => (1 : T)) (fun _ => (1 : T)) (fun _ => (1 : T)) (fun p => X p - Z p) (F.cutTo [(i0, i1), (j0, j1), (k0, k1)] (fun p => max (X p - Z p) 0)) ≤ 0 := by
    rw [F.form3_sub, ← F.weak3 hwi.le hwj.le hwk.le (fun p hp => F.cutTo_out hp), ← F.weak3 hwi.le hwj.le hwk.le (fun p hp => F.cutTo_out hp), sub_nonpos]
    refine F.sum_mono fun i hi0 hi1 => F.sum_mono fun j hj0 hj1 => F.sum_mono fun k hk0 hk1 => ?_
    have hp : F.InBounds [(i0, i1), (j0, j1), (k0, k1)] [i, j, k] := F.inBounds3.2 ⟨i, j, k, rfl, by omega⟩
    rw [F.cutTo_in hp, ← hR i j k hi0 hi1 hj0 hj1 hk0 hk1, ← hR' i j k hi0 hi1 hj0 hj1 hk0 hk1]
    exact mul_le_mul_of_nonneg_left (hRS _ hp) (le_max_right _ _)
  have ht' : F.Tied [(i0, i1), (j0, j1), (k0, k1)] 7 (F.row F.points3) (l.map (fun c : BcCall T => c.piece3 i0 j0 k0 i1 j1 k1 dx (fun _ => (1 : T)) (fun _ => (1 : T)) (fun _ => (1 : T)))) (fun c => 0 * (fun _ => (1 : T)) c) := by
    simpa using ht
  have hm := lk.zero3 hwi.le hwj.le hwk.le he (F.jump_nonneg hps) (fun p q => by
    have := F.max_le (X p - Z p) (X q - Z q)
    exact this) (fun p => F.max_cell _) ht' (F.jump_ne hps) h0 p hp
  have hm : max (X p - Z p) 0 = 0 := hm
  have := le_max_left (X p - Z p) 0
  rw [← hin p hp, ← hin' p hp]
  linarith

example :=
  C94_poisson_3d (T := Rat) (l := [exFill (exSeg (-1) 1 2) (exSeg (-1) 2 2) 0 4, exFill (exSeg (-1) 1 3) (exSeg (-1) 1 3) 0 1, exFill (exSeg 0 3 2) (exSeg 1 3 3) 3 0, exFill (exSeg 0 2 1) (exSeg 1 2 1) 4 4]) (i0 := 0) (i1 := 1) (j0 := 1) (j1 := 2) (k0 := 2) (k1 := 3) (dx := exDx) (beta := 2) (gcw := 2) (rgcw := 1) (u := ⟨1, 0⟩) (res := ⟨8, 0⟩) (f0 := ⟨5, 0⟩) (f1 := ⟨6, 0⟩) (f2 := ⟨7, 0⟩) (U := exBump 3 5) (m := exFun (exCase3 (exBump 3 5))) (V := exBump 3 40) (m' := exFun (exCase3 (exBump 3 40)))
    (fun _ => revBackend_ok) (fun _ => seqBackend_ok) (fun _ => seqBackend_ok) (fun _ => revBackend_ok) (by decide) (by decide) (by decide) (by decide) (by decide)
    (by ex_fusable) (by ex_falong) (by ex_fseparate) (by ex_solvable3 (fun p => exOne p))
    (exFun_args (by ex_args)) (exFun_args (by ex_args)) ⟨apart_blk (by decide), apart_blk (by decide), apart_blk (by decide)⟩ ⟨apart_blk (by decide), apart_blk (by decide), apart_blk (by decide)⟩ (exFun_holds rfl rfl (exRat_ok rfl (by decide) (by decide)))
    (exFun_args (by ex_args)) (exFun_args (by ex_args)) (exFun_holds rfl rfl (exRat_ok rfl (by decide) (by decide)))
    (fun g hg => by rw [exBump_zero3 g hg.1, exBump_zero3 g hg.1]) exEll_p_3 (by ex_positive3 (fun p => exOne p)) exFree3

end


end Verif
