import Verif.Lemmas.Assemble
import Verif.Lemmas.EnergyEx
import Verif.Lemmas.SmoothEx
import Mathlib.Tactic.IntervalCases

/-
Data for the examples about assembling and solving: the unknowns of `exDir` with 5 in the box, right hand side 0 in block 10, and the offsets of the
neighbours in the integer blocks 21, 22, 23.
-/

set_option linter.unusedVariables false

namespace Verif
open Spec

def exSolve (n : Nat) : Mem Rat where
  val q := if q.blk = 10 then Option.map (fun _ => 0) (exRat.val q) else (exDir n 5 1).val q
  ints q := (if q.blk = 21 then F.points1 else if q.blk = 22 then F.points2 else F.points3).flatten[q.off.toNat]?

theorem exSolve_args {n : Nat} {ins outs : List F.Arr} (h : F.Args exRat ins outs) : F.Args (exSolve n) ins outs := by
  have h' := exDir_args (n := n) (c := 5) (r := 1) h
  refine ⟨fun a ha => ⟨fun is hi => ?_, (h.ok a ha).fits, (h.ok a ha).int⟩, h.apart⟩
  obtain ⟨v, hv⟩ := (h.ok a ha).alloc is hi
  obtain ⟨v', hv'⟩ := (h'.ok a ha).alloc is hi
  simp only [exSolve]
  split
  · exact ⟨_, by rw [hv]; rfl⟩
  · exact ⟨v', hv'⟩

theorem exSolve_same {n : Nat} {a : F.Arr} {f : List Int → Rat} (hb : a.ptr.blk ≠ 10) (h : F.Holds (exDir n 5 1) a f) : F.Holds (exSolve n) a f := fun is hi => by
  refine ⟨hi, ?_⟩
  have := (h is hi).2
  show (if a.ptr.blk = 10 then _ else _) = _
  rw [if_neg hb]
  exact this

theorem exSolve_rd {n : Nat} {a : F.Arr} (h : a.ptr.blk ≠ 1 ∧ a.ptr.blk ≠ 8 ∧ a.ptr.off = 0 ∧ a.ptr.blk ≠ 10) (ha : F.ArrOK exRat a) : F.Holds (exSolve n) a (exRd a) :=
  exSolve_same h.2.2.2 (exDir_rd ⟨h.1, h.2.1, h.2.2.1⟩ ha)

theorem exSolve_f {n : Nat} {a : F.Arr} (ha : F.ArrOK exRat a) (h : a.ptr.blk = 10) : F.Holds (exSolve n) a (fun _ => 0) := fun is hi => by
  refine ⟨hi, ?_⟩
  obtain ⟨v, hv⟩ := ha.alloc is hi
  show (if a.ptr.blk = 10 then _ else _) = _
  rw [if_pos h]
  show Option.map _ (exRat.val (a.ptr.add (F.colMajor a.dims is))) = _
  rw [hv]
  rfl

theorem rows_of {m : Mem Rat} {tab : F.Arr} {rows : List (List Int)} {N : Nat} (hl : ∀ r ∈ rows, r.length = N)
    (h : ∀ s : Fin rows.length, ∀ c : Fin N, ∃ z, (rows[s.val])[c.val]? = some z ∧ F.IntEl m tab [(c.val : Int), (s.val : Int)] z) : F.Rows m tab rows := fun s c r z h1 h2 => by
  obtain ⟨hs, rfl⟩ := List.getElem?_eq_some_iff.1 h1
  obtain ⟨hc, -⟩ := List.getElem?_eq_some_iff.1 h2
  rw [hl _ (List.getElem_mem hs)] at hc
  obtain ⟨z', e, g⟩ := h ⟨s, hs⟩ ⟨c, hc⟩
  simp only at e
  rw [e] at h2
  injection h2 with h2
  rw [← h2]
  exact g

theorem exSolve_u1 : F.Holds (exSolve 1) (F.cell1d ⟨1, 0⟩ 0 3 2) (exIns 1 5) := exSolve_same (by decide) exDir_u1

theorem exSolve_t1 : F.Rows (exSolve 1) (F.offset0 ⟨21, 0⟩ 1 3) F.points1 := rows_of (N := 1) (by decide) (by unfold F.IntEl; decide)

theorem exSolve_out1 : ∀ p, ¬ F.InBounds [(0, 3)] p → exIns 1 5 p = exIns 1 0 p := fun p hp => by
  rw [exIns_zero1 p hp, exIns_zero1 p hp]

theorem exIns_none1 (p : List Int) : exIns 1 0 p = 0 := by
  unfold exIns
  split <;> simp

theorem exSolve_err1 : ∀ p, F.InBounds [(0, 3)] p → |exIns 1 5 p - exIns 1 0 p| ≤ 5 := fun p hp => by
  rw [exIns_none1, sub_zero]
  unfold exIns
  split <;> (try split_ifs) <;> norm_num [abs_of_pos]

theorem exRun_v1_1 : ∃ m1 m2, Cuda.flux1d 0 3 exDx ⟨2, 0⟩ 2 ⟨1, 0⟩ ⟨5, 0⟩ (fun _ => revBackend) (exDir 1 0 1) = .ok m1 ∧ Cuda.diffusionV1Apply1d 0 3 3 2 exDx 1 ⟨0, 0⟩ 2 ⟨1, 0⟩ ⟨5, 0⟩ 1 ⟨8, 0⟩ (fun _ => seqBackend) m1 = .ok m2 ∧
    ∀ p, F.InBounds [(0, 3)] p → F.El m2 (F.cell1d ⟨8, 0⟩ 0 3 1) p 0 := by
  obtain ⟨m1, m2, R, c1, c2, E, hR⟩ := energy_v1_1 (T := Rat) (dx := exDx) (alpha := 3) (beta := 2) (i0 := 0) (i1 := 3) (agcw := 1) (gcw := 2) (rgcw := 1) (a := ⟨0, 0⟩) (u := ⟨1, 0⟩) (b0 := ⟨2, 0⟩) (f0 := ⟨5, 0⟩) (res := ⟨8, 0⟩) (fun _ => revBackend_ok) (fun _ => seqBackend_ok) (by decide) (by decide) (by decide) (by decide) (exDir_args (n := 1) (c := 0) (r := 1) (by ex_args)) (apart_blk (by decide))
    (exDir_rd (by decide) (exRat_ok rfl (by decide) (by decide))) (exDir_rd (by decide) (exRat_ok rfl (by decide) (by decide))) exDir_u1
  refine ⟨m1, m2, c1, c2, fun p hp => ?_⟩
  have e := E p hp
  rw [F.inBounds1] at hp
  obtain ⟨i, rfl, hp⟩ := hp
  rw [hR i (by omega) (by omega)] at e
  unfold F.op1 at e
  simp only [exIns_none1, sub_zero, mul_zero, zero_div, neg_zero, add_zero, zero_add] at e
  exact e

theorem exRate_v1_1 : ∀ i : Int, 0 ≤ i → i ≤ 3 → (1 - 9999 / 10000) * (2 / (exDx 0 * exDx 0) * (exRd (F.face1d ⟨2, 0⟩ 0 3 0) [i] + exRd (F.face1d ⟨2, 0⟩ 0 3 0) [i + 1]) + 3 * exRd (F.cell1d ⟨0, 0⟩ 0 3 1) [i]) ≤ 3 * exRd (F.cell1d ⟨0, 0⟩ 0 3 1) [i] := by
  intro i h0 h1
  interval_cases i
  all_goals norm_num [exRd, exDx, F.colMajor, F.cell1d, F.face1d]

theorem exRun_v2_1 : ∃ m1 m2, Cuda.flux1d 0 3 exDx ⟨2, 0⟩ 2 ⟨1, 0⟩ ⟨5, 0⟩ (fun _ => revBackend) (exDir 1 0 1) = .ok m1 ∧ Cuda.diffusionV2Apply1d 0 3 3 2 exDx 2 ⟨1, 0⟩ ⟨5, 0⟩ 1 ⟨8, 0⟩ (fun _ => seqBackend) m1 = .ok m2 ∧
    ∀ p, F.InBounds [(0, 3)] p → F.El m2 (F.cell1d ⟨8, 0⟩ 0 3 1) p 0 := by
  obtain ⟨m1, m2, R, c1, c2, E, hR⟩ := energy_v2_1 (T := Rat) (dx := exDx) (alpha := 3) (beta := 2) (i0 := 0) (i1 := 3) (gcw := 2) (rgcw := 1) (u := ⟨1, 0⟩) (b0 := ⟨2, 0⟩) (f0 := ⟨5, 0⟩) (res := ⟨8, 0⟩) (fun _ => revBackend_ok) (fun _ => seqBackend_ok) (by decide) (by decide) (by decide) (exDir_args (n := 1) (c := 0) (r := 1) (by ex_args)) (apart_blk (by decide))
    (exDir_rd (by decide) (exRat_ok rfl (by decide) (by decide))) exDir_u1
  refine ⟨m1, m2, c1, c2, fun p hp => ?_⟩
  have e := E p hp
  rw [F.inBounds1] at hp
  obtain ⟨i, rfl, hp⟩ := hp
  rw [hR i (by omega) (by omega)] at e
  unfold F.op1 at e
  simp only [exIns_none1, sub_zero, mul_zero, zero_div, neg_zero, add_zero, zero_add] at e
  exact e

theorem exRate_v2_1 : ∀ i : Int, 0 ≤ i → i ≤ 3 → (1 - 9999 / 10000) * (2 / (exDx 0 * exDx 0) * (exRd (F.face1d ⟨2, 0⟩ 0 3 0) [i] + exRd (F.face1d ⟨2, 0⟩ 0 3 0) [i + 1]) + 3 * (fun _ => (1 : Rat)) [i]) ≤ 3 * (fun _ => (1 : Rat)) [i] := by
  intro i h0 h1
  interval_cases i
  all_goals norm_num [exRd, exDx, F.colMajor, F.cell1d, F.face1d]

theorem exRun_p_1 : ∃ m1 m2, Cuda.poissonFlux1d 0 3 exDx 2 ⟨1, 0⟩ ⟨5, 0⟩ (fun _ => revBackend) (exDir 1 0 1) = .ok m1 ∧ Cuda.poissonV2Apply1d 0 3 2 exDx ⟨5, 0⟩ 1 ⟨8, 0⟩ (fun _ => seqBackend) m1 = .ok m2 ∧
    ∀ p, F.InBounds [(0, 3)] p → F.El m2 (F.cell1d ⟨8, 0⟩ 0 3 1) p 0 := by
  obtain ⟨m1, m2, R, c1, c2, E, hR⟩ := energy_p_1 (T := Rat) (dx := exDx) (beta := 2) (i0 := 0) (i1 := 3) (gcw := 2) (rgcw := 1) (u := ⟨1, 0⟩) (f0 := ⟨5, 0⟩) (res := ⟨8, 0⟩) (fun _ => revBackend_ok) (fun _ => seqBackend_ok) (by decide) (by decide) (by decide) (exDir_args (n := 1) (c := 0) (r := 1) (by ex_args)) (apart_blk (by decide))
     exDir_u1
  refine ⟨m1, m2, c1, c2, fun p hp => ?_⟩
  have e := E p hp
  rw [F.inBounds1] at hp
  obtain ⟨i, rfl, hp⟩ := hp
  rw [hR i (by omega) (by omega)] at e
  unfold F.op1 at e
  simp only [exIns_none1, sub_zero, mul_zero, zero_div, neg_zero, add_zero, zero_add] at e
  exact e

theorem exSolve_u2 : F.Holds (exSolve 2) (F.cell2d ⟨1, 0⟩ 0 1 2 3 2) (exIns 2 5) := exSolve_same (by decide) exDir_u2

theorem exSolve_t2 : F.Rows (exSolve 2) (F.offset0 ⟨22, 0⟩ 2 5) F.points2 := rows_of (N := 2) (by decide) (by unfold F.IntEl; decide)

theorem exSolve_out2 : ∀ p, ¬ F.InBounds [(0, 2), (1, 3)] p → exIns 2 5 p = exIns 2 0 p := fun p hp => by
  rw [exIns_zero2 p hp, exIns_zero2 p hp]

theorem exIns_none2 (p : List Int) : exIns 2 0 p = 0 := by
  unfold exIns
  split <;> simp

theorem exSolve_err2 : ∀ p, F.InBounds [(0, 2), (1, 3)] p → |exIns 2 5 p - exIns 2 0 p| ≤ 5 := fun p hp => by
  rw [exIns_none2, sub_zero]
  unfold exIns
  split <;> (try split_ifs) <;> norm_num [abs_of_pos]

theorem exRun_v1_2 : ∃ m1 m2, Cuda.flux2d 0 1 2 3 exDx ⟨2, 0⟩ ⟨3, 0⟩ 2 ⟨1, 0⟩ ⟨5, 0⟩ ⟨6, 0⟩ (fun _ => revBackend) (exDir 2 0 1) = .ok m1 ∧ Cuda.diffusionV1Apply2d 0 2 1 3 3 2 exDx 1 ⟨0, 0⟩ 2 ⟨1, 0⟩ ⟨5, 0⟩ ⟨6, 0⟩ 1 ⟨8, 0⟩ (fun _ => seqBackend) m1 = .ok m2 ∧
    ∀ p, F.InBounds [(0, 2), (1, 3)] p → F.El m2 (F.cell2d ⟨8, 0⟩ 0 1 2 3 1) p 0 := by
  obtain ⟨m1, m2, R, c1, c2, E, hR⟩ := energy_v1_2 (T := Rat) (dx := exDx) (alpha := 3) (beta := 2) (i0 := 0) (j0 := 1) (i1 := 2) (j1 := 3) (agcw := 1) (gcw := 2) (rgcw := 1) (a := ⟨0, 0⟩) (u := ⟨1, 0⟩) (b0 := ⟨2, 0⟩) (b1 := ⟨3, 0⟩) (f0 := ⟨5, 0⟩) (f1 := ⟨6, 0⟩) (res := ⟨8, 0⟩) (fun _ => revBackend_ok) (fun _ => seqBackend_ok) (by decide) (by decide) (by decide) (by decide) (by decide) (exDir_args (n := 2) (c := 0) (r := 1) (by ex_args)) (apart_blk (by decide)) ⟨apart_blk (by decide), apart_blk (by decide)⟩
    (exDir_rd (by decide) (exRat_ok rfl (by decide) (by decide))) (exDir_rd (by decide) (exRat_ok rfl (by decide) (by decide))) (exDir_rd (by decide) (exRat_ok rfl (by decide) (by decide))) exDir_u2
  refine ⟨m1, m2, c1, c2, fun p hp => ?_⟩
  have e := E p hp
  rw [F.inBounds2] at hp
  obtain ⟨i, j, rfl, hp⟩ := hp
  rw [hR i j (by omega) (by omega) (by omega) (by omega)] at e
  unfold F.op2 at e
  simp only [exIns_none2, sub_zero, mul_zero, zero_div, neg_zero, add_zero, zero_add] at e
  exact e

theorem exRate_v1_2 : ∀ i j : Int, 0 ≤ i → i ≤ 2 → 1 ≤ j → j ≤ 3 → (1 - 9999 / 10000) * (2 / (exDx 0 * exDx 0) * (exRd (F.face2d0 ⟨2, 0⟩ 0 1 2 3 0) [i, j] + exRd (F.face2d0 ⟨2, 0⟩ 0 1 2 3 0) [i + 1, j]) + 2 / (exDx 1 * exDx 1) * (exRd (F.face2d1 ⟨3, 0⟩ 0 1 2 3 0) [j, i] + exRd (F.face2d1 ⟨3, 0⟩ 0 1 2 3 0) [j + 1, i]) + 3 * exRd (F.cell2d ⟨0, 0⟩ 0 1 2 3 1) [i, j]) ≤ 3 * exRd (F.cell2d ⟨0, 0⟩ 0 1 2 3 1) [i, j] := by
  intro i j h0 h1 h2 h3
  interval_cases i
  all_goals interval_cases j
  all_goals norm_num [exRd, exDx, F.colMajor, F.cell2d, F.face2d0, F.face2d1]

theorem exRun_v2_2 : ∃ m1 m2, Cuda.flux2d 0 1 2 3 exDx ⟨2, 0⟩ ⟨3, 0⟩ 2 ⟨1, 0⟩ ⟨5, 0⟩ ⟨6, 0⟩ (fun _ => revBackend) (exDir 2 0 1) = .ok m1 ∧ Cuda.diffusionV2Apply2d 0 2 1 3 3 2 exDx 2 ⟨1, 0⟩ ⟨5, 0⟩ ⟨6, 0⟩ 1 ⟨8, 0⟩ (fun _ => seqBackend) m1 = .ok m2 ∧
    ∀ p, F.InBounds [(0, 2), (1, 3)] p → F.El m2 (F.cell2d ⟨8, 0⟩ 0 1 2 3 1) p 0 := by
  obtain ⟨m1, m2, R, c1, c2, E, hR⟩ := energy_v2_2 (T := Rat) (dx := exDx) (alpha := 3) (beta := 2) (i0 := 0) (j0 := 1) (i1 := 2) (j1 := 3) (gcw := 2) (rgcw := 1) (u := ⟨1, 0⟩) (b0 := ⟨2, 0⟩) (b1 := ⟨3, 0⟩) (f0 := ⟨5, 0⟩) (f1 := ⟨6, 0⟩) (res := ⟨8, 0⟩) (fun _ => revBackend_ok) (fun _ => seqBackend_ok) (by decide) (by decide) (by decide) (by decide) (exDir_args (n := 2) (c := 0) (r := 1) (by ex_args)) (apart_blk (by decide)) ⟨apart_blk (by decide), apart_blk (by decide)⟩
    (exDir_rd (by decide) (exRat_ok rfl (by decide) (by decide))) (exDir_rd (by decide) (exRat_ok rfl (by decide) (by decide))) exDir_u2
  refine ⟨m1, m2, c1, c2, fun p hp => ?_⟩
  have e := E p hp
  rw [F.inBounds2] at hp
  obtain ⟨i, j, rfl, hp⟩ := hp
  rw [hR i j (by omega) (by omega) (by omega) (by omega)] at e
  unfold F.op2 at e
  simp only [exIns_none2, sub_zero, mul_zero, zero_div, neg_zero, add_zero, zero_add] at e
  exact e

theorem exRate_v2_2 : ∀ i j : Int, 0 ≤ i → i ≤ 2 → 1 ≤ j → j ≤ 3 → (1 - 9999 / 10000) * (2 / (exDx 0 * exDx 0) * (exRd (F.face2d0 ⟨2, 0⟩ 0 1 2 3 0) [i, j] + exRd (F.face2d0 ⟨2, 0⟩ 0 1 2 3 0) [i + 1, j]) + 2 / (exDx 1 * exDx 1) * (exRd (F.face2d1 ⟨3, 0⟩ 0 1 2 3 0) [j, i] + exRd (F.face2d1 ⟨3, 0⟩ 0 1 2 3 0) [j + 1, i]) + 3 * (fun _ => (1 : Rat)) [i, j]) ≤ 3 * (fun _ => (1 : Rat)) [i, j] := by
  intro i j h0 h1 h2 h3
  interval_cases i
  all_goals interval_cases j
  all_goals norm_num [exRd, exDx, F.colMajor, F.cell2d, F.face2d0, F.face2d1]

theorem exRun_p_2 : ∃ m1 m2, Cuda.poissonFlux2d 0 1 2 3 exDx 2 ⟨1, 0⟩ ⟨5, 0⟩ ⟨6, 0⟩ (fun _ => revBackend) (exDir 2 0 1) = .ok m1 ∧ Cuda.poissonV2Apply2d 0 2 1 3 2 exDx ⟨5, 0⟩ ⟨6, 0⟩ 1 ⟨8, 0⟩ (fun _ => seqBackend) m1 = .ok m2 ∧
    ∀ p, F.InBounds [(0, 2), (1, 3)] p → F.El m2 (F.cell2d ⟨8, 0⟩ 0 1 2 3 1) p 0 := by
  obtain ⟨m1, m2, R, c1, c2, E, hR⟩ := energy_p_2 (T := Rat) (dx := exDx) (beta := 2) (i0 := 0) (j0 := 1) (i1 := 2) (j1 := 3) (gcw := 2) (rgcw := 1) (u := ⟨1, 0⟩) (f0 := ⟨5, 0⟩) (f1 := ⟨6, 0⟩) (res := ⟨8, 0⟩) (fun _ => revBackend_ok) (fun _ => seqBackend_ok) (by decide) (by decide) (by decide) (by decide) (exDir_args (n := 2) (c := 0) (r := 1) (by ex_args)) (apart_blk (by decide)) ⟨apart_blk (by decide), apart_blk (by decide)⟩
     exDir_u2
  refine ⟨m1, m2, c1, c2, fun p hp => ?_⟩
  have e := E p hp
  rw [F.inBounds2] at hp
  obtain ⟨i, j, rfl, hp⟩ := hp
  rw [hR i j (by omega) (by omega) (by omega) (by omega)] at e
  unfold F.op2 at e
  simp only [exIns_none2, sub_zero, mul_zero, zero_div, neg_zero, add_zero, zero_add] at e
  exact e

theorem exSolve_u3 : F.Holds (exSolve 3) (F.cell3d ⟨1, 0⟩ 0 1 2 1 2 3 2) (exIns 3 5) := exSolve_same (by decide) exDir_u3

theorem exSolve_t3 : F.Rows (exSolve 3) (F.offset0 ⟨23, 0⟩ 3 7) F.points3 := rows_of (N := 3) (by decide) (by unfold F.IntEl; decide)

theorem exSolve_out3 : ∀ p, ¬ F.InBounds [(0, 1), (1, 2), (2, 3)] p → exIns 3 5 p = exIns 3 0 p := fun p hp => by
  rw [exIns_zero3 p hp, exIns_zero3 p hp]

theorem exIns_none3 (p : List Int) : exIns 3 0 p = 0 := by
  unfold exIns
  split <;> simp

theorem exSolve_err3 : ∀ p, F.InBounds [(0, 1), (1, 2), (2, 3)] p → |exIns 3 5 p - exIns 3 0 p| ≤ 5 := fun p hp => by
  rw [exIns_none3, sub_zero]
  unfold exIns
  split <;> (try split_ifs) <;> norm_num [abs_of_pos]

theorem exRun_v1_3 : ∃ m1 m2, Cuda.flux3d 0 1 2 1 2 3 exDx ⟨2, 0⟩ ⟨3, 0⟩ ⟨4, 0⟩ 2 ⟨1, 0⟩ ⟨5, 0⟩ ⟨6, 0⟩ ⟨7, 0⟩ (fun _ => revBackend) (exDir 3 0 1) = .ok m1 ∧ Cuda.diffusionV1Apply3d 0 1 1 2 2 3 3 2 exDx 1 ⟨0, 0⟩ 2 ⟨1, 0⟩ ⟨5, 0⟩ ⟨6, 0⟩ ⟨7, 0⟩ 1 ⟨8, 0⟩ (fun _ => seqBackend) m1 = .ok m2 ∧
    ∀ p, F.InBounds [(0, 1), (1, 2), (2, 3)] p → F.El m2 (F.cell3d ⟨8, 0⟩ 0 1 2 1 2 3 1) p 0 := by
  obtain ⟨m1, m2, R, c1, c2, E, hR⟩ := energy_v1_3 (T := Rat) (dx := exDx) (alpha := 3) (beta := 2) (i0 := 0) (j0 := 1) (k0 := 2) (i1 := 1) (j1 := 2) (k1 := 3) (agcw := 1) (gcw := 2) (rgcw := 1) (a := ⟨0, 0⟩) (u := ⟨1, 0⟩) (b0 := ⟨2, 0⟩) (b1 := ⟨3, 0⟩) (b2 := ⟨4, 0⟩) (f0 := ⟨5, 0⟩) (f1 := ⟨6, 0⟩) (f2 := ⟨7, 0⟩) (res := ⟨8, 0⟩) (fun _ => revBackend_ok) (fun _ => seqBackend_ok) (by decide) (by decide) (by decide) (by decide) (by decide) (by decide) (exDir_args (n := 3) (c := 0) (r := 1) (by ex_args)) (⟨apart_blk (by decide), apart_blk (by decide), apart_blk (by decide)⟩) ⟨apart_blk (by decide), apart_blk (by decide), apart_blk (by decide)⟩
    (exDir_rd (by decide) (exRat_ok rfl (by decide) (by decide))) (exDir_rd (by decide) (exRat_ok rfl (by decide) (by decide))) (exDir_rd (by decide) (exRat_ok rfl (by decide) (by decide))) (exDir_rd (by decide) (exRat_ok rfl (by decide) (by decide))) exDir_u3
  refine ⟨m1, m2, c1, c2, fun p hp => ?_⟩
  have e := E p hp
  rw [F.inBounds3] at hp
  obtain ⟨i, j, k, rfl, hp⟩ := hp
  rw [hR i j k (by omega) (by omega) (by omega) (by omega) (by omega) (by omega)] at e
  unfold F.op3 at e
  simp only [exIns_none3, sub_zero, mul_zero, zero_div, neg_zero, add_zero, zero_add] at e
  exact e

theorem exRate_v1_3 : ∀ i j k : Int, 0 ≤ i → i ≤ 1 → 1 ≤ j → j ≤ 2 → 2 ≤ k → k ≤ 3 → (1 - 9999 / 10000) * (2 / (exDx 0 * exDx 0) * (exRd (F.face3d0 ⟨2, 0⟩ 0 1 2 1 2 3 0) [i, j, k] + exRd (F.face3d0 ⟨2, 0⟩ 0 1 2 1 2 3 0) [i + 1, j, k]) + 2 / (exDx 1 * exDx 1) * (exRd (F.face3d1 ⟨3, 0⟩ 0 1 2 1 2 3 0) [j, k, i] + exRd (F.face3d1 ⟨3, 0⟩ 0 1 2 1 2 3 0) [j + 1, k, i]) + 2 / (exDx 2 * exDx 2) * (exRd (F.face3d2 ⟨4, 0⟩ 0 1 2 1 2 3 0) [k, i, j] + exRd (F.face3d2 ⟨4, 0⟩ 0 1 2 1 2 3 0) [k + 1, i, j]) + 3 * exRd (F.cell3d ⟨0, 0⟩ 0 1 2 1 2 3 1) [i, j, k]) ≤ 3 * exRd (F.cell3d ⟨0, 0⟩ 0 1 2 1 2 3 1) [i, j, k] := by
  intro i j k h0 h1 h2 h3 h4 h5
  interval_cases i
  all_goals interval_cases j
  all_goals interval_cases k
  all_goals norm_num [exRd, exDx, F.colMajor, F.cell3d, F.face3d0, F.face3d1, F.face3d2]

theorem exRun_v2_3 : ∃ m1 m2, Cuda.flux3d 0 1 2 1 2 3 exDx ⟨2, 0⟩ ⟨3, 0⟩ ⟨4, 0⟩ 2 ⟨1, 0⟩ ⟨5, 0⟩ ⟨6, 0⟩ ⟨7, 0⟩ (fun _ => revBackend) (exDir 3 0 1) = .ok m1 ∧ Cuda.diffusionV2Apply3d 0 1 1 2 2 3 3 2 exDx 2 ⟨1, 0⟩ ⟨5, 0⟩ ⟨6, 0⟩ ⟨7, 0⟩ 1 ⟨8, 0⟩ (fun _ => seqBackend) m1 = .ok m2 ∧
    ∀ p, F.InBounds [(0, 1), (1, 2), (2, 3)] p → F.El m2 (F.cell3d ⟨8, 0⟩ 0 1 2 1 2 3 1) p 0 := by
  obtain ⟨m1, m2, R, c1, c2, E, hR⟩ := energy_v2_3 (T := Rat) (dx := exDx) (alpha := 3) (beta := 2) (i0 := 0) (j0 := 1) (k0 := 2) (i1 := 1) (j1 := 2) (k1 := 3) (gcw := 2) (rgcw := 1) (u := ⟨1, 0⟩) (b0 := ⟨2, 0⟩) (b1 := ⟨3, 0⟩) (b2 := ⟨4, 0⟩) (f0 := ⟨5, 0⟩) (f1 := ⟨6, 0⟩) (f2 := ⟨7, 0⟩) (res := ⟨8, 0⟩) (fun _ => revBackend_ok) (fun _ => seqBackend_ok) (by decide) (by decide) (by decide) (by decide) (by decide) (exDir_args (n := 3) (c := 0) (r := 1) (by ex_args)) (⟨apart_blk (by decide), apart_blk (by decide), apart_blk (by decide)⟩) ⟨apart_blk (by decide), apart_blk (by decide), apart_blk (by decide)⟩
    (exDir_rd (by decide) (exRat_ok rfl (by decide) (by decide))) (exDir_rd (by decide) (exRat_ok rfl (by decide) (by decide))) (exDir_rd (by decide) (exRat_ok rfl (by decide) (by decide))) exDir_u3
  refine ⟨m1, m2, c1, c2, fun p hp => ?_⟩
  have e := E p hp
  rw [F.inBounds3] at hp
  obtain ⟨i, j, k, rfl, hp⟩ := hp
  rw [hR i j k (by omega) (by omega) (by omega) (by omega) (by omega) (by omega)] at e
  unfold F.op3 at e
  simp only [exIns_none3, sub_zero, mul_zero, zero_div, neg_zero, add_zero, zero_add] at e
  exact e

theorem exRate_v2_3 : ∀ i j k : Int, 0 ≤ i → i ≤ 1 → 1 ≤ j → j ≤ 2 → 2 ≤ k → k ≤ 3 → (1 - 9999 / 10000) * (2 / (exDx 0 * exDx 0) * (exRd (F.face3d0 ⟨2, 0⟩ 0 1 2 1 2 3 0) [i, j, k] + exRd (F.face3d0 ⟨2, 0⟩ 0 1 2 1 2 3 0) [i + 1, j, k]) + 2 / (exDx 1 * exDx 1) * (exRd (F.face3d1 ⟨3, 0⟩ 0 1 2 1 2 3 0) [j, k, i] + exRd (F.face3d1 ⟨3, 0⟩ 0 1 2 1 2 3 0) [j + 1, k, i]) + 2 / (exDx 2 * exDx 2) * (exRd (F.face3d2 ⟨4, 0⟩ 0 1 2 1 2 3 0) [k, i, j] + exRd (F.face3d2 ⟨4, 0⟩ 0 1 2 1 2 3 0) [k + 1, i, j]) + 3 * (fun _ => (1 : Rat)) [i, j, k]) ≤ 3 * (fun _ => (1 : Rat)) [i, j, k] := by
  intro i j k h0 h1 h2 h3 h4 h5
  interval_cases i
  all_goals interval_cases j
  all_goals interval_cases k
  all_goals norm_num [exRd, exDx, F.colMajor, F.cell3d, F.face3d0, F.face3d1, F.face3d2]

theorem exRun_p_3 : ∃ m1 m2, Cuda.poissonFlux3d 0 1 2 1 2 3 exDx 2 ⟨1, 0⟩ ⟨5, 0⟩ ⟨6, 0⟩ ⟨7, 0⟩ (fun _ => revBackend) (exDir 3 0 1) = .ok m1 ∧ Cuda.poissonV2Apply3d 0 1 1 2 2 3 2 exDx ⟨5, 0⟩ ⟨6, 0⟩ ⟨7, 0⟩ 1 ⟨8, 0⟩ (fun _ => seqBackend) m1 = .ok m2 ∧
    ∀ p, F.InBounds [(0, 1), (1, 2), (2, 3)] p → F.El m2 (F.cell3d ⟨8, 0⟩ 0 1 2 1 2 3 1) p 0 := by
  obtain ⟨m1, m2, R, c1, c2, E, hR⟩ := energy_p_3 (T := Rat) (dx := exDx) (beta := 2) (i0 := 0) (j0 := 1) (k0 := 2) (i1 := 1) (j1 := 2) (k1 := 3) (gcw := 2) (rgcw := 1) (u := ⟨1, 0⟩) (f0 := ⟨5, 0⟩) (f1 := ⟨6, 0⟩) (f2 := ⟨7, 0⟩) (res := ⟨8, 0⟩) (fun _ => revBackend_ok) (fun _ => seqBackend_ok) (by decide) (by decide) (by decide) (by decide) (by decide) (exDir_args (n := 3) (c := 0) (r := 1) (by ex_args)) (⟨apart_blk (by decide), apart_blk (by decide), apart_blk (by decide)⟩) ⟨apart_blk (by decide), apart_blk (by decide), apart_blk (by decide)⟩
     exDir_u3
  refine ⟨m1, m2, c1, c2, fun p hp => ?_⟩
  have e := E p hp
  rw [F.inBounds3] at hp
  obtain ⟨i, j, k, rfl, hp⟩ := hp
  rw [hR i j k (by omega) (by omega) (by omega) (by omega) (by omega) (by omega)] at e
  unfold F.op3 at e
  simp only [exIns_none3, sub_zero, mul_zero, zero_div, neg_zero, add_zero, zero_add] at e
  exact e

end Verif
