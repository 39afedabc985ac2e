import Verif.Lemmas.WallsRun
import Verif.Lemmas.FillEx
import Verif.Lemmas.EnergyEx
import Verif.Lemmas.AccuracyEx

/-
Examples: fields on a box with ghost cells some of which belong to no segment.
-/

set_option linter.unusedVariables false
set_option linter.unusedSimpArgs false

namespace Verif
open Spec

/-- a field that is 0 outside the box -/
def exBump (n : Nat) (k : Rat) (p : List Int) : Rat := exIns n 1 p * (k + p.sum * p.sum)

macro "ex_positive1 " t:term : tactic => `(tactic| (
  intro c hc
  have h : 0 ≤ c.alpha / (2 * c.beta) := by
    revert c
    norm_num [List.forall_mem_cons, exFill]
  exact ⟨exDx_pos _, fun p _ => mul_nonneg h (exOn1 $t _ _)⟩))

macro "ex_positive2 " t:term : tactic => `(tactic| (
  intro c hc
  have h : 0 ≤ c.alpha / (2 * c.beta) := by
    revert c
    norm_num [List.forall_mem_cons, exFill]
  exact ⟨exDx_pos _, fun p _ => mul_nonneg h (exOn2 $t $t _ _ _)⟩))

macro "ex_positive3 " t:term : tactic => `(tactic| (
  intro c hc
  have h : 0 ≤ c.alpha / (2 * c.beta) := by
    revert c
    norm_num [List.forall_mem_cons, exFill]
  exact ⟨exDx_pos _, fun p _ => mul_nonneg h (exOn3 $t $t $t _ _ _)⟩))

theorem exBump_zero1 {k : Rat} (p : List Int) (hp : ¬ F.InBounds [(0, 3)] p) : exBump 1 k p = 0 := by
  unfold exBump
  rw [exIns_zero1 p hp, zero_mul]

/-- block 1 contains the field, the blocks 0 and from 2 on coefficients -/
def exCase1 (U : List Int → Rat) (q : Nat) : List (Int × Int) × (List Int → Rat) :=
  if q = 0 then ((F.cell1d ⟨0, 0⟩ 0 3 1).dims, exRd (F.cell1d ⟨0, 0⟩ 0 3 1)) else if q = 1 then ((F.cell1d ⟨1, 0⟩ 0 3 2).dims, U) else if q = 2 then ((F.face1d ⟨2, 0⟩ 0 3 0).dims, exRd (F.face1d ⟨2, 0⟩ 0 3 0)) else ([], fun _ => 0)

theorem exFree1 {dx : Nat → Rat} {B0 : List Int → Rat} {k : List Int → Rat} : F.Tied [(0, 3)] 3 (F.row F.points1) ([exFill (exSeg (-1) 0 0) (exSeg (-1) 0 0) 0 4].map (fun c : BcCall Rat => c.piece1 0 3 dx B0)) k := by
  refine ⟨[3], by simp [F.InBounds], Or.inr ⟨2, by decide, by decide, by rw [F.shift1_2]; simp [F.InBounds], fun q hq _ he => ?_⟩⟩
  obtain ⟨s, hs, rfl⟩ := List.mem_map.1 hq
  simp only [List.mem_cons, List.not_mem_nil, or_false] at hs
  rw [hs] at he; simp [BcCall.piece1, BcCall.piece, exFill] at he

theorem exBump_zero2 {k : Rat} (p : List Int) (hp : ¬ F.InBounds [(0, 2), (1, 3)] p) : exBump 2 k p = 0 := by
  unfold exBump
  rw [exIns_zero2 p hp, zero_mul]

/-- block 1 contains the field, the blocks 0 and from 2 on coefficients -/
def exCase2 (U : List Int → Rat) (q : Nat) : List (Int × Int) × (List Int → Rat) :=
  if q = 0 then ((F.cell2d ⟨0, 0⟩ 0 1 2 3 1).dims, exRd (F.cell2d ⟨0, 0⟩ 0 1 2 3 1)) else if q = 1 then ((F.cell2d ⟨1, 0⟩ 0 1 2 3 2).dims, U) else if q = 2 then ((F.face2d0 ⟨2, 0⟩ 0 1 2 3 0).dims, exRd (F.face2d0 ⟨2, 0⟩ 0 1 2 3 0)) else if q = 3 then ((F.face2d1 ⟨3, 0⟩ 0 1 2 3 0).dims, exRd (F.face2d1 ⟨3, 0⟩ 0 1 2 3 0)) else ([], fun _ => 0)

theorem exFree2 {dx : Nat → Rat} {B0 B1 : List Int → Rat} {k : List Int → Rat} : F.Tied [(0, 2), (1, 3)] 5 (F.row F.points2) ([exFill (exSeg (-1) 1 0) (exSeg (-1) 2 0) 0 4, exFill (exSeg 0 4 0) (exSeg 2 4 0) 3 1, exFill (exSeg 0 0 0) (exSeg 1 0 0) 2 0].map (fun c : BcCall Rat => c.piece2 0 1 2 3 dx B0 B1)) k := by
  refine ⟨[2, 1], by simp [F.InBounds], Or.inr ⟨2, by decide, by decide, by rw [F.shift2_2]; simp [F.InBounds], fun q hq _ he => ?_⟩⟩
  obtain ⟨s, hs, rfl⟩ := List.mem_map.1 hq
  simp only [List.mem_cons, List.not_mem_nil, or_false] at hs
  rcases hs with h | h | h <;> rw [h] at he <;> simp [BcCall.piece2, BcCall.piece, exFill] at he

theorem exBump_zero3 {k : Rat} (p : List Int) (hp : ¬ F.InBounds [(0, 1), (1, 2), (2, 3)] p) : exBump 3 k p = 0 := by
  unfold exBump
  rw [exIns_zero3 p hp, zero_mul]

/-- block 1 contains the field, the blocks 0 and from 2 on coefficients -/
def exCase3 (U : List Int → Rat) (q : Nat) : List (Int × Int) × (List Int → Rat) :=
  if q = 0 then ((F.cell3d ⟨0, 0⟩ 0 1 2 1 2 3 1).dims, exRd (F.cell3d ⟨0, 0⟩ 0 1 2 1 2 3 1)) else if q = 1 then ((F.cell3d ⟨1, 0⟩ 0 1 2 1 2 3 2).dims, U) else if q = 2 then ((F.face3d0 ⟨2, 0⟩ 0 1 2 1 2 3 0).dims, exRd (F.face3d0 ⟨2, 0⟩ 0 1 2 1 2 3 0)) else if q = 3 then ((F.face3d1 ⟨3, 0⟩ 0 1 2 1 2 3 0).dims, exRd (F.face3d1 ⟨3, 0⟩ 0 1 2 1 2 3 0)) else if q = 4 then ((F.face3d2 ⟨4, 0⟩ 0 1 2 1 2 3 0).dims, exRd (F.face3d2 ⟨4, 0⟩ 0 1 2 1 2 3 0)) else ([], fun _ => 0)

theorem exFree3 {dx : Nat → Rat} {B0 B1 B2 : List Int → Rat} {k : List Int → Rat} : F.Tied [(0, 1), (1, 2), (2, 3)] 7 (F.row F.points3) ([exFill (exSeg (-1) 1 2) (exSeg (-1) 2 2) 0 4, exFill (exSeg (-1) 1 3) (exSeg (-1) 1 3) 0 1, exFill (exSeg 0 3 2) (exSeg 1 3 3) 3 0, exFill (exSeg 0 2 1) (exSeg 1 2 1) 4 4].map (fun c : BcCall Rat => c.piece3 0 1 2 1 2 3 dx B0 B1 B2)) k := by
  refine ⟨[1, 1, 2], by simp [F.InBounds], Or.inr ⟨2, by decide, by decide, by rw [F.shift3_2]; simp [F.InBounds], fun q hq _ he => ?_⟩⟩
  obtain ⟨s, hs, rfl⟩ := List.mem_map.1 hq
  simp only [List.mem_cons, List.not_mem_nil, or_false] at hs
  rcases hs with h | h | h | h <;> rw [h] at he <;> simp [BcCall.piece3, BcCall.piece, exFill] at he

end Verif
