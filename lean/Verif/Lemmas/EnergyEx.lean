import Verif.Lemmas.EnergyRun
import Mathlib.Algebra.Order.Ring.Rat
import Mathlib.Tactic.NormNum

/-
Data for the examples about the bilinear form.
-/

namespace Verif
open Spec

/-- cells of the box of the examples, by their offset in the array of the unknown -/
def exIn (n : Nat) (o : Int) : Bool :=
  match n with
  | 1 => decide (2 ≤ o ∧ o ≤ 5)
  | 2 => decide (2 ≤ o % 7 ∧ o % 7 ≤ 4 ∧ 2 ≤ o / 7 ∧ o / 7 ≤ 4)
  | _ => decide (2 ≤ o % 6 ∧ o % 6 ≤ 3 ∧ 2 ≤ o / 6 % 6 ∧ o / 6 % 6 ≤ 3 ∧ 2 ≤ o / 36 ∧ o / 36 ≤ 3)

/-- as `exRat`, but block 1 contains `c` in the box and 0 outside, and the initial contents of block 8 are multiplied by `r` -/
def exDir (n : Nat) (c r : Rat) : Mem Rat where
  val q := if q.blk = 1 then Option.map (fun _ => if exIn n q.off then c else 0) (exRat.val q) else if q.blk = 8 then Option.map (fun x => r * x) (exRat.val q) else exRat.val q
  ints := exRat.ints

/-- `c` in the box, 0 outside -/
def exIns (n : Nat) (c : Rat) (p : List Int) : Rat :=
  match n, p with
  | 1, [i] => if 0 ≤ i ∧ i ≤ 3 then c else 0
  | 2, [i, j] => if 0 ≤ i ∧ i ≤ 2 ∧ 1 ≤ j ∧ j ≤ 3 then c else 0
  | 3, [i, j, k] => if 0 ≤ i ∧ i ≤ 1 ∧ 1 ≤ j ∧ j ≤ 2 ∧ 2 ≤ k ∧ k ≤ 3 then c else 0
  | _, _ => 0

/-- contents of the other arrays -/
def exRd (a : F.Arr) (p : List Int) : Rat := a.ptr.blk * 7 + F.colMajor a.dims p * F.colMajor a.dims p

theorem exDir_args {n : Nat} {c r : Rat} {ins outs : List F.Arr} (h : F.Args exRat ins outs) : F.Args (exDir n c r) ins outs := by
  refine ⟨fun a ha => ⟨fun is hi => ?_, (h.ok a ha).fits, (h.ok a ha).int⟩, h.apart⟩
  obtain ⟨v, hv⟩ := (h.ok a ha).alloc is hi
  simp only [exDir]
  split
  · exact ⟨_, by rw [hv]; rfl⟩
  · split
    · exact ⟨_, by rw [hv]; rfl⟩
    · exact ⟨v, hv⟩

theorem exDir_rd {n : Nat} {c r : Rat} {a : F.Arr} (h : a.ptr.blk ≠ 1 ∧ a.ptr.blk ≠ 8 ∧ a.ptr.off = 0) (ha : F.ArrOK exRat a) : F.Holds (exDir n c r) a (exRd a) := fun is hi => by
  refine ⟨hi, ?_⟩
  obtain ⟨v, hv⟩ := ha.alloc is hi
  simp only [exDir, Ptr.add, exRat] at hv ⊢
  rw [if_neg h.1, if_neg h.2.1]
  split
  · simp only [exRd, h.2.2, zero_add]
  · rename_i hc; rw [if_neg hc] at hv; cases hv

theorem exDir_u1 {c r : Rat} : F.Holds (exDir 1 c r) (F.cell1d ⟨1, 0⟩ 0 3 2) (exIns 1 c) := fun is hi => by
  refine ⟨hi, ?_⟩
  have hh := hi
  obtain ⟨i, rfl, hh⟩ := F.inBounds1.1 hh
  have e : exRat.val ((F.cell1d ⟨1, 0⟩ 0 3 2).ptr.add (F.colMajor (F.cell1d ⟨1, 0⟩ 0 3 2).dims [i])) = some _ :=
    if_pos (by simp only [Ptr.add, F.colMajor, F.cell1d]; omega)
  show Option.map (fun _ => if exIn 1 _ then c else 0) (exRat.val _) = some (exIns 1 c [i])
  rw [e]
  simp only [Option.map_some, exIns, exIn, Ptr.add, F.colMajor, F.cell1d, decide_eq_true_eq, Option.some.injEq]
  exact if_congr (by omega) rfl rfl

theorem exIns_zero1 {c : Rat} (p : List Int) (hp : ¬ F.InBounds [(0, 3)] p) : exIns 1 c p = 0 :=
  match p, hp with
  | [], _ => rfl
  | [i], hp => if_neg fun h => hp (F.inBounds1.2 ⟨i, rfl, by omega⟩)
  | _ :: _ :: _, _ => rfl

theorem exDir_u2 {c r : Rat} : F.Holds (exDir 2 c r) (F.cell2d ⟨1, 0⟩ 0 1 2 3 2) (exIns 2 c) := fun is hi => by
  refine ⟨hi, ?_⟩
  have hh := hi
  obtain ⟨i, j, rfl, hh⟩ := F.inBounds2.1 hh
  have e : exRat.val ((F.cell2d ⟨1, 0⟩ 0 1 2 3 2).ptr.add (F.colMajor (F.cell2d ⟨1, 0⟩ 0 1 2 3 2).dims [i, j])) = some _ :=
    if_pos (by simp only [Ptr.add, F.colMajor, F.cell2d]; omega)
  show Option.map (fun _ => if exIn 2 _ then c else 0) (exRat.val _) = some (exIns 2 c [i, j])
  rw [e]
  simp only [Option.map_some, exIns, exIn, Ptr.add, F.colMajor, F.cell2d, decide_eq_true_eq, Option.some.injEq]
  exact if_congr (by omega) rfl rfl

theorem exIns_zero2 {c : Rat} (p : List Int) (hp : ¬ F.InBounds [(0, 2), (1, 3)] p) : exIns 2 c p = 0 :=
  match p, hp with
  | [], _ => rfl
  | [_], _ => rfl
  | [i, j], hp => if_neg fun h => hp (F.inBounds2.2 ⟨i, j, rfl, by omega⟩)
  | _ :: _ :: _ :: _, _ => rfl

theorem exDir_u3 {c r : Rat} : F.Holds (exDir 3 c r) (F.cell3d ⟨1, 0⟩ 0 1 2 1 2 3 2) (exIns 3 c) := fun is hi => by
  refine ⟨hi, ?_⟩
  have hh := hi
  obtain ⟨i, j, k, rfl, hh⟩ := F.inBounds3.1 hh
  have e : exRat.val ((F.cell3d ⟨1, 0⟩ 0 1 2 1 2 3 2).ptr.add (F.colMajor (F.cell3d ⟨1, 0⟩ 0 1 2 1 2 3 2).dims [i, j, k])) = some _ :=
    if_pos (by simp only [Ptr.add, F.colMajor, F.cell3d]; omega)
  show Option.map (fun _ => if exIn 3 _ then c else 0) (exRat.val _) = some (exIns 3 c [i, j, k])
  rw [e]
  simp only [Option.map_some, exIns, exIn, Ptr.add, F.colMajor, F.cell3d, decide_eq_true_eq, Option.some.injEq]
  exact if_congr (by omega) rfl rfl

theorem exIns_zero3 {c : Rat} (p : List Int) (hp : ¬ F.InBounds [(0, 1), (1, 2), (2, 3)] p) : exIns 3 c p = 0 :=
  match p, hp with
  | [], _ => rfl
  | [_], _ => rfl
  | [_, _], _ => rfl
  | [i, j, k], hp => if_neg fun h => hp (F.inBounds3.2 ⟨i, j, k, rfl, by omega⟩)
  | _ :: _ :: _ :: _ :: _, _ => rfl

theorem exRd_nonneg {a : F.Arr} {p : List Int} : 0 ≤ exRd a p := by
  unfold exRd
  have h1 : (0 : Rat) ≤ (a.ptr.blk : Rat) := by exact_mod_cast Nat.zero_le _
  have h2 := mul_self_nonneg ((F.colMajor a.dims p : Int) : Rat)
  linarith

theorem exRd_pos {a : F.Arr} {p : List Int} (h : 0 < a.ptr.blk) : 0 < exRd a p := by
  unfold exRd
  have h1 : (0 : Rat) < (a.ptr.blk : Rat) := by exact_mod_cast h
  have h2 := mul_self_nonneg ((F.colMajor a.dims p : Int) : Rat)
  linarith

theorem exEll_v1_1 : F.Elliptic1 (T := Rat) 0 3 3 2 exDx (exRd (F.cell1d ⟨0, 0⟩ 0 3 1)) (exRd (F.face1d ⟨2, 0⟩ 0 3 0)) where
  beta := by norm_num
  dx0 := by norm_num [exDx]
  face0 := fun _ _ _ => exRd_pos (by decide)
  cell := fun _ _ _ => mul_nonneg (by norm_num) exRd_nonneg

theorem exEll_v2_1 : F.Elliptic1 (T := Rat) 0 3 3 2 exDx (fun _ => 1) (exRd (F.face1d ⟨2, 0⟩ 0 3 0)) where
  beta := by norm_num
  dx0 := by norm_num [exDx]
  face0 := fun _ _ _ => exRd_pos (by decide)
  cell := fun _ _ _ => by norm_num

theorem exEll_p_1 : F.Elliptic1 (T := Rat) 0 3 0 2 exDx (fun _ => 1) (fun _ => 1) where
  beta := by norm_num
  dx0 := by norm_num [exDx]
  face0 := fun _ _ _ => one_pos
  cell := fun _ _ _ => by norm_num

theorem exEll_v1_2 : F.Elliptic2 (T := Rat) 0 1 2 3 3 2 exDx (exRd (F.cell2d ⟨0, 0⟩ 0 1 2 3 1)) (exRd (F.face2d0 ⟨2, 0⟩ 0 1 2 3 0)) (exRd (F.face2d1 ⟨3, 0⟩ 0 1 2 3 0)) where
  beta := by norm_num
  dx0 := by norm_num [exDx]
  dx1 := by norm_num [exDx]
  face0 := fun _ _ _ _ _ _ => exRd_pos (by decide)
  face1 := fun _ _ _ _ _ _ => exRd_pos (by decide)
  cell := fun _ _ _ _ _ _ => mul_nonneg (by norm_num) exRd_nonneg

theorem exEll_v2_2 : F.Elliptic2 (T := Rat) 0 1 2 3 3 2 exDx (fun _ => 1) (exRd (F.face2d0 ⟨2, 0⟩ 0 1 2 3 0)) (exRd (F.face2d1 ⟨3, 0⟩ 0 1 2 3 0)) where
  beta := by norm_num
  dx0 := by norm_num [exDx]
  dx1 := by norm_num [exDx]
  face0 := fun _ _ _ _ _ _ => exRd_pos (by decide)
  face1 := fun _ _ _ _ _ _ => exRd_pos (by decide)
  cell := fun _ _ _ _ _ _ => by norm_num

theorem exEll_p_2 : F.Elliptic2 (T := Rat) 0 1 2 3 0 2 exDx (fun _ => 1) (fun _ => 1) (fun _ => 1) where
  beta := by norm_num
  dx0 := by norm_num [exDx]
  dx1 := by norm_num [exDx]
  face0 := fun _ _ _ _ _ _ => one_pos
  face1 := fun _ _ _ _ _ _ => one_pos
  cell := fun _ _ _ _ _ _ => by norm_num

theorem exEll_v1_3 : F.Elliptic3 (T := Rat) 0 1 2 1 2 3 3 2 exDx (exRd (F.cell3d ⟨0, 0⟩ 0 1 2 1 2 3 1)) (exRd (F.face3d0 ⟨2, 0⟩ 0 1 2 1 2 3 0)) (exRd (F.face3d1 ⟨3, 0⟩ 0 1 2 1 2 3 0)) (exRd (F.face3d2 ⟨4, 0⟩ 0 1 2 1 2 3 0)) where
  beta := by norm_num
  dx0 := by norm_num [exDx]
  dx1 := by norm_num [exDx]
  dx2 := by norm_num [exDx]
  face0 := fun _ _ _ _ _ _ _ _ _ => exRd_pos (by decide)
  face1 := fun _ _ _ _ _ _ _ _ _ => exRd_pos (by decide)
  face2 := fun _ _ _ _ _ _ _ _ _ => exRd_pos (by decide)
  cell := fun _ _ _ _ _ _ _ _ _ => mul_nonneg (by norm_num) exRd_nonneg

theorem exEll_v2_3 : F.Elliptic3 (T := Rat) 0 1 2 1 2 3 3 2 exDx (fun _ => 1) (exRd (F.face3d0 ⟨2, 0⟩ 0 1 2 1 2 3 0)) (exRd (F.face3d1 ⟨3, 0⟩ 0 1 2 1 2 3 0)) (exRd (F.face3d2 ⟨4, 0⟩ 0 1 2 1 2 3 0)) where
  beta := by norm_num
  dx0 := by norm_num [exDx]
  dx1 := by norm_num [exDx]
  dx2 := by norm_num [exDx]
  face0 := fun _ _ _ _ _ _ _ _ _ => exRd_pos (by decide)
  face1 := fun _ _ _ _ _ _ _ _ _ => exRd_pos (by decide)
  face2 := fun _ _ _ _ _ _ _ _ _ => exRd_pos (by decide)
  cell := fun _ _ _ _ _ _ _ _ _ => by norm_num

theorem exEll_p_3 : F.Elliptic3 (T := Rat) 0 1 2 1 2 3 0 2 exDx (fun _ => 1) (fun _ => 1) (fun _ => 1) (fun _ => 1) where
  beta := by norm_num
  dx0 := by norm_num [exDx]
  dx1 := by norm_num [exDx]
  dx2 := by norm_num [exDx]
  face0 := fun _ _ _ _ _ _ _ _ _ => one_pos
  face1 := fun _ _ _ _ _ _ _ _ _ => one_pos
  face2 := fun _ _ _ _ _ _ _ _ _ => one_pos
  cell := fun _ _ _ _ _ _ _ _ _ => by norm_num

end Verif
