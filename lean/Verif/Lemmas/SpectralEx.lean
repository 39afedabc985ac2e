import Verif.Lemmas.Spectral
import Verif.Lemmas.EnergyEx
import Mathlib.Tactic.IntervalCases

/-
Cutting off outside the box, expanding squares, and data for the examples about bounds of the quadratic form.
-/

namespace Verif
open Spec

set_option linter.unusedVariables false
set_option linter.unusedSectionVars false

namespace F
variable {T : Type} [Field T]

theorem cut_off (P : List Int → Prop) (R : List Int → T) : ∃ E : List Int → T, (∀ p, P p → E p = R p) ∧ ∀ p, ¬ P p → E p = 0 := by
  classical
  exact ⟨fun p => if P p then R p else 0, fun p h => if_pos h, fun p h => if_neg h⟩

theorem sq1 {i0 i1 : Int} {X Y : List Int → T} {t : T} :
    (sum i0 i1 fun i => (X [i] - t * Y [i]) * (X [i] - t * Y [i])) = (sum i0 i1 fun i => X [i] * X [i]) - 2 * t * (sum i0 i1 fun i => X [i] * Y [i]) + t * t * (sum i0 i1 fun i => Y [i] * Y [i]) := by
  simp only [mul_sum, ← sum_sub, ← sum_add]
  exact sum_congr fun i _ _ => by ring

theorem op1_const {alpha beta : T} {dx : Nat → T} {A B0 : List Int → T} {c : T} {i : Int} : op1 alpha beta dx A B0 (fun _ => c) i = alpha * A [i] * c := by
  simp [op1]

theorem sq2 {i0 j0 i1 j1 : Int} {X Y : List Int → T} {t : T} :
    (sum i0 i1 fun i => sum j0 j1 fun j => (X [i, j] - t * Y [i, j]) * (X [i, j] - t * Y [i, j])) = (sum i0 i1 fun i => sum j0 j1 fun j => X [i, j] * X [i, j]) - 2 * t * (sum i0 i1 fun i => sum j0 j1 fun j => X [i, j] * Y [i, j]) + t * t * (sum i0 i1 fun i => sum j0 j1 fun j => Y [i, j] * Y [i, j]) := by
  simp only [mul_sum, ← sum_sub, ← sum_add]
  exact sum_congr fun i _ _ => sum_congr fun j _ _ => by ring

theorem op2_const {alpha beta : T} {dx : Nat → T} {A B0 B1 : List Int → T} {c : T} {i j : Int} : op2 alpha beta dx A B0 B1 (fun _ => c) i j = alpha * A [i, j] * c := by
  simp [op2]

theorem sq3 {i0 j0 k0 i1 j1 k1 : Int} {X Y : List Int → T} {t : T} :
    (sum i0 i1 fun i => sum j0 j1 fun j => sum k0 k1 fun k => (X [i, j, k] - t * Y [i, j, k]) * (X [i, j, k] - t * Y [i, j, k])) = (sum i0 i1 fun i => sum j0 j1 fun j => sum k0 k1 fun k => X [i, j, k] * X [i, j, k]) - 2 * t * (sum i0 i1 fun i => sum j0 j1 fun j => sum k0 k1 fun k => X [i, j, k] * Y [i, j, k]) + t * t * (sum i0 i1 fun i => sum j0 j1 fun j => sum k0 k1 fun k => Y [i, j, k] * Y [i, j, k]) := by
  simp only [mul_sum, ← sum_sub, ← sum_add]
  exact sum_congr fun i _ _ => sum_congr fun j _ _ => sum_congr fun k _ _ => by ring

theorem op3_const {alpha beta : T} {dx : Nat → T} {A B0 B1 B2 : List Int → T} {c : T} {i j k : Int} : op3 alpha beta dx A B0 B1 B2 (fun _ => c) i j k = alpha * A [i, j, k] * c := by
  simp [op3]

end F

theorem exIns_le {n : Nat} {c d : Rat} (h : c ≤ d) (p : List Int) : exIns n c p ≤ exIns n d p := by
  unfold exIns
  split
  · split <;> simp [h]
  · split <;> simp [h]
  · split <;> simp [h]
  · exact le_rfl

theorem exIns_bd {n : Nat} {c : Rat} (h : 0 ≤ c) (p : List Int) : 0 ≤ exIns n c p ∧ exIns n c p ≤ c := by
  unfold exIns
  split
  · split <;> simp [h]
  · split <;> simp [h]
  · split <;> simp [h]
  · exact ⟨le_rfl, h⟩

theorem exRd_floor {a : F.Arr} {p : List Int} (h : 2 ≤ a.ptr.blk) : 14 ≤ exRd a p := by
  unfold exRd
  have h1 : (2 : Rat) ≤ (a.ptr.blk : Rat) := by exact_mod_cast h
  have h2 := mul_self_nonneg ((F.colMajor a.dims p : Int) : Rat)
  linarith

theorem exLow_v1_1 : F.Low1 (T := Rat) 0 3 3 (exRd (F.cell1d ⟨0, 0⟩ 0 3 1)) (exRd (F.face1d ⟨2, 0⟩ 0 3 0)) 0 14 where
  amin0 := by norm_num
  bmin0 := by norm_num
  face0 := fun _ _ _ => exRd_floor (by decide)
  cell := fun _ _ _ => mul_nonneg (by norm_num) exRd_nonneg

theorem exTop_v1_1 : F.Top1 (T := Rat) 0 3 3 2 exDx (exRd (F.cell1d ⟨0, 0⟩ 0 3 1)) (exRd (F.face1d ⟨2, 0⟩ 0 3 0)) 100000 := fun i hia hib => by
  interval_cases i <;> norm_num [exRd, exDx, F.cell1d, F.face1d, F.colMajor]

theorem exStep_v1_1 : F.Step1 (T := Rat) 0 3 3 2 exDx (exRd (F.cell1d ⟨0, 0⟩ 0 3 1)) (exRd (F.face1d ⟨2, 0⟩ 0 3 0)) (1 / 100000) := fun i hia hib => by
  interval_cases i <;> norm_num [exRd, exDx, F.cell1d, F.face1d, F.colMajor]

theorem exLow_v1_2 : F.Low2 (T := Rat) 0 1 2 3 3 (exRd (F.cell2d ⟨0, 0⟩ 0 1 2 3 1)) (exRd (F.face2d0 ⟨2, 0⟩ 0 1 2 3 0)) (exRd (F.face2d1 ⟨3, 0⟩ 0 1 2 3 0)) 0 14 where
  amin0 := by norm_num
  bmin0 := by norm_num
  face0 := fun _ _ _ _ _ _ => exRd_floor (by decide)
  face1 := fun _ _ _ _ _ _ => exRd_floor (by decide)
  cell := fun _ _ _ _ _ _ => mul_nonneg (by norm_num) exRd_nonneg

theorem exTop_v1_2 : F.Top2 (T := Rat) 0 1 2 3 3 2 exDx (exRd (F.cell2d ⟨0, 0⟩ 0 1 2 3 1)) (exRd (F.face2d0 ⟨2, 0⟩ 0 1 2 3 0)) (exRd (F.face2d1 ⟨3, 0⟩ 0 1 2 3 0)) 100000 := fun i j hia hib hja hjb => by
  interval_cases i <;> interval_cases j <;> norm_num [exRd, exDx, F.cell2d, F.face2d0, F.face2d1, F.colMajor]

theorem exStep_v1_2 : F.Step2 (T := Rat) 0 1 2 3 3 2 exDx (exRd (F.cell2d ⟨0, 0⟩ 0 1 2 3 1)) (exRd (F.face2d0 ⟨2, 0⟩ 0 1 2 3 0)) (exRd (F.face2d1 ⟨3, 0⟩ 0 1 2 3 0)) (1 / 100000) := fun i j hia hib hja hjb => by
  interval_cases i <;> interval_cases j <;> norm_num [exRd, exDx, F.cell2d, F.face2d0, F.face2d1, F.colMajor]

theorem exLow_v1_3 : F.Low3 (T := Rat) 0 1 2 1 2 3 3 (exRd (F.cell3d ⟨0, 0⟩ 0 1 2 1 2 3 1)) (exRd (F.face3d0 ⟨2, 0⟩ 0 1 2 1 2 3 0)) (exRd (F.face3d1 ⟨3, 0⟩ 0 1 2 1 2 3 0)) (exRd (F.face3d2 ⟨4, 0⟩ 0 1 2 1 2 3 0)) 0 14 where
  amin0 := by norm_num
  bmin0 := by norm_num
  face0 := fun _ _ _ _ _ _ _ _ _ => exRd_floor (by decide)
  face1 := fun _ _ _ _ _ _ _ _ _ => exRd_floor (by decide)
  face2 := fun _ _ _ _ _ _ _ _ _ => exRd_floor (by decide)
  cell := fun _ _ _ _ _ _ _ _ _ => mul_nonneg (by norm_num) exRd_nonneg

theorem exTop_v1_3 : F.Top3 (T := Rat) 0 1 2 1 2 3 3 2 exDx (exRd (F.cell3d ⟨0, 0⟩ 0 1 2 1 2 3 1)) (exRd (F.face3d0 ⟨2, 0⟩ 0 1 2 1 2 3 0)) (exRd (F.face3d1 ⟨3, 0⟩ 0 1 2 1 2 3 0)) (exRd (F.face3d2 ⟨4, 0⟩ 0 1 2 1 2 3 0)) 100000 := fun i j k hia hib hja hjb hka hkb => by
  interval_cases i <;> interval_cases j <;> interval_cases k <;> norm_num [exRd, exDx, F.cell3d, F.face3d0, F.face3d1, F.face3d2, F.colMajor]

theorem exStep_v1_3 : F.Step3 (T := Rat) 0 1 2 1 2 3 3 2 exDx (exRd (F.cell3d ⟨0, 0⟩ 0 1 2 1 2 3 1)) (exRd (F.face3d0 ⟨2, 0⟩ 0 1 2 1 2 3 0)) (exRd (F.face3d1 ⟨3, 0⟩ 0 1 2 1 2 3 0)) (exRd (F.face3d2 ⟨4, 0⟩ 0 1 2 1 2 3 0)) (1 / 100000) := fun i j k hia hib hja hjb hka hkb => by
  interval_cases i <;> interval_cases j <;> interval_cases k <;> norm_num [exRd, exDx, F.cell3d, F.face3d0, F.face3d1, F.face3d2, F.colMajor]

theorem exLow_v2_1 : F.Low1 (T := Rat) 0 3 3 (fun _ => 1) (exRd (F.face1d ⟨2, 0⟩ 0 3 0)) 3 14 where
  amin0 := by norm_num
  bmin0 := by norm_num
  face0 := fun _ _ _ => exRd_floor (by decide)
  cell := fun _ _ _ => by norm_num

theorem exTop_v2_1 : F.Top1 (T := Rat) 0 3 3 2 exDx (fun _ => 1) (exRd (F.face1d ⟨2, 0⟩ 0 3 0)) 100000 := fun i hia hib => by
  interval_cases i <;> norm_num [exRd, exDx, F.cell1d, F.face1d, F.colMajor]

theorem exStep_v2_1 : F.Step1 (T := Rat) 0 3 3 2 exDx (fun _ => 1) (exRd (F.face1d ⟨2, 0⟩ 0 3 0)) (1 / 100000) := fun i hia hib => by
  interval_cases i <;> norm_num [exRd, exDx, F.cell1d, F.face1d, F.colMajor]

theorem exLow_v2_2 : F.Low2 (T := Rat) 0 1 2 3 3 (fun _ => 1) (exRd (F.face2d0 ⟨2, 0⟩ 0 1 2 3 0)) (exRd (F.face2d1 ⟨3, 0⟩ 0 1 2 3 0)) 3 14 where
  amin0 := by norm_num
  bmin0 := by norm_num
  face0 := fun _ _ _ _ _ _ => exRd_floor (by decide)
  face1 := fun _ _ _ _ _ _ => exRd_floor (by decide)
  cell := fun _ _ _ _ _ _ => by norm_num

theorem exTop_v2_2 : F.Top2 (T := Rat) 0 1 2 3 3 2 exDx (fun _ => 1) (exRd (F.face2d0 ⟨2, 0⟩ 0 1 2 3 0)) (exRd (F.face2d1 ⟨3, 0⟩ 0 1 2 3 0)) 100000 := fun i j hia hib hja hjb => by
  interval_cases i <;> interval_cases j <;> norm_num [exRd, exDx, F.cell2d, F.face2d0, F.face2d1, F.colMajor]

theorem exStep_v2_2 : F.Step2 (T := Rat) 0 1 2 3 3 2 exDx (fun _ => 1) (exRd (F.face2d0 ⟨2, 0⟩ 0 1 2 3 0)) (exRd (F.face2d1 ⟨3, 0⟩ 0 1 2 3 0)) (1 / 100000) := fun i j hia hib hja hjb => by
  interval_cases i <;> interval_cases j <;> norm_num [exRd, exDx, F.cell2d, F.face2d0, F.face2d1, F.colMajor]

theorem exLow_v2_3 : F.Low3 (T := Rat) 0 1 2 1 2 3 3 (fun _ => 1) (exRd (F.face3d0 ⟨2, 0⟩ 0 1 2 1 2 3 0)) (exRd (F.face3d1 ⟨3, 0⟩ 0 1 2 1 2 3 0)) (exRd (F.face3d2 ⟨4, 0⟩ 0 1 2 1 2 3 0)) 3 14 where
  amin0 := by norm_num
  bmin0 := by norm_num
  face0 := fun _ _ _ _ _ _ _ _ _ => exRd_floor (by decide)
  face1 := fun _ _ _ _ _ _ _ _ _ => exRd_floor (by decide)
  face2 := fun _ _ _ _ _ _ _ _ _ => exRd_floor (by decide)
  cell := fun _ _ _ _ _ _ _ _ _ => by norm_num

theorem exTop_v2_3 : F.Top3 (T := Rat) 0 1 2 1 2 3 3 2 exDx (fun _ => 1) (exRd (F.face3d0 ⟨2, 0⟩ 0 1 2 1 2 3 0)) (exRd (F.face3d1 ⟨3, 0⟩ 0 1 2 1 2 3 0)) (exRd (F.face3d2 ⟨4, 0⟩ 0 1 2 1 2 3 0)) 100000 := fun i j k hia hib hja hjb hka hkb => by
  interval_cases i <;> interval_cases j <;> interval_cases k <;> norm_num [exRd, exDx, F.cell3d, F.face3d0, F.face3d1, F.face3d2, F.colMajor]

theorem exStep_v2_3 : F.Step3 (T := Rat) 0 1 2 1 2 3 3 2 exDx (fun _ => 1) (exRd (F.face3d0 ⟨2, 0⟩ 0 1 2 1 2 3 0)) (exRd (F.face3d1 ⟨3, 0⟩ 0 1 2 1 2 3 0)) (exRd (F.face3d2 ⟨4, 0⟩ 0 1 2 1 2 3 0)) (1 / 100000) := fun i j k hia hib hja hjb hka hkb => by
  interval_cases i <;> interval_cases j <;> interval_cases k <;> norm_num [exRd, exDx, F.cell3d, F.face3d0, F.face3d1, F.face3d2, F.colMajor]

theorem exStep_p_1 : F.Step1 (T := Rat) 0 3 0 2 exDx (fun _ => 1) (fun _ => 1) (1 / 100000) := fun i hia hib => by
  interval_cases i <;> norm_num [exRd, exDx, F.cell1d, F.face1d, F.colMajor]

theorem exStep_p_2 : F.Step2 (T := Rat) 0 1 2 3 0 2 exDx (fun _ => 1) (fun _ => 1) (fun _ => 1) (1 / 100000) := fun i j hia hib hja hjb => by
  interval_cases i <;> interval_cases j <;> norm_num [exRd, exDx, F.cell2d, F.face2d0, F.face2d1, F.colMajor]

theorem exStep_p_3 : F.Step3 (T := Rat) 0 1 2 1 2 3 0 2 exDx (fun _ => 1) (fun _ => 1) (fun _ => 1) (fun _ => 1) (1 / 100000) := fun i j k hia hib hja hjb hka hkb => by
  interval_cases i <;> interval_cases j <;> interval_cases k <;> norm_num [exRd, exDx, F.cell3d, F.face3d0, F.face3d1, F.face3d2, F.colMajor]

end Verif
