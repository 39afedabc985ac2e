import Verif.Lemmas.SmoothEx
import Verif.Lemmas.SmoothConv

/-
Data for the examples of convergence: diagonal coefficient 10, the others -1, the solution 1 everywhere; the unknowns are 4 inside the box and 1
outside, or 1 everywhere.
-/

set_option linter.unusedVariables false

namespace Verif

/-- offsets of the cells inside the box -/
def exInB : Nat → Int → Bool
  | 1, o => 1 ≤ o ∧ o ≤ 5
  | 2, o => 1 ≤ o % 7 ∧ o % 7 ≤ 5 ∧ 2 ≤ o / 7 ∧ o / 7 ≤ 6
  | _, o => 1 ≤ o % 7 ∧ o % 7 ≤ 5 ∧ 2 ≤ o / 7 % 8 ∧ o / 7 % 8 ≤ 6 ∧ 1 ≤ o / 56 ∧ o / 56 ≤ 4

/-- coefficients in block 1, right hand side in block 2, unknowns in block 3 with `v` inside the box -/
def exConv (N : Nat) (v : Rat) : Mem Rat where
  val q := some (if q.blk = 1 then (if q.off % (2 * N + 1) = 0 then 10 else -1) else if q.blk = 2 then 10 - 2 * N
    else if q.blk = 3 then (if exInB N q.off then v else 1) else 0)
  ints := exSm.ints

def exX : List Int → Rat := fun _ => 1
def exSC : List Int → Rat
  | s :: _ => if s = 0 then 10 else -1
  | [] => 0
def exUC (box : List (Int × Int)) : List Int → Rat := fun p => if F.InBounds box p then 4 else 1


theorem ex_coef1 {v : Rat} : F.Holds (exConv 1 v) (F.sm1d ⟨1, 0⟩ 3 0 6) exSC := by
  intro is hi
  refine ⟨hi, ?_⟩
  match is, hi with
  | [s, i], hi =>
    simp only [F.sm1d, F.InBounds, F.colMajor] at hi ⊢
    simp only [exConv, Ptr.add, exSC, if_true]
    congr 1
    refine if_congr ?_ rfl rfl
    omega

theorem ex_rhs1 {v : Rat} : F.Holds (exConv 1 v) (F.box1d ⟨2, 0⟩ 0 6) (fun _ => 8) := fun is hi => ⟨hi, by
  simp [exConv, Ptr.add, F.box1d]
  norm_num⟩

theorem ex_unk1 : F.Holds (exConv 1 4) (F.box1d ⟨3, 0⟩ 0 6) (exUC [(1, 5)]) := by
  intro is hi
  refine ⟨hi, ?_⟩
  match is, hi with
  | [i], hi =>
    simp only [F.box1d, F.InBounds, F.colMajor] at hi ⊢
    simp only [exConv, Ptr.add, exUC]
    rw [if_neg (by decide), if_neg (by decide), if_pos trivial]
    congr 1
    refine if_congr ?_ rfl rfl
    simp only [exInB, F.InBounds, decide_eq_true_eq, and_true]
    omega

theorem ex_one1 : F.Holds (exConv 1 1) (F.box1d ⟨3, 0⟩ 0 6) exX := fun is hi => ⟨hi, by
  simp [exConv, Ptr.add, F.box1d, exX]⟩

theorem ex_conv1 : F.Problem (exConv 1 4) [(1, 5)] 3 (F.offset0 ⟨21, 0⟩ 1 3) (F.sm1d ⟨1, 0⟩ 3 0 6) (F.box1d ⟨2, 0⟩ 0 6) (F.box1d ⟨3, 0⟩ 0 6) exO1 exSC (fun _ => 8) (exUC [(1, 5)]) :=
  ⟨ex_problem1.size, ex_problem1.table, ex_coef1, ex_rhs1, ex_unk1, ex_problem1.inSt, ex_problem1.inF, ex_problem1.inU, ex_problem1.near,
    ex_problem1.apartSt, ex_problem1.apartF⟩

theorem ex_sol1 : F.Problem (exConv 1 1) [(1, 5)] 3 (F.offset0 ⟨21, 0⟩ 1 3) (F.sm1d ⟨1, 0⟩ 3 0 6) (F.box1d ⟨2, 0⟩ 0 6) (F.box1d ⟨3, 0⟩ 0 6) exO1 exSC (fun _ => 8) exX :=
  ⟨ex_problem1.size, ex_problem1.table, ex_coef1, ex_rhs1, ex_one1, ex_problem1.inSt, ex_problem1.inF, ex_problem1.inU, ex_problem1.near,
    ex_problem1.apartSt, ex_problem1.apartF⟩

theorem ex_dom1 : F.Dominant [(1, 5)] 3 exO1 (1/5) (fun _ => 1) exSC where
  diag := fun p _ => by norm_num [exSC]
  pos := fun _ _ => one_pos
  nonneg := fun _ => zero_le_one
  row := fun p _ => by
    have : F.sum 1 (3 - 1) (fun s => |exSC (s :: p)| * (1 : Rat)) = 2 := by
      rw [F.sum_congr (g := fun _ => (1 : Rat)) fun s h0 h1 => by
        simp only [exSC]
        rw [if_neg (by omega)]
        norm_num]
      decide +kernel
    rw [this]
    norm_num [exSC, abs_of_pos]

theorem ex_eqn1 : ∀ p, F.InBounds [(1, 5)] p → F.Eqn 3 exO1 exSC (fun _ => 8) exX p := fun p _ => by
  change F.sum 0 (3 - 1) (fun s => (if s = 0 then (10 : Rat) else -1) * 1) = 8
  decide +kernel

theorem ex_out1 : ∀ p, ¬ F.InBounds [(1, 5)] p → exUC [(1, 5)] p = exX p := fun p hp => by
  simp [exUC, hp, exX]

theorem ex_err1 : ∀ p, F.InBounds [(1, 5)] p → |exUC [(1, 5)] p - exX p| ≤ 3 * (fun _ => 1) p := fun p hp => by
  simp only [exUC, hp, exX, if_true]
  norm_num [abs_of_pos]


theorem ex_coef2 {v : Rat} : F.Holds (exConv 2 v) (F.sm2d ⟨1, 0⟩ 5 0 0 6 7) exSC := by
  intro is hi
  refine ⟨hi, ?_⟩
  match is, hi with
  | [s, i, j], hi =>
    simp only [F.sm2d, F.InBounds, F.colMajor] at hi ⊢
    simp only [exConv, Ptr.add, exSC, if_true]
    congr 1
    refine if_congr ?_ rfl rfl
    omega

theorem ex_rhs2 {v : Rat} : F.Holds (exConv 2 v) (F.box2d ⟨2, 0⟩ 0 0 6 7) (fun _ => 6) := fun is hi => ⟨hi, by
  simp [exConv, Ptr.add, F.box2d]
  norm_num⟩

theorem ex_unk2 : F.Holds (exConv 2 4) (F.box2d ⟨3, 0⟩ 0 0 6 7) (exUC [(1, 5), (2, 6)]) := by
  intro is hi
  refine ⟨hi, ?_⟩
  match is, hi with
  | [i, j], hi =>
    simp only [F.box2d, F.InBounds, F.colMajor] at hi ⊢
    simp only [exConv, Ptr.add, exUC]
    rw [if_neg (by decide), if_neg (by decide), if_pos trivial]
    congr 1
    refine if_congr ?_ rfl rfl
    simp only [exInB, F.InBounds, decide_eq_true_eq, and_true]
    omega

theorem ex_one2 : F.Holds (exConv 2 1) (F.box2d ⟨3, 0⟩ 0 0 6 7) exX := fun is hi => ⟨hi, by
  simp [exConv, Ptr.add, F.box2d, exX]⟩

theorem ex_conv2 : F.Problem (exConv 2 4) [(1, 5), (2, 6)] 5 (F.offset0 ⟨22, 0⟩ 2 5) (F.sm2d ⟨1, 0⟩ 5 0 0 6 7) (F.box2d ⟨2, 0⟩ 0 0 6 7) (F.box2d ⟨3, 0⟩ 0 0 6 7) exO2 exSC (fun _ => 6) (exUC [(1, 5), (2, 6)]) :=
  ⟨ex_problem2.size, ex_problem2.table, ex_coef2, ex_rhs2, ex_unk2, ex_problem2.inSt, ex_problem2.inF, ex_problem2.inU, ex_problem2.near,
    ex_problem2.apartSt, ex_problem2.apartF⟩

theorem ex_sol2 : F.Problem (exConv 2 1) [(1, 5), (2, 6)] 5 (F.offset0 ⟨22, 0⟩ 2 5) (F.sm2d ⟨1, 0⟩ 5 0 0 6 7) (F.box2d ⟨2, 0⟩ 0 0 6 7) (F.box2d ⟨3, 0⟩ 0 0 6 7) exO2 exSC (fun _ => 6) exX :=
  ⟨ex_problem2.size, ex_problem2.table, ex_coef2, ex_rhs2, ex_one2, ex_problem2.inSt, ex_problem2.inF, ex_problem2.inU, ex_problem2.near,
    ex_problem2.apartSt, ex_problem2.apartF⟩

theorem ex_dom2 : F.Dominant [(1, 5), (2, 6)] 5 exO2 (2/5) (fun _ => 1) exSC where
  diag := fun p _ => by norm_num [exSC]
  pos := fun _ _ => one_pos
  nonneg := fun _ => zero_le_one
  row := fun p _ => by
    have : F.sum 1 (5 - 1) (fun s => |exSC (s :: p)| * (1 : Rat)) = 4 := by
      rw [F.sum_congr (g := fun _ => (1 : Rat)) fun s h0 h1 => by
        simp only [exSC]
        rw [if_neg (by omega)]
        norm_num]
      decide +kernel
    rw [this]
    norm_num [exSC, abs_of_pos]

theorem ex_eqn2 : ∀ p, F.InBounds [(1, 5), (2, 6)] p → F.Eqn 5 exO2 exSC (fun _ => 6) exX p := fun p _ => by
  change F.sum 0 (5 - 1) (fun s => (if s = 0 then (10 : Rat) else -1) * 1) = 6
  decide +kernel

theorem ex_out2 : ∀ p, ¬ F.InBounds [(1, 5), (2, 6)] p → exUC [(1, 5), (2, 6)] p = exX p := fun p hp => by
  simp [exUC, hp, exX]

theorem ex_err2 : ∀ p, F.InBounds [(1, 5), (2, 6)] p → |exUC [(1, 5), (2, 6)] p - exX p| ≤ 3 * (fun _ => 1) p := fun p hp => by
  simp only [exUC, hp, exX, if_true]
  norm_num [abs_of_pos]


theorem ex_coef3 {v : Rat} : F.Holds (exConv 3 v) (F.sm3d ⟨1, 0⟩ 7 0 0 0 6 7 5) exSC := by
  intro is hi
  refine ⟨hi, ?_⟩
  match is, hi with
  | [s, i, j, k], hi =>
    simp only [F.sm3d, F.InBounds, F.colMajor] at hi ⊢
    simp only [exConv, Ptr.add, exSC, if_true]
    congr 1
    refine if_congr ?_ rfl rfl
    omega

theorem ex_rhs3 {v : Rat} : F.Holds (exConv 3 v) (F.box3d ⟨2, 0⟩ 0 0 0 6 7 5) (fun _ => 4) := fun is hi => ⟨hi, by
  simp [exConv, Ptr.add, F.box3d]
  norm_num⟩

theorem ex_unk3 : F.Holds (exConv 3 4) (F.box3d ⟨3, 0⟩ 0 0 0 6 7 5) (exUC [(1, 5), (2, 6), (1, 4)]) := by
  intro is hi
  refine ⟨hi, ?_⟩
  match is, hi with
  | [i, j, k], hi =>
    simp only [F.box3d, F.InBounds, F.colMajor] at hi ⊢
    simp only [exConv, Ptr.add, exUC]
    rw [if_neg (by decide), if_neg (by decide), if_pos trivial]
    congr 1
    refine if_congr ?_ rfl rfl
    simp only [exInB, F.InBounds, decide_eq_true_eq, and_true]
    omega

theorem ex_one3 : F.Holds (exConv 3 1) (F.box3d ⟨3, 0⟩ 0 0 0 6 7 5) exX := fun is hi => ⟨hi, by
  simp [exConv, Ptr.add, F.box3d, exX]⟩

theorem ex_conv3 : F.Problem (exConv 3 4) [(1, 5), (2, 6), (1, 4)] 7 (F.offset0 ⟨23, 0⟩ 3 7) (F.sm3d ⟨1, 0⟩ 7 0 0 0 6 7 5) (F.box3d ⟨2, 0⟩ 0 0 0 6 7 5) (F.box3d ⟨3, 0⟩ 0 0 0 6 7 5) exO3 exSC (fun _ => 4) (exUC [(1, 5), (2, 6), (1, 4)]) :=
  ⟨ex_problem3.size, ex_problem3.table, ex_coef3, ex_rhs3, ex_unk3, ex_problem3.inSt, ex_problem3.inF, ex_problem3.inU, ex_problem3.near,
    ex_problem3.apartSt, ex_problem3.apartF⟩

theorem ex_sol3 : F.Problem (exConv 3 1) [(1, 5), (2, 6), (1, 4)] 7 (F.offset0 ⟨23, 0⟩ 3 7) (F.sm3d ⟨1, 0⟩ 7 0 0 0 6 7 5) (F.box3d ⟨2, 0⟩ 0 0 0 6 7 5) (F.box3d ⟨3, 0⟩ 0 0 0 6 7 5) exO3 exSC (fun _ => 4) exX :=
  ⟨ex_problem3.size, ex_problem3.table, ex_coef3, ex_rhs3, ex_one3, ex_problem3.inSt, ex_problem3.inF, ex_problem3.inU, ex_problem3.near,
    ex_problem3.apartSt, ex_problem3.apartF⟩

theorem ex_dom3 : F.Dominant [(1, 5), (2, 6), (1, 4)] 7 exO3 (3/5) (fun _ => 1) exSC where
  diag := fun p _ => by norm_num [exSC]
  pos := fun _ _ => one_pos
  nonneg := fun _ => zero_le_one
  row := fun p _ => by
    have : F.sum 1 (7 - 1) (fun s => |exSC (s :: p)| * (1 : Rat)) = 6 := by
      rw [F.sum_congr (g := fun _ => (1 : Rat)) fun s h0 h1 => by
        simp only [exSC]
        rw [if_neg (by omega)]
        norm_num]
      decide +kernel
    rw [this]
    norm_num [exSC, abs_of_pos]

theorem ex_eqn3 : ∀ p, F.InBounds [(1, 5), (2, 6), (1, 4)] p → F.Eqn 7 exO3 exSC (fun _ => 4) exX p := fun p _ => by
  change F.sum 0 (7 - 1) (fun s => (if s = 0 then (10 : Rat) else -1) * 1) = 4
  decide +kernel

theorem ex_out3 : ∀ p, ¬ F.InBounds [(1, 5), (2, 6), (1, 4)] p → exUC [(1, 5), (2, 6), (1, 4)] p = exX p := fun p hp => by
  simp [exUC, hp, exX]

theorem ex_err3 : ∀ p, F.InBounds [(1, 5), (2, 6), (1, 4)] p → |exUC [(1, 5), (2, 6), (1, 4)] p - exX p| ≤ 3 * (fun _ => 1) p := fun p hp => by
  simp only [exUC, hp, exX, if_true]
  norm_num [abs_of_pos]

end Verif
