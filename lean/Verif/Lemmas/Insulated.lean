import Verif.Lemmas.WallsEx
import Verif.Spec.Insulated

/-
Neumann conditions on all faces.
-/

set_option linter.unusedVariables false

namespace Verif
open Spec
namespace F

variable {T : Type} [Field T]

theorem jump_zero {ps : List (Piece T)} {p : List Int} {e : Int} (h : ∃ k ∈ ps, k.cells p ∧ k.ghost = e) (hN : ∀ k ∈ ps, k.btype = 1) : jump ps p e = 0 := by
  obtain ⟨k, hk, -, -, hj⟩ := jump_some h
  rw [hj]
  simp [Piece.fac, facU, hN k hk]

theorem walled_one {box : List (Int × Int)} {n : Int} {O : Int → List Int} : Walled box n O (fun _ _ => (0 : T)) (fun _ => 1) := fun p _ e _ _ _ => by simp

theorem form1_one {i0 i1 : Int} {alpha beta : T} {dx : Nat → T} {A B0 V : List Int → T} :
    form1 i0 i1 alpha beta dx A B0 (fun _ => 1) V = alpha * (sum i0 i1 fun i => A [i] * V [i]) := by
  simp [form1, sum_zero]

theorem form2_one {i0 j0 i1 j1 : Int} {alpha beta : T} {dx : Nat → T} {A B0 B1 V : List Int → T} :
    form2 i0 j0 i1 j1 alpha beta dx A B0 B1 (fun _ => 1) V = alpha * (sum i0 i1 fun i => sum j0 j1 fun j => A [i, j] * V [i, j]) := by
  simp [form2, sum_zero]

theorem form3_one {i0 j0 k0 i1 j1 k1 : Int} {alpha beta : T} {dx : Nat → T} {A B0 B1 B2 V : List Int → T} :
    form3 i0 j0 k0 i1 j1 k1 alpha beta dx A B0 B1 B2 (fun _ => 1) V = alpha * (sum i0 i1 fun i => sum j0 j1 fun j => sum k0 k1 fun k => A [i, j, k] * V [i, j, k]) := by
  simp [form3, sum_zero]

end F

/-- 1D: Neumann conditions on all sides -/
def exAll1 : List (BcCall Rat) := [exFill (exSeg (-1) 0 0) (exSeg (-1) 0 0) 0 1, exFill (exSeg 4 0 0) (exSeg 4 0 0) 1 1]

theorem exAll1_covered {dx : Nat → Rat} {B0 : List Int → Rat} :
    F.Covered [(0, 3)] 3 (F.row F.points1) (exAll1.map (fun c : BcCall Rat => c.piece1 0 3 dx B0)) := fun p hp e e0 e1 ho => by
  obtain ⟨i, rfl, h⟩ := F.inBounds1.1 hp
  have hin := hp
  simp only [exAll1, List.map_cons, List.map_nil, List.mem_cons, List.not_mem_nil, or_false, exists_eq_or_imp, exists_eq_left, BcCall.piece1, BcCall.piece, exFill, hin, true_and]
  have he : e = 1 ∨ e = 2 := by omega
  rcases he with rfl | rfl
  · rw [show F.shift [i] (F.row F.points1 1) = [i - 1] from F.shift1_1] at ho
    have hb : i - 1 = -1 := by
      by_contra hc
      exact ho (F.inBounds1.2 ⟨i - 1, rfl, by omega⟩)
    refine Or.inl ⟨?_, by norm_num⟩
    rw [show (0 : Int) + 1 = 1 by norm_num, show F.shift [i] (F.row F.points1 1) = [i - 1] from F.shift1_1]
    simp only [F.onSeg1, exSeg]
    simp [hb]
  · rw [show F.shift [i] (F.row F.points1 2) = [i + 1] from F.shift1_2] at ho
    have hb : i + 1 = 4 := by
      by_contra hc
      exact ho (F.inBounds1.2 ⟨i + 1, rfl, by omega⟩)
    refine Or.inr (⟨?_, by norm_num⟩)
    rw [show (1 : Int) + 1 = 2 by norm_num, show F.shift [i] (F.row F.points1 2) = [i + 1] from F.shift1_2]
    simp only [F.onSeg1, exSeg]
    simp [hb]

/-- 2D: Neumann conditions on all sides -/
def exAll2 : List (BcCall Rat) := [exFill (exSeg (-1) 1 0) (exSeg (-1) 3 0) 0 1, exFill (exSeg 3 1 0) (exSeg 3 3 0) 1 1, exFill (exSeg 0 0 0) (exSeg 2 0 0) 2 1, exFill (exSeg 0 4 0) (exSeg 2 4 0) 3 1]

theorem exAll2_covered {dx : Nat → Rat} {B0 B1 : List Int → Rat} :
    F.Covered [(0, 2), (1, 3)] 5 (F.row F.points2) (exAll2.map (fun c : BcCall Rat => c.piece2 0 1 2 3 dx B0 B1)) := fun p hp e e0 e1 ho => by
  obtain ⟨i, j, rfl, h⟩ := F.inBounds2.1 hp
  have hin := hp
  simp only [exAll2, List.map_cons, List.map_nil, List.mem_cons, List.not_mem_nil, or_false, exists_eq_or_imp, exists_eq_left, BcCall.piece2, BcCall.piece, exFill, hin, true_and]
  have he : e = 1 ∨ e = 2 ∨ e = 3 ∨ e = 4 := by omega
  rcases he with rfl | rfl | rfl | rfl
  · rw [show F.shift [i, j] (F.row F.points2 1) = [i - 1, j] from F.shift2_1] at ho
    have hb : i - 1 = -1 := by
      by_contra hc
      exact ho (F.inBounds2.2 ⟨i - 1, j, rfl, by omega⟩)
    refine Or.inl ⟨?_, by norm_num⟩
    rw [show (0 : Int) + 1 = 1 by norm_num, show F.shift [i, j] (F.row F.points2 1) = [i - 1, j] from F.shift2_1]
    simp only [F.onSeg2, exSeg]
    exact ⟨i - 1, j, rfl, by simp; omega⟩
  · rw [show F.shift [i, j] (F.row F.points2 2) = [i + 1, j] from F.shift2_2] at ho
    have hb : i + 1 = 3 := by
      by_contra hc
      exact ho (F.inBounds2.2 ⟨i + 1, j, rfl, by omega⟩)
    refine Or.inr (Or.inl ⟨?_, by norm_num⟩)
    rw [show (1 : Int) + 1 = 2 by norm_num, show F.shift [i, j] (F.row F.points2 2) = [i + 1, j] from F.shift2_2]
    simp only [F.onSeg2, exSeg]
    exact ⟨i + 1, j, rfl, by simp; omega⟩
  · rw [show F.shift [i, j] (F.row F.points2 3) = [i, j - 1] from F.shift2_3] at ho
    have hb : j - 1 = 0 := by
      by_contra hc
      exact ho (F.inBounds2.2 ⟨i, j - 1, rfl, by omega⟩)
    refine Or.inr (Or.inr (Or.inl ⟨?_, by norm_num⟩))
    rw [show (2 : Int) + 1 = 3 by norm_num, show F.shift [i, j] (F.row F.points2 3) = [i, j - 1] from F.shift2_3]
    simp only [F.onSeg2, exSeg]
    exact ⟨i, j - 1, rfl, by simp; omega⟩
  · rw [show F.shift [i, j] (F.row F.points2 4) = [i, j + 1] from F.shift2_4] at ho
    have hb : j + 1 = 4 := by
      by_contra hc
      exact ho (F.inBounds2.2 ⟨i, j + 1, rfl, by omega⟩)
    refine Or.inr (Or.inr (Or.inr (⟨?_, by norm_num⟩)))
    rw [show (3 : Int) + 1 = 4 by norm_num, show F.shift [i, j] (F.row F.points2 4) = [i, j + 1] from F.shift2_4]
    simp only [F.onSeg2, exSeg]
    exact ⟨i, j + 1, rfl, by simp; omega⟩

/-- 3D: Neumann conditions on all sides -/
def exAll3 : List (BcCall Rat) := [exFill (exSeg (-1) 1 2) (exSeg (-1) 2 3) 0 1, exFill (exSeg 2 1 2) (exSeg 2 2 3) 1 1, exFill (exSeg 0 0 2) (exSeg 1 0 3) 2 1, exFill (exSeg 0 3 2) (exSeg 1 3 3) 3 1, exFill (exSeg 0 1 1) (exSeg 1 2 1) 4 1, exFill (exSeg 0 1 4) (exSeg 1 2 4) 5 1]

theorem exAll3_covered {dx : Nat → Rat} {B0 B1 B2 : List Int → Rat} :
    F.Covered [(0, 1), (1, 2), (2, 3)] 7 (F.row F.points3) (exAll3.map (fun c : BcCall Rat => c.piece3 0 1 2 1 2 3 dx B0 B1 B2)) := fun p hp e e0 e1 ho => by
  obtain ⟨i, j, k, rfl, h⟩ := F.inBounds3.1 hp
  have hin := hp
  simp only [exAll3, List.map_cons, List.map_nil, List.mem_cons, List.not_mem_nil, or_false, exists_eq_or_imp, exists_eq_left, BcCall.piece3, BcCall.piece, exFill, hin, true_and]
  have he : e = 1 ∨ e = 2 ∨ e = 3 ∨ e = 4 ∨ e = 5 ∨ e = 6 := by omega
  rcases he with rfl | rfl | rfl | rfl | rfl | rfl
  · rw [show F.shift [i, j, k] (F.row F.points3 1) = [i - 1, j, k] from F.shift3_1] at ho
    have hb : i - 1 = -1 := by
      by_contra hc
      exact ho (F.inBounds3.2 ⟨i - 1, j, k, rfl, by omega⟩)
    refine Or.inl ⟨?_, by norm_num⟩
    rw [show (0 : Int) + 1 = 1 by norm_num, show F.shift [i, j, k] (F.row F.points3 1) = [i - 1, j, k] from F.shift3_1]
    simp only [F.onSeg3, exSeg]
    exact ⟨i - 1, j, k, rfl, by simp; omega⟩
  · rw [show F.shift [i, j, k] (F.row F.points3 2) = [i + 1, j, k] from F.shift3_2] at ho
    have hb : i + 1 = 2 := by
      by_contra hc
      exact ho (F.inBounds3.2 ⟨i + 1, j, k, rfl, by omega⟩)
    refine Or.inr (Or.inl ⟨?_, by norm_num⟩)
    rw [show (1 : Int) + 1 = 2 by norm_num, show F.shift [i, j, k] (F.row F.points3 2) = [i + 1, j, k] from F.shift3_2]
    simp only [F.onSeg3, exSeg]
    exact ⟨i + 1, j, k, rfl, by simp; omega⟩
  · rw [show F.shift [i, j, k] (F.row F.points3 3) = [i, j - 1, k] from F.shift3_3] at ho
    have hb : j - 1 = 0 := by
      by_contra hc
      exact ho (F.inBounds3.2 ⟨i, j - 1, k, rfl, by omega⟩)
    refine Or.inr (Or.inr (Or.inl ⟨?_, by norm_num⟩))
    rw [show (2 : Int) + 1 = 3 by norm_num, show F.shift [i, j, k] (F.row F.points3 3) = [i, j - 1, k] from F.shift3_3]
    simp only [F.onSeg3, exSeg]
    exact ⟨i, j - 1, k, rfl, by simp; omega⟩
  · rw [show F.shift [i, j, k] (F.row F.points3 4) = [i, j + 1, k] from F.shift3_4] at ho
    have hb : j + 1 = 3 := by
      by_contra hc
      exact ho (F.inBounds3.2 ⟨i, j + 1, k, rfl, by omega⟩)
    refine Or.inr (Or.inr (Or.inr (Or.inl ⟨?_, by norm_num⟩)))
    rw [show (3 : Int) + 1 = 4 by norm_num, show F.shift [i, j, k] (F.row F.points3 4) = [i, j + 1, k] from F.shift3_4]
    simp only [F.onSeg3, exSeg]
    exact ⟨i, j + 1, k, rfl, by simp; omega⟩
  · rw [show F.shift [i, j, k] (F.row F.points3 5) = [i, j, k - 1] from F.shift3_5] at ho
    have hb : k - 1 = 1 := by
      by_contra hc
      exact ho (F.inBounds3.2 ⟨i, j, k - 1, rfl, by omega⟩)
    refine Or.inr (Or.inr (Or.inr (Or.inr (Or.inl ⟨?_, by norm_num⟩))))
    rw [show (4 : Int) + 1 = 5 by norm_num, show F.shift [i, j, k] (F.row F.points3 5) = [i, j, k - 1] from F.shift3_5]
    simp only [F.onSeg3, exSeg]
    exact ⟨i, j, k - 1, rfl, by simp; omega⟩
  · rw [show F.shift [i, j, k] (F.row F.points3 6) = [i, j, k + 1] from F.shift3_6] at ho
    have hb : k + 1 = 4 := by
      by_contra hc
      exact ho (F.inBounds3.2 ⟨i, j, k + 1, rfl, by omega⟩)
    refine Or.inr (Or.inr (Or.inr (Or.inr (Or.inr (⟨?_, by norm_num⟩)))))
    rw [show (5 : Int) + 1 = 6 by norm_num, show F.shift [i, j, k] (F.row F.points3 6) = [i, j, k + 1] from F.shift3_6]
    simp only [F.onSeg3, exSeg]
    exact ⟨i, j, k + 1, rfl, by simp; omega⟩

end Verif
