import Verif.Lemmas.Bc

/-
The layers, edges and corners the boundary condition kernels write, and the shifted arrays they read there.
-/

namespace Verif
open Spec

variable {T : Type}

set_option linter.unusedVariables false
set_option linter.unusedSimpArgs false

/-! ### face arrays with ghost cells -/

def sFaceG1 (t : Ptr) (i0 i1 g : Int) : Span := ⟨t, [(Dim.I, ⟨i0 - g, i1 + 1 + 1 + g, 1⟩)]⟩
def sFaceG20 (t : Ptr) (i0 j0 i1 j1 g : Int) : Span := ⟨t, [(Dim.J, ⟨j0 - g, j1 + 1 + g, 1⟩), (Dim.I, ⟨i0 - g, i1 + 1 + 1 + g, 1⟩)]⟩
def sFaceG21 (t : Ptr) (i0 j0 i1 j1 g : Int) : Span := ⟨t, [(Dim.I, ⟨i0 - g, i1 + 1 + g, 1⟩), (Dim.J, ⟨j0 - g, j1 + 1 + 1 + g, 1⟩)]⟩
def sFaceG30 (t : Ptr) (i0 j0 k0 i1 j1 k1 g : Int) : Span := ⟨t, [(Dim.K, ⟨k0 - g, k1 + 1 + g, 1⟩), (Dim.J, ⟨j0 - g, j1 + 1 + g, 1⟩), (Dim.I, ⟨i0 - g, i1 + 1 + 1 + g, 1⟩)]⟩
def sFaceG31 (t : Ptr) (i0 j0 k0 i1 j1 k1 g : Int) : Span := ⟨t, [(Dim.I, ⟨i0 - g, i1 + 1 + g, 1⟩), (Dim.K, ⟨k0 - g, k1 + 1 + g, 1⟩), (Dim.J, ⟨j0 - g, j1 + 1 + 1 + g, 1⟩)]⟩
def sFaceG32 (t : Ptr) (i0 j0 k0 i1 j1 k1 g : Int) : Span := ⟨t, [(Dim.J, ⟨j0 - g, j1 + 1 + g, 1⟩), (Dim.I, ⟨i0 - g, i1 + 1 + g, 1⟩), (Dim.K, ⟨k0 - g, k1 + 1 + 1 + g, 1⟩)]⟩

macro "shapeG_eq" : tactic => `(tactic| (
  simp only [farr, sFaceG1, sFaceG20, sFaceG21, sFaceG30, sFaceG31, sFaceG32, F.face1d, F.face2d0, F.face2d1, F.face3d0, F.face3d1, F.face3d2,
    List.map_cons, List.map_nil, List.reverse_cons, List.reverse_nil, List.nil_append, List.cons_append,
    F.Arr.mk.injEq, List.cons.injEq, Prod.mk.injEq, and_true, true_and]
  omega))

theorem farr_faceG1 {t i0 i1 g} : farr (sFaceG1 t i0 i1 g) = F.face1d t i0 i1 g := by shapeG_eq
theorem farr_faceG20 {t i0 j0 i1 j1 g} : farr (sFaceG20 t i0 j0 i1 j1 g) = F.face2d0 t i0 j0 i1 j1 g := by shapeG_eq
theorem farr_faceG21 {t i0 j0 i1 j1 g} : farr (sFaceG21 t i0 j0 i1 j1 g) = F.face2d1 t i0 j0 i1 j1 g := by shapeG_eq
theorem farr_faceG30 {t i0 j0 k0 i1 j1 k1 g} : farr (sFaceG30 t i0 j0 k0 i1 j1 k1 g) = F.face3d0 t i0 j0 k0 i1 j1 k1 g := by shapeG_eq
theorem farr_faceG31 {t i0 j0 k0 i1 j1 k1 g} : farr (sFaceG31 t i0 j0 k0 i1 j1 k1 g) = F.face3d1 t i0 j0 k0 i1 j1 k1 g := by shapeG_eq
theorem farr_faceG32 {t i0 j0 k0 i1 j1 k1 g} : farr (sFaceG32 t i0 j0 k0 i1 j1 k1 g) = F.face3d2 t i0 j0 k0 i1 j1 k1 g := by shapeG_eq

theorem faceG1_setup {m : Mem T} {t : Ptr} {i0 i1 g : Int} (h : F.ArrOK m (F.face1d t i0 i1 g)) (hi : i0 ≤ i1) (hg : 0 ≤ g) :
    ArrOK m (sFaceG1 t i0 i1 g) ∧ DB.plus (.I, ⟨i0, i1 + 1, 1⟩) 1 = .ok (.I, ⟨i0, i1 + 1 + 1, 1⟩) ∧
      makeSpanOffset t g [(.I, ⟨i0, i1 + 1 + 1, 1⟩)] = .ok (sFaceG1 t i0 i1 g) := by
  have hI := h.int
  simp only [F.face1d, List.mem_cons, List.not_mem_nil, or_false, forall_eq_or_imp, forall_eq, InInt] at hI
  exact ⟨arrOK_farr (farr_faceG1 ▸ h) (by simp [sFaceG1]) (by simp [sFaceG1]) (by simp [sFaceG1] <;> omega),
    plus_ok (by omega) (by unfold InInt; dsimp only; omega), makeSpanOffset_ok (by simp) (by simp [InInt] <;> omega)⟩

theorem faceG20_setup {m : Mem T} {t : Ptr} {i0 j0 i1 j1 g : Int} (h : F.ArrOK m (F.face2d0 t i0 j0 i1 j1 g)) (hi : i0 ≤ i1) (hj : j0 ≤ j1) (hg : 0 ≤ g) :
    ArrOK m (sFaceG20 t i0 j0 i1 j1 g) ∧ DB.plus (.I, ⟨i0, i1 + 1, 1⟩) 1 = .ok (.I, ⟨i0, i1 + 1 + 1, 1⟩) ∧
      makeSpanOffset t g [(.J, ⟨j0, j1 + 1, 1⟩), (.I, ⟨i0, i1 + 1 + 1, 1⟩)] = .ok (sFaceG20 t i0 j0 i1 j1 g) := by
  have hI := h.int
  simp only [F.face2d0, List.mem_cons, List.not_mem_nil, or_false, forall_eq_or_imp, forall_eq, InInt] at hI
  exact ⟨arrOK_farr (farr_faceG20 ▸ h) (by simp [sFaceG20]) (by simp [sFaceG20]) (by simp [sFaceG20] <;> omega),
    plus_ok (by omega) (by unfold InInt; dsimp only; omega), makeSpanOffset_ok (by simp) (by simp [InInt] <;> omega)⟩

theorem faceG21_setup {m : Mem T} {t : Ptr} {i0 j0 i1 j1 g : Int} (h : F.ArrOK m (F.face2d1 t i0 j0 i1 j1 g)) (hi : i0 ≤ i1) (hj : j0 ≤ j1) (hg : 0 ≤ g) :
    ArrOK m (sFaceG21 t i0 j0 i1 j1 g) ∧ DB.plus (.J, ⟨j0, j1 + 1, 1⟩) 1 = .ok (.J, ⟨j0, j1 + 1 + 1, 1⟩) ∧
      makeSpanOffset t g [(.I, ⟨i0, i1 + 1, 1⟩), (.J, ⟨j0, j1 + 1 + 1, 1⟩)] = .ok (sFaceG21 t i0 j0 i1 j1 g) := by
  have hI := h.int
  simp only [F.face2d1, List.mem_cons, List.not_mem_nil, or_false, forall_eq_or_imp, forall_eq, InInt] at hI
  exact ⟨arrOK_farr (farr_faceG21 ▸ h) (by simp [sFaceG21]) (by simp [sFaceG21]) (by simp [sFaceG21] <;> omega),
    plus_ok (by omega) (by unfold InInt; dsimp only; omega), makeSpanOffset_ok (by simp) (by simp [InInt] <;> omega)⟩

theorem faceG30_setup {m : Mem T} {t : Ptr} {i0 j0 k0 i1 j1 k1 g : Int} (h : F.ArrOK m (F.face3d0 t i0 j0 k0 i1 j1 k1 g)) (hi : i0 ≤ i1) (hj : j0 ≤ j1) (hk : k0 ≤ k1) (hg : 0 ≤ g) :
    ArrOK m (sFaceG30 t i0 j0 k0 i1 j1 k1 g) ∧ DB.plus (.I, ⟨i0, i1 + 1, 1⟩) 1 = .ok (.I, ⟨i0, i1 + 1 + 1, 1⟩) ∧
      makeSpanOffset t g [(.K, ⟨k0, k1 + 1, 1⟩), (.J, ⟨j0, j1 + 1, 1⟩), (.I, ⟨i0, i1 + 1 + 1, 1⟩)] = .ok (sFaceG30 t i0 j0 k0 i1 j1 k1 g) := by
  have hI := h.int
  simp only [F.face3d0, List.mem_cons, List.not_mem_nil, or_false, forall_eq_or_imp, forall_eq, InInt] at hI
  exact ⟨arrOK_farr (farr_faceG30 ▸ h) (by simp [sFaceG30]) (by simp [sFaceG30]) (by simp [sFaceG30] <;> omega),
    plus_ok (by omega) (by unfold InInt; dsimp only; omega), makeSpanOffset_ok (by simp) (by simp [InInt] <;> omega)⟩

theorem faceG31_setup {m : Mem T} {t : Ptr} {i0 j0 k0 i1 j1 k1 g : Int} (h : F.ArrOK m (F.face3d1 t i0 j0 k0 i1 j1 k1 g)) (hi : i0 ≤ i1) (hj : j0 ≤ j1) (hk : k0 ≤ k1) (hg : 0 ≤ g) :
    ArrOK m (sFaceG31 t i0 j0 k0 i1 j1 k1 g) ∧ DB.plus (.J, ⟨j0, j1 + 1, 1⟩) 1 = .ok (.J, ⟨j0, j1 + 1 + 1, 1⟩) ∧
      makeSpanOffset t g [(.I, ⟨i0, i1 + 1, 1⟩), (.K, ⟨k0, k1 + 1, 1⟩), (.J, ⟨j0, j1 + 1 + 1, 1⟩)] = .ok (sFaceG31 t i0 j0 k0 i1 j1 k1 g) := by
  have hI := h.int
  simp only [F.face3d1, List.mem_cons, List.not_mem_nil, or_false, forall_eq_or_imp, forall_eq, InInt] at hI
  exact ⟨arrOK_farr (farr_faceG31 ▸ h) (by simp [sFaceG31]) (by simp [sFaceG31]) (by simp [sFaceG31] <;> omega),
    plus_ok (by omega) (by unfold InInt; dsimp only; omega), makeSpanOffset_ok (by simp) (by simp [InInt] <;> omega)⟩

theorem faceG32_setup {m : Mem T} {t : Ptr} {i0 j0 k0 i1 j1 k1 g : Int} (h : F.ArrOK m (F.face3d2 t i0 j0 k0 i1 j1 k1 g)) (hi : i0 ≤ i1) (hj : j0 ≤ j1) (hk : k0 ≤ k1) (hg : 0 ≤ g) :
    ArrOK m (sFaceG32 t i0 j0 k0 i1 j1 k1 g) ∧ DB.plus (.K, ⟨k0, k1 + 1, 1⟩) 1 = .ok (.K, ⟨k0, k1 + 1 + 1, 1⟩) ∧
      makeSpanOffset t g [(.J, ⟨j0, j1 + 1, 1⟩), (.I, ⟨i0, i1 + 1, 1⟩), (.K, ⟨k0, k1 + 1 + 1, 1⟩)] = .ok (sFaceG32 t i0 j0 k0 i1 j1 k1 g) := by
  have hI := h.int
  simp only [F.face3d2, List.mem_cons, List.not_mem_nil, or_false, forall_eq_or_imp, forall_eq, InInt] at hI
  exact ⟨arrOK_farr (farr_faceG32 ▸ h) (by simp [sFaceG32]) (by simp [sFaceG32]) (by simp [sFaceG32] <;> omega),
    plus_ok (by omega) (by unfold InInt; dsimp only; omega), makeSpanOffset_ok (by simp) (by simp [InInt] <;> omega)⟩


/-! ### points -/

/-- the point with these indices -/
def sitePt (i j k : Int) : Pt := fun d => if d = .I then i else if d = .J then j else k

macro "bc_geo" : tactic => `(tactic| (
  simp [sCell1, sCell2, sCell3, sFaceG1, sFaceG20, sFaceG21, sFaceG30, sFaceG31, sFaceG32, shiftDom, shiftPt, InDom, Inside, IsPoint, InRange, InInt] <;> omega))

macro "site_loop" : tactic => `(tactic| (
  refine ⟨by simp, by simp, fun p => ?_⟩
  simp [InDom, IsPoint, InRange, sitePt]
  try omega))

macro "site_idx" : tactic => `(tactic| (
  intro p hp
  rw [F.mem_nestPts (by simp)] at hp
  have h1 := hp.2 .I
  have h2 := hp.2 .J
  have h3 := hp.2 .K
  simp [sitePt] at h1 h2 h3
  simp [sCell1, sCell2, sCell3, sFaceG1, sFaceG20, sFaceG21, sFaceG30, sFaceG31, sFaceG32, shiftPt, sitePt, *]
  try omega))

macro "site_tac" h:term ", " n:term : tactic => `(tactic| exact ⟨$h, ⟨by simp, by simp, by bc_geo⟩,
  ⟨by simp [sCell1, sCell2, sCell3], by bc_geo⟩, by site_loop, $n, by site_idx⟩)


/-! ### one dimension -/

theorem site1I {m : Mem T} {t : Ptr} {i0 i1 g li xi : Int} (h : ArrOK m (sCell1 t i0 i1 g))
    (hi : i0 - g ≤ li ∧ li ≤ i1 + g) (hxi : xi = li) :
    Site m (sCell1 t i0 i1 g) (F.cell1d t i0 i1 g) [(.I, ⟨li, li + 1, 1⟩)] [] (sitePt li 0 0) fun p => [xi] := by site_tac h, farr_cell1

theorem at1I_I {m : Mem T} {t : Ptr} {i0 i1 g li xi ki yi : Int} (S : Site m (sCell1 t i0 i1 g) (F.cell1d t i0 i1 g) [(.I, ⟨li, li + 1, 1⟩)] [] (sitePt li 0 0) fun p => [xi])
     (hi : i0 - g ≤ li + ki ∧ li + ki ≤ i1 + g) (ni : ki ≠ 0) (hyi : yi = li + ki) :
    At m (sCell1 t i0 i1 g) [(.I, ⟨li, li + 1, 1⟩)] [] (sitePt li 0 0) (.shift .I ki (.span (sCell1 t i0 i1 g))) (F.cell1d t i0 i1 g) fun p => [yi] := by
  have hi := S.arr.geo.int
  simp [sCell1, InInt] at hi
  refine at_of (mv := fun p => shiftPt p .I ki) S S.arr farr_cell1 (Or.inr ⟨rfl, ?_⟩) rfl ⟨?_, ?_, ?_⟩ (fun p => rfl) ?_ ?_
  · bc_geo
  · bc_geo
  · simp [sCell1, shiftDom]
  · bc_geo
  · bc_geo
  · site_idx

theorem at1I_d1 {m : Mem T} {t t2 : Ptr} {i0 i1 g dg li xi yi : Int} (S : Site m (sCell1 t i0 i1 g) (F.cell1d t i0 i1 g) [(.I, ⟨li, li + 1, 1⟩)] [] (sitePt li 0 0) fun p => [xi])
    (hd : ArrOK m (sFaceG1 t2 i0 i1 dg)) (ha : Apart (sCell1 t i0 i1 g) (sFaceG1 t2 i0 i1 dg))
     (hi : i0 - dg ≤ li + 1 ∧ li + 1 ≤ i1 + 1 + dg) (hyi : yi = li + 1) :
    At m (sCell1 t i0 i1 g) [(.I, ⟨li, li + 1, 1⟩)] [] (sitePt li 0 0) (.shift .I 1 (.span (sFaceG1 t2 i0 i1 dg))) (F.face1d t2 i0 i1 dg) fun p => [yi] := by
  have hi := S.arr.geo.int
  simp [sCell1, InInt] at hi
  have hi' := hd.geo.int
  simp [sFaceG1, InInt] at hi'
  refine at_of (mv := fun p => shiftPt p .I 1) S hd farr_faceG1 (Or.inl ha) rfl ⟨?_, ?_, ?_⟩ (fun p => rfl) ?_ ?_
  · bc_geo
  · show List.Perm [Dim.I] [Dim.I]; decide
  · bc_geo
  · bc_geo
  · site_idx

theorem at1I_d0 {m : Mem T} {t t2 : Ptr} {i0 i1 g dg li xi yi : Int} (S : Site m (sCell1 t i0 i1 g) (F.cell1d t i0 i1 g) [(.I, ⟨li, li + 1, 1⟩)] [] (sitePt li 0 0) fun p => [xi])
    (hd : ArrOK m (sFaceG1 t2 i0 i1 dg)) (ha : Apart (sCell1 t i0 i1 g) (sFaceG1 t2 i0 i1 dg))
     (hi : i0 - dg ≤ li ∧ li ≤ i1 + 1 + dg) (hyi : yi = li) :
    At m (sCell1 t i0 i1 g) [(.I, ⟨li, li + 1, 1⟩)] [] (sitePt li 0 0) (.span (sFaceG1 t2 i0 i1 dg)) (F.face1d t2 i0 i1 dg) fun p => [yi] := by
  have hi := S.arr.geo.int
  simp [sCell1, InInt] at hi
  have hi' := hd.geo.int
  simp [sFaceG1, InInt] at hi'
  refine at_of (mv := fun p => p) S hd farr_faceG1 (Or.inl ha) rfl ⟨?_, ?_⟩ (fun p => rfl) ?_ ?_
  · show List.Perm [Dim.I] [Dim.I]; decide
  · bc_geo
  · bc_geo
  · site_idx

/-! ### two dimensions -/

theorem site2I {m : Mem T} {t : Ptr} {i0 j0 i1 j1 g aj bj li xi : Int} (h : ArrOK m (sCell2 t i0 j0 i1 j1 g))
    (hj : j0 - g ≤ aj ∧ aj ≤ bj ∧ bj ≤ j1 + g) (hi : i0 - g ≤ li ∧ li ≤ i1 + g) (hxi : xi = li) :
    Site m (sCell2 t i0 j0 i1 j1 g) (F.cell2d t i0 j0 i1 j1 g) [(.J, ⟨aj, bj + 1, 1⟩), (.I, ⟨li, li + 1, 1⟩)] [(.J, aj, bj)] (sitePt li 0 0) fun p => [xi, p .J] := by site_tac h, farr_cell2

theorem at2I_I {m : Mem T} {t : Ptr} {i0 j0 i1 j1 g aj bj li xi ki yi : Int} (S : Site m (sCell2 t i0 j0 i1 j1 g) (F.cell2d t i0 j0 i1 j1 g) [(.J, ⟨aj, bj + 1, 1⟩), (.I, ⟨li, li + 1, 1⟩)] [(.J, aj, bj)] (sitePt li 0 0) fun p => [xi, p .J])
    (rj : j0 - g ≤ aj ∧ aj ≤ bj ∧ bj ≤ j1 + g) (hi : i0 - g ≤ li + ki ∧ li + ki ≤ i1 + g) (ni : ki ≠ 0) (hyi : yi = li + ki) :
    At m (sCell2 t i0 j0 i1 j1 g) [(.J, ⟨aj, bj + 1, 1⟩), (.I, ⟨li, li + 1, 1⟩)] [(.J, aj, bj)] (sitePt li 0 0) (.shift .I ki (.span (sCell2 t i0 j0 i1 j1 g))) (F.cell2d t i0 j0 i1 j1 g) fun p => [yi, p .J] := by
  have hi := S.arr.geo.int
  simp [sCell2, InInt] at hi
  refine at_of (mv := fun p => shiftPt p .I ki) S S.arr farr_cell2 (Or.inr ⟨rfl, ?_⟩) rfl ⟨?_, ?_, ?_⟩ (fun p => rfl) ?_ ?_
  · bc_geo
  · bc_geo
  · simp [sCell2, shiftDom]
  · bc_geo
  · bc_geo
  · site_idx

theorem at2I_d1 {m : Mem T} {t t2 : Ptr} {i0 j0 i1 j1 g dg aj bj li xi yi : Int} (S : Site m (sCell2 t i0 j0 i1 j1 g) (F.cell2d t i0 j0 i1 j1 g) [(.J, ⟨aj, bj + 1, 1⟩), (.I, ⟨li, li + 1, 1⟩)] [(.J, aj, bj)] (sitePt li 0 0) fun p => [xi, p .J])
    (hd : ArrOK m (sFaceG20 t2 i0 j0 i1 j1 dg)) (ha : Apart (sCell2 t i0 j0 i1 j1 g) (sFaceG20 t2 i0 j0 i1 j1 dg))
    (rj : j0 - dg ≤ aj ∧ aj ≤ bj ∧ bj ≤ j1 + dg) (hi : i0 - dg ≤ li + 1 ∧ li + 1 ≤ i1 + 1 + dg) (hyi : yi = li + 1) :
    At m (sCell2 t i0 j0 i1 j1 g) [(.J, ⟨aj, bj + 1, 1⟩), (.I, ⟨li, li + 1, 1⟩)] [(.J, aj, bj)] (sitePt li 0 0) (.shift .I 1 (.span (sFaceG20 t2 i0 j0 i1 j1 dg))) (F.face2d0 t2 i0 j0 i1 j1 dg) fun p => [yi, p .J] := by
  have hi := S.arr.geo.int
  simp [sCell2, InInt] at hi
  have hi' := hd.geo.int
  simp [sFaceG20, InInt] at hi'
  refine at_of (mv := fun p => shiftPt p .I 1) S hd farr_faceG20 (Or.inl ha) rfl ⟨?_, ?_, ?_⟩ (fun p => rfl) ?_ ?_
  · bc_geo
  · show List.Perm [Dim.J, Dim.I] [Dim.J, Dim.I]; decide
  · bc_geo
  · bc_geo
  · site_idx

theorem at2I_d0 {m : Mem T} {t t2 : Ptr} {i0 j0 i1 j1 g dg aj bj li xi yi : Int} (S : Site m (sCell2 t i0 j0 i1 j1 g) (F.cell2d t i0 j0 i1 j1 g) [(.J, ⟨aj, bj + 1, 1⟩), (.I, ⟨li, li + 1, 1⟩)] [(.J, aj, bj)] (sitePt li 0 0) fun p => [xi, p .J])
    (hd : ArrOK m (sFaceG20 t2 i0 j0 i1 j1 dg)) (ha : Apart (sCell2 t i0 j0 i1 j1 g) (sFaceG20 t2 i0 j0 i1 j1 dg))
    (rj : j0 - dg ≤ aj ∧ aj ≤ bj ∧ bj ≤ j1 + dg) (hi : i0 - dg ≤ li ∧ li ≤ i1 + 1 + dg) (hyi : yi = li) :
    At m (sCell2 t i0 j0 i1 j1 g) [(.J, ⟨aj, bj + 1, 1⟩), (.I, ⟨li, li + 1, 1⟩)] [(.J, aj, bj)] (sitePt li 0 0) (.span (sFaceG20 t2 i0 j0 i1 j1 dg)) (F.face2d0 t2 i0 j0 i1 j1 dg) fun p => [yi, p .J] := by
  have hi := S.arr.geo.int
  simp [sCell2, InInt] at hi
  have hi' := hd.geo.int
  simp [sFaceG20, InInt] at hi'
  refine at_of (mv := fun p => p) S hd farr_faceG20 (Or.inl ha) rfl ⟨?_, ?_⟩ (fun p => rfl) ?_ ?_
  · show List.Perm [Dim.J, Dim.I] [Dim.J, Dim.I]; decide
  · bc_geo
  · bc_geo
  · site_idx
theorem site2J {m : Mem T} {t : Ptr} {i0 j0 i1 j1 g lj ai bi xj : Int} (h : ArrOK m (sCell2 t i0 j0 i1 j1 g))
    (hj : j0 - g ≤ lj ∧ lj ≤ j1 + g) (hi : i0 - g ≤ ai ∧ ai ≤ bi ∧ bi ≤ i1 + g) (hxj : xj = lj) :
    Site m (sCell2 t i0 j0 i1 j1 g) (F.cell2d t i0 j0 i1 j1 g) [(.J, ⟨lj, lj + 1, 1⟩), (.I, ⟨ai, bi + 1, 1⟩)] [(.I, ai, bi)] (sitePt 0 lj 0) fun p => [p .I, xj] := by site_tac h, farr_cell2

theorem at2J_J {m : Mem T} {t : Ptr} {i0 j0 i1 j1 g lj ai bi xj kj yj : Int} (S : Site m (sCell2 t i0 j0 i1 j1 g) (F.cell2d t i0 j0 i1 j1 g) [(.J, ⟨lj, lj + 1, 1⟩), (.I, ⟨ai, bi + 1, 1⟩)] [(.I, ai, bi)] (sitePt 0 lj 0) fun p => [p .I, xj])
    (ri : i0 - g ≤ ai ∧ ai ≤ bi ∧ bi ≤ i1 + g) (hj : j0 - g ≤ lj + kj ∧ lj + kj ≤ j1 + g) (nj : kj ≠ 0) (hyj : yj = lj + kj) :
    At m (sCell2 t i0 j0 i1 j1 g) [(.J, ⟨lj, lj + 1, 1⟩), (.I, ⟨ai, bi + 1, 1⟩)] [(.I, ai, bi)] (sitePt 0 lj 0) (.shift .J kj (.span (sCell2 t i0 j0 i1 j1 g))) (F.cell2d t i0 j0 i1 j1 g) fun p => [p .I, yj] := by
  have hi := S.arr.geo.int
  simp [sCell2, InInt] at hi
  refine at_of (mv := fun p => shiftPt p .J kj) S S.arr farr_cell2 (Or.inr ⟨rfl, ?_⟩) rfl ⟨?_, ?_, ?_⟩ (fun p => rfl) ?_ ?_
  · bc_geo
  · bc_geo
  · simp [sCell2, shiftDom]
  · bc_geo
  · bc_geo
  · site_idx

theorem at2J_d1 {m : Mem T} {t t2 : Ptr} {i0 j0 i1 j1 g dg lj ai bi xj yj : Int} (S : Site m (sCell2 t i0 j0 i1 j1 g) (F.cell2d t i0 j0 i1 j1 g) [(.J, ⟨lj, lj + 1, 1⟩), (.I, ⟨ai, bi + 1, 1⟩)] [(.I, ai, bi)] (sitePt 0 lj 0) fun p => [p .I, xj])
    (hd : ArrOK m (sFaceG21 t2 i0 j0 i1 j1 dg)) (ha : Apart (sCell2 t i0 j0 i1 j1 g) (sFaceG21 t2 i0 j0 i1 j1 dg))
    (ri : i0 - dg ≤ ai ∧ ai ≤ bi ∧ bi ≤ i1 + dg) (hj : j0 - dg ≤ lj + 1 ∧ lj + 1 ≤ j1 + 1 + dg) (hyj : yj = lj + 1) :
    At m (sCell2 t i0 j0 i1 j1 g) [(.J, ⟨lj, lj + 1, 1⟩), (.I, ⟨ai, bi + 1, 1⟩)] [(.I, ai, bi)] (sitePt 0 lj 0) (.shift .J 1 (.span (sFaceG21 t2 i0 j0 i1 j1 dg))) (F.face2d1 t2 i0 j0 i1 j1 dg) fun p => [yj, p .I] := by
  have hi := S.arr.geo.int
  simp [sCell2, InInt] at hi
  have hi' := hd.geo.int
  simp [sFaceG21, InInt] at hi'
  refine at_of (mv := fun p => shiftPt p .J 1) S hd farr_faceG21 (Or.inl ha) rfl ⟨?_, ?_, ?_⟩ (fun p => rfl) ?_ ?_
  · bc_geo
  · show List.Perm [Dim.I, Dim.J] [Dim.J, Dim.I]; decide
  · bc_geo
  · bc_geo
  · site_idx

theorem at2J_d0 {m : Mem T} {t t2 : Ptr} {i0 j0 i1 j1 g dg lj ai bi xj yj : Int} (S : Site m (sCell2 t i0 j0 i1 j1 g) (F.cell2d t i0 j0 i1 j1 g) [(.J, ⟨lj, lj + 1, 1⟩), (.I, ⟨ai, bi + 1, 1⟩)] [(.I, ai, bi)] (sitePt 0 lj 0) fun p => [p .I, xj])
    (hd : ArrOK m (sFaceG21 t2 i0 j0 i1 j1 dg)) (ha : Apart (sCell2 t i0 j0 i1 j1 g) (sFaceG21 t2 i0 j0 i1 j1 dg))
    (ri : i0 - dg ≤ ai ∧ ai ≤ bi ∧ bi ≤ i1 + dg) (hj : j0 - dg ≤ lj ∧ lj ≤ j1 + 1 + dg) (hyj : yj = lj) :
    At m (sCell2 t i0 j0 i1 j1 g) [(.J, ⟨lj, lj + 1, 1⟩), (.I, ⟨ai, bi + 1, 1⟩)] [(.I, ai, bi)] (sitePt 0 lj 0) (.span (sFaceG21 t2 i0 j0 i1 j1 dg)) (F.face2d1 t2 i0 j0 i1 j1 dg) fun p => [yj, p .I] := by
  have hi := S.arr.geo.int
  simp [sCell2, InInt] at hi
  have hi' := hd.geo.int
  simp [sFaceG21, InInt] at hi'
  refine at_of (mv := fun p => p) S hd farr_faceG21 (Or.inl ha) rfl ⟨?_, ?_⟩ (fun p => rfl) ?_ ?_
  · show List.Perm [Dim.I, Dim.J] [Dim.J, Dim.I]; decide
  · bc_geo
  · bc_geo
  · site_idx
theorem site2IJ {m : Mem T} {t : Ptr} {i0 j0 i1 j1 g lj li xi xj : Int} (h : ArrOK m (sCell2 t i0 j0 i1 j1 g))
    (hj : j0 - g ≤ lj ∧ lj ≤ j1 + g) (hi : i0 - g ≤ li ∧ li ≤ i1 + g) (hxi : xi = li) (hxj : xj = lj) :
    Site m (sCell2 t i0 j0 i1 j1 g) (F.cell2d t i0 j0 i1 j1 g) [(.J, ⟨lj, lj + 1, 1⟩), (.I, ⟨li, li + 1, 1⟩)] [] (sitePt li lj 0) fun p => [xi, xj] := by site_tac h, farr_cell2

theorem at2IJ_I {m : Mem T} {t : Ptr} {i0 j0 i1 j1 g lj li xi xj ki yi yj : Int} (S : Site m (sCell2 t i0 j0 i1 j1 g) (F.cell2d t i0 j0 i1 j1 g) [(.J, ⟨lj, lj + 1, 1⟩), (.I, ⟨li, li + 1, 1⟩)] [] (sitePt li lj 0) fun p => [xi, xj])
     (hi : i0 - g ≤ li + ki ∧ li + ki ≤ i1 + g) (ni : ki ≠ 0) (hyi : yi = li + ki) (hj : j0 - g ≤ lj ∧ lj ≤ j1 + g) (hyj : yj = lj) :
    At m (sCell2 t i0 j0 i1 j1 g) [(.J, ⟨lj, lj + 1, 1⟩), (.I, ⟨li, li + 1, 1⟩)] [] (sitePt li lj 0) (.shift .I ki (.span (sCell2 t i0 j0 i1 j1 g))) (F.cell2d t i0 j0 i1 j1 g) fun p => [yi, yj] := by
  have hi := S.arr.geo.int
  simp [sCell2, InInt] at hi
  refine at_of (mv := fun p => shiftPt p .I ki) S S.arr farr_cell2 (Or.inr ⟨rfl, ?_⟩) rfl ⟨?_, ?_, ?_⟩ (fun p => rfl) ?_ ?_
  · bc_geo
  · bc_geo
  · simp [sCell2, shiftDom]
  · bc_geo
  · bc_geo
  · site_idx

theorem at2IJ_J {m : Mem T} {t : Ptr} {i0 j0 i1 j1 g lj li xi xj kj yi yj : Int} (S : Site m (sCell2 t i0 j0 i1 j1 g) (F.cell2d t i0 j0 i1 j1 g) [(.J, ⟨lj, lj + 1, 1⟩), (.I, ⟨li, li + 1, 1⟩)] [] (sitePt li lj 0) fun p => [xi, xj])
     (hi : i0 - g ≤ li ∧ li ≤ i1 + g) (hyi : yi = li) (hj : j0 - g ≤ lj + kj ∧ lj + kj ≤ j1 + g) (nj : kj ≠ 0) (hyj : yj = lj + kj) :
    At m (sCell2 t i0 j0 i1 j1 g) [(.J, ⟨lj, lj + 1, 1⟩), (.I, ⟨li, li + 1, 1⟩)] [] (sitePt li lj 0) (.shift .J kj (.span (sCell2 t i0 j0 i1 j1 g))) (F.cell2d t i0 j0 i1 j1 g) fun p => [yi, yj] := by
  have hi := S.arr.geo.int
  simp [sCell2, InInt] at hi
  refine at_of (mv := fun p => shiftPt p .J kj) S S.arr farr_cell2 (Or.inr ⟨rfl, ?_⟩) rfl ⟨?_, ?_, ?_⟩ (fun p => rfl) ?_ ?_
  · bc_geo
  · bc_geo
  · simp [sCell2, shiftDom]
  · bc_geo
  · bc_geo
  · site_idx

theorem at2IJ_IJ {m : Mem T} {t : Ptr} {i0 j0 i1 j1 g lj li xi xj ki kj yi yj : Int} (S : Site m (sCell2 t i0 j0 i1 j1 g) (F.cell2d t i0 j0 i1 j1 g) [(.J, ⟨lj, lj + 1, 1⟩), (.I, ⟨li, li + 1, 1⟩)] [] (sitePt li lj 0) fun p => [xi, xj])
     (hi : i0 - g ≤ li + ki ∧ li + ki ≤ i1 + g) (ni : ki ≠ 0) (hyi : yi = li + ki) (hj : j0 - g ≤ lj + kj ∧ lj + kj ≤ j1 + g) (nj : kj ≠ 0) (hyj : yj = lj + kj) :
    At m (sCell2 t i0 j0 i1 j1 g) [(.J, ⟨lj, lj + 1, 1⟩), (.I, ⟨li, li + 1, 1⟩)] [] (sitePt li lj 0) (.shift .J kj (.shift .I ki (.span (sCell2 t i0 j0 i1 j1 g)))) (F.cell2d t i0 j0 i1 j1 g) fun p => [yi, yj] := by
  have hi := S.arr.geo.int
  simp [sCell2, InInt] at hi
  refine at_of (mv := fun p => shiftPt (shiftPt p .J kj) .I ki) S S.arr farr_cell2 (Or.inr ⟨rfl, ?_⟩) rfl ⟨?_, ?_, ?_, ?_⟩ (fun p => rfl) ?_ ?_
  · bc_geo
  · bc_geo
  · bc_geo
  · simp [sCell2, shiftDom]
  · bc_geo
  · bc_geo
  · site_idx

/-! ### three dimensions -/

theorem site3I {m : Mem T} {t : Ptr} {i0 j0 k0 i1 j1 k1 g ak bk aj bj li xi : Int} (h : ArrOK m (sCell3 t i0 j0 k0 i1 j1 k1 g))
    (hk : k0 - g ≤ ak ∧ ak ≤ bk ∧ bk ≤ k1 + g) (hj : j0 - g ≤ aj ∧ aj ≤ bj ∧ bj ≤ j1 + g) (hi : i0 - g ≤ li ∧ li ≤ i1 + g) (hxi : xi = li) :
    Site m (sCell3 t i0 j0 k0 i1 j1 k1 g) (F.cell3d t i0 j0 k0 i1 j1 k1 g) [(.K, ⟨ak, bk + 1, 1⟩), (.J, ⟨aj, bj + 1, 1⟩), (.I, ⟨li, li + 1, 1⟩)] [(.K, ak, bk), (.J, aj, bj)] (sitePt li 0 0) fun p => [xi, p .J, p .K] := by site_tac h, farr_cell3

theorem at3I_I {m : Mem T} {t : Ptr} {i0 j0 k0 i1 j1 k1 g ak bk aj bj li xi ki yi : Int} (S : Site m (sCell3 t i0 j0 k0 i1 j1 k1 g) (F.cell3d t i0 j0 k0 i1 j1 k1 g) [(.K, ⟨ak, bk + 1, 1⟩), (.J, ⟨aj, bj + 1, 1⟩), (.I, ⟨li, li + 1, 1⟩)] [(.K, ak, bk), (.J, aj, bj)] (sitePt li 0 0) fun p => [xi, p .J, p .K])
    (rk : k0 - g ≤ ak ∧ ak ≤ bk ∧ bk ≤ k1 + g) (rj : j0 - g ≤ aj ∧ aj ≤ bj ∧ bj ≤ j1 + g) (hi : i0 - g ≤ li + ki ∧ li + ki ≤ i1 + g) (ni : ki ≠ 0) (hyi : yi = li + ki) :
    At m (sCell3 t i0 j0 k0 i1 j1 k1 g) [(.K, ⟨ak, bk + 1, 1⟩), (.J, ⟨aj, bj + 1, 1⟩), (.I, ⟨li, li + 1, 1⟩)] [(.K, ak, bk), (.J, aj, bj)] (sitePt li 0 0) (.shift .I ki (.span (sCell3 t i0 j0 k0 i1 j1 k1 g))) (F.cell3d t i0 j0 k0 i1 j1 k1 g) fun p => [yi, p .J, p .K] := by
  have hi := S.arr.geo.int
  simp [sCell3, InInt] at hi
  refine at_of (mv := fun p => shiftPt p .I ki) S S.arr farr_cell3 (Or.inr ⟨rfl, ?_⟩) rfl ⟨?_, ?_, ?_⟩ (fun p => rfl) ?_ ?_
  · bc_geo
  · bc_geo
  · simp [sCell3, shiftDom]
  · bc_geo
  · bc_geo
  · site_idx

theorem at3I_d1 {m : Mem T} {t t2 : Ptr} {i0 j0 k0 i1 j1 k1 g dg ak bk aj bj li xi yi : Int} (S : Site m (sCell3 t i0 j0 k0 i1 j1 k1 g) (F.cell3d t i0 j0 k0 i1 j1 k1 g) [(.K, ⟨ak, bk + 1, 1⟩), (.J, ⟨aj, bj + 1, 1⟩), (.I, ⟨li, li + 1, 1⟩)] [(.K, ak, bk), (.J, aj, bj)] (sitePt li 0 0) fun p => [xi, p .J, p .K])
    (hd : ArrOK m (sFaceG30 t2 i0 j0 k0 i1 j1 k1 dg)) (ha : Apart (sCell3 t i0 j0 k0 i1 j1 k1 g) (sFaceG30 t2 i0 j0 k0 i1 j1 k1 dg))
    (rk : k0 - dg ≤ ak ∧ ak ≤ bk ∧ bk ≤ k1 + dg) (rj : j0 - dg ≤ aj ∧ aj ≤ bj ∧ bj ≤ j1 + dg) (hi : i0 - dg ≤ li + 1 ∧ li + 1 ≤ i1 + 1 + dg) (hyi : yi = li + 1) :
    At m (sCell3 t i0 j0 k0 i1 j1 k1 g) [(.K, ⟨ak, bk + 1, 1⟩), (.J, ⟨aj, bj + 1, 1⟩), (.I, ⟨li, li + 1, 1⟩)] [(.K, ak, bk), (.J, aj, bj)] (sitePt li 0 0) (.shift .I 1 (.span (sFaceG30 t2 i0 j0 k0 i1 j1 k1 dg))) (F.face3d0 t2 i0 j0 k0 i1 j1 k1 dg) fun p => [yi, p .J, p .K] := by
  have hi := S.arr.geo.int
  simp [sCell3, InInt] at hi
  have hi' := hd.geo.int
  simp [sFaceG30, InInt] at hi'
  refine at_of (mv := fun p => shiftPt p .I 1) S hd farr_faceG30 (Or.inl ha) rfl ⟨?_, ?_, ?_⟩ (fun p => rfl) ?_ ?_
  · bc_geo
  · show List.Perm [Dim.K, Dim.J, Dim.I] [Dim.K, Dim.J, Dim.I]; decide
  · bc_geo
  · bc_geo
  · site_idx

theorem at3I_d0 {m : Mem T} {t t2 : Ptr} {i0 j0 k0 i1 j1 k1 g dg ak bk aj bj li xi yi : Int} (S : Site m (sCell3 t i0 j0 k0 i1 j1 k1 g) (F.cell3d t i0 j0 k0 i1 j1 k1 g) [(.K, ⟨ak, bk + 1, 1⟩), (.J, ⟨aj, bj + 1, 1⟩), (.I, ⟨li, li + 1, 1⟩)] [(.K, ak, bk), (.J, aj, bj)] (sitePt li 0 0) fun p => [xi, p .J, p .K])
    (hd : ArrOK m (sFaceG30 t2 i0 j0 k0 i1 j1 k1 dg)) (ha : Apart (sCell3 t i0 j0 k0 i1 j1 k1 g) (sFaceG30 t2 i0 j0 k0 i1 j1 k1 dg))
    (rk : k0 - dg ≤ ak ∧ ak ≤ bk ∧ bk ≤ k1 + dg) (rj : j0 - dg ≤ aj ∧ aj ≤ bj ∧ bj ≤ j1 + dg) (hi : i0 - dg ≤ li ∧ li ≤ i1 + 1 + dg) (hyi : yi = li) :
    At m (sCell3 t i0 j0 k0 i1 j1 k1 g) [(.K, ⟨ak, bk + 1, 1⟩), (.J, ⟨aj, bj + 1, 1⟩), (.I, ⟨li, li + 1, 1⟩)] [(.K, ak, bk), (.J, aj, bj)] (sitePt li 0 0) (.span (sFaceG30 t2 i0 j0 k0 i1 j1 k1 dg)) (F.face3d0 t2 i0 j0 k0 i1 j1 k1 dg) fun p => [yi, p .J, p .K] := by
  have hi := S.arr.geo.int
  simp [sCell3, InInt] at hi
  have hi' := hd.geo.int
  simp [sFaceG30, InInt] at hi'
  refine at_of (mv := fun p => p) S hd farr_faceG30 (Or.inl ha) rfl ⟨?_, ?_⟩ (fun p => rfl) ?_ ?_
  · show List.Perm [Dim.K, Dim.J, Dim.I] [Dim.K, Dim.J, Dim.I]; decide
  · bc_geo
  · bc_geo
  · site_idx
theorem site3J {m : Mem T} {t : Ptr} {i0 j0 k0 i1 j1 k1 g ak bk lj ai bi xj : Int} (h : ArrOK m (sCell3 t i0 j0 k0 i1 j1 k1 g))
    (hk : k0 - g ≤ ak ∧ ak ≤ bk ∧ bk ≤ k1 + g) (hj : j0 - g ≤ lj ∧ lj ≤ j1 + g) (hi : i0 - g ≤ ai ∧ ai ≤ bi ∧ bi ≤ i1 + g) (hxj : xj = lj) :
    Site m (sCell3 t i0 j0 k0 i1 j1 k1 g) (F.cell3d t i0 j0 k0 i1 j1 k1 g) [(.K, ⟨ak, bk + 1, 1⟩), (.J, ⟨lj, lj + 1, 1⟩), (.I, ⟨ai, bi + 1, 1⟩)] [(.K, ak, bk), (.I, ai, bi)] (sitePt 0 lj 0) fun p => [p .I, xj, p .K] := by site_tac h, farr_cell3

theorem at3J_J {m : Mem T} {t : Ptr} {i0 j0 k0 i1 j1 k1 g ak bk lj ai bi xj kj yj : Int} (S : Site m (sCell3 t i0 j0 k0 i1 j1 k1 g) (F.cell3d t i0 j0 k0 i1 j1 k1 g) [(.K, ⟨ak, bk + 1, 1⟩), (.J, ⟨lj, lj + 1, 1⟩), (.I, ⟨ai, bi + 1, 1⟩)] [(.K, ak, bk), (.I, ai, bi)] (sitePt 0 lj 0) fun p => [p .I, xj, p .K])
    (rk : k0 - g ≤ ak ∧ ak ≤ bk ∧ bk ≤ k1 + g) (ri : i0 - g ≤ ai ∧ ai ≤ bi ∧ bi ≤ i1 + g) (hj : j0 - g ≤ lj + kj ∧ lj + kj ≤ j1 + g) (nj : kj ≠ 0) (hyj : yj = lj + kj) :
    At m (sCell3 t i0 j0 k0 i1 j1 k1 g) [(.K, ⟨ak, bk + 1, 1⟩), (.J, ⟨lj, lj + 1, 1⟩), (.I, ⟨ai, bi + 1, 1⟩)] [(.K, ak, bk), (.I, ai, bi)] (sitePt 0 lj 0) (.shift .J kj (.span (sCell3 t i0 j0 k0 i1 j1 k1 g))) (F.cell3d t i0 j0 k0 i1 j1 k1 g) fun p => [p .I, yj, p .K] := by
  have hi := S.arr.geo.int
  simp [sCell3, InInt] at hi
  refine at_of (mv := fun p => shiftPt p .J kj) S S.arr farr_cell3 (Or.inr ⟨rfl, ?_⟩) rfl ⟨?_, ?_, ?_⟩ (fun p => rfl) ?_ ?_
  · bc_geo
  · bc_geo
  · simp [sCell3, shiftDom]
  · bc_geo
  · bc_geo
  · site_idx

theorem at3J_d1 {m : Mem T} {t t2 : Ptr} {i0 j0 k0 i1 j1 k1 g dg ak bk lj ai bi xj yj : Int} (S : Site m (sCell3 t i0 j0 k0 i1 j1 k1 g) (F.cell3d t i0 j0 k0 i1 j1 k1 g) [(.K, ⟨ak, bk + 1, 1⟩), (.J, ⟨lj, lj + 1, 1⟩), (.I, ⟨ai, bi + 1, 1⟩)] [(.K, ak, bk), (.I, ai, bi)] (sitePt 0 lj 0) fun p => [p .I, xj, p .K])
    (hd : ArrOK m (sFaceG31 t2 i0 j0 k0 i1 j1 k1 dg)) (ha : Apart (sCell3 t i0 j0 k0 i1 j1 k1 g) (sFaceG31 t2 i0 j0 k0 i1 j1 k1 dg))
    (rk : k0 - dg ≤ ak ∧ ak ≤ bk ∧ bk ≤ k1 + dg) (ri : i0 - dg ≤ ai ∧ ai ≤ bi ∧ bi ≤ i1 + dg) (hj : j0 - dg ≤ lj + 1 ∧ lj + 1 ≤ j1 + 1 + dg) (hyj : yj = lj + 1) :
    At m (sCell3 t i0 j0 k0 i1 j1 k1 g) [(.K, ⟨ak, bk + 1, 1⟩), (.J, ⟨lj, lj + 1, 1⟩), (.I, ⟨ai, bi + 1, 1⟩)] [(.K, ak, bk), (.I, ai, bi)] (sitePt 0 lj 0) (.shift .J 1 (.span (sFaceG31 t2 i0 j0 k0 i1 j1 k1 dg))) (F.face3d1 t2 i0 j0 k0 i1 j1 k1 dg) fun p => [yj, p .K, p .I] := by
  have hi := S.arr.geo.int
  simp [sCell3, InInt] at hi
  have hi' := hd.geo.int
  simp [sFaceG31, InInt] at hi'
  refine at_of (mv := fun p => shiftPt p .J 1) S hd farr_faceG31 (Or.inl ha) rfl ⟨?_, ?_, ?_⟩ (fun p => rfl) ?_ ?_
  · bc_geo
  · show List.Perm [Dim.I, Dim.K, Dim.J] [Dim.K, Dim.J, Dim.I]; decide
  · bc_geo
  · bc_geo
  · site_idx

theorem at3J_d0 {m : Mem T} {t t2 : Ptr} {i0 j0 k0 i1 j1 k1 g dg ak bk lj ai bi xj yj : Int} (S : Site m (sCell3 t i0 j0 k0 i1 j1 k1 g) (F.cell3d t i0 j0 k0 i1 j1 k1 g) [(.K, ⟨ak, bk + 1, 1⟩), (.J, ⟨lj, lj + 1, 1⟩), (.I, ⟨ai, bi + 1, 1⟩)] [(.K, ak, bk), (.I, ai, bi)] (sitePt 0 lj 0) fun p => [p .I, xj, p .K])
    (hd : ArrOK m (sFaceG31 t2 i0 j0 k0 i1 j1 k1 dg)) (ha : Apart (sCell3 t i0 j0 k0 i1 j1 k1 g) (sFaceG31 t2 i0 j0 k0 i1 j1 k1 dg))
    (rk : k0 - dg ≤ ak ∧ ak ≤ bk ∧ bk ≤ k1 + dg) (ri : i0 - dg ≤ ai ∧ ai ≤ bi ∧ bi ≤ i1 + dg) (hj : j0 - dg ≤ lj ∧ lj ≤ j1 + 1 + dg) (hyj : yj = lj) :
    At m (sCell3 t i0 j0 k0 i1 j1 k1 g) [(.K, ⟨ak, bk + 1, 1⟩), (.J, ⟨lj, lj + 1, 1⟩), (.I, ⟨ai, bi + 1, 1⟩)] [(.K, ak, bk), (.I, ai, bi)] (sitePt 0 lj 0) (.span (sFaceG31 t2 i0 j0 k0 i1 j1 k1 dg)) (F.face3d1 t2 i0 j0 k0 i1 j1 k1 dg) fun p => [yj, p .K, p .I] := by
  have hi := S.arr.geo.int
  simp [sCell3, InInt] at hi
  have hi' := hd.geo.int
  simp [sFaceG31, InInt] at hi'
  refine at_of (mv := fun p => p) S hd farr_faceG31 (Or.inl ha) rfl ⟨?_, ?_⟩ (fun p => rfl) ?_ ?_
  · show List.Perm [Dim.I, Dim.K, Dim.J] [Dim.K, Dim.J, Dim.I]; decide
  · bc_geo
  · bc_geo
  · site_idx
theorem site3K {m : Mem T} {t : Ptr} {i0 j0 k0 i1 j1 k1 g lk aj bj ai bi xk : Int} (h : ArrOK m (sCell3 t i0 j0 k0 i1 j1 k1 g))
    (hk : k0 - g ≤ lk ∧ lk ≤ k1 + g) (hj : j0 - g ≤ aj ∧ aj ≤ bj ∧ bj ≤ j1 + g) (hi : i0 - g ≤ ai ∧ ai ≤ bi ∧ bi ≤ i1 + g) (hxk : xk = lk) :
    Site m (sCell3 t i0 j0 k0 i1 j1 k1 g) (F.cell3d t i0 j0 k0 i1 j1 k1 g) [(.K, ⟨lk, lk + 1, 1⟩), (.J, ⟨aj, bj + 1, 1⟩), (.I, ⟨ai, bi + 1, 1⟩)] [(.J, aj, bj), (.I, ai, bi)] (sitePt 0 0 lk) fun p => [p .I, p .J, xk] := by site_tac h, farr_cell3

theorem at3K_K {m : Mem T} {t : Ptr} {i0 j0 k0 i1 j1 k1 g lk aj bj ai bi xk kk yk : Int} (S : Site m (sCell3 t i0 j0 k0 i1 j1 k1 g) (F.cell3d t i0 j0 k0 i1 j1 k1 g) [(.K, ⟨lk, lk + 1, 1⟩), (.J, ⟨aj, bj + 1, 1⟩), (.I, ⟨ai, bi + 1, 1⟩)] [(.J, aj, bj), (.I, ai, bi)] (sitePt 0 0 lk) fun p => [p .I, p .J, xk])
    (rj : j0 - g ≤ aj ∧ aj ≤ bj ∧ bj ≤ j1 + g) (ri : i0 - g ≤ ai ∧ ai ≤ bi ∧ bi ≤ i1 + g) (hk : k0 - g ≤ lk + kk ∧ lk + kk ≤ k1 + g) (nk : kk ≠ 0) (hyk : yk = lk + kk) :
    At m (sCell3 t i0 j0 k0 i1 j1 k1 g) [(.K, ⟨lk, lk + 1, 1⟩), (.J, ⟨aj, bj + 1, 1⟩), (.I, ⟨ai, bi + 1, 1⟩)] [(.J, aj, bj), (.I, ai, bi)] (sitePt 0 0 lk) (.shift .K kk (.span (sCell3 t i0 j0 k0 i1 j1 k1 g))) (F.cell3d t i0 j0 k0 i1 j1 k1 g) fun p => [p .I, p .J, yk] := by
  have hi := S.arr.geo.int
  simp [sCell3, InInt] at hi
  refine at_of (mv := fun p => shiftPt p .K kk) S S.arr farr_cell3 (Or.inr ⟨rfl, ?_⟩) rfl ⟨?_, ?_, ?_⟩ (fun p => rfl) ?_ ?_
  · bc_geo
  · bc_geo
  · simp [sCell3, shiftDom]
  · bc_geo
  · bc_geo
  · site_idx

theorem at3K_d1 {m : Mem T} {t t2 : Ptr} {i0 j0 k0 i1 j1 k1 g dg lk aj bj ai bi xk yk : Int} (S : Site m (sCell3 t i0 j0 k0 i1 j1 k1 g) (F.cell3d t i0 j0 k0 i1 j1 k1 g) [(.K, ⟨lk, lk + 1, 1⟩), (.J, ⟨aj, bj + 1, 1⟩), (.I, ⟨ai, bi + 1, 1⟩)] [(.J, aj, bj), (.I, ai, bi)] (sitePt 0 0 lk) fun p => [p .I, p .J, xk])
    (hd : ArrOK m (sFaceG32 t2 i0 j0 k0 i1 j1 k1 dg)) (ha : Apart (sCell3 t i0 j0 k0 i1 j1 k1 g) (sFaceG32 t2 i0 j0 k0 i1 j1 k1 dg))
    (rj : j0 - dg ≤ aj ∧ aj ≤ bj ∧ bj ≤ j1 + dg) (ri : i0 - dg ≤ ai ∧ ai ≤ bi ∧ bi ≤ i1 + dg) (hk : k0 - dg ≤ lk + 1 ∧ lk + 1 ≤ k1 + 1 + dg) (hyk : yk = lk + 1) :
    At m (sCell3 t i0 j0 k0 i1 j1 k1 g) [(.K, ⟨lk, lk + 1, 1⟩), (.J, ⟨aj, bj + 1, 1⟩), (.I, ⟨ai, bi + 1, 1⟩)] [(.J, aj, bj), (.I, ai, bi)] (sitePt 0 0 lk) (.shift .K 1 (.span (sFaceG32 t2 i0 j0 k0 i1 j1 k1 dg))) (F.face3d2 t2 i0 j0 k0 i1 j1 k1 dg) fun p => [yk, p .I, p .J] := by
  have hi := S.arr.geo.int
  simp [sCell3, InInt] at hi
  have hi' := hd.geo.int
  simp [sFaceG32, InInt] at hi'
  refine at_of (mv := fun p => shiftPt p .K 1) S hd farr_faceG32 (Or.inl ha) rfl ⟨?_, ?_, ?_⟩ (fun p => rfl) ?_ ?_
  · bc_geo
  · show List.Perm [Dim.J, Dim.I, Dim.K] [Dim.K, Dim.J, Dim.I]; decide
  · bc_geo
  · bc_geo
  · site_idx

theorem at3K_d0 {m : Mem T} {t t2 : Ptr} {i0 j0 k0 i1 j1 k1 g dg lk aj bj ai bi xk yk : Int} (S : Site m (sCell3 t i0 j0 k0 i1 j1 k1 g) (F.cell3d t i0 j0 k0 i1 j1 k1 g) [(.K, ⟨lk, lk + 1, 1⟩), (.J, ⟨aj, bj + 1, 1⟩), (.I, ⟨ai, bi + 1, 1⟩)] [(.J, aj, bj), (.I, ai, bi)] (sitePt 0 0 lk) fun p => [p .I, p .J, xk])
    (hd : ArrOK m (sFaceG32 t2 i0 j0 k0 i1 j1 k1 dg)) (ha : Apart (sCell3 t i0 j0 k0 i1 j1 k1 g) (sFaceG32 t2 i0 j0 k0 i1 j1 k1 dg))
    (rj : j0 - dg ≤ aj ∧ aj ≤ bj ∧ bj ≤ j1 + dg) (ri : i0 - dg ≤ ai ∧ ai ≤ bi ∧ bi ≤ i1 + dg) (hk : k0 - dg ≤ lk ∧ lk ≤ k1 + 1 + dg) (hyk : yk = lk) :
    At m (sCell3 t i0 j0 k0 i1 j1 k1 g) [(.K, ⟨lk, lk + 1, 1⟩), (.J, ⟨aj, bj + 1, 1⟩), (.I, ⟨ai, bi + 1, 1⟩)] [(.J, aj, bj), (.I, ai, bi)] (sitePt 0 0 lk) (.span (sFaceG32 t2 i0 j0 k0 i1 j1 k1 dg)) (F.face3d2 t2 i0 j0 k0 i1 j1 k1 dg) fun p => [yk, p .I, p .J] := by
  have hi := S.arr.geo.int
  simp [sCell3, InInt] at hi
  have hi' := hd.geo.int
  simp [sFaceG32, InInt] at hi'
  refine at_of (mv := fun p => p) S hd farr_faceG32 (Or.inl ha) rfl ⟨?_, ?_⟩ (fun p => rfl) ?_ ?_
  · show List.Perm [Dim.J, Dim.I, Dim.K] [Dim.K, Dim.J, Dim.I]; decide
  · bc_geo
  · bc_geo
  · site_idx
theorem site3IJ {m : Mem T} {t : Ptr} {i0 j0 k0 i1 j1 k1 g ak bk lj li xi xj : Int} (h : ArrOK m (sCell3 t i0 j0 k0 i1 j1 k1 g))
    (hk : k0 - g ≤ ak ∧ ak ≤ bk ∧ bk ≤ k1 + g) (hj : j0 - g ≤ lj ∧ lj ≤ j1 + g) (hi : i0 - g ≤ li ∧ li ≤ i1 + g) (hxi : xi = li) (hxj : xj = lj) :
    Site m (sCell3 t i0 j0 k0 i1 j1 k1 g) (F.cell3d t i0 j0 k0 i1 j1 k1 g) [(.K, ⟨ak, bk + 1, 1⟩), (.J, ⟨lj, lj + 1, 1⟩), (.I, ⟨li, li + 1, 1⟩)] [(.K, ak, bk)] (sitePt li lj 0) fun p => [xi, xj, p .K] := by site_tac h, farr_cell3

theorem at3IJ_I {m : Mem T} {t : Ptr} {i0 j0 k0 i1 j1 k1 g ak bk lj li xi xj ki yi yj : Int} (S : Site m (sCell3 t i0 j0 k0 i1 j1 k1 g) (F.cell3d t i0 j0 k0 i1 j1 k1 g) [(.K, ⟨ak, bk + 1, 1⟩), (.J, ⟨lj, lj + 1, 1⟩), (.I, ⟨li, li + 1, 1⟩)] [(.K, ak, bk)] (sitePt li lj 0) fun p => [xi, xj, p .K])
    (rk : k0 - g ≤ ak ∧ ak ≤ bk ∧ bk ≤ k1 + g) (hi : i0 - g ≤ li + ki ∧ li + ki ≤ i1 + g) (ni : ki ≠ 0) (hyi : yi = li + ki) (hj : j0 - g ≤ lj ∧ lj ≤ j1 + g) (hyj : yj = lj) :
    At m (sCell3 t i0 j0 k0 i1 j1 k1 g) [(.K, ⟨ak, bk + 1, 1⟩), (.J, ⟨lj, lj + 1, 1⟩), (.I, ⟨li, li + 1, 1⟩)] [(.K, ak, bk)] (sitePt li lj 0) (.shift .I ki (.span (sCell3 t i0 j0 k0 i1 j1 k1 g))) (F.cell3d t i0 j0 k0 i1 j1 k1 g) fun p => [yi, yj, p .K] := by
  have hi := S.arr.geo.int
  simp [sCell3, InInt] at hi
  refine at_of (mv := fun p => shiftPt p .I ki) S S.arr farr_cell3 (Or.inr ⟨rfl, ?_⟩) rfl ⟨?_, ?_, ?_⟩ (fun p => rfl) ?_ ?_
  · bc_geo
  · bc_geo
  · simp [sCell3, shiftDom]
  · bc_geo
  · bc_geo
  · site_idx

theorem at3IJ_J {m : Mem T} {t : Ptr} {i0 j0 k0 i1 j1 k1 g ak bk lj li xi xj kj yi yj : Int} (S : Site m (sCell3 t i0 j0 k0 i1 j1 k1 g) (F.cell3d t i0 j0 k0 i1 j1 k1 g) [(.K, ⟨ak, bk + 1, 1⟩), (.J, ⟨lj, lj + 1, 1⟩), (.I, ⟨li, li + 1, 1⟩)] [(.K, ak, bk)] (sitePt li lj 0) fun p => [xi, xj, p .K])
    (rk : k0 - g ≤ ak ∧ ak ≤ bk ∧ bk ≤ k1 + g) (hi : i0 - g ≤ li ∧ li ≤ i1 + g) (hyi : yi = li) (hj : j0 - g ≤ lj + kj ∧ lj + kj ≤ j1 + g) (nj : kj ≠ 0) (hyj : yj = lj + kj) :
    At m (sCell3 t i0 j0 k0 i1 j1 k1 g) [(.K, ⟨ak, bk + 1, 1⟩), (.J, ⟨lj, lj + 1, 1⟩), (.I, ⟨li, li + 1, 1⟩)] [(.K, ak, bk)] (sitePt li lj 0) (.shift .J kj (.span (sCell3 t i0 j0 k0 i1 j1 k1 g))) (F.cell3d t i0 j0 k0 i1 j1 k1 g) fun p => [yi, yj, p .K] := by
  have hi := S.arr.geo.int
  simp [sCell3, InInt] at hi
  refine at_of (mv := fun p => shiftPt p .J kj) S S.arr farr_cell3 (Or.inr ⟨rfl, ?_⟩) rfl ⟨?_, ?_, ?_⟩ (fun p => rfl) ?_ ?_
  · bc_geo
  · bc_geo
  · simp [sCell3, shiftDom]
  · bc_geo
  · bc_geo
  · site_idx

theorem at3IJ_IJ {m : Mem T} {t : Ptr} {i0 j0 k0 i1 j1 k1 g ak bk lj li xi xj ki kj yi yj : Int} (S : Site m (sCell3 t i0 j0 k0 i1 j1 k1 g) (F.cell3d t i0 j0 k0 i1 j1 k1 g) [(.K, ⟨ak, bk + 1, 1⟩), (.J, ⟨lj, lj + 1, 1⟩), (.I, ⟨li, li + 1, 1⟩)] [(.K, ak, bk)] (sitePt li lj 0) fun p => [xi, xj, p .K])
    (rk : k0 - g ≤ ak ∧ ak ≤ bk ∧ bk ≤ k1 + g) (hi : i0 - g ≤ li + ki ∧ li + ki ≤ i1 + g) (ni : ki ≠ 0) (hyi : yi = li + ki) (hj : j0 - g ≤ lj + kj ∧ lj + kj ≤ j1 + g) (nj : kj ≠ 0) (hyj : yj = lj + kj) :
    At m (sCell3 t i0 j0 k0 i1 j1 k1 g) [(.K, ⟨ak, bk + 1, 1⟩), (.J, ⟨lj, lj + 1, 1⟩), (.I, ⟨li, li + 1, 1⟩)] [(.K, ak, bk)] (sitePt li lj 0) (.shift .J kj (.shift .I ki (.span (sCell3 t i0 j0 k0 i1 j1 k1 g)))) (F.cell3d t i0 j0 k0 i1 j1 k1 g) fun p => [yi, yj, p .K] := by
  have hi := S.arr.geo.int
  simp [sCell3, InInt] at hi
  refine at_of (mv := fun p => shiftPt (shiftPt p .J kj) .I ki) S S.arr farr_cell3 (Or.inr ⟨rfl, ?_⟩) rfl ⟨?_, ?_, ?_, ?_⟩ (fun p => rfl) ?_ ?_
  · bc_geo
  · bc_geo
  · bc_geo
  · simp [sCell3, shiftDom]
  · bc_geo
  · bc_geo
  · site_idx
theorem site3IK {m : Mem T} {t : Ptr} {i0 j0 k0 i1 j1 k1 g lk aj bj li xi xk : Int} (h : ArrOK m (sCell3 t i0 j0 k0 i1 j1 k1 g))
    (hk : k0 - g ≤ lk ∧ lk ≤ k1 + g) (hj : j0 - g ≤ aj ∧ aj ≤ bj ∧ bj ≤ j1 + g) (hi : i0 - g ≤ li ∧ li ≤ i1 + g) (hxi : xi = li) (hxk : xk = lk) :
    Site m (sCell3 t i0 j0 k0 i1 j1 k1 g) (F.cell3d t i0 j0 k0 i1 j1 k1 g) [(.K, ⟨lk, lk + 1, 1⟩), (.J, ⟨aj, bj + 1, 1⟩), (.I, ⟨li, li + 1, 1⟩)] [(.J, aj, bj)] (sitePt li 0 lk) fun p => [xi, p .J, xk] := by site_tac h, farr_cell3

theorem at3IK_I {m : Mem T} {t : Ptr} {i0 j0 k0 i1 j1 k1 g lk aj bj li xi xk ki yi yk : Int} (S : Site m (sCell3 t i0 j0 k0 i1 j1 k1 g) (F.cell3d t i0 j0 k0 i1 j1 k1 g) [(.K, ⟨lk, lk + 1, 1⟩), (.J, ⟨aj, bj + 1, 1⟩), (.I, ⟨li, li + 1, 1⟩)] [(.J, aj, bj)] (sitePt li 0 lk) fun p => [xi, p .J, xk])
    (rj : j0 - g ≤ aj ∧ aj ≤ bj ∧ bj ≤ j1 + g) (hi : i0 - g ≤ li + ki ∧ li + ki ≤ i1 + g) (ni : ki ≠ 0) (hyi : yi = li + ki) (hk : k0 - g ≤ lk ∧ lk ≤ k1 + g) (hyk : yk = lk) :
    At m (sCell3 t i0 j0 k0 i1 j1 k1 g) [(.K, ⟨lk, lk + 1, 1⟩), (.J, ⟨aj, bj + 1, 1⟩), (.I, ⟨li, li + 1, 1⟩)] [(.J, aj, bj)] (sitePt li 0 lk) (.shift .I ki (.span (sCell3 t i0 j0 k0 i1 j1 k1 g))) (F.cell3d t i0 j0 k0 i1 j1 k1 g) fun p => [yi, p .J, yk] := by
  have hi := S.arr.geo.int
  simp [sCell3, InInt] at hi
  refine at_of (mv := fun p => shiftPt p .I ki) S S.arr farr_cell3 (Or.inr ⟨rfl, ?_⟩) rfl ⟨?_, ?_, ?_⟩ (fun p => rfl) ?_ ?_
  · bc_geo
  · bc_geo
  · simp [sCell3, shiftDom]
  · bc_geo
  · bc_geo
  · site_idx

theorem at3IK_K {m : Mem T} {t : Ptr} {i0 j0 k0 i1 j1 k1 g lk aj bj li xi xk kk yi yk : Int} (S : Site m (sCell3 t i0 j0 k0 i1 j1 k1 g) (F.cell3d t i0 j0 k0 i1 j1 k1 g) [(.K, ⟨lk, lk + 1, 1⟩), (.J, ⟨aj, bj + 1, 1⟩), (.I, ⟨li, li + 1, 1⟩)] [(.J, aj, bj)] (sitePt li 0 lk) fun p => [xi, p .J, xk])
    (rj : j0 - g ≤ aj ∧ aj ≤ bj ∧ bj ≤ j1 + g) (hi : i0 - g ≤ li ∧ li ≤ i1 + g) (hyi : yi = li) (hk : k0 - g ≤ lk + kk ∧ lk + kk ≤ k1 + g) (nk : kk ≠ 0) (hyk : yk = lk + kk) :
    At m (sCell3 t i0 j0 k0 i1 j1 k1 g) [(.K, ⟨lk, lk + 1, 1⟩), (.J, ⟨aj, bj + 1, 1⟩), (.I, ⟨li, li + 1, 1⟩)] [(.J, aj, bj)] (sitePt li 0 lk) (.shift .K kk (.span (sCell3 t i0 j0 k0 i1 j1 k1 g))) (F.cell3d t i0 j0 k0 i1 j1 k1 g) fun p => [yi, p .J, yk] := by
  have hi := S.arr.geo.int
  simp [sCell3, InInt] at hi
  refine at_of (mv := fun p => shiftPt p .K kk) S S.arr farr_cell3 (Or.inr ⟨rfl, ?_⟩) rfl ⟨?_, ?_, ?_⟩ (fun p => rfl) ?_ ?_
  · bc_geo
  · bc_geo
  · simp [sCell3, shiftDom]
  · bc_geo
  · bc_geo
  · site_idx

theorem at3IK_IK {m : Mem T} {t : Ptr} {i0 j0 k0 i1 j1 k1 g lk aj bj li xi xk ki kk yi yk : Int} (S : Site m (sCell3 t i0 j0 k0 i1 j1 k1 g) (F.cell3d t i0 j0 k0 i1 j1 k1 g) [(.K, ⟨lk, lk + 1, 1⟩), (.J, ⟨aj, bj + 1, 1⟩), (.I, ⟨li, li + 1, 1⟩)] [(.J, aj, bj)] (sitePt li 0 lk) fun p => [xi, p .J, xk])
    (rj : j0 - g ≤ aj ∧ aj ≤ bj ∧ bj ≤ j1 + g) (hi : i0 - g ≤ li + ki ∧ li + ki ≤ i1 + g) (ni : ki ≠ 0) (hyi : yi = li + ki) (hk : k0 - g ≤ lk + kk ∧ lk + kk ≤ k1 + g) (nk : kk ≠ 0) (hyk : yk = lk + kk) :
    At m (sCell3 t i0 j0 k0 i1 j1 k1 g) [(.K, ⟨lk, lk + 1, 1⟩), (.J, ⟨aj, bj + 1, 1⟩), (.I, ⟨li, li + 1, 1⟩)] [(.J, aj, bj)] (sitePt li 0 lk) (.shift .K kk (.shift .I ki (.span (sCell3 t i0 j0 k0 i1 j1 k1 g)))) (F.cell3d t i0 j0 k0 i1 j1 k1 g) fun p => [yi, p .J, yk] := by
  have hi := S.arr.geo.int
  simp [sCell3, InInt] at hi
  refine at_of (mv := fun p => shiftPt (shiftPt p .K kk) .I ki) S S.arr farr_cell3 (Or.inr ⟨rfl, ?_⟩) rfl ⟨?_, ?_, ?_, ?_⟩ (fun p => rfl) ?_ ?_
  · bc_geo
  · bc_geo
  · bc_geo
  · simp [sCell3, shiftDom]
  · bc_geo
  · bc_geo
  · site_idx
theorem site3JK {m : Mem T} {t : Ptr} {i0 j0 k0 i1 j1 k1 g lk lj ai bi xj xk : Int} (h : ArrOK m (sCell3 t i0 j0 k0 i1 j1 k1 g))
    (hk : k0 - g ≤ lk ∧ lk ≤ k1 + g) (hj : j0 - g ≤ lj ∧ lj ≤ j1 + g) (hi : i0 - g ≤ ai ∧ ai ≤ bi ∧ bi ≤ i1 + g) (hxj : xj = lj) (hxk : xk = lk) :
    Site m (sCell3 t i0 j0 k0 i1 j1 k1 g) (F.cell3d t i0 j0 k0 i1 j1 k1 g) [(.K, ⟨lk, lk + 1, 1⟩), (.J, ⟨lj, lj + 1, 1⟩), (.I, ⟨ai, bi + 1, 1⟩)] [(.I, ai, bi)] (sitePt 0 lj lk) fun p => [p .I, xj, xk] := by site_tac h, farr_cell3

theorem at3JK_J {m : Mem T} {t : Ptr} {i0 j0 k0 i1 j1 k1 g lk lj ai bi xj xk kj yj yk : Int} (S : Site m (sCell3 t i0 j0 k0 i1 j1 k1 g) (F.cell3d t i0 j0 k0 i1 j1 k1 g) [(.K, ⟨lk, lk + 1, 1⟩), (.J, ⟨lj, lj + 1, 1⟩), (.I, ⟨ai, bi + 1, 1⟩)] [(.I, ai, bi)] (sitePt 0 lj lk) fun p => [p .I, xj, xk])
    (ri : i0 - g ≤ ai ∧ ai ≤ bi ∧ bi ≤ i1 + g) (hj : j0 - g ≤ lj + kj ∧ lj + kj ≤ j1 + g) (nj : kj ≠ 0) (hyj : yj = lj + kj) (hk : k0 - g ≤ lk ∧ lk ≤ k1 + g) (hyk : yk = lk) :
    At m (sCell3 t i0 j0 k0 i1 j1 k1 g) [(.K, ⟨lk, lk + 1, 1⟩), (.J, ⟨lj, lj + 1, 1⟩), (.I, ⟨ai, bi + 1, 1⟩)] [(.I, ai, bi)] (sitePt 0 lj lk) (.shift .J kj (.span (sCell3 t i0 j0 k0 i1 j1 k1 g))) (F.cell3d t i0 j0 k0 i1 j1 k1 g) fun p => [p .I, yj, yk] := by
  have hi := S.arr.geo.int
  simp [sCell3, InInt] at hi
  refine at_of (mv := fun p => shiftPt p .J kj) S S.arr farr_cell3 (Or.inr ⟨rfl, ?_⟩) rfl ⟨?_, ?_, ?_⟩ (fun p => rfl) ?_ ?_
  · bc_geo
  · bc_geo
  · simp [sCell3, shiftDom]
  · bc_geo
  · bc_geo
  · site_idx

theorem at3JK_K {m : Mem T} {t : Ptr} {i0 j0 k0 i1 j1 k1 g lk lj ai bi xj xk kk yj yk : Int} (S : Site m (sCell3 t i0 j0 k0 i1 j1 k1 g) (F.cell3d t i0 j0 k0 i1 j1 k1 g) [(.K, ⟨lk, lk + 1, 1⟩), (.J, ⟨lj, lj + 1, 1⟩), (.I, ⟨ai, bi + 1, 1⟩)] [(.I, ai, bi)] (sitePt 0 lj lk) fun p => [p .I, xj, xk])
    (ri : i0 - g ≤ ai ∧ ai ≤ bi ∧ bi ≤ i1 + g) (hj : j0 - g ≤ lj ∧ lj ≤ j1 + g) (hyj : yj = lj) (hk : k0 - g ≤ lk + kk ∧ lk + kk ≤ k1 + g) (nk : kk ≠ 0) (hyk : yk = lk + kk) :
    At m (sCell3 t i0 j0 k0 i1 j1 k1 g) [(.K, ⟨lk, lk + 1, 1⟩), (.J, ⟨lj, lj + 1, 1⟩), (.I, ⟨ai, bi + 1, 1⟩)] [(.I, ai, bi)] (sitePt 0 lj lk) (.shift .K kk (.span (sCell3 t i0 j0 k0 i1 j1 k1 g))) (F.cell3d t i0 j0 k0 i1 j1 k1 g) fun p => [p .I, yj, yk] := by
  have hi := S.arr.geo.int
  simp [sCell3, InInt] at hi
  refine at_of (mv := fun p => shiftPt p .K kk) S S.arr farr_cell3 (Or.inr ⟨rfl, ?_⟩) rfl ⟨?_, ?_, ?_⟩ (fun p => rfl) ?_ ?_
  · bc_geo
  · bc_geo
  · simp [sCell3, shiftDom]
  · bc_geo
  · bc_geo
  · site_idx

theorem at3JK_JK {m : Mem T} {t : Ptr} {i0 j0 k0 i1 j1 k1 g lk lj ai bi xj xk kj kk yj yk : Int} (S : Site m (sCell3 t i0 j0 k0 i1 j1 k1 g) (F.cell3d t i0 j0 k0 i1 j1 k1 g) [(.K, ⟨lk, lk + 1, 1⟩), (.J, ⟨lj, lj + 1, 1⟩), (.I, ⟨ai, bi + 1, 1⟩)] [(.I, ai, bi)] (sitePt 0 lj lk) fun p => [p .I, xj, xk])
    (ri : i0 - g ≤ ai ∧ ai ≤ bi ∧ bi ≤ i1 + g) (hj : j0 - g ≤ lj + kj ∧ lj + kj ≤ j1 + g) (nj : kj ≠ 0) (hyj : yj = lj + kj) (hk : k0 - g ≤ lk + kk ∧ lk + kk ≤ k1 + g) (nk : kk ≠ 0) (hyk : yk = lk + kk) :
    At m (sCell3 t i0 j0 k0 i1 j1 k1 g) [(.K, ⟨lk, lk + 1, 1⟩), (.J, ⟨lj, lj + 1, 1⟩), (.I, ⟨ai, bi + 1, 1⟩)] [(.I, ai, bi)] (sitePt 0 lj lk) (.shift .K kk (.shift .J kj (.span (sCell3 t i0 j0 k0 i1 j1 k1 g)))) (F.cell3d t i0 j0 k0 i1 j1 k1 g) fun p => [p .I, yj, yk] := by
  have hi := S.arr.geo.int
  simp [sCell3, InInt] at hi
  refine at_of (mv := fun p => shiftPt (shiftPt p .K kk) .J kj) S S.arr farr_cell3 (Or.inr ⟨rfl, ?_⟩) rfl ⟨?_, ?_, ?_, ?_⟩ (fun p => rfl) ?_ ?_
  · bc_geo
  · bc_geo
  · bc_geo
  · simp [sCell3, shiftDom]
  · bc_geo
  · bc_geo
  · site_idx
theorem site3IJK {m : Mem T} {t : Ptr} {i0 j0 k0 i1 j1 k1 g lk lj li xi xj xk : Int} (h : ArrOK m (sCell3 t i0 j0 k0 i1 j1 k1 g))
    (hk : k0 - g ≤ lk ∧ lk ≤ k1 + g) (hj : j0 - g ≤ lj ∧ lj ≤ j1 + g) (hi : i0 - g ≤ li ∧ li ≤ i1 + g) (hxi : xi = li) (hxj : xj = lj) (hxk : xk = lk) :
    Site m (sCell3 t i0 j0 k0 i1 j1 k1 g) (F.cell3d t i0 j0 k0 i1 j1 k1 g) [(.K, ⟨lk, lk + 1, 1⟩), (.J, ⟨lj, lj + 1, 1⟩), (.I, ⟨li, li + 1, 1⟩)] [] (sitePt li lj lk) fun p => [xi, xj, xk] := by site_tac h, farr_cell3

theorem at3IJK_I {m : Mem T} {t : Ptr} {i0 j0 k0 i1 j1 k1 g lk lj li xi xj xk ki yi yj yk : Int} (S : Site m (sCell3 t i0 j0 k0 i1 j1 k1 g) (F.cell3d t i0 j0 k0 i1 j1 k1 g) [(.K, ⟨lk, lk + 1, 1⟩), (.J, ⟨lj, lj + 1, 1⟩), (.I, ⟨li, li + 1, 1⟩)] [] (sitePt li lj lk) fun p => [xi, xj, xk])
     (hi : i0 - g ≤ li + ki ∧ li + ki ≤ i1 + g) (ni : ki ≠ 0) (hyi : yi = li + ki) (hj : j0 - g ≤ lj ∧ lj ≤ j1 + g) (hyj : yj = lj) (hk : k0 - g ≤ lk ∧ lk ≤ k1 + g) (hyk : yk = lk) :
    At m (sCell3 t i0 j0 k0 i1 j1 k1 g) [(.K, ⟨lk, lk + 1, 1⟩), (.J, ⟨lj, lj + 1, 1⟩), (.I, ⟨li, li + 1, 1⟩)] [] (sitePt li lj lk) (.shift .I ki (.span (sCell3 t i0 j0 k0 i1 j1 k1 g))) (F.cell3d t i0 j0 k0 i1 j1 k1 g) fun p => [yi, yj, yk] := by
  have hi := S.arr.geo.int
  simp [sCell3, InInt] at hi
  refine at_of (mv := fun p => shiftPt p .I ki) S S.arr farr_cell3 (Or.inr ⟨rfl, ?_⟩) rfl ⟨?_, ?_, ?_⟩ (fun p => rfl) ?_ ?_
  · bc_geo
  · bc_geo
  · simp [sCell3, shiftDom]
  · bc_geo
  · bc_geo
  · site_idx

theorem at3IJK_J {m : Mem T} {t : Ptr} {i0 j0 k0 i1 j1 k1 g lk lj li xi xj xk kj yi yj yk : Int} (S : Site m (sCell3 t i0 j0 k0 i1 j1 k1 g) (F.cell3d t i0 j0 k0 i1 j1 k1 g) [(.K, ⟨lk, lk + 1, 1⟩), (.J, ⟨lj, lj + 1, 1⟩), (.I, ⟨li, li + 1, 1⟩)] [] (sitePt li lj lk) fun p => [xi, xj, xk])
     (hi : i0 - g ≤ li ∧ li ≤ i1 + g) (hyi : yi = li) (hj : j0 - g ≤ lj + kj ∧ lj + kj ≤ j1 + g) (nj : kj ≠ 0) (hyj : yj = lj + kj) (hk : k0 - g ≤ lk ∧ lk ≤ k1 + g) (hyk : yk = lk) :
    At m (sCell3 t i0 j0 k0 i1 j1 k1 g) [(.K, ⟨lk, lk + 1, 1⟩), (.J, ⟨lj, lj + 1, 1⟩), (.I, ⟨li, li + 1, 1⟩)] [] (sitePt li lj lk) (.shift .J kj (.span (sCell3 t i0 j0 k0 i1 j1 k1 g))) (F.cell3d t i0 j0 k0 i1 j1 k1 g) fun p => [yi, yj, yk] := by
  have hi := S.arr.geo.int
  simp [sCell3, InInt] at hi
  refine at_of (mv := fun p => shiftPt p .J kj) S S.arr farr_cell3 (Or.inr ⟨rfl, ?_⟩) rfl ⟨?_, ?_, ?_⟩ (fun p => rfl) ?_ ?_
  · bc_geo
  · bc_geo
  · simp [sCell3, shiftDom]
  · bc_geo
  · bc_geo
  · site_idx

theorem at3IJK_IJ {m : Mem T} {t : Ptr} {i0 j0 k0 i1 j1 k1 g lk lj li xi xj xk ki kj yi yj yk : Int} (S : Site m (sCell3 t i0 j0 k0 i1 j1 k1 g) (F.cell3d t i0 j0 k0 i1 j1 k1 g) [(.K, ⟨lk, lk + 1, 1⟩), (.J, ⟨lj, lj + 1, 1⟩), (.I, ⟨li, li + 1, 1⟩)] [] (sitePt li lj lk) fun p => [xi, xj, xk])
     (hi : i0 - g ≤ li + ki ∧ li + ki ≤ i1 + g) (ni : ki ≠ 0) (hyi : yi = li + ki) (hj : j0 - g ≤ lj + kj ∧ lj + kj ≤ j1 + g) (nj : kj ≠ 0) (hyj : yj = lj + kj) (hk : k0 - g ≤ lk ∧ lk ≤ k1 + g) (hyk : yk = lk) :
    At m (sCell3 t i0 j0 k0 i1 j1 k1 g) [(.K, ⟨lk, lk + 1, 1⟩), (.J, ⟨lj, lj + 1, 1⟩), (.I, ⟨li, li + 1, 1⟩)] [] (sitePt li lj lk) (.shift .J kj (.shift .I ki (.span (sCell3 t i0 j0 k0 i1 j1 k1 g)))) (F.cell3d t i0 j0 k0 i1 j1 k1 g) fun p => [yi, yj, yk] := by
  have hi := S.arr.geo.int
  simp [sCell3, InInt] at hi
  refine at_of (mv := fun p => shiftPt (shiftPt p .J kj) .I ki) S S.arr farr_cell3 (Or.inr ⟨rfl, ?_⟩) rfl ⟨?_, ?_, ?_, ?_⟩ (fun p => rfl) ?_ ?_
  · bc_geo
  · bc_geo
  · bc_geo
  · simp [sCell3, shiftDom]
  · bc_geo
  · bc_geo
  · site_idx

end Verif
