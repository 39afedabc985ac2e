import Verif.Lemmas.Seg
import Verif.Lemmas.Shapes
import Verif.Model.Kernels.Stencil
import Verif.Spec.Kernels.Stencil

/-
The stencil arrays, the domains of the stencil kernels and the loops of the Fortran routines.
-/

namespace Verif
open Spec

set_option linter.unusedSimpArgs false
set_option linter.unnecessarySeqFocus false

variable {T : Type}

/-! ### the stencil arrays -/

def sSt1 (t : Ptr) (i0 i1 g : Int) : Span := ⟨t, (sCell1 t i0 i1 g).geo ++ [(Dim.W, ⟨0, 3, 1⟩)]⟩
def sSt2 (t : Ptr) (i0 j0 i1 j1 g : Int) : Span := ⟨t, (sCell2 t i0 j0 i1 j1 g).geo ++ [(Dim.W, ⟨0, 5, 1⟩)]⟩
def sSt3 (t : Ptr) (i0 j0 k0 i1 j1 k1 g : Int) : Span := ⟨t, (sCell3 t i0 j0 k0 i1 j1 k1 g).geo ++ [(Dim.W, ⟨0, 7, 1⟩)]⟩

theorem farr_st1 {t i0 i1 g} : farr (sSt1 t i0 i1 g) = F.st1d t i0 i1 g := by
  simp only [farr, sSt1, sCell1, F.st1d, List.map_cons, List.map_nil, List.reverse_cons, List.reverse_nil, List.nil_append, List.cons_append,
    F.Arr.mk.injEq, List.cons.injEq, Prod.mk.injEq, and_true, true_and]
  omega
theorem farr_st2 {t i0 j0 i1 j1 g} : farr (sSt2 t i0 j0 i1 j1 g) = F.st2d t i0 j0 i1 j1 g := by
  simp only [farr, sSt2, sCell2, F.st2d, List.map_cons, List.map_nil, List.reverse_cons, List.reverse_nil, List.nil_append, List.cons_append,
    F.Arr.mk.injEq, List.cons.injEq, Prod.mk.injEq, and_true, true_and]
  omega
theorem farr_st3 {t i0 j0 k0 i1 j1 k1 g} : farr (sSt3 t i0 j0 k0 i1 j1 k1 g) = F.st3d t i0 j0 k0 i1 j1 k1 g := by
  simp only [farr, sSt3, sCell3, F.st3d, List.map_cons, List.map_nil, List.reverse_cons, List.reverse_nil, List.nil_append, List.cons_append,
    F.Arr.mk.injEq, List.cons.injEq, Prod.mk.injEq, and_true, true_and]
  omega

theorem makeSpanOffset_st {t : Ptr} {g : Int} {bnds : List DB} {n : Int} (hW : ∀ x ∈ bnds, x.1 ≠ Dim.W)
    (h : ∀ x ∈ bnds, InInt (x.2.first - g) ∧ InInt (x.2.last + g)) :
    makeSpanOffset t g (bnds ++ [(Dim.W, ⟨0, n, 1⟩)]) = .ok ⟨t, (bnds.map fun x => (x.1, ⟨x.2.first - g, x.2.last + g, 1⟩)) ++ [(Dim.W, ⟨0, n, 1⟩)]⟩ := by
  unfold makeSpanOffset
  rw [mapM_ok (g := fun x : DB => if x.1 = Dim.W then x else ((x.1, ⟨x.2.first - g, x.2.last + g, 1⟩) : DB)) fun x hx => ?_]
  · rw [List.map_append]
    have : (bnds.map fun x : DB => if x.1 = Dim.W then x else ((x.1, ⟨x.2.first - g, x.2.last + g, 1⟩) : DB)) =
        bnds.map fun x => (x.1, ⟨x.2.first - g, x.2.last + g, 1⟩) := List.map_congr_left fun x hx => if_neg (hW x hx)
    rw [this]
    rfl
  · rcases List.mem_append.1 hx with hx | hx
    · have := h x hx
      unfold expandBounds Bounds.expand Bounds.subEq Bounds.addEq Bounds.unitStride
      rw [if_neg (hW x hx), if_neg (hW x hx)]
      dsimp only
      rw [isub_ok this.1]
      simp only [M.ok_bind]
      rw [iadd_ok this.2]
      rfl
    · rw [List.mem_singleton] at hx
      subst hx
      rfl

/-! what the arguments of a call say about the arrays -/

theorem apart_of {s t : Span} {a b : F.Arr} (hs : farr s = a) (ht : farr t = b) (h : F.Apart a b) : Apart s t := by
  subst hs ht; exact apart_farr h

theorem mkB_near {d : Dim} {lo hi : Int} (h : InInt (hi + 1)) : mkB d lo hi = .ok (d, ⟨lo, hi + 1, 1⟩) := mkB_ok h

section
variable {m : Mem T} {t : Ptr}

theorem st1_setup {i0 i1 g : Int} (h : F.ArrOK m (F.st1d t i0 i1 g)) (hi : i0 ≤ i1) (hg : 0 ≤ g) :
    ArrOK m (sSt1 t i0 i1 g) ∧ makeSpanOffset t g [(.I, ⟨i0, i1 + 1, 1⟩), (.W, ⟨0, 3, 1⟩)] = .ok (sSt1 t i0 i1 g) ∧
      (InInt (i0 - g) ∧ InInt (i1 + g + 1)) := by
  have hI := h.int
  simp only [F.st1d, List.mem_cons, List.not_mem_nil, or_false, forall_eq_or_imp, forall_eq, InInt] at hI
  refine ⟨arrOK_farr (farr_st1 ▸ h) (by simp [sSt1]) (by simp [sSt1, sCell1]) (by simp [sSt1, sCell1] <;> omega),
    makeSpanOffset_st (bnds := [(.I, ⟨i0, i1 + 1, 1⟩)]) (n := 3) (by simp) (by simp [InInt] <;> omega), ?_⟩
  unfold InInt
  omega

theorem cell1_setup {i0 i1 g : Int} (h : F.ArrOK m (F.cell1d t i0 i1 g)) (hi : i0 ≤ i1) (hg : 0 ≤ g) :
    ArrOK m (sCell1 t i0 i1 g) ∧ makeSpanOffset t g [(.I, ⟨i0, i1 + 1, 1⟩)] = .ok (sCell1 t i0 i1 g) ∧
      (InInt (i0 - g) ∧ InInt (i1 + g + 1)) := by
  have hI := h.int
  simp only [F.cell1d, List.mem_cons, List.not_mem_nil, or_false, forall_eq_or_imp, forall_eq, InInt] at hI
  refine ⟨arrOK_farr (farr_cell1 ▸ h) (by simp [sCell1]) (by simp [sCell1]) (by simp [sCell1] <;> omega),
    makeSpanOffset_ok (by simp) (by simp [InInt] <;> omega), ?_⟩
  unfold InInt
  omega

theorem face1_setup {i0 i1 : Int} (h : F.ArrOK m (F.face1d t i0 i1 0)) (hi : i0 ≤ i1) :
    ArrOK m (sFace1 t i0 i1) ∧ DB.plus (.I, ⟨i0, i1 + 1, 1⟩) 1 = .ok (.I, ⟨i0, i1 + 1 + 1, 1⟩) ∧
      InInt (i0) ∧ InInt (i1 + 1) := by
  have hI := h.int
  simp only [F.face1d, List.mem_cons, List.not_mem_nil, or_false, forall_eq_or_imp, forall_eq, InInt] at hI
  refine ⟨arrOK_farr (farr_face1 ▸ h) (by simp [sFace1]) (by simp [sFace1]) (by simp [sFace1] <;> omega),
    plus_ok (by omega) (by unfold InInt; dsimp only; omega), ?_⟩
  unfold InInt
  omega

theorem st2_setup {i0 j0 i1 j1 g : Int} (h : F.ArrOK m (F.st2d t i0 j0 i1 j1 g)) (hi : i0 ≤ i1) (hj : j0 ≤ j1) (hg : 0 ≤ g) :
    ArrOK m (sSt2 t i0 j0 i1 j1 g) ∧ makeSpanOffset t g [(.J, ⟨j0, j1 + 1, 1⟩), (.I, ⟨i0, i1 + 1, 1⟩), (.W, ⟨0, 5, 1⟩)] = .ok (sSt2 t i0 j0 i1 j1 g) ∧
      (InInt (i0 - g) ∧ InInt (i1 + g + 1)) ∧ (InInt (j0 - g) ∧ InInt (j1 + g + 1)) := by
  have hI := h.int
  simp only [F.st2d, List.mem_cons, List.not_mem_nil, or_false, forall_eq_or_imp, forall_eq, InInt] at hI
  refine ⟨arrOK_farr (farr_st2 ▸ h) (by simp [sSt2]) (by simp [sSt2, sCell2]) (by simp [sSt2, sCell2] <;> omega),
    makeSpanOffset_st (bnds := [(.J, ⟨j0, j1 + 1, 1⟩), (.I, ⟨i0, i1 + 1, 1⟩)]) (n := 5) (by simp) (by simp [InInt] <;> omega), ?_⟩
  unfold InInt
  omega

theorem cell2_setup {i0 j0 i1 j1 g : Int} (h : F.ArrOK m (F.cell2d t i0 j0 i1 j1 g)) (hi : i0 ≤ i1) (hj : j0 ≤ j1) (hg : 0 ≤ g) :
    ArrOK m (sCell2 t i0 j0 i1 j1 g) ∧ makeSpanOffset t g [(.J, ⟨j0, j1 + 1, 1⟩), (.I, ⟨i0, i1 + 1, 1⟩)] = .ok (sCell2 t i0 j0 i1 j1 g) ∧
      (InInt (i0 - g) ∧ InInt (i1 + g + 1)) ∧ (InInt (j0 - g) ∧ InInt (j1 + g + 1)) := by
  have hI := h.int
  simp only [F.cell2d, List.mem_cons, List.not_mem_nil, or_false, forall_eq_or_imp, forall_eq, InInt] at hI
  refine ⟨arrOK_farr (farr_cell2 ▸ h) (by simp [sCell2]) (by simp [sCell2]) (by simp [sCell2] <;> omega),
    makeSpanOffset_ok (by simp) (by simp [InInt] <;> omega), ?_⟩
  unfold InInt
  omega

theorem face20_setup {i0 j0 i1 j1 : Int} (h : F.ArrOK m (F.face2d0 t i0 j0 i1 j1 0)) (hi : i0 ≤ i1) (hj : j0 ≤ j1) :
    ArrOK m (sFace20 t i0 j0 i1 j1) ∧ DB.plus (.I, ⟨i0, i1 + 1, 1⟩) 1 = .ok (.I, ⟨i0, i1 + 1 + 1, 1⟩) ∧
      InInt (i0) ∧ InInt (i1 + 1) ∧ InInt (j0) ∧ InInt (j1 + 1) := by
  have hI := h.int
  simp only [F.face2d0, List.mem_cons, List.not_mem_nil, or_false, forall_eq_or_imp, forall_eq, InInt] at hI
  refine ⟨arrOK_farr (farr_face20 ▸ h) (by simp [sFace20]) (by simp [sFace20]) (by simp [sFace20] <;> omega),
    plus_ok (by omega) (by unfold InInt; dsimp only; omega), ?_⟩
  unfold InInt
  omega

theorem face21_setup {i0 j0 i1 j1 : Int} (h : F.ArrOK m (F.face2d1 t i0 j0 i1 j1 0)) (hi : i0 ≤ i1) (hj : j0 ≤ j1) :
    ArrOK m (sFace21 t i0 j0 i1 j1) ∧ DB.plus (.J, ⟨j0, j1 + 1, 1⟩) 1 = .ok (.J, ⟨j0, j1 + 1 + 1, 1⟩) ∧
      InInt (i0) ∧ InInt (i1 + 1) ∧ InInt (j0) ∧ InInt (j1 + 1) := by
  have hI := h.int
  simp only [F.face2d1, List.mem_cons, List.not_mem_nil, or_false, forall_eq_or_imp, forall_eq, InInt] at hI
  refine ⟨arrOK_farr (farr_face21 ▸ h) (by simp [sFace21]) (by simp [sFace21]) (by simp [sFace21] <;> omega),
    plus_ok (by omega) (by unfold InInt; dsimp only; omega), ?_⟩
  unfold InInt
  omega

theorem st3_setup {i0 j0 k0 i1 j1 k1 g : Int} (h : F.ArrOK m (F.st3d t i0 j0 k0 i1 j1 k1 g)) (hi : i0 ≤ i1) (hj : j0 ≤ j1) (hk : k0 ≤ k1) (hg : 0 ≤ g) :
    ArrOK m (sSt3 t i0 j0 k0 i1 j1 k1 g) ∧ makeSpanOffset t g [(.K, ⟨k0, k1 + 1, 1⟩), (.J, ⟨j0, j1 + 1, 1⟩), (.I, ⟨i0, i1 + 1, 1⟩), (.W, ⟨0, 7, 1⟩)] = .ok (sSt3 t i0 j0 k0 i1 j1 k1 g) ∧
      (InInt (i0 - g) ∧ InInt (i1 + g + 1)) ∧ (InInt (j0 - g) ∧ InInt (j1 + g + 1)) ∧ (InInt (k0 - g) ∧ InInt (k1 + g + 1)) := by
  have hI := h.int
  simp only [F.st3d, List.mem_cons, List.not_mem_nil, or_false, forall_eq_or_imp, forall_eq, InInt] at hI
  refine ⟨arrOK_farr (farr_st3 ▸ h) (by simp [sSt3]) (by simp [sSt3, sCell3]) (by simp [sSt3, sCell3] <;> omega),
    makeSpanOffset_st (bnds := [(.K, ⟨k0, k1 + 1, 1⟩), (.J, ⟨j0, j1 + 1, 1⟩), (.I, ⟨i0, i1 + 1, 1⟩)]) (n := 7) (by simp) (by simp [InInt] <;> omega), ?_⟩
  unfold InInt
  omega

theorem cell3_setup {i0 j0 k0 i1 j1 k1 g : Int} (h : F.ArrOK m (F.cell3d t i0 j0 k0 i1 j1 k1 g)) (hi : i0 ≤ i1) (hj : j0 ≤ j1) (hk : k0 ≤ k1) (hg : 0 ≤ g) :
    ArrOK m (sCell3 t i0 j0 k0 i1 j1 k1 g) ∧ makeSpanOffset t g [(.K, ⟨k0, k1 + 1, 1⟩), (.J, ⟨j0, j1 + 1, 1⟩), (.I, ⟨i0, i1 + 1, 1⟩)] = .ok (sCell3 t i0 j0 k0 i1 j1 k1 g) ∧
      (InInt (i0 - g) ∧ InInt (i1 + g + 1)) ∧ (InInt (j0 - g) ∧ InInt (j1 + g + 1)) ∧ (InInt (k0 - g) ∧ InInt (k1 + g + 1)) := by
  have hI := h.int
  simp only [F.cell3d, List.mem_cons, List.not_mem_nil, or_false, forall_eq_or_imp, forall_eq, InInt] at hI
  refine ⟨arrOK_farr (farr_cell3 ▸ h) (by simp [sCell3]) (by simp [sCell3]) (by simp [sCell3] <;> omega),
    makeSpanOffset_ok (by simp) (by simp [InInt] <;> omega), ?_⟩
  unfold InInt
  omega

theorem face30_setup {i0 j0 k0 i1 j1 k1 : Int} (h : F.ArrOK m (F.face3d0 t i0 j0 k0 i1 j1 k1 0)) (hi : i0 ≤ i1) (hj : j0 ≤ j1) (hk : k0 ≤ k1) :
    ArrOK m (sFace30 t i0 j0 k0 i1 j1 k1) ∧ DB.plus (.I, ⟨i0, i1 + 1, 1⟩) 1 = .ok (.I, ⟨i0, i1 + 1 + 1, 1⟩) ∧
      InInt (i0) ∧ InInt (i1 + 1) ∧ InInt (j0) ∧ InInt (j1 + 1) ∧ InInt (k0) ∧ InInt (k1 + 1) := by
  have hI := h.int
  simp only [F.face3d0, List.mem_cons, List.not_mem_nil, or_false, forall_eq_or_imp, forall_eq, InInt] at hI
  refine ⟨arrOK_farr (farr_face30 ▸ h) (by simp [sFace30]) (by simp [sFace30]) (by simp [sFace30] <;> omega),
    plus_ok (by omega) (by unfold InInt; dsimp only; omega), ?_⟩
  unfold InInt
  omega

theorem face31_setup {i0 j0 k0 i1 j1 k1 : Int} (h : F.ArrOK m (F.face3d1 t i0 j0 k0 i1 j1 k1 0)) (hi : i0 ≤ i1) (hj : j0 ≤ j1) (hk : k0 ≤ k1) :
    ArrOK m (sFace31 t i0 j0 k0 i1 j1 k1) ∧ DB.plus (.J, ⟨j0, j1 + 1, 1⟩) 1 = .ok (.J, ⟨j0, j1 + 1 + 1, 1⟩) ∧
      InInt (i0) ∧ InInt (i1 + 1) ∧ InInt (j0) ∧ InInt (j1 + 1) ∧ InInt (k0) ∧ InInt (k1 + 1) := by
  have hI := h.int
  simp only [F.face3d1, List.mem_cons, List.not_mem_nil, or_false, forall_eq_or_imp, forall_eq, InInt] at hI
  refine ⟨arrOK_farr (farr_face31 ▸ h) (by simp [sFace31]) (by simp [sFace31]) (by simp [sFace31] <;> omega),
    plus_ok (by omega) (by unfold InInt; dsimp only; omega), ?_⟩
  unfold InInt
  omega

theorem face32_setup {i0 j0 k0 i1 j1 k1 : Int} (h : F.ArrOK m (F.face3d2 t i0 j0 k0 i1 j1 k1 0)) (hi : i0 ≤ i1) (hj : j0 ≤ j1) (hk : k0 ≤ k1) :
    ArrOK m (sFace32 t i0 j0 k0 i1 j1 k1) ∧ DB.plus (.K, ⟨k0, k1 + 1, 1⟩) 1 = .ok (.K, ⟨k0, k1 + 1 + 1, 1⟩) ∧
      InInt (i0) ∧ InInt (i1 + 1) ∧ InInt (j0) ∧ InInt (j1 + 1) ∧ InInt (k0) ∧ InInt (k1 + 1) := by
  have hI := h.int
  simp only [F.face3d2, List.mem_cons, List.not_mem_nil, or_false, forall_eq_or_imp, forall_eq, InInt] at hI
  refine ⟨arrOK_farr (farr_face32 ▸ h) (by simp [sFace32]) (by simp [sFace32]) (by simp [sFace32] <;> omega),
    plus_ok (by omega) (by unfold InInt; dsimp only; omega), ?_⟩
  unfold InInt
  omega

end

/-! ### index arithmetic on the host -/

theorem localize_ok {d : Dim} {p0 side l : Int} (hs : side = 0 ∨ side = 1) (h : InInt (p0 - 2) ∧ InInt (p0 + 2)) (hl : l = p0 - 2 * side + 1) :
    Cuda.localize d p0 side = .ok (d, ⟨l, l + 1, 1⟩) := by
  subst hl
  unfold InInt at h
  unfold Cuda.localize imul
  rcases hs with rfl | rfl
  · rw [show chk (2 * 0) = .ok (2 * 0) from chk_ok (by unfold InInt; omega)]
    simp only [M.ok_bind]
    rw [isub_ok (by unfold InInt; omega)]
    simp only [M.ok_bind]
    rw [iadd_ok (by unfold InInt; omega)]
    simp only [M.ok_bind]
    exact mkB_ok (by unfold InInt; omega)
  · rw [show chk (2 * 1) = .ok (2 * 1) from chk_ok (by unfold InInt; omega)]
    simp only [M.ok_bind]
    rw [isub_ok (by unfold InInt; omega)]
    simp only [M.ok_bind]
    rw [iadd_ok (by unfold InInt; omega)]
    simp only [M.ok_bind]
    exact mkB_ok (by unfold InInt; omega)

theorem localizeEdge_ok {d : Dim} {p0 side l : Int} (hs : side = 0 ∨ side = 1) (h : InInt (p0 - 2) ∧ InInt (p0 + 2)) (hl : l = p0 - side + 1) :
    Cuda.localizeEdge d p0 side = .ok (d, ⟨l, l + 1, 1⟩) := by
  subst hl
  unfold InInt at h
  unfold Cuda.localizeEdge
  rw [isub_ok (by unfold InInt; omega)]
  simp only [M.ok_bind]
  rw [iadd_ok (by unfold InInt; omega)]
  simp only [M.ok_bind]
  exact mkB_ok (by unfold InInt; omega)

/-! ### both programs -/

/-- both programs end, with the same memory -/
def Both (c : M (Mem T)) (f : F.Cmd T) (m : Mem T) : Prop := ∃ m', c = .ok m' ∧ f m = .ok m'

theorem Both.bind {α : Type} {x : M α} {a : α} {g : α → M (Mem T)} {f : F.Cmd T} {m : Mem T} (hx : x = .ok a) (h : Both (g a) f m) : Both (x >>= g) f m := by
  rw [hx]; exact h

theorem Both.skip {m : Mem T} : Both (.ok m) F.skip m := ⟨m, rfl, rfl⟩

theorem F.doLoop_skip {lo hi : Int} : (F.doLoop lo hi fun _ => (F.skip : F.Cmd T)) = F.skip := by
  funext m
  unfold F.doLoop F.skip
  induction F.irange lo hi with
  | nil => rfl
  | cons i l ih => rw [List.foldlM_cons]; exact ih

theorem F.block_skip {c : F.Cmd T} : F.block [c, F.skip] = c ∧ F.block [F.skip, c] = c := by
  constructor <;> funext m <;> simp only [F.block, F.skip]
  · cases c m <;> rfl
  · show (do let m' ← c m; Except.ok m') = c m
    cases c m <;> rfl

section
variable [Field T]

omit [Field T] in
theorem Same.both {w : Span} {D : List DB} {ss : List (WStmt T)} {β : Backend} {stmt : F.Cmd T} {m : Mem T} (h : Same w D ss β stmt m) :
    Both (windowExec w D ss β m) stmt m := by
  obtain ⟨m', h1, h2, -⟩ := h
  exact ⟨m', h1, h2⟩

end

/-! ### the layers of cells next to a face -/

theorem nest_fix {r : List (Dim × Int × Int)} {p p0 : Pt} (hn : (r.map (·.1)).Nodup) (hp : p ∈ F.nestPts r p0) {d : Dim} (hd : d ∉ r.map (·.1)) :
    p d = p0 d := ((F.mem_nestPts hn).1 hp).2 d hd

section
variable {m : Mem T} {t : Ptr}

/-- bounds of the shapes -/
macro "geo_omega" : tactic => `(tactic| (
  simp [sCell1, sFace1, sCell2, sFace20, sFace21, sCell3, sFace30, sFace31, sFace32, shiftDom, InDom, IsPoint, InRange, InInt] <;> omega))

macro "loop_tac" : tactic => `(tactic| (
  refine ⟨by simp , by simp , fun p => ?_⟩
  simp [InDom, IsPoint, InRange]
  try omega))

theorem seg1 {i0 i1 g l x : Int} (h : ArrOK m (sSt1 t i0 i1 g)) (h1 : i0 - g ≤ l ∧ l ≤ i1 + g) (hx : x = l) :
    Seg m (sSt1 t i0 i1 g) 3 [(.I, ⟨l, l + 1, 1⟩)] [] (fun _ => l) fun _ => [x] where
  geo := ⟨_, rfl, ⟨by simp [sCell1], by geo_omega⟩, fun p hp => by
    have := nest_fix (by simp) hp (d := Dim.I) (by simp)
    simp [sCell1, this, hx]⟩
  arr := h
  dom := ⟨by simp, by simp, by simp⟩
  loop := by loop_tac

theorem seg1_box {i0 i1 g : Int} (h : ArrOK m (sSt1 t i0 i1 g)) (hi : i0 ≤ i1) (hg : 0 ≤ g) :
    Seg m (sSt1 t i0 i1 g) 3 [(.I, ⟨i0, i1 + 1, 1⟩)] [(.I, i0, i1)] (fun _ => 0) fun p => [p .I] where
  geo := ⟨_, rfl, ⟨by simp [sCell1], by geo_omega⟩, fun p hp => by simp [sCell1]⟩
  arr := h
  dom := ⟨by simp, by simp, by geo_omega⟩
  loop := by loop_tac

theorem seg2_0 {i0 j0 i1 j1 g pj0 pj1 l x : Int} (h : ArrOK m (sSt2 t i0 j0 i1 j1 g)) (h1 : i0 - g ≤ l ∧ l ≤ i1 + g)
    (h2 : j0 - g ≤ pj0 ∧ pj0 ≤ pj1 ∧ pj1 ≤ j1 + g) (hx : x = l) :
    Seg m (sSt2 t i0 j0 i1 j1 g) 5 [(.J, ⟨pj0, pj1 + 1, 1⟩), (.I, ⟨l, l + 1, 1⟩)] [(.J, pj0, pj1)] (fun _ => l) fun p => [x, p .J] where
  geo := ⟨_, rfl, ⟨by simp [sCell2], by geo_omega⟩, fun p hp => by
    have := nest_fix (by simp) hp (d := Dim.I) (by simp )
    simp [sCell2, this, hx]⟩
  arr := h
  dom := ⟨by simp, by simp , by geo_omega⟩
  loop := by loop_tac

theorem seg2_1 {i0 j0 i1 j1 g pi0 pi1 l x : Int} (h : ArrOK m (sSt2 t i0 j0 i1 j1 g)) (h1 : j0 - g ≤ l ∧ l ≤ j1 + g)
    (h2 : i0 - g ≤ pi0 ∧ pi0 ≤ pi1 ∧ pi1 ≤ i1 + g) (hx : x = l) :
    Seg m (sSt2 t i0 j0 i1 j1 g) 5 [(.J, ⟨l, l + 1, 1⟩), (.I, ⟨pi0, pi1 + 1, 1⟩)] [(.I, pi0, pi1)] (fun _ => l) fun p => [p .I, x] where
  geo := ⟨_, rfl, ⟨by simp [sCell2], by geo_omega⟩, fun p hp => by
    have := nest_fix (by simp) hp (d := Dim.J) (by simp )
    simp [sCell2, this, hx]⟩
  arr := h
  dom := ⟨by simp, by simp , by geo_omega⟩
  loop := by loop_tac

theorem seg2_box {i0 j0 i1 j1 g : Int} (h : ArrOK m (sSt2 t i0 j0 i1 j1 g)) (hi : i0 ≤ i1) (hj : j0 ≤ j1) (hg : 0 ≤ g) :
    Seg m (sSt2 t i0 j0 i1 j1 g) 5 [(.J, ⟨j0, j1 + 1, 1⟩), (.I, ⟨i0, i1 + 1, 1⟩)] [(.J, j0, j1), (.I, i0, i1)] (fun _ => 0) fun p => [p .I, p .J] where
  geo := ⟨_, rfl, ⟨by simp [sCell2], by geo_omega⟩, fun p hp => by simp [sCell2]⟩
  arr := h
  dom := ⟨by simp, by simp , by geo_omega⟩
  loop := by loop_tac

theorem seg3_0 {i0 j0 k0 i1 j1 k1 g pj0 pj1 pk0 pk1 l x : Int} (h : ArrOK m (sSt3 t i0 j0 k0 i1 j1 k1 g)) (h1 : i0 - g ≤ l ∧ l ≤ i1 + g)
    (h2 : j0 - g ≤ pj0 ∧ pj0 ≤ pj1 ∧ pj1 ≤ j1 + g) (h3 : k0 - g ≤ pk0 ∧ pk0 ≤ pk1 ∧ pk1 ≤ k1 + g) (hx : x = l) :
    Seg m (sSt3 t i0 j0 k0 i1 j1 k1 g) 7 [(.K, ⟨pk0, pk1 + 1, 1⟩), (.J, ⟨pj0, pj1 + 1, 1⟩), (.I, ⟨l, l + 1, 1⟩)] [(.K, pk0, pk1), (.J, pj0, pj1)]
      (fun _ => l) fun p => [x, p .J, p .K] where
  geo := ⟨_, rfl, ⟨by simp [sCell3], by geo_omega⟩, fun p hp => by
    have := nest_fix (by simp ) hp (d := Dim.I) (by simp )
    simp [sCell3, this, hx]⟩
  arr := h
  dom := ⟨by simp, by simp , by geo_omega⟩
  loop := by loop_tac

theorem seg3_1 {i0 j0 k0 i1 j1 k1 g pi0 pi1 pk0 pk1 l x : Int} (h : ArrOK m (sSt3 t i0 j0 k0 i1 j1 k1 g)) (h1 : j0 - g ≤ l ∧ l ≤ j1 + g)
    (h2 : i0 - g ≤ pi0 ∧ pi0 ≤ pi1 ∧ pi1 ≤ i1 + g) (h3 : k0 - g ≤ pk0 ∧ pk0 ≤ pk1 ∧ pk1 ≤ k1 + g) (hx : x = l) :
    Seg m (sSt3 t i0 j0 k0 i1 j1 k1 g) 7 [(.K, ⟨pk0, pk1 + 1, 1⟩), (.J, ⟨l, l + 1, 1⟩), (.I, ⟨pi0, pi1 + 1, 1⟩)] [(.K, pk0, pk1), (.I, pi0, pi1)]
      (fun _ => l) fun p => [p .I, x, p .K] where
  geo := ⟨_, rfl, ⟨by simp [sCell3], by geo_omega⟩, fun p hp => by
    have := nest_fix (by simp ) hp (d := Dim.J) (by simp )
    simp [sCell3, this, hx]⟩
  arr := h
  dom := ⟨by simp, by simp , by geo_omega⟩
  loop := by loop_tac

theorem seg3_2 {i0 j0 k0 i1 j1 k1 g pi0 pi1 pj0 pj1 l x : Int} (h : ArrOK m (sSt3 t i0 j0 k0 i1 j1 k1 g)) (h1 : k0 - g ≤ l ∧ l ≤ k1 + g)
    (h2 : i0 - g ≤ pi0 ∧ pi0 ≤ pi1 ∧ pi1 ≤ i1 + g) (h3 : j0 - g ≤ pj0 ∧ pj0 ≤ pj1 ∧ pj1 ≤ j1 + g) (hx : x = l) :
    Seg m (sSt3 t i0 j0 k0 i1 j1 k1 g) 7 [(.K, ⟨l, l + 1, 1⟩), (.J, ⟨pj0, pj1 + 1, 1⟩), (.I, ⟨pi0, pi1 + 1, 1⟩)] [(.J, pj0, pj1), (.I, pi0, pi1)]
      (fun _ => l) fun p => [p .I, p .J, x] where
  geo := ⟨_, rfl, ⟨by simp [sCell3], by geo_omega⟩, fun p hp => by
    have := nest_fix (by simp ) hp (d := Dim.K) (by simp )
    simp [sCell3, this, hx]⟩
  arr := h
  dom := ⟨by simp, by simp , by geo_omega⟩
  loop := by loop_tac

theorem seg3_box {i0 j0 k0 i1 j1 k1 g : Int} (h : ArrOK m (sSt3 t i0 j0 k0 i1 j1 k1 g)) (hi : i0 ≤ i1) (hj : j0 ≤ j1) (hk : k0 ≤ k1) (hg : 0 ≤ g) :
    Seg m (sSt3 t i0 j0 k0 i1 j1 k1 g) 7 [(.K, ⟨k0, k1 + 1, 1⟩), (.J, ⟨j0, j1 + 1, 1⟩), (.I, ⟨i0, i1 + 1, 1⟩)] [(.K, k0, k1), (.J, j0, j1), (.I, i0, i1)]
      (fun _ => 0) fun p => [p .I, p .J, p .K] where
  geo := ⟨_, rfl, ⟨by simp [sCell3], by geo_omega⟩, fun p hp => by simp [sCell3]⟩
  arr := h
  dom := ⟨by simp, by simp , by geo_omega⟩
  loop := by loop_tac

end

/-! ### operands next to a face -/

/-- a shifted array -/
theorem opnd_shift {m : Mem T} {w b : Span} {D : List DB} {r : List (Dim × Int × Int)} {p0 : Pt} {d : Dim} {k : Int} {arr : F.Arr}
    {bidx : Pt → List Int} (harr : farr b = arr) (hU : UnitDom D) (hL : Loop D r p0) (hb : ArrOK m b) (ha : Apart w b)
    (hi : ∀ x ∈ D, x.1 = d → InInt (x.2.first + k) ∧ InInt (x.2.last + k)) (hw : Within b.geo (shiftDom D d k))
    (hx : ∀ p ∈ F.nestPts r p0, (b.geo.map fun x => shiftPt p d k x.1).reverse = bidx p) : Opnd m w D r p0 (.shift d k (.span b)) arr bidx where
  ok := accOK_of hb.geo hU ⟨hi, hw⟩
  alloc := hb.alloc
  apart := ha
  at_ p hp := by
    have hin : Inside b.geo (shiftPt p d k) := by
      refine hw.elem hb.geo hU.shift ?_
      intro x hx'
      obtain ⟨y, hy, rfl⟩ := List.mem_map.1 hx'
      have := hL.inDom hp y hy
      unfold IsPoint InRange at this ⊢
      by_cases he : y.1 = d
      · simp only [if_pos he, shiftPt]
        refine ⟨⟨by omega, by omega⟩, ?_⟩
        rw [show p y.1 + k - (y.2.first + k) = p y.1 - y.2.first by omega]
        exact this.2
      · simp only [if_neg he, shiftPt]
        exact this
    have := inside_addr hin
    rw [hx p hp, harr] at this
    exact this

/-- an array -/
theorem opnd_span {m : Mem T} {w b : Span} {D : List DB} {r : List (Dim × Int × Int)} {p0 : Pt} {arr : F.Arr}
    {bidx : Pt → List Int} (harr : farr b = arr) (hU : UnitDom D) (hL : Loop D r p0) (hb : ArrOK m b) (ha : Apart w b) (hw : Within b.geo D)
    (hx : ∀ p ∈ F.nestPts r p0, (b.geo.map fun x => p x.1).reverse = bidx p) : Opnd m w D r p0 (.span b) arr bidx where
  ok := accOK_of hb.geo hU hw
  alloc := hb.alloc
  apart := ha
  at_ p hp := by
    have := inside_addr (hw.elem hb.geo hU (hL.inDom hp))
    rw [hx p hp, harr] at this
    exact this

section
variable {m : Mem T} {w : Span} {n : Int} {D : List DB} {r : List (Dim × Int × Int)} {p0 : Pt} {idx : Pt → List Int}

/-- two neighbouring elements of an array, apart from the stencil -/
structure Edge (m : Mem T) (w : Span) (D : List DB) (r : List (Dim × Int × Int)) (p0 : Pt) (d : Dim) (b : Span) (arr : F.Arr) (lo hi : Pt → List Int) : Prop where
  ok : StencilOK 1 d b D
  alloc : Allocated m b
  apart : Apart w b
  arr : farr b = arr
  lo : ∀ p ∈ F.nestPts r p0, (b.geo.map fun x => p x.1).reverse = lo p
  hi : ∀ p ∈ F.nestPts r p0, (b.geo.map fun x => shiftPt p d 1 x.1).reverse = hi p

theorem edge_of {d : Dim} {b : Span} {arr : F.Arr} {lo hi : Pt → List Int} (harr : farr b = arr) (hU : UnitDom D) (hb : ArrOK m b) (ha : Apart w b)
    (hd : d ∈ D.map (·.1)) (hw : Within b.geo (extDom D d 1)) (hlo : ∀ p ∈ F.nestPts r p0, (b.geo.map fun x => p x.1).reverse = lo p)
    (hhi : ∀ p ∈ F.nestPts r p0, (b.geo.map fun x => shiftPt p d 1 x.1).reverse = hi p) : Edge m w D r p0 d b arr lo hi :=
  ⟨⟨.inl rfl, hd, fun x hx => (hU.bnds x hx).2, (hU.bnds _ (bnd_mem hd)).1, hb.geo, hw.req hb.geo hU.ext, by have := hw.len; simpa [extDom] using this⟩,
    hb.alloc, ha, harr, hlo, hhi⟩

theorem Edge.at_ {d : Dim} {b : Span} {arr : F.Arr} {lo hi : Pt → List Int} (h : Edge m w D r p0 d b arr lo hi) (hL : Loop D r p0) {p : Pt}
    (hp : p ∈ F.nestPts r p0) : (SegRef m w n idx p (arr, lo p) ∧ arr.addrT (lo p) = cell b p) ∧
      SegRef m w n idx p (arr, hi p) ∧ arr.addrT (hi p) = cell b (shiftPt p d 1) := by
  obtain ⟨h1, h2⟩ := stencil_elements h.ok (hL.inDom hp)
  have e : lowPt 1 d p = p := rfl
  rw [e] at h1 h2
  have a1 := inside_addr h1
  have a2 := inside_addr h2
  rw [h.lo p hp, h.arr] at a1
  rw [h.hi p hp, h.arr] at a2
  exact ⟨⟨.inr ⟨a1.1, b, h.alloc, h.apart, p, h1, a1.2⟩, a1.2⟩, .inr ⟨a2.1, b, h.alloc, h.apart, _, h2, a2.2⟩, a2.2⟩

end

/-! the coefficients on the faces and the cells beyond them, next to the layers -/

section
variable {m : Mem T} {t : Ptr} {w : Span}

theorem face_at1 {i0 i1 l s e : Int} (hb : ArrOK m (sFace1 t i0 i1)) (ha : Apart w (sFace1 t i0 i1)) (hl : i0 ≤ l ∧ l ≤ i1)
    (hs : s = 0 ∨ s = 1) (he : e = l + s) :
    Opnd m w [(.I, ⟨l, l + 1, 1⟩)] [] (fun _ => l) (.shift .I s (.span (sFace1 t i0 i1)))
      (F.face1d t i0 i1 0) fun _ => [e] := by
  refine opnd_shift farr_face1 ⟨by simp, by simp, by simp⟩ (by loop_tac) hb ha ?_ ?_ ?_
  · have hi := hb.geo.int
    simp [sFace1, InInt] at hi ⊢
    omega
  · exact ⟨by simp [sFace1, shiftDom], by geo_omega⟩
  · intro p hp
    have := nest_fix (by simp) hp (d := Dim.I) (by simp)
    simp [sFace1, shiftPt, this, he]

theorem cell_at1 {i0 i1 g l s e : Int} (hb : ArrOK m (sCell1 t i0 i1 g)) (ha : Apart w (sCell1 t i0 i1 g)) (hl : i0 ≤ l ∧ l ≤ i1)
    (hg : 1 ≤ g) (hs : s = -1 ∨ s = 1) (he : e = l + s) :
    Opnd m w [(.I, ⟨l, l + 1, 1⟩)] [] (fun _ => l) (.shift .I s (.span (sCell1 t i0 i1 g)))
      (F.cell1d t i0 i1 g) fun _ => [e] := by
  refine opnd_shift farr_cell1 ⟨by simp, by simp, by simp⟩ (by loop_tac) hb ha ?_ ?_ ?_
  · have hi := hb.geo.int
    simp [sCell1, InInt] at hi ⊢
    omega
  · exact ⟨by simp [sCell1, shiftDom], by geo_omega⟩
  · intro p hp
    have := nest_fix (by simp) hp (d := Dim.I) (by simp)
    simp [sCell1, shiftPt, this, he]

theorem face_on1 {i0 i1 l e : Int} (hb : ArrOK m (sFace1 t i0 i1)) (ha : Apart w (sFace1 t i0 i1)) (hl : i0 ≤ l ∧ l ≤ i1 + 1)
    (he : e = l) :
    Opnd m w [(.I, ⟨l, l + 1, 1⟩)] [] (fun _ => l) (.span (sFace1 t i0 i1))
      (F.face1d t i0 i1 0) fun _ => [e] := by
  refine opnd_span farr_face1 ⟨by simp, by simp, by simp⟩ (by loop_tac) hb ha ?_ ?_
  · exact ⟨by simp [sFace1], by geo_omega⟩
  · intro p hp
    have := nest_fix (by simp) hp (d := Dim.I) (by simp)
    simp [sFace1, this, he]

theorem cell_on1 {i0 i1 l e : Int} (hl : i0 ≤ l ∧ l ≤ i1)
    (he : e = l) :
    Within (sCell1 t i0 i1 0).geo [(.I, ⟨l, l + 1, 1⟩)] ∧ ∀ p ∈ F.nestPts [] (fun _ => l), ((sCell1 t i0 i1 0).geo.map fun x => p x.1).reverse = [e] := by
  refine ⟨⟨by simp [sCell1], by geo_omega⟩, fun p hp => ?_⟩
  have := nest_fix (by simp) hp (d := Dim.I) (by simp)
  simp [sCell1, this, he]

theorem edge1 {i0 i1 bi0 bi1 : Int} (hb : ArrOK m (sFace1 t bi0 bi1)) (ha : Apart w (sFace1 t bi0 bi1)) (hbi : bi0 ≤ i0 ∧ i0 ≤ i1 ∧ i1 ≤ bi1) :
    Edge m w [(.I, ⟨i0, i1 + 1, 1⟩)] [(.I, i0, i1)] (fun _ => 0) .I (sFace1 t bi0 bi1) (F.face1d t bi0 bi1 0) (fun p => [p .I]) (fun p => [p .I + 1]) := by
  refine edge_of farr_face1 ⟨by simp, by simp, by geo_omega⟩ hb ha (by simp) ⟨by simp [sFace1, extDom], ?_⟩ ?_ ?_
  · simp [sFace1, extDom, InDom, IsPoint, InRange]
    omega
  · intro p hp; simp [sFace1]
  · intro p hp; simp [sFace1, shiftPt]

theorem cell_box1 {i0 i1 bi0 bi1 : Int} (hb : ArrOK m (sCell1 t bi0 bi1 0)) (ha : Apart w (sCell1 t bi0 bi1 0)) (hbi : bi0 ≤ i0 ∧ i0 ≤ i1 ∧ i1 ≤ bi1) :
    Opnd m w [(.I, ⟨i0, i1 + 1, 1⟩)] [(.I, i0, i1)] (fun _ => 0) (.span (sCell1 t bi0 bi1 0)) (F.cell1d t bi0 bi1 0) fun p => [p .I] := by
  refine opnd_span farr_cell1 ⟨by simp, by simp, by geo_omega⟩ (by loop_tac) hb ha ⟨by simp [sCell1], by geo_omega⟩ ?_
  intro p hp; simp [sCell1]

theorem makeSpan_cell1 {i0 i1 : Int} : makeSpan t [(.I, ⟨i0, i1 + 1, 1⟩)] = sCell1 t i0 i1 0 := by
  simp [makeSpan, sCell1, Bounds.unitStride]

theorem face_at20 {i0 j0 i1 j1 pj0 pj1 l s e : Int} (hb : ArrOK m (sFace20 t i0 j0 i1 j1)) (ha : Apart w (sFace20 t i0 j0 i1 j1)) (hl : i0 ≤ l ∧ l ≤ i1)
    (hj : j0 ≤ pj0 ∧ pj0 ≤ pj1 ∧ pj1 ≤ j1) (hs : s = 0 ∨ s = 1) (he : e = l + s) :
    Opnd m w [(.J, ⟨pj0, pj1 + 1, 1⟩), (.I, ⟨l, l + 1, 1⟩)] [(.J, pj0, pj1)] (fun _ => l) (.shift .I s (.span (sFace20 t i0 j0 i1 j1)))
      (F.face2d0 t i0 j0 i1 j1 0) fun p => [e, p .J] := by
  refine opnd_shift farr_face20 ⟨by simp, by simp, by geo_omega⟩ (by loop_tac) hb ha ?_ ?_ ?_
  · have hi := hb.geo.int
    simp [sFace20, InInt] at hi ⊢
    omega
  · exact ⟨by simp [sFace20, shiftDom], by geo_omega⟩
  · intro p hp
    have := nest_fix (by simp) hp (d := Dim.I) (by simp)
    simp [sFace20, shiftPt, this, he]

theorem cell_at20 {i0 j0 i1 j1 g pj0 pj1 l s e : Int} (hb : ArrOK m (sCell2 t i0 j0 i1 j1 g)) (ha : Apart w (sCell2 t i0 j0 i1 j1 g)) (hl : i0 ≤ l ∧ l ≤ i1)
    (hj : j0 ≤ pj0 ∧ pj0 ≤ pj1 ∧ pj1 ≤ j1) (hg : 1 ≤ g) (hs : s = -1 ∨ s = 1) (he : e = l + s) :
    Opnd m w [(.J, ⟨pj0, pj1 + 1, 1⟩), (.I, ⟨l, l + 1, 1⟩)] [(.J, pj0, pj1)] (fun _ => l) (.shift .I s (.span (sCell2 t i0 j0 i1 j1 g)))
      (F.cell2d t i0 j0 i1 j1 g) fun p => [e, p .J] := by
  refine opnd_shift farr_cell2 ⟨by simp, by simp, by geo_omega⟩ (by loop_tac) hb ha ?_ ?_ ?_
  · have hi := hb.geo.int
    simp [sCell2, InInt] at hi ⊢
    omega
  · exact ⟨by simp [sCell2, shiftDom], by geo_omega⟩
  · intro p hp
    have := nest_fix (by simp) hp (d := Dim.I) (by simp)
    simp [sCell2, shiftPt, this, he]

theorem face_on20 {i0 j0 i1 j1 pj0 pj1 l e : Int} (hb : ArrOK m (sFace20 t i0 j0 i1 j1)) (ha : Apart w (sFace20 t i0 j0 i1 j1)) (hl : i0 ≤ l ∧ l ≤ i1 + 1)
    (hj : j0 ≤ pj0 ∧ pj0 ≤ pj1 ∧ pj1 ≤ j1) (he : e = l) :
    Opnd m w [(.J, ⟨pj0, pj1 + 1, 1⟩), (.I, ⟨l, l + 1, 1⟩)] [(.J, pj0, pj1)] (fun _ => l) (.span (sFace20 t i0 j0 i1 j1))
      (F.face2d0 t i0 j0 i1 j1 0) fun p => [e, p .J] := by
  refine opnd_span farr_face20 ⟨by simp, by simp, by geo_omega⟩ (by loop_tac) hb ha ?_ ?_
  · exact ⟨by simp [sFace20], by geo_omega⟩
  · intro p hp
    have := nest_fix (by simp) hp (d := Dim.I) (by simp)
    simp [sFace20, this, he]

theorem cell_on20 {i0 j0 i1 j1 pj0 pj1 l e : Int} (hl : i0 ≤ l ∧ l ≤ i1)
    (hj : j0 ≤ pj0 ∧ pj0 ≤ pj1 ∧ pj1 ≤ j1) (he : e = l) :
    Within (sCell2 t i0 j0 i1 j1 0).geo [(.J, ⟨pj0, pj1 + 1, 1⟩), (.I, ⟨l, l + 1, 1⟩)] ∧ ∀ p ∈ F.nestPts [(.J, pj0, pj1)] (fun _ => l), ((sCell2 t i0 j0 i1 j1 0).geo.map fun x => p x.1).reverse = [e, p .J] := by
  refine ⟨⟨by simp [sCell2], by geo_omega⟩, fun p hp => ?_⟩
  have := nest_fix (by simp) hp (d := Dim.I) (by simp)
  simp [sCell2, this, he]

theorem edge20 {i0 j0 i1 j1 bi0 bj0 bi1 bj1 : Int} (hb : ArrOK m (sFace20 t bi0 bj0 bi1 bj1)) (ha : Apart w (sFace20 t bi0 bj0 bi1 bj1)) (hbi : bi0 ≤ i0 ∧ i0 ≤ i1 ∧ i1 ≤ bi1) (hbj : bj0 ≤ j0 ∧ j0 ≤ j1 ∧ j1 ≤ bj1) :
    Edge m w [(.J, ⟨j0, j1 + 1, 1⟩), (.I, ⟨i0, i1 + 1, 1⟩)] [(.J, j0, j1), (.I, i0, i1)] (fun _ => 0) .I (sFace20 t bi0 bj0 bi1 bj1) (F.face2d0 t bi0 bj0 bi1 bj1 0) (fun p => [p .I, p .J]) (fun p => [p .I + 1, p .J]) := by
  refine edge_of farr_face20 ⟨by simp, by simp, by geo_omega⟩ hb ha (by simp) ⟨by simp [sFace20, extDom], ?_⟩ ?_ ?_
  · simp [sFace20, extDom, InDom, IsPoint, InRange]
    omega
  · intro p hp; simp [sFace20]
  · intro p hp; simp [sFace20, shiftPt]

theorem cell_box2 {i0 j0 i1 j1 bi0 bj0 bi1 bj1 : Int} (hb : ArrOK m (sCell2 t bi0 bj0 bi1 bj1 0)) (ha : Apart w (sCell2 t bi0 bj0 bi1 bj1 0)) (hbi : bi0 ≤ i0 ∧ i0 ≤ i1 ∧ i1 ≤ bi1) (hbj : bj0 ≤ j0 ∧ j0 ≤ j1 ∧ j1 ≤ bj1) :
    Opnd m w [(.J, ⟨j0, j1 + 1, 1⟩), (.I, ⟨i0, i1 + 1, 1⟩)] [(.J, j0, j1), (.I, i0, i1)] (fun _ => 0) (.span (sCell2 t bi0 bj0 bi1 bj1 0)) (F.cell2d t bi0 bj0 bi1 bj1 0) fun p => [p .I, p .J] := by
  refine opnd_span farr_cell2 ⟨by simp, by simp, by geo_omega⟩ (by loop_tac) hb ha ⟨by simp [sCell2], by geo_omega⟩ ?_
  intro p hp; simp [sCell2]

theorem makeSpan_cell2 {i0 j0 i1 j1 : Int} : makeSpan t [(.J, ⟨j0, j1 + 1, 1⟩), (.I, ⟨i0, i1 + 1, 1⟩)] = sCell2 t i0 j0 i1 j1 0 := by
  simp [makeSpan, sCell2, Bounds.unitStride]

theorem face_at21 {i0 j0 i1 j1 pi0 pi1 l s e : Int} (hb : ArrOK m (sFace21 t i0 j0 i1 j1)) (ha : Apart w (sFace21 t i0 j0 i1 j1)) (hl : j0 ≤ l ∧ l ≤ j1)
    (hi : i0 ≤ pi0 ∧ pi0 ≤ pi1 ∧ pi1 ≤ i1) (hs : s = 0 ∨ s = 1) (he : e = l + s) :
    Opnd m w [(.J, ⟨l, l + 1, 1⟩), (.I, ⟨pi0, pi1 + 1, 1⟩)] [(.I, pi0, pi1)] (fun _ => l) (.shift .J s (.span (sFace21 t i0 j0 i1 j1)))
      (F.face2d1 t i0 j0 i1 j1 0) fun p => [e, p .I] := by
  refine opnd_shift farr_face21 ⟨by simp, by simp, by geo_omega⟩ (by loop_tac) hb ha ?_ ?_ ?_
  · have hi := hb.geo.int
    simp [sFace21, InInt] at hi ⊢
    omega
  · exact ⟨by simp [sFace21, shiftDom]; decide, by geo_omega⟩
  · intro p hp
    have := nest_fix (by simp) hp (d := Dim.J) (by simp)
    simp [sFace21, shiftPt, this, he]

theorem cell_at21 {i0 j0 i1 j1 g pi0 pi1 l s e : Int} (hb : ArrOK m (sCell2 t i0 j0 i1 j1 g)) (ha : Apart w (sCell2 t i0 j0 i1 j1 g)) (hl : j0 ≤ l ∧ l ≤ j1)
    (hi : i0 ≤ pi0 ∧ pi0 ≤ pi1 ∧ pi1 ≤ i1) (hg : 1 ≤ g) (hs : s = -1 ∨ s = 1) (he : e = l + s) :
    Opnd m w [(.J, ⟨l, l + 1, 1⟩), (.I, ⟨pi0, pi1 + 1, 1⟩)] [(.I, pi0, pi1)] (fun _ => l) (.shift .J s (.span (sCell2 t i0 j0 i1 j1 g)))
      (F.cell2d t i0 j0 i1 j1 g) fun p => [p .I, e] := by
  refine opnd_shift farr_cell2 ⟨by simp, by simp, by geo_omega⟩ (by loop_tac) hb ha ?_ ?_ ?_
  · have hi := hb.geo.int
    simp [sCell2, InInt] at hi ⊢
    omega
  · exact ⟨by simp [sCell2, shiftDom], by geo_omega⟩
  · intro p hp
    have := nest_fix (by simp) hp (d := Dim.J) (by simp)
    simp [sCell2, shiftPt, this, he]

theorem face_on21 {i0 j0 i1 j1 pi0 pi1 l e : Int} (hb : ArrOK m (sFace21 t i0 j0 i1 j1)) (ha : Apart w (sFace21 t i0 j0 i1 j1)) (hl : j0 ≤ l ∧ l ≤ j1 + 1)
    (hi : i0 ≤ pi0 ∧ pi0 ≤ pi1 ∧ pi1 ≤ i1) (he : e = l) :
    Opnd m w [(.J, ⟨l, l + 1, 1⟩), (.I, ⟨pi0, pi1 + 1, 1⟩)] [(.I, pi0, pi1)] (fun _ => l) (.span (sFace21 t i0 j0 i1 j1))
      (F.face2d1 t i0 j0 i1 j1 0) fun p => [e, p .I] := by
  refine opnd_span farr_face21 ⟨by simp, by simp, by geo_omega⟩ (by loop_tac) hb ha ?_ ?_
  · exact ⟨by simp [sFace21]; decide, by geo_omega⟩
  · intro p hp
    have := nest_fix (by simp) hp (d := Dim.J) (by simp)
    simp [sFace21, this, he]

theorem cell_on21 {i0 j0 i1 j1 pi0 pi1 l e : Int} (hl : j0 ≤ l ∧ l ≤ j1)
    (hi : i0 ≤ pi0 ∧ pi0 ≤ pi1 ∧ pi1 ≤ i1) (he : e = l) :
    Within (sCell2 t i0 j0 i1 j1 0).geo [(.J, ⟨l, l + 1, 1⟩), (.I, ⟨pi0, pi1 + 1, 1⟩)] ∧ ∀ p ∈ F.nestPts [(.I, pi0, pi1)] (fun _ => l), ((sCell2 t i0 j0 i1 j1 0).geo.map fun x => p x.1).reverse = [p .I, e] := by
  refine ⟨⟨by simp [sCell2], by geo_omega⟩, fun p hp => ?_⟩
  have := nest_fix (by simp) hp (d := Dim.J) (by simp)
  simp [sCell2, this, he]

theorem edge21 {i0 j0 i1 j1 bi0 bj0 bi1 bj1 : Int} (hb : ArrOK m (sFace21 t bi0 bj0 bi1 bj1)) (ha : Apart w (sFace21 t bi0 bj0 bi1 bj1)) (hbi : bi0 ≤ i0 ∧ i0 ≤ i1 ∧ i1 ≤ bi1) (hbj : bj0 ≤ j0 ∧ j0 ≤ j1 ∧ j1 ≤ bj1) :
    Edge m w [(.J, ⟨j0, j1 + 1, 1⟩), (.I, ⟨i0, i1 + 1, 1⟩)] [(.J, j0, j1), (.I, i0, i1)] (fun _ => 0) .J (sFace21 t bi0 bj0 bi1 bj1) (F.face2d1 t bi0 bj0 bi1 bj1 0) (fun p => [p .J, p .I]) (fun p => [p .J + 1, p .I]) := by
  refine edge_of farr_face21 ⟨by simp, by simp, by geo_omega⟩ hb ha (by simp) ⟨by simp [sFace21, extDom]; decide, ?_⟩ ?_ ?_
  · simp [sFace21, extDom, InDom, IsPoint, InRange]
    omega
  · intro p hp; simp [sFace21]
  · intro p hp; simp [sFace21, shiftPt]

theorem face_at30 {i0 j0 k0 i1 j1 k1 pj0 pj1 pk0 pk1 l s e : Int} (hb : ArrOK m (sFace30 t i0 j0 k0 i1 j1 k1)) (ha : Apart w (sFace30 t i0 j0 k0 i1 j1 k1)) (hl : i0 ≤ l ∧ l ≤ i1)
    (hj : j0 ≤ pj0 ∧ pj0 ≤ pj1 ∧ pj1 ≤ j1) (hk : k0 ≤ pk0 ∧ pk0 ≤ pk1 ∧ pk1 ≤ k1) (hs : s = 0 ∨ s = 1) (he : e = l + s) :
    Opnd m w [(.K, ⟨pk0, pk1 + 1, 1⟩), (.J, ⟨pj0, pj1 + 1, 1⟩), (.I, ⟨l, l + 1, 1⟩)] [(.K, pk0, pk1), (.J, pj0, pj1)] (fun _ => l) (.shift .I s (.span (sFace30 t i0 j0 k0 i1 j1 k1)))
      (F.face3d0 t i0 j0 k0 i1 j1 k1 0) fun p => [e, p .J, p .K] := by
  refine opnd_shift farr_face30 ⟨by simp, by simp, by geo_omega⟩ (by loop_tac) hb ha ?_ ?_ ?_
  · have hi := hb.geo.int
    simp [sFace30, InInt] at hi ⊢
    omega
  · exact ⟨by simp [sFace30, shiftDom], by geo_omega⟩
  · intro p hp
    have := nest_fix (by simp) hp (d := Dim.I) (by simp)
    simp [sFace30, shiftPt, this, he]

theorem cell_at30 {i0 j0 k0 i1 j1 k1 g pj0 pj1 pk0 pk1 l s e : Int} (hb : ArrOK m (sCell3 t i0 j0 k0 i1 j1 k1 g)) (ha : Apart w (sCell3 t i0 j0 k0 i1 j1 k1 g)) (hl : i0 ≤ l ∧ l ≤ i1)
    (hj : j0 ≤ pj0 ∧ pj0 ≤ pj1 ∧ pj1 ≤ j1) (hk : k0 ≤ pk0 ∧ pk0 ≤ pk1 ∧ pk1 ≤ k1) (hg : 1 ≤ g) (hs : s = -1 ∨ s = 1) (he : e = l + s) :
    Opnd m w [(.K, ⟨pk0, pk1 + 1, 1⟩), (.J, ⟨pj0, pj1 + 1, 1⟩), (.I, ⟨l, l + 1, 1⟩)] [(.K, pk0, pk1), (.J, pj0, pj1)] (fun _ => l) (.shift .I s (.span (sCell3 t i0 j0 k0 i1 j1 k1 g)))
      (F.cell3d t i0 j0 k0 i1 j1 k1 g) fun p => [e, p .J, p .K] := by
  refine opnd_shift farr_cell3 ⟨by simp, by simp, by geo_omega⟩ (by loop_tac) hb ha ?_ ?_ ?_
  · have hi := hb.geo.int
    simp [sCell3, InInt] at hi ⊢
    omega
  · exact ⟨by simp [sCell3, shiftDom], by geo_omega⟩
  · intro p hp
    have := nest_fix (by simp) hp (d := Dim.I) (by simp)
    simp [sCell3, shiftPt, this, he]

theorem face_on30 {i0 j0 k0 i1 j1 k1 pj0 pj1 pk0 pk1 l e : Int} (hb : ArrOK m (sFace30 t i0 j0 k0 i1 j1 k1)) (ha : Apart w (sFace30 t i0 j0 k0 i1 j1 k1)) (hl : i0 ≤ l ∧ l ≤ i1 + 1)
    (hj : j0 ≤ pj0 ∧ pj0 ≤ pj1 ∧ pj1 ≤ j1) (hk : k0 ≤ pk0 ∧ pk0 ≤ pk1 ∧ pk1 ≤ k1) (he : e = l) :
    Opnd m w [(.K, ⟨pk0, pk1 + 1, 1⟩), (.J, ⟨pj0, pj1 + 1, 1⟩), (.I, ⟨l, l + 1, 1⟩)] [(.K, pk0, pk1), (.J, pj0, pj1)] (fun _ => l) (.span (sFace30 t i0 j0 k0 i1 j1 k1))
      (F.face3d0 t i0 j0 k0 i1 j1 k1 0) fun p => [e, p .J, p .K] := by
  refine opnd_span farr_face30 ⟨by simp, by simp, by geo_omega⟩ (by loop_tac) hb ha ?_ ?_
  · exact ⟨by simp [sFace30], by geo_omega⟩
  · intro p hp
    have := nest_fix (by simp) hp (d := Dim.I) (by simp)
    simp [sFace30, this, he]

theorem cell_on30 {i0 j0 k0 i1 j1 k1 pj0 pj1 pk0 pk1 l e : Int} (hl : i0 ≤ l ∧ l ≤ i1)
    (hj : j0 ≤ pj0 ∧ pj0 ≤ pj1 ∧ pj1 ≤ j1) (hk : k0 ≤ pk0 ∧ pk0 ≤ pk1 ∧ pk1 ≤ k1) (he : e = l) :
    Within (sCell3 t i0 j0 k0 i1 j1 k1 0).geo [(.K, ⟨pk0, pk1 + 1, 1⟩), (.J, ⟨pj0, pj1 + 1, 1⟩), (.I, ⟨l, l + 1, 1⟩)] ∧ ∀ p ∈ F.nestPts [(.K, pk0, pk1), (.J, pj0, pj1)] (fun _ => l), ((sCell3 t i0 j0 k0 i1 j1 k1 0).geo.map fun x => p x.1).reverse = [e, p .J, p .K] := by
  refine ⟨⟨by simp [sCell3], by geo_omega⟩, fun p hp => ?_⟩
  have := nest_fix (by simp) hp (d := Dim.I) (by simp)
  simp [sCell3, this, he]

theorem edge30 {i0 j0 k0 i1 j1 k1 bi0 bj0 bk0 bi1 bj1 bk1 : Int} (hb : ArrOK m (sFace30 t bi0 bj0 bk0 bi1 bj1 bk1)) (ha : Apart w (sFace30 t bi0 bj0 bk0 bi1 bj1 bk1)) (hbi : bi0 ≤ i0 ∧ i0 ≤ i1 ∧ i1 ≤ bi1) (hbj : bj0 ≤ j0 ∧ j0 ≤ j1 ∧ j1 ≤ bj1) (hbk : bk0 ≤ k0 ∧ k0 ≤ k1 ∧ k1 ≤ bk1) :
    Edge m w [(.K, ⟨k0, k1 + 1, 1⟩), (.J, ⟨j0, j1 + 1, 1⟩), (.I, ⟨i0, i1 + 1, 1⟩)] [(.K, k0, k1), (.J, j0, j1), (.I, i0, i1)] (fun _ => 0) .I (sFace30 t bi0 bj0 bk0 bi1 bj1 bk1) (F.face3d0 t bi0 bj0 bk0 bi1 bj1 bk1 0) (fun p => [p .I, p .J, p .K]) (fun p => [p .I + 1, p .J, p .K]) := by
  refine edge_of farr_face30 ⟨by simp, by simp, by geo_omega⟩ hb ha (by simp) ⟨by simp [sFace30, extDom], ?_⟩ ?_ ?_
  · simp [sFace30, extDom, InDom, IsPoint, InRange]
    omega
  · intro p hp; simp [sFace30]
  · intro p hp; simp [sFace30, shiftPt]

theorem cell_box3 {i0 j0 k0 i1 j1 k1 bi0 bj0 bk0 bi1 bj1 bk1 : Int} (hb : ArrOK m (sCell3 t bi0 bj0 bk0 bi1 bj1 bk1 0)) (ha : Apart w (sCell3 t bi0 bj0 bk0 bi1 bj1 bk1 0)) (hbi : bi0 ≤ i0 ∧ i0 ≤ i1 ∧ i1 ≤ bi1) (hbj : bj0 ≤ j0 ∧ j0 ≤ j1 ∧ j1 ≤ bj1) (hbk : bk0 ≤ k0 ∧ k0 ≤ k1 ∧ k1 ≤ bk1) :
    Opnd m w [(.K, ⟨k0, k1 + 1, 1⟩), (.J, ⟨j0, j1 + 1, 1⟩), (.I, ⟨i0, i1 + 1, 1⟩)] [(.K, k0, k1), (.J, j0, j1), (.I, i0, i1)] (fun _ => 0) (.span (sCell3 t bi0 bj0 bk0 bi1 bj1 bk1 0)) (F.cell3d t bi0 bj0 bk0 bi1 bj1 bk1 0) fun p => [p .I, p .J, p .K] := by
  refine opnd_span farr_cell3 ⟨by simp, by simp, by geo_omega⟩ (by loop_tac) hb ha ⟨by simp [sCell3], by geo_omega⟩ ?_
  intro p hp; simp [sCell3]

theorem makeSpan_cell3 {i0 j0 k0 i1 j1 k1 : Int} : makeSpan t [(.K, ⟨k0, k1 + 1, 1⟩), (.J, ⟨j0, j1 + 1, 1⟩), (.I, ⟨i0, i1 + 1, 1⟩)] = sCell3 t i0 j0 k0 i1 j1 k1 0 := by
  simp [makeSpan, sCell3, Bounds.unitStride]

theorem face_at31 {i0 j0 k0 i1 j1 k1 pi0 pi1 pk0 pk1 l s e : Int} (hb : ArrOK m (sFace31 t i0 j0 k0 i1 j1 k1)) (ha : Apart w (sFace31 t i0 j0 k0 i1 j1 k1)) (hl : j0 ≤ l ∧ l ≤ j1)
    (hi : i0 ≤ pi0 ∧ pi0 ≤ pi1 ∧ pi1 ≤ i1) (hk : k0 ≤ pk0 ∧ pk0 ≤ pk1 ∧ pk1 ≤ k1) (hs : s = 0 ∨ s = 1) (he : e = l + s) :
    Opnd m w [(.K, ⟨pk0, pk1 + 1, 1⟩), (.J, ⟨l, l + 1, 1⟩), (.I, ⟨pi0, pi1 + 1, 1⟩)] [(.K, pk0, pk1), (.I, pi0, pi1)] (fun _ => l) (.shift .J s (.span (sFace31 t i0 j0 k0 i1 j1 k1)))
      (F.face3d1 t i0 j0 k0 i1 j1 k1 0) fun p => [e, p .K, p .I] := by
  refine opnd_shift farr_face31 ⟨by simp, by simp, by geo_omega⟩ (by loop_tac) hb ha ?_ ?_ ?_
  · have hi := hb.geo.int
    simp [sFace31, InInt] at hi ⊢
    omega
  · exact ⟨by simp [sFace31, shiftDom]; decide, by geo_omega⟩
  · intro p hp
    have := nest_fix (by simp) hp (d := Dim.J) (by simp)
    simp [sFace31, shiftPt, this, he]

theorem cell_at31 {i0 j0 k0 i1 j1 k1 g pi0 pi1 pk0 pk1 l s e : Int} (hb : ArrOK m (sCell3 t i0 j0 k0 i1 j1 k1 g)) (ha : Apart w (sCell3 t i0 j0 k0 i1 j1 k1 g)) (hl : j0 ≤ l ∧ l ≤ j1)
    (hi : i0 ≤ pi0 ∧ pi0 ≤ pi1 ∧ pi1 ≤ i1) (hk : k0 ≤ pk0 ∧ pk0 ≤ pk1 ∧ pk1 ≤ k1) (hg : 1 ≤ g) (hs : s = -1 ∨ s = 1) (he : e = l + s) :
    Opnd m w [(.K, ⟨pk0, pk1 + 1, 1⟩), (.J, ⟨l, l + 1, 1⟩), (.I, ⟨pi0, pi1 + 1, 1⟩)] [(.K, pk0, pk1), (.I, pi0, pi1)] (fun _ => l) (.shift .J s (.span (sCell3 t i0 j0 k0 i1 j1 k1 g)))
      (F.cell3d t i0 j0 k0 i1 j1 k1 g) fun p => [p .I, e, p .K] := by
  refine opnd_shift farr_cell3 ⟨by simp, by simp, by geo_omega⟩ (by loop_tac) hb ha ?_ ?_ ?_
  · have hi := hb.geo.int
    simp [sCell3, InInt] at hi ⊢
    omega
  · exact ⟨by simp [sCell3, shiftDom], by geo_omega⟩
  · intro p hp
    have := nest_fix (by simp) hp (d := Dim.J) (by simp)
    simp [sCell3, shiftPt, this, he]

theorem face_on31 {i0 j0 k0 i1 j1 k1 pi0 pi1 pk0 pk1 l e : Int} (hb : ArrOK m (sFace31 t i0 j0 k0 i1 j1 k1)) (ha : Apart w (sFace31 t i0 j0 k0 i1 j1 k1)) (hl : j0 ≤ l ∧ l ≤ j1 + 1)
    (hi : i0 ≤ pi0 ∧ pi0 ≤ pi1 ∧ pi1 ≤ i1) (hk : k0 ≤ pk0 ∧ pk0 ≤ pk1 ∧ pk1 ≤ k1) (he : e = l) :
    Opnd m w [(.K, ⟨pk0, pk1 + 1, 1⟩), (.J, ⟨l, l + 1, 1⟩), (.I, ⟨pi0, pi1 + 1, 1⟩)] [(.K, pk0, pk1), (.I, pi0, pi1)] (fun _ => l) (.span (sFace31 t i0 j0 k0 i1 j1 k1))
      (F.face3d1 t i0 j0 k0 i1 j1 k1 0) fun p => [e, p .K, p .I] := by
  refine opnd_span farr_face31 ⟨by simp, by simp, by geo_omega⟩ (by loop_tac) hb ha ?_ ?_
  · exact ⟨by simp [sFace31]; decide, by geo_omega⟩
  · intro p hp
    have := nest_fix (by simp) hp (d := Dim.J) (by simp)
    simp [sFace31, this, he]

theorem cell_on31 {i0 j0 k0 i1 j1 k1 pi0 pi1 pk0 pk1 l e : Int} (hl : j0 ≤ l ∧ l ≤ j1)
    (hi : i0 ≤ pi0 ∧ pi0 ≤ pi1 ∧ pi1 ≤ i1) (hk : k0 ≤ pk0 ∧ pk0 ≤ pk1 ∧ pk1 ≤ k1) (he : e = l) :
    Within (sCell3 t i0 j0 k0 i1 j1 k1 0).geo [(.K, ⟨pk0, pk1 + 1, 1⟩), (.J, ⟨l, l + 1, 1⟩), (.I, ⟨pi0, pi1 + 1, 1⟩)] ∧ ∀ p ∈ F.nestPts [(.K, pk0, pk1), (.I, pi0, pi1)] (fun _ => l), ((sCell3 t i0 j0 k0 i1 j1 k1 0).geo.map fun x => p x.1).reverse = [p .I, e, p .K] := by
  refine ⟨⟨by simp [sCell3], by geo_omega⟩, fun p hp => ?_⟩
  have := nest_fix (by simp) hp (d := Dim.J) (by simp)
  simp [sCell3, this, he]

theorem edge31 {i0 j0 k0 i1 j1 k1 bi0 bj0 bk0 bi1 bj1 bk1 : Int} (hb : ArrOK m (sFace31 t bi0 bj0 bk0 bi1 bj1 bk1)) (ha : Apart w (sFace31 t bi0 bj0 bk0 bi1 bj1 bk1)) (hbi : bi0 ≤ i0 ∧ i0 ≤ i1 ∧ i1 ≤ bi1) (hbj : bj0 ≤ j0 ∧ j0 ≤ j1 ∧ j1 ≤ bj1) (hbk : bk0 ≤ k0 ∧ k0 ≤ k1 ∧ k1 ≤ bk1) :
    Edge m w [(.K, ⟨k0, k1 + 1, 1⟩), (.J, ⟨j0, j1 + 1, 1⟩), (.I, ⟨i0, i1 + 1, 1⟩)] [(.K, k0, k1), (.J, j0, j1), (.I, i0, i1)] (fun _ => 0) .J (sFace31 t bi0 bj0 bk0 bi1 bj1 bk1) (F.face3d1 t bi0 bj0 bk0 bi1 bj1 bk1 0) (fun p => [p .J, p .K, p .I]) (fun p => [p .J + 1, p .K, p .I]) := by
  refine edge_of farr_face31 ⟨by simp, by simp, by geo_omega⟩ hb ha (by simp) ⟨by simp [sFace31, extDom]; decide, ?_⟩ ?_ ?_
  · simp [sFace31, extDom, InDom, IsPoint, InRange]
    omega
  · intro p hp; simp [sFace31]
  · intro p hp; simp [sFace31, shiftPt]

theorem face_at32 {i0 j0 k0 i1 j1 k1 pi0 pi1 pj0 pj1 l s e : Int} (hb : ArrOK m (sFace32 t i0 j0 k0 i1 j1 k1)) (ha : Apart w (sFace32 t i0 j0 k0 i1 j1 k1)) (hl : k0 ≤ l ∧ l ≤ k1)
    (hi : i0 ≤ pi0 ∧ pi0 ≤ pi1 ∧ pi1 ≤ i1) (hj : j0 ≤ pj0 ∧ pj0 ≤ pj1 ∧ pj1 ≤ j1) (hs : s = 0 ∨ s = 1) (he : e = l + s) :
    Opnd m w [(.K, ⟨l, l + 1, 1⟩), (.J, ⟨pj0, pj1 + 1, 1⟩), (.I, ⟨pi0, pi1 + 1, 1⟩)] [(.J, pj0, pj1), (.I, pi0, pi1)] (fun _ => l) (.shift .K s (.span (sFace32 t i0 j0 k0 i1 j1 k1)))
      (F.face3d2 t i0 j0 k0 i1 j1 k1 0) fun p => [e, p .I, p .J] := by
  refine opnd_shift farr_face32 ⟨by simp, by simp, by geo_omega⟩ (by loop_tac) hb ha ?_ ?_ ?_
  · have hi := hb.geo.int
    simp [sFace32, InInt] at hi ⊢
    omega
  · exact ⟨by simp [sFace32, shiftDom]; decide, by geo_omega⟩
  · intro p hp
    have := nest_fix (by simp) hp (d := Dim.K) (by simp)
    simp [sFace32, shiftPt, this, he]

theorem cell_at32 {i0 j0 k0 i1 j1 k1 g pi0 pi1 pj0 pj1 l s e : Int} (hb : ArrOK m (sCell3 t i0 j0 k0 i1 j1 k1 g)) (ha : Apart w (sCell3 t i0 j0 k0 i1 j1 k1 g)) (hl : k0 ≤ l ∧ l ≤ k1)
    (hi : i0 ≤ pi0 ∧ pi0 ≤ pi1 ∧ pi1 ≤ i1) (hj : j0 ≤ pj0 ∧ pj0 ≤ pj1 ∧ pj1 ≤ j1) (hg : 1 ≤ g) (hs : s = -1 ∨ s = 1) (he : e = l + s) :
    Opnd m w [(.K, ⟨l, l + 1, 1⟩), (.J, ⟨pj0, pj1 + 1, 1⟩), (.I, ⟨pi0, pi1 + 1, 1⟩)] [(.J, pj0, pj1), (.I, pi0, pi1)] (fun _ => l) (.shift .K s (.span (sCell3 t i0 j0 k0 i1 j1 k1 g)))
      (F.cell3d t i0 j0 k0 i1 j1 k1 g) fun p => [p .I, p .J, e] := by
  refine opnd_shift farr_cell3 ⟨by simp, by simp, by geo_omega⟩ (by loop_tac) hb ha ?_ ?_ ?_
  · have hi := hb.geo.int
    simp [sCell3, InInt] at hi ⊢
    omega
  · exact ⟨by simp [sCell3, shiftDom], by geo_omega⟩
  · intro p hp
    have := nest_fix (by simp) hp (d := Dim.K) (by simp)
    simp [sCell3, shiftPt, this, he]

theorem face_on32 {i0 j0 k0 i1 j1 k1 pi0 pi1 pj0 pj1 l e : Int} (hb : ArrOK m (sFace32 t i0 j0 k0 i1 j1 k1)) (ha : Apart w (sFace32 t i0 j0 k0 i1 j1 k1)) (hl : k0 ≤ l ∧ l ≤ k1 + 1)
    (hi : i0 ≤ pi0 ∧ pi0 ≤ pi1 ∧ pi1 ≤ i1) (hj : j0 ≤ pj0 ∧ pj0 ≤ pj1 ∧ pj1 ≤ j1) (he : e = l) :
    Opnd m w [(.K, ⟨l, l + 1, 1⟩), (.J, ⟨pj0, pj1 + 1, 1⟩), (.I, ⟨pi0, pi1 + 1, 1⟩)] [(.J, pj0, pj1), (.I, pi0, pi1)] (fun _ => l) (.span (sFace32 t i0 j0 k0 i1 j1 k1))
      (F.face3d2 t i0 j0 k0 i1 j1 k1 0) fun p => [e, p .I, p .J] := by
  refine opnd_span farr_face32 ⟨by simp, by simp, by geo_omega⟩ (by loop_tac) hb ha ?_ ?_
  · exact ⟨by simp [sFace32]; decide, by geo_omega⟩
  · intro p hp
    have := nest_fix (by simp) hp (d := Dim.K) (by simp)
    simp [sFace32, this, he]

theorem cell_on32 {i0 j0 k0 i1 j1 k1 pi0 pi1 pj0 pj1 l e : Int} (hl : k0 ≤ l ∧ l ≤ k1)
    (hi : i0 ≤ pi0 ∧ pi0 ≤ pi1 ∧ pi1 ≤ i1) (hj : j0 ≤ pj0 ∧ pj0 ≤ pj1 ∧ pj1 ≤ j1) (he : e = l) :
    Within (sCell3 t i0 j0 k0 i1 j1 k1 0).geo [(.K, ⟨l, l + 1, 1⟩), (.J, ⟨pj0, pj1 + 1, 1⟩), (.I, ⟨pi0, pi1 + 1, 1⟩)] ∧ ∀ p ∈ F.nestPts [(.J, pj0, pj1), (.I, pi0, pi1)] (fun _ => l), ((sCell3 t i0 j0 k0 i1 j1 k1 0).geo.map fun x => p x.1).reverse = [p .I, p .J, e] := by
  refine ⟨⟨by simp [sCell3], by geo_omega⟩, fun p hp => ?_⟩
  have := nest_fix (by simp) hp (d := Dim.K) (by simp)
  simp [sCell3, this, he]

theorem edge32 {i0 j0 k0 i1 j1 k1 bi0 bj0 bk0 bi1 bj1 bk1 : Int} (hb : ArrOK m (sFace32 t bi0 bj0 bk0 bi1 bj1 bk1)) (ha : Apart w (sFace32 t bi0 bj0 bk0 bi1 bj1 bk1)) (hbi : bi0 ≤ i0 ∧ i0 ≤ i1 ∧ i1 ≤ bi1) (hbj : bj0 ≤ j0 ∧ j0 ≤ j1 ∧ j1 ≤ bj1) (hbk : bk0 ≤ k0 ∧ k0 ≤ k1 ∧ k1 ≤ bk1) :
    Edge m w [(.K, ⟨k0, k1 + 1, 1⟩), (.J, ⟨j0, j1 + 1, 1⟩), (.I, ⟨i0, i1 + 1, 1⟩)] [(.K, k0, k1), (.J, j0, j1), (.I, i0, i1)] (fun _ => 0) .K (sFace32 t bi0 bj0 bk0 bi1 bj1 bk1) (F.face3d2 t bi0 bj0 bk0 bi1 bj1 bk1 0) (fun p => [p .K, p .I, p .J]) (fun p => [p .K + 1, p .I, p .J]) := by
  refine edge_of farr_face32 ⟨by simp, by simp, by geo_omega⟩ hb ha (by simp) ⟨by simp [sFace32, extDom]; decide, ?_⟩ ?_ ?_
  · simp [sFace32, extDom, InDom, IsPoint, InRange]
    omega
  · intro p hp; simp [sFace32]
  · intro p hp; simp [sFace32, shiftPt]

end

/-! ### the statements of the lambdas -/

section
variable [Zero T] [One T] [NatCast T] [IntCast T] [Add T] [Sub T] [Mul T] [Div T] [Neg T] [Pow T Nat] {m : Mem T} {w : Span} {n : Int} {D : List DB} {r : List (Dim × Int × Int)} {p0 : Pt} {idx : Pt → List Int} {β : Backend}

/-- side conditions of the statement lemmas -/
macro "leaf" : tactic => `(tactic| first
  | (intros; simp only [F.mul_def, F.sub_def, F.div_def, F.add_def, F.neg_def, F.Expr.evalT]; done)
  | (intros; simp only [F.mul_def, F.sub_def, F.div_def, F.add_def, F.neg_def, F.Expr.refs, List.append_nil, List.nil_append]; done)
  | (intro x y z hz; simp only [F.mul_def, F.sub_def, F.div_def, F.add_def, F.neg_def, F.Expr.refs, List.append_nil, List.nil_append, List.mem_append] at hz ⊢; tauto)
  | (intro y z hz; simp only [F.mul_def, F.sub_def, F.div_def, F.add_def, F.neg_def, F.Expr.refs, List.append_nil, List.nil_append, List.mem_append] at hz ⊢; tauto))

/-- the same with the identity of the arithmetic that the statement needs -/
macro "leaf_by" h:term : tactic => `(tactic| (intros; simp only [F.mul_def, F.sub_def, F.div_def, F.add_def, F.neg_def, F.Expr.evalT]; rw [$h:term]))

theorem diag4 (h : Seg m w n D r p0 idx) (hn : 0 < n) (hβ : ValidBackend β) {a : Acc} {arr : F.Arr} {bidx : Pt → List Int} (ho : Opnd m w D r p0 a arr bidx)
    {hh beta : T} (law : ∀ b : T, beta / hh * b = beta * b / hh) :
    Both (Cuda.adjDiagBt4 2 hh w (beta / hh) a D β m)
      (F.nest (fun p => F.assign (farr w) (0 :: idx p) ((farr w).el (0 :: idx p) -
        (F.Expr.const beta * arr.el (bidx p) / F.Expr.const hh * (F.Expr.const (3 * hh) + F.Expr.const 16 * arr.el (bidx p))))) r p0) m :=
  (h.pe hβ (u := 0) ⟨le_rfl, hn⟩ ho (f := (· - ·)) (e := .zip (arith (· * ·)) (.right (arith (· * ·)) (beta / hh) (.acc a)) (.right (arith (· + ·)) (3 * hh) (.right (arith (· * ·)) (16) (.acc a))))
    (g := fun b => beta / hh * b * (3 * hh + 16 * b))
    (fe := fun x y => x - (F.Expr.const beta * y / F.Expr.const hh * (F.Expr.const (3 * hh) + F.Expr.const 16 * y)))
    (fun h => ⟨h, h⟩) (fun s hs => by rcases List.mem_append.1 hs with hs | hs <;> exact List.mem_singleton.1 hs)
    (.zip (.right .acc opShape_arith_num) (.right (.right .acc opShape_arith_num) opShape_arith_num) opShape_arith_num) rfl (fun m1 p => rfl) (by first | leaf | leaf_by law) (by first | leaf | leaf_by law)).both

theorem diag0 (h : Seg m w n D r p0 idx) (hn : 0 < n) (hβ : ValidBackend β) {a : Acc} {arr : F.Arr} {bidx : Pt → List Int} (ho : Opnd m w D r p0 a arr bidx)
    {hh beta : T} (law : ∀ b : T, beta / (3 * hh * hh) * b = beta * b / (3 * hh ^ 2)) :
    Both (Cuda.adjDiagBt0 2 w (beta / (3 * hh * hh)) a D β m)
      (F.nest (fun p => F.assign (farr w) (0 :: idx p) ((farr w).el (0 :: idx p) + F.Expr.const beta * arr.el (bidx p) / F.Expr.const (3 * hh ^ 2))) r p0) m :=
  (h.pe hβ (u := 0) ⟨le_rfl, hn⟩ ho (f := (· + ·)) (e := .right (arith (· * ·)) (beta / (3 * hh * hh)) (.acc a)) (g := fun b => beta / (3 * hh * hh) * b)
    (fe := fun x y => x + F.Expr.const beta * y / F.Expr.const (3 * hh ^ 2))
    (fun h => h) (fun s hs => List.mem_singleton.1 hs) (.right .acc opShape_arith_num) rfl (fun m1 p => rfl) (by first | leaf | leaf_by law) (by first | leaf | leaf_by law)).both

theorem pdiag4 (h : Seg m w n D r p0 idx) (hn : 0 < n) (hβ : ValidBackend β) {hh beta : T} :
    Both (Cuda.adjPoissonDiagBt4 hh w (beta / hh) D β m)
      (F.nest (fun p => F.assign (farr w) (0 :: idx p) ((farr w).el (0 :: idx p) - F.Expr.const (beta / hh * (3 * hh + 16)))) r p0) m :=
  (h.pn hβ (u := 0) ⟨le_rfl, hn⟩ (f := (· - ·)) (fe := fun x => x - F.Expr.const (beta / hh * (3 * hh + 16))) (by leaf) (by leaf)).both

theorem pdiag0 (h : Seg m w n D r p0 idx) (hn : 0 < n) (hβ : ValidBackend β) {hh beta : T} (law : beta / (3 * hh * hh) = beta / (3 * hh ^ 2)) :
    Both (Cuda.adjPoissonDiagBt0 w (beta / (3 * hh * hh)) D β m)
      (F.nest (fun p => F.assign (farr w) (0 :: idx p) ((farr w).el (0 :: idx p) + F.Expr.const (beta / (3 * hh ^ 2)))) r p0) m :=
  (h.pn hβ (u := 0) ⟨le_rfl, hn⟩ (f := (· + ·)) (fe := fun x => x + F.Expr.const (beta / (3 * hh ^ 2))) (by first | leaf | leaf_by law) (by first | leaf | leaf_by law)).both

theorem cf1 (h : Seg m w n D r p0 idx) (hn : 0 < n) (hβ : ValidBackend β) {a : Acc} {arr : F.Arr} {bidx : Pt → List Int} (ho : Opnd m w D r p0 a arr bidx)
    {hh beta dr : T} (law : ∀ b : T, beta / (hh * hh) / 3 * b = beta * b / (3 * hh ^ 2)) :
    Both (Cuda.adjCfDiagFunc 1 w (beta / (hh * hh)) dr a D β m)
      (F.nest (fun p => F.assign (farr w) (0 :: idx p) ((farr w).el (0 :: idx p) - F.Expr.const beta * arr.el (bidx p) / F.Expr.const (3 * hh ^ 2))) r p0) m :=
  (h.pe hβ (u := 0) ⟨le_rfl, hn⟩ ho (f := (· - ·)) (e := .right (arith (· * ·)) (beta / (hh * hh) / 3) (.acc a)) (g := fun b => beta / (hh * hh) / 3 * b)
    (fe := fun x y => x - F.Expr.const beta * y / F.Expr.const (3 * hh ^ 2))
    (fun h => h) (fun s hs => List.mem_singleton.1 hs) (.right .acc opShape_arith_num) rfl (fun m1 p => rfl) (by first | leaf | leaf_by law) (by first | leaf | leaf_by law)).both

theorem cf2 (h : Seg m w n D r p0 idx) (hn : 0 < n) (hβ : ValidBackend β) {a : Acc} {arr : F.Arr} {bidx : Pt → List Int} (ho : Opnd m w D r p0 a arr bidx)
    {hh beta dr : T} (law : ∀ b : T, beta / (hh * hh) * dr * b = dr * beta * b / hh ^ 2) :
    Both (Cuda.adjCfDiagFunc 2 w (beta / (hh * hh)) dr a D β m)
      (F.nest (fun p => F.assign (farr w) (0 :: idx p) ((farr w).el (0 :: idx p) - F.Expr.const (dr * beta) * arr.el (bidx p) / F.Expr.const (hh ^ 2))) r p0) m :=
  (h.pe hβ (u := 0) ⟨le_rfl, hn⟩ ho (f := (· - ·)) (e := .right (arith (· * ·)) (beta / (hh * hh) * dr) (.acc a)) (g := fun b => beta / (hh * hh) * dr * b)
    (fe := fun x y => x - F.Expr.const (dr * beta) * y / F.Expr.const (hh ^ 2))
    (fun h => h) (fun s hs => List.mem_singleton.1 hs) (.right .acc opShape_arith_num) rfl (fun m1 p => rfl) (by first | leaf | leaf_by law) (by first | leaf | leaf_by law)).both

theorem pcf1 (h : Seg m w n D r p0 idx) (hn : 0 < n) (hβ : ValidBackend β) {hh beta dr : T} (law : beta / (hh * hh) / 3 = beta / (3 * hh ^ 2)) :
    Both (Cuda.adjPoissonCfDiagFunc 1 w (beta / (hh * hh)) dr D β m)
      (F.nest (fun p => F.assign (farr w) (0 :: idx p) ((farr w).el (0 :: idx p) - F.Expr.const (beta / (3 * hh ^ 2)))) r p0) m :=
  (h.pn hβ (u := 0) ⟨le_rfl, hn⟩ (f := (· - ·)) (fe := fun x => x - F.Expr.const (beta / (3 * hh ^ 2))) (by first | leaf | leaf_by law) (by first | leaf | leaf_by law)).both

theorem pcf2 (h : Seg m w n D r p0 idx) (hn : 0 < n) (hβ : ValidBackend β) {hh beta dr : T} (law : beta / (hh * hh) * dr = dr * beta / hh ^ 2) :
    Both (Cuda.adjPoissonCfDiagFunc 2 w (beta / (hh * hh)) dr D β m)
      (F.nest (fun p => F.assign (farr w) (0 :: idx p) ((farr w).el (0 :: idx p) - F.Expr.const (dr * beta / hh ^ 2))) r p0) m :=
  (h.pn hβ (u := 0) ⟨le_rfl, hn⟩ (f := (· - ·)) (fe := fun x => x - F.Expr.const (dr * beta / hh ^ 2)) (by first | leaf | leaf_by law) (by first | leaf | leaf_by law)).both

theorem off4_1 (h : Seg m w n D r p0 idx) (hβ : ValidBackend β) {u v : Int} (hu : 0 ≤ u ∧ u < n) {a : Acc} {arr : F.Arr} {bidx : Pt → List Int}
    (ho : Opnd m w D r p0 a arr bidx) {hh beta : T} (law : ∀ x y : T, x * y = y * x) :
    Both (Cuda.adjOffdiagBt4 1 hh beta u v w a D β m)
      (F.nest (fun p => F.assign (farr w) (u :: idx p)
        (F.Expr.const (2 * hh) / (F.Expr.const 4 * arr.el (bidx p) + F.Expr.const hh) * (farr w).el (u :: idx p))) r p0) m :=
  (h.pe hβ hu ho (f := (· * ·)) (e := .right (arith (· / ·)) (2 * hh) (.left (arith (· + ·)) (.right (arith (· * ·)) (4) (.acc a)) hh)) (g := fun b => 2 * hh / (4 * b + hh))
    (fe := fun x y => F.Expr.const (2 * hh) / (F.Expr.const 4 * y + F.Expr.const hh) * x)
    (fun h => h) (fun s hs => List.mem_singleton.1 hs) (.right (.left (.right .acc opShape_arith_num) opShape_arith_num) opShape_arith_num) rfl
    (fun m1 p => rfl) (by first | leaf | leaf_by law) (by first | leaf | leaf_by law)).both

theorem off4_2 (h : Seg m w n D r p0 idx) (hβ : ValidBackend β) {u v : Int} (hu : 0 ≤ u ∧ u < n) (hv : 0 ≤ v ∧ v < n) {a : Acc} {arr : F.Arr}
    {bidx : Pt → List Int} (ho : Opnd m w D r p0 a arr bidx) {hh beta : T} (law : ∀ x : T, -9 * x = -(9 * x)) :
    Both (Cuda.adjOffdiagBt4 2 hh beta u v w a D β m)
      (F.nest (fun p => F.block [F.assign (farr w) (u :: idx p)
          (-(F.Expr.const 9 * (F.Expr.const beta * arr.el (bidx p) / (F.Expr.const hh * (F.Expr.const (3 * hh) + F.Expr.const 16 * arr.el (bidx p)))))),
        F.assign (farr w) (v :: idx p) ((farr w).el (v :: idx p) -
          F.Expr.const beta * arr.el (bidx p) / (F.Expr.const hh * (F.Expr.const (3 * hh) + F.Expr.const 16 * arr.el (bidx p))))]) r p0) m :=
  (h.exprTwo hβ hu hv ho (f := (· - ·)) (e := .right (arith (· * ·)) (-9) (.zip (arith (· / ·)) (.right (arith (· * ·)) (beta) (.acc a)) (.right (arith (· * ·)) (hh) (.right (arith (· + ·)) (3 * hh) (.right (arith (· * ·)) (16) (.acc a))))))
    (e' := .zip (arith (· / ·)) (.right (arith (· * ·)) (beta) (.acc a)) (.right (arith (· * ·)) (hh) (.right (arith (· + ·)) (3 * hh) (.right (arith (· * ·)) (16) (.acc a)))))
    (g := fun b => -9 * (beta * b / (hh * (3 * hh + 16 * b)))) (g' := fun b => beta * b / (hh * (3 * hh + 16 * b)))
    (fe := fun y => -(F.Expr.const 9 * (F.Expr.const beta * y / (F.Expr.const hh * (F.Expr.const (3 * hh) + F.Expr.const 16 * y)))))
    (fe' := fun x y => x - F.Expr.const beta * y / (F.Expr.const hh * (F.Expr.const (3 * hh) + F.Expr.const 16 * y)))
    (fun h => ⟨⟨h, h⟩, ⟨h, h⟩⟩) (fun s hs => by
      rcases hs with hs | hs <;> rcases List.mem_append.1 hs with hs | hs <;> exact List.mem_singleton.1 hs)
    ⟨.right (.zip (.right .acc opShape_arith_num) (.right (.right (.right .acc opShape_arith_num) opShape_arith_num) opShape_arith_num) opShape_arith_num)
      opShape_arith_num, .zip (.right .acc opShape_arith_num) (.right (.right (.right .acc opShape_arith_num) opShape_arith_num) opShape_arith_num)
      opShape_arith_num⟩ ⟨rfl, rfl⟩ (fun m1 p => ⟨rfl, rfl⟩) (by first | leaf | leaf_by law) (by first | leaf | leaf_by law) (by first | leaf | leaf_by law) (by first | leaf | leaf_by law)).both

theorem off0_1 (h : Seg m w n D r p0 idx) (hβ : ValidBackend β) {u v : Int} (hu : 0 ≤ u ∧ u < n) {c : T} :
    Both (Cuda.adjOffdiagBt0 1 c u v w D β m)
      (F.nest (fun p => F.assign (farr w) (u :: idx p) ((farr w).el (u :: idx p) * F.Expr.const c)) r p0) m :=
  (h.pn hβ hu (f := (· * ·)) (fe := fun x => x * F.Expr.const c) (by leaf) (by leaf)).both

theorem off0_2 (h : Seg m w n D r p0 idx) (hβ : ValidBackend β) {u v : Int} (hu : 0 ≤ u ∧ u < n) (hv : 0 ≤ v ∧ v < n) {c : T} (law : ∀ x : T, x * (8 / 3) = 8 * x / 3) :
    Both (Cuda.adjOffdiagBt0 2 c u v w D β m)
      (F.nest (fun p => F.block [F.assign (farr w) (v :: idx p) ((farr w).el (v :: idx p) + (farr w).el (u :: idx p) / F.Expr.const 3),
        F.assign (farr w) (u :: idx p) (F.Expr.const 8 * (farr w).el (u :: idx p) / F.Expr.const 3)]) r p0) m :=
  (h.two hβ hu hv (f := (· + ·)) (g := (· / ·)) (k := (· * ·)) (c := 3) (d := 8 / 3) (fe := fun x y => x + y / F.Expr.const 3)
    (fe' := fun x => F.Expr.const 8 * x / F.Expr.const 3) (by first | leaf | leaf_by law) (by first | leaf | leaf_by law) (by first | leaf | leaf_by law) (by first | leaf | leaf_by law)).both

theorem off1 (h : Seg m w n D r p0 idx) (hβ : ValidBackend β) {u : Int} (hu : 0 ≤ u ∧ u < n) :
    Both (Cuda.adjOffdiagBt1 u w D β m) (F.nest (fun p => F.assign (farr w) (u :: idx p) (F.Expr.const 0)) r p0) m :=
  (h.num hβ hu rfl).both

theorem poff4_1 (h : Seg m w n D r p0 idx) (hβ : ValidBackend β) {u v : Int} (hu : 0 ≤ u ∧ u < n) {hh beta : T} (law : ∀ x y : T, x * y = y * x) :
    Both (Cuda.adjPoissonOffdiagBt4 1 hh beta u v w D β m)
      (F.nest (fun p => F.assign (farr w) (u :: idx p) (F.Expr.const (2 * hh / (4 + hh)) * (farr w).el (u :: idx p))) r p0) m :=
  (h.pn hβ hu (f := (· * ·)) (fe := fun x => F.Expr.const (2 * hh / (4 + hh)) * x) (by first | leaf | leaf_by law) (by first | leaf | leaf_by law)).both

theorem poff4_2 (h : Seg m w n D r p0 idx) (hβ : ValidBackend β) {u v : Int} (hu : 0 ≤ u ∧ u < n) (hv : 0 ≤ v ∧ v < n) {hh beta : T} (law : ∀ x : T, -9 * x = -(9 * x)) :
    Both (Cuda.adjPoissonOffdiagBt4 2 hh beta u v w D β m)
      (F.nest (fun p => F.block [F.assign (farr w) (u :: idx p) (F.Expr.const (-(9 * (beta / (hh * (3 * hh + 16)))))),
        F.assign (farr w) (v :: idx p) ((farr w).el (v :: idx p) - F.Expr.const (beta / (hh * (3 * hh + 16))))]) r p0) m :=
  (h.numTwo hβ hu hv (f := (· - ·)) (c := -9 * (beta / (hh * (3 * hh + 16)))) (d := beta / (hh * (3 * hh + 16)))
    (fe := fun x => x - F.Expr.const (beta / (hh * (3 * hh + 16)))) rfl (by first | leaf | leaf_by law) (by first | leaf | leaf_by law) (by first | leaf | leaf_by law)).both

theorem cfo1 (h : Seg m w n D r p0 idx) (hβ : ValidBackend β) {rr u v : Int} (hu : 0 ≤ u ∧ u < n) (law : ∀ x : T, x * (2 / 3) = 2 * x / 3) :
    Both (Cuda.adjCfOffdiagFunc rr 1 u v w D β m)
      (F.nest (fun p => F.assign (farr w) (u :: idx p) (F.Expr.const 2 * (farr w).el (u :: idx p) / F.Expr.const 3)) r p0) m :=
  (h.pn hβ hu (f := (· * ·)) (fe := fun x => F.Expr.const 2 * x / F.Expr.const 3) (by first | leaf | leaf_by law) (by first | leaf | leaf_by law)).both

theorem cfo2 (h : Seg m w n D r p0 idx) (hβ : ValidBackend β) {rr u v : Int} (hu : 0 ≤ u ∧ u < n) (hv : 0 ≤ v ∧ v < n) (law : (∀ x : T, x * (((rr : T) - 1) / ((rr : T) + 3)) = x * ((rr : T) - 1) / ((rr : T) + 3)) ∧ ∀ x : T, x * (8 / (((rr : T) + 1) * ((rr : T) + 3))) = 8 * x / (((rr : T) + 1) * ((rr : T) + 3))) :
    Both (Cuda.adjCfOffdiagFunc rr 2 u v w D β m)
      (F.nest (fun p => F.block [F.assign (farr w) (v :: idx p) ((farr w).el (v :: idx p) -
          (farr w).el (u :: idx p) * F.Expr.const ((rr : T) - 1) / F.Expr.const ((rr : T) + 3)),
        F.assign (farr w) (u :: idx p) (F.Expr.const 8 * (farr w).el (u :: idx p) / F.Expr.const (((rr : T) + 1) * ((rr : T) + 3)))]) r p0) m :=
  (h.two hβ hu hv (f := (· - ·)) (g := (· * ·)) (k := (· * ·)) (c := ((rr : T) - 1) / ((rr : T) + 3)) (d := 8 / (((rr : T) + 1) * ((rr : T) + 3)))
    (fe := fun x y => x - y * F.Expr.const ((rr : T) - 1) / F.Expr.const ((rr : T) + 3))
    (fe' := fun x => F.Expr.const 8 * x / F.Expr.const (((rr : T) + 1) * ((rr : T) + 3))) (by first | leaf | leaf_by law.1 | leaf_by law.2) (by first | leaf | leaf_by law.1 | leaf_by law.2) (by first | leaf | leaf_by law.1 | leaf_by law.2) (by first | leaf | leaf_by law.1 | leaf_by law.2)).both

end

/-! ### whole boxes -/

section
variable [Zero T] [One T] [Add T] [Sub T] [Mul T] [Div T] [Neg T] {m : Mem T} {w : Span} {n : Int} {D : List DB} {r : List (Dim × Int × Int)} {p0 : Pt} {idx : Pt → List Int} {β : Backend}

/-- `tuple(st(u), st(v)) = c * b.stencil` -/
structure Pair (T : Type) where
  u : Int
  v : Int
  c : T
  d : Dim
  b : Span
  arr : F.Arr
  lo : Pt → List Int
  hi : Pt → List Int

theorem Seg.pairs (h : Seg m w n D r p0 idx) (hβ : ValidBackend β) (L : List (Pair T)) (hL : ∀ x ∈ L, (0 ≤ x.u ∧ x.u < n) ∧ (0 ≤ x.v ∧ x.v < n) ∧
      Edge m w D r p0 x.d x.b x.arr x.lo x.hi) :
    Same w D (L.map fun x => .set2 x.u x.v (.expr (.right (arith (· * ·)) x.c (.stencil 1 x.d x.b)))) β
      (F.nest (fun p => F.block (L.flatMap fun x => [F.assign (farr w) (x.u :: idx p) (F.Expr.const x.c * x.arr.el (x.lo p)),
        F.assign (farr w) (x.v :: idx p) (F.Expr.const x.c * x.arr.el (x.hi p))])) r p0) m := by
  refine h.run hβ ?_ (by simp [WStmt.isSelf]) (by simp only [List.forall_mem_map]; exact fun x _ => .right .stencil opShape_arith_right) (by simp)
    (by simp only [List.forall_mem_map]; intro x hx i hi; simp only [stmtEntries, List.mem_cons, List.not_mem_nil, or_false] at hi
        rcases hi with rfl | rfl
        · exact (hL x hx).1
        · exact (hL x hx).2.1)
    (by
      simp only [List.forall_mem_map]
      intro x hx e he
      simp only [WStmt.operands, List.mem_singleton] at he
      subst he
      refine ⟨(hL x hx).2.2.ok, fun a ha => ?_⟩
      simp only [arrays, List.mem_singleton] at ha
      subst ha
      exact ⟨(hL x hx).2.2.alloc, (hL x hx).2.2.apart⟩)
    fun p hp => ⟨L.flatMap fun x => [(farr w, x.u :: idx p, F.Expr.const x.c * x.arr.el (x.lo p)), (farr w, x.v :: idx p, F.Expr.const x.c * x.arr.el (x.hi p))],
      by rw [List.map_flatMap]; rfl, ?_⟩
  · simp [acceptable, WStmt.okZip, WStmt.operands, Expr.isFine]
  · rw [List.flatMap_map]
    have key : ∀ L' : List (Pair T), (∀ x ∈ L', x ∈ L) → List.Forall₂ (SegStore m w n idx p)
        (L'.flatMap fun x => flatS (D.map (·.1)) w p (.set2 x.u x.v (.expr (.right (arith (· * ·)) x.c (.stencil 1 x.d x.b)))))
        (L'.flatMap fun x => [(farr w, x.u :: idx p, F.Expr.const x.c * x.arr.el (x.lo p)), (farr w, x.v :: idx p, F.Expr.const x.c * x.arr.el (x.hi p))]) := by
      intro L' hs
      induction L' with
      | nil => exact .nil
      | cons x L' ih =>
        have hx := hL x (hs x List.mem_cons_self)
        obtain ⟨⟨h1, h2⟩, h3, h4⟩ := hx.2.2.at_ (n := n) (idx := idx) h.loop hp
        rw [List.flatMap_cons, List.flatMap_cons]
        refine .cons ⟨rfl, ⟨x.u, hx.1, rfl, rfl⟩, fun y hy => ?_, fun m1 => ?_⟩ (.cons ⟨rfl, ⟨x.v, hx.2.1, rfl, rfl⟩, fun y hy => ?_, fun m1 => ?_⟩
          (ih fun y hy => hs y (List.mem_cons_of_mem _ hy)))
        · have : y = (x.arr, x.lo p) := by simpa [F.mul_def, F.Arr.el, F.Expr.refs] using hy
          rw [this]; exact h1
        · show x.c * ld m1 _ = x.c * ld m1 _
          rw [h2]; rfl
        · have : y = (x.arr, x.hi p) := by simpa [F.mul_def, F.Arr.el, F.Expr.refs] using hy
          rw [this]; exact h3
        · show x.c * ld m1 _ = x.c * ld m1 _
          rw [h4]; rfl
    exact key L fun x hx => hx

/-- `st(u) = c` for several entries and numbers -/
theorem Seg.nums (h : Seg m w n D r p0 idx) (hβ : ValidBackend β) (L : List (Int × T)) (hL : ∀ x ∈ L, 0 ≤ x.1 ∧ x.1 < n) {ss : List (WStmt T)}
    (hacc : acceptable ss = true) (hss : ∀ s ∈ ss, (∃ i c, s = .set1 i (.num c)) ∨ ∃ i j c, s = .set2 i j (.num c))
    (hent : ∀ s ∈ ss, ∀ i ∈ stmtEntries s, 0 ≤ i ∧ i < n)
    (hfl : ∀ p, ss.flatMap (flatS (D.map (·.1)) w p) = L.map fun x => (Spec.entryCell w p x.1, fun _ => x.2)) :
    Same w D ss β (F.nest (fun p => F.block (L.map fun x => F.assign (farr w) (x.1 :: idx p) (F.Expr.const x.2))) r p0) m := by
  refine h.run hβ hacc (fun s hs => ?_) (fun s hs => ?_) (fun i u hs => ?_) hent (fun s hs e he => ?_)
    fun p hp => ⟨L.map fun x => (farr w, x.1 :: idx p, F.Expr.const x.2), by rw [List.map_map]; rfl, ?_⟩
  · rcases hss s hs with ⟨i, c, rfl⟩ | ⟨i, j, c, rfl⟩ <;> rfl
  · rcases hss s hs with ⟨i, c, rfl⟩ | ⟨i, j, c, rfl⟩ <;> exact trivial
  · rcases hss _ hs with ⟨i, c, e⟩ | ⟨i, j, c, e⟩ <;> cases e
  · rcases hss s hs with ⟨i, c, rfl⟩ | ⟨i, j, c, rfl⟩ <;> simp [WStmt.operands] at he
  · rw [hfl, List.forall₂_map_left_iff, List.forall₂_map_right_iff, List.forall₂_same]
    exact fun x hx => ⟨rfl, ⟨x.1, hL x hx, rfl, rfl⟩, by simp [F.Expr.refs], fun _ => rfl⟩

/-- the sum of entries, first one `e` -/
def entrySum (e : Int) (L : List Int) : Proxy T := L.foldl (fun a i => a + Proxy.entry (T := T) i) (.entry e)

def refSum (w : F.Arr) (is : List Int) (e : Int) (L : List Int) : F.Expr T := L.foldl (fun a i => a + w.el (i :: is)) (w.el (e :: is))

theorem entrySum_props (e : Int) (L : List Int) : ProxyShape (entrySum e L : Proxy T) .num ∧ InOrder (entrySum e L : Proxy T) ∧
    (entrySum e L : Proxy T).iters = [] ∧ ∀ i ∈ entries (entrySum e L : Proxy T), i ∈ e :: L := by
  unfold entrySum
  have key : ∀ (L : List Int) (x : Proxy T), ProxyShape x .num → InOrder x → x.iters = [] →
      let y : Proxy T := L.foldl (fun a i => a + Proxy.entry (T := T) i) x
      ProxyShape y .num ∧ InOrder y ∧ y.iters = [] ∧ ∀ i ∈ entries y, i ∈ entries x ∨ i ∈ L := by
    intro L
    induction L with
    | nil => exact fun x h1 h2 h3 => ⟨h1, h2, h3, fun i hi => .inl hi⟩
    | cons a L ih =>
      intro x h1 h2 h3
      obtain ⟨k1, k2, k3, k4⟩ := ih (x + Proxy.entry (T := T) a) (.pp h1 .entry opShape_arith_num) (.inl ⟨h2, trivial⟩) (by
        show x.iters ++ [] = []; rw [h3]; rfl)
      refine ⟨k1, k2, k3, fun i hi => ?_⟩
      rcases k4 i hi with hi | hi
      · rcases List.mem_append.1 (show i ∈ entries x ++ [a] from hi) with hi | hi
        · exact .inl hi
        · exact .inr (List.mem_cons.2 (.inl (List.mem_singleton.1 hi)))
      · exact .inr (List.mem_cons_of_mem _ hi)
  obtain ⟨h1, h2, h3, h4⟩ := key L (.entry e) .entry trivial rfl
  refine ⟨h1, h2, h3, fun i hi => ?_⟩
  rcases h4 i hi with hi | hi
  · rw [List.mem_singleton.1 (show i ∈ [e] from hi)]; exact List.mem_cons_self
  · exact List.mem_cons_of_mem _ hi

theorem refSum_props (h : Seg m w n D r p0 idx) {p : Pt} (hp : p ∈ F.nestPts r p0) {e : Int} {L : List Int} (hL : ∀ i ∈ e :: L, 0 ≤ i ∧ i < n) :
    (∀ y ∈ (refSum (farr w) (idx p) e L : F.Expr T).refs, SegRef m w n idx p y) ∧
    ∀ m1 dims, proxyT m1 dims w p (entrySum e L) = .num ((refSum (farr w) (idx p) e L : F.Expr T).evalT m1) := by
  unfold refSum entrySum
  have key : ∀ (L : List Int) (x : Proxy T) (y : F.Expr T), (∀ i ∈ L, 0 ≤ i ∧ i < n) → (∀ z ∈ y.refs, SegRef m w n idx p z) →
      (∀ m1 dims, proxyT m1 dims w p x = .num (y.evalT m1)) →
      (∀ z ∈ (L.foldl (fun a i => a + (farr w).el (i :: idx p)) y).refs, SegRef m w n idx p z) ∧
      ∀ m1 dims, proxyT m1 dims w p (L.foldl (fun a i => a + Proxy.entry (T := T) i) x) =
        .num ((L.foldl (fun a i => a + (farr w).el (i :: idx p)) y).evalT m1) := by
    intro L
    induction L with
    | nil => exact fun x y _ h1 h2 => ⟨h1, h2⟩
    | cons a L ih =>
      intro x y hL h1 h2
      have ha := hL a List.mem_cons_self
      refine ih _ _ (fun i hi => hL i (List.mem_cons_of_mem _ hi)) (fun z hz => ?_) fun m1 dims => ?_
      · simp only [F.add_def, F.Expr.refs, F.Arr.el, List.mem_append, List.mem_singleton] at hz
        rcases hz with hz | rfl
        · exact h1 z hz
        · exact .ent ha
      · show okOr (arith (· + ·) (proxyT m1 dims w p x) (.num (ld m1 _))) = _
        rw [h2]
        simp only [arith, okOr, F.add_def, F.Expr.evalT, F.Arr.el, (h.entry hp ha).2]
  refine key L _ _ (fun i hi => hL i (List.mem_cons_of_mem _ hi)) (fun z hz => ?_) fun m1 dims => ?_
  · simp only [F.Expr.refs, F.Arr.el, List.mem_singleton] at hz
    rw [hz]; exact .ent (hL e List.mem_cons_self)
  · simp only [proxyT, F.Expr.evalT, F.Arr.el, (h.entry hp (hL e List.mem_cons_self)).2]

/-- `st(u) = -(sum)` -/
theorem Seg.neg (h : Seg m w n D r p0 idx) (hβ : ValidBackend β) (hs1 : ∀ x : T, -1 * x = -x) {u : Int} (hu : 0 ≤ u ∧ u < n) {e : Int} {L : List Int} (hL : ∀ i ∈ e :: L, 0 ≤ i ∧ i < n) :
    Same w D [.set1 u (.proxy (.np (arith (· * ·)) (-1) (entrySum e L)))] β
      (F.nest (fun p => F.assign (farr w) (u :: idx p) (-(refSum (farr w) (idx p) e L))) r p0) m := by
  obtain ⟨k1, k2, k3, k4⟩ := entrySum_props (T := T) e L
  refine h.run hβ (by simp [acceptable, WStmt.okZip, WStmt.operands, Proxy.iters, k3]) (by simp [WStmt.isSelf]) (fun s hs => ?_) (fun i v hs => ?_)
    (fun s hs i hi => ?_) (by simp [WStmt.operands, Proxy.iters, k3]) fun p hp => ⟨[(farr w, u :: idx p, -(refSum (farr w) (idx p) e L))], F.block_one.symm, ?_⟩
  · rw [List.mem_singleton] at hs; subst hs
    exact .np k1 opShape_arith_num
  · simp only [List.mem_singleton, WStmt.set1.injEq, WRhs.proxy.injEq] at hs
    rw [hs.2]; exact k2
  · rw [List.mem_singleton] at hs; subst hs
    rcases List.mem_cons.1 (show i ∈ u :: entries (entrySum e L : Proxy T) from hi) with rfl | hi
    · exact hu
    · exact hL i (k4 i hi)
  · obtain ⟨q1, q2⟩ := refSum_props h hp hL
    refine .cons ⟨rfl, ⟨u, hu, rfl, rfl⟩, q1, fun m1 => ?_⟩ .nil
    simp only [proxyT, q2, arith, okOr, Val.first, F.neg_def, F.Expr.evalT, hs1]

/-- `st(u) = -(sum) + c` -/
theorem Seg.negNum (h : Seg m w n D r p0 idx) (hβ : ValidBackend β) (hs1 : ∀ x : T, -1 * x = -x) {u : Int} (hu : 0 ≤ u ∧ u < n) {e : Int} {L : List Int} (hL : ∀ i ∈ e :: L, 0 ≤ i ∧ i < n)
    {c : T} :
    Same w D [.set1 u (.proxy (.pn (arith (· + ·)) (.np (arith (· * ·)) (-1) (entrySum e L)) c))] β
      (F.nest (fun p => F.assign (farr w) (u :: idx p) (-(refSum (farr w) (idx p) e L) + F.Expr.const c)) r p0) m := by
  obtain ⟨k1, k2, k3, k4⟩ := entrySum_props (T := T) e L
  refine h.run hβ (by simp [acceptable, WStmt.okZip, WStmt.operands, Proxy.iters, k3]) (by simp [WStmt.isSelf]) (fun s hs => ?_) (fun i v hs => ?_)
    (fun s hs i hi => ?_) (by simp [WStmt.operands, Proxy.iters, k3])
    fun p hp => ⟨[(farr w, u :: idx p, -(refSum (farr w) (idx p) e L) + F.Expr.const c)], F.block_one.symm, ?_⟩
  · rw [List.mem_singleton] at hs; subst hs
    exact .pn (.np k1 opShape_arith_num) opShape_arith_num
  · simp only [List.mem_singleton, WStmt.set1.injEq, WRhs.proxy.injEq] at hs
    rw [hs.2]; exact k2
  · rw [List.mem_singleton] at hs; subst hs
    rcases List.mem_cons.1 (show i ∈ u :: entries (entrySum e L : Proxy T) from hi) with rfl | hi
    · exact hu
    · exact hL i (k4 i hi)
  · obtain ⟨q1, q2⟩ := refSum_props h hp hL
    refine .cons ⟨rfl, ⟨u, hu, rfl, rfl⟩, fun y hy => ?_, fun m1 => ?_⟩ .nil
    · simp only [F.add_def, F.neg_def, F.Expr.refs, List.append_nil] at hy
      exact q1 y hy
    · simp only [proxyT, q2, arith, okOr, Val.first, F.neg_def, F.add_def, F.Expr.evalT, hs1]

/-- `st(u) = -(sum) + c * a` -/
theorem Seg.negArr (h : Seg m w n D r p0 idx) (hβ : ValidBackend β) (hs1 : ∀ x : T, -1 * x = -x) {u : Int} (hu : 0 ≤ u ∧ u < n) {e : Int} {L : List Int} (hL : ∀ i ∈ e :: L, 0 ≤ i ∧ i < n)
    {c : T} {a : Acc} {arr : F.Arr} {bidx : Pt → List Int} (ho : Opnd m w D r p0 a arr bidx) :
    Same w D [.set1 u (.proxy (.pe (arith (· + ·)) (.np (arith (· * ·)) (-1) (entrySum e L)) (.right (arith (· * ·)) c (.acc a))))] β
      (F.nest (fun p => F.assign (farr w) (u :: idx p) (-(refSum (farr w) (idx p) e L) + F.Expr.const c * arr.el (bidx p))) r p0) m := by
  obtain ⟨k1, k2, k3, k4⟩ := entrySum_props (T := T) e L
  refine h.run hβ (by simp [acceptable, WStmt.okZip, WStmt.operands, Proxy.iters, k3, Expr.isFine]) (by simp [WStmt.isSelf]) (fun s hs => ?_) (fun i v hs => ?_)
    (fun s hs i hi => ?_) (fun s hs x hx => ?_)
    fun p hp => ⟨[(farr w, u :: idx p, -(refSum (farr w) (idx p) e L) + F.Expr.const c * arr.el (bidx p))], F.block_one.symm, ?_⟩
  · rw [List.mem_singleton] at hs; subst hs
    exact .pe (.np k1 opShape_arith_num) (.right .acc opShape_arith_num) opShape_arith_num
  · simp only [List.mem_singleton, WStmt.set1.injEq, WRhs.proxy.injEq] at hs
    rw [hs.2]; exact k2
  · rw [List.mem_singleton] at hs; subst hs
    rcases List.mem_cons.1 (show i ∈ u :: entries (entrySum e L : Proxy T) from hi) with rfl | hi
    · exact hu
    · exact hL i (k4 i hi)
  · rw [List.mem_singleton] at hs; subst hs
    simp only [WStmt.operands, Proxy.iters, k3, List.nil_append, List.mem_singleton] at hx
    subst hx
    refine ⟨ho.ok, fun s hs => ?_⟩
    rw [List.mem_singleton.1 (show s ∈ [accArray a] from hs)]
    exact ⟨ho.alloc, ho.apart⟩
  · obtain ⟨q1, q2⟩ := refSum_props h hp hL
    refine .cons ⟨rfl, ⟨u, hu, rfl, rfl⟩, fun y hy => ?_, fun m1 => ?_⟩ .nil
    · simp only [F.add_def, F.neg_def, F.mul_def, F.Expr.refs, F.Arr.el, List.nil_append, List.mem_append, List.mem_singleton] at hy
      rcases hy with hy | rfl
      · exact q1 y hy
      · exact ho.ref h.loop hp
    · simp only [proxyT, q2, denT, arith, okOr, Val.first, F.neg_def, F.add_def, F.mul_def, F.Arr.el, F.Expr.evalT, (ho.at_ p hp).2, hs1]

/-- `rhs -= st(u) * v` -/
theorem Seg.sub (h : Seg m w n D r p0 idx) (hβ : ValidBackend β) (hs2 : ∀ x y : T, x - y = -1 * y + x) {u : Int} (hu : 0 ≤ u ∧ u < n) {l : Span} (hl : ArrOK m l) (hwl : Within l.geo D) (hla : Apart w l)
    {larr : F.Arr} (hlf : farr l = larr) {lidx : Pt → List Int} (hlx : ∀ p ∈ F.nestPts r p0, (l.geo.map fun x => p x.1).reverse = lidx p)
    {a : Acc} {arr : F.Arr} {bidx : Pt → List Int} (ho : Opnd m l D r p0 a arr bidx) :
    Same w D [.subEq (· * ·) (· + ·) (-1) l (.pe (arith (· * ·)) (.entry u) (.acc a))] β
      (F.nest (fun p => F.assign larr (lidx p) (larr.el (lidx p) - (farr w).el (u :: idx p) * arr.el (bidx p))) r p0) m := by
  have hin : ∀ p, InDom D p → Inside l.geo p := fun p hp => hwl.elem hl.geo h.dom hp
  have hsub : SubOK m w D l (.pe (arith (· * ·)) (.entry u) (.acc a)) := {
    geo := h.arr.geo
    req := h.req
    len := h.len
    lhs := ⟨hl.geo, hwl.req hl.geo h.dom, hwl.len⟩
    ops := fun e he => by
      simp only [Proxy.iters, List.nil_append, List.mem_singleton] at he
      subst he
      refine ⟨ho.ok, rfl, fun s hs => ?_⟩
      rw [List.mem_singleton.1 (show s ∈ [accArray a] from hs)]
      exact ho.alloc
    order := trivial
    typed := .pe .entry .acc opShape_arith_num
    walloc := h.arr.alloc
    lalloc := hl.alloc
    entries := fun i hi => by
      rw [List.mem_singleton.1 (show i ∈ [u] from hi), h.winLen]
      exact hu
    apart := fun p q hp hq => ⟨fun e he hr => by
      simp only [Proxy.iters, List.nil_append, List.mem_singleton] at he
      subst he
      obtain ⟨q', hq', e'⟩ := acc_element ho.ok hq
      exact ho.apart p q' (hin p hp) hq' ((List.mem_singleton.1 (show cell l p ∈ [accCell a q] from hr)).trans e'), fun i hi e => by
      rw [List.mem_singleton.1 (show i ∈ [u] from hi), h.entryCell] at e
      exact hla _ _ (h.inside hq hu) (hin p hp) e.symm⟩ }
  refine win_nest hβ h.int h.divides hsub.ok h.loop fun p hp => ⟨[(larr, lidx p, larr.el (lidx p) - (farr w).el (u :: idx p) * arr.el (bidx p))], F.block_one.symm, ?_⟩
  have hpD := h.loop.inDom hp
  have hlp := inside_addr (hin p hpD)
  rw [hlx p hp, hlf] at hlp
  have hwr : ∀ q z, InDom D q → allWrites w q [WStmt.subEq (T := T) (· * ·) (· + ·) (-1) l (.pe (arith (· * ·)) (.entry u) (.acc a))] z → z = cell l q := by
    rintro q z hq ⟨s, hs, hz⟩
    rw [List.mem_singleton] at hs; subst hs
    exact List.mem_singleton.1 hz
  refine .cons ⟨hlp.1, hlp.2, fun y hy => ?_, fun m1 => ?_⟩ .nil
  · simp only [F.sub_def, F.mul_def, F.Arr.el, F.Expr.refs, List.cons_append, List.nil_append, List.mem_cons, List.not_mem_nil, or_false] at hy
    rcases hy with rfl | rfl | rfl
    · refine ⟨hlp.1, ?_, ?_⟩
      · show ∃ v, m.val (larr.addrT (lidx p)) = some v
        rw [hlp.2]; exact hl.alloc _ (hin p hpD)
      · rintro ⟨q, hq, ⟨z, hz, hne⟩, hwq⟩
        have e := hwr q _ hq hwq
        have e : larr.addrT (lidx p) = cell l q := e
        rw [hlp.2] at e
        exact hne (LhsOK.cell_inj hsub.lhs hpD hq e z hz)
    · have he := h.entry hp hu
      refine ⟨he.1, ?_, ?_⟩
      · show ∃ v, m.val ((farr w).addrT (u :: idx p)) = some v
        rw [he.2, h.entryCell]; exact h.arr.alloc _ (h.inside hpD hu)
      · rintro ⟨q, hq, -, hwq⟩
        have e : (farr w).addrT (u :: idx p) = cell l q := hwr q _ hq hwq
        rw [he.2, h.entryCell] at e
        exact hla _ _ (h.inside hpD hu) (hin q hq) e
    · have he := ho.at_ p hp
      obtain ⟨q', hq', e'⟩ := acc_element ho.ok hpD
      refine ⟨he.1, ?_, ?_⟩
      · show ∃ v, m.val (arr.addrT (bidx p)) = some v
        rw [he.2, e']; exact ho.alloc _ hq'
      · rintro ⟨q, hq, -, hwq⟩
        have e : arr.addrT (bidx p) = cell l q := hwr q _ hq hwq
        rw [he.2, e'] at e
        exact ho.apart _ _ (hin q hq) hq' e.symm
  · show (larr.el (lidx p) - (farr w).el (u :: idx p) * arr.el (bidx p)).evalT m1 = _
    simp only [Proxy.neg, proxyT, denT, arith, okOr, Val.first, F.sub_def, F.mul_def, F.Arr.el, F.Expr.evalT, (ho.at_ p hp).2, hlp.2,
      (h.entry hp hu).2, accCell]
    exact hs2 _ _

end

end Verif
