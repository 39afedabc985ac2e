import Verif.Lemmas.Driver
import Verif.Lemmas.StencilRename
import Verif.Model.Tests.Stencil
import Verif.Props.Stencil
import Mathlib.Tactic.IntervalCases
import Mathlib.Algebra.Order.Ring.Rat

/-
C104: the coefficient tests pass, whatever numbers they pick.  Each example has the numbers of the test case; what the test picks or generates is a variable
in the range the test takes it from.
-/

namespace Verif

open Spec Test

variable {T : Type} [Field T] [DecidableEq T]

/-- src/cd_stencil_1d.t.cpp:52-82 -/
theorem C104_offdiag_1d {i0 i1 bi0 bi1 : Int} {dx : Nat → T} {beta : T} {sgcw : Int} {xb0 : Nat → T} {β : Backend} (hβ : ValidBackend β)
    (hi : i0 ≤ i1) (hbi : bi0 ≤ i0 ∧ i1 ≤ bi1) (hg : 0 ≤ sgcw) (h_b0 : F.Fits (F.face1d (at_ 0) bi0 bi1 0).dims)
    (h_st : F.Fits (F.st1d (at_ 0) i0 i1 sgcw).dims) : Test.offdiag1d i0 i1 bi0 bi1 dx beta sgcw xb0 β = .ok true := by
  have I0 := h_b0.int
  have I1 := h_st.int
  simp only [F.face1d, F.st1d, List.mem_cons, List.not_mem_nil, or_false, forall_eq_or_imp, forall_eq, InInt] at I0 I1
  have mk_bi := mkB_ok (d := .I) (lo := bi0) (hi := bi1) (by unfold InInt; omega)
  have mk_i := mkB_ok (d := .I) (lo := i0) (hi := i1) (by unfold InInt; omega)
  have mk_w := mkB_ok (d := .W) (lo := 0) (hi := 2) (by unfold InInt; omega)
  have pl_bi := plus_ok (d := .I) (b := ⟨bi0, bi1 + 1, 1⟩) (x := 1) (by omega) (by simp only [InInt]; omega)
  obtain ⟨v0, n0, r0⟩ := vec_ok (T := T) (ds := [(.I, bi0, bi1 + 1)]) (by simp) (by simp) (by simp <;> omega) h_b0
  obtain ⟨v1, n1, r1⟩ := offset_ok (T := T) (g := sgcw) (ds := [(.I, i0, i1), (.W, 0, 2)]) (by simp) (by simp) (by omega) (by simp <;> omega) h_st
  simp only [bounds, List.map_cons, List.map_nil] at n0 n1
  unfold Test.offdiag1d
  simp only [mk_bi, mk_i, mk_w, pl_bi, n0, n1, M.ok_bind]
  refine compare_ok (L := [0, 2, 1]) ?_ rfl rfl (F.ren_celldiffusionoffdiag1d (T := T) (perm_inv (L := [0, 2, 1]) (by decide))) ?_ (by decide)
  · simp [(r0.fill (xs := xb0)).same, (r0.fill (xs := xb0)).sync, r1.same, r1.sync]
  · refine C36_offdiag_1d hβ hi hbi hg ⟨?_, ?_⟩
    · simp only [List.cons_append, List.nil_append, List.forall_mem_cons]
      refine ⟨arr_ok_of rfl (r0.fill (xs := xb0)) h_b0, arr_ok_of rfl r1 h_st, ?_⟩
      simp
    · simp only [List.forall_mem_cons]
      repeat' first | exact arr_apart (by decide) | refine ⟨?_, ?_⟩ | simp

example {bi0 bi1 sgcw : Int} {dx : Nat → ℚ} {beta : ℚ} {xb0 : Nat → ℚ} {β : Backend} (hβ : ValidBackend β) (p_bi0 : 7 ≤ bi0) (q_bi0 : bi0 ≤ 9)
    (p_bi1 : 33 ≤ bi1) (q_bi1 : bi1 ≤ 35) (p_sgcw : 1 ≤ sgcw) (q_sgcw : sgcw ≤ 3) : Test.offdiag1d 10 31 bi0 bi1 dx beta sgcw xb0 β = .ok true :=
  C104_offdiag_1d hβ (by told) (by told) (by told) (by interval_cases bi0 <;> interval_cases bi1 <;> exact fits_of (by decide))
      (by interval_cases sgcw <;> exact fits_of (by decide))

/-- src/cd_stencil_1d.t.cpp:84-105 -/
theorem C104_poisson_offdiag_1d {i0 i1 : Int} {dx : Nat → T} {beta : T} {sgcw : Int} {β : Backend} (hβ : ValidBackend β) (hi : i0 ≤ i1)
    (hg : 0 ≤ sgcw) (h_st : F.Fits (F.st1d (at_ 0) i0 i1 sgcw).dims) : Test.poissonOffdiag1d i0 i1 dx beta sgcw β = .ok true := by
  have I0 := h_st.int
  simp only [F.st1d, List.mem_cons, List.not_mem_nil, or_false, forall_eq_or_imp, forall_eq, InInt] at I0
  have mk_i := mkB_ok (d := .I) (lo := i0) (hi := i1) (by unfold InInt; omega)
  have mk_w := mkB_ok (d := .W) (lo := 0) (hi := 2) (by unfold InInt; omega)
  obtain ⟨v0, n0, r0⟩ := offset_ok (T := T) (g := sgcw) (ds := [(.I, i0, i1), (.W, 0, 2)]) (by simp) (by simp) (by omega) (by simp <;> omega) h_st
  simp only [bounds, List.map_cons, List.map_nil] at n0
  unfold Test.poissonOffdiag1d
  simp only [mk_i, mk_w, n0, M.ok_bind]
  refine compare_ok (L := [1, 0]) ?_ rfl rfl (F.ren_cellpoissonoffdiag1d (T := T) (perm_inv (L := [1, 0]) (by decide))) ?_ (by decide)
  · simp [r0.same, r0.sync]
  · refine C36_poisson_offdiag_1d hβ hi hg ⟨?_, ?_⟩
    · simp only [List.cons_append, List.nil_append, List.forall_mem_cons]
      refine ⟨arr_ok_of rfl r0 h_st, ?_⟩
      simp
    · simp only [List.forall_mem_cons]
      repeat' first | exact arr_apart (by decide) | refine ⟨?_, ?_⟩ | simp

example {sgcw : Int} {dx : Nat → ℚ} {beta : ℚ} {β : Backend} (hβ : ValidBackend β) (p_sgcw : 1 ≤ sgcw) (q_sgcw : sgcw ≤ 3) : Test.poissonOffdiag1d
    10 21 dx beta sgcw β = .ok true :=
  C104_poisson_offdiag_1d hβ (by told) (by told) (by interval_cases sgcw <;> exact fits_of (by decide))

/-- src/cd_stencil_1d.t.cpp:107-143 -/
theorem C104_v1diag_1d {i0 i1 ai0 ai1 : Int} {alpha : T} {sgcw : Int} {xa xst : Nat → T} {β : Backend} (hβ : ValidBackend β) (hi : i0 ≤ i1)
    (hai : ai0 ≤ i0 ∧ i1 ≤ ai1) (hg : 0 ≤ sgcw) (h_a : F.Fits (F.cell1d (at_ 0) ai0 ai1 0).dims) (h_st : F.Fits (F.st1d (at_ 0) i0 i1 sgcw).dims) :
    Test.v1diag1d i0 i1 ai0 ai1 alpha sgcw xa xst β = .ok true := by
  have I0 := h_a.int
  have I1 := h_st.int
  simp only [F.cell1d, F.st1d, List.mem_cons, List.not_mem_nil, or_false, forall_eq_or_imp, forall_eq, InInt] at I0 I1
  have mk_ai := mkB_ok (d := .I) (lo := ai0) (hi := ai1) (by unfold InInt; omega)
  have mk_i := mkB_ok (d := .I) (lo := i0) (hi := i1) (by unfold InInt; omega)
  have mk_w := mkB_ok (d := .W) (lo := 0) (hi := 2) (by unfold InInt; omega)
  obtain ⟨v0, n0, r0⟩ := vec_ok (T := T) (ds := [(.I, ai0, ai1)]) (by simp) (by simp) (by simp <;> omega) h_a
  obtain ⟨v1, n1, r1⟩ := offset_ok (T := T) (g := sgcw) (ds := [(.I, i0, i1), (.W, 0, 2)]) (by simp) (by simp) (by omega) (by simp <;> omega) h_st
  simp only [bounds, List.map_cons, List.map_nil] at n0 n1
  unfold Test.v1diag1d
  simp only [mk_ai, mk_i, mk_w, n0, n1, (r1.fill (xs := xst)).copy, (r1.fill (xs := xst)).host, M.ok_bind]
  refine compare_ok (L := [0, 2, 1]) ?_ rfl rfl (F.ren_celldiffusionv1diag1d (T := T) (perm_inv (L := [0, 2, 1]) (by decide))) ?_ (by decide)
  · simp [(r0.fill (xs := xa)).same, (r0.fill (xs := xa)).sync, (r1.fill (xs := xst)).same, (r1.fill (xs := xst)).sync]
  · refine C36_v1diag_1d hβ hi hai hg ⟨?_, ?_⟩
    · simp only [List.cons_append, List.nil_append, List.forall_mem_cons]
      refine ⟨arr_ok_of rfl (r0.fill (xs := xa)) h_a, arr_ok_of rfl (r1.fill (xs := xst)) h_st, ?_⟩
      simp
    · simp only [List.forall_mem_cons]
      repeat' first | exact arr_apart (by decide) | refine ⟨?_, ?_⟩ | simp

example {sgcw : Int} {alpha : ℚ} {xa xst : Nat → ℚ} {β : Backend} (hβ : ValidBackend β) (p_sgcw : 1 ≤ sgcw) (q_sgcw : sgcw ≤ 3) : Test.v1diag1d 10
    31 8 34 alpha sgcw xa xst β = .ok true :=
  C104_v1diag_1d hβ (by told) (by told) (by told) (by exact fits_of (by decide)) (by interval_cases sgcw <;> exact fits_of (by decide))

/-- src/cd_stencil_1d.t.cpp:145-168 -/
theorem C104_v2diag_1d {i0 i1 : Int} {alpha : T} {sgcw : Int} {xst : Nat → T} {β : Backend} (hβ : ValidBackend β) (hi : i0 ≤ i1) (hg : 0 ≤ sgcw)
    (h_st : F.Fits (F.st1d (at_ 0) i0 i1 sgcw).dims) : Test.v2diag1d i0 i1 alpha sgcw xst β = .ok true := by
  have I0 := h_st.int
  simp only [F.st1d, List.mem_cons, List.not_mem_nil, or_false, forall_eq_or_imp, forall_eq, InInt] at I0
  have mk_i := mkB_ok (d := .I) (lo := i0) (hi := i1) (by unfold InInt; omega)
  have mk_w := mkB_ok (d := .W) (lo := 0) (hi := 2) (by unfold InInt; omega)
  obtain ⟨v0, n0, r0⟩ := offset_ok (T := T) (g := sgcw) (ds := [(.I, i0, i1), (.W, 0, 2)]) (by simp) (by simp) (by omega) (by simp <;> omega) h_st
  simp only [bounds, List.map_cons, List.map_nil] at n0
  unfold Test.v2diag1d
  simp only [mk_i, mk_w, n0, (r0.fill (xs := xst)).copy, (r0.fill (xs := xst)).host, M.ok_bind]
  refine compare_ok (L := [1, 0]) ?_ rfl rfl (F.ren_celldiffusionv2diag1d (T := T) (perm_inv (L := [1, 0]) (by decide))) ?_ (by decide)
  · simp [(r0.fill (xs := xst)).same, (r0.fill (xs := xst)).sync]
  · refine C36_v2diag_1d hβ hi hg ⟨?_, ?_⟩
    · simp only [List.cons_append, List.nil_append, List.forall_mem_cons]
      refine ⟨arr_ok_of rfl (r0.fill (xs := xst)) h_st, ?_⟩
      simp
    · simp only [List.forall_mem_cons]
      repeat' first | exact arr_apart (by decide) | refine ⟨?_, ?_⟩ | simp

example {sgcw : Int} {alpha : ℚ} {xst : Nat → ℚ} {β : Backend} (hβ : ValidBackend β) (p_sgcw : 1 ≤ sgcw) (q_sgcw : sgcw ≤ 3) : Test.v2diag1d 11 26
    alpha sgcw xst β = .ok true :=
  C104_v2diag_1d hβ (by told) (by told) (by interval_cases sgcw <;> exact fits_of (by decide))

/-- src/cd_stencil_1d.t.cpp:170-191 -/
theorem C104_poisson_diag_1d {i0 i1 sgcw : Int} {xst : Nat → T} {β : Backend} (hβ : ValidBackend β) (hi : i0 ≤ i1) (hg : 0 ≤ sgcw)
    (h_st : F.Fits (F.st1d (at_ 0) i0 i1 sgcw).dims) : Test.poissonDiag1d i0 i1 sgcw xst β = .ok true := by
  have I0 := h_st.int
  simp only [F.st1d, List.mem_cons, List.not_mem_nil, or_false, forall_eq_or_imp, forall_eq, InInt] at I0
  have mk_i := mkB_ok (d := .I) (lo := i0) (hi := i1) (by unfold InInt; omega)
  have mk_w := mkB_ok (d := .W) (lo := 0) (hi := 2) (by unfold InInt; omega)
  obtain ⟨v0, n0, r0⟩ := offset_ok (T := T) (g := sgcw) (ds := [(.I, i0, i1), (.W, 0, 2)]) (by simp) (by simp) (by omega) (by simp <;> omega) h_st
  simp only [bounds, List.map_cons, List.map_nil] at n0
  unfold Test.poissonDiag1d
  simp only [mk_i, mk_w, n0, (r0.fill (xs := xst)).copy, (r0.fill (xs := xst)).host, M.ok_bind]
  refine compare_ok (L := [1, 0]) ?_ rfl rfl (F.ren_cellpoissondiag1d (T := T) (perm_inv (L := [1, 0]) (by decide))) ?_ (by decide)
  · simp [(r0.fill (xs := xst)).same, (r0.fill (xs := xst)).sync]
  · refine C36_poisson_diag_1d hβ hi hg ⟨?_, ?_⟩
    · simp only [List.cons_append, List.nil_append, List.forall_mem_cons]
      refine ⟨arr_ok_of rfl (r0.fill (xs := xst)) h_st, ?_⟩
      simp
    · simp only [List.forall_mem_cons]
      repeat' first | exact arr_apart (by decide) | refine ⟨?_, ?_⟩ | simp

example {sgcw : Int} {xst : Nat → ℚ} {β : Backend} (hβ : ValidBackend β) (p_sgcw : 1 ≤ sgcw) (q_sgcw : sgcw ≤ 3) : Test.poissonDiag1d 10 21 sgcw xst
    β = .ok true :=
  C104_poisson_diag_1d hβ (by told) (by told) (by interval_cases sgcw <;> exact fits_of (by decide))

/-- src/cd_stencil_1d.t.cpp:193-248 -/
theorem C104_adj_diag_1d {i0 i1 pi0 pi1 side btype exOrder : Int} {dx : Nat → T} {beta : T} {sgcw : Int} {xb0 xst : Nat → T} {β : Backend}
    (hβ : ValidBackend β) (hi : i0 ≤ i1) (hg : 0 ≤ sgcw) (hl : Layer1 i0 i1 0 pi0 pi1 side) (h_b0 : F.Fits (F.face1d (at_ 0) i0 i1 0).dims)
    (h_st : F.Fits (F.st1d (at_ 0) i0 i1 sgcw).dims) : Test.adjDiag1d i0 i1 pi0 pi1 side btype exOrder dx beta sgcw xb0 xst β = .ok true := by
  have I0 := h_b0.int
  have I1 := h_st.int
  simp only [F.face1d, F.st1d, List.mem_cons, List.not_mem_nil, or_false, forall_eq_or_imp, forall_eq, InInt] at I0 I1
  have mk_i := mkB_ok (d := .I) (lo := i0) (hi := i1) (by unfold InInt; omega)
  have mk_w := mkB_ok (d := .W) (lo := 0) (hi := 2) (by unfold InInt; omega)
  have pl_i := plus_ok (d := .I) (b := ⟨i0, i1 + 1, 1⟩) (x := 1) (by omega) (by simp only [InInt]; omega)
  obtain ⟨v0, n0, r0⟩ := vec_ok (T := T) (ds := [(.I, i0, i1 + 1)]) (by simp) (by simp) (by simp <;> omega) h_b0
  obtain ⟨v1, n1, r1⟩ := offset_ok (T := T) (g := sgcw) (ds := [(.I, i0, i1), (.W, 0, 2)]) (by simp) (by simp) (by omega) (by simp <;> omega) h_st
  simp only [bounds, List.map_cons, List.map_nil] at n0 n1
  unfold Test.adjDiag1d
  simp only [mk_i, mk_w, pl_i, n0, n1, (r1.fill (xs := xst)).copy, (r1.fill (xs := xst)).host, M.ok_bind]
  refine compare_ok (L := [0, 2, 1]) ?_ rfl rfl (F.ren_adjcelldiffusiondiag1d (T := T) (perm_inv (L := [0, 2, 1]) (by decide))) ?_ (by decide)
  · simp [(r0.fill (xs := xb0)).same, (r0.fill (xs := xb0)).sync, (r1.fill (xs := xst)).same, (r1.fill (xs := xst)).sync]
  · refine C36_adj_diag_1d hβ hi hg hl ⟨?_, ?_⟩
    · simp only [List.cons_append, List.nil_append, List.forall_mem_cons]
      refine ⟨arr_ok_of rfl (r0.fill (xs := xb0)) h_b0, arr_ok_of rfl (r1.fill (xs := xst)) h_st, ?_⟩
      simp
    · simp only [List.forall_mem_cons]
      repeat' first | exact arr_apart (by decide) | refine ⟨?_, ?_⟩ | simp

example {sgcw side btype exOrder : Int} {dx : Nat → ℚ} {beta : ℚ} {xb0 xst : Nat → ℚ} {β : Backend} (hβ : ValidBackend β) (p_sgcw : 1 ≤ sgcw)
    (q_sgcw : sgcw ≤ 3) (g_side : side = 0 ∨ side = 1) (g_btype : btype = 0 ∨ btype = 4) (g_exOrder : exOrder = 1 ∨ exOrder = 2) : Test.adjDiag1d 10
    31 11 28 side btype exOrder dx beta sgcw xb0 xst β = .ok true :=
  C104_adj_diag_1d hβ (by told) (by told) (by told) (by exact fits_of (by decide)) (by interval_cases sgcw <;> exact fits_of (by decide))

/-- src/cd_stencil_1d.t.cpp:250-292 -/
theorem C104_adj_poisson_diag_1d {i0 i1 pi0 pi1 side btype exOrder : Int} {dx : Nat → T} {beta : T} {sgcw : Int} {xst : Nat → T} {β : Backend}
    (hβ : ValidBackend β) (hi : i0 ≤ i1) (hg : 0 ≤ sgcw) (hl : Layer1 i0 i1 sgcw pi0 pi1 side) (h_st : F.Fits (F.st1d (at_ 0) i0 i1 sgcw).dims) :
    Test.adjPoissonDiag1d i0 i1 pi0 pi1 side btype exOrder dx beta sgcw xst β = .ok true := by
  have I0 := h_st.int
  simp only [F.st1d, List.mem_cons, List.not_mem_nil, or_false, forall_eq_or_imp, forall_eq, InInt] at I0
  have mk_i := mkB_ok (d := .I) (lo := i0) (hi := i1) (by unfold InInt; omega)
  have mk_w := mkB_ok (d := .W) (lo := 0) (hi := 2) (by unfold InInt; omega)
  obtain ⟨v0, n0, r0⟩ := offset_ok (T := T) (g := sgcw) (ds := [(.I, i0, i1), (.W, 0, 2)]) (by simp) (by simp) (by omega) (by simp <;> omega) h_st
  simp only [bounds, List.map_cons, List.map_nil] at n0
  unfold Test.adjPoissonDiag1d
  simp only [mk_i, mk_w, n0, (r0.fill (xs := xst)).copy, (r0.fill (xs := xst)).host, M.ok_bind]
  refine compare_ok (L := [1, 0]) ?_ rfl rfl (F.ren_adjcellpoissondiag1d (T := T) (perm_inv (L := [1, 0]) (by decide))) ?_ (by decide)
  · simp [(r0.fill (xs := xst)).same, (r0.fill (xs := xst)).sync]
  · refine C36_adj_poisson_diag_1d hβ hi hg hl ⟨?_, ?_⟩
    · simp only [List.cons_append, List.nil_append, List.forall_mem_cons]
      refine ⟨arr_ok_of rfl (r0.fill (xs := xst)) h_st, ?_⟩
      simp
    · simp only [List.forall_mem_cons]
      repeat' first | exact arr_apart (by decide) | refine ⟨?_, ?_⟩ | simp

example {sgcw side btype exOrder : Int} {dx : Nat → ℚ} {beta : ℚ} {xst : Nat → ℚ} {β : Backend} (hβ : ValidBackend β) (p_sgcw : 1 ≤ sgcw)
    (q_sgcw : sgcw ≤ 3) (g_side : side = 0 ∨ side = 1) (g_btype : btype = 0 ∨ btype = 4) (g_exOrder : exOrder = 1 ∨ exOrder = 2) :
    Test.adjPoissonDiag1d 10 31 11 28 side btype exOrder dx beta sgcw xst β = .ok true :=
  C104_adj_poisson_diag_1d hβ (by told) (by told) (by told) (by interval_cases sgcw <;> exact fits_of (by decide))

/-- src/cd_stencil_1d.t.cpp:294-347 -/
theorem C104_adj_cf_diag_1d {i0 i1 pi0 pi1 r side intOrder : Int} {dx : Nat → T} {beta : T} {sgcw : Int} {xb0 xst : Nat → T} {β : Backend}
    (hβ : ValidBackend β) (hi : i0 ≤ i1) (hg : 0 ≤ sgcw) (hl : Layer1 i0 i1 0 pi0 pi1 side) (h_b0 : F.Fits (F.face1d (at_ 0) i0 i1 0).dims)
    (h_st : F.Fits (F.st1d (at_ 0) i0 i1 sgcw).dims) (h_all : F.Fits [(0, 6), (i0 - sgcw, i1 + sgcw)]) : Test.adjCfDiag1d i0 i1 pi0 pi1 r side
    intOrder dx beta sgcw xb0 xst β = .ok true := by
  have I0 := h_b0.int
  have I1 := h_st.int
  have I2 := h_all.int
  simp only [F.face1d, F.st1d, List.mem_cons, List.not_mem_nil, or_false, forall_eq_or_imp, forall_eq, InInt] at I0 I1 I2
  have mk_i := mkB_ok (d := .I) (lo := i0) (hi := i1) (by unfold InInt; omega)
  have mk_w2 := mkB_ok (d := .W) (lo := 0) (hi := 6) (by unfold InInt; omega)
  have pl_i := plus_ok (d := .I) (b := ⟨i0, i1 + 1, 1⟩) (x := 1) (by omega) (by simp only [InInt]; omega)
  obtain ⟨v0, n0, r0⟩ := vec_ok (T := T) (ds := [(.I, i0, i1 + 1)]) (by simp) (by simp) (by simp <;> omega) h_b0
  obtain ⟨v1, n1, r1⟩ := offset_ok (T := T) (g := sgcw) (ds := [(.I, i0, i1), (.W, 0, 6)]) (by simp) (by simp) (by omega) (by simp <;> omega) h_all
  simp only [bounds, List.map_cons, List.map_nil] at n0 n1
  unfold Test.adjCfDiag1d
  simp only [mk_i, mk_w2, pl_i, n0, n1, (r1.fill (xs := xst)).copy, (r1.fill (xs := xst)).host, M.ok_bind]
  refine compare_ok (L := [0, 2, 1]) ?_ rfl rfl (F.ren_adjcelldiffusioncfdiag1d (T := T) (perm_inv (L := [0, 2, 1]) (by decide))) ?_ (by decide)
  · simp [(r0.fill (xs := xb0)).same, (r0.fill (xs := xb0)).sync, (r1.fill (xs := xst)).same, (r1.fill (xs := xst)).sync]
  · refine C36_adj_cf_diag_1d hβ hi hg hl ⟨?_, ?_⟩
    · simp only [List.cons_append, List.nil_append, List.forall_mem_cons]
      refine ⟨arr_ok_of rfl (r0.fill (xs := xb0)) h_b0, arr_ok_le rfl (r1.fill (xs := xst)) (by simp [F.st1d, shape]; omega) h_st, ?_⟩
      simp
    · simp only [List.forall_mem_cons]
      repeat' first | exact arr_apart (by decide) | refine ⟨?_, ?_⟩ | simp

example {sgcw side r intOrder : Int} {dx : Nat → ℚ} {beta : ℚ} {xb0 xst : Nat → ℚ} {β : Backend} (hβ : ValidBackend β) (p_sgcw : 1 ≤ sgcw)
    (q_sgcw : sgcw ≤ 3) (g_side : side = 0 ∨ side = 1) (g_r : r = 1 ∨ r = 4) (g_intOrder : intOrder = 1 ∨ intOrder = 2) : Test.adjCfDiag1d 10 31 11
    28 r side intOrder dx beta sgcw xb0 xst β = .ok true :=
  C104_adj_cf_diag_1d hβ (by told) (by told) (by told) (by exact fits_of (by decide)) (by interval_cases sgcw <;> exact fits_of (by decide))
      (by interval_cases sgcw <;> exact fits_of (by decide))

/-- src/cd_stencil_1d.t.cpp:349-389 -/
theorem C104_adj_poisson_cf_diag_1d {i0 i1 pi0 pi1 r side intOrder : Int} {dx : Nat → T} {beta : T} {sgcw : Int} {xst : Nat → T} {β : Backend}
    (hβ : ValidBackend β) (hi : i0 ≤ i1) (hg : 0 ≤ sgcw) (hl : Layer1 i0 i1 sgcw pi0 pi1 side) (h_st : F.Fits (F.st1d (at_ 0) i0 i1 sgcw).dims)
    (h_all : F.Fits [(0, 6), (i0 - sgcw, i1 + sgcw)]) : Test.adjPoissonCfDiag1d i0 i1 pi0 pi1 r side intOrder dx beta sgcw xst β = .ok true := by
  have I0 := h_st.int
  have I1 := h_all.int
  simp only [F.st1d, List.mem_cons, List.not_mem_nil, or_false, forall_eq_or_imp, forall_eq, InInt] at I0 I1
  have mk_i := mkB_ok (d := .I) (lo := i0) (hi := i1) (by unfold InInt; omega)
  have mk_w2 := mkB_ok (d := .W) (lo := 0) (hi := 6) (by unfold InInt; omega)
  obtain ⟨v0, n0, r0⟩ := offset_ok (T := T) (g := sgcw) (ds := [(.I, i0, i1), (.W, 0, 6)]) (by simp) (by simp) (by omega) (by simp <;> omega) h_all
  simp only [bounds, List.map_cons, List.map_nil] at n0
  unfold Test.adjPoissonCfDiag1d
  simp only [mk_i, mk_w2, n0, (r0.fill (xs := xst)).copy, (r0.fill (xs := xst)).host, M.ok_bind]
  refine compare_ok (L := [1, 0]) ?_ rfl rfl (F.ren_adjcellpoissoncfdiag1d (T := T) (perm_inv (L := [1, 0]) (by decide))) ?_ (by decide)
  · simp [(r0.fill (xs := xst)).same, (r0.fill (xs := xst)).sync]
  · refine C36_adj_poisson_cf_diag_1d hβ hi hg hl ⟨?_, ?_⟩
    · simp only [List.cons_append, List.nil_append, List.forall_mem_cons]
      refine ⟨arr_ok_le rfl (r0.fill (xs := xst)) (by simp [F.st1d, shape]; omega) h_st, ?_⟩
      simp
    · simp only [List.forall_mem_cons]
      repeat' first | exact arr_apart (by decide) | refine ⟨?_, ?_⟩ | simp

example {sgcw side r intOrder : Int} {dx : Nat → ℚ} {beta : ℚ} {xst : Nat → ℚ} {β : Backend} (hβ : ValidBackend β) (p_sgcw : 1 ≤ sgcw)
    (q_sgcw : sgcw ≤ 3) (g_side : side = 0 ∨ side = 1) (g_r : r = 1 ∨ r = 4) (g_intOrder : intOrder = 1 ∨ intOrder = 2) : Test.adjPoissonCfDiag1d 10
    31 11 28 r side intOrder dx beta sgcw xst β = .ok true :=
  C104_adj_poisson_cf_diag_1d hβ (by told) (by told) (by told) (by interval_cases sgcw <;> exact fits_of (by decide))
      (by interval_cases sgcw <;> exact fits_of (by decide))

/-- src/cd_stencil_1d.t.cpp:391-453 -/
theorem C104_adj_offdiag_1d {i0 i1 pi0 pi1 side btype exOrder : Int} {dx : Nat → T} {dir_factor neu_factor beta : T} {sgcw : Int}
    {xb0 xst : Nat → T} {β : Backend} (hβ : ValidBackend β) (hi : i0 ≤ i1) (hg : 0 ≤ sgcw) (hl : Layer1 i0 i1 0 pi0 pi1 side)
    (h_b0 : F.Fits (F.face1d (at_ 0) i0 i1 0).dims) (h_st : F.Fits (F.st1d (at_ 0) i0 i1 sgcw).dims) : Test.adjOffdiag1d i0 i1 pi0 pi1 side btype
    exOrder dx dir_factor neu_factor beta sgcw xb0 xst β = .ok true := by
  have I0 := h_b0.int
  have I1 := h_st.int
  simp only [F.face1d, F.st1d, List.mem_cons, List.not_mem_nil, or_false, forall_eq_or_imp, forall_eq, InInt] at I0 I1
  have mk_i := mkB_ok (d := .I) (lo := i0) (hi := i1) (by unfold InInt; omega)
  have mk_w := mkB_ok (d := .W) (lo := 0) (hi := 2) (by unfold InInt; omega)
  have pl_i := plus_ok (d := .I) (b := ⟨i0, i1 + 1, 1⟩) (x := 1) (by omega) (by simp only [InInt]; omega)
  obtain ⟨v0, n0, r0⟩ := vec_ok (T := T) (ds := [(.I, i0, i1 + 1)]) (by simp) (by simp) (by simp <;> omega) h_b0
  obtain ⟨v1, n1, r1⟩ := offset_ok (T := T) (g := sgcw) (ds := [(.I, i0, i1), (.W, 0, 2)]) (by simp) (by simp) (by omega) (by simp <;> omega) h_st
  simp only [bounds, List.map_cons, List.map_nil] at n0 n1
  unfold Test.adjOffdiag1d
  simp only [mk_i, mk_w, pl_i, n0, n1, (r1.fill (xs := xst)).copy, (r1.fill (xs := xst)).host, M.ok_bind]
  refine compare_ok (L := [0, 2, 1]) ?_ rfl rfl (F.ren_adjcelldiffusionoffdiag1d (T := T) (perm_inv (L := [0, 2, 1]) (by decide))) ?_ (by decide)
  · simp [(r0.fill (xs := xb0)).same, (r0.fill (xs := xb0)).sync, (r1.fill (xs := xst)).same, (r1.fill (xs := xst)).sync]
  · refine C36_adj_offdiag_1d hβ hi hg hl ⟨?_, ?_⟩
    · simp only [List.cons_append, List.nil_append, List.forall_mem_cons]
      refine ⟨arr_ok_of rfl (r0.fill (xs := xb0)) h_b0, arr_ok_of rfl (r1.fill (xs := xst)) h_st, ?_⟩
      simp
    · simp only [List.forall_mem_cons]
      repeat' first | exact arr_apart (by decide) | refine ⟨?_, ?_⟩ | simp

example {sgcw side btype exOrder : Int} {dx : Nat → ℚ} {dir_factor neu_factor beta : ℚ} {xb0 xst : Nat → ℚ} {β : Backend} (hβ : ValidBackend β)
    (p_sgcw : 1 ≤ sgcw) (q_sgcw : sgcw ≤ 3) (g_side : side = 0 ∨ side = 1) (g_btype : btype = 0 ∨ btype = 1 ∨ btype = 4)
    (g_exOrder : exOrder = 1 ∨ exOrder = 2) : Test.adjOffdiag1d 10 31 11 28 side btype exOrder dx dir_factor neu_factor beta sgcw xb0 xst β = .ok
    true :=
  C104_adj_offdiag_1d hβ (by told) (by told) (by told) (by exact fits_of (by decide)) (by interval_cases sgcw <;> exact fits_of (by decide))

/-- src/cd_stencil_1d.t.cpp:455-513 -/
theorem C104_adj_poisson_offdiag_1d {i0 i1 pi0 pi1 side btype exOrder : Int} {dx : Nat → T} {dir_factor neu_factor beta : T} {sgcw : Int}
    {xst : Nat → T} {β : Backend} (hβ : ValidBackend β) (hi : i0 ≤ i1) (hg : 0 ≤ sgcw) (hl : Layer1 i0 i1 sgcw pi0 pi1 side)
    (h_st : F.Fits (F.st1d (at_ 0) i0 i1 sgcw).dims) : Test.adjPoissonOffdiag1d i0 i1 pi0 pi1 side btype exOrder dx dir_factor neu_factor beta sgcw
    xst β = .ok true := by
  have I0 := h_st.int
  simp only [F.st1d, List.mem_cons, List.not_mem_nil, or_false, forall_eq_or_imp, forall_eq, InInt] at I0
  have mk_i := mkB_ok (d := .I) (lo := i0) (hi := i1) (by unfold InInt; omega)
  have mk_w := mkB_ok (d := .W) (lo := 0) (hi := 2) (by unfold InInt; omega)
  obtain ⟨v0, n0, r0⟩ := offset_ok (T := T) (g := sgcw) (ds := [(.I, i0, i1), (.W, 0, 2)]) (by simp) (by simp) (by omega) (by simp <;> omega) h_st
  simp only [bounds, List.map_cons, List.map_nil] at n0
  unfold Test.adjPoissonOffdiag1d
  simp only [mk_i, mk_w, n0, (r0.fill (xs := xst)).copy, (r0.fill (xs := xst)).host, M.ok_bind]
  refine compare_ok (L := [1, 0]) ?_ rfl rfl (F.ren_adjcellpoissonoffdiag1d (T := T) (perm_inv (L := [1, 0]) (by decide))) ?_ (by decide)
  · simp [(r0.fill (xs := xst)).same, (r0.fill (xs := xst)).sync]
  · refine C36_adj_poisson_offdiag_1d hβ hi hg hl ⟨?_, ?_⟩
    · simp only [List.cons_append, List.nil_append, List.forall_mem_cons]
      refine ⟨arr_ok_of rfl (r0.fill (xs := xst)) h_st, ?_⟩
      simp
    · simp only [List.forall_mem_cons]
      repeat' first | exact arr_apart (by decide) | refine ⟨?_, ?_⟩ | simp

example {sgcw side btype exOrder : Int} {dx : Nat → ℚ} {dir_factor neu_factor beta : ℚ} {xst : Nat → ℚ} {β : Backend} (hβ : ValidBackend β)
    (p_sgcw : 1 ≤ sgcw) (q_sgcw : sgcw ≤ 3) (g_side : side = 0 ∨ side = 1) (g_btype : btype = 0 ∨ btype = 1 ∨ btype = 4)
    (g_exOrder : exOrder = 1 ∨ exOrder = 2) : Test.adjPoissonOffdiag1d 10 31 11 28 side btype exOrder dx dir_factor neu_factor beta sgcw xst β = .ok
    true :=
  C104_adj_poisson_offdiag_1d hβ (by told) (by told) (by told) (by interval_cases sgcw <;> exact fits_of (by decide))

/-- src/cd_stencil_1d.t.cpp:515-552 -/
theorem C104_adj_cf_offdiag_1d {i0 i1 pi0 pi1 r side intOrder sgcw : Int} {xst : Nat → T} {β : Backend} (hβ : ValidBackend β) (hi : i0 ≤ i1)
    (hg : 0 ≤ sgcw) (hl : Layer1 i0 i1 sgcw pi0 pi1 side) (h_st : F.Fits (F.st1d (at_ 0) i0 i1 sgcw).dims) : Test.adjCfOffdiag1d i0 i1 pi0 pi1 r
    side intOrder sgcw xst β = .ok true := by
  have I0 := h_st.int
  simp only [F.st1d, List.mem_cons, List.not_mem_nil, or_false, forall_eq_or_imp, forall_eq, InInt] at I0
  have mk_i := mkB_ok (d := .I) (lo := i0) (hi := i1) (by unfold InInt; omega)
  have mk_w := mkB_ok (d := .W) (lo := 0) (hi := 2) (by unfold InInt; omega)
  obtain ⟨v0, n0, r0⟩ := offset_ok (T := T) (g := sgcw) (ds := [(.I, i0, i1), (.W, 0, 2)]) (by simp) (by simp) (by omega) (by simp <;> omega) h_st
  simp only [bounds, List.map_cons, List.map_nil] at n0
  unfold Test.adjCfOffdiag1d
  simp only [mk_i, mk_w, n0, (r0.fill (xs := xst)).copy, (r0.fill (xs := xst)).host, M.ok_bind]
  refine compare_ok (L := [1, 0]) ?_ rfl rfl (F.ren_adjcelldiffusioncfoffdiag1d (T := T) (perm_inv (L := [1, 0]) (by decide))) ?_ (by decide)
  · simp [(r0.fill (xs := xst)).same, (r0.fill (xs := xst)).sync]
  · refine C36_adj_cf_offdiag_1d hβ hi hg hl ⟨?_, ?_⟩
    · simp only [List.cons_append, List.nil_append, List.forall_mem_cons]
      refine ⟨arr_ok_of rfl (r0.fill (xs := xst)) h_st, ?_⟩
      simp
    · simp only [List.forall_mem_cons]
      repeat' first | exact arr_apart (by decide) | refine ⟨?_, ?_⟩ | simp

example {sgcw side r intOrder : Int} {xst : Nat → ℚ} {β : Backend} (hβ : ValidBackend β) (p_sgcw : 1 ≤ sgcw) (q_sgcw : sgcw ≤ 3)
    (g_side : side = 0 ∨ side = 1) (g_r : r = 1 ∨ r = 4) (g_intOrder : intOrder = 1 ∨ intOrder = 2) : Test.adjCfOffdiag1d 10 31 11 28 r side
    intOrder sgcw xst β = .ok true :=
  C104_adj_cf_offdiag_1d hβ (by told) (by told) (by told) (by interval_cases sgcw <;> exact fits_of (by decide))

/-- src/cd_stencil_1d.t.cpp:554-581 -/
theorem C104_readj_offdiag_1d {i0 i1 pi0 pi1 side sgcw : Int} {xst : Nat → T} {β : Backend} (hβ : ValidBackend β) (hi : i0 ≤ i1) (hg : 0 ≤ sgcw)
    (hl : Layer1 i0 i1 sgcw pi0 pi1 side) (h_st : F.Fits (F.st1d (at_ 0) i0 i1 sgcw).dims) : Test.readjOffdiag1d i0 i1 pi0 pi1 side sgcw xst β = .ok
    true := by
  have I0 := h_st.int
  simp only [F.st1d, List.mem_cons, List.not_mem_nil, or_false, forall_eq_or_imp, forall_eq, InInt] at I0
  have mk_i := mkB_ok (d := .I) (lo := i0) (hi := i1) (by unfold InInt; omega)
  have mk_w := mkB_ok (d := .W) (lo := 0) (hi := 2) (by unfold InInt; omega)
  obtain ⟨v0, n0, r0⟩ := offset_ok (T := T) (g := sgcw) (ds := [(.I, i0, i1), (.W, 0, 2)]) (by simp) (by simp) (by omega) (by simp <;> omega) h_st
  simp only [bounds, List.map_cons, List.map_nil] at n0
  unfold Test.readjOffdiag1d
  simp only [mk_i, mk_w, n0, (r0.fill (xs := xst)).copy, (r0.fill (xs := xst)).host, M.ok_bind]
  refine compare_ok (L := [1, 0]) ?_ rfl rfl (F.ren_readjcelldiffusionoffdiag1d (T := T) (perm_inv (L := [1, 0]) (by decide))) ?_ (by decide)
  · simp [(r0.fill (xs := xst)).same, (r0.fill (xs := xst)).sync]
  · refine C36_readj_offdiag_1d hβ hi hg hl ⟨?_, ?_⟩
    · simp only [List.cons_append, List.nil_append, List.forall_mem_cons]
      refine ⟨arr_ok_of rfl (r0.fill (xs := xst)) h_st, ?_⟩
      simp
    · simp only [List.forall_mem_cons]
      repeat' first | exact arr_apart (by decide) | refine ⟨?_, ?_⟩ | simp

example {sgcw side : Int} {xst : Nat → ℚ} {β : Backend} (hβ : ValidBackend β) (p_sgcw : 1 ≤ sgcw) (q_sgcw : sgcw ≤ 3) (g_side : side = 0 ∨ side = 1)
    : Test.readjOffdiag1d 10 31 11 28 side sgcw xst β = .ok true :=
  C104_readj_offdiag_1d hβ (by told) (by told) (by told) (by interval_cases sgcw <;> exact fits_of (by decide))

/-- src/cd_stencil_1d.t.cpp:583-632 -/
theorem C104_adj_cf_bdryrhs_1d {i0 i1 pi0 pi1 side sgcw gcw : Int} {xst xu xrhs : Nat → T} {β : Backend} (hβ : ValidBackend β) (hi : i0 ≤ i1)
    (hg : 0 ≤ sgcw) (hu : 1 ≤ gcw) (hl : Layer1 i0 i1 0 pi0 pi1 side) (h_u : F.Fits (F.cell1d (at_ 0) i0 i1 gcw).dims)
    (h_st : F.Fits (F.st1d (at_ 0) i0 i1 sgcw).dims) (h_rhs : F.Fits (F.cell1d (at_ 0) i0 i1 0).dims) : Test.adjCfBdryrhs1d i0 i1 pi0 pi1 side sgcw
    gcw xst xu xrhs β = .ok true := by
  have I0 := h_u.int
  have I1 := h_st.int
  have I2 := h_rhs.int
  simp only [F.cell1d, F.st1d, List.mem_cons, List.not_mem_nil, or_false, forall_eq_or_imp, forall_eq, InInt] at I0 I1 I2
  have mk_i := mkB_ok (d := .I) (lo := i0) (hi := i1) (by unfold InInt; omega)
  have mk_w := mkB_ok (d := .W) (lo := 0) (hi := 2) (by unfold InInt; omega)
  obtain ⟨v0, n0, r0⟩ := offset_ok (T := T) (g := sgcw) (ds := [(.I, i0, i1), (.W, 0, 2)]) (by simp) (by simp) (by omega) (by simp <;> omega) h_st
  obtain ⟨v1, n1, r1⟩ := offset_ok (T := T) (g := gcw) (ds := [(.I, i0, i1)]) (by simp) (by simp) (by omega) (by simp <;> omega) h_u
  obtain ⟨v2, n2, r2⟩ := vec_ok (T := T) (ds := [(.I, i0, i1)]) (by simp) (by simp) (by simp <;> omega) h_rhs
  simp only [bounds, List.map_cons, List.map_nil] at n0 n1 n2
  unfold Test.adjCfBdryrhs1d
  simp only [mk_i, mk_w, n0, n1, n2, (r2.fill (xs := xrhs)).copy, (r2.fill (xs := xrhs)).host, M.ok_bind]
  refine compare_ok (L := [0, 1, 3, 2]) ?_ rfl rfl (F.ren_adjcelldiffusioncfbdryrhs1d (T := T) (perm_inv (L := [0, 1, 3, 2]) (by decide))) ?_
      (by decide)
  · simp [(r0.fill (xs := xst)).same, (r0.fill (xs := xst)).sync, (r1.fill (xs := xu)).same, (r1.fill (xs := xu)).sync, (r2.fill (xs := xrhs)).same,
        (r2.fill (xs := xrhs)).sync]
  · refine C36_adj_cf_bdryrhs_1d hβ hi hg hu hl ⟨?_, ?_⟩
    · simp only [List.cons_append, List.nil_append, List.forall_mem_cons]
      refine ⟨arr_ok_of rfl (r1.fill (xs := xu)) h_u, arr_ok_of rfl (r0.fill (xs := xst)) h_st, arr_ok_of rfl (r2.fill (xs := xrhs)) h_rhs, ?_⟩
      simp
    · simp only [List.forall_mem_cons]
      repeat' first | exact arr_apart (by decide) | refine ⟨?_, ?_⟩ | simp

example {sgcw gcw side : Int} {xst xu xrhs : Nat → ℚ} {β : Backend} (hβ : ValidBackend β) (p_sgcw : 1 ≤ sgcw) (q_sgcw : sgcw ≤ 3) (p_gcw : 1 ≤ gcw)
    (q_gcw : gcw ≤ 3) (g_side : side = 0 ∨ side = 1) : Test.adjCfBdryrhs1d 10 31 14 28 side sgcw gcw xst xu xrhs β = .ok true :=
  C104_adj_cf_bdryrhs_1d hβ (by told) (by told) (by told) (by told) (by interval_cases gcw <;> exact fits_of (by decide))
      (by interval_cases sgcw <;> exact fits_of (by decide)) (by exact fits_of (by decide))

/-- src/cd_stencil_2d.t.cpp:52-108 -/
theorem C104_offdiag_2d {i0 j0 i1 j1 bi0 bj0 bi1 bj1 : Int} {dx : Nat → T} {beta : T} {sgcw : Int} {xb0 xb1 : Nat → T} {β : Backend}
    (hβ : ValidBackend β) (hi : i0 ≤ i1) (hj : j0 ≤ j1) (hbi : bi0 ≤ i0 ∧ i1 ≤ bi1) (hbj : bj0 ≤ j0 ∧ j1 ≤ bj1) (hg : 0 ≤ sgcw)
    (h_b0 : F.Fits (F.face2d0 (at_ 0) bi0 bj0 bi1 bj1 0).dims) (h_b1 : F.Fits (F.face2d1 (at_ 0) bi0 bj0 bi1 bj1 0).dims)
    (h_st : F.Fits (F.st2d (at_ 0) i0 j0 i1 j1 sgcw).dims) : Test.offdiag2d i0 j0 i1 j1 bi0 bj0 bi1 bj1 dx beta sgcw xb0 xb1 β = .ok true := by
  have I0 := h_b0.int
  have I1 := h_b1.int
  have I2 := h_st.int
  simp only [F.face2d0, F.face2d1, F.st2d, List.mem_cons, List.not_mem_nil, or_false, forall_eq_or_imp, forall_eq, InInt] at I0 I1 I2
  have mk_bj := mkB_ok (d := .J) (lo := bj0) (hi := bj1) (by unfold InInt; omega)
  have mk_bi := mkB_ok (d := .I) (lo := bi0) (hi := bi1) (by unfold InInt; omega)
  have mk_j := mkB_ok (d := .J) (lo := j0) (hi := j1) (by unfold InInt; omega)
  have mk_i := mkB_ok (d := .I) (lo := i0) (hi := i1) (by unfold InInt; omega)
  have mk_w := mkB_ok (d := .W) (lo := 0) (hi := 4) (by unfold InInt; omega)
  have pl_bi := plus_ok (d := .I) (b := ⟨bi0, bi1 + 1, 1⟩) (x := 1) (by omega) (by simp only [InInt]; omega)
  have pl_bj := plus_ok (d := .J) (b := ⟨bj0, bj1 + 1, 1⟩) (x := 1) (by omega) (by simp only [InInt]; omega)
  obtain ⟨v0, n0, r0⟩ := vec_ok (T := T) (ds := [(.J, bj0, bj1), (.I, bi0, bi1 + 1)]) (by simp) (by simp) (by simp <;> omega) h_b0
  obtain ⟨v1, n1, r1⟩ := vec_ok (T := T) (ds := [(.I, bi0, bi1), (.J, bj0, bj1 + 1)]) (by simp) (by simp) (by simp <;> omega) h_b1
  obtain ⟨v2, n2, r2⟩ := offset_ok (T := T) (g := sgcw) (ds := [(.J, j0, j1), (.I, i0, i1), (.W, 0, 4)]) (by simp) (by simp) (by omega)
      (by simp <;> omega) h_st
  simp only [bounds, List.map_cons, List.map_nil] at n0 n1 n2
  unfold Test.offdiag2d
  simp only [mk_bj, mk_bi, mk_j, mk_i, mk_w, pl_bi, pl_bj, n0, n1, n2, M.ok_bind]
  refine compare_ok (L := [0, 1, 3, 2]) ?_ rfl rfl (F.ren_celldiffusionoffdiag2d (T := T) (perm_inv (L := [0, 1, 3, 2]) (by decide))) ?_ (by decide)
  · simp [(r0.fill (xs := xb0)).same, (r0.fill (xs := xb0)).sync, (r1.fill (xs := xb1)).same, (r1.fill (xs := xb1)).sync, r2.same, r2.sync]
  · refine C36_offdiag_2d hβ hi hj hbi hbj hg ⟨?_, ?_⟩
    · simp only [List.cons_append, List.nil_append, List.forall_mem_cons]
      refine ⟨arr_ok_of rfl (r0.fill (xs := xb0)) h_b0, arr_ok_of rfl (r1.fill (xs := xb1)) h_b1, arr_ok_of rfl r2 h_st, ?_⟩
      simp
    · simp only [List.forall_mem_cons]
      repeat' first | exact arr_apart (by decide) | refine ⟨?_, ?_⟩ | simp

example {bi0 bj0 bi1 bj1 sgcw : Int} {dx : Nat → ℚ} {beta : ℚ} {xb0 xb1 : Nat → ℚ} {β : Backend} (hβ : ValidBackend β) (p_bi0 : 7 ≤ bi0)
    (q_bi0 : bi0 ≤ 9) (p_bj0 : 37 ≤ bj0) (q_bj0 : bj0 ≤ 39) (p_bi1 : 33 ≤ bi1) (q_bi1 : bi1 ≤ 35) (p_bj1 : 80 ≤ bj1) (q_bj1 : bj1 ≤ 82)
    (p_sgcw : 1 ≤ sgcw) (q_sgcw : sgcw ≤ 3) : Test.offdiag2d 10 40 31 78 bi0 bj0 bi1 bj1 dx beta sgcw xb0 xb1 β = .ok true :=
  C104_offdiag_2d hβ (by told) (by told) (by told) (by told) (by told)
      (by interval_cases bi0 <;> interval_cases bj0 <;> interval_cases bi1 <;> interval_cases bj1 <;> exact fits_of (by decide))
      (by interval_cases bi0 <;> interval_cases bj0 <;> interval_cases bi1 <;> interval_cases bj1 <;> exact fits_of (by decide))
      (by interval_cases sgcw <;> exact fits_of (by decide))

/-- src/cd_stencil_2d.t.cpp:110-132 -/
theorem C104_poisson_offdiag_2d {i0 j0 i1 j1 : Int} {dx : Nat → T} {beta : T} {sgcw : Int} {β : Backend} (hβ : ValidBackend β) (hi : i0 ≤ i1)
    (hj : j0 ≤ j1) (hg : 0 ≤ sgcw) (h_st : F.Fits (F.st2d (at_ 0) i0 j0 i1 j1 sgcw).dims) : Test.poissonOffdiag2d i0 j0 i1 j1 dx beta sgcw β = .ok
    true := by
  have I0 := h_st.int
  simp only [F.st2d, List.mem_cons, List.not_mem_nil, or_false, forall_eq_or_imp, forall_eq, InInt] at I0
  have mk_j := mkB_ok (d := .J) (lo := j0) (hi := j1) (by unfold InInt; omega)
  have mk_i := mkB_ok (d := .I) (lo := i0) (hi := i1) (by unfold InInt; omega)
  have mk_w := mkB_ok (d := .W) (lo := 0) (hi := 4) (by unfold InInt; omega)
  obtain ⟨v0, n0, r0⟩ := offset_ok (T := T) (g := sgcw) (ds := [(.J, j0, j1), (.I, i0, i1), (.W, 0, 4)]) (by simp) (by simp) (by omega)
      (by simp <;> omega) h_st
  simp only [bounds, List.map_cons, List.map_nil] at n0
  unfold Test.poissonOffdiag2d
  simp only [mk_j, mk_i, mk_w, n0, M.ok_bind]
  refine compare_ok (L := [1, 0]) ?_ rfl rfl (F.ren_cellpoissonoffdiag2d (T := T) (perm_inv (L := [1, 0]) (by decide))) ?_ (by decide)
  · simp [r0.same, r0.sync]
  · refine C36_poisson_offdiag_2d hβ hi hj hg ⟨?_, ?_⟩
    · simp only [List.cons_append, List.nil_append, List.forall_mem_cons]
      refine ⟨arr_ok_of rfl r0 h_st, ?_⟩
      simp
    · simp only [List.forall_mem_cons]
      repeat' first | exact arr_apart (by decide) | refine ⟨?_, ?_⟩ | simp

example {sgcw : Int} {dx : Nat → ℚ} {beta : ℚ} {β : Backend} (hβ : ValidBackend β) (p_sgcw : 1 ≤ sgcw) (q_sgcw : sgcw ≤ 3) : Test.poissonOffdiag2d
    10 15 21 35 dx beta sgcw β = .ok true :=
  C104_poisson_offdiag_2d hβ (by told) (by told) (by told) (by interval_cases sgcw <;> exact fits_of (by decide))

/-- src/cd_stencil_2d.t.cpp:134-175 -/
theorem C104_v1diag_2d {i0 j0 i1 j1 ai0 aj0 ai1 aj1 : Int} {alpha : T} {sgcw : Int} {xst xa : Nat → T} {β : Backend} (hβ : ValidBackend β)
    (hi : i0 ≤ i1) (hj : j0 ≤ j1) (hai : ai0 ≤ i0 ∧ i1 ≤ ai1) (haj : aj0 ≤ j0 ∧ j1 ≤ aj1) (hg : 0 ≤ sgcw)
    (h_a : F.Fits (F.cell2d (at_ 0) ai0 aj0 ai1 aj1 0).dims) (h_st : F.Fits (F.st2d (at_ 0) i0 j0 i1 j1 sgcw).dims) : Test.v1diag2d i0 j0 i1 j1 ai0
    aj0 ai1 aj1 alpha sgcw xst xa β = .ok true := by
  have I0 := h_a.int
  have I1 := h_st.int
  simp only [F.cell2d, F.st2d, List.mem_cons, List.not_mem_nil, or_false, forall_eq_or_imp, forall_eq, InInt] at I0 I1
  have mk_j := mkB_ok (d := .J) (lo := j0) (hi := j1) (by unfold InInt; omega)
  have mk_i := mkB_ok (d := .I) (lo := i0) (hi := i1) (by unfold InInt; omega)
  have mk_w := mkB_ok (d := .W) (lo := 0) (hi := 4) (by unfold InInt; omega)
  have mk_aj := mkB_ok (d := .J) (lo := aj0) (hi := aj1) (by unfold InInt; omega)
  have mk_ai := mkB_ok (d := .I) (lo := ai0) (hi := ai1) (by unfold InInt; omega)
  obtain ⟨v0, n0, r0⟩ := offset_ok (T := T) (g := sgcw) (ds := [(.J, j0, j1), (.I, i0, i1), (.W, 0, 4)]) (by simp) (by simp) (by omega)
      (by simp <;> omega) h_st
  obtain ⟨v1, n1, r1⟩ := vec_ok (T := T) (ds := [(.J, aj0, aj1), (.I, ai0, ai1)]) (by simp) (by simp) (by simp <;> omega) h_a
  simp only [bounds, List.map_cons, List.map_nil] at n0 n1
  unfold Test.v1diag2d
  simp only [mk_j, mk_i, mk_w, mk_aj, mk_ai, n0, n1, (r0.fill (xs := xst)).copy, (r0.fill (xs := xst)).host, M.ok_bind]
  refine compare_ok (L := [2, 1, 0]) ?_ rfl rfl (F.ren_celldiffusionv1diag2d (T := T) (perm_inv (L := [2, 1, 0]) (by decide))) ?_ (by decide)
  · simp [(r0.fill (xs := xst)).same, (r0.fill (xs := xst)).sync, (r1.fill (xs := xa)).same, (r1.fill (xs := xa)).sync]
  · refine C36_v1diag_2d hβ hi hj hai haj hg ⟨?_, ?_⟩
    · simp only [List.cons_append, List.nil_append, List.forall_mem_cons]
      refine ⟨arr_ok_of rfl (r1.fill (xs := xa)) h_a, arr_ok_of rfl (r0.fill (xs := xst)) h_st, ?_⟩
      simp
    · simp only [List.forall_mem_cons]
      repeat' first | exact arr_apart (by decide) | refine ⟨?_, ?_⟩ | simp

example {sgcw ai0 aj0 ai1 aj1 : Int} {alpha : ℚ} {xst xa : Nat → ℚ} {β : Backend} (hβ : ValidBackend β) (p_sgcw : 1 ≤ sgcw) (q_sgcw : sgcw ≤ 3)
    (p_ai0 : 7 ≤ ai0) (q_ai0 : ai0 ≤ 9) (p_aj0 : 12 ≤ aj0) (q_aj0 : aj0 ≤ 14) (p_ai1 : 23 ≤ ai1) (q_ai1 : ai1 ≤ 25) (p_aj1 : 37 ≤ aj1)
    (q_aj1 : aj1 ≤ 39) : Test.v1diag2d 10 15 21 35 ai0 aj0 ai1 aj1 alpha sgcw xst xa β = .ok true :=
  C104_v1diag_2d hβ (by told) (by told) (by told) (by told) (by told)
      (by interval_cases ai0 <;> interval_cases aj0 <;> interval_cases ai1 <;> interval_cases aj1 <;> exact fits_of (by decide))
      (by interval_cases sgcw <;> exact fits_of (by decide))

/-- src/cd_stencil_2d.t.cpp:177-202 -/
theorem C104_v2diag_2d {i0 j0 i1 j1 : Int} {alpha : T} {sgcw : Int} {xst : Nat → T} {β : Backend} (hβ : ValidBackend β) (hi : i0 ≤ i1)
    (hj : j0 ≤ j1) (hg : 0 ≤ sgcw) (h_st : F.Fits (F.st2d (at_ 0) i0 j0 i1 j1 sgcw).dims) : Test.v2diag2d i0 j0 i1 j1 alpha sgcw xst β = .ok true :=
    by
  have I0 := h_st.int
  simp only [F.st2d, List.mem_cons, List.not_mem_nil, or_false, forall_eq_or_imp, forall_eq, InInt] at I0
  have mk_j := mkB_ok (d := .J) (lo := j0) (hi := j1) (by unfold InInt; omega)
  have mk_i := mkB_ok (d := .I) (lo := i0) (hi := i1) (by unfold InInt; omega)
  have mk_w := mkB_ok (d := .W) (lo := 0) (hi := 4) (by unfold InInt; omega)
  obtain ⟨v0, n0, r0⟩ := offset_ok (T := T) (g := sgcw) (ds := [(.J, j0, j1), (.I, i0, i1), (.W, 0, 4)]) (by simp) (by simp) (by omega)
      (by simp <;> omega) h_st
  simp only [bounds, List.map_cons, List.map_nil] at n0
  unfold Test.v2diag2d
  simp only [mk_j, mk_i, mk_w, n0, (r0.fill (xs := xst)).copy, (r0.fill (xs := xst)).host, M.ok_bind]
  refine compare_ok (L := [1, 0]) ?_ rfl rfl (F.ren_celldiffusionv2diag2d (T := T) (perm_inv (L := [1, 0]) (by decide))) ?_ (by decide)
  · simp [(r0.fill (xs := xst)).same, (r0.fill (xs := xst)).sync]
  · refine C36_v2diag_2d hβ hi hj hg ⟨?_, ?_⟩
    · simp only [List.cons_append, List.nil_append, List.forall_mem_cons]
      refine ⟨arr_ok_of rfl (r0.fill (xs := xst)) h_st, ?_⟩
      simp
    · simp only [List.forall_mem_cons]
      repeat' first | exact arr_apart (by decide) | refine ⟨?_, ?_⟩ | simp

example {sgcw : Int} {alpha : ℚ} {xst : Nat → ℚ} {β : Backend} (hβ : ValidBackend β) (p_sgcw : 1 ≤ sgcw) (q_sgcw : sgcw ≤ 3) : Test.v2diag2d 10 15
    21 35 alpha sgcw xst β = .ok true :=
  C104_v2diag_2d hβ (by told) (by told) (by told) (by interval_cases sgcw <;> exact fits_of (by decide))

/-- src/cd_stencil_2d.t.cpp:204-228 -/
theorem C104_poisson_diag_2d {i0 j0 i1 j1 sgcw : Int} {xst : Nat → T} {β : Backend} (hβ : ValidBackend β) (hi : i0 ≤ i1) (hj : j0 ≤ j1)
    (hg : 0 ≤ sgcw) (h_st : F.Fits (F.st2d (at_ 0) i0 j0 i1 j1 sgcw).dims) : Test.poissonDiag2d i0 j0 i1 j1 sgcw xst β = .ok true := by
  have I0 := h_st.int
  simp only [F.st2d, List.mem_cons, List.not_mem_nil, or_false, forall_eq_or_imp, forall_eq, InInt] at I0
  have mk_j := mkB_ok (d := .J) (lo := j0) (hi := j1) (by unfold InInt; omega)
  have mk_i := mkB_ok (d := .I) (lo := i0) (hi := i1) (by unfold InInt; omega)
  have mk_w := mkB_ok (d := .W) (lo := 0) (hi := 4) (by unfold InInt; omega)
  obtain ⟨v0, n0, r0⟩ := offset_ok (T := T) (g := sgcw) (ds := [(.J, j0, j1), (.I, i0, i1), (.W, 0, 4)]) (by simp) (by simp) (by omega)
      (by simp <;> omega) h_st
  simp only [bounds, List.map_cons, List.map_nil] at n0
  unfold Test.poissonDiag2d
  simp only [mk_j, mk_i, mk_w, n0, (r0.fill (xs := xst)).copy, (r0.fill (xs := xst)).host, M.ok_bind]
  refine compare_ok (L := [1, 0]) ?_ rfl rfl (F.ren_cellpoissondiag2d (T := T) (perm_inv (L := [1, 0]) (by decide))) ?_ (by decide)
  · simp [(r0.fill (xs := xst)).same, (r0.fill (xs := xst)).sync]
  · refine C36_poisson_diag_2d hβ hi hj hg ⟨?_, ?_⟩
    · simp only [List.cons_append, List.nil_append, List.forall_mem_cons]
      refine ⟨arr_ok_of rfl (r0.fill (xs := xst)) h_st, ?_⟩
      simp
    · simp only [List.forall_mem_cons]
      repeat' first | exact arr_apart (by decide) | refine ⟨?_, ?_⟩ | simp

example {sgcw : Int} {xst : Nat → ℚ} {β : Backend} (hβ : ValidBackend β) (p_sgcw : 1 ≤ sgcw) (q_sgcw : sgcw ≤ 3) : Test.poissonDiag2d 10 15 21 35
    sgcw xst β = .ok true :=
  C104_poisson_diag_2d hβ (by told) (by told) (by told) (by interval_cases sgcw <;> exact fits_of (by decide))

/-- src/cd_stencil_2d.t.cpp:230-300 -/
theorem C104_adj_diag_2d {i0 j0 i1 j1 pi0 pj0 pi1 pj1 dir side btype exOrder : Int} {dx : Nat → T} {beta : T} {sgcw : Int} {xst xb0 xb1 : Nat → T}
    {β : Backend} (hβ : ValidBackend β) (hi : i0 ≤ i1) (hj : j0 ≤ j1) (hg : 0 ≤ sgcw) (hs1 : btype = 0 → side = 1 → 1 ≤ sgcw)
    (hl : Layer2 i0 j0 i1 j1 0 pi0 pj0 pi1 pj1 dir side) (h_b0 : F.Fits (F.face2d0 (at_ 0) i0 j0 i1 j1 0).dims)
    (h_b1 : F.Fits (F.face2d1 (at_ 0) i0 j0 i1 j1 0).dims) (h_st : F.Fits (F.st2d (at_ 0) i0 j0 i1 j1 sgcw).dims) : Test.adjDiag2d i0 j0 i1 j1 pi0
    pj0 pi1 pj1 dir side btype exOrder dx beta sgcw xst xb0 xb1 β = .ok true := by
  have I0 := h_b0.int
  have I1 := h_b1.int
  have I2 := h_st.int
  simp only [F.face2d0, F.face2d1, F.st2d, List.mem_cons, List.not_mem_nil, or_false, forall_eq_or_imp, forall_eq, InInt] at I0 I1 I2
  have mk_j := mkB_ok (d := .J) (lo := j0) (hi := j1) (by unfold InInt; omega)
  have mk_i := mkB_ok (d := .I) (lo := i0) (hi := i1) (by unfold InInt; omega)
  have mk_w := mkB_ok (d := .W) (lo := 0) (hi := 4) (by unfold InInt; omega)
  have pl_i := plus_ok (d := .I) (b := ⟨i0, i1 + 1, 1⟩) (x := 1) (by omega) (by simp only [InInt]; omega)
  have pl_j := plus_ok (d := .J) (b := ⟨j0, j1 + 1, 1⟩) (x := 1) (by omega) (by simp only [InInt]; omega)
  obtain ⟨v0, n0, r0⟩ := offset_ok (T := T) (g := sgcw) (ds := [(.J, j0, j1), (.I, i0, i1), (.W, 0, 4)]) (by simp) (by simp) (by omega)
      (by simp <;> omega) h_st
  obtain ⟨v1, n1, r1⟩ := vec_ok (T := T) (ds := [(.J, j0, j1), (.I, i0, i1 + 1)]) (by simp) (by simp) (by simp <;> omega) h_b0
  obtain ⟨v2, n2, r2⟩ := vec_ok (T := T) (ds := [(.I, i0, i1), (.J, j0, j1 + 1)]) (by simp) (by simp) (by simp <;> omega) h_b1
  simp only [bounds, List.map_cons, List.map_nil] at n0 n1 n2
  unfold Test.adjDiag2d
  simp only [mk_j, mk_i, mk_w, pl_i, pl_j, n0, n1, n2, (r0.fill (xs := xst)).copy, (r0.fill (xs := xst)).host, M.ok_bind]
  refine compare_ok (L := [3, 1, 2, 0]) ?_ rfl rfl (F.ren_adjcelldiffusiondiag2d (T := T) (perm_inv (L := [3, 1, 2, 0]) (by decide))) ?_ (by decide)
  · simp [(r0.fill (xs := xst)).same, (r0.fill (xs := xst)).sync, (r1.fill (xs := xb0)).same, (r1.fill (xs := xb0)).sync, (r2.fill (xs :=
        xb1)).same, (r2.fill (xs := xb1)).sync]
  · refine C36_adj_diag_2d hβ hi hj hg hs1 hl ⟨?_, ?_⟩
    · simp only [List.cons_append, List.nil_append, List.forall_mem_cons]
      refine ⟨arr_ok_of rfl (r1.fill (xs := xb0)) h_b0, arr_ok_of rfl (r2.fill (xs := xb1)) h_b1, arr_ok_of rfl (r0.fill (xs := xst)) h_st, ?_⟩
      simp
    · simp only [List.forall_mem_cons]
      repeat' first | exact arr_apart (by decide) | refine ⟨?_, ?_⟩ | simp

example {sgcw dir side btype exOrder : Int} {dx : Nat → ℚ} {beta : ℚ} {xst xb0 xb1 : Nat → ℚ} {β : Backend} (hβ : ValidBackend β)
    (p_sgcw : 1 ≤ sgcw) (q_sgcw : sgcw ≤ 3) (g_dir : dir = 0 ∨ dir = 1) (g_side : side = 0 ∨ side = 1) (g_btype : btype = 0 ∨ btype = 1 ∨ btype = 4)
    (g_exOrder : exOrder = 1 ∨ exOrder = 2) : Test.adjDiag2d 10 90 31 131 11 92 28 127 dir side btype exOrder dx beta sgcw xst xb0 xb1 β = .ok true
    :=
  C104_adj_diag_2d hβ (by told) (by told) (by told) (by told) (by told) (by exact fits_of (by decide)) (by exact fits_of (by decide))
      (by interval_cases sgcw <;> exact fits_of (by decide))

/-- src/cd_stencil_2d.t.cpp:302-364 -/
theorem C104_adj_poisson_diag_2d {i0 j0 i1 j1 pi0 pj0 pi1 pj1 dir side btype exOrder : Int} {dx : Nat → T} {beta : T} {sgcw : Int} {xst : Nat → T}
    {β : Backend} (hβ : ValidBackend β) (hi : i0 ≤ i1) (hj : j0 ≤ j1) (hg : 0 ≤ sgcw) (hl : Layer2 i0 j0 i1 j1 sgcw pi0 pj0 pi1 pj1 dir side)
    (h_st : F.Fits (F.st2d (at_ 0) i0 j0 i1 j1 sgcw).dims) : Test.adjPoissonDiag2d i0 j0 i1 j1 pi0 pj0 pi1 pj1 dir side btype exOrder dx beta sgcw
    xst β = .ok true := by
  have I0 := h_st.int
  simp only [F.st2d, List.mem_cons, List.not_mem_nil, or_false, forall_eq_or_imp, forall_eq, InInt] at I0
  have mk_j := mkB_ok (d := .J) (lo := j0) (hi := j1) (by unfold InInt; omega)
  have mk_i := mkB_ok (d := .I) (lo := i0) (hi := i1) (by unfold InInt; omega)
  have mk_w := mkB_ok (d := .W) (lo := 0) (hi := 4) (by unfold InInt; omega)
  obtain ⟨v0, n0, r0⟩ := offset_ok (T := T) (g := sgcw) (ds := [(.J, j0, j1), (.I, i0, i1), (.W, 0, 4)]) (by simp) (by simp) (by omega)
      (by simp <;> omega) h_st
  simp only [bounds, List.map_cons, List.map_nil] at n0
  unfold Test.adjPoissonDiag2d
  simp only [mk_j, mk_i, mk_w, n0, (r0.fill (xs := xst)).copy, (r0.fill (xs := xst)).host, M.ok_bind]
  refine compare_ok (L := [1, 0]) ?_ rfl rfl (F.ren_adjcellpoissondiag2d (T := T) (perm_inv (L := [1, 0]) (by decide))) ?_ (by decide)
  · simp [(r0.fill (xs := xst)).same, (r0.fill (xs := xst)).sync]
  · refine C36_adj_poisson_diag_2d hβ hi hj hg hl ⟨?_, ?_⟩
    · simp only [List.cons_append, List.nil_append, List.forall_mem_cons]
      refine ⟨arr_ok_of rfl (r0.fill (xs := xst)) h_st, ?_⟩
      simp
    · simp only [List.forall_mem_cons]
      repeat' first | exact arr_apart (by decide) | refine ⟨?_, ?_⟩ | simp

example {sgcw dir side btype exOrder : Int} {dx : Nat → ℚ} {beta : ℚ} {xst : Nat → ℚ} {β : Backend} (hβ : ValidBackend β) (p_sgcw : 1 ≤ sgcw)
    (q_sgcw : sgcw ≤ 3) (g_dir : dir = 0 ∨ dir = 1) (g_side : side = 0 ∨ side = 1) (g_btype : btype = 0 ∨ btype = 4)
    (g_exOrder : exOrder = 1 ∨ exOrder = 2) : Test.adjPoissonDiag2d 10 90 31 131 11 92 28 127 dir side btype exOrder dx beta sgcw xst β = .ok true
    :=
  C104_adj_poisson_diag_2d hβ (by told) (by told) (by told) (by told) (by interval_cases sgcw <;> exact fits_of (by decide))

/-- src/cd_stencil_2d.t.cpp:366-435 -/
theorem C104_adj_cf_diag_2d {i0 j0 i1 j1 pi0 pj0 pi1 pj1 r dir side intOrder : Int} {dx : Nat → T} {beta : T} {sgcw : Int} {xst xb0 xb1 : Nat → T}
    {β : Backend} (hβ : ValidBackend β) (hi : i0 ≤ i1) (hj : j0 ≤ j1) (hg : 0 ≤ sgcw) (hl : Layer2 i0 j0 i1 j1 0 pi0 pj0 pi1 pj1 dir side)
    (h_b0 : F.Fits (F.face2d0 (at_ 0) i0 j0 i1 j1 0).dims) (h_b1 : F.Fits (F.face2d1 (at_ 0) i0 j0 i1 j1 0).dims)
    (h_st : F.Fits (F.st2d (at_ 0) i0 j0 i1 j1 sgcw).dims) : Test.adjCfDiag2d i0 j0 i1 j1 pi0 pj0 pi1 pj1 r dir side intOrder dx beta sgcw xst xb0
    xb1 β = .ok true := by
  have I0 := h_b0.int
  have I1 := h_b1.int
  have I2 := h_st.int
  simp only [F.face2d0, F.face2d1, F.st2d, List.mem_cons, List.not_mem_nil, or_false, forall_eq_or_imp, forall_eq, InInt] at I0 I1 I2
  have mk_j := mkB_ok (d := .J) (lo := j0) (hi := j1) (by unfold InInt; omega)
  have mk_i := mkB_ok (d := .I) (lo := i0) (hi := i1) (by unfold InInt; omega)
  have mk_w := mkB_ok (d := .W) (lo := 0) (hi := 4) (by unfold InInt; omega)
  have pl_i := plus_ok (d := .I) (b := ⟨i0, i1 + 1, 1⟩) (x := 1) (by omega) (by simp only [InInt]; omega)
  have pl_j := plus_ok (d := .J) (b := ⟨j0, j1 + 1, 1⟩) (x := 1) (by omega) (by simp only [InInt]; omega)
  obtain ⟨v0, n0, r0⟩ := offset_ok (T := T) (g := sgcw) (ds := [(.J, j0, j1), (.I, i0, i1), (.W, 0, 4)]) (by simp) (by simp) (by omega)
      (by simp <;> omega) h_st
  obtain ⟨v1, n1, r1⟩ := vec_ok (T := T) (ds := [(.J, j0, j1), (.I, i0, i1 + 1)]) (by simp) (by simp) (by simp <;> omega) h_b0
  obtain ⟨v2, n2, r2⟩ := vec_ok (T := T) (ds := [(.I, i0, i1), (.J, j0, j1 + 1)]) (by simp) (by simp) (by simp <;> omega) h_b1
  simp only [bounds, List.map_cons, List.map_nil] at n0 n1 n2
  unfold Test.adjCfDiag2d
  simp only [mk_j, mk_i, mk_w, pl_i, pl_j, n0, n1, n2, (r0.fill (xs := xst)).copy, (r0.fill (xs := xst)).host, M.ok_bind]
  refine compare_ok (L := [3, 1, 2, 0]) ?_ rfl rfl (F.ren_adjcelldiffusioncfdiag2d (T := T) (perm_inv (L := [3, 1, 2, 0]) (by decide))) ?_
      (by decide)
  · simp [(r0.fill (xs := xst)).same, (r0.fill (xs := xst)).sync, (r1.fill (xs := xb0)).same, (r1.fill (xs := xb0)).sync, (r2.fill (xs :=
        xb1)).same, (r2.fill (xs := xb1)).sync]
  · refine C36_adj_cf_diag_2d hβ hi hj hg hl ⟨?_, ?_⟩
    · simp only [List.cons_append, List.nil_append, List.forall_mem_cons]
      refine ⟨arr_ok_of rfl (r1.fill (xs := xb0)) h_b0, arr_ok_of rfl (r2.fill (xs := xb1)) h_b1, arr_ok_of rfl (r0.fill (xs := xst)) h_st, ?_⟩
      simp
    · simp only [List.forall_mem_cons]
      repeat' first | exact arr_apart (by decide) | refine ⟨?_, ?_⟩ | simp

example {sgcw dir side r intOrder : Int} {dx : Nat → ℚ} {beta : ℚ} {xst xb0 xb1 : Nat → ℚ} {β : Backend} (hβ : ValidBackend β) (p_sgcw : 1 ≤ sgcw)
    (q_sgcw : sgcw ≤ 3) (g_dir : dir = 0 ∨ dir = 1) (g_side : side = 0 ∨ side = 1) (g_r : r = 1 ∨ r = 4) (g_intOrder : intOrder = 1 ∨ intOrder = 2)
    : Test.adjCfDiag2d 10 90 31 131 11 92 28 127 r dir side intOrder dx beta sgcw xst xb0 xb1 β = .ok true :=
  C104_adj_cf_diag_2d hβ (by told) (by told) (by told) (by told) (by exact fits_of (by decide)) (by exact fits_of (by decide))
      (by interval_cases sgcw <;> exact fits_of (by decide))

/-- src/cd_stencil_2d.t.cpp:437-498 -/
theorem C104_adj_poisson_cf_diag_2d {i0 j0 i1 j1 pi0 pj0 pi1 pj1 r dir side intOrder : Int} {dx : Nat → T} {beta : T} {sgcw : Int} {xst : Nat → T}
    {β : Backend} (hβ : ValidBackend β) (hi : i0 ≤ i1) (hj : j0 ≤ j1) (hg : 0 ≤ sgcw) (hl : Layer2 i0 j0 i1 j1 sgcw pi0 pj0 pi1 pj1 dir side)
    (h_st : F.Fits (F.st2d (at_ 0) i0 j0 i1 j1 sgcw).dims) : Test.adjPoissonCfDiag2d i0 j0 i1 j1 pi0 pj0 pi1 pj1 r dir side intOrder dx beta sgcw
    xst β = .ok true := by
  have I0 := h_st.int
  simp only [F.st2d, List.mem_cons, List.not_mem_nil, or_false, forall_eq_or_imp, forall_eq, InInt] at I0
  have mk_j := mkB_ok (d := .J) (lo := j0) (hi := j1) (by unfold InInt; omega)
  have mk_i := mkB_ok (d := .I) (lo := i0) (hi := i1) (by unfold InInt; omega)
  have mk_w := mkB_ok (d := .W) (lo := 0) (hi := 4) (by unfold InInt; omega)
  obtain ⟨v0, n0, r0⟩ := offset_ok (T := T) (g := sgcw) (ds := [(.J, j0, j1), (.I, i0, i1), (.W, 0, 4)]) (by simp) (by simp) (by omega)
      (by simp <;> omega) h_st
  simp only [bounds, List.map_cons, List.map_nil] at n0
  unfold Test.adjPoissonCfDiag2d
  simp only [mk_j, mk_i, mk_w, n0, (r0.fill (xs := xst)).copy, (r0.fill (xs := xst)).host, M.ok_bind]
  refine compare_ok (L := [1, 0]) ?_ rfl rfl (F.ren_adjcellpoissoncfdiag2d (T := T) (perm_inv (L := [1, 0]) (by decide))) ?_ (by decide)
  · simp [(r0.fill (xs := xst)).same, (r0.fill (xs := xst)).sync]
  · refine C36_adj_poisson_cf_diag_2d hβ hi hj hg hl ⟨?_, ?_⟩
    · simp only [List.cons_append, List.nil_append, List.forall_mem_cons]
      refine ⟨arr_ok_of rfl (r0.fill (xs := xst)) h_st, ?_⟩
      simp
    · simp only [List.forall_mem_cons]
      repeat' first | exact arr_apart (by decide) | refine ⟨?_, ?_⟩ | simp

example {sgcw dir side r intOrder : Int} {dx : Nat → ℚ} {beta : ℚ} {xst : Nat → ℚ} {β : Backend} (hβ : ValidBackend β) (p_sgcw : 1 ≤ sgcw)
    (q_sgcw : sgcw ≤ 3) (g_dir : dir = 0 ∨ dir = 1) (g_side : side = 0 ∨ side = 1) (g_r : r = 1 ∨ r = 4) (g_intOrder : intOrder = 1 ∨ intOrder = 2)
    : Test.adjPoissonCfDiag2d 10 90 31 131 11 92 28 127 r dir side intOrder dx beta sgcw xst β = .ok true :=
  C104_adj_poisson_cf_diag_2d hβ (by told) (by told) (by told) (by told) (by interval_cases sgcw <;> exact fits_of (by decide))

/-- src/cd_stencil_2d.t.cpp:500-575 -/
theorem C104_adj_offdiag_2d {i0 j0 i1 j1 pi0 pj0 pi1 pj1 dir side btype exOrder : Int} {dx : Nat → T} {dir_factor neu_factor beta : T} {sgcw : Int}
    {xst xb0 xb1 : Nat → T} {β : Backend} (hβ : ValidBackend β) (hi : i0 ≤ i1) (hj : j0 ≤ j1) (hg : 0 ≤ sgcw)
    (hl : Layer2 i0 j0 i1 j1 0 pi0 pj0 pi1 pj1 dir side) (h_b0 : F.Fits (F.face2d0 (at_ 0) i0 j0 i1 j1 0).dims)
    (h_b1 : F.Fits (F.face2d1 (at_ 0) i0 j0 i1 j1 0).dims) (h_st : F.Fits (F.st2d (at_ 0) i0 j0 i1 j1 sgcw).dims) : Test.adjOffdiag2d i0 j0 i1 j1
    pi0 pj0 pi1 pj1 dir side btype exOrder dx dir_factor neu_factor beta sgcw xst xb0 xb1 β = .ok true := by
  have I0 := h_b0.int
  have I1 := h_b1.int
  have I2 := h_st.int
  simp only [F.face2d0, F.face2d1, F.st2d, List.mem_cons, List.not_mem_nil, or_false, forall_eq_or_imp, forall_eq, InInt] at I0 I1 I2
  have mk_j := mkB_ok (d := .J) (lo := j0) (hi := j1) (by unfold InInt; omega)
  have mk_i := mkB_ok (d := .I) (lo := i0) (hi := i1) (by unfold InInt; omega)
  have mk_w := mkB_ok (d := .W) (lo := 0) (hi := 4) (by unfold InInt; omega)
  have pl_i := plus_ok (d := .I) (b := ⟨i0, i1 + 1, 1⟩) (x := 1) (by omega) (by simp only [InInt]; omega)
  have pl_j := plus_ok (d := .J) (b := ⟨j0, j1 + 1, 1⟩) (x := 1) (by omega) (by simp only [InInt]; omega)
  obtain ⟨v0, n0, r0⟩ := offset_ok (T := T) (g := sgcw) (ds := [(.J, j0, j1), (.I, i0, i1), (.W, 0, 4)]) (by simp) (by simp) (by omega)
      (by simp <;> omega) h_st
  obtain ⟨v1, n1, r1⟩ := vec_ok (T := T) (ds := [(.J, j0, j1), (.I, i0, i1 + 1)]) (by simp) (by simp) (by simp <;> omega) h_b0
  obtain ⟨v2, n2, r2⟩ := vec_ok (T := T) (ds := [(.I, i0, i1), (.J, j0, j1 + 1)]) (by simp) (by simp) (by simp <;> omega) h_b1
  simp only [bounds, List.map_cons, List.map_nil] at n0 n1 n2
  unfold Test.adjOffdiag2d
  simp only [mk_j, mk_i, mk_w, pl_i, pl_j, n0, n1, n2, (r0.fill (xs := xst)).copy, (r0.fill (xs := xst)).host, M.ok_bind]
  refine compare_ok (L := [3, 1, 2, 0]) ?_ rfl rfl (F.ren_adjcelldiffusionoffdiag2d (T := T) (perm_inv (L := [3, 1, 2, 0]) (by decide))) ?_
      (by decide)
  · simp [(r0.fill (xs := xst)).same, (r0.fill (xs := xst)).sync, (r1.fill (xs := xb0)).same, (r1.fill (xs := xb0)).sync, (r2.fill (xs :=
        xb1)).same, (r2.fill (xs := xb1)).sync]
  · refine C36_adj_offdiag_2d hβ hi hj hg hl ⟨?_, ?_⟩
    · simp only [List.cons_append, List.nil_append, List.forall_mem_cons]
      refine ⟨arr_ok_of rfl (r1.fill (xs := xb0)) h_b0, arr_ok_of rfl (r2.fill (xs := xb1)) h_b1, arr_ok_of rfl (r0.fill (xs := xst)) h_st, ?_⟩
      simp
    · simp only [List.forall_mem_cons]
      repeat' first | exact arr_apart (by decide) | refine ⟨?_, ?_⟩ | simp

example {sgcw dir side btype exOrder : Int} {dx : Nat → ℚ} {dir_factor neu_factor beta : ℚ} {xst xb0 xb1 : Nat → ℚ} {β : Backend}
    (hβ : ValidBackend β) (p_sgcw : 1 ≤ sgcw) (q_sgcw : sgcw ≤ 3) (g_dir : dir = 0 ∨ dir = 1) (g_side : side = 0 ∨ side = 1)
    (g_btype : btype = 0 ∨ btype = 1 ∨ btype = 4) (g_exOrder : exOrder = 1 ∨ exOrder = 2) : Test.adjOffdiag2d 10 90 31 131 11 92 28 127 dir side
    btype exOrder dx dir_factor neu_factor beta sgcw xst xb0 xb1 β = .ok true :=
  C104_adj_offdiag_2d hβ (by told) (by told) (by told) (by told) (by exact fits_of (by decide)) (by exact fits_of (by decide))
      (by interval_cases sgcw <;> exact fits_of (by decide))

/-- src/cd_stencil_2d.t.cpp:577-644 -/
theorem C104_adj_poisson_offdiag_2d {i0 j0 i1 j1 pi0 pj0 pi1 pj1 dir side btype exOrder : Int} {dx : Nat → T} {dir_factor neu_factor beta : T}
    {sgcw : Int} {xst : Nat → T} {β : Backend} (hβ : ValidBackend β) (hi : i0 ≤ i1) (hj : j0 ≤ j1) (hg : 0 ≤ sgcw)
    (hl : Layer2 i0 j0 i1 j1 sgcw pi0 pj0 pi1 pj1 dir side) (h_st : F.Fits (F.st2d (at_ 0) i0 j0 i1 j1 sgcw).dims) : Test.adjPoissonOffdiag2d i0 j0
    i1 j1 pi0 pj0 pi1 pj1 dir side btype exOrder dx dir_factor neu_factor beta sgcw xst β = .ok true := by
  have I0 := h_st.int
  simp only [F.st2d, List.mem_cons, List.not_mem_nil, or_false, forall_eq_or_imp, forall_eq, InInt] at I0
  have mk_j := mkB_ok (d := .J) (lo := j0) (hi := j1) (by unfold InInt; omega)
  have mk_i := mkB_ok (d := .I) (lo := i0) (hi := i1) (by unfold InInt; omega)
  have mk_w := mkB_ok (d := .W) (lo := 0) (hi := 4) (by unfold InInt; omega)
  obtain ⟨v0, n0, r0⟩ := offset_ok (T := T) (g := sgcw) (ds := [(.J, j0, j1), (.I, i0, i1), (.W, 0, 4)]) (by simp) (by simp) (by omega)
      (by simp <;> omega) h_st
  simp only [bounds, List.map_cons, List.map_nil] at n0
  unfold Test.adjPoissonOffdiag2d
  simp only [mk_j, mk_i, mk_w, n0, (r0.fill (xs := xst)).copy, (r0.fill (xs := xst)).host, M.ok_bind]
  refine compare_ok (L := [1, 0]) ?_ rfl rfl (F.ren_adjcellpoissonoffdiag2d (T := T) (perm_inv (L := [1, 0]) (by decide))) ?_ (by decide)
  · simp [(r0.fill (xs := xst)).same, (r0.fill (xs := xst)).sync]
  · refine C36_adj_poisson_offdiag_2d hβ hi hj hg hl ⟨?_, ?_⟩
    · simp only [List.cons_append, List.nil_append, List.forall_mem_cons]
      refine ⟨arr_ok_of rfl (r0.fill (xs := xst)) h_st, ?_⟩
      simp
    · simp only [List.forall_mem_cons]
      repeat' first | exact arr_apart (by decide) | refine ⟨?_, ?_⟩ | simp

example {sgcw dir side btype exOrder : Int} {dx : Nat → ℚ} {dir_factor neu_factor beta : ℚ} {xst : Nat → ℚ} {β : Backend} (hβ : ValidBackend β)
    (p_sgcw : 1 ≤ sgcw) (q_sgcw : sgcw ≤ 3) (g_dir : dir = 0 ∨ dir = 1) (g_side : side = 0 ∨ side = 1) (g_btype : btype = 0 ∨ btype = 1 ∨ btype = 4)
    (g_exOrder : exOrder = 1 ∨ exOrder = 2) : Test.adjPoissonOffdiag2d 10 90 31 131 11 92 28 127 dir side btype exOrder dx dir_factor neu_factor
    beta sgcw xst β = .ok true :=
  C104_adj_poisson_offdiag_2d hβ (by told) (by told) (by told) (by told) (by interval_cases sgcw <;> exact fits_of (by decide))

/-- src/cd_stencil_2d.t.cpp:646-689 -/
theorem C104_adj_cf_offdiag_2d {i0 j0 i1 j1 pi0 pj0 pi1 pj1 r dir side intOrder sgcw : Int} {xst : Nat → T} {β : Backend} (hβ : ValidBackend β)
    (hi : i0 ≤ i1) (hj : j0 ≤ j1) (hg : 0 ≤ sgcw) (hl : Layer2 i0 j0 i1 j1 sgcw pi0 pj0 pi1 pj1 dir side)
    (h_st : F.Fits (F.st2d (at_ 0) i0 j0 i1 j1 sgcw).dims) : Test.adjCfOffdiag2d i0 j0 i1 j1 pi0 pj0 pi1 pj1 r dir side intOrder sgcw xst β = .ok
    true := by
  have I0 := h_st.int
  simp only [F.st2d, List.mem_cons, List.not_mem_nil, or_false, forall_eq_or_imp, forall_eq, InInt] at I0
  have mk_j := mkB_ok (d := .J) (lo := j0) (hi := j1) (by unfold InInt; omega)
  have mk_i := mkB_ok (d := .I) (lo := i0) (hi := i1) (by unfold InInt; omega)
  have mk_w := mkB_ok (d := .W) (lo := 0) (hi := 4) (by unfold InInt; omega)
  obtain ⟨v0, n0, r0⟩ := offset_ok (T := T) (g := sgcw) (ds := [(.J, j0, j1), (.I, i0, i1), (.W, 0, 4)]) (by simp) (by simp) (by omega)
      (by simp <;> omega) h_st
  simp only [bounds, List.map_cons, List.map_nil] at n0
  unfold Test.adjCfOffdiag2d
  simp only [mk_j, mk_i, mk_w, n0, (r0.fill (xs := xst)).copy, (r0.fill (xs := xst)).host, M.ok_bind]
  refine compare_ok (L := [1, 0]) ?_ rfl rfl (F.ren_adjcelldiffusioncfoffdiag2d (T := T) (perm_inv (L := [1, 0]) (by decide))) ?_ (by decide)
  · simp [(r0.fill (xs := xst)).same, (r0.fill (xs := xst)).sync]
  · refine C36_adj_cf_offdiag_2d hβ hi hj hg hl ⟨?_, ?_⟩
    · simp only [List.cons_append, List.nil_append, List.forall_mem_cons]
      refine ⟨arr_ok_of rfl (r0.fill (xs := xst)) h_st, ?_⟩
      simp
    · simp only [List.forall_mem_cons]
      repeat' first | exact arr_apart (by decide) | refine ⟨?_, ?_⟩ | simp

example {sgcw dir side r intOrder : Int} {xst : Nat → ℚ} {β : Backend} (hβ : ValidBackend β) (p_sgcw : 1 ≤ sgcw) (q_sgcw : sgcw ≤ 3)
    (g_dir : dir = 0 ∨ dir = 1) (g_side : side = 0 ∨ side = 1) (g_r : r = 1 ∨ r = 4) (g_intOrder : intOrder = 1 ∨ intOrder = 2) :
    Test.adjCfOffdiag2d 10 90 31 131 11 92 28 127 r dir side intOrder sgcw xst β = .ok true :=
  C104_adj_cf_offdiag_2d hβ (by told) (by told) (by told) (by told) (by interval_cases sgcw <;> exact fits_of (by decide))

/-- src/cd_stencil_2d.t.cpp:691-730 -/
theorem C104_readj_offdiag_2d {i0 j0 i1 j1 pi0 pj0 pi1 pj1 dir side sgcw : Int} {xst : Nat → T} {β : Backend} (hβ : ValidBackend β) (hi : i0 ≤ i1)
    (hj : j0 ≤ j1) (hg : 0 ≤ sgcw) (hl : Layer2 i0 j0 i1 j1 sgcw pi0 pj0 pi1 pj1 dir side) (h_st : F.Fits (F.st2d (at_ 0) i0 j0 i1 j1 sgcw).dims) :
    Test.readjOffdiag2d i0 j0 i1 j1 pi0 pj0 pi1 pj1 dir side sgcw xst β = .ok true := by
  have I0 := h_st.int
  simp only [F.st2d, List.mem_cons, List.not_mem_nil, or_false, forall_eq_or_imp, forall_eq, InInt] at I0
  have mk_j := mkB_ok (d := .J) (lo := j0) (hi := j1) (by unfold InInt; omega)
  have mk_i := mkB_ok (d := .I) (lo := i0) (hi := i1) (by unfold InInt; omega)
  have mk_w := mkB_ok (d := .W) (lo := 0) (hi := 4) (by unfold InInt; omega)
  obtain ⟨v0, n0, r0⟩ := offset_ok (T := T) (g := sgcw) (ds := [(.J, j0, j1), (.I, i0, i1), (.W, 0, 4)]) (by simp) (by simp) (by omega)
      (by simp <;> omega) h_st
  simp only [bounds, List.map_cons, List.map_nil] at n0
  unfold Test.readjOffdiag2d
  simp only [mk_j, mk_i, mk_w, n0, (r0.fill (xs := xst)).copy, (r0.fill (xs := xst)).host, M.ok_bind]
  refine compare_ok (L := [1, 0]) ?_ rfl rfl (F.ren_readjcelldiffusionoffdiag2d (T := T) (perm_inv (L := [1, 0]) (by decide))) ?_ (by decide)
  · simp [(r0.fill (xs := xst)).same, (r0.fill (xs := xst)).sync]
  · refine C36_readj_offdiag_2d hβ hi hj hg hl ⟨?_, ?_⟩
    · simp only [List.cons_append, List.nil_append, List.forall_mem_cons]
      refine ⟨arr_ok_of rfl (r0.fill (xs := xst)) h_st, ?_⟩
      simp
    · simp only [List.forall_mem_cons]
      repeat' first | exact arr_apart (by decide) | refine ⟨?_, ?_⟩ | simp

example {sgcw dir side : Int} {xst : Nat → ℚ} {β : Backend} (hβ : ValidBackend β) (p_sgcw : 1 ≤ sgcw) (q_sgcw : sgcw ≤ 3)
    (g_dir : dir = 0 ∨ dir = 1) (g_side : side = 0 ∨ side = 1) : Test.readjOffdiag2d 10 90 31 131 11 92 28 127 dir side sgcw xst β = .ok true :=
  C104_readj_offdiag_2d hβ (by told) (by told) (by told) (by told) (by interval_cases sgcw <;> exact fits_of (by decide))

/-- src/cd_stencil_2d.t.cpp:732-793 -/
theorem C104_adj_cf_bdryrhs_2d {i0 j0 i1 j1 pi0 pj0 pi1 pj1 dir side sgcw gcw : Int} {xst xu xrhs : Nat → T} {β : Backend} (hβ : ValidBackend β)
    (hi : i0 ≤ i1) (hj : j0 ≤ j1) (hg : 0 ≤ sgcw) (hu : 1 ≤ gcw) (hl : Layer2 i0 j0 i1 j1 0 pi0 pj0 pi1 pj1 dir side)
    (h_u : F.Fits (F.cell2d (at_ 0) i0 j0 i1 j1 gcw).dims) (h_st : F.Fits (F.st2d (at_ 0) i0 j0 i1 j1 sgcw).dims)
    (h_rhs : F.Fits (F.cell2d (at_ 0) i0 j0 i1 j1 0).dims) : Test.adjCfBdryrhs2d i0 j0 i1 j1 pi0 pj0 pi1 pj1 dir side sgcw gcw xst xu xrhs β = .ok
    true := by
  have I0 := h_u.int
  have I1 := h_st.int
  have I2 := h_rhs.int
  simp only [F.cell2d, F.st2d, List.mem_cons, List.not_mem_nil, or_false, forall_eq_or_imp, forall_eq, InInt] at I0 I1 I2
  have mk_j := mkB_ok (d := .J) (lo := j0) (hi := j1) (by unfold InInt; omega)
  have mk_i := mkB_ok (d := .I) (lo := i0) (hi := i1) (by unfold InInt; omega)
  have mk_w := mkB_ok (d := .W) (lo := 0) (hi := 4) (by unfold InInt; omega)
  obtain ⟨v0, n0, r0⟩ := offset_ok (T := T) (g := sgcw) (ds := [(.J, j0, j1), (.I, i0, i1), (.W, 0, 4)]) (by simp) (by simp) (by omega)
      (by simp <;> omega) h_st
  obtain ⟨v1, n1, r1⟩ := offset_ok (T := T) (g := gcw) (ds := [(.J, j0, j1), (.I, i0, i1)]) (by simp) (by simp) (by omega) (by simp <;> omega) h_u
  obtain ⟨v2, n2, r2⟩ := vec_ok (T := T) (ds := [(.J, j0, j1), (.I, i0, i1)]) (by simp) (by simp) (by simp <;> omega) h_rhs
  simp only [bounds, List.map_cons, List.map_nil] at n0 n1 n2
  unfold Test.adjCfBdryrhs2d
  simp only [mk_j, mk_i, mk_w, n0, n1, n2, (r2.fill (xs := xrhs)).copy, (r2.fill (xs := xrhs)).host, M.ok_bind]
  refine compare_ok (L := [0, 1, 3, 2]) ?_ rfl rfl (F.ren_adjcelldiffusioncfbdryrhs2d (T := T) (perm_inv (L := [0, 1, 3, 2]) (by decide))) ?_
      (by decide)
  · simp [(r0.fill (xs := xst)).same, (r0.fill (xs := xst)).sync, (r1.fill (xs := xu)).same, (r1.fill (xs := xu)).sync, (r2.fill (xs := xrhs)).same,
        (r2.fill (xs := xrhs)).sync]
  · refine C36_adj_cf_bdryrhs_2d hβ hi hj hg hu hl ⟨?_, ?_⟩
    · simp only [List.cons_append, List.nil_append, List.forall_mem_cons]
      refine ⟨arr_ok_of rfl (r1.fill (xs := xu)) h_u, arr_ok_of rfl (r0.fill (xs := xst)) h_st, arr_ok_of rfl (r2.fill (xs := xrhs)) h_rhs, ?_⟩
      simp
    · simp only [List.forall_mem_cons]
      repeat' first | exact arr_apart (by decide) | refine ⟨?_, ?_⟩ | simp

example {sgcw gcw dir side : Int} {xst xu xrhs : Nat → ℚ} {β : Backend} (hβ : ValidBackend β) (p_sgcw : 1 ≤ sgcw) (q_sgcw : sgcw ≤ 3)
    (p_gcw : 1 ≤ gcw) (q_gcw : gcw ≤ 3) (g_dir : dir = 0 ∨ dir = 1) (g_side : side = 0 ∨ side = 1) : Test.adjCfBdryrhs2d 10 90 31 131 11 92 28 127
    dir side sgcw gcw xst xu xrhs β = .ok true :=
  C104_adj_cf_bdryrhs_2d hβ (by told) (by told) (by told) (by told) (by told) (by interval_cases gcw <;> exact fits_of (by decide))
      (by interval_cases sgcw <;> exact fits_of (by decide)) (by exact fits_of (by decide))

/-- src/cd_stencil_3d.t.cpp:49-118 -/
theorem C104_offdiag_3d {i0 j0 k0 i1 j1 k1 bi0 bj0 bk0 bi1 bj1 bk1 : Int} {dx : Nat → T} {beta : T} {sgcw : Int} {xb0 xb1 xb2 : Nat → T}
    {β : Backend} (hβ : ValidBackend β) (hi : i0 ≤ i1) (hj : j0 ≤ j1) (hk : k0 ≤ k1) (hbi : bi0 ≤ i0 ∧ i1 ≤ bi1) (hbj : bj0 ≤ j0 ∧ j1 ≤ bj1)
    (hbk : bk0 ≤ k0 ∧ k1 ≤ bk1) (hg : 0 ≤ sgcw) (h_b0 : F.Fits (F.face3d0 (at_ 0) bi0 bj0 bk0 bi1 bj1 bk1 0).dims)
    (h_b1 : F.Fits (F.face3d1 (at_ 0) bi0 bj0 bk0 bi1 bj1 bk1 0).dims) (h_b2 : F.Fits (F.face3d2 (at_ 0) bi0 bj0 bk0 bi1 bj1 bk1 0).dims)
    (h_st : F.Fits (F.st3d (at_ 0) i0 j0 k0 i1 j1 k1 sgcw).dims) : Test.offdiag3d i0 j0 k0 i1 j1 k1 bi0 bj0 bk0 bi1 bj1 bk1 dx beta sgcw xb0 xb1 xb2
    β = .ok true := by
  have I0 := h_b0.int
  have I1 := h_b1.int
  have I2 := h_b2.int
  have I3 := h_st.int
  simp only [F.face3d0, F.face3d1, F.face3d2, F.st3d, List.mem_cons, List.not_mem_nil, or_false, forall_eq_or_imp, forall_eq, InInt] at I0 I1 I2 I3
  have mk_bk := mkB_ok (d := .K) (lo := bk0) (hi := bk1) (by unfold InInt; omega)
  have mk_bj := mkB_ok (d := .J) (lo := bj0) (hi := bj1) (by unfold InInt; omega)
  have mk_bi := mkB_ok (d := .I) (lo := bi0) (hi := bi1) (by unfold InInt; omega)
  have mk_k := mkB_ok (d := .K) (lo := k0) (hi := k1) (by unfold InInt; omega)
  have mk_j := mkB_ok (d := .J) (lo := j0) (hi := j1) (by unfold InInt; omega)
  have mk_i := mkB_ok (d := .I) (lo := i0) (hi := i1) (by unfold InInt; omega)
  have mk_w := mkB_ok (d := .W) (lo := 0) (hi := 6) (by unfold InInt; omega)
  have pl_bi := plus_ok (d := .I) (b := ⟨bi0, bi1 + 1, 1⟩) (x := 1) (by omega) (by simp only [InInt]; omega)
  have pl_bj := plus_ok (d := .J) (b := ⟨bj0, bj1 + 1, 1⟩) (x := 1) (by omega) (by simp only [InInt]; omega)
  have pl_bk := plus_ok (d := .K) (b := ⟨bk0, bk1 + 1, 1⟩) (x := 1) (by omega) (by simp only [InInt]; omega)
  obtain ⟨v0, n0, r0⟩ := vec_ok (T := T) (ds := [(.K, bk0, bk1), (.J, bj0, bj1), (.I, bi0, bi1 + 1)]) (by simp) (by simp) (by simp <;> omega) h_b0
  obtain ⟨v1, n1, r1⟩ := vec_ok (T := T) (ds := [(.I, bi0, bi1), (.K, bk0, bk1), (.J, bj0, bj1 + 1)]) (by simp) (by simp) (by simp <;> omega) h_b1
  obtain ⟨v2, n2, r2⟩ := vec_ok (T := T) (ds := [(.J, bj0, bj1), (.I, bi0, bi1), (.K, bk0, bk1 + 1)]) (by simp) (by simp) (by simp <;> omega) h_b2
  obtain ⟨v3, n3, r3⟩ := offset_ok (T := T) (g := sgcw) (ds := [(.K, k0, k1), (.J, j0, j1), (.I, i0, i1), (.W, 0, 6)]) (by simp) (by simp)
      (by omega) (by simp <;> omega) h_st
  simp only [bounds, List.map_cons, List.map_nil] at n0 n1 n2 n3
  unfold Test.offdiag3d
  simp only [mk_bk, mk_bj, mk_bi, mk_k, mk_j, mk_i, mk_w, pl_bi, pl_bj, pl_bk, n0, n1, n2, n3, M.ok_bind]
  refine compare_ok (L := [0, 1, 2, 4, 3]) ?_ rfl rfl (F.ren_celldiffusionoffdiag3d (T := T) (perm_inv (L := [0, 1, 2, 4, 3]) (by decide))) ?_
      (by decide)
  · simp [(r0.fill (xs := xb0)).same, (r0.fill (xs := xb0)).sync, (r1.fill (xs := xb1)).same, (r1.fill (xs := xb1)).sync, (r2.fill (xs :=
        xb2)).same, (r2.fill (xs := xb2)).sync, r3.same, r3.sync]
  · refine C36_offdiag_3d hβ hi hj hk hbi hbj hbk hg ⟨?_, ?_⟩
    · simp only [List.cons_append, List.nil_append, List.forall_mem_cons]
      refine ⟨arr_ok_of rfl (r0.fill (xs := xb0)) h_b0, arr_ok_of rfl (r1.fill (xs := xb1)) h_b1, arr_ok_of rfl (r2.fill (xs := xb2)) h_b2,
          arr_ok_of rfl r3 h_st, ?_⟩
      simp
    · simp only [List.forall_mem_cons]
      repeat' first | exact arr_apart (by decide) | refine ⟨?_, ?_⟩ | simp

example {sgcw : Int} {dx : Nat → ℚ} {beta : ℚ} {xb0 xb1 xb2 : Nat → ℚ} {β : Backend} (hβ : ValidBackend β) (p_sgcw : 1 ≤ sgcw) (q_sgcw : sgcw ≤ 3) :
    Test.offdiag3d 10 40 90 31 78 131 8 37 89 32 80 134 dx beta sgcw xb0 xb1 xb2 β = .ok true :=
  C104_offdiag_3d hβ (by told) (by told) (by told) (by told) (by told) (by told) (by told) (by exact fits_of (by decide))
      (by exact fits_of (by decide)) (by exact fits_of (by decide)) (by interval_cases sgcw <;> exact fits_of (by decide))

/-- src/cd_stencil_3d.t.cpp:120-145 -/
theorem C104_poisson_offdiag_3d {i0 j0 k0 i1 j1 k1 : Int} {dx : Nat → T} {beta : T} {sgcw : Int} {β : Backend} (hβ : ValidBackend β) (hi : i0 ≤ i1)
    (hj : j0 ≤ j1) (hk : k0 ≤ k1) (hg : 0 ≤ sgcw) (h_st : F.Fits (F.st3d (at_ 0) i0 j0 k0 i1 j1 k1 sgcw).dims) : Test.poissonOffdiag3d i0 j0 k0 i1
    j1 k1 dx beta sgcw β = .ok true := by
  have I0 := h_st.int
  simp only [F.st3d, List.mem_cons, List.not_mem_nil, or_false, forall_eq_or_imp, forall_eq, InInt] at I0
  have mk_k := mkB_ok (d := .K) (lo := k0) (hi := k1) (by unfold InInt; omega)
  have mk_j := mkB_ok (d := .J) (lo := j0) (hi := j1) (by unfold InInt; omega)
  have mk_i := mkB_ok (d := .I) (lo := i0) (hi := i1) (by unfold InInt; omega)
  have mk_w := mkB_ok (d := .W) (lo := 0) (hi := 6) (by unfold InInt; omega)
  obtain ⟨v0, n0, r0⟩ := offset_ok (T := T) (g := sgcw) (ds := [(.K, k0, k1), (.J, j0, j1), (.I, i0, i1), (.W, 0, 6)]) (by simp) (by simp)
      (by omega) (by simp <;> omega) h_st
  simp only [bounds, List.map_cons, List.map_nil] at n0
  unfold Test.poissonOffdiag3d
  simp only [mk_k, mk_j, mk_i, mk_w, n0, M.ok_bind]
  refine compare_ok (L := [1, 0]) ?_ rfl rfl (F.ren_cellpoissonoffdiag3d (T := T) (perm_inv (L := [1, 0]) (by decide))) ?_ (by decide)
  · simp [r0.same, r0.sync]
  · refine C36_poisson_offdiag_3d hβ hi hj hk hg ⟨?_, ?_⟩
    · simp only [List.cons_append, List.nil_append, List.forall_mem_cons]
      refine ⟨arr_ok_of rfl r0 h_st, ?_⟩
      simp
    · simp only [List.forall_mem_cons]
      repeat' first | exact arr_apart (by decide) | refine ⟨?_, ?_⟩ | simp

example {sgcw : Int} {dx : Nat → ℚ} {beta : ℚ} {β : Backend} (hβ : ValidBackend β) (p_sgcw : 1 ≤ sgcw) (q_sgcw : sgcw ≤ 3) : Test.poissonOffdiag3d
    10 40 90 31 78 131 dx beta sgcw β = .ok true :=
  C104_poisson_offdiag_3d hβ (by told) (by told) (by told) (by told) (by interval_cases sgcw <;> exact fits_of (by decide))

/-- src/cd_stencil_3d.t.cpp:147-206 -/
theorem C104_v1diag_3d {i0 j0 k0 i1 j1 k1 ai0 aj0 ak0 ai1 aj1 ak1 : Int} {alpha : T} {sgcw : Int} {xa xst : Nat → T} {β : Backend}
    (hβ : ValidBackend β) (hi : i0 ≤ i1) (hj : j0 ≤ j1) (hk : k0 ≤ k1) (hai : ai0 ≤ i0 ∧ i1 ≤ ai1) (haj : aj0 ≤ j0 ∧ j1 ≤ aj1)
    (hak : ak0 ≤ k0 ∧ k1 ≤ ak1) (hg : 0 ≤ sgcw) (h_a : F.Fits (F.cell3d (at_ 0) ai0 aj0 ak0 ai1 aj1 ak1 0).dims)
    (h_st : F.Fits (F.st3d (at_ 0) i0 j0 k0 i1 j1 k1 sgcw).dims) : Test.v1diag3d i0 j0 k0 i1 j1 k1 ai0 aj0 ak0 ai1 aj1 ak1 alpha sgcw xa xst β = .ok
    true := by
  have I0 := h_a.int
  have I1 := h_st.int
  simp only [F.cell3d, F.st3d, List.mem_cons, List.not_mem_nil, or_false, forall_eq_or_imp, forall_eq, InInt] at I0 I1
  have mk_ak := mkB_ok (d := .K) (lo := ak0) (hi := ak1) (by unfold InInt; omega)
  have mk_aj := mkB_ok (d := .J) (lo := aj0) (hi := aj1) (by unfold InInt; omega)
  have mk_ai := mkB_ok (d := .I) (lo := ai0) (hi := ai1) (by unfold InInt; omega)
  have mk_k := mkB_ok (d := .K) (lo := k0) (hi := k1) (by unfold InInt; omega)
  have mk_j := mkB_ok (d := .J) (lo := j0) (hi := j1) (by unfold InInt; omega)
  have mk_i := mkB_ok (d := .I) (lo := i0) (hi := i1) (by unfold InInt; omega)
  have mk_w := mkB_ok (d := .W) (lo := 0) (hi := 6) (by unfold InInt; omega)
  obtain ⟨v0, n0, r0⟩ := vec_ok (T := T) (ds := [(.K, ak0, ak1), (.J, aj0, aj1), (.I, ai0, ai1)]) (by simp) (by simp) (by simp <;> omega) h_a
  obtain ⟨v1, n1, r1⟩ := offset_ok (T := T) (g := sgcw) (ds := [(.K, k0, k1), (.J, j0, j1), (.I, i0, i1), (.W, 0, 6)]) (by simp) (by simp)
      (by omega) (by simp <;> omega) h_st
  simp only [bounds, List.map_cons, List.map_nil] at n0 n1
  unfold Test.v1diag3d
  simp only [mk_ak, mk_aj, mk_ai, mk_k, mk_j, mk_i, mk_w, n0, n1, (r1.fill (xs := xst)).copy, (r1.fill (xs := xst)).host, M.ok_bind]
  refine compare_ok (L := [0, 2, 1]) ?_ rfl rfl (F.ren_celldiffusionv1diag3d (T := T) (perm_inv (L := [0, 2, 1]) (by decide))) ?_ (by decide)
  · simp [(r0.fill (xs := xa)).same, (r0.fill (xs := xa)).sync, (r1.fill (xs := xst)).same, (r1.fill (xs := xst)).sync]
  · refine C36_v1diag_3d hβ hi hj hk hai haj hak hg ⟨?_, ?_⟩
    · simp only [List.cons_append, List.nil_append, List.forall_mem_cons]
      refine ⟨arr_ok_of rfl (r0.fill (xs := xa)) h_a, arr_ok_of rfl (r1.fill (xs := xst)) h_st, ?_⟩
      simp
    · simp only [List.forall_mem_cons]
      repeat' first | exact arr_apart (by decide) | refine ⟨?_, ?_⟩ | simp

example {sgcw : Int} {alpha : ℚ} {xa xst : Nat → ℚ} {β : Backend} (hβ : ValidBackend β) (p_sgcw : 1 ≤ sgcw) (q_sgcw : sgcw ≤ 3) : Test.v1diag3d 10
    90 40 31 131 78 9 88 37 34 132 80 alpha sgcw xa xst β = .ok true :=
  C104_v1diag_3d hβ (by told) (by told) (by told) (by told) (by told) (by told) (by told) (by exact fits_of (by decide))
      (by interval_cases sgcw <;> exact fits_of (by decide))

/-- src/cd_stencil_3d.t.cpp:208-234 -/
theorem C104_v2diag_3d {i0 j0 k0 i1 j1 k1 : Int} {alpha : T} {sgcw : Int} {xst : Nat → T} {β : Backend} (hβ : ValidBackend β) (hi : i0 ≤ i1)
    (hj : j0 ≤ j1) (hk : k0 ≤ k1) (hg : 0 ≤ sgcw) (h_st : F.Fits (F.st3d (at_ 0) i0 j0 k0 i1 j1 k1 sgcw).dims) : Test.v2diag3d i0 j0 k0 i1 j1 k1
    alpha sgcw xst β = .ok true := by
  have I0 := h_st.int
  simp only [F.st3d, List.mem_cons, List.not_mem_nil, or_false, forall_eq_or_imp, forall_eq, InInt] at I0
  have mk_k := mkB_ok (d := .K) (lo := k0) (hi := k1) (by unfold InInt; omega)
  have mk_j := mkB_ok (d := .J) (lo := j0) (hi := j1) (by unfold InInt; omega)
  have mk_i := mkB_ok (d := .I) (lo := i0) (hi := i1) (by unfold InInt; omega)
  have mk_w := mkB_ok (d := .W) (lo := 0) (hi := 6) (by unfold InInt; omega)
  obtain ⟨v0, n0, r0⟩ := offset_ok (T := T) (g := sgcw) (ds := [(.K, k0, k1), (.J, j0, j1), (.I, i0, i1), (.W, 0, 6)]) (by simp) (by simp)
      (by omega) (by simp <;> omega) h_st
  simp only [bounds, List.map_cons, List.map_nil] at n0
  unfold Test.v2diag3d
  simp only [mk_k, mk_j, mk_i, mk_w, n0, (r0.fill (xs := xst)).copy, (r0.fill (xs := xst)).host, M.ok_bind]
  refine compare_ok (L := [1, 0]) ?_ rfl rfl (F.ren_celldiffusionv2diag3d (T := T) (perm_inv (L := [1, 0]) (by decide))) ?_ (by decide)
  · simp [(r0.fill (xs := xst)).same, (r0.fill (xs := xst)).sync]
  · refine C36_v2diag_3d hβ hi hj hk hg ⟨?_, ?_⟩
    · simp only [List.cons_append, List.nil_append, List.forall_mem_cons]
      refine ⟨arr_ok_of rfl (r0.fill (xs := xst)) h_st, ?_⟩
      simp
    · simp only [List.forall_mem_cons]
      repeat' first | exact arr_apart (by decide) | refine ⟨?_, ?_⟩ | simp

example {sgcw : Int} {alpha : ℚ} {xst : Nat → ℚ} {β : Backend} (hβ : ValidBackend β) (p_sgcw : 1 ≤ sgcw) (q_sgcw : sgcw ≤ 3) : Test.v2diag3d 10 90
    40 31 131 78 alpha sgcw xst β = .ok true :=
  C104_v2diag_3d hβ (by told) (by told) (by told) (by told) (by interval_cases sgcw <;> exact fits_of (by decide))

/-- src/cd_stencil_3d.t.cpp:236-262 -/
theorem C104_poisson_diag_3d {i0 j0 k0 i1 j1 k1 sgcw : Int} {xst : Nat → T} {β : Backend} (hβ : ValidBackend β) (hi : i0 ≤ i1) (hj : j0 ≤ j1)
    (hk : k0 ≤ k1) (hg : 0 ≤ sgcw) (h_st : F.Fits (F.st3d (at_ 0) i0 j0 k0 i1 j1 k1 sgcw).dims) : Test.poissonDiag3d i0 j0 k0 i1 j1 k1 sgcw xst β =
    .ok true := by
  have I0 := h_st.int
  simp only [F.st3d, List.mem_cons, List.not_mem_nil, or_false, forall_eq_or_imp, forall_eq, InInt] at I0
  have mk_k := mkB_ok (d := .K) (lo := k0) (hi := k1) (by unfold InInt; omega)
  have mk_j := mkB_ok (d := .J) (lo := j0) (hi := j1) (by unfold InInt; omega)
  have mk_i := mkB_ok (d := .I) (lo := i0) (hi := i1) (by unfold InInt; omega)
  have mk_w := mkB_ok (d := .W) (lo := 0) (hi := 6) (by unfold InInt; omega)
  obtain ⟨v0, n0, r0⟩ := offset_ok (T := T) (g := sgcw) (ds := [(.K, k0, k1), (.J, j0, j1), (.I, i0, i1), (.W, 0, 6)]) (by simp) (by simp)
      (by omega) (by simp <;> omega) h_st
  simp only [bounds, List.map_cons, List.map_nil] at n0
  unfold Test.poissonDiag3d
  simp only [mk_k, mk_j, mk_i, mk_w, n0, (r0.fill (xs := xst)).copy, (r0.fill (xs := xst)).host, M.ok_bind]
  refine compare_ok (L := [1, 0]) ?_ rfl rfl (F.ren_cellpoissondiag3d (T := T) (perm_inv (L := [1, 0]) (by decide))) ?_ (by decide)
  · simp [(r0.fill (xs := xst)).same, (r0.fill (xs := xst)).sync]
  · refine C36_poisson_diag_3d hβ hi hj hk hg ⟨?_, ?_⟩
    · simp only [List.cons_append, List.nil_append, List.forall_mem_cons]
      refine ⟨arr_ok_of rfl (r0.fill (xs := xst)) h_st, ?_⟩
      simp
    · simp only [List.forall_mem_cons]
      repeat' first | exact arr_apart (by decide) | refine ⟨?_, ?_⟩ | simp

example {sgcw : Int} {xst : Nat → ℚ} {β : Backend} (hβ : ValidBackend β) (p_sgcw : 1 ≤ sgcw) (q_sgcw : sgcw ≤ 3) : Test.poissonDiag3d 10 40 90 31 78
    131 sgcw xst β = .ok true :=
  C104_poisson_diag_3d hβ (by told) (by told) (by told) (by told) (by interval_cases sgcw <;> exact fits_of (by decide))

/-- src/cd_stencil_3d.t.cpp:264-346 -/
theorem C104_adj_diag_3d {i0 j0 k0 i1 j1 k1 pi0 pj0 pk0 pi1 pj1 pk1 dir side btype exOrder : Int} {dx : Nat → T} {beta : T} {sgcw : Int}
    {xst xb0 xb1 xb2 : Nat → T} {β : Backend} (hβ : ValidBackend β) (hi : i0 ≤ i1) (hj : j0 ≤ j1) (hk : k0 ≤ k1) (hg : 0 ≤ sgcw)
    (hl : Layer3 i0 j0 k0 i1 j1 k1 0 pi0 pj0 pk0 pi1 pj1 pk1 dir side) (h_b0 : F.Fits (F.face3d0 (at_ 0) i0 j0 k0 i1 j1 k1 0).dims)
    (h_b1 : F.Fits (F.face3d1 (at_ 0) i0 j0 k0 i1 j1 k1 0).dims) (h_b2 : F.Fits (F.face3d2 (at_ 0) i0 j0 k0 i1 j1 k1 0).dims)
    (h_st : F.Fits (F.st3d (at_ 0) i0 j0 k0 i1 j1 k1 sgcw).dims) : Test.adjDiag3d i0 j0 k0 i1 j1 k1 pi0 pj0 pk0 pi1 pj1 pk1 dir side btype exOrder
    dx beta sgcw xst xb0 xb1 xb2 β = .ok true := by
  have I0 := h_b0.int
  have I1 := h_b1.int
  have I2 := h_b2.int
  have I3 := h_st.int
  simp only [F.face3d0, F.face3d1, F.face3d2, F.st3d, List.mem_cons, List.not_mem_nil, or_false, forall_eq_or_imp, forall_eq, InInt] at I0 I1 I2 I3
  have mk_k := mkB_ok (d := .K) (lo := k0) (hi := k1) (by unfold InInt; omega)
  have mk_j := mkB_ok (d := .J) (lo := j0) (hi := j1) (by unfold InInt; omega)
  have mk_i := mkB_ok (d := .I) (lo := i0) (hi := i1) (by unfold InInt; omega)
  have mk_w := mkB_ok (d := .W) (lo := 0) (hi := 6) (by unfold InInt; omega)
  have pl_i := plus_ok (d := .I) (b := ⟨i0, i1 + 1, 1⟩) (x := 1) (by omega) (by simp only [InInt]; omega)
  have pl_j := plus_ok (d := .J) (b := ⟨j0, j1 + 1, 1⟩) (x := 1) (by omega) (by simp only [InInt]; omega)
  have pl_k := plus_ok (d := .K) (b := ⟨k0, k1 + 1, 1⟩) (x := 1) (by omega) (by simp only [InInt]; omega)
  obtain ⟨v0, n0, r0⟩ := offset_ok (T := T) (g := sgcw) (ds := [(.K, k0, k1), (.J, j0, j1), (.I, i0, i1), (.W, 0, 6)]) (by simp) (by simp)
      (by omega) (by simp <;> omega) h_st
  obtain ⟨v1, n1, r1⟩ := vec_ok (T := T) (ds := [(.K, k0, k1), (.J, j0, j1), (.I, i0, i1 + 1)]) (by simp) (by simp) (by simp <;> omega) h_b0
  obtain ⟨v2, n2, r2⟩ := vec_ok (T := T) (ds := [(.I, i0, i1), (.K, k0, k1), (.J, j0, j1 + 1)]) (by simp) (by simp) (by simp <;> omega) h_b1
  obtain ⟨v3, n3, r3⟩ := vec_ok (T := T) (ds := [(.J, j0, j1), (.I, i0, i1), (.K, k0, k1 + 1)]) (by simp) (by simp) (by simp <;> omega) h_b2
  simp only [bounds, List.map_cons, List.map_nil] at n0 n1 n2 n3
  unfold Test.adjDiag3d
  simp only [mk_k, mk_j, mk_i, mk_w, pl_i, pl_j, pl_k, n0, n1, n2, n3, (r0.fill (xs := xst)).copy, (r0.fill (xs := xst)).host, M.ok_bind]
  refine compare_ok (L := [4, 1, 2, 3, 0]) ?_ rfl rfl (F.ren_adjcelldiffusiondiag3d (T := T) (perm_inv (L := [4, 1, 2, 3, 0]) (by decide))) ?_
      (by decide)
  · simp [(r0.fill (xs := xst)).same, (r0.fill (xs := xst)).sync, (r1.fill (xs := xb0)).same, (r1.fill (xs := xb0)).sync, (r2.fill (xs :=
        xb1)).same, (r2.fill (xs := xb1)).sync, (r3.fill (xs := xb2)).same, (r3.fill (xs := xb2)).sync]
  · refine C36_adj_diag_3d hβ hi hj hk hg hl ⟨?_, ?_⟩
    · simp only [List.cons_append, List.nil_append, List.forall_mem_cons]
      refine ⟨arr_ok_of rfl (r1.fill (xs := xb0)) h_b0, arr_ok_of rfl (r2.fill (xs := xb1)) h_b1, arr_ok_of rfl (r3.fill (xs := xb2)) h_b2,
          arr_ok_of rfl (r0.fill (xs := xst)) h_st, ?_⟩
      simp
    · simp only [List.forall_mem_cons]
      repeat' first | exact arr_apart (by decide) | refine ⟨?_, ?_⟩ | simp

example {sgcw dir side btype exOrder : Int} {dx : Nat → ℚ} {beta : ℚ} {xst xb0 xb1 xb2 : Nat → ℚ} {β : Backend} (hβ : ValidBackend β)
    (p_sgcw : 1 ≤ sgcw) (q_sgcw : sgcw ≤ 3) (g_dir : dir = 0 ∨ dir = 1 ∨ dir = 2) (g_side : side = 0 ∨ side = 1) (g_btype : btype = 0 ∨ btype = 4)
    (g_exOrder : exOrder = 1 ∨ exOrder = 2) : Test.adjDiag3d 10 90 40 31 131 78 11 92 43 28 127 74 dir side btype exOrder dx beta sgcw xst xb0 xb1
    xb2 β = .ok true :=
  C104_adj_diag_3d hβ (by told) (by told) (by told) (by told) (by told) (by exact fits_of (by decide)) (by exact fits_of (by decide))
      (by exact fits_of (by decide)) (by interval_cases sgcw <;> exact fits_of (by decide))

/-- src/cd_stencil_3d.t.cpp:348-419 -/
theorem C104_adj_poisson_diag_3d {i0 j0 k0 i1 j1 k1 pi0 pj0 pk0 pi1 pj1 pk1 dir side btype exOrder : Int} {dx : Nat → T} {beta : T} {sgcw : Int}
    {xst : Nat → T} {β : Backend} (hβ : ValidBackend β) (hi : i0 ≤ i1) (hj : j0 ≤ j1) (hk : k0 ≤ k1) (hg : 0 ≤ sgcw)
    (hl : Layer3 i0 j0 k0 i1 j1 k1 sgcw pi0 pj0 pk0 pi1 pj1 pk1 dir side) (h_st : F.Fits (F.st3d (at_ 0) i0 j0 k0 i1 j1 k1 sgcw).dims) :
    Test.adjPoissonDiag3d i0 j0 k0 i1 j1 k1 pi0 pj0 pk0 pi1 pj1 pk1 dir side btype exOrder dx beta sgcw xst β = .ok true := by
  have I0 := h_st.int
  simp only [F.st3d, List.mem_cons, List.not_mem_nil, or_false, forall_eq_or_imp, forall_eq, InInt] at I0
  have mk_k := mkB_ok (d := .K) (lo := k0) (hi := k1) (by unfold InInt; omega)
  have mk_j := mkB_ok (d := .J) (lo := j0) (hi := j1) (by unfold InInt; omega)
  have mk_i := mkB_ok (d := .I) (lo := i0) (hi := i1) (by unfold InInt; omega)
  have mk_w := mkB_ok (d := .W) (lo := 0) (hi := 6) (by unfold InInt; omega)
  obtain ⟨v0, n0, r0⟩ := offset_ok (T := T) (g := sgcw) (ds := [(.K, k0, k1), (.J, j0, j1), (.I, i0, i1), (.W, 0, 6)]) (by simp) (by simp)
      (by omega) (by simp <;> omega) h_st
  simp only [bounds, List.map_cons, List.map_nil] at n0
  unfold Test.adjPoissonDiag3d
  simp only [mk_k, mk_j, mk_i, mk_w, n0, (r0.fill (xs := xst)).copy, (r0.fill (xs := xst)).host, M.ok_bind]
  refine compare_ok (L := [1, 0]) ?_ rfl rfl (F.ren_adjcellpoissondiag3d (T := T) (perm_inv (L := [1, 0]) (by decide))) ?_ (by decide)
  · simp [(r0.fill (xs := xst)).same, (r0.fill (xs := xst)).sync]
  · refine C36_adj_poisson_diag_3d hβ hi hj hk hg hl ⟨?_, ?_⟩
    · simp only [List.cons_append, List.nil_append, List.forall_mem_cons]
      refine ⟨arr_ok_of rfl (r0.fill (xs := xst)) h_st, ?_⟩
      simp
    · simp only [List.forall_mem_cons]
      repeat' first | exact arr_apart (by decide) | refine ⟨?_, ?_⟩ | simp

example {sgcw dir side btype exOrder : Int} {dx : Nat → ℚ} {beta : ℚ} {xst : Nat → ℚ} {β : Backend} (hβ : ValidBackend β) (p_sgcw : 1 ≤ sgcw)
    (q_sgcw : sgcw ≤ 3) (g_dir : dir = 0 ∨ dir = 1 ∨ dir = 2) (g_side : side = 0 ∨ side = 1) (g_btype : btype = 0 ∨ btype = 4)
    (g_exOrder : exOrder = 1 ∨ exOrder = 2) : Test.adjPoissonDiag3d 10 90 40 31 131 78 11 92 43 28 127 74 dir side btype exOrder dx beta sgcw xst β
    = .ok true :=
  C104_adj_poisson_diag_3d hβ (by told) (by told) (by told) (by told) (by told) (by interval_cases sgcw <;> exact fits_of (by decide))

/-- src/cd_stencil_3d.t.cpp:421-503 -/
theorem C104_adj_cf_diag_3d {i0 j0 k0 i1 j1 k1 pi0 pj0 pk0 pi1 pj1 pk1 r dir side intOrder : Int} {dx : Nat → T} {beta : T} {sgcw : Int}
    {xst xb0 xb1 xb2 : Nat → T} {β : Backend} (hβ : ValidBackend β) (hi : i0 ≤ i1) (hj : j0 ≤ j1) (hk : k0 ≤ k1) (hg : 0 ≤ sgcw)
    (hl : Layer3 i0 j0 k0 i1 j1 k1 0 pi0 pj0 pk0 pi1 pj1 pk1 dir side) (h_b0 : F.Fits (F.face3d0 (at_ 0) i0 j0 k0 i1 j1 k1 0).dims)
    (h_b1 : F.Fits (F.face3d1 (at_ 0) i0 j0 k0 i1 j1 k1 0).dims) (h_b2 : F.Fits (F.face3d2 (at_ 0) i0 j0 k0 i1 j1 k1 0).dims)
    (h_st : F.Fits (F.st3d (at_ 0) i0 j0 k0 i1 j1 k1 sgcw).dims) : Test.adjCfDiag3d i0 j0 k0 i1 j1 k1 pi0 pj0 pk0 pi1 pj1 pk1 r dir side intOrder dx
    beta sgcw xst xb0 xb1 xb2 β = .ok true := by
  have I0 := h_b0.int
  have I1 := h_b1.int
  have I2 := h_b2.int
  have I3 := h_st.int
  simp only [F.face3d0, F.face3d1, F.face3d2, F.st3d, List.mem_cons, List.not_mem_nil, or_false, forall_eq_or_imp, forall_eq, InInt] at I0 I1 I2 I3
  have mk_k := mkB_ok (d := .K) (lo := k0) (hi := k1) (by unfold InInt; omega)
  have mk_j := mkB_ok (d := .J) (lo := j0) (hi := j1) (by unfold InInt; omega)
  have mk_i := mkB_ok (d := .I) (lo := i0) (hi := i1) (by unfold InInt; omega)
  have mk_w := mkB_ok (d := .W) (lo := 0) (hi := 6) (by unfold InInt; omega)
  have pl_i := plus_ok (d := .I) (b := ⟨i0, i1 + 1, 1⟩) (x := 1) (by omega) (by simp only [InInt]; omega)
  have pl_j := plus_ok (d := .J) (b := ⟨j0, j1 + 1, 1⟩) (x := 1) (by omega) (by simp only [InInt]; omega)
  have pl_k := plus_ok (d := .K) (b := ⟨k0, k1 + 1, 1⟩) (x := 1) (by omega) (by simp only [InInt]; omega)
  obtain ⟨v0, n0, r0⟩ := offset_ok (T := T) (g := sgcw) (ds := [(.K, k0, k1), (.J, j0, j1), (.I, i0, i1), (.W, 0, 6)]) (by simp) (by simp)
      (by omega) (by simp <;> omega) h_st
  obtain ⟨v1, n1, r1⟩ := vec_ok (T := T) (ds := [(.K, k0, k1), (.J, j0, j1), (.I, i0, i1 + 1)]) (by simp) (by simp) (by simp <;> omega) h_b0
  obtain ⟨v2, n2, r2⟩ := vec_ok (T := T) (ds := [(.I, i0, i1), (.K, k0, k1), (.J, j0, j1 + 1)]) (by simp) (by simp) (by simp <;> omega) h_b1
  obtain ⟨v3, n3, r3⟩ := vec_ok (T := T) (ds := [(.J, j0, j1), (.I, i0, i1), (.K, k0, k1 + 1)]) (by simp) (by simp) (by simp <;> omega) h_b2
  simp only [bounds, List.map_cons, List.map_nil] at n0 n1 n2 n3
  unfold Test.adjCfDiag3d
  simp only [mk_k, mk_j, mk_i, mk_w, pl_i, pl_j, pl_k, n0, n1, n2, n3, (r0.fill (xs := xst)).copy, (r0.fill (xs := xst)).host, M.ok_bind]
  refine compare_ok (L := [4, 1, 2, 3, 0]) ?_ rfl rfl (F.ren_adjcelldiffusioncfdiag3d (T := T) (perm_inv (L := [4, 1, 2, 3, 0]) (by decide))) ?_
      (by decide)
  · simp [(r0.fill (xs := xst)).same, (r0.fill (xs := xst)).sync, (r1.fill (xs := xb0)).same, (r1.fill (xs := xb0)).sync, (r2.fill (xs :=
        xb1)).same, (r2.fill (xs := xb1)).sync, (r3.fill (xs := xb2)).same, (r3.fill (xs := xb2)).sync]
  · refine C36_adj_cf_diag_3d hβ hi hj hk hg hl ⟨?_, ?_⟩
    · simp only [List.cons_append, List.nil_append, List.forall_mem_cons]
      refine ⟨arr_ok_of rfl (r1.fill (xs := xb0)) h_b0, arr_ok_of rfl (r2.fill (xs := xb1)) h_b1, arr_ok_of rfl (r3.fill (xs := xb2)) h_b2,
          arr_ok_of rfl (r0.fill (xs := xst)) h_st, ?_⟩
      simp
    · simp only [List.forall_mem_cons]
      repeat' first | exact arr_apart (by decide) | refine ⟨?_, ?_⟩ | simp

example {sgcw dir side r intOrder : Int} {dx : Nat → ℚ} {beta : ℚ} {xst xb0 xb1 xb2 : Nat → ℚ} {β : Backend} (hβ : ValidBackend β)
    (p_sgcw : 1 ≤ sgcw) (q_sgcw : sgcw ≤ 3) (g_dir : dir = 0 ∨ dir = 1 ∨ dir = 2) (g_side : side = 0 ∨ side = 1) (g_r : r = 1 ∨ r = 4)
    (g_intOrder : intOrder = 1 ∨ intOrder = 2) : Test.adjCfDiag3d 10 90 40 31 131 78 11 92 43 28 127 74 r dir side intOrder dx beta sgcw xst xb0 xb1
    xb2 β = .ok true :=
  C104_adj_cf_diag_3d hβ (by told) (by told) (by told) (by told) (by told) (by exact fits_of (by decide)) (by exact fits_of (by decide))
      (by exact fits_of (by decide)) (by interval_cases sgcw <;> exact fits_of (by decide))

/-- src/cd_stencil_3d.t.cpp:505-575 -/
theorem C104_adj_poisson_cf_diag_3d {i0 j0 k0 i1 j1 k1 pi0 pj0 pk0 pi1 pj1 pk1 r dir side intOrder : Int} {dx : Nat → T} {beta : T} {sgcw : Int}
    {xst : Nat → T} {β : Backend} (hβ : ValidBackend β) (hi : i0 ≤ i1) (hj : j0 ≤ j1) (hk : k0 ≤ k1) (hg : 0 ≤ sgcw)
    (hl : Layer3 i0 j0 k0 i1 j1 k1 sgcw pi0 pj0 pk0 pi1 pj1 pk1 dir side) (h_st : F.Fits (F.st3d (at_ 0) i0 j0 k0 i1 j1 k1 sgcw).dims) :
    Test.adjPoissonCfDiag3d i0 j0 k0 i1 j1 k1 pi0 pj0 pk0 pi1 pj1 pk1 r dir side intOrder dx beta sgcw xst β = .ok true := by
  have I0 := h_st.int
  simp only [F.st3d, List.mem_cons, List.not_mem_nil, or_false, forall_eq_or_imp, forall_eq, InInt] at I0
  have mk_k := mkB_ok (d := .K) (lo := k0) (hi := k1) (by unfold InInt; omega)
  have mk_j := mkB_ok (d := .J) (lo := j0) (hi := j1) (by unfold InInt; omega)
  have mk_i := mkB_ok (d := .I) (lo := i0) (hi := i1) (by unfold InInt; omega)
  have mk_w := mkB_ok (d := .W) (lo := 0) (hi := 6) (by unfold InInt; omega)
  obtain ⟨v0, n0, r0⟩ := offset_ok (T := T) (g := sgcw) (ds := [(.K, k0, k1), (.J, j0, j1), (.I, i0, i1), (.W, 0, 6)]) (by simp) (by simp)
      (by omega) (by simp <;> omega) h_st
  simp only [bounds, List.map_cons, List.map_nil] at n0
  unfold Test.adjPoissonCfDiag3d
  simp only [mk_k, mk_j, mk_i, mk_w, n0, (r0.fill (xs := xst)).copy, (r0.fill (xs := xst)).host, M.ok_bind]
  refine compare_ok (L := [1, 0]) ?_ rfl rfl (F.ren_adjcellpoissoncfdiag3d (T := T) (perm_inv (L := [1, 0]) (by decide))) ?_ (by decide)
  · simp [(r0.fill (xs := xst)).same, (r0.fill (xs := xst)).sync]
  · refine C36_adj_poisson_cf_diag_3d hβ hi hj hk hg hl ⟨?_, ?_⟩
    · simp only [List.cons_append, List.nil_append, List.forall_mem_cons]
      refine ⟨arr_ok_of rfl (r0.fill (xs := xst)) h_st, ?_⟩
      simp
    · simp only [List.forall_mem_cons]
      repeat' first | exact arr_apart (by decide) | refine ⟨?_, ?_⟩ | simp

example {sgcw dir side r intOrder : Int} {dx : Nat → ℚ} {beta : ℚ} {xst : Nat → ℚ} {β : Backend} (hβ : ValidBackend β) (p_sgcw : 1 ≤ sgcw)
    (q_sgcw : sgcw ≤ 3) (g_dir : dir = 0 ∨ dir = 1 ∨ dir = 2) (g_side : side = 0 ∨ side = 1) (g_r : r = 1 ∨ r = 4)
    (g_intOrder : intOrder = 1 ∨ intOrder = 2) : Test.adjPoissonCfDiag3d 10 90 40 31 131 78 11 92 43 28 127 74 r dir side intOrder dx beta sgcw xst
    β = .ok true :=
  C104_adj_poisson_cf_diag_3d hβ (by told) (by told) (by told) (by told) (by told) (by interval_cases sgcw <;> exact fits_of (by decide))

/-- src/cd_stencil_3d.t.cpp:577-666 -/
theorem C104_adj_offdiag_3d {i0 j0 k0 i1 j1 k1 pi0 pj0 pk0 pi1 pj1 pk1 dir side btype exOrder : Int} {dx : Nat → T} {dir_factor neu_factor beta : T}
    {sgcw : Int} {xst xb0 xb1 xb2 : Nat → T} {β : Backend} (hβ : ValidBackend β) (hi : i0 ≤ i1) (hj : j0 ≤ j1) (hk : k0 ≤ k1) (hg : 0 ≤ sgcw)
    (hl : Layer3 i0 j0 k0 i1 j1 k1 0 pi0 pj0 pk0 pi1 pj1 pk1 dir side) (h_b0 : F.Fits (F.face3d0 (at_ 0) i0 j0 k0 i1 j1 k1 0).dims)
    (h_b1 : F.Fits (F.face3d1 (at_ 0) i0 j0 k0 i1 j1 k1 0).dims) (h_b2 : F.Fits (F.face3d2 (at_ 0) i0 j0 k0 i1 j1 k1 0).dims)
    (h_st : F.Fits (F.st3d (at_ 0) i0 j0 k0 i1 j1 k1 sgcw).dims) : Test.adjOffdiag3d i0 j0 k0 i1 j1 k1 pi0 pj0 pk0 pi1 pj1 pk1 dir side btype
    exOrder dx dir_factor neu_factor beta sgcw xst xb0 xb1 xb2 β = .ok true := by
  have I0 := h_b0.int
  have I1 := h_b1.int
  have I2 := h_b2.int
  have I3 := h_st.int
  simp only [F.face3d0, F.face3d1, F.face3d2, F.st3d, List.mem_cons, List.not_mem_nil, or_false, forall_eq_or_imp, forall_eq, InInt] at I0 I1 I2 I3
  have mk_k := mkB_ok (d := .K) (lo := k0) (hi := k1) (by unfold InInt; omega)
  have mk_j := mkB_ok (d := .J) (lo := j0) (hi := j1) (by unfold InInt; omega)
  have mk_i := mkB_ok (d := .I) (lo := i0) (hi := i1) (by unfold InInt; omega)
  have mk_w := mkB_ok (d := .W) (lo := 0) (hi := 6) (by unfold InInt; omega)
  have pl_i := plus_ok (d := .I) (b := ⟨i0, i1 + 1, 1⟩) (x := 1) (by omega) (by simp only [InInt]; omega)
  have pl_j := plus_ok (d := .J) (b := ⟨j0, j1 + 1, 1⟩) (x := 1) (by omega) (by simp only [InInt]; omega)
  have pl_k := plus_ok (d := .K) (b := ⟨k0, k1 + 1, 1⟩) (x := 1) (by omega) (by simp only [InInt]; omega)
  obtain ⟨v0, n0, r0⟩ := offset_ok (T := T) (g := sgcw) (ds := [(.K, k0, k1), (.J, j0, j1), (.I, i0, i1), (.W, 0, 6)]) (by simp) (by simp)
      (by omega) (by simp <;> omega) h_st
  obtain ⟨v1, n1, r1⟩ := vec_ok (T := T) (ds := [(.K, k0, k1), (.J, j0, j1), (.I, i0, i1 + 1)]) (by simp) (by simp) (by simp <;> omega) h_b0
  obtain ⟨v2, n2, r2⟩ := vec_ok (T := T) (ds := [(.I, i0, i1), (.K, k0, k1), (.J, j0, j1 + 1)]) (by simp) (by simp) (by simp <;> omega) h_b1
  obtain ⟨v3, n3, r3⟩ := vec_ok (T := T) (ds := [(.J, j0, j1), (.I, i0, i1), (.K, k0, k1 + 1)]) (by simp) (by simp) (by simp <;> omega) h_b2
  simp only [bounds, List.map_cons, List.map_nil] at n0 n1 n2 n3
  unfold Test.adjOffdiag3d
  simp only [mk_k, mk_j, mk_i, mk_w, pl_i, pl_j, pl_k, n0, n1, n2, n3, (r0.fill (xs := xst)).copy, (r0.fill (xs := xst)).host, M.ok_bind]
  refine compare_ok (L := [4, 1, 2, 3, 0]) ?_ rfl rfl (F.ren_adjcelldiffusionoffdiag3d (T := T) (perm_inv (L := [4, 1, 2, 3, 0]) (by decide))) ?_
      (by decide)
  · simp [(r0.fill (xs := xst)).same, (r0.fill (xs := xst)).sync, (r1.fill (xs := xb0)).same, (r1.fill (xs := xb0)).sync, (r2.fill (xs :=
        xb1)).same, (r2.fill (xs := xb1)).sync, (r3.fill (xs := xb2)).same, (r3.fill (xs := xb2)).sync]
  · refine C36_adj_offdiag_3d hβ hi hj hk hg hl ⟨?_, ?_⟩
    · simp only [List.cons_append, List.nil_append, List.forall_mem_cons]
      refine ⟨arr_ok_of rfl (r1.fill (xs := xb0)) h_b0, arr_ok_of rfl (r2.fill (xs := xb1)) h_b1, arr_ok_of rfl (r3.fill (xs := xb2)) h_b2,
          arr_ok_of rfl (r0.fill (xs := xst)) h_st, ?_⟩
      simp
    · simp only [List.forall_mem_cons]
      repeat' first | exact arr_apart (by decide) | refine ⟨?_, ?_⟩ | simp

example {sgcw dir side btype exOrder : Int} {dx : Nat → ℚ} {dir_factor neu_factor beta : ℚ} {xst xb0 xb1 xb2 : Nat → ℚ} {β : Backend}
    (hβ : ValidBackend β) (p_sgcw : 1 ≤ sgcw) (q_sgcw : sgcw ≤ 3) (g_dir : dir = 0 ∨ dir = 1 ∨ dir = 2) (g_side : side = 0 ∨ side = 1)
    (g_btype : btype = 0 ∨ btype = 1 ∨ btype = 4) (g_exOrder : exOrder = 1 ∨ exOrder = 2) : Test.adjOffdiag3d 10 90 40 31 111 55 11 92 43 28 107 51
    dir side btype exOrder dx dir_factor neu_factor beta sgcw xst xb0 xb1 xb2 β = .ok true :=
  C104_adj_offdiag_3d hβ (by told) (by told) (by told) (by told) (by told) (by exact fits_of (by decide)) (by exact fits_of (by decide))
      (by exact fits_of (by decide)) (by interval_cases sgcw <;> exact fits_of (by decide))

/-- src/cd_stencil_3d.t.cpp:668-745 -/
theorem C104_adj_poisson_offdiag_3d {i0 j0 k0 i1 j1 k1 pi0 pj0 pk0 pi1 pj1 pk1 dir side btype exOrder : Int} {dx : Nat → T}
    {dir_factor neu_factor beta : T} {sgcw : Int} {xst : Nat → T} {β : Backend} (hβ : ValidBackend β) (hi : i0 ≤ i1) (hj : j0 ≤ j1) (hk : k0 ≤ k1)
    (hg : 0 ≤ sgcw) (hl : Layer3 i0 j0 k0 i1 j1 k1 sgcw pi0 pj0 pk0 pi1 pj1 pk1 dir side)
    (h_st : F.Fits (F.st3d (at_ 0) i0 j0 k0 i1 j1 k1 sgcw).dims) : Test.adjPoissonOffdiag3d i0 j0 k0 i1 j1 k1 pi0 pj0 pk0 pi1 pj1 pk1 dir side btype
    exOrder dx dir_factor neu_factor beta sgcw xst β = .ok true := by
  have I0 := h_st.int
  simp only [F.st3d, List.mem_cons, List.not_mem_nil, or_false, forall_eq_or_imp, forall_eq, InInt] at I0
  have mk_k := mkB_ok (d := .K) (lo := k0) (hi := k1) (by unfold InInt; omega)
  have mk_j := mkB_ok (d := .J) (lo := j0) (hi := j1) (by unfold InInt; omega)
  have mk_i := mkB_ok (d := .I) (lo := i0) (hi := i1) (by unfold InInt; omega)
  have mk_w := mkB_ok (d := .W) (lo := 0) (hi := 6) (by unfold InInt; omega)
  obtain ⟨v0, n0, r0⟩ := offset_ok (T := T) (g := sgcw) (ds := [(.K, k0, k1), (.J, j0, j1), (.I, i0, i1), (.W, 0, 6)]) (by simp) (by simp)
      (by omega) (by simp <;> omega) h_st
  simp only [bounds, List.map_cons, List.map_nil] at n0
  unfold Test.adjPoissonOffdiag3d
  simp only [mk_k, mk_j, mk_i, mk_w, n0, (r0.fill (xs := xst)).copy, (r0.fill (xs := xst)).host, M.ok_bind]
  refine compare_ok (L := [1, 0]) ?_ rfl rfl (F.ren_adjcellpoissonoffdiag3d (T := T) (perm_inv (L := [1, 0]) (by decide))) ?_ (by decide)
  · simp [(r0.fill (xs := xst)).same, (r0.fill (xs := xst)).sync]
  · refine C36_adj_poisson_offdiag_3d hβ hi hj hk hg hl ⟨?_, ?_⟩
    · simp only [List.cons_append, List.nil_append, List.forall_mem_cons]
      refine ⟨arr_ok_of rfl (r0.fill (xs := xst)) h_st, ?_⟩
      simp
    · simp only [List.forall_mem_cons]
      repeat' first | exact arr_apart (by decide) | refine ⟨?_, ?_⟩ | simp

example {sgcw dir side btype exOrder : Int} {dx : Nat → ℚ} {dir_factor neu_factor beta : ℚ} {xst : Nat → ℚ} {β : Backend} (hβ : ValidBackend β)
    (p_sgcw : 1 ≤ sgcw) (q_sgcw : sgcw ≤ 3) (g_dir : dir = 0 ∨ dir = 1 ∨ dir = 2) (g_side : side = 0 ∨ side = 1)
    (g_btype : btype = 0 ∨ btype = 1 ∨ btype = 4) (g_exOrder : exOrder = 1 ∨ exOrder = 2) : Test.adjPoissonOffdiag3d 10 90 40 31 111 55 11 92 43 28
    107 51 dir side btype exOrder dx dir_factor neu_factor beta sgcw xst β = .ok true :=
  C104_adj_poisson_offdiag_3d hβ (by told) (by told) (by told) (by told) (by told) (by interval_cases sgcw <;> exact fits_of (by decide))

/-- src/cd_stencil_3d.t.cpp:747-812 -/
theorem C104_adj_cf_offdiag_3d {i0 j0 k0 i1 j1 k1 pi0 pj0 pk0 pi1 pj1 pk1 r dir side intOrder sgcw : Int} {xst : Nat → T} {β : Backend}
    (hβ : ValidBackend β) (hi : i0 ≤ i1) (hj : j0 ≤ j1) (hk : k0 ≤ k1) (hg : 0 ≤ sgcw)
    (hl : Layer3 i0 j0 k0 i1 j1 k1 sgcw pi0 pj0 pk0 pi1 pj1 pk1 dir side) (h_st : F.Fits (F.st3d (at_ 0) i0 j0 k0 i1 j1 k1 sgcw).dims) :
    Test.adjCfOffdiag3d i0 j0 k0 i1 j1 k1 pi0 pj0 pk0 pi1 pj1 pk1 r dir side intOrder sgcw xst β = .ok true := by
  have I0 := h_st.int
  simp only [F.st3d, List.mem_cons, List.not_mem_nil, or_false, forall_eq_or_imp, forall_eq, InInt] at I0
  have mk_k := mkB_ok (d := .K) (lo := k0) (hi := k1) (by unfold InInt; omega)
  have mk_j := mkB_ok (d := .J) (lo := j0) (hi := j1) (by unfold InInt; omega)
  have mk_i := mkB_ok (d := .I) (lo := i0) (hi := i1) (by unfold InInt; omega)
  have mk_w := mkB_ok (d := .W) (lo := 0) (hi := 6) (by unfold InInt; omega)
  obtain ⟨v0, n0, r0⟩ := offset_ok (T := T) (g := sgcw) (ds := [(.K, k0, k1), (.J, j0, j1), (.I, i0, i1), (.W, 0, 6)]) (by simp) (by simp)
      (by omega) (by simp <;> omega) h_st
  simp only [bounds, List.map_cons, List.map_nil] at n0
  unfold Test.adjCfOffdiag3d
  simp only [mk_k, mk_j, mk_i, mk_w, n0, (r0.fill (xs := xst)).copy, (r0.fill (xs := xst)).host, M.ok_bind]
  refine compare_ok (L := [1, 0]) ?_ rfl rfl (F.ren_adjcelldiffusioncfoffdiag3d (T := T) (perm_inv (L := [1, 0]) (by decide))) ?_ (by decide)
  · simp [(r0.fill (xs := xst)).same, (r0.fill (xs := xst)).sync]
  · refine C36_adj_cf_offdiag_3d hβ hi hj hk hg hl ⟨?_, ?_⟩
    · simp only [List.cons_append, List.nil_append, List.forall_mem_cons]
      refine ⟨arr_ok_of rfl (r0.fill (xs := xst)) h_st, ?_⟩
      simp
    · simp only [List.forall_mem_cons]
      repeat' first | exact arr_apart (by decide) | refine ⟨?_, ?_⟩ | simp

example {sgcw dir side r intOrder : Int} {xst : Nat → ℚ} {β : Backend} (hβ : ValidBackend β) (p_sgcw : 1 ≤ sgcw) (q_sgcw : sgcw ≤ 3)
    (g_dir : dir = 0 ∨ dir = 1 ∨ dir = 2) (g_side : side = 0 ∨ side = 1) (g_r : r = 1 ∨ r = 4) (g_intOrder : intOrder = 1 ∨ intOrder = 2) :
    Test.adjCfOffdiag3d 10 90 40 31 111 55 11 92 43 28 107 51 r dir side intOrder sgcw xst β = .ok true :=
  C104_adj_cf_offdiag_3d hβ (by told) (by told) (by told) (by told) (by told) (by interval_cases sgcw <;> exact fits_of (by decide))

/-- src/cd_stencil_3d.t.cpp:814-873 -/
theorem C104_readj_offdiag_3d {i0 j0 k0 i1 j1 k1 pi0 pj0 pk0 pi1 pj1 pk1 dir side sgcw : Int} {xst : Nat → T} {β : Backend} (hβ : ValidBackend β)
    (hi : i0 ≤ i1) (hj : j0 ≤ j1) (hk : k0 ≤ k1) (hg : 0 ≤ sgcw) (hl : Layer3 i0 j0 k0 i1 j1 k1 sgcw pi0 pj0 pk0 pi1 pj1 pk1 dir side)
    (h_st : F.Fits (F.st3d (at_ 0) i0 j0 k0 i1 j1 k1 sgcw).dims) : Test.readjOffdiag3d i0 j0 k0 i1 j1 k1 pi0 pj0 pk0 pi1 pj1 pk1 dir side sgcw xst β
    = .ok true := by
  have I0 := h_st.int
  simp only [F.st3d, List.mem_cons, List.not_mem_nil, or_false, forall_eq_or_imp, forall_eq, InInt] at I0
  have mk_k := mkB_ok (d := .K) (lo := k0) (hi := k1) (by unfold InInt; omega)
  have mk_j := mkB_ok (d := .J) (lo := j0) (hi := j1) (by unfold InInt; omega)
  have mk_i := mkB_ok (d := .I) (lo := i0) (hi := i1) (by unfold InInt; omega)
  have mk_w := mkB_ok (d := .W) (lo := 0) (hi := 6) (by unfold InInt; omega)
  obtain ⟨v0, n0, r0⟩ := offset_ok (T := T) (g := sgcw) (ds := [(.K, k0, k1), (.J, j0, j1), (.I, i0, i1), (.W, 0, 6)]) (by simp) (by simp)
      (by omega) (by simp <;> omega) h_st
  simp only [bounds, List.map_cons, List.map_nil] at n0
  unfold Test.readjOffdiag3d
  simp only [mk_k, mk_j, mk_i, mk_w, n0, (r0.fill (xs := xst)).copy, (r0.fill (xs := xst)).host, M.ok_bind]
  refine compare_ok (L := [1, 0]) ?_ rfl rfl (F.ren_readjcelldiffusionoffdiag3d (T := T) (perm_inv (L := [1, 0]) (by decide))) ?_ (by decide)
  · simp [(r0.fill (xs := xst)).same, (r0.fill (xs := xst)).sync]
  · refine C36_readj_offdiag_3d hβ hi hj hk hg hl ⟨?_, ?_⟩
    · simp only [List.cons_append, List.nil_append, List.forall_mem_cons]
      refine ⟨arr_ok_of rfl (r0.fill (xs := xst)) h_st, ?_⟩
      simp
    · simp only [List.forall_mem_cons]
      repeat' first | exact arr_apart (by decide) | refine ⟨?_, ?_⟩ | simp

example {sgcw dir side : Int} {xst : Nat → ℚ} {β : Backend} (hβ : ValidBackend β) (p_sgcw : 1 ≤ sgcw) (q_sgcw : sgcw ≤ 3)
    (g_dir : dir = 0 ∨ dir = 1 ∨ dir = 2) (g_side : side = 0 ∨ side = 1) : Test.readjOffdiag3d 10 90 40 31 111 55 11 92 43 28 107 51 dir side sgcw
    xst β = .ok true :=
  C104_readj_offdiag_3d hβ (by told) (by told) (by told) (by told) (by told) (by interval_cases sgcw <;> exact fits_of (by decide))

/-- src/cd_stencil_3d.t.cpp:875-945 -/
theorem C104_adj_cf_bdryrhs_3d {i0 j0 k0 i1 j1 k1 pi0 pj0 pk0 pi1 pj1 pk1 dir side sgcw gcw : Int} {xst xu xrhs : Nat → T} {β : Backend}
    (hβ : ValidBackend β) (hi : i0 ≤ i1) (hj : j0 ≤ j1) (hk : k0 ≤ k1) (hg : 0 ≤ sgcw) (hu : 1 ≤ gcw)
    (hl : Layer3 i0 j0 k0 i1 j1 k1 0 pi0 pj0 pk0 pi1 pj1 pk1 dir side) (h_u : F.Fits (F.cell3d (at_ 0) i0 j0 k0 i1 j1 k1 gcw).dims)
    (h_st : F.Fits (F.st3d (at_ 0) i0 j0 k0 i1 j1 k1 sgcw).dims) (h_rhs : F.Fits (F.cell3d (at_ 0) i0 j0 k0 i1 j1 k1 0).dims) : Test.adjCfBdryrhs3d
    i0 j0 k0 i1 j1 k1 pi0 pj0 pk0 pi1 pj1 pk1 dir side sgcw gcw xst xu xrhs β = .ok true := by
  have I0 := h_u.int
  have I1 := h_st.int
  have I2 := h_rhs.int
  simp only [F.cell3d, F.st3d, List.mem_cons, List.not_mem_nil, or_false, forall_eq_or_imp, forall_eq, InInt] at I0 I1 I2
  have mk_k := mkB_ok (d := .K) (lo := k0) (hi := k1) (by unfold InInt; omega)
  have mk_j := mkB_ok (d := .J) (lo := j0) (hi := j1) (by unfold InInt; omega)
  have mk_i := mkB_ok (d := .I) (lo := i0) (hi := i1) (by unfold InInt; omega)
  have mk_w := mkB_ok (d := .W) (lo := 0) (hi := 6) (by unfold InInt; omega)
  obtain ⟨v0, n0, r0⟩ := offset_ok (T := T) (g := sgcw) (ds := [(.K, k0, k1), (.J, j0, j1), (.I, i0, i1), (.W, 0, 6)]) (by simp) (by simp)
      (by omega) (by simp <;> omega) h_st
  obtain ⟨v1, n1, r1⟩ := offset_ok (T := T) (g := gcw) (ds := [(.K, k0, k1), (.J, j0, j1), (.I, i0, i1)]) (by simp) (by simp) (by omega)
      (by simp <;> omega) h_u
  obtain ⟨v2, n2, r2⟩ := vec_ok (T := T) (ds := [(.K, k0, k1), (.J, j0, j1), (.I, i0, i1)]) (by simp) (by simp) (by simp <;> omega) h_rhs
  simp only [bounds, List.map_cons, List.map_nil] at n0 n1 n2
  unfold Test.adjCfBdryrhs3d
  simp only [mk_k, mk_j, mk_i, mk_w, n0, n1, n2, (r2.fill (xs := xrhs)).copy, (r2.fill (xs := xrhs)).host, M.ok_bind]
  refine compare_ok (L := [0, 1, 3, 2]) ?_ rfl rfl (F.ren_adjcelldiffusioncfbdryrhs3d (T := T) (perm_inv (L := [0, 1, 3, 2]) (by decide))) ?_
      (by decide)
  · simp [(r0.fill (xs := xst)).same, (r0.fill (xs := xst)).sync, (r1.fill (xs := xu)).same, (r1.fill (xs := xu)).sync, (r2.fill (xs := xrhs)).same,
        (r2.fill (xs := xrhs)).sync]
  · refine C36_adj_cf_bdryrhs_3d hβ hi hj hk hg hu hl ⟨?_, ?_⟩
    · simp only [List.cons_append, List.nil_append, List.forall_mem_cons]
      refine ⟨arr_ok_of rfl (r1.fill (xs := xu)) h_u, arr_ok_of rfl (r0.fill (xs := xst)) h_st, arr_ok_of rfl (r2.fill (xs := xrhs)) h_rhs, ?_⟩
      simp
    · simp only [List.forall_mem_cons]
      repeat' first | exact arr_apart (by decide) | refine ⟨?_, ?_⟩ | simp

example {sgcw gcw dir side : Int} {xst xu xrhs : Nat → ℚ} {β : Backend} (hβ : ValidBackend β) (p_sgcw : 1 ≤ sgcw) (q_sgcw : sgcw ≤ 3)
    (p_gcw : 1 ≤ gcw) (q_gcw : gcw ≤ 3) (g_dir : dir = 0 ∨ dir = 1 ∨ dir = 2) (g_side : side = 0 ∨ side = 1) : Test.adjCfBdryrhs3d 10 90 40 31 111
    55 11 92 43 28 107 51 dir side sgcw gcw xst xu xrhs β = .ok true :=
  C104_adj_cf_bdryrhs_3d hβ (by told) (by told) (by told) (by told) (by told) (by told) (by interval_cases gcw <;> exact fits_of (by decide))
      (by interval_cases sgcw <;> exact fits_of (by decide)) (by exact fits_of (by decide))

end Verif
