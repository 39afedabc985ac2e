import Verif.Lemmas.Driver
import Verif.Lemmas.BcRename
import Verif.Model.Tests.Bc
import Verif.Props.Bc
import Mathlib.Tactic.IntervalCases
import Mathlib.Algebra.Order.Ring.Rat

/-
C105: the boundary condition tests pass, whatever numbers they pick.  Each example has the numbers of the test case; what the test picks or generates is a variable
in the range the test takes it from.
-/

namespace Verif

open Spec Test

variable {T : Type} [Field T] [DecidableEq T]

/-- src/cd_correct_bc_1d.t.cpp:44-105 -/
theorem C105_bc_1d {i0 i1 : Int} {dx : Nat → T} {dgcw ugcw : Int} {bLo bHi : Nat → Int} {exOrder face btype : Int} {alpha beta : T}
    {xu xd0 : Nat → T} {β : Nat → Backend} (hβ : ∀ n, ValidBackend (β n)) (hi : i0 ≤ i1) (hg : 0 ≤ ugcw) (hdg : 0 ≤ dgcw)
    (hs : ∀ n < 1, InInt (bLo n + 1) ∧ InInt (bHi n + 1)) (hf0 : face = 0 → Reach i0 i1 ugcw (bLo 0) 2 ∧ OnFaces i0 i1 dgcw (bLo 0 + 1))
    (hf1 : face = 1 → Reach i0 i1 ugcw (bHi 0) (-2) ∧ OnFaces i0 i1 dgcw (bHi 0)) (h_d0 : F.Fits (F.face1d (at_ 0) i0 i1 dgcw).dims)
    (h_u : F.Fits (F.cell1d (at_ 0) i0 i1 ugcw).dims) : Test.setBc1d i0 i1 dx dgcw ugcw bLo bHi exOrder face btype alpha beta xu xd0 β = .ok true :=
    by
  have I0 := h_d0.int
  have I1 := h_u.int
  simp only [F.cell1d, F.face1d, List.mem_cons, List.not_mem_nil, or_false, forall_eq_or_imp, forall_eq, InInt] at I0 I1
  have mk_i := mkB_ok (d := .I) (lo := i0) (hi := i1) (by unfold InInt; omega)
  have pl_i := plus_ok (d := .I) (b := ⟨i0, i1 + 1, 1⟩) (x := 1) (by omega) (by simp only [InInt]; omega)
  obtain ⟨v0, n0, r0⟩ := offset_ok (T := T) (g := ugcw) (ds := [(.I, i0, i1)]) (by simp) (by simp) (by omega) (by simp <;> omega) h_u
  obtain ⟨v1, n1, r1⟩ := offset_ok (T := T) (g := dgcw) (ds := [(.I, i0, i1 + 1)]) (by simp) (by simp) (by omega) (by simp <;> omega) h_d0
  simp only [bounds, List.map_cons, List.map_nil] at n0 n1
  unfold Test.setBc1d
  simp only [mk_i, pl_i, n0, n1, (r0.fill (xs := xu)).copy, (r0.fill (xs := xu)).host, M.ok_bind]
  refine compare_ok (L := [2, 1, 0]) ?_ rfl rfl (F.ren_cellsetcorrectionbc1d (T := T) (perm_inv (L := [2, 1, 0]) (by decide))) ?_ (by decide)
  · simp [(r0.fill (xs := xu)).same, (r0.fill (xs := xu)).sync, (r1.fill (xs := xd0)).same, (r1.fill (xs := xd0)).sync]
  · refine C35_1d hβ hi hg hdg hs hf0 hf1 ⟨?_, ?_⟩
    · simp only [List.cons_append, List.nil_append, List.forall_mem_cons]
      refine ⟨arr_ok_of rfl (r1.fill (xs := xd0)) h_d0, arr_ok_of rfl (r0.fill (xs := xu)) h_u, ?_⟩
      simp
    · simp only [List.forall_mem_cons]
      repeat' first | exact arr_apart (by decide) | refine ⟨?_, ?_⟩ | simp

example {dgcw ugcw exOrder face btype : Int} {dx : Nat → ℚ} {bLo bHi : Nat → Int} {alpha beta : ℚ} {xu xd0 : Nat → ℚ} {β : Nat → Backend}
    (hβ : ∀ n, ValidBackend (β n)) (p_dgcw : 1 ≤ dgcw) (q_dgcw : dgcw ≤ 3) (p_ugcw : 1 ≤ ugcw) (q_ugcw : ugcw ≤ 3)
    (g_exOrder : exOrder = 1 ∨ exOrder = 2) (g_face : face = 0 ∨ face = 1) (g_btype : btype = 0 ∨ btype = 1 ∨ btype = 4) (p_bLo0 : 11 ≤ bLo 0)
    (q_bLo0 : bLo 0 ≤ 13) (p_bHi0 : 17 ≤ bHi 0) (q_bHi0 : bHi 0 ≤ 19) : Test.setBc1d 10 20 dx dgcw ugcw bLo bHi exOrder face btype alpha beta xu xd0
    β = .ok true :=
  C105_bc_1d hβ (by told) (by told) (by told) (by intro n hn; interval_cases n <;> told) (by told) (by told)
      (by interval_cases dgcw <;> exact fits_of (by decide)) (by interval_cases ugcw <;> exact fits_of (by decide))

/-- src/cd_correct_bc_1d.t.cpp:107-161 -/
theorem C105_bc_poisson_1d {i0 i1 : Int} {dx : Nat → T} {ugcw : Int} {bLo bHi : Nat → Int} {exOrder face btype : Int} {alpha beta : T}
    {xu : Nat → T} {β : Nat → Backend} (hβ : ∀ n, ValidBackend (β n)) (hi : i0 ≤ i1) (hg : 0 ≤ ugcw)
    (hs : ∀ n < 1, InInt (bLo n + 1) ∧ InInt (bHi n + 1)) (hf0 : face = 0 → Reach i0 i1 ugcw (bLo 0) 2)
    (hf1 : face = 1 → Reach i0 i1 ugcw (bHi 0) (-2)) (h_u : F.Fits (F.cell1d (at_ 0) i0 i1 ugcw).dims) : Test.setPoissonBc1d i0 i1 dx ugcw bLo bHi
    exOrder face btype alpha beta xu β = .ok true := by
  have I0 := h_u.int
  simp only [F.cell1d, List.mem_cons, List.not_mem_nil, or_false, forall_eq_or_imp, forall_eq, InInt] at I0
  have mk_i := mkB_ok (d := .I) (lo := i0) (hi := i1) (by unfold InInt; omega)
  obtain ⟨v0, n0, r0⟩ := offset_ok (T := T) (g := ugcw) (ds := [(.I, i0, i1)]) (by simp) (by simp) (by omega) (by simp <;> omega) h_u
  simp only [bounds, List.map_cons, List.map_nil] at n0
  unfold Test.setPoissonBc1d
  simp only [mk_i, n0, (r0.fill (xs := xu)).copy, (r0.fill (xs := xu)).host, M.ok_bind]
  refine compare_ok (L := [1, 0]) ?_ rfl rfl (F.ren_cellsetpoissoncorrectionbc1d (T := T) (perm_inv (L := [1, 0]) (by decide))) ?_ (by decide)
  · simp [(r0.fill (xs := xu)).same, (r0.fill (xs := xu)).sync]
  · refine C35_poisson_1d hβ hi hg hs hf0 hf1 ⟨?_, ?_⟩
    · simp only [List.cons_append, List.nil_append, List.forall_mem_cons]
      refine ⟨arr_ok_of rfl (r0.fill (xs := xu)) h_u, ?_⟩
      simp
    · simp only [List.forall_mem_cons]
      repeat' first | exact arr_apart (by decide) | refine ⟨?_, ?_⟩ | simp

example {ugcw exOrder face btype : Int} {dx : Nat → ℚ} {bLo bHi : Nat → Int} {alpha beta : ℚ} {xu : Nat → ℚ} {β : Nat → Backend}
    (hβ : ∀ n, ValidBackend (β n)) (p_ugcw : 1 ≤ ugcw) (q_ugcw : ugcw ≤ 3) (g_exOrder : exOrder = 1 ∨ exOrder = 2) (g_face : face = 0 ∨ face = 1)
    (g_btype : btype = 0 ∨ btype = 1 ∨ btype = 4) (p_bLo0 : 11 ≤ bLo 0) (q_bLo0 : bLo 0 ≤ 13) (p_bHi0 : 17 ≤ bHi 0) (q_bHi0 : bHi 0 ≤ 19) :
    Test.setPoissonBc1d 10 20 dx ugcw bLo bHi exOrder face btype alpha beta xu β = .ok true :=
  C105_bc_poisson_1d hβ (by told) (by told) (by intro n hn; interval_cases n <;> told) (by told) (by told)
      (by interval_cases ugcw <;> exact fits_of (by decide))

/-- src/cd_correct_bc_2d.t.cpp:50-123 -/
theorem C105_bc_2d {i0 i1 j0 j1 : Int} {dx : Nat → T} {dgcw ugcw : Int} {bLo bHi : Nat → Int} {exOrder face type btype : Int} {alpha beta : T}
    {xu xd0 xd1 : Nat → T} {β : Nat → Backend} (hβ : ∀ n, ValidBackend (β n)) (hi : i0 ≤ i1) (hj : j0 ≤ j1) (hg : 0 ≤ ugcw) (hdg : 0 ≤ dgcw)
    (hs : ∀ n < 2, InInt (bLo n + 1) ∧ InInt (bHi n + 1))
    (hf0 : type = 1 → face = 0 → Reach i0 i1 ugcw (bLo 0) 2 ∧ OnFaces i0 i1 dgcw (bLo 0 + 1) ∧ Part j0 j1 (bLo 1) (bHi 1))
    (hf1 : type = 1 → face = 1 → Reach i0 i1 ugcw (bHi 0) (-2) ∧ OnFaces i0 i1 dgcw (bHi 0) ∧ Part j0 j1 (bLo 1) (bHi 1))
    (hf2 : type = 1 → face = 2 → Reach j0 j1 ugcw (bLo 1) 2 ∧ OnFaces j0 j1 dgcw (bLo 1 + 1) ∧ Part i0 i1 (bLo 0) (bHi 0))
    (hf3 : type = 1 → face = 3 → Reach j0 j1 ugcw (bHi 1) (-2) ∧ OnFaces j0 j1 dgcw (bHi 1) ∧ Part i0 i1 (bLo 0) (bHi 0)) (hn : type = 2 → 0 ≤ face
    → face < 4 → Reach i0 i1 ugcw (if face % 2 = 0 then bLo 0 else bHi 0) (dir0 face) ∧ Reach j0 j1 ugcw (if face < 2 then bLo 1 else bHi 1) (dir1
    face)) (h_d0 : F.Fits (F.face2d0 (at_ 0) i0 j0 i1 j1 dgcw).dims) (h_d1 : F.Fits (F.face2d1 (at_ 0) i0 j0 i1 j1 dgcw).dims)
    (h_u : F.Fits (F.cell2d (at_ 0) i0 j0 i1 j1 ugcw).dims) : Test.setBc2d i0 i1 j0 j1 dx dgcw ugcw bLo bHi exOrder face type btype alpha beta xu
    xd0 xd1 β = .ok true := by
  have I0 := h_d0.int
  have I1 := h_d1.int
  have I2 := h_u.int
  simp only [F.cell2d, F.face2d0, F.face2d1, List.mem_cons, List.not_mem_nil, or_false, forall_eq_or_imp, forall_eq, InInt] at I0 I1 I2
  have mk_j := mkB_ok (d := .J) (lo := j0) (hi := j1) (by unfold InInt; omega)
  have mk_i := mkB_ok (d := .I) (lo := i0) (hi := i1) (by unfold InInt; omega)
  have pl_i := plus_ok (d := .I) (b := ⟨i0, i1 + 1, 1⟩) (x := 1) (by omega) (by simp only [InInt]; omega)
  have pl_j := plus_ok (d := .J) (b := ⟨j0, j1 + 1, 1⟩) (x := 1) (by omega) (by simp only [InInt]; omega)
  obtain ⟨v0, n0, r0⟩ := offset_ok (T := T) (g := ugcw) (ds := [(.J, j0, j1), (.I, i0, i1)]) (by simp) (by simp) (by omega) (by simp <;> omega) h_u
  obtain ⟨v1, n1, r1⟩ := offset_ok (T := T) (g := dgcw) (ds := [(.J, j0, j1), (.I, i0, i1 + 1)]) (by simp) (by simp) (by omega) (by simp <;> omega)
      h_d0
  obtain ⟨v2, n2, r2⟩ := offset_ok (T := T) (g := dgcw) (ds := [(.I, i0, i1), (.J, j0, j1 + 1)]) (by simp) (by simp) (by omega) (by simp <;> omega)
      h_d1
  simp only [bounds, List.map_cons, List.map_nil] at n0 n1 n2
  unfold Test.setBc2d
  simp only [mk_j, mk_i, pl_i, pl_j, n0, n1, n2, (r0.fill (xs := xu)).copy, (r0.fill (xs := xu)).host, M.ok_bind]
  refine compare_ok (L := [3, 1, 2, 0]) ?_ rfl rfl (F.ren_cellsetcorrectionbc2d (T := T) (perm_inv (L := [3, 1, 2, 0]) (by decide))) ?_ (by decide)
  · simp [(r0.fill (xs := xu)).same, (r0.fill (xs := xu)).sync, (r1.fill (xs := xd0)).same, (r1.fill (xs := xd0)).sync, (r2.fill (xs := xd1)).same,
        (r2.fill (xs := xd1)).sync]
  · refine C35_2d_partial hβ hi hj hg hdg hs hf0 hf1 hf2 hf3 hn ⟨?_, ?_⟩
    · simp only [List.cons_append, List.nil_append, List.forall_mem_cons]
      refine ⟨arr_ok_of rfl (r1.fill (xs := xd0)) h_d0, arr_ok_of rfl (r2.fill (xs := xd1)) h_d1, arr_ok_of rfl (r0.fill (xs := xu)) h_u, ?_⟩
      simp
    · simp only [List.forall_mem_cons]
      repeat' first | exact arr_apart (by decide) | refine ⟨?_, ?_⟩ | simp

example {dgcw ugcw exOrder face type btype : Int} {dx : Nat → ℚ} {bLo bHi : Nat → Int} {alpha beta : ℚ} {xu xd0 xd1 : Nat → ℚ} {β : Nat → Backend}
    (hβ : ∀ n, ValidBackend (β n)) (p_dgcw : 1 ≤ dgcw) (q_dgcw : dgcw ≤ 3) (p_ugcw : 1 ≤ ugcw) (q_ugcw : ugcw ≤ 3)
    (g_exOrder : exOrder = 0 ∨ exOrder = 1 ∨ exOrder = 2) (g_face : face = 0 ∨ face = 1 ∨ face = 2 ∨ face = 3) (g_type : type = 1 ∨ type = 2)
    (g_btype : btype = 0 ∨ btype = 1 ∨ btype = 4) (p_bLo0 : 11 ≤ bLo 0) (q_bLo0 : bLo 0 ≤ 13) (p_bLo1 : 12 ≤ bLo 1) (q_bLo1 : bLo 1 ≤ 14)
    (p_bHi0 : 17 ≤ bHi 0) (q_bHi0 : bHi 0 ≤ 19) (p_bHi1 : 27 ≤ bHi 1) (q_bHi1 : bHi 1 ≤ 29) : Test.setBc2d 10 20 11 30 dx dgcw ugcw bLo bHi exOrder
    face type btype alpha beta xu xd0 xd1 β = .ok true :=
  C105_bc_2d hβ (by told) (by told) (by told) (by told) (by intro n hn; interval_cases n <;> told) (by told) (by told) (by told) (by told) (by told)
      (by interval_cases dgcw <;> exact fits_of (by decide)) (by interval_cases dgcw <;> exact fits_of (by decide))
      (by interval_cases ugcw <;> exact fits_of (by decide))

/-- src/cd_correct_bc_2d.t.cpp:125-186 -/
theorem C105_bc_poisson_2d {i0 i1 j0 j1 : Int} {dx : Nat → T} {ugcw : Int} {bLo bHi : Nat → Int} {exOrder face type btype : Int} {alpha beta : T}
    {xu : Nat → T} {β : Nat → Backend} (hβ : ∀ n, ValidBackend (β n)) (hi : i0 ≤ i1) (hj : j0 ≤ j1) (hg : 0 ≤ ugcw)
    (hs : ∀ n < 2, InInt (bLo n + 1) ∧ InInt (bHi n + 1)) (hf0 : type = 1 → face = 0 → Reach i0 i1 ugcw (bLo 0) 2 ∧ Part j0 j1 (bLo 1) (bHi 1))
    (hf1 : type = 1 → face = 1 → Reach i0 i1 ugcw (bHi 0) (-2) ∧ Part j0 j1 (bLo 1) (bHi 1))
    (hf2 : type = 1 → face = 2 → Reach j0 j1 ugcw (bLo 1) 2 ∧ Part i0 i1 (bLo 0) (bHi 0))
    (hf3 : type = 1 → face = 3 → Reach j0 j1 ugcw (bHi 1) (-2) ∧ Part i0 i1 (bLo 0) (bHi 0)) (hn : type = 2 → 0 ≤ face → face < 4 → Reach i0 i1 ugcw
    (if face % 2 = 0 then bLo 0 else bHi 0) (dir0 face) ∧ Reach j0 j1 ugcw (if face < 2 then bLo 1 else bHi 1) (dir1 face))
    (h_u : F.Fits (F.cell2d (at_ 0) i0 j0 i1 j1 ugcw).dims) : Test.setPoissonBc2d i0 i1 j0 j1 dx ugcw bLo bHi exOrder face type btype alpha beta xu
    β = .ok true := by
  have I0 := h_u.int
  simp only [F.cell2d, List.mem_cons, List.not_mem_nil, or_false, forall_eq_or_imp, forall_eq, InInt] at I0
  have mk_j := mkB_ok (d := .J) (lo := j0) (hi := j1) (by unfold InInt; omega)
  have mk_i := mkB_ok (d := .I) (lo := i0) (hi := i1) (by unfold InInt; omega)
  obtain ⟨v0, n0, r0⟩ := offset_ok (T := T) (g := ugcw) (ds := [(.J, j0, j1), (.I, i0, i1)]) (by simp) (by simp) (by omega) (by simp <;> omega) h_u
  simp only [bounds, List.map_cons, List.map_nil] at n0
  unfold Test.setPoissonBc2d
  simp only [mk_j, mk_i, n0, (r0.fill (xs := xu)).copy, (r0.fill (xs := xu)).host, M.ok_bind]
  refine compare_ok (L := [1, 0]) ?_ rfl rfl (F.ren_cellsetpoissoncorrectionbc2d (T := T) (perm_inv (L := [1, 0]) (by decide))) ?_ (by decide)
  · simp [(r0.fill (xs := xu)).same, (r0.fill (xs := xu)).sync]
  · refine C35_poisson_2d_partial hβ hi hj hg hs hf0 hf1 hf2 hf3 hn ⟨?_, ?_⟩
    · simp only [List.cons_append, List.nil_append, List.forall_mem_cons]
      refine ⟨arr_ok_of rfl (r0.fill (xs := xu)) h_u, ?_⟩
      simp
    · simp only [List.forall_mem_cons]
      repeat' first | exact arr_apart (by decide) | refine ⟨?_, ?_⟩ | simp

example {ugcw exOrder face type btype : Int} {dx : Nat → ℚ} {bLo bHi : Nat → Int} {alpha beta : ℚ} {xu : Nat → ℚ} {β : Nat → Backend}
    (hβ : ∀ n, ValidBackend (β n)) (p_ugcw : 1 ≤ ugcw) (q_ugcw : ugcw ≤ 3) (g_exOrder : exOrder = 1 ∨ exOrder = 2)
    (g_face : face = 0 ∨ face = 1 ∨ face = 2 ∨ face = 3) (g_type : type = 1 ∨ type = 2) (g_btype : btype = 0 ∨ btype = 1 ∨ btype = 4)
    (p_bLo0 : 11 ≤ bLo 0) (q_bLo0 : bLo 0 ≤ 13) (p_bLo1 : 12 ≤ bLo 1) (q_bLo1 : bLo 1 ≤ 14) (p_bHi0 : 17 ≤ bHi 0) (q_bHi0 : bHi 0 ≤ 19)
    (p_bHi1 : 27 ≤ bHi 1) (q_bHi1 : bHi 1 ≤ 29) : Test.setPoissonBc2d 10 20 11 30 dx ugcw bLo bHi exOrder face type btype alpha beta xu β = .ok true
    :=
  C105_bc_poisson_2d hβ (by told) (by told) (by told) (by intro n hn; interval_cases n <;> told) (by told) (by told) (by told) (by told) (by told)
      (by interval_cases ugcw <;> exact fits_of (by decide))

/-- src/cd_correct_bc_2d.t.cpp:188-251 -/
theorem C105_bc_corner_2d {i0 i1 j0 j1 ugcw : Int} {dx : Nat → T} {bLo bHi : Nat → Int} {exOrder face type btype : Int} {xu xd0 xd1 : Nat → T}
    {β : Nat → Backend} (hβ : ∀ n, ValidBackend (β n)) (hi : i0 ≤ i1) (hj : j0 ≤ j1) (hg : 0 ≤ ugcw)
    (hs : ∀ n < 2, InInt (bLo n + 1) ∧ InInt (bHi n + 1)) (hn : 0 ≤ face → face < 4 → Reach i0 i1 ugcw (if face % 2 = 0 then bLo 0 else bHi 0) (dir0
    face) ∧ Reach j0 j1 ugcw (if face < 2 then bLo 1 else bHi 1) (dir1 face)) (h_u : F.Fits (F.cell2d (at_ 0) i0 j0 i1 j1 ugcw).dims)
    (h_d0 : F.Fits (F.face2d0 (at_ 0) i0 j0 i1 j1 0).dims) (h_d1 : F.Fits (F.face2d1 (at_ 0) i0 j0 i1 j1 0).dims) : Test.setCornerBc2d i0 i1 j0 j1
    ugcw dx bLo bHi exOrder face type btype xu xd0 xd1 β = .ok true := by
  have I0 := h_u.int
  have I1 := h_d0.int
  have I2 := h_d1.int
  simp only [F.cell2d, F.face2d0, F.face2d1, List.mem_cons, List.not_mem_nil, or_false, forall_eq_or_imp, forall_eq, InInt] at I0 I1 I2
  have mk_j := mkB_ok (d := .J) (lo := j0) (hi := j1) (by unfold InInt; omega)
  have mk_i := mkB_ok (d := .I) (lo := i0) (hi := i1) (by unfold InInt; omega)
  have pl_i := plus_ok (d := .I) (b := ⟨i0, i1 + 1, 1⟩) (x := 1) (by omega) (by simp only [InInt]; omega)
  have pl_j := plus_ok (d := .J) (b := ⟨j0, j1 + 1, 1⟩) (x := 1) (by omega) (by simp only [InInt]; omega)
  obtain ⟨v0, n0, r0⟩ := offset_ok (T := T) (g := ugcw) (ds := [(.J, j0, j1), (.I, i0, i1)]) (by simp) (by simp) (by omega) (by simp <;> omega) h_u
  obtain ⟨v1, n1, r1⟩ := vec_ok (T := T) (ds := [(.J, j0, j1), (.I, i0, i1 + 1)]) (by simp) (by simp) (by simp <;> omega) h_d0
  obtain ⟨v2, n2, r2⟩ := vec_ok (T := T) (ds := [(.I, i0, i1), (.J, j0, j1 + 1)]) (by simp) (by simp) (by simp <;> omega) h_d1
  simp only [bounds, List.map_cons, List.map_nil] at n0 n1 n2
  unfold Test.setCornerBc2d
  simp only [mk_j, mk_i, pl_i, pl_j, n0, n1, n2, (r0.fill (xs := xu)).copy, (r0.fill (xs := xu)).host, M.ok_bind]
  refine compare_ok (L := [3, 1, 2, 0]) ?_ rfl rfl (F.ren_cellsetinteriorcornerbc2d (T := T) (perm_inv (L := [3, 1, 2, 0]) (by decide))) ?_
      (by decide)
  · simp [(r0.fill (xs := xu)).same, (r0.fill (xs := xu)).sync, (r1.fill (xs := xd0)).same, (r1.fill (xs := xd0)).sync, (r2.fill (xs := xd1)).same,
        (r2.fill (xs := xd1)).sync]
  · refine C35_corner_2d hβ hi hj hg hs hn ⟨?_, ?_⟩
    · simp only [List.cons_append, List.nil_append, List.forall_mem_cons]
      refine ⟨arr_ok_of rfl (r0.fill (xs := xu)) h_u, ?_⟩
      simp
    · simp only [List.forall_mem_cons]
      repeat' first | exact arr_apart (by decide) | refine ⟨?_, ?_⟩ | simp

example {ugcw face : Int} {dx : Nat → ℚ} {bLo bHi : Nat → Int} {xu xd0 xd1 : Nat → ℚ} {β : Nat → Backend} (hβ : ∀ n, ValidBackend (β n))
    (p_ugcw : 1 ≤ ugcw) (q_ugcw : ugcw ≤ 3) (g_face : face = 0 ∨ face = 1 ∨ face = 2 ∨ face = 3) (p_bLo0 : 11 ≤ bLo 0) (q_bLo0 : bLo 0 ≤ 13)
    (p_bLo1 : 12 ≤ bLo 1) (q_bLo1 : bLo 1 ≤ 14) (p_bHi0 : 17 ≤ bHi 0) (q_bHi0 : bHi 0 ≤ 19) (p_bHi1 : 27 ≤ bHi 1) (q_bHi1 : bHi 1 ≤ 29) :
    Test.setCornerBc2d 10 20 11 30 ugcw dx bLo bHi 0 face 0 0 xu xd0 xd1 β = .ok true :=
  C105_bc_corner_2d hβ (by told) (by told) (by told) (by intro n hn; interval_cases n <;> told) (by told)
      (by interval_cases ugcw <;> exact fits_of (by decide)) (by exact fits_of (by decide)) (by exact fits_of (by decide))

/-- src/cd_correct_bc_2d.t.cpp:253-291 -/
theorem C105_bc_homogenous_2d {i0 j0 i1 j1 face : Int} {bLo bHi : Nat → Int} {exOrder : Int} {xu : Nat → T} {β : Nat → Backend}
    (hβ : ∀ n, ValidBackend (β n)) (hi : i0 ≤ i1) (hj : j0 ≤ j1) (hs : ∀ n < 2, InInt (bLo n + 1) ∧ InInt (bHi n + 1))
    (ho : 1 ≤ exOrder ∧ exOrder ≤ 4) (hx : face = 0 ∨ face = 1 → Reach i0 i1 1 (i0 - 1) exOrder ∧ Meets j0 j1 (bLo 1) (bHi 1))
    (hy : face = 2 ∨ face = 3 → Reach j0 j1 1 (j0 - 1) exOrder ∧ Meets i0 i1 (bLo 0) (bHi 0)) (h_u : F.Fits (F.cell2d (at_ 0) i0 j0 i1 j1 1).dims) :
    Test.setHomogenousBc2d i0 j0 i1 j1 face bLo bHi exOrder xu β = .ok true := by
  have I0 := h_u.int
  simp only [F.cell2d, List.mem_cons, List.not_mem_nil, or_false, forall_eq_or_imp, forall_eq, InInt] at I0
  have mk_j := mkB_ok (d := .J) (lo := j0) (hi := j1) (by unfold InInt; omega)
  have mk_i := mkB_ok (d := .I) (lo := i0) (hi := i1) (by unfold InInt; omega)
  obtain ⟨v0, n0, r0⟩ := offset_ok (T := T) (g := 1) (ds := [(.J, j0, j1), (.I, i0, i1)]) (by simp) (by simp) (by omega) (by simp <;> omega) h_u
  simp only [bounds, List.map_cons, List.map_nil] at n0
  unfold Test.setHomogenousBc2d
  simp only [mk_j, mk_i, n0, (r0.fill (xs := xu)).copy, (r0.fill (xs := xu)).host, M.ok_bind]
  refine compare_ok (L := [1, 0]) ?_ rfl rfl (F.ren_cellsethomogenousbc2d (T := T) (perm_inv (L := [1, 0]) (by decide))) ?_ (by decide)
  · simp [(r0.fill (xs := xu)).same, (r0.fill (xs := xu)).sync]
  · refine C35_homogenous_2d_partial hβ hi hj hs ho hx hy ⟨?_, ?_⟩
    · simp only [List.cons_append, List.nil_append, List.forall_mem_cons]
      refine ⟨arr_ok_of rfl (r0.fill (xs := xu)) h_u, ?_⟩
      simp
    · simp only [List.forall_mem_cons]
      repeat' first | exact arr_apart (by decide) | refine ⟨?_, ?_⟩ | simp

example {exOrder face : Int} {bLo bHi : Nat → Int} {xu : Nat → ℚ} {β : Nat → Backend} (hβ : ∀ n, ValidBackend (β n))
    (g_exOrder : exOrder = 1 ∨ exOrder = 2 ∨ exOrder = 3 ∨ exOrder = 4) (g_face : face = 0 ∨ face = 1 ∨ face = 2 ∨ face = 3) (p_bLo0 : 11 ≤ bLo 0)
    (q_bLo0 : bLo 0 ≤ 12) (p_bLo1 : 12 ≤ bLo 1) (q_bLo1 : bLo 1 ≤ 13) (p_bHi0 : 18 ≤ bHi 0) (q_bHi0 : bHi 0 ≤ 19) (p_bHi1 : 30 ≤ bHi 1)
    (q_bHi1 : bHi 1 ≤ 31) : Test.setHomogenousBc2d 10 11 20 32 face bLo bHi exOrder xu β = .ok true :=
  C105_bc_homogenous_2d hβ (by told) (by told) (by intro n hn; interval_cases n <;> told) (by told) (by told) (by told)
      (by exact fits_of (by decide))

/-- src/cd_correct_bc_3d.t.cpp:49-131 -/
theorem C105_bc_3d {i0 i1 j0 j1 k0 k1 : Int} {dx : Nat → T} {dgcw ugcw : Int} {bLo bHi : Nat → Int} {exOrder face type btype : Int} {alpha beta : T}
    {xu xd0 xd1 xd2 : Nat → T} {β : Nat → Backend} (hβ : ∀ n, ValidBackend (β n)) (hi : i0 ≤ i1) (hj : j0 ≤ j1) (hk : k0 ≤ k1) (hg : 0 ≤ ugcw)
    (hdg : 0 ≤ dgcw) (hs : ∀ n < 3, InInt (bLo n + 1) ∧ InInt (bHi n + 1)) (hf0 : type = 1 → face = 0 → Reach i0 i1 ugcw (bLo 0) 2 ∧ OnFaces i0 i1
    dgcw (bLo 0 + 1) ∧ Meets j0 j1 (bLo 1) (bHi 1) ∧ Meets k0 k1 (bLo 2) (bHi 2)) (hf1 : type = 1 → face = 1 → Reach i0 i1 ugcw (bHi 0) (-2) ∧
    OnFaces i0 i1 dgcw (bHi 0) ∧ Meets j0 j1 (bLo 1) (bHi 1) ∧ Meets k0 k1 (bLo 2) (bHi 2)) (hf2 : type = 1 → face = 2 → Reach j0 j1 ugcw (bLo 1) 2
    ∧ OnFaces j0 j1 dgcw (bLo 1 + 1) ∧ Meets i0 i1 (bLo 0) (bHi 0) ∧ Meets k0 k1 (bLo 2) (bHi 2)) (hf3 : type = 1 → face = 3 → Reach j0 j1 ugcw (bHi
    1) (-2) ∧ OnFaces j0 j1 dgcw (bHi 1) ∧ Meets i0 i1 (bLo 0) (bHi 0) ∧ Meets k0 k1 (bLo 2) (bHi 2)) (hf4 : type = 1 → face = 4 → Reach k0 k1 ugcw
    (bLo 2) 2 ∧ OnFaces k0 k1 dgcw (bLo 2 + 1) ∧ Meets i0 i1 (bLo 0) (bHi 0) ∧ Meets j0 j1 (bLo 1) (bHi 1)) (hf5 : type = 1 → face = 5 → Reach k0 k1
    ugcw (bHi 2) (-2) ∧ OnFaces k0 k1 dgcw (bHi 2) ∧ Meets i0 i1 (bLo 0) (bHi 0) ∧ Meets j0 j1 (bLo 1) (bHi 1)) (he0 : type = 2 → 0 ≤ face → face <
    4 → Reach i0 i1 ugcw (bLo 0) (dir0 face) ∧ Reach j0 j1 ugcw (bLo 1) (dir1 face) ∧ Part k0 k1 (bLo 2) (bHi 2)) (he1 : type = 2 → 4 ≤ face → face
    < 8 → Reach i0 i1 ugcw (bLo 0) (dir0 face) ∧ Reach k0 k1 ugcw (bLo 2) (dir1 face) ∧ Part j0 j1 (bLo 1) (bHi 1)) (he2 : type = 2 → 8 ≤ face →
    face < 12 → Reach j0 j1 ugcw (bLo 1) (dir0 face) ∧ Reach k0 k1 ugcw (bLo 2) (dir1 face) ∧ Part i0 i1 (bLo 0) (bHi 0))
    (hn : type = 3 → 0 ≤ face → face < 8 → Reach i0 i1 ugcw (bLo 0) (dir0 face) ∧ Reach j0 j1 ugcw (bLo 1) (dir1 face) ∧ Reach k0 k1 ugcw (bLo 2) 0)
    (h_d0 : F.Fits (F.face3d0 (at_ 0) i0 j0 k0 i1 j1 k1 dgcw).dims) (h_d1 : F.Fits (F.face3d1 (at_ 0) i0 j0 k0 i1 j1 k1 dgcw).dims)
    (h_d2 : F.Fits (F.face3d2 (at_ 0) i0 j0 k0 i1 j1 k1 dgcw).dims) (h_u : F.Fits (F.cell3d (at_ 0) i0 j0 k0 i1 j1 k1 ugcw).dims) : Test.setBc3d i0
    i1 j0 j1 k0 k1 dx dgcw ugcw bLo bHi exOrder face type btype alpha beta xu xd0 xd1 xd2 β = .ok true := by
  have I0 := h_d0.int
  have I1 := h_d1.int
  have I2 := h_d2.int
  have I3 := h_u.int
  simp only
      [F.cell3d, F.face3d0, F.face3d1, F.face3d2, List.mem_cons, List.not_mem_nil, or_false, forall_eq_or_imp, forall_eq, InInt] at I0 I1 I2 I3
  have mk_k := mkB_ok (d := .K) (lo := k0) (hi := k1) (by unfold InInt; omega)
  have mk_j := mkB_ok (d := .J) (lo := j0) (hi := j1) (by unfold InInt; omega)
  have mk_i := mkB_ok (d := .I) (lo := i0) (hi := i1) (by unfold InInt; omega)
  have pl_i := plus_ok (d := .I) (b := ⟨i0, i1 + 1, 1⟩) (x := 1) (by omega) (by simp only [InInt]; omega)
  have pl_j := plus_ok (d := .J) (b := ⟨j0, j1 + 1, 1⟩) (x := 1) (by omega) (by simp only [InInt]; omega)
  have pl_k := plus_ok (d := .K) (b := ⟨k0, k1 + 1, 1⟩) (x := 1) (by omega) (by simp only [InInt]; omega)
  obtain ⟨v0, n0, r0⟩ := offset_ok (T := T) (g := ugcw) (ds := [(.K, k0, k1), (.J, j0, j1), (.I, i0, i1)]) (by simp) (by simp) (by omega)
      (by simp <;> omega) h_u
  obtain ⟨v1, n1, r1⟩ := offset_ok (T := T) (g := dgcw) (ds := [(.K, k0, k1), (.J, j0, j1), (.I, i0, i1 + 1)]) (by simp) (by simp) (by omega)
      (by simp <;> omega) h_d0
  obtain ⟨v2, n2, r2⟩ := offset_ok (T := T) (g := dgcw) (ds := [(.I, i0, i1), (.K, k0, k1), (.J, j0, j1 + 1)]) (by simp) (by simp) (by omega)
      (by simp <;> omega) h_d1
  obtain ⟨v3, n3, r3⟩ := offset_ok (T := T) (g := dgcw) (ds := [(.J, j0, j1), (.I, i0, i1), (.K, k0, k1 + 1)]) (by simp) (by simp) (by omega)
      (by simp <;> omega) h_d2
  simp only [bounds, List.map_cons, List.map_nil] at n0 n1 n2 n3
  unfold Test.setBc3d
  simp only [mk_k, mk_j, mk_i, pl_i, pl_j, pl_k, n0, n1, n2, n3, (r0.fill (xs := xu)).copy, (r0.fill (xs := xu)).host, M.ok_bind]
  refine compare_ok (L := [4, 1, 2, 3, 0]) ?_ rfl rfl (F.ren_cellsetcorrectionbc3d (T := T) (perm_inv (L := [4, 1, 2, 3, 0]) (by decide))) ?_
      (by decide)
  · simp [(r0.fill (xs := xu)).same, (r0.fill (xs := xu)).sync, (r1.fill (xs := xd0)).same, (r1.fill (xs := xd0)).sync, (r2.fill (xs := xd1)).same,
        (r2.fill (xs := xd1)).sync, (r3.fill (xs := xd2)).same, (r3.fill (xs := xd2)).sync]
  · refine C35_3d_partial hβ hi hj hk hg hdg hs hf0 hf1 hf2 hf3 hf4 hf5 he0 he1 he2 hn ⟨?_, ?_⟩
    · simp only [List.cons_append, List.nil_append, List.forall_mem_cons]
      refine ⟨arr_ok_of rfl (r1.fill (xs := xd0)) h_d0, arr_ok_of rfl (r2.fill (xs := xd1)) h_d1, arr_ok_of rfl (r3.fill (xs := xd2)) h_d2,
          arr_ok_of rfl (r0.fill (xs := xu)) h_u, ?_⟩
      simp
    · simp only [List.forall_mem_cons]
      repeat' first | exact arr_apart (by decide) | refine ⟨?_, ?_⟩ | simp

example {dgcw ugcw exOrder face type btype : Int} {dx : Nat → ℚ} {bLo bHi : Nat → Int} {alpha beta : ℚ} {xu xd0 xd1 xd2 : Nat → ℚ}
    {β : Nat → Backend} (hβ : ∀ n, ValidBackend (β n)) (p_dgcw : 1 ≤ dgcw) (q_dgcw : dgcw ≤ 3) (p_ugcw : 1 ≤ ugcw) (q_ugcw : ugcw ≤ 3)
    (g_exOrder : exOrder = 1 ∨ exOrder = 2)
    (g_face : face = 0 ∨ face = 1 ∨ face = 2 ∨ face = 3 ∨ face = 4 ∨ face = 5 ∨ face = 6 ∨ face = 7 ∨ face = 8 ∨ face = 9 ∨ face = 10 ∨ face = 11)
    (g_type : type = 1 ∨ type = 2 ∨ type = 3) (g_btype : btype = 0 ∨ btype = 1 ∨ btype = 4) (p_bLo0 : 11 ≤ bLo 0) (q_bLo0 : bLo 0 ≤ 13)
    (p_bLo1 : 12 ≤ bLo 1) (q_bLo1 : bLo 1 ≤ 14) (p_bLo2 : 13 ≤ bLo 2) (q_bLo2 : bLo 2 ≤ 15) (p_bHi0 : 17 ≤ bHi 0) (q_bHi0 : bHi 0 ≤ 19)
    (p_bHi1 : 27 ≤ bHi 1) (q_bHi1 : bHi 1 ≤ 29) (p_bHi2 : 30 ≤ bHi 2) (q_bHi2 : bHi 2 ≤ 32) : Test.setBc3d 10 20 11 30 12 33 dx dgcw ugcw bLo bHi
    exOrder face type btype alpha beta xu xd0 xd1 xd2 β = .ok true :=
  C105_bc_3d hβ (by told) (by told) (by told) (by told) (by told) (by intro n hn; interval_cases n <;> told) (by told) (by told) (by told) (by told)
      (by told) (by told) (by told) (by told) (by told) (by told) (by interval_cases dgcw <;> exact fits_of (by decide))
      (by interval_cases dgcw <;> exact fits_of (by decide)) (by interval_cases dgcw <;> exact fits_of (by decide))
      (by interval_cases ugcw <;> exact fits_of (by decide))

/-- src/cd_correct_bc_3d.t.cpp:133-200 -/
theorem C105_bc_poisson_3d {i0 i1 j0 j1 k0 k1 : Int} {dx : Nat → T} {ugcw : Int} {bLo bHi : Nat → Int} {exOrder face type btype : Int}
    {alpha beta : T} {xu : Nat → T} {β : Nat → Backend} (hβ : ∀ n, ValidBackend (β n)) (hi : i0 ≤ i1) (hj : j0 ≤ j1) (hk : k0 ≤ k1) (hg : 0 ≤ ugcw)
    (hs : ∀ n < 3, InInt (bLo n + 1) ∧ InInt (bHi n + 1))
    (hf0 : type = 1 → face = 0 → Reach i0 i1 ugcw (bLo 0) 2 ∧ Part j0 j1 (bLo 1) (bHi 1) ∧ Part k0 k1 (bLo 2) (bHi 2))
    (hf1 : type = 1 → face = 1 → Reach i0 i1 ugcw (bHi 0) (-2) ∧ Part j0 j1 (bLo 1) (bHi 1) ∧ Part k0 k1 (bLo 2) (bHi 2))
    (hf2 : type = 1 → face = 2 → Reach j0 j1 ugcw (bLo 1) 2 ∧ Part i0 i1 (bLo 0) (bHi 0) ∧ Part k0 k1 (bLo 2) (bHi 2))
    (hf3 : type = 1 → face = 3 → Reach j0 j1 ugcw (bHi 1) (-2) ∧ Part i0 i1 (bLo 0) (bHi 0) ∧ Part k0 k1 (bLo 2) (bHi 2))
    (hf4 : type = 1 → face = 4 → Reach k0 k1 ugcw (bLo 2) 2 ∧ Part i0 i1 (bLo 0) (bHi 0) ∧ Part j0 j1 (bLo 1) (bHi 1))
    (hf5 : type = 1 → face = 5 → Reach k0 k1 ugcw (bHi 2) (-2) ∧ Part i0 i1 (bLo 0) (bHi 0) ∧ Part j0 j1 (bLo 1) (bHi 1)) (he0 : type = 2 → 0 ≤ face
    → face < 4 → Reach i0 i1 ugcw (bLo 0) (dir0 face) ∧ Reach j0 j1 ugcw (bLo 1) (dir1 face) ∧ Part k0 k1 (bLo 2) (bHi 2)) (he1 : type = 2 → 4 ≤
    face → face < 8 → Reach i0 i1 ugcw (bLo 0) (dir0 face) ∧ Reach k0 k1 ugcw (bLo 2) (dir1 face) ∧ Part j0 j1 (bLo 1) (bHi 1)) (he2 : type = 2 → 8
    ≤ face → face < 12 → Reach j0 j1 ugcw (bLo 1) (dir0 face) ∧ Reach k0 k1 ugcw (bLo 2) (dir1 face) ∧ Part i0 i1 (bLo 0) (bHi 0))
    (hn : type = 3 → 0 ≤ face → face < 8 → Reach i0 i1 ugcw (bLo 0) (dir0 face) ∧ Reach j0 j1 ugcw (bLo 1) (dir1 face) ∧ Reach k0 k1 ugcw (bLo 2) 0)
    (h_u : F.Fits (F.cell3d (at_ 0) i0 j0 k0 i1 j1 k1 ugcw).dims) : Test.setPoissonBc3d i0 i1 j0 j1 k0 k1 dx ugcw bLo bHi exOrder face type btype
    alpha beta xu β = .ok true := by
  have I0 := h_u.int
  simp only [F.cell3d, List.mem_cons, List.not_mem_nil, or_false, forall_eq_or_imp, forall_eq, InInt] at I0
  have mk_k := mkB_ok (d := .K) (lo := k0) (hi := k1) (by unfold InInt; omega)
  have mk_j := mkB_ok (d := .J) (lo := j0) (hi := j1) (by unfold InInt; omega)
  have mk_i := mkB_ok (d := .I) (lo := i0) (hi := i1) (by unfold InInt; omega)
  obtain ⟨v0, n0, r0⟩ := offset_ok (T := T) (g := ugcw) (ds := [(.K, k0, k1), (.J, j0, j1), (.I, i0, i1)]) (by simp) (by simp) (by omega)
      (by simp <;> omega) h_u
  simp only [bounds, List.map_cons, List.map_nil] at n0
  unfold Test.setPoissonBc3d
  simp only [mk_k, mk_j, mk_i, n0, (r0.fill (xs := xu)).copy, (r0.fill (xs := xu)).host, M.ok_bind]
  refine compare_ok (L := [1, 0]) ?_ rfl rfl (F.ren_cellsetpoissoncorrectionbc3d (T := T) (perm_inv (L := [1, 0]) (by decide))) ?_ (by decide)
  · simp [(r0.fill (xs := xu)).same, (r0.fill (xs := xu)).sync]
  · refine C35_poisson_3d_partial hβ hi hj hk hg hs hf0 hf1 hf2 hf3 hf4 hf5 he0 he1 he2 hn ⟨?_, ?_⟩
    · simp only [List.cons_append, List.nil_append, List.forall_mem_cons]
      refine ⟨arr_ok_of rfl (r0.fill (xs := xu)) h_u, ?_⟩
      simp
    · simp only [List.forall_mem_cons]
      repeat' first | exact arr_apart (by decide) | refine ⟨?_, ?_⟩ | simp

example {ugcw exOrder face type btype : Int} {dx : Nat → ℚ} {bLo bHi : Nat → Int} {alpha beta : ℚ} {xu : Nat → ℚ} {β : Nat → Backend}
    (hβ : ∀ n, ValidBackend (β n)) (p_ugcw : 1 ≤ ugcw) (q_ugcw : ugcw ≤ 3) (g_exOrder : exOrder = 1 ∨ exOrder = 2)
    (g_face : face = 0 ∨ face = 1 ∨ face = 2 ∨ face = 3 ∨ face = 4 ∨ face = 5 ∨ face = 6 ∨ face = 7 ∨ face = 8 ∨ face = 9 ∨ face = 10 ∨ face = 11)
    (g_type : type = 1 ∨ type = 2 ∨ type = 3) (g_btype : btype = 0 ∨ btype = 1 ∨ btype = 4) (p_bLo0 : 11 ≤ bLo 0) (q_bLo0 : bLo 0 ≤ 13)
    (p_bLo1 : 12 ≤ bLo 1) (q_bLo1 : bLo 1 ≤ 14) (p_bLo2 : 13 ≤ bLo 2) (q_bLo2 : bLo 2 ≤ 15) (p_bHi0 : 17 ≤ bHi 0) (q_bHi0 : bHi 0 ≤ 19)
    (p_bHi1 : 27 ≤ bHi 1) (q_bHi1 : bHi 1 ≤ 29) (p_bHi2 : 30 ≤ bHi 2) (q_bHi2 : bHi 2 ≤ 32) : Test.setPoissonBc3d 10 20 11 30 12 33 dx ugcw bLo bHi
    exOrder face type btype alpha beta xu β = .ok true :=
  C105_bc_poisson_3d hβ (by told) (by told) (by told) (by told) (by intro n hn; interval_cases n <;> told) (by told) (by told) (by told) (by told)
      (by told) (by told) (by told) (by told) (by told) (by told) (by interval_cases ugcw <;> exact fits_of (by decide))

end Verif
