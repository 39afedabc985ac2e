import Verif.Lemmas.Driver
import Verif.Lemmas.ApplyRename
import Verif.Model.Tests.Apply
import Verif.Props.Apply
import Mathlib.Tactic.IntervalCases
import Mathlib.Algebra.Order.Ring.Rat

/-
C103: the residual and operator tests pass, whatever numbers they pick.  Each example has the numbers of the test case; what the test picks or generates is a variable
in the range the test takes it from.
-/

namespace Verif

open Spec Test

variable {T : Type} [Field T] [DecidableEq T]

/-- src/cd_apply_1d.t.cpp:34-98 -/
theorem C103_v1_res_1d {i0 i1 : Int} {alpha beta : T} {dx : Nat → T} {agcw ugcw fgcw rgcw : Int} {xa xu xff xf0 : Nat → T} {β : Nat → Backend}
    (hβ : ∀ n, ValidBackend (β n)) (hi : i0 ≤ i1) (hagcw : 0 ≤ agcw) (hugcw : 0 ≤ ugcw) (hfgcw : 0 ≤ fgcw) (hrgcw : 0 ≤ rgcw)
    (h_a : F.Fits (F.cell1d (at_ 0) i0 i1 agcw).dims) (h_u : F.Fits (F.cell1d (at_ 0) i0 i1 ugcw).dims)
    (h_ff : F.Fits (F.cell1d (at_ 0) i0 i1 fgcw).dims) (h_f0 : F.Fits (F.face1d (at_ 0) i0 i1 0).dims)
    (h_res : F.Fits (F.cell1d (at_ 0) i0 i1 rgcw).dims) : Test.diffusionV1Res1d i0 i1 alpha beta dx agcw ugcw fgcw rgcw xa xu xff xf0 β = .ok true
    := by
  have I0 := h_a.int
  have I1 := h_u.int
  have I2 := h_ff.int
  have I3 := h_f0.int
  have I4 := h_res.int
  simp only [F.cell1d, F.face1d, List.mem_cons, List.not_mem_nil, or_false, forall_eq_or_imp, forall_eq, InInt] at I0 I1 I2 I3 I4
  have mk_i := mkB_ok (d := .I) (lo := i0) (hi := i1) (by unfold InInt; omega)
  have pl_i := plus_ok (d := .I) (b := ⟨i0, i1 + 1, 1⟩) (x := 1) (by omega) (by simp only [InInt]; omega)
  obtain ⟨v0, n0, r0⟩ := offset_ok (T := T) (g := agcw) (ds := [(.I, i0, i1)]) (by simp) (by simp) (by omega) (by simp <;> omega) h_a
  obtain ⟨v1, n1, r1⟩ := offset_ok (T := T) (g := ugcw) (ds := [(.I, i0, i1)]) (by simp) (by simp) (by omega) (by simp <;> omega) h_u
  obtain ⟨v2, n2, r2⟩ := offset_ok (T := T) (g := fgcw) (ds := [(.I, i0, i1)]) (by simp) (by simp) (by omega) (by simp <;> omega) h_ff
  obtain ⟨v3, n3, r3⟩ := offset_ok (T := T) (g := rgcw) (ds := [(.I, i0, i1)]) (by simp) (by simp) (by omega) (by simp <;> omega) h_res
  obtain ⟨v4, n4, r4⟩ := vec_ok (T := T) (ds := [(.I, i0, i1 + 1)]) (by simp) (by simp) (by simp <;> omega) h_f0
  simp only [bounds, List.map_cons, List.map_nil] at n0 n1 n2 n3 n4
  unfold Test.diffusionV1Res1d
  simp only [mk_i, pl_i, n0, n1, n2, n3, n4, M.ok_bind]
  refine compare_ok (L := [0, 1, 2, 4, 3, 5]) ?_ rfl rfl (F.ren_celldiffusionv1res1d (T := T) (perm_inv (L := [0, 1, 2, 4, 3, 5]) (by decide))) ?_
      (by decide)
  · simp [(r0.fill (xs := xa)).same, (r0.fill (xs := xa)).sync, (r1.fill (xs := xu)).same, (r1.fill (xs := xu)).sync, (r2.fill (xs := xff)).same,
        (r2.fill (xs := xff)).sync, r3.same, r3.sync, (r4.fill (xs := xf0)).same, (r4.fill (xs := xf0)).sync]
  · refine C34_v1_res_1d hβ hi hagcw hugcw hfgcw hrgcw ⟨?_, ?_⟩
    · simp only [List.cons_append, List.nil_append, List.forall_mem_cons]
      refine ⟨arr_ok_of rfl (r0.fill (xs := xa)) h_a, arr_ok_of rfl (r1.fill (xs := xu)) h_u, arr_ok_of rfl (r2.fill (xs := xff)) h_ff, arr_ok_of
          rfl (r4.fill (xs := xf0)) h_f0, arr_ok_of rfl r3 h_res, ?_⟩
      simp
    · simp only [List.forall_mem_cons]
      repeat' first | exact arr_apart (by decide) | refine ⟨?_, ?_⟩ | simp

example {ugcw fgcw rgcw agcw : Int} {alpha beta : ℚ} {dx xa xu xff xf0 : Nat → ℚ} {β : Nat → Backend} (hβ : ∀ n, ValidBackend (β n))
    (p_ugcw : 2 ≤ ugcw) (q_ugcw : ugcw ≤ 10) (p_fgcw : 1 ≤ fgcw) (q_fgcw : fgcw ≤ 4) (p_rgcw : 2 ≤ rgcw) (q_rgcw : rgcw ≤ 5) (p_agcw : 3 ≤ agcw)
    (q_agcw : agcw ≤ 9) : Test.diffusionV1Res1d 7 54 alpha beta dx agcw ugcw fgcw rgcw xa xu xff xf0 β = .ok true :=
  C103_v1_res_1d hβ (by told) (by told) (by told) (by told) (by told) (by interval_cases agcw <;> exact fits_of (by decide))
      (by interval_cases ugcw <;> exact fits_of (by decide)) (by interval_cases fgcw <;> exact fits_of (by decide)) (by exact fits_of (by decide))
      (by interval_cases rgcw <;> exact fits_of (by decide))

/-- src/cd_apply_1d.t.cpp:100-157 -/
theorem C103_v2_res_1d {i0 i1 : Int} {alpha beta : T} {dx : Nat → T} {ugcw fgcw rgcw : Int} {xu xff xf0 : Nat → T} {β : Nat → Backend}
    (hβ : ∀ n, ValidBackend (β n)) (hi : i0 ≤ i1) (hugcw : 0 ≤ ugcw) (hfgcw : 0 ≤ fgcw) (hrgcw : 0 ≤ rgcw)
    (h_u : F.Fits (F.cell1d (at_ 0) i0 i1 ugcw).dims) (h_ff : F.Fits (F.cell1d (at_ 0) i0 i1 fgcw).dims)
    (h_f0 : F.Fits (F.face1d (at_ 0) i0 i1 0).dims) (h_res : F.Fits (F.cell1d (at_ 0) i0 i1 rgcw).dims) : Test.diffusionV2Res1d i0 i1 alpha beta dx
    ugcw fgcw rgcw xu xff xf0 β = .ok true := by
  have I0 := h_u.int
  have I1 := h_ff.int
  have I2 := h_f0.int
  have I3 := h_res.int
  simp only [F.cell1d, F.face1d, List.mem_cons, List.not_mem_nil, or_false, forall_eq_or_imp, forall_eq, InInt] at I0 I1 I2 I3
  have mk_i := mkB_ok (d := .I) (lo := i0) (hi := i1) (by unfold InInt; omega)
  have pl_i := plus_ok (d := .I) (b := ⟨i0, i1 + 1, 1⟩) (x := 1) (by omega) (by simp only [InInt]; omega)
  obtain ⟨v0, n0, r0⟩ := offset_ok (T := T) (g := ugcw) (ds := [(.I, i0, i1)]) (by simp) (by simp) (by omega) (by simp <;> omega) h_u
  obtain ⟨v1, n1, r1⟩ := offset_ok (T := T) (g := fgcw) (ds := [(.I, i0, i1)]) (by simp) (by simp) (by omega) (by simp <;> omega) h_ff
  obtain ⟨v2, n2, r2⟩ := offset_ok (T := T) (g := rgcw) (ds := [(.I, i0, i1)]) (by simp) (by simp) (by omega) (by simp <;> omega) h_res
  obtain ⟨v3, n3, r3⟩ := vec_ok (T := T) (ds := [(.I, i0, i1 + 1)]) (by simp) (by simp) (by simp <;> omega) h_f0
  simp only [bounds, List.map_cons, List.map_nil] at n0 n1 n2 n3
  unfold Test.diffusionV2Res1d
  simp only [mk_i, pl_i, n0, n1, n2, n3, M.ok_bind]
  refine compare_ok (L := [0, 1, 3, 2, 4]) ?_ rfl rfl (F.ren_celldiffusionv2res1d (T := T) (perm_inv (L := [0, 1, 3, 2, 4]) (by decide))) ?_
      (by decide)
  · simp [(r0.fill (xs := xu)).same, (r0.fill (xs := xu)).sync, (r1.fill (xs := xff)).same, (r1.fill (xs := xff)).sync, r2.same, r2.sync, (r3.fill
        (xs := xf0)).same, (r3.fill (xs := xf0)).sync]
  · refine C34_v2_res_1d hβ hi hugcw hfgcw hrgcw ⟨?_, ?_⟩
    · simp only [List.cons_append, List.nil_append, List.forall_mem_cons]
      refine ⟨arr_ok_of rfl (r0.fill (xs := xu)) h_u, arr_ok_of rfl (r1.fill (xs := xff)) h_ff, arr_ok_of rfl (r3.fill (xs := xf0)) h_f0, arr_ok_of
          rfl r2 h_res, ?_⟩
      simp
    · simp only [List.forall_mem_cons]
      repeat' first | exact arr_apart (by decide) | refine ⟨?_, ?_⟩ | simp

example {ugcw fgcw rgcw : Int} {alpha beta : ℚ} {dx xu xff xf0 : Nat → ℚ} {β : Nat → Backend} (hβ : ∀ n, ValidBackend (β n)) (p_ugcw : 1 ≤ ugcw)
    (q_ugcw : ugcw ≤ 3) (p_fgcw : 1 ≤ fgcw) (q_fgcw : fgcw ≤ 4) (p_rgcw : 2 ≤ rgcw) (q_rgcw : rgcw ≤ 5) : Test.diffusionV2Res1d 5 73 alpha beta dx
    ugcw fgcw rgcw xu xff xf0 β = .ok true :=
  C103_v2_res_1d hβ (by told) (by told) (by told) (by told) (by interval_cases ugcw <;> exact fits_of (by decide))
      (by interval_cases fgcw <;> exact fits_of (by decide)) (by exact fits_of (by decide)) (by interval_cases rgcw <;> exact fits_of (by decide))

/-- src/cd_apply_1d.t.cpp:159-201 -/
theorem C103_poisson_res_1d {i0 i1 : Int} {beta : T} {dx : Nat → T} {fgcw rgcw : Int} {xu xf0 : Nat → T} {β : Nat → Backend}
    (hβ : ∀ n, ValidBackend (β n)) (hi : i0 ≤ i1) (hfgcw : 0 ≤ fgcw) (hrgcw : 0 ≤ rgcw) (h_u : F.Fits (F.cell1d (at_ 0) i0 i1 fgcw).dims)
    (h_f0 : F.Fits (F.face1d (at_ 0) i0 i1 0).dims) (h_res : F.Fits (F.cell1d (at_ 0) i0 i1 rgcw).dims) : Test.poissonV1Res1d i0 i1 beta dx fgcw
    rgcw xu xf0 β = .ok true := by
  have I0 := h_u.int
  have I1 := h_f0.int
  have I2 := h_res.int
  simp only [F.cell1d, F.face1d, List.mem_cons, List.not_mem_nil, or_false, forall_eq_or_imp, forall_eq, InInt] at I0 I1 I2
  have mk_i := mkB_ok (d := .I) (lo := i0) (hi := i1) (by unfold InInt; omega)
  have pl_i := plus_ok (d := .I) (b := ⟨i0, i1 + 1, 1⟩) (x := 1) (by omega) (by simp only [InInt]; omega)
  obtain ⟨v0, n0, r0⟩ := offset_ok (T := T) (g := fgcw) (ds := [(.I, i0, i1)]) (by simp) (by simp) (by omega) (by simp <;> omega) h_u
  obtain ⟨v1, n1, r1⟩ := offset_ok (T := T) (g := rgcw) (ds := [(.I, i0, i1)]) (by simp) (by simp) (by omega) (by simp <;> omega) h_res
  obtain ⟨v2, n2, r2⟩ := vec_ok (T := T) (ds := [(.I, i0, i1 + 1)]) (by simp) (by simp) (by simp <;> omega) h_f0
  simp only [bounds, List.map_cons, List.map_nil] at n0 n1 n2
  unfold Test.poissonV1Res1d
  simp only [mk_i, pl_i, n0, n1, n2, M.ok_bind]
  refine compare_ok (L := [0, 2, 1, 3]) ?_ rfl rfl (F.ren_cellpoissonv1res1d (T := T) (perm_inv (L := [0, 2, 1, 3]) (by decide))) ?_ (by decide)
  · simp [(r0.fill (xs := xu)).same, (r0.fill (xs := xu)).sync, r1.same, r1.sync, (r2.fill (xs := xf0)).same, (r2.fill (xs := xf0)).sync]
  · refine C34_poisson_res_1d hβ hi hfgcw hrgcw ⟨?_, ?_⟩
    · simp only [List.cons_append, List.nil_append, List.forall_mem_cons]
      refine ⟨arr_ok_of rfl (r0.fill (xs := xu)) h_u, arr_ok_of rfl (r2.fill (xs := xf0)) h_f0, arr_ok_of rfl r1 h_res, ?_⟩
      simp
    · simp only [List.forall_mem_cons]
      repeat' first | exact arr_apart (by decide) | refine ⟨?_, ?_⟩ | simp

example {fgcw rgcw : Int} {beta : ℚ} {dx xu xf0 : Nat → ℚ} {β : Nat → Backend} (hβ : ∀ n, ValidBackend (β n)) (p_fgcw : 1 ≤ fgcw)
    (q_fgcw : fgcw ≤ 4) (p_rgcw : 2 ≤ rgcw) (q_rgcw : rgcw ≤ 5) : Test.poissonV1Res1d 5 73 beta dx fgcw rgcw xu xf0 β = .ok true :=
  C103_poisson_res_1d hβ (by told) (by told) (by told) (by interval_cases fgcw <;> exact fits_of (by decide)) (by exact fits_of (by decide))
      (by interval_cases rgcw <;> exact fits_of (by decide))

/-- src/cd_apply_1d.t.cpp:203-261 -/
theorem C103_v1_apply_1d {i0 i1 : Int} {alpha beta : T} {dx : Nat → T} {agcw ugcw rgcw : Int} {xa xu xf0 : Nat → T} {β : Nat → Backend}
    (hβ : ∀ n, ValidBackend (β n)) (hi : i0 ≤ i1) (hagcw : 0 ≤ agcw) (hugcw : 0 ≤ ugcw) (hrgcw : 0 ≤ rgcw)
    (h_a : F.Fits (F.cell1d (at_ 0) i0 i1 agcw).dims) (h_u : F.Fits (F.cell1d (at_ 0) i0 i1 ugcw).dims)
    (h_f0 : F.Fits (F.face1d (at_ 0) i0 i1 0).dims) (h_res : F.Fits (F.cell1d (at_ 0) i0 i1 rgcw).dims) : Test.diffusionV1Apply1d i0 i1 alpha beta
    dx agcw ugcw rgcw xa xu xf0 β = .ok true := by
  have I0 := h_a.int
  have I1 := h_u.int
  have I2 := h_f0.int
  have I3 := h_res.int
  simp only [F.cell1d, F.face1d, List.mem_cons, List.not_mem_nil, or_false, forall_eq_or_imp, forall_eq, InInt] at I0 I1 I2 I3
  have mk_i := mkB_ok (d := .I) (lo := i0) (hi := i1) (by unfold InInt; omega)
  have pl_i := plus_ok (d := .I) (b := ⟨i0, i1 + 1, 1⟩) (x := 1) (by omega) (by simp only [InInt]; omega)
  obtain ⟨v0, n0, r0⟩ := offset_ok (T := T) (g := agcw) (ds := [(.I, i0, i1)]) (by simp) (by simp) (by omega) (by simp <;> omega) h_a
  obtain ⟨v1, n1, r1⟩ := offset_ok (T := T) (g := ugcw) (ds := [(.I, i0, i1)]) (by simp) (by simp) (by omega) (by simp <;> omega) h_u
  obtain ⟨v2, n2, r2⟩ := offset_ok (T := T) (g := rgcw) (ds := [(.I, i0, i1)]) (by simp) (by simp) (by omega) (by simp <;> omega) h_res
  obtain ⟨v3, n3, r3⟩ := vec_ok (T := T) (ds := [(.I, i0, i1 + 1)]) (by simp) (by simp) (by simp <;> omega) h_f0
  simp only [bounds, List.map_cons, List.map_nil] at n0 n1 n2 n3
  unfold Test.diffusionV1Apply1d
  simp only [mk_i, pl_i, n0, n1, n2, n3, M.ok_bind]
  refine compare_ok (L := [0, 1, 3, 2, 4]) ?_ rfl rfl (F.ren_celldiffusionv1apply1d (T := T) (perm_inv (L := [0, 1, 3, 2, 4]) (by decide))) ?_
      (by decide)
  · simp [(r0.fill (xs := xa)).same, (r0.fill (xs := xa)).sync, (r1.fill (xs := xu)).same, (r1.fill (xs := xu)).sync, r2.same, r2.sync, (r3.fill (xs
        := xf0)).same, (r3.fill (xs := xf0)).sync]
  · refine C34_v1_apply_1d hβ hi hagcw hugcw hrgcw ⟨?_, ?_⟩
    · simp only [List.cons_append, List.nil_append, List.forall_mem_cons]
      refine ⟨arr_ok_of rfl (r0.fill (xs := xa)) h_a, arr_ok_of rfl (r1.fill (xs := xu)) h_u, arr_ok_of rfl (r3.fill (xs := xf0)) h_f0, arr_ok_of
          rfl r2 h_res, ?_⟩
      simp
    · simp only [List.forall_mem_cons]
      repeat' first | exact arr_apart (by decide) | refine ⟨?_, ?_⟩ | simp

example {rgcw ugcw agcw : Int} {alpha beta : ℚ} {dx xa xu xf0 : Nat → ℚ} {β : Nat → Backend} (hβ : ∀ n, ValidBackend (β n)) (p_rgcw : 1 ≤ rgcw)
    (q_rgcw : rgcw ≤ 4) (p_ugcw : 2 ≤ ugcw) (q_ugcw : ugcw ≤ 5) (p_agcw : 1 ≤ agcw) (q_agcw : agcw ≤ 7) : Test.diffusionV1Apply1d 5 73 alpha beta dx
    agcw ugcw rgcw xa xu xf0 β = .ok true :=
  C103_v1_apply_1d hβ (by told) (by told) (by told) (by told) (by interval_cases agcw <;> exact fits_of (by decide))
      (by interval_cases ugcw <;> exact fits_of (by decide)) (by exact fits_of (by decide)) (by interval_cases rgcw <;> exact fits_of (by decide))

/-- src/cd_apply_1d.t.cpp:263-306 -/
theorem C103_v2_apply_1d {i0 i1 : Int} {alpha beta : T} {dx : Nat → T} {ugcw rgcw : Int} {xu xf0 : Nat → T} {β : Nat → Backend}
    (hβ : ∀ n, ValidBackend (β n)) (hi : i0 ≤ i1) (hugcw : 0 ≤ ugcw) (hrgcw : 0 ≤ rgcw) (h_u : F.Fits (F.cell1d (at_ 0) i0 i1 ugcw).dims)
    (h_f0 : F.Fits (F.face1d (at_ 0) i0 i1 0).dims) (h_res : F.Fits (F.cell1d (at_ 0) i0 i1 rgcw).dims) : Test.diffusionV2Apply1d i0 i1 alpha beta
    dx ugcw rgcw xu xf0 β = .ok true := by
  have I0 := h_u.int
  have I1 := h_f0.int
  have I2 := h_res.int
  simp only [F.cell1d, F.face1d, List.mem_cons, List.not_mem_nil, or_false, forall_eq_or_imp, forall_eq, InInt] at I0 I1 I2
  have mk_i := mkB_ok (d := .I) (lo := i0) (hi := i1) (by unfold InInt; omega)
  have pl_i := plus_ok (d := .I) (b := ⟨i0, i1 + 1, 1⟩) (x := 1) (by omega) (by simp only [InInt]; omega)
  obtain ⟨v0, n0, r0⟩ := offset_ok (T := T) (g := ugcw) (ds := [(.I, i0, i1)]) (by simp) (by simp) (by omega) (by simp <;> omega) h_u
  obtain ⟨v1, n1, r1⟩ := offset_ok (T := T) (g := rgcw) (ds := [(.I, i0, i1)]) (by simp) (by simp) (by omega) (by simp <;> omega) h_res
  obtain ⟨v2, n2, r2⟩ := vec_ok (T := T) (ds := [(.I, i0, i1 + 1)]) (by simp) (by simp) (by simp <;> omega) h_f0
  simp only [bounds, List.map_cons, List.map_nil] at n0 n1 n2
  unfold Test.diffusionV2Apply1d
  simp only [mk_i, pl_i, n0, n1, n2, M.ok_bind]
  refine compare_ok (L := [0, 2, 1, 3]) ?_ rfl rfl (F.ren_celldiffusionv2apply1d (T := T) (perm_inv (L := [0, 2, 1, 3]) (by decide))) ?_ (by decide)
  · simp [(r0.fill (xs := xu)).same, (r0.fill (xs := xu)).sync, r1.same, r1.sync, (r2.fill (xs := xf0)).same, (r2.fill (xs := xf0)).sync]
  · refine C34_v2_apply_1d hβ hi hugcw hrgcw ⟨?_, ?_⟩
    · simp only [List.cons_append, List.nil_append, List.forall_mem_cons]
      refine ⟨arr_ok_of rfl (r0.fill (xs := xu)) h_u, arr_ok_of rfl (r2.fill (xs := xf0)) h_f0, arr_ok_of rfl r1 h_res, ?_⟩
      simp
    · simp only [List.forall_mem_cons]
      repeat' first | exact arr_apart (by decide) | refine ⟨?_, ?_⟩ | simp

example {rgcw ugcw : Int} {alpha beta : ℚ} {dx xu xf0 : Nat → ℚ} {β : Nat → Backend} (hβ : ∀ n, ValidBackend (β n)) (p_rgcw : 1 ≤ rgcw)
    (q_rgcw : rgcw ≤ 4) (p_ugcw : 1 ≤ ugcw) (q_ugcw : ugcw ≤ 4) : Test.diffusionV2Apply1d 5 73 alpha beta dx ugcw rgcw xu xf0 β = .ok true :=
  C103_v2_apply_1d hβ (by told) (by told) (by told) (by interval_cases ugcw <;> exact fits_of (by decide)) (by exact fits_of (by decide))
      (by interval_cases rgcw <;> exact fits_of (by decide))

/-- src/cd_apply_1d.t.cpp:308-338 -/
theorem C103_poisson_apply_1d {i0 i1 : Int} {beta : T} {dx : Nat → T} {rgcw : Int} {xf0 : Nat → T} {β : Nat → Backend}
    (hβ : ∀ n, ValidBackend (β n)) (hi : i0 ≤ i1) (hrgcw : 0 ≤ rgcw) (h_f0 : F.Fits (F.face1d (at_ 0) i0 i1 0).dims)
    (h_res : F.Fits (F.cell1d (at_ 0) i0 i1 rgcw).dims) : Test.poissonV2Apply1d i0 i1 beta dx rgcw xf0 β = .ok true := by
  have I0 := h_f0.int
  have I1 := h_res.int
  simp only [F.cell1d, F.face1d, List.mem_cons, List.not_mem_nil, or_false, forall_eq_or_imp, forall_eq, InInt] at I0 I1
  have mk_i := mkB_ok (d := .I) (lo := i0) (hi := i1) (by unfold InInt; omega)
  have pl_i := plus_ok (d := .I) (b := ⟨i0, i1 + 1, 1⟩) (x := 1) (by omega) (by simp only [InInt]; omega)
  obtain ⟨v0, n0, r0⟩ := offset_ok (T := T) (g := rgcw) (ds := [(.I, i0, i1)]) (by simp) (by simp) (by omega) (by simp <;> omega) h_res
  obtain ⟨v1, n1, r1⟩ := vec_ok (T := T) (ds := [(.I, i0, i1 + 1)]) (by simp) (by simp) (by simp <;> omega) h_f0
  simp only [bounds, List.map_cons, List.map_nil] at n0 n1
  unfold Test.poissonV2Apply1d
  simp only [mk_i, pl_i, n0, n1, M.ok_bind]
  refine compare_ok (L := [1, 0, 2]) ?_ rfl rfl (F.ren_cellpoissonv2apply1d (T := T) (perm_inv (L := [1, 0, 2]) (by decide))) ?_ (by decide)
  · simp [r0.same, r0.sync, (r1.fill (xs := xf0)).same, (r1.fill (xs := xf0)).sync]
  · refine C34_poisson_apply_1d hβ hi hrgcw ⟨?_, ?_⟩
    · simp only [List.cons_append, List.nil_append, List.forall_mem_cons]
      refine ⟨arr_ok_of rfl (r1.fill (xs := xf0)) h_f0, arr_ok_of rfl r0 h_res, ?_⟩
      simp
    · simp only [List.forall_mem_cons]
      repeat' first | exact arr_apart (by decide) | refine ⟨?_, ?_⟩ | simp

example {beta : ℚ} {dx xf0 : Nat → ℚ} {β : Nat → Backend} (hβ : ∀ n, ValidBackend (β n))  : Test.poissonV2Apply1d 35 47 beta dx 2 xf0 β = .ok true
    :=
  C103_poisson_apply_1d hβ (by told) (by told) (by exact fits_of (by decide)) (by exact fits_of (by decide))

/-- src/cd_apply_2d.t.cpp:34-108 -/
theorem C103_v1_res_2d {i0 i1 j0 j1 : Int} {alpha beta : T} {dx : Nat → T} {agcw ugcw fgcw rgcw : Int} {xa xu xff xf0 xf1 : Nat → T}
    {β : Nat → Backend} (hβ : ∀ n, ValidBackend (β n)) (hi : i0 ≤ i1) (hj : j0 ≤ j1) (hagcw : 0 ≤ agcw) (hugcw : 0 ≤ ugcw) (hfgcw : 0 ≤ fgcw)
    (hrgcw : 0 ≤ rgcw) (h_a : F.Fits (F.cell2d (at_ 0) i0 j0 i1 j1 agcw).dims) (h_u : F.Fits (F.cell2d (at_ 0) i0 j0 i1 j1 ugcw).dims)
    (h_ff : F.Fits (F.cell2d (at_ 0) i0 j0 i1 j1 fgcw).dims) (h_f0 : F.Fits (F.face2d0 (at_ 0) i0 j0 i1 j1 0).dims)
    (h_f1 : F.Fits (F.face2d1 (at_ 0) i0 j0 i1 j1 0).dims) (h_res : F.Fits (F.cell2d (at_ 0) i0 j0 i1 j1 rgcw).dims) : Test.diffusionV1Res2d i0 i1
    j0 j1 alpha beta dx agcw ugcw fgcw rgcw xa xu xff xf0 xf1 β = .ok true := by
  have I0 := h_a.int
  have I1 := h_u.int
  have I2 := h_ff.int
  have I3 := h_f0.int
  have I4 := h_f1.int
  have I5 := h_res.int
  simp only [F.cell2d, F.face2d0, F.face2d1, List.mem_cons, List.not_mem_nil, or_false, forall_eq_or_imp, forall_eq, InInt] at I0 I1 I2 I3 I4 I5
  have mk_j := mkB_ok (d := .J) (lo := j0) (hi := j1) (by unfold InInt; omega)
  have mk_i := mkB_ok (d := .I) (lo := i0) (hi := i1) (by unfold InInt; omega)
  have pl_i := plus_ok (d := .I) (b := ⟨i0, i1 + 1, 1⟩) (x := 1) (by omega) (by simp only [InInt]; omega)
  have pl_j := plus_ok (d := .J) (b := ⟨j0, j1 + 1, 1⟩) (x := 1) (by omega) (by simp only [InInt]; omega)
  obtain ⟨v0, n0, r0⟩ := offset_ok (T := T) (g := agcw) (ds := [(.J, j0, j1), (.I, i0, i1)]) (by simp) (by simp) (by omega) (by simp <;> omega) h_a
  obtain ⟨v1, n1, r1⟩ := offset_ok (T := T) (g := ugcw) (ds := [(.J, j0, j1), (.I, i0, i1)]) (by simp) (by simp) (by omega) (by simp <;> omega) h_u
  obtain ⟨v2, n2, r2⟩ := offset_ok (T := T) (g := fgcw) (ds := [(.J, j0, j1), (.I, i0, i1)]) (by simp) (by simp) (by omega) (by simp <;> omega) h_ff
  obtain ⟨v3, n3, r3⟩ := offset_ok (T := T) (g := rgcw) (ds := [(.J, j0, j1), (.I, i0, i1)]) (by simp) (by simp) (by omega) (by simp <;> omega)
      h_res
  obtain ⟨v4, n4, r4⟩ := vec_ok (T := T) (ds := [(.J, j0, j1), (.I, i0, i1 + 1)]) (by simp) (by simp) (by simp <;> omega) h_f0
  obtain ⟨v5, n5, r5⟩ := vec_ok (T := T) (ds := [(.I, i0, i1), (.J, j0, j1 + 1)]) (by simp) (by simp) (by simp <;> omega) h_f1
  simp only [bounds, List.map_cons, List.map_nil] at n0 n1 n2 n3 n4 n5
  unfold Test.diffusionV1Res2d
  simp only [mk_j, mk_i, pl_i, pl_j, n0, n1, n2, n3, n4, n5, M.ok_bind]
  refine compare_ok (L := [0, 1, 2, 4, 3, 5, 6]) ?_ rfl rfl
      (F.ren_celldiffusionv1res2d (T := T) (perm_inv (L := [0, 1, 2, 4, 3, 5, 6]) (by decide))) ?_ (by decide)
  · simp [(r0.fill (xs := xa)).same, (r0.fill (xs := xa)).sync, (r1.fill (xs := xu)).same, (r1.fill (xs := xu)).sync, (r2.fill (xs := xff)).same,
        (r2.fill (xs := xff)).sync, r3.same, r3.sync, (r4.fill (xs := xf0)).same, (r4.fill (xs := xf0)).sync, (r5.fill (xs := xf1)).same, (r5.fill
        (xs := xf1)).sync]
  · refine C34_v1_res_2d hβ hi hj hagcw hugcw hfgcw hrgcw ⟨?_, ?_⟩
    · simp only [List.cons_append, List.nil_append, List.forall_mem_cons]
      refine ⟨arr_ok_of rfl (r0.fill (xs := xa)) h_a, arr_ok_of rfl (r1.fill (xs := xu)) h_u, arr_ok_of rfl (r2.fill (xs := xff)) h_ff, arr_ok_of
          rfl (r4.fill (xs := xf0)) h_f0, arr_ok_of rfl (r5.fill (xs := xf1)) h_f1, arr_ok_of rfl r3 h_res, ?_⟩
      simp
    · simp only [List.forall_mem_cons]
      repeat' first | exact arr_apart (by decide) | refine ⟨?_, ?_⟩ | simp

example {ugcw fgcw rgcw agcw : Int} {alpha beta : ℚ} {dx xa xu xff xf0 xf1 : Nat → ℚ} {β : Nat → Backend} (hβ : ∀ n, ValidBackend (β n))
    (p_ugcw : 2 ≤ ugcw) (q_ugcw : ugcw ≤ 10) (p_fgcw : 1 ≤ fgcw) (q_fgcw : fgcw ≤ 4) (p_rgcw : 2 ≤ rgcw) (q_rgcw : rgcw ≤ 5) (p_agcw : 3 ≤ agcw)
    (q_agcw : agcw ≤ 9) : Test.diffusionV1Res2d 7 54 99 250 alpha beta dx agcw ugcw fgcw rgcw xa xu xff xf0 xf1 β = .ok true :=
  C103_v1_res_2d hβ (by told) (by told) (by told) (by told) (by told) (by told) (by interval_cases agcw <;> exact fits_of (by decide))
      (by interval_cases ugcw <;> exact fits_of (by decide)) (by interval_cases fgcw <;> exact fits_of (by decide)) (by exact fits_of (by decide))
      (by exact fits_of (by decide)) (by interval_cases rgcw <;> exact fits_of (by decide))

/-- src/cd_apply_2d.t.cpp:110-177 -/
theorem C103_v2_res_2d {i0 i1 j0 j1 : Int} {alpha beta : T} {dx : Nat → T} {ugcw fgcw rgcw : Int} {xu xff xf0 xf1 : Nat → T} {β : Nat → Backend}
    (hβ : ∀ n, ValidBackend (β n)) (hi : i0 ≤ i1) (hj : j0 ≤ j1) (hugcw : 0 ≤ ugcw) (hfgcw : 0 ≤ fgcw) (hrgcw : 0 ≤ rgcw)
    (h_u : F.Fits (F.cell2d (at_ 0) i0 j0 i1 j1 ugcw).dims) (h_ff : F.Fits (F.cell2d (at_ 0) i0 j0 i1 j1 fgcw).dims)
    (h_f0 : F.Fits (F.face2d0 (at_ 0) i0 j0 i1 j1 0).dims) (h_f1 : F.Fits (F.face2d1 (at_ 0) i0 j0 i1 j1 0).dims)
    (h_res : F.Fits (F.cell2d (at_ 0) i0 j0 i1 j1 rgcw).dims) : Test.diffusionV2Res2d i0 i1 j0 j1 alpha beta dx ugcw fgcw rgcw xu xff xf0 xf1 β =
    .ok true := by
  have I0 := h_u.int
  have I1 := h_ff.int
  have I2 := h_f0.int
  have I3 := h_f1.int
  have I4 := h_res.int
  simp only [F.cell2d, F.face2d0, F.face2d1, List.mem_cons, List.not_mem_nil, or_false, forall_eq_or_imp, forall_eq, InInt] at I0 I1 I2 I3 I4
  have mk_j := mkB_ok (d := .J) (lo := j0) (hi := j1) (by unfold InInt; omega)
  have mk_i := mkB_ok (d := .I) (lo := i0) (hi := i1) (by unfold InInt; omega)
  have pl_i := plus_ok (d := .I) (b := ⟨i0, i1 + 1, 1⟩) (x := 1) (by omega) (by simp only [InInt]; omega)
  have pl_j := plus_ok (d := .J) (b := ⟨j0, j1 + 1, 1⟩) (x := 1) (by omega) (by simp only [InInt]; omega)
  obtain ⟨v0, n0, r0⟩ := offset_ok (T := T) (g := ugcw) (ds := [(.J, j0, j1), (.I, i0, i1)]) (by simp) (by simp) (by omega) (by simp <;> omega) h_u
  obtain ⟨v1, n1, r1⟩ := offset_ok (T := T) (g := fgcw) (ds := [(.J, j0, j1), (.I, i0, i1)]) (by simp) (by simp) (by omega) (by simp <;> omega) h_ff
  obtain ⟨v2, n2, r2⟩ := offset_ok (T := T) (g := rgcw) (ds := [(.J, j0, j1), (.I, i0, i1)]) (by simp) (by simp) (by omega) (by simp <;> omega)
      h_res
  obtain ⟨v3, n3, r3⟩ := vec_ok (T := T) (ds := [(.J, j0, j1), (.I, i0, i1 + 1)]) (by simp) (by simp) (by simp <;> omega) h_f0
  obtain ⟨v4, n4, r4⟩ := vec_ok (T := T) (ds := [(.I, i0, i1), (.J, j0, j1 + 1)]) (by simp) (by simp) (by simp <;> omega) h_f1
  simp only [bounds, List.map_cons, List.map_nil] at n0 n1 n2 n3 n4
  unfold Test.diffusionV2Res2d
  simp only [mk_j, mk_i, pl_i, pl_j, n0, n1, n2, n3, n4, M.ok_bind]
  refine compare_ok (L := [0, 1, 3, 2, 4, 5]) ?_ rfl rfl (F.ren_celldiffusionv2res2d (T := T) (perm_inv (L := [0, 1, 3, 2, 4, 5]) (by decide))) ?_
      (by decide)
  · simp [(r0.fill (xs := xu)).same, (r0.fill (xs := xu)).sync, (r1.fill (xs := xff)).same, (r1.fill (xs := xff)).sync, r2.same, r2.sync, (r3.fill
        (xs := xf0)).same, (r3.fill (xs := xf0)).sync, (r4.fill (xs := xf1)).same, (r4.fill (xs := xf1)).sync]
  · refine C34_v2_res_2d hβ hi hj hugcw hfgcw hrgcw ⟨?_, ?_⟩
    · simp only [List.cons_append, List.nil_append, List.forall_mem_cons]
      refine ⟨arr_ok_of rfl (r0.fill (xs := xu)) h_u, arr_ok_of rfl (r1.fill (xs := xff)) h_ff, arr_ok_of rfl (r3.fill (xs := xf0)) h_f0, arr_ok_of
          rfl (r4.fill (xs := xf1)) h_f1, arr_ok_of rfl r2 h_res, ?_⟩
      simp
    · simp only [List.forall_mem_cons]
      repeat' first | exact arr_apart (by decide) | refine ⟨?_, ?_⟩ | simp

example {ugcw fgcw rgcw : Int} {alpha beta : ℚ} {dx xu xff xf0 xf1 : Nat → ℚ} {β : Nat → Backend} (hβ : ∀ n, ValidBackend (β n)) (p_ugcw : 1 ≤ ugcw)
    (q_ugcw : ugcw ≤ 3) (p_fgcw : 1 ≤ fgcw) (q_fgcw : fgcw ≤ 4) (p_rgcw : 2 ≤ rgcw) (q_rgcw : rgcw ≤ 5) : Test.diffusionV2Res2d 5 73 12 129 alpha
    beta dx ugcw fgcw rgcw xu xff xf0 xf1 β = .ok true :=
  C103_v2_res_2d hβ (by told) (by told) (by told) (by told) (by told) (by interval_cases ugcw <;> exact fits_of (by decide))
      (by interval_cases fgcw <;> exact fits_of (by decide)) (by exact fits_of (by decide)) (by exact fits_of (by decide))
      (by interval_cases rgcw <;> exact fits_of (by decide))

/-- src/cd_apply_2d.t.cpp:179-237 -/
theorem C103_poisson_res_2d {i0 i1 j0 j1 : Int} {beta : T} {dx : Nat → T} {fgcw rgcw : Int} {xu xf0 xf1 : Nat → T} {β : Nat → Backend}
    (hβ : ∀ n, ValidBackend (β n)) (hi : i0 ≤ i1) (hj : j0 ≤ j1) (hfgcw : 0 ≤ fgcw) (hrgcw : 0 ≤ rgcw)
    (h_u : F.Fits (F.cell2d (at_ 0) i0 j0 i1 j1 fgcw).dims) (h_f0 : F.Fits (F.face2d0 (at_ 0) i0 j0 i1 j1 0).dims)
    (h_f1 : F.Fits (F.face2d1 (at_ 0) i0 j0 i1 j1 0).dims) (h_res : F.Fits (F.cell2d (at_ 0) i0 j0 i1 j1 rgcw).dims) : Test.poissonV1Res2d i0 i1 j0
    j1 beta dx fgcw rgcw xu xf0 xf1 β = .ok true := by
  have I0 := h_u.int
  have I1 := h_f0.int
  have I2 := h_f1.int
  have I3 := h_res.int
  simp only [F.cell2d, F.face2d0, F.face2d1, List.mem_cons, List.not_mem_nil, or_false, forall_eq_or_imp, forall_eq, InInt] at I0 I1 I2 I3
  have mk_j := mkB_ok (d := .J) (lo := j0) (hi := j1) (by unfold InInt; omega)
  have mk_i := mkB_ok (d := .I) (lo := i0) (hi := i1) (by unfold InInt; omega)
  have pl_i := plus_ok (d := .I) (b := ⟨i0, i1 + 1, 1⟩) (x := 1) (by omega) (by simp only [InInt]; omega)
  have pl_j := plus_ok (d := .J) (b := ⟨j0, j1 + 1, 1⟩) (x := 1) (by omega) (by simp only [InInt]; omega)
  obtain ⟨v0, n0, r0⟩ := offset_ok (T := T) (g := fgcw) (ds := [(.J, j0, j1), (.I, i0, i1)]) (by simp) (by simp) (by omega) (by simp <;> omega) h_u
  obtain ⟨v1, n1, r1⟩ := offset_ok (T := T) (g := rgcw) (ds := [(.J, j0, j1), (.I, i0, i1)]) (by simp) (by simp) (by omega) (by simp <;> omega)
      h_res
  obtain ⟨v2, n2, r2⟩ := vec_ok (T := T) (ds := [(.J, j0, j1), (.I, i0, i1 + 1)]) (by simp) (by simp) (by simp <;> omega) h_f0
  obtain ⟨v3, n3, r3⟩ := vec_ok (T := T) (ds := [(.I, i0, i1), (.J, j0, j1 + 1)]) (by simp) (by simp) (by simp <;> omega) h_f1
  simp only [bounds, List.map_cons, List.map_nil] at n0 n1 n2 n3
  unfold Test.poissonV1Res2d
  simp only [mk_j, mk_i, pl_i, pl_j, n0, n1, n2, n3, M.ok_bind]
  refine compare_ok (L := [0, 2, 1, 3, 4]) ?_ rfl rfl (F.ren_cellpoissonv1res2d (T := T) (perm_inv (L := [0, 2, 1, 3, 4]) (by decide))) ?_
      (by decide)
  · simp [(r0.fill (xs := xu)).same, (r0.fill (xs := xu)).sync, r1.same, r1.sync, (r2.fill (xs := xf0)).same, (r2.fill (xs := xf0)).sync, (r3.fill
        (xs := xf1)).same, (r3.fill (xs := xf1)).sync]
  · refine C34_poisson_res_2d hβ hi hj hfgcw hrgcw ⟨?_, ?_⟩
    · simp only [List.cons_append, List.nil_append, List.forall_mem_cons]
      refine ⟨arr_ok_of rfl (r0.fill (xs := xu)) h_u, arr_ok_of rfl (r2.fill (xs := xf0)) h_f0, arr_ok_of rfl (r3.fill (xs := xf1)) h_f1, arr_ok_of
          rfl r1 h_res, ?_⟩
      simp
    · simp only [List.forall_mem_cons]
      repeat' first | exact arr_apart (by decide) | refine ⟨?_, ?_⟩ | simp

example {fgcw rgcw : Int} {beta : ℚ} {dx xu xf0 xf1 : Nat → ℚ} {β : Nat → Backend} (hβ : ∀ n, ValidBackend (β n)) (p_fgcw : 1 ≤ fgcw)
    (q_fgcw : fgcw ≤ 4) (p_rgcw : 2 ≤ rgcw) (q_rgcw : rgcw ≤ 5) : Test.poissonV1Res2d 5 73 12 129 beta dx fgcw rgcw xu xf0 xf1 β = .ok true :=
  C103_poisson_res_2d hβ (by told) (by told) (by told) (by told) (by interval_cases fgcw <;> exact fits_of (by decide))
      (by exact fits_of (by decide)) (by exact fits_of (by decide)) (by interval_cases rgcw <;> exact fits_of (by decide))

/-- src/cd_apply_2d.t.cpp:239-306 -/
theorem C103_v1_apply_2d {i0 i1 j0 j1 : Int} {alpha beta : T} {dx : Nat → T} {agcw ugcw rgcw : Int} {xa xu xf0 xf1 : Nat → T} {β : Nat → Backend}
    (hβ : ∀ n, ValidBackend (β n)) (hi : i0 ≤ i1) (hj : j0 ≤ j1) (hagcw : 0 ≤ agcw) (hugcw : 0 ≤ ugcw) (hrgcw : 0 ≤ rgcw)
    (h_a : F.Fits (F.cell2d (at_ 0) i0 j0 i1 j1 agcw).dims) (h_u : F.Fits (F.cell2d (at_ 0) i0 j0 i1 j1 ugcw).dims)
    (h_f0 : F.Fits (F.face2d0 (at_ 0) i0 j0 i1 j1 0).dims) (h_f1 : F.Fits (F.face2d1 (at_ 0) i0 j0 i1 j1 0).dims)
    (h_res : F.Fits (F.cell2d (at_ 0) i0 j0 i1 j1 rgcw).dims) : Test.diffusionV1Apply2d i0 i1 j0 j1 alpha beta dx agcw ugcw rgcw xa xu xf0 xf1 β =
    .ok true := by
  have I0 := h_a.int
  have I1 := h_u.int
  have I2 := h_f0.int
  have I3 := h_f1.int
  have I4 := h_res.int
  simp only [F.cell2d, F.face2d0, F.face2d1, List.mem_cons, List.not_mem_nil, or_false, forall_eq_or_imp, forall_eq, InInt] at I0 I1 I2 I3 I4
  have mk_j := mkB_ok (d := .J) (lo := j0) (hi := j1) (by unfold InInt; omega)
  have mk_i := mkB_ok (d := .I) (lo := i0) (hi := i1) (by unfold InInt; omega)
  have pl_i := plus_ok (d := .I) (b := ⟨i0, i1 + 1, 1⟩) (x := 1) (by omega) (by simp only [InInt]; omega)
  have pl_j := plus_ok (d := .J) (b := ⟨j0, j1 + 1, 1⟩) (x := 1) (by omega) (by simp only [InInt]; omega)
  obtain ⟨v0, n0, r0⟩ := offset_ok (T := T) (g := agcw) (ds := [(.J, j0, j1), (.I, i0, i1)]) (by simp) (by simp) (by omega) (by simp <;> omega) h_a
  obtain ⟨v1, n1, r1⟩ := offset_ok (T := T) (g := ugcw) (ds := [(.J, j0, j1), (.I, i0, i1)]) (by simp) (by simp) (by omega) (by simp <;> omega) h_u
  obtain ⟨v2, n2, r2⟩ := offset_ok (T := T) (g := rgcw) (ds := [(.J, j0, j1), (.I, i0, i1)]) (by simp) (by simp) (by omega) (by simp <;> omega)
      h_res
  obtain ⟨v3, n3, r3⟩ := vec_ok (T := T) (ds := [(.J, j0, j1), (.I, i0, i1 + 1)]) (by simp) (by simp) (by simp <;> omega) h_f0
  obtain ⟨v4, n4, r4⟩ := vec_ok (T := T) (ds := [(.I, i0, i1), (.J, j0, j1 + 1)]) (by simp) (by simp) (by simp <;> omega) h_f1
  simp only [bounds, List.map_cons, List.map_nil] at n0 n1 n2 n3 n4
  unfold Test.diffusionV1Apply2d
  simp only [mk_j, mk_i, pl_i, pl_j, n0, n1, n2, n3, n4, M.ok_bind]
  refine compare_ok (L := [0, 1, 3, 2, 4, 5]) ?_ rfl rfl (F.ren_celldiffusionv1apply2d (T := T) (perm_inv (L := [0, 1, 3, 2, 4, 5]) (by decide))) ?_
      (by decide)
  · simp [(r0.fill (xs := xa)).same, (r0.fill (xs := xa)).sync, (r1.fill (xs := xu)).same, (r1.fill (xs := xu)).sync, r2.same, r2.sync, (r3.fill (xs
        := xf0)).same, (r3.fill (xs := xf0)).sync, (r4.fill (xs := xf1)).same, (r4.fill (xs := xf1)).sync]
  · refine C34_v1_apply_2d hβ hi hj hagcw hugcw hrgcw ⟨?_, ?_⟩
    · simp only [List.cons_append, List.nil_append, List.forall_mem_cons]
      refine ⟨arr_ok_of rfl (r0.fill (xs := xa)) h_a, arr_ok_of rfl (r1.fill (xs := xu)) h_u, arr_ok_of rfl (r3.fill (xs := xf0)) h_f0, arr_ok_of
          rfl (r4.fill (xs := xf1)) h_f1, arr_ok_of rfl r2 h_res, ?_⟩
      simp
    · simp only [List.forall_mem_cons]
      repeat' first | exact arr_apart (by decide) | refine ⟨?_, ?_⟩ | simp

example {rgcw ugcw agcw : Int} {alpha beta : ℚ} {dx xa xu xf0 xf1 : Nat → ℚ} {β : Nat → Backend} (hβ : ∀ n, ValidBackend (β n)) (p_rgcw : 1 ≤ rgcw)
    (q_rgcw : rgcw ≤ 4) (p_ugcw : 2 ≤ ugcw) (q_ugcw : ugcw ≤ 5) (p_agcw : 1 ≤ agcw) (q_agcw : agcw ≤ 7) : Test.diffusionV1Apply2d 5 73 12 129 alpha
    beta dx agcw ugcw rgcw xa xu xf0 xf1 β = .ok true :=
  C103_v1_apply_2d hβ (by told) (by told) (by told) (by told) (by told) (by interval_cases agcw <;> exact fits_of (by decide))
      (by interval_cases ugcw <;> exact fits_of (by decide)) (by exact fits_of (by decide)) (by exact fits_of (by decide))
      (by interval_cases rgcw <;> exact fits_of (by decide))

/-- src/cd_apply_2d.t.cpp:308-368 -/
theorem C103_v2_apply_2d {i0 i1 j0 j1 : Int} {alpha beta : T} {dx : Nat → T} {ugcw rgcw : Int} {xu xf0 xf1 : Nat → T} {β : Nat → Backend}
    (hβ : ∀ n, ValidBackend (β n)) (hi : i0 ≤ i1) (hj : j0 ≤ j1) (hugcw : 0 ≤ ugcw) (hrgcw : 0 ≤ rgcw)
    (h_u : F.Fits (F.cell2d (at_ 0) i0 j0 i1 j1 ugcw).dims) (h_f0 : F.Fits (F.face2d0 (at_ 0) i0 j0 i1 j1 0).dims)
    (h_f1 : F.Fits (F.face2d1 (at_ 0) i0 j0 i1 j1 0).dims) (h_res : F.Fits (F.cell2d (at_ 0) i0 j0 i1 j1 rgcw).dims) : Test.diffusionV2Apply2d i0 i1
    j0 j1 alpha beta dx ugcw rgcw xu xf0 xf1 β = .ok true := by
  have I0 := h_u.int
  have I1 := h_f0.int
  have I2 := h_f1.int
  have I3 := h_res.int
  simp only [F.cell2d, F.face2d0, F.face2d1, List.mem_cons, List.not_mem_nil, or_false, forall_eq_or_imp, forall_eq, InInt] at I0 I1 I2 I3
  have mk_j := mkB_ok (d := .J) (lo := j0) (hi := j1) (by unfold InInt; omega)
  have mk_i := mkB_ok (d := .I) (lo := i0) (hi := i1) (by unfold InInt; omega)
  have pl_i := plus_ok (d := .I) (b := ⟨i0, i1 + 1, 1⟩) (x := 1) (by omega) (by simp only [InInt]; omega)
  have pl_j := plus_ok (d := .J) (b := ⟨j0, j1 + 1, 1⟩) (x := 1) (by omega) (by simp only [InInt]; omega)
  obtain ⟨v0, n0, r0⟩ := offset_ok (T := T) (g := ugcw) (ds := [(.J, j0, j1), (.I, i0, i1)]) (by simp) (by simp) (by omega) (by simp <;> omega) h_u
  obtain ⟨v1, n1, r1⟩ := offset_ok (T := T) (g := rgcw) (ds := [(.J, j0, j1), (.I, i0, i1)]) (by simp) (by simp) (by omega) (by simp <;> omega)
      h_res
  obtain ⟨v2, n2, r2⟩ := vec_ok (T := T) (ds := [(.J, j0, j1), (.I, i0, i1 + 1)]) (by simp) (by simp) (by simp <;> omega) h_f0
  obtain ⟨v3, n3, r3⟩ := vec_ok (T := T) (ds := [(.I, i0, i1), (.J, j0, j1 + 1)]) (by simp) (by simp) (by simp <;> omega) h_f1
  simp only [bounds, List.map_cons, List.map_nil] at n0 n1 n2 n3
  unfold Test.diffusionV2Apply2d
  simp only [mk_j, mk_i, pl_i, pl_j, n0, n1, n2, n3, M.ok_bind]
  refine compare_ok (L := [0, 2, 1, 3, 4]) ?_ rfl rfl (F.ren_celldiffusionv2apply2d (T := T) (perm_inv (L := [0, 2, 1, 3, 4]) (by decide))) ?_
      (by decide)
  · simp [(r0.fill (xs := xu)).same, (r0.fill (xs := xu)).sync, r1.same, r1.sync, (r2.fill (xs := xf0)).same, (r2.fill (xs := xf0)).sync, (r3.fill
        (xs := xf1)).same, (r3.fill (xs := xf1)).sync]
  · refine C34_v2_apply_2d hβ hi hj hugcw hrgcw ⟨?_, ?_⟩
    · simp only [List.cons_append, List.nil_append, List.forall_mem_cons]
      refine ⟨arr_ok_of rfl (r0.fill (xs := xu)) h_u, arr_ok_of rfl (r2.fill (xs := xf0)) h_f0, arr_ok_of rfl (r3.fill (xs := xf1)) h_f1, arr_ok_of
          rfl r1 h_res, ?_⟩
      simp
    · simp only [List.forall_mem_cons]
      repeat' first | exact arr_apart (by decide) | refine ⟨?_, ?_⟩ | simp

example {rgcw ugcw : Int} {alpha beta : ℚ} {dx xu xf0 xf1 : Nat → ℚ} {β : Nat → Backend} (hβ : ∀ n, ValidBackend (β n)) (p_rgcw : 1 ≤ rgcw)
    (q_rgcw : rgcw ≤ 4) (p_ugcw : 1 ≤ ugcw) (q_ugcw : ugcw ≤ 4) : Test.diffusionV2Apply2d 5 73 12 29 alpha beta dx ugcw rgcw xu xf0 xf1 β = .ok true
    :=
  C103_v2_apply_2d hβ (by told) (by told) (by told) (by told) (by interval_cases ugcw <;> exact fits_of (by decide)) (by exact fits_of (by decide))
      (by exact fits_of (by decide)) (by interval_cases rgcw <;> exact fits_of (by decide))

/-- src/cd_apply_2d.t.cpp:370-412 -/
theorem C103_poisson_apply_2d {i0 i1 j0 j1 : Int} {beta : T} {dx : Nat → T} {rgcw : Int} {xf0 xf1 : Nat → T} {β : Nat → Backend}
    (hβ : ∀ n, ValidBackend (β n)) (hi : i0 ≤ i1) (hj : j0 ≤ j1) (hrgcw : 0 ≤ rgcw) (h_f0 : F.Fits (F.face2d0 (at_ 0) i0 j0 i1 j1 0).dims)
    (h_f1 : F.Fits (F.face2d1 (at_ 0) i0 j0 i1 j1 0).dims) (h_res : F.Fits (F.cell2d (at_ 0) i0 j0 i1 j1 rgcw).dims) : Test.poissonV2Apply2d i0 i1
    j0 j1 beta dx rgcw xf0 xf1 β = .ok true := by
  have I0 := h_f0.int
  have I1 := h_f1.int
  have I2 := h_res.int
  simp only [F.cell2d, F.face2d0, F.face2d1, List.mem_cons, List.not_mem_nil, or_false, forall_eq_or_imp, forall_eq, InInt] at I0 I1 I2
  have mk_j := mkB_ok (d := .J) (lo := j0) (hi := j1) (by unfold InInt; omega)
  have mk_i := mkB_ok (d := .I) (lo := i0) (hi := i1) (by unfold InInt; omega)
  have pl_i := plus_ok (d := .I) (b := ⟨i0, i1 + 1, 1⟩) (x := 1) (by omega) (by simp only [InInt]; omega)
  have pl_j := plus_ok (d := .J) (b := ⟨j0, j1 + 1, 1⟩) (x := 1) (by omega) (by simp only [InInt]; omega)
  obtain ⟨v0, n0, r0⟩ := offset_ok (T := T) (g := rgcw) (ds := [(.J, j0, j1), (.I, i0, i1)]) (by simp) (by simp) (by omega) (by simp <;> omega)
      h_res
  obtain ⟨v1, n1, r1⟩ := vec_ok (T := T) (ds := [(.J, j0, j1), (.I, i0, i1 + 1)]) (by simp) (by simp) (by simp <;> omega) h_f0
  obtain ⟨v2, n2, r2⟩ := vec_ok (T := T) (ds := [(.I, i0, i1), (.J, j0, j1 + 1)]) (by simp) (by simp) (by simp <;> omega) h_f1
  simp only [bounds, List.map_cons, List.map_nil] at n0 n1 n2
  unfold Test.poissonV2Apply2d
  simp only [mk_j, mk_i, pl_i, pl_j, n0, n1, n2, M.ok_bind]
  refine compare_ok (L := [1, 0, 2, 3]) ?_ rfl rfl (F.ren_cellpoissonv2apply2d (T := T) (perm_inv (L := [1, 0, 2, 3]) (by decide))) ?_ (by decide)
  · simp [r0.same, r0.sync, (r1.fill (xs := xf0)).same, (r1.fill (xs := xf0)).sync, (r2.fill (xs := xf1)).same, (r2.fill (xs := xf1)).sync]
  · refine C34_poisson_apply_2d hβ hi hj hrgcw ⟨?_, ?_⟩
    · simp only [List.cons_append, List.nil_append, List.forall_mem_cons]
      refine ⟨arr_ok_of rfl (r1.fill (xs := xf0)) h_f0, arr_ok_of rfl (r2.fill (xs := xf1)) h_f1, arr_ok_of rfl r0 h_res, ?_⟩
      simp
    · simp only [List.forall_mem_cons]
      repeat' first | exact arr_apart (by decide) | refine ⟨?_, ?_⟩ | simp

example {beta : ℚ} {dx xf0 xf1 : Nat → ℚ} {β : Nat → Backend} (hβ : ∀ n, ValidBackend (β n))  : Test.poissonV2Apply2d 35 47 12 92 beta dx 2 xf0 xf1
    β = .ok true :=
  C103_poisson_apply_2d hβ (by told) (by told) (by told) (by exact fits_of (by decide)) (by exact fits_of (by decide))
      (by exact fits_of (by decide))

/-- src/cd_apply_3d.t.cpp:34-116 -/
theorem C103_v1_res_3d {i0 i1 j0 j1 k0 k1 : Int} {alpha beta : T} {dx : Nat → T} {agcw ugcw fgcw rgcw : Int} {xa xu xff xf0 xf1 xf2 : Nat → T}
    {β : Nat → Backend} (hβ : ∀ n, ValidBackend (β n)) (hi : i0 ≤ i1) (hj : j0 ≤ j1) (hk : k0 ≤ k1) (hagcw : 0 ≤ agcw) (hugcw : 0 ≤ ugcw)
    (hfgcw : 0 ≤ fgcw) (hrgcw : 0 ≤ rgcw) (h_a : F.Fits (F.cell3d (at_ 0) i0 j0 k0 i1 j1 k1 agcw).dims)
    (h_u : F.Fits (F.cell3d (at_ 0) i0 j0 k0 i1 j1 k1 ugcw).dims) (h_ff : F.Fits (F.cell3d (at_ 0) i0 j0 k0 i1 j1 k1 fgcw).dims)
    (h_f0 : F.Fits (F.face3d0 (at_ 0) i0 j0 k0 i1 j1 k1 0).dims) (h_f1 : F.Fits (F.face3d1 (at_ 0) i0 j0 k0 i1 j1 k1 0).dims)
    (h_f2 : F.Fits (F.face3d2 (at_ 0) i0 j0 k0 i1 j1 k1 0).dims) (h_res : F.Fits (F.cell3d (at_ 0) i0 j0 k0 i1 j1 k1 rgcw).dims) :
    Test.diffusionV1Res3d i0 i1 j0 j1 k0 k1 alpha beta dx agcw ugcw fgcw rgcw xa xu xff xf0 xf1 xf2 β = .ok true := by
  have I0 := h_a.int
  have I1 := h_u.int
  have I2 := h_ff.int
  have I3 := h_f0.int
  have I4 := h_f1.int
  have I5 := h_f2.int
  have I6 := h_res.int
  simp only [F.cell3d, F.face3d0, F.face3d1, F.face3d2, List.mem_cons, List.not_mem_nil, or_false, forall_eq_or_imp, forall_eq,
      InInt] at I0 I1 I2 I3 I4 I5 I6
  have mk_k := mkB_ok (d := .K) (lo := k0) (hi := k1) (by unfold InInt; omega)
  have mk_j := mkB_ok (d := .J) (lo := j0) (hi := j1) (by unfold InInt; omega)
  have mk_i := mkB_ok (d := .I) (lo := i0) (hi := i1) (by unfold InInt; omega)
  have pl_i := plus_ok (d := .I) (b := ⟨i0, i1 + 1, 1⟩) (x := 1) (by omega) (by simp only [InInt]; omega)
  have pl_j := plus_ok (d := .J) (b := ⟨j0, j1 + 1, 1⟩) (x := 1) (by omega) (by simp only [InInt]; omega)
  have pl_k := plus_ok (d := .K) (b := ⟨k0, k1 + 1, 1⟩) (x := 1) (by omega) (by simp only [InInt]; omega)
  obtain ⟨v0, n0, r0⟩ := offset_ok (T := T) (g := agcw) (ds := [(.K, k0, k1), (.J, j0, j1), (.I, i0, i1)]) (by simp) (by simp) (by omega)
      (by simp <;> omega) h_a
  obtain ⟨v1, n1, r1⟩ := offset_ok (T := T) (g := ugcw) (ds := [(.K, k0, k1), (.J, j0, j1), (.I, i0, i1)]) (by simp) (by simp) (by omega)
      (by simp <;> omega) h_u
  obtain ⟨v2, n2, r2⟩ := offset_ok (T := T) (g := fgcw) (ds := [(.K, k0, k1), (.J, j0, j1), (.I, i0, i1)]) (by simp) (by simp) (by omega)
      (by simp <;> omega) h_ff
  obtain ⟨v3, n3, r3⟩ := offset_ok (T := T) (g := rgcw) (ds := [(.K, k0, k1), (.J, j0, j1), (.I, i0, i1)]) (by simp) (by simp) (by omega)
      (by simp <;> omega) h_res
  obtain ⟨v4, n4, r4⟩ := vec_ok (T := T) (ds := [(.K, k0, k1), (.J, j0, j1), (.I, i0, i1 + 1)]) (by simp) (by simp) (by simp <;> omega) h_f0
  obtain ⟨v5, n5, r5⟩ := vec_ok (T := T) (ds := [(.I, i0, i1), (.K, k0, k1), (.J, j0, j1 + 1)]) (by simp) (by simp) (by simp <;> omega) h_f1
  obtain ⟨v6, n6, r6⟩ := vec_ok (T := T) (ds := [(.J, j0, j1), (.I, i0, i1), (.K, k0, k1 + 1)]) (by simp) (by simp) (by simp <;> omega) h_f2
  simp only [bounds, List.map_cons, List.map_nil] at n0 n1 n2 n3 n4 n5 n6
  unfold Test.diffusionV1Res3d
  simp only [mk_k, mk_j, mk_i, pl_i, pl_j, pl_k, n0, n1, n2, n3, n4, n5, n6, M.ok_bind]
  refine compare_ok (L := [0, 1, 2, 4, 3, 5, 6, 7]) ?_ rfl rfl
      (F.ren_celldiffusionv1res3d (T := T) (perm_inv (L := [0, 1, 2, 4, 3, 5, 6, 7]) (by decide))) ?_ (by decide)
  · simp [(r0.fill (xs := xa)).same, (r0.fill (xs := xa)).sync, (r1.fill (xs := xu)).same, (r1.fill (xs := xu)).sync, (r2.fill (xs := xff)).same,
        (r2.fill (xs := xff)).sync, r3.same, r3.sync, (r4.fill (xs := xf0)).same, (r4.fill (xs := xf0)).sync, (r5.fill (xs := xf1)).same, (r5.fill
        (xs := xf1)).sync, (r6.fill (xs := xf2)).same, (r6.fill (xs := xf2)).sync]
  · refine C34_v1_res_3d hβ hi hj hk hagcw hugcw hfgcw hrgcw ⟨?_, ?_⟩
    · simp only [List.cons_append, List.nil_append, List.forall_mem_cons]
      refine ⟨arr_ok_of rfl (r0.fill (xs := xa)) h_a, arr_ok_of rfl (r1.fill (xs := xu)) h_u, arr_ok_of rfl (r2.fill (xs := xff)) h_ff, arr_ok_of
          rfl (r4.fill (xs := xf0)) h_f0, arr_ok_of rfl (r5.fill (xs := xf1)) h_f1, arr_ok_of rfl (r6.fill (xs := xf2)) h_f2, arr_ok_of rfl r3
          h_res, ?_⟩
      simp
    · simp only [List.forall_mem_cons]
      repeat' first | exact arr_apart (by decide) | refine ⟨?_, ?_⟩ | simp

example {ugcw fgcw rgcw agcw : Int} {alpha beta : ℚ} {dx xa xu xff xf0 xf1 xf2 : Nat → ℚ} {β : Nat → Backend} (hβ : ∀ n, ValidBackend (β n))
    (p_ugcw : 2 ≤ ugcw) (q_ugcw : ugcw ≤ 10) (p_fgcw : 1 ≤ fgcw) (q_fgcw : fgcw ≤ 4) (p_rgcw : 2 ≤ rgcw) (q_rgcw : rgcw ≤ 5) (p_agcw : 3 ≤ agcw)
    (q_agcw : agcw ≤ 9) : Test.diffusionV1Res3d 7 54 99 250 12 43 alpha beta dx agcw ugcw fgcw rgcw xa xu xff xf0 xf1 xf2 β = .ok true :=
  C103_v1_res_3d hβ (by told) (by told) (by told) (by told) (by told) (by told) (by told) (by interval_cases agcw <;> exact fits_of (by decide))
      (by interval_cases ugcw <;> exact fits_of (by decide)) (by interval_cases fgcw <;> exact fits_of (by decide)) (by exact fits_of (by decide))
      (by exact fits_of (by decide)) (by exact fits_of (by decide)) (by interval_cases rgcw <;> exact fits_of (by decide))

/-- src/cd_apply_3d.t.cpp:118-194 -/
theorem C103_v2_res_3d {i0 i1 j0 j1 k0 k1 : Int} {alpha beta : T} {dx : Nat → T} {ugcw fgcw rgcw : Int} {xu xff xf0 xf1 xf2 : Nat → T}
    {β : Nat → Backend} (hβ : ∀ n, ValidBackend (β n)) (hi : i0 ≤ i1) (hj : j0 ≤ j1) (hk : k0 ≤ k1) (hugcw : 0 ≤ ugcw) (hfgcw : 0 ≤ fgcw)
    (hrgcw : 0 ≤ rgcw) (h_u : F.Fits (F.cell3d (at_ 0) i0 j0 k0 i1 j1 k1 ugcw).dims) (h_ff : F.Fits (F.cell3d (at_ 0) i0 j0 k0 i1 j1 k1 fgcw).dims)
    (h_f0 : F.Fits (F.face3d0 (at_ 0) i0 j0 k0 i1 j1 k1 0).dims) (h_f1 : F.Fits (F.face3d1 (at_ 0) i0 j0 k0 i1 j1 k1 0).dims)
    (h_f2 : F.Fits (F.face3d2 (at_ 0) i0 j0 k0 i1 j1 k1 0).dims) (h_res : F.Fits (F.cell3d (at_ 0) i0 j0 k0 i1 j1 k1 rgcw).dims) :
    Test.diffusionV2Res3d i0 i1 j0 j1 k0 k1 alpha beta dx ugcw fgcw rgcw xu xff xf0 xf1 xf2 β = .ok true := by
  have I0 := h_u.int
  have I1 := h_ff.int
  have I2 := h_f0.int
  have I3 := h_f1.int
  have I4 := h_f2.int
  have I5 := h_res.int
  simp only [F.cell3d, F.face3d0, F.face3d1, F.face3d2, List.mem_cons, List.not_mem_nil, or_false, forall_eq_or_imp, forall_eq,
      InInt] at I0 I1 I2 I3 I4 I5
  have mk_k := mkB_ok (d := .K) (lo := k0) (hi := k1) (by unfold InInt; omega)
  have mk_j := mkB_ok (d := .J) (lo := j0) (hi := j1) (by unfold InInt; omega)
  have mk_i := mkB_ok (d := .I) (lo := i0) (hi := i1) (by unfold InInt; omega)
  have pl_i := plus_ok (d := .I) (b := ⟨i0, i1 + 1, 1⟩) (x := 1) (by omega) (by simp only [InInt]; omega)
  have pl_j := plus_ok (d := .J) (b := ⟨j0, j1 + 1, 1⟩) (x := 1) (by omega) (by simp only [InInt]; omega)
  have pl_k := plus_ok (d := .K) (b := ⟨k0, k1 + 1, 1⟩) (x := 1) (by omega) (by simp only [InInt]; omega)
  obtain ⟨v0, n0, r0⟩ := offset_ok (T := T) (g := ugcw) (ds := [(.K, k0, k1), (.J, j0, j1), (.I, i0, i1)]) (by simp) (by simp) (by omega)
      (by simp <;> omega) h_u
  obtain ⟨v1, n1, r1⟩ := offset_ok (T := T) (g := fgcw) (ds := [(.K, k0, k1), (.J, j0, j1), (.I, i0, i1)]) (by simp) (by simp) (by omega)
      (by simp <;> omega) h_ff
  obtain ⟨v2, n2, r2⟩ := offset_ok (T := T) (g := rgcw) (ds := [(.K, k0, k1), (.J, j0, j1), (.I, i0, i1)]) (by simp) (by simp) (by omega)
      (by simp <;> omega) h_res
  obtain ⟨v3, n3, r3⟩ := vec_ok (T := T) (ds := [(.K, k0, k1), (.J, j0, j1), (.I, i0, i1 + 1)]) (by simp) (by simp) (by simp <;> omega) h_f0
  obtain ⟨v4, n4, r4⟩ := vec_ok (T := T) (ds := [(.I, i0, i1), (.K, k0, k1), (.J, j0, j1 + 1)]) (by simp) (by simp) (by simp <;> omega) h_f1
  obtain ⟨v5, n5, r5⟩ := vec_ok (T := T) (ds := [(.J, j0, j1), (.I, i0, i1), (.K, k0, k1 + 1)]) (by simp) (by simp) (by simp <;> omega) h_f2
  simp only [bounds, List.map_cons, List.map_nil] at n0 n1 n2 n3 n4 n5
  unfold Test.diffusionV2Res3d
  simp only [mk_k, mk_j, mk_i, pl_i, pl_j, pl_k, n0, n1, n2, n3, n4, n5, M.ok_bind]
  refine compare_ok (L := [0, 1, 3, 2, 4, 5, 6]) ?_ rfl rfl
      (F.ren_celldiffusionv2res3d (T := T) (perm_inv (L := [0, 1, 3, 2, 4, 5, 6]) (by decide))) ?_ (by decide)
  · simp [(r0.fill (xs := xu)).same, (r0.fill (xs := xu)).sync, (r1.fill (xs := xff)).same, (r1.fill (xs := xff)).sync, r2.same, r2.sync, (r3.fill
        (xs := xf0)).same, (r3.fill (xs := xf0)).sync, (r4.fill (xs := xf1)).same, (r4.fill (xs := xf1)).sync, (r5.fill (xs := xf2)).same, (r5.fill
        (xs := xf2)).sync]
  · refine C34_v2_res_3d hβ hi hj hk hugcw hfgcw hrgcw ⟨?_, ?_⟩
    · simp only [List.cons_append, List.nil_append, List.forall_mem_cons]
      refine ⟨arr_ok_of rfl (r0.fill (xs := xu)) h_u, arr_ok_of rfl (r1.fill (xs := xff)) h_ff, arr_ok_of rfl (r3.fill (xs := xf0)) h_f0, arr_ok_of
          rfl (r4.fill (xs := xf1)) h_f1, arr_ok_of rfl (r5.fill (xs := xf2)) h_f2, arr_ok_of rfl r2 h_res, ?_⟩
      simp
    · simp only [List.forall_mem_cons]
      repeat' first | exact arr_apart (by decide) | refine ⟨?_, ?_⟩ | simp

example {ugcw fgcw rgcw : Int} {alpha beta : ℚ} {dx xu xff xf0 xf1 xf2 : Nat → ℚ} {β : Nat → Backend} (hβ : ∀ n, ValidBackend (β n))
    (p_ugcw : 1 ≤ ugcw) (q_ugcw : ugcw ≤ 3) (p_fgcw : 1 ≤ fgcw) (q_fgcw : fgcw ≤ 4) (p_rgcw : 2 ≤ rgcw) (q_rgcw : rgcw ≤ 5) : Test.diffusionV2Res3d
    5 73 12 129 98 130 alpha beta dx ugcw fgcw rgcw xu xff xf0 xf1 xf2 β = .ok true :=
  C103_v2_res_3d hβ (by told) (by told) (by told) (by told) (by told) (by told) (by interval_cases ugcw <;> exact fits_of (by decide))
      (by interval_cases fgcw <;> exact fits_of (by decide)) (by exact fits_of (by decide)) (by exact fits_of (by decide))
      (by exact fits_of (by decide)) (by interval_cases rgcw <;> exact fits_of (by decide))

/-- src/cd_apply_3d.t.cpp:196-263 -/
theorem C103_poisson_res_3d {i0 i1 j0 j1 k0 k1 : Int} {beta : T} {dx : Nat → T} {fgcw rgcw : Int} {xff xf0 xf1 xf2 : Nat → T} {β : Nat → Backend}
    (hβ : ∀ n, ValidBackend (β n)) (hi : i0 ≤ i1) (hj : j0 ≤ j1) (hk : k0 ≤ k1) (hfgcw : 0 ≤ fgcw) (hrgcw : 0 ≤ rgcw)
    (h_ff : F.Fits (F.cell3d (at_ 0) i0 j0 k0 i1 j1 k1 fgcw).dims) (h_f0 : F.Fits (F.face3d0 (at_ 0) i0 j0 k0 i1 j1 k1 0).dims)
    (h_f1 : F.Fits (F.face3d1 (at_ 0) i0 j0 k0 i1 j1 k1 0).dims) (h_f2 : F.Fits (F.face3d2 (at_ 0) i0 j0 k0 i1 j1 k1 0).dims)
    (h_res : F.Fits (F.cell3d (at_ 0) i0 j0 k0 i1 j1 k1 rgcw).dims) : Test.poissonV1Res3d i0 i1 j0 j1 k0 k1 beta dx fgcw rgcw xff xf0 xf1 xf2 β =
    .ok true := by
  have I0 := h_ff.int
  have I1 := h_f0.int
  have I2 := h_f1.int
  have I3 := h_f2.int
  have I4 := h_res.int
  simp only
      [F.cell3d, F.face3d0, F.face3d1, F.face3d2, List.mem_cons, List.not_mem_nil, or_false, forall_eq_or_imp, forall_eq, InInt] at I0 I1 I2 I3 I4
  have mk_k := mkB_ok (d := .K) (lo := k0) (hi := k1) (by unfold InInt; omega)
  have mk_j := mkB_ok (d := .J) (lo := j0) (hi := j1) (by unfold InInt; omega)
  have mk_i := mkB_ok (d := .I) (lo := i0) (hi := i1) (by unfold InInt; omega)
  have pl_i := plus_ok (d := .I) (b := ⟨i0, i1 + 1, 1⟩) (x := 1) (by omega) (by simp only [InInt]; omega)
  have pl_j := plus_ok (d := .J) (b := ⟨j0, j1 + 1, 1⟩) (x := 1) (by omega) (by simp only [InInt]; omega)
  have pl_k := plus_ok (d := .K) (b := ⟨k0, k1 + 1, 1⟩) (x := 1) (by omega) (by simp only [InInt]; omega)
  obtain ⟨v0, n0, r0⟩ := offset_ok (T := T) (g := fgcw) (ds := [(.K, k0, k1), (.J, j0, j1), (.I, i0, i1)]) (by simp) (by simp) (by omega)
      (by simp <;> omega) h_ff
  obtain ⟨v1, n1, r1⟩ := offset_ok (T := T) (g := rgcw) (ds := [(.K, k0, k1), (.J, j0, j1), (.I, i0, i1)]) (by simp) (by simp) (by omega)
      (by simp <;> omega) h_res
  obtain ⟨v2, n2, r2⟩ := vec_ok (T := T) (ds := [(.K, k0, k1), (.J, j0, j1), (.I, i0, i1 + 1)]) (by simp) (by simp) (by simp <;> omega) h_f0
  obtain ⟨v3, n3, r3⟩ := vec_ok (T := T) (ds := [(.I, i0, i1), (.K, k0, k1), (.J, j0, j1 + 1)]) (by simp) (by simp) (by simp <;> omega) h_f1
  obtain ⟨v4, n4, r4⟩ := vec_ok (T := T) (ds := [(.J, j0, j1), (.I, i0, i1), (.K, k0, k1 + 1)]) (by simp) (by simp) (by simp <;> omega) h_f2
  simp only [bounds, List.map_cons, List.map_nil] at n0 n1 n2 n3 n4
  unfold Test.poissonV1Res3d
  simp only [mk_k, mk_j, mk_i, pl_i, pl_j, pl_k, n0, n1, n2, n3, n4, M.ok_bind]
  refine compare_ok (L := [0, 2, 1, 3, 4, 5]) ?_ rfl rfl (F.ren_cellpoissonv1res3d (T := T) (perm_inv (L := [0, 2, 1, 3, 4, 5]) (by decide))) ?_
      (by decide)
  · simp [(r0.fill (xs := xff)).same, (r0.fill (xs := xff)).sync, r1.same, r1.sync, (r2.fill (xs := xf0)).same, (r2.fill (xs := xf0)).sync, (r3.fill
        (xs := xf1)).same, (r3.fill (xs := xf1)).sync, (r4.fill (xs := xf2)).same, (r4.fill (xs := xf2)).sync]
  · refine C34_poisson_res_3d hβ hi hj hk hfgcw hrgcw ⟨?_, ?_⟩
    · simp only [List.cons_append, List.nil_append, List.forall_mem_cons]
      refine ⟨arr_ok_of rfl (r0.fill (xs := xff)) h_ff, arr_ok_of rfl (r2.fill (xs := xf0)) h_f0, arr_ok_of rfl (r3.fill (xs := xf1)) h_f1,
          arr_ok_of rfl (r4.fill (xs := xf2)) h_f2, arr_ok_of rfl r1 h_res, ?_⟩
      simp
    · simp only [List.forall_mem_cons]
      repeat' first | exact arr_apart (by decide) | refine ⟨?_, ?_⟩ | simp

example {fgcw rgcw : Int} {beta : ℚ} {dx xff xf0 xf1 xf2 : Nat → ℚ} {β : Nat → Backend} (hβ : ∀ n, ValidBackend (β n)) (p_fgcw : 1 ≤ fgcw)
    (q_fgcw : fgcw ≤ 4) (p_rgcw : 2 ≤ rgcw) (q_rgcw : rgcw ≤ 5) : Test.poissonV1Res3d 5 73 12 129 32 75 beta dx fgcw rgcw xff xf0 xf1 xf2 β = .ok
    true :=
  C103_poisson_res_3d hβ (by told) (by told) (by told) (by told) (by told) (by interval_cases fgcw <;> exact fits_of (by decide))
      (by exact fits_of (by decide)) (by exact fits_of (by decide)) (by exact fits_of (by decide))
      (by interval_cases rgcw <;> exact fits_of (by decide))

/-- src/cd_apply_3d.t.cpp:265-341 -/
theorem C103_v1_apply_3d {i0 i1 j0 j1 k0 k1 : Int} {alpha beta : T} {dx : Nat → T} {agcw ugcw rgcw : Int} {xa xu xf0 xf1 xf2 : Nat → T}
    {β : Nat → Backend} (hβ : ∀ n, ValidBackend (β n)) (hi : i0 ≤ i1) (hj : j0 ≤ j1) (hk : k0 ≤ k1) (hagcw : 0 ≤ agcw) (hugcw : 0 ≤ ugcw)
    (hrgcw : 0 ≤ rgcw) (h_a : F.Fits (F.cell3d (at_ 0) i0 j0 k0 i1 j1 k1 agcw).dims) (h_u : F.Fits (F.cell3d (at_ 0) i0 j0 k0 i1 j1 k1 ugcw).dims)
    (h_f0 : F.Fits (F.face3d0 (at_ 0) i0 j0 k0 i1 j1 k1 0).dims) (h_f1 : F.Fits (F.face3d1 (at_ 0) i0 j0 k0 i1 j1 k1 0).dims)
    (h_f2 : F.Fits (F.face3d2 (at_ 0) i0 j0 k0 i1 j1 k1 0).dims) (h_res : F.Fits (F.cell3d (at_ 0) i0 j0 k0 i1 j1 k1 rgcw).dims) :
    Test.diffusionV1Apply3d i0 i1 j0 j1 k0 k1 alpha beta dx agcw ugcw rgcw xa xu xf0 xf1 xf2 β = .ok true := by
  have I0 := h_a.int
  have I1 := h_u.int
  have I2 := h_f0.int
  have I3 := h_f1.int
  have I4 := h_f2.int
  have I5 := h_res.int
  simp only [F.cell3d, F.face3d0, F.face3d1, F.face3d2, List.mem_cons, List.not_mem_nil, or_false, forall_eq_or_imp, forall_eq,
      InInt] at I0 I1 I2 I3 I4 I5
  have mk_k := mkB_ok (d := .K) (lo := k0) (hi := k1) (by unfold InInt; omega)
  have mk_j := mkB_ok (d := .J) (lo := j0) (hi := j1) (by unfold InInt; omega)
  have mk_i := mkB_ok (d := .I) (lo := i0) (hi := i1) (by unfold InInt; omega)
  have pl_i := plus_ok (d := .I) (b := ⟨i0, i1 + 1, 1⟩) (x := 1) (by omega) (by simp only [InInt]; omega)
  have pl_j := plus_ok (d := .J) (b := ⟨j0, j1 + 1, 1⟩) (x := 1) (by omega) (by simp only [InInt]; omega)
  have pl_k := plus_ok (d := .K) (b := ⟨k0, k1 + 1, 1⟩) (x := 1) (by omega) (by simp only [InInt]; omega)
  obtain ⟨v0, n0, r0⟩ := offset_ok (T := T) (g := agcw) (ds := [(.K, k0, k1), (.J, j0, j1), (.I, i0, i1)]) (by simp) (by simp) (by omega)
      (by simp <;> omega) h_a
  obtain ⟨v1, n1, r1⟩ := offset_ok (T := T) (g := ugcw) (ds := [(.K, k0, k1), (.J, j0, j1), (.I, i0, i1)]) (by simp) (by simp) (by omega)
      (by simp <;> omega) h_u
  obtain ⟨v2, n2, r2⟩ := offset_ok (T := T) (g := rgcw) (ds := [(.K, k0, k1), (.J, j0, j1), (.I, i0, i1)]) (by simp) (by simp) (by omega)
      (by simp <;> omega) h_res
  obtain ⟨v3, n3, r3⟩ := vec_ok (T := T) (ds := [(.K, k0, k1), (.J, j0, j1), (.I, i0, i1 + 1)]) (by simp) (by simp) (by simp <;> omega) h_f0
  obtain ⟨v4, n4, r4⟩ := vec_ok (T := T) (ds := [(.I, i0, i1), (.K, k0, k1), (.J, j0, j1 + 1)]) (by simp) (by simp) (by simp <;> omega) h_f1
  obtain ⟨v5, n5, r5⟩ := vec_ok (T := T) (ds := [(.J, j0, j1), (.I, i0, i1), (.K, k0, k1 + 1)]) (by simp) (by simp) (by simp <;> omega) h_f2
  simp only [bounds, List.map_cons, List.map_nil] at n0 n1 n2 n3 n4 n5
  unfold Test.diffusionV1Apply3d
  simp only [mk_k, mk_j, mk_i, pl_i, pl_j, pl_k, n0, n1, n2, n3, n4, n5, M.ok_bind]
  refine compare_ok (L := [0, 1, 3, 2, 4, 5, 6]) ?_ rfl rfl
      (F.ren_celldiffusionv1apply3d (T := T) (perm_inv (L := [0, 1, 3, 2, 4, 5, 6]) (by decide))) ?_ (by decide)
  · simp [(r0.fill (xs := xa)).same, (r0.fill (xs := xa)).sync, (r1.fill (xs := xu)).same, (r1.fill (xs := xu)).sync, r2.same, r2.sync, (r3.fill (xs
        := xf0)).same, (r3.fill (xs := xf0)).sync, (r4.fill (xs := xf1)).same, (r4.fill (xs := xf1)).sync, (r5.fill (xs := xf2)).same, (r5.fill (xs
        := xf2)).sync]
  · refine C34_v1_apply_3d hβ hi hj hk hagcw hugcw hrgcw ⟨?_, ?_⟩
    · simp only [List.cons_append, List.nil_append, List.forall_mem_cons]
      refine ⟨arr_ok_of rfl (r0.fill (xs := xa)) h_a, arr_ok_of rfl (r1.fill (xs := xu)) h_u, arr_ok_of rfl (r3.fill (xs := xf0)) h_f0, arr_ok_of
          rfl (r4.fill (xs := xf1)) h_f1, arr_ok_of rfl (r5.fill (xs := xf2)) h_f2, arr_ok_of rfl r2 h_res, ?_⟩
      simp
    · simp only [List.forall_mem_cons]
      repeat' first | exact arr_apart (by decide) | refine ⟨?_, ?_⟩ | simp

example {rgcw ugcw agcw : Int} {alpha beta : ℚ} {dx xa xu xf0 xf1 xf2 : Nat → ℚ} {β : Nat → Backend} (hβ : ∀ n, ValidBackend (β n))
    (p_rgcw : 1 ≤ rgcw) (q_rgcw : rgcw ≤ 4) (p_ugcw : 2 ≤ ugcw) (q_ugcw : ugcw ≤ 5) (p_agcw : 1 ≤ agcw) (q_agcw : agcw ≤ 7) :
    Test.diffusionV1Apply3d 5 73 12 129 55 82 alpha beta dx agcw ugcw rgcw xa xu xf0 xf1 xf2 β = .ok true :=
  C103_v1_apply_3d hβ (by told) (by told) (by told) (by told) (by told) (by told) (by interval_cases agcw <;> exact fits_of (by decide))
      (by interval_cases ugcw <;> exact fits_of (by decide)) (by exact fits_of (by decide)) (by exact fits_of (by decide))
      (by exact fits_of (by decide)) (by interval_cases rgcw <;> exact fits_of (by decide))

/-- src/cd_apply_3d.t.cpp:343-412 -/
theorem C103_v2_apply_3d {i0 i1 j0 j1 k0 k1 : Int} {alpha beta : T} {dx : Nat → T} {ugcw rgcw : Int} {xu xf0 xf1 xf2 : Nat → T} {β : Nat → Backend}
    (hβ : ∀ n, ValidBackend (β n)) (hi : i0 ≤ i1) (hj : j0 ≤ j1) (hk : k0 ≤ k1) (hugcw : 0 ≤ ugcw) (hrgcw : 0 ≤ rgcw)
    (h_u : F.Fits (F.cell3d (at_ 0) i0 j0 k0 i1 j1 k1 ugcw).dims) (h_f0 : F.Fits (F.face3d0 (at_ 0) i0 j0 k0 i1 j1 k1 0).dims)
    (h_f1 : F.Fits (F.face3d1 (at_ 0) i0 j0 k0 i1 j1 k1 0).dims) (h_f2 : F.Fits (F.face3d2 (at_ 0) i0 j0 k0 i1 j1 k1 0).dims)
    (h_res : F.Fits (F.cell3d (at_ 0) i0 j0 k0 i1 j1 k1 rgcw).dims) : Test.diffusionV2Apply3d i0 i1 j0 j1 k0 k1 alpha beta dx ugcw rgcw xu xf0 xf1
    xf2 β = .ok true := by
  have I0 := h_u.int
  have I1 := h_f0.int
  have I2 := h_f1.int
  have I3 := h_f2.int
  have I4 := h_res.int
  simp only
      [F.cell3d, F.face3d0, F.face3d1, F.face3d2, List.mem_cons, List.not_mem_nil, or_false, forall_eq_or_imp, forall_eq, InInt] at I0 I1 I2 I3 I4
  have mk_k := mkB_ok (d := .K) (lo := k0) (hi := k1) (by unfold InInt; omega)
  have mk_j := mkB_ok (d := .J) (lo := j0) (hi := j1) (by unfold InInt; omega)
  have mk_i := mkB_ok (d := .I) (lo := i0) (hi := i1) (by unfold InInt; omega)
  have pl_i := plus_ok (d := .I) (b := ⟨i0, i1 + 1, 1⟩) (x := 1) (by omega) (by simp only [InInt]; omega)
  have pl_j := plus_ok (d := .J) (b := ⟨j0, j1 + 1, 1⟩) (x := 1) (by omega) (by simp only [InInt]; omega)
  have pl_k := plus_ok (d := .K) (b := ⟨k0, k1 + 1, 1⟩) (x := 1) (by omega) (by simp only [InInt]; omega)
  obtain ⟨v0, n0, r0⟩ := offset_ok (T := T) (g := ugcw) (ds := [(.K, k0, k1), (.J, j0, j1), (.I, i0, i1)]) (by simp) (by simp) (by omega)
      (by simp <;> omega) h_u
  obtain ⟨v1, n1, r1⟩ := offset_ok (T := T) (g := rgcw) (ds := [(.K, k0, k1), (.J, j0, j1), (.I, i0, i1)]) (by simp) (by simp) (by omega)
      (by simp <;> omega) h_res
  obtain ⟨v2, n2, r2⟩ := vec_ok (T := T) (ds := [(.K, k0, k1), (.J, j0, j1), (.I, i0, i1 + 1)]) (by simp) (by simp) (by simp <;> omega) h_f0
  obtain ⟨v3, n3, r3⟩ := vec_ok (T := T) (ds := [(.I, i0, i1), (.K, k0, k1), (.J, j0, j1 + 1)]) (by simp) (by simp) (by simp <;> omega) h_f1
  obtain ⟨v4, n4, r4⟩ := vec_ok (T := T) (ds := [(.J, j0, j1), (.I, i0, i1), (.K, k0, k1 + 1)]) (by simp) (by simp) (by simp <;> omega) h_f2
  simp only [bounds, List.map_cons, List.map_nil] at n0 n1 n2 n3 n4
  unfold Test.diffusionV2Apply3d
  simp only [mk_k, mk_j, mk_i, pl_i, pl_j, pl_k, n0, n1, n2, n3, n4, M.ok_bind]
  refine compare_ok (L := [0, 2, 1, 3, 4, 5]) ?_ rfl rfl (F.ren_celldiffusionv2apply3d (T := T) (perm_inv (L := [0, 2, 1, 3, 4, 5]) (by decide))) ?_
      (by decide)
  · simp [(r0.fill (xs := xu)).same, (r0.fill (xs := xu)).sync, r1.same, r1.sync, (r2.fill (xs := xf0)).same, (r2.fill (xs := xf0)).sync, (r3.fill
        (xs := xf1)).same, (r3.fill (xs := xf1)).sync, (r4.fill (xs := xf2)).same, (r4.fill (xs := xf2)).sync]
  · refine C34_v2_apply_3d hβ hi hj hk hugcw hrgcw ⟨?_, ?_⟩
    · simp only [List.cons_append, List.nil_append, List.forall_mem_cons]
      refine ⟨arr_ok_of rfl (r0.fill (xs := xu)) h_u, arr_ok_of rfl (r2.fill (xs := xf0)) h_f0, arr_ok_of rfl (r3.fill (xs := xf1)) h_f1, arr_ok_of
          rfl (r4.fill (xs := xf2)) h_f2, arr_ok_of rfl r1 h_res, ?_⟩
      simp
    · simp only [List.forall_mem_cons]
      repeat' first | exact arr_apart (by decide) | refine ⟨?_, ?_⟩ | simp

example {rgcw ugcw : Int} {alpha beta : ℚ} {dx xu xf0 xf1 xf2 : Nat → ℚ} {β : Nat → Backend} (hβ : ∀ n, ValidBackend (β n)) (p_rgcw : 1 ≤ rgcw)
    (q_rgcw : rgcw ≤ 4) (p_ugcw : 1 ≤ ugcw) (q_ugcw : ugcw ≤ 4) : Test.diffusionV2Apply3d 5 73 12 29 22 32 alpha beta dx ugcw rgcw xu xf0 xf1 xf2 β
    = .ok true :=
  C103_v2_apply_3d hβ (by told) (by told) (by told) (by told) (by told) (by interval_cases ugcw <;> exact fits_of (by decide))
      (by exact fits_of (by decide)) (by exact fits_of (by decide)) (by exact fits_of (by decide))
      (by interval_cases rgcw <;> exact fits_of (by decide))

/-- src/cd_apply_3d.t.cpp:414-473 -/
theorem C103_poisson_apply_3d {i0 i1 j0 j1 k0 k1 : Int} {beta : T} {dx : Nat → T} {rgcw : Int} {xf0 xf1 xf2 : Nat → T} {β : Nat → Backend}
    (hβ : ∀ n, ValidBackend (β n)) (hi : i0 ≤ i1) (hj : j0 ≤ j1) (hk : k0 ≤ k1) (hrgcw : 0 ≤ rgcw)
    (h_f0 : F.Fits (F.face3d0 (at_ 0) i0 j0 k0 i1 j1 k1 0).dims) (h_f1 : F.Fits (F.face3d1 (at_ 0) i0 j0 k0 i1 j1 k1 0).dims)
    (h_f2 : F.Fits (F.face3d2 (at_ 0) i0 j0 k0 i1 j1 k1 0).dims) (h_res : F.Fits (F.cell3d (at_ 0) i0 j0 k0 i1 j1 k1 rgcw).dims) :
    Test.poissonV2Apply3d i0 i1 j0 j1 k0 k1 beta dx rgcw xf0 xf1 xf2 β = .ok true := by
  have I0 := h_f0.int
  have I1 := h_f1.int
  have I2 := h_f2.int
  have I3 := h_res.int
  simp only
      [F.cell3d, F.face3d0, F.face3d1, F.face3d2, List.mem_cons, List.not_mem_nil, or_false, forall_eq_or_imp, forall_eq, InInt] at I0 I1 I2 I3
  have mk_k := mkB_ok (d := .K) (lo := k0) (hi := k1) (by unfold InInt; omega)
  have mk_j := mkB_ok (d := .J) (lo := j0) (hi := j1) (by unfold InInt; omega)
  have mk_i := mkB_ok (d := .I) (lo := i0) (hi := i1) (by unfold InInt; omega)
  have pl_i := plus_ok (d := .I) (b := ⟨i0, i1 + 1, 1⟩) (x := 1) (by omega) (by simp only [InInt]; omega)
  have pl_j := plus_ok (d := .J) (b := ⟨j0, j1 + 1, 1⟩) (x := 1) (by omega) (by simp only [InInt]; omega)
  have pl_k := plus_ok (d := .K) (b := ⟨k0, k1 + 1, 1⟩) (x := 1) (by omega) (by simp only [InInt]; omega)
  obtain ⟨v0, n0, r0⟩ := offset_ok (T := T) (g := rgcw) (ds := [(.K, k0, k1), (.J, j0, j1), (.I, i0, i1)]) (by simp) (by simp) (by omega)
      (by simp <;> omega) h_res
  obtain ⟨v1, n1, r1⟩ := vec_ok (T := T) (ds := [(.K, k0, k1), (.J, j0, j1), (.I, i0, i1 + 1)]) (by simp) (by simp) (by simp <;> omega) h_f0
  obtain ⟨v2, n2, r2⟩ := vec_ok (T := T) (ds := [(.I, i0, i1), (.K, k0, k1), (.J, j0, j1 + 1)]) (by simp) (by simp) (by simp <;> omega) h_f1
  obtain ⟨v3, n3, r3⟩ := vec_ok (T := T) (ds := [(.J, j0, j1), (.I, i0, i1), (.K, k0, k1 + 1)]) (by simp) (by simp) (by simp <;> omega) h_f2
  simp only [bounds, List.map_cons, List.map_nil] at n0 n1 n2 n3
  unfold Test.poissonV2Apply3d
  simp only [mk_k, mk_j, mk_i, pl_i, pl_j, pl_k, n0, n1, n2, n3, M.ok_bind]
  refine compare_ok (L := [1, 0, 2, 3, 4]) ?_ rfl rfl (F.ren_cellpoissonv2apply3d (T := T) (perm_inv (L := [1, 0, 2, 3, 4]) (by decide))) ?_
      (by decide)
  · simp [r0.same, r0.sync, (r1.fill (xs := xf0)).same, (r1.fill (xs := xf0)).sync, (r2.fill (xs := xf1)).same, (r2.fill (xs := xf1)).sync, (r3.fill
        (xs := xf2)).same, (r3.fill (xs := xf2)).sync]
  · refine C34_poisson_apply_3d hβ hi hj hk hrgcw ⟨?_, ?_⟩
    · simp only [List.cons_append, List.nil_append, List.forall_mem_cons]
      refine ⟨arr_ok_of rfl (r1.fill (xs := xf0)) h_f0, arr_ok_of rfl (r2.fill (xs := xf1)) h_f1, arr_ok_of rfl (r3.fill (xs := xf2)) h_f2,
          arr_ok_of rfl r0 h_res, ?_⟩
      simp
    · simp only [List.forall_mem_cons]
      repeat' first | exact arr_apart (by decide) | refine ⟨?_, ?_⟩ | simp

example {beta : ℚ} {dx xf0 xf1 xf2 : Nat → ℚ} {β : Nat → Backend} (hβ : ∀ n, ValidBackend (β n))  : Test.poissonV2Apply3d 35 47 12 92 45 111 beta dx
    2 xf0 xf1 xf2 β = .ok true :=
  C103_poisson_apply_3d hβ (by told) (by told) (by told) (by told) (by exact fits_of (by decide)) (by exact fits_of (by decide))
      (by exact fits_of (by decide)) (by exact fits_of (by decide))

end Verif
