import Verif.Lemmas.Driver
import Verif.Lemmas.CoarseFineRename
import Verif.Model.Tests.CoarseFine
import Verif.Props.CoarseFine
import Mathlib.Tactic.IntervalCases
import Mathlib.Algebra.Order.Ring.Rat

/-
C106: the coarse to fine tests pass, whatever numbers they pick.  Each example has the numbers of the test case; what the test picks or generates is a variable
in the range the test takes it from.
-/

namespace Verif

open Spec Test

variable {T : Type} [Field T] [DecidableEq T]

/-- src/coarse_to_fine.t.cpp:39-139 -/
theorem C106_copy_x {ci0 ci1 cj0 cj1 ck0 ck1 fi0 fi1 fj0 fj1 fk0 fk1 cbi0 cbi1 cbj0 cbj1 cbk0 cbk1 fbi0 fbi1 fbj0 fbj1 fbk0 fbk1 gcw : Int}
    {r : Nat → Int} {xcd xfd : Nat → T} {β : Nat → Backend} (hβ : ∀ n, ValidBackend (β n)) (hr : 1 ≤ r 0) (hl : fi0 ≤ fi1)
    (hcb : cbi0 ≤ cbi1 ∧ cbj0 ≤ cbj1 ∧ cbk0 ≤ cbk1) (hfb : fbi0 ≤ fbi1 ∧ fbj0 ≤ fbj1 ∧ fbk0 ≤ fbk1) (hg : 0 ≤ gcw)
    (hfine : fbi0 - gcw ≤ fi0 ∧ fi1 ≤ fbi1 + gcw ∧ fbk0 - gcw ≤ fk0 ∧ fk0 ≤ fbk1 + gcw ∧ fbj0 - gcw ≤ fj0 ∧ fj0 ≤ fbj1 + gcw)
    (hcoarse : cbi0 - gcw ≤ fi0 / r 0 ∧ fi1 / r 0 ≤ cbi1 + gcw ∧ cbk0 - gcw ≤ ck0 ∧ ck0 ≤ cbk1 + gcw ∧ cbj0 - gcw ≤ cj0 ∧ cj0 ≤ cbj1 + gcw) (hint :
    InInt (ci0 + 1) ∧ InInt (fi0 + 1) ∧ InInt (fi1 + 1) ∧ InInt (cj0 + 1) ∧ InInt (fj0 + 1) ∧ InInt (fj1 + 1) ∧ InInt (ck0 + 1) ∧ InInt (fk0 + 1) ∧
    InInt (fk1 + 1)) (h_cd : F.Fits (F.cell3d (at_ 0) cbi0 cbj0 cbk0 cbi1 cbj1 cbk1 gcw).dims)
    (h_fd : F.Fits (F.cell3d (at_ 0) fbi0 fbj0 fbk0 fbi1 fbj1 fbk1 gcw).dims) : Test.c2fCopy ci0 ci1 cj0 cj1 ck0 ck1 fi0 fi1 fj0 fj1 fk0 fk1 0
    cbi0 cbi1 cbj0 cbj1 cbk0 cbk1 fbi0 fbi1 fbj0 fbj1 fbk0 fbk1 gcw r xcd xfd β = .ok true := by
  have I0 := h_cd.int
  have I1 := h_fd.int
  simp only [F.cell3d, List.mem_cons, List.not_mem_nil, or_false, forall_eq_or_imp, forall_eq, InInt] at I0 I1
  have mk_k := mkB_ok (d := .K) (lo := cbk0) (hi := cbk1) (by unfold InInt; omega)
  have mk_j := mkB_ok (d := .J) (lo := cbj0) (hi := cbj1) (by unfold InInt; omega)
  have mk_i := mkB_ok (d := .I) (lo := cbi0) (hi := cbi1) (by unfold InInt; omega)
  have mk_k2 := mkB_ok (d := .K) (lo := fbk0) (hi := fbk1) (by unfold InInt; omega)
  have mk_j2 := mkB_ok (d := .J) (lo := fbj0) (hi := fbj1) (by unfold InInt; omega)
  have mk_i2 := mkB_ok (d := .I) (lo := fbi0) (hi := fbi1) (by unfold InInt; omega)
  obtain ⟨v0, n0, r0⟩ := offset_ok (T := T) (g := gcw) (ds := [(.K, cbk0, cbk1), (.J, cbj0, cbj1), (.I, cbi0, cbi1)]) (by simp) (by simp) (by omega)
      (by simp <;> omega) h_cd
  obtain ⟨v1, n1, r1⟩ := offset_ok (T := T) (g := gcw) (ds := [(.K, fbk0, fbk1), (.J, fbj0, fbj1), (.I, fbi0, fbi1)]) (by simp) (by simp) (by omega)
      (by simp <;> omega) h_fd
  simp only [bounds, List.map_cons, List.map_nil] at n0 n1
  unfold Test.c2fCopy
  simp only [mk_k, mk_j, mk_i, mk_k2, mk_j2, mk_i2, n0, n1, (r1.fill (xs := xfd)).copy, (r1.fill (xs := xfd)).host, M.ok_bind]
  refine compare_ok (L := [0, 2, 1]) ?_ rfl rfl (F.ren_copycoarsetofine3d (T := T) (perm_inv (L := [0, 2, 1]) (by decide))) ?_ (by decide)
  · simp [(r0.fill (xs := xcd)).same, (r0.fill (xs := xcd)).sync, (r1.fill (xs := xfd)).same, (r1.fill (xs := xfd)).sync]
  · refine C37_copy_x hβ hr hl hcb hfb hg hfine hcoarse hint ⟨?_, ?_⟩
    · simp only [List.cons_append, List.nil_append, List.forall_mem_cons]
      refine ⟨arr_ok_of rfl (r0.fill (xs := xcd)) h_cd, arr_ok_of rfl (r1.fill (xs := xfd)) h_fd, ?_⟩
      simp
    · simp only [List.forall_mem_cons]
      repeat' first | exact arr_apart (by decide) | refine ⟨?_, ?_⟩ | simp

example {cs gcw : Int} {r : Nat → Int} {xcd xfd : Nat → ℚ} {β : Nat → Backend} (hβ : ∀ n, ValidBackend (β n)) (hr : r 0 = 2 ∧ r 1 = 3 ∧ r 2 = 4)
    (p_cs : 1 ≤ cs) (q_cs : cs ≤ 3) (p_gcw : 2 ≤ gcw) (q_gcw : gcw ≤ 3) :
    Test.c2fCopy (10 + cs) (30 - cs) (20 + cs) (41 - cs) (30 + cs) (52 - cs) (2 * (10 + cs)) (2 * (30 - cs)) (3 * (20 + cs)) (3 * (41 - cs))
      (4 * (30 + cs)) (4 * (52 - cs)) 0 10 30 20 41 30 52 20 60 60 123 120 208 gcw r xcd xfd β = .ok true :=
  C106_copy_x hβ (by omega) (by omega) (by omega) (by omega) (by omega) (by omega) (by rw [hr.1]; omega) (by simp only [InInt]; omega)
    (by interval_cases gcw <;> exact fits_of (by decide)) (by interval_cases gcw <;> exact fits_of (by decide))

/-- src/coarse_to_fine.t.cpp:39-139 -/
theorem C106_copy_y {ci0 ci1 cj0 cj1 ck0 ck1 fi0 fi1 fj0 fj1 fk0 fk1 cbi0 cbi1 cbj0 cbj1 cbk0 cbk1 fbi0 fbi1 fbj0 fbj1 fbk0 fbk1 gcw : Int}
    {r : Nat → Int} {xcd xfd : Nat → T} {β : Nat → Backend} (hβ : ∀ n, ValidBackend (β n)) (hr : 1 ≤ r 1) (hl : fj0 ≤ fj1)
    (hcb : cbi0 ≤ cbi1 ∧ cbj0 ≤ cbj1 ∧ cbk0 ≤ cbk1) (hfb : fbi0 ≤ fbi1 ∧ fbj0 ≤ fbj1 ∧ fbk0 ≤ fbk1) (hg : 0 ≤ gcw)
    (hfine : fbj0 - gcw ≤ fj0 ∧ fj1 ≤ fbj1 + gcw ∧ fbk0 - gcw ≤ fk0 ∧ fk0 ≤ fbk1 + gcw ∧ fbi0 - gcw ≤ fi0 ∧ fi0 ≤ fbi1 + gcw)
    (hcoarse : cbj0 - gcw ≤ fj0 / r 1 ∧ fj1 / r 1 ≤ cbj1 + gcw ∧ cbk0 - gcw ≤ ck0 ∧ ck0 ≤ cbk1 + gcw ∧ cbi0 - gcw ≤ ci0 ∧ ci0 ≤ cbi1 + gcw) (hint :
    InInt (ci0 + 1) ∧ InInt (fi0 + 1) ∧ InInt (fi1 + 1) ∧ InInt (cj0 + 1) ∧ InInt (fj0 + 1) ∧ InInt (fj1 + 1) ∧ InInt (ck0 + 1) ∧ InInt (fk0 + 1) ∧
    InInt (fk1 + 1)) (h_cd : F.Fits (F.cell3d (at_ 0) cbi0 cbj0 cbk0 cbi1 cbj1 cbk1 gcw).dims)
    (h_fd : F.Fits (F.cell3d (at_ 0) fbi0 fbj0 fbk0 fbi1 fbj1 fbk1 gcw).dims) : Test.c2fCopy ci0 ci1 cj0 cj1 ck0 ck1 fi0 fi1 fj0 fj1 fk0 fk1 1
    cbi0 cbi1 cbj0 cbj1 cbk0 cbk1 fbi0 fbi1 fbj0 fbj1 fbk0 fbk1 gcw r xcd xfd β = .ok true := by
  have I0 := h_cd.int
  have I1 := h_fd.int
  simp only [F.cell3d, List.mem_cons, List.not_mem_nil, or_false, forall_eq_or_imp, forall_eq, InInt] at I0 I1
  have mk_k := mkB_ok (d := .K) (lo := cbk0) (hi := cbk1) (by unfold InInt; omega)
  have mk_j := mkB_ok (d := .J) (lo := cbj0) (hi := cbj1) (by unfold InInt; omega)
  have mk_i := mkB_ok (d := .I) (lo := cbi0) (hi := cbi1) (by unfold InInt; omega)
  have mk_k2 := mkB_ok (d := .K) (lo := fbk0) (hi := fbk1) (by unfold InInt; omega)
  have mk_j2 := mkB_ok (d := .J) (lo := fbj0) (hi := fbj1) (by unfold InInt; omega)
  have mk_i2 := mkB_ok (d := .I) (lo := fbi0) (hi := fbi1) (by unfold InInt; omega)
  obtain ⟨v0, n0, r0⟩ := offset_ok (T := T) (g := gcw) (ds := [(.K, cbk0, cbk1), (.J, cbj0, cbj1), (.I, cbi0, cbi1)]) (by simp) (by simp) (by omega)
      (by simp <;> omega) h_cd
  obtain ⟨v1, n1, r1⟩ := offset_ok (T := T) (g := gcw) (ds := [(.K, fbk0, fbk1), (.J, fbj0, fbj1), (.I, fbi0, fbi1)]) (by simp) (by simp) (by omega)
      (by simp <;> omega) h_fd
  simp only [bounds, List.map_cons, List.map_nil] at n0 n1
  unfold Test.c2fCopy
  simp only [mk_k, mk_j, mk_i, mk_k2, mk_j2, mk_i2, n0, n1, (r1.fill (xs := xfd)).copy, (r1.fill (xs := xfd)).host, M.ok_bind]
  refine compare_ok (L := [0, 2, 1]) ?_ rfl rfl (F.ren_copycoarsetofine3d (T := T) (perm_inv (L := [0, 2, 1]) (by decide))) ?_ (by decide)
  · simp [(r0.fill (xs := xcd)).same, (r0.fill (xs := xcd)).sync, (r1.fill (xs := xfd)).same, (r1.fill (xs := xfd)).sync]
  · refine C37_copy_y hβ hr hl hcb hfb hg hfine hcoarse hint ⟨?_, ?_⟩
    · simp only [List.cons_append, List.nil_append, List.forall_mem_cons]
      refine ⟨arr_ok_of rfl (r0.fill (xs := xcd)) h_cd, arr_ok_of rfl (r1.fill (xs := xfd)) h_fd, ?_⟩
      simp
    · simp only [List.forall_mem_cons]
      repeat' first | exact arr_apart (by decide) | refine ⟨?_, ?_⟩ | simp

example {cs gcw : Int} {r : Nat → Int} {xcd xfd : Nat → ℚ} {β : Nat → Backend} (hβ : ∀ n, ValidBackend (β n)) (hr : r 0 = 2 ∧ r 1 = 3 ∧ r 2 = 4)
    (p_cs : 1 ≤ cs) (q_cs : cs ≤ 3) (p_gcw : 2 ≤ gcw) (q_gcw : gcw ≤ 3) :
    Test.c2fCopy (10 + cs) (30 - cs) (20 + cs) (41 - cs) (30 + cs) (52 - cs) (2 * (10 + cs)) (2 * (30 - cs)) (3 * (20 + cs)) (3 * (41 - cs))
      (4 * (30 + cs)) (4 * (52 - cs)) 1 10 30 20 41 30 52 20 60 60 123 120 208 gcw r xcd xfd β = .ok true :=
  C106_copy_y hβ (by omega) (by omega) (by omega) (by omega) (by omega) (by omega) (by rw [hr.2.1]; omega) (by simp only [InInt]; omega)
    (by interval_cases gcw <;> exact fits_of (by decide)) (by interval_cases gcw <;> exact fits_of (by decide))

/-- src/coarse_to_fine.t.cpp:39-139 -/
theorem C106_copy_z {ci0 ci1 cj0 cj1 ck0 ck1 fi0 fi1 fj0 fj1 fk0 fk1 cbi0 cbi1 cbj0 cbj1 cbk0 cbk1 fbi0 fbi1 fbj0 fbj1 fbk0 fbk1 gcw : Int}
    {r : Nat → Int} {xcd xfd : Nat → T} {β : Nat → Backend} (hβ : ∀ n, ValidBackend (β n)) (hr : 1 ≤ r 2) (hl : fk0 ≤ fk1)
    (hcb : cbi0 ≤ cbi1 ∧ cbj0 ≤ cbj1 ∧ cbk0 ≤ cbk1) (hfb : fbi0 ≤ fbi1 ∧ fbj0 ≤ fbj1 ∧ fbk0 ≤ fbk1) (hg : 0 ≤ gcw)
    (hfine : fbk0 - gcw ≤ fk0 ∧ fk1 ≤ fbk1 + gcw ∧ fbj0 - gcw ≤ fj0 ∧ fj0 ≤ fbj1 + gcw ∧ fbi0 - gcw ≤ fi0 ∧ fi0 ≤ fbi1 + gcw)
    (hcoarse : cbk0 - gcw ≤ fk0 / r 2 ∧ fk1 / r 2 ≤ cbk1 + gcw ∧ cbj0 - gcw ≤ cj0 ∧ cj0 ≤ cbj1 + gcw ∧ cbi0 - gcw ≤ ci0 ∧ ci0 ≤ cbi1 + gcw) (hint :
    InInt (ci0 + 1) ∧ InInt (fi0 + 1) ∧ InInt (fi1 + 1) ∧ InInt (cj0 + 1) ∧ InInt (fj0 + 1) ∧ InInt (fj1 + 1) ∧ InInt (ck0 + 1) ∧ InInt (fk0 + 1) ∧
    InInt (fk1 + 1)) (h_cd : F.Fits (F.cell3d (at_ 0) cbi0 cbj0 cbk0 cbi1 cbj1 cbk1 gcw).dims)
    (h_fd : F.Fits (F.cell3d (at_ 0) fbi0 fbj0 fbk0 fbi1 fbj1 fbk1 gcw).dims) : Test.c2fCopy ci0 ci1 cj0 cj1 ck0 ck1 fi0 fi1 fj0 fj1 fk0 fk1 2
    cbi0 cbi1 cbj0 cbj1 cbk0 cbk1 fbi0 fbi1 fbj0 fbj1 fbk0 fbk1 gcw r xcd xfd β = .ok true := by
  have I0 := h_cd.int
  have I1 := h_fd.int
  simp only [F.cell3d, List.mem_cons, List.not_mem_nil, or_false, forall_eq_or_imp, forall_eq, InInt] at I0 I1
  have mk_k := mkB_ok (d := .K) (lo := cbk0) (hi := cbk1) (by unfold InInt; omega)
  have mk_j := mkB_ok (d := .J) (lo := cbj0) (hi := cbj1) (by unfold InInt; omega)
  have mk_i := mkB_ok (d := .I) (lo := cbi0) (hi := cbi1) (by unfold InInt; omega)
  have mk_k2 := mkB_ok (d := .K) (lo := fbk0) (hi := fbk1) (by unfold InInt; omega)
  have mk_j2 := mkB_ok (d := .J) (lo := fbj0) (hi := fbj1) (by unfold InInt; omega)
  have mk_i2 := mkB_ok (d := .I) (lo := fbi0) (hi := fbi1) (by unfold InInt; omega)
  obtain ⟨v0, n0, r0⟩ := offset_ok (T := T) (g := gcw) (ds := [(.K, cbk0, cbk1), (.J, cbj0, cbj1), (.I, cbi0, cbi1)]) (by simp) (by simp) (by omega)
      (by simp <;> omega) h_cd
  obtain ⟨v1, n1, r1⟩ := offset_ok (T := T) (g := gcw) (ds := [(.K, fbk0, fbk1), (.J, fbj0, fbj1), (.I, fbi0, fbi1)]) (by simp) (by simp) (by omega)
      (by simp <;> omega) h_fd
  simp only [bounds, List.map_cons, List.map_nil] at n0 n1
  unfold Test.c2fCopy
  simp only [mk_k, mk_j, mk_i, mk_k2, mk_j2, mk_i2, n0, n1, (r1.fill (xs := xfd)).copy, (r1.fill (xs := xfd)).host, M.ok_bind]
  refine compare_ok (L := [0, 2, 1]) ?_ rfl rfl (F.ren_copycoarsetofine3d (T := T) (perm_inv (L := [0, 2, 1]) (by decide))) ?_ (by decide)
  · simp [(r0.fill (xs := xcd)).same, (r0.fill (xs := xcd)).sync, (r1.fill (xs := xfd)).same, (r1.fill (xs := xfd)).sync]
  · refine C37_copy_z hβ hr hl hcb hfb hg hfine hcoarse hint ⟨?_, ?_⟩
    · simp only [List.cons_append, List.nil_append, List.forall_mem_cons]
      refine ⟨arr_ok_of rfl (r0.fill (xs := xcd)) h_cd, arr_ok_of rfl (r1.fill (xs := xfd)) h_fd, ?_⟩
      simp
    · simp only [List.forall_mem_cons]
      repeat' first | exact arr_apart (by decide) | refine ⟨?_, ?_⟩ | simp

example {cs gcw : Int} {r : Nat → Int} {xcd xfd : Nat → ℚ} {β : Nat → Backend} (hβ : ∀ n, ValidBackend (β n)) (hr : r 0 = 2 ∧ r 1 = 3 ∧ r 2 = 4)
    (p_cs : 1 ≤ cs) (q_cs : cs ≤ 3) (p_gcw : 2 ≤ gcw) (q_gcw : gcw ≤ 3) :
    Test.c2fCopy (10 + cs) (30 - cs) (20 + cs) (41 - cs) (30 + cs) (52 - cs) (2 * (10 + cs)) (2 * (30 - cs)) (3 * (20 + cs)) (3 * (41 - cs))
      (4 * (30 + cs)) (4 * (52 - cs)) 2 10 30 20 41 30 52 20 60 60 123 120 208 gcw r xcd xfd β = .ok true :=
  C106_copy_z hβ (by omega) (by omega) (by omega) (by omega) (by omega) (by omega) (by rw [hr.2.2]; omega) (by simp only [InInt]; omega)
    (by interval_cases gcw <;> exact fits_of (by decide)) (by interval_cases gcw <;> exact fits_of (by decide))

/-- src/coarse_to_fine.t.cpp:141-234 -/
theorem C106_corner {ci0 ci1 cj0 cj1 ck0 ck1 fi0 fi1 fj0 fj1 fk0 fk1 cbi0 cbi1 cbj0 cbj1 cbk0 cbk1 fbi0 fbi1 fbj0 fbj1 fbk0 fbk1 gcw : Int}
    {xcd xfd : Nat → T} (hcb : cbi0 ≤ cbi1 ∧ cbj0 ≤ cbj1 ∧ cbk0 ≤ cbk1) (hfb : fbi0 ≤ fbi1 ∧ fbj0 ≤ fbj1 ∧ fbk0 ≤ fbk1) (hg : 0 ≤ gcw)
    (hfine : fbi0 - gcw ≤ fi0 ∧ fi0 ≤ fbi1 + gcw ∧ fbj0 - gcw ≤ fj0 ∧ fj0 ≤ fbj1 + gcw ∧ fbk0 - gcw ≤ fk0 ∧ fk0 ≤ fbk1 + gcw)
    (hcoarse : cbi0 - gcw ≤ ci0 ∧ ci0 ≤ cbi1 + gcw ∧ cbj0 - gcw ≤ cj0 ∧ cj0 ≤ cbj1 + gcw ∧ cbk0 - gcw ≤ ck0 ∧ ck0 ≤ cbk1 + gcw)
    (h_cd : F.Fits (F.cell3d (at_ 0) cbi0 cbj0 cbk0 cbi1 cbj1 cbk1 gcw).dims)
    (h_fd : F.Fits (F.cell3d (at_ 0) fbi0 fbj0 fbk0 fbi1 fbj1 fbk1 gcw).dims) : Test.c2fCorner ci0 ci1 cj0 cj1 ck0 ck1 fi0 fi1 fj0 fj1 fk0 fk1 cbi0
    cbi1 cbj0 cbj1 cbk0 cbk1 fbi0 fbi1 fbj0 fbj1 fbk0 fbk1 gcw xcd xfd = .ok true := by
  have I0 := h_cd.int
  have I1 := h_fd.int
  simp only [F.cell3d, List.mem_cons, List.not_mem_nil, or_false, forall_eq_or_imp, forall_eq, InInt] at I0 I1
  have mk_k := mkB_ok (d := .K) (lo := cbk0) (hi := cbk1) (by unfold InInt; omega)
  have mk_j := mkB_ok (d := .J) (lo := cbj0) (hi := cbj1) (by unfold InInt; omega)
  have mk_i := mkB_ok (d := .I) (lo := cbi0) (hi := cbi1) (by unfold InInt; omega)
  have mk_k2 := mkB_ok (d := .K) (lo := fbk0) (hi := fbk1) (by unfold InInt; omega)
  have mk_j2 := mkB_ok (d := .J) (lo := fbj0) (hi := fbj1) (by unfold InInt; omega)
  have mk_i2 := mkB_ok (d := .I) (lo := fbi0) (hi := fbi1) (by unfold InInt; omega)
  obtain ⟨v0, n0, r0⟩ := offset_ok (T := T) (g := gcw) (ds := [(.K, cbk0, cbk1), (.J, cbj0, cbj1), (.I, cbi0, cbi1)]) (by simp) (by simp) (by omega)
      (by simp <;> omega) h_cd
  obtain ⟨v1, n1, r1⟩ := offset_ok (T := T) (g := gcw) (ds := [(.K, fbk0, fbk1), (.J, fbj0, fbj1), (.I, fbi0, fbi1)]) (by simp) (by simp) (by omega)
      (by simp <;> omega) h_fd
  simp only [bounds, List.map_cons, List.map_nil] at n0 n1
  unfold Test.c2fCorner
  simp only [mk_k, mk_j, mk_i, mk_k2, mk_j2, mk_i2, n0, n1, (r1.fill (xs := xfd)).copy, (r1.fill (xs := xfd)).host, M.ok_bind]
  refine compare_ok (L := [0, 2, 1]) ?_ rfl rfl (F.ren_copycoarsetofinecorner3d (T := T) (perm_inv (L := [0, 2, 1]) (by decide))) ?_ (by decide)
  · simp [(r0.fill (xs := xcd)).same, (r0.fill (xs := xcd)).sync, (r1.fill (xs := xfd)).same, (r1.fill (xs := xfd)).sync]
  · refine C37_corner hcb hfb hg hfine hcoarse ⟨?_, ?_⟩
    · simp only [List.cons_append, List.nil_append, List.forall_mem_cons]
      refine ⟨arr_ok_of rfl (r0.fill (xs := xcd)) h_cd, arr_ok_of rfl (r1.fill (xs := xfd)) h_fd, ?_⟩
      simp
    · simp only [List.forall_mem_cons]
      repeat' first | exact arr_apart (by decide) | refine ⟨?_, ?_⟩ | simp

example {r cs gcw : Int} {xcd xfd : Nat → ℚ} (hr : r = 2 ∨ r = 3 ∨ r = 4) (p_cs : 1 ≤ cs) (q_cs : cs ≤ 3) (p_gcw : 2 ≤ gcw) (q_gcw : gcw ≤ 3) :
    Test.c2fCorner (10 + cs) (30 - cs) (20 + cs) (41 - cs) (30 + cs) (52 - cs) (r * (10 + cs)) (r * (30 - cs)) (r * (20 + cs)) (r * (41 - cs))
      (r * (30 + cs)) (r * (52 - cs)) 10 30 20 41 30 52 (r * 10) (r * 30) (r * 20) (r * 41) (r * 30) (r * 52) gcw xcd xfd = .ok true := by
  rcases hr with rfl | rfl | rfl
  all_goals
    exact C106_corner (by omega) (by omega) (by omega) (by omega) (by omega)
      (by interval_cases gcw <;> exact fits_of (by decide)) (by interval_cases gcw <;> exact fits_of (by decide))

end Verif
