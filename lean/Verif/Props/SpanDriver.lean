import Verif.Lemmas.Host
import Verif.Model.Tests.Span
import Verif.Props.SpanTest
import Mathlib.Tactic.IntervalCases
import Mathlib.Algebra.Order.Ring.Rat

/-
C112: the span tests pass, whatever numbers they pick.  Each example has the numbers of the test case; what the test picks or generates is a variable in
the range the test takes it from.
-/

namespace Verif

open Spec Test

variable {T : Type} [Field T] [DecidableEq T]

theorem fits_small {l0 u0 l1 u1 l2 u2 : Int} (h : -100 ≤ l0 ∧ l0 ≤ u0 ∧ u0 ≤ 100 ∧ -100 ≤ l1 ∧ l1 ≤ u1 ∧ u1 ≤ 100 ∧ -100 ≤ l2 ∧ l2 ≤ u2 ∧ u2 ≤ 100) :
    F.Fits [(l0, u0), (l1, u1), (l2, u2)] := by
  constructor
  · simp only [List.map_cons, List.map_nil, List.prod_cons, List.prod_nil, mul_one]
    have h1 : (u1 - l1 + 1) * (u2 - l2 + 1) ≤ 201 * 201 := mul_le_mul (by omega) (by omega) (by omega) (by omega)
    have h2 : (u0 - l0 + 1) * ((u1 - l1 + 1) * (u2 - l2 + 1)) ≤ 201 * (201 * 201) := mul_le_mul (by omega) h1 (mul_nonneg (by omega) (by omega)) (by omega)
    omega
  · simp only [List.mem_cons, List.not_mem_nil, or_false, forall_eq_or_imp, forall_eq, InInt]
    omega

/-- src/md_device_span.t.cpp:74-109 -/
theorem C112_stride_1d {i0 i1 s : Int} {beta : T} {dx : Nat → T} {ugcw rgcw : Int} {xu : Nat → T} {β : Nat → Backend} (hβ : ∀ n, ValidBackend (β n))
    (hi : i0 ≤ i1) (hs : 1 ≤ s) (hfit : i1 - i0 + s ≤ 2147483647) (hend : i1 + s ≤ 2147483647) (hu : 0 ≤ ugcw) (hr : 0 ≤ rgcw)
    (h_u : F.Fits (F.cell1d (at_ 0) i0 i1 ugcw).dims) (h_r : F.Fits (F.cell1d (at_ 1) i0 i1 rgcw).dims) :
    Test.spanStride1d i0 i1 s beta dx ugcw rgcw xu β = .ok true := by
  have I0 := h_u.int
  have I1 := h_r.int
  have F0 := h_u.fits
  have F1 := h_r.fits
  simp only [F.cell1d, List.mem_cons, List.not_mem_nil, or_false, forall_eq, InInt, List.map_cons, List.map_nil, List.prod_cons, List.prod_nil, mul_one] at I0 I1 F0 F1
  have mk_i := mkB_ok (d := .I) (lo := i0) (hi := i1) (by unfold InInt; omega)
  obtain ⟨v0, n0, r0⟩ := offset_ok (T := T) (g := ugcw) (ds := [(.I, i0, i1)]) (by simp) (by simp) (by omega) (by simp; omega) h_u
  obtain ⟨v1, n1, r1⟩ := offset_ok (T := T) (g := rgcw) (ds := [(.I, i0, i1)]) (by simp) (by simp) (by omega) (by simp; omega) h_r
  have z1 := made_zero n1
  simp only [bounds, List.map_cons, List.map_nil] at n0 n1
  have A0 : F.ArrOK (devMem [v0.fill xu, v1]) (F.cell1d (at_ 0) i0 i1 ugcw) := arr_ok_of rfl (r0.fill (xs := xu)) h_u
  have A1 : F.ArrOK (devMem [v0.fill xu, v1]) (F.cell1d (at_ 1) i0 i1 rgcw) := arr_ok_of rfl r1 h_r
  obtain ⟨m', run, sets⟩ := C95_stride_1d (beta := beta) (dx := dx) (m := devMem [v0.fill xu, v1]) hβ hi hs hfit hu hr ⟨by
    simp only [List.cons_append, List.nil_append, List.forall_mem_cons]
    exact ⟨A0, A1, by simp⟩, by simpa [F.cell1d] using arr_apart (by decide)⟩
  have R := ran r1 z1 rfl sets
  unfold Test.spanStride1d Test.spanStride1dOf
  simp only [mk_i, n0, n1, M.ok_bind]
  rw [onDevice_two run]
  simp only [M.ok_bind, zeros_after, hostOf_after, std_after, R.read]
  rw [settled (K := fun q => ∃ i, F.OnStride i0 i1 s i ∧ q = i - (i0 - rgcw)) (settles_for hs hend (by omega) ?_) R.len.symm ?_]
  · simp
  · intro i oi
    have P : ∃ j, [i] = [j] ∧ F.OnStride i0 i1 s j := ⟨i, rfl, oi⟩
    obtain ⟨o1, o2, -⟩ := oi
    have C : i - (i0 - rgcw) = F.colMajor (shape rgcw [(.I, i0, i1)]) [i] := by simp [shape, F.colMajor]
    refine settles_by (x := beta * F.rd (devMem [v0.fill xu, v1]) (F.cell1d (at_ 0) i0 i1 ugcw) [i]) (fun l => ?_) (by omega) (by rw [C]; exact R.at_ _ P)
    rw [isub_ok (by unfold InInt; omega), M.ok_bind, isub_ok (by unfold InInt; omega), M.ok_bind]
    rw [isub_ok (by unfold InInt; omega), M.ok_bind, isub_ok (by unfold InInt; omega), M.ok_bind]
    rw [vget_rd rfl A0 (is := [i]) (F.inBounds1.2 ⟨i, rfl, by omega⟩) (by simp [F.colMajor]), M.ok_bind]
    rfl
  · intro q hq hk
    refine R.rest q (by rw [← R.len]; exact hq) ?_
    rintro is ⟨i, rfl, oi⟩ hb e
    exact hk ⟨i, oi, by rw [e]; simp [shape, F.colMajor]⟩

example {beta : ℚ} {dx xu : Nat → ℚ} {ugcw rgcw : Int} {β : Nat → Backend} (hβ : ∀ n, ValidBackend (β n)) (h1 : 1 ≤ ugcw) (h2 : ugcw ≤ 3) (h3 : ugcw ≤ rgcw)
    (h4 : rgcw ≤ 2 * ugcw) : Test.spanStride1d 3 8 2 beta dx ugcw rgcw xu β = .ok true :=
  C112_stride_1d hβ (by told) (by told) (by told) (by told) (by told) (by told) (fits_of (by interval_cases ugcw <;> decide))
    (fits_of (by have : rgcw ≤ 6 := by omega
                 have : 1 ≤ rgcw := by omega
                 interval_cases rgcw <;> decide))

/-- src/md_device_span.t.cpp:35-72 -/
theorem C112_init_1d {i0 i1 : Int} {beta : T} {dx : Nat → T} {ugcw rgcw : Int} {xu : Nat → T} {β : Nat → Backend} (hβ : ∀ n, ValidBackend (β n))
    (hi : i0 ≤ i1) (hu : 1 ≤ ugcw) (hr : 0 ≤ rgcw) (h_u : F.Fits (F.cell1d (at_ 0) i0 i1 ugcw).dims) (h_r : F.Fits (F.cell1d (at_ 1) i0 i1 rgcw).dims) :
    Test.spanInit1d i0 i1 beta dx ugcw rgcw xu β = .ok true := by
  have I0 := h_u.int
  have I1 := h_r.int
  have F0 := h_u.fits
  have F1 := h_r.fits
  simp only [F.cell1d, List.mem_cons, List.not_mem_nil, or_false, forall_eq, InInt, List.map_cons, List.map_nil, List.prod_cons, List.prod_nil, mul_one] at I0 I1 F0 F1
  have mk_i := mkB_ok (d := .I) (lo := i0) (hi := i1) (by unfold InInt; omega)
  obtain ⟨v0, n0, r0⟩ := offset_ok (T := T) (g := ugcw) (ds := [(.I, i0, i1)]) (by simp) (by simp) (by omega) (by simp; omega) h_u
  obtain ⟨v1, n1, r1⟩ := offset_ok (T := T) (g := rgcw) (ds := [(.I, i0, i1)]) (by simp) (by simp) (by omega) (by simp; omega) h_r
  have z1 := made_zero n1
  simp only [bounds, List.map_cons, List.map_nil] at n0 n1
  have A0 : F.ArrOK (devMem [v0.fill xu, v1]) (F.cell1d (at_ 0) i0 i1 ugcw) := arr_ok_of rfl (r0.fill (xs := xu)) h_u
  have A1 : F.ArrOK (devMem [v0.fill xu, v1]) (F.cell1d (at_ 1) i0 i1 rgcw) := arr_ok_of rfl r1 h_r
  obtain ⟨m', run, sets⟩ := C95_init_1d (beta := beta) (dx := dx) (m := devMem [v0.fill xu, v1]) hβ hi hu hr ⟨by
    simp only [List.cons_append, List.nil_append, List.forall_mem_cons]
    exact ⟨A0, A1, by simp⟩, by simpa [F.cell1d] using arr_apart (by decide)⟩
  have R := ran r1 z1 rfl sets
  unfold Test.spanInit1d Test.spanInit1dOf
  simp only [mk_i, n0, n1, M.ok_bind]
  rw [onDevice_two run]
  simp only [M.ok_bind, zeros_after, hostOf_after, std_after, R.read]
  rw [settled (K := fun q => ∃ i, F.OnStride i0 i1 1 i ∧ q = i - (i0 - rgcw)) (settles_for (le_refl 1) (by omega) (by omega) ?_) R.len.symm ?_]
  · simp
  · intro i oi
    obtain ⟨o1, o2, -⟩ := oi
    have P : ∃ j, [i] = [j] ∧ i0 ≤ j ∧ j ≤ i1 := ⟨i, rfl, o1, o2⟩
    have C : i - (i0 - rgcw) = F.colMajor (shape rgcw [(.I, i0, i1)]) [i] := by simp [shape, F.colMajor]
    refine settles_by (fun l => ?_) (by omega) (by rw [C]; exact R.at_ _ P)
    rw [isub_ok (by unfold InInt; omega), M.ok_bind, isub_ok (by unfold InInt; omega), M.ok_bind]
    rw [isub_ok (by unfold InInt; omega), M.ok_bind, isub_ok (by unfold InInt; omega), M.ok_bind]
    rw [vget_rd rfl A0 (is := [i]) (F.inBounds1.2 ⟨i, rfl, by omega⟩) (by simp [F.colMajor]), M.ok_bind, isub_ok (by unfold InInt; omega), M.ok_bind]
    rw [vget_rd rfl A0 (is := [i - 1]) (F.inBounds1.2 ⟨i - 1, rfl, by omega⟩) (by simp [F.colMajor]; ring), M.ok_bind, iadd_ok (by unfold InInt; omega), M.ok_bind]
    rw [vget_rd rfl A0 (is := [i + 1]) (F.inBounds1.2 ⟨i + 1, rfl, by omega⟩) (by simp [F.colMajor]; ring), M.ok_bind]
    rfl
  · intro q hq hk
    refine R.rest q (by rw [← R.len]; exact hq) ?_
    rintro is ⟨i, rfl, oi⟩ hb e
    exact hk ⟨i, onStride_one.2 oi, by rw [e]; simp [shape, F.colMajor]⟩

example {beta : ℚ} {dx xu : Nat → ℚ} {ugcw rgcw : Int} {β : Nat → Backend} (hβ : ∀ n, ValidBackend (β n)) (h1 : 1 ≤ ugcw) (h2 : ugcw ≤ 3) (h3 : ugcw ≤ rgcw)
    (h4 : rgcw ≤ 2 * ugcw) : Test.spanInit1d 3 8 beta dx ugcw rgcw xu β = .ok true :=
  C112_init_1d hβ (by told) (by told) (by told) (fits_of (by interval_cases ugcw <;> decide))
    (fits_of (by have : rgcw ≤ 6 := by omega
                 have : 1 ≤ rgcw := by omega
                 interval_cases rgcw <;> decide))

/-- src/md_device_span.t.cpp:150-193 -/
theorem C112_stride_2d {i0 i1 is j0 j1 js : Int} {beta : T} {dx : Nat → T} {ugcw rgcw : Int} {xu : Nat → T} {β : Nat → Backend} (hβ : ∀ n, ValidBackend (β n))
    (hi : i0 ≤ i1) (hj : j0 ≤ j1) (his : 1 ≤ is) (hjs : 1 ≤ js) (hfi : i1 - i0 + is ≤ 2147483647) (hfj : j1 - j0 + js ≤ 2147483647)
    (hei : i1 + is ≤ 2147483647) (hej : j1 + js ≤ 2147483647) (hwu : (j1 - j0 + 1 + 2 * ugcw) * is ≤ 2147483647) (hwr : (i1 - i0 + 1 + 2 * rgcw) * js ≤ 2147483647)
    (hu : 0 ≤ ugcw) (hr : 0 ≤ rgcw) (h_u : F.Fits (F.cell2d (at_ 0) j0 i0 j1 i1 ugcw).dims) (h_r : F.Fits (F.cell2d (at_ 1) i0 j0 i1 j1 rgcw).dims) :
    Test.spanStride2d i0 i1 is j0 j1 js beta dx ugcw rgcw xu β = .ok true := by
  have I0 := h_u.int
  have I1 := h_r.int
  simp only [F.cell2d, List.mem_cons, List.not_mem_nil, or_false, forall_eq_or_imp, forall_eq, InInt] at I0 I1
  have mk_i := mkB_ok (d := .I) (lo := i0) (hi := i1) (by unfold InInt; omega)
  have mk_j := mkB_ok (d := .J) (lo := j0) (hi := j1) (by unfold InInt; omega)
  obtain ⟨v0, n0, r0⟩ := offset_ok (T := T) (g := ugcw) (ds := [(.I, i0, i1), (.J, j0, j1)]) (by simp) (by simp) (by omega) (by simp; omega) h_u
  obtain ⟨v1, n1, r1⟩ := offset_ok (T := T) (g := rgcw) (ds := [(.J, j0, j1), (.I, i0, i1)]) (by simp) (by simp) (by omega) (by simp; omega) h_r
  have x0 := fun i j (h : i0 ≤ i ∧ i ≤ i1 ∧ j0 ≤ j ∧ j ≤ j1) => index_ok (g := ugcw) (ds := [(.I, i0, i1), (.J, j0, j1)]) (p := fun d => if d = .I then i else j) (by simp) (by simp)
    (by omega) (by simp; omega) h_u n0 (by simp; omega)
  have x1 := fun i j (h : i0 ≤ i ∧ i ≤ i1 ∧ j0 ≤ j ∧ j ≤ j1) => index_ok (g := rgcw) (ds := [(.J, j0, j1), (.I, i0, i1)]) (p := fun d => if d = .I then i else j) (by simp) (by simp)
    (by omega) (by simp; omega) h_r n1 (by simp; omega)
  simp only [List.map_cons, List.map_nil, if_true, List.reverse_cons, List.reverse_nil, List.nil_append, List.cons_append] at x0 x1
  have z1 := made_zero n1
  simp only [bounds, List.map_cons, List.map_nil] at n0 n1
  have A0 : F.ArrOK (devMem [v0.fill xu, v1]) (F.cell2d (at_ 0) j0 i0 j1 i1 ugcw) := arr_ok_of rfl (r0.fill (xs := xu)) h_u
  have A1 : F.ArrOK (devMem [v0.fill xu, v1]) (F.cell2d (at_ 1) i0 j0 i1 j1 rgcw) := arr_ok_of rfl r1 h_r
  obtain ⟨m', run, sets⟩ := C95_stride_2d (beta := beta) (dx := dx) (m := devMem [v0.fill xu, v1]) hβ hi hj his hjs hfi hfj hwu hwr hu hr ⟨by
    simp only [List.cons_append, List.nil_append, List.forall_mem_cons]
    exact ⟨A0, A1, by simp⟩, by simpa [F.cell2d] using arr_apart (by decide)⟩
  have R := ran r1 z1 rfl sets
  unfold Test.spanStride2d Test.spanStride2dOf
  simp only [mk_i, mk_j, n0, n1, M.ok_bind]
  rw [onDevice_two run]
  simp only [M.ok_bind, zeros_after, hostOf_after, std_after, R.read]
  rw [settled (K := fun q => ∃ j, F.OnStride j0 j1 js j ∧ ∃ i, F.OnStride i0 i1 is i ∧ q = F.colMajor (shape rgcw [(.J, j0, j1), (.I, i0, i1)]) [i, j])
    (settles_for hjs hej (by omega) ?_) R.len.symm ?_]
  · simp
  · intro j oj
    refine settles_for his hei (by omega) fun i oi => ?_
    have P : ∃ i' j', [i, j] = [i', j'] ∧ F.OnStride i0 i1 is i' ∧ F.OnStride j0 j1 js j' := ⟨i, j, rfl, oi, oj⟩
    obtain ⟨o1, o2, -⟩ := oi
    obtain ⟨o3, o4, -⟩ := oj
    have hb : F.InBounds [(i0 - rgcw, i1 + rgcw), (j0 - rgcw, j1 + rgcw)] [i, j] := F.inBounds2.2 ⟨i, j, rfl, by omega⟩
    refine settles_by (fun l => ?_) (colMajor_range hb).1 (R.at_ _ P)
    have e1 : indexOf 1 [(after m' 0 (DevVec.fill xu v0)).host, (after m' 1 v1).toStd.1] [j, i] = .ok (F.colMajor (shape rgcw [(.J, j0, j1), (.I, i0, i1)]) [i, j]) := x1 i j ⟨o1, o2, o3, o4⟩
    have e0 : indexOf 0 [(after m' 0 (DevVec.fill xu v0)).host, (after m' 1 v1).toStd.1] [i, j] = .ok (F.colMajor [(j0 - ugcw, j1 + ugcw), (i0 - ugcw, i1 + ugcw)] [j, i]) := x0 i j ⟨o1, o2, o3, o4⟩
    rw [e1, M.ok_bind, e0, M.ok_bind, vget_rd rfl A0 (is := [j, i]) (F.inBounds2.2 ⟨j, i, rfl, by omega⟩) rfl, M.ok_bind]
    rfl
  · intro q hq hk
    refine R.rest q (by rw [← R.len]; exact hq) ?_
    rintro _ ⟨i, j, rfl, oi, oj⟩ hb e
    exact hk ⟨j, oj, i, oi, e⟩

example {beta : ℚ} {dx xu : Nat → ℚ} {i1 j1 ugcw rgcw : Int} {β : Nat → Backend} (hβ : ∀ n, ValidBackend (β n)) (h1 : 1 ≤ ugcw) (h2 : ugcw ≤ 3) (h3 : ugcw ≤ rgcw)
    (h4 : rgcw ≤ 2 * ugcw) (h5 : 8 ≤ i1) (h6 : i1 < 12) (h7 : 5 ≤ j1) (h8 : j1 < 10) : Test.spanStride2d 3 i1 2 4 j1 1 beta dx ugcw rgcw xu β = .ok true :=
  C112_stride_2d hβ (by told) (by told) (by told) (by told) (by told) (by told) (by told) (by told) (by told) (by told) (by told) (by told)
    (fits_of (by interval_cases ugcw <;> interval_cases i1 <;> interval_cases j1 <;> decide))
    (fits_of (by have : rgcw ≤ 6 := by omega
                 have : 1 ≤ rgcw := by omega
                 interval_cases rgcw <;> interval_cases i1 <;> interval_cases j1 <;> decide))

/-- src/md_device_span.t.cpp:195-253 -/
theorem C112_stride_3d {i0 i1 is j0 j1 js k0 k1 ks : Int} {beta : T} {dx : Nat → T} {ugcw rgcw : Int} {xu : Nat → T} {β : Nat → Backend} (hβ : ∀ n, ValidBackend (β n))
    (hi : i0 ≤ i1) (hj : j0 ≤ j1) (hk : k0 ≤ k1) (his : 1 ≤ is) (hjs : 1 ≤ js) (hks : 1 ≤ ks) (hfi : i1 - i0 + is ≤ 2147483647) (hfj : j1 - j0 + js ≤ 2147483647) (hfk : k1 - k0 + ks ≤ 2147483647)
    (hei : i1 + is ≤ 2147483647) (hej : j1 + js ≤ 2147483647) (hek : k1 + ks ≤ 2147483647) 
    (hwu : (j1 - j0 + 1 + 2 * ugcw) * (k1 - k0 + 1 + 2 * ugcw) * is ≤ 2147483647) (hwu' : (k1 - k0 + 1 + 2 * ugcw) * js ≤ 2147483647)
    (hwr : (j1 - j0 + 1 + 2 * rgcw) * (i1 - i0 + 1 + 2 * rgcw) * ks ≤ 2147483647) (hwr' : (i1 - i0 + 1 + 2 * rgcw) * js ≤ 2147483647)
    (hu : 0 ≤ ugcw) (hr : 0 ≤ rgcw) (h_u : F.Fits (F.cell3d (at_ 0) k0 j0 i0 k1 j1 i1 ugcw).dims) (h_r : F.Fits (F.cell3d (at_ 1) i0 j0 k0 i1 j1 k1 rgcw).dims) :
    Test.spanStride3d i0 i1 is j0 j1 js k0 k1 ks beta dx ugcw rgcw xu β = .ok true := by
  have I0 := h_u.int
  have I1 := h_r.int
  simp only [F.cell3d, List.mem_cons, List.not_mem_nil, or_false, forall_eq_or_imp, forall_eq, InInt] at I0 I1
  have mk_i := mkB_ok (d := .I) (lo := i0) (hi := i1) (by unfold InInt; omega)
  have mk_k := mkB_ok (d := .K) (lo := k0) (hi := k1) (by unfold InInt; omega)
  have mk_j := mkB_ok (d := .J) (lo := j0) (hi := j1) (by unfold InInt; omega)
  obtain ⟨v0, n0, r0⟩ := offset_ok (T := T) (g := ugcw) (ds := [(.I, i0, i1), (.J, j0, j1), (.K, k0, k1)]) (by simp) (by simp) (by omega) (by simp; omega) h_u
  obtain ⟨v1, n1, r1⟩ := offset_ok (T := T) (g := rgcw) (ds := [(.K, k0, k1), (.J, j0, j1), (.I, i0, i1)]) (by simp) (by simp) (by omega) (by simp; omega) h_r
  have x0 := fun i j k (h : i0 ≤ i ∧ i ≤ i1 ∧ j0 ≤ j ∧ j ≤ j1 ∧ k0 ≤ k ∧ k ≤ k1) => index_ok (g := ugcw) (ds := [(.I, i0, i1), (.J, j0, j1), (.K, k0, k1)]) (p := fun d => if d = .I then i else if d = .J then j else k) (by simp) (by simp)
    (by omega) (by simp; omega) h_u n0 (by simp; omega)
  have x1 := fun i j k (h : i0 ≤ i ∧ i ≤ i1 ∧ j0 ≤ j ∧ j ≤ j1 ∧ k0 ≤ k ∧ k ≤ k1) => index_ok (g := rgcw) (ds := [(.K, k0, k1), (.J, j0, j1), (.I, i0, i1)]) (p := fun d => if d = .I then i else if d = .J then j else k) (by simp) (by simp)
    (by omega) (by simp; omega) h_r n1 (by simp; omega)
  simp only [List.map_cons, List.map_nil, if_true, List.reverse_cons, List.reverse_nil, List.nil_append, List.cons_append] at x0 x1
  have z1 := made_zero n1
  simp only [bounds, List.map_cons, List.map_nil] at n0 n1
  have A0 : F.ArrOK (devMem [v0.fill xu, v1]) (F.cell3d (at_ 0) k0 j0 i0 k1 j1 i1 ugcw) := arr_ok_of rfl (r0.fill (xs := xu)) h_u
  have A1 : F.ArrOK (devMem [v0.fill xu, v1]) (F.cell3d (at_ 1) i0 j0 k0 i1 j1 k1 rgcw) := arr_ok_of rfl r1 h_r
  obtain ⟨m', run, sets⟩ := C95_stride_3d (beta := beta) (dx := dx) (m := devMem [v0.fill xu, v1]) hβ hi hj hk his hjs hks hfi hfj hfk hwu hwu' hwr hwr' hu hr ⟨by
    simp only [List.cons_append, List.nil_append, List.forall_mem_cons]
    exact ⟨A0, A1, by simp⟩, by simpa [F.cell3d] using arr_apart (by decide)⟩
  have R := ran r1 z1 rfl sets
  unfold Test.spanStride3d Test.spanStride3dOf
  simp only [mk_i, mk_j, mk_k, n0, n1, M.ok_bind]
  rw [onDevice_two run]
  simp only [M.ok_bind, zeros_after, hostOf_after, std_after, R.read]
  rw [settled (K := fun q => ∃ k, F.OnStride k0 k1 ks k ∧ ∃ j, F.OnStride j0 j1 js j ∧ ∃ i, F.OnStride i0 i1 is i ∧ q = F.colMajor (shape rgcw [(.K, k0, k1), (.J, j0, j1), (.I, i0, i1)]) [i, j, k])
    (settles_for hks hek (by omega) ?_) R.len.symm ?_]
  · simp
  · intro k ok
    refine settles_for hjs hej (by omega) fun j oj => ?_
    refine settles_for his hei (by omega) fun i oi => ?_
    have P : ∃ i' j' k', [i, j, k] = [i', j', k'] ∧ F.OnStride i0 i1 is i' ∧ F.OnStride j0 j1 js j' ∧ F.OnStride k0 k1 ks k' := ⟨i, j, k, rfl, oi, oj, ok⟩
    obtain ⟨o1, o2, -⟩ := oi
    obtain ⟨o3, o4, -⟩ := oj
    obtain ⟨o5, o6, -⟩ := ok
    have hb : F.InBounds [(i0 - rgcw, i1 + rgcw), (j0 - rgcw, j1 + rgcw), (k0 - rgcw, k1 + rgcw)] [i, j, k] := F.inBounds3.2 ⟨i, j, k, rfl, by omega⟩
    refine settles_by (fun l => ?_) (colMajor_range hb).1 (R.at_ _ P)
    have e1 : indexOf 1 [(after m' 0 (DevVec.fill xu v0)).host, (after m' 1 v1).toStd.1] [k, j, i] = .ok (F.colMajor (shape rgcw [(.K, k0, k1), (.J, j0, j1), (.I, i0, i1)]) [i, j, k]) := x1 i j k ⟨o1, o2, o3, o4, o5, o6⟩
    have e0 : indexOf 0 [(after m' 0 (DevVec.fill xu v0)).host, (after m' 1 v1).toStd.1] [i, j, k] = .ok (F.colMajor [(k0 - ugcw, k1 + ugcw), (j0 - ugcw, j1 + ugcw), (i0 - ugcw, i1 + ugcw)] [k, j, i]) := x0 i j k ⟨o1, o2, o3, o4, o5, o6⟩
    rw [e1, M.ok_bind, e0, M.ok_bind, vget_rd rfl A0 (is := [k, j, i]) (F.inBounds3.2 ⟨k, j, i, rfl, by omega⟩) rfl, M.ok_bind]
    rfl
  · intro q hq hkk
    refine R.rest q (by rw [← R.len]; exact hq) ?_
    rintro _ ⟨i, j, k, rfl, oi, oj, ok⟩ hb e
    exact hkk ⟨k, ok, j, oj, i, oi, e⟩

example {beta : ℚ} {dx xu : Nat → ℚ} {i1 j1 k1 ugcw rgcw : Int} {β : Nat → Backend} (hβ : ∀ n, ValidBackend (β n)) (h1 : 1 ≤ ugcw) (h2 : ugcw ≤ 3) (h3 : ugcw ≤ rgcw)
    (h4 : rgcw ≤ 2 * ugcw) (h5 : 8 ≤ i1) (h6 : i1 < 12) (h7 : 5 ≤ j1) (h8 : j1 < 10) (h9 : 12 ≤ k1) (h10 : k1 < 18) :
    Test.spanStride3d 3 i1 1 4 j1 1 7 k1 2 beta dx ugcw rgcw xu β = .ok true := by
  have g1 : 1 ≤ rgcw := by omega
  have g2 : rgcw ≤ 6 := by omega
  clear h3 h4
  refine C112_stride_3d hβ (by omega) (by omega) (by omega) (by omega) (by omega) (by omega) (by omega) (by omega) (by omega) (by omega) (by omega) (by omega)
    ?_ (by omega) ?_ (by omega) (by omega) (by omega) (fits_small (by omega)) (fits_small (by omega))
  · interval_cases ugcw <;> interval_cases j1 <;> omega
  · interval_cases rgcw <;> interval_cases j1 <;> omega

/-- src/md_device_span.t.cpp:111-148 -/
theorem C112_init_2d {i0 i1 j0 j1 : Int} {beta : T} {dx : Nat → T} {ugcw rgcw : Int} {xu : Nat → T} {β : Nat → Backend} (hβ : ∀ n, ValidBackend (β n))
    (hi : i0 ≤ i1) (hj : j0 ≤ j1) (hu : 1 ≤ ugcw) (hr : 0 ≤ rgcw) (h_u : F.Fits (F.cell2d (at_ 0) j0 i0 j1 i1 ugcw).dims)
    (h_r : F.Fits (F.cell2d (at_ 1) i0 j0 i1 j1 rgcw).dims) : Test.spanInit2d i0 i1 j0 j1 beta dx ugcw rgcw xu β = .ok true := by
  have I0 := h_u.int
  have I1 := h_r.int
  have F0 := h_u.fits
  have F1 := h_r.fits
  simp only [F.cell2d, List.mem_cons, List.not_mem_nil, or_false, forall_eq_or_imp, forall_eq, InInt, List.map_cons, List.map_nil, List.prod_cons, List.prod_nil, mul_one] at I0 I1 F0 F1
  have mk_i := mkB_ok (d := .I) (lo := i0) (hi := i1) (by unfold InInt; omega)
  have mk_j := mkB_ok (d := .J) (lo := j0) (hi := j1) (by unfold InInt; omega)
  have G0 : j1 + ugcw - (j0 - ugcw) + 1 ≤ 2147483647 := by nlinarith
  have G1 : i1 + ugcw - (i0 - ugcw) + 1 ≤ 2147483647 := by nlinarith
  have G2 : i1 + rgcw - (i0 - rgcw) + 1 ≤ 2147483647 := by nlinarith
  have G3 : j1 + rgcw - (j0 - rgcw) + 1 ≤ 2147483647 := by nlinarith
  have X0 : extent j0 j1 ugcw = .ok (j1 + ugcw - (j0 - ugcw) + 1) := by
    unfold extent
    rw [iadd_ok (by unfold InInt; omega), M.ok_bind, isub_ok (by unfold InInt; omega), M.ok_bind, isub_ok (by unfold InInt; omega), M.ok_bind, iadd_ok (by unfold InInt; omega)]
  have X1 : extent i0 i1 rgcw = .ok (i1 + rgcw - (i0 - rgcw) + 1) := by
    unfold extent
    rw [iadd_ok (by unfold InInt; omega), M.ok_bind, isub_ok (by unfold InInt; omega), M.ok_bind, isub_ok (by unfold InInt; omega), M.ok_bind, iadd_ok (by unfold InInt; omega)]
  obtain ⟨v0, n0, r0⟩ := offset_ok (T := T) (g := ugcw) (ds := [(.I, i0, i1), (.J, j0, j1)]) (by simp) (by simp) (by omega) (by simp; omega) h_u
  obtain ⟨v1, n1, r1⟩ := offset_ok (T := T) (g := rgcw) (ds := [(.J, j0, j1), (.I, i0, i1)]) (by simp) (by simp) (by omega) (by simp; omega) h_r
  have z1 := made_zero n1
  simp only [bounds, List.map_cons, List.map_nil] at n0 n1
  have A0 : F.ArrOK (devMem [v0.fill xu, v1]) (F.cell2d (at_ 0) j0 i0 j1 i1 ugcw) := arr_ok_of rfl (r0.fill (xs := xu)) h_u
  have A1 : F.ArrOK (devMem [v0.fill xu, v1]) (F.cell2d (at_ 1) i0 j0 i1 j1 rgcw) := arr_ok_of rfl r1 h_r
  obtain ⟨m', run, vals, rest⟩ := C95_init_2d (beta := beta) (dx := dx) (m := devMem [v0.fill xu, v1]) hβ hi hj hu hr ⟨by
    simp only [List.cons_append, List.nil_append, List.forall_mem_cons]
    exact ⟨A0, A1, by simp⟩, by simpa [F.cell2d] using arr_apart (by decide)⟩
  have R := ran (f := fun c => 3 * ((F.rd (devMem [v0.fill xu, v1]) (F.cell2d (at_ 0) j0 i0 j1 i1 ugcw) [c.getD 1 0 + 1, c.getD 0 0] -
      F.rd (devMem [v0.fill xu, v1]) (F.cell2d (at_ 0) j0 i0 j1 i1 ugcw) [c.getD 1 0, c.getD 0 0]) / dx 1 +
    (F.rd (devMem [v0.fill xu, v1]) (F.cell2d (at_ 0) j0 i0 j1 i1 ugcw) [c.getD 1 0, c.getD 0 0 + 1] -
      F.rd (devMem [v0.fill xu, v1]) (F.cell2d (at_ 0) j0 i0 j1 i1 ugcw) [c.getD 1 0, c.getD 0 0]) / dx 0)) r1 z1 rfl ⟨by
    rintro c ⟨i, j, rfl, a1, a2, a3, a4⟩
    exact vals i j a1 a2 a3 a4, rest⟩
  unfold Test.spanInit2d Test.spanInit2dOf
  simp only [mk_i, mk_j, n0, n1, M.ok_bind]
  rw [onDevice_two run]
  simp only [M.ok_bind, zeros_after, hostOf_after, std_after, R.read, X0, X1]
  rw [settled (K := fun q => ∃ j, F.OnStride j0 j1 1 j ∧ ∃ i, F.OnStride i0 i1 1 i ∧ q = F.colMajor (shape rgcw [(.J, j0, j1), (.I, i0, i1)]) [i, j])
    (settles_for (le_refl 1) (by omega) (by omega) ?_) R.len.symm ?_]
  · simp
  · intro j oj
    refine settles_for (le_refl 1) (by omega) (by omega) fun i oi => ?_
    rw [onStride_one] at oi oj
    obtain ⟨o1, o2⟩ := oi
    obtain ⟨o3, o4⟩ := oj
    have P : ∃ i' j', [i, j] = [i', j'] ∧ i0 ≤ i' ∧ i' ≤ i1 ∧ j0 ≤ j' ∧ j' ≤ j1 := ⟨i, j, rfl, o1, o2, o3, o4⟩
    have hb : F.InBounds [(i0 - rgcw, i1 + rgcw), (j0 - rgcw, j1 + rgcw)] [i, j] := F.inBounds2.2 ⟨i, j, rfl, by omega⟩
    have b1 : F.InBounds [(j0 - ugcw, j1 + ugcw), (i0 - ugcw, i1 + ugcw)] [j, i + 1] := F.inBounds2.2 ⟨j, i + 1, rfl, by omega⟩
    have b2 : F.InBounds [(j0 - ugcw, j1 + ugcw), (i0 - ugcw, i1 + ugcw)] [j, i] := F.inBounds2.2 ⟨j, i, rfl, by omega⟩
    have b3 : F.InBounds [(j0 - ugcw, j1 + ugcw), (i0 - ugcw, i1 + ugcw)] [j + 1, i] := F.inBounds2.2 ⟨j + 1, i, rfl, by omega⟩
    have c0 := colMajor_range hb
    have c1 := colMajor_range b1
    have c2 := colMajor_range b2
    have c3 := colMajor_range b3
    simp only [F.colMajor, List.map_cons, List.map_nil, List.prod_cons, List.prod_nil, mul_one, mul_zero, add_zero] at c0 c1 c2 c3
    refine settles_by (fun l => ?_) (colMajor_range hb).1 (R.at_ _ P)
    rw [isub_ok (by unfold InInt; omega), M.ok_bind, isub_ok (by unfold InInt; omega), M.ok_bind]
    rw [isub_ok (by unfold InInt; omega), M.ok_bind, isub_ok (by unfold InInt; omega), M.ok_bind]
    rw [isub_ok (by unfold InInt; omega), M.ok_bind, isub_ok (by unfold InInt; omega), M.ok_bind]
    rw [isub_ok (by unfold InInt; omega), M.ok_bind, isub_ok (by unfold InInt; omega), M.ok_bind]
    rw [iadd_ok (by unfold InInt; omega), M.ok_bind]
    have k1 : (i - (i0 - ugcw) + 1) * (j1 + ugcw - (j0 - ugcw) + 1) = (j1 + ugcw - (j0 - ugcw) + 1) * (i + 1 - (i0 - ugcw)) := by ring
    have k2 : (i - (i0 - ugcw)) * (j1 + ugcw - (j0 - ugcw) + 1) = (j1 + ugcw - (j0 - ugcw) + 1) * (i - (i0 - ugcw)) := by ring
    have k3 : (j - (j0 - rgcw)) * (i1 + rgcw - (i0 - rgcw) + 1) = (i1 + rgcw - (i0 - rgcw) + 1) * (j - (j0 - rgcw)) := by ring
    have p1 : 0 ≤ (j1 + ugcw - (j0 - ugcw) + 1) * (i + 1 - (i0 - ugcw)) := mul_nonneg (by omega) (by omega)
    have p2 : 0 ≤ (j1 + ugcw - (j0 - ugcw) + 1) * (i - (i0 - ugcw)) := mul_nonneg (by omega) (by omega)
    have p3 : 0 ≤ (i1 + rgcw - (i0 - rgcw) + 1) * (j - (j0 - rgcw)) := mul_nonneg (by omega) (by omega)
    rw [imul_ok (by rw [k1]; unfold InInt; omega), M.ok_bind, iadd_ok (by rw [k1]; unfold InInt; omega), M.ok_bind]
    rw [imul_ok (by rw [k2]; unfold InInt; omega), M.ok_bind, iadd_ok (by rw [k2]; unfold InInt; omega), M.ok_bind]
    rw [iadd_ok (by rw [k2]; unfold InInt; omega), M.ok_bind]
    rw [vget_rd rfl A0 b1 (by rw [k1]; simp only [F.colMajor]; ring), M.ok_bind, vget_rd rfl A0 b2 (by rw [k2]; simp only [F.colMajor]; ring), M.ok_bind]
    rw [vget_rd rfl A0 b3 (by rw [k2]; simp only [F.colMajor]; ring), M.ok_bind]
    rw [imul_ok (by rw [k3]; unfold InInt; omega), M.ok_bind, iadd_ok (by rw [k3]; unfold InInt; omega), M.ok_bind]
    congr 1
    · rw [k3]
      change _ = F.colMajor [(i0 - rgcw, i1 + rgcw), (j0 - rgcw, j1 + rgcw)] [i, j]
      simp only [F.colMajor]
      ring
    · rw [add_comm]
      rfl
  · intro q hq hk
    refine R.rest q (by rw [← R.len]; exact hq) ?_
    rintro _ ⟨i, j, rfl, o1, o2, o3, o4⟩ hb e
    exact hk ⟨j, onStride_one.2 ⟨o3, o4⟩, i, onStride_one.2 ⟨o1, o2⟩, e⟩

example {beta : ℚ} {dx xu : Nat → ℚ} {ugcw rgcw : Int} {β : Nat → Backend} (hβ : ∀ n, ValidBackend (β n)) (h1 : 1 ≤ ugcw) (h2 : ugcw ≤ 3) (h3 : ugcw ≤ rgcw)
    (h4 : rgcw ≤ 2 * ugcw) : Test.spanInit2d 3 8 4 12 beta dx ugcw rgcw xu β = .ok true :=
  C112_init_2d hβ (by told) (by told) (by told) (by told) (fits_of (by interval_cases ugcw <;> decide))
    (fits_of (by have : rgcw ≤ 6 := by omega
                 have : 1 ≤ rgcw := by omega
                 interval_cases rgcw <;> decide))

end Verif
