import Verif.Lemmas.DotDriver
import Verif.Props.DotOffset
import Verif.Props.SpanDriver

/-
C117: the tests of the dot product with displacements pass, whatever numbers they pick.
-/

namespace Verif

open Spec Test

variable {T : Type} [CommRing T] [DecidableEq T]

omit [CommRing T] [DecidableEq T] in
theorem onDevice_all {c : Mem T → M (Mem T)} {s u r : DevVec T} {m' : Mem T} (h : c (devMem [s, u, r]) = .ok m') :
    onDevice [0, 1, 2] c [s, u, r] = .ok [after m' 0 s, after m' 1 u, after m' 2 r] := by
  unfold onDevice
  rw [h]
  rfl

omit [CommRing T] [DecidableEq T] in
theorem std2_run {a b r : DevVec T} {m' : Mem T} : std 2 [a, b, after m' 2 r] = .ok (newBlock m' 2 r.d, [a, b, (after m' 2 r).toStd.1]) := rfl

omit [CommRing T] [DecidableEq T] in
theorem std1_run {a b r : DevVec T} {m' : Mem T} : std 1 [a, after m' 1 b, r] = .ok (newBlock m' 1 b.d, [a, (after m' 1 b).toStd.1, r]) := rfl

omit [CommRing T] [DecidableEq T] in
theorem std0_run {a b r : DevVec T} {m' : Mem T} : std 0 [after m' 0 a, b, r] = .ok (newBlock m' 0 a.d, [(after m' 0 a).toStd.1, b, r]) := rfl

theorem fits_two {l0 u0 l1 u1 : Int} (h : -100 ≤ l0 ∧ l0 ≤ u0 ∧ u0 ≤ 100 ∧ -100 ≤ l1 ∧ l1 ≤ u1 ∧ u1 ≤ 100) : F.Fits [(l0, u0), (l1, u1)] := by
  constructor
  · simp only [List.map_cons, List.map_nil, List.prod_cons, List.prod_nil, mul_one]
    have h1 : (u0 - l0 + 1) * (u1 - l1 + 1) ≤ 201 * 201 := mul_le_mul (by omega) (by omega) (by omega) (by omega)
    omega
  · simp only [List.mem_cons, List.not_mem_nil, or_false, forall_eq_or_imp, forall_eq, InInt]
    omega

theorem fits_four {l0 u0 l1 u1 l2 u2 l3 u3 : Int}
    (h : -100 ≤ l0 ∧ l0 ≤ u0 ∧ u0 ≤ 100 ∧ -100 ≤ l1 ∧ l1 ≤ u1 ∧ u1 ≤ 100 ∧ -100 ≤ l2 ∧ l2 ≤ u2 ∧ u2 ≤ 100 ∧ -100 ≤ l3 ∧ l3 ≤ u3 ∧ u3 ≤ 100) :
    F.Fits [(l0, u0), (l1, u1), (l2, u2), (l3, u3)] := by
  constructor
  · simp only [List.map_cons, List.map_nil, List.prod_cons, List.prod_nil, mul_one]
    have h1 : (u2 - l2 + 1) * (u3 - l3 + 1) ≤ 201 * 201 := mul_le_mul (by omega) (by omega) (by omega) (by omega)
    have h2 : (u1 - l1 + 1) * ((u2 - l2 + 1) * (u3 - l3 + 1)) ≤ 201 * (201 * 201) := mul_le_mul (by omega) h1 (mul_nonneg (by omega) (by omega)) (by omega)
    have h3 : (u0 - l0 + 1) * ((u1 - l1 + 1) * ((u2 - l2 + 1) * (u3 - l3 + 1))) ≤ 201 * (201 * (201 * 201)) :=
      mul_le_mul (by omega) h2 (mul_nonneg (by omega) (mul_nonneg (by omega) (by omega))) (by omega)
    omega
  · simp only [List.mem_cons, List.not_mem_nil, or_false, forall_eq_or_imp, forall_eq, InInt]
    omega

/-- src/dot_offset.t.cpp:17-60 -/
theorem C117_1d {i0 i1 sgcw ugcw vgcw : Int} {xs xu : Nat → T} {β : Backend} (hβ : ValidBackend β) (hi : i0 ≤ i1) (hs : 0 ≤ sgcw) (hu : 1 ≤ ugcw) (hv : 0 ≤ vgcw)
    (h_s : F.Fits (F.coef1d (at_ 0) 3 i0 i1 sgcw).dims) (h_u : F.Fits (F.cell1d (at_ 1) i0 i1 ugcw).dims) (h_v : F.Fits (F.cell1d (at_ 2) i0 i1 vgcw).dims) :
    Test.dotOffset1d i0 i1 sgcw ugcw vgcw xs xu β = .ok true := by
  have I1 := h_u.int
  have I2 := h_v.int
  simp only [F.cell1d, List.mem_cons, List.not_mem_nil, or_false, forall_eq, InInt] at I1 I2
  have mk_i := mkB_ok (d := .I) (lo := i0) (hi := i1) (by unfold InInt; omega)
  have mk_w := mkB_ok (d := .W) (lo := 0) (hi := 2) (by unfold InInt; omega)
  obtain ⟨v0, n0, r0⟩ := offset_ok (T := T) (g := sgcw) (ds := [(.I, i0, i1), (.W, 0, 2)]) (by simp) (by simp) (by omega) (by simp; omega) h_s
  obtain ⟨v1, n1, r1⟩ := offset_ok (T := T) (g := ugcw) (ds := [(.I, i0, i1)]) (by simp) (by simp) (by omega) (by simp; omega) h_u
  obtain ⟨v2, n2, r2⟩ := offset_ok (T := T) (g := vgcw) (ds := [(.I, i0, i1)]) (by simp) (by simp) (by omega) (by simp; omega) h_v
  have x0 := fun i s (h : i0 ≤ i ∧ i ≤ i1 ∧ 0 ≤ s ∧ s ≤ 2) => index_ok (g := sgcw) (ds := [(.I, i0, i1), (.W, 0, 2)]) (p := fun d => if d = .I then i else s) (by simp) (by simp)
    (by omega) (by simp; omega) h_s n0 (by simp; omega)
  have x1 := fun i (h : i0 - ugcw ≤ i ∧ i ≤ i1 + ugcw) => index_ok (g := ugcw) (ds := [(.I, i0, i1)]) (p := fun _ => i) (by simp) (by simp) (by omega) (by simp; omega) h_u n1 (by simp; omega)
  have x2 := fun i (h : i0 ≤ i ∧ i ≤ i1) => index_ok (g := vgcw) (ds := [(.I, i0, i1)]) (p := fun _ => i) (by simp) (by simp) (by omega) (by simp; omega) h_v n2 (by simp; omega)
  simp only [List.map_cons, List.map_nil, if_true, List.reverse_cons, List.reverse_nil, List.nil_append, List.cons_append] at x0 x1 x2
  have z2 := made_zero n2
  simp only [bounds, List.map_cons, List.map_nil] at n0 n1 n2
  have A0 : F.ArrOK (devMem [v0.fill xs, v1.fill xu, v2]) (F.coef1d (at_ 0) 3 i0 i1 sgcw) := arr_ok_of rfl (r0.fill (xs := xs)) h_s
  have A1 : F.ArrOK (devMem [v0.fill xs, v1.fill xu, v2]) (F.cell1d (at_ 1) i0 i1 ugcw) := arr_ok_of rfl (r1.fill (xs := xu)) h_u
  have A2 : F.ArrOK (devMem [v0.fill xs, v1.fill xu, v2]) (F.cell1d (at_ 2) i0 i1 vgcw) := arr_ok_of rfl r2 h_v
  obtain ⟨o, mk_o, tb⟩ : ∃ o, offsetTable 3 1 (rowsOf 3 fun i => [i - 1]) = .ok o ∧ TableOK o 1 3 := ⟨_, rfl, by decide, by decide, by decide, rfl, rfl, by decide⟩
  obtain ⟨m', run, vals, fr, -⟩ := C48_value_1d (m := tabled 3 o.d (devMem [v0.fill xs, v1.fill xu, v2])) (st := at_ 0) (u := at_ 1) (v := at_ 2) (o := at_ 3) (w1 := 3) hβ hi (by decide) hs hv
    ⟨by
      simp only [List.cons_append, List.nil_append, List.forall_mem_cons]
      exact ⟨arr_tabled A0, arr_tabled A1, arr_tabled A2, by simp⟩, by
      simp only [List.mem_cons, List.not_mem_nil, or_false, forall_eq_or_imp, forall_eq]
      exact ⟨arr_apart (by decide), arr_apart (by decide)⟩⟩ (tb.reach hu) (by decide)
  set m := devMem [v0.fill xs, v1.fill xu, v2] with hm
  have R := ran3 (s := v0.fill xs) (u := v1.fill xu) (r := v2) (t := o.d) (dims := (F.cell1d (at_ 2) i0 i1 vgcw).dims) (P := fun is => ∃ i, is = [i] ∧ i0 ≤ i ∧ i ≤ i1)
    (f := fun is => (F.irange 0 (3 - 1)).foldl (fun r s => r + F.rd m (F.cell1d (at_ 1) i0 i1 ugcw) [is.getD 0 0 + disp o 1 s 0] * F.rd m (F.coef1d (at_ 0) 3 i0 i1 sgcw) [s, is.getD 0 0]) 0)
    (m' := m') r2 z2 rfl (by
      rintro _ ⟨i, rfl, h1, h2⟩
      have := vals i h1 h2 (fun s => F.rd m (F.coef1d (at_ 0) 3 i0 i1 sgcw) [s, i]) (fun s => F.rd m (F.cell1d (at_ 1) i0 i1 ugcw) [i + disp o 1 s 0]) fun s s0 s1 => by
        have b := tb.disp_near (s := s) (c := 0) s0 s1 (by decide) (by decide)
        exact ⟨A0.rd (F.inBounds2.2 ⟨s, i, rfl, by omega⟩), _, tb.intEl (c := 0) s0 s1 (by decide) (by decide), A1.rd (F.inBounds1.2 ⟨_, rfl, by omega⟩)⟩
      simp only [mul_comm] at this ⊢
      exact this) (fun q hq => fr q fun i h1 h2 => hq [i] ⟨i, rfl, h1, h2⟩)
  have sz : (Bounds.mk 0 3 1).size = .ok 3 := rfl
  unfold Test.dotOffset1d Test.dotOffset1dOf
  simp only [mk_i, mk_w, n0, n1, n2, mk_o, M.ok_bind]
  rw [show (2 : Int) + 1 = 3 from rfl, sz, M.ok_bind, onDevice_all run]
  simp only [M.ok_bind, std2_run, std1_run, std0_run, R.read0, R.read1]
  rw [settled (K := fun q => ∃ i, F.OnStride i0 i1 1 i ∧ q = F.colMajor (F.cell1d (at_ 2) i0 i1 vgcw).dims [i]) (settles_for (by decide) (by omega) (by omega) ?_) rfl ?_]
  · simp
  · intro i oi
    obtain ⟨o1, o2⟩ := onStride_one.1 oi
    have hb : F.InBounds [(i0 - vgcw, i1 + vgcw)] [i] := F.inBounds1.2 ⟨i, rfl, by omega⟩
    refine settles_by (fun l => ?_) (colMajor_range hb).1 (R.at_ [i] ⟨i, rfl, o1, o2⟩)
    unfold dotRound1
    rw [show indexOf 2 [(after m' 0 (v0.fill xs)).toStd.1, (after m' 1 (v1.fill xu)).toStd.1, (after m' 2 v2).toStd.1] [i] = _ from x2 i ⟨o1, o2⟩, M.ok_bind]
    refine accumulate (by decide) (by decide) (fun s e c s0 s1 y0 y1 hc => ?_) l
    have b := tb.disp_near (s := s) (c := 0) s0 s1 (by decide) (by decide)
    rw [tb.offAt s0 s1 (by decide) (by decide), M.ok_bind, iadd_ok (by unfold InInt; omega), M.ok_bind, show indexOf 1 [(after m' 0 (v0.fill xs)).toStd.1, (after m' 1 (v1.fill xu)).toStd.1, (after m' 2 v2).toStd.1] [i + disp o 1 s 0] = _ from x1 _ (by omega), M.ok_bind,
      show indexOf 0 [(after m' 0 (v0.fill xs)).toStd.1, (after m' 1 (v1.fill xu)).toStd.1, (after m' 2 v2).toStd.1] [i, s] = _ from x0 i s (by omega), M.ok_bind]
    exact addProd_ok (vget_rd (vs := [v0.fill xs, v1.fill xu, v2]) (k := 1) rfl A1 (F.inBounds1.2 ⟨i + disp o 1 s 0, rfl, by omega⟩) rfl)
      (vget_rd (vs := [v0.fill xs, v1.fill xu, v2]) (k := 0) rfl A0 (F.inBounds2.2 ⟨s, i, rfl, by omega⟩) rfl) y0 y1 hc
  · intro q hq hkk
    refine R.rest q (by rw [← R.len]; exact hq) ?_
    rintro _ ⟨i, rfl, h1, h2⟩ hb e
    exact hkk ⟨i, onStride_one.2 ⟨h1, h2⟩, e⟩

example {xs xu : Nat → ℚ} {sgcw ugcw vgcw : Int} {β : Backend} (hβ : ValidBackend β) (h1 : 1 ≤ sgcw) (h2 : sgcw ≤ 3) (h3 : 1 ≤ ugcw) (h4 : ugcw ≤ 3) (h5 : 1 ≤ vgcw) (h6 : vgcw ≤ 3) :
    Test.dotOffset1d 1 10 sgcw ugcw vgcw xs xu β = .ok true :=
  C117_1d hβ (by decide) (by omega) h3 (by omega) ⟨by simp [F.coef1d]; omega, by simp [F.coef1d, InInt]; omega⟩ ⟨by simp [F.cell1d]; omega, by simp [F.cell1d, InInt]; omega⟩
    ⟨by simp [F.cell1d]; omega, by simp [F.cell1d, InInt]; omega⟩

/-- src/dot_offset.t.cpp:62-125 -/
theorem C117_2d {i0 i1 j0 j1 sgcw ugcw vgcw : Int} {xs xu : Nat → T} {β : Backend} (hβ : ValidBackend β) (hi : i0 ≤ i1) (hj : j0 ≤ j1) (hs : 0 ≤ sgcw) (hu : 1 ≤ ugcw) (hv : 0 ≤ vgcw)
    (h_s : F.Fits (F.coef2d (at_ 0) 7 i0 j0 i1 j1 sgcw).dims) (h_u : F.Fits (F.cell2d (at_ 1) i0 j0 i1 j1 ugcw).dims) (h_v : F.Fits (F.cell2d (at_ 2) i0 j0 i1 j1 vgcw).dims) :
    Test.dotOffset2d i0 i1 j0 j1 sgcw ugcw vgcw xs xu β = .ok true := by
  have I1 := h_u.int
  have I2 := h_v.int
  simp only [F.cell2d, List.mem_cons, List.not_mem_nil, or_false, forall_eq_or_imp, forall_eq, InInt] at I1 I2
  have mk_i := mkB_ok (d := .I) (lo := i0) (hi := i1) (by unfold InInt; omega)
  have mk_j := mkB_ok (d := .J) (lo := j0) (hi := j1) (by unfold InInt; omega)
  have mk_w := mkB_ok (d := .W) (lo := 0) (hi := 6) (by unfold InInt; omega)
  obtain ⟨v0, n0, r0⟩ := offset_ok (T := T) (g := sgcw) (ds := [(.J, j0, j1), (.I, i0, i1), (.W, 0, 6)]) (by simp) (by simp) (by omega) (by simp; omega) h_s
  obtain ⟨v1, n1, r1⟩ := offset_ok (T := T) (g := ugcw) (ds := [(.J, j0, j1), (.I, i0, i1)]) (by simp) (by simp) (by omega) (by simp; omega) h_u
  obtain ⟨v2, n2, r2⟩ := offset_ok (T := T) (g := vgcw) (ds := [(.J, j0, j1), (.I, i0, i1)]) (by simp) (by simp) (by omega) (by simp; omega) h_v
  have x0 := fun i j s (h : i0 ≤ i ∧ i ≤ i1 ∧ j0 ≤ j ∧ j ≤ j1 ∧ 0 ≤ s ∧ s ≤ 6) => index_ok (g := sgcw) (ds := [(.J, j0, j1), (.I, i0, i1), (.W, 0, 6)]) (p := fun d => if d = .I then i else if d = .J then j else s) (by simp) (by simp)
    (by omega) (by simp; omega) h_s n0 (by simp; omega)
  have x1 := fun i j (h : i0 - ugcw ≤ i ∧ i ≤ i1 + ugcw ∧ j0 - ugcw ≤ j ∧ j ≤ j1 + ugcw) => index_ok (g := ugcw) (ds := [(.J, j0, j1), (.I, i0, i1)]) (p := fun d => if d = .I then i else j) (by simp) (by simp) (by omega) (by simp; omega) h_u n1 (by simp; omega)
  have x2 := fun i j (h : i0 ≤ i ∧ i ≤ i1 ∧ j0 ≤ j ∧ j ≤ j1) => index_ok (g := vgcw) (ds := [(.J, j0, j1), (.I, i0, i1)]) (p := fun d => if d = .I then i else j) (by simp) (by simp) (by omega) (by simp; omega) h_v n2 (by simp; omega)
  simp only [List.map_cons, List.map_nil, if_true, List.reverse_cons, List.reverse_nil, List.nil_append, List.cons_append] at x0 x1 x2
  have z2 := made_zero n2
  simp only [bounds, List.map_cons, List.map_nil] at n0 n1 n2
  have A0 : F.ArrOK (devMem [v0.fill xs, v1.fill xu, v2]) (F.coef2d (at_ 0) 7 i0 j0 i1 j1 sgcw) := arr_ok_of rfl (r0.fill (xs := xs)) h_s
  have A1 : F.ArrOK (devMem [v0.fill xs, v1.fill xu, v2]) (F.cell2d (at_ 1) i0 j0 i1 j1 ugcw) := arr_ok_of rfl (r1.fill (xs := xu)) h_u
  have A2 : F.ArrOK (devMem [v0.fill xs, v1.fill xu, v2]) (F.cell2d (at_ 2) i0 j0 i1 j1 vgcw) := arr_ok_of rfl r2 h_v
  obtain ⟨o, mk_o, tb⟩ : ∃ o, offsetTable 7 2 [(0, [0, 0]), (1, [-1, 0]), (2, [1, 0]), (3, [0, -1]), (4, [0, 1]), (5, [-1, 1]), (6, [1, -1])] = .ok o ∧ TableOK o 2 7 := ⟨_, rfl, by decide, by decide, by decide, rfl, rfl, by decide⟩
  obtain ⟨m', run, vals, fr, -⟩ := C48_value_2d (m := tabled 3 o.d (devMem [v0.fill xs, v1.fill xu, v2])) (st := at_ 0) (u := at_ 1) (v := at_ 2) (o := at_ 3) (w1 := 7) hβ hi hj (by decide) hs hv
    ⟨by
      simp only [List.cons_append, List.nil_append, List.forall_mem_cons]
      exact ⟨arr_tabled A0, arr_tabled A1, arr_tabled A2, by simp⟩, by
      simp only [List.mem_cons, List.not_mem_nil, or_false, forall_eq_or_imp, forall_eq]
      exact ⟨arr_apart (by decide), arr_apart (by decide)⟩⟩ (tb.reach hu) (by decide)
  set m := devMem [v0.fill xs, v1.fill xu, v2] with hm
  have R := ran3 (s := v0.fill xs) (u := v1.fill xu) (r := v2) (t := o.d) (dims := (F.cell2d (at_ 2) i0 j0 i1 j1 vgcw).dims) (P := fun is => ∃ i j, is = [i, j] ∧ i0 ≤ i ∧ i ≤ i1 ∧ j0 ≤ j ∧ j ≤ j1)
    (f := fun is => (F.irange 0 (7 - 1)).foldl (fun r s => r + F.rd m (F.cell2d (at_ 1) i0 j0 i1 j1 ugcw) [is.getD 0 0 + disp o 2 s 0, is.getD 1 0 + disp o 2 s 1] * F.rd m (F.coef2d (at_ 0) 7 i0 j0 i1 j1 sgcw) [s, is.getD 0 0, is.getD 1 0]) 0)
    (m' := m') r2 z2 rfl (by
      rintro _ ⟨i, j, rfl, pi1, pi2, pj1, pj2⟩
      have := vals i j pi1 pi2 pj1 pj2 (fun s => F.rd m (F.coef2d (at_ 0) 7 i0 j0 i1 j1 sgcw) [s, i, j]) (fun s => F.rd m (F.cell2d (at_ 1) i0 j0 i1 j1 ugcw) [i + disp o 2 s 0, j + disp o 2 s 1]) fun s s0 s1 => by
        have bi := tb.disp_near (s := s) (c := 0) s0 s1 (by decide) (by decide)
        have bj := tb.disp_near (s := s) (c := 1) s0 s1 (by decide) (by decide)
        exact ⟨A0.rd (F.inBounds3.2 ⟨s, i, j, rfl, by omega⟩), _, _, tb.intEl (c := 0) s0 s1 (by decide) (by decide), tb.intEl (c := 1) s0 s1 (by decide) (by decide), A1.rd (F.inBounds2.2 ⟨i + disp o 2 s 0, j + disp o 2 s 1, rfl, by omega⟩)⟩
      simp only [mul_comm] at this ⊢
      exact this) (fun q hq => fr q fun i j pi1 pi2 pj1 pj2 => hq [i, j] ⟨i, j, rfl, pi1, pi2, pj1, pj2⟩)
  have sz : (Bounds.mk 0 7 1).size = .ok 7 := rfl
  unfold Test.dotOffset2d Test.dotOffset2dOf
  simp only [mk_i, mk_j, mk_w, n0, n1, n2, mk_o, M.ok_bind]
  rw [show (6 : Int) + 1 = 7 from rfl, sz, M.ok_bind, onDevice_all run]
  simp only [M.ok_bind, std2_run, std1_run, std0_run, R.read0, R.read1]
  rw [settled (K := fun q => ∃ j, F.OnStride j0 j1 1 j ∧ ∃ i, F.OnStride i0 i1 1 i ∧ q = F.colMajor (F.cell2d (at_ 2) i0 j0 i1 j1 vgcw).dims [i, j]) (settles_for (by decide) (by omega) (by omega) ?_) rfl ?_]
  · simp
  · intro j oj
    refine settles_for (by decide) (by omega) (by omega) fun i oi => ?_
    obtain ⟨oi1, oi2⟩ := onStride_one.1 oi
    obtain ⟨oj1, oj2⟩ := onStride_one.1 oj
    have hb : F.InBounds [(i0 - vgcw, i1 + vgcw), (j0 - vgcw, j1 + vgcw)] [i, j] := F.inBounds2.2 ⟨i, j, rfl, by omega⟩
    refine settles_by (fun l => ?_) (colMajor_range hb).1 (R.at_ [i, j] ⟨i, j, rfl, oi1, oi2, oj1, oj2⟩)
    unfold dotRound2
    rw [show indexOf 2 [(after m' 0 (v0.fill xs)).toStd.1, (after m' 1 (v1.fill xu)).toStd.1, (after m' 2 v2).toStd.1] [j, i] = _ from x2 i j (by omega), M.ok_bind]
    refine accumulate (by decide) (by decide) (fun s e c s0 s1 y0 y1 hc => ?_) l
    have bi := tb.disp_near (s := s) (c := 0) s0 s1 (by decide) (by decide)
    have bj := tb.disp_near (s := s) (c := 1) s0 s1 (by decide) (by decide)
    rw [tb.offAt s0 s1 (by decide) (by decide), M.ok_bind, tb.offAt s0 s1 (by decide) (by decide), M.ok_bind, iadd_ok (by unfold InInt; omega), M.ok_bind, iadd_ok (by unfold InInt; omega), M.ok_bind,
      show indexOf 1 [(after m' 0 (v0.fill xs)).toStd.1, (after m' 1 (v1.fill xu)).toStd.1, (after m' 2 v2).toStd.1] [j + disp o 2 s 1, i + disp o 2 s 0] = _ from x1 (i + disp o 2 s 0) (j + disp o 2 s 1) (by omega), M.ok_bind,
      show indexOf 0 [(after m' 0 (v0.fill xs)).toStd.1, (after m' 1 (v1.fill xu)).toStd.1, (after m' 2 v2).toStd.1] [j, i, s] = _ from x0 i j s (by omega), M.ok_bind]
    exact addProd_ok (vget_rd (vs := [v0.fill xs, v1.fill xu, v2]) (k := 1) rfl A1 (F.inBounds2.2 ⟨i + disp o 2 s 0, j + disp o 2 s 1, rfl, by omega⟩) rfl)
      (vget_rd (vs := [v0.fill xs, v1.fill xu, v2]) (k := 0) rfl A0 (F.inBounds3.2 ⟨s, i, j, rfl, by omega⟩) rfl) y0 y1 hc
  · intro q hq hkk
    refine R.rest q (by rw [← R.len]; exact hq) ?_
    rintro _ ⟨i, j, rfl, pi1, pi2, pj1, pj2⟩ hb e
    exact hkk ⟨j, onStride_one.2 ⟨pj1, pj2⟩, i, onStride_one.2 ⟨pi1, pi2⟩, e⟩

example {xs xu : Nat → ℚ} {sgcw ugcw vgcw : Int} {β : Backend} (hβ : ValidBackend β) (h1 : 1 ≤ sgcw) (h2 : sgcw ≤ 3) (h3 : 1 ≤ ugcw) (h4 : ugcw ≤ 3) (h5 : 1 ≤ vgcw) (h6 : vgcw ≤ 3) :
    Test.dotOffset2d 1 10 3 12 sgcw ugcw vgcw xs xu β = .ok true :=
  C117_2d hβ (by decide) (by decide) (by omega) h3 (by omega) (fits_small (by omega)) (fits_two (by omega)) (fits_two (by omega))

set_option maxRecDepth 4000 in
theorem table27 : ∃ o, offsetTable 27 3 rows27 = .ok o ∧ TableOK o 3 27 :=
  ⟨⟨[-1, -1, -1, 0, -1, -1, 1, -1, -1, -1, 0, -1, 0, 0, -1, 1, 0, -1, -1, 1, -1, 0, 1, -1, 1, 1, -1, -1, -1, 0, 0, -1, 0, 1, -1, 0, -1, 0, 0, 0, 0, 0, 1, 0, 0, -1, 1, 0, 0, 1, 0, 1, 1, 0, -1, -1, 1, 0, -1, 1, 1, -1, 1, -1, 0, 1, 0, 0, 1, 1, 0, 1, -1, 1, 1, 0, 1, 1, 1, 1, 1], [-1, -1, -1, 0, -1, -1, 1, -1, -1, -1, 0, -1, 0, 0, -1, 1, 0, -1, -1, 1, -1, 0, 1, -1, 1, 1, -1, -1, -1, 0, 0, -1, 0, 1, -1, 0, -1, 0, 0, 0, 0, 0, 1, 0, 0, -1, 1, 0, 0, 1, 0, 1, 1, 0, -1, -1, 1, 0, -1, 1, 1, -1, 1, -1, 0, 1, 0, 0, 1, 1, 0, 1, -1, 1, 1, 0, 1, 1, 1, 1, 1],
    [(.W, ⟨0, 27, 1⟩), (.I, ⟨0, 3, 1⟩)], true, 0⟩, rfl, by decide, by decide, by decide, rfl, rfl, by decide⟩

/-- src/dot_offset.t.cpp:127-194 -/
theorem C117_3d {i0 i1 j0 j1 k0 k1 sgcw ugcw vgcw : Int} {xs xu : Nat → T} {β : Backend} (hβ : ValidBackend β) (hi : i0 ≤ i1) (hj : j0 ≤ j1) (hk : k0 ≤ k1) (hs : 0 ≤ sgcw) (hu : 1 ≤ ugcw) (hv : 0 ≤ vgcw)
    (h_s : F.Fits (F.coef3d (at_ 0) 27 i0 j0 k0 i1 j1 k1 sgcw).dims) (h_u : F.Fits (F.cell3d (at_ 1) i0 j0 k0 i1 j1 k1 ugcw).dims) (h_v : F.Fits (F.cell3d (at_ 2) i0 j0 k0 i1 j1 k1 vgcw).dims) :
    Test.dotOffset3d i0 i1 j0 j1 k0 k1 sgcw ugcw vgcw xs xu β = .ok true := by
  have I1 := h_u.int
  have I2 := h_v.int
  simp only [F.cell3d, List.mem_cons, List.not_mem_nil, or_false, forall_eq_or_imp, forall_eq, InInt] at I1 I2
  have mk_i := mkB_ok (d := .I) (lo := i0) (hi := i1) (by unfold InInt; omega)
  have mk_j := mkB_ok (d := .J) (lo := j0) (hi := j1) (by unfold InInt; omega)
  have mk_k := mkB_ok (d := .K) (lo := k0) (hi := k1) (by unfold InInt; omega)
  have mk_w := mkB_ok (d := .W) (lo := 0) (hi := 26) (by unfold InInt; omega)
  obtain ⟨v0, n0, r0⟩ := offset_ok (T := T) (g := sgcw) (ds := [(.K, k0, k1), (.J, j0, j1), (.I, i0, i1), (.W, 0, 26)]) (by simp) (by simp) (by omega) (by simp; omega) h_s
  obtain ⟨v1, n1, r1⟩ := offset_ok (T := T) (g := ugcw) (ds := [(.K, k0, k1), (.J, j0, j1), (.I, i0, i1)]) (by simp) (by simp) (by omega) (by simp; omega) h_u
  obtain ⟨v2, n2, r2⟩ := offset_ok (T := T) (g := vgcw) (ds := [(.K, k0, k1), (.J, j0, j1), (.I, i0, i1)]) (by simp) (by simp) (by omega) (by simp; omega) h_v
  have x0 := fun i j k s (h : i0 ≤ i ∧ i ≤ i1 ∧ j0 ≤ j ∧ j ≤ j1 ∧ k0 ≤ k ∧ k ≤ k1 ∧ 0 ≤ s ∧ s ≤ 26) => index_ok (g := sgcw) (ds := [(.K, k0, k1), (.J, j0, j1), (.I, i0, i1), (.W, 0, 26)]) (p := fun d => if d = .I then i else if d = .J then j else if d = .K then k else s) (by simp) (by simp)
    (by omega) (by simp; omega) h_s n0 (by simp; omega)
  have x1 := fun i j k (h : i0 - ugcw ≤ i ∧ i ≤ i1 + ugcw ∧ j0 - ugcw ≤ j ∧ j ≤ j1 + ugcw ∧ k0 - ugcw ≤ k ∧ k ≤ k1 + ugcw) => index_ok (g := ugcw) (ds := [(.K, k0, k1), (.J, j0, j1), (.I, i0, i1)]) (p := fun d => if d = .I then i else if d = .J then j else k) (by simp) (by simp) (by omega) (by simp; omega) h_u n1 (by simp; omega)
  have x2 := fun i j k (h : i0 ≤ i ∧ i ≤ i1 ∧ j0 ≤ j ∧ j ≤ j1 ∧ k0 ≤ k ∧ k ≤ k1) => index_ok (g := vgcw) (ds := [(.K, k0, k1), (.J, j0, j1), (.I, i0, i1)]) (p := fun d => if d = .I then i else if d = .J then j else k) (by simp) (by simp) (by omega) (by simp; omega) h_v n2 (by simp; omega)
  simp only [List.map_cons, List.map_nil, if_true, List.reverse_cons, List.reverse_nil, List.nil_append, List.cons_append] at x0 x1 x2
  have z2 := made_zero n2
  simp only [bounds, List.map_cons, List.map_nil] at n0 n1 n2
  have A0 : F.ArrOK (devMem [v0.fill xs, v1.fill xu, v2]) (F.coef3d (at_ 0) 27 i0 j0 k0 i1 j1 k1 sgcw) := arr_ok_of rfl (r0.fill (xs := xs)) h_s
  have A1 : F.ArrOK (devMem [v0.fill xs, v1.fill xu, v2]) (F.cell3d (at_ 1) i0 j0 k0 i1 j1 k1 ugcw) := arr_ok_of rfl (r1.fill (xs := xu)) h_u
  have A2 : F.ArrOK (devMem [v0.fill xs, v1.fill xu, v2]) (F.cell3d (at_ 2) i0 j0 k0 i1 j1 k1 vgcw) := arr_ok_of rfl r2 h_v
  obtain ⟨o, mk_o, tb⟩ : ∃ o, offsetTable 27 3 rows27 = .ok o ∧ TableOK o 3 27 := table27
  obtain ⟨m', run, vals, fr, -⟩ := C48_value_3d (m := tabled 3 o.d (devMem [v0.fill xs, v1.fill xu, v2])) (st := at_ 0) (u := at_ 1) (v := at_ 2) (o := at_ 3) (w1 := 27) hβ hi hj hk (by decide) hs hv
    ⟨by
      simp only [List.cons_append, List.nil_append, List.forall_mem_cons]
      exact ⟨arr_tabled A0, arr_tabled A1, arr_tabled A2, by simp⟩, by
      simp only [List.mem_cons, List.not_mem_nil, or_false, forall_eq_or_imp, forall_eq]
      exact ⟨arr_apart (by decide), arr_apart (by decide)⟩⟩ (tb.reach hu) (by decide)
  set m := devMem [v0.fill xs, v1.fill xu, v2] with hm
  have R := ran3 (s := v0.fill xs) (u := v1.fill xu) (r := v2) (t := o.d) (dims := (F.cell3d (at_ 2) i0 j0 k0 i1 j1 k1 vgcw).dims) (P := fun is => ∃ i j k, is = [i, j, k] ∧ i0 ≤ i ∧ i ≤ i1 ∧ j0 ≤ j ∧ j ≤ j1 ∧ k0 ≤ k ∧ k ≤ k1)
    (f := fun is => (F.irange 0 (27 - 1)).foldl (fun r s => r + F.rd m (F.cell3d (at_ 1) i0 j0 k0 i1 j1 k1 ugcw) [is.getD 0 0 + disp o 3 s 0, is.getD 1 0 + disp o 3 s 1, is.getD 2 0 + disp o 3 s 2] * F.rd m (F.coef3d (at_ 0) 27 i0 j0 k0 i1 j1 k1 sgcw) [s, is.getD 0 0, is.getD 1 0, is.getD 2 0]) 0)
    (m' := m') r2 z2 rfl (by
      rintro _ ⟨i, j, k, rfl, pi1, pi2, pj1, pj2, pk1, pk2⟩
      have := vals i j k pi1 pi2 pj1 pj2 pk1 pk2 (fun s => F.rd m (F.coef3d (at_ 0) 27 i0 j0 k0 i1 j1 k1 sgcw) [s, i, j, k]) (fun s => F.rd m (F.cell3d (at_ 1) i0 j0 k0 i1 j1 k1 ugcw) [i + disp o 3 s 0, j + disp o 3 s 1, k + disp o 3 s 2]) fun s s0 s1 => by
        have bi := tb.disp_near (s := s) (c := 0) s0 s1 (by decide) (by decide)
        have bj := tb.disp_near (s := s) (c := 1) s0 s1 (by decide) (by decide)
        have bk := tb.disp_near (s := s) (c := 2) s0 s1 (by decide) (by decide)
        exact ⟨A0.rd (show F.InBounds [(0, 27 - 1), (i0 - sgcw, i1 + sgcw), (j0 - sgcw, j1 + sgcw), (k0 - sgcw, k1 + sgcw)] [s, i, j, k] from ⟨⟨by omega, by omega⟩, ⟨by omega, by omega⟩, ⟨by omega, by omega⟩, ⟨by omega, by omega⟩, trivial⟩), _, _, _, tb.intEl (c := 0) s0 s1 (by decide) (by decide), tb.intEl (c := 1) s0 s1 (by decide) (by decide), tb.intEl (c := 2) s0 s1 (by decide) (by decide), A1.rd (F.inBounds3.2 ⟨i + disp o 3 s 0, j + disp o 3 s 1, k + disp o 3 s 2, rfl, by omega⟩)⟩
      simp only [mul_comm] at this ⊢
      exact this) (fun q hq => fr q fun i j k pi1 pi2 pj1 pj2 pk1 pk2 => hq [i, j, k] ⟨i, j, k, rfl, pi1, pi2, pj1, pj2, pk1, pk2⟩)
  have sz : (Bounds.mk 0 27 1).size = .ok 27 := rfl
  unfold Test.dotOffset3d Test.dotOffset3dOf
  simp only [mk_i, mk_j, mk_k, mk_w, n0, n1, n2, mk_o, M.ok_bind]
  rw [show (26 : Int) + 1 = 27 from rfl, sz, M.ok_bind, onDevice_all run]
  simp only [M.ok_bind, std2_run, std1_run, std0_run, R.read0, R.read1]
  rw [settled (K := fun q => ∃ k, F.OnStride k0 k1 1 k ∧ ∃ j, F.OnStride j0 j1 1 j ∧ ∃ i, F.OnStride i0 i1 1 i ∧ q = F.colMajor (F.cell3d (at_ 2) i0 j0 k0 i1 j1 k1 vgcw).dims [i, j, k]) (settles_for (by decide) (by omega) (by omega) ?_) rfl ?_]
  · simp
  · intro k ok
    refine settles_for (by decide) (by omega) (by omega) fun j oj => ?_
    refine settles_for (by decide) (by omega) (by omega) fun i oi => ?_
    obtain ⟨oi1, oi2⟩ := onStride_one.1 oi
    obtain ⟨oj1, oj2⟩ := onStride_one.1 oj
    obtain ⟨ok1, ok2⟩ := onStride_one.1 ok
    have hb : F.InBounds [(i0 - vgcw, i1 + vgcw), (j0 - vgcw, j1 + vgcw), (k0 - vgcw, k1 + vgcw)] [i, j, k] := F.inBounds3.2 ⟨i, j, k, rfl, by omega⟩
    refine settles_by (fun l => ?_) (colMajor_range hb).1 (R.at_ [i, j, k] ⟨i, j, k, rfl, oi1, oi2, oj1, oj2, ok1, ok2⟩)
    unfold dotRound3
    rw [show indexOf 2 [(after m' 0 (v0.fill xs)).toStd.1, (after m' 1 (v1.fill xu)).toStd.1, (after m' 2 v2).toStd.1] [k, j, i] = _ from x2 i j k (by omega), M.ok_bind]
    refine accumulate (by decide) (by decide) (fun s e c s0 s1 y0 y1 hc => ?_) l
    have bi := tb.disp_near (s := s) (c := 0) s0 s1 (by decide) (by decide)
    have bj := tb.disp_near (s := s) (c := 1) s0 s1 (by decide) (by decide)
    have bk := tb.disp_near (s := s) (c := 2) s0 s1 (by decide) (by decide)
    rw [tb.offAt s0 s1 (by decide) (by decide), M.ok_bind, tb.offAt s0 s1 (by decide) (by decide), M.ok_bind, tb.offAt s0 s1 (by decide) (by decide), M.ok_bind, iadd_ok (by unfold InInt; omega), M.ok_bind, iadd_ok (by unfold InInt; omega), M.ok_bind, iadd_ok (by unfold InInt; omega), M.ok_bind,
      show indexOf 1 [(after m' 0 (v0.fill xs)).toStd.1, (after m' 1 (v1.fill xu)).toStd.1, (after m' 2 v2).toStd.1] [k + disp o 3 s 2, j + disp o 3 s 1, i + disp o 3 s 0] = _ from x1 (i + disp o 3 s 0) (j + disp o 3 s 1) (k + disp o 3 s 2) (by omega), M.ok_bind,
      show indexOf 0 [(after m' 0 (v0.fill xs)).toStd.1, (after m' 1 (v1.fill xu)).toStd.1, (after m' 2 v2).toStd.1] [k, j, i, s] = _ from x0 i j k s (by omega), M.ok_bind]
    exact addProd_ok (vget_rd (vs := [v0.fill xs, v1.fill xu, v2]) (k := 1) rfl A1 (F.inBounds3.2 ⟨i + disp o 3 s 0, j + disp o 3 s 1, k + disp o 3 s 2, rfl, by omega⟩) rfl)
      (vget_rd (vs := [v0.fill xs, v1.fill xu, v2]) (k := 0) rfl A0 (show F.InBounds [(0, 27 - 1), (i0 - sgcw, i1 + sgcw), (j0 - sgcw, j1 + sgcw), (k0 - sgcw, k1 + sgcw)] [s, i, j, k] from ⟨⟨by omega, by omega⟩, ⟨by omega, by omega⟩, ⟨by omega, by omega⟩, ⟨by omega, by omega⟩, trivial⟩) rfl) y0 y1 hc
  · intro q hq hkk
    refine R.rest q (by rw [← R.len]; exact hq) ?_
    rintro _ ⟨i, j, k, rfl, pi1, pi2, pj1, pj2, pk1, pk2⟩ hb e
    exact hkk ⟨k, onStride_one.2 ⟨pk1, pk2⟩, j, onStride_one.2 ⟨pj1, pj2⟩, i, onStride_one.2 ⟨pi1, pi2⟩, e⟩

example {xs xu : Nat → ℚ} {sgcw ugcw vgcw : Int} {β : Backend} (hβ : ValidBackend β) (h1 : 1 ≤ sgcw) (h2 : sgcw ≤ 4) (h3 : 1 ≤ ugcw) (h4 : ugcw ≤ 4) (h5 : 1 ≤ vgcw) (h6 : vgcw ≤ 4) :
    Test.dotOffset3d 1 20 3 31 45 81 sgcw ugcw vgcw xs xu β = .ok true :=
  C117_3d hβ (by decide) (by decide) (by decide) (by omega) h3 (by omega) (fits_four (by omega)) (fits_small (by omega)) (fits_small (by omega))

end Verif
