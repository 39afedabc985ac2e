import Verif.Lemmas.DotOracle

/-
C120: what a passing test of the dot product with displacements means.  The function under test is arbitrary here.
-/

namespace Verif

open Spec Test

variable {T : Type} [CommRing T] [DecidableEq T]

/-- src/dot_offset.t.cpp:17-60: `m` is what the test hands to the function; it passes exactly if the function leaves the sums of products in the box and zeros around it -/
theorem C120_1d {i0 i1 sgcw ugcw vgcw : Int} {xs xu : Nat → T} {U S : List Int → T} (hi : i0 ≤ i1) (hs : 0 ≤ sgcw) (hu : 1 ≤ ugcw) (hv : 0 ≤ vgcw)
    (h_s : F.Fits (F.coef1d (at_ 0) 3 i0 i1 sgcw).dims) (h_u : F.Fits (F.cell1d (at_ 1) i0 i1 ugcw).dims) (h_v : F.Fits (F.cell1d (at_ 2) i0 i1 vgcw).dims)
    (hU : U = fun p => xu (F.colMajor (F.cell1d (at_ 1) i0 i1 ugcw).dims p).toNat) (hS : S = fun p => xs (F.colMajor (F.coef1d (at_ 0) 3 i0 i1 sgcw).dims p).toNat) :
    ∃ m : Mem T, F.Holds m (F.coef1d (at_ 0) 3 i0 i1 sgcw) S ∧ F.Holds m (F.cell1d (at_ 1) i0 i1 ugcw) U ∧ F.Holds m (F.cell1d (at_ 2) i0 i1 vgcw) (fun _ => 0) ∧
      (∀ s, 0 ≤ s → s < 3 → F.IntEl m (F.offsets (at_ 3) 1 3) [1, s + 1] ((s - 1))) ∧
      ∀ (K : Int → Mem T → M (Mem T)) (mK : Mem T), K 3 m = .ok mK → LeavesInputs m mK → ∃ b, Test.dotOffset1dOf i0 i1 sgcw ugcw vgcw xs xu K = .ok b ∧
        (b = true ↔ ∀ i, F.InBounds (F.cell1d (at_ 2) i0 i1 vgcw).dims [i] → F.El mK (F.cell1d (at_ 2) i0 i1 vgcw) [i]
          (if i0 ≤ i ∧ i ≤ i1 then U [i - 1] * S [0, i] + U [i] * S [1, i] + U [i + 1] * S [2, i] else 0)) := by
  have I1 := h_u.int
  have I2 := h_v.int
  simp only [F.cell1d, List.mem_cons, List.not_mem_nil, or_false, forall_eq, InInt] at I1 I2
  have mk_i := mkB_ok (d := .I) (lo := i0) (hi := i1) (by unfold InInt; omega)
  have mk_w := mkB_ok (d := .W) (lo := 0) (hi := 2) (by unfold InInt; omega)
  obtain ⟨v0, n0, r0⟩ := offset_ok (T := T) (g := sgcw) (ds := [(.I, i0, i1), (.W, 0, 2)]) (by simp) (by simp) (by omega) (by simp; omega) h_s
  obtain ⟨v1, n1, r1⟩ := offset_ok (T := T) (g := ugcw) (ds := [(.I, i0, i1)]) (by simp) (by simp) (by omega) (by simp; omega) h_u
  obtain ⟨v2, n2, r2⟩ := offset_ok (T := T) (g := vgcw) (ds := [(.I, i0, i1)]) (by simp) (by simp) (by omega) (by simp; omega) h_v
  have x0 := fun i s (h : i0 ≤ i ∧ i ≤ i1 ∧ 0 ≤ s ∧ s ≤ 2) => index_ok (g := sgcw) (ds := [(.I, i0, i1), (.W, 0, 2)]) (p := fun d => if d = .I then i else s) (by simp) (by simp)
    (by omega) (by simp; omega) h_s n0 (by simp; omega)
  have x1 := fun i (h : i0 - ugcw ≤ i ∧ i ≤ i1 + ugcw) => index_ok (g := ugcw) (ds := [(.I, i0, i1)]) (p := fun _ => i) (by simp) (by simp) (by omega) (by simp; omega) h_u n1 (by simp; omega)
  have x2 := fun i (h : i0 ≤ i ∧ i ≤ i1) => index_ok (g := vgcw) (ds := [(.I, i0, i1)]) (p := fun _ => i) (by simp) (by simp) (by omega) (by simp; omega) h_v n2 (by simp; omega)
  simp only [List.map_cons, List.map_nil, if_true, List.reverse_cons, List.reverse_nil, List.nil_append, List.cons_append] at x0 x1 x2
  have z2 := made_zero n2
  simp only [bounds, List.map_cons, List.map_nil] at n0 n1 n2
  have A0 : F.ArrOK (devMem [v0.fill xs, v1.fill xu, v2]) (F.coef1d (at_ 0) 3 i0 i1 sgcw) := arr_ok_of rfl (r0.fill (xs := xs)) h_s
  have A1 : F.ArrOK (devMem [v0.fill xs, v1.fill xu, v2]) (F.cell1d (at_ 1) i0 i1 ugcw) := arr_ok_of rfl (r1.fill (xs := xu)) h_u
  have A2 : F.ArrOK (devMem [v0.fill xs, v1.fill xu, v2]) (F.cell1d (at_ 2) i0 i1 vgcw) := arr_ok_of rfl r2 h_v
  obtain ⟨o, mk_o, tb, D0⟩ : ∃ o, offsetTable 3 1 (rowsOf 3 fun i => [i - 1]) = .ok o ∧ TableOK o 1 3 ∧ (∀ s, 0 ≤ s → s < 3 → disp o 1 s 0 = (s - 1)) := ⟨_, rfl, ⟨by decide, by decide, by decide, rfl, rfl, by decide⟩, fun s h0 h1 => by interval_cases s <;> rfl⟩
  obtain ⟨m', run, vals, fr, -⟩ := C48_value_1d (m := tabled 3 o.d (devMem [v0.fill xs, v1.fill xu, v2])) (st := at_ 0) (u := at_ 1) (v := at_ 2) (o := at_ 3) (w1 := 3) seqBackend_ok hi (by decide) hs hv
    ⟨by
      simp only [List.cons_append, List.nil_append, List.forall_mem_cons]
      exact ⟨arr_tabled A0, arr_tabled A1, arr_tabled A2, by simp⟩, by
      simp only [List.mem_cons, List.not_mem_nil, or_false, forall_eq_or_imp, forall_eq]
      exact ⟨arr_apart (by decide), arr_apart (by decide)⟩⟩ (tb.reach hu) (by decide)
  set m := devMem [v0.fill xs, v1.fill xu, v2] with hm
  have R := ran3 (s := v0.fill xs) (u := v1.fill xu) (r := v2) (t := o.d) (dims := (F.cell1d (at_ 2) i0 i1 vgcw).dims) (P := fun is => ∃ i, is = [i] ∧ i0 ≤ i ∧ i ≤ i1)
    (f := fun is => (F.irange 0 (3 - 1)).foldl (fun r s => r + F.rd m (F.cell1d (at_ 1) i0 i1 ugcw) [is.getD 0 0 + disp o 1 s 0] * F.rd m (F.coef1d (at_ 0) 3 i0 i1 sgcw) [s, is.getD 0 0]) 0)
    (m' := m') r2 z2 rfl (by
      rintro _ ⟨i, rfl, h1, h2⟩
      have := vals i h1 h2 (fun s => F.rd m (F.coef1d (at_ 0) 3 i0 i1 sgcw) [s, i]) (fun s => F.rd m (F.cell1d (at_ 1) i0 i1 ugcw) [i + disp o 1 s 0]) fun s s0 s1 => by
        have b := tb.disp_near (s := s) (c := 0) s0 s1 (by decide) (by decide)
        exact ⟨A0.rd (F.inBounds2.2 ⟨s, i, rfl, by omega⟩), _, tb.intEl (c := 0) s0 s1 (by decide) (by decide), A1.rd (F.inBounds1.2 ⟨_, rfl, by omega⟩)⟩
      simp only [mul_comm] at this ⊢
      exact this) (fun q hq => fr q fun i h1 h2 => hq [i] ⟨i, rfl, h1, h2⟩)
  have HS : F.Holds m (F.coef1d (at_ 0) 3 i0 i1 sgcw) S := hS ▸ holds_fill (vs := [v0.fill xs, v1.fill xu, v2]) (k := 0) rfl r0
  have HU : F.Holds m (F.cell1d (at_ 1) i0 i1 ugcw) U := hU ▸ holds_fill (vs := [v0.fill xs, v1.fill xu, v2]) (k := 1) rfl r1
  have HV : F.Holds m (F.cell1d (at_ 2) i0 i1 vgcw) (fun _ => 0) := holds_zero (vs := [v0.fill xs, v1.fill xu, v2]) (k := 2) rfl r2 z2
  refine ⟨tabled 3 o.d m, HS, HU, HV, fun s s0 s1 => D0 s s0 s1 ▸ tb.intEl (c := 0) s0 s1 (by decide) (by decide), fun K mK runK hK => ?_⟩
  have kept0 : newBlock mK 0 (v0.fill xs).d = (v0.fill xs).d := newBlock_same fun q hq => by
    rw [hK.keeps _ (by simp)]
    exact devMem_val (vs := [v0.fill xs, v1.fill xu, v2]) (k := 0) rfl q
  have kept1 : newBlock mK 1 (v1.fill xu).d = (v1.fill xu).d := newBlock_same fun q hq => by
    rw [hK.keeps _ (by simp)]
    exact devMem_val (vs := [v0.fill xs, v1.fill xu, v2]) (k := 1) rfl q
  have J := judge (t := o.d) (mK := mK) (g := fun is => if i0 ≤ is.getD 0 0 ∧ is.getD 0 0 ≤ i1 then (F.irange 0 (3 - 1)).foldl (fun r s => r + F.rd m (F.cell1d (at_ 1) i0 i1 ugcw) [is.getD 0 0 + disp o 1 s 0] * F.rd m (F.coef1d (at_ 0) 3 i0 i1 sgcw) [s, is.getD 0 0]) 0 else 0) R r2
    (by simp [F.cell1d]; omega) (by
      rintro _ ⟨i, rfl, hb⟩
      exact if_pos hb) (fun is hi' hn => by
      obtain ⟨i, rfl, hb⟩ := F.inBounds1.1 hi'
      exact if_neg fun h => hn ⟨i, rfl, h⟩) hK
  have sz : (Bounds.mk 0 3 1).size = .ok 3 := rfl
  unfold Test.dotOffset1dOf
  simp only [mk_i, mk_w, n0, n1, n2, mk_o, M.ok_bind]
  rw [show (2 : Int) + 1 = 3 from rfl, sz, M.ok_bind, onDevice_all (c := fun m => K 3 (tabled 3 o.data.d m)) runK]
  simp only [M.ok_bind, std2_run, std1_run, std0_run, kept0, kept1]
  rw [settled (G := newBlock m' 2 v2.d) (K := fun q => ∃ i, F.OnStride i0 i1 1 i ∧ q = F.colMajor (F.cell1d (at_ 2) i0 i1 vgcw).dims [i]) (settles_for (by decide) (by omega) (by omega) ?_) (by rw [newBlock_length, newBlock_length]) ?_]
  · refine ⟨_, rfl, ?_⟩
    rw [decide_eq_true_iff, J]
    have E : ∀ i, F.InBounds (F.cell1d (at_ 2) i0 i1 vgcw).dims [i] → (if i0 ≤ i ∧ i ≤ i1 then (F.irange 0 (3 - 1)).foldl (fun r s => r + F.rd m (F.cell1d (at_ 1) i0 i1 ugcw) [i + disp o 1 s 0] * F.rd m (F.coef1d (at_ 0) 3 i0 i1 sgcw) [s, i]) 0 else 0) = (if i0 ≤ i ∧ i ≤ i1 then U [i - 1] * S [0, i] + U [i] * S [1, i] + U [i + 1] * S [2, i] else (0 : T)) := fun i hb => by
      have hb' := F.inBounds1.1 hb
      split
      · rename_i hin
        rw [show F.irange 0 (3 - 1) = F.irange 0 (((3 : Nat) : Int) - 1) from rfl, foldl_range, zero_add]
        have term : ∀ s : Nat, s < 3 → F.rd m (F.cell1d (at_ 1) i0 i1 ugcw) [i + disp o 1 s 0] * F.rd m (F.coef1d (at_ 0) 3 i0 i1 sgcw) [(s : Int), i] = U [i + disp o 1 s 0] * S [(s : Int), i] := fun s hs' => by
          have b0 := tb.disp_near (s := (s : Int)) (c := 0) (by omega) (by omega) (by decide) (by decide)
          rw [(HU _ (F.inBounds1.2 ⟨i + disp o 1 s 0, rfl, by omega⟩)).rd, (HS _ (F.inBounds2.2 ⟨(s : Int), i, rfl, by omega⟩)).rd]
        rw [List.map_congr_left (g := fun s : Nat => U [i + disp o 1 s 0] * S [(s : Int), i]) (fun s hs' => term s (List.mem_range.1 hs'))]
        simp only [List.range_succ, List.range_zero, List.map_append, List.map_nil, List.map_cons, List.nil_append, List.sum_append, List.sum_cons, List.sum_nil, List.cons_append, Nat.cast_zero, Nat.cast_one, Nat.cast_ofNat, add_zero]
        rw [D0 0 (by decide) (by decide)]
        rw [D0 1 (by decide) (by decide)]
        rw [D0 2 (by decide) (by decide)]
        simp
        ring
      · rfl
    constructor
    · intro h i hb
      rw [← E i hb]
      exact h _ hb
    · intro h is hb
      obtain ⟨i, rfl, -⟩ := F.inBounds1.1 hb
      have := h i hb
      rw [← E i hb] at this
      exact this
  · intro i oi
    obtain ⟨o1, o2⟩ := onStride_one.1 oi
    have hb : F.InBounds [(i0 - vgcw, i1 + vgcw)] [i] := F.inBounds1.2 ⟨i, rfl, by omega⟩
    refine settles_by (fun l => ?_) (colMajor_range hb).1 (R.at_ [i] ⟨i, rfl, o1, o2⟩)
    unfold dotRound1
    rw [show indexOf 2 [(after mK 0 (v0.fill xs)).toStd.1, (after mK 1 (v1.fill xu)).toStd.1, (after mK 2 v2).toStd.1] [i] = _ from x2 i ⟨o1, o2⟩, M.ok_bind]
    refine accumulate (by decide) (by decide) (fun s e c s0 s1 y0 y1 hc => ?_) l
    have b := tb.disp_near (s := s) (c := 0) s0 s1 (by decide) (by decide)
    rw [tb.offAt s0 s1 (by decide) (by decide), M.ok_bind, iadd_ok (by unfold InInt; omega), M.ok_bind, show indexOf 1 [(after mK 0 (v0.fill xs)).toStd.1, (after mK 1 (v1.fill xu)).toStd.1, (after mK 2 v2).toStd.1] [i + disp o 1 s 0] = _ from x1 _ (by omega), M.ok_bind,
      show indexOf 0 [(after mK 0 (v0.fill xs)).toStd.1, (after mK 1 (v1.fill xu)).toStd.1, (after mK 2 v2).toStd.1] [i, s] = _ from x0 i s (by omega), M.ok_bind]
    exact addProd_ok (vget_rd (vs := [v0.fill xs, v1.fill xu, v2]) (k := 1) rfl A1 (F.inBounds1.2 ⟨i + disp o 1 s 0, rfl, by omega⟩) rfl)
      (vget_rd (vs := [v0.fill xs, v1.fill xu, v2]) (k := 0) rfl A0 (F.inBounds2.2 ⟨s, i, rfl, by omega⟩) rfl) y0 y1 hc
  · intro q hq hkk
    refine R.rest q (by rw [← R.len]; exact hq) ?_
    rintro _ ⟨i, rfl, h1, h2⟩ hb e
    exact hkk ⟨i, onStride_one.2 ⟨h1, h2⟩, e⟩

/-- a function that does nothing, on vectors of ones: the test fails -/
example : ∃ b, Test.dotOffset1dOf 1 10 1 2 1 (fun _ => (1 : ℚ)) (fun _ => 1) (fun _ m => .ok m) = .ok b ∧ b = false := by
  obtain ⟨m, -, -, z, -, h⟩ := C120_1d (T := ℚ) (i0 := 1) (i1 := 10) (sgcw := 1) (ugcw := 2) (vgcw := 1) (xs := fun _ => 1) (xu := fun _ => 1) (by decide) (by decide) (by decide) (by decide) ⟨by simp [F.coef1d], by simp [F.coef1d, InInt]⟩ ⟨by simp [F.cell1d], by simp [F.cell1d, InInt]⟩ ⟨by simp [F.cell1d], by simp [F.cell1d, InInt]⟩ rfl rfl
  obtain ⟨b, h1, h2⟩ := h (fun _ m => .ok m) m rfl ⟨fun q _ => rfl, fun q v hv => ⟨v, hv⟩⟩
  refine ⟨b, h1, Bool.eq_false_iff.2 fun hb => ?_⟩
  have ib : F.InBounds [(1 - 1, 10 + 1)] [1] := F.inBounds1.2 ⟨1, rfl, by omega⟩
  have e := (h2.1 hb 1 ib).2
  rw [(z _ ib).2, if_pos (by decide)] at e
  norm_num at e

/-- src/dot_offset.t.cpp:62-125: `m` is what the test hands to the function; it passes exactly if the function leaves the sums of products in the box and zeros around it -/
theorem C120_2d {i0 i1 j0 j1 sgcw ugcw vgcw : Int} {xs xu : Nat → T} {U S : List Int → T} (hi : i0 ≤ i1) (hj : j0 ≤ j1) (hs : 0 ≤ sgcw) (hu : 1 ≤ ugcw) (hv : 0 ≤ vgcw)
    (h_s : F.Fits (F.coef2d (at_ 0) 7 i0 j0 i1 j1 sgcw).dims) (h_u : F.Fits (F.cell2d (at_ 1) i0 j0 i1 j1 ugcw).dims) (h_v : F.Fits (F.cell2d (at_ 2) i0 j0 i1 j1 vgcw).dims)
    (hU : U = fun p => xu (F.colMajor (F.cell2d (at_ 1) i0 j0 i1 j1 ugcw).dims p).toNat) (hS : S = fun p => xs (F.colMajor (F.coef2d (at_ 0) 7 i0 j0 i1 j1 sgcw).dims p).toNat) :
    ∃ m : Mem T, F.Holds m (F.coef2d (at_ 0) 7 i0 j0 i1 j1 sgcw) S ∧ F.Holds m (F.cell2d (at_ 1) i0 j0 i1 j1 ugcw) U ∧ F.Holds m (F.cell2d (at_ 2) i0 j0 i1 j1 vgcw) (fun _ => 0) ∧
      (∀ s, 0 ≤ s → s < 7 → F.IntEl m (F.offsets (at_ 3) 2 7) [1, s + 1] (([0, -1, 1, 0, 0, -1, 1] : List Int).getD s.toNat 0)) ∧
      (∀ s, 0 ≤ s → s < 7 → F.IntEl m (F.offsets (at_ 3) 2 7) [2, s + 1] (([0, 0, 0, -1, 1, 1, -1] : List Int).getD s.toNat 0)) ∧
      ∀ (K : Int → Mem T → M (Mem T)) (mK : Mem T), K 7 m = .ok mK → LeavesInputs m mK → ∃ b, Test.dotOffset2dOf i0 i1 j0 j1 sgcw ugcw vgcw xs xu K = .ok b ∧
        (b = true ↔ ∀ i j, F.InBounds (F.cell2d (at_ 2) i0 j0 i1 j1 vgcw).dims [i, j] → F.El mK (F.cell2d (at_ 2) i0 j0 i1 j1 vgcw) [i, j]
          (if i0 ≤ i ∧ i ≤ i1 ∧ j0 ≤ j ∧ j ≤ j1 then U [i, j] * S [0, i, j] + U [i - 1, j] * S [1, i, j] + U [i + 1, j] * S [2, i, j] + U [i, j - 1] * S [3, i, j] + U [i, j + 1] * S [4, i, j] + U [i - 1, j + 1] * S [5, i, j] + U [i + 1, j - 1] * S [6, i, j] else 0)) := by
  have I1 := h_u.int
  have I2 := h_v.int
  simp only [F.cell2d, List.mem_cons, List.not_mem_nil, or_false, forall_eq_or_imp, forall_eq, InInt] at I1 I2
  have mk_i := mkB_ok (d := .I) (lo := i0) (hi := i1) (by unfold InInt; omega)
  have mk_j := mkB_ok (d := .J) (lo := j0) (hi := j1) (by unfold InInt; omega)
  have mk_w := mkB_ok (d := .W) (lo := 0) (hi := 6) (by unfold InInt; omega)
  obtain ⟨v0, n0, r0⟩ := offset_ok (T := T) (g := sgcw) (ds := [(.J, j0, j1), (.I, i0, i1), (.W, 0, 6)]) (by simp) (by simp) (by omega) (by simp; omega) h_s
  obtain ⟨v1, n1, r1⟩ := offset_ok (T := T) (g := ugcw) (ds := [(.J, j0, j1), (.I, i0, i1)]) (by simp) (by simp) (by omega) (by simp; omega) h_u
  obtain ⟨v2, n2, r2⟩ := offset_ok (T := T) (g := vgcw) (ds := [(.J, j0, j1), (.I, i0, i1)]) (by simp) (by simp) (by omega) (by simp; omega) h_v
  have x0 := fun i j s (h : i0 ≤ i ∧ i ≤ i1 ∧ j0 ≤ j ∧ j ≤ j1 ∧ 0 ≤ s ∧ s ≤ 6) => index_ok (g := sgcw) (ds := [(.J, j0, j1), (.I, i0, i1), (.W, 0, 6)]) (p := fun d => if d = .I then i else if d = .J then j else s) (by simp) (by simp)
    (by omega) (by simp; omega) h_s n0 (by simp; omega)
  have x1 := fun i j (h : i0 - ugcw ≤ i ∧ i ≤ i1 + ugcw ∧ j0 - ugcw ≤ j ∧ j ≤ j1 + ugcw) => index_ok (g := ugcw) (ds := [(.J, j0, j1), (.I, i0, i1)]) (p := fun d => if d = .I then i else j) (by simp) (by simp) (by omega) (by simp; omega) h_u n1 (by simp; omega)
  have x2 := fun i j (h : i0 ≤ i ∧ i ≤ i1 ∧ j0 ≤ j ∧ j ≤ j1) => index_ok (g := vgcw) (ds := [(.J, j0, j1), (.I, i0, i1)]) (p := fun d => if d = .I then i else j) (by simp) (by simp) (by omega) (by simp; omega) h_v n2 (by simp; omega)
  simp only [List.map_cons, List.map_nil, if_true, List.reverse_cons, List.reverse_nil, List.nil_append, List.cons_append] at x0 x1 x2
  have z2 := made_zero n2
  simp only [bounds, List.map_cons, List.map_nil] at n0 n1 n2
  have A0 : F.ArrOK (devMem [v0.fill xs, v1.fill xu, v2]) (F.coef2d (at_ 0) 7 i0 j0 i1 j1 sgcw) := arr_ok_of rfl (r0.fill (xs := xs)) h_s
  have A1 : F.ArrOK (devMem [v0.fill xs, v1.fill xu, v2]) (F.cell2d (at_ 1) i0 j0 i1 j1 ugcw) := arr_ok_of rfl (r1.fill (xs := xu)) h_u
  have A2 : F.ArrOK (devMem [v0.fill xs, v1.fill xu, v2]) (F.cell2d (at_ 2) i0 j0 i1 j1 vgcw) := arr_ok_of rfl r2 h_v
  obtain ⟨o, mk_o, tb, D0, D1⟩ : ∃ o, offsetTable 7 2 [(0, [0, 0]), (1, [-1, 0]), (2, [1, 0]), (3, [0, -1]), (4, [0, 1]), (5, [-1, 1]), (6, [1, -1])] = .ok o ∧ TableOK o 2 7 ∧ (∀ s, 0 ≤ s → s < 7 → disp o 2 s 0 = ([0, -1, 1, 0, 0, -1, 1] : List Int).getD s.toNat 0) ∧ (∀ s, 0 ≤ s → s < 7 → disp o 2 s 1 = ([0, 0, 0, -1, 1, 1, -1] : List Int).getD s.toNat 0) := ⟨_, rfl, ⟨by decide, by decide, by decide, rfl, rfl, by decide⟩, fun s h0 h1 => by interval_cases s <;> rfl, fun s h0 h1 => by interval_cases s <;> rfl⟩
  obtain ⟨m', run, vals, fr, -⟩ := C48_value_2d (m := tabled 3 o.d (devMem [v0.fill xs, v1.fill xu, v2])) (st := at_ 0) (u := at_ 1) (v := at_ 2) (o := at_ 3) (w1 := 7) seqBackend_ok hi hj (by decide) hs hv
    ⟨by
      simp only [List.cons_append, List.nil_append, List.forall_mem_cons]
      exact ⟨arr_tabled A0, arr_tabled A1, arr_tabled A2, by simp⟩, by
      simp only [List.mem_cons, List.not_mem_nil, or_false, forall_eq_or_imp, forall_eq]
      exact ⟨arr_apart (by decide), arr_apart (by decide)⟩⟩ (tb.reach hu) (by decide)
  set m := devMem [v0.fill xs, v1.fill xu, v2] with hm
  have R := ran3 (s := v0.fill xs) (u := v1.fill xu) (r := v2) (t := o.d) (dims := (F.cell2d (at_ 2) i0 j0 i1 j1 vgcw).dims) (P := fun is => ∃ i j, is = [i, j] ∧ i0 ≤ i ∧ i ≤ i1 ∧ j0 ≤ j ∧ j ≤ j1)
    (f := fun is => (F.irange 0 (7 - 1)).foldl (fun r s => r + F.rd m (F.cell2d (at_ 1) i0 j0 i1 j1 ugcw) [is.getD 0 0 + disp o 2 s 0, is.getD 1 0 + disp o 2 s 1] * F.rd m (F.coef2d (at_ 0) 7 i0 j0 i1 j1 sgcw) [s, is.getD 0 0, is.getD 1 0]) 0)
    (m' := m') r2 z2 rfl (by
      rintro _ ⟨i, j, rfl, pi1, pi2, pj1, pj2⟩
      have := vals i j pi1 pi2 pj1 pj2 (fun s => F.rd m (F.coef2d (at_ 0) 7 i0 j0 i1 j1 sgcw) [s, i, j]) (fun s => F.rd m (F.cell2d (at_ 1) i0 j0 i1 j1 ugcw) [i + disp o 2 s 0, j + disp o 2 s 1]) fun s s0 s1 => by
        have bi := tb.disp_near (s := s) (c := 0) s0 s1 (by decide) (by decide)
        have bj := tb.disp_near (s := s) (c := 1) s0 s1 (by decide) (by decide)
        exact ⟨A0.rd (F.inBounds3.2 ⟨s, i, j, rfl, by omega⟩), _, _, tb.intEl (c := 0) s0 s1 (by decide) (by decide), tb.intEl (c := 1) s0 s1 (by decide) (by decide), A1.rd (F.inBounds2.2 ⟨i + disp o 2 s 0, j + disp o 2 s 1, rfl, by omega⟩)⟩
      simp only [mul_comm] at this ⊢
      exact this) (fun q hq => fr q fun i j pi1 pi2 pj1 pj2 => hq [i, j] ⟨i, j, rfl, pi1, pi2, pj1, pj2⟩)
  have HS : F.Holds m (F.coef2d (at_ 0) 7 i0 j0 i1 j1 sgcw) S := hS ▸ holds_fill (vs := [v0.fill xs, v1.fill xu, v2]) (k := 0) rfl r0
  have HU : F.Holds m (F.cell2d (at_ 1) i0 j0 i1 j1 ugcw) U := hU ▸ holds_fill (vs := [v0.fill xs, v1.fill xu, v2]) (k := 1) rfl r1
  have HV : F.Holds m (F.cell2d (at_ 2) i0 j0 i1 j1 vgcw) (fun _ => 0) := holds_zero (vs := [v0.fill xs, v1.fill xu, v2]) (k := 2) rfl r2 z2
  refine ⟨tabled 3 o.d m, HS, HU, HV, fun s s0 s1 => D0 s s0 s1 ▸ tb.intEl (c := 0) s0 s1 (by decide) (by decide), fun s s0 s1 => D1 s s0 s1 ▸ tb.intEl (c := 1) s0 s1 (by decide) (by decide), fun K mK runK hK => ?_⟩
  have kept0 : newBlock mK 0 (v0.fill xs).d = (v0.fill xs).d := newBlock_same fun q hq => by
    rw [hK.keeps _ (by simp)]
    exact devMem_val (vs := [v0.fill xs, v1.fill xu, v2]) (k := 0) rfl q
  have kept1 : newBlock mK 1 (v1.fill xu).d = (v1.fill xu).d := newBlock_same fun q hq => by
    rw [hK.keeps _ (by simp)]
    exact devMem_val (vs := [v0.fill xs, v1.fill xu, v2]) (k := 1) rfl q
  have J := judge (t := o.d) (mK := mK) (g := fun is => if i0 ≤ is.getD 0 0 ∧ is.getD 0 0 ≤ i1 ∧ j0 ≤ is.getD 1 0 ∧ is.getD 1 0 ≤ j1 then (F.irange 0 (7 - 1)).foldl (fun r s => r + F.rd m (F.cell2d (at_ 1) i0 j0 i1 j1 ugcw) [is.getD 0 0 + disp o 2 s 0, is.getD 1 0 + disp o 2 s 1] * F.rd m (F.coef2d (at_ 0) 7 i0 j0 i1 j1 sgcw) [s, is.getD 0 0, is.getD 1 0]) 0 else 0) R r2
    (by simp [F.cell2d]; omega) (by
      rintro _ ⟨i, j, rfl, hb⟩
      exact if_pos hb) (fun is hi' hn => by
      obtain ⟨i, j, rfl, hb⟩ := F.inBounds2.1 hi'
      exact if_neg fun h => hn ⟨i, j, rfl, h⟩) hK
  have sz : (Bounds.mk 0 7 1).size = .ok 7 := rfl
  unfold Test.dotOffset2dOf
  simp only [mk_i, mk_j, mk_w, n0, n1, n2, mk_o, M.ok_bind]
  rw [show (6 : Int) + 1 = 7 from rfl, sz, M.ok_bind, onDevice_all (c := fun m => K 7 (tabled 3 o.data.d m)) runK]
  simp only [M.ok_bind, std2_run, std1_run, std0_run, kept0, kept1]
  rw [settled (G := newBlock m' 2 v2.d) (K := fun q => ∃ j, F.OnStride j0 j1 1 j ∧ ∃ i, F.OnStride i0 i1 1 i ∧ q = F.colMajor (F.cell2d (at_ 2) i0 j0 i1 j1 vgcw).dims [i, j]) (settles_for (by decide) (by omega) (by omega) ?_) (by rw [newBlock_length, newBlock_length]) ?_]
  · refine ⟨_, rfl, ?_⟩
    rw [decide_eq_true_iff, J]
    have E : ∀ i j, F.InBounds (F.cell2d (at_ 2) i0 j0 i1 j1 vgcw).dims [i, j] → (if i0 ≤ i ∧ i ≤ i1 ∧ j0 ≤ j ∧ j ≤ j1 then (F.irange 0 (7 - 1)).foldl (fun r s => r + F.rd m (F.cell2d (at_ 1) i0 j0 i1 j1 ugcw) [i + disp o 2 s 0, j + disp o 2 s 1] * F.rd m (F.coef2d (at_ 0) 7 i0 j0 i1 j1 sgcw) [s, i, j]) 0 else 0) = (if i0 ≤ i ∧ i ≤ i1 ∧ j0 ≤ j ∧ j ≤ j1 then U [i, j] * S [0, i, j] + U [i - 1, j] * S [1, i, j] + U [i + 1, j] * S [2, i, j] + U [i, j - 1] * S [3, i, j] + U [i, j + 1] * S [4, i, j] + U [i - 1, j + 1] * S [5, i, j] + U [i + 1, j - 1] * S [6, i, j] else (0 : T)) := fun i j hb => by
      have hb' := F.inBounds2.1 hb
      split
      · rename_i hin
        rw [show F.irange 0 (7 - 1) = F.irange 0 (((7 : Nat) : Int) - 1) from rfl, foldl_range, zero_add]
        have term : ∀ s : Nat, s < 7 → F.rd m (F.cell2d (at_ 1) i0 j0 i1 j1 ugcw) [i + disp o 2 s 0, j + disp o 2 s 1] * F.rd m (F.coef2d (at_ 0) 7 i0 j0 i1 j1 sgcw) [(s : Int), i, j] = U [i + disp o 2 s 0, j + disp o 2 s 1] * S [(s : Int), i, j] := fun s hs' => by
          have b0 := tb.disp_near (s := (s : Int)) (c := 0) (by omega) (by omega) (by decide) (by decide)
          have b1 := tb.disp_near (s := (s : Int)) (c := 1) (by omega) (by omega) (by decide) (by decide)
          rw [(HU _ (F.inBounds2.2 ⟨i + disp o 2 s 0, j + disp o 2 s 1, rfl, by omega⟩)).rd, (HS _ (F.inBounds3.2 ⟨(s : Int), i, j, rfl, by omega⟩)).rd]
        rw [List.map_congr_left (g := fun s : Nat => U [i + disp o 2 s 0, j + disp o 2 s 1] * S [(s : Int), i, j]) (fun s hs' => term s (List.mem_range.1 hs'))]
        simp only [List.range_succ, List.range_zero, List.map_append, List.map_nil, List.map_cons, List.nil_append, List.sum_append, List.sum_cons, List.sum_nil, List.cons_append, Nat.cast_zero, Nat.cast_one, Nat.cast_ofNat, add_zero]
        rw [D0 0 (by decide) (by decide), D1 0 (by decide) (by decide)]
        rw [D0 1 (by decide) (by decide), D1 1 (by decide) (by decide)]
        rw [D0 2 (by decide) (by decide), D1 2 (by decide) (by decide)]
        rw [D0 3 (by decide) (by decide), D1 3 (by decide) (by decide)]
        rw [D0 4 (by decide) (by decide), D1 4 (by decide) (by decide)]
        rw [D0 5 (by decide) (by decide), D1 5 (by decide) (by decide)]
        rw [D0 6 (by decide) (by decide), D1 6 (by decide) (by decide)]
        simp
        ring
      · rfl
    constructor
    · intro h i j hb
      rw [← E i j hb]
      exact h _ hb
    · intro h is hb
      obtain ⟨i, j, rfl, -⟩ := F.inBounds2.1 hb
      have := h i j hb
      rw [← E i j hb] at this
      exact this
  · intro j oj
    refine settles_for (by decide) (by omega) (by omega) fun i oi => ?_
    obtain ⟨oi1, oi2⟩ := onStride_one.1 oi
    obtain ⟨oj1, oj2⟩ := onStride_one.1 oj
    have hb : F.InBounds [(i0 - vgcw, i1 + vgcw), (j0 - vgcw, j1 + vgcw)] [i, j] := F.inBounds2.2 ⟨i, j, rfl, by omega⟩
    refine settles_by (fun l => ?_) (colMajor_range hb).1 (R.at_ [i, j] ⟨i, j, rfl, oi1, oi2, oj1, oj2⟩)
    unfold dotRound2
    rw [show indexOf 2 [(after mK 0 (v0.fill xs)).toStd.1, (after mK 1 (v1.fill xu)).toStd.1, (after mK 2 v2).toStd.1] [j, i] = _ from x2 i j (by omega), M.ok_bind]
    refine accumulate (by decide) (by decide) (fun s e c s0 s1 y0 y1 hc => ?_) l
    have bi := tb.disp_near (s := s) (c := 0) s0 s1 (by decide) (by decide)
    have bj := tb.disp_near (s := s) (c := 1) s0 s1 (by decide) (by decide)
    rw [tb.offAt s0 s1 (by decide) (by decide), M.ok_bind, tb.offAt s0 s1 (by decide) (by decide), M.ok_bind, iadd_ok (by unfold InInt; omega), M.ok_bind, iadd_ok (by unfold InInt; omega), M.ok_bind,
      show indexOf 1 [(after mK 0 (v0.fill xs)).toStd.1, (after mK 1 (v1.fill xu)).toStd.1, (after mK 2 v2).toStd.1] [j + disp o 2 s 1, i + disp o 2 s 0] = _ from x1 (i + disp o 2 s 0) (j + disp o 2 s 1) (by omega), M.ok_bind,
      show indexOf 0 [(after mK 0 (v0.fill xs)).toStd.1, (after mK 1 (v1.fill xu)).toStd.1, (after mK 2 v2).toStd.1] [j, i, s] = _ from x0 i j s (by omega), M.ok_bind]
    exact addProd_ok (vget_rd (vs := [v0.fill xs, v1.fill xu, v2]) (k := 1) rfl A1 (F.inBounds2.2 ⟨i + disp o 2 s 0, j + disp o 2 s 1, rfl, by omega⟩) rfl)
      (vget_rd (vs := [v0.fill xs, v1.fill xu, v2]) (k := 0) rfl A0 (F.inBounds3.2 ⟨s, i, j, rfl, by omega⟩) rfl) y0 y1 hc
  · intro q hq hkk
    refine R.rest q (by rw [← R.len]; exact hq) ?_
    rintro _ ⟨i, j, rfl, pi1, pi2, pj1, pj2⟩ hb e
    exact hkk ⟨j, onStride_one.2 ⟨pj1, pj2⟩, i, onStride_one.2 ⟨pi1, pi2⟩, e⟩

/-- a function that does nothing, on vectors of ones: the test fails -/
example : ∃ b, Test.dotOffset2dOf 1 10 3 12 1 2 1 (fun _ => (1 : ℚ)) (fun _ => 1) (fun _ m => .ok m) = .ok b ∧ b = false := by
  obtain ⟨m, -, -, z, -, -, h⟩ := C120_2d (T := ℚ) (i0 := 1) (i1 := 10) (j0 := 3) (j1 := 12) (sgcw := 1) (ugcw := 2) (vgcw := 1) (xs := fun _ => 1) (xu := fun _ => 1) (by decide) (by decide) (by decide) (by decide) (by decide) (fits_small (by omega)) (fits_two (by omega)) (fits_two (by omega)) rfl rfl
  obtain ⟨b, h1, h2⟩ := h (fun _ m => .ok m) m rfl ⟨fun q _ => rfl, fun q v hv => ⟨v, hv⟩⟩
  refine ⟨b, h1, Bool.eq_false_iff.2 fun hb => ?_⟩
  have ib : F.InBounds [(1 - 1, 10 + 1), (3 - 1, 12 + 1)] [1, 3] := F.inBounds2.2 ⟨1, 3, rfl, by omega⟩
  have e := (h2.1 hb 1 3 ib).2
  rw [(z _ ib).2, if_pos (by decide)] at e
  norm_num at e

set_option maxRecDepth 4000 in
theorem table27_values : ∃ o, offsetTable 27 3 rows27 = .ok o ∧ TableOK o 3 27 ∧ (∀ s, 0 ≤ s → s < 27 → disp o 3 s 0 = s % 3 - 1) ∧ (∀ s, 0 ≤ s → s < 27 → disp o 3 s 1 = s / 3 % 3 - 1) ∧
    (∀ s, 0 ≤ s → s < 27 → disp o 3 s 2 = s / 9 - 1) := by
  refine ⟨⟨[-1, -1, -1, 0, -1, -1, 1, -1, -1, -1, 0, -1, 0, 0, -1, 1, 0, -1, -1, 1, -1, 0, 1, -1, 1, 1, -1, -1, -1, 0, 0, -1, 0, 1, -1, 0, -1, 0, 0, 0, 0, 0, 1, 0, 0, -1, 1, 0, 0, 1, 0, 1, 1, 0, -1, -1, 1, 0, -1, 1, 1, -1, 1, -1, 0, 1, 0, 0, 1, 1, 0, 1, -1, 1, 1, 0, 1, 1, 1, 1, 1], [-1, -1, -1, 0, -1, -1, 1, -1, -1, -1, 0, -1, 0, 0, -1, 1, 0, -1, -1, 1, -1, 0, 1, -1, 1, 1, -1, -1, -1, 0, 0, -1, 0, 1, -1, 0, -1, 0, 0, 0, 0, 0, 1, 0, 0, -1, 1, 0, 0, 1, 0, 1, 1, 0, -1, -1, 1, 0, -1, 1, 1, -1, 1, -1, 0, 1, 0, 0, 1, 1, 0, 1, -1, 1, 1, 0, 1, 1, 1, 1, 1],
    [(.W, ⟨0, 27, 1⟩), (.I, ⟨0, 3, 1⟩)], true, 0⟩, rfl, ⟨by decide, by decide, by decide, rfl, rfl, by decide⟩, fun s h0 h1 => ?_, fun s h0 h1 => ?_, fun s h0 h1 => ?_⟩
  all_goals interval_cases s <;> rfl

/-- src/dot_offset.t.cpp:127-194: `m` is what the test hands to the function; it passes exactly if the function leaves the sums of products in the box and zeros around it -/
theorem C120_3d {i0 i1 j0 j1 k0 k1 sgcw ugcw vgcw : Int} {xs xu : Nat → T} {U S : List Int → T} (hi : i0 ≤ i1) (hj : j0 ≤ j1) (hk : k0 ≤ k1) (hs : 0 ≤ sgcw) (hu : 1 ≤ ugcw) (hv : 0 ≤ vgcw)
    (h_s : F.Fits (F.coef3d (at_ 0) 27 i0 j0 k0 i1 j1 k1 sgcw).dims) (h_u : F.Fits (F.cell3d (at_ 1) i0 j0 k0 i1 j1 k1 ugcw).dims) (h_v : F.Fits (F.cell3d (at_ 2) i0 j0 k0 i1 j1 k1 vgcw).dims)
    (hU : U = fun p => xu (F.colMajor (F.cell3d (at_ 1) i0 j0 k0 i1 j1 k1 ugcw).dims p).toNat) (hS : S = fun p => xs (F.colMajor (F.coef3d (at_ 0) 27 i0 j0 k0 i1 j1 k1 sgcw).dims p).toNat) :
    ∃ m : Mem T, F.Holds m (F.coef3d (at_ 0) 27 i0 j0 k0 i1 j1 k1 sgcw) S ∧ F.Holds m (F.cell3d (at_ 1) i0 j0 k0 i1 j1 k1 ugcw) U ∧ F.Holds m (F.cell3d (at_ 2) i0 j0 k0 i1 j1 k1 vgcw) (fun _ => 0) ∧
      (∀ s, 0 ≤ s → s < 27 → F.IntEl m (F.offsets (at_ 3) 3 27) [1, s + 1] ((s % 3 - 1))) ∧
      (∀ s, 0 ≤ s → s < 27 → F.IntEl m (F.offsets (at_ 3) 3 27) [2, s + 1] ((s / 3 % 3 - 1))) ∧
      (∀ s, 0 ≤ s → s < 27 → F.IntEl m (F.offsets (at_ 3) 3 27) [3, s + 1] ((s / 9 - 1))) ∧
      ∀ (K : Int → Mem T → M (Mem T)) (mK : Mem T), K 27 m = .ok mK → LeavesInputs m mK → ∃ b, Test.dotOffset3dOf i0 i1 j0 j1 k0 k1 sgcw ugcw vgcw xs xu K = .ok b ∧
        (b = true ↔ ∀ i j k, F.InBounds (F.cell3d (at_ 2) i0 j0 k0 i1 j1 k1 vgcw).dims [i, j, k] → F.El mK (F.cell3d (at_ 2) i0 j0 k0 i1 j1 k1 vgcw) [i, j, k]
          (if i0 ≤ i ∧ i ≤ i1 ∧ j0 ≤ j ∧ j ≤ j1 ∧ k0 ≤ k ∧ k ≤ k1 then ((List.range 27).map fun s : Nat => U [i + ((s : Int) % 3 - 1), j + ((s : Int) / 3 % 3 - 1), k + ((s : Int) / 9 - 1)] * S [(s : Int), i, j, k]).sum else 0)) := by
  have I1 := h_u.int
  have I2 := h_v.int
  simp only [F.cell3d, List.mem_cons, List.not_mem_nil, or_false, forall_eq_or_imp, forall_eq, InInt] at I1 I2
  have mk_i := mkB_ok (d := .I) (lo := i0) (hi := i1) (by unfold InInt; omega)
  have mk_j := mkB_ok (d := .J) (lo := j0) (hi := j1) (by unfold InInt; omega)
  have mk_k := mkB_ok (d := .K) (lo := k0) (hi := k1) (by unfold InInt; omega)
  have mk_w := mkB_ok (d := .W) (lo := 0) (hi := 26) (by unfold InInt; omega)
  obtain ⟨v0, n0, r0⟩ := offset_ok (T := T) (g := sgcw) (ds := [(.K, k0, k1), (.J, j0, j1), (.I, i0, i1), (.W, 0, 26)]) (by simp) (by simp) (by omega) (by simp; omega) h_s
  obtain ⟨v1, n1, r1⟩ := offset_ok (T := T) (g := ugcw) (ds := [(.K, k0, k1), (.J, j0, j1), (.I, i0, i1)]) (by simp) (by simp) (by omega) (by simp; omega) h_u
  obtain ⟨v2, n2, r2⟩ := offset_ok (T := T) (g := vgcw) (ds := [(.K, k0, k1), (.J, j0, j1), (.I, i0, i1)]) (by simp) (by simp) (by omega) (by simp; omega) h_v
  have x0 := fun i j k s (h : i0 ≤ i ∧ i ≤ i1 ∧ j0 ≤ j ∧ j ≤ j1 ∧ k0 ≤ k ∧ k ≤ k1 ∧ 0 ≤ s ∧ s ≤ 26) => index_ok (g := sgcw) (ds := [(.K, k0, k1), (.J, j0, j1), (.I, i0, i1), (.W, 0, 26)]) (p := fun d => if d = .I then i else if d = .J then j else if d = .K then k else s) (by simp) (by simp)
    (by omega) (by simp; omega) h_s n0 (by simp; omega)
  have x1 := fun i j k (h : i0 - ugcw ≤ i ∧ i ≤ i1 + ugcw ∧ j0 - ugcw ≤ j ∧ j ≤ j1 + ugcw ∧ k0 - ugcw ≤ k ∧ k ≤ k1 + ugcw) => index_ok (g := ugcw) (ds := [(.K, k0, k1), (.J, j0, j1), (.I, i0, i1)]) (p := fun d => if d = .I then i else if d = .J then j else k) (by simp) (by simp) (by omega) (by simp; omega) h_u n1 (by simp; omega)
  have x2 := fun i j k (h : i0 ≤ i ∧ i ≤ i1 ∧ j0 ≤ j ∧ j ≤ j1 ∧ k0 ≤ k ∧ k ≤ k1) => index_ok (g := vgcw) (ds := [(.K, k0, k1), (.J, j0, j1), (.I, i0, i1)]) (p := fun d => if d = .I then i else if d = .J then j else k) (by simp) (by simp) (by omega) (by simp; omega) h_v n2 (by simp; omega)
  simp only [List.map_cons, List.map_nil, if_true, List.reverse_cons, List.reverse_nil, List.nil_append, List.cons_append] at x0 x1 x2
  have z2 := made_zero n2
  simp only [bounds, List.map_cons, List.map_nil] at n0 n1 n2
  have A0 : F.ArrOK (devMem [v0.fill xs, v1.fill xu, v2]) (F.coef3d (at_ 0) 27 i0 j0 k0 i1 j1 k1 sgcw) := arr_ok_of rfl (r0.fill (xs := xs)) h_s
  have A1 : F.ArrOK (devMem [v0.fill xs, v1.fill xu, v2]) (F.cell3d (at_ 1) i0 j0 k0 i1 j1 k1 ugcw) := arr_ok_of rfl (r1.fill (xs := xu)) h_u
  have A2 : F.ArrOK (devMem [v0.fill xs, v1.fill xu, v2]) (F.cell3d (at_ 2) i0 j0 k0 i1 j1 k1 vgcw) := arr_ok_of rfl r2 h_v
  obtain ⟨o, mk_o, tb, D0, D1, D2⟩ := table27_values
  obtain ⟨m', run, vals, fr, -⟩ := C48_value_3d (m := tabled 3 o.d (devMem [v0.fill xs, v1.fill xu, v2])) (st := at_ 0) (u := at_ 1) (v := at_ 2) (o := at_ 3) (w1 := 27) seqBackend_ok hi hj hk (by decide) hs hv
    ⟨by
      simp only [List.cons_append, List.nil_append, List.forall_mem_cons]
      exact ⟨arr_tabled A0, arr_tabled A1, arr_tabled A2, by simp⟩, by
      simp only [List.mem_cons, List.not_mem_nil, or_false, forall_eq_or_imp, forall_eq]
      exact ⟨arr_apart (by decide), arr_apart (by decide)⟩⟩ (tb.reach hu) (by decide)
  set m := devMem [v0.fill xs, v1.fill xu, v2] with hm
  have R := ran3 (s := v0.fill xs) (u := v1.fill xu) (r := v2) (t := o.d) (dims := (F.cell3d (at_ 2) i0 j0 k0 i1 j1 k1 vgcw).dims) (P := fun is => ∃ i j k, is = [i, j, k] ∧ i0 ≤ i ∧ i ≤ i1 ∧ j0 ≤ j ∧ j ≤ j1 ∧ k0 ≤ k ∧ k ≤ k1)
    (f := fun is => (F.irange 0 (27 - 1)).foldl (fun r s => r + F.rd m (F.cell3d (at_ 1) i0 j0 k0 i1 j1 k1 ugcw) [is.getD 0 0 + disp o 3 s 0, is.getD 1 0 + disp o 3 s 1, is.getD 2 0 + disp o 3 s 2] * F.rd m (F.coef3d (at_ 0) 27 i0 j0 k0 i1 j1 k1 sgcw) [s, is.getD 0 0, is.getD 1 0, is.getD 2 0]) 0)
    (m' := m') r2 z2 rfl (by
      rintro _ ⟨i, j, k, rfl, pi1, pi2, pj1, pj2, pk1, pk2⟩
      have := vals i j k pi1 pi2 pj1 pj2 pk1 pk2 (fun s => F.rd m (F.coef3d (at_ 0) 27 i0 j0 k0 i1 j1 k1 sgcw) [s, i, j, k]) (fun s => F.rd m (F.cell3d (at_ 1) i0 j0 k0 i1 j1 k1 ugcw) [i + disp o 3 s 0, j + disp o 3 s 1, k + disp o 3 s 2]) fun s s0 s1 => by
        have bi := tb.disp_near (s := s) (c := 0) s0 s1 (by decide) (by decide)
        have bj := tb.disp_near (s := s) (c := 1) s0 s1 (by decide) (by decide)
        have bk := tb.disp_near (s := s) (c := 2) s0 s1 (by decide) (by decide)
        exact ⟨A0.rd (show F.InBounds [(0, 27 - 1), (i0 - sgcw, i1 + sgcw), (j0 - sgcw, j1 + sgcw), (k0 - sgcw, k1 + sgcw)] [s, i, j, k] from ⟨⟨by omega, by omega⟩, ⟨by omega, by omega⟩, ⟨by omega, by omega⟩, ⟨by omega, by omega⟩, trivial⟩), _, _, _, tb.intEl (c := 0) s0 s1 (by decide) (by decide), tb.intEl (c := 1) s0 s1 (by decide) (by decide), tb.intEl (c := 2) s0 s1 (by decide) (by decide), A1.rd (F.inBounds3.2 ⟨i + disp o 3 s 0, j + disp o 3 s 1, k + disp o 3 s 2, rfl, by omega⟩)⟩
      simp only [mul_comm] at this ⊢
      exact this) (fun q hq => fr q fun i j k pi1 pi2 pj1 pj2 pk1 pk2 => hq [i, j, k] ⟨i, j, k, rfl, pi1, pi2, pj1, pj2, pk1, pk2⟩)
  have HS : F.Holds m (F.coef3d (at_ 0) 27 i0 j0 k0 i1 j1 k1 sgcw) S := hS ▸ holds_fill (vs := [v0.fill xs, v1.fill xu, v2]) (k := 0) rfl r0
  have HU : F.Holds m (F.cell3d (at_ 1) i0 j0 k0 i1 j1 k1 ugcw) U := hU ▸ holds_fill (vs := [v0.fill xs, v1.fill xu, v2]) (k := 1) rfl r1
  have HV : F.Holds m (F.cell3d (at_ 2) i0 j0 k0 i1 j1 k1 vgcw) (fun _ => 0) := holds_zero (vs := [v0.fill xs, v1.fill xu, v2]) (k := 2) rfl r2 z2
  refine ⟨tabled 3 o.d m, HS, HU, HV, fun s s0 s1 => D0 s s0 s1 ▸ tb.intEl (c := 0) s0 s1 (by decide) (by decide), fun s s0 s1 => D1 s s0 s1 ▸ tb.intEl (c := 1) s0 s1 (by decide) (by decide), fun s s0 s1 => D2 s s0 s1 ▸ tb.intEl (c := 2) s0 s1 (by decide) (by decide), fun K mK runK hK => ?_⟩
  have kept0 : newBlock mK 0 (v0.fill xs).d = (v0.fill xs).d := newBlock_same fun q hq => by
    rw [hK.keeps _ (by simp)]
    exact devMem_val (vs := [v0.fill xs, v1.fill xu, v2]) (k := 0) rfl q
  have kept1 : newBlock mK 1 (v1.fill xu).d = (v1.fill xu).d := newBlock_same fun q hq => by
    rw [hK.keeps _ (by simp)]
    exact devMem_val (vs := [v0.fill xs, v1.fill xu, v2]) (k := 1) rfl q
  have J := judge (t := o.d) (mK := mK) (g := fun is => if i0 ≤ is.getD 0 0 ∧ is.getD 0 0 ≤ i1 ∧ j0 ≤ is.getD 1 0 ∧ is.getD 1 0 ≤ j1 ∧ k0 ≤ is.getD 2 0 ∧ is.getD 2 0 ≤ k1 then (F.irange 0 (27 - 1)).foldl (fun r s => r + F.rd m (F.cell3d (at_ 1) i0 j0 k0 i1 j1 k1 ugcw) [is.getD 0 0 + disp o 3 s 0, is.getD 1 0 + disp o 3 s 1, is.getD 2 0 + disp o 3 s 2] * F.rd m (F.coef3d (at_ 0) 27 i0 j0 k0 i1 j1 k1 sgcw) [s, is.getD 0 0, is.getD 1 0, is.getD 2 0]) 0 else 0) R r2
    (by simp [F.cell3d]; omega) (by
      rintro _ ⟨i, j, k, rfl, hb⟩
      exact if_pos hb) (fun is hi' hn => by
      obtain ⟨i, j, k, rfl, hb⟩ := F.inBounds3.1 hi'
      exact if_neg fun h => hn ⟨i, j, k, rfl, h⟩) hK
  have sz : (Bounds.mk 0 27 1).size = .ok 27 := rfl
  unfold Test.dotOffset3dOf
  simp only [mk_i, mk_j, mk_k, mk_w, n0, n1, n2, mk_o, M.ok_bind]
  rw [show (26 : Int) + 1 = 27 from rfl, sz, M.ok_bind, onDevice_all (c := fun m => K 27 (tabled 3 o.data.d m)) runK]
  simp only [M.ok_bind, std2_run, std1_run, std0_run, kept0, kept1]
  rw [settled (G := newBlock m' 2 v2.d) (K := fun q => ∃ k, F.OnStride k0 k1 1 k ∧ ∃ j, F.OnStride j0 j1 1 j ∧ ∃ i, F.OnStride i0 i1 1 i ∧ q = F.colMajor (F.cell3d (at_ 2) i0 j0 k0 i1 j1 k1 vgcw).dims [i, j, k]) (settles_for (by decide) (by omega) (by omega) ?_) (by rw [newBlock_length, newBlock_length]) ?_]
  · refine ⟨_, rfl, ?_⟩
    rw [decide_eq_true_iff, J]
    have E : ∀ i j k, F.InBounds (F.cell3d (at_ 2) i0 j0 k0 i1 j1 k1 vgcw).dims [i, j, k] → (if i0 ≤ i ∧ i ≤ i1 ∧ j0 ≤ j ∧ j ≤ j1 ∧ k0 ≤ k ∧ k ≤ k1 then (F.irange 0 (27 - 1)).foldl (fun r s => r + F.rd m (F.cell3d (at_ 1) i0 j0 k0 i1 j1 k1 ugcw) [i + disp o 3 s 0, j + disp o 3 s 1, k + disp o 3 s 2] * F.rd m (F.coef3d (at_ 0) 27 i0 j0 k0 i1 j1 k1 sgcw) [s, i, j, k]) 0 else 0) = (if i0 ≤ i ∧ i ≤ i1 ∧ j0 ≤ j ∧ j ≤ j1 ∧ k0 ≤ k ∧ k ≤ k1 then ((List.range 27).map fun s : Nat => U [i + ((s : Int) % 3 - 1), j + ((s : Int) / 3 % 3 - 1), k + ((s : Int) / 9 - 1)] * S [(s : Int), i, j, k]).sum else (0 : T)) := fun i j k hb => by
      have hb' := F.inBounds3.1 hb
      split
      · rename_i hin
        rw [show F.irange 0 (27 - 1) = F.irange 0 (((27 : Nat) : Int) - 1) from rfl, foldl_range, zero_add]
        have term : ∀ s : Nat, s < 27 → F.rd m (F.cell3d (at_ 1) i0 j0 k0 i1 j1 k1 ugcw) [i + disp o 3 s 0, j + disp o 3 s 1, k + disp o 3 s 2] * F.rd m (F.coef3d (at_ 0) 27 i0 j0 k0 i1 j1 k1 sgcw) [(s : Int), i, j, k] = U [i + disp o 3 s 0, j + disp o 3 s 1, k + disp o 3 s 2] * S [(s : Int), i, j, k] := fun s hs' => by
          have b0 := tb.disp_near (s := (s : Int)) (c := 0) (by omega) (by omega) (by decide) (by decide)
          have b1 := tb.disp_near (s := (s : Int)) (c := 1) (by omega) (by omega) (by decide) (by decide)
          have b2 := tb.disp_near (s := (s : Int)) (c := 2) (by omega) (by omega) (by decide) (by decide)
          rw [(HU _ (F.inBounds3.2 ⟨i + disp o 3 s 0, j + disp o 3 s 1, k + disp o 3 s 2, rfl, by omega⟩)).rd, (HS _ (show F.InBounds [(0, 27 - 1), (i0 - sgcw, i1 + sgcw), (j0 - sgcw, j1 + sgcw), (k0 - sgcw, k1 + sgcw)] [(s : Int), i, j, k] from ⟨⟨by omega, by omega⟩, ⟨by omega, by omega⟩, ⟨by omega, by omega⟩, ⟨by omega, by omega⟩, trivial⟩)).rd]
        rw [List.map_congr_left (g := fun s : Nat => U [i + disp o 3 s 0, j + disp o 3 s 1, k + disp o 3 s 2] * S [(s : Int), i, j, k]) (fun s hs' => term s (List.mem_range.1 hs'))]
        refine congrArg List.sum (List.map_congr_left fun s hs' => ?_)
        have l := List.mem_range.1 hs'
        rw [D0 s (by omega) (by omega), D1 s (by omega) (by omega), D2 s (by omega) (by omega)]
      · rfl
    constructor
    · intro h i j k hb
      rw [← E i j k hb]
      exact h _ hb
    · intro h is hb
      obtain ⟨i, j, k, rfl, -⟩ := F.inBounds3.1 hb
      have := h i j k hb
      rw [← E i j k hb] at this
      exact this
  · intro k ok
    refine settles_for (by decide) (by omega) (by omega) fun j oj => ?_
    refine settles_for (by decide) (by omega) (by omega) fun i oi => ?_
    obtain ⟨oi1, oi2⟩ := onStride_one.1 oi
    obtain ⟨oj1, oj2⟩ := onStride_one.1 oj
    obtain ⟨ok1, ok2⟩ := onStride_one.1 ok
    have hb : F.InBounds [(i0 - vgcw, i1 + vgcw), (j0 - vgcw, j1 + vgcw), (k0 - vgcw, k1 + vgcw)] [i, j, k] := F.inBounds3.2 ⟨i, j, k, rfl, by omega⟩
    refine settles_by (fun l => ?_) (colMajor_range hb).1 (R.at_ [i, j, k] ⟨i, j, k, rfl, oi1, oi2, oj1, oj2, ok1, ok2⟩)
    unfold dotRound3
    rw [show indexOf 2 [(after mK 0 (v0.fill xs)).toStd.1, (after mK 1 (v1.fill xu)).toStd.1, (after mK 2 v2).toStd.1] [k, j, i] = _ from x2 i j k (by omega), M.ok_bind]
    refine accumulate (by decide) (by decide) (fun s e c s0 s1 y0 y1 hc => ?_) l
    have bi := tb.disp_near (s := s) (c := 0) s0 s1 (by decide) (by decide)
    have bj := tb.disp_near (s := s) (c := 1) s0 s1 (by decide) (by decide)
    have bk := tb.disp_near (s := s) (c := 2) s0 s1 (by decide) (by decide)
    rw [tb.offAt s0 s1 (by decide) (by decide), M.ok_bind, tb.offAt s0 s1 (by decide) (by decide), M.ok_bind, tb.offAt s0 s1 (by decide) (by decide), M.ok_bind, iadd_ok (by unfold InInt; omega), M.ok_bind, iadd_ok (by unfold InInt; omega), M.ok_bind, iadd_ok (by unfold InInt; omega), M.ok_bind,
      show indexOf 1 [(after mK 0 (v0.fill xs)).toStd.1, (after mK 1 (v1.fill xu)).toStd.1, (after mK 2 v2).toStd.1] [k + disp o 3 s 2, j + disp o 3 s 1, i + disp o 3 s 0] = _ from x1 (i + disp o 3 s 0) (j + disp o 3 s 1) (k + disp o 3 s 2) (by omega), M.ok_bind,
      show indexOf 0 [(after mK 0 (v0.fill xs)).toStd.1, (after mK 1 (v1.fill xu)).toStd.1, (after mK 2 v2).toStd.1] [k, j, i, s] = _ from x0 i j k s (by omega), M.ok_bind]
    exact addProd_ok (vget_rd (vs := [v0.fill xs, v1.fill xu, v2]) (k := 1) rfl A1 (F.inBounds3.2 ⟨i + disp o 3 s 0, j + disp o 3 s 1, k + disp o 3 s 2, rfl, by omega⟩) rfl)
      (vget_rd (vs := [v0.fill xs, v1.fill xu, v2]) (k := 0) rfl A0 (show F.InBounds [(0, 27 - 1), (i0 - sgcw, i1 + sgcw), (j0 - sgcw, j1 + sgcw), (k0 - sgcw, k1 + sgcw)] [s, i, j, k] from ⟨⟨by omega, by omega⟩, ⟨by omega, by omega⟩, ⟨by omega, by omega⟩, ⟨by omega, by omega⟩, trivial⟩) rfl) y0 y1 hc
  · intro q hq hkk
    refine R.rest q (by rw [← R.len]; exact hq) ?_
    rintro _ ⟨i, j, k, rfl, pi1, pi2, pj1, pj2, pk1, pk2⟩ hb e
    exact hkk ⟨k, onStride_one.2 ⟨pk1, pk2⟩, j, onStride_one.2 ⟨pj1, pj2⟩, i, onStride_one.2 ⟨pi1, pi2⟩, e⟩

/-- a function that does nothing, on vectors of ones: the test fails -/
example : ∃ b, Test.dotOffset3dOf 1 20 3 31 45 81 1 2 1 (fun _ => (1 : ℚ)) (fun _ => 1) (fun _ m => .ok m) = .ok b ∧ b = false := by
  obtain ⟨m, -, -, z, -, -, -, h⟩ := C120_3d (T := ℚ) (i0 := 1) (i1 := 20) (j0 := 3) (j1 := 31) (k0 := 45) (k1 := 81) (sgcw := 1) (ugcw := 2) (vgcw := 1) (xs := fun _ => 1) (xu := fun _ => 1) (by decide) (by decide) (by decide) (by decide) (by decide) (by decide) (fits_four (by omega)) (fits_small (by omega)) (fits_small (by omega)) rfl rfl
  obtain ⟨b, h1, h2⟩ := h (fun _ m => .ok m) m rfl ⟨fun q _ => rfl, fun q v hv => ⟨v, hv⟩⟩
  refine ⟨b, h1, Bool.eq_false_iff.2 fun hb => ?_⟩
  have ib : F.InBounds [(1 - 1, 20 + 1), (3 - 1, 31 + 1), (45 - 1, 81 + 1)] [1, 3, 45] := F.inBounds3.2 ⟨1, 3, 45, rfl, by omega⟩
  have e := (h2.1 hb 1 3 45 ib).2
  rw [(z _ ib).2, if_pos (by decide)] at e
  norm_num at e

end Verif
