import Verif.Lemmas.SpanOracle

/-
C126: what a passing span test means.  The function under test is arbitrary here.
-/

namespace Verif

open Spec Test

variable {T : Type} [Field T] [DecidableEq T]

/-- src/md_device_span.t.cpp:74-109: `m` is what the test hands to the function; it passes exactly if the function leaves `beta` times the element of `u` on the steps and zeros elsewhere -/
theorem C126_stride_1d {i0 i1 s : Int} {beta : T} {ugcw rgcw : Int} {xu : Nat → T} {U : List Int → T}
    (hi : i0 ≤ i1) (hs : 1 ≤ s) (hfit : i1 - i0 + s ≤ 2147483647) (hend : i1 + s ≤ 2147483647) (hu : 0 ≤ ugcw) (hr : 0 ≤ rgcw)
    (h_u : F.Fits (F.cell1d (at_ 0) i0 i1 ugcw).dims) (h_r : F.Fits (F.cell1d (at_ 1) i0 i1 rgcw).dims)
    (hU : U = fun p => xu (F.colMajor (F.cell1d (at_ 0) i0 i1 ugcw).dims p).toNat) :
    ∃ m : Mem T, F.Holds m (F.cell1d (at_ 0) i0 i1 ugcw) U ∧ F.Holds m (F.cell1d (at_ 1) i0 i1 rgcw) (fun _ => 0) ∧
      ∀ (K : Mem T → M (Mem T)) (mK : Mem T), K m = .ok mK → LeavesFirst m mK → ∃ b, Test.spanStride1dOf i0 i1 s beta ugcw rgcw xu K = .ok b ∧
        (b = true ↔ (∀ i, F.OnStride i0 i1 s i → F.El mK (F.cell1d (at_ 1) i0 i1 rgcw) [i] (beta * U [i])) ∧
          ∀ i, F.InBounds (F.cell1d (at_ 1) i0 i1 rgcw).dims [i] → ¬ (F.OnStride i0 i1 s i) → F.El mK (F.cell1d (at_ 1) i0 i1 rgcw) [i] 0) := by
  have I0 := h_u.int
  have I1 := h_r.int
  have F0 := h_u.fits
  have F1 := h_r.fits
  simp only [F.cell1d, List.mem_cons, List.not_mem_nil, or_false, forall_eq, InInt, List.map_cons, List.map_nil, List.prod_cons, List.prod_nil, mul_one] at I0 I1 F0 F1
  have mk_i := mkB_ok (d := .I) (lo := i0) (hi := i1) (by unfold InInt; omega)
  obtain ⟨v0, n0, r0⟩ := offset_ok (T := T) (g := ugcw) (ds := [(.I, i0, i1)]) (by simp) (by simp) (by omega) (by simp; omega) h_u
  obtain ⟨v1, n1, r1⟩ := offset_ok (T := T) (g := rgcw) (ds := [(.I, i0, i1)]) (by simp) (by simp) (by omega) (by simp; omega) h_r
  have z1 := made_zero n1
  simp only [bounds, List.map_cons, List.map_nil] at n0 n1
  have A0 : F.ArrOK (devMem [v0.fill xu, v1]) (F.cell1d (at_ 0) i0 i1 ugcw) := arr_ok_of rfl (r0.fill (xs := xu)) h_u
  have A1 : F.ArrOK (devMem [v0.fill xu, v1]) (F.cell1d (at_ 1) i0 i1 rgcw) := arr_ok_of rfl r1 h_r
  obtain ⟨m', -, sets⟩ := C95_stride_1d (beta := beta) (dx := fun _ => 0) (m := devMem [v0.fill xu, v1]) (β := fun _ => seqBackend) (fun _ => seqBackend_ok) hi hs hfit hu hr ⟨by
    simp only [List.cons_append, List.nil_append, List.forall_mem_cons]
    exact ⟨A0, A1, by simp⟩, by simpa [F.cell1d] using arr_apart (by decide)⟩
  have R₀ := ran r1 z1 rfl sets
  have HU : F.Holds (devMem [v0.fill xu, v1]) (F.cell1d (at_ 0) i0 i1 ugcw) U := hU ▸ holds_fill (vs := [v0.fill xu, v1]) (k := 0) rfl r0
  have HR : F.Holds (devMem [v0.fill xu, v1]) (F.cell1d (at_ 1) i0 i1 rgcw) (fun _ => 0) := holds_zero (vs := [v0.fill xu, v1]) (k := 1) rfl r1 z1
  have R := R₀.congr (g := fun c => beta * U c) (by
    rintro _ ⟨i, rfl, oi⟩
    obtain ⟨o1, o2, -⟩ := oi
    show beta * F.rd _ _ [i] = beta * U [i]
    rw [(HU [i] (F.inBounds1.2 ⟨i, rfl, by omega⟩)).rd])
  refine ⟨devMem [v0.fill xu, v1], HU, HR, fun K mK runK hK => ?_⟩
  have kept0 : newBlock mK 0 (v0.fill xu).d = (v0.fill xu).d := newBlock_same fun q hq => by
    rw [hK.keeps _ (by simp)]
    exact devMem_val (vs := [v0.fill xu, v1]) (k := 0) rfl q
  have J := judge2 (dims := (F.cell1d (at_ 1) i0 i1 rgcw).dims) (mK := mK) R r1 (by simp [F.cell1d]; omega) (by
    rintro _ ⟨i, rfl, oi⟩
    obtain ⟨o1, o2, -⟩ := oi
    exact F.inBounds1.2 ⟨i, rfl, by omega⟩) hK
  unfold Test.spanStride1dOf
  simp only [mk_i, n0, n1, M.ok_bind]
  rw [onDevice_two (c := K) runK]
  simp only [M.ok_bind, zeros_after, hostOf_after, std_after, kept0]
  rw [settled (G := newBlock m' 1 v1.d) (K := fun q => ∃ i, F.OnStride i0 i1 s i ∧ q = i - (i0 - rgcw)) (settles_for hs hend (by omega) ?_) R.len.symm ?_]
  · refine ⟨_, rfl, ?_⟩
    rw [decide_eq_true_iff, J]
    constructor
    · rintro ⟨a, b⟩
      exact ⟨fun i oi => a [i] ⟨i, rfl, oi⟩, fun i hb hn => b [i] hb (by
        rintro ⟨i', e, oi⟩
        cases e
        exact hn oi)⟩
    · rintro ⟨a, b⟩
      refine ⟨?_, fun is hb hn => ?_⟩
      · rintro _ ⟨i, rfl, oi⟩
        exact a i oi
      · obtain ⟨i, rfl, -⟩ := F.inBounds1.1 hb
        exact b i hb fun oi => hn ⟨i, rfl, oi⟩
  · intro i oi
    have P : ∃ j, [i] = [j] ∧ F.OnStride i0 i1 s j := ⟨i, rfl, oi⟩
    obtain ⟨o1, o2, -⟩ := oi
    have C : i - (i0 - rgcw) = F.colMajor (shape rgcw [(.I, i0, i1)]) [i] := by simp [shape, F.colMajor]
    refine settles_by (x := beta * F.rd (devMem [v0.fill xu, v1]) (F.cell1d (at_ 0) i0 i1 ugcw) [i]) (fun l => ?_) (by omega) (by rw [C]; exact R₀.at_ _ P)
    rw [isub_ok (by unfold InInt; omega), M.ok_bind, isub_ok (by unfold InInt; omega), M.ok_bind]
    rw [isub_ok (by unfold InInt; omega), M.ok_bind, isub_ok (by unfold InInt; omega), M.ok_bind]
    rw [vget_rd rfl A0 (is := [i]) (F.inBounds1.2 ⟨i, rfl, by omega⟩) (by simp [F.colMajor]), M.ok_bind]
    rfl
  · intro q hq hk
    refine R.rest q (by rw [← R.len]; exact hq) ?_
    rintro is ⟨i, rfl, oi⟩ hb e
    exact hk ⟨i, oi, by rw [e]; simp [shape, F.colMajor]⟩

/-- a function that does nothing, on a vector of ones: the test fails -/
example : ∃ b, Test.spanStride1dOf 3 8 2 2 1 2 (fun _ => (1 : ℚ)) (fun m => .ok m) = .ok b ∧ b = false := by
  obtain ⟨m, -, z, h⟩ := C126_stride_1d (T := ℚ) (i0 := 3) (i1 := 8) (s := 2) (beta := 2) (ugcw := 1) (rgcw := 2) (xu := fun _ => 1) (by decide) (by decide) (by decide) (by decide) (by decide) (by decide)
    (fits_of (by decide)) (fits_of (by decide)) rfl
  obtain ⟨b, h1, h2⟩ := h (fun m => .ok m) m rfl ⟨fun q _ => rfl, fun q v hv => ⟨v, hv⟩⟩
  refine ⟨b, h1, Bool.eq_false_iff.2 fun hb => ?_⟩
  have e := (h2.1 hb).1 3 ⟨by decide, by decide, 0, by decide⟩
  have e' := e.2
  rw [(z _ e.1).2] at e'
  norm_num at e'

/-- a function that puts zeros into vector 0 and leaves the rest as it is -/
def wipe (m : Mem T) : M (Mem T) := .ok { m with val := fun q => if q.blk = 0 then (m.val q).map fun _ => 0 else m.val q }

/-- that the function leaves `u` as it is cannot be left out: the test takes `u` as it finds it after the call, so it passes if the function wipes `u` and computes nothing -/
theorem C126_unnoticed_stride_1d {i0 i1 s : Int} {beta : T} {ugcw rgcw : Int} {xu : Nat → T}
    (hi : i0 ≤ i1) (hs : 1 ≤ s) (hend : i1 + s ≤ 2147483647) (hu : 0 ≤ ugcw) (hr : 0 ≤ rgcw)
    (h_u : F.Fits (F.cell1d (at_ 0) i0 i1 ugcw).dims) (h_r : F.Fits (F.cell1d (at_ 1) i0 i1 rgcw).dims) :
    Test.spanStride1dOf i0 i1 s beta ugcw rgcw xu wipe = .ok true := by
  have I0 := h_u.int
  have I1 := h_r.int
  have F0 := h_u.fits
  have F1 := h_r.fits
  simp only [F.cell1d, List.mem_cons, List.not_mem_nil, or_false, forall_eq, InInt, List.map_cons, List.map_nil, List.prod_cons, List.prod_nil, mul_one] at I0 I1 F0 F1
  have mk_i := mkB_ok (d := .I) (lo := i0) (hi := i1) (by unfold InInt; omega)
  obtain ⟨v0, n0, r0⟩ := offset_ok (T := T) (g := ugcw) (ds := [(.I, i0, i1)]) (by simp) (by simp) (by omega) (by simp; omega) h_u
  obtain ⟨v1, n1, r1⟩ := offset_ok (T := T) (g := rgcw) (ds := [(.I, i0, i1)]) (by simp) (by simp) (by omega) (by simp; omega) h_r
  have z1 := made_zero n1
  simp only [bounds, List.map_cons, List.map_nil] at n0 n1
  obtain ⟨mK, runK, e0, e1⟩ : ∃ mK, wipe (devMem [v0.fill xu, v1]) = .ok mK ∧ (∀ q : Nat, mK.val ⟨0, (q : Int)⟩ = ((v0.fill xu).d[q]?).map fun _ => 0) ∧
      ∀ q : Nat, mK.val ⟨1, (q : Int)⟩ = v1.d[q]? :=
    ⟨_, rfl, fun q => by rw [← devMem_val (vs := [v0.fill xu, v1]) (k := 0) rfl q]; rfl, fun q => by rw [← devMem_val (vs := [v0.fill xu, v1]) (k := 1) rfl q]; rfl⟩
  have kept1 : newBlock mK 1 v1.d = v1.d := newBlock_same fun q _ => e1 q
  have L0 := (r0.fill (xs := xu)).len
  have L1 := r1.len
  simp [shape] at L0 L1
  have got1 : ∀ q : Nat, q < v1.d.length → v1.d[q]? = some 0 := fun q hq => by
    rw [List.getElem?_eq_getElem hq, z1 _ (List.getElem_mem _)]
  have got0 : ∀ q : Int, 0 ≤ q → q < i1 + ugcw - (i0 - ugcw) + 1 → vget (newBlock mK 0 (v0.fill xu).d) q = .ok 0 := fun q h0 h1 => by
    refine vget_ok h0 ?_
    rw [newBlock_get (fun q hq => ⟨0, by rw [e0, List.getElem?_eq_getElem hq]; rfl⟩) _ (by omega), e0, List.getElem?_eq_getElem (by omega)]
    rfl
  unfold Test.spanStride1dOf
  simp only [mk_i, n0, n1, M.ok_bind]
  rw [onDevice_two (c := wipe) runK]
  simp only [M.ok_bind, zeros_after, hostOf_after, std_after, kept1]
  rw [settled (G := v1.d) (K := fun q => ∃ i, F.OnStride i0 i1 s i ∧ q = i - (i0 - rgcw)) (settles_for hs hend (by omega) ?_) (by rw [r1.same]) fun q hq _ => got1 q hq]
  · simp
  · intro i oi
    obtain ⟨o1, o2, -⟩ := oi
    refine settles_by (x := 0) (fun l => ?_) (by omega) (got1 _ (by omega))
    rw [isub_ok (by unfold InInt; omega), M.ok_bind, isub_ok (by unfold InInt; omega), M.ok_bind]
    rw [isub_ok (by unfold InInt; omega), M.ok_bind, isub_ok (by unfold InInt; omega), M.ok_bind]
    rw [got0 _ (by omega) (by omega), M.ok_bind, mul_zero]

example : Test.spanStride1dOf 3 8 2 2 1 2 (fun _ => (1 : ℚ)) wipe = .ok true :=
  C126_unnoticed_stride_1d (by decide) (by decide) (by decide) (by decide) (by decide) (fits_of (by decide)) (fits_of (by decide))

/-- src/md_device_span.t.cpp:35-72: `m` is what the test hands to the function; it passes exactly if the function leaves the sum of the differences over `u + 10` in the box and zeros around it -/
theorem C126_init_1d {i0 i1 : Int} {dx : Nat → T} {ugcw rgcw : Int} {xu : Nat → T} {U : List Int → T}
    (hi : i0 ≤ i1) (hu : 1 ≤ ugcw) (hr : 0 ≤ rgcw) (h_u : F.Fits (F.cell1d (at_ 0) i0 i1 ugcw).dims) (h_r : F.Fits (F.cell1d (at_ 1) i0 i1 rgcw).dims)
    (hU : U = fun p => xu (F.colMajor (F.cell1d (at_ 0) i0 i1 ugcw).dims p).toNat) :
    ∃ m : Mem T, F.Holds m (F.cell1d (at_ 0) i0 i1 ugcw) U ∧ F.Holds m (F.cell1d (at_ 1) i0 i1 rgcw) (fun _ => 0) ∧
      ∀ (K : Mem T → M (Mem T)) (mK : Mem T), K m = .ok mK → LeavesFirst m mK → ∃ b, Test.spanInit1dOf i0 i1 dx ugcw rgcw xu K = .ok b ∧
        (b = true ↔ (∀ i, i0 ≤ i ∧ i ≤ i1 → F.El mK (F.cell1d (at_ 1) i0 i1 rgcw) [i] (2 * ((U [i] - U [i - 1]) / dx 0 + (U [i + 1] - U [i]) / dx 0) / (U [i] + 10))) ∧
          ∀ i, F.InBounds (F.cell1d (at_ 1) i0 i1 rgcw).dims [i] → ¬ (i0 ≤ i ∧ i ≤ i1) → F.El mK (F.cell1d (at_ 1) i0 i1 rgcw) [i] 0) := by
  have I0 := h_u.int
  have I1 := h_r.int
  have F0 := h_u.fits
  have F1 := h_r.fits
  simp only [F.cell1d, List.mem_cons, List.not_mem_nil, or_false, forall_eq, InInt, List.map_cons, List.map_nil, List.prod_cons, List.prod_nil, mul_one] at I0 I1 F0 F1
  have mk_i := mkB_ok (d := .I) (lo := i0) (hi := i1) (by unfold InInt; omega)
  obtain ⟨v0, n0, r0⟩ := offset_ok (T := T) (g := ugcw) (ds := [(.I, i0, i1)]) (by simp) (by simp) (by omega) (by simp; omega) h_u
  obtain ⟨v1, n1, r1⟩ := offset_ok (T := T) (g := rgcw) (ds := [(.I, i0, i1)]) (by simp) (by simp) (by omega) (by simp; omega) h_r
  have z1 := made_zero n1
  simp only [bounds, List.map_cons, List.map_nil] at n0 n1
  have A0 : F.ArrOK (devMem [v0.fill xu, v1]) (F.cell1d (at_ 0) i0 i1 ugcw) := arr_ok_of rfl (r0.fill (xs := xu)) h_u
  have A1 : F.ArrOK (devMem [v0.fill xu, v1]) (F.cell1d (at_ 1) i0 i1 rgcw) := arr_ok_of rfl r1 h_r
  obtain ⟨m', -, sets⟩ := C95_init_1d (beta := 0) (dx := dx) (m := devMem [v0.fill xu, v1]) (β := fun _ => seqBackend) (fun _ => seqBackend_ok) hi hu hr ⟨by
    simp only [List.cons_append, List.nil_append, List.forall_mem_cons]
    exact ⟨A0, A1, by simp⟩, by simpa [F.cell1d] using arr_apart (by decide)⟩
  have R₀ := ran r1 z1 rfl sets
  have HU : F.Holds (devMem [v0.fill xu, v1]) (F.cell1d (at_ 0) i0 i1 ugcw) U := hU ▸ holds_fill (vs := [v0.fill xu, v1]) (k := 0) rfl r0
  have HR : F.Holds (devMem [v0.fill xu, v1]) (F.cell1d (at_ 1) i0 i1 rgcw) (fun _ => 0) := holds_zero (vs := [v0.fill xu, v1]) (k := 1) rfl r1 z1
  have R := R₀.congr (g := fun c => 2 * ((U c - U (c.map (· - 1))) / dx 0 + (U (c.map (· + 1)) - U c) / dx 0) / (U c + 10)) (by
    rintro _ ⟨i, rfl, oi⟩
    obtain ⟨o1, o2⟩ := oi
    show 2 * ((F.rd _ _ [i] - F.rd _ _ [i - 1]) / dx 0 + (F.rd _ _ [i + 1] - F.rd _ _ [i]) / dx 0) / (F.rd _ _ [i] + 10) = 2 * ((U [i] - U [i - 1]) / dx 0 + (U [i + 1] - U [i]) / dx 0) / (U [i] + 10)
    rw [(HU [i] (F.inBounds1.2 ⟨i, rfl, by omega⟩)).rd, (HU [i - 1] (F.inBounds1.2 ⟨i - 1, rfl, by omega⟩)).rd, (HU [i + 1] (F.inBounds1.2 ⟨i + 1, rfl, by omega⟩)).rd])
  refine ⟨devMem [v0.fill xu, v1], HU, HR, fun K mK runK hK => ?_⟩
  have kept0 : newBlock mK 0 (v0.fill xu).d = (v0.fill xu).d := newBlock_same fun q hq => by
    rw [hK.keeps _ (by simp)]
    exact devMem_val (vs := [v0.fill xu, v1]) (k := 0) rfl q
  have J := judge2 (dims := (F.cell1d (at_ 1) i0 i1 rgcw).dims) (mK := mK) R r1 (by simp [F.cell1d]; omega) (by
    rintro _ ⟨i, rfl, oi⟩
    obtain ⟨o1, o2⟩ := oi
    exact F.inBounds1.2 ⟨i, rfl, by omega⟩) hK
  unfold Test.spanInit1dOf
  simp only [mk_i, n0, n1, M.ok_bind]
  rw [onDevice_two (c := K) runK]
  simp only [M.ok_bind, zeros_after, hostOf_after, std_after, kept0]
  rw [settled (G := newBlock m' 1 v1.d) (K := fun q => ∃ i, F.OnStride i0 i1 1 i ∧ q = i - (i0 - rgcw)) (settles_for (le_refl 1) (by omega) (by omega) ?_) R.len.symm ?_]
  · refine ⟨_, rfl, ?_⟩
    rw [decide_eq_true_iff, J]
    constructor
    · rintro ⟨a, b⟩
      exact ⟨fun i oi => a [i] ⟨i, rfl, oi⟩, fun i hb hn => b [i] hb (by
        rintro ⟨i', e, oi⟩
        cases e
        exact hn oi)⟩
    · rintro ⟨a, b⟩
      refine ⟨?_, fun is hb hn => ?_⟩
      · rintro _ ⟨i, rfl, oi⟩
        exact a i oi
      · obtain ⟨i, rfl, -⟩ := F.inBounds1.1 hb
        exact b i hb fun oi => hn ⟨i, rfl, oi⟩
  · intro i oi
    obtain ⟨o1, o2, -⟩ := oi
    have P : ∃ j, [i] = [j] ∧ i0 ≤ j ∧ j ≤ i1 := ⟨i, rfl, o1, o2⟩
    have C : i - (i0 - rgcw) = F.colMajor (shape rgcw [(.I, i0, i1)]) [i] := by simp [shape, F.colMajor]
    refine settles_by (fun l => ?_) (by omega) (by rw [C]; exact R₀.at_ _ P)
    rw [isub_ok (by unfold InInt; omega), M.ok_bind, isub_ok (by unfold InInt; omega), M.ok_bind]
    rw [isub_ok (by unfold InInt; omega), M.ok_bind, isub_ok (by unfold InInt; omega), M.ok_bind]
    rw [vget_rd rfl A0 (is := [i]) (F.inBounds1.2 ⟨i, rfl, by omega⟩) (by simp [F.colMajor]), M.ok_bind, isub_ok (by unfold InInt; omega), M.ok_bind]
    rw [vget_rd rfl A0 (is := [i - 1]) (F.inBounds1.2 ⟨i - 1, rfl, by omega⟩) (by simp [F.colMajor]; ring), M.ok_bind, iadd_ok (by unfold InInt; omega), M.ok_bind]
    rw [vget_rd rfl A0 (is := [i + 1]) (F.inBounds1.2 ⟨i + 1, rfl, by omega⟩) (by simp [F.colMajor]; ring), M.ok_bind]
    rfl
  · intro q hq hk
    refine R.rest q (by rw [← R.len]; exact hq) ?_
    rintro is ⟨i, rfl, oi⟩ hb e
    exact hk ⟨i, onStride_one.2 oi, by rw [e]; simp [shape, F.colMajor]⟩

/-- a function that does nothing, on the squares: the test fails -/
example : ∃ b, Test.spanInit1dOf 3 8 (fun _ => 1) 1 2 (fun q => ((q : ℚ) * q)) (fun m => .ok m) = .ok b ∧ b = false := by
  obtain ⟨m, -, z, h⟩ := C126_init_1d (T := ℚ) (i0 := 3) (i1 := 8) (dx := fun _ => 1) (ugcw := 1) (rgcw := 2) (xu := fun q => ((q : ℚ) * q)) (by decide) (by decide) (by decide)
    (fits_of (by decide)) (fits_of (by decide)) rfl
  obtain ⟨b, h1, h2⟩ := h (fun m => .ok m) m rfl ⟨fun q _ => rfl, fun q v hv => ⟨v, hv⟩⟩
  refine ⟨b, h1, Bool.eq_false_iff.2 fun hb => ?_⟩
  have e := (h2.1 hb).1 3 (by decide)
  have e' := e.2
  rw [(z _ e.1).2] at e'
  have t0 : (F.colMajor (F.cell1d (at_ 0) 3 8 1).dims [3]).toNat = 1 := rfl
  have t1 : (F.colMajor (F.cell1d (at_ 0) 3 8 1).dims [3 - 1]).toNat = 0 := rfl
  have t2 : (F.colMajor (F.cell1d (at_ 0) 3 8 1).dims [3 + 1]).toNat = 2 := rfl
  rw [t0, t1, t2] at e'
  norm_num at e'

/-- src/md_device_span.t.cpp:150-193: `m` is what the test hands to the function; it passes exactly if the function leaves `beta` times the element of `u` on the steps and zeros elsewhere -/
theorem C126_stride_2d {i0 i1 is j0 j1 js : Int} {beta : T} {ugcw rgcw : Int} {xu : Nat → T} {U : List Int → T}
    (hi : i0 ≤ i1) (hj : j0 ≤ j1) (his : 1 ≤ is) (hjs : 1 ≤ js) (hfi : i1 - i0 + is ≤ 2147483647) (hfj : j1 - j0 + js ≤ 2147483647)
    (hei : i1 + is ≤ 2147483647) (hej : j1 + js ≤ 2147483647) (hwu : (j1 - j0 + 1 + 2 * ugcw) * is ≤ 2147483647) (hwr : (i1 - i0 + 1 + 2 * rgcw) * js ≤ 2147483647)
    (hu : 0 ≤ ugcw) (hr : 0 ≤ rgcw) (h_u : F.Fits (F.cell2d (at_ 0) j0 i0 j1 i1 ugcw).dims) (h_r : F.Fits (F.cell2d (at_ 1) i0 j0 i1 j1 rgcw).dims)
    (hU : U = fun p => xu (F.colMajor (F.cell2d (at_ 0) j0 i0 j1 i1 ugcw).dims p).toNat) :
    ∃ m : Mem T, F.Holds m (F.cell2d (at_ 0) j0 i0 j1 i1 ugcw) U ∧ F.Holds m (F.cell2d (at_ 1) i0 j0 i1 j1 rgcw) (fun _ => 0) ∧
      ∀ (K : Mem T → M (Mem T)) (mK : Mem T), K m = .ok mK → LeavesFirst m mK → ∃ b, Test.spanStride2dOf i0 i1 is j0 j1 js beta ugcw rgcw xu K = .ok b ∧
        (b = true ↔ (∀ i j, F.OnStride i0 i1 is i ∧ F.OnStride j0 j1 js j → F.El mK (F.cell2d (at_ 1) i0 j0 i1 j1 rgcw) [i, j] (beta * U [j, i])) ∧
          ∀ i j, F.InBounds (F.cell2d (at_ 1) i0 j0 i1 j1 rgcw).dims [i, j] → ¬ (F.OnStride i0 i1 is i ∧ F.OnStride j0 j1 js j) → F.El mK (F.cell2d (at_ 1) i0 j0 i1 j1 rgcw) [i, j] 0) := by
  have I0 := h_u.int
  have I1 := h_r.int
  simp only [F.cell2d, List.mem_cons, List.not_mem_nil, or_false, forall_eq_or_imp, forall_eq, InInt] at I0 I1
  have mk_i := mkB_ok (d := .I) (lo := i0) (hi := i1) (by unfold InInt; omega)
  have mk_j := mkB_ok (d := .J) (lo := j0) (hi := j1) (by unfold InInt; omega)
  obtain ⟨v0, n0, r0⟩ := offset_ok (T := T) (g := ugcw) (ds := [(.I, i0, i1), (.J, j0, j1)]) (by simp) (by simp) (by omega) (by simp; omega) h_u
  obtain ⟨v1, n1, r1⟩ := offset_ok (T := T) (g := rgcw) (ds := [(.J, j0, j1), (.I, i0, i1)]) (by simp) (by simp) (by omega) (by simp; omega) h_r
  have x0 := fun i j (h : i0 ≤ i ∧ i ≤ i1 ∧ j0 ≤ j ∧ j ≤ j1) => index_ok (g := ugcw) (ds := [(.I, i0, i1), (.J, j0, j1)]) (p := fun d => if d = .I then i else j) (by simp) (by simp)
    (by omega) (by simp; omega) h_u n0 (by simp; omega)
  have x1 := fun i j (h : i0 ≤ i ∧ i ≤ i1 ∧ j0 ≤ j ∧ j ≤ j1) => index_ok (g := rgcw) (ds := [(.J, j0, j1), (.I, i0, i1)]) (p := fun d => if d = .I then i else j) (by simp) (by simp)
    (by omega) (by simp; omega) h_r n1 (by simp; omega)
  simp only [List.map_cons, List.map_nil, if_true, List.reverse_cons, List.reverse_nil, List.nil_append, List.cons_append] at x0 x1
  have z1 := made_zero n1
  simp only [bounds, List.map_cons, List.map_nil] at n0 n1
  have A0 : F.ArrOK (devMem [v0.fill xu, v1]) (F.cell2d (at_ 0) j0 i0 j1 i1 ugcw) := arr_ok_of rfl (r0.fill (xs := xu)) h_u
  have A1 : F.ArrOK (devMem [v0.fill xu, v1]) (F.cell2d (at_ 1) i0 j0 i1 j1 rgcw) := arr_ok_of rfl r1 h_r
  obtain ⟨m', -, sets⟩ := C95_stride_2d (beta := beta) (dx := fun _ => 0) (m := devMem [v0.fill xu, v1]) (β := fun _ => seqBackend) (fun _ => seqBackend_ok) hi hj his hjs hfi hfj hwu hwr hu hr ⟨by
    simp only [List.cons_append, List.nil_append, List.forall_mem_cons]
    exact ⟨A0, A1, by simp⟩, by simpa [F.cell2d] using arr_apart (by decide)⟩
  have R₀ := ran r1 z1 rfl sets
  have HU : F.Holds (devMem [v0.fill xu, v1]) (F.cell2d (at_ 0) j0 i0 j1 i1 ugcw) U := hU ▸ holds_fill (vs := [v0.fill xu, v1]) (k := 0) rfl r0
  have HR : F.Holds (devMem [v0.fill xu, v1]) (F.cell2d (at_ 1) i0 j0 i1 j1 rgcw) (fun _ => 0) := holds_zero (vs := [v0.fill xu, v1]) (k := 1) rfl r1 z1
  have R := R₀.congr (g := fun c => beta * U c.reverse) (by
    rintro _ ⟨i, j, rfl, oi⟩
    obtain ⟨⟨o1, o2, -⟩, o3, o4, -⟩ := oi
    show beta * F.rd _ _ [j, i] = beta * U [j, i]
    rw [(HU [j, i] (F.inBounds2.2 ⟨j, i, rfl, by omega⟩)).rd])
  refine ⟨devMem [v0.fill xu, v1], HU, HR, fun K mK runK hK => ?_⟩
  have kept0 : newBlock mK 0 (v0.fill xu).d = (v0.fill xu).d := newBlock_same fun q hq => by
    rw [hK.keeps _ (by simp)]
    exact devMem_val (vs := [v0.fill xu, v1]) (k := 0) rfl q
  have J := judge2 (dims := (F.cell2d (at_ 1) i0 j0 i1 j1 rgcw).dims) (mK := mK) R r1 (by simp [F.cell2d]; omega) (by
    rintro _ ⟨i, j, rfl, oi⟩
    obtain ⟨⟨o1, o2, -⟩, o3, o4, -⟩ := oi
    exact F.inBounds2.2 ⟨i, j, rfl, by omega⟩) hK
  unfold Test.spanStride2dOf
  simp only [mk_i, mk_j, n0, n1, M.ok_bind]
  rw [onDevice_two (c := K) runK]
  simp only [M.ok_bind, zeros_after, hostOf_after, std_after, kept0]
  rw [settled (G := newBlock m' 1 v1.d) (K := fun q => ∃ j, F.OnStride j0 j1 js j ∧ ∃ i, F.OnStride i0 i1 is i ∧ q = F.colMajor (shape rgcw [(.J, j0, j1), (.I, i0, i1)]) [i, j])
    (settles_for hjs hej (by omega) ?_) R.len.symm ?_]
  · refine ⟨_, rfl, ?_⟩
    rw [decide_eq_true_iff, J]
    constructor
    · rintro ⟨a, b⟩
      exact ⟨fun i j oi => a [i, j] ⟨i, j, rfl, oi⟩, fun i j hb hn => b [i, j] hb (by
        rintro ⟨i', j', e, oi⟩
        cases e
        exact hn oi)⟩
    · rintro ⟨a, b⟩
      refine ⟨?_, fun is hb hn => ?_⟩
      · rintro _ ⟨i, j, rfl, oi⟩
        exact a i j oi
      · obtain ⟨i, j, rfl, -⟩ := F.inBounds2.1 hb
        exact b i j hb fun oi => hn ⟨i, j, rfl, oi⟩
  · intro j oj
    refine settles_for his hei (by omega) fun i oi => ?_
    have P : ∃ i' j', [i, j] = [i', j'] ∧ F.OnStride i0 i1 is i' ∧ F.OnStride j0 j1 js j' := ⟨i, j, rfl, oi, oj⟩
    obtain ⟨o1, o2, -⟩ := oi
    obtain ⟨o3, o4, -⟩ := oj
    have hb : F.InBounds [(i0 - rgcw, i1 + rgcw), (j0 - rgcw, j1 + rgcw)] [i, j] := F.inBounds2.2 ⟨i, j, rfl, by omega⟩
    refine settles_by (fun l => ?_) (colMajor_range hb).1 (R₀.at_ _ P)
    have e1 : indexOf 1 [(after mK 0 (DevVec.fill xu v0)).host, (after mK 1 v1).toStd.1] [j, i] = .ok (F.colMajor (shape rgcw [(.J, j0, j1), (.I, i0, i1)]) [i, j]) := x1 i j ⟨o1, o2, o3, o4⟩
    have e0 : indexOf 0 [(after mK 0 (DevVec.fill xu v0)).host, (after mK 1 v1).toStd.1] [i, j] = .ok (F.colMajor [(j0 - ugcw, j1 + ugcw), (i0 - ugcw, i1 + ugcw)] [j, i]) := x0 i j ⟨o1, o2, o3, o4⟩
    rw [e1, M.ok_bind, e0, M.ok_bind, vget_rd rfl A0 (is := [j, i]) (F.inBounds2.2 ⟨j, i, rfl, by omega⟩) rfl, M.ok_bind]
    rfl
  · intro q hq hk
    refine R.rest q (by rw [← R.len]; exact hq) ?_
    rintro _ ⟨i, j, rfl, oi, oj⟩ hb e
    exact hk ⟨j, oj, i, oi, e⟩

/-- a function that does nothing, on a vector of ones: the test fails -/
example : ∃ b, Test.spanStride2dOf 3 8 2 4 6 1 2 1 2 (fun _ => (1 : ℚ)) (fun m => .ok m) = .ok b ∧ b = false := by
  obtain ⟨m, -, z, h⟩ := C126_stride_2d (T := ℚ) (i0 := 3) (i1 := 8) (is := 2) (j0 := 4) (j1 := 6) (js := 1) (beta := 2) (ugcw := 1) (rgcw := 2) (xu := fun _ => 1) (by decide) (by decide) (by decide) (by decide)
    (by decide) (by decide) (by decide) (by decide) (by decide) (by decide) (by decide) (by decide) (fits_of (by decide)) (fits_of (by decide)) rfl
  obtain ⟨b, h1, h2⟩ := h (fun m => .ok m) m rfl ⟨fun q _ => rfl, fun q v hv => ⟨v, hv⟩⟩
  refine ⟨b, h1, Bool.eq_false_iff.2 fun hb => ?_⟩
  have e := (h2.1 hb).1 3 4 ⟨⟨by decide, by decide, 0, by decide⟩, by decide, by decide, 0, by decide⟩
  have e' := e.2
  rw [(z _ e.1).2] at e'
  norm_num at e'

/-- src/md_device_span.t.cpp:195-253: `m` is what the test hands to the function; it passes exactly if the function leaves `beta` times the element of `u` on the steps and zeros elsewhere -/
theorem C126_stride_3d {i0 i1 is j0 j1 js k0 k1 ks : Int} {beta : T} {ugcw rgcw : Int} {xu : Nat → T} {U : List Int → T}
    (hi : i0 ≤ i1) (hj : j0 ≤ j1) (hk : k0 ≤ k1) (his : 1 ≤ is) (hjs : 1 ≤ js) (hks : 1 ≤ ks) (hfi : i1 - i0 + is ≤ 2147483647) (hfj : j1 - j0 + js ≤ 2147483647) (hfk : k1 - k0 + ks ≤ 2147483647)
    (hei : i1 + is ≤ 2147483647) (hej : j1 + js ≤ 2147483647) (hek : k1 + ks ≤ 2147483647)
    (hwu : (j1 - j0 + 1 + 2 * ugcw) * (k1 - k0 + 1 + 2 * ugcw) * is ≤ 2147483647) (hwu' : (k1 - k0 + 1 + 2 * ugcw) * js ≤ 2147483647)
    (hwr : (j1 - j0 + 1 + 2 * rgcw) * (i1 - i0 + 1 + 2 * rgcw) * ks ≤ 2147483647) (hwr' : (i1 - i0 + 1 + 2 * rgcw) * js ≤ 2147483647)
    (hu : 0 ≤ ugcw) (hr : 0 ≤ rgcw) (h_u : F.Fits (F.cell3d (at_ 0) k0 j0 i0 k1 j1 i1 ugcw).dims) (h_r : F.Fits (F.cell3d (at_ 1) i0 j0 k0 i1 j1 k1 rgcw).dims)
    (hU : U = fun p => xu (F.colMajor (F.cell3d (at_ 0) k0 j0 i0 k1 j1 i1 ugcw).dims p).toNat) :
    ∃ m : Mem T, F.Holds m (F.cell3d (at_ 0) k0 j0 i0 k1 j1 i1 ugcw) U ∧ F.Holds m (F.cell3d (at_ 1) i0 j0 k0 i1 j1 k1 rgcw) (fun _ => 0) ∧
      ∀ (K : Mem T → M (Mem T)) (mK : Mem T), K m = .ok mK → LeavesFirst m mK → ∃ b, Test.spanStride3dOf i0 i1 is j0 j1 js k0 k1 ks beta ugcw rgcw xu K = .ok b ∧
        (b = true ↔ (∀ i j k, F.OnStride i0 i1 is i ∧ F.OnStride j0 j1 js j ∧ F.OnStride k0 k1 ks k → F.El mK (F.cell3d (at_ 1) i0 j0 k0 i1 j1 k1 rgcw) [i, j, k] (beta * U [k, j, i])) ∧
          ∀ i j k, F.InBounds (F.cell3d (at_ 1) i0 j0 k0 i1 j1 k1 rgcw).dims [i, j, k] → ¬ (F.OnStride i0 i1 is i ∧ F.OnStride j0 j1 js j ∧ F.OnStride k0 k1 ks k) → F.El mK (F.cell3d (at_ 1) i0 j0 k0 i1 j1 k1 rgcw) [i, j, k] 0) := by
  have I0 := h_u.int
  have I1 := h_r.int
  simp only [F.cell3d, List.mem_cons, List.not_mem_nil, or_false, forall_eq_or_imp, forall_eq, InInt] at I0 I1
  have mk_i := mkB_ok (d := .I) (lo := i0) (hi := i1) (by unfold InInt; omega)
  have mk_k := mkB_ok (d := .K) (lo := k0) (hi := k1) (by unfold InInt; omega)
  have mk_j := mkB_ok (d := .J) (lo := j0) (hi := j1) (by unfold InInt; omega)
  obtain ⟨v0, n0, r0⟩ := offset_ok (T := T) (g := ugcw) (ds := [(.I, i0, i1), (.J, j0, j1), (.K, k0, k1)]) (by simp) (by simp) (by omega) (by simp; omega) h_u
  obtain ⟨v1, n1, r1⟩ := offset_ok (T := T) (g := rgcw) (ds := [(.K, k0, k1), (.J, j0, j1), (.I, i0, i1)]) (by simp) (by simp) (by omega) (by simp; omega) h_r
  have x0 := fun i j k (h : i0 ≤ i ∧ i ≤ i1 ∧ j0 ≤ j ∧ j ≤ j1 ∧ k0 ≤ k ∧ k ≤ k1) => index_ok (g := ugcw) (ds := [(.I, i0, i1), (.J, j0, j1), (.K, k0, k1)]) (p := fun d => if d = .I then i else if d = .J then j else k) (by simp) (by simp)
    (by omega) (by simp; omega) h_u n0 (by simp; omega)
  have x1 := fun i j k (h : i0 ≤ i ∧ i ≤ i1 ∧ j0 ≤ j ∧ j ≤ j1 ∧ k0 ≤ k ∧ k ≤ k1) => index_ok (g := rgcw) (ds := [(.K, k0, k1), (.J, j0, j1), (.I, i0, i1)]) (p := fun d => if d = .I then i else if d = .J then j else k) (by simp) (by simp)
    (by omega) (by simp; omega) h_r n1 (by simp; omega)
  simp only [List.map_cons, List.map_nil, if_true, List.reverse_cons, List.reverse_nil, List.nil_append, List.cons_append] at x0 x1
  have z1 := made_zero n1
  simp only [bounds, List.map_cons, List.map_nil] at n0 n1
  have A0 : F.ArrOK (devMem [v0.fill xu, v1]) (F.cell3d (at_ 0) k0 j0 i0 k1 j1 i1 ugcw) := arr_ok_of rfl (r0.fill (xs := xu)) h_u
  have A1 : F.ArrOK (devMem [v0.fill xu, v1]) (F.cell3d (at_ 1) i0 j0 k0 i1 j1 k1 rgcw) := arr_ok_of rfl r1 h_r
  obtain ⟨m', -, sets⟩ := C95_stride_3d (beta := beta) (dx := fun _ => 0) (m := devMem [v0.fill xu, v1]) (β := fun _ => seqBackend) (fun _ => seqBackend_ok) hi hj hk his hjs hks hfi hfj hfk hwu hwu' hwr hwr' hu hr ⟨by
    simp only [List.cons_append, List.nil_append, List.forall_mem_cons]
    exact ⟨A0, A1, by simp⟩, by simpa [F.cell3d] using arr_apart (by decide)⟩
  have R₀ := ran r1 z1 rfl sets
  have HU : F.Holds (devMem [v0.fill xu, v1]) (F.cell3d (at_ 0) k0 j0 i0 k1 j1 i1 ugcw) U := hU ▸ holds_fill (vs := [v0.fill xu, v1]) (k := 0) rfl r0
  have HR : F.Holds (devMem [v0.fill xu, v1]) (F.cell3d (at_ 1) i0 j0 k0 i1 j1 k1 rgcw) (fun _ => 0) := holds_zero (vs := [v0.fill xu, v1]) (k := 1) rfl r1 z1
  have R := R₀.congr (g := fun c => beta * U c.reverse) (by
    rintro _ ⟨i, j, k, rfl, oi⟩
    obtain ⟨⟨o1, o2, -⟩, ⟨o3, o4, -⟩, o5, o6, -⟩ := oi
    show beta * F.rd _ _ [k, j, i] = beta * U [k, j, i]
    rw [(HU [k, j, i] (F.inBounds3.2 ⟨k, j, i, rfl, by omega⟩)).rd])
  refine ⟨devMem [v0.fill xu, v1], HU, HR, fun K mK runK hK => ?_⟩
  have kept0 : newBlock mK 0 (v0.fill xu).d = (v0.fill xu).d := newBlock_same fun q hq => by
    rw [hK.keeps _ (by simp)]
    exact devMem_val (vs := [v0.fill xu, v1]) (k := 0) rfl q
  have J := judge2 (dims := (F.cell3d (at_ 1) i0 j0 k0 i1 j1 k1 rgcw).dims) (mK := mK) R r1 (by simp [F.cell3d]; omega) (by
    rintro _ ⟨i, j, k, rfl, oi⟩
    obtain ⟨⟨o1, o2, -⟩, ⟨o3, o4, -⟩, o5, o6, -⟩ := oi
    exact F.inBounds3.2 ⟨i, j, k, rfl, by omega⟩) hK
  unfold Test.spanStride3dOf
  simp only [mk_i, mk_j, mk_k, n0, n1, M.ok_bind]
  rw [onDevice_two (c := K) runK]
  simp only [M.ok_bind, zeros_after, hostOf_after, std_after, kept0]
  rw [settled (G := newBlock m' 1 v1.d) (K := fun q => ∃ k, F.OnStride k0 k1 ks k ∧ ∃ j, F.OnStride j0 j1 js j ∧ ∃ i, F.OnStride i0 i1 is i ∧ q = F.colMajor (shape rgcw [(.K, k0, k1), (.J, j0, j1), (.I, i0, i1)]) [i, j, k])
    (settles_for hks hek (by omega) ?_) R.len.symm ?_]
  · refine ⟨_, rfl, ?_⟩
    rw [decide_eq_true_iff, J]
    constructor
    · rintro ⟨a, b⟩
      exact ⟨fun i j k oi => a [i, j, k] ⟨i, j, k, rfl, oi⟩, fun i j k hb hn => b [i, j, k] hb (by
        rintro ⟨i', j', k', e, oi⟩
        cases e
        exact hn oi)⟩
    · rintro ⟨a, b⟩
      refine ⟨?_, fun is hb hn => ?_⟩
      · rintro _ ⟨i, j, k, rfl, oi⟩
        exact a i j k oi
      · obtain ⟨i, j, k, rfl, -⟩ := F.inBounds3.1 hb
        exact b i j k hb fun oi => hn ⟨i, j, k, rfl, oi⟩
  · intro k ok
    refine settles_for hjs hej (by omega) fun j oj => ?_
    refine settles_for his hei (by omega) fun i oi => ?_
    have P : ∃ i' j' k', [i, j, k] = [i', j', k'] ∧ F.OnStride i0 i1 is i' ∧ F.OnStride j0 j1 js j' ∧ F.OnStride k0 k1 ks k' := ⟨i, j, k, rfl, oi, oj, ok⟩
    obtain ⟨o1, o2, -⟩ := oi
    obtain ⟨o3, o4, -⟩ := oj
    obtain ⟨o5, o6, -⟩ := ok
    have hb : F.InBounds [(i0 - rgcw, i1 + rgcw), (j0 - rgcw, j1 + rgcw), (k0 - rgcw, k1 + rgcw)] [i, j, k] := F.inBounds3.2 ⟨i, j, k, rfl, by omega⟩
    refine settles_by (fun l => ?_) (colMajor_range hb).1 (R₀.at_ _ P)
    have e1 : indexOf 1 [(after mK 0 (DevVec.fill xu v0)).host, (after mK 1 v1).toStd.1] [k, j, i] = .ok (F.colMajor (shape rgcw [(.K, k0, k1), (.J, j0, j1), (.I, i0, i1)]) [i, j, k]) := x1 i j k ⟨o1, o2, o3, o4, o5, o6⟩
    have e0 : indexOf 0 [(after mK 0 (DevVec.fill xu v0)).host, (after mK 1 v1).toStd.1] [i, j, k] = .ok (F.colMajor [(k0 - ugcw, k1 + ugcw), (j0 - ugcw, j1 + ugcw), (i0 - ugcw, i1 + ugcw)] [k, j, i]) := x0 i j k ⟨o1, o2, o3, o4, o5, o6⟩
    rw [e1, M.ok_bind, e0, M.ok_bind, vget_rd rfl A0 (is := [k, j, i]) (F.inBounds3.2 ⟨k, j, i, rfl, by omega⟩) rfl, M.ok_bind]
    rfl
  · intro q hq hkk
    refine R.rest q (by rw [← R.len]; exact hq) ?_
    rintro _ ⟨i, j, k, rfl, oi, oj, ok⟩ hb e
    exact hkk ⟨k, ok, j, oj, i, oi, e⟩

/-- a function that does nothing, on a vector of ones: the test fails -/
example : ∃ b, Test.spanStride3dOf 3 8 1 4 6 1 7 12 2 2 1 2 (fun _ => (1 : ℚ)) (fun m => .ok m) = .ok b ∧ b = false := by
  obtain ⟨m, -, z, h⟩ := C126_stride_3d (T := ℚ) (i0 := 3) (i1 := 8) (is := 1) (j0 := 4) (j1 := 6) (js := 1) (k0 := 7) (k1 := 12) (ks := 2) (beta := 2) (ugcw := 1) (rgcw := 2) (xu := fun _ => 1)
    (by decide) (by decide) (by decide) (by decide) (by decide) (by decide) (by decide) (by decide) (by decide) (by decide) (by decide) (by decide) (by decide) (by decide) (by decide) (by decide)
    (by decide) (by decide) (fits_small (by decide)) (fits_small (by decide)) rfl
  obtain ⟨b, h1, h2⟩ := h (fun m => .ok m) m rfl ⟨fun q _ => rfl, fun q v hv => ⟨v, hv⟩⟩
  refine ⟨b, h1, Bool.eq_false_iff.2 fun hb => ?_⟩
  have e := (h2.1 hb).1 3 4 7 ⟨⟨by decide, by decide, 0, by decide⟩, ⟨by decide, by decide, 0, by decide⟩, by decide, by decide, 0, by decide⟩
  have e' := e.2
  rw [(z _ e.1).2] at e'
  norm_num at e'

/-- src/md_device_span.t.cpp:111-148: `m` is what the test hands to the function; it passes exactly if the function leaves three times the sum of the forward differences in the box and zeros around it -/
theorem C126_init_2d {i0 i1 j0 j1 : Int} {dx : Nat → T} {ugcw rgcw : Int} {xu : Nat → T} {U : List Int → T}
    (hi : i0 ≤ i1) (hj : j0 ≤ j1) (hu : 1 ≤ ugcw) (hr : 0 ≤ rgcw) (h_u : F.Fits (F.cell2d (at_ 0) j0 i0 j1 i1 ugcw).dims)
    (h_r : F.Fits (F.cell2d (at_ 1) i0 j0 i1 j1 rgcw).dims)
    (hU : U = fun p => xu (F.colMajor (F.cell2d (at_ 0) j0 i0 j1 i1 ugcw).dims p).toNat) :
    ∃ m : Mem T, F.Holds m (F.cell2d (at_ 0) j0 i0 j1 i1 ugcw) U ∧ F.Holds m (F.cell2d (at_ 1) i0 j0 i1 j1 rgcw) (fun _ => 0) ∧
      ∀ (K : Mem T → M (Mem T)) (mK : Mem T), K m = .ok mK → LeavesFirst m mK → ∃ b, Test.spanInit2dOf i0 i1 j0 j1 dx ugcw rgcw xu K = .ok b ∧
        (b = true ↔ (∀ i j, i0 ≤ i ∧ i ≤ i1 ∧ j0 ≤ j ∧ j ≤ j1 → F.El mK (F.cell2d (at_ 1) i0 j0 i1 j1 rgcw) [i, j] (3 * ((U [j, i + 1] - U [j, i]) / dx 0 + (U [j + 1, i] - U [j, i]) / dx 1))) ∧
          ∀ i j, F.InBounds (F.cell2d (at_ 1) i0 j0 i1 j1 rgcw).dims [i, j] → ¬ (i0 ≤ i ∧ i ≤ i1 ∧ j0 ≤ j ∧ j ≤ j1) → F.El mK (F.cell2d (at_ 1) i0 j0 i1 j1 rgcw) [i, j] 0) := by
  have I0 := h_u.int
  have I1 := h_r.int
  have F0 := h_u.fits
  have F1 := h_r.fits
  simp only [F.cell2d, List.mem_cons, List.not_mem_nil, or_false, forall_eq_or_imp, forall_eq, InInt, List.map_cons, List.map_nil, List.prod_cons, List.prod_nil, mul_one] at I0 I1 F0 F1
  have mk_i := mkB_ok (d := .I) (lo := i0) (hi := i1) (by unfold InInt; omega)
  have mk_j := mkB_ok (d := .J) (lo := j0) (hi := j1) (by unfold InInt; omega)
  have G0 : j1 + ugcw - (j0 - ugcw) + 1 ≤ 2147483647 := by nlinarith
  have G1 : i1 + ugcw - (i0 - ugcw) + 1 ≤ 2147483647 := by nlinarith
  have G2 : i1 + rgcw - (i0 - rgcw) + 1 ≤ 2147483647 := by nlinarith
  have G3 : j1 + rgcw - (j0 - rgcw) + 1 ≤ 2147483647 := by nlinarith
  have X0 : extent j0 j1 ugcw = .ok (j1 + ugcw - (j0 - ugcw) + 1) := by
    unfold extent
    rw [iadd_ok (by unfold InInt; omega), M.ok_bind, isub_ok (by unfold InInt; omega), M.ok_bind, isub_ok (by unfold InInt; omega), M.ok_bind, iadd_ok (by unfold InInt; omega)]
  have X1 : extent i0 i1 rgcw = .ok (i1 + rgcw - (i0 - rgcw) + 1) := by
    unfold extent
    rw [iadd_ok (by unfold InInt; omega), M.ok_bind, isub_ok (by unfold InInt; omega), M.ok_bind, isub_ok (by unfold InInt; omega), M.ok_bind, iadd_ok (by unfold InInt; omega)]
  obtain ⟨v0, n0, r0⟩ := offset_ok (T := T) (g := ugcw) (ds := [(.I, i0, i1), (.J, j0, j1)]) (by simp) (by simp) (by omega) (by simp; omega) h_u
  obtain ⟨v1, n1, r1⟩ := offset_ok (T := T) (g := rgcw) (ds := [(.J, j0, j1), (.I, i0, i1)]) (by simp) (by simp) (by omega) (by simp; omega) h_r
  have z1 := made_zero n1
  simp only [bounds, List.map_cons, List.map_nil] at n0 n1
  have A0 : F.ArrOK (devMem [v0.fill xu, v1]) (F.cell2d (at_ 0) j0 i0 j1 i1 ugcw) := arr_ok_of rfl (r0.fill (xs := xu)) h_u
  have A1 : F.ArrOK (devMem [v0.fill xu, v1]) (F.cell2d (at_ 1) i0 j0 i1 j1 rgcw) := arr_ok_of rfl r1 h_r
  obtain ⟨m', -, vals, rest⟩ := C95_init_2d (beta := 0) (dx := dx) (m := devMem [v0.fill xu, v1]) (β := fun _ => seqBackend) (fun _ => seqBackend_ok) hi hj hu hr ⟨by
    simp only [List.cons_append, List.nil_append, List.forall_mem_cons]
    exact ⟨A0, A1, by simp⟩, by simpa [F.cell2d] using arr_apart (by decide)⟩
  have R₀ := ran (f := fun c => 3 * ((F.rd (devMem [v0.fill xu, v1]) (F.cell2d (at_ 0) j0 i0 j1 i1 ugcw) [c.getD 1 0 + 1, c.getD 0 0] -
      F.rd (devMem [v0.fill xu, v1]) (F.cell2d (at_ 0) j0 i0 j1 i1 ugcw) [c.getD 1 0, c.getD 0 0]) / dx 1 +
    (F.rd (devMem [v0.fill xu, v1]) (F.cell2d (at_ 0) j0 i0 j1 i1 ugcw) [c.getD 1 0, c.getD 0 0 + 1] -
      F.rd (devMem [v0.fill xu, v1]) (F.cell2d (at_ 0) j0 i0 j1 i1 ugcw) [c.getD 1 0, c.getD 0 0]) / dx 0)) r1 z1 rfl ⟨by
    rintro c ⟨i, j, rfl, a1, a2, a3, a4⟩
    exact vals i j a1 a2 a3 a4, rest⟩
  have HU : F.Holds (devMem [v0.fill xu, v1]) (F.cell2d (at_ 0) j0 i0 j1 i1 ugcw) U := hU ▸ holds_fill (vs := [v0.fill xu, v1]) (k := 0) rfl r0
  have HR : F.Holds (devMem [v0.fill xu, v1]) (F.cell2d (at_ 1) i0 j0 i1 j1 rgcw) (fun _ => 0) := holds_zero (vs := [v0.fill xu, v1]) (k := 1) rfl r1 z1
  have R := R₀.congr (g := fun c => 3 * ((U [c.getD 1 0, c.getD 0 0 + 1] - U [c.getD 1 0, c.getD 0 0]) / dx 0 + (U [c.getD 1 0 + 1, c.getD 0 0] - U [c.getD 1 0, c.getD 0 0]) / dx 1)) (by
    rintro _ ⟨i, j, rfl, oi⟩
    obtain ⟨o1, o2, o3, o4⟩ := oi
    show 3 * ((F.rd _ _ [j + 1, i] - F.rd _ _ [j, i]) / dx 1 + (F.rd _ _ [j, i + 1] - F.rd _ _ [j, i]) / dx 0) = 3 * ((U [j, i + 1] - U [j, i]) / dx 0 + (U [j + 1, i] - U [j, i]) / dx 1)
    rw [(HU [j, i] (F.inBounds2.2 ⟨j, i, rfl, by omega⟩)).rd, (HU [j + 1, i] (F.inBounds2.2 ⟨j + 1, i, rfl, by omega⟩)).rd, (HU [j, i + 1] (F.inBounds2.2 ⟨j, i + 1, rfl, by omega⟩)).rd, add_comm])
  refine ⟨devMem [v0.fill xu, v1], HU, HR, fun K mK runK hK => ?_⟩
  have kept0 : newBlock mK 0 (v0.fill xu).d = (v0.fill xu).d := newBlock_same fun q hq => by
    rw [hK.keeps _ (by simp)]
    exact devMem_val (vs := [v0.fill xu, v1]) (k := 0) rfl q
  have J := judge2 (dims := (F.cell2d (at_ 1) i0 j0 i1 j1 rgcw).dims) (mK := mK) R r1 (by simp [F.cell2d]; omega) (by
    rintro _ ⟨i, j, rfl, oi⟩
    obtain ⟨o1, o2, o3, o4⟩ := oi
    exact F.inBounds2.2 ⟨i, j, rfl, by omega⟩) hK
  unfold Test.spanInit2dOf
  simp only [mk_i, mk_j, n0, n1, M.ok_bind]
  rw [onDevice_two (c := K) runK]
  simp only [M.ok_bind, zeros_after, hostOf_after, std_after, kept0, X0, X1]
  rw [settled (G := newBlock m' 1 v1.d) (K := fun q => ∃ j, F.OnStride j0 j1 1 j ∧ ∃ i, F.OnStride i0 i1 1 i ∧ q = F.colMajor (shape rgcw [(.J, j0, j1), (.I, i0, i1)]) [i, j])
    (settles_for (le_refl 1) (by omega) (by omega) ?_) R.len.symm ?_]
  · refine ⟨_, rfl, ?_⟩
    rw [decide_eq_true_iff, J]
    constructor
    · rintro ⟨a, b⟩
      exact ⟨fun i j oi => a [i, j] ⟨i, j, rfl, oi⟩, fun i j hb hn => b [i, j] hb (by
        rintro ⟨i', j', e, oi⟩
        cases e
        exact hn oi)⟩
    · rintro ⟨a, b⟩
      refine ⟨?_, fun is hb hn => ?_⟩
      · rintro _ ⟨i, j, rfl, oi⟩
        exact a i j oi
      · obtain ⟨i, j, rfl, -⟩ := F.inBounds2.1 hb
        exact b i j hb fun oi => hn ⟨i, j, rfl, oi⟩
  · intro j oj
    refine settles_for (le_refl 1) (by omega) (by omega) fun i oi => ?_
    rw [onStride_one] at oi oj
    obtain ⟨o1, o2⟩ := oi
    obtain ⟨o3, o4⟩ := oj
    have P : ∃ i' j', [i, j] = [i', j'] ∧ i0 ≤ i' ∧ i' ≤ i1 ∧ j0 ≤ j' ∧ j' ≤ j1 := ⟨i, j, rfl, o1, o2, o3, o4⟩
    have hb : F.InBounds [(i0 - rgcw, i1 + rgcw), (j0 - rgcw, j1 + rgcw)] [i, j] := F.inBounds2.2 ⟨i, j, rfl, by omega⟩
    have b1 : F.InBounds [(j0 - ugcw, j1 + ugcw), (i0 - ugcw, i1 + ugcw)] [j, i + 1] := F.inBounds2.2 ⟨j, i + 1, rfl, by omega⟩
    have b2 : F.InBounds [(j0 - ugcw, j1 + ugcw), (i0 - ugcw, i1 + ugcw)] [j, i] := F.inBounds2.2 ⟨j, i, rfl, by omega⟩
    have b3 : F.InBounds [(j0 - ugcw, j1 + ugcw), (i0 - ugcw, i1 + ugcw)] [j + 1, i] := F.inBounds2.2 ⟨j + 1, i, rfl, by omega⟩
    have c0 := colMajor_range hb
    have c1 := colMajor_range b1
    have c2 := colMajor_range b2
    have c3 := colMajor_range b3
    simp only [F.colMajor, List.map_cons, List.map_nil, List.prod_cons, List.prod_nil, mul_one, mul_zero, add_zero] at c0 c1 c2 c3
    refine settles_by (fun l => ?_) (colMajor_range hb).1 (R₀.at_ _ P)
    rw [isub_ok (by unfold InInt; omega), M.ok_bind, isub_ok (by unfold InInt; omega), M.ok_bind]
    rw [isub_ok (by unfold InInt; omega), M.ok_bind, isub_ok (by unfold InInt; omega), M.ok_bind]
    rw [isub_ok (by unfold InInt; omega), M.ok_bind, isub_ok (by unfold InInt; omega), M.ok_bind]
    rw [isub_ok (by unfold InInt; omega), M.ok_bind, isub_ok (by unfold InInt; omega), M.ok_bind]
    rw [iadd_ok (by unfold InInt; omega), M.ok_bind]
    have k1 : (i - (i0 - ugcw) + 1) * (j1 + ugcw - (j0 - ugcw) + 1) = (j1 + ugcw - (j0 - ugcw) + 1) * (i + 1 - (i0 - ugcw)) := by ring
    have k2 : (i - (i0 - ugcw)) * (j1 + ugcw - (j0 - ugcw) + 1) = (j1 + ugcw - (j0 - ugcw) + 1) * (i - (i0 - ugcw)) := by ring
    have k3 : (j - (j0 - rgcw)) * (i1 + rgcw - (i0 - rgcw) + 1) = (i1 + rgcw - (i0 - rgcw) + 1) * (j - (j0 - rgcw)) := by ring
    have p1 : 0 ≤ (j1 + ugcw - (j0 - ugcw) + 1) * (i + 1 - (i0 - ugcw)) := mul_nonneg (by omega) (by omega)
    have p2 : 0 ≤ (j1 + ugcw - (j0 - ugcw) + 1) * (i - (i0 - ugcw)) := mul_nonneg (by omega) (by omega)
    have p3 : 0 ≤ (i1 + rgcw - (i0 - rgcw) + 1) * (j - (j0 - rgcw)) := mul_nonneg (by omega) (by omega)
    rw [imul_ok (by rw [k1]; unfold InInt; omega), M.ok_bind, iadd_ok (by rw [k1]; unfold InInt; omega), M.ok_bind]
    rw [imul_ok (by rw [k2]; unfold InInt; omega), M.ok_bind, iadd_ok (by rw [k2]; unfold InInt; omega), M.ok_bind]
    rw [iadd_ok (by rw [k2]; unfold InInt; omega), M.ok_bind]
    rw [vget_rd rfl A0 b1 (by rw [k1]; simp only [F.colMajor]; ring), M.ok_bind, vget_rd rfl A0 b2 (by rw [k2]; simp only [F.colMajor]; ring), M.ok_bind]
    rw [vget_rd rfl A0 b3 (by rw [k2]; simp only [F.colMajor]; ring), M.ok_bind]
    rw [imul_ok (by rw [k3]; unfold InInt; omega), M.ok_bind, iadd_ok (by rw [k3]; unfold InInt; omega), M.ok_bind]
    congr 1
    · rw [k3]
      change _ = F.colMajor [(i0 - rgcw, i1 + rgcw), (j0 - rgcw, j1 + rgcw)] [i, j]
      simp only [F.colMajor]
      ring
    · rw [add_comm]
      rfl
  · intro q hq hk
    refine R.rest q (by rw [← R.len]; exact hq) ?_
    rintro _ ⟨i, j, rfl, o1, o2, o3, o4⟩ hb e
    exact hk ⟨j, onStride_one.2 ⟨o3, o4⟩, i, onStride_one.2 ⟨o1, o2⟩, e⟩

/-- a function that does nothing, on the numbers from zero: the test fails -/
example : ∃ b, Test.spanInit2dOf 3 8 4 6 (fun _ => 1) 1 2 (fun q => (q : ℚ)) (fun m => .ok m) = .ok b ∧ b = false := by
  obtain ⟨m, -, z, h⟩ := C126_init_2d (T := ℚ) (i0 := 3) (i1 := 8) (j0 := 4) (j1 := 6) (dx := fun _ => 1) (ugcw := 1) (rgcw := 2) (xu := fun q => (q : ℚ)) (by decide) (by decide) (by decide) (by decide)
    (fits_of (by decide)) (fits_of (by decide)) rfl
  obtain ⟨b, h1, h2⟩ := h (fun m => .ok m) m rfl ⟨fun q _ => rfl, fun q v hv => ⟨v, hv⟩⟩
  refine ⟨b, h1, Bool.eq_false_iff.2 fun hb => ?_⟩
  have e := (h2.1 hb).1 3 4 (by decide)
  have e' := e.2
  rw [(z _ e.1).2] at e'
  have t0 : (F.colMajor (F.cell2d (at_ 0) 4 3 6 8 1).dims [4, 3]).toNat = 6 := rfl
  have t1 : (F.colMajor (F.cell2d (at_ 0) 4 3 6 8 1).dims [4 + 1, 3]).toNat = 7 := rfl
  have t2 : (F.colMajor (F.cell2d (at_ 0) 4 3 6 8 1).dims [4, 3 + 1]).toNat = 11 := rfl
  rw [t0, t1, t2] at e'
  norm_num at e'

end Verif
