import Verif.Lemmas.Submatrix

/-
C05, C06: submatrix and transposed views.
-/

namespace Verif
open Spec

/-! ### C05 -/

/-- a strided box inside an array of extents `sz`, such that the integer products formed by the code fit an `int` -/
structure SubBox (sz lb ub stm : List Int) : Prop where
  ne : sz ≠ []
  pos : Pos sz
  fits : sz.prod ≤ 2147483647
  ll : lb.length = sz.length
  lu : ub.length = sz.length
  ls : stm.length = sz.length
  dims : ∀ i, i < sz.length →
    0 ≤ lb.getD i 0 ∧ lb.getD i 0 ≤ ub.getD i 0 ∧ ub.getD i 0 < sz.getD i 0 ∧ 1 ≤ stm.getD i 0 ∧
    ub.getD i 0 - lb.getD i 0 + stm.getD i 0 ≤ 2147483647 ∧ (sz.drop (i + 1)).prod * stm.getD i 0 ≤ 2147483647

theorem SubBox.dimOK {sz lb ub stm : List Int} (h : SubBox sz lb ub stm) {i : Nat} (hi : i < sz.length) :
    DimOK sz lb ub stm i := by
  obtain ⟨a, b, c, d, e, f⟩ := h.dims i hi
  exact ⟨a, b, c, d, e, f⟩

theorem SubBox.lb_in {sz lb ub stm : List Int} (h : SubBox sz lb ub stm) : InBox sz lb := by
  rw [eq_map_getD sz rfl, eq_map_getD lb h.ll, InBox_map]
  intro i hi
  have := h.dims i (List.mem_range.1 hi)
  omega

/-- The view has extents `floor((ub-lb)/s)+1`; its k-th element is the element of the parent at coordinate `lb + s*c`,
`c` the k-th row-major coordinate of the view, and that coordinate lies inside the parent (and inside `[lb, ub]`). -/
theorem C05_submatrix {it : Ptr} {sz lb ub stm : List Int} (h : SubBox sz lb ub stm) :
    ∃ v, makeSubmatrix it sz lb ub stm = .ok v ∧ v.IsBegin ∧
      v.n = (List.range sz.length).map (fun i => (ub.getD i 0 - lb.getD i 0) / stm.getD i 0 + 1) ∧
      ∀ k, 0 ≤ k → k < v.n.prod → ∃ r, v.adv k = .ok r ∧
        let x := (List.range sz.length).map fun i => lb.getD i 0 + stm.getD i 0 * (coords v.n k).getD i 0
        r.addr = .ok (it.add (rowMajor sz x)) ∧ InBox sz x ∧
          ∀ i, i < sz.length → lb.getD i 0 ≤ x.getD i 0 ∧ x.getD i 0 ≤ ub.getD i 0 := by
  have hseq : ∀ i ∈ List.range sz.length, i < sz.length ∧ DimOK sz lb ub stm i :=
    fun i hi => ⟨List.mem_range.1 hi, h.dimOK (List.mem_range.1 hi)⟩
  have hmk := submatrixHelper_ok (it := it) h.ne h.pos h.fits h.ll h.lu h.ls h.lb_in hseq
  have hne : List.range sz.length ≠ [] := by
    have := List.length_pos_iff.2 h.ne
    intro e; rw [List.range_eq_nil] at e; omega
  refine ⟨_, hmk, submatrix_begin hne List.nodup_range h.pos h.fits (by simp) hseq, rfl, ?_⟩
  intro k h0 h1
  let n := (List.range sz.length).map fun i => cnt (lb.getD i 0) (ub.getD i 0) (stm.getD i 0)
  obtain ⟨e1, e2, e3⟩ := submatrix_at (it := it) hne List.nodup_range h.pos h.fits h.lb_in hseq h0 h1
  refine ⟨_, e1, ?_⟩
  intro x
  have hx : x = embed (List.range sz.length) lb stm
      (fun i => (coords n k).getD ((List.range sz.length).idxOf i) 0) sz.length := by
    refine List.map_congr_left fun i hi => ?_
    have hi' := List.mem_range.1 hi
    have : (List.range sz.length).idxOf i = i := by
      have := List.nodup_range.idxOf_getElem (xs := List.range sz.length) i (by simpa using hi')
      simpa using this
    simp only [if_pos hi, this]
    rfl
  refine ⟨by rw [hx]; exact e2, by rw [hx]; exact embed_inBox h.lb_in hseq e3, ?_⟩
  intro i hi
  have hi' := List.mem_range.2 hi
  obtain ⟨a, b⟩ := e3 i hi'
  have : (List.range sz.length).idxOf i = i := by
    have := List.nodup_range.idxOf_getElem (xs := List.range sz.length) i (by simpa using hi)
    simpa using this
  simp only [this] at a b
  have hxi : x.getD i 0 = lb.getD i 0 + stm.getD i 0 * (coords n k).getD i 0 :=
    getD_map_range hi
  have hd := h.dims i hi
  have h5 : 0 ≤ stm.getD i 0 * (coords n k).getD i 0 := mul_nonneg (by omega) a
  have h6 := cnt_mul (l := lb.getD i 0) (u := ub.getD i 0) (by omega) b
  rw [hxi]
  exact ⟨by omega, h6⟩

example : SubBox [4, 5] [1, 1] [3, 4] [2, 1] := by
  refine ⟨by simp, by simp [Pos], by simp, rfl, rfl, rfl, ?_⟩
  intro i hi
  have : i = 0 ∨ i = 1 := by simp at hi; omega
  rcases this with rfl | rfl <;> simp
example : makeSubmatrix ⟨0, 100⟩ [4, 5] [1, 1] [3, 4] [2, 1] = .ok ⟨⟨0, 106⟩, [10, 1], [0, 0], [2, 4]⟩ := by decide

/-! ### C06 -/

/-- `I...` is a permutation of the dimensions -/
def IsPerm (seq : List Nat) (n : Nat) : Prop := seq.Nodup ∧ ∀ i, i ∈ seq ↔ i < n

/-- Element k of the transposed view is the array element whose coordinate along dimension `I_j` is the j-th entry of the
k-th row-major coordinate of the permuted extents. -/
theorem C06_transpose {it : Ptr} {sz : List Int} {seq : List Nat} (hne : sz ≠ []) (hp : Pos sz) (hN : sz.prod ≤ 2147483647)
    (hperm : IsPerm seq sz.length) :
    ∃ v, makeTranspose seq it sz = .ok v ∧ v.IsBegin ∧ v.n = seq.map (fun i => sz.getD i 0) ∧ v.n.prod = sz.prod ∧
      ∀ k, 0 ≤ k → k < sz.prod → ∃ r x, v.adv k = .ok r ∧ r.addr = .ok (it.add (rowMajor sz x)) ∧ InBox sz x ∧
        seq.map (fun i => x.getD i 0) = coords (seq.map fun i => sz.getD i 0) k := by
  obtain ⟨hd, hm⟩ := hperm
  have hs : ∀ i, i < sz.length → 1 ≤ sz.getD i 0 := fun i hi => hp _ (by simp [hi])
  let ub := sz.map (· - 1)
  let one := sz.map fun _ => (1 : Int)
  have z0 : ∀ i, (zeros sz).getD i 0 = 0 := by
    have : ∀ (l : List Int) i, (zeros l).getD i 0 = 0 := by
      intro l
      induction l with
      | nil => intro i; simp [zeros]
      | cons a as ih => intro i; cases i <;> simp_all [zeros]
    exact this sz
  have u0 : ∀ i, i < sz.length → ub.getD i 0 = sz.getD i 0 - 1 := fun i hi => by simp [ub, hi]
  have o0 : ∀ i, i < sz.length → one.getD i 0 = 1 := fun i hi => by simp [one, hi]
  have hseq : ∀ i ∈ seq, i < sz.length ∧ DimOK sz (zeros sz) ub one i := by
    intro i hi
    have hi' := (hm i).1 hi
    have h1 := hs i hi'
    have h2 := getD_mul_weight hp hi'
    have h3 := weight_pos hp i
    have h4 : sz.getD i 0 ≤ sz.prod := mem_le_prod hp _ (by simp [hi'])
    have h5 : weight sz i ≤ sz.prod := by nlinarith
    have hz := z0 i
    have hu := u0 i hi'
    have ho := o0 i hi'
    exact ⟨hi', ⟨by omega, by omega, by omega, by omega, by omega, by rw [ho, mul_one]; omega⟩⟩
  have hn : (seq.map fun i => cnt ((zeros sz).getD i 0) (ub.getD i 0) (one.getD i 0)) = seq.map fun i => sz.getD i 0 := by
    refine List.map_congr_left fun i hi => ?_
    have hi' := (hm i).1 hi
    rw [z0, u0 i hi', o0 i hi']; unfold cnt
    rw [Int.ediv_one]; omega
  have hmk : makeTranspose seq it sz = .ok ⟨it.add (rowMajor sz (zeros sz)), seq.map fun i => weight sz i * one.getD i 0,
      seq.map fun _ => 0, seq.map fun i => cnt ((zeros sz).getD i 0) (ub.getD i 0) (one.getD i 0)⟩ := by
    unfold makeTranspose
    rw [mapM_ok (g := fun i => weight sz i) (fun i _ => strideDim_ok (i + 1) hp hN), M.ok_bind,
      mapM_ok (g := fun i => sz.getD i 0) (fun i hi => get_ok ((hm i).1 hi)), M.ok_bind, rowMajor_zeros, hn]
    congr 2
    · simp [Ptr.add]
    · refine List.map_congr_left fun i hi => ?_
      rw [o0 i ((hm i).1 hi), mul_one]
  have hprod : (seq.map fun i => sz.getD i 0).prod = sz.prod := by
    rw [prod_subset_range hd (fun i hi => (hm i).1 hi)]
    conv_rhs => rw [eq_map_getD sz rfl]
    congr 1
    refine List.map_congr_left fun i hi => ?_
    rw [if_pos ((hm i).2 (List.mem_range.1 hi))]
  have hsne : seq ≠ [] := by
    have := List.length_pos_iff.2 hne
    intro e; subst e; have := (hm 0).2 this; simp at this
  refine ⟨_, hmk, submatrix_begin hsne hd hp hN (by simp) hseq, hn, by rw [← hprod, ← hn], ?_⟩
  intro k h0 h1
  obtain ⟨e1, e2, e3⟩ := submatrix_at (it := it) hsne hd hp hN (zeros_inBox hp) hseq h0 (by rw [hn, hprod]; exact h1)
  refine ⟨_, _, e1, e2, embed_inBox (zeros_inBox hp) hseq e3, ?_⟩
  rw [hn]
  conv_rhs => rw [coords_map (l := seq) (c := coords (seq.map fun i => sz.getD i 0) k) hd (by simp [coords_length])]
  refine List.map_congr_left fun i hi => ?_
  have hi' := (hm i).1 hi
  have hz := z0 i
  have ho := o0 i hi'
  simp only [List.getD_eq_getElem?_getD] at hz ho
  simp [embed, hi', hi, hz, ho]

/-- the transposed view is a rearrangement of the whole array: every element is met at exactly one position -/
theorem C06_permutes {it : Ptr} {sz : List Int} {seq : List Nat} (hne : sz ≠ []) (hp : Pos sz) (hN : sz.prod ≤ 2147483647)
    (hperm : IsPerm seq sz.length) {v : MT} (hv : makeTranspose seq it sz = .ok v) :
    ∀ o, 0 ≤ o → o < sz.prod → ∃ k, (0 ≤ k ∧ k < sz.prod ∧ ∃ r, v.adv k = .ok r ∧ r.addr = .ok (it.add o)) ∧
      ∀ k', (0 ≤ k' ∧ k' < sz.prod ∧ ∃ r, v.adv k' = .ok r ∧ r.addr = .ok (it.add o)) → k' = k := by
  obtain ⟨v', h1, hb, hn, hpr, hk⟩ := C06_transpose (it := it) hne hp hN hperm
  have : v' = v := Except.ok.inj (h1.symm.trans hv)
  subst this
  obtain ⟨hd, hm⟩ := hperm
  intro o o0 o1
  have hxin := coords_inBox hp o0 o1
  -- the element's coordinate, read in the view's order
  let c := seq.map fun i => (coords sz o).getD i 0
  have hcin : InBox (seq.map fun i => sz.getD i 0) c := by
    rw [InBox_map]
    intro i hi
    have h3 := hxin
    rw [eq_map_getD sz rfl, eq_map_getD (coords _ o) (n := sz.length) (by simp [coords_length]), InBox_map] at h3
    have := h3 i (List.mem_range.2 ((hm i).1 hi))
    rw [← eq_map_getD sz rfl] at this
    exact this
  have hppos : Pos (seq.map fun i => sz.getD i 0) := hcin.pos
  have hprod : (seq.map fun i => sz.getD i 0).prod = sz.prod := by rw [← hn]; exact hpr
  -- an address determines the coordinate
  have uniq : ∀ k', 0 ≤ k' → k' < sz.prod → (∃ r, v'.adv k' = .ok r ∧ r.addr = .ok (it.add o)) →
      coords (seq.map fun i => sz.getD i 0) k' = c := by
    rintro k' k0 k1 ⟨r, hr, ha⟩
    obtain ⟨r', x, hr', ha', hx, hc⟩ := hk k' k0 k1
    have : r = r' := Except.ok.inj (hr.symm.trans hr')
    subst this
    have e : it.add o = it.add (rowMajor sz x) := Except.ok.inj (ha.symm.trans ha')
    have e' : o = rowMajor sz x := by
      simp only [Ptr.add, Ptr.mk.injEq, true_and] at e; omega
    rw [← hc]
    refine List.map_congr_left fun i _ => ?_
    rw [e', coords_rowMajor hx]
  refine ⟨rowMajor (seq.map fun i => sz.getD i 0) c, ⟨rowMajor_nonneg hcin, by rw [← hprod]; exact rowMajor_lt hcin, ?_⟩, ?_⟩
  · obtain ⟨r, x, hr, ha, hx, hc⟩ := hk (rowMajor (seq.map fun i => sz.getD i 0) c) (rowMajor_nonneg hcin)
      (by rw [← hprod]; exact rowMajor_lt hcin)
    refine ⟨r, hr, ?_⟩
    rw [coords_rowMajor hcin] at hc
    have : x = coords sz o := by
      rw [eq_map_getD x (n := sz.length) hx.length_eq.symm, eq_map_getD (coords sz o) (n := sz.length) (by simp [coords_length])]
      refine List.map_congr_left fun i hi => ?_
      exact List.map_inj_left.1 hc i ((hm i).2 (List.mem_range.1 hi))
    rw [ha, this, rowMajor_coords hp o0 o1]
  · rintro k' ⟨k0, k1, hr⟩
    rw [← uniq k' k0 k1 hr, rowMajor_coords hppos k0 (by rw [hprod]; exact k1)]

example : IsPerm [2, 0, 1] 3 ∧ Pos [2, 3, 4] := by
  refine ⟨⟨by decide, ?_⟩, by simp [Pos]⟩
  intro i; simp; omega
example : makeTranspose [2, 0, 1] ⟨0, 0⟩ [2, 3, 4] = .ok ⟨⟨0, 0⟩, [1, 12, 4], [0, 0, 0], [4, 2, 3]⟩ := by decide

end Verif
