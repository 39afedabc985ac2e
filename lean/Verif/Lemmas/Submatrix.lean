import Verif.Model.Submatrix
import Verif.Lemmas.Moves
import Mathlib.Algebra.BigOperators.Ring.List
import Mathlib.Algebra.BigOperators.Group.Finset.Basic
import Mathlib.Algebra.BigOperators.Group.Finset.Piecewise
import Mathlib.Algebra.Order.BigOperators.Ring.Finset

namespace Verif
open Spec

theorem mapM_ok {α β : Type} {f : α → M β} {g : α → β} : ∀ {l : List α}, (∀ x ∈ l, f x = .ok (g x)) →
    l.mapM f = .ok (l.map g)
  | [], _ => rfl
  | a :: as, h => by
    rw [List.mapM_cons, h a List.mem_cons_self, M.ok_bind, mapM_ok (fun x hx => h x (List.mem_cons_of_mem _ hx))]
    rfl

theorem get_ok {a : List Int} {i : Nat} (h : i < a.length) : get a i = .ok (a.getD i 0) := by
  simp [get, h]

theorem getD_map_range {n i : Nat} {f : Nat → Int} (h : i < n) : ((List.range n).map f).getD i 0 = f i := by simp [h]

/-- product of the extents after dimension `i` -/
def weight (sz : List Int) (i : Nat) : Int := (sz.drop (i + 1)).prod

/-- `Σ s_j c_j` -/
def dotL : List Int → List Int → Int
  | s :: ss, c :: cs => s * c + dotL ss cs
  | _, _ => 0

theorem dotL_map_map {α : Type} (f g : α → Int) : ∀ l : List α, dotL (l.map f) (l.map g) = (l.map fun x => f x * g x).sum
  | [] => rfl
  | a :: as => by simp [dotL, dotL_map_map f g as]

theorem eq_map_getD (l : List Int) {n : Nat} (h : l.length = n) : l = (List.range n).map fun i => l.getD i 0 := by
  subst h
  apply List.ext_getElem
  · simp
  · intro i h1 h2; simp [h1]

theorem rowMajor_eq_sum : ∀ {sz x : List Int}, x.length = sz.length →
    rowMajor sz x = ((List.range sz.length).map fun i => weight sz i * x.getD i 0).sum
  | [], [], _ => rfl
  | s :: ss, x :: xs, h => by
    simp only [List.length_cons, List.range_succ_eq_map, List.map_cons, List.map_map, List.sum_cons]
    rw [rowMajor, rowMajor_eq_sum (by simpa using h)]
    simp only [weight, List.drop_succ_cons, List.drop_zero, List.getD_cons_zero, Function.comp_def, Nat.succ_eq_add_one,
      List.getD_cons_succ]
    rw [mul_comm]

theorem weight_pos {sz : List Int} (hp : Pos sz) (i : Nat) : 1 ≤ weight sz i := (Pos.drop hp (i + 1)).prod_pos

theorem getD_mul_weight : ∀ {sz : List Int} {i : Nat}, Pos sz → i < sz.length → sz.getD i 0 * weight sz i ≤ sz.prod
  | s :: ss, 0, hp, _ => by simp [weight]
  | s :: ss, i + 1, hp, h => by
    have := getD_mul_weight (i := i) hp.tail (by simpa using h)
    have h1 := hp.head
    have h2 := hp.tail.prod_pos
    simp only [List.getD_cons_succ, List.prod_cons, weight, List.drop_succ_cons] at *
    nlinarith

theorem strideDimStm_ok {sz stm : List Int} {i : Nat} (hp : Pos sz) (hN : sz.prod ≤ 2147483647) (hi : i < stm.length)
    (h : InInt (weight sz i * stm.getD i 0)) : strideDimStm sz stm i = .ok (weight sz i * stm.getD i 0) := by
  have := strideDim_ok (i + 1) hp hN
  unfold strideDim at this
  unfold strideDimStm
  rw [this, M.ok_bind]
  have e : stm[i]? = some (stm.getD i 0) := by simp [hi]
  rw [e]
  exact imul_ok h

theorem offLoop_ok : ∀ {s c : List Int} {o : Int}, s.length = c.length → (∀ x ∈ s.zipWith (· * ·) c, 0 ≤ x ∧ x ≤ 2147483647) →
    0 ≤ o → o + dotL s c ≤ 9223372036854775807 → MT.offLoop o s c = .ok (o + dotL s c)
  | [], [], o, _, _, _, _ => by simp [MT.offLoop, dotL]
  | s :: ss, c :: cs, o, hl, h, h0, h1 => by
    have hx := h (s * c) (by simp)
    have ht : ∀ x ∈ ss.zipWith (· * ·) cs, 0 ≤ x ∧ x ≤ 2147483647 := fun x hx => h x (by
      rw [List.zipWith_cons_cons]; exact List.mem_cons_of_mem _ hx)
    have hn : ∀ {s c : List Int}, (∀ x ∈ s.zipWith (· * ·) c, 0 ≤ x ∧ x ≤ 2147483647) → 0 ≤ dotL s c := by
      intro s
      induction s with
      | nil => intro c _; simp [dotL]
      | cons a as ih =>
        intro c hc
        cases c with
        | nil => simp [dotL]
        | cons b bs =>
          have := hc (a * b) (by simp)
          have := ih (c := bs) (fun x hx => hc x (by rw [List.zipWith_cons_cons]; exact List.mem_cons_of_mem _ hx))
          simp only [dotL]; omega
    have hd := hn ht
    simp only [dotL] at h1 ⊢
    simp only [MT.offLoop]
    rw [imul_ok (by unfold InInt; omega), M.ok_bind, dadd_ok (by unfold InDiff; omega), M.ok_bind,
      offLoop_ok (by simpa using hl) ht (by omega) (by omega)]
    congr 1; omega

/-- number of points of a strided range with inclusive bounds -/
def cnt (l u s : Int) : Int := (u - l) / s + 1

theorem cnt_pos {l u s : Int} (h : l ≤ u) (hs : 1 ≤ s) : 1 ≤ cnt l u s := by
  unfold cnt
  have : 0 ≤ (u - l) / s := Int.ediv_nonneg (by omega) (by omega)
  omega

theorem cnt_le {l u s : Int} (h : l ≤ u) : cnt l u s ≤ u - l + 1 := by
  unfold cnt
  have : (u - l) / s ≤ u - l := Int.ediv_le_self _ (by omega)
  omega

theorem cnt_mul {l u s c : Int} (hs : 1 ≤ s) (h : c < cnt l u s) : l + s * c ≤ u := by
  unfold cnt at h
  have h1 : c ≤ (u - l) / s := by omega
  have h2 := Int.mul_ediv_self_le (x := u - l) (k := s) (by omega)
  have : s * c ≤ s * ((u - l) / s) := by nlinarith
  omega

/-- one dimension of a box inside its parent: corners, step, no overflow in the products the code forms -/
structure DimOK (sz lb ub stm : List Int) (i : Nat) : Prop where
  l0 : 0 ≤ lb.getD i 0
  lu : lb.getD i 0 ≤ ub.getD i 0
  us : ub.getD i 0 < sz.getD i 0
  s1 : 1 ≤ stm.getD i 0
  fit : ub.getD i 0 - lb.getD i 0 + stm.getD i 0 ≤ 2147483647
  fit' : weight sz i * stm.getD i 0 ≤ 2147483647

theorem subExtent_ok {sz lb ub stm : List Int} {i : Nat} (h : DimOK sz lb ub stm i) (hl : i < lb.length) (hu : i < ub.length)
    (hs : i < stm.length) : subExtent lb ub stm i = .ok (cnt (lb.getD i 0) (ub.getD i 0) (stm.getD i 0)) := by
  obtain ⟨l0, lu, us, s1, fit, fit'⟩ := h
  unfold subExtent
  rw [get_ok hu, M.ok_bind, get_ok hl, M.ok_bind, get_ok hs, M.ok_bind, isub_ok (by unfold InInt; omega), M.ok_bind,
    iadd_ok (by unfold InInt; omega), M.ok_bind, idiv_ok (by omega) (by omega) (by unfold InInt; omega)]
  unfold cnt
  congr 1
  have := Int.add_mul_ediv_right (ub.getD i 0 - lb.getD i 0) 1 (show stm.getD i 0 ≠ 0 by omega)
  rw [one_mul] at this
  exact this

/-- what `submatrixHelper` builds -/
theorem submatrixHelper_ok {seq : List Nat} {it : Ptr} {sz lb ub stm : List Int} (hne : sz ≠ []) (hp : Pos sz)
    (hN : sz.prod ≤ 2147483647) (ll : lb.length = sz.length) (lu : ub.length = sz.length) (ls : stm.length = sz.length)
    (hlb : InBox sz lb) (hseq : ∀ i ∈ seq, i < sz.length ∧ DimOK sz lb ub stm i) :
    submatrixHelper seq it sz lb ub stm = .ok ⟨it.add (rowMajor sz lb), seq.map fun i => weight sz i * stm.getD i 0,
      seq.map fun _ => 0, seq.map fun i => cnt (lb.getD i 0) (ub.getD i 0) (stm.getD i 0)⟩ := by
  unfold submatrixHelper
  rw [mapM_ok (g := fun i => cnt (lb.getD i 0) (ub.getD i 0) (stm.getD i 0))
      (fun i hi => subExtent_ok (hseq i hi).2 (by have := (hseq i hi).1; omega) (by have := (hseq i hi).1; omega)
        (by have := (hseq i hi).1; omega)), M.ok_bind,
    mapM_ok (g := fun i => weight sz i * stm.getD i 0) (fun i hi => strideDimStm_ok hp hN
        (by have := (hseq i hi).1; omega) (by
          have := (hseq i hi).2.fit'; have := (hseq i hi).2.s1; have := weight_pos hp i
          unfold InInt; constructor <;> nlinarith)), M.ok_bind,
    ravel_ok hne hp hlb.nonneg ll (by have := rowMajor_lt hlb; omega), M.ok_bind]

theorem zipWith_map_mem {α : Type} {f g : α → Int} : ∀ {l : List α} {x : Int}, x ∈ (l.map f).zipWith (· * ·) (l.map g) →
    ∃ a ∈ l, x = f a * g a
  | a :: as, x, h => by
    simp only [List.map_cons, List.zipWith_cons_cons, List.mem_cons] at h
    rcases h with h | h
    · exact ⟨a, List.mem_cons_self, h⟩
    · obtain ⟨b, hb, e⟩ := zipWith_map_mem h
      exact ⟨b, List.mem_cons_of_mem _ hb, e⟩

theorem InBox_map {α : Type} {f g : α → Int} : ∀ {l : List α}, InBox (l.map f) (l.map g) ↔ ∀ a ∈ l, 0 ≤ g a ∧ g a < f a
  | [] => by simp [InBox]
  | a :: as => by simp [InBox, InBox_map (l := as)]

theorem sum_subset_range {seq : List Nat} {n : Nat} (hd : seq.Nodup) (hseq : ∀ i ∈ seq, i < n) (f : Nat → Int) :
    (seq.map f).sum = ((List.range n).map fun i => if i ∈ seq then f i else 0).sum := by
  rw [← List.sum_toFinset f hd, ← List.sum_toFinset _ List.nodup_range]
  rw [← Finset.sum_filter]
  refine Finset.sum_congr ?_ fun _ _ => rfl
  ext i
  simp only [List.mem_toFinset, Finset.mem_filter, List.mem_range]
  exact ⟨fun h => ⟨hseq i h, h⟩, fun h => h.2⟩

/-- coordinate in the parent of the point with steps `g i` along the dimensions in `seq` -/
def embed (seq : List Nat) (lb stm : List Int) (g : Nat → Int) (n : Nat) : List Int :=
  (List.range n).map fun i => lb.getD i 0 + if i ∈ seq then stm.getD i 0 * g i else 0

theorem embed_inBox {seq : List Nat} {sz lb ub stm : List Int} {g : Nat → Int} (hlb : InBox sz lb)
    (hseq : ∀ i ∈ seq, i < sz.length ∧ DimOK sz lb ub stm i)
    (hg : ∀ i ∈ seq, 0 ≤ g i ∧ g i < cnt (lb.getD i 0) (ub.getD i 0) (stm.getD i 0)) :
    InBox sz (embed seq lb stm g sz.length) := by
  have h1 := eq_map_getD sz rfl
  have h2 := eq_map_getD lb (n := sz.length) hlb.length_eq.symm
  have h3 : InBox ((List.range sz.length).map fun i => sz.getD i 0) ((List.range sz.length).map fun i => lb.getD i 0) := by
    rw [← h1, ← h2]; exact hlb
  rw [InBox_map] at h3
  have : InBox ((List.range sz.length).map fun i => sz.getD i 0) (embed seq lb stm g sz.length) := by
    unfold embed
    rw [InBox_map]
    intro i hi
    have := h3 i hi
    by_cases hm : i ∈ seq
    · obtain ⟨g0, g1⟩ := hg i hm
      obtain ⟨_, l0, lu, us, s1, fit, fit'⟩ := hseq i hm
      have := cnt_mul s1 g1
      have h5 : 0 ≤ stm.getD i 0 * g i := mul_nonneg (by omega) g0
      rw [if_pos hm]; omega
    · rw [if_neg hm]; omega
  rwa [← h1] at this

theorem rowMajor_embed {seq : List Nat} {sz lb stm : List Int} {g : Nat → Int} (hd : seq.Nodup)
    (hl : lb.length = sz.length) (hseq : ∀ i ∈ seq, i < sz.length) :
    rowMajor sz (embed seq lb stm g sz.length) =
      rowMajor sz lb + (seq.map fun i => weight sz i * stm.getD i 0 * g i).sum := by
  rw [rowMajor_eq_sum (by simp [embed]), rowMajor_eq_sum hl, sum_subset_range hd hseq, ← List.sum_map_add]
  congr 1
  refine List.map_congr_left fun i hi => ?_
  have hi := List.mem_range.1 hi
  have : (embed seq lb stm g sz.length).getD i 0 = lb.getD i 0 + if i ∈ seq then stm.getD i 0 * g i else 0 := by
    simp [embed, hi]
  rw [this]
  split <;> ring

/-- the address an iterator of a submatrix refers to -/
theorem submatrix_addr {seq : List Nat} {it : Ptr} {sz lb ub stm : List Int} {g : Nat → Int} {n : List Int} (hd : seq.Nodup)
    (hp : Pos sz) (hN : sz.prod ≤ 2147483647) (hlb : InBox sz lb)
    (hseq : ∀ i ∈ seq, i < sz.length ∧ DimOK sz lb ub stm i)
    (hg : ∀ i ∈ seq, 0 ≤ g i ∧ g i < cnt (lb.getD i 0) (ub.getD i 0) (stm.getD i 0)) :
    MT.addr ⟨it.add (rowMajor sz lb), seq.map fun i => weight sz i * stm.getD i 0, seq.map g, n⟩ =
      .ok (it.add (rowMajor sz (embed seq lb stm g sz.length))) := by
  have hb := embed_inBox hlb hseq hg
  have h0 := rowMajor_nonneg hlb
  have h1 := rowMajor_lt hb
  have e := rowMajor_embed (stm := stm) (g := g) hd hlb.length_eq.symm (fun i hi => (hseq i hi).1)
  unfold MT.addr
  simp only []
  rw [offLoop_ok (by simp) ?_ (le_refl _) (by rw [dotL_map_map]; omega), M.ok_bind, e, dotL_map_map]
  · simp only [Ptr.add, Except.ok.injEq, Ptr.mk.injEq, true_and]; omega
  · intro x hx
    obtain ⟨i, hi, rfl⟩ := zipWith_map_mem hx
    obtain ⟨g0, g1⟩ := hg i hi
    obtain ⟨hin, l0, lu, us, s1, fit, fit'⟩ := hseq i hi
    have h2 := cnt_mul s1 g1
    have h3 : 0 ≤ stm.getD i 0 * g i := mul_nonneg (by omega) g0
    have h4 := weight_pos hp i
    have h5 := getD_mul_weight hp hin
    rw [mul_assoc]
    constructor
    · exact mul_nonneg (by omega) h3
    · have : stm.getD i 0 * g i ≤ sz.getD i 0 := by omega
      nlinarith

theorem coords_map {α : Type} [DecidableEq α] {l : List α} {c : List Int} (hd : l.Nodup) (hc : c.length = l.length) :
    c = l.map fun a => c.getD (l.idxOf a) 0 := by
  apply List.ext_getElem
  · simpa using hc
  · intro i h1 h2
    have h3 : i < l.length := by omega
    simp [hd.idxOf_getElem i h3, h1]

theorem prod_subset_range {seq : List Nat} {n : Nat} (hd : seq.Nodup) (hseq : ∀ i ∈ seq, i < n) (f : Nat → Int) :
    (seq.map f).prod = ((List.range n).map fun i => if i ∈ seq then f i else 1).prod := by
  rw [← List.prod_toFinset f hd, ← List.prod_toFinset _ List.nodup_range]
  rw [← Finset.prod_filter]
  refine Finset.prod_congr ?_ fun _ _ => rfl
  ext i
  simp only [List.mem_toFinset, Finset.mem_filter, List.mem_range]
  exact ⟨fun h => ⟨hseq i h, h⟩, fun h => h.2⟩

theorem prod_seq_le {seq : List Nat} {sz : List Int} (hd : seq.Nodup) (hseq : ∀ i ∈ seq, i < sz.length) (hp : Pos sz)
    {f : Nat → Int} (hf : ∀ i ∈ seq, 0 ≤ f i ∧ f i ≤ sz.getD i 0) : (seq.map f).prod ≤ sz.prod := by
  rw [prod_subset_range hd hseq]
  conv_rhs => rw [eq_map_getD sz rfl]
  rw [← List.prod_toFinset _ List.nodup_range, ← List.prod_toFinset _ List.nodup_range]
  have hs : ∀ i, i < sz.length → 1 ≤ sz.getD i 0 := fun i hi => hp _ (by simp [hi])
  apply Finset.prod_le_prod
  · intro i hi
    split
    · rename_i h; exact (hf i h).1
    · omega
  · intro i hi
    split
    · rename_i h; exact (hf i h).2
    · exact hs i (by simpa using hi)

/-- the begin iterator of a submatrix is a proper begin iterator -/
theorem submatrix_begin {seq : List Nat} {p : Ptr} {st sz lb ub stm : List Int} (hne : seq ≠ []) (hd : seq.Nodup)
    (hp : Pos sz) (hN : sz.prod ≤ 2147483647) (hst : st.length = seq.length)
    (hseq : ∀ i ∈ seq, i < sz.length ∧ DimOK sz lb ub stm i) :
    MT.IsBegin ⟨p, st, seq.map fun _ => 0, seq.map fun i => cnt (lb.getD i 0) (ub.getD i 0) (stm.getD i 0)⟩ := by
  refine ⟨⟨by simpa using hne, ?_, ?_, by simpa using hst⟩, by simp [Function.comp_def]⟩
  · intro x hx
    obtain ⟨i, hi, rfl⟩ := List.mem_map.1 hx
    have h := (hseq i hi).2
    exact cnt_pos h.lu h.s1
  · refine (prod_seq_le hd (fun i hi => (hseq i hi).1) hp fun i hi => ?_).trans hN
    have h := (hseq i hi).2
    have h1 := cnt_pos h.lu h.s1
    have h2 : cnt (lb.getD i 0) (ub.getD i 0) (stm.getD i 0) ≤ _ := cnt_le h.lu
    have := h.us; have := h.l0
    omega

/-- jumping to element `k` of a submatrix and asking for its address -/
theorem submatrix_at {seq : List Nat} {it : Ptr} {sz lb ub stm : List Int} {k : Int} (hne : seq ≠ []) (hd : seq.Nodup)
    (hp : Pos sz) (hN : sz.prod ≤ 2147483647) (hlb : InBox sz lb) (hseq : ∀ i ∈ seq, i < sz.length ∧ DimOK sz lb ub stm i)
    (h0 : 0 ≤ k) (h1 : k < (seq.map fun i => cnt (lb.getD i 0) (ub.getD i 0) (stm.getD i 0)).prod) :
    let n := seq.map fun i => cnt (lb.getD i 0) (ub.getD i 0) (stm.getD i 0)
    let v : MT := ⟨it.add (rowMajor sz lb), seq.map fun i => weight sz i * stm.getD i 0, seq.map fun _ => 0, n⟩
    let g := fun i => (coords n k).getD (seq.idxOf i) 0
    v.adv k = .ok (v.at_ k) ∧ (v.at_ k).addr = .ok (it.add (rowMajor sz (embed seq lb stm g sz.length))) ∧
      (∀ i ∈ seq, 0 ≤ g i ∧ g i < cnt (lb.getD i 0) (ub.getD i 0) (stm.getD i 0)) := by
  intro n v g
  have hb : v.IsBegin := submatrix_begin hne hd hp hN (by simp) hseq
  have hc : coords n k = seq.map g := coords_map hd (by simp [coords_length, n])
  have hin : InBox n (coords n k) := coords_inBox hb.pos h0 h1
  have hg : ∀ i ∈ seq, 0 ≤ g i ∧ g i < cnt (lb.getD i 0) (ub.getD i 0) (stm.getD i 0) := by
    rw [hc] at hin
    exact InBox_map.1 hin
  refine ⟨hb.adv h0 (le_of_lt h1), ?_, hg⟩
  have : v.at_ k = ⟨it.add (rowMajor sz lb), seq.map fun i => weight sz i * stm.getD i 0, seq.map g, n⟩ := by
    simp only [MT.at_, v]
    rw [posCoord_of_lt h1, hc]
  rw [this]
  exact submatrix_addr hd hp hN hlb hseq hg

end Verif
