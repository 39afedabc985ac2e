import Verif.Model.MatrixUtils
import Verif.Lemmas.Box

namespace Verif

open Spec

theorem prodLoop_ok : ∀ {ss : List Int} {t : Int}, 0 ≤ t → Pos ss → t * ss.prod ≤ 2147483647 →
    prodLoop t ss = .ok (t * ss.prod)
  | [], t, _, _, _ => by simp [prodLoop]
  | s :: ss, t, ht, hp, h => by
    have h1 := hp.head
    have h2 := hp.tail.prod_pos
    rw [List.prod_cons, ← mul_assoc] at h
    have h0 : 0 ≤ t * s := by positivity
    have h3 : t * s ≤ 2147483647 := by nlinarith
    simp only [prodLoop]
    rw [imul_ok (by unfold InInt; omega), M.ok_bind, prodLoop_ok h0 hp.tail h, List.prod_cons, mul_assoc]

theorem Pos.drop {n : List Int} (h : Pos n) (j : Nat) : Pos (n.drop j) :=
  fun x hx => h x (List.mem_of_mem_drop hx)

theorem drop_prod_le : ∀ {n : List Int} (j : Nat), Pos n → (n.drop j).prod ≤ n.prod
  | [], j, _ => by simp
  | s :: ss, 0, _ => by simp
  | s :: ss, j + 1, h => by
    have := drop_prod_le j h.tail
    have h2 := h.tail.prod_pos
    have h1 := h.head
    simp only [List.drop_succ_cons, List.prod_cons]
    nlinarith

theorem strideDim_ok {n : List Int} (j : Nat) (hp : Pos n) (h : n.prod ≤ 2147483647) :
    strideDim n j = .ok (n.drop j).prod := by
  unfold strideDim
  have := drop_prod_le j hp
  rw [prodLoop_ok (by omega) (Pos.drop hp j) (by omega), one_mul]

theorem ravelLoop_ok : ∀ {ss cs : List Int} {t s : Int}, 0 ≤ t → Pos (s :: ss) → NonNeg cs →
    cs.length = (s :: ss).length →
    t * ss.prod + rowMajor (s :: ss) cs ≤ 2147483647 →
    ravelLoop t (s :: ss) cs = .ok (t * ss.prod + rowMajor (s :: ss) cs)
  | [], [c], t, s, ht, hp, hc, _, h => by
    have h1 : 0 ≤ c := hc c List.mem_cons_self
    simp [rowMajor] at h
    simp only [ravelLoop]
    rw [iadd_ok (by unfold InInt; omega)]
    simp [rowMajor]
  | s' :: ss, c :: cs, t, s, ht, hp, hc, hl, h => by
    have h1 : 0 ≤ c := hc c List.mem_cons_self
    have hcs : NonNeg cs := fun x hx => hc x (List.mem_cons_of_mem _ hx)
    have h2 := hp.tail.tail.prod_pos
    have h3 := hp.tail.head
    have h4 := rowMajor_nonneg' hp.tail hcs
    simp only [rowMajor, List.prod_cons] at h
    have e : (t + c) * s' * ss.prod + rowMajor (s' :: ss) cs ≤ 2147483647 := by
      linarith
    have h5 : 0 ≤ (t + c) * s' := by positivity
    have h6 : (t + c) * s' ≤ (t + c) * s' * ss.prod := by nlinarith
    have h7 : t + c ≤ (t + c) * s' := by nlinarith
    simp only [ravelLoop]
    rw [iadd_ok (by unfold InInt; omega), M.ok_bind, imul_ok (by unfold InInt; omega), M.ok_bind,
      ravelLoop_ok h5 hp.tail hcs (by simpa using hl) e]
    simp only [rowMajor, List.prod_cons]
    congr 1
    ring
  | [], [], _, _, _, _, _, hl, _ => by simp at hl
  | [], _ :: _ :: _, _, _, _, _, _, hl, _ => by simp at hl
  | _ :: _, [], _, _, _, _, _, hl, _ => by simp at hl

theorem ravel_ok {n c : List Int} (hn : n ≠ []) (hp : Pos n) (hc : NonNeg c) (hl : c.length = n.length)
    (h : rowMajor n c ≤ 2147483647) : ravel n c = .ok (rowMajor n c) := by
  cases n with
  | nil => exact absurd rfl hn
  | cons s ss =>
    unfold ravel
    rw [ravelLoop_ok (le_refl _) hp hc hl (by simpa using h)]
    simp

theorem ravel_posCoord {n : List Int} {k : Int} (hn : n ≠ []) (hp : Pos n) (hN : n.prod ≤ 2147483647)
    (h0 : 0 ≤ k) (h1 : k ≤ n.prod) : ravel n (posCoord n k) = .ok k := by
  have := rowMajor_posCoord hp hn h0 h1
  rw [ravel_ok hn hp (posCoord_nonneg hp h0 h1) (posCoord_length n k) (by omega), this]

/-! ### unravel -/

theorem unravelLoop_ok : ∀ {ss : List Int} {s k : Int}, Pos (s :: ss) → ss.prod ≤ 2147483647 → 0 ≤ k → InInt k →
    unravelLoop (s :: ss) k = .ok (coords (s :: ss) k)
  | [], s, k, _, _, h0, _ => by simp [unravelLoop, coords]
  | s' :: ss, s, k, hp, hN, h0, hk => by
    have h2 := hp.tail.prod_pos
    have h3 := hp.tail.tail.prod_pos
    have h4 := hp.tail.head
    simp only [unravelLoop]
    rw [prodLoop_ok (by omega) hp.tail.tail (by simpa using hN), M.ok_bind]
    rw [List.prod_cons] at h2 hN
    rw [idiv_ok h0 (by omega) hk, M.ok_bind, imod_ok h0 (by omega) hk, M.ok_bind]
    have h5 : 0 ≤ k % (s' * ss.prod) := Int.emod_nonneg _ (by omega)
    have h6 : k % (s' * ss.prod) < s' * ss.prod := Int.emod_lt_of_pos _ (by omega)
    rw [unravelLoop_ok hp.tail (by nlinarith) h5 (by unfold InInt; omega)]
    simp [coords]

theorem lastAdj_zero : ∀ {n c : List Int}, n ≠ [] → Pos n → n.prod ≤ 2147483647 → c.length = n.length →
    (∀ x ∈ c, InInt x) → lastAdj 0 n c = .ok c
  | [s], [c], _, _, _, _, hc => by
    have h1 := hc c List.mem_cons_self
    simp [lastAdj, imul_ok (a := 0) (b := s) (by simp [InInt]), iadd_ok (a := c) (b := 0) (by simpa using h1)]
  | s :: s' :: ss, c :: cs, _, hp, hN, hl, hc => by
    have h1 := hc c List.mem_cons_self
    have h2 := mem_le_prod hp s List.mem_cons_self
    have h3 := hp.head
    have hN' : (s' :: ss).prod ≤ 2147483647 := by
      have := drop_prod_le 1 hp; simp at this hN ⊢; omega
    have ih := lastAdj_zero (by simp) hp.tail hN' (by simpa using hl) (fun x hx => hc x (List.mem_cons_of_mem _ hx))
    simp [lastAdj, isub_ok (a := s) (b := 1) (by unfold InInt; omega),
      imul_ok (a := 0) (b := s - 1) (by simp [InInt]), iadd_ok (a := c) (b := 0) (by simpa using h1), ih]
  | [], _, h, _, _, _, _ => absurd rfl h
  | [_], [], _, _, _, hl, _ => by simp at hl
  | [_], _ :: _ :: _, _, _, _, hl, _ => by simp at hl
  | _ :: _ :: _, [], _, _, _, hl, _ => by simp at hl

/-- the list of zeros of the same length -/
def zeros : List Int → List Int
  | [] => []
  | _ :: n => 0 :: zeros n

theorem lastAdj_one : ∀ {n : List Int}, n ≠ [] → Pos n → n.prod ≤ 2147483647 →
    lastAdj 1 n (zeros n) = .ok (endCoord n)
  | [s], _, hp, hN => by
    have h3 := hp.head
    simp at hN
    simp [lastAdj, zeros, endCoord, imul_ok (a := 1) (b := s) (by unfold InInt; omega),
      iadd_ok (a := 0) (b := s) (by unfold InInt; omega)]
  | s :: s' :: ss, _, hp, hN => by
    have h2 := mem_le_prod hp s List.mem_cons_self
    have h3 := hp.head
    have hN' : (s' :: ss).prod ≤ 2147483647 := by
      have := drop_prod_le 1 hp; simp at this hN ⊢; omega
    have ih := lastAdj_one (n := s' :: ss) (by simp) hp.tail hN'
    simp only [zeros] at ih
    simp [lastAdj, zeros, endCoord, isub_ok (a := s) (b := 1) (by unfold InInt; omega),
      imul_ok (a := 1) (b := s - 1) (by unfold InInt; omega), iadd_ok (a := 0) (b := s - 1) (by unfold InInt; omega), ih]
  | [], h, _, _ => absurd rfl h

theorem coords_zero : ∀ (n : List Int), coords n 0 = zeros n
  | [] => rfl
  | s :: ss => by simp [coords, zeros, coords_zero ss]

theorem unravelAdj_ok {s0 s1 : Int} {ss : List Int} {k : Int} (hp : Pos (s0 :: s1 :: ss))
    (hN : (s0 :: s1 :: ss).prod ≤ 2147483647) (h0 : 0 ≤ k) (h1 : k ≤ (s0 :: s1 :: ss).prod) :
    unravelAdj (s0 :: s1 :: ss) (coords (s0 :: s1 :: ss) k) = .ok (posCoord (s0 :: s1 :: ss) k) := by
  have hP := hp.tail.prod_pos
  have hs := hp.head
  have hN' : (s1 :: ss).prod ≤ 2147483647 := by
    have := drop_prod_le 1 hp; simp at this hN ⊢; omega
  have hs' := mem_le_prod hp s0 List.mem_cons_self
  by_cases hk : k = (s0 :: s1 :: ss).prod
  · have e1 : k / (s1 :: ss).prod = s0 := by
      rw [hk, List.prod_cons]; exact Int.mul_ediv_cancel _ (by omega)
    have e2 : k % (s1 :: ss).prod = 0 := by
      rw [hk, List.prod_cons]; exact Int.mul_emod_left _ _
    have := lastAdj_one (n := s1 :: ss) (by simp) hp.tail hN'
    unfold posCoord
    rw [if_pos hk]
    rw [coords]
    simp only [unravelAdj, e1, e2, coords_zero]
    rw [isub_ok (by unfold InInt; omega), M.ok_bind]
    simp only [sub_self, lnot, if_true]
    rw [isub_ok (by unfold InInt; omega), M.ok_bind, this, M.ok_bind]
    simp [endCoord]
  · have hb := coords_inBox hp h0 (by omega)
    have hb' := hb
    rw [posCoord_of_lt (by omega)]
    rw [coords] at hb ⊢
    have hlt := hb.1
    have hm := coords_mem_le hb.2
    have hnn := hb.2.nonneg
    have := lastAdj_zero (n := s1 :: ss) (by simp) hp.tail hN' (by rw [coords_length])
      (c := coords (s1 :: ss) (k % (s1 :: ss).prod)) (fun x hx => by
        have a := hm x hx; have b := hnn x hx; unfold InInt; omega)
    simp only [unravelAdj]
    rw [isub_ok (by unfold InInt; omega), M.ok_bind]
    have e : lnot (s0 - k / (s1 :: ss).prod) = 0 := by unfold lnot; rw [if_neg (by omega)]
    rw [e, isub_ok (by unfold InInt; omega), M.ok_bind, this, M.ok_bind]
    simp

theorem unravel_ok {n : List Int} {k : Int} (hn : n ≠ []) (hp : Pos n) (hN : n.prod ≤ 2147483647)
    (h0 : 0 ≤ k) (h1 : k ≤ n.prod) : unravel n k = .ok (posCoord n k) := by
  have hk : InInt k := by unfold InInt; omega
  match n, hn, hp, hN, h1 with
  | [s], _, hp, hN, h1 =>
    simp at h1 hN
    simp only [unravel, posCoord, List.prod_cons, List.prod_nil, mul_one, endCoord, coords]
    split
    · rename_i h; simp [h]
    · simp
  | [s0, s1], _, hp, hN, h1 =>
    have h2 := hp.tail.head
    rw [← unravelAdj_ok hp hN h0 h1]
    simp only [unravel]
    rw [idiv_ok h0 (by omega) hk, M.ok_bind, imod_ok h0 (by omega) hk, M.ok_bind]
    simp [coords]
  | [s0, s1, s2], _, hp, hN, h1 =>
    have h2 := hp.tail.head
    have h3 := hp.tail.tail.head
    have hP := hp.tail.prod_pos
    have hN' : ([s1, s2] : List Int).prod ≤ 2147483647 := by
      have := drop_prod_le 1 hp; simp only [List.drop_succ_cons, List.drop_zero] at this; omega
    have e : ([s1, s2] : List Int).prod = s1 * s2 := by simp
    rw [e] at hP hN'
    rw [← unravelAdj_ok hp hN h0 h1]
    have h5 : 0 ≤ k % (s1 * s2) := Int.emod_nonneg _ (by omega)
    have h6 : k % (s1 * s2) < s1 * s2 := Int.emod_lt_of_pos _ (by omega)
    simp only [unravel]
    rw [imul_ok (by unfold InInt; omega), M.ok_bind, idiv_ok h0 (by omega) hk, M.ok_bind, M.ok_bind,
      imod_ok h0 (by omega) hk, M.ok_bind, idiv_ok h5 (by omega) (by unfold InInt; omega), M.ok_bind,
      imod_ok h5 (by omega) (by unfold InInt; omega), M.ok_bind]
    simp [coords]
  | s0 :: s1 :: s2 :: s3 :: ss, _, hp, hN, h1 =>
    rw [← unravelAdj_ok hp hN h0 h1]
    have := drop_prod_le 1 hp
    simp only [List.drop_succ_cons, List.drop_zero] at this
    simp only [unravel]
    rw [unravelLoop_ok hp (by omega) h0 hk, M.ok_bind]

end Verif
