import Verif.Spec.Box
import Mathlib.Tactic.Ring
import Mathlib.Tactic.Linarith
import Mathlib.Tactic.Positivity

namespace Verif.Spec

theorem Pos.tail {s : Int} {ss : List Int} (h : Pos (s :: ss)) : Pos ss :=
  fun x hx => h x (List.mem_cons_of_mem _ hx)

theorem Pos.head {s : Int} {ss : List Int} (h : Pos (s :: ss)) : 1 ≤ s := h s List.mem_cons_self

theorem Pos.prod_pos : ∀ {n : List Int}, Pos n → 1 ≤ n.prod
  | [], _ => by simp
  | s :: ss, h => by
    have h1 := h.head
    have h2 := Pos.prod_pos h.tail
    rw [List.prod_cons]
    nlinarith

theorem InBox.length_eq : ∀ {n c : List Int}, InBox n c → n.length = c.length
  | [], [], _ => rfl
  | _ :: ss, _ :: cs, h => by simp [InBox.length_eq h.2]

theorem InBox.pos : ∀ {n c : List Int}, InBox n c → Pos n
  | [], [], _ => by simp [Pos]
  | s :: ss, c :: cs, h => by
    intro x hx
    rcases List.mem_cons.1 hx with rfl | hx
    · have := h.1; omega
    · exact InBox.pos h.2 x hx

theorem rowMajor_nonneg : ∀ {n c : List Int}, InBox n c → 0 ≤ rowMajor n c
  | [], [], _ => by simp [rowMajor]
  | s :: ss, c :: cs, h => by
    have h1 := rowMajor_nonneg h.2
    have h2 := h.2.pos.prod_pos
    have h3 := h.1.1
    simp only [rowMajor]
    have : 0 ≤ c * ss.prod := by positivity
    omega

theorem rowMajor_lt : ∀ {n c : List Int}, InBox n c → rowMajor n c < n.prod
  | [], [], _ => by simp [rowMajor]
  | s :: ss, c :: cs, h => by
    have h1 := rowMajor_lt h.2
    have h2 := h.2.pos.prod_pos
    have h3 := h.1.2
    simp only [rowMajor, List.prod_cons]
    nlinarith

theorem coords_inBox : ∀ {n : List Int} {k : Int}, Pos n → 0 ≤ k → k < n.prod → InBox n (coords n k)
  | [], _, _, _, _ => trivial
  | s :: ss, k, hp, h0, h1 => by
    have h2 := hp.tail.prod_pos
    rw [List.prod_cons] at h1
    refine ⟨⟨Int.ediv_nonneg h0 (by omega), ?_⟩, coords_inBox hp.tail (Int.emod_nonneg _ (by omega)) (Int.emod_lt_of_pos _ (by omega))⟩
    exact Int.ediv_lt_of_lt_mul (by omega) (by linarith)

theorem rowMajor_coords : ∀ {n : List Int} {k : Int}, Pos n → 0 ≤ k → k < n.prod → rowMajor n (coords n k) = k
  | [], k, _, h0, h1 => by simp at h1; simp [rowMajor]; omega
  | s :: ss, k, hp, h0, h1 => by
    have h2 := hp.tail.prod_pos
    simp only [coords, rowMajor]
    rw [rowMajor_coords hp.tail (Int.emod_nonneg _ (by omega)) (Int.emod_lt_of_pos _ (by omega))]
    have := Int.mul_ediv_add_emod k ss.prod
    linarith

theorem coords_rowMajor : ∀ {n c : List Int}, InBox n c → coords n (rowMajor n c) = c
  | [], [], _ => rfl
  | s :: ss, c :: cs, h => by
    have h0 := rowMajor_nonneg h.2
    have h1 := rowMajor_lt h.2
    have h2 := h.2.pos.prod_pos
    simp only [coords, rowMajor]
    have e1 : (c * ss.prod + rowMajor ss cs) / ss.prod = c := by
      rw [Int.add_comm, Int.add_mul_ediv_right _ _ (by omega), Int.ediv_eq_zero_of_lt h0 h1]; omega
    have e2 : (c * ss.prod + rowMajor ss cs) % ss.prod = rowMajor ss cs := by
      rw [Int.add_comm, Int.add_mul_emod_self_right, Int.emod_eq_of_lt h0 h1]
    rw [e1, e2, coords_rowMajor h.2]

theorem rowMajor_inj {n c d : List Int} (hc : InBox n c) (hd : InBox n d) (h : rowMajor n c = rowMajor n d) : c = d := by
  rw [← coords_rowMajor hc, ← coords_rowMajor hd, h]

theorem coords_length : ∀ (n : List Int) (k : Int), (coords n k).length = n.length
  | [], _ => rfl
  | _ :: ss, k => by simp [coords, coords_length ss]

theorem endCoord_length : ∀ (n : List Int), (endCoord n).length = n.length
  | [] => rfl
  | [_] => rfl
  | _ :: s :: ss => by simp [endCoord, endCoord_length (s :: ss)]

theorem rowMajor_endCoord : ∀ {n : List Int}, n ≠ [] → rowMajor n (endCoord n) = n.prod
  | [], h => absurd rfl h
  | [s], _ => by simp [endCoord, rowMajor]
  | s :: s' :: ss, _ => by
    have := rowMajor_endCoord (n := s' :: ss) (by simp)
    simp only [endCoord, rowMajor] at this ⊢
    rw [this, List.prod_cons (a := s)]; ring

theorem posCoord_length (n : List Int) (k : Int) : (posCoord n k).length = n.length := by
  unfold posCoord; split
  · exact endCoord_length n
  · exact coords_length n k

theorem posCoord_of_lt {n : List Int} {k : Int} (h : k < n.prod) : posCoord n k = coords n k := by
  unfold posCoord; rw [if_neg (by omega)]

theorem rowMajor_posCoord {n : List Int} {k : Int} (hp : Pos n) (hn : n ≠ []) (h0 : 0 ≤ k) (h1 : k ≤ n.prod) :
    rowMajor n (posCoord n k) = k := by
  unfold posCoord; split
  · rename_i h; rw [rowMajor_endCoord hn, h]
  · exact rowMajor_coords hp h0 (by omega)

theorem posCoord_inj {n : List Int} {j k : Int} (hp : Pos n) (hn : n ≠ []) (hj0 : 0 ≤ j) (hj1 : j ≤ n.prod)
    (hk0 : 0 ≤ k) (hk1 : k ≤ n.prod) (h : posCoord n j = posCoord n k) : j = k := by
  rw [← rowMajor_posCoord hp hn hj0 hj1, ← rowMajor_posCoord hp hn hk0 hk1, h]

/-- all coordinates are nonnegative -/
def NonNeg (c : List Int) : Prop := ∀ x ∈ c, 0 ≤ x

theorem InBox.nonneg : ∀ {n c : List Int}, InBox n c → NonNeg c
  | [], [], _ => by simp [NonNeg]
  | s :: ss, c :: cs, h => by
    intro x hx
    rcases List.mem_cons.1 hx with rfl | hx
    · exact h.1.1
    · exact InBox.nonneg h.2 x hx

theorem endCoord_nonneg : ∀ {n : List Int}, Pos n → NonNeg (endCoord n)
  | [], _ => by simp [NonNeg, endCoord]
  | [s], h => by have := h.head; intro x hx; simp [endCoord] at hx; omega
  | s :: s' :: ss, h => by
    intro x hx
    simp only [endCoord, List.mem_cons] at hx
    rcases hx with rfl | hx
    · have := h.head; omega
    · exact endCoord_nonneg h.tail x hx

theorem posCoord_nonneg {n : List Int} {k : Int} (hp : Pos n) (h0 : 0 ≤ k) (h1 : k ≤ n.prod) : NonNeg (posCoord n k) := by
  unfold posCoord; split
  · exact endCoord_nonneg hp
  · exact (coords_inBox hp h0 (by omega)).nonneg

theorem rowMajor_nonneg' : ∀ {n c : List Int}, Pos n → NonNeg c → 0 ≤ rowMajor n c
  | [], _, _, _ => by simp [rowMajor]
  | _ :: _, [], _, _ => by simp [rowMajor]
  | s :: ss, c :: cs, hp, hc => by
    have h1 := rowMajor_nonneg' hp.tail (fun x hx => hc x (List.mem_cons_of_mem _ hx))
    have h2 := hp.tail.prod_pos
    have h3 : 0 ≤ c := hc c List.mem_cons_self
    simp only [rowMajor]
    have : 0 ≤ c * ss.prod := by positivity
    omega

theorem mem_le_prod : ∀ {n : List Int}, Pos n → ∀ s ∈ n, s ≤ n.prod
  | [], _, _, hx => by simp at hx
  | s :: ss, h, x, hx => by
    have h1 := h.head
    have h2 := h.tail.prod_pos
    rw [List.prod_cons]
    rcases List.mem_cons.1 hx with rfl | hx
    · nlinarith
    · have := mem_le_prod h.tail x hx; nlinarith

theorem coords_mem_le : ∀ {n c : List Int}, InBox n c → ∀ x ∈ c, x < n.prod
  | [], [], _, _, hx => by simp at hx
  | s :: ss, c :: cs, h, x, hx => by
    have h1 := h.1
    have h2 := h.2.pos.prod_pos
    rw [List.prod_cons]
    rcases List.mem_cons.1 hx with rfl | hx
    · nlinarith
    · have := coords_mem_le h.2 x hx; nlinarith

end Verif.Spec
