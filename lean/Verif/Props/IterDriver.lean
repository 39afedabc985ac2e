import Verif.Lemmas.IterDriver
import Mathlib.Algebra.Field.Rat
import Mathlib.Tactic.IntervalCases

/-
C114: the tests of the forward stencil, submatrix and transpose iterators pass.
-/

namespace Verif

open Spec Test

variable {T : Type}

theorem vec_zero {a b : List T} : vec 0 [a, b] = .ok a := rfl
theorem vec_one {a b : List T} : vec 1 [a, b] = .ok b := rfl

theorem pos3_ok {n0 n1 n2 : Int} (h0 : 1 ≤ n0) (h1 : 1 ≤ n1) (h2 : 1 ≤ n2) : Pos [n0, n1, n2] := by
  unfold Pos
  simp only [List.mem_cons, List.not_mem_nil, or_false, forall_eq_or_imp, forall_eq]
  exact ⟨h0, h1, h2⟩

theorem inBox_three {n0 n1 n2 : Int} {x : List Int} (h : InBox [n0, n1, n2] x) :
    ∃ a b c, x = [a, b, c] ∧ 0 ≤ a ∧ a < n0 ∧ 0 ≤ b ∧ b < n1 ∧ 0 ≤ c ∧ c < n2 := by
  match x, h with
  | [a, b, c], h => exact ⟨a, b, c, rfl, h.1.1, h.1.2, h.2.1.1, h.2.1.2, h.2.2.1.1, h.2.2.1.2⟩

/-- the elements at the positions of a box are all elements -/
theorem ext_box {sz : List Int} {a b : List T} (hp : Pos sz) (ha : (a.length : Int) = sz.prod) (hb : (b.length : Int) = sz.prod)
    (h : ∀ x, InBox sz x → a[(rowMajor sz x).toNat]? = b[(rowMajor sz x).toNat]?) : a = b := by
  refine List.ext_getElem? fun q => ?_
  by_cases hq : q < a.length
  · have := h (coords sz q) (coords_inBox hp (by omega) (by omega))
    rwa [rowMajor_coords hp (by omega) (by omega)] at this
  · rw [List.getElem?_eq_none (by omega), List.getElem?_eq_none (by omega)]

/-- src/transpose_iterator.t.cpp:49-70 -/
theorem C114_transpose_3d [Zero T] [DecidableEq T] {n0 n1 n2 : Int} {x : Nat → T} {β₁ β₂ β₃ : Backend} (h₁ : ValidBackend β₁) (h₂ : ValidBackend β₂) (h₃ : ValidBackend β₃)
    (hn0 : 1 ≤ n0) (hn1 : 1 ≤ n1) (hn2 : 1 ≤ n2) (hN : n0 * n1 * n2 ≤ 2147483647) : Test.transpose3d n0 n1 n2 x β₁ β₂ β₃ = .ok true := by
  have q1 : 1 ≤ n0 * n1 := one_le_mul_of_one_le_of_one_le hn0 hn1
  have q2 : 1 ≤ n0 * n1 * n2 := one_le_mul_of_one_le_of_one_le q1 hn2
  have q3 : n0 * n1 ≤ n0 * n1 * n2 := le_mul_of_one_le_right (by omega) hn2
  have p012 : [n0, n1, n2].prod = n0 * n1 * n2 := by simp [mul_assoc]
  have p201 : [n2, n0, n1].prod = n0 * n1 * n2 := by simp; ring
  have P := pos3_ok hn0 hn1 hn2
  have P' := pos3_ok hn2 hn0 hn1
  unfold Test.transpose3d Test.transpose3dOf
  rw [imul_ok (by unfold InInt; omega), M.ok_bind, imul_ok (by unfold InInt; omega), M.ok_bind, newVec_ok (by omega), M.ok_bind]
  dsimp only
  rw [newVec_ok (by omega), M.ok_bind, generate_eq]
  generalize hV : (List.range (List.replicate (n0 * n1 * n2).toNat (0 : T)).length).map x = v
  have lv : (v.length : Int) = n0 * n1 * n2 := by rw [← hV]; simp; omega
  obtain ⟨u1, r1, l1, e1⟩ := transposed (seq := [0, 1, 2]) (sz := [n0, n1, n2]) (v := v) (u := List.replicate ((List.replicate (n0 * n1 * n2).toNat (0 : T)).length : Int).toNat (0 : T)) h₁
    (by simp) P (by rw [p012]; exact hN) ⟨by decide, by intro i; simp; omega⟩ (by rw [p012, lv]) (by rw [p012]; simp; omega)
  have eq1 : u1 = v := ext_box P (by rw [l1, p012]; simp; omega) (by rw [lv, p012]) fun y hy => by
    obtain ⟨a, b, c, rfl, -⟩ := inBox_three hy
    exact e1 _ hy
  rw [r1, M.ok_bind]
  rw [vec_zero, M.ok_bind, vec_one, M.ok_bind]
  obtain ⟨u2, r2, l2, e2⟩ := transposed (seq := [2, 0, 1]) (sz := [n0, n1, n2]) (v := v) (u := u1) h₂ (by simp) P (by rw [p012]; exact hN)
    ⟨by decide, by intro i; simp; omega⟩ (by rw [p012, lv]) (by rw [p012, eq1, lv])
  rw [r2, M.ok_bind, vec_zero, M.ok_bind, vec_one, M.ok_bind, newVec_ok (by omega), M.ok_bind]
  have lu2 : (u2.length : Int) = n0 * n1 * n2 := by rw [l2, eq1, lv]
  obtain ⟨w, r3, l3, e3⟩ := transposed (seq := [1, 2, 0]) (sz := [n2, n0, n1]) (v := u2) (u := List.replicate (u2.length : Int).toNat (0 : T)) h₃ (by simp) P' (by rw [p201]; exact hN)
    ⟨by decide, by intro i; simp; omega⟩ (by rw [p201, lu2]) (by rw [p201, ← lu2]; simp)
  rw [r3, M.ok_bind, vec_one, M.ok_bind]
  have eq3 : w = v := ext_box P (by rw [l3, p012, ← lu2]; simp) (by rw [lv, p012]) fun y hy => by
    obtain ⟨a, b, c, rfl, ha, ha', hb, hb', hc, hc'⟩ := inBox_three hy
    have s2 := e2 _ hy
    have s3 := e3 [c, a, b] ⟨⟨hc, hc'⟩, ⟨ha, ha'⟩, ⟨hb, hb'⟩, trivial⟩
    exact s3.trans s2
  rw [eq1, eq3]
  simp

example : Test.transpose3d 3 8 4 (fun k => (k : ℚ) / 7) revBackend seqBackend revBackend = .ok true :=
  C114_transpose_3d revBackend_ok seqBackend_ok revBackend_ok (by decide) (by decide) (by decide) (by decide)

/-- src/transpose_iterator.t.cpp:26-47 -/
theorem C114_transpose_2d [Field T] [DecidableEq T] {β₁ β₂ β₃ : Backend} (h₁ : ValidBackend β₁) (h₂ : ValidBackend β₂) (h₃ : ValidBackend β₃) :
    Test.transpose2d (T := T) β₁ β₂ β₃ = .ok true := by
  unfold Test.transpose2d Test.transpose2dOf
  dsimp only
  rw [newVec_ok (by omega), M.ok_bind]
  have P : Pos [2, 3] := by unfold Pos; decide
  have P' : Pos [3, 2] := by unfold Pos; decide
  obtain ⟨u1, r1, l1, e1⟩ := transposed (seq := [0, 1]) (sz := [2, 3]) (v := ([1, 2, 3, 4, 5, 6] : List T)) (u := List.replicate (([1, 2, 3, 4, 5, 6] : List T).length : Int).toNat (0 : T)) h₁
    (by simp) P (by decide) ⟨by decide, by intro i; simp; omega⟩ rfl rfl
  rw [r1, M.ok_bind]
  rw [vec_zero, M.ok_bind, vec_one, M.ok_bind]
  have two : ∀ {n0 n1 : Int} {y : List Int}, InBox [n0, n1] y → ∃ a b, y = [a, b] ∧ 0 ≤ a ∧ a < n0 ∧ 0 ≤ b ∧ b < n1 := fun {n0 n1 y} h => by
    match y, h with
    | [a, b], h => exact ⟨a, b, rfl, h.1.1, h.1.2, h.2.1.1, h.2.1.2⟩
  have eq1 : u1 = [1, 2, 3, 4, 5, 6] := ext_box P (by rw [l1]; rfl) rfl fun y hy => by
    obtain ⟨a, b, rfl, -⟩ := two hy
    exact e1 _ hy
  obtain ⟨u2, r2, l2, e2⟩ := transposed (seq := [1, 0]) (sz := [2, 3]) (v := ([1, 2, 3, 4, 5, 6] : List T)) (u := u1) h₂ (by simp) P (by decide)
    ⟨by decide, by intro i; simp; omega⟩ rfl (by rw [eq1]; rfl)
  rw [r2, M.ok_bind, vec_zero, M.ok_bind, vec_one, M.ok_bind, newVec_ok (by omega), M.ok_bind]
  have lu2 : (u2.length : Int) = 6 := by rw [l2, eq1]; rfl
  obtain ⟨w, r3, l3, e3⟩ := transposed (seq := [1, 0]) (sz := [3, 2]) (v := u2) (u := List.replicate (u2.length : Int).toNat (0 : T)) h₃ (by simp) P' (by decide)
    ⟨by decide, by intro i; simp; omega⟩ (by rw [lu2]; rfl) (by simp [lu2])
  rw [r3, M.ok_bind, vec_one, M.ok_bind]
  have eq2 : u2 = [1, 4, 2, 5, 3, 6] := List.ext_getElem? fun q => by
    by_cases hq : q < 6
    · interval_cases q
      · exact e2 [0, 0] (by simp [InBox])
      · exact e2 [1, 0] (by simp [InBox])
      · exact e2 [0, 1] (by simp [InBox])
      · exact e2 [1, 1] (by simp [InBox])
      · exact e2 [0, 2] (by simp [InBox])
      · exact e2 [1, 2] (by simp [InBox])
    · rw [List.getElem?_eq_none (by omega), List.getElem?_eq_none (by simp; omega)]
  have eq3 : w = [1, 2, 3, 4, 5, 6] := ext_box P (by rw [l3]; simp [lu2]) rfl fun y hy => by
    obtain ⟨a, b, rfl, ha, ha', hb, hb'⟩ := two hy
    have s2 := e2 _ hy
    have s3 := e3 [b, a] ⟨⟨hb, hb'⟩, ⟨ha, ha'⟩, trivial⟩
    exact s3.trans s2
  rw [eq1, eq2, eq3]
  simp

example : Test.transpose2d (T := ℚ) revBackend seqBackend revBackend = .ok true := C114_transpose_2d revBackend_ok seqBackend_ok revBackend_ok

/-- `E` is what the host computes from `v` for direction `i` -/
def Refs [Sub T] (dims : List Int) (i : Nat) (v E : List T) : Prop :=
  (E.length : Int) = (shorten dims i).prod ∧ ∀ c k l p, InBox (shorten dims i) c → rowMajor dims (bump c i) = k → rowMajor dims c = l →
    rowMajor (shorten dims i) c = p → (0 ≤ l ∧ l < dims.prod ∧ 0 ≤ k ∧ k < dims.prod ∧ 0 ≤ p) ∧ ∃ d, diff v k l = .ok d ∧ E[p.toNat]? = some d

/-- the test on data `v` with a function that leaves `u` -/
theorem forward1d_of [Zero T] [Sub T] [DecidableEq T] {n : Int} {x : Nat → T} {K : Mem T → M (Mem T)} {u E : List T} (hn : 2 ≤ n) (hN : n ≤ 2147483647)
    (hK : onVecs K [(List.range n.toNat).map x, List.replicate (n - 1).toNat 0] = .ok [(List.range n.toNat).map x, u]) (hu : u.length = E.length)
    (hE : Refs [n] 0 ((List.range n.toNat).map x) E) : Test.forward1dOf n x K = .ok (decide (u = E)) := by
  obtain ⟨lE, e⟩ := hE
  unfold Test.forward1dOf
  rw [newVec_ok (by omega), M.ok_bind]
  dsimp only
  rw [generate_eq, List.length_replicate]
  generalize hV : (List.range n.toNat).map x = v at hK e
  have lv : (v.length : Int) = n := by rw [← hV]; simp; omega
  rw [lv, newVec_ok (by omega), M.ok_bind, hK, M.ok_bind, vec_zero, M.ok_bind, vec_one, M.ok_bind, newVec_ok (by omega), M.ok_bind, hu]
  have lu : (E.length : Int) = n - 1 := by rw [lE]; simp [shorten]
  obtain ⟨s, run, hs⟩ := forLt_inv (lo := 0) (hi := ((List.replicate (E.length : Int).toNat (0 : T)).length : Int)) (body := round1 v) (s := List.replicate (E.length : Int).toNat (0 : T))
    (fun i r => Upto E i (r, i)) (by omega) (by omega) (by simp; omega) (upto_zero (by simp)) (fun i r h0 h1 hI => by
      simp at h1
      obtain ⟨-, d, hd, hu⟩ := e [i] (i + 1) i i (by simp [InBox, shorten]; omega) (by simp [rowMajor, bump]) (by simp [rowMajor]) (by simp [rowMajor, shorten])
      unfold round1
      rw [iadd_ok (by unfold InInt; omega), M.ok_bind, hd, M.ok_bind]
      exact upto_set hI h0 hu)
  rw [run, M.ok_bind]
  have := upto_all hs (by simp)
  simp only at this
  rw [this]

/-- src/forward_stencil_iterator.t.cpp:44-61 -/
theorem C114_forward_1d [Zero T] [Sub T] [DecidableEq T] {n : Int} {x : Nat → T} {β : Backend} (hβ : ValidBackend β) (hn : 2 ≤ n) (hN : n ≤ 2147483647) :
    Test.forward1d n x β = .ok true := by
  obtain ⟨u, r, l, e⟩ := neighbours (dims := [n]) (i := 0) (v := (List.range n.toNat).map x) (u := List.replicate (n - 1).toNat (0 : T)) hβ (by simp [Pos]; omega) (by simpa using hN)
    (by simp) (by simpa using hn) (by simp; omega) (by simp [shorten]; omega)
  unfold Test.forward1d
  rw [forward1d_of hn hN r rfl ⟨l, e⟩]
  simp

example : Test.forward1d 10 (fun k => (k : ℚ) / 7) revBackend = .ok true := C114_forward_1d revBackend_ok (by decide) (by decide)

theorem forward2d1_of [Zero T] [Sub T] [DecidableEq T] {n0 n1 : Int} {v u E : List T} {K : Mem T → M (Mem T)} (h0 : 1 ≤ n0) (h1 : 2 ≤ n1)
    (hN : n0 * n1 ≤ 2147483647) (hK : onVecs K [v, List.replicate (n0 * (n1 - 1)).toNat 0] = .ok [v, u])
    (hu : u.length = E.length) (hE : Refs [n0, n1] 1 v E) : Test.forward2d1 n0 n1 v K = .ok (decide (u = E)) := by
  obtain ⟨l, e⟩ := hE
  have q1 : n1 ≤ n0 * n1 := le_mul_of_one_le_left (by omega) h0
  have q0 : n0 ≤ n0 * n1 := le_mul_of_one_le_right (by omega) (by omega)
  have q2 : n0 * (n1 - 1) = n0 * n1 - n0 := by ring
  unfold Test.forward2d1
  rw [isub_ok (by unfold InInt; omega), M.ok_bind, imul_ok (by unfold InInt; rw [q2]; omega), M.ok_bind, newVec_ok (by omega), M.ok_bind]
  rw [hK, M.ok_bind, vec_zero, M.ok_bind, vec_one, M.ok_bind, newVec_ok (by omega), M.ok_bind, hu]
  have lu : (E.length : Int) = n0 * (n1 - 1) := by rw [l]; simp [shorten]
  obtain ⟨s, run, hs⟩ := forLt_inv (lo := 0) (hi := n0) (body := fun i => forLt 0 (n1 - 1) (round21 n1 v i)) (s := (List.replicate (E.length : Int).toNat (0 : T), 0))
    (fun i s => Upto E (i * (n1 - 1)) s) (by omega) (by omega) (by omega) (by rw [zero_mul]; exact upto_zero (by simp)) (fun i s hi hi' hI => by
      obtain ⟨s', run, hs⟩ := forLt_inv (lo := 0) (hi := n1 - 1) (body := round21 n1 v i) (s := s) (fun j s => Upto E (i * (n1 - 1) + j) s) (by omega) (by omega) (by omega)
        (by rw [add_zero]; exact hI) (fun j s hj hj' hI => by
          obtain ⟨⟨b0, b1, b2, b3, b4⟩, d, hd, hu⟩ := e [i, j] (i * n1 + j + 1) (i * n1 + j) (i * (n1 - 1) + j) (by simp [InBox, shorten]; omega)
            (by simp [rowMajor, bump]; ring) (by simp [rowMajor]) (by simp [rowMajor, shorten])
          simp only [List.prod_cons, List.prod_nil, mul_one] at b1 b3
          have : 0 ≤ i * n1 := mul_nonneg hi (by omega)
          unfold round21
          rw [imul_ok (by unfold InInt; omega), M.ok_bind, iadd_ok (by unfold InInt; omega), M.ok_bind, iadd_ok (by unfold InInt; omega), M.ok_bind, hd, M.ok_bind]
          rw [← add_assoc]
          exact upto_put hI b4 hu)
      refine ⟨s', run, ?_⟩
      rw [add_mul, one_mul]
      exact hs)
  rw [run, M.ok_bind]
  have := upto_all hs (by omega)
  show Except.ok (decide (u = s.1)) = _
  rw [this]

theorem forward2d0_of [Zero T] [Sub T] [DecidableEq T] {n0 n1 : Int} {v u E : List T} {K : Mem T → M (Mem T)} (h0 : 2 ≤ n0) (h1 : 1 ≤ n1)
    (hN : n0 * n1 ≤ 2147483647) (hK : onVecs K [v, List.replicate ((n0 - 1) * n1).toNat 0] = .ok [v, u])
    (hu : u.length = E.length) (hE : Refs [n0, n1] 0 v E) : Test.forward2d0 n0 n1 v K = .ok (decide (u = E)) := by
  obtain ⟨l, e⟩ := hE
  have q1 : n1 ≤ n0 * n1 := le_mul_of_one_le_left (by omega) (by omega)
  have q0 : n0 ≤ n0 * n1 := le_mul_of_one_le_right (by omega) (by omega)
  have q2 : (n0 - 1) * n1 = n0 * n1 - n1 := by ring
  unfold Test.forward2d0
  rw [isub_ok (by unfold InInt; omega), M.ok_bind, imul_ok (by unfold InInt; rw [q2]; omega), M.ok_bind, newVec_ok (by omega), M.ok_bind]
  rw [hK, M.ok_bind, vec_zero, M.ok_bind, vec_one, M.ok_bind, newVec_ok (by omega), M.ok_bind, hu]
  have lu : (E.length : Int) = (n0 - 1) * n1 := by rw [l]; simp [shorten]
  obtain ⟨s, run, hs⟩ := forLt_inv (lo := 0) (hi := n0 - 1) (body := fun i => forLt 0 n1 (round20 n1 v i)) (s := (List.replicate (E.length : Int).toNat (0 : T), 0))
    (fun i s => Upto E (i * n1) s) (by omega) (by omega) (by omega) (by rw [zero_mul]; exact upto_zero (by simp)) (fun i s hi hi' hI => by
      obtain ⟨s', run, hs⟩ := forLt_inv (lo := 0) (hi := n1) (body := round20 n1 v i) (s := s) (fun j s => Upto E (i * n1 + j) s) (by omega) (by omega) (by omega)
        (by rw [add_zero]; exact hI) (fun j s hj hj' hI => by
          obtain ⟨⟨b0, b1, b2, b3, b4⟩, d, hd, hu⟩ := e [i, j] ((i + 1) * n1 + j) (i * n1 + j) (i * n1 + j) (by simp [InBox, shorten]; omega)
            (by simp [rowMajor, bump]) (by simp [rowMajor]) (by simp [rowMajor, shorten])
          simp only [List.prod_cons, List.prod_nil, mul_one] at b1 b3
          have : 0 ≤ i * n1 := mul_nonneg hi (by omega)
          have : 0 ≤ (i + 1) * n1 := mul_nonneg (by omega) (by omega)
          unfold round20
          rw [iadd_ok (by unfold InInt; omega), M.ok_bind, imul_ok (by unfold InInt; omega), M.ok_bind, iadd_ok (by unfold InInt; omega), M.ok_bind,
            imul_ok (by unfold InInt; omega), M.ok_bind, iadd_ok (by unfold InInt; omega), M.ok_bind, hd, M.ok_bind]
          rw [← add_assoc]
          exact upto_put hI b4 hu)
      refine ⟨s', run, ?_⟩
      rw [add_mul, one_mul]
      exact hs)
  rw [run, M.ok_bind]
  have := upto_all hs (by omega)
  show Except.ok (decide (u = s.1)) = _
  rw [this]

theorem forward2d_of [Zero T] [Sub T] [DecidableEq T] {n0 n1 : Int} {x : Nat → T} {u₁ u₀ E₁ E₀ : List T} {K₁ K₀ : Mem T → M (Mem T)} (h0 : 2 ≤ n0) (h1 : 2 ≤ n1)
    (hN : n0 * n1 ≤ 2147483647)
    (hK₁ : onVecs K₁ [(List.range (n0 * n1).toNat).map x, List.replicate (n0 * (n1 - 1)).toNat 0] = .ok [(List.range (n0 * n1).toNat).map x, u₁])
    (hK₀ : onVecs K₀ [(List.range (n0 * n1).toNat).map x, List.replicate ((n0 - 1) * n1).toNat 0] = .ok [(List.range (n0 * n1).toNat).map x, u₀])
    (hu₁ : u₁.length = E₁.length) (hu₀ : u₀.length = E₀.length) (hE₁ : Refs [n0, n1] 1 ((List.range (n0 * n1).toNat).map x) E₁)
    (hE₀ : Refs [n0, n1] 0 ((List.range (n0 * n1).toNat).map x) E₀) : Test.forward2dOf n0 n1 x K₁ K₀ = .ok (decide (u₁ = E₁) && decide (u₀ = E₀)) := by
  have q : 0 ≤ n0 * n1 := mul_nonneg (by omega) (by omega)
  unfold Test.forward2dOf
  rw [imul_ok (by unfold InInt; omega), M.ok_bind, newVec_ok q, M.ok_bind, generate_eq, List.length_replicate]
  dsimp only
  rw [forward2d1_of (by omega) h1 hN hK₁ hu₁ hE₁, M.ok_bind, forward2d0_of h0 (by omega) hN hK₀ hu₀ hE₀, M.ok_bind]

/-- src/forward_stencil_iterator.t.cpp:63-100 -/
theorem C114_forward_2d [Zero T] [Sub T] [DecidableEq T] {n0 n1 : Int} {x : Nat → T} {β₁ β₀ : Backend} (hβ₁ : ValidBackend β₁) (hβ₀ : ValidBackend β₀) (h0 : 2 ≤ n0) (h1 : 2 ≤ n1)
    (hN : n0 * n1 ≤ 2147483647) : Test.forward2d n0 n1 x β₁ β₀ = .ok true := by
  have q : 0 ≤ n0 * n1 := mul_nonneg (by omega) (by omega)
  have q2 : n0 * (n1 - 1) = n0 * n1 - n0 := by ring
  have q3 : (n0 - 1) * n1 = n0 * n1 - n1 := by ring
  have q4 : n1 ≤ n0 * n1 := le_mul_of_one_le_left (by omega) (by omega)
  have q5 : n0 ≤ n0 * n1 := le_mul_of_one_le_right (by omega) (by omega)
  obtain ⟨u, r, l, e⟩ := neighbours (dims := [n0, n1]) (i := 1) (v := (List.range (n0 * n1).toNat).map x) (u := List.replicate (n0 * (n1 - 1)).toNat (0 : T)) hβ₁
    (by simp [Pos]; omega) (by simpa using hN) (by simp) (by simpa using h1) (by simp; omega) (by simp [shorten]; omega)
  obtain ⟨u', r', l', e'⟩ := neighbours (dims := [n0, n1]) (i := 0) (v := (List.range (n0 * n1).toNat).map x) (u := List.replicate ((n0 - 1) * n1).toNat (0 : T)) hβ₀
    (by simp [Pos]; omega) (by simpa using hN) (by simp) (by simpa using h0) (by simp; omega) (by simp [shorten]; omega)
  unfold Test.forward2d
  rw [forward2d_of h0 h1 hN r r' rfl rfl ⟨l, e⟩ ⟨l', e'⟩]
  simp

example : Test.forward2d 33 14 (fun k => (k : ℚ) / 7) revBackend seqBackend = .ok true := C114_forward_2d revBackend_ok seqBackend_ok (by decide) (by decide) (by decide)

/-- src/forward_stencil_iterator.t.cpp:25-31 -/
theorem C114_forward_basic [Zero T] {n : Int} (hn : 3 ≤ n) (hN : n ≤ 2147483647) : Test.forwardBasic (T := T) n = .ok true := by
  unfold Test.forwardBasic
  rw [newVec_ok (by omega), M.ok_bind]
  unfold onVecs
  rw [C98_init_partial (by simp [Pos]; omega) (by simpa using hN) (by simp) (by simp; omega) (blocks_cells (l := List.replicate n.toNat (0 : T)) rfl (by simp; omega))
    (blocks_unused (by simp)) (by simp [shorten]; omega) (by simp)]
  rfl

example : Test.forwardBasic (T := ℚ) 10 = .ok true := C114_forward_basic (by decide) (by decide)

/-- src/forward_stencil_iterator.t.cpp:33-42 -/
theorem C114_forward_basic_2d [Zero T] {n0 n1 : Int} (h0 : 2 ≤ n0) (h1 : 3 ≤ n1) (hN : n0 * n1 ≤ 2147483647) : Test.forwardBasic2d (T := T) n0 n1 = .ok true := by
  have q : 0 ≤ n0 * n1 := mul_nonneg (by omega) (by omega)
  have q2 : 2 * (n1 - 1) ≤ n0 * (n1 - 1) := mul_le_mul_of_nonneg_right h0 (by omega)
  have q3 : 1 * n1 ≤ (n0 - 1) * n1 := mul_le_mul_of_nonneg_right (by omega) (by omega)
  unfold Test.forwardBasic2d
  rw [imul_ok (by unfold InInt; omega), M.ok_bind, newVec_ok q, M.ok_bind]
  unfold onVecs
  rw [C98_init_partial (by simp [Pos]; omega) (by simpa using hN) (by simp) (by simp; omega) (blocks_cells (l := List.replicate (n0 * n1).toNat (0 : T)) rfl (by simp; omega))
    (blocks_unused (by simp)) (by simp [shorten]; omega) (by simp [shorten]; omega), M.ok_bind, M.ok_bind]
  rw [C98_init_partial (by simp [Pos]; omega) (by simpa using hN) (by simp) (by simp; omega)
    (blocks_cells (l := newBlock (blocks [List.replicate (n0 * n1).toNat (0 : T)]) 0 (List.replicate (n0 * n1).toNat (0 : T))) rfl (by rw [newBlock_length]; simp; omega))
    (blocks_unused (by simp)) (by simp [shorten]; omega) (by simp)]
  rfl

example : Test.forwardBasic2d (T := ℚ) 3 4 = .ok true := C114_forward_basic_2d (by decide) (by decide) (by decide)

theorem forward3dBlock_of [Zero T] [Sub T] [DecidableEq T] {dir : Nat} {n0 n1 n2 w0 w1 w2 : Int} {round : List T → Int → Int → Int → List T × Int → M (List T × Int)} {v u E : List T}
    {K : Mem T → M (Mem T)} (hK : onVecs K [v, List.replicate (w0 * w1 * w2).toNat 0] = .ok [v, u]) (hu : u.length = E.length) (hE : Refs [n0, n1, n2] dir v E) (hp : Pos [n0, n1, n2]) (h2 : 2 ≤ [n0, n1, n2].getD dir 0) (hw : shorten [n0, n1, n2] dir = [w0, w1, w2])
    (hle : w0 * w1 * w2 ≤ 2147483647)
    (hr : ∀ i j k (s : List T × Int) d, InBox [w0, w1, w2] [i, j, k] → diff v (rowMajor [n0, n1, n2] (bump [i, j, k] dir)) (rowMajor [n0, n1, n2] [i, j, k]) = .ok d →
      0 ≤ rowMajor [n0, n1, n2] [i, j, k] → rowMajor [n0, n1, n2] (bump [i, j, k] dir) < [n0, n1, n2].prod → round v i j k s = putNext d s) :
    Test.forward3dBlock w0 w1 w2 round v K = .ok (decide (u = E)) := by
  obtain ⟨l, e⟩ := hE
  have hs := shorten_pos hp h2
  rw [hw] at hs
  have a0 : 1 ≤ w0 := hs w0 (by simp)
  have a1 : 1 ≤ w1 := hs w1 (by simp)
  have a2 : 1 ≤ w2 := hs w2 (by simp)
  have q1 : 1 ≤ w0 * w1 := one_le_mul_of_one_le_of_one_le a0 a1
  have q2 : w0 * w1 ≤ w0 * w1 * w2 := le_mul_of_one_le_right (by omega) a2
  have q3 : w0 ≤ w0 * w1 := le_mul_of_one_le_right (by omega) a1
  have q4 : w1 ≤ w0 * w1 := le_mul_of_one_le_left (by omega) a0
  have q5 : w2 ≤ w0 * w1 * w2 := le_mul_of_one_le_left (by omega) q1
  have hwp : (shorten [n0, n1, n2] dir).prod = w0 * w1 * w2 := by rw [hw]; simp [mul_assoc]
  unfold Test.forward3dBlock
  rw [imul_ok (by unfold InInt; omega), M.ok_bind, imul_ok (by unfold InInt; omega), M.ok_bind, newVec_ok (by omega), M.ok_bind]
  rw [hwp] at l
  rw [hK, M.ok_bind, vec_zero, M.ok_bind, vec_one, M.ok_bind, newVec_ok (by omega), M.ok_bind, hu]
  obtain ⟨s, run, hs⟩ := forLt_inv (lo := 0) (hi := w0) (body := fun i => forLt 0 w1 fun j => forLt 0 w2 (round v i j)) (s := (List.replicate (E.length : Int).toNat (0 : T), 0))
    (fun i s => Upto E (i * (w1 * w2)) s) (by omega) (by omega) (by omega) (by rw [zero_mul]; exact upto_zero (by simp)) (fun i s hi hi' hI => by
      obtain ⟨s', run, hs⟩ := forLt_inv (lo := 0) (hi := w1) (body := fun j => forLt 0 w2 (round v i j)) (s := s) (fun j s => Upto E (i * (w1 * w2) + j * w2) s) (by omega) (by omega)
        (by omega) (by rw [zero_mul, add_zero]; exact hI) (fun j s hj hj' hI => by
          obtain ⟨s', run, hs⟩ := forLt_inv (lo := 0) (hi := w2) (body := round v i j) (s := s) (fun k s => Upto E (i * (w1 * w2) + j * w2 + k) s) (by omega) (by omega)
            (by omega) (by rw [add_zero]; exact hI) (fun k s hk hk' hI => by
              have hc : InBox [w0, w1, w2] [i, j, k] := ⟨⟨hi, hi'⟩, ⟨hj, hj'⟩, ⟨hk, hk'⟩, trivial⟩
              obtain ⟨⟨b0, b1, b2, b3, b4⟩, d, hd, hu⟩ := e [i, j, k] _ _ (i * (w1 * w2) + j * w2 + k) (by rw [hw]; exact hc) rfl rfl (by rw [hw]; simp [rowMajor]; ring)
              rw [hr i j k s d hc hd b0 b3, ← add_assoc]
              exact upto_put hI b4 hu)
          refine ⟨s', run, ?_⟩
          rw [add_mul, one_mul, ← add_assoc]
          exact hs)
      refine ⟨s', run, ?_⟩
      rw [add_mul, one_mul]
      exact hs)
  rw [run, M.ok_bind]
  have := upto_all hs (by rw [← mul_assoc]; omega)
  show Except.ok (decide (u = s.1)) = _
  rw [this]

theorem pos3_run {n0 n1 n2 i j k : Int} (h0 : 0 ≤ i) (h1 : 0 ≤ j) (h2 : 0 ≤ k) (hn1 : 1 ≤ n1) (hn2 : 1 ≤ n2) (hN : rowMajor [n0, n1, n2] [i, j, k] ≤ 2147483647) :
    pos3 n1 n2 i j k = .ok (rowMajor [n0, n1, n2] [i, j, k]) := by
  have e : rowMajor [n0, n1, n2] [i, j, k] = n2 * (i * n1 + j) + k := by simp [rowMajor]; ring
  rw [e] at hN ⊢
  have q0 : 0 ≤ i * n1 := mul_nonneg h0 (by omega)
  have q1 : i * n1 + j ≤ n2 * (i * n1 + j) := le_mul_of_one_le_left (by omega) hn2
  unfold pos3
  rw [imul_ok (by unfold InInt; omega), M.ok_bind, iadd_ok (by unfold InInt; omega), M.ok_bind, imul_ok (by unfold InInt; omega), M.ok_bind, iadd_ok (by unfold InInt; omega)]

theorem forward3d_of [Zero T] [Sub T] [DecidableEq T] {n0 n1 n2 : Int} {v : List T} {x : Nat → T} {u₂ u₁ u₀ E₂ E₁ E₀ : List T} {K₂ K₁ K₀ : Mem T → M (Mem T)}
    (hv : (List.range (n0 * n1 * n2).toNat).map x = v) (h0 : 2 ≤ n0) (h1 : 2 ≤ n1) (h2 : 2 ≤ n2) (hN : n0 * n1 * n2 ≤ 2147483647)
    (hK₂ : onVecs K₂ [v, List.replicate (n0 * n1 * (n2 - 1)).toNat 0] = .ok [v, u₂])
    (hK₁ : onVecs K₁ [v, List.replicate (n0 * (n1 - 1) * n2).toNat 0] = .ok [v, u₁])
    (hK₀ : onVecs K₀ [v, List.replicate ((n0 - 1) * n1 * n2).toNat 0] = .ok [v, u₀])
    (hu₂ : u₂.length = E₂.length) (hu₁ : u₁.length = E₁.length) (hu₀ : u₀.length = E₀.length) (hE₂ : Refs [n0, n1, n2] 2 v E₂) (hE₁ : Refs [n0, n1, n2] 1 v E₁)
    (hE₀ : Refs [n0, n1, n2] 0 v E₀) : Test.forward3dOf n0 n1 n2 x K₂ K₁ K₀ = .ok (decide (u₂ = E₂) && decide (u₁ = E₁) && decide (u₀ = E₀)) := by
  have P : Pos [n0, n1, n2] := pos3_ok (by omega) (by omega) (by omega)
  have hp : [n0, n1, n2].prod = n0 * n1 * n2 := by simp [mul_assoc]
  have q1 : 1 ≤ n0 * n1 := one_le_mul_of_one_le_of_one_le (by omega) (by omega)
  have q2 : n0 * n1 ≤ n0 * n1 * n2 := le_mul_of_one_le_right (by omega) (by omega)
  have q3 : n0 ≤ n0 * n1 := le_mul_of_one_le_right (by omega) (by omega)
  have q4 : n1 ≤ n0 * n1 := le_mul_of_one_le_left (by omega) (by omega)
  have q5 : n2 ≤ n0 * n1 * n2 := le_mul_of_one_le_left (by omega) q1
  have q6 : 0 ≤ n0 * n2 := mul_nonneg (by omega) (by omega)
  have q7 : 0 ≤ n1 * n2 := mul_nonneg (by omega) (by omega)
  have mono : ∀ i j k : Int, 0 ≤ i → 0 ≤ j → 0 ≤ k → rowMajor [n0, n1, n2] [i, j, k] ≤ rowMajor [n0, n1, n2] [i + 1, j, k] ∧
      rowMajor [n0, n1, n2] [i, j, k] ≤ rowMajor [n0, n1, n2] [i, j + 1, k] ∧ rowMajor [n0, n1, n2] [i, j, k] ≤ rowMajor [n0, n1, n2] [i, j, k + 1] := by
    intro i j k hi hj hk
    have a : rowMajor [n0, n1, n2] [i + 1, j, k] = rowMajor [n0, n1, n2] [i, j, k] + n1 * n2 := by simp [rowMajor]; ring
    have b : rowMajor [n0, n1, n2] [i, j + 1, k] = rowMajor [n0, n1, n2] [i, j, k] + n2 := by simp [rowMajor]; ring
    have c : rowMajor [n0, n1, n2] [i, j, k + 1] = rowMajor [n0, n1, n2] [i, j, k] + 1 := by simp [rowMajor]; ring
    omega
  unfold Test.forward3dOf
  rw [imul_ok (by unfold InInt; omega), M.ok_bind, imul_ok (by unfold InInt; omega), M.ok_bind, newVec_ok (by omega), M.ok_bind]
  dsimp only
  rw [generate_eq, List.length_replicate, hv]
  rw [isub_ok (by unfold InInt; omega), M.ok_bind]
  rw [forward3dBlock_of (w0 := n0) (w1 := n1) (w2 := n2 - 1) hK₂ hu₂ hE₂ P (by simpa using h2) rfl
    (by have : n0 * n1 * (n2 - 1) = n0 * n1 * n2 - n0 * n1 := by ring
        omega) (by
    intro i j k s d hc hd hb hb'
    obtain ⟨⟨hi, hi'⟩, ⟨hj, hj'⟩, ⟨hk, hk'⟩, -⟩ := hc
    obtain ⟨-, -, m⟩ := mono i j k hi hj hk
    have e : rowMajor [n0, n1, n2] (bump [i, j, k] 2) = rowMajor [n0, n1, n2] [i, j, k] + 1 := by simp [rowMajor, bump]; ring
    rw [hp] at hb'
    rw [e] at hd hb'
    unfold round32
    rw [pos3_run (n0 := n0) hi hj hk (by omega) (by omega) (by omega), M.ok_bind, iadd_ok (by unfold InInt; omega), M.ok_bind, M.ok_bind, hd, M.ok_bind]), M.ok_bind]
  rw [isub_ok (by unfold InInt; omega), M.ok_bind]
  rw [forward3dBlock_of (w0 := n0) (w1 := n1 - 1) (w2 := n2) hK₁ hu₁ hE₁ P (by simpa using h1) rfl
    (by have : n0 * (n1 - 1) * n2 = n0 * n1 * n2 - n0 * n2 := by ring
        omega) (by
    intro i j k s d hc hd hb hb'
    obtain ⟨⟨hi, hi'⟩, ⟨hj, hj'⟩, ⟨hk, hk'⟩, -⟩ := hc
    obtain ⟨-, m, -⟩ := mono i j k hi hj hk
    have e : rowMajor [n0, n1, n2] (bump [i, j, k] 1) = n2 * (i * n1 + j + 1) + k := by simp [rowMajor, bump]; ring
    have e' : rowMajor [n0, n1, n2] [i, j + 1, k] = n2 * (i * n1 + j + 1) + k := by simp [rowMajor]; ring
    rw [hp] at hb'
    rw [e] at hd hb'
    have c0 : 0 ≤ i * n1 := mul_nonneg hi (by omega)
    have c1 : i * n1 + j + 1 ≤ n2 * (i * n1 + j + 1) := le_mul_of_one_le_left (by omega) (by omega)
    unfold round31
    rw [imul_ok (by unfold InInt; omega), M.ok_bind, iadd_ok (by unfold InInt; omega), M.ok_bind, iadd_ok (by unfold InInt; omega), M.ok_bind,
      imul_ok (by unfold InInt; omega), M.ok_bind, iadd_ok (by unfold InInt; omega), M.ok_bind,
      pos3_run (n0 := n0) hi hj hk (by omega) (by omega) (by omega), M.ok_bind, hd, M.ok_bind]), M.ok_bind]
  rw [isub_ok (by unfold InInt; omega), M.ok_bind]
  rw [forward3dBlock_of (w0 := n0 - 1) (w1 := n1) (w2 := n2) hK₀ hu₀ hE₀ P (by simpa using h0) rfl
    (by have : (n0 - 1) * n1 * n2 = n0 * n1 * n2 - n1 * n2 := by ring
        omega) (by
    intro i j k s d hc hd hb hb'
    obtain ⟨⟨hi, hi'⟩, ⟨hj, hj'⟩, ⟨hk, hk'⟩, -⟩ := hc
    obtain ⟨m, -, -⟩ := mono i j k hi hj hk
    have e : rowMajor [n0, n1, n2] (bump [i, j, k] 0) = rowMajor [n0, n1, n2] [i + 1, j, k] := rfl
    rw [hp] at hb'
    rw [e] at hd hb'
    unfold round30
    rw [iadd_ok (by unfold InInt; omega), M.ok_bind, pos3_run (n0 := n0) (by omega) hj hk (by omega) (by omega) (by omega), M.ok_bind,
      pos3_run (n0 := n0) hi hj hk (by omega) (by omega) (by omega), M.ok_bind, hd, M.ok_bind]), M.ok_bind]

/-- src/forward_stencil_iterator.t.cpp:102-162 -/
theorem C114_forward_3d [Zero T] [Sub T] [DecidableEq T] {n0 n1 n2 : Int} {x : Nat → T} {β₂ β₁ β₀ : Backend} (hβ₂ : ValidBackend β₂) (hβ₁ : ValidBackend β₁)
    (hβ₀ : ValidBackend β₀) (h0 : 2 ≤ n0) (h1 : 2 ≤ n1) (h2 : 2 ≤ n2) (hN : n0 * n1 * n2 ≤ 2147483647) : Test.forward3d n0 n1 n2 x β₂ β₁ β₀ = .ok true := by
  have P : Pos [n0, n1, n2] := pos3_ok (by omega) (by omega) (by omega)
  have hp : [n0, n1, n2].prod = n0 * n1 * n2 := by simp [mul_assoc]
  have q1 : 0 ≤ n0 * n1 * n2 := mul_nonneg (mul_nonneg (by omega) (by omega)) (by omega)
  have q2 : 0 ≤ n0 * n1 * (n2 - 1) := mul_nonneg (mul_nonneg (by omega) (by omega)) (by omega)
  have q3 : 0 ≤ n0 * (n1 - 1) * n2 := mul_nonneg (mul_nonneg (by omega) (by omega)) (by omega)
  have q4 : 0 ≤ (n0 - 1) * n1 * n2 := mul_nonneg (mul_nonneg (by omega) (by omega)) (by omega)
  generalize hV : (List.range (n0 * n1 * n2).toNat).map x = v
  have lv : (v.length : Int) = [n0, n1, n2].prod := by rw [← hV, hp]; simp; omega
  obtain ⟨u₂, r₂, l₂, e₂⟩ := neighbours (dims := [n0, n1, n2]) (i := 2) (v := v) (u := List.replicate (n0 * n1 * (n2 - 1)).toNat (0 : T)) hβ₂ P (by rw [hp]; exact hN) (by simp)
    (by simpa using h2) lv (by simp [shorten, ← mul_assoc]; omega)
  obtain ⟨u₁, r₁, l₁, e₁⟩ := neighbours (dims := [n0, n1, n2]) (i := 1) (v := v) (u := List.replicate (n0 * (n1 - 1) * n2).toNat (0 : T)) hβ₁ P (by rw [hp]; exact hN) (by simp)
    (by simpa using h1) lv (by simp [shorten, ← mul_assoc]; omega)
  obtain ⟨u₀, r₀, l₀, e₀⟩ := neighbours (dims := [n0, n1, n2]) (i := 0) (v := v) (u := List.replicate ((n0 - 1) * n1 * n2).toNat (0 : T)) hβ₀ P (by rw [hp]; exact hN) (by simp)
    (by simpa using h0) lv (by simp [shorten, ← mul_assoc]; omega)
  unfold Test.forward3d
  rw [forward3d_of hV h0 h1 h2 hN r₂ r₁ r₀ rfl rfl rfl ⟨l₂, e₂⟩ ⟨l₁, e₁⟩ ⟨l₀, e₀⟩]
  simp

example : Test.forward3d 10 12 15 (fun k => (k : ℚ) / 7) revBackend seqBackend revBackend = .ok true :=
  C114_forward_3d revBackend_ok seqBackend_ok revBackend_ok (by decide) (by decide) (by decide) (by decide)

end Verif
