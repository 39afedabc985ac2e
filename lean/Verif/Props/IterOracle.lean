import Verif.Props.SubDriver

/-
C123 and C124: what a passing test of the transpose and submatrix iterators means.  The function under test is arbitrary here.
-/

namespace Verif

open Spec Test

variable {T : Type}

/-- src/transpose_iterator.t.cpp:26-47: the test passes exactly if each of the three calls leaves the transposed values -/
theorem C123_transpose_2d [Field T] [DecidableEq T] {K₁ K₂ K₃ : Mem T → M (Mem T)} {u₁ u₂ u₂' w : List T} (r₁ : onVecs K₁ [[1, 2, 3, 4, 5, 6], List.replicate 6 0] = .ok [[1, 2, 3, 4, 5, 6], u₁])
    (r₂ : onVecs K₂ [[1, 2, 3, 4, 5, 6], u₁] = .ok [[1, 2, 3, 4, 5, 6], u₂]) (r₃ : onVecs K₃ [u₂, List.replicate u₂.length 0] = .ok [u₂', w]) :
    ∃ b, Test.transpose2dOf K₁ K₂ K₃ = .ok b ∧ (b = true ↔ u₁ = [1, 2, 3, 4, 5, 6] ∧ u₂ = [1, 4, 2, 5, 3, 6] ∧ w = [1, 2, 3, 4, 5, 6]) := by
  unfold Test.transpose2dOf
  dsimp only
  rw [newVec_ok (by omega), M.ok_bind]
  rw [show List.replicate (([1, 2, 3, 4, 5, 6] : List T).length : Int).toNat (0 : T) = List.replicate 6 0 from rfl, r₁, M.ok_bind, vec_zero, M.ok_bind, vec_one, M.ok_bind, r₂, M.ok_bind,
    vec_zero, M.ok_bind, vec_one, M.ok_bind, newVec_ok (by omega), M.ok_bind, Int.toNat_natCast, r₃, M.ok_bind, vec_one, M.ok_bind]
  exact ⟨_, rfl, by simp [and_assoc]⟩

/-- src/transpose_iterator.t.cpp:49-70: the test passes exactly if the first call copies and the third call undoes the second.  Full statement: it passes only if the second call leaves the transposed
values; that is false, see below -/
theorem C123_transpose_3d_partial [Zero T] [DecidableEq T] {n0 n1 n2 : Int} {x : Nat → T} {K₁ K₂ K₃ : Mem T → M (Mem T)} {v u₁ u₂ u₂' w : List T} (hn0 : 1 ≤ n0) (hn1 : 1 ≤ n1) (hn2 : 1 ≤ n2)
    (hN : n0 * n1 * n2 ≤ 2147483647) (hv : v = (List.range (n0 * n1 * n2).toNat).map x) (r₁ : onVecs K₁ [v, List.replicate v.length 0] = .ok [v, u₁])
    (r₂ : onVecs K₂ [v, u₁] = .ok [v, u₂]) (r₃ : onVecs K₃ [u₂, List.replicate u₂.length 0] = .ok [u₂', w]) :
    ∃ b, Test.transpose3dOf n0 n1 n2 x K₁ K₂ K₃ = .ok b ∧ (b = true ↔ u₁ = v ∧ w = v) := by
  have q1 : 1 ≤ n0 * n1 := one_le_mul_of_one_le_of_one_le hn0 hn1
  have q3 : n0 * n1 ≤ n0 * n1 * n2 := le_mul_of_one_le_right (by omega) hn2
  unfold Test.transpose3dOf
  rw [imul_ok (by unfold InInt; omega), M.ok_bind, imul_ok (by unfold InInt; omega), M.ok_bind, newVec_ok (by omega), M.ok_bind]
  dsimp only
  rw [newVec_ok (by omega), M.ok_bind, generate_eq, List.length_replicate, ← hv, Int.toNat_natCast, show (n0 * n1 * n2).toNat = v.length by rw [hv]; simp, r₁, M.ok_bind,
    vec_zero, M.ok_bind, vec_one, M.ok_bind, r₂, M.ok_bind, vec_zero, M.ok_bind, vec_one, M.ok_bind, newVec_ok (by omega), M.ok_bind, Int.toNat_natCast, r₃, M.ok_bind, vec_one, M.ok_bind]
  exact ⟨_, rfl, by simp⟩

/-- a function that pays no heed to the permutation and copies -/
def copyOnly (m : Mem T) : M (Mem T) := .ok { m with val := fun p => if p.blk = 1 then m.val ⟨0, p.off⟩ else m.val p }

theorem copyOnly_run {v u : List T} (h : u.length = v.length) : onVecs copyOnly [v, u] = .ok [v, v] := by
  have b0 : ∀ q : Nat, (blocks [v, u]).val ⟨0, (q : Int)⟩ = v[q]? := fun q => by rw [blocks_val (l := v) rfl]
  obtain ⟨r, l, e⟩ := onVecs_out (c := copyOnly) (v := v) (u := u) rfl (fun k => rfl) (fun q hq => ⟨v[q]'(by omega), by
    show (blocks [v, u]).val ⟨0, (q : Int)⟩ = _
    rw [b0, List.getElem?_eq_getElem]⟩)
  rw [r]
  refine congrArg (fun z => Except.ok [v, z]) (List.ext_getElem? fun q => ?_)
  by_cases hq : q < u.length
  · rw [e q hq]
    exact b0 q
  · rw [List.getElem?_eq_none (by omega), List.getElem?_eq_none (by omega)]

/-- the 3D test passes with a function that copies whatever the permutation is; the values it leaves are not the transposed ones -/
theorem C123_unnoticed_3d [Zero T] [DecidableEq T] {n0 n1 n2 : Int} {x : Nat → T} (hn0 : 1 ≤ n0) (hn1 : 1 ≤ n1) (hn2 : 2 ≤ n2) (hN : n0 * n1 * n2 ≤ 2147483647) (hx : x 1 ≠ x (n0 * n1).toNat) :
    Test.transpose3dOf n0 n1 n2 x copyOnly copyOnly copyOnly = .ok true ∧ ∃ v u : List T, v = (List.range (n0 * n1 * n2).toNat).map x ∧
      onVecs copyOnly [v, List.replicate v.length 0] = .ok [v, u] ∧ InBox [n0, n1, n2] [0, 0, 1] ∧
      u[(rowMajor [n2, n0, n1] [1, 0, 0]).toNat]? ≠ v[(rowMajor [n0, n1, n2] [0, 0, 1]).toNat]? := by
  have q1 : 1 ≤ n0 * n1 := one_le_mul_of_one_le_of_one_le hn0 hn1
  have q2 : n0 * n1 * 2 ≤ n0 * n1 * n2 := mul_le_mul_of_nonneg_left hn2 (by omega)
  refine ⟨?_, _, _, rfl, copyOnly_run (by simp), ⟨⟨by omega, by omega⟩, ⟨by omega, by omega⟩, ⟨by omega, by omega⟩, trivial⟩, ?_⟩
  · obtain ⟨b, h1, h2⟩ := C123_transpose_3d_partial (x := x) hn0 hn1 (by omega) hN rfl (copyOnly_run (by simp)) (copyOnly_run rfl) (copyOnly_run (by simp))
    rw [h1, h2.2 ⟨rfl, rfl⟩]
  · have e1 : rowMajor [n2, n0, n1] [1, 0, 0] = n0 * n1 := by simp [rowMajor]
    have e2 : rowMajor [n0, n1, n2] [0, 0, 1] = 1 := by simp [rowMajor]
    rw [e1, e2, List.getElem?_map, List.getElem?_map, List.getElem?_range (by omega), List.getElem?_range (by simp; omega)]
    simpa using hx.symm

example : Test.transpose3dOf 3 8 4 (fun k => (k : ℚ) / 7) copyOnly copyOnly copyOnly = .ok true := (C123_unnoticed_3d (by decide) (by decide) (by decide) (by decide) (by rw [show ((3 : Int) * 8).toNat = 24 from rfl]; norm_num)).1

/-- the 2D test does notice it -/
example : ∃ b, Test.transpose2dOf (T := ℚ) copyOnly copyOnly copyOnly = .ok b ∧ b = false := by
  obtain ⟨b, h1, h2⟩ := C123_transpose_2d (T := ℚ) (copyOnly_run (by simp)) (copyOnly_run rfl) (copyOnly_run (by simp))
  exact ⟨b, h1, Bool.eq_false_iff.2 fun hb => by simpa using (h2.1 hb).2.1⟩

/-- `a` at position `q` of the first vector -/
def put (m : Mem T) (q : Int) (a : T) : Mem T := { m with val := fun p => if p = ⟨0, q⟩ then some a else m.val p }

/-- `c`, and one more element overwritten -/
def spoil (c : Mem T → M (Mem T)) (q : Nat) (a : T) (m : Mem T) : M (Mem T) := do
  let m ← c m
  .ok (put m q a)

theorem spoil_run {c : Mem T → M (Mem T)} {v w : List T} {q : Nat} {a : T} (h : onVecs c [v] = .ok [w]) : onVecs (spoil c q a) [v] = .ok [w.set q a] := by
  unfold onVecs at h ⊢
  unfold spoil
  cases hc : c (blocks [v]) with
  | error e => rw [hc] at h; cases h
  | ok m =>
    rw [hc, M.ok_bind] at h
    injection h with h
    simp only [List.mapIdx_cons, List.mapIdx_nil] at h
    injection h with h _
    rw [M.ok_bind, M.ok_bind]
    simp only [List.mapIdx_cons, List.mapIdx_nil]
    refine congrArg (fun z => Except.ok [z]) ?_
    rw [← h]
    refine List.ext_getElem? fun k => ?_
    unfold newBlock put
    rw [List.getElem?_set]
    by_cases e : q = k
    · subst e
      by_cases hq : q < v.length <;> simp [hq]
    · have e' : ¬k = q := fun h => e h.symm
      simp [e, e']

theorem holds_val [IntCast T] [DecidableEq T] {w : List T} {p z : Int} (h0 : 0 ≤ p) (h : p < w.length) : ∃ b, holds w p z = .ok b ∧ (b = true ↔ w[p.toNat]? = some (z : T)) := by
  have hp : p.toNat < w.length := by omega
  unfold holds
  rw [vget_ok h0 (List.getElem?_eq_getElem hp), M.ok_bind]
  exact ⟨_, rfl, by simp [List.getElem?_eq_getElem hp]⟩

/-- src/submatrix_iterator.t.cpp:21-39: the test passes exactly if five elements are right.  Full statement: it passes only if no other element is changed; that is false, see below -/
theorem C124_basic_partial [Field T] [DecidableEq T] {s0 s1 l0 l1 u0 u1 : Int} {K : Mem T → M (Mem T)} {w : List T} (hl0 : 0 ≤ l0) (h0 : l0 + 1 ≤ u0) (hu0 : u0 < s0) (hl1 : 0 ≤ l1)
    (h1 : l1 + 2 ≤ u1) (hu1 : u1 < s1) (hN : s0 * s1 ≤ 2147483647) (run : onVecs K [List.replicate (s0 * s1).toNat 1] = .ok [w]) (hw : (w.length : Int) = s0 * s1) :
    ∃ b, Test.subBasicOf s0 s1 l0 l1 u0 u1 K = .ok b ∧ (b = true ↔ w[(l0 * s1 + l1).toNat]? = some (-1) ∧ w[(l0 * s1 + (l1 + 1)).toNat]? = some (-2) ∧ w[(l0 * s1 + u1).toNat]? = some (-3) ∧
      w[((l0 + 1) * s1 + l1).toNat]? = some (-4) ∧ w[(u0 * s1 + u1).toNat]? = some (-5)) := by
  have q : 0 ≤ s0 * s1 := mul_nonneg (by omega) (by omega)
  have el : ∀ a b z, l0 ≤ a → a ≤ u0 → l1 ≤ b → b ≤ u1 → pos2 s1 a b = .ok (a * s1 + b) ∧ (0 ≤ a * s1 + b ∧ a * s1 + b < s0 * s1) ∧
      ∃ c, holds w (a * s1 + b) z = .ok c ∧ (c = true ↔ w[(a * s1 + b).toNat]? = some ((z : Int) : T)) := by
    intro a b z ha ha' hb hb'
    obtain ⟨run, k0, k1, k2⟩ := pos2_run (s0 := s0) (s1 := s1) (a := a) (b := b) (by omega) (by omega) (by omega) (by omega) hN
    exact ⟨run, ⟨k0, k1⟩, holds_val k0 (by omega)⟩
  obtain ⟨a1, b1, v1, c1, d1⟩ := el l0 l1 (-1) (by omega) (by omega) (by omega) (by omega)
  obtain ⟨a2, b2, v2, c2, d2⟩ := el l0 (l1 + 1) (-2) (by omega) (by omega) (by omega) (by omega)
  obtain ⟨a3, b3, v3, c3, d3⟩ := el l0 u1 (-3) (by omega) (by omega) (by omega) (by omega)
  obtain ⟨a4, b4, v4, c4, d4⟩ := el (l0 + 1) l1 (-4) (by omega) (by omega) (by omega) (by omega)
  obtain ⟨a5, b5, v5, c5, d5⟩ := el u0 u1 (-5) (by omega) (by omega) (by omega) (by omega)
  unfold Test.subBasicOf
  rw [imul_ok (by unfold InInt; omega), M.ok_bind, newVec_ok q, M.ok_bind, run, M.ok_bind, vec_only, M.ok_bind]
  rw [a1, M.ok_bind, c1, M.ok_bind, iadd_ok (by unfold InInt; omega), M.ok_bind, add_assoc, c2, M.ok_bind, a3, M.ok_bind, c3, M.ok_bind,
    iadd_ok (by unfold InInt; have : s0 ≤ s0 * s1 := le_mul_of_one_le_right (by omega) (by omega); omega), M.ok_bind, a4, M.ok_bind, c4, M.ok_bind, a5, M.ok_bind, c5, M.ok_bind]
  refine ⟨_, rfl, ?_⟩
  simp only [Int.cast_neg, Int.cast_one, Int.cast_ofNat] at d1 d2 d3 d4 d5
  simp only [Bool.and_eq_true, d1, d2, d3, d4, d5, decide_eq_true_eq, List.length_replicate, Int.toNat_of_nonneg q, true_and, and_assoc]

/-- any other element may be overwritten: the test does not notice -/
theorem C124_unnoticed_basic [Field T] [DecidableEq T] {s0 s1 l0 l1 u0 u1 : Int} {q : Nat} {z : T} (hl0 : 0 ≤ l0) (h0 : l0 + 1 ≤ u0) (hu0 : u0 < s0) (hl1 : 0 ≤ l1) (h1 : l1 + 2 ≤ u1) (hu1 : u1 < s1)
    (hN : s0 * s1 ≤ 2147483647) (hq : (q : Int) < s0 * s1)
    (h : (q : Int) ≠ l0 * s1 + l1 ∧ (q : Int) ≠ l0 * s1 + (l1 + 1) ∧ (q : Int) ≠ l0 * s1 + u1 ∧ (q : Int) ≠ (l0 + 1) * s1 + l1 ∧ (q : Int) ≠ u0 * s1 + u1) :
    Test.subBasicOf s0 s1 l0 l1 u0 u1 (spoil (Cuda.subInit [s0, s1] [l0, l1] [u0, u1] (at_ 0) 1) q z) = .ok true ∧
      ∃ w, onVecs (spoil (Cuda.subInit [s0, s1] [l0, l1] [u0, u1] (at_ 0) 1) q z) [List.replicate (s0 * s1).toNat 1] = .ok [w] ∧ w[q]? = some z := by
  have qn : 0 ≤ s0 * s1 := mul_nonneg (by omega) (by omega)
  obtain ⟨w, r, l, e⟩ := inited (v := List.replicate (s0 * s1).toNat (1 : T)) (box2 hl0 (by omega) hu0 hl1 (by omega) hu1 hN) (Or.inl rfl) (by simp; omega) (by simp; omega)
  have lw : (w.length : Int) = s0 * s1 := by rw [l]; simp; omega
  have p := C115_basic (T := T) hl0 h0 hu0 hl1 h1 hu1 hN
  obtain ⟨b, g1, g2⟩ := C124_basic_partial hl0 h0 hu0 hl1 h1 hu1 hN r lw
  unfold Test.subBasic at p
  rw [g1] at p
  injection p with p
  obtain ⟨e1, e2, e3, e4, e5⟩ := g2.1 p
  obtain ⟨b', g1', g2'⟩ := C124_basic_partial hl0 h0 hu0 hl1 h1 hu1 hN (spoil_run (q := q) (a := z) r) (by simpa using lw)
  have nn : 0 ≤ l0 * s1 := mul_nonneg hl0 (by omega)
  have nn' : 0 ≤ (l0 + 1) * s1 := mul_nonneg (by omega) (by omega)
  have nn'' : 0 ≤ u0 * s1 := mul_nonneg (by omega) (by omega)
  obtain ⟨m1, m2, m3, m4, m5⟩ := h
  refine ⟨?_, _, spoil_run r, ?_⟩
  · rw [g1', g2'.2]
    rw [List.getElem?_set_ne (by omega), List.getElem?_set_ne (by omega), List.getElem?_set_ne (by omega), List.getElem?_set_ne (by omega), List.getElem?_set_ne (by omega)]
    exact ⟨e1, e2, e3, e4, e5⟩
  · rw [List.getElem?_set_self (by omega)]

/-- the first element, which lies outside the submatrix, overwritten -/
example : Test.subBasicOf 7 8 1 2 4 6 (spoil (Cuda.subInit [7, 8] [1, 2] [4, 6] (at_ 0) 1) 0 (5 : ℚ)) = .ok true :=
  (C124_unnoticed_basic (by decide) (by decide) (by decide) (by decide) (by decide) (by decide) (by decide) (by decide) (by decide)).1

/-- src/submatrix_iterator.t.cpp:41-67: the test passes exactly if seven elements are right.  Full statement: it passes only if no other element is changed; that is false, see below -/
theorem C124_3d_partial [Field T] [DecidableEq T] {s0 s1 s2 l0 l1 l2 u0 u1 u2 : Int} {K : Mem T → M (Mem T)} {w : List T} (hl0 : 0 ≤ l0) (h0 : l0 + 1 ≤ u0) (hu0 : u0 < s0) (hl1 : 0 ≤ l1)
    (h1 : l1 + 1 ≤ u1) (hu1 : u1 < s1) (hl2 : 0 ≤ l2) (h2 : l2 + 2 ≤ u2) (hu2 : u2 < s2) (hN : s0 * s1 * s2 ≤ 2147483647) (run : onVecs K [List.replicate (s0 * s1 * s2).toNat 1] = .ok [w])
    (hw : (w.length : Int) = s0 * s1 * s2) :
    ∃ b, Test.sub3dOf s0 s1 s2 l0 l1 l2 u0 u1 u2 K = .ok b ∧ (b = true ↔ w[(rowMajor [s0, s1, s2] [l0, l1, l2]).toNat]? = some (-1) ∧
      w[(rowMajor [s0, s1, s2] [l0, l1, l2 + 1]).toNat]? = some (-2) ∧ w[(rowMajor [s0, s1, s2] [l0, l1, u2]).toNat]? = some (-3) ∧
      w[(rowMajor [s0, s1, s2] [l0, l1 + 1, l2]).toNat]? = some (-4) ∧ w[(rowMajor [s0, s1, s2] [u0, u1, u2]).toNat]? = some (-5) ∧
      w[(rowMajor [s0, s1, s2] [l0, u1, u2]).toNat]? = some (-6) ∧ w[(rowMajor [s0, s1, s2] [l0 + 1, l1, l2]).toNat]? = some (-7)) := by
  have q1 : 1 ≤ s0 * s1 := one_le_mul_of_one_le_of_one_le (by omega) (by omega)
  have q2 : s0 * s1 ≤ s0 * s1 * s2 := le_mul_of_one_le_right (by omega) (by omega)
  have q3 : s2 ≤ s0 * s1 * s2 := le_mul_of_one_le_left (by omega) q1
  have q4 : s0 ≤ s0 * s1 := le_mul_of_one_le_right (by omega) (by omega)
  have q5 : s1 ≤ s0 * s1 := le_mul_of_one_le_left (by omega) (by omega)
  have el : ∀ a b c z, l0 ≤ a → a ≤ u0 → l1 ≤ b → b ≤ u1 → l2 ≤ c → c ≤ u2 → at3 s1 s2 a b c = .ok (rowMajor [s0, s1, s2] [a, b, c]) ∧
      ∃ d, holds w (rowMajor [s0, s1, s2] [a, b, c]) z = .ok d ∧ (d = true ↔ w[(rowMajor [s0, s1, s2] [a, b, c]).toNat]? = some ((z : Int) : T)) := by
    intro a b c z ha ha' hb hb' hc hc'
    obtain ⟨run, k0, k1⟩ := at3_run (s0 := s0) (s1 := s1) (s2 := s2) (a := a) (b := b) (c := c) (by omega) (by omega) (by omega) (by omega) (by omega) (by omega) hN
    exact ⟨run, holds_val k0 (by omega)⟩
  obtain ⟨a1, v1, c1, d1⟩ := el l0 l1 l2 (-1) (by omega) (by omega) (by omega) (by omega) (by omega) (by omega)
  obtain ⟨a2, v2, c2, d2⟩ := el l0 l1 (l2 + 1) (-2) (by omega) (by omega) (by omega) (by omega) (by omega) (by omega)
  obtain ⟨a3, v3, c3, d3⟩ := el l0 l1 u2 (-3) (by omega) (by omega) (by omega) (by omega) (by omega) (by omega)
  obtain ⟨a4, v4, c4, d4⟩ := el l0 (l1 + 1) l2 (-4) (by omega) (by omega) (by omega) (by omega) (by omega) (by omega)
  obtain ⟨a5, v5, c5, d5⟩ := el u0 u1 u2 (-5) (by omega) (by omega) (by omega) (by omega) (by omega) (by omega)
  obtain ⟨a6, v6, c6, d6⟩ := el l0 u1 u2 (-6) (by omega) (by omega) (by omega) (by omega) (by omega) (by omega)
  obtain ⟨a7, v7, c7, d7⟩ := el (l0 + 1) l1 l2 (-7) (by omega) (by omega) (by omega) (by omega) (by omega) (by omega)
  unfold Test.sub3dOf
  rw [imul_ok (by unfold InInt; omega), M.ok_bind, imul_ok (by unfold InInt; omega), M.ok_bind, newVec_ok (by omega), M.ok_bind, run, M.ok_bind, vec_only, M.ok_bind]
  rw [a1, M.ok_bind, c1, M.ok_bind, iadd_ok (by unfold InInt; omega), M.ok_bind, a2, M.ok_bind, c2, M.ok_bind, a3, M.ok_bind, c3, M.ok_bind, iadd_ok (by unfold InInt; omega), M.ok_bind,
    a4, M.ok_bind, c4, M.ok_bind, a5, M.ok_bind, c5, M.ok_bind, a6, M.ok_bind, c6, M.ok_bind, iadd_ok (by unfold InInt; omega), M.ok_bind, a7, M.ok_bind, c7, M.ok_bind]
  refine ⟨_, rfl, ?_⟩
  simp only [Int.cast_neg, Int.cast_one, Int.cast_ofNat] at d1 d2 d3 d4 d5 d6 d7
  simp only [Bool.and_eq_true, d1, d2, d3, d4, d5, d6, d7, decide_eq_true_eq, List.length_replicate, Int.toNat_of_nonneg (show 0 ≤ s0 * s1 * s2 by omega), true_and, and_assoc]

/-- any other element may be overwritten: the test does not notice -/
theorem C124_unnoticed_3d [Field T] [DecidableEq T] {s0 s1 s2 l0 l1 l2 u0 u1 u2 : Int} {q : Nat} {z : T} (hl0 : 0 ≤ l0) (h0 : l0 + 1 ≤ u0) (hu0 : u0 < s0) (hl1 : 0 ≤ l1) (h1 : l1 + 1 ≤ u1)
    (hu1 : u1 < s1) (hl2 : 0 ≤ l2) (h2 : l2 + 2 ≤ u2) (hu2 : u2 < s2) (hN : s0 * s1 * s2 ≤ 2147483647) (hq : (q : Int) < s0 * s1 * s2)
    (h : ∀ x ∈ [[l0, l1, l2], [l0, l1, l2 + 1], [l0, l1, u2], [l0, l1 + 1, l2], [u0, u1, u2], [l0, u1, u2], [l0 + 1, l1, l2]], (q : Int) ≠ rowMajor [s0, s1, s2] x) :
    Test.sub3dOf s0 s1 s2 l0 l1 l2 u0 u1 u2 (spoil (Cuda.subInit [s0, s1, s2] [l0, l1, l2] [u0, u1, u2] (at_ 0) 1) q z) = .ok true ∧
      ∃ w, onVecs (spoil (Cuda.subInit [s0, s1, s2] [l0, l1, l2] [u0, u1, u2] (at_ 0) 1) q z) [List.replicate (s0 * s1 * s2).toNat 1] = .ok [w] ∧ w[q]? = some z := by
  have q1 : 1 ≤ s0 * s1 := one_le_mul_of_one_le_of_one_le (by omega) (by omega)
  have q2 : s0 * s1 ≤ s0 * s1 * s2 := le_mul_of_one_le_right (by omega) (by omega)
  have hp : [s0, s1, s2].prod = s0 * s1 * s2 := by simp [mul_assoc]
  obtain ⟨w, r, l, e⟩ := inited (v := List.replicate (s0 * s1 * s2).toNat (1 : T)) (box3 hl0 (by omega) hu0 hl1 (by omega) hu1 hl2 (by omega) hu2 hN) (Or.inr rfl) (by simp; omega)
    (by rw [hp]; simp; omega)
  have lw : (w.length : Int) = s0 * s1 * s2 := by rw [l]; simp; omega
  have p := C115_3d (T := T) hl0 h0 hu0 hl1 h1 hu1 hl2 h2 hu2 hN
  obtain ⟨b, g1, g2⟩ := C124_3d_partial hl0 h0 hu0 hl1 h1 hu1 hl2 h2 hu2 hN r lw
  unfold Test.sub3d at p
  rw [g1] at p
  injection p with p
  obtain ⟨e1, e2, e3, e4, e5, e6, e7⟩ := g2.1 p
  obtain ⟨b', g1', g2'⟩ := C124_3d_partial hl0 h0 hu0 hl1 h1 hu1 hl2 h2 hu2 hN (spoil_run (q := q) (a := z) r) (by simpa using lw)
  have keep : ∀ a b c, (l0 ≤ a ∧ a ≤ u0) → (l1 ≤ b ∧ b ≤ u1) → (l2 ≤ c ∧ c ≤ u2) → (q : Int) ≠ rowMajor [s0, s1, s2] [a, b, c] →
      (w.set q z)[(rowMajor [s0, s1, s2] [a, b, c]).toNat]? = w[(rowMajor [s0, s1, s2] [a, b, c]).toNat]? := fun a b c ha hb hc hne => by
    have := rowMajor_nonneg (n := [s0, s1, s2]) (c := [a, b, c]) ⟨⟨by omega, by omega⟩, ⟨by omega, by omega⟩, ⟨by omega, by omega⟩, trivial⟩
    exact List.getElem?_set_ne (by omega)
  simp only [List.forall_mem_cons, List.not_mem_nil, false_imp_iff, implies_true, and_true] at h
  obtain ⟨m1, m2, m3, m4, m5, m6, m7⟩ := h
  refine ⟨?_, _, spoil_run r, ?_⟩
  · rw [g1', g2'.2]
    exact ⟨(keep _ _ _ (by omega) (by omega) (by omega) m1).trans e1, (keep _ _ _ (by omega) (by omega) (by omega) m2).trans e2, (keep _ _ _ (by omega) (by omega) (by omega) m3).trans e3,
      (keep _ _ _ (by omega) (by omega) (by omega) m4).trans e4, (keep _ _ _ (by omega) (by omega) (by omega) m5).trans e5, (keep _ _ _ (by omega) (by omega) (by omega) m6).trans e6,
      (keep _ _ _ (by omega) (by omega) (by omega) m7).trans e7⟩
  · rw [List.getElem?_set_self (by omega)]

example : Test.sub3dOf 7 8 9 1 2 3 4 6 5 (spoil (Cuda.subInit [7, 8, 9] [1, 2, 3] [4, 6, 5] (at_ 0) 1) 0 (5 : ℚ)) = .ok true :=
  (C124_unnoticed_3d (by decide) (by decide) (by decide) (by decide) (by decide) (by decide) (by decide) (by decide) (by decide) (by decide) (by decide) (by decide)).1

/-- src/submatrix_iterator.t.cpp:69-90: the test passes exactly if the numbers 0, -1, ... stand in the submatrix and nothing else is changed -/
theorem C124_tabulate_2d [Field T] [DecidableEq T] {K : Mem T → M (Mem T)} {w : List T} (run : onVecs K [List.replicate 20 1] = .ok [w]) :
    ∃ b, Test.tabulate2dOf K = .ok b ∧ (b = true ↔ w = [1, 1, 1, 1, 1, 1, 1, 1, 1, 0, -1, 1, 1, -2, -3, 1, 1, -4, -5, 1]) := by
  unfold Test.tabulate2dOf
  rw [newVec_ok (by decide), M.ok_bind, show List.replicate (20 : Int).toNat (1 : T) = List.replicate 20 1 from rfl, run, M.ok_bind, vec_only, M.ok_bind]
  exact ⟨_, rfl, by simp⟩

/-- the function that writes nothing: the test fails -/
example : ∃ b, Test.tabulate2dOf (T := ℚ) .ok = .ok b ∧ b = false := by
  have r := (onVecs_one (T := ℚ) (c := .ok) (v := List.replicate 20 1) rfl fun q hq => ⟨1, by rw [blocks_val (l := List.replicate 20 1) rfl, List.getElem?_replicate, if_pos (by rwa [List.length_replicate] at hq)]⟩)
  obtain ⟨b, h1, h2⟩ := C124_tabulate_2d r.1
  refine ⟨b, h1, Bool.eq_false_iff.2 fun hb => ?_⟩
  have e := congrArg (·[9]?) (h2.1 hb)
  have e' := r.2.2 9 (by simp)
  rw [blocks_val (l := List.replicate 20 1) rfl] at e'
  simp at e e'
  rw [e'] at e
  norm_num at e

/-- src/submatrix_iterator.t.cpp:92-119: the test passes exactly if the numbers 0, -1, ... stand in the submatrix in the order of the three loops and nothing else is changed -/
theorem C124_tabulate_3d [Field T] [DecidableEq T] {s0 s1 s2 l0 l1 l2 u0 u1 u2 : Int} {K : Mem T → M (Mem T)} {w : List T} (hl0 : 0 ≤ l0) (h0 : l0 ≤ u0) (hu0 : u0 < s0) (hl1 : 0 ≤ l1)
    (h1 : l1 ≤ u1) (hu1 : u1 < s1) (hl2 : 0 ≤ l2) (h2 : l2 ≤ u2) (hu2 : u2 < s2) (hN : s0 * s1 * s2 ≤ 2147483647) (run : onVecs K [List.replicate (s0 * s1 * s2).toNat 2] = .ok [w])
    (hw : (w.length : Int) = s0 * s1 * s2) :
    ∃ b, Test.tabulate3dOf s0 s1 s2 l0 l1 l2 u0 u1 u2 K = .ok b ∧ (b = true ↔ ∀ i j k, InBox [s0, s1, s2] [i, j, k] → w[(rowMajor [s0, s1, s2] [i, j, k]).toNat]? =
      some (if (l0 ≤ i ∧ i ≤ u0) ∧ (l1 ≤ j ∧ j ≤ u1) ∧ l2 ≤ k ∧ k ≤ u2 then -((((i - l0) * ((u1 - l1 + 1) * (u2 - l2 + 1)) + ((j - l1) * (u2 - l2 + 1) + (k - l2)) : Int)) : T) else 2)) := by
  have p := C115_tabulate_3d (T := T) seqBackend_ok hl0 h0 hu0 hl1 h1 hu1 hl2 h2 hu2 hN
  obtain ⟨w', r', l', g, o⟩ := tabulated (v := List.replicate (s0 * s1 * s2).toNat (2 : T)) seqBackend_ok (box3 hl0 h0 hu0 hl1 h1 hu1 hl2 h2 hu2 hN) (by
    rw [show [s0, s1, s2].prod = s0 * s1 * s2 by simp [mul_assoc]]
    have : 0 ≤ s0 * s1 * s2 := mul_nonneg (mul_nonneg (by omega) (by omega)) (by omega)
    simp; omega)
  have q1 : 1 ≤ s0 * s1 := one_le_mul_of_one_le_of_one_le (by omega) (by omega)
  have q2 : s0 * s1 ≤ s0 * s1 * s2 := le_mul_of_one_le_right (by omega) (by omega)
  have hp : [s0, s1, s2].prod = s0 * s1 * s2 := by simp [mul_assoc]
  have hP : Pos [s0, s1, s2] := by simp [Pos]; omega
  have lw' : (w'.length : Int) = s0 * s1 * s2 := by rw [l']; simp; omega
  have el : ∀ i j k, InBox [s0, s1, s2] [i, j, k] → w'[(rowMajor [s0, s1, s2] [i, j, k]).toNat]? =
      some (if (l0 ≤ i ∧ i ≤ u0) ∧ (l1 ≤ j ∧ j ≤ u1) ∧ l2 ≤ k ∧ k ≤ u2 then -((((i - l0) * ((u1 - l1 + 1) * (u2 - l2 + 1)) + ((j - l1) * (u2 - l2 + 1) + (k - l2)) : Int)) : T) else 2) := by
    intro a b c hx
    have g' := g [a, b, c] hx
    have o' := o [a, b, c] hx
    rw [show [s0, s1, s2].length = 3 from rfl, between3] at g' o'
    by_cases h : (l0 ≤ a ∧ a ≤ u0) ∧ (l1 ≤ b ∧ b ≤ u1) ∧ l2 ≤ c ∧ c ≤ u2
    · rw [g' h, if_pos h]
      simp [rowMajor]
    · have k1 := rowMajor_lt hx
      have k0 := rowMajor_nonneg hx
      rw [hp] at k1
      rw [o' h, if_neg h, List.getElem?_replicate, if_pos (by omega)]
  have same : w = w' ↔ ∀ i j k, InBox [s0, s1, s2] [i, j, k] → w[(rowMajor [s0, s1, s2] [i, j, k]).toNat]? =
      some (if (l0 ≤ i ∧ i ≤ u0) ∧ (l1 ≤ j ∧ j ≤ u1) ∧ l2 ≤ k ∧ k ≤ u2 then -((((i - l0) * ((u1 - l1 + 1) * (u2 - l2 + 1)) + ((j - l1) * (u2 - l2 + 1) + (k - l2)) : Int)) : T) else 2) := by
    constructor
    · rintro rfl
      exact el
    · intro h
      refine ext_box hP (by rw [hp]; exact hw) (by rw [hp]; exact lw') fun x hx => ?_
      match x, hx with
      | [a, b, c], hx => rw [h a b c hx, el a b c hx]
  rw [← same]
  unfold Test.tabulate3d at p
  unfold Test.tabulate3dOf at p ⊢
  rw [imul_ok (by unfold InInt; omega), M.ok_bind, imul_ok (by unfold InInt; omega), M.ok_bind, newVec_ok (by omega), M.ok_bind] at p ⊢
  rw [r', M.ok_bind, vec_only, M.ok_bind, lw', newVec_ok (by omega), M.ok_bind] at p
  rw [run, M.ok_bind, vec_only, M.ok_bind, hw, newVec_ok (by omega), M.ok_bind]
  cases hf : forLt l0 (u0 + 1) (fun i => forLt l1 (u1 + 1) fun j => forLt l2 (u2 + 1) (roundTab s1 s2 i j)) (List.replicate (s0 * s1 * s2).toNat (2 : T), (0 : Int)) with
  | error e => rw [hf] at p; cases p
  | ok a =>
    obtain ⟨ans, n⟩ := a
    rw [hf, M.ok_bind] at p
    rw [M.ok_bind]
    dsimp only at p ⊢
    injection p with p
    rw [Bool.and_eq_true, decide_eq_true_eq, decide_eq_true_eq] at p
    refine ⟨_, rfl, ?_⟩
    rw [Bool.and_eq_true, decide_eq_true_eq, decide_eq_true_eq, p.2]
    exact ⟨fun h => h.2, fun h => ⟨p.1, h⟩⟩

/-- the kernel under test with one element overwritten by a value that does not belong there: the test fails -/
example : ∃ b, Test.tabulate3dOf 9 7 8 2 1 3 6 5 5 (spoil (Cuda.subTabulate [9, 7, 8] [2, 1, 3] [6, 5, 5] (at_ 0) 1 revBackend) 0 (5 : ℚ)) = .ok b ∧ b = false := by
  obtain ⟨w, r, l, -, -⟩ := tabulated (v := List.replicate 504 (2 : ℚ)) revBackend_ok (box3 (s0 := 9) (s1 := 7) (s2 := 8) (l0 := 2) (l1 := 1) (l2 := 3) (u0 := 6) (u1 := 5) (u2 := 5) (by decide)
    (by decide) (by decide) (by decide) (by decide) (by decide) (by decide) (by decide) (by decide) (by decide)) (by rw [List.length_replicate]; rfl)
  obtain ⟨b, h1, h2⟩ := C124_tabulate_3d (s0 := 9) (s1 := 7) (s2 := 8) (l0 := 2) (l1 := 1) (l2 := 3) (u0 := 6) (u1 := 5) (u2 := 5) (by decide) (by decide) (by decide) (by decide) (by decide)
    (by decide) (by decide) (by decide) (by decide) (by decide) (spoil_run (q := 0) (a := (5 : ℚ)) r) (by rw [List.length_set, l, List.length_replicate]; rfl)
  refine ⟨b, h1, Bool.eq_false_iff.2 fun hb => ?_⟩
  have e := h2.1 hb 0 0 0 ⟨⟨by decide, by decide⟩, ⟨by decide, by decide⟩, ⟨by decide, by decide⟩, trivial⟩
  rw [show (rowMajor [9, 7, 8] [0, 0, 0]).toNat = 0 by decide, List.getElem?_set_self (by rw [l, List.length_replicate]; decide), if_neg (by decide)] at e
  norm_num at e

end Verif
