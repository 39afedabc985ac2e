import Verif.Props.IterDriver
import Mathlib.Algebra.Field.Rat
import Mathlib.Tactic.IntervalCases

/-
C115: the tests of the submatrix iterator pass.
-/

namespace Verif

open Spec Test

variable {T : Type} [Field T] [DecidableEq T]

omit [Field T] [DecidableEq T] in
theorem vec_only {a : List T} : vec 0 [a] = .ok a := rfl

theorem last_here {a : Int × Int} {l : List (Int × Int)} {r : Int} (h : a.1 = r) (hl : ∀ b ∈ l, b.1 ≠ r) : ((a :: l).filter (·.1 == r)).getLast? = some a := by
  rw [last_cons, if_pos h, List.filter_eq_nil_iff.2 fun b hb => by simpa using hl b hb]
  rfl

theorem last_skip {a c : Int × Int} {l : List (Int × Int)} {r : Int} (h : (l.filter (·.1 == r)).getLast? = some c) : ((a :: l).filter (·.1 == r)).getLast? = some c := by
  rw [last_cons, h]
  rfl

theorem box2 {s0 s1 l0 l1 u0 u1 : Int} (hl0 : 0 ≤ l0) (h0 : l0 ≤ u0) (hu0 : u0 < s0) (hl1 : 0 ≤ l1) (h1 : l1 ≤ u1) (hu1 : u1 < s1) (hN : s0 * s1 ≤ 2147483647) :
    SubBox [s0, s1] [l0, l1] [u0, u1] ([s0, s1].map fun _ => 1) := by
  have q0 : s0 ≤ s0 * s1 := le_mul_of_one_le_right (by omega) (by omega)
  have q1 : s1 ≤ s0 * s1 := le_mul_of_one_le_left (by omega) (by omega)
  refine ⟨by simp, by simp [Pos]; omega, by simpa using hN, rfl, rfl, rfl, fun i hi => ?_⟩
  simp at hi
  interval_cases i <;> simp <;> omega

theorem box3 {s0 s1 s2 l0 l1 l2 u0 u1 u2 : Int} (hl0 : 0 ≤ l0) (h0 : l0 ≤ u0) (hu0 : u0 < s0) (hl1 : 0 ≤ l1) (h1 : l1 ≤ u1) (hu1 : u1 < s1)
    (hl2 : 0 ≤ l2) (h2 : l2 ≤ u2) (hu2 : u2 < s2) (hN : s0 * s1 * s2 ≤ 2147483647) :
    SubBox [s0, s1, s2] [l0, l1, l2] [u0, u1, u2] ([s0, s1, s2].map fun _ => 1) := by
  have q : 1 ≤ s0 * s1 := one_le_mul_of_one_le_of_one_le (by omega) (by omega)
  have q' : 1 ≤ s1 * s2 := one_le_mul_of_one_le_of_one_le (by omega) (by omega)
  have q0 : s0 ≤ s0 * s1 := le_mul_of_one_le_right (by omega) (by omega)
  have q1 : s1 ≤ s0 * s1 := le_mul_of_one_le_left (by omega) (by omega)
  have q2 : s0 * s1 ≤ s0 * s1 * s2 := le_mul_of_one_le_right (by omega) (by omega)
  have q3 : s2 ≤ s0 * s1 * s2 := le_mul_of_one_le_left (by omega) (by omega)
  have q4 : s1 * s2 ≤ s0 * s1 * s2 := by rw [mul_assoc]; exact le_mul_of_one_le_left (by omega) (by omega)
  refine ⟨by simp, by simp [Pos]; omega, by simpa [mul_assoc] using hN, rfl, rfl, rfl, fun i hi => ?_⟩
  simp at hi
  interval_cases i <;> simp <;> omega

theorem between2 {l0 l1 u0 u1 a b : Int} : Between [l0, l1] [u0, u1] [a, b] 2 ↔ (l0 ≤ a ∧ a ≤ u0) ∧ l1 ≤ b ∧ b ≤ u1 := by
  constructor
  · intro h
    exact ⟨by simpa using h 0 (by decide), by simpa using h 1 (by decide)⟩
  · rintro ⟨h0, h1⟩ i hi
    interval_cases i
    · simpa using h0
    · simpa using h1

theorem between3 {l0 l1 l2 u0 u1 u2 a b c : Int} :
    Between [l0, l1, l2] [u0, u1, u2] [a, b, c] 3 ↔ (l0 ≤ a ∧ a ≤ u0) ∧ (l1 ≤ b ∧ b ≤ u1) ∧ l2 ≤ c ∧ c ≤ u2 := by
  constructor
  · intro h
    exact ⟨by simpa using h 0 (by decide), by simpa using h 1 (by decide), by simpa using h 2 (by decide)⟩
  · rintro ⟨h0, h1, h2⟩ i hi
    interval_cases i
    · simpa using h0
    · simpa using h1
    · simpa using h2

theorem pos2_run {s0 s1 a b : Int} (ha : 0 ≤ a) (ha' : a < s0) (hb : 0 ≤ b) (hb' : b < s1) (hN : s0 * s1 ≤ 2147483647) :
    pos2 s1 a b = .ok (a * s1 + b) ∧ 0 ≤ a * s1 + b ∧ a * s1 + b < s0 * s1 ∧ rowMajor [s0, s1] [a, b] = a * s1 + b := by
  have e : rowMajor [s0, s1] [a, b] = a * s1 + b := by simp [rowMajor]
  have hx : InBox [s0, s1] [a, b] := ⟨⟨ha, ha'⟩, ⟨hb, hb'⟩, trivial⟩
  have q := rowMajor_lt hx
  rw [e] at q
  simp only [List.prod_cons, List.prod_nil, mul_one] at q
  have q0 : 0 ≤ a * s1 := mul_nonneg ha (by omega)
  refine ⟨?_, by omega, q, e⟩
  unfold pos2
  rw [imul_ok (by unfold InInt; omega), M.ok_bind, iadd_ok (by unfold InInt; omega)]

/-- src/submatrix_iterator.t.cpp:21-39 -/
theorem C115_basic {s0 s1 l0 l1 u0 u1 : Int} (hl0 : 0 ≤ l0) (h0 : l0 + 1 ≤ u0) (hu0 : u0 < s0) (hl1 : 0 ≤ l1) (h1 : l1 + 2 ≤ u1) (hu1 : u1 < s1)
    (hN : s0 * s1 ≤ 2147483647) : Test.subBasic (T := T) s0 s1 l0 l1 u0 u1 = .ok true := by
  have q : 0 ≤ s0 * s1 := mul_nonneg (by omega) (by omega)
  unfold Test.subBasic Test.subBasicOf
  rw [imul_ok (by unfold InInt; omega), M.ok_bind, newVec_ok q, M.ok_bind]
  obtain ⟨w, r, l, e⟩ := inited (v := List.replicate (s0 * s1).toNat (1 : T)) (box2 hl0 (by omega) hu0 hl1 (by omega) hu1 hN) (Or.inl rfl) (by simp; omega) (by simp; omega)
  rw [r, M.ok_bind, vec_only, M.ok_bind]
  have n2 : 2 * (u1 - l1 + 1) ≤ (u0 - l0 + 1) * (u1 - l1 + 1) := mul_le_mul_of_nonneg_right (by omega) (by omega)
  have el : ∀ a b z, l0 ≤ a → a ≤ u0 → l1 ≤ b → b ≤ u1 → (∃ p, ((initWrites [u0 - l0 + 1, u1 - l1 + 1]).filter (·.1 == (a - l0) * (u1 - l1 + 1) + (b - l1))).getLast? = some (p, z)) →
      pos2 s1 a b = .ok (a * s1 + b) ∧ (0 ≤ a * s1 + b ∧ a * s1 + b < s0 * s1) ∧ holds w (a * s1 + b) z = .ok true := by
    rintro a b z ha ha' hb hb' ⟨p, hp⟩
    obtain ⟨run, k0, k1, k2⟩ := pos2_run (s0 := s0) (s1 := s1) (a := a) (b := b) (by omega) (by omega) (by omega) (by omega) hN
    refine ⟨run, ⟨k0, k1⟩, holds_ok k0 ?_⟩
    have := e [a, b] (p, z) ⟨⟨by omega, by omega⟩, ⟨by omega, by omega⟩, trivial⟩ (between2.2 ⟨⟨ha, ha'⟩, hb, hb'⟩) (by simpa [rowMajor] using hp)
    rw [k2] at this
    exact this
  have iw : initWrites [u0 - l0 + 1, u1 - l1 + 1] =
      [(0, -1), (1, -2), (u1 - l1 + 1 - 1, -3), (u1 - l1 + 1, -4), ((u0 - l0 + 1) * (u1 - l1 + 1) - 1, -5)] := by simp [initWrites]
  obtain ⟨a1, b1, c1⟩ := el l0 l1 (-1) (by omega) (by omega) (by omega) (by omega) ⟨_, by
    rw [iw, sub_self, zero_mul, sub_self]
    exact last_here (by dsimp only; omega) (by simp only [List.forall_mem_cons, List.not_mem_nil, false_imp_iff, implies_true, and_true]; omega)⟩
  obtain ⟨a2, b2, c2⟩ := el l0 (l1 + 1) (-2) (by omega) (by omega) (by omega) (by omega) ⟨_, by
    rw [iw, sub_self, zero_mul]
    exact last_skip (last_here (by dsimp only; omega) (by simp only [List.forall_mem_cons, List.not_mem_nil, false_imp_iff, implies_true, and_true]; omega))⟩
  obtain ⟨a3, b3, c3⟩ := el l0 u1 (-3) (by omega) (by omega) (by omega) (by omega) ⟨_, by
    rw [iw, sub_self, zero_mul]
    exact last_skip (last_skip (last_here (by dsimp only; omega) (by simp only [List.forall_mem_cons, List.not_mem_nil, false_imp_iff, implies_true, and_true]; omega)))⟩
  obtain ⟨a4, b4, c4⟩ := el (l0 + 1) l1 (-4) (by omega) (by omega) (by omega) (by omega) ⟨_, by
    rw [iw, show l0 + 1 - l0 = 1 by omega, one_mul]
    exact last_skip (last_skip (last_skip (last_here (by dsimp only; omega) (by simp only [List.forall_mem_cons, List.not_mem_nil, false_imp_iff, implies_true, and_true]; omega))))⟩
  obtain ⟨a5, b5, c5⟩ := el u0 u1 (-5) (by omega) (by omega) (by omega) (by omega) ⟨_, by
    rw [iw, show (u0 - l0) * (u1 - l1 + 1) + (u1 - l1) = (u0 - l0 + 1) * (u1 - l1 + 1) - 1 by ring]
    exact last_skip (last_skip (last_skip (last_skip (last_here rfl (by simp)))))⟩
  rw [a1, M.ok_bind, c1, M.ok_bind, iadd_ok (by unfold InInt; omega), M.ok_bind, add_assoc, c2, M.ok_bind, a3, M.ok_bind, c3, M.ok_bind,
    iadd_ok (by unfold InInt; have : s0 ≤ s0 * s1 := le_mul_of_one_le_right (by omega) (by omega); omega), M.ok_bind, a4, M.ok_bind, c4, M.ok_bind, a5, M.ok_bind, c5, M.ok_bind]
  simp
  omega

example : Test.subBasic (T := ℚ) 7 8 1 2 4 6 = .ok true := C115_basic (by decide) (by decide) (by decide) (by decide) (by decide) (by decide) (by decide)

theorem at3_run {s0 s1 s2 a b c : Int} (ha : 0 ≤ a) (ha' : a < s0) (hb : 0 ≤ b) (hb' : b < s1) (hc : 0 ≤ c) (hc' : c < s2) (hN : s0 * s1 * s2 ≤ 2147483647) :
    at3 s1 s2 a b c = .ok (rowMajor [s0, s1, s2] [a, b, c]) ∧ 0 ≤ rowMajor [s0, s1, s2] [a, b, c] ∧ rowMajor [s0, s1, s2] [a, b, c] < s0 * s1 * s2 := by
  have e : rowMajor [s0, s1, s2] [a, b, c] = (a * s1 + b) * s2 + c := by simp [rowMajor]; ring
  have hx : InBox [s0, s1, s2] [a, b, c] := ⟨⟨ha, ha'⟩, ⟨hb, hb'⟩, ⟨hc, hc'⟩, trivial⟩
  have q := rowMajor_lt hx
  rw [show [s0, s1, s2].prod = s0 * s1 * s2 by simp [mul_assoc]] at q
  refine ⟨?_, rowMajor_nonneg hx, q⟩
  rw [e] at q ⊢
  have q0 : a ≤ a * s1 := le_mul_of_one_le_right ha (by omega)
  have q1 : a * s1 + b ≤ (a * s1 + b) * s2 := le_mul_of_one_le_right (by omega) (by omega)
  unfold at3
  rw [iadd_ok (by unfold InInt; omega), M.ok_bind, zero_add, imul_ok (by unfold InInt; omega), M.ok_bind, iadd_ok (by unfold InInt; omega), M.ok_bind,
    imul_ok (by unfold InInt; omega), M.ok_bind, iadd_ok (by unfold InInt; omega)]

/-- src/submatrix_iterator.t.cpp:41-67 -/
theorem C115_3d {s0 s1 s2 l0 l1 l2 u0 u1 u2 : Int} (hl0 : 0 ≤ l0) (h0 : l0 + 1 ≤ u0) (hu0 : u0 < s0) (hl1 : 0 ≤ l1) (h1 : l1 + 1 ≤ u1) (hu1 : u1 < s1)
    (hl2 : 0 ≤ l2) (h2 : l2 + 2 ≤ u2) (hu2 : u2 < s2) (hN : s0 * s1 * s2 ≤ 2147483647) : Test.sub3d (T := T) s0 s1 s2 l0 l1 l2 u0 u1 u2 = .ok true := by
  have q1 : 1 ≤ s0 * s1 := one_le_mul_of_one_le_of_one_le (by omega) (by omega)
  have q2 : s0 * s1 ≤ s0 * s1 * s2 := le_mul_of_one_le_right (by omega) (by omega)
  have q3 : s2 ≤ s0 * s1 * s2 := le_mul_of_one_le_left (by omega) q1
  have q4 : s0 ≤ s0 * s1 := le_mul_of_one_le_right (by omega) (by omega)
  have q5 : s1 ≤ s0 * s1 := le_mul_of_one_le_left (by omega) (by omega)
  have hp : [s0, s1, s2].prod = s0 * s1 * s2 := by simp [mul_assoc]
  unfold Test.sub3d Test.sub3dOf
  rw [imul_ok (by unfold InInt; omega), M.ok_bind, imul_ok (by unfold InInt; omega), M.ok_bind, newVec_ok (by omega), M.ok_bind]
  obtain ⟨w, r, l, e⟩ := inited (v := List.replicate (s0 * s1 * s2).toNat (1 : T)) (box3 hl0 (by omega) hu0 hl1 (by omega) hu1 hl2 (by omega) hu2 hN) (Or.inr rfl) (by simp; omega)
    (by rw [hp]; simp; omega)
  rw [r, M.ok_bind, vec_only, M.ok_bind]
  have m1 : 2 * (u2 - l2 + 1) ≤ (u1 - l1 + 1) * (u2 - l2 + 1) := mul_le_mul_of_nonneg_right (by omega) (by omega)
  have m2 : 2 * ((u1 - l1 + 1) * (u2 - l2 + 1)) ≤ (u0 - l0 + 1) * ((u1 - l1 + 1) * (u2 - l2 + 1)) := mul_le_mul_of_nonneg_right (by omega) (by omega)
  have el : ∀ a b c k z, l0 ≤ a → a ≤ u0 → l1 ≤ b → b ≤ u1 → l2 ≤ c → c ≤ u2 → (a - l0) * ((u1 - l1 + 1) * (u2 - l2 + 1)) + ((b - l1) * (u2 - l2 + 1) + (c - l2)) = k →
      (∃ p, ((initWrites [u0 - l0 + 1, u1 - l1 + 1, u2 - l2 + 1]).filter (·.1 == k)).getLast? = some (p, z)) →
      at3 s1 s2 a b c = .ok (rowMajor [s0, s1, s2] [a, b, c]) ∧ holds w (rowMajor [s0, s1, s2] [a, b, c]) z = .ok true := by
    rintro a b c k z ha ha' hb hb' hc hc' rfl ⟨p, hp⟩
    obtain ⟨run, k0, k1⟩ := at3_run (s0 := s0) (s1 := s1) (s2 := s2) (a := a) (b := b) (c := c) (by omega) (by omega) (by omega) (by omega) (by omega) (by omega) hN
    refine ⟨run, holds_ok k0 ?_⟩
    exact e [a, b, c] (p, z) ⟨⟨by omega, by omega⟩, ⟨by omega, by omega⟩, ⟨by omega, by omega⟩, trivial⟩ (between3.2 ⟨⟨ha, ha'⟩, ⟨hb, hb'⟩, hc, hc'⟩) (by simpa [rowMajor] using hp)
  have iw : initWrites [u0 - l0 + 1, u1 - l1 + 1, u2 - l2 + 1] =
      [(0, -1), (1, -2), (u2 - l2 + 1 - 1, -3), (u2 - l2 + 1, -4), ((u0 - l0 + 1) * ((u1 - l1 + 1) * (u2 - l2 + 1)) - 1, -5), ((u1 - l1 + 1) * (u2 - l2 + 1) - 1, -6),
        ((u1 - l1 + 1) * (u2 - l2 + 1), -7)] := by simp [initWrites]
  obtain ⟨a1, c1⟩ := el l0 l1 l2 0 (-1) (by omega) (by omega) (by omega) (by omega) (by omega) (by omega) (by ring) ⟨_, by
    rw [iw]
    exact last_here rfl (by simp only [List.forall_mem_cons, List.not_mem_nil, false_imp_iff, implies_true, and_true]; omega)⟩
  obtain ⟨a2, c2⟩ := el l0 l1 (l2 + 1) 1 (-2) (by omega) (by omega) (by omega) (by omega) (by omega) (by omega) (by ring) ⟨_, by
    rw [iw]
    exact last_skip (last_here rfl (by simp only [List.forall_mem_cons, List.not_mem_nil, false_imp_iff, implies_true, and_true]; omega))⟩
  obtain ⟨a3, c3⟩ := el l0 l1 u2 (u2 - l2) (-3) (by omega) (by omega) (by omega) (by omega) (by omega) (by omega) (by ring) ⟨_, by
    rw [iw]
    exact last_skip (last_skip (last_here (by dsimp only; omega) (by simp only [List.forall_mem_cons, List.not_mem_nil, false_imp_iff, implies_true, and_true]; omega)))⟩
  obtain ⟨a4, c4⟩ := el l0 (l1 + 1) l2 (u2 - l2 + 1) (-4) (by omega) (by omega) (by omega) (by omega) (by omega) (by omega) (by ring) ⟨_, by
    rw [iw]
    exact last_skip (last_skip (last_skip (last_here rfl (by simp only [List.forall_mem_cons, List.not_mem_nil, false_imp_iff, implies_true, and_true]; omega))))⟩
  obtain ⟨a5, c5⟩ := el u0 u1 u2 ((u0 - l0 + 1) * ((u1 - l1 + 1) * (u2 - l2 + 1)) - 1) (-5) (by omega) (by omega) (by omega) (by omega) (by omega) (by omega) (by ring) ⟨_, by
    rw [iw]
    exact last_skip (last_skip (last_skip (last_skip (last_here rfl (by simp only [List.forall_mem_cons, List.not_mem_nil, false_imp_iff, implies_true, and_true]; omega)))))⟩
  obtain ⟨a6, c6⟩ := el l0 u1 u2 ((u1 - l1 + 1) * (u2 - l2 + 1) - 1) (-6) (by omega) (by omega) (by omega) (by omega) (by omega) (by omega) (by ring) ⟨_, by
    rw [iw]
    exact last_skip (last_skip (last_skip (last_skip (last_skip (last_here rfl (by simp only [List.forall_mem_cons, List.not_mem_nil, false_imp_iff, implies_true, and_true]; omega))))))⟩
  obtain ⟨a7, c7⟩ := el (l0 + 1) l1 l2 ((u1 - l1 + 1) * (u2 - l2 + 1)) (-7) (by omega) (by omega) (by omega) (by omega) (by omega) (by omega) (by ring) ⟨_, by
    rw [iw]
    exact last_skip (last_skip (last_skip (last_skip (last_skip (last_skip (last_here rfl (by simp)))))))⟩
  rw [a1, M.ok_bind, c1, M.ok_bind, iadd_ok (by unfold InInt; omega), M.ok_bind, a2, M.ok_bind, c2, M.ok_bind, a3, M.ok_bind, c3, M.ok_bind, iadd_ok (by unfold InInt; omega), M.ok_bind,
    a4, M.ok_bind, c4, M.ok_bind, a5, M.ok_bind, c5, M.ok_bind, a6, M.ok_bind, c6, M.ok_bind, iadd_ok (by unfold InInt; omega), M.ok_bind, a7, M.ok_bind, c7, M.ok_bind]
  simp
  omega

example : Test.sub3d (T := ℚ) 7 8 9 1 2 3 4 6 5 = .ok true :=
  C115_3d (by decide) (by decide) (by decide) (by decide) (by decide) (by decide) (by decide) (by decide) (by decide) (by decide)


/-- src/submatrix_iterator.t.cpp:69-90 -/
theorem C115_tabulate_2d {β : Backend} (hβ : ValidBackend β) : Test.tabulate2d (T := T) β = .ok true := by
  unfold Test.tabulate2d Test.tabulate2dOf
  rw [newVec_ok (by decide), M.ok_bind]
  obtain ⟨w, r, l, g, o⟩ := tabulated (v := List.replicate (20 : Int).toNat (1 : T)) hβ (box2 (s0 := 5) (s1 := 4) (l0 := 2) (l1 := 1) (u0 := 4) (u1 := 2) (by decide) (by decide) (by decide)
    (by decide) (by decide) (by decide) (by decide)) (by simp)
  rw [r, M.ok_bind, vec_only, M.ok_bind]
  have e : w = [1, 1, 1, 1, 1, 1, 1, 1, 1, 0, -1, 1, 1, -2, -3, 1, 1, -4, -5, 1] := by
    refine ext_box (sz := [5, 4]) (by simp [Pos]) (by rw [l]; simp) (by simp) fun x hx => ?_
    match x, hx with
    | [a, b], ⟨⟨ha, ha'⟩, ⟨hb, hb'⟩, _⟩ =>
      have g' := g [a, b] ⟨⟨ha, ha'⟩, ⟨hb, hb'⟩, trivial⟩
      have o' := o [a, b] ⟨⟨ha, ha'⟩, ⟨hb, hb'⟩, trivial⟩
      rw [show ([5, 4] : List Int).length = 2 from rfl, between2] at g' o'
      by_cases h : (2 ≤ a ∧ a ≤ 4) ∧ 1 ≤ b ∧ b ≤ 2
      · rw [g' h]
        obtain ⟨⟨h1, h2⟩, h3, h4⟩ := h
        interval_cases a <;> interval_cases b <;> simp [rowMajor]
      · rw [o' h]
        interval_cases a <;> interval_cases b <;> first | rfl | exact absurd (by decide) h
  rw [decide_eq_true e]
  simp

example : Test.tabulate2d (T := ℚ) revBackend = .ok true := C115_tabulate_2d revBackend_ok

/-- the place of an element of the box, in the order of the loops of the test -/
def place (l0 l1 l2 u1 u2 a b c : Int) : Int := (a - l0) * ((u1 - l1 + 1) * (u2 - l2 + 1)) + ((b - l1) * (u2 - l2 + 1) + (c - l2))

/-- `ans` after the elements before place `p` are written -/
def Tab (s0 s1 s2 l0 l1 l2 u0 u1 u2 p : Int) (s : List T × Int) : Prop :=
  (s.1.length : Int) = s0 * s1 * s2 ∧ s.2 = p ∧ ∀ a b c, InBox [s0, s1, s2] [a, b, c] →
    s.1[(rowMajor [s0, s1, s2] [a, b, c]).toNat]? =
      if ((l0 ≤ a ∧ a ≤ u0) ∧ (l1 ≤ b ∧ b ≤ u1) ∧ l2 ≤ c ∧ c ≤ u2) ∧ place l0 l1 l2 u1 u2 a b c < p then some (-((place l0 l1 l2 u1 u2 a b c : Int) : T)) else some 2

omit [DecidableEq T] in
theorem tab_step {s0 s1 s2 l0 l1 l2 u0 u1 u2 i j k : Int} {s : List T × Int} (hl0 : 0 ≤ l0) (hu0 : u0 < s0) (hl1 : 0 ≤ l1) (hu1 : u1 < s1) (hl2 : 0 ≤ l2) (hu2 : u2 < s2)
    (hN : s0 * s1 * s2 ≤ 2147483647) (hi : l0 ≤ i) (hi' : i ≤ u0) (hj : l1 ≤ j) (hj' : j ≤ u1) (hk : l2 ≤ k) (hk' : k ≤ u2)
    (h : Tab s0 s1 s2 l0 l1 l2 u0 u1 u2 (place l0 l1 l2 u1 u2 i j k) s) :
    ∃ s', roundTab s1 s2 i j k s = .ok s' ∧ Tab s0 s1 s2 l0 l1 l2 u0 u1 u2 (place l0 l1 l2 u1 u2 i j (k + 1)) s' := by
  obtain ⟨v, p⟩ := s
  obtain ⟨hv, hp, hs⟩ := h
  dsimp only at hv hp hs
  have pl : ∀ a b c, place l0 l1 l2 u1 u2 a b c = rowMajor [u0 - l0 + 1, u1 - l1 + 1, u2 - l2 + 1] [a - l0, b - l1, c - l2] := fun a b c => by simp [place, rowMajor]
  have inb : ∀ a b c, l0 ≤ a → a ≤ u0 → l1 ≤ b → b ≤ u1 → l2 ≤ c → c ≤ u2 → InBox [u0 - l0 + 1, u1 - l1 + 1, u2 - l2 + 1] [a - l0, b - l1, c - l2] := fun a b c _ _ _ _ _ _ =>
    ⟨⟨by omega, by omega⟩, ⟨by omega, by omega⟩, ⟨by omega, by omega⟩, trivial⟩
  have p0 : 0 ≤ p := by rw [hp, pl]; exact rowMajor_nonneg (inb i j k hi hi' hj hj' hk hk')
  have p1 : p < s0 * s1 * s2 := by
    have q := rowMajor_lt (inb i j k hi hi' hj hj' hk hk')
    rw [← pl, ← hp] at q
    refine lt_of_lt_of_le q ?_
    simp only [List.prod_cons, List.prod_nil, mul_one]
    rw [mul_assoc]
    have m1 : (u1 - l1 + 1) * (u2 - l2 + 1) ≤ s1 * s2 := mul_le_mul (by omega) (by omega) (by omega) (by omega)
    exact mul_le_mul (by omega) m1 (mul_nonneg (by omega) (by omega)) (by omega)
  obtain ⟨run, k0, k1⟩ := at3_run (s0 := s0) (s1 := s1) (s2 := s2) (a := i) (b := j) (c := k) (by omega) (by omega) (by omega) (by omega) (by omega) (by omega) hN
  have hx : InBox [s0, s1, s2] [i, j, k] := ⟨⟨by omega, by omega⟩, ⟨by omega, by omega⟩, ⟨by omega, by omega⟩, trivial⟩
  refine ⟨(v.set (rowMajor [s0, s1, s2] [i, j, k]).toNat ((0 - p : Int) : T), p + 1), ?_, by simpa using hv, by simp only [hp, place]; ring, fun a b c hy => ?_⟩
  · unfold roundTab
    rw [run, M.ok_bind, iadd_ok (by unfold InInt; omega), M.ok_bind, isub_ok (by unfold InInt; omega), M.ok_bind]
    dsimp only [vset]
    rw [if_pos ⟨k0, by omega⟩, M.ok_bind]
  · have pn : place l0 l1 l2 u1 u2 i j (k + 1) = p + 1 := by rw [hp]; unfold place; ring
    rw [pn]
    dsimp only
    by_cases e : [a, b, c] = [i, j, k]
    · injection e with e1 e
      injection e with e2 e
      injection e with e3 _
      subst e1 e2 e3
      rw [List.getElem?_set_self (by omega), if_pos ⟨⟨⟨hi, hi'⟩, ⟨hj, hj'⟩, hk, hk'⟩, by omega⟩, ← hp, zero_sub, Int.cast_neg]
    · rw [List.getElem?_set_ne fun q => e (rowMajor_inj hy hx (by have := rowMajor_nonneg hy; omega)), hs a b c hy]
      refine if_congr (and_congr_right fun hb => ?_) rfl rfl
      obtain ⟨⟨g1, g2⟩, ⟨g3, g4⟩, g5, g6⟩ := hb
      have ne : place l0 l1 l2 u1 u2 a b c ≠ p := fun q => e (by
        rw [hp, pl, pl] at q
        have := rowMajor_inj (inb a b c g1 g2 g3 g4 g5 g6) (inb i j k hi hi' hj hj' hk hk') q
        injection this with e1 this
        injection this with e2 this
        injection this with e3 _
        rw [show a = i by omega, show b = j by omega, show c = k by omega])
      rw [← hp]
      omega

/-- src/submatrix_iterator.t.cpp:92-119 -/
theorem C115_tabulate_3d {s0 s1 s2 l0 l1 l2 u0 u1 u2 : Int} {β : Backend} (hβ : ValidBackend β) (hl0 : 0 ≤ l0) (h0 : l0 ≤ u0) (hu0 : u0 < s0) (hl1 : 0 ≤ l1) (h1 : l1 ≤ u1) (hu1 : u1 < s1)
    (hl2 : 0 ≤ l2) (h2 : l2 ≤ u2) (hu2 : u2 < s2) (hN : s0 * s1 * s2 ≤ 2147483647) : Test.tabulate3d (T := T) s0 s1 s2 l0 l1 l2 u0 u1 u2 β = .ok true := by
  have q1 : 1 ≤ s0 * s1 := one_le_mul_of_one_le_of_one_le (by omega) (by omega)
  have q2 : s0 * s1 ≤ s0 * s1 * s2 := le_mul_of_one_le_right (by omega) (by omega)
  have q3 : s2 ≤ s0 * s1 * s2 := le_mul_of_one_le_left (by omega) q1
  have q4 : s0 ≤ s0 * s1 := le_mul_of_one_le_right (by omega) (by omega)
  have q5 : s1 ≤ s0 * s1 := le_mul_of_one_le_left (by omega) (by omega)
  have hp : [s0, s1, s2].prod = s0 * s1 * s2 := by simp [mul_assoc]
  have hP : Pos [s0, s1, s2] := by simp [Pos]; omega
  unfold Test.tabulate3d Test.tabulate3dOf
  rw [imul_ok (by unfold InInt; omega), M.ok_bind, imul_ok (by unfold InInt; omega), M.ok_bind, newVec_ok (by omega), M.ok_bind]
  obtain ⟨w, r, l, g, o⟩ := tabulated (v := List.replicate (s0 * s1 * s2).toNat (2 : T)) hβ (box3 hl0 h0 hu0 hl1 h1 hu1 hl2 h2 hu2 hN) (by rw [hp]; simp; omega)
  have hw : (w.length : Int) = s0 * s1 * s2 := by rw [l]; simp; omega
  rw [r, M.ok_bind, vec_only, M.ok_bind, newVec_ok (by omega), M.ok_bind]
  obtain ⟨⟨ans, c⟩, run, hl, _, hs⟩ := forLt_inv (s := (List.replicate (w.length : Int).toNat (2 : T), (0 : Int)))
    (body := fun i => forLt l1 (u1 + 1) fun j => forLt l2 (u2 + 1) (roundTab s1 s2 i j)) (lo := l0) (hi := u0 + 1)
    (fun i s => Tab s0 s1 s2 l0 l1 l2 u0 u1 u2 (place l0 l1 l2 u1 u2 i l1 l2) s) (by omega) (by omega) (by omega)
    ⟨by simpa using hw, by simp [place], fun a b c hx => by
      have := rowMajor_lt hx
      have := rowMajor_nonneg hx
      rw [hp] at *
      rw [if_neg, List.getElem?_replicate, if_pos (by omega)]
      rintro ⟨⟨⟨_, _⟩, ⟨_, _⟩, _, _⟩, h⟩
      have e0 : 0 ≤ (a - l0) * ((u1 - l1 + 1) * (u2 - l2 + 1)) := mul_nonneg (by omega) (mul_nonneg (by omega) (by omega))
      have e1 : 0 ≤ (b - l1) * (u2 - l2 + 1) := mul_nonneg (by omega) (by omega)
      simp only [place, sub_self, zero_mul, add_zero] at h
      omega⟩
    fun i s hi hi' h => by
      have q : place l0 l1 l2 u1 u2 (i + 1) l1 l2 = place l0 l1 l2 u1 u2 i (u1 + 1) l2 := by unfold place; ring
      rw [q]
      exact forLt_inv (fun j s => Tab s0 s1 s2 l0 l1 l2 u0 u1 u2 (place l0 l1 l2 u1 u2 i j l2) s) (by omega) (by omega) (by omega) h fun j s hj hj' h => by
        have q : place l0 l1 l2 u1 u2 i (j + 1) l2 = place l0 l1 l2 u1 u2 i j (u2 + 1) := by unfold place; ring
        rw [q]
        exact forLt_inv (fun k s => Tab s0 s1 s2 l0 l1 l2 u0 u1 u2 (place l0 l1 l2 u1 u2 i j k) s) (by omega) (by omega) (by omega) h fun k s hk hk' h =>
          tab_step hl0 hu0 hl1 hu1 hl2 hu2 hN hi (by omega) hj (by omega) hk (by omega) h
  rw [run, M.ok_bind]
  dsimp only at hl hs ⊢
  have e : w = ans := by
    refine ext_box hP (by rw [hp]; exact hw) (by rw [hp]; exact hl) fun x hx => ?_
    match x, hx with
    | [a, b, c], hx =>
      have g' := g [a, b, c] hx
      have o' := o [a, b, c] hx
      rw [show [s0, s1, s2].length = 3 from rfl, between3] at g' o'
      rw [hs a b c hx]
      by_cases h : (l0 ≤ a ∧ a ≤ u0) ∧ (l1 ≤ b ∧ b ≤ u1) ∧ l2 ≤ c ∧ c ≤ u2
      · refine (g' h).trans (Eq.trans ?_ (if_pos ⟨h, ?_⟩).symm)
        · simp [place, rowMajor]
        · obtain ⟨⟨g1, g2⟩, ⟨g3, g4⟩, g5, g6⟩ := h
          have := rowMajor_lt (n := [u0 - l0 + 1, u1 - l1 + 1, u2 - l2 + 1]) (c := [a - l0, b - l1, c - l2]) ⟨⟨by omega, by omega⟩, ⟨by omega, by omega⟩, ⟨by omega, by omega⟩, trivial⟩
          simp only [rowMajor, List.prod_cons, List.prod_nil, mul_one, add_zero] at this
          simp only [place, sub_self, zero_mul, add_zero]
          rw [show u0 + 1 - l0 = u0 - l0 + 1 by ring]
          exact this
      · rw [o' h, if_neg fun q => h q.1]
        have k1 := rowMajor_lt hx
        have k0 := rowMajor_nonneg hx
        rw [hp] at k1
        rw [List.getElem?_replicate, if_pos (by omega)]
  rw [decide_eq_true e]
  simp
  omega

example : Test.tabulate3d (T := ℚ) 9 7 8 2 1 3 6 5 5 revBackend = .ok true :=
  C115_tabulate_3d revBackend_ok (by decide) (by decide) (by decide) (by decide) (by decide) (by decide) (by decide) (by decide) (by decide) (by decide)

end Verif
