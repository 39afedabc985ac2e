import Verif.Spec.Elements
import Verif.Lemmas.Fortran
import Mathlib.Algebra.BigOperators.Group.List.Basic
import Mathlib.Algebra.Field.Basic
import Mathlib.Tactic.Ring
import Mathlib.Tactic.FieldSimp

/-
Sums over index ranges.
-/

namespace Verif.F

theorem irange_mem {lo hi i : Int} (h : i ∈ irange lo hi) : lo ≤ i ∧ i ≤ hi := by
  unfold irange at h
  obtain ⟨k, hk, rfl⟩ := List.mem_map.1 h
  have := List.mem_range.1 hk
  omega

variable {T : Type} [Field T]

theorem sum_congr {lo hi : Int} {f g : Int → T} (h : ∀ i, lo ≤ i → i ≤ hi → f i = g i) : sum lo hi f = sum lo hi g := by
  unfold sum
  rw [List.map_congr_left fun i hi => h i (irange_mem hi).1 (irange_mem hi).2]

theorem sum_add {lo hi : Int} {f g : Int → T} : sum lo hi (fun i => f i + g i) = sum lo hi f + sum lo hi g := by
  unfold sum
  induction irange lo hi with
  | nil => simp
  | cons a L ih => simp only [List.map_cons, List.sum_cons, ih]; ring

theorem sum_mul {lo hi : Int} {f : Int → T} {c : T} : sum lo hi (fun i => f i * c) = sum lo hi f * c := by
  unfold sum
  induction irange lo hi with
  | nil => simp
  | cons a L ih => simp only [List.map_cons, List.sum_cons, ih]; ring

theorem sum_comm {a b a' b' : Int} {f : Int → Int → T} : sum a b (fun i => sum a' b' fun j => f i j) = sum a' b' fun j => sum a b fun i => f i j := by
  unfold sum
  induction irange a b with
  | nil =>
    simp only [List.map_nil, List.sum_nil]
    induction irange a' b' with
    | nil => simp
    | cons a L ih => simp only [List.map_cons, List.sum_cons, ← ih, add_zero]
  | cons x L ih =>
    simp only [List.map_cons, List.sum_cons, ih]
    exact (sum_add (lo := a') (hi := b') (f := fun j => f x j) (g := fun j => (L.map fun i => f i j).sum)).symm

theorem sum_tele {lo hi : Int} {f : Int → T} (h : lo ≤ hi) : sum lo hi (fun i => f (i + 1) - f i) = f (hi + 1) - f lo := by
  unfold sum irange
  obtain ⟨n, hn⟩ : ∃ n : Nat, (hi - lo + 1).toNat = n := ⟨_, rfl⟩
  have he : hi + 1 = lo + n := by omega
  rw [hn, he]
  clear h hn he
  induction n with
  | zero => simp
  | succ n ih =>
    rw [List.range_succ, List.map_append, List.map_append, List.sum_append, ih]
    simp only [List.map_cons, List.map_nil, List.sum_cons, List.sum_nil, Nat.cast_add, Nat.cast_one]
    rw [show lo + (n : Int) + 1 = lo + (n + 1) by ring]
    ring

theorem conserve1 {i0 i1 : Int} {dx : Nat → T} {beta : T} {G0 : Int → T} (hi : i0 ≤ i1) (h0 : dx 0 ≠ 0) :
    sum i0 i1 (fun i => -(beta * ((G0 (i + 1) - G0 i) / dx 0))) * dx 0 = -beta * (G0 (i1 + 1) - G0 i0) := by
  rw [← sum_mul, sum_congr (g := fun i => (G0 (i + 1) - G0 i) * (-beta)) fun i _ _ => by field_simp, sum_mul, sum_tele hi]
  ring

theorem conserve2 {i0 j0 i1 j1 : Int} {dx : Nat → T} {beta : T} {G0 G1 : Int → Int → T} (hi : i0 ≤ i1) (hj : j0 ≤ j1) (h0 : dx 0 ≠ 0) (h1 : dx 1 ≠ 0) :
    sum i0 i1 (fun i => sum j0 j1 fun j => -(beta * ((G0 (i + 1) j - G0 i j) / dx 0 + (G1 i (j + 1) - G1 i j) / dx 1))) * (dx 0 * dx 1) =
      -beta * (sum j0 j1 (fun j => G0 (i1 + 1) j - G0 i0 j) * dx 1 + sum i0 i1 (fun i => G1 i (j1 + 1) - G1 i j0) * dx 0) := by
  have e : ∀ i, sum j0 j1 (fun j => -(beta * ((G0 (i + 1) j - G0 i j) / dx 0 + (G1 i (j + 1) - G1 i j) / dx 1))) * (dx 0 * dx 1) =
      sum j0 j1 (fun j => G0 (i + 1) j - G0 i j) * (-beta * dx 1) + (G1 i (j1 + 1) - G1 i j0) * (-beta * dx 0) := by
    intro i
    rw [← sum_mul, sum_congr (g := fun j => (G0 (i + 1) j - G0 i j) * (-beta * dx 1) + (G1 i (j + 1) - G1 i j) * (-beta * dx 0)) fun j _ _ => by
      field_simp; ring, sum_add, sum_mul, sum_mul, sum_tele hj]
  rw [← sum_mul, sum_congr fun i _ _ => e i, sum_add, sum_mul, sum_mul, sum_comm, sum_congr (lo := j0) fun j _ _ => sum_tele (f := fun i => G0 i j) hi]
  ring

theorem conserve3 {i0 j0 k0 i1 j1 k1 : Int} {dx : Nat → T} {beta : T} {G0 G1 G2 : Int → Int → Int → T} (hi : i0 ≤ i1) (hj : j0 ≤ j1) (hk : k0 ≤ k1)
    (h0 : dx 0 ≠ 0) (h1 : dx 1 ≠ 0) (h2 : dx 2 ≠ 0) :
    sum i0 i1 (fun i => sum j0 j1 fun j => sum k0 k1 fun k =>
        -(beta * ((G0 (i + 1) j k - G0 i j k) / dx 0 + (G1 i (j + 1) k - G1 i j k) / dx 1 + (G2 i j (k + 1) - G2 i j k) / dx 2))) * (dx 0 * dx 1 * dx 2) =
      -beta * (sum j0 j1 (fun j => sum k0 k1 fun k => G0 (i1 + 1) j k - G0 i0 j k) * (dx 1 * dx 2) +
        sum i0 i1 (fun i => sum k0 k1 fun k => G1 i (j1 + 1) k - G1 i j0 k) * (dx 0 * dx 2) +
        sum i0 i1 (fun i => sum j0 j1 fun j => G2 i j (k1 + 1) - G2 i j k0) * (dx 0 * dx 1)) := by
  have e : ∀ i j, sum k0 k1 (fun k => -(beta * ((G0 (i + 1) j k - G0 i j k) / dx 0 + (G1 i (j + 1) k - G1 i j k) / dx 1 + (G2 i j (k + 1) - G2 i j k) / dx 2))) *
      (dx 0 * dx 1 * dx 2) = sum k0 k1 (fun k => G0 (i + 1) j k - G0 i j k) * (-beta * (dx 1 * dx 2)) +
      sum k0 k1 (fun k => G1 i (j + 1) k - G1 i j k) * (-beta * (dx 0 * dx 2)) + (G2 i j (k1 + 1) - G2 i j k0) * (-beta * (dx 0 * dx 1)) := by
    intro i j
    rw [← sum_mul, sum_congr (g := fun k => (G0 (i + 1) j k - G0 i j k) * (-beta * (dx 1 * dx 2)) + (G1 i (j + 1) k - G1 i j k) * (-beta * (dx 0 * dx 2)) +
      (G2 i j (k + 1) - G2 i j k) * (-beta * (dx 0 * dx 1))) fun k _ _ => by field_simp; ring, sum_add, sum_add, sum_mul, sum_mul, sum_mul, sum_tele hk]
  have e1 : ∀ i, sum j0 j1 (fun j => sum k0 k1 fun k => -(beta * ((G0 (i + 1) j k - G0 i j k) / dx 0 + (G1 i (j + 1) k - G1 i j k) / dx 1 +
      (G2 i j (k + 1) - G2 i j k) / dx 2))) * (dx 0 * dx 1 * dx 2) = sum j0 j1 (fun j => sum k0 k1 fun k => G0 (i + 1) j k - G0 i j k) * (-beta * (dx 1 * dx 2)) +
      sum k0 k1 (fun k => G1 i (j1 + 1) k - G1 i j0 k) * (-beta * (dx 0 * dx 2)) + sum j0 j1 (fun j => G2 i j (k1 + 1) - G2 i j k0) * (-beta * (dx 0 * dx 1)) := by
    intro i
    rw [← sum_mul, sum_congr fun j _ _ => e i j, sum_add, sum_add, sum_mul, sum_mul, sum_mul, sum_comm (f := fun j k => G1 i (j + 1) k - G1 i j k),
      sum_congr (lo := k0) fun k _ _ => sum_tele (f := fun j => G1 i j k) hj]
  rw [← sum_mul, sum_congr fun i _ _ => e1 i, sum_add, sum_add, sum_mul, sum_mul, sum_mul, sum_comm (f := fun i j => sum k0 k1 fun k => G0 (i + 1) j k - G0 i j k),
    sum_congr (lo := j0) fun j _ _ => (sum_comm (f := fun i k => G0 (i + 1) j k - G0 i j k)).trans
      (sum_congr (lo := k0) fun k _ _ => sum_tele (f := fun i => G0 i j k) hi)]
  ring

end Verif.F
