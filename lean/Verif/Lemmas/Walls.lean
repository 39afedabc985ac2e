import Verif.Lemmas.BoundaryOne3

/-
Fields whose ghost values are multiples of the value in the cell at the boundary, and the bilinear form on them.
-/

set_option linter.unusedSectionVars false
set_option linter.unusedSimpArgs false
set_option linter.unusedVariables false

namespace Verif
open Spec

namespace F

section
variable {T : Type} [Field T]

open Classical in
/-- zero outside of the box -/
noncomputable def cutTo (box : List (Int × Int)) (V : List Int → T) (p : List Int) : T := if InBounds box p then V p else 0

theorem cutTo_in {box : List (Int × Int)} {V : List Int → T} {p : List Int} (h : InBounds box p) : cutTo box V p = V p := if_pos h

theorem cutTo_out {box : List (Int × Int)} {V : List Int → T} {p : List Int} (h : ¬ InBounds box p) : cutTo box V p = 0 := if_neg h

/-- the values in the ghost cells are `1 - f` times the values in the cells next to them -/
def Walled (box : List (Int × Int)) (n : Int) (O : Int → List Int) (f : List Int → Int → T) (X : List Int → T) : Prop :=
  ∀ p, InBounds box p → ∀ e, 1 ≤ e → e ≤ n - 1 → ¬ InBounds box (shift p (O e)) → X (shift p (O e)) = (1 - f p e) * X p

theorem face_symm {box : List (Int × Int)} {X Z : List Int → T} {a b : List Int} {s t : T}
    (h1 : InBounds box a → ¬ InBounds box b → X b = (1 - s) * X a) (h2 : InBounds box b → ¬ InBounds box a → X a = (1 - t) * X b)
    (h3 : InBounds box a → ¬ InBounds box b → Z b = (1 - s) * Z a) (h4 : InBounds box b → ¬ InBounds box a → Z a = (1 - t) * Z b)
    (h : InBounds box a ∨ InBounds box b) : (X a - X b) * (cutTo box Z a - cutTo box Z b) = (Z a - Z b) * (cutTo box X a - cutTo box X b) := by
  by_cases ha : InBounds box a
  · by_cases hb : InBounds box b
    · rw [cutTo_in ha, cutTo_in ha, cutTo_in hb, cutTo_in hb]
      ring
    · rw [cutTo_in ha, cutTo_in ha, cutTo_out hb, cutTo_out hb, h1 ha hb, h3 ha hb]
      ring
  · have hb := h.resolve_left ha
    rw [cutTo_out ha, cutTo_out ha, cutTo_in hb, cutTo_in hb, h2 hb ha, h4 hb ha]
    ring

theorem Walled.symm1 {i0 i1 : Int} {alpha beta : T} {dx : Nat → T} {A B0 X Z : List Int → T} {f : List Int → Int → T} (hi : i0 ≤ i1) (hX : Walled [(i0, i1)] 3 (row points1) f X) (hZ : Walled [(i0, i1)] 3 (row points1) f Z) :
    form1 i0 i1 alpha beta dx A B0 X (cutTo [(i0, i1)] Z) = form1 i0 i1 alpha beta dx A B0 Z (cutTo [(i0, i1)] X) := by
  have e0 : (sum i0 (i1 + 1) fun i => B0 [i] * ((X [i] - X [i - 1]) * (cutTo [(i0, i1)] Z [i] - cutTo [(i0, i1)] Z [i - 1])) / (dx 0 * dx 0)) = (sum i0 (i1 + 1) fun i => B0 [i] * ((Z [i] - Z [i - 1]) * (cutTo [(i0, i1)] X [i] - cutTo [(i0, i1)] X [i - 1])) / (dx 0 * dx 0)) := sum_congr fun i hi0 hi1 => by
    have := face_symm (a := [i]) (b := [i - 1]) (fun x y => by have := hX _ x 1 (by decide) (by decide); rw [shift1_1] at this; exact this y) (fun x y => by have := hX _ x 2 (by decide) (by decide); rw [shift1_2, sub_add_cancel] at this; exact this y) (fun x y => by have := hZ _ x 1 (by decide) (by decide); rw [shift1_1] at this; exact this y) (fun x y => by have := hZ _ x 2 (by decide) (by decide); rw [shift1_2, sub_add_cancel] at this; exact this y) (by
      by_cases hx : i ≤ i1
      · exact Or.inl (inBounds1.2 ⟨i, rfl, by omega⟩)
      · exact Or.inr (inBounds1.2 ⟨i - 1, rfl, by omega⟩))
    rw [this]
  have ea : (sum i0 i1 fun i => A [i] * X [i] * cutTo [(i0, i1)] Z [i]) = (sum i0 i1 fun i => A [i] * Z [i] * cutTo [(i0, i1)] X [i]) := sum_congr fun i hi0 hi1 => by
    have hp : InBounds [(i0, i1)] [i] := inBounds1.2 ⟨i, rfl, by omega⟩
    rw [cutTo_in hp, cutTo_in hp]
    ring
  unfold form1
  rw [e0, ea]

theorem Walled.symm2 {i0 j0 i1 j1 : Int} {alpha beta : T} {dx : Nat → T} {A B0 B1 X Z : List Int → T} {f : List Int → Int → T} (hi : i0 ≤ i1) (hj : j0 ≤ j1) (hX : Walled [(i0, i1), (j0, j1)] 5 (row points2) f X) (hZ : Walled [(i0, i1), (j0, j1)] 5 (row points2) f Z) :
    form2 i0 j0 i1 j1 alpha beta dx A B0 B1 X (cutTo [(i0, i1), (j0, j1)] Z) = form2 i0 j0 i1 j1 alpha beta dx A B0 B1 Z (cutTo [(i0, i1), (j0, j1)] X) := by
  have e0 : (sum i0 (i1 + 1) fun i => sum j0 j1 fun j => B0 [i, j] * ((X [i, j] - X [i - 1, j]) * (cutTo [(i0, i1), (j0, j1)] Z [i, j] - cutTo [(i0, i1), (j0, j1)] Z [i - 1, j])) / (dx 0 * dx 0)) = (sum i0 (i1 + 1) fun i => sum j0 j1 fun j => B0 [i, j] * ((Z [i, j] - Z [i - 1, j]) * (cutTo [(i0, i1), (j0, j1)] X [i, j] - cutTo [(i0, i1), (j0, j1)] X [i - 1, j])) / (dx 0 * dx 0)) := sum_congr fun i hi0 hi1 => sum_congr fun j hj0 hj1 => by
    have := face_symm (a := [i, j]) (b := [i - 1, j]) (fun x y => by have := hX _ x 1 (by decide) (by decide); rw [shift2_1] at this; exact this y) (fun x y => by have := hX _ x 2 (by decide) (by decide); rw [shift2_2, sub_add_cancel] at this; exact this y) (fun x y => by have := hZ _ x 1 (by decide) (by decide); rw [shift2_1] at this; exact this y) (fun x y => by have := hZ _ x 2 (by decide) (by decide); rw [shift2_2, sub_add_cancel] at this; exact this y) (by
      by_cases hx : i ≤ i1
      · exact Or.inl (inBounds2.2 ⟨i, j, rfl, by omega⟩)
      · exact Or.inr (inBounds2.2 ⟨i - 1, j, rfl, by omega⟩))
    rw [this]
  have e1 : (sum i0 i1 fun i => sum j0 (j1 + 1) fun j => B1 [j, i] * ((X [i, j] - X [i, j - 1]) * (cutTo [(i0, i1), (j0, j1)] Z [i, j] - cutTo [(i0, i1), (j0, j1)] Z [i, j - 1])) / (dx 1 * dx 1)) = (sum i0 i1 fun i => sum j0 (j1 + 1) fun j => B1 [j, i] * ((Z [i, j] - Z [i, j - 1]) * (cutTo [(i0, i1), (j0, j1)] X [i, j] - cutTo [(i0, i1), (j0, j1)] X [i, j - 1])) / (dx 1 * dx 1)) := sum_congr fun i hi0 hi1 => sum_congr fun j hj0 hj1 => by
    have := face_symm (a := [i, j]) (b := [i, j - 1]) (fun x y => by have := hX _ x 3 (by decide) (by decide); rw [shift2_3] at this; exact this y) (fun x y => by have := hX _ x 4 (by decide) (by decide); rw [shift2_4, sub_add_cancel] at this; exact this y) (fun x y => by have := hZ _ x 3 (by decide) (by decide); rw [shift2_3] at this; exact this y) (fun x y => by have := hZ _ x 4 (by decide) (by decide); rw [shift2_4, sub_add_cancel] at this; exact this y) (by
      by_cases hx : j ≤ j1
      · exact Or.inl (inBounds2.2 ⟨i, j, rfl, by omega⟩)
      · exact Or.inr (inBounds2.2 ⟨i, j - 1, rfl, by omega⟩))
    rw [this]
  have ea : (sum i0 i1 fun i => sum j0 j1 fun j => A [i, j] * X [i, j] * cutTo [(i0, i1), (j0, j1)] Z [i, j]) = (sum i0 i1 fun i => sum j0 j1 fun j => A [i, j] * Z [i, j] * cutTo [(i0, i1), (j0, j1)] X [i, j]) := sum_congr fun i hi0 hi1 => sum_congr fun j hj0 hj1 => by
    have hp : InBounds [(i0, i1), (j0, j1)] [i, j] := inBounds2.2 ⟨i, j, rfl, by omega⟩
    rw [cutTo_in hp, cutTo_in hp]
    ring
  unfold form2
  rw [e0, e1, ea]

theorem Walled.symm3 {i0 j0 k0 i1 j1 k1 : Int} {alpha beta : T} {dx : Nat → T} {A B0 B1 B2 X Z : List Int → T} {f : List Int → Int → T} (hi : i0 ≤ i1) (hj : j0 ≤ j1) (hk : k0 ≤ k1) (hX : Walled [(i0, i1), (j0, j1), (k0, k1)] 7 (row points3) f X) (hZ : Walled [(i0, i1), (j0, j1), (k0, k1)] 7 (row points3) f Z) :
    form3 i0 j0 k0 i1 j1 k1 alpha beta dx A B0 B1 B2 X (cutTo [(i0, i1), (j0, j1), (k0, k1)] Z) = form3 i0 j0 k0 i1 j1 k1 alpha beta dx A B0 B1 B2 Z (cutTo [(i0, i1), (j0, j1), (k0, k1)] X) := by
  have e0 : (sum i0 (i1 + 1) fun i => sum j0 j1 fun j => sum k0 k1 fun k => B0 [i, j, k] * ((X [i, j, k] - X [i - 1, j, k]) * (cutTo [(i0, i1), (j0, j1), (k0, k1)] Z [i, j, k] - cutTo [(i0, i1), (j0, j1), (k0, k1)] Z [i - 1, j, k])) / (dx 0 * dx 0)) = (sum i0 (i1 + 1) fun i => sum j0 j1 fun j => sum k0 k1 fun k => B0 [i, j, k] * ((Z [i, j, k] - Z [i - 1, j, k]) * (cutTo [(i0, i1), (j0, j1), (k0, k1)] X [i, j, k] - cutTo [(i0, i1), (j0, j1), (k0, k1)] X [i - 1, j, k])) / (dx 0 * dx 0)) := sum_congr fun i hi0 hi1 => sum_congr fun j hj0 hj1 => sum_congr fun k hk0 hk1 => by
    have := face_symm (a := [i, j, k]) (b := [i - 1, j, k]) (fun x y => by have := hX _ x 1 (by decide) (by decide); rw [shift3_1] at this; exact this y) (fun x y => by have := hX _ x 2 (by decide) (by decide); rw [shift3_2, sub_add_cancel] at this; exact this y) (fun x y => by have := hZ _ x 1 (by decide) (by decide); rw [shift3_1] at this; exact this y) (fun x y => by have := hZ _ x 2 (by decide) (by decide); rw [shift3_2, sub_add_cancel] at this; exact this y) (by
      by_cases hx : i ≤ i1
      · exact Or.inl (inBounds3.2 ⟨i, j, k, rfl, by omega⟩)
      · exact Or.inr (inBounds3.2 ⟨i - 1, j, k, rfl, by omega⟩))
    rw [this]
  have e1 : (sum i0 i1 fun i => sum j0 (j1 + 1) fun j => sum k0 k1 fun k => B1 [j, k, i] * ((X [i, j, k] - X [i, j - 1, k]) * (cutTo [(i0, i1), (j0, j1), (k0, k1)] Z [i, j, k] - cutTo [(i0, i1), (j0, j1), (k0, k1)] Z [i, j - 1, k])) / (dx 1 * dx 1)) = (sum i0 i1 fun i => sum j0 (j1 + 1) fun j => sum k0 k1 fun k => B1 [j, k, i] * ((Z [i, j, k] - Z [i, j - 1, k]) * (cutTo [(i0, i1), (j0, j1), (k0, k1)] X [i, j, k] - cutTo [(i0, i1), (j0, j1), (k0, k1)] X [i, j - 1, k])) / (dx 1 * dx 1)) := sum_congr fun i hi0 hi1 => sum_congr fun j hj0 hj1 => sum_congr fun k hk0 hk1 => by
    have := face_symm (a := [i, j, k]) (b := [i, j - 1, k]) (fun x y => by have := hX _ x 3 (by decide) (by decide); rw [shift3_3] at this; exact this y) (fun x y => by have := hX _ x 4 (by decide) (by decide); rw [shift3_4, sub_add_cancel] at this; exact this y) (fun x y => by have := hZ _ x 3 (by decide) (by decide); rw [shift3_3] at this; exact this y) (fun x y => by have := hZ _ x 4 (by decide) (by decide); rw [shift3_4, sub_add_cancel] at this; exact this y) (by
      by_cases hx : j ≤ j1
      · exact Or.inl (inBounds3.2 ⟨i, j, k, rfl, by omega⟩)
      · exact Or.inr (inBounds3.2 ⟨i, j - 1, k, rfl, by omega⟩))
    rw [this]
  have e2 : (sum i0 i1 fun i => sum j0 j1 fun j => sum k0 (k1 + 1) fun k => B2 [k, i, j] * ((X [i, j, k] - X [i, j, k - 1]) * (cutTo [(i0, i1), (j0, j1), (k0, k1)] Z [i, j, k] - cutTo [(i0, i1), (j0, j1), (k0, k1)] Z [i, j, k - 1])) / (dx 2 * dx 2)) = (sum i0 i1 fun i => sum j0 j1 fun j => sum k0 (k1 + 1) fun k => B2 [k, i, j] * ((Z [i, j, k] - Z [i, j, k - 1]) * (cutTo [(i0, i1), (j0, j1), (k0, k1)] X [i, j, k] - cutTo [(i0, i1), (j0, j1), (k0, k1)] X [i, j, k - 1])) / (dx 2 * dx 2)) := sum_congr fun i hi0 hi1 => sum_congr fun j hj0 hj1 => sum_congr fun k hk0 hk1 => by
    have := face_symm (a := [i, j, k]) (b := [i, j, k - 1]) (fun x y => by have := hX _ x 5 (by decide) (by decide); rw [shift3_5] at this; exact this y) (fun x y => by have := hX _ x 6 (by decide) (by decide); rw [shift3_6, sub_add_cancel] at this; exact this y) (fun x y => by have := hZ _ x 5 (by decide) (by decide); rw [shift3_5] at this; exact this y) (fun x y => by have := hZ _ x 6 (by decide) (by decide); rw [shift3_6, sub_add_cancel] at this; exact this y) (by
      by_cases hx : k ≤ k1
      · exact Or.inl (inBounds3.2 ⟨i, j, k, rfl, by omega⟩)
      · exact Or.inr (inBounds3.2 ⟨i, j, k - 1, rfl, by omega⟩))
    rw [this]
  have ea : (sum i0 i1 fun i => sum j0 j1 fun j => sum k0 k1 fun k => A [i, j, k] * X [i, j, k] * cutTo [(i0, i1), (j0, j1), (k0, k1)] Z [i, j, k]) = (sum i0 i1 fun i => sum j0 j1 fun j => sum k0 k1 fun k => A [i, j, k] * Z [i, j, k] * cutTo [(i0, i1), (j0, j1), (k0, k1)] X [i, j, k]) := sum_congr fun i hi0 hi1 => sum_congr fun j hj0 hj1 => sum_congr fun k hk0 hk1 => by
    have hp : InBounds [(i0, i1), (j0, j1), (k0, k1)] [i, j, k] := inBounds3.2 ⟨i, j, k, rfl, by omega⟩
    rw [cutTo_in hp, cutTo_in hp]
    ring
  unfold form3
  rw [e0, e1, e2, ea]

end

variable {T : Type} [Field T] [LinearOrder T] [IsStrictOrderedRing T]

/-- through the boundary, `X` acts on the test function `N` at least as strongly as `N` would with ghost values `1 - f` times the values in the cells -/
def Leaky (box : List (Int × Int)) (n : Int) (O : Int → List Int) (f : List Int → Int → T) (X N : List Int → T) : Prop :=
  ∀ p, InBounds box p → ∀ e, 1 ≤ e → e ≤ n - 1 → ¬ InBounds box (shift p (O e)) → f p e * (N p * N p) ≤ (X p - X (shift p (O e))) * N p

theorem face_pos {box : List (Int × Int)} {X N : List Int → T} {a b : List Int} {s t : T} (hN : ∀ p q, (N p - N q) * (N p - N q) ≤ (X p - X q) * (N p - N q))
    (h1 : InBounds box a → ¬ InBounds box b → s * (N a * N a) ≤ (X a - X b) * N a) (h2 : InBounds box b → ¬ InBounds box a → t * (N b * N b) ≤ (X b - X a) * N b)
    (hs : 0 ≤ s) (ht : 0 ≤ t) (h : InBounds box a ∨ InBounds box b) :
    0 ≤ (X a - X b) * (cutTo box N a - cutTo box N b) ∧ ((X a - X b) * (cutTo box N a - cutTo box N b) = 0 →
      (InBounds box a → InBounds box b → N a = N b) ∧ (InBounds box a → ¬ InBounds box b → s ≠ 0 → N a = 0) ∧ (InBounds box b → ¬ InBounds box a → t ≠ 0 → N b = 0)) := by
  have sq : ∀ {x y : T}, 0 ≤ x → x * (y * y) ≤ 0 → x ≠ 0 → y = 0 := fun {x y} hx h0 hne =>
    mul_self_eq_zero.1 ((mul_eq_zero.1 (le_antisymm h0 (mul_nonneg hx (mul_self_nonneg y)))).resolve_left hne)
  by_cases ha : InBounds box a
  · by_cases hb : InBounds box b
    · rw [cutTo_in ha, cutTo_in hb]
      refine ⟨(mul_self_nonneg _).trans (hN a b), fun h0 => ⟨fun _ _ => ?_, fun _ h => absurd hb h, fun _ h => absurd ha h⟩⟩
      have := hN a b
      rw [h0] at this
      exact sub_eq_zero.1 (mul_self_eq_zero.1 (le_antisymm this (mul_self_nonneg _)))
    · rw [cutTo_in ha, cutTo_out hb, sub_zero]
      refine ⟨(mul_nonneg hs (mul_self_nonneg _)).trans (h1 ha hb), fun h0 => ⟨fun _ h => absurd h hb, fun _ _ hne => sq hs ?_ hne, fun h => absurd h hb⟩⟩
      exact (h1 ha hb).trans h0.le
  · have hb := h.resolve_left ha
    have e : (X a - X b) * (0 - N b) = (X b - X a) * N b := by ring
    rw [cutTo_out ha, cutTo_in hb, e]
    refine ⟨(mul_nonneg ht (mul_self_nonneg _)).trans (h2 hb ha), fun h0 => ⟨fun h => absurd h ha, fun h => absurd h ha, fun _ _ hne => sq ht ?_ hne⟩⟩
    exact (h2 hb ha).trans h0.le

theorem Leaky.nonneg1 {i0 i1 : Int} {alpha beta : T} {dx : Nat → T} {A B0 X N : List Int → T} {f : List Int → Int → T} (hi : i0 ≤ i1) (he : Elliptic1 i0 i1 alpha beta dx A B0) (hf : ∀ c e, 0 ≤ f c e) (hN : ∀ p q, (N p - N q) * (N p - N q) ≤ (X p - X q) * (N p - N q)) (hN2 : ∀ p, N p * N p ≤ X p * N p)
    (hw : Leaky [(i0, i1)] 3 (row points1) f X N) :
    0 ≤ form1 i0 i1 alpha beta dx A B0 X (cutTo [(i0, i1)] N) := by
  have t0 : ∀ i : Int, i0 ≤ i → i ≤ i1 + 1 → _ := fun i hi0 hi1 => face_pos (a := [i]) (b := [i - 1]) hN (fun x y => by have := hw _ x 1 (by decide) (by decide); rw [shift1_1] at this; exact this y) (fun x y => by have := hw _ x 2 (by decide) (by decide); rw [shift1_2, sub_add_cancel] at this; exact this y) (hf _ _) (hf _ _) (by
      by_cases hx : i ≤ i1
      · exact Or.inl (inBounds1.2 ⟨i, rfl, by omega⟩)
      · exact Or.inr (inBounds1.2 ⟨i - 1, rfl, by omega⟩))
  have n0 : ∀ i : Int, i0 ≤ i → i ≤ i1 + 1 → 0 ≤ B0 [i] * ((X [i] - X [i - 1]) * (cutTo [(i0, i1)] N [i] - cutTo [(i0, i1)] N [i - 1])) / (dx 0 * dx 0) := fun i hi0 hi1 => div_nonneg (mul_nonneg (he.face0 i hi0 hi1).le (t0 i hi0 hi1).1) (mul_self_nonneg _)
  have p0 : 0 ≤ (sum i0 (i1 + 1) fun i => B0 [i] * ((X [i] - X [i - 1]) * (cutTo [(i0, i1)] N [i] - cutTo [(i0, i1)] N [i - 1])) / (dx 0 * dx 0)) := sum_nonneg fun i hi0 hi1 => n0 i hi0 hi1
  have na : ∀ i : Int, i0 ≤ i → i ≤ i1 → 0 ≤ alpha * (A [i] * X [i] * cutTo [(i0, i1)] N [i]) := fun i hi0 hi1 => by
    have hp : InBounds [(i0, i1)] [i] := inBounds1.2 ⟨i, rfl, by omega⟩
    rw [cutTo_in hp]
    have h1 := mul_le_mul_of_nonneg_left (hN2 [i]) (he.cell i hi0 hi1)
    have h2 := mul_nonneg (he.cell i hi0 hi1) (mul_self_nonneg (N [i]))
    linarith
  have pa : 0 ≤ alpha * (sum i0 i1 fun i => A [i] * X [i] * cutTo [(i0, i1)] N [i]) := by
    simp only [mul_sum]
    exact sum_nonneg fun i hi0 hi1 => na i hi0 hi1
  unfold form1
  have := he.beta
  positivity

theorem Leaky.flat1 {i0 i1 : Int} {alpha beta : T} {dx : Nat → T} {A B0 X N : List Int → T} {f : List Int → Int → T} (hi : i0 ≤ i1) (he : Elliptic1 i0 i1 alpha beta dx A B0) (hf : ∀ c e, 0 ≤ f c e) (hN : ∀ p q, (N p - N q) * (N p - N q) ≤ (X p - X q) * (N p - N q)) (hN2 : ∀ p, N p * N p ≤ X p * N p)
    (hw : Leaky [(i0, i1)] 3 (row points1) f X N)
    (h0 : form1 i0 i1 alpha beta dx A B0 X (cutTo [(i0, i1)] N) ≤ 0) :
    (∀ p, InBounds [(i0, i1)] p → ∀ e, 1 ≤ e → e ≤ 3 - 1 → InBounds [(i0, i1)] (shift p (row points1 e)) → N (shift p (row points1 e)) = N p) ∧
    (∀ p, InBounds [(i0, i1)] p → ∀ e, 1 ≤ e → e ≤ 3 - 1 → ¬ InBounds [(i0, i1)] (shift p (row points1 e)) → f p e ≠ 0 → N p = 0) ∧
    ∀ p, InBounds [(i0, i1)] p → 0 < alpha * A p → N p = 0 := by
  have t0 : ∀ i : Int, i0 ≤ i → i ≤ i1 + 1 → _ := fun i hi0 hi1 => face_pos (a := [i]) (b := [i - 1]) hN (fun x y => by have := hw _ x 1 (by decide) (by decide); rw [shift1_1] at this; exact this y) (fun x y => by have := hw _ x 2 (by decide) (by decide); rw [shift1_2, sub_add_cancel] at this; exact this y) (hf _ _) (hf _ _) (by
      by_cases hx : i ≤ i1
      · exact Or.inl (inBounds1.2 ⟨i, rfl, by omega⟩)
      · exact Or.inr (inBounds1.2 ⟨i - 1, rfl, by omega⟩))
  have n0 : ∀ i : Int, i0 ≤ i → i ≤ i1 + 1 → 0 ≤ B0 [i] * ((X [i] - X [i - 1]) * (cutTo [(i0, i1)] N [i] - cutTo [(i0, i1)] N [i - 1])) / (dx 0 * dx 0) := fun i hi0 hi1 => div_nonneg (mul_nonneg (he.face0 i hi0 hi1).le (t0 i hi0 hi1).1) (mul_self_nonneg _)
  have p0 : 0 ≤ (sum i0 (i1 + 1) fun i => B0 [i] * ((X [i] - X [i - 1]) * (cutTo [(i0, i1)] N [i] - cutTo [(i0, i1)] N [i - 1])) / (dx 0 * dx 0)) := sum_nonneg fun i hi0 hi1 => n0 i hi0 hi1
  have na : ∀ i : Int, i0 ≤ i → i ≤ i1 → 0 ≤ alpha * (A [i] * X [i] * cutTo [(i0, i1)] N [i]) := fun i hi0 hi1 => by
    have hp : InBounds [(i0, i1)] [i] := inBounds1.2 ⟨i, rfl, by omega⟩
    rw [cutTo_in hp]
    have h1 := mul_le_mul_of_nonneg_left (hN2 [i]) (he.cell i hi0 hi1)
    have h2 := mul_nonneg (he.cell i hi0 hi1) (mul_self_nonneg (N [i]))
    linarith
  have pa : 0 ≤ alpha * (sum i0 i1 fun i => A [i] * X [i] * cutTo [(i0, i1)] N [i]) := by
    simp only [mul_sum]
    exact sum_nonneg fun i hi0 hi1 => na i hi0 hi1
  unfold form1 at h0
  have z0 : (sum i0 (i1 + 1) fun i => B0 [i] * ((X [i] - X [i - 1]) * (cutTo [(i0, i1)] N [i] - cutTo [(i0, i1)] N [i - 1])) / (dx 0 * dx 0)) ≤ 0 := by
    by_contra hc
    have : 0 < beta * ((sum i0 (i1 + 1) fun i => B0 [i] * ((X [i] - X [i - 1]) * (cutTo [(i0, i1)] N [i] - cutTo [(i0, i1)] N [i - 1])) / (dx 0 * dx 0))) := mul_pos he.beta (by linarith)
    linarith
  have za : alpha * (sum i0 i1 fun i => A [i] * X [i] * cutTo [(i0, i1)] N [i]) ≤ 0 := by
    have : 0 ≤ beta * ((sum i0 (i1 + 1) fun i => B0 [i] * ((X [i] - X [i - 1]) * (cutTo [(i0, i1)] N [i] - cutTo [(i0, i1)] N [i - 1])) / (dx 0 * dx 0))) := mul_nonneg he.beta.le (by linarith)
    linarith
  simp only [mul_sum] at za
  have v0 : ∀ i : Int, i0 ≤ i → i ≤ i1 + 1 → (X [i] - X [i - 1]) * (cutTo [(i0, i1)] N [i] - cutTo [(i0, i1)] N [i - 1]) = 0 := fun i hi0 hi1 => by
    have y0 := sum_pos_zero (fun i hi0 hi1 =>  n0 i hi0 hi1) z0 (i := i) hi0 hi1
    rcases div_eq_zero_iff.1 y0 with t | t
    · exact (mul_eq_zero.1 t).resolve_left (he.face0 i hi0 hi1).ne'
    · exact absurd (mul_self_eq_zero.1 t) he.dx0
  have va : ∀ i : Int, i0 ≤ i → i ≤ i1 → alpha * (A [i] * X [i] * cutTo [(i0, i1)] N [i]) = 0 := fun i hi0 hi1 => by
    have y0 := sum_pos_zero (fun i hi0 hi1 =>  na i hi0 hi1) za (i := i) hi0 hi1
    exact y0
  refine ⟨fun p hp e e0 e1 ho => ?_, fun p hp e e0 e1 ho hne => ?_, fun p hp hpos => ?_⟩
  · obtain ⟨i, rfl, hb⟩ := inBounds1.1 hp
    obtain rfl | rfl : e = 1 ∨ e = 2 := by omega
    · rw [shift1_1] at ho ⊢
      exact ((((t0 i (by omega) (by omega)).2 (v0 i (by omega) (by omega))).1 hp ho)).symm
    · rw [shift1_2] at ho ⊢
      have r := (t0 (i + 1) (by omega) (by omega)).2 (v0 (i + 1) (by omega) (by omega))
      rw [add_sub_cancel_right] at r
      exact r.1 ho hp
  · obtain ⟨i, rfl, hb⟩ := inBounds1.1 hp
    obtain rfl | rfl : e = 1 ∨ e = 2 := by omega
    · rw [shift1_1] at ho
      exact (((t0 i (by omega) (by omega)).2 (v0 i (by omega) (by omega))).2.1 hp ho) hne
    · rw [shift1_2] at ho
      have r := (t0 (i + 1) (by omega) (by omega)).2 (v0 (i + 1) (by omega) (by omega))
      rw [add_sub_cancel_right] at r
      exact r.2.2 hp ho hne
  · obtain ⟨i, rfl, hb⟩ := inBounds1.1 hp
    have r := va i (by omega) (by omega)
    rw [cutTo_in hp] at r
    have h1 := mul_le_mul_of_nonneg_left (hN2 [i]) hpos.le
    have h2 : alpha * A [i] * (N [i] * N [i]) ≤ 0 := by linarith
    have h3 := mul_nonneg hpos.le (mul_self_nonneg (N [i]))
    exact mul_self_eq_zero.1 ((mul_eq_zero.1 (le_antisymm h2 h3)).resolve_left hpos.ne')

theorem Leaky.zero1 {i0 i1 : Int} {alpha beta : T} {dx : Nat → T} {A B0 X N : List Int → T} {f : List Int → Int → T} {ps : List (Piece T)} (hi : i0 ≤ i1) (he : Elliptic1 i0 i1 alpha beta dx A B0) (hf : ∀ c e, 0 ≤ f c e) (hN : ∀ p q, (N p - N q) * (N p - N q) ≤ (X p - X q) * (N p - N q)) (hN2 : ∀ p, N p * N p ≤ X p * N p)
    (hw : Leaky [(i0, i1)] 3 (row points1) f X N)
    (ht : Tied [(i0, i1)] 3 (row points1) ps (fun c => alpha * A c)) (hfp : ∀ c e, (∀ q ∈ ps, q.cells c → q.ghost = e → q.btype ≠ 1) → f c e ≠ 0)
    (h0 : form1 i0 i1 alpha beta dx A B0 X (cutTo [(i0, i1)] N) ≤ 0) : ∀ p, InBounds [(i0, i1)] p → N p = 0 := by
  obtain ⟨s1, s2, s3⟩ := hw.flat1 hi he hf hN hN2 h0
  obtain ⟨c, hc, htc⟩ := ht
  intro p hp
  refine conn1 (fun q => N q = 0) (fun q hq hz e e0 e1 hi => (s1 q hq e e0 e1 hi).trans hz) c p hc hp ?_
  rcases htc with h | ⟨e, e0, e1, ho, hq⟩
  · exact s3 c hc h
  · exact s2 c hc e e0 e1 ho (hfp c e hq)

theorem Leaky.nonneg2 {i0 j0 i1 j1 : Int} {alpha beta : T} {dx : Nat → T} {A B0 B1 X N : List Int → T} {f : List Int → Int → T} (hi : i0 ≤ i1) (hj : j0 ≤ j1) (he : Elliptic2 i0 j0 i1 j1 alpha beta dx A B0 B1) (hf : ∀ c e, 0 ≤ f c e) (hN : ∀ p q, (N p - N q) * (N p - N q) ≤ (X p - X q) * (N p - N q)) (hN2 : ∀ p, N p * N p ≤ X p * N p)
    (hw : Leaky [(i0, i1), (j0, j1)] 5 (row points2) f X N) :
    0 ≤ form2 i0 j0 i1 j1 alpha beta dx A B0 B1 X (cutTo [(i0, i1), (j0, j1)] N) := by
  have t0 : ∀ i j : Int, i0 ≤ i → i ≤ i1 + 1 → j0 ≤ j → j ≤ j1 → _ := fun i j hi0 hi1 hj0 hj1 => face_pos (a := [i, j]) (b := [i - 1, j]) hN (fun x y => by have := hw _ x 1 (by decide) (by decide); rw [shift2_1] at this; exact this y) (fun x y => by have := hw _ x 2 (by decide) (by decide); rw [shift2_2, sub_add_cancel] at this; exact this y) (hf _ _) (hf _ _) (by
      by_cases hx : i ≤ i1
      · exact Or.inl (inBounds2.2 ⟨i, j, rfl, by omega⟩)
      · exact Or.inr (inBounds2.2 ⟨i - 1, j, rfl, by omega⟩))
  have n0 : ∀ i j : Int, i0 ≤ i → i ≤ i1 + 1 → j0 ≤ j → j ≤ j1 → 0 ≤ B0 [i, j] * ((X [i, j] - X [i - 1, j]) * (cutTo [(i0, i1), (j0, j1)] N [i, j] - cutTo [(i0, i1), (j0, j1)] N [i - 1, j])) / (dx 0 * dx 0) := fun i j hi0 hi1 hj0 hj1 => div_nonneg (mul_nonneg (he.face0 i j hi0 hi1 hj0 hj1).le (t0 i j hi0 hi1 hj0 hj1).1) (mul_self_nonneg _)
  have p0 : 0 ≤ (sum i0 (i1 + 1) fun i => sum j0 j1 fun j => B0 [i, j] * ((X [i, j] - X [i - 1, j]) * (cutTo [(i0, i1), (j0, j1)] N [i, j] - cutTo [(i0, i1), (j0, j1)] N [i - 1, j])) / (dx 0 * dx 0)) := sum_nonneg fun i hi0 hi1 => sum_nonneg fun j hj0 hj1 => n0 i j hi0 hi1 hj0 hj1
  have t1 : ∀ i j : Int, i0 ≤ i → i ≤ i1 → j0 ≤ j → j ≤ j1 + 1 → _ := fun i j hi0 hi1 hj0 hj1 => face_pos (a := [i, j]) (b := [i, j - 1]) hN (fun x y => by have := hw _ x 3 (by decide) (by decide); rw [shift2_3] at this; exact this y) (fun x y => by have := hw _ x 4 (by decide) (by decide); rw [shift2_4, sub_add_cancel] at this; exact this y) (hf _ _) (hf _ _) (by
      by_cases hx : j ≤ j1
      · exact Or.inl (inBounds2.2 ⟨i, j, rfl, by omega⟩)
      · exact Or.inr (inBounds2.2 ⟨i, j - 1, rfl, by omega⟩))
  have n1 : ∀ i j : Int, i0 ≤ i → i ≤ i1 → j0 ≤ j → j ≤ j1 + 1 → 0 ≤ B1 [j, i] * ((X [i, j] - X [i, j - 1]) * (cutTo [(i0, i1), (j0, j1)] N [i, j] - cutTo [(i0, i1), (j0, j1)] N [i, j - 1])) / (dx 1 * dx 1) := fun i j hi0 hi1 hj0 hj1 => div_nonneg (mul_nonneg (he.face1 i j hi0 hi1 hj0 hj1).le (t1 i j hi0 hi1 hj0 hj1).1) (mul_self_nonneg _)
  have p1 : 0 ≤ (sum i0 i1 fun i => sum j0 (j1 + 1) fun j => B1 [j, i] * ((X [i, j] - X [i, j - 1]) * (cutTo [(i0, i1), (j0, j1)] N [i, j] - cutTo [(i0, i1), (j0, j1)] N [i, j - 1])) / (dx 1 * dx 1)) := sum_nonneg fun i hi0 hi1 => sum_nonneg fun j hj0 hj1 => n1 i j hi0 hi1 hj0 hj1
  have na : ∀ i j : Int, i0 ≤ i → i ≤ i1 → j0 ≤ j → j ≤ j1 → 0 ≤ alpha * (A [i, j] * X [i, j] * cutTo [(i0, i1), (j0, j1)] N [i, j]) := fun i j hi0 hi1 hj0 hj1 => by
    have hp : InBounds [(i0, i1), (j0, j1)] [i, j] := inBounds2.2 ⟨i, j, rfl, by omega⟩
    rw [cutTo_in hp]
    have h1 := mul_le_mul_of_nonneg_left (hN2 [i, j]) (he.cell i j hi0 hi1 hj0 hj1)
    have h2 := mul_nonneg (he.cell i j hi0 hi1 hj0 hj1) (mul_self_nonneg (N [i, j]))
    linarith
  have pa : 0 ≤ alpha * (sum i0 i1 fun i => sum j0 j1 fun j => A [i, j] * X [i, j] * cutTo [(i0, i1), (j0, j1)] N [i, j]) := by
    simp only [mul_sum]
    exact sum_nonneg fun i hi0 hi1 => sum_nonneg fun j hj0 hj1 => na i j hi0 hi1 hj0 hj1
  unfold form2
  have := he.beta
  positivity

theorem Leaky.flat2 {i0 j0 i1 j1 : Int} {alpha beta : T} {dx : Nat → T} {A B0 B1 X N : List Int → T} {f : List Int → Int → T} (hi : i0 ≤ i1) (hj : j0 ≤ j1) (he : Elliptic2 i0 j0 i1 j1 alpha beta dx A B0 B1) (hf : ∀ c e, 0 ≤ f c e) (hN : ∀ p q, (N p - N q) * (N p - N q) ≤ (X p - X q) * (N p - N q)) (hN2 : ∀ p, N p * N p ≤ X p * N p)
    (hw : Leaky [(i0, i1), (j0, j1)] 5 (row points2) f X N)
    (h0 : form2 i0 j0 i1 j1 alpha beta dx A B0 B1 X (cutTo [(i0, i1), (j0, j1)] N) ≤ 0) :
    (∀ p, InBounds [(i0, i1), (j0, j1)] p → ∀ e, 1 ≤ e → e ≤ 5 - 1 → InBounds [(i0, i1), (j0, j1)] (shift p (row points2 e)) → N (shift p (row points2 e)) = N p) ∧
    (∀ p, InBounds [(i0, i1), (j0, j1)] p → ∀ e, 1 ≤ e → e ≤ 5 - 1 → ¬ InBounds [(i0, i1), (j0, j1)] (shift p (row points2 e)) → f p e ≠ 0 → N p = 0) ∧
    ∀ p, InBounds [(i0, i1), (j0, j1)] p → 0 < alpha * A p → N p = 0 := by
  have t0 : ∀ i j : Int, i0 ≤ i → i ≤ i1 + 1 → j0 ≤ j → j ≤ j1 → _ := fun i j hi0 hi1 hj0 hj1 => face_pos (a := [i, j]) (b := [i - 1, j]) hN (fun x y => by have := hw _ x 1 (by decide) (by decide); rw [shift2_1] at this; exact this y) (fun x y => by have := hw _ x 2 (by decide) (by decide); rw [shift2_2, sub_add_cancel] at this; exact this y) (hf _ _) (hf _ _) (by
      by_cases hx : i ≤ i1
      · exact Or.inl (inBounds2.2 ⟨i, j, rfl, by omega⟩)
      · exact Or.inr (inBounds2.2 ⟨i - 1, j, rfl, by omega⟩))
  have n0 : ∀ i j : Int, i0 ≤ i → i ≤ i1 + 1 → j0 ≤ j → j ≤ j1 → 0 ≤ B0 [i, j] * ((X [i, j] - X [i - 1, j]) * (cutTo [(i0, i1), (j0, j1)] N [i, j] - cutTo [(i0, i1), (j0, j1)] N [i - 1, j])) / (dx 0 * dx 0) := fun i j hi0 hi1 hj0 hj1 => div_nonneg (mul_nonneg (he.face0 i j hi0 hi1 hj0 hj1).le (t0 i j hi0 hi1 hj0 hj1).1) (mul_self_nonneg _)
  have p0 : 0 ≤ (sum i0 (i1 + 1) fun i => sum j0 j1 fun j => B0 [i, j] * ((X [i, j] - X [i - 1, j]) * (cutTo [(i0, i1), (j0, j1)] N [i, j] - cutTo [(i0, i1), (j0, j1)] N [i - 1, j])) / (dx 0 * dx 0)) := sum_nonneg fun i hi0 hi1 => sum_nonneg fun j hj0 hj1 => n0 i j hi0 hi1 hj0 hj1
  have t1 : ∀ i j : Int, i0 ≤ i → i ≤ i1 → j0 ≤ j → j ≤ j1 + 1 → _ := fun i j hi0 hi1 hj0 hj1 => face_pos (a := [i, j]) (b := [i, j - 1]) hN (fun x y => by have := hw _ x 3 (by decide) (by decide); rw [shift2_3] at this; exact this y) (fun x y => by have := hw _ x 4 (by decide) (by decide); rw [shift2_4, sub_add_cancel] at this; exact this y) (hf _ _) (hf _ _) (by
      by_cases hx : j ≤ j1
      · exact Or.inl (inBounds2.2 ⟨i, j, rfl, by omega⟩)
      · exact Or.inr (inBounds2.2 ⟨i, j - 1, rfl, by omega⟩))
  have n1 : ∀ i j : Int, i0 ≤ i → i ≤ i1 → j0 ≤ j → j ≤ j1 + 1 → 0 ≤ B1 [j, i] * ((X [i, j] - X [i, j - 1]) * (cutTo [(i0, i1), (j0, j1)] N [i, j] - cutTo [(i0, i1), (j0, j1)] N [i, j - 1])) / (dx 1 * dx 1) := fun i j hi0 hi1 hj0 hj1 => div_nonneg (mul_nonneg (he.face1 i j hi0 hi1 hj0 hj1).le (t1 i j hi0 hi1 hj0 hj1).1) (mul_self_nonneg _)
  have p1 : 0 ≤ (sum i0 i1 fun i => sum j0 (j1 + 1) fun j => B1 [j, i] * ((X [i, j] - X [i, j - 1]) * (cutTo [(i0, i1), (j0, j1)] N [i, j] - cutTo [(i0, i1), (j0, j1)] N [i, j - 1])) / (dx 1 * dx 1)) := sum_nonneg fun i hi0 hi1 => sum_nonneg fun j hj0 hj1 => n1 i j hi0 hi1 hj0 hj1
  have na : ∀ i j : Int, i0 ≤ i → i ≤ i1 → j0 ≤ j → j ≤ j1 → 0 ≤ alpha * (A [i, j] * X [i, j] * cutTo [(i0, i1), (j0, j1)] N [i, j]) := fun i j hi0 hi1 hj0 hj1 => by
    have hp : InBounds [(i0, i1), (j0, j1)] [i, j] := inBounds2.2 ⟨i, j, rfl, by omega⟩
    rw [cutTo_in hp]
    have h1 := mul_le_mul_of_nonneg_left (hN2 [i, j]) (he.cell i j hi0 hi1 hj0 hj1)
    have h2 := mul_nonneg (he.cell i j hi0 hi1 hj0 hj1) (mul_self_nonneg (N [i, j]))
    linarith
  have pa : 0 ≤ alpha * (sum i0 i1 fun i => sum j0 j1 fun j => A [i, j] * X [i, j] * cutTo [(i0, i1), (j0, j1)] N [i, j]) := by
    simp only [mul_sum]
    exact sum_nonneg fun i hi0 hi1 => sum_nonneg fun j hj0 hj1 => na i j hi0 hi1 hj0 hj1
  unfold form2 at h0
  have z0 : (sum i0 (i1 + 1) fun i => sum j0 j1 fun j => B0 [i, j] * ((X [i, j] - X [i - 1, j]) * (cutTo [(i0, i1), (j0, j1)] N [i, j] - cutTo [(i0, i1), (j0, j1)] N [i - 1, j])) / (dx 0 * dx 0)) ≤ 0 := by
    by_contra hc
    have : 0 < beta * ((sum i0 (i1 + 1) fun i => sum j0 j1 fun j => B0 [i, j] * ((X [i, j] - X [i - 1, j]) * (cutTo [(i0, i1), (j0, j1)] N [i, j] - cutTo [(i0, i1), (j0, j1)] N [i - 1, j])) / (dx 0 * dx 0)) + (sum i0 i1 fun i => sum j0 (j1 + 1) fun j => B1 [j, i] * ((X [i, j] - X [i, j - 1]) * (cutTo [(i0, i1), (j0, j1)] N [i, j] - cutTo [(i0, i1), (j0, j1)] N [i, j - 1])) / (dx 1 * dx 1))) := mul_pos he.beta (by linarith)
    linarith
  have z1 : (sum i0 i1 fun i => sum j0 (j1 + 1) fun j => B1 [j, i] * ((X [i, j] - X [i, j - 1]) * (cutTo [(i0, i1), (j0, j1)] N [i, j] - cutTo [(i0, i1), (j0, j1)] N [i, j - 1])) / (dx 1 * dx 1)) ≤ 0 := by
    by_contra hc
    have : 0 < beta * ((sum i0 (i1 + 1) fun i => sum j0 j1 fun j => B0 [i, j] * ((X [i, j] - X [i - 1, j]) * (cutTo [(i0, i1), (j0, j1)] N [i, j] - cutTo [(i0, i1), (j0, j1)] N [i - 1, j])) / (dx 0 * dx 0)) + (sum i0 i1 fun i => sum j0 (j1 + 1) fun j => B1 [j, i] * ((X [i, j] - X [i, j - 1]) * (cutTo [(i0, i1), (j0, j1)] N [i, j] - cutTo [(i0, i1), (j0, j1)] N [i, j - 1])) / (dx 1 * dx 1))) := mul_pos he.beta (by linarith)
    linarith
  have za : alpha * (sum i0 i1 fun i => sum j0 j1 fun j => A [i, j] * X [i, j] * cutTo [(i0, i1), (j0, j1)] N [i, j]) ≤ 0 := by
    have : 0 ≤ beta * ((sum i0 (i1 + 1) fun i => sum j0 j1 fun j => B0 [i, j] * ((X [i, j] - X [i - 1, j]) * (cutTo [(i0, i1), (j0, j1)] N [i, j] - cutTo [(i0, i1), (j0, j1)] N [i - 1, j])) / (dx 0 * dx 0)) + (sum i0 i1 fun i => sum j0 (j1 + 1) fun j => B1 [j, i] * ((X [i, j] - X [i, j - 1]) * (cutTo [(i0, i1), (j0, j1)] N [i, j] - cutTo [(i0, i1), (j0, j1)] N [i, j - 1])) / (dx 1 * dx 1))) := mul_nonneg he.beta.le (by linarith)
    linarith
  simp only [mul_sum] at za
  have v0 : ∀ i j : Int, i0 ≤ i → i ≤ i1 + 1 → j0 ≤ j → j ≤ j1 → (X [i, j] - X [i - 1, j]) * (cutTo [(i0, i1), (j0, j1)] N [i, j] - cutTo [(i0, i1), (j0, j1)] N [i - 1, j]) = 0 := fun i j hi0 hi1 hj0 hj1 => by
    have y0 := sum_pos_zero (fun i hi0 hi1 => sum_nonneg fun j hj0 hj1 => n0 i j hi0 hi1 hj0 hj1) z0 (i := i) hi0 hi1
    have y1 := sum_pos_zero (fun j hj0 hj1 =>  n0 i j hi0 hi1 hj0 hj1) y0.le (i := j) hj0 hj1
    rcases div_eq_zero_iff.1 y1 with t | t
    · exact (mul_eq_zero.1 t).resolve_left (he.face0 i j hi0 hi1 hj0 hj1).ne'
    · exact absurd (mul_self_eq_zero.1 t) he.dx0
  have v1 : ∀ i j : Int, i0 ≤ i → i ≤ i1 → j0 ≤ j → j ≤ j1 + 1 → (X [i, j] - X [i, j - 1]) * (cutTo [(i0, i1), (j0, j1)] N [i, j] - cutTo [(i0, i1), (j0, j1)] N [i, j - 1]) = 0 := fun i j hi0 hi1 hj0 hj1 => by
    have y0 := sum_pos_zero (fun i hi0 hi1 => sum_nonneg fun j hj0 hj1 => n1 i j hi0 hi1 hj0 hj1) z1 (i := i) hi0 hi1
    have y1 := sum_pos_zero (fun j hj0 hj1 =>  n1 i j hi0 hi1 hj0 hj1) y0.le (i := j) hj0 hj1
    rcases div_eq_zero_iff.1 y1 with t | t
    · exact (mul_eq_zero.1 t).resolve_left (he.face1 i j hi0 hi1 hj0 hj1).ne'
    · exact absurd (mul_self_eq_zero.1 t) he.dx1
  have va : ∀ i j : Int, i0 ≤ i → i ≤ i1 → j0 ≤ j → j ≤ j1 → alpha * (A [i, j] * X [i, j] * cutTo [(i0, i1), (j0, j1)] N [i, j]) = 0 := fun i j hi0 hi1 hj0 hj1 => by
    have y0 := sum_pos_zero (fun i hi0 hi1 => sum_nonneg fun j hj0 hj1 => na i j hi0 hi1 hj0 hj1) za (i := i) hi0 hi1
    have y1 := sum_pos_zero (fun j hj0 hj1 =>  na i j hi0 hi1 hj0 hj1) y0.le (i := j) hj0 hj1
    exact y1
  refine ⟨fun p hp e e0 e1 ho => ?_, fun p hp e e0 e1 ho hne => ?_, fun p hp hpos => ?_⟩
  · obtain ⟨i, j, rfl, hb⟩ := inBounds2.1 hp
    obtain rfl | rfl | rfl | rfl : e = 1 ∨ e = 2 ∨ e = 3 ∨ e = 4 := by omega
    · rw [shift2_1] at ho ⊢
      exact ((((t0 i j (by omega) (by omega) (by omega) (by omega)).2 (v0 i j (by omega) (by omega) (by omega) (by omega))).1 hp ho)).symm
    · rw [shift2_2] at ho ⊢
      have r := (t0 (i + 1) j (by omega) (by omega) (by omega) (by omega)).2 (v0 (i + 1) j (by omega) (by omega) (by omega) (by omega))
      rw [add_sub_cancel_right] at r
      exact r.1 ho hp
    · rw [shift2_3] at ho ⊢
      exact ((((t1 i j (by omega) (by omega) (by omega) (by omega)).2 (v1 i j (by omega) (by omega) (by omega) (by omega))).1 hp ho)).symm
    · rw [shift2_4] at ho ⊢
      have r := (t1 i (j + 1) (by omega) (by omega) (by omega) (by omega)).2 (v1 i (j + 1) (by omega) (by omega) (by omega) (by omega))
      rw [add_sub_cancel_right] at r
      exact r.1 ho hp
  · obtain ⟨i, j, rfl, hb⟩ := inBounds2.1 hp
    obtain rfl | rfl | rfl | rfl : e = 1 ∨ e = 2 ∨ e = 3 ∨ e = 4 := by omega
    · rw [shift2_1] at ho
      exact (((t0 i j (by omega) (by omega) (by omega) (by omega)).2 (v0 i j (by omega) (by omega) (by omega) (by omega))).2.1 hp ho) hne
    · rw [shift2_2] at ho
      have r := (t0 (i + 1) j (by omega) (by omega) (by omega) (by omega)).2 (v0 (i + 1) j (by omega) (by omega) (by omega) (by omega))
      rw [add_sub_cancel_right] at r
      exact r.2.2 hp ho hne
    · rw [shift2_3] at ho
      exact (((t1 i j (by omega) (by omega) (by omega) (by omega)).2 (v1 i j (by omega) (by omega) (by omega) (by omega))).2.1 hp ho) hne
    · rw [shift2_4] at ho
      have r := (t1 i (j + 1) (by omega) (by omega) (by omega) (by omega)).2 (v1 i (j + 1) (by omega) (by omega) (by omega) (by omega))
      rw [add_sub_cancel_right] at r
      exact r.2.2 hp ho hne
  · obtain ⟨i, j, rfl, hb⟩ := inBounds2.1 hp
    have r := va i j (by omega) (by omega) (by omega) (by omega)
    rw [cutTo_in hp] at r
    have h1 := mul_le_mul_of_nonneg_left (hN2 [i, j]) hpos.le
    have h2 : alpha * A [i, j] * (N [i, j] * N [i, j]) ≤ 0 := by linarith
    have h3 := mul_nonneg hpos.le (mul_self_nonneg (N [i, j]))
    exact mul_self_eq_zero.1 ((mul_eq_zero.1 (le_antisymm h2 h3)).resolve_left hpos.ne')

theorem Leaky.zero2 {i0 j0 i1 j1 : Int} {alpha beta : T} {dx : Nat → T} {A B0 B1 X N : List Int → T} {f : List Int → Int → T} {ps : List (Piece T)} (hi : i0 ≤ i1) (hj : j0 ≤ j1) (he : Elliptic2 i0 j0 i1 j1 alpha beta dx A B0 B1) (hf : ∀ c e, 0 ≤ f c e) (hN : ∀ p q, (N p - N q) * (N p - N q) ≤ (X p - X q) * (N p - N q)) (hN2 : ∀ p, N p * N p ≤ X p * N p)
    (hw : Leaky [(i0, i1), (j0, j1)] 5 (row points2) f X N)
    (ht : Tied [(i0, i1), (j0, j1)] 5 (row points2) ps (fun c => alpha * A c)) (hfp : ∀ c e, (∀ q ∈ ps, q.cells c → q.ghost = e → q.btype ≠ 1) → f c e ≠ 0)
    (h0 : form2 i0 j0 i1 j1 alpha beta dx A B0 B1 X (cutTo [(i0, i1), (j0, j1)] N) ≤ 0) : ∀ p, InBounds [(i0, i1), (j0, j1)] p → N p = 0 := by
  obtain ⟨s1, s2, s3⟩ := hw.flat2 hi hj he hf hN hN2 h0
  obtain ⟨c, hc, htc⟩ := ht
  intro p hp
  refine conn2 (fun q => N q = 0) (fun q hq hz e e0 e1 hi => (s1 q hq e e0 e1 hi).trans hz) c p hc hp ?_
  rcases htc with h | ⟨e, e0, e1, ho, hq⟩
  · exact s3 c hc h
  · exact s2 c hc e e0 e1 ho (hfp c e hq)

theorem Leaky.nonneg3 {i0 j0 k0 i1 j1 k1 : Int} {alpha beta : T} {dx : Nat → T} {A B0 B1 B2 X N : List Int → T} {f : List Int → Int → T} (hi : i0 ≤ i1) (hj : j0 ≤ j1) (hk : k0 ≤ k1) (he : Elliptic3 i0 j0 k0 i1 j1 k1 alpha beta dx A B0 B1 B2) (hf : ∀ c e, 0 ≤ f c e) (hN : ∀ p q, (N p - N q) * (N p - N q) ≤ (X p - X q) * (N p - N q)) (hN2 : ∀ p, N p * N p ≤ X p * N p)
    (hw : Leaky [(i0, i1), (j0, j1), (k0, k1)] 7 (row points3) f X N) :
    0 ≤ form3 i0 j0 k0 i1 j1 k1 alpha beta dx A B0 B1 B2 X (cutTo [(i0, i1), (j0, j1), (k0, k1)] N) := by
  have t0 : ∀ i j k : Int, i0 ≤ i → i ≤ i1 + 1 → j0 ≤ j → j ≤ j1 → k0 ≤ k → k ≤ k1 → _ := fun i j k hi0 hi1 hj0 hj1 hk0 hk1 => face_pos (a := [i, j, k]) (b := [i - 1, j, k]) hN (fun x y => by have := hw _ x 1 (by decide) (by decide); rw [shift3_1] at this; exact this y) (fun x y => by have := hw _ x 2 (by decide) (by decide); rw [shift3_2, sub_add_cancel] at this; exact this y) (hf _ _) (hf _ _) (by
      by_cases hx : i ≤ i1
      · exact Or.inl (inBounds3.2 ⟨i, j, k, rfl, by omega⟩)
      · exact Or.inr (inBounds3.2 ⟨i - 1, j, k, rfl, by omega⟩))
  have n0 : ∀ i j k : Int, i0 ≤ i → i ≤ i1 + 1 → j0 ≤ j → j ≤ j1 → k0 ≤ k → k ≤ k1 → 0 ≤ B0 [i, j, k] * ((X [i, j, k] - X [i - 1, j, k]) * (cutTo [(i0, i1), (j0, j1), (k0, k1)] N [i, j, k] - cutTo [(i0, i1), (j0, j1), (k0, k1)] N [i - 1, j, k])) / (dx 0 * dx 0) := fun i j k hi0 hi1 hj0 hj1 hk0 hk1 => div_nonneg (mul_nonneg (he.face0 i j k hi0 hi1 hj0 hj1 hk0 hk1).le (t0 i j k hi0 hi1 hj0 hj1 hk0 hk1).1) (mul_self_nonneg _)
  have p0 : 0 ≤ (sum i0 (i1 + 1) fun i => sum j0 j1 fun j => sum k0 k1 fun k => B0 [i, j, k] * ((X [i, j, k] - X [i - 1, j, k]) * (cutTo [(i0, i1), (j0, j1), (k0, k1)] N [i, j, k] - cutTo [(i0, i1), (j0, j1), (k0, k1)] N [i - 1, j, k])) / (dx 0 * dx 0)) := sum_nonneg fun i hi0 hi1 => sum_nonneg fun j hj0 hj1 => sum_nonneg fun k hk0 hk1 => n0 i j k hi0 hi1 hj0 hj1 hk0 hk1
  have t1 : ∀ i j k : Int, i0 ≤ i → i ≤ i1 → j0 ≤ j → j ≤ j1 + 1 → k0 ≤ k → k ≤ k1 → _ := fun i j k hi0 hi1 hj0 hj1 hk0 hk1 => face_pos (a := [i, j, k]) (b := [i, j - 1, k]) hN (fun x y => by have := hw _ x 3 (by decide) (by decide); rw [shift3_3] at this; exact this y) (fun x y => by have := hw _ x 4 (by decide) (by decide); rw [shift3_4, sub_add_cancel] at this; exact this y) (hf _ _) (hf _ _) (by
      by_cases hx : j ≤ j1
      · exact Or.inl (inBounds3.2 ⟨i, j, k, rfl, by omega⟩)
      · exact Or.inr (inBounds3.2 ⟨i, j - 1, k, rfl, by omega⟩))
  have n1 : ∀ i j k : Int, i0 ≤ i → i ≤ i1 → j0 ≤ j → j ≤ j1 + 1 → k0 ≤ k → k ≤ k1 → 0 ≤ B1 [j, k, i] * ((X [i, j, k] - X [i, j - 1, k]) * (cutTo [(i0, i1), (j0, j1), (k0, k1)] N [i, j, k] - cutTo [(i0, i1), (j0, j1), (k0, k1)] N [i, j - 1, k])) / (dx 1 * dx 1) := fun i j k hi0 hi1 hj0 hj1 hk0 hk1 => div_nonneg (mul_nonneg (he.face1 i j k hi0 hi1 hj0 hj1 hk0 hk1).le (t1 i j k hi0 hi1 hj0 hj1 hk0 hk1).1) (mul_self_nonneg _)
  have p1 : 0 ≤ (sum i0 i1 fun i => sum j0 (j1 + 1) fun j => sum k0 k1 fun k => B1 [j, k, i] * ((X [i, j, k] - X [i, j - 1, k]) * (cutTo [(i0, i1), (j0, j1), (k0, k1)] N [i, j, k] - cutTo [(i0, i1), (j0, j1), (k0, k1)] N [i, j - 1, k])) / (dx 1 * dx 1)) := sum_nonneg fun i hi0 hi1 => sum_nonneg fun j hj0 hj1 => sum_nonneg fun k hk0 hk1 => n1 i j k hi0 hi1 hj0 hj1 hk0 hk1
  have t2 : ∀ i j k : Int, i0 ≤ i → i ≤ i1 → j0 ≤ j → j ≤ j1 → k0 ≤ k → k ≤ k1 + 1 → _ := fun i j k hi0 hi1 hj0 hj1 hk0 hk1 => face_pos (a := [i, j, k]) (b := [i, j, k - 1]) hN (fun x y => by have := hw _ x 5 (by decide) (by decide); rw [shift3_5] at this; exact this y) (fun x y => by have := hw _ x 6 (by decide) (by decide); rw [shift3_6, sub_add_cancel] at this; exact this y) (hf _ _) (hf _ _) (by
      by_cases hx : k ≤ k1
      · exact Or.inl (inBounds3.2 ⟨i, j, k, rfl, by omega⟩)
      · exact Or.inr (inBounds3.2 ⟨i, j, k - 1, rfl, by omega⟩))
  have n2 : ∀ i j k : Int, i0 ≤ i → i ≤ i1 → j0 ≤ j → j ≤ j1 → k0 ≤ k → k ≤ k1 + 1 → 0 ≤ B2 [k, i, j] * ((X [i, j, k] - X [i, j, k - 1]) * (cutTo [(i0, i1), (j0, j1), (k0, k1)] N [i, j, k] - cutTo [(i0, i1), (j0, j1), (k0, k1)] N [i, j, k - 1])) / (dx 2 * dx 2) := fun i j k hi0 hi1 hj0 hj1 hk0 hk1 => div_nonneg (mul_nonneg (he.face2 i j k hi0 hi1 hj0 hj1 hk0 hk1).le (t2 i j k hi0 hi1 hj0 hj1 hk0 hk1).1) (mul_self_nonneg _)
  have p2 : 0 ≤ (sum i0 i1 fun i => sum j0 j1 fun j => sum k0 (k1 + 1) fun k => B2 [k, i, j] * ((X [i, j, k] - X [i, j, k - 1]) * (cutTo [(i0, i1), (j0, j1), (k0, k1)] N [i, j, k] - cutTo [(i0, i1), (j0, j1), (k0, k1)] N [i, j, k - 1])) / (dx 2 * dx 2)) := sum_nonneg fun i hi0 hi1 => sum_nonneg fun j hj0 hj1 => sum_nonneg fun k hk0 hk1 => n2 i j k hi0 hi1 hj0 hj1 hk0 hk1
  have na : ∀ i j k : Int, i0 ≤ i → i ≤ i1 → j0 ≤ j → j ≤ j1 → k0 ≤ k → k ≤ k1 → 0 ≤ alpha * (A [i, j, k] * X [i, j, k] * cutTo [(i0, i1), (j0, j1), (k0, k1)] N [i, j, k]) := fun i j k hi0 hi1 hj0 hj1 hk0 hk1 => by
    have hp : InBounds [(i0, i1), (j0, j1), (k0, k1)] [i, j, k] := inBounds3.2 ⟨i, j, k, rfl, by omega⟩
    rw [cutTo_in hp]
    have h1 := mul_le_mul_of_nonneg_left (hN2 [i, j, k]) (he.cell i j k hi0 hi1 hj0 hj1 hk0 hk1)
    have h2 := mul_nonneg (he.cell i j k hi0 hi1 hj0 hj1 hk0 hk1) (mul_self_nonneg (N [i, j, k]))
    linarith
  have pa : 0 ≤ alpha * (sum i0 i1 fun i => sum j0 j1 fun j => sum k0 k1 fun k => A [i, j, k] * X [i, j, k] * cutTo [(i0, i1), (j0, j1), (k0, k1)] N [i, j, k]) := by
    simp only [mul_sum]
    exact sum_nonneg fun i hi0 hi1 => sum_nonneg fun j hj0 hj1 => sum_nonneg fun k hk0 hk1 => na i j k hi0 hi1 hj0 hj1 hk0 hk1
  unfold form3
  have := he.beta
  positivity

theorem Leaky.flat3 {i0 j0 k0 i1 j1 k1 : Int} {alpha beta : T} {dx : Nat → T} {A B0 B1 B2 X N : List Int → T} {f : List Int → Int → T} (hi : i0 ≤ i1) (hj : j0 ≤ j1) (hk : k0 ≤ k1) (he : Elliptic3 i0 j0 k0 i1 j1 k1 alpha beta dx A B0 B1 B2) (hf : ∀ c e, 0 ≤ f c e) (hN : ∀ p q, (N p - N q) * (N p - N q) ≤ (X p - X q) * (N p - N q)) (hN2 : ∀ p, N p * N p ≤ X p * N p)
    (hw : Leaky [(i0, i1), (j0, j1), (k0, k1)] 7 (row points3) f X N)
    (h0 : form3 i0 j0 k0 i1 j1 k1 alpha beta dx A B0 B1 B2 X (cutTo [(i0, i1), (j0, j1), (k0, k1)] N) ≤ 0) :
    (∀ p, InBounds [(i0, i1), (j0, j1), (k0, k1)] p → ∀ e, 1 ≤ e → e ≤ 7 - 1 → InBounds [(i0, i1), (j0, j1), (k0, k1)] (shift p (row points3 e)) → N (shift p (row points3 e)) = N p) ∧
    (∀ p, InBounds [(i0, i1), (j0, j1), (k0, k1)] p → ∀ e, 1 ≤ e → e ≤ 7 - 1 → ¬ InBounds [(i0, i1), (j0, j1), (k0, k1)] (shift p (row points3 e)) → f p e ≠ 0 → N p = 0) ∧
    ∀ p, InBounds [(i0, i1), (j0, j1), (k0, k1)] p → 0 < alpha * A p → N p = 0 := by
  have t0 : ∀ i j k : Int, i0 ≤ i → i ≤ i1 + 1 → j0 ≤ j → j ≤ j1 → k0 ≤ k → k ≤ k1 → _ := fun i j k hi0 hi1 hj0 hj1 hk0 hk1 => face_pos (a := [i, j, k]) (b := [i - 1, j, k]) hN (fun x y => by have := hw _ x 1 (by decide) (by decide); rw [shift3_1] at this; exact this y) (fun x y => by have := hw _ x 2 (by decide) (by decide); rw [shift3_2, sub_add_cancel] at this; exact this y) (hf _ _) (hf _ _) (by
      by_cases hx : i ≤ i1
      · exact Or.inl (inBounds3.2 ⟨i, j, k, rfl, by omega⟩)
      · exact Or.inr (inBounds3.2 ⟨i - 1, j, k, rfl, by omega⟩))
  have n0 : ∀ i j k : Int, i0 ≤ i → i ≤ i1 + 1 → j0 ≤ j → j ≤ j1 → k0 ≤ k → k ≤ k1 → 0 ≤ B0 [i, j, k] * ((X [i, j, k] - X [i - 1, j, k]) * (cutTo [(i0, i1), (j0, j1), (k0, k1)] N [i, j, k] - cutTo [(i0, i1), (j0, j1), (k0, k1)] N [i - 1, j, k])) / (dx 0 * dx 0) := fun i j k hi0 hi1 hj0 hj1 hk0 hk1 => div_nonneg (mul_nonneg (he.face0 i j k hi0 hi1 hj0 hj1 hk0 hk1).le (t0 i j k hi0 hi1 hj0 hj1 hk0 hk1).1) (mul_self_nonneg _)
  have p0 : 0 ≤ (sum i0 (i1 + 1) fun i => sum j0 j1 fun j => sum k0 k1 fun k => B0 [i, j, k] * ((X [i, j, k] - X [i - 1, j, k]) * (cutTo [(i0, i1), (j0, j1), (k0, k1)] N [i, j, k] - cutTo [(i0, i1), (j0, j1), (k0, k1)] N [i - 1, j, k])) / (dx 0 * dx 0)) := sum_nonneg fun i hi0 hi1 => sum_nonneg fun j hj0 hj1 => sum_nonneg fun k hk0 hk1 => n0 i j k hi0 hi1 hj0 hj1 hk0 hk1
  have t1 : ∀ i j k : Int, i0 ≤ i → i ≤ i1 → j0 ≤ j → j ≤ j1 + 1 → k0 ≤ k → k ≤ k1 → _ := fun i j k hi0 hi1 hj0 hj1 hk0 hk1 => face_pos (a := [i, j, k]) (b := [i, j - 1, k]) hN (fun x y => by have := hw _ x 3 (by decide) (by decide); rw [shift3_3] at this; exact this y) (fun x y => by have := hw _ x 4 (by decide) (by decide); rw [shift3_4, sub_add_cancel] at this; exact this y) (hf _ _) (hf _ _) (by
      by_cases hx : j ≤ j1
      · exact Or.inl (inBounds3.2 ⟨i, j, k, rfl, by omega⟩)
      · exact Or.inr (inBounds3.2 ⟨i, j - 1, k, rfl, by omega⟩))
  have n1 : ∀ i j k : Int, i0 ≤ i → i ≤ i1 → j0 ≤ j → j ≤ j1 + 1 → k0 ≤ k → k ≤ k1 → 0 ≤ B1 [j, k, i] * ((X [i, j, k] - X [i, j - 1, k]) * (cutTo [(i0, i1), (j0, j1), (k0, k1)] N [i, j, k] - cutTo [(i0, i1), (j0, j1), (k0, k1)] N [i, j - 1, k])) / (dx 1 * dx 1) := fun i j k hi0 hi1 hj0 hj1 hk0 hk1 => div_nonneg (mul_nonneg (he.face1 i j k hi0 hi1 hj0 hj1 hk0 hk1).le (t1 i j k hi0 hi1 hj0 hj1 hk0 hk1).1) (mul_self_nonneg _)
  have p1 : 0 ≤ (sum i0 i1 fun i => sum j0 (j1 + 1) fun j => sum k0 k1 fun k => B1 [j, k, i] * ((X [i, j, k] - X [i, j - 1, k]) * (cutTo [(i0, i1), (j0, j1), (k0, k1)] N [i, j, k] - cutTo [(i0, i1), (j0, j1), (k0, k1)] N [i, j - 1, k])) / (dx 1 * dx 1)) := sum_nonneg fun i hi0 hi1 => sum_nonneg fun j hj0 hj1 => sum_nonneg fun k hk0 hk1 => n1 i j k hi0 hi1 hj0 hj1 hk0 hk1
  have t2 : ∀ i j k : Int, i0 ≤ i → i ≤ i1 → j0 ≤ j → j ≤ j1 → k0 ≤ k → k ≤ k1 + 1 → _ := fun i j k hi0 hi1 hj0 hj1 hk0 hk1 => face_pos (a := [i, j, k]) (b := [i, j, k - 1]) hN (fun x y => by have := hw _ x 5 (by decide) (by decide); rw [shift3_5] at this; exact this y) (fun x y => by have := hw _ x 6 (by decide) (by decide); rw [shift3_6, sub_add_cancel] at this; exact this y) (hf _ _) (hf _ _) (by
      by_cases hx : k ≤ k1
      · exact Or.inl (inBounds3.2 ⟨i, j, k, rfl, by omega⟩)
      · exact Or.inr (inBounds3.2 ⟨i, j, k - 1, rfl, by omega⟩))
  have n2 : ∀ i j k : Int, i0 ≤ i → i ≤ i1 → j0 ≤ j → j ≤ j1 → k0 ≤ k → k ≤ k1 + 1 → 0 ≤ B2 [k, i, j] * ((X [i, j, k] - X [i, j, k - 1]) * (cutTo [(i0, i1), (j0, j1), (k0, k1)] N [i, j, k] - cutTo [(i0, i1), (j0, j1), (k0, k1)] N [i, j, k - 1])) / (dx 2 * dx 2) := fun i j k hi0 hi1 hj0 hj1 hk0 hk1 => div_nonneg (mul_nonneg (he.face2 i j k hi0 hi1 hj0 hj1 hk0 hk1).le (t2 i j k hi0 hi1 hj0 hj1 hk0 hk1).1) (mul_self_nonneg _)
  have p2 : 0 ≤ (sum i0 i1 fun i => sum j0 j1 fun j => sum k0 (k1 + 1) fun k => B2 [k, i, j] * ((X [i, j, k] - X [i, j, k - 1]) * (cutTo [(i0, i1), (j0, j1), (k0, k1)] N [i, j, k] - cutTo [(i0, i1), (j0, j1), (k0, k1)] N [i, j, k - 1])) / (dx 2 * dx 2)) := sum_nonneg fun i hi0 hi1 => sum_nonneg fun j hj0 hj1 => sum_nonneg fun k hk0 hk1 => n2 i j k hi0 hi1 hj0 hj1 hk0 hk1
  have na : ∀ i j k : Int, i0 ≤ i → i ≤ i1 → j0 ≤ j → j ≤ j1 → k0 ≤ k → k ≤ k1 → 0 ≤ alpha * (A [i, j, k] * X [i, j, k] * cutTo [(i0, i1), (j0, j1), (k0, k1)] N [i, j, k]) := fun i j k hi0 hi1 hj0 hj1 hk0 hk1 => by
    have hp : InBounds [(i0, i1), (j0, j1), (k0, k1)] [i, j, k] := inBounds3.2 ⟨i, j, k, rfl, by omega⟩
    rw [cutTo_in hp]
    have h1 := mul_le_mul_of_nonneg_left (hN2 [i, j, k]) (he.cell i j k hi0 hi1 hj0 hj1 hk0 hk1)
    have h2 := mul_nonneg (he.cell i j k hi0 hi1 hj0 hj1 hk0 hk1) (mul_self_nonneg (N [i, j, k]))
    linarith
  have pa : 0 ≤ alpha * (sum i0 i1 fun i => sum j0 j1 fun j => sum k0 k1 fun k => A [i, j, k] * X [i, j, k] * cutTo [(i0, i1), (j0, j1), (k0, k1)] N [i, j, k]) := by
    simp only [mul_sum]
    exact sum_nonneg fun i hi0 hi1 => sum_nonneg fun j hj0 hj1 => sum_nonneg fun k hk0 hk1 => na i j k hi0 hi1 hj0 hj1 hk0 hk1
  unfold form3 at h0
  have z0 : (sum i0 (i1 + 1) fun i => sum j0 j1 fun j => sum k0 k1 fun k => B0 [i, j, k] * ((X [i, j, k] - X [i - 1, j, k]) * (cutTo [(i0, i1), (j0, j1), (k0, k1)] N [i, j, k] - cutTo [(i0, i1), (j0, j1), (k0, k1)] N [i - 1, j, k])) / (dx 0 * dx 0)) ≤ 0 := by
    by_contra hc
    have : 0 < beta * ((sum i0 (i1 + 1) fun i => sum j0 j1 fun j => sum k0 k1 fun k => B0 [i, j, k] * ((X [i, j, k] - X [i - 1, j, k]) * (cutTo [(i0, i1), (j0, j1), (k0, k1)] N [i, j, k] - cutTo [(i0, i1), (j0, j1), (k0, k1)] N [i - 1, j, k])) / (dx 0 * dx 0)) + (sum i0 i1 fun i => sum j0 (j1 + 1) fun j => sum k0 k1 fun k => B1 [j, k, i] * ((X [i, j, k] - X [i, j - 1, k]) * (cutTo [(i0, i1), (j0, j1), (k0, k1)] N [i, j, k] - cutTo [(i0, i1), (j0, j1), (k0, k1)] N [i, j - 1, k])) / (dx 1 * dx 1)) + (sum i0 i1 fun i => sum j0 j1 fun j => sum k0 (k1 + 1) fun k => B2 [k, i, j] * ((X [i, j, k] - X [i, j, k - 1]) * (cutTo [(i0, i1), (j0, j1), (k0, k1)] N [i, j, k] - cutTo [(i0, i1), (j0, j1), (k0, k1)] N [i, j, k - 1])) / (dx 2 * dx 2))) := mul_pos he.beta (by linarith)
    linarith
  have z1 : (sum i0 i1 fun i => sum j0 (j1 + 1) fun j => sum k0 k1 fun k => B1 [j, k, i] * ((X [i, j, k] - X [i, j - 1, k]) * (cutTo [(i0, i1), (j0, j1), (k0, k1)] N [i, j, k] - cutTo [(i0, i1), (j0, j1), (k0, k1)] N [i, j - 1, k])) / (dx 1 * dx 1)) ≤ 0 := by
    by_contra hc
    have : 0 < beta * ((sum i0 (i1 + 1) fun i => sum j0 j1 fun j => sum k0 k1 fun k => B0 [i, j, k] * ((X [i, j, k] - X [i - 1, j, k]) * (cutTo [(i0, i1), (j0, j1), (k0, k1)] N [i, j, k] - cutTo [(i0, i1), (j0, j1), (k0, k1)] N [i - 1, j, k])) / (dx 0 * dx 0)) + (sum i0 i1 fun i => sum j0 (j1 + 1) fun j => sum k0 k1 fun k => B1 [j, k, i] * ((X [i, j, k] - X [i, j - 1, k]) * (cutTo [(i0, i1), (j0, j1), (k0, k1)] N [i, j, k] - cutTo [(i0, i1), (j0, j1), (k0, k1)] N [i, j - 1, k])) / (dx 1 * dx 1)) + (sum i0 i1 fun i => sum j0 j1 fun j => sum k0 (k1 + 1) fun k => B2 [k, i, j] * ((X [i, j, k] - X [i, j, k - 1]) * (cutTo [(i0, i1), (j0, j1), (k0, k1)] N [i, j, k] - cutTo [(i0, i1), (j0, j1), (k0, k1)] N [i, j, k - 1])) / (dx 2 * dx 2))) := mul_pos he.beta (by linarith)
    linarith
  have z2 : (sum i0 i1 fun i => sum j0 j1 fun j => sum k0 (k1 + 1) fun k => B2 [k, i, j] * ((X [i, j, k] - X [i, j, k - 1]) * (cutTo [(i0, i1), (j0, j1), (k0, k1)] N [i, j, k] - cutTo [(i0, i1), (j0, j1), (k0, k1)] N [i, j, k - 1])) / (dx 2 * dx 2)) ≤ 0 := by
    by_contra hc
    have : 0 < beta * ((sum i0 (i1 + 1) fun i => sum j0 j1 fun j => sum k0 k1 fun k => B0 [i, j, k] * ((X [i, j, k] - X [i - 1, j, k]) * (cutTo [(i0, i1), (j0, j1), (k0, k1)] N [i, j, k] - cutTo [(i0, i1), (j0, j1), (k0, k1)] N [i - 1, j, k])) / (dx 0 * dx 0)) + (sum i0 i1 fun i => sum j0 (j1 + 1) fun j => sum k0 k1 fun k => B1 [j, k, i] * ((X [i, j, k] - X [i, j - 1, k]) * (cutTo [(i0, i1), (j0, j1), (k0, k1)] N [i, j, k] - cutTo [(i0, i1), (j0, j1), (k0, k1)] N [i, j - 1, k])) / (dx 1 * dx 1)) + (sum i0 i1 fun i => sum j0 j1 fun j => sum k0 (k1 + 1) fun k => B2 [k, i, j] * ((X [i, j, k] - X [i, j, k - 1]) * (cutTo [(i0, i1), (j0, j1), (k0, k1)] N [i, j, k] - cutTo [(i0, i1), (j0, j1), (k0, k1)] N [i, j, k - 1])) / (dx 2 * dx 2))) := mul_pos he.beta (by linarith)
    linarith
  have za : alpha * (sum i0 i1 fun i => sum j0 j1 fun j => sum k0 k1 fun k => A [i, j, k] * X [i, j, k] * cutTo [(i0, i1), (j0, j1), (k0, k1)] N [i, j, k]) ≤ 0 := by
    have : 0 ≤ beta * ((sum i0 (i1 + 1) fun i => sum j0 j1 fun j => sum k0 k1 fun k => B0 [i, j, k] * ((X [i, j, k] - X [i - 1, j, k]) * (cutTo [(i0, i1), (j0, j1), (k0, k1)] N [i, j, k] - cutTo [(i0, i1), (j0, j1), (k0, k1)] N [i - 1, j, k])) / (dx 0 * dx 0)) + (sum i0 i1 fun i => sum j0 (j1 + 1) fun j => sum k0 k1 fun k => B1 [j, k, i] * ((X [i, j, k] - X [i, j - 1, k]) * (cutTo [(i0, i1), (j0, j1), (k0, k1)] N [i, j, k] - cutTo [(i0, i1), (j0, j1), (k0, k1)] N [i, j - 1, k])) / (dx 1 * dx 1)) + (sum i0 i1 fun i => sum j0 j1 fun j => sum k0 (k1 + 1) fun k => B2 [k, i, j] * ((X [i, j, k] - X [i, j, k - 1]) * (cutTo [(i0, i1), (j0, j1), (k0, k1)] N [i, j, k] - cutTo [(i0, i1), (j0, j1), (k0, k1)] N [i, j, k - 1])) / (dx 2 * dx 2))) := mul_nonneg he.beta.le (by linarith)
    linarith
  simp only [mul_sum] at za
  have v0 : ∀ i j k : Int, i0 ≤ i → i ≤ i1 + 1 → j0 ≤ j → j ≤ j1 → k0 ≤ k → k ≤ k1 → (X [i, j, k] - X [i - 1, j, k]) * (cutTo [(i0, i1), (j0, j1), (k0, k1)] N [i, j, k] - cutTo [(i0, i1), (j0, j1), (k0, k1)] N [i - 1, j, k]) = 0 := fun i j k hi0 hi1 hj0 hj1 hk0 hk1 => by
    have y0 := sum_pos_zero (fun i hi0 hi1 => sum_nonneg fun j hj0 hj1 => sum_nonneg fun k hk0 hk1 => n0 i j k hi0 hi1 hj0 hj1 hk0 hk1) z0 (i := i) hi0 hi1
    have y1 := sum_pos_zero (fun j hj0 hj1 => sum_nonneg fun k hk0 hk1 => n0 i j k hi0 hi1 hj0 hj1 hk0 hk1) y0.le (i := j) hj0 hj1
    have y2 := sum_pos_zero (fun k hk0 hk1 =>  n0 i j k hi0 hi1 hj0 hj1 hk0 hk1) y1.le (i := k) hk0 hk1
    rcases div_eq_zero_iff.1 y2 with t | t
    · exact (mul_eq_zero.1 t).resolve_left (he.face0 i j k hi0 hi1 hj0 hj1 hk0 hk1).ne'
    · exact absurd (mul_self_eq_zero.1 t) he.dx0
  have v1 : ∀ i j k : Int, i0 ≤ i → i ≤ i1 → j0 ≤ j → j ≤ j1 + 1 → k0 ≤ k → k ≤ k1 → (X [i, j, k] - X [i, j - 1, k]) * (cutTo [(i0, i1), (j0, j1), (k0, k1)] N [i, j, k] - cutTo [(i0, i1), (j0, j1), (k0, k1)] N [i, j - 1, k]) = 0 := fun i j k hi0 hi1 hj0 hj1 hk0 hk1 => by
    have y0 := sum_pos_zero (fun i hi0 hi1 => sum_nonneg fun j hj0 hj1 => sum_nonneg fun k hk0 hk1 => n1 i j k hi0 hi1 hj0 hj1 hk0 hk1) z1 (i := i) hi0 hi1
    have y1 := sum_pos_zero (fun j hj0 hj1 => sum_nonneg fun k hk0 hk1 => n1 i j k hi0 hi1 hj0 hj1 hk0 hk1) y0.le (i := j) hj0 hj1
    have y2 := sum_pos_zero (fun k hk0 hk1 =>  n1 i j k hi0 hi1 hj0 hj1 hk0 hk1) y1.le (i := k) hk0 hk1
    rcases div_eq_zero_iff.1 y2 with t | t
    · exact (mul_eq_zero.1 t).resolve_left (he.face1 i j k hi0 hi1 hj0 hj1 hk0 hk1).ne'
    · exact absurd (mul_self_eq_zero.1 t) he.dx1
  have v2 : ∀ i j k : Int, i0 ≤ i → i ≤ i1 → j0 ≤ j → j ≤ j1 → k0 ≤ k → k ≤ k1 + 1 → (X [i, j, k] - X [i, j, k - 1]) * (cutTo [(i0, i1), (j0, j1), (k0, k1)] N [i, j, k] - cutTo [(i0, i1), (j0, j1), (k0, k1)] N [i, j, k - 1]) = 0 := fun i j k hi0 hi1 hj0 hj1 hk0 hk1 => by
    have y0 := sum_pos_zero (fun i hi0 hi1 => sum_nonneg fun j hj0 hj1 => sum_nonneg fun k hk0 hk1 => n2 i j k hi0 hi1 hj0 hj1 hk0 hk1) z2 (i := i) hi0 hi1
    have y1 := sum_pos_zero (fun j hj0 hj1 => sum_nonneg fun k hk0 hk1 => n2 i j k hi0 hi1 hj0 hj1 hk0 hk1) y0.le (i := j) hj0 hj1
    have y2 := sum_pos_zero (fun k hk0 hk1 =>  n2 i j k hi0 hi1 hj0 hj1 hk0 hk1) y1.le (i := k) hk0 hk1
    rcases div_eq_zero_iff.1 y2 with t | t
    · exact (mul_eq_zero.1 t).resolve_left (he.face2 i j k hi0 hi1 hj0 hj1 hk0 hk1).ne'
    · exact absurd (mul_self_eq_zero.1 t) he.dx2
  have va : ∀ i j k : Int, i0 ≤ i → i ≤ i1 → j0 ≤ j → j ≤ j1 → k0 ≤ k → k ≤ k1 → alpha * (A [i, j, k] * X [i, j, k] * cutTo [(i0, i1), (j0, j1), (k0, k1)] N [i, j, k]) = 0 := fun i j k hi0 hi1 hj0 hj1 hk0 hk1 => by
    have y0 := sum_pos_zero (fun i hi0 hi1 => sum_nonneg fun j hj0 hj1 => sum_nonneg fun k hk0 hk1 => na i j k hi0 hi1 hj0 hj1 hk0 hk1) za (i := i) hi0 hi1
    have y1 := sum_pos_zero (fun j hj0 hj1 => sum_nonneg fun k hk0 hk1 => na i j k hi0 hi1 hj0 hj1 hk0 hk1) y0.le (i := j) hj0 hj1
    have y2 := sum_pos_zero (fun k hk0 hk1 =>  na i j k hi0 hi1 hj0 hj1 hk0 hk1) y1.le (i := k) hk0 hk1
    exact y2
  refine ⟨fun p hp e e0 e1 ho => ?_, fun p hp e e0 e1 ho hne => ?_, fun p hp hpos => ?_⟩
  · obtain ⟨i, j, k, rfl, hb⟩ := inBounds3.1 hp
    obtain rfl | rfl | rfl | rfl | rfl | rfl : e = 1 ∨ e = 2 ∨ e = 3 ∨ e = 4 ∨ e = 5 ∨ e = 6 := by omega
    · rw [shift3_1] at ho ⊢
      exact ((((t0 i j k (by omega) (by omega) (by omega) (by omega) (by omega) (by omega)).2 (v0 i j k (by omega) (by omega) (by omega) (by omega) (by omega) (by omega))).1 hp ho)).symm
    · rw [shift3_2] at ho ⊢
      have r := (t0 (i + 1) j k (by omega) (by omega) (by omega) (by omega) (by omega) (by omega)).2 (v0 (i + 1) j k (by omega) (by omega) (by omega) (by omega) (by omega) (by omega))
      rw [add_sub_cancel_right] at r
      exact r.1 ho hp
    · rw [shift3_3] at ho ⊢
      exact ((((t1 i j k (by omega) (by omega) (by omega) (by omega) (by omega) (by omega)).2 (v1 i j k (by omega) (by omega) (by omega) (by omega) (by omega) (by omega))).1 hp ho)).symm
    · rw [shift3_4] at ho ⊢
      have r := (t1 i (j + 1) k (by omega) (by omega) (by omega) (by omega) (by omega) (by omega)).2 (v1 i (j + 1) k (by omega) (by omega) (by omega) (by omega) (by omega) (by omega))
      rw [add_sub_cancel_right] at r
      exact r.1 ho hp
    · rw [shift3_5] at ho ⊢
      exact ((((t2 i j k (by omega) (by omega) (by omega) (by omega) (by omega) (by omega)).2 (v2 i j k (by omega) (by omega) (by omega) (by omega) (by omega) (by omega))).1 hp ho)).symm
    · rw [shift3_6] at ho ⊢
      have r := (t2 i j (k + 1) (by omega) (by omega) (by omega) (by omega) (by omega) (by omega)).2 (v2 i j (k + 1) (by omega) (by omega) (by omega) (by omega) (by omega) (by omega))
      rw [add_sub_cancel_right] at r
      exact r.1 ho hp
  · obtain ⟨i, j, k, rfl, hb⟩ := inBounds3.1 hp
    obtain rfl | rfl | rfl | rfl | rfl | rfl : e = 1 ∨ e = 2 ∨ e = 3 ∨ e = 4 ∨ e = 5 ∨ e = 6 := by omega
    · rw [shift3_1] at ho
      exact (((t0 i j k (by omega) (by omega) (by omega) (by omega) (by omega) (by omega)).2 (v0 i j k (by omega) (by omega) (by omega) (by omega) (by omega) (by omega))).2.1 hp ho) hne
    · rw [shift3_2] at ho
      have r := (t0 (i + 1) j k (by omega) (by omega) (by omega) (by omega) (by omega) (by omega)).2 (v0 (i + 1) j k (by omega) (by omega) (by omega) (by omega) (by omega) (by omega))
      rw [add_sub_cancel_right] at r
      exact r.2.2 hp ho hne
    · rw [shift3_3] at ho
      exact (((t1 i j k (by omega) (by omega) (by omega) (by omega) (by omega) (by omega)).2 (v1 i j k (by omega) (by omega) (by omega) (by omega) (by omega) (by omega))).2.1 hp ho) hne
    · rw [shift3_4] at ho
      have r := (t1 i (j + 1) k (by omega) (by omega) (by omega) (by omega) (by omega) (by omega)).2 (v1 i (j + 1) k (by omega) (by omega) (by omega) (by omega) (by omega) (by omega))
      rw [add_sub_cancel_right] at r
      exact r.2.2 hp ho hne
    · rw [shift3_5] at ho
      exact (((t2 i j k (by omega) (by omega) (by omega) (by omega) (by omega) (by omega)).2 (v2 i j k (by omega) (by omega) (by omega) (by omega) (by omega) (by omega))).2.1 hp ho) hne
    · rw [shift3_6] at ho
      have r := (t2 i j (k + 1) (by omega) (by omega) (by omega) (by omega) (by omega) (by omega)).2 (v2 i j (k + 1) (by omega) (by omega) (by omega) (by omega) (by omega) (by omega))
      rw [add_sub_cancel_right] at r
      exact r.2.2 hp ho hne
  · obtain ⟨i, j, k, rfl, hb⟩ := inBounds3.1 hp
    have r := va i j k (by omega) (by omega) (by omega) (by omega) (by omega) (by omega)
    rw [cutTo_in hp] at r
    have h1 := mul_le_mul_of_nonneg_left (hN2 [i, j, k]) hpos.le
    have h2 : alpha * A [i, j, k] * (N [i, j, k] * N [i, j, k]) ≤ 0 := by linarith
    have h3 := mul_nonneg hpos.le (mul_self_nonneg (N [i, j, k]))
    exact mul_self_eq_zero.1 ((mul_eq_zero.1 (le_antisymm h2 h3)).resolve_left hpos.ne')

theorem Leaky.zero3 {i0 j0 k0 i1 j1 k1 : Int} {alpha beta : T} {dx : Nat → T} {A B0 B1 B2 X N : List Int → T} {f : List Int → Int → T} {ps : List (Piece T)} (hi : i0 ≤ i1) (hj : j0 ≤ j1) (hk : k0 ≤ k1) (he : Elliptic3 i0 j0 k0 i1 j1 k1 alpha beta dx A B0 B1 B2) (hf : ∀ c e, 0 ≤ f c e) (hN : ∀ p q, (N p - N q) * (N p - N q) ≤ (X p - X q) * (N p - N q)) (hN2 : ∀ p, N p * N p ≤ X p * N p)
    (hw : Leaky [(i0, i1), (j0, j1), (k0, k1)] 7 (row points3) f X N)
    (ht : Tied [(i0, i1), (j0, j1), (k0, k1)] 7 (row points3) ps (fun c => alpha * A c)) (hfp : ∀ c e, (∀ q ∈ ps, q.cells c → q.ghost = e → q.btype ≠ 1) → f c e ≠ 0)
    (h0 : form3 i0 j0 k0 i1 j1 k1 alpha beta dx A B0 B1 B2 X (cutTo [(i0, i1), (j0, j1), (k0, k1)] N) ≤ 0) : ∀ p, InBounds [(i0, i1), (j0, j1), (k0, k1)] p → N p = 0 := by
  obtain ⟨s1, s2, s3⟩ := hw.flat3 hi hj hk he hf hN hN2 h0
  obtain ⟨c, hc, htc⟩ := ht
  intro p hp
  refine conn3 (fun q => N q = 0) (fun q hq hz e e0 e1 hi => (s1 q hq e e0 e1 hi).trans hz) c p hc hp ?_
  rcases htc with h | ⟨e, e0, e1, ho, hq⟩
  · exact s3 c hc h
  · exact s2 c hc e e0 e1 ho (hfp c e hq)

end F

end Verif
