import Verif.Lemmas.BlockSmooth
import Verif.Lemmas.SmoothEx

/-
C66: the block smoothers of m4/cellblocksmooth1d.m4 and m4/cellblocksmooth2d.m4.
-/

set_option linter.unusedVariables false

namespace Verif

/-- data for the examples: the blocks have determinants different from 0 -/
theorem ex_det1 : ∀ p, F.InBounds [(1, 5)] p →
    exC (F.sm1d ⟨1, 0⟩ 4 1 5) (0 :: p) * exC (F.sm1d ⟨1, 0⟩ 4 1 5) (3 :: p) - exC (F.sm1d ⟨1, 0⟩ 4 1 5) (1 :: p) * exC (F.sm1d ⟨1, 0⟩ 4 1 5) (2 :: p) ≠ 0 := fun p hp => by
  rw [F.inBounds1] at hp
  obtain ⟨i, rfl, h1, h2⟩ := hp
  interval_cases i <;> decide +kernel

theorem ex_det2 : ∀ p, F.InBounds [(1, 3), (2, 4)] p →
    exC (F.sm2d ⟨1, 0⟩ 4 1 2 3 4) (0 :: p) * exC (F.sm2d ⟨1, 0⟩ 4 1 2 3 4) (3 :: p) - exC (F.sm2d ⟨1, 0⟩ 4 1 2 3 4) (1 :: p) * exC (F.sm2d ⟨1, 0⟩ 4 1 2 3 4) (2 :: p) ≠ 0 := fun p hp => by
  rw [F.inBounds2] at hp
  obtain ⟨i, j, rfl, ⟨h1, h2⟩, h3, h4⟩ := hp
  interval_cases i <;> interval_cases j <;> decide +kernel

/-- One unknown per cell, one dimension: every cell of the box gets its old value plus the factor times residual over coefficient; nothing else changes.
For every arithmetic. -/
theorem C66_1x1_1d {T : Type} [NatCast T] [Add T] [Sub T] [Mul T] [Div T] [Neg T] {lo0 hi0 fgcw ugcw : Int} {a f u : Ptr} {A B U : List Int → T} {m : Mem T}
    (hf : 0 ≤ fgcw) (hu : 0 ≤ ugcw) (hA : F.Holds m (F.cell1d a lo0 hi0 0) A) (hB : F.Holds m (F.cell1d f lo0 hi0 fgcw) B) (hU : F.Holds m (F.cell1d u lo0 hi0 ugcw) U)
    (ua : F.Apart (F.cell1d u lo0 hi0 ugcw) (F.cell1d a lo0 hi0 0)) (uf : F.Apart (F.cell1d u lo0 hi0 ugcw) (F.cell1d f lo0 hi0 fgcw)) :
    ∃ m' U', F.cellblock1x1jacobi1d lo0 hi0 a fgcw f ugcw u m = .ok m' ∧ F.Holds m' (F.cell1d u lo0 hi0 ugcw) U' ∧ F.Only [(F.cell1d u lo0 hi0 ugcw)] m m' ∧
      (∀ p, ¬ F.InBounds [(lo0, hi0)] p → U' p = U p) ∧ ∀ p, F.InBounds [(lo0, hi0)] p → U' p = U p + ((2 : Nat) / (3 : Nat) : T) * B p / A p := by
  obtain ⟨m', U', g1, g2⟩ := F.block1 (w := ((2 : Nat) / (3 : Nat) : T)) (box := [(lo0, hi0)]) (l := F.pts1 (F.irange lo0 hi0)) (F.pts1_before F.irange_lt) (fun p => F.all1) (fun p hp => by
      rw [F.inBounds1] at hp
      obtain ⟨i, rfl, h1, h2⟩ := hp
      simp only [F.cell1d, F.sm1d, F.InBounds, and_true]
      omega)
    (fun p hp => by
      rw [F.inBounds1] at hp
      obtain ⟨i, rfl, h1, h2⟩ := hp
      simp only [F.cell1d, F.sm1d, F.InBounds, and_true]
      omega)
    (fun p hp => by
      rw [F.inBounds1] at hp
      obtain ⟨i, rfl, h1, h2⟩ := hp
      simp only [F.cell1d, F.sm1d, F.InBounds, and_true]
      omega) hA hB hU ua uf
  refine ⟨m', U', ?_, g2⟩
  rw [← g1]
  exact F.run1 (fun _ _ => rfl)

example := C66_1x1_1d (by decide) (by decide) (ex_holds (F.cell1d ⟨1, 0⟩ 1 5 0)) (ex_holds (F.cell1d ⟨2, 0⟩ 1 5 1)) (ex_holds (F.cell1d ⟨3, 0⟩ 1 5 2)) (ex_apart (by decide)) (ex_apart (by decide))

/-- If the residuals are those of a field `X`, the error at every cell of the box is multiplied by one less the factor. -/
theorem C66_1x1_error_1d {T : Type} [Field T] {lo0 hi0 fgcw ugcw : Int} {a f u : Ptr} {A B U X : List Int → T} {m : Mem T}
    (hf : 0 ≤ fgcw) (hu : 0 ≤ ugcw) (hA : F.Holds m (F.cell1d a lo0 hi0 0) A) (hB : F.Holds m (F.cell1d f lo0 hi0 fgcw) B) (hU : F.Holds m (F.cell1d u lo0 hi0 ugcw) U)
    (ua : F.Apart (F.cell1d u lo0 hi0 ugcw) (F.cell1d a lo0 hi0 0)) (uf : F.Apart (F.cell1d u lo0 hi0 ugcw) (F.cell1d f lo0 hi0 fgcw))
    (h0 : ∀ p, F.InBounds [(lo0, hi0)] p → A p ≠ 0) (hX : ∀ p, F.InBounds [(lo0, hi0)] p → B p = A p * (X p - U p)) :
    ∃ m' U', F.cellblock1x1jacobi1d lo0 hi0 a fgcw f ugcw u m = .ok m' ∧ F.Holds m' (F.cell1d u lo0 hi0 ugcw) U' ∧ F.Only [(F.cell1d u lo0 hi0 ugcw)] m m' ∧
      (∀ p, ¬ F.InBounds [(lo0, hi0)] p → U' p = U p) ∧ ∀ p, F.InBounds [(lo0, hi0)] p → X p - U' p = (1 - 2 / 3) * (X p - U p) := by
  obtain ⟨m', U', g1, g2, g3, g4, g5⟩ := C66_1x1_1d hf hu hA hB hU ua uf
  refine ⟨m', U', g1, g2, g3, g4, fun p hp => ?_⟩
  have h1 := h0 p hp
  rw [g5 p hp, hX p hp]
  push_cast
  rw [show ∀ w : T, w * (A p * (X p - U p)) / A p = w * (X p - U p) from fun w => by field_simp]
  ring

example := C66_1x1_error_1d (T := Rat) (X := fun p => exC (F.cell1d ⟨3, 0⟩ 1 5 2) p + exC (F.cell1d ⟨2, 0⟩ 1 5 1) p / exC (F.cell1d ⟨1, 0⟩ 1 5 0) p)
  (by decide) (by decide) (ex_holds (F.cell1d ⟨1, 0⟩ 1 5 0)) (ex_holds (F.cell1d ⟨2, 0⟩ 1 5 1)) (ex_holds (F.cell1d ⟨3, 0⟩ 1 5 2)) (ex_apart (by decide)) (ex_apart (by decide)) (fun p _ => exC_pos (by decide)) (fun p _ => by
    have := exC_pos (a := F.cell1d ⟨1, 0⟩ 1 5 0) (is := p) (by decide)
    field_simp
    ring)

/-- Two unknowns per cell, one dimension, any arithmetic: the values computed. -/
theorem C66_2x2_value_1d {T : Type} [NatCast T] [Add T] [Sub T] [Mul T] [Div T] [Neg T] {lo0 hi0 fgcw ugcw : Int} {a f0 f1 u0 u1 : Ptr} {A B0 B1 U0 U1 : List Int → T} {m : Mem T}
    (hf : 0 ≤ fgcw) (hu : 0 ≤ ugcw) (hA : F.Holds m (F.sm1d a 4 lo0 hi0) A) (hB0 : F.Holds m (F.cell1d f0 lo0 hi0 fgcw) B0) (hB1 : F.Holds m (F.cell1d f1 lo0 hi0 fgcw) B1)
    (hU0 : F.Holds m (F.cell1d u0 lo0 hi0 ugcw) U0) (hU1 : F.Holds m (F.cell1d u1 lo0 hi0 ugcw) U1)
    (ap : ∀ x ∈ [(F.cell1d u0 lo0 hi0 ugcw), (F.cell1d u1 lo0 hi0 ugcw)], ∀ y ∈ [(F.sm1d a 4 lo0 hi0), (F.cell1d f0 lo0 hi0 fgcw), (F.cell1d f1 lo0 hi0 fgcw)], F.Apart x y) (uv : F.Apart (F.cell1d u0 lo0 hi0 ugcw) (F.cell1d u1 lo0 hi0 ugcw)) :
    ∃ m' V0 V1, F.cellblock2x2jacobi1d lo0 hi0 a fgcw f0 f1 ugcw u0 u1 m = .ok m' ∧ F.Holds m' (F.cell1d u0 lo0 hi0 ugcw) V0 ∧ F.Holds m' (F.cell1d u1 lo0 hi0 ugcw) V1 ∧
      F.Only [(F.cell1d u0 lo0 hi0 ugcw), (F.cell1d u1 lo0 hi0 ugcw)] m m' ∧ (∀ p, ¬ F.InBounds [(lo0, hi0)] p → V0 p = U0 p ∧ V1 p = U1 p) ∧
      ∀ p, F.InBounds [(lo0, hi0)] p →
        V0 p = U0 p + ((2 : Nat) / (3 : Nat) : T) * (A (3 :: p) * B0 p - A (1 :: p) * B1 p) / (A (0 :: p) * A (3 :: p) - A (1 :: p) * A (2 :: p)) ∧
        V1 p = U1 p + ((2 : Nat) / (3 : Nat) : T) * (A (0 :: p) * B1 p - A (2 :: p) * B0 p) / (A (0 :: p) * A (3 :: p) - A (1 :: p) * A (2 :: p)) := by
  obtain ⟨m', V0, V1, g1, g2⟩ := F.block2x2 (w := ((2 : Nat) / (3 : Nat) : T)) (box := [(lo0, hi0)]) (l := F.pts1 (F.irange lo0 hi0)) (F.pts1_before F.irange_lt) (fun p => F.all1) (fun p hp s h0 h5 => by
      rw [F.inBounds1] at hp
      obtain ⟨i, rfl, h1, h2⟩ := hp
      simp only [F.cell1d, F.sm1d, F.InBounds, and_true]
      omega)
    (fun p hp => by
      rw [F.inBounds1] at hp
      obtain ⟨i, rfl, h1, h2⟩ := hp
      simp only [F.cell1d, F.sm1d, F.InBounds, and_true]
      omega)
    (fun p hp => by
      rw [F.inBounds1] at hp
      obtain ⟨i, rfl, h1, h2⟩ := hp
      simp only [F.cell1d, F.sm1d, F.InBounds, and_true]
      omega)
    (fun p hp => by
      rw [F.inBounds1] at hp
      obtain ⟨i, rfl, h1, h2⟩ := hp
      simp only [F.cell1d, F.sm1d, F.InBounds, and_true]
      omega)
    (fun p hp => by
      rw [F.inBounds1] at hp
      obtain ⟨i, rfl, h1, h2⟩ := hp
      simp only [F.cell1d, F.sm1d, F.InBounds, and_true]
      omega) hA hB0 hB1 hU0 hU1 (ap _ (by simp) _ (by simp)) (ap _ (by simp) _ (by simp)) (ap _ (by simp) _ (by simp)) (ap _ (by simp) _ (by simp))
    (ap _ (by simp) _ (by simp)) (ap _ (by simp) _ (by simp)) uv
  refine ⟨m', V0, V1, ?_, g2⟩
  rw [← g1]
  exact F.run1 (fun _ _ => rfl)

example := C66_2x2_value_1d (by decide) (by decide) (ex_holds (F.sm1d ⟨1, 0⟩ 4 1 5)) (ex_holds (F.cell1d ⟨2, 0⟩ 1 5 1)) (ex_holds (F.cell1d ⟨5, 0⟩ 1 5 1))
  (ex_holds (F.cell1d ⟨3, 0⟩ 1 5 2)) (ex_holds (F.cell1d ⟨4, 0⟩ 1 5 2)) (fun x hx y hy => ex_apart (by revert x y; decide)) (ex_apart (by decide))

/-- Two unknowns per cell, one dimension: in every cell of the box with a regular block the changes solve the block equations with the factor times the
residuals as right hand side; nothing else changes. -/
theorem C66_2x2_1d {T : Type} [Field T] {lo0 hi0 fgcw ugcw : Int} {a f0 f1 u0 u1 : Ptr} {A B0 B1 U0 U1 : List Int → T} {m : Mem T}
    (hf : 0 ≤ fgcw) (hu : 0 ≤ ugcw) (hA : F.Holds m (F.sm1d a 4 lo0 hi0) A) (hB0 : F.Holds m (F.cell1d f0 lo0 hi0 fgcw) B0) (hB1 : F.Holds m (F.cell1d f1 lo0 hi0 fgcw) B1)
    (hU0 : F.Holds m (F.cell1d u0 lo0 hi0 ugcw) U0) (hU1 : F.Holds m (F.cell1d u1 lo0 hi0 ugcw) U1)
    (ap : ∀ x ∈ [(F.cell1d u0 lo0 hi0 ugcw), (F.cell1d u1 lo0 hi0 ugcw)], ∀ y ∈ [(F.sm1d a 4 lo0 hi0), (F.cell1d f0 lo0 hi0 fgcw), (F.cell1d f1 lo0 hi0 fgcw)], F.Apart x y) (uv : F.Apart (F.cell1d u0 lo0 hi0 ugcw) (F.cell1d u1 lo0 hi0 ugcw)) :
    ∃ m' V0 V1, F.cellblock2x2jacobi1d lo0 hi0 a fgcw f0 f1 ugcw u0 u1 m = .ok m' ∧ F.Holds m' (F.cell1d u0 lo0 hi0 ugcw) V0 ∧ F.Holds m' (F.cell1d u1 lo0 hi0 ugcw) V1 ∧
      F.Only [(F.cell1d u0 lo0 hi0 ugcw), (F.cell1d u1 lo0 hi0 ugcw)] m m' ∧ (∀ p, ¬ F.InBounds [(lo0, hi0)] p → V0 p = U0 p ∧ V1 p = U1 p) ∧
      ∀ p, F.InBounds [(lo0, hi0)] p → (A (0 :: p) * A (3 :: p) - A (1 :: p) * A (2 :: p)) ≠ 0 →
        A (0 :: p) * (V0 p - U0 p) + A (1 :: p) * (V1 p - U1 p) = ((2 : Nat) / (3 : Nat) : T) * B0 p ∧
        A (2 :: p) * (V0 p - U0 p) + A (3 :: p) * (V1 p - U1 p) = ((2 : Nat) / (3 : Nat) : T) * B1 p := by
  obtain ⟨m', V0, V1, g1, g2, g3, g4, g5, g6⟩ := C66_2x2_value_1d hf hu hA hB0 hB1 hU0 hU1 ap uv
  refine ⟨m', V0, V1, g1, g2, g3, g4, g5, fun p hp hd => ?_⟩
  obtain ⟨e0, e1⟩ := g6 p hp
  rw [e0, e1]
  generalize ((2 : Nat) / (3 : Nat) : T) = w
  generalize A (0 :: p) = a0 at *
  generalize A (1 :: p) = a1 at *
  generalize A (2 :: p) = a2 at *
  generalize A (3 :: p) = a3 at *
  constructor
  · rw [add_sub_cancel_left, add_sub_cancel_left, mul_div_assoc', mul_div_assoc', ← add_div, div_eq_iff hd]
    ring
  · rw [add_sub_cancel_left, add_sub_cancel_left, mul_div_assoc', mul_div_assoc', ← add_div, div_eq_iff hd]
    ring

example := C66_2x2_1d (T := Rat) (by decide) (by decide) (ex_holds (F.sm1d ⟨1, 0⟩ 4 1 5)) (ex_holds (F.cell1d ⟨2, 0⟩ 1 5 1)) (ex_holds (F.cell1d ⟨5, 0⟩ 1 5 1))
  (ex_holds (F.cell1d ⟨3, 0⟩ 1 5 2)) (ex_holds (F.cell1d ⟨4, 0⟩ 1 5 2)) (fun x hx y hy => ex_apart (by revert x y; decide)) (ex_apart (by decide))

/-- If the residuals are those of the fields `X0`, `X1`, both errors at every cell of the box with a regular block are multiplied by one less the
factor. -/
theorem C66_2x2_error_1d {T : Type} [Field T] {lo0 hi0 fgcw ugcw : Int} {a f0 f1 u0 u1 : Ptr} {A B0 B1 U0 U1 X0 X1 : List Int → T} {m : Mem T}
    (hf : 0 ≤ fgcw) (hu : 0 ≤ ugcw) (hA : F.Holds m (F.sm1d a 4 lo0 hi0) A) (hB0 : F.Holds m (F.cell1d f0 lo0 hi0 fgcw) B0) (hB1 : F.Holds m (F.cell1d f1 lo0 hi0 fgcw) B1)
    (hU0 : F.Holds m (F.cell1d u0 lo0 hi0 ugcw) U0) (hU1 : F.Holds m (F.cell1d u1 lo0 hi0 ugcw) U1)
    (ap : ∀ x ∈ [(F.cell1d u0 lo0 hi0 ugcw), (F.cell1d u1 lo0 hi0 ugcw)], ∀ y ∈ [(F.sm1d a 4 lo0 hi0), (F.cell1d f0 lo0 hi0 fgcw), (F.cell1d f1 lo0 hi0 fgcw)], F.Apart x y) (uv : F.Apart (F.cell1d u0 lo0 hi0 ugcw) (F.cell1d u1 lo0 hi0 ugcw))
    (hd : ∀ p, F.InBounds [(lo0, hi0)] p → (A (0 :: p) * A (3 :: p) - A (1 :: p) * A (2 :: p)) ≠ 0)
    (hX0 : ∀ p, F.InBounds [(lo0, hi0)] p → B0 p = A (0 :: p) * (X0 p - U0 p) + A (1 :: p) * (X1 p - U1 p))
    (hX1 : ∀ p, F.InBounds [(lo0, hi0)] p → B1 p = A (2 :: p) * (X0 p - U0 p) + A (3 :: p) * (X1 p - U1 p)) :
    ∃ m' V0 V1, F.cellblock2x2jacobi1d lo0 hi0 a fgcw f0 f1 ugcw u0 u1 m = .ok m' ∧ F.Holds m' (F.cell1d u0 lo0 hi0 ugcw) V0 ∧ F.Holds m' (F.cell1d u1 lo0 hi0 ugcw) V1 ∧
      F.Only [(F.cell1d u0 lo0 hi0 ugcw), (F.cell1d u1 lo0 hi0 ugcw)] m m' ∧ (∀ p, ¬ F.InBounds [(lo0, hi0)] p → V0 p = U0 p ∧ V1 p = U1 p) ∧
      ∀ p, F.InBounds [(lo0, hi0)] p → X0 p - V0 p = (1 - 2 / 3) * (X0 p - U0 p) ∧ X1 p - V1 p = (1 - 2 / 3) * (X1 p - U1 p) := by
  obtain ⟨m', V0, V1, g1, g2, g3, g4, g5, g6⟩ := C66_2x2_value_1d hf hu hA hB0 hB1 hU0 hU1 ap uv
  refine ⟨m', V0, V1, g1, g2, g3, g4, g5, fun p hp => ?_⟩
  obtain ⟨e0, e1⟩ := g6 p hp
  have h := hd p hp
  rw [e0, e1, hX0 p hp, hX1 p hp]
  push_cast
  rw [show ∀ w : T, w * (A (3 :: p) * (A (0 :: p) * (X0 p - U0 p) + A (1 :: p) * (X1 p - U1 p)) - A (1 :: p) * (A (2 :: p) * (X0 p - U0 p) + A (3 :: p) * (X1 p - U1 p))) / (A (0 :: p) * A (3 :: p) - A (1 :: p) * A (2 :: p)) =
      w * (X0 p - U0 p) from fun w => by rw [div_eq_iff h]; ring,
    show ∀ w : T, w * (A (0 :: p) * (A (2 :: p) * (X0 p - U0 p) + A (3 :: p) * (X1 p - U1 p)) - A (2 :: p) * (A (0 :: p) * (X0 p - U0 p) + A (1 :: p) * (X1 p - U1 p))) / (A (0 :: p) * A (3 :: p) - A (1 :: p) * A (2 :: p)) =
      w * (X1 p - U1 p) from fun w => by rw [div_eq_iff h]; ring]
  constructor <;> ring

/-- fields for the example -/
def exX1 (a b c e : Int) (p : List Int) : Rat :=
  let A := exC (F.sm1d ⟨1, 0⟩ 4 1 5)
  exC (F.cell1d ⟨(e : Int).toNat, 0⟩ 1 5 2) p + (A (a :: p) * exC (F.cell1d ⟨b.toNat, 0⟩ 1 5 1) p - A (c :: p) * exC (F.cell1d ⟨(7 - b).toNat, 0⟩ 1 5 1) p) /
    (A (0 :: p) * A (3 :: p) - A (1 :: p) * A (2 :: p))

example := C66_2x2_error_1d (T := Rat) (X0 := exX1 3 2 1 3) (X1 := exX1 0 5 2 4) (by decide) (by decide) (ex_holds (F.sm1d ⟨1, 0⟩ 4 1 5)) (ex_holds (F.cell1d ⟨2, 0⟩ 1 5 1)) (ex_holds (F.cell1d ⟨5, 0⟩ 1 5 1))
  (ex_holds (F.cell1d ⟨3, 0⟩ 1 5 2)) (ex_holds (F.cell1d ⟨4, 0⟩ 1 5 2)) (fun x hx y hy => ex_apart (by revert x y; decide)) (ex_apart (by decide)) ex_det1
  (fun p hp => by
    have h := ex_det1 p hp
    simp only [exX1]
    rw [show (3 : Int).toNat = 3 from rfl, show (4 : Int).toNat = 4 from rfl, show (2 : Int).toNat = 2 from rfl, show (5 : Int).toNat = 5 from rfl, show (7 - 2 : Int).toNat = 5 from rfl, show (7 - 5 : Int).toNat = 2 from rfl]
    rw [add_sub_cancel_left, add_sub_cancel_left, mul_div_assoc', mul_div_assoc', ← add_div, eq_div_iff h]
    ring)
  (fun p hp => by
    have h := ex_det1 p hp
    simp only [exX1]
    rw [show (3 : Int).toNat = 3 from rfl, show (4 : Int).toNat = 4 from rfl, show (2 : Int).toNat = 2 from rfl, show (5 : Int).toNat = 5 from rfl, show (7 - 2 : Int).toNat = 5 from rfl, show (7 - 5 : Int).toNat = 2 from rfl]
    rw [add_sub_cancel_left, add_sub_cancel_left, mul_div_assoc', mul_div_assoc', ← add_div, eq_div_iff h]
    ring)

/-- One unknown per cell, two dimensions: every cell of the box gets its old value plus the factor times residual over coefficient; nothing else changes.
For every arithmetic. -/
theorem C66_1x1_2d {T : Type} [NatCast T] [Add T] [Sub T] [Mul T] [Div T] [Neg T] {lo0 hi0 lo1 hi1 fgcw ugcw : Int} {a f u : Ptr} {A B U : List Int → T} {m : Mem T}
    (hf : 0 ≤ fgcw) (hu : 0 ≤ ugcw) (hA : F.Holds m (F.cell2d a lo0 lo1 hi0 hi1 0) A) (hB : F.Holds m (F.cell2d f lo0 lo1 hi0 hi1 fgcw) B) (hU : F.Holds m (F.cell2d u lo0 lo1 hi0 hi1 ugcw) U)
    (ua : F.Apart (F.cell2d u lo0 lo1 hi0 hi1 ugcw) (F.cell2d a lo0 lo1 hi0 hi1 0)) (uf : F.Apart (F.cell2d u lo0 lo1 hi0 hi1 ugcw) (F.cell2d f lo0 lo1 hi0 hi1 fgcw)) :
    ∃ m' U', F.cellblock1x1jacobi2d lo0 hi0 lo1 hi1 a fgcw f ugcw u m = .ok m' ∧ F.Holds m' (F.cell2d u lo0 lo1 hi0 hi1 ugcw) U' ∧ F.Only [(F.cell2d u lo0 lo1 hi0 hi1 ugcw)] m m' ∧
      (∀ p, ¬ F.InBounds [(lo0, hi0), (lo1, hi1)] p → U' p = U p) ∧ ∀ p, F.InBounds [(lo0, hi0), (lo1, hi1)] p → U' p = U p + ((13421773 : Nat) / (16777216 : Nat) : T) * B p / A p := by
  obtain ⟨m', U', g1, g2⟩ := F.block1 (w := ((13421773 : Nat) / (16777216 : Nat) : T)) (box := [(lo0, hi0), (lo1, hi1)]) (l := F.pts2 (F.irange lo1 hi1) (fun _ => F.irange lo0 hi0)) (F.pts2_before F.irange_lt fun _ => F.irange_lt) (fun p => F.all2) (fun p hp => by
      rw [F.inBounds2] at hp
      obtain ⟨i, j, rfl, h1⟩ := hp
      simp only [F.cell2d, F.sm2d, F.InBounds, and_true]
      omega)
    (fun p hp => by
      rw [F.inBounds2] at hp
      obtain ⟨i, j, rfl, h1⟩ := hp
      simp only [F.cell2d, F.sm2d, F.InBounds, and_true]
      omega)
    (fun p hp => by
      rw [F.inBounds2] at hp
      obtain ⟨i, j, rfl, h1⟩ := hp
      simp only [F.cell2d, F.sm2d, F.InBounds, and_true]
      omega) hA hB hU ua uf
  refine ⟨m', U', ?_, g2⟩
  rw [← g1]
  exact F.run2 (fun _ _ _ _ => rfl)

example := C66_1x1_2d (by decide) (by decide) (ex_holds (F.cell2d ⟨1, 0⟩ 1 2 3 4 0)) (ex_holds (F.cell2d ⟨2, 0⟩ 1 2 3 4 1)) (ex_holds (F.cell2d ⟨3, 0⟩ 1 2 3 4 2)) (ex_apart (by decide)) (ex_apart (by decide))

/-- If the residuals are those of a field `X`, the error at every cell of the box is multiplied by one less the factor. -/
theorem C66_1x1_error_2d {T : Type} [Field T] {lo0 hi0 lo1 hi1 fgcw ugcw : Int} {a f u : Ptr} {A B U X : List Int → T} {m : Mem T}
    (hf : 0 ≤ fgcw) (hu : 0 ≤ ugcw) (hA : F.Holds m (F.cell2d a lo0 lo1 hi0 hi1 0) A) (hB : F.Holds m (F.cell2d f lo0 lo1 hi0 hi1 fgcw) B) (hU : F.Holds m (F.cell2d u lo0 lo1 hi0 hi1 ugcw) U)
    (ua : F.Apart (F.cell2d u lo0 lo1 hi0 hi1 ugcw) (F.cell2d a lo0 lo1 hi0 hi1 0)) (uf : F.Apart (F.cell2d u lo0 lo1 hi0 hi1 ugcw) (F.cell2d f lo0 lo1 hi0 hi1 fgcw))
    (h0 : ∀ p, F.InBounds [(lo0, hi0), (lo1, hi1)] p → A p ≠ 0) (hX : ∀ p, F.InBounds [(lo0, hi0), (lo1, hi1)] p → B p = A p * (X p - U p)) :
    ∃ m' U', F.cellblock1x1jacobi2d lo0 hi0 lo1 hi1 a fgcw f ugcw u m = .ok m' ∧ F.Holds m' (F.cell2d u lo0 lo1 hi0 hi1 ugcw) U' ∧ F.Only [(F.cell2d u lo0 lo1 hi0 hi1 ugcw)] m m' ∧
      (∀ p, ¬ F.InBounds [(lo0, hi0), (lo1, hi1)] p → U' p = U p) ∧ ∀ p, F.InBounds [(lo0, hi0), (lo1, hi1)] p → X p - U' p = (1 - 13421773 / 16777216) * (X p - U p) := by
  obtain ⟨m', U', g1, g2, g3, g4, g5⟩ := C66_1x1_2d hf hu hA hB hU ua uf
  refine ⟨m', U', g1, g2, g3, g4, fun p hp => ?_⟩
  have h1 := h0 p hp
  rw [g5 p hp, hX p hp]
  push_cast
  rw [show ∀ w : T, w * (A p * (X p - U p)) / A p = w * (X p - U p) from fun w => by field_simp]
  ring

example := C66_1x1_error_2d (T := Rat) (X := fun p => exC (F.cell2d ⟨3, 0⟩ 1 2 3 4 2) p + exC (F.cell2d ⟨2, 0⟩ 1 2 3 4 1) p / exC (F.cell2d ⟨1, 0⟩ 1 2 3 4 0) p)
  (by decide) (by decide) (ex_holds (F.cell2d ⟨1, 0⟩ 1 2 3 4 0)) (ex_holds (F.cell2d ⟨2, 0⟩ 1 2 3 4 1)) (ex_holds (F.cell2d ⟨3, 0⟩ 1 2 3 4 2)) (ex_apart (by decide)) (ex_apart (by decide)) (fun p _ => exC_pos (by decide)) (fun p _ => by
    have := exC_pos (a := F.cell2d ⟨1, 0⟩ 1 2 3 4 0) (is := p) (by decide)
    field_simp
    ring)

/-- Two unknowns per cell, two dimensions, any arithmetic: the values computed. -/
theorem C66_2x2_value_2d {T : Type} [NatCast T] [Add T] [Sub T] [Mul T] [Div T] [Neg T] {lo0 hi0 lo1 hi1 fgcw ugcw : Int} {a f0 f1 u0 u1 : Ptr} {A B0 B1 U0 U1 : List Int → T} {m : Mem T}
    (hf : 0 ≤ fgcw) (hu : 0 ≤ ugcw) (hA : F.Holds m (F.sm2d a 4 lo0 lo1 hi0 hi1) A) (hB0 : F.Holds m (F.cell2d f0 lo0 lo1 hi0 hi1 fgcw) B0) (hB1 : F.Holds m (F.cell2d f1 lo0 lo1 hi0 hi1 fgcw) B1)
    (hU0 : F.Holds m (F.cell2d u0 lo0 lo1 hi0 hi1 ugcw) U0) (hU1 : F.Holds m (F.cell2d u1 lo0 lo1 hi0 hi1 ugcw) U1)
    (ap : ∀ x ∈ [(F.cell2d u0 lo0 lo1 hi0 hi1 ugcw), (F.cell2d u1 lo0 lo1 hi0 hi1 ugcw)], ∀ y ∈ [(F.sm2d a 4 lo0 lo1 hi0 hi1), (F.cell2d f0 lo0 lo1 hi0 hi1 fgcw), (F.cell2d f1 lo0 lo1 hi0 hi1 fgcw)], F.Apart x y) (uv : F.Apart (F.cell2d u0 lo0 lo1 hi0 hi1 ugcw) (F.cell2d u1 lo0 lo1 hi0 hi1 ugcw)) :
    ∃ m' V0 V1, F.cellblock2x2jacobi2d lo0 hi0 lo1 hi1 a fgcw f0 f1 ugcw u0 u1 m = .ok m' ∧ F.Holds m' (F.cell2d u0 lo0 lo1 hi0 hi1 ugcw) V0 ∧ F.Holds m' (F.cell2d u1 lo0 lo1 hi0 hi1 ugcw) V1 ∧
      F.Only [(F.cell2d u0 lo0 lo1 hi0 hi1 ugcw), (F.cell2d u1 lo0 lo1 hi0 hi1 ugcw)] m m' ∧ (∀ p, ¬ F.InBounds [(lo0, hi0), (lo1, hi1)] p → V0 p = U0 p ∧ V1 p = U1 p) ∧
      ∀ p, F.InBounds [(lo0, hi0), (lo1, hi1)] p →
        V0 p = U0 p + ((13421773 : Nat) / (16777216 : Nat) : T) * (A (3 :: p) * B0 p - A (1 :: p) * B1 p) / (A (0 :: p) * A (3 :: p) - A (1 :: p) * A (2 :: p)) ∧
        V1 p = U1 p + ((13421773 : Nat) / (16777216 : Nat) : T) * (A (0 :: p) * B1 p - A (2 :: p) * B0 p) / (A (0 :: p) * A (3 :: p) - A (1 :: p) * A (2 :: p)) := by
  obtain ⟨m', V0, V1, g1, g2⟩ := F.block2x2 (w := ((13421773 : Nat) / (16777216 : Nat) : T)) (box := [(lo0, hi0), (lo1, hi1)]) (l := F.pts2 (F.irange lo1 hi1) (fun _ => F.irange lo0 hi0)) (F.pts2_before F.irange_lt fun _ => F.irange_lt) (fun p => F.all2) (fun p hp s h0 h5 => by
      rw [F.inBounds2] at hp
      obtain ⟨i, j, rfl, h1⟩ := hp
      simp only [F.cell2d, F.sm2d, F.InBounds, and_true]
      omega)
    (fun p hp => by
      rw [F.inBounds2] at hp
      obtain ⟨i, j, rfl, h1⟩ := hp
      simp only [F.cell2d, F.sm2d, F.InBounds, and_true]
      omega)
    (fun p hp => by
      rw [F.inBounds2] at hp
      obtain ⟨i, j, rfl, h1⟩ := hp
      simp only [F.cell2d, F.sm2d, F.InBounds, and_true]
      omega)
    (fun p hp => by
      rw [F.inBounds2] at hp
      obtain ⟨i, j, rfl, h1⟩ := hp
      simp only [F.cell2d, F.sm2d, F.InBounds, and_true]
      omega)
    (fun p hp => by
      rw [F.inBounds2] at hp
      obtain ⟨i, j, rfl, h1⟩ := hp
      simp only [F.cell2d, F.sm2d, F.InBounds, and_true]
      omega) hA hB0 hB1 hU0 hU1 (ap _ (by simp) _ (by simp)) (ap _ (by simp) _ (by simp)) (ap _ (by simp) _ (by simp)) (ap _ (by simp) _ (by simp))
    (ap _ (by simp) _ (by simp)) (ap _ (by simp) _ (by simp)) uv
  refine ⟨m', V0, V1, ?_, g2⟩
  rw [← g1]
  exact F.run2 (fun _ _ _ _ => rfl)

example := C66_2x2_value_2d (by decide) (by decide) (ex_holds (F.sm2d ⟨1, 0⟩ 4 1 2 3 4)) (ex_holds (F.cell2d ⟨2, 0⟩ 1 2 3 4 1)) (ex_holds (F.cell2d ⟨5, 0⟩ 1 2 3 4 1))
  (ex_holds (F.cell2d ⟨3, 0⟩ 1 2 3 4 2)) (ex_holds (F.cell2d ⟨4, 0⟩ 1 2 3 4 2)) (fun x hx y hy => ex_apart (by revert x y; decide)) (ex_apart (by decide))

/-- Two unknowns per cell, two dimensions: in every cell of the box with a regular block the changes solve the block equations with the factor times the
residuals as right hand side; nothing else changes. -/
theorem C66_2x2_2d {T : Type} [Field T] {lo0 hi0 lo1 hi1 fgcw ugcw : Int} {a f0 f1 u0 u1 : Ptr} {A B0 B1 U0 U1 : List Int → T} {m : Mem T}
    (hf : 0 ≤ fgcw) (hu : 0 ≤ ugcw) (hA : F.Holds m (F.sm2d a 4 lo0 lo1 hi0 hi1) A) (hB0 : F.Holds m (F.cell2d f0 lo0 lo1 hi0 hi1 fgcw) B0) (hB1 : F.Holds m (F.cell2d f1 lo0 lo1 hi0 hi1 fgcw) B1)
    (hU0 : F.Holds m (F.cell2d u0 lo0 lo1 hi0 hi1 ugcw) U0) (hU1 : F.Holds m (F.cell2d u1 lo0 lo1 hi0 hi1 ugcw) U1)
    (ap : ∀ x ∈ [(F.cell2d u0 lo0 lo1 hi0 hi1 ugcw), (F.cell2d u1 lo0 lo1 hi0 hi1 ugcw)], ∀ y ∈ [(F.sm2d a 4 lo0 lo1 hi0 hi1), (F.cell2d f0 lo0 lo1 hi0 hi1 fgcw), (F.cell2d f1 lo0 lo1 hi0 hi1 fgcw)], F.Apart x y) (uv : F.Apart (F.cell2d u0 lo0 lo1 hi0 hi1 ugcw) (F.cell2d u1 lo0 lo1 hi0 hi1 ugcw)) :
    ∃ m' V0 V1, F.cellblock2x2jacobi2d lo0 hi0 lo1 hi1 a fgcw f0 f1 ugcw u0 u1 m = .ok m' ∧ F.Holds m' (F.cell2d u0 lo0 lo1 hi0 hi1 ugcw) V0 ∧ F.Holds m' (F.cell2d u1 lo0 lo1 hi0 hi1 ugcw) V1 ∧
      F.Only [(F.cell2d u0 lo0 lo1 hi0 hi1 ugcw), (F.cell2d u1 lo0 lo1 hi0 hi1 ugcw)] m m' ∧ (∀ p, ¬ F.InBounds [(lo0, hi0), (lo1, hi1)] p → V0 p = U0 p ∧ V1 p = U1 p) ∧
      ∀ p, F.InBounds [(lo0, hi0), (lo1, hi1)] p → (A (0 :: p) * A (3 :: p) - A (1 :: p) * A (2 :: p)) ≠ 0 →
        A (0 :: p) * (V0 p - U0 p) + A (1 :: p) * (V1 p - U1 p) = ((13421773 : Nat) / (16777216 : Nat) : T) * B0 p ∧
        A (2 :: p) * (V0 p - U0 p) + A (3 :: p) * (V1 p - U1 p) = ((13421773 : Nat) / (16777216 : Nat) : T) * B1 p := by
  obtain ⟨m', V0, V1, g1, g2, g3, g4, g5, g6⟩ := C66_2x2_value_2d hf hu hA hB0 hB1 hU0 hU1 ap uv
  refine ⟨m', V0, V1, g1, g2, g3, g4, g5, fun p hp hd => ?_⟩
  obtain ⟨e0, e1⟩ := g6 p hp
  rw [e0, e1]
  generalize ((13421773 : Nat) / (16777216 : Nat) : T) = w
  generalize A (0 :: p) = a0 at *
  generalize A (1 :: p) = a1 at *
  generalize A (2 :: p) = a2 at *
  generalize A (3 :: p) = a3 at *
  constructor
  · rw [add_sub_cancel_left, add_sub_cancel_left, mul_div_assoc', mul_div_assoc', ← add_div, div_eq_iff hd]
    ring
  · rw [add_sub_cancel_left, add_sub_cancel_left, mul_div_assoc', mul_div_assoc', ← add_div, div_eq_iff hd]
    ring

example := C66_2x2_2d (T := Rat) (by decide) (by decide) (ex_holds (F.sm2d ⟨1, 0⟩ 4 1 2 3 4)) (ex_holds (F.cell2d ⟨2, 0⟩ 1 2 3 4 1)) (ex_holds (F.cell2d ⟨5, 0⟩ 1 2 3 4 1))
  (ex_holds (F.cell2d ⟨3, 0⟩ 1 2 3 4 2)) (ex_holds (F.cell2d ⟨4, 0⟩ 1 2 3 4 2)) (fun x hx y hy => ex_apart (by revert x y; decide)) (ex_apart (by decide))

/-- If the residuals are those of the fields `X0`, `X1`, both errors at every cell of the box with a regular block are multiplied by one less the
factor. -/
theorem C66_2x2_error_2d {T : Type} [Field T] {lo0 hi0 lo1 hi1 fgcw ugcw : Int} {a f0 f1 u0 u1 : Ptr} {A B0 B1 U0 U1 X0 X1 : List Int → T} {m : Mem T}
    (hf : 0 ≤ fgcw) (hu : 0 ≤ ugcw) (hA : F.Holds m (F.sm2d a 4 lo0 lo1 hi0 hi1) A) (hB0 : F.Holds m (F.cell2d f0 lo0 lo1 hi0 hi1 fgcw) B0) (hB1 : F.Holds m (F.cell2d f1 lo0 lo1 hi0 hi1 fgcw) B1)
    (hU0 : F.Holds m (F.cell2d u0 lo0 lo1 hi0 hi1 ugcw) U0) (hU1 : F.Holds m (F.cell2d u1 lo0 lo1 hi0 hi1 ugcw) U1)
    (ap : ∀ x ∈ [(F.cell2d u0 lo0 lo1 hi0 hi1 ugcw), (F.cell2d u1 lo0 lo1 hi0 hi1 ugcw)], ∀ y ∈ [(F.sm2d a 4 lo0 lo1 hi0 hi1), (F.cell2d f0 lo0 lo1 hi0 hi1 fgcw), (F.cell2d f1 lo0 lo1 hi0 hi1 fgcw)], F.Apart x y) (uv : F.Apart (F.cell2d u0 lo0 lo1 hi0 hi1 ugcw) (F.cell2d u1 lo0 lo1 hi0 hi1 ugcw))
    (hd : ∀ p, F.InBounds [(lo0, hi0), (lo1, hi1)] p → (A (0 :: p) * A (3 :: p) - A (1 :: p) * A (2 :: p)) ≠ 0)
    (hX0 : ∀ p, F.InBounds [(lo0, hi0), (lo1, hi1)] p → B0 p = A (0 :: p) * (X0 p - U0 p) + A (1 :: p) * (X1 p - U1 p))
    (hX1 : ∀ p, F.InBounds [(lo0, hi0), (lo1, hi1)] p → B1 p = A (2 :: p) * (X0 p - U0 p) + A (3 :: p) * (X1 p - U1 p)) :
    ∃ m' V0 V1, F.cellblock2x2jacobi2d lo0 hi0 lo1 hi1 a fgcw f0 f1 ugcw u0 u1 m = .ok m' ∧ F.Holds m' (F.cell2d u0 lo0 lo1 hi0 hi1 ugcw) V0 ∧ F.Holds m' (F.cell2d u1 lo0 lo1 hi0 hi1 ugcw) V1 ∧
      F.Only [(F.cell2d u0 lo0 lo1 hi0 hi1 ugcw), (F.cell2d u1 lo0 lo1 hi0 hi1 ugcw)] m m' ∧ (∀ p, ¬ F.InBounds [(lo0, hi0), (lo1, hi1)] p → V0 p = U0 p ∧ V1 p = U1 p) ∧
      ∀ p, F.InBounds [(lo0, hi0), (lo1, hi1)] p → X0 p - V0 p = (1 - 13421773 / 16777216) * (X0 p - U0 p) ∧ X1 p - V1 p = (1 - 13421773 / 16777216) * (X1 p - U1 p) := by
  obtain ⟨m', V0, V1, g1, g2, g3, g4, g5, g6⟩ := C66_2x2_value_2d hf hu hA hB0 hB1 hU0 hU1 ap uv
  refine ⟨m', V0, V1, g1, g2, g3, g4, g5, fun p hp => ?_⟩
  obtain ⟨e0, e1⟩ := g6 p hp
  have h := hd p hp
  rw [e0, e1, hX0 p hp, hX1 p hp]
  push_cast
  rw [show ∀ w : T, w * (A (3 :: p) * (A (0 :: p) * (X0 p - U0 p) + A (1 :: p) * (X1 p - U1 p)) - A (1 :: p) * (A (2 :: p) * (X0 p - U0 p) + A (3 :: p) * (X1 p - U1 p))) / (A (0 :: p) * A (3 :: p) - A (1 :: p) * A (2 :: p)) =
      w * (X0 p - U0 p) from fun w => by rw [div_eq_iff h]; ring,
    show ∀ w : T, w * (A (0 :: p) * (A (2 :: p) * (X0 p - U0 p) + A (3 :: p) * (X1 p - U1 p)) - A (2 :: p) * (A (0 :: p) * (X0 p - U0 p) + A (1 :: p) * (X1 p - U1 p))) / (A (0 :: p) * A (3 :: p) - A (1 :: p) * A (2 :: p)) =
      w * (X1 p - U1 p) from fun w => by rw [div_eq_iff h]; ring]
  constructor <;> ring

/-- fields for the example -/
def exX2 (a b c e : Int) (p : List Int) : Rat :=
  let A := exC (F.sm2d ⟨1, 0⟩ 4 1 2 3 4)
  exC (F.cell2d ⟨(e : Int).toNat, 0⟩ 1 2 3 4 2) p + (A (a :: p) * exC (F.cell2d ⟨b.toNat, 0⟩ 1 2 3 4 1) p - A (c :: p) * exC (F.cell2d ⟨(7 - b).toNat, 0⟩ 1 2 3 4 1) p) /
    (A (0 :: p) * A (3 :: p) - A (1 :: p) * A (2 :: p))

example := C66_2x2_error_2d (T := Rat) (X0 := exX2 3 2 1 3) (X1 := exX2 0 5 2 4) (by decide) (by decide) (ex_holds (F.sm2d ⟨1, 0⟩ 4 1 2 3 4)) (ex_holds (F.cell2d ⟨2, 0⟩ 1 2 3 4 1)) (ex_holds (F.cell2d ⟨5, 0⟩ 1 2 3 4 1))
  (ex_holds (F.cell2d ⟨3, 0⟩ 1 2 3 4 2)) (ex_holds (F.cell2d ⟨4, 0⟩ 1 2 3 4 2)) (fun x hx y hy => ex_apart (by revert x y; decide)) (ex_apart (by decide)) ex_det2
  (fun p hp => by
    have h := ex_det2 p hp
    simp only [exX2]
    rw [show (3 : Int).toNat = 3 from rfl, show (4 : Int).toNat = 4 from rfl, show (2 : Int).toNat = 2 from rfl, show (5 : Int).toNat = 5 from rfl, show (7 - 2 : Int).toNat = 5 from rfl, show (7 - 5 : Int).toNat = 2 from rfl]
    rw [add_sub_cancel_left, add_sub_cancel_left, mul_div_assoc', mul_div_assoc', ← add_div, eq_div_iff h]
    ring)
  (fun p hp => by
    have h := ex_det2 p hp
    simp only [exX2]
    rw [show (3 : Int).toNat = 3 from rfl, show (4 : Int).toNat = 4 from rfl, show (2 : Int).toNat = 2 from rfl, show (5 : Int).toNat = 5 from rfl, show (7 - 2 : Int).toNat = 5 from rfl, show (7 - 5 : Int).toNat = 2 from rfl]
    rw [add_sub_cancel_left, add_sub_cancel_left, mul_div_assoc', mul_div_assoc', ← add_div, eq_div_iff h]
    ring)

/-- The factor of the two-dimensional routines is not 0.8. -/
theorem C66_factor_2d_false : ¬ ∀ {lo0 hi0 lo1 hi1 fgcw ugcw : Int} {a f u : Ptr} {A B U : List Int → Rat} {m : Mem Rat},
    0 ≤ fgcw → 0 ≤ ugcw → F.Holds m (F.cell2d a lo0 lo1 hi0 hi1 0) A → F.Holds m (F.cell2d f lo0 lo1 hi0 hi1 fgcw) B → F.Holds m (F.cell2d u lo0 lo1 hi0 hi1 ugcw) U →
    F.Apart (F.cell2d u lo0 lo1 hi0 hi1 ugcw) (F.cell2d a lo0 lo1 hi0 hi1 0) → F.Apart (F.cell2d u lo0 lo1 hi0 hi1 ugcw) (F.cell2d f lo0 lo1 hi0 hi1 fgcw) →
    ∃ m' U', F.cellblock1x1jacobi2d lo0 hi0 lo1 hi1 a fgcw f ugcw u m = .ok m' ∧ F.Holds m' (F.cell2d u lo0 lo1 hi0 hi1 ugcw) U' ∧
      ∀ p, F.InBounds [(lo0, hi0), (lo1, hi1)] p → U' p = U p + 8 / 10 * B p / A p := by
  intro h
  obtain ⟨m', U', h1, h2, h3⟩ := h (by decide) (by decide) (ex_holds (F.cell2d ⟨1, 0⟩ 1 2 3 4 0)) (ex_holds (F.cell2d ⟨2, 0⟩ 1 2 3 4 1)) (ex_holds (F.cell2d ⟨3, 0⟩ 1 2 3 4 2)) (ex_apart (by decide)) (ex_apart (by decide))
  have a := (h2 [1, 2] (by decide)).2
  have b := run_val (q := (F.cell2d ⟨3, 0⟩ 1 2 3 4 2).addrT [1, 2]) h1 rfl
  have c : (F.cell2d ⟨3, 0⟩ 1 2 3 4 2).ptr.add (F.colMajor (F.cell2d ⟨3, 0⟩ 1 2 3 4 2).dims [1, 2]) = (F.cell2d ⟨3, 0⟩ 1 2 3 4 2).addrT [1, 2] := rfl
  rw [c, b, h3 [1, 2] (by decide)] at a
  revert a
  decide +kernel

end Verif
