import Verif.Lemmas.Energy
import Verif.Lemmas.Operator

/-
What the flux and apply kernels leave, in terms of the contents of the arrays.
-/

namespace Verif
open Spec

set_option linter.unusedVariables false
set_option linter.unusedSectionVars false

variable {T : Type} [Field T]

theorem energy_v1_1 {i0 i1 agcw gcw rgcw : Int} {alpha beta : T} {dx : Nat → T} {a u b0 f0 res : Ptr} {β1 β2 : Nat → Backend} {m : Mem T} {A B0 U : List Int → T}
    (hβ1 : ∀ n, ValidBackend (β1 n)) (hβ2 : ∀ n, ValidBackend (β2 n)) (hi : i0 ≤ i1) (hg : 1 ≤ gcw) (hagcw : 0 ≤ agcw) (hrgcw : 0 ≤ rgcw)
    (h : F.Args m [(F.cell1d a i0 i1 agcw), (F.cell1d u i0 i1 gcw), (F.face1d b0 i0 i1 0)] [(F.face1d f0 i0 i1 0), (F.cell1d res i0 i1 rgcw)])
    (hr : F.Apart (F.cell1d res i0 i1 rgcw) (F.face1d f0 i0 i1 0)) (hA : F.Holds m (F.cell1d a i0 i1 agcw) A) (hB0 : F.Holds m (F.face1d b0 i0 i1 0) B0) (hU : F.Holds m (F.cell1d u i0 i1 gcw) U) :
    ∃ m1 m2, ∃ R : List Int → T, Cuda.flux1d i0 i1 dx b0 gcw u f0 β1 m = .ok m1 ∧ Cuda.diffusionV1Apply1d i0 i1 alpha beta dx agcw a gcw u f0 rgcw res β2 m1 = .ok m2 ∧
      (∀ p, F.InBounds [(i0, i1)] p → F.El m2 (F.cell1d res i0 i1 rgcw) p (R p)) ∧ ∀ i, i0 ≤ i → i ≤ i1 → R [i] = F.op1 alpha beta dx A B0 U i := by
  obtain ⟨m1, m2, c1, c2, -, -, -, W⟩ := op_v1_1 (alpha := alpha) (beta := beta) (dx := dx) hβ1 hβ2 hi hg hagcw hrgcw h hr
  refine ⟨m1, m2, F.rd m2 (F.cell1d res i0 i1 rgcw), c1, c2, fun p hp => ?_, fun i h0 h1 => ?_⟩
  · rw [F.inBounds1] at hp
    obtain ⟨i, rfl, hp⟩ := hp
    have w := W i (by omega) (by omega)
    rw [w.rd]
    exact w
  · have w := (W i h0 h1).rd
    rw [(hU [i] (by in_bounds)).rd, (hU [i - 1] (by in_bounds)).rd, (hU [i + 1] (by in_bounds)).rd, (hA [i] (by in_bounds)).rd, (hB0 [i] (by in_bounds)).rd, (hB0 [i + 1] (by in_bounds)).rd] at w
    rw [w]
    rfl

theorem energy_v2_1 {i0 i1 gcw rgcw : Int} {alpha beta : T} {dx : Nat → T} {u b0 f0 res : Ptr} {β1 β2 : Nat → Backend} {m : Mem T} {B0 U : List Int → T}
    (hβ1 : ∀ n, ValidBackend (β1 n)) (hβ2 : ∀ n, ValidBackend (β2 n)) (hi : i0 ≤ i1) (hg : 1 ≤ gcw) (hrgcw : 0 ≤ rgcw)
    (h : F.Args m [(F.cell1d u i0 i1 gcw), (F.face1d b0 i0 i1 0)] [(F.face1d f0 i0 i1 0), (F.cell1d res i0 i1 rgcw)])
    (hr : F.Apart (F.cell1d res i0 i1 rgcw) (F.face1d f0 i0 i1 0)) (hB0 : F.Holds m (F.face1d b0 i0 i1 0) B0) (hU : F.Holds m (F.cell1d u i0 i1 gcw) U) :
    ∃ m1 m2, ∃ R : List Int → T, Cuda.flux1d i0 i1 dx b0 gcw u f0 β1 m = .ok m1 ∧ Cuda.diffusionV2Apply1d i0 i1 alpha beta dx gcw u f0 rgcw res β2 m1 = .ok m2 ∧
      (∀ p, F.InBounds [(i0, i1)] p → F.El m2 (F.cell1d res i0 i1 rgcw) p (R p)) ∧ ∀ i, i0 ≤ i → i ≤ i1 → R [i] = F.op1 alpha beta dx (fun _ => 1) B0 U i := by
  obtain ⟨m1, m2, c1, c2, -, -, -, W⟩ := op_v2_1 (alpha := alpha) (beta := beta) (dx := dx) hβ1 hβ2 hi hg hrgcw h hr
  refine ⟨m1, m2, F.rd m2 (F.cell1d res i0 i1 rgcw), c1, c2, fun p hp => ?_, fun i h0 h1 => ?_⟩
  · rw [F.inBounds1] at hp
    obtain ⟨i, rfl, hp⟩ := hp
    have w := W i (by omega) (by omega)
    rw [w.rd]
    exact w
  · have w := (W i h0 h1).rd
    rw [(hU [i] (by in_bounds)).rd, (hU [i - 1] (by in_bounds)).rd, (hU [i + 1] (by in_bounds)).rd, (hB0 [i] (by in_bounds)).rd, (hB0 [i + 1] (by in_bounds)).rd] at w
    rw [w]
    unfold F.op1
    rw [mul_one]

theorem energy_p_1 {i0 i1 gcw rgcw : Int} {beta : T} {dx : Nat → T} {u f0 res : Ptr} {β1 β2 : Nat → Backend} {m : Mem T} {U : List Int → T}
    (hβ1 : ∀ n, ValidBackend (β1 n)) (hβ2 : ∀ n, ValidBackend (β2 n)) (hi : i0 ≤ i1) (hg : 1 ≤ gcw) (hrgcw : 0 ≤ rgcw)
    (h : F.Args m [(F.cell1d u i0 i1 gcw)] [(F.face1d f0 i0 i1 0), (F.cell1d res i0 i1 rgcw)])
    (hr : F.Apart (F.cell1d res i0 i1 rgcw) (F.face1d f0 i0 i1 0)) (hU : F.Holds m (F.cell1d u i0 i1 gcw) U) :
    ∃ m1 m2, ∃ R : List Int → T, Cuda.poissonFlux1d i0 i1 dx gcw u f0 β1 m = .ok m1 ∧ Cuda.poissonV2Apply1d i0 i1 beta dx f0 rgcw res β2 m1 = .ok m2 ∧
      (∀ p, F.InBounds [(i0, i1)] p → F.El m2 (F.cell1d res i0 i1 rgcw) p (R p)) ∧ ∀ i, i0 ≤ i → i ≤ i1 → R [i] = F.op1 0 beta dx (fun _ => 1) (fun _ => 1) U i := by
  obtain ⟨m1, m2, c1, c2, -, -, -, W⟩ := op_p_1 (beta := beta) (dx := dx) hβ1 hβ2 hi hg hrgcw h hr
  refine ⟨m1, m2, F.rd m2 (F.cell1d res i0 i1 rgcw), c1, c2, fun p hp => ?_, fun i h0 h1 => ?_⟩
  · rw [F.inBounds1] at hp
    obtain ⟨i, rfl, hp⟩ := hp
    have w := W i (by omega) (by omega)
    rw [w.rd]
    exact w
  · have w := (W i h0 h1).rd
    rw [(hU [i] (by in_bounds)).rd, (hU [i - 1] (by in_bounds)).rd, (hU [i + 1] (by in_bounds)).rd] at w
    rw [w]
    unfold F.op1
    simp only [one_mul, zero_mul, add_zero]

theorem energy_v1_2 {i0 j0 i1 j1 agcw gcw rgcw : Int} {alpha beta : T} {dx : Nat → T} {a u b0 b1 f0 f1 res : Ptr} {β1 β2 : Nat → Backend} {m : Mem T} {A B0 B1 U : List Int → T}
    (hβ1 : ∀ n, ValidBackend (β1 n)) (hβ2 : ∀ n, ValidBackend (β2 n)) (hi : i0 ≤ i1) (hj : j0 ≤ j1) (hg : 1 ≤ gcw) (hagcw : 0 ≤ agcw) (hrgcw : 0 ≤ rgcw)
    (h : F.Args m [(F.cell2d a i0 j0 i1 j1 agcw), (F.cell2d u i0 j0 i1 j1 gcw), (F.face2d0 b0 i0 j0 i1 j1 0), (F.face2d1 b1 i0 j0 i1 j1 0)] [(F.face2d0 f0 i0 j0 i1 j1 0), (F.face2d1 f1 i0 j0 i1 j1 0), (F.cell2d res i0 j0 i1 j1 rgcw)])
    (hp : F.Apart (F.face2d0 f0 i0 j0 i1 j1 0) (F.face2d1 f1 i0 j0 i1 j1 0))
    (hr : F.Apart (F.cell2d res i0 j0 i1 j1 rgcw) (F.face2d0 f0 i0 j0 i1 j1 0) ∧ F.Apart (F.cell2d res i0 j0 i1 j1 rgcw) (F.face2d1 f1 i0 j0 i1 j1 0)) (hA : F.Holds m (F.cell2d a i0 j0 i1 j1 agcw) A) (hB0 : F.Holds m (F.face2d0 b0 i0 j0 i1 j1 0) B0) (hB1 : F.Holds m (F.face2d1 b1 i0 j0 i1 j1 0) B1) (hU : F.Holds m (F.cell2d u i0 j0 i1 j1 gcw) U) :
    ∃ m1 m2, ∃ R : List Int → T, Cuda.flux2d i0 j0 i1 j1 dx b0 b1 gcw u f0 f1 β1 m = .ok m1 ∧ Cuda.diffusionV1Apply2d i0 i1 j0 j1 alpha beta dx agcw a gcw u f0 f1 rgcw res β2 m1 = .ok m2 ∧
      (∀ p, F.InBounds [(i0, i1), (j0, j1)] p → F.El m2 (F.cell2d res i0 j0 i1 j1 rgcw) p (R p)) ∧ ∀ i j, i0 ≤ i → i ≤ i1 → j0 ≤ j → j ≤ j1 → R [i, j] = F.op2 alpha beta dx A B0 B1 U i j := by
  obtain ⟨m1, m2, c1, c2, -, -, -, -, W⟩ := op_v1_2 (alpha := alpha) (beta := beta) (dx := dx) hβ1 hβ2 hi hj hg hagcw hrgcw h hp hr
  refine ⟨m1, m2, F.rd m2 (F.cell2d res i0 j0 i1 j1 rgcw), c1, c2, fun p hp => ?_, fun i j h0 h1 h2 h3 => ?_⟩
  · rw [F.inBounds2] at hp
    obtain ⟨i, j, rfl, hp⟩ := hp
    have w := W i j (by omega) (by omega) (by omega) (by omega)
    rw [w.rd]
    exact w
  · have w := (W i j h0 h1 h2 h3).rd
    rw [(hU [i, j] (by in_bounds)).rd, (hU [i - 1, j] (by in_bounds)).rd, (hU [i + 1, j] (by in_bounds)).rd, (hU [i, j - 1] (by in_bounds)).rd, (hU [i, j + 1] (by in_bounds)).rd, (hA [i, j] (by in_bounds)).rd, (hB0 [i, j] (by in_bounds)).rd, (hB0 [i + 1, j] (by in_bounds)).rd, (hB1 [j, i] (by in_bounds)).rd, (hB1 [j + 1, i] (by in_bounds)).rd] at w
    rw [w]
    rfl

theorem energy_v2_2 {i0 j0 i1 j1 gcw rgcw : Int} {alpha beta : T} {dx : Nat → T} {u b0 b1 f0 f1 res : Ptr} {β1 β2 : Nat → Backend} {m : Mem T} {B0 B1 U : List Int → T}
    (hβ1 : ∀ n, ValidBackend (β1 n)) (hβ2 : ∀ n, ValidBackend (β2 n)) (hi : i0 ≤ i1) (hj : j0 ≤ j1) (hg : 1 ≤ gcw) (hrgcw : 0 ≤ rgcw)
    (h : F.Args m [(F.cell2d u i0 j0 i1 j1 gcw), (F.face2d0 b0 i0 j0 i1 j1 0), (F.face2d1 b1 i0 j0 i1 j1 0)] [(F.face2d0 f0 i0 j0 i1 j1 0), (F.face2d1 f1 i0 j0 i1 j1 0), (F.cell2d res i0 j0 i1 j1 rgcw)])
    (hp : F.Apart (F.face2d0 f0 i0 j0 i1 j1 0) (F.face2d1 f1 i0 j0 i1 j1 0))
    (hr : F.Apart (F.cell2d res i0 j0 i1 j1 rgcw) (F.face2d0 f0 i0 j0 i1 j1 0) ∧ F.Apart (F.cell2d res i0 j0 i1 j1 rgcw) (F.face2d1 f1 i0 j0 i1 j1 0)) (hB0 : F.Holds m (F.face2d0 b0 i0 j0 i1 j1 0) B0) (hB1 : F.Holds m (F.face2d1 b1 i0 j0 i1 j1 0) B1) (hU : F.Holds m (F.cell2d u i0 j0 i1 j1 gcw) U) :
    ∃ m1 m2, ∃ R : List Int → T, Cuda.flux2d i0 j0 i1 j1 dx b0 b1 gcw u f0 f1 β1 m = .ok m1 ∧ Cuda.diffusionV2Apply2d i0 i1 j0 j1 alpha beta dx gcw u f0 f1 rgcw res β2 m1 = .ok m2 ∧
      (∀ p, F.InBounds [(i0, i1), (j0, j1)] p → F.El m2 (F.cell2d res i0 j0 i1 j1 rgcw) p (R p)) ∧ ∀ i j, i0 ≤ i → i ≤ i1 → j0 ≤ j → j ≤ j1 → R [i, j] = F.op2 alpha beta dx (fun _ => 1) B0 B1 U i j := by
  obtain ⟨m1, m2, c1, c2, -, -, -, -, W⟩ := op_v2_2 (alpha := alpha) (beta := beta) (dx := dx) hβ1 hβ2 hi hj hg hrgcw h hp hr
  refine ⟨m1, m2, F.rd m2 (F.cell2d res i0 j0 i1 j1 rgcw), c1, c2, fun p hp => ?_, fun i j h0 h1 h2 h3 => ?_⟩
  · rw [F.inBounds2] at hp
    obtain ⟨i, j, rfl, hp⟩ := hp
    have w := W i j (by omega) (by omega) (by omega) (by omega)
    rw [w.rd]
    exact w
  · have w := (W i j h0 h1 h2 h3).rd
    rw [(hU [i, j] (by in_bounds)).rd, (hU [i - 1, j] (by in_bounds)).rd, (hU [i + 1, j] (by in_bounds)).rd, (hU [i, j - 1] (by in_bounds)).rd, (hU [i, j + 1] (by in_bounds)).rd, (hB0 [i, j] (by in_bounds)).rd, (hB0 [i + 1, j] (by in_bounds)).rd, (hB1 [j, i] (by in_bounds)).rd, (hB1 [j + 1, i] (by in_bounds)).rd] at w
    rw [w]
    unfold F.op2
    rw [mul_one]

theorem energy_p_2 {i0 j0 i1 j1 gcw rgcw : Int} {beta : T} {dx : Nat → T} {u f0 f1 res : Ptr} {β1 β2 : Nat → Backend} {m : Mem T} {U : List Int → T}
    (hβ1 : ∀ n, ValidBackend (β1 n)) (hβ2 : ∀ n, ValidBackend (β2 n)) (hi : i0 ≤ i1) (hj : j0 ≤ j1) (hg : 1 ≤ gcw) (hrgcw : 0 ≤ rgcw)
    (h : F.Args m [(F.cell2d u i0 j0 i1 j1 gcw)] [(F.face2d0 f0 i0 j0 i1 j1 0), (F.face2d1 f1 i0 j0 i1 j1 0), (F.cell2d res i0 j0 i1 j1 rgcw)])
    (hp : F.Apart (F.face2d0 f0 i0 j0 i1 j1 0) (F.face2d1 f1 i0 j0 i1 j1 0))
    (hr : F.Apart (F.cell2d res i0 j0 i1 j1 rgcw) (F.face2d0 f0 i0 j0 i1 j1 0) ∧ F.Apart (F.cell2d res i0 j0 i1 j1 rgcw) (F.face2d1 f1 i0 j0 i1 j1 0)) (hU : F.Holds m (F.cell2d u i0 j0 i1 j1 gcw) U) :
    ∃ m1 m2, ∃ R : List Int → T, Cuda.poissonFlux2d i0 j0 i1 j1 dx gcw u f0 f1 β1 m = .ok m1 ∧ Cuda.poissonV2Apply2d i0 i1 j0 j1 beta dx f0 f1 rgcw res β2 m1 = .ok m2 ∧
      (∀ p, F.InBounds [(i0, i1), (j0, j1)] p → F.El m2 (F.cell2d res i0 j0 i1 j1 rgcw) p (R p)) ∧ ∀ i j, i0 ≤ i → i ≤ i1 → j0 ≤ j → j ≤ j1 → R [i, j] = F.op2 0 beta dx (fun _ => 1) (fun _ => 1) (fun _ => 1) U i j := by
  obtain ⟨m1, m2, c1, c2, -, -, -, -, W⟩ := op_p_2 (beta := beta) (dx := dx) hβ1 hβ2 hi hj hg hrgcw h hp hr
  refine ⟨m1, m2, F.rd m2 (F.cell2d res i0 j0 i1 j1 rgcw), c1, c2, fun p hp => ?_, fun i j h0 h1 h2 h3 => ?_⟩
  · rw [F.inBounds2] at hp
    obtain ⟨i, j, rfl, hp⟩ := hp
    have w := W i j (by omega) (by omega) (by omega) (by omega)
    rw [w.rd]
    exact w
  · have w := (W i j h0 h1 h2 h3).rd
    rw [(hU [i, j] (by in_bounds)).rd, (hU [i - 1, j] (by in_bounds)).rd, (hU [i + 1, j] (by in_bounds)).rd, (hU [i, j - 1] (by in_bounds)).rd, (hU [i, j + 1] (by in_bounds)).rd] at w
    rw [w]
    unfold F.op2
    simp only [one_mul, zero_mul, add_zero]

theorem energy_v1_3 {i0 j0 k0 i1 j1 k1 agcw gcw rgcw : Int} {alpha beta : T} {dx : Nat → T} {a u b0 b1 b2 f0 f1 f2 res : Ptr} {β1 β2 : Nat → Backend} {m : Mem T} {A B0 B1 B2 U : List Int → T}
    (hβ1 : ∀ n, ValidBackend (β1 n)) (hβ2 : ∀ n, ValidBackend (β2 n)) (hi : i0 ≤ i1) (hj : j0 ≤ j1) (hk : k0 ≤ k1) (hg : 1 ≤ gcw) (hagcw : 0 ≤ agcw) (hrgcw : 0 ≤ rgcw)
    (h : F.Args m [(F.cell3d a i0 j0 k0 i1 j1 k1 agcw), (F.cell3d u i0 j0 k0 i1 j1 k1 gcw), (F.face3d0 b0 i0 j0 k0 i1 j1 k1 0), (F.face3d1 b1 i0 j0 k0 i1 j1 k1 0), (F.face3d2 b2 i0 j0 k0 i1 j1 k1 0)] [(F.face3d0 f0 i0 j0 k0 i1 j1 k1 0), (F.face3d1 f1 i0 j0 k0 i1 j1 k1 0), (F.face3d2 f2 i0 j0 k0 i1 j1 k1 0), (F.cell3d res i0 j0 k0 i1 j1 k1 rgcw)])
    (hp : F.Apart (F.face3d0 f0 i0 j0 k0 i1 j1 k1 0) (F.face3d1 f1 i0 j0 k0 i1 j1 k1 0) ∧ F.Apart (F.face3d0 f0 i0 j0 k0 i1 j1 k1 0) (F.face3d2 f2 i0 j0 k0 i1 j1 k1 0) ∧ F.Apart (F.face3d1 f1 i0 j0 k0 i1 j1 k1 0) (F.face3d2 f2 i0 j0 k0 i1 j1 k1 0))
    (hr : F.Apart (F.cell3d res i0 j0 k0 i1 j1 k1 rgcw) (F.face3d0 f0 i0 j0 k0 i1 j1 k1 0) ∧ F.Apart (F.cell3d res i0 j0 k0 i1 j1 k1 rgcw) (F.face3d1 f1 i0 j0 k0 i1 j1 k1 0) ∧ F.Apart (F.cell3d res i0 j0 k0 i1 j1 k1 rgcw) (F.face3d2 f2 i0 j0 k0 i1 j1 k1 0)) (hA : F.Holds m (F.cell3d a i0 j0 k0 i1 j1 k1 agcw) A) (hB0 : F.Holds m (F.face3d0 b0 i0 j0 k0 i1 j1 k1 0) B0) (hB1 : F.Holds m (F.face3d1 b1 i0 j0 k0 i1 j1 k1 0) B1) (hB2 : F.Holds m (F.face3d2 b2 i0 j0 k0 i1 j1 k1 0) B2) (hU : F.Holds m (F.cell3d u i0 j0 k0 i1 j1 k1 gcw) U) :
    ∃ m1 m2, ∃ R : List Int → T, Cuda.flux3d i0 j0 k0 i1 j1 k1 dx b0 b1 b2 gcw u f0 f1 f2 β1 m = .ok m1 ∧ Cuda.diffusionV1Apply3d i0 i1 j0 j1 k0 k1 alpha beta dx agcw a gcw u f0 f1 f2 rgcw res β2 m1 = .ok m2 ∧
      (∀ p, F.InBounds [(i0, i1), (j0, j1), (k0, k1)] p → F.El m2 (F.cell3d res i0 j0 k0 i1 j1 k1 rgcw) p (R p)) ∧ ∀ i j k, i0 ≤ i → i ≤ i1 → j0 ≤ j → j ≤ j1 → k0 ≤ k → k ≤ k1 → R [i, j, k] = F.op3 alpha beta dx A B0 B1 B2 U i j k := by
  obtain ⟨m1, m2, c1, c2, -, -, -, -, -, W⟩ := op_v1_3 (alpha := alpha) (beta := beta) (dx := dx) hβ1 hβ2 hi hj hk hg hagcw hrgcw h hp hr
  refine ⟨m1, m2, F.rd m2 (F.cell3d res i0 j0 k0 i1 j1 k1 rgcw), c1, c2, fun p hp => ?_, fun i j k h0 h1 h2 h3 h4 h5 => ?_⟩
  · rw [F.inBounds3] at hp
    obtain ⟨i, j, k, rfl, hp⟩ := hp
    have w := W i j k (by omega) (by omega) (by omega) (by omega) (by omega) (by omega)
    rw [w.rd]
    exact w
  · have w := (W i j k h0 h1 h2 h3 h4 h5).rd
    rw [(hU [i, j, k] (by in_bounds)).rd, (hU [i - 1, j, k] (by in_bounds)).rd, (hU [i + 1, j, k] (by in_bounds)).rd, (hU [i, j - 1, k] (by in_bounds)).rd, (hU [i, j + 1, k] (by in_bounds)).rd, (hU [i, j, k - 1] (by in_bounds)).rd, (hU [i, j, k + 1] (by in_bounds)).rd, (hA [i, j, k] (by in_bounds)).rd, (hB0 [i, j, k] (by in_bounds)).rd, (hB0 [i + 1, j, k] (by in_bounds)).rd, (hB1 [j, k, i] (by in_bounds)).rd, (hB1 [j + 1, k, i] (by in_bounds)).rd, (hB2 [k, i, j] (by in_bounds)).rd, (hB2 [k + 1, i, j] (by in_bounds)).rd] at w
    rw [w]
    rfl

theorem energy_v2_3 {i0 j0 k0 i1 j1 k1 gcw rgcw : Int} {alpha beta : T} {dx : Nat → T} {u b0 b1 b2 f0 f1 f2 res : Ptr} {β1 β2 : Nat → Backend} {m : Mem T} {B0 B1 B2 U : List Int → T}
    (hβ1 : ∀ n, ValidBackend (β1 n)) (hβ2 : ∀ n, ValidBackend (β2 n)) (hi : i0 ≤ i1) (hj : j0 ≤ j1) (hk : k0 ≤ k1) (hg : 1 ≤ gcw) (hrgcw : 0 ≤ rgcw)
    (h : F.Args m [(F.cell3d u i0 j0 k0 i1 j1 k1 gcw), (F.face3d0 b0 i0 j0 k0 i1 j1 k1 0), (F.face3d1 b1 i0 j0 k0 i1 j1 k1 0), (F.face3d2 b2 i0 j0 k0 i1 j1 k1 0)] [(F.face3d0 f0 i0 j0 k0 i1 j1 k1 0), (F.face3d1 f1 i0 j0 k0 i1 j1 k1 0), (F.face3d2 f2 i0 j0 k0 i1 j1 k1 0), (F.cell3d res i0 j0 k0 i1 j1 k1 rgcw)])
    (hp : F.Apart (F.face3d0 f0 i0 j0 k0 i1 j1 k1 0) (F.face3d1 f1 i0 j0 k0 i1 j1 k1 0) ∧ F.Apart (F.face3d0 f0 i0 j0 k0 i1 j1 k1 0) (F.face3d2 f2 i0 j0 k0 i1 j1 k1 0) ∧ F.Apart (F.face3d1 f1 i0 j0 k0 i1 j1 k1 0) (F.face3d2 f2 i0 j0 k0 i1 j1 k1 0))
    (hr : F.Apart (F.cell3d res i0 j0 k0 i1 j1 k1 rgcw) (F.face3d0 f0 i0 j0 k0 i1 j1 k1 0) ∧ F.Apart (F.cell3d res i0 j0 k0 i1 j1 k1 rgcw) (F.face3d1 f1 i0 j0 k0 i1 j1 k1 0) ∧ F.Apart (F.cell3d res i0 j0 k0 i1 j1 k1 rgcw) (F.face3d2 f2 i0 j0 k0 i1 j1 k1 0)) (hB0 : F.Holds m (F.face3d0 b0 i0 j0 k0 i1 j1 k1 0) B0) (hB1 : F.Holds m (F.face3d1 b1 i0 j0 k0 i1 j1 k1 0) B1) (hB2 : F.Holds m (F.face3d2 b2 i0 j0 k0 i1 j1 k1 0) B2) (hU : F.Holds m (F.cell3d u i0 j0 k0 i1 j1 k1 gcw) U) :
    ∃ m1 m2, ∃ R : List Int → T, Cuda.flux3d i0 j0 k0 i1 j1 k1 dx b0 b1 b2 gcw u f0 f1 f2 β1 m = .ok m1 ∧ Cuda.diffusionV2Apply3d i0 i1 j0 j1 k0 k1 alpha beta dx gcw u f0 f1 f2 rgcw res β2 m1 = .ok m2 ∧
      (∀ p, F.InBounds [(i0, i1), (j0, j1), (k0, k1)] p → F.El m2 (F.cell3d res i0 j0 k0 i1 j1 k1 rgcw) p (R p)) ∧ ∀ i j k, i0 ≤ i → i ≤ i1 → j0 ≤ j → j ≤ j1 → k0 ≤ k → k ≤ k1 → R [i, j, k] = F.op3 alpha beta dx (fun _ => 1) B0 B1 B2 U i j k := by
  obtain ⟨m1, m2, c1, c2, -, -, -, -, -, W⟩ := op_v2_3 (alpha := alpha) (beta := beta) (dx := dx) hβ1 hβ2 hi hj hk hg hrgcw h hp hr
  refine ⟨m1, m2, F.rd m2 (F.cell3d res i0 j0 k0 i1 j1 k1 rgcw), c1, c2, fun p hp => ?_, fun i j k h0 h1 h2 h3 h4 h5 => ?_⟩
  · rw [F.inBounds3] at hp
    obtain ⟨i, j, k, rfl, hp⟩ := hp
    have w := W i j k (by omega) (by omega) (by omega) (by omega) (by omega) (by omega)
    rw [w.rd]
    exact w
  · have w := (W i j k h0 h1 h2 h3 h4 h5).rd
    rw [(hU [i, j, k] (by in_bounds)).rd, (hU [i - 1, j, k] (by in_bounds)).rd, (hU [i + 1, j, k] (by in_bounds)).rd, (hU [i, j - 1, k] (by in_bounds)).rd, (hU [i, j + 1, k] (by in_bounds)).rd, (hU [i, j, k - 1] (by in_bounds)).rd, (hU [i, j, k + 1] (by in_bounds)).rd, (hB0 [i, j, k] (by in_bounds)).rd, (hB0 [i + 1, j, k] (by in_bounds)).rd, (hB1 [j, k, i] (by in_bounds)).rd, (hB1 [j + 1, k, i] (by in_bounds)).rd, (hB2 [k, i, j] (by in_bounds)).rd, (hB2 [k + 1, i, j] (by in_bounds)).rd] at w
    rw [w]
    unfold F.op3
    rw [mul_one]

theorem energy_p_3 {i0 j0 k0 i1 j1 k1 gcw rgcw : Int} {beta : T} {dx : Nat → T} {u f0 f1 f2 res : Ptr} {β1 β2 : Nat → Backend} {m : Mem T} {U : List Int → T}
    (hβ1 : ∀ n, ValidBackend (β1 n)) (hβ2 : ∀ n, ValidBackend (β2 n)) (hi : i0 ≤ i1) (hj : j0 ≤ j1) (hk : k0 ≤ k1) (hg : 1 ≤ gcw) (hrgcw : 0 ≤ rgcw)
    (h : F.Args m [(F.cell3d u i0 j0 k0 i1 j1 k1 gcw)] [(F.face3d0 f0 i0 j0 k0 i1 j1 k1 0), (F.face3d1 f1 i0 j0 k0 i1 j1 k1 0), (F.face3d2 f2 i0 j0 k0 i1 j1 k1 0), (F.cell3d res i0 j0 k0 i1 j1 k1 rgcw)])
    (hp : F.Apart (F.face3d0 f0 i0 j0 k0 i1 j1 k1 0) (F.face3d1 f1 i0 j0 k0 i1 j1 k1 0) ∧ F.Apart (F.face3d0 f0 i0 j0 k0 i1 j1 k1 0) (F.face3d2 f2 i0 j0 k0 i1 j1 k1 0) ∧ F.Apart (F.face3d1 f1 i0 j0 k0 i1 j1 k1 0) (F.face3d2 f2 i0 j0 k0 i1 j1 k1 0))
    (hr : F.Apart (F.cell3d res i0 j0 k0 i1 j1 k1 rgcw) (F.face3d0 f0 i0 j0 k0 i1 j1 k1 0) ∧ F.Apart (F.cell3d res i0 j0 k0 i1 j1 k1 rgcw) (F.face3d1 f1 i0 j0 k0 i1 j1 k1 0) ∧ F.Apart (F.cell3d res i0 j0 k0 i1 j1 k1 rgcw) (F.face3d2 f2 i0 j0 k0 i1 j1 k1 0)) (hU : F.Holds m (F.cell3d u i0 j0 k0 i1 j1 k1 gcw) U) :
    ∃ m1 m2, ∃ R : List Int → T, Cuda.poissonFlux3d i0 j0 k0 i1 j1 k1 dx gcw u f0 f1 f2 β1 m = .ok m1 ∧ Cuda.poissonV2Apply3d i0 i1 j0 j1 k0 k1 beta dx f0 f1 f2 rgcw res β2 m1 = .ok m2 ∧
      (∀ p, F.InBounds [(i0, i1), (j0, j1), (k0, k1)] p → F.El m2 (F.cell3d res i0 j0 k0 i1 j1 k1 rgcw) p (R p)) ∧ ∀ i j k, i0 ≤ i → i ≤ i1 → j0 ≤ j → j ≤ j1 → k0 ≤ k → k ≤ k1 → R [i, j, k] = F.op3 0 beta dx (fun _ => 1) (fun _ => 1) (fun _ => 1) (fun _ => 1) U i j k := by
  obtain ⟨m1, m2, c1, c2, -, -, -, -, -, W⟩ := op_p_3 (beta := beta) (dx := dx) hβ1 hβ2 hi hj hk hg hrgcw h hp hr
  refine ⟨m1, m2, F.rd m2 (F.cell3d res i0 j0 k0 i1 j1 k1 rgcw), c1, c2, fun p hp => ?_, fun i j k h0 h1 h2 h3 h4 h5 => ?_⟩
  · rw [F.inBounds3] at hp
    obtain ⟨i, j, k, rfl, hp⟩ := hp
    have w := W i j k (by omega) (by omega) (by omega) (by omega) (by omega) (by omega)
    rw [w.rd]
    exact w
  · have w := (W i j k h0 h1 h2 h3 h4 h5).rd
    rw [(hU [i, j, k] (by in_bounds)).rd, (hU [i - 1, j, k] (by in_bounds)).rd, (hU [i + 1, j, k] (by in_bounds)).rd, (hU [i, j - 1, k] (by in_bounds)).rd, (hU [i, j + 1, k] (by in_bounds)).rd, (hU [i, j, k - 1] (by in_bounds)).rd, (hU [i, j, k + 1] (by in_bounds)).rd] at w
    rw [w]
    unfold F.op3
    simp only [one_mul, zero_mul, add_zero]

end Verif
