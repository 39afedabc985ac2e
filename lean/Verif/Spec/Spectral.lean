import Verif.Spec.Energy
import Mathlib.Data.Int.Cast.Basic

/-
Bounds for the quadratic form of the diffusion operator, and the condition on the length of an explicit step.
-/

namespace Verif.F

variable {T : Type} [Field T] [LinearOrder T]

/-- 1D: lower bounds `bmin` of the face coefficients and `amin` of `alpha A` in the cells -/
structure Low1 (i0 i1 : Int) (alpha : T) (A B0 : List Int → T) (amin bmin : T) : Prop where
  amin0 : 0 ≤ amin
  bmin0 : 0 ≤ bmin
  face0 : ∀ i, i0 ≤ i → i ≤ i1 + 1 → bmin ≤ B0 [i]
  cell : ∀ i, i0 ≤ i → i ≤ i1 → amin ≤ alpha * A [i]

/-- 1D: the sum of the absolute values in the row of each cell is at most `L` -/
def Top1 (i0 i1 : Int) (alpha beta : T) (dx : Nat → T) (A B0 : List Int → T) (L : T) : Prop :=
  ∀ i, i0 ≤ i → i ≤ i1 → alpha * A [i] + 2 * (beta * ((B0 [i] + B0 [i + 1]) / (dx 0 * dx 0))) ≤ L

/-- 1D: a step of length `t` times the diagonal entry of each cell is at most 1 -/
def Step1 (i0 i1 : Int) (alpha beta : T) (dx : Nat → T) (A B0 : List Int → T) (t : T) : Prop :=
  ∀ i, i0 ≤ i → i ≤ i1 → t * (alpha * A [i] + beta * ((B0 [i] + B0 [i + 1]) / (dx 0 * dx 0))) ≤ 1

/-- 1D: `amin + beta bmin ∑ 8 / (N h)²`, `N` one more than the number of cells in the direction and `h` their width -/
def low1 (i0 i1 : Int) (beta : T) (dx : Nat → T) (amin bmin : T) : T :=
  amin + beta * (bmin * (8 / (((i1 - i0 + 2 : Int) : T) * dx 0 * (((i1 - i0 + 2 : Int) : T) * dx 0))))

/-- 2D: lower bounds `bmin` of the face coefficients and `amin` of `alpha A` in the cells -/
structure Low2 (i0 j0 i1 j1 : Int) (alpha : T) (A B0 B1 : List Int → T) (amin bmin : T) : Prop where
  amin0 : 0 ≤ amin
  bmin0 : 0 ≤ bmin
  face0 : ∀ i j, i0 ≤ i → i ≤ i1 + 1 → j0 ≤ j → j ≤ j1 → bmin ≤ B0 [i, j]
  face1 : ∀ i j, i0 ≤ i → i ≤ i1 → j0 ≤ j → j ≤ j1 + 1 → bmin ≤ B1 [j, i]
  cell : ∀ i j, i0 ≤ i → i ≤ i1 → j0 ≤ j → j ≤ j1 → amin ≤ alpha * A [i, j]

/-- 2D: the sum of the absolute values in the row of each cell is at most `L` -/
def Top2 (i0 j0 i1 j1 : Int) (alpha beta : T) (dx : Nat → T) (A B0 B1 : List Int → T) (L : T) : Prop :=
  ∀ i j, i0 ≤ i → i ≤ i1 → j0 ≤ j → j ≤ j1 → alpha * A [i, j] + 2 * (beta * ((B0 [i, j] + B0 [i + 1, j]) / (dx 0 * dx 0) + (B1 [j, i] + B1 [j + 1, i]) / (dx 1 * dx 1))) ≤ L

/-- 2D: a step of length `t` times the diagonal entry of each cell is at most 1 -/
def Step2 (i0 j0 i1 j1 : Int) (alpha beta : T) (dx : Nat → T) (A B0 B1 : List Int → T) (t : T) : Prop :=
  ∀ i j, i0 ≤ i → i ≤ i1 → j0 ≤ j → j ≤ j1 → t * (alpha * A [i, j] + beta * ((B0 [i, j] + B0 [i + 1, j]) / (dx 0 * dx 0) + (B1 [j, i] + B1 [j + 1, i]) / (dx 1 * dx 1))) ≤ 1

/-- 2D: `amin + beta bmin ∑ 8 / (N h)²`, `N` one more than the number of cells in the direction and `h` their width -/
def low2 (i0 j0 i1 j1 : Int) (beta : T) (dx : Nat → T) (amin bmin : T) : T :=
  amin + beta * (bmin * (8 / (((i1 - i0 + 2 : Int) : T) * dx 0 * (((i1 - i0 + 2 : Int) : T) * dx 0)) + 8 / (((j1 - j0 + 2 : Int) : T) * dx 1 * (((j1 - j0 + 2 : Int) : T) * dx 1))))

/-- 3D: lower bounds `bmin` of the face coefficients and `amin` of `alpha A` in the cells -/
structure Low3 (i0 j0 k0 i1 j1 k1 : Int) (alpha : T) (A B0 B1 B2 : List Int → T) (amin bmin : T) : Prop where
  amin0 : 0 ≤ amin
  bmin0 : 0 ≤ bmin
  face0 : ∀ i j k, i0 ≤ i → i ≤ i1 + 1 → j0 ≤ j → j ≤ j1 → k0 ≤ k → k ≤ k1 → bmin ≤ B0 [i, j, k]
  face1 : ∀ i j k, i0 ≤ i → i ≤ i1 → j0 ≤ j → j ≤ j1 + 1 → k0 ≤ k → k ≤ k1 → bmin ≤ B1 [j, k, i]
  face2 : ∀ i j k, i0 ≤ i → i ≤ i1 → j0 ≤ j → j ≤ j1 → k0 ≤ k → k ≤ k1 + 1 → bmin ≤ B2 [k, i, j]
  cell : ∀ i j k, i0 ≤ i → i ≤ i1 → j0 ≤ j → j ≤ j1 → k0 ≤ k → k ≤ k1 → amin ≤ alpha * A [i, j, k]

/-- 3D: the sum of the absolute values in the row of each cell is at most `L` -/
def Top3 (i0 j0 k0 i1 j1 k1 : Int) (alpha beta : T) (dx : Nat → T) (A B0 B1 B2 : List Int → T) (L : T) : Prop :=
  ∀ i j k, i0 ≤ i → i ≤ i1 → j0 ≤ j → j ≤ j1 → k0 ≤ k → k ≤ k1 → alpha * A [i, j, k] + 2 * (beta * ((B0 [i, j, k] + B0 [i + 1, j, k]) / (dx 0 * dx 0) + (B1 [j, k, i] + B1 [j + 1, k, i]) / (dx 1 * dx 1) + (B2 [k, i, j] + B2 [k + 1, i, j]) / (dx 2 * dx 2))) ≤ L

/-- 3D: a step of length `t` times the diagonal entry of each cell is at most 1 -/
def Step3 (i0 j0 k0 i1 j1 k1 : Int) (alpha beta : T) (dx : Nat → T) (A B0 B1 B2 : List Int → T) (t : T) : Prop :=
  ∀ i j k, i0 ≤ i → i ≤ i1 → j0 ≤ j → j ≤ j1 → k0 ≤ k → k ≤ k1 → t * (alpha * A [i, j, k] + beta * ((B0 [i, j, k] + B0 [i + 1, j, k]) / (dx 0 * dx 0) + (B1 [j, k, i] + B1 [j + 1, k, i]) / (dx 1 * dx 1) + (B2 [k, i, j] + B2 [k + 1, i, j]) / (dx 2 * dx 2))) ≤ 1

/-- 3D: `amin + beta bmin ∑ 8 / (N h)²`, `N` one more than the number of cells in the direction and `h` their width -/
def low3 (i0 j0 k0 i1 j1 k1 : Int) (beta : T) (dx : Nat → T) (amin bmin : T) : T :=
  amin + beta * (bmin * (8 / (((i1 - i0 + 2 : Int) : T) * dx 0 * (((i1 - i0 + 2 : Int) : T) * dx 0)) + 8 / (((j1 - j0 + 2 : Int) : T) * dx 1 * (((j1 - j0 + 2 : Int) : T) * dx 1)) + 8 / (((k1 - k0 + 2 : Int) : T) * dx 2 * (((k1 - k0 + 2 : Int) : T) * dx 2))))

end Verif.F
