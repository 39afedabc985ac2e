import Verif.Spec.Elements
import Mathlib.Algebra.Field.Defs
import Mathlib.Order.Defs.LinearOrder

/-
The bilinear form of the diffusion operator: `beta` times the sum over all faces of the box, those on its boundary included, of the face coefficient
times the difference quotients of the two functions across the face, plus `alpha` times the sum over the cells of `A` times the product of the
functions.  Faces across axis `d` are indexed in the order in which Fortran stores them, axis `d` first.
-/

namespace Verif.F

variable {T : Type} [Field T]

/-- one dimension -/
def form1 (i0 i1 : Int) (alpha beta : T) (dx : Nat → T) (A B0 U V : List Int → T) : T :=
  beta * ((sum i0 (i1 + 1) fun i => B0 [i] * ((U [i] - U [i - 1]) * (V [i] - V [i - 1])) / (dx 0 * dx 0))) +
    alpha * (sum i0 i1 fun i => A [i] * U [i] * V [i])

/-- two dimensions -/
def form2 (i0 j0 i1 j1 : Int) (alpha beta : T) (dx : Nat → T) (A B0 B1 U V : List Int → T) : T :=
  beta * ((sum i0 (i1 + 1) fun i => sum j0 j1 fun j => B0 [i, j] * ((U [i, j] - U [i - 1, j]) * (V [i, j] - V [i - 1, j])) / (dx 0 * dx 0)) +
    (sum i0 i1 fun i => sum j0 (j1 + 1) fun j => B1 [j, i] * ((U [i, j] - U [i, j - 1]) * (V [i, j] - V [i, j - 1])) / (dx 1 * dx 1))) +
    alpha * (sum i0 i1 fun i => sum j0 j1 fun j => A [i, j] * U [i, j] * V [i, j])

/-- three dimensions -/
def form3 (i0 j0 k0 i1 j1 k1 : Int) (alpha beta : T) (dx : Nat → T) (A B0 B1 B2 U V : List Int → T) : T :=
  beta * ((sum i0 (i1 + 1) fun i => sum j0 j1 fun j => sum k0 k1 fun k => B0 [i, j, k] * ((U [i, j, k] - U [i - 1, j, k]) * (V [i, j, k] - V [i - 1, j, k])) / (dx 0 * dx 0)) +
    (sum i0 i1 fun i => sum j0 (j1 + 1) fun j => sum k0 k1 fun k => B1 [j, k, i] * ((U [i, j, k] - U [i, j - 1, k]) * (V [i, j, k] - V [i, j - 1, k])) / (dx 1 * dx 1)) +
    (sum i0 i1 fun i => sum j0 j1 fun j => sum k0 (k1 + 1) fun k => B2 [k, i, j] * ((U [i, j, k] - U [i, j, k - 1]) * (V [i, j, k] - V [i, j, k - 1])) / (dx 2 * dx 2))) +
    alpha * (sum i0 i1 fun i => sum j0 j1 fun j => sum k0 k1 fun k => A [i, j, k] * U [i, j, k] * V [i, j, k])

variable [LinearOrder T]

/-- 1D: positive `beta` and face coefficients, `alpha A` not negative in the cells, mesh widths not zero -/
structure Elliptic1 (i0 i1 : Int) (alpha beta : T) (dx : Nat → T) (A B0 : List Int → T) : Prop where
  beta : 0 < beta
  dx0 : dx 0 ≠ 0
  face0 : ∀ i, i0 ≤ i → i ≤ i1 + 1 → 0 < B0 [i]
  cell : ∀ i, i0 ≤ i → i ≤ i1 → 0 ≤ alpha * A [i]

/-- 2D: positive `beta` and face coefficients, `alpha A` not negative in the cells, mesh widths not zero -/
structure Elliptic2 (i0 j0 i1 j1 : Int) (alpha beta : T) (dx : Nat → T) (A B0 B1 : List Int → T) : Prop where
  beta : 0 < beta
  dx0 : dx 0 ≠ 0
  dx1 : dx 1 ≠ 0
  face0 : ∀ i j, i0 ≤ i → i ≤ i1 + 1 → j0 ≤ j → j ≤ j1 → 0 < B0 [i, j]
  face1 : ∀ i j, i0 ≤ i → i ≤ i1 → j0 ≤ j → j ≤ j1 + 1 → 0 < B1 [j, i]
  cell : ∀ i j, i0 ≤ i → i ≤ i1 → j0 ≤ j → j ≤ j1 → 0 ≤ alpha * A [i, j]

/-- 3D: positive `beta` and face coefficients, `alpha A` not negative in the cells, mesh widths not zero -/
structure Elliptic3 (i0 j0 k0 i1 j1 k1 : Int) (alpha beta : T) (dx : Nat → T) (A B0 B1 B2 : List Int → T) : Prop where
  beta : 0 < beta
  dx0 : dx 0 ≠ 0
  dx1 : dx 1 ≠ 0
  dx2 : dx 2 ≠ 0
  face0 : ∀ i j k, i0 ≤ i → i ≤ i1 + 1 → j0 ≤ j → j ≤ j1 → k0 ≤ k → k ≤ k1 → 0 < B0 [i, j, k]
  face1 : ∀ i j k, i0 ≤ i → i ≤ i1 → j0 ≤ j → j ≤ j1 + 1 → k0 ≤ k → k ≤ k1 → 0 < B1 [j, k, i]
  face2 : ∀ i j k, i0 ≤ i → i ≤ i1 → j0 ≤ j → j ≤ j1 → k0 ≤ k → k ≤ k1 + 1 → 0 < B2 [k, i, j]
  cell : ∀ i j k, i0 ≤ i → i ≤ i1 → j0 ≤ j → j ≤ j1 → k0 ≤ k → k ≤ k1 → 0 ≤ alpha * A [i, j, k]

end Verif.F
