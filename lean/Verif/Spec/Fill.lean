import Verif.Spec.Boundary
import Verif.Spec.Converge
import Verif.Spec.Sides

/-
The pieces of the boundary that calls of a boundary condition kernel are for.
-/

namespace Verif.Spec

variable {T : Type} [Field T]

/-- The piece of the boundary of the box `box` that a call is for: the cells of the box whose neighbour across the side is in the segment `seg`. Sides are
numbered from 0, the rows of the table that lead through them from 1. The conditions of the kernels are `beta u + alpha b ∂u/∂n = 0`, `b` the coefficient
on the face, which is the Robin condition of `Meets` with the coefficient `alpha b / (2 beta)`. -/
def BcCall.piece (box : List (Int × Int)) (O : Int → List Int) (seg : List Int → Prop) (width : T) (b : List Int → T) (c : BcCall T) : F.Piece T :=
  ⟨fun p => F.InBounds box p ∧ seg (F.shift p (O (c.face + 1))), c.face + 1, c.btype, c.order, width, fun p => c.alpha / (2 * c.beta) * b p⟩

/-- 1D -/
def BcCall.piece1 (i0 i1 : Int) (dx : Nat → T) (B0 : List Int → T) (c : BcCall T) : F.Piece T :=
  c.piece [(i0, i1)] (F.row F.points1) (F.onSeg1 c.lo c.hi c.face) (dx 0) (F.onFace1 B0 c.face)

/-- 2D: sides 0 and 1 across the first direction, 2 and 3 across the second -/
def BcCall.piece2 (i0 j0 i1 j1 : Int) (dx : Nat → T) (B0 B1 : List Int → T) (c : BcCall T) : F.Piece T :=
  c.piece [(i0, i1), (j0, j1)] (F.row F.points2) (F.onSeg2 c.lo c.hi 1 c.face) (dx (c.face / 2).toNat) (F.onFace2 B0 B1 (c.face / 2) (c.face % 2))

/-- 3D: sides 4 and 5 across the third direction -/
def BcCall.piece3 (i0 j0 k0 i1 j1 k1 : Int) (dx : Nat → T) (B0 B1 B2 : List Int → T) (c : BcCall T) : F.Piece T :=
  c.piece [(i0, i1), (j0, j1), (k0, k1)] (F.row F.points3) (F.onSeg3 c.lo c.hi 1 c.face) (dx (c.face / 2).toNat) (F.onFace3 B0 B1 B2 (c.face / 2) (c.face % 2))

/-- the conditions of a call with piece `k` are of first order and can be met: the mesh width is not 0 and Robin conditions can be solved for the ghost value -/
def BcCall.Solvable (c : BcCall T) (k : F.Piece T) : Prop :=
  F.First c.btype c.order ∧ k.width ≠ 0 ∧ (c.btype = 4 → c.beta ≠ 0 ∧ ∀ p, k.cells p → 4 * k.coef p + k.width ≠ 0)

/-- Calls of a boundary condition kernel for the values `V` of array `a` fill the ghost cells: in whatever order they are made, they end with contents whose
values fulfil homogeneous conditions on the pieces, the values in the ghost cells that belong to no piece being the old ones, and they leave alone
all elements of memory but those of `a` in the segments. -/
def Filled {C : Type} (call : C → Mem T → M (Mem T)) (seg : C → List Int → Prop) (piece : C → F.Piece T) (box : List (Int × Int)) (n : Int) (O : Int → List Int) (a : F.Arr)
    (l : List C) (m : Mem T) (V : List Int → T) : Prop :=
  ∃ m' V', (∀ l', l.Perm l' → inOrder call l' m = .ok m') ∧ F.Changes a (fun p => ∃ c ∈ l, seg c p) m m' ∧ F.Holds m' a V' ∧
    ∀ D : List Int → T, (∀ c ∈ l, ∀ p, seg c p → D p = 0) → (∀ p, (∀ c ∈ l, ¬ seg c p) → D p = V p) → F.Fulfils box n O (l.map piece) D V'

end Verif.Spec
