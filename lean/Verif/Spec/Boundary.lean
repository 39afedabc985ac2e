import Verif.Spec.Eliminate

/-
Boundary value problems for the difference equations: pieces of the boundary with conditions, and what it means that a field with ghost values meets
them.
-/

namespace Verif.F

variable {T : Type}

/-- a piece of the boundary: the cells of the box next to it, the number of the table row that leads from such a cell to its ghost cell, boundary type
and order as in `Meets`, the mesh width across the boundary, and the coefficient on the boundary face of each cell -/
structure Piece (T : Type) where
  cells : List Int → Prop
  ghost : Int
  btype : Int
  order : Int
  width : T
  coef : List Int → T

/-- no two pieces share a face -/
def Disjoint (ps : List (Piece T)) : Prop := ps.Pairwise fun a b => a.ghost = b.ghost → ∀ p, a.cells p → ¬ b.cells p

/-- `X`, with its ghost values, fulfils the boundary conditions with data `D`: across each face of a piece the value of the cell and of the ghost cell
are those of a polynomial that meets the condition with the value that `D` has in the ghost cell; in the ghost cells that belong to no piece `X` is
`D`. -/
structure Fulfils [Field T] (box : List (Int × Int)) (n : Int) (O : Int → List Int) (ps : List (Piece T)) (D X : List Int → T) : Prop where
  given : ∀ k ∈ ps, ∀ p, k.cells p → ∃ y : Polynomial T, Meets k.btype k.order (k.coef p) (D (shift p (O k.ghost))) y ∧
    X p = y.eval (1 / 2 * k.width) ∧ X (shift p (O k.ghost)) = y.eval (-(1 / 2) * k.width)
  free : ∀ p, InBounds box p → ∀ e, 1 ≤ e → e ≤ n - 1 → ¬ InBounds box (shift p (O e)) → (∀ k ∈ ps, k.cells p → k.ghost ≠ e) →
    X (shift p (O e)) = D (shift p (O e))

/-- conditions of first order: Dirichlet of order 1, Neumann, Robin of order 1 -/
def First (btype order : Int) : Prop := (btype = 0 ∧ order = 1) ∨ btype = 1 ∨ (btype = 4 ∧ order = 1)

/-- the pieces are at the boundary of the box, with conditions of first order: their cells are in the box, the ghost cells outside, mesh widths are
positive and coefficients not negative -/
structure Pieces [Zero T] [LT T] [LE T] (box : List (Int × Int)) (n : Int) (O : Int → List Int) (ps : List (Piece T)) : Prop where
  first : ∀ q ∈ ps, First q.btype q.order
  ghost : ∀ q ∈ ps, 1 ≤ q.ghost ∧ q.ghost ≤ n - 1
  width : ∀ q ∈ ps, 0 < q.width
  inside : ∀ q ∈ ps, ∀ c, q.cells c → InBounds box c
  outside : ∀ q ∈ ps, ∀ c, q.cells c → ¬ InBounds box (shift c (O q.ghost))
  coef : ∀ q ∈ ps, ∀ c, q.cells c → 0 ≤ q.coef c

/-- what ties the level of a solution: a cell with a reaction `k`, or a face without a Neumann condition -/
def Tied [Zero T] [LT T] (box : List (Int × Int)) (n : Int) (O : Int → List Int) (ps : List (Piece T)) (k : List Int → T) : Prop :=
  ∃ c, InBounds box c ∧ (0 < k c ∨ ∃ e, 1 ≤ e ∧ e ≤ n - 1 ∧ ¬ InBounds box (shift c (O e)) ∧ ∀ q ∈ ps, q.cells c → q.ghost = e → q.btype ≠ 1)

/-- arguments of a boundary call, 1D: the boundary box, one cell thick, side 0 (lower) or 1 (upper), type and order of the condition -/
structure Side1 where
  i0 : Int
  i1 : Int
  side : Int
  btype : Int
  order : Int

/-- the same in 2D: `dir` is the direction across the boundary -/
structure Side2 where
  i0 : Int
  j0 : Int
  i1 : Int
  j1 : Int
  dir : Int
  side : Int
  btype : Int
  order : Int

/-- the same in 3D -/
structure Side3 where
  i0 : Int
  j0 : Int
  k0 : Int
  i1 : Int
  j1 : Int
  k1 : Int
  dir : Int
  side : Int
  btype : Int
  order : Int

/-- the piece of the boundary of a call: in the stencil the rows 1 and 2 lead down and up -/
def Side1.piece [Zero T] (dx : Nat → T) (B0 : List Int → T) (s : Side1) : Piece T :=
  ⟨layer1 s.i0 s.side, 1 + s.side, s.btype, s.order, dx 0, onFace1 B0 s.side⟩

/-- rows 1 and 2 lead down and up in the first direction, 3 and 4 in the second -/
def Side2.piece [Zero T] (dx : Nat → T) (B0 B1 : List Int → T) (s : Side2) : Piece T :=
  ⟨layer2 s.i0 s.j0 s.i1 s.j1 s.dir s.side, 2 * s.dir + 1 + s.side, s.btype, s.order, dx s.dir.toNat, onFace2 B0 B1 s.dir s.side⟩

/-- rows 5 and 6 lead down and up in the third direction -/
def Side3.piece [Zero T] (dx : Nat → T) (B0 B1 B2 : List Int → T) (s : Side3) : Piece T :=
  ⟨layer3 s.i0 s.j0 s.k0 s.i1 s.j1 s.k1 s.dir s.side, 2 * s.dir + 1 + s.side, s.btype, s.order, dx s.dir.toNat, onFace3 B0 B1 B2 s.dir s.side⟩

/-- the boundary box is the ghost cell of the box on its side -/
def Side1.Outside (i0 i1 : Int) (s : Side1) : Prop := s.i0 = if s.side = 0 then i0 - 1 else i1 + 1

/-- the boundary box is in the first layer of ghost cells of the box on its side -/
def Side2.Outside (i0 j0 i1 j1 : Int) (s : Side2) : Prop :=
  (s.dir = 0 → s.i0 = if s.side = 0 then i0 - 1 else i1 + 1) ∧ (s.dir = 1 → s.j0 = if s.side = 0 then j0 - 1 else j1 + 1)

/-- the boundary box is in the first layer of ghost cells of the box on its side -/
def Side3.Outside (i0 j0 k0 i1 j1 k1 : Int) (s : Side3) : Prop :=
  (s.dir = 0 → s.i0 = if s.side = 0 then i0 - 1 else i1 + 1) ∧ (s.dir = 1 → s.j0 = if s.side = 0 then j0 - 1 else j1 + 1) ∧
  (s.dir = 2 → s.k0 = if s.side = 0 then k0 - 1 else k1 + 1)

end Verif.F
