import Verif.Spec.Elements

/-
What a kernel may change, given by the indices of the elements of one array, and the cells of a boundary segment that a boundary condition
routine is called for.
-/

namespace Verif.F

variable {T : Type}

/-- nothing has changed but elements of `a` at indices that satisfy `P`, and what was allocated still is -/
structure Changes (a : Arr) (P : List Int → Prop) (m m' : Mem T) : Prop where
  ints : m'.ints = m.ints
  val : ∀ q, (∀ is, InBounds a.dims is → P is → q ≠ a.ptr.add (colMajor a.dims is)) → m'.val q = m.val q
  alloc : ∀ q, (∃ v, m.val q = some v) → ∃ v, m'.val q = some v

/-- 1D: the cell of the segment, face 0 (lower) or 1 (upper) -/
def onSeg1 (lo hi : Nat → Int) (face : Int) (c : List Int) : Prop := (face = 0 ∧ c = [lo 0]) ∨ (face = 1 ∧ c = [hi 0])

/-- 2D: the cells of the segment; type 1 are the sides of the box in the order i lower, i upper, j lower, j upper, type 2 the corners -/
def onSeg2 (lo hi : Nat → Int) (type face : Int) (c : List Int) : Prop := ∃ i j, c = [i, j] ∧
  ((type = 1 ∧ lo 1 ≤ j ∧ j ≤ hi 1 ∧ ((face = 0 ∧ i = lo 0) ∨ (face = 1 ∧ i = hi 0))) ∨
    (type = 1 ∧ lo 0 ≤ i ∧ i ≤ hi 0 ∧ ((face = 2 ∧ j = lo 1) ∨ (face = 3 ∧ j = hi 1))) ∨
    (type = 2 ∧ ((face = 0 ∧ i = lo 0 ∧ j = lo 1) ∨ (face = 1 ∧ i = hi 0 ∧ j = lo 1) ∨ (face = 2 ∧ i = lo 0 ∧ j = hi 1) ∨
      (face = 3 ∧ i = hi 0 ∧ j = hi 1))))

/-- 3D: the cells of the segment; type 1 are the sides of the box, type 2 the edges, the segment one cell wide in the two directions across them, type 3 the
corners, the segment one cell -/
def onSeg3 (lo hi : Nat → Int) (type face : Int) (c : List Int) : Prop := ∃ i j k, c = [i, j, k] ∧
  ((type = 1 ∧ lo 1 ≤ j ∧ j ≤ hi 1 ∧ lo 2 ≤ k ∧ k ≤ hi 2 ∧ ((face = 0 ∧ i = lo 0) ∨ (face = 1 ∧ i = hi 0))) ∨
    (type = 1 ∧ lo 0 ≤ i ∧ i ≤ hi 0 ∧ lo 2 ≤ k ∧ k ≤ hi 2 ∧ ((face = 2 ∧ j = lo 1) ∨ (face = 3 ∧ j = hi 1))) ∨
    (type = 1 ∧ lo 0 ≤ i ∧ i ≤ hi 0 ∧ lo 1 ≤ j ∧ j ≤ hi 1 ∧ ((face = 4 ∧ k = lo 2) ∨ (face = 5 ∧ k = hi 2))) ∨
    (type = 2 ∧ 0 ≤ face ∧ face < 4 ∧ i = lo 0 ∧ j = lo 1 ∧ lo 2 ≤ k ∧ k ≤ hi 2) ∨
    (type = 2 ∧ 4 ≤ face ∧ face < 8 ∧ i = lo 0 ∧ k = lo 2 ∧ lo 1 ≤ j ∧ j ≤ hi 1) ∨
    (type = 2 ∧ 8 ≤ face ∧ face < 12 ∧ j = lo 1 ∧ k = lo 2 ∧ lo 0 ≤ i ∧ i ≤ hi 0) ∨
    (type = 3 ∧ 0 ≤ face ∧ face < 8 ∧ i = lo 0 ∧ j = lo 1 ∧ k = lo 2))

/-- 2D: the cells outside the box next to side `face`: those next to a cell of the segment, and the two corners -/
def beside2 (i0 j0 i1 j1 : Int) (lo hi : Nat → Int) (face : Int) (c : List Int) : Prop := ∃ i j, c = [i, j] ∧
  ((((face = 0 ∧ i = i0 - 1) ∨ (face = 1 ∧ i = i1 + 1)) ∧ ((j0 ≤ j ∧ j ≤ j1 ∧ lo 1 ≤ j ∧ j ≤ hi 1) ∨ j = j0 - 1 ∨ j = j1 + 1)) ∨
    (((face = 2 ∧ j = j0 - 1) ∨ (face = 3 ∧ j = j1 + 1)) ∧ ((i0 ≤ i ∧ i ≤ i1 ∧ lo 0 ≤ i ∧ i ≤ hi 0) ∨ i = i0 - 1 ∨ i = i1 + 1)))

end Verif.F
