import Verif.Spec.Boundary
import Verif.Spec.Accuracy

/-
Boundary value problems for the differential operator that the operator kernels approximate: conditions for a function at the centres of the boundary
faces, along the normals that point into the box.
-/

namespace Verif.F

/-- The conditions of `Meets` for a function `f` along the normal, the face at 0 and the box on the positive side: a given value (0), no slope (1), and
`2 b ∂u/∂n + u = g` with the normal pointing out of the box (4). -/
def Condition (btype : Int) (b g : ℝ) (f : ℝ → ℝ) : Prop :=
  (btype = 0 ∧ f 0 = g) ∨ (btype = 1 ∧ deriv f 0 = 0) ∨ (btype = 4 ∧ 2 * b * -deriv f 0 + f 0 = g)

/-- the values of `φ` on the normal through the centre of a face of cell `p`, 1D: the lower face (`e = 1`) or the upper one -/
noncomputable def normal1 (o dx : Nat → ℝ) (φ : ℝ → ℝ) (e : Int) (p : List Int) (s : ℝ) : ℝ :=
  if e = 1 then φ (face (o 0) (dx 0) (p.getD 0 0) + s) else φ (face (o 0) (dx 0) (p.getD 0 0 + 1) - s)

/-- 2D: the lower and upper faces across axis 0 (1, 2) and axis 1 (3, 4) -/
noncomputable def normal2 (o dx : Nat → ℝ) (φ : ℝ → ℝ → ℝ) (e : Int) (p : List Int) (s : ℝ) : ℝ :=
  if e = 1 then φ (face (o 0) (dx 0) (p.getD 0 0) + s) (centre (o 1) (dx 1) (p.getD 1 0))
  else if e = 2 then φ (face (o 0) (dx 0) (p.getD 0 0 + 1) - s) (centre (o 1) (dx 1) (p.getD 1 0))
  else if e = 3 then φ (centre (o 0) (dx 0) (p.getD 0 0)) (face (o 1) (dx 1) (p.getD 1 0) + s)
  else φ (centre (o 0) (dx 0) (p.getD 0 0)) (face (o 1) (dx 1) (p.getD 1 0 + 1) - s)

/-- 3D: the lower and upper faces across axis 0 (1, 2), axis 1 (3, 4) and axis 2 (5, 6) -/
noncomputable def normal3 (o dx : Nat → ℝ) (φ : ℝ → ℝ → ℝ → ℝ) (e : Int) (p : List Int) (s : ℝ) : ℝ :=
  if e = 1 then φ (face (o 0) (dx 0) (p.getD 0 0) + s) (centre (o 1) (dx 1) (p.getD 1 0)) (centre (o 2) (dx 2) (p.getD 2 0))
  else if e = 2 then φ (face (o 0) (dx 0) (p.getD 0 0 + 1) - s) (centre (o 1) (dx 1) (p.getD 1 0)) (centre (o 2) (dx 2) (p.getD 2 0))
  else if e = 3 then φ (centre (o 0) (dx 0) (p.getD 0 0)) (face (o 1) (dx 1) (p.getD 1 0) + s) (centre (o 2) (dx 2) (p.getD 2 0))
  else if e = 4 then φ (centre (o 0) (dx 0) (p.getD 0 0)) (face (o 1) (dx 1) (p.getD 1 0 + 1) - s) (centre (o 2) (dx 2) (p.getD 2 0))
  else if e = 5 then φ (centre (o 0) (dx 0) (p.getD 0 0)) (centre (o 1) (dx 1) (p.getD 1 0)) (face (o 2) (dx 2) (p.getD 2 0) + s)
  else φ (centre (o 0) (dx 0) (p.getD 0 0)) (centre (o 1) (dx 1) (p.getD 1 0)) (face (o 2) (dx 2) (p.getD 2 0 + 1) - s)

/-- the mesh width across the faces that row `e` of the table leads through -/
def across {T : Type} (dx : Nat → T) (e : Int) : T := dx ((e - 1) / 2).toNat

/-- a function, by its values `N` on the normals, fulfils the conditions of the pieces with data `D` exactly; the pieces are on a mesh of widths `dx` -/
def Exact (dx : Nat → ℝ) (O : Int → List Int) (ps : List (Piece ℝ)) (D : List Int → ℝ) (N : Int → List Int → ℝ → ℝ) : Prop :=
  ∀ k ∈ ps, k.width = across dx k.ghost ∧ ∀ p, k.cells p → Condition k.btype (k.coef p) (D (shift p (O k.ghost))) (N k.ghost p)

/-- along one line: second and third derivative are at most `M2` and `M3` between `lo` and `hi` -/
def Bends (f : ℝ → ℝ) (lo hi M2 M3 : ℝ) : Prop := ∀ x, lo ≤ x → x ≤ hi → |iteratedDeriv 2 f x| ≤ M2 ∧ |iteratedDeriv 3 f x| ≤ M3

/-- along one line: a coefficient and its derivative are at most `k` and `l` between `lo` and `hi` -/
def Varies (b : ℝ → ℝ) (lo hi k l : ℝ) : Prop := ∀ x, lo ≤ x → x ≤ hi → |b x| ≤ k ∧ |deriv b x| ≤ l

/-- the extent of the cells `lo` to `hi` of a mesh of width `h` -/
noncomputable def extent (h : ℝ) (lo hi : Int) : ℝ := ((hi + 1 - lo : Int) : ℝ) * h

end Verif.F
