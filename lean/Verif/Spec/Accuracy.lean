import Mathlib.Analysis.Calculus.ContDiff.Basic
import Mathlib.Analysis.Calculus.IteratedDeriv.Defs

/-
What the operator kernels approximate: a differential operator applied to a function on the line, the plane or in space, sampled in the centres of
the cells, with coefficients sampled in the centres of the cells and of the faces.
-/

namespace Verif.F

/-- the centre of cell `i` of a mesh of width `h` whose cell 0 begins at `o` -/
noncomputable def centre (o h : ℝ) (i : Int) : ℝ := o + (i + 1 / 2) * h

/-- the lower face of cell `i` -/
noncomputable def face (o h : ℝ) (i : Int) : ℝ := o + i * h

/-- samples in the cells, 1D -/
noncomputable def cells1 (o dx : Nat → ℝ) (φ : ℝ → ℝ) (p : List Int) : ℝ := φ (centre (o 0) (dx 0) (p.getD 0 0))

/-- samples on the faces, 1D -/
noncomputable def faces1 (o dx : Nat → ℝ) (b : ℝ → ℝ) (p : List Int) : ℝ := b (face (o 0) (dx 0) (p.getD 0 0))

/-- samples in the cells, 2D -/
noncomputable def cells2 (o dx : Nat → ℝ) (φ : ℝ → ℝ → ℝ) (p : List Int) : ℝ := φ (centre (o 0) (dx 0) (p.getD 0 0)) (centre (o 1) (dx 1) (p.getD 1 0))

/-- samples on the faces across axis 0, 2D -/
noncomputable def faces20 (o dx : Nat → ℝ) (b : ℝ → ℝ → ℝ) (p : List Int) : ℝ := b (face (o 0) (dx 0) (p.getD 0 0)) (centre (o 1) (dx 1) (p.getD 1 0))

/-- samples on the faces across axis 1, 2D, indexed with axis 1 first -/
noncomputable def faces21 (o dx : Nat → ℝ) (b : ℝ → ℝ → ℝ) (p : List Int) : ℝ := b (centre (o 0) (dx 0) (p.getD 1 0)) (face (o 1) (dx 1) (p.getD 0 0))

/-- samples in the cells, 3D -/
noncomputable def cells3 (o dx : Nat → ℝ) (φ : ℝ → ℝ → ℝ → ℝ) (p : List Int) : ℝ :=
  φ (centre (o 0) (dx 0) (p.getD 0 0)) (centre (o 1) (dx 1) (p.getD 1 0)) (centre (o 2) (dx 2) (p.getD 2 0))

/-- samples on the faces across axis 0, 3D -/
noncomputable def faces30 (o dx : Nat → ℝ) (b : ℝ → ℝ → ℝ → ℝ) (p : List Int) : ℝ :=
  b (face (o 0) (dx 0) (p.getD 0 0)) (centre (o 1) (dx 1) (p.getD 1 0)) (centre (o 2) (dx 2) (p.getD 2 0))

/-- samples on the faces across axis 1, 3D, indexed in the order of the axes 1, 2, 0 -/
noncomputable def faces31 (o dx : Nat → ℝ) (b : ℝ → ℝ → ℝ → ℝ) (p : List Int) : ℝ :=
  b (centre (o 0) (dx 0) (p.getD 2 0)) (face (o 1) (dx 1) (p.getD 0 0)) (centre (o 2) (dx 2) (p.getD 1 0))

/-- samples on the faces across axis 2, 3D, indexed in the order of the axes 2, 0, 1 -/
noncomputable def faces32 (o dx : Nat → ℝ) (b : ℝ → ℝ → ℝ → ℝ) (p : List Int) : ℝ :=
  b (centre (o 0) (dx 0) (p.getD 1 0)) (centre (o 1) (dx 1) (p.getD 2 0)) (face (o 2) (dx 2) (p.getD 0 0))

/-- `alpha a φ - beta (b φ')'` -/
noncomputable def diffusion1 (alpha beta : ℝ) (a b φ : ℝ → ℝ) (x : ℝ) : ℝ := alpha * a x * φ x - beta * deriv (fun s => b s * deriv φ s) x

/-- `alpha a φ - beta (∂x (b0 ∂x φ) + ∂y (b1 ∂y φ))` -/
noncomputable def diffusion2 (alpha beta : ℝ) (a b0 b1 φ : ℝ → ℝ → ℝ) (x y : ℝ) : ℝ :=
  alpha * a x y * φ x y - beta * (deriv (fun s => b0 s y * deriv (fun s => φ s y) s) x + deriv (fun s => b1 x s * deriv (fun s => φ x s) s) y)

/-- `alpha a φ - beta (∂x (b0 ∂x φ) + ∂y (b1 ∂y φ) + ∂z (b2 ∂z φ))` -/
noncomputable def diffusion3 (alpha beta : ℝ) (a b0 b1 b2 φ : ℝ → ℝ → ℝ → ℝ) (x y z : ℝ) : ℝ :=
  alpha * a x y z * φ x y z - beta * (deriv (fun s => b0 s y z * deriv (fun s => φ s y z) s) x +
    deriv (fun s => b1 x s z * deriv (fun s => φ x s z) s) y + deriv (fun s => b2 x y s * deriv (fun s => φ x y s) s) z)

/-- the sum of the second derivatives, 2D -/
noncomputable def laplace2 (φ : ℝ → ℝ → ℝ) (x y : ℝ) : ℝ := iteratedDeriv 2 (fun s => φ s y) x + iteratedDeriv 2 (fun s => φ x s) y

/-- the sum of the second derivatives, 3D -/
noncomputable def laplace3 (φ : ℝ → ℝ → ℝ → ℝ) (x y z : ℝ) : ℝ :=
  iteratedDeriv 2 (fun s => φ s y z) x + iteratedDeriv 2 (fun s => φ x s z) y + iteratedDeriv 2 (fun s => φ x y s) z

/-- along one line: `φ` has four, `b` three continuous derivatives, and between `lo` and `hi` the third derivative of `b φ'`, `b' φ'''` and `b φ''''`
are bounded, the sum of the bounds being at most `C` -/
structure SmoothFlux (φ b : ℝ → ℝ) (lo hi C : ℝ) : Prop where
  field : ContDiff ℝ 4 φ
  coef : ContDiff ℝ 3 b
  bound : ∃ K B B' M3 M4 : ℝ, K + B' * M3 + B * M4 ≤ C ∧ ∀ x, lo ≤ x → x ≤ hi →
    |iteratedDeriv 3 (fun s => b s * deriv φ s) x| ≤ K ∧ |b x| ≤ B ∧ |deriv b x| ≤ B' ∧ |iteratedDeriv 3 φ x| ≤ M3 ∧ |iteratedDeriv 4 φ x| ≤ M4

/-- along one line: `φ` has four continuous derivatives, the fourth at most `C` between `lo` and `hi` -/
structure SmoothField (φ : ℝ → ℝ) (lo hi C : ℝ) : Prop where
  field : ContDiff ℝ 4 φ
  bound : ∀ x, lo ≤ x → x ≤ hi → |iteratedDeriv 4 φ x| ≤ C

end Verif.F
