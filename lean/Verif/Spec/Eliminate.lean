import Verif.Spec.Smooth
import Mathlib.Algebra.Polynomial.Derivative
import Mathlib.Algebra.Polynomial.Eval.Degree
import Mathlib.Algebra.Field.Basic

/-
What adjusting the coefficients of a cell next to the boundary is for: the row of the cell, with the value given on the boundary in the place of
the ghost cell, acts as the row before the adjustment with the ghost value in its place.  Along the normal of the boundary face, with the face at
0, the cell is at `h/2`, the next cell of the box at `3h/2` and the ghost cell at `-h/2`.
-/

namespace Verif.F
open Polynomial

variable {T : Type}

/-- Boundary conditions by type (0 Dirichlet, 1 Neumann, 4 Robin) and order of extrapolation: `p` along the normal meets the condition with the value
`g` on the face, and has the degree that the order stands for.  Neumann is without a value: the slope is 0.  Robin means `2 b ∂u/∂n + u = g` with the normal pointing out of the box. -/
def Meets [Field T] (btype exOrder : Int) (b g : T) (p : T[X]) : Prop :=
  (btype = 0 ∧ exOrder = 1 ∧ p.natDegree ≤ 1 ∧ p.eval 0 = g) ∨
  (btype = 0 ∧ exOrder = 2 ∧ p.natDegree ≤ 2 ∧ p.eval 0 = g) ∨
  (btype = 1 ∧ p.natDegree ≤ 2 ∧ p.derivative.eval 0 = 0) ∨
  (btype = 4 ∧ exOrder = 1 ∧ p.natDegree ≤ 1 ∧ 2 * b * -p.derivative.eval 0 + p.eval 0 = g) ∨
  (btype = 4 ∧ exOrder = 2 ∧ p.natDegree ≤ 2 ∧ 2 * b * -p.derivative.eval 0 + p.eval 0 = g)

/-- the row of cell `c` applied to the values `X`, the coefficients numbered from 0 to `N` -/
def rowOf [Zero T] [Add T] [Mul T] (N : Int) (S : List Int → T) (c : List Int) (X : Int → T) : T := sum 0 N fun e => S (e :: c) * X e

/-- Row `c` of `S'` is row `c` of `S` with the ghost value eliminated: entry `u` belongs to the ghost cell, entry `v` to the cell opposite to it. For
every `p` that meets the boundary condition with value `g`, the row of `S'` on values with `g` in the ghost cell is the row of `S` on the same
values with that of `p` in the ghost cell. -/
def Eliminates [Field T] (N : Int) (S S' : List Int → T) (c : List Int) (u v btype exOrder : Int) (h b : T) : Prop :=
  ∀ (p : T[X]) (g : T) (X : Int → T), Meets btype exOrder b g p → X 0 = p.eval (1 / 2 * h) → (btype ≠ 1 → exOrder = 2 → X v = p.eval (3 / 2 * h)) →
    rowOf N S' c (fun e => if e = u then g else X e) = rowOf N S c (fun e => if e = u then p.eval (-(1 / 2) * h) else X e)

/-- The rows `S'` are the rows `S` with the ghost values eliminated in the cells of `L`, and the same in the other cells of `P`. `b` is the coefficient on
the boundary face of a cell. -/
def Eliminated [Field T] (N : Int) (S S' : List Int → T) (P L : List Int → Prop) (u v btype exOrder : Int) (h : T) (b : List Int → T) : Prop :=
  (∀ c, L c → Eliminates N S S' c u v btype exOrder h (b c)) ∧ ∀ c, P c → ¬ L c → ∀ e, 0 ≤ e → e ≤ N → S' (e :: c) = S (e :: c)

/-- the cell of the box next to the boundary box `p`, one cell thick, on side 0 (lower) or 1 (upper) -/
def layer1 (pi0 side : Int) (c : List Int) : Prop := c = [pi0 - 2 * side + 1]

/-- the cells of the box next to the boundary box `p` in direction `dir` -/
def layer2 (pi0 pj0 pi1 pj1 dir side : Int) (c : List Int) : Prop := ∃ i j, c = [i, j] ∧
  ((dir = 0 ∧ i = pi0 - 2 * side + 1 ∧ pj0 ≤ j ∧ j ≤ pj1) ∨ (dir = 1 ∧ j = pj0 - 2 * side + 1 ∧ pi0 ≤ i ∧ i ≤ pi1))

/-- the cells of the box next to the boundary box `p` in direction `dir` -/
def layer3 (pi0 pj0 pk0 pi1 pj1 pk1 dir side : Int) (c : List Int) : Prop := ∃ i j k, c = [i, j, k] ∧
  ((dir = 0 ∧ i = pi0 - 2 * side + 1 ∧ pj0 ≤ j ∧ j ≤ pj1 ∧ pk0 ≤ k ∧ k ≤ pk1) ∨
    (dir = 1 ∧ j = pj0 - 2 * side + 1 ∧ pi0 ≤ i ∧ i ≤ pi1 ∧ pk0 ≤ k ∧ k ≤ pk1) ∨
    (dir = 2 ∧ k = pk0 - 2 * side + 1 ∧ pi0 ≤ i ∧ i ≤ pi1 ∧ pj0 ≤ j ∧ j ≤ pj1))

/-- the coefficient on the face of cell `c` on side `side`, 1D -/
def onFace1 [Zero T] (B0 : List Int → T) (side : Int) : List Int → T
  | [i] => B0 [i + side]
  | _ => 0

/-- the coefficient on the face of cell `c` in direction `dir` on side `side`, 2D -/
def onFace2 [Zero T] (B0 B1 : List Int → T) (dir side : Int) : List Int → T
  | [i, j] => if dir = 0 then B0 [i + side, j] else B1 [j + side, i]
  | _ => 0

/-- the coefficient on the face of cell `c` in direction `dir` on side `side`, 3D -/
def onFace3 [Zero T] (B0 B1 B2 : List Int → T) (dir side : Int) : List Int → T
  | [i, j, k] => if dir = 0 then B0 [i + side, j, k] else if dir = 1 then B1 [j + side, k, i] else B2 [k + side, i, j]
  | _ => 0

end Verif.F
