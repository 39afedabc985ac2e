import Verif.Spec.Eliminate

/-
What adjusting the coefficients of a cell next to a coarse-fine boundary is for: the row of the cell, with the value of the coarse cell in the place
of the ghost cell, acts as the row before the adjustment with the ghost value in its place.  Along the normal of the face, with the face at 0, the
fine cell is at `h/2`, the next fine cell at `3h/2`, the ghost cell at `-h/2`, and the coarse cell, `r` times as wide, at `-r h/2`.
-/

namespace Verif.F
open Polynomial

variable {T : Type}

/-- Row `c` of `S'` is row `c` of `S` with the ghost value taken from the coarse cell: entry `u` belongs to the ghost cell, entry `v` to the cell
opposite to it. For every polynomial `p` whose degree is at most the order of the interpolation, the row of `S'` on values with the coarse value of
`p` in the ghost cell is the row of `S` on the same values with that of `p` in the ghost cell. -/
def Bridges [Field T] (N : Int) (S S' : List Int → T) (c : List Int) (u v r : Int) (order : Nat) (h : T) : Prop :=
  ∀ (p : T[X]) (X : Int → T), p.natDegree ≤ order → X 0 = p.eval (1 / 2 * h) → (2 ≤ order → X v = p.eval (3 / 2 * h)) →
    rowOf N S' c (fun e => if e = u then p.eval (-((r : T) / 2) * h) else X e) = rowOf N S c (fun e => if e = u then p.eval (-(1 / 2) * h) else X e)

/-- The rows `S'` are the rows `S` with the ghost values taken from coarse cells in the cells of `L`, and the same in the other cells of `P`. -/
def Bridged [Field T] (N : Int) (S S' : List Int → T) (P L : List Int → Prop) (u v r : Int) (order : Nat) (h : T) : Prop :=
  (∀ c, L c → Bridges N S S' c u v r order h) ∧ ∀ c, P c → ¬ L c → ∀ e, 0 ≤ e → e ≤ N → S' (e :: c) = S (e :: c)

end Verif.F
