import Verif.Spec.Eliminate
import Verif.Spec.Converge

/-
The two ways to apply an operator next to a boundary without a value given there: fill the ghost cells and apply the rows, or adjust the rows and leave out
the ghost cells.
-/

namespace Verif.F

variable {T : Type}

/-- In the cells of `L`, the rows `S` on the values `U'`, ghost cells filled, give what the rows `S'` give on the values `U` with 0 in the place of the
ghost cell. Entry `g` belongs to the ghost cell, entry `e` to the cell displaced by `O e`. -/
def Folded [Zero T] [Add T] [Mul T] (N : Int) (O : Int → List Int) (S S' U U' : List Int → T) (L : List Int → Prop) (g : Int) : Prop :=
  ∀ c, L c → rowOf N S c (fun e => U' (shift c (O e))) = rowOf N S' c (fun e => if e = g then 0 else U (shift c (O e)))

end Verif.F
