import Verif.Spec.Smooth

/-
Terms of the equations of the cells of a box moved to the right hand side.
-/

namespace Verif.F

variable {T : Type}

/-- a call on the cells of `box`: a table of `n` displacements `O`, numbered from `first`, coefficients `S` (the index of the displacement first), right
hand side `B`, values `U`; every cell has its coefficients and its right hand side; the right hand side shares no element with the others -/
structure RhsCall (m : Mem T) (box : List (Int × Int)) (first n : Int) (tab st f u : Arr) (O : Int → List Int) (S B U : List Int → T) : Prop where
  table : ∀ s, first ≤ s → s < first + n → (O s).length = box.length ∧ ∀ c : Nat, ∀ z, (O s)[c]? = some z → IntEl m tab [first + c, s] z
  holdsSt : Holds m st S
  holdsF : Holds m f B
  holdsU : Holds m u U
  inSt : ∀ p, InBounds box p → ∀ s, first ≤ s → s < first + n → InBounds st.dims (s :: p)
  inF : ∀ p, InBounds box p → InBounds f.dims p
  apartSt : Apart f st
  apartU : Apart f u

/-- no displacement is longer than one along any axis -/
def Compact (n : Int) (O : Int → List Int) : Prop := ∀ s, 0 ≤ s → s < n → ∀ z ∈ O s, -1 ≤ z ∧ z ≤ 1

/-- the values of `U` at the cells with coordinate `x` on axis `d`, 0 elsewhere -/
def onLayer [Zero T] (d : Nat) (x : Int) (U : List Int → T) (q : List Int) : T := if q[d]? = some x then U q else 0

/-- the values of `U` at the other cells, 0 at the cells with coordinate `x` on axis `d` -/
def offLayer [Zero T] (d : Nat) (x : Int) (U : List Int → T) (q : List Int) : T := if q[d]? = some x then 0 else U q

end Verif.F
