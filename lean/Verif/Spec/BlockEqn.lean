import Verif.Spec.Smooth

/-
Equations with several unknowns per cell: every cell has a vector of `d` unknowns (the first index of the array, counted from 1), every entry of the
table couples two cells by a `d` by `d` matrix.
-/

namespace Verif.F

variable {T : Type}

/-- the matrix of entry `s` in cell `p`, stored by columns as the second index of the array of coefficients -/
def coup (d : Int) (S : List Int → T) (s : Int) (p : List Int) (a b : Int) : T := S (s :: ((b - 1) * d + a) :: p)

/-- component `a` of the product with the matrix of entry `s`, the vector being that of the displaced cell -/
def coupled [Zero T] [Add T] [Mul T] (d : Int) (O : Int → List Int) (S W : List Int → T) (s : Int) (p : List Int) (a : Int) : T :=
  sum 1 d fun b => coup d S s p a b * W (b :: shift p (O s))

/-- the equations of cell `p`, with the entries `1, ..., n` of the table -/
def BlockEqn [Zero T] [Add T] [Mul T] (n d : Int) (O : Int → List Int) (S B W : List Int → T) (p : List Int) : Prop :=
  ∀ a, 1 ≤ a → a ≤ d → sum 1 n (fun s => coupled d O S W s p a) = B (a :: p)

/-- `x` solves the system with matrix `A` and right hand side `b` -/
def Solution [Zero T] [Add T] [Mul T] (d : Int) (A : Int → Int → T) (b x : Int → T) : Prop := ∀ a, 1 ≤ a → a ≤ d → sum 1 d (fun c => A a c * x c) = b a

/-- only 0 solves the system with right hand side 0 -/
def Regular [Zero T] [Add T] [Mul T] (d : Int) (A : Int → Int → T) : Prop := ∀ x, Solution d A (fun _ => 0) x → ∀ a, 1 ≤ a → a ≤ d → x a = 0

/-- what LAPACK promises in exact arithmetic: the solution when the matrix is regular -/
def Solves [Zero T] [Add T] [Mul T] (solve : Int → (Int → Int → T) → (Int → T) → Int → T) : Prop := ∀ d A b, Regular d A → Solution d A b (solve d A b)

/-- a call on the cells of a box in three dimensions with `d` unknowns per cell and a table of `n` displacements, the first one none; `u` and `r` share no
element with the other arrays or each other -/
structure BlockProblem (m : Mem T) (box : List (Int × Int)) (n d : Int) (tab st f u r : Arr) (O : Int → List Int) (S B U : List Int → T) : Prop where
  size : 1 ≤ n
  dof : 1 ≤ d
  table : ∀ s, 1 ≤ s → s ≤ n → (O s).length = box.length ∧ ∀ c : Nat, ∀ z, (O s)[c]? = some z → IntEl m tab [(c : Int) + 1, s] z
  holdsSt : Holds m st S
  holdsB : Holds m f B
  holdsU : Holds m u U
  holdsR : ∃ R, Holds m r R
  inSt : ∀ p, InBounds box p → ∀ s a b, 1 ≤ s → s ≤ n → 1 ≤ a → a ≤ d → 1 ≤ b → b ≤ d → InBounds st.dims (s :: ((b - 1) * d + a) :: p)
  inF : ∀ p, InBounds box p → ∀ a, 1 ≤ a → a ≤ d → InBounds f.dims (a :: p)
  inU : ∀ p, InBounds box p → ∀ a, 1 ≤ a → a ≤ d → InBounds u.dims (a :: p)
  inR : ∀ p, InBounds box p → ∀ a, 1 ≤ a → a ≤ d → InBounds r.dims (a :: p)
  near : ∀ p, InBounds box p → ∀ s a, 2 ≤ s → s ≤ n → 1 ≤ a → a ≤ d → InBounds u.dims (a :: shift p (O s))
  apartSt : ∀ a ∈ [u, r], Apart a st
  apartF : ∀ a ∈ [u, r], Apart a f
  apartU : Apart r u

/-- In every cell of the box a vector is added to the unknowns.  It solves the system with the diagonal matrix and the right hand side less the terms of the
other entries of the table, with the values then current: those of `U'` in the cells before in the order of nested loops, those of `U` in the others. -/
structure Added [Zero T] [Add T] [Sub T] [Mul T] (box : List (Int × Int)) (n d : Int) (O : Int → List Int) (S B U U' : List Int → T) : Prop where
  other : ∀ q, ¬ (∃ a p, q = a :: p ∧ 1 ≤ a ∧ a ≤ d ∧ InBounds box p) → U' q = U q
  cell : ∀ p, InBounds box p → ∃ x, (∀ a, 1 ≤ a → a ≤ d → U' (a :: p) = U (a :: p) + x a) ∧
    (Regular d (coup d S 1 p) → Solution d (coup d S 1 p)
      (fun a => B (a :: p) - sum 2 n fun s => coupled d O S (fun q => if InBounds box q.tail ∧ Before q.tail p then U' q else U q) s p a) x)

end Verif.F
