import Verif.Spec.Elements
import Verif.Spec.Kernels.ApplyStencil

/-
What smoothers compute: the cells of a box, the order in which nested loops visit them, the equation of a cell and its solution for the value
at the cell.
-/

namespace Verif.F

variable {T : Type}

/-- `V` gives the contents of the array -/
def Holds (m : Mem T) (a : Arr) (V : List Int → T) : Prop := ∀ is, InBounds a.dims is → El m a is (V is)

/-- only elements of the listed arrays may differ -/
structure Only (as : List Arr) (m m' : Mem T) : Prop where
  val : ∀ q, (∀ a ∈ as, ∀ is, InBounds a.dims is → a.ptr.add (colMajor a.dims is) ≠ q) → m'.val q = m.val q
  ints : m'.ints = m.ints

/-- the cell displaced by `o` -/
def shift (p o : List Int) : List Int := List.zipWith (· + ·) p o

/-- nested loops, the first index innermost, reach the first cell before the second -/
def Before : List Int → List Int → Prop
  | a :: as, b :: bs => Before as bs ∨ (as = bs ∧ a < b)
  | _, _ => False

instance decBefore : ∀ as bs : List Int, Decidable (Before as bs)
  | _ :: as, _ :: bs =>
    have := decBefore as bs
    inferInstanceAs (Decidable (_ ∨ _))
  | [], _ => isFalse (by simp [Before])
  | _ :: _, [] => isFalse (by simp [Before])

/-- a call of a smoother on the cells of `box`: a table of `n` displacements `O`, coefficients `S` (the index of the displacement first), right hand
side `F`, unknowns `U`; every cell has its coefficients and its right hand side, every displaced cell is an element of `u`; `u` shares no element
with the others -/
structure Problem (m : Mem T) (box : List (Int × Int)) (n : Int) (tab st f u : Arr) (O : Int → List Int) (S F U : List Int → T) : Prop where
  size : 1 ≤ n
  table : ∀ s, 0 ≤ s → s < n → (O s).length = box.length ∧ ∀ c : Nat, ∀ z, (O s)[c]? = some z → IntEl m tab [(c : Int), s] z
  holdsSt : Holds m st S
  holdsF : Holds m f F
  holdsU : Holds m u U
  inSt : ∀ p, InBounds box p → ∀ s, 0 ≤ s → s < n → InBounds st.dims (s :: p)
  inF : ∀ p, InBounds box p → InBounds f.dims p
  inU : ∀ p, InBounds box p → InBounds u.dims p
  near : ∀ p, InBounds box p → ∀ s, 0 ≤ s → s < n → InBounds u.dims (shift p (O s))
  apartSt : Apart u st
  apartF : Apart u f

/-- the value at `p` that solves the equation of cell `p` when the values at the other displaced cells are those of `W`; the terms are subtracted
in the order of the table -/
def solve [Sub T] [Mul T] [Div T] (n : Int) (O : Int → List Int) (S F W : List Int → T) (p : List Int) : T :=
  ((irange 1 (n - 1)).foldl (fun r s => r - S (s :: p) * W (shift p (O s))) (F p)) / S (0 :: p)

/-- right hand side less all terms in the order of the table, over the diagonal coefficient -/
def scaled [Sub T] [Mul T] [Div T] (n : Int) (O : Int → List Int) (S F W : List Int → T) (p : List Int) : T :=
  ((irange 0 (n - 1)).foldl (fun r s => r - S (s :: p) * W (shift p (O s))) (F p)) / S (0 :: p)

/-- the equation of cell `p` -/
def Eqn [Zero T] [Add T] [Mul T] (n : Int) (O : Int → List Int) (S F W : List Int → T) (p : List Int) : Prop :=
  sum 0 (n - 1) (fun s => S (s :: p) * W (shift p (O s))) = F p

/-- the result of a Gauss-Seidel sweep over the cells `P` in the order of nested loops: each cell of `P` gets the solution of its equation, formed from
the new values of the cells reached before it and the old values of all others; the other cells keep their values -/
structure Swept [Sub T] [Mul T] [Div T] (P : List Int → Prop) [DecidablePred P] (n : Int) (O : Int → List Int) (S F U U' : List Int → T) : Prop where
  other : ∀ p, ¬ P p → U' p = U p
  cell : ∀ p, P p → U' p = solve n O S F (fun q => if P q ∧ Before q p then U' q else U q) p

/-- the chequerboard: first index, counted from `lo0`, less the other indices, has the parity of `color` -/
def Colour (lo0 color : Int) : List Int → Prop
  | i :: is => (i - lo0 - is.sum - color) % 2 = 0
  | [] => False

instance decColour (lo0 color : Int) : DecidablePred (Colour lo0 color)
  | _ :: _ => inferInstanceAs (Decidable (_ = _))
  | [] => isFalse id

/-- the table of displacements contains the listed rows -/
def Rows (m : Mem T) (tab : Arr) (rows : List (List Int)) : Prop :=
  ∀ s c : Nat, ∀ row z, rows[s]? = some row → row[c]? = some z → IntEl m tab [(c : Int), (s : Int)] z

/-- every displacement after the first leads to a cell of the other colour -/
def OddSteps (n : Int) (O : Int → List Int) : Prop := ∀ s, 1 ≤ s → s < n → (O s).sum % 2 = 1

/-- the first displacement is none: the diagonal coefficient comes first -/
def Diag (N : Nat) (O : Int → List Int) : Prop := O 0 = List.replicate N 0

end Verif.F
