import Verif.Spec.Parallel
import Verif.Model.Assign

/-
What an assignment statement means.
-/

namespace Verif.Spec

variable {T : Type}

/-- value of a right hand side at a point -/
def rhsDen (m : Mem T) (dims : List Dim) : Rhs T → Pt → M T
  | .num t, _ => .ok t
  | .expr e, p =>
    match den m dims e p with
    | .ok (.num x) => .ok x
    | .ok (.pair _ _) => .error .illFormed
    | .error u => .error u

/-- cells a right hand side looks at -/
def rhsReads (tab : Ptr → Option Int) (dims : List Dim) : Rhs T → Pt → List Ptr
  | .num _, _ => []
  | .expr e, p => reads tab dims e p

/-- `m'` is `m` with the element of array `s` at every point of the domain replaced by `f`, and nothing else changed -/
structure Assigned (m : Mem T) (s : Span) (D : List (Dim × Bounds)) (f : Pt → T) (m' : Mem T) : Prop where
  at_ : ∀ p, InDom D p → m'.val (cell s p) = some (f p)
  frame : ∀ q, (∀ p, InDom D p → cell s p ≠ q) → m'.val q = m.val q
  ints : m'.ints = m.ints

/-- no right hand side looks at a cell that is assigned at another point -/
def NoAlias (tab : Ptr → Option Int) (s : Span) (D : List (Dim × Bounds)) (r : Rhs T) : Prop :=
  ∀ p q, InDom D p → InDom D q → cell s p ∈ rhsReads tab (D.map (·.1)) r q → cell s p = cell s q

end Verif.Spec
