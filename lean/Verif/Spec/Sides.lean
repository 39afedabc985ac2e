import Verif.Spec.Touched
import Verif.Spec.Segment
import Verif.Spec.Parallel

/-
Several calls of a boundary condition kernel, one after the other, and where their segments lie.
-/

namespace Verif.Spec

/-- what distinguishes the calls of a boundary condition kernel for one field: the segment, the order, the side (edge, corner), the boundary type, the
coefficients, the schedules -/
structure BcCall (T : Type) where
  lo : Nat → Int
  hi : Nat → Int
  order : Int
  face : Int
  btype : Int
  alpha : T
  beta : T
  sched : Nat → Backend

/-- calls one after the other -/
def inOrder {T C : Type} (call : C → Mem T → M (Mem T)) : List C → Mem T → M (Mem T)
  | [], m => .ok m
  | c :: cs, m => do
    let m' ← call c m
    inOrder call cs m'

/-- the bounds of the segment can be incremented, the schedules are admissible -/
def BcCall.Usable {T : Type} (d : Nat) (c : BcCall T) : Prop := (∀ n < d, InInt (c.lo n + 1) ∧ InInt (c.hi n + 1)) ∧ ∀ n, ValidBackend (c.sched n)

/-- 1D: the segment is the cell next to the box -/
def BcCall.Along1 {T : Type} (i0 i1 : Int) (c : BcCall T) : Prop := (c.face = 0 → c.lo 0 = i0 - 1) ∧ (c.face = 1 → c.hi 0 = i1 + 1)

/-- 2D: the segment is made of cells next to the box; sides (type 1) or corners (type 2), numbered as in the kernels -/
def BcCall.Along2 {T : Type} (type i0 j0 i1 j1 : Int) (c : BcCall T) : Prop :=
  (type = 1 → c.face = 0 → c.lo 0 = i0 - 1 ∧ Part j0 j1 (c.lo 1) (c.hi 1)) ∧
  (type = 1 → c.face = 1 → c.hi 0 = i1 + 1 ∧ Part j0 j1 (c.lo 1) (c.hi 1)) ∧
  (type = 1 → c.face = 2 → c.lo 1 = j0 - 1 ∧ Part i0 i1 (c.lo 0) (c.hi 0)) ∧
  (type = 1 → c.face = 3 → c.hi 1 = j1 + 1 ∧ Part i0 i1 (c.lo 0) (c.hi 0)) ∧
  (type = 2 → c.face = 0 → c.lo 0 = i0 - 1 ∧ c.lo 1 = j0 - 1) ∧
  (type = 2 → c.face = 1 → c.hi 0 = i1 + 1 ∧ c.lo 1 = j0 - 1) ∧
  (type = 2 → c.face = 2 → c.lo 0 = i0 - 1 ∧ c.hi 1 = j1 + 1) ∧
  (type = 2 → c.face = 3 → c.hi 0 = i1 + 1 ∧ c.hi 1 = j1 + 1)

/-- the cell next to `lo..hi` at its lower (`down`) or upper end -/
def nextTo (lo hi : Int) (down : Prop) [Decidable down] : Int := if down then lo - 1 else hi + 1

/-- 3D: the segment is made of cells next to the box; sides (type 1), edges (type 2) or corners (type 3), numbered as in the kernels -/
def BcCall.Along3 {T : Type} (type i0 j0 k0 i1 j1 k1 : Int) (c : BcCall T) : Prop :=
  (type = 1 → c.face = 0 → c.lo 0 = i0 - 1 ∧ Part j0 j1 (c.lo 1) (c.hi 1) ∧ Part k0 k1 (c.lo 2) (c.hi 2)) ∧
  (type = 1 → c.face = 1 → c.hi 0 = i1 + 1 ∧ Part j0 j1 (c.lo 1) (c.hi 1) ∧ Part k0 k1 (c.lo 2) (c.hi 2)) ∧
  (type = 1 → c.face = 2 → c.lo 1 = j0 - 1 ∧ Part i0 i1 (c.lo 0) (c.hi 0) ∧ Part k0 k1 (c.lo 2) (c.hi 2)) ∧
  (type = 1 → c.face = 3 → c.hi 1 = j1 + 1 ∧ Part i0 i1 (c.lo 0) (c.hi 0) ∧ Part k0 k1 (c.lo 2) (c.hi 2)) ∧
  (type = 1 → c.face = 4 → c.lo 2 = k0 - 1 ∧ Part i0 i1 (c.lo 0) (c.hi 0) ∧ Part j0 j1 (c.lo 1) (c.hi 1)) ∧
  (type = 1 → c.face = 5 → c.hi 2 = k1 + 1 ∧ Part i0 i1 (c.lo 0) (c.hi 0) ∧ Part j0 j1 (c.lo 1) (c.hi 1)) ∧
  (type = 2 → 0 ≤ c.face → c.face < 4 → c.lo 0 = nextTo i0 i1 (c.face % 2 = 0) ∧ c.lo 1 = nextTo j0 j1 (c.face % 4 < 2) ∧ Part k0 k1 (c.lo 2) (c.hi 2)) ∧
  (type = 2 → 4 ≤ c.face → c.face < 8 → c.lo 0 = nextTo i0 i1 (c.face % 2 = 0) ∧ c.lo 2 = nextTo k0 k1 (c.face % 4 < 2) ∧ Part j0 j1 (c.lo 1) (c.hi 1)) ∧
  (type = 2 → 8 ≤ c.face → c.face < 12 → c.lo 1 = nextTo j0 j1 (c.face % 2 = 0) ∧ c.lo 2 = nextTo k0 k1 (c.face % 4 < 2) ∧ Part i0 i1 (c.lo 0) (c.hi 0)) ∧
  (type = 3 → 0 ≤ c.face → c.face < 8 → c.lo 0 = nextTo i0 i1 (c.face % 2 = 0) ∧ c.lo 1 = nextTo j0 j1 (c.face % 4 < 2) ∧
    c.lo 2 = nextTo k0 k1 (c.face < 4))

/-- two calls that are the same, or have no cell of their segments in common -/
def Separate {C : Type} (seg : C → List Int → Prop) (c d : C) : Prop := c = d ∨ ∀ p, seg c p → ¬ seg d p

/-- The calls `l` end, from `m`, in whatever order they are made, with the same contents, and these contents are not changed by making any of the calls
again. -/
def AnyOrder {T C : Type} (call : C → Mem T → M (Mem T)) (l : List C) (m : Mem T) : Prop :=
  ∃ m', (∀ l', l.Perm l' → inOrder call l' m = .ok m') ∧ ∀ c ∈ l, call c m' = .ok m'

end Verif.Spec
