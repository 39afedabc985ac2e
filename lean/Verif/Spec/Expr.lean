import Verif.Spec.Domain
import Verif.Spec.Moves
import Verif.Model.Expr

/-
What an expression means at a grid point: no iterators, only array elements named by their coordinates.
-/

namespace Verif.Spec

variable {T : Type}

/-- point `p` moved by `k` along dimension `d` -/
def shiftPt (p : Pt) (d : Dim) (k : Int) : Pt := fun e => if e = d then p e + k else p e

/-- point `p` with its index along `d` replaced -/
def setPt (p : Pt) (d : Dim) (k : Int) : Pt := fun e => if e = d then k else p e

/-- the cell an array keeps the element at point `p` in -/
def cell (s : Span) (p : Pt) : Ptr := s.ptr.add (storeOff s.geo p)

/-- the cell a (shifted) array refers to at point `p` -/
def accCell : Acc → Pt → Ptr
  | .span s, p => cell s p
  | .shift d k a, p => accCell a (shiftPt p d k)

/-- lower point of the neighbour pair at `p`: `p` itself for `up`, the one below for `down` -/
def lowPt (S : Int) (d : Dim) (p : Pt) : Pt := if S < 0 then shiftPt p d (-1) else p

/-- row `i` of an offset table with `N` columns, as a displacement of a point.  Column 0 belongs to the last dimension of
the domain, column N-1 to the first. -/
def offPt (tab : Ptr → Option Int) (o : Ptr) (dims : List Dim) (i : Nat) (p : Pt) : Pt :=
  fun d => p d + if d ∈ dims then (tab (o.add (i * dims.length + dims.reverse.idxOf d))).getD 0 else 0

/-- left-to-right accumulation of `st_i * v_i` -/
def dotSum (acc : T → T → T → T) (f g : Nat → M T) : Nat → T → M T
  | 0, res => .ok res
  | n + 1, res => do
    let r ← dotSum acc f g n res
    let a ← f n
    let b ← g n
    .ok (acc r a b)

/-- value of an expression at point `p`; `dims` are the dimensions of the domain in the order given -/
def den (m : Mem T) (dims : List Dim) : Expr T → Pt → M (Val T)
  | .acc a, p => do
    let x ← m.load (accCell a p)
    .ok (.num x)
  | .stencil S d s, p => do
    let x ← m.load (cell s (lowPt S d p))
    let y ← m.load (cell s (shiftPt (lowPt S d p) d 1))
    .ok (.pair x y)
  | .right op t e, p => do
    let x ← den m dims e p
    op (.num t) x
  | .left op e t, p => do
    let x ← den m dims e p
    op x (.num t)
  | .zip op e f, p => do
    let x ← den m dims e p
    let y ← den m dims f p
    op x y
  | .dot zero acc u v o, p => do
    match u.geo.getLast? with
    | none => .error .illFormed
    | some (w, b) =>
      let x ← dotSum acc (fun i => m.load (cell u (setPt p w (b.first + i)))) (fun i => m.load (cell v (offPt m.ints o dims i p)))
        (b.last - b.first).toNat zero
      .ok (.num x)
  | .fine s r cb, p => do
    let x ← m.load (cell s fun d => if d ∈ cb.map (·.1) then (bnd cb d).first else p d / r)
    .ok (.num x)

/-- the cells an expression looks at to compute its value at point `p` -/
def reads (tab : Ptr → Option Int) (dims : List Dim) : Expr T → Pt → List Ptr
  | .acc a, p => [accCell a p]
  | .stencil S d s, p => [cell s (lowPt S d p), cell s (shiftPt (lowPt S d p) d 1)]
  | .right _ _ e, p => reads tab dims e p
  | .left _ e _, p => reads tab dims e p
  | .zip _ e f, p => reads tab dims e p ++ reads tab dims f p
  | .dot _ _ u v o, p =>
    match u.geo.getLast? with
    | none => []
    | some (w, b) => (List.range (b.last - b.first).toNat).flatMap fun i : Nat =>
        [cell u (setPt p w (b.first + i)), cell v (offPt tab o dims i p)]
  | .fine s r cb, p => [cell s fun d => if d ∈ cb.map (·.1) then (bnd cb d).first else p d / r]

/-- the domain moved by `k` along `d` -/
def shiftDom (D : List (Dim × Bounds)) (d : Dim) (k : Int) : List (Dim × Bounds) :=
  D.map fun x => if x.1 = d then (x.1, ⟨x.2.first + k, x.2.last + k, x.2.stride⟩) else x

/-- the domain with one more index along `d`: above for `up`, below for `down` -/
def extDom (D : List (Dim × Bounds)) (d : Dim) (S : Int) : List (Dim × Bounds) :=
  D.map fun x => if x.1 = d then (x.1, if S < 0 then ⟨x.2.first - 1, x.2.last, x.2.stride⟩ else ⟨x.2.first, x.2.last + 1, x.2.stride⟩)
    else x

/-- a history of forward moves that never leaves the elements `0 .. T-1` -/
def Fwd (T : Int) : Int → List Move → Prop
  | p, [] => 0 ≤ p ∧ p < T
  | p, m :: ms => (0 ≤ p ∧ p < T) ∧ 0 ≤ delta m ∧ Fwd T (p + delta m) ms

end Verif.Spec

namespace Verif.Spec

variable {T : Type}

/-- number or pair -/
inductive Shape where
  | num
  | pair
deriving DecidableEq, Repr

def shapeOf : Val T → Shape
  | .num _ => .num
  | .pair _ _ => .pair

/-- an operation accepted for operands of the given shapes (what the C++ compiler checks) -/
def OpShape (op : VOp T) (a b c : Shape) : Prop :=
  ∀ x y, shapeOf x = a → shapeOf y = b → ∃ z, op x y = .ok z ∧ shapeOf z = c

/-- expressions the C++ compiler accepts, with the shape of their value -/
inductive HasShape : Expr T → Shape → Prop where
  | acc {a : Acc} : HasShape (.acc a) .num
  | stencil {S : Int} {d : Dim} {s : Span} : HasShape (.stencil S d s) .pair
  | right {op : VOp T} {t : T} {e : Expr T} {a b : Shape} : HasShape e a → OpShape op .num a b → HasShape (.right op t e) b
  | left {op : VOp T} {t : T} {e : Expr T} {a b : Shape} : HasShape e a → OpShape op a .num b → HasShape (.left op e t) b
  | zip {op : VOp T} {e f : Expr T} {a b c : Shape} : HasShape e a → HasShape f b → OpShape op a b c → HasShape (.zip op e f) c
  | dot {z : T} {acc : T → T → T → T} {u v : Span} {o : Ptr} : HasShape (.dot z acc u v o) .num
  | fine {s : Span} {r : Int} {cb : List (Dim × Bounds)} : HasShape (.fine s r cb) .num

/-- the arrays an expression mentions -/
def accArray : Acc → Span
  | .span s => s
  | .shift _ _ a => accArray a

def arrays : Expr T → List Span
  | .acc a => [accArray a]
  | .stencil _ _ s => [s]
  | .right _ _ e => arrays e
  | .left _ e _ => arrays e
  | .zip _ e f => arrays e ++ arrays f
  | .dot _ _ u v _ => [u, v]
  | .fine s _ _ => [s]

/-- every element of the array is allocated -/
def Allocated (m : Mem T) (s : Span) : Prop := ∀ p, Inside s.geo p → ∃ v, m.val (cell s p) = some v

/-- the address is one of an element of the array -/
def IsElement (s : Span) (q : Ptr) : Prop := ∃ p, Inside s.geo p ∧ q = cell s p

end Verif.Spec
