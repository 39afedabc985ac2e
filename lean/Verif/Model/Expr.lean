import Verif.Model.Memory
import Verif.Model.ForwardStencil
import Verif.Model.CoarseFine

/-
Transcription of the lazy expressions: src/cuda/iter_math.hpp, src/cuda/stencil_impl.hpp, the helpers of
src/cuda/md_device_span.hpp:96-254 and src/cuda/offset_iterator.hpp.

An expression (`Expr`) is the object the operators build; calling it with bounds yields an iterator (`It`), which can be
moved and dereferenced.  The element operations are arbitrary functions.
-/

namespace Verif

/-- what dereferencing yields: a number or a `stencil_t` pair (src/cuda/stencil_impl.hpp:21-24) -/
inductive Val (T : Type) where
  | num (a : T)
  | pair (a b : T)
deriving DecidableEq, Repr

/-- an operation on dereferenced values -/
abbrev VOp (T : Type) := Val T → Val T → M (Val T)

/-- `lazy::plus` etc. (src/cuda/iter_math.hpp:31-61) on numbers, and on a pair and a number through the operators of
`stencil_t` (src/cuda/stencil_impl.hpp:26-47); there is no operator for two pairs -/
def arith {T : Type} (f : T → T → T) : VOp T
  | .num a, .num b => .ok (.num (f a b))
  | .pair a b, .num c => .ok (.pair (f a c) (f b c))
  | .num c, .pair a b => .ok (.pair (f c a) (f c b))
  | .pair _ _, .pair _ _ => .error .illFormed

/-- `lazy::gradient`: `(x1 - x0) / h` (src/cuda/iter_math.hpp:63-70) -/
def gradOp {T : Type} (sub div : T → T → T) : VOp T
  | .num h, .pair x0 x1 => .ok (.num (div (sub x1 x0) h))
  | _, _ => .error .illFormed

/-- a span seen through `shift_x` ... `shift_yz` (src/cuda/md_device_span.hpp:195-213, 431-475) -/
inductive Acc where
  | span (s : Span)
  | shift (d : Dim) (k : Int) (a : Acc)

/-- a span called with a bound for each of its dimensions (src/cuda/md_device_span.hpp:374-385) -/
def Span.callAll (s : Span) (D : List DB) : M MT :=
  if D.length = s.geo.length then s.call D else .error .illFormed

/-- `shift_helper::operator()` (src/cuda/md_device_span.hpp:202-206) -/
def Acc.call : Acc → List DB → M MT
  | .span s, D => s.callAll D
  | .shift d k a, D => do
    let D' ← D.mapM fun x => do
      let b ← x.2.shift (if d = x.1 then k else 0)
      .ok (x.1, b)
    a.call D'

/-- `stencil_helper::operator()` (src/cuda/md_device_span.hpp:102-107); `shift_v` is src/cuda/traits.hpp:369-374 -/
def Span.stencilCall (s : Span) (S : Int) (d : Dim) (D : List DB) : M (FS MT) := do
  let D' ← D.mapM fun x => do
    let b ← x.2.add (if d = x.1 then S else 0)
    .ok (x.1, b)
  let v ← s.callAll D'
  v.stencil ((D.map (·.1)).idxOf d)

/-- the loop of `offset_iterator::dereference` (src/cuda/offset_iterator.hpp:35-41): `base` is `o_idx * N`, `j` counts up -/
def offLoopI {T : Type} (m : Mem T) (o : Ptr) (base : Int) : Int → List Int → Int → M Int
  | _, [], acc => .ok acc
  | j, s :: ss, acc => do
    let k ← iadd base j
    let x ← m.loadInt (o.add k)
    let p ← imul s x
    let acc' ← dadd acc p
    offLoopI m o base (j + 1) ss acc'

/-- address of element `i` of `offset_iterator(first, stride, o)` (src/cuda/offset_iterator.hpp:22-41, 56) -/
def offAddr {T : Type} (m : Mem T) (first : Ptr) (stride : List Int) (o : Ptr) (i : Int) : M Ptr := do
  let base ← imul i stride.length
  let d ← offLoopI m o base 0 stride 0
  .ok (first.add d)

/-- the loop `for (i = 0; i < n; i++) res += st[i] * o[i]` of `dot_impl` (src/cuda/md_device_span.hpp:137-150), `acc` being
`res + st * o`; `fuel` is the number of iterations left -/
def dotLoop {T : Type} (m : Mem T) (acc : T → T → T → T) (st it : Ptr) (stride : List Int) (o : Ptr) :
    Nat → Int → T → M T
  | 0, _, res => .ok res
  | fuel + 1, i, res => do
    let a ← m.load (st.add i)
    let q ← offAddr m it stride o i
    let b ← m.load q
    dotLoop m acc st it stride o fuel (i + 1) (acc res a b)

/-- the iterators expressions evaluate to: traversal, forward stencil and coarse-to-fine iterators, and
`thrust::transform_iterator` over one iterator (`apply_right`, `apply_left`), over a zip of two (`apply_zip`), or over the
zip of a dot product -/
inductive It (T : Type) where
  | mt (v : MT)
  | fs (v : FS MT)
  | c2f (v : C2F)
  | right (op : VOp T) (t : T) (i : It T)
  | left (op : VOp T) (i : It T) (t : T)
  | zip (op : VOp T) (i j : It T)
  | dot (zero : T) (acc : T → T → T → T) (i j : MT) (stride : List Int) (o : Ptr) (n : Int)

namespace It

variable {T : Type}

/-- `++`: transform and zip iterators move all they contain -/
def inc : It T → M (It T)
  | mt v => do let w ← v.inc; .ok (mt w)
  | fs v => do let w ← v.inc; .ok (fs w)
  | c2f v => do let w ← v.inc; .ok (c2f w)
  | right op t i => do let i' ← i.inc; .ok (right op t i')
  | left op i t => do let i' ← i.inc; .ok (left op i' t)
  | zip op i j => do let i' ← i.inc; let j' ← j.inc; .ok (zip op i' j')
  | dot z a i j s o n => do let i' ← i.inc; let j' ← j.inc; .ok (dot z a i' j' s o n)

/-- `--` -/
def dec : It T → M (It T)
  | mt v => do let w ← v.dec; .ok (mt w)
  | fs v => do let w ← v.dec; .ok (fs w)
  | c2f v => do let w ← v.dec; .ok (c2f w)
  | right op t i => do let i' ← i.dec; .ok (right op t i')
  | left op i t => do let i' ← i.dec; .ok (left op i' t)
  | zip op i j => do let i' ← i.dec; let j' ← j.dec; .ok (zip op i' j')
  | dot z a i j s o n => do let i' ← i.dec; let j' ← j.dec; .ok (dot z a i' j' s o n)

/-- `+= k` -/
def adv (k : Int) : It T → M (It T)
  | mt v => do let w ← v.adv k; .ok (mt w)
  | fs v => do let w ← v.adv k; .ok (fs w)
  | c2f v => do let w ← v.adv k; .ok (c2f w)
  | right op t i => do let i' ← i.adv k; .ok (right op t i')
  | left op i t => do let i' ← i.adv k; .ok (left op i' t)
  | zip op i j => do let i' ← i.adv k; let j' ← j.adv k; .ok (zip op i' j')
  | dot z a i j s o n => do let i' ← i.adv k; let j' ← j.adv k; .ok (dot z a i' j' s o n)

instance : Step (It T) := ⟨inc, dec, fun i k => adv k i⟩

/-- dereferencing: `apply_right`, `apply_left`, `apply_zip` (src/cuda/iter_math.hpp:75-111), `dot_impl`
(src/cuda/md_device_span.hpp:137-150) -/
def deref (m : Mem T) : It T → M (Val T)
  | mt v => do
    let p ← v.addr
    let x ← m.load p
    .ok (.num x)
  | fs v => do
    let p ← v.addrs
    let x ← m.load p.1
    let y ← m.load p.2
    .ok (.pair x y)
  | c2f v => do
    let p ← v.addr
    let x ← m.load p
    .ok (.num x)
  | right op t i => do
    let x ← i.deref m
    op (.num t) x
  | left op i t => do
    let x ← i.deref m
    op x (.num t)
  | zip op i j => do
    let x ← i.deref m
    let y ← j.deref m
    op x y
  | dot z a i j s o n => do
    let p ← i.addr
    let q ← j.addr
    let x ← dotLoop m a p q s o n.toNat 0 z
    .ok (.num x)

end It

/-- lazy expressions: spans (possibly shifted), `stencil_x/y/z` with `up` (S = 1) or `down` (S = -1), arithmetic with a
number on the left (`right`), with a number on the right (`left`), or between two expressions (`zip`)
(src/cuda/iter_math.hpp:131-188), dot products (src/cuda/md_device_span.hpp:153-179), and `fine`
(src/cuda/md_device_span.hpp:502-509, which the library only accepts as a whole right hand side) -/
inductive Expr (T : Type) where
  | acc (a : Acc)
  | stencil (S : Int) (d : Dim) (s : Span)
  | right (op : VOp T) (t : T) (e : Expr T)
  | left (op : VOp T) (e : Expr T) (t : T)
  | zip (op : VOp T) (e f : Expr T)
  | dot (zero : T) (acc : T → T → T → T) (u v : Span) (o : Ptr)
  | fine (s : Span) (r : Int) (cb : List DB)

/-- `grad_x/y/z(h)` (src/cuda/md_device_span.hpp:110-115, 419-455): `make_gradient_transform` -/
def Expr.grad {T : Type} (sub div : T → T → T) (S : Int) (d : Dim) (s : Span) (h : T) : Expr T :=
  .right (gradOp sub div) h (.stencil S d s)

namespace Expr

variable {T : Type}

/-- `dot_helper::operator()` and the constructor of `dot_impl` (src/cuda/md_device_span.hpp:131-135, 160-172): the window
span `u` is called with one bound fewer than it has, the strides are those of the iterator of `v`, reversed, and the
number of terms is the size of the bound of `u` at position N -/
def callDot (zero : T) (acc : T → T → T → T) (u v : Span) (o : Ptr) (D : List DB) : M (It T) := do
  if u.geo.length ≤ D.length then .error .illFormed
  else
    let ui ← u.call D
    let vi ← v.callAll D
    match u.geo[D.length]? with
    | none => .error .illFormed
    | some b => do
      let n ← b.2.size
      .ok (.dot zero acc ui vi vi.stride.reverse o n)

/-- calling an expression with bounds (src/cuda/iter_math.hpp:175-187 and the helpers' call operators) -/
def call : Expr T → List DB → M (It T)
  | acc a, D => do
    let v ← a.call D
    .ok (.mt v)
  | stencil S d s, D => do
    let v ← s.stencilCall S d D
    .ok (.fs v)
  | right op t e, D => do
    let i ← e.call D
    .ok (.right op t i)
  | left op e t, D => do
    let i ← e.call D
    .ok (.left op i t)
  | zip op e f, D => do
    let i ← e.call D
    let j ← f.call D
    .ok (.zip op i j)
  | dot z a u v o, D => callDot z a u v o D
  | fine s r cb, D => do
    let c ← s.fine r cb D
    .ok (.c2f c)

end Expr
end Verif
