import Verif.Model.Assign

/-
The notation kernels are written in: bounds, operators on expressions (src/cuda/iter_math.hpp:131-188), gradients.
-/

namespace Verif

variable {T : Type}

/-- `Ib{lo, hi}`, `Jb{lo, hi}`, `Kb{lo, hi}` (src/cuda/md_bounds.hpp:131-136): inclusive, stride 1 -/
def mkB (d : Dim) (lo hi : Int) : M DB := do
  let b ← Bounds.make lo hi
  .ok (d, b)

/-- `i + x` (src/cuda/md_bounds.hpp:85-94) -/
def DB.plus (b : DB) (x : Int) : M DB := do
  let c ← b.2.add x
  .ok (b.1, c)

namespace Expr

instance [Mul T] : HMul (Expr T) (Expr T) (Expr T) := ⟨zip (arith (· * ·))⟩
instance [Mul T] : HMul T (Expr T) (Expr T) := ⟨right (arith (· * ·))⟩
instance [Mul T] : HMul (Expr T) T (Expr T) := ⟨left (arith (· * ·))⟩
instance [Add T] : HAdd (Expr T) (Expr T) (Expr T) := ⟨zip (arith (· + ·))⟩
instance [Add T] : HAdd T (Expr T) (Expr T) := ⟨right (arith (· + ·))⟩
instance [Add T] : HAdd (Expr T) T (Expr T) := ⟨left (arith (· + ·))⟩
instance [Sub T] : HSub (Expr T) (Expr T) (Expr T) := ⟨zip (arith (· - ·))⟩
instance [Sub T] : HSub T (Expr T) (Expr T) := ⟨right (arith (· - ·))⟩
instance [Sub T] : HSub (Expr T) T (Expr T) := ⟨left (arith (· - ·))⟩
instance [Div T] : HDiv (Expr T) (Expr T) (Expr T) := ⟨zip (arith (· / ·))⟩
instance [Div T] : HDiv T (Expr T) (Expr T) := ⟨right (arith (· / ·))⟩
instance [Div T] : HDiv (Expr T) T (Expr T) := ⟨left (arith (· / ·))⟩

end Expr

/-- a span as an operand -/
def Span.e (T : Type) (s : Span) : Expr T := .acc (.span s)

/-- A shifted span as an operand (`shift_helper`, src/cuda/md_device_span.hpp:195-207) -/
abbrev Acc.e (T : Type) (a : Acc) : Expr T := .acc a

/-- `grad_x/y/z(h)` and `grad_x/y/z(h, down)` (src/cuda/md_device_span.hpp:419-455) with the subtraction and division of `T` -/
def Span.grad [Sub T] [Div T] (s : Span) (d : Dim) (h : T) (S : Int := 1) : Expr T := Expr.grad (· - ·) (· / ·) S d s h

/-- `down` (src/cuda/md_device_span.hpp:52) -/
abbrev down : Int := -1

/-- `s = e` -/
def Span.set (s : Span) (e : Expr T) : Assign T := ⟨s, .expr e⟩

end Verif
