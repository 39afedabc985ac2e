import Verif.Spec.Binary64

/-
The laws of arithmetic that rounding to nearest keeps.
-/

namespace Verif.Spec

/-- Signs move through products and quotients, subtracting is adding the opposite, 0 and 1 are neutral, sums and products commute.
Associativity and distributivity, which rounding breaks, are not among the laws. -/
structure Rounding (T : Type) [Zero T] [One T] [Add T] [Sub T] [Mul T] [Div T] [Neg T] : Prop where
  neg_mul : ∀ x y : T, -x * y = -(x * y)
  neg_div : ∀ x y : T, -x / y = -(x / y)
  sub_eq : ∀ x y : T, x - y = x + -y
  zero_add : ∀ x : T, 0 + x = x
  mul_one : ∀ x : T, x * 1 = x
  one_mul : ∀ x : T, 1 * x = x
  add_comm : ∀ x y : T, x + y = y + x
  mul_comm : ∀ x y : T, x * y = y * x

private theorem B64.eq {x y : B64} (h : x.v = y.v) : x = y := by
  cases x; cases y; cases h; rfl


/-- 53 bit arithmetic obeys them. -/
theorem B64.rounding : Rounding B64 where
  neg_mul x y := eq <| by show rnd (-x.v * y.v) = -rnd (x.v * y.v); rw [_root_.neg_mul, rnd_neg]
  neg_div x y := eq <| by show rnd (-x.v / y.v) = -rnd (x.v / y.v); rw [_root_.neg_div, rnd_neg]
  sub_eq x y := eq <| by show rnd (x.v - y.v) = rnd (x.v + -y.v); rw [sub_eq_add_neg]
  zero_add x := eq <| by show rnd (rnd 0 + x.v) = x.v; rw [show rnd 0 = 0 by decide +kernel, _root_.zero_add, x.ok]
  mul_one x := eq <| by show rnd (x.v * rnd 1) = x.v; rw [show rnd 1 = 1 by decide +kernel, _root_.mul_one, x.ok]
  one_mul x := eq <| by show rnd (rnd 1 * x.v) = x.v; rw [show rnd 1 = 1 by decide +kernel, _root_.one_mul, x.ok]
  add_comm x y := eq <| by show rnd (x.v + y.v) = rnd (y.v + x.v); rw [_root_.add_comm]
  mul_comm x y := eq <| by show rnd (x.v * y.v) = rnd (y.v * x.v); rw [_root_.mul_comm]

end Verif.Spec
