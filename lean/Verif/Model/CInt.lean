/-
Checked C++ integer arithmetic.

C++ `int` is 32 bit and signed overflow is undefined behaviour; `diff_t`
(`thrust::iterator_difference_t`, i.e. `ptrdiff_t`) is 64 bit.  The model keeps undefined behaviour as a distinct
outcome (`Except.error`) of every computation.
-/

namespace Verif

/-- Outcomes other than a value: signed overflow (or a lossy `diff_t -> int` conversion), division by
zero, access outside an allocation, and an ill-formed instantiation (array length mismatch), which the C++
compiler rejects. -/
inductive UB where
  | overflow
  | divZero
  | oob
  | illFormed
deriving DecidableEq, Repr

/-- Computations that may run into undefined behaviour. -/
abbrev M (α : Type _) := Except UB α

/-- Values representable in a 32 bit `int`. -/
def InInt (z : Int) : Prop := -2147483648 ≤ z ∧ z ≤ 2147483647

/-- Values representable in a 64 bit `diff_t`. -/
def InDiff (z : Int) : Prop := -9223372036854775808 ≤ z ∧ z ≤ 9223372036854775807

instance (z : Int) : Decidable (InInt z) := by unfold InInt; infer_instance
instance (z : Int) : Decidable (InDiff z) := by unfold InDiff; infer_instance

/-- result of an `int` operation -/
def chk (z : Int) : M Int := if InInt z then .ok z else .error .overflow

/-- result of a `diff_t` operation -/
def chk64 (z : Int) : M Int := if InDiff z then .ok z else .error .overflow

/-- `int + int` -/
def iadd (a b : Int) : M Int := chk (a + b)
/-- `int - int` -/
def isub (a b : Int) : M Int := chk (a - b)
/-- `int * int` -/
def imul (a b : Int) : M Int := chk (a * b)
/-- `int / int`: truncates towards zero -/
def idiv (a b : Int) : M Int := if b = 0 then .error .divZero else chk (a.tdiv b)
/-- `int % int`: sign of the dividend; `INT_MIN % -1` is undefined because the quotient overflows -/
def imod (a b : Int) : M Int :=
  if b = 0 then .error .divZero else do
    let _ ← chk (a.tdiv b)
    chk (a.tmod b)

/-- `diff_t` operations -/
def dadd (a b : Int) : M Int := chk64 (a + b)
def dsub (a b : Int) : M Int := chk64 (a - b)
def dmul (a b : Int) : M Int := chk64 (a * b)
def ddiv (a b : Int) : M Int := if b = 0 then .error .divZero else chk64 (a.tdiv b)
def dmod (a b : Int) : M Int :=
  if b = 0 then .error .divZero else do
    let _ ← chk64 (a.tdiv b)
    chk64 (a.tmod b)

/-- implicit conversion `diff_t -> int`.  Simplification: a value that does not fit is an error, in
C++ it is reduced modulo 2^32. -/
def narrow (z : Int) : M Int := chk z

/-- C++ `!x` used as an `int` -/
def lnot (x : Int) : Int := if x = 0 then 1 else 0
/-- C++ `!!x` used as an `int` -/
def lnotnot (x : Int) : Int := if x = 0 then 0 else 1

/-- run `f` `n` times -/
def iterM {α : Type _} (f : α → M α) : Nat → α → M α
  | 0, a => .ok a
  | n + 1, a => do let b ← f a; iterM f n b

@[simp] theorem M.ok_bind {α β : Type _} (a : α) (f : α → M β) : ((Except.ok a : M α) >>= f) = f a := rfl
@[simp] theorem M.error_bind {α β : Type _} (e : UB) (f : α → M β) :
    ((Except.error e : M α) >>= f) = Except.error e := rfl
@[simp] theorem M.pure_eq {α : Type _} (a : α) : (pure a : M α) = Except.ok a := rfl
@[simp] theorem M.map_ok {α β : Type _} (f : α → β) (a : α) : (f <$> (Except.ok a : M α)) = Except.ok (f a) := rfl
@[simp] theorem M.map_error {α β : Type _} (f : α → β) (e : UB) :
    (f <$> (Except.error e : M α)) = Except.error e := rfl

theorem chk_ok {z : Int} (h : InInt z) : chk z = .ok z := by simp [chk, h]
theorem chk64_ok {z : Int} (h : InDiff z) : chk64 z = .ok z := by simp [chk64, h]
theorem InInt.diff {z : Int} (h : InInt z) : InDiff z := by unfold InInt at h; unfold InDiff; omega

theorem iadd_ok {a b : Int} (h : InInt (a + b)) : iadd a b = .ok (a + b) := chk_ok h
theorem isub_ok {a b : Int} (h : InInt (a - b)) : isub a b = .ok (a - b) := chk_ok h
theorem imul_ok {a b : Int} (h : InInt (a * b)) : imul a b = .ok (a * b) := chk_ok h
theorem dadd_ok {a b : Int} (h : InDiff (a + b)) : dadd a b = .ok (a + b) := chk64_ok h
theorem dsub_ok {a b : Int} (h : InDiff (a - b)) : dsub a b = .ok (a - b) := chk64_ok h
theorem dmul_ok {a b : Int} (h : InDiff (a * b)) : dmul a b = .ok (a * b) := chk64_ok h
theorem narrow_ok {a : Int} (h : InInt a) : narrow a = .ok a := chk_ok h

theorem tdiv_eq_ediv {a b : Int} (ha : 0 ≤ a) : a.tdiv b = a / b := Int.tdiv_eq_ediv_of_nonneg ha
theorem tmod_eq_emod {a b : Int} (ha : 0 ≤ a) : a.tmod b = a % b := Int.tmod_eq_emod_of_nonneg ha

theorem ediv_le_self' {a b : Int} (ha : 0 ≤ a) : a / b ≤ a := Int.ediv_le_self b ha

theorem idiv_ok {a b : Int} (ha : 0 ≤ a) (hb : 0 < b) (h : InInt a) : idiv a b = .ok (a / b) := by
  have h1 : a / b ≤ a := Int.ediv_le_self b ha
  have h2 : 0 ≤ a / b := Int.ediv_nonneg ha (by omega)
  have h3 : InInt (a / b) := by unfold InInt at *; omega
  simp [idiv, tdiv_eq_ediv ha, chk_ok h3, show b ≠ 0 by omega]

theorem imod_ok {a b : Int} (ha : 0 ≤ a) (hb : 0 < b) (h : InInt a) : imod a b = .ok (a % b) := by
  have h1 : a / b ≤ a := Int.ediv_le_self b ha
  have h2 : 0 ≤ a / b := Int.ediv_nonneg ha (by omega)
  have h3 : InInt (a / b) := by unfold InInt at *; omega
  have h4 : 0 ≤ a % b := Int.emod_nonneg _ (by omega)
  have h5 : a % b ≤ a := by
    have := Int.mul_ediv_add_emod a b
    have h6 : 0 ≤ b * (a / b) := Int.mul_nonneg (by omega) h2
    omega
  have h7 : InInt (a % b) := by unfold InInt at *; omega
  simp [imod, tdiv_eq_ediv ha, tmod_eq_emod ha, chk_ok h3, chk_ok h7, show b ≠ 0 by omega]

end Verif
