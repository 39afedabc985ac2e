import Verif.Model.Tests.Driver
import Verif.Model.CInt

/-
The host side of tests that compute what they expect in loops of their own: elements of std::vector, for loops with int counters.
-/

namespace Verif.Test

variable {T : Type}

/-- `v[k]` of a `std::vector`; no result outside the vector (for instance src/md_device_span.t.cpp:66-68) -/
def vget (l : List T) (k : Int) : M T :=
  if 0 ≤ k then
    match l[k.toNat]? with
    | some x => .ok x
    | none => .error .oob
  else .error .oob

/-- `v[k] = x` (for instance src/md_device_span.t.cpp:68) -/
def vset (l : List T) (k : Int) (x : T) : M (List T) :=
  if 0 ≤ k ∧ k < l.length then .ok (l.set k.toNat x) else .error .oob

/-- at most `n` rounds of `for (int i = ...; i <= hi; i += s)`, from `i` on -/
def rounds (hi s : Int) (body : Int → List T → M (List T)) : Nat → Int → List T → M (List T)
  | 0, i, l => if i ≤ hi then .error .illFormed else .ok l
  | n + 1, i, l =>
    if i ≤ hi then do
      let l ← body i l
      let i ← iadd i s
      rounds hi s body n i l
    else .ok l

/-- `for (int i = lo; i <= hi; i += s)` (for instance src/md_device_span.t.cpp:63, 102).  A loop with a positive step takes no more rounds than there are
numbers between its bounds; a loop without end has no result. -/
def forTo (lo hi s : Int) (body : Int → List T → M (List T)) (l : List T) : M (List T) := rounds hi s body (hi - lo + 1).toNat lo l

/-- `const auto& v = u.host()` (src/md_device_vector.hpp:72-79) for vector `k` -/
def hostOf (k : Nat) (vs : List (DevVec T)) : M (List T × List (DevVec T)) :=
  match vs[k]? with
  | some v => .ok (v.host.h, vs.set k v.host)
  | none => .error .illFormed

/-- `v.index(args...)` of vector `k` -/
def indexOf (k : Nat) (vs : List (DevVec T)) (args : List Int) : M Int :=
  match vs[k]? with
  | some v => v.index args
  | none => .error .illFormed

/-- `std::vector<T> x(v.size())` for vector `k`: zeros (for instance src/md_device_span.t.cpp:56) -/
def zeros [Zero T] (k : Nat) (vs : List (DevVec T)) : M (List T) :=
  match vs[k]? with
  | some v => .ok (List.replicate v.size.toNat 0)
  | none => .error .illFormed

end Verif.Test
