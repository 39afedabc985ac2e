import Mathlib.Algebra.BigOperators.Group.List.Basic

/-
Specification vocabulary for boxes of extents: row-major position, k-th coordinate, designated end coordinate.
-/

namespace Verif.Spec

/-- all extents are at least one -/
def Pos (n : List Int) : Prop := ∀ s ∈ n, 1 ≤ s

/-- `c` is a coordinate of the box with extents `n` -/
def InBox : List Int → List Int → Prop
  | [], [] => True
  | s :: ss, c :: cs => (0 ≤ c ∧ c < s) ∧ InBox ss cs
  | _, _ => False

/-- row-major position of a coordinate: each coordinate weighs the product of the later extents -/
def rowMajor : List Int → List Int → Int
  | _ :: ss, c :: cs => c * ss.prod + rowMajor ss cs
  | _, _ => 0

/-- the k-th coordinate of the box in row-major order -/
def coords : List Int → Int → List Int
  | [], _ => []
  | _ :: ss, k => (k / ss.prod) :: coords ss (k % ss.prod)

/-- the one-past-the-end coordinate used by the library: the last coordinate of the box moved one step beyond along the
last dimension -/
def endCoord : List Int → List Int
  | [] => []
  | [s] => [s]
  | s :: ss => (s - 1) :: endCoord ss

/-- coordinate at position k, where k may be the end position -/
def posCoord (n : List Int) (k : Int) : List Int := if k = n.prod then endCoord n else coords n k

/-- the integers `0, 1, ..., s-1` -/
def ints (s : Int) : List Int := (List.range s.toNat).map Int.ofNat

/-- all coordinates of the box, listed with the last dimension running fastest -/
def boxList : List Int → List (List Int)
  | [] => [[]]
  | s :: ss => (ints s).flatMap fun i => (boxList ss).map (i :: ·)

/-- the box shortened by one in dimension `i` -/
def shorten : List Int → Nat → List Int
  | [], _ => []
  | s :: ss, 0 => (s - 1) :: ss
  | s :: ss, i + 1 => s :: shorten ss i

/-- the coordinate one step up in dimension `i` -/
def bump : List Int → Nat → List Int
  | [], _ => []
  | c :: cs, 0 => (c + 1) :: cs
  | c :: cs, i + 1 => c :: bump cs i

end Verif.Spec
