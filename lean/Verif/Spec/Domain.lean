import Verif.Model.Bounds
import Verif.Spec.Box

/-
Index sets and iteration domains, stated without the library's size and address computations.
-/

namespace Verif.Spec

/-- index `x` lies between the (inclusive) ends of `b` -/
def InRange (b : Bounds) (x : Int) : Prop := b.first ≤ x ∧ x < b.last

/-- index `x` is one of `first, first + stride, ...` up to the upper end -/
def IsPoint (b : Bounds) (x : Int) : Prop := InRange b x ∧ b.stride ∣ x - b.first

/-- the indices `first, first + stride, ...` up to the upper end, listed one by one -/
def pointList (b : Bounds) : List Int := (ints (b.last - b.first)).filterMap fun d =>
  if b.stride ∣ d then some (b.first + d) else none

/-- a grid point: one index per dimension -/
abbrev Pt := Dim → Int

/-- number of points of a bound -/
def count (b : Bounds) : Int := (b.last - 1 - b.first) / b.stride + 1

/-- numbers of points of a domain per dimension, in the order given -/
def extents (D : List (Dim × Bounds)) : List Int := D.map fun x => count x.2

/-- number of points of a domain -/
def npts (D : List (Dim × Bounds)) : Int := (extents D).prod

/-- the k-th point of a domain: bounds given first vary slowest -/
def pt : List (Dim × Bounds) → Int → Pt
  | [], _ => fun _ => 0
  | (d, b) :: D, k => fun e => if e = d then b.first + b.stride * (k / npts D) else pt D (k % npts D) e

/-- point `p` belongs to the domain -/
def InDom (D : List (Dim × Bounds)) (p : Pt) : Prop := ∀ x ∈ D, IsPoint x.2 (p x.1)

/-- point `p` lies inside the array -/
def Inside (geo : List (Dim × Bounds)) (p : Pt) : Prop := ∀ x ∈ geo, InRange x.2 (p x.1)

/-- number of elements an array with these bounds has along each dimension -/
def lengths (geo : List (Dim × Bounds)) : List Int := geo.map fun x => x.2.last - x.2.first

/-- where a row-major array with these bounds (first slowest) keeps the element at point `p` -/
def storeOff (geo : List (Dim × Bounds)) (p : Pt) : Int := rowMajor (lengths geo) (geo.map fun x => p x.1 - x.2.first)

/-- the bound of dimension `d` in a domain -/
def bnd : List (Dim × Bounds) → Dim → Bounds
  | [], _ => ⟨0, 1, 1⟩
  | (e, b) :: D, d => if d = e then b else bnd D d

end Verif.Spec
