import Verif.Spec.Binary64

/-
What the kernels should compute when nothing is rounded, and how far the computed number may be off.
-/

namespace Verif.Spec.F
open Verif.Spec

/-- `v` is off `x` by at most `n` times the relative rounding error `2^-53`, relative to the size `s` -/
def Within (n : Nat) (v : B64) (x s : Rat) : Prop := |v.v - x| ≤ n * s / 2 ^ 53

/-- the flux through a face of coefficient `b` between cells `h` apart of values `lo` and `hi` -/
def face (b lo hi h : Rat) : Rat := b * ((hi - lo) / h)

/-- the difference of the fluxes through the two faces of a cell, over the width of the cell: values below, at and above -/
def second (b0 b1 x0 x x1 h : Rat) : Rat := (face b1 x x1 h - face b0 x0 x h) / h

/-- the size of the two fluxes, over the width of the cell -/
def size2 (b0 b1 x0 x x1 h : Rat) : Rat := (|face b1 x x1 h| + |face b0 x0 x h|) / |h|

end Verif.Spec.F
