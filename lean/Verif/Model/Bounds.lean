import Verif.Model.CInt

/-
Transcription of src/cuda/md_bounds.hpp.
-/

namespace Verif

/-- `lazy::dim` (src/cuda/md_bounds.hpp:126-129): K = 0, J = 1, I = 2, W = 3 -/
abbrev Dim := Nat

namespace Dim
abbrev K : Dim := 0
abbrev J : Dim := 1
abbrev I : Dim := 2
abbrev W : Dim := 3
end Dim

/-- `struct bounds`: `last` is exclusive (src/cuda/md_bounds.hpp:15-19) -/
structure Bounds where
  first : Int
  last : Int
  stride : Int
deriving DecidableEq, Repr

namespace Bounds

/-- constructor `bounds(first, last, stride = 1, inclusive = true)` (src/cuda/md_bounds.hpp:21-24) -/
def make (first last : Int) (stride : Int := 1) (inclusive : Bool := true) : M Bounds := do
  let l ← iadd last (if inclusive then 1 else 0)
  .ok ⟨first, l, stride⟩

/-- `operator+=` (src/cuda/md_bounds.hpp:27-31) -/
def addEq (b : Bounds) (x : Int) : M Bounds := do
  let l ← iadd b.last x
  .ok { b with last := l }

/-- `operator-=` (src/cuda/md_bounds.hpp:38-42) -/
def subEq (b : Bounds) (x : Int) : M Bounds := do
  let f ← isub b.first x
  .ok { b with first := f }

/-- `expand` of `bounds` and of `dir_bounds` (src/cuda/md_bounds.hpp:50-56, 102-108) -/
def expand (b : Bounds) (x : Int) : M Bounds := do
  let b ← b.subEq x
  b.addEq x

/-- `dir_bounds + x` (src/cuda/md_bounds.hpp:85-94) -/
def add (b : Bounds) (x : Int) : M Bounds :=
  if x ≥ 0 then b.addEq x
  else do
    let m ← isub 0 x
    b.subEq m

/-- `dir_bounds - x` (src/cuda/md_bounds.hpp:96-100) -/
def sub (b : Bounds) (x : Int) : M Bounds := b.subEq x

/-- `shift` (src/cuda/md_bounds.hpp:110-116) -/
def shift (b : Bounds) (x : Int) : M Bounds := do
  let f ← iadd b.first x
  let l ← iadd b.last x
  .ok { b with first := f, last := l }

/-- `unit_stride` (src/cuda/md_bounds.hpp:118-123) -/
def unitStride (b : Bounds) : Bounds := { b with stride := 1 }

/-- `lb()` (src/cuda/md_bounds.hpp:58) -/
def lb (b : Bounds) : Int := b.first

/-- `ub()` (src/cuda/md_bounds.hpp:59) -/
def ub (b : Bounds) : M Int := isub b.last 1

/-- `size()` (src/cuda/md_bounds.hpp:61) -/
def size (b : Bounds) : M Int := do
  let d ← isub b.last b.first
  idiv d b.stride

end Bounds

/-- `detail::expand_bounds` (src/cuda/md_bounds.hpp:147-154) -/
def expandBounds (offset : Int) (d : Dim) (b : Bounds) : M Bounds :=
  if d = Dim.W then .ok b else b.expand offset

end Verif
