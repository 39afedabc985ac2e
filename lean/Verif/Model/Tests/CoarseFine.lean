import Verif.Model.Tests.Driver
import Verif.Model.Kernels.CoarseFine
import Verif.Spec.Kernels.CoarseFine
import Mathlib.Algebra.Field.Defs

/-
The host side of the coarse to fine tests, src/coarse_to_fine.t.cpp.  The numbers a test case fixes or picks at random, the random numbers `fill_random`
puts into a vector (`x` followed by the name of the vector) and the order in which the device works through a kernel (`β`) are arguments.
-/

namespace Verif.Test

variable {T : Type} [Field T] [DecidableEq T]

/-- `TEST_CASE("copy")` (src/coarse_to_fine.t.cpp:39-139) -/
def c2fCopy (ci0 ci1 cj0 cj1 ck0 ck1 fi0 fi1 fj0 fj1 fk0 fk1 axis cbi0 cbi1 cbj0 cbj1 cbk0 cbk1 fbi0 fbi1 fbj0 fbj1 fbk0 fbk1 gcw : Int)
    (r : Nat → Int) (xcd xfd : Nat → T) (β : Nat → Backend) : M Bool := do
  let k ← mkB .K cbk0 cbk1
  let j ← mkB .J cbj0 cbj1
  let i ← mkB .I cbi0 cbi1
  let k2 ← mkB .K fbk0 fbk1
  let j2 ← mkB .J fbj0 fbj1
  let i2 ← mkB .I fbi0 fbi1
  let cd ← DevVec.makeVecOffset 0 gcw [k, j, i]
  let fd ← DevVec.makeVecOffset 0 gcw [k2, j2, i2]
  let vs := [cd.fill xcd, (fd.fill xfd).host, copyOfHost (fd.fill xfd)]
  let vs ← onHost (F.copycoarsetofine3d ci0 ci1 cj0 cj1 ck0 ck1 fi0 fi1 fj0 fj1 fk0 fk1 axis cbi0 cbi1 cbj0 cbj1 cbk0 cbk1 fbi0 fbi1 fbj0 fbj1 fbk0
      fbk1 gcw r (at_ 0) (at_ 1)) vs
  let vs ← onDevice [0, 2] (Cuda.c2fCopy ci0 ci1 cj0 cj1 ck0 ck1 fi0 fi1 fj0 fj1 fk0 fk1 axis cbi0 cbi1 cbj0 cbj1 cbk0 cbk1 fbi0 fbi1 fbj0 fbj1 fbk0
      fbk1 gcw r (at_ 0) (at_ 2) β) vs
  compareAll [(1, 2)] vs

/-- `TEST_CASE("corner")` (src/coarse_to_fine.t.cpp:141-234) -/
def c2fCorner (ci0 ci1 cj0 cj1 ck0 ck1 fi0 fi1 fj0 fj1 fk0 fk1 cbi0 cbi1 cbj0 cbj1 cbk0 cbk1 fbi0 fbi1 fbj0 fbj1 fbk0 fbk1 gcw : Int)
    (xcd xfd : Nat → T) : M Bool := do
  let k ← mkB .K cbk0 cbk1
  let j ← mkB .J cbj0 cbj1
  let i ← mkB .I cbi0 cbi1
  let k2 ← mkB .K fbk0 fbk1
  let j2 ← mkB .J fbj0 fbj1
  let i2 ← mkB .I fbi0 fbi1
  let cd ← DevVec.makeVecOffset 0 gcw [k, j, i]
  let fd ← DevVec.makeVecOffset 0 gcw [k2, j2, i2]
  let vs := [cd.fill xcd, (fd.fill xfd).host, copyOfHost (fd.fill xfd)]
  let vs ← onHost (F.copycoarsetofinecorner3d ci0 ci1 cj0 cj1 ck0 ck1 fi0 fi1 fj0 fj1 fk0 fk1 cbi0 cbi1 cbj0 cbj1 cbk0 cbk1 fbi0 fbi1 fbj0 fbj1 fbk0
      fbk1 gcw (at_ 0) (at_ 1)) vs
  let vs ← onDevice [0, 2] (Cuda.c2fCorner ci0 ci1 cj0 cj1 ck0 ck1 fi0 fi1 fj0 fj1 fk0 fk1 cbi0 cbi1 cbj0 cbj1 cbk0 cbk1 fbi0 fbi1 fbj0 fbj1 fbk0
      fbk1 gcw (at_ 0) (at_ 2)) vs
  compareAll [(1, 2)] vs

end Verif.Test
