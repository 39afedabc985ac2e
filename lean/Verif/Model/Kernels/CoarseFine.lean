import Verif.Model.Kernels.Common

/-
Transcription of the coarse to fine copies: src/cuda/coarse_to_fine_cuda.cpp.

`ratio` is an array of three ints read on the host.  The bounds are built whether the axis uses them or not.
-/

namespace Verif.Cuda

variable {T : Type}

/-- `coarse_to_fine::copy` (src/cuda/coarse_to_fine_cuda.cpp:18-68) -/
def c2fCopy (ci0 _ci1 cj0 _cj1 ck0 _ck1 fi0 fi1 fj0 fj1 fk0 fk1 axis cbi0 cbi1 cbj0 cbj1 cbk0 cbk1 fbi0 fbi1 fbj0 fbj1 fbk0 fbk1 gcw : Int)
    (ratio : Nat → Int) (cdata_ fdata_ : Ptr) (β : Nat → Backend) (m : Mem T) : M (Mem T) := do
  let cbk ← mkB .K cbk0 cbk1
  let cbj ← mkB .J cbj0 cbj1
  let cbi ← mkB .I cbi0 cbi1
  let c ← makeSpanOffset cdata_ gcw [cbk, cbj, cbi]
  let fbk ← mkB .K fbk0 fbk1
  let fbj ← mkB .J fbj0 fbj1
  let fbi ← mkB .I fbi0 fbi1
  let f ← makeSpanOffset fdata_ gcw [fbk, fbj, fbi]
  let cil ← mkB .I ci0 ci0
  let fil ← mkB .I fi0 fi0
  let fi ← mkB .I fi0 fi1
  let cjl ← mkB .J cj0 cj0
  let fjl ← mkB .J fj0 fj0
  let fj ← mkB .J fj0 fj1
  let ckl ← mkB .K ck0 ck0
  let fkl ← mkB .K fk0 fk0
  let fk ← mkB .K fk0 fk1
  if axis = 0 then withDomain [fkl, fjl, fi] [(f.set (.fine c (ratio 0) [ckl, cjl]), β 0)] m
  else if axis = 1 then withDomain [fkl, fj, fil] [(f.set (.fine c (ratio 1) [ckl, cil]), β 0)] m
  else if axis = 2 then withDomain [fk, fjl, fil] [(f.set (.fine c (ratio 2) [cjl, cil]), β 0)] m
  else .ok m

/-- `coarse_to_fine::copy_corner` (src/cuda/coarse_to_fine_cuda.cpp:70-103) -/
def c2fCorner (ci0 _ci1 cj0 _cj1 ck0 _ck1 fi0 _fi1 fj0 _fj1 fk0 _fk1 cbi0 cbi1 cbj0 cbj1 cbk0 cbk1 fbi0 fbi1 fbj0 fbj1 fbk0 fbk1 gcw : Int)
    (cdata_ fdata_ : Ptr) (m : Mem T) : M (Mem T) := do
  let cbk ← mkB .K cbk0 cbk1
  let cbj ← mkB .J cbj0 cbj1
  let cbi ← mkB .I cbi0 cbi1
  let c ← makeSpanOffset cdata_ gcw [cbk, cbj, cbi]
  let fbk ← mkB .K fbk0 fbk1
  let fbj ← mkB .J fbj0 fbj1
  let fbi ← mkB .I fbi0 fbi1
  let f ← makeSpanOffset fdata_ gcw [fbk, fbj, fbi]
  let q ← c.at_ [ck0, cj0, ci0]
  let v ← m.load q
  let p ← f.at_ [fk0, fj0, fi0]
  m.store p v

end Verif.Cuda
