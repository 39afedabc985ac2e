import Verif.Model.Kernels.Common
import Mathlib.Algebra.Field.Defs

/-
Transcription of the boundary condition kernels: src/cuda/cd_correct_bc_1d_cuda.cpp, src/cuda/cd_correct_bc_2d_cuda.cpp,
src/cuda/cd_correct_bc_3d_cuda.cpp.

`dx`, `bLo` and `bHi` are read on the host.  `copy_to` does nothing (src/cuda/md_device_span.hpp:550-552) and is left out.  The lambdas
`t1` and `t2` of the kernels are the definitions below; those of the one and three dimensional kernels, and the Poisson ones, are the same
up to what the parameters say.  Bounds are built whether the case uses them or not.
-/

namespace Verif.Cuda

variable {T : Type} [Zero T] [One T] [NatCast T] [Add T] [Sub T] [Mul T] [Div T] [Neg T]

set_option linter.unusedVariables false

/-- `t1` of `set_bc` (src/cuda/cd_correct_bc_1d_cuda.cpp:45-75, src/cuda/cd_correct_bc_2d_cuda.cpp:53-86,
src/cuda/cd_correct_bc_3d_cuda.cpp:60-90); `zero` says whether order 0 has a case (2D only) -/
def bcT1 (zero : Bool) (btype exOrder : Int) (alpha beta : T) (u : Span) (u1 u2 d : Acc) (h : T) (D : List DB) (β : Backend) (m : Mem T) : M (Mem T) :=
  if btype = 0 then
    if exOrder = 0 then
      if zero then withDomain D [(⟨u, .num 0⟩, β)] m else .ok m
    else if exOrder = 1 then withDomain D [(u.set ((-1 : T) * Acc.e T u1), β)] m
    else if exOrder = 2 then withDomain D [(u.set ((-2 : T) * Acc.e T u1 + Acc.e T u2 / (3 : T)), β)] m
    else .ok m
  else if btype = 1 then withDomain D [(u.set (Acc.e T u1), β)] m
  else if btype = 4 then
    if exOrder = 1 then
      withDomain D [(u.set ((((2 * alpha) * Acc.e T d - h * beta) / ((2 * alpha) * Acc.e T d + h * beta)) * Acc.e T u1), β)] m
    else if exOrder = 2 then
      withDomain D [(u.set ((((8 * alpha) * Acc.e T d - 6 * beta * h) / ((8 * alpha) * Acc.e T d + 3 * beta * h)) * Acc.e T u1 +
        h / ((8 * alpha) * Acc.e T d + 3 * beta * h) * Acc.e T u2), β)] m
    else .ok m
  else .ok m

/-- `t1` of `set_poisson_bc` (src/cuda/cd_correct_bc_2d_cuda.cpp:158-187, src/cuda/cd_correct_bc_3d_cuda.cpp:217-246) -/
def bcPoissonT1 (btype exOrder : Int) (alpha beta : T) (u : Span) (u1 u2 : Acc) (h : T) (D : List DB) (β : Backend) (m : Mem T) : M (Mem T) :=
  if btype = 0 then
    if exOrder = 1 then withDomain D [(u.set ((-1 : T) * Acc.e T u1), β)] m
    else if exOrder = 2 then withDomain D [(u.set ((-2 : T) * Acc.e T u1 + Acc.e T u2 / (3 : T)), β)] m
    else .ok m
  else if btype = 1 then withDomain D [(u.set (Acc.e T u1), β)] m
  else if btype = 4 then
    if exOrder = 1 then withDomain D [(u.set (((2 * alpha - h * beta) / (2 * alpha + h * beta)) * Acc.e T u1), β)] m
    else if exOrder = 2 then
      withDomain D [(u.set (((8 * alpha - 6 * beta * h) / (8 * alpha + 3 * beta * h)) * Acc.e T u1 +
        h / (8 * alpha + 3 * beta * h) * Acc.e T u2), β)] m
    else .ok m
  else .ok m

/-- `t1` of the one dimensional `set_poisson_bc` (src/cuda/cd_correct_bc_1d_cuda.cpp:111-138) -/
def bcPoisson1dT1 (btype exOrder : Int) (u : Span) (u1 u2 : Acc) (h : T) (D : List DB) (β : Backend) (m : Mem T) : M (Mem T) :=
  if btype = 0 then
    if exOrder = 1 then withDomain D [(u.set ((-1 : T) * Acc.e T u1), β)] m
    else if exOrder = 2 then withDomain D [(u.set ((-2 : T) * Acc.e T u1 + Acc.e T u2 / (3 : T)), β)] m
    else .ok m
  else if btype = 1 then withDomain D [(u.set (Acc.e T u1), β)] m
  else if btype = 4 then
    if exOrder = 1 then withDomain D [(u.set (((4 - h) / (4 + h)) * Acc.e T u1), β)] m
    else if exOrder = 2 then
      withDomain D [(u.set (((16 - 6 * h) / (16 + 3 * h)) * Acc.e T u1 + h / (16 + 3 * h) * Acc.e T u2), β)] m
    else .ok m
  else .ok m

/-- `t2`, also written out by hand (src/cuda/cd_correct_bc_2d_cuda.cpp:88-91, 189-192, src/cuda/cd_correct_bc_3d_cuda.cpp:92-95, 248-251) -/
def bcT2 (u : Span) (u1 u2 u3 : Acc) (D : List DB) (β : Backend) (m : Mem T) : M (Mem T) :=
  withDomain D [(u.set (Acc.e T u2 + Acc.e T u3 - Acc.e T u1), β)] m

/-- `cd_correct_bc_1d_cuda::set_bc` (src/cuda/cd_correct_bc_1d_cuda.cpp:19-86) -/
def setBc1d (i0 i1 : Int) (dx : Nat → T) (dgcw : Int) (d0_ : Ptr) (ugcw : Int) (u_ : Ptr) (bLo bHi : Nat → Int) (exOrder face btype : Int) (alpha beta : T)
    (β : Nat → Backend) (m : Mem T) : M (Mem T) := do
  let i ← mkB .I i0 i1
  let i' ← i.plus 1
  let d0 ← makeSpanOffset d0_ dgcw [i']
  let u ← makeSpanOffset u_ ugcw [i]
  let ib ← mkB .I (max (bLo 0) i0) (min (bHi 0) i1)
  let il ← mkB .I (bLo 0) (bLo 0)
  let ih ← mkB .I (bHi 0) (bHi 0)
  if face = 0 then bcT1 false btype exOrder alpha beta u (.shift .I 1 (.span u)) (.shift .I 2 (.span u)) (.shift .I 1 (.span d0)) (dx 0) [il] (β 0) m
  else if face = 1 then bcT1 false btype exOrder alpha beta u (.shift .I (-1) (.span u)) (.shift .I (-2) (.span u)) (.span d0) (dx 0) [ih] (β 0) m
  else .ok m

/-- `cd_correct_bc_1d_cuda::set_poisson_bc` (src/cuda/cd_correct_bc_1d_cuda.cpp:88-149) -/
def setPoissonBc1d (i0 i1 : Int) (dx : Nat → T) (ugcw : Int) (u_ : Ptr) (bLo bHi : Nat → Int) (exOrder face btype : Int) (alpha beta : T)
    (β : Nat → Backend) (m : Mem T) : M (Mem T) := do
  let i ← mkB .I i0 i1
  let u ← makeSpanOffset u_ ugcw [i]
  let ib ← mkB .I (max (bLo 0) i0) (min (bHi 0) i1)
  let il ← mkB .I (bLo 0) (bLo 0)
  let ih ← mkB .I (bHi 0) (bHi 0)
  if face = 0 then bcPoisson1dT1 btype exOrder u (.shift .I 1 (.span u)) (.shift .I 2 (.span u)) (dx 0) [il] (β 0) m
  else if face = 1 then bcPoisson1dT1 btype exOrder u (.shift .I (-1) (.span u)) (.shift .I (-2) (.span u)) (dx 0) [ih] (β 0) m
  else .ok m

/-- `cd_correct_bc_2d_cuda::set_bc` (src/cuda/cd_correct_bc_2d_cuda.cpp:19-127) -/
def setBc2d (i0 i1 j0 j1 : Int) (dx : Nat → T) (dgcw : Int) (d0_ d1_ : Ptr) (ugcw : Int) (u_ : Ptr) (bLo bHi : Nat → Int) (exOrder face type btype : Int) (alpha beta : T)
    (β : Nat → Backend) (m : Mem T) : M (Mem T) := do
  let i ← mkB .I i0 i1
  let j ← mkB .J j0 j1
  let i' ← i.plus 1
  let d0 ← makeSpanOffset d0_ dgcw [j, i']
  let j' ← j.plus 1
  let d1 ← makeSpanOffset d1_ dgcw [i, j']
  let u ← makeSpanOffset u_ ugcw [j, i]
  let ib ← mkB .I (max (bLo 0) i0) (min (bHi 0) i1)
  let jb ← mkB .J (max (bLo 1) j0) (min (bHi 1) j1)
  let il ← mkB .I (bLo 0) (bLo 0)
  let ih ← mkB .I (bHi 0) (bHi 0)
  let jl ← mkB .J (bLo 1) (bLo 1)
  let jh ← mkB .J (bHi 1) (bHi 1)
  if type = 1 then
    if face = 0 then bcT1 true btype exOrder alpha beta u (.shift .I 1 (.span u)) (.shift .I 2 (.span u)) (.shift .I 1 (.span d0)) (dx 0) [jb, il] (β 0) m
    else if face = 1 then bcT1 true btype exOrder alpha beta u (.shift .I (-1) (.span u)) (.shift .I (-2) (.span u)) (.span d0) (dx 0) [jb, ih] (β 0) m
    else if face = 2 then bcT1 true btype exOrder alpha beta u (.shift .J 1 (.span u)) (.shift .J 2 (.span u)) (.shift .J 1 (.span d1)) (dx 1) [jl, ib] (β 0) m
    else if face = 3 then bcT1 true btype exOrder alpha beta u (.shift .J (-1) (.span u)) (.shift .J (-2) (.span u)) (.span d1) (dx 1) [jh, ib] (β 0) m
    else .ok m
  else if type = 2 then
    if face = 0 then bcT2 u (.shift .J 1 (.shift .I 1 (.span u))) (.shift .I 1 (.span u)) (.shift .J 1 (.span u)) [jl, il] (β 0) m
    else if face = 1 then bcT2 u (.shift .J 1 (.shift .I (-1) (.span u))) (.shift .I (-1) (.span u)) (.shift .J 1 (.span u)) [jl, ih] (β 0) m
    else if face = 2 then bcT2 u (.shift .J (-1) (.shift .I 1 (.span u))) (.shift .I 1 (.span u)) (.shift .J (-1) (.span u)) [jh, il] (β 0) m
    else if face = 3 then bcT2 u (.shift .J (-1) (.shift .I (-1) (.span u))) (.shift .I (-1) (.span u)) (.shift .J (-1) (.span u)) [jh, ih] (β 0) m
    else .ok m
  else .ok m

/-- `cd_correct_bc_2d_cuda::set_poisson_bc` (src/cuda/cd_correct_bc_2d_cuda.cpp:129-228) -/
def setPoissonBc2d (i0 i1 j0 j1 : Int) (dx : Nat → T) (ugcw : Int) (u_ : Ptr) (bLo bHi : Nat → Int) (exOrder face type btype : Int) (alpha beta : T)
    (β : Nat → Backend) (m : Mem T) : M (Mem T) := do
  let i ← mkB .I i0 i1
  let j ← mkB .J j0 j1
  let u ← makeSpanOffset u_ ugcw [j, i]
  let ib ← mkB .I (max (bLo 0) i0) (min (bHi 0) i1)
  let jb ← mkB .J (max (bLo 1) j0) (min (bHi 1) j1)
  let il ← mkB .I (bLo 0) (bLo 0)
  let ih ← mkB .I (bHi 0) (bHi 0)
  let jl ← mkB .J (bLo 1) (bLo 1)
  let jh ← mkB .J (bHi 1) (bHi 1)
  if type = 1 then
    if face = 0 then bcPoissonT1 btype exOrder alpha beta u (.shift .I 1 (.span u)) (.shift .I 2 (.span u)) (dx 0) [jb, il] (β 0) m
    else if face = 1 then bcPoissonT1 btype exOrder alpha beta u (.shift .I (-1) (.span u)) (.shift .I (-2) (.span u)) (dx 0) [jb, ih] (β 0) m
    else if face = 2 then (if btype ≠ 4 then bcPoissonT1 btype exOrder alpha beta u (.shift .J 1 (.span u)) (.shift .J 2 (.span u)) (dx 1) [jl, ib] (β 0) m else .ok m)
    else if face = 3 then (if btype ≠ 4 then bcPoissonT1 btype exOrder alpha beta u (.shift .J (-1) (.span u)) (.shift .J (-2) (.span u)) (dx 1) [jh, ib] (β 0) m else .ok m)
    else .ok m
  else if type = 2 then
    if face = 0 then bcT2 u (.shift .J 1 (.shift .I 1 (.span u))) (.shift .I 1 (.span u)) (.shift .J 1 (.span u)) [jl, il] (β 0) m
    else if face = 1 then bcT2 u (.shift .J 1 (.shift .I (-1) (.span u))) (.shift .I (-1) (.span u)) (.shift .J 1 (.span u)) [jl, ih] (β 0) m
    else if face = 2 then bcT2 u (.shift .J (-1) (.shift .I 1 (.span u))) (.shift .I 1 (.span u)) (.shift .J (-1) (.span u)) [jh, il] (β 0) m
    else if face = 3 then bcT2 u (.shift .J (-1) (.shift .I (-1) (.span u))) (.shift .I (-1) (.span u)) (.shift .J (-1) (.span u)) [jh, ih] (β 0) m
    else .ok m
  else .ok m

/-- `cd_correct_bc_2d_cuda::set_corner_bc` (src/cuda/cd_correct_bc_2d_cuda.cpp:230-275) -/
def setCornerBc2d (i0 i1 j0 j1 gcw : Int) (dx : Nat → T) (d0_ d1_ u_ : Ptr) (bLo bHi : Nat → Int) (exOrder face type btype : Int) (β : Nat → Backend) (m : Mem T) :
    M (Mem T) := do
  let i ← mkB .I i0 i1
  let j ← mkB .J j0 j1
  let u ← makeSpanOffset u_ gcw [j, i]
  let il ← mkB .I (bLo 0) (bLo 0)
  let ih ← mkB .I (bHi 0) (bHi 0)
  let jl ← mkB .J (bLo 1) (bLo 1)
  let jh ← mkB .J (bHi 1) (bHi 1)
  if face = 0 then withDomain [jl, il] [(u.set ((-5 : T) * Acc.e T (.shift .J 1 (.shift .I 1 (.span u)))), β 0)] m
  else if face = 1 then withDomain [jl, ih] [(u.set ((-5 : T) * Acc.e T (.shift .J 1 (.shift .I (-1) (.span u)))), β 0)] m
  else if face = 2 then withDomain [jh, il] [(u.set ((-5 : T) * Acc.e T (.shift .J (-1) (.shift .I 1 (.span u)))), β 0)] m
  else if face = 3 then withDomain [jh, ih] [(u.set ((-5 : T) * Acc.e T (.shift .J (-1) (.shift .I (-1) (.span u)))), β 0)] m
  else .ok m

/-- `f` of `set_homogenous_bc` (src/cuda/cd_correct_bc_2d_cuda.cpp:300-319) -/
def bcHom (exOrder : Int) (u : Span) (u1 u2 u3 u4 : Acc) (D : List DB) (β : Backend) (m : Mem T) : M (Mem T) :=
  let t13 : T := 1 / 3
  let t15 : T := 1 / 5
  let t45 : T := 4 / 5
  let t17 : T := 1 / 7
  if exOrder = 1 then withDomain D [(u.set ((-1 : T) * Acc.e T u1), β)] m
  else if exOrder = 2 then withDomain D [(u.set ((-2 : T) * Acc.e T u1 + t13 * Acc.e T u2), β)] m
  else if exOrder = 3 then withDomain D [(u.set ((-3 : T) * Acc.e T u1 + Acc.e T u2 - t15 * Acc.e T u3), β)] m
  else if exOrder = 4 then
    withDomain D [(u.set ((-4 : T) * Acc.e T u1 + (2 : T) * Acc.e T u2 - t45 * Acc.e T u3 + t17 * Acc.e T u4), β)] m
  else .ok m

/-- `cd_correct_bc_2d_cuda::set_homogenous_bc` (src/cuda/cd_correct_bc_2d_cuda.cpp:277-349) -/
def setHomogenousBc2d (i0 j0 i1 j1 face : Int) (bLo bHi : Nat → Int) (exOrder : Int) (u_ : Ptr) (β : Nat → Backend) (m : Mem T) : M (Mem T) := do
  let i ← mkB .I i0 i1
  let j ← mkB .J j0 j1
  let u ← makeSpanOffset u_ 1 [j, i]
  let ib ← mkB .I (max i0 (bLo 0)) (min i1 (bHi 0))
  let jb ← mkB .J (max j0 (bLo 1)) (min j1 (bHi 1))
  let im ← isub i0 1
  let il ← mkB .I im im
  let ip ← iadd i1 1
  let ih ← mkB .I ip ip
  let jm ← isub j0 1
  let jl ← mkB .J jm jm
  let jp ← iadd j1 1
  let jh ← mkB .J jp jp
  if face = 0 then do
    let m ← bcHom exOrder u (.shift .I 1 (.span u)) (.shift .I 2 (.span u)) (.shift .I 3 (.span u)) (.shift .I 4 (.span u)) [jb, il] (β 0) m
    let m ← withDomain [jl, il] [(u.set (Acc.e T (.shift .J 1 (.shift .I 1 (.span u)))), β 1)] m
    withDomain [jh, il] [(u.set (Acc.e T (.shift .J (-1) (.shift .I 1 (.span u)))), β 2)] m
  else if face = 1 then do
    let m ← bcHom exOrder u (.shift .I (-1) (.span u)) (.shift .I (-2) (.span u)) (.shift .I (-3) (.span u)) (.shift .I (-4) (.span u)) [jb, ih] (β 0) m
    let m ← withDomain [jl, ih] [(u.set (Acc.e T (.shift .J 1 (.shift .I (-1) (.span u)))), β 1)] m
    withDomain [jh, ih] [(u.set (Acc.e T (.shift .J (-1) (.shift .I (-1) (.span u)))), β 2)] m
  else if face = 2 then do
    let m ← bcHom exOrder u (.shift .J 1 (.span u)) (.shift .J 2 (.span u)) (.shift .J 3 (.span u)) (.shift .J 4 (.span u)) [jl, ib] (β 0) m
    let m ← withDomain [jl, il] [(u.set (Acc.e T (.shift .J 1 (.shift .I 1 (.span u)))), β 1)] m
    withDomain [jl, ih] [(u.set (Acc.e T (.shift .J 1 (.shift .I (-1) (.span u)))), β 2)] m
  else if face = 3 then do
    let m ← bcHom exOrder u (.shift .J (-1) (.span u)) (.shift .J (-2) (.span u)) (.shift .J (-3) (.span u)) (.shift .J (-4) (.span u)) [jh, ib] (β 0) m
    let m ← withDomain [jh, il] [(u.set (Acc.e T (.shift .J (-1) (.shift .I 1 (.span u)))), β 1)] m
    withDomain [jh, ih] [(u.set (Acc.e T (.shift .J (-1) (.shift .I (-1) (.span u)))), β 2)] m
  else .ok m

/-- `cd_correct_bc_3d_cuda::set_bc` (src/cuda/cd_correct_bc_3d_cuda.cpp:19-181) -/
def setBc3d (i0 i1 j0 j1 k0 k1 : Int) (dx : Nat → T) (dgcw : Int) (d0_ d1_ d2_ : Ptr) (ugcw : Int) (u_ : Ptr) (bLo bHi : Nat → Int) (exOrder face type btype : Int) (alpha beta : T)
    (β : Nat → Backend) (m : Mem T) : M (Mem T) := do
  let i ← mkB .I i0 i1
  let j ← mkB .J j0 j1
  let k ← mkB .K k0 k1
  let i' ← i.plus 1
  let d0 ← makeSpanOffset d0_ dgcw [k, j, i']
  let j' ← j.plus 1
  let d1 ← makeSpanOffset d1_ dgcw [i, k, j']
  let k' ← k.plus 1
  let d2 ← makeSpanOffset d2_ dgcw [j, i, k']
  let u ← makeSpanOffset u_ ugcw [k, j, i]
  let ib ← mkB .I (max (bLo 0) i0) (min (bHi 0) i1)
  let jb ← mkB .J (max (bLo 1) j0) (min (bHi 1) j1)
  let kb ← mkB .K (max (bLo 2) k0) (min (bHi 2) k1)
  let il ← mkB .I (bLo 0) (bLo 0)
  let ih ← mkB .I (bHi 0) (bHi 0)
  let jl ← mkB .J (bLo 1) (bLo 1)
  let jh ← mkB .J (bHi 1) (bHi 1)
  let kl ← mkB .K (bLo 2) (bLo 2)
  let kh ← mkB .K (bHi 2) (bHi 2)
  if type = 1 then
    if face = 0 then bcT1 false btype exOrder alpha beta u (.shift .I 1 (.span u)) (.shift .I 2 (.span u)) (.shift .I 1 (.span d0)) (dx 0) [kb, jb, il] (β 0) m
    else if face = 1 then bcT1 false btype exOrder alpha beta u (.shift .I (-1) (.span u)) (.shift .I (-2) (.span u)) (.span d0) (dx 0) [kb, jb, ih] (β 0) m
    else if face = 2 then bcT1 false btype exOrder alpha beta u (.shift .J 1 (.span u)) (.shift .J 2 (.span u)) (.shift .J 1 (.span d1)) (dx 1) [kb, jl, ib] (β 0) m
    else if face = 3 then bcT1 false btype exOrder alpha beta u (.shift .J (-1) (.span u)) (.shift .J (-2) (.span u)) (.span d1) (dx 1) [kb, jh, ib] (β 0) m
    else if face = 4 then bcT1 false btype exOrder alpha beta u (.shift .K 1 (.span u)) (.shift .K 2 (.span u)) (.shift .K 1 (.span d2)) (dx 2) [kl, jb, ib] (β 0) m
    else if face = 5 then bcT1 false btype exOrder alpha beta u (.shift .K (-1) (.span u)) (.shift .K (-2) (.span u)) (.span d2) (dx 2) [kh, jb, ib] (β 0) m
    else .ok m
  else if type = 2 then
    if face = 0 then bcT2 u (.shift .J 1 (.shift .I 1 (.span u))) (.shift .I 1 (.span u)) (.shift .J 1 (.span u)) [kb, jl, il] (β 0) m
    else if face = 1 then bcT2 u (.shift .J 1 (.shift .I (-1) (.span u))) (.shift .I (-1) (.span u)) (.shift .J 1 (.span u)) [kb, jl, il] (β 0) m
    else if face = 2 then bcT2 u (.shift .J (-1) (.shift .I 1 (.span u))) (.shift .I 1 (.span u)) (.shift .J (-1) (.span u)) [kb, jl, il] (β 0) m
    else if face = 3 then bcT2 u (.shift .J (-1) (.shift .I (-1) (.span u))) (.shift .I (-1) (.span u)) (.shift .J (-1) (.span u)) [kb, jl, il] (β 0) m
    else if face = 4 then bcT2 u (.shift .K 1 (.shift .I 1 (.span u))) (.shift .I 1 (.span u)) (.shift .K 1 (.span u)) [kl, jb, il] (β 0) m
    else if face = 5 then bcT2 u (.shift .K 1 (.shift .I (-1) (.span u))) (.shift .I (-1) (.span u)) (.shift .K 1 (.span u)) [kl, jb, il] (β 0) m
    else if face = 6 then bcT2 u (.shift .K (-1) (.shift .I 1 (.span u))) (.shift .I 1 (.span u)) (.shift .K (-1) (.span u)) [kl, jb, il] (β 0) m
    else if face = 7 then bcT2 u (.shift .K (-1) (.shift .I (-1) (.span u))) (.shift .I (-1) (.span u)) (.shift .K (-1) (.span u)) [kl, jb, il] (β 0) m
    else if face = 8 then bcT2 u (.shift .K 1 (.shift .J 1 (.span u))) (.shift .J 1 (.span u)) (.shift .K 1 (.span u)) [kl, jl, ib] (β 0) m
    else if face = 9 then bcT2 u (.shift .K 1 (.shift .J (-1) (.span u))) (.shift .J (-1) (.span u)) (.shift .K 1 (.span u)) [kl, jl, ib] (β 0) m
    else if face = 10 then bcT2 u (.shift .K (-1) (.shift .J 1 (.span u))) (.shift .J 1 (.span u)) (.shift .K (-1) (.span u)) [kl, jl, ib] (β 0) m
    else if face = 11 then bcT2 u (.shift .K (-1) (.shift .J (-1) (.span u))) (.shift .J (-1) (.span u)) (.shift .K (-1) (.span u)) [kl, jl, ib] (β 0) m
    else .ok m
  else if type = 3 then
    if face = 0 ∨ face = 4 then bcT2 u (.shift .J 1 (.shift .I 1 (.span u))) (.shift .I 1 (.span u)) (.shift .J 1 (.span u)) [kl, jl, il] (β 0) m
    else if face = 1 ∨ face = 5 then bcT2 u (.shift .J 1 (.shift .I (-1) (.span u))) (.shift .I (-1) (.span u)) (.shift .J 1 (.span u)) [kl, jl, il] (β 0) m
    else if face = 2 ∨ face = 6 then bcT2 u (.shift .J (-1) (.shift .I 1 (.span u))) (.shift .I 1 (.span u)) (.shift .J (-1) (.span u)) [kl, jl, il] (β 0) m
    else if face = 3 ∨ face = 7 then bcT2 u (.shift .J (-1) (.shift .I (-1) (.span u))) (.shift .I (-1) (.span u)) (.shift .J (-1) (.span u)) [kl, jl, il] (β 0) m
    else .ok m
  else .ok m

/-- `cd_correct_bc_3d_cuda::set_poisson_bc` (src/cuda/cd_correct_bc_3d_cuda.cpp:183-337) -/
def setPoissonBc3d (i0 i1 j0 j1 k0 k1 : Int) (dx : Nat → T) (ugcw : Int) (u_ : Ptr) (bLo bHi : Nat → Int) (exOrder face type btype : Int) (alpha beta : T)
    (β : Nat → Backend) (m : Mem T) : M (Mem T) := do
  let i ← mkB .I i0 i1
  let j ← mkB .J j0 j1
  let k ← mkB .K k0 k1
  let u ← makeSpanOffset u_ ugcw [k, j, i]
  let ib ← mkB .I (max (bLo 0) i0) (min (bHi 0) i1)
  let jb ← mkB .J (max (bLo 1) j0) (min (bHi 1) j1)
  let kb ← mkB .K (max (bLo 2) k0) (min (bHi 2) k1)
  let il ← mkB .I (bLo 0) (bLo 0)
  let ih ← mkB .I (bHi 0) (bHi 0)
  let jl ← mkB .J (bLo 1) (bLo 1)
  let jh ← mkB .J (bHi 1) (bHi 1)
  let kl ← mkB .K (bLo 2) (bLo 2)
  let kh ← mkB .K (bHi 2) (bHi 2)
  if type = 1 then
    if face = 0 then bcPoissonT1 btype exOrder alpha beta u (.shift .I 1 (.span u)) (.shift .I 2 (.span u)) (dx 0) [kb, jb, il] (β 0) m
    else if face = 1 then bcPoissonT1 btype exOrder alpha beta u (.shift .I (-1) (.span u)) (.shift .I (-2) (.span u)) (dx 0) [kb, jb, ih] (β 0) m
    else if face = 2 then bcPoissonT1 btype exOrder alpha beta u (.shift .J 1 (.span u)) (.shift .J 2 (.span u)) (dx 1) [kb, jl, ib] (β 0) m
    else if face = 3 then bcPoissonT1 btype exOrder alpha beta u (.shift .J (-1) (.span u)) (.shift .J (-2) (.span u)) (dx 1) [kb, jh, ib] (β 0) m
    else if face = 4 then bcPoissonT1 btype exOrder alpha beta u (.shift .K 1 (.span u)) (.shift .K 2 (.span u)) (dx 2) [kl, jb, ib] (β 0) m
    else if face = 5 then bcPoissonT1 btype exOrder alpha beta u (.shift .K (-1) (.span u)) (.shift .K (-2) (.span u)) (dx 2) [kh, jb, ib] (β 0) m
    else .ok m
  else if type = 2 then
    if face = 0 then bcT2 u (.shift .J 1 (.shift .I 1 (.span u))) (.shift .I 1 (.span u)) (.shift .J 1 (.span u)) [kb, jl, il] (β 0) m
    else if face = 1 then bcT2 u (.shift .J 1 (.shift .I (-1) (.span u))) (.shift .I (-1) (.span u)) (.shift .J 1 (.span u)) [kb, jl, il] (β 0) m
    else if face = 2 then bcT2 u (.shift .J (-1) (.shift .I 1 (.span u))) (.shift .I 1 (.span u)) (.shift .J (-1) (.span u)) [kb, jl, il] (β 0) m
    else if face = 3 then bcT2 u (.shift .J (-1) (.shift .I (-1) (.span u))) (.shift .I (-1) (.span u)) (.shift .J (-1) (.span u)) [kb, jl, il] (β 0) m
    else if face = 4 then bcT2 u (.shift .K 1 (.shift .I 1 (.span u))) (.shift .I 1 (.span u)) (.shift .K 1 (.span u)) [kl, jb, il] (β 0) m
    else if face = 5 then bcT2 u (.shift .K 1 (.shift .I (-1) (.span u))) (.shift .I (-1) (.span u)) (.shift .K 1 (.span u)) [kl, jb, il] (β 0) m
    else if face = 6 then bcT2 u (.shift .K (-1) (.shift .I 1 (.span u))) (.shift .I 1 (.span u)) (.shift .K (-1) (.span u)) [kl, jb, il] (β 0) m
    else if face = 7 then bcT2 u (.shift .K (-1) (.shift .I (-1) (.span u))) (.shift .I (-1) (.span u)) (.shift .K (-1) (.span u)) [kl, jb, il] (β 0) m
    else if face = 8 then bcT2 u (.shift .K 1 (.shift .J 1 (.span u))) (.shift .J 1 (.span u)) (.shift .K 1 (.span u)) [kl, jl, ib] (β 0) m
    else if face = 9 then bcT2 u (.shift .K 1 (.shift .J (-1) (.span u))) (.shift .J (-1) (.span u)) (.shift .K 1 (.span u)) [kl, jl, ib] (β 0) m
    else if face = 10 then bcT2 u (.shift .K (-1) (.shift .J 1 (.span u))) (.shift .J 1 (.span u)) (.shift .K (-1) (.span u)) [kl, jl, ib] (β 0) m
    else if face = 11 then bcT2 u (.shift .K (-1) (.shift .J (-1) (.span u))) (.shift .J (-1) (.span u)) (.shift .K (-1) (.span u)) [kl, jl, ib] (β 0) m
    else .ok m
  else if type = 3 then
    if face = 0 ∨ face = 4 then bcT2 u (.shift .J 1 (.shift .I 1 (.span u))) (.shift .I 1 (.span u)) (.shift .J 1 (.span u)) [kl, jl, il] (β 0) m
    else if face = 1 ∨ face = 5 then bcT2 u (.shift .J 1 (.shift .I (-1) (.span u))) (.shift .I (-1) (.span u)) (.shift .J 1 (.span u)) [kl, jl, il] (β 0) m
    else if face = 2 ∨ face = 6 then bcT2 u (.shift .J (-1) (.shift .I 1 (.span u))) (.shift .I 1 (.span u)) (.shift .J (-1) (.span u)) [kl, jl, il] (β 0) m
    else if face = 3 ∨ face = 7 then bcT2 u (.shift .J (-1) (.shift .I (-1) (.span u))) (.shift .I (-1) (.span u)) (.shift .J (-1) (.span u)) [kl, jl, il] (β 0) m
    else .ok m
  else .ok m

end Verif.Cuda
