import Verif.Model.Kernels.Common
import Verif.Model.Window
import Mathlib.Algebra.Field.Defs

/-
Transcription of the stencil coefficient kernels: src/cuda/cd_stencil_1d_cuda.cpp, src/cuda/cd_stencil_2d_cuda.cpp,
src/cuda/cd_stencil_3d_cuda.cpp.

The lambdas `bt4`, `bt0`, `bt1`, `func` and `f` are functions here, with what they capture as arguments; they are written alike in the
three files.  `beta`, `dx` and the like are read on the host.  `copy_to` does nothing (src/cuda/md_device_span.hpp:550-552) and is left
out.  Literals such as 3 and 8.0 are elements of the field.
-/

namespace Verif

set_option linter.unusedVariables false

variable {T : Type}

namespace Proxy

/-! operators on stencil entries (src/cuda/stencil_proxy.hpp:28-70, src/cuda/iter_math.hpp:131-188) -/

instance [Mul T] : HMul (Proxy T) T (Proxy T) := ⟨pn (arith (· * ·))⟩
instance [Mul T] : HMul (Proxy T) (Proxy T) (Proxy T) := ⟨pp (arith (· * ·))⟩
instance [Mul T] : HMul (Proxy T) (Expr T) (Proxy T) := ⟨pe (arith (· * ·))⟩
instance [Div T] : HDiv (Proxy T) T (Proxy T) := ⟨pn (arith (· / ·))⟩
instance [Add T] : HAdd (Proxy T) T (Proxy T) := ⟨pn (arith (· + ·))⟩
instance [Add T] : HAdd (Proxy T) (Proxy T) (Proxy T) := ⟨pp (arith (· + ·))⟩
instance [Add T] : HAdd (Proxy T) (Expr T) (Proxy T) := ⟨pe (arith (· + ·))⟩
instance [Sub T] : HSub (Proxy T) T (Proxy T) := ⟨pn (arith (· - ·))⟩
instance [Sub T] : HSub (Proxy T) (Proxy T) (Proxy T) := ⟨pp (arith (· - ·))⟩
instance [Sub T] : HSub (Proxy T) (Expr T) (Proxy T) := ⟨pe (arith (· - ·))⟩
instance [Mul T] [Neg T] [One T] : Neg (Proxy T) := ⟨neg (· * ·) (-1)⟩

end Proxy

namespace Cuda

/-- `Ib{p0 - 2 * side + 1, p0 - 2 * side + 1}` and the like ("localize indicies", e.g. src/cuda/cd_stencil_3d_cuda.cpp:206-209) -/
def localize (d : Dim) (p0 side : Int) : M DB := do
  let x ← imul 2 side
  let y ← isub p0 x
  let z ← iadd y 1
  mkB d z z

/-- `Ib{p0 - side + 1, p0 - side + 1}`, `Jb{...}` (src/cuda/cd_stencil_2d_cuda.cpp:193, 196) -/
def localizeEdge (d : Dim) (p0 side : Int) : M DB := do
  let y ← isub p0 side
  let z ← iadd y 1
  mkB d z z

/-- `2 * dir + 1 + side` (src/cuda/cd_stencil_2d_cuda.cpp:372, src/cuda/cd_stencil_3d_cuda.cpp:493 and the other kernels) -/
def entryU (dir side : Int) : M Int := do
  let x ← imul 2 dir
  let y ← iadd x 1
  iadd y side

/-- `2 * dir + 2 - side` (src/cuda/cd_stencil_2d_cuda.cpp:373, src/cuda/cd_stencil_3d_cuda.cpp:494 and the other kernels) -/
def entryV (dir side : Int) : M Int := do
  let x ← imul 2 dir
  let y ← iadd x 2
  isub y side

/-- `2 * side - 1` (src/cuda/cd_stencil_1d_cuda.cpp:458 and the 2d and 3d kernels) -/
def shiftBy (side : Int) : M Int := do
  let x ← imul 2 side
  isub x 1

/-- `dx[dir]` of an array with `n` elements (e.g. src/cuda/cd_stencil_3d_cuda.cpp:203) -/
def dxAt (n : Nat) (dx : Nat → T) (dir : Int) : M T := if 0 ≤ dir ∧ dir < n then .ok (dx dir.toNat) else .error .oob

variable [Zero T] [One T] [NatCast T] [IntCast T] [Add T] [Sub T] [Mul T] [Div T] [Neg T] [Pow T Nat]

/-- `bt4` of `adj_diag` (cd_stencil_2d_cuda.cpp:168-174, cd_stencil_3d_cuda.cpp:210-216; in 1d the body is inline, cd_stencil_1d_cuda.cpp:150-154) -/
def adjDiagBt4 (exOrder : Int) (h : T) (st : Span) (f : T) (b : Acc) (p : List DB) (β : Backend) (m : Mem T) : M (Mem T) :=
  let b : Expr T := .acc b
  if exOrder = 2 then windowExec st p [.set1 0 (.proxy (Proxy.entry (T := T) 0 - (f * b) * (3 * h + (16 : T) * b)))] β m else .ok m

/-- `bt0` of `adj_diag` (cd_stencil_2d_cuda.cpp:176-181, cd_stencil_3d_cuda.cpp:218-223) -/
def adjDiagBt0 (exOrder : Int) (st : Span) (f : T) (b : Acc) (p : List DB) (β : Backend) (m : Mem T) : M (Mem T) :=
  let b : Expr T := .acc b
  if exOrder = 2 then windowExec st p [.set1 0 (.proxy (Proxy.entry (T := T) 0 + (f * b)))] β m else .ok m

/-- `bt4` of `adj_poisson_diag` (cd_stencil_3d_cuda.cpp:293-296; in 1d and 2d the statement is inline, cd_stencil_1d_cuda.cpp:182,
cd_stencil_2d_cuda.cpp:233) -/
def adjPoissonDiagBt4 (h : T) (st : Span) (f : T) (p : List DB) (β : Backend) (m : Mem T) : M (Mem T) :=
  windowExec st p [.set1 0 (.proxy (Proxy.entry (T := T) 0 - (f * (3 * h + 16))))] β m

/-- `bt0` of `adj_poisson_diag` (cd_stencil_3d_cuda.cpp:297-300) -/
def adjPoissonDiagBt0 (st : Span) (f : T) (p : List DB) (β : Backend) (m : Mem T) : M (Mem T) :=
  windowExec st p [.set1 0 (.proxy (Proxy.entry (T := T) 0 + f))] β m

/-- `func` of `adj_cf_diag` (cd_stencil_2d_cuda.cpp:274-281, cd_stencil_3d_cuda.cpp:376-383; in 1d inline, cd_stencil_1d_cuda.cpp:214-217) -/
def adjCfDiagFunc (intOrder : Int) (st : Span) (f dr : T) (b : Acc) (p : List DB) (β : Backend) (m : Mem T) : M (Mem T) :=
  let b : Expr T := .acc b
  if intOrder = 1 then windowExec st p [.set1 0 (.proxy (Proxy.entry (T := T) 0 - (f / 3) * b))] β m
  else if intOrder = 2 then windowExec st p [.set1 0 (.proxy (Proxy.entry (T := T) 0 - (f * dr) * b))] β m
  else .ok m

/-- `func` of `adj_poisson_cf_diag` (cd_stencil_2d_cuda.cpp:325-331, cd_stencil_3d_cuda.cpp:436-442; in 1d inline, cd_stencil_1d_cuda.cpp:247-250) -/
def adjPoissonCfDiagFunc (intOrder : Int) (st : Span) (f dr : T) (p : List DB) (β : Backend) (m : Mem T) : M (Mem T) :=
  if intOrder = 1 then windowExec st p [.set1 0 (.proxy (Proxy.entry (T := T) 0 - (f / 3)))] β m
  else if intOrder = 2 then windowExec st p [.set1 0 (.proxy (Proxy.entry (T := T) 0 - (f * dr)))] β m
  else .ok m

/-- `bt4` of `adj_offdiag` (cd_stencil_1d_cuda.cpp:285-293, cd_stencil_2d_cuda.cpp:382-390, cd_stencil_3d_cuda.cpp:504-512) -/
def adjOffdiagBt4 (exOrder : Int) (h beta : T) (u v : Int) (st : Span) (b : Acc) (p : List DB) (β : Backend) (m : Mem T) : M (Mem T) :=
  let b : Expr T := .acc b
  if exOrder = 1 then windowExec st p [.set1 u (.proxy (Proxy.entry (T := T) u * (2 * h / ((4 : T) * b + h))))] β m
  else if exOrder = 2 then
    let f : Expr T := beta * b / (h * (3 * h + (16 : T) * b))
    windowExec st p [.set1 u (.expr ((-9 : T) * f)), .set1 v (.proxy (Proxy.entry (T := T) v - f))] β m
  else .ok m

/-- `bt0` of `adj_offdiag` (cd_stencil_1d_cuda.cpp:295-303, cd_stencil_2d_cuda.cpp:392-400, cd_stencil_3d_cuda.cpp:514-522) and of `adj_poisson_offdiag` (cd_stencil_1d_cuda.cpp:357-365, cd_stencil_2d_cuda.cpp:483-491, cd_stencil_3d_cuda.cpp:623-631) -/
def adjOffdiagBt0 (exOrder : Int) (dir_factor : T) (u v : Int) (st : Span) (p : List DB) (β : Backend) (m : Mem T) : M (Mem T) :=
  if exOrder = 1 then windowExec st p [.set1 u (.proxy (Proxy.entry (T := T) u * dir_factor))] β m
  else if exOrder = 2 then
    windowExec st p [.set1 v (.proxy (Proxy.entry (T := T) v + Proxy.entry (T := T) u / (3 : T))), .set1 u (.proxy (Proxy.entry (T := T) u * (8 / 3 : T)))] β m
  else .ok m

/-- `bt1` of `adj_offdiag` (cd_stencil_1d_cuda.cpp:305-308, cd_stencil_2d_cuda.cpp:402-405, cd_stencil_3d_cuda.cpp:524-527), of `adj_poisson_offdiag` (cd_stencil_1d_cuda.cpp:367-370, cd_stencil_2d_cuda.cpp:493-496, cd_stencil_3d_cuda.cpp:633-636),
and `f` of `readj_offdiag` (cd_stencil_1d_cuda.cpp:431-434, cd_stencil_2d_cuda.cpp:605-608, cd_stencil_3d_cuda.cpp:772-775) -/
def adjOffdiagBt1 (u : Int) (st : Span) (p : List DB) (β : Backend) (m : Mem T) : M (Mem T) := windowExec st p [.set1 u (.num 0)] β m

/-- `bt4` of `adj_poisson_offdiag` (cd_stencil_1d_cuda.cpp:347-355, cd_stencil_2d_cuda.cpp:473-481, cd_stencil_3d_cuda.cpp:613-621) -/
def adjPoissonOffdiagBt4 (exOrder : Int) (h beta : T) (u v : Int) (st : Span) (p : List DB) (β : Backend) (m : Mem T) : M (Mem T) :=
  if exOrder = 1 then windowExec st p [.set1 u (.proxy (Proxy.entry (T := T) u * (2 * h / (4 + h))))] β m
  else if exOrder = 2 then
    let f := beta / (h * (3 * h + 16))
    windowExec st p [.set1 u (.num (-9 * f)), .set1 v (.proxy (Proxy.entry (T := T) v - f))] β m
  else .ok m

/-- `func` of `adj_cf_offdiag` (cd_stencil_1d_cuda.cpp:401-410, cd_stencil_2d_cuda.cpp:558-567, cd_stencil_3d_cuda.cpp:716-725) -/
def adjCfOffdiagFunc (r intOrder u v : Int) (st : Span) (p : List DB) (β : Backend) (m : Mem T) : M (Mem T) :=
  if intOrder = 1 then windowExec st p [.set1 u (.proxy (Proxy.entry (T := T) u * (2 / 3 : T)))] β m
  else if intOrder = 2 then
    windowExec st p [.set1 v (.proxy (Proxy.entry (T := T) v - Proxy.entry (T := T) u * (((r : T) - 1) / ((r : T) + 3)))),
      .set1 u (.proxy (Proxy.entry (T := T) u * (8 / (((r : T) + 1) * ((r : T) + 3)))))] β m
  else .ok m

/-- `f` of `adj_cf_bdryrhs` (cd_stencil_1d_cuda.cpp:461-464, cd_stencil_2d_cuda.cpp:652-655, cd_stencil_3d_cuda.cpp:828-831) -/
def bdryrhsF (ui : Int) (st rhs : Span) (v : Acc) (p : List DB) (β : Backend) (m : Mem T) : M (Mem T) :=
  windowExec st p [.subEq (· * ·) (· + ·) (-1) rhs (Proxy.entry (T := T) ui * (.acc v : Expr T))] β m

/-- `cd_stencil_1d_cuda::offdiag` (src/cuda/cd_stencil_1d_cuda.cpp:29-53) -/
def offdiag1d (i0 i1 bi0 bi1 : Int) (dx : Nat → T) (beta : T) (b0_ : Ptr) (sgcw : Int) (st_ : Ptr) (β : Backend)
    (m : Mem T) : M (Mem T) := do
  let i ← mkB .I i0 i1
  let bi ← mkB .I bi0 bi1
  let w ← mkB .W 0 2
  let bi' ← bi.plus 1
  let b0 := makeSpan b0_ [bi']
  let st ← makeSpanOffset st_ sgcw [i, w]
  let d0 := -beta / (dx 0 * dx 0)
  windowExec st [i] [.set2 1 2 (.expr (d0 * (.stencil 1 .I b0 : Expr T)))] β m

/-- `cd_stencil_1d_cuda::poisson_offdiag` (src/cuda/cd_stencil_1d_cuda.cpp:55-70) -/
def poissonOffdiag1d (i0 i1 : Int) (dx : Nat → T) (beta : T) (sgcw : Int) (st_ : Ptr) (β : Backend)
    (m : Mem T) : M (Mem T) := do
  let i ← mkB .I i0 i1
  let w ← mkB .W 0 2
  let st ← makeSpanOffset st_ sgcw [i, w]
  let d0 := -beta / (dx 0 * dx 0)
  windowExec st [i] [.set1 1 (.num d0), .set1 2 (.num d0)] β m

/-- `cd_stencil_1d_cuda::v1diag` (src/cuda/cd_stencil_1d_cuda.cpp:72-92) -/
def v1diag1d (i0 i1 ai0 ai1 : Int) (alpha : T) (a_ : Ptr) (sgcw : Int) (st_ : Ptr) (β : Backend)
    (m : Mem T) : M (Mem T) := do
  let i ← mkB .I i0 i1
  let ai ← mkB .I ai0 ai1
  let w ← mkB .W 0 2
  let a := makeSpan a_ [ai]
  let st ← makeSpanOffset st_ sgcw [i, w]
  windowExec st [i] [.set1 0 (.proxy (-(Proxy.entry (T := T) 1 + Proxy.entry (T := T) 2) + alpha * a.e T))] β m

/-- `cd_stencil_1d_cuda::v2diag` (src/cuda/cd_stencil_1d_cuda.cpp:94-106) -/
def v2diag1d (i0 i1 : Int) (alpha : T) (sgcw : Int) (st_ : Ptr) (β : Backend)
    (m : Mem T) : M (Mem T) := do
  let i ← mkB .I i0 i1
  let w ← mkB .W 0 2
  let st ← makeSpanOffset st_ sgcw [i, w]
  windowExec st [i] [.set1 0 (.proxy (-(Proxy.entry (T := T) 1 + Proxy.entry (T := T) 2) + alpha))] β m

/-- `cd_stencil_1d_cuda::poisson_diag` (src/cuda/cd_stencil_1d_cuda.cpp:108-123) -/
def poissonDiag1d (i0 i1 : Int) (sgcw : Int) (st_ : Ptr) (β : Backend)
    (m : Mem T) : M (Mem T) := do
  let i ← mkB .I i0 i1
  let w ← mkB .W 0 2
  let st ← makeSpanOffset st_ sgcw [i, w]
  windowExec st [i] [.set1 0 (.proxy (-(Proxy.entry (T := T) 1 + Proxy.entry (T := T) 2)))] β m

/-- `cd_stencil_1d_cuda::adj_diag` (src/cuda/cd_stencil_1d_cuda.cpp:125-156) -/
def adjDiag1d (i0 i1 pi0 pi1 side btype exOrder : Int) (dx : Nat → T) (beta : T) (b0_ : Ptr) (sgcw : Int) (st_ : Ptr) (β : Backend)
    (m : Mem T) : M (Mem T) := do
  let i ← mkB .I i0 i1
  let pi ← mkB .I pi0 pi1
  let w ← mkB .W 0 2
  let st ← makeSpanOffset st_ sgcw [i, w]
  let i' ← i.plus 1
  let b0 := makeSpan b0_ [i']
  let h := dx 0
  if btype = 4 then do
    let f := beta / h
    let pi ← localize .I pi0 side
    adjDiagBt4 exOrder h st f (.shift .I side (.span b0)) [pi] β m
  else .ok m

/-- `cd_stencil_1d_cuda::adj_poisson_diag` (src/cuda/cd_stencil_1d_cuda.cpp:158-185) -/
def adjPoissonDiag1d (i0 i1 pi0 pi1 side btype exOrder : Int) (dx : Nat → T) (beta : T) (sgcw : Int) (st_ : Ptr) (β : Backend)
    (m : Mem T) : M (Mem T) := do
  let i ← mkB .I i0 i1
  let pi ← mkB .I pi0 pi1
  let w ← mkB .W 0 2
  let st ← makeSpanOffset st_ sgcw [i, w]
  let h := dx 0
  if btype = 4 ∧ exOrder = 2 then do
    let pi ← localize .I pi0 side
    let f := beta / h
    adjPoissonDiagBt4 h st f [pi] β m
  else .ok m

/-- `cd_stencil_1d_cuda::adj_cf_diag` (src/cuda/cd_stencil_1d_cuda.cpp:187-221) -/
def adjCfDiag1d (i0 i1 pi0 pi1 r side intOrder : Int) (dx : Nat → T) (beta : T) (b0_ : Ptr) (sgcw : Int) (st_ : Ptr) (β : Backend)
    (m : Mem T) : M (Mem T) := do
  let i ← mkB .I i0 i1
  let w ← mkB .W 0 2
  let dr : T := 2 * ((r : T) - 1) / ((r : T) + 1)
  let st ← makeSpanOffset st_ sgcw [i, w]
  let i' ← i.plus 1
  let b0 := makeSpan b0_ [i']
  let h := dx 0
  let f := beta / (h * h)
  let pil ← localize .I pi0 side
  adjCfDiagFunc intOrder st f dr (.shift .I side (.span b0)) [pil] β m

/-- `cd_stencil_1d_cuda::adj_poisson_cf_diag` (src/cuda/cd_stencil_1d_cuda.cpp:223-254) -/
def adjPoissonCfDiag1d (i0 i1 pi0 pi1 r side intOrder : Int) (dx : Nat → T) (beta : T) (sgcw : Int) (st_ : Ptr) (β : Backend)
    (m : Mem T) : M (Mem T) := do
  let i ← mkB .I i0 i1
  let w ← mkB .W 0 2
  let dr : T := 2 * ((r : T) - 1) / ((r : T) + 1)
  let st ← makeSpanOffset st_ sgcw [i, w]
  let h := dx 0
  let f := beta / (h * h)
  let pil ← localize .I pi0 side
  adjPoissonCfDiagFunc intOrder st f dr [pil] β m

/-- `cd_stencil_1d_cuda::adj_offdiag` (src/cuda/cd_stencil_1d_cuda.cpp:256-318) -/
def adjOffdiag1d (i0 i1 pi0 pi1 side btype exOrder : Int) (dx : Nat → T) (dir_factor neu_factor beta : T) (b0_ : Ptr) (sgcw : Int) (st_ : Ptr) (β : Backend)
    (m : Mem T) : M (Mem T) := do
  let i ← mkB .I i0 i1
  let w ← mkB .W 0 2
  let st ← makeSpanOffset st_ sgcw [i, w]
  let i' ← i.plus 1
  let b0 := makeSpan b0_ [i']
  let h := dx 0
  let u ← iadd 1 side
  let v ← isub 2 side
  let pil ← localize .I pi0 side
  if btype = 4 then
    adjOffdiagBt4 exOrder h beta u v st (.shift .I side (.span b0)) [pil] β m
  else if btype = 0 then
    adjOffdiagBt0 exOrder dir_factor u v st [pil] β m
  else if btype = 1 then
    adjOffdiagBt1 u st [pil] β m
  else .ok m

/-- `cd_stencil_1d_cuda::adj_poisson_offdiag` (src/cuda/cd_stencil_1d_cuda.cpp:320-380) -/
def adjPoissonOffdiag1d (i0 i1 pi0 pi1 side btype exOrder : Int) (dx : Nat → T) (dir_factor neu_factor beta : T) (sgcw : Int) (st_ : Ptr) (β : Backend)
    (m : Mem T) : M (Mem T) := do
  let i ← mkB .I i0 i1
  let w ← mkB .W 0 2
  let st ← makeSpanOffset st_ sgcw [i, w]
  let h := dx 0
  let u ← iadd 1 side
  let v ← isub 2 side
  let pil ← localize .I pi0 side
  if btype = 4 then
    adjPoissonOffdiagBt4 exOrder h beta u v st [pil] β m
  else if btype = 0 then
    adjOffdiagBt0 exOrder dir_factor u v st [pil] β m
  else if btype = 1 then
    adjOffdiagBt1 u st [pil] β m
  else .ok m

/-- `cd_stencil_1d_cuda::adj_cf_offdiag` (src/cuda/cd_stencil_1d_cuda.cpp:382-413) -/
def adjCfOffdiag1d (i0 i1 ci0 ci1 r side intOrder sgcw : Int) (st_ : Ptr) (β : Backend)
    (m : Mem T) : M (Mem T) := do
  let i ← mkB .I i0 i1
  let cil ← localize .I ci0 side
  let w ← mkB .W 0 2
  let st ← makeSpanOffset st_ sgcw [i, w]
  let u ← iadd 1 side
  let v ← isub 2 side
  adjCfOffdiagFunc r intOrder u v st [cil] β m

/-- `cd_stencil_1d_cuda::readj_offdiag` (src/cuda/cd_stencil_1d_cuda.cpp:415-437) -/
def readjOffdiag1d (i0 i1 pi0 pi1 side sgcw : Int) (st_ : Ptr) (β : Backend)
    (m : Mem T) : M (Mem T) := do
  let i ← mkB .I i0 i1
  let pil ← localize .I pi0 side
  let w ← mkB .W 0 2
  let st ← makeSpanOffset st_ sgcw [i, w]
  let u ← iadd 1 side
  adjOffdiagBt1 u st [pil] β m

/-- `cd_stencil_1d_cuda::adj_cf_bdryrhs` (src/cuda/cd_stencil_1d_cuda.cpp:439-467) -/
def adjCfBdryrhs1d (i0 i1 pi0 pi1 side sgcw : Int) (st_ : Ptr) (gcw : Int) (u_ rhs_ : Ptr) (β : Backend)
    (m : Mem T) : M (Mem T) := do
  let i ← mkB .I i0 i1
  let pil ← localize .I pi0 side
  let w ← mkB .W 0 2
  let st ← makeSpanOffset st_ sgcw [i, w]
  let u ← makeSpanOffset u_ gcw [i]
  let rhs := makeSpan rhs_ [i]
  let ui ← iadd 1 side
  let s ← shiftBy side
  bdryrhsF ui st rhs (.shift .I s (.span u)) [pil] β m

/-- `cd_stencil_2d_cuda::offdiag` (src/cuda/cd_stencil_2d_cuda.cpp:19-50) -/
def offdiag2d (i0 j0 i1 j1 bi0 bj0 bi1 bj1 : Int) (dx : Nat → T) (beta : T) (b0_ b1_ : Ptr) (sgcw : Int) (st_ : Ptr) (β : Backend)
    (m : Mem T) : M (Mem T) := do
  let i ← mkB .I i0 i1
  let bi ← mkB .I bi0 bi1
  let j ← mkB .J j0 j1
  let bj ← mkB .J bj0 bj1
  let w ← mkB .W 0 4
  let st ← makeSpanOffset st_ sgcw [j, i, w]
  let bi' ← bi.plus 1
  let b0 := makeSpan b0_ [bj, bi']
  let bj' ← bj.plus 1
  let b1 := makeSpan b1_ [bi, bj']
  let d0 := -beta / (dx 0 * dx 0)
  let d1 := -beta / (dx 1 * dx 1)
  windowExec st [j, i] [.set2 1 2 (.expr (d0 * (.stencil 1 .I b0 : Expr T))), .set2 3 4 (.expr (d1 * (.stencil 1 .J b1 : Expr T)))] β m

/-- `cd_stencil_2d_cuda::poisson_offdiag` (src/cuda/cd_stencil_2d_cuda.cpp:52-74) -/
def poissonOffdiag2d (i0 j0 i1 j1 : Int) (dx : Nat → T) (beta : T) (sgcw : Int) (st_ : Ptr) (β : Backend)
    (m : Mem T) : M (Mem T) := do
  let i ← mkB .I i0 i1
  let j ← mkB .J j0 j1
  let w ← mkB .W 0 4
  let st ← makeSpanOffset st_ sgcw [j, i, w]
  let d0 := -beta / (dx 0 * dx 0)
  let d1 := -beta / (dx 1 * dx 1)
  windowExec st [j, i] [.set1 1 (.num d0), .set1 2 (.num d0), .set1 3 (.num d1), .set1 4 (.num d1)] β m

/-- `cd_stencil_2d_cuda::v1diag` (src/cuda/cd_stencil_2d_cuda.cpp:76-101) -/
def v1diag2d (i0 j0 i1 j1 ai0 aj0 ai1 aj1 : Int) (alpha : T) (a_ : Ptr) (sgcw : Int) (st_ : Ptr) (β : Backend)
    (m : Mem T) : M (Mem T) := do
  let i ← mkB .I i0 i1
  let ai ← mkB .I ai0 ai1
  let j ← mkB .J j0 j1
  let aj ← mkB .J aj0 aj1
  let w ← mkB .W 0 4
  let st ← makeSpanOffset st_ sgcw [j, i, w]
  let a := makeSpan a_ [aj, ai]
  windowExec st [j, i] [.set1 0 (.proxy (-(Proxy.entry (T := T) 1 + Proxy.entry (T := T) 2 + Proxy.entry (T := T) 3 + Proxy.entry (T := T) 4) + alpha * a.e T))] β m

/-- `cd_stencil_2d_cuda::v2diag` (src/cuda/cd_stencil_2d_cuda.cpp:103-121) -/
def v2diag2d (i0 j0 i1 j1 : Int) (alpha : T) (sgcw : Int) (st_ : Ptr) (β : Backend)
    (m : Mem T) : M (Mem T) := do
  let i ← mkB .I i0 i1
  let j ← mkB .J j0 j1
  let w ← mkB .W 0 4
  let st ← makeSpanOffset st_ sgcw [j, i, w]
  windowExec st [j, i] [.set1 0 (.proxy (-(Proxy.entry (T := T) 1 + Proxy.entry (T := T) 2 + Proxy.entry (T := T) 3 + Proxy.entry (T := T) 4) + alpha))] β m

/-- `cd_stencil_2d_cuda::poisson_diag` (src/cuda/cd_stencil_2d_cuda.cpp:123-136) -/
def poissonDiag2d (i0 j0 i1 j1 : Int) (sgcw : Int) (st_ : Ptr) (β : Backend)
    (m : Mem T) : M (Mem T) := do
  let i ← mkB .I i0 i1
  let j ← mkB .J j0 j1
  let w ← mkB .W 0 4
  let st ← makeSpanOffset st_ sgcw [j, i, w]
  windowExec st [j, i] [.set1 0 (.proxy (-(Proxy.entry (T := T) 1 + Proxy.entry (T := T) 2 + Proxy.entry (T := T) 3 + Proxy.entry (T := T) 4)))] β m

/-- `cd_stencil_2d_cuda::adj_diag` (src/cuda/cd_stencil_2d_cuda.cpp:138-202) -/
def adjDiag2d (i0 j0 i1 j1 pi0 pj0 pi1 pj1 dir side btype exOrder : Int) (dx : Nat → T) (beta : T) (b0_ b1_ : Ptr) (sgcw : Int) (st_ : Ptr) (β : Backend)
    (m : Mem T) : M (Mem T) := do
  let i ← mkB .I i0 i1
  let pi ← mkB .I pi0 pi1
  let j ← mkB .J j0 j1
  let pj ← mkB .J pj0 pj1
  let w ← mkB .W 0 4
  let st ← makeSpanOffset st_ sgcw [j, i, w]
  let i' ← i.plus 1
  let b0 := makeSpan b0_ [j, i']
  let j' ← j.plus 1
  let b1 := makeSpan b1_ [i, j']
  let h ← dxAt 2 dx dir
  if btype = 4 then
    let f := beta / h
    if dir = 0 then do
      let l ← localize .I pi0 side
      adjDiagBt4 exOrder h st f (.shift .I side (.span b0)) [pj, l] β m
    else .ok m
  else if btype = 0 then
    let f := beta / (3 * h * h)
    if dir = 0 then do
      let l ← localizeEdge .I pi0 side
      adjDiagBt0 exOrder st f (.span b0) [pj, l] β m
    else if dir = 1 then do
      let l ← localizeEdge .J pj0 side
      adjDiagBt0 exOrder st f (.span b1) [l, pi] β m
    else .ok m
  else .ok m

/-- `cd_stencil_2d_cuda::adj_poisson_diag` (src/cuda/cd_stencil_2d_cuda.cpp:204-236) -/
def adjPoissonDiag2d (i0 j0 i1 j1 pi0 pj0 pi1 pj1 dir side btype exOrder : Int) (dx : Nat → T) (beta : T) (sgcw : Int) (st_ : Ptr) (β : Backend)
    (m : Mem T) : M (Mem T) := do
  let i ← mkB .I i0 i1
  let pi ← mkB .I pi0 pi1
  let j ← mkB .J j0 j1
  let pj ← mkB .J pj0 pj1
  let w ← mkB .W 0 4
  let st ← makeSpanOffset st_ sgcw [j, i, w]
  let h ← dxAt 2 dx dir
  if btype = 4 ∧ exOrder = 2 ∧ dir = 0 then do
    let f := beta / h
    let pi ← localize .I pi0 side
    adjPoissonDiagBt4 h st f [pj, pi] β m
  else .ok m

/-- `cd_stencil_2d_cuda::adj_cf_diag` (src/cuda/cd_stencil_2d_cuda.cpp:238-291) -/
def adjCfDiag2d (i0 j0 i1 j1 pi0 pj0 pi1 pj1 r dir side intOrder : Int) (dx : Nat → T) (beta : T) (b0_ b1_ : Ptr) (sgcw : Int) (st_ : Ptr) (β : Backend)
    (m : Mem T) : M (Mem T) := do
  let i ← mkB .I i0 i1
  let pi ← mkB .I pi0 pi1
  let j ← mkB .J j0 j1
  let pj ← mkB .J pj0 pj1
  let w ← mkB .W 0 4
  let dr : T := 2 * ((r : T) - 1) / ((r : T) + 1)
  let st ← makeSpanOffset st_ sgcw [j, i, w]
  let i' ← i.plus 1
  let b0 := makeSpan b0_ [j, i']
  let j' ← j.plus 1
  let b1 := makeSpan b1_ [i, j']
  let h ← dxAt 2 dx dir
  let f := beta / (h * h)
  let pil ← localize .I pi0 side
  let pjl ← localize .J pj0 side
  if dir = 0 then adjCfDiagFunc intOrder st f dr (.shift .I side (.span b0)) [pj, pil] β m
  else if dir = 1 then adjCfDiagFunc intOrder st f dr (.shift .J side (.span b1)) [pjl, pi] β m
  else .ok m

/-- `cd_stencil_2d_cuda::adj_poisson_cf_diag` (src/cuda/cd_stencil_2d_cuda.cpp:293-341) -/
def adjPoissonCfDiag2d (i0 j0 i1 j1 pi0 pj0 pi1 pj1 r dir side intOrder : Int) (dx : Nat → T) (beta : T) (sgcw : Int) (st_ : Ptr) (β : Backend)
    (m : Mem T) : M (Mem T) := do
  let i ← mkB .I i0 i1
  let pi ← mkB .I pi0 pi1
  let j ← mkB .J j0 j1
  let pj ← mkB .J pj0 pj1
  let w ← mkB .W 0 4
  let dr : T := 2 * ((r : T) - 1) / ((r : T) + 1)
  let st ← makeSpanOffset st_ sgcw [j, i, w]
  let h ← dxAt 2 dx dir
  let f := beta / (h * h)
  let pil ← localize .I pi0 side
  let pjl ← localize .J pj0 side
  if dir = 0 then adjPoissonCfDiagFunc intOrder st f dr [pj, pil] β m
  else if dir = 1 then adjPoissonCfDiagFunc intOrder st f dr [pjl, pi] β m
  else .ok m

/-- `cd_stencil_2d_cuda::adj_offdiag` (src/cuda/cd_stencil_2d_cuda.cpp:343-436) -/
def adjOffdiag2d (i0 j0 i1 j1 pi0 pj0 pi1 pj1 dir side btype exOrder : Int) (dx : Nat → T) (dir_factor neu_factor beta : T) (b0_ b1_ : Ptr) (sgcw : Int) (st_ : Ptr) (β : Backend)
    (m : Mem T) : M (Mem T) := do
  let i ← mkB .I i0 i1
  let pi ← mkB .I pi0 pi1
  let j ← mkB .J j0 j1
  let pj ← mkB .J pj0 pj1
  let w ← mkB .W 0 4
  let st ← makeSpanOffset st_ sgcw [j, i, w]
  let i' ← i.plus 1
  let b0 := makeSpan b0_ [j, i']
  let j' ← j.plus 1
  let b1 := makeSpan b1_ [i, j']
  let h ← dxAt 2 dx dir
  let u ← entryU dir side
  let v ← entryV dir side
  let pil ← localize .I pi0 side
  let pjl ← localize .J pj0 side
  if btype = 4 then
    if dir = 0 then adjOffdiagBt4 exOrder h beta u v st (.shift .I side (.span b0)) [pj, pil] β m
    else .ok m
  else if btype = 0 then
    if dir = 0 then adjOffdiagBt0 exOrder dir_factor u v st [pj, pil] β m
    else if dir = 1 then adjOffdiagBt0 exOrder dir_factor u v st [pjl, pi] β m
    else .ok m
  else if btype = 1 then
    if dir = 0 then adjOffdiagBt1 u st [pj, pil] β m
    else if dir = 1 then adjOffdiagBt1 u st [pjl, pi] β m
    else .ok m
  else .ok m

/-- `cd_stencil_2d_cuda::adj_poisson_offdiag` (src/cuda/cd_stencil_2d_cuda.cpp:438-527) -/
def adjPoissonOffdiag2d (i0 j0 i1 j1 pi0 pj0 pi1 pj1 dir side btype exOrder : Int) (dx : Nat → T) (dir_factor neu_factor beta : T) (sgcw : Int) (st_ : Ptr) (β : Backend)
    (m : Mem T) : M (Mem T) := do
  let i ← mkB .I i0 i1
  let pi ← mkB .I pi0 pi1
  let j ← mkB .J j0 j1
  let pj ← mkB .J pj0 pj1
  let w ← mkB .W 0 4
  let st ← makeSpanOffset st_ sgcw [j, i, w]
  let h ← dxAt 2 dx dir
  let u ← entryU dir side
  let v ← entryV dir side
  let pil ← localize .I pi0 side
  let pjl ← localize .J pj0 side
  if btype = 4 then
    if dir = 0 then adjPoissonOffdiagBt4 exOrder h beta u v st [pj, pil] β m
    else .ok m
  else if btype = 0 then
    if dir = 0 then adjOffdiagBt0 exOrder dir_factor u v st [pj, pil] β m
    else if dir = 1 then adjOffdiagBt0 exOrder dir_factor u v st [pjl, pi] β m
    else .ok m
  else if btype = 1 then
    if dir = 0 then adjOffdiagBt1 u st [pj, pil] β m
    else if dir = 1 then adjOffdiagBt1 u st [pjl, pi] β m
    else .ok m
  else .ok m

/-- `cd_stencil_2d_cuda::adj_cf_offdiag` (src/cuda/cd_stencil_2d_cuda.cpp:529-577) -/
def adjCfOffdiag2d (i0 j0 i1 j1 ci0 cj0 ci1 cj1 r dir side intOrder sgcw : Int) (st_ : Ptr) (β : Backend)
    (m : Mem T) : M (Mem T) := do
  let i ← mkB .I i0 i1
  let ci ← mkB .I ci0 ci1
  let j ← mkB .J j0 j1
  let cj ← mkB .J cj0 cj1
  let w ← mkB .W 0 4
  let st ← makeSpanOffset st_ sgcw [j, i, w]
  let cil ← localize .I ci0 side
  let cjl ← localize .J cj0 side
  let u ← entryU dir side
  let v ← entryV dir side
  if dir = 0 then adjCfOffdiagFunc r intOrder u v st [cj, cil] β m
  else if dir = 1 then adjCfOffdiagFunc r intOrder u v st [cjl, ci] β m
  else .ok m

/-- `cd_stencil_2d_cuda::readj_offdiag` (src/cuda/cd_stencil_2d_cuda.cpp:579-618) -/
def readjOffdiag2d (i0 j0 i1 j1 pi0 pj0 pi1 pj1 dir side sgcw : Int) (st_ : Ptr) (β : Backend)
    (m : Mem T) : M (Mem T) := do
  let i ← mkB .I i0 i1
  let pi ← mkB .I pi0 pi1
  let j ← mkB .J j0 j1
  let pj ← mkB .J pj0 pj1
  let w ← mkB .W 0 4
  let st ← makeSpanOffset st_ sgcw [j, i, w]
  let u ← entryU dir side
  let pil ← localize .I pi0 side
  let pjl ← localize .J pj0 side
  if dir = 0 then adjOffdiagBt1 u st [pj, pil] β m
  else if dir = 1 then adjOffdiagBt1 u st [pjl, pi] β m
  else .ok m

/-- `cd_stencil_2d_cuda::adj_cf_bdryrhs` (src/cuda/cd_stencil_2d_cuda.cpp:620-665) -/
def adjCfBdryrhs2d (i0 j0 i1 j1 pi0 pj0 pi1 pj1 dir side sgcw : Int) (st_ : Ptr) (gcw : Int) (u_ rhs_ : Ptr) (β : Backend)
    (m : Mem T) : M (Mem T) := do
  let i ← mkB .I i0 i1
  let pi ← mkB .I pi0 pi1
  let j ← mkB .J j0 j1
  let pj ← mkB .J pj0 pj1
  let w ← mkB .W 0 4
  let st ← makeSpanOffset st_ sgcw [j, i, w]
  let u ← makeSpanOffset u_ gcw [j, i]
  let rhs := makeSpan rhs_ [j, i]
  let ui ← entryU dir side
  let s ← shiftBy side
  let pil ← localize .I pi0 side
  let pjl ← localize .J pj0 side
  if dir = 0 then bdryrhsF ui st rhs (.shift .I s (.span u)) [pj, pil] β m
  else if dir = 1 then bdryrhsF ui st rhs (.shift .J s (.span u)) [pjl, pi] β m
  else .ok m

/-- `cd_stencil_3d_cuda::offdiag` (src/cuda/cd_stencil_3d_cuda.cpp:19-59) -/
def offdiag3d (i0 j0 k0 i1 j1 k1 bi0 bj0 bk0 bi1 bj1 bk1 : Int) (dx : Nat → T) (beta : T) (b0_ b1_ b2_ : Ptr) (sgcw : Int) (st_ : Ptr) (β : Backend)
    (m : Mem T) : M (Mem T) := do
  let i ← mkB .I i0 i1
  let bi ← mkB .I bi0 bi1
  let j ← mkB .J j0 j1
  let bj ← mkB .J bj0 bj1
  let k ← mkB .K k0 k1
  let bk ← mkB .K bk0 bk1
  let w ← mkB .W 0 6
  let st ← makeSpanOffset st_ sgcw [k, j, i, w]
  let bi' ← bi.plus 1
  let b0 := makeSpan b0_ [bk, bj, bi']
  let bj' ← bj.plus 1
  let b1 := makeSpan b1_ [bi, bk, bj']
  let bk' ← bk.plus 1
  let b2 := makeSpan b2_ [bj, bi, bk']
  let d0 := -beta / (dx 0 * dx 0)
  let d1 := -beta / (dx 1 * dx 1)
  let d2 := -beta / (dx 2 * dx 2)
  windowExec st [k, j, i] [.set2 1 2 (.expr (d0 * (.stencil 1 .I b0 : Expr T))), .set2 3 4 (.expr (d1 * (.stencil 1 .J b1 : Expr T))), .set2 5 6 (.expr (d2 * (.stencil 1 .K b2 : Expr T)))] β m

/-- `cd_stencil_3d_cuda::poisson_offdiag` (src/cuda/cd_stencil_3d_cuda.cpp:61-87) -/
def poissonOffdiag3d (i0 j0 k0 i1 j1 k1 : Int) (dx : Nat → T) (beta : T) (sgcw : Int) (st_ : Ptr) (β : Backend)
    (m : Mem T) : M (Mem T) := do
  let i ← mkB .I i0 i1
  let j ← mkB .J j0 j1
  let k ← mkB .K k0 k1
  let w ← mkB .W 0 6
  let st ← makeSpanOffset st_ sgcw [k, j, i, w]
  let d0 := -beta / (dx 0 * dx 0)
  let d1 := -beta / (dx 1 * dx 1)
  let d2 := -beta / (dx 2 * dx 2)
  windowExec st [k, j, i] [.set2 1 2 (.num d0), .set2 3 4 (.num d1), .set2 5 6 (.num d2)] β m

/-- `cd_stencil_3d_cuda::v1diag` (src/cuda/cd_stencil_3d_cuda.cpp:89-119) -/
def v1diag3d (i0 j0 k0 i1 j1 k1 ai0 aj0 ak0 ai1 aj1 ak1 : Int) (alpha : T) (a_ : Ptr) (sgcw : Int) (st_ : Ptr) (β : Backend)
    (m : Mem T) : M (Mem T) := do
  let i ← mkB .I i0 i1
  let ai ← mkB .I ai0 ai1
  let j ← mkB .J j0 j1
  let aj ← mkB .J aj0 aj1
  let k ← mkB .K k0 k1
  let ak ← mkB .K ak0 ak1
  let w ← mkB .W 0 6
  let st ← makeSpanOffset st_ sgcw [k, j, i, w]
  let a := makeSpan a_ [ak, aj, ai]
  windowExec st [k, j, i] [.set1 0 (.proxy (-(Proxy.entry (T := T) 1 + Proxy.entry (T := T) 2 + Proxy.entry (T := T) 3 + Proxy.entry (T := T) 4 + Proxy.entry (T := T) 5 + Proxy.entry (T := T) 6) + alpha * a.e T))] β m

/-- `cd_stencil_3d_cuda::v2diag` (src/cuda/cd_stencil_3d_cuda.cpp:121-143) -/
def v2diag3d (i0 j0 k0 i1 j1 k1 : Int) (alpha : T) (sgcw : Int) (st_ : Ptr) (β : Backend)
    (m : Mem T) : M (Mem T) := do
  let i ← mkB .I i0 i1
  let j ← mkB .J j0 j1
  let k ← mkB .K k0 k1
  let w ← mkB .W 0 6
  let st ← makeSpanOffset st_ sgcw [k, j, i, w]
  windowExec st [k, j, i] [.set1 0 (.proxy (-(Proxy.entry (T := T) 1 + Proxy.entry (T := T) 2 + Proxy.entry (T := T) 3 + Proxy.entry (T := T) 4 + Proxy.entry (T := T) 5 + Proxy.entry (T := T) 6) + alpha))] β m

/-- `cd_stencil_3d_cuda::poisson_diag` (src/cuda/cd_stencil_3d_cuda.cpp:145-166) -/
def poissonDiag3d (i0 j0 k0 i1 j1 k1 : Int) (sgcw : Int) (st_ : Ptr) (β : Backend)
    (m : Mem T) : M (Mem T) := do
  let i ← mkB .I i0 i1
  let j ← mkB .J j0 j1
  let k ← mkB .K k0 k1
  let w ← mkB .W 0 6
  let st ← makeSpanOffset st_ sgcw [k, j, i, w]
  windowExec st [k, j, i] [.set1 0 (.proxy (-(Proxy.entry (T := T) 1 + Proxy.entry (T := T) 2 + Proxy.entry (T := T) 3 + Proxy.entry (T := T) 4 + Proxy.entry (T := T) 5 + Proxy.entry (T := T) 6)))] β m

/-- `cd_stencil_3d_cuda::adj_diag` (src/cuda/cd_stencil_3d_cuda.cpp:168-253) -/
def adjDiag3d (i0 j0 k0 i1 j1 k1 pi0 pj0 pk0 pi1 pj1 pk1 dir side btype exOrder : Int) (dx : Nat → T) (beta : T) (b0_ b1_ b2_ : Ptr) (sgcw : Int) (st_ : Ptr) (β : Backend)
    (m : Mem T) : M (Mem T) := do
  let i ← mkB .I i0 i1
  let pi ← mkB .I pi0 pi1
  let j ← mkB .J j0 j1
  let pj ← mkB .J pj0 pj1
  let k ← mkB .K k0 k1
  let pk ← mkB .K pk0 pk1
  let w ← mkB .W 0 6
  let st ← makeSpanOffset st_ sgcw [k, j, i, w]
  let i' ← i.plus 1
  let b0 := makeSpan b0_ [k, j, i']
  let j' ← j.plus 1
  let b1 := makeSpan b1_ [i, k, j']
  let k' ← k.plus 1
  let b2 := makeSpan b2_ [j, i, k']
  let h ← dxAt 3 dx dir
  let pil ← localize .I pi0 side
  let pjl ← localize .J pj0 side
  let pkl ← localize .K pk0 side
  if btype = 4 then
    let f := beta / h
    if dir = 0 then adjDiagBt4 exOrder h st f (.shift .I side (.span b0)) [pk, pj, pil] β m
    else if dir = 1 then adjDiagBt4 exOrder h st f (.shift .J side (.span b1)) [pk, pjl, pi] β m
    else if dir = 2 then adjDiagBt4 exOrder h st f (.shift .K side (.span b2)) [pkl, pj, pi] β m
    else .ok m
  else if btype = 0 then
    let f := beta / (3 * h * h)
    if dir = 0 then adjDiagBt0 exOrder st f (.span b0) [pk, pj, pil] β m
    else if dir = 1 then adjDiagBt0 exOrder st f (.span b1) [pk, pjl, pi] β m
    else if dir = 2 then adjDiagBt0 exOrder st f (.span b2) [pkl, pj, pi] β m
    else .ok m
  else .ok m

/-- `cd_stencil_3d_cuda::adj_poisson_diag` (src/cuda/cd_stencil_3d_cuda.cpp:255-330) -/
def adjPoissonDiag3d (i0 j0 k0 i1 j1 k1 pi0 pj0 pk0 pi1 pj1 pk1 dir side btype exOrder : Int) (dx : Nat → T) (beta : T) (sgcw : Int) (st_ : Ptr) (β : Backend)
    (m : Mem T) : M (Mem T) := do
  let i ← mkB .I i0 i1
  let pi ← mkB .I pi0 pi1
  let j ← mkB .J j0 j1
  let pj ← mkB .J pj0 pj1
  let k ← mkB .K k0 k1
  let pk ← mkB .K pk0 pk1
  let w ← mkB .W 0 6
  let st ← makeSpanOffset st_ sgcw [k, j, i, w]
  let h ← dxAt 3 dx dir
  if exOrder ≠ 2 then .ok m
  else do
    let pil ← localize .I pi0 side
    let pjl ← localize .J pj0 side
    let pkl ← localize .K pk0 side
    if btype = 4 then
      let f := beta / h
      if dir = 0 then adjPoissonDiagBt4 h st f [pk, pj, pil] β m
      else if dir = 1 then adjPoissonDiagBt4 h st f [pk, pjl, pi] β m
      else if dir = 2 then adjPoissonDiagBt4 h st f [pkl, pj, pi] β m
      else .ok m
    else if btype = 0 then
      let f := beta / (3 * h * h)
      if dir = 0 then adjPoissonDiagBt0 st f [pk, pj, pil] β m
      else if dir = 1 then adjPoissonDiagBt0 st f [pk, pjl, pi] β m
      else if dir = 2 then adjPoissonDiagBt0 st f [pkl, pj, pi] β m
      else .ok m
    else .ok m

/-- `cd_stencil_3d_cuda::adj_cf_diag` (src/cuda/cd_stencil_3d_cuda.cpp:332-396) -/
def adjCfDiag3d (i0 j0 k0 i1 j1 k1 pi0 pj0 pk0 pi1 pj1 pk1 r dir side intOrder : Int) (dx : Nat → T) (beta : T) (b0_ b1_ b2_ : Ptr) (sgcw : Int) (st_ : Ptr) (β : Backend)
    (m : Mem T) : M (Mem T) := do
  let i ← mkB .I i0 i1
  let pi ← mkB .I pi0 pi1
  let j ← mkB .J j0 j1
  let pj ← mkB .J pj0 pj1
  let k ← mkB .K k0 k1
  let pk ← mkB .K pk0 pk1
  let w ← mkB .W 0 6
  let dr : T := 2 * ((r : T) - 1) / ((r : T) + 1)
  let st ← makeSpanOffset st_ sgcw [k, j, i, w]
  let i' ← i.plus 1
  let b0 := makeSpan b0_ [k, j, i']
  let j' ← j.plus 1
  let b1 := makeSpan b1_ [i, k, j']
  let k' ← k.plus 1
  let b2 := makeSpan b2_ [j, i, k']
  let h ← dxAt 3 dx dir
  let f := beta / (h * h)
  let pil ← localize .I pi0 side
  let pjl ← localize .J pj0 side
  let pkl ← localize .K pk0 side
  if dir = 0 then adjCfDiagFunc intOrder st f dr (.shift .I side (.span b0)) [pk, pj, pil] β m
  else if dir = 1 then adjCfDiagFunc intOrder st f dr (.shift .J side (.span b1)) [pk, pjl, pi] β m
  else if dir = 2 then adjCfDiagFunc intOrder st f dr (.shift .K side (.span b2)) [pkl, pj, pi] β m
  else .ok m

/-- `cd_stencil_3d_cuda::adj_poisson_cf_diag` (src/cuda/cd_stencil_3d_cuda.cpp:398-455) -/
def adjPoissonCfDiag3d (i0 j0 k0 i1 j1 k1 pi0 pj0 pk0 pi1 pj1 pk1 r dir side intOrder : Int) (dx : Nat → T) (beta : T) (sgcw : Int) (st_ : Ptr) (β : Backend)
    (m : Mem T) : M (Mem T) := do
  let i ← mkB .I i0 i1
  let pi ← mkB .I pi0 pi1
  let j ← mkB .J j0 j1
  let pj ← mkB .J pj0 pj1
  let k ← mkB .K k0 k1
  let pk ← mkB .K pk0 pk1
  let w ← mkB .W 0 6
  let dr : T := 2 * ((r : T) - 1) / ((r : T) + 1)
  let st ← makeSpanOffset st_ sgcw [k, j, i, w]
  let h ← dxAt 3 dx dir
  let f := beta / (h * h)
  let pil ← localize .I pi0 side
  let pjl ← localize .J pj0 side
  let pkl ← localize .K pk0 side
  if dir = 0 then adjPoissonCfDiagFunc intOrder st f dr [pk, pj, pil] β m
  else if dir = 1 then adjPoissonCfDiagFunc intOrder st f dr [pk, pjl, pi] β m
  else if dir = 2 then adjPoissonCfDiagFunc intOrder st f dr [pkl, pj, pi] β m
  else .ok m

/-- `cd_stencil_3d_cuda::adj_offdiag` (src/cuda/cd_stencil_3d_cuda.cpp:457-570) -/
def adjOffdiag3d (i0 j0 k0 i1 j1 k1 pi0 pj0 pk0 pi1 pj1 pk1 dir side btype exOrder : Int) (dx : Nat → T) (dir_factor neu_factor beta : T) (b0_ b1_ b2_ : Ptr) (sgcw : Int) (st_ : Ptr) (β : Backend)
    (m : Mem T) : M (Mem T) := do
  let i ← mkB .I i0 i1
  let pi ← mkB .I pi0 pi1
  let j ← mkB .J j0 j1
  let pj ← mkB .J pj0 pj1
  let k ← mkB .K k0 k1
  let pk ← mkB .K pk0 pk1
  let w ← mkB .W 0 6
  let st ← makeSpanOffset st_ sgcw [k, j, i, w]
  let i' ← i.plus 1
  let b0 := makeSpan b0_ [k, j, i']
  let j' ← j.plus 1
  let b1 := makeSpan b1_ [i, k, j']
  let k' ← k.plus 1
  let b2 := makeSpan b2_ [j, i, k']
  let h ← dxAt 3 dx dir
  let u ← entryU dir side
  let v ← entryV dir side
  let pil ← localize .I pi0 side
  let pjl ← localize .J pj0 side
  let pkl ← localize .K pk0 side
  if btype = 4 then
    if dir = 0 then adjOffdiagBt4 exOrder h beta u v st (.shift .I side (.span b0)) [pk, pj, pil] β m
    else if dir = 1 then adjOffdiagBt4 exOrder h beta u v st (.shift .J side (.span b1)) [pk, pjl, pi] β m
    else if dir = 2 then adjOffdiagBt4 exOrder h beta u v st (.shift .K side (.span b2)) [pkl, pj, pi] β m
    else .ok m
  else if btype = 0 then
    if dir = 0 then adjOffdiagBt0 exOrder dir_factor u v st [pk, pj, pil] β m
    else if dir = 1 then adjOffdiagBt0 exOrder dir_factor u v st [pk, pjl, pi] β m
    else if dir = 2 then adjOffdiagBt0 exOrder dir_factor u v st [pkl, pj, pi] β m
    else .ok m
  else if btype = 1 then
    if dir = 0 then adjOffdiagBt1 u st [pk, pj, pil] β m
    else if dir = 1 then adjOffdiagBt1 u st [pk, pjl, pi] β m
    else if dir = 2 then adjOffdiagBt1 u st [pkl, pj, pi] β m
    else .ok m
  else .ok m

/-- `cd_stencil_3d_cuda::adj_poisson_offdiag` (src/cuda/cd_stencil_3d_cuda.cpp:572-679) -/
def adjPoissonOffdiag3d (i0 j0 k0 i1 j1 k1 pi0 pj0 pk0 pi1 pj1 pk1 dir side btype exOrder : Int) (dx : Nat → T) (dir_factor neu_factor beta : T) (sgcw : Int) (st_ : Ptr) (β : Backend)
    (m : Mem T) : M (Mem T) := do
  let i ← mkB .I i0 i1
  let pi ← mkB .I pi0 pi1
  let j ← mkB .J j0 j1
  let pj ← mkB .J pj0 pj1
  let k ← mkB .K k0 k1
  let pk ← mkB .K pk0 pk1
  let w ← mkB .W 0 6
  let st ← makeSpanOffset st_ sgcw [k, j, i, w]
  let h ← dxAt 3 dx dir
  let u ← entryU dir side
  let v ← entryV dir side
  let pil ← localize .I pi0 side
  let pjl ← localize .J pj0 side
  let pkl ← localize .K pk0 side
  if btype = 4 then
    if dir = 0 then adjPoissonOffdiagBt4 exOrder h beta u v st [pk, pj, pil] β m
    else if dir = 1 then adjPoissonOffdiagBt4 exOrder h beta u v st [pk, pjl, pi] β m
    else if dir = 2 then adjPoissonOffdiagBt4 exOrder h beta u v st [pkl, pj, pi] β m
    else .ok m
  else if btype = 0 then
    if dir = 0 then adjOffdiagBt0 exOrder dir_factor u v st [pk, pj, pil] β m
    else if dir = 1 then adjOffdiagBt0 exOrder dir_factor u v st [pk, pjl, pi] β m
    else if dir = 2 then adjOffdiagBt0 exOrder dir_factor u v st [pkl, pj, pi] β m
    else .ok m
  else if btype = 1 then
    if dir = 0 then adjOffdiagBt1 u st [pk, pj, pil] β m
    else if dir = 1 then adjOffdiagBt1 u st [pk, pjl, pi] β m
    else if dir = 2 then adjOffdiagBt1 u st [pkl, pj, pi] β m
    else .ok m
  else .ok m

/-- `cd_stencil_3d_cuda::adj_cf_offdiag` (src/cuda/cd_stencil_3d_cuda.cpp:681-738) -/
def adjCfOffdiag3d (i0 j0 k0 i1 j1 k1 ci0 cj0 ck0 ci1 cj1 ck1 r dir side intOrder sgcw : Int) (st_ : Ptr) (β : Backend)
    (m : Mem T) : M (Mem T) := do
  let i ← mkB .I i0 i1
  let ci ← mkB .I ci0 ci1
  let j ← mkB .J j0 j1
  let cj ← mkB .J cj0 cj1
  let k ← mkB .K k0 k1
  let ck ← mkB .K ck0 ck1
  let w ← mkB .W 0 6
  let st ← makeSpanOffset st_ sgcw [k, j, i, w]
  let cil ← localize .I ci0 side
  let cjl ← localize .J cj0 side
  let ckl ← localize .K ck0 side
  let u ← entryU dir side
  let v ← entryV dir side
  if dir = 0 then adjCfOffdiagFunc r intOrder u v st [ck, cj, cil] β m
  else if dir = 1 then adjCfOffdiagFunc r intOrder u v st [ck, cjl, ci] β m
  else if dir = 2 then adjCfOffdiagFunc r intOrder u v st [ckl, cj, ci] β m
  else .ok m

/-- `cd_stencil_3d_cuda::readj_offdiag` (src/cuda/cd_stencil_3d_cuda.cpp:740-788) -/
def readjOffdiag3d (i0 j0 k0 i1 j1 k1 pi0 pj0 pk0 pi1 pj1 pk1 dir side sgcw : Int) (st_ : Ptr) (β : Backend)
    (m : Mem T) : M (Mem T) := do
  let i ← mkB .I i0 i1
  let pi ← mkB .I pi0 pi1
  let j ← mkB .J j0 j1
  let pj ← mkB .J pj0 pj1
  let k ← mkB .K k0 k1
  let pk ← mkB .K pk0 pk1
  let w ← mkB .W 0 6
  let st ← makeSpanOffset st_ sgcw [k, j, i, w]
  let u ← entryU dir side
  let pil ← localize .I pi0 side
  let pjl ← localize .J pj0 side
  let pkl ← localize .K pk0 side
  if dir = 0 then adjOffdiagBt1 u st [pk, pj, pil] β m
  else if dir = 1 then adjOffdiagBt1 u st [pk, pjl, pi] β m
  else if dir = 2 then adjOffdiagBt1 u st [pkl, pj, pi] β m
  else .ok m

/-- `cd_stencil_3d_cuda::adj_cf_bdryrhs` (src/cuda/cd_stencil_3d_cuda.cpp:790-844) -/
def adjCfBdryrhs3d (i0 j0 k0 i1 j1 k1 pi0 pj0 pk0 pi1 pj1 pk1 dir side sgcw : Int) (st_ : Ptr) (gcw : Int) (u_ rhs_ : Ptr) (β : Backend)
    (m : Mem T) : M (Mem T) := do
  let i ← mkB .I i0 i1
  let pi ← mkB .I pi0 pi1
  let j ← mkB .J j0 j1
  let pj ← mkB .J pj0 pj1
  let k ← mkB .K k0 k1
  let pk ← mkB .K pk0 pk1
  let w ← mkB .W 0 6
  let st ← makeSpanOffset st_ sgcw [k, j, i, w]
  let u ← makeSpanOffset u_ gcw [k, j, i]
  let rhs := makeSpan rhs_ [k, j, i]
  let ui ← entryU dir side
  let s ← shiftBy side
  let pil ← localize .I pi0 side
  let pjl ← localize .J pj0 side
  let pkl ← localize .K pk0 side
  if dir = 0 then bdryrhsF ui st rhs (.shift .I s (.span u)) [pk, pj, pil] β m
  else if dir = 1 then bdryrhsF ui st rhs (.shift .J s (.span u)) [pk, pjl, pi] β m
  else if dir = 2 then bdryrhsF ui st rhs (.shift .K s (.span u)) [pkl, pj, pi] β m
  else .ok m

end Cuda

end Verif
