import Verif.Model.Kernels.Smooth

/-
Transcription of m4/cellblocksmooth1d.m4 and m4/cellblocksmooth2d.m4: a damped Jacobi step for one unknown and for two coupled unknowns per
cell, applied to given residuals.  `det` is a local scalar, computed before the two assignments.

Simplifications: as for m4/cellsmooth*.m4 (exact INTEGER arithmetic, decimal constants are quotients of integers).  m4/cellblocksmooth3d.m4 is in
LapackSmooth.lean.
-/

namespace Verif.F

variable {T : Type} [NatCast T] [Add T] [Sub T] [Mul T] [Div T] [Neg T]

/-- `cellblock1x1jacobi1d` (m4/cellblocksmooth1d.m4:35-64) -/
def cellblock1x1jacobi1d (lo0 hi0 : Int) (stencil_ : Ptr) (fgcw : Int) (f_ : Ptr) (ugcw : Int) (u_ : Ptr) : Cmd T :=
  let stencil := cell1d stencil_ lo0 hi0 0
  let u := cell1d u_ lo0 hi0 ugcw
  let f := cell1d f_ lo0 hi0 fgcw
  let w : T := (2 : Nat) / (3 : Nat)
  doLoop lo0 hi0 fun i => assign u [i] (u.el [i] + .const w * f.el [i] / stencil.el [i])

/-- `cellblock2x2jacobi1d` (m4/cellblocksmooth1d.m4:66-100); the block `a(0:3,CELL1d(lo,hi,0))` -/
def cellblock2x2jacobi1d (lo0 hi0 : Int) (a_ : Ptr) (fgcw : Int) (f0_ f1_ : Ptr) (ugcw : Int) (u0_ u1_ : Ptr) : Cmd T :=
  let a := sm1d a_ 4 lo0 hi0
  let u0 := cell1d u0_ lo0 hi0 ugcw
  let u1 := cell1d u1_ lo0 hi0 ugcw
  let f0 := cell1d f0_ lo0 hi0 fgcw
  let f1 := cell1d f1_ lo0 hi0 fgcw
  let w : T := (2 : Nat) / (3 : Nat)
  doLoop lo0 hi0 fun i m => do
    let det ← (a.el [0, i] * a.el [3, i] - a.el [1, i] * a.el [2, i] : Expr T).eval m
    block [
      assign u0 [i] (u0.el [i] + .const w * (a.el [3, i] * f0.el [i] - a.el [1, i] * f1.el [i]) / .const det),
      assign u1 [i] (u1.el [i] + .const w * (a.el [0, i] * f1.el [i] - a.el [2, i] * f0.el [i]) / .const det)] m

/-- `cellblock1x1jacobi2d` (m4/cellblocksmooth2d.m4:35-66); `w=0.8` is a single precision constant, 13421773 / 2^24 -/
def cellblock1x1jacobi2d (lo0 hi0 lo1 hi1 : Int) (stencil_ : Ptr) (fgcw : Int) (f_ : Ptr) (ugcw : Int) (u_ : Ptr) : Cmd T :=
  let stencil := cell2d stencil_ lo0 lo1 hi0 hi1 0
  let u := cell2d u_ lo0 lo1 hi0 hi1 ugcw
  let f := cell2d f_ lo0 lo1 hi0 hi1 fgcw
  let w : T := (13421773 : Nat) / (16777216 : Nat)
  doLoop lo1 hi1 fun j => doLoop lo0 hi0 fun i => assign u [i, j] (u.el [i, j] + .const w * f.el [i, j] / stencil.el [i, j])

/-- `cellblock2x2jacobi2d` (m4/cellblocksmooth2d.m4:68-104); `w` as before -/
def cellblock2x2jacobi2d (lo0 hi0 lo1 hi1 : Int) (a_ : Ptr) (fgcw : Int) (f0_ f1_ : Ptr) (ugcw : Int) (u0_ u1_ : Ptr) : Cmd T :=
  let a := sm2d a_ 4 lo0 lo1 hi0 hi1
  let u0 := cell2d u0_ lo0 lo1 hi0 hi1 ugcw
  let u1 := cell2d u1_ lo0 lo1 hi0 hi1 ugcw
  let f0 := cell2d f0_ lo0 lo1 hi0 hi1 fgcw
  let f1 := cell2d f1_ lo0 lo1 hi0 hi1 fgcw
  let w : T := (13421773 : Nat) / (16777216 : Nat)
  doLoop lo1 hi1 fun j => doLoop lo0 hi0 fun i m => do
    let det ← (a.el [0, i, j] * a.el [3, i, j] - a.el [1, i, j] * a.el [2, i, j] : Expr T).eval m
    block [
      assign u0 [i, j] (u0.el [i, j] + .const w * (a.el [3, i, j] * f0.el [i, j] - a.el [1, i, j] * f1.el [i, j]) / .const det),
      assign u1 [i, j] (u1.el [i, j] + .const w * (a.el [0, i, j] * f1.el [i, j] - a.el [2, i, j] * f0.el [i, j]) / .const det)] m

end Verif.F
