import Verif.Spec.Fortran
import Mathlib.Algebra.Field.Defs

/-
The Fortran stencil coefficient routines for node data: m4/nodediffusionstencilcoeffs1d.m4, m4/nodediffusionstencilcoeffs2d.m4,
m4/nodediffusionstencilcoeffs3d.m4, statement by statement.

Local scalars are `let`; one that refers to array elements stands for its expression.  Statements whose value is not used afterwards
and loops with nothing in them are left out.
-/

namespace Verif.F

variable {T : Type} [Zero T] [One T] [NatCast T] [IntCast T] [Add T] [Sub T] [Mul T] [Div T] [Neg T] [Pow T Nat]

set_option linter.unusedVariables false

/-- `nodediffusionoffdiag1d` (m4/nodediffusionstencilcoeffs1d.m4:38-78) -/
def nodediffusionoffdiag1d (ifirst0 ilast0 bilo0 bihi0 : Int) (dx : Nat → T) (beta : T) (b0_ stencil_ : Ptr) : Cmd T :=
  let b0 := face1d b0_ bilo0 bihi0 0
  let stencil := st1d stencil_ ifirst0 ilast0 0
  let d0 : T := -(beta / (dx 0 * dx 0))
  doLoop ifirst0 ilast0 fun ie0 =>
    block [
      assign stencil [1, ie0] (Expr.const d0 * b0.el [ie0]),
      assign stencil [2, ie0] (Expr.const d0 * b0.el [ie0 + 1])]

/-- `nodepoissonoffdiag1d` (m4/nodediffusionstencilcoeffs1d.m4:80-111) -/
def nodepoissonoffdiag1d (ifirst0 ilast0 : Int) (dx : Nat → T) (beta : T) (stencil_ : Ptr) : Cmd T :=
  let stencil := st1d stencil_ ifirst0 ilast0 0
  let d0 : T := -(beta / (dx 0 * dx 0))
  doLoop ifirst0 ilast0 fun ie0 =>
    block [
      assign stencil [1, ie0] (Expr.const d0),
      assign stencil [2, ie0] (Expr.const d0)]

/-- `nodediffusionv1diag1d` (m4/nodediffusionstencilcoeffs1d.m4:114-146) -/
def nodediffusionv1diag1d (ifirst0 ilast0 ailo0 aihi0 : Int) (alpha : T) (a_ stencil_ : Ptr) : Cmd T :=
  let a := cell1d a_ ailo0 aihi0 0
  let stencil := st1d stencil_ ifirst0 ilast0 0
  doLoop ifirst0 ilast0 fun ic0 =>
    assign stencil [0, ic0] ((-(stencil.el [1, ic0] + stencil.el [2, ic0])) + Expr.const alpha * a.el [ic0])

/-- `nodediffusionv2diag1d` (m4/nodediffusionstencilcoeffs1d.m4:149-173) -/
def nodediffusionv2diag1d (ifirst0 ilast0 : Int) (alpha : T) (stencil_ : Ptr) : Cmd T :=
  let stencil := st1d stencil_ ifirst0 ilast0 0
  doLoop ifirst0 ilast0 fun ic0 =>
    assign stencil [0, ic0] ((-(stencil.el [1, ic0] + stencil.el [2, ic0])) + Expr.const alpha)

/-- `nodepoissondiag1d` (m4/nodediffusionstencilcoeffs1d.m4:176-198) -/
def nodepoissondiag1d (ifirst0 ilast0 : Int) (stencil_ : Ptr) : Cmd T :=
  let stencil := st1d stencil_ ifirst0 ilast0 0
  doLoop ifirst0 ilast0 fun ic0 =>
    assign stencil [0, ic0] (-(stencil.el [1, ic0] + stencil.el [2, ic0]))

/-- `adjnodediffusiondiag1d` (m4/nodediffusionstencilcoeffs1d.m4:201-258) -/
def adjnodediffusiondiag1d (ifirst0 ilast0 pfirst0 plast0 side bdrytype extrapOrder : Int) (dx : Nat → T) (beta : T) (b0_ stencil_ : Ptr) : Cmd T :=
  let b0 := face1d b0_ ifirst0 ilast0 0
  let stencil := st1d stencil_ ifirst0 ilast0 0
  if bdrytype = 4 then
    let ie0 := pfirst0 - 2 * side + 1
    let edge := pfirst0 - side + 1
    let h : T := dx 0
    if side = 0 then
      if extrapOrder = 1 then
        skip
      else if extrapOrder = 2 then
        let factor : Expr T := Expr.const beta * b0.el [edge] / Expr.const h * (Expr.const (3 * h) + Expr.const 16 * b0.el [edge])
        assign stencil [0, ie0] (stencil.el [0, ie0] - factor)
      else
        skip
    else
      if extrapOrder = 1 then
        skip
      else if extrapOrder = 2 then
        let factor : Expr T := Expr.const beta * b0.el [edge] / Expr.const h * (Expr.const (3 * h) + Expr.const 16 * b0.el [edge])
        assign stencil [0, ie0] (stencil.el [0, ie0] - factor)
      else
        skip
  else
    skip

/-- `adjnodepoissondiag1d` (m4/nodediffusionstencilcoeffs1d.m4:260-316) -/
def adjnodepoissondiag1d (ifirst0 ilast0 pfirst0 plast0 side bdrytype extrapOrder : Int) (dx : Nat → T) (beta : T) (stencil_ : Ptr) : Cmd T :=
  let stencil := st1d stencil_ ifirst0 ilast0 0
  if bdrytype = 4 then
    let ie0 := pfirst0 - 2 * side + 1
    let h : T := dx 0
    if side = 0 then
      if extrapOrder = 1 then
        skip
      else if extrapOrder = 2 then
        let factor : T := beta / h * (3 * h + 16)
        assign stencil [0, ie0] (stencil.el [0, ie0] - Expr.const factor)
      else
        skip
    else
      if extrapOrder = 1 then
        skip
      else if extrapOrder = 2 then
        let factor : T := beta / h * (3 * h + 16)
        assign stencil [0, ie0] (stencil.el [0, ie0] - Expr.const factor)
      else
        skip
  else
    skip

/-- `adjnodediffusioncfdiag1d` (m4/nodediffusionstencilcoeffs1d.m4:318-369) -/
def adjnodediffusioncfdiag1d (ifirst0 ilast0 pfirst0 plast0 r side interporder : Int) (dx : Nat → T) (beta : T) (b0_ stencil_ : Ptr) : Cmd T :=
  let b0 := face1d b0_ ifirst0 ilast0 0
  let stencil := st1d stencil_ ifirst0 ilast0 0
  let dr : T := (r : T)
  let dr1 : T := 2 * (dr - 1) / (dr + 1)
  let ie0 := pfirst0 - 2 * side + 1
  let edge := pfirst0 - side + 1
  let h : T := dx 0
  if interporder = 1 then
    let factor : Expr T := Expr.const beta * b0.el [edge] / Expr.const (3 * h ^ 2)
    assign stencil [0, ie0] (stencil.el [0, ie0] - factor)
  else if interporder = 2 then
    let factor : Expr T := Expr.const (dr1 * beta) * b0.el [edge] / Expr.const (h ^ 2)
    assign stencil [0, ie0] (stencil.el [0, ie0] - factor)
  else
    skip

/-- `adjnodepoissoncfdiag1d` (m4/nodediffusionstencilcoeffs1d.m4:371-416) -/
def adjnodepoissoncfdiag1d (ifirst0 ilast0 pfirst0 plast0 r side interporder : Int) (dx : Nat → T) (beta : T) (stencil_ : Ptr) : Cmd T :=
  let stencil := st1d stencil_ ifirst0 ilast0 0
  let dr : T := (r : T)
  let dr1 : T := 2 * (dr - 1) / (dr + 1)
  let ie0 := pfirst0 - 2 * side + 1
  let h : T := dx 0
  if interporder = 1 then
    let factor : T := beta / (3 * h ^ 2)
    assign stencil [0, ie0] (stencil.el [0, ie0] - Expr.const factor)
  else if interporder = 2 then
    let factor : T := dr1 * beta / h ^ 2
    assign stencil [0, ie0] (stencil.el [0, ie0] - Expr.const factor)
  else
    skip

/-- `adjnodediffusionoffdiag1d` (m4/nodediffusionstencilcoeffs1d.m4:419-505) -/
def adjnodediffusionoffdiag1d (ifirst0 ilast0 pfirst0 plast0 side bdrytype extrapOrder : Int) (dx : Nat → T) (dirfactor neufactor beta : T) (b0_ stencil_ : Ptr) : Cmd T :=
  let b0 := face1d b0_ ifirst0 ilast0 0
  let stencil := st1d stencil_ ifirst0 ilast0 0
  if bdrytype = 4 then
    let ie0 := pfirst0 - side + 1
    let h : T := dx 0
    if side = 0 then
      if extrapOrder = 1 then
        let factor : Expr T := Expr.const (2 * h) / (Expr.const 4 * b0.el [ie0] + Expr.const h)
        assign stencil [1, ie0] (factor * stencil.el [1, ie0])
      else if extrapOrder = 2 then
        let factor : Expr T := Expr.const beta * b0.el [ie0] / (Expr.const h * (Expr.const (3 * h) + Expr.const 16 * b0.el [ie0]))
        block [
          assign stencil [1, ie0] (-(Expr.const 9 * factor)),
          assign stencil [2, ie0] (stencil.el [2, ie0] - factor)]
      else
        skip
    else
      if extrapOrder = 1 then
        let factor : Expr T := Expr.const (2 * h) / (Expr.const 4 * b0.el [ie0] + Expr.const h)
        assign stencil [2, ie0 - 1] (factor * stencil.el [2, ie0 - 1])
      else if extrapOrder = 2 then
        let factor : Expr T := Expr.const beta * b0.el [ie0] / (Expr.const h * (Expr.const (3 * h) + Expr.const 16 * b0.el [ie0]))
        block [
          assign stencil [2, ie0 - 1] (-(Expr.const 9 * factor)),
          assign stencil [1, ie0 - 1] (stencil.el [1, ie0 - 1] - factor)]
      else
        skip
  else if bdrytype = 0 then
    let factor : T := dirfactor
    let ie0 := pfirst0 - side + 1
    if side = 0 then
      if extrapOrder = 1 then
        assign stencil [1, ie0] (stencil.el [1, ie0] * Expr.const factor)
      else if extrapOrder = 2 then
        block [
          assign stencil [2, ie0] (stencil.el [2, ie0] + stencil.el [1, ie0] / Expr.const 3),
          assign stencil [1, ie0] (Expr.const 8 * stencil.el [1, ie0] / Expr.const 3)]
      else
        skip
    else
      if extrapOrder = 1 then
        assign stencil [2, ie0 - 1] (stencil.el [2, ie0 - 1] * Expr.const factor)
      else if extrapOrder = 2 then
        block [
          assign stencil [1, ie0 - 1] (stencil.el [1, ie0 - 1] + stencil.el [2, ie0 - 1] / Expr.const 3),
          assign stencil [2, ie0 - 1] (Expr.const 8 * stencil.el [2, ie0 - 1] / Expr.const 3)]
      else
        skip
  else if bdrytype = 1 then
    let ie0 := pfirst0 - side + 1
    if side = 0 then
      assign stencil [1, ie0] (Expr.const 0)
    else
      assign stencil [2, ie0 - 1] (Expr.const 0)
  else
    skip

/-- `adjnodepoissonoffdiag1d` (m4/nodediffusionstencilcoeffs1d.m4:507-591) -/
def adjnodepoissonoffdiag1d (ifirst0 ilast0 pfirst0 plast0 side bdrytype extrapOrder : Int) (dx : Nat → T) (dirfactor neufactor beta : T) (stencil_ : Ptr) : Cmd T :=
  let stencil := st1d stencil_ ifirst0 ilast0 0
  if bdrytype = 4 then
    let ie0 := pfirst0 - side + 1
    let h : T := dx 0
    if side = 0 then
      if extrapOrder = 1 then
        let factor : T := 2 * h / (4 + h)
        assign stencil [1, ie0] (Expr.const factor * stencil.el [1, ie0])
      else if extrapOrder = 2 then
        let factor : T := beta / (h * (3 * h + 16))
        block [
          assign stencil [1, ie0] (Expr.const (-(9 * factor))),
          assign stencil [2, ie0] (stencil.el [2, ie0] - Expr.const factor)]
      else
        skip
    else
      if extrapOrder = 1 then
        let factor : T := 2 * h / (4 + h)
        assign stencil [2, ie0 - 1] (Expr.const factor * stencil.el [2, ie0 - 1])
      else if extrapOrder = 2 then
        let factor : T := beta / (h * (3 * h + 16))
        block [
          assign stencil [2, ie0 - 1] (Expr.const (-(9 * factor))),
          assign stencil [1, ie0 - 1] (stencil.el [1, ie0 - 1] - Expr.const factor)]
      else
        skip
  else if bdrytype = 0 then
    let factor : T := dirfactor
    let ie0 := pfirst0 - side + 1
    if side = 0 then
      if extrapOrder = 1 then
        assign stencil [1, ie0] (stencil.el [1, ie0] * Expr.const factor)
      else if extrapOrder = 2 then
        block [
          assign stencil [2, ie0] (stencil.el [2, ie0] + stencil.el [1, ie0] / Expr.const 3),
          assign stencil [1, ie0] (Expr.const 8 * stencil.el [1, ie0] / Expr.const 3)]
      else
        skip
    else
      if extrapOrder = 1 then
        assign stencil [2, ie0 - 1] (stencil.el [2, ie0 - 1] * Expr.const factor)
      else if extrapOrder = 2 then
        block [
          assign stencil [1, ie0 - 1] (stencil.el [1, ie0 - 1] + stencil.el [2, ie0 - 1] / Expr.const 3),
          assign stencil [2, ie0 - 1] (Expr.const 8 * stencil.el [2, ie0 - 1] / Expr.const 3)]
      else
        skip
  else if bdrytype = 1 then
    let ie0 := pfirst0 - side + 1
    if side = 0 then
      assign stencil [1, ie0] (Expr.const 0)
    else
      assign stencil [2, ie0 - 1] (Expr.const 0)
  else
    skip

/-- `adjnodediffusioncfoffdiag1d` (m4/nodediffusionstencilcoeffs1d.m4:594-644) -/
def adjnodediffusioncfoffdiag1d (ifirst0 ilast0 cfirst0 clast0 r side interporder : Int) (stencil_ : Ptr) : Cmd T :=
  let stencil := st1d stencil_ ifirst0 ilast0 0
  let dr : T := (r : T)
  let ie0 := cfirst0 - side + 1
  if side = 0 then
    if interporder = 1 then
      assign stencil [1, ie0] (Expr.const 2 * stencil.el [1, ie0] / Expr.const 3)
    else if interporder = 2 then
      block [
        assign stencil [2, ie0] (stencil.el [2, ie0] - stencil.el [1, ie0] * Expr.const (dr - 1) / Expr.const (dr + 3)),
        assign stencil [1, ie0] (Expr.const 8 * stencil.el [1, ie0] / Expr.const ((dr + 1) * (dr + 3)))]
    else
      skip
  else
    if interporder = 1 then
      assign stencil [2, ie0 - 1] (Expr.const 2 * stencil.el [2, ie0 - 1] / Expr.const 3)
    else if interporder = 2 then
      block [
        assign stencil [1, ie0 - 1] (stencil.el [1, ie0 - 1] - stencil.el [2, ie0 - 1] * Expr.const (dr - 1) / Expr.const (dr + 3)),
        assign stencil [2, ie0 - 1] (Expr.const 8 * stencil.el [2, ie0 - 1] / Expr.const ((dr + 1) * (dr + 3)))]
    else
      skip

/-- `readjnodediffusionoffdiag1d` (m4/nodediffusionstencilcoeffs1d.m4:647-676) -/
def readjnodediffusionoffdiag1d (ifirst0 ilast0 pfirst0 plast0 side : Int) (stencil_ : Ptr) : Cmd T :=
  let stencil := st1d stencil_ ifirst0 ilast0 0
  let ie0 := pfirst0 - side + 1
  if side = 0 then
    assign stencil [1, ie0] (Expr.const 0)
  else
    assign stencil [2, ie0 - 1] (Expr.const 0)

/-- `adjnodediffusioncfbdryrhs1d` (m4/nodediffusionstencilcoeffs1d.m4:679-714) -/
def adjnodediffusioncfbdryrhs1d (ifirst0 ilast0 pfirst0 plast0 side : Int) (stencil_ : Ptr) (gcw : Int) (u_ rhs_ : Ptr) : Cmd T :=
  let stencil := st1d stencil_ ifirst0 ilast0 0
  let u := cell1d u_ ifirst0 ilast0 gcw
  let rhs := cell1d rhs_ ifirst0 ilast0 0
  let ie0 := pfirst0 + 1 - 2 * side
  if side = 0 then
    assign rhs [ie0] (rhs.el [ie0] - stencil.el [1, ie0] * u.el [ie0 - 1])
  else
    assign rhs [ie0] (rhs.el [ie0] - stencil.el [2, ie0] * u.el [ie0 + 1])

/-- `nodediffusionoffdiag2d` (m4/nodediffusionstencilcoeffs2d.m4:40-82) -/
def nodediffusionoffdiag2d (ifirst0 ifirst1 ilast0 ilast1 bilo0 bilo1 bihi0 bihi1 : Int) (dx : Nat → T) (beta : T) (b0_ b1_ stencil_ : Ptr) : Cmd T :=
  let b0 := face2d0 b0_ bilo0 bilo1 bihi0 bihi1 0
  let b1 := face2d1 b1_ bilo0 bilo1 bihi0 bihi1 0
  let stencil := st2d stencil_ ifirst0 ifirst1 ilast0 ilast1 0
  let d0 : T := -(beta / (dx 0 * dx 0))
  let d1 : T := -(beta / (dx 1 * dx 1))
  doLoop ifirst1 ilast1 fun ic1 =>
    doLoop ifirst0 ilast0 fun ie0 =>
      block [
        assign stencil [1, ie0, ic1] (Expr.const d0 * b0.el [ie0, ic1]),
        assign stencil [2, ie0, ic1] (Expr.const d0 * b0.el [ie0 + 1, ic1]),
        assign stencil [3, ie0, ic1] (Expr.const d1 * b1.el [ic1, ie0]),
        assign stencil [4, ie0, ic1] (Expr.const d1 * b1.el [ic1 + 1, ie0])]

/-- `nodepoissonoffdiag2d` (m4/nodediffusionstencilcoeffs2d.m4:84-116) -/
def nodepoissonoffdiag2d (ifirst0 ifirst1 ilast0 ilast1 : Int) (dx : Nat → T) (beta : T) (stencil_ : Ptr) : Cmd T :=
  let stencil := st2d stencil_ ifirst0 ifirst1 ilast0 ilast1 0
  let d0 : T := -(beta / (dx 0 * dx 0))
  let d1 : T := -(beta / (dx 1 * dx 1))
  doLoop ifirst1 ilast1 fun ic1 =>
    doLoop ifirst0 ilast0 fun ie0 =>
      block [
        assign stencil [1, ie0, ic1] (Expr.const d0),
        assign stencil [2, ie0, ic1] (Expr.const d0),
        assign stencil [3, ie0, ic1] (Expr.const d1),
        assign stencil [4, ie0, ic1] (Expr.const d1)]

/-- `nodediffusionv1diag2d` (m4/nodediffusionstencilcoeffs2d.m4:119-151) -/
def nodediffusionv1diag2d (ifirst0 ifirst1 ilast0 ilast1 ailo0 ailo1 aihi0 aihi1 : Int) (alpha : T) (a_ stencil_ : Ptr) : Cmd T :=
  let a := cell2d a_ ailo0 ailo1 aihi0 aihi1 0
  let stencil := st2d stencil_ ifirst0 ifirst1 ilast0 ilast1 0
  doLoop ifirst1 ilast1 fun ic1 =>
    doLoop ifirst0 ilast0 fun ic0 =>
      assign stencil [0, ic0, ic1] ((-(stencil.el [1, ic0, ic1] + stencil.el [2, ic0, ic1] + stencil.el [3, ic0, ic1] + stencil.el [4, ic0, ic1])) + Expr.const alpha * a.el [ic0, ic1])

/-- `nodediffusionv2diag2d` (m4/nodediffusionstencilcoeffs2d.m4:154-180) -/
def nodediffusionv2diag2d (ifirst0 ifirst1 ilast0 ilast1 : Int) (alpha : T) (stencil_ : Ptr) : Cmd T :=
  let stencil := st2d stencil_ ifirst0 ifirst1 ilast0 ilast1 0
  doLoop ifirst1 ilast1 fun ic1 =>
    doLoop ifirst0 ilast0 fun ic0 =>
      assign stencil [0, ic0, ic1] ((-(stencil.el [1, ic0, ic1] + stencil.el [2, ic0, ic1] + stencil.el [3, ic0, ic1] + stencil.el [4, ic0, ic1])) + Expr.const alpha)

/-- `nodepoissondiag2d` (m4/nodediffusionstencilcoeffs2d.m4:183-207) -/
def nodepoissondiag2d (ifirst0 ifirst1 ilast0 ilast1 : Int) (stencil_ : Ptr) : Cmd T :=
  let stencil := st2d stencil_ ifirst0 ifirst1 ilast0 ilast1 0
  doLoop ifirst1 ilast1 fun ic1 =>
    doLoop ifirst0 ilast0 fun ic0 =>
      assign stencil [0, ic0, ic1] (-(stencil.el [1, ic0, ic1] + stencil.el [2, ic0, ic1] + stencil.el [3, ic0, ic1] + stencil.el [4, ic0, ic1]))

/-- `adjnodediffusiondiag2d` (m4/nodediffusionstencilcoeffs2d.m4:210-311) -/
def adjnodediffusiondiag2d (ifirst0 ifirst1 ilast0 ilast1 pfirst0 pfirst1 plast0 plast1 direction side bdrytype extrapOrder : Int) (dx : Nat → T) (beta : T) (b0_ b1_ stencil_ : Ptr) : Cmd T :=
  let b0 := face2d0 b0_ ifirst0 ifirst1 ilast0 ilast1 0
  let b1 := face2d1 b1_ ifirst0 ifirst1 ilast0 ilast1 0
  let stencil := st2d stencil_ ifirst0 ifirst1 ilast0 ilast1 0
  if bdrytype = 4 then
    if direction = 0 then
      let ie0 := pfirst0 - 2 * side + 1
      let edge := pfirst0 - side + 1
      let h : T := dx 0
      if side = 0 then
        doLoop pfirst1 plast1 fun ic1 =>
          if extrapOrder = 1 then
            skip
          else if extrapOrder = 2 then
            let factor : Expr T := Expr.const beta * b0.el [edge, ic1] / Expr.const h * (Expr.const (3 * h) + Expr.const 16 * b0.el [edge, ic1])
            assign stencil [0, ie0, ic1] (stencil.el [0, ie0, ic1] - factor)
          else
            skip
      else
        doLoop pfirst1 plast1 fun ic1 =>
          if extrapOrder = 1 then
            skip
          else if extrapOrder = 2 then
            let factor : Expr T := Expr.const beta * b0.el [edge, ic1] / Expr.const h * (Expr.const (3 * h) + Expr.const 16 * b0.el [edge, ic1])
            assign stencil [0, ie0, ic1] (stencil.el [0, ie0, ic1] - factor)
          else
            skip
    else if direction = 1 then
      skip
    else
      skip
  else
    if bdrytype = 1 then
      skip
    else if bdrytype = 0 then
      if direction = 0 then
        let ie0 := pfirst0 - side + 1
        let h : T := dx 0
        if extrapOrder = 1 then
          skip
        else if extrapOrder = 2 then
          doLoop pfirst1 plast1 fun ic1 =>
            let factor : Expr T := Expr.const beta * b0.el [ie0, ic1] / Expr.const (3 * h ^ 2)
            assign stencil [0, ie0, ic1] (stencil.el [0, ie0, ic1] + factor)
        else
          skip
      else if direction = 1 then
        let ie1 := pfirst1 - side + 1
        let h : T := dx 1
        if extrapOrder = 1 then
          skip
        else if extrapOrder = 2 then
          doLoop pfirst0 plast0 fun ic0 =>
            let factor : Expr T := Expr.const beta * b1.el [ie1, ic0] / Expr.const (3 * h ^ 2)
            assign stencil [0, ic0, ie1] (stencil.el [0, ic0, ie1] + factor)
        else
          skip
      else
        skip
    else
      skip

/-- `adjnodepoissondiag2d` (m4/nodediffusionstencilcoeffs2d.m4:313-394) -/
def adjnodepoissondiag2d (ifirst0 ifirst1 ilast0 ilast1 pfirst0 pfirst1 plast0 plast1 direction side bdrytype extrapOrder : Int) (dx : Nat → T) (beta : T) (stencil_ : Ptr) : Cmd T :=
  let stencil := st2d stencil_ ifirst0 ifirst1 ilast0 ilast1 0
  if bdrytype = 4 then
    if direction = 0 then
      let ie0 := pfirst0 - 2 * side + 1
      let h : T := dx 0
      if side = 0 then
        doLoop pfirst1 plast1 fun ic1 =>
          if extrapOrder = 1 then
            skip
          else if extrapOrder = 2 then
            let factor : T := beta / h * (3 * h + 16)
            assign stencil [0, ie0, ic1] (stencil.el [0, ie0, ic1] - Expr.const factor)
          else
            skip
      else
        doLoop pfirst1 plast1 fun ic1 =>
          if extrapOrder = 1 then
            skip
          else if extrapOrder = 2 then
            let factor : T := beta / h * (3 * h + 16)
            assign stencil [0, ie0, ic1] (stencil.el [0, ie0, ic1] - Expr.const factor)
          else
            skip
    else if direction = 1 then
      skip
    else
      skip
  else
    skip

/-- `adjnodediffusioncfdiag2d` (m4/nodediffusionstencilcoeffs2d.m4:396-468) -/
def adjnodediffusioncfdiag2d (ifirst0 ifirst1 ilast0 ilast1 pfirst0 pfirst1 plast0 plast1 r direction side interporder : Int) (dx : Nat → T) (beta : T) (b0_ b1_ stencil_ : Ptr) : Cmd T :=
  let b0 := face2d0 b0_ ifirst0 ifirst1 ilast0 ilast1 0
  let b1 := face2d1 b1_ ifirst0 ifirst1 ilast0 ilast1 0
  let stencil := st2d stencil_ ifirst0 ifirst1 ilast0 ilast1 0
  let dr : T := (r : T)
  let dr1 : T := 2 * (dr - 1) / (dr + 1)
  if direction = 0 then
    let ie0 := pfirst0 - 2 * side + 1
    let edge := pfirst0 - side + 1
    let h : T := dx 0
    if interporder = 1 then
      doLoop pfirst1 plast1 fun ic1 =>
        let factor : Expr T := Expr.const beta * b0.el [edge, ic1] / Expr.const (3 * h ^ 2)
        assign stencil [0, ie0, ic1] (stencil.el [0, ie0, ic1] - factor)
    else if interporder = 2 then
      doLoop pfirst1 plast1 fun ic1 =>
        let factor : Expr T := Expr.const (dr1 * beta) * b0.el [edge, ic1] / Expr.const (h ^ 2)
        assign stencil [0, ie0, ic1] (stencil.el [0, ie0, ic1] - factor)
    else
      skip
  else if direction = 1 then
    let ie1 := pfirst1 - 2 * side + 1
    let edge := pfirst1 - side + 1
    let h : T := dx 1
    if interporder = 1 then
      doLoop pfirst0 plast0 fun ic0 =>
        let factor : Expr T := Expr.const beta * b1.el [edge, ic0] / Expr.const (3 * h ^ 2)
        assign stencil [0, ic0, ie1] (stencil.el [0, ic0, ie1] - factor)
    else if interporder = 2 then
      doLoop pfirst0 plast0 fun ic0 =>
        let factor : Expr T := Expr.const (dr1 * beta) * b1.el [edge, ic0] / Expr.const (h ^ 2)
        assign stencil [0, ic0, ie1] (stencil.el [0, ic0, ie1] - factor)
    else
      skip
  else
    skip

/-- `adjnodepoissoncfdiag2d` (m4/nodediffusionstencilcoeffs2d.m4:470-536) -/
def adjnodepoissoncfdiag2d (ifirst0 ifirst1 ilast0 ilast1 pfirst0 pfirst1 plast0 plast1 r direction side interporder : Int) (dx : Nat → T) (beta : T) (stencil_ : Ptr) : Cmd T :=
  let stencil := st2d stencil_ ifirst0 ifirst1 ilast0 ilast1 0
  let dr : T := (r : T)
  let dr1 : T := 2 * (dr - 1) / (dr + 1)
  if direction = 0 then
    let ie0 := pfirst0 - 2 * side + 1
    let h : T := dx 0
    if interporder = 1 then
      doLoop pfirst1 plast1 fun ic1 =>
        let factor : T := beta / (3 * h ^ 2)
        assign stencil [0, ie0, ic1] (stencil.el [0, ie0, ic1] - Expr.const factor)
    else if interporder = 2 then
      doLoop pfirst1 plast1 fun ic1 =>
        let factor : T := dr1 * beta / h ^ 2
        assign stencil [0, ie0, ic1] (stencil.el [0, ie0, ic1] - Expr.const factor)
    else
      skip
  else if direction = 1 then
    let ie1 := pfirst1 - 2 * side + 1
    let h : T := dx 1
    if interporder = 1 then
      doLoop pfirst0 plast0 fun ic0 =>
        let factor : T := beta / (3 * h ^ 2)
        assign stencil [0, ic0, ie1] (stencil.el [0, ic0, ie1] - Expr.const factor)
    else if interporder = 2 then
      doLoop pfirst0 plast0 fun ic0 =>
        let factor : T := dr1 * beta / h ^ 2
        assign stencil [0, ic0, ie1] (stencil.el [0, ic0, ie1] - Expr.const factor)
    else
      skip
  else
    skip

/-- `adjnodediffusionoffdiag2d` (m4/nodediffusionstencilcoeffs2d.m4:539-683) -/
def adjnodediffusionoffdiag2d (ifirst0 ifirst1 ilast0 ilast1 pfirst0 pfirst1 plast0 plast1 direction side bdrytype extrapOrder : Int) (dx : Nat → T) (dirfactor neufactor beta : T) (b0_ b1_ stencil_ : Ptr) : Cmd T :=
  let b0 := face2d0 b0_ ifirst0 ifirst1 ilast0 ilast1 0
  let b1 := face2d1 b1_ ifirst0 ifirst1 ilast0 ilast1 0
  let stencil := st2d stencil_ ifirst0 ifirst1 ilast0 ilast1 0
  if bdrytype = 4 then
    if direction = 0 then
      let ie0 := pfirst0 - side + 1
      let h : T := dx 0
      if side = 0 then
        doLoop pfirst1 plast1 fun ic1 =>
          if extrapOrder = 1 then
            let factor : Expr T := Expr.const (2 * h) / (Expr.const 4 * b0.el [ie0, ic1] + Expr.const h)
            assign stencil [1, ie0, ic1] (factor * stencil.el [1, ie0, ic1])
          else if extrapOrder = 2 then
            let factor : Expr T := Expr.const beta * b0.el [ie0, ic1] / (Expr.const h * (Expr.const (3 * h) + Expr.const 16 * b0.el [ie0, ic1]))
            block [
              assign stencil [1, ie0, ic1] (-(Expr.const 9 * factor)),
              assign stencil [2, ie0, ic1] (stencil.el [2, ie0, ic1] - factor)]
          else
            skip
      else
        doLoop pfirst1 plast1 fun ic1 =>
          if extrapOrder = 1 then
            let factor : Expr T := Expr.const (2 * h) / (Expr.const 4 * b0.el [ie0, ic1] + Expr.const h)
            assign stencil [2, ie0 - 1, ic1] (factor * stencil.el [2, ie0 - 1, ic1])
          else if extrapOrder = 2 then
            let factor : Expr T := Expr.const beta * b0.el [ie0, ic1] / (Expr.const h * (Expr.const (3 * h) + Expr.const 16 * b0.el [ie0, ic1]))
            block [
              assign stencil [2, ie0 - 1, ic1] (-(Expr.const 9 * factor)),
              assign stencil [1, ie0 - 1, ic1] (stencil.el [1, ie0 - 1, ic1] - factor)]
          else
            skip
    else if direction = 1 then
      skip
    else
      skip
  else if bdrytype = 0 then
    let factor : T := dirfactor
    if direction = 0 then
      let ie0 := pfirst0 - side + 1
      if side = 0 then
        doLoop pfirst1 plast1 fun ic1 =>
          if extrapOrder = 1 then
            assign stencil [1, ie0, ic1] (stencil.el [1, ie0, ic1] * Expr.const factor)
          else if extrapOrder = 2 then
            block [
              assign stencil [2, ie0, ic1] (stencil.el [2, ie0, ic1] + stencil.el [1, ie0, ic1] / Expr.const 3),
              assign stencil [1, ie0, ic1] (Expr.const 8 * stencil.el [1, ie0, ic1] / Expr.const 3)]
          else
            skip
      else
        doLoop pfirst1 plast1 fun ic1 =>
          if extrapOrder = 1 then
            assign stencil [2, ie0 - 1, ic1] (stencil.el [2, ie0 - 1, ic1] * Expr.const factor)
          else if extrapOrder = 2 then
            block [
              assign stencil [1, ie0 - 1, ic1] (stencil.el [1, ie0 - 1, ic1] + stencil.el [2, ie0 - 1, ic1] / Expr.const 3),
              assign stencil [2, ie0 - 1, ic1] (Expr.const 8 * stencil.el [2, ie0 - 1, ic1] / Expr.const 3)]
          else
            skip
    else if direction = 1 then
      let ie1 := pfirst1 - side + 1
      if side = 0 then
        doLoop pfirst0 plast0 fun ic0 =>
          if extrapOrder = 1 then
            assign stencil [3, ic0, ie1] (stencil.el [3, ic0, ie1] * Expr.const factor)
          else if extrapOrder = 2 then
            block [
              assign stencil [4, ic0, ie1] (stencil.el [4, ic0, ie1] + stencil.el [3, ic0, ie1] / Expr.const 3),
              assign stencil [3, ic0, ie1] (Expr.const 8 * stencil.el [3, ic0, ie1] / Expr.const 3)]
          else
            skip
      else
        doLoop pfirst0 plast0 fun ic0 =>
          if extrapOrder = 1 then
            assign stencil [4, ic0, ie1 - 1] (stencil.el [4, ic0, ie1 - 1] * Expr.const factor)
          else if extrapOrder = 2 then
            block [
              assign stencil [3, ic0, ie1 - 1] (stencil.el [3, ic0, ie1 - 1] + stencil.el [4, ic0, ie1 - 1] / Expr.const 3),
              assign stencil [4, ic0, ie1 - 1] (Expr.const 8 * stencil.el [4, ic0, ie1 - 1] / Expr.const 3)]
          else
            skip
    else
      skip
  else if bdrytype = 1 then
    if direction = 0 then
      let ie0 := pfirst0 - side + 1
      if side = 0 then
        doLoop pfirst1 plast1 fun ic1 =>
          assign stencil [1, ie0, ic1] (Expr.const 0)
      else
        doLoop pfirst1 plast1 fun ic1 =>
          assign stencil [2, ie0 - 1, ic1] (Expr.const 0)
    else if direction = 1 then
      let ie1 := pfirst1 - side + 1
      if side = 0 then
        doLoop pfirst0 plast0 fun ic0 =>
          assign stencil [3, ic0, ie1] (Expr.const 0)
      else
        doLoop pfirst0 plast0 fun ic0 =>
          assign stencil [4, ic0, ie1 - 1] (Expr.const 0)
    else
      skip
  else
    skip

/-- `adjnodepoissonoffdiag2d` (m4/nodediffusionstencilcoeffs2d.m4:685-826) -/
def adjnodepoissonoffdiag2d (ifirst0 ifirst1 ilast0 ilast1 pfirst0 pfirst1 plast0 plast1 direction side bdrytype extrapOrder : Int) (dx : Nat → T) (dirfactor neufactor beta : T) (stencil_ : Ptr) : Cmd T :=
  let stencil := st2d stencil_ ifirst0 ifirst1 ilast0 ilast1 0
  if bdrytype = 4 then
    if direction = 0 then
      let ie0 := pfirst0 - side + 1
      let h : T := dx 0
      if side = 0 then
        doLoop pfirst1 plast1 fun ic1 =>
          if extrapOrder = 1 then
            let factor : T := 2 * h / (4 + h)
            assign stencil [1, ie0, ic1] (Expr.const factor * stencil.el [1, ie0, ic1])
          else if extrapOrder = 2 then
            let factor : T := beta / (h * (3 * h + 16))
            block [
              assign stencil [1, ie0, ic1] (Expr.const (-(9 * factor))),
              assign stencil [2, ie0, ic1] (stencil.el [2, ie0, ic1] - Expr.const factor)]
          else
            skip
      else
        doLoop pfirst1 plast1 fun ic1 =>
          if extrapOrder = 1 then
            let factor : T := 2 * h / (4 + h)
            assign stencil [2, ie0 - 1, ic1] (Expr.const factor * stencil.el [2, ie0 - 1, ic1])
          else if extrapOrder = 2 then
            let factor : T := beta / (h * (3 * h + 16))
            block [
              assign stencil [2, ie0 - 1, ic1] (Expr.const (-(9 * factor))),
              assign stencil [1, ie0 - 1, ic1] (stencil.el [1, ie0 - 1, ic1] - Expr.const factor)]
          else
            skip
    else if direction = 1 then
      skip
    else
      skip
  else if bdrytype = 0 then
    let factor : T := dirfactor
    if direction = 0 then
      let ie0 := pfirst0 - side + 1
      if side = 0 then
        doLoop pfirst1 plast1 fun ic1 =>
          if extrapOrder = 1 then
            assign stencil [1, ie0, ic1] (stencil.el [1, ie0, ic1] * Expr.const factor)
          else if extrapOrder = 2 then
            block [
              assign stencil [2, ie0, ic1] (stencil.el [2, ie0, ic1] + stencil.el [1, ie0, ic1] / Expr.const 3),
              assign stencil [1, ie0, ic1] (Expr.const 8 * stencil.el [1, ie0, ic1] / Expr.const 3)]
          else
            skip
      else
        doLoop pfirst1 plast1 fun ic1 =>
          if extrapOrder = 1 then
            assign stencil [2, ie0 - 1, ic1] (stencil.el [2, ie0 - 1, ic1] * Expr.const factor)
          else if extrapOrder = 2 then
            block [
              assign stencil [1, ie0 - 1, ic1] (stencil.el [1, ie0 - 1, ic1] + stencil.el [2, ie0 - 1, ic1] / Expr.const 3),
              assign stencil [2, ie0 - 1, ic1] (Expr.const 8 * stencil.el [2, ie0 - 1, ic1] / Expr.const 3)]
          else
            skip
    else if direction = 1 then
      let ie1 := pfirst1 - side + 1
      if side = 0 then
        doLoop pfirst0 plast0 fun ic0 =>
          if extrapOrder = 1 then
            assign stencil [3, ic0, ie1] (stencil.el [3, ic0, ie1] * Expr.const factor)
          else if extrapOrder = 2 then
            block [
              assign stencil [4, ic0, ie1] (stencil.el [4, ic0, ie1] + stencil.el [3, ic0, ie1] / Expr.const 3),
              assign stencil [3, ic0, ie1] (Expr.const 8 * stencil.el [3, ic0, ie1] / Expr.const 3)]
          else
            skip
      else
        doLoop pfirst0 plast0 fun ic0 =>
          if extrapOrder = 1 then
            assign stencil [4, ic0, ie1 - 1] (stencil.el [4, ic0, ie1 - 1] * Expr.const factor)
          else if extrapOrder = 2 then
            block [
              assign stencil [3, ic0, ie1 - 1] (stencil.el [3, ic0, ie1 - 1] + stencil.el [4, ic0, ie1 - 1] / Expr.const 3),
              assign stencil [4, ic0, ie1 - 1] (Expr.const 8 * stencil.el [4, ic0, ie1 - 1] / Expr.const 3)]
          else
            skip
    else
      skip
  else if bdrytype = 1 then
    if direction = 0 then
      let ie0 := pfirst0 - side + 1
      if side = 0 then
        doLoop pfirst1 plast1 fun ic1 =>
          assign stencil [1, ie0, ic1] (Expr.const 0)
      else
        doLoop pfirst1 plast1 fun ic1 =>
          assign stencil [2, ie0 - 1, ic1] (Expr.const 0)
    else if direction = 1 then
      let ie1 := pfirst1 - side + 1
      if side = 0 then
        doLoop pfirst0 plast0 fun ic0 =>
          assign stencil [3, ic0, ie1] (Expr.const 0)
      else
        doLoop pfirst0 plast0 fun ic0 =>
          assign stencil [4, ic0, ie1 - 1] (Expr.const 0)
    else
      skip
  else
    skip

/-- `adjnodediffusioncfoffdiag2d` (m4/nodediffusionstencilcoeffs2d.m4:829-915) -/
def adjnodediffusioncfoffdiag2d (ifirst0 ifirst1 ilast0 ilast1 cfirst0 cfirst1 clast0 clast1 r direction side interporder : Int) (stencil_ : Ptr) : Cmd T :=
  let stencil := st2d stencil_ ifirst0 ifirst1 ilast0 ilast1 0
  let dr : T := (r : T)
  if direction = 0 then
    let ie0 := cfirst0 - side + 1
    if side = 0 then
      if interporder = 1 then
        doLoop cfirst1 clast1 fun ic1 =>
          assign stencil [1, ie0, ic1] (Expr.const 2 * stencil.el [1, ie0, ic1] / Expr.const 3)
      else if interporder = 2 then
        doLoop cfirst1 clast1 fun ic1 =>
          block [
            assign stencil [2, ie0, ic1] (stencil.el [2, ie0, ic1] - stencil.el [1, ie0, ic1] * Expr.const (dr - 1) / Expr.const (dr + 3)),
            assign stencil [1, ie0, ic1] (Expr.const 8 * stencil.el [1, ie0, ic1] / Expr.const ((dr + 1) * (dr + 3)))]
      else
        skip
    else
      if interporder = 1 then
        doLoop cfirst1 clast1 fun ic1 =>
          assign stencil [2, ie0 - 1, ic1] (Expr.const 2 * stencil.el [2, ie0 - 1, ic1] / Expr.const 3)
      else if interporder = 2 then
        doLoop cfirst1 clast1 fun ic1 =>
          block [
            assign stencil [1, ie0 - 1, ic1] (stencil.el [1, ie0 - 1, ic1] - stencil.el [2, ie0 - 1, ic1] * Expr.const (dr - 1) / Expr.const (dr + 3)),
            assign stencil [2, ie0 - 1, ic1] (Expr.const 8 * stencil.el [2, ie0 - 1, ic1] / Expr.const ((dr + 1) * (dr + 3)))]
      else
        skip
  else if direction = 1 then
    let ie1 := cfirst1 - side + 1
    if side = 0 then
      if interporder = 1 then
        doLoop cfirst0 clast0 fun ic0 =>
          assign stencil [3, ic0, ie1] (Expr.const 2 * stencil.el [3, ic0, ie1] / Expr.const 3)
      else if interporder = 2 then
        doLoop cfirst0 clast0 fun ic0 =>
          block [
            assign stencil [4, ic0, ie1] (stencil.el [4, ic0, ie1] - stencil.el [3, ic0, ie1] * Expr.const (dr - 1) / Expr.const (dr + 3)),
            assign stencil [3, ic0, ie1] (Expr.const 8 * stencil.el [3, ic0, ie1] / Expr.const ((dr + 1) * (dr + 3)))]
      else
        skip
    else
      if interporder = 1 then
        doLoop cfirst0 clast0 fun ic0 =>
          assign stencil [4, ic0, ie1 - 1] (Expr.const 2 * stencil.el [4, ic0, ie1 - 1] / Expr.const 3)
      else if interporder = 2 then
        doLoop cfirst0 clast0 fun ic0 =>
          block [
            assign stencil [3, ic0, ie1 - 1] (stencil.el [3, ic0, ie1 - 1] - stencil.el [4, ic0, ie1 - 1] * Expr.const (dr - 1) / Expr.const (dr + 3)),
            assign stencil [4, ic0, ie1 - 1] (Expr.const 8 * stencil.el [4, ic0, ie1 - 1] / Expr.const ((dr + 1) * (dr + 3)))]
      else
        skip
  else
    skip

/-- `readjnodediffusionoffdiag2d` (m4/nodediffusionstencilcoeffs2d.m4:918-961) -/
def readjnodediffusionoffdiag2d (ifirst0 ifirst1 ilast0 ilast1 pfirst0 pfirst1 plast0 plast1 direction side : Int) (stencil_ : Ptr) : Cmd T :=
  let stencil := st2d stencil_ ifirst0 ifirst1 ilast0 ilast1 0
  if direction = 0 then
    let ie0 := pfirst0 - side + 1
    if side = 0 then
      doLoop pfirst1 plast1 fun ic1 =>
        assign stencil [1, ie0, ic1] (Expr.const 0)
    else
      doLoop pfirst1 plast1 fun ic1 =>
        assign stencil [2, ie0 - 1, ic1] (Expr.const 0)
  else if direction = 1 then
    let ie1 := pfirst1 - side + 1
    if side = 0 then
      doLoop pfirst0 plast0 fun ic0 =>
        assign stencil [3, ic0, ie1] (Expr.const 0)
    else
      doLoop pfirst0 plast0 fun ic0 =>
        assign stencil [4, ic0, ie1 - 1] (Expr.const 0)
  else
    skip

/-- `adjnodediffusioncfbdryrhs2d` (m4/nodediffusionstencilcoeffs2d.m4:964-1016) -/
def adjnodediffusioncfbdryrhs2d (ifirst0 ifirst1 ilast0 ilast1 pfirst0 pfirst1 plast0 plast1 direction side : Int) (stencil_ : Ptr) (gcw : Int) (u_ rhs_ : Ptr) : Cmd T :=
  let stencil := st2d stencil_ ifirst0 ifirst1 ilast0 ilast1 0
  let u := cell2d u_ ifirst0 ifirst1 ilast0 ilast1 gcw
  let rhs := cell2d rhs_ ifirst0 ifirst1 ilast0 ilast1 0
  if direction = 0 then
    let ie0 := pfirst0 + 1 - 2 * side
    if side = 0 then
      doLoop pfirst1 plast1 fun ic1 =>
        assign rhs [ie0, ic1] (rhs.el [ie0, ic1] - stencil.el [1, ie0, ic1] * u.el [ie0 - 1, ic1])
    else
      doLoop pfirst1 plast1 fun ic1 =>
        assign rhs [ie0, ic1] (rhs.el [ie0, ic1] - stencil.el [2, ie0, ic1] * u.el [ie0 + 1, ic1])
  else if direction = 1 then
    let ie1 := pfirst1 + 1 - 2 * side
    if side = 0 then
      doLoop pfirst0 plast0 fun ic0 =>
        assign rhs [ic0, ie1] (rhs.el [ic0, ie1] - stencil.el [3, ic0, ie1] * u.el [ic0, ie1 - 1])
    else
      doLoop pfirst0 plast0 fun ic0 =>
        assign rhs [ic0, ie1] (rhs.el [ic0, ie1] - stencil.el [4, ic0, ie1] * u.el [ic0, ie1 + 1])
  else
    skip

/-- `nodediffusionoffdiag3d` (m4/nodediffusionstencilcoeffs3d.m4:42-92) -/
def nodediffusionoffdiag3d (ifirst0 ifirst1 ifirst2 ilast0 ilast1 ilast2 bilo0 bilo1 bilo2 bihi0 bihi1 bihi2 : Int) (dx : Nat → T) (beta : T) (b0_ b1_ b2_ stencil_ : Ptr) : Cmd T :=
  let b0 := face3d0 b0_ bilo0 bilo1 bilo2 bihi0 bihi1 bihi2 0
  let b1 := face3d1 b1_ bilo0 bilo1 bilo2 bihi0 bihi1 bihi2 0
  let b2 := face3d2 b2_ bilo0 bilo1 bilo2 bihi0 bihi1 bihi2 0
  let stencil := st3d stencil_ ifirst0 ifirst1 ifirst2 ilast0 ilast1 ilast2 0
  let d0 : T := -(beta / (dx 0 * dx 0))
  let d1 : T := -(beta / (dx 1 * dx 1))
  let d2 : T := -(beta / (dx 2 * dx 2))
  doLoop ifirst2 ilast2 fun k =>
    doLoop ifirst1 ilast1 fun j =>
      doLoop ifirst0 ilast0 fun i =>
        block [
          assign stencil [1, i, j, k] (Expr.const d0 * b0.el [i, j, k]),
          assign stencil [2, i, j, k] (Expr.const d0 * b0.el [i + 1, j, k]),
          assign stencil [3, i, j, k] (Expr.const d1 * b1.el [j, k, i]),
          assign stencil [4, i, j, k] (Expr.const d1 * b1.el [j + 1, k, i]),
          assign stencil [5, i, j, k] (Expr.const d2 * b2.el [k, i, j]),
          assign stencil [6, i, j, k] (Expr.const d2 * b2.el [k + 1, i, j])]

/-- `nodepoissonoffdiag3d` (m4/nodediffusionstencilcoeffs3d.m4:94-132) -/
def nodepoissonoffdiag3d (ifirst0 ifirst1 ifirst2 ilast0 ilast1 ilast2 : Int) (dx : Nat → T) (beta : T) (stencil_ : Ptr) : Cmd T :=
  let stencil := st3d stencil_ ifirst0 ifirst1 ifirst2 ilast0 ilast1 ilast2 0
  let d0 : T := -(beta / (dx 0 * dx 0))
  let d1 : T := -(beta / (dx 1 * dx 1))
  let d2 : T := -(beta / (dx 2 * dx 2))
  doLoop ifirst2 ilast2 fun k =>
    doLoop ifirst1 ilast1 fun j =>
      doLoop ifirst0 ilast0 fun i =>
        block [
          assign stencil [1, i, j, k] (Expr.const d0),
          assign stencil [2, i, j, k] (Expr.const d0),
          assign stencil [3, i, j, k] (Expr.const d1),
          assign stencil [4, i, j, k] (Expr.const d1),
          assign stencil [5, i, j, k] (Expr.const d2),
          assign stencil [6, i, j, k] (Expr.const d2)]

/-- `nodediffusionv1diag3d` (m4/nodediffusionstencilcoeffs3d.m4:135-173) -/
def nodediffusionv1diag3d (ifirst0 ifirst1 ifirst2 ilast0 ilast1 ilast2 ailo0 ailo1 ailo2 aihi0 aihi1 aihi2 : Int) (alpha : T) (a_ stencil_ : Ptr) : Cmd T :=
  let a := cell3d a_ ailo0 ailo1 ailo2 aihi0 aihi1 aihi2 0
  let stencil := st3d stencil_ ifirst0 ifirst1 ifirst2 ilast0 ilast1 ilast2 0
  doLoop ifirst2 ilast2 fun k =>
    doLoop ifirst1 ilast1 fun j =>
      doLoop ifirst0 ilast0 fun i =>
        assign stencil [0, i, j, k] ((-(stencil.el [1, i, j, k] + stencil.el [2, i, j, k] + stencil.el [3, i, j, k] + stencil.el [4, i, j, k] + stencil.el [5, i, j, k] + stencil.el [6, i, j, k])) + Expr.const alpha * a.el [i, j, k])

/-- `nodediffusionv2diag3d` (m4/nodediffusionstencilcoeffs3d.m4:176-207) -/
def nodediffusionv2diag3d (ifirst0 ifirst1 ifirst2 ilast0 ilast1 ilast2 : Int) (alpha : T) (stencil_ : Ptr) : Cmd T :=
  let stencil := st3d stencil_ ifirst0 ifirst1 ifirst2 ilast0 ilast1 ilast2 0
  doLoop ifirst2 ilast2 fun k =>
    doLoop ifirst1 ilast1 fun j =>
      doLoop ifirst0 ilast0 fun i =>
        assign stencil [0, i, j, k] ((-(stencil.el [1, i, j, k] + stencil.el [2, i, j, k] + stencil.el [3, i, j, k] + stencil.el [4, i, j, k] + stencil.el [5, i, j, k] + stencil.el [6, i, j, k])) + Expr.const alpha)

/-- `nodepoissondiag3d` (m4/nodediffusionstencilcoeffs3d.m4:210-239) -/
def nodepoissondiag3d (ifirst0 ifirst1 ifirst2 ilast0 ilast1 ilast2 : Int) (stencil_ : Ptr) : Cmd T :=
  let stencil := st3d stencil_ ifirst0 ifirst1 ifirst2 ilast0 ilast1 ilast2 0
  doLoop ifirst2 ilast2 fun k =>
    doLoop ifirst1 ilast1 fun j =>
      doLoop ifirst0 ilast0 fun i =>
        assign stencil [0, i, j, k] (-(stencil.el [1, i, j, k] + stencil.el [2, i, j, k] + stencil.el [3, i, j, k] + stencil.el [4, i, j, k] + stencil.el [5, i, j, k] + stencil.el [6, i, j, k]))

/-- `adjnodediffusiondiag3d` (m4/nodediffusionstencilcoeffs3d.m4:242-444) -/
def adjnodediffusiondiag3d (ifirst0 ifirst1 ifirst2 ilast0 ilast1 ilast2 pfirst0 pfirst1 pfirst2 plast0 plast1 plast2 direction side bdrytype extrapOrder : Int) (dx : Nat → T) (beta : T) (b0_ b1_ b2_ stencil_ : Ptr) : Cmd T :=
  let b0 := face3d0 b0_ ifirst0 ifirst1 ifirst2 ilast0 ilast1 ilast2 0
  let b1 := face3d1 b1_ ifirst0 ifirst1 ifirst2 ilast0 ilast1 ilast2 0
  let b2 := face3d2 b2_ ifirst0 ifirst1 ifirst2 ilast0 ilast1 ilast2 0
  let stencil := st3d stencil_ ifirst0 ifirst1 ifirst2 ilast0 ilast1 ilast2 0
  let h : T := dx direction.toNat
  if bdrytype = 4 then
    if direction = 0 then
      let ie0 := pfirst0 - 2 * side + 1
      let edge := pfirst0 - side + 1
      if side = 0 then
        if extrapOrder = 1 then
          skip
        else if extrapOrder = 2 then
          doLoop pfirst2 plast2 fun k =>
            doLoop pfirst1 plast1 fun j =>
              let factor : Expr T := Expr.const beta * b0.el [edge, j, k]
              let factor : Expr T := factor / Expr.const h * (Expr.const (3 * h) + Expr.const 16 * b0.el [edge, j, k])
              assign stencil [0, ie0, j, k] (stencil.el [0, ie0, j, k] - factor)
        else
          skip
      else
        if extrapOrder = 1 then
          skip
        else if extrapOrder = 2 then
          doLoop pfirst2 plast2 fun k =>
            doLoop pfirst1 plast1 fun j =>
              let factor : Expr T := Expr.const beta * b0.el [edge, j, k]
              let factor : Expr T := factor / Expr.const h * (Expr.const (3 * h) + Expr.const 16 * b0.el [edge, j, k])
              assign stencil [0, ie0, j, k] (stencil.el [0, ie0, j, k] - factor)
        else
          skip
    else if direction = 1 then
      let ie1 := pfirst1 - 2 * side + 1
      let edge := pfirst1 - side + 1
      if side = 0 then
        if extrapOrder = 1 then
          skip
        else if extrapOrder = 2 then
          doLoop pfirst2 plast2 fun k =>
            doLoop pfirst0 plast0 fun i =>
              let factor : Expr T := Expr.const beta * b1.el [edge, k, i]
              let factor : Expr T := factor / Expr.const h * (Expr.const (3 * h) + Expr.const 16 * b1.el [edge, k, i])
              assign stencil [0, i, ie1, k] (stencil.el [0, i, ie1, k] - factor)
        else
          skip
      else
        if extrapOrder = 1 then
          skip
        else if extrapOrder = 2 then
          doLoop pfirst2 plast2 fun k =>
            doLoop pfirst0 plast0 fun i =>
              let factor : Expr T := Expr.const beta * b1.el [edge, k, i]
              let factor : Expr T := factor / Expr.const h * (Expr.const (3 * h) + Expr.const 16 * b1.el [edge, k, i])
              assign stencil [0, i, ie1, k] (stencil.el [0, i, ie1, k] - factor)
        else
          skip
    else if direction = 2 then
      let ie2 := pfirst2 - 2 * side + 1
      let edge := pfirst2 - side + 1
      if side = 0 then
        if extrapOrder = 1 then
          skip
        else if extrapOrder = 2 then
          doLoop pfirst1 plast1 fun j =>
            doLoop pfirst0 plast0 fun i =>
              let factor : Expr T := Expr.const beta * b2.el [edge, i, j]
              let factor : Expr T := factor / Expr.const h * (Expr.const (3 * h) + Expr.const 16 * b2.el [edge, i, j])
              assign stencil [0, i, j, ie2] (stencil.el [0, i, j, ie2] - factor)
        else
          skip
      else
        if extrapOrder = 1 then
          skip
        else if extrapOrder = 2 then
          doLoop pfirst1 plast1 fun j =>
            doLoop pfirst0 plast0 fun i =>
              let factor : Expr T := Expr.const beta * b2.el [edge, i, j]
              let factor : Expr T := factor / Expr.const h * (Expr.const (3 * h) + Expr.const 16 * b2.el [edge, i, j])
              assign stencil [0, i, j, ie2] (stencil.el [0, i, j, ie2] - factor)
        else
          skip
    else
      skip
  else if bdrytype = 1 then
    skip
  else if bdrytype = 0 then
    if direction = 0 then
      let ie0 := pfirst0 - side + 1
      if extrapOrder = 1 then
        skip
      else if extrapOrder = 2 then
        doLoop pfirst2 plast2 fun k =>
          doLoop pfirst1 plast1 fun j =>
            let factor : Expr T := Expr.const beta * b0.el [ie0, j, k] / Expr.const (3 * h ^ 2)
            assign stencil [0, ie0, j, k] (stencil.el [0, ie0, j, k] + factor)
      else
        skip
    else if direction = 1 then
      let ie1 := pfirst1 - side + 1
      if extrapOrder = 1 then
        skip
      else if extrapOrder = 2 then
        doLoop pfirst2 plast2 fun k =>
          doLoop pfirst0 plast0 fun i =>
            let factor : Expr T := Expr.const beta * b1.el [ie1, k, i] / Expr.const (3 * h ^ 2)
            assign stencil [0, i, ie1, k] (stencil.el [0, i, ie1, k] + factor)
      else
        skip
    else if direction = 2 then
      let ie2 := pfirst2 - side + 1
      if extrapOrder = 1 then
        skip
      else if extrapOrder = 2 then
        doLoop pfirst1 plast1 fun j =>
          doLoop pfirst0 plast0 fun i =>
            let factor : Expr T := Expr.const beta * b2.el [ie2, i, j] / Expr.const (3 * h ^ 2)
            assign stencil [0, i, j, ie2] (stencil.el [0, i, j, ie2] + factor)
      else
        skip
    else
      skip
  else
    skip

/-- `adjnodepoissondiag3d` (m4/nodediffusionstencilcoeffs3d.m4:446-639) -/
def adjnodepoissondiag3d (ifirst0 ifirst1 ifirst2 ilast0 ilast1 ilast2 pfirst0 pfirst1 pfirst2 plast0 plast1 plast2 direction side bdrytype extrapOrder : Int) (dx : Nat → T) (beta : T) (stencil_ : Ptr) : Cmd T :=
  let stencil := st3d stencil_ ifirst0 ifirst1 ifirst2 ilast0 ilast1 ilast2 0
  let h : T := dx direction.toNat
  if bdrytype = 4 then
    if direction = 0 then
      let ie0 := pfirst0 - 2 * side + 1
      if side = 0 then
        if extrapOrder = 2 then
          let factor : T := beta / h * (3 * h + 16)
          doLoop pfirst2 plast2 fun k =>
            doLoop pfirst1 plast1 fun j =>
              assign stencil [0, ie0, j, k] (stencil.el [0, ie0, j, k] - Expr.const factor)
        else
          skip
      else
        if extrapOrder = 2 then
          let factor : T := beta / h * (3 * h + 16)
          doLoop pfirst2 plast2 fun k =>
            doLoop pfirst1 plast1 fun j =>
              assign stencil [0, ie0, j, k] (stencil.el [0, ie0, j, k] - Expr.const factor)
        else
          skip
    else if direction = 1 then
      let ie1 := pfirst1 - 2 * side + 1
      if side = 0 then
        if extrapOrder = 2 then
          let factor : T := beta / h * (3 * h + 16)
          doLoop pfirst2 plast2 fun k =>
            doLoop pfirst0 plast0 fun i =>
              assign stencil [0, i, ie1, k] (stencil.el [0, i, ie1, k] - Expr.const factor)
        else
          skip
      else
        if extrapOrder = 2 then
          let factor : T := beta / h * (3 * h + 16)
          doLoop pfirst2 plast2 fun k =>
            doLoop pfirst0 plast0 fun i =>
              assign stencil [0, i, ie1, k] (stencil.el [0, i, ie1, k] - Expr.const factor)
        else
          skip
    else if direction = 2 then
      let ie2 := pfirst2 - 2 * side + 1
      if side = 0 then
        if extrapOrder = 2 then
          let factor : T := beta / h * (3 * h + 16)
          doLoop pfirst1 plast1 fun j =>
            doLoop pfirst0 plast0 fun i =>
              assign stencil [0, i, j, ie2] (stencil.el [0, i, j, ie2] - Expr.const factor)
        else
          skip
      else
        if extrapOrder = 2 then
          let factor : T := beta / h * (3 * h + 16)
          doLoop pfirst1 plast1 fun j =>
            doLoop pfirst0 plast0 fun i =>
              assign stencil [0, i, j, ie2] (stencil.el [0, i, j, ie2] - Expr.const factor)
        else
          skip
    else
      skip
  else if bdrytype = 1 then
    skip
  else if bdrytype = 0 then
    if direction = 0 then
      let ie0 := pfirst0 - side + 1
      if extrapOrder = 1 then
        skip
      else if extrapOrder = 2 then
        let factor : T := beta / (3 * h ^ 2)
        doLoop pfirst2 plast2 fun k =>
          doLoop pfirst1 plast1 fun j =>
            assign stencil [0, ie0, j, k] (stencil.el [0, ie0, j, k] + Expr.const factor)
      else
        skip
    else if direction = 1 then
      let ie1 := pfirst1 - side + 1
      if extrapOrder = 1 then
        skip
      else if extrapOrder = 2 then
        let factor : T := beta / (3 * h ^ 2)
        doLoop pfirst2 plast2 fun k =>
          doLoop pfirst0 plast0 fun i =>
            assign stencil [0, i, ie1, k] (stencil.el [0, i, ie1, k] + Expr.const factor)
      else
        skip
    else if direction = 2 then
      let ie2 := pfirst2 - side + 1
      if extrapOrder = 1 then
        skip
      else if extrapOrder = 2 then
        let factor : T := beta / (3 * h ^ 2)
        doLoop pfirst1 plast1 fun j =>
          doLoop pfirst0 plast0 fun i =>
            assign stencil [0, i, j, ie2] (stencil.el [0, i, j, ie2] + Expr.const factor)
      else
        skip
    else
      skip
  else
    skip

/-- `adjnodediffusioncfdiag3d` (m4/nodediffusionstencilcoeffs3d.m4:641-740) -/
def adjnodediffusioncfdiag3d (ifirst0 ifirst1 ifirst2 ilast0 ilast1 ilast2 pfirst0 pfirst1 pfirst2 plast0 plast1 plast2 r direction side interporder : Int) (dx : Nat → T) (beta : T) (b0_ b1_ b2_ stencil_ : Ptr) : Cmd T :=
  let b0 := face3d0 b0_ ifirst0 ifirst1 ifirst2 ilast0 ilast1 ilast2 0
  let b1 := face3d1 b1_ ifirst0 ifirst1 ifirst2 ilast0 ilast1 ilast2 0
  let b2 := face3d2 b2_ ifirst0 ifirst1 ifirst2 ilast0 ilast1 ilast2 0
  let stencil := st3d stencil_ ifirst0 ifirst1 ifirst2 ilast0 ilast1 ilast2 0
  let dr : T := (r : T)
  let dr1 : T := 2 * (dr - 1) / (dr + 1)
  let h : T := dx direction.toNat
  if direction = 0 then
    let ie0 := pfirst0 - 2 * side + 1
    let edge := pfirst0 - side + 1
    if interporder = 1 then
      doLoop pfirst2 plast2 fun k =>
        doLoop pfirst1 plast1 fun j =>
          let factor : Expr T := Expr.const beta * b0.el [edge, j, k] / Expr.const (3 * h ^ 2)
          assign stencil [0, ie0, j, k] (stencil.el [0, ie0, j, k] - factor)
    else if interporder = 2 then
      doLoop pfirst2 plast2 fun k =>
        doLoop pfirst1 plast1 fun j =>
          let factor : Expr T := Expr.const (dr1 * beta) * b0.el [edge, j, k] / Expr.const (h ^ 2)
          assign stencil [0, ie0, j, k] (stencil.el [0, ie0, j, k] - factor)
    else
      skip
  else if direction = 1 then
    let ie1 := pfirst1 - 2 * side + 1
    let edge := pfirst1 - side + 1
    if interporder = 1 then
      doLoop pfirst2 plast2 fun k =>
        doLoop pfirst0 plast0 fun i =>
          let factor : Expr T := Expr.const beta * b1.el [edge, k, i] / Expr.const (3 * h ^ 2)
          assign stencil [0, i, ie1, k] (stencil.el [0, i, ie1, k] - factor)
    else if interporder = 2 then
      doLoop pfirst2 plast2 fun k =>
        doLoop pfirst0 plast0 fun i =>
          let factor : Expr T := Expr.const (dr1 * beta) * b1.el [edge, k, i] / Expr.const (h ^ 2)
          assign stencil [0, i, ie1, k] (stencil.el [0, i, ie1, k] - factor)
    else
      skip
  else if direction = 2 then
    let ie2 := pfirst2 - 2 * side + 1
    let edge := pfirst2 - side + 1
    if interporder = 1 then
      doLoop pfirst1 plast1 fun j =>
        doLoop pfirst0 plast0 fun i =>
          let factor : Expr T := Expr.const beta * b2.el [edge, i, j] / Expr.const (3 * h ^ 2)
          assign stencil [0, i, j, ie2] (stencil.el [0, i, j, ie2] - factor)
    else if interporder = 2 then
      doLoop pfirst1 plast1 fun j =>
        doLoop pfirst0 plast0 fun i =>
          let factor : Expr T := Expr.const (dr1 * beta) * b1.el [edge, i, j] / Expr.const (h ^ 2)
          assign stencil [0, i, j, ie2] (stencil.el [0, i, j, ie2] - factor)
    else
      skip
  else
    skip

/-- `adjnodepoissoncfdiag3d` (m4/nodediffusionstencilcoeffs3d.m4:742-833) -/
def adjnodepoissoncfdiag3d (ifirst0 ifirst1 ifirst2 ilast0 ilast1 ilast2 pfirst0 pfirst1 pfirst2 plast0 plast1 plast2 r direction side interporder : Int) (dx : Nat → T) (beta : T) (stencil_ : Ptr) : Cmd T :=
  let stencil := st3d stencil_ ifirst0 ifirst1 ifirst2 ilast0 ilast1 ilast2 0
  let dr : T := (r : T)
  let dr1 : T := 2 * (dr - 1) / (dr + 1)
  let h : T := dx direction.toNat
  if direction = 0 then
    let ie0 := pfirst0 - 2 * side + 1
    if interporder = 1 then
      let factor : T := beta / (3 * h ^ 2)
      doLoop pfirst2 plast2 fun k =>
        doLoop pfirst1 plast1 fun j =>
          assign stencil [0, ie0, j, k] (stencil.el [0, ie0, j, k] - Expr.const factor)
    else if interporder = 2 then
      let factor : T := dr1 * beta / h ^ 2
      doLoop pfirst2 plast2 fun k =>
        doLoop pfirst1 plast1 fun j =>
          assign stencil [0, ie0, j, k] (stencil.el [0, ie0, j, k] - Expr.const factor)
    else
      skip
  else if direction = 1 then
    let ie1 := pfirst1 - 2 * side + 1
    if interporder = 1 then
      let factor : T := beta / (3 * h ^ 2)
      doLoop pfirst2 plast2 fun k =>
        doLoop pfirst0 plast0 fun i =>
          assign stencil [0, i, ie1, k] (stencil.el [0, i, ie1, k] - Expr.const factor)
    else if interporder = 2 then
      let factor : T := dr1 * beta / h ^ 2
      doLoop pfirst2 plast2 fun k =>
        doLoop pfirst0 plast0 fun i =>
          assign stencil [0, i, ie1, k] (stencil.el [0, i, ie1, k] - Expr.const factor)
    else
      skip
  else if direction = 2 then
    let ie2 := pfirst2 - 2 * side + 1
    if interporder = 1 then
      let factor : T := beta / (3 * h ^ 2)
      doLoop pfirst1 plast1 fun j =>
        doLoop pfirst0 plast0 fun i =>
          assign stencil [0, i, j, ie2] (stencil.el [0, i, j, ie2] - Expr.const factor)
    else if interporder = 2 then
      let factor : T := dr1 * beta / h ^ 2
      doLoop pfirst1 plast1 fun j =>
        doLoop pfirst0 plast0 fun i =>
          assign stencil [0, i, j, ie2] (stencil.el [0, i, j, ie2] - Expr.const factor)
    else
      skip
  else
    skip

/-- `adjnodediffusionoffdiag3d` (m4/nodediffusionstencilcoeffs3d.m4:836-1153) -/
def adjnodediffusionoffdiag3d (ifirst0 ifirst1 ifirst2 ilast0 ilast1 ilast2 pfirst0 pfirst1 pfirst2 plast0 plast1 plast2 direction side bdrytype extrapOrder : Int) (dx : Nat → T) (dirfactor neufactor beta : T) (b0_ b1_ b2_ stencil_ : Ptr) : Cmd T :=
  let b0 := face3d0 b0_ ifirst0 ifirst1 ifirst2 ilast0 ilast1 ilast2 0
  let b1 := face3d1 b1_ ifirst0 ifirst1 ifirst2 ilast0 ilast1 ilast2 0
  let b2 := face3d2 b2_ ifirst0 ifirst1 ifirst2 ilast0 ilast1 ilast2 0
  let stencil := st3d stencil_ ifirst0 ifirst1 ifirst2 ilast0 ilast1 ilast2 0
  let h : T := dx direction.toNat
  if bdrytype = 4 then
    if direction = 0 then
      let ie0 := pfirst0 - side + 1
      if side = 0 then
        if extrapOrder = 1 then
          doLoop pfirst2 plast2 fun k =>
            doLoop pfirst1 plast1 fun j =>
              let factor : Expr T := Expr.const (2 * h) / (Expr.const 4 * b0.el [ie0, j, k] + Expr.const h)
              assign stencil [1, ie0, j, k] (factor * stencil.el [1, ie0, j, k])
        else if extrapOrder = 2 then
          doLoop pfirst2 plast2 fun k =>
            doLoop pfirst1 plast1 fun j =>
              let factor : Expr T := Expr.const beta * b0.el [ie0, j, k]
              let factor : Expr T := factor / (Expr.const h * (Expr.const (3 * h) + Expr.const 16 * b0.el [ie0, j, k]))
              block [
                assign stencil [1, ie0, j, k] (-(Expr.const 9 * factor)),
                assign stencil [2, ie0, j, k] (stencil.el [2, ie0, j, k] - factor)]
        else
          skip
      else
        if extrapOrder = 1 then
          doLoop pfirst2 plast2 fun k =>
            doLoop pfirst1 plast1 fun j =>
              let factor : Expr T := Expr.const (2 * h) / (Expr.const 4 * b0.el [ie0, j, k] + Expr.const h)
              assign stencil [2, ie0 - 1, j, k] (factor * stencil.el [2, ie0 - 1, j, k])
        else if extrapOrder = 2 then
          doLoop pfirst2 plast2 fun k =>
            doLoop pfirst1 plast1 fun j =>
              let factor : Expr T := Expr.const beta * b0.el [ie0, j, k]
              let factor : Expr T := factor / (Expr.const h * (Expr.const (3 * h) + Expr.const 16 * b0.el [ie0, j, k]))
              block [
                assign stencil [2, ie0 - 1, j, k] (-(Expr.const 9 * factor)),
                assign stencil [1, ie0 - 1, j, k] (stencil.el [1, ie0 - 1, j, k] - factor)]
        else
          skip
    else if direction = 1 then
      let ie1 := pfirst1 - side + 1
      if side = 0 then
        if extrapOrder = 1 then
          doLoop pfirst2 plast2 fun k =>
            doLoop pfirst0 plast0 fun i =>
              let factor : Expr T := Expr.const (2 * h) / (Expr.const 4 * b1.el [ie1, k, i] + Expr.const h)
              assign stencil [3, i, ie1, k] (factor * stencil.el [3, i, ie1, k])
        else if extrapOrder = 2 then
          doLoop pfirst2 plast2 fun k =>
            doLoop pfirst0 plast0 fun i =>
              let factor : Expr T := Expr.const beta * b1.el [ie1, k, i]
              let factor : Expr T := factor / (Expr.const h * (Expr.const (3 * h) + Expr.const 16 * b1.el [ie1, k, i]))
              block [
                assign stencil [3, i, ie1, k] (-(Expr.const 9 * factor)),
                assign stencil [4, i, ie1, k] (stencil.el [4, i, ie1, k] - factor)]
        else
          skip
      else
        if extrapOrder = 1 then
          doLoop pfirst2 plast2 fun k =>
            doLoop pfirst0 plast0 fun i =>
              let factor : Expr T := Expr.const (2 * h) / (Expr.const 4 * b1.el [ie1, k, i] + Expr.const h)
              assign stencil [4, i, ie1 - 1, k] (factor * stencil.el [4, i, ie1 - 1, k])
        else if extrapOrder = 2 then
          doLoop pfirst2 plast2 fun k =>
            doLoop pfirst0 plast0 fun i =>
              let factor : Expr T := Expr.const beta * b1.el [ie1, k, i]
              let factor : Expr T := factor / (Expr.const h * (Expr.const (3 * h) + Expr.const 16 * b1.el [ie1, k, i]))
              block [
                assign stencil [4, i, ie1 - 1, k] (-(Expr.const 9 * factor)),
                assign stencil [3, 1, ie1 - 1, k] (stencil.el [3, i, ie1 - 1, k] - factor)]
        else
          skip
    else if direction = 2 then
      let ie2 := pfirst2 - side + 1
      if side = 0 then
        if extrapOrder = 1 then
          doLoop pfirst1 plast1 fun j =>
            doLoop pfirst0 plast0 fun i =>
              let factor : Expr T := Expr.const (2 * h) / (Expr.const 4 * b2.el [ie2, i, j] + Expr.const h)
              assign stencil [5, i, j, ie2] (factor * stencil.el [5, i, j, ie2])
        else if extrapOrder = 2 then
          doLoop pfirst1 plast1 fun j =>
            doLoop pfirst0 plast0 fun i =>
              let factor : Expr T := Expr.const beta * b2.el [ie2, i, j]
              let factor : Expr T := factor / (Expr.const h * (Expr.const (3 * h) + Expr.const 16 * b2.el [ie2, i, j]))
              block [
                assign stencil [5, i, j, ie2] (-(Expr.const 9 * factor)),
                assign stencil [6, i, j, ie2] (stencil.el [6, i, j, ie2] - factor)]
        else
          skip
      else
        if extrapOrder = 1 then
          doLoop pfirst1 plast1 fun j =>
            doLoop pfirst0 plast0 fun i =>
              let factor : Expr T := Expr.const (2 * h) / (Expr.const 4 * b2.el [ie2, i, j] + Expr.const h)
              assign stencil [6, i, j, ie2 - 1] (factor * stencil.el [6, i, j, ie2 - 1])
        else if extrapOrder = 2 then
          doLoop pfirst1 plast1 fun j =>
            doLoop pfirst0 plast0 fun i =>
              let factor : Expr T := Expr.const beta * b2.el [ie2, i, j]
              let factor : Expr T := factor / (Expr.const h * (Expr.const (3 * h) + Expr.const 16 * b2.el [ie2, i, j]))
              block [
                assign stencil [6, i, j, ie2 - 1] (-(Expr.const 9 * factor)),
                assign stencil [5, 1, j, ie2 - 1] (stencil.el [5, i, j, ie2 - 1] - factor)]
        else
          skip
    else
      skip
  else if bdrytype = 0 then
    let factor : T := dirfactor
    if direction = 0 then
      let ie0 := pfirst0 - side + 1
      if side = 0 then
        block [
          if extrapOrder = 1 then
            doLoop pfirst2 plast2 fun k =>
              doLoop pfirst1 plast1 fun j =>
                assign stencil [1, ie0, j, k] (stencil.el [1, ie0, j, k] * Expr.const factor)
          else
            skip,
          if extrapOrder = 2 then
            doLoop pfirst2 plast2 fun k =>
              doLoop pfirst1 plast1 fun j =>
                block [
                  assign stencil [2, ie0, j, k] (stencil.el [2, ie0, j, k] + stencil.el [1, ie0, j, k] / Expr.const 3),
                  assign stencil [1, ie0, j, k] (Expr.const 8 * stencil.el [1, ie0, j, k] / Expr.const 3)]
          else
            skip]
      else
        block [
          if extrapOrder = 1 then
            doLoop pfirst2 plast2 fun k =>
              doLoop pfirst1 plast1 fun j =>
                assign stencil [2, ie0 - 1, j, k] (stencil.el [2, ie0 - 1, j, k] * Expr.const factor)
          else
            skip,
          if extrapOrder = 2 then
            doLoop pfirst2 plast2 fun k =>
              doLoop pfirst1 plast1 fun j =>
                block [
                  assign stencil [1, ie0 - 1, j, k] (stencil.el [1, ie0 - 1, j, k] + stencil.el [2, ie0 - 1, j, k] / Expr.const 3),
                  assign stencil [2, ie0 - 1, j, k] (Expr.const 8 * stencil.el [2, ie0 - 1, j, k] / Expr.const 3)]
          else
            skip]
    else if direction = 1 then
      let ie1 := pfirst1 - side + 1
      if side = 0 then
        if extrapOrder = 1 then
          doLoop pfirst2 plast2 fun k =>
            doLoop pfirst0 plast0 fun i =>
              assign stencil [3, i, ie1, k] (stencil.el [3, i, ie1, k] * Expr.const factor)
        else if extrapOrder = 2 then
          doLoop pfirst2 plast2 fun k =>
            doLoop pfirst0 plast0 fun i =>
              block [
                assign stencil [4, i, ie1, k] (stencil.el [4, i, ie1, k] + stencil.el [3, i, ie1, k] / Expr.const 3),
                assign stencil [3, i, ie1, k] (Expr.const 8 * stencil.el [3, i, ie1, k] / Expr.const 3)]
        else
          skip
      else
        if extrapOrder = 1 then
          doLoop pfirst2 plast2 fun k =>
            doLoop pfirst0 plast0 fun i =>
              assign stencil [4, i, ie1 - 1, k] (stencil.el [4, i, ie1 - 1, k] * Expr.const factor)
        else if extrapOrder = 2 then
          doLoop pfirst2 plast2 fun k =>
            doLoop pfirst0 plast0 fun i =>
              block [
                assign stencil [3, i, ie1 - 1, k] (stencil.el [3, i, ie1 - 1, k] + stencil.el [4, i, ie1 - 1, k] / Expr.const 3),
                assign stencil [4, i, ie1 - 1, k] (Expr.const 8 * stencil.el [4, i, ie1 - 1, k] / Expr.const 3)]
        else
          skip
    else if direction = 2 then
      let ie2 := pfirst2 - side + 1
      if side = 0 then
        if extrapOrder = 1 then
          doLoop pfirst1 plast1 fun j =>
            doLoop pfirst0 plast0 fun i =>
              assign stencil [5, i, j, ie2] (stencil.el [5, i, j, ie2] * Expr.const factor)
        else if extrapOrder = 2 then
          doLoop pfirst1 plast1 fun j =>
            doLoop pfirst0 plast0 fun i =>
              block [
                assign stencil [6, i, j, ie2] (stencil.el [6, i, j, ie2] + stencil.el [5, i, j, ie2] / Expr.const 3),
                assign stencil [5, i, j, ie2] (Expr.const 8 * stencil.el [5, i, j, ie2] / Expr.const 3)]
        else
          skip
      else
        if extrapOrder = 1 then
          doLoop pfirst1 plast1 fun j =>
            doLoop pfirst0 plast0 fun i =>
              assign stencil [6, i, j, ie2 - 1] (stencil.el [6, i, j, ie2 - 1] * Expr.const factor)
        else if extrapOrder = 2 then
          doLoop pfirst1 plast1 fun j =>
            doLoop pfirst0 plast0 fun i =>
              block [
                assign stencil [5, i, j, ie2 - 1] (stencil.el [5, i, j, ie2 - 1] + stencil.el [6, i, j, ie2 - 1] / Expr.const 3),
                assign stencil [6, i, j, ie2 - 1] (Expr.const 8 * stencil.el [6, i, j, ie2 - 1] / Expr.const 3)]
        else
          skip
    else
      skip
  else if bdrytype = 1 then
    if direction = 0 then
      let ie0 := pfirst0 - side + 1
      if side = 0 then
        doLoop pfirst2 plast2 fun k =>
          doLoop pfirst1 plast1 fun j =>
            assign stencil [1, ie0, j, k] (Expr.const 0)
      else
        doLoop pfirst2 plast2 fun k =>
          doLoop pfirst1 plast1 fun j =>
            assign stencil [2, ie0 - 1, j, k] (Expr.const 0)
    else if direction = 1 then
      let ie1 := pfirst1 - side + 1
      if side = 0 then
        doLoop pfirst2 plast2 fun k =>
          doLoop pfirst0 plast0 fun i =>
            assign stencil [3, i, ie1, k] (Expr.const 0)
      else
        doLoop pfirst2 plast2 fun k =>
          doLoop pfirst0 plast0 fun i =>
            assign stencil [4, i, ie1 - 1, k] (Expr.const 0)
    else if direction = 2 then
      let ie2 := pfirst2 - side + 1
      if side = 0 then
        doLoop pfirst1 plast1 fun j =>
          doLoop pfirst0 plast0 fun i =>
            assign stencil [5, i, j, ie2] (Expr.const 0)
      else
        doLoop pfirst1 plast1 fun j =>
          doLoop pfirst0 plast0 fun i =>
            assign stencil [6, i, j, ie2 - 1] (Expr.const 0)
    else
      skip
  else
    skip

/-- `adjnodepoissonoffdiag3d` (m4/nodediffusionstencilcoeffs3d.m4:1155-1460) -/
def adjnodepoissonoffdiag3d (ifirst0 ifirst1 ifirst2 ilast0 ilast1 ilast2 pfirst0 pfirst1 pfirst2 plast0 plast1 plast2 direction side bdrytype extrapOrder : Int) (dx : Nat → T) (dirfactor neufactor beta : T) (stencil_ : Ptr) : Cmd T :=
  let stencil := st3d stencil_ ifirst0 ifirst1 ifirst2 ilast0 ilast1 ilast2 0
  let h : T := dx direction.toNat
  if bdrytype = 4 then
    if direction = 0 then
      let ie0 := pfirst0 - side + 1
      if side = 0 then
        if extrapOrder = 1 then
          let factor : T := 2 * h / (4 + h)
          doLoop pfirst2 plast2 fun k =>
            doLoop pfirst1 plast1 fun j =>
              assign stencil [1, ie0, j, k] (Expr.const factor * stencil.el [1, ie0, j, k])
        else if extrapOrder = 2 then
          let factor : T := beta / (h * (3 * h + 16))
          doLoop pfirst2 plast2 fun k =>
            doLoop pfirst1 plast1 fun j =>
              block [
                assign stencil [1, ie0, j, k] (Expr.const (-(9 * factor))),
                assign stencil [2, ie0, j, k] (stencil.el [2, ie0, j, k] - Expr.const factor)]
        else
          skip
      else
        if extrapOrder = 1 then
          let factor : T := 2 * h / (4 + h)
          doLoop pfirst2 plast2 fun k =>
            doLoop pfirst1 plast1 fun j =>
              assign stencil [2, ie0 - 1, j, k] (Expr.const factor * stencil.el [2, ie0 - 1, j, k])
        else if extrapOrder = 2 then
          let factor : T := beta / (h * (3 * h + 16))
          doLoop pfirst2 plast2 fun k =>
            doLoop pfirst1 plast1 fun j =>
              block [
                assign stencil [2, ie0 - 1, j, k] (Expr.const (-(9 * factor))),
                assign stencil [1, ie0 - 1, j, k] (stencil.el [1, ie0 - 1, j, k] - Expr.const factor)]
        else
          skip
    else if direction = 1 then
      let ie1 := pfirst1 - side + 1
      if side = 0 then
        if extrapOrder = 1 then
          let factor : T := 2 * h / (4 + h)
          doLoop pfirst2 plast2 fun k =>
            doLoop pfirst0 plast0 fun i =>
              assign stencil [3, i, ie1, k] (Expr.const factor * stencil.el [3, i, ie1, k])
        else if extrapOrder = 2 then
          let factor : T := beta / (h * (3 * h + 16))
          doLoop pfirst2 plast2 fun k =>
            doLoop pfirst0 plast0 fun i =>
              block [
                assign stencil [3, i, ie1, k] (Expr.const (-(9 * factor))),
                assign stencil [4, i, ie1, k] (stencil.el [4, i, ie1, k] - Expr.const factor)]
        else
          skip
      else
        if extrapOrder = 1 then
          let factor : T := 2 * h / (4 + h)
          doLoop pfirst2 plast2 fun k =>
            doLoop pfirst0 plast0 fun i =>
              assign stencil [4, i, ie1 - 1, k] (Expr.const factor * stencil.el [4, i, ie1 - 1, k])
        else if extrapOrder = 2 then
          let factor : T := beta / (h * (3 * h + 16))
          doLoop pfirst2 plast2 fun k =>
            doLoop pfirst0 plast0 fun i =>
              block [
                assign stencil [4, i, ie1 - 1, k] (Expr.const (-(9 * factor))),
                assign stencil [3, 1, ie1 - 1, k] (stencil.el [3, i, ie1 - 1, k] - Expr.const factor)]
        else
          skip
    else if direction = 2 then
      let ie2 := pfirst2 - side + 1
      if side = 0 then
        if extrapOrder = 1 then
          let factor : T := 2 * h / (4 + h)
          doLoop pfirst1 plast1 fun j =>
            doLoop pfirst0 plast0 fun i =>
              assign stencil [5, i, j, ie2] (Expr.const factor * stencil.el [5, i, j, ie2])
        else if extrapOrder = 2 then
          let factor : T := beta / (h * (3 * h + 16))
          doLoop pfirst1 plast1 fun j =>
            doLoop pfirst0 plast0 fun i =>
              block [
                assign stencil [5, i, j, ie2] (Expr.const (-(9 * factor))),
                assign stencil [6, i, j, ie2] (stencil.el [6, i, j, ie2] - Expr.const factor)]
        else
          skip
      else
        if extrapOrder = 1 then
          let factor : T := 2 * h / (4 + h)
          doLoop pfirst1 plast1 fun j =>
            doLoop pfirst0 plast0 fun i =>
              assign stencil [6, i, j, ie2 - 1] (Expr.const factor * stencil.el [6, i, j, ie2 - 1])
        else if extrapOrder = 2 then
          let factor : T := beta / (h * (3 * h + 16))
          doLoop pfirst1 plast1 fun j =>
            doLoop pfirst0 plast0 fun i =>
              block [
                assign stencil [6, i, j, ie2 - 1] (Expr.const (-(9 * factor))),
                assign stencil [5, 1, j, ie2 - 1] (stencil.el [5, i, j, ie2 - 1] - Expr.const factor)]
        else
          skip
    else
      skip
  else if bdrytype = 0 then
    let factor : T := dirfactor
    if direction = 0 then
      let ie0 := pfirst0 - side + 1
      if side = 0 then
        if extrapOrder = 1 then
          doLoop pfirst2 plast2 fun k =>
            doLoop pfirst1 plast1 fun j =>
              assign stencil [1, ie0, j, k] (stencil.el [1, ie0, j, k] * Expr.const factor)
        else if extrapOrder = 2 then
          doLoop pfirst2 plast2 fun k =>
            doLoop pfirst1 plast1 fun j =>
              block [
                assign stencil [2, ie0, j, k] (stencil.el [2, ie0, j, k] + stencil.el [1, ie0, j, k] / Expr.const 3),
                assign stencil [1, ie0, j, k] (Expr.const 8 * stencil.el [1, ie0, j, k] / Expr.const 3)]
        else
          skip
      else
        if extrapOrder = 1 then
          doLoop pfirst2 plast2 fun k =>
            doLoop pfirst1 plast1 fun j =>
              assign stencil [2, ie0 - 1, j, k] (stencil.el [2, ie0 - 1, j, k] * Expr.const factor)
        else if extrapOrder = 2 then
          doLoop pfirst2 plast2 fun k =>
            doLoop pfirst1 plast1 fun j =>
              block [
                assign stencil [1, ie0 - 1, j, k] (stencil.el [1, ie0 - 1, j, k] + stencil.el [2, ie0 - 1, j, k] / Expr.const 3),
                assign stencil [2, ie0 - 1, j, k] (Expr.const 8 * stencil.el [2, ie0 - 1, j, k] / Expr.const 3)]
        else
          skip
    else if direction = 1 then
      let ie1 := pfirst1 - side + 1
      if side = 0 then
        if extrapOrder = 1 then
          doLoop pfirst2 plast2 fun k =>
            doLoop pfirst0 plast0 fun i =>
              assign stencil [3, i, ie1, k] (stencil.el [3, i, ie1, k] * Expr.const factor)
        else if extrapOrder = 2 then
          doLoop pfirst2 plast2 fun k =>
            doLoop pfirst0 plast0 fun i =>
              block [
                assign stencil [4, i, ie1, k] (stencil.el [4, i, ie1, k] + stencil.el [3, i, ie1, k] / Expr.const 3),
                assign stencil [3, i, ie1, k] (Expr.const 8 * stencil.el [3, i, ie1, k] / Expr.const 3)]
        else
          skip
      else
        if extrapOrder = 1 then
          doLoop pfirst2 plast2 fun k =>
            doLoop pfirst0 plast0 fun i =>
              assign stencil [4, i, ie1 - 1, k] (stencil.el [4, i, ie1 - 1, k] * Expr.const factor)
        else if extrapOrder = 2 then
          doLoop pfirst2 plast2 fun k =>
            doLoop pfirst0 plast0 fun i =>
              block [
                assign stencil [3, i, ie1 - 1, k] (stencil.el [3, i, ie1 - 1, k] + stencil.el [4, i, ie1 - 1, k] / Expr.const 3),
                assign stencil [4, i, ie1 - 1, k] (Expr.const 8 * stencil.el [4, i, ie1 - 1, k] / Expr.const 3)]
        else
          skip
    else if direction = 2 then
      let ie2 := pfirst2 - side + 1
      if side = 0 then
        if extrapOrder = 1 then
          doLoop pfirst1 plast1 fun j =>
            doLoop pfirst0 plast0 fun i =>
              assign stencil [5, i, j, ie2] (stencil.el [5, i, j, ie2] * Expr.const factor)
        else if extrapOrder = 2 then
          doLoop pfirst1 plast1 fun j =>
            doLoop pfirst0 plast0 fun i =>
              block [
                assign stencil [6, i, j, ie2] (stencil.el [6, i, j, ie2] + stencil.el [5, i, j, ie2] / Expr.const 3),
                assign stencil [5, i, j, ie2] (Expr.const 8 * stencil.el [5, i, j, ie2] / Expr.const 3)]
        else
          skip
      else
        if extrapOrder = 1 then
          doLoop pfirst1 plast1 fun j =>
            doLoop pfirst0 plast0 fun i =>
              assign stencil [6, i, j, ie2 - 1] (stencil.el [6, i, j, ie2 - 1] * Expr.const factor)
        else if extrapOrder = 2 then
          doLoop pfirst1 plast1 fun j =>
            doLoop pfirst0 plast0 fun i =>
              block [
                assign stencil [5, i, j, ie2 - 1] (stencil.el [5, i, j, ie2 - 1] + stencil.el [6, i, j, ie2 - 1] / Expr.const 3),
                assign stencil [6, i, j, ie2 - 1] (Expr.const 8 * stencil.el [6, i, j, ie2 - 1] / Expr.const 3)]
        else
          skip
    else
      skip
  else if bdrytype = 1 then
    if direction = 0 then
      let ie0 := pfirst0 - side + 1
      if side = 0 then
        doLoop pfirst2 plast2 fun k =>
          doLoop pfirst1 plast1 fun j =>
            assign stencil [1, ie0, j, k] (Expr.const 0)
      else
        doLoop pfirst2 plast2 fun k =>
          doLoop pfirst1 plast1 fun j =>
            assign stencil [2, ie0 - 1, j, k] (Expr.const 0)
    else if direction = 1 then
      let ie1 := pfirst1 - side + 1
      if side = 0 then
        doLoop pfirst2 plast2 fun k =>
          doLoop pfirst0 plast0 fun i =>
            assign stencil [3, i, ie1, k] (Expr.const 0)
      else
        doLoop pfirst2 plast2 fun k =>
          doLoop pfirst0 plast0 fun i =>
            assign stencil [4, i, ie1 - 1, k] (Expr.const 0)
    else if direction = 2 then
      let ie2 := pfirst2 - side + 1
      if side = 0 then
        doLoop pfirst1 plast1 fun j =>
          doLoop pfirst0 plast0 fun i =>
            assign stencil [5, i, j, ie2] (Expr.const 0)
      else
        doLoop pfirst1 plast1 fun j =>
          doLoop pfirst0 plast0 fun i =>
            assign stencil [6, i, j, ie2 - 1] (Expr.const 0)
    else
      skip
  else
    skip

/-- `adjnodediffusioncfoffdiag3d` (m4/nodediffusionstencilcoeffs3d.m4:1463-1605) -/
def adjnodediffusioncfoffdiag3d (ifirst0 ifirst1 ifirst2 ilast0 ilast1 ilast2 cfirst0 cfirst1 cfirst2 clast0 clast1 clast2 r direction side interporder : Int) (stencil_ : Ptr) : Cmd T :=
  let stencil := st3d stencil_ ifirst0 ifirst1 ifirst2 ilast0 ilast1 ilast2 0
  let dr : T := (r : T)
  if direction = 0 then
    let ie0 := cfirst0 - side + 1
    if side = 0 then
      if interporder = 1 then
        doLoop cfirst2 clast2 fun k =>
          doLoop cfirst1 clast1 fun j =>
            assign stencil [1, ie0, j, k] (Expr.const 2 * stencil.el [1, ie0, j, k] / Expr.const 3)
      else if interporder = 2 then
        doLoop cfirst2 clast2 fun k =>
          doLoop cfirst1 clast1 fun j =>
            block [
              assign stencil [2, ie0, j, k] (stencil.el [2, ie0, j, k] - stencil.el [1, ie0, j, k] * Expr.const (dr - 1) / Expr.const (dr + 3)),
              assign stencil [1, ie0, j, k] (Expr.const 8 * stencil.el [1, ie0, j, k] / Expr.const ((dr + 1) * (dr + 3)))]
      else
        skip
    else
      if interporder = 1 then
        doLoop cfirst2 clast2 fun k =>
          doLoop cfirst1 clast1 fun j =>
            assign stencil [2, ie0 - 1, j, k] (Expr.const 2 * stencil.el [2, ie0 - 1, j, k] / Expr.const 3)
      else if interporder = 2 then
        doLoop cfirst2 clast2 fun k =>
          doLoop cfirst1 clast1 fun j =>
            block [
              assign stencil [1, ie0 - 1, j, k] (stencil.el [1, ie0 - 1, j, k] - stencil.el [2, ie0 - 1, j, k] * Expr.const (dr - 1) / Expr.const (dr + 3)),
              assign stencil [2, ie0 - 1, j, k] (Expr.const 8 * stencil.el [2, ie0 - 1, j, k] / Expr.const ((dr + 1) * (dr + 3)))]
      else
        skip
  else if direction = 1 then
    let ie1 := cfirst1 - side + 1
    if side = 0 then
      if interporder = 1 then
        doLoop cfirst2 clast2 fun k =>
          doLoop cfirst0 clast0 fun i =>
            assign stencil [3, i, ie1, k] (Expr.const 2 * stencil.el [3, i, ie1, k] / Expr.const 3)
      else if interporder = 2 then
        doLoop cfirst2 clast2 fun k =>
          doLoop cfirst0 clast0 fun i =>
            block [
              assign stencil [4, i, ie1, k] (stencil.el [4, i, ie1, k] - stencil.el [3, i, ie1, k] * Expr.const (dr - 1) / Expr.const (dr + 3)),
              assign stencil [3, i, ie1, k] (Expr.const 8 * stencil.el [3, i, ie1, k] / Expr.const ((dr + 1) * (dr + 3)))]
      else
        skip
    else
      if interporder = 1 then
        doLoop cfirst2 clast2 fun k =>
          doLoop cfirst0 clast0 fun i =>
            assign stencil [4, i, ie1 - 1, k] (Expr.const 2 * stencil.el [4, i, ie1 - 1, k] / Expr.const 3)
      else if interporder = 2 then
        doLoop cfirst2 clast2 fun k =>
          doLoop cfirst0 clast0 fun i =>
            block [
              assign stencil [3, i, ie1 - 1, k] (stencil.el [3, i, ie1 - 1, k] - stencil.el [4, i, ie1 - 1, k] * Expr.const (dr - 1) / Expr.const (dr + 3)),
              assign stencil [4, i, ie1 - 1, k] (Expr.const 8 * stencil.el [4, i, ie1 - 1, k] / Expr.const ((dr + 1) * (dr + 3)))]
      else
        skip
  else if direction = 2 then
    let ie2 := cfirst2 - side + 1
    if side = 0 then
      if interporder = 1 then
        doLoop cfirst1 clast1 fun j =>
          doLoop cfirst0 clast0 fun i =>
            assign stencil [5, i, j, ie2] (Expr.const 2 * stencil.el [5, i, j, ie2] / Expr.const 3)
      else if interporder = 2 then
        doLoop cfirst1 clast1 fun j =>
          doLoop cfirst0 clast0 fun i =>
            block [
              assign stencil [6, i, j, ie2] (stencil.el [6, i, j, ie2] - stencil.el [5, i, j, ie2] * Expr.const (dr - 1) / Expr.const (dr + 3)),
              assign stencil [5, i, j, ie2] (Expr.const 8 * stencil.el [5, i, j, ie2] / Expr.const ((dr + 1) * (dr + 3)))]
      else
        skip
    else
      if interporder = 1 then
        doLoop cfirst1 clast1 fun j =>
          doLoop cfirst0 clast0 fun i =>
            assign stencil [6, i, j, ie2 - 1] (Expr.const 2 * stencil.el [6, i, j, ie2 - 1] / Expr.const 3)
      else if interporder = 2 then
        doLoop cfirst1 clast1 fun j =>
          doLoop cfirst0 clast0 fun i =>
            block [
              assign stencil [5, i, j, ie2 - 1] (stencil.el [5, i, j, ie2 - 1] - stencil.el [6, i, j, ie2 - 1] * Expr.const (dr - 1) / Expr.const (dr + 3)),
              assign stencil [6, i, j, ie2 - 1] (Expr.const 8 * stencil.el [6, i, j, ie2 - 1] / Expr.const ((dr + 1) * (dr + 3)))]
      else
        skip
  else
    skip

/-- `readjnodediffusionoffdiag3d` (m4/nodediffusionstencilcoeffs3d.m4:1608-1677) -/
def readjnodediffusionoffdiag3d (ifirst0 ifirst1 ifirst2 ilast0 ilast1 ilast2 pfirst0 pfirst1 pfirst2 plast0 plast1 plast2 direction side : Int) (stencil_ : Ptr) : Cmd T :=
  let stencil := st3d stencil_ ifirst0 ifirst1 ifirst2 ilast0 ilast1 ilast2 0
  if direction = 0 then
    let ie0 := pfirst0 - side + 1
    if side = 0 then
      doLoop pfirst2 plast2 fun k =>
        doLoop pfirst1 plast1 fun j =>
          assign stencil [1, ie0, j, k] (Expr.const 0)
    else
      doLoop pfirst2 plast2 fun k =>
        doLoop pfirst1 plast1 fun j =>
          assign stencil [2, ie0 - 1, j, k] (Expr.const 0)
  else if direction = 1 then
    let ie1 := pfirst1 - side + 1
    if side = 0 then
      doLoop pfirst2 plast2 fun k =>
        doLoop pfirst0 plast0 fun i =>
          assign stencil [3, i, ie1, k] (Expr.const 0)
    else
      doLoop pfirst2 plast2 fun k =>
        doLoop pfirst0 plast0 fun i =>
          assign stencil [4, i, ie1 - 1, k] (Expr.const 0)
  else if direction = 2 then
    let ie2 := pfirst1 - side + 1
    if side = 0 then
      doLoop pfirst1 plast1 fun j =>
        doLoop pfirst0 plast0 fun i =>
          assign stencil [5, i, j, ie2] (Expr.const 0)
    else
      doLoop pfirst1 plast1 fun j =>
        doLoop pfirst0 plast0 fun i =>
          assign stencil [6, i, j, ie2 - 1] (Expr.const 0)
  else
    skip

/-- `adjnodediffusioncfbdryrhs3d` (m4/nodediffusionstencilcoeffs3d.m4:1680-1759) -/
def adjnodediffusioncfbdryrhs3d (ifirst0 ifirst1 ifirst2 ilast0 ilast1 ilast2 pfirst0 pfirst1 pfirst2 plast0 plast1 plast2 direction side : Int) (stencil_ : Ptr) (gcw : Int) (u_ rhs_ : Ptr) : Cmd T :=
  let stencil := st3d stencil_ ifirst0 ifirst1 ifirst2 ilast0 ilast1 ilast2 0
  let u := cell3d u_ ifirst0 ifirst1 ifirst2 ilast0 ilast1 ilast2 gcw
  let rhs := cell3d rhs_ ifirst0 ifirst1 ifirst2 ilast0 ilast1 ilast2 0
  if direction = 0 then
    let ie0 := pfirst0 + 1 - 2 * side
    if side = 0 then
      doLoop pfirst2 plast2 fun k =>
        doLoop pfirst1 plast1 fun j =>
          assign rhs [ie0, j, k] (rhs.el [ie0, j, k] - stencil.el [1, ie0, j, k] * u.el [ie0 - 1, j, k])
    else
      doLoop pfirst2 plast2 fun k =>
        doLoop pfirst1 plast1 fun j =>
          assign rhs [ie0, j, k] (rhs.el [ie0, j, k] - stencil.el [2, ie0, j, k] * u.el [ie0 + 1, j, k])
  else if direction = 1 then
    let ie1 := pfirst1 + 1 - 2 * side
    if side = 0 then
      doLoop pfirst2 plast2 fun k =>
        doLoop pfirst0 plast0 fun i =>
          assign rhs [i, ie1, k] (rhs.el [i, ie1, k] - stencil.el [3, i, ie1, k] * u.el [i, ie1 - 1, k])
    else
      doLoop pfirst2 plast2 fun k =>
        doLoop pfirst0 plast0 fun i =>
          assign rhs [i, ie1, k] (rhs.el [i, ie1, k] - stencil.el [4, i, ie1, k] * u.el [i, ie1 + 1, k])
  else if direction = 2 then
    let ie2 := pfirst2 + 1 - 2 * side
    if side = 0 then
      doLoop pfirst1 plast1 fun j =>
        doLoop pfirst0 plast0 fun i =>
          assign rhs [i, j, ie2] (rhs.el [i, j, ie2] - stencil.el [5, i, j, ie2] * u.el [i, j, ie2 - 1])
    else
      doLoop pfirst1 plast1 fun j =>
        doLoop pfirst0 plast0 fun i =>
          assign rhs [i, j, ie2] (rhs.el [i, j, ie2] - stencil.el [6, i, j, ie2] * u.el [i, j, ie2 + 1])
  else
    skip

end Verif.F
