import Verif.Spec.Fortran

/-
The Fortran flux and operator routines for nodes: m4/nodediffusionflux1d.m4 to m4/nodediffusionapply3d.m4. They declare the same arrays as the
routines for cells. The local scalars `diver` and `lu` are assigned once per iteration and become `let`.
-/

namespace Verif.F

variable {T : Type} [Add T] [Sub T] [Mul T] [Div T] [Neg T]

/-- `nodediffusionflux1d` (m4/nodediffusionflux1d.m4:35-61) -/
def nodediffusionflux1d (lo0 hi0 : Int) (dx : Nat → T) (b0_ : Ptr) (gcw : Int) (u_ flux0_ : Ptr) : Cmd T :=
  let u := cell1d u_ lo0 hi0 gcw
  let b0 := face1d b0_ lo0 hi0 0
  let flux0 := face1d flux0_ lo0 hi0 0
  doLoop lo0 (hi0 + 1) fun ie0 => assign flux0 [ie0] (b0.el [ie0] * (u.el [ie0] - u.el [ie0 - 1]) / .const (dx 0))

/-- `nodepoissonflux1d` (m4/nodediffusionflux1d.m4:63-86) -/
def nodepoissonflux1d (lo0 hi0 : Int) (dx : Nat → T) (gcw : Int) (u_ flux0_ : Ptr) : Cmd T :=
  let u := cell1d u_ lo0 hi0 gcw
  let flux0 := face1d flux0_ lo0 hi0 0
  doLoop lo0 (hi0 + 1) fun ie0 => assign flux0 [ie0] ((u.el [ie0] - u.el [ie0 - 1]) / .const (dx 0))

/-- `nodediffusionflux2d` (m4/nodediffusionflux2d.m4:35-73) -/
def nodediffusionflux2d (lo0 lo1 hi0 hi1 : Int) (dx : Nat → T) (b0_ b1_ : Ptr) (gcw : Int) (u_ flux0_ flux1_ : Ptr) : Cmd T :=
  let u := cell2d u_ lo0 lo1 hi0 hi1 gcw
  let b0 := face2d0 b0_ lo0 lo1 hi0 hi1 0
  let b1 := face2d1 b1_ lo0 lo1 hi0 hi1 0
  let flux0 := face2d0 flux0_ lo0 lo1 hi0 hi1 0
  let flux1 := face2d1 flux1_ lo0 lo1 hi0 hi1 0
  block [
    doLoop lo1 hi1 fun ic1 => doLoop lo0 (hi0 + 1) fun ie0 =>
      assign flux0 [ie0, ic1] (b0.el [ie0, ic1] * (u.el [ie0, ic1] - u.el [ie0 - 1, ic1]) / .const (dx 0)),
    doLoop lo0 hi0 fun ic0 => doLoop lo1 (hi1 + 1) fun ie1 =>
      assign flux1 [ie1, ic0] (b1.el [ie1, ic0] * (u.el [ic0, ie1] - u.el [ic0, ie1 - 1]) / .const (dx 1))]

/-- `nodepoissonflux2d` (m4/nodediffusionflux2d.m4:75-109) -/
def nodepoissonflux2d (lo0 lo1 hi0 hi1 : Int) (dx : Nat → T) (gcw : Int) (u_ flux0_ flux1_ : Ptr) : Cmd T :=
  let u := cell2d u_ lo0 lo1 hi0 hi1 gcw
  let flux0 := face2d0 flux0_ lo0 lo1 hi0 hi1 0
  let flux1 := face2d1 flux1_ lo0 lo1 hi0 hi1 0
  block [
    doLoop lo0 (hi0 + 1) fun ie0 => doLoop lo1 hi1 fun ic1 =>
      assign flux0 [ie0, ic1] ((u.el [ie0, ic1] - u.el [ie0 - 1, ic1]) / .const (dx 0)),
    doLoop lo1 (hi1 + 1) fun ie1 => doLoop lo0 hi0 fun ic0 =>
      assign flux1 [ie1, ic0] ((u.el [ic0, ie1] - u.el [ic0, ie1 - 1]) / .const (dx 1))]

/-- `nodediffusionflux3d` (m4/nodediffusionflux3d.m4:35-88). The third loop reads `b1` (line 82) where the routine for cells reads `b2`, which is not used. -/
def nodediffusionflux3d (lo0 lo1 lo2 hi0 hi1 hi2 : Int) (dx : Nat → T) (b0_ b1_ b2_ : Ptr) (gcw : Int) (u_ flux0_ flux1_ flux2_ : Ptr) :
    Cmd T :=
  let u := cell3d u_ lo0 lo1 lo2 hi0 hi1 hi2 gcw
  let b0 := face3d0 b0_ lo0 lo1 lo2 hi0 hi1 hi2 0
  let b1 := face3d1 b1_ lo0 lo1 lo2 hi0 hi1 hi2 0
  let flux0 := face3d0 flux0_ lo0 lo1 lo2 hi0 hi1 hi2 0
  let flux1 := face3d1 flux1_ lo0 lo1 lo2 hi0 hi1 hi2 0
  let flux2 := face3d2 flux2_ lo0 lo1 lo2 hi0 hi1 hi2 0
  block [
    doLoop lo2 hi2 fun k => doLoop lo1 hi1 fun j => doLoop lo0 (hi0 + 1) fun i =>
      assign flux0 [i, j, k] (b0.el [i, j, k] * (u.el [i, j, k] - u.el [i - 1, j, k]) / .const (dx 0)),
    doLoop lo0 hi0 fun i => doLoop lo2 hi2 fun k => doLoop lo1 (hi1 + 1) fun j =>
      assign flux1 [j, k, i] (b1.el [j, k, i] * (u.el [i, j, k] - u.el [i, j - 1, k]) / .const (dx 1)),
    doLoop lo1 hi1 fun j => doLoop lo0 hi0 fun i => doLoop lo2 (hi2 + 1) fun k =>
      assign flux2 [k, i, j] (b1.el [k, i, j] * (u.el [i, j, k] - u.el [i, j, k - 1]) / .const (dx 2))]

/-- `nodepoissonflux3d` (m4/nodediffusionflux3d.m4:90-138) -/
def nodepoissonflux3d (lo0 lo1 lo2 hi0 hi1 hi2 : Int) (dx : Nat → T) (gcw : Int) (u_ flux0_ flux1_ flux2_ : Ptr) : Cmd T :=
  let u := cell3d u_ lo0 lo1 lo2 hi0 hi1 hi2 gcw
  let flux0 := face3d0 flux0_ lo0 lo1 lo2 hi0 hi1 hi2 0
  let flux1 := face3d1 flux1_ lo0 lo1 lo2 hi0 hi1 hi2 0
  let flux2 := face3d2 flux2_ lo0 lo1 lo2 hi0 hi1 hi2 0
  block [
    doLoop lo2 hi2 fun k => doLoop lo1 hi1 fun j => doLoop lo0 (hi0 + 1) fun i =>
      assign flux0 [i, j, k] ((u.el [i, j, k] - u.el [i - 1, j, k]) / .const (dx 0)),
    doLoop lo0 hi0 fun i => doLoop lo2 hi2 fun k => doLoop lo1 (hi1 + 1) fun j =>
      assign flux1 [j, k, i] ((u.el [i, j, k] - u.el [i, j - 1, k]) / .const (dx 1)),
    doLoop lo1 hi1 fun j => doLoop lo0 hi0 fun i => doLoop lo2 (hi2 + 1) fun k =>
      assign flux2 [k, i, j] ((u.el [i, j, k] - u.el [i, j, k - 1]) / .const (dx 2))]

/-- `nodediffusionv1apply1d` (m4/nodediffusionapply1d.m4:35-77) -/
def nodediffusionv1apply1d (lo0 hi0 : Int) (alpha beta : T) (dx : Nat → T) (agcw : Int) (acoef_ : Ptr) (ugcw : Int) (u_ : Ptr) (fgcw : Int) (f_ : Ptr) (flux0_ : Ptr) (a b : T) (rgcw : Int) (res_ : Ptr) : Cmd T :=
  let acoef := cell1d acoef_ lo0 hi0 agcw
  let u := cell1d u_ lo0 hi0 ugcw
  let f := cell1d f_ lo0 hi0 fgcw
  let res := cell1d res_ lo0 hi0 rgcw
  let flux0 := face1d flux0_ lo0 hi0 0
  doLoop lo0 hi0 fun i =>
    let diver : Expr T := .const beta * ((flux0.el [i + 1] - flux0.el [i]) / .const (dx 0))
    let lu : Expr T := -diver + .const alpha * acoef.el [i] * u.el [i]
    assign res [i] (.const b * f.el [i] + .const a * lu)

/-- `nodediffusionv2apply1d` (m4/nodediffusionapply1d.m4:79-118) -/
def nodediffusionv2apply1d (lo0 hi0 : Int) (alpha beta : T) (dx : Nat → T) (ugcw : Int) (u_ : Ptr) (fgcw : Int) (f_ : Ptr) (flux0_ : Ptr) (a b : T) (rgcw : Int) (res_ : Ptr) : Cmd T :=
  let u := cell1d u_ lo0 hi0 ugcw
  let f := cell1d f_ lo0 hi0 fgcw
  let res := cell1d res_ lo0 hi0 rgcw
  let flux0 := face1d flux0_ lo0 hi0 0
  doLoop lo0 hi0 fun i =>
    let diver : Expr T := .const beta * ((flux0.el [i + 1] - flux0.el [i]) / .const (dx 0))
    let lu : Expr T := -diver + .const alpha * u.el [i]
    assign res [i] (.const b * f.el [i] + .const a * lu)

/-- `nodepoissonapply1d` (m4/nodediffusionapply1d.m4:120-155) -/
def nodepoissonapply1d (lo0 hi0 : Int) (beta : T) (dx : Nat → T) (fgcw : Int) (f_ : Ptr) (flux0_ : Ptr) (a b : T) (rgcw : Int) (res_ : Ptr) : Cmd T :=
  let f := cell1d f_ lo0 hi0 fgcw
  let res := cell1d res_ lo0 hi0 rgcw
  let flux0 := face1d flux0_ lo0 hi0 0
  doLoop lo0 hi0 fun i =>
    let lu : Expr T := -(.const beta * ((flux0.el [i + 1] - flux0.el [i]) / .const (dx 0)))
    assign res [i] (.const b * f.el [i] + .const a * lu)

/-- `nodediffusionv1apply2d` (m4/nodediffusionapply2d.m4:35-82) -/
def nodediffusionv1apply2d (lo0 hi0 lo1 hi1 : Int) (alpha beta : T) (dx : Nat → T) (agcw : Int) (acoef_ : Ptr) (ugcw : Int) (u_ : Ptr) (fgcw : Int) (f_ : Ptr) (flux0_ flux1_ : Ptr) (a b : T) (rgcw : Int) (res_ : Ptr) : Cmd T :=
  let acoef := cell2d acoef_ lo0 lo1 hi0 hi1 agcw
  let u := cell2d u_ lo0 lo1 hi0 hi1 ugcw
  let f := cell2d f_ lo0 lo1 hi0 hi1 fgcw
  let res := cell2d res_ lo0 lo1 hi0 hi1 rgcw
  let flux0 := face2d0 flux0_ lo0 lo1 hi0 hi1 0
  let flux1 := face2d1 flux1_ lo0 lo1 hi0 hi1 0
  doLoop lo1 hi1 fun j => doLoop lo0 hi0 fun i =>
    let diver : Expr T := .const beta * ((flux0.el [i + 1, j] - flux0.el [i, j]) / .const (dx 0) + (flux1.el [j + 1, i] - flux1.el [j, i]) / .const (dx 1))
    let lu : Expr T := -diver + .const alpha * acoef.el [i, j] * u.el [i, j]
    assign res [i, j] (.const b * f.el [i, j] + .const a * lu)

/-- `nodediffusionv2apply2d` (m4/nodediffusionapply2d.m4:84-128) -/
def nodediffusionv2apply2d (lo0 hi0 lo1 hi1 : Int) (alpha beta : T) (dx : Nat → T) (ugcw : Int) (u_ : Ptr) (fgcw : Int) (f_ : Ptr) (flux0_ flux1_ : Ptr) (a b : T) (rgcw : Int) (res_ : Ptr) : Cmd T :=
  let u := cell2d u_ lo0 lo1 hi0 hi1 ugcw
  let f := cell2d f_ lo0 lo1 hi0 hi1 fgcw
  let res := cell2d res_ lo0 lo1 hi0 hi1 rgcw
  let flux0 := face2d0 flux0_ lo0 lo1 hi0 hi1 0
  let flux1 := face2d1 flux1_ lo0 lo1 hi0 hi1 0
  doLoop lo1 hi1 fun j => doLoop lo0 hi0 fun i =>
    let diver : Expr T := .const beta * ((flux0.el [i + 1, j] - flux0.el [i, j]) / .const (dx 0) + (flux1.el [j + 1, i] - flux1.el [j, i]) / .const (dx 1))
    let lu : Expr T := -diver + .const alpha * u.el [i, j]
    assign res [i, j] (.const b * f.el [i, j] + .const a * lu)

/-- `nodepoissonapply2d` (m4/nodediffusionapply2d.m4:130-170) -/
def nodepoissonapply2d (lo0 hi0 lo1 hi1 : Int) (beta : T) (dx : Nat → T) (fgcw : Int) (f_ : Ptr) (flux0_ flux1_ : Ptr) (a b : T) (rgcw : Int) (res_ : Ptr) : Cmd T :=
  let f := cell2d f_ lo0 lo1 hi0 hi1 fgcw
  let res := cell2d res_ lo0 lo1 hi0 hi1 rgcw
  let flux0 := face2d0 flux0_ lo0 lo1 hi0 hi1 0
  let flux1 := face2d1 flux1_ lo0 lo1 hi0 hi1 0
  doLoop lo1 hi1 fun j => doLoop lo0 hi0 fun i =>
    let lu : Expr T := -(.const beta * ((flux0.el [i + 1, j] - flux0.el [i, j]) / .const (dx 0) + (flux1.el [j + 1, i] - flux1.el [j, i]) / .const (dx 1)))
    assign res [i, j] (.const b * f.el [i, j] + .const a * lu)

/-- `nodediffusionv1apply3d` (m4/nodediffusionapply3d.m4:35-86) -/
def nodediffusionv1apply3d (lo0 hi0 lo1 hi1 lo2 hi2 : Int) (alpha beta : T) (dx : Nat → T) (agcw : Int) (acoef_ : Ptr) (ugcw : Int) (u_ : Ptr) (fgcw : Int) (f_ : Ptr) (flux0_ flux1_ flux2_ : Ptr) (a b : T) (rgcw : Int) (res_ : Ptr) : Cmd T :=
  let acoef := cell3d acoef_ lo0 lo1 lo2 hi0 hi1 hi2 agcw
  let u := cell3d u_ lo0 lo1 lo2 hi0 hi1 hi2 ugcw
  let f := cell3d f_ lo0 lo1 lo2 hi0 hi1 hi2 fgcw
  let res := cell3d res_ lo0 lo1 lo2 hi0 hi1 hi2 rgcw
  let flux0 := face3d0 flux0_ lo0 lo1 lo2 hi0 hi1 hi2 0
  let flux1 := face3d1 flux1_ lo0 lo1 lo2 hi0 hi1 hi2 0
  let flux2 := face3d2 flux2_ lo0 lo1 lo2 hi0 hi1 hi2 0
  doLoop lo2 hi2 fun k => doLoop lo1 hi1 fun j => doLoop lo0 hi0 fun i =>
    let diver : Expr T := .const beta * ((flux0.el [i + 1, j, k] - flux0.el [i, j, k]) / .const (dx 0) + (flux1.el [j + 1, k, i] - flux1.el [j, k, i]) / .const (dx 1) + (flux2.el [k + 1, i, j] - flux2.el [k, i, j]) / .const (dx 2))
    let lu : Expr T := -diver + .const alpha * acoef.el [i, j, k] * u.el [i, j, k]
    assign res [i, j, k] (.const b * f.el [i, j, k] + .const a * lu)

/-- `nodediffusionv2apply3d` (m4/nodediffusionapply3d.m4:88-139). The third difference is of `flux1` (line 131) where the routine for cells takes `flux2`, which is not used. -/
def nodediffusionv2apply3d (lo0 hi0 lo1 hi1 lo2 hi2 : Int) (alpha beta : T) (dx : Nat → T) (ugcw : Int) (u_ : Ptr) (fgcw : Int) (f_ : Ptr) (flux0_ flux1_ flux2_ : Ptr) (a b : T) (rgcw : Int) (res_ : Ptr) : Cmd T :=
  let u := cell3d u_ lo0 lo1 lo2 hi0 hi1 hi2 ugcw
  let f := cell3d f_ lo0 lo1 lo2 hi0 hi1 hi2 fgcw
  let res := cell3d res_ lo0 lo1 lo2 hi0 hi1 hi2 rgcw
  let flux0 := face3d0 flux0_ lo0 lo1 lo2 hi0 hi1 hi2 0
  let flux1 := face3d1 flux1_ lo0 lo1 lo2 hi0 hi1 hi2 0
  doLoop lo2 hi2 fun k => doLoop lo1 hi1 fun j => doLoop lo0 hi0 fun i =>
    let diver : Expr T := .const beta * ((flux0.el [i + 1, j, k] - flux0.el [i, j, k]) / .const (dx 0) + (flux1.el [j + 1, k, i] - flux1.el [j, k, i]) / .const (dx 1) + (flux1.el [k + 1, i, j] - flux1.el [k, i, j]) / .const (dx 2))
    let lu : Expr T := -diver + .const alpha * u.el [i, j, k]
    assign res [i, j, k] (.const b * f.el [i, j, k] + .const a * lu)

/-- `nodepoissonapply3d` (m4/nodediffusionapply3d.m4:141-188). The third difference is of `flux1` (line 181) where the routine for cells takes `flux2`, which is not used. -/
def nodepoissonapply3d (lo0 hi0 lo1 hi1 lo2 hi2 : Int) (beta : T) (dx : Nat → T) (fgcw : Int) (f_ : Ptr) (flux0_ flux1_ flux2_ : Ptr) (a b : T) (rgcw : Int) (res_ : Ptr) : Cmd T :=
  let f := cell3d f_ lo0 lo1 lo2 hi0 hi1 hi2 fgcw
  let res := cell3d res_ lo0 lo1 lo2 hi0 hi1 hi2 rgcw
  let flux0 := face3d0 flux0_ lo0 lo1 lo2 hi0 hi1 hi2 0
  let flux1 := face3d1 flux1_ lo0 lo1 lo2 hi0 hi1 hi2 0
  doLoop lo2 hi2 fun k => doLoop lo1 hi1 fun j => doLoop lo0 hi0 fun i =>
    let lu : Expr T := -(.const beta * ((flux0.el [i + 1, j, k] - flux0.el [i, j, k]) / .const (dx 0) + (flux1.el [j + 1, k, i] - flux1.el [j, k, i]) / .const (dx 1) + (flux1.el [k + 1, i, j] - flux1.el [k, i, j]) / .const (dx 2)))
    assign res [i, j, k] (.const b * f.el [i, j, k] + .const a * lu)

end Verif.F
