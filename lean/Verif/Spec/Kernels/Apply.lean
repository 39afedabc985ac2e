import Verif.Spec.Fortran

/-
The Fortran residual and operator routines: m4/celldiffusionapply1d.m4, m4/celldiffusionapply2d.m4, m4/celldiffusionapply3d.m4.
The local scalars `diver` and `lu` are assigned once per iteration and become `let`.
-/

namespace Verif.F

variable {T : Type} [Add T] [Sub T] [Mul T] [Div T] [Neg T]

/-- `celldiffusionv1res1d` (m4/celldiffusionapply1d.m4:35-73) -/
def celldiffusionv1res1d (lo0 hi0 : Int) (alpha beta : T) (dx : Nat → T) (agcw : Int) (acoef_ : Ptr) (ugcw : Int) (u_ : Ptr) (fgcw : Int) (f_ : Ptr) (flux0_ : Ptr) (rgcw : Int) (res_ : Ptr) : Cmd T :=
  let acoef := cell1d acoef_ lo0 hi0 agcw
  let u := cell1d u_ lo0 hi0 ugcw
  let f := cell1d f_ lo0 hi0 fgcw
  let res := cell1d res_ lo0 hi0 rgcw
  let flux0 := face1d flux0_ lo0 hi0 0
  doLoop lo0 hi0 fun i =>
    let diver : Expr T := .const beta * ((flux0.el [i + 1] - flux0.el [i]) / .const (dx 0))
    let lu : Expr T := -diver + .const alpha * acoef.el [i] * u.el [i]
    assign res [i] (f.el [i] - lu)

/-- `celldiffusionv2res1d` (m4/celldiffusionapply1d.m4:75-110) -/
def celldiffusionv2res1d (lo0 hi0 : Int) (alpha beta : T) (dx : Nat → T) (ugcw : Int) (u_ : Ptr) (fgcw : Int) (f_ : Ptr) (flux0_ : Ptr) (rgcw : Int) (res_ : Ptr) : Cmd T :=
  let u := cell1d u_ lo0 hi0 ugcw
  let f := cell1d f_ lo0 hi0 fgcw
  let res := cell1d res_ lo0 hi0 rgcw
  let flux0 := face1d flux0_ lo0 hi0 0
  doLoop lo0 hi0 fun i =>
    let diver : Expr T := .const beta * ((flux0.el [i + 1] - flux0.el [i]) / .const (dx 0))
    let lu : Expr T := -diver + .const alpha * u.el [i]
    assign res [i] (f.el [i] - lu)

/-- `cellpoissonv1res1d` (m4/celldiffusionapply1d.m4:112-143) -/
def cellpoissonv1res1d (lo0 hi0 : Int) (beta : T) (dx : Nat → T) (fgcw : Int) (f_ : Ptr) (flux0_ : Ptr) (rgcw : Int) (res_ : Ptr) : Cmd T :=
  let f := cell1d f_ lo0 hi0 fgcw
  let res := cell1d res_ lo0 hi0 rgcw
  let flux0 := face1d flux0_ lo0 hi0 0
  doLoop lo0 hi0 fun i =>
    let lu : Expr T := -(.const beta * ((flux0.el [i + 1] - flux0.el [i]) / .const (dx 0)))
    assign res [i] (f.el [i] - lu)

/-- `celldiffusionv1apply1d` (m4/celldiffusionapply1d.m4:145-179) -/
def celldiffusionv1apply1d (lo0 hi0 : Int) (alpha beta : T) (dx : Nat → T) (agcw : Int) (acoef_ : Ptr) (ugcw : Int) (u_ : Ptr) (flux0_ : Ptr) (rgcw : Int) (res_ : Ptr) : Cmd T :=
  let acoef := cell1d acoef_ lo0 hi0 agcw
  let u := cell1d u_ lo0 hi0 ugcw
  let res := cell1d res_ lo0 hi0 rgcw
  let flux0 := face1d flux0_ lo0 hi0 0
  doLoop lo0 hi0 fun i =>
    let diver : Expr T := .const beta * ((flux0.el [i + 1] - flux0.el [i]) / .const (dx 0))
    assign res [i] (-diver + .const alpha * acoef.el [i] * u.el [i])

/-- `celldiffusionv2apply1d` (m4/celldiffusionapply1d.m4:181-212) -/
def celldiffusionv2apply1d (lo0 hi0 : Int) (alpha beta : T) (dx : Nat → T) (ugcw : Int) (u_ : Ptr) (flux0_ : Ptr) (rgcw : Int) (res_ : Ptr) : Cmd T :=
  let u := cell1d u_ lo0 hi0 ugcw
  let res := cell1d res_ lo0 hi0 rgcw
  let flux0 := face1d flux0_ lo0 hi0 0
  doLoop lo0 hi0 fun i =>
    let diver : Expr T := .const beta * ((flux0.el [i + 1] - flux0.el [i]) / .const (dx 0))
    assign res [i] (-diver + .const alpha * u.el [i])

/-- `cellpoissonv2apply1d` (m4/celldiffusionapply1d.m4:214-239) -/
def cellpoissonv2apply1d (lo0 hi0 : Int) (beta : T) (dx : Nat → T) (flux0_ : Ptr) (rgcw : Int) (res_ : Ptr) : Cmd T :=
  let res := cell1d res_ lo0 hi0 rgcw
  let flux0 := face1d flux0_ lo0 hi0 0
  doLoop lo0 hi0 fun i =>
    assign res [i] (-(.const beta * ((flux0.el [i + 1] - flux0.el [i]) / .const (dx 0))))

/-- `celldiffusionv1res2d` (m4/celldiffusionapply2d.m4:35-78) -/
def celldiffusionv1res2d (lo0 hi0 lo1 hi1 : Int) (alpha beta : T) (dx : Nat → T) (agcw : Int) (acoef_ : Ptr) (ugcw : Int) (u_ : Ptr) (fgcw : Int) (f_ : Ptr) (flux0_ flux1_ : Ptr) (rgcw : Int) (res_ : Ptr) : Cmd T :=
  let acoef := cell2d acoef_ lo0 lo1 hi0 hi1 agcw
  let u := cell2d u_ lo0 lo1 hi0 hi1 ugcw
  let f := cell2d f_ lo0 lo1 hi0 hi1 fgcw
  let res := cell2d res_ lo0 lo1 hi0 hi1 rgcw
  let flux0 := face2d0 flux0_ lo0 lo1 hi0 hi1 0
  let flux1 := face2d1 flux1_ lo0 lo1 hi0 hi1 0
  doLoop lo1 hi1 fun j => doLoop lo0 hi0 fun i =>
    let diver : Expr T := .const beta * ((flux0.el [i + 1, j] - flux0.el [i, j]) / .const (dx 0) + (flux1.el [j + 1, i] - flux1.el [j, i]) / .const (dx 1))
    let lu : Expr T := -diver + .const alpha * acoef.el [i, j] * u.el [i, j]
    assign res [i, j] (f.el [i, j] - lu)

/-- `celldiffusionv2res2d` (m4/celldiffusionapply2d.m4:80-122) -/
def celldiffusionv2res2d (lo0 hi0 lo1 hi1 : Int) (alpha beta : T) (dx : Nat → T) (ugcw : Int) (u_ : Ptr) (fgcw : Int) (f_ : Ptr) (flux0_ flux1_ : Ptr) (rgcw : Int) (res_ : Ptr) : Cmd T :=
  let u := cell2d u_ lo0 lo1 hi0 hi1 ugcw
  let f := cell2d f_ lo0 lo1 hi0 hi1 fgcw
  let res := cell2d res_ lo0 lo1 hi0 hi1 rgcw
  let flux0 := face2d0 flux0_ lo0 lo1 hi0 hi1 0
  let flux1 := face2d1 flux1_ lo0 lo1 hi0 hi1 0
  doLoop lo1 hi1 fun j => doLoop lo0 hi0 fun i =>
    let diver : Expr T := .const beta * ((flux0.el [i + 1, j] - flux0.el [i, j]) / .const (dx 0) + (flux1.el [j + 1, i] - flux1.el [j, i]) / .const (dx 1))
    let lu : Expr T := -diver + .const alpha * u.el [i, j]
    assign res [i, j] (f.el [i, j] - lu)

/-- `cellpoissonv1res2d` (m4/celldiffusionapply2d.m4:124-160) -/
def cellpoissonv1res2d (lo0 hi0 lo1 hi1 : Int) (beta : T) (dx : Nat → T) (fgcw : Int) (f_ : Ptr) (flux0_ flux1_ : Ptr) (rgcw : Int) (res_ : Ptr) : Cmd T :=
  let f := cell2d f_ lo0 lo1 hi0 hi1 fgcw
  let res := cell2d res_ lo0 lo1 hi0 hi1 rgcw
  let flux0 := face2d0 flux0_ lo0 lo1 hi0 hi1 0
  let flux1 := face2d1 flux1_ lo0 lo1 hi0 hi1 0
  doLoop lo1 hi1 fun j => doLoop lo0 hi0 fun i =>
    let lu : Expr T := -(.const beta * ((flux0.el [i + 1, j] - flux0.el [i, j]) / .const (dx 0) + (flux1.el [j + 1, i] - flux1.el [j, i]) / .const (dx 1)))
    assign res [i, j] (f.el [i, j] - lu)

/-- `celldiffusionv1apply2d` (m4/celldiffusionapply2d.m4:162-201) -/
def celldiffusionv1apply2d (lo0 hi0 lo1 hi1 : Int) (alpha beta : T) (dx : Nat → T) (agcw : Int) (acoef_ : Ptr) (ugcw : Int) (u_ : Ptr) (flux0_ flux1_ : Ptr) (rgcw : Int) (res_ : Ptr) : Cmd T :=
  let acoef := cell2d acoef_ lo0 lo1 hi0 hi1 agcw
  let u := cell2d u_ lo0 lo1 hi0 hi1 ugcw
  let res := cell2d res_ lo0 lo1 hi0 hi1 rgcw
  let flux0 := face2d0 flux0_ lo0 lo1 hi0 hi1 0
  let flux1 := face2d1 flux1_ lo0 lo1 hi0 hi1 0
  doLoop lo1 hi1 fun j => doLoop lo0 hi0 fun i =>
    let diver : Expr T := .const beta * ((flux0.el [i + 1, j] - flux0.el [i, j]) / .const (dx 0) + (flux1.el [j + 1, i] - flux1.el [j, i]) / .const (dx 1))
    assign res [i, j] (-diver + .const alpha * acoef.el [i, j] * u.el [i, j])

/-- `celldiffusionv2apply2d` (m4/celldiffusionapply2d.m4:203-239) -/
def celldiffusionv2apply2d (lo0 hi0 lo1 hi1 : Int) (alpha beta : T) (dx : Nat → T) (ugcw : Int) (u_ : Ptr) (flux0_ flux1_ : Ptr) (rgcw : Int) (res_ : Ptr) : Cmd T :=
  let u := cell2d u_ lo0 lo1 hi0 hi1 ugcw
  let res := cell2d res_ lo0 lo1 hi0 hi1 rgcw
  let flux0 := face2d0 flux0_ lo0 lo1 hi0 hi1 0
  let flux1 := face2d1 flux1_ lo0 lo1 hi0 hi1 0
  doLoop lo1 hi1 fun j => doLoop lo0 hi0 fun i =>
    let diver : Expr T := .const beta * ((flux0.el [i + 1, j] - flux0.el [i, j]) / .const (dx 0) + (flux1.el [j + 1, i] - flux1.el [j, i]) / .const (dx 1))
    assign res [i, j] (-diver + .const alpha * u.el [i, j])

/-- `cellpoissonv2apply2d` (m4/celldiffusionapply2d.m4:241-271) -/
def cellpoissonv2apply2d (lo0 hi0 lo1 hi1 : Int) (beta : T) (dx : Nat → T) (flux0_ flux1_ : Ptr) (rgcw : Int) (res_ : Ptr) : Cmd T :=
  let res := cell2d res_ lo0 lo1 hi0 hi1 rgcw
  let flux0 := face2d0 flux0_ lo0 lo1 hi0 hi1 0
  let flux1 := face2d1 flux1_ lo0 lo1 hi0 hi1 0
  doLoop lo1 hi1 fun j => doLoop lo0 hi0 fun i =>
    assign res [i, j] (-(.const beta * ((flux0.el [i + 1, j] - flux0.el [i, j]) / .const (dx 0) + (flux1.el [j + 1, i] - flux1.el [j, i]) / .const (dx 1))))

/-- `celldiffusionv1res3d` (m4/celldiffusionapply3d.m4:35-82) -/
def celldiffusionv1res3d (lo0 hi0 lo1 hi1 lo2 hi2 : Int) (alpha beta : T) (dx : Nat → T) (agcw : Int) (acoef_ : Ptr) (ugcw : Int) (u_ : Ptr) (fgcw : Int) (f_ : Ptr) (flux0_ flux1_ flux2_ : Ptr) (rgcw : Int) (res_ : Ptr) : Cmd T :=
  let acoef := cell3d acoef_ lo0 lo1 lo2 hi0 hi1 hi2 agcw
  let u := cell3d u_ lo0 lo1 lo2 hi0 hi1 hi2 ugcw
  let f := cell3d f_ lo0 lo1 lo2 hi0 hi1 hi2 fgcw
  let res := cell3d res_ lo0 lo1 lo2 hi0 hi1 hi2 rgcw
  let flux0 := face3d0 flux0_ lo0 lo1 lo2 hi0 hi1 hi2 0
  let flux1 := face3d1 flux1_ lo0 lo1 lo2 hi0 hi1 hi2 0
  let flux2 := face3d2 flux2_ lo0 lo1 lo2 hi0 hi1 hi2 0
  doLoop lo2 hi2 fun k => doLoop lo1 hi1 fun j => doLoop lo0 hi0 fun i =>
    let diver : Expr T := .const beta * ((flux0.el [i + 1, j, k] - flux0.el [i, j, k]) / .const (dx 0) + (flux1.el [j + 1, k, i] - flux1.el [j, k, i]) / .const (dx 1) + (flux2.el [k + 1, i, j] - flux2.el [k, i, j]) / .const (dx 2))
    let lu : Expr T := -diver + .const alpha * acoef.el [i, j, k] * u.el [i, j, k]
    assign res [i, j, k] (f.el [i, j, k] - lu)

/-- `celldiffusionv2res3d` (m4/celldiffusionapply3d.m4:84-131) -/
def celldiffusionv2res3d (lo0 hi0 lo1 hi1 lo2 hi2 : Int) (alpha beta : T) (dx : Nat → T) (ugcw : Int) (u_ : Ptr) (fgcw : Int) (f_ : Ptr) (flux0_ flux1_ flux2_ : Ptr) (rgcw : Int) (res_ : Ptr) : Cmd T :=
  let u := cell3d u_ lo0 lo1 lo2 hi0 hi1 hi2 ugcw
  let f := cell3d f_ lo0 lo1 lo2 hi0 hi1 hi2 fgcw
  let res := cell3d res_ lo0 lo1 lo2 hi0 hi1 hi2 rgcw
  let flux0 := face3d0 flux0_ lo0 lo1 lo2 hi0 hi1 hi2 0
  let flux1 := face3d1 flux1_ lo0 lo1 lo2 hi0 hi1 hi2 0
  let flux2 := face3d2 flux2_ lo0 lo1 lo2 hi0 hi1 hi2 0
  doLoop lo2 hi2 fun k => doLoop lo1 hi1 fun j => doLoop lo0 hi0 fun i =>
    let diver : Expr T := .const beta * ((flux0.el [i + 1, j, k] - flux0.el [i, j, k]) / .const (dx 0) + (flux1.el [j + 1, k, i] - flux1.el [j, k, i]) / .const (dx 1) + (flux2.el [k + 1, i, j] - flux2.el [k, i, j]) / .const (dx 2))
    let lu : Expr T := -diver + .const alpha * u.el [i, j, k]
    assign res [i, j, k] (f.el [i, j, k] - lu)

/-- `cellpoissonv1res3d` (m4/celldiffusionapply3d.m4:133-176) -/
def cellpoissonv1res3d (lo0 hi0 lo1 hi1 lo2 hi2 : Int) (beta : T) (dx : Nat → T) (fgcw : Int) (f_ : Ptr) (flux0_ flux1_ flux2_ : Ptr) (rgcw : Int) (res_ : Ptr) : Cmd T :=
  let f := cell3d f_ lo0 lo1 lo2 hi0 hi1 hi2 fgcw
  let res := cell3d res_ lo0 lo1 lo2 hi0 hi1 hi2 rgcw
  let flux0 := face3d0 flux0_ lo0 lo1 lo2 hi0 hi1 hi2 0
  let flux1 := face3d1 flux1_ lo0 lo1 lo2 hi0 hi1 hi2 0
  let flux2 := face3d2 flux2_ lo0 lo1 lo2 hi0 hi1 hi2 0
  doLoop lo2 hi2 fun k => doLoop lo1 hi1 fun j => doLoop lo0 hi0 fun i =>
    let lu : Expr T := -(.const beta * ((flux0.el [i + 1, j, k] - flux0.el [i, j, k]) / .const (dx 0) + (flux1.el [j + 1, k, i] - flux1.el [j, k, i]) / .const (dx 1) + (flux2.el [k + 1, i, j] - flux2.el [k, i, j]) / .const (dx 2)))
    assign res [i, j, k] (f.el [i, j, k] - lu)

/-- `celldiffusionv1apply3d` (m4/celldiffusionapply3d.m4:178-221) -/
def celldiffusionv1apply3d (lo0 hi0 lo1 hi1 lo2 hi2 : Int) (alpha beta : T) (dx : Nat → T) (agcw : Int) (acoef_ : Ptr) (ugcw : Int) (u_ : Ptr) (flux0_ flux1_ flux2_ : Ptr) (rgcw : Int) (res_ : Ptr) : Cmd T :=
  let acoef := cell3d acoef_ lo0 lo1 lo2 hi0 hi1 hi2 agcw
  let u := cell3d u_ lo0 lo1 lo2 hi0 hi1 hi2 ugcw
  let res := cell3d res_ lo0 lo1 lo2 hi0 hi1 hi2 rgcw
  let flux0 := face3d0 flux0_ lo0 lo1 lo2 hi0 hi1 hi2 0
  let flux1 := face3d1 flux1_ lo0 lo1 lo2 hi0 hi1 hi2 0
  let flux2 := face3d2 flux2_ lo0 lo1 lo2 hi0 hi1 hi2 0
  doLoop lo2 hi2 fun k => doLoop lo1 hi1 fun j => doLoop lo0 hi0 fun i =>
    let diver : Expr T := .const beta * ((flux0.el [i + 1, j, k] - flux0.el [i, j, k]) / .const (dx 0) + (flux1.el [j + 1, k, i] - flux1.el [j, k, i]) / .const (dx 1) + (flux2.el [k + 1, i, j] - flux2.el [k, i, j]) / .const (dx 2))
    assign res [i, j, k] (-diver + .const alpha * acoef.el [i, j, k] * u.el [i, j, k])

/-- `celldiffusionv2apply3d` (m4/celldiffusionapply3d.m4:223-266) -/
def celldiffusionv2apply3d (lo0 hi0 lo1 hi1 lo2 hi2 : Int) (alpha beta : T) (dx : Nat → T) (ugcw : Int) (u_ : Ptr) (flux0_ flux1_ flux2_ : Ptr) (rgcw : Int) (res_ : Ptr) : Cmd T :=
  let u := cell3d u_ lo0 lo1 lo2 hi0 hi1 hi2 ugcw
  let res := cell3d res_ lo0 lo1 lo2 hi0 hi1 hi2 rgcw
  let flux0 := face3d0 flux0_ lo0 lo1 lo2 hi0 hi1 hi2 0
  let flux1 := face3d1 flux1_ lo0 lo1 lo2 hi0 hi1 hi2 0
  let flux2 := face3d2 flux2_ lo0 lo1 lo2 hi0 hi1 hi2 0
  doLoop lo2 hi2 fun k => doLoop lo1 hi1 fun j => doLoop lo0 hi0 fun i =>
    let diver : Expr T := .const beta * ((flux0.el [i + 1, j, k] - flux0.el [i, j, k]) / .const (dx 0) + (flux1.el [j + 1, k, i] - flux1.el [j, k, i]) / .const (dx 1) + (flux2.el [k + 1, i, j] - flux2.el [k, i, j]) / .const (dx 2))
    assign res [i, j, k] (-diver + .const alpha * u.el [i, j, k])

/-- `cellpoissonv2apply3d` (m4/celldiffusionapply3d.m4:268-305) -/
def cellpoissonv2apply3d (lo0 hi0 lo1 hi1 lo2 hi2 : Int) (beta : T) (dx : Nat → T) (flux0_ flux1_ flux2_ : Ptr) (rgcw : Int) (res_ : Ptr) : Cmd T :=
  let res := cell3d res_ lo0 lo1 lo2 hi0 hi1 hi2 rgcw
  let flux0 := face3d0 flux0_ lo0 lo1 lo2 hi0 hi1 hi2 0
  let flux1 := face3d1 flux1_ lo0 lo1 lo2 hi0 hi1 hi2 0
  let flux2 := face3d2 flux2_ lo0 lo1 lo2 hi0 hi1 hi2 0
  doLoop lo2 hi2 fun k => doLoop lo1 hi1 fun j => doLoop lo0 hi0 fun i =>
    assign res [i, j, k] (-(.const beta * ((flux0.el [i + 1, j, k] - flux0.el [i, j, k]) / .const (dx 0) + (flux1.el [j + 1, k, i] - flux1.el [j, k, i]) / .const (dx 1) + (flux2.el [k + 1, i, j] - flux2.el [k, i, j]) / .const (dx 2))))

end Verif.F
