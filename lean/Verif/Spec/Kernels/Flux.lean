import Verif.Spec.Fortran

/-
The Fortran flux routines: m4/celldiffusionflux1d.m4, m4/celldiffusionflux2d.m4, m4/celldiffusionflux3d.m4.
-/

namespace Verif.F

variable {T : Type} [Add T] [Sub T] [Mul T] [Div T] [Neg T]

/-- `celldiffusionflux1d` (m4/celldiffusionflux1d.m4:35-61) -/
def celldiffusionflux1d (lo0 hi0 : Int) (dx : Nat → T) (b0_ : Ptr) (gcw : Int) (u_ flux0_ : Ptr) : Cmd T :=
  let u := cell1d u_ lo0 hi0 gcw
  let b0 := face1d b0_ lo0 hi0 0
  let flux0 := face1d flux0_ lo0 hi0 0
  doLoop lo0 (hi0 + 1) fun ie0 => assign flux0 [ie0] (b0.el [ie0] * (u.el [ie0] - u.el [ie0 - 1]) / .const (dx 0))

/-- `cellpoissonflux1d` (m4/celldiffusionflux1d.m4:63-86) -/
def cellpoissonflux1d (lo0 hi0 : Int) (dx : Nat → T) (gcw : Int) (u_ flux0_ : Ptr) : Cmd T :=
  let u := cell1d u_ lo0 hi0 gcw
  let flux0 := face1d flux0_ lo0 hi0 0
  doLoop lo0 (hi0 + 1) fun ie0 => assign flux0 [ie0] ((u.el [ie0] - u.el [ie0 - 1]) / .const (dx 0))

/-- `celldiffusionflux2d` (m4/celldiffusionflux2d.m4:35-73) -/
def celldiffusionflux2d (lo0 lo1 hi0 hi1 : Int) (dx : Nat → T) (b0_ b1_ : Ptr) (gcw : Int) (u_ flux0_ flux1_ : Ptr) : Cmd T :=
  let u := cell2d u_ lo0 lo1 hi0 hi1 gcw
  let b0 := face2d0 b0_ lo0 lo1 hi0 hi1 0
  let b1 := face2d1 b1_ lo0 lo1 hi0 hi1 0
  let flux0 := face2d0 flux0_ lo0 lo1 hi0 hi1 0
  let flux1 := face2d1 flux1_ lo0 lo1 hi0 hi1 0
  block [
    doLoop lo1 hi1 fun ic1 => doLoop lo0 (hi0 + 1) fun ie0 =>
      assign flux0 [ie0, ic1] (b0.el [ie0, ic1] * (u.el [ie0, ic1] - u.el [ie0 - 1, ic1]) / .const (dx 0)),
    doLoop lo0 hi0 fun ic0 => doLoop lo1 (hi1 + 1) fun ie1 =>
      assign flux1 [ie1, ic0] (b1.el [ie1, ic0] * (u.el [ic0, ie1] - u.el [ic0, ie1 - 1]) / .const (dx 1))]

/-- `cellpoissonflux2d` (m4/celldiffusionflux2d.m4:75-109) -/
def cellpoissonflux2d (lo0 lo1 hi0 hi1 : Int) (dx : Nat → T) (gcw : Int) (u_ flux0_ flux1_ : Ptr) : Cmd T :=
  let u := cell2d u_ lo0 lo1 hi0 hi1 gcw
  let flux0 := face2d0 flux0_ lo0 lo1 hi0 hi1 0
  let flux1 := face2d1 flux1_ lo0 lo1 hi0 hi1 0
  block [
    doLoop lo0 (hi0 + 1) fun ie0 => doLoop lo1 hi1 fun ic1 =>
      assign flux0 [ie0, ic1] ((u.el [ie0, ic1] - u.el [ie0 - 1, ic1]) / .const (dx 0)),
    doLoop lo1 (hi1 + 1) fun ie1 => doLoop lo0 hi0 fun ic0 =>
      assign flux1 [ie1, ic0] ((u.el [ic0, ie1] - u.el [ic0, ie1 - 1]) / .const (dx 1))]

/-- `celldiffusionflux3d` (m4/celldiffusionflux3d.m4:36-89) -/
def celldiffusionflux3d (lo0 lo1 lo2 hi0 hi1 hi2 : Int) (dx : Nat → T) (b0_ b1_ b2_ : Ptr) (gcw : Int) (u_ flux0_ flux1_ flux2_ : Ptr) :
    Cmd T :=
  let u := cell3d u_ lo0 lo1 lo2 hi0 hi1 hi2 gcw
  let b0 := face3d0 b0_ lo0 lo1 lo2 hi0 hi1 hi2 0
  let b1 := face3d1 b1_ lo0 lo1 lo2 hi0 hi1 hi2 0
  let b2 := face3d2 b2_ lo0 lo1 lo2 hi0 hi1 hi2 0
  let flux0 := face3d0 flux0_ lo0 lo1 lo2 hi0 hi1 hi2 0
  let flux1 := face3d1 flux1_ lo0 lo1 lo2 hi0 hi1 hi2 0
  let flux2 := face3d2 flux2_ lo0 lo1 lo2 hi0 hi1 hi2 0
  block [
    doLoop lo2 hi2 fun k => doLoop lo1 hi1 fun j => doLoop lo0 (hi0 + 1) fun i =>
      assign flux0 [i, j, k] (b0.el [i, j, k] * (u.el [i, j, k] - u.el [i - 1, j, k]) / .const (dx 0)),
    doLoop lo0 hi0 fun i => doLoop lo2 hi2 fun k => doLoop lo1 (hi1 + 1) fun j =>
      assign flux1 [j, k, i] (b1.el [j, k, i] * (u.el [i, j, k] - u.el [i, j - 1, k]) / .const (dx 1)),
    doLoop lo1 hi1 fun j => doLoop lo0 hi0 fun i => doLoop lo2 (hi2 + 1) fun k =>
      assign flux2 [k, i, j] (b2.el [k, i, j] * (u.el [i, j, k] - u.el [i, j, k - 1]) / .const (dx 2))]

/-- `cellpoissonflux3d` (m4/celldiffusionflux3d.m4:91-139) -/
def cellpoissonflux3d (lo0 lo1 lo2 hi0 hi1 hi2 : Int) (dx : Nat → T) (gcw : Int) (u_ flux0_ flux1_ flux2_ : Ptr) : Cmd T :=
  let u := cell3d u_ lo0 lo1 lo2 hi0 hi1 hi2 gcw
  let flux0 := face3d0 flux0_ lo0 lo1 lo2 hi0 hi1 hi2 0
  let flux1 := face3d1 flux1_ lo0 lo1 lo2 hi0 hi1 hi2 0
  let flux2 := face3d2 flux2_ lo0 lo1 lo2 hi0 hi1 hi2 0
  block [
    doLoop lo2 hi2 fun k => doLoop lo1 hi1 fun j => doLoop lo0 (hi0 + 1) fun i =>
      assign flux0 [i, j, k] ((u.el [i, j, k] - u.el [i - 1, j, k]) / .const (dx 0)),
    doLoop lo0 hi0 fun i => doLoop lo2 hi2 fun k => doLoop lo1 (hi1 + 1) fun j =>
      assign flux1 [j, k, i] ((u.el [i, j, k] - u.el [i, j - 1, k]) / .const (dx 1)),
    doLoop lo1 hi1 fun j => doLoop lo0 hi0 fun i => doLoop lo2 (hi2 + 1) fun k =>
      assign flux2 [k, i, j] ((u.el [i, j, k] - u.el [i, j, k - 1]) / .const (dx 2))]

end Verif.F
