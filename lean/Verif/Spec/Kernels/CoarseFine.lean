import Verif.Spec.Fortran

/-
The Fortran copies from a coarse to a fine level: m4/copycoarsetofine.m4.  Fortran integer division truncates.
-/

namespace Verif.F

variable {T : Type} [Add T] [Sub T] [Mul T] [Div T] [Neg T]

/-- `if(fi.lt.0) then ci = (fi+1)/ratio-1 else ci = fi/ratio` (m4/copycoarsetofine.m4:89-93) -/
def coarse (fi ratio : Int) : Int := if fi < 0 then (fi + 1).tdiv ratio - 1 else fi.tdiv ratio

/-- `copycoarsetofine3d` (m4/copycoarsetofine.m4:28-146) -/
def copycoarsetofine3d (clo0 _chi0 clo1 _chi1 clo2 _chi2 flo0 fhi0 flo1 fhi1 flo2 fhi2 axis cblo0 cbhi0 cblo1 cbhi1 cblo2 cbhi2
    fblo0 fbhi0 fblo1 fbhi1 fblo2 fbhi2 gcw : Int) (ratio : Nat → Int) (cdata_ fdata_ : Ptr) : Cmd T :=
  let cdata := cell3d cdata_ cblo0 cblo1 cblo2 cbhi0 cbhi1 cbhi2 gcw
  let fdata := cell3d fdata_ fblo0 fblo1 fblo2 fbhi0 fbhi1 fbhi2 gcw
  if axis = 0 then
    doLoop flo0 fhi0 fun fi => assign fdata [fi, flo1, flo2] (cdata.el [coarse fi (ratio 0), clo1, clo2])
  else if axis = 1 then
    doLoop flo1 fhi1 fun fj => assign fdata [flo0, fj, flo2] (cdata.el [clo0, coarse fj (ratio 1), clo2])
  else if axis = 2 then
    doLoop flo2 fhi2 fun fk => assign fdata [flo0, flo1, fk] (cdata.el [clo0, clo1, coarse fk (ratio 2)])
  else skip

/-- `copycoarsetofinecorner3d` (m4/copycoarsetofine.m4:148-187) -/
def copycoarsetofinecorner3d (clo0 _chi0 clo1 _chi1 clo2 _chi2 flo0 _fhi0 flo1 _fhi1 flo2 _fhi2 cblo0 cbhi0 cblo1 cbhi1 cblo2 cbhi2
    fblo0 fbhi0 fblo1 fbhi1 fblo2 fbhi2 gcw : Int) (cdata_ fdata_ : Ptr) : Cmd T :=
  let cdata := cell3d cdata_ cblo0 cblo1 cblo2 cbhi0 cbhi1 cbhi2 gcw
  let fdata := cell3d fdata_ fblo0 fblo1 fblo2 fbhi0 fbhi1 fbhi2 gcw
  assign fdata [flo0, flo1, flo2] (cdata.el [clo0, clo1, clo2])

end Verif.F
