import Verif.Lemmas.Rename
import Verif.Spec.Kernels.CoarseFine

/-
The Fortran routines of the coarse to fine tests do not care about the numbers of the blocks their arrays lie in.
-/

namespace Verif.F

variable {T : Type} [Add T] [Sub T] [Mul T] [Div T] [Neg T] {s : Nat → Nat}

theorem ren_copycoarsetofine3d (hs : ∀ k, s (s k) = k) {clo0 _chi0 clo1 _chi1 clo2 _chi2 flo0 fhi0 flo1 fhi1 flo2 fhi2 axis cblo0 cbhi0 cblo1 cbhi1
    cblo2 cbhi2 fblo0 fbhi0 fblo1 fbhi1 fblo2 fbhi2 gcw : Int} {ratio : Nat → Int} {cdata_ fdata_ : Ptr} : Ren s (copycoarsetofine3d (T := T) clo0
    _chi0 clo1 _chi1 clo2 _chi2 flo0 fhi0 flo1 fhi1 flo2 fhi2 axis cblo0 cbhi0 cblo1 cbhi1 cblo2 cbhi2 fblo0 fbhi0 fblo1 fbhi1 fblo2 fbhi2 gcw ratio
    cdata_ fdata_) (copycoarsetofine3d clo0 _chi0 clo1 _chi1 clo2 _chi2 flo0 fhi0 flo1 fhi1 flo2 fhi2 axis cblo0 cbhi0 cblo1 cbhi1 cblo2 cbhi2 fblo0
    fbhi0 fblo1 fbhi1 fblo2 fbhi2 gcw ratio (cdata_.ren s) (fdata_.ren s)) := by
  unfold copycoarsetofine3d
  renames hs

theorem ren_copycoarsetofinecorner3d (hs : ∀ k, s (s k) = k) {clo0 _chi0 clo1 _chi1 clo2 _chi2 flo0 _fhi0 flo1 _fhi1 flo2 _fhi2 cblo0 cbhi0 cblo1
    cbhi1 cblo2 cbhi2 fblo0 fbhi0 fblo1 fbhi1 fblo2 fbhi2 gcw : Int} {cdata_ fdata_ : Ptr} : Ren s (copycoarsetofinecorner3d (T := T) clo0 _chi0
    clo1 _chi1 clo2 _chi2 flo0 _fhi0 flo1 _fhi1 flo2 _fhi2 cblo0 cbhi0 cblo1 cbhi1 cblo2 cbhi2 fblo0 fbhi0 fblo1 fbhi1 fblo2 fbhi2 gcw cdata_
    fdata_) (copycoarsetofinecorner3d clo0 _chi0 clo1 _chi1 clo2 _chi2 flo0 _fhi0 flo1 _fhi1 flo2 _fhi2 cblo0 cbhi0 cblo1 cbhi1 cblo2 cbhi2 fblo0
    fbhi0 fblo1 fbhi1 fblo2 fbhi2 gcw (cdata_.ren s) (fdata_.ren s)) := by
  unfold copycoarsetofinecorner3d
  renames hs

end Verif.F
