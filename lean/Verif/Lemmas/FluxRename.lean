import Verif.Lemmas.Rename
import Verif.Spec.Kernels.Flux

/-
The Fortran routines of the flux tests do not care about the numbers of the blocks their arrays lie in.
-/

namespace Verif.F

variable {T : Type} [Add T] [Sub T] [Mul T] [Div T] [Neg T] {s : Nat → Nat}

theorem ren_celldiffusionflux1d (hs : ∀ k, s (s k) = k) {lo0 hi0 : Int} {dx : Nat → T} {b0_ : Ptr} {gcw : Int} {u_ flux0_ : Ptr} : Ren s
    (celldiffusionflux1d (T := T) lo0 hi0 dx b0_ gcw u_ flux0_) (celldiffusionflux1d lo0 hi0 dx (b0_.ren s) gcw (u_.ren s) (flux0_.ren s)) := by
  unfold celldiffusionflux1d
  renames hs

theorem ren_cellpoissonflux1d (hs : ∀ k, s (s k) = k) {lo0 hi0 : Int} {dx : Nat → T} {gcw : Int} {u_ flux0_ : Ptr} : Ren s
    (cellpoissonflux1d (T := T) lo0 hi0 dx gcw u_ flux0_) (cellpoissonflux1d lo0 hi0 dx gcw (u_.ren s) (flux0_.ren s)) := by
  unfold cellpoissonflux1d
  renames hs

theorem ren_celldiffusionflux2d (hs : ∀ k, s (s k) = k) {lo0 lo1 hi0 hi1 : Int} {dx : Nat → T} {b0_ b1_ : Ptr} {gcw : Int} {u_ flux0_ flux1_ : Ptr}
    : Ren s (celldiffusionflux2d (T := T) lo0 lo1 hi0 hi1 dx b0_ b1_ gcw u_ flux0_ flux1_)
    (celldiffusionflux2d lo0 lo1 hi0 hi1 dx (b0_.ren s) (b1_.ren s) gcw (u_.ren s) (flux0_.ren s) (flux1_.ren s)) := by
  unfold celldiffusionflux2d
  renames hs

theorem ren_cellpoissonflux2d (hs : ∀ k, s (s k) = k) {lo0 lo1 hi0 hi1 : Int} {dx : Nat → T} {gcw : Int} {u_ flux0_ flux1_ : Ptr} : Ren s
    (cellpoissonflux2d (T := T) lo0 lo1 hi0 hi1 dx gcw u_ flux0_ flux1_)
    (cellpoissonflux2d lo0 lo1 hi0 hi1 dx gcw (u_.ren s) (flux0_.ren s) (flux1_.ren s)) := by
  unfold cellpoissonflux2d
  renames hs

theorem ren_celldiffusionflux3d (hs : ∀ k, s (s k) = k) {lo0 lo1 lo2 hi0 hi1 hi2 : Int} {dx : Nat → T} {b0_ b1_ b2_ : Ptr} {gcw : Int}
    {u_ flux0_ flux1_ flux2_ : Ptr} : Ren s (celldiffusionflux3d (T := T) lo0 lo1 lo2 hi0 hi1 hi2 dx b0_ b1_ b2_ gcw u_ flux0_ flux1_ flux2_)
    (celldiffusionflux3d lo0 lo1 lo2 hi0 hi1 hi2 dx (b0_.ren s) (b1_.ren s) (b2_.ren s) gcw (u_.ren s) (flux0_.ren s) (flux1_.ren s) (flux2_.ren s))
    := by
  unfold celldiffusionflux3d
  renames hs

theorem ren_cellpoissonflux3d (hs : ∀ k, s (s k) = k) {lo0 lo1 lo2 hi0 hi1 hi2 : Int} {dx : Nat → T} {gcw : Int} {u_ flux0_ flux1_ flux2_ : Ptr} :
    Ren s (cellpoissonflux3d (T := T) lo0 lo1 lo2 hi0 hi1 hi2 dx gcw u_ flux0_ flux1_ flux2_)
    (cellpoissonflux3d lo0 lo1 lo2 hi0 hi1 hi2 dx gcw (u_.ren s) (flux0_.ren s) (flux1_.ren s) (flux2_.ren s)) := by
  unfold cellpoissonflux3d
  renames hs

end Verif.F
