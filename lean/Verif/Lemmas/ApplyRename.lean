import Verif.Lemmas.Rename
import Verif.Spec.Kernels.Apply

/-
The Fortran routines of the residual and operator tests do not care about the numbers of the blocks their arrays lie in.
-/

namespace Verif.F

variable {T : Type} [Add T] [Sub T] [Mul T] [Div T] [Neg T] {s : Nat → Nat}

theorem ren_celldiffusionv1res1d (hs : ∀ k, s (s k) = k) {lo0 hi0 : Int} {alpha beta : T} {dx : Nat → T} {agcw : Int} {acoef_ : Ptr} {ugcw : Int}
    {u_ : Ptr} {fgcw : Int} {f_ flux0_ : Ptr} {rgcw : Int} {res_ : Ptr} : Ren s
    (celldiffusionv1res1d (T := T) lo0 hi0 alpha beta dx agcw acoef_ ugcw u_ fgcw f_ flux0_ rgcw res_)
    (celldiffusionv1res1d lo0 hi0 alpha beta dx agcw (acoef_.ren s) ugcw (u_.ren s) fgcw (f_.ren s) (flux0_.ren s) rgcw (res_.ren s)) := by
  unfold celldiffusionv1res1d
  renames hs

theorem ren_celldiffusionv2res1d (hs : ∀ k, s (s k) = k) {lo0 hi0 : Int} {alpha beta : T} {dx : Nat → T} {ugcw : Int} {u_ : Ptr} {fgcw : Int}
    {f_ flux0_ : Ptr} {rgcw : Int} {res_ : Ptr} : Ren s (celldiffusionv2res1d (T := T) lo0 hi0 alpha beta dx ugcw u_ fgcw f_ flux0_ rgcw res_)
    (celldiffusionv2res1d lo0 hi0 alpha beta dx ugcw (u_.ren s) fgcw (f_.ren s) (flux0_.ren s) rgcw (res_.ren s)) := by
  unfold celldiffusionv2res1d
  renames hs

theorem ren_cellpoissonv1res1d (hs : ∀ k, s (s k) = k) {lo0 hi0 : Int} {beta : T} {dx : Nat → T} {fgcw : Int} {f_ flux0_ : Ptr} {rgcw : Int}
    {res_ : Ptr} : Ren s (cellpoissonv1res1d (T := T) lo0 hi0 beta dx fgcw f_ flux0_ rgcw res_)
    (cellpoissonv1res1d lo0 hi0 beta dx fgcw (f_.ren s) (flux0_.ren s) rgcw (res_.ren s)) := by
  unfold cellpoissonv1res1d
  renames hs

theorem ren_celldiffusionv1apply1d (hs : ∀ k, s (s k) = k) {lo0 hi0 : Int} {alpha beta : T} {dx : Nat → T} {agcw : Int} {acoef_ : Ptr} {ugcw : Int}
    {u_ flux0_ : Ptr} {rgcw : Int} {res_ : Ptr} : Ren s (celldiffusionv1apply1d (T := T) lo0 hi0 alpha beta dx agcw acoef_ ugcw u_ flux0_ rgcw res_)
    (celldiffusionv1apply1d lo0 hi0 alpha beta dx agcw (acoef_.ren s) ugcw (u_.ren s) (flux0_.ren s) rgcw (res_.ren s)) := by
  unfold celldiffusionv1apply1d
  renames hs

theorem ren_celldiffusionv2apply1d (hs : ∀ k, s (s k) = k) {lo0 hi0 : Int} {alpha beta : T} {dx : Nat → T} {ugcw : Int} {u_ flux0_ : Ptr}
    {rgcw : Int} {res_ : Ptr} : Ren s (celldiffusionv2apply1d (T := T) lo0 hi0 alpha beta dx ugcw u_ flux0_ rgcw res_)
    (celldiffusionv2apply1d lo0 hi0 alpha beta dx ugcw (u_.ren s) (flux0_.ren s) rgcw (res_.ren s)) := by
  unfold celldiffusionv2apply1d
  renames hs

theorem ren_cellpoissonv2apply1d (hs : ∀ k, s (s k) = k) {lo0 hi0 : Int} {beta : T} {dx : Nat → T} {flux0_ : Ptr} {rgcw : Int} {res_ : Ptr} : Ren s
    (cellpoissonv2apply1d (T := T) lo0 hi0 beta dx flux0_ rgcw res_) (cellpoissonv2apply1d lo0 hi0 beta dx (flux0_.ren s) rgcw (res_.ren s)) := by
  unfold cellpoissonv2apply1d
  renames hs

theorem ren_celldiffusionv1res2d (hs : ∀ k, s (s k) = k) {lo0 hi0 lo1 hi1 : Int} {alpha beta : T} {dx : Nat → T} {agcw : Int} {acoef_ : Ptr}
    {ugcw : Int} {u_ : Ptr} {fgcw : Int} {f_ flux0_ flux1_ : Ptr} {rgcw : Int} {res_ : Ptr} : Ren s
    (celldiffusionv1res2d (T := T) lo0 hi0 lo1 hi1 alpha beta dx agcw acoef_ ugcw u_ fgcw f_ flux0_ flux1_ rgcw res_) (celldiffusionv1res2d lo0 hi0
    lo1 hi1 alpha beta dx agcw (acoef_.ren s) ugcw (u_.ren s) fgcw (f_.ren s) (flux0_.ren s) (flux1_.ren s) rgcw (res_.ren s)) := by
  unfold celldiffusionv1res2d
  renames hs

theorem ren_celldiffusionv2res2d (hs : ∀ k, s (s k) = k) {lo0 hi0 lo1 hi1 : Int} {alpha beta : T} {dx : Nat → T} {ugcw : Int} {u_ : Ptr}
    {fgcw : Int} {f_ flux0_ flux1_ : Ptr} {rgcw : Int} {res_ : Ptr} : Ren s
    (celldiffusionv2res2d (T := T) lo0 hi0 lo1 hi1 alpha beta dx ugcw u_ fgcw f_ flux0_ flux1_ rgcw res_)
    (celldiffusionv2res2d lo0 hi0 lo1 hi1 alpha beta dx ugcw (u_.ren s) fgcw (f_.ren s) (flux0_.ren s) (flux1_.ren s) rgcw (res_.ren s)) := by
  unfold celldiffusionv2res2d
  renames hs

theorem ren_cellpoissonv1res2d (hs : ∀ k, s (s k) = k) {lo0 hi0 lo1 hi1 : Int} {beta : T} {dx : Nat → T} {fgcw : Int} {f_ flux0_ flux1_ : Ptr}
    {rgcw : Int} {res_ : Ptr} : Ren s (cellpoissonv1res2d (T := T) lo0 hi0 lo1 hi1 beta dx fgcw f_ flux0_ flux1_ rgcw res_)
    (cellpoissonv1res2d lo0 hi0 lo1 hi1 beta dx fgcw (f_.ren s) (flux0_.ren s) (flux1_.ren s) rgcw (res_.ren s)) := by
  unfold cellpoissonv1res2d
  renames hs

theorem ren_celldiffusionv1apply2d (hs : ∀ k, s (s k) = k) {lo0 hi0 lo1 hi1 : Int} {alpha beta : T} {dx : Nat → T} {agcw : Int} {acoef_ : Ptr}
    {ugcw : Int} {u_ flux0_ flux1_ : Ptr} {rgcw : Int} {res_ : Ptr} : Ren s
    (celldiffusionv1apply2d (T := T) lo0 hi0 lo1 hi1 alpha beta dx agcw acoef_ ugcw u_ flux0_ flux1_ rgcw res_)
    (celldiffusionv1apply2d lo0 hi0 lo1 hi1 alpha beta dx agcw (acoef_.ren s) ugcw (u_.ren s) (flux0_.ren s) (flux1_.ren s) rgcw (res_.ren s)) := by
  unfold celldiffusionv1apply2d
  renames hs

theorem ren_celldiffusionv2apply2d (hs : ∀ k, s (s k) = k) {lo0 hi0 lo1 hi1 : Int} {alpha beta : T} {dx : Nat → T} {ugcw : Int}
    {u_ flux0_ flux1_ : Ptr} {rgcw : Int} {res_ : Ptr} : Ren s
    (celldiffusionv2apply2d (T := T) lo0 hi0 lo1 hi1 alpha beta dx ugcw u_ flux0_ flux1_ rgcw res_)
    (celldiffusionv2apply2d lo0 hi0 lo1 hi1 alpha beta dx ugcw (u_.ren s) (flux0_.ren s) (flux1_.ren s) rgcw (res_.ren s)) := by
  unfold celldiffusionv2apply2d
  renames hs

theorem ren_cellpoissonv2apply2d (hs : ∀ k, s (s k) = k) {lo0 hi0 lo1 hi1 : Int} {beta : T} {dx : Nat → T} {flux0_ flux1_ : Ptr} {rgcw : Int}
    {res_ : Ptr} : Ren s (cellpoissonv2apply2d (T := T) lo0 hi0 lo1 hi1 beta dx flux0_ flux1_ rgcw res_)
    (cellpoissonv2apply2d lo0 hi0 lo1 hi1 beta dx (flux0_.ren s) (flux1_.ren s) rgcw (res_.ren s)) := by
  unfold cellpoissonv2apply2d
  renames hs

theorem ren_celldiffusionv1res3d (hs : ∀ k, s (s k) = k) {lo0 hi0 lo1 hi1 lo2 hi2 : Int} {alpha beta : T} {dx : Nat → T} {agcw : Int} {acoef_ : Ptr}
    {ugcw : Int} {u_ : Ptr} {fgcw : Int} {f_ flux0_ flux1_ flux2_ : Ptr} {rgcw : Int} {res_ : Ptr} : Ren s
    (celldiffusionv1res3d (T := T) lo0 hi0 lo1 hi1 lo2 hi2 alpha beta dx agcw acoef_ ugcw u_ fgcw f_ flux0_ flux1_ flux2_ rgcw res_)
    (celldiffusionv1res3d lo0 hi0 lo1 hi1 lo2 hi2 alpha beta dx agcw (acoef_.ren s) ugcw (u_.ren s) fgcw (f_.ren s) (flux0_.ren s) (flux1_.ren s)
    (flux2_.ren s) rgcw (res_.ren s)) := by
  unfold celldiffusionv1res3d
  renames hs

theorem ren_celldiffusionv2res3d (hs : ∀ k, s (s k) = k) {lo0 hi0 lo1 hi1 lo2 hi2 : Int} {alpha beta : T} {dx : Nat → T} {ugcw : Int} {u_ : Ptr}
    {fgcw : Int} {f_ flux0_ flux1_ flux2_ : Ptr} {rgcw : Int} {res_ : Ptr} : Ren s
    (celldiffusionv2res3d (T := T) lo0 hi0 lo1 hi1 lo2 hi2 alpha beta dx ugcw u_ fgcw f_ flux0_ flux1_ flux2_ rgcw res_) (celldiffusionv2res3d lo0
    hi0 lo1 hi1 lo2 hi2 alpha beta dx ugcw (u_.ren s) fgcw (f_.ren s) (flux0_.ren s) (flux1_.ren s) (flux2_.ren s) rgcw (res_.ren s)) := by
  unfold celldiffusionv2res3d
  renames hs

theorem ren_cellpoissonv1res3d (hs : ∀ k, s (s k) = k) {lo0 hi0 lo1 hi1 lo2 hi2 : Int} {beta : T} {dx : Nat → T} {fgcw : Int}
    {f_ flux0_ flux1_ flux2_ : Ptr} {rgcw : Int} {res_ : Ptr} : Ren s
    (cellpoissonv1res3d (T := T) lo0 hi0 lo1 hi1 lo2 hi2 beta dx fgcw f_ flux0_ flux1_ flux2_ rgcw res_)
    (cellpoissonv1res3d lo0 hi0 lo1 hi1 lo2 hi2 beta dx fgcw (f_.ren s) (flux0_.ren s) (flux1_.ren s) (flux2_.ren s) rgcw (res_.ren s)) := by
  unfold cellpoissonv1res3d
  renames hs

theorem ren_celldiffusionv1apply3d (hs : ∀ k, s (s k) = k) {lo0 hi0 lo1 hi1 lo2 hi2 : Int} {alpha beta : T} {dx : Nat → T} {agcw : Int}
    {acoef_ : Ptr} {ugcw : Int} {u_ flux0_ flux1_ flux2_ : Ptr} {rgcw : Int} {res_ : Ptr} : Ren s
    (celldiffusionv1apply3d (T := T) lo0 hi0 lo1 hi1 lo2 hi2 alpha beta dx agcw acoef_ ugcw u_ flux0_ flux1_ flux2_ rgcw res_)
    (celldiffusionv1apply3d lo0 hi0 lo1 hi1 lo2 hi2 alpha beta dx agcw (acoef_.ren s) ugcw (u_.ren s) (flux0_.ren s) (flux1_.ren s) (flux2_.ren s)
    rgcw (res_.ren s)) := by
  unfold celldiffusionv1apply3d
  renames hs

theorem ren_celldiffusionv2apply3d (hs : ∀ k, s (s k) = k) {lo0 hi0 lo1 hi1 lo2 hi2 : Int} {alpha beta : T} {dx : Nat → T} {ugcw : Int}
    {u_ flux0_ flux1_ flux2_ : Ptr} {rgcw : Int} {res_ : Ptr} : Ren s
    (celldiffusionv2apply3d (T := T) lo0 hi0 lo1 hi1 lo2 hi2 alpha beta dx ugcw u_ flux0_ flux1_ flux2_ rgcw res_)
    (celldiffusionv2apply3d lo0 hi0 lo1 hi1 lo2 hi2 alpha beta dx ugcw (u_.ren s) (flux0_.ren s) (flux1_.ren s) (flux2_.ren s) rgcw (res_.ren s)) :=
    by
  unfold celldiffusionv2apply3d
  renames hs

theorem ren_cellpoissonv2apply3d (hs : ∀ k, s (s k) = k) {lo0 hi0 lo1 hi1 lo2 hi2 : Int} {beta : T} {dx : Nat → T} {flux0_ flux1_ flux2_ : Ptr}
    {rgcw : Int} {res_ : Ptr} : Ren s (cellpoissonv2apply3d (T := T) lo0 hi0 lo1 hi1 lo2 hi2 beta dx flux0_ flux1_ flux2_ rgcw res_)
    (cellpoissonv2apply3d lo0 hi0 lo1 hi1 lo2 hi2 beta dx (flux0_.ren s) (flux1_.ren s) (flux2_.ren s) rgcw (res_.ren s)) := by
  unfold cellpoissonv2apply3d
  renames hs

end Verif.F
