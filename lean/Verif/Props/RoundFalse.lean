import Verif.Props.RoundAdjust
import Verif.Props.Bc

/-
C49: where rounding tells the stencil adjustments and the boundary condition kernels from their Fortran routines.
-/

namespace Verif
open Spec

/-- `adjDiag1d` divides the coefficient by the mesh width before it multiplies by the face value, `adjcelldiffusiondiag1d` after at boundary type 4 and order 2: in 53 bit arithmetic the results differ. -/
theorem C49_adj_diag_1d_type4_false : ∃ (dx : Nat → B64) (beta : B64) (b0_ st_ : Ptr) (m : Mem B64), F.Args m [F.face1d b0_ 0 0 0] [F.st1d st_ 0 0 1] ∧
    ∃ m1 m2, Cuda.adjDiag1d 0 0 1 1 1 4 2 dx beta b0_ 1 st_ seqBackend m = .ok m1 ∧
      F.adjcelldiffusiondiag1d 0 0 1 1 1 4 2 dx beta b0_ 1 st_ m = .ok m2 ∧ m1 ≠ m2 :=
  ⟨fun _ => 3, 1, ⟨0, 0⟩, ⟨3, 0⟩, (wB fun b _ => if b < 3 then 7 else 0), by w_args,
    differ_ne (q := ⟨3, 3⟩) (by decide +kernel)⟩

/-- `adjCfDiag1d` divides before it multiplies by the face value, `adjcelldiffusioncfdiag1d` after at order 1: in 53 bit arithmetic the results differ. -/
theorem C49_adj_cf_diag_1d_order1_false : ∃ (dx : Nat → B64) (beta : B64) (b0_ st_ : Ptr) (m : Mem B64), F.Args m [F.face1d b0_ 0 0 0] [F.st1d st_ 0 0 1] ∧
    ∃ m1 m2, Cuda.adjCfDiag1d 0 0 1 1 2 1 1 dx beta b0_ 1 st_ seqBackend m = .ok m1 ∧
      F.adjcelldiffusioncfdiag1d 0 0 1 1 2 1 1 dx beta b0_ 1 st_ m = .ok m2 ∧ m1 ≠ m2 :=
  ⟨fun _ => 1, 1, ⟨0, 0⟩, ⟨3, 0⟩, (wB fun b _ => if b < 3 then 7 else 0), by w_args,
    differ_ne (q := ⟨3, 3⟩) (by decide +kernel)⟩

/-- `adjCfDiag1d` divides before it multiplies by the face value, `adjcelldiffusioncfdiag1d` after at order 2: in 53 bit arithmetic the results differ. -/
theorem C49_adj_cf_diag_1d_order2_false : ∃ (dx : Nat → B64) (beta : B64) (b0_ st_ : Ptr) (m : Mem B64), F.Args m [F.face1d b0_ 0 0 0] [F.st1d st_ 0 0 1] ∧
    ∃ m1 m2, Cuda.adjCfDiag1d 0 0 1 1 4 1 2 dx beta b0_ 1 st_ seqBackend m = .ok m1 ∧
      F.adjcelldiffusioncfdiag1d 0 0 1 1 4 1 2 dx beta b0_ 1 st_ m = .ok m2 ∧ m1 ≠ m2 :=
  ⟨fun _ => 3, 1, ⟨0, 0⟩, ⟨3, 0⟩, (wB fun b _ => if b < 3 then 3 else 0), by w_args,
    differ_ne (q := ⟨3, 3⟩) (by decide +kernel)⟩

/-- `adjPoissonCfDiag1d` divides by `h * h` and then by 3, `adjcellpoissoncfdiag1d` by `3 * h**2` at order 1: in 53 bit arithmetic the results differ. -/
theorem C49_adj_poisson_cf_diag_1d_order1_false : ∃ (dx : Nat → B64) (beta : B64) (st_ : Ptr) (m : Mem B64), F.Args m [] [F.st1d st_ 0 0 1] ∧
    ∃ m1 m2, Cuda.adjPoissonCfDiag1d 0 0 1 1 2 1 1 dx beta 1 st_ seqBackend m = .ok m1 ∧
      F.adjcellpoissoncfdiag1d 0 0 1 1 2 1 1 dx beta 1 st_ m = .ok m2 ∧ m1 ≠ m2 :=
  ⟨fun _ => 3, 11, ⟨3, 0⟩, (wB fun _ _ => 0), by w_args,
    differ_ne (q := ⟨3, 3⟩) (by decide +kernel)⟩

/-- `adjPoissonCfDiag1d` multiplies by the interpolation weight after the division, `adjcellpoissoncfdiag1d` before at order 2: in 53 bit arithmetic the results differ. -/
theorem C49_adj_poisson_cf_diag_1d_order2_false : ∃ (dx : Nat → B64) (beta : B64) (st_ : Ptr) (m : Mem B64), F.Args m [] [F.st1d st_ 0 0 1] ∧
    ∃ m1 m2, Cuda.adjPoissonCfDiag1d 0 0 1 1 8 1 2 dx beta 1 st_ seqBackend m = .ok m1 ∧
      F.adjcellpoissoncfdiag1d 0 0 1 1 8 1 2 dx beta 1 st_ m = .ok m2 ∧ m1 ≠ m2 :=
  ⟨fun _ => 3, 3, ⟨3, 0⟩, (wB fun _ _ => 0), by w_args,
    differ_ne (q := ⟨3, 3⟩) (by decide +kernel)⟩

/-- `adjCfOffdiag1d` multiplies by a quotient, `adjcelldiffusioncfoffdiag1d` multiplies and then divides at order 1: in 53 bit arithmetic the results differ. -/
theorem C49_adj_cf_offdiag_1d_order1_false : ∃ (st_ : Ptr) (m : Mem B64), F.Args m [] [F.st1d st_ 0 0 1] ∧
    ∃ m1 m2, Cuda.adjCfOffdiag1d 0 0 1 1 2 1 1 1 st_ seqBackend m = .ok m1 ∧
      F.adjcelldiffusioncfoffdiag1d 0 0 1 1 2 1 1 1 st_ m = .ok m2 ∧ m1 ≠ m2 :=
  ⟨⟨3, 0⟩, (wB fun _ _ => 5), by w_args,
    differ_ne (q := ⟨3, 5⟩) (by decide +kernel)⟩

/-- `adjCfOffdiag1d` multiplies by a quotient, `adjcelldiffusioncfoffdiag1d` multiplies and then divides at order 2: in 53 bit arithmetic the results differ. -/
theorem C49_adj_cf_offdiag_1d_order2_false : ∃ (st_ : Ptr) (m : Mem B64), F.Args m [] [F.st1d st_ 0 0 1] ∧
    ∃ m1 m2, Cuda.adjCfOffdiag1d 0 0 1 1 8 1 2 1 st_ seqBackend m = .ok m1 ∧
      F.adjcelldiffusioncfoffdiag1d 0 0 1 1 8 1 2 1 st_ m = .ok m2 ∧ m1 ≠ m2 :=
  ⟨⟨3, 0⟩, (wB fun _ _ => 5), by w_args,
    differ_ne (q := ⟨3, 5⟩) (by decide +kernel)⟩

/-- `adjOffdiag1d` multiplies by 8/3, `adjcelldiffusionoffdiag1d` multiplies by 8 and then divides by 3 at boundary type 0 and order 2: in 53 bit arithmetic the results differ. -/
theorem C49_adj_offdiag_1d_type0_false : ∃ (dx : Nat → B64) (dir_factor neu_factor beta : B64) (b0_ st_ : Ptr) (m : Mem B64), F.Args m [F.face1d b0_ 0 0 0] [F.st1d st_ 0 0 1] ∧
    ∃ m1 m2, Cuda.adjOffdiag1d 0 0 1 1 1 0 2 dx dir_factor neu_factor beta b0_ 1 st_ seqBackend m = .ok m1 ∧
      F.adjcelldiffusionoffdiag1d 0 0 1 1 1 0 2 dx dir_factor neu_factor beta b0_ 1 st_ m = .ok m2 ∧ m1 ≠ m2 :=
  ⟨fun _ => 1, 1, 1, 1, ⟨0, 0⟩, ⟨3, 0⟩, (wB fun b _ => if b < 3 then 1 else 5), by w_args,
    differ_ne (q := ⟨3, 5⟩) (by decide +kernel)⟩

/-- `adjPoissonOffdiag1d` multiplies by 8/3, `adjcellpoissonoffdiag1d` multiplies by 8 and then divides by 3 at boundary type 0 and order 2: in 53 bit arithmetic the results differ. -/
theorem C49_adj_poisson_offdiag_1d_type0_false : ∃ (dx : Nat → B64) (dir_factor neu_factor beta : B64) (st_ : Ptr) (m : Mem B64), F.Args m [] [F.st1d st_ 0 0 1] ∧
    ∃ m1 m2, Cuda.adjPoissonOffdiag1d 0 0 1 1 1 0 2 dx dir_factor neu_factor beta 1 st_ seqBackend m = .ok m1 ∧
      F.adjcellpoissonoffdiag1d 0 0 1 1 1 0 2 dx dir_factor neu_factor beta 1 st_ m = .ok m2 ∧ m1 ≠ m2 :=
  ⟨fun _ => 1, 1, 1, 1, ⟨3, 0⟩, (wB fun _ _ => 5), by w_args,
    differ_ne (q := ⟨3, 5⟩) (by decide +kernel)⟩

/-- `adjDiag2d` divides the coefficient by the mesh width before it multiplies by the face value, `adjcelldiffusiondiag2d` after at boundary type 4 and order 2: in 53 bit arithmetic the results differ. -/
theorem C49_adj_diag_2d_type4_false : ∃ (dx : Nat → B64) (beta : B64) (b0_ b1_ st_ : Ptr) (m : Mem B64), F.Args m [F.face2d0 b0_ 0 0 0 0 0, F.face2d1 b1_ 0 0 0 0 0] [F.st2d st_ 0 0 0 0 1] ∧
    ∃ m1 m2, Cuda.adjDiag2d 0 0 0 0 1 0 1 0 0 1 4 2 dx beta b0_ b1_ 1 st_ seqBackend m = .ok m1 ∧
      F.adjcelldiffusiondiag2d 0 0 0 0 1 0 1 0 0 1 4 2 dx beta b0_ b1_ 1 st_ m = .ok m2 ∧ m1 ≠ m2 :=
  ⟨fun _ => 3, 1, ⟨0, 0⟩, ⟨1, 0⟩, ⟨3, 0⟩, (wB fun b _ => if b < 3 then 7 else 0), by w_args,
    differ_ne (q := ⟨3, 20⟩) (by decide +kernel)⟩

/-- `adjDiag2d` divides before it multiplies by the face value, `adjcelldiffusiondiag2d` after at boundary type 0 and order 2: in 53 bit arithmetic the results differ. -/
theorem C49_adj_diag_2d_type0_false : ∃ (dx : Nat → B64) (beta : B64) (b0_ b1_ st_ : Ptr) (m : Mem B64), F.Args m [F.face2d0 b0_ 0 0 0 0 0, F.face2d1 b1_ 0 0 0 0 0] [F.st2d st_ 0 0 0 0 1] ∧
    ∃ m1 m2, Cuda.adjDiag2d 0 0 0 0 1 0 1 0 0 1 0 2 dx beta b0_ b1_ 1 st_ seqBackend m = .ok m1 ∧
      F.adjcelldiffusiondiag2d 0 0 0 0 1 0 1 0 0 1 0 2 dx beta b0_ b1_ 1 st_ m = .ok m2 ∧ m1 ≠ m2 :=
  ⟨fun _ => 1, 1, ⟨0, 0⟩, ⟨1, 0⟩, ⟨3, 0⟩, (wB fun b _ => if b < 3 then 7 else 0), by w_args,
    differ_ne (q := ⟨3, 25⟩) (by decide +kernel)⟩

/-- `adjCfDiag2d` divides before it multiplies by the face value, `adjcelldiffusioncfdiag2d` after at order 1: in 53 bit arithmetic the results differ. -/
theorem C49_adj_cf_diag_2d_order1_false : ∃ (dx : Nat → B64) (beta : B64) (b0_ b1_ st_ : Ptr) (m : Mem B64), F.Args m [F.face2d0 b0_ 0 0 0 0 0, F.face2d1 b1_ 0 0 0 0 0] [F.st2d st_ 0 0 0 0 1] ∧
    ∃ m1 m2, Cuda.adjCfDiag2d 0 0 0 0 1 0 1 0 2 0 1 1 dx beta b0_ b1_ 1 st_ seqBackend m = .ok m1 ∧
      F.adjcelldiffusioncfdiag2d 0 0 0 0 1 0 1 0 2 0 1 1 dx beta b0_ b1_ 1 st_ m = .ok m2 ∧ m1 ≠ m2 :=
  ⟨fun _ => 1, 1, ⟨0, 0⟩, ⟨1, 0⟩, ⟨3, 0⟩, (wB fun b _ => if b < 3 then 7 else 0), by w_args,
    differ_ne (q := ⟨3, 20⟩) (by decide +kernel)⟩

/-- `adjCfDiag2d` divides before it multiplies by the face value, `adjcelldiffusioncfdiag2d` after at order 2: in 53 bit arithmetic the results differ. -/
theorem C49_adj_cf_diag_2d_order2_false : ∃ (dx : Nat → B64) (beta : B64) (b0_ b1_ st_ : Ptr) (m : Mem B64), F.Args m [F.face2d0 b0_ 0 0 0 0 0, F.face2d1 b1_ 0 0 0 0 0] [F.st2d st_ 0 0 0 0 1] ∧
    ∃ m1 m2, Cuda.adjCfDiag2d 0 0 0 0 1 0 1 0 4 0 1 2 dx beta b0_ b1_ 1 st_ seqBackend m = .ok m1 ∧
      F.adjcelldiffusioncfdiag2d 0 0 0 0 1 0 1 0 4 0 1 2 dx beta b0_ b1_ 1 st_ m = .ok m2 ∧ m1 ≠ m2 :=
  ⟨fun _ => 3, 1, ⟨0, 0⟩, ⟨1, 0⟩, ⟨3, 0⟩, (wB fun b _ => if b < 3 then 3 else 0), by w_args,
    differ_ne (q := ⟨3, 20⟩) (by decide +kernel)⟩

/-- `adjPoissonCfDiag2d` divides by `h * h` and then by 3, `adjcellpoissoncfdiag2d` by `3 * h**2` at order 1: in 53 bit arithmetic the results differ. -/
theorem C49_adj_poisson_cf_diag_2d_order1_false : ∃ (dx : Nat → B64) (beta : B64) (st_ : Ptr) (m : Mem B64), F.Args m [] [F.st2d st_ 0 0 0 0 1] ∧
    ∃ m1 m2, Cuda.adjPoissonCfDiag2d 0 0 0 0 1 0 1 0 2 0 1 1 dx beta 1 st_ seqBackend m = .ok m1 ∧
      F.adjcellpoissoncfdiag2d 0 0 0 0 1 0 1 0 2 0 1 1 dx beta 1 st_ m = .ok m2 ∧ m1 ≠ m2 :=
  ⟨fun _ => 3, 11, ⟨3, 0⟩, (wB fun _ _ => 0), by w_args,
    differ_ne (q := ⟨3, 20⟩) (by decide +kernel)⟩

/-- `adjPoissonCfDiag2d` multiplies by the interpolation weight after the division, `adjcellpoissoncfdiag2d` before at order 2: in 53 bit arithmetic the results differ. -/
theorem C49_adj_poisson_cf_diag_2d_order2_false : ∃ (dx : Nat → B64) (beta : B64) (st_ : Ptr) (m : Mem B64), F.Args m [] [F.st2d st_ 0 0 0 0 1] ∧
    ∃ m1 m2, Cuda.adjPoissonCfDiag2d 0 0 0 0 1 0 1 0 8 0 1 2 dx beta 1 st_ seqBackend m = .ok m1 ∧
      F.adjcellpoissoncfdiag2d 0 0 0 0 1 0 1 0 8 0 1 2 dx beta 1 st_ m = .ok m2 ∧ m1 ≠ m2 :=
  ⟨fun _ => 3, 3, ⟨3, 0⟩, (wB fun _ _ => 0), by w_args,
    differ_ne (q := ⟨3, 20⟩) (by decide +kernel)⟩

/-- `adjCfOffdiag2d` multiplies by a quotient, `adjcelldiffusioncfoffdiag2d` multiplies and then divides at order 1: in 53 bit arithmetic the results differ. -/
theorem C49_adj_cf_offdiag_2d_order1_false : ∃ (st_ : Ptr) (m : Mem B64), F.Args m [] [F.st2d st_ 0 0 0 0 1] ∧
    ∃ m1 m2, Cuda.adjCfOffdiag2d 0 0 0 0 1 0 1 0 2 0 1 1 1 st_ seqBackend m = .ok m1 ∧
      F.adjcelldiffusioncfoffdiag2d 0 0 0 0 1 0 1 0 2 0 1 1 1 st_ m = .ok m2 ∧ m1 ≠ m2 :=
  ⟨⟨3, 0⟩, (wB fun _ _ => 5), by w_args,
    differ_ne (q := ⟨3, 22⟩) (by decide +kernel)⟩

/-- `adjCfOffdiag2d` multiplies by a quotient, `adjcelldiffusioncfoffdiag2d` multiplies and then divides at order 2: in 53 bit arithmetic the results differ. -/
theorem C49_adj_cf_offdiag_2d_order2_false : ∃ (st_ : Ptr) (m : Mem B64), F.Args m [] [F.st2d st_ 0 0 0 0 1] ∧
    ∃ m1 m2, Cuda.adjCfOffdiag2d 0 0 0 0 1 0 1 0 8 0 1 2 1 st_ seqBackend m = .ok m1 ∧
      F.adjcelldiffusioncfoffdiag2d 0 0 0 0 1 0 1 0 8 0 1 2 1 st_ m = .ok m2 ∧ m1 ≠ m2 :=
  ⟨⟨3, 0⟩, (wB fun _ _ => 5), by w_args,
    differ_ne (q := ⟨3, 22⟩) (by decide +kernel)⟩

/-- `adjOffdiag2d` multiplies by 8/3, `adjcelldiffusionoffdiag2d` multiplies by 8 and then divides by 3 at boundary type 0 and order 2: in 53 bit arithmetic the results differ. -/
theorem C49_adj_offdiag_2d_type0_false : ∃ (dx : Nat → B64) (dir_factor neu_factor beta : B64) (b0_ b1_ st_ : Ptr) (m : Mem B64), F.Args m [F.face2d0 b0_ 0 0 0 0 0, F.face2d1 b1_ 0 0 0 0 0] [F.st2d st_ 0 0 0 0 1] ∧
    ∃ m1 m2, Cuda.adjOffdiag2d 0 0 0 0 1 0 1 0 0 1 0 2 dx dir_factor neu_factor beta b0_ b1_ 1 st_ seqBackend m = .ok m1 ∧
      F.adjcelldiffusionoffdiag2d 0 0 0 0 1 0 1 0 0 1 0 2 dx dir_factor neu_factor beta b0_ b1_ 1 st_ m = .ok m2 ∧ m1 ≠ m2 :=
  ⟨fun _ => 1, 1, 1, 1, ⟨0, 0⟩, ⟨1, 0⟩, ⟨3, 0⟩, (wB fun b _ => if b < 3 then 1 else 5), by w_args,
    differ_ne (q := ⟨3, 22⟩) (by decide +kernel)⟩

/-- `adjPoissonOffdiag2d` multiplies by 8/3, `adjcellpoissonoffdiag2d` multiplies by 8 and then divides by 3 at boundary type 0 and order 2: in 53 bit arithmetic the results differ. -/
theorem C49_adj_poisson_offdiag_2d_type0_false : ∃ (dx : Nat → B64) (dir_factor neu_factor beta : B64) (st_ : Ptr) (m : Mem B64), F.Args m [] [F.st2d st_ 0 0 0 0 1] ∧
    ∃ m1 m2, Cuda.adjPoissonOffdiag2d 0 0 0 0 1 0 1 0 0 1 0 2 dx dir_factor neu_factor beta 1 st_ seqBackend m = .ok m1 ∧
      F.adjcellpoissonoffdiag2d 0 0 0 0 1 0 1 0 0 1 0 2 dx dir_factor neu_factor beta 1 st_ m = .ok m2 ∧ m1 ≠ m2 :=
  ⟨fun _ => 1, 1, 1, 1, ⟨3, 0⟩, (wB fun _ _ => 5), by w_args,
    differ_ne (q := ⟨3, 22⟩) (by decide +kernel)⟩

/-- `adjDiag3d` divides the coefficient by the mesh width before it multiplies by the face value, `adjcelldiffusiondiag3d` after at boundary type 4 and order 2: in 53 bit arithmetic the results differ. -/
theorem C49_adj_diag_3d_type4_false : ∃ (dx : Nat → B64) (beta : B64) (b0_ b1_ b2_ st_ : Ptr) (m : Mem B64), F.Args m [F.face3d0 b0_ 0 0 0 0 0 0 0, F.face3d1 b1_ 0 0 0 0 0 0 0, F.face3d2 b2_ 0 0 0 0 0 0 0] [F.st3d st_ 0 0 0 0 0 0 1] ∧
    ∃ m1 m2, Cuda.adjDiag3d 0 0 0 0 0 0 1 0 0 1 0 0 0 1 4 2 dx beta b0_ b1_ b2_ 1 st_ seqBackend m = .ok m1 ∧
      F.adjcelldiffusiondiag3d 0 0 0 0 0 0 1 0 0 1 0 0 0 1 4 2 dx beta b0_ b1_ b2_ 1 st_ m = .ok m2 ∧ m1 ≠ m2 :=
  ⟨fun _ => 3, 1, ⟨0, 0⟩, ⟨1, 0⟩, ⟨2, 0⟩, ⟨3, 0⟩, (wB fun b _ => if b < 3 then 7 else 0), by w_args,
    differ_ne (q := ⟨3, 91⟩) (by decide +kernel)⟩

/-- `adjDiag3d` divides before it multiplies by the face value, `adjcelldiffusiondiag3d` after at boundary type 0 and order 2: in 53 bit arithmetic the results differ. -/
theorem C49_adj_diag_3d_type0_false : ∃ (dx : Nat → B64) (beta : B64) (b0_ b1_ b2_ st_ : Ptr) (m : Mem B64), F.Args m [F.face3d0 b0_ 0 0 0 0 0 0 0, F.face3d1 b1_ 0 0 0 0 0 0 0, F.face3d2 b2_ 0 0 0 0 0 0 0] [F.st3d st_ 0 0 0 0 0 0 1] ∧
    ∃ m1 m2, Cuda.adjDiag3d 0 0 0 0 0 0 1 0 0 1 0 0 0 1 0 2 dx beta b0_ b1_ b2_ 1 st_ seqBackend m = .ok m1 ∧
      F.adjcelldiffusiondiag3d 0 0 0 0 0 0 1 0 0 1 0 0 0 1 0 2 dx beta b0_ b1_ b2_ 1 st_ m = .ok m2 ∧ m1 ≠ m2 :=
  ⟨fun _ => 1, 1, ⟨0, 0⟩, ⟨1, 0⟩, ⟨2, 0⟩, ⟨3, 0⟩, (wB fun b _ => if b < 3 then 7 else 0), by w_args,
    differ_ne (q := ⟨3, 91⟩) (by decide +kernel)⟩

/-- `adjPoissonDiag3d` divides by `3 * h * h`, `adjcellpoissondiag3d` by `3 * h**2` at boundary type 0 and order 2: in 53 bit arithmetic the results differ. -/
theorem C49_adj_poisson_diag_3d_type0_false : ∃ (dx : Nat → B64) (beta : B64) (st_ : Ptr) (m : Mem B64), F.Args m [] [F.st3d st_ 0 0 0 0 0 0 1] ∧
    ∃ m1 m2, Cuda.adjPoissonDiag3d 0 0 0 0 0 0 1 0 0 1 0 0 0 1 0 2 dx beta 1 st_ seqBackend m = .ok m1 ∧
      F.adjcellpoissondiag3d 0 0 0 0 0 0 1 0 0 1 0 0 0 1 0 2 dx beta 1 st_ m = .ok m2 ∧ m1 ≠ m2 :=
  ⟨fun _ => .near (1 / 7), 1, ⟨3, 0⟩, (wB fun _ _ => 0), by w_args,
    differ_ne (q := ⟨3, 91⟩) (by decide +kernel)⟩

/-- `adjCfDiag3d` divides before it multiplies by the face value, `adjcelldiffusioncfdiag3d` after at order 1: in 53 bit arithmetic the results differ. -/
theorem C49_adj_cf_diag_3d_order1_false : ∃ (dx : Nat → B64) (beta : B64) (b0_ b1_ b2_ st_ : Ptr) (m : Mem B64), F.Args m [F.face3d0 b0_ 0 0 0 0 0 0 0, F.face3d1 b1_ 0 0 0 0 0 0 0, F.face3d2 b2_ 0 0 0 0 0 0 0] [F.st3d st_ 0 0 0 0 0 0 1] ∧
    ∃ m1 m2, Cuda.adjCfDiag3d 0 0 0 0 0 0 1 0 0 1 0 0 2 0 1 1 dx beta b0_ b1_ b2_ 1 st_ seqBackend m = .ok m1 ∧
      F.adjcelldiffusioncfdiag3d 0 0 0 0 0 0 1 0 0 1 0 0 2 0 1 1 dx beta b0_ b1_ b2_ 1 st_ m = .ok m2 ∧ m1 ≠ m2 :=
  ⟨fun _ => 1, 1, ⟨0, 0⟩, ⟨1, 0⟩, ⟨2, 0⟩, ⟨3, 0⟩, (wB fun b _ => if b < 3 then 7 else 0), by w_args,
    differ_ne (q := ⟨3, 91⟩) (by decide +kernel)⟩

/-- `adjCfDiag3d` divides before it multiplies by the face value, `adjcelldiffusioncfdiag3d` after at order 2: in 53 bit arithmetic the results differ. -/
theorem C49_adj_cf_diag_3d_order2_false : ∃ (dx : Nat → B64) (beta : B64) (b0_ b1_ b2_ st_ : Ptr) (m : Mem B64), F.Args m [F.face3d0 b0_ 0 0 0 0 0 0 0, F.face3d1 b1_ 0 0 0 0 0 0 0, F.face3d2 b2_ 0 0 0 0 0 0 0] [F.st3d st_ 0 0 0 0 0 0 1] ∧
    ∃ m1 m2, Cuda.adjCfDiag3d 0 0 0 0 0 0 1 0 0 1 0 0 4 0 1 2 dx beta b0_ b1_ b2_ 1 st_ seqBackend m = .ok m1 ∧
      F.adjcelldiffusioncfdiag3d 0 0 0 0 0 0 1 0 0 1 0 0 4 0 1 2 dx beta b0_ b1_ b2_ 1 st_ m = .ok m2 ∧ m1 ≠ m2 :=
  ⟨fun _ => 3, 1, ⟨0, 0⟩, ⟨1, 0⟩, ⟨2, 0⟩, ⟨3, 0⟩, (wB fun b _ => if b < 3 then 3 else 0), by w_args,
    differ_ne (q := ⟨3, 91⟩) (by decide +kernel)⟩

/-- `adjPoissonCfDiag3d` divides by `h * h` and then by 3, `adjcellpoissoncfdiag3d` by `3 * h**2` at order 1: in 53 bit arithmetic the results differ. -/
theorem C49_adj_poisson_cf_diag_3d_order1_false : ∃ (dx : Nat → B64) (beta : B64) (st_ : Ptr) (m : Mem B64), F.Args m [] [F.st3d st_ 0 0 0 0 0 0 1] ∧
    ∃ m1 m2, Cuda.adjPoissonCfDiag3d 0 0 0 0 0 0 1 0 0 1 0 0 2 0 1 1 dx beta 1 st_ seqBackend m = .ok m1 ∧
      F.adjcellpoissoncfdiag3d 0 0 0 0 0 0 1 0 0 1 0 0 2 0 1 1 dx beta 1 st_ m = .ok m2 ∧ m1 ≠ m2 :=
  ⟨fun _ => 3, 11, ⟨3, 0⟩, (wB fun _ _ => 0), by w_args,
    differ_ne (q := ⟨3, 91⟩) (by decide +kernel)⟩

/-- `adjPoissonCfDiag3d` multiplies by the interpolation weight after the division, `adjcellpoissoncfdiag3d` before at order 2: in 53 bit arithmetic the results differ. -/
theorem C49_adj_poisson_cf_diag_3d_order2_false : ∃ (dx : Nat → B64) (beta : B64) (st_ : Ptr) (m : Mem B64), F.Args m [] [F.st3d st_ 0 0 0 0 0 0 1] ∧
    ∃ m1 m2, Cuda.adjPoissonCfDiag3d 0 0 0 0 0 0 1 0 0 1 0 0 8 0 1 2 dx beta 1 st_ seqBackend m = .ok m1 ∧
      F.adjcellpoissoncfdiag3d 0 0 0 0 0 0 1 0 0 1 0 0 8 0 1 2 dx beta 1 st_ m = .ok m2 ∧ m1 ≠ m2 :=
  ⟨fun _ => 3, 3, ⟨3, 0⟩, (wB fun _ _ => 0), by w_args,
    differ_ne (q := ⟨3, 91⟩) (by decide +kernel)⟩

/-- `adjCfOffdiag3d` multiplies by a quotient, `adjcelldiffusioncfoffdiag3d` multiplies and then divides at order 1: in 53 bit arithmetic the results differ. -/
theorem C49_adj_cf_offdiag_3d_order1_false : ∃ (st_ : Ptr) (m : Mem B64), F.Args m [] [F.st3d st_ 0 0 0 0 0 0 1] ∧
    ∃ m1 m2, Cuda.adjCfOffdiag3d 0 0 0 0 0 0 1 0 0 1 0 0 2 0 1 1 1 st_ seqBackend m = .ok m1 ∧
      F.adjcelldiffusioncfoffdiag3d 0 0 0 0 0 0 1 0 0 1 0 0 2 0 1 1 1 st_ m = .ok m2 ∧ m1 ≠ m2 :=
  ⟨⟨3, 0⟩, (wB fun _ _ => 5), by w_args,
    differ_ne (q := ⟨3, 93⟩) (by decide +kernel)⟩

/-- `adjCfOffdiag3d` multiplies by a quotient, `adjcelldiffusioncfoffdiag3d` multiplies and then divides at order 2: in 53 bit arithmetic the results differ. -/
theorem C49_adj_cf_offdiag_3d_order2_false : ∃ (st_ : Ptr) (m : Mem B64), F.Args m [] [F.st3d st_ 0 0 0 0 0 0 1] ∧
    ∃ m1 m2, Cuda.adjCfOffdiag3d 0 0 0 0 0 0 1 0 0 1 0 0 8 0 1 2 1 st_ seqBackend m = .ok m1 ∧
      F.adjcelldiffusioncfoffdiag3d 0 0 0 0 0 0 1 0 0 1 0 0 8 0 1 2 1 st_ m = .ok m2 ∧ m1 ≠ m2 :=
  ⟨⟨3, 0⟩, (wB fun _ _ => 5), by w_args,
    differ_ne (q := ⟨3, 93⟩) (by decide +kernel)⟩

/-- `adjOffdiag3d` multiplies by 8/3, `adjcelldiffusionoffdiag3d` multiplies by 8 and then divides by 3 at boundary type 0 and order 2: in 53 bit arithmetic the results differ. -/
theorem C49_adj_offdiag_3d_type0_false : ∃ (dx : Nat → B64) (dir_factor neu_factor beta : B64) (b0_ b1_ b2_ st_ : Ptr) (m : Mem B64), F.Args m [F.face3d0 b0_ 0 0 0 0 0 0 0, F.face3d1 b1_ 0 0 0 0 0 0 0, F.face3d2 b2_ 0 0 0 0 0 0 0] [F.st3d st_ 0 0 0 0 0 0 1] ∧
    ∃ m1 m2, Cuda.adjOffdiag3d 0 0 0 0 0 0 1 0 0 1 0 0 0 1 0 2 dx dir_factor neu_factor beta b0_ b1_ b2_ 1 st_ seqBackend m = .ok m1 ∧
      F.adjcelldiffusionoffdiag3d 0 0 0 0 0 0 1 0 0 1 0 0 0 1 0 2 dx dir_factor neu_factor beta b0_ b1_ b2_ 1 st_ m = .ok m2 ∧ m1 ≠ m2 :=
  ⟨fun _ => 1, 1, 1, 1, ⟨0, 0⟩, ⟨1, 0⟩, ⟨2, 0⟩, ⟨3, 0⟩, (wB fun b _ => if b < 3 then 1 else 5), by w_args,
    differ_ne (q := ⟨3, 93⟩) (by decide +kernel)⟩

/-- `adjPoissonOffdiag3d` multiplies by 8/3, `adjcellpoissonoffdiag3d` multiplies by 8 and then divides by 3 at boundary type 0 and order 2: in 53 bit arithmetic the results differ. -/
theorem C49_adj_poisson_offdiag_3d_type0_false : ∃ (dx : Nat → B64) (dir_factor neu_factor beta : B64) (st_ : Ptr) (m : Mem B64), F.Args m [] [F.st3d st_ 0 0 0 0 0 0 1] ∧
    ∃ m1 m2, Cuda.adjPoissonOffdiag3d 0 0 0 0 0 0 1 0 0 1 0 0 0 1 0 2 dx dir_factor neu_factor beta 1 st_ seqBackend m = .ok m1 ∧
      F.adjcellpoissonoffdiag3d 0 0 0 0 0 0 1 0 0 1 0 0 0 1 0 2 dx dir_factor neu_factor beta 1 st_ m = .ok m2 ∧ m1 ≠ m2 :=
  ⟨fun _ => 1, 1, 1, 1, ⟨3, 0⟩, (wB fun _ _ => 5), by w_args,
    differ_ne (q := ⟨3, 93⟩) (by decide +kernel)⟩

/-- `setBc2d` extrapolates into a corner as `u2 + u3 - u1`, `cellsetcorrectionbc2d` as `-u1 + u3 + u2`: in 53 bit arithmetic the order of the sum shows, with `2 ^ 53` in one of the three cells and 1 in the others. -/
theorem C49_bc_2d_corner_false : ∃ (dx : Nat → B64) (m : Mem B64), F.Args m [F.face2d0 ⟨0, 0⟩ 0 0 0 0 1, F.face2d1 ⟨1, 0⟩ 0 0 0 0 1] [F.cell2d ⟨3, 0⟩ 0 0 0 0 1] ∧
    ∃ m1 m2, Cuda.setBc2d 0 0 0 0 dx 1 ⟨0, 0⟩ ⟨1, 0⟩ 1 ⟨3, 0⟩ (exSeg (-1) (-1) 0) (exSeg (-1) (-1) 0) 1 0 2 0 1 1 (fun _ => seqBackend) m = .ok m1 ∧
      F.cellsetcorrectionbc2d 0 0 0 0 dx 1 ⟨0, 0⟩ ⟨1, 0⟩ 1 ⟨3, 0⟩ (exSeg (-1) (-1) 0) (exSeg (-1) (-1) 0) 1 0 2 0 1 1 m = .ok m2 ∧ m1 ≠ m2 :=
  ⟨fun _ => 1, (wB fun _ o => if o = 1 then 2 ^ 53 else 1), by w_args,
    differ_ne (q := ⟨3, 0⟩) (by decide +kernel)⟩

/-- `setBc3d` extrapolates into an edge as `u2 + u3 - u1`, `cellsetcorrectionbc3d` as `-u1 + u2 + u3`: in 53 bit arithmetic the order of the sum shows, with `2 ^ 53` in one of the three cells and 1 in the others. -/
theorem C49_bc_3d_edge_false : ∃ (dx : Nat → B64) (m : Mem B64), F.Args m [F.face3d0 ⟨0, 0⟩ 0 0 0 0 0 0 1, F.face3d1 ⟨1, 0⟩ 0 0 0 0 0 0 1, F.face3d2 ⟨2, 0⟩ 0 0 0 0 0 0 1] [F.cell3d ⟨3, 0⟩ 0 0 0 0 0 0 1] ∧
    ∃ m1 m2, Cuda.setBc3d 0 0 0 0 0 0 dx 1 ⟨0, 0⟩ ⟨1, 0⟩ ⟨2, 0⟩ 1 ⟨3, 0⟩ (exSeg (-1) (-1) 0) (exSeg (-1) (-1) 0) 1 0 2 0 1 1 (fun _ => seqBackend) m = .ok m1 ∧
      F.cellsetcorrectionbc3d 0 0 0 0 0 0 dx 1 ⟨0, 0⟩ ⟨1, 0⟩ ⟨2, 0⟩ 1 ⟨3, 0⟩ (exSeg (-1) (-1) 0) (exSeg (-1) (-1) 0) 1 0 2 0 1 1 m = .ok m2 ∧ m1 ≠ m2 :=
  ⟨fun _ => 1, (wB fun _ o => if o = 10 then 2 ^ 53 else 1), by w_args,
    differ_ne (q := ⟨3, 9⟩) (by decide +kernel)⟩

/-- `setBc3d` extrapolates into a corner as `u2 + u3 - u1`, `cellsetcorrectionbc3d` as `-u1 + u2 + u3`: in 53 bit arithmetic the order of the sum shows, with `2 ^ 53` in one of the three cells and 1 in the others. -/
theorem C49_bc_3d_corner_false : ∃ (dx : Nat → B64) (m : Mem B64), F.Args m [F.face3d0 ⟨0, 0⟩ 0 0 0 0 0 0 1, F.face3d1 ⟨1, 0⟩ 0 0 0 0 0 0 1, F.face3d2 ⟨2, 0⟩ 0 0 0 0 0 0 1] [F.cell3d ⟨3, 0⟩ 0 0 0 0 0 0 1] ∧
    ∃ m1 m2, Cuda.setBc3d 0 0 0 0 0 0 dx 1 ⟨0, 0⟩ ⟨1, 0⟩ ⟨2, 0⟩ 1 ⟨3, 0⟩ (exSeg (-1) (-1) (-1)) (exSeg (-1) (-1) (-1)) 1 0 3 0 1 1 (fun _ => seqBackend) m = .ok m1 ∧
      F.cellsetcorrectionbc3d 0 0 0 0 0 0 dx 1 ⟨0, 0⟩ ⟨1, 0⟩ ⟨2, 0⟩ 1 ⟨3, 0⟩ (exSeg (-1) (-1) (-1)) (exSeg (-1) (-1) (-1)) 1 0 3 0 1 1 m = .ok m2 ∧ m1 ≠ m2 :=
  ⟨fun _ => 1, (wB fun _ o => if o = 1 then 2 ^ 53 else 1), by w_args,
    differ_ne (q := ⟨3, 0⟩) (by decide +kernel)⟩

/-- `setPoissonBc2d` extrapolates into a corner as `u2 + u3 - u1`, `cellsetpoissoncorrectionbc2d` as `-u1 + u3 + u2`: in 53 bit arithmetic the order of the sum shows, with `2 ^ 53` in one of the three cells and 1 in the others. -/
theorem C49_poisson_bc_2d_corner_false : ∃ (dx : Nat → B64) (m : Mem B64), F.Args m [] [F.cell2d ⟨3, 0⟩ 0 0 0 0 1] ∧
    ∃ m1 m2, Cuda.setPoissonBc2d 0 0 0 0 dx 1 ⟨3, 0⟩ (exSeg (-1) (-1) 0) (exSeg (-1) (-1) 0) 1 0 2 0 1 1 (fun _ => seqBackend) m = .ok m1 ∧
      F.cellsetpoissoncorrectionbc2d 0 0 0 0 dx 1 ⟨3, 0⟩ (exSeg (-1) (-1) 0) (exSeg (-1) (-1) 0) 1 0 2 0 1 1 m = .ok m2 ∧ m1 ≠ m2 :=
  ⟨fun _ => 1, (wB fun _ o => if o = 1 then 2 ^ 53 else 1), by w_args,
    differ_ne (q := ⟨3, 0⟩) (by decide +kernel)⟩

/-- `setPoissonBc3d` extrapolates into an edge as `u2 + u3 - u1`, `cellsetpoissoncorrectionbc3d` as `-u1 + u2 + u3`: in 53 bit arithmetic the order of the sum shows, with `2 ^ 53` in one of the three cells and 1 in the others. -/
theorem C49_poisson_bc_3d_edge_false : ∃ (dx : Nat → B64) (m : Mem B64), F.Args m [] [F.cell3d ⟨3, 0⟩ 0 0 0 0 0 0 1] ∧
    ∃ m1 m2, Cuda.setPoissonBc3d 0 0 0 0 0 0 dx 1 ⟨3, 0⟩ (exSeg (-1) (-1) 0) (exSeg (-1) (-1) 0) 1 0 2 0 1 1 (fun _ => seqBackend) m = .ok m1 ∧
      F.cellsetpoissoncorrectionbc3d 0 0 0 0 0 0 dx 1 ⟨3, 0⟩ (exSeg (-1) (-1) 0) (exSeg (-1) (-1) 0) 1 0 2 0 1 1 m = .ok m2 ∧ m1 ≠ m2 :=
  ⟨fun _ => 1, (wB fun _ o => if o = 10 then 2 ^ 53 else 1), by w_args,
    differ_ne (q := ⟨3, 9⟩) (by decide +kernel)⟩

/-- `setPoissonBc3d` extrapolates into a corner as `u2 + u3 - u1`, `cellsetpoissoncorrectionbc3d` as `-u1 + u2 + u3`: in 53 bit arithmetic the order of the sum shows, with `2 ^ 53` in one of the three cells and 1 in the others. -/
theorem C49_poisson_bc_3d_corner_false : ∃ (dx : Nat → B64) (m : Mem B64), F.Args m [] [F.cell3d ⟨3, 0⟩ 0 0 0 0 0 0 1] ∧
    ∃ m1 m2, Cuda.setPoissonBc3d 0 0 0 0 0 0 dx 1 ⟨3, 0⟩ (exSeg (-1) (-1) (-1)) (exSeg (-1) (-1) (-1)) 1 0 3 0 1 1 (fun _ => seqBackend) m = .ok m1 ∧
      F.cellsetpoissoncorrectionbc3d 0 0 0 0 0 0 dx 1 ⟨3, 0⟩ (exSeg (-1) (-1) (-1)) (exSeg (-1) (-1) (-1)) 1 0 3 0 1 1 m = .ok m2 ∧ m1 ≠ m2 :=
  ⟨fun _ => 1, (wB fun _ o => if o = 1 then 2 ^ 53 else 1), by w_args,
    differ_ne (q := ⟨3, 0⟩) (by decide +kernel)⟩

end Verif
