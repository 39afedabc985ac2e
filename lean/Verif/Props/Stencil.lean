import Verif.Props.RoundAdjust

/-
C36: the stencil coefficient kernels leave the memory the Fortran routines leave.
-/

namespace Verif
open Spec

set_option linter.unusedVariables false
set_option linter.unusedSimpArgs false
set_option linter.unusedTactic false
set_option linter.unreachableTactic false

variable {T : Type} [Field T]

/-- `cd_stencil_1d_cuda::offdiag` and `celldiffusionoffdiag1d` leave the same memory, for every schedule. -/
theorem C36_offdiag_1d {i0 i1 bi0 bi1 sgcw : Int} {dx : Nat → T} {beta : T} {b0_ st_ : Ptr} {β : Backend} {m : Mem T}
    (hβ : ValidBackend β) (hi : i0 ≤ i1) (hbi : bi0 ≤ i0 ∧ i1 ≤ bi1) (hg : 0 ≤ sgcw)
    (h : F.Args m [F.face1d b0_ bi0 bi1 0] [F.st1d st_ i0 i1 sgcw]) :
    ∃ m', Cuda.offdiag1d i0 i1 bi0 bi1 dx beta b0_ sgcw st_ β m = .ok m' ∧ F.celldiffusionoffdiag1d i0 i1 bi0 bi1 dx beta b0_ sgcw st_ m = .ok m' :=
  C49_offdiag_1d hβ (fun _ _ => neg_div _ _) hi hbi hg h

example : ∃ m', Cuda.offdiag1d 0 3 0 3 exDx 2 ⟨0, 0⟩ 1 ⟨1, 0⟩ revBackend exRat = .ok m' ∧
    F.celldiffusionoffdiag1d 0 3 0 3 exDx 2 ⟨0, 0⟩ 1 ⟨1, 0⟩ exRat = .ok m' :=
  C36_offdiag_1d revBackend_ok (by decide) (by decide) (by decide) (by ex_args)

/-- `cd_stencil_1d_cuda::poisson_offdiag` and `cellpoissonoffdiag1d` leave the same memory, for every schedule. -/
theorem C36_poisson_offdiag_1d {i0 i1 sgcw : Int} {dx : Nat → T} {beta : T} {st_ : Ptr} {β : Backend} {m : Mem T}
    (hβ : ValidBackend β) (hi : i0 ≤ i1) (hg : 0 ≤ sgcw) (h : F.Args m [] [F.st1d st_ i0 i1 sgcw]) :
    ∃ m', Cuda.poissonOffdiag1d i0 i1 dx beta sgcw st_ β m = .ok m' ∧ F.cellpoissonoffdiag1d i0 i1 dx beta sgcw st_ m = .ok m' :=
  C49_poisson_offdiag_1d hβ (fun _ _ => neg_div _ _) hi hg h

example : ∃ m', Cuda.poissonOffdiag1d 0 3 exDx 2 1 ⟨1, 0⟩ revBackend exRat = .ok m' ∧
    F.cellpoissonoffdiag1d 0 3 exDx 2 1 ⟨1, 0⟩ exRat = .ok m' :=
  C36_poisson_offdiag_1d revBackend_ok (by decide) (by decide) (by ex_args)

/-- `cd_stencil_1d_cuda::v1diag` and `celldiffusionv1diag1d` leave the same memory, for every schedule. -/
theorem C36_v1diag_1d {i0 i1 ai0 ai1 sgcw : Int} {alpha : T} {a_ st_ : Ptr} {β : Backend} {m : Mem T}
    (hβ : ValidBackend β) (hi : i0 ≤ i1) (hai : ai0 ≤ i0 ∧ i1 ≤ ai1) (hg : 0 ≤ sgcw) (h : F.Args m [F.cell1d a_ ai0 ai1 0] [F.st1d st_ i0 i1 sgcw]) :
    ∃ m', Cuda.v1diag1d i0 i1 ai0 ai1 alpha a_ sgcw st_ β m = .ok m' ∧ F.celldiffusionv1diag1d i0 i1 ai0 ai1 alpha a_ sgcw st_ m = .ok m' :=
  C49_v1diag_1d hβ (neg_one_mul) hi hai hg h

example : ∃ m', Cuda.v1diag1d 0 3 0 3 3 ⟨0, 0⟩ 1 ⟨1, 0⟩ revBackend exRat = .ok m' ∧
    F.celldiffusionv1diag1d 0 3 0 3 3 ⟨0, 0⟩ 1 ⟨1, 0⟩ exRat = .ok m' :=
  C36_v1diag_1d revBackend_ok (by decide) (by decide) (by decide) (by ex_args)

/-- `cd_stencil_1d_cuda::v2diag` and `celldiffusionv2diag1d` leave the same memory, for every schedule. -/
theorem C36_v2diag_1d {i0 i1 sgcw : Int} {alpha : T} {st_ : Ptr} {β : Backend} {m : Mem T}
    (hβ : ValidBackend β) (hi : i0 ≤ i1) (hg : 0 ≤ sgcw) (h : F.Args m [] [F.st1d st_ i0 i1 sgcw]) :
    ∃ m', Cuda.v2diag1d i0 i1 alpha sgcw st_ β m = .ok m' ∧ F.celldiffusionv2diag1d i0 i1 alpha sgcw st_ m = .ok m' :=
  C49_v2diag_1d hβ (neg_one_mul) hi hg h

example : ∃ m', Cuda.v2diag1d 0 3 3 1 ⟨1, 0⟩ revBackend exRat = .ok m' ∧
    F.celldiffusionv2diag1d 0 3 3 1 ⟨1, 0⟩ exRat = .ok m' :=
  C36_v2diag_1d revBackend_ok (by decide) (by decide) (by ex_args)

/-- `cd_stencil_1d_cuda::poisson_diag` and `cellpoissondiag1d` leave the same memory, for every schedule. -/
theorem C36_poisson_diag_1d {i0 i1 sgcw : Int} {st_ : Ptr} {β : Backend} {m : Mem T}
    (hβ : ValidBackend β) (hi : i0 ≤ i1) (hg : 0 ≤ sgcw) (h : F.Args m [] [F.st1d st_ i0 i1 sgcw]) :
    ∃ m', Cuda.poissonDiag1d i0 i1 sgcw st_ β m = .ok m' ∧ F.cellpoissondiag1d i0 i1 sgcw st_ m = .ok m' :=
  C49_poisson_diag_1d hβ (neg_one_mul) hi hg h

example : ∃ m', Cuda.poissonDiag1d 0 3 1 ⟨1, 0⟩ revBackend exRat = .ok m' ∧
    F.cellpoissondiag1d 0 3 1 ⟨1, 0⟩ exRat = .ok m' :=
  C36_poisson_diag_1d revBackend_ok (by decide) (by decide) (by ex_args)

/-- `cd_stencil_2d_cuda::offdiag` and `celldiffusionoffdiag2d` leave the same memory, for every schedule. -/
theorem C36_offdiag_2d {i0 j0 i1 j1 bi0 bj0 bi1 bj1 sgcw : Int} {dx : Nat → T} {beta : T} {b0_ b1_ st_ : Ptr} {β : Backend} {m : Mem T}
    (hβ : ValidBackend β) (hi : i0 ≤ i1) (hj : j0 ≤ j1) (hbi : bi0 ≤ i0 ∧ i1 ≤ bi1) (hbj : bj0 ≤ j0 ∧ j1 ≤ bj1) (hg : 0 ≤ sgcw)
    (h : F.Args m [F.face2d0 b0_ bi0 bj0 bi1 bj1 0, F.face2d1 b1_ bi0 bj0 bi1 bj1 0] [F.st2d st_ i0 j0 i1 j1 sgcw]) :
    ∃ m', Cuda.offdiag2d i0 j0 i1 j1 bi0 bj0 bi1 bj1 dx beta b0_ b1_ sgcw st_ β m = .ok m' ∧ F.celldiffusionoffdiag2d i0 j0 i1 j1 bi0 bj0 bi1 bj1 dx beta b0_ b1_ sgcw st_ m = .ok m' :=
  C49_offdiag_2d hβ (fun _ _ => neg_div _ _) hi hj hbi hbj hg h

example : ∃ m', Cuda.offdiag2d 0 0 3 2 0 0 3 2 exDx 2 ⟨0, 0⟩ ⟨1, 0⟩ 1 ⟨2, 0⟩ revBackend exRat = .ok m' ∧
    F.celldiffusionoffdiag2d 0 0 3 2 0 0 3 2 exDx 2 ⟨0, 0⟩ ⟨1, 0⟩ 1 ⟨2, 0⟩ exRat = .ok m' :=
  C36_offdiag_2d revBackend_ok (by decide) (by decide) (by decide) (by decide) (by decide) (by ex_args)

/-- `cd_stencil_2d_cuda::poisson_offdiag` and `cellpoissonoffdiag2d` leave the same memory, for every schedule. -/
theorem C36_poisson_offdiag_2d {i0 j0 i1 j1 sgcw : Int} {dx : Nat → T} {beta : T} {st_ : Ptr} {β : Backend} {m : Mem T}
    (hβ : ValidBackend β) (hi : i0 ≤ i1) (hj : j0 ≤ j1) (hg : 0 ≤ sgcw) (h : F.Args m [] [F.st2d st_ i0 j0 i1 j1 sgcw]) :
    ∃ m', Cuda.poissonOffdiag2d i0 j0 i1 j1 dx beta sgcw st_ β m = .ok m' ∧ F.cellpoissonoffdiag2d i0 j0 i1 j1 dx beta sgcw st_ m = .ok m' :=
  C49_poisson_offdiag_2d hβ (fun _ _ => neg_div _ _) hi hj hg h

example : ∃ m', Cuda.poissonOffdiag2d 0 0 3 2 exDx 2 1 ⟨1, 0⟩ revBackend exRat = .ok m' ∧
    F.cellpoissonoffdiag2d 0 0 3 2 exDx 2 1 ⟨1, 0⟩ exRat = .ok m' :=
  C36_poisson_offdiag_2d revBackend_ok (by decide) (by decide) (by decide) (by ex_args)

/-- `cd_stencil_2d_cuda::v1diag` and `celldiffusionv1diag2d` leave the same memory, for every schedule. -/
theorem C36_v1diag_2d {i0 j0 i1 j1 ai0 aj0 ai1 aj1 sgcw : Int} {alpha : T} {a_ st_ : Ptr} {β : Backend} {m : Mem T}
    (hβ : ValidBackend β) (hi : i0 ≤ i1) (hj : j0 ≤ j1) (hai : ai0 ≤ i0 ∧ i1 ≤ ai1) (haj : aj0 ≤ j0 ∧ j1 ≤ aj1) (hg : 0 ≤ sgcw) (h : F.Args m [F.cell2d a_ ai0 aj0 ai1 aj1 0] [F.st2d st_ i0 j0 i1 j1 sgcw]) :
    ∃ m', Cuda.v1diag2d i0 j0 i1 j1 ai0 aj0 ai1 aj1 alpha a_ sgcw st_ β m = .ok m' ∧ F.celldiffusionv1diag2d i0 j0 i1 j1 ai0 aj0 ai1 aj1 alpha a_ sgcw st_ m = .ok m' :=
  C49_v1diag_2d hβ (neg_one_mul) hi hj hai haj hg h

example : ∃ m', Cuda.v1diag2d 0 0 3 2 0 0 3 2 3 ⟨0, 0⟩ 1 ⟨1, 0⟩ revBackend exRat = .ok m' ∧
    F.celldiffusionv1diag2d 0 0 3 2 0 0 3 2 3 ⟨0, 0⟩ 1 ⟨1, 0⟩ exRat = .ok m' :=
  C36_v1diag_2d revBackend_ok (by decide) (by decide) (by decide) (by decide) (by decide) (by ex_args)

/-- `cd_stencil_2d_cuda::v2diag` and `celldiffusionv2diag2d` leave the same memory, for every schedule. -/
theorem C36_v2diag_2d {i0 j0 i1 j1 sgcw : Int} {alpha : T} {st_ : Ptr} {β : Backend} {m : Mem T}
    (hβ : ValidBackend β) (hi : i0 ≤ i1) (hj : j0 ≤ j1) (hg : 0 ≤ sgcw) (h : F.Args m [] [F.st2d st_ i0 j0 i1 j1 sgcw]) :
    ∃ m', Cuda.v2diag2d i0 j0 i1 j1 alpha sgcw st_ β m = .ok m' ∧ F.celldiffusionv2diag2d i0 j0 i1 j1 alpha sgcw st_ m = .ok m' :=
  C49_v2diag_2d hβ (neg_one_mul) hi hj hg h

example : ∃ m', Cuda.v2diag2d 0 0 3 2 3 1 ⟨1, 0⟩ revBackend exRat = .ok m' ∧
    F.celldiffusionv2diag2d 0 0 3 2 3 1 ⟨1, 0⟩ exRat = .ok m' :=
  C36_v2diag_2d revBackend_ok (by decide) (by decide) (by decide) (by ex_args)

/-- `cd_stencil_2d_cuda::poisson_diag` and `cellpoissondiag2d` leave the same memory, for every schedule. -/
theorem C36_poisson_diag_2d {i0 j0 i1 j1 sgcw : Int} {st_ : Ptr} {β : Backend} {m : Mem T}
    (hβ : ValidBackend β) (hi : i0 ≤ i1) (hj : j0 ≤ j1) (hg : 0 ≤ sgcw) (h : F.Args m [] [F.st2d st_ i0 j0 i1 j1 sgcw]) :
    ∃ m', Cuda.poissonDiag2d i0 j0 i1 j1 sgcw st_ β m = .ok m' ∧ F.cellpoissondiag2d i0 j0 i1 j1 sgcw st_ m = .ok m' :=
  C49_poisson_diag_2d hβ (neg_one_mul) hi hj hg h

example : ∃ m', Cuda.poissonDiag2d 0 0 3 2 1 ⟨1, 0⟩ revBackend exRat = .ok m' ∧
    F.cellpoissondiag2d 0 0 3 2 1 ⟨1, 0⟩ exRat = .ok m' :=
  C36_poisson_diag_2d revBackend_ok (by decide) (by decide) (by decide) (by ex_args)

/-- `cd_stencil_3d_cuda::offdiag` and `celldiffusionoffdiag3d` leave the same memory, for every schedule. -/
theorem C36_offdiag_3d {i0 j0 k0 i1 j1 k1 bi0 bj0 bk0 bi1 bj1 bk1 sgcw : Int} {dx : Nat → T} {beta : T} {b0_ b1_ b2_ st_ : Ptr} {β : Backend} {m : Mem T}
    (hβ : ValidBackend β) (hi : i0 ≤ i1) (hj : j0 ≤ j1) (hk : k0 ≤ k1) (hbi : bi0 ≤ i0 ∧ i1 ≤ bi1) (hbj : bj0 ≤ j0 ∧ j1 ≤ bj1) (hbk : bk0 ≤ k0 ∧ k1 ≤ bk1) (hg : 0 ≤ sgcw)
    (h : F.Args m [F.face3d0 b0_ bi0 bj0 bk0 bi1 bj1 bk1 0, F.face3d1 b1_ bi0 bj0 bk0 bi1 bj1 bk1 0, F.face3d2 b2_ bi0 bj0 bk0 bi1 bj1 bk1 0] [F.st3d st_ i0 j0 k0 i1 j1 k1 sgcw]) :
    ∃ m', Cuda.offdiag3d i0 j0 k0 i1 j1 k1 bi0 bj0 bk0 bi1 bj1 bk1 dx beta b0_ b1_ b2_ sgcw st_ β m = .ok m' ∧ F.celldiffusionoffdiag3d i0 j0 k0 i1 j1 k1 bi0 bj0 bk0 bi1 bj1 bk1 dx beta b0_ b1_ b2_ sgcw st_ m = .ok m' :=
  C49_offdiag_3d hβ (fun _ _ => neg_div _ _) hi hj hk hbi hbj hbk hg h

example : ∃ m', Cuda.offdiag3d 0 0 0 3 2 1 0 0 0 3 2 1 exDx 2 ⟨0, 0⟩ ⟨1, 0⟩ ⟨2, 0⟩ 1 ⟨3, 0⟩ revBackend exRat = .ok m' ∧
    F.celldiffusionoffdiag3d 0 0 0 3 2 1 0 0 0 3 2 1 exDx 2 ⟨0, 0⟩ ⟨1, 0⟩ ⟨2, 0⟩ 1 ⟨3, 0⟩ exRat = .ok m' :=
  C36_offdiag_3d revBackend_ok (by decide) (by decide) (by decide) (by decide) (by decide) (by decide) (by decide) (by ex_args)

/-- `cd_stencil_3d_cuda::poisson_offdiag` and `cellpoissonoffdiag3d` leave the same memory, for every schedule. -/
theorem C36_poisson_offdiag_3d {i0 j0 k0 i1 j1 k1 sgcw : Int} {dx : Nat → T} {beta : T} {st_ : Ptr} {β : Backend} {m : Mem T}
    (hβ : ValidBackend β) (hi : i0 ≤ i1) (hj : j0 ≤ j1) (hk : k0 ≤ k1) (hg : 0 ≤ sgcw) (h : F.Args m [] [F.st3d st_ i0 j0 k0 i1 j1 k1 sgcw]) :
    ∃ m', Cuda.poissonOffdiag3d i0 j0 k0 i1 j1 k1 dx beta sgcw st_ β m = .ok m' ∧ F.cellpoissonoffdiag3d i0 j0 k0 i1 j1 k1 dx beta sgcw st_ m = .ok m' :=
  C49_poisson_offdiag_3d hβ (fun _ _ => neg_div _ _) hi hj hk hg h

example : ∃ m', Cuda.poissonOffdiag3d 0 0 0 3 2 1 exDx 2 1 ⟨1, 0⟩ revBackend exRat = .ok m' ∧
    F.cellpoissonoffdiag3d 0 0 0 3 2 1 exDx 2 1 ⟨1, 0⟩ exRat = .ok m' :=
  C36_poisson_offdiag_3d revBackend_ok (by decide) (by decide) (by decide) (by decide) (by ex_args)

/-- `cd_stencil_3d_cuda::v1diag` and `celldiffusionv1diag3d` leave the same memory, for every schedule. -/
theorem C36_v1diag_3d {i0 j0 k0 i1 j1 k1 ai0 aj0 ak0 ai1 aj1 ak1 sgcw : Int} {alpha : T} {a_ st_ : Ptr} {β : Backend} {m : Mem T}
    (hβ : ValidBackend β) (hi : i0 ≤ i1) (hj : j0 ≤ j1) (hk : k0 ≤ k1) (hai : ai0 ≤ i0 ∧ i1 ≤ ai1) (haj : aj0 ≤ j0 ∧ j1 ≤ aj1) (hak : ak0 ≤ k0 ∧ k1 ≤ ak1) (hg : 0 ≤ sgcw) (h : F.Args m [F.cell3d a_ ai0 aj0 ak0 ai1 aj1 ak1 0] [F.st3d st_ i0 j0 k0 i1 j1 k1 sgcw]) :
    ∃ m', Cuda.v1diag3d i0 j0 k0 i1 j1 k1 ai0 aj0 ak0 ai1 aj1 ak1 alpha a_ sgcw st_ β m = .ok m' ∧ F.celldiffusionv1diag3d i0 j0 k0 i1 j1 k1 ai0 aj0 ak0 ai1 aj1 ak1 alpha a_ sgcw st_ m = .ok m' :=
  C49_v1diag_3d hβ (neg_one_mul) hi hj hk hai haj hak hg h

example : ∃ m', Cuda.v1diag3d 0 0 0 3 2 1 0 0 0 3 2 1 3 ⟨0, 0⟩ 1 ⟨1, 0⟩ revBackend exRat = .ok m' ∧
    F.celldiffusionv1diag3d 0 0 0 3 2 1 0 0 0 3 2 1 3 ⟨0, 0⟩ 1 ⟨1, 0⟩ exRat = .ok m' :=
  C36_v1diag_3d revBackend_ok (by decide) (by decide) (by decide) (by decide) (by decide) (by decide) (by decide) (by ex_args)

/-- `cd_stencil_3d_cuda::v2diag` and `celldiffusionv2diag3d` leave the same memory, for every schedule. -/
theorem C36_v2diag_3d {i0 j0 k0 i1 j1 k1 sgcw : Int} {alpha : T} {st_ : Ptr} {β : Backend} {m : Mem T}
    (hβ : ValidBackend β) (hi : i0 ≤ i1) (hj : j0 ≤ j1) (hk : k0 ≤ k1) (hg : 0 ≤ sgcw) (h : F.Args m [] [F.st3d st_ i0 j0 k0 i1 j1 k1 sgcw]) :
    ∃ m', Cuda.v2diag3d i0 j0 k0 i1 j1 k1 alpha sgcw st_ β m = .ok m' ∧ F.celldiffusionv2diag3d i0 j0 k0 i1 j1 k1 alpha sgcw st_ m = .ok m' :=
  C49_v2diag_3d hβ (neg_one_mul) hi hj hk hg h

example : ∃ m', Cuda.v2diag3d 0 0 0 3 2 1 3 1 ⟨1, 0⟩ revBackend exRat = .ok m' ∧
    F.celldiffusionv2diag3d 0 0 0 3 2 1 3 1 ⟨1, 0⟩ exRat = .ok m' :=
  C36_v2diag_3d revBackend_ok (by decide) (by decide) (by decide) (by decide) (by ex_args)

/-- `cd_stencil_3d_cuda::poisson_diag` and `cellpoissondiag3d` leave the same memory, for every schedule. -/
theorem C36_poisson_diag_3d {i0 j0 k0 i1 j1 k1 sgcw : Int} {st_ : Ptr} {β : Backend} {m : Mem T}
    (hβ : ValidBackend β) (hi : i0 ≤ i1) (hj : j0 ≤ j1) (hk : k0 ≤ k1) (hg : 0 ≤ sgcw) (h : F.Args m [] [F.st3d st_ i0 j0 k0 i1 j1 k1 sgcw]) :
    ∃ m', Cuda.poissonDiag3d i0 j0 k0 i1 j1 k1 sgcw st_ β m = .ok m' ∧ F.cellpoissondiag3d i0 j0 k0 i1 j1 k1 sgcw st_ m = .ok m' :=
  C49_poisson_diag_3d hβ (neg_one_mul) hi hj hk hg h

example : ∃ m', Cuda.poissonDiag3d 0 0 0 3 2 1 1 ⟨1, 0⟩ revBackend exRat = .ok m' ∧
    F.cellpoissondiag3d 0 0 0 3 2 1 1 ⟨1, 0⟩ exRat = .ok m' :=
  C36_poisson_diag_3d revBackend_ok (by decide) (by decide) (by decide) (by decide) (by ex_args)

/-- `cd_stencil_1d_cuda::adj_diag` and `adjcelldiffusiondiag1d` leave the same memory, for every schedule. -/
theorem C36_adj_diag_1d {i0 i1 pi0 pi1 side btype exOrder sgcw : Int} {dx : Nat → T} {beta : T} {b0_ st_ : Ptr} {β : Backend} {m : Mem T}
    (hβ : ValidBackend β) (hi : i0 ≤ i1) (hg : 0 ≤ sgcw) (hl : Layer1 i0 i1 0 pi0 pi1 side)
    (h : F.Args m [F.face1d b0_ i0 i1 0] [F.st1d st_ i0 i1 sgcw]) :
    ∃ m', Cuda.adjDiag1d i0 i1 pi0 pi1 side btype exOrder dx beta b0_ sgcw st_ β m = .ok m' ∧ F.adjcelldiffusiondiag1d i0 i1 pi0 pi1 side btype exOrder dx beta b0_ sgcw st_ m = .ok m' :=
  C49_adj_diag_1d hβ (fun _ _ _ => by ring) hi hg hl h

example : ∃ m', Cuda.adjDiag1d 0 3 4 4 1 4 2 exDx 2 ⟨0, 0⟩ 1 ⟨1, 0⟩ revBackend exRat = .ok m' ∧
    F.adjcelldiffusiondiag1d 0 3 4 4 1 4 2 exDx 2 ⟨0, 0⟩ 1 ⟨1, 0⟩ exRat = .ok m' :=
  C36_adj_diag_1d revBackend_ok (by decide) (by decide) (by constructor <;> (try simp only [InInt]) <;> decide) (by ex_args)

/-- `cd_stencil_1d_cuda::adj_poisson_diag` and `adjcellpoissondiag1d` leave the same memory, for every schedule. -/
theorem C36_adj_poisson_diag_1d {i0 i1 pi0 pi1 side btype exOrder sgcw : Int} {dx : Nat → T} {beta : T} {st_ : Ptr} {β : Backend} {m : Mem T}
    (hβ : ValidBackend β) (hi : i0 ≤ i1) (hg : 0 ≤ sgcw) (hl : Layer1 i0 i1 sgcw pi0 pi1 side)
    (h : F.Args m [] [F.st1d st_ i0 i1 sgcw]) :
    ∃ m', Cuda.adjPoissonDiag1d i0 i1 pi0 pi1 side btype exOrder dx beta sgcw st_ β m = .ok m' ∧ F.adjcellpoissondiag1d i0 i1 pi0 pi1 side btype exOrder dx beta sgcw st_ m = .ok m' :=
  C49_adj_poisson_diag_1d hβ hi hg hl h

example : ∃ m', Cuda.adjPoissonDiag1d 0 3 4 4 1 4 2 exDx 2 1 ⟨1, 0⟩ revBackend exRat = .ok m' ∧
    F.adjcellpoissondiag1d 0 3 4 4 1 4 2 exDx 2 1 ⟨1, 0⟩ exRat = .ok m' :=
  C36_adj_poisson_diag_1d revBackend_ok (by decide) (by decide) (by constructor <;> (try simp only [InInt]) <;> decide) (by ex_args)

/-- `cd_stencil_1d_cuda::adj_cf_diag` and `adjcelldiffusioncfdiag1d` leave the same memory, for every schedule. -/
theorem C36_adj_cf_diag_1d {i0 i1 pi0 pi1 r side intOrder sgcw : Int} {dx : Nat → T} {beta : T} {b0_ st_ : Ptr} {β : Backend} {m : Mem T}
    (hβ : ValidBackend β) (hi : i0 ≤ i1) (hg : 0 ≤ sgcw) (hl : Layer1 i0 i1 0 pi0 pi1 side)
    (h : F.Args m [F.face1d b0_ i0 i1 0] [F.st1d st_ i0 i1 sgcw]) :
    ∃ m', Cuda.adjCfDiag1d i0 i1 pi0 pi1 r side intOrder dx beta b0_ sgcw st_ β m = .ok m' ∧ F.adjcelldiffusioncfdiag1d i0 i1 pi0 pi1 r side intOrder dx beta b0_ sgcw st_ m = .ok m' :=
  C49_adj_cf_diag_1d hβ (fun _ _ => by ring) (fun _ _ => by ring) hi hg hl h

example : ∃ m', Cuda.adjCfDiag1d 0 3 4 4 2 1 2 exDx 2 ⟨0, 0⟩ 1 ⟨1, 0⟩ revBackend exRat = .ok m' ∧
    F.adjcelldiffusioncfdiag1d 0 3 4 4 2 1 2 exDx 2 ⟨0, 0⟩ 1 ⟨1, 0⟩ exRat = .ok m' :=
  C36_adj_cf_diag_1d revBackend_ok (by decide) (by decide) (by constructor <;> (try simp only [InInt]) <;> decide) (by ex_args)

/-- `cd_stencil_1d_cuda::adj_poisson_cf_diag` and `adjcellpoissoncfdiag1d` leave the same memory, for every schedule. -/
theorem C36_adj_poisson_cf_diag_1d {i0 i1 pi0 pi1 r side intOrder sgcw : Int} {dx : Nat → T} {beta : T} {st_ : Ptr} {β : Backend} {m : Mem T}
    (hβ : ValidBackend β) (hi : i0 ≤ i1) (hg : 0 ≤ sgcw) (hl : Layer1 i0 i1 sgcw pi0 pi1 side)
    (h : F.Args m [] [F.st1d st_ i0 i1 sgcw]) :
    ∃ m', Cuda.adjPoissonCfDiag1d i0 i1 pi0 pi1 r side intOrder dx beta sgcw st_ β m = .ok m' ∧ F.adjcellpoissoncfdiag1d i0 i1 pi0 pi1 r side intOrder dx beta sgcw st_ m = .ok m' :=
  C49_adj_poisson_cf_diag_1d hβ (fun _ => by ring) (fun _ => by ring) hi hg hl h

example : ∃ m', Cuda.adjPoissonCfDiag1d 0 3 4 4 2 1 2 exDx 2 1 ⟨1, 0⟩ revBackend exRat = .ok m' ∧
    F.adjcellpoissoncfdiag1d 0 3 4 4 2 1 2 exDx 2 1 ⟨1, 0⟩ exRat = .ok m' :=
  C36_adj_poisson_cf_diag_1d revBackend_ok (by decide) (by decide) (by constructor <;> (try simp only [InInt]) <;> decide) (by ex_args)

/-- `cd_stencil_1d_cuda::adj_offdiag` and `adjcelldiffusionoffdiag1d` leave the same memory, for every schedule. -/
theorem C36_adj_offdiag_1d {i0 i1 pi0 pi1 side btype exOrder sgcw : Int} {dx : Nat → T} {dir_factor neu_factor beta : T} {b0_ st_ : Ptr} {β : Backend} {m : Mem T}
    (hβ : ValidBackend β) (hi : i0 ≤ i1) (hg : 0 ≤ sgcw) (hl : Layer1 i0 i1 0 pi0 pi1 side)
    (h : F.Args m [F.face1d b0_ i0 i1 0] [F.st1d st_ i0 i1 sgcw]) :
    ∃ m', Cuda.adjOffdiag1d i0 i1 pi0 pi1 side btype exOrder dx dir_factor neu_factor beta b0_ sgcw st_ β m = .ok m' ∧ F.adjcelldiffusionoffdiag1d i0 i1 pi0 pi1 side btype exOrder dx dir_factor neu_factor beta b0_ sgcw st_ m = .ok m' :=
  C49_adj_offdiag_1d hβ (fun _ _ => mul_comm) (fun _ _ _ => by ring) (fun _ _ _ => by ring) hi hg hl h

example : ∃ m', Cuda.adjOffdiag1d 0 3 4 4 1 4 2 exDx 2 3 4 ⟨0, 0⟩ 1 ⟨1, 0⟩ revBackend exRat = .ok m' ∧
    F.adjcelldiffusionoffdiag1d 0 3 4 4 1 4 2 exDx 2 3 4 ⟨0, 0⟩ 1 ⟨1, 0⟩ exRat = .ok m' :=
  C36_adj_offdiag_1d revBackend_ok (by decide) (by decide) (by constructor <;> (try simp only [InInt]) <;> decide) (by ex_args)

/-- `cd_stencil_1d_cuda::adj_poisson_offdiag` and `adjcellpoissonoffdiag1d` leave the same memory, for every schedule. -/
theorem C36_adj_poisson_offdiag_1d {i0 i1 pi0 pi1 side btype exOrder sgcw : Int} {dx : Nat → T} {dir_factor neu_factor beta : T} {st_ : Ptr} {β : Backend} {m : Mem T}
    (hβ : ValidBackend β) (hi : i0 ≤ i1) (hg : 0 ≤ sgcw) (hl : Layer1 i0 i1 sgcw pi0 pi1 side)
    (h : F.Args m [] [F.st1d st_ i0 i1 sgcw]) :
    ∃ m', Cuda.adjPoissonOffdiag1d i0 i1 pi0 pi1 side btype exOrder dx dir_factor neu_factor beta sgcw st_ β m = .ok m' ∧ F.adjcellpoissonoffdiag1d i0 i1 pi0 pi1 side btype exOrder dx dir_factor neu_factor beta sgcw st_ m = .ok m' :=
  C49_adj_poisson_offdiag_1d hβ (fun _ _ => mul_comm) (fun _ _ _ => by ring) (fun _ _ _ => by ring) hi hg hl h

example : ∃ m', Cuda.adjPoissonOffdiag1d 0 3 4 4 1 4 2 exDx 2 3 4 1 ⟨1, 0⟩ revBackend exRat = .ok m' ∧
    F.adjcellpoissonoffdiag1d 0 3 4 4 1 4 2 exDx 2 3 4 1 ⟨1, 0⟩ exRat = .ok m' :=
  C36_adj_poisson_offdiag_1d revBackend_ok (by decide) (by decide) (by constructor <;> (try simp only [InInt]) <;> decide) (by ex_args)

/-- `cd_stencil_1d_cuda::adj_cf_offdiag` and `adjcelldiffusioncfoffdiag1d` leave the same memory, for every schedule. -/
theorem C36_adj_cf_offdiag_1d {i0 i1 ci0 ci1 r side intOrder sgcw : Int} {st_ : Ptr} {β : Backend} {m : Mem T}
    (hβ : ValidBackend β) (hi : i0 ≤ i1) (hg : 0 ≤ sgcw) (hl : Layer1 i0 i1 sgcw ci0 ci1 side)
    (h : F.Args m [] [F.st1d st_ i0 i1 sgcw]) :
    ∃ m', Cuda.adjCfOffdiag1d i0 i1 ci0 ci1 r side intOrder sgcw st_ β m = .ok m' ∧ F.adjcelldiffusioncfoffdiag1d i0 i1 ci0 ci1 r side intOrder sgcw st_ m = .ok m' :=
  C49_adj_cf_offdiag_1d hβ (fun _ _ => by ring) (fun _ => ⟨fun _ => by ring, fun _ => by ring⟩) hi hg hl h

example : ∃ m', Cuda.adjCfOffdiag1d 0 3 4 4 2 1 2 1 ⟨0, 0⟩ revBackend exRat = .ok m' ∧
    F.adjcelldiffusioncfoffdiag1d 0 3 4 4 2 1 2 1 ⟨0, 0⟩ exRat = .ok m' :=
  C36_adj_cf_offdiag_1d revBackend_ok (by decide) (by decide) (by constructor <;> (try simp only [InInt]) <;> decide) (by ex_args)

/-- `cd_stencil_1d_cuda::readj_offdiag` and `readjcelldiffusionoffdiag1d` leave the same memory, for every schedule. -/
theorem C36_readj_offdiag_1d {i0 i1 pi0 pi1 side sgcw : Int} {st_ : Ptr} {β : Backend} {m : Mem T}
    (hβ : ValidBackend β) (hi : i0 ≤ i1) (hg : 0 ≤ sgcw) (hl : Layer1 i0 i1 sgcw pi0 pi1 side)
    (h : F.Args m [] [F.st1d st_ i0 i1 sgcw]) :
    ∃ m', Cuda.readjOffdiag1d i0 i1 pi0 pi1 side sgcw st_ β m = .ok m' ∧ F.readjcelldiffusionoffdiag1d i0 i1 pi0 pi1 side sgcw st_ m = .ok m' :=
  C49_readj_offdiag_1d hβ hi hg hl h

example : ∃ m', Cuda.readjOffdiag1d 0 3 4 4 1 1 ⟨0, 0⟩ revBackend exRat = .ok m' ∧
    F.readjcelldiffusionoffdiag1d 0 3 4 4 1 1 ⟨0, 0⟩ exRat = .ok m' :=
  C36_readj_offdiag_1d revBackend_ok (by decide) (by decide) (by constructor <;> (try simp only [InInt]) <;> decide) (by ex_args)

/-- `cd_stencil_1d_cuda::adj_cf_bdryrhs` and `adjcelldiffusioncfbdryrhs1d` leave the same memory, for every schedule. -/
theorem C36_adj_cf_bdryrhs_1d {i0 i1 pi0 pi1 side sgcw gcw : Int} {st_ u_ rhs_ : Ptr} {β : Backend} {m : Mem T}
    (hβ : ValidBackend β) (hi : i0 ≤ i1) (hg : 0 ≤ sgcw) (hu : 1 ≤ gcw) (hl : Layer1 i0 i1 0 pi0 pi1 side)
    (h : F.Args m [F.cell1d u_ i0 i1 gcw, F.st1d st_ i0 i1 sgcw] [F.cell1d rhs_ i0 i1 0]) :
    ∃ m', Cuda.adjCfBdryrhs1d i0 i1 pi0 pi1 side sgcw st_ gcw u_ rhs_ β m = .ok m' ∧ F.adjcelldiffusioncfbdryrhs1d i0 i1 pi0 pi1 side sgcw st_ gcw u_ rhs_ m = .ok m' :=
  C49_adj_cf_bdryrhs_1d hβ (fun _ _ => by ring) hi hg hu hl h

example : ∃ m', Cuda.adjCfBdryrhs1d 0 3 4 4 1 1 ⟨0, 0⟩ 1 ⟨1, 0⟩ ⟨2, 0⟩ revBackend exRat = .ok m' ∧
    F.adjcelldiffusioncfbdryrhs1d 0 3 4 4 1 1 ⟨0, 0⟩ 1 ⟨1, 0⟩ ⟨2, 0⟩ exRat = .ok m' :=
  C36_adj_cf_bdryrhs_1d revBackend_ok (by decide) (by decide) (by decide) (by constructor <;> (try simp only [InInt]) <;> decide) (by ex_args)

/-- `cd_stencil_2d_cuda::adj_diag` and `adjcelldiffusiondiag2d` leave the same memory, for every schedule.
With `btype = 0` and `side = 1` both change the coefficients of the ghost cell behind the face, so there must be one. -/
theorem C36_adj_diag_2d {i0 j0 i1 j1 pi0 pj0 pi1 pj1 dir side btype exOrder sgcw : Int} {dx : Nat → T} {beta : T} {b0_ b1_ st_ : Ptr} {β : Backend} {m : Mem T}
    (hβ : ValidBackend β) (hi : i0 ≤ i1) (hj : j0 ≤ j1) (hg : 0 ≤ sgcw) (hs1 : btype = 0 → side = 1 → 1 ≤ sgcw) (hl : Layer2 i0 j0 i1 j1 0 pi0 pj0 pi1 pj1 dir side)
    (h : F.Args m [F.face2d0 b0_ i0 j0 i1 j1 0, F.face2d1 b1_ i0 j0 i1 j1 0] [F.st2d st_ i0 j0 i1 j1 sgcw]) :
    ∃ m', Cuda.adjDiag2d i0 j0 i1 j1 pi0 pj0 pi1 pj1 dir side btype exOrder dx beta b0_ b1_ sgcw st_ β m = .ok m' ∧ F.adjcelldiffusiondiag2d i0 j0 i1 j1 pi0 pj0 pi1 pj1 dir side btype exOrder dx beta b0_ b1_ sgcw st_ m = .ok m' :=
  C49_adj_diag_2d hβ (fun _ _ _ => by ring) (fun _ _ _ => by ring) hi hj hg hs1 hl h

example : ∃ m', Cuda.adjDiag2d 0 0 3 2 4 0 4 2 0 1 4 2 exDx 2 ⟨0, 0⟩ ⟨1, 0⟩ 1 ⟨2, 0⟩ revBackend exRat = .ok m' ∧
    F.adjcelldiffusiondiag2d 0 0 3 2 4 0 4 2 0 1 4 2 exDx 2 ⟨0, 0⟩ ⟨1, 0⟩ 1 ⟨2, 0⟩ exRat = .ok m' :=
  C36_adj_diag_2d revBackend_ok (by decide) (by decide) (by decide) (by decide) (by constructor <;> (try simp only [InInt]) <;> decide) (by ex_args)

/-- `cd_stencil_2d_cuda::adj_poisson_diag` and `adjcellpoissondiag2d` leave the same memory, for every schedule. -/
theorem C36_adj_poisson_diag_2d {i0 j0 i1 j1 pi0 pj0 pi1 pj1 dir side btype exOrder sgcw : Int} {dx : Nat → T} {beta : T} {st_ : Ptr} {β : Backend} {m : Mem T}
    (hβ : ValidBackend β) (hi : i0 ≤ i1) (hj : j0 ≤ j1) (hg : 0 ≤ sgcw) (hl : Layer2 i0 j0 i1 j1 sgcw pi0 pj0 pi1 pj1 dir side)
    (h : F.Args m [] [F.st2d st_ i0 j0 i1 j1 sgcw]) :
    ∃ m', Cuda.adjPoissonDiag2d i0 j0 i1 j1 pi0 pj0 pi1 pj1 dir side btype exOrder dx beta sgcw st_ β m = .ok m' ∧ F.adjcellpoissondiag2d i0 j0 i1 j1 pi0 pj0 pi1 pj1 dir side btype exOrder dx beta sgcw st_ m = .ok m' :=
  C49_adj_poisson_diag_2d hβ hi hj hg hl h

example : ∃ m', Cuda.adjPoissonDiag2d 0 0 3 2 4 0 4 2 0 1 4 2 exDx 2 1 ⟨2, 0⟩ revBackend exRat = .ok m' ∧
    F.adjcellpoissondiag2d 0 0 3 2 4 0 4 2 0 1 4 2 exDx 2 1 ⟨2, 0⟩ exRat = .ok m' :=
  C36_adj_poisson_diag_2d revBackend_ok (by decide) (by decide) (by decide) (by constructor <;> (try simp only [InInt]) <;> decide) (by ex_args)

/-- `cd_stencil_2d_cuda::adj_cf_diag` and `adjcelldiffusioncfdiag2d` leave the same memory, for every schedule. -/
theorem C36_adj_cf_diag_2d {i0 j0 i1 j1 pi0 pj0 pi1 pj1 r dir side intOrder sgcw : Int} {dx : Nat → T} {beta : T} {b0_ b1_ st_ : Ptr} {β : Backend} {m : Mem T}
    (hβ : ValidBackend β) (hi : i0 ≤ i1) (hj : j0 ≤ j1) (hg : 0 ≤ sgcw) (hl : Layer2 i0 j0 i1 j1 0 pi0 pj0 pi1 pj1 dir side)
    (h : F.Args m [F.face2d0 b0_ i0 j0 i1 j1 0, F.face2d1 b1_ i0 j0 i1 j1 0] [F.st2d st_ i0 j0 i1 j1 sgcw]) :
    ∃ m', Cuda.adjCfDiag2d i0 j0 i1 j1 pi0 pj0 pi1 pj1 r dir side intOrder dx beta b0_ b1_ sgcw st_ β m = .ok m' ∧ F.adjcelldiffusioncfdiag2d i0 j0 i1 j1 pi0 pj0 pi1 pj1 r dir side intOrder dx beta b0_ b1_ sgcw st_ m = .ok m' :=
  C49_adj_cf_diag_2d hβ (fun _ _ => by ring) (fun _ _ => by ring) hi hj hg hl h

example : ∃ m', Cuda.adjCfDiag2d 0 0 3 2 4 0 4 2 2 0 1 2 exDx 2 ⟨0, 0⟩ ⟨1, 0⟩ 1 ⟨2, 0⟩ revBackend exRat = .ok m' ∧
    F.adjcelldiffusioncfdiag2d 0 0 3 2 4 0 4 2 2 0 1 2 exDx 2 ⟨0, 0⟩ ⟨1, 0⟩ 1 ⟨2, 0⟩ exRat = .ok m' :=
  C36_adj_cf_diag_2d revBackend_ok (by decide) (by decide) (by decide) (by constructor <;> (try simp only [InInt]) <;> decide) (by ex_args)

/-- `cd_stencil_2d_cuda::adj_poisson_cf_diag` and `adjcellpoissoncfdiag2d` leave the same memory, for every schedule. -/
theorem C36_adj_poisson_cf_diag_2d {i0 j0 i1 j1 pi0 pj0 pi1 pj1 r dir side intOrder sgcw : Int} {dx : Nat → T} {beta : T} {st_ : Ptr} {β : Backend} {m : Mem T}
    (hβ : ValidBackend β) (hi : i0 ≤ i1) (hj : j0 ≤ j1) (hg : 0 ≤ sgcw) (hl : Layer2 i0 j0 i1 j1 sgcw pi0 pj0 pi1 pj1 dir side)
    (h : F.Args m [] [F.st2d st_ i0 j0 i1 j1 sgcw]) :
    ∃ m', Cuda.adjPoissonCfDiag2d i0 j0 i1 j1 pi0 pj0 pi1 pj1 r dir side intOrder dx beta sgcw st_ β m = .ok m' ∧ F.adjcellpoissoncfdiag2d i0 j0 i1 j1 pi0 pj0 pi1 pj1 r dir side intOrder dx beta sgcw st_ m = .ok m' :=
  C49_adj_poisson_cf_diag_2d hβ (fun _ => by ring) (fun _ => by ring) hi hj hg hl h

example : ∃ m', Cuda.adjPoissonCfDiag2d 0 0 3 2 4 0 4 2 2 0 1 2 exDx 2 1 ⟨2, 0⟩ revBackend exRat = .ok m' ∧
    F.adjcellpoissoncfdiag2d 0 0 3 2 4 0 4 2 2 0 1 2 exDx 2 1 ⟨2, 0⟩ exRat = .ok m' :=
  C36_adj_poisson_cf_diag_2d revBackend_ok (by decide) (by decide) (by decide) (by constructor <;> (try simp only [InInt]) <;> decide) (by ex_args)

/-- `cd_stencil_2d_cuda::adj_offdiag` and `adjcelldiffusionoffdiag2d` leave the same memory, for every schedule. -/
theorem C36_adj_offdiag_2d {i0 j0 i1 j1 pi0 pj0 pi1 pj1 dir side btype exOrder sgcw : Int} {dx : Nat → T} {dir_factor neu_factor beta : T} {b0_ b1_ st_ : Ptr} {β : Backend} {m : Mem T}
    (hβ : ValidBackend β) (hi : i0 ≤ i1) (hj : j0 ≤ j1) (hg : 0 ≤ sgcw) (hl : Layer2 i0 j0 i1 j1 0 pi0 pj0 pi1 pj1 dir side)
    (h : F.Args m [F.face2d0 b0_ i0 j0 i1 j1 0, F.face2d1 b1_ i0 j0 i1 j1 0] [F.st2d st_ i0 j0 i1 j1 sgcw]) :
    ∃ m', Cuda.adjOffdiag2d i0 j0 i1 j1 pi0 pj0 pi1 pj1 dir side btype exOrder dx dir_factor neu_factor beta b0_ b1_ sgcw st_ β m = .ok m' ∧ F.adjcelldiffusionoffdiag2d i0 j0 i1 j1 pi0 pj0 pi1 pj1 dir side btype exOrder dx dir_factor neu_factor beta b0_ b1_ sgcw st_ m = .ok m' :=
  C49_adj_offdiag_2d hβ (fun _ _ => mul_comm) (fun _ _ _ => by ring) (fun _ _ _ => by ring) hi hj hg hl h

example : ∃ m', Cuda.adjOffdiag2d 0 0 3 2 4 0 4 2 0 1 4 2 exDx 2 3 4 ⟨0, 0⟩ ⟨1, 0⟩ 1 ⟨2, 0⟩ revBackend exRat = .ok m' ∧
    F.adjcelldiffusionoffdiag2d 0 0 3 2 4 0 4 2 0 1 4 2 exDx 2 3 4 ⟨0, 0⟩ ⟨1, 0⟩ 1 ⟨2, 0⟩ exRat = .ok m' :=
  C36_adj_offdiag_2d revBackend_ok (by decide) (by decide) (by decide) (by constructor <;> (try simp only [InInt]) <;> decide) (by ex_args)

/-- `cd_stencil_2d_cuda::adj_poisson_offdiag` and `adjcellpoissonoffdiag2d` leave the same memory, for every schedule. -/
theorem C36_adj_poisson_offdiag_2d {i0 j0 i1 j1 pi0 pj0 pi1 pj1 dir side btype exOrder sgcw : Int} {dx : Nat → T} {dir_factor neu_factor beta : T} {st_ : Ptr} {β : Backend} {m : Mem T}
    (hβ : ValidBackend β) (hi : i0 ≤ i1) (hj : j0 ≤ j1) (hg : 0 ≤ sgcw) (hl : Layer2 i0 j0 i1 j1 sgcw pi0 pj0 pi1 pj1 dir side)
    (h : F.Args m [] [F.st2d st_ i0 j0 i1 j1 sgcw]) :
    ∃ m', Cuda.adjPoissonOffdiag2d i0 j0 i1 j1 pi0 pj0 pi1 pj1 dir side btype exOrder dx dir_factor neu_factor beta sgcw st_ β m = .ok m' ∧ F.adjcellpoissonoffdiag2d i0 j0 i1 j1 pi0 pj0 pi1 pj1 dir side btype exOrder dx dir_factor neu_factor beta sgcw st_ m = .ok m' :=
  C49_adj_poisson_offdiag_2d hβ (fun _ _ => mul_comm) (fun _ _ _ => by ring) (fun _ _ _ => by ring) hi hj hg hl h

example : ∃ m', Cuda.adjPoissonOffdiag2d 0 0 3 2 4 0 4 2 0 1 4 2 exDx 2 3 4 1 ⟨2, 0⟩ revBackend exRat = .ok m' ∧
    F.adjcellpoissonoffdiag2d 0 0 3 2 4 0 4 2 0 1 4 2 exDx 2 3 4 1 ⟨2, 0⟩ exRat = .ok m' :=
  C36_adj_poisson_offdiag_2d revBackend_ok (by decide) (by decide) (by decide) (by constructor <;> (try simp only [InInt]) <;> decide) (by ex_args)

/-- `cd_stencil_2d_cuda::adj_cf_offdiag` and `adjcelldiffusioncfoffdiag2d` leave the same memory, for every schedule. -/
theorem C36_adj_cf_offdiag_2d {i0 j0 i1 j1 ci0 cj0 ci1 cj1 r dir side intOrder sgcw : Int} {st_ : Ptr} {β : Backend} {m : Mem T}
    (hβ : ValidBackend β) (hi : i0 ≤ i1) (hj : j0 ≤ j1) (hg : 0 ≤ sgcw) (hl : Layer2 i0 j0 i1 j1 sgcw ci0 cj0 ci1 cj1 dir side)
    (h : F.Args m [] [F.st2d st_ i0 j0 i1 j1 sgcw]) :
    ∃ m', Cuda.adjCfOffdiag2d i0 j0 i1 j1 ci0 cj0 ci1 cj1 r dir side intOrder sgcw st_ β m = .ok m' ∧ F.adjcelldiffusioncfoffdiag2d i0 j0 i1 j1 ci0 cj0 ci1 cj1 r dir side intOrder sgcw st_ m = .ok m' :=
  C49_adj_cf_offdiag_2d hβ (fun _ _ => by ring) (fun _ => ⟨fun _ => by ring, fun _ => by ring⟩) hi hj hg hl h

example : ∃ m', Cuda.adjCfOffdiag2d 0 0 3 2 4 0 4 2 2 0 1 2 1 ⟨0, 0⟩ revBackend exRat = .ok m' ∧
    F.adjcelldiffusioncfoffdiag2d 0 0 3 2 4 0 4 2 2 0 1 2 1 ⟨0, 0⟩ exRat = .ok m' :=
  C36_adj_cf_offdiag_2d revBackend_ok (by decide) (by decide) (by decide) (by constructor <;> (try simp only [InInt]) <;> decide) (by ex_args)

/-- `cd_stencil_2d_cuda::readj_offdiag` and `readjcelldiffusionoffdiag2d` leave the same memory, for every schedule. -/
theorem C36_readj_offdiag_2d {i0 j0 i1 j1 pi0 pj0 pi1 pj1 dir side sgcw : Int} {st_ : Ptr} {β : Backend} {m : Mem T}
    (hβ : ValidBackend β) (hi : i0 ≤ i1) (hj : j0 ≤ j1) (hg : 0 ≤ sgcw) (hl : Layer2 i0 j0 i1 j1 sgcw pi0 pj0 pi1 pj1 dir side)
    (h : F.Args m [] [F.st2d st_ i0 j0 i1 j1 sgcw]) :
    ∃ m', Cuda.readjOffdiag2d i0 j0 i1 j1 pi0 pj0 pi1 pj1 dir side sgcw st_ β m = .ok m' ∧ F.readjcelldiffusionoffdiag2d i0 j0 i1 j1 pi0 pj0 pi1 pj1 dir side sgcw st_ m = .ok m' :=
  C49_readj_offdiag_2d hβ hi hj hg hl h

example : ∃ m', Cuda.readjOffdiag2d 0 0 3 2 4 0 4 2 0 1 1 ⟨0, 0⟩ revBackend exRat = .ok m' ∧
    F.readjcelldiffusionoffdiag2d 0 0 3 2 4 0 4 2 0 1 1 ⟨0, 0⟩ exRat = .ok m' :=
  C36_readj_offdiag_2d revBackend_ok (by decide) (by decide) (by decide) (by constructor <;> (try simp only [InInt]) <;> decide) (by ex_args)

/-- `cd_stencil_2d_cuda::adj_cf_bdryrhs` and `adjcelldiffusioncfbdryrhs2d` leave the same memory, for every schedule. -/
theorem C36_adj_cf_bdryrhs_2d {i0 j0 i1 j1 pi0 pj0 pi1 pj1 dir side sgcw gcw : Int} {st_ u_ rhs_ : Ptr} {β : Backend} {m : Mem T}
    (hβ : ValidBackend β) (hi : i0 ≤ i1) (hj : j0 ≤ j1) (hg : 0 ≤ sgcw) (hu : 1 ≤ gcw) (hl : Layer2 i0 j0 i1 j1 0 pi0 pj0 pi1 pj1 dir side)
    (h : F.Args m [F.cell2d u_ i0 j0 i1 j1 gcw, F.st2d st_ i0 j0 i1 j1 sgcw] [F.cell2d rhs_ i0 j0 i1 j1 0]) :
    ∃ m', Cuda.adjCfBdryrhs2d i0 j0 i1 j1 pi0 pj0 pi1 pj1 dir side sgcw st_ gcw u_ rhs_ β m = .ok m' ∧ F.adjcelldiffusioncfbdryrhs2d i0 j0 i1 j1 pi0 pj0 pi1 pj1 dir side sgcw st_ gcw u_ rhs_ m = .ok m' :=
  C49_adj_cf_bdryrhs_2d hβ (fun _ _ => by ring) hi hj hg hu hl h

example : ∃ m', Cuda.adjCfBdryrhs2d 0 0 3 2 4 0 4 2 0 1 1 ⟨0, 0⟩ 1 ⟨1, 0⟩ ⟨2, 0⟩ revBackend exRat = .ok m' ∧
    F.adjcelldiffusioncfbdryrhs2d 0 0 3 2 4 0 4 2 0 1 1 ⟨0, 0⟩ 1 ⟨1, 0⟩ ⟨2, 0⟩ exRat = .ok m' :=
  C36_adj_cf_bdryrhs_2d revBackend_ok (by decide) (by decide) (by decide) (by decide) (by constructor <;> (try simp only [InInt]) <;> decide) (by ex_args)

/-- `cd_stencil_3d_cuda::adj_diag` and `adjcelldiffusiondiag3d` leave the same memory, for every schedule. -/
theorem C36_adj_diag_3d {i0 j0 k0 i1 j1 k1 pi0 pj0 pk0 pi1 pj1 pk1 dir side btype exOrder sgcw : Int} {dx : Nat → T} {beta : T} {b0_ b1_ b2_ st_ : Ptr} {β : Backend} {m : Mem T}
    (hβ : ValidBackend β) (hi : i0 ≤ i1) (hj : j0 ≤ j1) (hk : k0 ≤ k1) (hg : 0 ≤ sgcw) (hl : Layer3 i0 j0 k0 i1 j1 k1 0 pi0 pj0 pk0 pi1 pj1 pk1 dir side)
    (h : F.Args m [F.face3d0 b0_ i0 j0 k0 i1 j1 k1 0, F.face3d1 b1_ i0 j0 k0 i1 j1 k1 0, F.face3d2 b2_ i0 j0 k0 i1 j1 k1 0] [F.st3d st_ i0 j0 k0 i1 j1 k1 sgcw]) :
    ∃ m', Cuda.adjDiag3d i0 j0 k0 i1 j1 k1 pi0 pj0 pk0 pi1 pj1 pk1 dir side btype exOrder dx beta b0_ b1_ b2_ sgcw st_ β m = .ok m' ∧ F.adjcelldiffusiondiag3d i0 j0 k0 i1 j1 k1 pi0 pj0 pk0 pi1 pj1 pk1 dir side btype exOrder dx beta b0_ b1_ b2_ sgcw st_ m = .ok m' :=
  C49_adj_diag_3d hβ (fun _ _ _ => by ring) (fun _ _ _ => by ring) hi hj hk hg hl h

example : ∃ m', Cuda.adjDiag3d 0 0 0 3 2 1 0 0 2 3 2 2 2 1 4 2 exDx 2 ⟨0, 0⟩ ⟨1, 0⟩ ⟨2, 0⟩ 1 ⟨3, 0⟩ revBackend exRat = .ok m' ∧
    F.adjcelldiffusiondiag3d 0 0 0 3 2 1 0 0 2 3 2 2 2 1 4 2 exDx 2 ⟨0, 0⟩ ⟨1, 0⟩ ⟨2, 0⟩ 1 ⟨3, 0⟩ exRat = .ok m' :=
  C36_adj_diag_3d revBackend_ok (by decide) (by decide) (by decide) (by decide) (by constructor <;> (try simp only [InInt]) <;> decide) (by ex_args)

/-- `cd_stencil_3d_cuda::adj_poisson_diag` and `adjcellpoissondiag3d` leave the same memory, for every schedule. -/
theorem C36_adj_poisson_diag_3d {i0 j0 k0 i1 j1 k1 pi0 pj0 pk0 pi1 pj1 pk1 dir side btype exOrder sgcw : Int} {dx : Nat → T} {beta : T} {st_ : Ptr} {β : Backend} {m : Mem T}
    (hβ : ValidBackend β) (hi : i0 ≤ i1) (hj : j0 ≤ j1) (hk : k0 ≤ k1) (hg : 0 ≤ sgcw) (hl : Layer3 i0 j0 k0 i1 j1 k1 sgcw pi0 pj0 pk0 pi1 pj1 pk1 dir side)
    (h : F.Args m [] [F.st3d st_ i0 j0 k0 i1 j1 k1 sgcw]) :
    ∃ m', Cuda.adjPoissonDiag3d i0 j0 k0 i1 j1 k1 pi0 pj0 pk0 pi1 pj1 pk1 dir side btype exOrder dx beta sgcw st_ β m = .ok m' ∧ F.adjcellpoissondiag3d i0 j0 k0 i1 j1 k1 pi0 pj0 pk0 pi1 pj1 pk1 dir side btype exOrder dx beta sgcw st_ m = .ok m' :=
  C49_adj_poisson_diag_3d hβ (fun _ _ => by ring) hi hj hk hg hl h

example : ∃ m', Cuda.adjPoissonDiag3d 0 0 0 3 2 1 0 0 2 3 2 2 2 1 4 2 exDx 2 1 ⟨3, 0⟩ revBackend exRat = .ok m' ∧
    F.adjcellpoissondiag3d 0 0 0 3 2 1 0 0 2 3 2 2 2 1 4 2 exDx 2 1 ⟨3, 0⟩ exRat = .ok m' :=
  C36_adj_poisson_diag_3d revBackend_ok (by decide) (by decide) (by decide) (by decide) (by constructor <;> (try simp only [InInt]) <;> decide) (by ex_args)

/-- `cd_stencil_3d_cuda::adj_cf_diag` and `adjcelldiffusioncfdiag3d` leave the same memory, for every schedule. -/
theorem C36_adj_cf_diag_3d {i0 j0 k0 i1 j1 k1 pi0 pj0 pk0 pi1 pj1 pk1 r dir side intOrder sgcw : Int} {dx : Nat → T} {beta : T} {b0_ b1_ b2_ st_ : Ptr} {β : Backend} {m : Mem T}
    (hβ : ValidBackend β) (hi : i0 ≤ i1) (hj : j0 ≤ j1) (hk : k0 ≤ k1) (hg : 0 ≤ sgcw) (hl : Layer3 i0 j0 k0 i1 j1 k1 0 pi0 pj0 pk0 pi1 pj1 pk1 dir side)
    (h : F.Args m [F.face3d0 b0_ i0 j0 k0 i1 j1 k1 0, F.face3d1 b1_ i0 j0 k0 i1 j1 k1 0, F.face3d2 b2_ i0 j0 k0 i1 j1 k1 0] [F.st3d st_ i0 j0 k0 i1 j1 k1 sgcw]) :
    ∃ m', Cuda.adjCfDiag3d i0 j0 k0 i1 j1 k1 pi0 pj0 pk0 pi1 pj1 pk1 r dir side intOrder dx beta b0_ b1_ b2_ sgcw st_ β m = .ok m' ∧ F.adjcelldiffusioncfdiag3d i0 j0 k0 i1 j1 k1 pi0 pj0 pk0 pi1 pj1 pk1 r dir side intOrder dx beta b0_ b1_ b2_ sgcw st_ m = .ok m' :=
  C49_adj_cf_diag_3d hβ (fun _ _ => by ring) (fun _ _ => by ring) hi hj hk hg hl h

example : ∃ m', Cuda.adjCfDiag3d 0 0 0 3 2 1 0 0 2 3 2 2 2 2 1 2 exDx 2 ⟨0, 0⟩ ⟨1, 0⟩ ⟨2, 0⟩ 1 ⟨3, 0⟩ revBackend exRat = .ok m' ∧
    F.adjcelldiffusioncfdiag3d 0 0 0 3 2 1 0 0 2 3 2 2 2 2 1 2 exDx 2 ⟨0, 0⟩ ⟨1, 0⟩ ⟨2, 0⟩ 1 ⟨3, 0⟩ exRat = .ok m' :=
  C36_adj_cf_diag_3d revBackend_ok (by decide) (by decide) (by decide) (by decide) (by constructor <;> (try simp only [InInt]) <;> decide) (by ex_args)

/-- `cd_stencil_3d_cuda::adj_poisson_cf_diag` and `adjcellpoissoncfdiag3d` leave the same memory, for every schedule. -/
theorem C36_adj_poisson_cf_diag_3d {i0 j0 k0 i1 j1 k1 pi0 pj0 pk0 pi1 pj1 pk1 r dir side intOrder sgcw : Int} {dx : Nat → T} {beta : T} {st_ : Ptr} {β : Backend} {m : Mem T}
    (hβ : ValidBackend β) (hi : i0 ≤ i1) (hj : j0 ≤ j1) (hk : k0 ≤ k1) (hg : 0 ≤ sgcw) (hl : Layer3 i0 j0 k0 i1 j1 k1 sgcw pi0 pj0 pk0 pi1 pj1 pk1 dir side)
    (h : F.Args m [] [F.st3d st_ i0 j0 k0 i1 j1 k1 sgcw]) :
    ∃ m', Cuda.adjPoissonCfDiag3d i0 j0 k0 i1 j1 k1 pi0 pj0 pk0 pi1 pj1 pk1 r dir side intOrder dx beta sgcw st_ β m = .ok m' ∧ F.adjcellpoissoncfdiag3d i0 j0 k0 i1 j1 k1 pi0 pj0 pk0 pi1 pj1 pk1 r dir side intOrder dx beta sgcw st_ m = .ok m' :=
  C49_adj_poisson_cf_diag_3d hβ (fun _ => by ring) (fun _ => by ring) hi hj hk hg hl h

example : ∃ m', Cuda.adjPoissonCfDiag3d 0 0 0 3 2 1 0 0 2 3 2 2 2 2 1 2 exDx 2 1 ⟨3, 0⟩ revBackend exRat = .ok m' ∧
    F.adjcellpoissoncfdiag3d 0 0 0 3 2 1 0 0 2 3 2 2 2 2 1 2 exDx 2 1 ⟨3, 0⟩ exRat = .ok m' :=
  C36_adj_poisson_cf_diag_3d revBackend_ok (by decide) (by decide) (by decide) (by decide) (by constructor <;> (try simp only [InInt]) <;> decide) (by ex_args)

/-- `cd_stencil_3d_cuda::adj_offdiag` and `adjcelldiffusionoffdiag3d` leave the same memory, for every schedule. -/
theorem C36_adj_offdiag_3d {i0 j0 k0 i1 j1 k1 pi0 pj0 pk0 pi1 pj1 pk1 dir side btype exOrder sgcw : Int} {dx : Nat → T} {dir_factor neu_factor beta : T} {b0_ b1_ b2_ st_ : Ptr} {β : Backend} {m : Mem T}
    (hβ : ValidBackend β) (hi : i0 ≤ i1) (hj : j0 ≤ j1) (hk : k0 ≤ k1) (hg : 0 ≤ sgcw) (hl : Layer3 i0 j0 k0 i1 j1 k1 0 pi0 pj0 pk0 pi1 pj1 pk1 dir side)
    (h : F.Args m [F.face3d0 b0_ i0 j0 k0 i1 j1 k1 0, F.face3d1 b1_ i0 j0 k0 i1 j1 k1 0, F.face3d2 b2_ i0 j0 k0 i1 j1 k1 0] [F.st3d st_ i0 j0 k0 i1 j1 k1 sgcw]) :
    ∃ m', Cuda.adjOffdiag3d i0 j0 k0 i1 j1 k1 pi0 pj0 pk0 pi1 pj1 pk1 dir side btype exOrder dx dir_factor neu_factor beta b0_ b1_ b2_ sgcw st_ β m = .ok m' ∧ F.adjcelldiffusionoffdiag3d i0 j0 k0 i1 j1 k1 pi0 pj0 pk0 pi1 pj1 pk1 dir side btype exOrder dx dir_factor neu_factor beta b0_ b1_ b2_ sgcw st_ m = .ok m' :=
  C49_adj_offdiag_3d hβ (fun _ _ => mul_comm) (fun _ _ _ => by ring) (fun _ _ _ => by ring) hi hj hk hg hl h

example : ∃ m', Cuda.adjOffdiag3d 0 0 0 3 2 1 0 0 2 3 2 2 2 1 4 2 exDx 2 3 4 ⟨0, 0⟩ ⟨1, 0⟩ ⟨2, 0⟩ 1 ⟨3, 0⟩ revBackend exRat = .ok m' ∧
    F.adjcelldiffusionoffdiag3d 0 0 0 3 2 1 0 0 2 3 2 2 2 1 4 2 exDx 2 3 4 ⟨0, 0⟩ ⟨1, 0⟩ ⟨2, 0⟩ 1 ⟨3, 0⟩ exRat = .ok m' :=
  C36_adj_offdiag_3d revBackend_ok (by decide) (by decide) (by decide) (by decide) (by constructor <;> (try simp only [InInt]) <;> decide) (by ex_args)

/-- `cd_stencil_3d_cuda::adj_poisson_offdiag` and `adjcellpoissonoffdiag3d` leave the same memory, for every schedule. -/
theorem C36_adj_poisson_offdiag_3d {i0 j0 k0 i1 j1 k1 pi0 pj0 pk0 pi1 pj1 pk1 dir side btype exOrder sgcw : Int} {dx : Nat → T} {dir_factor neu_factor beta : T} {st_ : Ptr} {β : Backend} {m : Mem T}
    (hβ : ValidBackend β) (hi : i0 ≤ i1) (hj : j0 ≤ j1) (hk : k0 ≤ k1) (hg : 0 ≤ sgcw) (hl : Layer3 i0 j0 k0 i1 j1 k1 sgcw pi0 pj0 pk0 pi1 pj1 pk1 dir side)
    (h : F.Args m [] [F.st3d st_ i0 j0 k0 i1 j1 k1 sgcw]) :
    ∃ m', Cuda.adjPoissonOffdiag3d i0 j0 k0 i1 j1 k1 pi0 pj0 pk0 pi1 pj1 pk1 dir side btype exOrder dx dir_factor neu_factor beta sgcw st_ β m = .ok m' ∧ F.adjcellpoissonoffdiag3d i0 j0 k0 i1 j1 k1 pi0 pj0 pk0 pi1 pj1 pk1 dir side btype exOrder dx dir_factor neu_factor beta sgcw st_ m = .ok m' :=
  C49_adj_poisson_offdiag_3d hβ (fun _ _ => mul_comm) (fun _ _ _ => by ring) (fun _ _ _ => by ring) hi hj hk hg hl h

example : ∃ m', Cuda.adjPoissonOffdiag3d 0 0 0 3 2 1 0 0 2 3 2 2 2 1 4 2 exDx 2 3 4 1 ⟨3, 0⟩ revBackend exRat = .ok m' ∧
    F.adjcellpoissonoffdiag3d 0 0 0 3 2 1 0 0 2 3 2 2 2 1 4 2 exDx 2 3 4 1 ⟨3, 0⟩ exRat = .ok m' :=
  C36_adj_poisson_offdiag_3d revBackend_ok (by decide) (by decide) (by decide) (by decide) (by constructor <;> (try simp only [InInt]) <;> decide) (by ex_args)

/-- `cd_stencil_3d_cuda::adj_cf_offdiag` and `adjcelldiffusioncfoffdiag3d` leave the same memory, for every schedule. -/
theorem C36_adj_cf_offdiag_3d {i0 j0 k0 i1 j1 k1 ci0 cj0 ck0 ci1 cj1 ck1 r dir side intOrder sgcw : Int} {st_ : Ptr} {β : Backend} {m : Mem T}
    (hβ : ValidBackend β) (hi : i0 ≤ i1) (hj : j0 ≤ j1) (hk : k0 ≤ k1) (hg : 0 ≤ sgcw) (hl : Layer3 i0 j0 k0 i1 j1 k1 sgcw ci0 cj0 ck0 ci1 cj1 ck1 dir side)
    (h : F.Args m [] [F.st3d st_ i0 j0 k0 i1 j1 k1 sgcw]) :
    ∃ m', Cuda.adjCfOffdiag3d i0 j0 k0 i1 j1 k1 ci0 cj0 ck0 ci1 cj1 ck1 r dir side intOrder sgcw st_ β m = .ok m' ∧ F.adjcelldiffusioncfoffdiag3d i0 j0 k0 i1 j1 k1 ci0 cj0 ck0 ci1 cj1 ck1 r dir side intOrder sgcw st_ m = .ok m' :=
  C49_adj_cf_offdiag_3d hβ (fun _ _ => by ring) (fun _ => ⟨fun _ => by ring, fun _ => by ring⟩) hi hj hk hg hl h

example : ∃ m', Cuda.adjCfOffdiag3d 0 0 0 3 2 1 0 0 2 3 2 2 2 2 1 2 1 ⟨0, 0⟩ revBackend exRat = .ok m' ∧
    F.adjcelldiffusioncfoffdiag3d 0 0 0 3 2 1 0 0 2 3 2 2 2 2 1 2 1 ⟨0, 0⟩ exRat = .ok m' :=
  C36_adj_cf_offdiag_3d revBackend_ok (by decide) (by decide) (by decide) (by decide) (by constructor <;> (try simp only [InInt]) <;> decide) (by ex_args)

/-- `cd_stencil_3d_cuda::readj_offdiag` and `readjcelldiffusionoffdiag3d` leave the same memory, for every schedule. -/
theorem C36_readj_offdiag_3d {i0 j0 k0 i1 j1 k1 pi0 pj0 pk0 pi1 pj1 pk1 dir side sgcw : Int} {st_ : Ptr} {β : Backend} {m : Mem T}
    (hβ : ValidBackend β) (hi : i0 ≤ i1) (hj : j0 ≤ j1) (hk : k0 ≤ k1) (hg : 0 ≤ sgcw) (hl : Layer3 i0 j0 k0 i1 j1 k1 sgcw pi0 pj0 pk0 pi1 pj1 pk1 dir side)
    (h : F.Args m [] [F.st3d st_ i0 j0 k0 i1 j1 k1 sgcw]) :
    ∃ m', Cuda.readjOffdiag3d i0 j0 k0 i1 j1 k1 pi0 pj0 pk0 pi1 pj1 pk1 dir side sgcw st_ β m = .ok m' ∧ F.readjcelldiffusionoffdiag3d i0 j0 k0 i1 j1 k1 pi0 pj0 pk0 pi1 pj1 pk1 dir side sgcw st_ m = .ok m' :=
  C49_readj_offdiag_3d hβ hi hj hk hg hl h

example : ∃ m', Cuda.readjOffdiag3d 0 0 0 3 2 1 0 0 2 3 2 2 2 1 1 ⟨0, 0⟩ revBackend exRat = .ok m' ∧
    F.readjcelldiffusionoffdiag3d 0 0 0 3 2 1 0 0 2 3 2 2 2 1 1 ⟨0, 0⟩ exRat = .ok m' :=
  C36_readj_offdiag_3d revBackend_ok (by decide) (by decide) (by decide) (by decide) (by constructor <;> (try simp only [InInt]) <;> decide) (by ex_args)

/-- `cd_stencil_3d_cuda::adj_cf_bdryrhs` and `adjcelldiffusioncfbdryrhs3d` leave the same memory, for every schedule. -/
theorem C36_adj_cf_bdryrhs_3d {i0 j0 k0 i1 j1 k1 pi0 pj0 pk0 pi1 pj1 pk1 dir side sgcw gcw : Int} {st_ u_ rhs_ : Ptr} {β : Backend} {m : Mem T}
    (hβ : ValidBackend β) (hi : i0 ≤ i1) (hj : j0 ≤ j1) (hk : k0 ≤ k1) (hg : 0 ≤ sgcw) (hu : 1 ≤ gcw) (hl : Layer3 i0 j0 k0 i1 j1 k1 0 pi0 pj0 pk0 pi1 pj1 pk1 dir side)
    (h : F.Args m [F.cell3d u_ i0 j0 k0 i1 j1 k1 gcw, F.st3d st_ i0 j0 k0 i1 j1 k1 sgcw] [F.cell3d rhs_ i0 j0 k0 i1 j1 k1 0]) :
    ∃ m', Cuda.adjCfBdryrhs3d i0 j0 k0 i1 j1 k1 pi0 pj0 pk0 pi1 pj1 pk1 dir side sgcw st_ gcw u_ rhs_ β m = .ok m' ∧ F.adjcelldiffusioncfbdryrhs3d i0 j0 k0 i1 j1 k1 pi0 pj0 pk0 pi1 pj1 pk1 dir side sgcw st_ gcw u_ rhs_ m = .ok m' :=
  C49_adj_cf_bdryrhs_3d hβ (fun _ _ => by ring) hi hj hk hg hu hl h

example : ∃ m', Cuda.adjCfBdryrhs3d 0 0 0 3 2 1 0 0 2 3 2 2 2 1 1 ⟨0, 0⟩ 1 ⟨1, 0⟩ ⟨2, 0⟩ revBackend exRat = .ok m' ∧
    F.adjcelldiffusioncfbdryrhs3d 0 0 0 3 2 1 0 0 2 3 2 2 2 1 1 ⟨0, 0⟩ 1 ⟨1, 0⟩ ⟨2, 0⟩ exRat = .ok m' :=
  C36_adj_cf_bdryrhs_3d revBackend_ok (by decide) (by decide) (by decide) (by decide) (by decide) (by constructor <;> (try simp only [InInt]) <;> decide) (by ex_args)

end Verif
