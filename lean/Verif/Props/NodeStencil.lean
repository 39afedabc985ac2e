import Verif.Props.Stencil
import Verif.Lemmas.NodeStencil

/-
C69: the stencil coefficient kernels leave the memory the Fortran routines for node data leave.
-/

namespace Verif
open Spec

set_option linter.unusedVariables false

variable {T : Type} [Field T]

/-- `cd_stencil_1d_cuda::offdiag` and `nodediffusionoffdiag1d` leave the same memory when the coefficients have no ghost layer, for every schedule. -/
theorem C69_offdiag_1d {i0 i1 bi0 bi1 : Int} {dx : Nat → T} {beta : T} {b0_ st_ : Ptr} {β : Backend} {m : Mem T}
    (hβ : ValidBackend β) (hi : i0 ≤ i1) (hbi : bi0 ≤ i0 ∧ i1 ≤ bi1)
    (h : F.Args m [F.face1d b0_ bi0 bi1 0] [F.st1d st_ i0 i1 0]) :
    ∃ m', Cuda.offdiag1d i0 i1 bi0 bi1 dx beta b0_ 0 st_ β m = .ok m' ∧ F.nodediffusionoffdiag1d i0 i1 bi0 bi1 dx beta b0_ st_ m = .ok m' :=
  C36_offdiag_1d hβ hi hbi (le_refl 0) h

example : ∃ m', Cuda.offdiag1d 0 3 0 3 exDx 2 ⟨0, 0⟩ 0 ⟨1, 0⟩ revBackend exRat = .ok m' ∧
    F.nodediffusionoffdiag1d 0 3 0 3 exDx 2 ⟨0, 0⟩ ⟨1, 0⟩ exRat = .ok m' :=
  C69_offdiag_1d revBackend_ok (by decide) (by decide) (by ex_args)

/-- `cd_stencil_1d_cuda::poisson_offdiag` and `nodepoissonoffdiag1d` leave the same memory when the coefficients have no ghost layer, for every schedule. -/
theorem C69_poisson_offdiag_1d {i0 i1 : Int} {dx : Nat → T} {beta : T} {st_ : Ptr} {β : Backend} {m : Mem T}
    (hβ : ValidBackend β) (hi : i0 ≤ i1) (h : F.Args m [] [F.st1d st_ i0 i1 0]) :
    ∃ m', Cuda.poissonOffdiag1d i0 i1 dx beta 0 st_ β m = .ok m' ∧ F.nodepoissonoffdiag1d i0 i1 dx beta st_ m = .ok m' :=
  C36_poisson_offdiag_1d hβ hi (le_refl 0) h

example : ∃ m', Cuda.poissonOffdiag1d 0 3 exDx 2 0 ⟨1, 0⟩ revBackend exRat = .ok m' ∧
    F.nodepoissonoffdiag1d 0 3 exDx 2 ⟨1, 0⟩ exRat = .ok m' :=
  C69_poisson_offdiag_1d revBackend_ok (by decide) (by ex_args)

/-- `cd_stencil_1d_cuda::v1diag` and `nodediffusionv1diag1d` leave the same memory when the coefficients have no ghost layer, for every schedule. -/
theorem C69_v1diag_1d {i0 i1 ai0 ai1 : Int} {alpha : T} {a_ st_ : Ptr} {β : Backend} {m : Mem T}
    (hβ : ValidBackend β) (hi : i0 ≤ i1) (hai : ai0 ≤ i0 ∧ i1 ≤ ai1) (h : F.Args m [F.cell1d a_ ai0 ai1 0] [F.st1d st_ i0 i1 0]) :
    ∃ m', Cuda.v1diag1d i0 i1 ai0 ai1 alpha a_ 0 st_ β m = .ok m' ∧ F.nodediffusionv1diag1d i0 i1 ai0 ai1 alpha a_ st_ m = .ok m' :=
  C36_v1diag_1d hβ hi hai (le_refl 0) h

example : ∃ m', Cuda.v1diag1d 0 3 0 3 3 ⟨0, 0⟩ 0 ⟨1, 0⟩ revBackend exRat = .ok m' ∧
    F.nodediffusionv1diag1d 0 3 0 3 3 ⟨0, 0⟩ ⟨1, 0⟩ exRat = .ok m' :=
  C69_v1diag_1d revBackend_ok (by decide) (by decide) (by ex_args)

/-- `cd_stencil_1d_cuda::v2diag` and `nodediffusionv2diag1d` leave the same memory when the coefficients have no ghost layer, for every schedule. -/
theorem C69_v2diag_1d {i0 i1 : Int} {alpha : T} {st_ : Ptr} {β : Backend} {m : Mem T}
    (hβ : ValidBackend β) (hi : i0 ≤ i1) (h : F.Args m [] [F.st1d st_ i0 i1 0]) :
    ∃ m', Cuda.v2diag1d i0 i1 alpha 0 st_ β m = .ok m' ∧ F.nodediffusionv2diag1d i0 i1 alpha st_ m = .ok m' :=
  C36_v2diag_1d hβ hi (le_refl 0) h

example : ∃ m', Cuda.v2diag1d 0 3 3 0 ⟨1, 0⟩ revBackend exRat = .ok m' ∧
    F.nodediffusionv2diag1d 0 3 3 ⟨1, 0⟩ exRat = .ok m' :=
  C69_v2diag_1d revBackend_ok (by decide) (by ex_args)

/-- `cd_stencil_1d_cuda::poisson_diag` and `nodepoissondiag1d` leave the same memory when the coefficients have no ghost layer, for every schedule. -/
theorem C69_poisson_diag_1d {i0 i1 : Int} {st_ : Ptr} {β : Backend} {m : Mem T}
    (hβ : ValidBackend β) (hi : i0 ≤ i1) (h : F.Args m [] [F.st1d st_ i0 i1 0]) :
    ∃ m', Cuda.poissonDiag1d i0 i1 0 st_ β m = .ok m' ∧ F.nodepoissondiag1d i0 i1 st_ m = .ok m' :=
  C36_poisson_diag_1d hβ hi (le_refl 0) h

example : ∃ m', Cuda.poissonDiag1d 0 3 0 ⟨1, 0⟩ revBackend exRat = .ok m' ∧
    F.nodepoissondiag1d 0 3 ⟨1, 0⟩ exRat = .ok m' :=
  C69_poisson_diag_1d revBackend_ok (by decide) (by ex_args)

/-- `cd_stencil_2d_cuda::offdiag` and `nodediffusionoffdiag2d` leave the same memory when the coefficients have no ghost layer, for every schedule. -/
theorem C69_offdiag_2d {i0 j0 i1 j1 bi0 bj0 bi1 bj1 : Int} {dx : Nat → T} {beta : T} {b0_ b1_ st_ : Ptr} {β : Backend} {m : Mem T}
    (hβ : ValidBackend β) (hi : i0 ≤ i1) (hj : j0 ≤ j1) (hbi : bi0 ≤ i0 ∧ i1 ≤ bi1) (hbj : bj0 ≤ j0 ∧ j1 ≤ bj1)
    (h : F.Args m [F.face2d0 b0_ bi0 bj0 bi1 bj1 0, F.face2d1 b1_ bi0 bj0 bi1 bj1 0] [F.st2d st_ i0 j0 i1 j1 0]) :
    ∃ m', Cuda.offdiag2d i0 j0 i1 j1 bi0 bj0 bi1 bj1 dx beta b0_ b1_ 0 st_ β m = .ok m' ∧ F.nodediffusionoffdiag2d i0 j0 i1 j1 bi0 bj0 bi1 bj1 dx beta b0_ b1_ st_ m = .ok m' :=
  C36_offdiag_2d hβ hi hj hbi hbj (le_refl 0) h

example : ∃ m', Cuda.offdiag2d 0 0 3 2 0 0 3 2 exDx 2 ⟨0, 0⟩ ⟨1, 0⟩ 0 ⟨2, 0⟩ revBackend exRat = .ok m' ∧
    F.nodediffusionoffdiag2d 0 0 3 2 0 0 3 2 exDx 2 ⟨0, 0⟩ ⟨1, 0⟩ ⟨2, 0⟩ exRat = .ok m' :=
  C69_offdiag_2d revBackend_ok (by decide) (by decide) (by decide) (by decide) (by ex_args)

/-- `cd_stencil_2d_cuda::poisson_offdiag` and `nodepoissonoffdiag2d` leave the same memory when the coefficients have no ghost layer, for every schedule. -/
theorem C69_poisson_offdiag_2d {i0 j0 i1 j1 : Int} {dx : Nat → T} {beta : T} {st_ : Ptr} {β : Backend} {m : Mem T}
    (hβ : ValidBackend β) (hi : i0 ≤ i1) (hj : j0 ≤ j1) (h : F.Args m [] [F.st2d st_ i0 j0 i1 j1 0]) :
    ∃ m', Cuda.poissonOffdiag2d i0 j0 i1 j1 dx beta 0 st_ β m = .ok m' ∧ F.nodepoissonoffdiag2d i0 j0 i1 j1 dx beta st_ m = .ok m' :=
  C36_poisson_offdiag_2d hβ hi hj (le_refl 0) h

example : ∃ m', Cuda.poissonOffdiag2d 0 0 3 2 exDx 2 0 ⟨1, 0⟩ revBackend exRat = .ok m' ∧
    F.nodepoissonoffdiag2d 0 0 3 2 exDx 2 ⟨1, 0⟩ exRat = .ok m' :=
  C69_poisson_offdiag_2d revBackend_ok (by decide) (by decide) (by ex_args)

/-- `cd_stencil_2d_cuda::v1diag` and `nodediffusionv1diag2d` leave the same memory when the coefficients have no ghost layer, for every schedule. -/
theorem C69_v1diag_2d {i0 j0 i1 j1 ai0 aj0 ai1 aj1 : Int} {alpha : T} {a_ st_ : Ptr} {β : Backend} {m : Mem T}
    (hβ : ValidBackend β) (hi : i0 ≤ i1) (hj : j0 ≤ j1) (hai : ai0 ≤ i0 ∧ i1 ≤ ai1) (haj : aj0 ≤ j0 ∧ j1 ≤ aj1) (h : F.Args m [F.cell2d a_ ai0 aj0 ai1 aj1 0] [F.st2d st_ i0 j0 i1 j1 0]) :
    ∃ m', Cuda.v1diag2d i0 j0 i1 j1 ai0 aj0 ai1 aj1 alpha a_ 0 st_ β m = .ok m' ∧ F.nodediffusionv1diag2d i0 j0 i1 j1 ai0 aj0 ai1 aj1 alpha a_ st_ m = .ok m' :=
  C36_v1diag_2d hβ hi hj hai haj (le_refl 0) h

example : ∃ m', Cuda.v1diag2d 0 0 3 2 0 0 3 2 3 ⟨0, 0⟩ 0 ⟨1, 0⟩ revBackend exRat = .ok m' ∧
    F.nodediffusionv1diag2d 0 0 3 2 0 0 3 2 3 ⟨0, 0⟩ ⟨1, 0⟩ exRat = .ok m' :=
  C69_v1diag_2d revBackend_ok (by decide) (by decide) (by decide) (by decide) (by ex_args)

/-- `cd_stencil_2d_cuda::v2diag` and `nodediffusionv2diag2d` leave the same memory when the coefficients have no ghost layer, for every schedule. -/
theorem C69_v2diag_2d {i0 j0 i1 j1 : Int} {alpha : T} {st_ : Ptr} {β : Backend} {m : Mem T}
    (hβ : ValidBackend β) (hi : i0 ≤ i1) (hj : j0 ≤ j1) (h : F.Args m [] [F.st2d st_ i0 j0 i1 j1 0]) :
    ∃ m', Cuda.v2diag2d i0 j0 i1 j1 alpha 0 st_ β m = .ok m' ∧ F.nodediffusionv2diag2d i0 j0 i1 j1 alpha st_ m = .ok m' :=
  C36_v2diag_2d hβ hi hj (le_refl 0) h

example : ∃ m', Cuda.v2diag2d 0 0 3 2 3 0 ⟨1, 0⟩ revBackend exRat = .ok m' ∧
    F.nodediffusionv2diag2d 0 0 3 2 3 ⟨1, 0⟩ exRat = .ok m' :=
  C69_v2diag_2d revBackend_ok (by decide) (by decide) (by ex_args)

/-- `cd_stencil_2d_cuda::poisson_diag` and `nodepoissondiag2d` leave the same memory when the coefficients have no ghost layer, for every schedule. -/
theorem C69_poisson_diag_2d {i0 j0 i1 j1 : Int} {st_ : Ptr} {β : Backend} {m : Mem T}
    (hβ : ValidBackend β) (hi : i0 ≤ i1) (hj : j0 ≤ j1) (h : F.Args m [] [F.st2d st_ i0 j0 i1 j1 0]) :
    ∃ m', Cuda.poissonDiag2d i0 j0 i1 j1 0 st_ β m = .ok m' ∧ F.nodepoissondiag2d i0 j0 i1 j1 st_ m = .ok m' :=
  C36_poisson_diag_2d hβ hi hj (le_refl 0) h

example : ∃ m', Cuda.poissonDiag2d 0 0 3 2 0 ⟨1, 0⟩ revBackend exRat = .ok m' ∧
    F.nodepoissondiag2d 0 0 3 2 ⟨1, 0⟩ exRat = .ok m' :=
  C69_poisson_diag_2d revBackend_ok (by decide) (by decide) (by ex_args)

/-- `cd_stencil_3d_cuda::offdiag` and `nodediffusionoffdiag3d` leave the same memory when the coefficients have no ghost layer, for every schedule. -/
theorem C69_offdiag_3d {i0 j0 k0 i1 j1 k1 bi0 bj0 bk0 bi1 bj1 bk1 : Int} {dx : Nat → T} {beta : T} {b0_ b1_ b2_ st_ : Ptr} {β : Backend} {m : Mem T}
    (hβ : ValidBackend β) (hi : i0 ≤ i1) (hj : j0 ≤ j1) (hk : k0 ≤ k1) (hbi : bi0 ≤ i0 ∧ i1 ≤ bi1) (hbj : bj0 ≤ j0 ∧ j1 ≤ bj1) (hbk : bk0 ≤ k0 ∧ k1 ≤ bk1)
    (h : F.Args m [F.face3d0 b0_ bi0 bj0 bk0 bi1 bj1 bk1 0, F.face3d1 b1_ bi0 bj0 bk0 bi1 bj1 bk1 0, F.face3d2 b2_ bi0 bj0 bk0 bi1 bj1 bk1 0] [F.st3d st_ i0 j0 k0 i1 j1 k1 0]) :
    ∃ m', Cuda.offdiag3d i0 j0 k0 i1 j1 k1 bi0 bj0 bk0 bi1 bj1 bk1 dx beta b0_ b1_ b2_ 0 st_ β m = .ok m' ∧ F.nodediffusionoffdiag3d i0 j0 k0 i1 j1 k1 bi0 bj0 bk0 bi1 bj1 bk1 dx beta b0_ b1_ b2_ st_ m = .ok m' :=
  C36_offdiag_3d hβ hi hj hk hbi hbj hbk (le_refl 0) h

example : ∃ m', Cuda.offdiag3d 0 0 0 3 2 1 0 0 0 3 2 1 exDx 2 ⟨0, 0⟩ ⟨1, 0⟩ ⟨2, 0⟩ 0 ⟨3, 0⟩ revBackend exRat = .ok m' ∧
    F.nodediffusionoffdiag3d 0 0 0 3 2 1 0 0 0 3 2 1 exDx 2 ⟨0, 0⟩ ⟨1, 0⟩ ⟨2, 0⟩ ⟨3, 0⟩ exRat = .ok m' :=
  C69_offdiag_3d revBackend_ok (by decide) (by decide) (by decide) (by decide) (by decide) (by decide) (by ex_args)

/-- `cd_stencil_3d_cuda::poisson_offdiag` and `nodepoissonoffdiag3d` leave the same memory when the coefficients have no ghost layer, for every schedule. -/
theorem C69_poisson_offdiag_3d {i0 j0 k0 i1 j1 k1 : Int} {dx : Nat → T} {beta : T} {st_ : Ptr} {β : Backend} {m : Mem T}
    (hβ : ValidBackend β) (hi : i0 ≤ i1) (hj : j0 ≤ j1) (hk : k0 ≤ k1) (h : F.Args m [] [F.st3d st_ i0 j0 k0 i1 j1 k1 0]) :
    ∃ m', Cuda.poissonOffdiag3d i0 j0 k0 i1 j1 k1 dx beta 0 st_ β m = .ok m' ∧ F.nodepoissonoffdiag3d i0 j0 k0 i1 j1 k1 dx beta st_ m = .ok m' :=
  C36_poisson_offdiag_3d hβ hi hj hk (le_refl 0) h

example : ∃ m', Cuda.poissonOffdiag3d 0 0 0 3 2 1 exDx 2 0 ⟨1, 0⟩ revBackend exRat = .ok m' ∧
    F.nodepoissonoffdiag3d 0 0 0 3 2 1 exDx 2 ⟨1, 0⟩ exRat = .ok m' :=
  C69_poisson_offdiag_3d revBackend_ok (by decide) (by decide) (by decide) (by ex_args)

/-- `cd_stencil_3d_cuda::v1diag` and `nodediffusionv1diag3d` leave the same memory when the coefficients have no ghost layer, for every schedule. -/
theorem C69_v1diag_3d {i0 j0 k0 i1 j1 k1 ai0 aj0 ak0 ai1 aj1 ak1 : Int} {alpha : T} {a_ st_ : Ptr} {β : Backend} {m : Mem T}
    (hβ : ValidBackend β) (hi : i0 ≤ i1) (hj : j0 ≤ j1) (hk : k0 ≤ k1) (hai : ai0 ≤ i0 ∧ i1 ≤ ai1) (haj : aj0 ≤ j0 ∧ j1 ≤ aj1) (hak : ak0 ≤ k0 ∧ k1 ≤ ak1) (h : F.Args m [F.cell3d a_ ai0 aj0 ak0 ai1 aj1 ak1 0] [F.st3d st_ i0 j0 k0 i1 j1 k1 0]) :
    ∃ m', Cuda.v1diag3d i0 j0 k0 i1 j1 k1 ai0 aj0 ak0 ai1 aj1 ak1 alpha a_ 0 st_ β m = .ok m' ∧ F.nodediffusionv1diag3d i0 j0 k0 i1 j1 k1 ai0 aj0 ak0 ai1 aj1 ak1 alpha a_ st_ m = .ok m' :=
  C36_v1diag_3d hβ hi hj hk hai haj hak (le_refl 0) h

example : ∃ m', Cuda.v1diag3d 0 0 0 3 2 1 0 0 0 3 2 1 3 ⟨0, 0⟩ 0 ⟨1, 0⟩ revBackend exRat = .ok m' ∧
    F.nodediffusionv1diag3d 0 0 0 3 2 1 0 0 0 3 2 1 3 ⟨0, 0⟩ ⟨1, 0⟩ exRat = .ok m' :=
  C69_v1diag_3d revBackend_ok (by decide) (by decide) (by decide) (by decide) (by decide) (by decide) (by ex_args)

/-- `cd_stencil_3d_cuda::v2diag` and `nodediffusionv2diag3d` leave the same memory when the coefficients have no ghost layer, for every schedule. -/
theorem C69_v2diag_3d {i0 j0 k0 i1 j1 k1 : Int} {alpha : T} {st_ : Ptr} {β : Backend} {m : Mem T}
    (hβ : ValidBackend β) (hi : i0 ≤ i1) (hj : j0 ≤ j1) (hk : k0 ≤ k1) (h : F.Args m [] [F.st3d st_ i0 j0 k0 i1 j1 k1 0]) :
    ∃ m', Cuda.v2diag3d i0 j0 k0 i1 j1 k1 alpha 0 st_ β m = .ok m' ∧ F.nodediffusionv2diag3d i0 j0 k0 i1 j1 k1 alpha st_ m = .ok m' :=
  C36_v2diag_3d hβ hi hj hk (le_refl 0) h

example : ∃ m', Cuda.v2diag3d 0 0 0 3 2 1 3 0 ⟨1, 0⟩ revBackend exRat = .ok m' ∧
    F.nodediffusionv2diag3d 0 0 0 3 2 1 3 ⟨1, 0⟩ exRat = .ok m' :=
  C69_v2diag_3d revBackend_ok (by decide) (by decide) (by decide) (by ex_args)

/-- `cd_stencil_3d_cuda::poisson_diag` and `nodepoissondiag3d` leave the same memory when the coefficients have no ghost layer, for every schedule. -/
theorem C69_poisson_diag_3d {i0 j0 k0 i1 j1 k1 : Int} {st_ : Ptr} {β : Backend} {m : Mem T}
    (hβ : ValidBackend β) (hi : i0 ≤ i1) (hj : j0 ≤ j1) (hk : k0 ≤ k1) (h : F.Args m [] [F.st3d st_ i0 j0 k0 i1 j1 k1 0]) :
    ∃ m', Cuda.poissonDiag3d i0 j0 k0 i1 j1 k1 0 st_ β m = .ok m' ∧ F.nodepoissondiag3d i0 j0 k0 i1 j1 k1 st_ m = .ok m' :=
  C36_poisson_diag_3d hβ hi hj hk (le_refl 0) h

example : ∃ m', Cuda.poissonDiag3d 0 0 0 3 2 1 0 ⟨1, 0⟩ revBackend exRat = .ok m' ∧
    F.nodepoissondiag3d 0 0 0 3 2 1 ⟨1, 0⟩ exRat = .ok m' :=
  C69_poisson_diag_3d revBackend_ok (by decide) (by decide) (by decide) (by ex_args)

/-- `cd_stencil_1d_cuda::adj_diag` and `adjnodediffusiondiag1d` leave the same memory when the coefficients have no ghost layer, for every schedule. -/
theorem C69_adj_diag_1d {i0 i1 pi0 pi1 side btype exOrder : Int} {dx : Nat → T} {beta : T} {b0_ st_ : Ptr} {β : Backend} {m : Mem T}
    (hβ : ValidBackend β) (hi : i0 ≤ i1) (hl : Layer1 i0 i1 0 pi0 pi1 side)
    (h : F.Args m [F.face1d b0_ i0 i1 0] [F.st1d st_ i0 i1 0]) :
    ∃ m', Cuda.adjDiag1d i0 i1 pi0 pi1 side btype exOrder dx beta b0_ 0 st_ β m = .ok m' ∧ F.adjnodediffusiondiag1d i0 i1 pi0 pi1 side btype exOrder dx beta b0_ st_ m = .ok m' :=
  C36_adj_diag_1d hβ hi (le_refl 0) hl h

example : ∃ m', Cuda.adjDiag1d 0 3 4 4 1 4 2 exDx 2 ⟨0, 0⟩ 0 ⟨1, 0⟩ revBackend exRat = .ok m' ∧
    F.adjnodediffusiondiag1d 0 3 4 4 1 4 2 exDx 2 ⟨0, 0⟩ ⟨1, 0⟩ exRat = .ok m' :=
  C69_adj_diag_1d revBackend_ok (by decide) (by constructor <;> (try simp only [InInt]) <;> decide) (by ex_args)

/-- `cd_stencil_1d_cuda::adj_poisson_diag` and `adjnodepoissondiag1d` leave the same memory when the coefficients have no ghost layer, for every schedule. -/
theorem C69_adj_poisson_diag_1d {i0 i1 pi0 pi1 side btype exOrder : Int} {dx : Nat → T} {beta : T} {st_ : Ptr} {β : Backend} {m : Mem T}
    (hβ : ValidBackend β) (hi : i0 ≤ i1) (hl : Layer1 i0 i1 0 pi0 pi1 side)
    (h : F.Args m [] [F.st1d st_ i0 i1 0]) :
    ∃ m', Cuda.adjPoissonDiag1d i0 i1 pi0 pi1 side btype exOrder dx beta 0 st_ β m = .ok m' ∧ F.adjnodepoissondiag1d i0 i1 pi0 pi1 side btype exOrder dx beta st_ m = .ok m' :=
  C36_adj_poisson_diag_1d hβ hi (le_refl 0) hl h

example : ∃ m', Cuda.adjPoissonDiag1d 0 3 4 4 1 4 2 exDx 2 0 ⟨1, 0⟩ revBackend exRat = .ok m' ∧
    F.adjnodepoissondiag1d 0 3 4 4 1 4 2 exDx 2 ⟨1, 0⟩ exRat = .ok m' :=
  C69_adj_poisson_diag_1d revBackend_ok (by decide) (by constructor <;> (try simp only [InInt]) <;> decide) (by ex_args)

/-- `cd_stencil_1d_cuda::adj_cf_diag` and `adjnodediffusioncfdiag1d` leave the same memory when the coefficients have no ghost layer, for every schedule. -/
theorem C69_adj_cf_diag_1d {i0 i1 pi0 pi1 r side intOrder : Int} {dx : Nat → T} {beta : T} {b0_ st_ : Ptr} {β : Backend} {m : Mem T}
    (hβ : ValidBackend β) (hi : i0 ≤ i1) (hl : Layer1 i0 i1 0 pi0 pi1 side)
    (h : F.Args m [F.face1d b0_ i0 i1 0] [F.st1d st_ i0 i1 0]) :
    ∃ m', Cuda.adjCfDiag1d i0 i1 pi0 pi1 r side intOrder dx beta b0_ 0 st_ β m = .ok m' ∧ F.adjnodediffusioncfdiag1d i0 i1 pi0 pi1 r side intOrder dx beta b0_ st_ m = .ok m' :=
  C36_adj_cf_diag_1d hβ hi (le_refl 0) hl h

example : ∃ m', Cuda.adjCfDiag1d 0 3 4 4 2 1 2 exDx 2 ⟨0, 0⟩ 0 ⟨1, 0⟩ revBackend exRat = .ok m' ∧
    F.adjnodediffusioncfdiag1d 0 3 4 4 2 1 2 exDx 2 ⟨0, 0⟩ ⟨1, 0⟩ exRat = .ok m' :=
  C69_adj_cf_diag_1d revBackend_ok (by decide) (by constructor <;> (try simp only [InInt]) <;> decide) (by ex_args)

/-- `cd_stencil_1d_cuda::adj_poisson_cf_diag` and `adjnodepoissoncfdiag1d` leave the same memory when the coefficients have no ghost layer, for every schedule. -/
theorem C69_adj_poisson_cf_diag_1d {i0 i1 pi0 pi1 r side intOrder : Int} {dx : Nat → T} {beta : T} {st_ : Ptr} {β : Backend} {m : Mem T}
    (hβ : ValidBackend β) (hi : i0 ≤ i1) (hl : Layer1 i0 i1 0 pi0 pi1 side)
    (h : F.Args m [] [F.st1d st_ i0 i1 0]) :
    ∃ m', Cuda.adjPoissonCfDiag1d i0 i1 pi0 pi1 r side intOrder dx beta 0 st_ β m = .ok m' ∧ F.adjnodepoissoncfdiag1d i0 i1 pi0 pi1 r side intOrder dx beta st_ m = .ok m' :=
  C36_adj_poisson_cf_diag_1d hβ hi (le_refl 0) hl h

example : ∃ m', Cuda.adjPoissonCfDiag1d 0 3 4 4 2 1 2 exDx 2 0 ⟨1, 0⟩ revBackend exRat = .ok m' ∧
    F.adjnodepoissoncfdiag1d 0 3 4 4 2 1 2 exDx 2 ⟨1, 0⟩ exRat = .ok m' :=
  C69_adj_poisson_cf_diag_1d revBackend_ok (by decide) (by constructor <;> (try simp only [InInt]) <;> decide) (by ex_args)

/-- `cd_stencil_1d_cuda::adj_offdiag` and `adjnodediffusionoffdiag1d` leave the same memory when the coefficients have no ghost layer, for every schedule. -/
theorem C69_adj_offdiag_1d {i0 i1 pi0 pi1 side btype exOrder : Int} {dx : Nat → T} {dir_factor neu_factor beta : T} {b0_ st_ : Ptr} {β : Backend} {m : Mem T}
    (hβ : ValidBackend β) (hi : i0 ≤ i1) (hl : Layer1 i0 i1 0 pi0 pi1 side)
    (h : F.Args m [F.face1d b0_ i0 i1 0] [F.st1d st_ i0 i1 0]) :
    ∃ m', Cuda.adjOffdiag1d i0 i1 pi0 pi1 side btype exOrder dx dir_factor neu_factor beta b0_ 0 st_ β m = .ok m' ∧ F.adjnodediffusionoffdiag1d i0 i1 pi0 pi1 side btype exOrder dx dir_factor neu_factor beta b0_ st_ m = .ok m' :=
  C36_adj_offdiag_1d hβ hi (le_refl 0) hl h

example : ∃ m', Cuda.adjOffdiag1d 0 3 4 4 1 4 2 exDx 2 3 4 ⟨0, 0⟩ 0 ⟨1, 0⟩ revBackend exRat = .ok m' ∧
    F.adjnodediffusionoffdiag1d 0 3 4 4 1 4 2 exDx 2 3 4 ⟨0, 0⟩ ⟨1, 0⟩ exRat = .ok m' :=
  C69_adj_offdiag_1d revBackend_ok (by decide) (by constructor <;> (try simp only [InInt]) <;> decide) (by ex_args)

/-- `cd_stencil_1d_cuda::adj_poisson_offdiag` and `adjnodepoissonoffdiag1d` leave the same memory when the coefficients have no ghost layer, for every schedule. -/
theorem C69_adj_poisson_offdiag_1d {i0 i1 pi0 pi1 side btype exOrder : Int} {dx : Nat → T} {dir_factor neu_factor beta : T} {st_ : Ptr} {β : Backend} {m : Mem T}
    (hβ : ValidBackend β) (hi : i0 ≤ i1) (hl : Layer1 i0 i1 0 pi0 pi1 side)
    (h : F.Args m [] [F.st1d st_ i0 i1 0]) :
    ∃ m', Cuda.adjPoissonOffdiag1d i0 i1 pi0 pi1 side btype exOrder dx dir_factor neu_factor beta 0 st_ β m = .ok m' ∧ F.adjnodepoissonoffdiag1d i0 i1 pi0 pi1 side btype exOrder dx dir_factor neu_factor beta st_ m = .ok m' :=
  C36_adj_poisson_offdiag_1d hβ hi (le_refl 0) hl h

example : ∃ m', Cuda.adjPoissonOffdiag1d 0 3 4 4 1 4 2 exDx 2 3 4 0 ⟨1, 0⟩ revBackend exRat = .ok m' ∧
    F.adjnodepoissonoffdiag1d 0 3 4 4 1 4 2 exDx 2 3 4 ⟨1, 0⟩ exRat = .ok m' :=
  C69_adj_poisson_offdiag_1d revBackend_ok (by decide) (by constructor <;> (try simp only [InInt]) <;> decide) (by ex_args)

/-- `cd_stencil_1d_cuda::adj_cf_offdiag` and `adjnodediffusioncfoffdiag1d` leave the same memory when the coefficients have no ghost layer, for every schedule. -/
theorem C69_adj_cf_offdiag_1d {i0 i1 ci0 ci1 r side intOrder : Int} {st_ : Ptr} {β : Backend} {m : Mem T}
    (hβ : ValidBackend β) (hi : i0 ≤ i1) (hl : Layer1 i0 i1 0 ci0 ci1 side)
    (h : F.Args m [] [F.st1d st_ i0 i1 0]) :
    ∃ m', Cuda.adjCfOffdiag1d i0 i1 ci0 ci1 r side intOrder 0 st_ β m = .ok m' ∧ F.adjnodediffusioncfoffdiag1d i0 i1 ci0 ci1 r side intOrder st_ m = .ok m' :=
  C36_adj_cf_offdiag_1d hβ hi (le_refl 0) hl h

example : ∃ m', Cuda.adjCfOffdiag1d 0 3 4 4 2 1 2 0 ⟨0, 0⟩ revBackend exRat = .ok m' ∧
    F.adjnodediffusioncfoffdiag1d 0 3 4 4 2 1 2 ⟨0, 0⟩ exRat = .ok m' :=
  C69_adj_cf_offdiag_1d revBackend_ok (by decide) (by constructor <;> (try simp only [InInt]) <;> decide) (by ex_args)

/-- `cd_stencil_1d_cuda::readj_offdiag` and `readjnodediffusionoffdiag1d` leave the same memory when the coefficients have no ghost layer, for every schedule. -/
theorem C69_readj_offdiag_1d {i0 i1 pi0 pi1 side : Int} {st_ : Ptr} {β : Backend} {m : Mem T}
    (hβ : ValidBackend β) (hi : i0 ≤ i1) (hl : Layer1 i0 i1 0 pi0 pi1 side)
    (h : F.Args m [] [F.st1d st_ i0 i1 0]) :
    ∃ m', Cuda.readjOffdiag1d i0 i1 pi0 pi1 side 0 st_ β m = .ok m' ∧ F.readjnodediffusionoffdiag1d i0 i1 pi0 pi1 side st_ m = .ok m' :=
  C36_readj_offdiag_1d hβ hi (le_refl 0) hl h

example : ∃ m', Cuda.readjOffdiag1d 0 3 4 4 1 0 ⟨0, 0⟩ revBackend exRat = .ok m' ∧
    F.readjnodediffusionoffdiag1d 0 3 4 4 1 ⟨0, 0⟩ exRat = .ok m' :=
  C69_readj_offdiag_1d revBackend_ok (by decide) (by constructor <;> (try simp only [InInt]) <;> decide) (by ex_args)

/-- `cd_stencil_1d_cuda::adj_cf_bdryrhs` and `adjnodediffusioncfbdryrhs1d` leave the same memory when the coefficients have no ghost layer, for every schedule. -/
theorem C69_adj_cf_bdryrhs_1d {i0 i1 pi0 pi1 side gcw : Int} {st_ u_ rhs_ : Ptr} {β : Backend} {m : Mem T}
    (hβ : ValidBackend β) (hi : i0 ≤ i1) (hu : 1 ≤ gcw) (hl : Layer1 i0 i1 0 pi0 pi1 side)
    (h : F.Args m [F.cell1d u_ i0 i1 gcw, F.st1d st_ i0 i1 0] [F.cell1d rhs_ i0 i1 0]) :
    ∃ m', Cuda.adjCfBdryrhs1d i0 i1 pi0 pi1 side 0 st_ gcw u_ rhs_ β m = .ok m' ∧ F.adjnodediffusioncfbdryrhs1d i0 i1 pi0 pi1 side st_ gcw u_ rhs_ m = .ok m' :=
  C36_adj_cf_bdryrhs_1d hβ hi (le_refl 0) hu hl h

example : ∃ m', Cuda.adjCfBdryrhs1d 0 3 4 4 1 0 ⟨0, 0⟩ 1 ⟨1, 0⟩ ⟨2, 0⟩ revBackend exRat = .ok m' ∧
    F.adjnodediffusioncfbdryrhs1d 0 3 4 4 1 ⟨0, 0⟩ 1 ⟨1, 0⟩ ⟨2, 0⟩ exRat = .ok m' :=
  C69_adj_cf_bdryrhs_1d revBackend_ok (by decide) (by decide) (by constructor <;> (try simp only [InInt]) <;> decide) (by ex_args)

/-- `cd_stencil_2d_cuda::adj_diag` and `adjnodediffusiondiag2d` leave the same memory when the coefficients have no ghost layer, for every schedule.
With `btype = 0` and `side = 1` both change the coefficients of the ghost cell behind the face, so there must be one. Not for a Dirichlet boundary at the upper side: there both the kernel and the routine write past the last cell, which without ghost layer is outside the array (`C69_adj_diag_2d_false`). -/
theorem C69_adj_diag_2d_partial {i0 j0 i1 j1 pi0 pj0 pi1 pj1 dir side btype exOrder : Int} {dx : Nat → T} {beta : T} {b0_ b1_ st_ : Ptr} {β : Backend} {m : Mem T}
    (hβ : ValidBackend β) (hi : i0 ≤ i1) (hj : j0 ≤ j1) (hx : ¬ (btype = 0 ∧ side = 1)) (hl : Layer2 i0 j0 i1 j1 0 pi0 pj0 pi1 pj1 dir side)
    (h : F.Args m [F.face2d0 b0_ i0 j0 i1 j1 0, F.face2d1 b1_ i0 j0 i1 j1 0] [F.st2d st_ i0 j0 i1 j1 0]) :
    ∃ m', Cuda.adjDiag2d i0 j0 i1 j1 pi0 pj0 pi1 pj1 dir side btype exOrder dx beta b0_ b1_ 0 st_ β m = .ok m' ∧ F.adjnodediffusiondiag2d i0 j0 i1 j1 pi0 pj0 pi1 pj1 dir side btype exOrder dx beta b0_ b1_ st_ m = .ok m' :=
  C36_adj_diag_2d hβ hi hj (le_refl 0) (fun a b => absurd ⟨a, b⟩ hx) hl h

example : ∃ m', Cuda.adjDiag2d 0 0 3 2 4 0 4 2 0 1 4 2 exDx 2 ⟨0, 0⟩ ⟨1, 0⟩ 0 ⟨2, 0⟩ revBackend exRat = .ok m' ∧
    F.adjnodediffusiondiag2d 0 0 3 2 4 0 4 2 0 1 4 2 exDx 2 ⟨0, 0⟩ ⟨1, 0⟩ ⟨2, 0⟩ exRat = .ok m' :=
  C69_adj_diag_2d_partial revBackend_ok (by decide) (by decide) (by decide) (by constructor <;> (try simp only [InInt]) <;> decide) (by ex_args)

/-- `cd_stencil_2d_cuda::adj_poisson_diag` and `adjnodepoissondiag2d` leave the same memory when the coefficients have no ghost layer, for every schedule. -/
theorem C69_adj_poisson_diag_2d {i0 j0 i1 j1 pi0 pj0 pi1 pj1 dir side btype exOrder : Int} {dx : Nat → T} {beta : T} {st_ : Ptr} {β : Backend} {m : Mem T}
    (hβ : ValidBackend β) (hi : i0 ≤ i1) (hj : j0 ≤ j1) (hl : Layer2 i0 j0 i1 j1 0 pi0 pj0 pi1 pj1 dir side)
    (h : F.Args m [] [F.st2d st_ i0 j0 i1 j1 0]) :
    ∃ m', Cuda.adjPoissonDiag2d i0 j0 i1 j1 pi0 pj0 pi1 pj1 dir side btype exOrder dx beta 0 st_ β m = .ok m' ∧ F.adjnodepoissondiag2d i0 j0 i1 j1 pi0 pj0 pi1 pj1 dir side btype exOrder dx beta st_ m = .ok m' :=
  C36_adj_poisson_diag_2d hβ hi hj (le_refl 0) hl h

example : ∃ m', Cuda.adjPoissonDiag2d 0 0 3 2 4 0 4 2 0 1 4 2 exDx 2 0 ⟨2, 0⟩ revBackend exRat = .ok m' ∧
    F.adjnodepoissondiag2d 0 0 3 2 4 0 4 2 0 1 4 2 exDx 2 ⟨2, 0⟩ exRat = .ok m' :=
  C69_adj_poisson_diag_2d revBackend_ok (by decide) (by decide) (by constructor <;> (try simp only [InInt]) <;> decide) (by ex_args)

/-- `cd_stencil_2d_cuda::adj_cf_diag` and `adjnodediffusioncfdiag2d` leave the same memory when the coefficients have no ghost layer, for every schedule. -/
theorem C69_adj_cf_diag_2d {i0 j0 i1 j1 pi0 pj0 pi1 pj1 r dir side intOrder : Int} {dx : Nat → T} {beta : T} {b0_ b1_ st_ : Ptr} {β : Backend} {m : Mem T}
    (hβ : ValidBackend β) (hi : i0 ≤ i1) (hj : j0 ≤ j1) (hl : Layer2 i0 j0 i1 j1 0 pi0 pj0 pi1 pj1 dir side)
    (h : F.Args m [F.face2d0 b0_ i0 j0 i1 j1 0, F.face2d1 b1_ i0 j0 i1 j1 0] [F.st2d st_ i0 j0 i1 j1 0]) :
    ∃ m', Cuda.adjCfDiag2d i0 j0 i1 j1 pi0 pj0 pi1 pj1 r dir side intOrder dx beta b0_ b1_ 0 st_ β m = .ok m' ∧ F.adjnodediffusioncfdiag2d i0 j0 i1 j1 pi0 pj0 pi1 pj1 r dir side intOrder dx beta b0_ b1_ st_ m = .ok m' :=
  C36_adj_cf_diag_2d hβ hi hj (le_refl 0) hl h

example : ∃ m', Cuda.adjCfDiag2d 0 0 3 2 4 0 4 2 2 0 1 2 exDx 2 ⟨0, 0⟩ ⟨1, 0⟩ 0 ⟨2, 0⟩ revBackend exRat = .ok m' ∧
    F.adjnodediffusioncfdiag2d 0 0 3 2 4 0 4 2 2 0 1 2 exDx 2 ⟨0, 0⟩ ⟨1, 0⟩ ⟨2, 0⟩ exRat = .ok m' :=
  C69_adj_cf_diag_2d revBackend_ok (by decide) (by decide) (by constructor <;> (try simp only [InInt]) <;> decide) (by ex_args)

/-- `cd_stencil_2d_cuda::adj_poisson_cf_diag` and `adjnodepoissoncfdiag2d` leave the same memory when the coefficients have no ghost layer, for every schedule. -/
theorem C69_adj_poisson_cf_diag_2d {i0 j0 i1 j1 pi0 pj0 pi1 pj1 r dir side intOrder : Int} {dx : Nat → T} {beta : T} {st_ : Ptr} {β : Backend} {m : Mem T}
    (hβ : ValidBackend β) (hi : i0 ≤ i1) (hj : j0 ≤ j1) (hl : Layer2 i0 j0 i1 j1 0 pi0 pj0 pi1 pj1 dir side)
    (h : F.Args m [] [F.st2d st_ i0 j0 i1 j1 0]) :
    ∃ m', Cuda.adjPoissonCfDiag2d i0 j0 i1 j1 pi0 pj0 pi1 pj1 r dir side intOrder dx beta 0 st_ β m = .ok m' ∧ F.adjnodepoissoncfdiag2d i0 j0 i1 j1 pi0 pj0 pi1 pj1 r dir side intOrder dx beta st_ m = .ok m' :=
  C36_adj_poisson_cf_diag_2d hβ hi hj (le_refl 0) hl h

example : ∃ m', Cuda.adjPoissonCfDiag2d 0 0 3 2 4 0 4 2 2 0 1 2 exDx 2 0 ⟨2, 0⟩ revBackend exRat = .ok m' ∧
    F.adjnodepoissoncfdiag2d 0 0 3 2 4 0 4 2 2 0 1 2 exDx 2 ⟨2, 0⟩ exRat = .ok m' :=
  C69_adj_poisson_cf_diag_2d revBackend_ok (by decide) (by decide) (by constructor <;> (try simp only [InInt]) <;> decide) (by ex_args)

/-- `cd_stencil_2d_cuda::adj_offdiag` and `adjnodediffusionoffdiag2d` leave the same memory when the coefficients have no ghost layer, for every schedule. -/
theorem C69_adj_offdiag_2d {i0 j0 i1 j1 pi0 pj0 pi1 pj1 dir side btype exOrder : Int} {dx : Nat → T} {dir_factor neu_factor beta : T} {b0_ b1_ st_ : Ptr} {β : Backend} {m : Mem T}
    (hβ : ValidBackend β) (hi : i0 ≤ i1) (hj : j0 ≤ j1) (hl : Layer2 i0 j0 i1 j1 0 pi0 pj0 pi1 pj1 dir side)
    (h : F.Args m [F.face2d0 b0_ i0 j0 i1 j1 0, F.face2d1 b1_ i0 j0 i1 j1 0] [F.st2d st_ i0 j0 i1 j1 0]) :
    ∃ m', Cuda.adjOffdiag2d i0 j0 i1 j1 pi0 pj0 pi1 pj1 dir side btype exOrder dx dir_factor neu_factor beta b0_ b1_ 0 st_ β m = .ok m' ∧ F.adjnodediffusionoffdiag2d i0 j0 i1 j1 pi0 pj0 pi1 pj1 dir side btype exOrder dx dir_factor neu_factor beta b0_ b1_ st_ m = .ok m' :=
  C36_adj_offdiag_2d hβ hi hj (le_refl 0) hl h

example : ∃ m', Cuda.adjOffdiag2d 0 0 3 2 4 0 4 2 0 1 4 2 exDx 2 3 4 ⟨0, 0⟩ ⟨1, 0⟩ 0 ⟨2, 0⟩ revBackend exRat = .ok m' ∧
    F.adjnodediffusionoffdiag2d 0 0 3 2 4 0 4 2 0 1 4 2 exDx 2 3 4 ⟨0, 0⟩ ⟨1, 0⟩ ⟨2, 0⟩ exRat = .ok m' :=
  C69_adj_offdiag_2d revBackend_ok (by decide) (by decide) (by constructor <;> (try simp only [InInt]) <;> decide) (by ex_args)

/-- `cd_stencil_2d_cuda::adj_poisson_offdiag` and `adjnodepoissonoffdiag2d` leave the same memory when the coefficients have no ghost layer, for every schedule. -/
theorem C69_adj_poisson_offdiag_2d {i0 j0 i1 j1 pi0 pj0 pi1 pj1 dir side btype exOrder : Int} {dx : Nat → T} {dir_factor neu_factor beta : T} {st_ : Ptr} {β : Backend} {m : Mem T}
    (hβ : ValidBackend β) (hi : i0 ≤ i1) (hj : j0 ≤ j1) (hl : Layer2 i0 j0 i1 j1 0 pi0 pj0 pi1 pj1 dir side)
    (h : F.Args m [] [F.st2d st_ i0 j0 i1 j1 0]) :
    ∃ m', Cuda.adjPoissonOffdiag2d i0 j0 i1 j1 pi0 pj0 pi1 pj1 dir side btype exOrder dx dir_factor neu_factor beta 0 st_ β m = .ok m' ∧ F.adjnodepoissonoffdiag2d i0 j0 i1 j1 pi0 pj0 pi1 pj1 dir side btype exOrder dx dir_factor neu_factor beta st_ m = .ok m' :=
  C36_adj_poisson_offdiag_2d hβ hi hj (le_refl 0) hl h

example : ∃ m', Cuda.adjPoissonOffdiag2d 0 0 3 2 4 0 4 2 0 1 4 2 exDx 2 3 4 0 ⟨2, 0⟩ revBackend exRat = .ok m' ∧
    F.adjnodepoissonoffdiag2d 0 0 3 2 4 0 4 2 0 1 4 2 exDx 2 3 4 ⟨2, 0⟩ exRat = .ok m' :=
  C69_adj_poisson_offdiag_2d revBackend_ok (by decide) (by decide) (by constructor <;> (try simp only [InInt]) <;> decide) (by ex_args)

/-- `cd_stencil_2d_cuda::adj_cf_offdiag` and `adjnodediffusioncfoffdiag2d` leave the same memory when the coefficients have no ghost layer, for every schedule. -/
theorem C69_adj_cf_offdiag_2d {i0 j0 i1 j1 ci0 cj0 ci1 cj1 r dir side intOrder : Int} {st_ : Ptr} {β : Backend} {m : Mem T}
    (hβ : ValidBackend β) (hi : i0 ≤ i1) (hj : j0 ≤ j1) (hl : Layer2 i0 j0 i1 j1 0 ci0 cj0 ci1 cj1 dir side)
    (h : F.Args m [] [F.st2d st_ i0 j0 i1 j1 0]) :
    ∃ m', Cuda.adjCfOffdiag2d i0 j0 i1 j1 ci0 cj0 ci1 cj1 r dir side intOrder 0 st_ β m = .ok m' ∧ F.adjnodediffusioncfoffdiag2d i0 j0 i1 j1 ci0 cj0 ci1 cj1 r dir side intOrder st_ m = .ok m' :=
  C36_adj_cf_offdiag_2d hβ hi hj (le_refl 0) hl h

example : ∃ m', Cuda.adjCfOffdiag2d 0 0 3 2 4 0 4 2 2 0 1 2 0 ⟨0, 0⟩ revBackend exRat = .ok m' ∧
    F.adjnodediffusioncfoffdiag2d 0 0 3 2 4 0 4 2 2 0 1 2 ⟨0, 0⟩ exRat = .ok m' :=
  C69_adj_cf_offdiag_2d revBackend_ok (by decide) (by decide) (by constructor <;> (try simp only [InInt]) <;> decide) (by ex_args)

/-- `cd_stencil_2d_cuda::readj_offdiag` and `readjnodediffusionoffdiag2d` leave the same memory when the coefficients have no ghost layer, for every schedule. -/
theorem C69_readj_offdiag_2d {i0 j0 i1 j1 pi0 pj0 pi1 pj1 dir side : Int} {st_ : Ptr} {β : Backend} {m : Mem T}
    (hβ : ValidBackend β) (hi : i0 ≤ i1) (hj : j0 ≤ j1) (hl : Layer2 i0 j0 i1 j1 0 pi0 pj0 pi1 pj1 dir side)
    (h : F.Args m [] [F.st2d st_ i0 j0 i1 j1 0]) :
    ∃ m', Cuda.readjOffdiag2d i0 j0 i1 j1 pi0 pj0 pi1 pj1 dir side 0 st_ β m = .ok m' ∧ F.readjnodediffusionoffdiag2d i0 j0 i1 j1 pi0 pj0 pi1 pj1 dir side st_ m = .ok m' :=
  C36_readj_offdiag_2d hβ hi hj (le_refl 0) hl h

example : ∃ m', Cuda.readjOffdiag2d 0 0 3 2 4 0 4 2 0 1 0 ⟨0, 0⟩ revBackend exRat = .ok m' ∧
    F.readjnodediffusionoffdiag2d 0 0 3 2 4 0 4 2 0 1 ⟨0, 0⟩ exRat = .ok m' :=
  C69_readj_offdiag_2d revBackend_ok (by decide) (by decide) (by constructor <;> (try simp only [InInt]) <;> decide) (by ex_args)

/-- `cd_stencil_2d_cuda::adj_cf_bdryrhs` and `adjnodediffusioncfbdryrhs2d` leave the same memory when the coefficients have no ghost layer, for every schedule. -/
theorem C69_adj_cf_bdryrhs_2d {i0 j0 i1 j1 pi0 pj0 pi1 pj1 dir side gcw : Int} {st_ u_ rhs_ : Ptr} {β : Backend} {m : Mem T}
    (hβ : ValidBackend β) (hi : i0 ≤ i1) (hj : j0 ≤ j1) (hu : 1 ≤ gcw) (hl : Layer2 i0 j0 i1 j1 0 pi0 pj0 pi1 pj1 dir side)
    (h : F.Args m [F.cell2d u_ i0 j0 i1 j1 gcw, F.st2d st_ i0 j0 i1 j1 0] [F.cell2d rhs_ i0 j0 i1 j1 0]) :
    ∃ m', Cuda.adjCfBdryrhs2d i0 j0 i1 j1 pi0 pj0 pi1 pj1 dir side 0 st_ gcw u_ rhs_ β m = .ok m' ∧ F.adjnodediffusioncfbdryrhs2d i0 j0 i1 j1 pi0 pj0 pi1 pj1 dir side st_ gcw u_ rhs_ m = .ok m' :=
  C36_adj_cf_bdryrhs_2d hβ hi hj (le_refl 0) hu hl h

example : ∃ m', Cuda.adjCfBdryrhs2d 0 0 3 2 4 0 4 2 0 1 0 ⟨0, 0⟩ 1 ⟨1, 0⟩ ⟨2, 0⟩ revBackend exRat = .ok m' ∧
    F.adjnodediffusioncfbdryrhs2d 0 0 3 2 4 0 4 2 0 1 ⟨0, 0⟩ 1 ⟨1, 0⟩ ⟨2, 0⟩ exRat = .ok m' :=
  C69_adj_cf_bdryrhs_2d revBackend_ok (by decide) (by decide) (by decide) (by constructor <;> (try simp only [InInt]) <;> decide) (by ex_args)

/-- `cd_stencil_3d_cuda::adj_diag` and `adjnodediffusiondiag3d` leave the same memory when the coefficients have no ghost layer, for every schedule. Not for a Dirichlet boundary at the upper side, where the routine writes one cell further than the kernel and leaves its array (`C69_adj_diag_3d_false`). -/
theorem C69_adj_diag_3d_partial {i0 j0 k0 i1 j1 k1 pi0 pj0 pk0 pi1 pj1 pk1 dir side btype exOrder : Int} {dx : Nat → T} {beta : T} {b0_ b1_ b2_ st_ : Ptr} {β : Backend} {m : Mem T}
    (hβ : ValidBackend β) (hi : i0 ≤ i1) (hj : j0 ≤ j1) (hk : k0 ≤ k1) (hx : ¬ (btype = 0 ∧ side = 1)) (hl : Layer3 i0 j0 k0 i1 j1 k1 0 pi0 pj0 pk0 pi1 pj1 pk1 dir side)
    (h : F.Args m [F.face3d0 b0_ i0 j0 k0 i1 j1 k1 0, F.face3d1 b1_ i0 j0 k0 i1 j1 k1 0, F.face3d2 b2_ i0 j0 k0 i1 j1 k1 0] [F.st3d st_ i0 j0 k0 i1 j1 k1 0]) :
    ∃ m', Cuda.adjDiag3d i0 j0 k0 i1 j1 k1 pi0 pj0 pk0 pi1 pj1 pk1 dir side btype exOrder dx beta b0_ b1_ b2_ 0 st_ β m = .ok m' ∧ F.adjnodediffusiondiag3d i0 j0 k0 i1 j1 k1 pi0 pj0 pk0 pi1 pj1 pk1 dir side btype exOrder dx beta b0_ b1_ b2_ st_ m = .ok m' := by
  rw [adjnodediffusiondiag3d_eq hl.hside hx]
  exact C36_adj_diag_3d hβ hi hj hk (le_refl 0) hl h

example : ∃ m', Cuda.adjDiag3d 0 0 0 3 2 1 0 0 2 3 2 2 2 1 4 2 exDx 2 ⟨0, 0⟩ ⟨1, 0⟩ ⟨2, 0⟩ 0 ⟨3, 0⟩ revBackend exRat = .ok m' ∧
    F.adjnodediffusiondiag3d 0 0 0 3 2 1 0 0 2 3 2 2 2 1 4 2 exDx 2 ⟨0, 0⟩ ⟨1, 0⟩ ⟨2, 0⟩ ⟨3, 0⟩ exRat = .ok m' :=
  C69_adj_diag_3d_partial revBackend_ok (by decide) (by decide) (by decide) (by decide) (by constructor <;> (try simp only [InInt]) <;> decide) (by ex_args)

/-- `cd_stencil_3d_cuda::adj_poisson_diag` and `adjnodepoissondiag3d` leave the same memory when the coefficients have no ghost layer, for every schedule. Not for a Dirichlet boundary at the upper side, where the routine writes one cell further than the kernel and leaves its array (`C69_adj_poisson_diag_3d_false`). -/
theorem C69_adj_poisson_diag_3d_partial {i0 j0 k0 i1 j1 k1 pi0 pj0 pk0 pi1 pj1 pk1 dir side btype exOrder : Int} {dx : Nat → T} {beta : T} {st_ : Ptr} {β : Backend} {m : Mem T}
    (hβ : ValidBackend β) (hi : i0 ≤ i1) (hj : j0 ≤ j1) (hk : k0 ≤ k1) (hx : ¬ (btype = 0 ∧ side = 1)) (hl : Layer3 i0 j0 k0 i1 j1 k1 0 pi0 pj0 pk0 pi1 pj1 pk1 dir side)
    (h : F.Args m [] [F.st3d st_ i0 j0 k0 i1 j1 k1 0]) :
    ∃ m', Cuda.adjPoissonDiag3d i0 j0 k0 i1 j1 k1 pi0 pj0 pk0 pi1 pj1 pk1 dir side btype exOrder dx beta 0 st_ β m = .ok m' ∧ F.adjnodepoissondiag3d i0 j0 k0 i1 j1 k1 pi0 pj0 pk0 pi1 pj1 pk1 dir side btype exOrder dx beta st_ m = .ok m' := by
  rw [adjnodepoissondiag3d_eq hl.hside hx]
  exact C36_adj_poisson_diag_3d hβ hi hj hk (le_refl 0) hl h

example : ∃ m', Cuda.adjPoissonDiag3d 0 0 0 3 2 1 0 0 2 3 2 2 2 1 4 2 exDx 2 0 ⟨3, 0⟩ revBackend exRat = .ok m' ∧
    F.adjnodepoissondiag3d 0 0 0 3 2 1 0 0 2 3 2 2 2 1 4 2 exDx 2 ⟨3, 0⟩ exRat = .ok m' :=
  C69_adj_poisson_diag_3d_partial revBackend_ok (by decide) (by decide) (by decide) (by decide) (by constructor <;> (try simp only [InInt]) <;> decide) (by ex_args)

/-- `cd_stencil_3d_cuda::adj_cf_diag` and `adjnodediffusioncfdiag3d` leave the same memory when the coefficients have no ghost layer, for every schedule. Not in the third direction for order 2, where the routine reads the coefficients of the second direction (`C69_adj_cf_diag_3d_false`). -/
theorem C69_adj_cf_diag_3d_partial {i0 j0 k0 i1 j1 k1 pi0 pj0 pk0 pi1 pj1 pk1 r dir side intOrder : Int} {dx : Nat → T} {beta : T} {b0_ b1_ b2_ st_ : Ptr} {β : Backend} {m : Mem T}
    (hβ : ValidBackend β) (hi : i0 ≤ i1) (hj : j0 ≤ j1) (hk : k0 ≤ k1) (hx : ¬ (dir = 2 ∧ intOrder = 2)) (hl : Layer3 i0 j0 k0 i1 j1 k1 0 pi0 pj0 pk0 pi1 pj1 pk1 dir side)
    (h : F.Args m [F.face3d0 b0_ i0 j0 k0 i1 j1 k1 0, F.face3d1 b1_ i0 j0 k0 i1 j1 k1 0, F.face3d2 b2_ i0 j0 k0 i1 j1 k1 0] [F.st3d st_ i0 j0 k0 i1 j1 k1 0]) :
    ∃ m', Cuda.adjCfDiag3d i0 j0 k0 i1 j1 k1 pi0 pj0 pk0 pi1 pj1 pk1 r dir side intOrder dx beta b0_ b1_ b2_ 0 st_ β m = .ok m' ∧ F.adjnodediffusioncfdiag3d i0 j0 k0 i1 j1 k1 pi0 pj0 pk0 pi1 pj1 pk1 r dir side intOrder dx beta b0_ b1_ b2_ st_ m = .ok m' := by
  rw [adjnodediffusioncfdiag3d_eq hx]
  exact C36_adj_cf_diag_3d hβ hi hj hk (le_refl 0) hl h

example : ∃ m', Cuda.adjCfDiag3d 0 0 0 3 2 1 4 0 0 4 2 1 2 0 1 2 exDx 2 ⟨0, 0⟩ ⟨1, 0⟩ ⟨2, 0⟩ 0 ⟨3, 0⟩ revBackend exRat = .ok m' ∧
    F.adjnodediffusioncfdiag3d 0 0 0 3 2 1 4 0 0 4 2 1 2 0 1 2 exDx 2 ⟨0, 0⟩ ⟨1, 0⟩ ⟨2, 0⟩ ⟨3, 0⟩ exRat = .ok m' :=
  C69_adj_cf_diag_3d_partial revBackend_ok (by decide) (by decide) (by decide) (by decide) (by constructor <;> (try simp only [InInt]) <;> decide) (by ex_args)

/-- `cd_stencil_3d_cuda::adj_poisson_cf_diag` and `adjnodepoissoncfdiag3d` leave the same memory when the coefficients have no ghost layer, for every schedule. -/
theorem C69_adj_poisson_cf_diag_3d {i0 j0 k0 i1 j1 k1 pi0 pj0 pk0 pi1 pj1 pk1 r dir side intOrder : Int} {dx : Nat → T} {beta : T} {st_ : Ptr} {β : Backend} {m : Mem T}
    (hβ : ValidBackend β) (hi : i0 ≤ i1) (hj : j0 ≤ j1) (hk : k0 ≤ k1) (hl : Layer3 i0 j0 k0 i1 j1 k1 0 pi0 pj0 pk0 pi1 pj1 pk1 dir side)
    (h : F.Args m [] [F.st3d st_ i0 j0 k0 i1 j1 k1 0]) :
    ∃ m', Cuda.adjPoissonCfDiag3d i0 j0 k0 i1 j1 k1 pi0 pj0 pk0 pi1 pj1 pk1 r dir side intOrder dx beta 0 st_ β m = .ok m' ∧ F.adjnodepoissoncfdiag3d i0 j0 k0 i1 j1 k1 pi0 pj0 pk0 pi1 pj1 pk1 r dir side intOrder dx beta st_ m = .ok m' :=
  C36_adj_poisson_cf_diag_3d hβ hi hj hk (le_refl 0) hl h

example : ∃ m', Cuda.adjPoissonCfDiag3d 0 0 0 3 2 1 0 0 2 3 2 2 2 2 1 2 exDx 2 0 ⟨3, 0⟩ revBackend exRat = .ok m' ∧
    F.adjnodepoissoncfdiag3d 0 0 0 3 2 1 0 0 2 3 2 2 2 2 1 2 exDx 2 ⟨3, 0⟩ exRat = .ok m' :=
  C69_adj_poisson_cf_diag_3d revBackend_ok (by decide) (by decide) (by decide) (by constructor <;> (try simp only [InInt]) <;> decide) (by ex_args)

/-- `cd_stencil_3d_cuda::adj_offdiag` and `adjnodediffusionoffdiag3d` leave the same memory when the coefficients have no ghost layer, for every schedule. Not for a Robin boundary of order 2 at the upper side of the second and third directions, where the routine writes column 1 for every column (`C69_adj_offdiag_3d_false`). -/
theorem C69_adj_offdiag_3d_partial {i0 j0 k0 i1 j1 k1 pi0 pj0 pk0 pi1 pj1 pk1 dir side btype exOrder : Int} {dx : Nat → T} {dir_factor neu_factor beta : T} {b0_ b1_ b2_ st_ : Ptr} {β : Backend} {m : Mem T}
    (hβ : ValidBackend β) (hi : i0 ≤ i1) (hj : j0 ≤ j1) (hk : k0 ≤ k1) (hx : ¬ (btype = 4 ∧ exOrder = 2 ∧ side = 1 ∧ dir ≠ 0)) (hl : Layer3 i0 j0 k0 i1 j1 k1 0 pi0 pj0 pk0 pi1 pj1 pk1 dir side)
    (h : F.Args m [F.face3d0 b0_ i0 j0 k0 i1 j1 k1 0, F.face3d1 b1_ i0 j0 k0 i1 j1 k1 0, F.face3d2 b2_ i0 j0 k0 i1 j1 k1 0] [F.st3d st_ i0 j0 k0 i1 j1 k1 0]) :
    ∃ m', Cuda.adjOffdiag3d i0 j0 k0 i1 j1 k1 pi0 pj0 pk0 pi1 pj1 pk1 dir side btype exOrder dx dir_factor neu_factor beta b0_ b1_ b2_ 0 st_ β m = .ok m' ∧ F.adjnodediffusionoffdiag3d i0 j0 k0 i1 j1 k1 pi0 pj0 pk0 pi1 pj1 pk1 dir side btype exOrder dx dir_factor neu_factor beta b0_ b1_ b2_ st_ m = .ok m' := by
  rw [adjnodediffusionoffdiag3d_eq hl.hside hx]
  exact C36_adj_offdiag_3d hβ hi hj hk (le_refl 0) hl h

example : ∃ m', Cuda.adjOffdiag3d 0 0 0 3 2 1 4 0 0 4 2 1 0 1 4 2 exDx 2 3 4 ⟨0, 0⟩ ⟨1, 0⟩ ⟨2, 0⟩ 0 ⟨3, 0⟩ revBackend exRat = .ok m' ∧
    F.adjnodediffusionoffdiag3d 0 0 0 3 2 1 4 0 0 4 2 1 0 1 4 2 exDx 2 3 4 ⟨0, 0⟩ ⟨1, 0⟩ ⟨2, 0⟩ ⟨3, 0⟩ exRat = .ok m' :=
  C69_adj_offdiag_3d_partial revBackend_ok (by decide) (by decide) (by decide) (by decide) (by constructor <;> (try simp only [InInt]) <;> decide) (by ex_args)

/-- `cd_stencil_3d_cuda::adj_poisson_offdiag` and `adjnodepoissonoffdiag3d` leave the same memory when the coefficients have no ghost layer, for every schedule. Not for a Robin boundary of order 2 at the upper side of the second and third directions, where the routine writes column 1 for every column (`C69_adj_poisson_offdiag_3d_false`). -/
theorem C69_adj_poisson_offdiag_3d_partial {i0 j0 k0 i1 j1 k1 pi0 pj0 pk0 pi1 pj1 pk1 dir side btype exOrder : Int} {dx : Nat → T} {dir_factor neu_factor beta : T} {st_ : Ptr} {β : Backend} {m : Mem T}
    (hβ : ValidBackend β) (hi : i0 ≤ i1) (hj : j0 ≤ j1) (hk : k0 ≤ k1) (hx : ¬ (btype = 4 ∧ exOrder = 2 ∧ side = 1 ∧ dir ≠ 0)) (hl : Layer3 i0 j0 k0 i1 j1 k1 0 pi0 pj0 pk0 pi1 pj1 pk1 dir side)
    (h : F.Args m [] [F.st3d st_ i0 j0 k0 i1 j1 k1 0]) :
    ∃ m', Cuda.adjPoissonOffdiag3d i0 j0 k0 i1 j1 k1 pi0 pj0 pk0 pi1 pj1 pk1 dir side btype exOrder dx dir_factor neu_factor beta 0 st_ β m = .ok m' ∧ F.adjnodepoissonoffdiag3d i0 j0 k0 i1 j1 k1 pi0 pj0 pk0 pi1 pj1 pk1 dir side btype exOrder dx dir_factor neu_factor beta st_ m = .ok m' := by
  rw [adjnodepoissonoffdiag3d_eq hl.hside hx]
  exact C36_adj_poisson_offdiag_3d hβ hi hj hk (le_refl 0) hl h

example : ∃ m', Cuda.adjPoissonOffdiag3d 0 0 0 3 2 1 4 0 0 4 2 1 0 1 4 2 exDx 2 3 4 0 ⟨3, 0⟩ revBackend exRat = .ok m' ∧
    F.adjnodepoissonoffdiag3d 0 0 0 3 2 1 4 0 0 4 2 1 0 1 4 2 exDx 2 3 4 ⟨3, 0⟩ exRat = .ok m' :=
  C69_adj_poisson_offdiag_3d_partial revBackend_ok (by decide) (by decide) (by decide) (by decide) (by constructor <;> (try simp only [InInt]) <;> decide) (by ex_args)

/-- `cd_stencil_3d_cuda::adj_cf_offdiag` and `adjnodediffusioncfoffdiag3d` leave the same memory when the coefficients have no ghost layer, for every schedule. -/
theorem C69_adj_cf_offdiag_3d {i0 j0 k0 i1 j1 k1 ci0 cj0 ck0 ci1 cj1 ck1 r dir side intOrder : Int} {st_ : Ptr} {β : Backend} {m : Mem T}
    (hβ : ValidBackend β) (hi : i0 ≤ i1) (hj : j0 ≤ j1) (hk : k0 ≤ k1) (hl : Layer3 i0 j0 k0 i1 j1 k1 0 ci0 cj0 ck0 ci1 cj1 ck1 dir side)
    (h : F.Args m [] [F.st3d st_ i0 j0 k0 i1 j1 k1 0]) :
    ∃ m', Cuda.adjCfOffdiag3d i0 j0 k0 i1 j1 k1 ci0 cj0 ck0 ci1 cj1 ck1 r dir side intOrder 0 st_ β m = .ok m' ∧ F.adjnodediffusioncfoffdiag3d i0 j0 k0 i1 j1 k1 ci0 cj0 ck0 ci1 cj1 ck1 r dir side intOrder st_ m = .ok m' :=
  C36_adj_cf_offdiag_3d hβ hi hj hk (le_refl 0) hl h

example : ∃ m', Cuda.adjCfOffdiag3d 0 0 0 3 2 1 0 0 2 3 2 2 2 2 1 2 0 ⟨0, 0⟩ revBackend exRat = .ok m' ∧
    F.adjnodediffusioncfoffdiag3d 0 0 0 3 2 1 0 0 2 3 2 2 2 2 1 2 ⟨0, 0⟩ exRat = .ok m' :=
  C69_adj_cf_offdiag_3d revBackend_ok (by decide) (by decide) (by decide) (by constructor <;> (try simp only [InInt]) <;> decide) (by ex_args)

/-- `cd_stencil_3d_cuda::readj_offdiag` and `readjnodediffusionoffdiag3d` leave the same memory when the coefficients have no ghost layer, for every schedule. In the third direction only if the patch starts at the same index in the second direction, which the routine uses instead (`C69_readj_offdiag_3d_false`). -/
theorem C69_readj_offdiag_3d_partial {i0 j0 k0 i1 j1 k1 pi0 pj0 pk0 pi1 pj1 pk1 dir side : Int} {st_ : Ptr} {β : Backend} {m : Mem T}
    (hβ : ValidBackend β) (hi : i0 ≤ i1) (hj : j0 ≤ j1) (hk : k0 ≤ k1) (hx : dir = 2 → pj0 = pk0) (hl : Layer3 i0 j0 k0 i1 j1 k1 0 pi0 pj0 pk0 pi1 pj1 pk1 dir side)
    (h : F.Args m [] [F.st3d st_ i0 j0 k0 i1 j1 k1 0]) :
    ∃ m', Cuda.readjOffdiag3d i0 j0 k0 i1 j1 k1 pi0 pj0 pk0 pi1 pj1 pk1 dir side 0 st_ β m = .ok m' ∧ F.readjnodediffusionoffdiag3d i0 j0 k0 i1 j1 k1 pi0 pj0 pk0 pi1 pj1 pk1 dir side st_ m = .ok m' := by
  rw [readjnodediffusionoffdiag3d_eq hx]
  exact C36_readj_offdiag_3d hβ hi hj hk (le_refl 0) hl h

example : ∃ m', Cuda.readjOffdiag3d 0 0 0 3 2 1 4 0 0 4 2 1 0 1 0 ⟨0, 0⟩ revBackend exRat = .ok m' ∧
    F.readjnodediffusionoffdiag3d 0 0 0 3 2 1 4 0 0 4 2 1 0 1 ⟨0, 0⟩ exRat = .ok m' :=
  C69_readj_offdiag_3d_partial revBackend_ok (by decide) (by decide) (by decide) (by decide) (by constructor <;> (try simp only [InInt]) <;> decide) (by ex_args)

/-- `cd_stencil_3d_cuda::adj_cf_bdryrhs` and `adjnodediffusioncfbdryrhs3d` leave the same memory when the coefficients have no ghost layer, for every schedule. -/
theorem C69_adj_cf_bdryrhs_3d {i0 j0 k0 i1 j1 k1 pi0 pj0 pk0 pi1 pj1 pk1 dir side gcw : Int} {st_ u_ rhs_ : Ptr} {β : Backend} {m : Mem T}
    (hβ : ValidBackend β) (hi : i0 ≤ i1) (hj : j0 ≤ j1) (hk : k0 ≤ k1) (hu : 1 ≤ gcw) (hl : Layer3 i0 j0 k0 i1 j1 k1 0 pi0 pj0 pk0 pi1 pj1 pk1 dir side)
    (h : F.Args m [F.cell3d u_ i0 j0 k0 i1 j1 k1 gcw, F.st3d st_ i0 j0 k0 i1 j1 k1 0] [F.cell3d rhs_ i0 j0 k0 i1 j1 k1 0]) :
    ∃ m', Cuda.adjCfBdryrhs3d i0 j0 k0 i1 j1 k1 pi0 pj0 pk0 pi1 pj1 pk1 dir side 0 st_ gcw u_ rhs_ β m = .ok m' ∧ F.adjnodediffusioncfbdryrhs3d i0 j0 k0 i1 j1 k1 pi0 pj0 pk0 pi1 pj1 pk1 dir side st_ gcw u_ rhs_ m = .ok m' :=
  C36_adj_cf_bdryrhs_3d hβ hi hj hk (le_refl 0) hu hl h

example : ∃ m', Cuda.adjCfBdryrhs3d 0 0 0 3 2 1 0 0 2 3 2 2 2 1 0 ⟨0, 0⟩ 1 ⟨1, 0⟩ ⟨2, 0⟩ revBackend exRat = .ok m' ∧
    F.adjnodediffusioncfbdryrhs3d 0 0 0 3 2 1 0 0 2 3 2 2 2 1 ⟨0, 0⟩ 1 ⟨1, 0⟩ ⟨2, 0⟩ exRat = .ok m' :=
  C69_adj_cf_bdryrhs_3d revBackend_ok (by decide) (by decide) (by decide) (by decide) (by constructor <;> (try simp only [InInt]) <;> decide) (by ex_args)

/-- `adjnodediffusiondiag2d` and `cd_stencil_2d_cuda::adj_diag` at the upper side of a Dirichlet boundary write the coefficients of the cell past the last one: without ghost layer, outside the array. -/
theorem C69_adj_diag_2d_false : ∃ (dx : Nat → Rat) (beta : Rat) (b0_ b1_ st_ : Ptr) (m : Mem Rat),
    Layer2 0 0 1 1 0 2 0 2 1 0 1 ∧ F.Args m [F.face2d0 b0_ 0 0 1 1 0, F.face2d1 b1_ 0 0 1 1 0] [F.st2d st_ 0 0 1 1 0] ∧
    Cuda.adjDiag2d 0 0 1 1 2 0 2 1 0 1 0 2 dx beta b0_ b1_ 0 st_ seqBackend m = .error .oob ∧
      F.adjnodediffusiondiag2d 0 0 1 1 2 0 2 1 0 1 0 2 dx beta b0_ b1_ st_ m = .error .oob :=
  ⟨exDx, 2, ⟨0, 0⟩, ⟨1, 0⟩, ⟨2, 0⟩, exTight, by constructor <;> (try simp only [InInt]) <;> decide, by tight_args, ⟨stops_rat (by decide +kernel), stops_rat (by decide +kernel)⟩⟩

/-- `adjnodediffusiondiag3d` at the upper side of a Dirichlet boundary leaves its array, where `cd_stencil_3d_cuda::adj_diag` does not. -/
theorem C69_adj_diag_3d_false : ∃ (dx : Nat → Rat) (beta : Rat) (b0_ b1_ b2_ st_ : Ptr) (m : Mem Rat),
    Layer3 0 0 0 1 1 1 0 2 0 0 2 1 1 0 1 ∧ F.Args m [F.face3d0 b0_ 0 0 0 1 1 1 0, F.face3d1 b1_ 0 0 0 1 1 1 0, F.face3d2 b2_ 0 0 0 1 1 1 0] [F.st3d st_ 0 0 0 1 1 1 0] ∧
    (∃ m1, Cuda.adjDiag3d 0 0 0 1 1 1 2 0 0 2 1 1 0 1 0 2 dx beta b0_ b1_ b2_ 0 st_ seqBackend m = .ok m1) ∧
      F.adjnodediffusiondiag3d 0 0 0 1 1 1 2 0 0 2 1 1 0 1 0 2 dx beta b0_ b1_ b2_ st_ m = .error .oob :=
  ⟨exDx, 2, ⟨0, 0⟩, ⟨1, 0⟩, ⟨2, 0⟩, ⟨3, 0⟩, exRat, by constructor <;> (try simp only [InInt]) <;> decide, by ex_args, ⟨ends_rat (by decide +kernel), stops_rat (by decide +kernel)⟩⟩

/-- `adjnodepoissondiag3d` at the upper side of a Dirichlet boundary leaves its array, where `cd_stencil_3d_cuda::adj_poisson_diag` does not. -/
theorem C69_adj_poisson_diag_3d_false : ∃ (dx : Nat → Rat) (beta : Rat) (st_ : Ptr) (m : Mem Rat),
    Layer3 0 0 0 1 1 1 0 2 0 0 2 1 1 0 1 ∧ F.Args m [] [F.st3d st_ 0 0 0 1 1 1 0] ∧
    (∃ m1, Cuda.adjPoissonDiag3d 0 0 0 1 1 1 2 0 0 2 1 1 0 1 0 2 dx beta 0 st_ seqBackend m = .ok m1) ∧
      F.adjnodepoissondiag3d 0 0 0 1 1 1 2 0 0 2 1 1 0 1 0 2 dx beta st_ m = .error .oob :=
  ⟨exDx, 2, ⟨0, 0⟩, exRat, by constructor <;> (try simp only [InInt]) <;> decide, by ex_args, ⟨ends_rat (by decide +kernel), stops_rat (by decide +kernel)⟩⟩

/-- `adjnodediffusioncfdiag3d` in the third direction reads the coefficients of the second. -/
theorem C69_adj_cf_diag_3d_false : ∃ (dx : Nat → Rat) (beta : Rat) (b0_ b1_ b2_ st_ : Ptr) (m : Mem Rat),
    Layer3 0 0 0 1 1 1 0 0 0 2 1 1 2 2 1 ∧ F.Args m [F.face3d0 b0_ 0 0 0 1 1 1 0, F.face3d1 b1_ 0 0 0 1 1 1 0, F.face3d2 b2_ 0 0 0 1 1 1 0] [F.st3d st_ 0 0 0 1 1 1 0] ∧
    ∃ m1 m2, Cuda.adjCfDiag3d 0 0 0 1 1 1 0 0 2 1 1 2 2 2 1 2 dx beta b0_ b1_ b2_ 0 st_ seqBackend m = .ok m1 ∧
      F.adjnodediffusioncfdiag3d 0 0 0 1 1 1 0 0 2 1 1 2 2 2 1 2 dx beta b0_ b1_ b2_ st_ m = .ok m2 ∧ m1 ≠ m2 :=
  ⟨exDx, 2, ⟨0, 0⟩, ⟨1, 0⟩, ⟨2, 0⟩, ⟨3, 0⟩, exRat, by constructor <;> (try simp only [InInt]) <;> decide, by ex_args, differ_rat (q := ⟨3, 28⟩) (by decide +kernel)⟩

/-- `adjnodediffusionoffdiag3d` at the upper side of a Robin boundary in the second direction changes the coefficients of column 1 only. -/
theorem C69_adj_offdiag_3d_false : ∃ (dx : Nat → Rat) (dir_factor : Rat) (neu_factor : Rat) (beta : Rat) (b0_ b1_ b2_ st_ : Ptr) (m : Mem Rat),
    Layer3 0 0 0 1 1 1 0 0 2 0 1 2 1 1 1 ∧ F.Args m [F.face3d0 b0_ 0 0 0 1 1 1 0, F.face3d1 b1_ 0 0 0 1 1 1 0, F.face3d2 b2_ 0 0 0 1 1 1 0] [F.st3d st_ 0 0 0 1 1 1 0] ∧
    ∃ m1 m2, Cuda.adjOffdiag3d 0 0 0 1 1 1 0 2 0 1 2 1 1 1 4 2 dx dir_factor neu_factor beta b0_ b1_ b2_ 0 st_ seqBackend m = .ok m1 ∧
      F.adjnodediffusionoffdiag3d 0 0 0 1 1 1 0 2 0 1 2 1 1 1 4 2 dx dir_factor neu_factor beta b0_ b1_ b2_ st_ m = .ok m2 ∧ m1 ≠ m2 :=
  ⟨exDx, 3, 5, 2, ⟨0, 0⟩, ⟨1, 0⟩, ⟨2, 0⟩, ⟨3, 0⟩, exRat, by constructor <;> (try simp only [InInt]) <;> decide, by ex_args, differ_rat (q := ⟨3, 17⟩) (by decide +kernel)⟩

/-- `adjnodepoissonoffdiag3d` at the upper side of a Robin boundary in the second direction changes the coefficients of column 1 only. -/
theorem C69_adj_poisson_offdiag_3d_false : ∃ (dx : Nat → Rat) (dir_factor : Rat) (neu_factor : Rat) (beta : Rat) (st_ : Ptr) (m : Mem Rat),
    Layer3 0 0 0 1 1 1 0 0 2 0 1 2 1 1 1 ∧ F.Args m [] [F.st3d st_ 0 0 0 1 1 1 0] ∧
    ∃ m1 m2, Cuda.adjPoissonOffdiag3d 0 0 0 1 1 1 0 2 0 1 2 1 1 1 4 2 dx dir_factor neu_factor beta 0 st_ seqBackend m = .ok m1 ∧
      F.adjnodepoissonoffdiag3d 0 0 0 1 1 1 0 2 0 1 2 1 1 1 4 2 dx dir_factor neu_factor beta st_ m = .ok m2 ∧ m1 ≠ m2 :=
  ⟨exDx, 3, 5, 2, ⟨0, 0⟩, exRat, by constructor <;> (try simp only [InInt]) <;> decide, by ex_args, differ_rat (q := ⟨0, 17⟩) (by decide +kernel)⟩

/-- `readjnodediffusionoffdiag3d` in the third direction takes the layer from the index of the patch in the second: here it sets the coefficients of the wrong layer. -/
theorem C69_readj_offdiag_3d_false : ∃ (st_ : Ptr) (m : Mem Rat),
    Layer3 0 0 0 1 1 1 0 0 1 2 1 1 2 2 1 ∧ F.Args m [] [F.st3d st_ 0 0 0 1 1 1 0] ∧
    ∃ m1 m2, Cuda.readjOffdiag3d 0 0 0 1 1 1 0 1 2 1 1 2 2 1 0 st_ seqBackend m = .ok m1 ∧
      F.readjnodediffusionoffdiag3d 0 0 0 1 1 1 0 1 2 1 1 2 2 1 st_ m = .ok m2 ∧ m1 ≠ m2 :=
  ⟨⟨0, 0⟩, exRat, by constructor <;> (try simp only [InInt]) <;> decide, by ex_args, differ_rat (q := ⟨0, 48⟩) (by decide +kernel)⟩

end Verif
