import Verif.Props.RoundApply
import Verif.Model.Kernels.Apply
import Verif.Spec.Kernels.Apply

/-
C34: the residual and operator kernels leave the memory the Fortran routines leave.
-/

namespace Verif
open Spec

variable {T : Type} [Field T]

/-- `cd_apply_1d_cuda::diffusion_v1_res` and `celldiffusionv1res1d` leave the same memory, for every schedule. -/
theorem C34_v1_res_1d {i0 i1 agcw ugcw fgcw rgcw : Int} {alpha beta : T} {dx : Nat → T} {a u f f0 res : Ptr} {β : Nat → Backend} {m : Mem T}
    (hβ : ∀ n, ValidBackend (β n)) (hi : i0 ≤ i1) (hagcw : 0 ≤ agcw) (hugcw : 0 ≤ ugcw) (hfgcw : 0 ≤ fgcw) (hrgcw : 0 ≤ rgcw)
    (h : F.Args m [F.cell1d a i0 i1 agcw, F.cell1d u i0 i1 ugcw, F.cell1d f i0 i1 fgcw, F.face1d f0 i0 i1 0]
      [F.cell1d res i0 i1 rgcw]) :
    ∃ m', Cuda.diffusionV1Res1d i0 i1 alpha beta dx agcw a ugcw u fgcw f f0 rgcw res β m = .ok m' ∧ F.celldiffusionv1res1d i0 i1 alpha beta dx agcw a ugcw u fgcw f f0 rgcw res m = .ok m' :=
  C49_v1_res_1d hβ (fun _ _ _ => by ring) hi hagcw hugcw hfgcw hrgcw h

example : ∃ m', Cuda.diffusionV1Res1d 0 3 3 2 exDx 1 ⟨0, 0⟩ 2 ⟨1, 0⟩ 1 ⟨2, 0⟩ ⟨3, 0⟩ 1 ⟨4, 0⟩ (fun _ => revBackend) exRat = .ok m' ∧
    F.celldiffusionv1res1d 0 3 3 2 exDx 1 ⟨0, 0⟩ 2 ⟨1, 0⟩ 1 ⟨2, 0⟩ ⟨3, 0⟩ 1 ⟨4, 0⟩ exRat = .ok m' :=
  C34_v1_res_1d (fun _ => revBackend_ok) (by decide) (by decide) (by decide) (by decide) (by decide) (by ex_args)

/-- `cd_apply_1d_cuda::diffusion_v2_res` and `celldiffusionv2res1d` leave the same memory, for every schedule. -/
theorem C34_v2_res_1d {i0 i1 ugcw fgcw rgcw : Int} {alpha beta : T} {dx : Nat → T} {u f f0 res : Ptr} {β : Nat → Backend} {m : Mem T}
    (hβ : ∀ n, ValidBackend (β n)) (hi : i0 ≤ i1) (hugcw : 0 ≤ ugcw) (hfgcw : 0 ≤ fgcw) (hrgcw : 0 ≤ rgcw)
    (h : F.Args m [F.cell1d u i0 i1 ugcw, F.cell1d f i0 i1 fgcw, F.face1d f0 i0 i1 0]
      [F.cell1d res i0 i1 rgcw]) :
    ∃ m', Cuda.diffusionV2Res1d i0 i1 alpha beta dx ugcw u fgcw f f0 rgcw res β m = .ok m' ∧ F.celldiffusionv2res1d i0 i1 alpha beta dx ugcw u fgcw f f0 rgcw res m = .ok m' :=
  C49_v2_res_1d hβ (fun _ _ _ => by ring) hi hugcw hfgcw hrgcw h

example : ∃ m', Cuda.diffusionV2Res1d 0 3 3 2 exDx 1 ⟨0, 0⟩ 2 ⟨1, 0⟩ ⟨2, 0⟩ 1 ⟨3, 0⟩ (fun _ => revBackend) exRat = .ok m' ∧
    F.celldiffusionv2res1d 0 3 3 2 exDx 1 ⟨0, 0⟩ 2 ⟨1, 0⟩ ⟨2, 0⟩ 1 ⟨3, 0⟩ exRat = .ok m' :=
  C34_v2_res_1d (fun _ => revBackend_ok) (by decide) (by decide) (by decide) (by decide) (by ex_args)

/-- `cd_apply_1d_cuda::poisson_v1_res` and `cellpoissonv1res1d` leave the same memory, for every schedule. -/
theorem C34_poisson_res_1d {i0 i1 fgcw rgcw : Int} {beta : T} {dx : Nat → T} {f f0 res : Ptr} {β : Nat → Backend} {m : Mem T}
    (hβ : ∀ n, ValidBackend (β n)) (hi : i0 ≤ i1) (hfgcw : 0 ≤ fgcw) (hrgcw : 0 ≤ rgcw)
    (h : F.Args m [F.cell1d f i0 i1 fgcw, F.face1d f0 i0 i1 0]
      [F.cell1d res i0 i1 rgcw]) :
    ∃ m', Cuda.poissonV1Res1d i0 i1 beta dx fgcw f f0 rgcw res β m = .ok m' ∧ F.cellpoissonv1res1d i0 i1 beta dx fgcw f f0 rgcw res m = .ok m' :=
  C49_poisson_res_1d hβ (fun _ _ => by ring) hi hfgcw hrgcw h

example : ∃ m', Cuda.poissonV1Res1d 0 3 2 exDx 1 ⟨0, 0⟩ ⟨1, 0⟩ 1 ⟨2, 0⟩ (fun _ => revBackend) exRat = .ok m' ∧
    F.cellpoissonv1res1d 0 3 2 exDx 1 ⟨0, 0⟩ ⟨1, 0⟩ 1 ⟨2, 0⟩ exRat = .ok m' :=
  C34_poisson_res_1d (fun _ => revBackend_ok) (by decide) (by decide) (by decide) (by ex_args)

/-- `cd_apply_1d_cuda::diffusion_v1_apply` and `celldiffusionv1apply1d` leave the same memory, for every schedule. -/
theorem C34_v1_apply_1d {i0 i1 agcw ugcw rgcw : Int} {alpha beta : T} {dx : Nat → T} {a u f0 res : Ptr} {β : Nat → Backend} {m : Mem T}
    (hβ : ∀ n, ValidBackend (β n)) (hi : i0 ≤ i1) (hagcw : 0 ≤ agcw) (hugcw : 0 ≤ ugcw) (hrgcw : 0 ≤ rgcw)
    (h : F.Args m [F.cell1d a i0 i1 agcw, F.cell1d u i0 i1 ugcw, F.face1d f0 i0 i1 0]
      [F.cell1d res i0 i1 rgcw]) :
    ∃ m', Cuda.diffusionV1Apply1d i0 i1 alpha beta dx agcw a ugcw u f0 rgcw res β m = .ok m' ∧ F.celldiffusionv1apply1d i0 i1 alpha beta dx agcw a ugcw u f0 rgcw res m = .ok m' :=
  C49_v1_apply_1d hβ (fun _ _ => by ring) hi hagcw hugcw hrgcw h

example : ∃ m', Cuda.diffusionV1Apply1d 0 3 3 2 exDx 1 ⟨0, 0⟩ 2 ⟨1, 0⟩ ⟨2, 0⟩ 1 ⟨3, 0⟩ (fun _ => revBackend) exRat = .ok m' ∧
    F.celldiffusionv1apply1d 0 3 3 2 exDx 1 ⟨0, 0⟩ 2 ⟨1, 0⟩ ⟨2, 0⟩ 1 ⟨3, 0⟩ exRat = .ok m' :=
  C34_v1_apply_1d (fun _ => revBackend_ok) (by decide) (by decide) (by decide) (by decide) (by ex_args)

/-- `cd_apply_1d_cuda::diffusion_v2_apply` and `celldiffusionv2apply1d` leave the same memory, for every schedule. -/
theorem C34_v2_apply_1d {i0 i1 ugcw rgcw : Int} {alpha beta : T} {dx : Nat → T} {u f0 res : Ptr} {β : Nat → Backend} {m : Mem T}
    (hβ : ∀ n, ValidBackend (β n)) (hi : i0 ≤ i1) (hugcw : 0 ≤ ugcw) (hrgcw : 0 ≤ rgcw)
    (h : F.Args m [F.cell1d u i0 i1 ugcw, F.face1d f0 i0 i1 0]
      [F.cell1d res i0 i1 rgcw]) :
    ∃ m', Cuda.diffusionV2Apply1d i0 i1 alpha beta dx ugcw u f0 rgcw res β m = .ok m' ∧ F.celldiffusionv2apply1d i0 i1 alpha beta dx ugcw u f0 rgcw res m = .ok m' :=
  C49_v2_apply_1d hβ (fun _ _ => by ring) hi hugcw hrgcw h

example : ∃ m', Cuda.diffusionV2Apply1d 0 3 3 2 exDx 1 ⟨0, 0⟩ ⟨1, 0⟩ 1 ⟨2, 0⟩ (fun _ => revBackend) exRat = .ok m' ∧
    F.celldiffusionv2apply1d 0 3 3 2 exDx 1 ⟨0, 0⟩ ⟨1, 0⟩ 1 ⟨2, 0⟩ exRat = .ok m' :=
  C34_v2_apply_1d (fun _ => revBackend_ok) (by decide) (by decide) (by decide) (by ex_args)

/-- `cd_apply_1d_cuda::poisson_v2_apply` and `cellpoissonv2apply1d` leave the same memory, for every schedule. -/
theorem C34_poisson_apply_1d {i0 i1 rgcw : Int} {beta : T} {dx : Nat → T} {f0 res : Ptr} {β : Nat → Backend} {m : Mem T}
    (hβ : ∀ n, ValidBackend (β n)) (hi : i0 ≤ i1) (hrgcw : 0 ≤ rgcw)
    (h : F.Args m [F.face1d f0 i0 i1 0]
      [F.cell1d res i0 i1 rgcw]) :
    ∃ m', Cuda.poissonV2Apply1d i0 i1 beta dx f0 rgcw res β m = .ok m' ∧ F.cellpoissonv2apply1d i0 i1 beta dx f0 rgcw res m = .ok m' :=
  C49_poisson_apply_1d hβ (fun _ _ => by ring) hi hrgcw h

example : ∃ m', Cuda.poissonV2Apply1d 0 3 2 exDx ⟨0, 0⟩ 1 ⟨1, 0⟩ (fun _ => revBackend) exRat = .ok m' ∧
    F.cellpoissonv2apply1d 0 3 2 exDx ⟨0, 0⟩ 1 ⟨1, 0⟩ exRat = .ok m' :=
  C34_poisson_apply_1d (fun _ => revBackend_ok) (by decide) (by decide) (by ex_args)

/-- `cd_apply_2d_cuda::diffusion_v1_res` and `celldiffusionv1res2d` leave the same memory, for every schedule. -/
theorem C34_v1_res_2d {i0 i1 j0 j1 agcw ugcw fgcw rgcw : Int} {alpha beta : T} {dx : Nat → T} {a u f f0 f1 res : Ptr} {β : Nat → Backend} {m : Mem T}
    (hβ : ∀ n, ValidBackend (β n)) (hi : i0 ≤ i1) (hj : j0 ≤ j1) (hagcw : 0 ≤ agcw) (hugcw : 0 ≤ ugcw) (hfgcw : 0 ≤ fgcw) (hrgcw : 0 ≤ rgcw)
    (h : F.Args m [F.cell2d a i0 j0 i1 j1 agcw, F.cell2d u i0 j0 i1 j1 ugcw, F.cell2d f i0 j0 i1 j1 fgcw, F.face2d0 f0 i0 j0 i1 j1 0, F.face2d1 f1 i0 j0 i1 j1 0]
      [F.cell2d res i0 j0 i1 j1 rgcw]) :
    ∃ m', Cuda.diffusionV1Res2d i0 i1 j0 j1 alpha beta dx agcw a ugcw u fgcw f f0 f1 rgcw res β m = .ok m' ∧ F.celldiffusionv1res2d i0 i1 j0 j1 alpha beta dx agcw a ugcw u fgcw f f0 f1 rgcw res m = .ok m' :=
  C49_v1_res_2d hβ (fun _ _ _ => by ring) hi hj hagcw hugcw hfgcw hrgcw h

example : ∃ m', Cuda.diffusionV1Res2d 0 2 1 3 3 2 exDx 1 ⟨0, 0⟩ 2 ⟨1, 0⟩ 1 ⟨2, 0⟩ ⟨3, 0⟩ ⟨4, 0⟩ 1 ⟨5, 0⟩ (fun _ => revBackend) exRat = .ok m' ∧
    F.celldiffusionv1res2d 0 2 1 3 3 2 exDx 1 ⟨0, 0⟩ 2 ⟨1, 0⟩ 1 ⟨2, 0⟩ ⟨3, 0⟩ ⟨4, 0⟩ 1 ⟨5, 0⟩ exRat = .ok m' :=
  C34_v1_res_2d (fun _ => revBackend_ok) (by decide) (by decide) (by decide) (by decide) (by decide) (by decide) (by ex_args)

/-- `cd_apply_2d_cuda::diffusion_v2_res` and `celldiffusionv2res2d` leave the same memory, for every schedule. -/
theorem C34_v2_res_2d {i0 i1 j0 j1 ugcw fgcw rgcw : Int} {alpha beta : T} {dx : Nat → T} {u f f0 f1 res : Ptr} {β : Nat → Backend} {m : Mem T}
    (hβ : ∀ n, ValidBackend (β n)) (hi : i0 ≤ i1) (hj : j0 ≤ j1) (hugcw : 0 ≤ ugcw) (hfgcw : 0 ≤ fgcw) (hrgcw : 0 ≤ rgcw)
    (h : F.Args m [F.cell2d u i0 j0 i1 j1 ugcw, F.cell2d f i0 j0 i1 j1 fgcw, F.face2d0 f0 i0 j0 i1 j1 0, F.face2d1 f1 i0 j0 i1 j1 0]
      [F.cell2d res i0 j0 i1 j1 rgcw]) :
    ∃ m', Cuda.diffusionV2Res2d i0 i1 j0 j1 alpha beta dx ugcw u fgcw f f0 f1 rgcw res β m = .ok m' ∧ F.celldiffusionv2res2d i0 i1 j0 j1 alpha beta dx ugcw u fgcw f f0 f1 rgcw res m = .ok m' :=
  C49_v2_res_2d hβ (fun _ _ _ => by ring) hi hj hugcw hfgcw hrgcw h

example : ∃ m', Cuda.diffusionV2Res2d 0 2 1 3 3 2 exDx 1 ⟨0, 0⟩ 2 ⟨1, 0⟩ ⟨2, 0⟩ ⟨3, 0⟩ 1 ⟨4, 0⟩ (fun _ => revBackend) exRat = .ok m' ∧
    F.celldiffusionv2res2d 0 2 1 3 3 2 exDx 1 ⟨0, 0⟩ 2 ⟨1, 0⟩ ⟨2, 0⟩ ⟨3, 0⟩ 1 ⟨4, 0⟩ exRat = .ok m' :=
  C34_v2_res_2d (fun _ => revBackend_ok) (by decide) (by decide) (by decide) (by decide) (by decide) (by ex_args)

/-- `cd_apply_2d_cuda::poisson_v1_res` and `cellpoissonv1res2d` leave the same memory, for every schedule. -/
theorem C34_poisson_res_2d {i0 i1 j0 j1 fgcw rgcw : Int} {beta : T} {dx : Nat → T} {f f0 f1 res : Ptr} {β : Nat → Backend} {m : Mem T}
    (hβ : ∀ n, ValidBackend (β n)) (hi : i0 ≤ i1) (hj : j0 ≤ j1) (hfgcw : 0 ≤ fgcw) (hrgcw : 0 ≤ rgcw)
    (h : F.Args m [F.cell2d f i0 j0 i1 j1 fgcw, F.face2d0 f0 i0 j0 i1 j1 0, F.face2d1 f1 i0 j0 i1 j1 0]
      [F.cell2d res i0 j0 i1 j1 rgcw]) :
    ∃ m', Cuda.poissonV1Res2d i0 i1 j0 j1 beta dx fgcw f f0 f1 rgcw res β m = .ok m' ∧ F.cellpoissonv1res2d i0 i1 j0 j1 beta dx fgcw f f0 f1 rgcw res m = .ok m' :=
  C49_poisson_res_2d hβ (fun _ _ => by ring) hi hj hfgcw hrgcw h

example : ∃ m', Cuda.poissonV1Res2d 0 2 1 3 2 exDx 1 ⟨0, 0⟩ ⟨1, 0⟩ ⟨2, 0⟩ 1 ⟨3, 0⟩ (fun _ => revBackend) exRat = .ok m' ∧
    F.cellpoissonv1res2d 0 2 1 3 2 exDx 1 ⟨0, 0⟩ ⟨1, 0⟩ ⟨2, 0⟩ 1 ⟨3, 0⟩ exRat = .ok m' :=
  C34_poisson_res_2d (fun _ => revBackend_ok) (by decide) (by decide) (by decide) (by decide) (by ex_args)

/-- `cd_apply_2d_cuda::diffusion_v1_apply` and `celldiffusionv1apply2d` leave the same memory, for every schedule. -/
theorem C34_v1_apply_2d {i0 i1 j0 j1 agcw ugcw rgcw : Int} {alpha beta : T} {dx : Nat → T} {a u f0 f1 res : Ptr} {β : Nat → Backend} {m : Mem T}
    (hβ : ∀ n, ValidBackend (β n)) (hi : i0 ≤ i1) (hj : j0 ≤ j1) (hagcw : 0 ≤ agcw) (hugcw : 0 ≤ ugcw) (hrgcw : 0 ≤ rgcw)
    (h : F.Args m [F.cell2d a i0 j0 i1 j1 agcw, F.cell2d u i0 j0 i1 j1 ugcw, F.face2d0 f0 i0 j0 i1 j1 0, F.face2d1 f1 i0 j0 i1 j1 0]
      [F.cell2d res i0 j0 i1 j1 rgcw]) :
    ∃ m', Cuda.diffusionV1Apply2d i0 i1 j0 j1 alpha beta dx agcw a ugcw u f0 f1 rgcw res β m = .ok m' ∧ F.celldiffusionv1apply2d i0 i1 j0 j1 alpha beta dx agcw a ugcw u f0 f1 rgcw res m = .ok m' :=
  C49_v1_apply_2d hβ (fun _ _ => by ring) hi hj hagcw hugcw hrgcw h

example : ∃ m', Cuda.diffusionV1Apply2d 0 2 1 3 3 2 exDx 1 ⟨0, 0⟩ 2 ⟨1, 0⟩ ⟨2, 0⟩ ⟨3, 0⟩ 1 ⟨4, 0⟩ (fun _ => revBackend) exRat = .ok m' ∧
    F.celldiffusionv1apply2d 0 2 1 3 3 2 exDx 1 ⟨0, 0⟩ 2 ⟨1, 0⟩ ⟨2, 0⟩ ⟨3, 0⟩ 1 ⟨4, 0⟩ exRat = .ok m' :=
  C34_v1_apply_2d (fun _ => revBackend_ok) (by decide) (by decide) (by decide) (by decide) (by decide) (by ex_args)

/-- `cd_apply_2d_cuda::diffusion_v2_apply` and `celldiffusionv2apply2d` leave the same memory, for every schedule. -/
theorem C34_v2_apply_2d {i0 i1 j0 j1 ugcw rgcw : Int} {alpha beta : T} {dx : Nat → T} {u f0 f1 res : Ptr} {β : Nat → Backend} {m : Mem T}
    (hβ : ∀ n, ValidBackend (β n)) (hi : i0 ≤ i1) (hj : j0 ≤ j1) (hugcw : 0 ≤ ugcw) (hrgcw : 0 ≤ rgcw)
    (h : F.Args m [F.cell2d u i0 j0 i1 j1 ugcw, F.face2d0 f0 i0 j0 i1 j1 0, F.face2d1 f1 i0 j0 i1 j1 0]
      [F.cell2d res i0 j0 i1 j1 rgcw]) :
    ∃ m', Cuda.diffusionV2Apply2d i0 i1 j0 j1 alpha beta dx ugcw u f0 f1 rgcw res β m = .ok m' ∧ F.celldiffusionv2apply2d i0 i1 j0 j1 alpha beta dx ugcw u f0 f1 rgcw res m = .ok m' :=
  C49_v2_apply_2d hβ (fun _ _ => by ring) hi hj hugcw hrgcw h

example : ∃ m', Cuda.diffusionV2Apply2d 0 2 1 3 3 2 exDx 1 ⟨0, 0⟩ ⟨1, 0⟩ ⟨2, 0⟩ 1 ⟨3, 0⟩ (fun _ => revBackend) exRat = .ok m' ∧
    F.celldiffusionv2apply2d 0 2 1 3 3 2 exDx 1 ⟨0, 0⟩ ⟨1, 0⟩ ⟨2, 0⟩ 1 ⟨3, 0⟩ exRat = .ok m' :=
  C34_v2_apply_2d (fun _ => revBackend_ok) (by decide) (by decide) (by decide) (by decide) (by ex_args)

/-- `cd_apply_2d_cuda::poisson_v2_apply` and `cellpoissonv2apply2d` leave the same memory, for every schedule. -/
theorem C34_poisson_apply_2d {i0 i1 j0 j1 rgcw : Int} {beta : T} {dx : Nat → T} {f0 f1 res : Ptr} {β : Nat → Backend} {m : Mem T}
    (hβ : ∀ n, ValidBackend (β n)) (hi : i0 ≤ i1) (hj : j0 ≤ j1) (hrgcw : 0 ≤ rgcw)
    (h : F.Args m [F.face2d0 f0 i0 j0 i1 j1 0, F.face2d1 f1 i0 j0 i1 j1 0]
      [F.cell2d res i0 j0 i1 j1 rgcw]) :
    ∃ m', Cuda.poissonV2Apply2d i0 i1 j0 j1 beta dx f0 f1 rgcw res β m = .ok m' ∧ F.cellpoissonv2apply2d i0 i1 j0 j1 beta dx f0 f1 rgcw res m = .ok m' :=
  C49_poisson_apply_2d hβ (fun _ _ => by ring) hi hj hrgcw h

example : ∃ m', Cuda.poissonV2Apply2d 0 2 1 3 2 exDx ⟨0, 0⟩ ⟨1, 0⟩ 1 ⟨2, 0⟩ (fun _ => revBackend) exRat = .ok m' ∧
    F.cellpoissonv2apply2d 0 2 1 3 2 exDx ⟨0, 0⟩ ⟨1, 0⟩ 1 ⟨2, 0⟩ exRat = .ok m' :=
  C34_poisson_apply_2d (fun _ => revBackend_ok) (by decide) (by decide) (by decide) (by ex_args)

/-- `cd_apply_3d_cuda::diffusion_v1_res` and `celldiffusionv1res3d` leave the same memory, for every schedule. -/
theorem C34_v1_res_3d {i0 i1 j0 j1 k0 k1 agcw ugcw fgcw rgcw : Int} {alpha beta : T} {dx : Nat → T} {a u f f0 f1 f2 res : Ptr} {β : Nat → Backend} {m : Mem T}
    (hβ : ∀ n, ValidBackend (β n)) (hi : i0 ≤ i1) (hj : j0 ≤ j1) (hk : k0 ≤ k1) (hagcw : 0 ≤ agcw) (hugcw : 0 ≤ ugcw) (hfgcw : 0 ≤ fgcw) (hrgcw : 0 ≤ rgcw)
    (h : F.Args m [F.cell3d a i0 j0 k0 i1 j1 k1 agcw, F.cell3d u i0 j0 k0 i1 j1 k1 ugcw, F.cell3d f i0 j0 k0 i1 j1 k1 fgcw, F.face3d0 f0 i0 j0 k0 i1 j1 k1 0, F.face3d1 f1 i0 j0 k0 i1 j1 k1 0, F.face3d2 f2 i0 j0 k0 i1 j1 k1 0]
      [F.cell3d res i0 j0 k0 i1 j1 k1 rgcw]) :
    ∃ m', Cuda.diffusionV1Res3d i0 i1 j0 j1 k0 k1 alpha beta dx agcw a ugcw u fgcw f f0 f1 f2 rgcw res β m = .ok m' ∧ F.celldiffusionv1res3d i0 i1 j0 j1 k0 k1 alpha beta dx agcw a ugcw u fgcw f f0 f1 f2 rgcw res m = .ok m' :=
  C49_v1_res_3d hβ (fun _ _ _ => by ring) hi hj hk hagcw hugcw hfgcw hrgcw h

example : ∃ m', Cuda.diffusionV1Res3d 0 2 1 3 2 3 3 2 exDx 1 ⟨0, 0⟩ 2 ⟨1, 0⟩ 1 ⟨2, 0⟩ ⟨3, 0⟩ ⟨4, 0⟩ ⟨5, 0⟩ 1 ⟨6, 0⟩ (fun _ => revBackend) exRat = .ok m' ∧
    F.celldiffusionv1res3d 0 2 1 3 2 3 3 2 exDx 1 ⟨0, 0⟩ 2 ⟨1, 0⟩ 1 ⟨2, 0⟩ ⟨3, 0⟩ ⟨4, 0⟩ ⟨5, 0⟩ 1 ⟨6, 0⟩ exRat = .ok m' :=
  C34_v1_res_3d (fun _ => revBackend_ok) (by decide) (by decide) (by decide) (by decide) (by decide) (by decide) (by decide) (by ex_args)

/-- `cd_apply_3d_cuda::diffusion_v2_res` and `celldiffusionv2res3d` leave the same memory, for every schedule. -/
theorem C34_v2_res_3d {i0 i1 j0 j1 k0 k1 ugcw fgcw rgcw : Int} {alpha beta : T} {dx : Nat → T} {u f f0 f1 f2 res : Ptr} {β : Nat → Backend} {m : Mem T}
    (hβ : ∀ n, ValidBackend (β n)) (hi : i0 ≤ i1) (hj : j0 ≤ j1) (hk : k0 ≤ k1) (hugcw : 0 ≤ ugcw) (hfgcw : 0 ≤ fgcw) (hrgcw : 0 ≤ rgcw)
    (h : F.Args m [F.cell3d u i0 j0 k0 i1 j1 k1 ugcw, F.cell3d f i0 j0 k0 i1 j1 k1 fgcw, F.face3d0 f0 i0 j0 k0 i1 j1 k1 0, F.face3d1 f1 i0 j0 k0 i1 j1 k1 0, F.face3d2 f2 i0 j0 k0 i1 j1 k1 0]
      [F.cell3d res i0 j0 k0 i1 j1 k1 rgcw]) :
    ∃ m', Cuda.diffusionV2Res3d i0 i1 j0 j1 k0 k1 alpha beta dx ugcw u fgcw f f0 f1 f2 rgcw res β m = .ok m' ∧ F.celldiffusionv2res3d i0 i1 j0 j1 k0 k1 alpha beta dx ugcw u fgcw f f0 f1 f2 rgcw res m = .ok m' :=
  C49_v2_res_3d hβ (fun _ _ _ => by ring) hi hj hk hugcw hfgcw hrgcw h

example : ∃ m', Cuda.diffusionV2Res3d 0 2 1 3 2 3 3 2 exDx 1 ⟨0, 0⟩ 2 ⟨1, 0⟩ ⟨2, 0⟩ ⟨3, 0⟩ ⟨4, 0⟩ 1 ⟨5, 0⟩ (fun _ => revBackend) exRat = .ok m' ∧
    F.celldiffusionv2res3d 0 2 1 3 2 3 3 2 exDx 1 ⟨0, 0⟩ 2 ⟨1, 0⟩ ⟨2, 0⟩ ⟨3, 0⟩ ⟨4, 0⟩ 1 ⟨5, 0⟩ exRat = .ok m' :=
  C34_v2_res_3d (fun _ => revBackend_ok) (by decide) (by decide) (by decide) (by decide) (by decide) (by decide) (by ex_args)

/-- `cd_apply_3d_cuda::poisson_v1_res` and `cellpoissonv1res3d` leave the same memory, for every schedule. -/
theorem C34_poisson_res_3d {i0 i1 j0 j1 k0 k1 fgcw rgcw : Int} {beta : T} {dx : Nat → T} {f f0 f1 f2 res : Ptr} {β : Nat → Backend} {m : Mem T}
    (hβ : ∀ n, ValidBackend (β n)) (hi : i0 ≤ i1) (hj : j0 ≤ j1) (hk : k0 ≤ k1) (hfgcw : 0 ≤ fgcw) (hrgcw : 0 ≤ rgcw)
    (h : F.Args m [F.cell3d f i0 j0 k0 i1 j1 k1 fgcw, F.face3d0 f0 i0 j0 k0 i1 j1 k1 0, F.face3d1 f1 i0 j0 k0 i1 j1 k1 0, F.face3d2 f2 i0 j0 k0 i1 j1 k1 0]
      [F.cell3d res i0 j0 k0 i1 j1 k1 rgcw]) :
    ∃ m', Cuda.poissonV1Res3d i0 i1 j0 j1 k0 k1 beta dx fgcw f f0 f1 f2 rgcw res β m = .ok m' ∧ F.cellpoissonv1res3d i0 i1 j0 j1 k0 k1 beta dx fgcw f f0 f1 f2 rgcw res m = .ok m' :=
  C49_poisson_res_3d hβ (fun _ _ => by ring) hi hj hk hfgcw hrgcw h

example : ∃ m', Cuda.poissonV1Res3d 0 2 1 3 2 3 2 exDx 1 ⟨0, 0⟩ ⟨1, 0⟩ ⟨2, 0⟩ ⟨3, 0⟩ 1 ⟨4, 0⟩ (fun _ => revBackend) exRat = .ok m' ∧
    F.cellpoissonv1res3d 0 2 1 3 2 3 2 exDx 1 ⟨0, 0⟩ ⟨1, 0⟩ ⟨2, 0⟩ ⟨3, 0⟩ 1 ⟨4, 0⟩ exRat = .ok m' :=
  C34_poisson_res_3d (fun _ => revBackend_ok) (by decide) (by decide) (by decide) (by decide) (by decide) (by ex_args)

/-- `cd_apply_3d_cuda::diffusion_v1_apply` and `celldiffusionv1apply3d` leave the same memory, for every schedule. -/
theorem C34_v1_apply_3d {i0 i1 j0 j1 k0 k1 agcw ugcw rgcw : Int} {alpha beta : T} {dx : Nat → T} {a u f0 f1 f2 res : Ptr} {β : Nat → Backend} {m : Mem T}
    (hβ : ∀ n, ValidBackend (β n)) (hi : i0 ≤ i1) (hj : j0 ≤ j1) (hk : k0 ≤ k1) (hagcw : 0 ≤ agcw) (hugcw : 0 ≤ ugcw) (hrgcw : 0 ≤ rgcw)
    (h : F.Args m [F.cell3d a i0 j0 k0 i1 j1 k1 agcw, F.cell3d u i0 j0 k0 i1 j1 k1 ugcw, F.face3d0 f0 i0 j0 k0 i1 j1 k1 0, F.face3d1 f1 i0 j0 k0 i1 j1 k1 0, F.face3d2 f2 i0 j0 k0 i1 j1 k1 0]
      [F.cell3d res i0 j0 k0 i1 j1 k1 rgcw]) :
    ∃ m', Cuda.diffusionV1Apply3d i0 i1 j0 j1 k0 k1 alpha beta dx agcw a ugcw u f0 f1 f2 rgcw res β m = .ok m' ∧ F.celldiffusionv1apply3d i0 i1 j0 j1 k0 k1 alpha beta dx agcw a ugcw u f0 f1 f2 rgcw res m = .ok m' :=
  C49_v1_apply_3d hβ (fun _ _ => by ring) hi hj hk hagcw hugcw hrgcw h

example : ∃ m', Cuda.diffusionV1Apply3d 0 2 1 3 2 3 3 2 exDx 1 ⟨0, 0⟩ 2 ⟨1, 0⟩ ⟨2, 0⟩ ⟨3, 0⟩ ⟨4, 0⟩ 1 ⟨5, 0⟩ (fun _ => revBackend) exRat = .ok m' ∧
    F.celldiffusionv1apply3d 0 2 1 3 2 3 3 2 exDx 1 ⟨0, 0⟩ 2 ⟨1, 0⟩ ⟨2, 0⟩ ⟨3, 0⟩ ⟨4, 0⟩ 1 ⟨5, 0⟩ exRat = .ok m' :=
  C34_v1_apply_3d (fun _ => revBackend_ok) (by decide) (by decide) (by decide) (by decide) (by decide) (by decide) (by ex_args)

/-- `cd_apply_3d_cuda::diffusion_v2_apply` and `celldiffusionv2apply3d` leave the same memory, for every schedule. -/
theorem C34_v2_apply_3d {i0 i1 j0 j1 k0 k1 ugcw rgcw : Int} {alpha beta : T} {dx : Nat → T} {u f0 f1 f2 res : Ptr} {β : Nat → Backend} {m : Mem T}
    (hβ : ∀ n, ValidBackend (β n)) (hi : i0 ≤ i1) (hj : j0 ≤ j1) (hk : k0 ≤ k1) (hugcw : 0 ≤ ugcw) (hrgcw : 0 ≤ rgcw)
    (h : F.Args m [F.cell3d u i0 j0 k0 i1 j1 k1 ugcw, F.face3d0 f0 i0 j0 k0 i1 j1 k1 0, F.face3d1 f1 i0 j0 k0 i1 j1 k1 0, F.face3d2 f2 i0 j0 k0 i1 j1 k1 0]
      [F.cell3d res i0 j0 k0 i1 j1 k1 rgcw]) :
    ∃ m', Cuda.diffusionV2Apply3d i0 i1 j0 j1 k0 k1 alpha beta dx ugcw u f0 f1 f2 rgcw res β m = .ok m' ∧ F.celldiffusionv2apply3d i0 i1 j0 j1 k0 k1 alpha beta dx ugcw u f0 f1 f2 rgcw res m = .ok m' :=
  C49_v2_apply_3d hβ (fun _ _ => by ring) hi hj hk hugcw hrgcw h

example : ∃ m', Cuda.diffusionV2Apply3d 0 2 1 3 2 3 3 2 exDx 1 ⟨0, 0⟩ ⟨1, 0⟩ ⟨2, 0⟩ ⟨3, 0⟩ 1 ⟨4, 0⟩ (fun _ => revBackend) exRat = .ok m' ∧
    F.celldiffusionv2apply3d 0 2 1 3 2 3 3 2 exDx 1 ⟨0, 0⟩ ⟨1, 0⟩ ⟨2, 0⟩ ⟨3, 0⟩ 1 ⟨4, 0⟩ exRat = .ok m' :=
  C34_v2_apply_3d (fun _ => revBackend_ok) (by decide) (by decide) (by decide) (by decide) (by decide) (by ex_args)

/-- `cd_apply_3d_cuda::poisson_v2_apply` and `cellpoissonv2apply3d` leave the same memory, for every schedule. -/
theorem C34_poisson_apply_3d {i0 i1 j0 j1 k0 k1 rgcw : Int} {beta : T} {dx : Nat → T} {f0 f1 f2 res : Ptr} {β : Nat → Backend} {m : Mem T}
    (hβ : ∀ n, ValidBackend (β n)) (hi : i0 ≤ i1) (hj : j0 ≤ j1) (hk : k0 ≤ k1) (hrgcw : 0 ≤ rgcw)
    (h : F.Args m [F.face3d0 f0 i0 j0 k0 i1 j1 k1 0, F.face3d1 f1 i0 j0 k0 i1 j1 k1 0, F.face3d2 f2 i0 j0 k0 i1 j1 k1 0]
      [F.cell3d res i0 j0 k0 i1 j1 k1 rgcw]) :
    ∃ m', Cuda.poissonV2Apply3d i0 i1 j0 j1 k0 k1 beta dx f0 f1 f2 rgcw res β m = .ok m' ∧ F.cellpoissonv2apply3d i0 i1 j0 j1 k0 k1 beta dx f0 f1 f2 rgcw res m = .ok m' :=
  C49_poisson_apply_3d hβ (fun _ _ => by ring) hi hj hk hrgcw h

example : ∃ m', Cuda.poissonV2Apply3d 0 2 1 3 2 3 2 exDx ⟨0, 0⟩ ⟨1, 0⟩ ⟨2, 0⟩ 1 ⟨3, 0⟩ (fun _ => revBackend) exRat = .ok m' ∧
    F.cellpoissonv2apply3d 0 2 1 3 2 3 2 exDx ⟨0, 0⟩ ⟨1, 0⟩ ⟨2, 0⟩ 1 ⟨3, 0⟩ exRat = .ok m' :=
  C34_poisson_apply_3d (fun _ => revBackend_ok) (by decide) (by decide) (by decide) (by decide) (by ex_args)

end Verif
