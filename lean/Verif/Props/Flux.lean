import Verif.Props.RoundFlux
import Verif.Model.Kernels.Flux
import Verif.Spec.Kernels.Flux

/-
C33: the flux kernels leave the memory the Fortran routines leave.
-/

namespace Verif
open Spec

variable {T : Type} [Field T]

/-- `cdf_1d_cuda::flux` and `celldiffusionflux1d` leave the same memory, for every schedule. -/
theorem C33_1d {i0 i1 gcw : Int} {dx : Nat → T} {b0 u f0 : Ptr} {β : Nat → Backend} {m : Mem T} (hβ : ∀ n, ValidBackend (β n))
    (hi : i0 ≤ i1) (hg : 1 ≤ gcw)
    (h : F.Args m [F.cell1d u i0 i1 gcw, F.face1d b0 i0 i1 0]
      [F.face1d f0 i0 i1 0]) :
    ∃ m', Cuda.flux1d i0 i1 dx b0 gcw u f0 β m = .ok m' ∧ F.celldiffusionflux1d i0 i1 dx b0 gcw u f0 m = .ok m' :=
  C49_flux_1d hβ (fun _ _ _ _ => by ring) hi hg h

example : ∃ m', Cuda.flux1d 0 3 exDx ⟨0, 0⟩ 2 ⟨9, 0⟩ ⟨10, 0⟩ (fun _ => revBackend) exRat = .ok m' ∧
    F.celldiffusionflux1d 0 3 exDx ⟨0, 0⟩ 2 ⟨9, 0⟩ ⟨10, 0⟩ exRat = .ok m' :=
  C33_1d (fun _ => revBackend_ok) (by decide) (by decide) (by ex_args)

/-- `cdf_1d_cuda::poisson_flux` and `cellpoissonflux1d` leave the same memory, for every schedule. -/
theorem C33_poisson_1d {i0 i1 gcw : Int} {dx : Nat → T} {u f0 : Ptr} {β : Nat → Backend} {m : Mem T} (hβ : ∀ n, ValidBackend (β n))
    (hi : i0 ≤ i1) (hg : 1 ≤ gcw)
    (h : F.Args m [F.cell1d u i0 i1 gcw]
      [F.face1d f0 i0 i1 0]) :
    ∃ m', Cuda.poissonFlux1d i0 i1 dx gcw u f0 β m = .ok m' ∧ F.cellpoissonflux1d i0 i1 dx gcw u f0 m = .ok m' :=
  C49_flux_poisson_1d hβ hi hg h

example : ∃ m', Cuda.poissonFlux1d 0 3 exDx 2 ⟨9, 0⟩ ⟨10, 0⟩ (fun _ => revBackend) exRat = .ok m' ∧
    F.cellpoissonflux1d 0 3 exDx 2 ⟨9, 0⟩ ⟨10, 0⟩ exRat = .ok m' :=
  C33_poisson_1d (fun _ => revBackend_ok) (by decide) (by decide) (by ex_args)

/-- `cdf_2d_cuda::flux` and `celldiffusionflux2d` leave the same memory, for every schedule. -/
theorem C33_2d {i0 j0 i1 j1 gcw : Int} {dx : Nat → T} {b0 b1 u f0 f1 : Ptr} {β : Nat → Backend} {m : Mem T} (hβ : ∀ n, ValidBackend (β n))
    (hi : i0 ≤ i1) (hj : j0 ≤ j1) (hg : 1 ≤ gcw)
    (h : F.Args m [F.cell2d u i0 j0 i1 j1 gcw, F.face2d0 b0 i0 j0 i1 j1 0, F.face2d1 b1 i0 j0 i1 j1 0]
      [F.face2d0 f0 i0 j0 i1 j1 0, F.face2d1 f1 i0 j0 i1 j1 0]) :
    ∃ m', Cuda.flux2d i0 j0 i1 j1 dx b0 b1 gcw u f0 f1 β m = .ok m' ∧ F.celldiffusionflux2d i0 j0 i1 j1 dx b0 b1 gcw u f0 f1 m = .ok m' :=
  C49_flux_2d hβ (fun _ _ _ _ => by ring) hi hj hg h

example : ∃ m', Cuda.flux2d 0 1 2 3 exDx ⟨0, 0⟩ ⟨1, 0⟩ 2 ⟨9, 0⟩ ⟨10, 0⟩ ⟨11, 0⟩ (fun _ => revBackend) exRat = .ok m' ∧
    F.celldiffusionflux2d 0 1 2 3 exDx ⟨0, 0⟩ ⟨1, 0⟩ 2 ⟨9, 0⟩ ⟨10, 0⟩ ⟨11, 0⟩ exRat = .ok m' :=
  C33_2d (fun _ => revBackend_ok) (by decide) (by decide) (by decide) (by ex_args)

/-- `cdf_2d_cuda::poisson_flux` and `cellpoissonflux2d` leave the same memory, for every schedule. -/
theorem C33_poisson_2d {i0 j0 i1 j1 gcw : Int} {dx : Nat → T} {u f0 f1 : Ptr} {β : Nat → Backend} {m : Mem T} (hβ : ∀ n, ValidBackend (β n))
    (hi : i0 ≤ i1) (hj : j0 ≤ j1) (hg : 1 ≤ gcw)
    (h : F.Args m [F.cell2d u i0 j0 i1 j1 gcw]
      [F.face2d0 f0 i0 j0 i1 j1 0, F.face2d1 f1 i0 j0 i1 j1 0]) :
    ∃ m', Cuda.poissonFlux2d i0 j0 i1 j1 dx gcw u f0 f1 β m = .ok m' ∧ F.cellpoissonflux2d i0 j0 i1 j1 dx gcw u f0 f1 m = .ok m' :=
  C49_flux_poisson_2d hβ hi hj hg h

example : ∃ m', Cuda.poissonFlux2d 0 1 2 3 exDx 2 ⟨9, 0⟩ ⟨10, 0⟩ ⟨11, 0⟩ (fun _ => revBackend) exRat = .ok m' ∧
    F.cellpoissonflux2d 0 1 2 3 exDx 2 ⟨9, 0⟩ ⟨10, 0⟩ ⟨11, 0⟩ exRat = .ok m' :=
  C33_poisson_2d (fun _ => revBackend_ok) (by decide) (by decide) (by decide) (by ex_args)

/-- `cdf_3d_cuda::flux` and `celldiffusionflux3d` leave the same memory, for every schedule. -/
theorem C33_3d {i0 j0 k0 i1 j1 k1 gcw : Int} {dx : Nat → T} {b0 b1 b2 u f0 f1 f2 : Ptr} {β : Nat → Backend} {m : Mem T} (hβ : ∀ n, ValidBackend (β n))
    (hi : i0 ≤ i1) (hj : j0 ≤ j1) (hk : k0 ≤ k1) (hg : 1 ≤ gcw)
    (h : F.Args m [F.cell3d u i0 j0 k0 i1 j1 k1 gcw, F.face3d0 b0 i0 j0 k0 i1 j1 k1 0, F.face3d1 b1 i0 j0 k0 i1 j1 k1 0, F.face3d2 b2 i0 j0 k0 i1 j1 k1 0]
      [F.face3d0 f0 i0 j0 k0 i1 j1 k1 0, F.face3d1 f1 i0 j0 k0 i1 j1 k1 0, F.face3d2 f2 i0 j0 k0 i1 j1 k1 0]) :
    ∃ m', Cuda.flux3d i0 j0 k0 i1 j1 k1 dx b0 b1 b2 gcw u f0 f1 f2 β m = .ok m' ∧ F.celldiffusionflux3d i0 j0 k0 i1 j1 k1 dx b0 b1 b2 gcw u f0 f1 f2 m = .ok m' :=
  C49_flux_3d hβ (fun _ _ _ _ => by ring) hi hj hk hg h

example : ∃ m', Cuda.flux3d 0 1 2 2 3 3 exDx ⟨0, 0⟩ ⟨1, 0⟩ ⟨2, 0⟩ 2 ⟨9, 0⟩ ⟨10, 0⟩ ⟨11, 0⟩ ⟨12, 0⟩ (fun _ => revBackend) exRat = .ok m' ∧
    F.celldiffusionflux3d 0 1 2 2 3 3 exDx ⟨0, 0⟩ ⟨1, 0⟩ ⟨2, 0⟩ 2 ⟨9, 0⟩ ⟨10, 0⟩ ⟨11, 0⟩ ⟨12, 0⟩ exRat = .ok m' :=
  C33_3d (fun _ => revBackend_ok) (by decide) (by decide) (by decide) (by decide) (by ex_args)

/-- `cdf_3d_cuda::poisson_flux` and `cellpoissonflux3d` leave the same memory, for every schedule. -/
theorem C33_poisson_3d {i0 j0 k0 i1 j1 k1 gcw : Int} {dx : Nat → T} {u f0 f1 f2 : Ptr} {β : Nat → Backend} {m : Mem T} (hβ : ∀ n, ValidBackend (β n))
    (hi : i0 ≤ i1) (hj : j0 ≤ j1) (hk : k0 ≤ k1) (hg : 1 ≤ gcw)
    (h : F.Args m [F.cell3d u i0 j0 k0 i1 j1 k1 gcw]
      [F.face3d0 f0 i0 j0 k0 i1 j1 k1 0, F.face3d1 f1 i0 j0 k0 i1 j1 k1 0, F.face3d2 f2 i0 j0 k0 i1 j1 k1 0]) :
    ∃ m', Cuda.poissonFlux3d i0 j0 k0 i1 j1 k1 dx gcw u f0 f1 f2 β m = .ok m' ∧ F.cellpoissonflux3d i0 j0 k0 i1 j1 k1 dx gcw u f0 f1 f2 m = .ok m' :=
  C49_flux_poisson_3d hβ hi hj hk hg h

example : ∃ m', Cuda.poissonFlux3d 0 1 2 2 3 3 exDx 2 ⟨9, 0⟩ ⟨10, 0⟩ ⟨11, 0⟩ ⟨12, 0⟩ (fun _ => revBackend) exRat = .ok m' ∧
    F.cellpoissonflux3d 0 1 2 2 3 3 exDx 2 ⟨9, 0⟩ ⟨10, 0⟩ ⟨11, 0⟩ ⟨12, 0⟩ exRat = .ok m' :=
  C33_poisson_3d (fun _ => revBackend_ok) (by decide) (by decide) (by decide) (by decide) (by ex_args)

end Verif
