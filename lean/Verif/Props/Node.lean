import Verif.Props.Flux
import Verif.Props.Apply
import Verif.Lemmas.NodeValues

/-
C64, C65: the Fortran flux and operator routines for nodes against the kernels for cells.
-/

namespace Verif
open Spec

set_option linter.unusedVariables false
set_option linter.unusedSimpArgs false
set_option linter.unusedTactic false
set_option linter.unreachableTactic false

theorem cube_bad {i0 i1 j0 j1 k0 k1 : Int} (hi : i0 ≤ i1) (hj : j0 ≤ j1) (hk : k0 ≤ k1) (hne : ¬ (i0 = j0 ∧ j0 = k0 ∧ i1 = j1 ∧ j1 = k1)) :
    ∃ i j k, (i0 ≤ i ∧ i ≤ i1) ∧ (j0 ≤ j ∧ j ≤ j1) ∧ (k0 ≤ k ∧ k ≤ k1) ∧
      ¬ ((j0 ≤ k ∧ k ≤ j1) ∧ (k0 ≤ i ∧ i ≤ k1) ∧ (i0 ≤ j ∧ j ≤ i1)) := by
  by_cases a : (j0 ≤ k0 ∧ k0 ≤ i0 ∧ i0 ≤ j0)
  · exact ⟨i1, j1, k1, by omega⟩
  · exact ⟨i0, j0, k0, by omega⟩

macro "ex_args0" : tactic => `(tactic| (
  refine ⟨?_, ?_⟩
  · intro a ha
    have : a.ptr.off = 0 ∧ (a.dims.map fun d => d.2 - d.1 + 1).prod ≤ 1000 ∧ ∀ d ∈ a.dims, InInt d.1 ∧ InInt (d.2 + 1) := by
      revert a
      unfold InInt
      decide
    refine ⟨fun is h => ?_, by omega, this.2.2⟩
    have hc := colMajor_range h
    refine ⟨_, if_pos ?_⟩
    simp only [Ptr.add, this.1]
    omega
  · intro o ho a ha
    refine apart_blk ?_
    revert o a
    decide))

variable {T : Type} [Field T]

/-- `cdf_1d_cuda::flux` and `nodediffusionflux1d` leave the same memory, for every schedule. -/
theorem C64_1d {i0 i1 gcw : Int} {dx : Nat → T} {b0 u f0 : Ptr} {β : Nat → Backend} {m : Mem T} (hβ : ∀ n, ValidBackend (β n)) (hi : i0 ≤ i1) (hg : 1 ≤ gcw)
    (h : F.Args m [(F.cell1d u i0 i1 gcw), (F.face1d b0 i0 i1 0)]
      [(F.face1d f0 i0 i1 0)]) :
    ∃ m', Cuda.flux1d i0 i1 dx b0 gcw u f0 β m = .ok m' ∧ F.nodediffusionflux1d i0 i1 dx b0 gcw u f0 m = .ok m' :=
  C33_1d hβ hi hg h

example : ∃ m', Cuda.flux1d 0 3 exDx ⟨0, 0⟩ 2 ⟨9, 0⟩ ⟨10, 0⟩ (fun _ => revBackend) exRat = .ok m' ∧ F.nodediffusionflux1d 0 3 exDx ⟨0, 0⟩ 2 ⟨9, 0⟩ ⟨10, 0⟩ exRat = .ok m' :=
  C64_1d (fun _ => revBackend_ok) (by decide) (by decide) (by ex_args)

/-- `cdf_1d_cuda::poisson_flux` and `nodepoissonflux1d` leave the same memory, for every schedule. -/
theorem C64_poisson_1d {i0 i1 gcw : Int} {dx : Nat → T} {u f0 : Ptr} {β : Nat → Backend} {m : Mem T} (hβ : ∀ n, ValidBackend (β n)) (hi : i0 ≤ i1) (hg : 1 ≤ gcw)
    (h : F.Args m [(F.cell1d u i0 i1 gcw)]
      [(F.face1d f0 i0 i1 0)]) :
    ∃ m', Cuda.poissonFlux1d i0 i1 dx gcw u f0 β m = .ok m' ∧ F.nodepoissonflux1d i0 i1 dx gcw u f0 m = .ok m' :=
  C33_poisson_1d hβ hi hg h

example : ∃ m', Cuda.poissonFlux1d 0 3 exDx 2 ⟨9, 0⟩ ⟨10, 0⟩ (fun _ => revBackend) exRat = .ok m' ∧ F.nodepoissonflux1d 0 3 exDx 2 ⟨9, 0⟩ ⟨10, 0⟩ exRat = .ok m' :=
  C64_poisson_1d (fun _ => revBackend_ok) (by decide) (by decide) (by ex_args)

/-- `cdf_2d_cuda::flux` and `nodediffusionflux2d` leave the same memory, for every schedule. -/
theorem C64_2d {i0 j0 i1 j1 gcw : Int} {dx : Nat → T} {b0 b1 u f0 f1 : Ptr} {β : Nat → Backend} {m : Mem T} (hβ : ∀ n, ValidBackend (β n)) (hi : i0 ≤ i1) (hj : j0 ≤ j1) (hg : 1 ≤ gcw)
    (h : F.Args m [(F.cell2d u i0 j0 i1 j1 gcw), (F.face2d0 b0 i0 j0 i1 j1 0), (F.face2d1 b1 i0 j0 i1 j1 0)]
      [(F.face2d0 f0 i0 j0 i1 j1 0), (F.face2d1 f1 i0 j0 i1 j1 0)]) :
    ∃ m', Cuda.flux2d i0 j0 i1 j1 dx b0 b1 gcw u f0 f1 β m = .ok m' ∧ F.nodediffusionflux2d i0 j0 i1 j1 dx b0 b1 gcw u f0 f1 m = .ok m' :=
  C33_2d hβ hi hj hg h

example : ∃ m', Cuda.flux2d 0 1 2 3 exDx ⟨0, 0⟩ ⟨1, 0⟩ 2 ⟨9, 0⟩ ⟨10, 0⟩ ⟨11, 0⟩ (fun _ => revBackend) exRat = .ok m' ∧ F.nodediffusionflux2d 0 1 2 3 exDx ⟨0, 0⟩ ⟨1, 0⟩ 2 ⟨9, 0⟩ ⟨10, 0⟩ ⟨11, 0⟩ exRat = .ok m' :=
  C64_2d (fun _ => revBackend_ok) (by decide) (by decide) (by decide) (by ex_args)

/-- `cdf_2d_cuda::poisson_flux` and `nodepoissonflux2d` leave the same memory, for every schedule. -/
theorem C64_poisson_2d {i0 j0 i1 j1 gcw : Int} {dx : Nat → T} {u f0 f1 : Ptr} {β : Nat → Backend} {m : Mem T} (hβ : ∀ n, ValidBackend (β n)) (hi : i0 ≤ i1) (hj : j0 ≤ j1) (hg : 1 ≤ gcw)
    (h : F.Args m [(F.cell2d u i0 j0 i1 j1 gcw)]
      [(F.face2d0 f0 i0 j0 i1 j1 0), (F.face2d1 f1 i0 j0 i1 j1 0)]) :
    ∃ m', Cuda.poissonFlux2d i0 j0 i1 j1 dx gcw u f0 f1 β m = .ok m' ∧ F.nodepoissonflux2d i0 j0 i1 j1 dx gcw u f0 f1 m = .ok m' :=
  C33_poisson_2d hβ hi hj hg h

example : ∃ m', Cuda.poissonFlux2d 0 1 2 3 exDx 2 ⟨9, 0⟩ ⟨10, 0⟩ ⟨11, 0⟩ (fun _ => revBackend) exRat = .ok m' ∧ F.nodepoissonflux2d 0 1 2 3 exDx 2 ⟨9, 0⟩ ⟨10, 0⟩ ⟨11, 0⟩ exRat = .ok m' :=
  C64_poisson_2d (fun _ => revBackend_ok) (by decide) (by decide) (by decide) (by ex_args)

/-- The full statement, that `cdf_3d_cuda::flux` and `nodediffusionflux3d` leave the same memory, holds on boxes with equal bounds in all three dimensions when `b1` and `b2`
hold the same numbers and the three flux arrays do not overlap; missing are all other boxes and coefficients (`C64_3d_false`, `C64_cube_false`), because the
routine takes `b1` in place of `b2`. -/
theorem C64_3d_partial {i0 i1 gcw : Int} {dx : Nat → T} {b0 b1 b2 u f0 f1 f2 : Ptr} {β : Nat → Backend} {m : Mem T} (hβ : ∀ n, ValidBackend (β n)) (hi : i0 ≤ i1) (hg : 1 ≤ gcw)
    (h : F.Args m [(F.cell3d u i0 i0 i0 i1 i1 i1 gcw), (F.face3d0 b0 i0 i0 i0 i1 i1 i1 0), (F.face3d1 b1 i0 i0 i0 i1 i1 i1 0), (F.face3d2 b2 i0 i0 i0 i1 i1 i1 0)]
      [(F.face3d0 f0 i0 i0 i0 i1 i1 i1 0), (F.face3d1 f1 i0 i0 i0 i1 i1 i1 0), (F.face3d2 f2 i0 i0 i0 i1 i1 i1 0)])
    (hp : F.Apart (F.face3d0 f0 i0 i0 i0 i1 i1 i1 0) (F.face3d1 f1 i0 i0 i0 i1 i1 i1 0) ∧ F.Apart (F.face3d0 f0 i0 i0 i0 i1 i1 i1 0) (F.face3d2 f2 i0 i0 i0 i1 i1 i1 0) ∧ F.Apart (F.face3d1 f1 i0 i0 i0 i1 i1 i1 0) (F.face3d2 f2 i0 i0 i0 i1 i1 i1 0))
    (he : ∀ i j k, i0 ≤ i → i ≤ i1 → i0 ≤ j → j ≤ i1 → i0 ≤ k → k ≤ i1 + 1 → F.rd m (F.face3d1 b1 i0 i0 i0 i1 i1 i1 0) [k, i, j] = F.rd m (F.face3d2 b2 i0 i0 i0 i1 i1 i1 0) [k, i, j]) :
    ∃ m', Cuda.flux3d i0 i0 i0 i1 i1 i1 dx b0 b1 b2 gcw u f0 f1 f2 β m = .ok m' ∧ F.nodediffusionflux3d i0 i0 i0 i1 i1 i1 dx b0 b1 b2 gcw u f0 f1 f2 m = .ok m' := by
  obtain ⟨m1, c1, c2⟩ := C33_3d hβ hi hi hi hg h
  obtain ⟨m2, d1, d2⟩ := flux_3_cube hi hg h hp he
  rw [c2] at d1
  cases d1
  exact ⟨m1, c1, d2⟩

example : ∃ m', Cuda.flux3d 1 1 1 2 2 2 exDx ⟨0, 0⟩ ⟨1, 0⟩ ⟨1, 0⟩ 2 ⟨9, 0⟩ ⟨10, 0⟩ ⟨11, 0⟩ ⟨12, 0⟩ (fun _ => revBackend) exRat = .ok m' ∧
    F.nodediffusionflux3d 1 1 1 2 2 2 exDx ⟨0, 0⟩ ⟨1, 0⟩ ⟨1, 0⟩ 2 ⟨9, 0⟩ ⟨10, 0⟩ ⟨11, 0⟩ ⟨12, 0⟩ exRat = .ok m' :=
  C64_3d_partial (i0 := 1) (i1 := 2) (gcw := 2) (dx := exDx) (b0 := ⟨0, 0⟩) (b1 := ⟨1, 0⟩) (b2 := ⟨1, 0⟩) (u := ⟨9, 0⟩) (f0 := ⟨10, 0⟩) (f1 := ⟨11, 0⟩) (f2 := ⟨12, 0⟩)
    (fun _ => revBackend_ok) (by decide) (by decide) (by ex_args) ⟨apart_blk (by decide), apart_blk (by decide), apart_blk (by decide)⟩ (fun _ _ _ _ _ _ _ _ _ => rfl)

/-- On every box whose axes do not all have the same bounds, `nodediffusionflux3d` goes outside the array `b1`. -/
theorem C64_3d_false {i0 j0 k0 i1 j1 k1 gcw : Int} {dx : Nat → T} {b0 b1 b2 u f0 f1 f2 : Ptr} {β : Nat → Backend} {m : Mem T} (hβ : ∀ n, ValidBackend (β n)) (hi : i0 ≤ i1) (hj : j0 ≤ j1) (hk : k0 ≤ k1) (hg : 1 ≤ gcw)
    (h : F.Args m [(F.cell3d u i0 j0 k0 i1 j1 k1 gcw), (F.face3d0 b0 i0 j0 k0 i1 j1 k1 0), (F.face3d1 b1 i0 j0 k0 i1 j1 k1 0), (F.face3d2 b2 i0 j0 k0 i1 j1 k1 0)]
      [(F.face3d0 f0 i0 j0 k0 i1 j1 k1 0), (F.face3d1 f1 i0 j0 k0 i1 j1 k1 0), (F.face3d2 f2 i0 j0 k0 i1 j1 k1 0)])
    (hne : ¬ (i0 = j0 ∧ j0 = k0 ∧ i1 = j1 ∧ j1 = k1)) :
    (∃ m', Cuda.flux3d i0 j0 k0 i1 j1 k1 dx b0 b1 b2 gcw u f0 f1 f2 β m = .ok m') ∧ ∀ m', F.nodediffusionflux3d i0 j0 k0 i1 j1 k1 dx b0 b1 b2 gcw u f0 f1 f2 m ≠ .ok m' := by
  refine ⟨(C33_3d hβ hi hj hk hg h).imp fun _ => And.left, fun m' hm => ?_⟩
  have bad : ∃ i j k, (i0 ≤ i ∧ i ≤ i1) ∧ (j0 ≤ j ∧ j ≤ j1) ∧ (k0 ≤ k ∧ k ≤ k1) ∧
      ¬ ((j0 ≤ k ∧ k ≤ j1) ∧ (k0 ≤ i ∧ i ≤ k1) ∧ (i0 ≤ j ∧ j ≤ i1)) := cube_bad hi hj hk hne
  obtain ⟨i, j, k, b1, b2, b3, b4⟩ := bad
  have step : ∀ k', k0 ≤ k' → k' ≤ k1 + 1 → (j0 ≤ k' ∧ k' ≤ j1 + 1) ∧ (k0 ≤ i ∧ i ≤ k1) ∧ (i0 ≤ j ∧ j ≤ i1) := by
    intro k' q1 q2
    unfold F.nodediffusionflux3d at hm
    simp only [F.block] at hm
    obtain ⟨m1, -, hm⟩ := bind_inv hm
    obtain ⟨m2, -, hm⟩ := bind_inv hm
    obtain ⟨m3, hm, -⟩ := bind_inv hm
    obtain ⟨m4, m5, e1⟩ := F.doLoop_mem hm b2.1 b2.2
    obtain ⟨m6, m7, e2⟩ := F.doLoop_mem e1 b1.1 b1.2
    obtain ⟨m8, m9, e3⟩ := F.doLoop_mem e2 q1 q2
    unfold F.assign at e3
    obtain ⟨x, e4, -⟩ := bind_inv e3
    obtain ⟨y, e5⟩ := (F.div_inv e4).1
    obtain ⟨y, e6⟩ := (F.mul_inv e5).1
    have k1 := F.ref_inv e6
    simp only [F.face3d1, F.InBounds] at k1
    omega
  have s1 := step k b3.1 (by omega)
  have s2 := step (k + 1) (by omega) (by omega)
  omega

example : (∃ m', Cuda.flux3d 0 1 2 2 3 3 exDx ⟨0, 0⟩ ⟨1, 0⟩ ⟨2, 0⟩ 2 ⟨9, 0⟩ ⟨10, 0⟩ ⟨11, 0⟩ ⟨12, 0⟩ (fun _ => revBackend) exRat = .ok m') ∧ ∀ m', F.nodediffusionflux3d 0 1 2 2 3 3 exDx ⟨0, 0⟩ ⟨1, 0⟩ ⟨2, 0⟩ 2 ⟨9, 0⟩ ⟨10, 0⟩ ⟨11, 0⟩ ⟨12, 0⟩ exRat ≠ .ok m' :=
  C64_3d_false (fun _ => revBackend_ok) (by decide) (by decide) (by decide) (by decide) (by ex_args) (by decide)

/-- On a box of one cell `nodediffusionflux3d` stays inside its arrays and leaves other numbers than `cdf_3d_cuda::flux`. -/
theorem C64_cube_false : ∃ (dx : Nat → Rat) (b0 b1 b2 u f0 f1 f2 : Ptr) (m : Mem Rat),
    F.Args m [F.cell3d u 0 0 0 0 0 0 1, F.face3d0 b0 0 0 0 0 0 0 0, F.face3d1 b1 0 0 0 0 0 0 0, F.face3d2 b2 0 0 0 0 0 0 0]
      [F.face3d0 f0 0 0 0 0 0 0 0, F.face3d1 f1 0 0 0 0 0 0 0, F.face3d2 f2 0 0 0 0 0 0 0] ∧
    ∃ m1 m2, Cuda.flux3d 0 0 0 0 0 0 dx b0 b1 b2 1 u f0 f1 f2 (fun _ => seqBackend) m = .ok m1 ∧
      F.nodediffusionflux3d 0 0 0 0 0 0 dx b0 b1 b2 1 u f0 f1 f2 m = .ok m2 ∧ m1 ≠ m2 :=
  ⟨fun _ => 1, ⟨1, 0⟩, ⟨2, 0⟩, ⟨3, 0⟩, ⟨4, 0⟩, ⟨5, 0⟩, ⟨6, 0⟩, ⟨7, 0⟩,
    ⟨fun q => if 0 ≤ q.off ∧ q.off < 1000 then some (q.blk * (q.off + 1)) else none, fun _ => none⟩, by ex_args0, differQ_ne (q := ⟨7, 0⟩) (by decide +kernel)⟩

/-- `cdf_3d_cuda::poisson_flux` and `nodepoissonflux3d` leave the same memory, for every schedule. -/
theorem C64_poisson_3d {i0 j0 k0 i1 j1 k1 gcw : Int} {dx : Nat → T} {u f0 f1 f2 : Ptr} {β : Nat → Backend} {m : Mem T} (hβ : ∀ n, ValidBackend (β n)) (hi : i0 ≤ i1) (hj : j0 ≤ j1) (hk : k0 ≤ k1) (hg : 1 ≤ gcw)
    (h : F.Args m [(F.cell3d u i0 j0 k0 i1 j1 k1 gcw)]
      [(F.face3d0 f0 i0 j0 k0 i1 j1 k1 0), (F.face3d1 f1 i0 j0 k0 i1 j1 k1 0), (F.face3d2 f2 i0 j0 k0 i1 j1 k1 0)]) :
    ∃ m', Cuda.poissonFlux3d i0 j0 k0 i1 j1 k1 dx gcw u f0 f1 f2 β m = .ok m' ∧ F.nodepoissonflux3d i0 j0 k0 i1 j1 k1 dx gcw u f0 f1 f2 m = .ok m' :=
  C33_poisson_3d hβ hi hj hk hg h

example : ∃ m', Cuda.poissonFlux3d 0 1 2 2 3 3 exDx 2 ⟨9, 0⟩ ⟨10, 0⟩ ⟨11, 0⟩ ⟨12, 0⟩ (fun _ => revBackend) exRat = .ok m' ∧ F.nodepoissonflux3d 0 1 2 2 3 3 exDx 2 ⟨9, 0⟩ ⟨10, 0⟩ ⟨11, 0⟩ ⟨12, 0⟩ exRat = .ok m' :=
  C64_poisson_3d (fun _ => revBackend_ok) (by decide) (by decide) (by decide) (by decide) (by ex_args)

/-- `nodediffusionv1apply1d` leaves, at every cell of the box, `b` times the right hand side plus `a` times what the `diffusion_v1_apply` kernel leaves there, and changes nothing else. -/
theorem C65_v1_1d {i0 i1 agcw ugcw fgcw rgcw : Int} {alpha beta wa wb : T} {dx : Nat → T} {a u f f0 res : Ptr} {β : Nat → Backend} {m : Mem T} (hβ : ∀ n, ValidBackend (β n)) (hi : i0 ≤ i1) (hagcw : 0 ≤ agcw) (hugcw : 0 ≤ ugcw) (hfgcw : 0 ≤ fgcw) (hrgcw : 0 ≤ rgcw)
    (h : F.Args m [(F.cell1d a i0 i1 agcw), (F.cell1d u i0 i1 ugcw), (F.cell1d f i0 i1 fgcw), (F.face1d f0 i0 i1 0)] [(F.cell1d res i0 i1 rgcw)]) :
    ∃ m1 m2 L, Cuda.diffusionV1Apply1d i0 i1 alpha beta dx agcw a ugcw u f0 rgcw res β m = .ok m1 ∧ F.Filled (F.cell1d res i0 i1 rgcw) [(i0, i1)] L m m1 ∧
      F.nodediffusionv1apply1d i0 i1 alpha beta dx agcw a ugcw u fgcw f f0 wa wb rgcw res m = .ok m2 ∧
      F.Filled (F.cell1d res i0 i1 rgcw) [(i0, i1)] (fun p => wb * F.rd m (F.cell1d f i0 i1 fgcw) p + wa * L p) m m2 := by
  obtain ⟨m1, c1, c2⟩ := C34_v1_apply_1d hβ hi hagcw hugcw hrgcw (h.sub (fun x hx => by revert hx; simp only [List.mem_cons, List.not_mem_nil, or_false]; tauto) (fun _ hx => hx))
  obtain ⟨m1', d1, d2⟩ := apply_v1_1_filled hi hagcw hugcw hrgcw (h.sub (fun x hx => by revert hx; simp only [List.mem_cons, List.not_mem_nil, or_false]; tauto) (fun _ hx => hx))
  rw [c2] at d1
  cases d1
  obtain ⟨m2, e1, e2⟩ := node_v1_1_filled (wa := wa) (wb := wb) hi hagcw hugcw hfgcw hrgcw h
  exact ⟨m1, m2, _, c1, d2, e1, e2⟩

example : ∃ m1 m2 L, Cuda.diffusionV1Apply1d 0 3 3 2 exDx 1 ⟨0, 0⟩ 2 ⟨1, 0⟩ ⟨3, 0⟩ 1 ⟨6, 0⟩ (fun _ => revBackend) exRat = .ok m1 ∧ F.Filled (F.cell1d ⟨6, 0⟩ 0 3 1) [(0, 3)] L exRat m1 ∧
    F.nodediffusionv1apply1d 0 3 3 2 exDx 1 ⟨0, 0⟩ 2 ⟨1, 0⟩ 1 ⟨2, 0⟩ ⟨3, 0⟩ 5 7 1 ⟨6, 0⟩ exRat = .ok m2 ∧ F.Filled (F.cell1d ⟨6, 0⟩ 0 3 1) [(0, 3)] (fun p => 7 * F.rd exRat (F.cell1d ⟨2, 0⟩ 0 3 1) p + 5 * L p) exRat m2 :=
  C65_v1_1d (i0 := 0) (i1 := 3) (agcw := 1) (ugcw := 2) (fgcw := 1) (rgcw := 1) (alpha := 3) (beta := 2) (dx := exDx) (a := ⟨0, 0⟩) (u := ⟨1, 0⟩) (f := ⟨2, 0⟩) (f0 := ⟨3, 0⟩) (res := ⟨6, 0⟩) (fun _ => revBackend_ok) (by decide) (by decide) (by decide) (by decide) (by decide) (by ex_args)

/-- With `a = 1` and `b = 0` the routine leaves the memory of the `diffusion_v1_apply` kernel. -/
theorem C65_v1_apply_1d {i0 i1 agcw ugcw fgcw rgcw : Int} {alpha beta : T} {dx : Nat → T} {a u f f0 res : Ptr} {β : Nat → Backend} {m : Mem T} (hβ : ∀ n, ValidBackend (β n)) (hi : i0 ≤ i1) (hagcw : 0 ≤ agcw) (hugcw : 0 ≤ ugcw) (hfgcw : 0 ≤ fgcw) (hrgcw : 0 ≤ rgcw)
    (h : F.Args m [(F.cell1d a i0 i1 agcw), (F.cell1d u i0 i1 ugcw), (F.cell1d f i0 i1 fgcw), (F.face1d f0 i0 i1 0)] [(F.cell1d res i0 i1 rgcw)]) :
    ∃ m', Cuda.diffusionV1Apply1d i0 i1 alpha beta dx agcw a ugcw u f0 rgcw res β m = .ok m' ∧ F.nodediffusionv1apply1d i0 i1 alpha beta dx agcw a ugcw u fgcw f f0 1 0 rgcw res m = .ok m' := by
  obtain ⟨m1, m2, L, c1, c2, d1, d2⟩ := C65_v1_1d (wa := 1) (wb := 0) hβ hi hagcw hugcw hfgcw hrgcw h
  refine ⟨m1, c1, ?_⟩
  rw [d1, d2.eq c2 fun p _ => by rw [zero_mul, one_mul, zero_add]]

example : ∃ m', Cuda.diffusionV1Apply1d 0 3 3 2 exDx 1 ⟨0, 0⟩ 2 ⟨1, 0⟩ ⟨3, 0⟩ 1 ⟨6, 0⟩ (fun _ => revBackend) exRat = .ok m' ∧ F.nodediffusionv1apply1d 0 3 3 2 exDx 1 ⟨0, 0⟩ 2 ⟨1, 0⟩ 1 ⟨2, 0⟩ ⟨3, 0⟩ 1 0 1 ⟨6, 0⟩ exRat = .ok m' :=
  C65_v1_apply_1d (i0 := 0) (i1 := 3) (agcw := 1) (ugcw := 2) (fgcw := 1) (rgcw := 1) (alpha := 3) (beta := 2) (dx := exDx) (a := ⟨0, 0⟩) (u := ⟨1, 0⟩) (f := ⟨2, 0⟩) (f0 := ⟨3, 0⟩) (res := ⟨6, 0⟩) (fun _ => revBackend_ok) (by decide) (by decide) (by decide) (by decide) (by decide) (by ex_args)

/-- With `a = -1` and `b = 1` the routine leaves the memory of the `diffusion_v1_res` kernel. -/
theorem C65_v1_res_1d {i0 i1 agcw ugcw fgcw rgcw : Int} {alpha beta : T} {dx : Nat → T} {a u f f0 res : Ptr} {β : Nat → Backend} {m : Mem T} (hβ : ∀ n, ValidBackend (β n)) (hi : i0 ≤ i1) (hagcw : 0 ≤ agcw) (hugcw : 0 ≤ ugcw) (hfgcw : 0 ≤ fgcw) (hrgcw : 0 ≤ rgcw)
    (h : F.Args m [(F.cell1d a i0 i1 agcw), (F.cell1d u i0 i1 ugcw), (F.cell1d f i0 i1 fgcw), (F.face1d f0 i0 i1 0)] [(F.cell1d res i0 i1 rgcw)]) :
    ∃ m', Cuda.diffusionV1Res1d i0 i1 alpha beta dx agcw a ugcw u fgcw f f0 rgcw res β m = .ok m' ∧ F.nodediffusionv1apply1d i0 i1 alpha beta dx agcw a ugcw u fgcw f f0 (-1) 1 rgcw res m = .ok m' := by
  obtain ⟨m1, c1, c2⟩ := C34_v1_res_1d hβ hi hagcw hugcw hfgcw hrgcw h
  obtain ⟨m1', d1, d2⟩ := res_v1_1_filled hi hagcw hugcw hfgcw hrgcw h
  rw [c2] at d1
  cases d1
  obtain ⟨m2, e1, e2⟩ := node_v1_1_filled (wa := -1) (wb := 1) hi hagcw hugcw hfgcw hrgcw h
  refine ⟨m1, c1, ?_⟩
  rw [e1, e2.eq d2 fun p _ => by rw [one_mul, neg_one_mul, ← sub_eq_add_neg]]

example : ∃ m', Cuda.diffusionV1Res1d 0 3 3 2 exDx 1 ⟨0, 0⟩ 2 ⟨1, 0⟩ 1 ⟨2, 0⟩ ⟨3, 0⟩ 1 ⟨6, 0⟩ (fun _ => revBackend) exRat = .ok m' ∧ F.nodediffusionv1apply1d 0 3 3 2 exDx 1 ⟨0, 0⟩ 2 ⟨1, 0⟩ 1 ⟨2, 0⟩ ⟨3, 0⟩ (-1) 1 1 ⟨6, 0⟩ exRat = .ok m' :=
  C65_v1_res_1d (i0 := 0) (i1 := 3) (agcw := 1) (ugcw := 2) (fgcw := 1) (rgcw := 1) (alpha := 3) (beta := 2) (dx := exDx) (a := ⟨0, 0⟩) (u := ⟨1, 0⟩) (f := ⟨2, 0⟩) (f0 := ⟨3, 0⟩) (res := ⟨6, 0⟩) (fun _ => revBackend_ok) (by decide) (by decide) (by decide) (by decide) (by decide) (by ex_args)

/-- `nodediffusionv2apply1d` leaves, at every cell of the box, `b` times the right hand side plus `a` times what the `diffusion_v2_apply` kernel leaves there, and changes nothing else. -/
theorem C65_v2_1d {i0 i1 ugcw fgcw rgcw : Int} {alpha beta wa wb : T} {dx : Nat → T} {u f f0 res : Ptr} {β : Nat → Backend} {m : Mem T} (hβ : ∀ n, ValidBackend (β n)) (hi : i0 ≤ i1) (hugcw : 0 ≤ ugcw) (hfgcw : 0 ≤ fgcw) (hrgcw : 0 ≤ rgcw)
    (h : F.Args m [(F.cell1d u i0 i1 ugcw), (F.cell1d f i0 i1 fgcw), (F.face1d f0 i0 i1 0)] [(F.cell1d res i0 i1 rgcw)]) :
    ∃ m1 m2 L, Cuda.diffusionV2Apply1d i0 i1 alpha beta dx ugcw u f0 rgcw res β m = .ok m1 ∧ F.Filled (F.cell1d res i0 i1 rgcw) [(i0, i1)] L m m1 ∧
      F.nodediffusionv2apply1d i0 i1 alpha beta dx ugcw u fgcw f f0 wa wb rgcw res m = .ok m2 ∧
      F.Filled (F.cell1d res i0 i1 rgcw) [(i0, i1)] (fun p => wb * F.rd m (F.cell1d f i0 i1 fgcw) p + wa * L p) m m2 := by
  obtain ⟨m1, c1, c2⟩ := C34_v2_apply_1d hβ hi hugcw hrgcw (h.sub (fun x hx => by revert hx; simp only [List.mem_cons, List.not_mem_nil, or_false]; tauto) (fun _ hx => hx))
  obtain ⟨m1', d1, d2⟩ := apply_v2_1_filled hi hugcw hrgcw (h.sub (fun x hx => by revert hx; simp only [List.mem_cons, List.not_mem_nil, or_false]; tauto) (fun _ hx => hx))
  rw [c2] at d1
  cases d1
  obtain ⟨m2, e1, e2⟩ := node_v2_1_filled (wa := wa) (wb := wb) hi hugcw hfgcw hrgcw h
  exact ⟨m1, m2, _, c1, d2, e1, e2⟩

example : ∃ m1 m2 L, Cuda.diffusionV2Apply1d 0 3 3 2 exDx 2 ⟨1, 0⟩ ⟨3, 0⟩ 1 ⟨6, 0⟩ (fun _ => revBackend) exRat = .ok m1 ∧ F.Filled (F.cell1d ⟨6, 0⟩ 0 3 1) [(0, 3)] L exRat m1 ∧
    F.nodediffusionv2apply1d 0 3 3 2 exDx 2 ⟨1, 0⟩ 1 ⟨2, 0⟩ ⟨3, 0⟩ 5 7 1 ⟨6, 0⟩ exRat = .ok m2 ∧ F.Filled (F.cell1d ⟨6, 0⟩ 0 3 1) [(0, 3)] (fun p => 7 * F.rd exRat (F.cell1d ⟨2, 0⟩ 0 3 1) p + 5 * L p) exRat m2 :=
  C65_v2_1d (i0 := 0) (i1 := 3) (ugcw := 2) (fgcw := 1) (rgcw := 1) (alpha := 3) (beta := 2) (dx := exDx) (u := ⟨1, 0⟩) (f := ⟨2, 0⟩) (f0 := ⟨3, 0⟩) (res := ⟨6, 0⟩) (fun _ => revBackend_ok) (by decide) (by decide) (by decide) (by decide) (by ex_args)

/-- With `a = 1` and `b = 0` the routine leaves the memory of the `diffusion_v2_apply` kernel. -/
theorem C65_v2_apply_1d {i0 i1 ugcw fgcw rgcw : Int} {alpha beta : T} {dx : Nat → T} {u f f0 res : Ptr} {β : Nat → Backend} {m : Mem T} (hβ : ∀ n, ValidBackend (β n)) (hi : i0 ≤ i1) (hugcw : 0 ≤ ugcw) (hfgcw : 0 ≤ fgcw) (hrgcw : 0 ≤ rgcw)
    (h : F.Args m [(F.cell1d u i0 i1 ugcw), (F.cell1d f i0 i1 fgcw), (F.face1d f0 i0 i1 0)] [(F.cell1d res i0 i1 rgcw)]) :
    ∃ m', Cuda.diffusionV2Apply1d i0 i1 alpha beta dx ugcw u f0 rgcw res β m = .ok m' ∧ F.nodediffusionv2apply1d i0 i1 alpha beta dx ugcw u fgcw f f0 1 0 rgcw res m = .ok m' := by
  obtain ⟨m1, m2, L, c1, c2, d1, d2⟩ := C65_v2_1d (wa := 1) (wb := 0) hβ hi hugcw hfgcw hrgcw h
  refine ⟨m1, c1, ?_⟩
  rw [d1, d2.eq c2 fun p _ => by rw [zero_mul, one_mul, zero_add]]

example : ∃ m', Cuda.diffusionV2Apply1d 0 3 3 2 exDx 2 ⟨1, 0⟩ ⟨3, 0⟩ 1 ⟨6, 0⟩ (fun _ => revBackend) exRat = .ok m' ∧ F.nodediffusionv2apply1d 0 3 3 2 exDx 2 ⟨1, 0⟩ 1 ⟨2, 0⟩ ⟨3, 0⟩ 1 0 1 ⟨6, 0⟩ exRat = .ok m' :=
  C65_v2_apply_1d (i0 := 0) (i1 := 3) (ugcw := 2) (fgcw := 1) (rgcw := 1) (alpha := 3) (beta := 2) (dx := exDx) (u := ⟨1, 0⟩) (f := ⟨2, 0⟩) (f0 := ⟨3, 0⟩) (res := ⟨6, 0⟩) (fun _ => revBackend_ok) (by decide) (by decide) (by decide) (by decide) (by ex_args)

/-- With `a = -1` and `b = 1` the routine leaves the memory of the `diffusion_v2_res` kernel. -/
theorem C65_v2_res_1d {i0 i1 ugcw fgcw rgcw : Int} {alpha beta : T} {dx : Nat → T} {u f f0 res : Ptr} {β : Nat → Backend} {m : Mem T} (hβ : ∀ n, ValidBackend (β n)) (hi : i0 ≤ i1) (hugcw : 0 ≤ ugcw) (hfgcw : 0 ≤ fgcw) (hrgcw : 0 ≤ rgcw)
    (h : F.Args m [(F.cell1d u i0 i1 ugcw), (F.cell1d f i0 i1 fgcw), (F.face1d f0 i0 i1 0)] [(F.cell1d res i0 i1 rgcw)]) :
    ∃ m', Cuda.diffusionV2Res1d i0 i1 alpha beta dx ugcw u fgcw f f0 rgcw res β m = .ok m' ∧ F.nodediffusionv2apply1d i0 i1 alpha beta dx ugcw u fgcw f f0 (-1) 1 rgcw res m = .ok m' := by
  obtain ⟨m1, c1, c2⟩ := C34_v2_res_1d hβ hi hugcw hfgcw hrgcw h
  obtain ⟨m1', d1, d2⟩ := res_v2_1_filled hi hugcw hfgcw hrgcw h
  rw [c2] at d1
  cases d1
  obtain ⟨m2, e1, e2⟩ := node_v2_1_filled (wa := -1) (wb := 1) hi hugcw hfgcw hrgcw h
  refine ⟨m1, c1, ?_⟩
  rw [e1, e2.eq d2 fun p _ => by rw [one_mul, neg_one_mul, ← sub_eq_add_neg]]

example : ∃ m', Cuda.diffusionV2Res1d 0 3 3 2 exDx 2 ⟨1, 0⟩ 1 ⟨2, 0⟩ ⟨3, 0⟩ 1 ⟨6, 0⟩ (fun _ => revBackend) exRat = .ok m' ∧ F.nodediffusionv2apply1d 0 3 3 2 exDx 2 ⟨1, 0⟩ 1 ⟨2, 0⟩ ⟨3, 0⟩ (-1) 1 1 ⟨6, 0⟩ exRat = .ok m' :=
  C65_v2_res_1d (i0 := 0) (i1 := 3) (ugcw := 2) (fgcw := 1) (rgcw := 1) (alpha := 3) (beta := 2) (dx := exDx) (u := ⟨1, 0⟩) (f := ⟨2, 0⟩) (f0 := ⟨3, 0⟩) (res := ⟨6, 0⟩) (fun _ => revBackend_ok) (by decide) (by decide) (by decide) (by decide) (by ex_args)

/-- `nodepoissonapply1d` leaves, at every cell of the box, `b` times the right hand side plus `a` times what the `poisson_apply` kernel leaves there, and changes nothing else. -/
theorem C65_poisson_1d {i0 i1 fgcw rgcw : Int} {beta wa wb : T} {dx : Nat → T} {f f0 res : Ptr} {β : Nat → Backend} {m : Mem T} (hβ : ∀ n, ValidBackend (β n)) (hi : i0 ≤ i1) (hfgcw : 0 ≤ fgcw) (hrgcw : 0 ≤ rgcw)
    (h : F.Args m [(F.cell1d f i0 i1 fgcw), (F.face1d f0 i0 i1 0)] [(F.cell1d res i0 i1 rgcw)]) :
    ∃ m1 m2 L, Cuda.poissonV2Apply1d i0 i1 beta dx f0 rgcw res β m = .ok m1 ∧ F.Filled (F.cell1d res i0 i1 rgcw) [(i0, i1)] L m m1 ∧
      F.nodepoissonapply1d i0 i1 beta dx fgcw f f0 wa wb rgcw res m = .ok m2 ∧
      F.Filled (F.cell1d res i0 i1 rgcw) [(i0, i1)] (fun p => wb * F.rd m (F.cell1d f i0 i1 fgcw) p + wa * L p) m m2 := by
  obtain ⟨m1, c1, c2⟩ := C34_poisson_apply_1d hβ hi hrgcw (h.sub (fun x hx => by revert hx; simp only [List.mem_cons, List.not_mem_nil, or_false]; tauto) (fun _ hx => hx))
  obtain ⟨m1', d1, d2⟩ := apply_p_1_filled hi hrgcw (h.sub (fun x hx => by revert hx; simp only [List.mem_cons, List.not_mem_nil, or_false]; tauto) (fun _ hx => hx))
  rw [c2] at d1
  cases d1
  obtain ⟨m2, e1, e2⟩ := node_p_1_filled (wa := wa) (wb := wb) hi hfgcw hrgcw h
  exact ⟨m1, m2, _, c1, d2, e1, e2⟩

example : ∃ m1 m2 L, Cuda.poissonV2Apply1d 0 3 2 exDx ⟨3, 0⟩ 1 ⟨6, 0⟩ (fun _ => revBackend) exRat = .ok m1 ∧ F.Filled (F.cell1d ⟨6, 0⟩ 0 3 1) [(0, 3)] L exRat m1 ∧
    F.nodepoissonapply1d 0 3 2 exDx 1 ⟨2, 0⟩ ⟨3, 0⟩ 5 7 1 ⟨6, 0⟩ exRat = .ok m2 ∧ F.Filled (F.cell1d ⟨6, 0⟩ 0 3 1) [(0, 3)] (fun p => 7 * F.rd exRat (F.cell1d ⟨2, 0⟩ 0 3 1) p + 5 * L p) exRat m2 :=
  C65_poisson_1d (i0 := 0) (i1 := 3) (fgcw := 1) (rgcw := 1) (beta := 2) (dx := exDx) (f := ⟨2, 0⟩) (f0 := ⟨3, 0⟩) (res := ⟨6, 0⟩) (fun _ => revBackend_ok) (by decide) (by decide) (by decide) (by ex_args)

/-- With `a = 1` and `b = 0` the routine leaves the memory of the `poisson_apply` kernel. -/
theorem C65_poisson_apply_1d {i0 i1 fgcw rgcw : Int} {beta : T} {dx : Nat → T} {f f0 res : Ptr} {β : Nat → Backend} {m : Mem T} (hβ : ∀ n, ValidBackend (β n)) (hi : i0 ≤ i1) (hfgcw : 0 ≤ fgcw) (hrgcw : 0 ≤ rgcw)
    (h : F.Args m [(F.cell1d f i0 i1 fgcw), (F.face1d f0 i0 i1 0)] [(F.cell1d res i0 i1 rgcw)]) :
    ∃ m', Cuda.poissonV2Apply1d i0 i1 beta dx f0 rgcw res β m = .ok m' ∧ F.nodepoissonapply1d i0 i1 beta dx fgcw f f0 1 0 rgcw res m = .ok m' := by
  obtain ⟨m1, m2, L, c1, c2, d1, d2⟩ := C65_poisson_1d (wa := 1) (wb := 0) hβ hi hfgcw hrgcw h
  refine ⟨m1, c1, ?_⟩
  rw [d1, d2.eq c2 fun p _ => by rw [zero_mul, one_mul, zero_add]]

example : ∃ m', Cuda.poissonV2Apply1d 0 3 2 exDx ⟨3, 0⟩ 1 ⟨6, 0⟩ (fun _ => revBackend) exRat = .ok m' ∧ F.nodepoissonapply1d 0 3 2 exDx 1 ⟨2, 0⟩ ⟨3, 0⟩ 1 0 1 ⟨6, 0⟩ exRat = .ok m' :=
  C65_poisson_apply_1d (i0 := 0) (i1 := 3) (fgcw := 1) (rgcw := 1) (beta := 2) (dx := exDx) (f := ⟨2, 0⟩) (f0 := ⟨3, 0⟩) (res := ⟨6, 0⟩) (fun _ => revBackend_ok) (by decide) (by decide) (by decide) (by ex_args)

/-- With `a = -1` and `b = 1` the routine leaves the memory of the `poisson_res` kernel. -/
theorem C65_poisson_res_1d {i0 i1 fgcw rgcw : Int} {beta : T} {dx : Nat → T} {f f0 res : Ptr} {β : Nat → Backend} {m : Mem T} (hβ : ∀ n, ValidBackend (β n)) (hi : i0 ≤ i1) (hfgcw : 0 ≤ fgcw) (hrgcw : 0 ≤ rgcw)
    (h : F.Args m [(F.cell1d f i0 i1 fgcw), (F.face1d f0 i0 i1 0)] [(F.cell1d res i0 i1 rgcw)]) :
    ∃ m', Cuda.poissonV1Res1d i0 i1 beta dx fgcw f f0 rgcw res β m = .ok m' ∧ F.nodepoissonapply1d i0 i1 beta dx fgcw f f0 (-1) 1 rgcw res m = .ok m' := by
  obtain ⟨m1, c1, c2⟩ := C34_poisson_res_1d hβ hi hfgcw hrgcw h
  obtain ⟨m1', d1, d2⟩ := res_p_1_filled hi hfgcw hrgcw h
  rw [c2] at d1
  cases d1
  obtain ⟨m2, e1, e2⟩ := node_p_1_filled (wa := -1) (wb := 1) hi hfgcw hrgcw h
  refine ⟨m1, c1, ?_⟩
  rw [e1, e2.eq d2 fun p _ => by rw [one_mul, neg_one_mul, ← sub_eq_add_neg]]

example : ∃ m', Cuda.poissonV1Res1d 0 3 2 exDx 1 ⟨2, 0⟩ ⟨3, 0⟩ 1 ⟨6, 0⟩ (fun _ => revBackend) exRat = .ok m' ∧ F.nodepoissonapply1d 0 3 2 exDx 1 ⟨2, 0⟩ ⟨3, 0⟩ (-1) 1 1 ⟨6, 0⟩ exRat = .ok m' :=
  C65_poisson_res_1d (i0 := 0) (i1 := 3) (fgcw := 1) (rgcw := 1) (beta := 2) (dx := exDx) (f := ⟨2, 0⟩) (f0 := ⟨3, 0⟩) (res := ⟨6, 0⟩) (fun _ => revBackend_ok) (by decide) (by decide) (by decide) (by ex_args)

/-- `nodediffusionv1apply2d` leaves, at every cell of the box, `b` times the right hand side plus `a` times what the `diffusion_v1_apply` kernel leaves there, and changes nothing else. -/
theorem C65_v1_2d {i0 j0 i1 j1 agcw ugcw fgcw rgcw : Int} {alpha beta wa wb : T} {dx : Nat → T} {a u f f0 f1 res : Ptr} {β : Nat → Backend} {m : Mem T} (hβ : ∀ n, ValidBackend (β n)) (hi : i0 ≤ i1) (hj : j0 ≤ j1) (hagcw : 0 ≤ agcw) (hugcw : 0 ≤ ugcw) (hfgcw : 0 ≤ fgcw) (hrgcw : 0 ≤ rgcw)
    (h : F.Args m [(F.cell2d a i0 j0 i1 j1 agcw), (F.cell2d u i0 j0 i1 j1 ugcw), (F.cell2d f i0 j0 i1 j1 fgcw), (F.face2d0 f0 i0 j0 i1 j1 0), (F.face2d1 f1 i0 j0 i1 j1 0)] [(F.cell2d res i0 j0 i1 j1 rgcw)]) :
    ∃ m1 m2 L, Cuda.diffusionV1Apply2d i0 i1 j0 j1 alpha beta dx agcw a ugcw u f0 f1 rgcw res β m = .ok m1 ∧ F.Filled (F.cell2d res i0 j0 i1 j1 rgcw) [(i0, i1), (j0, j1)] L m m1 ∧
      F.nodediffusionv1apply2d i0 i1 j0 j1 alpha beta dx agcw a ugcw u fgcw f f0 f1 wa wb rgcw res m = .ok m2 ∧
      F.Filled (F.cell2d res i0 j0 i1 j1 rgcw) [(i0, i1), (j0, j1)] (fun p => wb * F.rd m (F.cell2d f i0 j0 i1 j1 fgcw) p + wa * L p) m m2 := by
  obtain ⟨m1, c1, c2⟩ := C34_v1_apply_2d hβ hi hj hagcw hugcw hrgcw (h.sub (fun x hx => by revert hx; simp only [List.mem_cons, List.not_mem_nil, or_false]; tauto) (fun _ hx => hx))
  obtain ⟨m1', d1, d2⟩ := apply_v1_2_filled hi hj hagcw hugcw hrgcw (h.sub (fun x hx => by revert hx; simp only [List.mem_cons, List.not_mem_nil, or_false]; tauto) (fun _ hx => hx))
  rw [c2] at d1
  cases d1
  obtain ⟨m2, e1, e2⟩ := node_v1_2_filled (wa := wa) (wb := wb) hi hj hagcw hugcw hfgcw hrgcw h
  exact ⟨m1, m2, _, c1, d2, e1, e2⟩

example : ∃ m1 m2 L, Cuda.diffusionV1Apply2d 0 2 1 3 3 2 exDx 1 ⟨0, 0⟩ 2 ⟨1, 0⟩ ⟨3, 0⟩ ⟨4, 0⟩ 1 ⟨6, 0⟩ (fun _ => revBackend) exRat = .ok m1 ∧ F.Filled (F.cell2d ⟨6, 0⟩ 0 1 2 3 1) [(0, 2), (1, 3)] L exRat m1 ∧
    F.nodediffusionv1apply2d 0 2 1 3 3 2 exDx 1 ⟨0, 0⟩ 2 ⟨1, 0⟩ 1 ⟨2, 0⟩ ⟨3, 0⟩ ⟨4, 0⟩ 5 7 1 ⟨6, 0⟩ exRat = .ok m2 ∧ F.Filled (F.cell2d ⟨6, 0⟩ 0 1 2 3 1) [(0, 2), (1, 3)] (fun p => 7 * F.rd exRat (F.cell2d ⟨2, 0⟩ 0 1 2 3 1) p + 5 * L p) exRat m2 :=
  C65_v1_2d (i0 := 0) (j0 := 1) (i1 := 2) (j1 := 3) (agcw := 1) (ugcw := 2) (fgcw := 1) (rgcw := 1) (alpha := 3) (beta := 2) (dx := exDx) (a := ⟨0, 0⟩) (u := ⟨1, 0⟩) (f := ⟨2, 0⟩) (f0 := ⟨3, 0⟩) (f1 := ⟨4, 0⟩) (res := ⟨6, 0⟩) (fun _ => revBackend_ok) (by decide) (by decide) (by decide) (by decide) (by decide) (by decide) (by ex_args)

/-- With `a = 1` and `b = 0` the routine leaves the memory of the `diffusion_v1_apply` kernel. -/
theorem C65_v1_apply_2d {i0 j0 i1 j1 agcw ugcw fgcw rgcw : Int} {alpha beta : T} {dx : Nat → T} {a u f f0 f1 res : Ptr} {β : Nat → Backend} {m : Mem T} (hβ : ∀ n, ValidBackend (β n)) (hi : i0 ≤ i1) (hj : j0 ≤ j1) (hagcw : 0 ≤ agcw) (hugcw : 0 ≤ ugcw) (hfgcw : 0 ≤ fgcw) (hrgcw : 0 ≤ rgcw)
    (h : F.Args m [(F.cell2d a i0 j0 i1 j1 agcw), (F.cell2d u i0 j0 i1 j1 ugcw), (F.cell2d f i0 j0 i1 j1 fgcw), (F.face2d0 f0 i0 j0 i1 j1 0), (F.face2d1 f1 i0 j0 i1 j1 0)] [(F.cell2d res i0 j0 i1 j1 rgcw)]) :
    ∃ m', Cuda.diffusionV1Apply2d i0 i1 j0 j1 alpha beta dx agcw a ugcw u f0 f1 rgcw res β m = .ok m' ∧ F.nodediffusionv1apply2d i0 i1 j0 j1 alpha beta dx agcw a ugcw u fgcw f f0 f1 1 0 rgcw res m = .ok m' := by
  obtain ⟨m1, m2, L, c1, c2, d1, d2⟩ := C65_v1_2d (wa := 1) (wb := 0) hβ hi hj hagcw hugcw hfgcw hrgcw h
  refine ⟨m1, c1, ?_⟩
  rw [d1, d2.eq c2 fun p _ => by rw [zero_mul, one_mul, zero_add]]

example : ∃ m', Cuda.diffusionV1Apply2d 0 2 1 3 3 2 exDx 1 ⟨0, 0⟩ 2 ⟨1, 0⟩ ⟨3, 0⟩ ⟨4, 0⟩ 1 ⟨6, 0⟩ (fun _ => revBackend) exRat = .ok m' ∧ F.nodediffusionv1apply2d 0 2 1 3 3 2 exDx 1 ⟨0, 0⟩ 2 ⟨1, 0⟩ 1 ⟨2, 0⟩ ⟨3, 0⟩ ⟨4, 0⟩ 1 0 1 ⟨6, 0⟩ exRat = .ok m' :=
  C65_v1_apply_2d (i0 := 0) (j0 := 1) (i1 := 2) (j1 := 3) (agcw := 1) (ugcw := 2) (fgcw := 1) (rgcw := 1) (alpha := 3) (beta := 2) (dx := exDx) (a := ⟨0, 0⟩) (u := ⟨1, 0⟩) (f := ⟨2, 0⟩) (f0 := ⟨3, 0⟩) (f1 := ⟨4, 0⟩) (res := ⟨6, 0⟩) (fun _ => revBackend_ok) (by decide) (by decide) (by decide) (by decide) (by decide) (by decide) (by ex_args)

/-- With `a = -1` and `b = 1` the routine leaves the memory of the `diffusion_v1_res` kernel. -/
theorem C65_v1_res_2d {i0 j0 i1 j1 agcw ugcw fgcw rgcw : Int} {alpha beta : T} {dx : Nat → T} {a u f f0 f1 res : Ptr} {β : Nat → Backend} {m : Mem T} (hβ : ∀ n, ValidBackend (β n)) (hi : i0 ≤ i1) (hj : j0 ≤ j1) (hagcw : 0 ≤ agcw) (hugcw : 0 ≤ ugcw) (hfgcw : 0 ≤ fgcw) (hrgcw : 0 ≤ rgcw)
    (h : F.Args m [(F.cell2d a i0 j0 i1 j1 agcw), (F.cell2d u i0 j0 i1 j1 ugcw), (F.cell2d f i0 j0 i1 j1 fgcw), (F.face2d0 f0 i0 j0 i1 j1 0), (F.face2d1 f1 i0 j0 i1 j1 0)] [(F.cell2d res i0 j0 i1 j1 rgcw)]) :
    ∃ m', Cuda.diffusionV1Res2d i0 i1 j0 j1 alpha beta dx agcw a ugcw u fgcw f f0 f1 rgcw res β m = .ok m' ∧ F.nodediffusionv1apply2d i0 i1 j0 j1 alpha beta dx agcw a ugcw u fgcw f f0 f1 (-1) 1 rgcw res m = .ok m' := by
  obtain ⟨m1, c1, c2⟩ := C34_v1_res_2d hβ hi hj hagcw hugcw hfgcw hrgcw h
  obtain ⟨m1', d1, d2⟩ := res_v1_2_filled hi hj hagcw hugcw hfgcw hrgcw h
  rw [c2] at d1
  cases d1
  obtain ⟨m2, e1, e2⟩ := node_v1_2_filled (wa := -1) (wb := 1) hi hj hagcw hugcw hfgcw hrgcw h
  refine ⟨m1, c1, ?_⟩
  rw [e1, e2.eq d2 fun p _ => by rw [one_mul, neg_one_mul, ← sub_eq_add_neg]]

example : ∃ m', Cuda.diffusionV1Res2d 0 2 1 3 3 2 exDx 1 ⟨0, 0⟩ 2 ⟨1, 0⟩ 1 ⟨2, 0⟩ ⟨3, 0⟩ ⟨4, 0⟩ 1 ⟨6, 0⟩ (fun _ => revBackend) exRat = .ok m' ∧ F.nodediffusionv1apply2d 0 2 1 3 3 2 exDx 1 ⟨0, 0⟩ 2 ⟨1, 0⟩ 1 ⟨2, 0⟩ ⟨3, 0⟩ ⟨4, 0⟩ (-1) 1 1 ⟨6, 0⟩ exRat = .ok m' :=
  C65_v1_res_2d (i0 := 0) (j0 := 1) (i1 := 2) (j1 := 3) (agcw := 1) (ugcw := 2) (fgcw := 1) (rgcw := 1) (alpha := 3) (beta := 2) (dx := exDx) (a := ⟨0, 0⟩) (u := ⟨1, 0⟩) (f := ⟨2, 0⟩) (f0 := ⟨3, 0⟩) (f1 := ⟨4, 0⟩) (res := ⟨6, 0⟩) (fun _ => revBackend_ok) (by decide) (by decide) (by decide) (by decide) (by decide) (by decide) (by ex_args)

/-- `nodediffusionv2apply2d` leaves, at every cell of the box, `b` times the right hand side plus `a` times what the `diffusion_v2_apply` kernel leaves there, and changes nothing else. -/
theorem C65_v2_2d {i0 j0 i1 j1 ugcw fgcw rgcw : Int} {alpha beta wa wb : T} {dx : Nat → T} {u f f0 f1 res : Ptr} {β : Nat → Backend} {m : Mem T} (hβ : ∀ n, ValidBackend (β n)) (hi : i0 ≤ i1) (hj : j0 ≤ j1) (hugcw : 0 ≤ ugcw) (hfgcw : 0 ≤ fgcw) (hrgcw : 0 ≤ rgcw)
    (h : F.Args m [(F.cell2d u i0 j0 i1 j1 ugcw), (F.cell2d f i0 j0 i1 j1 fgcw), (F.face2d0 f0 i0 j0 i1 j1 0), (F.face2d1 f1 i0 j0 i1 j1 0)] [(F.cell2d res i0 j0 i1 j1 rgcw)]) :
    ∃ m1 m2 L, Cuda.diffusionV2Apply2d i0 i1 j0 j1 alpha beta dx ugcw u f0 f1 rgcw res β m = .ok m1 ∧ F.Filled (F.cell2d res i0 j0 i1 j1 rgcw) [(i0, i1), (j0, j1)] L m m1 ∧
      F.nodediffusionv2apply2d i0 i1 j0 j1 alpha beta dx ugcw u fgcw f f0 f1 wa wb rgcw res m = .ok m2 ∧
      F.Filled (F.cell2d res i0 j0 i1 j1 rgcw) [(i0, i1), (j0, j1)] (fun p => wb * F.rd m (F.cell2d f i0 j0 i1 j1 fgcw) p + wa * L p) m m2 := by
  obtain ⟨m1, c1, c2⟩ := C34_v2_apply_2d hβ hi hj hugcw hrgcw (h.sub (fun x hx => by revert hx; simp only [List.mem_cons, List.not_mem_nil, or_false]; tauto) (fun _ hx => hx))
  obtain ⟨m1', d1, d2⟩ := apply_v2_2_filled hi hj hugcw hrgcw (h.sub (fun x hx => by revert hx; simp only [List.mem_cons, List.not_mem_nil, or_false]; tauto) (fun _ hx => hx))
  rw [c2] at d1
  cases d1
  obtain ⟨m2, e1, e2⟩ := node_v2_2_filled (wa := wa) (wb := wb) hi hj hugcw hfgcw hrgcw h
  exact ⟨m1, m2, _, c1, d2, e1, e2⟩

example : ∃ m1 m2 L, Cuda.diffusionV2Apply2d 0 2 1 3 3 2 exDx 2 ⟨1, 0⟩ ⟨3, 0⟩ ⟨4, 0⟩ 1 ⟨6, 0⟩ (fun _ => revBackend) exRat = .ok m1 ∧ F.Filled (F.cell2d ⟨6, 0⟩ 0 1 2 3 1) [(0, 2), (1, 3)] L exRat m1 ∧
    F.nodediffusionv2apply2d 0 2 1 3 3 2 exDx 2 ⟨1, 0⟩ 1 ⟨2, 0⟩ ⟨3, 0⟩ ⟨4, 0⟩ 5 7 1 ⟨6, 0⟩ exRat = .ok m2 ∧ F.Filled (F.cell2d ⟨6, 0⟩ 0 1 2 3 1) [(0, 2), (1, 3)] (fun p => 7 * F.rd exRat (F.cell2d ⟨2, 0⟩ 0 1 2 3 1) p + 5 * L p) exRat m2 :=
  C65_v2_2d (i0 := 0) (j0 := 1) (i1 := 2) (j1 := 3) (ugcw := 2) (fgcw := 1) (rgcw := 1) (alpha := 3) (beta := 2) (dx := exDx) (u := ⟨1, 0⟩) (f := ⟨2, 0⟩) (f0 := ⟨3, 0⟩) (f1 := ⟨4, 0⟩) (res := ⟨6, 0⟩) (fun _ => revBackend_ok) (by decide) (by decide) (by decide) (by decide) (by decide) (by ex_args)

/-- With `a = 1` and `b = 0` the routine leaves the memory of the `diffusion_v2_apply` kernel. -/
theorem C65_v2_apply_2d {i0 j0 i1 j1 ugcw fgcw rgcw : Int} {alpha beta : T} {dx : Nat → T} {u f f0 f1 res : Ptr} {β : Nat → Backend} {m : Mem T} (hβ : ∀ n, ValidBackend (β n)) (hi : i0 ≤ i1) (hj : j0 ≤ j1) (hugcw : 0 ≤ ugcw) (hfgcw : 0 ≤ fgcw) (hrgcw : 0 ≤ rgcw)
    (h : F.Args m [(F.cell2d u i0 j0 i1 j1 ugcw), (F.cell2d f i0 j0 i1 j1 fgcw), (F.face2d0 f0 i0 j0 i1 j1 0), (F.face2d1 f1 i0 j0 i1 j1 0)] [(F.cell2d res i0 j0 i1 j1 rgcw)]) :
    ∃ m', Cuda.diffusionV2Apply2d i0 i1 j0 j1 alpha beta dx ugcw u f0 f1 rgcw res β m = .ok m' ∧ F.nodediffusionv2apply2d i0 i1 j0 j1 alpha beta dx ugcw u fgcw f f0 f1 1 0 rgcw res m = .ok m' := by
  obtain ⟨m1, m2, L, c1, c2, d1, d2⟩ := C65_v2_2d (wa := 1) (wb := 0) hβ hi hj hugcw hfgcw hrgcw h
  refine ⟨m1, c1, ?_⟩
  rw [d1, d2.eq c2 fun p _ => by rw [zero_mul, one_mul, zero_add]]

example : ∃ m', Cuda.diffusionV2Apply2d 0 2 1 3 3 2 exDx 2 ⟨1, 0⟩ ⟨3, 0⟩ ⟨4, 0⟩ 1 ⟨6, 0⟩ (fun _ => revBackend) exRat = .ok m' ∧ F.nodediffusionv2apply2d 0 2 1 3 3 2 exDx 2 ⟨1, 0⟩ 1 ⟨2, 0⟩ ⟨3, 0⟩ ⟨4, 0⟩ 1 0 1 ⟨6, 0⟩ exRat = .ok m' :=
  C65_v2_apply_2d (i0 := 0) (j0 := 1) (i1 := 2) (j1 := 3) (ugcw := 2) (fgcw := 1) (rgcw := 1) (alpha := 3) (beta := 2) (dx := exDx) (u := ⟨1, 0⟩) (f := ⟨2, 0⟩) (f0 := ⟨3, 0⟩) (f1 := ⟨4, 0⟩) (res := ⟨6, 0⟩) (fun _ => revBackend_ok) (by decide) (by decide) (by decide) (by decide) (by decide) (by ex_args)

/-- With `a = -1` and `b = 1` the routine leaves the memory of the `diffusion_v2_res` kernel. -/
theorem C65_v2_res_2d {i0 j0 i1 j1 ugcw fgcw rgcw : Int} {alpha beta : T} {dx : Nat → T} {u f f0 f1 res : Ptr} {β : Nat → Backend} {m : Mem T} (hβ : ∀ n, ValidBackend (β n)) (hi : i0 ≤ i1) (hj : j0 ≤ j1) (hugcw : 0 ≤ ugcw) (hfgcw : 0 ≤ fgcw) (hrgcw : 0 ≤ rgcw)
    (h : F.Args m [(F.cell2d u i0 j0 i1 j1 ugcw), (F.cell2d f i0 j0 i1 j1 fgcw), (F.face2d0 f0 i0 j0 i1 j1 0), (F.face2d1 f1 i0 j0 i1 j1 0)] [(F.cell2d res i0 j0 i1 j1 rgcw)]) :
    ∃ m', Cuda.diffusionV2Res2d i0 i1 j0 j1 alpha beta dx ugcw u fgcw f f0 f1 rgcw res β m = .ok m' ∧ F.nodediffusionv2apply2d i0 i1 j0 j1 alpha beta dx ugcw u fgcw f f0 f1 (-1) 1 rgcw res m = .ok m' := by
  obtain ⟨m1, c1, c2⟩ := C34_v2_res_2d hβ hi hj hugcw hfgcw hrgcw h
  obtain ⟨m1', d1, d2⟩ := res_v2_2_filled hi hj hugcw hfgcw hrgcw h
  rw [c2] at d1
  cases d1
  obtain ⟨m2, e1, e2⟩ := node_v2_2_filled (wa := -1) (wb := 1) hi hj hugcw hfgcw hrgcw h
  refine ⟨m1, c1, ?_⟩
  rw [e1, e2.eq d2 fun p _ => by rw [one_mul, neg_one_mul, ← sub_eq_add_neg]]

example : ∃ m', Cuda.diffusionV2Res2d 0 2 1 3 3 2 exDx 2 ⟨1, 0⟩ 1 ⟨2, 0⟩ ⟨3, 0⟩ ⟨4, 0⟩ 1 ⟨6, 0⟩ (fun _ => revBackend) exRat = .ok m' ∧ F.nodediffusionv2apply2d 0 2 1 3 3 2 exDx 2 ⟨1, 0⟩ 1 ⟨2, 0⟩ ⟨3, 0⟩ ⟨4, 0⟩ (-1) 1 1 ⟨6, 0⟩ exRat = .ok m' :=
  C65_v2_res_2d (i0 := 0) (j0 := 1) (i1 := 2) (j1 := 3) (ugcw := 2) (fgcw := 1) (rgcw := 1) (alpha := 3) (beta := 2) (dx := exDx) (u := ⟨1, 0⟩) (f := ⟨2, 0⟩) (f0 := ⟨3, 0⟩) (f1 := ⟨4, 0⟩) (res := ⟨6, 0⟩) (fun _ => revBackend_ok) (by decide) (by decide) (by decide) (by decide) (by decide) (by ex_args)

/-- `nodepoissonapply2d` leaves, at every cell of the box, `b` times the right hand side plus `a` times what the `poisson_apply` kernel leaves there, and changes nothing else. -/
theorem C65_poisson_2d {i0 j0 i1 j1 fgcw rgcw : Int} {beta wa wb : T} {dx : Nat → T} {f f0 f1 res : Ptr} {β : Nat → Backend} {m : Mem T} (hβ : ∀ n, ValidBackend (β n)) (hi : i0 ≤ i1) (hj : j0 ≤ j1) (hfgcw : 0 ≤ fgcw) (hrgcw : 0 ≤ rgcw)
    (h : F.Args m [(F.cell2d f i0 j0 i1 j1 fgcw), (F.face2d0 f0 i0 j0 i1 j1 0), (F.face2d1 f1 i0 j0 i1 j1 0)] [(F.cell2d res i0 j0 i1 j1 rgcw)]) :
    ∃ m1 m2 L, Cuda.poissonV2Apply2d i0 i1 j0 j1 beta dx f0 f1 rgcw res β m = .ok m1 ∧ F.Filled (F.cell2d res i0 j0 i1 j1 rgcw) [(i0, i1), (j0, j1)] L m m1 ∧
      F.nodepoissonapply2d i0 i1 j0 j1 beta dx fgcw f f0 f1 wa wb rgcw res m = .ok m2 ∧
      F.Filled (F.cell2d res i0 j0 i1 j1 rgcw) [(i0, i1), (j0, j1)] (fun p => wb * F.rd m (F.cell2d f i0 j0 i1 j1 fgcw) p + wa * L p) m m2 := by
  obtain ⟨m1, c1, c2⟩ := C34_poisson_apply_2d hβ hi hj hrgcw (h.sub (fun x hx => by revert hx; simp only [List.mem_cons, List.not_mem_nil, or_false]; tauto) (fun _ hx => hx))
  obtain ⟨m1', d1, d2⟩ := apply_p_2_filled hi hj hrgcw (h.sub (fun x hx => by revert hx; simp only [List.mem_cons, List.not_mem_nil, or_false]; tauto) (fun _ hx => hx))
  rw [c2] at d1
  cases d1
  obtain ⟨m2, e1, e2⟩ := node_p_2_filled (wa := wa) (wb := wb) hi hj hfgcw hrgcw h
  exact ⟨m1, m2, _, c1, d2, e1, e2⟩

example : ∃ m1 m2 L, Cuda.poissonV2Apply2d 0 2 1 3 2 exDx ⟨3, 0⟩ ⟨4, 0⟩ 1 ⟨6, 0⟩ (fun _ => revBackend) exRat = .ok m1 ∧ F.Filled (F.cell2d ⟨6, 0⟩ 0 1 2 3 1) [(0, 2), (1, 3)] L exRat m1 ∧
    F.nodepoissonapply2d 0 2 1 3 2 exDx 1 ⟨2, 0⟩ ⟨3, 0⟩ ⟨4, 0⟩ 5 7 1 ⟨6, 0⟩ exRat = .ok m2 ∧ F.Filled (F.cell2d ⟨6, 0⟩ 0 1 2 3 1) [(0, 2), (1, 3)] (fun p => 7 * F.rd exRat (F.cell2d ⟨2, 0⟩ 0 1 2 3 1) p + 5 * L p) exRat m2 :=
  C65_poisson_2d (i0 := 0) (j0 := 1) (i1 := 2) (j1 := 3) (fgcw := 1) (rgcw := 1) (beta := 2) (dx := exDx) (f := ⟨2, 0⟩) (f0 := ⟨3, 0⟩) (f1 := ⟨4, 0⟩) (res := ⟨6, 0⟩) (fun _ => revBackend_ok) (by decide) (by decide) (by decide) (by decide) (by ex_args)

/-- With `a = 1` and `b = 0` the routine leaves the memory of the `poisson_apply` kernel. -/
theorem C65_poisson_apply_2d {i0 j0 i1 j1 fgcw rgcw : Int} {beta : T} {dx : Nat → T} {f f0 f1 res : Ptr} {β : Nat → Backend} {m : Mem T} (hβ : ∀ n, ValidBackend (β n)) (hi : i0 ≤ i1) (hj : j0 ≤ j1) (hfgcw : 0 ≤ fgcw) (hrgcw : 0 ≤ rgcw)
    (h : F.Args m [(F.cell2d f i0 j0 i1 j1 fgcw), (F.face2d0 f0 i0 j0 i1 j1 0), (F.face2d1 f1 i0 j0 i1 j1 0)] [(F.cell2d res i0 j0 i1 j1 rgcw)]) :
    ∃ m', Cuda.poissonV2Apply2d i0 i1 j0 j1 beta dx f0 f1 rgcw res β m = .ok m' ∧ F.nodepoissonapply2d i0 i1 j0 j1 beta dx fgcw f f0 f1 1 0 rgcw res m = .ok m' := by
  obtain ⟨m1, m2, L, c1, c2, d1, d2⟩ := C65_poisson_2d (wa := 1) (wb := 0) hβ hi hj hfgcw hrgcw h
  refine ⟨m1, c1, ?_⟩
  rw [d1, d2.eq c2 fun p _ => by rw [zero_mul, one_mul, zero_add]]

example : ∃ m', Cuda.poissonV2Apply2d 0 2 1 3 2 exDx ⟨3, 0⟩ ⟨4, 0⟩ 1 ⟨6, 0⟩ (fun _ => revBackend) exRat = .ok m' ∧ F.nodepoissonapply2d 0 2 1 3 2 exDx 1 ⟨2, 0⟩ ⟨3, 0⟩ ⟨4, 0⟩ 1 0 1 ⟨6, 0⟩ exRat = .ok m' :=
  C65_poisson_apply_2d (i0 := 0) (j0 := 1) (i1 := 2) (j1 := 3) (fgcw := 1) (rgcw := 1) (beta := 2) (dx := exDx) (f := ⟨2, 0⟩) (f0 := ⟨3, 0⟩) (f1 := ⟨4, 0⟩) (res := ⟨6, 0⟩) (fun _ => revBackend_ok) (by decide) (by decide) (by decide) (by decide) (by ex_args)

/-- With `a = -1` and `b = 1` the routine leaves the memory of the `poisson_res` kernel. -/
theorem C65_poisson_res_2d {i0 j0 i1 j1 fgcw rgcw : Int} {beta : T} {dx : Nat → T} {f f0 f1 res : Ptr} {β : Nat → Backend} {m : Mem T} (hβ : ∀ n, ValidBackend (β n)) (hi : i0 ≤ i1) (hj : j0 ≤ j1) (hfgcw : 0 ≤ fgcw) (hrgcw : 0 ≤ rgcw)
    (h : F.Args m [(F.cell2d f i0 j0 i1 j1 fgcw), (F.face2d0 f0 i0 j0 i1 j1 0), (F.face2d1 f1 i0 j0 i1 j1 0)] [(F.cell2d res i0 j0 i1 j1 rgcw)]) :
    ∃ m', Cuda.poissonV1Res2d i0 i1 j0 j1 beta dx fgcw f f0 f1 rgcw res β m = .ok m' ∧ F.nodepoissonapply2d i0 i1 j0 j1 beta dx fgcw f f0 f1 (-1) 1 rgcw res m = .ok m' := by
  obtain ⟨m1, c1, c2⟩ := C34_poisson_res_2d hβ hi hj hfgcw hrgcw h
  obtain ⟨m1', d1, d2⟩ := res_p_2_filled hi hj hfgcw hrgcw h
  rw [c2] at d1
  cases d1
  obtain ⟨m2, e1, e2⟩ := node_p_2_filled (wa := -1) (wb := 1) hi hj hfgcw hrgcw h
  refine ⟨m1, c1, ?_⟩
  rw [e1, e2.eq d2 fun p _ => by rw [one_mul, neg_one_mul, ← sub_eq_add_neg]]

example : ∃ m', Cuda.poissonV1Res2d 0 2 1 3 2 exDx 1 ⟨2, 0⟩ ⟨3, 0⟩ ⟨4, 0⟩ 1 ⟨6, 0⟩ (fun _ => revBackend) exRat = .ok m' ∧ F.nodepoissonapply2d 0 2 1 3 2 exDx 1 ⟨2, 0⟩ ⟨3, 0⟩ ⟨4, 0⟩ (-1) 1 1 ⟨6, 0⟩ exRat = .ok m' :=
  C65_poisson_res_2d (i0 := 0) (j0 := 1) (i1 := 2) (j1 := 3) (fgcw := 1) (rgcw := 1) (beta := 2) (dx := exDx) (f := ⟨2, 0⟩) (f0 := ⟨3, 0⟩) (f1 := ⟨4, 0⟩) (res := ⟨6, 0⟩) (fun _ => revBackend_ok) (by decide) (by decide) (by decide) (by decide) (by ex_args)

/-- `nodediffusionv1apply3d` leaves, at every cell of the box, `b` times the right hand side plus `a` times what the `diffusion_v1_apply` kernel leaves there, and changes nothing else. -/
theorem C65_v1_3d {i0 j0 k0 i1 j1 k1 agcw ugcw fgcw rgcw : Int} {alpha beta wa wb : T} {dx : Nat → T} {a u f f0 f1 f2 res : Ptr} {β : Nat → Backend} {m : Mem T} (hβ : ∀ n, ValidBackend (β n)) (hi : i0 ≤ i1) (hj : j0 ≤ j1) (hk : k0 ≤ k1) (hagcw : 0 ≤ agcw) (hugcw : 0 ≤ ugcw) (hfgcw : 0 ≤ fgcw) (hrgcw : 0 ≤ rgcw)
    (h : F.Args m [(F.cell3d a i0 j0 k0 i1 j1 k1 agcw), (F.cell3d u i0 j0 k0 i1 j1 k1 ugcw), (F.cell3d f i0 j0 k0 i1 j1 k1 fgcw), (F.face3d0 f0 i0 j0 k0 i1 j1 k1 0), (F.face3d1 f1 i0 j0 k0 i1 j1 k1 0), (F.face3d2 f2 i0 j0 k0 i1 j1 k1 0)] [(F.cell3d res i0 j0 k0 i1 j1 k1 rgcw)]) :
    ∃ m1 m2 L, Cuda.diffusionV1Apply3d i0 i1 j0 j1 k0 k1 alpha beta dx agcw a ugcw u f0 f1 f2 rgcw res β m = .ok m1 ∧ F.Filled (F.cell3d res i0 j0 k0 i1 j1 k1 rgcw) [(i0, i1), (j0, j1), (k0, k1)] L m m1 ∧
      F.nodediffusionv1apply3d i0 i1 j0 j1 k0 k1 alpha beta dx agcw a ugcw u fgcw f f0 f1 f2 wa wb rgcw res m = .ok m2 ∧
      F.Filled (F.cell3d res i0 j0 k0 i1 j1 k1 rgcw) [(i0, i1), (j0, j1), (k0, k1)] (fun p => wb * F.rd m (F.cell3d f i0 j0 k0 i1 j1 k1 fgcw) p + wa * L p) m m2 := by
  obtain ⟨m1, c1, c2⟩ := C34_v1_apply_3d hβ hi hj hk hagcw hugcw hrgcw (h.sub (fun x hx => by revert hx; simp only [List.mem_cons, List.not_mem_nil, or_false]; tauto) (fun _ hx => hx))
  obtain ⟨m1', d1, d2⟩ := apply_v1_3_filled hi hj hk hagcw hugcw hrgcw (h.sub (fun x hx => by revert hx; simp only [List.mem_cons, List.not_mem_nil, or_false]; tauto) (fun _ hx => hx))
  rw [c2] at d1
  cases d1
  obtain ⟨m2, e1, e2⟩ := node_v1_3_filled (wa := wa) (wb := wb) hi hj hk hagcw hugcw hfgcw hrgcw h
  exact ⟨m1, m2, _, c1, d2, e1, e2⟩

example : ∃ m1 m2 L, Cuda.diffusionV1Apply3d 0 2 1 3 2 3 3 2 exDx 1 ⟨0, 0⟩ 2 ⟨1, 0⟩ ⟨3, 0⟩ ⟨4, 0⟩ ⟨5, 0⟩ 1 ⟨6, 0⟩ (fun _ => revBackend) exRat = .ok m1 ∧ F.Filled (F.cell3d ⟨6, 0⟩ 0 1 2 2 3 3 1) [(0, 2), (1, 3), (2, 3)] L exRat m1 ∧
    F.nodediffusionv1apply3d 0 2 1 3 2 3 3 2 exDx 1 ⟨0, 0⟩ 2 ⟨1, 0⟩ 1 ⟨2, 0⟩ ⟨3, 0⟩ ⟨4, 0⟩ ⟨5, 0⟩ 5 7 1 ⟨6, 0⟩ exRat = .ok m2 ∧ F.Filled (F.cell3d ⟨6, 0⟩ 0 1 2 2 3 3 1) [(0, 2), (1, 3), (2, 3)] (fun p => 7 * F.rd exRat (F.cell3d ⟨2, 0⟩ 0 1 2 2 3 3 1) p + 5 * L p) exRat m2 :=
  C65_v1_3d (i0 := 0) (j0 := 1) (k0 := 2) (i1 := 2) (j1 := 3) (k1 := 3) (agcw := 1) (ugcw := 2) (fgcw := 1) (rgcw := 1) (alpha := 3) (beta := 2) (dx := exDx) (a := ⟨0, 0⟩) (u := ⟨1, 0⟩) (f := ⟨2, 0⟩) (f0 := ⟨3, 0⟩) (f1 := ⟨4, 0⟩) (f2 := ⟨5, 0⟩) (res := ⟨6, 0⟩) (fun _ => revBackend_ok) (by decide) (by decide) (by decide) (by decide) (by decide) (by decide) (by decide) (by ex_args)

/-- With `a = 1` and `b = 0` the routine leaves the memory of the `diffusion_v1_apply` kernel. -/
theorem C65_v1_apply_3d {i0 j0 k0 i1 j1 k1 agcw ugcw fgcw rgcw : Int} {alpha beta : T} {dx : Nat → T} {a u f f0 f1 f2 res : Ptr} {β : Nat → Backend} {m : Mem T} (hβ : ∀ n, ValidBackend (β n)) (hi : i0 ≤ i1) (hj : j0 ≤ j1) (hk : k0 ≤ k1) (hagcw : 0 ≤ agcw) (hugcw : 0 ≤ ugcw) (hfgcw : 0 ≤ fgcw) (hrgcw : 0 ≤ rgcw)
    (h : F.Args m [(F.cell3d a i0 j0 k0 i1 j1 k1 agcw), (F.cell3d u i0 j0 k0 i1 j1 k1 ugcw), (F.cell3d f i0 j0 k0 i1 j1 k1 fgcw), (F.face3d0 f0 i0 j0 k0 i1 j1 k1 0), (F.face3d1 f1 i0 j0 k0 i1 j1 k1 0), (F.face3d2 f2 i0 j0 k0 i1 j1 k1 0)] [(F.cell3d res i0 j0 k0 i1 j1 k1 rgcw)]) :
    ∃ m', Cuda.diffusionV1Apply3d i0 i1 j0 j1 k0 k1 alpha beta dx agcw a ugcw u f0 f1 f2 rgcw res β m = .ok m' ∧ F.nodediffusionv1apply3d i0 i1 j0 j1 k0 k1 alpha beta dx agcw a ugcw u fgcw f f0 f1 f2 1 0 rgcw res m = .ok m' := by
  obtain ⟨m1, m2, L, c1, c2, d1, d2⟩ := C65_v1_3d (wa := 1) (wb := 0) hβ hi hj hk hagcw hugcw hfgcw hrgcw h
  refine ⟨m1, c1, ?_⟩
  rw [d1, d2.eq c2 fun p _ => by rw [zero_mul, one_mul, zero_add]]

example : ∃ m', Cuda.diffusionV1Apply3d 0 2 1 3 2 3 3 2 exDx 1 ⟨0, 0⟩ 2 ⟨1, 0⟩ ⟨3, 0⟩ ⟨4, 0⟩ ⟨5, 0⟩ 1 ⟨6, 0⟩ (fun _ => revBackend) exRat = .ok m' ∧ F.nodediffusionv1apply3d 0 2 1 3 2 3 3 2 exDx 1 ⟨0, 0⟩ 2 ⟨1, 0⟩ 1 ⟨2, 0⟩ ⟨3, 0⟩ ⟨4, 0⟩ ⟨5, 0⟩ 1 0 1 ⟨6, 0⟩ exRat = .ok m' :=
  C65_v1_apply_3d (i0 := 0) (j0 := 1) (k0 := 2) (i1 := 2) (j1 := 3) (k1 := 3) (agcw := 1) (ugcw := 2) (fgcw := 1) (rgcw := 1) (alpha := 3) (beta := 2) (dx := exDx) (a := ⟨0, 0⟩) (u := ⟨1, 0⟩) (f := ⟨2, 0⟩) (f0 := ⟨3, 0⟩) (f1 := ⟨4, 0⟩) (f2 := ⟨5, 0⟩) (res := ⟨6, 0⟩) (fun _ => revBackend_ok) (by decide) (by decide) (by decide) (by decide) (by decide) (by decide) (by decide) (by ex_args)

/-- With `a = -1` and `b = 1` the routine leaves the memory of the `diffusion_v1_res` kernel. -/
theorem C65_v1_res_3d {i0 j0 k0 i1 j1 k1 agcw ugcw fgcw rgcw : Int} {alpha beta : T} {dx : Nat → T} {a u f f0 f1 f2 res : Ptr} {β : Nat → Backend} {m : Mem T} (hβ : ∀ n, ValidBackend (β n)) (hi : i0 ≤ i1) (hj : j0 ≤ j1) (hk : k0 ≤ k1) (hagcw : 0 ≤ agcw) (hugcw : 0 ≤ ugcw) (hfgcw : 0 ≤ fgcw) (hrgcw : 0 ≤ rgcw)
    (h : F.Args m [(F.cell3d a i0 j0 k0 i1 j1 k1 agcw), (F.cell3d u i0 j0 k0 i1 j1 k1 ugcw), (F.cell3d f i0 j0 k0 i1 j1 k1 fgcw), (F.face3d0 f0 i0 j0 k0 i1 j1 k1 0), (F.face3d1 f1 i0 j0 k0 i1 j1 k1 0), (F.face3d2 f2 i0 j0 k0 i1 j1 k1 0)] [(F.cell3d res i0 j0 k0 i1 j1 k1 rgcw)]) :
    ∃ m', Cuda.diffusionV1Res3d i0 i1 j0 j1 k0 k1 alpha beta dx agcw a ugcw u fgcw f f0 f1 f2 rgcw res β m = .ok m' ∧ F.nodediffusionv1apply3d i0 i1 j0 j1 k0 k1 alpha beta dx agcw a ugcw u fgcw f f0 f1 f2 (-1) 1 rgcw res m = .ok m' := by
  obtain ⟨m1, c1, c2⟩ := C34_v1_res_3d hβ hi hj hk hagcw hugcw hfgcw hrgcw h
  obtain ⟨m1', d1, d2⟩ := res_v1_3_filled hi hj hk hagcw hugcw hfgcw hrgcw h
  rw [c2] at d1
  cases d1
  obtain ⟨m2, e1, e2⟩ := node_v1_3_filled (wa := -1) (wb := 1) hi hj hk hagcw hugcw hfgcw hrgcw h
  refine ⟨m1, c1, ?_⟩
  rw [e1, e2.eq d2 fun p _ => by rw [one_mul, neg_one_mul, ← sub_eq_add_neg]]

example : ∃ m', Cuda.diffusionV1Res3d 0 2 1 3 2 3 3 2 exDx 1 ⟨0, 0⟩ 2 ⟨1, 0⟩ 1 ⟨2, 0⟩ ⟨3, 0⟩ ⟨4, 0⟩ ⟨5, 0⟩ 1 ⟨6, 0⟩ (fun _ => revBackend) exRat = .ok m' ∧ F.nodediffusionv1apply3d 0 2 1 3 2 3 3 2 exDx 1 ⟨0, 0⟩ 2 ⟨1, 0⟩ 1 ⟨2, 0⟩ ⟨3, 0⟩ ⟨4, 0⟩ ⟨5, 0⟩ (-1) 1 1 ⟨6, 0⟩ exRat = .ok m' :=
  C65_v1_res_3d (i0 := 0) (j0 := 1) (k0 := 2) (i1 := 2) (j1 := 3) (k1 := 3) (agcw := 1) (ugcw := 2) (fgcw := 1) (rgcw := 1) (alpha := 3) (beta := 2) (dx := exDx) (a := ⟨0, 0⟩) (u := ⟨1, 0⟩) (f := ⟨2, 0⟩) (f0 := ⟨3, 0⟩) (f1 := ⟨4, 0⟩) (f2 := ⟨5, 0⟩) (res := ⟨6, 0⟩) (fun _ => revBackend_ok) (by decide) (by decide) (by decide) (by decide) (by decide) (by decide) (by decide) (by ex_args)

/-- The full statement, that `nodediffusionv2apply3d` leaves `b` times the right hand side plus `a` times what the `diffusion_v2_apply` kernel leaves, holds on boxes with equal
bounds in all three dimensions when the fluxes along the third axis, in the order `k, i, j`, are the same numbers as those along the second in the order `j, k, i`; missing
are all other boxes and fluxes (`C65_v2_3d_false`, `C65_v2_cube_false`), because the routine takes `flux1` in place of `flux2`. -/
theorem C65_v2_3d_partial {i0 i1 ugcw fgcw rgcw : Int} {alpha beta wa wb : T} {dx : Nat → T} {u f f0 f1 f2 res : Ptr} {β : Nat → Backend} {m : Mem T} (hβ : ∀ n, ValidBackend (β n)) (hi : i0 ≤ i1) (hugcw : 0 ≤ ugcw) (hfgcw : 0 ≤ fgcw) (hrgcw : 0 ≤ rgcw)
    (h : F.Args m [(F.cell3d u i0 i0 i0 i1 i1 i1 ugcw), (F.cell3d f i0 i0 i0 i1 i1 i1 fgcw), (F.face3d0 f0 i0 i0 i0 i1 i1 i1 0), (F.face3d1 f1 i0 i0 i0 i1 i1 i1 0), (F.face3d2 f2 i0 i0 i0 i1 i1 i1 0)] [(F.cell3d res i0 i0 i0 i1 i1 i1 rgcw)])
    (he : ∀ i j k, i0 ≤ i → i ≤ i1 → i0 ≤ j → j ≤ i1 → i0 ≤ k → k ≤ i1 + 1 → F.rd m (F.face3d1 f1 i0 i0 i0 i1 i1 i1 0) [k, i, j] = F.rd m (F.face3d2 f2 i0 i0 i0 i1 i1 i1 0) [k, i, j]) :
    ∃ m1 m2 L, Cuda.diffusionV2Apply3d i0 i1 i0 i1 i0 i1 alpha beta dx ugcw u f0 f1 f2 rgcw res β m = .ok m1 ∧ F.Filled (F.cell3d res i0 i0 i0 i1 i1 i1 rgcw) [(i0, i1), (i0, i1), (i0, i1)] L m m1 ∧
      F.nodediffusionv2apply3d i0 i1 i0 i1 i0 i1 alpha beta dx ugcw u fgcw f f0 f1 f2 wa wb rgcw res m = .ok m2 ∧
      F.Filled (F.cell3d res i0 i0 i0 i1 i1 i1 rgcw) [(i0, i1), (i0, i1), (i0, i1)] (fun p => wb * F.rd m (F.cell3d f i0 i0 i0 i1 i1 i1 fgcw) p + wa * L p) m m2 := by
  obtain ⟨m1, c1, c2⟩ := C34_v2_apply_3d (beta := beta) (dx := dx) (alpha := alpha) (u := u) (ugcw := ugcw) (f0 := f0) (f1 := f1) (f2 := f2) (res := res) hβ hi hi hi hugcw hrgcw (h.sub (fun x hx => by revert hx; simp only [List.mem_cons, List.not_mem_nil, or_false]; tauto) (fun _ hx => hx))
  obtain ⟨m1', d1, d2⟩ := apply_v2_3_filled (beta := beta) (dx := dx) (alpha := alpha) (u := u) (ugcw := ugcw) (f0 := f0) (f1 := f1) (f2 := f2) (res := res) hi hi hi hugcw hrgcw (h.sub (fun x hx => by revert hx; simp only [List.mem_cons, List.not_mem_nil, or_false]; tauto) (fun _ hx => hx))
  rw [c2] at d1
  cases d1
  obtain ⟨m2, e1, e2⟩ := node_v2_3_cube (wa := wa) (wb := wb) hi hugcw hfgcw hrgcw h
  refine ⟨m1, m2, _, c1, d2, e1, ?_⟩
  refine F.Filled.congr e2 ?_
  intro p hp
  match p, hp with
  | [i, j, k], hq =>
    simp only [F.InBounds, and_true] at hq
    simp only [F.lu3]
    rw [he i j (k + 1) (by omega) (by omega) (by omega) (by omega) (by omega) (by omega), he i j k (by omega) (by omega) (by omega) (by omega) (by omega) (by omega)]

example : ∃ m1 m2 L, Cuda.diffusionV2Apply3d 1 2 1 2 1 2 3 2 exDx 2 ⟨1, 0⟩ ⟨3, 0⟩ ⟨4, 0⟩ ⟨4, 0⟩ 1 ⟨6, 0⟩ (fun _ => revBackend) exRat = .ok m1 ∧ F.Filled (F.cell3d ⟨6, 0⟩ 1 1 1 2 2 2 1) [(1, 2), (1, 2), (1, 2)] L exRat m1 ∧
    F.nodediffusionv2apply3d 1 2 1 2 1 2 3 2 exDx 2 ⟨1, 0⟩ 1 ⟨2, 0⟩ ⟨3, 0⟩ ⟨4, 0⟩ ⟨4, 0⟩ 5 7 1 ⟨6, 0⟩ exRat = .ok m2 ∧ F.Filled (F.cell3d ⟨6, 0⟩ 1 1 1 2 2 2 1) [(1, 2), (1, 2), (1, 2)] (fun p => 7 * F.rd exRat (F.cell3d ⟨2, 0⟩ 1 1 1 2 2 2 1) p + 5 * L p) exRat m2 :=
  C65_v2_3d_partial (i0 := 1) (i1 := 2) (ugcw := 2) (fgcw := 1) (rgcw := 1) (alpha := 3) (beta := 2) (dx := exDx) (u := ⟨1, 0⟩) (f := ⟨2, 0⟩) (f0 := ⟨3, 0⟩) (f1 := ⟨4, 0⟩) (f2 := ⟨4, 0⟩) (res := ⟨6, 0⟩) (fun _ => revBackend_ok) (by decide) (by decide) (by decide) (by decide) (by ex_args) (fun _ _ _ _ _ _ _ _ _ => rfl)

/-- On every box whose axes do not all have the same bounds, `nodediffusionv2apply3d` goes outside the array `flux1`. -/
theorem C65_v2_3d_false {i0 j0 k0 i1 j1 k1 ugcw fgcw rgcw : Int} {alpha beta wa wb : T} {dx : Nat → T} {u f f0 f1 f2 res : Ptr} {β : Nat → Backend} {m : Mem T} (hβ : ∀ n, ValidBackend (β n)) (hi : i0 ≤ i1) (hj : j0 ≤ j1) (hk : k0 ≤ k1) (hugcw : 0 ≤ ugcw) (hfgcw : 0 ≤ fgcw) (hrgcw : 0 ≤ rgcw)
    (h : F.Args m [(F.cell3d u i0 j0 k0 i1 j1 k1 ugcw), (F.cell3d f i0 j0 k0 i1 j1 k1 fgcw), (F.face3d0 f0 i0 j0 k0 i1 j1 k1 0), (F.face3d1 f1 i0 j0 k0 i1 j1 k1 0), (F.face3d2 f2 i0 j0 k0 i1 j1 k1 0)] [(F.cell3d res i0 j0 k0 i1 j1 k1 rgcw)])
    (hne : ¬ (i0 = j0 ∧ j0 = k0 ∧ i1 = j1 ∧ j1 = k1)) :
    (∃ m', Cuda.diffusionV2Apply3d i0 i1 j0 j1 k0 k1 alpha beta dx ugcw u f0 f1 f2 rgcw res β m = .ok m') ∧ ∀ m', F.nodediffusionv2apply3d i0 i1 j0 j1 k0 k1 alpha beta dx ugcw u fgcw f f0 f1 f2 wa wb rgcw res m ≠ .ok m' := by
  refine ⟨(C34_v2_apply_3d hβ hi hj hk hugcw hrgcw (h.sub (fun x hx => by revert hx; simp only [List.mem_cons, List.not_mem_nil, or_false]; tauto) (fun _ hx => hx))).imp fun _ => And.left, fun m' hm => ?_⟩
  have bad : ∃ i j k, (i0 ≤ i ∧ i ≤ i1) ∧ (j0 ≤ j ∧ j ≤ j1) ∧ (k0 ≤ k ∧ k ≤ k1) ∧
      ¬ ((j0 ≤ k ∧ k ≤ j1) ∧ (k0 ≤ i ∧ i ≤ k1) ∧ (i0 ≤ j ∧ j ≤ i1)) := cube_bad hi hj hk hne
  obtain ⟨i, j, k, b1, b2, b3, b4⟩ := bad
  simp only [F.nodediffusionv2apply3d, F.mul_def, F.sub_def, F.div_def, F.add_def, F.neg_def] at hm
  obtain ⟨m1, m2, e1⟩ := F.doLoop_mem hm b3.1 b3.2
  obtain ⟨m3, m4, e2⟩ := F.doLoop_mem e1 b2.1 b2.2
  obtain ⟨m5, m6, e3⟩ := F.doLoop_mem e2 b1.1 b1.2
  unfold F.assign at e3
  obtain ⟨x, e4, -⟩ := bind_inv e3
  obtain ⟨y, e5⟩ := (F.add_inv e4).2
  obtain ⟨y, e6⟩ := (F.mul_inv e5).2
  obtain ⟨y, e6⟩ := (F.add_inv e6).1
  obtain ⟨y, e7⟩ := F.neg_inv e6
  obtain ⟨y, e8⟩ := (F.mul_inv e7).2
  obtain ⟨y, e9⟩ := (F.add_inv e8).2
  obtain ⟨y, e10⟩ := (F.div_inv e9).1
  obtain ⟨⟨y, e11⟩, ⟨z, e12⟩⟩ := F.sub_inv e10
  have k1 := F.ref_inv e11
  have k2 := F.ref_inv e12
  simp only [F.face3d1, F.InBounds] at k1 k2
  omega

example : (∃ m', Cuda.diffusionV2Apply3d 0 2 1 3 2 3 3 2 exDx 2 ⟨1, 0⟩ ⟨3, 0⟩ ⟨4, 0⟩ ⟨5, 0⟩ 1 ⟨6, 0⟩ (fun _ => revBackend) exRat = .ok m') ∧ ∀ m', F.nodediffusionv2apply3d 0 2 1 3 2 3 3 2 exDx 2 ⟨1, 0⟩ 1 ⟨2, 0⟩ ⟨3, 0⟩ ⟨4, 0⟩ ⟨5, 0⟩ 5 7 1 ⟨6, 0⟩ exRat ≠ .ok m' :=
  C65_v2_3d_false (i0 := 0) (j0 := 1) (k0 := 2) (i1 := 2) (j1 := 3) (k1 := 3) (ugcw := 2) (fgcw := 1) (rgcw := 1) (alpha := 3) (beta := 2) (dx := exDx) (u := ⟨1, 0⟩) (f := ⟨2, 0⟩) (f0 := ⟨3, 0⟩) (f1 := ⟨4, 0⟩) (f2 := ⟨5, 0⟩) (res := ⟨6, 0⟩) (fun _ => revBackend_ok) (by decide) (by decide) (by decide) (by decide) (by decide) (by decide) (by ex_args) (by decide)

/-- On a box of one cell, with `a = 1` and `b = 0`, `nodediffusionv2apply3d` stays inside its arrays and leaves another number than the `diffusion_v2_apply` kernel. -/
theorem C65_v2_cube_false : ∃ (alpha beta : Rat) (dx : Nat → Rat) (u f f0 f1 f2 res : Ptr) (m : Mem Rat),
    F.Args m [F.cell3d u 0 0 0 0 0 0 0, F.cell3d f 0 0 0 0 0 0 0, F.face3d0 f0 0 0 0 0 0 0 0, F.face3d1 f1 0 0 0 0 0 0 0, F.face3d2 f2 0 0 0 0 0 0 0] [F.cell3d res 0 0 0 0 0 0 0] ∧
    ∃ m1 m2, Cuda.diffusionV2Apply3d 0 0 0 0 0 0 alpha beta dx 0 u f0 f1 f2 0 res (fun _ => seqBackend) m = .ok m1 ∧
      F.nodediffusionv2apply3d 0 0 0 0 0 0 alpha beta dx 0 u 0 f f0 f1 f2 1 0 0 res m = .ok m2 ∧ m1 ≠ m2 :=
  ⟨1, 1, fun _ => 1, ⟨1, 0⟩, ⟨2, 0⟩, ⟨3, 0⟩, ⟨4, 0⟩, ⟨5, 0⟩, ⟨6, 0⟩,
    ⟨fun q => if 0 ≤ q.off ∧ q.off < 1000 then some (if q.blk = 5 then q.off else 0) else none, fun _ => none⟩, by ex_args0, differQ_ne (q := ⟨6, 0⟩) (by decide +kernel)⟩

/-- The full statement, that `nodepoissonapply3d` leaves `b` times the right hand side plus `a` times what the `poisson_apply` kernel leaves, holds on boxes with equal
bounds in all three dimensions when the fluxes along the third axis, in the order `k, i, j`, are the same numbers as those along the second in the order `j, k, i`; missing
are all other boxes and fluxes (`C65_poisson_3d_false`, `C65_poisson_cube_false`), because the routine takes `flux1` in place of `flux2`. -/
theorem C65_poisson_3d_partial {i0 i1 fgcw rgcw : Int} {beta wa wb : T} {dx : Nat → T} {f f0 f1 f2 res : Ptr} {β : Nat → Backend} {m : Mem T} (hβ : ∀ n, ValidBackend (β n)) (hi : i0 ≤ i1) (hfgcw : 0 ≤ fgcw) (hrgcw : 0 ≤ rgcw)
    (h : F.Args m [(F.cell3d f i0 i0 i0 i1 i1 i1 fgcw), (F.face3d0 f0 i0 i0 i0 i1 i1 i1 0), (F.face3d1 f1 i0 i0 i0 i1 i1 i1 0), (F.face3d2 f2 i0 i0 i0 i1 i1 i1 0)] [(F.cell3d res i0 i0 i0 i1 i1 i1 rgcw)])
    (he : ∀ i j k, i0 ≤ i → i ≤ i1 → i0 ≤ j → j ≤ i1 → i0 ≤ k → k ≤ i1 + 1 → F.rd m (F.face3d1 f1 i0 i0 i0 i1 i1 i1 0) [k, i, j] = F.rd m (F.face3d2 f2 i0 i0 i0 i1 i1 i1 0) [k, i, j]) :
    ∃ m1 m2 L, Cuda.poissonV2Apply3d i0 i1 i0 i1 i0 i1 beta dx f0 f1 f2 rgcw res β m = .ok m1 ∧ F.Filled (F.cell3d res i0 i0 i0 i1 i1 i1 rgcw) [(i0, i1), (i0, i1), (i0, i1)] L m m1 ∧
      F.nodepoissonapply3d i0 i1 i0 i1 i0 i1 beta dx fgcw f f0 f1 f2 wa wb rgcw res m = .ok m2 ∧
      F.Filled (F.cell3d res i0 i0 i0 i1 i1 i1 rgcw) [(i0, i1), (i0, i1), (i0, i1)] (fun p => wb * F.rd m (F.cell3d f i0 i0 i0 i1 i1 i1 fgcw) p + wa * L p) m m2 := by
  obtain ⟨m1, c1, c2⟩ := C34_poisson_apply_3d (beta := beta) (dx := dx) (f0 := f0) (f1 := f1) (f2 := f2) (res := res) hβ hi hi hi hrgcw (h.sub (fun x hx => by revert hx; simp only [List.mem_cons, List.not_mem_nil, or_false]; tauto) (fun _ hx => hx))
  obtain ⟨m1', d1, d2⟩ := apply_p_3_filled (beta := beta) (dx := dx) (f0 := f0) (f1 := f1) (f2 := f2) (res := res) hi hi hi hrgcw (h.sub (fun x hx => by revert hx; simp only [List.mem_cons, List.not_mem_nil, or_false]; tauto) (fun _ hx => hx))
  rw [c2] at d1
  cases d1
  obtain ⟨m2, e1, e2⟩ := node_p_3_cube (wa := wa) (wb := wb) hi hfgcw hrgcw h
  refine ⟨m1, m2, _, c1, d2, e1, ?_⟩
  refine F.Filled.congr e2 ?_
  intro p hp
  match p, hp with
  | [i, j, k], hq =>
    simp only [F.InBounds, and_true] at hq
    simp only [F.lu3]
    rw [he i j (k + 1) (by omega) (by omega) (by omega) (by omega) (by omega) (by omega), he i j k (by omega) (by omega) (by omega) (by omega) (by omega) (by omega)]

example : ∃ m1 m2 L, Cuda.poissonV2Apply3d 1 2 1 2 1 2 2 exDx ⟨3, 0⟩ ⟨4, 0⟩ ⟨4, 0⟩ 1 ⟨6, 0⟩ (fun _ => revBackend) exRat = .ok m1 ∧ F.Filled (F.cell3d ⟨6, 0⟩ 1 1 1 2 2 2 1) [(1, 2), (1, 2), (1, 2)] L exRat m1 ∧
    F.nodepoissonapply3d 1 2 1 2 1 2 2 exDx 1 ⟨2, 0⟩ ⟨3, 0⟩ ⟨4, 0⟩ ⟨4, 0⟩ 5 7 1 ⟨6, 0⟩ exRat = .ok m2 ∧ F.Filled (F.cell3d ⟨6, 0⟩ 1 1 1 2 2 2 1) [(1, 2), (1, 2), (1, 2)] (fun p => 7 * F.rd exRat (F.cell3d ⟨2, 0⟩ 1 1 1 2 2 2 1) p + 5 * L p) exRat m2 :=
  C65_poisson_3d_partial (i0 := 1) (i1 := 2) (fgcw := 1) (rgcw := 1) (beta := 2) (dx := exDx) (f := ⟨2, 0⟩) (f0 := ⟨3, 0⟩) (f1 := ⟨4, 0⟩) (f2 := ⟨4, 0⟩) (res := ⟨6, 0⟩) (fun _ => revBackend_ok) (by decide) (by decide) (by decide) (by ex_args) (fun _ _ _ _ _ _ _ _ _ => rfl)

/-- On every box whose axes do not all have the same bounds, `nodepoissonapply3d` goes outside the array `flux1`. -/
theorem C65_poisson_3d_false {i0 j0 k0 i1 j1 k1 fgcw rgcw : Int} {beta wa wb : T} {dx : Nat → T} {f f0 f1 f2 res : Ptr} {β : Nat → Backend} {m : Mem T} (hβ : ∀ n, ValidBackend (β n)) (hi : i0 ≤ i1) (hj : j0 ≤ j1) (hk : k0 ≤ k1) (hfgcw : 0 ≤ fgcw) (hrgcw : 0 ≤ rgcw)
    (h : F.Args m [(F.cell3d f i0 j0 k0 i1 j1 k1 fgcw), (F.face3d0 f0 i0 j0 k0 i1 j1 k1 0), (F.face3d1 f1 i0 j0 k0 i1 j1 k1 0), (F.face3d2 f2 i0 j0 k0 i1 j1 k1 0)] [(F.cell3d res i0 j0 k0 i1 j1 k1 rgcw)])
    (hne : ¬ (i0 = j0 ∧ j0 = k0 ∧ i1 = j1 ∧ j1 = k1)) :
    (∃ m', Cuda.poissonV2Apply3d i0 i1 j0 j1 k0 k1 beta dx f0 f1 f2 rgcw res β m = .ok m') ∧ ∀ m', F.nodepoissonapply3d i0 i1 j0 j1 k0 k1 beta dx fgcw f f0 f1 f2 wa wb rgcw res m ≠ .ok m' := by
  refine ⟨(C34_poisson_apply_3d hβ hi hj hk hrgcw (h.sub (fun x hx => by revert hx; simp only [List.mem_cons, List.not_mem_nil, or_false]; tauto) (fun _ hx => hx))).imp fun _ => And.left, fun m' hm => ?_⟩
  have bad : ∃ i j k, (i0 ≤ i ∧ i ≤ i1) ∧ (j0 ≤ j ∧ j ≤ j1) ∧ (k0 ≤ k ∧ k ≤ k1) ∧
      ¬ ((j0 ≤ k ∧ k ≤ j1) ∧ (k0 ≤ i ∧ i ≤ k1) ∧ (i0 ≤ j ∧ j ≤ i1)) := cube_bad hi hj hk hne
  obtain ⟨i, j, k, b1, b2, b3, b4⟩ := bad
  simp only [F.nodepoissonapply3d, F.mul_def, F.sub_def, F.div_def, F.add_def, F.neg_def] at hm
  obtain ⟨m1, m2, e1⟩ := F.doLoop_mem hm b3.1 b3.2
  obtain ⟨m3, m4, e2⟩ := F.doLoop_mem e1 b2.1 b2.2
  obtain ⟨m5, m6, e3⟩ := F.doLoop_mem e2 b1.1 b1.2
  unfold F.assign at e3
  obtain ⟨x, e4, -⟩ := bind_inv e3
  obtain ⟨y, e5⟩ := (F.add_inv e4).2
  obtain ⟨y, e6⟩ := (F.mul_inv e5).2
  obtain ⟨y, e7⟩ := F.neg_inv e6
  obtain ⟨y, e8⟩ := (F.mul_inv e7).2
  obtain ⟨y, e9⟩ := (F.add_inv e8).2
  obtain ⟨y, e10⟩ := (F.div_inv e9).1
  obtain ⟨⟨y, e11⟩, ⟨z, e12⟩⟩ := F.sub_inv e10
  have k1 := F.ref_inv e11
  have k2 := F.ref_inv e12
  simp only [F.face3d1, F.InBounds] at k1 k2
  omega

example : (∃ m', Cuda.poissonV2Apply3d 0 2 1 3 2 3 2 exDx ⟨3, 0⟩ ⟨4, 0⟩ ⟨5, 0⟩ 1 ⟨6, 0⟩ (fun _ => revBackend) exRat = .ok m') ∧ ∀ m', F.nodepoissonapply3d 0 2 1 3 2 3 2 exDx 1 ⟨2, 0⟩ ⟨3, 0⟩ ⟨4, 0⟩ ⟨5, 0⟩ 5 7 1 ⟨6, 0⟩ exRat ≠ .ok m' :=
  C65_poisson_3d_false (i0 := 0) (j0 := 1) (k0 := 2) (i1 := 2) (j1 := 3) (k1 := 3) (fgcw := 1) (rgcw := 1) (beta := 2) (dx := exDx) (f := ⟨2, 0⟩) (f0 := ⟨3, 0⟩) (f1 := ⟨4, 0⟩) (f2 := ⟨5, 0⟩) (res := ⟨6, 0⟩) (fun _ => revBackend_ok) (by decide) (by decide) (by decide) (by decide) (by decide) (by ex_args) (by decide)

/-- On a box of one cell, with `a = 1` and `b = 0`, `nodepoissonapply3d` stays inside its arrays and leaves another number than the `poisson_apply` kernel. -/
theorem C65_poisson_cube_false : ∃ (beta : Rat) (dx : Nat → Rat) (f f0 f1 f2 res : Ptr) (m : Mem Rat),
    F.Args m [F.cell3d f 0 0 0 0 0 0 0, F.face3d0 f0 0 0 0 0 0 0 0, F.face3d1 f1 0 0 0 0 0 0 0, F.face3d2 f2 0 0 0 0 0 0 0] [F.cell3d res 0 0 0 0 0 0 0] ∧
    ∃ m1 m2, Cuda.poissonV2Apply3d 0 0 0 0 0 0 beta dx f0 f1 f2 0 res (fun _ => seqBackend) m = .ok m1 ∧
      F.nodepoissonapply3d 0 0 0 0 0 0 beta dx 0 f f0 f1 f2 1 0 0 res m = .ok m2 ∧ m1 ≠ m2 :=
  ⟨1, fun _ => 1, ⟨2, 0⟩, ⟨3, 0⟩, ⟨4, 0⟩, ⟨5, 0⟩, ⟨6, 0⟩,
    ⟨fun q => if 0 ≤ q.off ∧ q.off < 1000 then some (if q.blk = 5 then q.off else 0) else none, fun _ => none⟩, by ex_args0, differQ_ne (q := ⟨6, 0⟩) (by decide +kernel)⟩

end Verif
