import Verif.Lemmas.Rounded
import Verif.Model.Kernels.Flux
import Verif.Spec.Kernels.Flux

/-
C49: flux kernels and Fortran routines in arithmetic without laws, such as rounded arithmetic.
-/

namespace Verif
open Spec

variable {T : Type} [Zero T] [Add T] [Sub T] [Mul T] [Div T] [Neg T]

/-- `cdf_1d_cuda::flux` and `celldiffusionflux1d` leave the same memory in every arithmetic where multiplying before or after dividing gives the same, for every schedule. -/
theorem C49_flux_1d {i0 i1 gcw : Int} {dx : Nat → T} {b0 u f0 : Ptr} {β : Nat → Backend} {m : Mem T} (hβ : ∀ n, ValidBackend (β n)) (hs : ∀ (b x y : T) (n : Nat), b * ((x - y) / dx n) = b * (x - y) / dx n)
    (hi : i0 ≤ i1) (hg : 1 ≤ gcw)
    (h : F.Args m [F.cell1d u i0 i1 gcw, F.face1d b0 i0 i1 0]
      [F.face1d f0 i0 i1 0]) :
    ∃ m', Cuda.flux1d i0 i1 dx b0 gcw u f0 β m = .ok m' ∧ F.celldiffusionflux1d i0 i1 dx b0 gcw u f0 m = .ok m' := by
  have hu := h.ok (F.cell1d u i0 i1 gcw) (by simp)
  have hf0 := h.ok (F.face1d f0 i0 i1 0) (by simp)
  have hb0 := h.ok (F.face1d b0 i0 i1 0) (by simp)
  have Iu := hu.int
  have If0 := hf0.int
  simp only [F.cell1d, F.face1d, List.mem_cons, List.not_mem_nil, or_false, forall_eq, InInt] at Iu If0
  have mkI := mkB_ok (d := .I) (lo := i0) (hi := i1) (by list_omega)
  have plI := plus_ok (d := .I) (b := ⟨i0, i1 + 1, 1⟩) (x := 1) (by omega) (by list_omega)
  have sp : makeSpanOffset u gcw [(.I, ⟨i0, i1 + 1, 1⟩)] = .ok (sCell1 u i0 i1 gcw) :=
    makeSpanOffset_ok (by simp) (by list_omega)
  have Au0 : ArrOK m (sCell1 u i0 i1 gcw) := by arr_ok hu
  have Ab0 : ArrOK m (sFace1 b0 i0 i1) := by arr_ok hb0
  have Af0 : ArrOK m (sFace1 f0 i0 i1) := by arr_ok hf0
  have Pu0 : Apart (sFace1 f0 i0 i1) (sCell1 u i0 i1 gcw) := by apart_ok (h.apart _ (by simp) _ (by simp))
  have Pb0 : Apart (sFace1 f0 i0 i1) (sFace1 b0 i0 i1) := by apart_ok (h.apart _ (by simp) _ (by simp))
  obtain ⟨m1, c0, f0', x0⟩ := stmt_nest (lhs := sFace1 f0 i0 i1) (e := (sFace1 b0 i0 i1).e T * (sCell1 u i0 i1 gcw).grad .I (dx 0) down)
    (D := (sFace1 f0 i0 i1).geo) (r := [(.I, i0, i1 + 1)]) (p0 := fun _ => 0)
    (stmt := fun p => F.assign (F.face1d f0 i0 i1 0) [p .I] (.ref (F.face1d b0 i0 i1 0) [p .I] * (.ref (F.cell1d u i0 i1 gcw) [p .I] - .ref (F.cell1d u i0 i1 gcw) [p .I - 1]) / .const (dx 0)))
    (hβ 0) (by unit_dom) Af0 (by within) (by operands) (by fits) (by typed) (by dims) (by same_dims) (by intro p; list_omega) (by body_ops hs)
  refine ⟨m1, ?_, ?_⟩
  · unfold Cuda.flux1d
    exact bind_step mkI <| bind_step sp <| bind_step plI <| c0
  · exact f0'

example : ∃ m', Cuda.flux1d 0 3 exDx ⟨0, 0⟩ 2 ⟨9, 0⟩ ⟨10, 0⟩ (fun _ => revBackend) exRat = .ok m' ∧
    F.celldiffusionflux1d 0 3 exDx ⟨0, 0⟩ 2 ⟨9, 0⟩ ⟨10, 0⟩ exRat = .ok m' :=
  C49_flux_1d (fun _ => revBackend_ok) (fun _ _ _ _ => by ring) (by decide) (by decide) (by ex_args)

/-- `cdf_1d_cuda::poisson_flux` and `cellpoissonflux1d` leave the same memory, for every schedule, whatever the arithmetic: they perform the same operations. -/
theorem C49_flux_poisson_1d {i0 i1 gcw : Int} {dx : Nat → T} {u f0 : Ptr} {β : Nat → Backend} {m : Mem T} (hβ : ∀ n, ValidBackend (β n))
    (hi : i0 ≤ i1) (hg : 1 ≤ gcw)
    (h : F.Args m [F.cell1d u i0 i1 gcw]
      [F.face1d f0 i0 i1 0]) :
    ∃ m', Cuda.poissonFlux1d i0 i1 dx gcw u f0 β m = .ok m' ∧ F.cellpoissonflux1d i0 i1 dx gcw u f0 m = .ok m' := by
  have hu := h.ok (F.cell1d u i0 i1 gcw) (by simp)
  have hf0 := h.ok (F.face1d f0 i0 i1 0) (by simp)
  have Iu := hu.int
  have If0 := hf0.int
  simp only [F.cell1d, F.face1d, List.mem_cons, List.not_mem_nil, or_false, forall_eq, InInt] at Iu If0
  have mkI := mkB_ok (d := .I) (lo := i0) (hi := i1) (by list_omega)
  have plI := plus_ok (d := .I) (b := ⟨i0, i1 + 1, 1⟩) (x := 1) (by omega) (by list_omega)
  have sp : makeSpanOffset u gcw [(.I, ⟨i0, i1 + 1, 1⟩)] = .ok (sCell1 u i0 i1 gcw) :=
    makeSpanOffset_ok (by simp) (by list_omega)
  have Au0 : ArrOK m (sCell1 u i0 i1 gcw) := by arr_ok hu
  have Af0 : ArrOK m (sFace1 f0 i0 i1) := by arr_ok hf0
  have Pu0 : Apart (sFace1 f0 i0 i1) (sCell1 u i0 i1 gcw) := by apart_ok (h.apart _ (by simp) _ (by simp))
  obtain ⟨m1, c0, f0', x0⟩ := stmt_nest (lhs := sFace1 f0 i0 i1) (e := (sCell1 u i0 i1 gcw).grad .I (dx 0) down)
    (D := (sFace1 f0 i0 i1).geo) (r := [(.I, i0, i1 + 1)]) (p0 := fun _ => 0)
    (stmt := fun p => F.assign (F.face1d f0 i0 i1 0) [p .I] ((.ref (F.cell1d u i0 i1 gcw) [p .I] - .ref (F.cell1d u i0 i1 gcw) [p .I - 1]) / .const (dx 0)))
    (hβ 0) (by unit_dom) Af0 (by within) (by operands) (by fits) (by typed) (by dims) (by same_dims) (by intro p; list_omega) (by body_ops trivial)
  refine ⟨m1, ?_, ?_⟩
  · unfold Cuda.poissonFlux1d
    exact bind_step mkI <| bind_step sp <| bind_step plI <| c0
  · exact f0'

example : ∃ m', Cuda.poissonFlux1d 0 3 exDxB 2 ⟨9, 0⟩ ⟨10, 0⟩ (fun _ => revBackend) exB64 = .ok m' ∧
    F.cellpoissonflux1d 0 3 exDxB 2 ⟨9, 0⟩ ⟨10, 0⟩ exB64 = .ok m' :=
  C49_flux_poisson_1d (fun _ => revBackend_ok) (by decide) (by decide) (by ex_argsB)

/-- `cdf_2d_cuda::flux` and `celldiffusionflux2d` leave the same memory in every arithmetic where multiplying before or after dividing gives the same, for every schedule. -/
theorem C49_flux_2d {i0 j0 i1 j1 gcw : Int} {dx : Nat → T} {b0 b1 u f0 f1 : Ptr} {β : Nat → Backend} {m : Mem T} (hβ : ∀ n, ValidBackend (β n)) (hs : ∀ (b x y : T) (n : Nat), b * ((x - y) / dx n) = b * (x - y) / dx n)
    (hi : i0 ≤ i1) (hj : j0 ≤ j1) (hg : 1 ≤ gcw)
    (h : F.Args m [F.cell2d u i0 j0 i1 j1 gcw, F.face2d0 b0 i0 j0 i1 j1 0, F.face2d1 b1 i0 j0 i1 j1 0]
      [F.face2d0 f0 i0 j0 i1 j1 0, F.face2d1 f1 i0 j0 i1 j1 0]) :
    ∃ m', Cuda.flux2d i0 j0 i1 j1 dx b0 b1 gcw u f0 f1 β m = .ok m' ∧ F.celldiffusionflux2d i0 j0 i1 j1 dx b0 b1 gcw u f0 f1 m = .ok m' := by
  have hu := h.ok (F.cell2d u i0 j0 i1 j1 gcw) (by simp)
  have hf0 := h.ok (F.face2d0 f0 i0 j0 i1 j1 0) (by simp)
  have hf1 := h.ok (F.face2d1 f1 i0 j0 i1 j1 0) (by simp)
  have hb0 := h.ok (F.face2d0 b0 i0 j0 i1 j1 0) (by simp)
  have hb1 := h.ok (F.face2d1 b1 i0 j0 i1 j1 0) (by simp)
  have Iu := hu.int
  have If0 := hf0.int
  have If1 := hf1.int
  simp only [F.cell2d, F.face2d0, F.face2d1, List.mem_cons, List.not_mem_nil, or_false, forall_eq_or_imp, forall_eq, InInt] at Iu If0 If1
  have mkI := mkB_ok (d := .I) (lo := i0) (hi := i1) (by list_omega)
  have plI := plus_ok (d := .I) (b := ⟨i0, i1 + 1, 1⟩) (x := 1) (by omega) (by list_omega)
  have mkJ := mkB_ok (d := .J) (lo := j0) (hi := j1) (by list_omega)
  have plJ := plus_ok (d := .J) (b := ⟨j0, j1 + 1, 1⟩) (x := 1) (by omega) (by list_omega)
  have sp : makeSpanOffset u gcw [(.J, ⟨j0, j1 + 1, 1⟩), (.I, ⟨i0, i1 + 1, 1⟩)] = .ok (sCell2 u i0 j0 i1 j1 gcw) :=
    makeSpanOffset_ok (by simp) (by list_omega)
  have Au0 : ArrOK m (sCell2 u i0 j0 i1 j1 gcw) := by arr_ok hu
  have Ab0 : ArrOK m (sFace20 b0 i0 j0 i1 j1) := by arr_ok hb0
  have Af0 : ArrOK m (sFace20 f0 i0 j0 i1 j1) := by arr_ok hf0
  have Pu0 : Apart (sFace20 f0 i0 j0 i1 j1) (sCell2 u i0 j0 i1 j1 gcw) := by apart_ok (h.apart _ (by simp) _ (by simp))
  have Pb0 : Apart (sFace20 f0 i0 j0 i1 j1) (sFace20 b0 i0 j0 i1 j1) := by apart_ok (h.apart _ (by simp) _ (by simp))
  obtain ⟨m1, c0, f0', x0⟩ := stmt_nest (lhs := sFace20 f0 i0 j0 i1 j1) (e := (sFace20 b0 i0 j0 i1 j1).e T * (sCell2 u i0 j0 i1 j1 gcw).grad .I (dx 0) down)
    (D := (sFace20 f0 i0 j0 i1 j1).geo) (r := [(.J, j0, j1), (.I, i0, i1 + 1)]) (p0 := fun _ => 0)
    (stmt := fun p => F.assign (F.face2d0 f0 i0 j0 i1 j1 0) [p .I, p .J] (.ref (F.face2d0 b0 i0 j0 i1 j1 0) [p .I, p .J] * (.ref (F.cell2d u i0 j0 i1 j1 gcw) [p .I, p .J] - .ref (F.cell2d u i0 j0 i1 j1 gcw) [p .I - 1, p .J]) / .const (dx 0)))
    (hβ 0) (by unit_dom) Af0 (by within) (by operands) (by fits) (by typed) (by dims) (by same_dims) (by intro p; list_omega) (by body_ops hs)
  have Au1 : ArrOK m1 (sCell2 u i0 j0 i1 j1 gcw) := by arr_ok (hu.mono x0.alloc)
  have Ab1 : ArrOK m1 (sFace21 b1 i0 j0 i1 j1) := by arr_ok (hb1.mono x0.alloc)
  have Af1 : ArrOK m1 (sFace21 f1 i0 j0 i1 j1) := by arr_ok (hf1.mono x0.alloc)
  have Pu1 : Apart (sFace21 f1 i0 j0 i1 j1) (sCell2 u i0 j0 i1 j1 gcw) := by apart_ok (h.apart _ (by simp) _ (by simp))
  have Pb1 : Apart (sFace21 f1 i0 j0 i1 j1) (sFace21 b1 i0 j0 i1 j1) := by apart_ok (h.apart _ (by simp) _ (by simp))
  obtain ⟨m2, c1, f1', x1⟩ := stmt_nest (lhs := sFace21 f1 i0 j0 i1 j1) (e := (sFace21 b1 i0 j0 i1 j1).e T * (sCell2 u i0 j0 i1 j1 gcw).grad .J (dx 1) down)
    (D := (sFace21 f1 i0 j0 i1 j1).geo) (r := [(.I, i0, i1), (.J, j0, j1 + 1)]) (p0 := fun _ => 0)
    (stmt := fun p => F.assign (F.face2d1 f1 i0 j0 i1 j1 0) [p .J, p .I] (.ref (F.face2d1 b1 i0 j0 i1 j1 0) [p .J, p .I] * (.ref (F.cell2d u i0 j0 i1 j1 gcw) [p .I, p .J] - .ref (F.cell2d u i0 j0 i1 j1 gcw) [p .I, p .J - 1]) / .const (dx 1)))
    (hβ 1) (by unit_dom) Af1 (by within) (by operands) (by fits) (by typed) (by dims) (by same_dims) (by intro p; list_omega) (by body_ops hs)
  refine ⟨m2, ?_, ?_⟩
  · unfold Cuda.flux2d
    exact bind_step mkI <| bind_step mkJ <| bind_step sp <| bind_step plI <| bind_step plJ <| bind_step c0 <| c1
  · exact bind_step f0' <| bind_step f1' rfl

example : ∃ m', Cuda.flux2d 0 1 2 3 exDx ⟨0, 0⟩ ⟨1, 0⟩ 2 ⟨9, 0⟩ ⟨10, 0⟩ ⟨11, 0⟩ (fun _ => revBackend) exRat = .ok m' ∧
    F.celldiffusionflux2d 0 1 2 3 exDx ⟨0, 0⟩ ⟨1, 0⟩ 2 ⟨9, 0⟩ ⟨10, 0⟩ ⟨11, 0⟩ exRat = .ok m' :=
  C49_flux_2d (fun _ => revBackend_ok) (fun _ _ _ _ => by ring) (by decide) (by decide) (by decide) (by ex_args)

/-- `cdf_2d_cuda::poisson_flux` and `cellpoissonflux2d` leave the same memory, for every schedule, whatever the arithmetic: they perform the same operations. -/
theorem C49_flux_poisson_2d {i0 j0 i1 j1 gcw : Int} {dx : Nat → T} {u f0 f1 : Ptr} {β : Nat → Backend} {m : Mem T} (hβ : ∀ n, ValidBackend (β n))
    (hi : i0 ≤ i1) (hj : j0 ≤ j1) (hg : 1 ≤ gcw)
    (h : F.Args m [F.cell2d u i0 j0 i1 j1 gcw]
      [F.face2d0 f0 i0 j0 i1 j1 0, F.face2d1 f1 i0 j0 i1 j1 0]) :
    ∃ m', Cuda.poissonFlux2d i0 j0 i1 j1 dx gcw u f0 f1 β m = .ok m' ∧ F.cellpoissonflux2d i0 j0 i1 j1 dx gcw u f0 f1 m = .ok m' := by
  have hu := h.ok (F.cell2d u i0 j0 i1 j1 gcw) (by simp)
  have hf0 := h.ok (F.face2d0 f0 i0 j0 i1 j1 0) (by simp)
  have hf1 := h.ok (F.face2d1 f1 i0 j0 i1 j1 0) (by simp)
  have Iu := hu.int
  have If0 := hf0.int
  have If1 := hf1.int
  simp only [F.cell2d, F.face2d0, F.face2d1, List.mem_cons, List.not_mem_nil, or_false, forall_eq_or_imp, forall_eq, InInt] at Iu If0 If1
  have mkI := mkB_ok (d := .I) (lo := i0) (hi := i1) (by list_omega)
  have plI := plus_ok (d := .I) (b := ⟨i0, i1 + 1, 1⟩) (x := 1) (by omega) (by list_omega)
  have mkJ := mkB_ok (d := .J) (lo := j0) (hi := j1) (by list_omega)
  have plJ := plus_ok (d := .J) (b := ⟨j0, j1 + 1, 1⟩) (x := 1) (by omega) (by list_omega)
  have sp : makeSpanOffset u gcw [(.J, ⟨j0, j1 + 1, 1⟩), (.I, ⟨i0, i1 + 1, 1⟩)] = .ok (sCell2 u i0 j0 i1 j1 gcw) :=
    makeSpanOffset_ok (by simp) (by list_omega)
  have Au0 : ArrOK m (sCell2 u i0 j0 i1 j1 gcw) := by arr_ok hu
  have Af0 : ArrOK m (sFace20 f0 i0 j0 i1 j1) := by arr_ok hf0
  have Pu0 : Apart (sFace20 f0 i0 j0 i1 j1) (sCell2 u i0 j0 i1 j1 gcw) := by apart_ok (h.apart _ (by simp) _ (by simp))
  obtain ⟨m1, c0, f0', x0⟩ := stmt_nest (lhs := sFace20 f0 i0 j0 i1 j1) (e := (sCell2 u i0 j0 i1 j1 gcw).grad .I (dx 0) down)
    (D := (sFace20 f0 i0 j0 i1 j1).geo) (r := [(.I, i0, i1 + 1), (.J, j0, j1)]) (p0 := fun _ => 0)
    (stmt := fun p => F.assign (F.face2d0 f0 i0 j0 i1 j1 0) [p .I, p .J] ((.ref (F.cell2d u i0 j0 i1 j1 gcw) [p .I, p .J] - .ref (F.cell2d u i0 j0 i1 j1 gcw) [p .I - 1, p .J]) / .const (dx 0)))
    (hβ 0) (by unit_dom) Af0 (by within) (by operands) (by fits) (by typed) (by dims) (by same_dims) (by intro p; list_omega) (by body_ops trivial)
  have Au1 : ArrOK m1 (sCell2 u i0 j0 i1 j1 gcw) := by arr_ok (hu.mono x0.alloc)
  have Af1 : ArrOK m1 (sFace21 f1 i0 j0 i1 j1) := by arr_ok (hf1.mono x0.alloc)
  have Pu1 : Apart (sFace21 f1 i0 j0 i1 j1) (sCell2 u i0 j0 i1 j1 gcw) := by apart_ok (h.apart _ (by simp) _ (by simp))
  obtain ⟨m2, c1, f1', x1⟩ := stmt_nest (lhs := sFace21 f1 i0 j0 i1 j1) (e := (sCell2 u i0 j0 i1 j1 gcw).grad .J (dx 1) down)
    (D := (sFace21 f1 i0 j0 i1 j1).geo) (r := [(.J, j0, j1 + 1), (.I, i0, i1)]) (p0 := fun _ => 0)
    (stmt := fun p => F.assign (F.face2d1 f1 i0 j0 i1 j1 0) [p .J, p .I] ((.ref (F.cell2d u i0 j0 i1 j1 gcw) [p .I, p .J] - .ref (F.cell2d u i0 j0 i1 j1 gcw) [p .I, p .J - 1]) / .const (dx 1)))
    (hβ 1) (by unit_dom) Af1 (by within) (by operands) (by fits) (by typed) (by dims) (by same_dims) (by intro p; list_omega) (by body_ops trivial)
  refine ⟨m2, ?_, ?_⟩
  · unfold Cuda.poissonFlux2d
    exact bind_step mkI <| bind_step mkJ <| bind_step sp <| bind_step plI <| bind_step plJ <| bind_step c0 <| c1
  · exact bind_step f0' <| bind_step f1' rfl

example : ∃ m', Cuda.poissonFlux2d 0 1 2 3 exDxB 2 ⟨9, 0⟩ ⟨10, 0⟩ ⟨11, 0⟩ (fun _ => revBackend) exB64 = .ok m' ∧
    F.cellpoissonflux2d 0 1 2 3 exDxB 2 ⟨9, 0⟩ ⟨10, 0⟩ ⟨11, 0⟩ exB64 = .ok m' :=
  C49_flux_poisson_2d (fun _ => revBackend_ok) (by decide) (by decide) (by decide) (by ex_argsB)

/-- `cdf_3d_cuda::flux` and `celldiffusionflux3d` leave the same memory in every arithmetic where multiplying before or after dividing gives the same, for every schedule. -/
theorem C49_flux_3d {i0 j0 k0 i1 j1 k1 gcw : Int} {dx : Nat → T} {b0 b1 b2 u f0 f1 f2 : Ptr} {β : Nat → Backend} {m : Mem T} (hβ : ∀ n, ValidBackend (β n)) (hs : ∀ (b x y : T) (n : Nat), b * ((x - y) / dx n) = b * (x - y) / dx n)
    (hi : i0 ≤ i1) (hj : j0 ≤ j1) (hk : k0 ≤ k1) (hg : 1 ≤ gcw)
    (h : F.Args m [F.cell3d u i0 j0 k0 i1 j1 k1 gcw, F.face3d0 b0 i0 j0 k0 i1 j1 k1 0, F.face3d1 b1 i0 j0 k0 i1 j1 k1 0, F.face3d2 b2 i0 j0 k0 i1 j1 k1 0]
      [F.face3d0 f0 i0 j0 k0 i1 j1 k1 0, F.face3d1 f1 i0 j0 k0 i1 j1 k1 0, F.face3d2 f2 i0 j0 k0 i1 j1 k1 0]) :
    ∃ m', Cuda.flux3d i0 j0 k0 i1 j1 k1 dx b0 b1 b2 gcw u f0 f1 f2 β m = .ok m' ∧ F.celldiffusionflux3d i0 j0 k0 i1 j1 k1 dx b0 b1 b2 gcw u f0 f1 f2 m = .ok m' := by
  have hu := h.ok (F.cell3d u i0 j0 k0 i1 j1 k1 gcw) (by simp)
  have hf0 := h.ok (F.face3d0 f0 i0 j0 k0 i1 j1 k1 0) (by simp)
  have hf1 := h.ok (F.face3d1 f1 i0 j0 k0 i1 j1 k1 0) (by simp)
  have hf2 := h.ok (F.face3d2 f2 i0 j0 k0 i1 j1 k1 0) (by simp)
  have hb0 := h.ok (F.face3d0 b0 i0 j0 k0 i1 j1 k1 0) (by simp)
  have hb1 := h.ok (F.face3d1 b1 i0 j0 k0 i1 j1 k1 0) (by simp)
  have hb2 := h.ok (F.face3d2 b2 i0 j0 k0 i1 j1 k1 0) (by simp)
  have Iu := hu.int
  have If0 := hf0.int
  have If1 := hf1.int
  have If2 := hf2.int
  simp only [F.cell3d, F.face3d0, F.face3d1, F.face3d2, List.mem_cons, List.not_mem_nil, or_false, forall_eq_or_imp, forall_eq, InInt] at Iu If0 If1 If2
  have mkI := mkB_ok (d := .I) (lo := i0) (hi := i1) (by list_omega)
  have plI := plus_ok (d := .I) (b := ⟨i0, i1 + 1, 1⟩) (x := 1) (by omega) (by list_omega)
  have mkJ := mkB_ok (d := .J) (lo := j0) (hi := j1) (by list_omega)
  have plJ := plus_ok (d := .J) (b := ⟨j0, j1 + 1, 1⟩) (x := 1) (by omega) (by list_omega)
  have mkK := mkB_ok (d := .K) (lo := k0) (hi := k1) (by list_omega)
  have plK := plus_ok (d := .K) (b := ⟨k0, k1 + 1, 1⟩) (x := 1) (by omega) (by list_omega)
  have sp : makeSpanOffset u gcw [(.K, ⟨k0, k1 + 1, 1⟩), (.J, ⟨j0, j1 + 1, 1⟩), (.I, ⟨i0, i1 + 1, 1⟩)] = .ok (sCell3 u i0 j0 k0 i1 j1 k1 gcw) :=
    makeSpanOffset_ok (by simp) (by list_omega)
  have Au0 : ArrOK m (sCell3 u i0 j0 k0 i1 j1 k1 gcw) := by arr_ok hu
  have Ab0 : ArrOK m (sFace30 b0 i0 j0 k0 i1 j1 k1) := by arr_ok hb0
  have Af0 : ArrOK m (sFace30 f0 i0 j0 k0 i1 j1 k1) := by arr_ok hf0
  have Pu0 : Apart (sFace30 f0 i0 j0 k0 i1 j1 k1) (sCell3 u i0 j0 k0 i1 j1 k1 gcw) := by apart_ok (h.apart _ (by simp) _ (by simp))
  have Pb0 : Apart (sFace30 f0 i0 j0 k0 i1 j1 k1) (sFace30 b0 i0 j0 k0 i1 j1 k1) := by apart_ok (h.apart _ (by simp) _ (by simp))
  obtain ⟨m1, c0, f0', x0⟩ := stmt_nest (lhs := sFace30 f0 i0 j0 k0 i1 j1 k1) (e := (sFace30 b0 i0 j0 k0 i1 j1 k1).e T * (sCell3 u i0 j0 k0 i1 j1 k1 gcw).grad .I (dx 0) down)
    (D := (sFace30 f0 i0 j0 k0 i1 j1 k1).geo) (r := [(.K, k0, k1), (.J, j0, j1), (.I, i0, i1 + 1)]) (p0 := fun _ => 0)
    (stmt := fun p => F.assign (F.face3d0 f0 i0 j0 k0 i1 j1 k1 0) [p .I, p .J, p .K] (.ref (F.face3d0 b0 i0 j0 k0 i1 j1 k1 0) [p .I, p .J, p .K] * (.ref (F.cell3d u i0 j0 k0 i1 j1 k1 gcw) [p .I, p .J, p .K] - .ref (F.cell3d u i0 j0 k0 i1 j1 k1 gcw) [p .I - 1, p .J, p .K]) / .const (dx 0)))
    (hβ 0) (by unit_dom) Af0 (by within) (by operands) (by fits) (by typed) (by dims) (by same_dims) (by intro p; list_omega) (by body_ops hs)
  have Au1 : ArrOK m1 (sCell3 u i0 j0 k0 i1 j1 k1 gcw) := by arr_ok (hu.mono x0.alloc)
  have Ab1 : ArrOK m1 (sFace31 b1 i0 j0 k0 i1 j1 k1) := by arr_ok (hb1.mono x0.alloc)
  have Af1 : ArrOK m1 (sFace31 f1 i0 j0 k0 i1 j1 k1) := by arr_ok (hf1.mono x0.alloc)
  have Pu1 : Apart (sFace31 f1 i0 j0 k0 i1 j1 k1) (sCell3 u i0 j0 k0 i1 j1 k1 gcw) := by apart_ok (h.apart _ (by simp) _ (by simp))
  have Pb1 : Apart (sFace31 f1 i0 j0 k0 i1 j1 k1) (sFace31 b1 i0 j0 k0 i1 j1 k1) := by apart_ok (h.apart _ (by simp) _ (by simp))
  obtain ⟨m2, c1, f1', x1⟩ := stmt_nest (lhs := sFace31 f1 i0 j0 k0 i1 j1 k1) (e := (sFace31 b1 i0 j0 k0 i1 j1 k1).e T * (sCell3 u i0 j0 k0 i1 j1 k1 gcw).grad .J (dx 1) down)
    (D := (sFace31 f1 i0 j0 k0 i1 j1 k1).geo) (r := [(.I, i0, i1), (.K, k0, k1), (.J, j0, j1 + 1)]) (p0 := fun _ => 0)
    (stmt := fun p => F.assign (F.face3d1 f1 i0 j0 k0 i1 j1 k1 0) [p .J, p .K, p .I] (.ref (F.face3d1 b1 i0 j0 k0 i1 j1 k1 0) [p .J, p .K, p .I] * (.ref (F.cell3d u i0 j0 k0 i1 j1 k1 gcw) [p .I, p .J, p .K] - .ref (F.cell3d u i0 j0 k0 i1 j1 k1 gcw) [p .I, p .J - 1, p .K]) / .const (dx 1)))
    (hβ 1) (by unit_dom) Af1 (by within) (by operands) (by fits) (by typed) (by dims) (by same_dims) (by intro p; list_omega) (by body_ops hs)
  have Au2 : ArrOK m2 (sCell3 u i0 j0 k0 i1 j1 k1 gcw) := by arr_ok ((hu.mono x0.alloc).mono x1.alloc)
  have Ab2 : ArrOK m2 (sFace32 b2 i0 j0 k0 i1 j1 k1) := by arr_ok ((hb2.mono x0.alloc).mono x1.alloc)
  have Af2 : ArrOK m2 (sFace32 f2 i0 j0 k0 i1 j1 k1) := by arr_ok ((hf2.mono x0.alloc).mono x1.alloc)
  have Pu2 : Apart (sFace32 f2 i0 j0 k0 i1 j1 k1) (sCell3 u i0 j0 k0 i1 j1 k1 gcw) := by apart_ok (h.apart _ (by simp) _ (by simp))
  have Pb2 : Apart (sFace32 f2 i0 j0 k0 i1 j1 k1) (sFace32 b2 i0 j0 k0 i1 j1 k1) := by apart_ok (h.apart _ (by simp) _ (by simp))
  obtain ⟨m3, c2, f2', x2⟩ := stmt_nest (lhs := sFace32 f2 i0 j0 k0 i1 j1 k1) (e := (sFace32 b2 i0 j0 k0 i1 j1 k1).e T * (sCell3 u i0 j0 k0 i1 j1 k1 gcw).grad .K (dx 2) down)
    (D := (sFace32 f2 i0 j0 k0 i1 j1 k1).geo) (r := [(.J, j0, j1), (.I, i0, i1), (.K, k0, k1 + 1)]) (p0 := fun _ => 0)
    (stmt := fun p => F.assign (F.face3d2 f2 i0 j0 k0 i1 j1 k1 0) [p .K, p .I, p .J] (.ref (F.face3d2 b2 i0 j0 k0 i1 j1 k1 0) [p .K, p .I, p .J] * (.ref (F.cell3d u i0 j0 k0 i1 j1 k1 gcw) [p .I, p .J, p .K] - .ref (F.cell3d u i0 j0 k0 i1 j1 k1 gcw) [p .I, p .J, p .K - 1]) / .const (dx 2)))
    (hβ 2) (by unit_dom) Af2 (by within) (by operands) (by fits) (by typed) (by dims) (by same_dims) (by intro p; list_omega) (by body_ops hs)
  refine ⟨m3, ?_, ?_⟩
  · unfold Cuda.flux3d
    exact bind_step mkI <| bind_step mkJ <| bind_step mkK <| bind_step sp <| bind_step plI <| bind_step plJ <| bind_step plK <| bind_step c0 <| bind_step c1 <| c2
  · exact bind_step f0' <| bind_step f1' <| bind_step f2' rfl

example : ∃ m', Cuda.flux3d 0 1 2 2 3 3 exDx ⟨0, 0⟩ ⟨1, 0⟩ ⟨2, 0⟩ 2 ⟨9, 0⟩ ⟨10, 0⟩ ⟨11, 0⟩ ⟨12, 0⟩ (fun _ => revBackend) exRat = .ok m' ∧
    F.celldiffusionflux3d 0 1 2 2 3 3 exDx ⟨0, 0⟩ ⟨1, 0⟩ ⟨2, 0⟩ 2 ⟨9, 0⟩ ⟨10, 0⟩ ⟨11, 0⟩ ⟨12, 0⟩ exRat = .ok m' :=
  C49_flux_3d (fun _ => revBackend_ok) (fun _ _ _ _ => by ring) (by decide) (by decide) (by decide) (by decide) (by ex_args)

/-- `cdf_3d_cuda::poisson_flux` and `cellpoissonflux3d` leave the same memory, for every schedule, whatever the arithmetic: they perform the same operations. -/
theorem C49_flux_poisson_3d {i0 j0 k0 i1 j1 k1 gcw : Int} {dx : Nat → T} {u f0 f1 f2 : Ptr} {β : Nat → Backend} {m : Mem T} (hβ : ∀ n, ValidBackend (β n))
    (hi : i0 ≤ i1) (hj : j0 ≤ j1) (hk : k0 ≤ k1) (hg : 1 ≤ gcw)
    (h : F.Args m [F.cell3d u i0 j0 k0 i1 j1 k1 gcw]
      [F.face3d0 f0 i0 j0 k0 i1 j1 k1 0, F.face3d1 f1 i0 j0 k0 i1 j1 k1 0, F.face3d2 f2 i0 j0 k0 i1 j1 k1 0]) :
    ∃ m', Cuda.poissonFlux3d i0 j0 k0 i1 j1 k1 dx gcw u f0 f1 f2 β m = .ok m' ∧ F.cellpoissonflux3d i0 j0 k0 i1 j1 k1 dx gcw u f0 f1 f2 m = .ok m' := by
  have hu := h.ok (F.cell3d u i0 j0 k0 i1 j1 k1 gcw) (by simp)
  have hf0 := h.ok (F.face3d0 f0 i0 j0 k0 i1 j1 k1 0) (by simp)
  have hf1 := h.ok (F.face3d1 f1 i0 j0 k0 i1 j1 k1 0) (by simp)
  have hf2 := h.ok (F.face3d2 f2 i0 j0 k0 i1 j1 k1 0) (by simp)
  have Iu := hu.int
  have If0 := hf0.int
  have If1 := hf1.int
  have If2 := hf2.int
  simp only [F.cell3d, F.face3d0, F.face3d1, F.face3d2, List.mem_cons, List.not_mem_nil, or_false, forall_eq_or_imp, forall_eq, InInt] at Iu If0 If1 If2
  have mkI := mkB_ok (d := .I) (lo := i0) (hi := i1) (by list_omega)
  have plI := plus_ok (d := .I) (b := ⟨i0, i1 + 1, 1⟩) (x := 1) (by omega) (by list_omega)
  have mkJ := mkB_ok (d := .J) (lo := j0) (hi := j1) (by list_omega)
  have plJ := plus_ok (d := .J) (b := ⟨j0, j1 + 1, 1⟩) (x := 1) (by omega) (by list_omega)
  have mkK := mkB_ok (d := .K) (lo := k0) (hi := k1) (by list_omega)
  have plK := plus_ok (d := .K) (b := ⟨k0, k1 + 1, 1⟩) (x := 1) (by omega) (by list_omega)
  have sp : makeSpanOffset u gcw [(.K, ⟨k0, k1 + 1, 1⟩), (.J, ⟨j0, j1 + 1, 1⟩), (.I, ⟨i0, i1 + 1, 1⟩)] = .ok (sCell3 u i0 j0 k0 i1 j1 k1 gcw) :=
    makeSpanOffset_ok (by simp) (by list_omega)
  have Au0 : ArrOK m (sCell3 u i0 j0 k0 i1 j1 k1 gcw) := by arr_ok hu
  have Af0 : ArrOK m (sFace30 f0 i0 j0 k0 i1 j1 k1) := by arr_ok hf0
  have Pu0 : Apart (sFace30 f0 i0 j0 k0 i1 j1 k1) (sCell3 u i0 j0 k0 i1 j1 k1 gcw) := by apart_ok (h.apart _ (by simp) _ (by simp))
  obtain ⟨m1, c0, f0', x0⟩ := stmt_nest (lhs := sFace30 f0 i0 j0 k0 i1 j1 k1) (e := (sCell3 u i0 j0 k0 i1 j1 k1 gcw).grad .I (dx 0) down)
    (D := (sFace30 f0 i0 j0 k0 i1 j1 k1).geo) (r := [(.K, k0, k1), (.J, j0, j1), (.I, i0, i1 + 1)]) (p0 := fun _ => 0)
    (stmt := fun p => F.assign (F.face3d0 f0 i0 j0 k0 i1 j1 k1 0) [p .I, p .J, p .K] ((.ref (F.cell3d u i0 j0 k0 i1 j1 k1 gcw) [p .I, p .J, p .K] - .ref (F.cell3d u i0 j0 k0 i1 j1 k1 gcw) [p .I - 1, p .J, p .K]) / .const (dx 0)))
    (hβ 0) (by unit_dom) Af0 (by within) (by operands) (by fits) (by typed) (by dims) (by same_dims) (by intro p; list_omega) (by body_ops trivial)
  have Au1 : ArrOK m1 (sCell3 u i0 j0 k0 i1 j1 k1 gcw) := by arr_ok (hu.mono x0.alloc)
  have Af1 : ArrOK m1 (sFace31 f1 i0 j0 k0 i1 j1 k1) := by arr_ok (hf1.mono x0.alloc)
  have Pu1 : Apart (sFace31 f1 i0 j0 k0 i1 j1 k1) (sCell3 u i0 j0 k0 i1 j1 k1 gcw) := by apart_ok (h.apart _ (by simp) _ (by simp))
  obtain ⟨m2, c1, f1', x1⟩ := stmt_nest (lhs := sFace31 f1 i0 j0 k0 i1 j1 k1) (e := (sCell3 u i0 j0 k0 i1 j1 k1 gcw).grad .J (dx 1) down)
    (D := (sFace31 f1 i0 j0 k0 i1 j1 k1).geo) (r := [(.I, i0, i1), (.K, k0, k1), (.J, j0, j1 + 1)]) (p0 := fun _ => 0)
    (stmt := fun p => F.assign (F.face3d1 f1 i0 j0 k0 i1 j1 k1 0) [p .J, p .K, p .I] ((.ref (F.cell3d u i0 j0 k0 i1 j1 k1 gcw) [p .I, p .J, p .K] - .ref (F.cell3d u i0 j0 k0 i1 j1 k1 gcw) [p .I, p .J - 1, p .K]) / .const (dx 1)))
    (hβ 1) (by unit_dom) Af1 (by within) (by operands) (by fits) (by typed) (by dims) (by same_dims) (by intro p; list_omega) (by body_ops trivial)
  have Au2 : ArrOK m2 (sCell3 u i0 j0 k0 i1 j1 k1 gcw) := by arr_ok ((hu.mono x0.alloc).mono x1.alloc)
  have Af2 : ArrOK m2 (sFace32 f2 i0 j0 k0 i1 j1 k1) := by arr_ok ((hf2.mono x0.alloc).mono x1.alloc)
  have Pu2 : Apart (sFace32 f2 i0 j0 k0 i1 j1 k1) (sCell3 u i0 j0 k0 i1 j1 k1 gcw) := by apart_ok (h.apart _ (by simp) _ (by simp))
  obtain ⟨m3, c2, f2', x2⟩ := stmt_nest (lhs := sFace32 f2 i0 j0 k0 i1 j1 k1) (e := (sCell3 u i0 j0 k0 i1 j1 k1 gcw).grad .K (dx 2) down)
    (D := (sFace32 f2 i0 j0 k0 i1 j1 k1).geo) (r := [(.J, j0, j1), (.I, i0, i1), (.K, k0, k1 + 1)]) (p0 := fun _ => 0)
    (stmt := fun p => F.assign (F.face3d2 f2 i0 j0 k0 i1 j1 k1 0) [p .K, p .I, p .J] ((.ref (F.cell3d u i0 j0 k0 i1 j1 k1 gcw) [p .I, p .J, p .K] - .ref (F.cell3d u i0 j0 k0 i1 j1 k1 gcw) [p .I, p .J, p .K - 1]) / .const (dx 2)))
    (hβ 2) (by unit_dom) Af2 (by within) (by operands) (by fits) (by typed) (by dims) (by same_dims) (by intro p; list_omega) (by body_ops trivial)
  refine ⟨m3, ?_, ?_⟩
  · unfold Cuda.poissonFlux3d
    exact bind_step mkI <| bind_step mkJ <| bind_step mkK <| bind_step sp <| bind_step plI <| bind_step plJ <| bind_step plK <| bind_step c0 <| bind_step c1 <| c2
  · exact bind_step f0' <| bind_step f1' <| bind_step f2' rfl

example : ∃ m', Cuda.poissonFlux3d 0 1 2 2 3 3 exDxB 2 ⟨9, 0⟩ ⟨10, 0⟩ ⟨11, 0⟩ ⟨12, 0⟩ (fun _ => revBackend) exB64 = .ok m' ∧
    F.cellpoissonflux3d 0 1 2 2 3 3 exDxB 2 ⟨9, 0⟩ ⟨10, 0⟩ ⟨11, 0⟩ ⟨12, 0⟩ exB64 = .ok m' :=
  C49_flux_poisson_3d (fun _ => revBackend_ok) (by decide) (by decide) (by decide) (by decide) (by ex_argsB)

/-- `cdf_1d_cuda::flux` divides before it multiplies, `celldiffusionflux1d` after: on one cell, with coefficients 3 and mesh width 10, the results in
53 bit arithmetic differ. -/
theorem C49_flux_1d_false : ∃ (dx : Nat → B64) (b0 u f0 : Ptr) (m : Mem B64),
    F.Args m [F.cell1d u 0 0 1, F.face1d b0 0 0 0]
      [F.face1d f0 0 0 0] ∧
    ∃ m1 m2, Cuda.flux1d 0 0 dx b0 1 u f0 (fun _ => seqBackend) m = .ok m1 ∧ F.celldiffusionflux1d 0 0 dx b0 1 u f0 m = .ok m2 ∧ m1 ≠ m2 :=
  ⟨fun _ => 10, ⟨0, 0⟩, ⟨3, 0⟩, ⟨4, 0⟩, (wB fun b o => if b < 3 then 3 else o), by w_args,
    differ_ne (q := ⟨4, 0⟩) (by decide +kernel)⟩

/-- `cdf_2d_cuda::flux` divides before it multiplies, `celldiffusionflux2d` after: on one cell, with coefficients 3 and mesh width 10, the results in
53 bit arithmetic differ. -/
theorem C49_flux_2d_false : ∃ (dx : Nat → B64) (b0 b1 u f0 f1 : Ptr) (m : Mem B64),
    F.Args m [F.cell2d u 0 0 0 0 1, F.face2d0 b0 0 0 0 0 0, F.face2d1 b1 0 0 0 0 0]
      [F.face2d0 f0 0 0 0 0 0, F.face2d1 f1 0 0 0 0 0] ∧
    ∃ m1 m2, Cuda.flux2d 0 0 0 0 dx b0 b1 1 u f0 f1 (fun _ => seqBackend) m = .ok m1 ∧ F.celldiffusionflux2d 0 0 0 0 dx b0 b1 1 u f0 f1 m = .ok m2 ∧ m1 ≠ m2 :=
  ⟨fun _ => 10, ⟨0, 0⟩, ⟨1, 0⟩, ⟨3, 0⟩, ⟨4, 0⟩, ⟨5, 0⟩, (wB fun b o => if b < 3 then 3 else o), by w_args,
    differ_ne (q := ⟨4, 0⟩) (by decide +kernel)⟩

/-- `cdf_3d_cuda::flux` divides before it multiplies, `celldiffusionflux3d` after: on one cell, with coefficients 3 and mesh width 10, the results in
53 bit arithmetic differ. -/
theorem C49_flux_3d_false : ∃ (dx : Nat → B64) (b0 b1 b2 u f0 f1 f2 : Ptr) (m : Mem B64),
    F.Args m [F.cell3d u 0 0 0 0 0 0 1, F.face3d0 b0 0 0 0 0 0 0 0, F.face3d1 b1 0 0 0 0 0 0 0, F.face3d2 b2 0 0 0 0 0 0 0]
      [F.face3d0 f0 0 0 0 0 0 0 0, F.face3d1 f1 0 0 0 0 0 0 0, F.face3d2 f2 0 0 0 0 0 0 0] ∧
    ∃ m1 m2, Cuda.flux3d 0 0 0 0 0 0 dx b0 b1 b2 1 u f0 f1 f2 (fun _ => seqBackend) m = .ok m1 ∧ F.celldiffusionflux3d 0 0 0 0 0 0 dx b0 b1 b2 1 u f0 f1 f2 m = .ok m2 ∧ m1 ≠ m2 :=
  ⟨fun _ => 10, ⟨0, 0⟩, ⟨1, 0⟩, ⟨2, 0⟩, ⟨3, 0⟩, ⟨4, 0⟩, ⟨5, 0⟩, ⟨6, 0⟩, (wB fun b o => if b < 3 then 3 else o), by w_args,
    differ_ne (q := ⟨4, 0⟩) (by decide +kernel)⟩

end Verif
