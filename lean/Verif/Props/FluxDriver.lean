import Verif.Lemmas.Driver
import Verif.Lemmas.FluxRename
import Verif.Model.Tests.Flux
import Verif.Props.Flux
import Mathlib.Tactic.IntervalCases
import Mathlib.Algebra.Order.Ring.Rat

/-
C102: the flux tests pass, whatever numbers they pick.  Each example has the numbers of the test case; what the test picks or generates is a variable
in the range the test takes it from.
-/

namespace Verif

open Spec Test

variable {T : Type} [Field T] [DecidableEq T]

/-- src/cd_flux_1d.t.cpp:41-68 -/
theorem C102_flux_1d {i0 i1 : Int} {dx : Nat → T} {gcw : Int} {xu xb0 : Nat → T} {β : Nat → Backend} (hβ : ∀ n, ValidBackend (β n)) (hi : i0 ≤ i1)
    (hg : 1 ≤ gcw) (h_u : F.Fits (F.cell1d (at_ 0) i0 i1 gcw).dims) (h_b0 : F.Fits (F.face1d (at_ 0) i0 i1 0).dims) : Test.flux1d i0 i1 dx gcw xu
    xb0 β = .ok true := by
  have I0 := h_u.int
  have I1 := h_b0.int
  simp only [F.cell1d, F.face1d, List.mem_cons, List.not_mem_nil, or_false, forall_eq_or_imp, forall_eq, InInt] at I0 I1
  have mk_i := mkB_ok (d := .I) (lo := i0) (hi := i1) (by unfold InInt; omega)
  have pl_i := plus_ok (d := .I) (b := ⟨i0, i1 + 1, 1⟩) (x := 1) (by omega) (by simp only [InInt]; omega)
  obtain ⟨v0, n0, r0⟩ := offset_ok (T := T) (g := gcw) (ds := [(.I, i0, i1)]) (by simp) (by simp) (by omega) (by simp <;> omega) h_u
  obtain ⟨v1, n1, r1⟩ := vec_ok (T := T) (ds := [(.I, i0, i1 + 1)]) (by simp) (by simp) (by simp <;> omega) h_b0
  simp only [bounds, List.map_cons, List.map_nil] at n0 n1
  unfold Test.flux1d
  simp only [mk_i, pl_i, n0, n1, M.ok_bind]
  refine compare_ok (L := [0, 1, 3, 2]) ?_ rfl rfl (F.ren_celldiffusionflux1d (T := T) (perm_inv (L := [0, 1, 3, 2]) (by decide))) ?_ (by decide)
  · simp [(r0.fill (xs := xu)).same, (r0.fill (xs := xu)).sync, (r1.fill (xs := xb0)).same, (r1.fill (xs := xb0)).sync, r1.same, r1.sync]
  · refine C33_1d hβ hi hg ⟨?_, ?_⟩
    · simp only [List.cons_append, List.nil_append, List.forall_mem_cons]
      refine ⟨arr_ok_of rfl (r0.fill (xs := xu)) h_u, arr_ok_of rfl (r1.fill (xs := xb0)) h_b0, arr_ok_of rfl r1 h_b0, ?_⟩
      simp
    · simp only [List.forall_mem_cons]
      repeat' first | exact arr_apart (by decide) | refine ⟨?_, ?_⟩ | simp

example {dx xu xb0 : Nat → ℚ} {β : Nat → Backend} (hβ : ∀ n, ValidBackend (β n))  : Test.flux1d 1 51 dx 2 xu xb0 β = .ok true :=
  C102_flux_1d hβ (by told) (by told) (by exact fits_of (by decide)) (by exact fits_of (by decide))

/-- src/cd_flux_1d.t.cpp:70-95 -/
theorem C102_flux_poisson_1d {i0 i1 : Int} {dx : Nat → T} {gcw : Int} {xu : Nat → T} {β : Nat → Backend} (hβ : ∀ n, ValidBackend (β n))
    (hi : i0 ≤ i1) (hg : 1 ≤ gcw) (h_u : F.Fits (F.cell1d (at_ 0) i0 i1 gcw).dims) (h_f0 : F.Fits (F.face1d (at_ 0) i0 i1 0).dims) :
    Test.poissonFlux1d i0 i1 dx gcw xu β = .ok true := by
  have I0 := h_u.int
  have I1 := h_f0.int
  simp only [F.cell1d, F.face1d, List.mem_cons, List.not_mem_nil, or_false, forall_eq_or_imp, forall_eq, InInt] at I0 I1
  have mk_i := mkB_ok (d := .I) (lo := i0) (hi := i1) (by unfold InInt; omega)
  have pl_i := plus_ok (d := .I) (b := ⟨i0, i1 + 1, 1⟩) (x := 1) (by omega) (by simp only [InInt]; omega)
  obtain ⟨v0, n0, r0⟩ := offset_ok (T := T) (g := gcw) (ds := [(.I, i0, i1)]) (by simp) (by simp) (by omega) (by simp <;> omega) h_u
  obtain ⟨v1, n1, r1⟩ := vec_ok (T := T) (ds := [(.I, i0, i1 + 1)]) (by simp) (by simp) (by simp <;> omega) h_f0
  simp only [bounds, List.map_cons, List.map_nil] at n0 n1
  unfold Test.poissonFlux1d
  simp only [mk_i, pl_i, n0, n1, M.ok_bind]
  refine compare_ok (L := [0, 2, 1]) ?_ rfl rfl (F.ren_cellpoissonflux1d (T := T) (perm_inv (L := [0, 2, 1]) (by decide))) ?_ (by decide)
  · simp [(r0.fill (xs := xu)).same, (r0.fill (xs := xu)).sync, r1.same, r1.sync]
  · refine C33_poisson_1d hβ hi hg ⟨?_, ?_⟩
    · simp only [List.cons_append, List.nil_append, List.forall_mem_cons]
      refine ⟨arr_ok_of rfl (r0.fill (xs := xu)) h_u, arr_ok_of rfl r1 h_f0, ?_⟩
      simp
    · simp only [List.forall_mem_cons]
      repeat' first | exact arr_apart (by decide) | refine ⟨?_, ?_⟩ | simp

example {dx xu : Nat → ℚ} {β : Nat → Backend} (hβ : ∀ n, ValidBackend (β n))  : Test.poissonFlux1d 35 94 dx 2 xu β = .ok true :=
  C102_flux_poisson_1d hβ (by told) (by told) (by exact fits_of (by decide)) (by exact fits_of (by decide))

/-- src/cd_flux_2d.t.cpp:40-91 -/
theorem C102_flux_2d {i0 j0 i1 j1 : Int} {dx : Nat → T} {gcw : Int} {xu xb0 xb1 : Nat → T} {β : Nat → Backend} (hβ : ∀ n, ValidBackend (β n))
    (hi : i0 ≤ i1) (hj : j0 ≤ j1) (hg : 1 ≤ gcw) (h_u : F.Fits (F.cell2d (at_ 0) i0 j0 i1 j1 gcw).dims)
    (h_b0 : F.Fits (F.face2d0 (at_ 0) i0 j0 i1 j1 0).dims) (h_b1 : F.Fits (F.face2d1 (at_ 0) i0 j0 i1 j1 0).dims) : Test.flux2d i0 j0 i1 j1 dx gcw
    xu xb0 xb1 β = .ok true := by
  have I0 := h_u.int
  have I1 := h_b0.int
  have I2 := h_b1.int
  simp only [F.cell2d, F.face2d0, F.face2d1, List.mem_cons, List.not_mem_nil, or_false, forall_eq_or_imp, forall_eq, InInt] at I0 I1 I2
  have mk_j := mkB_ok (d := .J) (lo := j0) (hi := j1) (by unfold InInt; omega)
  have mk_i := mkB_ok (d := .I) (lo := i0) (hi := i1) (by unfold InInt; omega)
  have pl_i := plus_ok (d := .I) (b := ⟨i0, i1 + 1, 1⟩) (x := 1) (by omega) (by simp only [InInt]; omega)
  have pl_j := plus_ok (d := .J) (b := ⟨j0, j1 + 1, 1⟩) (x := 1) (by omega) (by simp only [InInt]; omega)
  obtain ⟨v0, n0, r0⟩ := offset_ok (T := T) (g := gcw) (ds := [(.J, j0, j1), (.I, i0, i1)]) (by simp) (by simp) (by omega) (by simp <;> omega) h_u
  obtain ⟨v1, n1, r1⟩ := vec_ok (T := T) (ds := [(.J, j0, j1), (.I, i0, i1 + 1)]) (by simp) (by simp) (by simp <;> omega) h_b0
  obtain ⟨v2, n2, r2⟩ := vec_ok (T := T) (ds := [(.I, i0, i1), (.J, j0, j1 + 1)]) (by simp) (by simp) (by simp <;> omega) h_b1
  simp only [bounds, List.map_cons, List.map_nil] at n0 n1 n2
  unfold Test.flux2d
  simp only [mk_j, mk_i, pl_i, pl_j, n0, n1, n2, M.ok_bind]
  refine compare_ok (L := [0, 1, 3, 2, 4, 6, 5]) ?_ rfl rfl (F.ren_celldiffusionflux2d (T := T) (perm_inv (L := [0, 1, 3, 2, 4, 6, 5]) (by decide)))
      ?_ (by decide)
  · simp [(r0.fill (xs := xu)).same, (r0.fill (xs := xu)).sync, (r1.fill (xs := xb0)).same, (r1.fill (xs := xb0)).sync, r1.same, r1.sync, (r2.fill
        (xs := xb1)).same, (r2.fill (xs := xb1)).sync, r2.same, r2.sync]
  · refine C33_2d hβ hi hj hg ⟨?_, ?_⟩
    · simp only [List.cons_append, List.nil_append, List.forall_mem_cons]
      refine ⟨arr_ok_of rfl (r0.fill (xs := xu)) h_u, arr_ok_of rfl (r1.fill (xs := xb0)) h_b0, arr_ok_of rfl (r2.fill (xs := xb1)) h_b1, arr_ok_of
          rfl r1 h_b0, arr_ok_of rfl r2 h_b1, ?_⟩
      simp
    · simp only [List.forall_mem_cons]
      repeat' first | exact arr_apart (by decide) | refine ⟨?_, ?_⟩ | simp

example {dx xu xb0 xb1 : Nat → ℚ} {β : Nat → Backend} (hβ : ∀ n, ValidBackend (β n))  : Test.flux2d 1 97 51 123 dx 2 xu xb0 xb1 β = .ok true :=
  C102_flux_2d hβ (by told) (by told) (by told) (by exact fits_of (by decide)) (by exact fits_of (by decide)) (by exact fits_of (by decide))

/-- src/cd_flux_2d.t.cpp:93-122 -/
theorem C102_flux_poisson_2d {i0 j0 i1 j1 : Int} {dx : Nat → T} {gcw : Int} {xu : Nat → T} {β : Nat → Backend} (hβ : ∀ n, ValidBackend (β n))
    (hi : i0 ≤ i1) (hj : j0 ≤ j1) (hg : 1 ≤ gcw) (h_u : F.Fits (F.cell2d (at_ 0) i0 j0 i1 j1 gcw).dims)
    (h_f0 : F.Fits (F.face2d0 (at_ 0) i0 j0 i1 j1 0).dims) (h_f1 : F.Fits (F.face2d1 (at_ 0) i0 j0 i1 j1 0).dims) : Test.poissonFlux2d i0 j0 i1 j1
    dx gcw xu β = .ok true := by
  have I0 := h_u.int
  have I1 := h_f0.int
  have I2 := h_f1.int
  simp only [F.cell2d, F.face2d0, F.face2d1, List.mem_cons, List.not_mem_nil, or_false, forall_eq_or_imp, forall_eq, InInt] at I0 I1 I2
  have mk_j := mkB_ok (d := .J) (lo := j0) (hi := j1) (by unfold InInt; omega)
  have mk_i := mkB_ok (d := .I) (lo := i0) (hi := i1) (by unfold InInt; omega)
  have pl_i := plus_ok (d := .I) (b := ⟨i0, i1 + 1, 1⟩) (x := 1) (by omega) (by simp only [InInt]; omega)
  have pl_j := plus_ok (d := .J) (b := ⟨j0, j1 + 1, 1⟩) (x := 1) (by omega) (by simp only [InInt]; omega)
  obtain ⟨v0, n0, r0⟩ := offset_ok (T := T) (g := gcw) (ds := [(.J, j0, j1), (.I, i0, i1)]) (by simp) (by simp) (by omega) (by simp <;> omega) h_u
  obtain ⟨v1, n1, r1⟩ := vec_ok (T := T) (ds := [(.J, j0, j1), (.I, i0, i1 + 1)]) (by simp) (by simp) (by simp <;> omega) h_f0
  obtain ⟨v2, n2, r2⟩ := vec_ok (T := T) (ds := [(.I, i0, i1), (.J, j0, j1 + 1)]) (by simp) (by simp) (by simp <;> omega) h_f1
  simp only [bounds, List.map_cons, List.map_nil] at n0 n1 n2
  unfold Test.poissonFlux2d
  simp only [mk_j, mk_i, pl_i, pl_j, n0, n1, n2, M.ok_bind]
  refine compare_ok (L := [0, 2, 1, 4, 3]) ?_ rfl rfl (F.ren_cellpoissonflux2d (T := T) (perm_inv (L := [0, 2, 1, 4, 3]) (by decide))) ?_
      (by decide)
  · simp [(r0.fill (xs := xu)).same, (r0.fill (xs := xu)).sync, r1.same, r1.sync, r2.same, r2.sync]
  · refine C33_poisson_2d hβ hi hj hg ⟨?_, ?_⟩
    · simp only [List.cons_append, List.nil_append, List.forall_mem_cons]
      refine ⟨arr_ok_of rfl (r0.fill (xs := xu)) h_u, arr_ok_of rfl r1 h_f0, arr_ok_of rfl r2 h_f1, ?_⟩
      simp
    · simp only [List.forall_mem_cons]
      repeat' first | exact arr_apart (by decide) | refine ⟨?_, ?_⟩ | simp

example {dx xu : Nat → ℚ} {β : Nat → Backend} (hβ : ∀ n, ValidBackend (β n))  : Test.poissonFlux2d 35 12 94 19 dx 2 xu β = .ok true :=
  C102_flux_poisson_2d hβ (by told) (by told) (by told) (by exact fits_of (by decide)) (by exact fits_of (by decide)) (by exact fits_of (by decide))

/-- src/cd_flux_3d.t.cpp:40-104 -/
theorem C102_flux_3d {i0 j0 k0 i1 j1 k1 : Int} {dx : Nat → T} {gcw : Int} {xu xb0 xb1 xb2 : Nat → T} {β : Nat → Backend}
    (hβ : ∀ n, ValidBackend (β n)) (hi : i0 ≤ i1) (hj : j0 ≤ j1) (hk : k0 ≤ k1) (hg : 1 ≤ gcw)
    (h_u : F.Fits (F.cell3d (at_ 0) i0 j0 k0 i1 j1 k1 gcw).dims) (h_b0 : F.Fits (F.face3d0 (at_ 0) i0 j0 k0 i1 j1 k1 0).dims)
    (h_b1 : F.Fits (F.face3d1 (at_ 0) i0 j0 k0 i1 j1 k1 0).dims) (h_b2 : F.Fits (F.face3d2 (at_ 0) i0 j0 k0 i1 j1 k1 0).dims) : Test.flux3d i0 j0 k0
    i1 j1 k1 dx gcw xu xb0 xb1 xb2 β = .ok true := by
  have I0 := h_u.int
  have I1 := h_b0.int
  have I2 := h_b1.int
  have I3 := h_b2.int
  simp only
      [F.cell3d, F.face3d0, F.face3d1, F.face3d2, List.mem_cons, List.not_mem_nil, or_false, forall_eq_or_imp, forall_eq, InInt] at I0 I1 I2 I3
  have mk_k := mkB_ok (d := .K) (lo := k0) (hi := k1) (by unfold InInt; omega)
  have mk_j := mkB_ok (d := .J) (lo := j0) (hi := j1) (by unfold InInt; omega)
  have mk_i := mkB_ok (d := .I) (lo := i0) (hi := i1) (by unfold InInt; omega)
  have pl_i := plus_ok (d := .I) (b := ⟨i0, i1 + 1, 1⟩) (x := 1) (by omega) (by simp only [InInt]; omega)
  have pl_j := plus_ok (d := .J) (b := ⟨j0, j1 + 1, 1⟩) (x := 1) (by omega) (by simp only [InInt]; omega)
  have pl_k := plus_ok (d := .K) (b := ⟨k0, k1 + 1, 1⟩) (x := 1) (by omega) (by simp only [InInt]; omega)
  obtain ⟨v0, n0, r0⟩ := offset_ok (T := T) (g := gcw) (ds := [(.K, k0, k1), (.J, j0, j1), (.I, i0, i1)]) (by simp) (by simp) (by omega)
      (by simp <;> omega) h_u
  obtain ⟨v1, n1, r1⟩ := vec_ok (T := T) (ds := [(.K, k0, k1), (.J, j0, j1), (.I, i0, i1 + 1)]) (by simp) (by simp) (by simp <;> omega) h_b0
  obtain ⟨v2, n2, r2⟩ := vec_ok (T := T) (ds := [(.I, i0, i1), (.K, k0, k1), (.J, j0, j1 + 1)]) (by simp) (by simp) (by simp <;> omega) h_b1
  obtain ⟨v3, n3, r3⟩ := vec_ok (T := T) (ds := [(.J, j0, j1), (.I, i0, i1), (.K, k0, k1 + 1)]) (by simp) (by simp) (by simp <;> omega) h_b2
  simp only [bounds, List.map_cons, List.map_nil] at n0 n1 n2 n3
  unfold Test.flux3d
  simp only [mk_k, mk_j, mk_i, pl_i, pl_j, pl_k, n0, n1, n2, n3, M.ok_bind]
  refine compare_ok (L := [0, 1, 3, 2, 4, 6, 5, 7, 9, 8]) ?_ rfl rfl
      (F.ren_celldiffusionflux3d (T := T) (perm_inv (L := [0, 1, 3, 2, 4, 6, 5, 7, 9, 8]) (by decide))) ?_ (by decide)
  · simp [(r0.fill (xs := xu)).same, (r0.fill (xs := xu)).sync, (r1.fill (xs := xb0)).same, (r1.fill (xs := xb0)).sync, r1.same, r1.sync, (r2.fill
        (xs := xb1)).same, (r2.fill (xs := xb1)).sync, r2.same, r2.sync, (r3.fill (xs := xb2)).same, (r3.fill (xs := xb2)).sync, r3.same, r3.sync]
  · refine C33_3d hβ hi hj hk hg ⟨?_, ?_⟩
    · simp only [List.cons_append, List.nil_append, List.forall_mem_cons]
      refine ⟨arr_ok_of rfl (r0.fill (xs := xu)) h_u, arr_ok_of rfl (r1.fill (xs := xb0)) h_b0, arr_ok_of rfl (r2.fill (xs := xb1)) h_b1, arr_ok_of
          rfl (r3.fill (xs := xb2)) h_b2, arr_ok_of rfl r1 h_b0, arr_ok_of rfl r2 h_b1, arr_ok_of rfl r3 h_b2, ?_⟩
      simp
    · simp only [List.forall_mem_cons]
      repeat' first | exact arr_apart (by decide) | refine ⟨?_, ?_⟩ | simp

example {dx xu xb0 xb1 xb2 : Nat → ℚ} {β : Nat → Backend} (hβ : ∀ n, ValidBackend (β n))  : Test.flux3d 10 11 12 20 30 33 dx 5 xu xb0 xb1 xb2 β =
    .ok true :=
  C102_flux_3d hβ (by told) (by told) (by told) (by told) (by exact fits_of (by decide)) (by exact fits_of (by decide))
      (by exact fits_of (by decide)) (by exact fits_of (by decide))

/-- src/cd_flux_3d.t.cpp:106-159 -/
theorem C102_flux_poisson_3d {i0 j0 k0 i1 j1 k1 : Int} {dx : Nat → T} {gcw : Int} {xu : Nat → T} {β : Nat → Backend} (hβ : ∀ n, ValidBackend (β n))
    (hi : i0 ≤ i1) (hj : j0 ≤ j1) (hk : k0 ≤ k1) (hg : 1 ≤ gcw) (h_u : F.Fits (F.cell3d (at_ 0) i0 j0 k0 i1 j1 k1 gcw).dims)
    (h_f0 : F.Fits (F.face3d0 (at_ 0) i0 j0 k0 i1 j1 k1 0).dims) (h_f1 : F.Fits (F.face3d1 (at_ 0) i0 j0 k0 i1 j1 k1 0).dims)
    (h_f2 : F.Fits (F.face3d2 (at_ 0) i0 j0 k0 i1 j1 k1 0).dims) : Test.poissonFlux3d i0 j0 k0 i1 j1 k1 dx gcw xu β = .ok true := by
  have I0 := h_u.int
  have I1 := h_f0.int
  have I2 := h_f1.int
  have I3 := h_f2.int
  simp only
      [F.cell3d, F.face3d0, F.face3d1, F.face3d2, List.mem_cons, List.not_mem_nil, or_false, forall_eq_or_imp, forall_eq, InInt] at I0 I1 I2 I3
  have mk_k := mkB_ok (d := .K) (lo := k0) (hi := k1) (by unfold InInt; omega)
  have mk_j := mkB_ok (d := .J) (lo := j0) (hi := j1) (by unfold InInt; omega)
  have mk_i := mkB_ok (d := .I) (lo := i0) (hi := i1) (by unfold InInt; omega)
  have pl_i := plus_ok (d := .I) (b := ⟨i0, i1 + 1, 1⟩) (x := 1) (by omega) (by simp only [InInt]; omega)
  have pl_j := plus_ok (d := .J) (b := ⟨j0, j1 + 1, 1⟩) (x := 1) (by omega) (by simp only [InInt]; omega)
  have pl_k := plus_ok (d := .K) (b := ⟨k0, k1 + 1, 1⟩) (x := 1) (by omega) (by simp only [InInt]; omega)
  obtain ⟨v0, n0, r0⟩ := offset_ok (T := T) (g := gcw) (ds := [(.K, k0, k1), (.J, j0, j1), (.I, i0, i1)]) (by simp) (by simp) (by omega)
      (by simp <;> omega) h_u
  obtain ⟨v1, n1, r1⟩ := vec_ok (T := T) (ds := [(.K, k0, k1), (.J, j0, j1), (.I, i0, i1 + 1)]) (by simp) (by simp) (by simp <;> omega) h_f0
  obtain ⟨v2, n2, r2⟩ := vec_ok (T := T) (ds := [(.I, i0, i1), (.K, k0, k1), (.J, j0, j1 + 1)]) (by simp) (by simp) (by simp <;> omega) h_f1
  obtain ⟨v3, n3, r3⟩ := vec_ok (T := T) (ds := [(.J, j0, j1), (.I, i0, i1), (.K, k0, k1 + 1)]) (by simp) (by simp) (by simp <;> omega) h_f2
  simp only [bounds, List.map_cons, List.map_nil] at n0 n1 n2 n3
  unfold Test.poissonFlux3d
  simp only [mk_k, mk_j, mk_i, pl_i, pl_j, pl_k, n0, n1, n2, n3, M.ok_bind]
  refine compare_ok (L := [0, 2, 1, 4, 3, 6, 5]) ?_ rfl rfl (F.ren_cellpoissonflux3d (T := T) (perm_inv (L := [0, 2, 1, 4, 3, 6, 5]) (by decide)))
      ?_ (by decide)
  · simp [(r0.fill (xs := xu)).same, (r0.fill (xs := xu)).sync, r1.same, r1.sync, r2.same, r2.sync, r3.same, r3.sync]
  · refine C33_poisson_3d hβ hi hj hk hg ⟨?_, ?_⟩
    · simp only [List.cons_append, List.nil_append, List.forall_mem_cons]
      refine ⟨arr_ok_of rfl (r0.fill (xs := xu)) h_u, arr_ok_of rfl r1 h_f0, arr_ok_of rfl r2 h_f1, arr_ok_of rfl r3 h_f2, ?_⟩
      simp
    · simp only [List.forall_mem_cons]
      repeat' first | exact arr_apart (by decide) | refine ⟨?_, ?_⟩ | simp

example {dx xu : Nat → ℚ} {β : Nat → Backend} (hβ : ∀ n, ValidBackend (β n))  : Test.poissonFlux3d 35 12 102 94 31 157 dx 2 xu β = .ok true :=
  C102_flux_poisson_3d hβ (by told) (by told) (by told) (by told) (by exact fits_of (by decide)) (by exact fits_of (by decide))
      (by exact fits_of (by decide)) (by exact fits_of (by decide))

end Verif
