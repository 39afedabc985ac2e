import Verif.Lemmas.KernelValues
import Verif.Lemmas.Rounded
import Verif.Model.Kernels.Flux

/-
The values left by the flux kernels of cdf_*d_cuda in the order of their operations: the difference is divided before it is multiplied by the coefficient.
-/

namespace Verif
open Spec

set_option linter.unusedVariables false
set_option linter.unusedSimpArgs false
set_option linter.unusedTactic false
set_option linter.unreachableTactic false

variable {T : Type} [Zero T] [One T] [NatCast T] [IntCast T] [Add T] [Sub T] [Mul T] [Div T] [Neg T] [Pow T Nat]

/-- the loops of `cdf_1d_cuda::flux` written as Fortran loops; not code of the repository -/
def F.gradflux1d (lo0 hi0 : Int) (dx : Nat → T) (b0_ : Ptr) (gcw : Int) (u_ flux0_ : Ptr) : F.Cmd T :=
  let u := F.cell1d u_ lo0 hi0 gcw
  let b0 := F.face1d b0_ lo0 hi0 0
  let flux0 := F.face1d flux0_ lo0 hi0 0
  F.doLoop lo0 (hi0 + 1) fun ie0 => F.assign flux0 [ie0] (b0.el [ie0] * ((u.el [ie0] - u.el [ie0 - 1]) / .const (dx 0)))

theorem gradflux1_eq {i0 i1 gcw : Int} {dx : Nat → T} {b0 u f0 : Ptr} {β : Nat → Backend} {m : Mem T} (hβ : ∀ n, ValidBackend (β n))
    (hi : i0 ≤ i1) (hg : 1 ≤ gcw)
    (h : F.Args m [F.cell1d u i0 i1 gcw, F.face1d b0 i0 i1 0]
      [F.face1d f0 i0 i1 0]) :
    ∃ m', Cuda.flux1d i0 i1 dx b0 gcw u f0 β m = .ok m' ∧ F.gradflux1d i0 i1 dx b0 gcw u f0 m = .ok m' := by
  have hu := h.ok (F.cell1d u i0 i1 gcw) (by simp)
  have hf0 := h.ok (F.face1d f0 i0 i1 0) (by simp)
  have hb0 := h.ok (F.face1d b0 i0 i1 0) (by simp)
  have Iu := hu.int
  have If0 := hf0.int
  simp only [F.cell1d, F.face1d, List.mem_cons, List.not_mem_nil, or_false, forall_eq, InInt] at Iu If0
  have mkI := mkB_ok (d := .I) (lo := i0) (hi := i1) (by list_omega)
  have plI := plus_ok (d := .I) (b := ⟨i0, i1 + 1, 1⟩) (x := 1) (by omega) (by list_omega)
  have sp : makeSpanOffset u gcw [(.I, ⟨i0, i1 + 1, 1⟩)] = .ok (sCell1 u i0 i1 gcw) :=
    makeSpanOffset_ok (by simp) (by list_omega)
  have Au0 : ArrOK m (sCell1 u i0 i1 gcw) := by arr_ok hu
  have Ab0 : ArrOK m (sFace1 b0 i0 i1) := by arr_ok hb0
  have Af0 : ArrOK m (sFace1 f0 i0 i1) := by arr_ok hf0
  have Pu0 : Apart (sFace1 f0 i0 i1) (sCell1 u i0 i1 gcw) := by apart_ok (h.apart _ (by simp) _ (by simp))
  have Pb0 : Apart (sFace1 f0 i0 i1) (sFace1 b0 i0 i1) := by apart_ok (h.apart _ (by simp) _ (by simp))
  obtain ⟨m1, c0, f0', x0⟩ := stmt_nest (lhs := sFace1 f0 i0 i1) (e := (sFace1 b0 i0 i1).e T * (sCell1 u i0 i1 gcw).grad .I (dx 0) down)
    (D := (sFace1 f0 i0 i1).geo) (r := [(.I, i0, i1 + 1)]) (p0 := fun _ => 0)
    (stmt := fun p => F.assign (F.face1d f0 i0 i1 0) [p .I] (.ref (F.face1d b0 i0 i1 0) [p .I] * ((.ref (F.cell1d u i0 i1 gcw) [p .I] - .ref (F.cell1d u i0 i1 gcw) [p .I - 1]) / .const (dx 0))))
    (hβ 0) (by unit_dom) Af0 (by within) (by operands) (by fits) (by typed) (by dims) (by same_dims) (by intro p; list_omega) (by body_ops True)
  refine ⟨m1, ?_, ?_⟩
  · unfold Cuda.flux1d
    exact bind_step mkI <| bind_step sp <| bind_step plI <| c0
  · exact f0'

theorem gradflux1_run {i0 i1 gcw : Int} {dx : Nat → T} {b0 u f0 : Ptr} {m : Mem T} (hi : i0 ≤ i1) (hg : 1 ≤ gcw)
    (h : F.Args m [(F.cell1d u i0 i1 gcw), (F.face1d b0 i0 i1 0)] [(F.face1d f0 i0 i1 0)]) :
    ∃ m', F.gradflux1d i0 i1 dx b0 gcw u f0 m = .ok m' ∧ F.gradflux1d i0 i1 dx b0 gcw u f0 m' = .ok m' ∧ F.Kept [(F.face1d f0 i0 i1 0)] m m' ∧
      (∀ i, i0 ≤ i → i ≤ i1 + 1 → F.El m' (F.face1d f0 i0 i1 0) [i] (F.rd m (F.face1d b0 i0 i1 0) [i] * ((F.rd m (F.cell1d u i0 i1 gcw) [i] - F.rd m (F.cell1d u i0 i1 gcw) [i - 1]) / dx 0))) := by
  have P0 : F.Part (T := T) [(F.cell1d u i0 i1 gcw), (F.face1d b0 i0 i1 0)] [(F.face1d f0 i0 i1 0)] (F.nestL [(.I, i0, i1 + 1)] (fun _ => 0) fun p => [((F.face1d f0 i0 i1 0), [p .I], F.Expr.ref (F.face1d b0 i0 i1 0) [p .I] * ((F.Expr.ref (F.cell1d u i0 i1 gcw) [p .I] - F.Expr.ref (F.cell1d u i0 i1 gcw) [p .I - 1]) / .const (dx 0)))]) := by part_tac
  obtain ⟨m', g1, g2, g3, g4⟩ := P0.run (c := F.gradflux1d i0 i1 dx b0 gcw u f0) (by rw [← F.nest_seqn1]; rfl) h
  exact ⟨m', g1, g2, g3, fun i h0 h1 => g4 _ (F.mem_nestL (p := (pt1 i)) (by nodups) (by in_nest) (by pt_else) List.mem_cons_self)⟩

theorem cflux1_run {i0 i1 gcw : Int} {dx : Nat → T} {b0 u f0 : Ptr} {β : Nat → Backend} {m : Mem T} (hβ : ∀ n, ValidBackend (β n)) (hi : i0 ≤ i1) (hg : 1 ≤ gcw)
    (h : F.Args m [(F.cell1d u i0 i1 gcw), (F.face1d b0 i0 i1 0)] [(F.face1d f0 i0 i1 0)]) :
    ∃ m', Cuda.flux1d i0 i1 dx b0 gcw u f0 β m = .ok m' ∧ F.Kept [(F.face1d f0 i0 i1 0)] m m' ∧
      (∀ i, i0 ≤ i → i ≤ i1 + 1 → F.El m' (F.face1d f0 i0 i1 0) [i] (F.rd m (F.face1d b0 i0 i1 0) [i] * ((F.rd m (F.cell1d u i0 i1 gcw) [i] - F.rd m (F.cell1d u i0 i1 gcw) [i - 1]) / dx 0))) := by
  obtain ⟨m', q, -, K⟩ := gradflux1_run (dx := dx) hi hg h
  obtain ⟨m1, c, e⟩ := gradflux1_eq (dx := dx) hβ hi hg h
  obtain rfl : m' = m1 := Except.ok.inj (q.symm.trans e)
  exact ⟨m', c, K⟩

/-- the loops of `cdf_2d_cuda::flux` written as Fortran loops; not code of the repository -/
def F.gradflux2d (lo0 lo1 hi0 hi1 : Int) (dx : Nat → T) (b0_ b1_ : Ptr) (gcw : Int) (u_ flux0_ flux1_ : Ptr) : F.Cmd T :=
  let u := F.cell2d u_ lo0 lo1 hi0 hi1 gcw
  let b0 := F.face2d0 b0_ lo0 lo1 hi0 hi1 0
  let b1 := F.face2d1 b1_ lo0 lo1 hi0 hi1 0
  let flux0 := F.face2d0 flux0_ lo0 lo1 hi0 hi1 0
  let flux1 := F.face2d1 flux1_ lo0 lo1 hi0 hi1 0
  F.block [
    F.doLoop lo1 hi1 fun ic1 => F.doLoop lo0 (hi0 + 1) fun ie0 =>
      F.assign flux0 [ie0, ic1] (b0.el [ie0, ic1] * ((u.el [ie0, ic1] - u.el [ie0 - 1, ic1]) / .const (dx 0))),
    F.doLoop lo0 hi0 fun ic0 => F.doLoop lo1 (hi1 + 1) fun ie1 =>
      F.assign flux1 [ie1, ic0] (b1.el [ie1, ic0] * ((u.el [ic0, ie1] - u.el [ic0, ie1 - 1]) / .const (dx 1)))]

theorem gradflux2_eq {i0 j0 i1 j1 gcw : Int} {dx : Nat → T} {b0 b1 u f0 f1 : Ptr} {β : Nat → Backend} {m : Mem T} (hβ : ∀ n, ValidBackend (β n))
    (hi : i0 ≤ i1) (hj : j0 ≤ j1) (hg : 1 ≤ gcw)
    (h : F.Args m [F.cell2d u i0 j0 i1 j1 gcw, F.face2d0 b0 i0 j0 i1 j1 0, F.face2d1 b1 i0 j0 i1 j1 0]
      [F.face2d0 f0 i0 j0 i1 j1 0, F.face2d1 f1 i0 j0 i1 j1 0]) :
    ∃ m', Cuda.flux2d i0 j0 i1 j1 dx b0 b1 gcw u f0 f1 β m = .ok m' ∧ F.gradflux2d i0 j0 i1 j1 dx b0 b1 gcw u f0 f1 m = .ok m' := by
  have hu := h.ok (F.cell2d u i0 j0 i1 j1 gcw) (by simp)
  have hf0 := h.ok (F.face2d0 f0 i0 j0 i1 j1 0) (by simp)
  have hf1 := h.ok (F.face2d1 f1 i0 j0 i1 j1 0) (by simp)
  have hb0 := h.ok (F.face2d0 b0 i0 j0 i1 j1 0) (by simp)
  have hb1 := h.ok (F.face2d1 b1 i0 j0 i1 j1 0) (by simp)
  have Iu := hu.int
  have If0 := hf0.int
  have If1 := hf1.int
  simp only [F.cell2d, F.face2d0, F.face2d1, List.mem_cons, List.not_mem_nil, or_false, forall_eq_or_imp, forall_eq, InInt] at Iu If0 If1
  have mkI := mkB_ok (d := .I) (lo := i0) (hi := i1) (by list_omega)
  have plI := plus_ok (d := .I) (b := ⟨i0, i1 + 1, 1⟩) (x := 1) (by omega) (by list_omega)
  have mkJ := mkB_ok (d := .J) (lo := j0) (hi := j1) (by list_omega)
  have plJ := plus_ok (d := .J) (b := ⟨j0, j1 + 1, 1⟩) (x := 1) (by omega) (by list_omega)
  have sp : makeSpanOffset u gcw [(.J, ⟨j0, j1 + 1, 1⟩), (.I, ⟨i0, i1 + 1, 1⟩)] = .ok (sCell2 u i0 j0 i1 j1 gcw) :=
    makeSpanOffset_ok (by simp) (by list_omega)
  have Au0 : ArrOK m (sCell2 u i0 j0 i1 j1 gcw) := by arr_ok hu
  have Ab0 : ArrOK m (sFace20 b0 i0 j0 i1 j1) := by arr_ok hb0
  have Af0 : ArrOK m (sFace20 f0 i0 j0 i1 j1) := by arr_ok hf0
  have Pu0 : Apart (sFace20 f0 i0 j0 i1 j1) (sCell2 u i0 j0 i1 j1 gcw) := by apart_ok (h.apart _ (by simp) _ (by simp))
  have Pb0 : Apart (sFace20 f0 i0 j0 i1 j1) (sFace20 b0 i0 j0 i1 j1) := by apart_ok (h.apart _ (by simp) _ (by simp))
  obtain ⟨m1, c0, f0', x0⟩ := stmt_nest (lhs := sFace20 f0 i0 j0 i1 j1) (e := (sFace20 b0 i0 j0 i1 j1).e T * (sCell2 u i0 j0 i1 j1 gcw).grad .I (dx 0) down)
    (D := (sFace20 f0 i0 j0 i1 j1).geo) (r := [(.J, j0, j1), (.I, i0, i1 + 1)]) (p0 := fun _ => 0)
    (stmt := fun p => F.assign (F.face2d0 f0 i0 j0 i1 j1 0) [p .I, p .J] (.ref (F.face2d0 b0 i0 j0 i1 j1 0) [p .I, p .J] * ((.ref (F.cell2d u i0 j0 i1 j1 gcw) [p .I, p .J] - .ref (F.cell2d u i0 j0 i1 j1 gcw) [p .I - 1, p .J]) / .const (dx 0))))
    (hβ 0) (by unit_dom) Af0 (by within) (by operands) (by fits) (by typed) (by dims) (by same_dims) (by intro p; list_omega) (by body_ops True)
  have Au1 : ArrOK m1 (sCell2 u i0 j0 i1 j1 gcw) := by arr_ok (hu.mono x0.alloc)
  have Ab1 : ArrOK m1 (sFace21 b1 i0 j0 i1 j1) := by arr_ok (hb1.mono x0.alloc)
  have Af1 : ArrOK m1 (sFace21 f1 i0 j0 i1 j1) := by arr_ok (hf1.mono x0.alloc)
  have Pu1 : Apart (sFace21 f1 i0 j0 i1 j1) (sCell2 u i0 j0 i1 j1 gcw) := by apart_ok (h.apart _ (by simp) _ (by simp))
  have Pb1 : Apart (sFace21 f1 i0 j0 i1 j1) (sFace21 b1 i0 j0 i1 j1) := by apart_ok (h.apart _ (by simp) _ (by simp))
  obtain ⟨m2, c1, f1', x1⟩ := stmt_nest (lhs := sFace21 f1 i0 j0 i1 j1) (e := (sFace21 b1 i0 j0 i1 j1).e T * (sCell2 u i0 j0 i1 j1 gcw).grad .J (dx 1) down)
    (D := (sFace21 f1 i0 j0 i1 j1).geo) (r := [(.I, i0, i1), (.J, j0, j1 + 1)]) (p0 := fun _ => 0)
    (stmt := fun p => F.assign (F.face2d1 f1 i0 j0 i1 j1 0) [p .J, p .I] (.ref (F.face2d1 b1 i0 j0 i1 j1 0) [p .J, p .I] * ((.ref (F.cell2d u i0 j0 i1 j1 gcw) [p .I, p .J] - .ref (F.cell2d u i0 j0 i1 j1 gcw) [p .I, p .J - 1]) / .const (dx 1))))
    (hβ 1) (by unit_dom) Af1 (by within) (by operands) (by fits) (by typed) (by dims) (by same_dims) (by intro p; list_omega) (by body_ops True)
  refine ⟨m2, ?_, ?_⟩
  · unfold Cuda.flux2d
    exact bind_step mkI <| bind_step mkJ <| bind_step sp <| bind_step plI <| bind_step plJ <| bind_step c0 <| c1
  · exact bind_step f0' <| bind_step f1' rfl

theorem gradflux2_run {i0 j0 i1 j1 gcw : Int} {dx : Nat → T} {b0 b1 u f0 f1 : Ptr} {m : Mem T} (hi : i0 ≤ i1) (hj : j0 ≤ j1) (hg : 1 ≤ gcw)
    (h : F.Args m [(F.cell2d u i0 j0 i1 j1 gcw), (F.face2d0 b0 i0 j0 i1 j1 0), (F.face2d1 b1 i0 j0 i1 j1 0)] [(F.face2d0 f0 i0 j0 i1 j1 0), (F.face2d1 f1 i0 j0 i1 j1 0)]) (hp : F.Apart (F.face2d0 f0 i0 j0 i1 j1 0) (F.face2d1 f1 i0 j0 i1 j1 0)) :
    ∃ m', F.gradflux2d i0 j0 i1 j1 dx b0 b1 gcw u f0 f1 m = .ok m' ∧ F.gradflux2d i0 j0 i1 j1 dx b0 b1 gcw u f0 f1 m' = .ok m' ∧ F.Kept [(F.face2d0 f0 i0 j0 i1 j1 0), (F.face2d1 f1 i0 j0 i1 j1 0)] m m' ∧
      (∀ i j, i0 ≤ i → i ≤ i1 + 1 → j0 ≤ j → j ≤ j1 → F.El m' (F.face2d0 f0 i0 j0 i1 j1 0) [i, j] (F.rd m (F.face2d0 b0 i0 j0 i1 j1 0) [i, j] * ((F.rd m (F.cell2d u i0 j0 i1 j1 gcw) [i, j] - F.rd m (F.cell2d u i0 j0 i1 j1 gcw) [i - 1, j]) / dx 0))) ∧
      (∀ i j, i0 ≤ i → i ≤ i1 → j0 ≤ j → j ≤ j1 + 1 → F.El m' (F.face2d1 f1 i0 j0 i1 j1 0) [j, i] (F.rd m (F.face2d1 b1 i0 j0 i1 j1 0) [j, i] * ((F.rd m (F.cell2d u i0 j0 i1 j1 gcw) [i, j] - F.rd m (F.cell2d u i0 j0 i1 j1 gcw) [i, j - 1]) / dx 1))) := by
  have P0 : F.Part (T := T) [(F.cell2d u i0 j0 i1 j1 gcw), (F.face2d0 b0 i0 j0 i1 j1 0), (F.face2d1 b1 i0 j0 i1 j1 0)] [(F.face2d0 f0 i0 j0 i1 j1 0)] (F.nestL [(.J, j0, j1), (.I, i0, i1 + 1)] (fun _ => 0) fun p => [((F.face2d0 f0 i0 j0 i1 j1 0), [p .I, p .J], F.Expr.ref (F.face2d0 b0 i0 j0 i1 j1 0) [p .I, p .J] * ((F.Expr.ref (F.cell2d u i0 j0 i1 j1 gcw) [p .I, p .J] - F.Expr.ref (F.cell2d u i0 j0 i1 j1 gcw) [p .I - 1, p .J]) / .const (dx 0)))]) := by part_tac
  have P1 : F.Part (T := T) [(F.cell2d u i0 j0 i1 j1 gcw), (F.face2d0 b0 i0 j0 i1 j1 0), (F.face2d1 b1 i0 j0 i1 j1 0)] [(F.face2d1 f1 i0 j0 i1 j1 0)] (F.nestL [(.I, i0, i1), (.J, j0, j1 + 1)] (fun _ => 0) fun p => [((F.face2d1 f1 i0 j0 i1 j1 0), [p .J, p .I], F.Expr.ref (F.face2d1 b1 i0 j0 i1 j1 0) [p .J, p .I] * ((F.Expr.ref (F.cell2d u i0 j0 i1 j1 gcw) [p .I, p .J] - F.Expr.ref (F.cell2d u i0 j0 i1 j1 gcw) [p .I, p .J - 1]) / .const (dx 1)))]) := by part_tac
  obtain ⟨m', g1, g2, g3, g4⟩ := (P0.append P1 (by simpa using hp)).run (c := F.gradflux2d i0 j0 i1 j1 dx b0 b1 gcw u f0 f1) (by rw [← F.seqn_append, ← F.nest_seqn1, ← F.nest_seqn1]; rfl) h
  exact ⟨m', g1, g2, g3, fun i j h0 h1 h2 h3 => g4 _ (List.mem_append_left _ (F.mem_nestL (p := (pt2 i j)) (by nodups) (by in_nest) (by pt_else) List.mem_cons_self)), fun i j h0 h1 h2 h3 => g4 _ (List.mem_append_right _ (F.mem_nestL (p := (pt2 i j)) (by nodups) (by in_nest) (by pt_else) List.mem_cons_self))⟩

theorem cflux2_run {i0 j0 i1 j1 gcw : Int} {dx : Nat → T} {b0 b1 u f0 f1 : Ptr} {β : Nat → Backend} {m : Mem T} (hβ : ∀ n, ValidBackend (β n)) (hi : i0 ≤ i1) (hj : j0 ≤ j1) (hg : 1 ≤ gcw)
    (h : F.Args m [(F.cell2d u i0 j0 i1 j1 gcw), (F.face2d0 b0 i0 j0 i1 j1 0), (F.face2d1 b1 i0 j0 i1 j1 0)] [(F.face2d0 f0 i0 j0 i1 j1 0), (F.face2d1 f1 i0 j0 i1 j1 0)]) (hp : F.Apart (F.face2d0 f0 i0 j0 i1 j1 0) (F.face2d1 f1 i0 j0 i1 j1 0)) :
    ∃ m', Cuda.flux2d i0 j0 i1 j1 dx b0 b1 gcw u f0 f1 β m = .ok m' ∧ F.Kept [(F.face2d0 f0 i0 j0 i1 j1 0), (F.face2d1 f1 i0 j0 i1 j1 0)] m m' ∧
      (∀ i j, i0 ≤ i → i ≤ i1 + 1 → j0 ≤ j → j ≤ j1 → F.El m' (F.face2d0 f0 i0 j0 i1 j1 0) [i, j] (F.rd m (F.face2d0 b0 i0 j0 i1 j1 0) [i, j] * ((F.rd m (F.cell2d u i0 j0 i1 j1 gcw) [i, j] - F.rd m (F.cell2d u i0 j0 i1 j1 gcw) [i - 1, j]) / dx 0))) ∧
      (∀ i j, i0 ≤ i → i ≤ i1 → j0 ≤ j → j ≤ j1 + 1 → F.El m' (F.face2d1 f1 i0 j0 i1 j1 0) [j, i] (F.rd m (F.face2d1 b1 i0 j0 i1 j1 0) [j, i] * ((F.rd m (F.cell2d u i0 j0 i1 j1 gcw) [i, j] - F.rd m (F.cell2d u i0 j0 i1 j1 gcw) [i, j - 1]) / dx 1))) := by
  obtain ⟨m', q, -, K⟩ := gradflux2_run (dx := dx) hi hj hg h hp
  obtain ⟨m1, c, e⟩ := gradflux2_eq (dx := dx) hβ hi hj hg h
  obtain rfl : m' = m1 := Except.ok.inj (q.symm.trans e)
  exact ⟨m', c, K⟩

/-- the loops of `cdf_3d_cuda::flux` written as Fortran loops; not code of the repository -/
def F.gradflux3d (lo0 lo1 lo2 hi0 hi1 hi2 : Int) (dx : Nat → T) (b0_ b1_ b2_ : Ptr) (gcw : Int) (u_ flux0_ flux1_ flux2_ : Ptr) :
    F.Cmd T :=
  let u := F.cell3d u_ lo0 lo1 lo2 hi0 hi1 hi2 gcw
  let b0 := F.face3d0 b0_ lo0 lo1 lo2 hi0 hi1 hi2 0
  let b1 := F.face3d1 b1_ lo0 lo1 lo2 hi0 hi1 hi2 0
  let b2 := F.face3d2 b2_ lo0 lo1 lo2 hi0 hi1 hi2 0
  let flux0 := F.face3d0 flux0_ lo0 lo1 lo2 hi0 hi1 hi2 0
  let flux1 := F.face3d1 flux1_ lo0 lo1 lo2 hi0 hi1 hi2 0
  let flux2 := F.face3d2 flux2_ lo0 lo1 lo2 hi0 hi1 hi2 0
  F.block [
    F.doLoop lo2 hi2 fun k => F.doLoop lo1 hi1 fun j => F.doLoop lo0 (hi0 + 1) fun i =>
      F.assign flux0 [i, j, k] (b0.el [i, j, k] * ((u.el [i, j, k] - u.el [i - 1, j, k]) / .const (dx 0))),
    F.doLoop lo0 hi0 fun i => F.doLoop lo2 hi2 fun k => F.doLoop lo1 (hi1 + 1) fun j =>
      F.assign flux1 [j, k, i] (b1.el [j, k, i] * ((u.el [i, j, k] - u.el [i, j - 1, k]) / .const (dx 1))),
    F.doLoop lo1 hi1 fun j => F.doLoop lo0 hi0 fun i => F.doLoop lo2 (hi2 + 1) fun k =>
      F.assign flux2 [k, i, j] (b2.el [k, i, j] * ((u.el [i, j, k] - u.el [i, j, k - 1]) / .const (dx 2)))]

theorem gradflux3_eq {i0 j0 k0 i1 j1 k1 gcw : Int} {dx : Nat → T} {b0 b1 b2 u f0 f1 f2 : Ptr} {β : Nat → Backend} {m : Mem T} (hβ : ∀ n, ValidBackend (β n))
    (hi : i0 ≤ i1) (hj : j0 ≤ j1) (hk : k0 ≤ k1) (hg : 1 ≤ gcw)
    (h : F.Args m [F.cell3d u i0 j0 k0 i1 j1 k1 gcw, F.face3d0 b0 i0 j0 k0 i1 j1 k1 0, F.face3d1 b1 i0 j0 k0 i1 j1 k1 0, F.face3d2 b2 i0 j0 k0 i1 j1 k1 0]
      [F.face3d0 f0 i0 j0 k0 i1 j1 k1 0, F.face3d1 f1 i0 j0 k0 i1 j1 k1 0, F.face3d2 f2 i0 j0 k0 i1 j1 k1 0]) :
    ∃ m', Cuda.flux3d i0 j0 k0 i1 j1 k1 dx b0 b1 b2 gcw u f0 f1 f2 β m = .ok m' ∧ F.gradflux3d i0 j0 k0 i1 j1 k1 dx b0 b1 b2 gcw u f0 f1 f2 m = .ok m' := by
  have hu := h.ok (F.cell3d u i0 j0 k0 i1 j1 k1 gcw) (by simp)
  have hf0 := h.ok (F.face3d0 f0 i0 j0 k0 i1 j1 k1 0) (by simp)
  have hf1 := h.ok (F.face3d1 f1 i0 j0 k0 i1 j1 k1 0) (by simp)
  have hf2 := h.ok (F.face3d2 f2 i0 j0 k0 i1 j1 k1 0) (by simp)
  have hb0 := h.ok (F.face3d0 b0 i0 j0 k0 i1 j1 k1 0) (by simp)
  have hb1 := h.ok (F.face3d1 b1 i0 j0 k0 i1 j1 k1 0) (by simp)
  have hb2 := h.ok (F.face3d2 b2 i0 j0 k0 i1 j1 k1 0) (by simp)
  have Iu := hu.int
  have If0 := hf0.int
  have If1 := hf1.int
  have If2 := hf2.int
  simp only [F.cell3d, F.face3d0, F.face3d1, F.face3d2, List.mem_cons, List.not_mem_nil, or_false, forall_eq_or_imp, forall_eq, InInt] at Iu If0 If1 If2
  have mkI := mkB_ok (d := .I) (lo := i0) (hi := i1) (by list_omega)
  have plI := plus_ok (d := .I) (b := ⟨i0, i1 + 1, 1⟩) (x := 1) (by omega) (by list_omega)
  have mkJ := mkB_ok (d := .J) (lo := j0) (hi := j1) (by list_omega)
  have plJ := plus_ok (d := .J) (b := ⟨j0, j1 + 1, 1⟩) (x := 1) (by omega) (by list_omega)
  have mkK := mkB_ok (d := .K) (lo := k0) (hi := k1) (by list_omega)
  have plK := plus_ok (d := .K) (b := ⟨k0, k1 + 1, 1⟩) (x := 1) (by omega) (by list_omega)
  have sp : makeSpanOffset u gcw [(.K, ⟨k0, k1 + 1, 1⟩), (.J, ⟨j0, j1 + 1, 1⟩), (.I, ⟨i0, i1 + 1, 1⟩)] = .ok (sCell3 u i0 j0 k0 i1 j1 k1 gcw) :=
    makeSpanOffset_ok (by simp) (by list_omega)
  have Au0 : ArrOK m (sCell3 u i0 j0 k0 i1 j1 k1 gcw) := by arr_ok hu
  have Ab0 : ArrOK m (sFace30 b0 i0 j0 k0 i1 j1 k1) := by arr_ok hb0
  have Af0 : ArrOK m (sFace30 f0 i0 j0 k0 i1 j1 k1) := by arr_ok hf0
  have Pu0 : Apart (sFace30 f0 i0 j0 k0 i1 j1 k1) (sCell3 u i0 j0 k0 i1 j1 k1 gcw) := by apart_ok (h.apart _ (by simp) _ (by simp))
  have Pb0 : Apart (sFace30 f0 i0 j0 k0 i1 j1 k1) (sFace30 b0 i0 j0 k0 i1 j1 k1) := by apart_ok (h.apart _ (by simp) _ (by simp))
  obtain ⟨m1, c0, f0', x0⟩ := stmt_nest (lhs := sFace30 f0 i0 j0 k0 i1 j1 k1) (e := (sFace30 b0 i0 j0 k0 i1 j1 k1).e T * (sCell3 u i0 j0 k0 i1 j1 k1 gcw).grad .I (dx 0) down)
    (D := (sFace30 f0 i0 j0 k0 i1 j1 k1).geo) (r := [(.K, k0, k1), (.J, j0, j1), (.I, i0, i1 + 1)]) (p0 := fun _ => 0)
    (stmt := fun p => F.assign (F.face3d0 f0 i0 j0 k0 i1 j1 k1 0) [p .I, p .J, p .K] (.ref (F.face3d0 b0 i0 j0 k0 i1 j1 k1 0) [p .I, p .J, p .K] * ((.ref (F.cell3d u i0 j0 k0 i1 j1 k1 gcw) [p .I, p .J, p .K] - .ref (F.cell3d u i0 j0 k0 i1 j1 k1 gcw) [p .I - 1, p .J, p .K]) / .const (dx 0))))
    (hβ 0) (by unit_dom) Af0 (by within) (by operands) (by fits) (by typed) (by dims) (by same_dims) (by intro p; list_omega) (by body_ops True)
  have Au1 : ArrOK m1 (sCell3 u i0 j0 k0 i1 j1 k1 gcw) := by arr_ok (hu.mono x0.alloc)
  have Ab1 : ArrOK m1 (sFace31 b1 i0 j0 k0 i1 j1 k1) := by arr_ok (hb1.mono x0.alloc)
  have Af1 : ArrOK m1 (sFace31 f1 i0 j0 k0 i1 j1 k1) := by arr_ok (hf1.mono x0.alloc)
  have Pu1 : Apart (sFace31 f1 i0 j0 k0 i1 j1 k1) (sCell3 u i0 j0 k0 i1 j1 k1 gcw) := by apart_ok (h.apart _ (by simp) _ (by simp))
  have Pb1 : Apart (sFace31 f1 i0 j0 k0 i1 j1 k1) (sFace31 b1 i0 j0 k0 i1 j1 k1) := by apart_ok (h.apart _ (by simp) _ (by simp))
  obtain ⟨m2, c1, f1', x1⟩ := stmt_nest (lhs := sFace31 f1 i0 j0 k0 i1 j1 k1) (e := (sFace31 b1 i0 j0 k0 i1 j1 k1).e T * (sCell3 u i0 j0 k0 i1 j1 k1 gcw).grad .J (dx 1) down)
    (D := (sFace31 f1 i0 j0 k0 i1 j1 k1).geo) (r := [(.I, i0, i1), (.K, k0, k1), (.J, j0, j1 + 1)]) (p0 := fun _ => 0)
    (stmt := fun p => F.assign (F.face3d1 f1 i0 j0 k0 i1 j1 k1 0) [p .J, p .K, p .I] (.ref (F.face3d1 b1 i0 j0 k0 i1 j1 k1 0) [p .J, p .K, p .I] * ((.ref (F.cell3d u i0 j0 k0 i1 j1 k1 gcw) [p .I, p .J, p .K] - .ref (F.cell3d u i0 j0 k0 i1 j1 k1 gcw) [p .I, p .J - 1, p .K]) / .const (dx 1))))
    (hβ 1) (by unit_dom) Af1 (by within) (by operands) (by fits) (by typed) (by dims) (by same_dims) (by intro p; list_omega) (by body_ops True)
  have Au2 : ArrOK m2 (sCell3 u i0 j0 k0 i1 j1 k1 gcw) := by arr_ok ((hu.mono x0.alloc).mono x1.alloc)
  have Ab2 : ArrOK m2 (sFace32 b2 i0 j0 k0 i1 j1 k1) := by arr_ok ((hb2.mono x0.alloc).mono x1.alloc)
  have Af2 : ArrOK m2 (sFace32 f2 i0 j0 k0 i1 j1 k1) := by arr_ok ((hf2.mono x0.alloc).mono x1.alloc)
  have Pu2 : Apart (sFace32 f2 i0 j0 k0 i1 j1 k1) (sCell3 u i0 j0 k0 i1 j1 k1 gcw) := by apart_ok (h.apart _ (by simp) _ (by simp))
  have Pb2 : Apart (sFace32 f2 i0 j0 k0 i1 j1 k1) (sFace32 b2 i0 j0 k0 i1 j1 k1) := by apart_ok (h.apart _ (by simp) _ (by simp))
  obtain ⟨m3, c2, f2', x2⟩ := stmt_nest (lhs := sFace32 f2 i0 j0 k0 i1 j1 k1) (e := (sFace32 b2 i0 j0 k0 i1 j1 k1).e T * (sCell3 u i0 j0 k0 i1 j1 k1 gcw).grad .K (dx 2) down)
    (D := (sFace32 f2 i0 j0 k0 i1 j1 k1).geo) (r := [(.J, j0, j1), (.I, i0, i1), (.K, k0, k1 + 1)]) (p0 := fun _ => 0)
    (stmt := fun p => F.assign (F.face3d2 f2 i0 j0 k0 i1 j1 k1 0) [p .K, p .I, p .J] (.ref (F.face3d2 b2 i0 j0 k0 i1 j1 k1 0) [p .K, p .I, p .J] * ((.ref (F.cell3d u i0 j0 k0 i1 j1 k1 gcw) [p .I, p .J, p .K] - .ref (F.cell3d u i0 j0 k0 i1 j1 k1 gcw) [p .I, p .J, p .K - 1]) / .const (dx 2))))
    (hβ 2) (by unit_dom) Af2 (by within) (by operands) (by fits) (by typed) (by dims) (by same_dims) (by intro p; list_omega) (by body_ops True)
  refine ⟨m3, ?_, ?_⟩
  · unfold Cuda.flux3d
    exact bind_step mkI <| bind_step mkJ <| bind_step mkK <| bind_step sp <| bind_step plI <| bind_step plJ <| bind_step plK <| bind_step c0 <| bind_step c1 <| c2
  · exact bind_step f0' <| bind_step f1' <| bind_step f2' rfl

theorem gradflux3_run {i0 j0 k0 i1 j1 k1 gcw : Int} {dx : Nat → T} {b0 b1 b2 u f0 f1 f2 : Ptr} {m : Mem T} (hi : i0 ≤ i1) (hj : j0 ≤ j1) (hk : k0 ≤ k1) (hg : 1 ≤ gcw)
    (h : F.Args m [(F.cell3d u i0 j0 k0 i1 j1 k1 gcw), (F.face3d0 b0 i0 j0 k0 i1 j1 k1 0), (F.face3d1 b1 i0 j0 k0 i1 j1 k1 0), (F.face3d2 b2 i0 j0 k0 i1 j1 k1 0)] [(F.face3d0 f0 i0 j0 k0 i1 j1 k1 0), (F.face3d1 f1 i0 j0 k0 i1 j1 k1 0), (F.face3d2 f2 i0 j0 k0 i1 j1 k1 0)])
    (hp : F.Apart (F.face3d0 f0 i0 j0 k0 i1 j1 k1 0) (F.face3d1 f1 i0 j0 k0 i1 j1 k1 0) ∧ F.Apart (F.face3d0 f0 i0 j0 k0 i1 j1 k1 0) (F.face3d2 f2 i0 j0 k0 i1 j1 k1 0) ∧ F.Apart (F.face3d1 f1 i0 j0 k0 i1 j1 k1 0) (F.face3d2 f2 i0 j0 k0 i1 j1 k1 0)) :
    ∃ m', F.gradflux3d i0 j0 k0 i1 j1 k1 dx b0 b1 b2 gcw u f0 f1 f2 m = .ok m' ∧ F.gradflux3d i0 j0 k0 i1 j1 k1 dx b0 b1 b2 gcw u f0 f1 f2 m' = .ok m' ∧ F.Kept [(F.face3d0 f0 i0 j0 k0 i1 j1 k1 0), (F.face3d1 f1 i0 j0 k0 i1 j1 k1 0), (F.face3d2 f2 i0 j0 k0 i1 j1 k1 0)] m m' ∧
      (∀ i j k, i0 ≤ i → i ≤ i1 + 1 → j0 ≤ j → j ≤ j1 → k0 ≤ k → k ≤ k1 → F.El m' (F.face3d0 f0 i0 j0 k0 i1 j1 k1 0) [i, j, k] (F.rd m (F.face3d0 b0 i0 j0 k0 i1 j1 k1 0) [i, j, k] * ((F.rd m (F.cell3d u i0 j0 k0 i1 j1 k1 gcw) [i, j, k] - F.rd m (F.cell3d u i0 j0 k0 i1 j1 k1 gcw) [i - 1, j, k]) / dx 0))) ∧
      (∀ i j k, i0 ≤ i → i ≤ i1 → j0 ≤ j → j ≤ j1 + 1 → k0 ≤ k → k ≤ k1 → F.El m' (F.face3d1 f1 i0 j0 k0 i1 j1 k1 0) [j, k, i] (F.rd m (F.face3d1 b1 i0 j0 k0 i1 j1 k1 0) [j, k, i] * ((F.rd m (F.cell3d u i0 j0 k0 i1 j1 k1 gcw) [i, j, k] - F.rd m (F.cell3d u i0 j0 k0 i1 j1 k1 gcw) [i, j - 1, k]) / dx 1))) ∧
      (∀ i j k, i0 ≤ i → i ≤ i1 → j0 ≤ j → j ≤ j1 → k0 ≤ k → k ≤ k1 + 1 → F.El m' (F.face3d2 f2 i0 j0 k0 i1 j1 k1 0) [k, i, j] (F.rd m (F.face3d2 b2 i0 j0 k0 i1 j1 k1 0) [k, i, j] * ((F.rd m (F.cell3d u i0 j0 k0 i1 j1 k1 gcw) [i, j, k] - F.rd m (F.cell3d u i0 j0 k0 i1 j1 k1 gcw) [i, j, k - 1]) / dx 2))) := by
  have P0 : F.Part (T := T) [(F.cell3d u i0 j0 k0 i1 j1 k1 gcw), (F.face3d0 b0 i0 j0 k0 i1 j1 k1 0), (F.face3d1 b1 i0 j0 k0 i1 j1 k1 0), (F.face3d2 b2 i0 j0 k0 i1 j1 k1 0)] [(F.face3d0 f0 i0 j0 k0 i1 j1 k1 0)] (F.nestL [(.K, k0, k1), (.J, j0, j1), (.I, i0, i1 + 1)] (fun _ => 0) fun p => [((F.face3d0 f0 i0 j0 k0 i1 j1 k1 0), [p .I, p .J, p .K], F.Expr.ref (F.face3d0 b0 i0 j0 k0 i1 j1 k1 0) [p .I, p .J, p .K] * ((F.Expr.ref (F.cell3d u i0 j0 k0 i1 j1 k1 gcw) [p .I, p .J, p .K] - F.Expr.ref (F.cell3d u i0 j0 k0 i1 j1 k1 gcw) [p .I - 1, p .J, p .K]) / .const (dx 0)))]) := by part_tac
  have P1 : F.Part (T := T) [(F.cell3d u i0 j0 k0 i1 j1 k1 gcw), (F.face3d0 b0 i0 j0 k0 i1 j1 k1 0), (F.face3d1 b1 i0 j0 k0 i1 j1 k1 0), (F.face3d2 b2 i0 j0 k0 i1 j1 k1 0)] [(F.face3d1 f1 i0 j0 k0 i1 j1 k1 0)] (F.nestL [(.I, i0, i1), (.K, k0, k1), (.J, j0, j1 + 1)] (fun _ => 0) fun p => [((F.face3d1 f1 i0 j0 k0 i1 j1 k1 0), [p .J, p .K, p .I], F.Expr.ref (F.face3d1 b1 i0 j0 k0 i1 j1 k1 0) [p .J, p .K, p .I] * ((F.Expr.ref (F.cell3d u i0 j0 k0 i1 j1 k1 gcw) [p .I, p .J, p .K] - F.Expr.ref (F.cell3d u i0 j0 k0 i1 j1 k1 gcw) [p .I, p .J - 1, p .K]) / .const (dx 1)))]) := by part_tac
  have P2 : F.Part (T := T) [(F.cell3d u i0 j0 k0 i1 j1 k1 gcw), (F.face3d0 b0 i0 j0 k0 i1 j1 k1 0), (F.face3d1 b1 i0 j0 k0 i1 j1 k1 0), (F.face3d2 b2 i0 j0 k0 i1 j1 k1 0)] [(F.face3d2 f2 i0 j0 k0 i1 j1 k1 0)] (F.nestL [(.J, j0, j1), (.I, i0, i1), (.K, k0, k1 + 1)] (fun _ => 0) fun p => [((F.face3d2 f2 i0 j0 k0 i1 j1 k1 0), [p .K, p .I, p .J], F.Expr.ref (F.face3d2 b2 i0 j0 k0 i1 j1 k1 0) [p .K, p .I, p .J] * ((F.Expr.ref (F.cell3d u i0 j0 k0 i1 j1 k1 gcw) [p .I, p .J, p .K] - F.Expr.ref (F.cell3d u i0 j0 k0 i1 j1 k1 gcw) [p .I, p .J, p .K - 1]) / .const (dx 2)))]) := by part_tac
  obtain ⟨m', g1, g2, g3, g4⟩ := (P0.append (P1.append P2 (by simpa using hp.2.2)) (by simpa using ⟨hp.1, hp.2.1⟩)).run (c := F.gradflux3d i0 j0 k0 i1 j1 k1 dx b0 b1 b2 gcw u f0 f1 f2) (by rw [← F.seqn_append3, ← F.nest_seqn1, ← F.nest_seqn1, ← F.nest_seqn1]; rfl) h
  exact ⟨m', g1, g2, g3, fun i j k h0 h1 h2 h3 h4 h5 => g4 _ (List.mem_append_left _ (F.mem_nestL (p := (pt3 i j k)) (by nodups) (by in_nest) (by pt_else) List.mem_cons_self)), fun i j k h0 h1 h2 h3 h4 h5 => g4 _ (List.mem_append_right _ (List.mem_append_left _ (F.mem_nestL (p := (pt3 i j k)) (by nodups) (by in_nest) (by pt_else) List.mem_cons_self))), fun i j k h0 h1 h2 h3 h4 h5 => g4 _ (List.mem_append_right _ (List.mem_append_right _ (F.mem_nestL (p := (pt3 i j k)) (by nodups) (by in_nest) (by pt_else) List.mem_cons_self)))⟩

theorem cflux3_run {i0 j0 k0 i1 j1 k1 gcw : Int} {dx : Nat → T} {b0 b1 b2 u f0 f1 f2 : Ptr} {β : Nat → Backend} {m : Mem T} (hβ : ∀ n, ValidBackend (β n)) (hi : i0 ≤ i1) (hj : j0 ≤ j1) (hk : k0 ≤ k1) (hg : 1 ≤ gcw)
    (h : F.Args m [(F.cell3d u i0 j0 k0 i1 j1 k1 gcw), (F.face3d0 b0 i0 j0 k0 i1 j1 k1 0), (F.face3d1 b1 i0 j0 k0 i1 j1 k1 0), (F.face3d2 b2 i0 j0 k0 i1 j1 k1 0)] [(F.face3d0 f0 i0 j0 k0 i1 j1 k1 0), (F.face3d1 f1 i0 j0 k0 i1 j1 k1 0), (F.face3d2 f2 i0 j0 k0 i1 j1 k1 0)])
    (hp : F.Apart (F.face3d0 f0 i0 j0 k0 i1 j1 k1 0) (F.face3d1 f1 i0 j0 k0 i1 j1 k1 0) ∧ F.Apart (F.face3d0 f0 i0 j0 k0 i1 j1 k1 0) (F.face3d2 f2 i0 j0 k0 i1 j1 k1 0) ∧ F.Apart (F.face3d1 f1 i0 j0 k0 i1 j1 k1 0) (F.face3d2 f2 i0 j0 k0 i1 j1 k1 0)) :
    ∃ m', Cuda.flux3d i0 j0 k0 i1 j1 k1 dx b0 b1 b2 gcw u f0 f1 f2 β m = .ok m' ∧ F.Kept [(F.face3d0 f0 i0 j0 k0 i1 j1 k1 0), (F.face3d1 f1 i0 j0 k0 i1 j1 k1 0), (F.face3d2 f2 i0 j0 k0 i1 j1 k1 0)] m m' ∧
      (∀ i j k, i0 ≤ i → i ≤ i1 + 1 → j0 ≤ j → j ≤ j1 → k0 ≤ k → k ≤ k1 → F.El m' (F.face3d0 f0 i0 j0 k0 i1 j1 k1 0) [i, j, k] (F.rd m (F.face3d0 b0 i0 j0 k0 i1 j1 k1 0) [i, j, k] * ((F.rd m (F.cell3d u i0 j0 k0 i1 j1 k1 gcw) [i, j, k] - F.rd m (F.cell3d u i0 j0 k0 i1 j1 k1 gcw) [i - 1, j, k]) / dx 0))) ∧
      (∀ i j k, i0 ≤ i → i ≤ i1 → j0 ≤ j → j ≤ j1 + 1 → k0 ≤ k → k ≤ k1 → F.El m' (F.face3d1 f1 i0 j0 k0 i1 j1 k1 0) [j, k, i] (F.rd m (F.face3d1 b1 i0 j0 k0 i1 j1 k1 0) [j, k, i] * ((F.rd m (F.cell3d u i0 j0 k0 i1 j1 k1 gcw) [i, j, k] - F.rd m (F.cell3d u i0 j0 k0 i1 j1 k1 gcw) [i, j - 1, k]) / dx 1))) ∧
      (∀ i j k, i0 ≤ i → i ≤ i1 → j0 ≤ j → j ≤ j1 → k0 ≤ k → k ≤ k1 + 1 → F.El m' (F.face3d2 f2 i0 j0 k0 i1 j1 k1 0) [k, i, j] (F.rd m (F.face3d2 b2 i0 j0 k0 i1 j1 k1 0) [k, i, j] * ((F.rd m (F.cell3d u i0 j0 k0 i1 j1 k1 gcw) [i, j, k] - F.rd m (F.cell3d u i0 j0 k0 i1 j1 k1 gcw) [i, j, k - 1]) / dx 2))) := by
  obtain ⟨m', q, -, K⟩ := gradflux3_run (dx := dx) hi hj hk hg h hp
  obtain ⟨m1, c, e⟩ := gradflux3_eq (dx := dx) hβ hi hj hk hg h
  obtain rfl : m' = m1 := Except.ok.inj (q.symm.trans e)
  exact ⟨m', c, K⟩

end Verif
