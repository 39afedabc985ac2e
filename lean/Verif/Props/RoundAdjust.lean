import Verif.Props.RoundStencil

/-
C49: the kernels that adjust the stencil coefficients at a boundary, and their Fortran routines, in arithmetic without laws.
-/

namespace Verif
open Spec

set_option linter.unusedVariables false
set_option linter.unusedSimpArgs false
set_option linter.unusedTactic false
set_option linter.unreachableTactic false

variable {T : Type} [Zero T] [One T] [NatCast T] [IntCast T] [Add T] [Sub T] [Mul T] [Div T] [Neg T] [Pow T Nat]

/-- `cd_stencil_1d_cuda::adj_diag` and `adjcelldiffusiondiag1d` leave the same memory, for every schedule and in every arithmetic, wherever multiplying by the coefficient before or after dividing by the mesh width is the same. -/
theorem C49_adj_diag_1d {i0 i1 pi0 pi1 side btype exOrder sgcw : Int} {dx : Nat → T} {beta : T} {b0_ st_ : Ptr} {β : Backend} {m : Mem T}
    (hβ : ValidBackend β)
    (l4 : btype = 4 → exOrder = 2 → ∀ b, beta / dx 0 * b = beta * b / dx 0)
    (hi : i0 ≤ i1) (hg : 0 ≤ sgcw) (hl : Layer1 i0 i1 0 pi0 pi1 side)
    (h : F.Args m [F.face1d b0_ i0 i1 0] [F.st1d st_ i0 i1 sgcw]) :
    ∃ m', Cuda.adjDiag1d i0 i1 pi0 pi1 side btype exOrder dx beta b0_ sgcw st_ β m = .ok m' ∧ F.adjcelldiffusiondiag1d i0 i1 pi0 pi1 side btype exOrder dx beta b0_ sgcw st_ m = .ok m' := by
  have hst := h.ok (F.st1d st_ i0 i1 sgcw) (by simp)
  obtain ⟨Ast, spst, Ii⟩ := st1_setup hst hi hg
  have hb0 := h.ok (F.face1d b0_ i0 i1 0) (by simp)
  obtain ⟨Ab0, plI, J0⟩ := face1_setup hb0 hi
  have Pb0 : Apart (sSt1 st_ i0 i1 sgcw) (sFace1 b0_ i0 i1) := apart_of farr_st1 farr_face1 (h.apart _ (by simp) _ (by simp))
  have mkI := mkB_near (d := .I) (lo := i0) (hi := i1) (by rng)
  have mkW := mkB_near (d := .W) (lo := 0) (hi := 2) (by rng)
  obtain ⟨hs, hx, nI⟩ := hl
  have mkPI := mkB_near (d := .I) (lo := pi0) nI.2
  show Both (Cuda.adjDiag1d i0 i1 pi0 pi1 side btype exOrder dx beta b0_ sgcw st_ β m) (F.adjcelldiffusiondiag1d i0 i1 pi0 pi1 side btype exOrder dx beta b0_ sgcw st_) m
  unfold Cuda.adjDiag1d F.adjcelldiffusiondiag1d
  rcases hs with rfl | rfl
  · refine Both.bind mkI <| Both.bind mkPI <| Both.bind mkW <| Both.bind spst <| Both.bind plI <| ?_
    simp only [↓reduceIte, Int.reduceEq, F.doLoop_skip, ← farr_st1]
    by_cases t4 : btype = 4
    · subst t4
      by_cases o2 : exOrder = 2
      · subst o2
        simp only [↓reduceIte, Int.reduceEq, F.doLoop_skip, F.block_skip.1, F.block_skip.2, ne_eq, not_true_eq_false, not_false_eq_true, false_and, and_false, and_self, and_true, true_and]
        exact Both.bind (localize_ok (l := pi0 - 2 * 0 + 1) (by omega) nI.1 rfl) <| diag4 (seg1 Ast (by omega) (by omega)) (by omega) hβ (face_at1 Ab0 Pb0 (by omega) (by omega) (by omega)) (l4 rfl rfl)
      by_cases o1 : exOrder = 1
      · subst o1
        simp only [Cuda.adjDiagBt4, Cuda.adjDiagBt0, ↓reduceIte, Int.reduceEq, F.doLoop_skip, F.block_skip.1, F.block_skip.2, ite_self, ne_eq, not_true_eq_false, not_false_eq_true, false_and, and_false, and_self, and_true, true_and]
        first | exact Both.skip | exact Both.bind (localize_ok (l := pi0 - 2 * 0 + 1) (by omega) nI.1 rfl) <| Both.skip
      simp only [Cuda.adjDiagBt4, Cuda.adjDiagBt0, o2, o1, ↓reduceIte, Int.reduceEq, F.doLoop_skip, F.block_skip.1, F.block_skip.2, ite_self, ne_eq, not_true_eq_false, not_false_eq_true, false_and, and_false, and_self, and_true, true_and]
      first | exact Both.skip | exact Both.bind (localize_ok (l := pi0 - 2 * 0 + 1) (by omega) nI.1 rfl) <| Both.skip
    by_cases t1 : btype = 1
    · subst t1
      simp only [Cuda.adjDiagBt4, Cuda.adjDiagBt0, ↓reduceIte, Int.reduceEq, F.doLoop_skip, F.block_skip.1, F.block_skip.2, ite_self, ne_eq, not_true_eq_false, not_false_eq_true, false_and, and_false, and_self, and_true, true_and]
      first | exact Both.skip | exact Both.bind (localize_ok (l := pi0 - 2 * 0 + 1) (by omega) nI.1 rfl) <| Both.skip
    by_cases t0 : btype = 0
    · subst t0
      simp only [Cuda.adjDiagBt4, Cuda.adjDiagBt0, ↓reduceIte, Int.reduceEq, F.doLoop_skip, F.block_skip.1, F.block_skip.2, ite_self, ne_eq, not_true_eq_false, not_false_eq_true, false_and, and_false, and_self, and_true, true_and]
      first | exact Both.skip | exact Both.bind (localize_ok (l := pi0 - 2 * 0 + 1) (by omega) nI.1 rfl) <| Both.skip
    simp only [Cuda.adjDiagBt4, Cuda.adjDiagBt0, t4, t1, t0, ↓reduceIte, Int.reduceEq, F.doLoop_skip, F.block_skip.1, F.block_skip.2, ite_self, ne_eq, not_true_eq_false, not_false_eq_true, false_and, and_false, and_self, and_true, true_and]
    first | exact Both.skip | exact Both.bind (localize_ok (l := pi0 - 2 * 0 + 1) (by omega) nI.1 rfl) <| Both.skip
  · refine Both.bind mkI <| Both.bind mkPI <| Both.bind mkW <| Both.bind spst <| Both.bind plI <| ?_
    simp only [↓reduceIte, Int.reduceEq, F.doLoop_skip, ← farr_st1]
    by_cases t4 : btype = 4
    · subst t4
      by_cases o2 : exOrder = 2
      · subst o2
        simp only [↓reduceIte, Int.reduceEq, F.doLoop_skip, F.block_skip.1, F.block_skip.2, ne_eq, not_true_eq_false, not_false_eq_true, false_and, and_false, and_self, and_true, true_and]
        exact Both.bind (localize_ok (l := pi0 - 2 * 1 + 1) (by omega) nI.1 rfl) <| diag4 (seg1 Ast (by omega) (by omega)) (by omega) hβ (face_at1 Ab0 Pb0 (by omega) (by omega) (by omega)) (l4 rfl rfl)
      by_cases o1 : exOrder = 1
      · subst o1
        simp only [Cuda.adjDiagBt4, Cuda.adjDiagBt0, ↓reduceIte, Int.reduceEq, F.doLoop_skip, F.block_skip.1, F.block_skip.2, ite_self, ne_eq, not_true_eq_false, not_false_eq_true, false_and, and_false, and_self, and_true, true_and]
        first | exact Both.skip | exact Both.bind (localize_ok (l := pi0 - 2 * 1 + 1) (by omega) nI.1 rfl) <| Both.skip
      simp only [Cuda.adjDiagBt4, Cuda.adjDiagBt0, o2, o1, ↓reduceIte, Int.reduceEq, F.doLoop_skip, F.block_skip.1, F.block_skip.2, ite_self, ne_eq, not_true_eq_false, not_false_eq_true, false_and, and_false, and_self, and_true, true_and]
      first | exact Both.skip | exact Both.bind (localize_ok (l := pi0 - 2 * 1 + 1) (by omega) nI.1 rfl) <| Both.skip
    by_cases t1 : btype = 1
    · subst t1
      simp only [Cuda.adjDiagBt4, Cuda.adjDiagBt0, ↓reduceIte, Int.reduceEq, F.doLoop_skip, F.block_skip.1, F.block_skip.2, ite_self, ne_eq, not_true_eq_false, not_false_eq_true, false_and, and_false, and_self, and_true, true_and]
      first | exact Both.skip | exact Both.bind (localize_ok (l := pi0 - 2 * 1 + 1) (by omega) nI.1 rfl) <| Both.skip
    by_cases t0 : btype = 0
    · subst t0
      simp only [Cuda.adjDiagBt4, Cuda.adjDiagBt0, ↓reduceIte, Int.reduceEq, F.doLoop_skip, F.block_skip.1, F.block_skip.2, ite_self, ne_eq, not_true_eq_false, not_false_eq_true, false_and, and_false, and_self, and_true, true_and]
      first | exact Both.skip | exact Both.bind (localize_ok (l := pi0 - 2 * 1 + 1) (by omega) nI.1 rfl) <| Both.skip
    simp only [Cuda.adjDiagBt4, Cuda.adjDiagBt0, t4, t1, t0, ↓reduceIte, Int.reduceEq, F.doLoop_skip, F.block_skip.1, F.block_skip.2, ite_self, ne_eq, not_true_eq_false, not_false_eq_true, false_and, and_false, and_self, and_true, true_and]
    first | exact Both.skip | exact Both.bind (localize_ok (l := pi0 - 2 * 1 + 1) (by omega) nI.1 rfl) <| Both.skip

example : ∃ m', Cuda.adjDiag1d 0 3 4 4 1 4 2 exDx 2 ⟨0, 0⟩ 1 ⟨1, 0⟩ revBackend exRat = .ok m' ∧
    F.adjcelldiffusiondiag1d 0 3 4 4 1 4 2 exDx 2 ⟨0, 0⟩ 1 ⟨1, 0⟩ exRat = .ok m' :=
  C49_adj_diag_1d revBackend_ok (fun _ _ _ => by ring) (by decide) (by decide) (by constructor <;> (try simp only [InInt]) <;> decide) (by ex_args)

/-- `cd_stencil_1d_cuda::adj_poisson_diag` and `adjcellpoissondiag1d` leave the same memory, for every schedule and in every arithmetic: they perform the same operations. -/
theorem C49_adj_poisson_diag_1d {i0 i1 pi0 pi1 side btype exOrder sgcw : Int} {dx : Nat → T} {beta : T} {st_ : Ptr} {β : Backend} {m : Mem T}
    (hβ : ValidBackend β) (hi : i0 ≤ i1) (hg : 0 ≤ sgcw) (hl : Layer1 i0 i1 sgcw pi0 pi1 side)
    (h : F.Args m [] [F.st1d st_ i0 i1 sgcw]) :
    ∃ m', Cuda.adjPoissonDiag1d i0 i1 pi0 pi1 side btype exOrder dx beta sgcw st_ β m = .ok m' ∧ F.adjcellpoissondiag1d i0 i1 pi0 pi1 side btype exOrder dx beta sgcw st_ m = .ok m' := by
  have hst := h.ok (F.st1d st_ i0 i1 sgcw) (by simp)
  obtain ⟨Ast, spst, Ii⟩ := st1_setup hst hi hg
  have mkI := mkB_near (d := .I) (lo := i0) (hi := i1) (by rng)
  have mkW := mkB_near (d := .W) (lo := 0) (hi := 2) (by rng)
  obtain ⟨hs, hx, nI⟩ := hl
  have mkPI := mkB_near (d := .I) (lo := pi0) nI.2
  show Both (Cuda.adjPoissonDiag1d i0 i1 pi0 pi1 side btype exOrder dx beta sgcw st_ β m) (F.adjcellpoissondiag1d i0 i1 pi0 pi1 side btype exOrder dx beta sgcw st_) m
  unfold Cuda.adjPoissonDiag1d F.adjcellpoissondiag1d
  rcases hs with rfl | rfl
  · refine Both.bind mkI <| Both.bind mkPI <| Both.bind mkW <| Both.bind spst <| ?_
    simp only [↓reduceIte, Int.reduceEq, F.doLoop_skip, ← farr_st1]
    by_cases t4 : btype = 4
    · subst t4
      by_cases o2 : exOrder = 2
      · subst o2
        simp only [↓reduceIte, Int.reduceEq, F.doLoop_skip, F.block_skip.1, F.block_skip.2, ne_eq, not_true_eq_false, not_false_eq_true, false_and, and_false, and_self, and_true, true_and]
        exact Both.bind (localize_ok (l := pi0 - 2 * 0 + 1) (by omega) nI.1 rfl) <| pdiag4 (seg1 Ast (by omega) (by omega)) (by omega) hβ
      by_cases o1 : exOrder = 1
      · subst o1
        simp only [↓reduceIte, Int.reduceEq, F.doLoop_skip, F.block_skip.1, F.block_skip.2, ite_self, ne_eq, not_true_eq_false, not_false_eq_true, false_and, and_false, and_self, and_true, true_and]
        first | exact Both.skip | exact Both.bind (localize_ok (l := pi0 - 2 * 0 + 1) (by omega) nI.1 rfl) <| Both.skip
      simp only [o2, o1, ↓reduceIte, Int.reduceEq, F.doLoop_skip, F.block_skip.1, F.block_skip.2, ite_self, ne_eq, not_true_eq_false, not_false_eq_true, false_and, and_false, and_self, and_true, true_and]
      first | exact Both.skip | exact Both.bind (localize_ok (l := pi0 - 2 * 0 + 1) (by omega) nI.1 rfl) <| Both.skip
    by_cases t1 : btype = 1
    · subst t1
      simp only [↓reduceIte, Int.reduceEq, F.doLoop_skip, F.block_skip.1, F.block_skip.2, ite_self, ne_eq, not_true_eq_false, not_false_eq_true, false_and, and_false, and_self, and_true, true_and]
      first | exact Both.skip | exact Both.bind (localize_ok (l := pi0 - 2 * 0 + 1) (by omega) nI.1 rfl) <| Both.skip
    by_cases t0 : btype = 0
    · subst t0
      simp only [↓reduceIte, Int.reduceEq, F.doLoop_skip, F.block_skip.1, F.block_skip.2, ite_self, ne_eq, not_true_eq_false, not_false_eq_true, false_and, and_false, and_self, and_true, true_and]
      first | exact Both.skip | exact Both.bind (localize_ok (l := pi0 - 2 * 0 + 1) (by omega) nI.1 rfl) <| Both.skip
    simp only [t4, t1, t0, ↓reduceIte, Int.reduceEq, F.doLoop_skip, F.block_skip.1, F.block_skip.2, ite_self, ne_eq, not_true_eq_false, not_false_eq_true, false_and, and_false, and_self, and_true, true_and]
    first | exact Both.skip | exact Both.bind (localize_ok (l := pi0 - 2 * 0 + 1) (by omega) nI.1 rfl) <| Both.skip
  · refine Both.bind mkI <| Both.bind mkPI <| Both.bind mkW <| Both.bind spst <| ?_
    simp only [↓reduceIte, Int.reduceEq, F.doLoop_skip, ← farr_st1]
    by_cases t4 : btype = 4
    · subst t4
      by_cases o2 : exOrder = 2
      · subst o2
        simp only [↓reduceIte, Int.reduceEq, F.doLoop_skip, F.block_skip.1, F.block_skip.2, ne_eq, not_true_eq_false, not_false_eq_true, false_and, and_false, and_self, and_true, true_and]
        exact Both.bind (localize_ok (l := pi0 - 2 * 1 + 1) (by omega) nI.1 rfl) <| pdiag4 (seg1 Ast (by omega) (by omega)) (by omega) hβ
      by_cases o1 : exOrder = 1
      · subst o1
        simp only [↓reduceIte, Int.reduceEq, F.doLoop_skip, F.block_skip.1, F.block_skip.2, ite_self, ne_eq, not_true_eq_false, not_false_eq_true, false_and, and_false, and_self, and_true, true_and]
        first | exact Both.skip | exact Both.bind (localize_ok (l := pi0 - 2 * 1 + 1) (by omega) nI.1 rfl) <| Both.skip
      simp only [o2, o1, ↓reduceIte, Int.reduceEq, F.doLoop_skip, F.block_skip.1, F.block_skip.2, ite_self, ne_eq, not_true_eq_false, not_false_eq_true, false_and, and_false, and_self, and_true, true_and]
      first | exact Both.skip | exact Both.bind (localize_ok (l := pi0 - 2 * 1 + 1) (by omega) nI.1 rfl) <| Both.skip
    by_cases t1 : btype = 1
    · subst t1
      simp only [↓reduceIte, Int.reduceEq, F.doLoop_skip, F.block_skip.1, F.block_skip.2, ite_self, ne_eq, not_true_eq_false, not_false_eq_true, false_and, and_false, and_self, and_true, true_and]
      first | exact Both.skip | exact Both.bind (localize_ok (l := pi0 - 2 * 1 + 1) (by omega) nI.1 rfl) <| Both.skip
    by_cases t0 : btype = 0
    · subst t0
      simp only [↓reduceIte, Int.reduceEq, F.doLoop_skip, F.block_skip.1, F.block_skip.2, ite_self, ne_eq, not_true_eq_false, not_false_eq_true, false_and, and_false, and_self, and_true, true_and]
      first | exact Both.skip | exact Both.bind (localize_ok (l := pi0 - 2 * 1 + 1) (by omega) nI.1 rfl) <| Both.skip
    simp only [t4, t1, t0, ↓reduceIte, Int.reduceEq, F.doLoop_skip, F.block_skip.1, F.block_skip.2, ite_self, ne_eq, not_true_eq_false, not_false_eq_true, false_and, and_false, and_self, and_true, true_and]
    first | exact Both.skip | exact Both.bind (localize_ok (l := pi0 - 2 * 1 + 1) (by omega) nI.1 rfl) <| Both.skip

example : ∃ m', Cuda.adjPoissonDiag1d 0 3 4 4 1 4 2 exDxB 2 1 ⟨1, 0⟩ revBackend exB64 = .ok m' ∧
    F.adjcellpoissondiag1d 0 3 4 4 1 4 2 exDxB 2 1 ⟨1, 0⟩ exB64 = .ok m' :=
  C49_adj_poisson_diag_1d revBackend_ok (by decide) (by decide) (by constructor <;> (try simp only [InInt]) <;> decide) (by ex_argsB)

/-- `cd_stencil_1d_cuda::adj_cf_diag` and `adjcelldiffusioncfdiag1d` leave the same memory, for every schedule and in every arithmetic, wherever the coefficient may be multiplied in before or after the divisions. -/
theorem C49_adj_cf_diag_1d {i0 i1 pi0 pi1 r side intOrder sgcw : Int} {dx : Nat → T} {beta : T} {b0_ st_ : Ptr} {β : Backend} {m : Mem T}
    (hβ : ValidBackend β)
    (l1 : intOrder = 1 → ∀ b, beta / (dx 0 * dx 0) / 3 * b = beta * b / (3 * dx 0 ^ 2))
    (l2 : intOrder = 2 → ∀ b, beta / (dx 0 * dx 0) * (2 * ((r : T) - 1) / ((r : T) + 1)) * b = (2 * ((r : T) - 1) / ((r : T) + 1)) * beta * b / dx 0 ^ 2)
    (hi : i0 ≤ i1) (hg : 0 ≤ sgcw) (hl : Layer1 i0 i1 0 pi0 pi1 side)
    (h : F.Args m [F.face1d b0_ i0 i1 0] [F.st1d st_ i0 i1 sgcw]) :
    ∃ m', Cuda.adjCfDiag1d i0 i1 pi0 pi1 r side intOrder dx beta b0_ sgcw st_ β m = .ok m' ∧ F.adjcelldiffusioncfdiag1d i0 i1 pi0 pi1 r side intOrder dx beta b0_ sgcw st_ m = .ok m' := by
  have hst := h.ok (F.st1d st_ i0 i1 sgcw) (by simp)
  obtain ⟨Ast, spst, Ii⟩ := st1_setup hst hi hg
  have hb0 := h.ok (F.face1d b0_ i0 i1 0) (by simp)
  obtain ⟨Ab0, plI, J0⟩ := face1_setup hb0 hi
  have Pb0 : Apart (sSt1 st_ i0 i1 sgcw) (sFace1 b0_ i0 i1) := apart_of farr_st1 farr_face1 (h.apart _ (by simp) _ (by simp))
  have mkI := mkB_near (d := .I) (lo := i0) (hi := i1) (by rng)
  have mkW := mkB_near (d := .W) (lo := 0) (hi := 2) (by rng)
  obtain ⟨hs, hx, nI⟩ := hl
  show Both (Cuda.adjCfDiag1d i0 i1 pi0 pi1 r side intOrder dx beta b0_ sgcw st_ β m) (F.adjcelldiffusioncfdiag1d i0 i1 pi0 pi1 r side intOrder dx beta b0_ sgcw st_) m
  unfold Cuda.adjCfDiag1d F.adjcelldiffusioncfdiag1d
  rcases hs with rfl | rfl
  · refine Both.bind mkI <| Both.bind mkW <| Both.bind spst <| Both.bind plI <| Both.bind (localize_ok (l := pi0 - 2 * 0 + 1) (by omega) nI.1 rfl) <| ?_
    simp only [↓reduceIte, Int.reduceEq, F.doLoop_skip, ← farr_st1]
    by_cases o1 : intOrder = 1
    · subst o1
      simp only [↓reduceIte, Int.reduceEq, F.doLoop_skip, F.block_skip.1, F.block_skip.2, ne_eq, not_true_eq_false, not_false_eq_true, false_and, and_false, and_self, and_true, true_and]
      exact cf1 (seg1 Ast (by omega) (by omega)) (by omega) hβ (face_at1 Ab0 Pb0 (by omega) (by omega) (by omega)) (l1 rfl)
    by_cases o2 : intOrder = 2
    · subst o2
      simp only [o1, ↓reduceIte, Int.reduceEq, F.doLoop_skip, F.block_skip.1, F.block_skip.2, ne_eq, not_true_eq_false, not_false_eq_true, false_and, and_false, and_self, and_true, true_and]
      exact cf2 (seg1 Ast (by omega) (by omega)) (by omega) hβ (face_at1 Ab0 Pb0 (by omega) (by omega) (by omega)) (l2 rfl)
    simp only [Cuda.adjCfDiagFunc, o1, o2, ↓reduceIte, Int.reduceEq, F.doLoop_skip, F.block_skip.1, F.block_skip.2, ite_self, ne_eq, not_true_eq_false, not_false_eq_true, false_and, and_false, and_self, and_true, true_and]
    exact Both.skip
  · refine Both.bind mkI <| Both.bind mkW <| Both.bind spst <| Both.bind plI <| Both.bind (localize_ok (l := pi0 - 2 * 1 + 1) (by omega) nI.1 rfl) <| ?_
    simp only [↓reduceIte, Int.reduceEq, F.doLoop_skip, ← farr_st1]
    by_cases o1 : intOrder = 1
    · subst o1
      simp only [↓reduceIte, Int.reduceEq, F.doLoop_skip, F.block_skip.1, F.block_skip.2, ne_eq, not_true_eq_false, not_false_eq_true, false_and, and_false, and_self, and_true, true_and]
      exact cf1 (seg1 Ast (by omega) (by omega)) (by omega) hβ (face_at1 Ab0 Pb0 (by omega) (by omega) (by omega)) (l1 rfl)
    by_cases o2 : intOrder = 2
    · subst o2
      simp only [o1, ↓reduceIte, Int.reduceEq, F.doLoop_skip, F.block_skip.1, F.block_skip.2, ne_eq, not_true_eq_false, not_false_eq_true, false_and, and_false, and_self, and_true, true_and]
      exact cf2 (seg1 Ast (by omega) (by omega)) (by omega) hβ (face_at1 Ab0 Pb0 (by omega) (by omega) (by omega)) (l2 rfl)
    simp only [Cuda.adjCfDiagFunc, o1, o2, ↓reduceIte, Int.reduceEq, F.doLoop_skip, F.block_skip.1, F.block_skip.2, ite_self, ne_eq, not_true_eq_false, not_false_eq_true, false_and, and_false, and_self, and_true, true_and]
    exact Both.skip

example : ∃ m', Cuda.adjCfDiag1d 0 3 4 4 2 1 2 exDx 2 ⟨0, 0⟩ 1 ⟨1, 0⟩ revBackend exRat = .ok m' ∧
    F.adjcelldiffusioncfdiag1d 0 3 4 4 2 1 2 exDx 2 ⟨0, 0⟩ 1 ⟨1, 0⟩ exRat = .ok m' :=
  C49_adj_cf_diag_1d revBackend_ok (fun _ _ => by ring) (fun _ _ => by ring) (by decide) (by decide) (by constructor <;> (try simp only [InInt]) <;> decide) (by ex_args)

/-- `cd_stencil_1d_cuda::adj_poisson_cf_diag` and `adjcellpoissoncfdiag1d` leave the same memory, for every schedule and in every arithmetic, wherever the two orders of dividing by the square of the mesh width agree. -/
theorem C49_adj_poisson_cf_diag_1d {i0 i1 pi0 pi1 r side intOrder sgcw : Int} {dx : Nat → T} {beta : T} {st_ : Ptr} {β : Backend} {m : Mem T}
    (hβ : ValidBackend β)
    (l1 : intOrder = 1 → beta / (dx 0 * dx 0) / 3 = beta / (3 * dx 0 ^ 2))
    (l2 : intOrder = 2 → beta / (dx 0 * dx 0) * (2 * ((r : T) - 1) / ((r : T) + 1)) = (2 * ((r : T) - 1) / ((r : T) + 1)) * beta / dx 0 ^ 2)
    (hi : i0 ≤ i1) (hg : 0 ≤ sgcw) (hl : Layer1 i0 i1 sgcw pi0 pi1 side)
    (h : F.Args m [] [F.st1d st_ i0 i1 sgcw]) :
    ∃ m', Cuda.adjPoissonCfDiag1d i0 i1 pi0 pi1 r side intOrder dx beta sgcw st_ β m = .ok m' ∧ F.adjcellpoissoncfdiag1d i0 i1 pi0 pi1 r side intOrder dx beta sgcw st_ m = .ok m' := by
  have hst := h.ok (F.st1d st_ i0 i1 sgcw) (by simp)
  obtain ⟨Ast, spst, Ii⟩ := st1_setup hst hi hg
  have mkI := mkB_near (d := .I) (lo := i0) (hi := i1) (by rng)
  have mkW := mkB_near (d := .W) (lo := 0) (hi := 2) (by rng)
  obtain ⟨hs, hx, nI⟩ := hl
  show Both (Cuda.adjPoissonCfDiag1d i0 i1 pi0 pi1 r side intOrder dx beta sgcw st_ β m) (F.adjcellpoissoncfdiag1d i0 i1 pi0 pi1 r side intOrder dx beta sgcw st_) m
  unfold Cuda.adjPoissonCfDiag1d F.adjcellpoissoncfdiag1d
  rcases hs with rfl | rfl
  · refine Both.bind mkI <| Both.bind mkW <| Both.bind spst <| Both.bind (localize_ok (l := pi0 - 2 * 0 + 1) (by omega) nI.1 rfl) <| ?_
    simp only [↓reduceIte, Int.reduceEq, F.doLoop_skip, ← farr_st1]
    by_cases o1 : intOrder = 1
    · subst o1
      simp only [↓reduceIte, Int.reduceEq, F.doLoop_skip, F.block_skip.1, F.block_skip.2, ne_eq, not_true_eq_false, not_false_eq_true, false_and, and_false, and_self, and_true, true_and]
      exact pcf1 (seg1 Ast (by omega) (by omega)) (by omega) hβ (l1 rfl)
    by_cases o2 : intOrder = 2
    · subst o2
      simp only [o1, ↓reduceIte, Int.reduceEq, F.doLoop_skip, F.block_skip.1, F.block_skip.2, ne_eq, not_true_eq_false, not_false_eq_true, false_and, and_false, and_self, and_true, true_and]
      exact pcf2 (seg1 Ast (by omega) (by omega)) (by omega) hβ (l2 rfl)
    simp only [Cuda.adjPoissonCfDiagFunc, o1, o2, ↓reduceIte, Int.reduceEq, F.doLoop_skip, F.block_skip.1, F.block_skip.2, ite_self, ne_eq, not_true_eq_false, not_false_eq_true, false_and, and_false, and_self, and_true, true_and]
    exact Both.skip
  · refine Both.bind mkI <| Both.bind mkW <| Both.bind spst <| Both.bind (localize_ok (l := pi0 - 2 * 1 + 1) (by omega) nI.1 rfl) <| ?_
    simp only [↓reduceIte, Int.reduceEq, F.doLoop_skip, ← farr_st1]
    by_cases o1 : intOrder = 1
    · subst o1
      simp only [↓reduceIte, Int.reduceEq, F.doLoop_skip, F.block_skip.1, F.block_skip.2, ne_eq, not_true_eq_false, not_false_eq_true, false_and, and_false, and_self, and_true, true_and]
      exact pcf1 (seg1 Ast (by omega) (by omega)) (by omega) hβ (l1 rfl)
    by_cases o2 : intOrder = 2
    · subst o2
      simp only [o1, ↓reduceIte, Int.reduceEq, F.doLoop_skip, F.block_skip.1, F.block_skip.2, ne_eq, not_true_eq_false, not_false_eq_true, false_and, and_false, and_self, and_true, true_and]
      exact pcf2 (seg1 Ast (by omega) (by omega)) (by omega) hβ (l2 rfl)
    simp only [Cuda.adjPoissonCfDiagFunc, o1, o2, ↓reduceIte, Int.reduceEq, F.doLoop_skip, F.block_skip.1, F.block_skip.2, ite_self, ne_eq, not_true_eq_false, not_false_eq_true, false_and, and_false, and_self, and_true, true_and]
    exact Both.skip

example : ∃ m', Cuda.adjPoissonCfDiag1d 0 3 4 4 2 1 2 exDx 2 1 ⟨1, 0⟩ revBackend exRat = .ok m' ∧
    F.adjcellpoissoncfdiag1d 0 3 4 4 2 1 2 exDx 2 1 ⟨1, 0⟩ exRat = .ok m' :=
  C49_adj_poisson_cf_diag_1d revBackend_ok (fun _ => by ring) (fun _ => by ring) (by decide) (by decide) (by constructor <;> (try simp only [InInt]) <;> decide) (by ex_args)

/-- `cd_stencil_1d_cuda::adj_offdiag` and `adjcelldiffusionoffdiag1d` leave the same memory, for every schedule and in every arithmetic, wherever products commute and the sign of -9 may be taken out of a product; a Dirichlet face of second order also needs the two ways of taking eight thirds to agree. -/
theorem C49_adj_offdiag_1d {i0 i1 pi0 pi1 side btype exOrder sgcw : Int} {dx : Nat → T} {dir_factor neu_factor beta : T} {b0_ st_ : Ptr} {β : Backend} {m : Mem T}
    (hβ : ValidBackend β)
    (l41 : btype = 4 → exOrder = 1 → ∀ x y : T, x * y = y * x)
    (l42 : btype = 4 → exOrder = 2 → ∀ x : T, -9 * x = -(9 * x))
    (l0 : btype = 0 → exOrder = 2 → ∀ x : T, x * (8 / 3) = 8 * x / 3)
    (hi : i0 ≤ i1) (hg : 0 ≤ sgcw) (hl : Layer1 i0 i1 0 pi0 pi1 side)
    (h : F.Args m [F.face1d b0_ i0 i1 0] [F.st1d st_ i0 i1 sgcw]) :
    ∃ m', Cuda.adjOffdiag1d i0 i1 pi0 pi1 side btype exOrder dx dir_factor neu_factor beta b0_ sgcw st_ β m = .ok m' ∧ F.adjcelldiffusionoffdiag1d i0 i1 pi0 pi1 side btype exOrder dx dir_factor neu_factor beta b0_ sgcw st_ m = .ok m' := by
  have hst := h.ok (F.st1d st_ i0 i1 sgcw) (by simp)
  obtain ⟨Ast, spst, Ii⟩ := st1_setup hst hi hg
  have hb0 := h.ok (F.face1d b0_ i0 i1 0) (by simp)
  obtain ⟨Ab0, plI, J0⟩ := face1_setup hb0 hi
  have Pb0 : Apart (sSt1 st_ i0 i1 sgcw) (sFace1 b0_ i0 i1) := apart_of farr_st1 farr_face1 (h.apart _ (by simp) _ (by simp))
  have mkI := mkB_near (d := .I) (lo := i0) (hi := i1) (by rng)
  have mkW := mkB_near (d := .W) (lo := 0) (hi := 2) (by rng)
  obtain ⟨hs, hx, nI⟩ := hl
  show Both (Cuda.adjOffdiag1d i0 i1 pi0 pi1 side btype exOrder dx dir_factor neu_factor beta b0_ sgcw st_ β m) (F.adjcelldiffusionoffdiag1d i0 i1 pi0 pi1 side btype exOrder dx dir_factor neu_factor beta b0_ sgcw st_) m
  unfold Cuda.adjOffdiag1d F.adjcelldiffusionoffdiag1d
  rcases hs with rfl | rfl
  · refine Both.bind mkI <| Both.bind mkW <| Both.bind spst <| Both.bind plI <| Both.bind (a := (1 : Int)) rfl <| Both.bind (a := (2 : Int)) rfl <| Both.bind (localize_ok (l := pi0 - 2 * 0 + 1) (by omega) nI.1 rfl) <| ?_
    simp only [↓reduceIte, Int.reduceEq, F.doLoop_skip, ← farr_st1]
    by_cases t4 : btype = 4
    · subst t4
      by_cases o1 : exOrder = 1
      · subst o1
        simp only [↓reduceIte, Int.reduceEq, F.doLoop_skip, F.block_skip.1, F.block_skip.2, ne_eq, not_true_eq_false, not_false_eq_true, false_and, and_false, and_self, and_true, true_and]
        exact off4_1 (seg1 Ast (by omega) (by omega)) hβ (by omega) (face_at1 Ab0 Pb0 (by omega) (by omega) (by omega)) (l41 rfl rfl)
      by_cases o2 : exOrder = 2
      · subst o2
        simp only [o1, ↓reduceIte, Int.reduceEq, F.doLoop_skip, F.block_skip.1, F.block_skip.2, ne_eq, not_true_eq_false, not_false_eq_true, false_and, and_false, and_self, and_true, true_and]
        exact off4_2 (seg1 Ast (by omega) (by omega)) hβ (by omega) (by omega) (face_at1 Ab0 Pb0 (by omega) (by omega) (by omega)) (l42 rfl rfl)
      simp only [Cuda.adjOffdiagBt4, Cuda.adjOffdiagBt0, o1, o2, ↓reduceIte, Int.reduceEq, F.doLoop_skip, F.block_skip.1, F.block_skip.2, ite_self, ne_eq, not_true_eq_false, not_false_eq_true, false_and, and_false, and_self, and_true, true_and]
      exact Both.skip
    by_cases t0 : btype = 0
    · subst t0
      by_cases o1 : exOrder = 1
      · subst o1
        simp only [↓reduceIte, Int.reduceEq, F.doLoop_skip, F.block_skip.1, F.block_skip.2, ne_eq, not_true_eq_false, not_false_eq_true, false_and, and_false, and_self, and_true, true_and]
        exact off0_1 (seg1 Ast (by omega) (by omega)) hβ (by omega)
      by_cases o2 : exOrder = 2
      · subst o2
        simp only [o1, ↓reduceIte, Int.reduceEq, F.doLoop_skip, F.block_skip.1, F.block_skip.2, ne_eq, not_true_eq_false, not_false_eq_true, false_and, and_false, and_self, and_true, true_and]
        exact off0_2 (seg1 Ast (by omega) (by omega)) hβ (by omega) (by omega) (l0 rfl rfl)
      simp only [Cuda.adjOffdiagBt4, Cuda.adjOffdiagBt0, o1, o2, ↓reduceIte, Int.reduceEq, F.doLoop_skip, F.block_skip.1, F.block_skip.2, ite_self, ne_eq, not_true_eq_false, not_false_eq_true, false_and, and_false, and_self, and_true, true_and]
      exact Both.skip
    by_cases t1 : btype = 1
    · subst t1
      simp only [↓reduceIte, Int.reduceEq, F.doLoop_skip, F.block_skip.1, F.block_skip.2, ne_eq, not_true_eq_false, not_false_eq_true, false_and, and_false, and_self, and_true, true_and]
      exact off1 (seg1 Ast (by omega) (by omega)) hβ (by omega)
    simp only [Cuda.adjOffdiagBt4, Cuda.adjOffdiagBt0, t4, t0, t1, ↓reduceIte, Int.reduceEq, F.doLoop_skip, F.block_skip.1, F.block_skip.2, ite_self, ne_eq, not_true_eq_false, not_false_eq_true, false_and, and_false, and_self, and_true, true_and]
    exact Both.skip
  · refine Both.bind mkI <| Both.bind mkW <| Both.bind spst <| Both.bind plI <| Both.bind (a := (2 : Int)) rfl <| Both.bind (a := (1 : Int)) rfl <| Both.bind (localize_ok (l := pi0 - 2 * 1 + 1) (by omega) nI.1 rfl) <| ?_
    simp only [↓reduceIte, Int.reduceEq, F.doLoop_skip, ← farr_st1]
    by_cases t4 : btype = 4
    · subst t4
      by_cases o1 : exOrder = 1
      · subst o1
        simp only [↓reduceIte, Int.reduceEq, F.doLoop_skip, F.block_skip.1, F.block_skip.2, ne_eq, not_true_eq_false, not_false_eq_true, false_and, and_false, and_self, and_true, true_and]
        exact off4_1 (seg1 Ast (by omega) (by omega)) hβ (by omega) (face_at1 Ab0 Pb0 (by omega) (by omega) (by omega)) (l41 rfl rfl)
      by_cases o2 : exOrder = 2
      · subst o2
        simp only [o1, ↓reduceIte, Int.reduceEq, F.doLoop_skip, F.block_skip.1, F.block_skip.2, ne_eq, not_true_eq_false, not_false_eq_true, false_and, and_false, and_self, and_true, true_and]
        exact off4_2 (seg1 Ast (by omega) (by omega)) hβ (by omega) (by omega) (face_at1 Ab0 Pb0 (by omega) (by omega) (by omega)) (l42 rfl rfl)
      simp only [Cuda.adjOffdiagBt4, Cuda.adjOffdiagBt0, o1, o2, ↓reduceIte, Int.reduceEq, F.doLoop_skip, F.block_skip.1, F.block_skip.2, ite_self, ne_eq, not_true_eq_false, not_false_eq_true, false_and, and_false, and_self, and_true, true_and]
      exact Both.skip
    by_cases t0 : btype = 0
    · subst t0
      by_cases o1 : exOrder = 1
      · subst o1
        simp only [↓reduceIte, Int.reduceEq, F.doLoop_skip, F.block_skip.1, F.block_skip.2, ne_eq, not_true_eq_false, not_false_eq_true, false_and, and_false, and_self, and_true, true_and]
        exact off0_1 (seg1 Ast (by omega) (by omega)) hβ (by omega)
      by_cases o2 : exOrder = 2
      · subst o2
        simp only [o1, ↓reduceIte, Int.reduceEq, F.doLoop_skip, F.block_skip.1, F.block_skip.2, ne_eq, not_true_eq_false, not_false_eq_true, false_and, and_false, and_self, and_true, true_and]
        exact off0_2 (seg1 Ast (by omega) (by omega)) hβ (by omega) (by omega) (l0 rfl rfl)
      simp only [Cuda.adjOffdiagBt4, Cuda.adjOffdiagBt0, o1, o2, ↓reduceIte, Int.reduceEq, F.doLoop_skip, F.block_skip.1, F.block_skip.2, ite_self, ne_eq, not_true_eq_false, not_false_eq_true, false_and, and_false, and_self, and_true, true_and]
      exact Both.skip
    by_cases t1 : btype = 1
    · subst t1
      simp only [↓reduceIte, Int.reduceEq, F.doLoop_skip, F.block_skip.1, F.block_skip.2, ne_eq, not_true_eq_false, not_false_eq_true, false_and, and_false, and_self, and_true, true_and]
      exact off1 (seg1 Ast (by omega) (by omega)) hβ (by omega)
    simp only [Cuda.adjOffdiagBt4, Cuda.adjOffdiagBt0, t4, t0, t1, ↓reduceIte, Int.reduceEq, F.doLoop_skip, F.block_skip.1, F.block_skip.2, ite_self, ne_eq, not_true_eq_false, not_false_eq_true, false_and, and_false, and_self, and_true, true_and]
    exact Both.skip

example : ∃ m', Cuda.adjOffdiag1d 0 3 4 4 1 4 2 exDxB 2 3 4 ⟨0, 0⟩ 1 ⟨1, 0⟩ revBackend exB64 = .ok m' ∧
    F.adjcelldiffusionoffdiag1d 0 3 4 4 1 4 2 exDxB 2 3 4 ⟨0, 0⟩ 1 ⟨1, 0⟩ exB64 = .ok m' :=
  C49_adj_offdiag_1d revBackend_ok (fun _ _ => B64.mul_comm) (fun _ _ => B64.neg_mul _) (fun h => absurd h (by decide)) (by decide) (by decide) (by constructor <;> (try simp only [InInt]) <;> decide) (by ex_argsB)

/-- `cd_stencil_1d_cuda::adj_poisson_offdiag` and `adjcellpoissonoffdiag1d` leave the same memory, for every schedule and in every arithmetic, wherever products commute and the sign of -9 may be taken out of a product; a Dirichlet face of second order also needs the two ways of taking eight thirds to agree. -/
theorem C49_adj_poisson_offdiag_1d {i0 i1 pi0 pi1 side btype exOrder sgcw : Int} {dx : Nat → T} {dir_factor neu_factor beta : T} {st_ : Ptr} {β : Backend} {m : Mem T}
    (hβ : ValidBackend β)
    (l41 : btype = 4 → exOrder = 1 → ∀ x y : T, x * y = y * x)
    (l42 : btype = 4 → exOrder = 2 → ∀ x : T, -9 * x = -(9 * x))
    (l0 : btype = 0 → exOrder = 2 → ∀ x : T, x * (8 / 3) = 8 * x / 3)
    (hi : i0 ≤ i1) (hg : 0 ≤ sgcw) (hl : Layer1 i0 i1 sgcw pi0 pi1 side)
    (h : F.Args m [] [F.st1d st_ i0 i1 sgcw]) :
    ∃ m', Cuda.adjPoissonOffdiag1d i0 i1 pi0 pi1 side btype exOrder dx dir_factor neu_factor beta sgcw st_ β m = .ok m' ∧ F.adjcellpoissonoffdiag1d i0 i1 pi0 pi1 side btype exOrder dx dir_factor neu_factor beta sgcw st_ m = .ok m' := by
  have hst := h.ok (F.st1d st_ i0 i1 sgcw) (by simp)
  obtain ⟨Ast, spst, Ii⟩ := st1_setup hst hi hg
  have mkI := mkB_near (d := .I) (lo := i0) (hi := i1) (by rng)
  have mkW := mkB_near (d := .W) (lo := 0) (hi := 2) (by rng)
  obtain ⟨hs, hx, nI⟩ := hl
  show Both (Cuda.adjPoissonOffdiag1d i0 i1 pi0 pi1 side btype exOrder dx dir_factor neu_factor beta sgcw st_ β m) (F.adjcellpoissonoffdiag1d i0 i1 pi0 pi1 side btype exOrder dx dir_factor neu_factor beta sgcw st_) m
  unfold Cuda.adjPoissonOffdiag1d F.adjcellpoissonoffdiag1d
  rcases hs with rfl | rfl
  · refine Both.bind mkI <| Both.bind mkW <| Both.bind spst <| Both.bind (a := (1 : Int)) rfl <| Both.bind (a := (2 : Int)) rfl <| Both.bind (localize_ok (l := pi0 - 2 * 0 + 1) (by omega) nI.1 rfl) <| ?_
    simp only [↓reduceIte, Int.reduceEq, F.doLoop_skip, ← farr_st1]
    by_cases t4 : btype = 4
    · subst t4
      by_cases o1 : exOrder = 1
      · subst o1
        simp only [↓reduceIte, Int.reduceEq, F.doLoop_skip, F.block_skip.1, F.block_skip.2, ne_eq, not_true_eq_false, not_false_eq_true, false_and, and_false, and_self, and_true, true_and]
        exact poff4_1 (seg1 Ast (by omega) (by omega)) hβ (by omega) (l41 rfl rfl)
      by_cases o2 : exOrder = 2
      · subst o2
        simp only [o1, ↓reduceIte, Int.reduceEq, F.doLoop_skip, F.block_skip.1, F.block_skip.2, ne_eq, not_true_eq_false, not_false_eq_true, false_and, and_false, and_self, and_true, true_and]
        exact poff4_2 (seg1 Ast (by omega) (by omega)) hβ (by omega) (by omega) (l42 rfl rfl)
      simp only [Cuda.adjPoissonOffdiagBt4, Cuda.adjOffdiagBt0, o1, o2, ↓reduceIte, Int.reduceEq, F.doLoop_skip, F.block_skip.1, F.block_skip.2, ite_self, ne_eq, not_true_eq_false, not_false_eq_true, false_and, and_false, and_self, and_true, true_and]
      exact Both.skip
    by_cases t0 : btype = 0
    · subst t0
      by_cases o1 : exOrder = 1
      · subst o1
        simp only [↓reduceIte, Int.reduceEq, F.doLoop_skip, F.block_skip.1, F.block_skip.2, ne_eq, not_true_eq_false, not_false_eq_true, false_and, and_false, and_self, and_true, true_and]
        exact off0_1 (seg1 Ast (by omega) (by omega)) hβ (by omega)
      by_cases o2 : exOrder = 2
      · subst o2
        simp only [o1, ↓reduceIte, Int.reduceEq, F.doLoop_skip, F.block_skip.1, F.block_skip.2, ne_eq, not_true_eq_false, not_false_eq_true, false_and, and_false, and_self, and_true, true_and]
        exact off0_2 (seg1 Ast (by omega) (by omega)) hβ (by omega) (by omega) (l0 rfl rfl)
      simp only [Cuda.adjPoissonOffdiagBt4, Cuda.adjOffdiagBt0, o1, o2, ↓reduceIte, Int.reduceEq, F.doLoop_skip, F.block_skip.1, F.block_skip.2, ite_self, ne_eq, not_true_eq_false, not_false_eq_true, false_and, and_false, and_self, and_true, true_and]
      exact Both.skip
    by_cases t1 : btype = 1
    · subst t1
      simp only [↓reduceIte, Int.reduceEq, F.doLoop_skip, F.block_skip.1, F.block_skip.2, ne_eq, not_true_eq_false, not_false_eq_true, false_and, and_false, and_self, and_true, true_and]
      exact off1 (seg1 Ast (by omega) (by omega)) hβ (by omega)
    simp only [Cuda.adjPoissonOffdiagBt4, Cuda.adjOffdiagBt0, t4, t0, t1, ↓reduceIte, Int.reduceEq, F.doLoop_skip, F.block_skip.1, F.block_skip.2, ite_self, ne_eq, not_true_eq_false, not_false_eq_true, false_and, and_false, and_self, and_true, true_and]
    exact Both.skip
  · refine Both.bind mkI <| Both.bind mkW <| Both.bind spst <| Both.bind (a := (2 : Int)) rfl <| Both.bind (a := (1 : Int)) rfl <| Both.bind (localize_ok (l := pi0 - 2 * 1 + 1) (by omega) nI.1 rfl) <| ?_
    simp only [↓reduceIte, Int.reduceEq, F.doLoop_skip, ← farr_st1]
    by_cases t4 : btype = 4
    · subst t4
      by_cases o1 : exOrder = 1
      · subst o1
        simp only [↓reduceIte, Int.reduceEq, F.doLoop_skip, F.block_skip.1, F.block_skip.2, ne_eq, not_true_eq_false, not_false_eq_true, false_and, and_false, and_self, and_true, true_and]
        exact poff4_1 (seg1 Ast (by omega) (by omega)) hβ (by omega) (l41 rfl rfl)
      by_cases o2 : exOrder = 2
      · subst o2
        simp only [o1, ↓reduceIte, Int.reduceEq, F.doLoop_skip, F.block_skip.1, F.block_skip.2, ne_eq, not_true_eq_false, not_false_eq_true, false_and, and_false, and_self, and_true, true_and]
        exact poff4_2 (seg1 Ast (by omega) (by omega)) hβ (by omega) (by omega) (l42 rfl rfl)
      simp only [Cuda.adjPoissonOffdiagBt4, Cuda.adjOffdiagBt0, o1, o2, ↓reduceIte, Int.reduceEq, F.doLoop_skip, F.block_skip.1, F.block_skip.2, ite_self, ne_eq, not_true_eq_false, not_false_eq_true, false_and, and_false, and_self, and_true, true_and]
      exact Both.skip
    by_cases t0 : btype = 0
    · subst t0
      by_cases o1 : exOrder = 1
      · subst o1
        simp only [↓reduceIte, Int.reduceEq, F.doLoop_skip, F.block_skip.1, F.block_skip.2, ne_eq, not_true_eq_false, not_false_eq_true, false_and, and_false, and_self, and_true, true_and]
        exact off0_1 (seg1 Ast (by omega) (by omega)) hβ (by omega)
      by_cases o2 : exOrder = 2
      · subst o2
        simp only [o1, ↓reduceIte, Int.reduceEq, F.doLoop_skip, F.block_skip.1, F.block_skip.2, ne_eq, not_true_eq_false, not_false_eq_true, false_and, and_false, and_self, and_true, true_and]
        exact off0_2 (seg1 Ast (by omega) (by omega)) hβ (by omega) (by omega) (l0 rfl rfl)
      simp only [Cuda.adjPoissonOffdiagBt4, Cuda.adjOffdiagBt0, o1, o2, ↓reduceIte, Int.reduceEq, F.doLoop_skip, F.block_skip.1, F.block_skip.2, ite_self, ne_eq, not_true_eq_false, not_false_eq_true, false_and, and_false, and_self, and_true, true_and]
      exact Both.skip
    by_cases t1 : btype = 1
    · subst t1
      simp only [↓reduceIte, Int.reduceEq, F.doLoop_skip, F.block_skip.1, F.block_skip.2, ne_eq, not_true_eq_false, not_false_eq_true, false_and, and_false, and_self, and_true, true_and]
      exact off1 (seg1 Ast (by omega) (by omega)) hβ (by omega)
    simp only [Cuda.adjPoissonOffdiagBt4, Cuda.adjOffdiagBt0, t4, t0, t1, ↓reduceIte, Int.reduceEq, F.doLoop_skip, F.block_skip.1, F.block_skip.2, ite_self, ne_eq, not_true_eq_false, not_false_eq_true, false_and, and_false, and_self, and_true, true_and]
    exact Both.skip

example : ∃ m', Cuda.adjPoissonOffdiag1d 0 3 4 4 1 4 2 exDxB 2 3 4 1 ⟨1, 0⟩ revBackend exB64 = .ok m' ∧
    F.adjcellpoissonoffdiag1d 0 3 4 4 1 4 2 exDxB 2 3 4 1 ⟨1, 0⟩ exB64 = .ok m' :=
  C49_adj_poisson_offdiag_1d revBackend_ok (fun _ _ => B64.mul_comm) (fun _ _ => B64.neg_mul _) (fun h => absurd h (by decide)) (by decide) (by decide) (by constructor <;> (try simp only [InInt]) <;> decide) (by ex_argsB)

/-- `cd_stencil_1d_cuda::adj_cf_offdiag` and `adjcelldiffusioncfoffdiag1d` leave the same memory, for every schedule and in every arithmetic, wherever the multiple of a quotient is the quotient of the multiple. -/
theorem C49_adj_cf_offdiag_1d {i0 i1 ci0 ci1 r side intOrder sgcw : Int} {st_ : Ptr} {β : Backend} {m : Mem T}
    (hβ : ValidBackend β)
    (l1 : intOrder = 1 → ∀ x : T, x * (2 / 3) = 2 * x / 3)
    (l2 : intOrder = 2 → (∀ x : T, x * (((r : T) - 1) / ((r : T) + 3)) = x * ((r : T) - 1) / ((r : T) + 3)) ∧
      ∀ x : T, x * (8 / (((r : T) + 1) * ((r : T) + 3))) = 8 * x / (((r : T) + 1) * ((r : T) + 3)))
    (hi : i0 ≤ i1) (hg : 0 ≤ sgcw) (hl : Layer1 i0 i1 sgcw ci0 ci1 side)
    (h : F.Args m [] [F.st1d st_ i0 i1 sgcw]) :
    ∃ m', Cuda.adjCfOffdiag1d i0 i1 ci0 ci1 r side intOrder sgcw st_ β m = .ok m' ∧ F.adjcelldiffusioncfoffdiag1d i0 i1 ci0 ci1 r side intOrder sgcw st_ m = .ok m' := by
  have hst := h.ok (F.st1d st_ i0 i1 sgcw) (by simp)
  obtain ⟨Ast, spst, Ii⟩ := st1_setup hst hi hg
  have mkI := mkB_near (d := .I) (lo := i0) (hi := i1) (by rng)
  have mkW := mkB_near (d := .W) (lo := 0) (hi := 2) (by rng)
  obtain ⟨hs, hx, nI⟩ := hl
  show Both (Cuda.adjCfOffdiag1d i0 i1 ci0 ci1 r side intOrder sgcw st_ β m) (F.adjcelldiffusioncfoffdiag1d i0 i1 ci0 ci1 r side intOrder sgcw st_) m
  unfold Cuda.adjCfOffdiag1d F.adjcelldiffusioncfoffdiag1d
  rcases hs with rfl | rfl
  · refine Both.bind mkI <| Both.bind (localize_ok (l := ci0 - 2 * 0 + 1) (by omega) nI.1 rfl) <| Both.bind mkW <| Both.bind spst <| Both.bind (a := (1 : Int)) rfl <| Both.bind (a := (2 : Int)) rfl <| ?_
    simp only [↓reduceIte, Int.reduceEq, F.doLoop_skip, ← farr_st1]
    by_cases o1 : intOrder = 1
    · subst o1
      simp only [↓reduceIte, Int.reduceEq, F.doLoop_skip, F.block_skip.1, F.block_skip.2, ne_eq, not_true_eq_false, not_false_eq_true, false_and, and_false, and_self, and_true, true_and]
      exact cfo1 (seg1 Ast (by omega) (by omega)) hβ (by omega) (l1 rfl)
    by_cases o2 : intOrder = 2
    · subst o2
      simp only [o1, ↓reduceIte, Int.reduceEq, F.doLoop_skip, F.block_skip.1, F.block_skip.2, ne_eq, not_true_eq_false, not_false_eq_true, false_and, and_false, and_self, and_true, true_and]
      exact cfo2 (seg1 Ast (by omega) (by omega)) hβ (by omega) (by omega) (l2 rfl)
    simp only [Cuda.adjCfOffdiagFunc, o1, o2, ↓reduceIte, Int.reduceEq, F.doLoop_skip, F.block_skip.1, F.block_skip.2, ite_self, ne_eq, not_true_eq_false, not_false_eq_true, false_and, and_false, and_self, and_true, true_and]
    exact Both.skip
  · refine Both.bind mkI <| Both.bind (localize_ok (l := ci0 - 2 * 1 + 1) (by omega) nI.1 rfl) <| Both.bind mkW <| Both.bind spst <| Both.bind (a := (2 : Int)) rfl <| Both.bind (a := (1 : Int)) rfl <| ?_
    simp only [↓reduceIte, Int.reduceEq, F.doLoop_skip, ← farr_st1]
    by_cases o1 : intOrder = 1
    · subst o1
      simp only [↓reduceIte, Int.reduceEq, F.doLoop_skip, F.block_skip.1, F.block_skip.2, ne_eq, not_true_eq_false, not_false_eq_true, false_and, and_false, and_self, and_true, true_and]
      exact cfo1 (seg1 Ast (by omega) (by omega)) hβ (by omega) (l1 rfl)
    by_cases o2 : intOrder = 2
    · subst o2
      simp only [o1, ↓reduceIte, Int.reduceEq, F.doLoop_skip, F.block_skip.1, F.block_skip.2, ne_eq, not_true_eq_false, not_false_eq_true, false_and, and_false, and_self, and_true, true_and]
      exact cfo2 (seg1 Ast (by omega) (by omega)) hβ (by omega) (by omega) (l2 rfl)
    simp only [Cuda.adjCfOffdiagFunc, o1, o2, ↓reduceIte, Int.reduceEq, F.doLoop_skip, F.block_skip.1, F.block_skip.2, ite_self, ne_eq, not_true_eq_false, not_false_eq_true, false_and, and_false, and_self, and_true, true_and]
    exact Both.skip

example : ∃ m', Cuda.adjCfOffdiag1d 0 3 4 4 2 1 2 1 ⟨0, 0⟩ revBackend exRat = .ok m' ∧
    F.adjcelldiffusioncfoffdiag1d 0 3 4 4 2 1 2 1 ⟨0, 0⟩ exRat = .ok m' :=
  C49_adj_cf_offdiag_1d revBackend_ok (fun _ _ => by ring) (fun _ => ⟨fun _ => by ring, fun _ => by ring⟩) (by decide) (by decide) (by constructor <;> (try simp only [InInt]) <;> decide) (by ex_args)

/-- `cd_stencil_2d_cuda::adj_diag` and `adjcelldiffusiondiag2d` leave the same memory, for every schedule and in every arithmetic, wherever multiplying by the coefficient before or after dividing by the mesh width is the same. -/
theorem C49_adj_diag_2d {i0 j0 i1 j1 pi0 pj0 pi1 pj1 dir side btype exOrder sgcw : Int} {dx : Nat → T} {beta : T} {b0_ b1_ st_ : Ptr} {β : Backend} {m : Mem T}
    (hβ : ValidBackend β)
    (l4 : btype = 4 → exOrder = 2 → ∀ b, beta / dx dir.toNat * b = beta * b / dx dir.toNat)
    (l0 : btype = 0 → exOrder = 2 → ∀ b, beta / (3 * dx dir.toNat * dx dir.toNat) * b = beta * b / (3 * dx dir.toNat ^ 2))
    (hi : i0 ≤ i1) (hj : j0 ≤ j1) (hg : 0 ≤ sgcw) (hs1 : btype = 0 → side = 1 → 1 ≤ sgcw) (hl : Layer2 i0 j0 i1 j1 0 pi0 pj0 pi1 pj1 dir side)
    (h : F.Args m [F.face2d0 b0_ i0 j0 i1 j1 0, F.face2d1 b1_ i0 j0 i1 j1 0] [F.st2d st_ i0 j0 i1 j1 sgcw]) :
    ∃ m', Cuda.adjDiag2d i0 j0 i1 j1 pi0 pj0 pi1 pj1 dir side btype exOrder dx beta b0_ b1_ sgcw st_ β m = .ok m' ∧ F.adjcelldiffusiondiag2d i0 j0 i1 j1 pi0 pj0 pi1 pj1 dir side btype exOrder dx beta b0_ b1_ sgcw st_ m = .ok m' := by
  have hst := h.ok (F.st2d st_ i0 j0 i1 j1 sgcw) (by simp)
  obtain ⟨Ast, spst, Ii, Ij⟩ := st2_setup hst hi hj hg
  have hb0 := h.ok (F.face2d0 b0_ i0 j0 i1 j1 0) (by simp)
  obtain ⟨Ab0, plI, J0⟩ := face20_setup hb0 hi hj
  have Pb0 : Apart (sSt2 st_ i0 j0 i1 j1 sgcw) (sFace20 b0_ i0 j0 i1 j1) := apart_of farr_st2 farr_face20 (h.apart _ (by simp) _ (by simp))
  have hb1 := h.ok (F.face2d1 b1_ i0 j0 i1 j1 0) (by simp)
  obtain ⟨Ab1, plJ, J1⟩ := face21_setup hb1 hi hj
  have Pb1 : Apart (sSt2 st_ i0 j0 i1 j1 sgcw) (sFace21 b1_ i0 j0 i1 j1) := apart_of farr_st2 farr_face21 (h.apart _ (by simp) _ (by simp))
  have mkI := mkB_near (d := .I) (lo := i0) (hi := i1) (by rng)
  have mkJ := mkB_near (d := .J) (lo := j0) (hi := j1) (by rng)
  have mkW := mkB_near (d := .W) (lo := 0) (hi := 4) (by rng)
  obtain ⟨hd, hs, hx, hy, nI, nJ⟩ := hl
  have mkPI := mkB_near (d := .I) (lo := pi0) nI.2
  have mkPJ := mkB_near (d := .J) (lo := pj0) nJ.2
  have hd : dir = 0 ∨ dir = 1 := by omega
  show Both (Cuda.adjDiag2d i0 j0 i1 j1 pi0 pj0 pi1 pj1 dir side btype exOrder dx beta b0_ b1_ sgcw st_ β m) (F.adjcelldiffusiondiag2d i0 j0 i1 j1 pi0 pj0 pi1 pj1 dir side btype exOrder dx beta b0_ b1_ sgcw st_) m
  unfold Cuda.adjDiag2d F.adjcelldiffusiondiag2d
  rcases hd with rfl | rfl <;> rcases hs with rfl | rfl
  · replace hx := hx rfl
    refine Both.bind mkI <| Both.bind mkPI <| Both.bind mkJ <| Both.bind mkPJ <| Both.bind mkW <| Both.bind spst <| Both.bind plI <| Both.bind plJ <| Both.bind (a := dx 0) rfl <| ?_
    simp only [↓reduceIte, Int.reduceEq, F.doLoop_skip, ← farr_st2]
    by_cases t4 : btype = 4
    · subst t4
      by_cases o2 : exOrder = 2
      · subst o2
        simp only [↓reduceIte, Int.reduceEq, F.doLoop_skip, F.block_skip.1, F.block_skip.2, ne_eq, not_true_eq_false, not_false_eq_true, false_and, and_false, and_self, and_true, true_and]
        exact Both.bind (localize_ok (l := pi0 - 2 * 0 + 1) (by omega) nI.1 rfl) <| diag4 (seg2_0 Ast (by omega) (by omega) (by omega)) (by omega) hβ (face_at20 Ab0 Pb0 (by omega) (by omega) (by omega) (by omega)) (l4 rfl rfl)
      by_cases o1 : exOrder = 1
      · subst o1
        simp only [Cuda.adjDiagBt4, Cuda.adjDiagBt0, ↓reduceIte, Int.reduceEq, F.doLoop_skip, F.block_skip.1, F.block_skip.2, ite_self, ne_eq, not_true_eq_false, not_false_eq_true, false_and, and_false, and_self, and_true, true_and]
        first | exact Both.skip | exact Both.bind (localize_ok (l := pi0 - 2 * 0 + 1) (by omega) nI.1 rfl) <| Both.skip | exact Both.bind (localizeEdge_ok (l := pi0 - 0 + 1) (by omega) nI.1 rfl) <| Both.skip
      simp only [Cuda.adjDiagBt4, Cuda.adjDiagBt0, o2, o1, ↓reduceIte, Int.reduceEq, F.doLoop_skip, F.block_skip.1, F.block_skip.2, ite_self, ne_eq, not_true_eq_false, not_false_eq_true, false_and, and_false, and_self, and_true, true_and]
      first | exact Both.skip | exact Both.bind (localize_ok (l := pi0 - 2 * 0 + 1) (by omega) nI.1 rfl) <| Both.skip | exact Both.bind (localizeEdge_ok (l := pi0 - 0 + 1) (by omega) nI.1 rfl) <| Both.skip
    by_cases t0 : btype = 0
    · subst t0
      by_cases o2 : exOrder = 2
      · subst o2
        simp only [↓reduceIte, Int.reduceEq, F.doLoop_skip, F.block_skip.1, F.block_skip.2, ne_eq, not_true_eq_false, not_false_eq_true, false_and, and_false, and_self, and_true, true_and]
        exact Both.bind (localizeEdge_ok (l := pi0 - 0 + 1) (by omega) nI.1 rfl) <| diag0 (seg2_0 Ast (by omega) (by omega) (by omega)) (by omega) hβ (face_on20 Ab0 Pb0 (by omega) (by omega) (by omega)) (l0 rfl rfl)
      by_cases o1 : exOrder = 1
      · subst o1
        simp only [Cuda.adjDiagBt4, Cuda.adjDiagBt0, ↓reduceIte, Int.reduceEq, F.doLoop_skip, F.block_skip.1, F.block_skip.2, ite_self, ne_eq, not_true_eq_false, not_false_eq_true, false_and, and_false, and_self, and_true, true_and]
        first | exact Both.skip | exact Both.bind (localize_ok (l := pi0 - 2 * 0 + 1) (by omega) nI.1 rfl) <| Both.skip | exact Both.bind (localizeEdge_ok (l := pi0 - 0 + 1) (by omega) nI.1 rfl) <| Both.skip
      simp only [Cuda.adjDiagBt4, Cuda.adjDiagBt0, o2, o1, ↓reduceIte, Int.reduceEq, F.doLoop_skip, F.block_skip.1, F.block_skip.2, ite_self, ne_eq, not_true_eq_false, not_false_eq_true, false_and, and_false, and_self, and_true, true_and]
      first | exact Both.skip | exact Both.bind (localize_ok (l := pi0 - 2 * 0 + 1) (by omega) nI.1 rfl) <| Both.skip | exact Both.bind (localizeEdge_ok (l := pi0 - 0 + 1) (by omega) nI.1 rfl) <| Both.skip
    by_cases t1 : btype = 1
    · subst t1
      simp only [Cuda.adjDiagBt4, Cuda.adjDiagBt0, ↓reduceIte, Int.reduceEq, F.doLoop_skip, F.block_skip.1, F.block_skip.2, ite_self, ne_eq, not_true_eq_false, not_false_eq_true, false_and, and_false, and_self, and_true, true_and]
      first | exact Both.skip | exact Both.bind (localize_ok (l := pi0 - 2 * 0 + 1) (by omega) nI.1 rfl) <| Both.skip | exact Both.bind (localizeEdge_ok (l := pi0 - 0 + 1) (by omega) nI.1 rfl) <| Both.skip
    simp only [Cuda.adjDiagBt4, Cuda.adjDiagBt0, t4, t0, t1, ↓reduceIte, Int.reduceEq, F.doLoop_skip, F.block_skip.1, F.block_skip.2, ite_self, ne_eq, not_true_eq_false, not_false_eq_true, false_and, and_false, and_self, and_true, true_and]
    first | exact Both.skip | exact Both.bind (localize_ok (l := pi0 - 2 * 0 + 1) (by omega) nI.1 rfl) <| Both.skip | exact Both.bind (localizeEdge_ok (l := pi0 - 0 + 1) (by omega) nI.1 rfl) <| Both.skip
  · replace hx := hx rfl
    refine Both.bind mkI <| Both.bind mkPI <| Both.bind mkJ <| Both.bind mkPJ <| Both.bind mkW <| Both.bind spst <| Both.bind plI <| Both.bind plJ <| Both.bind (a := dx 0) rfl <| ?_
    simp only [↓reduceIte, Int.reduceEq, F.doLoop_skip, ← farr_st2]
    by_cases t4 : btype = 4
    · subst t4
      by_cases o2 : exOrder = 2
      · subst o2
        simp only [↓reduceIte, Int.reduceEq, F.doLoop_skip, F.block_skip.1, F.block_skip.2, ne_eq, not_true_eq_false, not_false_eq_true, false_and, and_false, and_self, and_true, true_and]
        exact Both.bind (localize_ok (l := pi0 - 2 * 1 + 1) (by omega) nI.1 rfl) <| diag4 (seg2_0 Ast (by omega) (by omega) (by omega)) (by omega) hβ (face_at20 Ab0 Pb0 (by omega) (by omega) (by omega) (by omega)) (l4 rfl rfl)
      by_cases o1 : exOrder = 1
      · subst o1
        simp only [Cuda.adjDiagBt4, Cuda.adjDiagBt0, ↓reduceIte, Int.reduceEq, F.doLoop_skip, F.block_skip.1, F.block_skip.2, ite_self, ne_eq, not_true_eq_false, not_false_eq_true, false_and, and_false, and_self, and_true, true_and]
        first | exact Both.skip | exact Both.bind (localize_ok (l := pi0 - 2 * 1 + 1) (by omega) nI.1 rfl) <| Both.skip | exact Both.bind (localizeEdge_ok (l := pi0 - 1 + 1) (by omega) nI.1 rfl) <| Both.skip
      simp only [Cuda.adjDiagBt4, Cuda.adjDiagBt0, o2, o1, ↓reduceIte, Int.reduceEq, F.doLoop_skip, F.block_skip.1, F.block_skip.2, ite_self, ne_eq, not_true_eq_false, not_false_eq_true, false_and, and_false, and_self, and_true, true_and]
      first | exact Both.skip | exact Both.bind (localize_ok (l := pi0 - 2 * 1 + 1) (by omega) nI.1 rfl) <| Both.skip | exact Both.bind (localizeEdge_ok (l := pi0 - 1 + 1) (by omega) nI.1 rfl) <| Both.skip
    by_cases t0 : btype = 0
    · subst t0
      by_cases o2 : exOrder = 2
      · subst o2
        simp only [↓reduceIte, Int.reduceEq, F.doLoop_skip, F.block_skip.1, F.block_skip.2, ne_eq, not_true_eq_false, not_false_eq_true, false_and, and_false, and_self, and_true, true_and]
        exact Both.bind (localizeEdge_ok (l := pi0 - 1 + 1) (by omega) nI.1 rfl) <| diag0 (seg2_0 Ast (by omega) (by omega) (by omega)) (by omega) hβ (face_on20 Ab0 Pb0 (by omega) (by omega) (by omega)) (l0 rfl rfl)
      by_cases o1 : exOrder = 1
      · subst o1
        simp only [Cuda.adjDiagBt4, Cuda.adjDiagBt0, ↓reduceIte, Int.reduceEq, F.doLoop_skip, F.block_skip.1, F.block_skip.2, ite_self, ne_eq, not_true_eq_false, not_false_eq_true, false_and, and_false, and_self, and_true, true_and]
        first | exact Both.skip | exact Both.bind (localize_ok (l := pi0 - 2 * 1 + 1) (by omega) nI.1 rfl) <| Both.skip | exact Both.bind (localizeEdge_ok (l := pi0 - 1 + 1) (by omega) nI.1 rfl) <| Both.skip
      simp only [Cuda.adjDiagBt4, Cuda.adjDiagBt0, o2, o1, ↓reduceIte, Int.reduceEq, F.doLoop_skip, F.block_skip.1, F.block_skip.2, ite_self, ne_eq, not_true_eq_false, not_false_eq_true, false_and, and_false, and_self, and_true, true_and]
      first | exact Both.skip | exact Both.bind (localize_ok (l := pi0 - 2 * 1 + 1) (by omega) nI.1 rfl) <| Both.skip | exact Both.bind (localizeEdge_ok (l := pi0 - 1 + 1) (by omega) nI.1 rfl) <| Both.skip
    by_cases t1 : btype = 1
    · subst t1
      simp only [Cuda.adjDiagBt4, Cuda.adjDiagBt0, ↓reduceIte, Int.reduceEq, F.doLoop_skip, F.block_skip.1, F.block_skip.2, ite_self, ne_eq, not_true_eq_false, not_false_eq_true, false_and, and_false, and_self, and_true, true_and]
      first | exact Both.skip | exact Both.bind (localize_ok (l := pi0 - 2 * 1 + 1) (by omega) nI.1 rfl) <| Both.skip | exact Both.bind (localizeEdge_ok (l := pi0 - 1 + 1) (by omega) nI.1 rfl) <| Both.skip
    simp only [Cuda.adjDiagBt4, Cuda.adjDiagBt0, t4, t0, t1, ↓reduceIte, Int.reduceEq, F.doLoop_skip, F.block_skip.1, F.block_skip.2, ite_self, ne_eq, not_true_eq_false, not_false_eq_true, false_and, and_false, and_self, and_true, true_and]
    first | exact Both.skip | exact Both.bind (localize_ok (l := pi0 - 2 * 1 + 1) (by omega) nI.1 rfl) <| Both.skip | exact Both.bind (localizeEdge_ok (l := pi0 - 1 + 1) (by omega) nI.1 rfl) <| Both.skip
  · replace hy := hy rfl
    refine Both.bind mkI <| Both.bind mkPI <| Both.bind mkJ <| Both.bind mkPJ <| Both.bind mkW <| Both.bind spst <| Both.bind plI <| Both.bind plJ <| Both.bind (a := dx 1) rfl <| ?_
    simp only [↓reduceIte, Int.reduceEq, F.doLoop_skip, ← farr_st2]
    by_cases t4 : btype = 4
    · subst t4
      by_cases o2 : exOrder = 2
      · subst o2
        simp only [Cuda.adjDiagBt4, Cuda.adjDiagBt0, ↓reduceIte, Int.reduceEq, F.doLoop_skip, F.block_skip.1, F.block_skip.2, ite_self, ne_eq, not_true_eq_false, not_false_eq_true, false_and, and_false, and_self, and_true, true_and]
        first | exact Both.skip | exact Both.bind (localize_ok (l := pj0 - 2 * 0 + 1) (by omega) nJ.1 rfl) <| Both.skip | exact Both.bind (localizeEdge_ok (l := pj0 - 0 + 1) (by omega) nJ.1 rfl) <| Both.skip
      by_cases o1 : exOrder = 1
      · subst o1
        simp only [Cuda.adjDiagBt4, Cuda.adjDiagBt0, ↓reduceIte, Int.reduceEq, F.doLoop_skip, F.block_skip.1, F.block_skip.2, ite_self, ne_eq, not_true_eq_false, not_false_eq_true, false_and, and_false, and_self, and_true, true_and]
        first | exact Both.skip | exact Both.bind (localize_ok (l := pj0 - 2 * 0 + 1) (by omega) nJ.1 rfl) <| Both.skip | exact Both.bind (localizeEdge_ok (l := pj0 - 0 + 1) (by omega) nJ.1 rfl) <| Both.skip
      simp only [Cuda.adjDiagBt4, Cuda.adjDiagBt0, o2, o1, ↓reduceIte, Int.reduceEq, F.doLoop_skip, F.block_skip.1, F.block_skip.2, ite_self, ne_eq, not_true_eq_false, not_false_eq_true, false_and, and_false, and_self, and_true, true_and]
      first | exact Both.skip | exact Both.bind (localize_ok (l := pj0 - 2 * 0 + 1) (by omega) nJ.1 rfl) <| Both.skip | exact Both.bind (localizeEdge_ok (l := pj0 - 0 + 1) (by omega) nJ.1 rfl) <| Both.skip
    by_cases t0 : btype = 0
    · subst t0
      by_cases o2 : exOrder = 2
      · subst o2
        simp only [↓reduceIte, Int.reduceEq, F.doLoop_skip, F.block_skip.1, F.block_skip.2, ne_eq, not_true_eq_false, not_false_eq_true, false_and, and_false, and_self, and_true, true_and]
        exact Both.bind (localizeEdge_ok (l := pj0 - 0 + 1) (by omega) nJ.1 rfl) <| diag0 (seg2_1 Ast (by omega) (by omega) (by omega)) (by omega) hβ (face_on21 Ab1 Pb1 (by omega) (by omega) (by omega)) (l0 rfl rfl)
      by_cases o1 : exOrder = 1
      · subst o1
        simp only [Cuda.adjDiagBt4, Cuda.adjDiagBt0, ↓reduceIte, Int.reduceEq, F.doLoop_skip, F.block_skip.1, F.block_skip.2, ite_self, ne_eq, not_true_eq_false, not_false_eq_true, false_and, and_false, and_self, and_true, true_and]
        first | exact Both.skip | exact Both.bind (localize_ok (l := pj0 - 2 * 0 + 1) (by omega) nJ.1 rfl) <| Both.skip | exact Both.bind (localizeEdge_ok (l := pj0 - 0 + 1) (by omega) nJ.1 rfl) <| Both.skip
      simp only [Cuda.adjDiagBt4, Cuda.adjDiagBt0, o2, o1, ↓reduceIte, Int.reduceEq, F.doLoop_skip, F.block_skip.1, F.block_skip.2, ite_self, ne_eq, not_true_eq_false, not_false_eq_true, false_and, and_false, and_self, and_true, true_and]
      first | exact Both.skip | exact Both.bind (localize_ok (l := pj0 - 2 * 0 + 1) (by omega) nJ.1 rfl) <| Both.skip | exact Both.bind (localizeEdge_ok (l := pj0 - 0 + 1) (by omega) nJ.1 rfl) <| Both.skip
    by_cases t1 : btype = 1
    · subst t1
      simp only [Cuda.adjDiagBt4, Cuda.adjDiagBt0, ↓reduceIte, Int.reduceEq, F.doLoop_skip, F.block_skip.1, F.block_skip.2, ite_self, ne_eq, not_true_eq_false, not_false_eq_true, false_and, and_false, and_self, and_true, true_and]
      first | exact Both.skip | exact Both.bind (localize_ok (l := pj0 - 2 * 0 + 1) (by omega) nJ.1 rfl) <| Both.skip | exact Both.bind (localizeEdge_ok (l := pj0 - 0 + 1) (by omega) nJ.1 rfl) <| Both.skip
    simp only [Cuda.adjDiagBt4, Cuda.adjDiagBt0, t4, t0, t1, ↓reduceIte, Int.reduceEq, F.doLoop_skip, F.block_skip.1, F.block_skip.2, ite_self, ne_eq, not_true_eq_false, not_false_eq_true, false_and, and_false, and_self, and_true, true_and]
    first | exact Both.skip | exact Both.bind (localize_ok (l := pj0 - 2 * 0 + 1) (by omega) nJ.1 rfl) <| Both.skip | exact Both.bind (localizeEdge_ok (l := pj0 - 0 + 1) (by omega) nJ.1 rfl) <| Both.skip
  · replace hy := hy rfl
    refine Both.bind mkI <| Both.bind mkPI <| Both.bind mkJ <| Both.bind mkPJ <| Both.bind mkW <| Both.bind spst <| Both.bind plI <| Both.bind plJ <| Both.bind (a := dx 1) rfl <| ?_
    simp only [↓reduceIte, Int.reduceEq, F.doLoop_skip, ← farr_st2]
    by_cases t4 : btype = 4
    · subst t4
      by_cases o2 : exOrder = 2
      · subst o2
        simp only [Cuda.adjDiagBt4, Cuda.adjDiagBt0, ↓reduceIte, Int.reduceEq, F.doLoop_skip, F.block_skip.1, F.block_skip.2, ite_self, ne_eq, not_true_eq_false, not_false_eq_true, false_and, and_false, and_self, and_true, true_and]
        first | exact Both.skip | exact Both.bind (localize_ok (l := pj0 - 2 * 1 + 1) (by omega) nJ.1 rfl) <| Both.skip | exact Both.bind (localizeEdge_ok (l := pj0 - 1 + 1) (by omega) nJ.1 rfl) <| Both.skip
      by_cases o1 : exOrder = 1
      · subst o1
        simp only [Cuda.adjDiagBt4, Cuda.adjDiagBt0, ↓reduceIte, Int.reduceEq, F.doLoop_skip, F.block_skip.1, F.block_skip.2, ite_self, ne_eq, not_true_eq_false, not_false_eq_true, false_and, and_false, and_self, and_true, true_and]
        first | exact Both.skip | exact Both.bind (localize_ok (l := pj0 - 2 * 1 + 1) (by omega) nJ.1 rfl) <| Both.skip | exact Both.bind (localizeEdge_ok (l := pj0 - 1 + 1) (by omega) nJ.1 rfl) <| Both.skip
      simp only [Cuda.adjDiagBt4, Cuda.adjDiagBt0, o2, o1, ↓reduceIte, Int.reduceEq, F.doLoop_skip, F.block_skip.1, F.block_skip.2, ite_self, ne_eq, not_true_eq_false, not_false_eq_true, false_and, and_false, and_self, and_true, true_and]
      first | exact Both.skip | exact Both.bind (localize_ok (l := pj0 - 2 * 1 + 1) (by omega) nJ.1 rfl) <| Both.skip | exact Both.bind (localizeEdge_ok (l := pj0 - 1 + 1) (by omega) nJ.1 rfl) <| Both.skip
    by_cases t0 : btype = 0
    · subst t0
      by_cases o2 : exOrder = 2
      · subst o2
        simp only [↓reduceIte, Int.reduceEq, F.doLoop_skip, F.block_skip.1, F.block_skip.2, ne_eq, not_true_eq_false, not_false_eq_true, false_and, and_false, and_self, and_true, true_and]
        exact Both.bind (localizeEdge_ok (l := pj0 - 1 + 1) (by omega) nJ.1 rfl) <| diag0 (seg2_1 Ast (by omega) (by omega) (by omega)) (by omega) hβ (face_on21 Ab1 Pb1 (by omega) (by omega) (by omega)) (l0 rfl rfl)
      by_cases o1 : exOrder = 1
      · subst o1
        simp only [Cuda.adjDiagBt4, Cuda.adjDiagBt0, ↓reduceIte, Int.reduceEq, F.doLoop_skip, F.block_skip.1, F.block_skip.2, ite_self, ne_eq, not_true_eq_false, not_false_eq_true, false_and, and_false, and_self, and_true, true_and]
        first | exact Both.skip | exact Both.bind (localize_ok (l := pj0 - 2 * 1 + 1) (by omega) nJ.1 rfl) <| Both.skip | exact Both.bind (localizeEdge_ok (l := pj0 - 1 + 1) (by omega) nJ.1 rfl) <| Both.skip
      simp only [Cuda.adjDiagBt4, Cuda.adjDiagBt0, o2, o1, ↓reduceIte, Int.reduceEq, F.doLoop_skip, F.block_skip.1, F.block_skip.2, ite_self, ne_eq, not_true_eq_false, not_false_eq_true, false_and, and_false, and_self, and_true, true_and]
      first | exact Both.skip | exact Both.bind (localize_ok (l := pj0 - 2 * 1 + 1) (by omega) nJ.1 rfl) <| Both.skip | exact Both.bind (localizeEdge_ok (l := pj0 - 1 + 1) (by omega) nJ.1 rfl) <| Both.skip
    by_cases t1 : btype = 1
    · subst t1
      simp only [Cuda.adjDiagBt4, Cuda.adjDiagBt0, ↓reduceIte, Int.reduceEq, F.doLoop_skip, F.block_skip.1, F.block_skip.2, ite_self, ne_eq, not_true_eq_false, not_false_eq_true, false_and, and_false, and_self, and_true, true_and]
      first | exact Both.skip | exact Both.bind (localize_ok (l := pj0 - 2 * 1 + 1) (by omega) nJ.1 rfl) <| Both.skip | exact Both.bind (localizeEdge_ok (l := pj0 - 1 + 1) (by omega) nJ.1 rfl) <| Both.skip
    simp only [Cuda.adjDiagBt4, Cuda.adjDiagBt0, t4, t0, t1, ↓reduceIte, Int.reduceEq, F.doLoop_skip, F.block_skip.1, F.block_skip.2, ite_self, ne_eq, not_true_eq_false, not_false_eq_true, false_and, and_false, and_self, and_true, true_and]
    first | exact Both.skip | exact Both.bind (localize_ok (l := pj0 - 2 * 1 + 1) (by omega) nJ.1 rfl) <| Both.skip | exact Both.bind (localizeEdge_ok (l := pj0 - 1 + 1) (by omega) nJ.1 rfl) <| Both.skip

example : ∃ m', Cuda.adjDiag2d 0 0 3 2 4 0 4 2 0 1 4 2 exDx 2 ⟨0, 0⟩ ⟨1, 0⟩ 1 ⟨2, 0⟩ revBackend exRat = .ok m' ∧
    F.adjcelldiffusiondiag2d 0 0 3 2 4 0 4 2 0 1 4 2 exDx 2 ⟨0, 0⟩ ⟨1, 0⟩ 1 ⟨2, 0⟩ exRat = .ok m' :=
  C49_adj_diag_2d revBackend_ok (fun _ _ _ => by ring) (fun _ _ _ => by ring) (by decide) (by decide) (by decide) (by decide) (by constructor <;> (try simp only [InInt]) <;> decide) (by ex_args)

/-- `cd_stencil_2d_cuda::adj_poisson_diag` and `adjcellpoissondiag2d` leave the same memory, for every schedule and in every arithmetic: they perform the same operations. -/
theorem C49_adj_poisson_diag_2d {i0 j0 i1 j1 pi0 pj0 pi1 pj1 dir side btype exOrder sgcw : Int} {dx : Nat → T} {beta : T} {st_ : Ptr} {β : Backend} {m : Mem T}
    (hβ : ValidBackend β) (hi : i0 ≤ i1) (hj : j0 ≤ j1) (hg : 0 ≤ sgcw) (hl : Layer2 i0 j0 i1 j1 sgcw pi0 pj0 pi1 pj1 dir side)
    (h : F.Args m [] [F.st2d st_ i0 j0 i1 j1 sgcw]) :
    ∃ m', Cuda.adjPoissonDiag2d i0 j0 i1 j1 pi0 pj0 pi1 pj1 dir side btype exOrder dx beta sgcw st_ β m = .ok m' ∧ F.adjcellpoissondiag2d i0 j0 i1 j1 pi0 pj0 pi1 pj1 dir side btype exOrder dx beta sgcw st_ m = .ok m' := by
  have hst := h.ok (F.st2d st_ i0 j0 i1 j1 sgcw) (by simp)
  obtain ⟨Ast, spst, Ii, Ij⟩ := st2_setup hst hi hj hg
  have mkI := mkB_near (d := .I) (lo := i0) (hi := i1) (by rng)
  have mkJ := mkB_near (d := .J) (lo := j0) (hi := j1) (by rng)
  have mkW := mkB_near (d := .W) (lo := 0) (hi := 4) (by rng)
  obtain ⟨hd, hs, hx, hy, nI, nJ⟩ := hl
  have mkPI := mkB_near (d := .I) (lo := pi0) nI.2
  have mkPJ := mkB_near (d := .J) (lo := pj0) nJ.2
  have hd : dir = 0 ∨ dir = 1 := by omega
  show Both (Cuda.adjPoissonDiag2d i0 j0 i1 j1 pi0 pj0 pi1 pj1 dir side btype exOrder dx beta sgcw st_ β m) (F.adjcellpoissondiag2d i0 j0 i1 j1 pi0 pj0 pi1 pj1 dir side btype exOrder dx beta sgcw st_) m
  unfold Cuda.adjPoissonDiag2d F.adjcellpoissondiag2d
  rcases hd with rfl | rfl <;> rcases hs with rfl | rfl
  · replace hx := hx rfl
    refine Both.bind mkI <| Both.bind mkPI <| Both.bind mkJ <| Both.bind mkPJ <| Both.bind mkW <| Both.bind spst <| Both.bind (a := dx 0) rfl <| ?_
    simp only [↓reduceIte, Int.reduceEq, F.doLoop_skip, ← farr_st2]
    by_cases t4 : btype = 4
    · subst t4
      by_cases o2 : exOrder = 2
      · subst o2
        simp only [↓reduceIte, Int.reduceEq, F.doLoop_skip, F.block_skip.1, F.block_skip.2, ne_eq, not_true_eq_false, not_false_eq_true, false_and, and_false, and_self, and_true, true_and]
        exact Both.bind (localize_ok (l := pi0 - 2 * 0 + 1) (by omega) nI.1 rfl) <| pdiag4 (seg2_0 Ast (by omega) (by omega) (by omega)) (by omega) hβ
      by_cases o1 : exOrder = 1
      · subst o1
        simp only [↓reduceIte, Int.reduceEq, F.doLoop_skip, F.block_skip.1, F.block_skip.2, ite_self, ne_eq, not_true_eq_false, not_false_eq_true, false_and, and_false, and_self, and_true, true_and]
        first | exact Both.skip | exact Both.bind (localize_ok (l := pi0 - 2 * 0 + 1) (by omega) nI.1 rfl) <| Both.skip | exact Both.bind (localizeEdge_ok (l := pi0 - 0 + 1) (by omega) nI.1 rfl) <| Both.skip
      simp only [o2, o1, ↓reduceIte, Int.reduceEq, F.doLoop_skip, F.block_skip.1, F.block_skip.2, ite_self, ne_eq, not_true_eq_false, not_false_eq_true, false_and, and_false, and_self, and_true, true_and]
      first | exact Both.skip | exact Both.bind (localize_ok (l := pi0 - 2 * 0 + 1) (by omega) nI.1 rfl) <| Both.skip | exact Both.bind (localizeEdge_ok (l := pi0 - 0 + 1) (by omega) nI.1 rfl) <| Both.skip
    by_cases t1 : btype = 1
    · subst t1
      simp only [↓reduceIte, Int.reduceEq, F.doLoop_skip, F.block_skip.1, F.block_skip.2, ite_self, ne_eq, not_true_eq_false, not_false_eq_true, false_and, and_false, and_self, and_true, true_and]
      first | exact Both.skip | exact Both.bind (localize_ok (l := pi0 - 2 * 0 + 1) (by omega) nI.1 rfl) <| Both.skip | exact Both.bind (localizeEdge_ok (l := pi0 - 0 + 1) (by omega) nI.1 rfl) <| Both.skip
    by_cases t0 : btype = 0
    · subst t0
      simp only [↓reduceIte, Int.reduceEq, F.doLoop_skip, F.block_skip.1, F.block_skip.2, ite_self, ne_eq, not_true_eq_false, not_false_eq_true, false_and, and_false, and_self, and_true, true_and]
      first | exact Both.skip | exact Both.bind (localize_ok (l := pi0 - 2 * 0 + 1) (by omega) nI.1 rfl) <| Both.skip | exact Both.bind (localizeEdge_ok (l := pi0 - 0 + 1) (by omega) nI.1 rfl) <| Both.skip
    simp only [t4, t1, t0, ↓reduceIte, Int.reduceEq, F.doLoop_skip, F.block_skip.1, F.block_skip.2, ite_self, ne_eq, not_true_eq_false, not_false_eq_true, false_and, and_false, and_self, and_true, true_and]
    first | exact Both.skip | exact Both.bind (localize_ok (l := pi0 - 2 * 0 + 1) (by omega) nI.1 rfl) <| Both.skip | exact Both.bind (localizeEdge_ok (l := pi0 - 0 + 1) (by omega) nI.1 rfl) <| Both.skip
  · replace hx := hx rfl
    refine Both.bind mkI <| Both.bind mkPI <| Both.bind mkJ <| Both.bind mkPJ <| Both.bind mkW <| Both.bind spst <| Both.bind (a := dx 0) rfl <| ?_
    simp only [↓reduceIte, Int.reduceEq, F.doLoop_skip, ← farr_st2]
    by_cases t4 : btype = 4
    · subst t4
      by_cases o2 : exOrder = 2
      · subst o2
        simp only [↓reduceIte, Int.reduceEq, F.doLoop_skip, F.block_skip.1, F.block_skip.2, ne_eq, not_true_eq_false, not_false_eq_true, false_and, and_false, and_self, and_true, true_and]
        exact Both.bind (localize_ok (l := pi0 - 2 * 1 + 1) (by omega) nI.1 rfl) <| pdiag4 (seg2_0 Ast (by omega) (by omega) (by omega)) (by omega) hβ
      by_cases o1 : exOrder = 1
      · subst o1
        simp only [↓reduceIte, Int.reduceEq, F.doLoop_skip, F.block_skip.1, F.block_skip.2, ite_self, ne_eq, not_true_eq_false, not_false_eq_true, false_and, and_false, and_self, and_true, true_and]
        first | exact Both.skip | exact Both.bind (localize_ok (l := pi0 - 2 * 1 + 1) (by omega) nI.1 rfl) <| Both.skip | exact Both.bind (localizeEdge_ok (l := pi0 - 1 + 1) (by omega) nI.1 rfl) <| Both.skip
      simp only [o2, o1, ↓reduceIte, Int.reduceEq, F.doLoop_skip, F.block_skip.1, F.block_skip.2, ite_self, ne_eq, not_true_eq_false, not_false_eq_true, false_and, and_false, and_self, and_true, true_and]
      first | exact Both.skip | exact Both.bind (localize_ok (l := pi0 - 2 * 1 + 1) (by omega) nI.1 rfl) <| Both.skip | exact Both.bind (localizeEdge_ok (l := pi0 - 1 + 1) (by omega) nI.1 rfl) <| Both.skip
    by_cases t1 : btype = 1
    · subst t1
      simp only [↓reduceIte, Int.reduceEq, F.doLoop_skip, F.block_skip.1, F.block_skip.2, ite_self, ne_eq, not_true_eq_false, not_false_eq_true, false_and, and_false, and_self, and_true, true_and]
      first | exact Both.skip | exact Both.bind (localize_ok (l := pi0 - 2 * 1 + 1) (by omega) nI.1 rfl) <| Both.skip | exact Both.bind (localizeEdge_ok (l := pi0 - 1 + 1) (by omega) nI.1 rfl) <| Both.skip
    by_cases t0 : btype = 0
    · subst t0
      simp only [↓reduceIte, Int.reduceEq, F.doLoop_skip, F.block_skip.1, F.block_skip.2, ite_self, ne_eq, not_true_eq_false, not_false_eq_true, false_and, and_false, and_self, and_true, true_and]
      first | exact Both.skip | exact Both.bind (localize_ok (l := pi0 - 2 * 1 + 1) (by omega) nI.1 rfl) <| Both.skip | exact Both.bind (localizeEdge_ok (l := pi0 - 1 + 1) (by omega) nI.1 rfl) <| Both.skip
    simp only [t4, t1, t0, ↓reduceIte, Int.reduceEq, F.doLoop_skip, F.block_skip.1, F.block_skip.2, ite_self, ne_eq, not_true_eq_false, not_false_eq_true, false_and, and_false, and_self, and_true, true_and]
    first | exact Both.skip | exact Both.bind (localize_ok (l := pi0 - 2 * 1 + 1) (by omega) nI.1 rfl) <| Both.skip | exact Both.bind (localizeEdge_ok (l := pi0 - 1 + 1) (by omega) nI.1 rfl) <| Both.skip
  · replace hy := hy rfl
    refine Both.bind mkI <| Both.bind mkPI <| Both.bind mkJ <| Both.bind mkPJ <| Both.bind mkW <| Both.bind spst <| Both.bind (a := dx 1) rfl <| ?_
    simp only [↓reduceIte, Int.reduceEq, F.doLoop_skip, ← farr_st2]
    by_cases t4 : btype = 4
    · subst t4
      by_cases o2 : exOrder = 2
      · subst o2
        simp only [↓reduceIte, Int.reduceEq, F.doLoop_skip, F.block_skip.1, F.block_skip.2, ite_self, ne_eq, not_true_eq_false, not_false_eq_true, false_and, and_false, and_self, and_true, true_and]
        first | exact Both.skip | exact Both.bind (localize_ok (l := pj0 - 2 * 0 + 1) (by omega) nJ.1 rfl) <| Both.skip | exact Both.bind (localizeEdge_ok (l := pj0 - 0 + 1) (by omega) nJ.1 rfl) <| Both.skip
      by_cases o1 : exOrder = 1
      · subst o1
        simp only [↓reduceIte, Int.reduceEq, F.doLoop_skip, F.block_skip.1, F.block_skip.2, ite_self, ne_eq, not_true_eq_false, not_false_eq_true, false_and, and_false, and_self, and_true, true_and]
        first | exact Both.skip | exact Both.bind (localize_ok (l := pj0 - 2 * 0 + 1) (by omega) nJ.1 rfl) <| Both.skip | exact Both.bind (localizeEdge_ok (l := pj0 - 0 + 1) (by omega) nJ.1 rfl) <| Both.skip
      simp only [o2, o1, ↓reduceIte, Int.reduceEq, F.doLoop_skip, F.block_skip.1, F.block_skip.2, ite_self, ne_eq, not_true_eq_false, not_false_eq_true, false_and, and_false, and_self, and_true, true_and]
      first | exact Both.skip | exact Both.bind (localize_ok (l := pj0 - 2 * 0 + 1) (by omega) nJ.1 rfl) <| Both.skip | exact Both.bind (localizeEdge_ok (l := pj0 - 0 + 1) (by omega) nJ.1 rfl) <| Both.skip
    by_cases t1 : btype = 1
    · subst t1
      simp only [↓reduceIte, Int.reduceEq, F.doLoop_skip, F.block_skip.1, F.block_skip.2, ite_self, ne_eq, not_true_eq_false, not_false_eq_true, false_and, and_false, and_self, and_true, true_and]
      first | exact Both.skip | exact Both.bind (localize_ok (l := pj0 - 2 * 0 + 1) (by omega) nJ.1 rfl) <| Both.skip | exact Both.bind (localizeEdge_ok (l := pj0 - 0 + 1) (by omega) nJ.1 rfl) <| Both.skip
    by_cases t0 : btype = 0
    · subst t0
      simp only [↓reduceIte, Int.reduceEq, F.doLoop_skip, F.block_skip.1, F.block_skip.2, ite_self, ne_eq, not_true_eq_false, not_false_eq_true, false_and, and_false, and_self, and_true, true_and]
      first | exact Both.skip | exact Both.bind (localize_ok (l := pj0 - 2 * 0 + 1) (by omega) nJ.1 rfl) <| Both.skip | exact Both.bind (localizeEdge_ok (l := pj0 - 0 + 1) (by omega) nJ.1 rfl) <| Both.skip
    simp only [t4, t1, t0, ↓reduceIte, Int.reduceEq, F.doLoop_skip, F.block_skip.1, F.block_skip.2, ite_self, ne_eq, not_true_eq_false, not_false_eq_true, false_and, and_false, and_self, and_true, true_and]
    first | exact Both.skip | exact Both.bind (localize_ok (l := pj0 - 2 * 0 + 1) (by omega) nJ.1 rfl) <| Both.skip | exact Both.bind (localizeEdge_ok (l := pj0 - 0 + 1) (by omega) nJ.1 rfl) <| Both.skip
  · replace hy := hy rfl
    refine Both.bind mkI <| Both.bind mkPI <| Both.bind mkJ <| Both.bind mkPJ <| Both.bind mkW <| Both.bind spst <| Both.bind (a := dx 1) rfl <| ?_
    simp only [↓reduceIte, Int.reduceEq, F.doLoop_skip, ← farr_st2]
    by_cases t4 : btype = 4
    · subst t4
      by_cases o2 : exOrder = 2
      · subst o2
        simp only [↓reduceIte, Int.reduceEq, F.doLoop_skip, F.block_skip.1, F.block_skip.2, ite_self, ne_eq, not_true_eq_false, not_false_eq_true, false_and, and_false, and_self, and_true, true_and]
        first | exact Both.skip | exact Both.bind (localize_ok (l := pj0 - 2 * 1 + 1) (by omega) nJ.1 rfl) <| Both.skip | exact Both.bind (localizeEdge_ok (l := pj0 - 1 + 1) (by omega) nJ.1 rfl) <| Both.skip
      by_cases o1 : exOrder = 1
      · subst o1
        simp only [↓reduceIte, Int.reduceEq, F.doLoop_skip, F.block_skip.1, F.block_skip.2, ite_self, ne_eq, not_true_eq_false, not_false_eq_true, false_and, and_false, and_self, and_true, true_and]
        first | exact Both.skip | exact Both.bind (localize_ok (l := pj0 - 2 * 1 + 1) (by omega) nJ.1 rfl) <| Both.skip | exact Both.bind (localizeEdge_ok (l := pj0 - 1 + 1) (by omega) nJ.1 rfl) <| Both.skip
      simp only [o2, o1, ↓reduceIte, Int.reduceEq, F.doLoop_skip, F.block_skip.1, F.block_skip.2, ite_self, ne_eq, not_true_eq_false, not_false_eq_true, false_and, and_false, and_self, and_true, true_and]
      first | exact Both.skip | exact Both.bind (localize_ok (l := pj0 - 2 * 1 + 1) (by omega) nJ.1 rfl) <| Both.skip | exact Both.bind (localizeEdge_ok (l := pj0 - 1 + 1) (by omega) nJ.1 rfl) <| Both.skip
    by_cases t1 : btype = 1
    · subst t1
      simp only [↓reduceIte, Int.reduceEq, F.doLoop_skip, F.block_skip.1, F.block_skip.2, ite_self, ne_eq, not_true_eq_false, not_false_eq_true, false_and, and_false, and_self, and_true, true_and]
      first | exact Both.skip | exact Both.bind (localize_ok (l := pj0 - 2 * 1 + 1) (by omega) nJ.1 rfl) <| Both.skip | exact Both.bind (localizeEdge_ok (l := pj0 - 1 + 1) (by omega) nJ.1 rfl) <| Both.skip
    by_cases t0 : btype = 0
    · subst t0
      simp only [↓reduceIte, Int.reduceEq, F.doLoop_skip, F.block_skip.1, F.block_skip.2, ite_self, ne_eq, not_true_eq_false, not_false_eq_true, false_and, and_false, and_self, and_true, true_and]
      first | exact Both.skip | exact Both.bind (localize_ok (l := pj0 - 2 * 1 + 1) (by omega) nJ.1 rfl) <| Both.skip | exact Both.bind (localizeEdge_ok (l := pj0 - 1 + 1) (by omega) nJ.1 rfl) <| Both.skip
    simp only [t4, t1, t0, ↓reduceIte, Int.reduceEq, F.doLoop_skip, F.block_skip.1, F.block_skip.2, ite_self, ne_eq, not_true_eq_false, not_false_eq_true, false_and, and_false, and_self, and_true, true_and]
    first | exact Both.skip | exact Both.bind (localize_ok (l := pj0 - 2 * 1 + 1) (by omega) nJ.1 rfl) <| Both.skip | exact Both.bind (localizeEdge_ok (l := pj0 - 1 + 1) (by omega) nJ.1 rfl) <| Both.skip

example : ∃ m', Cuda.adjPoissonDiag2d 0 0 3 2 4 0 4 2 0 1 4 2 exDxB 2 1 ⟨2, 0⟩ revBackend exB64 = .ok m' ∧
    F.adjcellpoissondiag2d 0 0 3 2 4 0 4 2 0 1 4 2 exDxB 2 1 ⟨2, 0⟩ exB64 = .ok m' :=
  C49_adj_poisson_diag_2d revBackend_ok (by decide) (by decide) (by decide) (by constructor <;> (try simp only [InInt]) <;> decide) (by ex_argsB)

/-- `cd_stencil_2d_cuda::adj_cf_diag` and `adjcelldiffusioncfdiag2d` leave the same memory, for every schedule and in every arithmetic, wherever the coefficient may be multiplied in before or after the divisions. -/
theorem C49_adj_cf_diag_2d {i0 j0 i1 j1 pi0 pj0 pi1 pj1 r dir side intOrder sgcw : Int} {dx : Nat → T} {beta : T} {b0_ b1_ st_ : Ptr} {β : Backend} {m : Mem T}
    (hβ : ValidBackend β)
    (l1 : intOrder = 1 → ∀ b, beta / (dx dir.toNat * dx dir.toNat) / 3 * b = beta * b / (3 * dx dir.toNat ^ 2))
    (l2 : intOrder = 2 → ∀ b, beta / (dx dir.toNat * dx dir.toNat) * (2 * ((r : T) - 1) / ((r : T) + 1)) * b = (2 * ((r : T) - 1) / ((r : T) + 1)) * beta * b / dx dir.toNat ^ 2)
    (hi : i0 ≤ i1) (hj : j0 ≤ j1) (hg : 0 ≤ sgcw) (hl : Layer2 i0 j0 i1 j1 0 pi0 pj0 pi1 pj1 dir side)
    (h : F.Args m [F.face2d0 b0_ i0 j0 i1 j1 0, F.face2d1 b1_ i0 j0 i1 j1 0] [F.st2d st_ i0 j0 i1 j1 sgcw]) :
    ∃ m', Cuda.adjCfDiag2d i0 j0 i1 j1 pi0 pj0 pi1 pj1 r dir side intOrder dx beta b0_ b1_ sgcw st_ β m = .ok m' ∧ F.adjcelldiffusioncfdiag2d i0 j0 i1 j1 pi0 pj0 pi1 pj1 r dir side intOrder dx beta b0_ b1_ sgcw st_ m = .ok m' := by
  have hst := h.ok (F.st2d st_ i0 j0 i1 j1 sgcw) (by simp)
  obtain ⟨Ast, spst, Ii, Ij⟩ := st2_setup hst hi hj hg
  have hb0 := h.ok (F.face2d0 b0_ i0 j0 i1 j1 0) (by simp)
  obtain ⟨Ab0, plI, J0⟩ := face20_setup hb0 hi hj
  have Pb0 : Apart (sSt2 st_ i0 j0 i1 j1 sgcw) (sFace20 b0_ i0 j0 i1 j1) := apart_of farr_st2 farr_face20 (h.apart _ (by simp) _ (by simp))
  have hb1 := h.ok (F.face2d1 b1_ i0 j0 i1 j1 0) (by simp)
  obtain ⟨Ab1, plJ, J1⟩ := face21_setup hb1 hi hj
  have Pb1 : Apart (sSt2 st_ i0 j0 i1 j1 sgcw) (sFace21 b1_ i0 j0 i1 j1) := apart_of farr_st2 farr_face21 (h.apart _ (by simp) _ (by simp))
  have mkI := mkB_near (d := .I) (lo := i0) (hi := i1) (by rng)
  have mkJ := mkB_near (d := .J) (lo := j0) (hi := j1) (by rng)
  have mkW := mkB_near (d := .W) (lo := 0) (hi := 4) (by rng)
  obtain ⟨hd, hs, hx, hy, nI, nJ⟩ := hl
  have mkPI := mkB_near (d := .I) (lo := pi0) nI.2
  have mkPJ := mkB_near (d := .J) (lo := pj0) nJ.2
  have hd : dir = 0 ∨ dir = 1 := by omega
  show Both (Cuda.adjCfDiag2d i0 j0 i1 j1 pi0 pj0 pi1 pj1 r dir side intOrder dx beta b0_ b1_ sgcw st_ β m) (F.adjcelldiffusioncfdiag2d i0 j0 i1 j1 pi0 pj0 pi1 pj1 r dir side intOrder dx beta b0_ b1_ sgcw st_) m
  unfold Cuda.adjCfDiag2d F.adjcelldiffusioncfdiag2d
  rcases hd with rfl | rfl <;> rcases hs with rfl | rfl
  · replace hx := hx rfl
    refine Both.bind mkI <| Both.bind mkPI <| Both.bind mkJ <| Both.bind mkPJ <| Both.bind mkW <| Both.bind spst <| Both.bind plI <| Both.bind plJ <| Both.bind (a := dx 0) rfl <| Both.bind (localize_ok (l := pi0 - 2 * 0 + 1) (by omega) nI.1 rfl) <| Both.bind (localize_ok (l := pj0 - 2 * 0 + 1) (by omega) nJ.1 rfl) <| ?_
    simp only [↓reduceIte, Int.reduceEq, F.doLoop_skip, ← farr_st2]
    by_cases o1 : intOrder = 1
    · subst o1
      simp only [↓reduceIte, Int.reduceEq, F.doLoop_skip, F.block_skip.1, F.block_skip.2, ne_eq, not_true_eq_false, not_false_eq_true, false_and, and_false, and_self, and_true, true_and]
      exact cf1 (seg2_0 Ast (by omega) (by omega) (by omega)) (by omega) hβ (face_at20 Ab0 Pb0 (by omega) (by omega) (by omega) (by omega)) (l1 rfl)
    by_cases o2 : intOrder = 2
    · subst o2
      simp only [o1, ↓reduceIte, Int.reduceEq, F.doLoop_skip, F.block_skip.1, F.block_skip.2, ne_eq, not_true_eq_false, not_false_eq_true, false_and, and_false, and_self, and_true, true_and]
      exact cf2 (seg2_0 Ast (by omega) (by omega) (by omega)) (by omega) hβ (face_at20 Ab0 Pb0 (by omega) (by omega) (by omega) (by omega)) (l2 rfl)
    simp only [Cuda.adjCfDiagFunc, o1, o2, ↓reduceIte, Int.reduceEq, F.doLoop_skip, F.block_skip.1, F.block_skip.2, ite_self, ne_eq, not_true_eq_false, not_false_eq_true, false_and, and_false, and_self, and_true, true_and]
    exact Both.skip
  · replace hx := hx rfl
    refine Both.bind mkI <| Both.bind mkPI <| Both.bind mkJ <| Both.bind mkPJ <| Both.bind mkW <| Both.bind spst <| Both.bind plI <| Both.bind plJ <| Both.bind (a := dx 0) rfl <| Both.bind (localize_ok (l := pi0 - 2 * 1 + 1) (by omega) nI.1 rfl) <| Both.bind (localize_ok (l := pj0 - 2 * 1 + 1) (by omega) nJ.1 rfl) <| ?_
    simp only [↓reduceIte, Int.reduceEq, F.doLoop_skip, ← farr_st2]
    by_cases o1 : intOrder = 1
    · subst o1
      simp only [↓reduceIte, Int.reduceEq, F.doLoop_skip, F.block_skip.1, F.block_skip.2, ne_eq, not_true_eq_false, not_false_eq_true, false_and, and_false, and_self, and_true, true_and]
      exact cf1 (seg2_0 Ast (by omega) (by omega) (by omega)) (by omega) hβ (face_at20 Ab0 Pb0 (by omega) (by omega) (by omega) (by omega)) (l1 rfl)
    by_cases o2 : intOrder = 2
    · subst o2
      simp only [o1, ↓reduceIte, Int.reduceEq, F.doLoop_skip, F.block_skip.1, F.block_skip.2, ne_eq, not_true_eq_false, not_false_eq_true, false_and, and_false, and_self, and_true, true_and]
      exact cf2 (seg2_0 Ast (by omega) (by omega) (by omega)) (by omega) hβ (face_at20 Ab0 Pb0 (by omega) (by omega) (by omega) (by omega)) (l2 rfl)
    simp only [Cuda.adjCfDiagFunc, o1, o2, ↓reduceIte, Int.reduceEq, F.doLoop_skip, F.block_skip.1, F.block_skip.2, ite_self, ne_eq, not_true_eq_false, not_false_eq_true, false_and, and_false, and_self, and_true, true_and]
    exact Both.skip
  · replace hy := hy rfl
    refine Both.bind mkI <| Both.bind mkPI <| Both.bind mkJ <| Both.bind mkPJ <| Both.bind mkW <| Both.bind spst <| Both.bind plI <| Both.bind plJ <| Both.bind (a := dx 1) rfl <| Both.bind (localize_ok (l := pi0 - 2 * 0 + 1) (by omega) nI.1 rfl) <| Both.bind (localize_ok (l := pj0 - 2 * 0 + 1) (by omega) nJ.1 rfl) <| ?_
    simp only [↓reduceIte, Int.reduceEq, F.doLoop_skip, ← farr_st2]
    by_cases o1 : intOrder = 1
    · subst o1
      simp only [↓reduceIte, Int.reduceEq, F.doLoop_skip, F.block_skip.1, F.block_skip.2, ne_eq, not_true_eq_false, not_false_eq_true, false_and, and_false, and_self, and_true, true_and]
      exact cf1 (seg2_1 Ast (by omega) (by omega) (by omega)) (by omega) hβ (face_at21 Ab1 Pb1 (by omega) (by omega) (by omega) (by omega)) (l1 rfl)
    by_cases o2 : intOrder = 2
    · subst o2
      simp only [o1, ↓reduceIte, Int.reduceEq, F.doLoop_skip, F.block_skip.1, F.block_skip.2, ne_eq, not_true_eq_false, not_false_eq_true, false_and, and_false, and_self, and_true, true_and]
      exact cf2 (seg2_1 Ast (by omega) (by omega) (by omega)) (by omega) hβ (face_at21 Ab1 Pb1 (by omega) (by omega) (by omega) (by omega)) (l2 rfl)
    simp only [Cuda.adjCfDiagFunc, o1, o2, ↓reduceIte, Int.reduceEq, F.doLoop_skip, F.block_skip.1, F.block_skip.2, ite_self, ne_eq, not_true_eq_false, not_false_eq_true, false_and, and_false, and_self, and_true, true_and]
    exact Both.skip
  · replace hy := hy rfl
    refine Both.bind mkI <| Both.bind mkPI <| Both.bind mkJ <| Both.bind mkPJ <| Both.bind mkW <| Both.bind spst <| Both.bind plI <| Both.bind plJ <| Both.bind (a := dx 1) rfl <| Both.bind (localize_ok (l := pi0 - 2 * 1 + 1) (by omega) nI.1 rfl) <| Both.bind (localize_ok (l := pj0 - 2 * 1 + 1) (by omega) nJ.1 rfl) <| ?_
    simp only [↓reduceIte, Int.reduceEq, F.doLoop_skip, ← farr_st2]
    by_cases o1 : intOrder = 1
    · subst o1
      simp only [↓reduceIte, Int.reduceEq, F.doLoop_skip, F.block_skip.1, F.block_skip.2, ne_eq, not_true_eq_false, not_false_eq_true, false_and, and_false, and_self, and_true, true_and]
      exact cf1 (seg2_1 Ast (by omega) (by omega) (by omega)) (by omega) hβ (face_at21 Ab1 Pb1 (by omega) (by omega) (by omega) (by omega)) (l1 rfl)
    by_cases o2 : intOrder = 2
    · subst o2
      simp only [o1, ↓reduceIte, Int.reduceEq, F.doLoop_skip, F.block_skip.1, F.block_skip.2, ne_eq, not_true_eq_false, not_false_eq_true, false_and, and_false, and_self, and_true, true_and]
      exact cf2 (seg2_1 Ast (by omega) (by omega) (by omega)) (by omega) hβ (face_at21 Ab1 Pb1 (by omega) (by omega) (by omega) (by omega)) (l2 rfl)
    simp only [Cuda.adjCfDiagFunc, o1, o2, ↓reduceIte, Int.reduceEq, F.doLoop_skip, F.block_skip.1, F.block_skip.2, ite_self, ne_eq, not_true_eq_false, not_false_eq_true, false_and, and_false, and_self, and_true, true_and]
    exact Both.skip

example : ∃ m', Cuda.adjCfDiag2d 0 0 3 2 4 0 4 2 2 0 1 2 exDx 2 ⟨0, 0⟩ ⟨1, 0⟩ 1 ⟨2, 0⟩ revBackend exRat = .ok m' ∧
    F.adjcelldiffusioncfdiag2d 0 0 3 2 4 0 4 2 2 0 1 2 exDx 2 ⟨0, 0⟩ ⟨1, 0⟩ 1 ⟨2, 0⟩ exRat = .ok m' :=
  C49_adj_cf_diag_2d revBackend_ok (fun _ _ => by ring) (fun _ _ => by ring) (by decide) (by decide) (by decide) (by constructor <;> (try simp only [InInt]) <;> decide) (by ex_args)

/-- `cd_stencil_2d_cuda::adj_poisson_cf_diag` and `adjcellpoissoncfdiag2d` leave the same memory, for every schedule and in every arithmetic, wherever the two orders of dividing by the square of the mesh width agree. -/
theorem C49_adj_poisson_cf_diag_2d {i0 j0 i1 j1 pi0 pj0 pi1 pj1 r dir side intOrder sgcw : Int} {dx : Nat → T} {beta : T} {st_ : Ptr} {β : Backend} {m : Mem T}
    (hβ : ValidBackend β)
    (l1 : intOrder = 1 → beta / (dx dir.toNat * dx dir.toNat) / 3 = beta / (3 * dx dir.toNat ^ 2))
    (l2 : intOrder = 2 → beta / (dx dir.toNat * dx dir.toNat) * (2 * ((r : T) - 1) / ((r : T) + 1)) = (2 * ((r : T) - 1) / ((r : T) + 1)) * beta / dx dir.toNat ^ 2)
    (hi : i0 ≤ i1) (hj : j0 ≤ j1) (hg : 0 ≤ sgcw) (hl : Layer2 i0 j0 i1 j1 sgcw pi0 pj0 pi1 pj1 dir side)
    (h : F.Args m [] [F.st2d st_ i0 j0 i1 j1 sgcw]) :
    ∃ m', Cuda.adjPoissonCfDiag2d i0 j0 i1 j1 pi0 pj0 pi1 pj1 r dir side intOrder dx beta sgcw st_ β m = .ok m' ∧ F.adjcellpoissoncfdiag2d i0 j0 i1 j1 pi0 pj0 pi1 pj1 r dir side intOrder dx beta sgcw st_ m = .ok m' := by
  have hst := h.ok (F.st2d st_ i0 j0 i1 j1 sgcw) (by simp)
  obtain ⟨Ast, spst, Ii, Ij⟩ := st2_setup hst hi hj hg
  have mkI := mkB_near (d := .I) (lo := i0) (hi := i1) (by rng)
  have mkJ := mkB_near (d := .J) (lo := j0) (hi := j1) (by rng)
  have mkW := mkB_near (d := .W) (lo := 0) (hi := 4) (by rng)
  obtain ⟨hd, hs, hx, hy, nI, nJ⟩ := hl
  have mkPI := mkB_near (d := .I) (lo := pi0) nI.2
  have mkPJ := mkB_near (d := .J) (lo := pj0) nJ.2
  have hd : dir = 0 ∨ dir = 1 := by omega
  show Both (Cuda.adjPoissonCfDiag2d i0 j0 i1 j1 pi0 pj0 pi1 pj1 r dir side intOrder dx beta sgcw st_ β m) (F.adjcellpoissoncfdiag2d i0 j0 i1 j1 pi0 pj0 pi1 pj1 r dir side intOrder dx beta sgcw st_) m
  unfold Cuda.adjPoissonCfDiag2d F.adjcellpoissoncfdiag2d
  rcases hd with rfl | rfl <;> rcases hs with rfl | rfl
  · replace hx := hx rfl
    refine Both.bind mkI <| Both.bind mkPI <| Both.bind mkJ <| Both.bind mkPJ <| Both.bind mkW <| Both.bind spst <| Both.bind (a := dx 0) rfl <| Both.bind (localize_ok (l := pi0 - 2 * 0 + 1) (by omega) nI.1 rfl) <| Both.bind (localize_ok (l := pj0 - 2 * 0 + 1) (by omega) nJ.1 rfl) <| ?_
    simp only [↓reduceIte, Int.reduceEq, F.doLoop_skip, ← farr_st2]
    by_cases o1 : intOrder = 1
    · subst o1
      simp only [↓reduceIte, Int.reduceEq, F.doLoop_skip, F.block_skip.1, F.block_skip.2, ne_eq, not_true_eq_false, not_false_eq_true, false_and, and_false, and_self, and_true, true_and]
      exact pcf1 (seg2_0 Ast (by omega) (by omega) (by omega)) (by omega) hβ (l1 rfl)
    by_cases o2 : intOrder = 2
    · subst o2
      simp only [o1, ↓reduceIte, Int.reduceEq, F.doLoop_skip, F.block_skip.1, F.block_skip.2, ne_eq, not_true_eq_false, not_false_eq_true, false_and, and_false, and_self, and_true, true_and]
      exact pcf2 (seg2_0 Ast (by omega) (by omega) (by omega)) (by omega) hβ (l2 rfl)
    simp only [Cuda.adjPoissonCfDiagFunc, o1, o2, ↓reduceIte, Int.reduceEq, F.doLoop_skip, F.block_skip.1, F.block_skip.2, ite_self, ne_eq, not_true_eq_false, not_false_eq_true, false_and, and_false, and_self, and_true, true_and]
    exact Both.skip
  · replace hx := hx rfl
    refine Both.bind mkI <| Both.bind mkPI <| Both.bind mkJ <| Both.bind mkPJ <| Both.bind mkW <| Both.bind spst <| Both.bind (a := dx 0) rfl <| Both.bind (localize_ok (l := pi0 - 2 * 1 + 1) (by omega) nI.1 rfl) <| Both.bind (localize_ok (l := pj0 - 2 * 1 + 1) (by omega) nJ.1 rfl) <| ?_
    simp only [↓reduceIte, Int.reduceEq, F.doLoop_skip, ← farr_st2]
    by_cases o1 : intOrder = 1
    · subst o1
      simp only [↓reduceIte, Int.reduceEq, F.doLoop_skip, F.block_skip.1, F.block_skip.2, ne_eq, not_true_eq_false, not_false_eq_true, false_and, and_false, and_self, and_true, true_and]
      exact pcf1 (seg2_0 Ast (by omega) (by omega) (by omega)) (by omega) hβ (l1 rfl)
    by_cases o2 : intOrder = 2
    · subst o2
      simp only [o1, ↓reduceIte, Int.reduceEq, F.doLoop_skip, F.block_skip.1, F.block_skip.2, ne_eq, not_true_eq_false, not_false_eq_true, false_and, and_false, and_self, and_true, true_and]
      exact pcf2 (seg2_0 Ast (by omega) (by omega) (by omega)) (by omega) hβ (l2 rfl)
    simp only [Cuda.adjPoissonCfDiagFunc, o1, o2, ↓reduceIte, Int.reduceEq, F.doLoop_skip, F.block_skip.1, F.block_skip.2, ite_self, ne_eq, not_true_eq_false, not_false_eq_true, false_and, and_false, and_self, and_true, true_and]
    exact Both.skip
  · replace hy := hy rfl
    refine Both.bind mkI <| Both.bind mkPI <| Both.bind mkJ <| Both.bind mkPJ <| Both.bind mkW <| Both.bind spst <| Both.bind (a := dx 1) rfl <| Both.bind (localize_ok (l := pi0 - 2 * 0 + 1) (by omega) nI.1 rfl) <| Both.bind (localize_ok (l := pj0 - 2 * 0 + 1) (by omega) nJ.1 rfl) <| ?_
    simp only [↓reduceIte, Int.reduceEq, F.doLoop_skip, ← farr_st2]
    by_cases o1 : intOrder = 1
    · subst o1
      simp only [↓reduceIte, Int.reduceEq, F.doLoop_skip, F.block_skip.1, F.block_skip.2, ne_eq, not_true_eq_false, not_false_eq_true, false_and, and_false, and_self, and_true, true_and]
      exact pcf1 (seg2_1 Ast (by omega) (by omega) (by omega)) (by omega) hβ (l1 rfl)
    by_cases o2 : intOrder = 2
    · subst o2
      simp only [o1, ↓reduceIte, Int.reduceEq, F.doLoop_skip, F.block_skip.1, F.block_skip.2, ne_eq, not_true_eq_false, not_false_eq_true, false_and, and_false, and_self, and_true, true_and]
      exact pcf2 (seg2_1 Ast (by omega) (by omega) (by omega)) (by omega) hβ (l2 rfl)
    simp only [Cuda.adjPoissonCfDiagFunc, o1, o2, ↓reduceIte, Int.reduceEq, F.doLoop_skip, F.block_skip.1, F.block_skip.2, ite_self, ne_eq, not_true_eq_false, not_false_eq_true, false_and, and_false, and_self, and_true, true_and]
    exact Both.skip
  · replace hy := hy rfl
    refine Both.bind mkI <| Both.bind mkPI <| Both.bind mkJ <| Both.bind mkPJ <| Both.bind mkW <| Both.bind spst <| Both.bind (a := dx 1) rfl <| Both.bind (localize_ok (l := pi0 - 2 * 1 + 1) (by omega) nI.1 rfl) <| Both.bind (localize_ok (l := pj0 - 2 * 1 + 1) (by omega) nJ.1 rfl) <| ?_
    simp only [↓reduceIte, Int.reduceEq, F.doLoop_skip, ← farr_st2]
    by_cases o1 : intOrder = 1
    · subst o1
      simp only [↓reduceIte, Int.reduceEq, F.doLoop_skip, F.block_skip.1, F.block_skip.2, ne_eq, not_true_eq_false, not_false_eq_true, false_and, and_false, and_self, and_true, true_and]
      exact pcf1 (seg2_1 Ast (by omega) (by omega) (by omega)) (by omega) hβ (l1 rfl)
    by_cases o2 : intOrder = 2
    · subst o2
      simp only [o1, ↓reduceIte, Int.reduceEq, F.doLoop_skip, F.block_skip.1, F.block_skip.2, ne_eq, not_true_eq_false, not_false_eq_true, false_and, and_false, and_self, and_true, true_and]
      exact pcf2 (seg2_1 Ast (by omega) (by omega) (by omega)) (by omega) hβ (l2 rfl)
    simp only [Cuda.adjPoissonCfDiagFunc, o1, o2, ↓reduceIte, Int.reduceEq, F.doLoop_skip, F.block_skip.1, F.block_skip.2, ite_self, ne_eq, not_true_eq_false, not_false_eq_true, false_and, and_false, and_self, and_true, true_and]
    exact Both.skip

example : ∃ m', Cuda.adjPoissonCfDiag2d 0 0 3 2 4 0 4 2 2 0 1 2 exDx 2 1 ⟨2, 0⟩ revBackend exRat = .ok m' ∧
    F.adjcellpoissoncfdiag2d 0 0 3 2 4 0 4 2 2 0 1 2 exDx 2 1 ⟨2, 0⟩ exRat = .ok m' :=
  C49_adj_poisson_cf_diag_2d revBackend_ok (fun _ => by ring) (fun _ => by ring) (by decide) (by decide) (by decide) (by constructor <;> (try simp only [InInt]) <;> decide) (by ex_args)

/-- `cd_stencil_2d_cuda::adj_offdiag` and `adjcelldiffusionoffdiag2d` leave the same memory, for every schedule and in every arithmetic, wherever products commute and the sign of -9 may be taken out of a product; a Dirichlet face of second order also needs the two ways of taking eight thirds to agree. -/
theorem C49_adj_offdiag_2d {i0 j0 i1 j1 pi0 pj0 pi1 pj1 dir side btype exOrder sgcw : Int} {dx : Nat → T} {dir_factor neu_factor beta : T} {b0_ b1_ st_ : Ptr} {β : Backend} {m : Mem T}
    (hβ : ValidBackend β)
    (l41 : btype = 4 → exOrder = 1 → ∀ x y : T, x * y = y * x)
    (l42 : btype = 4 → exOrder = 2 → ∀ x : T, -9 * x = -(9 * x))
    (l0 : btype = 0 → exOrder = 2 → ∀ x : T, x * (8 / 3) = 8 * x / 3)
    (hi : i0 ≤ i1) (hj : j0 ≤ j1) (hg : 0 ≤ sgcw) (hl : Layer2 i0 j0 i1 j1 0 pi0 pj0 pi1 pj1 dir side)
    (h : F.Args m [F.face2d0 b0_ i0 j0 i1 j1 0, F.face2d1 b1_ i0 j0 i1 j1 0] [F.st2d st_ i0 j0 i1 j1 sgcw]) :
    ∃ m', Cuda.adjOffdiag2d i0 j0 i1 j1 pi0 pj0 pi1 pj1 dir side btype exOrder dx dir_factor neu_factor beta b0_ b1_ sgcw st_ β m = .ok m' ∧ F.adjcelldiffusionoffdiag2d i0 j0 i1 j1 pi0 pj0 pi1 pj1 dir side btype exOrder dx dir_factor neu_factor beta b0_ b1_ sgcw st_ m = .ok m' := by
  have hst := h.ok (F.st2d st_ i0 j0 i1 j1 sgcw) (by simp)
  obtain ⟨Ast, spst, Ii, Ij⟩ := st2_setup hst hi hj hg
  have hb0 := h.ok (F.face2d0 b0_ i0 j0 i1 j1 0) (by simp)
  obtain ⟨Ab0, plI, J0⟩ := face20_setup hb0 hi hj
  have Pb0 : Apart (sSt2 st_ i0 j0 i1 j1 sgcw) (sFace20 b0_ i0 j0 i1 j1) := apart_of farr_st2 farr_face20 (h.apart _ (by simp) _ (by simp))
  have hb1 := h.ok (F.face2d1 b1_ i0 j0 i1 j1 0) (by simp)
  obtain ⟨Ab1, plJ, J1⟩ := face21_setup hb1 hi hj
  have Pb1 : Apart (sSt2 st_ i0 j0 i1 j1 sgcw) (sFace21 b1_ i0 j0 i1 j1) := apart_of farr_st2 farr_face21 (h.apart _ (by simp) _ (by simp))
  have mkI := mkB_near (d := .I) (lo := i0) (hi := i1) (by rng)
  have mkJ := mkB_near (d := .J) (lo := j0) (hi := j1) (by rng)
  have mkW := mkB_near (d := .W) (lo := 0) (hi := 4) (by rng)
  obtain ⟨hd, hs, hx, hy, nI, nJ⟩ := hl
  have mkPI := mkB_near (d := .I) (lo := pi0) nI.2
  have mkPJ := mkB_near (d := .J) (lo := pj0) nJ.2
  have hd : dir = 0 ∨ dir = 1 := by omega
  show Both (Cuda.adjOffdiag2d i0 j0 i1 j1 pi0 pj0 pi1 pj1 dir side btype exOrder dx dir_factor neu_factor beta b0_ b1_ sgcw st_ β m) (F.adjcelldiffusionoffdiag2d i0 j0 i1 j1 pi0 pj0 pi1 pj1 dir side btype exOrder dx dir_factor neu_factor beta b0_ b1_ sgcw st_) m
  unfold Cuda.adjOffdiag2d F.adjcelldiffusionoffdiag2d
  rcases hd with rfl | rfl <;> rcases hs with rfl | rfl
  · replace hx := hx rfl
    refine Both.bind mkI <| Both.bind mkPI <| Both.bind mkJ <| Both.bind mkPJ <| Both.bind mkW <| Both.bind spst <| Both.bind plI <| Both.bind plJ <| Both.bind (a := dx 0) rfl <| Both.bind (a := (1 : Int)) rfl <| Both.bind (a := (2 : Int)) rfl <| Both.bind (localize_ok (l := pi0 - 2 * 0 + 1) (by omega) nI.1 rfl) <| Both.bind (localize_ok (l := pj0 - 2 * 0 + 1) (by omega) nJ.1 rfl) <| ?_
    simp only [↓reduceIte, Int.reduceEq, F.doLoop_skip, ← farr_st2]
    by_cases t4 : btype = 4
    · subst t4
      by_cases o1 : exOrder = 1
      · subst o1
        simp only [↓reduceIte, Int.reduceEq, F.doLoop_skip, F.block_skip.1, F.block_skip.2, ne_eq, not_true_eq_false, not_false_eq_true, false_and, and_false, and_self, and_true, true_and]
        exact off4_1 (seg2_0 Ast (by omega) (by omega) (by omega)) hβ (by omega) (face_at20 Ab0 Pb0 (by omega) (by omega) (by omega) (by omega)) (l41 rfl rfl)
      by_cases o2 : exOrder = 2
      · subst o2
        simp only [o1, ↓reduceIte, Int.reduceEq, F.doLoop_skip, F.block_skip.1, F.block_skip.2, ne_eq, not_true_eq_false, not_false_eq_true, false_and, and_false, and_self, and_true, true_and]
        exact off4_2 (seg2_0 Ast (by omega) (by omega) (by omega)) hβ (by omega) (by omega) (face_at20 Ab0 Pb0 (by omega) (by omega) (by omega) (by omega)) (l42 rfl rfl)
      simp only [Cuda.adjOffdiagBt4, Cuda.adjOffdiagBt0, o1, o2, ↓reduceIte, Int.reduceEq, F.doLoop_skip, F.block_skip.1, F.block_skip.2, ite_self, ne_eq, not_true_eq_false, not_false_eq_true, false_and, and_false, and_self, and_true, true_and]
      exact Both.skip
    by_cases t0 : btype = 0
    · subst t0
      by_cases o1 : exOrder = 1
      · subst o1
        simp only [↓reduceIte, Int.reduceEq, F.doLoop_skip, F.block_skip.1, F.block_skip.2, ne_eq, not_true_eq_false, not_false_eq_true, false_and, and_false, and_self, and_true, true_and]
        exact off0_1 (seg2_0 Ast (by omega) (by omega) (by omega)) hβ (by omega)
      by_cases o2 : exOrder = 2
      · subst o2
        simp only [o1, ↓reduceIte, Int.reduceEq, F.doLoop_skip, F.block_skip.1, F.block_skip.2, ne_eq, not_true_eq_false, not_false_eq_true, false_and, and_false, and_self, and_true, true_and]
        exact off0_2 (seg2_0 Ast (by omega) (by omega) (by omega)) hβ (by omega) (by omega) (l0 rfl rfl)
      simp only [Cuda.adjOffdiagBt4, Cuda.adjOffdiagBt0, o1, o2, ↓reduceIte, Int.reduceEq, F.doLoop_skip, F.block_skip.1, F.block_skip.2, ite_self, ne_eq, not_true_eq_false, not_false_eq_true, false_and, and_false, and_self, and_true, true_and]
      exact Both.skip
    by_cases t1 : btype = 1
    · subst t1
      simp only [↓reduceIte, Int.reduceEq, F.doLoop_skip, F.block_skip.1, F.block_skip.2, ne_eq, not_true_eq_false, not_false_eq_true, false_and, and_false, and_self, and_true, true_and]
      exact off1 (seg2_0 Ast (by omega) (by omega) (by omega)) hβ (by omega)
    simp only [Cuda.adjOffdiagBt4, Cuda.adjOffdiagBt0, t4, t0, t1, ↓reduceIte, Int.reduceEq, F.doLoop_skip, F.block_skip.1, F.block_skip.2, ite_self, ne_eq, not_true_eq_false, not_false_eq_true, false_and, and_false, and_self, and_true, true_and]
    exact Both.skip
  · replace hx := hx rfl
    refine Both.bind mkI <| Both.bind mkPI <| Both.bind mkJ <| Both.bind mkPJ <| Both.bind mkW <| Both.bind spst <| Both.bind plI <| Both.bind plJ <| Both.bind (a := dx 0) rfl <| Both.bind (a := (2 : Int)) rfl <| Both.bind (a := (1 : Int)) rfl <| Both.bind (localize_ok (l := pi0 - 2 * 1 + 1) (by omega) nI.1 rfl) <| Both.bind (localize_ok (l := pj0 - 2 * 1 + 1) (by omega) nJ.1 rfl) <| ?_
    simp only [↓reduceIte, Int.reduceEq, F.doLoop_skip, ← farr_st2]
    by_cases t4 : btype = 4
    · subst t4
      by_cases o1 : exOrder = 1
      · subst o1
        simp only [↓reduceIte, Int.reduceEq, F.doLoop_skip, F.block_skip.1, F.block_skip.2, ne_eq, not_true_eq_false, not_false_eq_true, false_and, and_false, and_self, and_true, true_and]
        exact off4_1 (seg2_0 Ast (by omega) (by omega) (by omega)) hβ (by omega) (face_at20 Ab0 Pb0 (by omega) (by omega) (by omega) (by omega)) (l41 rfl rfl)
      by_cases o2 : exOrder = 2
      · subst o2
        simp only [o1, ↓reduceIte, Int.reduceEq, F.doLoop_skip, F.block_skip.1, F.block_skip.2, ne_eq, not_true_eq_false, not_false_eq_true, false_and, and_false, and_self, and_true, true_and]
        exact off4_2 (seg2_0 Ast (by omega) (by omega) (by omega)) hβ (by omega) (by omega) (face_at20 Ab0 Pb0 (by omega) (by omega) (by omega) (by omega)) (l42 rfl rfl)
      simp only [Cuda.adjOffdiagBt4, Cuda.adjOffdiagBt0, o1, o2, ↓reduceIte, Int.reduceEq, F.doLoop_skip, F.block_skip.1, F.block_skip.2, ite_self, ne_eq, not_true_eq_false, not_false_eq_true, false_and, and_false, and_self, and_true, true_and]
      exact Both.skip
    by_cases t0 : btype = 0
    · subst t0
      by_cases o1 : exOrder = 1
      · subst o1
        simp only [↓reduceIte, Int.reduceEq, F.doLoop_skip, F.block_skip.1, F.block_skip.2, ne_eq, not_true_eq_false, not_false_eq_true, false_and, and_false, and_self, and_true, true_and]
        exact off0_1 (seg2_0 Ast (by omega) (by omega) (by omega)) hβ (by omega)
      by_cases o2 : exOrder = 2
      · subst o2
        simp only [o1, ↓reduceIte, Int.reduceEq, F.doLoop_skip, F.block_skip.1, F.block_skip.2, ne_eq, not_true_eq_false, not_false_eq_true, false_and, and_false, and_self, and_true, true_and]
        exact off0_2 (seg2_0 Ast (by omega) (by omega) (by omega)) hβ (by omega) (by omega) (l0 rfl rfl)
      simp only [Cuda.adjOffdiagBt4, Cuda.adjOffdiagBt0, o1, o2, ↓reduceIte, Int.reduceEq, F.doLoop_skip, F.block_skip.1, F.block_skip.2, ite_self, ne_eq, not_true_eq_false, not_false_eq_true, false_and, and_false, and_self, and_true, true_and]
      exact Both.skip
    by_cases t1 : btype = 1
    · subst t1
      simp only [↓reduceIte, Int.reduceEq, F.doLoop_skip, F.block_skip.1, F.block_skip.2, ne_eq, not_true_eq_false, not_false_eq_true, false_and, and_false, and_self, and_true, true_and]
      exact off1 (seg2_0 Ast (by omega) (by omega) (by omega)) hβ (by omega)
    simp only [Cuda.adjOffdiagBt4, Cuda.adjOffdiagBt0, t4, t0, t1, ↓reduceIte, Int.reduceEq, F.doLoop_skip, F.block_skip.1, F.block_skip.2, ite_self, ne_eq, not_true_eq_false, not_false_eq_true, false_and, and_false, and_self, and_true, true_and]
    exact Both.skip
  · replace hy := hy rfl
    refine Both.bind mkI <| Both.bind mkPI <| Both.bind mkJ <| Both.bind mkPJ <| Both.bind mkW <| Both.bind spst <| Both.bind plI <| Both.bind plJ <| Both.bind (a := dx 1) rfl <| Both.bind (a := (3 : Int)) rfl <| Both.bind (a := (4 : Int)) rfl <| Both.bind (localize_ok (l := pi0 - 2 * 0 + 1) (by omega) nI.1 rfl) <| Both.bind (localize_ok (l := pj0 - 2 * 0 + 1) (by omega) nJ.1 rfl) <| ?_
    simp only [↓reduceIte, Int.reduceEq, F.doLoop_skip, ← farr_st2]
    by_cases t4 : btype = 4
    · subst t4
      by_cases o1 : exOrder = 1
      · subst o1
        simp only [Cuda.adjOffdiagBt4, Cuda.adjOffdiagBt0, ↓reduceIte, Int.reduceEq, F.doLoop_skip, F.block_skip.1, F.block_skip.2, ite_self, ne_eq, not_true_eq_false, not_false_eq_true, false_and, and_false, and_self, and_true, true_and]
        exact Both.skip
      by_cases o2 : exOrder = 2
      · subst o2
        simp only [Cuda.adjOffdiagBt4, Cuda.adjOffdiagBt0, o1, ↓reduceIte, Int.reduceEq, F.doLoop_skip, F.block_skip.1, F.block_skip.2, ite_self, ne_eq, not_true_eq_false, not_false_eq_true, false_and, and_false, and_self, and_true, true_and]
        exact Both.skip
      simp only [Cuda.adjOffdiagBt4, Cuda.adjOffdiagBt0, o1, o2, ↓reduceIte, Int.reduceEq, F.doLoop_skip, F.block_skip.1, F.block_skip.2, ite_self, ne_eq, not_true_eq_false, not_false_eq_true, false_and, and_false, and_self, and_true, true_and]
      exact Both.skip
    by_cases t0 : btype = 0
    · subst t0
      by_cases o1 : exOrder = 1
      · subst o1
        simp only [↓reduceIte, Int.reduceEq, F.doLoop_skip, F.block_skip.1, F.block_skip.2, ne_eq, not_true_eq_false, not_false_eq_true, false_and, and_false, and_self, and_true, true_and]
        exact off0_1 (seg2_1 Ast (by omega) (by omega) (by omega)) hβ (by omega)
      by_cases o2 : exOrder = 2
      · subst o2
        simp only [o1, ↓reduceIte, Int.reduceEq, F.doLoop_skip, F.block_skip.1, F.block_skip.2, ne_eq, not_true_eq_false, not_false_eq_true, false_and, and_false, and_self, and_true, true_and]
        exact off0_2 (seg2_1 Ast (by omega) (by omega) (by omega)) hβ (by omega) (by omega) (l0 rfl rfl)
      simp only [Cuda.adjOffdiagBt4, Cuda.adjOffdiagBt0, o1, o2, ↓reduceIte, Int.reduceEq, F.doLoop_skip, F.block_skip.1, F.block_skip.2, ite_self, ne_eq, not_true_eq_false, not_false_eq_true, false_and, and_false, and_self, and_true, true_and]
      exact Both.skip
    by_cases t1 : btype = 1
    · subst t1
      simp only [↓reduceIte, Int.reduceEq, F.doLoop_skip, F.block_skip.1, F.block_skip.2, ne_eq, not_true_eq_false, not_false_eq_true, false_and, and_false, and_self, and_true, true_and]
      exact off1 (seg2_1 Ast (by omega) (by omega) (by omega)) hβ (by omega)
    simp only [Cuda.adjOffdiagBt4, Cuda.adjOffdiagBt0, t4, t0, t1, ↓reduceIte, Int.reduceEq, F.doLoop_skip, F.block_skip.1, F.block_skip.2, ite_self, ne_eq, not_true_eq_false, not_false_eq_true, false_and, and_false, and_self, and_true, true_and]
    exact Both.skip
  · replace hy := hy rfl
    refine Both.bind mkI <| Both.bind mkPI <| Both.bind mkJ <| Both.bind mkPJ <| Both.bind mkW <| Both.bind spst <| Both.bind plI <| Both.bind plJ <| Both.bind (a := dx 1) rfl <| Both.bind (a := (4 : Int)) rfl <| Both.bind (a := (3 : Int)) rfl <| Both.bind (localize_ok (l := pi0 - 2 * 1 + 1) (by omega) nI.1 rfl) <| Both.bind (localize_ok (l := pj0 - 2 * 1 + 1) (by omega) nJ.1 rfl) <| ?_
    simp only [↓reduceIte, Int.reduceEq, F.doLoop_skip, ← farr_st2]
    by_cases t4 : btype = 4
    · subst t4
      by_cases o1 : exOrder = 1
      · subst o1
        simp only [Cuda.adjOffdiagBt4, Cuda.adjOffdiagBt0, ↓reduceIte, Int.reduceEq, F.doLoop_skip, F.block_skip.1, F.block_skip.2, ite_self, ne_eq, not_true_eq_false, not_false_eq_true, false_and, and_false, and_self, and_true, true_and]
        exact Both.skip
      by_cases o2 : exOrder = 2
      · subst o2
        simp only [Cuda.adjOffdiagBt4, Cuda.adjOffdiagBt0, o1, ↓reduceIte, Int.reduceEq, F.doLoop_skip, F.block_skip.1, F.block_skip.2, ite_self, ne_eq, not_true_eq_false, not_false_eq_true, false_and, and_false, and_self, and_true, true_and]
        exact Both.skip
      simp only [Cuda.adjOffdiagBt4, Cuda.adjOffdiagBt0, o1, o2, ↓reduceIte, Int.reduceEq, F.doLoop_skip, F.block_skip.1, F.block_skip.2, ite_self, ne_eq, not_true_eq_false, not_false_eq_true, false_and, and_false, and_self, and_true, true_and]
      exact Both.skip
    by_cases t0 : btype = 0
    · subst t0
      by_cases o1 : exOrder = 1
      · subst o1
        simp only [↓reduceIte, Int.reduceEq, F.doLoop_skip, F.block_skip.1, F.block_skip.2, ne_eq, not_true_eq_false, not_false_eq_true, false_and, and_false, and_self, and_true, true_and]
        exact off0_1 (seg2_1 Ast (by omega) (by omega) (by omega)) hβ (by omega)
      by_cases o2 : exOrder = 2
      · subst o2
        simp only [o1, ↓reduceIte, Int.reduceEq, F.doLoop_skip, F.block_skip.1, F.block_skip.2, ne_eq, not_true_eq_false, not_false_eq_true, false_and, and_false, and_self, and_true, true_and]
        exact off0_2 (seg2_1 Ast (by omega) (by omega) (by omega)) hβ (by omega) (by omega) (l0 rfl rfl)
      simp only [Cuda.adjOffdiagBt4, Cuda.adjOffdiagBt0, o1, o2, ↓reduceIte, Int.reduceEq, F.doLoop_skip, F.block_skip.1, F.block_skip.2, ite_self, ne_eq, not_true_eq_false, not_false_eq_true, false_and, and_false, and_self, and_true, true_and]
      exact Both.skip
    by_cases t1 : btype = 1
    · subst t1
      simp only [↓reduceIte, Int.reduceEq, F.doLoop_skip, F.block_skip.1, F.block_skip.2, ne_eq, not_true_eq_false, not_false_eq_true, false_and, and_false, and_self, and_true, true_and]
      exact off1 (seg2_1 Ast (by omega) (by omega) (by omega)) hβ (by omega)
    simp only [Cuda.adjOffdiagBt4, Cuda.adjOffdiagBt0, t4, t0, t1, ↓reduceIte, Int.reduceEq, F.doLoop_skip, F.block_skip.1, F.block_skip.2, ite_self, ne_eq, not_true_eq_false, not_false_eq_true, false_and, and_false, and_self, and_true, true_and]
    exact Both.skip

example : ∃ m', Cuda.adjOffdiag2d 0 0 3 2 4 0 4 2 0 1 4 2 exDxB 2 3 4 ⟨0, 0⟩ ⟨1, 0⟩ 1 ⟨2, 0⟩ revBackend exB64 = .ok m' ∧
    F.adjcelldiffusionoffdiag2d 0 0 3 2 4 0 4 2 0 1 4 2 exDxB 2 3 4 ⟨0, 0⟩ ⟨1, 0⟩ 1 ⟨2, 0⟩ exB64 = .ok m' :=
  C49_adj_offdiag_2d revBackend_ok (fun _ _ => B64.mul_comm) (fun _ _ => B64.neg_mul _) (fun h => absurd h (by decide)) (by decide) (by decide) (by decide) (by constructor <;> (try simp only [InInt]) <;> decide) (by ex_argsB)

/-- `cd_stencil_2d_cuda::adj_poisson_offdiag` and `adjcellpoissonoffdiag2d` leave the same memory, for every schedule and in every arithmetic, wherever products commute and the sign of -9 may be taken out of a product; a Dirichlet face of second order also needs the two ways of taking eight thirds to agree. -/
theorem C49_adj_poisson_offdiag_2d {i0 j0 i1 j1 pi0 pj0 pi1 pj1 dir side btype exOrder sgcw : Int} {dx : Nat → T} {dir_factor neu_factor beta : T} {st_ : Ptr} {β : Backend} {m : Mem T}
    (hβ : ValidBackend β)
    (l41 : btype = 4 → exOrder = 1 → ∀ x y : T, x * y = y * x)
    (l42 : btype = 4 → exOrder = 2 → ∀ x : T, -9 * x = -(9 * x))
    (l0 : btype = 0 → exOrder = 2 → ∀ x : T, x * (8 / 3) = 8 * x / 3)
    (hi : i0 ≤ i1) (hj : j0 ≤ j1) (hg : 0 ≤ sgcw) (hl : Layer2 i0 j0 i1 j1 sgcw pi0 pj0 pi1 pj1 dir side)
    (h : F.Args m [] [F.st2d st_ i0 j0 i1 j1 sgcw]) :
    ∃ m', Cuda.adjPoissonOffdiag2d i0 j0 i1 j1 pi0 pj0 pi1 pj1 dir side btype exOrder dx dir_factor neu_factor beta sgcw st_ β m = .ok m' ∧ F.adjcellpoissonoffdiag2d i0 j0 i1 j1 pi0 pj0 pi1 pj1 dir side btype exOrder dx dir_factor neu_factor beta sgcw st_ m = .ok m' := by
  have hst := h.ok (F.st2d st_ i0 j0 i1 j1 sgcw) (by simp)
  obtain ⟨Ast, spst, Ii, Ij⟩ := st2_setup hst hi hj hg
  have mkI := mkB_near (d := .I) (lo := i0) (hi := i1) (by rng)
  have mkJ := mkB_near (d := .J) (lo := j0) (hi := j1) (by rng)
  have mkW := mkB_near (d := .W) (lo := 0) (hi := 4) (by rng)
  obtain ⟨hd, hs, hx, hy, nI, nJ⟩ := hl
  have mkPI := mkB_near (d := .I) (lo := pi0) nI.2
  have mkPJ := mkB_near (d := .J) (lo := pj0) nJ.2
  have hd : dir = 0 ∨ dir = 1 := by omega
  show Both (Cuda.adjPoissonOffdiag2d i0 j0 i1 j1 pi0 pj0 pi1 pj1 dir side btype exOrder dx dir_factor neu_factor beta sgcw st_ β m) (F.adjcellpoissonoffdiag2d i0 j0 i1 j1 pi0 pj0 pi1 pj1 dir side btype exOrder dx dir_factor neu_factor beta sgcw st_) m
  unfold Cuda.adjPoissonOffdiag2d F.adjcellpoissonoffdiag2d
  rcases hd with rfl | rfl <;> rcases hs with rfl | rfl
  · replace hx := hx rfl
    refine Both.bind mkI <| Both.bind mkPI <| Both.bind mkJ <| Both.bind mkPJ <| Both.bind mkW <| Both.bind spst <| Both.bind (a := dx 0) rfl <| Both.bind (a := (1 : Int)) rfl <| Both.bind (a := (2 : Int)) rfl <| Both.bind (localize_ok (l := pi0 - 2 * 0 + 1) (by omega) nI.1 rfl) <| Both.bind (localize_ok (l := pj0 - 2 * 0 + 1) (by omega) nJ.1 rfl) <| ?_
    simp only [↓reduceIte, Int.reduceEq, F.doLoop_skip, ← farr_st2]
    by_cases t4 : btype = 4
    · subst t4
      by_cases o1 : exOrder = 1
      · subst o1
        simp only [↓reduceIte, Int.reduceEq, F.doLoop_skip, F.block_skip.1, F.block_skip.2, ne_eq, not_true_eq_false, not_false_eq_true, false_and, and_false, and_self, and_true, true_and]
        exact poff4_1 (seg2_0 Ast (by omega) (by omega) (by omega)) hβ (by omega) (l41 rfl rfl)
      by_cases o2 : exOrder = 2
      · subst o2
        simp only [o1, ↓reduceIte, Int.reduceEq, F.doLoop_skip, F.block_skip.1, F.block_skip.2, ne_eq, not_true_eq_false, not_false_eq_true, false_and, and_false, and_self, and_true, true_and]
        exact poff4_2 (seg2_0 Ast (by omega) (by omega) (by omega)) hβ (by omega) (by omega) (l42 rfl rfl)
      simp only [Cuda.adjPoissonOffdiagBt4, Cuda.adjOffdiagBt0, o1, o2, ↓reduceIte, Int.reduceEq, F.doLoop_skip, F.block_skip.1, F.block_skip.2, ite_self, ne_eq, not_true_eq_false, not_false_eq_true, false_and, and_false, and_self, and_true, true_and]
      exact Both.skip
    by_cases t0 : btype = 0
    · subst t0
      by_cases o1 : exOrder = 1
      · subst o1
        simp only [↓reduceIte, Int.reduceEq, F.doLoop_skip, F.block_skip.1, F.block_skip.2, ne_eq, not_true_eq_false, not_false_eq_true, false_and, and_false, and_self, and_true, true_and]
        exact off0_1 (seg2_0 Ast (by omega) (by omega) (by omega)) hβ (by omega)
      by_cases o2 : exOrder = 2
      · subst o2
        simp only [o1, ↓reduceIte, Int.reduceEq, F.doLoop_skip, F.block_skip.1, F.block_skip.2, ne_eq, not_true_eq_false, not_false_eq_true, false_and, and_false, and_self, and_true, true_and]
        exact off0_2 (seg2_0 Ast (by omega) (by omega) (by omega)) hβ (by omega) (by omega) (l0 rfl rfl)
      simp only [Cuda.adjPoissonOffdiagBt4, Cuda.adjOffdiagBt0, o1, o2, ↓reduceIte, Int.reduceEq, F.doLoop_skip, F.block_skip.1, F.block_skip.2, ite_self, ne_eq, not_true_eq_false, not_false_eq_true, false_and, and_false, and_self, and_true, true_and]
      exact Both.skip
    by_cases t1 : btype = 1
    · subst t1
      simp only [↓reduceIte, Int.reduceEq, F.doLoop_skip, F.block_skip.1, F.block_skip.2, ne_eq, not_true_eq_false, not_false_eq_true, false_and, and_false, and_self, and_true, true_and]
      exact off1 (seg2_0 Ast (by omega) (by omega) (by omega)) hβ (by omega)
    simp only [Cuda.adjPoissonOffdiagBt4, Cuda.adjOffdiagBt0, t4, t0, t1, ↓reduceIte, Int.reduceEq, F.doLoop_skip, F.block_skip.1, F.block_skip.2, ite_self, ne_eq, not_true_eq_false, not_false_eq_true, false_and, and_false, and_self, and_true, true_and]
    exact Both.skip
  · replace hx := hx rfl
    refine Both.bind mkI <| Both.bind mkPI <| Both.bind mkJ <| Both.bind mkPJ <| Both.bind mkW <| Both.bind spst <| Both.bind (a := dx 0) rfl <| Both.bind (a := (2 : Int)) rfl <| Both.bind (a := (1 : Int)) rfl <| Both.bind (localize_ok (l := pi0 - 2 * 1 + 1) (by omega) nI.1 rfl) <| Both.bind (localize_ok (l := pj0 - 2 * 1 + 1) (by omega) nJ.1 rfl) <| ?_
    simp only [↓reduceIte, Int.reduceEq, F.doLoop_skip, ← farr_st2]
    by_cases t4 : btype = 4
    · subst t4
      by_cases o1 : exOrder = 1
      · subst o1
        simp only [↓reduceIte, Int.reduceEq, F.doLoop_skip, F.block_skip.1, F.block_skip.2, ne_eq, not_true_eq_false, not_false_eq_true, false_and, and_false, and_self, and_true, true_and]
        exact poff4_1 (seg2_0 Ast (by omega) (by omega) (by omega)) hβ (by omega) (l41 rfl rfl)
      by_cases o2 : exOrder = 2
      · subst o2
        simp only [o1, ↓reduceIte, Int.reduceEq, F.doLoop_skip, F.block_skip.1, F.block_skip.2, ne_eq, not_true_eq_false, not_false_eq_true, false_and, and_false, and_self, and_true, true_and]
        exact poff4_2 (seg2_0 Ast (by omega) (by omega) (by omega)) hβ (by omega) (by omega) (l42 rfl rfl)
      simp only [Cuda.adjPoissonOffdiagBt4, Cuda.adjOffdiagBt0, o1, o2, ↓reduceIte, Int.reduceEq, F.doLoop_skip, F.block_skip.1, F.block_skip.2, ite_self, ne_eq, not_true_eq_false, not_false_eq_true, false_and, and_false, and_self, and_true, true_and]
      exact Both.skip
    by_cases t0 : btype = 0
    · subst t0
      by_cases o1 : exOrder = 1
      · subst o1
        simp only [↓reduceIte, Int.reduceEq, F.doLoop_skip, F.block_skip.1, F.block_skip.2, ne_eq, not_true_eq_false, not_false_eq_true, false_and, and_false, and_self, and_true, true_and]
        exact off0_1 (seg2_0 Ast (by omega) (by omega) (by omega)) hβ (by omega)
      by_cases o2 : exOrder = 2
      · subst o2
        simp only [o1, ↓reduceIte, Int.reduceEq, F.doLoop_skip, F.block_skip.1, F.block_skip.2, ne_eq, not_true_eq_false, not_false_eq_true, false_and, and_false, and_self, and_true, true_and]
        exact off0_2 (seg2_0 Ast (by omega) (by omega) (by omega)) hβ (by omega) (by omega) (l0 rfl rfl)
      simp only [Cuda.adjPoissonOffdiagBt4, Cuda.adjOffdiagBt0, o1, o2, ↓reduceIte, Int.reduceEq, F.doLoop_skip, F.block_skip.1, F.block_skip.2, ite_self, ne_eq, not_true_eq_false, not_false_eq_true, false_and, and_false, and_self, and_true, true_and]
      exact Both.skip
    by_cases t1 : btype = 1
    · subst t1
      simp only [↓reduceIte, Int.reduceEq, F.doLoop_skip, F.block_skip.1, F.block_skip.2, ne_eq, not_true_eq_false, not_false_eq_true, false_and, and_false, and_self, and_true, true_and]
      exact off1 (seg2_0 Ast (by omega) (by omega) (by omega)) hβ (by omega)
    simp only [Cuda.adjPoissonOffdiagBt4, Cuda.adjOffdiagBt0, t4, t0, t1, ↓reduceIte, Int.reduceEq, F.doLoop_skip, F.block_skip.1, F.block_skip.2, ite_self, ne_eq, not_true_eq_false, not_false_eq_true, false_and, and_false, and_self, and_true, true_and]
    exact Both.skip
  · replace hy := hy rfl
    refine Both.bind mkI <| Both.bind mkPI <| Both.bind mkJ <| Both.bind mkPJ <| Both.bind mkW <| Both.bind spst <| Both.bind (a := dx 1) rfl <| Both.bind (a := (3 : Int)) rfl <| Both.bind (a := (4 : Int)) rfl <| Both.bind (localize_ok (l := pi0 - 2 * 0 + 1) (by omega) nI.1 rfl) <| Both.bind (localize_ok (l := pj0 - 2 * 0 + 1) (by omega) nJ.1 rfl) <| ?_
    simp only [↓reduceIte, Int.reduceEq, F.doLoop_skip, ← farr_st2]
    by_cases t4 : btype = 4
    · subst t4
      by_cases o1 : exOrder = 1
      · subst o1
        simp only [Cuda.adjPoissonOffdiagBt4, Cuda.adjOffdiagBt0, ↓reduceIte, Int.reduceEq, F.doLoop_skip, F.block_skip.1, F.block_skip.2, ite_self, ne_eq, not_true_eq_false, not_false_eq_true, false_and, and_false, and_self, and_true, true_and]
        exact Both.skip
      by_cases o2 : exOrder = 2
      · subst o2
        simp only [Cuda.adjPoissonOffdiagBt4, Cuda.adjOffdiagBt0, o1, ↓reduceIte, Int.reduceEq, F.doLoop_skip, F.block_skip.1, F.block_skip.2, ite_self, ne_eq, not_true_eq_false, not_false_eq_true, false_and, and_false, and_self, and_true, true_and]
        exact Both.skip
      simp only [Cuda.adjPoissonOffdiagBt4, Cuda.adjOffdiagBt0, o1, o2, ↓reduceIte, Int.reduceEq, F.doLoop_skip, F.block_skip.1, F.block_skip.2, ite_self, ne_eq, not_true_eq_false, not_false_eq_true, false_and, and_false, and_self, and_true, true_and]
      exact Both.skip
    by_cases t0 : btype = 0
    · subst t0
      by_cases o1 : exOrder = 1
      · subst o1
        simp only [↓reduceIte, Int.reduceEq, F.doLoop_skip, F.block_skip.1, F.block_skip.2, ne_eq, not_true_eq_false, not_false_eq_true, false_and, and_false, and_self, and_true, true_and]
        exact off0_1 (seg2_1 Ast (by omega) (by omega) (by omega)) hβ (by omega)
      by_cases o2 : exOrder = 2
      · subst o2
        simp only [o1, ↓reduceIte, Int.reduceEq, F.doLoop_skip, F.block_skip.1, F.block_skip.2, ne_eq, not_true_eq_false, not_false_eq_true, false_and, and_false, and_self, and_true, true_and]
        exact off0_2 (seg2_1 Ast (by omega) (by omega) (by omega)) hβ (by omega) (by omega) (l0 rfl rfl)
      simp only [Cuda.adjPoissonOffdiagBt4, Cuda.adjOffdiagBt0, o1, o2, ↓reduceIte, Int.reduceEq, F.doLoop_skip, F.block_skip.1, F.block_skip.2, ite_self, ne_eq, not_true_eq_false, not_false_eq_true, false_and, and_false, and_self, and_true, true_and]
      exact Both.skip
    by_cases t1 : btype = 1
    · subst t1
      simp only [↓reduceIte, Int.reduceEq, F.doLoop_skip, F.block_skip.1, F.block_skip.2, ne_eq, not_true_eq_false, not_false_eq_true, false_and, and_false, and_self, and_true, true_and]
      exact off1 (seg2_1 Ast (by omega) (by omega) (by omega)) hβ (by omega)
    simp only [Cuda.adjPoissonOffdiagBt4, Cuda.adjOffdiagBt0, t4, t0, t1, ↓reduceIte, Int.reduceEq, F.doLoop_skip, F.block_skip.1, F.block_skip.2, ite_self, ne_eq, not_true_eq_false, not_false_eq_true, false_and, and_false, and_self, and_true, true_and]
    exact Both.skip
  · replace hy := hy rfl
    refine Both.bind mkI <| Both.bind mkPI <| Both.bind mkJ <| Both.bind mkPJ <| Both.bind mkW <| Both.bind spst <| Both.bind (a := dx 1) rfl <| Both.bind (a := (4 : Int)) rfl <| Both.bind (a := (3 : Int)) rfl <| Both.bind (localize_ok (l := pi0 - 2 * 1 + 1) (by omega) nI.1 rfl) <| Both.bind (localize_ok (l := pj0 - 2 * 1 + 1) (by omega) nJ.1 rfl) <| ?_
    simp only [↓reduceIte, Int.reduceEq, F.doLoop_skip, ← farr_st2]
    by_cases t4 : btype = 4
    · subst t4
      by_cases o1 : exOrder = 1
      · subst o1
        simp only [Cuda.adjPoissonOffdiagBt4, Cuda.adjOffdiagBt0, ↓reduceIte, Int.reduceEq, F.doLoop_skip, F.block_skip.1, F.block_skip.2, ite_self, ne_eq, not_true_eq_false, not_false_eq_true, false_and, and_false, and_self, and_true, true_and]
        exact Both.skip
      by_cases o2 : exOrder = 2
      · subst o2
        simp only [Cuda.adjPoissonOffdiagBt4, Cuda.adjOffdiagBt0, o1, ↓reduceIte, Int.reduceEq, F.doLoop_skip, F.block_skip.1, F.block_skip.2, ite_self, ne_eq, not_true_eq_false, not_false_eq_true, false_and, and_false, and_self, and_true, true_and]
        exact Both.skip
      simp only [Cuda.adjPoissonOffdiagBt4, Cuda.adjOffdiagBt0, o1, o2, ↓reduceIte, Int.reduceEq, F.doLoop_skip, F.block_skip.1, F.block_skip.2, ite_self, ne_eq, not_true_eq_false, not_false_eq_true, false_and, and_false, and_self, and_true, true_and]
      exact Both.skip
    by_cases t0 : btype = 0
    · subst t0
      by_cases o1 : exOrder = 1
      · subst o1
        simp only [↓reduceIte, Int.reduceEq, F.doLoop_skip, F.block_skip.1, F.block_skip.2, ne_eq, not_true_eq_false, not_false_eq_true, false_and, and_false, and_self, and_true, true_and]
        exact off0_1 (seg2_1 Ast (by omega) (by omega) (by omega)) hβ (by omega)
      by_cases o2 : exOrder = 2
      · subst o2
        simp only [o1, ↓reduceIte, Int.reduceEq, F.doLoop_skip, F.block_skip.1, F.block_skip.2, ne_eq, not_true_eq_false, not_false_eq_true, false_and, and_false, and_self, and_true, true_and]
        exact off0_2 (seg2_1 Ast (by omega) (by omega) (by omega)) hβ (by omega) (by omega) (l0 rfl rfl)
      simp only [Cuda.adjPoissonOffdiagBt4, Cuda.adjOffdiagBt0, o1, o2, ↓reduceIte, Int.reduceEq, F.doLoop_skip, F.block_skip.1, F.block_skip.2, ite_self, ne_eq, not_true_eq_false, not_false_eq_true, false_and, and_false, and_self, and_true, true_and]
      exact Both.skip
    by_cases t1 : btype = 1
    · subst t1
      simp only [↓reduceIte, Int.reduceEq, F.doLoop_skip, F.block_skip.1, F.block_skip.2, ne_eq, not_true_eq_false, not_false_eq_true, false_and, and_false, and_self, and_true, true_and]
      exact off1 (seg2_1 Ast (by omega) (by omega) (by omega)) hβ (by omega)
    simp only [Cuda.adjPoissonOffdiagBt4, Cuda.adjOffdiagBt0, t4, t0, t1, ↓reduceIte, Int.reduceEq, F.doLoop_skip, F.block_skip.1, F.block_skip.2, ite_self, ne_eq, not_true_eq_false, not_false_eq_true, false_and, and_false, and_self, and_true, true_and]
    exact Both.skip

example : ∃ m', Cuda.adjPoissonOffdiag2d 0 0 3 2 4 0 4 2 0 1 4 2 exDxB 2 3 4 1 ⟨2, 0⟩ revBackend exB64 = .ok m' ∧
    F.adjcellpoissonoffdiag2d 0 0 3 2 4 0 4 2 0 1 4 2 exDxB 2 3 4 1 ⟨2, 0⟩ exB64 = .ok m' :=
  C49_adj_poisson_offdiag_2d revBackend_ok (fun _ _ => B64.mul_comm) (fun _ _ => B64.neg_mul _) (fun h => absurd h (by decide)) (by decide) (by decide) (by decide) (by constructor <;> (try simp only [InInt]) <;> decide) (by ex_argsB)

/-- `cd_stencil_2d_cuda::adj_cf_offdiag` and `adjcelldiffusioncfoffdiag2d` leave the same memory, for every schedule and in every arithmetic, wherever the multiple of a quotient is the quotient of the multiple. -/
theorem C49_adj_cf_offdiag_2d {i0 j0 i1 j1 ci0 cj0 ci1 cj1 r dir side intOrder sgcw : Int} {st_ : Ptr} {β : Backend} {m : Mem T}
    (hβ : ValidBackend β)
    (l1 : intOrder = 1 → ∀ x : T, x * (2 / 3) = 2 * x / 3)
    (l2 : intOrder = 2 → (∀ x : T, x * (((r : T) - 1) / ((r : T) + 3)) = x * ((r : T) - 1) / ((r : T) + 3)) ∧
      ∀ x : T, x * (8 / (((r : T) + 1) * ((r : T) + 3))) = 8 * x / (((r : T) + 1) * ((r : T) + 3)))
    (hi : i0 ≤ i1) (hj : j0 ≤ j1) (hg : 0 ≤ sgcw) (hl : Layer2 i0 j0 i1 j1 sgcw ci0 cj0 ci1 cj1 dir side)
    (h : F.Args m [] [F.st2d st_ i0 j0 i1 j1 sgcw]) :
    ∃ m', Cuda.adjCfOffdiag2d i0 j0 i1 j1 ci0 cj0 ci1 cj1 r dir side intOrder sgcw st_ β m = .ok m' ∧ F.adjcelldiffusioncfoffdiag2d i0 j0 i1 j1 ci0 cj0 ci1 cj1 r dir side intOrder sgcw st_ m = .ok m' := by
  have hst := h.ok (F.st2d st_ i0 j0 i1 j1 sgcw) (by simp)
  obtain ⟨Ast, spst, Ii, Ij⟩ := st2_setup hst hi hj hg
  have mkI := mkB_near (d := .I) (lo := i0) (hi := i1) (by rng)
  have mkJ := mkB_near (d := .J) (lo := j0) (hi := j1) (by rng)
  have mkW := mkB_near (d := .W) (lo := 0) (hi := 4) (by rng)
  obtain ⟨hd, hs, hx, hy, nI, nJ⟩ := hl
  have mkPI := mkB_near (d := .I) (lo := ci0) nI.2
  have mkPJ := mkB_near (d := .J) (lo := cj0) nJ.2
  have hd : dir = 0 ∨ dir = 1 := by omega
  show Both (Cuda.adjCfOffdiag2d i0 j0 i1 j1 ci0 cj0 ci1 cj1 r dir side intOrder sgcw st_ β m) (F.adjcelldiffusioncfoffdiag2d i0 j0 i1 j1 ci0 cj0 ci1 cj1 r dir side intOrder sgcw st_) m
  unfold Cuda.adjCfOffdiag2d F.adjcelldiffusioncfoffdiag2d
  rcases hd with rfl | rfl <;> rcases hs with rfl | rfl
  · replace hx := hx rfl
    refine Both.bind mkI <| Both.bind mkPI <| Both.bind mkJ <| Both.bind mkPJ <| Both.bind mkW <| Both.bind spst <| Both.bind (localize_ok (l := ci0 - 2 * 0 + 1) (by omega) nI.1 rfl) <| Both.bind (localize_ok (l := cj0 - 2 * 0 + 1) (by omega) nJ.1 rfl) <| Both.bind (a := (1 : Int)) rfl <| Both.bind (a := (2 : Int)) rfl <| ?_
    simp only [↓reduceIte, Int.reduceEq, F.doLoop_skip, ← farr_st2]
    by_cases o1 : intOrder = 1
    · subst o1
      simp only [↓reduceIte, Int.reduceEq, F.doLoop_skip, F.block_skip.1, F.block_skip.2, ne_eq, not_true_eq_false, not_false_eq_true, false_and, and_false, and_self, and_true, true_and]
      exact cfo1 (seg2_0 Ast (by omega) (by omega) (by omega)) hβ (by omega) (l1 rfl)
    by_cases o2 : intOrder = 2
    · subst o2
      simp only [o1, ↓reduceIte, Int.reduceEq, F.doLoop_skip, F.block_skip.1, F.block_skip.2, ne_eq, not_true_eq_false, not_false_eq_true, false_and, and_false, and_self, and_true, true_and]
      exact cfo2 (seg2_0 Ast (by omega) (by omega) (by omega)) hβ (by omega) (by omega) (l2 rfl)
    simp only [Cuda.adjCfOffdiagFunc, o1, o2, ↓reduceIte, Int.reduceEq, F.doLoop_skip, F.block_skip.1, F.block_skip.2, ite_self, ne_eq, not_true_eq_false, not_false_eq_true, false_and, and_false, and_self, and_true, true_and]
    exact Both.skip
  · replace hx := hx rfl
    refine Both.bind mkI <| Both.bind mkPI <| Both.bind mkJ <| Both.bind mkPJ <| Both.bind mkW <| Both.bind spst <| Both.bind (localize_ok (l := ci0 - 2 * 1 + 1) (by omega) nI.1 rfl) <| Both.bind (localize_ok (l := cj0 - 2 * 1 + 1) (by omega) nJ.1 rfl) <| Both.bind (a := (2 : Int)) rfl <| Both.bind (a := (1 : Int)) rfl <| ?_
    simp only [↓reduceIte, Int.reduceEq, F.doLoop_skip, ← farr_st2]
    by_cases o1 : intOrder = 1
    · subst o1
      simp only [↓reduceIte, Int.reduceEq, F.doLoop_skip, F.block_skip.1, F.block_skip.2, ne_eq, not_true_eq_false, not_false_eq_true, false_and, and_false, and_self, and_true, true_and]
      exact cfo1 (seg2_0 Ast (by omega) (by omega) (by omega)) hβ (by omega) (l1 rfl)
    by_cases o2 : intOrder = 2
    · subst o2
      simp only [o1, ↓reduceIte, Int.reduceEq, F.doLoop_skip, F.block_skip.1, F.block_skip.2, ne_eq, not_true_eq_false, not_false_eq_true, false_and, and_false, and_self, and_true, true_and]
      exact cfo2 (seg2_0 Ast (by omega) (by omega) (by omega)) hβ (by omega) (by omega) (l2 rfl)
    simp only [Cuda.adjCfOffdiagFunc, o1, o2, ↓reduceIte, Int.reduceEq, F.doLoop_skip, F.block_skip.1, F.block_skip.2, ite_self, ne_eq, not_true_eq_false, not_false_eq_true, false_and, and_false, and_self, and_true, true_and]
    exact Both.skip
  · replace hy := hy rfl
    refine Both.bind mkI <| Both.bind mkPI <| Both.bind mkJ <| Both.bind mkPJ <| Both.bind mkW <| Both.bind spst <| Both.bind (localize_ok (l := ci0 - 2 * 0 + 1) (by omega) nI.1 rfl) <| Both.bind (localize_ok (l := cj0 - 2 * 0 + 1) (by omega) nJ.1 rfl) <| Both.bind (a := (3 : Int)) rfl <| Both.bind (a := (4 : Int)) rfl <| ?_
    simp only [↓reduceIte, Int.reduceEq, F.doLoop_skip, ← farr_st2]
    by_cases o1 : intOrder = 1
    · subst o1
      simp only [↓reduceIte, Int.reduceEq, F.doLoop_skip, F.block_skip.1, F.block_skip.2, ne_eq, not_true_eq_false, not_false_eq_true, false_and, and_false, and_self, and_true, true_and]
      exact cfo1 (seg2_1 Ast (by omega) (by omega) (by omega)) hβ (by omega) (l1 rfl)
    by_cases o2 : intOrder = 2
    · subst o2
      simp only [o1, ↓reduceIte, Int.reduceEq, F.doLoop_skip, F.block_skip.1, F.block_skip.2, ne_eq, not_true_eq_false, not_false_eq_true, false_and, and_false, and_self, and_true, true_and]
      exact cfo2 (seg2_1 Ast (by omega) (by omega) (by omega)) hβ (by omega) (by omega) (l2 rfl)
    simp only [Cuda.adjCfOffdiagFunc, o1, o2, ↓reduceIte, Int.reduceEq, F.doLoop_skip, F.block_skip.1, F.block_skip.2, ite_self, ne_eq, not_true_eq_false, not_false_eq_true, false_and, and_false, and_self, and_true, true_and]
    exact Both.skip
  · replace hy := hy rfl
    refine Both.bind mkI <| Both.bind mkPI <| Both.bind mkJ <| Both.bind mkPJ <| Both.bind mkW <| Both.bind spst <| Both.bind (localize_ok (l := ci0 - 2 * 1 + 1) (by omega) nI.1 rfl) <| Both.bind (localize_ok (l := cj0 - 2 * 1 + 1) (by omega) nJ.1 rfl) <| Both.bind (a := (4 : Int)) rfl <| Both.bind (a := (3 : Int)) rfl <| ?_
    simp only [↓reduceIte, Int.reduceEq, F.doLoop_skip, ← farr_st2]
    by_cases o1 : intOrder = 1
    · subst o1
      simp only [↓reduceIte, Int.reduceEq, F.doLoop_skip, F.block_skip.1, F.block_skip.2, ne_eq, not_true_eq_false, not_false_eq_true, false_and, and_false, and_self, and_true, true_and]
      exact cfo1 (seg2_1 Ast (by omega) (by omega) (by omega)) hβ (by omega) (l1 rfl)
    by_cases o2 : intOrder = 2
    · subst o2
      simp only [o1, ↓reduceIte, Int.reduceEq, F.doLoop_skip, F.block_skip.1, F.block_skip.2, ne_eq, not_true_eq_false, not_false_eq_true, false_and, and_false, and_self, and_true, true_and]
      exact cfo2 (seg2_1 Ast (by omega) (by omega) (by omega)) hβ (by omega) (by omega) (l2 rfl)
    simp only [Cuda.adjCfOffdiagFunc, o1, o2, ↓reduceIte, Int.reduceEq, F.doLoop_skip, F.block_skip.1, F.block_skip.2, ite_self, ne_eq, not_true_eq_false, not_false_eq_true, false_and, and_false, and_self, and_true, true_and]
    exact Both.skip

example : ∃ m', Cuda.adjCfOffdiag2d 0 0 3 2 4 0 4 2 2 0 1 2 1 ⟨0, 0⟩ revBackend exRat = .ok m' ∧
    F.adjcelldiffusioncfoffdiag2d 0 0 3 2 4 0 4 2 2 0 1 2 1 ⟨0, 0⟩ exRat = .ok m' :=
  C49_adj_cf_offdiag_2d revBackend_ok (fun _ _ => by ring) (fun _ => ⟨fun _ => by ring, fun _ => by ring⟩) (by decide) (by decide) (by decide) (by constructor <;> (try simp only [InInt]) <;> decide) (by ex_args)

/-- `cd_stencil_3d_cuda::adj_diag` and `adjcelldiffusiondiag3d` leave the same memory, for every schedule and in every arithmetic, wherever multiplying by the coefficient before or after dividing by the mesh width is the same. -/
theorem C49_adj_diag_3d {i0 j0 k0 i1 j1 k1 pi0 pj0 pk0 pi1 pj1 pk1 dir side btype exOrder sgcw : Int} {dx : Nat → T} {beta : T} {b0_ b1_ b2_ st_ : Ptr} {β : Backend} {m : Mem T}
    (hβ : ValidBackend β)
    (l4 : btype = 4 → exOrder = 2 → ∀ b, beta / dx dir.toNat * b = beta * b / dx dir.toNat)
    (l0 : btype = 0 → exOrder = 2 → ∀ b, beta / (3 * dx dir.toNat * dx dir.toNat) * b = beta * b / (3 * dx dir.toNat ^ 2))
    (hi : i0 ≤ i1) (hj : j0 ≤ j1) (hk : k0 ≤ k1) (hg : 0 ≤ sgcw) (hl : Layer3 i0 j0 k0 i1 j1 k1 0 pi0 pj0 pk0 pi1 pj1 pk1 dir side)
    (h : F.Args m [F.face3d0 b0_ i0 j0 k0 i1 j1 k1 0, F.face3d1 b1_ i0 j0 k0 i1 j1 k1 0, F.face3d2 b2_ i0 j0 k0 i1 j1 k1 0] [F.st3d st_ i0 j0 k0 i1 j1 k1 sgcw]) :
    ∃ m', Cuda.adjDiag3d i0 j0 k0 i1 j1 k1 pi0 pj0 pk0 pi1 pj1 pk1 dir side btype exOrder dx beta b0_ b1_ b2_ sgcw st_ β m = .ok m' ∧ F.adjcelldiffusiondiag3d i0 j0 k0 i1 j1 k1 pi0 pj0 pk0 pi1 pj1 pk1 dir side btype exOrder dx beta b0_ b1_ b2_ sgcw st_ m = .ok m' := by
  have hst := h.ok (F.st3d st_ i0 j0 k0 i1 j1 k1 sgcw) (by simp)
  obtain ⟨Ast, spst, Ii, Ij, Ik⟩ := st3_setup hst hi hj hk hg
  have hb0 := h.ok (F.face3d0 b0_ i0 j0 k0 i1 j1 k1 0) (by simp)
  obtain ⟨Ab0, plI, J0⟩ := face30_setup hb0 hi hj hk
  have Pb0 : Apart (sSt3 st_ i0 j0 k0 i1 j1 k1 sgcw) (sFace30 b0_ i0 j0 k0 i1 j1 k1) := apart_of farr_st3 farr_face30 (h.apart _ (by simp) _ (by simp))
  have hb1 := h.ok (F.face3d1 b1_ i0 j0 k0 i1 j1 k1 0) (by simp)
  obtain ⟨Ab1, plJ, J1⟩ := face31_setup hb1 hi hj hk
  have Pb1 : Apart (sSt3 st_ i0 j0 k0 i1 j1 k1 sgcw) (sFace31 b1_ i0 j0 k0 i1 j1 k1) := apart_of farr_st3 farr_face31 (h.apart _ (by simp) _ (by simp))
  have hb2 := h.ok (F.face3d2 b2_ i0 j0 k0 i1 j1 k1 0) (by simp)
  obtain ⟨Ab2, plK, J2⟩ := face32_setup hb2 hi hj hk
  have Pb2 : Apart (sSt3 st_ i0 j0 k0 i1 j1 k1 sgcw) (sFace32 b2_ i0 j0 k0 i1 j1 k1) := apart_of farr_st3 farr_face32 (h.apart _ (by simp) _ (by simp))
  have mkI := mkB_near (d := .I) (lo := i0) (hi := i1) (by rng)
  have mkJ := mkB_near (d := .J) (lo := j0) (hi := j1) (by rng)
  have mkK := mkB_near (d := .K) (lo := k0) (hi := k1) (by rng)
  have mkW := mkB_near (d := .W) (lo := 0) (hi := 6) (by rng)
  obtain ⟨hd, hs, hx, hy, hz, nI, nJ, nK⟩ := hl
  have mkPI := mkB_near (d := .I) (lo := pi0) nI.2
  have mkPJ := mkB_near (d := .J) (lo := pj0) nJ.2
  have mkPK := mkB_near (d := .K) (lo := pk0) nK.2
  have hd : dir = 0 ∨ dir = 1 ∨ dir = 2 := by omega
  show Both (Cuda.adjDiag3d i0 j0 k0 i1 j1 k1 pi0 pj0 pk0 pi1 pj1 pk1 dir side btype exOrder dx beta b0_ b1_ b2_ sgcw st_ β m) (F.adjcelldiffusiondiag3d i0 j0 k0 i1 j1 k1 pi0 pj0 pk0 pi1 pj1 pk1 dir side btype exOrder dx beta b0_ b1_ b2_ sgcw st_) m
  unfold Cuda.adjDiag3d F.adjcelldiffusiondiag3d
  rcases hd with rfl | rfl | rfl <;> rcases hs with rfl | rfl
  · replace hx := hx rfl
    refine Both.bind mkI <| Both.bind mkPI <| Both.bind mkJ <| Both.bind mkPJ <| Both.bind mkK <| Both.bind mkPK <| Both.bind mkW <| Both.bind spst <| Both.bind plI <| Both.bind plJ <| Both.bind plK <| Both.bind (a := dx 0) rfl <| Both.bind (localize_ok (l := pi0 - 2 * 0 + 1) (by omega) nI.1 rfl) <| Both.bind (localize_ok (l := pj0 - 2 * 0 + 1) (by omega) nJ.1 rfl) <| Both.bind (localize_ok (l := pk0 - 2 * 0 + 1) (by omega) nK.1 rfl) <| ?_
    simp only [↓reduceIte, Int.reduceEq, F.doLoop_skip, ← farr_st3]
    by_cases t4 : btype = 4
    · subst t4
      by_cases o2 : exOrder = 2
      · subst o2
        simp only [↓reduceIte, Int.reduceEq, F.doLoop_skip, F.block_skip.1, F.block_skip.2, ne_eq, not_true_eq_false, not_false_eq_true, false_and, and_false, and_self, and_true, true_and]
        exact diag4 (seg3_0 Ast (by omega) (by omega) (by omega) (by omega)) (by omega) hβ (face_at30 Ab0 Pb0 (by omega) (by omega) (by omega) (by omega) (by omega)) (l4 rfl rfl)
      by_cases o1 : exOrder = 1
      · subst o1
        simp only [Cuda.adjDiagBt4, Cuda.adjDiagBt0, ↓reduceIte, Int.reduceEq, F.doLoop_skip, F.block_skip.1, F.block_skip.2, ite_self, ne_eq, not_true_eq_false, not_false_eq_true, false_and, and_false, and_self, and_true, true_and]
        exact Both.skip
      simp only [Cuda.adjDiagBt4, Cuda.adjDiagBt0, o2, o1, ↓reduceIte, Int.reduceEq, F.doLoop_skip, F.block_skip.1, F.block_skip.2, ite_self, ne_eq, not_true_eq_false, not_false_eq_true, false_and, and_false, and_self, and_true, true_and]
      exact Both.skip
    by_cases t0 : btype = 0
    · subst t0
      by_cases o2 : exOrder = 2
      · subst o2
        simp only [↓reduceIte, Int.reduceEq, F.doLoop_skip, F.block_skip.1, F.block_skip.2, ne_eq, not_true_eq_false, not_false_eq_true, false_and, and_false, and_self, and_true, true_and]
        exact diag0 (seg3_0 Ast (by omega) (by omega) (by omega) (by omega)) (by omega) hβ (face_on30 Ab0 Pb0 (by omega) (by omega) (by omega) (by omega)) (l0 rfl rfl)
      by_cases o1 : exOrder = 1
      · subst o1
        simp only [Cuda.adjDiagBt4, Cuda.adjDiagBt0, ↓reduceIte, Int.reduceEq, F.doLoop_skip, F.block_skip.1, F.block_skip.2, ite_self, ne_eq, not_true_eq_false, not_false_eq_true, false_and, and_false, and_self, and_true, true_and]
        exact Both.skip
      simp only [Cuda.adjDiagBt4, Cuda.adjDiagBt0, o2, o1, ↓reduceIte, Int.reduceEq, F.doLoop_skip, F.block_skip.1, F.block_skip.2, ite_self, ne_eq, not_true_eq_false, not_false_eq_true, false_and, and_false, and_self, and_true, true_and]
      exact Both.skip
    by_cases t1 : btype = 1
    · subst t1
      simp only [Cuda.adjDiagBt4, Cuda.adjDiagBt0, ↓reduceIte, Int.reduceEq, F.doLoop_skip, F.block_skip.1, F.block_skip.2, ite_self, ne_eq, not_true_eq_false, not_false_eq_true, false_and, and_false, and_self, and_true, true_and]
      exact Both.skip
    simp only [Cuda.adjDiagBt4, Cuda.adjDiagBt0, t4, t0, t1, ↓reduceIte, Int.reduceEq, F.doLoop_skip, F.block_skip.1, F.block_skip.2, ite_self, ne_eq, not_true_eq_false, not_false_eq_true, false_and, and_false, and_self, and_true, true_and]
    exact Both.skip
  · replace hx := hx rfl
    refine Both.bind mkI <| Both.bind mkPI <| Both.bind mkJ <| Both.bind mkPJ <| Both.bind mkK <| Both.bind mkPK <| Both.bind mkW <| Both.bind spst <| Both.bind plI <| Both.bind plJ <| Both.bind plK <| Both.bind (a := dx 0) rfl <| Both.bind (localize_ok (l := pi0 - 2 * 1 + 1) (by omega) nI.1 rfl) <| Both.bind (localize_ok (l := pj0 - 2 * 1 + 1) (by omega) nJ.1 rfl) <| Both.bind (localize_ok (l := pk0 - 2 * 1 + 1) (by omega) nK.1 rfl) <| ?_
    simp only [↓reduceIte, Int.reduceEq, F.doLoop_skip, ← farr_st3]
    by_cases t4 : btype = 4
    · subst t4
      by_cases o2 : exOrder = 2
      · subst o2
        simp only [↓reduceIte, Int.reduceEq, F.doLoop_skip, F.block_skip.1, F.block_skip.2, ne_eq, not_true_eq_false, not_false_eq_true, false_and, and_false, and_self, and_true, true_and]
        exact diag4 (seg3_0 Ast (by omega) (by omega) (by omega) (by omega)) (by omega) hβ (face_at30 Ab0 Pb0 (by omega) (by omega) (by omega) (by omega) (by omega)) (l4 rfl rfl)
      by_cases o1 : exOrder = 1
      · subst o1
        simp only [Cuda.adjDiagBt4, Cuda.adjDiagBt0, ↓reduceIte, Int.reduceEq, F.doLoop_skip, F.block_skip.1, F.block_skip.2, ite_self, ne_eq, not_true_eq_false, not_false_eq_true, false_and, and_false, and_self, and_true, true_and]
        exact Both.skip
      simp only [Cuda.adjDiagBt4, Cuda.adjDiagBt0, o2, o1, ↓reduceIte, Int.reduceEq, F.doLoop_skip, F.block_skip.1, F.block_skip.2, ite_self, ne_eq, not_true_eq_false, not_false_eq_true, false_and, and_false, and_self, and_true, true_and]
      exact Both.skip
    by_cases t0 : btype = 0
    · subst t0
      by_cases o2 : exOrder = 2
      · subst o2
        simp only [↓reduceIte, Int.reduceEq, F.doLoop_skip, F.block_skip.1, F.block_skip.2, ne_eq, not_true_eq_false, not_false_eq_true, false_and, and_false, and_self, and_true, true_and]
        exact diag0 (seg3_0 Ast (by omega) (by omega) (by omega) (by omega)) (by omega) hβ (face_on30 Ab0 Pb0 (by omega) (by omega) (by omega) (by omega)) (l0 rfl rfl)
      by_cases o1 : exOrder = 1
      · subst o1
        simp only [Cuda.adjDiagBt4, Cuda.adjDiagBt0, ↓reduceIte, Int.reduceEq, F.doLoop_skip, F.block_skip.1, F.block_skip.2, ite_self, ne_eq, not_true_eq_false, not_false_eq_true, false_and, and_false, and_self, and_true, true_and]
        exact Both.skip
      simp only [Cuda.adjDiagBt4, Cuda.adjDiagBt0, o2, o1, ↓reduceIte, Int.reduceEq, F.doLoop_skip, F.block_skip.1, F.block_skip.2, ite_self, ne_eq, not_true_eq_false, not_false_eq_true, false_and, and_false, and_self, and_true, true_and]
      exact Both.skip
    by_cases t1 : btype = 1
    · subst t1
      simp only [Cuda.adjDiagBt4, Cuda.adjDiagBt0, ↓reduceIte, Int.reduceEq, F.doLoop_skip, F.block_skip.1, F.block_skip.2, ite_self, ne_eq, not_true_eq_false, not_false_eq_true, false_and, and_false, and_self, and_true, true_and]
      exact Both.skip
    simp only [Cuda.adjDiagBt4, Cuda.adjDiagBt0, t4, t0, t1, ↓reduceIte, Int.reduceEq, F.doLoop_skip, F.block_skip.1, F.block_skip.2, ite_self, ne_eq, not_true_eq_false, not_false_eq_true, false_and, and_false, and_self, and_true, true_and]
    exact Both.skip
  · replace hy := hy rfl
    refine Both.bind mkI <| Both.bind mkPI <| Both.bind mkJ <| Both.bind mkPJ <| Both.bind mkK <| Both.bind mkPK <| Both.bind mkW <| Both.bind spst <| Both.bind plI <| Both.bind plJ <| Both.bind plK <| Both.bind (a := dx 1) rfl <| Both.bind (localize_ok (l := pi0 - 2 * 0 + 1) (by omega) nI.1 rfl) <| Both.bind (localize_ok (l := pj0 - 2 * 0 + 1) (by omega) nJ.1 rfl) <| Both.bind (localize_ok (l := pk0 - 2 * 0 + 1) (by omega) nK.1 rfl) <| ?_
    simp only [↓reduceIte, Int.reduceEq, F.doLoop_skip, ← farr_st3]
    by_cases t4 : btype = 4
    · subst t4
      by_cases o2 : exOrder = 2
      · subst o2
        simp only [↓reduceIte, Int.reduceEq, F.doLoop_skip, F.block_skip.1, F.block_skip.2, ne_eq, not_true_eq_false, not_false_eq_true, false_and, and_false, and_self, and_true, true_and]
        exact diag4 (seg3_1 Ast (by omega) (by omega) (by omega) (by omega)) (by omega) hβ (face_at31 Ab1 Pb1 (by omega) (by omega) (by omega) (by omega) (by omega)) (l4 rfl rfl)
      by_cases o1 : exOrder = 1
      · subst o1
        simp only [Cuda.adjDiagBt4, Cuda.adjDiagBt0, ↓reduceIte, Int.reduceEq, F.doLoop_skip, F.block_skip.1, F.block_skip.2, ite_self, ne_eq, not_true_eq_false, not_false_eq_true, false_and, and_false, and_self, and_true, true_and]
        exact Both.skip
      simp only [Cuda.adjDiagBt4, Cuda.adjDiagBt0, o2, o1, ↓reduceIte, Int.reduceEq, F.doLoop_skip, F.block_skip.1, F.block_skip.2, ite_self, ne_eq, not_true_eq_false, not_false_eq_true, false_and, and_false, and_self, and_true, true_and]
      exact Both.skip
    by_cases t0 : btype = 0
    · subst t0
      by_cases o2 : exOrder = 2
      · subst o2
        simp only [↓reduceIte, Int.reduceEq, F.doLoop_skip, F.block_skip.1, F.block_skip.2, ne_eq, not_true_eq_false, not_false_eq_true, false_and, and_false, and_self, and_true, true_and]
        exact diag0 (seg3_1 Ast (by omega) (by omega) (by omega) (by omega)) (by omega) hβ (face_on31 Ab1 Pb1 (by omega) (by omega) (by omega) (by omega)) (l0 rfl rfl)
      by_cases o1 : exOrder = 1
      · subst o1
        simp only [Cuda.adjDiagBt4, Cuda.adjDiagBt0, ↓reduceIte, Int.reduceEq, F.doLoop_skip, F.block_skip.1, F.block_skip.2, ite_self, ne_eq, not_true_eq_false, not_false_eq_true, false_and, and_false, and_self, and_true, true_and]
        exact Both.skip
      simp only [Cuda.adjDiagBt4, Cuda.adjDiagBt0, o2, o1, ↓reduceIte, Int.reduceEq, F.doLoop_skip, F.block_skip.1, F.block_skip.2, ite_self, ne_eq, not_true_eq_false, not_false_eq_true, false_and, and_false, and_self, and_true, true_and]
      exact Both.skip
    by_cases t1 : btype = 1
    · subst t1
      simp only [Cuda.adjDiagBt4, Cuda.adjDiagBt0, ↓reduceIte, Int.reduceEq, F.doLoop_skip, F.block_skip.1, F.block_skip.2, ite_self, ne_eq, not_true_eq_false, not_false_eq_true, false_and, and_false, and_self, and_true, true_and]
      exact Both.skip
    simp only [Cuda.adjDiagBt4, Cuda.adjDiagBt0, t4, t0, t1, ↓reduceIte, Int.reduceEq, F.doLoop_skip, F.block_skip.1, F.block_skip.2, ite_self, ne_eq, not_true_eq_false, not_false_eq_true, false_and, and_false, and_self, and_true, true_and]
    exact Both.skip
  · replace hy := hy rfl
    refine Both.bind mkI <| Both.bind mkPI <| Both.bind mkJ <| Both.bind mkPJ <| Both.bind mkK <| Both.bind mkPK <| Both.bind mkW <| Both.bind spst <| Both.bind plI <| Both.bind plJ <| Both.bind plK <| Both.bind (a := dx 1) rfl <| Both.bind (localize_ok (l := pi0 - 2 * 1 + 1) (by omega) nI.1 rfl) <| Both.bind (localize_ok (l := pj0 - 2 * 1 + 1) (by omega) nJ.1 rfl) <| Both.bind (localize_ok (l := pk0 - 2 * 1 + 1) (by omega) nK.1 rfl) <| ?_
    simp only [↓reduceIte, Int.reduceEq, F.doLoop_skip, ← farr_st3]
    by_cases t4 : btype = 4
    · subst t4
      by_cases o2 : exOrder = 2
      · subst o2
        simp only [↓reduceIte, Int.reduceEq, F.doLoop_skip, F.block_skip.1, F.block_skip.2, ne_eq, not_true_eq_false, not_false_eq_true, false_and, and_false, and_self, and_true, true_and]
        exact diag4 (seg3_1 Ast (by omega) (by omega) (by omega) (by omega)) (by omega) hβ (face_at31 Ab1 Pb1 (by omega) (by omega) (by omega) (by omega) (by omega)) (l4 rfl rfl)
      by_cases o1 : exOrder = 1
      · subst o1
        simp only [Cuda.adjDiagBt4, Cuda.adjDiagBt0, ↓reduceIte, Int.reduceEq, F.doLoop_skip, F.block_skip.1, F.block_skip.2, ite_self, ne_eq, not_true_eq_false, not_false_eq_true, false_and, and_false, and_self, and_true, true_and]
        exact Both.skip
      simp only [Cuda.adjDiagBt4, Cuda.adjDiagBt0, o2, o1, ↓reduceIte, Int.reduceEq, F.doLoop_skip, F.block_skip.1, F.block_skip.2, ite_self, ne_eq, not_true_eq_false, not_false_eq_true, false_and, and_false, and_self, and_true, true_and]
      exact Both.skip
    by_cases t0 : btype = 0
    · subst t0
      by_cases o2 : exOrder = 2
      · subst o2
        simp only [↓reduceIte, Int.reduceEq, F.doLoop_skip, F.block_skip.1, F.block_skip.2, ne_eq, not_true_eq_false, not_false_eq_true, false_and, and_false, and_self, and_true, true_and]
        exact diag0 (seg3_1 Ast (by omega) (by omega) (by omega) (by omega)) (by omega) hβ (face_on31 Ab1 Pb1 (by omega) (by omega) (by omega) (by omega)) (l0 rfl rfl)
      by_cases o1 : exOrder = 1
      · subst o1
        simp only [Cuda.adjDiagBt4, Cuda.adjDiagBt0, ↓reduceIte, Int.reduceEq, F.doLoop_skip, F.block_skip.1, F.block_skip.2, ite_self, ne_eq, not_true_eq_false, not_false_eq_true, false_and, and_false, and_self, and_true, true_and]
        exact Both.skip
      simp only [Cuda.adjDiagBt4, Cuda.adjDiagBt0, o2, o1, ↓reduceIte, Int.reduceEq, F.doLoop_skip, F.block_skip.1, F.block_skip.2, ite_self, ne_eq, not_true_eq_false, not_false_eq_true, false_and, and_false, and_self, and_true, true_and]
      exact Both.skip
    by_cases t1 : btype = 1
    · subst t1
      simp only [Cuda.adjDiagBt4, Cuda.adjDiagBt0, ↓reduceIte, Int.reduceEq, F.doLoop_skip, F.block_skip.1, F.block_skip.2, ite_self, ne_eq, not_true_eq_false, not_false_eq_true, false_and, and_false, and_self, and_true, true_and]
      exact Both.skip
    simp only [Cuda.adjDiagBt4, Cuda.adjDiagBt0, t4, t0, t1, ↓reduceIte, Int.reduceEq, F.doLoop_skip, F.block_skip.1, F.block_skip.2, ite_self, ne_eq, not_true_eq_false, not_false_eq_true, false_and, and_false, and_self, and_true, true_and]
    exact Both.skip
  · replace hz := hz rfl
    refine Both.bind mkI <| Both.bind mkPI <| Both.bind mkJ <| Both.bind mkPJ <| Both.bind mkK <| Both.bind mkPK <| Both.bind mkW <| Both.bind spst <| Both.bind plI <| Both.bind plJ <| Both.bind plK <| Both.bind (a := dx 2) rfl <| Both.bind (localize_ok (l := pi0 - 2 * 0 + 1) (by omega) nI.1 rfl) <| Both.bind (localize_ok (l := pj0 - 2 * 0 + 1) (by omega) nJ.1 rfl) <| Both.bind (localize_ok (l := pk0 - 2 * 0 + 1) (by omega) nK.1 rfl) <| ?_
    simp only [↓reduceIte, Int.reduceEq, F.doLoop_skip, ← farr_st3]
    by_cases t4 : btype = 4
    · subst t4
      by_cases o2 : exOrder = 2
      · subst o2
        simp only [↓reduceIte, Int.reduceEq, F.doLoop_skip, F.block_skip.1, F.block_skip.2, ne_eq, not_true_eq_false, not_false_eq_true, false_and, and_false, and_self, and_true, true_and]
        exact diag4 (seg3_2 Ast (by omega) (by omega) (by omega) (by omega)) (by omega) hβ (face_at32 Ab2 Pb2 (by omega) (by omega) (by omega) (by omega) (by omega)) (l4 rfl rfl)
      by_cases o1 : exOrder = 1
      · subst o1
        simp only [Cuda.adjDiagBt4, Cuda.adjDiagBt0, ↓reduceIte, Int.reduceEq, F.doLoop_skip, F.block_skip.1, F.block_skip.2, ite_self, ne_eq, not_true_eq_false, not_false_eq_true, false_and, and_false, and_self, and_true, true_and]
        exact Both.skip
      simp only [Cuda.adjDiagBt4, Cuda.adjDiagBt0, o2, o1, ↓reduceIte, Int.reduceEq, F.doLoop_skip, F.block_skip.1, F.block_skip.2, ite_self, ne_eq, not_true_eq_false, not_false_eq_true, false_and, and_false, and_self, and_true, true_and]
      exact Both.skip
    by_cases t0 : btype = 0
    · subst t0
      by_cases o2 : exOrder = 2
      · subst o2
        simp only [↓reduceIte, Int.reduceEq, F.doLoop_skip, F.block_skip.1, F.block_skip.2, ne_eq, not_true_eq_false, not_false_eq_true, false_and, and_false, and_self, and_true, true_and]
        exact diag0 (seg3_2 Ast (by omega) (by omega) (by omega) (by omega)) (by omega) hβ (face_on32 Ab2 Pb2 (by omega) (by omega) (by omega) (by omega)) (l0 rfl rfl)
      by_cases o1 : exOrder = 1
      · subst o1
        simp only [Cuda.adjDiagBt4, Cuda.adjDiagBt0, ↓reduceIte, Int.reduceEq, F.doLoop_skip, F.block_skip.1, F.block_skip.2, ite_self, ne_eq, not_true_eq_false, not_false_eq_true, false_and, and_false, and_self, and_true, true_and]
        exact Both.skip
      simp only [Cuda.adjDiagBt4, Cuda.adjDiagBt0, o2, o1, ↓reduceIte, Int.reduceEq, F.doLoop_skip, F.block_skip.1, F.block_skip.2, ite_self, ne_eq, not_true_eq_false, not_false_eq_true, false_and, and_false, and_self, and_true, true_and]
      exact Both.skip
    by_cases t1 : btype = 1
    · subst t1
      simp only [Cuda.adjDiagBt4, Cuda.adjDiagBt0, ↓reduceIte, Int.reduceEq, F.doLoop_skip, F.block_skip.1, F.block_skip.2, ite_self, ne_eq, not_true_eq_false, not_false_eq_true, false_and, and_false, and_self, and_true, true_and]
      exact Both.skip
    simp only [Cuda.adjDiagBt4, Cuda.adjDiagBt0, t4, t0, t1, ↓reduceIte, Int.reduceEq, F.doLoop_skip, F.block_skip.1, F.block_skip.2, ite_self, ne_eq, not_true_eq_false, not_false_eq_true, false_and, and_false, and_self, and_true, true_and]
    exact Both.skip
  · replace hz := hz rfl
    refine Both.bind mkI <| Both.bind mkPI <| Both.bind mkJ <| Both.bind mkPJ <| Both.bind mkK <| Both.bind mkPK <| Both.bind mkW <| Both.bind spst <| Both.bind plI <| Both.bind plJ <| Both.bind plK <| Both.bind (a := dx 2) rfl <| Both.bind (localize_ok (l := pi0 - 2 * 1 + 1) (by omega) nI.1 rfl) <| Both.bind (localize_ok (l := pj0 - 2 * 1 + 1) (by omega) nJ.1 rfl) <| Both.bind (localize_ok (l := pk0 - 2 * 1 + 1) (by omega) nK.1 rfl) <| ?_
    simp only [↓reduceIte, Int.reduceEq, F.doLoop_skip, ← farr_st3]
    by_cases t4 : btype = 4
    · subst t4
      by_cases o2 : exOrder = 2
      · subst o2
        simp only [↓reduceIte, Int.reduceEq, F.doLoop_skip, F.block_skip.1, F.block_skip.2, ne_eq, not_true_eq_false, not_false_eq_true, false_and, and_false, and_self, and_true, true_and]
        exact diag4 (seg3_2 Ast (by omega) (by omega) (by omega) (by omega)) (by omega) hβ (face_at32 Ab2 Pb2 (by omega) (by omega) (by omega) (by omega) (by omega)) (l4 rfl rfl)
      by_cases o1 : exOrder = 1
      · subst o1
        simp only [Cuda.adjDiagBt4, Cuda.adjDiagBt0, ↓reduceIte, Int.reduceEq, F.doLoop_skip, F.block_skip.1, F.block_skip.2, ite_self, ne_eq, not_true_eq_false, not_false_eq_true, false_and, and_false, and_self, and_true, true_and]
        exact Both.skip
      simp only [Cuda.adjDiagBt4, Cuda.adjDiagBt0, o2, o1, ↓reduceIte, Int.reduceEq, F.doLoop_skip, F.block_skip.1, F.block_skip.2, ite_self, ne_eq, not_true_eq_false, not_false_eq_true, false_and, and_false, and_self, and_true, true_and]
      exact Both.skip
    by_cases t0 : btype = 0
    · subst t0
      by_cases o2 : exOrder = 2
      · subst o2
        simp only [↓reduceIte, Int.reduceEq, F.doLoop_skip, F.block_skip.1, F.block_skip.2, ne_eq, not_true_eq_false, not_false_eq_true, false_and, and_false, and_self, and_true, true_and]
        exact diag0 (seg3_2 Ast (by omega) (by omega) (by omega) (by omega)) (by omega) hβ (face_on32 Ab2 Pb2 (by omega) (by omega) (by omega) (by omega)) (l0 rfl rfl)
      by_cases o1 : exOrder = 1
      · subst o1
        simp only [Cuda.adjDiagBt4, Cuda.adjDiagBt0, ↓reduceIte, Int.reduceEq, F.doLoop_skip, F.block_skip.1, F.block_skip.2, ite_self, ne_eq, not_true_eq_false, not_false_eq_true, false_and, and_false, and_self, and_true, true_and]
        exact Both.skip
      simp only [Cuda.adjDiagBt4, Cuda.adjDiagBt0, o2, o1, ↓reduceIte, Int.reduceEq, F.doLoop_skip, F.block_skip.1, F.block_skip.2, ite_self, ne_eq, not_true_eq_false, not_false_eq_true, false_and, and_false, and_self, and_true, true_and]
      exact Both.skip
    by_cases t1 : btype = 1
    · subst t1
      simp only [Cuda.adjDiagBt4, Cuda.adjDiagBt0, ↓reduceIte, Int.reduceEq, F.doLoop_skip, F.block_skip.1, F.block_skip.2, ite_self, ne_eq, not_true_eq_false, not_false_eq_true, false_and, and_false, and_self, and_true, true_and]
      exact Both.skip
    simp only [Cuda.adjDiagBt4, Cuda.adjDiagBt0, t4, t0, t1, ↓reduceIte, Int.reduceEq, F.doLoop_skip, F.block_skip.1, F.block_skip.2, ite_self, ne_eq, not_true_eq_false, not_false_eq_true, false_and, and_false, and_self, and_true, true_and]
    exact Both.skip

example : ∃ m', Cuda.adjDiag3d 0 0 0 3 2 1 0 0 2 3 2 2 2 1 4 2 exDx 2 ⟨0, 0⟩ ⟨1, 0⟩ ⟨2, 0⟩ 1 ⟨3, 0⟩ revBackend exRat = .ok m' ∧
    F.adjcelldiffusiondiag3d 0 0 0 3 2 1 0 0 2 3 2 2 2 1 4 2 exDx 2 ⟨0, 0⟩ ⟨1, 0⟩ ⟨2, 0⟩ 1 ⟨3, 0⟩ exRat = .ok m' :=
  C49_adj_diag_3d revBackend_ok (fun _ _ _ => by ring) (fun _ _ _ => by ring) (by decide) (by decide) (by decide) (by decide) (by constructor <;> (try simp only [InInt]) <;> decide) (by ex_args)

/-- `cd_stencil_3d_cuda::adj_poisson_diag` and `adjcellpoissondiag3d` leave the same memory, for every schedule and in every arithmetic, wherever the two ways of writing three squares of the mesh width give the same quotient. -/
theorem C49_adj_poisson_diag_3d {i0 j0 k0 i1 j1 k1 pi0 pj0 pk0 pi1 pj1 pk1 dir side btype exOrder sgcw : Int} {dx : Nat → T} {beta : T} {st_ : Ptr} {β : Backend} {m : Mem T}
    (hβ : ValidBackend β)
    (l0 : btype = 0 → exOrder = 2 → beta / (3 * dx dir.toNat * dx dir.toNat) = beta / (3 * dx dir.toNat ^ 2))
    (hi : i0 ≤ i1) (hj : j0 ≤ j1) (hk : k0 ≤ k1) (hg : 0 ≤ sgcw) (hl : Layer3 i0 j0 k0 i1 j1 k1 sgcw pi0 pj0 pk0 pi1 pj1 pk1 dir side)
    (h : F.Args m [] [F.st3d st_ i0 j0 k0 i1 j1 k1 sgcw]) :
    ∃ m', Cuda.adjPoissonDiag3d i0 j0 k0 i1 j1 k1 pi0 pj0 pk0 pi1 pj1 pk1 dir side btype exOrder dx beta sgcw st_ β m = .ok m' ∧ F.adjcellpoissondiag3d i0 j0 k0 i1 j1 k1 pi0 pj0 pk0 pi1 pj1 pk1 dir side btype exOrder dx beta sgcw st_ m = .ok m' := by
  have hst := h.ok (F.st3d st_ i0 j0 k0 i1 j1 k1 sgcw) (by simp)
  obtain ⟨Ast, spst, Ii, Ij, Ik⟩ := st3_setup hst hi hj hk hg
  have mkI := mkB_near (d := .I) (lo := i0) (hi := i1) (by rng)
  have mkJ := mkB_near (d := .J) (lo := j0) (hi := j1) (by rng)
  have mkK := mkB_near (d := .K) (lo := k0) (hi := k1) (by rng)
  have mkW := mkB_near (d := .W) (lo := 0) (hi := 6) (by rng)
  obtain ⟨hd, hs, hx, hy, hz, nI, nJ, nK⟩ := hl
  have mkPI := mkB_near (d := .I) (lo := pi0) nI.2
  have mkPJ := mkB_near (d := .J) (lo := pj0) nJ.2
  have mkPK := mkB_near (d := .K) (lo := pk0) nK.2
  have hd : dir = 0 ∨ dir = 1 ∨ dir = 2 := by omega
  show Both (Cuda.adjPoissonDiag3d i0 j0 k0 i1 j1 k1 pi0 pj0 pk0 pi1 pj1 pk1 dir side btype exOrder dx beta sgcw st_ β m) (F.adjcellpoissondiag3d i0 j0 k0 i1 j1 k1 pi0 pj0 pk0 pi1 pj1 pk1 dir side btype exOrder dx beta sgcw st_) m
  unfold Cuda.adjPoissonDiag3d F.adjcellpoissondiag3d
  rcases hd with rfl | rfl | rfl <;> rcases hs with rfl | rfl
  · replace hx := hx rfl
    refine Both.bind mkI <| Both.bind mkPI <| Both.bind mkJ <| Both.bind mkPJ <| Both.bind mkK <| Both.bind mkPK <| Both.bind mkW <| Both.bind spst <| Both.bind (a := dx 0) rfl <| ?_
    simp only [↓reduceIte, Int.reduceEq, F.doLoop_skip, ← farr_st3]
    by_cases t4 : btype = 4
    · subst t4
      by_cases o2 : exOrder = 2
      · subst o2
        simp only [↓reduceIte, Int.reduceEq, F.doLoop_skip, F.block_skip.1, F.block_skip.2, ne_eq, not_true_eq_false, not_false_eq_true, false_and, and_false, and_self, and_true, true_and]
        exact Both.bind (localize_ok (l := pi0 - 2 * 0 + 1) (by omega) nI.1 rfl) <| Both.bind (localize_ok (l := pj0 - 2 * 0 + 1) (by omega) nJ.1 rfl) <| Both.bind (localize_ok (l := pk0 - 2 * 0 + 1) (by omega) nK.1 rfl) <| pdiag4 (seg3_0 Ast (by omega) (by omega) (by omega) (by omega)) (by omega) hβ
      by_cases o1 : exOrder = 1
      · subst o1
        simp only [↓reduceIte, Int.reduceEq, F.doLoop_skip, F.block_skip.1, F.block_skip.2, ite_self, ne_eq, not_true_eq_false, not_false_eq_true, false_and, and_false, and_self, and_true, true_and]
        first | exact Both.skip | exact Both.bind (localize_ok (l := pi0 - 2 * 0 + 1) (by omega) nI.1 rfl) <| Both.skip | exact Both.bind (localize_ok (l := pi0 - 2 * 0 + 1) (by omega) nI.1 rfl) <| Both.bind (localize_ok (l := pj0 - 2 * 0 + 1) (by omega) nJ.1 rfl) <| Both.bind (localize_ok (l := pk0 - 2 * 0 + 1) (by omega) nK.1 rfl) <| Both.skip
      simp only [o2, o1, ↓reduceIte, Int.reduceEq, F.doLoop_skip, F.block_skip.1, F.block_skip.2, ite_self, ne_eq, not_true_eq_false, not_false_eq_true, false_and, and_false, and_self, and_true, true_and]
      first | exact Both.skip | exact Both.bind (localize_ok (l := pi0 - 2 * 0 + 1) (by omega) nI.1 rfl) <| Both.skip | exact Both.bind (localize_ok (l := pi0 - 2 * 0 + 1) (by omega) nI.1 rfl) <| Both.bind (localize_ok (l := pj0 - 2 * 0 + 1) (by omega) nJ.1 rfl) <| Both.bind (localize_ok (l := pk0 - 2 * 0 + 1) (by omega) nK.1 rfl) <| Both.skip
    by_cases t0 : btype = 0
    · subst t0
      by_cases o2 : exOrder = 2
      · subst o2
        simp only [↓reduceIte, Int.reduceEq, F.doLoop_skip, F.block_skip.1, F.block_skip.2, ne_eq, not_true_eq_false, not_false_eq_true, false_and, and_false, and_self, and_true, true_and]
        exact Both.bind (localize_ok (l := pi0 - 2 * 0 + 1) (by omega) nI.1 rfl) <| Both.bind (localize_ok (l := pj0 - 2 * 0 + 1) (by omega) nJ.1 rfl) <| Both.bind (localize_ok (l := pk0 - 2 * 0 + 1) (by omega) nK.1 rfl) <| pdiag0 (seg3_0 Ast (by omega) (by omega) (by omega) (by omega)) (by omega) hβ (l0 rfl rfl)
      by_cases o1 : exOrder = 1
      · subst o1
        simp only [↓reduceIte, Int.reduceEq, F.doLoop_skip, F.block_skip.1, F.block_skip.2, ite_self, ne_eq, not_true_eq_false, not_false_eq_true, false_and, and_false, and_self, and_true, true_and]
        first | exact Both.skip | exact Both.bind (localize_ok (l := pi0 - 2 * 0 + 1) (by omega) nI.1 rfl) <| Both.skip | exact Both.bind (localize_ok (l := pi0 - 2 * 0 + 1) (by omega) nI.1 rfl) <| Both.bind (localize_ok (l := pj0 - 2 * 0 + 1) (by omega) nJ.1 rfl) <| Both.bind (localize_ok (l := pk0 - 2 * 0 + 1) (by omega) nK.1 rfl) <| Both.skip
      simp only [o2, o1, ↓reduceIte, Int.reduceEq, F.doLoop_skip, F.block_skip.1, F.block_skip.2, ite_self, ne_eq, not_true_eq_false, not_false_eq_true, false_and, and_false, and_self, and_true, true_and]
      first | exact Both.skip | exact Both.bind (localize_ok (l := pi0 - 2 * 0 + 1) (by omega) nI.1 rfl) <| Both.skip | exact Both.bind (localize_ok (l := pi0 - 2 * 0 + 1) (by omega) nI.1 rfl) <| Both.bind (localize_ok (l := pj0 - 2 * 0 + 1) (by omega) nJ.1 rfl) <| Both.bind (localize_ok (l := pk0 - 2 * 0 + 1) (by omega) nK.1 rfl) <| Both.skip
    by_cases t1 : btype = 1
    · subst t1
      by_cases o2 : exOrder = 2
      · subst o2
        simp only [↓reduceIte, Int.reduceEq, F.doLoop_skip, F.block_skip.1, F.block_skip.2, ite_self, ne_eq, not_true_eq_false, not_false_eq_true, false_and, and_false, and_self, and_true, true_and]
        first | exact Both.skip | exact Both.bind (localize_ok (l := pi0 - 2 * 0 + 1) (by omega) nI.1 rfl) <| Both.skip | exact Both.bind (localize_ok (l := pi0 - 2 * 0 + 1) (by omega) nI.1 rfl) <| Both.bind (localize_ok (l := pj0 - 2 * 0 + 1) (by omega) nJ.1 rfl) <| Both.bind (localize_ok (l := pk0 - 2 * 0 + 1) (by omega) nK.1 rfl) <| Both.skip
      by_cases o1 : exOrder = 1
      · subst o1
        simp only [↓reduceIte, Int.reduceEq, F.doLoop_skip, F.block_skip.1, F.block_skip.2, ite_self, ne_eq, not_true_eq_false, not_false_eq_true, false_and, and_false, and_self, and_true, true_and]
        first | exact Both.skip | exact Both.bind (localize_ok (l := pi0 - 2 * 0 + 1) (by omega) nI.1 rfl) <| Both.skip | exact Both.bind (localize_ok (l := pi0 - 2 * 0 + 1) (by omega) nI.1 rfl) <| Both.bind (localize_ok (l := pj0 - 2 * 0 + 1) (by omega) nJ.1 rfl) <| Both.bind (localize_ok (l := pk0 - 2 * 0 + 1) (by omega) nK.1 rfl) <| Both.skip
      simp only [o2, o1, ↓reduceIte, Int.reduceEq, F.doLoop_skip, F.block_skip.1, F.block_skip.2, ite_self, ne_eq, not_true_eq_false, not_false_eq_true, false_and, and_false, and_self, and_true, true_and]
      first | exact Both.skip | exact Both.bind (localize_ok (l := pi0 - 2 * 0 + 1) (by omega) nI.1 rfl) <| Both.skip | exact Both.bind (localize_ok (l := pi0 - 2 * 0 + 1) (by omega) nI.1 rfl) <| Both.bind (localize_ok (l := pj0 - 2 * 0 + 1) (by omega) nJ.1 rfl) <| Both.bind (localize_ok (l := pk0 - 2 * 0 + 1) (by omega) nK.1 rfl) <| Both.skip
    by_cases o2 : exOrder = 2
    · subst o2
      simp only [t4, t0, t1, ↓reduceIte, Int.reduceEq, F.doLoop_skip, F.block_skip.1, F.block_skip.2, ite_self, ne_eq, not_true_eq_false, not_false_eq_true, false_and, and_false, and_self, and_true, true_and]
      first | exact Both.skip | exact Both.bind (localize_ok (l := pi0 - 2 * 0 + 1) (by omega) nI.1 rfl) <| Both.skip | exact Both.bind (localize_ok (l := pi0 - 2 * 0 + 1) (by omega) nI.1 rfl) <| Both.bind (localize_ok (l := pj0 - 2 * 0 + 1) (by omega) nJ.1 rfl) <| Both.bind (localize_ok (l := pk0 - 2 * 0 + 1) (by omega) nK.1 rfl) <| Both.skip
    by_cases o1 : exOrder = 1
    · subst o1
      simp only [t4, t0, t1, ↓reduceIte, Int.reduceEq, F.doLoop_skip, F.block_skip.1, F.block_skip.2, ite_self, ne_eq, not_true_eq_false, not_false_eq_true, false_and, and_false, and_self, and_true, true_and]
      first | exact Both.skip | exact Both.bind (localize_ok (l := pi0 - 2 * 0 + 1) (by omega) nI.1 rfl) <| Both.skip | exact Both.bind (localize_ok (l := pi0 - 2 * 0 + 1) (by omega) nI.1 rfl) <| Both.bind (localize_ok (l := pj0 - 2 * 0 + 1) (by omega) nJ.1 rfl) <| Both.bind (localize_ok (l := pk0 - 2 * 0 + 1) (by omega) nK.1 rfl) <| Both.skip
    simp only [t4, t0, t1, o2, o1, ↓reduceIte, Int.reduceEq, F.doLoop_skip, F.block_skip.1, F.block_skip.2, ite_self, ne_eq, not_true_eq_false, not_false_eq_true, false_and, and_false, and_self, and_true, true_and]
    first | exact Both.skip | exact Both.bind (localize_ok (l := pi0 - 2 * 0 + 1) (by omega) nI.1 rfl) <| Both.skip | exact Both.bind (localize_ok (l := pi0 - 2 * 0 + 1) (by omega) nI.1 rfl) <| Both.bind (localize_ok (l := pj0 - 2 * 0 + 1) (by omega) nJ.1 rfl) <| Both.bind (localize_ok (l := pk0 - 2 * 0 + 1) (by omega) nK.1 rfl) <| Both.skip
  · replace hx := hx rfl
    refine Both.bind mkI <| Both.bind mkPI <| Both.bind mkJ <| Both.bind mkPJ <| Both.bind mkK <| Both.bind mkPK <| Both.bind mkW <| Both.bind spst <| Both.bind (a := dx 0) rfl <| ?_
    simp only [↓reduceIte, Int.reduceEq, F.doLoop_skip, ← farr_st3]
    by_cases t4 : btype = 4
    · subst t4
      by_cases o2 : exOrder = 2
      · subst o2
        simp only [↓reduceIte, Int.reduceEq, F.doLoop_skip, F.block_skip.1, F.block_skip.2, ne_eq, not_true_eq_false, not_false_eq_true, false_and, and_false, and_self, and_true, true_and]
        exact Both.bind (localize_ok (l := pi0 - 2 * 1 + 1) (by omega) nI.1 rfl) <| Both.bind (localize_ok (l := pj0 - 2 * 1 + 1) (by omega) nJ.1 rfl) <| Both.bind (localize_ok (l := pk0 - 2 * 1 + 1) (by omega) nK.1 rfl) <| pdiag4 (seg3_0 Ast (by omega) (by omega) (by omega) (by omega)) (by omega) hβ
      by_cases o1 : exOrder = 1
      · subst o1
        simp only [↓reduceIte, Int.reduceEq, F.doLoop_skip, F.block_skip.1, F.block_skip.2, ite_self, ne_eq, not_true_eq_false, not_false_eq_true, false_and, and_false, and_self, and_true, true_and]
        first | exact Both.skip | exact Both.bind (localize_ok (l := pi0 - 2 * 1 + 1) (by omega) nI.1 rfl) <| Both.skip | exact Both.bind (localize_ok (l := pi0 - 2 * 1 + 1) (by omega) nI.1 rfl) <| Both.bind (localize_ok (l := pj0 - 2 * 1 + 1) (by omega) nJ.1 rfl) <| Both.bind (localize_ok (l := pk0 - 2 * 1 + 1) (by omega) nK.1 rfl) <| Both.skip
      simp only [o2, o1, ↓reduceIte, Int.reduceEq, F.doLoop_skip, F.block_skip.1, F.block_skip.2, ite_self, ne_eq, not_true_eq_false, not_false_eq_true, false_and, and_false, and_self, and_true, true_and]
      first | exact Both.skip | exact Both.bind (localize_ok (l := pi0 - 2 * 1 + 1) (by omega) nI.1 rfl) <| Both.skip | exact Both.bind (localize_ok (l := pi0 - 2 * 1 + 1) (by omega) nI.1 rfl) <| Both.bind (localize_ok (l := pj0 - 2 * 1 + 1) (by omega) nJ.1 rfl) <| Both.bind (localize_ok (l := pk0 - 2 * 1 + 1) (by omega) nK.1 rfl) <| Both.skip
    by_cases t0 : btype = 0
    · subst t0
      by_cases o2 : exOrder = 2
      · subst o2
        simp only [↓reduceIte, Int.reduceEq, F.doLoop_skip, F.block_skip.1, F.block_skip.2, ne_eq, not_true_eq_false, not_false_eq_true, false_and, and_false, and_self, and_true, true_and]
        exact Both.bind (localize_ok (l := pi0 - 2 * 1 + 1) (by omega) nI.1 rfl) <| Both.bind (localize_ok (l := pj0 - 2 * 1 + 1) (by omega) nJ.1 rfl) <| Both.bind (localize_ok (l := pk0 - 2 * 1 + 1) (by omega) nK.1 rfl) <| pdiag0 (seg3_0 Ast (by omega) (by omega) (by omega) (by omega)) (by omega) hβ (l0 rfl rfl)
      by_cases o1 : exOrder = 1
      · subst o1
        simp only [↓reduceIte, Int.reduceEq, F.doLoop_skip, F.block_skip.1, F.block_skip.2, ite_self, ne_eq, not_true_eq_false, not_false_eq_true, false_and, and_false, and_self, and_true, true_and]
        first | exact Both.skip | exact Both.bind (localize_ok (l := pi0 - 2 * 1 + 1) (by omega) nI.1 rfl) <| Both.skip | exact Both.bind (localize_ok (l := pi0 - 2 * 1 + 1) (by omega) nI.1 rfl) <| Both.bind (localize_ok (l := pj0 - 2 * 1 + 1) (by omega) nJ.1 rfl) <| Both.bind (localize_ok (l := pk0 - 2 * 1 + 1) (by omega) nK.1 rfl) <| Both.skip
      simp only [o2, o1, ↓reduceIte, Int.reduceEq, F.doLoop_skip, F.block_skip.1, F.block_skip.2, ite_self, ne_eq, not_true_eq_false, not_false_eq_true, false_and, and_false, and_self, and_true, true_and]
      first | exact Both.skip | exact Both.bind (localize_ok (l := pi0 - 2 * 1 + 1) (by omega) nI.1 rfl) <| Both.skip | exact Both.bind (localize_ok (l := pi0 - 2 * 1 + 1) (by omega) nI.1 rfl) <| Both.bind (localize_ok (l := pj0 - 2 * 1 + 1) (by omega) nJ.1 rfl) <| Both.bind (localize_ok (l := pk0 - 2 * 1 + 1) (by omega) nK.1 rfl) <| Both.skip
    by_cases t1 : btype = 1
    · subst t1
      by_cases o2 : exOrder = 2
      · subst o2
        simp only [↓reduceIte, Int.reduceEq, F.doLoop_skip, F.block_skip.1, F.block_skip.2, ite_self, ne_eq, not_true_eq_false, not_false_eq_true, false_and, and_false, and_self, and_true, true_and]
        first | exact Both.skip | exact Both.bind (localize_ok (l := pi0 - 2 * 1 + 1) (by omega) nI.1 rfl) <| Both.skip | exact Both.bind (localize_ok (l := pi0 - 2 * 1 + 1) (by omega) nI.1 rfl) <| Both.bind (localize_ok (l := pj0 - 2 * 1 + 1) (by omega) nJ.1 rfl) <| Both.bind (localize_ok (l := pk0 - 2 * 1 + 1) (by omega) nK.1 rfl) <| Both.skip
      by_cases o1 : exOrder = 1
      · subst o1
        simp only [↓reduceIte, Int.reduceEq, F.doLoop_skip, F.block_skip.1, F.block_skip.2, ite_self, ne_eq, not_true_eq_false, not_false_eq_true, false_and, and_false, and_self, and_true, true_and]
        first | exact Both.skip | exact Both.bind (localize_ok (l := pi0 - 2 * 1 + 1) (by omega) nI.1 rfl) <| Both.skip | exact Both.bind (localize_ok (l := pi0 - 2 * 1 + 1) (by omega) nI.1 rfl) <| Both.bind (localize_ok (l := pj0 - 2 * 1 + 1) (by omega) nJ.1 rfl) <| Both.bind (localize_ok (l := pk0 - 2 * 1 + 1) (by omega) nK.1 rfl) <| Both.skip
      simp only [o2, o1, ↓reduceIte, Int.reduceEq, F.doLoop_skip, F.block_skip.1, F.block_skip.2, ite_self, ne_eq, not_true_eq_false, not_false_eq_true, false_and, and_false, and_self, and_true, true_and]
      first | exact Both.skip | exact Both.bind (localize_ok (l := pi0 - 2 * 1 + 1) (by omega) nI.1 rfl) <| Both.skip | exact Both.bind (localize_ok (l := pi0 - 2 * 1 + 1) (by omega) nI.1 rfl) <| Both.bind (localize_ok (l := pj0 - 2 * 1 + 1) (by omega) nJ.1 rfl) <| Both.bind (localize_ok (l := pk0 - 2 * 1 + 1) (by omega) nK.1 rfl) <| Both.skip
    by_cases o2 : exOrder = 2
    · subst o2
      simp only [t4, t0, t1, ↓reduceIte, Int.reduceEq, F.doLoop_skip, F.block_skip.1, F.block_skip.2, ite_self, ne_eq, not_true_eq_false, not_false_eq_true, false_and, and_false, and_self, and_true, true_and]
      first | exact Both.skip | exact Both.bind (localize_ok (l := pi0 - 2 * 1 + 1) (by omega) nI.1 rfl) <| Both.skip | exact Both.bind (localize_ok (l := pi0 - 2 * 1 + 1) (by omega) nI.1 rfl) <| Both.bind (localize_ok (l := pj0 - 2 * 1 + 1) (by omega) nJ.1 rfl) <| Both.bind (localize_ok (l := pk0 - 2 * 1 + 1) (by omega) nK.1 rfl) <| Both.skip
    by_cases o1 : exOrder = 1
    · subst o1
      simp only [t4, t0, t1, ↓reduceIte, Int.reduceEq, F.doLoop_skip, F.block_skip.1, F.block_skip.2, ite_self, ne_eq, not_true_eq_false, not_false_eq_true, false_and, and_false, and_self, and_true, true_and]
      first | exact Both.skip | exact Both.bind (localize_ok (l := pi0 - 2 * 1 + 1) (by omega) nI.1 rfl) <| Both.skip | exact Both.bind (localize_ok (l := pi0 - 2 * 1 + 1) (by omega) nI.1 rfl) <| Both.bind (localize_ok (l := pj0 - 2 * 1 + 1) (by omega) nJ.1 rfl) <| Both.bind (localize_ok (l := pk0 - 2 * 1 + 1) (by omega) nK.1 rfl) <| Both.skip
    simp only [t4, t0, t1, o2, o1, ↓reduceIte, Int.reduceEq, F.doLoop_skip, F.block_skip.1, F.block_skip.2, ite_self, ne_eq, not_true_eq_false, not_false_eq_true, false_and, and_false, and_self, and_true, true_and]
    first | exact Both.skip | exact Both.bind (localize_ok (l := pi0 - 2 * 1 + 1) (by omega) nI.1 rfl) <| Both.skip | exact Both.bind (localize_ok (l := pi0 - 2 * 1 + 1) (by omega) nI.1 rfl) <| Both.bind (localize_ok (l := pj0 - 2 * 1 + 1) (by omega) nJ.1 rfl) <| Both.bind (localize_ok (l := pk0 - 2 * 1 + 1) (by omega) nK.1 rfl) <| Both.skip
  · replace hy := hy rfl
    refine Both.bind mkI <| Both.bind mkPI <| Both.bind mkJ <| Both.bind mkPJ <| Both.bind mkK <| Both.bind mkPK <| Both.bind mkW <| Both.bind spst <| Both.bind (a := dx 1) rfl <| ?_
    simp only [↓reduceIte, Int.reduceEq, F.doLoop_skip, ← farr_st3]
    by_cases t4 : btype = 4
    · subst t4
      by_cases o2 : exOrder = 2
      · subst o2
        simp only [↓reduceIte, Int.reduceEq, F.doLoop_skip, F.block_skip.1, F.block_skip.2, ne_eq, not_true_eq_false, not_false_eq_true, false_and, and_false, and_self, and_true, true_and]
        exact Both.bind (localize_ok (l := pi0 - 2 * 0 + 1) (by omega) nI.1 rfl) <| Both.bind (localize_ok (l := pj0 - 2 * 0 + 1) (by omega) nJ.1 rfl) <| Both.bind (localize_ok (l := pk0 - 2 * 0 + 1) (by omega) nK.1 rfl) <| pdiag4 (seg3_1 Ast (by omega) (by omega) (by omega) (by omega)) (by omega) hβ
      by_cases o1 : exOrder = 1
      · subst o1
        simp only [↓reduceIte, Int.reduceEq, F.doLoop_skip, F.block_skip.1, F.block_skip.2, ite_self, ne_eq, not_true_eq_false, not_false_eq_true, false_and, and_false, and_self, and_true, true_and]
        first | exact Both.skip | exact Both.bind (localize_ok (l := pj0 - 2 * 0 + 1) (by omega) nJ.1 rfl) <| Both.skip | exact Both.bind (localize_ok (l := pi0 - 2 * 0 + 1) (by omega) nI.1 rfl) <| Both.bind (localize_ok (l := pj0 - 2 * 0 + 1) (by omega) nJ.1 rfl) <| Both.bind (localize_ok (l := pk0 - 2 * 0 + 1) (by omega) nK.1 rfl) <| Both.skip
      simp only [o2, o1, ↓reduceIte, Int.reduceEq, F.doLoop_skip, F.block_skip.1, F.block_skip.2, ite_self, ne_eq, not_true_eq_false, not_false_eq_true, false_and, and_false, and_self, and_true, true_and]
      first | exact Both.skip | exact Both.bind (localize_ok (l := pj0 - 2 * 0 + 1) (by omega) nJ.1 rfl) <| Both.skip | exact Both.bind (localize_ok (l := pi0 - 2 * 0 + 1) (by omega) nI.1 rfl) <| Both.bind (localize_ok (l := pj0 - 2 * 0 + 1) (by omega) nJ.1 rfl) <| Both.bind (localize_ok (l := pk0 - 2 * 0 + 1) (by omega) nK.1 rfl) <| Both.skip
    by_cases t0 : btype = 0
    · subst t0
      by_cases o2 : exOrder = 2
      · subst o2
        simp only [↓reduceIte, Int.reduceEq, F.doLoop_skip, F.block_skip.1, F.block_skip.2, ne_eq, not_true_eq_false, not_false_eq_true, false_and, and_false, and_self, and_true, true_and]
        exact Both.bind (localize_ok (l := pi0 - 2 * 0 + 1) (by omega) nI.1 rfl) <| Both.bind (localize_ok (l := pj0 - 2 * 0 + 1) (by omega) nJ.1 rfl) <| Both.bind (localize_ok (l := pk0 - 2 * 0 + 1) (by omega) nK.1 rfl) <| pdiag0 (seg3_1 Ast (by omega) (by omega) (by omega) (by omega)) (by omega) hβ (l0 rfl rfl)
      by_cases o1 : exOrder = 1
      · subst o1
        simp only [↓reduceIte, Int.reduceEq, F.doLoop_skip, F.block_skip.1, F.block_skip.2, ite_self, ne_eq, not_true_eq_false, not_false_eq_true, false_and, and_false, and_self, and_true, true_and]
        first | exact Both.skip | exact Both.bind (localize_ok (l := pj0 - 2 * 0 + 1) (by omega) nJ.1 rfl) <| Both.skip | exact Both.bind (localize_ok (l := pi0 - 2 * 0 + 1) (by omega) nI.1 rfl) <| Both.bind (localize_ok (l := pj0 - 2 * 0 + 1) (by omega) nJ.1 rfl) <| Both.bind (localize_ok (l := pk0 - 2 * 0 + 1) (by omega) nK.1 rfl) <| Both.skip
      simp only [o2, o1, ↓reduceIte, Int.reduceEq, F.doLoop_skip, F.block_skip.1, F.block_skip.2, ite_self, ne_eq, not_true_eq_false, not_false_eq_true, false_and, and_false, and_self, and_true, true_and]
      first | exact Both.skip | exact Both.bind (localize_ok (l := pj0 - 2 * 0 + 1) (by omega) nJ.1 rfl) <| Both.skip | exact Both.bind (localize_ok (l := pi0 - 2 * 0 + 1) (by omega) nI.1 rfl) <| Both.bind (localize_ok (l := pj0 - 2 * 0 + 1) (by omega) nJ.1 rfl) <| Both.bind (localize_ok (l := pk0 - 2 * 0 + 1) (by omega) nK.1 rfl) <| Both.skip
    by_cases t1 : btype = 1
    · subst t1
      by_cases o2 : exOrder = 2
      · subst o2
        simp only [↓reduceIte, Int.reduceEq, F.doLoop_skip, F.block_skip.1, F.block_skip.2, ite_self, ne_eq, not_true_eq_false, not_false_eq_true, false_and, and_false, and_self, and_true, true_and]
        first | exact Both.skip | exact Both.bind (localize_ok (l := pj0 - 2 * 0 + 1) (by omega) nJ.1 rfl) <| Both.skip | exact Both.bind (localize_ok (l := pi0 - 2 * 0 + 1) (by omega) nI.1 rfl) <| Both.bind (localize_ok (l := pj0 - 2 * 0 + 1) (by omega) nJ.1 rfl) <| Both.bind (localize_ok (l := pk0 - 2 * 0 + 1) (by omega) nK.1 rfl) <| Both.skip
      by_cases o1 : exOrder = 1
      · subst o1
        simp only [↓reduceIte, Int.reduceEq, F.doLoop_skip, F.block_skip.1, F.block_skip.2, ite_self, ne_eq, not_true_eq_false, not_false_eq_true, false_and, and_false, and_self, and_true, true_and]
        first | exact Both.skip | exact Both.bind (localize_ok (l := pj0 - 2 * 0 + 1) (by omega) nJ.1 rfl) <| Both.skip | exact Both.bind (localize_ok (l := pi0 - 2 * 0 + 1) (by omega) nI.1 rfl) <| Both.bind (localize_ok (l := pj0 - 2 * 0 + 1) (by omega) nJ.1 rfl) <| Both.bind (localize_ok (l := pk0 - 2 * 0 + 1) (by omega) nK.1 rfl) <| Both.skip
      simp only [o2, o1, ↓reduceIte, Int.reduceEq, F.doLoop_skip, F.block_skip.1, F.block_skip.2, ite_self, ne_eq, not_true_eq_false, not_false_eq_true, false_and, and_false, and_self, and_true, true_and]
      first | exact Both.skip | exact Both.bind (localize_ok (l := pj0 - 2 * 0 + 1) (by omega) nJ.1 rfl) <| Both.skip | exact Both.bind (localize_ok (l := pi0 - 2 * 0 + 1) (by omega) nI.1 rfl) <| Both.bind (localize_ok (l := pj0 - 2 * 0 + 1) (by omega) nJ.1 rfl) <| Both.bind (localize_ok (l := pk0 - 2 * 0 + 1) (by omega) nK.1 rfl) <| Both.skip
    by_cases o2 : exOrder = 2
    · subst o2
      simp only [t4, t0, t1, ↓reduceIte, Int.reduceEq, F.doLoop_skip, F.block_skip.1, F.block_skip.2, ite_self, ne_eq, not_true_eq_false, not_false_eq_true, false_and, and_false, and_self, and_true, true_and]
      first | exact Both.skip | exact Both.bind (localize_ok (l := pj0 - 2 * 0 + 1) (by omega) nJ.1 rfl) <| Both.skip | exact Both.bind (localize_ok (l := pi0 - 2 * 0 + 1) (by omega) nI.1 rfl) <| Both.bind (localize_ok (l := pj0 - 2 * 0 + 1) (by omega) nJ.1 rfl) <| Both.bind (localize_ok (l := pk0 - 2 * 0 + 1) (by omega) nK.1 rfl) <| Both.skip
    by_cases o1 : exOrder = 1
    · subst o1
      simp only [t4, t0, t1, ↓reduceIte, Int.reduceEq, F.doLoop_skip, F.block_skip.1, F.block_skip.2, ite_self, ne_eq, not_true_eq_false, not_false_eq_true, false_and, and_false, and_self, and_true, true_and]
      first | exact Both.skip | exact Both.bind (localize_ok (l := pj0 - 2 * 0 + 1) (by omega) nJ.1 rfl) <| Both.skip | exact Both.bind (localize_ok (l := pi0 - 2 * 0 + 1) (by omega) nI.1 rfl) <| Both.bind (localize_ok (l := pj0 - 2 * 0 + 1) (by omega) nJ.1 rfl) <| Both.bind (localize_ok (l := pk0 - 2 * 0 + 1) (by omega) nK.1 rfl) <| Both.skip
    simp only [t4, t0, t1, o2, o1, ↓reduceIte, Int.reduceEq, F.doLoop_skip, F.block_skip.1, F.block_skip.2, ite_self, ne_eq, not_true_eq_false, not_false_eq_true, false_and, and_false, and_self, and_true, true_and]
    first | exact Both.skip | exact Both.bind (localize_ok (l := pj0 - 2 * 0 + 1) (by omega) nJ.1 rfl) <| Both.skip | exact Both.bind (localize_ok (l := pi0 - 2 * 0 + 1) (by omega) nI.1 rfl) <| Both.bind (localize_ok (l := pj0 - 2 * 0 + 1) (by omega) nJ.1 rfl) <| Both.bind (localize_ok (l := pk0 - 2 * 0 + 1) (by omega) nK.1 rfl) <| Both.skip
  · replace hy := hy rfl
    refine Both.bind mkI <| Both.bind mkPI <| Both.bind mkJ <| Both.bind mkPJ <| Both.bind mkK <| Both.bind mkPK <| Both.bind mkW <| Both.bind spst <| Both.bind (a := dx 1) rfl <| ?_
    simp only [↓reduceIte, Int.reduceEq, F.doLoop_skip, ← farr_st3]
    by_cases t4 : btype = 4
    · subst t4
      by_cases o2 : exOrder = 2
      · subst o2
        simp only [↓reduceIte, Int.reduceEq, F.doLoop_skip, F.block_skip.1, F.block_skip.2, ne_eq, not_true_eq_false, not_false_eq_true, false_and, and_false, and_self, and_true, true_and]
        exact Both.bind (localize_ok (l := pi0 - 2 * 1 + 1) (by omega) nI.1 rfl) <| Both.bind (localize_ok (l := pj0 - 2 * 1 + 1) (by omega) nJ.1 rfl) <| Both.bind (localize_ok (l := pk0 - 2 * 1 + 1) (by omega) nK.1 rfl) <| pdiag4 (seg3_1 Ast (by omega) (by omega) (by omega) (by omega)) (by omega) hβ
      by_cases o1 : exOrder = 1
      · subst o1
        simp only [↓reduceIte, Int.reduceEq, F.doLoop_skip, F.block_skip.1, F.block_skip.2, ite_self, ne_eq, not_true_eq_false, not_false_eq_true, false_and, and_false, and_self, and_true, true_and]
        first | exact Both.skip | exact Both.bind (localize_ok (l := pj0 - 2 * 1 + 1) (by omega) nJ.1 rfl) <| Both.skip | exact Both.bind (localize_ok (l := pi0 - 2 * 1 + 1) (by omega) nI.1 rfl) <| Both.bind (localize_ok (l := pj0 - 2 * 1 + 1) (by omega) nJ.1 rfl) <| Both.bind (localize_ok (l := pk0 - 2 * 1 + 1) (by omega) nK.1 rfl) <| Both.skip
      simp only [o2, o1, ↓reduceIte, Int.reduceEq, F.doLoop_skip, F.block_skip.1, F.block_skip.2, ite_self, ne_eq, not_true_eq_false, not_false_eq_true, false_and, and_false, and_self, and_true, true_and]
      first | exact Both.skip | exact Both.bind (localize_ok (l := pj0 - 2 * 1 + 1) (by omega) nJ.1 rfl) <| Both.skip | exact Both.bind (localize_ok (l := pi0 - 2 * 1 + 1) (by omega) nI.1 rfl) <| Both.bind (localize_ok (l := pj0 - 2 * 1 + 1) (by omega) nJ.1 rfl) <| Both.bind (localize_ok (l := pk0 - 2 * 1 + 1) (by omega) nK.1 rfl) <| Both.skip
    by_cases t0 : btype = 0
    · subst t0
      by_cases o2 : exOrder = 2
      · subst o2
        simp only [↓reduceIte, Int.reduceEq, F.doLoop_skip, F.block_skip.1, F.block_skip.2, ne_eq, not_true_eq_false, not_false_eq_true, false_and, and_false, and_self, and_true, true_and]
        exact Both.bind (localize_ok (l := pi0 - 2 * 1 + 1) (by omega) nI.1 rfl) <| Both.bind (localize_ok (l := pj0 - 2 * 1 + 1) (by omega) nJ.1 rfl) <| Both.bind (localize_ok (l := pk0 - 2 * 1 + 1) (by omega) nK.1 rfl) <| pdiag0 (seg3_1 Ast (by omega) (by omega) (by omega) (by omega)) (by omega) hβ (l0 rfl rfl)
      by_cases o1 : exOrder = 1
      · subst o1
        simp only [↓reduceIte, Int.reduceEq, F.doLoop_skip, F.block_skip.1, F.block_skip.2, ite_self, ne_eq, not_true_eq_false, not_false_eq_true, false_and, and_false, and_self, and_true, true_and]
        first | exact Both.skip | exact Both.bind (localize_ok (l := pj0 - 2 * 1 + 1) (by omega) nJ.1 rfl) <| Both.skip | exact Both.bind (localize_ok (l := pi0 - 2 * 1 + 1) (by omega) nI.1 rfl) <| Both.bind (localize_ok (l := pj0 - 2 * 1 + 1) (by omega) nJ.1 rfl) <| Both.bind (localize_ok (l := pk0 - 2 * 1 + 1) (by omega) nK.1 rfl) <| Both.skip
      simp only [o2, o1, ↓reduceIte, Int.reduceEq, F.doLoop_skip, F.block_skip.1, F.block_skip.2, ite_self, ne_eq, not_true_eq_false, not_false_eq_true, false_and, and_false, and_self, and_true, true_and]
      first | exact Both.skip | exact Both.bind (localize_ok (l := pj0 - 2 * 1 + 1) (by omega) nJ.1 rfl) <| Both.skip | exact Both.bind (localize_ok (l := pi0 - 2 * 1 + 1) (by omega) nI.1 rfl) <| Both.bind (localize_ok (l := pj0 - 2 * 1 + 1) (by omega) nJ.1 rfl) <| Both.bind (localize_ok (l := pk0 - 2 * 1 + 1) (by omega) nK.1 rfl) <| Both.skip
    by_cases t1 : btype = 1
    · subst t1
      by_cases o2 : exOrder = 2
      · subst o2
        simp only [↓reduceIte, Int.reduceEq, F.doLoop_skip, F.block_skip.1, F.block_skip.2, ite_self, ne_eq, not_true_eq_false, not_false_eq_true, false_and, and_false, and_self, and_true, true_and]
        first | exact Both.skip | exact Both.bind (localize_ok (l := pj0 - 2 * 1 + 1) (by omega) nJ.1 rfl) <| Both.skip | exact Both.bind (localize_ok (l := pi0 - 2 * 1 + 1) (by omega) nI.1 rfl) <| Both.bind (localize_ok (l := pj0 - 2 * 1 + 1) (by omega) nJ.1 rfl) <| Both.bind (localize_ok (l := pk0 - 2 * 1 + 1) (by omega) nK.1 rfl) <| Both.skip
      by_cases o1 : exOrder = 1
      · subst o1
        simp only [↓reduceIte, Int.reduceEq, F.doLoop_skip, F.block_skip.1, F.block_skip.2, ite_self, ne_eq, not_true_eq_false, not_false_eq_true, false_and, and_false, and_self, and_true, true_and]
        first | exact Both.skip | exact Both.bind (localize_ok (l := pj0 - 2 * 1 + 1) (by omega) nJ.1 rfl) <| Both.skip | exact Both.bind (localize_ok (l := pi0 - 2 * 1 + 1) (by omega) nI.1 rfl) <| Both.bind (localize_ok (l := pj0 - 2 * 1 + 1) (by omega) nJ.1 rfl) <| Both.bind (localize_ok (l := pk0 - 2 * 1 + 1) (by omega) nK.1 rfl) <| Both.skip
      simp only [o2, o1, ↓reduceIte, Int.reduceEq, F.doLoop_skip, F.block_skip.1, F.block_skip.2, ite_self, ne_eq, not_true_eq_false, not_false_eq_true, false_and, and_false, and_self, and_true, true_and]
      first | exact Both.skip | exact Both.bind (localize_ok (l := pj0 - 2 * 1 + 1) (by omega) nJ.1 rfl) <| Both.skip | exact Both.bind (localize_ok (l := pi0 - 2 * 1 + 1) (by omega) nI.1 rfl) <| Both.bind (localize_ok (l := pj0 - 2 * 1 + 1) (by omega) nJ.1 rfl) <| Both.bind (localize_ok (l := pk0 - 2 * 1 + 1) (by omega) nK.1 rfl) <| Both.skip
    by_cases o2 : exOrder = 2
    · subst o2
      simp only [t4, t0, t1, ↓reduceIte, Int.reduceEq, F.doLoop_skip, F.block_skip.1, F.block_skip.2, ite_self, ne_eq, not_true_eq_false, not_false_eq_true, false_and, and_false, and_self, and_true, true_and]
      first | exact Both.skip | exact Both.bind (localize_ok (l := pj0 - 2 * 1 + 1) (by omega) nJ.1 rfl) <| Both.skip | exact Both.bind (localize_ok (l := pi0 - 2 * 1 + 1) (by omega) nI.1 rfl) <| Both.bind (localize_ok (l := pj0 - 2 * 1 + 1) (by omega) nJ.1 rfl) <| Both.bind (localize_ok (l := pk0 - 2 * 1 + 1) (by omega) nK.1 rfl) <| Both.skip
    by_cases o1 : exOrder = 1
    · subst o1
      simp only [t4, t0, t1, ↓reduceIte, Int.reduceEq, F.doLoop_skip, F.block_skip.1, F.block_skip.2, ite_self, ne_eq, not_true_eq_false, not_false_eq_true, false_and, and_false, and_self, and_true, true_and]
      first | exact Both.skip | exact Both.bind (localize_ok (l := pj0 - 2 * 1 + 1) (by omega) nJ.1 rfl) <| Both.skip | exact Both.bind (localize_ok (l := pi0 - 2 * 1 + 1) (by omega) nI.1 rfl) <| Both.bind (localize_ok (l := pj0 - 2 * 1 + 1) (by omega) nJ.1 rfl) <| Both.bind (localize_ok (l := pk0 - 2 * 1 + 1) (by omega) nK.1 rfl) <| Both.skip
    simp only [t4, t0, t1, o2, o1, ↓reduceIte, Int.reduceEq, F.doLoop_skip, F.block_skip.1, F.block_skip.2, ite_self, ne_eq, not_true_eq_false, not_false_eq_true, false_and, and_false, and_self, and_true, true_and]
    first | exact Both.skip | exact Both.bind (localize_ok (l := pj0 - 2 * 1 + 1) (by omega) nJ.1 rfl) <| Both.skip | exact Both.bind (localize_ok (l := pi0 - 2 * 1 + 1) (by omega) nI.1 rfl) <| Both.bind (localize_ok (l := pj0 - 2 * 1 + 1) (by omega) nJ.1 rfl) <| Both.bind (localize_ok (l := pk0 - 2 * 1 + 1) (by omega) nK.1 rfl) <| Both.skip
  · replace hz := hz rfl
    refine Both.bind mkI <| Both.bind mkPI <| Both.bind mkJ <| Both.bind mkPJ <| Both.bind mkK <| Both.bind mkPK <| Both.bind mkW <| Both.bind spst <| Both.bind (a := dx 2) rfl <| ?_
    simp only [↓reduceIte, Int.reduceEq, F.doLoop_skip, ← farr_st3]
    by_cases t4 : btype = 4
    · subst t4
      by_cases o2 : exOrder = 2
      · subst o2
        simp only [↓reduceIte, Int.reduceEq, F.doLoop_skip, F.block_skip.1, F.block_skip.2, ne_eq, not_true_eq_false, not_false_eq_true, false_and, and_false, and_self, and_true, true_and]
        exact Both.bind (localize_ok (l := pi0 - 2 * 0 + 1) (by omega) nI.1 rfl) <| Both.bind (localize_ok (l := pj0 - 2 * 0 + 1) (by omega) nJ.1 rfl) <| Both.bind (localize_ok (l := pk0 - 2 * 0 + 1) (by omega) nK.1 rfl) <| pdiag4 (seg3_2 Ast (by omega) (by omega) (by omega) (by omega)) (by omega) hβ
      by_cases o1 : exOrder = 1
      · subst o1
        simp only [↓reduceIte, Int.reduceEq, F.doLoop_skip, F.block_skip.1, F.block_skip.2, ite_self, ne_eq, not_true_eq_false, not_false_eq_true, false_and, and_false, and_self, and_true, true_and]
        first | exact Both.skip | exact Both.bind (localize_ok (l := pk0 - 2 * 0 + 1) (by omega) nK.1 rfl) <| Both.skip | exact Both.bind (localize_ok (l := pi0 - 2 * 0 + 1) (by omega) nI.1 rfl) <| Both.bind (localize_ok (l := pj0 - 2 * 0 + 1) (by omega) nJ.1 rfl) <| Both.bind (localize_ok (l := pk0 - 2 * 0 + 1) (by omega) nK.1 rfl) <| Both.skip
      simp only [o2, o1, ↓reduceIte, Int.reduceEq, F.doLoop_skip, F.block_skip.1, F.block_skip.2, ite_self, ne_eq, not_true_eq_false, not_false_eq_true, false_and, and_false, and_self, and_true, true_and]
      first | exact Both.skip | exact Both.bind (localize_ok (l := pk0 - 2 * 0 + 1) (by omega) nK.1 rfl) <| Both.skip | exact Both.bind (localize_ok (l := pi0 - 2 * 0 + 1) (by omega) nI.1 rfl) <| Both.bind (localize_ok (l := pj0 - 2 * 0 + 1) (by omega) nJ.1 rfl) <| Both.bind (localize_ok (l := pk0 - 2 * 0 + 1) (by omega) nK.1 rfl) <| Both.skip
    by_cases t0 : btype = 0
    · subst t0
      by_cases o2 : exOrder = 2
      · subst o2
        simp only [↓reduceIte, Int.reduceEq, F.doLoop_skip, F.block_skip.1, F.block_skip.2, ne_eq, not_true_eq_false, not_false_eq_true, false_and, and_false, and_self, and_true, true_and]
        exact Both.bind (localize_ok (l := pi0 - 2 * 0 + 1) (by omega) nI.1 rfl) <| Both.bind (localize_ok (l := pj0 - 2 * 0 + 1) (by omega) nJ.1 rfl) <| Both.bind (localize_ok (l := pk0 - 2 * 0 + 1) (by omega) nK.1 rfl) <| pdiag0 (seg3_2 Ast (by omega) (by omega) (by omega) (by omega)) (by omega) hβ (l0 rfl rfl)
      by_cases o1 : exOrder = 1
      · subst o1
        simp only [↓reduceIte, Int.reduceEq, F.doLoop_skip, F.block_skip.1, F.block_skip.2, ite_self, ne_eq, not_true_eq_false, not_false_eq_true, false_and, and_false, and_self, and_true, true_and]
        first | exact Both.skip | exact Both.bind (localize_ok (l := pk0 - 2 * 0 + 1) (by omega) nK.1 rfl) <| Both.skip | exact Both.bind (localize_ok (l := pi0 - 2 * 0 + 1) (by omega) nI.1 rfl) <| Both.bind (localize_ok (l := pj0 - 2 * 0 + 1) (by omega) nJ.1 rfl) <| Both.bind (localize_ok (l := pk0 - 2 * 0 + 1) (by omega) nK.1 rfl) <| Both.skip
      simp only [o2, o1, ↓reduceIte, Int.reduceEq, F.doLoop_skip, F.block_skip.1, F.block_skip.2, ite_self, ne_eq, not_true_eq_false, not_false_eq_true, false_and, and_false, and_self, and_true, true_and]
      first | exact Both.skip | exact Both.bind (localize_ok (l := pk0 - 2 * 0 + 1) (by omega) nK.1 rfl) <| Both.skip | exact Both.bind (localize_ok (l := pi0 - 2 * 0 + 1) (by omega) nI.1 rfl) <| Both.bind (localize_ok (l := pj0 - 2 * 0 + 1) (by omega) nJ.1 rfl) <| Both.bind (localize_ok (l := pk0 - 2 * 0 + 1) (by omega) nK.1 rfl) <| Both.skip
    by_cases t1 : btype = 1
    · subst t1
      by_cases o2 : exOrder = 2
      · subst o2
        simp only [↓reduceIte, Int.reduceEq, F.doLoop_skip, F.block_skip.1, F.block_skip.2, ite_self, ne_eq, not_true_eq_false, not_false_eq_true, false_and, and_false, and_self, and_true, true_and]
        first | exact Both.skip | exact Both.bind (localize_ok (l := pk0 - 2 * 0 + 1) (by omega) nK.1 rfl) <| Both.skip | exact Both.bind (localize_ok (l := pi0 - 2 * 0 + 1) (by omega) nI.1 rfl) <| Both.bind (localize_ok (l := pj0 - 2 * 0 + 1) (by omega) nJ.1 rfl) <| Both.bind (localize_ok (l := pk0 - 2 * 0 + 1) (by omega) nK.1 rfl) <| Both.skip
      by_cases o1 : exOrder = 1
      · subst o1
        simp only [↓reduceIte, Int.reduceEq, F.doLoop_skip, F.block_skip.1, F.block_skip.2, ite_self, ne_eq, not_true_eq_false, not_false_eq_true, false_and, and_false, and_self, and_true, true_and]
        first | exact Both.skip | exact Both.bind (localize_ok (l := pk0 - 2 * 0 + 1) (by omega) nK.1 rfl) <| Both.skip | exact Both.bind (localize_ok (l := pi0 - 2 * 0 + 1) (by omega) nI.1 rfl) <| Both.bind (localize_ok (l := pj0 - 2 * 0 + 1) (by omega) nJ.1 rfl) <| Both.bind (localize_ok (l := pk0 - 2 * 0 + 1) (by omega) nK.1 rfl) <| Both.skip
      simp only [o2, o1, ↓reduceIte, Int.reduceEq, F.doLoop_skip, F.block_skip.1, F.block_skip.2, ite_self, ne_eq, not_true_eq_false, not_false_eq_true, false_and, and_false, and_self, and_true, true_and]
      first | exact Both.skip | exact Both.bind (localize_ok (l := pk0 - 2 * 0 + 1) (by omega) nK.1 rfl) <| Both.skip | exact Both.bind (localize_ok (l := pi0 - 2 * 0 + 1) (by omega) nI.1 rfl) <| Both.bind (localize_ok (l := pj0 - 2 * 0 + 1) (by omega) nJ.1 rfl) <| Both.bind (localize_ok (l := pk0 - 2 * 0 + 1) (by omega) nK.1 rfl) <| Both.skip
    by_cases o2 : exOrder = 2
    · subst o2
      simp only [t4, t0, t1, ↓reduceIte, Int.reduceEq, F.doLoop_skip, F.block_skip.1, F.block_skip.2, ite_self, ne_eq, not_true_eq_false, not_false_eq_true, false_and, and_false, and_self, and_true, true_and]
      first | exact Both.skip | exact Both.bind (localize_ok (l := pk0 - 2 * 0 + 1) (by omega) nK.1 rfl) <| Both.skip | exact Both.bind (localize_ok (l := pi0 - 2 * 0 + 1) (by omega) nI.1 rfl) <| Both.bind (localize_ok (l := pj0 - 2 * 0 + 1) (by omega) nJ.1 rfl) <| Both.bind (localize_ok (l := pk0 - 2 * 0 + 1) (by omega) nK.1 rfl) <| Both.skip
    by_cases o1 : exOrder = 1
    · subst o1
      simp only [t4, t0, t1, ↓reduceIte, Int.reduceEq, F.doLoop_skip, F.block_skip.1, F.block_skip.2, ite_self, ne_eq, not_true_eq_false, not_false_eq_true, false_and, and_false, and_self, and_true, true_and]
      first | exact Both.skip | exact Both.bind (localize_ok (l := pk0 - 2 * 0 + 1) (by omega) nK.1 rfl) <| Both.skip | exact Both.bind (localize_ok (l := pi0 - 2 * 0 + 1) (by omega) nI.1 rfl) <| Both.bind (localize_ok (l := pj0 - 2 * 0 + 1) (by omega) nJ.1 rfl) <| Both.bind (localize_ok (l := pk0 - 2 * 0 + 1) (by omega) nK.1 rfl) <| Both.skip
    simp only [t4, t0, t1, o2, o1, ↓reduceIte, Int.reduceEq, F.doLoop_skip, F.block_skip.1, F.block_skip.2, ite_self, ne_eq, not_true_eq_false, not_false_eq_true, false_and, and_false, and_self, and_true, true_and]
    first | exact Both.skip | exact Both.bind (localize_ok (l := pk0 - 2 * 0 + 1) (by omega) nK.1 rfl) <| Both.skip | exact Both.bind (localize_ok (l := pi0 - 2 * 0 + 1) (by omega) nI.1 rfl) <| Both.bind (localize_ok (l := pj0 - 2 * 0 + 1) (by omega) nJ.1 rfl) <| Both.bind (localize_ok (l := pk0 - 2 * 0 + 1) (by omega) nK.1 rfl) <| Both.skip
  · replace hz := hz rfl
    refine Both.bind mkI <| Both.bind mkPI <| Both.bind mkJ <| Both.bind mkPJ <| Both.bind mkK <| Both.bind mkPK <| Both.bind mkW <| Both.bind spst <| Both.bind (a := dx 2) rfl <| ?_
    simp only [↓reduceIte, Int.reduceEq, F.doLoop_skip, ← farr_st3]
    by_cases t4 : btype = 4
    · subst t4
      by_cases o2 : exOrder = 2
      · subst o2
        simp only [↓reduceIte, Int.reduceEq, F.doLoop_skip, F.block_skip.1, F.block_skip.2, ne_eq, not_true_eq_false, not_false_eq_true, false_and, and_false, and_self, and_true, true_and]
        exact Both.bind (localize_ok (l := pi0 - 2 * 1 + 1) (by omega) nI.1 rfl) <| Both.bind (localize_ok (l := pj0 - 2 * 1 + 1) (by omega) nJ.1 rfl) <| Both.bind (localize_ok (l := pk0 - 2 * 1 + 1) (by omega) nK.1 rfl) <| pdiag4 (seg3_2 Ast (by omega) (by omega) (by omega) (by omega)) (by omega) hβ
      by_cases o1 : exOrder = 1
      · subst o1
        simp only [↓reduceIte, Int.reduceEq, F.doLoop_skip, F.block_skip.1, F.block_skip.2, ite_self, ne_eq, not_true_eq_false, not_false_eq_true, false_and, and_false, and_self, and_true, true_and]
        first | exact Both.skip | exact Both.bind (localize_ok (l := pk0 - 2 * 1 + 1) (by omega) nK.1 rfl) <| Both.skip | exact Both.bind (localize_ok (l := pi0 - 2 * 1 + 1) (by omega) nI.1 rfl) <| Both.bind (localize_ok (l := pj0 - 2 * 1 + 1) (by omega) nJ.1 rfl) <| Both.bind (localize_ok (l := pk0 - 2 * 1 + 1) (by omega) nK.1 rfl) <| Both.skip
      simp only [o2, o1, ↓reduceIte, Int.reduceEq, F.doLoop_skip, F.block_skip.1, F.block_skip.2, ite_self, ne_eq, not_true_eq_false, not_false_eq_true, false_and, and_false, and_self, and_true, true_and]
      first | exact Both.skip | exact Both.bind (localize_ok (l := pk0 - 2 * 1 + 1) (by omega) nK.1 rfl) <| Both.skip | exact Both.bind (localize_ok (l := pi0 - 2 * 1 + 1) (by omega) nI.1 rfl) <| Both.bind (localize_ok (l := pj0 - 2 * 1 + 1) (by omega) nJ.1 rfl) <| Both.bind (localize_ok (l := pk0 - 2 * 1 + 1) (by omega) nK.1 rfl) <| Both.skip
    by_cases t0 : btype = 0
    · subst t0
      by_cases o2 : exOrder = 2
      · subst o2
        simp only [↓reduceIte, Int.reduceEq, F.doLoop_skip, F.block_skip.1, F.block_skip.2, ne_eq, not_true_eq_false, not_false_eq_true, false_and, and_false, and_self, and_true, true_and]
        exact Both.bind (localize_ok (l := pi0 - 2 * 1 + 1) (by omega) nI.1 rfl) <| Both.bind (localize_ok (l := pj0 - 2 * 1 + 1) (by omega) nJ.1 rfl) <| Both.bind (localize_ok (l := pk0 - 2 * 1 + 1) (by omega) nK.1 rfl) <| pdiag0 (seg3_2 Ast (by omega) (by omega) (by omega) (by omega)) (by omega) hβ (l0 rfl rfl)
      by_cases o1 : exOrder = 1
      · subst o1
        simp only [↓reduceIte, Int.reduceEq, F.doLoop_skip, F.block_skip.1, F.block_skip.2, ite_self, ne_eq, not_true_eq_false, not_false_eq_true, false_and, and_false, and_self, and_true, true_and]
        first | exact Both.skip | exact Both.bind (localize_ok (l := pk0 - 2 * 1 + 1) (by omega) nK.1 rfl) <| Both.skip | exact Both.bind (localize_ok (l := pi0 - 2 * 1 + 1) (by omega) nI.1 rfl) <| Both.bind (localize_ok (l := pj0 - 2 * 1 + 1) (by omega) nJ.1 rfl) <| Both.bind (localize_ok (l := pk0 - 2 * 1 + 1) (by omega) nK.1 rfl) <| Both.skip
      simp only [o2, o1, ↓reduceIte, Int.reduceEq, F.doLoop_skip, F.block_skip.1, F.block_skip.2, ite_self, ne_eq, not_true_eq_false, not_false_eq_true, false_and, and_false, and_self, and_true, true_and]
      first | exact Both.skip | exact Both.bind (localize_ok (l := pk0 - 2 * 1 + 1) (by omega) nK.1 rfl) <| Both.skip | exact Both.bind (localize_ok (l := pi0 - 2 * 1 + 1) (by omega) nI.1 rfl) <| Both.bind (localize_ok (l := pj0 - 2 * 1 + 1) (by omega) nJ.1 rfl) <| Both.bind (localize_ok (l := pk0 - 2 * 1 + 1) (by omega) nK.1 rfl) <| Both.skip
    by_cases t1 : btype = 1
    · subst t1
      by_cases o2 : exOrder = 2
      · subst o2
        simp only [↓reduceIte, Int.reduceEq, F.doLoop_skip, F.block_skip.1, F.block_skip.2, ite_self, ne_eq, not_true_eq_false, not_false_eq_true, false_and, and_false, and_self, and_true, true_and]
        first | exact Both.skip | exact Both.bind (localize_ok (l := pk0 - 2 * 1 + 1) (by omega) nK.1 rfl) <| Both.skip | exact Both.bind (localize_ok (l := pi0 - 2 * 1 + 1) (by omega) nI.1 rfl) <| Both.bind (localize_ok (l := pj0 - 2 * 1 + 1) (by omega) nJ.1 rfl) <| Both.bind (localize_ok (l := pk0 - 2 * 1 + 1) (by omega) nK.1 rfl) <| Both.skip
      by_cases o1 : exOrder = 1
      · subst o1
        simp only [↓reduceIte, Int.reduceEq, F.doLoop_skip, F.block_skip.1, F.block_skip.2, ite_self, ne_eq, not_true_eq_false, not_false_eq_true, false_and, and_false, and_self, and_true, true_and]
        first | exact Both.skip | exact Both.bind (localize_ok (l := pk0 - 2 * 1 + 1) (by omega) nK.1 rfl) <| Both.skip | exact Both.bind (localize_ok (l := pi0 - 2 * 1 + 1) (by omega) nI.1 rfl) <| Both.bind (localize_ok (l := pj0 - 2 * 1 + 1) (by omega) nJ.1 rfl) <| Both.bind (localize_ok (l := pk0 - 2 * 1 + 1) (by omega) nK.1 rfl) <| Both.skip
      simp only [o2, o1, ↓reduceIte, Int.reduceEq, F.doLoop_skip, F.block_skip.1, F.block_skip.2, ite_self, ne_eq, not_true_eq_false, not_false_eq_true, false_and, and_false, and_self, and_true, true_and]
      first | exact Both.skip | exact Both.bind (localize_ok (l := pk0 - 2 * 1 + 1) (by omega) nK.1 rfl) <| Both.skip | exact Both.bind (localize_ok (l := pi0 - 2 * 1 + 1) (by omega) nI.1 rfl) <| Both.bind (localize_ok (l := pj0 - 2 * 1 + 1) (by omega) nJ.1 rfl) <| Both.bind (localize_ok (l := pk0 - 2 * 1 + 1) (by omega) nK.1 rfl) <| Both.skip
    by_cases o2 : exOrder = 2
    · subst o2
      simp only [t4, t0, t1, ↓reduceIte, Int.reduceEq, F.doLoop_skip, F.block_skip.1, F.block_skip.2, ite_self, ne_eq, not_true_eq_false, not_false_eq_true, false_and, and_false, and_self, and_true, true_and]
      first | exact Both.skip | exact Both.bind (localize_ok (l := pk0 - 2 * 1 + 1) (by omega) nK.1 rfl) <| Both.skip | exact Both.bind (localize_ok (l := pi0 - 2 * 1 + 1) (by omega) nI.1 rfl) <| Both.bind (localize_ok (l := pj0 - 2 * 1 + 1) (by omega) nJ.1 rfl) <| Both.bind (localize_ok (l := pk0 - 2 * 1 + 1) (by omega) nK.1 rfl) <| Both.skip
    by_cases o1 : exOrder = 1
    · subst o1
      simp only [t4, t0, t1, ↓reduceIte, Int.reduceEq, F.doLoop_skip, F.block_skip.1, F.block_skip.2, ite_self, ne_eq, not_true_eq_false, not_false_eq_true, false_and, and_false, and_self, and_true, true_and]
      first | exact Both.skip | exact Both.bind (localize_ok (l := pk0 - 2 * 1 + 1) (by omega) nK.1 rfl) <| Both.skip | exact Both.bind (localize_ok (l := pi0 - 2 * 1 + 1) (by omega) nI.1 rfl) <| Both.bind (localize_ok (l := pj0 - 2 * 1 + 1) (by omega) nJ.1 rfl) <| Both.bind (localize_ok (l := pk0 - 2 * 1 + 1) (by omega) nK.1 rfl) <| Both.skip
    simp only [t4, t0, t1, o2, o1, ↓reduceIte, Int.reduceEq, F.doLoop_skip, F.block_skip.1, F.block_skip.2, ite_self, ne_eq, not_true_eq_false, not_false_eq_true, false_and, and_false, and_self, and_true, true_and]
    first | exact Both.skip | exact Both.bind (localize_ok (l := pk0 - 2 * 1 + 1) (by omega) nK.1 rfl) <| Both.skip | exact Both.bind (localize_ok (l := pi0 - 2 * 1 + 1) (by omega) nI.1 rfl) <| Both.bind (localize_ok (l := pj0 - 2 * 1 + 1) (by omega) nJ.1 rfl) <| Both.bind (localize_ok (l := pk0 - 2 * 1 + 1) (by omega) nK.1 rfl) <| Both.skip

example : ∃ m', Cuda.adjPoissonDiag3d 0 0 0 3 2 1 0 0 2 3 2 2 2 1 4 2 exDxB 2 1 ⟨3, 0⟩ revBackend exB64 = .ok m' ∧
    F.adjcellpoissondiag3d 0 0 0 3 2 1 0 0 2 3 2 2 2 1 4 2 exDxB 2 1 ⟨3, 0⟩ exB64 = .ok m' :=
  C49_adj_poisson_diag_3d revBackend_ok (fun h => absurd h (by decide)) (by decide) (by decide) (by decide) (by decide) (by constructor <;> (try simp only [InInt]) <;> decide) (by ex_argsB)

/-- `cd_stencil_3d_cuda::adj_cf_diag` and `adjcelldiffusioncfdiag3d` leave the same memory, for every schedule and in every arithmetic, wherever the coefficient may be multiplied in before or after the divisions. -/
theorem C49_adj_cf_diag_3d {i0 j0 k0 i1 j1 k1 pi0 pj0 pk0 pi1 pj1 pk1 r dir side intOrder sgcw : Int} {dx : Nat → T} {beta : T} {b0_ b1_ b2_ st_ : Ptr} {β : Backend} {m : Mem T}
    (hβ : ValidBackend β)
    (l1 : intOrder = 1 → ∀ b, beta / (dx dir.toNat * dx dir.toNat) / 3 * b = beta * b / (3 * dx dir.toNat ^ 2))
    (l2 : intOrder = 2 → ∀ b, beta / (dx dir.toNat * dx dir.toNat) * (2 * ((r : T) - 1) / ((r : T) + 1)) * b = (2 * ((r : T) - 1) / ((r : T) + 1)) * beta * b / dx dir.toNat ^ 2)
    (hi : i0 ≤ i1) (hj : j0 ≤ j1) (hk : k0 ≤ k1) (hg : 0 ≤ sgcw) (hl : Layer3 i0 j0 k0 i1 j1 k1 0 pi0 pj0 pk0 pi1 pj1 pk1 dir side)
    (h : F.Args m [F.face3d0 b0_ i0 j0 k0 i1 j1 k1 0, F.face3d1 b1_ i0 j0 k0 i1 j1 k1 0, F.face3d2 b2_ i0 j0 k0 i1 j1 k1 0] [F.st3d st_ i0 j0 k0 i1 j1 k1 sgcw]) :
    ∃ m', Cuda.adjCfDiag3d i0 j0 k0 i1 j1 k1 pi0 pj0 pk0 pi1 pj1 pk1 r dir side intOrder dx beta b0_ b1_ b2_ sgcw st_ β m = .ok m' ∧ F.adjcelldiffusioncfdiag3d i0 j0 k0 i1 j1 k1 pi0 pj0 pk0 pi1 pj1 pk1 r dir side intOrder dx beta b0_ b1_ b2_ sgcw st_ m = .ok m' := by
  have hst := h.ok (F.st3d st_ i0 j0 k0 i1 j1 k1 sgcw) (by simp)
  obtain ⟨Ast, spst, Ii, Ij, Ik⟩ := st3_setup hst hi hj hk hg
  have hb0 := h.ok (F.face3d0 b0_ i0 j0 k0 i1 j1 k1 0) (by simp)
  obtain ⟨Ab0, plI, J0⟩ := face30_setup hb0 hi hj hk
  have Pb0 : Apart (sSt3 st_ i0 j0 k0 i1 j1 k1 sgcw) (sFace30 b0_ i0 j0 k0 i1 j1 k1) := apart_of farr_st3 farr_face30 (h.apart _ (by simp) _ (by simp))
  have hb1 := h.ok (F.face3d1 b1_ i0 j0 k0 i1 j1 k1 0) (by simp)
  obtain ⟨Ab1, plJ, J1⟩ := face31_setup hb1 hi hj hk
  have Pb1 : Apart (sSt3 st_ i0 j0 k0 i1 j1 k1 sgcw) (sFace31 b1_ i0 j0 k0 i1 j1 k1) := apart_of farr_st3 farr_face31 (h.apart _ (by simp) _ (by simp))
  have hb2 := h.ok (F.face3d2 b2_ i0 j0 k0 i1 j1 k1 0) (by simp)
  obtain ⟨Ab2, plK, J2⟩ := face32_setup hb2 hi hj hk
  have Pb2 : Apart (sSt3 st_ i0 j0 k0 i1 j1 k1 sgcw) (sFace32 b2_ i0 j0 k0 i1 j1 k1) := apart_of farr_st3 farr_face32 (h.apart _ (by simp) _ (by simp))
  have mkI := mkB_near (d := .I) (lo := i0) (hi := i1) (by rng)
  have mkJ := mkB_near (d := .J) (lo := j0) (hi := j1) (by rng)
  have mkK := mkB_near (d := .K) (lo := k0) (hi := k1) (by rng)
  have mkW := mkB_near (d := .W) (lo := 0) (hi := 6) (by rng)
  obtain ⟨hd, hs, hx, hy, hz, nI, nJ, nK⟩ := hl
  have mkPI := mkB_near (d := .I) (lo := pi0) nI.2
  have mkPJ := mkB_near (d := .J) (lo := pj0) nJ.2
  have mkPK := mkB_near (d := .K) (lo := pk0) nK.2
  have hd : dir = 0 ∨ dir = 1 ∨ dir = 2 := by omega
  show Both (Cuda.adjCfDiag3d i0 j0 k0 i1 j1 k1 pi0 pj0 pk0 pi1 pj1 pk1 r dir side intOrder dx beta b0_ b1_ b2_ sgcw st_ β m) (F.adjcelldiffusioncfdiag3d i0 j0 k0 i1 j1 k1 pi0 pj0 pk0 pi1 pj1 pk1 r dir side intOrder dx beta b0_ b1_ b2_ sgcw st_) m
  unfold Cuda.adjCfDiag3d F.adjcelldiffusioncfdiag3d
  rcases hd with rfl | rfl | rfl <;> rcases hs with rfl | rfl
  · replace hx := hx rfl
    refine Both.bind mkI <| Both.bind mkPI <| Both.bind mkJ <| Both.bind mkPJ <| Both.bind mkK <| Both.bind mkPK <| Both.bind mkW <| Both.bind spst <| Both.bind plI <| Both.bind plJ <| Both.bind plK <| Both.bind (a := dx 0) rfl <| Both.bind (localize_ok (l := pi0 - 2 * 0 + 1) (by omega) nI.1 rfl) <| Both.bind (localize_ok (l := pj0 - 2 * 0 + 1) (by omega) nJ.1 rfl) <| Both.bind (localize_ok (l := pk0 - 2 * 0 + 1) (by omega) nK.1 rfl) <| ?_
    simp only [↓reduceIte, Int.reduceEq, F.doLoop_skip, ← farr_st3]
    by_cases o1 : intOrder = 1
    · subst o1
      simp only [↓reduceIte, Int.reduceEq, F.doLoop_skip, F.block_skip.1, F.block_skip.2, ne_eq, not_true_eq_false, not_false_eq_true, false_and, and_false, and_self, and_true, true_and]
      exact cf1 (seg3_0 Ast (by omega) (by omega) (by omega) (by omega)) (by omega) hβ (face_at30 Ab0 Pb0 (by omega) (by omega) (by omega) (by omega) (by omega)) (l1 rfl)
    by_cases o2 : intOrder = 2
    · subst o2
      simp only [o1, ↓reduceIte, Int.reduceEq, F.doLoop_skip, F.block_skip.1, F.block_skip.2, ne_eq, not_true_eq_false, not_false_eq_true, false_and, and_false, and_self, and_true, true_and]
      exact cf2 (seg3_0 Ast (by omega) (by omega) (by omega) (by omega)) (by omega) hβ (face_at30 Ab0 Pb0 (by omega) (by omega) (by omega) (by omega) (by omega)) (l2 rfl)
    simp only [Cuda.adjCfDiagFunc, o1, o2, ↓reduceIte, Int.reduceEq, F.doLoop_skip, F.block_skip.1, F.block_skip.2, ite_self, ne_eq, not_true_eq_false, not_false_eq_true, false_and, and_false, and_self, and_true, true_and]
    exact Both.skip
  · replace hx := hx rfl
    refine Both.bind mkI <| Both.bind mkPI <| Both.bind mkJ <| Both.bind mkPJ <| Both.bind mkK <| Both.bind mkPK <| Both.bind mkW <| Both.bind spst <| Both.bind plI <| Both.bind plJ <| Both.bind plK <| Both.bind (a := dx 0) rfl <| Both.bind (localize_ok (l := pi0 - 2 * 1 + 1) (by omega) nI.1 rfl) <| Both.bind (localize_ok (l := pj0 - 2 * 1 + 1) (by omega) nJ.1 rfl) <| Both.bind (localize_ok (l := pk0 - 2 * 1 + 1) (by omega) nK.1 rfl) <| ?_
    simp only [↓reduceIte, Int.reduceEq, F.doLoop_skip, ← farr_st3]
    by_cases o1 : intOrder = 1
    · subst o1
      simp only [↓reduceIte, Int.reduceEq, F.doLoop_skip, F.block_skip.1, F.block_skip.2, ne_eq, not_true_eq_false, not_false_eq_true, false_and, and_false, and_self, and_true, true_and]
      exact cf1 (seg3_0 Ast (by omega) (by omega) (by omega) (by omega)) (by omega) hβ (face_at30 Ab0 Pb0 (by omega) (by omega) (by omega) (by omega) (by omega)) (l1 rfl)
    by_cases o2 : intOrder = 2
    · subst o2
      simp only [o1, ↓reduceIte, Int.reduceEq, F.doLoop_skip, F.block_skip.1, F.block_skip.2, ne_eq, not_true_eq_false, not_false_eq_true, false_and, and_false, and_self, and_true, true_and]
      exact cf2 (seg3_0 Ast (by omega) (by omega) (by omega) (by omega)) (by omega) hβ (face_at30 Ab0 Pb0 (by omega) (by omega) (by omega) (by omega) (by omega)) (l2 rfl)
    simp only [Cuda.adjCfDiagFunc, o1, o2, ↓reduceIte, Int.reduceEq, F.doLoop_skip, F.block_skip.1, F.block_skip.2, ite_self, ne_eq, not_true_eq_false, not_false_eq_true, false_and, and_false, and_self, and_true, true_and]
    exact Both.skip
  · replace hy := hy rfl
    refine Both.bind mkI <| Both.bind mkPI <| Both.bind mkJ <| Both.bind mkPJ <| Both.bind mkK <| Both.bind mkPK <| Both.bind mkW <| Both.bind spst <| Both.bind plI <| Both.bind plJ <| Both.bind plK <| Both.bind (a := dx 1) rfl <| Both.bind (localize_ok (l := pi0 - 2 * 0 + 1) (by omega) nI.1 rfl) <| Both.bind (localize_ok (l := pj0 - 2 * 0 + 1) (by omega) nJ.1 rfl) <| Both.bind (localize_ok (l := pk0 - 2 * 0 + 1) (by omega) nK.1 rfl) <| ?_
    simp only [↓reduceIte, Int.reduceEq, F.doLoop_skip, ← farr_st3]
    by_cases o1 : intOrder = 1
    · subst o1
      simp only [↓reduceIte, Int.reduceEq, F.doLoop_skip, F.block_skip.1, F.block_skip.2, ne_eq, not_true_eq_false, not_false_eq_true, false_and, and_false, and_self, and_true, true_and]
      exact cf1 (seg3_1 Ast (by omega) (by omega) (by omega) (by omega)) (by omega) hβ (face_at31 Ab1 Pb1 (by omega) (by omega) (by omega) (by omega) (by omega)) (l1 rfl)
    by_cases o2 : intOrder = 2
    · subst o2
      simp only [o1, ↓reduceIte, Int.reduceEq, F.doLoop_skip, F.block_skip.1, F.block_skip.2, ne_eq, not_true_eq_false, not_false_eq_true, false_and, and_false, and_self, and_true, true_and]
      exact cf2 (seg3_1 Ast (by omega) (by omega) (by omega) (by omega)) (by omega) hβ (face_at31 Ab1 Pb1 (by omega) (by omega) (by omega) (by omega) (by omega)) (l2 rfl)
    simp only [Cuda.adjCfDiagFunc, o1, o2, ↓reduceIte, Int.reduceEq, F.doLoop_skip, F.block_skip.1, F.block_skip.2, ite_self, ne_eq, not_true_eq_false, not_false_eq_true, false_and, and_false, and_self, and_true, true_and]
    exact Both.skip
  · replace hy := hy rfl
    refine Both.bind mkI <| Both.bind mkPI <| Both.bind mkJ <| Both.bind mkPJ <| Both.bind mkK <| Both.bind mkPK <| Both.bind mkW <| Both.bind spst <| Both.bind plI <| Both.bind plJ <| Both.bind plK <| Both.bind (a := dx 1) rfl <| Both.bind (localize_ok (l := pi0 - 2 * 1 + 1) (by omega) nI.1 rfl) <| Both.bind (localize_ok (l := pj0 - 2 * 1 + 1) (by omega) nJ.1 rfl) <| Both.bind (localize_ok (l := pk0 - 2 * 1 + 1) (by omega) nK.1 rfl) <| ?_
    simp only [↓reduceIte, Int.reduceEq, F.doLoop_skip, ← farr_st3]
    by_cases o1 : intOrder = 1
    · subst o1
      simp only [↓reduceIte, Int.reduceEq, F.doLoop_skip, F.block_skip.1, F.block_skip.2, ne_eq, not_true_eq_false, not_false_eq_true, false_and, and_false, and_self, and_true, true_and]
      exact cf1 (seg3_1 Ast (by omega) (by omega) (by omega) (by omega)) (by omega) hβ (face_at31 Ab1 Pb1 (by omega) (by omega) (by omega) (by omega) (by omega)) (l1 rfl)
    by_cases o2 : intOrder = 2
    · subst o2
      simp only [o1, ↓reduceIte, Int.reduceEq, F.doLoop_skip, F.block_skip.1, F.block_skip.2, ne_eq, not_true_eq_false, not_false_eq_true, false_and, and_false, and_self, and_true, true_and]
      exact cf2 (seg3_1 Ast (by omega) (by omega) (by omega) (by omega)) (by omega) hβ (face_at31 Ab1 Pb1 (by omega) (by omega) (by omega) (by omega) (by omega)) (l2 rfl)
    simp only [Cuda.adjCfDiagFunc, o1, o2, ↓reduceIte, Int.reduceEq, F.doLoop_skip, F.block_skip.1, F.block_skip.2, ite_self, ne_eq, not_true_eq_false, not_false_eq_true, false_and, and_false, and_self, and_true, true_and]
    exact Both.skip
  · replace hz := hz rfl
    refine Both.bind mkI <| Both.bind mkPI <| Both.bind mkJ <| Both.bind mkPJ <| Both.bind mkK <| Both.bind mkPK <| Both.bind mkW <| Both.bind spst <| Both.bind plI <| Both.bind plJ <| Both.bind plK <| Both.bind (a := dx 2) rfl <| Both.bind (localize_ok (l := pi0 - 2 * 0 + 1) (by omega) nI.1 rfl) <| Both.bind (localize_ok (l := pj0 - 2 * 0 + 1) (by omega) nJ.1 rfl) <| Both.bind (localize_ok (l := pk0 - 2 * 0 + 1) (by omega) nK.1 rfl) <| ?_
    simp only [↓reduceIte, Int.reduceEq, F.doLoop_skip, ← farr_st3]
    by_cases o1 : intOrder = 1
    · subst o1
      simp only [↓reduceIte, Int.reduceEq, F.doLoop_skip, F.block_skip.1, F.block_skip.2, ne_eq, not_true_eq_false, not_false_eq_true, false_and, and_false, and_self, and_true, true_and]
      exact cf1 (seg3_2 Ast (by omega) (by omega) (by omega) (by omega)) (by omega) hβ (face_at32 Ab2 Pb2 (by omega) (by omega) (by omega) (by omega) (by omega)) (l1 rfl)
    by_cases o2 : intOrder = 2
    · subst o2
      simp only [o1, ↓reduceIte, Int.reduceEq, F.doLoop_skip, F.block_skip.1, F.block_skip.2, ne_eq, not_true_eq_false, not_false_eq_true, false_and, and_false, and_self, and_true, true_and]
      exact cf2 (seg3_2 Ast (by omega) (by omega) (by omega) (by omega)) (by omega) hβ (face_at32 Ab2 Pb2 (by omega) (by omega) (by omega) (by omega) (by omega)) (l2 rfl)
    simp only [Cuda.adjCfDiagFunc, o1, o2, ↓reduceIte, Int.reduceEq, F.doLoop_skip, F.block_skip.1, F.block_skip.2, ite_self, ne_eq, not_true_eq_false, not_false_eq_true, false_and, and_false, and_self, and_true, true_and]
    exact Both.skip
  · replace hz := hz rfl
    refine Both.bind mkI <| Both.bind mkPI <| Both.bind mkJ <| Both.bind mkPJ <| Both.bind mkK <| Both.bind mkPK <| Both.bind mkW <| Both.bind spst <| Both.bind plI <| Both.bind plJ <| Both.bind plK <| Both.bind (a := dx 2) rfl <| Both.bind (localize_ok (l := pi0 - 2 * 1 + 1) (by omega) nI.1 rfl) <| Both.bind (localize_ok (l := pj0 - 2 * 1 + 1) (by omega) nJ.1 rfl) <| Both.bind (localize_ok (l := pk0 - 2 * 1 + 1) (by omega) nK.1 rfl) <| ?_
    simp only [↓reduceIte, Int.reduceEq, F.doLoop_skip, ← farr_st3]
    by_cases o1 : intOrder = 1
    · subst o1
      simp only [↓reduceIte, Int.reduceEq, F.doLoop_skip, F.block_skip.1, F.block_skip.2, ne_eq, not_true_eq_false, not_false_eq_true, false_and, and_false, and_self, and_true, true_and]
      exact cf1 (seg3_2 Ast (by omega) (by omega) (by omega) (by omega)) (by omega) hβ (face_at32 Ab2 Pb2 (by omega) (by omega) (by omega) (by omega) (by omega)) (l1 rfl)
    by_cases o2 : intOrder = 2
    · subst o2
      simp only [o1, ↓reduceIte, Int.reduceEq, F.doLoop_skip, F.block_skip.1, F.block_skip.2, ne_eq, not_true_eq_false, not_false_eq_true, false_and, and_false, and_self, and_true, true_and]
      exact cf2 (seg3_2 Ast (by omega) (by omega) (by omega) (by omega)) (by omega) hβ (face_at32 Ab2 Pb2 (by omega) (by omega) (by omega) (by omega) (by omega)) (l2 rfl)
    simp only [Cuda.adjCfDiagFunc, o1, o2, ↓reduceIte, Int.reduceEq, F.doLoop_skip, F.block_skip.1, F.block_skip.2, ite_self, ne_eq, not_true_eq_false, not_false_eq_true, false_and, and_false, and_self, and_true, true_and]
    exact Both.skip

example : ∃ m', Cuda.adjCfDiag3d 0 0 0 3 2 1 0 0 2 3 2 2 2 2 1 2 exDx 2 ⟨0, 0⟩ ⟨1, 0⟩ ⟨2, 0⟩ 1 ⟨3, 0⟩ revBackend exRat = .ok m' ∧
    F.adjcelldiffusioncfdiag3d 0 0 0 3 2 1 0 0 2 3 2 2 2 2 1 2 exDx 2 ⟨0, 0⟩ ⟨1, 0⟩ ⟨2, 0⟩ 1 ⟨3, 0⟩ exRat = .ok m' :=
  C49_adj_cf_diag_3d revBackend_ok (fun _ _ => by ring) (fun _ _ => by ring) (by decide) (by decide) (by decide) (by decide) (by constructor <;> (try simp only [InInt]) <;> decide) (by ex_args)

/-- `cd_stencil_3d_cuda::adj_poisson_cf_diag` and `adjcellpoissoncfdiag3d` leave the same memory, for every schedule and in every arithmetic, wherever the two orders of dividing by the square of the mesh width agree. -/
theorem C49_adj_poisson_cf_diag_3d {i0 j0 k0 i1 j1 k1 pi0 pj0 pk0 pi1 pj1 pk1 r dir side intOrder sgcw : Int} {dx : Nat → T} {beta : T} {st_ : Ptr} {β : Backend} {m : Mem T}
    (hβ : ValidBackend β)
    (l1 : intOrder = 1 → beta / (dx dir.toNat * dx dir.toNat) / 3 = beta / (3 * dx dir.toNat ^ 2))
    (l2 : intOrder = 2 → beta / (dx dir.toNat * dx dir.toNat) * (2 * ((r : T) - 1) / ((r : T) + 1)) = (2 * ((r : T) - 1) / ((r : T) + 1)) * beta / dx dir.toNat ^ 2)
    (hi : i0 ≤ i1) (hj : j0 ≤ j1) (hk : k0 ≤ k1) (hg : 0 ≤ sgcw) (hl : Layer3 i0 j0 k0 i1 j1 k1 sgcw pi0 pj0 pk0 pi1 pj1 pk1 dir side)
    (h : F.Args m [] [F.st3d st_ i0 j0 k0 i1 j1 k1 sgcw]) :
    ∃ m', Cuda.adjPoissonCfDiag3d i0 j0 k0 i1 j1 k1 pi0 pj0 pk0 pi1 pj1 pk1 r dir side intOrder dx beta sgcw st_ β m = .ok m' ∧ F.adjcellpoissoncfdiag3d i0 j0 k0 i1 j1 k1 pi0 pj0 pk0 pi1 pj1 pk1 r dir side intOrder dx beta sgcw st_ m = .ok m' := by
  have hst := h.ok (F.st3d st_ i0 j0 k0 i1 j1 k1 sgcw) (by simp)
  obtain ⟨Ast, spst, Ii, Ij, Ik⟩ := st3_setup hst hi hj hk hg
  have mkI := mkB_near (d := .I) (lo := i0) (hi := i1) (by rng)
  have mkJ := mkB_near (d := .J) (lo := j0) (hi := j1) (by rng)
  have mkK := mkB_near (d := .K) (lo := k0) (hi := k1) (by rng)
  have mkW := mkB_near (d := .W) (lo := 0) (hi := 6) (by rng)
  obtain ⟨hd, hs, hx, hy, hz, nI, nJ, nK⟩ := hl
  have mkPI := mkB_near (d := .I) (lo := pi0) nI.2
  have mkPJ := mkB_near (d := .J) (lo := pj0) nJ.2
  have mkPK := mkB_near (d := .K) (lo := pk0) nK.2
  have hd : dir = 0 ∨ dir = 1 ∨ dir = 2 := by omega
  show Both (Cuda.adjPoissonCfDiag3d i0 j0 k0 i1 j1 k1 pi0 pj0 pk0 pi1 pj1 pk1 r dir side intOrder dx beta sgcw st_ β m) (F.adjcellpoissoncfdiag3d i0 j0 k0 i1 j1 k1 pi0 pj0 pk0 pi1 pj1 pk1 r dir side intOrder dx beta sgcw st_) m
  unfold Cuda.adjPoissonCfDiag3d F.adjcellpoissoncfdiag3d
  rcases hd with rfl | rfl | rfl <;> rcases hs with rfl | rfl
  · replace hx := hx rfl
    refine Both.bind mkI <| Both.bind mkPI <| Both.bind mkJ <| Both.bind mkPJ <| Both.bind mkK <| Both.bind mkPK <| Both.bind mkW <| Both.bind spst <| Both.bind (a := dx 0) rfl <| Both.bind (localize_ok (l := pi0 - 2 * 0 + 1) (by omega) nI.1 rfl) <| Both.bind (localize_ok (l := pj0 - 2 * 0 + 1) (by omega) nJ.1 rfl) <| Both.bind (localize_ok (l := pk0 - 2 * 0 + 1) (by omega) nK.1 rfl) <| ?_
    simp only [↓reduceIte, Int.reduceEq, F.doLoop_skip, ← farr_st3]
    by_cases o1 : intOrder = 1
    · subst o1
      simp only [↓reduceIte, Int.reduceEq, F.doLoop_skip, F.block_skip.1, F.block_skip.2, ne_eq, not_true_eq_false, not_false_eq_true, false_and, and_false, and_self, and_true, true_and]
      exact pcf1 (seg3_0 Ast (by omega) (by omega) (by omega) (by omega)) (by omega) hβ (l1 rfl)
    by_cases o2 : intOrder = 2
    · subst o2
      simp only [o1, ↓reduceIte, Int.reduceEq, F.doLoop_skip, F.block_skip.1, F.block_skip.2, ne_eq, not_true_eq_false, not_false_eq_true, false_and, and_false, and_self, and_true, true_and]
      exact pcf2 (seg3_0 Ast (by omega) (by omega) (by omega) (by omega)) (by omega) hβ (l2 rfl)
    simp only [Cuda.adjPoissonCfDiagFunc, o1, o2, ↓reduceIte, Int.reduceEq, F.doLoop_skip, F.block_skip.1, F.block_skip.2, ite_self, ne_eq, not_true_eq_false, not_false_eq_true, false_and, and_false, and_self, and_true, true_and]
    exact Both.skip
  · replace hx := hx rfl
    refine Both.bind mkI <| Both.bind mkPI <| Both.bind mkJ <| Both.bind mkPJ <| Both.bind mkK <| Both.bind mkPK <| Both.bind mkW <| Both.bind spst <| Both.bind (a := dx 0) rfl <| Both.bind (localize_ok (l := pi0 - 2 * 1 + 1) (by omega) nI.1 rfl) <| Both.bind (localize_ok (l := pj0 - 2 * 1 + 1) (by omega) nJ.1 rfl) <| Both.bind (localize_ok (l := pk0 - 2 * 1 + 1) (by omega) nK.1 rfl) <| ?_
    simp only [↓reduceIte, Int.reduceEq, F.doLoop_skip, ← farr_st3]
    by_cases o1 : intOrder = 1
    · subst o1
      simp only [↓reduceIte, Int.reduceEq, F.doLoop_skip, F.block_skip.1, F.block_skip.2, ne_eq, not_true_eq_false, not_false_eq_true, false_and, and_false, and_self, and_true, true_and]
      exact pcf1 (seg3_0 Ast (by omega) (by omega) (by omega) (by omega)) (by omega) hβ (l1 rfl)
    by_cases o2 : intOrder = 2
    · subst o2
      simp only [o1, ↓reduceIte, Int.reduceEq, F.doLoop_skip, F.block_skip.1, F.block_skip.2, ne_eq, not_true_eq_false, not_false_eq_true, false_and, and_false, and_self, and_true, true_and]
      exact pcf2 (seg3_0 Ast (by omega) (by omega) (by omega) (by omega)) (by omega) hβ (l2 rfl)
    simp only [Cuda.adjPoissonCfDiagFunc, o1, o2, ↓reduceIte, Int.reduceEq, F.doLoop_skip, F.block_skip.1, F.block_skip.2, ite_self, ne_eq, not_true_eq_false, not_false_eq_true, false_and, and_false, and_self, and_true, true_and]
    exact Both.skip
  · replace hy := hy rfl
    refine Both.bind mkI <| Both.bind mkPI <| Both.bind mkJ <| Both.bind mkPJ <| Both.bind mkK <| Both.bind mkPK <| Both.bind mkW <| Both.bind spst <| Both.bind (a := dx 1) rfl <| Both.bind (localize_ok (l := pi0 - 2 * 0 + 1) (by omega) nI.1 rfl) <| Both.bind (localize_ok (l := pj0 - 2 * 0 + 1) (by omega) nJ.1 rfl) <| Both.bind (localize_ok (l := pk0 - 2 * 0 + 1) (by omega) nK.1 rfl) <| ?_
    simp only [↓reduceIte, Int.reduceEq, F.doLoop_skip, ← farr_st3]
    by_cases o1 : intOrder = 1
    · subst o1
      simp only [↓reduceIte, Int.reduceEq, F.doLoop_skip, F.block_skip.1, F.block_skip.2, ne_eq, not_true_eq_false, not_false_eq_true, false_and, and_false, and_self, and_true, true_and]
      exact pcf1 (seg3_1 Ast (by omega) (by omega) (by omega) (by omega)) (by omega) hβ (l1 rfl)
    by_cases o2 : intOrder = 2
    · subst o2
      simp only [o1, ↓reduceIte, Int.reduceEq, F.doLoop_skip, F.block_skip.1, F.block_skip.2, ne_eq, not_true_eq_false, not_false_eq_true, false_and, and_false, and_self, and_true, true_and]
      exact pcf2 (seg3_1 Ast (by omega) (by omega) (by omega) (by omega)) (by omega) hβ (l2 rfl)
    simp only [Cuda.adjPoissonCfDiagFunc, o1, o2, ↓reduceIte, Int.reduceEq, F.doLoop_skip, F.block_skip.1, F.block_skip.2, ite_self, ne_eq, not_true_eq_false, not_false_eq_true, false_and, and_false, and_self, and_true, true_and]
    exact Both.skip
  · replace hy := hy rfl
    refine Both.bind mkI <| Both.bind mkPI <| Both.bind mkJ <| Both.bind mkPJ <| Both.bind mkK <| Both.bind mkPK <| Both.bind mkW <| Both.bind spst <| Both.bind (a := dx 1) rfl <| Both.bind (localize_ok (l := pi0 - 2 * 1 + 1) (by omega) nI.1 rfl) <| Both.bind (localize_ok (l := pj0 - 2 * 1 + 1) (by omega) nJ.1 rfl) <| Both.bind (localize_ok (l := pk0 - 2 * 1 + 1) (by omega) nK.1 rfl) <| ?_
    simp only [↓reduceIte, Int.reduceEq, F.doLoop_skip, ← farr_st3]
    by_cases o1 : intOrder = 1
    · subst o1
      simp only [↓reduceIte, Int.reduceEq, F.doLoop_skip, F.block_skip.1, F.block_skip.2, ne_eq, not_true_eq_false, not_false_eq_true, false_and, and_false, and_self, and_true, true_and]
      exact pcf1 (seg3_1 Ast (by omega) (by omega) (by omega) (by omega)) (by omega) hβ (l1 rfl)
    by_cases o2 : intOrder = 2
    · subst o2
      simp only [o1, ↓reduceIte, Int.reduceEq, F.doLoop_skip, F.block_skip.1, F.block_skip.2, ne_eq, not_true_eq_false, not_false_eq_true, false_and, and_false, and_self, and_true, true_and]
      exact pcf2 (seg3_1 Ast (by omega) (by omega) (by omega) (by omega)) (by omega) hβ (l2 rfl)
    simp only [Cuda.adjPoissonCfDiagFunc, o1, o2, ↓reduceIte, Int.reduceEq, F.doLoop_skip, F.block_skip.1, F.block_skip.2, ite_self, ne_eq, not_true_eq_false, not_false_eq_true, false_and, and_false, and_self, and_true, true_and]
    exact Both.skip
  · replace hz := hz rfl
    refine Both.bind mkI <| Both.bind mkPI <| Both.bind mkJ <| Both.bind mkPJ <| Both.bind mkK <| Both.bind mkPK <| Both.bind mkW <| Both.bind spst <| Both.bind (a := dx 2) rfl <| Both.bind (localize_ok (l := pi0 - 2 * 0 + 1) (by omega) nI.1 rfl) <| Both.bind (localize_ok (l := pj0 - 2 * 0 + 1) (by omega) nJ.1 rfl) <| Both.bind (localize_ok (l := pk0 - 2 * 0 + 1) (by omega) nK.1 rfl) <| ?_
    simp only [↓reduceIte, Int.reduceEq, F.doLoop_skip, ← farr_st3]
    by_cases o1 : intOrder = 1
    · subst o1
      simp only [↓reduceIte, Int.reduceEq, F.doLoop_skip, F.block_skip.1, F.block_skip.2, ne_eq, not_true_eq_false, not_false_eq_true, false_and, and_false, and_self, and_true, true_and]
      exact pcf1 (seg3_2 Ast (by omega) (by omega) (by omega) (by omega)) (by omega) hβ (l1 rfl)
    by_cases o2 : intOrder = 2
    · subst o2
      simp only [o1, ↓reduceIte, Int.reduceEq, F.doLoop_skip, F.block_skip.1, F.block_skip.2, ne_eq, not_true_eq_false, not_false_eq_true, false_and, and_false, and_self, and_true, true_and]
      exact pcf2 (seg3_2 Ast (by omega) (by omega) (by omega) (by omega)) (by omega) hβ (l2 rfl)
    simp only [Cuda.adjPoissonCfDiagFunc, o1, o2, ↓reduceIte, Int.reduceEq, F.doLoop_skip, F.block_skip.1, F.block_skip.2, ite_self, ne_eq, not_true_eq_false, not_false_eq_true, false_and, and_false, and_self, and_true, true_and]
    exact Both.skip
  · replace hz := hz rfl
    refine Both.bind mkI <| Both.bind mkPI <| Both.bind mkJ <| Both.bind mkPJ <| Both.bind mkK <| Both.bind mkPK <| Both.bind mkW <| Both.bind spst <| Both.bind (a := dx 2) rfl <| Both.bind (localize_ok (l := pi0 - 2 * 1 + 1) (by omega) nI.1 rfl) <| Both.bind (localize_ok (l := pj0 - 2 * 1 + 1) (by omega) nJ.1 rfl) <| Both.bind (localize_ok (l := pk0 - 2 * 1 + 1) (by omega) nK.1 rfl) <| ?_
    simp only [↓reduceIte, Int.reduceEq, F.doLoop_skip, ← farr_st3]
    by_cases o1 : intOrder = 1
    · subst o1
      simp only [↓reduceIte, Int.reduceEq, F.doLoop_skip, F.block_skip.1, F.block_skip.2, ne_eq, not_true_eq_false, not_false_eq_true, false_and, and_false, and_self, and_true, true_and]
      exact pcf1 (seg3_2 Ast (by omega) (by omega) (by omega) (by omega)) (by omega) hβ (l1 rfl)
    by_cases o2 : intOrder = 2
    · subst o2
      simp only [o1, ↓reduceIte, Int.reduceEq, F.doLoop_skip, F.block_skip.1, F.block_skip.2, ne_eq, not_true_eq_false, not_false_eq_true, false_and, and_false, and_self, and_true, true_and]
      exact pcf2 (seg3_2 Ast (by omega) (by omega) (by omega) (by omega)) (by omega) hβ (l2 rfl)
    simp only [Cuda.adjPoissonCfDiagFunc, o1, o2, ↓reduceIte, Int.reduceEq, F.doLoop_skip, F.block_skip.1, F.block_skip.2, ite_self, ne_eq, not_true_eq_false, not_false_eq_true, false_and, and_false, and_self, and_true, true_and]
    exact Both.skip

example : ∃ m', Cuda.adjPoissonCfDiag3d 0 0 0 3 2 1 0 0 2 3 2 2 2 2 1 2 exDx 2 1 ⟨3, 0⟩ revBackend exRat = .ok m' ∧
    F.adjcellpoissoncfdiag3d 0 0 0 3 2 1 0 0 2 3 2 2 2 2 1 2 exDx 2 1 ⟨3, 0⟩ exRat = .ok m' :=
  C49_adj_poisson_cf_diag_3d revBackend_ok (fun _ => by ring) (fun _ => by ring) (by decide) (by decide) (by decide) (by decide) (by constructor <;> (try simp only [InInt]) <;> decide) (by ex_args)

/-- `cd_stencil_3d_cuda::adj_offdiag` and `adjcelldiffusionoffdiag3d` leave the same memory, for every schedule and in every arithmetic, wherever products commute and the sign of -9 may be taken out of a product; a Dirichlet face of second order also needs the two ways of taking eight thirds to agree. -/
theorem C49_adj_offdiag_3d {i0 j0 k0 i1 j1 k1 pi0 pj0 pk0 pi1 pj1 pk1 dir side btype exOrder sgcw : Int} {dx : Nat → T} {dir_factor neu_factor beta : T} {b0_ b1_ b2_ st_ : Ptr} {β : Backend} {m : Mem T}
    (hβ : ValidBackend β)
    (l41 : btype = 4 → exOrder = 1 → ∀ x y : T, x * y = y * x)
    (l42 : btype = 4 → exOrder = 2 → ∀ x : T, -9 * x = -(9 * x))
    (l0 : btype = 0 → exOrder = 2 → ∀ x : T, x * (8 / 3) = 8 * x / 3)
    (hi : i0 ≤ i1) (hj : j0 ≤ j1) (hk : k0 ≤ k1) (hg : 0 ≤ sgcw) (hl : Layer3 i0 j0 k0 i1 j1 k1 0 pi0 pj0 pk0 pi1 pj1 pk1 dir side)
    (h : F.Args m [F.face3d0 b0_ i0 j0 k0 i1 j1 k1 0, F.face3d1 b1_ i0 j0 k0 i1 j1 k1 0, F.face3d2 b2_ i0 j0 k0 i1 j1 k1 0] [F.st3d st_ i0 j0 k0 i1 j1 k1 sgcw]) :
    ∃ m', Cuda.adjOffdiag3d i0 j0 k0 i1 j1 k1 pi0 pj0 pk0 pi1 pj1 pk1 dir side btype exOrder dx dir_factor neu_factor beta b0_ b1_ b2_ sgcw st_ β m = .ok m' ∧ F.adjcelldiffusionoffdiag3d i0 j0 k0 i1 j1 k1 pi0 pj0 pk0 pi1 pj1 pk1 dir side btype exOrder dx dir_factor neu_factor beta b0_ b1_ b2_ sgcw st_ m = .ok m' := by
  have hst := h.ok (F.st3d st_ i0 j0 k0 i1 j1 k1 sgcw) (by simp)
  obtain ⟨Ast, spst, Ii, Ij, Ik⟩ := st3_setup hst hi hj hk hg
  have hb0 := h.ok (F.face3d0 b0_ i0 j0 k0 i1 j1 k1 0) (by simp)
  obtain ⟨Ab0, plI, J0⟩ := face30_setup hb0 hi hj hk
  have Pb0 : Apart (sSt3 st_ i0 j0 k0 i1 j1 k1 sgcw) (sFace30 b0_ i0 j0 k0 i1 j1 k1) := apart_of farr_st3 farr_face30 (h.apart _ (by simp) _ (by simp))
  have hb1 := h.ok (F.face3d1 b1_ i0 j0 k0 i1 j1 k1 0) (by simp)
  obtain ⟨Ab1, plJ, J1⟩ := face31_setup hb1 hi hj hk
  have Pb1 : Apart (sSt3 st_ i0 j0 k0 i1 j1 k1 sgcw) (sFace31 b1_ i0 j0 k0 i1 j1 k1) := apart_of farr_st3 farr_face31 (h.apart _ (by simp) _ (by simp))
  have hb2 := h.ok (F.face3d2 b2_ i0 j0 k0 i1 j1 k1 0) (by simp)
  obtain ⟨Ab2, plK, J2⟩ := face32_setup hb2 hi hj hk
  have Pb2 : Apart (sSt3 st_ i0 j0 k0 i1 j1 k1 sgcw) (sFace32 b2_ i0 j0 k0 i1 j1 k1) := apart_of farr_st3 farr_face32 (h.apart _ (by simp) _ (by simp))
  have mkI := mkB_near (d := .I) (lo := i0) (hi := i1) (by rng)
  have mkJ := mkB_near (d := .J) (lo := j0) (hi := j1) (by rng)
  have mkK := mkB_near (d := .K) (lo := k0) (hi := k1) (by rng)
  have mkW := mkB_near (d := .W) (lo := 0) (hi := 6) (by rng)
  obtain ⟨hd, hs, hx, hy, hz, nI, nJ, nK⟩ := hl
  have mkPI := mkB_near (d := .I) (lo := pi0) nI.2
  have mkPJ := mkB_near (d := .J) (lo := pj0) nJ.2
  have mkPK := mkB_near (d := .K) (lo := pk0) nK.2
  have hd : dir = 0 ∨ dir = 1 ∨ dir = 2 := by omega
  show Both (Cuda.adjOffdiag3d i0 j0 k0 i1 j1 k1 pi0 pj0 pk0 pi1 pj1 pk1 dir side btype exOrder dx dir_factor neu_factor beta b0_ b1_ b2_ sgcw st_ β m) (F.adjcelldiffusionoffdiag3d i0 j0 k0 i1 j1 k1 pi0 pj0 pk0 pi1 pj1 pk1 dir side btype exOrder dx dir_factor neu_factor beta b0_ b1_ b2_ sgcw st_) m
  unfold Cuda.adjOffdiag3d F.adjcelldiffusionoffdiag3d
  rcases hd with rfl | rfl | rfl <;> rcases hs with rfl | rfl
  · replace hx := hx rfl
    refine Both.bind mkI <| Both.bind mkPI <| Both.bind mkJ <| Both.bind mkPJ <| Both.bind mkK <| Both.bind mkPK <| Both.bind mkW <| Both.bind spst <| Both.bind plI <| Both.bind plJ <| Both.bind plK <| Both.bind (a := dx 0) rfl <| Both.bind (a := (1 : Int)) rfl <| Both.bind (a := (2 : Int)) rfl <| Both.bind (localize_ok (l := pi0 - 2 * 0 + 1) (by omega) nI.1 rfl) <| Both.bind (localize_ok (l := pj0 - 2 * 0 + 1) (by omega) nJ.1 rfl) <| Both.bind (localize_ok (l := pk0 - 2 * 0 + 1) (by omega) nK.1 rfl) <| ?_
    simp only [↓reduceIte, Int.reduceEq, F.doLoop_skip, ← farr_st3]
    by_cases t4 : btype = 4
    · subst t4
      by_cases o1 : exOrder = 1
      · subst o1
        simp only [↓reduceIte, Int.reduceEq, F.doLoop_skip, F.block_skip.1, F.block_skip.2, ne_eq, not_true_eq_false, not_false_eq_true, false_and, and_false, and_self, and_true, true_and]
        exact off4_1 (seg3_0 Ast (by omega) (by omega) (by omega) (by omega)) hβ (by omega) (face_at30 Ab0 Pb0 (by omega) (by omega) (by omega) (by omega) (by omega)) (l41 rfl rfl)
      by_cases o2 : exOrder = 2
      · subst o2
        simp only [o1, ↓reduceIte, Int.reduceEq, F.doLoop_skip, F.block_skip.1, F.block_skip.2, ne_eq, not_true_eq_false, not_false_eq_true, false_and, and_false, and_self, and_true, true_and]
        exact off4_2 (seg3_0 Ast (by omega) (by omega) (by omega) (by omega)) hβ (by omega) (by omega) (face_at30 Ab0 Pb0 (by omega) (by omega) (by omega) (by omega) (by omega)) (l42 rfl rfl)
      simp only [Cuda.adjOffdiagBt4, Cuda.adjOffdiagBt0, o1, o2, ↓reduceIte, Int.reduceEq, F.doLoop_skip, F.block_skip.1, F.block_skip.2, ite_self, ne_eq, not_true_eq_false, not_false_eq_true, false_and, and_false, and_self, and_true, true_and]
      exact Both.skip
    by_cases t0 : btype = 0
    · subst t0
      by_cases o1 : exOrder = 1
      · subst o1
        simp only [↓reduceIte, Int.reduceEq, F.doLoop_skip, F.block_skip.1, F.block_skip.2, ne_eq, not_true_eq_false, not_false_eq_true, false_and, and_false, and_self, and_true, true_and]
        exact off0_1 (seg3_0 Ast (by omega) (by omega) (by omega) (by omega)) hβ (by omega)
      by_cases o2 : exOrder = 2
      · subst o2
        simp only [o1, ↓reduceIte, Int.reduceEq, F.doLoop_skip, F.block_skip.1, F.block_skip.2, ne_eq, not_true_eq_false, not_false_eq_true, false_and, and_false, and_self, and_true, true_and]
        exact off0_2 (seg3_0 Ast (by omega) (by omega) (by omega) (by omega)) hβ (by omega) (by omega) (l0 rfl rfl)
      simp only [Cuda.adjOffdiagBt4, Cuda.adjOffdiagBt0, o1, o2, ↓reduceIte, Int.reduceEq, F.doLoop_skip, F.block_skip.1, F.block_skip.2, ite_self, ne_eq, not_true_eq_false, not_false_eq_true, false_and, and_false, and_self, and_true, true_and]
      exact Both.skip
    by_cases t1 : btype = 1
    · subst t1
      simp only [↓reduceIte, Int.reduceEq, F.doLoop_skip, F.block_skip.1, F.block_skip.2, ne_eq, not_true_eq_false, not_false_eq_true, false_and, and_false, and_self, and_true, true_and]
      exact off1 (seg3_0 Ast (by omega) (by omega) (by omega) (by omega)) hβ (by omega)
    simp only [Cuda.adjOffdiagBt4, Cuda.adjOffdiagBt0, t4, t0, t1, ↓reduceIte, Int.reduceEq, F.doLoop_skip, F.block_skip.1, F.block_skip.2, ite_self, ne_eq, not_true_eq_false, not_false_eq_true, false_and, and_false, and_self, and_true, true_and]
    exact Both.skip
  · replace hx := hx rfl
    refine Both.bind mkI <| Both.bind mkPI <| Both.bind mkJ <| Both.bind mkPJ <| Both.bind mkK <| Both.bind mkPK <| Both.bind mkW <| Both.bind spst <| Both.bind plI <| Both.bind plJ <| Both.bind plK <| Both.bind (a := dx 0) rfl <| Both.bind (a := (2 : Int)) rfl <| Both.bind (a := (1 : Int)) rfl <| Both.bind (localize_ok (l := pi0 - 2 * 1 + 1) (by omega) nI.1 rfl) <| Both.bind (localize_ok (l := pj0 - 2 * 1 + 1) (by omega) nJ.1 rfl) <| Both.bind (localize_ok (l := pk0 - 2 * 1 + 1) (by omega) nK.1 rfl) <| ?_
    simp only [↓reduceIte, Int.reduceEq, F.doLoop_skip, ← farr_st3]
    by_cases t4 : btype = 4
    · subst t4
      by_cases o1 : exOrder = 1
      · subst o1
        simp only [↓reduceIte, Int.reduceEq, F.doLoop_skip, F.block_skip.1, F.block_skip.2, ne_eq, not_true_eq_false, not_false_eq_true, false_and, and_false, and_self, and_true, true_and]
        exact off4_1 (seg3_0 Ast (by omega) (by omega) (by omega) (by omega)) hβ (by omega) (face_at30 Ab0 Pb0 (by omega) (by omega) (by omega) (by omega) (by omega)) (l41 rfl rfl)
      by_cases o2 : exOrder = 2
      · subst o2
        simp only [o1, ↓reduceIte, Int.reduceEq, F.doLoop_skip, F.block_skip.1, F.block_skip.2, ne_eq, not_true_eq_false, not_false_eq_true, false_and, and_false, and_self, and_true, true_and]
        exact off4_2 (seg3_0 Ast (by omega) (by omega) (by omega) (by omega)) hβ (by omega) (by omega) (face_at30 Ab0 Pb0 (by omega) (by omega) (by omega) (by omega) (by omega)) (l42 rfl rfl)
      simp only [Cuda.adjOffdiagBt4, Cuda.adjOffdiagBt0, o1, o2, ↓reduceIte, Int.reduceEq, F.doLoop_skip, F.block_skip.1, F.block_skip.2, ite_self, ne_eq, not_true_eq_false, not_false_eq_true, false_and, and_false, and_self, and_true, true_and]
      exact Both.skip
    by_cases t0 : btype = 0
    · subst t0
      by_cases o1 : exOrder = 1
      · subst o1
        simp only [↓reduceIte, Int.reduceEq, F.doLoop_skip, F.block_skip.1, F.block_skip.2, ne_eq, not_true_eq_false, not_false_eq_true, false_and, and_false, and_self, and_true, true_and]
        exact off0_1 (seg3_0 Ast (by omega) (by omega) (by omega) (by omega)) hβ (by omega)
      by_cases o2 : exOrder = 2
      · subst o2
        simp only [o1, ↓reduceIte, Int.reduceEq, F.doLoop_skip, F.block_skip.1, F.block_skip.2, ne_eq, not_true_eq_false, not_false_eq_true, false_and, and_false, and_self, and_true, true_and]
        exact off0_2 (seg3_0 Ast (by omega) (by omega) (by omega) (by omega)) hβ (by omega) (by omega) (l0 rfl rfl)
      simp only [Cuda.adjOffdiagBt4, Cuda.adjOffdiagBt0, o1, o2, ↓reduceIte, Int.reduceEq, F.doLoop_skip, F.block_skip.1, F.block_skip.2, ite_self, ne_eq, not_true_eq_false, not_false_eq_true, false_and, and_false, and_self, and_true, true_and]
      exact Both.skip
    by_cases t1 : btype = 1
    · subst t1
      simp only [↓reduceIte, Int.reduceEq, F.doLoop_skip, F.block_skip.1, F.block_skip.2, ne_eq, not_true_eq_false, not_false_eq_true, false_and, and_false, and_self, and_true, true_and]
      exact off1 (seg3_0 Ast (by omega) (by omega) (by omega) (by omega)) hβ (by omega)
    simp only [Cuda.adjOffdiagBt4, Cuda.adjOffdiagBt0, t4, t0, t1, ↓reduceIte, Int.reduceEq, F.doLoop_skip, F.block_skip.1, F.block_skip.2, ite_self, ne_eq, not_true_eq_false, not_false_eq_true, false_and, and_false, and_self, and_true, true_and]
    exact Both.skip
  · replace hy := hy rfl
    refine Both.bind mkI <| Both.bind mkPI <| Both.bind mkJ <| Both.bind mkPJ <| Both.bind mkK <| Both.bind mkPK <| Both.bind mkW <| Both.bind spst <| Both.bind plI <| Both.bind plJ <| Both.bind plK <| Both.bind (a := dx 1) rfl <| Both.bind (a := (3 : Int)) rfl <| Both.bind (a := (4 : Int)) rfl <| Both.bind (localize_ok (l := pi0 - 2 * 0 + 1) (by omega) nI.1 rfl) <| Both.bind (localize_ok (l := pj0 - 2 * 0 + 1) (by omega) nJ.1 rfl) <| Both.bind (localize_ok (l := pk0 - 2 * 0 + 1) (by omega) nK.1 rfl) <| ?_
    simp only [↓reduceIte, Int.reduceEq, F.doLoop_skip, ← farr_st3]
    by_cases t4 : btype = 4
    · subst t4
      by_cases o1 : exOrder = 1
      · subst o1
        simp only [↓reduceIte, Int.reduceEq, F.doLoop_skip, F.block_skip.1, F.block_skip.2, ne_eq, not_true_eq_false, not_false_eq_true, false_and, and_false, and_self, and_true, true_and]
        exact off4_1 (seg3_1 Ast (by omega) (by omega) (by omega) (by omega)) hβ (by omega) (face_at31 Ab1 Pb1 (by omega) (by omega) (by omega) (by omega) (by omega)) (l41 rfl rfl)
      by_cases o2 : exOrder = 2
      · subst o2
        simp only [o1, ↓reduceIte, Int.reduceEq, F.doLoop_skip, F.block_skip.1, F.block_skip.2, ne_eq, not_true_eq_false, not_false_eq_true, false_and, and_false, and_self, and_true, true_and]
        exact off4_2 (seg3_1 Ast (by omega) (by omega) (by omega) (by omega)) hβ (by omega) (by omega) (face_at31 Ab1 Pb1 (by omega) (by omega) (by omega) (by omega) (by omega)) (l42 rfl rfl)
      simp only [Cuda.adjOffdiagBt4, Cuda.adjOffdiagBt0, o1, o2, ↓reduceIte, Int.reduceEq, F.doLoop_skip, F.block_skip.1, F.block_skip.2, ite_self, ne_eq, not_true_eq_false, not_false_eq_true, false_and, and_false, and_self, and_true, true_and]
      exact Both.skip
    by_cases t0 : btype = 0
    · subst t0
      by_cases o1 : exOrder = 1
      · subst o1
        simp only [↓reduceIte, Int.reduceEq, F.doLoop_skip, F.block_skip.1, F.block_skip.2, ne_eq, not_true_eq_false, not_false_eq_true, false_and, and_false, and_self, and_true, true_and]
        exact off0_1 (seg3_1 Ast (by omega) (by omega) (by omega) (by omega)) hβ (by omega)
      by_cases o2 : exOrder = 2
      · subst o2
        simp only [o1, ↓reduceIte, Int.reduceEq, F.doLoop_skip, F.block_skip.1, F.block_skip.2, ne_eq, not_true_eq_false, not_false_eq_true, false_and, and_false, and_self, and_true, true_and]
        exact off0_2 (seg3_1 Ast (by omega) (by omega) (by omega) (by omega)) hβ (by omega) (by omega) (l0 rfl rfl)
      simp only [Cuda.adjOffdiagBt4, Cuda.adjOffdiagBt0, o1, o2, ↓reduceIte, Int.reduceEq, F.doLoop_skip, F.block_skip.1, F.block_skip.2, ite_self, ne_eq, not_true_eq_false, not_false_eq_true, false_and, and_false, and_self, and_true, true_and]
      exact Both.skip
    by_cases t1 : btype = 1
    · subst t1
      simp only [↓reduceIte, Int.reduceEq, F.doLoop_skip, F.block_skip.1, F.block_skip.2, ne_eq, not_true_eq_false, not_false_eq_true, false_and, and_false, and_self, and_true, true_and]
      exact off1 (seg3_1 Ast (by omega) (by omega) (by omega) (by omega)) hβ (by omega)
    simp only [Cuda.adjOffdiagBt4, Cuda.adjOffdiagBt0, t4, t0, t1, ↓reduceIte, Int.reduceEq, F.doLoop_skip, F.block_skip.1, F.block_skip.2, ite_self, ne_eq, not_true_eq_false, not_false_eq_true, false_and, and_false, and_self, and_true, true_and]
    exact Both.skip
  · replace hy := hy rfl
    refine Both.bind mkI <| Both.bind mkPI <| Both.bind mkJ <| Both.bind mkPJ <| Both.bind mkK <| Both.bind mkPK <| Both.bind mkW <| Both.bind spst <| Both.bind plI <| Both.bind plJ <| Both.bind plK <| Both.bind (a := dx 1) rfl <| Both.bind (a := (4 : Int)) rfl <| Both.bind (a := (3 : Int)) rfl <| Both.bind (localize_ok (l := pi0 - 2 * 1 + 1) (by omega) nI.1 rfl) <| Both.bind (localize_ok (l := pj0 - 2 * 1 + 1) (by omega) nJ.1 rfl) <| Both.bind (localize_ok (l := pk0 - 2 * 1 + 1) (by omega) nK.1 rfl) <| ?_
    simp only [↓reduceIte, Int.reduceEq, F.doLoop_skip, ← farr_st3]
    by_cases t4 : btype = 4
    · subst t4
      by_cases o1 : exOrder = 1
      · subst o1
        simp only [↓reduceIte, Int.reduceEq, F.doLoop_skip, F.block_skip.1, F.block_skip.2, ne_eq, not_true_eq_false, not_false_eq_true, false_and, and_false, and_self, and_true, true_and]
        exact off4_1 (seg3_1 Ast (by omega) (by omega) (by omega) (by omega)) hβ (by omega) (face_at31 Ab1 Pb1 (by omega) (by omega) (by omega) (by omega) (by omega)) (l41 rfl rfl)
      by_cases o2 : exOrder = 2
      · subst o2
        simp only [o1, ↓reduceIte, Int.reduceEq, F.doLoop_skip, F.block_skip.1, F.block_skip.2, ne_eq, not_true_eq_false, not_false_eq_true, false_and, and_false, and_self, and_true, true_and]
        exact off4_2 (seg3_1 Ast (by omega) (by omega) (by omega) (by omega)) hβ (by omega) (by omega) (face_at31 Ab1 Pb1 (by omega) (by omega) (by omega) (by omega) (by omega)) (l42 rfl rfl)
      simp only [Cuda.adjOffdiagBt4, Cuda.adjOffdiagBt0, o1, o2, ↓reduceIte, Int.reduceEq, F.doLoop_skip, F.block_skip.1, F.block_skip.2, ite_self, ne_eq, not_true_eq_false, not_false_eq_true, false_and, and_false, and_self, and_true, true_and]
      exact Both.skip
    by_cases t0 : btype = 0
    · subst t0
      by_cases o1 : exOrder = 1
      · subst o1
        simp only [↓reduceIte, Int.reduceEq, F.doLoop_skip, F.block_skip.1, F.block_skip.2, ne_eq, not_true_eq_false, not_false_eq_true, false_and, and_false, and_self, and_true, true_and]
        exact off0_1 (seg3_1 Ast (by omega) (by omega) (by omega) (by omega)) hβ (by omega)
      by_cases o2 : exOrder = 2
      · subst o2
        simp only [o1, ↓reduceIte, Int.reduceEq, F.doLoop_skip, F.block_skip.1, F.block_skip.2, ne_eq, not_true_eq_false, not_false_eq_true, false_and, and_false, and_self, and_true, true_and]
        exact off0_2 (seg3_1 Ast (by omega) (by omega) (by omega) (by omega)) hβ (by omega) (by omega) (l0 rfl rfl)
      simp only [Cuda.adjOffdiagBt4, Cuda.adjOffdiagBt0, o1, o2, ↓reduceIte, Int.reduceEq, F.doLoop_skip, F.block_skip.1, F.block_skip.2, ite_self, ne_eq, not_true_eq_false, not_false_eq_true, false_and, and_false, and_self, and_true, true_and]
      exact Both.skip
    by_cases t1 : btype = 1
    · subst t1
      simp only [↓reduceIte, Int.reduceEq, F.doLoop_skip, F.block_skip.1, F.block_skip.2, ne_eq, not_true_eq_false, not_false_eq_true, false_and, and_false, and_self, and_true, true_and]
      exact off1 (seg3_1 Ast (by omega) (by omega) (by omega) (by omega)) hβ (by omega)
    simp only [Cuda.adjOffdiagBt4, Cuda.adjOffdiagBt0, t4, t0, t1, ↓reduceIte, Int.reduceEq, F.doLoop_skip, F.block_skip.1, F.block_skip.2, ite_self, ne_eq, not_true_eq_false, not_false_eq_true, false_and, and_false, and_self, and_true, true_and]
    exact Both.skip
  · replace hz := hz rfl
    refine Both.bind mkI <| Both.bind mkPI <| Both.bind mkJ <| Both.bind mkPJ <| Both.bind mkK <| Both.bind mkPK <| Both.bind mkW <| Both.bind spst <| Both.bind plI <| Both.bind plJ <| Both.bind plK <| Both.bind (a := dx 2) rfl <| Both.bind (a := (5 : Int)) rfl <| Both.bind (a := (6 : Int)) rfl <| Both.bind (localize_ok (l := pi0 - 2 * 0 + 1) (by omega) nI.1 rfl) <| Both.bind (localize_ok (l := pj0 - 2 * 0 + 1) (by omega) nJ.1 rfl) <| Both.bind (localize_ok (l := pk0 - 2 * 0 + 1) (by omega) nK.1 rfl) <| ?_
    simp only [↓reduceIte, Int.reduceEq, F.doLoop_skip, ← farr_st3]
    by_cases t4 : btype = 4
    · subst t4
      by_cases o1 : exOrder = 1
      · subst o1
        simp only [↓reduceIte, Int.reduceEq, F.doLoop_skip, F.block_skip.1, F.block_skip.2, ne_eq, not_true_eq_false, not_false_eq_true, false_and, and_false, and_self, and_true, true_and]
        exact off4_1 (seg3_2 Ast (by omega) (by omega) (by omega) (by omega)) hβ (by omega) (face_at32 Ab2 Pb2 (by omega) (by omega) (by omega) (by omega) (by omega)) (l41 rfl rfl)
      by_cases o2 : exOrder = 2
      · subst o2
        simp only [o1, ↓reduceIte, Int.reduceEq, F.doLoop_skip, F.block_skip.1, F.block_skip.2, ne_eq, not_true_eq_false, not_false_eq_true, false_and, and_false, and_self, and_true, true_and]
        exact off4_2 (seg3_2 Ast (by omega) (by omega) (by omega) (by omega)) hβ (by omega) (by omega) (face_at32 Ab2 Pb2 (by omega) (by omega) (by omega) (by omega) (by omega)) (l42 rfl rfl)
      simp only [Cuda.adjOffdiagBt4, Cuda.adjOffdiagBt0, o1, o2, ↓reduceIte, Int.reduceEq, F.doLoop_skip, F.block_skip.1, F.block_skip.2, ite_self, ne_eq, not_true_eq_false, not_false_eq_true, false_and, and_false, and_self, and_true, true_and]
      exact Both.skip
    by_cases t0 : btype = 0
    · subst t0
      by_cases o1 : exOrder = 1
      · subst o1
        simp only [↓reduceIte, Int.reduceEq, F.doLoop_skip, F.block_skip.1, F.block_skip.2, ne_eq, not_true_eq_false, not_false_eq_true, false_and, and_false, and_self, and_true, true_and]
        exact off0_1 (seg3_2 Ast (by omega) (by omega) (by omega) (by omega)) hβ (by omega)
      by_cases o2 : exOrder = 2
      · subst o2
        simp only [o1, ↓reduceIte, Int.reduceEq, F.doLoop_skip, F.block_skip.1, F.block_skip.2, ne_eq, not_true_eq_false, not_false_eq_true, false_and, and_false, and_self, and_true, true_and]
        exact off0_2 (seg3_2 Ast (by omega) (by omega) (by omega) (by omega)) hβ (by omega) (by omega) (l0 rfl rfl)
      simp only [Cuda.adjOffdiagBt4, Cuda.adjOffdiagBt0, o1, o2, ↓reduceIte, Int.reduceEq, F.doLoop_skip, F.block_skip.1, F.block_skip.2, ite_self, ne_eq, not_true_eq_false, not_false_eq_true, false_and, and_false, and_self, and_true, true_and]
      exact Both.skip
    by_cases t1 : btype = 1
    · subst t1
      simp only [↓reduceIte, Int.reduceEq, F.doLoop_skip, F.block_skip.1, F.block_skip.2, ne_eq, not_true_eq_false, not_false_eq_true, false_and, and_false, and_self, and_true, true_and]
      exact off1 (seg3_2 Ast (by omega) (by omega) (by omega) (by omega)) hβ (by omega)
    simp only [Cuda.adjOffdiagBt4, Cuda.adjOffdiagBt0, t4, t0, t1, ↓reduceIte, Int.reduceEq, F.doLoop_skip, F.block_skip.1, F.block_skip.2, ite_self, ne_eq, not_true_eq_false, not_false_eq_true, false_and, and_false, and_self, and_true, true_and]
    exact Both.skip
  · replace hz := hz rfl
    refine Both.bind mkI <| Both.bind mkPI <| Both.bind mkJ <| Both.bind mkPJ <| Both.bind mkK <| Both.bind mkPK <| Both.bind mkW <| Both.bind spst <| Both.bind plI <| Both.bind plJ <| Both.bind plK <| Both.bind (a := dx 2) rfl <| Both.bind (a := (6 : Int)) rfl <| Both.bind (a := (5 : Int)) rfl <| Both.bind (localize_ok (l := pi0 - 2 * 1 + 1) (by omega) nI.1 rfl) <| Both.bind (localize_ok (l := pj0 - 2 * 1 + 1) (by omega) nJ.1 rfl) <| Both.bind (localize_ok (l := pk0 - 2 * 1 + 1) (by omega) nK.1 rfl) <| ?_
    simp only [↓reduceIte, Int.reduceEq, F.doLoop_skip, ← farr_st3]
    by_cases t4 : btype = 4
    · subst t4
      by_cases o1 : exOrder = 1
      · subst o1
        simp only [↓reduceIte, Int.reduceEq, F.doLoop_skip, F.block_skip.1, F.block_skip.2, ne_eq, not_true_eq_false, not_false_eq_true, false_and, and_false, and_self, and_true, true_and]
        exact off4_1 (seg3_2 Ast (by omega) (by omega) (by omega) (by omega)) hβ (by omega) (face_at32 Ab2 Pb2 (by omega) (by omega) (by omega) (by omega) (by omega)) (l41 rfl rfl)
      by_cases o2 : exOrder = 2
      · subst o2
        simp only [o1, ↓reduceIte, Int.reduceEq, F.doLoop_skip, F.block_skip.1, F.block_skip.2, ne_eq, not_true_eq_false, not_false_eq_true, false_and, and_false, and_self, and_true, true_and]
        exact off4_2 (seg3_2 Ast (by omega) (by omega) (by omega) (by omega)) hβ (by omega) (by omega) (face_at32 Ab2 Pb2 (by omega) (by omega) (by omega) (by omega) (by omega)) (l42 rfl rfl)
      simp only [Cuda.adjOffdiagBt4, Cuda.adjOffdiagBt0, o1, o2, ↓reduceIte, Int.reduceEq, F.doLoop_skip, F.block_skip.1, F.block_skip.2, ite_self, ne_eq, not_true_eq_false, not_false_eq_true, false_and, and_false, and_self, and_true, true_and]
      exact Both.skip
    by_cases t0 : btype = 0
    · subst t0
      by_cases o1 : exOrder = 1
      · subst o1
        simp only [↓reduceIte, Int.reduceEq, F.doLoop_skip, F.block_skip.1, F.block_skip.2, ne_eq, not_true_eq_false, not_false_eq_true, false_and, and_false, and_self, and_true, true_and]
        exact off0_1 (seg3_2 Ast (by omega) (by omega) (by omega) (by omega)) hβ (by omega)
      by_cases o2 : exOrder = 2
      · subst o2
        simp only [o1, ↓reduceIte, Int.reduceEq, F.doLoop_skip, F.block_skip.1, F.block_skip.2, ne_eq, not_true_eq_false, not_false_eq_true, false_and, and_false, and_self, and_true, true_and]
        exact off0_2 (seg3_2 Ast (by omega) (by omega) (by omega) (by omega)) hβ (by omega) (by omega) (l0 rfl rfl)
      simp only [Cuda.adjOffdiagBt4, Cuda.adjOffdiagBt0, o1, o2, ↓reduceIte, Int.reduceEq, F.doLoop_skip, F.block_skip.1, F.block_skip.2, ite_self, ne_eq, not_true_eq_false, not_false_eq_true, false_and, and_false, and_self, and_true, true_and]
      exact Both.skip
    by_cases t1 : btype = 1
    · subst t1
      simp only [↓reduceIte, Int.reduceEq, F.doLoop_skip, F.block_skip.1, F.block_skip.2, ne_eq, not_true_eq_false, not_false_eq_true, false_and, and_false, and_self, and_true, true_and]
      exact off1 (seg3_2 Ast (by omega) (by omega) (by omega) (by omega)) hβ (by omega)
    simp only [Cuda.adjOffdiagBt4, Cuda.adjOffdiagBt0, t4, t0, t1, ↓reduceIte, Int.reduceEq, F.doLoop_skip, F.block_skip.1, F.block_skip.2, ite_self, ne_eq, not_true_eq_false, not_false_eq_true, false_and, and_false, and_self, and_true, true_and]
    exact Both.skip

example : ∃ m', Cuda.adjOffdiag3d 0 0 0 3 2 1 0 0 2 3 2 2 2 1 4 2 exDxB 2 3 4 ⟨0, 0⟩ ⟨1, 0⟩ ⟨2, 0⟩ 1 ⟨3, 0⟩ revBackend exB64 = .ok m' ∧
    F.adjcelldiffusionoffdiag3d 0 0 0 3 2 1 0 0 2 3 2 2 2 1 4 2 exDxB 2 3 4 ⟨0, 0⟩ ⟨1, 0⟩ ⟨2, 0⟩ 1 ⟨3, 0⟩ exB64 = .ok m' :=
  C49_adj_offdiag_3d revBackend_ok (fun _ _ => B64.mul_comm) (fun _ _ => B64.neg_mul _) (fun h => absurd h (by decide)) (by decide) (by decide) (by decide) (by decide) (by constructor <;> (try simp only [InInt]) <;> decide) (by ex_argsB)

/-- `cd_stencil_3d_cuda::adj_poisson_offdiag` and `adjcellpoissonoffdiag3d` leave the same memory, for every schedule and in every arithmetic, wherever products commute and the sign of -9 may be taken out of a product; a Dirichlet face of second order also needs the two ways of taking eight thirds to agree. -/
theorem C49_adj_poisson_offdiag_3d {i0 j0 k0 i1 j1 k1 pi0 pj0 pk0 pi1 pj1 pk1 dir side btype exOrder sgcw : Int} {dx : Nat → T} {dir_factor neu_factor beta : T} {st_ : Ptr} {β : Backend} {m : Mem T}
    (hβ : ValidBackend β)
    (l41 : btype = 4 → exOrder = 1 → ∀ x y : T, x * y = y * x)
    (l42 : btype = 4 → exOrder = 2 → ∀ x : T, -9 * x = -(9 * x))
    (l0 : btype = 0 → exOrder = 2 → ∀ x : T, x * (8 / 3) = 8 * x / 3)
    (hi : i0 ≤ i1) (hj : j0 ≤ j1) (hk : k0 ≤ k1) (hg : 0 ≤ sgcw) (hl : Layer3 i0 j0 k0 i1 j1 k1 sgcw pi0 pj0 pk0 pi1 pj1 pk1 dir side)
    (h : F.Args m [] [F.st3d st_ i0 j0 k0 i1 j1 k1 sgcw]) :
    ∃ m', Cuda.adjPoissonOffdiag3d i0 j0 k0 i1 j1 k1 pi0 pj0 pk0 pi1 pj1 pk1 dir side btype exOrder dx dir_factor neu_factor beta sgcw st_ β m = .ok m' ∧ F.adjcellpoissonoffdiag3d i0 j0 k0 i1 j1 k1 pi0 pj0 pk0 pi1 pj1 pk1 dir side btype exOrder dx dir_factor neu_factor beta sgcw st_ m = .ok m' := by
  have hst := h.ok (F.st3d st_ i0 j0 k0 i1 j1 k1 sgcw) (by simp)
  obtain ⟨Ast, spst, Ii, Ij, Ik⟩ := st3_setup hst hi hj hk hg
  have mkI := mkB_near (d := .I) (lo := i0) (hi := i1) (by rng)
  have mkJ := mkB_near (d := .J) (lo := j0) (hi := j1) (by rng)
  have mkK := mkB_near (d := .K) (lo := k0) (hi := k1) (by rng)
  have mkW := mkB_near (d := .W) (lo := 0) (hi := 6) (by rng)
  obtain ⟨hd, hs, hx, hy, hz, nI, nJ, nK⟩ := hl
  have mkPI := mkB_near (d := .I) (lo := pi0) nI.2
  have mkPJ := mkB_near (d := .J) (lo := pj0) nJ.2
  have mkPK := mkB_near (d := .K) (lo := pk0) nK.2
  have hd : dir = 0 ∨ dir = 1 ∨ dir = 2 := by omega
  show Both (Cuda.adjPoissonOffdiag3d i0 j0 k0 i1 j1 k1 pi0 pj0 pk0 pi1 pj1 pk1 dir side btype exOrder dx dir_factor neu_factor beta sgcw st_ β m) (F.adjcellpoissonoffdiag3d i0 j0 k0 i1 j1 k1 pi0 pj0 pk0 pi1 pj1 pk1 dir side btype exOrder dx dir_factor neu_factor beta sgcw st_) m
  unfold Cuda.adjPoissonOffdiag3d F.adjcellpoissonoffdiag3d
  rcases hd with rfl | rfl | rfl <;> rcases hs with rfl | rfl
  · replace hx := hx rfl
    refine Both.bind mkI <| Both.bind mkPI <| Both.bind mkJ <| Both.bind mkPJ <| Both.bind mkK <| Both.bind mkPK <| Both.bind mkW <| Both.bind spst <| Both.bind (a := dx 0) rfl <| Both.bind (a := (1 : Int)) rfl <| Both.bind (a := (2 : Int)) rfl <| Both.bind (localize_ok (l := pi0 - 2 * 0 + 1) (by omega) nI.1 rfl) <| Both.bind (localize_ok (l := pj0 - 2 * 0 + 1) (by omega) nJ.1 rfl) <| Both.bind (localize_ok (l := pk0 - 2 * 0 + 1) (by omega) nK.1 rfl) <| ?_
    simp only [↓reduceIte, Int.reduceEq, F.doLoop_skip, ← farr_st3]
    by_cases t4 : btype = 4
    · subst t4
      by_cases o1 : exOrder = 1
      · subst o1
        simp only [↓reduceIte, Int.reduceEq, F.doLoop_skip, F.block_skip.1, F.block_skip.2, ne_eq, not_true_eq_false, not_false_eq_true, false_and, and_false, and_self, and_true, true_and]
        exact poff4_1 (seg3_0 Ast (by omega) (by omega) (by omega) (by omega)) hβ (by omega) (l41 rfl rfl)
      by_cases o2 : exOrder = 2
      · subst o2
        simp only [o1, ↓reduceIte, Int.reduceEq, F.doLoop_skip, F.block_skip.1, F.block_skip.2, ne_eq, not_true_eq_false, not_false_eq_true, false_and, and_false, and_self, and_true, true_and]
        exact poff4_2 (seg3_0 Ast (by omega) (by omega) (by omega) (by omega)) hβ (by omega) (by omega) (l42 rfl rfl)
      simp only [Cuda.adjPoissonOffdiagBt4, Cuda.adjOffdiagBt0, o1, o2, ↓reduceIte, Int.reduceEq, F.doLoop_skip, F.block_skip.1, F.block_skip.2, ite_self, ne_eq, not_true_eq_false, not_false_eq_true, false_and, and_false, and_self, and_true, true_and]
      exact Both.skip
    by_cases t0 : btype = 0
    · subst t0
      by_cases o1 : exOrder = 1
      · subst o1
        simp only [↓reduceIte, Int.reduceEq, F.doLoop_skip, F.block_skip.1, F.block_skip.2, ne_eq, not_true_eq_false, not_false_eq_true, false_and, and_false, and_self, and_true, true_and]
        exact off0_1 (seg3_0 Ast (by omega) (by omega) (by omega) (by omega)) hβ (by omega)
      by_cases o2 : exOrder = 2
      · subst o2
        simp only [o1, ↓reduceIte, Int.reduceEq, F.doLoop_skip, F.block_skip.1, F.block_skip.2, ne_eq, not_true_eq_false, not_false_eq_true, false_and, and_false, and_self, and_true, true_and]
        exact off0_2 (seg3_0 Ast (by omega) (by omega) (by omega) (by omega)) hβ (by omega) (by omega) (l0 rfl rfl)
      simp only [Cuda.adjPoissonOffdiagBt4, Cuda.adjOffdiagBt0, o1, o2, ↓reduceIte, Int.reduceEq, F.doLoop_skip, F.block_skip.1, F.block_skip.2, ite_self, ne_eq, not_true_eq_false, not_false_eq_true, false_and, and_false, and_self, and_true, true_and]
      exact Both.skip
    by_cases t1 : btype = 1
    · subst t1
      simp only [↓reduceIte, Int.reduceEq, F.doLoop_skip, F.block_skip.1, F.block_skip.2, ne_eq, not_true_eq_false, not_false_eq_true, false_and, and_false, and_self, and_true, true_and]
      exact off1 (seg3_0 Ast (by omega) (by omega) (by omega) (by omega)) hβ (by omega)
    simp only [Cuda.adjPoissonOffdiagBt4, Cuda.adjOffdiagBt0, t4, t0, t1, ↓reduceIte, Int.reduceEq, F.doLoop_skip, F.block_skip.1, F.block_skip.2, ite_self, ne_eq, not_true_eq_false, not_false_eq_true, false_and, and_false, and_self, and_true, true_and]
    exact Both.skip
  · replace hx := hx rfl
    refine Both.bind mkI <| Both.bind mkPI <| Both.bind mkJ <| Both.bind mkPJ <| Both.bind mkK <| Both.bind mkPK <| Both.bind mkW <| Both.bind spst <| Both.bind (a := dx 0) rfl <| Both.bind (a := (2 : Int)) rfl <| Both.bind (a := (1 : Int)) rfl <| Both.bind (localize_ok (l := pi0 - 2 * 1 + 1) (by omega) nI.1 rfl) <| Both.bind (localize_ok (l := pj0 - 2 * 1 + 1) (by omega) nJ.1 rfl) <| Both.bind (localize_ok (l := pk0 - 2 * 1 + 1) (by omega) nK.1 rfl) <| ?_
    simp only [↓reduceIte, Int.reduceEq, F.doLoop_skip, ← farr_st3]
    by_cases t4 : btype = 4
    · subst t4
      by_cases o1 : exOrder = 1
      · subst o1
        simp only [↓reduceIte, Int.reduceEq, F.doLoop_skip, F.block_skip.1, F.block_skip.2, ne_eq, not_true_eq_false, not_false_eq_true, false_and, and_false, and_self, and_true, true_and]
        exact poff4_1 (seg3_0 Ast (by omega) (by omega) (by omega) (by omega)) hβ (by omega) (l41 rfl rfl)
      by_cases o2 : exOrder = 2
      · subst o2
        simp only [o1, ↓reduceIte, Int.reduceEq, F.doLoop_skip, F.block_skip.1, F.block_skip.2, ne_eq, not_true_eq_false, not_false_eq_true, false_and, and_false, and_self, and_true, true_and]
        exact poff4_2 (seg3_0 Ast (by omega) (by omega) (by omega) (by omega)) hβ (by omega) (by omega) (l42 rfl rfl)
      simp only [Cuda.adjPoissonOffdiagBt4, Cuda.adjOffdiagBt0, o1, o2, ↓reduceIte, Int.reduceEq, F.doLoop_skip, F.block_skip.1, F.block_skip.2, ite_self, ne_eq, not_true_eq_false, not_false_eq_true, false_and, and_false, and_self, and_true, true_and]
      exact Both.skip
    by_cases t0 : btype = 0
    · subst t0
      by_cases o1 : exOrder = 1
      · subst o1
        simp only [↓reduceIte, Int.reduceEq, F.doLoop_skip, F.block_skip.1, F.block_skip.2, ne_eq, not_true_eq_false, not_false_eq_true, false_and, and_false, and_self, and_true, true_and]
        exact off0_1 (seg3_0 Ast (by omega) (by omega) (by omega) (by omega)) hβ (by omega)
      by_cases o2 : exOrder = 2
      · subst o2
        simp only [o1, ↓reduceIte, Int.reduceEq, F.doLoop_skip, F.block_skip.1, F.block_skip.2, ne_eq, not_true_eq_false, not_false_eq_true, false_and, and_false, and_self, and_true, true_and]
        exact off0_2 (seg3_0 Ast (by omega) (by omega) (by omega) (by omega)) hβ (by omega) (by omega) (l0 rfl rfl)
      simp only [Cuda.adjPoissonOffdiagBt4, Cuda.adjOffdiagBt0, o1, o2, ↓reduceIte, Int.reduceEq, F.doLoop_skip, F.block_skip.1, F.block_skip.2, ite_self, ne_eq, not_true_eq_false, not_false_eq_true, false_and, and_false, and_self, and_true, true_and]
      exact Both.skip
    by_cases t1 : btype = 1
    · subst t1
      simp only [↓reduceIte, Int.reduceEq, F.doLoop_skip, F.block_skip.1, F.block_skip.2, ne_eq, not_true_eq_false, not_false_eq_true, false_and, and_false, and_self, and_true, true_and]
      exact off1 (seg3_0 Ast (by omega) (by omega) (by omega) (by omega)) hβ (by omega)
    simp only [Cuda.adjPoissonOffdiagBt4, Cuda.adjOffdiagBt0, t4, t0, t1, ↓reduceIte, Int.reduceEq, F.doLoop_skip, F.block_skip.1, F.block_skip.2, ite_self, ne_eq, not_true_eq_false, not_false_eq_true, false_and, and_false, and_self, and_true, true_and]
    exact Both.skip
  · replace hy := hy rfl
    refine Both.bind mkI <| Both.bind mkPI <| Both.bind mkJ <| Both.bind mkPJ <| Both.bind mkK <| Both.bind mkPK <| Both.bind mkW <| Both.bind spst <| Both.bind (a := dx 1) rfl <| Both.bind (a := (3 : Int)) rfl <| Both.bind (a := (4 : Int)) rfl <| Both.bind (localize_ok (l := pi0 - 2 * 0 + 1) (by omega) nI.1 rfl) <| Both.bind (localize_ok (l := pj0 - 2 * 0 + 1) (by omega) nJ.1 rfl) <| Both.bind (localize_ok (l := pk0 - 2 * 0 + 1) (by omega) nK.1 rfl) <| ?_
    simp only [↓reduceIte, Int.reduceEq, F.doLoop_skip, ← farr_st3]
    by_cases t4 : btype = 4
    · subst t4
      by_cases o1 : exOrder = 1
      · subst o1
        simp only [↓reduceIte, Int.reduceEq, F.doLoop_skip, F.block_skip.1, F.block_skip.2, ne_eq, not_true_eq_false, not_false_eq_true, false_and, and_false, and_self, and_true, true_and]
        exact poff4_1 (seg3_1 Ast (by omega) (by omega) (by omega) (by omega)) hβ (by omega) (l41 rfl rfl)
      by_cases o2 : exOrder = 2
      · subst o2
        simp only [o1, ↓reduceIte, Int.reduceEq, F.doLoop_skip, F.block_skip.1, F.block_skip.2, ne_eq, not_true_eq_false, not_false_eq_true, false_and, and_false, and_self, and_true, true_and]
        exact poff4_2 (seg3_1 Ast (by omega) (by omega) (by omega) (by omega)) hβ (by omega) (by omega) (l42 rfl rfl)
      simp only [Cuda.adjPoissonOffdiagBt4, Cuda.adjOffdiagBt0, o1, o2, ↓reduceIte, Int.reduceEq, F.doLoop_skip, F.block_skip.1, F.block_skip.2, ite_self, ne_eq, not_true_eq_false, not_false_eq_true, false_and, and_false, and_self, and_true, true_and]
      exact Both.skip
    by_cases t0 : btype = 0
    · subst t0
      by_cases o1 : exOrder = 1
      · subst o1
        simp only [↓reduceIte, Int.reduceEq, F.doLoop_skip, F.block_skip.1, F.block_skip.2, ne_eq, not_true_eq_false, not_false_eq_true, false_and, and_false, and_self, and_true, true_and]
        exact off0_1 (seg3_1 Ast (by omega) (by omega) (by omega) (by omega)) hβ (by omega)
      by_cases o2 : exOrder = 2
      · subst o2
        simp only [o1, ↓reduceIte, Int.reduceEq, F.doLoop_skip, F.block_skip.1, F.block_skip.2, ne_eq, not_true_eq_false, not_false_eq_true, false_and, and_false, and_self, and_true, true_and]
        exact off0_2 (seg3_1 Ast (by omega) (by omega) (by omega) (by omega)) hβ (by omega) (by omega) (l0 rfl rfl)
      simp only [Cuda.adjPoissonOffdiagBt4, Cuda.adjOffdiagBt0, o1, o2, ↓reduceIte, Int.reduceEq, F.doLoop_skip, F.block_skip.1, F.block_skip.2, ite_self, ne_eq, not_true_eq_false, not_false_eq_true, false_and, and_false, and_self, and_true, true_and]
      exact Both.skip
    by_cases t1 : btype = 1
    · subst t1
      simp only [↓reduceIte, Int.reduceEq, F.doLoop_skip, F.block_skip.1, F.block_skip.2, ne_eq, not_true_eq_false, not_false_eq_true, false_and, and_false, and_self, and_true, true_and]
      exact off1 (seg3_1 Ast (by omega) (by omega) (by omega) (by omega)) hβ (by omega)
    simp only [Cuda.adjPoissonOffdiagBt4, Cuda.adjOffdiagBt0, t4, t0, t1, ↓reduceIte, Int.reduceEq, F.doLoop_skip, F.block_skip.1, F.block_skip.2, ite_self, ne_eq, not_true_eq_false, not_false_eq_true, false_and, and_false, and_self, and_true, true_and]
    exact Both.skip
  · replace hy := hy rfl
    refine Both.bind mkI <| Both.bind mkPI <| Both.bind mkJ <| Both.bind mkPJ <| Both.bind mkK <| Both.bind mkPK <| Both.bind mkW <| Both.bind spst <| Both.bind (a := dx 1) rfl <| Both.bind (a := (4 : Int)) rfl <| Both.bind (a := (3 : Int)) rfl <| Both.bind (localize_ok (l := pi0 - 2 * 1 + 1) (by omega) nI.1 rfl) <| Both.bind (localize_ok (l := pj0 - 2 * 1 + 1) (by omega) nJ.1 rfl) <| Both.bind (localize_ok (l := pk0 - 2 * 1 + 1) (by omega) nK.1 rfl) <| ?_
    simp only [↓reduceIte, Int.reduceEq, F.doLoop_skip, ← farr_st3]
    by_cases t4 : btype = 4
    · subst t4
      by_cases o1 : exOrder = 1
      · subst o1
        simp only [↓reduceIte, Int.reduceEq, F.doLoop_skip, F.block_skip.1, F.block_skip.2, ne_eq, not_true_eq_false, not_false_eq_true, false_and, and_false, and_self, and_true, true_and]
        exact poff4_1 (seg3_1 Ast (by omega) (by omega) (by omega) (by omega)) hβ (by omega) (l41 rfl rfl)
      by_cases o2 : exOrder = 2
      · subst o2
        simp only [o1, ↓reduceIte, Int.reduceEq, F.doLoop_skip, F.block_skip.1, F.block_skip.2, ne_eq, not_true_eq_false, not_false_eq_true, false_and, and_false, and_self, and_true, true_and]
        exact poff4_2 (seg3_1 Ast (by omega) (by omega) (by omega) (by omega)) hβ (by omega) (by omega) (l42 rfl rfl)
      simp only [Cuda.adjPoissonOffdiagBt4, Cuda.adjOffdiagBt0, o1, o2, ↓reduceIte, Int.reduceEq, F.doLoop_skip, F.block_skip.1, F.block_skip.2, ite_self, ne_eq, not_true_eq_false, not_false_eq_true, false_and, and_false, and_self, and_true, true_and]
      exact Both.skip
    by_cases t0 : btype = 0
    · subst t0
      by_cases o1 : exOrder = 1
      · subst o1
        simp only [↓reduceIte, Int.reduceEq, F.doLoop_skip, F.block_skip.1, F.block_skip.2, ne_eq, not_true_eq_false, not_false_eq_true, false_and, and_false, and_self, and_true, true_and]
        exact off0_1 (seg3_1 Ast (by omega) (by omega) (by omega) (by omega)) hβ (by omega)
      by_cases o2 : exOrder = 2
      · subst o2
        simp only [o1, ↓reduceIte, Int.reduceEq, F.doLoop_skip, F.block_skip.1, F.block_skip.2, ne_eq, not_true_eq_false, not_false_eq_true, false_and, and_false, and_self, and_true, true_and]
        exact off0_2 (seg3_1 Ast (by omega) (by omega) (by omega) (by omega)) hβ (by omega) (by omega) (l0 rfl rfl)
      simp only [Cuda.adjPoissonOffdiagBt4, Cuda.adjOffdiagBt0, o1, o2, ↓reduceIte, Int.reduceEq, F.doLoop_skip, F.block_skip.1, F.block_skip.2, ite_self, ne_eq, not_true_eq_false, not_false_eq_true, false_and, and_false, and_self, and_true, true_and]
      exact Both.skip
    by_cases t1 : btype = 1
    · subst t1
      simp only [↓reduceIte, Int.reduceEq, F.doLoop_skip, F.block_skip.1, F.block_skip.2, ne_eq, not_true_eq_false, not_false_eq_true, false_and, and_false, and_self, and_true, true_and]
      exact off1 (seg3_1 Ast (by omega) (by omega) (by omega) (by omega)) hβ (by omega)
    simp only [Cuda.adjPoissonOffdiagBt4, Cuda.adjOffdiagBt0, t4, t0, t1, ↓reduceIte, Int.reduceEq, F.doLoop_skip, F.block_skip.1, F.block_skip.2, ite_self, ne_eq, not_true_eq_false, not_false_eq_true, false_and, and_false, and_self, and_true, true_and]
    exact Both.skip
  · replace hz := hz rfl
    refine Both.bind mkI <| Both.bind mkPI <| Both.bind mkJ <| Both.bind mkPJ <| Both.bind mkK <| Both.bind mkPK <| Both.bind mkW <| Both.bind spst <| Both.bind (a := dx 2) rfl <| Both.bind (a := (5 : Int)) rfl <| Both.bind (a := (6 : Int)) rfl <| Both.bind (localize_ok (l := pi0 - 2 * 0 + 1) (by omega) nI.1 rfl) <| Both.bind (localize_ok (l := pj0 - 2 * 0 + 1) (by omega) nJ.1 rfl) <| Both.bind (localize_ok (l := pk0 - 2 * 0 + 1) (by omega) nK.1 rfl) <| ?_
    simp only [↓reduceIte, Int.reduceEq, F.doLoop_skip, ← farr_st3]
    by_cases t4 : btype = 4
    · subst t4
      by_cases o1 : exOrder = 1
      · subst o1
        simp only [↓reduceIte, Int.reduceEq, F.doLoop_skip, F.block_skip.1, F.block_skip.2, ne_eq, not_true_eq_false, not_false_eq_true, false_and, and_false, and_self, and_true, true_and]
        exact poff4_1 (seg3_2 Ast (by omega) (by omega) (by omega) (by omega)) hβ (by omega) (l41 rfl rfl)
      by_cases o2 : exOrder = 2
      · subst o2
        simp only [o1, ↓reduceIte, Int.reduceEq, F.doLoop_skip, F.block_skip.1, F.block_skip.2, ne_eq, not_true_eq_false, not_false_eq_true, false_and, and_false, and_self, and_true, true_and]
        exact poff4_2 (seg3_2 Ast (by omega) (by omega) (by omega) (by omega)) hβ (by omega) (by omega) (l42 rfl rfl)
      simp only [Cuda.adjPoissonOffdiagBt4, Cuda.adjOffdiagBt0, o1, o2, ↓reduceIte, Int.reduceEq, F.doLoop_skip, F.block_skip.1, F.block_skip.2, ite_self, ne_eq, not_true_eq_false, not_false_eq_true, false_and, and_false, and_self, and_true, true_and]
      exact Both.skip
    by_cases t0 : btype = 0
    · subst t0
      by_cases o1 : exOrder = 1
      · subst o1
        simp only [↓reduceIte, Int.reduceEq, F.doLoop_skip, F.block_skip.1, F.block_skip.2, ne_eq, not_true_eq_false, not_false_eq_true, false_and, and_false, and_self, and_true, true_and]
        exact off0_1 (seg3_2 Ast (by omega) (by omega) (by omega) (by omega)) hβ (by omega)
      by_cases o2 : exOrder = 2
      · subst o2
        simp only [o1, ↓reduceIte, Int.reduceEq, F.doLoop_skip, F.block_skip.1, F.block_skip.2, ne_eq, not_true_eq_false, not_false_eq_true, false_and, and_false, and_self, and_true, true_and]
        exact off0_2 (seg3_2 Ast (by omega) (by omega) (by omega) (by omega)) hβ (by omega) (by omega) (l0 rfl rfl)
      simp only [Cuda.adjPoissonOffdiagBt4, Cuda.adjOffdiagBt0, o1, o2, ↓reduceIte, Int.reduceEq, F.doLoop_skip, F.block_skip.1, F.block_skip.2, ite_self, ne_eq, not_true_eq_false, not_false_eq_true, false_and, and_false, and_self, and_true, true_and]
      exact Both.skip
    by_cases t1 : btype = 1
    · subst t1
      simp only [↓reduceIte, Int.reduceEq, F.doLoop_skip, F.block_skip.1, F.block_skip.2, ne_eq, not_true_eq_false, not_false_eq_true, false_and, and_false, and_self, and_true, true_and]
      exact off1 (seg3_2 Ast (by omega) (by omega) (by omega) (by omega)) hβ (by omega)
    simp only [Cuda.adjPoissonOffdiagBt4, Cuda.adjOffdiagBt0, t4, t0, t1, ↓reduceIte, Int.reduceEq, F.doLoop_skip, F.block_skip.1, F.block_skip.2, ite_self, ne_eq, not_true_eq_false, not_false_eq_true, false_and, and_false, and_self, and_true, true_and]
    exact Both.skip
  · replace hz := hz rfl
    refine Both.bind mkI <| Both.bind mkPI <| Both.bind mkJ <| Both.bind mkPJ <| Both.bind mkK <| Both.bind mkPK <| Both.bind mkW <| Both.bind spst <| Both.bind (a := dx 2) rfl <| Both.bind (a := (6 : Int)) rfl <| Both.bind (a := (5 : Int)) rfl <| Both.bind (localize_ok (l := pi0 - 2 * 1 + 1) (by omega) nI.1 rfl) <| Both.bind (localize_ok (l := pj0 - 2 * 1 + 1) (by omega) nJ.1 rfl) <| Both.bind (localize_ok (l := pk0 - 2 * 1 + 1) (by omega) nK.1 rfl) <| ?_
    simp only [↓reduceIte, Int.reduceEq, F.doLoop_skip, ← farr_st3]
    by_cases t4 : btype = 4
    · subst t4
      by_cases o1 : exOrder = 1
      · subst o1
        simp only [↓reduceIte, Int.reduceEq, F.doLoop_skip, F.block_skip.1, F.block_skip.2, ne_eq, not_true_eq_false, not_false_eq_true, false_and, and_false, and_self, and_true, true_and]
        exact poff4_1 (seg3_2 Ast (by omega) (by omega) (by omega) (by omega)) hβ (by omega) (l41 rfl rfl)
      by_cases o2 : exOrder = 2
      · subst o2
        simp only [o1, ↓reduceIte, Int.reduceEq, F.doLoop_skip, F.block_skip.1, F.block_skip.2, ne_eq, not_true_eq_false, not_false_eq_true, false_and, and_false, and_self, and_true, true_and]
        exact poff4_2 (seg3_2 Ast (by omega) (by omega) (by omega) (by omega)) hβ (by omega) (by omega) (l42 rfl rfl)
      simp only [Cuda.adjPoissonOffdiagBt4, Cuda.adjOffdiagBt0, o1, o2, ↓reduceIte, Int.reduceEq, F.doLoop_skip, F.block_skip.1, F.block_skip.2, ite_self, ne_eq, not_true_eq_false, not_false_eq_true, false_and, and_false, and_self, and_true, true_and]
      exact Both.skip
    by_cases t0 : btype = 0
    · subst t0
      by_cases o1 : exOrder = 1
      · subst o1
        simp only [↓reduceIte, Int.reduceEq, F.doLoop_skip, F.block_skip.1, F.block_skip.2, ne_eq, not_true_eq_false, not_false_eq_true, false_and, and_false, and_self, and_true, true_and]
        exact off0_1 (seg3_2 Ast (by omega) (by omega) (by omega) (by omega)) hβ (by omega)
      by_cases o2 : exOrder = 2
      · subst o2
        simp only [o1, ↓reduceIte, Int.reduceEq, F.doLoop_skip, F.block_skip.1, F.block_skip.2, ne_eq, not_true_eq_false, not_false_eq_true, false_and, and_false, and_self, and_true, true_and]
        exact off0_2 (seg3_2 Ast (by omega) (by omega) (by omega) (by omega)) hβ (by omega) (by omega) (l0 rfl rfl)
      simp only [Cuda.adjPoissonOffdiagBt4, Cuda.adjOffdiagBt0, o1, o2, ↓reduceIte, Int.reduceEq, F.doLoop_skip, F.block_skip.1, F.block_skip.2, ite_self, ne_eq, not_true_eq_false, not_false_eq_true, false_and, and_false, and_self, and_true, true_and]
      exact Both.skip
    by_cases t1 : btype = 1
    · subst t1
      simp only [↓reduceIte, Int.reduceEq, F.doLoop_skip, F.block_skip.1, F.block_skip.2, ne_eq, not_true_eq_false, not_false_eq_true, false_and, and_false, and_self, and_true, true_and]
      exact off1 (seg3_2 Ast (by omega) (by omega) (by omega) (by omega)) hβ (by omega)
    simp only [Cuda.adjPoissonOffdiagBt4, Cuda.adjOffdiagBt0, t4, t0, t1, ↓reduceIte, Int.reduceEq, F.doLoop_skip, F.block_skip.1, F.block_skip.2, ite_self, ne_eq, not_true_eq_false, not_false_eq_true, false_and, and_false, and_self, and_true, true_and]
    exact Both.skip

example : ∃ m', Cuda.adjPoissonOffdiag3d 0 0 0 3 2 1 0 0 2 3 2 2 2 1 4 2 exDxB 2 3 4 1 ⟨3, 0⟩ revBackend exB64 = .ok m' ∧
    F.adjcellpoissonoffdiag3d 0 0 0 3 2 1 0 0 2 3 2 2 2 1 4 2 exDxB 2 3 4 1 ⟨3, 0⟩ exB64 = .ok m' :=
  C49_adj_poisson_offdiag_3d revBackend_ok (fun _ _ => B64.mul_comm) (fun _ _ => B64.neg_mul _) (fun h => absurd h (by decide)) (by decide) (by decide) (by decide) (by decide) (by constructor <;> (try simp only [InInt]) <;> decide) (by ex_argsB)

/-- `cd_stencil_3d_cuda::adj_cf_offdiag` and `adjcelldiffusioncfoffdiag3d` leave the same memory, for every schedule and in every arithmetic, wherever the multiple of a quotient is the quotient of the multiple. -/
theorem C49_adj_cf_offdiag_3d {i0 j0 k0 i1 j1 k1 ci0 cj0 ck0 ci1 cj1 ck1 r dir side intOrder sgcw : Int} {st_ : Ptr} {β : Backend} {m : Mem T}
    (hβ : ValidBackend β)
    (l1 : intOrder = 1 → ∀ x : T, x * (2 / 3) = 2 * x / 3)
    (l2 : intOrder = 2 → (∀ x : T, x * (((r : T) - 1) / ((r : T) + 3)) = x * ((r : T) - 1) / ((r : T) + 3)) ∧
      ∀ x : T, x * (8 / (((r : T) + 1) * ((r : T) + 3))) = 8 * x / (((r : T) + 1) * ((r : T) + 3)))
    (hi : i0 ≤ i1) (hj : j0 ≤ j1) (hk : k0 ≤ k1) (hg : 0 ≤ sgcw) (hl : Layer3 i0 j0 k0 i1 j1 k1 sgcw ci0 cj0 ck0 ci1 cj1 ck1 dir side)
    (h : F.Args m [] [F.st3d st_ i0 j0 k0 i1 j1 k1 sgcw]) :
    ∃ m', Cuda.adjCfOffdiag3d i0 j0 k0 i1 j1 k1 ci0 cj0 ck0 ci1 cj1 ck1 r dir side intOrder sgcw st_ β m = .ok m' ∧ F.adjcelldiffusioncfoffdiag3d i0 j0 k0 i1 j1 k1 ci0 cj0 ck0 ci1 cj1 ck1 r dir side intOrder sgcw st_ m = .ok m' := by
  have hst := h.ok (F.st3d st_ i0 j0 k0 i1 j1 k1 sgcw) (by simp)
  obtain ⟨Ast, spst, Ii, Ij, Ik⟩ := st3_setup hst hi hj hk hg
  have mkI := mkB_near (d := .I) (lo := i0) (hi := i1) (by rng)
  have mkJ := mkB_near (d := .J) (lo := j0) (hi := j1) (by rng)
  have mkK := mkB_near (d := .K) (lo := k0) (hi := k1) (by rng)
  have mkW := mkB_near (d := .W) (lo := 0) (hi := 6) (by rng)
  obtain ⟨hd, hs, hx, hy, hz, nI, nJ, nK⟩ := hl
  have mkPI := mkB_near (d := .I) (lo := ci0) nI.2
  have mkPJ := mkB_near (d := .J) (lo := cj0) nJ.2
  have mkPK := mkB_near (d := .K) (lo := ck0) nK.2
  have hd : dir = 0 ∨ dir = 1 ∨ dir = 2 := by omega
  show Both (Cuda.adjCfOffdiag3d i0 j0 k0 i1 j1 k1 ci0 cj0 ck0 ci1 cj1 ck1 r dir side intOrder sgcw st_ β m) (F.adjcelldiffusioncfoffdiag3d i0 j0 k0 i1 j1 k1 ci0 cj0 ck0 ci1 cj1 ck1 r dir side intOrder sgcw st_) m
  unfold Cuda.adjCfOffdiag3d F.adjcelldiffusioncfoffdiag3d
  rcases hd with rfl | rfl | rfl <;> rcases hs with rfl | rfl
  · replace hx := hx rfl
    refine Both.bind mkI <| Both.bind mkPI <| Both.bind mkJ <| Both.bind mkPJ <| Both.bind mkK <| Both.bind mkPK <| Both.bind mkW <| Both.bind spst <| Both.bind (localize_ok (l := ci0 - 2 * 0 + 1) (by omega) nI.1 rfl) <| Both.bind (localize_ok (l := cj0 - 2 * 0 + 1) (by omega) nJ.1 rfl) <| Both.bind (localize_ok (l := ck0 - 2 * 0 + 1) (by omega) nK.1 rfl) <| Both.bind (a := (1 : Int)) rfl <| Both.bind (a := (2 : Int)) rfl <| ?_
    simp only [↓reduceIte, Int.reduceEq, F.doLoop_skip, ← farr_st3]
    by_cases o1 : intOrder = 1
    · subst o1
      simp only [↓reduceIte, Int.reduceEq, F.doLoop_skip, F.block_skip.1, F.block_skip.2, ne_eq, not_true_eq_false, not_false_eq_true, false_and, and_false, and_self, and_true, true_and]
      exact cfo1 (seg3_0 Ast (by omega) (by omega) (by omega) (by omega)) hβ (by omega) (l1 rfl)
    by_cases o2 : intOrder = 2
    · subst o2
      simp only [o1, ↓reduceIte, Int.reduceEq, F.doLoop_skip, F.block_skip.1, F.block_skip.2, ne_eq, not_true_eq_false, not_false_eq_true, false_and, and_false, and_self, and_true, true_and]
      exact cfo2 (seg3_0 Ast (by omega) (by omega) (by omega) (by omega)) hβ (by omega) (by omega) (l2 rfl)
    simp only [Cuda.adjCfOffdiagFunc, o1, o2, ↓reduceIte, Int.reduceEq, F.doLoop_skip, F.block_skip.1, F.block_skip.2, ite_self, ne_eq, not_true_eq_false, not_false_eq_true, false_and, and_false, and_self, and_true, true_and]
    exact Both.skip
  · replace hx := hx rfl
    refine Both.bind mkI <| Both.bind mkPI <| Both.bind mkJ <| Both.bind mkPJ <| Both.bind mkK <| Both.bind mkPK <| Both.bind mkW <| Both.bind spst <| Both.bind (localize_ok (l := ci0 - 2 * 1 + 1) (by omega) nI.1 rfl) <| Both.bind (localize_ok (l := cj0 - 2 * 1 + 1) (by omega) nJ.1 rfl) <| Both.bind (localize_ok (l := ck0 - 2 * 1 + 1) (by omega) nK.1 rfl) <| Both.bind (a := (2 : Int)) rfl <| Both.bind (a := (1 : Int)) rfl <| ?_
    simp only [↓reduceIte, Int.reduceEq, F.doLoop_skip, ← farr_st3]
    by_cases o1 : intOrder = 1
    · subst o1
      simp only [↓reduceIte, Int.reduceEq, F.doLoop_skip, F.block_skip.1, F.block_skip.2, ne_eq, not_true_eq_false, not_false_eq_true, false_and, and_false, and_self, and_true, true_and]
      exact cfo1 (seg3_0 Ast (by omega) (by omega) (by omega) (by omega)) hβ (by omega) (l1 rfl)
    by_cases o2 : intOrder = 2
    · subst o2
      simp only [o1, ↓reduceIte, Int.reduceEq, F.doLoop_skip, F.block_skip.1, F.block_skip.2, ne_eq, not_true_eq_false, not_false_eq_true, false_and, and_false, and_self, and_true, true_and]
      exact cfo2 (seg3_0 Ast (by omega) (by omega) (by omega) (by omega)) hβ (by omega) (by omega) (l2 rfl)
    simp only [Cuda.adjCfOffdiagFunc, o1, o2, ↓reduceIte, Int.reduceEq, F.doLoop_skip, F.block_skip.1, F.block_skip.2, ite_self, ne_eq, not_true_eq_false, not_false_eq_true, false_and, and_false, and_self, and_true, true_and]
    exact Both.skip
  · replace hy := hy rfl
    refine Both.bind mkI <| Both.bind mkPI <| Both.bind mkJ <| Both.bind mkPJ <| Both.bind mkK <| Both.bind mkPK <| Both.bind mkW <| Both.bind spst <| Both.bind (localize_ok (l := ci0 - 2 * 0 + 1) (by omega) nI.1 rfl) <| Both.bind (localize_ok (l := cj0 - 2 * 0 + 1) (by omega) nJ.1 rfl) <| Both.bind (localize_ok (l := ck0 - 2 * 0 + 1) (by omega) nK.1 rfl) <| Both.bind (a := (3 : Int)) rfl <| Both.bind (a := (4 : Int)) rfl <| ?_
    simp only [↓reduceIte, Int.reduceEq, F.doLoop_skip, ← farr_st3]
    by_cases o1 : intOrder = 1
    · subst o1
      simp only [↓reduceIte, Int.reduceEq, F.doLoop_skip, F.block_skip.1, F.block_skip.2, ne_eq, not_true_eq_false, not_false_eq_true, false_and, and_false, and_self, and_true, true_and]
      exact cfo1 (seg3_1 Ast (by omega) (by omega) (by omega) (by omega)) hβ (by omega) (l1 rfl)
    by_cases o2 : intOrder = 2
    · subst o2
      simp only [o1, ↓reduceIte, Int.reduceEq, F.doLoop_skip, F.block_skip.1, F.block_skip.2, ne_eq, not_true_eq_false, not_false_eq_true, false_and, and_false, and_self, and_true, true_and]
      exact cfo2 (seg3_1 Ast (by omega) (by omega) (by omega) (by omega)) hβ (by omega) (by omega) (l2 rfl)
    simp only [Cuda.adjCfOffdiagFunc, o1, o2, ↓reduceIte, Int.reduceEq, F.doLoop_skip, F.block_skip.1, F.block_skip.2, ite_self, ne_eq, not_true_eq_false, not_false_eq_true, false_and, and_false, and_self, and_true, true_and]
    exact Both.skip
  · replace hy := hy rfl
    refine Both.bind mkI <| Both.bind mkPI <| Both.bind mkJ <| Both.bind mkPJ <| Both.bind mkK <| Both.bind mkPK <| Both.bind mkW <| Both.bind spst <| Both.bind (localize_ok (l := ci0 - 2 * 1 + 1) (by omega) nI.1 rfl) <| Both.bind (localize_ok (l := cj0 - 2 * 1 + 1) (by omega) nJ.1 rfl) <| Both.bind (localize_ok (l := ck0 - 2 * 1 + 1) (by omega) nK.1 rfl) <| Both.bind (a := (4 : Int)) rfl <| Both.bind (a := (3 : Int)) rfl <| ?_
    simp only [↓reduceIte, Int.reduceEq, F.doLoop_skip, ← farr_st3]
    by_cases o1 : intOrder = 1
    · subst o1
      simp only [↓reduceIte, Int.reduceEq, F.doLoop_skip, F.block_skip.1, F.block_skip.2, ne_eq, not_true_eq_false, not_false_eq_true, false_and, and_false, and_self, and_true, true_and]
      exact cfo1 (seg3_1 Ast (by omega) (by omega) (by omega) (by omega)) hβ (by omega) (l1 rfl)
    by_cases o2 : intOrder = 2
    · subst o2
      simp only [o1, ↓reduceIte, Int.reduceEq, F.doLoop_skip, F.block_skip.1, F.block_skip.2, ne_eq, not_true_eq_false, not_false_eq_true, false_and, and_false, and_self, and_true, true_and]
      exact cfo2 (seg3_1 Ast (by omega) (by omega) (by omega) (by omega)) hβ (by omega) (by omega) (l2 rfl)
    simp only [Cuda.adjCfOffdiagFunc, o1, o2, ↓reduceIte, Int.reduceEq, F.doLoop_skip, F.block_skip.1, F.block_skip.2, ite_self, ne_eq, not_true_eq_false, not_false_eq_true, false_and, and_false, and_self, and_true, true_and]
    exact Both.skip
  · replace hz := hz rfl
    refine Both.bind mkI <| Both.bind mkPI <| Both.bind mkJ <| Both.bind mkPJ <| Both.bind mkK <| Both.bind mkPK <| Both.bind mkW <| Both.bind spst <| Both.bind (localize_ok (l := ci0 - 2 * 0 + 1) (by omega) nI.1 rfl) <| Both.bind (localize_ok (l := cj0 - 2 * 0 + 1) (by omega) nJ.1 rfl) <| Both.bind (localize_ok (l := ck0 - 2 * 0 + 1) (by omega) nK.1 rfl) <| Both.bind (a := (5 : Int)) rfl <| Both.bind (a := (6 : Int)) rfl <| ?_
    simp only [↓reduceIte, Int.reduceEq, F.doLoop_skip, ← farr_st3]
    by_cases o1 : intOrder = 1
    · subst o1
      simp only [↓reduceIte, Int.reduceEq, F.doLoop_skip, F.block_skip.1, F.block_skip.2, ne_eq, not_true_eq_false, not_false_eq_true, false_and, and_false, and_self, and_true, true_and]
      exact cfo1 (seg3_2 Ast (by omega) (by omega) (by omega) (by omega)) hβ (by omega) (l1 rfl)
    by_cases o2 : intOrder = 2
    · subst o2
      simp only [o1, ↓reduceIte, Int.reduceEq, F.doLoop_skip, F.block_skip.1, F.block_skip.2, ne_eq, not_true_eq_false, not_false_eq_true, false_and, and_false, and_self, and_true, true_and]
      exact cfo2 (seg3_2 Ast (by omega) (by omega) (by omega) (by omega)) hβ (by omega) (by omega) (l2 rfl)
    simp only [Cuda.adjCfOffdiagFunc, o1, o2, ↓reduceIte, Int.reduceEq, F.doLoop_skip, F.block_skip.1, F.block_skip.2, ite_self, ne_eq, not_true_eq_false, not_false_eq_true, false_and, and_false, and_self, and_true, true_and]
    exact Both.skip
  · replace hz := hz rfl
    refine Both.bind mkI <| Both.bind mkPI <| Both.bind mkJ <| Both.bind mkPJ <| Both.bind mkK <| Both.bind mkPK <| Both.bind mkW <| Both.bind spst <| Both.bind (localize_ok (l := ci0 - 2 * 1 + 1) (by omega) nI.1 rfl) <| Both.bind (localize_ok (l := cj0 - 2 * 1 + 1) (by omega) nJ.1 rfl) <| Both.bind (localize_ok (l := ck0 - 2 * 1 + 1) (by omega) nK.1 rfl) <| Both.bind (a := (6 : Int)) rfl <| Both.bind (a := (5 : Int)) rfl <| ?_
    simp only [↓reduceIte, Int.reduceEq, F.doLoop_skip, ← farr_st3]
    by_cases o1 : intOrder = 1
    · subst o1
      simp only [↓reduceIte, Int.reduceEq, F.doLoop_skip, F.block_skip.1, F.block_skip.2, ne_eq, not_true_eq_false, not_false_eq_true, false_and, and_false, and_self, and_true, true_and]
      exact cfo1 (seg3_2 Ast (by omega) (by omega) (by omega) (by omega)) hβ (by omega) (l1 rfl)
    by_cases o2 : intOrder = 2
    · subst o2
      simp only [o1, ↓reduceIte, Int.reduceEq, F.doLoop_skip, F.block_skip.1, F.block_skip.2, ne_eq, not_true_eq_false, not_false_eq_true, false_and, and_false, and_self, and_true, true_and]
      exact cfo2 (seg3_2 Ast (by omega) (by omega) (by omega) (by omega)) hβ (by omega) (by omega) (l2 rfl)
    simp only [Cuda.adjCfOffdiagFunc, o1, o2, ↓reduceIte, Int.reduceEq, F.doLoop_skip, F.block_skip.1, F.block_skip.2, ite_self, ne_eq, not_true_eq_false, not_false_eq_true, false_and, and_false, and_self, and_true, true_and]
    exact Both.skip

example : ∃ m', Cuda.adjCfOffdiag3d 0 0 0 3 2 1 0 0 2 3 2 2 2 2 1 2 1 ⟨0, 0⟩ revBackend exRat = .ok m' ∧
    F.adjcelldiffusioncfoffdiag3d 0 0 0 3 2 1 0 0 2 3 2 2 2 2 1 2 1 ⟨0, 0⟩ exRat = .ok m' :=
  C49_adj_cf_offdiag_3d revBackend_ok (fun _ _ => by ring) (fun _ => ⟨fun _ => by ring, fun _ => by ring⟩) (by decide) (by decide) (by decide) (by decide) (by constructor <;> (try simp only [InInt]) <;> decide) (by ex_args)

end Verif
