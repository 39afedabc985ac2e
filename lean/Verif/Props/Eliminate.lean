import Verif.Lemmas.EliminateRun
import Verif.Lemmas.RowExamples

/-
C74: the coefficients of the cells next to a boundary, adjusted, act on the value given on the boundary as the coefficients before the adjustment act on the ghost value.
-/

set_option linter.unusedVariables false

namespace Verif
open Spec

variable {T : Type} [Field T] [CharZero T]

/-- 1D, diffusion operator with cell coefficients: for every boundary value, and every polynomial that meets the boundary condition, the row assembled after the adjustment acts on the boundary value as the row assembled without it acts on the ghost value. The rows of the other cells are the same, and `adj_diag` changes nothing. Missing: Robin of second order. -/
theorem C74_v1_1d_partial {i0 i1 ai0 ai1 pi0 pi1 side btype exOrder sgcw : Int} {dx : Nat → T} {alpha dir_factor neu_factor beta : T} {a_ b0_ st_ : Ptr} {β₁ β₂ β₃ β₄ : Backend} {m : Mem T} {B0 : List Int → T}
    (hβ₁ : ValidBackend β₁) (hβ₂ : ValidBackend β₂) (hβ₃ : ValidBackend β₃) (hi : i0 ≤ i1) (hg : 0 ≤ sgcw) (hai : ai0 ≤ i0 ∧ i1 ≤ ai1) (hl : Layer1 i0 i1 0 pi0 pi1 side)
    (hq : (btype = 0 ∧ exOrder = 1 ∧ dir_factor = 2) ∨ (btype = 0 ∧ exOrder = 2) ∨ btype = 1 ∨ (btype = 4 ∧ exOrder = 1))
    (h : F.Args m [(F.cell1d a_ ai0 ai1 0), (F.face1d b0_ i0 i1 0)] [(F.st1d st_ i0 i1 sgcw)])
    (hB0 : F.Holds m (F.face1d b0_ i0 i1 0) B0) (hb : btype = 4 → ∀ c, F.layer1 pi0 side c → 4 * F.onFace1 B0 side c + dx 0 ≠ 0) :
    ∃ s t t', ∃ S S' : List Int → T, Cuda.v1diag1d i0 i1 ai0 ai1 alpha a_ sgcw st_ β₁ m = .ok s ∧ Cuda.adjOffdiag1d i0 i1 pi0 pi1 side btype exOrder dx dir_factor neu_factor beta b0_ sgcw st_ β₂ m = .ok t ∧
      Cuda.v1diag1d i0 i1 ai0 ai1 alpha a_ sgcw st_ β₃ t = .ok t' ∧ (Cuda.adjDiag1d i0 i1 pi0 pi1 side btype exOrder dx beta b0_ sgcw st_ β₄ t' = .ok t') ∧ F.Only [(F.st1d st_ i0 i1 sgcw)] m s ∧ F.Only [(F.st1d st_ i0 i1 sgcw)] m t' ∧
      F.Holds s (F.st1d st_ i0 i1 sgcw) S ∧ F.Holds t' (F.st1d st_ i0 i1 sgcw) S' ∧
      F.Eliminated 2 S S' (F.InBounds [(i0, i1)]) (F.layer1 pi0 side) (1 + side) (2 - side) btype exOrder (dx 0) (F.onFace1 B0 side) := by
  have hd : F.Args m [(F.cell1d a_ ai0 ai1 0)] [(F.st1d st_ i0 i1 sgcw)] := (h.sub (by simp) (by simp))
  have ha : F.Args m [(F.face1d b0_ i0 i1 0)] [(F.st1d st_ i0 i1 sgcw)] := h.sub (by simp) (by simp)
  obtain ⟨s, d1, K1, D1⟩ := diag_v1_1 (alpha := alpha) hβ₁ hi hg hai hd
  obtain ⟨t, d2, A2⟩ := adjoff1_does (dx := dx) (dir_factor := dir_factor) (neu_factor := neu_factor) (beta := beta) hβ₂ hi hg hl hq ha
  obtain ⟨t', d3, K3, D3⟩ := diag_v1_1 (alpha := alpha) hβ₃ hi hg hai (A2.args (by simp [F.st1d]) hd)
  have D3 : F.Diagonal t t' (F.st1d st_ i0 i1 sgcw) (3 - 1) (F.InBounds [(i0, i1)]) (fun c => alpha * F.rd m (F.cell1d a_ ai0 ai1 0) c) := ⟨fun c hc => by
    rw [D3.zero c hc, F.rd_only A2.only (h.apart _ (by simp) (F.cell1d a_ ai0 ai1 0) (by simp)) (in_cell1 hc hai)], D3.other⟩
  refine ⟨s, t, t', F.rd s (F.st1d st_ i0 i1 sgcw), F.rd t' (F.st1d st_ i0 i1 sgcw), d1, d2, d3, ?_, K1.only, A2.only.trans K3.only,
    fun is hi => (K1.ok (h.ok _ (by simp))).rd hi, fun is hi => (K3.ok (A2.ok (by simp [F.st1d]) (h.ok _ (by simp)))).rd hi, fun c hc => ?_, fun c hP hc e h0 h1 => ?_⟩
  · exact adjdiag1_skip hi hg hl (by omega) ha
  · have hP := layer1_in hl hc
    refine elim_row1 D1 D3 A2 hc hP (fun e h0 h1 => st_in1 hP hg (by omega) (by omega)) ?_ ?_ ?_ ?_ rfl
    · have := hl.hside
      skip
      omega
    · omega
    · exact fun h4 => hb h4 c hc
    · show facU _ _ _ _ = _
      rw [onFace1_holds hl hc hB0]
  · exact same_rows D1 D3 A2 hc hP (fun e h0 h1 => st_in1 hP hg (by omega) (by omega)) h0 (by omega)

example : ∃ s t t', ∃ S S' : List Int → Rat, Cuda.v1diag1d 0 3 0 3 3 ⟨0, 0⟩ 1 ⟨2, 0⟩ revBackend exRat = .ok s ∧ Cuda.adjOffdiag1d 0 3 4 4 1 4 1 exDx 2 3 4 ⟨1, 0⟩ 1 ⟨2, 0⟩ seqBackend exRat = .ok t ∧
      Cuda.v1diag1d 0 3 0 3 3 ⟨0, 0⟩ 1 ⟨2, 0⟩ revBackend t = .ok t' ∧ (Cuda.adjDiag1d 0 3 4 4 1 4 1 exDx 4 ⟨1, 0⟩ 1 ⟨2, 0⟩ seqBackend t' = .ok t') ∧ F.Only [(F.st1d ⟨2, 0⟩ 0 3 1)] exRat s ∧ F.Only [(F.st1d ⟨2, 0⟩ 0 3 1)] exRat t' ∧
      F.Holds s (F.st1d ⟨2, 0⟩ 0 3 1) S ∧ F.Holds t' (F.st1d ⟨2, 0⟩ 0 3 1) S' ∧ F.Eliminated 2 S S' (F.InBounds [(0, 3)]) (F.layer1 4 1) (1 + 1) (2 - 1) 4 1 (exDx 0) (F.onFace1 (F.rd exRat (F.face1d ⟨1, 0⟩ 0 3 0)) 1) :=
  C74_v1_1d_partial revBackend_ok seqBackend_ok revBackend_ok (by decide) (by decide) (by decide) (by constructor <;> (try simp only [InInt]) <;> decide)
    (.inr (.inr (.inr ⟨rfl, rfl⟩))) (by ex_args) (fun is hi => (exRat_ok rfl (by decide) (by unfold InInt; decide)).rd hi) (fun _ _ _ => ex_face1)

/-- 1D, diffusion operator with constant reaction: for every boundary value, and every polynomial that meets the boundary condition, the row assembled after the adjustment acts on the boundary value as the row assembled without it acts on the ghost value. The rows of the other cells are the same, and `adj_diag` changes nothing. Missing: Robin of second order. -/
theorem C74_v2_1d_partial {i0 i1 pi0 pi1 side btype exOrder sgcw : Int} {dx : Nat → T} {alpha dir_factor neu_factor beta : T} {b0_ st_ : Ptr} {β₁ β₂ β₃ β₄ : Backend} {m : Mem T} {B0 : List Int → T}
    (hβ₁ : ValidBackend β₁) (hβ₂ : ValidBackend β₂) (hβ₃ : ValidBackend β₃) (hi : i0 ≤ i1) (hg : 0 ≤ sgcw) (hl : Layer1 i0 i1 0 pi0 pi1 side)
    (hq : (btype = 0 ∧ exOrder = 1 ∧ dir_factor = 2) ∨ (btype = 0 ∧ exOrder = 2) ∨ btype = 1 ∨ (btype = 4 ∧ exOrder = 1))
    (h : F.Args m [(F.face1d b0_ i0 i1 0)] [(F.st1d st_ i0 i1 sgcw)])
    (hB0 : F.Holds m (F.face1d b0_ i0 i1 0) B0) (hb : btype = 4 → ∀ c, F.layer1 pi0 side c → 4 * F.onFace1 B0 side c + dx 0 ≠ 0) :
    ∃ s t t', ∃ S S' : List Int → T, Cuda.v2diag1d i0 i1 alpha sgcw st_ β₁ m = .ok s ∧ Cuda.adjOffdiag1d i0 i1 pi0 pi1 side btype exOrder dx dir_factor neu_factor beta b0_ sgcw st_ β₂ m = .ok t ∧
      Cuda.v2diag1d i0 i1 alpha sgcw st_ β₃ t = .ok t' ∧ (Cuda.adjDiag1d i0 i1 pi0 pi1 side btype exOrder dx beta b0_ sgcw st_ β₄ t' = .ok t') ∧ F.Only [(F.st1d st_ i0 i1 sgcw)] m s ∧ F.Only [(F.st1d st_ i0 i1 sgcw)] m t' ∧
      F.Holds s (F.st1d st_ i0 i1 sgcw) S ∧ F.Holds t' (F.st1d st_ i0 i1 sgcw) S' ∧
      F.Eliminated 2 S S' (F.InBounds [(i0, i1)]) (F.layer1 pi0 side) (1 + side) (2 - side) btype exOrder (dx 0) (F.onFace1 B0 side) := by
  have hd : F.Args m [] [(F.st1d st_ i0 i1 sgcw)] := (h.sub (by simp) (by simp))
  have ha : F.Args m [(F.face1d b0_ i0 i1 0)] [(F.st1d st_ i0 i1 sgcw)] := h.sub (by simp) (by simp)
  obtain ⟨s, d1, K1, D1⟩ := diag_v2_1 (alpha := alpha) hβ₁ hi hg hd
  obtain ⟨t, d2, A2⟩ := adjoff1_does (dx := dx) (dir_factor := dir_factor) (neu_factor := neu_factor) (beta := beta) hβ₂ hi hg hl hq ha
  obtain ⟨t', d3, K3, D3⟩ := diag_v2_1 (alpha := alpha) hβ₃ hi hg (A2.args (by simp [F.st1d]) hd)
  refine ⟨s, t, t', F.rd s (F.st1d st_ i0 i1 sgcw), F.rd t' (F.st1d st_ i0 i1 sgcw), d1, d2, d3, ?_, K1.only, A2.only.trans K3.only,
    fun is hi => (K1.ok (h.ok _ (by simp))).rd hi, fun is hi => (K3.ok (A2.ok (by simp [F.st1d]) (h.ok _ (by simp)))).rd hi, fun c hc => ?_, fun c hP hc e h0 h1 => ?_⟩
  · exact adjdiag1_skip hi hg hl (by omega) ha
  · have hP := layer1_in hl hc
    refine elim_row1 D1 D3 A2 hc hP (fun e h0 h1 => st_in1 hP hg (by omega) (by omega)) ?_ ?_ ?_ ?_ rfl
    · have := hl.hside
      skip
      omega
    · omega
    · exact fun h4 => hb h4 c hc
    · show facU _ _ _ _ = _
      rw [onFace1_holds hl hc hB0]
  · exact same_rows D1 D3 A2 hc hP (fun e h0 h1 => st_in1 hP hg (by omega) (by omega)) h0 (by omega)

example : ∃ s t t', ∃ S S' : List Int → Rat, Cuda.v2diag1d 0 3 3 1 ⟨1, 0⟩ revBackend exRat = .ok s ∧ Cuda.adjOffdiag1d 0 3 4 4 1 4 1 exDx 2 3 4 ⟨0, 0⟩ 1 ⟨1, 0⟩ seqBackend exRat = .ok t ∧
      Cuda.v2diag1d 0 3 3 1 ⟨1, 0⟩ revBackend t = .ok t' ∧ (Cuda.adjDiag1d 0 3 4 4 1 4 1 exDx 4 ⟨0, 0⟩ 1 ⟨1, 0⟩ seqBackend t' = .ok t') ∧ F.Only [(F.st1d ⟨1, 0⟩ 0 3 1)] exRat s ∧ F.Only [(F.st1d ⟨1, 0⟩ 0 3 1)] exRat t' ∧
      F.Holds s (F.st1d ⟨1, 0⟩ 0 3 1) S ∧ F.Holds t' (F.st1d ⟨1, 0⟩ 0 3 1) S' ∧ F.Eliminated 2 S S' (F.InBounds [(0, 3)]) (F.layer1 4 1) (1 + 1) (2 - 1) 4 1 (exDx 0) (F.onFace1 (F.rd exRat (F.face1d ⟨0, 0⟩ 0 3 0)) 1) :=
  C74_v2_1d_partial revBackend_ok seqBackend_ok revBackend_ok (by decide) (by decide) (by constructor <;> (try simp only [InInt]) <;> decide)
    (.inr (.inr (.inr ⟨rfl, rfl⟩))) (by ex_args) (fun is hi => (exRat_ok rfl (by decide) (by unfold InInt; decide)).rd hi) (fun _ _ _ => ex_face1)

/-- 1D, Poisson operator: for every boundary value, and every polynomial that meets the boundary condition, the row assembled after the adjustment acts on the boundary value as the row assembled without it acts on the ghost value. The rows of the other cells are the same, and `adj_poisson_diag` changes nothing. Missing: Robin of second order. -/
theorem C74_poisson_1d_partial {i0 i1 pi0 pi1 side btype exOrder sgcw : Int} {dx : Nat → T} {dir_factor neu_factor beta : T} {st_ : Ptr} {β₁ β₂ β₃ β₄ : Backend} {m : Mem T}
    (hβ₁ : ValidBackend β₁) (hβ₂ : ValidBackend β₂) (hβ₃ : ValidBackend β₃) (hi : i0 ≤ i1) (hg : 0 ≤ sgcw) (hl : Layer1 i0 i1 0 pi0 pi1 side)
    (hq : (btype = 0 ∧ exOrder = 1 ∧ dir_factor = 2) ∨ (btype = 0 ∧ exOrder = 2) ∨ btype = 1 ∨ (btype = 4 ∧ exOrder = 1))
    (h : F.Args m [] [(F.st1d st_ i0 i1 sgcw)]) (hb : btype = 4 → 4 + dx 0 ≠ 0) :
    ∃ s t t', ∃ S S' : List Int → T, Cuda.poissonDiag1d i0 i1 sgcw st_ β₁ m = .ok s ∧ Cuda.adjPoissonOffdiag1d i0 i1 pi0 pi1 side btype exOrder dx dir_factor neu_factor beta sgcw st_ β₂ m = .ok t ∧
      Cuda.poissonDiag1d i0 i1 sgcw st_ β₃ t = .ok t' ∧ (Cuda.adjPoissonDiag1d i0 i1 pi0 pi1 side btype exOrder dx beta sgcw st_ β₄ t' = .ok t') ∧ F.Only [(F.st1d st_ i0 i1 sgcw)] m s ∧ F.Only [(F.st1d st_ i0 i1 sgcw)] m t' ∧
      F.Holds s (F.st1d st_ i0 i1 sgcw) S ∧ F.Holds t' (F.st1d st_ i0 i1 sgcw) S' ∧
      F.Eliminated 2 S S' (F.InBounds [(i0, i1)]) (F.layer1 pi0 side) (1 + side) (2 - side) btype exOrder (dx 0) (fun _ => 1) := by
  have hd : F.Args m [] [(F.st1d st_ i0 i1 sgcw)] := (h.sub (by simp) (by simp))
  have ha : F.Args m [] [(F.st1d st_ i0 i1 sgcw)] := h.sub (by simp) (by simp)
  obtain ⟨s, d1, K1, D1⟩ := diag_p_1 hβ₁ hi hg hd
  obtain ⟨t, d2, A2⟩ := padjoff1_does (dx := dx) (dir_factor := dir_factor) (neu_factor := neu_factor) (beta := beta) hβ₂ hi hg hl hq ha
  obtain ⟨t', d3, K3, D3⟩ := diag_p_1 hβ₃ hi hg (A2.args (by simp [F.st1d]) hd)
  refine ⟨s, t, t', F.rd s (F.st1d st_ i0 i1 sgcw), F.rd t' (F.st1d st_ i0 i1 sgcw), d1, d2, d3, ?_, K1.only, A2.only.trans K3.only,
    fun is hi => (K1.ok (h.ok _ (by simp))).rd hi, fun is hi => (K3.ok (A2.ok (by simp [F.st1d]) (h.ok _ (by simp)))).rd hi, fun c hc => ?_, fun c hP hc e h0 h1 => ?_⟩
  · exact padjdiag1_skip hi hg hl (by omega) ha
  · have hP := layer1_in hl hc
    refine elim_row1 D1 D3 A2 hc hP (fun e h0 h1 => st_in1 hP hg (by omega) (by omega)) ?_ ?_ ?_ ?_ rfl
    · have := hl.hside
      skip
      omega
    · omega
    · intro h4
      rw [mul_one]
      exact hb h4
    · rfl
  · exact same_rows D1 D3 A2 hc hP (fun e h0 h1 => st_in1 hP hg (by omega) (by omega)) h0 (by omega)

example : ∃ s t t', ∃ S S' : List Int → Rat, Cuda.poissonDiag1d 0 3 1 ⟨0, 0⟩ revBackend exRat = .ok s ∧ Cuda.adjPoissonOffdiag1d 0 3 4 4 1 4 1 exDx 2 3 4 1 ⟨0, 0⟩ seqBackend exRat = .ok t ∧
      Cuda.poissonDiag1d 0 3 1 ⟨0, 0⟩ revBackend t = .ok t' ∧ (Cuda.adjPoissonDiag1d 0 3 4 4 1 4 1 exDx 4 1 ⟨0, 0⟩ seqBackend t' = .ok t') ∧ F.Only [(F.st1d ⟨0, 0⟩ 0 3 1)] exRat s ∧ F.Only [(F.st1d ⟨0, 0⟩ 0 3 1)] exRat t' ∧
      F.Holds s (F.st1d ⟨0, 0⟩ 0 3 1) S ∧ F.Holds t' (F.st1d ⟨0, 0⟩ 0 3 1) S' ∧ F.Eliminated 2 S S' (F.InBounds [(0, 3)]) (F.layer1 4 1) (1 + 1) (2 - 1) 4 1 (exDx 0) (fun _ => 1) :=
  C74_poisson_1d_partial revBackend_ok seqBackend_ok revBackend_ok (by decide) (by decide) (by constructor <;> (try simp only [InInt]) <;> decide)
    (.inr (.inr (.inr ⟨rfl, rfl⟩))) (by ex_args) (fun _ => ex_four)

/-- 2D, diffusion operator with cell coefficients: for every boundary value, and every polynomial that meets the boundary condition, the row assembled after the adjustment acts on the boundary value as the row assembled without it acts on the ghost value. The rows of the other cells are the same, and `adj_diag` changes nothing. Missing: Robin of second order, and Robin in direction 1. Also missing: that `adj_diag` leaves the rows of a second order Dirichlet boundary alone. -/
theorem C74_v1_2d_partial {i0 j0 i1 j1 ai0 aj0 ai1 aj1 pi0 pj0 pi1 pj1 dir side btype exOrder sgcw : Int} {dx : Nat → T} {alpha dir_factor neu_factor beta : T} {a_ b0_ b1_ st_ : Ptr} {β₁ β₂ β₃ β₄ : Backend} {m : Mem T} {B0 B1 : List Int → T}
    (hβ₁ : ValidBackend β₁) (hβ₂ : ValidBackend β₂) (hβ₃ : ValidBackend β₃) (hi : i0 ≤ i1) (hj : j0 ≤ j1) (hg : 0 ≤ sgcw) (hai : ai0 ≤ i0 ∧ i1 ≤ ai1) (haj : aj0 ≤ j0 ∧ j1 ≤ aj1) (hl : Layer2 i0 j0 i1 j1 0 pi0 pj0 pi1 pj1 dir side)
    (hq : (btype = 0 ∧ exOrder = 1 ∧ dir_factor = 2) ∨ (btype = 0 ∧ exOrder = 2) ∨ btype = 1 ∨ (btype = 4 ∧ exOrder = 1 ∧ dir = 0))
    (h : F.Args m [(F.cell2d a_ ai0 aj0 ai1 aj1 0), (F.face2d0 b0_ i0 j0 i1 j1 0), (F.face2d1 b1_ i0 j0 i1 j1 0)] [(F.st2d st_ i0 j0 i1 j1 sgcw)])
    (hB0 : F.Holds m (F.face2d0 b0_ i0 j0 i1 j1 0) B0) (hB1 : F.Holds m (F.face2d1 b1_ i0 j0 i1 j1 0) B1) (hb : btype = 4 → ∀ c, F.layer2 pi0 pj0 pi1 pj1 dir side c → 4 * F.onFace2 B0 B1 dir side c + dx dir.toNat ≠ 0) :
    ∃ s t t', ∃ S S' : List Int → T, Cuda.v1diag2d i0 j0 i1 j1 ai0 aj0 ai1 aj1 alpha a_ sgcw st_ β₁ m = .ok s ∧ Cuda.adjOffdiag2d i0 j0 i1 j1 pi0 pj0 pi1 pj1 dir side btype exOrder dx dir_factor neu_factor beta b0_ b1_ sgcw st_ β₂ m = .ok t ∧
      Cuda.v1diag2d i0 j0 i1 j1 ai0 aj0 ai1 aj1 alpha a_ sgcw st_ β₃ t = .ok t' ∧ (¬ (btype = 0 ∧ exOrder = 2) → Cuda.adjDiag2d i0 j0 i1 j1 pi0 pj0 pi1 pj1 dir side btype exOrder dx beta b0_ b1_ sgcw st_ β₄ t' = .ok t') ∧ F.Only [(F.st2d st_ i0 j0 i1 j1 sgcw)] m s ∧ F.Only [(F.st2d st_ i0 j0 i1 j1 sgcw)] m t' ∧
      F.Holds s (F.st2d st_ i0 j0 i1 j1 sgcw) S ∧ F.Holds t' (F.st2d st_ i0 j0 i1 j1 sgcw) S' ∧
      F.Eliminated 4 S S' (F.InBounds [(i0, i1), (j0, j1)]) (F.layer2 pi0 pj0 pi1 pj1 dir side) (2 * dir + 1 + side) (2 * dir + 2 - side) btype exOrder (dx dir.toNat) (F.onFace2 B0 B1 dir side) := by
  have hd : F.Args m [(F.cell2d a_ ai0 aj0 ai1 aj1 0)] [(F.st2d st_ i0 j0 i1 j1 sgcw)] := (h.sub (by simp) (by simp))
  have ha : F.Args m [(F.face2d0 b0_ i0 j0 i1 j1 0), (F.face2d1 b1_ i0 j0 i1 j1 0)] [(F.st2d st_ i0 j0 i1 j1 sgcw)] := h.sub (by simp) (by simp)
  obtain ⟨s, d1, K1, D1⟩ := diag_v1_2 (alpha := alpha) hβ₁ hi hj hg hai haj hd
  obtain ⟨t, d2, A2⟩ := adjoff2_does (dx := dx) (dir_factor := dir_factor) (neu_factor := neu_factor) (beta := beta) hβ₂ hi hj hg hl hq ha
  obtain ⟨t', d3, K3, D3⟩ := diag_v1_2 (alpha := alpha) hβ₃ hi hj hg hai haj (A2.args (by simp [F.st2d]) hd)
  have D3 : F.Diagonal t t' (F.st2d st_ i0 j0 i1 j1 sgcw) (5 - 1) (F.InBounds [(i0, i1), (j0, j1)]) (fun c => alpha * F.rd m (F.cell2d a_ ai0 aj0 ai1 aj1 0) c) := ⟨fun c hc => by
    rw [D3.zero c hc, F.rd_only A2.only (h.apart _ (by simp) (F.cell2d a_ ai0 aj0 ai1 aj1 0) (by simp)) (in_cell2 hc hai haj)], D3.other⟩
  refine ⟨s, t, t', F.rd s (F.st2d st_ i0 j0 i1 j1 sgcw), F.rd t' (F.st2d st_ i0 j0 i1 j1 sgcw), d1, d2, d3, ?_, K1.only, A2.only.trans K3.only,
    fun is hi => (K1.ok (h.ok _ (by simp))).rd hi, fun is hi => (K3.ok (A2.ok (by simp [F.st2d]) (h.ok _ (by simp)))).rd hi, fun c hc => ?_, fun c hP hc e h0 h1 => ?_⟩
  · exact fun hne => adjdiag2_skip hi hj hg hl (by omega) ha
  · have hP := layer2_in hl hc
    refine elim_row2 D1 D3 A2 hc hP (fun e h0 h1 => st_in2 hP hg (by omega) (by omega)) ?_ ?_ ?_ ?_ rfl
    · have := hl.hside
      have := hl.hdir
      omega
    · omega
    · exact fun h4 => hb h4 c hc
    · show facU _ _ _ _ = _
      rw [onFace2_holds hl hc hB0 hB1]
  · exact same_rows D1 D3 A2 hc hP (fun e h0 h1 => st_in2 hP hg (by omega) (by omega)) h0 (by omega)

example : ∃ s t t', ∃ S S' : List Int → Rat, Cuda.v1diag2d 0 0 3 2 0 0 3 2 3 ⟨0, 0⟩ 1 ⟨3, 0⟩ revBackend exRat = .ok s ∧ Cuda.adjOffdiag2d 0 0 3 2 4 0 4 2 0 1 4 1 exDx 2 3 4 ⟨1, 0⟩ ⟨2, 0⟩ 1 ⟨3, 0⟩ seqBackend exRat = .ok t ∧
      Cuda.v1diag2d 0 0 3 2 0 0 3 2 3 ⟨0, 0⟩ 1 ⟨3, 0⟩ revBackend t = .ok t' ∧ (¬ ((4 : Int) = 0 ∧ (1 : Int) = 2) → Cuda.adjDiag2d 0 0 3 2 4 0 4 2 0 1 4 1 exDx 4 ⟨1, 0⟩ ⟨2, 0⟩ 1 ⟨3, 0⟩ seqBackend t' = .ok t') ∧ F.Only [(F.st2d ⟨3, 0⟩ 0 0 3 2 1)] exRat s ∧ F.Only [(F.st2d ⟨3, 0⟩ 0 0 3 2 1)] exRat t' ∧
      F.Holds s (F.st2d ⟨3, 0⟩ 0 0 3 2 1) S ∧ F.Holds t' (F.st2d ⟨3, 0⟩ 0 0 3 2 1) S' ∧ F.Eliminated 4 S S' (F.InBounds [(0, 3), (0, 2)]) (F.layer2 4 0 4 2 0 1) (2 * 0 + 1 + 1) (2 * 0 + 2 - 1) 4 1 (exDx (0 : Int).toNat) (F.onFace2 (F.rd exRat (F.face2d0 ⟨1, 0⟩ 0 0 3 2 0)) (F.rd exRat (F.face2d1 ⟨2, 0⟩ 0 0 3 2 0)) 0 1) :=
  C74_v1_2d_partial revBackend_ok seqBackend_ok revBackend_ok (by decide) (by decide) (by decide) (by decide) (by decide) (by constructor <;> (try simp only [InInt]) <;> decide)
    (.inr (.inr (.inr ⟨rfl, rfl, rfl⟩))) (by ex_args) (fun is hi => (exRat_ok rfl (by decide) (by unfold InInt; decide)).rd hi) (fun is hi => (exRat_ok rfl (by decide) (by unfold InInt; decide)).rd hi) (fun _ _ _ => ex_face2)

/-- 2D, diffusion operator with constant reaction: for every boundary value, and every polynomial that meets the boundary condition, the row assembled after the adjustment acts on the boundary value as the row assembled without it acts on the ghost value. The rows of the other cells are the same, and `adj_diag` changes nothing. Missing: Robin of second order, and Robin in direction 1. Also missing: that `adj_diag` leaves the rows of a second order Dirichlet boundary alone. -/
theorem C74_v2_2d_partial {i0 j0 i1 j1 pi0 pj0 pi1 pj1 dir side btype exOrder sgcw : Int} {dx : Nat → T} {alpha dir_factor neu_factor beta : T} {b0_ b1_ st_ : Ptr} {β₁ β₂ β₃ β₄ : Backend} {m : Mem T} {B0 B1 : List Int → T}
    (hβ₁ : ValidBackend β₁) (hβ₂ : ValidBackend β₂) (hβ₃ : ValidBackend β₃) (hi : i0 ≤ i1) (hj : j0 ≤ j1) (hg : 0 ≤ sgcw) (hl : Layer2 i0 j0 i1 j1 0 pi0 pj0 pi1 pj1 dir side)
    (hq : (btype = 0 ∧ exOrder = 1 ∧ dir_factor = 2) ∨ (btype = 0 ∧ exOrder = 2) ∨ btype = 1 ∨ (btype = 4 ∧ exOrder = 1 ∧ dir = 0))
    (h : F.Args m [(F.face2d0 b0_ i0 j0 i1 j1 0), (F.face2d1 b1_ i0 j0 i1 j1 0)] [(F.st2d st_ i0 j0 i1 j1 sgcw)])
    (hB0 : F.Holds m (F.face2d0 b0_ i0 j0 i1 j1 0) B0) (hB1 : F.Holds m (F.face2d1 b1_ i0 j0 i1 j1 0) B1) (hb : btype = 4 → ∀ c, F.layer2 pi0 pj0 pi1 pj1 dir side c → 4 * F.onFace2 B0 B1 dir side c + dx dir.toNat ≠ 0) :
    ∃ s t t', ∃ S S' : List Int → T, Cuda.v2diag2d i0 j0 i1 j1 alpha sgcw st_ β₁ m = .ok s ∧ Cuda.adjOffdiag2d i0 j0 i1 j1 pi0 pj0 pi1 pj1 dir side btype exOrder dx dir_factor neu_factor beta b0_ b1_ sgcw st_ β₂ m = .ok t ∧
      Cuda.v2diag2d i0 j0 i1 j1 alpha sgcw st_ β₃ t = .ok t' ∧ (¬ (btype = 0 ∧ exOrder = 2) → Cuda.adjDiag2d i0 j0 i1 j1 pi0 pj0 pi1 pj1 dir side btype exOrder dx beta b0_ b1_ sgcw st_ β₄ t' = .ok t') ∧ F.Only [(F.st2d st_ i0 j0 i1 j1 sgcw)] m s ∧ F.Only [(F.st2d st_ i0 j0 i1 j1 sgcw)] m t' ∧
      F.Holds s (F.st2d st_ i0 j0 i1 j1 sgcw) S ∧ F.Holds t' (F.st2d st_ i0 j0 i1 j1 sgcw) S' ∧
      F.Eliminated 4 S S' (F.InBounds [(i0, i1), (j0, j1)]) (F.layer2 pi0 pj0 pi1 pj1 dir side) (2 * dir + 1 + side) (2 * dir + 2 - side) btype exOrder (dx dir.toNat) (F.onFace2 B0 B1 dir side) := by
  have hd : F.Args m [] [(F.st2d st_ i0 j0 i1 j1 sgcw)] := (h.sub (by simp) (by simp))
  have ha : F.Args m [(F.face2d0 b0_ i0 j0 i1 j1 0), (F.face2d1 b1_ i0 j0 i1 j1 0)] [(F.st2d st_ i0 j0 i1 j1 sgcw)] := h.sub (by simp) (by simp)
  obtain ⟨s, d1, K1, D1⟩ := diag_v2_2 (alpha := alpha) hβ₁ hi hj hg hd
  obtain ⟨t, d2, A2⟩ := adjoff2_does (dx := dx) (dir_factor := dir_factor) (neu_factor := neu_factor) (beta := beta) hβ₂ hi hj hg hl hq ha
  obtain ⟨t', d3, K3, D3⟩ := diag_v2_2 (alpha := alpha) hβ₃ hi hj hg (A2.args (by simp [F.st2d]) hd)
  refine ⟨s, t, t', F.rd s (F.st2d st_ i0 j0 i1 j1 sgcw), F.rd t' (F.st2d st_ i0 j0 i1 j1 sgcw), d1, d2, d3, ?_, K1.only, A2.only.trans K3.only,
    fun is hi => (K1.ok (h.ok _ (by simp))).rd hi, fun is hi => (K3.ok (A2.ok (by simp [F.st2d]) (h.ok _ (by simp)))).rd hi, fun c hc => ?_, fun c hP hc e h0 h1 => ?_⟩
  · exact fun hne => adjdiag2_skip hi hj hg hl (by omega) ha
  · have hP := layer2_in hl hc
    refine elim_row2 D1 D3 A2 hc hP (fun e h0 h1 => st_in2 hP hg (by omega) (by omega)) ?_ ?_ ?_ ?_ rfl
    · have := hl.hside
      have := hl.hdir
      omega
    · omega
    · exact fun h4 => hb h4 c hc
    · show facU _ _ _ _ = _
      rw [onFace2_holds hl hc hB0 hB1]
  · exact same_rows D1 D3 A2 hc hP (fun e h0 h1 => st_in2 hP hg (by omega) (by omega)) h0 (by omega)

example : ∃ s t t', ∃ S S' : List Int → Rat, Cuda.v2diag2d 0 0 3 2 3 1 ⟨2, 0⟩ revBackend exRat = .ok s ∧ Cuda.adjOffdiag2d 0 0 3 2 4 0 4 2 0 1 4 1 exDx 2 3 4 ⟨0, 0⟩ ⟨1, 0⟩ 1 ⟨2, 0⟩ seqBackend exRat = .ok t ∧
      Cuda.v2diag2d 0 0 3 2 3 1 ⟨2, 0⟩ revBackend t = .ok t' ∧ (¬ ((4 : Int) = 0 ∧ (1 : Int) = 2) → Cuda.adjDiag2d 0 0 3 2 4 0 4 2 0 1 4 1 exDx 4 ⟨0, 0⟩ ⟨1, 0⟩ 1 ⟨2, 0⟩ seqBackend t' = .ok t') ∧ F.Only [(F.st2d ⟨2, 0⟩ 0 0 3 2 1)] exRat s ∧ F.Only [(F.st2d ⟨2, 0⟩ 0 0 3 2 1)] exRat t' ∧
      F.Holds s (F.st2d ⟨2, 0⟩ 0 0 3 2 1) S ∧ F.Holds t' (F.st2d ⟨2, 0⟩ 0 0 3 2 1) S' ∧ F.Eliminated 4 S S' (F.InBounds [(0, 3), (0, 2)]) (F.layer2 4 0 4 2 0 1) (2 * 0 + 1 + 1) (2 * 0 + 2 - 1) 4 1 (exDx (0 : Int).toNat) (F.onFace2 (F.rd exRat (F.face2d0 ⟨0, 0⟩ 0 0 3 2 0)) (F.rd exRat (F.face2d1 ⟨1, 0⟩ 0 0 3 2 0)) 0 1) :=
  C74_v2_2d_partial revBackend_ok seqBackend_ok revBackend_ok (by decide) (by decide) (by decide) (by constructor <;> (try simp only [InInt]) <;> decide)
    (.inr (.inr (.inr ⟨rfl, rfl, rfl⟩))) (by ex_args) (fun is hi => (exRat_ok rfl (by decide) (by unfold InInt; decide)).rd hi) (fun is hi => (exRat_ok rfl (by decide) (by unfold InInt; decide)).rd hi) (fun _ _ _ => ex_face2)

/-- 2D, Poisson operator: for every boundary value, and every polynomial that meets the boundary condition, the row assembled after the adjustment acts on the boundary value as the row assembled without it acts on the ghost value. The rows of the other cells are the same, and `adj_poisson_diag` changes nothing. Missing: Robin of second order, and Robin in direction 1. -/
theorem C74_poisson_2d_partial {i0 j0 i1 j1 pi0 pj0 pi1 pj1 dir side btype exOrder sgcw : Int} {dx : Nat → T} {dir_factor neu_factor beta : T} {st_ : Ptr} {β₁ β₂ β₃ β₄ : Backend} {m : Mem T}
    (hβ₁ : ValidBackend β₁) (hβ₂ : ValidBackend β₂) (hβ₃ : ValidBackend β₃) (hi : i0 ≤ i1) (hj : j0 ≤ j1) (hg : 0 ≤ sgcw) (hl : Layer2 i0 j0 i1 j1 0 pi0 pj0 pi1 pj1 dir side)
    (hq : (btype = 0 ∧ exOrder = 1 ∧ dir_factor = 2) ∨ (btype = 0 ∧ exOrder = 2) ∨ btype = 1 ∨ (btype = 4 ∧ exOrder = 1 ∧ dir = 0))
    (h : F.Args m [] [(F.st2d st_ i0 j0 i1 j1 sgcw)]) (hb : btype = 4 → 4 + dx dir.toNat ≠ 0) :
    ∃ s t t', ∃ S S' : List Int → T, Cuda.poissonDiag2d i0 j0 i1 j1 sgcw st_ β₁ m = .ok s ∧ Cuda.adjPoissonOffdiag2d i0 j0 i1 j1 pi0 pj0 pi1 pj1 dir side btype exOrder dx dir_factor neu_factor beta sgcw st_ β₂ m = .ok t ∧
      Cuda.poissonDiag2d i0 j0 i1 j1 sgcw st_ β₃ t = .ok t' ∧ (Cuda.adjPoissonDiag2d i0 j0 i1 j1 pi0 pj0 pi1 pj1 dir side btype exOrder dx beta sgcw st_ β₄ t' = .ok t') ∧ F.Only [(F.st2d st_ i0 j0 i1 j1 sgcw)] m s ∧ F.Only [(F.st2d st_ i0 j0 i1 j1 sgcw)] m t' ∧
      F.Holds s (F.st2d st_ i0 j0 i1 j1 sgcw) S ∧ F.Holds t' (F.st2d st_ i0 j0 i1 j1 sgcw) S' ∧
      F.Eliminated 4 S S' (F.InBounds [(i0, i1), (j0, j1)]) (F.layer2 pi0 pj0 pi1 pj1 dir side) (2 * dir + 1 + side) (2 * dir + 2 - side) btype exOrder (dx dir.toNat) (fun _ => 1) := by
  have hd : F.Args m [] [(F.st2d st_ i0 j0 i1 j1 sgcw)] := (h.sub (by simp) (by simp))
  have ha : F.Args m [] [(F.st2d st_ i0 j0 i1 j1 sgcw)] := h.sub (by simp) (by simp)
  obtain ⟨s, d1, K1, D1⟩ := diag_p_2 hβ₁ hi hj hg hd
  obtain ⟨t, d2, A2⟩ := padjoff2_does (dx := dx) (dir_factor := dir_factor) (neu_factor := neu_factor) (beta := beta) hβ₂ hi hj hg hl hq ha
  obtain ⟨t', d3, K3, D3⟩ := diag_p_2 hβ₃ hi hj hg (A2.args (by simp [F.st2d]) hd)
  refine ⟨s, t, t', F.rd s (F.st2d st_ i0 j0 i1 j1 sgcw), F.rd t' (F.st2d st_ i0 j0 i1 j1 sgcw), d1, d2, d3, ?_, K1.only, A2.only.trans K3.only,
    fun is hi => (K1.ok (h.ok _ (by simp))).rd hi, fun is hi => (K3.ok (A2.ok (by simp [F.st2d]) (h.ok _ (by simp)))).rd hi, fun c hc => ?_, fun c hP hc e h0 h1 => ?_⟩
  · exact padjdiag2_skip hi hj hg hl (by omega) ha
  · have hP := layer2_in hl hc
    refine elim_row2 D1 D3 A2 hc hP (fun e h0 h1 => st_in2 hP hg (by omega) (by omega)) ?_ ?_ ?_ ?_ rfl
    · have := hl.hside
      have := hl.hdir
      omega
    · omega
    · intro h4
      rw [mul_one]
      exact hb h4
    · rfl
  · exact same_rows D1 D3 A2 hc hP (fun e h0 h1 => st_in2 hP hg (by omega) (by omega)) h0 (by omega)

example : ∃ s t t', ∃ S S' : List Int → Rat, Cuda.poissonDiag2d 0 0 3 2 1 ⟨0, 0⟩ revBackend exRat = .ok s ∧ Cuda.adjPoissonOffdiag2d 0 0 3 2 4 0 4 2 0 1 4 1 exDx 2 3 4 1 ⟨0, 0⟩ seqBackend exRat = .ok t ∧
      Cuda.poissonDiag2d 0 0 3 2 1 ⟨0, 0⟩ revBackend t = .ok t' ∧ (Cuda.adjPoissonDiag2d 0 0 3 2 4 0 4 2 0 1 4 1 exDx 4 1 ⟨0, 0⟩ seqBackend t' = .ok t') ∧ F.Only [(F.st2d ⟨0, 0⟩ 0 0 3 2 1)] exRat s ∧ F.Only [(F.st2d ⟨0, 0⟩ 0 0 3 2 1)] exRat t' ∧
      F.Holds s (F.st2d ⟨0, 0⟩ 0 0 3 2 1) S ∧ F.Holds t' (F.st2d ⟨0, 0⟩ 0 0 3 2 1) S' ∧ F.Eliminated 4 S S' (F.InBounds [(0, 3), (0, 2)]) (F.layer2 4 0 4 2 0 1) (2 * 0 + 1 + 1) (2 * 0 + 2 - 1) 4 1 (exDx (0 : Int).toNat) (fun _ => 1) :=
  C74_poisson_2d_partial revBackend_ok seqBackend_ok revBackend_ok (by decide) (by decide) (by decide) (by constructor <;> (try simp only [InInt]) <;> decide)
    (.inr (.inr (.inr ⟨rfl, rfl, rfl⟩))) (by ex_args) (fun _ => ex_four)

/-- 3D, diffusion operator with cell coefficients: for every boundary value, and every polynomial that meets the boundary condition, the row assembled after the adjustment acts on the boundary value as the row assembled without it acts on the ghost value. The rows of the other cells are the same, and `adj_diag` changes nothing. Missing: Robin of second order. Also missing: that `adj_diag` leaves the rows of a second order Dirichlet boundary alone. -/
theorem C74_v1_3d_partial {i0 j0 k0 i1 j1 k1 ai0 aj0 ak0 ai1 aj1 ak1 pi0 pj0 pk0 pi1 pj1 pk1 dir side btype exOrder sgcw : Int} {dx : Nat → T} {alpha dir_factor neu_factor beta : T} {a_ b0_ b1_ b2_ st_ : Ptr} {β₁ β₂ β₃ β₄ : Backend} {m : Mem T} {B0 B1 B2 : List Int → T}
    (hβ₁ : ValidBackend β₁) (hβ₂ : ValidBackend β₂) (hβ₃ : ValidBackend β₃) (hi : i0 ≤ i1) (hj : j0 ≤ j1) (hk : k0 ≤ k1) (hg : 0 ≤ sgcw) (hai : ai0 ≤ i0 ∧ i1 ≤ ai1) (haj : aj0 ≤ j0 ∧ j1 ≤ aj1) (hak : ak0 ≤ k0 ∧ k1 ≤ ak1) (hl : Layer3 i0 j0 k0 i1 j1 k1 0 pi0 pj0 pk0 pi1 pj1 pk1 dir side)
    (hq : (btype = 0 ∧ exOrder = 1 ∧ dir_factor = 2) ∨ (btype = 0 ∧ exOrder = 2) ∨ btype = 1 ∨ (btype = 4 ∧ exOrder = 1))
    (h : F.Args m [(F.cell3d a_ ai0 aj0 ak0 ai1 aj1 ak1 0), (F.face3d0 b0_ i0 j0 k0 i1 j1 k1 0), (F.face3d1 b1_ i0 j0 k0 i1 j1 k1 0), (F.face3d2 b2_ i0 j0 k0 i1 j1 k1 0)] [(F.st3d st_ i0 j0 k0 i1 j1 k1 sgcw)])
    (hB0 : F.Holds m (F.face3d0 b0_ i0 j0 k0 i1 j1 k1 0) B0) (hB1 : F.Holds m (F.face3d1 b1_ i0 j0 k0 i1 j1 k1 0) B1) (hB2 : F.Holds m (F.face3d2 b2_ i0 j0 k0 i1 j1 k1 0) B2) (hb : btype = 4 → ∀ c, F.layer3 pi0 pj0 pk0 pi1 pj1 pk1 dir side c → 4 * F.onFace3 B0 B1 B2 dir side c + dx dir.toNat ≠ 0) :
    ∃ s t t', ∃ S S' : List Int → T, Cuda.v1diag3d i0 j0 k0 i1 j1 k1 ai0 aj0 ak0 ai1 aj1 ak1 alpha a_ sgcw st_ β₁ m = .ok s ∧ Cuda.adjOffdiag3d i0 j0 k0 i1 j1 k1 pi0 pj0 pk0 pi1 pj1 pk1 dir side btype exOrder dx dir_factor neu_factor beta b0_ b1_ b2_ sgcw st_ β₂ m = .ok t ∧
      Cuda.v1diag3d i0 j0 k0 i1 j1 k1 ai0 aj0 ak0 ai1 aj1 ak1 alpha a_ sgcw st_ β₃ t = .ok t' ∧ (¬ (btype = 0 ∧ exOrder = 2) → Cuda.adjDiag3d i0 j0 k0 i1 j1 k1 pi0 pj0 pk0 pi1 pj1 pk1 dir side btype exOrder dx beta b0_ b1_ b2_ sgcw st_ β₄ t' = .ok t') ∧ F.Only [(F.st3d st_ i0 j0 k0 i1 j1 k1 sgcw)] m s ∧ F.Only [(F.st3d st_ i0 j0 k0 i1 j1 k1 sgcw)] m t' ∧
      F.Holds s (F.st3d st_ i0 j0 k0 i1 j1 k1 sgcw) S ∧ F.Holds t' (F.st3d st_ i0 j0 k0 i1 j1 k1 sgcw) S' ∧
      F.Eliminated 6 S S' (F.InBounds [(i0, i1), (j0, j1), (k0, k1)]) (F.layer3 pi0 pj0 pk0 pi1 pj1 pk1 dir side) (2 * dir + 1 + side) (2 * dir + 2 - side) btype exOrder (dx dir.toNat) (F.onFace3 B0 B1 B2 dir side) := by
  have hd : F.Args m [(F.cell3d a_ ai0 aj0 ak0 ai1 aj1 ak1 0)] [(F.st3d st_ i0 j0 k0 i1 j1 k1 sgcw)] := (h.sub (by simp) (by simp))
  have ha : F.Args m [(F.face3d0 b0_ i0 j0 k0 i1 j1 k1 0), (F.face3d1 b1_ i0 j0 k0 i1 j1 k1 0), (F.face3d2 b2_ i0 j0 k0 i1 j1 k1 0)] [(F.st3d st_ i0 j0 k0 i1 j1 k1 sgcw)] := h.sub (by simp) (by simp)
  obtain ⟨s, d1, K1, D1⟩ := diag_v1_3 (alpha := alpha) hβ₁ hi hj hk hg hai haj hak hd
  obtain ⟨t, d2, A2⟩ := adjoff3_does (dx := dx) (dir_factor := dir_factor) (neu_factor := neu_factor) (beta := beta) hβ₂ hi hj hk hg hl hq ha
  obtain ⟨t', d3, K3, D3⟩ := diag_v1_3 (alpha := alpha) hβ₃ hi hj hk hg hai haj hak (A2.args (by simp [F.st3d]) hd)
  have D3 : F.Diagonal t t' (F.st3d st_ i0 j0 k0 i1 j1 k1 sgcw) (7 - 1) (F.InBounds [(i0, i1), (j0, j1), (k0, k1)]) (fun c => alpha * F.rd m (F.cell3d a_ ai0 aj0 ak0 ai1 aj1 ak1 0) c) := ⟨fun c hc => by
    rw [D3.zero c hc, F.rd_only A2.only (h.apart _ (by simp) (F.cell3d a_ ai0 aj0 ak0 ai1 aj1 ak1 0) (by simp)) (in_cell3 hc hai haj hak)], D3.other⟩
  refine ⟨s, t, t', F.rd s (F.st3d st_ i0 j0 k0 i1 j1 k1 sgcw), F.rd t' (F.st3d st_ i0 j0 k0 i1 j1 k1 sgcw), d1, d2, d3, ?_, K1.only, A2.only.trans K3.only,
    fun is hi => (K1.ok (h.ok _ (by simp))).rd hi, fun is hi => (K3.ok (A2.ok (by simp [F.st3d]) (h.ok _ (by simp)))).rd hi, fun c hc => ?_, fun c hP hc e h0 h1 => ?_⟩
  · exact fun hne => adjdiag3_skip hi hj hk hg hl (by omega) ha
  · have hP := layer3_in hl hc
    refine elim_row3 D1 D3 A2 hc hP (fun e h0 h1 => st_in3 hP hg (by omega) (by omega)) ?_ ?_ ?_ ?_ rfl
    · have := hl.hside
      have := hl.hdir
      omega
    · omega
    · exact fun h4 => hb h4 c hc
    · show facU _ _ _ _ = _
      rw [onFace3_holds hl hc hB0 hB1 hB2]
  · exact same_rows D1 D3 A2 hc hP (fun e h0 h1 => st_in3 hP hg (by omega) (by omega)) h0 (by omega)

example : ∃ s t t', ∃ S S' : List Int → Rat, Cuda.v1diag3d 0 0 0 3 2 1 0 0 0 3 2 1 3 ⟨0, 0⟩ 1 ⟨4, 0⟩ revBackend exRat = .ok s ∧ Cuda.adjOffdiag3d 0 0 0 3 2 1 0 0 2 3 2 2 2 1 4 1 exDx 2 3 4 ⟨1, 0⟩ ⟨2, 0⟩ ⟨3, 0⟩ 1 ⟨4, 0⟩ seqBackend exRat = .ok t ∧
      Cuda.v1diag3d 0 0 0 3 2 1 0 0 0 3 2 1 3 ⟨0, 0⟩ 1 ⟨4, 0⟩ revBackend t = .ok t' ∧ (¬ ((4 : Int) = 0 ∧ (1 : Int) = 2) → Cuda.adjDiag3d 0 0 0 3 2 1 0 0 2 3 2 2 2 1 4 1 exDx 4 ⟨1, 0⟩ ⟨2, 0⟩ ⟨3, 0⟩ 1 ⟨4, 0⟩ seqBackend t' = .ok t') ∧ F.Only [(F.st3d ⟨4, 0⟩ 0 0 0 3 2 1 1)] exRat s ∧ F.Only [(F.st3d ⟨4, 0⟩ 0 0 0 3 2 1 1)] exRat t' ∧
      F.Holds s (F.st3d ⟨4, 0⟩ 0 0 0 3 2 1 1) S ∧ F.Holds t' (F.st3d ⟨4, 0⟩ 0 0 0 3 2 1 1) S' ∧ F.Eliminated 6 S S' (F.InBounds [(0, 3), (0, 2), (0, 1)]) (F.layer3 0 0 2 3 2 2 2 1) (2 * 2 + 1 + 1) (2 * 2 + 2 - 1) 4 1 (exDx (2 : Int).toNat) (F.onFace3 (F.rd exRat (F.face3d0 ⟨1, 0⟩ 0 0 0 3 2 1 0)) (F.rd exRat (F.face3d1 ⟨2, 0⟩ 0 0 0 3 2 1 0)) (F.rd exRat (F.face3d2 ⟨3, 0⟩ 0 0 0 3 2 1 0)) 2 1) :=
  C74_v1_3d_partial revBackend_ok seqBackend_ok revBackend_ok (by decide) (by decide) (by decide) (by decide) (by decide) (by decide) (by decide) (by constructor <;> (try simp only [InInt]) <;> decide)
    (.inr (.inr (.inr ⟨rfl, rfl⟩))) (by ex_args) (fun is hi => (exRat_ok rfl (by decide) (by unfold InInt; decide)).rd hi) (fun is hi => (exRat_ok rfl (by decide) (by unfold InInt; decide)).rd hi) (fun is hi => (exRat_ok rfl (by decide) (by unfold InInt; decide)).rd hi) (fun _ _ _ => ex_face3)

/-- 3D, diffusion operator with constant reaction: for every boundary value, and every polynomial that meets the boundary condition, the row assembled after the adjustment acts on the boundary value as the row assembled without it acts on the ghost value. The rows of the other cells are the same, and `adj_diag` changes nothing. Missing: Robin of second order. Also missing: that `adj_diag` leaves the rows of a second order Dirichlet boundary alone. -/
theorem C74_v2_3d_partial {i0 j0 k0 i1 j1 k1 pi0 pj0 pk0 pi1 pj1 pk1 dir side btype exOrder sgcw : Int} {dx : Nat → T} {alpha dir_factor neu_factor beta : T} {b0_ b1_ b2_ st_ : Ptr} {β₁ β₂ β₃ β₄ : Backend} {m : Mem T} {B0 B1 B2 : List Int → T}
    (hβ₁ : ValidBackend β₁) (hβ₂ : ValidBackend β₂) (hβ₃ : ValidBackend β₃) (hi : i0 ≤ i1) (hj : j0 ≤ j1) (hk : k0 ≤ k1) (hg : 0 ≤ sgcw) (hl : Layer3 i0 j0 k0 i1 j1 k1 0 pi0 pj0 pk0 pi1 pj1 pk1 dir side)
    (hq : (btype = 0 ∧ exOrder = 1 ∧ dir_factor = 2) ∨ (btype = 0 ∧ exOrder = 2) ∨ btype = 1 ∨ (btype = 4 ∧ exOrder = 1))
    (h : F.Args m [(F.face3d0 b0_ i0 j0 k0 i1 j1 k1 0), (F.face3d1 b1_ i0 j0 k0 i1 j1 k1 0), (F.face3d2 b2_ i0 j0 k0 i1 j1 k1 0)] [(F.st3d st_ i0 j0 k0 i1 j1 k1 sgcw)])
    (hB0 : F.Holds m (F.face3d0 b0_ i0 j0 k0 i1 j1 k1 0) B0) (hB1 : F.Holds m (F.face3d1 b1_ i0 j0 k0 i1 j1 k1 0) B1) (hB2 : F.Holds m (F.face3d2 b2_ i0 j0 k0 i1 j1 k1 0) B2) (hb : btype = 4 → ∀ c, F.layer3 pi0 pj0 pk0 pi1 pj1 pk1 dir side c → 4 * F.onFace3 B0 B1 B2 dir side c + dx dir.toNat ≠ 0) :
    ∃ s t t', ∃ S S' : List Int → T, Cuda.v2diag3d i0 j0 k0 i1 j1 k1 alpha sgcw st_ β₁ m = .ok s ∧ Cuda.adjOffdiag3d i0 j0 k0 i1 j1 k1 pi0 pj0 pk0 pi1 pj1 pk1 dir side btype exOrder dx dir_factor neu_factor beta b0_ b1_ b2_ sgcw st_ β₂ m = .ok t ∧
      Cuda.v2diag3d i0 j0 k0 i1 j1 k1 alpha sgcw st_ β₃ t = .ok t' ∧ (¬ (btype = 0 ∧ exOrder = 2) → Cuda.adjDiag3d i0 j0 k0 i1 j1 k1 pi0 pj0 pk0 pi1 pj1 pk1 dir side btype exOrder dx beta b0_ b1_ b2_ sgcw st_ β₄ t' = .ok t') ∧ F.Only [(F.st3d st_ i0 j0 k0 i1 j1 k1 sgcw)] m s ∧ F.Only [(F.st3d st_ i0 j0 k0 i1 j1 k1 sgcw)] m t' ∧
      F.Holds s (F.st3d st_ i0 j0 k0 i1 j1 k1 sgcw) S ∧ F.Holds t' (F.st3d st_ i0 j0 k0 i1 j1 k1 sgcw) S' ∧
      F.Eliminated 6 S S' (F.InBounds [(i0, i1), (j0, j1), (k0, k1)]) (F.layer3 pi0 pj0 pk0 pi1 pj1 pk1 dir side) (2 * dir + 1 + side) (2 * dir + 2 - side) btype exOrder (dx dir.toNat) (F.onFace3 B0 B1 B2 dir side) := by
  have hd : F.Args m [] [(F.st3d st_ i0 j0 k0 i1 j1 k1 sgcw)] := (h.sub (by simp) (by simp))
  have ha : F.Args m [(F.face3d0 b0_ i0 j0 k0 i1 j1 k1 0), (F.face3d1 b1_ i0 j0 k0 i1 j1 k1 0), (F.face3d2 b2_ i0 j0 k0 i1 j1 k1 0)] [(F.st3d st_ i0 j0 k0 i1 j1 k1 sgcw)] := h.sub (by simp) (by simp)
  obtain ⟨s, d1, K1, D1⟩ := diag_v2_3 (alpha := alpha) hβ₁ hi hj hk hg hd
  obtain ⟨t, d2, A2⟩ := adjoff3_does (dx := dx) (dir_factor := dir_factor) (neu_factor := neu_factor) (beta := beta) hβ₂ hi hj hk hg hl hq ha
  obtain ⟨t', d3, K3, D3⟩ := diag_v2_3 (alpha := alpha) hβ₃ hi hj hk hg (A2.args (by simp [F.st3d]) hd)
  refine ⟨s, t, t', F.rd s (F.st3d st_ i0 j0 k0 i1 j1 k1 sgcw), F.rd t' (F.st3d st_ i0 j0 k0 i1 j1 k1 sgcw), d1, d2, d3, ?_, K1.only, A2.only.trans K3.only,
    fun is hi => (K1.ok (h.ok _ (by simp))).rd hi, fun is hi => (K3.ok (A2.ok (by simp [F.st3d]) (h.ok _ (by simp)))).rd hi, fun c hc => ?_, fun c hP hc e h0 h1 => ?_⟩
  · exact fun hne => adjdiag3_skip hi hj hk hg hl (by omega) ha
  · have hP := layer3_in hl hc
    refine elim_row3 D1 D3 A2 hc hP (fun e h0 h1 => st_in3 hP hg (by omega) (by omega)) ?_ ?_ ?_ ?_ rfl
    · have := hl.hside
      have := hl.hdir
      omega
    · omega
    · exact fun h4 => hb h4 c hc
    · show facU _ _ _ _ = _
      rw [onFace3_holds hl hc hB0 hB1 hB2]
  · exact same_rows D1 D3 A2 hc hP (fun e h0 h1 => st_in3 hP hg (by omega) (by omega)) h0 (by omega)

example : ∃ s t t', ∃ S S' : List Int → Rat, Cuda.v2diag3d 0 0 0 3 2 1 3 1 ⟨3, 0⟩ revBackend exRat = .ok s ∧ Cuda.adjOffdiag3d 0 0 0 3 2 1 0 0 2 3 2 2 2 1 4 1 exDx 2 3 4 ⟨0, 0⟩ ⟨1, 0⟩ ⟨2, 0⟩ 1 ⟨3, 0⟩ seqBackend exRat = .ok t ∧
      Cuda.v2diag3d 0 0 0 3 2 1 3 1 ⟨3, 0⟩ revBackend t = .ok t' ∧ (¬ ((4 : Int) = 0 ∧ (1 : Int) = 2) → Cuda.adjDiag3d 0 0 0 3 2 1 0 0 2 3 2 2 2 1 4 1 exDx 4 ⟨0, 0⟩ ⟨1, 0⟩ ⟨2, 0⟩ 1 ⟨3, 0⟩ seqBackend t' = .ok t') ∧ F.Only [(F.st3d ⟨3, 0⟩ 0 0 0 3 2 1 1)] exRat s ∧ F.Only [(F.st3d ⟨3, 0⟩ 0 0 0 3 2 1 1)] exRat t' ∧
      F.Holds s (F.st3d ⟨3, 0⟩ 0 0 0 3 2 1 1) S ∧ F.Holds t' (F.st3d ⟨3, 0⟩ 0 0 0 3 2 1 1) S' ∧ F.Eliminated 6 S S' (F.InBounds [(0, 3), (0, 2), (0, 1)]) (F.layer3 0 0 2 3 2 2 2 1) (2 * 2 + 1 + 1) (2 * 2 + 2 - 1) 4 1 (exDx (2 : Int).toNat) (F.onFace3 (F.rd exRat (F.face3d0 ⟨0, 0⟩ 0 0 0 3 2 1 0)) (F.rd exRat (F.face3d1 ⟨1, 0⟩ 0 0 0 3 2 1 0)) (F.rd exRat (F.face3d2 ⟨2, 0⟩ 0 0 0 3 2 1 0)) 2 1) :=
  C74_v2_3d_partial revBackend_ok seqBackend_ok revBackend_ok (by decide) (by decide) (by decide) (by decide) (by constructor <;> (try simp only [InInt]) <;> decide)
    (.inr (.inr (.inr ⟨rfl, rfl⟩))) (by ex_args) (fun is hi => (exRat_ok rfl (by decide) (by unfold InInt; decide)).rd hi) (fun is hi => (exRat_ok rfl (by decide) (by unfold InInt; decide)).rd hi) (fun is hi => (exRat_ok rfl (by decide) (by unfold InInt; decide)).rd hi) (fun _ _ _ => ex_face3)

/-- 3D, Poisson operator: for every boundary value, and every polynomial that meets the boundary condition, the row assembled after the adjustment acts on the boundary value as the row assembled without it acts on the ghost value. The rows of the other cells are the same, and `adj_poisson_diag` changes nothing. Missing: Robin of second order. Also missing: that `adj_diag` leaves the rows of a second order Dirichlet boundary alone. -/
theorem C74_poisson_3d_partial {i0 j0 k0 i1 j1 k1 pi0 pj0 pk0 pi1 pj1 pk1 dir side btype exOrder sgcw : Int} {dx : Nat → T} {dir_factor neu_factor beta : T} {st_ : Ptr} {β₁ β₂ β₃ β₄ : Backend} {m : Mem T}
    (hβ₁ : ValidBackend β₁) (hβ₂ : ValidBackend β₂) (hβ₃ : ValidBackend β₃) (hi : i0 ≤ i1) (hj : j0 ≤ j1) (hk : k0 ≤ k1) (hg : 0 ≤ sgcw) (hl : Layer3 i0 j0 k0 i1 j1 k1 0 pi0 pj0 pk0 pi1 pj1 pk1 dir side)
    (hq : (btype = 0 ∧ exOrder = 1 ∧ dir_factor = 2) ∨ (btype = 0 ∧ exOrder = 2) ∨ btype = 1 ∨ (btype = 4 ∧ exOrder = 1))
    (h : F.Args m [] [(F.st3d st_ i0 j0 k0 i1 j1 k1 sgcw)]) (hb : btype = 4 → 4 + dx dir.toNat ≠ 0) :
    ∃ s t t', ∃ S S' : List Int → T, Cuda.poissonDiag3d i0 j0 k0 i1 j1 k1 sgcw st_ β₁ m = .ok s ∧ Cuda.adjPoissonOffdiag3d i0 j0 k0 i1 j1 k1 pi0 pj0 pk0 pi1 pj1 pk1 dir side btype exOrder dx dir_factor neu_factor beta sgcw st_ β₂ m = .ok t ∧
      Cuda.poissonDiag3d i0 j0 k0 i1 j1 k1 sgcw st_ β₃ t = .ok t' ∧ (¬ (btype = 0 ∧ exOrder = 2) → Cuda.adjPoissonDiag3d i0 j0 k0 i1 j1 k1 pi0 pj0 pk0 pi1 pj1 pk1 dir side btype exOrder dx beta sgcw st_ β₄ t' = .ok t') ∧ F.Only [(F.st3d st_ i0 j0 k0 i1 j1 k1 sgcw)] m s ∧ F.Only [(F.st3d st_ i0 j0 k0 i1 j1 k1 sgcw)] m t' ∧
      F.Holds s (F.st3d st_ i0 j0 k0 i1 j1 k1 sgcw) S ∧ F.Holds t' (F.st3d st_ i0 j0 k0 i1 j1 k1 sgcw) S' ∧
      F.Eliminated 6 S S' (F.InBounds [(i0, i1), (j0, j1), (k0, k1)]) (F.layer3 pi0 pj0 pk0 pi1 pj1 pk1 dir side) (2 * dir + 1 + side) (2 * dir + 2 - side) btype exOrder (dx dir.toNat) (fun _ => 1) := by
  have hd : F.Args m [] [(F.st3d st_ i0 j0 k0 i1 j1 k1 sgcw)] := (h.sub (by simp) (by simp))
  have ha : F.Args m [] [(F.st3d st_ i0 j0 k0 i1 j1 k1 sgcw)] := h.sub (by simp) (by simp)
  obtain ⟨s, d1, K1, D1⟩ := diag_p_3 hβ₁ hi hj hk hg hd
  obtain ⟨t, d2, A2⟩ := padjoff3_does (dx := dx) (dir_factor := dir_factor) (neu_factor := neu_factor) (beta := beta) hβ₂ hi hj hk hg hl hq ha
  obtain ⟨t', d3, K3, D3⟩ := diag_p_3 hβ₃ hi hj hk hg (A2.args (by simp [F.st3d]) hd)
  refine ⟨s, t, t', F.rd s (F.st3d st_ i0 j0 k0 i1 j1 k1 sgcw), F.rd t' (F.st3d st_ i0 j0 k0 i1 j1 k1 sgcw), d1, d2, d3, ?_, K1.only, A2.only.trans K3.only,
    fun is hi => (K1.ok (h.ok _ (by simp))).rd hi, fun is hi => (K3.ok (A2.ok (by simp [F.st3d]) (h.ok _ (by simp)))).rd hi, fun c hc => ?_, fun c hP hc e h0 h1 => ?_⟩
  · exact fun hne => padjdiag3_skip hi hj hk hg hl (by omega) ha
  · have hP := layer3_in hl hc
    refine elim_row3 D1 D3 A2 hc hP (fun e h0 h1 => st_in3 hP hg (by omega) (by omega)) ?_ ?_ ?_ ?_ rfl
    · have := hl.hside
      have := hl.hdir
      omega
    · omega
    · intro h4
      rw [mul_one]
      exact hb h4
    · rfl
  · exact same_rows D1 D3 A2 hc hP (fun e h0 h1 => st_in3 hP hg (by omega) (by omega)) h0 (by omega)

example : ∃ s t t', ∃ S S' : List Int → Rat, Cuda.poissonDiag3d 0 0 0 3 2 1 1 ⟨0, 0⟩ revBackend exRat = .ok s ∧ Cuda.adjPoissonOffdiag3d 0 0 0 3 2 1 0 0 2 3 2 2 2 1 4 1 exDx 2 3 4 1 ⟨0, 0⟩ seqBackend exRat = .ok t ∧
      Cuda.poissonDiag3d 0 0 0 3 2 1 1 ⟨0, 0⟩ revBackend t = .ok t' ∧ (¬ ((4 : Int) = 0 ∧ (1 : Int) = 2) → Cuda.adjPoissonDiag3d 0 0 0 3 2 1 0 0 2 3 2 2 2 1 4 1 exDx 4 1 ⟨0, 0⟩ seqBackend t' = .ok t') ∧ F.Only [(F.st3d ⟨0, 0⟩ 0 0 0 3 2 1 1)] exRat s ∧ F.Only [(F.st3d ⟨0, 0⟩ 0 0 0 3 2 1 1)] exRat t' ∧
      F.Holds s (F.st3d ⟨0, 0⟩ 0 0 0 3 2 1 1) S ∧ F.Holds t' (F.st3d ⟨0, 0⟩ 0 0 0 3 2 1 1) S' ∧ F.Eliminated 6 S S' (F.InBounds [(0, 3), (0, 2), (0, 1)]) (F.layer3 0 0 2 3 2 2 2 1) (2 * 2 + 1 + 1) (2 * 2 + 2 - 1) 4 1 (exDx (2 : Int).toNat) (fun _ => 1) :=
  C74_poisson_3d_partial revBackend_ok seqBackend_ok revBackend_ok (by decide) (by decide) (by decide) (by decide) (by constructor <;> (try simp only [InInt]) <;> decide)
    (.inr (.inr (.inr ⟨rfl, rfl⟩))) (by ex_args) (fun _ => ex_four)

/-- 1D, diffusion operator with `beta` 1, face coefficients 1 and mesh width 1. Robin, second order: the row after `adj_diag` fails on constants. `adj_diag` multiplies by `3 h + 16 b` where the ghost value has it in the denominator (src/cuda/cd_stencil_1d_cuda.cpp:152). -/
theorem C74_v2_1d_robin2_false : F.Args (exUnit 1) [(F.face1d ⟨0, 0⟩ 0 1 0)] [(F.st1d ⟨1, 0⟩ 0 1 0)] ∧ F.Holds (exUnit 1) (F.face1d ⟨0, 0⟩ 0 1 0) (fun _ => 1) ∧ 
    ∃ s t t' r, ∃ S S' : List Int → Rat, Cuda.v2diag1d 0 1 1 0 ⟨1, 0⟩ seqBackend (exUnit 1) = .ok s ∧ Cuda.adjOffdiag1d 0 1 (-1) (-1) 0 4 2 (fun _ => 1) 2 2 1 ⟨0, 0⟩ 0 ⟨1, 0⟩ seqBackend (exUnit 1) = .ok t ∧
      Cuda.v2diag1d 0 1 1 0 ⟨1, 0⟩ seqBackend t = .ok t' ∧ Cuda.adjDiag1d 0 1 (-1) (-1) 0 4 2 (fun _ => 1) 1 ⟨0, 0⟩ 0 ⟨1, 0⟩ seqBackend t' = .ok r ∧
      (∀ e : Int, 0 ≤ e → e ≤ 2 → F.El s (F.st1d ⟨1, 0⟩ 0 1 0) (e :: [0]) (S (e :: [0]))) ∧ (∀ e : Int, 0 ≤ e → e ≤ 2 → F.El r (F.st1d ⟨1, 0⟩ 0 1 0) (e :: [0]) (S' (e :: [0]))) ∧
      ¬ F.Eliminates 2 S S' [0] 1 2 4 2 1 1 := by
  have h1 : (Cuda.v2diag1d 0 1 1 0 ⟨1, 0⟩ seqBackend (exUnit 1)).toOption.map (rowAt (F.st1d ⟨1, 0⟩ 0 1 0) 2 [0]) = some [some (3), some (-1), some (-1)] := by decide +kernel
  have h2 : (Cuda.adjOffdiag1d 0 1 (-1) (-1) 0 4 2 (fun _ => 1) 2 2 1 ⟨0, 0⟩ 0 ⟨1, 0⟩ seqBackend (exUnit 1) >>= fun t => Cuda.v2diag1d 0 1 1 0 ⟨1, 0⟩ seqBackend t >>= fun t' => Cuda.adjDiag1d 0 1 (-1) (-1) 0 4 2 (fun _ => 1) 1 ⟨0, 0⟩ 0 ⟨1, 0⟩ seqBackend t').toOption.map (rowAt (F.st1d ⟨1, 0⟩ 0 1 0) 2 [0]) = some [some (-313 / 19), some (-9 / 19), some (-20 / 19)] := by decide +kernel
  obtain ⟨s, e1, r1⟩ := row_run h1
  obtain ⟨r, e2, r2⟩ := row_run h2
  obtain ⟨t, e3, e2⟩ := row_bind e2
  obtain ⟨t', e4, e5⟩ := row_bind e2
  exact ⟨exUnit_args (by ex_args), exUnit_holds (by decide) (exRat_ok rfl (by decide) (by unfold InInt; decide)), s, t, t', r, tab [3, -1, -1], tab [-313 / 19, -9 / 19, -20 / 19], e1, e3, e4, e5,
    row_el rfl r1 (fun e h0 h1 => by simp only [F.st1d, F.InBounds, and_true]; omega), row_el rfl r2 (fun e h0 h1 => by simp only [F.st1d, F.InBounds, and_true]; omega), not_const (.inr ⟨rfl, rfl⟩) (by decide +kernel)⟩

/-- 1D, Poisson operator with `beta` 1, face coefficients 1 and mesh width 1. Robin, second order: the row after `adj_poisson_diag` fails on constants (src/cuda/cd_stencil_1d_cuda.cpp:182). -/
theorem C74_poisson_1d_robin2_false : F.Args (exUnit 0) [] [(F.st1d ⟨0, 0⟩ 0 1 0)] ∧ 
    ∃ s t t' r, ∃ S S' : List Int → Rat, Cuda.poissonDiag1d 0 1 0 ⟨0, 0⟩ seqBackend (exUnit 0) = .ok s ∧ Cuda.adjPoissonOffdiag1d 0 1 (-1) (-1) 0 4 2 (fun _ => 1) 2 2 1 0 ⟨0, 0⟩ seqBackend (exUnit 0) = .ok t ∧
      Cuda.poissonDiag1d 0 1 0 ⟨0, 0⟩ seqBackend t = .ok t' ∧ Cuda.adjPoissonDiag1d 0 1 (-1) (-1) 0 4 2 (fun _ => 1) 1 0 ⟨0, 0⟩ seqBackend t' = .ok r ∧
      (∀ e : Int, 0 ≤ e → e ≤ 2 → F.El s (F.st1d ⟨0, 0⟩ 0 1 0) (e :: [0]) (S (e :: [0]))) ∧ (∀ e : Int, 0 ≤ e → e ≤ 2 → F.El r (F.st1d ⟨0, 0⟩ 0 1 0) (e :: [0]) (S' (e :: [0]))) ∧
      ¬ F.Eliminates 2 S S' [0] 1 2 4 2 1 1 := by
  have h1 : (Cuda.poissonDiag1d 0 1 0 ⟨0, 0⟩ seqBackend (exUnit 0)).toOption.map (rowAt (F.st1d ⟨0, 0⟩ 0 1 0) 2 [0]) = some [some (2), some (-1), some (-1)] := by decide +kernel
  have h2 : (Cuda.adjPoissonOffdiag1d 0 1 (-1) (-1) 0 4 2 (fun _ => 1) 2 2 1 0 ⟨0, 0⟩ seqBackend (exUnit 0) >>= fun t => Cuda.poissonDiag1d 0 1 0 ⟨0, 0⟩ seqBackend t >>= fun t' => Cuda.adjPoissonDiag1d 0 1 (-1) (-1) 0 4 2 (fun _ => 1) 1 0 ⟨0, 0⟩ seqBackend t').toOption.map (rowAt (F.st1d ⟨0, 0⟩ 0 1 0) 2 [0]) = some [some (-332 / 19), some (-9 / 19), some (-20 / 19)] := by decide +kernel
  obtain ⟨s, e1, r1⟩ := row_run h1
  obtain ⟨r, e2, r2⟩ := row_run h2
  obtain ⟨t, e3, e2⟩ := row_bind e2
  obtain ⟨t', e4, e5⟩ := row_bind e2
  exact ⟨exUnit_args (by ex_args), s, t, t', r, tab [2, -1, -1], tab [-332 / 19, -9 / 19, -20 / 19], e1, e3, e4, e5,
    row_el rfl r1 (fun e h0 h1 => by simp only [F.st1d, F.InBounds, and_true]; omega), row_el rfl r2 (fun e h0 h1 => by simp only [F.st1d, F.InBounds, and_true]; omega), not_const (.inr ⟨rfl, rfl⟩) (by decide +kernel)⟩

/-- 2D, diffusion operator with `beta` 1, face coefficients 1 and mesh width 1. Robin, second order: the row after `adj_diag` fails on constants (src/cuda/cd_stencil_2d_cuda.cpp:168-174). -/
theorem C74_v2_2d_robin2_false : F.Args (exUnit 2) [(F.face2d0 ⟨0, 0⟩ 0 0 1 1 0), (F.face2d1 ⟨1, 0⟩ 0 0 1 1 0)] [(F.st2d ⟨2, 0⟩ 0 0 1 1 0)] ∧ F.Holds (exUnit 2) (F.face2d0 ⟨0, 0⟩ 0 0 1 1 0) (fun _ => 1) ∧ F.Holds (exUnit 2) (F.face2d1 ⟨1, 0⟩ 0 0 1 1 0) (fun _ => 1) ∧ 
    ∃ s t t' r, ∃ S S' : List Int → Rat, Cuda.v2diag2d 0 0 1 1 1 0 ⟨2, 0⟩ seqBackend (exUnit 2) = .ok s ∧ Cuda.adjOffdiag2d 0 0 1 1 (-1) 0 (-1) 1 0 0 4 2 (fun _ => 1) 2 2 1 ⟨0, 0⟩ ⟨1, 0⟩ 0 ⟨2, 0⟩ seqBackend (exUnit 2) = .ok t ∧
      Cuda.v2diag2d 0 0 1 1 1 0 ⟨2, 0⟩ seqBackend t = .ok t' ∧ Cuda.adjDiag2d 0 0 1 1 (-1) 0 (-1) 1 0 0 4 2 (fun _ => 1) 1 ⟨0, 0⟩ ⟨1, 0⟩ 0 ⟨2, 0⟩ seqBackend t' = .ok r ∧
      (∀ e : Int, 0 ≤ e → e ≤ 4 → F.El s (F.st2d ⟨2, 0⟩ 0 0 1 1 0) (e :: [0, 0]) (S (e :: [0, 0]))) ∧ (∀ e : Int, 0 ≤ e → e ≤ 4 → F.El r (F.st2d ⟨2, 0⟩ 0 0 1 1 0) (e :: [0, 0]) (S' (e :: [0, 0]))) ∧
      ¬ F.Eliminates 4 S S' [0, 0] 1 2 4 2 1 1 := by
  have h1 : (Cuda.v2diag2d 0 0 1 1 1 0 ⟨2, 0⟩ seqBackend (exUnit 2)).toOption.map (rowAt (F.st2d ⟨2, 0⟩ 0 0 1 1 0) 4 [0, 0]) = some [some (5), some (-1), some (-1), some (-1), some (-1)] := by decide +kernel
  have h2 : (Cuda.adjOffdiag2d 0 0 1 1 (-1) 0 (-1) 1 0 0 4 2 (fun _ => 1) 2 2 1 ⟨0, 0⟩ ⟨1, 0⟩ 0 ⟨2, 0⟩ seqBackend (exUnit 2) >>= fun t => Cuda.v2diag2d 0 0 1 1 1 0 ⟨2, 0⟩ seqBackend t >>= fun t' => Cuda.adjDiag2d 0 0 1 1 (-1) 0 (-1) 1 0 0 4 2 (fun _ => 1) 1 ⟨0, 0⟩ ⟨1, 0⟩ 0 ⟨2, 0⟩ seqBackend t').toOption.map (rowAt (F.st2d ⟨2, 0⟩ 0 0 1 1 0) 4 [0, 0]) = some [some (-275 / 19), some (-9 / 19), some (-20 / 19), some (-1), some (-1)] := by decide +kernel
  obtain ⟨s, e1, r1⟩ := row_run h1
  obtain ⟨r, e2, r2⟩ := row_run h2
  obtain ⟨t, e3, e2⟩ := row_bind e2
  obtain ⟨t', e4, e5⟩ := row_bind e2
  exact ⟨exUnit_args (by ex_args), exUnit_holds (by decide) (exRat_ok rfl (by decide) (by unfold InInt; decide)), exUnit_holds (by decide) (exRat_ok rfl (by decide) (by unfold InInt; decide)), s, t, t', r, tab [5, -1, -1, -1, -1], tab [-275 / 19, -9 / 19, -20 / 19, -1, -1], e1, e3, e4, e5,
    row_el rfl r1 (fun e h0 h1 => by simp only [F.st2d, F.InBounds, and_true]; omega), row_el rfl r2 (fun e h0 h1 => by simp only [F.st2d, F.InBounds, and_true]; omega), not_const (.inr ⟨rfl, rfl⟩) (by decide +kernel)⟩

/-- 2D, diffusion operator with `beta` 1, face coefficients 1 and mesh width 1. Robin, first order, across the second axis: the kernels change nothing, so the row fails (src/cuda/cd_stencil_2d_cuda.cpp:405-410). -/
theorem C74_v2_2d_robin_dir1_false : F.Args (exUnit 2) [(F.face2d0 ⟨0, 0⟩ 0 0 1 1 0), (F.face2d1 ⟨1, 0⟩ 0 0 1 1 0)] [(F.st2d ⟨2, 0⟩ 0 0 1 1 0)] ∧ F.Holds (exUnit 2) (F.face2d0 ⟨0, 0⟩ 0 0 1 1 0) (fun _ => 1) ∧ F.Holds (exUnit 2) (F.face2d1 ⟨1, 0⟩ 0 0 1 1 0) (fun _ => 1) ∧ 
    ∃ s t t' r, ∃ S S' : List Int → Rat, Cuda.v2diag2d 0 0 1 1 1 0 ⟨2, 0⟩ seqBackend (exUnit 2) = .ok s ∧ Cuda.adjOffdiag2d 0 0 1 1 0 (-1) 1 (-1) 1 0 4 1 (fun _ => 1) 2 2 1 ⟨0, 0⟩ ⟨1, 0⟩ 0 ⟨2, 0⟩ seqBackend (exUnit 2) = .ok t ∧
      Cuda.v2diag2d 0 0 1 1 1 0 ⟨2, 0⟩ seqBackend t = .ok t' ∧ Cuda.adjDiag2d 0 0 1 1 0 (-1) 1 (-1) 1 0 4 1 (fun _ => 1) 1 ⟨0, 0⟩ ⟨1, 0⟩ 0 ⟨2, 0⟩ seqBackend t' = .ok r ∧
      (∀ e : Int, 0 ≤ e → e ≤ 4 → F.El s (F.st2d ⟨2, 0⟩ 0 0 1 1 0) (e :: [0, 0]) (S (e :: [0, 0]))) ∧ (∀ e : Int, 0 ≤ e → e ≤ 4 → F.El r (F.st2d ⟨2, 0⟩ 0 0 1 1 0) (e :: [0, 0]) (S' (e :: [0, 0]))) ∧
      ¬ F.Eliminates 4 S S' [0, 0] 3 4 4 1 1 1 := by
  have h1 : (Cuda.v2diag2d 0 0 1 1 1 0 ⟨2, 0⟩ seqBackend (exUnit 2)).toOption.map (rowAt (F.st2d ⟨2, 0⟩ 0 0 1 1 0) 4 [0, 0]) = some [some (5), some (-1), some (-1), some (-1), some (-1)] := by decide +kernel
  have h2 : (Cuda.adjOffdiag2d 0 0 1 1 0 (-1) 1 (-1) 1 0 4 1 (fun _ => 1) 2 2 1 ⟨0, 0⟩ ⟨1, 0⟩ 0 ⟨2, 0⟩ seqBackend (exUnit 2) >>= fun t => Cuda.v2diag2d 0 0 1 1 1 0 ⟨2, 0⟩ seqBackend t >>= fun t' => Cuda.adjDiag2d 0 0 1 1 0 (-1) 1 (-1) 1 0 4 1 (fun _ => 1) 1 ⟨0, 0⟩ ⟨1, 0⟩ 0 ⟨2, 0⟩ seqBackend t').toOption.map (rowAt (F.st2d ⟨2, 0⟩ 0 0 1 1 0) 4 [0, 0]) = some [some (5), some (-1), some (-1), some (-1), some (-1)] := by decide +kernel
  obtain ⟨s, e1, r1⟩ := row_run h1
  obtain ⟨r, e2, r2⟩ := row_run h2
  obtain ⟨t, e3, e2⟩ := row_bind e2
  obtain ⟨t', e4, e5⟩ := row_bind e2
  exact ⟨exUnit_args (by ex_args), exUnit_holds (by decide) (exRat_ok rfl (by decide) (by unfold InInt; decide)), exUnit_holds (by decide) (exRat_ok rfl (by decide) (by unfold InInt; decide)), s, t, t', r, tab [5, -1, -1, -1, -1], tab [5, -1, -1, -1, -1], e1, e3, e4, e5,
    row_el rfl r1 (fun e h0 h1 => by simp only [F.st2d, F.InBounds, and_true]; omega), row_el rfl r2 (fun e h0 h1 => by simp only [F.st2d, F.InBounds, and_true]; omega), not_line (by decide) (by decide)⟩

/-- 2D, diffusion operator with `beta` 1, face coefficients 1 and mesh width 1. Dirichlet, second order: `adj_diag` adds a term to the diagonal although it is right already, so the row fails on constants (src/cuda/cd_stencil_2d_cuda.cpp:176-198). -/
theorem C74_v2_2d_dirichlet2_false : F.Args (exUnit 2) [(F.face2d0 ⟨0, 0⟩ 0 0 1 1 0), (F.face2d1 ⟨1, 0⟩ 0 0 1 1 0)] [(F.st2d ⟨2, 0⟩ 0 0 1 1 0)] ∧ F.Holds (exUnit 2) (F.face2d0 ⟨0, 0⟩ 0 0 1 1 0) (fun _ => 1) ∧ F.Holds (exUnit 2) (F.face2d1 ⟨1, 0⟩ 0 0 1 1 0) (fun _ => 1) ∧ 
    ∃ s t t' r, ∃ S S' : List Int → Rat, Cuda.v2diag2d 0 0 1 1 1 0 ⟨2, 0⟩ seqBackend (exUnit 2) = .ok s ∧ Cuda.adjOffdiag2d 0 0 1 1 (-1) 0 (-1) 1 0 0 0 2 (fun _ => 1) 2 2 1 ⟨0, 0⟩ ⟨1, 0⟩ 0 ⟨2, 0⟩ seqBackend (exUnit 2) = .ok t ∧
      Cuda.v2diag2d 0 0 1 1 1 0 ⟨2, 0⟩ seqBackend t = .ok t' ∧ Cuda.adjDiag2d 0 0 1 1 (-1) 0 (-1) 1 0 0 0 2 (fun _ => 1) 1 ⟨0, 0⟩ ⟨1, 0⟩ 0 ⟨2, 0⟩ seqBackend t' = .ok r ∧
      (∀ e : Int, 0 ≤ e → e ≤ 4 → F.El s (F.st2d ⟨2, 0⟩ 0 0 1 1 0) (e :: [0, 0]) (S (e :: [0, 0]))) ∧ (∀ e : Int, 0 ≤ e → e ≤ 4 → F.El r (F.st2d ⟨2, 0⟩ 0 0 1 1 0) (e :: [0, 0]) (S' (e :: [0, 0]))) ∧
      ¬ F.Eliminates 4 S S' [0, 0] 1 2 0 2 1 1 := by
  have h1 : (Cuda.v2diag2d 0 0 1 1 1 0 ⟨2, 0⟩ seqBackend (exUnit 2)).toOption.map (rowAt (F.st2d ⟨2, 0⟩ 0 0 1 1 0) 4 [0, 0]) = some [some (5), some (-1), some (-1), some (-1), some (-1)] := by decide +kernel
  have h2 : (Cuda.adjOffdiag2d 0 0 1 1 (-1) 0 (-1) 1 0 0 0 2 (fun _ => 1) 2 2 1 ⟨0, 0⟩ ⟨1, 0⟩ 0 ⟨2, 0⟩ seqBackend (exUnit 2) >>= fun t => Cuda.v2diag2d 0 0 1 1 1 0 ⟨2, 0⟩ seqBackend t >>= fun t' => Cuda.adjDiag2d 0 0 1 1 (-1) 0 (-1) 1 0 0 0 2 (fun _ => 1) 1 ⟨0, 0⟩ ⟨1, 0⟩ 0 ⟨2, 0⟩ seqBackend t').toOption.map (rowAt (F.st2d ⟨2, 0⟩ 0 0 1 1 0) 4 [0, 0]) = some [some (22 / 3), some (-8 / 3), some (-4 / 3), some (-1), some (-1)] := by decide +kernel
  obtain ⟨s, e1, r1⟩ := row_run h1
  obtain ⟨r, e2, r2⟩ := row_run h2
  obtain ⟨t, e3, e2⟩ := row_bind e2
  obtain ⟨t', e4, e5⟩ := row_bind e2
  exact ⟨exUnit_args (by ex_args), exUnit_holds (by decide) (exRat_ok rfl (by decide) (by unfold InInt; decide)), exUnit_holds (by decide) (exRat_ok rfl (by decide) (by unfold InInt; decide)), s, t, t', r, tab [5, -1, -1, -1, -1], tab [22 / 3, -8 / 3, -4 / 3, -1, -1], e1, e3, e4, e5,
    row_el rfl r1 (fun e h0 h1 => by simp only [F.st2d, F.InBounds, and_true]; omega), row_el rfl r2 (fun e h0 h1 => by simp only [F.st2d, F.InBounds, and_true]; omega), not_const (.inl ⟨rfl, rfl⟩) (by decide +kernel)⟩

/-- 2D, Poisson operator with `beta` 1, face coefficients 1 and mesh width 1. Robin, second order: the row after `adj_poisson_diag` fails on constants (src/cuda/cd_stencil_2d_cuda.cpp:233). -/
theorem C74_poisson_2d_robin2_false : F.Args (exUnit 0) [] [(F.st2d ⟨0, 0⟩ 0 0 1 1 0)] ∧ 
    ∃ s t t' r, ∃ S S' : List Int → Rat, Cuda.poissonDiag2d 0 0 1 1 0 ⟨0, 0⟩ seqBackend (exUnit 0) = .ok s ∧ Cuda.adjPoissonOffdiag2d 0 0 1 1 (-1) 0 (-1) 1 0 0 4 2 (fun _ => 1) 2 2 1 0 ⟨0, 0⟩ seqBackend (exUnit 0) = .ok t ∧
      Cuda.poissonDiag2d 0 0 1 1 0 ⟨0, 0⟩ seqBackend t = .ok t' ∧ Cuda.adjPoissonDiag2d 0 0 1 1 (-1) 0 (-1) 1 0 0 4 2 (fun _ => 1) 1 0 ⟨0, 0⟩ seqBackend t' = .ok r ∧
      (∀ e : Int, 0 ≤ e → e ≤ 4 → F.El s (F.st2d ⟨0, 0⟩ 0 0 1 1 0) (e :: [0, 0]) (S (e :: [0, 0]))) ∧ (∀ e : Int, 0 ≤ e → e ≤ 4 → F.El r (F.st2d ⟨0, 0⟩ 0 0 1 1 0) (e :: [0, 0]) (S' (e :: [0, 0]))) ∧
      ¬ F.Eliminates 4 S S' [0, 0] 1 2 4 2 1 1 := by
  have h1 : (Cuda.poissonDiag2d 0 0 1 1 0 ⟨0, 0⟩ seqBackend (exUnit 0)).toOption.map (rowAt (F.st2d ⟨0, 0⟩ 0 0 1 1 0) 4 [0, 0]) = some [some (4), some (-1), some (-1), some (-1), some (-1)] := by decide +kernel
  have h2 : (Cuda.adjPoissonOffdiag2d 0 0 1 1 (-1) 0 (-1) 1 0 0 4 2 (fun _ => 1) 2 2 1 0 ⟨0, 0⟩ seqBackend (exUnit 0) >>= fun t => Cuda.poissonDiag2d 0 0 1 1 0 ⟨0, 0⟩ seqBackend t >>= fun t' => Cuda.adjPoissonDiag2d 0 0 1 1 (-1) 0 (-1) 1 0 0 4 2 (fun _ => 1) 1 0 ⟨0, 0⟩ seqBackend t').toOption.map (rowAt (F.st2d ⟨0, 0⟩ 0 0 1 1 0) 4 [0, 0]) = some [some (-294 / 19), some (-9 / 19), some (-20 / 19), some (-1), some (-1)] := by decide +kernel
  obtain ⟨s, e1, r1⟩ := row_run h1
  obtain ⟨r, e2, r2⟩ := row_run h2
  obtain ⟨t, e3, e2⟩ := row_bind e2
  obtain ⟨t', e4, e5⟩ := row_bind e2
  exact ⟨exUnit_args (by ex_args), s, t, t', r, tab [4, -1, -1, -1, -1], tab [-294 / 19, -9 / 19, -20 / 19, -1, -1], e1, e3, e4, e5,
    row_el rfl r1 (fun e h0 h1 => by simp only [F.st2d, F.InBounds, and_true]; omega), row_el rfl r2 (fun e h0 h1 => by simp only [F.st2d, F.InBounds, and_true]; omega), not_const (.inr ⟨rfl, rfl⟩) (by decide +kernel)⟩

/-- 2D, Poisson operator with `beta` 1, face coefficients 1 and mesh width 1. Robin, first order, across the second axis: the kernels change nothing, so the row fails (src/cuda/cd_stencil_2d_cuda.cpp:438-527). -/
theorem C74_poisson_2d_robin_dir1_false : F.Args (exUnit 0) [] [(F.st2d ⟨0, 0⟩ 0 0 1 1 0)] ∧ 
    ∃ s t t' r, ∃ S S' : List Int → Rat, Cuda.poissonDiag2d 0 0 1 1 0 ⟨0, 0⟩ seqBackend (exUnit 0) = .ok s ∧ Cuda.adjPoissonOffdiag2d 0 0 1 1 0 (-1) 1 (-1) 1 0 4 1 (fun _ => 1) 2 2 1 0 ⟨0, 0⟩ seqBackend (exUnit 0) = .ok t ∧
      Cuda.poissonDiag2d 0 0 1 1 0 ⟨0, 0⟩ seqBackend t = .ok t' ∧ Cuda.adjPoissonDiag2d 0 0 1 1 0 (-1) 1 (-1) 1 0 4 1 (fun _ => 1) 1 0 ⟨0, 0⟩ seqBackend t' = .ok r ∧
      (∀ e : Int, 0 ≤ e → e ≤ 4 → F.El s (F.st2d ⟨0, 0⟩ 0 0 1 1 0) (e :: [0, 0]) (S (e :: [0, 0]))) ∧ (∀ e : Int, 0 ≤ e → e ≤ 4 → F.El r (F.st2d ⟨0, 0⟩ 0 0 1 1 0) (e :: [0, 0]) (S' (e :: [0, 0]))) ∧
      ¬ F.Eliminates 4 S S' [0, 0] 3 4 4 1 1 1 := by
  have h1 : (Cuda.poissonDiag2d 0 0 1 1 0 ⟨0, 0⟩ seqBackend (exUnit 0)).toOption.map (rowAt (F.st2d ⟨0, 0⟩ 0 0 1 1 0) 4 [0, 0]) = some [some (4), some (-1), some (-1), some (-1), some (-1)] := by decide +kernel
  have h2 : (Cuda.adjPoissonOffdiag2d 0 0 1 1 0 (-1) 1 (-1) 1 0 4 1 (fun _ => 1) 2 2 1 0 ⟨0, 0⟩ seqBackend (exUnit 0) >>= fun t => Cuda.poissonDiag2d 0 0 1 1 0 ⟨0, 0⟩ seqBackend t >>= fun t' => Cuda.adjPoissonDiag2d 0 0 1 1 0 (-1) 1 (-1) 1 0 4 1 (fun _ => 1) 1 0 ⟨0, 0⟩ seqBackend t').toOption.map (rowAt (F.st2d ⟨0, 0⟩ 0 0 1 1 0) 4 [0, 0]) = some [some (4), some (-1), some (-1), some (-1), some (-1)] := by decide +kernel
  obtain ⟨s, e1, r1⟩ := row_run h1
  obtain ⟨r, e2, r2⟩ := row_run h2
  obtain ⟨t, e3, e2⟩ := row_bind e2
  obtain ⟨t', e4, e5⟩ := row_bind e2
  exact ⟨exUnit_args (by ex_args), s, t, t', r, tab [4, -1, -1, -1, -1], tab [4, -1, -1, -1, -1], e1, e3, e4, e5,
    row_el rfl r1 (fun e h0 h1 => by simp only [F.st2d, F.InBounds, and_true]; omega), row_el rfl r2 (fun e h0 h1 => by simp only [F.st2d, F.InBounds, and_true]; omega), not_line (by decide) (by decide)⟩

/-- 3D, diffusion operator with `beta` 1, face coefficients 1 and mesh width 1. Robin, second order: the row after `adj_diag` fails on constants (src/cuda/cd_stencil_3d_cuda.cpp:210-216). -/
theorem C74_v2_3d_robin2_false : F.Args (exUnit 3) [(F.face3d0 ⟨0, 0⟩ 0 0 0 1 1 1 0), (F.face3d1 ⟨1, 0⟩ 0 0 0 1 1 1 0), (F.face3d2 ⟨2, 0⟩ 0 0 0 1 1 1 0)] [(F.st3d ⟨3, 0⟩ 0 0 0 1 1 1 0)] ∧ F.Holds (exUnit 3) (F.face3d0 ⟨0, 0⟩ 0 0 0 1 1 1 0) (fun _ => 1) ∧ F.Holds (exUnit 3) (F.face3d1 ⟨1, 0⟩ 0 0 0 1 1 1 0) (fun _ => 1) ∧ F.Holds (exUnit 3) (F.face3d2 ⟨2, 0⟩ 0 0 0 1 1 1 0) (fun _ => 1) ∧ 
    ∃ s t t' r, ∃ S S' : List Int → Rat, Cuda.v2diag3d 0 0 0 1 1 1 1 0 ⟨3, 0⟩ seqBackend (exUnit 3) = .ok s ∧ Cuda.adjOffdiag3d 0 0 0 1 1 1 0 0 (-1) 1 1 (-1) 2 0 4 2 (fun _ => 1) 2 2 1 ⟨0, 0⟩ ⟨1, 0⟩ ⟨2, 0⟩ 0 ⟨3, 0⟩ seqBackend (exUnit 3) = .ok t ∧
      Cuda.v2diag3d 0 0 0 1 1 1 1 0 ⟨3, 0⟩ seqBackend t = .ok t' ∧ Cuda.adjDiag3d 0 0 0 1 1 1 0 0 (-1) 1 1 (-1) 2 0 4 2 (fun _ => 1) 1 ⟨0, 0⟩ ⟨1, 0⟩ ⟨2, 0⟩ 0 ⟨3, 0⟩ seqBackend t' = .ok r ∧
      (∀ e : Int, 0 ≤ e → e ≤ 6 → F.El s (F.st3d ⟨3, 0⟩ 0 0 0 1 1 1 0) (e :: [0, 0, 0]) (S (e :: [0, 0, 0]))) ∧ (∀ e : Int, 0 ≤ e → e ≤ 6 → F.El r (F.st3d ⟨3, 0⟩ 0 0 0 1 1 1 0) (e :: [0, 0, 0]) (S' (e :: [0, 0, 0]))) ∧
      ¬ F.Eliminates 6 S S' [0, 0, 0] 5 6 4 2 1 1 := by
  have h1 : (Cuda.v2diag3d 0 0 0 1 1 1 1 0 ⟨3, 0⟩ seqBackend (exUnit 3)).toOption.map (rowAt (F.st3d ⟨3, 0⟩ 0 0 0 1 1 1 0) 6 [0, 0, 0]) = some [some (7), some (-1), some (-1), some (-1), some (-1), some (-1), some (-1)] := by decide +kernel
  have h2 : (Cuda.adjOffdiag3d 0 0 0 1 1 1 0 0 (-1) 1 1 (-1) 2 0 4 2 (fun _ => 1) 2 2 1 ⟨0, 0⟩ ⟨1, 0⟩ ⟨2, 0⟩ 0 ⟨3, 0⟩ seqBackend (exUnit 3) >>= fun t => Cuda.v2diag3d 0 0 0 1 1 1 1 0 ⟨3, 0⟩ seqBackend t >>= fun t' => Cuda.adjDiag3d 0 0 0 1 1 1 0 0 (-1) 1 1 (-1) 2 0 4 2 (fun _ => 1) 1 ⟨0, 0⟩ ⟨1, 0⟩ ⟨2, 0⟩ 0 ⟨3, 0⟩ seqBackend t').toOption.map (rowAt (F.st3d ⟨3, 0⟩ 0 0 0 1 1 1 0) 6 [0, 0, 0]) = some [some (-237 / 19), some (-1), some (-1), some (-1), some (-1), some (-9 / 19), some (-20 / 19)] := by decide +kernel
  obtain ⟨s, e1, r1⟩ := row_run h1
  obtain ⟨r, e2, r2⟩ := row_run h2
  obtain ⟨t, e3, e2⟩ := row_bind e2
  obtain ⟨t', e4, e5⟩ := row_bind e2
  exact ⟨exUnit_args (by ex_args), exUnit_holds (by decide) (exRat_ok rfl (by decide) (by unfold InInt; decide)), exUnit_holds (by decide) (exRat_ok rfl (by decide) (by unfold InInt; decide)), exUnit_holds (by decide) (exRat_ok rfl (by decide) (by unfold InInt; decide)), s, t, t', r, tab [7, -1, -1, -1, -1, -1, -1], tab [-237 / 19, -1, -1, -1, -1, -9 / 19, -20 / 19], e1, e3, e4, e5,
    row_el rfl r1 (fun e h0 h1 => by simp only [F.st3d, F.InBounds, and_true]; omega), row_el rfl r2 (fun e h0 h1 => by simp only [F.st3d, F.InBounds, and_true]; omega), not_const (.inr ⟨rfl, rfl⟩) (by decide +kernel)⟩

/-- 3D, diffusion operator with `beta` 1, face coefficients 1 and mesh width 1. Dirichlet, second order: `adj_diag` adds a term to the diagonal although it is right already, so the row fails on constants (src/cuda/cd_stencil_3d_cuda.cpp:218-223). -/
theorem C74_v2_3d_dirichlet2_false : F.Args (exUnit 3) [(F.face3d0 ⟨0, 0⟩ 0 0 0 1 1 1 0), (F.face3d1 ⟨1, 0⟩ 0 0 0 1 1 1 0), (F.face3d2 ⟨2, 0⟩ 0 0 0 1 1 1 0)] [(F.st3d ⟨3, 0⟩ 0 0 0 1 1 1 0)] ∧ F.Holds (exUnit 3) (F.face3d0 ⟨0, 0⟩ 0 0 0 1 1 1 0) (fun _ => 1) ∧ F.Holds (exUnit 3) (F.face3d1 ⟨1, 0⟩ 0 0 0 1 1 1 0) (fun _ => 1) ∧ F.Holds (exUnit 3) (F.face3d2 ⟨2, 0⟩ 0 0 0 1 1 1 0) (fun _ => 1) ∧ 
    ∃ s t t' r, ∃ S S' : List Int → Rat, Cuda.v2diag3d 0 0 0 1 1 1 1 0 ⟨3, 0⟩ seqBackend (exUnit 3) = .ok s ∧ Cuda.adjOffdiag3d 0 0 0 1 1 1 0 (-1) 0 1 (-1) 1 1 0 0 2 (fun _ => 1) 2 2 1 ⟨0, 0⟩ ⟨1, 0⟩ ⟨2, 0⟩ 0 ⟨3, 0⟩ seqBackend (exUnit 3) = .ok t ∧
      Cuda.v2diag3d 0 0 0 1 1 1 1 0 ⟨3, 0⟩ seqBackend t = .ok t' ∧ Cuda.adjDiag3d 0 0 0 1 1 1 0 (-1) 0 1 (-1) 1 1 0 0 2 (fun _ => 1) 1 ⟨0, 0⟩ ⟨1, 0⟩ ⟨2, 0⟩ 0 ⟨3, 0⟩ seqBackend t' = .ok r ∧
      (∀ e : Int, 0 ≤ e → e ≤ 6 → F.El s (F.st3d ⟨3, 0⟩ 0 0 0 1 1 1 0) (e :: [0, 0, 0]) (S (e :: [0, 0, 0]))) ∧ (∀ e : Int, 0 ≤ e → e ≤ 6 → F.El r (F.st3d ⟨3, 0⟩ 0 0 0 1 1 1 0) (e :: [0, 0, 0]) (S' (e :: [0, 0, 0]))) ∧
      ¬ F.Eliminates 6 S S' [0, 0, 0] 3 4 0 2 1 1 := by
  have h1 : (Cuda.v2diag3d 0 0 0 1 1 1 1 0 ⟨3, 0⟩ seqBackend (exUnit 3)).toOption.map (rowAt (F.st3d ⟨3, 0⟩ 0 0 0 1 1 1 0) 6 [0, 0, 0]) = some [some (7), some (-1), some (-1), some (-1), some (-1), some (-1), some (-1)] := by decide +kernel
  have h2 : (Cuda.adjOffdiag3d 0 0 0 1 1 1 0 (-1) 0 1 (-1) 1 1 0 0 2 (fun _ => 1) 2 2 1 ⟨0, 0⟩ ⟨1, 0⟩ ⟨2, 0⟩ 0 ⟨3, 0⟩ seqBackend (exUnit 3) >>= fun t => Cuda.v2diag3d 0 0 0 1 1 1 1 0 ⟨3, 0⟩ seqBackend t >>= fun t' => Cuda.adjDiag3d 0 0 0 1 1 1 0 (-1) 0 1 (-1) 1 1 0 0 2 (fun _ => 1) 1 ⟨0, 0⟩ ⟨1, 0⟩ ⟨2, 0⟩ 0 ⟨3, 0⟩ seqBackend t').toOption.map (rowAt (F.st3d ⟨3, 0⟩ 0 0 0 1 1 1 0) 6 [0, 0, 0]) = some [some (28 / 3), some (-1), some (-1), some (-8 / 3), some (-4 / 3), some (-1), some (-1)] := by decide +kernel
  obtain ⟨s, e1, r1⟩ := row_run h1
  obtain ⟨r, e2, r2⟩ := row_run h2
  obtain ⟨t, e3, e2⟩ := row_bind e2
  obtain ⟨t', e4, e5⟩ := row_bind e2
  exact ⟨exUnit_args (by ex_args), exUnit_holds (by decide) (exRat_ok rfl (by decide) (by unfold InInt; decide)), exUnit_holds (by decide) (exRat_ok rfl (by decide) (by unfold InInt; decide)), exUnit_holds (by decide) (exRat_ok rfl (by decide) (by unfold InInt; decide)), s, t, t', r, tab [7, -1, -1, -1, -1, -1, -1], tab [28 / 3, -1, -1, -8 / 3, -4 / 3, -1, -1], e1, e3, e4, e5,
    row_el rfl r1 (fun e h0 h1 => by simp only [F.st3d, F.InBounds, and_true]; omega), row_el rfl r2 (fun e h0 h1 => by simp only [F.st3d, F.InBounds, and_true]; omega), not_const (.inl ⟨rfl, rfl⟩) (by decide +kernel)⟩

/-- 3D, Poisson operator with `beta` 1, face coefficients 1 and mesh width 1. Robin, second order: the row after `adj_poisson_diag` fails on constants (src/cuda/cd_stencil_3d_cuda.cpp:293-296). -/
theorem C74_poisson_3d_robin2_false : F.Args (exUnit 0) [] [(F.st3d ⟨0, 0⟩ 0 0 0 1 1 1 0)] ∧ 
    ∃ s t t' r, ∃ S S' : List Int → Rat, Cuda.poissonDiag3d 0 0 0 1 1 1 0 ⟨0, 0⟩ seqBackend (exUnit 0) = .ok s ∧ Cuda.adjPoissonOffdiag3d 0 0 0 1 1 1 0 0 (-1) 1 1 (-1) 2 0 4 2 (fun _ => 1) 2 2 1 0 ⟨0, 0⟩ seqBackend (exUnit 0) = .ok t ∧
      Cuda.poissonDiag3d 0 0 0 1 1 1 0 ⟨0, 0⟩ seqBackend t = .ok t' ∧ Cuda.adjPoissonDiag3d 0 0 0 1 1 1 0 0 (-1) 1 1 (-1) 2 0 4 2 (fun _ => 1) 1 0 ⟨0, 0⟩ seqBackend t' = .ok r ∧
      (∀ e : Int, 0 ≤ e → e ≤ 6 → F.El s (F.st3d ⟨0, 0⟩ 0 0 0 1 1 1 0) (e :: [0, 0, 0]) (S (e :: [0, 0, 0]))) ∧ (∀ e : Int, 0 ≤ e → e ≤ 6 → F.El r (F.st3d ⟨0, 0⟩ 0 0 0 1 1 1 0) (e :: [0, 0, 0]) (S' (e :: [0, 0, 0]))) ∧
      ¬ F.Eliminates 6 S S' [0, 0, 0] 5 6 4 2 1 1 := by
  have h1 : (Cuda.poissonDiag3d 0 0 0 1 1 1 0 ⟨0, 0⟩ seqBackend (exUnit 0)).toOption.map (rowAt (F.st3d ⟨0, 0⟩ 0 0 0 1 1 1 0) 6 [0, 0, 0]) = some [some (6), some (-1), some (-1), some (-1), some (-1), some (-1), some (-1)] := by decide +kernel
  have h2 : (Cuda.adjPoissonOffdiag3d 0 0 0 1 1 1 0 0 (-1) 1 1 (-1) 2 0 4 2 (fun _ => 1) 2 2 1 0 ⟨0, 0⟩ seqBackend (exUnit 0) >>= fun t => Cuda.poissonDiag3d 0 0 0 1 1 1 0 ⟨0, 0⟩ seqBackend t >>= fun t' => Cuda.adjPoissonDiag3d 0 0 0 1 1 1 0 0 (-1) 1 1 (-1) 2 0 4 2 (fun _ => 1) 1 0 ⟨0, 0⟩ seqBackend t').toOption.map (rowAt (F.st3d ⟨0, 0⟩ 0 0 0 1 1 1 0) 6 [0, 0, 0]) = some [some (-256 / 19), some (-1), some (-1), some (-1), some (-1), some (-9 / 19), some (-20 / 19)] := by decide +kernel
  obtain ⟨s, e1, r1⟩ := row_run h1
  obtain ⟨r, e2, r2⟩ := row_run h2
  obtain ⟨t, e3, e2⟩ := row_bind e2
  obtain ⟨t', e4, e5⟩ := row_bind e2
  exact ⟨exUnit_args (by ex_args), s, t, t', r, tab [6, -1, -1, -1, -1, -1, -1], tab [-256 / 19, -1, -1, -1, -1, -9 / 19, -20 / 19], e1, e3, e4, e5,
    row_el rfl r1 (fun e h0 h1 => by simp only [F.st3d, F.InBounds, and_true]; omega), row_el rfl r2 (fun e h0 h1 => by simp only [F.st3d, F.InBounds, and_true]; omega), not_const (.inr ⟨rfl, rfl⟩) (by decide +kernel)⟩

/-- 3D, Poisson operator with `beta` 1, face coefficients 1 and mesh width 1. Dirichlet, second order: `adj_poisson_diag` adds a term to the diagonal although it is right already, so the row fails on constants (src/cuda/cd_stencil_3d_cuda.cpp:297-300). -/
theorem C74_poisson_3d_dirichlet2_false : F.Args (exUnit 0) [] [(F.st3d ⟨0, 0⟩ 0 0 0 1 1 1 0)] ∧ 
    ∃ s t t' r, ∃ S S' : List Int → Rat, Cuda.poissonDiag3d 0 0 0 1 1 1 0 ⟨0, 0⟩ seqBackend (exUnit 0) = .ok s ∧ Cuda.adjPoissonOffdiag3d 0 0 0 1 1 1 0 (-1) 0 1 (-1) 1 1 0 0 2 (fun _ => 1) 2 2 1 0 ⟨0, 0⟩ seqBackend (exUnit 0) = .ok t ∧
      Cuda.poissonDiag3d 0 0 0 1 1 1 0 ⟨0, 0⟩ seqBackend t = .ok t' ∧ Cuda.adjPoissonDiag3d 0 0 0 1 1 1 0 (-1) 0 1 (-1) 1 1 0 0 2 (fun _ => 1) 1 0 ⟨0, 0⟩ seqBackend t' = .ok r ∧
      (∀ e : Int, 0 ≤ e → e ≤ 6 → F.El s (F.st3d ⟨0, 0⟩ 0 0 0 1 1 1 0) (e :: [0, 0, 0]) (S (e :: [0, 0, 0]))) ∧ (∀ e : Int, 0 ≤ e → e ≤ 6 → F.El r (F.st3d ⟨0, 0⟩ 0 0 0 1 1 1 0) (e :: [0, 0, 0]) (S' (e :: [0, 0, 0]))) ∧
      ¬ F.Eliminates 6 S S' [0, 0, 0] 3 4 0 2 1 1 := by
  have h1 : (Cuda.poissonDiag3d 0 0 0 1 1 1 0 ⟨0, 0⟩ seqBackend (exUnit 0)).toOption.map (rowAt (F.st3d ⟨0, 0⟩ 0 0 0 1 1 1 0) 6 [0, 0, 0]) = some [some (6), some (-1), some (-1), some (-1), some (-1), some (-1), some (-1)] := by decide +kernel
  have h2 : (Cuda.adjPoissonOffdiag3d 0 0 0 1 1 1 0 (-1) 0 1 (-1) 1 1 0 0 2 (fun _ => 1) 2 2 1 0 ⟨0, 0⟩ seqBackend (exUnit 0) >>= fun t => Cuda.poissonDiag3d 0 0 0 1 1 1 0 ⟨0, 0⟩ seqBackend t >>= fun t' => Cuda.adjPoissonDiag3d 0 0 0 1 1 1 0 (-1) 0 1 (-1) 1 1 0 0 2 (fun _ => 1) 1 0 ⟨0, 0⟩ seqBackend t').toOption.map (rowAt (F.st3d ⟨0, 0⟩ 0 0 0 1 1 1 0) 6 [0, 0, 0]) = some [some (25 / 3), some (-1), some (-1), some (-8 / 3), some (-4 / 3), some (-1), some (-1)] := by decide +kernel
  obtain ⟨s, e1, r1⟩ := row_run h1
  obtain ⟨r, e2, r2⟩ := row_run h2
  obtain ⟨t, e3, e2⟩ := row_bind e2
  obtain ⟨t', e4, e5⟩ := row_bind e2
  exact ⟨exUnit_args (by ex_args), s, t, t', r, tab [6, -1, -1, -1, -1, -1, -1], tab [25 / 3, -1, -1, -8 / 3, -4 / 3, -1, -1], e1, e3, e4, e5,
    row_el rfl r1 (fun e h0 h1 => by simp only [F.st3d, F.InBounds, and_true]; omega), row_el rfl r2 (fun e h0 h1 => by simp only [F.st3d, F.InBounds, and_true]; omega), not_const (.inl ⟨rfl, rfl⟩) (by decide +kernel)⟩

end Verif
