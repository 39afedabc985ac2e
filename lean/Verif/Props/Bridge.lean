import Verif.Lemmas.BridgeOff

/-
C75: the coefficients of the cells next to a coarse-fine boundary, adjusted, act on the values of the coarse cells as the coefficients before the adjustment act on the ghost values.
-/

set_option linter.unusedVariables false

namespace Verif
open Spec

variable {T : Type} [Field T] [CharZero T]

/-- 1D, diffusion operator with cell coefficients: for every polynomial of the order's degree, the rows assembled and adjusted act on the value of the coarse cell as the rows without the adjustment act on the ghost value; the rows of the other cells are the same. Missing: the first order for refinement ratios other than 2. -/
theorem C75_v1_1d_partial {i0 i1 ai0 ai1 pi0 pi1 r side sgcw : Int} {order : Nat} {dx : Nat → T} {alpha beta : T} {a_ b0_ st_ : Ptr} {β₁ β₂ β₃ β₄ : Backend} {m : Mem T}
    (hβ₁ : ValidBackend β₁) (hβ₂ : ValidBackend β₂) (hβ₃ : ValidBackend β₃) (hβ₄ : ValidBackend β₄) (hi : i0 ≤ i1) (hg : 0 ≤ sgcw) (hai : ai0 ≤ i0 ∧ i1 ≤ ai1) (hl : Layer1 i0 i1 0 pi0 pi1 side)
    (hq : (order = 1 ∧ r = 2) ∨ order = 2) (h1 : r ≠ -1) (h3 : r ≠ -3)
    (h : F.Args m [(F.cell1d a_ ai0 ai1 0), (F.face1d b0_ i0 i1 0)] [(F.st1d st_ i0 i1 sgcw)]) :
    ∃ m₁ s s₁ t, ∃ S S' : List Int → T, Cuda.offdiag1d i0 i1 i0 i1 dx beta b0_ sgcw st_ β₁ m = .ok m₁ ∧ Cuda.v1diag1d i0 i1 ai0 ai1 alpha a_ sgcw st_ β₂ m₁ = .ok s ∧
      Cuda.adjCfDiag1d i0 i1 pi0 pi1 r side order dx beta b0_ sgcw st_ β₃ s = .ok s₁ ∧ Cuda.adjCfOffdiag1d i0 i1 pi0 pi1 r side order sgcw st_ β₄ s₁ = .ok t ∧
      F.Only [(F.st1d st_ i0 i1 sgcw)] m s ∧ F.Only [(F.st1d st_ i0 i1 sgcw)] s t ∧ F.Holds s (F.st1d st_ i0 i1 sgcw) S ∧ F.Holds t (F.st1d st_ i0 i1 sgcw) S' ∧
      F.Bridged 2 S S' (F.InBounds [(i0, i1)]) (F.layer1 pi0 side) (1 + side) (2 - side) r order (dx 0) := by
  have r1 : (r : T) + 1 ≠ 0 := by
    have e : ((r + 1 : Int) : T) ≠ 0 := Int.cast_ne_zero.2 (by omega)
    simpa using e
  have r3 : (r : T) + 3 ≠ 0 := by
    have e : ((r + 3 : Int) : T) ≠ 0 := Int.cast_ne_zero.2 (by omega)
    simpa using e
  have hqq : (order : Int) = 1 ∨ (order : Int) = 2 := by omega
  have ho : F.Args m [(F.face1d b0_ i0 i1 0)] [(F.st1d st_ i0 i1 sgcw)] := h.sub (by simp) (by simp)
  have hd : F.Args m [(F.cell1d a_ ai0 ai1 0)] [(F.st1d st_ i0 i1 sgcw)] := h.sub (by simp) (by simp)
  obtain ⟨m₁, d1, K1, u1⟩ := off_u1 (dx := dx) (beta := beta) hβ₁ hi hg hl.hside ho
  obtain ⟨s, d2, K2, D2⟩ := diag_v1_1 (alpha := alpha) hβ₂ hi hg hai (K1.args hd)
  have ho' := K2.args (K1.args ho)
  have B0 : F.Holds s (F.face1d b0_ i0 i1 0) (F.rd m (F.face1d b0_ i0 i1 0)) := fun is hi => by
    have := (ho'.ok (F.face1d b0_ i0 i1 0) (by simp)).rd hi
    rwa [F.rd_only (K1.only.trans K2.only) (ho.apart (F.st1d st_ i0 i1 sgcw) (by simp) (F.face1d b0_ i0 i1 0) (by simp)) hi] at this
  obtain ⟨s₁, d3, A3⟩ := cfdiag1_does (r := r) (k := order) (dx := dx) (beta := beta) hβ₃ hi hg hl hqq ho' fun c hc => by
    have hP := layer1_in hl hc
    rw [D2.other c hP _ (by have := hl.hside; omega) (by have := hl.hside; omega), u1 c hP, onFace1_holds hl hc B0]
  have hs : F.Args s [] [(F.st1d st_ i0 i1 sgcw)] := ho'.sub (by simp) (by simp)
  obtain ⟨t, d4, A4⟩ := cfoff1_does (r := r) (k := order) hβ₄ hi hg hl hqq (A3.args (by simp [F.st1d]) hs)
  refine ⟨m₁, s, s₁, t, F.rd s (F.st1d st_ i0 i1 sgcw), F.rd t (F.st1d st_ i0 i1 sgcw), d1, d2, d3, d4, K1.only.trans K2.only, A3.only.trans A4.only,
    fun is hi => (ho'.ok _ (by simp)).rd hi, fun is hi => (A4.ok (by simp [F.st1d]) (A3.ok (by simp [F.st1d]) (ho'.ok _ (by simp)))).rd hi, fun c hc => ?_, fun c hP hc e h0 h1 => ?_⟩
  · have hP := layer1_in hl hc
    exact bridge_row1 A3 A4 hc (fun e h0 h1 => st_in1 hP hg (by omega) (by omega)) (by have := hl.hside; omega) hq r1 r3
  · exact bridge_same A3 A4 hc (st_in1 hP hg h0 h1)

example : ∃ m₁ s s₁ t, ∃ S S' : List Int → Rat, Cuda.offdiag1d 0 3 0 3 exDx 4 ⟨1, 0⟩ 1 ⟨2, 0⟩ revBackend exRat = .ok m₁ ∧ Cuda.v1diag1d 0 3 0 3 3 ⟨0, 0⟩ 1 ⟨2, 0⟩ seqBackend m₁ = .ok s ∧
      Cuda.adjCfDiag1d 0 3 4 4 4 1 (2 : Nat) exDx 4 ⟨1, 0⟩ 1 ⟨2, 0⟩ revBackend s = .ok s₁ ∧ Cuda.adjCfOffdiag1d 0 3 4 4 4 1 (2 : Nat) 1 ⟨2, 0⟩ seqBackend s₁ = .ok t ∧
      F.Only [(F.st1d ⟨2, 0⟩ 0 3 1)] exRat s ∧ F.Only [(F.st1d ⟨2, 0⟩ 0 3 1)] s t ∧ F.Holds s (F.st1d ⟨2, 0⟩ 0 3 1) S ∧ F.Holds t (F.st1d ⟨2, 0⟩ 0 3 1) S' ∧
      F.Bridged 2 S S' (F.InBounds [(0, 3)]) (F.layer1 4 1) (1 + 1) (2 - 1) 4 2 (exDx 0) :=
  C75_v1_1d_partial revBackend_ok seqBackend_ok revBackend_ok seqBackend_ok (by decide) (by decide) (by decide) (by constructor <;> (try simp only [InInt]) <;> decide)
    (.inr rfl) (by decide) (by decide) (by ex_args)

/-- 1D, diffusion operator with constant reaction: for every polynomial of the order's degree, the rows assembled and adjusted act on the value of the coarse cell as the rows without the adjustment act on the ghost value; the rows of the other cells are the same. Missing: the first order for refinement ratios other than 2. -/
theorem C75_v2_1d_partial {i0 i1 pi0 pi1 r side sgcw : Int} {order : Nat} {dx : Nat → T} {alpha beta : T} {b0_ st_ : Ptr} {β₁ β₂ β₃ β₄ : Backend} {m : Mem T}
    (hβ₁ : ValidBackend β₁) (hβ₂ : ValidBackend β₂) (hβ₃ : ValidBackend β₃) (hβ₄ : ValidBackend β₄) (hi : i0 ≤ i1) (hg : 0 ≤ sgcw) (hl : Layer1 i0 i1 0 pi0 pi1 side)
    (hq : (order = 1 ∧ r = 2) ∨ order = 2) (h1 : r ≠ -1) (h3 : r ≠ -3)
    (h : F.Args m [(F.face1d b0_ i0 i1 0)] [(F.st1d st_ i0 i1 sgcw)]) :
    ∃ m₁ s s₁ t, ∃ S S' : List Int → T, Cuda.offdiag1d i0 i1 i0 i1 dx beta b0_ sgcw st_ β₁ m = .ok m₁ ∧ Cuda.v2diag1d i0 i1 alpha sgcw st_ β₂ m₁ = .ok s ∧
      Cuda.adjCfDiag1d i0 i1 pi0 pi1 r side order dx beta b0_ sgcw st_ β₃ s = .ok s₁ ∧ Cuda.adjCfOffdiag1d i0 i1 pi0 pi1 r side order sgcw st_ β₄ s₁ = .ok t ∧
      F.Only [(F.st1d st_ i0 i1 sgcw)] m s ∧ F.Only [(F.st1d st_ i0 i1 sgcw)] s t ∧ F.Holds s (F.st1d st_ i0 i1 sgcw) S ∧ F.Holds t (F.st1d st_ i0 i1 sgcw) S' ∧
      F.Bridged 2 S S' (F.InBounds [(i0, i1)]) (F.layer1 pi0 side) (1 + side) (2 - side) r order (dx 0) := by
  have r1 : (r : T) + 1 ≠ 0 := by
    have e : ((r + 1 : Int) : T) ≠ 0 := Int.cast_ne_zero.2 (by omega)
    simpa using e
  have r3 : (r : T) + 3 ≠ 0 := by
    have e : ((r + 3 : Int) : T) ≠ 0 := Int.cast_ne_zero.2 (by omega)
    simpa using e
  have hqq : (order : Int) = 1 ∨ (order : Int) = 2 := by omega
  have ho : F.Args m [(F.face1d b0_ i0 i1 0)] [(F.st1d st_ i0 i1 sgcw)] := h.sub (by simp) (by simp)
  have hd : F.Args m [] [(F.st1d st_ i0 i1 sgcw)] := h.sub (by simp) (by simp)
  obtain ⟨m₁, d1, K1, u1⟩ := off_u1 (dx := dx) (beta := beta) hβ₁ hi hg hl.hside ho
  obtain ⟨s, d2, K2, D2⟩ := diag_v2_1 (alpha := alpha) hβ₂ hi hg (K1.args hd)
  have ho' := K2.args (K1.args ho)
  have B0 : F.Holds s (F.face1d b0_ i0 i1 0) (F.rd m (F.face1d b0_ i0 i1 0)) := fun is hi => by
    have := (ho'.ok (F.face1d b0_ i0 i1 0) (by simp)).rd hi
    rwa [F.rd_only (K1.only.trans K2.only) (ho.apart (F.st1d st_ i0 i1 sgcw) (by simp) (F.face1d b0_ i0 i1 0) (by simp)) hi] at this
  obtain ⟨s₁, d3, A3⟩ := cfdiag1_does (r := r) (k := order) (dx := dx) (beta := beta) hβ₃ hi hg hl hqq ho' fun c hc => by
    have hP := layer1_in hl hc
    rw [D2.other c hP _ (by have := hl.hside; omega) (by have := hl.hside; omega), u1 c hP, onFace1_holds hl hc B0]
  have hs : F.Args s [] [(F.st1d st_ i0 i1 sgcw)] := ho'.sub (by simp) (by simp)
  obtain ⟨t, d4, A4⟩ := cfoff1_does (r := r) (k := order) hβ₄ hi hg hl hqq (A3.args (by simp [F.st1d]) hs)
  refine ⟨m₁, s, s₁, t, F.rd s (F.st1d st_ i0 i1 sgcw), F.rd t (F.st1d st_ i0 i1 sgcw), d1, d2, d3, d4, K1.only.trans K2.only, A3.only.trans A4.only,
    fun is hi => (ho'.ok _ (by simp)).rd hi, fun is hi => (A4.ok (by simp [F.st1d]) (A3.ok (by simp [F.st1d]) (ho'.ok _ (by simp)))).rd hi, fun c hc => ?_, fun c hP hc e h0 h1 => ?_⟩
  · have hP := layer1_in hl hc
    exact bridge_row1 A3 A4 hc (fun e h0 h1 => st_in1 hP hg (by omega) (by omega)) (by have := hl.hside; omega) hq r1 r3
  · exact bridge_same A3 A4 hc (st_in1 hP hg h0 h1)

example : ∃ m₁ s s₁ t, ∃ S S' : List Int → Rat, Cuda.offdiag1d 0 3 0 3 exDx 4 ⟨0, 0⟩ 1 ⟨1, 0⟩ revBackend exRat = .ok m₁ ∧ Cuda.v2diag1d 0 3 3 1 ⟨1, 0⟩ seqBackend m₁ = .ok s ∧
      Cuda.adjCfDiag1d 0 3 4 4 4 1 (2 : Nat) exDx 4 ⟨0, 0⟩ 1 ⟨1, 0⟩ revBackend s = .ok s₁ ∧ Cuda.adjCfOffdiag1d 0 3 4 4 4 1 (2 : Nat) 1 ⟨1, 0⟩ seqBackend s₁ = .ok t ∧
      F.Only [(F.st1d ⟨1, 0⟩ 0 3 1)] exRat s ∧ F.Only [(F.st1d ⟨1, 0⟩ 0 3 1)] s t ∧ F.Holds s (F.st1d ⟨1, 0⟩ 0 3 1) S ∧ F.Holds t (F.st1d ⟨1, 0⟩ 0 3 1) S' ∧
      F.Bridged 2 S S' (F.InBounds [(0, 3)]) (F.layer1 4 1) (1 + 1) (2 - 1) 4 2 (exDx 0) :=
  C75_v2_1d_partial revBackend_ok seqBackend_ok revBackend_ok seqBackend_ok (by decide) (by decide) (by constructor <;> (try simp only [InInt]) <;> decide)
    (.inr rfl) (by decide) (by decide) (by ex_args)

/-- 1D, Poisson operator: for every polynomial of the order's degree, the rows assembled and adjusted act on the value of the coarse cell as the rows without the adjustment act on the ghost value; the rows of the other cells are the same. Missing: the first order for refinement ratios other than 2. -/
theorem C75_poisson_1d_partial {i0 i1 pi0 pi1 r side sgcw : Int} {order : Nat} {dx : Nat → T} {beta : T} {st_ : Ptr} {β₁ β₂ β₃ β₄ : Backend} {m : Mem T}
    (hβ₁ : ValidBackend β₁) (hβ₂ : ValidBackend β₂) (hβ₃ : ValidBackend β₃) (hβ₄ : ValidBackend β₄) (hi : i0 ≤ i1) (hg : 0 ≤ sgcw) (hl : Layer1 i0 i1 0 pi0 pi1 side)
    (hq : (order = 1 ∧ r = 2) ∨ order = 2) (h1 : r ≠ -1) (h3 : r ≠ -3)
    (h : F.Args m [] [(F.st1d st_ i0 i1 sgcw)]) :
    ∃ m₁ s s₁ t, ∃ S S' : List Int → T, Cuda.poissonOffdiag1d i0 i1 dx beta sgcw st_ β₁ m = .ok m₁ ∧ Cuda.poissonDiag1d i0 i1 sgcw st_ β₂ m₁ = .ok s ∧
      Cuda.adjPoissonCfDiag1d i0 i1 pi0 pi1 r side order dx beta sgcw st_ β₃ s = .ok s₁ ∧ Cuda.adjCfOffdiag1d i0 i1 pi0 pi1 r side order sgcw st_ β₄ s₁ = .ok t ∧
      F.Only [(F.st1d st_ i0 i1 sgcw)] m s ∧ F.Only [(F.st1d st_ i0 i1 sgcw)] s t ∧ F.Holds s (F.st1d st_ i0 i1 sgcw) S ∧ F.Holds t (F.st1d st_ i0 i1 sgcw) S' ∧
      F.Bridged 2 S S' (F.InBounds [(i0, i1)]) (F.layer1 pi0 side) (1 + side) (2 - side) r order (dx 0) := by
  have r1 : (r : T) + 1 ≠ 0 := by
    have e : ((r + 1 : Int) : T) ≠ 0 := Int.cast_ne_zero.2 (by omega)
    simpa using e
  have r3 : (r : T) + 3 ≠ 0 := by
    have e : ((r + 3 : Int) : T) ≠ 0 := Int.cast_ne_zero.2 (by omega)
    simpa using e
  have hqq : (order : Int) = 1 ∨ (order : Int) = 2 := by omega
  have ho : F.Args m [] [(F.st1d st_ i0 i1 sgcw)] := h.sub (by simp) (by simp)
  have hd : F.Args m [] [(F.st1d st_ i0 i1 sgcw)] := h.sub (by simp) (by simp)
  obtain ⟨m₁, d1, K1, u1⟩ := poff_u1 (dx := dx) (beta := beta) hβ₁ hi hg hl.hside ho
  obtain ⟨s, d2, K2, D2⟩ := diag_p_1 hβ₂ hi hg (K1.args hd)
  have ho' := K2.args (K1.args ho)
  obtain ⟨s₁, d3, A3⟩ := pcfdiag1_does (r := r) (k := order) (dx := dx) (beta := beta) hβ₃ hi hg hl hqq ho' fun c hc => by
    have hP := layer1_in hl hc
    rw [D2.other c hP _ (by have := hl.hside; omega) (by have := hl.hside; omega), u1 c hP]
  have hs : F.Args s [] [(F.st1d st_ i0 i1 sgcw)] := ho'.sub (by simp) (by simp)
  obtain ⟨t, d4, A4⟩ := cfoff1_does (r := r) (k := order) hβ₄ hi hg hl hqq (A3.args (by simp [F.st1d]) hs)
  refine ⟨m₁, s, s₁, t, F.rd s (F.st1d st_ i0 i1 sgcw), F.rd t (F.st1d st_ i0 i1 sgcw), d1, d2, d3, d4, K1.only.trans K2.only, A3.only.trans A4.only,
    fun is hi => (ho'.ok _ (by simp)).rd hi, fun is hi => (A4.ok (by simp [F.st1d]) (A3.ok (by simp [F.st1d]) (ho'.ok _ (by simp)))).rd hi, fun c hc => ?_, fun c hP hc e h0 h1 => ?_⟩
  · have hP := layer1_in hl hc
    exact bridge_row1 A3 A4 hc (fun e h0 h1 => st_in1 hP hg (by omega) (by omega)) (by have := hl.hside; omega) hq r1 r3
  · exact bridge_same A3 A4 hc (st_in1 hP hg h0 h1)

example : ∃ m₁ s s₁ t, ∃ S S' : List Int → Rat, Cuda.poissonOffdiag1d 0 3 exDx 4 1 ⟨0, 0⟩ revBackend exRat = .ok m₁ ∧ Cuda.poissonDiag1d 0 3 1 ⟨0, 0⟩ seqBackend m₁ = .ok s ∧
      Cuda.adjPoissonCfDiag1d 0 3 4 4 4 1 (2 : Nat) exDx 4 1 ⟨0, 0⟩ revBackend s = .ok s₁ ∧ Cuda.adjCfOffdiag1d 0 3 4 4 4 1 (2 : Nat) 1 ⟨0, 0⟩ seqBackend s₁ = .ok t ∧
      F.Only [(F.st1d ⟨0, 0⟩ 0 3 1)] exRat s ∧ F.Only [(F.st1d ⟨0, 0⟩ 0 3 1)] s t ∧ F.Holds s (F.st1d ⟨0, 0⟩ 0 3 1) S ∧ F.Holds t (F.st1d ⟨0, 0⟩ 0 3 1) S' ∧
      F.Bridged 2 S S' (F.InBounds [(0, 3)]) (F.layer1 4 1) (1 + 1) (2 - 1) 4 2 (exDx 0) :=
  C75_poisson_1d_partial revBackend_ok seqBackend_ok revBackend_ok seqBackend_ok (by decide) (by decide) (by constructor <;> (try simp only [InInt]) <;> decide)
    (.inr rfl) (by decide) (by decide) (by ex_args)

/-- 2D, diffusion operator with cell coefficients: for every polynomial of the order's degree, the rows assembled and adjusted act on the value of the coarse cell as the rows without the adjustment act on the ghost value; the rows of the other cells are the same. Missing: the first order for refinement ratios other than 2. -/
theorem C75_v1_2d_partial {i0 j0 i1 j1 ai0 aj0 ai1 aj1 pi0 pj0 pi1 pj1 r dir side sgcw : Int} {order : Nat} {dx : Nat → T} {alpha beta : T} {a_ b0_ b1_ st_ : Ptr} {β₁ β₂ β₃ β₄ : Backend} {m : Mem T}
    (hβ₁ : ValidBackend β₁) (hβ₂ : ValidBackend β₂) (hβ₃ : ValidBackend β₃) (hβ₄ : ValidBackend β₄) (hi : i0 ≤ i1) (hj : j0 ≤ j1) (hg : 0 ≤ sgcw) (hai : ai0 ≤ i0 ∧ i1 ≤ ai1) (haj : aj0 ≤ j0 ∧ j1 ≤ aj1) (hl : Layer2 i0 j0 i1 j1 0 pi0 pj0 pi1 pj1 dir side)
    (hq : (order = 1 ∧ r = 2) ∨ order = 2) (h1 : r ≠ -1) (h3 : r ≠ -3)
    (h : F.Args m [(F.cell2d a_ ai0 aj0 ai1 aj1 0), (F.face2d0 b0_ i0 j0 i1 j1 0), (F.face2d1 b1_ i0 j0 i1 j1 0)] [(F.st2d st_ i0 j0 i1 j1 sgcw)]) :
    ∃ m₁ s s₁ t, ∃ S S' : List Int → T, Cuda.offdiag2d i0 j0 i1 j1 i0 j0 i1 j1 dx beta b0_ b1_ sgcw st_ β₁ m = .ok m₁ ∧ Cuda.v1diag2d i0 j0 i1 j1 ai0 aj0 ai1 aj1 alpha a_ sgcw st_ β₂ m₁ = .ok s ∧
      Cuda.adjCfDiag2d i0 j0 i1 j1 pi0 pj0 pi1 pj1 r dir side order dx beta b0_ b1_ sgcw st_ β₃ s = .ok s₁ ∧ Cuda.adjCfOffdiag2d i0 j0 i1 j1 pi0 pj0 pi1 pj1 r dir side order sgcw st_ β₄ s₁ = .ok t ∧
      F.Only [(F.st2d st_ i0 j0 i1 j1 sgcw)] m s ∧ F.Only [(F.st2d st_ i0 j0 i1 j1 sgcw)] s t ∧ F.Holds s (F.st2d st_ i0 j0 i1 j1 sgcw) S ∧ F.Holds t (F.st2d st_ i0 j0 i1 j1 sgcw) S' ∧
      F.Bridged 4 S S' (F.InBounds [(i0, i1), (j0, j1)]) (F.layer2 pi0 pj0 pi1 pj1 dir side) (2 * dir + 1 + side) (2 * dir + 2 - side) r order (dx dir.toNat) := by
  have r1 : (r : T) + 1 ≠ 0 := by
    have e : ((r + 1 : Int) : T) ≠ 0 := Int.cast_ne_zero.2 (by omega)
    simpa using e
  have r3 : (r : T) + 3 ≠ 0 := by
    have e : ((r + 3 : Int) : T) ≠ 0 := Int.cast_ne_zero.2 (by omega)
    simpa using e
  have hqq : (order : Int) = 1 ∨ (order : Int) = 2 := by omega
  have ho : F.Args m [(F.face2d0 b0_ i0 j0 i1 j1 0), (F.face2d1 b1_ i0 j0 i1 j1 0)] [(F.st2d st_ i0 j0 i1 j1 sgcw)] := h.sub (by simp) (by simp)
  have hd : F.Args m [(F.cell2d a_ ai0 aj0 ai1 aj1 0)] [(F.st2d st_ i0 j0 i1 j1 sgcw)] := h.sub (by simp) (by simp)
  obtain ⟨m₁, d1, K1, u1⟩ := off_u2 (dx := dx) (beta := beta) hβ₁ hi hj hg hl.hdir hl.hside ho
  obtain ⟨s, d2, K2, D2⟩ := diag_v1_2 (alpha := alpha) hβ₂ hi hj hg hai haj (K1.args hd)
  have ho' := K2.args (K1.args ho)
  have B0 : F.Holds s (F.face2d0 b0_ i0 j0 i1 j1 0) (F.rd m (F.face2d0 b0_ i0 j0 i1 j1 0)) := fun is hi => by
    have := (ho'.ok (F.face2d0 b0_ i0 j0 i1 j1 0) (by simp)).rd hi
    rwa [F.rd_only (K1.only.trans K2.only) (ho.apart (F.st2d st_ i0 j0 i1 j1 sgcw) (by simp) (F.face2d0 b0_ i0 j0 i1 j1 0) (by simp)) hi] at this
  have B1 : F.Holds s (F.face2d1 b1_ i0 j0 i1 j1 0) (F.rd m (F.face2d1 b1_ i0 j0 i1 j1 0)) := fun is hi => by
    have := (ho'.ok (F.face2d1 b1_ i0 j0 i1 j1 0) (by simp)).rd hi
    rwa [F.rd_only (K1.only.trans K2.only) (ho.apart (F.st2d st_ i0 j0 i1 j1 sgcw) (by simp) (F.face2d1 b1_ i0 j0 i1 j1 0) (by simp)) hi] at this
  obtain ⟨s₁, d3, A3⟩ := cfdiag2_does (r := r) (k := order) (dx := dx) (beta := beta) hβ₃ hi hj hg hl hqq ho' fun c hc => by
    have hP := layer2_in hl hc
    rw [D2.other c hP _ (by have := hl.hside; have := hl.hdir; omega) (by have := hl.hside; have := hl.hdir; omega), u1 c hP, onFace2_holds hl hc B0 B1]
  have hs : F.Args s [] [(F.st2d st_ i0 j0 i1 j1 sgcw)] := ho'.sub (by simp) (by simp)
  obtain ⟨t, d4, A4⟩ := cfoff2_does (r := r) (k := order) hβ₄ hi hj hg hl hqq (A3.args (by simp [F.st2d]) hs)
  refine ⟨m₁, s, s₁, t, F.rd s (F.st2d st_ i0 j0 i1 j1 sgcw), F.rd t (F.st2d st_ i0 j0 i1 j1 sgcw), d1, d2, d3, d4, K1.only.trans K2.only, A3.only.trans A4.only,
    fun is hi => (ho'.ok _ (by simp)).rd hi, fun is hi => (A4.ok (by simp [F.st2d]) (A3.ok (by simp [F.st2d]) (ho'.ok _ (by simp)))).rd hi, fun c hc => ?_, fun c hP hc e h0 h1 => ?_⟩
  · have hP := layer2_in hl hc
    exact bridge_row2 A3 A4 hc (fun e h0 h1 => st_in2 hP hg (by omega) (by omega)) (by have := hl.hside; have := hl.hdir; omega) hq r1 r3
  · exact bridge_same A3 A4 hc (st_in2 hP hg h0 h1)

example : ∃ m₁ s s₁ t, ∃ S S' : List Int → Rat, Cuda.offdiag2d 0 0 3 2 0 0 3 2 exDx 4 ⟨1, 0⟩ ⟨2, 0⟩ 1 ⟨3, 0⟩ revBackend exRat = .ok m₁ ∧ Cuda.v1diag2d 0 0 3 2 0 0 3 2 3 ⟨0, 0⟩ 1 ⟨3, 0⟩ seqBackend m₁ = .ok s ∧
      Cuda.adjCfDiag2d 0 0 3 2 0 3 3 3 4 1 1 (2 : Nat) exDx 4 ⟨1, 0⟩ ⟨2, 0⟩ 1 ⟨3, 0⟩ revBackend s = .ok s₁ ∧ Cuda.adjCfOffdiag2d 0 0 3 2 0 3 3 3 4 1 1 (2 : Nat) 1 ⟨3, 0⟩ seqBackend s₁ = .ok t ∧
      F.Only [(F.st2d ⟨3, 0⟩ 0 0 3 2 1)] exRat s ∧ F.Only [(F.st2d ⟨3, 0⟩ 0 0 3 2 1)] s t ∧ F.Holds s (F.st2d ⟨3, 0⟩ 0 0 3 2 1) S ∧ F.Holds t (F.st2d ⟨3, 0⟩ 0 0 3 2 1) S' ∧
      F.Bridged 4 S S' (F.InBounds [(0, 3), (0, 2)]) (F.layer2 0 3 3 3 1 1) (2 * 1 + 1 + 1) (2 * 1 + 2 - 1) 4 2 (exDx (1 : Int).toNat) :=
  C75_v1_2d_partial revBackend_ok seqBackend_ok revBackend_ok seqBackend_ok (by decide) (by decide) (by decide) (by decide) (by decide) (by constructor <;> (try simp only [InInt]) <;> decide)
    (.inr rfl) (by decide) (by decide) (by ex_args)

/-- 2D, diffusion operator with constant reaction: for every polynomial of the order's degree, the rows assembled and adjusted act on the value of the coarse cell as the rows without the adjustment act on the ghost value; the rows of the other cells are the same. Missing: the first order for refinement ratios other than 2. -/
theorem C75_v2_2d_partial {i0 j0 i1 j1 pi0 pj0 pi1 pj1 r dir side sgcw : Int} {order : Nat} {dx : Nat → T} {alpha beta : T} {b0_ b1_ st_ : Ptr} {β₁ β₂ β₃ β₄ : Backend} {m : Mem T}
    (hβ₁ : ValidBackend β₁) (hβ₂ : ValidBackend β₂) (hβ₃ : ValidBackend β₃) (hβ₄ : ValidBackend β₄) (hi : i0 ≤ i1) (hj : j0 ≤ j1) (hg : 0 ≤ sgcw) (hl : Layer2 i0 j0 i1 j1 0 pi0 pj0 pi1 pj1 dir side)
    (hq : (order = 1 ∧ r = 2) ∨ order = 2) (h1 : r ≠ -1) (h3 : r ≠ -3)
    (h : F.Args m [(F.face2d0 b0_ i0 j0 i1 j1 0), (F.face2d1 b1_ i0 j0 i1 j1 0)] [(F.st2d st_ i0 j0 i1 j1 sgcw)]) :
    ∃ m₁ s s₁ t, ∃ S S' : List Int → T, Cuda.offdiag2d i0 j0 i1 j1 i0 j0 i1 j1 dx beta b0_ b1_ sgcw st_ β₁ m = .ok m₁ ∧ Cuda.v2diag2d i0 j0 i1 j1 alpha sgcw st_ β₂ m₁ = .ok s ∧
      Cuda.adjCfDiag2d i0 j0 i1 j1 pi0 pj0 pi1 pj1 r dir side order dx beta b0_ b1_ sgcw st_ β₃ s = .ok s₁ ∧ Cuda.adjCfOffdiag2d i0 j0 i1 j1 pi0 pj0 pi1 pj1 r dir side order sgcw st_ β₄ s₁ = .ok t ∧
      F.Only [(F.st2d st_ i0 j0 i1 j1 sgcw)] m s ∧ F.Only [(F.st2d st_ i0 j0 i1 j1 sgcw)] s t ∧ F.Holds s (F.st2d st_ i0 j0 i1 j1 sgcw) S ∧ F.Holds t (F.st2d st_ i0 j0 i1 j1 sgcw) S' ∧
      F.Bridged 4 S S' (F.InBounds [(i0, i1), (j0, j1)]) (F.layer2 pi0 pj0 pi1 pj1 dir side) (2 * dir + 1 + side) (2 * dir + 2 - side) r order (dx dir.toNat) := by
  have r1 : (r : T) + 1 ≠ 0 := by
    have e : ((r + 1 : Int) : T) ≠ 0 := Int.cast_ne_zero.2 (by omega)
    simpa using e
  have r3 : (r : T) + 3 ≠ 0 := by
    have e : ((r + 3 : Int) : T) ≠ 0 := Int.cast_ne_zero.2 (by omega)
    simpa using e
  have hqq : (order : Int) = 1 ∨ (order : Int) = 2 := by omega
  have ho : F.Args m [(F.face2d0 b0_ i0 j0 i1 j1 0), (F.face2d1 b1_ i0 j0 i1 j1 0)] [(F.st2d st_ i0 j0 i1 j1 sgcw)] := h.sub (by simp) (by simp)
  have hd : F.Args m [] [(F.st2d st_ i0 j0 i1 j1 sgcw)] := h.sub (by simp) (by simp)
  obtain ⟨m₁, d1, K1, u1⟩ := off_u2 (dx := dx) (beta := beta) hβ₁ hi hj hg hl.hdir hl.hside ho
  obtain ⟨s, d2, K2, D2⟩ := diag_v2_2 (alpha := alpha) hβ₂ hi hj hg (K1.args hd)
  have ho' := K2.args (K1.args ho)
  have B0 : F.Holds s (F.face2d0 b0_ i0 j0 i1 j1 0) (F.rd m (F.face2d0 b0_ i0 j0 i1 j1 0)) := fun is hi => by
    have := (ho'.ok (F.face2d0 b0_ i0 j0 i1 j1 0) (by simp)).rd hi
    rwa [F.rd_only (K1.only.trans K2.only) (ho.apart (F.st2d st_ i0 j0 i1 j1 sgcw) (by simp) (F.face2d0 b0_ i0 j0 i1 j1 0) (by simp)) hi] at this
  have B1 : F.Holds s (F.face2d1 b1_ i0 j0 i1 j1 0) (F.rd m (F.face2d1 b1_ i0 j0 i1 j1 0)) := fun is hi => by
    have := (ho'.ok (F.face2d1 b1_ i0 j0 i1 j1 0) (by simp)).rd hi
    rwa [F.rd_only (K1.only.trans K2.only) (ho.apart (F.st2d st_ i0 j0 i1 j1 sgcw) (by simp) (F.face2d1 b1_ i0 j0 i1 j1 0) (by simp)) hi] at this
  obtain ⟨s₁, d3, A3⟩ := cfdiag2_does (r := r) (k := order) (dx := dx) (beta := beta) hβ₃ hi hj hg hl hqq ho' fun c hc => by
    have hP := layer2_in hl hc
    rw [D2.other c hP _ (by have := hl.hside; have := hl.hdir; omega) (by have := hl.hside; have := hl.hdir; omega), u1 c hP, onFace2_holds hl hc B0 B1]
  have hs : F.Args s [] [(F.st2d st_ i0 j0 i1 j1 sgcw)] := ho'.sub (by simp) (by simp)
  obtain ⟨t, d4, A4⟩ := cfoff2_does (r := r) (k := order) hβ₄ hi hj hg hl hqq (A3.args (by simp [F.st2d]) hs)
  refine ⟨m₁, s, s₁, t, F.rd s (F.st2d st_ i0 j0 i1 j1 sgcw), F.rd t (F.st2d st_ i0 j0 i1 j1 sgcw), d1, d2, d3, d4, K1.only.trans K2.only, A3.only.trans A4.only,
    fun is hi => (ho'.ok _ (by simp)).rd hi, fun is hi => (A4.ok (by simp [F.st2d]) (A3.ok (by simp [F.st2d]) (ho'.ok _ (by simp)))).rd hi, fun c hc => ?_, fun c hP hc e h0 h1 => ?_⟩
  · have hP := layer2_in hl hc
    exact bridge_row2 A3 A4 hc (fun e h0 h1 => st_in2 hP hg (by omega) (by omega)) (by have := hl.hside; have := hl.hdir; omega) hq r1 r3
  · exact bridge_same A3 A4 hc (st_in2 hP hg h0 h1)

example : ∃ m₁ s s₁ t, ∃ S S' : List Int → Rat, Cuda.offdiag2d 0 0 3 2 0 0 3 2 exDx 4 ⟨0, 0⟩ ⟨1, 0⟩ 1 ⟨2, 0⟩ revBackend exRat = .ok m₁ ∧ Cuda.v2diag2d 0 0 3 2 3 1 ⟨2, 0⟩ seqBackend m₁ = .ok s ∧
      Cuda.adjCfDiag2d 0 0 3 2 0 3 3 3 4 1 1 (2 : Nat) exDx 4 ⟨0, 0⟩ ⟨1, 0⟩ 1 ⟨2, 0⟩ revBackend s = .ok s₁ ∧ Cuda.adjCfOffdiag2d 0 0 3 2 0 3 3 3 4 1 1 (2 : Nat) 1 ⟨2, 0⟩ seqBackend s₁ = .ok t ∧
      F.Only [(F.st2d ⟨2, 0⟩ 0 0 3 2 1)] exRat s ∧ F.Only [(F.st2d ⟨2, 0⟩ 0 0 3 2 1)] s t ∧ F.Holds s (F.st2d ⟨2, 0⟩ 0 0 3 2 1) S ∧ F.Holds t (F.st2d ⟨2, 0⟩ 0 0 3 2 1) S' ∧
      F.Bridged 4 S S' (F.InBounds [(0, 3), (0, 2)]) (F.layer2 0 3 3 3 1 1) (2 * 1 + 1 + 1) (2 * 1 + 2 - 1) 4 2 (exDx (1 : Int).toNat) :=
  C75_v2_2d_partial revBackend_ok seqBackend_ok revBackend_ok seqBackend_ok (by decide) (by decide) (by decide) (by constructor <;> (try simp only [InInt]) <;> decide)
    (.inr rfl) (by decide) (by decide) (by ex_args)

/-- 2D, Poisson operator: for every polynomial of the order's degree, the rows assembled and adjusted act on the value of the coarse cell as the rows without the adjustment act on the ghost value; the rows of the other cells are the same. Missing: the first order for refinement ratios other than 2. -/
theorem C75_poisson_2d_partial {i0 j0 i1 j1 pi0 pj0 pi1 pj1 r dir side sgcw : Int} {order : Nat} {dx : Nat → T} {beta : T} {st_ : Ptr} {β₁ β₂ β₃ β₄ : Backend} {m : Mem T}
    (hβ₁ : ValidBackend β₁) (hβ₂ : ValidBackend β₂) (hβ₃ : ValidBackend β₃) (hβ₄ : ValidBackend β₄) (hi : i0 ≤ i1) (hj : j0 ≤ j1) (hg : 0 ≤ sgcw) (hl : Layer2 i0 j0 i1 j1 0 pi0 pj0 pi1 pj1 dir side)
    (hq : (order = 1 ∧ r = 2) ∨ order = 2) (h1 : r ≠ -1) (h3 : r ≠ -3)
    (h : F.Args m [] [(F.st2d st_ i0 j0 i1 j1 sgcw)]) :
    ∃ m₁ s s₁ t, ∃ S S' : List Int → T, Cuda.poissonOffdiag2d i0 j0 i1 j1 dx beta sgcw st_ β₁ m = .ok m₁ ∧ Cuda.poissonDiag2d i0 j0 i1 j1 sgcw st_ β₂ m₁ = .ok s ∧
      Cuda.adjPoissonCfDiag2d i0 j0 i1 j1 pi0 pj0 pi1 pj1 r dir side order dx beta sgcw st_ β₃ s = .ok s₁ ∧ Cuda.adjCfOffdiag2d i0 j0 i1 j1 pi0 pj0 pi1 pj1 r dir side order sgcw st_ β₄ s₁ = .ok t ∧
      F.Only [(F.st2d st_ i0 j0 i1 j1 sgcw)] m s ∧ F.Only [(F.st2d st_ i0 j0 i1 j1 sgcw)] s t ∧ F.Holds s (F.st2d st_ i0 j0 i1 j1 sgcw) S ∧ F.Holds t (F.st2d st_ i0 j0 i1 j1 sgcw) S' ∧
      F.Bridged 4 S S' (F.InBounds [(i0, i1), (j0, j1)]) (F.layer2 pi0 pj0 pi1 pj1 dir side) (2 * dir + 1 + side) (2 * dir + 2 - side) r order (dx dir.toNat) := by
  have r1 : (r : T) + 1 ≠ 0 := by
    have e : ((r + 1 : Int) : T) ≠ 0 := Int.cast_ne_zero.2 (by omega)
    simpa using e
  have r3 : (r : T) + 3 ≠ 0 := by
    have e : ((r + 3 : Int) : T) ≠ 0 := Int.cast_ne_zero.2 (by omega)
    simpa using e
  have hqq : (order : Int) = 1 ∨ (order : Int) = 2 := by omega
  have ho : F.Args m [] [(F.st2d st_ i0 j0 i1 j1 sgcw)] := h.sub (by simp) (by simp)
  have hd : F.Args m [] [(F.st2d st_ i0 j0 i1 j1 sgcw)] := h.sub (by simp) (by simp)
  obtain ⟨m₁, d1, K1, u1⟩ := poff_u2 (dx := dx) (beta := beta) hβ₁ hi hj hg hl.hdir hl.hside ho
  obtain ⟨s, d2, K2, D2⟩ := diag_p_2 hβ₂ hi hj hg (K1.args hd)
  have ho' := K2.args (K1.args ho)
  obtain ⟨s₁, d3, A3⟩ := pcfdiag2_does (r := r) (k := order) (dx := dx) (beta := beta) hβ₃ hi hj hg hl hqq ho' fun c hc => by
    have hP := layer2_in hl hc
    rw [D2.other c hP _ (by have := hl.hside; have := hl.hdir; omega) (by have := hl.hside; have := hl.hdir; omega), u1 c hP]
  have hs : F.Args s [] [(F.st2d st_ i0 j0 i1 j1 sgcw)] := ho'.sub (by simp) (by simp)
  obtain ⟨t, d4, A4⟩ := cfoff2_does (r := r) (k := order) hβ₄ hi hj hg hl hqq (A3.args (by simp [F.st2d]) hs)
  refine ⟨m₁, s, s₁, t, F.rd s (F.st2d st_ i0 j0 i1 j1 sgcw), F.rd t (F.st2d st_ i0 j0 i1 j1 sgcw), d1, d2, d3, d4, K1.only.trans K2.only, A3.only.trans A4.only,
    fun is hi => (ho'.ok _ (by simp)).rd hi, fun is hi => (A4.ok (by simp [F.st2d]) (A3.ok (by simp [F.st2d]) (ho'.ok _ (by simp)))).rd hi, fun c hc => ?_, fun c hP hc e h0 h1 => ?_⟩
  · have hP := layer2_in hl hc
    exact bridge_row2 A3 A4 hc (fun e h0 h1 => st_in2 hP hg (by omega) (by omega)) (by have := hl.hside; have := hl.hdir; omega) hq r1 r3
  · exact bridge_same A3 A4 hc (st_in2 hP hg h0 h1)

example : ∃ m₁ s s₁ t, ∃ S S' : List Int → Rat, Cuda.poissonOffdiag2d 0 0 3 2 exDx 4 1 ⟨0, 0⟩ revBackend exRat = .ok m₁ ∧ Cuda.poissonDiag2d 0 0 3 2 1 ⟨0, 0⟩ seqBackend m₁ = .ok s ∧
      Cuda.adjPoissonCfDiag2d 0 0 3 2 0 3 3 3 4 1 1 (2 : Nat) exDx 4 1 ⟨0, 0⟩ revBackend s = .ok s₁ ∧ Cuda.adjCfOffdiag2d 0 0 3 2 0 3 3 3 4 1 1 (2 : Nat) 1 ⟨0, 0⟩ seqBackend s₁ = .ok t ∧
      F.Only [(F.st2d ⟨0, 0⟩ 0 0 3 2 1)] exRat s ∧ F.Only [(F.st2d ⟨0, 0⟩ 0 0 3 2 1)] s t ∧ F.Holds s (F.st2d ⟨0, 0⟩ 0 0 3 2 1) S ∧ F.Holds t (F.st2d ⟨0, 0⟩ 0 0 3 2 1) S' ∧
      F.Bridged 4 S S' (F.InBounds [(0, 3), (0, 2)]) (F.layer2 0 3 3 3 1 1) (2 * 1 + 1 + 1) (2 * 1 + 2 - 1) 4 2 (exDx (1 : Int).toNat) :=
  C75_poisson_2d_partial revBackend_ok seqBackend_ok revBackend_ok seqBackend_ok (by decide) (by decide) (by decide) (by constructor <;> (try simp only [InInt]) <;> decide)
    (.inr rfl) (by decide) (by decide) (by ex_args)

/-- 3D, diffusion operator with cell coefficients: for every polynomial of the order's degree, the rows assembled and adjusted act on the value of the coarse cell as the rows without the adjustment act on the ghost value; the rows of the other cells are the same. Missing: the first order for refinement ratios other than 2. -/
theorem C75_v1_3d_partial {i0 j0 k0 i1 j1 k1 ai0 aj0 ak0 ai1 aj1 ak1 pi0 pj0 pk0 pi1 pj1 pk1 r dir side sgcw : Int} {order : Nat} {dx : Nat → T} {alpha beta : T} {a_ b0_ b1_ b2_ st_ : Ptr} {β₁ β₂ β₃ β₄ : Backend} {m : Mem T}
    (hβ₁ : ValidBackend β₁) (hβ₂ : ValidBackend β₂) (hβ₃ : ValidBackend β₃) (hβ₄ : ValidBackend β₄) (hi : i0 ≤ i1) (hj : j0 ≤ j1) (hk : k0 ≤ k1) (hg : 0 ≤ sgcw) (hai : ai0 ≤ i0 ∧ i1 ≤ ai1) (haj : aj0 ≤ j0 ∧ j1 ≤ aj1) (hak : ak0 ≤ k0 ∧ k1 ≤ ak1) (hl : Layer3 i0 j0 k0 i1 j1 k1 0 pi0 pj0 pk0 pi1 pj1 pk1 dir side)
    (hq : (order = 1 ∧ r = 2) ∨ order = 2) (h1 : r ≠ -1) (h3 : r ≠ -3)
    (h : F.Args m [(F.cell3d a_ ai0 aj0 ak0 ai1 aj1 ak1 0), (F.face3d0 b0_ i0 j0 k0 i1 j1 k1 0), (F.face3d1 b1_ i0 j0 k0 i1 j1 k1 0), (F.face3d2 b2_ i0 j0 k0 i1 j1 k1 0)] [(F.st3d st_ i0 j0 k0 i1 j1 k1 sgcw)]) :
    ∃ m₁ s s₁ t, ∃ S S' : List Int → T, Cuda.offdiag3d i0 j0 k0 i1 j1 k1 i0 j0 k0 i1 j1 k1 dx beta b0_ b1_ b2_ sgcw st_ β₁ m = .ok m₁ ∧ Cuda.v1diag3d i0 j0 k0 i1 j1 k1 ai0 aj0 ak0 ai1 aj1 ak1 alpha a_ sgcw st_ β₂ m₁ = .ok s ∧
      Cuda.adjCfDiag3d i0 j0 k0 i1 j1 k1 pi0 pj0 pk0 pi1 pj1 pk1 r dir side order dx beta b0_ b1_ b2_ sgcw st_ β₃ s = .ok s₁ ∧ Cuda.adjCfOffdiag3d i0 j0 k0 i1 j1 k1 pi0 pj0 pk0 pi1 pj1 pk1 r dir side order sgcw st_ β₄ s₁ = .ok t ∧
      F.Only [(F.st3d st_ i0 j0 k0 i1 j1 k1 sgcw)] m s ∧ F.Only [(F.st3d st_ i0 j0 k0 i1 j1 k1 sgcw)] s t ∧ F.Holds s (F.st3d st_ i0 j0 k0 i1 j1 k1 sgcw) S ∧ F.Holds t (F.st3d st_ i0 j0 k0 i1 j1 k1 sgcw) S' ∧
      F.Bridged 6 S S' (F.InBounds [(i0, i1), (j0, j1), (k0, k1)]) (F.layer3 pi0 pj0 pk0 pi1 pj1 pk1 dir side) (2 * dir + 1 + side) (2 * dir + 2 - side) r order (dx dir.toNat) := by
  have r1 : (r : T) + 1 ≠ 0 := by
    have e : ((r + 1 : Int) : T) ≠ 0 := Int.cast_ne_zero.2 (by omega)
    simpa using e
  have r3 : (r : T) + 3 ≠ 0 := by
    have e : ((r + 3 : Int) : T) ≠ 0 := Int.cast_ne_zero.2 (by omega)
    simpa using e
  have hqq : (order : Int) = 1 ∨ (order : Int) = 2 := by omega
  have ho : F.Args m [(F.face3d0 b0_ i0 j0 k0 i1 j1 k1 0), (F.face3d1 b1_ i0 j0 k0 i1 j1 k1 0), (F.face3d2 b2_ i0 j0 k0 i1 j1 k1 0)] [(F.st3d st_ i0 j0 k0 i1 j1 k1 sgcw)] := h.sub (by simp) (by simp)
  have hd : F.Args m [(F.cell3d a_ ai0 aj0 ak0 ai1 aj1 ak1 0)] [(F.st3d st_ i0 j0 k0 i1 j1 k1 sgcw)] := h.sub (by simp) (by simp)
  obtain ⟨m₁, d1, K1, u1⟩ := off_u3 (dx := dx) (beta := beta) hβ₁ hi hj hk hg hl.hdir hl.hside ho
  obtain ⟨s, d2, K2, D2⟩ := diag_v1_3 (alpha := alpha) hβ₂ hi hj hk hg hai haj hak (K1.args hd)
  have ho' := K2.args (K1.args ho)
  have B0 : F.Holds s (F.face3d0 b0_ i0 j0 k0 i1 j1 k1 0) (F.rd m (F.face3d0 b0_ i0 j0 k0 i1 j1 k1 0)) := fun is hi => by
    have := (ho'.ok (F.face3d0 b0_ i0 j0 k0 i1 j1 k1 0) (by simp)).rd hi
    rwa [F.rd_only (K1.only.trans K2.only) (ho.apart (F.st3d st_ i0 j0 k0 i1 j1 k1 sgcw) (by simp) (F.face3d0 b0_ i0 j0 k0 i1 j1 k1 0) (by simp)) hi] at this
  have B1 : F.Holds s (F.face3d1 b1_ i0 j0 k0 i1 j1 k1 0) (F.rd m (F.face3d1 b1_ i0 j0 k0 i1 j1 k1 0)) := fun is hi => by
    have := (ho'.ok (F.face3d1 b1_ i0 j0 k0 i1 j1 k1 0) (by simp)).rd hi
    rwa [F.rd_only (K1.only.trans K2.only) (ho.apart (F.st3d st_ i0 j0 k0 i1 j1 k1 sgcw) (by simp) (F.face3d1 b1_ i0 j0 k0 i1 j1 k1 0) (by simp)) hi] at this
  have B2 : F.Holds s (F.face3d2 b2_ i0 j0 k0 i1 j1 k1 0) (F.rd m (F.face3d2 b2_ i0 j0 k0 i1 j1 k1 0)) := fun is hi => by
    have := (ho'.ok (F.face3d2 b2_ i0 j0 k0 i1 j1 k1 0) (by simp)).rd hi
    rwa [F.rd_only (K1.only.trans K2.only) (ho.apart (F.st3d st_ i0 j0 k0 i1 j1 k1 sgcw) (by simp) (F.face3d2 b2_ i0 j0 k0 i1 j1 k1 0) (by simp)) hi] at this
  obtain ⟨s₁, d3, A3⟩ := cfdiag3_does (r := r) (k := order) (dx := dx) (beta := beta) hβ₃ hi hj hk hg hl hqq ho' fun c hc => by
    have hP := layer3_in hl hc
    rw [D2.other c hP _ (by have := hl.hside; have := hl.hdir; omega) (by have := hl.hside; have := hl.hdir; omega), u1 c hP, onFace3_holds hl hc B0 B1 B2]
  have hs : F.Args s [] [(F.st3d st_ i0 j0 k0 i1 j1 k1 sgcw)] := ho'.sub (by simp) (by simp)
  obtain ⟨t, d4, A4⟩ := cfoff3_does (r := r) (k := order) hβ₄ hi hj hk hg hl hqq (A3.args (by simp [F.st3d]) hs)
  refine ⟨m₁, s, s₁, t, F.rd s (F.st3d st_ i0 j0 k0 i1 j1 k1 sgcw), F.rd t (F.st3d st_ i0 j0 k0 i1 j1 k1 sgcw), d1, d2, d3, d4, K1.only.trans K2.only, A3.only.trans A4.only,
    fun is hi => (ho'.ok _ (by simp)).rd hi, fun is hi => (A4.ok (by simp [F.st3d]) (A3.ok (by simp [F.st3d]) (ho'.ok _ (by simp)))).rd hi, fun c hc => ?_, fun c hP hc e h0 h1 => ?_⟩
  · have hP := layer3_in hl hc
    exact bridge_row3 A3 A4 hc (fun e h0 h1 => st_in3 hP hg (by omega) (by omega)) (by have := hl.hside; have := hl.hdir; omega) hq r1 r3
  · exact bridge_same A3 A4 hc (st_in3 hP hg h0 h1)

example : ∃ m₁ s s₁ t, ∃ S S' : List Int → Rat, Cuda.offdiag3d 0 0 0 3 2 1 0 0 0 3 2 1 exDx 4 ⟨1, 0⟩ ⟨2, 0⟩ ⟨3, 0⟩ 1 ⟨4, 0⟩ revBackend exRat = .ok m₁ ∧ Cuda.v1diag3d 0 0 0 3 2 1 0 0 0 3 2 1 3 ⟨0, 0⟩ 1 ⟨4, 0⟩ seqBackend m₁ = .ok s ∧
      Cuda.adjCfDiag3d 0 0 0 3 2 1 0 0 2 3 2 2 4 2 1 (2 : Nat) exDx 4 ⟨1, 0⟩ ⟨2, 0⟩ ⟨3, 0⟩ 1 ⟨4, 0⟩ revBackend s = .ok s₁ ∧ Cuda.adjCfOffdiag3d 0 0 0 3 2 1 0 0 2 3 2 2 4 2 1 (2 : Nat) 1 ⟨4, 0⟩ seqBackend s₁ = .ok t ∧
      F.Only [(F.st3d ⟨4, 0⟩ 0 0 0 3 2 1 1)] exRat s ∧ F.Only [(F.st3d ⟨4, 0⟩ 0 0 0 3 2 1 1)] s t ∧ F.Holds s (F.st3d ⟨4, 0⟩ 0 0 0 3 2 1 1) S ∧ F.Holds t (F.st3d ⟨4, 0⟩ 0 0 0 3 2 1 1) S' ∧
      F.Bridged 6 S S' (F.InBounds [(0, 3), (0, 2), (0, 1)]) (F.layer3 0 0 2 3 2 2 2 1) (2 * 2 + 1 + 1) (2 * 2 + 2 - 1) 4 2 (exDx (2 : Int).toNat) :=
  C75_v1_3d_partial revBackend_ok seqBackend_ok revBackend_ok seqBackend_ok (by decide) (by decide) (by decide) (by decide) (by decide) (by decide) (by decide) (by constructor <;> (try simp only [InInt]) <;> decide)
    (.inr rfl) (by decide) (by decide) (by ex_args)

/-- 3D, diffusion operator with constant reaction: for every polynomial of the order's degree, the rows assembled and adjusted act on the value of the coarse cell as the rows without the adjustment act on the ghost value; the rows of the other cells are the same. Missing: the first order for refinement ratios other than 2. -/
theorem C75_v2_3d_partial {i0 j0 k0 i1 j1 k1 pi0 pj0 pk0 pi1 pj1 pk1 r dir side sgcw : Int} {order : Nat} {dx : Nat → T} {alpha beta : T} {b0_ b1_ b2_ st_ : Ptr} {β₁ β₂ β₃ β₄ : Backend} {m : Mem T}
    (hβ₁ : ValidBackend β₁) (hβ₂ : ValidBackend β₂) (hβ₃ : ValidBackend β₃) (hβ₄ : ValidBackend β₄) (hi : i0 ≤ i1) (hj : j0 ≤ j1) (hk : k0 ≤ k1) (hg : 0 ≤ sgcw) (hl : Layer3 i0 j0 k0 i1 j1 k1 0 pi0 pj0 pk0 pi1 pj1 pk1 dir side)
    (hq : (order = 1 ∧ r = 2) ∨ order = 2) (h1 : r ≠ -1) (h3 : r ≠ -3)
    (h : F.Args m [(F.face3d0 b0_ i0 j0 k0 i1 j1 k1 0), (F.face3d1 b1_ i0 j0 k0 i1 j1 k1 0), (F.face3d2 b2_ i0 j0 k0 i1 j1 k1 0)] [(F.st3d st_ i0 j0 k0 i1 j1 k1 sgcw)]) :
    ∃ m₁ s s₁ t, ∃ S S' : List Int → T, Cuda.offdiag3d i0 j0 k0 i1 j1 k1 i0 j0 k0 i1 j1 k1 dx beta b0_ b1_ b2_ sgcw st_ β₁ m = .ok m₁ ∧ Cuda.v2diag3d i0 j0 k0 i1 j1 k1 alpha sgcw st_ β₂ m₁ = .ok s ∧
      Cuda.adjCfDiag3d i0 j0 k0 i1 j1 k1 pi0 pj0 pk0 pi1 pj1 pk1 r dir side order dx beta b0_ b1_ b2_ sgcw st_ β₃ s = .ok s₁ ∧ Cuda.adjCfOffdiag3d i0 j0 k0 i1 j1 k1 pi0 pj0 pk0 pi1 pj1 pk1 r dir side order sgcw st_ β₄ s₁ = .ok t ∧
      F.Only [(F.st3d st_ i0 j0 k0 i1 j1 k1 sgcw)] m s ∧ F.Only [(F.st3d st_ i0 j0 k0 i1 j1 k1 sgcw)] s t ∧ F.Holds s (F.st3d st_ i0 j0 k0 i1 j1 k1 sgcw) S ∧ F.Holds t (F.st3d st_ i0 j0 k0 i1 j1 k1 sgcw) S' ∧
      F.Bridged 6 S S' (F.InBounds [(i0, i1), (j0, j1), (k0, k1)]) (F.layer3 pi0 pj0 pk0 pi1 pj1 pk1 dir side) (2 * dir + 1 + side) (2 * dir + 2 - side) r order (dx dir.toNat) := by
  have r1 : (r : T) + 1 ≠ 0 := by
    have e : ((r + 1 : Int) : T) ≠ 0 := Int.cast_ne_zero.2 (by omega)
    simpa using e
  have r3 : (r : T) + 3 ≠ 0 := by
    have e : ((r + 3 : Int) : T) ≠ 0 := Int.cast_ne_zero.2 (by omega)
    simpa using e
  have hqq : (order : Int) = 1 ∨ (order : Int) = 2 := by omega
  have ho : F.Args m [(F.face3d0 b0_ i0 j0 k0 i1 j1 k1 0), (F.face3d1 b1_ i0 j0 k0 i1 j1 k1 0), (F.face3d2 b2_ i0 j0 k0 i1 j1 k1 0)] [(F.st3d st_ i0 j0 k0 i1 j1 k1 sgcw)] := h.sub (by simp) (by simp)
  have hd : F.Args m [] [(F.st3d st_ i0 j0 k0 i1 j1 k1 sgcw)] := h.sub (by simp) (by simp)
  obtain ⟨m₁, d1, K1, u1⟩ := off_u3 (dx := dx) (beta := beta) hβ₁ hi hj hk hg hl.hdir hl.hside ho
  obtain ⟨s, d2, K2, D2⟩ := diag_v2_3 (alpha := alpha) hβ₂ hi hj hk hg (K1.args hd)
  have ho' := K2.args (K1.args ho)
  have B0 : F.Holds s (F.face3d0 b0_ i0 j0 k0 i1 j1 k1 0) (F.rd m (F.face3d0 b0_ i0 j0 k0 i1 j1 k1 0)) := fun is hi => by
    have := (ho'.ok (F.face3d0 b0_ i0 j0 k0 i1 j1 k1 0) (by simp)).rd hi
    rwa [F.rd_only (K1.only.trans K2.only) (ho.apart (F.st3d st_ i0 j0 k0 i1 j1 k1 sgcw) (by simp) (F.face3d0 b0_ i0 j0 k0 i1 j1 k1 0) (by simp)) hi] at this
  have B1 : F.Holds s (F.face3d1 b1_ i0 j0 k0 i1 j1 k1 0) (F.rd m (F.face3d1 b1_ i0 j0 k0 i1 j1 k1 0)) := fun is hi => by
    have := (ho'.ok (F.face3d1 b1_ i0 j0 k0 i1 j1 k1 0) (by simp)).rd hi
    rwa [F.rd_only (K1.only.trans K2.only) (ho.apart (F.st3d st_ i0 j0 k0 i1 j1 k1 sgcw) (by simp) (F.face3d1 b1_ i0 j0 k0 i1 j1 k1 0) (by simp)) hi] at this
  have B2 : F.Holds s (F.face3d2 b2_ i0 j0 k0 i1 j1 k1 0) (F.rd m (F.face3d2 b2_ i0 j0 k0 i1 j1 k1 0)) := fun is hi => by
    have := (ho'.ok (F.face3d2 b2_ i0 j0 k0 i1 j1 k1 0) (by simp)).rd hi
    rwa [F.rd_only (K1.only.trans K2.only) (ho.apart (F.st3d st_ i0 j0 k0 i1 j1 k1 sgcw) (by simp) (F.face3d2 b2_ i0 j0 k0 i1 j1 k1 0) (by simp)) hi] at this
  obtain ⟨s₁, d3, A3⟩ := cfdiag3_does (r := r) (k := order) (dx := dx) (beta := beta) hβ₃ hi hj hk hg hl hqq ho' fun c hc => by
    have hP := layer3_in hl hc
    rw [D2.other c hP _ (by have := hl.hside; have := hl.hdir; omega) (by have := hl.hside; have := hl.hdir; omega), u1 c hP, onFace3_holds hl hc B0 B1 B2]
  have hs : F.Args s [] [(F.st3d st_ i0 j0 k0 i1 j1 k1 sgcw)] := ho'.sub (by simp) (by simp)
  obtain ⟨t, d4, A4⟩ := cfoff3_does (r := r) (k := order) hβ₄ hi hj hk hg hl hqq (A3.args (by simp [F.st3d]) hs)
  refine ⟨m₁, s, s₁, t, F.rd s (F.st3d st_ i0 j0 k0 i1 j1 k1 sgcw), F.rd t (F.st3d st_ i0 j0 k0 i1 j1 k1 sgcw), d1, d2, d3, d4, K1.only.trans K2.only, A3.only.trans A4.only,
    fun is hi => (ho'.ok _ (by simp)).rd hi, fun is hi => (A4.ok (by simp [F.st3d]) (A3.ok (by simp [F.st3d]) (ho'.ok _ (by simp)))).rd hi, fun c hc => ?_, fun c hP hc e h0 h1 => ?_⟩
  · have hP := layer3_in hl hc
    exact bridge_row3 A3 A4 hc (fun e h0 h1 => st_in3 hP hg (by omega) (by omega)) (by have := hl.hside; have := hl.hdir; omega) hq r1 r3
  · exact bridge_same A3 A4 hc (st_in3 hP hg h0 h1)

example : ∃ m₁ s s₁ t, ∃ S S' : List Int → Rat, Cuda.offdiag3d 0 0 0 3 2 1 0 0 0 3 2 1 exDx 4 ⟨0, 0⟩ ⟨1, 0⟩ ⟨2, 0⟩ 1 ⟨3, 0⟩ revBackend exRat = .ok m₁ ∧ Cuda.v2diag3d 0 0 0 3 2 1 3 1 ⟨3, 0⟩ seqBackend m₁ = .ok s ∧
      Cuda.adjCfDiag3d 0 0 0 3 2 1 0 0 2 3 2 2 4 2 1 (2 : Nat) exDx 4 ⟨0, 0⟩ ⟨1, 0⟩ ⟨2, 0⟩ 1 ⟨3, 0⟩ revBackend s = .ok s₁ ∧ Cuda.adjCfOffdiag3d 0 0 0 3 2 1 0 0 2 3 2 2 4 2 1 (2 : Nat) 1 ⟨3, 0⟩ seqBackend s₁ = .ok t ∧
      F.Only [(F.st3d ⟨3, 0⟩ 0 0 0 3 2 1 1)] exRat s ∧ F.Only [(F.st3d ⟨3, 0⟩ 0 0 0 3 2 1 1)] s t ∧ F.Holds s (F.st3d ⟨3, 0⟩ 0 0 0 3 2 1 1) S ∧ F.Holds t (F.st3d ⟨3, 0⟩ 0 0 0 3 2 1 1) S' ∧
      F.Bridged 6 S S' (F.InBounds [(0, 3), (0, 2), (0, 1)]) (F.layer3 0 0 2 3 2 2 2 1) (2 * 2 + 1 + 1) (2 * 2 + 2 - 1) 4 2 (exDx (2 : Int).toNat) :=
  C75_v2_3d_partial revBackend_ok seqBackend_ok revBackend_ok seqBackend_ok (by decide) (by decide) (by decide) (by decide) (by constructor <;> (try simp only [InInt]) <;> decide)
    (.inr rfl) (by decide) (by decide) (by ex_args)

/-- 3D, Poisson operator: for every polynomial of the order's degree, the rows assembled and adjusted act on the value of the coarse cell as the rows without the adjustment act on the ghost value; the rows of the other cells are the same. Missing: the first order for refinement ratios other than 2. -/
theorem C75_poisson_3d_partial {i0 j0 k0 i1 j1 k1 pi0 pj0 pk0 pi1 pj1 pk1 r dir side sgcw : Int} {order : Nat} {dx : Nat → T} {beta : T} {st_ : Ptr} {β₁ β₂ β₃ β₄ : Backend} {m : Mem T}
    (hβ₁ : ValidBackend β₁) (hβ₂ : ValidBackend β₂) (hβ₃ : ValidBackend β₃) (hβ₄ : ValidBackend β₄) (hi : i0 ≤ i1) (hj : j0 ≤ j1) (hk : k0 ≤ k1) (hg : 0 ≤ sgcw) (hl : Layer3 i0 j0 k0 i1 j1 k1 0 pi0 pj0 pk0 pi1 pj1 pk1 dir side)
    (hq : (order = 1 ∧ r = 2) ∨ order = 2) (h1 : r ≠ -1) (h3 : r ≠ -3)
    (h : F.Args m [] [(F.st3d st_ i0 j0 k0 i1 j1 k1 sgcw)]) :
    ∃ m₁ s s₁ t, ∃ S S' : List Int → T, Cuda.poissonOffdiag3d i0 j0 k0 i1 j1 k1 dx beta sgcw st_ β₁ m = .ok m₁ ∧ Cuda.poissonDiag3d i0 j0 k0 i1 j1 k1 sgcw st_ β₂ m₁ = .ok s ∧
      Cuda.adjPoissonCfDiag3d i0 j0 k0 i1 j1 k1 pi0 pj0 pk0 pi1 pj1 pk1 r dir side order dx beta sgcw st_ β₃ s = .ok s₁ ∧ Cuda.adjCfOffdiag3d i0 j0 k0 i1 j1 k1 pi0 pj0 pk0 pi1 pj1 pk1 r dir side order sgcw st_ β₄ s₁ = .ok t ∧
      F.Only [(F.st3d st_ i0 j0 k0 i1 j1 k1 sgcw)] m s ∧ F.Only [(F.st3d st_ i0 j0 k0 i1 j1 k1 sgcw)] s t ∧ F.Holds s (F.st3d st_ i0 j0 k0 i1 j1 k1 sgcw) S ∧ F.Holds t (F.st3d st_ i0 j0 k0 i1 j1 k1 sgcw) S' ∧
      F.Bridged 6 S S' (F.InBounds [(i0, i1), (j0, j1), (k0, k1)]) (F.layer3 pi0 pj0 pk0 pi1 pj1 pk1 dir side) (2 * dir + 1 + side) (2 * dir + 2 - side) r order (dx dir.toNat) := by
  have r1 : (r : T) + 1 ≠ 0 := by
    have e : ((r + 1 : Int) : T) ≠ 0 := Int.cast_ne_zero.2 (by omega)
    simpa using e
  have r3 : (r : T) + 3 ≠ 0 := by
    have e : ((r + 3 : Int) : T) ≠ 0 := Int.cast_ne_zero.2 (by omega)
    simpa using e
  have hqq : (order : Int) = 1 ∨ (order : Int) = 2 := by omega
  have ho : F.Args m [] [(F.st3d st_ i0 j0 k0 i1 j1 k1 sgcw)] := h.sub (by simp) (by simp)
  have hd : F.Args m [] [(F.st3d st_ i0 j0 k0 i1 j1 k1 sgcw)] := h.sub (by simp) (by simp)
  obtain ⟨m₁, d1, K1, u1⟩ := poff_u3 (dx := dx) (beta := beta) hβ₁ hi hj hk hg hl.hdir hl.hside ho
  obtain ⟨s, d2, K2, D2⟩ := diag_p_3 hβ₂ hi hj hk hg (K1.args hd)
  have ho' := K2.args (K1.args ho)
  obtain ⟨s₁, d3, A3⟩ := pcfdiag3_does (r := r) (k := order) (dx := dx) (beta := beta) hβ₃ hi hj hk hg hl hqq ho' fun c hc => by
    have hP := layer3_in hl hc
    rw [D2.other c hP _ (by have := hl.hside; have := hl.hdir; omega) (by have := hl.hside; have := hl.hdir; omega), u1 c hP]
  have hs : F.Args s [] [(F.st3d st_ i0 j0 k0 i1 j1 k1 sgcw)] := ho'.sub (by simp) (by simp)
  obtain ⟨t, d4, A4⟩ := cfoff3_does (r := r) (k := order) hβ₄ hi hj hk hg hl hqq (A3.args (by simp [F.st3d]) hs)
  refine ⟨m₁, s, s₁, t, F.rd s (F.st3d st_ i0 j0 k0 i1 j1 k1 sgcw), F.rd t (F.st3d st_ i0 j0 k0 i1 j1 k1 sgcw), d1, d2, d3, d4, K1.only.trans K2.only, A3.only.trans A4.only,
    fun is hi => (ho'.ok _ (by simp)).rd hi, fun is hi => (A4.ok (by simp [F.st3d]) (A3.ok (by simp [F.st3d]) (ho'.ok _ (by simp)))).rd hi, fun c hc => ?_, fun c hP hc e h0 h1 => ?_⟩
  · have hP := layer3_in hl hc
    exact bridge_row3 A3 A4 hc (fun e h0 h1 => st_in3 hP hg (by omega) (by omega)) (by have := hl.hside; have := hl.hdir; omega) hq r1 r3
  · exact bridge_same A3 A4 hc (st_in3 hP hg h0 h1)

example : ∃ m₁ s s₁ t, ∃ S S' : List Int → Rat, Cuda.poissonOffdiag3d 0 0 0 3 2 1 exDx 4 1 ⟨0, 0⟩ revBackend exRat = .ok m₁ ∧ Cuda.poissonDiag3d 0 0 0 3 2 1 1 ⟨0, 0⟩ seqBackend m₁ = .ok s ∧
      Cuda.adjPoissonCfDiag3d 0 0 0 3 2 1 0 0 2 3 2 2 4 2 1 (2 : Nat) exDx 4 1 ⟨0, 0⟩ revBackend s = .ok s₁ ∧ Cuda.adjCfOffdiag3d 0 0 0 3 2 1 0 0 2 3 2 2 4 2 1 (2 : Nat) 1 ⟨0, 0⟩ seqBackend s₁ = .ok t ∧
      F.Only [(F.st3d ⟨0, 0⟩ 0 0 0 3 2 1 1)] exRat s ∧ F.Only [(F.st3d ⟨0, 0⟩ 0 0 0 3 2 1 1)] s t ∧ F.Holds s (F.st3d ⟨0, 0⟩ 0 0 0 3 2 1 1) S ∧ F.Holds t (F.st3d ⟨0, 0⟩ 0 0 0 3 2 1 1) S' ∧
      F.Bridged 6 S S' (F.InBounds [(0, 3), (0, 2), (0, 1)]) (F.layer3 0 0 2 3 2 2 2 1) (2 * 2 + 1 + 1) (2 * 2 + 2 - 1) 4 2 (exDx (2 : Int).toNat) :=
  C75_poisson_3d_partial revBackend_ok seqBackend_ok revBackend_ok seqBackend_ok (by decide) (by decide) (by decide) (by decide) (by constructor <;> (try simp only [InInt]) <;> decide)
    (.inr rfl) (by decide) (by decide) (by ex_args)

/-- 1D, diffusion operator, first order with refinement ratio 4: the kernels take one third of the fine cell and two thirds of the coarse cell as for ratio 2 (src/cuda/cd_stencil_1d_cuda.cpp: `adj_cf_offdiag`, `adj_cf_diag`), so the rows differ on a line. -/
theorem C75_v2_1d_ratio4_false : F.Args (exUnit 1) [(F.face1d ⟨0, 0⟩ 0 1 0)] [(F.st1d ⟨1, 0⟩ 0 1 0)] ∧ ∃ m₁ s s₁ t, ∃ S S' : List Int → Rat,
      Cuda.offdiag1d 0 1 0 1 (fun _ => 1) 1 ⟨0, 0⟩ 0 ⟨1, 0⟩ seqBackend (exUnit 1) = .ok m₁ ∧ Cuda.v2diag1d 0 1 1 0 ⟨1, 0⟩ seqBackend m₁ = .ok s ∧ Cuda.adjCfDiag1d 0 1 (-1) (-1) 4 0 1 (fun _ => 1) 1 ⟨0, 0⟩ 0 ⟨1, 0⟩ seqBackend s = .ok s₁ ∧ Cuda.adjCfOffdiag1d 0 1 (-1) (-1) 4 0 1 0 ⟨1, 0⟩ seqBackend s₁ = .ok t ∧
      (∀ e : Int, 0 ≤ e → e ≤ 2 → F.El s (F.st1d ⟨1, 0⟩ 0 1 0) (e :: [0]) (S (e :: [0]))) ∧ (∀ e : Int, 0 ≤ e → e ≤ 2 → F.El t (F.st1d ⟨1, 0⟩ 0 1 0) (e :: [0]) (S' (e :: [0]))) ∧
      ¬ F.Bridges 2 S S' [0] 1 2 4 1 1 := by
  have h1 : (Cuda.offdiag1d 0 1 0 1 (fun _ => 1) 1 ⟨0, 0⟩ 0 ⟨1, 0⟩ seqBackend (exUnit 1) >>= fun m₁ => Cuda.v2diag1d 0 1 1 0 ⟨1, 0⟩ seqBackend m₁).toOption.map (rowAt (F.st1d ⟨1, 0⟩ 0 1 0) 2 [0]) = some [some (3), some (-1), some (-1)] := by decide +kernel
  have h2 : (Cuda.offdiag1d 0 1 0 1 (fun _ => 1) 1 ⟨0, 0⟩ 0 ⟨1, 0⟩ seqBackend (exUnit 1) >>= fun m₁ => Cuda.v2diag1d 0 1 1 0 ⟨1, 0⟩ seqBackend m₁ >>= fun s => Cuda.adjCfDiag1d 0 1 (-1) (-1) 4 0 1 (fun _ => 1) 1 ⟨0, 0⟩ 0 ⟨1, 0⟩ seqBackend s >>= fun s₁ => Cuda.adjCfOffdiag1d 0 1 (-1) (-1) 4 0 1 0 ⟨1, 0⟩ seqBackend s₁).toOption.map (rowAt (F.st1d ⟨1, 0⟩ 0 1 0) 2 [0]) = some [some (8 / 3), some (-2 / 3), some (-1)] := by decide +kernel
  obtain ⟨s, e1, r1⟩ := row_run h1
  obtain ⟨t, e2, r2⟩ := row_run h2
  obtain ⟨m₁, e3, e1⟩ := row_bind e1
  obtain ⟨m₂, e4, e2⟩ := row_bind e2
  obtain rfl : m₁ = m₂ := Except.ok.inj (e3.symm.trans e4)
  obtain ⟨s', e5, e2⟩ := row_bind e2
  obtain rfl : s = s' := Except.ok.inj (e1.symm.trans e5)
  obtain ⟨s₁, e6, e7⟩ := row_bind e2
  exact ⟨exUnit_args (by ex_args), m₁, s, s₁, t, tab [3, -1, -1], tab [8 / 3, -2 / 3, -1], e3, e1, e6, e7,
    row_el rfl r1 (fun e h0 h1 => by simp only [F.st1d, F.InBounds, and_true]; omega), row_el rfl r2 (fun e h0 h1 => by simp only [F.st1d, F.InBounds, and_true]; omega), not_bridge 0 (by decide +kernel) (by decide)⟩

/-- 1D, Poisson operator, first order with refinement ratio 4: the kernels take one third of the fine cell and two thirds of the coarse cell as for ratio 2 (src/cuda/cd_stencil_1d_cuda.cpp: `adj_cf_offdiag`, `adj_poisson_cf_diag`), so the rows differ on a line. -/
theorem C75_poisson_1d_ratio4_false : F.Args (exUnit 0) [] [(F.st1d ⟨0, 0⟩ 0 1 0)] ∧ ∃ m₁ s s₁ t, ∃ S S' : List Int → Rat,
      Cuda.poissonOffdiag1d 0 1 (fun _ => 1) 1 0 ⟨0, 0⟩ seqBackend (exUnit 0) = .ok m₁ ∧ Cuda.poissonDiag1d 0 1 0 ⟨0, 0⟩ seqBackend m₁ = .ok s ∧ Cuda.adjPoissonCfDiag1d 0 1 (-1) (-1) 4 0 1 (fun _ => 1) 1 0 ⟨0, 0⟩ seqBackend s = .ok s₁ ∧ Cuda.adjCfOffdiag1d 0 1 (-1) (-1) 4 0 1 0 ⟨0, 0⟩ seqBackend s₁ = .ok t ∧
      (∀ e : Int, 0 ≤ e → e ≤ 2 → F.El s (F.st1d ⟨0, 0⟩ 0 1 0) (e :: [0]) (S (e :: [0]))) ∧ (∀ e : Int, 0 ≤ e → e ≤ 2 → F.El t (F.st1d ⟨0, 0⟩ 0 1 0) (e :: [0]) (S' (e :: [0]))) ∧
      ¬ F.Bridges 2 S S' [0] 1 2 4 1 1 := by
  have h1 : (Cuda.poissonOffdiag1d 0 1 (fun _ => 1) 1 0 ⟨0, 0⟩ seqBackend (exUnit 0) >>= fun m₁ => Cuda.poissonDiag1d 0 1 0 ⟨0, 0⟩ seqBackend m₁).toOption.map (rowAt (F.st1d ⟨0, 0⟩ 0 1 0) 2 [0]) = some [some (2), some (-1), some (-1)] := by decide +kernel
  have h2 : (Cuda.poissonOffdiag1d 0 1 (fun _ => 1) 1 0 ⟨0, 0⟩ seqBackend (exUnit 0) >>= fun m₁ => Cuda.poissonDiag1d 0 1 0 ⟨0, 0⟩ seqBackend m₁ >>= fun s => Cuda.adjPoissonCfDiag1d 0 1 (-1) (-1) 4 0 1 (fun _ => 1) 1 0 ⟨0, 0⟩ seqBackend s >>= fun s₁ => Cuda.adjCfOffdiag1d 0 1 (-1) (-1) 4 0 1 0 ⟨0, 0⟩ seqBackend s₁).toOption.map (rowAt (F.st1d ⟨0, 0⟩ 0 1 0) 2 [0]) = some [some (5 / 3), some (-2 / 3), some (-1)] := by decide +kernel
  obtain ⟨s, e1, r1⟩ := row_run h1
  obtain ⟨t, e2, r2⟩ := row_run h2
  obtain ⟨m₁, e3, e1⟩ := row_bind e1
  obtain ⟨m₂, e4, e2⟩ := row_bind e2
  obtain rfl : m₁ = m₂ := Except.ok.inj (e3.symm.trans e4)
  obtain ⟨s', e5, e2⟩ := row_bind e2
  obtain rfl : s = s' := Except.ok.inj (e1.symm.trans e5)
  obtain ⟨s₁, e6, e7⟩ := row_bind e2
  exact ⟨exUnit_args (by ex_args), m₁, s, s₁, t, tab [2, -1, -1], tab [5 / 3, -2 / 3, -1], e3, e1, e6, e7,
    row_el rfl r1 (fun e h0 h1 => by simp only [F.st1d, F.InBounds, and_true]; omega), row_el rfl r2 (fun e h0 h1 => by simp only [F.st1d, F.InBounds, and_true]; omega), not_bridge 0 (by decide +kernel) (by decide)⟩

/-- 2D, diffusion operator, first order with refinement ratio 4: the kernels take one third of the fine cell and two thirds of the coarse cell as for ratio 2 (src/cuda/cd_stencil_2d_cuda.cpp: `adj_cf_offdiag`, `adj_cf_diag`), so the rows differ on a line. -/
theorem C75_v2_2d_ratio4_false : F.Args (exUnit 2) [(F.face2d0 ⟨0, 0⟩ 0 0 1 1 0), (F.face2d1 ⟨1, 0⟩ 0 0 1 1 0)] [(F.st2d ⟨2, 0⟩ 0 0 1 1 0)] ∧ ∃ m₁ s s₁ t, ∃ S S' : List Int → Rat,
      Cuda.offdiag2d 0 0 1 1 0 0 1 1 (fun _ => 1) 1 ⟨0, 0⟩ ⟨1, 0⟩ 0 ⟨2, 0⟩ seqBackend (exUnit 2) = .ok m₁ ∧ Cuda.v2diag2d 0 0 1 1 1 0 ⟨2, 0⟩ seqBackend m₁ = .ok s ∧ Cuda.adjCfDiag2d 0 0 1 1 0 (-1) 1 (-1) 4 1 0 1 (fun _ => 1) 1 ⟨0, 0⟩ ⟨1, 0⟩ 0 ⟨2, 0⟩ seqBackend s = .ok s₁ ∧ Cuda.adjCfOffdiag2d 0 0 1 1 0 (-1) 1 (-1) 4 1 0 1 0 ⟨2, 0⟩ seqBackend s₁ = .ok t ∧
      (∀ e : Int, 0 ≤ e → e ≤ 4 → F.El s (F.st2d ⟨2, 0⟩ 0 0 1 1 0) (e :: [0, 0]) (S (e :: [0, 0]))) ∧ (∀ e : Int, 0 ≤ e → e ≤ 4 → F.El t (F.st2d ⟨2, 0⟩ 0 0 1 1 0) (e :: [0, 0]) (S' (e :: [0, 0]))) ∧
      ¬ F.Bridges 4 S S' [0, 0] 3 4 4 1 1 := by
  have h1 : (Cuda.offdiag2d 0 0 1 1 0 0 1 1 (fun _ => 1) 1 ⟨0, 0⟩ ⟨1, 0⟩ 0 ⟨2, 0⟩ seqBackend (exUnit 2) >>= fun m₁ => Cuda.v2diag2d 0 0 1 1 1 0 ⟨2, 0⟩ seqBackend m₁).toOption.map (rowAt (F.st2d ⟨2, 0⟩ 0 0 1 1 0) 4 [0, 0]) = some [some (5), some (-1), some (-1), some (-1), some (-1)] := by decide +kernel
  have h2 : (Cuda.offdiag2d 0 0 1 1 0 0 1 1 (fun _ => 1) 1 ⟨0, 0⟩ ⟨1, 0⟩ 0 ⟨2, 0⟩ seqBackend (exUnit 2) >>= fun m₁ => Cuda.v2diag2d 0 0 1 1 1 0 ⟨2, 0⟩ seqBackend m₁ >>= fun s => Cuda.adjCfDiag2d 0 0 1 1 0 (-1) 1 (-1) 4 1 0 1 (fun _ => 1) 1 ⟨0, 0⟩ ⟨1, 0⟩ 0 ⟨2, 0⟩ seqBackend s >>= fun s₁ => Cuda.adjCfOffdiag2d 0 0 1 1 0 (-1) 1 (-1) 4 1 0 1 0 ⟨2, 0⟩ seqBackend s₁).toOption.map (rowAt (F.st2d ⟨2, 0⟩ 0 0 1 1 0) 4 [0, 0]) = some [some (14 / 3), some (-1), some (-1), some (-2 / 3), some (-1)] := by decide +kernel
  obtain ⟨s, e1, r1⟩ := row_run h1
  obtain ⟨t, e2, r2⟩ := row_run h2
  obtain ⟨m₁, e3, e1⟩ := row_bind e1
  obtain ⟨m₂, e4, e2⟩ := row_bind e2
  obtain rfl : m₁ = m₂ := Except.ok.inj (e3.symm.trans e4)
  obtain ⟨s', e5, e2⟩ := row_bind e2
  obtain rfl : s = s' := Except.ok.inj (e1.symm.trans e5)
  obtain ⟨s₁, e6, e7⟩ := row_bind e2
  exact ⟨exUnit_args (by ex_args), m₁, s, s₁, t, tab [5, -1, -1, -1, -1], tab [14 / 3, -1, -1, -2 / 3, -1], e3, e1, e6, e7,
    row_el rfl r1 (fun e h0 h1 => by simp only [F.st2d, F.InBounds, and_true]; omega), row_el rfl r2 (fun e h0 h1 => by simp only [F.st2d, F.InBounds, and_true]; omega), not_bridge 0 (by decide +kernel) (by decide)⟩

/-- 2D, Poisson operator, first order with refinement ratio 4: the kernels take one third of the fine cell and two thirds of the coarse cell as for ratio 2 (src/cuda/cd_stencil_2d_cuda.cpp: `adj_cf_offdiag`, `adj_poisson_cf_diag`), so the rows differ on a line. -/
theorem C75_poisson_2d_ratio4_false : F.Args (exUnit 0) [] [(F.st2d ⟨0, 0⟩ 0 0 1 1 0)] ∧ ∃ m₁ s s₁ t, ∃ S S' : List Int → Rat,
      Cuda.poissonOffdiag2d 0 0 1 1 (fun _ => 1) 1 0 ⟨0, 0⟩ seqBackend (exUnit 0) = .ok m₁ ∧ Cuda.poissonDiag2d 0 0 1 1 0 ⟨0, 0⟩ seqBackend m₁ = .ok s ∧ Cuda.adjPoissonCfDiag2d 0 0 1 1 (-1) 0 (-1) 1 4 0 0 1 (fun _ => 1) 1 0 ⟨0, 0⟩ seqBackend s = .ok s₁ ∧ Cuda.adjCfOffdiag2d 0 0 1 1 (-1) 0 (-1) 1 4 0 0 1 0 ⟨0, 0⟩ seqBackend s₁ = .ok t ∧
      (∀ e : Int, 0 ≤ e → e ≤ 4 → F.El s (F.st2d ⟨0, 0⟩ 0 0 1 1 0) (e :: [0, 0]) (S (e :: [0, 0]))) ∧ (∀ e : Int, 0 ≤ e → e ≤ 4 → F.El t (F.st2d ⟨0, 0⟩ 0 0 1 1 0) (e :: [0, 0]) (S' (e :: [0, 0]))) ∧
      ¬ F.Bridges 4 S S' [0, 0] 1 2 4 1 1 := by
  have h1 : (Cuda.poissonOffdiag2d 0 0 1 1 (fun _ => 1) 1 0 ⟨0, 0⟩ seqBackend (exUnit 0) >>= fun m₁ => Cuda.poissonDiag2d 0 0 1 1 0 ⟨0, 0⟩ seqBackend m₁).toOption.map (rowAt (F.st2d ⟨0, 0⟩ 0 0 1 1 0) 4 [0, 0]) = some [some (4), some (-1), some (-1), some (-1), some (-1)] := by decide +kernel
  have h2 : (Cuda.poissonOffdiag2d 0 0 1 1 (fun _ => 1) 1 0 ⟨0, 0⟩ seqBackend (exUnit 0) >>= fun m₁ => Cuda.poissonDiag2d 0 0 1 1 0 ⟨0, 0⟩ seqBackend m₁ >>= fun s => Cuda.adjPoissonCfDiag2d 0 0 1 1 (-1) 0 (-1) 1 4 0 0 1 (fun _ => 1) 1 0 ⟨0, 0⟩ seqBackend s >>= fun s₁ => Cuda.adjCfOffdiag2d 0 0 1 1 (-1) 0 (-1) 1 4 0 0 1 0 ⟨0, 0⟩ seqBackend s₁).toOption.map (rowAt (F.st2d ⟨0, 0⟩ 0 0 1 1 0) 4 [0, 0]) = some [some (11 / 3), some (-2 / 3), some (-1), some (-1), some (-1)] := by decide +kernel
  obtain ⟨s, e1, r1⟩ := row_run h1
  obtain ⟨t, e2, r2⟩ := row_run h2
  obtain ⟨m₁, e3, e1⟩ := row_bind e1
  obtain ⟨m₂, e4, e2⟩ := row_bind e2
  obtain rfl : m₁ = m₂ := Except.ok.inj (e3.symm.trans e4)
  obtain ⟨s', e5, e2⟩ := row_bind e2
  obtain rfl : s = s' := Except.ok.inj (e1.symm.trans e5)
  obtain ⟨s₁, e6, e7⟩ := row_bind e2
  exact ⟨exUnit_args (by ex_args), m₁, s, s₁, t, tab [4, -1, -1, -1, -1], tab [11 / 3, -2 / 3, -1, -1, -1], e3, e1, e6, e7,
    row_el rfl r1 (fun e h0 h1 => by simp only [F.st2d, F.InBounds, and_true]; omega), row_el rfl r2 (fun e h0 h1 => by simp only [F.st2d, F.InBounds, and_true]; omega), not_bridge 0 (by decide +kernel) (by decide)⟩

/-- 3D, diffusion operator, first order with refinement ratio 4: the kernels take one third of the fine cell and two thirds of the coarse cell as for ratio 2 (src/cuda/cd_stencil_3d_cuda.cpp: `adj_cf_offdiag`, `adj_cf_diag`), so the rows differ on a line. -/
theorem C75_v2_3d_ratio4_false : F.Args (exUnit 3) [(F.face3d0 ⟨0, 0⟩ 0 0 0 1 1 1 0), (F.face3d1 ⟨1, 0⟩ 0 0 0 1 1 1 0), (F.face3d2 ⟨2, 0⟩ 0 0 0 1 1 1 0)] [(F.st3d ⟨3, 0⟩ 0 0 0 1 1 1 0)] ∧ ∃ m₁ s s₁ t, ∃ S S' : List Int → Rat,
      Cuda.offdiag3d 0 0 0 1 1 1 0 0 0 1 1 1 (fun _ => 1) 1 ⟨0, 0⟩ ⟨1, 0⟩ ⟨2, 0⟩ 0 ⟨3, 0⟩ seqBackend (exUnit 3) = .ok m₁ ∧ Cuda.v2diag3d 0 0 0 1 1 1 1 0 ⟨3, 0⟩ seqBackend m₁ = .ok s ∧ Cuda.adjCfDiag3d 0 0 0 1 1 1 0 0 (-1) 1 1 (-1) 4 2 0 1 (fun _ => 1) 1 ⟨0, 0⟩ ⟨1, 0⟩ ⟨2, 0⟩ 0 ⟨3, 0⟩ seqBackend s = .ok s₁ ∧ Cuda.adjCfOffdiag3d 0 0 0 1 1 1 0 0 (-1) 1 1 (-1) 4 2 0 1 0 ⟨3, 0⟩ seqBackend s₁ = .ok t ∧
      (∀ e : Int, 0 ≤ e → e ≤ 6 → F.El s (F.st3d ⟨3, 0⟩ 0 0 0 1 1 1 0) (e :: [0, 0, 0]) (S (e :: [0, 0, 0]))) ∧ (∀ e : Int, 0 ≤ e → e ≤ 6 → F.El t (F.st3d ⟨3, 0⟩ 0 0 0 1 1 1 0) (e :: [0, 0, 0]) (S' (e :: [0, 0, 0]))) ∧
      ¬ F.Bridges 6 S S' [0, 0, 0] 5 6 4 1 1 := by
  have h1 : (Cuda.offdiag3d 0 0 0 1 1 1 0 0 0 1 1 1 (fun _ => 1) 1 ⟨0, 0⟩ ⟨1, 0⟩ ⟨2, 0⟩ 0 ⟨3, 0⟩ seqBackend (exUnit 3) >>= fun m₁ => Cuda.v2diag3d 0 0 0 1 1 1 1 0 ⟨3, 0⟩ seqBackend m₁).toOption.map (rowAt (F.st3d ⟨3, 0⟩ 0 0 0 1 1 1 0) 6 [0, 0, 0]) = some [some (7), some (-1), some (-1), some (-1), some (-1), some (-1), some (-1)] := by decide +kernel
  have h2 : (Cuda.offdiag3d 0 0 0 1 1 1 0 0 0 1 1 1 (fun _ => 1) 1 ⟨0, 0⟩ ⟨1, 0⟩ ⟨2, 0⟩ 0 ⟨3, 0⟩ seqBackend (exUnit 3) >>= fun m₁ => Cuda.v2diag3d 0 0 0 1 1 1 1 0 ⟨3, 0⟩ seqBackend m₁ >>= fun s => Cuda.adjCfDiag3d 0 0 0 1 1 1 0 0 (-1) 1 1 (-1) 4 2 0 1 (fun _ => 1) 1 ⟨0, 0⟩ ⟨1, 0⟩ ⟨2, 0⟩ 0 ⟨3, 0⟩ seqBackend s >>= fun s₁ => Cuda.adjCfOffdiag3d 0 0 0 1 1 1 0 0 (-1) 1 1 (-1) 4 2 0 1 0 ⟨3, 0⟩ seqBackend s₁).toOption.map (rowAt (F.st3d ⟨3, 0⟩ 0 0 0 1 1 1 0) 6 [0, 0, 0]) = some [some (20 / 3), some (-1), some (-1), some (-1), some (-1), some (-2 / 3), some (-1)] := by decide +kernel
  obtain ⟨s, e1, r1⟩ := row_run h1
  obtain ⟨t, e2, r2⟩ := row_run h2
  obtain ⟨m₁, e3, e1⟩ := row_bind e1
  obtain ⟨m₂, e4, e2⟩ := row_bind e2
  obtain rfl : m₁ = m₂ := Except.ok.inj (e3.symm.trans e4)
  obtain ⟨s', e5, e2⟩ := row_bind e2
  obtain rfl : s = s' := Except.ok.inj (e1.symm.trans e5)
  obtain ⟨s₁, e6, e7⟩ := row_bind e2
  exact ⟨exUnit_args (by ex_args), m₁, s, s₁, t, tab [7, -1, -1, -1, -1, -1, -1], tab [20 / 3, -1, -1, -1, -1, -2 / 3, -1], e3, e1, e6, e7,
    row_el rfl r1 (fun e h0 h1 => by simp only [F.st3d, F.InBounds, and_true]; omega), row_el rfl r2 (fun e h0 h1 => by simp only [F.st3d, F.InBounds, and_true]; omega), not_bridge 0 (by decide +kernel) (by decide)⟩

/-- 3D, Poisson operator, first order with refinement ratio 4: the kernels take one third of the fine cell and two thirds of the coarse cell as for ratio 2 (src/cuda/cd_stencil_3d_cuda.cpp: `adj_cf_offdiag`, `adj_poisson_cf_diag`), so the rows differ on a line. -/
theorem C75_poisson_3d_ratio4_false : F.Args (exUnit 0) [] [(F.st3d ⟨0, 0⟩ 0 0 0 1 1 1 0)] ∧ ∃ m₁ s s₁ t, ∃ S S' : List Int → Rat,
      Cuda.poissonOffdiag3d 0 0 0 1 1 1 (fun _ => 1) 1 0 ⟨0, 0⟩ seqBackend (exUnit 0) = .ok m₁ ∧ Cuda.poissonDiag3d 0 0 0 1 1 1 0 ⟨0, 0⟩ seqBackend m₁ = .ok s ∧ Cuda.adjPoissonCfDiag3d 0 0 0 1 1 1 0 (-1) 0 1 (-1) 1 4 1 0 1 (fun _ => 1) 1 0 ⟨0, 0⟩ seqBackend s = .ok s₁ ∧ Cuda.adjCfOffdiag3d 0 0 0 1 1 1 0 (-1) 0 1 (-1) 1 4 1 0 1 0 ⟨0, 0⟩ seqBackend s₁ = .ok t ∧
      (∀ e : Int, 0 ≤ e → e ≤ 6 → F.El s (F.st3d ⟨0, 0⟩ 0 0 0 1 1 1 0) (e :: [0, 0, 0]) (S (e :: [0, 0, 0]))) ∧ (∀ e : Int, 0 ≤ e → e ≤ 6 → F.El t (F.st3d ⟨0, 0⟩ 0 0 0 1 1 1 0) (e :: [0, 0, 0]) (S' (e :: [0, 0, 0]))) ∧
      ¬ F.Bridges 6 S S' [0, 0, 0] 3 4 4 1 1 := by
  have h1 : (Cuda.poissonOffdiag3d 0 0 0 1 1 1 (fun _ => 1) 1 0 ⟨0, 0⟩ seqBackend (exUnit 0) >>= fun m₁ => Cuda.poissonDiag3d 0 0 0 1 1 1 0 ⟨0, 0⟩ seqBackend m₁).toOption.map (rowAt (F.st3d ⟨0, 0⟩ 0 0 0 1 1 1 0) 6 [0, 0, 0]) = some [some (6), some (-1), some (-1), some (-1), some (-1), some (-1), some (-1)] := by decide +kernel
  have h2 : (Cuda.poissonOffdiag3d 0 0 0 1 1 1 (fun _ => 1) 1 0 ⟨0, 0⟩ seqBackend (exUnit 0) >>= fun m₁ => Cuda.poissonDiag3d 0 0 0 1 1 1 0 ⟨0, 0⟩ seqBackend m₁ >>= fun s => Cuda.adjPoissonCfDiag3d 0 0 0 1 1 1 0 (-1) 0 1 (-1) 1 4 1 0 1 (fun _ => 1) 1 0 ⟨0, 0⟩ seqBackend s >>= fun s₁ => Cuda.adjCfOffdiag3d 0 0 0 1 1 1 0 (-1) 0 1 (-1) 1 4 1 0 1 0 ⟨0, 0⟩ seqBackend s₁).toOption.map (rowAt (F.st3d ⟨0, 0⟩ 0 0 0 1 1 1 0) 6 [0, 0, 0]) = some [some (17 / 3), some (-1), some (-1), some (-2 / 3), some (-1), some (-1), some (-1)] := by decide +kernel
  obtain ⟨s, e1, r1⟩ := row_run h1
  obtain ⟨t, e2, r2⟩ := row_run h2
  obtain ⟨m₁, e3, e1⟩ := row_bind e1
  obtain ⟨m₂, e4, e2⟩ := row_bind e2
  obtain rfl : m₁ = m₂ := Except.ok.inj (e3.symm.trans e4)
  obtain ⟨s', e5, e2⟩ := row_bind e2
  obtain rfl : s = s' := Except.ok.inj (e1.symm.trans e5)
  obtain ⟨s₁, e6, e7⟩ := row_bind e2
  exact ⟨exUnit_args (by ex_args), m₁, s, s₁, t, tab [6, -1, -1, -1, -1, -1, -1], tab [17 / 3, -1, -1, -2 / 3, -1, -1, -1], e3, e1, e6, e7,
    row_el rfl r1 (fun e h0 h1 => by simp only [F.st3d, F.InBounds, and_true]; omega), row_el rfl r2 (fun e h0 h1 => by simp only [F.st3d, F.InBounds, and_true]; omega), not_bridge 0 (by decide +kernel) (by decide)⟩

end Verif
