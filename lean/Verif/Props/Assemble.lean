import Verif.Lemmas.AssembleEx

/-
C61: the coefficients assembled by the stencil kernels form an M-matrix.
-/

set_option linter.unusedVariables false
set_option linter.unusedSimpArgs false
set_option linter.unusedTactic false
set_option linter.unreachableTactic false

namespace Verif
open Spec

variable {T : Type} [Field T] [LinearOrder T] [IsStrictOrderedRing T]

/-- 1D, diffusion operator with cell coefficients: positive diagonal, negative neighbours, row sum the reaction term. -/
theorem C61_v1_1d {i0 i1 agcw sgcw : Int} {alpha beta : T} {dx : Nat → T} {a b0 st : Ptr} {β3 β4 : Backend} {m : Mem T} {A B0 : List Int → T} 
    (hβ3 : ValidBackend β3) (hβ4 : ValidBackend β4) (hi : i0 ≤ i1) (hagcw : 0 ≤ agcw) (hs : 0 ≤ sgcw) (he : F.Elliptic1 i0 i1 alpha beta dx A B0)
    (h : F.Args m [(F.cell1d a i0 i1 agcw), (F.face1d b0 i0 i1 0)] [(F.st1d st i0 i1 sgcw)]) (hA : F.Holds m (F.cell1d a i0 i1 agcw) A) (hB0 : F.Holds m (F.face1d b0 i0 i1 0) B0) :
    ∃ s1 s2, ∃ S : List Int → T, Cuda.offdiag1d i0 i1 i0 i1 dx beta b0 sgcw st β3 m = .ok s1 ∧ Cuda.v1diag1d i0 i1 (i0 - agcw) (i1 + agcw) alpha a sgcw st β4 s1 = .ok s2 ∧ F.Only [(F.st1d st i0 i1 sgcw)] m s2 ∧
      F.Holds s2 (F.st1d st i0 i1 sgcw) S ∧ ∀ i, i0 ≤ i → i ≤ i1 → 0 < S [0, i] ∧ S [1, i] < 0 ∧ S [2, i] < 0 ∧
        S [0, i] + S [1, i] + S [2, i] = alpha * A [i] := by
  obtain ⟨s1, s2, S, c1, c2, ho, hS, hc⟩ := asm_v1_1 (alpha := alpha) (beta := beta) (dx := dx) hβ3 hβ4 hi hagcw hs h hA hB0
  refine ⟨s1, s2, S, c1, c2, ho, hS, fun i h0 h1 => ?_⟩
  obtain ⟨g0, g1, g2⟩ := (hc i h0 h1).sign he h0 h1
  have e := (hc i h0 h1).c0
  exact ⟨g0, g1, g2, by rw [e]; ring⟩

example : ∃ s1 s2, ∃ S : List Int → Rat, Cuda.offdiag1d 0 3 0 3 exDx 2 ⟨2, 0⟩ 1 ⟨9, 0⟩ revBackend (exDir 1 5 1) = .ok s1 ∧ Cuda.v1diag1d 0 3 (0 - 1) (3 + 1) 3 ⟨0, 0⟩ 1 ⟨9, 0⟩ seqBackend s1 = .ok s2 ∧ F.Only [(F.st1d ⟨9, 0⟩ 0 3 1)] (exDir 1 5 1) s2 ∧
      F.Holds s2 (F.st1d ⟨9, 0⟩ 0 3 1) S ∧ ∀ i, 0 ≤ i → i ≤ 3 → 0 < S [0, i] ∧ S [1, i] < 0 ∧ S [2, i] < 0 ∧
        S [0, i] + S [1, i] + S [2, i] = 3 * exRd (F.cell1d ⟨0, 0⟩ 0 3 1) [i] :=
  C61_v1_1d (T := Rat) revBackend_ok seqBackend_ok (by decide) (by decide) (by decide) exEll_v1_1 (exDir_args (by ex_args)) (exDir_rd (by decide) (exRat_ok rfl (by decide) (by decide))) (exDir_rd (by decide) (exRat_ok rfl (by decide) (by decide)))

/-- 1D, diffusion operator with constant reaction: positive diagonal, negative neighbours, row sum the reaction term. -/
theorem C61_v2_1d {i0 i1 sgcw : Int} {alpha beta : T} {dx : Nat → T} {b0 st : Ptr} {β3 β4 : Backend} {m : Mem T} {B0 : List Int → T} 
    (hβ3 : ValidBackend β3) (hβ4 : ValidBackend β4) (hi : i0 ≤ i1) (hs : 0 ≤ sgcw) (he : F.Elliptic1 i0 i1 alpha beta dx (fun _ => 1) B0)
    (h : F.Args m [(F.face1d b0 i0 i1 0)] [(F.st1d st i0 i1 sgcw)]) (hB0 : F.Holds m (F.face1d b0 i0 i1 0) B0) :
    ∃ s1 s2, ∃ S : List Int → T, Cuda.offdiag1d i0 i1 i0 i1 dx beta b0 sgcw st β3 m = .ok s1 ∧ Cuda.v2diag1d i0 i1 alpha sgcw st β4 s1 = .ok s2 ∧ F.Only [(F.st1d st i0 i1 sgcw)] m s2 ∧
      F.Holds s2 (F.st1d st i0 i1 sgcw) S ∧ ∀ i, i0 ≤ i → i ≤ i1 → 0 < S [0, i] ∧ S [1, i] < 0 ∧ S [2, i] < 0 ∧
        S [0, i] + S [1, i] + S [2, i] = alpha := by
  obtain ⟨s1, s2, S, c1, c2, ho, hS, hc⟩ := asm_v2_1 (alpha := alpha) (beta := beta) (dx := dx) hβ3 hβ4 hi hs h hB0
  refine ⟨s1, s2, S, c1, c2, ho, hS, fun i h0 h1 => ?_⟩
  obtain ⟨g0, g1, g2⟩ := (hc i h0 h1).sign he h0 h1
  have e := (hc i h0 h1).c0
  exact ⟨g0, g1, g2, by rw [e]; ring⟩

example : ∃ s1 s2, ∃ S : List Int → Rat, Cuda.offdiag1d 0 3 0 3 exDx 2 ⟨2, 0⟩ 1 ⟨9, 0⟩ revBackend (exDir 1 5 1) = .ok s1 ∧ Cuda.v2diag1d 0 3 3 1 ⟨9, 0⟩ seqBackend s1 = .ok s2 ∧ F.Only [(F.st1d ⟨9, 0⟩ 0 3 1)] (exDir 1 5 1) s2 ∧
      F.Holds s2 (F.st1d ⟨9, 0⟩ 0 3 1) S ∧ ∀ i, 0 ≤ i → i ≤ 3 → 0 < S [0, i] ∧ S [1, i] < 0 ∧ S [2, i] < 0 ∧
        S [0, i] + S [1, i] + S [2, i] = 3 :=
  C61_v2_1d (T := Rat) revBackend_ok seqBackend_ok (by decide) (by decide) exEll_v2_1 (exDir_args (by ex_args)) (exDir_rd (by decide) (exRat_ok rfl (by decide) (by decide)))

/-- 1D, Poisson operator: positive diagonal, negative neighbours, row sum the reaction term. -/
theorem C61_poisson_1d {i0 i1 sgcw : Int} {beta : T} {dx : Nat → T} {st : Ptr} {β3 β4 : Backend} {m : Mem T} 
    (hβ3 : ValidBackend β3) (hβ4 : ValidBackend β4) (hi : i0 ≤ i1) (hs : 0 ≤ sgcw) (he : F.Elliptic1 i0 i1 0 beta dx (fun _ => 1) (fun _ => 1))
    (h : F.Args m [] [(F.st1d st i0 i1 sgcw)])  :
    ∃ s1 s2, ∃ S : List Int → T, Cuda.poissonOffdiag1d i0 i1 dx beta sgcw st β3 m = .ok s1 ∧ Cuda.poissonDiag1d i0 i1 sgcw st β4 s1 = .ok s2 ∧ F.Only [(F.st1d st i0 i1 sgcw)] m s2 ∧
      F.Holds s2 (F.st1d st i0 i1 sgcw) S ∧ ∀ i, i0 ≤ i → i ≤ i1 → 0 < S [0, i] ∧ S [1, i] < 0 ∧ S [2, i] < 0 ∧
        S [0, i] + S [1, i] + S [2, i] = 0 := by
  obtain ⟨s1, s2, S, c1, c2, ho, hS, hc⟩ := asm_p_1 (beta := beta) (dx := dx) hβ3 hβ4 hi hs h 
  refine ⟨s1, s2, S, c1, c2, ho, hS, fun i h0 h1 => ?_⟩
  obtain ⟨g0, g1, g2⟩ := (hc i h0 h1).sign he h0 h1
  have e := (hc i h0 h1).c0
  exact ⟨g0, g1, g2, by rw [e]; ring⟩

example : ∃ s1 s2, ∃ S : List Int → Rat, Cuda.poissonOffdiag1d 0 3 exDx 2 1 ⟨9, 0⟩ revBackend (exDir 1 5 1) = .ok s1 ∧ Cuda.poissonDiag1d 0 3 1 ⟨9, 0⟩ seqBackend s1 = .ok s2 ∧ F.Only [(F.st1d ⟨9, 0⟩ 0 3 1)] (exDir 1 5 1) s2 ∧
      F.Holds s2 (F.st1d ⟨9, 0⟩ 0 3 1) S ∧ ∀ i, 0 ≤ i → i ≤ 3 → 0 < S [0, i] ∧ S [1, i] < 0 ∧ S [2, i] < 0 ∧
        S [0, i] + S [1, i] + S [2, i] = 0 :=
  C61_poisson_1d (T := Rat) revBackend_ok seqBackend_ok (by decide) (by decide) exEll_p_1 (exDir_args (by ex_args)) 

/-- 2D, diffusion operator with cell coefficients: positive diagonal, negative neighbours, row sum the reaction term. -/
theorem C61_v1_2d {i0 j0 i1 j1 agcw sgcw : Int} {alpha beta : T} {dx : Nat → T} {a b0 b1 st : Ptr} {β3 β4 : Backend} {m : Mem T} {A B0 B1 : List Int → T} 
    (hβ3 : ValidBackend β3) (hβ4 : ValidBackend β4) (hi : i0 ≤ i1) (hj : j0 ≤ j1) (hagcw : 0 ≤ agcw) (hs : 0 ≤ sgcw) (he : F.Elliptic2 i0 j0 i1 j1 alpha beta dx A B0 B1)
    (h : F.Args m [(F.cell2d a i0 j0 i1 j1 agcw), (F.face2d0 b0 i0 j0 i1 j1 0), (F.face2d1 b1 i0 j0 i1 j1 0)] [(F.st2d st i0 j0 i1 j1 sgcw)]) (hA : F.Holds m (F.cell2d a i0 j0 i1 j1 agcw) A) (hB0 : F.Holds m (F.face2d0 b0 i0 j0 i1 j1 0) B0) (hB1 : F.Holds m (F.face2d1 b1 i0 j0 i1 j1 0) B1) :
    ∃ s1 s2, ∃ S : List Int → T, Cuda.offdiag2d i0 j0 i1 j1 i0 j0 i1 j1 dx beta b0 b1 sgcw st β3 m = .ok s1 ∧ Cuda.v1diag2d i0 j0 i1 j1 (i0 - agcw) (j0 - agcw) (i1 + agcw) (j1 + agcw) alpha a sgcw st β4 s1 = .ok s2 ∧ F.Only [(F.st2d st i0 j0 i1 j1 sgcw)] m s2 ∧
      F.Holds s2 (F.st2d st i0 j0 i1 j1 sgcw) S ∧ ∀ i j, i0 ≤ i → i ≤ i1 → j0 ≤ j → j ≤ j1 → 0 < S [0, i, j] ∧ S [1, i, j] < 0 ∧ S [2, i, j] < 0 ∧ S [3, i, j] < 0 ∧ S [4, i, j] < 0 ∧
        S [0, i, j] + S [1, i, j] + S [2, i, j] + S [3, i, j] + S [4, i, j] = alpha * A [i, j] := by
  obtain ⟨s1, s2, S, c1, c2, ho, hS, hc⟩ := asm_v1_2 (alpha := alpha) (beta := beta) (dx := dx) hβ3 hβ4 hi hj hagcw hs h hA hB0 hB1
  refine ⟨s1, s2, S, c1, c2, ho, hS, fun i j h0 h1 h2 h3 => ?_⟩
  obtain ⟨g0, g1, g2, g3, g4⟩ := (hc i j h0 h1 h2 h3).sign he h0 h1 h2 h3
  have e := (hc i j h0 h1 h2 h3).c0
  exact ⟨g0, g1, g2, g3, g4, by rw [e]; ring⟩

example : ∃ s1 s2, ∃ S : List Int → Rat, Cuda.offdiag2d 0 1 2 3 0 1 2 3 exDx 2 ⟨2, 0⟩ ⟨3, 0⟩ 1 ⟨9, 0⟩ revBackend (exDir 2 5 1) = .ok s1 ∧ Cuda.v1diag2d 0 1 2 3 (0 - 1) (1 - 1) (2 + 1) (3 + 1) 3 ⟨0, 0⟩ 1 ⟨9, 0⟩ seqBackend s1 = .ok s2 ∧ F.Only [(F.st2d ⟨9, 0⟩ 0 1 2 3 1)] (exDir 2 5 1) s2 ∧
      F.Holds s2 (F.st2d ⟨9, 0⟩ 0 1 2 3 1) S ∧ ∀ i j, 0 ≤ i → i ≤ 2 → 1 ≤ j → j ≤ 3 → 0 < S [0, i, j] ∧ S [1, i, j] < 0 ∧ S [2, i, j] < 0 ∧ S [3, i, j] < 0 ∧ S [4, i, j] < 0 ∧
        S [0, i, j] + S [1, i, j] + S [2, i, j] + S [3, i, j] + S [4, i, j] = 3 * exRd (F.cell2d ⟨0, 0⟩ 0 1 2 3 1) [i, j] :=
  C61_v1_2d (T := Rat) revBackend_ok seqBackend_ok (by decide) (by decide) (by decide) (by decide) exEll_v1_2 (exDir_args (by ex_args)) (exDir_rd (by decide) (exRat_ok rfl (by decide) (by decide))) (exDir_rd (by decide) (exRat_ok rfl (by decide) (by decide))) (exDir_rd (by decide) (exRat_ok rfl (by decide) (by decide)))

/-- 2D, diffusion operator with constant reaction: positive diagonal, negative neighbours, row sum the reaction term. -/
theorem C61_v2_2d {i0 j0 i1 j1 sgcw : Int} {alpha beta : T} {dx : Nat → T} {b0 b1 st : Ptr} {β3 β4 : Backend} {m : Mem T} {B0 B1 : List Int → T} 
    (hβ3 : ValidBackend β3) (hβ4 : ValidBackend β4) (hi : i0 ≤ i1) (hj : j0 ≤ j1) (hs : 0 ≤ sgcw) (he : F.Elliptic2 i0 j0 i1 j1 alpha beta dx (fun _ => 1) B0 B1)
    (h : F.Args m [(F.face2d0 b0 i0 j0 i1 j1 0), (F.face2d1 b1 i0 j0 i1 j1 0)] [(F.st2d st i0 j0 i1 j1 sgcw)]) (hB0 : F.Holds m (F.face2d0 b0 i0 j0 i1 j1 0) B0) (hB1 : F.Holds m (F.face2d1 b1 i0 j0 i1 j1 0) B1) :
    ∃ s1 s2, ∃ S : List Int → T, Cuda.offdiag2d i0 j0 i1 j1 i0 j0 i1 j1 dx beta b0 b1 sgcw st β3 m = .ok s1 ∧ Cuda.v2diag2d i0 j0 i1 j1 alpha sgcw st β4 s1 = .ok s2 ∧ F.Only [(F.st2d st i0 j0 i1 j1 sgcw)] m s2 ∧
      F.Holds s2 (F.st2d st i0 j0 i1 j1 sgcw) S ∧ ∀ i j, i0 ≤ i → i ≤ i1 → j0 ≤ j → j ≤ j1 → 0 < S [0, i, j] ∧ S [1, i, j] < 0 ∧ S [2, i, j] < 0 ∧ S [3, i, j] < 0 ∧ S [4, i, j] < 0 ∧
        S [0, i, j] + S [1, i, j] + S [2, i, j] + S [3, i, j] + S [4, i, j] = alpha := by
  obtain ⟨s1, s2, S, c1, c2, ho, hS, hc⟩ := asm_v2_2 (alpha := alpha) (beta := beta) (dx := dx) hβ3 hβ4 hi hj hs h hB0 hB1
  refine ⟨s1, s2, S, c1, c2, ho, hS, fun i j h0 h1 h2 h3 => ?_⟩
  obtain ⟨g0, g1, g2, g3, g4⟩ := (hc i j h0 h1 h2 h3).sign he h0 h1 h2 h3
  have e := (hc i j h0 h1 h2 h3).c0
  exact ⟨g0, g1, g2, g3, g4, by rw [e]; ring⟩

example : ∃ s1 s2, ∃ S : List Int → Rat, Cuda.offdiag2d 0 1 2 3 0 1 2 3 exDx 2 ⟨2, 0⟩ ⟨3, 0⟩ 1 ⟨9, 0⟩ revBackend (exDir 2 5 1) = .ok s1 ∧ Cuda.v2diag2d 0 1 2 3 3 1 ⟨9, 0⟩ seqBackend s1 = .ok s2 ∧ F.Only [(F.st2d ⟨9, 0⟩ 0 1 2 3 1)] (exDir 2 5 1) s2 ∧
      F.Holds s2 (F.st2d ⟨9, 0⟩ 0 1 2 3 1) S ∧ ∀ i j, 0 ≤ i → i ≤ 2 → 1 ≤ j → j ≤ 3 → 0 < S [0, i, j] ∧ S [1, i, j] < 0 ∧ S [2, i, j] < 0 ∧ S [3, i, j] < 0 ∧ S [4, i, j] < 0 ∧
        S [0, i, j] + S [1, i, j] + S [2, i, j] + S [3, i, j] + S [4, i, j] = 3 :=
  C61_v2_2d (T := Rat) revBackend_ok seqBackend_ok (by decide) (by decide) (by decide) exEll_v2_2 (exDir_args (by ex_args)) (exDir_rd (by decide) (exRat_ok rfl (by decide) (by decide))) (exDir_rd (by decide) (exRat_ok rfl (by decide) (by decide)))

/-- 2D, Poisson operator: positive diagonal, negative neighbours, row sum the reaction term. -/
theorem C61_poisson_2d {i0 j0 i1 j1 sgcw : Int} {beta : T} {dx : Nat → T} {st : Ptr} {β3 β4 : Backend} {m : Mem T} 
    (hβ3 : ValidBackend β3) (hβ4 : ValidBackend β4) (hi : i0 ≤ i1) (hj : j0 ≤ j1) (hs : 0 ≤ sgcw) (he : F.Elliptic2 i0 j0 i1 j1 0 beta dx (fun _ => 1) (fun _ => 1) (fun _ => 1))
    (h : F.Args m [] [(F.st2d st i0 j0 i1 j1 sgcw)])  :
    ∃ s1 s2, ∃ S : List Int → T, Cuda.poissonOffdiag2d i0 j0 i1 j1 dx beta sgcw st β3 m = .ok s1 ∧ Cuda.poissonDiag2d i0 j0 i1 j1 sgcw st β4 s1 = .ok s2 ∧ F.Only [(F.st2d st i0 j0 i1 j1 sgcw)] m s2 ∧
      F.Holds s2 (F.st2d st i0 j0 i1 j1 sgcw) S ∧ ∀ i j, i0 ≤ i → i ≤ i1 → j0 ≤ j → j ≤ j1 → 0 < S [0, i, j] ∧ S [1, i, j] < 0 ∧ S [2, i, j] < 0 ∧ S [3, i, j] < 0 ∧ S [4, i, j] < 0 ∧
        S [0, i, j] + S [1, i, j] + S [2, i, j] + S [3, i, j] + S [4, i, j] = 0 := by
  obtain ⟨s1, s2, S, c1, c2, ho, hS, hc⟩ := asm_p_2 (beta := beta) (dx := dx) hβ3 hβ4 hi hj hs h 
  refine ⟨s1, s2, S, c1, c2, ho, hS, fun i j h0 h1 h2 h3 => ?_⟩
  obtain ⟨g0, g1, g2, g3, g4⟩ := (hc i j h0 h1 h2 h3).sign he h0 h1 h2 h3
  have e := (hc i j h0 h1 h2 h3).c0
  exact ⟨g0, g1, g2, g3, g4, by rw [e]; ring⟩

example : ∃ s1 s2, ∃ S : List Int → Rat, Cuda.poissonOffdiag2d 0 1 2 3 exDx 2 1 ⟨9, 0⟩ revBackend (exDir 2 5 1) = .ok s1 ∧ Cuda.poissonDiag2d 0 1 2 3 1 ⟨9, 0⟩ seqBackend s1 = .ok s2 ∧ F.Only [(F.st2d ⟨9, 0⟩ 0 1 2 3 1)] (exDir 2 5 1) s2 ∧
      F.Holds s2 (F.st2d ⟨9, 0⟩ 0 1 2 3 1) S ∧ ∀ i j, 0 ≤ i → i ≤ 2 → 1 ≤ j → j ≤ 3 → 0 < S [0, i, j] ∧ S [1, i, j] < 0 ∧ S [2, i, j] < 0 ∧ S [3, i, j] < 0 ∧ S [4, i, j] < 0 ∧
        S [0, i, j] + S [1, i, j] + S [2, i, j] + S [3, i, j] + S [4, i, j] = 0 :=
  C61_poisson_2d (T := Rat) revBackend_ok seqBackend_ok (by decide) (by decide) (by decide) exEll_p_2 (exDir_args (by ex_args)) 

/-- 3D, diffusion operator with cell coefficients: positive diagonal, negative neighbours, row sum the reaction term. -/
theorem C61_v1_3d {i0 j0 k0 i1 j1 k1 agcw sgcw : Int} {alpha beta : T} {dx : Nat → T} {a b0 b1 b2 st : Ptr} {β3 β4 : Backend} {m : Mem T} {A B0 B1 B2 : List Int → T} 
    (hβ3 : ValidBackend β3) (hβ4 : ValidBackend β4) (hi : i0 ≤ i1) (hj : j0 ≤ j1) (hk : k0 ≤ k1) (hagcw : 0 ≤ agcw) (hs : 0 ≤ sgcw) (he : F.Elliptic3 i0 j0 k0 i1 j1 k1 alpha beta dx A B0 B1 B2)
    (h : F.Args m [(F.cell3d a i0 j0 k0 i1 j1 k1 agcw), (F.face3d0 b0 i0 j0 k0 i1 j1 k1 0), (F.face3d1 b1 i0 j0 k0 i1 j1 k1 0), (F.face3d2 b2 i0 j0 k0 i1 j1 k1 0)] [(F.st3d st i0 j0 k0 i1 j1 k1 sgcw)]) (hA : F.Holds m (F.cell3d a i0 j0 k0 i1 j1 k1 agcw) A) (hB0 : F.Holds m (F.face3d0 b0 i0 j0 k0 i1 j1 k1 0) B0) (hB1 : F.Holds m (F.face3d1 b1 i0 j0 k0 i1 j1 k1 0) B1) (hB2 : F.Holds m (F.face3d2 b2 i0 j0 k0 i1 j1 k1 0) B2) :
    ∃ s1 s2, ∃ S : List Int → T, Cuda.offdiag3d i0 j0 k0 i1 j1 k1 i0 j0 k0 i1 j1 k1 dx beta b0 b1 b2 sgcw st β3 m = .ok s1 ∧ Cuda.v1diag3d i0 j0 k0 i1 j1 k1 (i0 - agcw) (j0 - agcw) (k0 - agcw) (i1 + agcw) (j1 + agcw) (k1 + agcw) alpha a sgcw st β4 s1 = .ok s2 ∧ F.Only [(F.st3d st i0 j0 k0 i1 j1 k1 sgcw)] m s2 ∧
      F.Holds s2 (F.st3d st i0 j0 k0 i1 j1 k1 sgcw) S ∧ ∀ i j k, i0 ≤ i → i ≤ i1 → j0 ≤ j → j ≤ j1 → k0 ≤ k → k ≤ k1 → 0 < S [0, i, j, k] ∧ S [1, i, j, k] < 0 ∧ S [2, i, j, k] < 0 ∧ S [3, i, j, k] < 0 ∧ S [4, i, j, k] < 0 ∧ S [5, i, j, k] < 0 ∧ S [6, i, j, k] < 0 ∧
        S [0, i, j, k] + S [1, i, j, k] + S [2, i, j, k] + S [3, i, j, k] + S [4, i, j, k] + S [5, i, j, k] + S [6, i, j, k] = alpha * A [i, j, k] := by
  obtain ⟨s1, s2, S, c1, c2, ho, hS, hc⟩ := asm_v1_3 (alpha := alpha) (beta := beta) (dx := dx) hβ3 hβ4 hi hj hk hagcw hs h hA hB0 hB1 hB2
  refine ⟨s1, s2, S, c1, c2, ho, hS, fun i j k h0 h1 h2 h3 h4 h5 => ?_⟩
  obtain ⟨g0, g1, g2, g3, g4, g5, g6⟩ := (hc i j k h0 h1 h2 h3 h4 h5).sign he h0 h1 h2 h3 h4 h5
  have e := (hc i j k h0 h1 h2 h3 h4 h5).c0
  exact ⟨g0, g1, g2, g3, g4, g5, g6, by rw [e]; ring⟩

example : ∃ s1 s2, ∃ S : List Int → Rat, Cuda.offdiag3d 0 1 2 1 2 3 0 1 2 1 2 3 exDx 2 ⟨2, 0⟩ ⟨3, 0⟩ ⟨4, 0⟩ 1 ⟨9, 0⟩ revBackend (exDir 3 5 1) = .ok s1 ∧ Cuda.v1diag3d 0 1 2 1 2 3 (0 - 1) (1 - 1) (2 - 1) (1 + 1) (2 + 1) (3 + 1) 3 ⟨0, 0⟩ 1 ⟨9, 0⟩ seqBackend s1 = .ok s2 ∧ F.Only [(F.st3d ⟨9, 0⟩ 0 1 2 1 2 3 1)] (exDir 3 5 1) s2 ∧
      F.Holds s2 (F.st3d ⟨9, 0⟩ 0 1 2 1 2 3 1) S ∧ ∀ i j k, 0 ≤ i → i ≤ 1 → 1 ≤ j → j ≤ 2 → 2 ≤ k → k ≤ 3 → 0 < S [0, i, j, k] ∧ S [1, i, j, k] < 0 ∧ S [2, i, j, k] < 0 ∧ S [3, i, j, k] < 0 ∧ S [4, i, j, k] < 0 ∧ S [5, i, j, k] < 0 ∧ S [6, i, j, k] < 0 ∧
        S [0, i, j, k] + S [1, i, j, k] + S [2, i, j, k] + S [3, i, j, k] + S [4, i, j, k] + S [5, i, j, k] + S [6, i, j, k] = 3 * exRd (F.cell3d ⟨0, 0⟩ 0 1 2 1 2 3 1) [i, j, k] :=
  C61_v1_3d (T := Rat) revBackend_ok seqBackend_ok (by decide) (by decide) (by decide) (by decide) (by decide) exEll_v1_3 (exDir_args (by ex_args)) (exDir_rd (by decide) (exRat_ok rfl (by decide) (by decide))) (exDir_rd (by decide) (exRat_ok rfl (by decide) (by decide))) (exDir_rd (by decide) (exRat_ok rfl (by decide) (by decide))) (exDir_rd (by decide) (exRat_ok rfl (by decide) (by decide)))

/-- 3D, diffusion operator with constant reaction: positive diagonal, negative neighbours, row sum the reaction term. -/
theorem C61_v2_3d {i0 j0 k0 i1 j1 k1 sgcw : Int} {alpha beta : T} {dx : Nat → T} {b0 b1 b2 st : Ptr} {β3 β4 : Backend} {m : Mem T} {B0 B1 B2 : List Int → T} 
    (hβ3 : ValidBackend β3) (hβ4 : ValidBackend β4) (hi : i0 ≤ i1) (hj : j0 ≤ j1) (hk : k0 ≤ k1) (hs : 0 ≤ sgcw) (he : F.Elliptic3 i0 j0 k0 i1 j1 k1 alpha beta dx (fun _ => 1) B0 B1 B2)
    (h : F.Args m [(F.face3d0 b0 i0 j0 k0 i1 j1 k1 0), (F.face3d1 b1 i0 j0 k0 i1 j1 k1 0), (F.face3d2 b2 i0 j0 k0 i1 j1 k1 0)] [(F.st3d st i0 j0 k0 i1 j1 k1 sgcw)]) (hB0 : F.Holds m (F.face3d0 b0 i0 j0 k0 i1 j1 k1 0) B0) (hB1 : F.Holds m (F.face3d1 b1 i0 j0 k0 i1 j1 k1 0) B1) (hB2 : F.Holds m (F.face3d2 b2 i0 j0 k0 i1 j1 k1 0) B2) :
    ∃ s1 s2, ∃ S : List Int → T, Cuda.offdiag3d i0 j0 k0 i1 j1 k1 i0 j0 k0 i1 j1 k1 dx beta b0 b1 b2 sgcw st β3 m = .ok s1 ∧ Cuda.v2diag3d i0 j0 k0 i1 j1 k1 alpha sgcw st β4 s1 = .ok s2 ∧ F.Only [(F.st3d st i0 j0 k0 i1 j1 k1 sgcw)] m s2 ∧
      F.Holds s2 (F.st3d st i0 j0 k0 i1 j1 k1 sgcw) S ∧ ∀ i j k, i0 ≤ i → i ≤ i1 → j0 ≤ j → j ≤ j1 → k0 ≤ k → k ≤ k1 → 0 < S [0, i, j, k] ∧ S [1, i, j, k] < 0 ∧ S [2, i, j, k] < 0 ∧ S [3, i, j, k] < 0 ∧ S [4, i, j, k] < 0 ∧ S [5, i, j, k] < 0 ∧ S [6, i, j, k] < 0 ∧
        S [0, i, j, k] + S [1, i, j, k] + S [2, i, j, k] + S [3, i, j, k] + S [4, i, j, k] + S [5, i, j, k] + S [6, i, j, k] = alpha := by
  obtain ⟨s1, s2, S, c1, c2, ho, hS, hc⟩ := asm_v2_3 (alpha := alpha) (beta := beta) (dx := dx) hβ3 hβ4 hi hj hk hs h hB0 hB1 hB2
  refine ⟨s1, s2, S, c1, c2, ho, hS, fun i j k h0 h1 h2 h3 h4 h5 => ?_⟩
  obtain ⟨g0, g1, g2, g3, g4, g5, g6⟩ := (hc i j k h0 h1 h2 h3 h4 h5).sign he h0 h1 h2 h3 h4 h5
  have e := (hc i j k h0 h1 h2 h3 h4 h5).c0
  exact ⟨g0, g1, g2, g3, g4, g5, g6, by rw [e]; ring⟩

example : ∃ s1 s2, ∃ S : List Int → Rat, Cuda.offdiag3d 0 1 2 1 2 3 0 1 2 1 2 3 exDx 2 ⟨2, 0⟩ ⟨3, 0⟩ ⟨4, 0⟩ 1 ⟨9, 0⟩ revBackend (exDir 3 5 1) = .ok s1 ∧ Cuda.v2diag3d 0 1 2 1 2 3 3 1 ⟨9, 0⟩ seqBackend s1 = .ok s2 ∧ F.Only [(F.st3d ⟨9, 0⟩ 0 1 2 1 2 3 1)] (exDir 3 5 1) s2 ∧
      F.Holds s2 (F.st3d ⟨9, 0⟩ 0 1 2 1 2 3 1) S ∧ ∀ i j k, 0 ≤ i → i ≤ 1 → 1 ≤ j → j ≤ 2 → 2 ≤ k → k ≤ 3 → 0 < S [0, i, j, k] ∧ S [1, i, j, k] < 0 ∧ S [2, i, j, k] < 0 ∧ S [3, i, j, k] < 0 ∧ S [4, i, j, k] < 0 ∧ S [5, i, j, k] < 0 ∧ S [6, i, j, k] < 0 ∧
        S [0, i, j, k] + S [1, i, j, k] + S [2, i, j, k] + S [3, i, j, k] + S [4, i, j, k] + S [5, i, j, k] + S [6, i, j, k] = 3 :=
  C61_v2_3d (T := Rat) revBackend_ok seqBackend_ok (by decide) (by decide) (by decide) (by decide) exEll_v2_3 (exDir_args (by ex_args)) (exDir_rd (by decide) (exRat_ok rfl (by decide) (by decide))) (exDir_rd (by decide) (exRat_ok rfl (by decide) (by decide))) (exDir_rd (by decide) (exRat_ok rfl (by decide) (by decide)))

/-- 3D, Poisson operator: positive diagonal, negative neighbours, row sum the reaction term. -/
theorem C61_poisson_3d {i0 j0 k0 i1 j1 k1 sgcw : Int} {beta : T} {dx : Nat → T} {st : Ptr} {β3 β4 : Backend} {m : Mem T} 
    (hβ3 : ValidBackend β3) (hβ4 : ValidBackend β4) (hi : i0 ≤ i1) (hj : j0 ≤ j1) (hk : k0 ≤ k1) (hs : 0 ≤ sgcw) (he : F.Elliptic3 i0 j0 k0 i1 j1 k1 0 beta dx (fun _ => 1) (fun _ => 1) (fun _ => 1) (fun _ => 1))
    (h : F.Args m [] [(F.st3d st i0 j0 k0 i1 j1 k1 sgcw)])  :
    ∃ s1 s2, ∃ S : List Int → T, Cuda.poissonOffdiag3d i0 j0 k0 i1 j1 k1 dx beta sgcw st β3 m = .ok s1 ∧ Cuda.poissonDiag3d i0 j0 k0 i1 j1 k1 sgcw st β4 s1 = .ok s2 ∧ F.Only [(F.st3d st i0 j0 k0 i1 j1 k1 sgcw)] m s2 ∧
      F.Holds s2 (F.st3d st i0 j0 k0 i1 j1 k1 sgcw) S ∧ ∀ i j k, i0 ≤ i → i ≤ i1 → j0 ≤ j → j ≤ j1 → k0 ≤ k → k ≤ k1 → 0 < S [0, i, j, k] ∧ S [1, i, j, k] < 0 ∧ S [2, i, j, k] < 0 ∧ S [3, i, j, k] < 0 ∧ S [4, i, j, k] < 0 ∧ S [5, i, j, k] < 0 ∧ S [6, i, j, k] < 0 ∧
        S [0, i, j, k] + S [1, i, j, k] + S [2, i, j, k] + S [3, i, j, k] + S [4, i, j, k] + S [5, i, j, k] + S [6, i, j, k] = 0 := by
  obtain ⟨s1, s2, S, c1, c2, ho, hS, hc⟩ := asm_p_3 (beta := beta) (dx := dx) hβ3 hβ4 hi hj hk hs h 
  refine ⟨s1, s2, S, c1, c2, ho, hS, fun i j k h0 h1 h2 h3 h4 h5 => ?_⟩
  obtain ⟨g0, g1, g2, g3, g4, g5, g6⟩ := (hc i j k h0 h1 h2 h3 h4 h5).sign he h0 h1 h2 h3 h4 h5
  have e := (hc i j k h0 h1 h2 h3 h4 h5).c0
  exact ⟨g0, g1, g2, g3, g4, g5, g6, by rw [e]; ring⟩

example : ∃ s1 s2, ∃ S : List Int → Rat, Cuda.poissonOffdiag3d 0 1 2 1 2 3 exDx 2 1 ⟨9, 0⟩ revBackend (exDir 3 5 1) = .ok s1 ∧ Cuda.poissonDiag3d 0 1 2 1 2 3 1 ⟨9, 0⟩ seqBackend s1 = .ok s2 ∧ F.Only [(F.st3d ⟨9, 0⟩ 0 1 2 1 2 3 1)] (exDir 3 5 1) s2 ∧
      F.Holds s2 (F.st3d ⟨9, 0⟩ 0 1 2 1 2 3 1) S ∧ ∀ i j k, 0 ≤ i → i ≤ 1 → 1 ≤ j → j ≤ 2 → 2 ≤ k → k ≤ 3 → 0 < S [0, i, j, k] ∧ S [1, i, j, k] < 0 ∧ S [2, i, j, k] < 0 ∧ S [3, i, j, k] < 0 ∧ S [4, i, j, k] < 0 ∧ S [5, i, j, k] < 0 ∧ S [6, i, j, k] < 0 ∧
        S [0, i, j, k] + S [1, i, j, k] + S [2, i, j, k] + S [3, i, j, k] + S [4, i, j, k] + S [5, i, j, k] + S [6, i, j, k] = 0 :=
  C61_poisson_3d (T := Rat) revBackend_ok seqBackend_ok (by decide) (by decide) (by decide) (by decide) exEll_p_3 (exDir_args (by ex_args)) 

end Verif
