import Verif.Lemmas.EnergyRun
import Verif.Lemmas.Assemble
import Verif.Lemmas.ExWith

/-
C86: the operator and assembly kernels treat all directions alike, and both orientations of each.
-/

namespace Verif
open Spec

set_option linter.unusedVariables false
set_option linter.unusedSectionVars false

variable {T : Type} [Field T] [LinearOrder T] [IsStrictOrderedRing T]

/-- 1D, diffusion operator with cell coefficients: for data reflected the results are those of the plain data, reflected. -/
theorem C86_reflect_v1_1d {i0 i1 agcw gcw rgcw agcw' gcw' rgcw' : Int} {alpha beta : T} {dx dx' : Nat → T} {a u b0 f0 res a' u' b0' f0' res' : Ptr} {β1 β2 β1' β2' : Nat → Backend} {m m' : Mem T} {A B0 U : List Int → T}
    (hβ1 : ∀ n, ValidBackend (β1 n)) (hβ2 : ∀ n, ValidBackend (β2 n)) (hβ1' : ∀ n, ValidBackend (β1' n)) (hβ2' : ∀ n, ValidBackend (β2' n)) (hi : i0 ≤ i1) (hg : 1 ≤ gcw) (hagcw : 0 ≤ agcw) (hrgcw : 0 ≤ rgcw) (hg' : 1 ≤ gcw') (hagcw' : 0 ≤ agcw') (hrgcw' : 0 ≤ rgcw')
    (hx0 : dx' 0 = dx 0)
    (h : F.Args m [(F.cell1d a i0 i1 agcw), (F.cell1d u i0 i1 gcw), (F.face1d b0 i0 i1 0)] [(F.face1d f0 i0 i1 0), (F.cell1d res i0 i1 rgcw)]) (hr : F.Apart (F.cell1d res i0 i1 rgcw) (F.face1d f0 i0 i1 0))
    (h' : F.Args m' [(F.cell1d a' (-i1) (-i0) agcw'), (F.cell1d u' (-i1) (-i0) gcw'), (F.face1d b0' (-i1) (-i0) 0)] [(F.face1d f0' (-i1) (-i0) 0), (F.cell1d res' (-i1) (-i0) rgcw')]) (hr' : F.Apart (F.cell1d res' (-i1) (-i0) rgcw') (F.face1d f0' (-i1) (-i0) 0))
    (hA : F.Holds m (F.cell1d a i0 i1 agcw) A) (hB0 : F.Holds m (F.face1d b0 i0 i1 0) B0) (hU : F.Holds m (F.cell1d u i0 i1 gcw) U)
    (hA' : F.Holds m' (F.cell1d a' (-i1) (-i0) agcw') (fun p => A [-p.getD 0 0])) (hB0' : F.Holds m' (F.face1d b0' (-i1) (-i0) 0) (fun p => B0 [1 - p.getD 0 0])) (hU' : F.Holds m' (F.cell1d u' (-i1) (-i0) gcw') (fun p => U [-p.getD 0 0])) :
    ∃ m1 m2 m1' m2', Cuda.flux1d i0 i1 dx b0 gcw u f0 β1 m = .ok m1 ∧ Cuda.diffusionV1Apply1d i0 i1 alpha beta dx agcw a gcw u f0 rgcw res β2 m1 = .ok m2 ∧ Cuda.flux1d (-i1) (-i0) dx' b0' gcw' u' f0' β1' m' = .ok m1' ∧ Cuda.diffusionV1Apply1d (-i1) (-i0) alpha beta dx' agcw' a' gcw' u' f0' rgcw' res' β2' m1' = .ok m2' ∧
      ∀ i, i0 ≤ i → i ≤ i1 → ∃ v, F.El m2 (F.cell1d res i0 i1 rgcw) [i] v ∧ F.El m2' (F.cell1d res' (-i1) (-i0) rgcw') [-i] v := by
  obtain ⟨m1, m2, R, c1, c2, e, hR⟩ := energy_v1_1 (alpha := alpha) (beta := beta) (dx := dx) hβ1 hβ2 hi hg hagcw hrgcw h hr hA hB0 hU
  obtain ⟨m1', m2', R', c1', c2', e', hR'⟩ := energy_v1_1 (alpha := alpha) (beta := beta) (dx := dx') hβ1' hβ2' (by omega) hg' hagcw' hrgcw' h' hr' hA' hB0' hU'
  refine ⟨m1, m2, m1', m2', c1, c2, c1', c2', fun i ia ib => ⟨_, e [i] (F.inBounds1.2 ⟨i, rfl, by omega⟩), ?_⟩⟩
  have x := e' [-i] (F.inBounds1.2 ⟨-i, rfl, by omega⟩)
  rw [hR' (-i) (by omega) (by omega)] at x
  rw [hR i ia ib]
  convert x using 1
  simp only [F.op1, List.getD_cons_zero, List.getD_cons_succ, hx0]
  ring_nf

example := C86_reflect_v1_1d (T := Rat) (i0 := 0) (i1 := 3) (agcw := 1) (gcw := 2) (rgcw := 1) (agcw' := 1) (gcw' := 2) (rgcw' := 1) (a := ⟨0, 0⟩) (u := ⟨1, 0⟩) (b0 := ⟨2, 0⟩) (f0 := ⟨5, 0⟩) (res := ⟨8, 0⟩) (a' := ⟨0, 0⟩) (u' := ⟨1, 0⟩) (b0' := ⟨2, 0⟩) (f0' := ⟨5, 0⟩) (res' := ⟨8, 0⟩) (alpha := 3) (beta := 2) (dx := exDx) (dx' := (fun d => if d = 0 then exDx 0 else 0)) (β1 := fun _ => revBackend) (β1' := fun _ => revBackend) (β2 := fun _ => seqBackend) (β2' := fun _ => seqBackend)
  (m := exWith [((F.cell1d ⟨0, 0⟩ 0 3 1), (exRd (F.cell1d ⟨0, 0⟩ 0 3 1))), ((F.face1d ⟨2, 0⟩ 0 3 0), (exRd (F.face1d ⟨2, 0⟩ 0 3 0))), ((F.cell1d ⟨1, 0⟩ 0 3 2), (exRd (F.cell1d ⟨1, 0⟩ 0 3 2)))])
  (m' := exWith [((F.cell1d ⟨0, 0⟩ (-3) 0 1), (fun p => exRd (F.cell1d ⟨0, 0⟩ 0 3 1) [-p.getD 0 0])), ((F.face1d ⟨2, 0⟩ (-3) 0 0), (fun p => exRd (F.face1d ⟨2, 0⟩ 0 3 0) [1 - p.getD 0 0])), ((F.cell1d ⟨1, 0⟩ (-3) 0 2), (fun p => exRd (F.cell1d ⟨1, 0⟩ 0 3 2) [-p.getD 0 0]))])
  (fun _ => revBackend_ok) (fun _ => seqBackend_ok) (fun _ => revBackend_ok) (fun _ => seqBackend_ok) (by decide) (by decide) (by decide) (by decide) (by decide) (by decide) (by decide) rfl (exWith_args (by ex_args)) (apart_blk (by decide)) (exWith_args (by ex_args)) (apart_blk (by decide)) (exWith_rd (exRat_ok rfl (by decide) (by decide)) rfl rfl) (exWith_rd (exRat_ok rfl (by decide) (by decide)) rfl rfl) (exWith_rd (exRat_ok rfl (by decide) (by decide)) rfl rfl) (exWith_rd (exRat_ok rfl (by decide) (by decide)) rfl rfl) (exWith_rd (exRat_ok rfl (by decide) (by decide)) rfl rfl) (exWith_rd (exRat_ok rfl (by decide) (by decide)) rfl rfl)

/-- 1D, diffusion operator with cell coefficients: for data reflected the assembled coefficients are those of the plain data, reflected. -/
theorem C86_reflect_coef_v1_1d {i0 i1 agcw sgcw agcw' sgcw' : Int} {alpha beta : T} {dx dx' : Nat → T} {a b0 st a' b0' st' : Ptr} {β3 β4 β3' β4' : Backend} {m m' : Mem T} {A B0 : List Int → T}
    (hβ3 : ValidBackend β3) (hβ4 : ValidBackend β4) (hβ3' : ValidBackend β3') (hβ4' : ValidBackend β4') (hi : i0 ≤ i1) (hagcw : 0 ≤ agcw) (hs : 0 ≤ sgcw) (hagcw' : 0 ≤ agcw') (hs' : 0 ≤ sgcw')
    (hx0 : dx' 0 = dx 0)
    (h : F.Args m [(F.cell1d a i0 i1 agcw), (F.face1d b0 i0 i1 0)] [(F.st1d st i0 i1 sgcw)])
    (h' : F.Args m' [(F.cell1d a' (-i1) (-i0) agcw'), (F.face1d b0' (-i1) (-i0) 0)] [(F.st1d st' (-i1) (-i0) sgcw')])
    (hA : F.Holds m (F.cell1d a i0 i1 agcw) A) (hB0 : F.Holds m (F.face1d b0 i0 i1 0) B0)
    (hA' : F.Holds m' (F.cell1d a' (-i1) (-i0) agcw') (fun p => A [-p.getD 0 0])) (hB0' : F.Holds m' (F.face1d b0' (-i1) (-i0) 0) (fun p => B0 [1 - p.getD 0 0])) :
    ∃ s1 s2 s1' s2', Cuda.offdiag1d i0 i1 i0 i1 dx beta b0 sgcw st β3 m = .ok s1 ∧ Cuda.v1diag1d i0 i1 (i0 - agcw) (i1 + agcw) alpha a sgcw st β4 s1 = .ok s2 ∧ Cuda.offdiag1d (-i1) (-i0) (-i1) (-i0) dx' beta b0' sgcw' st' β3' m' = .ok s1' ∧ Cuda.v1diag1d (-i1) (-i0) ((-i1) - agcw') ((-i0) + agcw') alpha a' sgcw' st' β4' s1' = .ok s2' ∧
      ∀ i, i0 ≤ i → i ≤ i1 → ∀ e ∈ ([(0, 0), (1, 2), (2, 1)] : List (Int × Int)), ∃ v, F.El s2 (F.st1d st i0 i1 sgcw) [e.1, i] v ∧ F.El s2' (F.st1d st' (-i1) (-i0) sgcw') [e.2, -i] v := by
  obtain ⟨s1, s2, S, c1, c2, -, hS, hc⟩ := asm_v1_1 (alpha := alpha) (beta := beta) (dx := dx) hβ3 hβ4 hi hagcw hs h hA hB0
  obtain ⟨s1', s2', S', c1', c2', -, hS', hc'⟩ := asm_v1_1 (alpha := alpha) (beta := beta) (dx := dx') hβ3' hβ4' (by omega) hagcw' hs' h' hA' hB0'
  refine ⟨s1, s2, s1', s2', c1, c2, c1', c2', fun i ia ib e he => ⟨S [e.1, i], hS _ ?_, ?_⟩⟩
  · simp only [List.mem_cons, List.not_mem_nil, or_false] at he
    rcases he with rfl | rfl | rfl <;> simp only [F.st1d, F.InBounds, and_true] <;> omega
  · have c := hc i ia ib
    have c' := hc' (-i) (by omega) (by omega)
    have x := hS' [e.2, -i] (by
      simp only [List.mem_cons, List.not_mem_nil, or_false] at he
      rcases he with rfl | rfl | rfl <;> simp only [F.st1d, F.InBounds, and_true] <;> omega)
    convert x using 1
    have hv := c'.c0
    simp only [List.mem_cons, List.not_mem_nil, or_false] at he
    rcases he with rfl | rfl | rfl
    · simp only [c.c0, c'.c0, c.c1, c.c2, c'.c1, c'.c2, List.getD_cons_zero, List.getD_cons_succ, hx0]
      try ring_nf
    · simp only [c.c1, c'.c2, List.getD_cons_zero, List.getD_cons_succ, hx0]
      try ring_nf
    · simp only [c.c2, c'.c1, List.getD_cons_zero, List.getD_cons_succ, hx0]
      try ring_nf

example := C86_reflect_coef_v1_1d (T := Rat) (i0 := 0) (i1 := 3) (agcw := 1) (sgcw := 1) (agcw' := 1) (sgcw' := 1) (a := ⟨0, 0⟩) (b0 := ⟨2, 0⟩) (st := ⟨9, 0⟩) (a' := ⟨0, 0⟩) (b0' := ⟨2, 0⟩) (st' := ⟨9, 0⟩) (alpha := 3) (beta := 2) (dx := exDx) (dx' := (fun d => if d = 0 then exDx 0 else 0)) (β3 := revBackend) (β3' := revBackend) (β4 := seqBackend) (β4' := seqBackend)
  (m := exWith [((F.cell1d ⟨0, 0⟩ 0 3 1), (exRd (F.cell1d ⟨0, 0⟩ 0 3 1))), ((F.face1d ⟨2, 0⟩ 0 3 0), (exRd (F.face1d ⟨2, 0⟩ 0 3 0)))])
  (m' := exWith [((F.cell1d ⟨0, 0⟩ (-3) 0 1), (fun p => exRd (F.cell1d ⟨0, 0⟩ 0 3 1) [-p.getD 0 0])), ((F.face1d ⟨2, 0⟩ (-3) 0 0), (fun p => exRd (F.face1d ⟨2, 0⟩ 0 3 0) [1 - p.getD 0 0]))])
  revBackend_ok seqBackend_ok revBackend_ok seqBackend_ok (by decide) (by decide) (by decide) (by decide) (by decide) rfl (exWith_args (by ex_args)) (exWith_args (by ex_args)) (exWith_rd (exRat_ok rfl (by decide) (by decide)) rfl rfl) (exWith_rd (exRat_ok rfl (by decide) (by decide)) rfl rfl) (exWith_rd (exRat_ok rfl (by decide) (by decide)) rfl rfl) (exWith_rd (exRat_ok rfl (by decide) (by decide)) rfl rfl)

/-- 1D, diffusion operator with constant reaction: for data reflected the results are those of the plain data, reflected. -/
theorem C86_reflect_v2_1d {i0 i1 gcw rgcw gcw' rgcw' : Int} {alpha beta : T} {dx dx' : Nat → T} {u b0 f0 res u' b0' f0' res' : Ptr} {β1 β2 β1' β2' : Nat → Backend} {m m' : Mem T} {B0 U : List Int → T}
    (hβ1 : ∀ n, ValidBackend (β1 n)) (hβ2 : ∀ n, ValidBackend (β2 n)) (hβ1' : ∀ n, ValidBackend (β1' n)) (hβ2' : ∀ n, ValidBackend (β2' n)) (hi : i0 ≤ i1) (hg : 1 ≤ gcw) (hrgcw : 0 ≤ rgcw) (hg' : 1 ≤ gcw') (hrgcw' : 0 ≤ rgcw')
    (hx0 : dx' 0 = dx 0)
    (h : F.Args m [(F.cell1d u i0 i1 gcw), (F.face1d b0 i0 i1 0)] [(F.face1d f0 i0 i1 0), (F.cell1d res i0 i1 rgcw)]) (hr : F.Apart (F.cell1d res i0 i1 rgcw) (F.face1d f0 i0 i1 0))
    (h' : F.Args m' [(F.cell1d u' (-i1) (-i0) gcw'), (F.face1d b0' (-i1) (-i0) 0)] [(F.face1d f0' (-i1) (-i0) 0), (F.cell1d res' (-i1) (-i0) rgcw')]) (hr' : F.Apart (F.cell1d res' (-i1) (-i0) rgcw') (F.face1d f0' (-i1) (-i0) 0))
    (hB0 : F.Holds m (F.face1d b0 i0 i1 0) B0) (hU : F.Holds m (F.cell1d u i0 i1 gcw) U)
    (hB0' : F.Holds m' (F.face1d b0' (-i1) (-i0) 0) (fun p => B0 [1 - p.getD 0 0])) (hU' : F.Holds m' (F.cell1d u' (-i1) (-i0) gcw') (fun p => U [-p.getD 0 0])) :
    ∃ m1 m2 m1' m2', Cuda.flux1d i0 i1 dx b0 gcw u f0 β1 m = .ok m1 ∧ Cuda.diffusionV2Apply1d i0 i1 alpha beta dx gcw u f0 rgcw res β2 m1 = .ok m2 ∧ Cuda.flux1d (-i1) (-i0) dx' b0' gcw' u' f0' β1' m' = .ok m1' ∧ Cuda.diffusionV2Apply1d (-i1) (-i0) alpha beta dx' gcw' u' f0' rgcw' res' β2' m1' = .ok m2' ∧
      ∀ i, i0 ≤ i → i ≤ i1 → ∃ v, F.El m2 (F.cell1d res i0 i1 rgcw) [i] v ∧ F.El m2' (F.cell1d res' (-i1) (-i0) rgcw') [-i] v := by
  obtain ⟨m1, m2, R, c1, c2, e, hR⟩ := energy_v2_1 (alpha := alpha) (beta := beta) (dx := dx) hβ1 hβ2 hi hg hrgcw h hr hB0 hU
  obtain ⟨m1', m2', R', c1', c2', e', hR'⟩ := energy_v2_1 (alpha := alpha) (beta := beta) (dx := dx') hβ1' hβ2' (by omega) hg' hrgcw' h' hr' hB0' hU'
  refine ⟨m1, m2, m1', m2', c1, c2, c1', c2', fun i ia ib => ⟨_, e [i] (F.inBounds1.2 ⟨i, rfl, by omega⟩), ?_⟩⟩
  have x := e' [-i] (F.inBounds1.2 ⟨-i, rfl, by omega⟩)
  rw [hR' (-i) (by omega) (by omega)] at x
  rw [hR i ia ib]
  convert x using 1
  simp only [F.op1, List.getD_cons_zero, List.getD_cons_succ, hx0]
  ring_nf

example := C86_reflect_v2_1d (T := Rat) (i0 := 0) (i1 := 3) (gcw := 2) (rgcw := 1) (gcw' := 2) (rgcw' := 1) (u := ⟨1, 0⟩) (b0 := ⟨2, 0⟩) (f0 := ⟨5, 0⟩) (res := ⟨8, 0⟩) (u' := ⟨1, 0⟩) (b0' := ⟨2, 0⟩) (f0' := ⟨5, 0⟩) (res' := ⟨8, 0⟩) (alpha := 3) (beta := 2) (dx := exDx) (dx' := (fun d => if d = 0 then exDx 0 else 0)) (β1 := fun _ => revBackend) (β1' := fun _ => revBackend) (β2 := fun _ => seqBackend) (β2' := fun _ => seqBackend)
  (m := exWith [((F.face1d ⟨2, 0⟩ 0 3 0), (exRd (F.face1d ⟨2, 0⟩ 0 3 0))), ((F.cell1d ⟨1, 0⟩ 0 3 2), (exRd (F.cell1d ⟨1, 0⟩ 0 3 2)))])
  (m' := exWith [((F.face1d ⟨2, 0⟩ (-3) 0 0), (fun p => exRd (F.face1d ⟨2, 0⟩ 0 3 0) [1 - p.getD 0 0])), ((F.cell1d ⟨1, 0⟩ (-3) 0 2), (fun p => exRd (F.cell1d ⟨1, 0⟩ 0 3 2) [-p.getD 0 0]))])
  (fun _ => revBackend_ok) (fun _ => seqBackend_ok) (fun _ => revBackend_ok) (fun _ => seqBackend_ok) (by decide) (by decide) (by decide) (by decide) (by decide) rfl (exWith_args (by ex_args)) (apart_blk (by decide)) (exWith_args (by ex_args)) (apart_blk (by decide)) (exWith_rd (exRat_ok rfl (by decide) (by decide)) rfl rfl) (exWith_rd (exRat_ok rfl (by decide) (by decide)) rfl rfl) (exWith_rd (exRat_ok rfl (by decide) (by decide)) rfl rfl) (exWith_rd (exRat_ok rfl (by decide) (by decide)) rfl rfl)

/-- 1D, diffusion operator with constant reaction: for data reflected the assembled coefficients are those of the plain data, reflected. -/
theorem C86_reflect_coef_v2_1d {i0 i1 sgcw sgcw' : Int} {alpha beta : T} {dx dx' : Nat → T} {b0 st b0' st' : Ptr} {β3 β4 β3' β4' : Backend} {m m' : Mem T} {B0 : List Int → T}
    (hβ3 : ValidBackend β3) (hβ4 : ValidBackend β4) (hβ3' : ValidBackend β3') (hβ4' : ValidBackend β4') (hi : i0 ≤ i1) (hs : 0 ≤ sgcw) (hs' : 0 ≤ sgcw')
    (hx0 : dx' 0 = dx 0)
    (h : F.Args m [(F.face1d b0 i0 i1 0)] [(F.st1d st i0 i1 sgcw)])
    (h' : F.Args m' [(F.face1d b0' (-i1) (-i0) 0)] [(F.st1d st' (-i1) (-i0) sgcw')])
    (hB0 : F.Holds m (F.face1d b0 i0 i1 0) B0)
    (hB0' : F.Holds m' (F.face1d b0' (-i1) (-i0) 0) (fun p => B0 [1 - p.getD 0 0])) :
    ∃ s1 s2 s1' s2', Cuda.offdiag1d i0 i1 i0 i1 dx beta b0 sgcw st β3 m = .ok s1 ∧ Cuda.v2diag1d i0 i1 alpha sgcw st β4 s1 = .ok s2 ∧ Cuda.offdiag1d (-i1) (-i0) (-i1) (-i0) dx' beta b0' sgcw' st' β3' m' = .ok s1' ∧ Cuda.v2diag1d (-i1) (-i0) alpha sgcw' st' β4' s1' = .ok s2' ∧
      ∀ i, i0 ≤ i → i ≤ i1 → ∀ e ∈ ([(0, 0), (1, 2), (2, 1)] : List (Int × Int)), ∃ v, F.El s2 (F.st1d st i0 i1 sgcw) [e.1, i] v ∧ F.El s2' (F.st1d st' (-i1) (-i0) sgcw') [e.2, -i] v := by
  obtain ⟨s1, s2, S, c1, c2, -, hS, hc⟩ := asm_v2_1 (alpha := alpha) (beta := beta) (dx := dx) hβ3 hβ4 hi hs h hB0
  obtain ⟨s1', s2', S', c1', c2', -, hS', hc'⟩ := asm_v2_1 (alpha := alpha) (beta := beta) (dx := dx') hβ3' hβ4' (by omega) hs' h' hB0'
  refine ⟨s1, s2, s1', s2', c1, c2, c1', c2', fun i ia ib e he => ⟨S [e.1, i], hS _ ?_, ?_⟩⟩
  · simp only [List.mem_cons, List.not_mem_nil, or_false] at he
    rcases he with rfl | rfl | rfl <;> simp only [F.st1d, F.InBounds, and_true] <;> omega
  · have c := hc i ia ib
    have c' := hc' (-i) (by omega) (by omega)
    have x := hS' [e.2, -i] (by
      simp only [List.mem_cons, List.not_mem_nil, or_false] at he
      rcases he with rfl | rfl | rfl <;> simp only [F.st1d, F.InBounds, and_true] <;> omega)
    convert x using 1
    have hv := c'.c0
    simp only [List.mem_cons, List.not_mem_nil, or_false] at he
    rcases he with rfl | rfl | rfl
    · simp only [c.c0, c'.c0, c.c1, c.c2, c'.c1, c'.c2, List.getD_cons_zero, List.getD_cons_succ, hx0]
      try ring_nf
    · simp only [c.c1, c'.c2, List.getD_cons_zero, List.getD_cons_succ, hx0]
      try ring_nf
    · simp only [c.c2, c'.c1, List.getD_cons_zero, List.getD_cons_succ, hx0]
      try ring_nf

example := C86_reflect_coef_v2_1d (T := Rat) (i0 := 0) (i1 := 3) (sgcw := 1) (sgcw' := 1) (b0 := ⟨2, 0⟩) (st := ⟨9, 0⟩) (b0' := ⟨2, 0⟩) (st' := ⟨9, 0⟩) (alpha := 3) (beta := 2) (dx := exDx) (dx' := (fun d => if d = 0 then exDx 0 else 0)) (β3 := revBackend) (β3' := revBackend) (β4 := seqBackend) (β4' := seqBackend)
  (m := exWith [((F.face1d ⟨2, 0⟩ 0 3 0), (exRd (F.face1d ⟨2, 0⟩ 0 3 0)))])
  (m' := exWith [((F.face1d ⟨2, 0⟩ (-3) 0 0), (fun p => exRd (F.face1d ⟨2, 0⟩ 0 3 0) [1 - p.getD 0 0]))])
  revBackend_ok seqBackend_ok revBackend_ok seqBackend_ok (by decide) (by decide) (by decide) rfl (exWith_args (by ex_args)) (exWith_args (by ex_args)) (exWith_rd (exRat_ok rfl (by decide) (by decide)) rfl rfl) (exWith_rd (exRat_ok rfl (by decide) (by decide)) rfl rfl)

/-- 1D, Poisson operator: for data reflected the results are those of the plain data, reflected. -/
theorem C86_reflect_poisson_1d {i0 i1 gcw rgcw gcw' rgcw' : Int} {beta : T} {dx dx' : Nat → T} {u f0 res u' f0' res' : Ptr} {β1 β2 β1' β2' : Nat → Backend} {m m' : Mem T} {U : List Int → T}
    (hβ1 : ∀ n, ValidBackend (β1 n)) (hβ2 : ∀ n, ValidBackend (β2 n)) (hβ1' : ∀ n, ValidBackend (β1' n)) (hβ2' : ∀ n, ValidBackend (β2' n)) (hi : i0 ≤ i1) (hg : 1 ≤ gcw) (hrgcw : 0 ≤ rgcw) (hg' : 1 ≤ gcw') (hrgcw' : 0 ≤ rgcw')
    (hx0 : dx' 0 = dx 0)
    (h : F.Args m [(F.cell1d u i0 i1 gcw)] [(F.face1d f0 i0 i1 0), (F.cell1d res i0 i1 rgcw)]) (hr : F.Apart (F.cell1d res i0 i1 rgcw) (F.face1d f0 i0 i1 0))
    (h' : F.Args m' [(F.cell1d u' (-i1) (-i0) gcw')] [(F.face1d f0' (-i1) (-i0) 0), (F.cell1d res' (-i1) (-i0) rgcw')]) (hr' : F.Apart (F.cell1d res' (-i1) (-i0) rgcw') (F.face1d f0' (-i1) (-i0) 0))
    (hU : F.Holds m (F.cell1d u i0 i1 gcw) U)
    (hU' : F.Holds m' (F.cell1d u' (-i1) (-i0) gcw') (fun p => U [-p.getD 0 0])) :
    ∃ m1 m2 m1' m2', Cuda.poissonFlux1d i0 i1 dx gcw u f0 β1 m = .ok m1 ∧ Cuda.poissonV2Apply1d i0 i1 beta dx f0 rgcw res β2 m1 = .ok m2 ∧ Cuda.poissonFlux1d (-i1) (-i0) dx' gcw' u' f0' β1' m' = .ok m1' ∧ Cuda.poissonV2Apply1d (-i1) (-i0) beta dx' f0' rgcw' res' β2' m1' = .ok m2' ∧
      ∀ i, i0 ≤ i → i ≤ i1 → ∃ v, F.El m2 (F.cell1d res i0 i1 rgcw) [i] v ∧ F.El m2' (F.cell1d res' (-i1) (-i0) rgcw') [-i] v := by
  obtain ⟨m1, m2, R, c1, c2, e, hR⟩ := energy_p_1 (beta := beta) (dx := dx) hβ1 hβ2 hi hg hrgcw h hr hU
  obtain ⟨m1', m2', R', c1', c2', e', hR'⟩ := energy_p_1 (beta := beta) (dx := dx') hβ1' hβ2' (by omega) hg' hrgcw' h' hr' hU'
  refine ⟨m1, m2, m1', m2', c1, c2, c1', c2', fun i ia ib => ⟨_, e [i] (F.inBounds1.2 ⟨i, rfl, by omega⟩), ?_⟩⟩
  have x := e' [-i] (F.inBounds1.2 ⟨-i, rfl, by omega⟩)
  rw [hR' (-i) (by omega) (by omega)] at x
  rw [hR i ia ib]
  convert x using 1
  simp only [F.op1, List.getD_cons_zero, List.getD_cons_succ, hx0]
  ring_nf

example := C86_reflect_poisson_1d (T := Rat) (i0 := 0) (i1 := 3) (gcw := 2) (rgcw := 1) (gcw' := 2) (rgcw' := 1) (u := ⟨1, 0⟩) (f0 := ⟨5, 0⟩) (res := ⟨8, 0⟩) (u' := ⟨1, 0⟩) (f0' := ⟨5, 0⟩) (res' := ⟨8, 0⟩) (beta := 2) (dx := exDx) (dx' := (fun d => if d = 0 then exDx 0 else 0)) (β1 := fun _ => revBackend) (β1' := fun _ => revBackend) (β2 := fun _ => seqBackend) (β2' := fun _ => seqBackend)
  (m := exWith [((F.cell1d ⟨1, 0⟩ 0 3 2), (exRd (F.cell1d ⟨1, 0⟩ 0 3 2)))])
  (m' := exWith [((F.cell1d ⟨1, 0⟩ (-3) 0 2), (fun p => exRd (F.cell1d ⟨1, 0⟩ 0 3 2) [-p.getD 0 0]))])
  (fun _ => revBackend_ok) (fun _ => seqBackend_ok) (fun _ => revBackend_ok) (fun _ => seqBackend_ok) (by decide) (by decide) (by decide) (by decide) (by decide) rfl (exWith_args (by ex_args)) (apart_blk (by decide)) (exWith_args (by ex_args)) (apart_blk (by decide)) (exWith_rd (exRat_ok rfl (by decide) (by decide)) rfl rfl) (exWith_rd (exRat_ok rfl (by decide) (by decide)) rfl rfl)

/-- 1D, Poisson operator: for data reflected the assembled coefficients are those of the plain data, reflected. -/
theorem C86_reflect_coef_poisson_1d {i0 i1 sgcw sgcw' : Int} {beta : T} {dx dx' : Nat → T} {st st' : Ptr} {β3 β4 β3' β4' : Backend} {m m' : Mem T}
    (hβ3 : ValidBackend β3) (hβ4 : ValidBackend β4) (hβ3' : ValidBackend β3') (hβ4' : ValidBackend β4') (hi : i0 ≤ i1) (hs : 0 ≤ sgcw) (hs' : 0 ≤ sgcw')
    (hx0 : dx' 0 = dx 0)
    (h : F.Args m [] [(F.st1d st i0 i1 sgcw)])
    (h' : F.Args m' [] [(F.st1d st' (-i1) (-i0) sgcw')]) :
    ∃ s1 s2 s1' s2', Cuda.poissonOffdiag1d i0 i1 dx beta sgcw st β3 m = .ok s1 ∧ Cuda.poissonDiag1d i0 i1 sgcw st β4 s1 = .ok s2 ∧ Cuda.poissonOffdiag1d (-i1) (-i0) dx' beta sgcw' st' β3' m' = .ok s1' ∧ Cuda.poissonDiag1d (-i1) (-i0) sgcw' st' β4' s1' = .ok s2' ∧
      ∀ i, i0 ≤ i → i ≤ i1 → ∀ e ∈ ([(0, 0), (1, 2), (2, 1)] : List (Int × Int)), ∃ v, F.El s2 (F.st1d st i0 i1 sgcw) [e.1, i] v ∧ F.El s2' (F.st1d st' (-i1) (-i0) sgcw') [e.2, -i] v := by
  obtain ⟨s1, s2, S, c1, c2, -, hS, hc⟩ := asm_p_1 (beta := beta) (dx := dx) hβ3 hβ4 hi hs h
  obtain ⟨s1', s2', S', c1', c2', -, hS', hc'⟩ := asm_p_1 (beta := beta) (dx := dx') hβ3' hβ4' (by omega) hs' h'
  refine ⟨s1, s2, s1', s2', c1, c2, c1', c2', fun i ia ib e he => ⟨S [e.1, i], hS _ ?_, ?_⟩⟩
  · simp only [List.mem_cons, List.not_mem_nil, or_false] at he
    rcases he with rfl | rfl | rfl <;> simp only [F.st1d, F.InBounds, and_true] <;> omega
  · have c := hc i ia ib
    have c' := hc' (-i) (by omega) (by omega)
    have x := hS' [e.2, -i] (by
      simp only [List.mem_cons, List.not_mem_nil, or_false] at he
      rcases he with rfl | rfl | rfl <;> simp only [F.st1d, F.InBounds, and_true] <;> omega)
    convert x using 1
    have hv := c'.c0
    simp only [List.mem_cons, List.not_mem_nil, or_false] at he
    rcases he with rfl | rfl | rfl
    · simp only [c.c0, c'.c0, c.c1, c.c2, c'.c1, c'.c2, List.getD_cons_zero, List.getD_cons_succ, hx0]
      try ring_nf
    · simp only [c.c1, c'.c2, List.getD_cons_zero, List.getD_cons_succ, hx0]
      try ring_nf
    · simp only [c.c2, c'.c1, List.getD_cons_zero, List.getD_cons_succ, hx0]
      try ring_nf

example := C86_reflect_coef_poisson_1d (T := Rat) (i0 := 0) (i1 := 3) (sgcw := 1) (sgcw' := 1) (st := ⟨9, 0⟩) (st' := ⟨9, 0⟩) (beta := 2) (dx := exDx) (dx' := (fun d => if d = 0 then exDx 0 else 0)) (β3 := revBackend) (β3' := revBackend) (β4 := seqBackend) (β4' := seqBackend)
  (m := exWith [])
  (m' := exWith [])
  revBackend_ok seqBackend_ok revBackend_ok seqBackend_ok (by decide) (by decide) (by decide) rfl (exWith_args (by ex_args)) (exWith_args (by ex_args))

/-- 2D, diffusion operator with cell coefficients: for data with the axes exchanged the results are those of the plain data, with the axes exchanged. -/
theorem C86_exchange_v1_2d {i0 j0 i1 j1 agcw gcw rgcw agcw' gcw' rgcw' : Int} {alpha beta : T} {dx dx' : Nat → T} {a u b0 b1 f0 f1 res a' u' b0' b1' f0' f1' res' : Ptr} {β1 β2 β1' β2' : Nat → Backend} {m m' : Mem T} {A B0 B1 U : List Int → T}
    (hβ1 : ∀ n, ValidBackend (β1 n)) (hβ2 : ∀ n, ValidBackend (β2 n)) (hβ1' : ∀ n, ValidBackend (β1' n)) (hβ2' : ∀ n, ValidBackend (β2' n)) (hi : i0 ≤ i1) (hj : j0 ≤ j1) (hg : 1 ≤ gcw) (hagcw : 0 ≤ agcw) (hrgcw : 0 ≤ rgcw) (hg' : 1 ≤ gcw') (hagcw' : 0 ≤ agcw') (hrgcw' : 0 ≤ rgcw')
    (hx0 : dx' 0 = dx 1) (hx1 : dx' 1 = dx 0)
    (h : F.Args m [(F.cell2d a i0 j0 i1 j1 agcw), (F.cell2d u i0 j0 i1 j1 gcw), (F.face2d0 b0 i0 j0 i1 j1 0), (F.face2d1 b1 i0 j0 i1 j1 0)] [(F.face2d0 f0 i0 j0 i1 j1 0), (F.face2d1 f1 i0 j0 i1 j1 0), (F.cell2d res i0 j0 i1 j1 rgcw)]) (hp : F.Apart (F.face2d0 f0 i0 j0 i1 j1 0) (F.face2d1 f1 i0 j0 i1 j1 0)) (hr : F.Apart (F.cell2d res i0 j0 i1 j1 rgcw) (F.face2d0 f0 i0 j0 i1 j1 0) ∧ F.Apart (F.cell2d res i0 j0 i1 j1 rgcw) (F.face2d1 f1 i0 j0 i1 j1 0))
    (h' : F.Args m' [(F.cell2d a' j0 i0 j1 i1 agcw'), (F.cell2d u' j0 i0 j1 i1 gcw'), (F.face2d0 b0' j0 i0 j1 i1 0), (F.face2d1 b1' j0 i0 j1 i1 0)] [(F.face2d0 f0' j0 i0 j1 i1 0), (F.face2d1 f1' j0 i0 j1 i1 0), (F.cell2d res' j0 i0 j1 i1 rgcw')]) (hp' : F.Apart (F.face2d0 f0' j0 i0 j1 i1 0) (F.face2d1 f1' j0 i0 j1 i1 0)) (hr' : F.Apart (F.cell2d res' j0 i0 j1 i1 rgcw') (F.face2d0 f0' j0 i0 j1 i1 0) ∧ F.Apart (F.cell2d res' j0 i0 j1 i1 rgcw') (F.face2d1 f1' j0 i0 j1 i1 0))
    (hA : F.Holds m (F.cell2d a i0 j0 i1 j1 agcw) A) (hB0 : F.Holds m (F.face2d0 b0 i0 j0 i1 j1 0) B0) (hB1 : F.Holds m (F.face2d1 b1 i0 j0 i1 j1 0) B1) (hU : F.Holds m (F.cell2d u i0 j0 i1 j1 gcw) U)
    (hA' : F.Holds m' (F.cell2d a' j0 i0 j1 i1 agcw') (fun p => A [p.getD 1 0, p.getD 0 0])) (hB0' : F.Holds m' (F.face2d0 b0' j0 i0 j1 i1 0) (fun p => B1 [p.getD 0 0, p.getD 1 0])) (hB1' : F.Holds m' (F.face2d1 b1' j0 i0 j1 i1 0) (fun p => B0 [p.getD 0 0, p.getD 1 0])) (hU' : F.Holds m' (F.cell2d u' j0 i0 j1 i1 gcw') (fun p => U [p.getD 1 0, p.getD 0 0])) :
    ∃ m1 m2 m1' m2', Cuda.flux2d i0 j0 i1 j1 dx b0 b1 gcw u f0 f1 β1 m = .ok m1 ∧ Cuda.diffusionV1Apply2d i0 i1 j0 j1 alpha beta dx agcw a gcw u f0 f1 rgcw res β2 m1 = .ok m2 ∧ Cuda.flux2d j0 i0 j1 i1 dx' b0' b1' gcw' u' f0' f1' β1' m' = .ok m1' ∧ Cuda.diffusionV1Apply2d j0 j1 i0 i1 alpha beta dx' agcw' a' gcw' u' f0' f1' rgcw' res' β2' m1' = .ok m2' ∧
      ∀ i j, i0 ≤ i → i ≤ i1 → j0 ≤ j → j ≤ j1 → ∃ v, F.El m2 (F.cell2d res i0 j0 i1 j1 rgcw) [i, j] v ∧ F.El m2' (F.cell2d res' j0 i0 j1 i1 rgcw') [j, i] v := by
  obtain ⟨m1, m2, R, c1, c2, e, hR⟩ := energy_v1_2 (alpha := alpha) (beta := beta) (dx := dx) hβ1 hβ2 hi hj hg hagcw hrgcw h hp hr hA hB0 hB1 hU
  obtain ⟨m1', m2', R', c1', c2', e', hR'⟩ := energy_v1_2 (alpha := alpha) (beta := beta) (dx := dx') hβ1' hβ2' (by omega) (by omega) hg' hagcw' hrgcw' h' hp' hr' hA' hB0' hB1' hU'
  refine ⟨m1, m2, m1', m2', c1, c2, c1', c2', fun i j ia ib ja jb => ⟨_, e [i, j] (F.inBounds2.2 ⟨i, j, rfl, by omega⟩), ?_⟩⟩
  have x := e' [j, i] (F.inBounds2.2 ⟨j, i, rfl, by omega⟩)
  rw [hR' (j) (i) (by omega) (by omega) (by omega) (by omega)] at x
  rw [hR i j ia ib ja jb]
  convert x using 1
  simp only [F.op2, List.getD_cons_zero, List.getD_cons_succ, hx0, hx1]
  ring

example := C86_exchange_v1_2d (T := Rat) (i0 := 0) (j0 := 1) (i1 := 2) (j1 := 3) (agcw := 1) (gcw := 2) (rgcw := 1) (agcw' := 1) (gcw' := 2) (rgcw' := 1) (a := ⟨0, 0⟩) (u := ⟨1, 0⟩) (b0 := ⟨2, 0⟩) (b1 := ⟨3, 0⟩) (f0 := ⟨5, 0⟩) (f1 := ⟨6, 0⟩) (res := ⟨8, 0⟩) (a' := ⟨0, 0⟩) (u' := ⟨1, 0⟩) (b0' := ⟨2, 0⟩) (b1' := ⟨3, 0⟩) (f0' := ⟨5, 0⟩) (f1' := ⟨6, 0⟩) (res' := ⟨8, 0⟩) (alpha := 3) (beta := 2) (dx := exDx) (dx' := (fun d => if d = 0 then exDx 1 else if d = 1 then exDx 0 else 0)) (β1 := fun _ => revBackend) (β1' := fun _ => revBackend) (β2 := fun _ => seqBackend) (β2' := fun _ => seqBackend)
  (m := exWith [((F.cell2d ⟨0, 0⟩ 0 1 2 3 1), (exRd (F.cell2d ⟨0, 0⟩ 0 1 2 3 1))), ((F.face2d0 ⟨2, 0⟩ 0 1 2 3 0), (exRd (F.face2d0 ⟨2, 0⟩ 0 1 2 3 0))), ((F.face2d1 ⟨3, 0⟩ 0 1 2 3 0), (exRd (F.face2d1 ⟨3, 0⟩ 0 1 2 3 0))), ((F.cell2d ⟨1, 0⟩ 0 1 2 3 2), (exRd (F.cell2d ⟨1, 0⟩ 0 1 2 3 2)))])
  (m' := exWith [((F.cell2d ⟨0, 0⟩ 1 0 3 2 1), (fun p => exRd (F.cell2d ⟨0, 0⟩ 0 1 2 3 1) [p.getD 1 0, p.getD 0 0])), ((F.face2d0 ⟨2, 0⟩ 1 0 3 2 0), (fun p => exRd (F.face2d1 ⟨3, 0⟩ 0 1 2 3 0) [p.getD 0 0, p.getD 1 0])), ((F.face2d1 ⟨3, 0⟩ 1 0 3 2 0), (fun p => exRd (F.face2d0 ⟨2, 0⟩ 0 1 2 3 0) [p.getD 0 0, p.getD 1 0])), ((F.cell2d ⟨1, 0⟩ 1 0 3 2 2), (fun p => exRd (F.cell2d ⟨1, 0⟩ 0 1 2 3 2) [p.getD 1 0, p.getD 0 0]))])
  (fun _ => revBackend_ok) (fun _ => seqBackend_ok) (fun _ => revBackend_ok) (fun _ => seqBackend_ok) (by decide) (by decide) (by decide) (by decide) (by decide) (by decide) (by decide) (by decide) rfl rfl (exWith_args (by ex_args)) (apart_blk (by decide)) ⟨apart_blk (by decide), apart_blk (by decide)⟩ (exWith_args (by ex_args)) (apart_blk (by decide)) ⟨apart_blk (by decide), apart_blk (by decide)⟩ (exWith_rd (exRat_ok rfl (by decide) (by decide)) rfl rfl) (exWith_rd (exRat_ok rfl (by decide) (by decide)) rfl rfl) (exWith_rd (exRat_ok rfl (by decide) (by decide)) rfl rfl) (exWith_rd (exRat_ok rfl (by decide) (by decide)) rfl rfl) (exWith_rd (exRat_ok rfl (by decide) (by decide)) rfl rfl) (exWith_rd (exRat_ok rfl (by decide) (by decide)) rfl rfl) (exWith_rd (exRat_ok rfl (by decide) (by decide)) rfl rfl) (exWith_rd (exRat_ok rfl (by decide) (by decide)) rfl rfl)

/-- 2D, diffusion operator with cell coefficients: for data with the axes exchanged the assembled coefficients are those of the plain data, with the axes exchanged. -/
theorem C86_exchange_coef_v1_2d {i0 j0 i1 j1 agcw sgcw agcw' sgcw' : Int} {alpha beta : T} {dx dx' : Nat → T} {a b0 b1 st a' b0' b1' st' : Ptr} {β3 β4 β3' β4' : Backend} {m m' : Mem T} {A B0 B1 : List Int → T}
    (hβ3 : ValidBackend β3) (hβ4 : ValidBackend β4) (hβ3' : ValidBackend β3') (hβ4' : ValidBackend β4') (hi : i0 ≤ i1) (hj : j0 ≤ j1) (hagcw : 0 ≤ agcw) (hs : 0 ≤ sgcw) (hagcw' : 0 ≤ agcw') (hs' : 0 ≤ sgcw')
    (hx0 : dx' 0 = dx 1) (hx1 : dx' 1 = dx 0)
    (h : F.Args m [(F.cell2d a i0 j0 i1 j1 agcw), (F.face2d0 b0 i0 j0 i1 j1 0), (F.face2d1 b1 i0 j0 i1 j1 0)] [(F.st2d st i0 j0 i1 j1 sgcw)])
    (h' : F.Args m' [(F.cell2d a' j0 i0 j1 i1 agcw'), (F.face2d0 b0' j0 i0 j1 i1 0), (F.face2d1 b1' j0 i0 j1 i1 0)] [(F.st2d st' j0 i0 j1 i1 sgcw')])
    (hA : F.Holds m (F.cell2d a i0 j0 i1 j1 agcw) A) (hB0 : F.Holds m (F.face2d0 b0 i0 j0 i1 j1 0) B0) (hB1 : F.Holds m (F.face2d1 b1 i0 j0 i1 j1 0) B1)
    (hA' : F.Holds m' (F.cell2d a' j0 i0 j1 i1 agcw') (fun p => A [p.getD 1 0, p.getD 0 0])) (hB0' : F.Holds m' (F.face2d0 b0' j0 i0 j1 i1 0) (fun p => B1 [p.getD 0 0, p.getD 1 0])) (hB1' : F.Holds m' (F.face2d1 b1' j0 i0 j1 i1 0) (fun p => B0 [p.getD 0 0, p.getD 1 0])) :
    ∃ s1 s2 s1' s2', Cuda.offdiag2d i0 j0 i1 j1 i0 j0 i1 j1 dx beta b0 b1 sgcw st β3 m = .ok s1 ∧ Cuda.v1diag2d i0 j0 i1 j1 (i0 - agcw) (j0 - agcw) (i1 + agcw) (j1 + agcw) alpha a sgcw st β4 s1 = .ok s2 ∧ Cuda.offdiag2d j0 i0 j1 i1 j0 i0 j1 i1 dx' beta b0' b1' sgcw' st' β3' m' = .ok s1' ∧ Cuda.v1diag2d j0 i0 j1 i1 (j0 - agcw') (i0 - agcw') (j1 + agcw') (i1 + agcw') alpha a' sgcw' st' β4' s1' = .ok s2' ∧
      ∀ i j, i0 ≤ i → i ≤ i1 → j0 ≤ j → j ≤ j1 → ∀ e ∈ ([(0, 0), (1, 3), (2, 4), (3, 1), (4, 2)] : List (Int × Int)), ∃ v, F.El s2 (F.st2d st i0 j0 i1 j1 sgcw) [e.1, i, j] v ∧ F.El s2' (F.st2d st' j0 i0 j1 i1 sgcw') [e.2, j, i] v := by
  obtain ⟨s1, s2, S, c1, c2, -, hS, hc⟩ := asm_v1_2 (alpha := alpha) (beta := beta) (dx := dx) hβ3 hβ4 hi hj hagcw hs h hA hB0 hB1
  obtain ⟨s1', s2', S', c1', c2', -, hS', hc'⟩ := asm_v1_2 (alpha := alpha) (beta := beta) (dx := dx') hβ3' hβ4' (by omega) (by omega) hagcw' hs' h' hA' hB0' hB1'
  refine ⟨s1, s2, s1', s2', c1, c2, c1', c2', fun i j ia ib ja jb e he => ⟨S [e.1, i, j], hS _ ?_, ?_⟩⟩
  · simp only [List.mem_cons, List.not_mem_nil, or_false] at he
    rcases he with rfl | rfl | rfl | rfl | rfl <;> simp only [F.st2d, F.InBounds, and_true] <;> omega
  · have c := hc i j ia ib ja jb
    have c' := hc' (j) (i) (by omega) (by omega) (by omega) (by omega)
    have x := hS' [e.2, j, i] (by
      simp only [List.mem_cons, List.not_mem_nil, or_false] at he
      rcases he with rfl | rfl | rfl | rfl | rfl <;> simp only [F.st2d, F.InBounds, and_true] <;> omega)
    convert x using 1
    have hv := c'.c0
    simp only [List.mem_cons, List.not_mem_nil, or_false] at he
    rcases he with rfl | rfl | rfl | rfl | rfl
    · simp only [c.c0, c'.c0, c.c1, c.c2, c.c3, c.c4, c'.c1, c'.c2, c'.c3, c'.c4, List.getD_cons_zero, List.getD_cons_succ, hx0, hx1]
      try ring_nf
    · simp only [c.c1, c'.c3, List.getD_cons_zero, List.getD_cons_succ, hx0, hx1]
      try ring_nf
    · simp only [c.c2, c'.c4, List.getD_cons_zero, List.getD_cons_succ, hx0, hx1]
      try ring_nf
    · simp only [c.c3, c'.c1, List.getD_cons_zero, List.getD_cons_succ, hx0, hx1]
      try ring_nf
    · simp only [c.c4, c'.c2, List.getD_cons_zero, List.getD_cons_succ, hx0, hx1]
      try ring_nf

example := C86_exchange_coef_v1_2d (T := Rat) (i0 := 0) (j0 := 1) (i1 := 2) (j1 := 3) (agcw := 1) (sgcw := 1) (agcw' := 1) (sgcw' := 1) (a := ⟨0, 0⟩) (b0 := ⟨2, 0⟩) (b1 := ⟨3, 0⟩) (st := ⟨9, 0⟩) (a' := ⟨0, 0⟩) (b0' := ⟨2, 0⟩) (b1' := ⟨3, 0⟩) (st' := ⟨9, 0⟩) (alpha := 3) (beta := 2) (dx := exDx) (dx' := (fun d => if d = 0 then exDx 1 else if d = 1 then exDx 0 else 0)) (β3 := revBackend) (β3' := revBackend) (β4 := seqBackend) (β4' := seqBackend)
  (m := exWith [((F.cell2d ⟨0, 0⟩ 0 1 2 3 1), (exRd (F.cell2d ⟨0, 0⟩ 0 1 2 3 1))), ((F.face2d0 ⟨2, 0⟩ 0 1 2 3 0), (exRd (F.face2d0 ⟨2, 0⟩ 0 1 2 3 0))), ((F.face2d1 ⟨3, 0⟩ 0 1 2 3 0), (exRd (F.face2d1 ⟨3, 0⟩ 0 1 2 3 0)))])
  (m' := exWith [((F.cell2d ⟨0, 0⟩ 1 0 3 2 1), (fun p => exRd (F.cell2d ⟨0, 0⟩ 0 1 2 3 1) [p.getD 1 0, p.getD 0 0])), ((F.face2d0 ⟨2, 0⟩ 1 0 3 2 0), (fun p => exRd (F.face2d1 ⟨3, 0⟩ 0 1 2 3 0) [p.getD 0 0, p.getD 1 0])), ((F.face2d1 ⟨3, 0⟩ 1 0 3 2 0), (fun p => exRd (F.face2d0 ⟨2, 0⟩ 0 1 2 3 0) [p.getD 0 0, p.getD 1 0]))])
  revBackend_ok seqBackend_ok revBackend_ok seqBackend_ok (by decide) (by decide) (by decide) (by decide) (by decide) (by decide) rfl rfl (exWith_args (by ex_args)) (exWith_args (by ex_args)) (exWith_rd (exRat_ok rfl (by decide) (by decide)) rfl rfl) (exWith_rd (exRat_ok rfl (by decide) (by decide)) rfl rfl) (exWith_rd (exRat_ok rfl (by decide) (by decide)) rfl rfl) (exWith_rd (exRat_ok rfl (by decide) (by decide)) rfl rfl) (exWith_rd (exRat_ok rfl (by decide) (by decide)) rfl rfl) (exWith_rd (exRat_ok rfl (by decide) (by decide)) rfl rfl)

/-- 2D, diffusion operator with constant reaction: for data with the axes exchanged the results are those of the plain data, with the axes exchanged. -/
theorem C86_exchange_v2_2d {i0 j0 i1 j1 gcw rgcw gcw' rgcw' : Int} {alpha beta : T} {dx dx' : Nat → T} {u b0 b1 f0 f1 res u' b0' b1' f0' f1' res' : Ptr} {β1 β2 β1' β2' : Nat → Backend} {m m' : Mem T} {B0 B1 U : List Int → T}
    (hβ1 : ∀ n, ValidBackend (β1 n)) (hβ2 : ∀ n, ValidBackend (β2 n)) (hβ1' : ∀ n, ValidBackend (β1' n)) (hβ2' : ∀ n, ValidBackend (β2' n)) (hi : i0 ≤ i1) (hj : j0 ≤ j1) (hg : 1 ≤ gcw) (hrgcw : 0 ≤ rgcw) (hg' : 1 ≤ gcw') (hrgcw' : 0 ≤ rgcw')
    (hx0 : dx' 0 = dx 1) (hx1 : dx' 1 = dx 0)
    (h : F.Args m [(F.cell2d u i0 j0 i1 j1 gcw), (F.face2d0 b0 i0 j0 i1 j1 0), (F.face2d1 b1 i0 j0 i1 j1 0)] [(F.face2d0 f0 i0 j0 i1 j1 0), (F.face2d1 f1 i0 j0 i1 j1 0), (F.cell2d res i0 j0 i1 j1 rgcw)]) (hp : F.Apart (F.face2d0 f0 i0 j0 i1 j1 0) (F.face2d1 f1 i0 j0 i1 j1 0)) (hr : F.Apart (F.cell2d res i0 j0 i1 j1 rgcw) (F.face2d0 f0 i0 j0 i1 j1 0) ∧ F.Apart (F.cell2d res i0 j0 i1 j1 rgcw) (F.face2d1 f1 i0 j0 i1 j1 0))
    (h' : F.Args m' [(F.cell2d u' j0 i0 j1 i1 gcw'), (F.face2d0 b0' j0 i0 j1 i1 0), (F.face2d1 b1' j0 i0 j1 i1 0)] [(F.face2d0 f0' j0 i0 j1 i1 0), (F.face2d1 f1' j0 i0 j1 i1 0), (F.cell2d res' j0 i0 j1 i1 rgcw')]) (hp' : F.Apart (F.face2d0 f0' j0 i0 j1 i1 0) (F.face2d1 f1' j0 i0 j1 i1 0)) (hr' : F.Apart (F.cell2d res' j0 i0 j1 i1 rgcw') (F.face2d0 f0' j0 i0 j1 i1 0) ∧ F.Apart (F.cell2d res' j0 i0 j1 i1 rgcw') (F.face2d1 f1' j0 i0 j1 i1 0))
    (hB0 : F.Holds m (F.face2d0 b0 i0 j0 i1 j1 0) B0) (hB1 : F.Holds m (F.face2d1 b1 i0 j0 i1 j1 0) B1) (hU : F.Holds m (F.cell2d u i0 j0 i1 j1 gcw) U)
    (hB0' : F.Holds m' (F.face2d0 b0' j0 i0 j1 i1 0) (fun p => B1 [p.getD 0 0, p.getD 1 0])) (hB1' : F.Holds m' (F.face2d1 b1' j0 i0 j1 i1 0) (fun p => B0 [p.getD 0 0, p.getD 1 0])) (hU' : F.Holds m' (F.cell2d u' j0 i0 j1 i1 gcw') (fun p => U [p.getD 1 0, p.getD 0 0])) :
    ∃ m1 m2 m1' m2', Cuda.flux2d i0 j0 i1 j1 dx b0 b1 gcw u f0 f1 β1 m = .ok m1 ∧ Cuda.diffusionV2Apply2d i0 i1 j0 j1 alpha beta dx gcw u f0 f1 rgcw res β2 m1 = .ok m2 ∧ Cuda.flux2d j0 i0 j1 i1 dx' b0' b1' gcw' u' f0' f1' β1' m' = .ok m1' ∧ Cuda.diffusionV2Apply2d j0 j1 i0 i1 alpha beta dx' gcw' u' f0' f1' rgcw' res' β2' m1' = .ok m2' ∧
      ∀ i j, i0 ≤ i → i ≤ i1 → j0 ≤ j → j ≤ j1 → ∃ v, F.El m2 (F.cell2d res i0 j0 i1 j1 rgcw) [i, j] v ∧ F.El m2' (F.cell2d res' j0 i0 j1 i1 rgcw') [j, i] v := by
  obtain ⟨m1, m2, R, c1, c2, e, hR⟩ := energy_v2_2 (alpha := alpha) (beta := beta) (dx := dx) hβ1 hβ2 hi hj hg hrgcw h hp hr hB0 hB1 hU
  obtain ⟨m1', m2', R', c1', c2', e', hR'⟩ := energy_v2_2 (alpha := alpha) (beta := beta) (dx := dx') hβ1' hβ2' (by omega) (by omega) hg' hrgcw' h' hp' hr' hB0' hB1' hU'
  refine ⟨m1, m2, m1', m2', c1, c2, c1', c2', fun i j ia ib ja jb => ⟨_, e [i, j] (F.inBounds2.2 ⟨i, j, rfl, by omega⟩), ?_⟩⟩
  have x := e' [j, i] (F.inBounds2.2 ⟨j, i, rfl, by omega⟩)
  rw [hR' (j) (i) (by omega) (by omega) (by omega) (by omega)] at x
  rw [hR i j ia ib ja jb]
  convert x using 1
  simp only [F.op2, List.getD_cons_zero, List.getD_cons_succ, hx0, hx1]
  ring

example := C86_exchange_v2_2d (T := Rat) (i0 := 0) (j0 := 1) (i1 := 2) (j1 := 3) (gcw := 2) (rgcw := 1) (gcw' := 2) (rgcw' := 1) (u := ⟨1, 0⟩) (b0 := ⟨2, 0⟩) (b1 := ⟨3, 0⟩) (f0 := ⟨5, 0⟩) (f1 := ⟨6, 0⟩) (res := ⟨8, 0⟩) (u' := ⟨1, 0⟩) (b0' := ⟨2, 0⟩) (b1' := ⟨3, 0⟩) (f0' := ⟨5, 0⟩) (f1' := ⟨6, 0⟩) (res' := ⟨8, 0⟩) (alpha := 3) (beta := 2) (dx := exDx) (dx' := (fun d => if d = 0 then exDx 1 else if d = 1 then exDx 0 else 0)) (β1 := fun _ => revBackend) (β1' := fun _ => revBackend) (β2 := fun _ => seqBackend) (β2' := fun _ => seqBackend)
  (m := exWith [((F.face2d0 ⟨2, 0⟩ 0 1 2 3 0), (exRd (F.face2d0 ⟨2, 0⟩ 0 1 2 3 0))), ((F.face2d1 ⟨3, 0⟩ 0 1 2 3 0), (exRd (F.face2d1 ⟨3, 0⟩ 0 1 2 3 0))), ((F.cell2d ⟨1, 0⟩ 0 1 2 3 2), (exRd (F.cell2d ⟨1, 0⟩ 0 1 2 3 2)))])
  (m' := exWith [((F.face2d0 ⟨2, 0⟩ 1 0 3 2 0), (fun p => exRd (F.face2d1 ⟨3, 0⟩ 0 1 2 3 0) [p.getD 0 0, p.getD 1 0])), ((F.face2d1 ⟨3, 0⟩ 1 0 3 2 0), (fun p => exRd (F.face2d0 ⟨2, 0⟩ 0 1 2 3 0) [p.getD 0 0, p.getD 1 0])), ((F.cell2d ⟨1, 0⟩ 1 0 3 2 2), (fun p => exRd (F.cell2d ⟨1, 0⟩ 0 1 2 3 2) [p.getD 1 0, p.getD 0 0]))])
  (fun _ => revBackend_ok) (fun _ => seqBackend_ok) (fun _ => revBackend_ok) (fun _ => seqBackend_ok) (by decide) (by decide) (by decide) (by decide) (by decide) (by decide) rfl rfl (exWith_args (by ex_args)) (apart_blk (by decide)) ⟨apart_blk (by decide), apart_blk (by decide)⟩ (exWith_args (by ex_args)) (apart_blk (by decide)) ⟨apart_blk (by decide), apart_blk (by decide)⟩ (exWith_rd (exRat_ok rfl (by decide) (by decide)) rfl rfl) (exWith_rd (exRat_ok rfl (by decide) (by decide)) rfl rfl) (exWith_rd (exRat_ok rfl (by decide) (by decide)) rfl rfl) (exWith_rd (exRat_ok rfl (by decide) (by decide)) rfl rfl) (exWith_rd (exRat_ok rfl (by decide) (by decide)) rfl rfl) (exWith_rd (exRat_ok rfl (by decide) (by decide)) rfl rfl)

/-- 2D, diffusion operator with constant reaction: for data with the axes exchanged the assembled coefficients are those of the plain data, with the axes exchanged. -/
theorem C86_exchange_coef_v2_2d {i0 j0 i1 j1 sgcw sgcw' : Int} {alpha beta : T} {dx dx' : Nat → T} {b0 b1 st b0' b1' st' : Ptr} {β3 β4 β3' β4' : Backend} {m m' : Mem T} {B0 B1 : List Int → T}
    (hβ3 : ValidBackend β3) (hβ4 : ValidBackend β4) (hβ3' : ValidBackend β3') (hβ4' : ValidBackend β4') (hi : i0 ≤ i1) (hj : j0 ≤ j1) (hs : 0 ≤ sgcw) (hs' : 0 ≤ sgcw')
    (hx0 : dx' 0 = dx 1) (hx1 : dx' 1 = dx 0)
    (h : F.Args m [(F.face2d0 b0 i0 j0 i1 j1 0), (F.face2d1 b1 i0 j0 i1 j1 0)] [(F.st2d st i0 j0 i1 j1 sgcw)])
    (h' : F.Args m' [(F.face2d0 b0' j0 i0 j1 i1 0), (F.face2d1 b1' j0 i0 j1 i1 0)] [(F.st2d st' j0 i0 j1 i1 sgcw')])
    (hB0 : F.Holds m (F.face2d0 b0 i0 j0 i1 j1 0) B0) (hB1 : F.Holds m (F.face2d1 b1 i0 j0 i1 j1 0) B1)
    (hB0' : F.Holds m' (F.face2d0 b0' j0 i0 j1 i1 0) (fun p => B1 [p.getD 0 0, p.getD 1 0])) (hB1' : F.Holds m' (F.face2d1 b1' j0 i0 j1 i1 0) (fun p => B0 [p.getD 0 0, p.getD 1 0])) :
    ∃ s1 s2 s1' s2', Cuda.offdiag2d i0 j0 i1 j1 i0 j0 i1 j1 dx beta b0 b1 sgcw st β3 m = .ok s1 ∧ Cuda.v2diag2d i0 j0 i1 j1 alpha sgcw st β4 s1 = .ok s2 ∧ Cuda.offdiag2d j0 i0 j1 i1 j0 i0 j1 i1 dx' beta b0' b1' sgcw' st' β3' m' = .ok s1' ∧ Cuda.v2diag2d j0 i0 j1 i1 alpha sgcw' st' β4' s1' = .ok s2' ∧
      ∀ i j, i0 ≤ i → i ≤ i1 → j0 ≤ j → j ≤ j1 → ∀ e ∈ ([(0, 0), (1, 3), (2, 4), (3, 1), (4, 2)] : List (Int × Int)), ∃ v, F.El s2 (F.st2d st i0 j0 i1 j1 sgcw) [e.1, i, j] v ∧ F.El s2' (F.st2d st' j0 i0 j1 i1 sgcw') [e.2, j, i] v := by
  obtain ⟨s1, s2, S, c1, c2, -, hS, hc⟩ := asm_v2_2 (alpha := alpha) (beta := beta) (dx := dx) hβ3 hβ4 hi hj hs h hB0 hB1
  obtain ⟨s1', s2', S', c1', c2', -, hS', hc'⟩ := asm_v2_2 (alpha := alpha) (beta := beta) (dx := dx') hβ3' hβ4' (by omega) (by omega) hs' h' hB0' hB1'
  refine ⟨s1, s2, s1', s2', c1, c2, c1', c2', fun i j ia ib ja jb e he => ⟨S [e.1, i, j], hS _ ?_, ?_⟩⟩
  · simp only [List.mem_cons, List.not_mem_nil, or_false] at he
    rcases he with rfl | rfl | rfl | rfl | rfl <;> simp only [F.st2d, F.InBounds, and_true] <;> omega
  · have c := hc i j ia ib ja jb
    have c' := hc' (j) (i) (by omega) (by omega) (by omega) (by omega)
    have x := hS' [e.2, j, i] (by
      simp only [List.mem_cons, List.not_mem_nil, or_false] at he
      rcases he with rfl | rfl | rfl | rfl | rfl <;> simp only [F.st2d, F.InBounds, and_true] <;> omega)
    convert x using 1
    have hv := c'.c0
    simp only [List.mem_cons, List.not_mem_nil, or_false] at he
    rcases he with rfl | rfl | rfl | rfl | rfl
    · simp only [c.c0, c'.c0, c.c1, c.c2, c.c3, c.c4, c'.c1, c'.c2, c'.c3, c'.c4, List.getD_cons_zero, List.getD_cons_succ, hx0, hx1]
      try ring_nf
    · simp only [c.c1, c'.c3, List.getD_cons_zero, List.getD_cons_succ, hx0, hx1]
      try ring_nf
    · simp only [c.c2, c'.c4, List.getD_cons_zero, List.getD_cons_succ, hx0, hx1]
      try ring_nf
    · simp only [c.c3, c'.c1, List.getD_cons_zero, List.getD_cons_succ, hx0, hx1]
      try ring_nf
    · simp only [c.c4, c'.c2, List.getD_cons_zero, List.getD_cons_succ, hx0, hx1]
      try ring_nf

example := C86_exchange_coef_v2_2d (T := Rat) (i0 := 0) (j0 := 1) (i1 := 2) (j1 := 3) (sgcw := 1) (sgcw' := 1) (b0 := ⟨2, 0⟩) (b1 := ⟨3, 0⟩) (st := ⟨9, 0⟩) (b0' := ⟨2, 0⟩) (b1' := ⟨3, 0⟩) (st' := ⟨9, 0⟩) (alpha := 3) (beta := 2) (dx := exDx) (dx' := (fun d => if d = 0 then exDx 1 else if d = 1 then exDx 0 else 0)) (β3 := revBackend) (β3' := revBackend) (β4 := seqBackend) (β4' := seqBackend)
  (m := exWith [((F.face2d0 ⟨2, 0⟩ 0 1 2 3 0), (exRd (F.face2d0 ⟨2, 0⟩ 0 1 2 3 0))), ((F.face2d1 ⟨3, 0⟩ 0 1 2 3 0), (exRd (F.face2d1 ⟨3, 0⟩ 0 1 2 3 0)))])
  (m' := exWith [((F.face2d0 ⟨2, 0⟩ 1 0 3 2 0), (fun p => exRd (F.face2d1 ⟨3, 0⟩ 0 1 2 3 0) [p.getD 0 0, p.getD 1 0])), ((F.face2d1 ⟨3, 0⟩ 1 0 3 2 0), (fun p => exRd (F.face2d0 ⟨2, 0⟩ 0 1 2 3 0) [p.getD 0 0, p.getD 1 0]))])
  revBackend_ok seqBackend_ok revBackend_ok seqBackend_ok (by decide) (by decide) (by decide) (by decide) rfl rfl (exWith_args (by ex_args)) (exWith_args (by ex_args)) (exWith_rd (exRat_ok rfl (by decide) (by decide)) rfl rfl) (exWith_rd (exRat_ok rfl (by decide) (by decide)) rfl rfl) (exWith_rd (exRat_ok rfl (by decide) (by decide)) rfl rfl) (exWith_rd (exRat_ok rfl (by decide) (by decide)) rfl rfl)

/-- 2D, Poisson operator: for data with the axes exchanged the results are those of the plain data, with the axes exchanged. -/
theorem C86_exchange_poisson_2d {i0 j0 i1 j1 gcw rgcw gcw' rgcw' : Int} {beta : T} {dx dx' : Nat → T} {u f0 f1 res u' f0' f1' res' : Ptr} {β1 β2 β1' β2' : Nat → Backend} {m m' : Mem T} {U : List Int → T}
    (hβ1 : ∀ n, ValidBackend (β1 n)) (hβ2 : ∀ n, ValidBackend (β2 n)) (hβ1' : ∀ n, ValidBackend (β1' n)) (hβ2' : ∀ n, ValidBackend (β2' n)) (hi : i0 ≤ i1) (hj : j0 ≤ j1) (hg : 1 ≤ gcw) (hrgcw : 0 ≤ rgcw) (hg' : 1 ≤ gcw') (hrgcw' : 0 ≤ rgcw')
    (hx0 : dx' 0 = dx 1) (hx1 : dx' 1 = dx 0)
    (h : F.Args m [(F.cell2d u i0 j0 i1 j1 gcw)] [(F.face2d0 f0 i0 j0 i1 j1 0), (F.face2d1 f1 i0 j0 i1 j1 0), (F.cell2d res i0 j0 i1 j1 rgcw)]) (hp : F.Apart (F.face2d0 f0 i0 j0 i1 j1 0) (F.face2d1 f1 i0 j0 i1 j1 0)) (hr : F.Apart (F.cell2d res i0 j0 i1 j1 rgcw) (F.face2d0 f0 i0 j0 i1 j1 0) ∧ F.Apart (F.cell2d res i0 j0 i1 j1 rgcw) (F.face2d1 f1 i0 j0 i1 j1 0))
    (h' : F.Args m' [(F.cell2d u' j0 i0 j1 i1 gcw')] [(F.face2d0 f0' j0 i0 j1 i1 0), (F.face2d1 f1' j0 i0 j1 i1 0), (F.cell2d res' j0 i0 j1 i1 rgcw')]) (hp' : F.Apart (F.face2d0 f0' j0 i0 j1 i1 0) (F.face2d1 f1' j0 i0 j1 i1 0)) (hr' : F.Apart (F.cell2d res' j0 i0 j1 i1 rgcw') (F.face2d0 f0' j0 i0 j1 i1 0) ∧ F.Apart (F.cell2d res' j0 i0 j1 i1 rgcw') (F.face2d1 f1' j0 i0 j1 i1 0))
    (hU : F.Holds m (F.cell2d u i0 j0 i1 j1 gcw) U)
    (hU' : F.Holds m' (F.cell2d u' j0 i0 j1 i1 gcw') (fun p => U [p.getD 1 0, p.getD 0 0])) :
    ∃ m1 m2 m1' m2', Cuda.poissonFlux2d i0 j0 i1 j1 dx gcw u f0 f1 β1 m = .ok m1 ∧ Cuda.poissonV2Apply2d i0 i1 j0 j1 beta dx f0 f1 rgcw res β2 m1 = .ok m2 ∧ Cuda.poissonFlux2d j0 i0 j1 i1 dx' gcw' u' f0' f1' β1' m' = .ok m1' ∧ Cuda.poissonV2Apply2d j0 j1 i0 i1 beta dx' f0' f1' rgcw' res' β2' m1' = .ok m2' ∧
      ∀ i j, i0 ≤ i → i ≤ i1 → j0 ≤ j → j ≤ j1 → ∃ v, F.El m2 (F.cell2d res i0 j0 i1 j1 rgcw) [i, j] v ∧ F.El m2' (F.cell2d res' j0 i0 j1 i1 rgcw') [j, i] v := by
  obtain ⟨m1, m2, R, c1, c2, e, hR⟩ := energy_p_2 (beta := beta) (dx := dx) hβ1 hβ2 hi hj hg hrgcw h hp hr hU
  obtain ⟨m1', m2', R', c1', c2', e', hR'⟩ := energy_p_2 (beta := beta) (dx := dx') hβ1' hβ2' (by omega) (by omega) hg' hrgcw' h' hp' hr' hU'
  refine ⟨m1, m2, m1', m2', c1, c2, c1', c2', fun i j ia ib ja jb => ⟨_, e [i, j] (F.inBounds2.2 ⟨i, j, rfl, by omega⟩), ?_⟩⟩
  have x := e' [j, i] (F.inBounds2.2 ⟨j, i, rfl, by omega⟩)
  rw [hR' (j) (i) (by omega) (by omega) (by omega) (by omega)] at x
  rw [hR i j ia ib ja jb]
  convert x using 1
  simp only [F.op2, List.getD_cons_zero, List.getD_cons_succ, hx0, hx1]
  ring

example := C86_exchange_poisson_2d (T := Rat) (i0 := 0) (j0 := 1) (i1 := 2) (j1 := 3) (gcw := 2) (rgcw := 1) (gcw' := 2) (rgcw' := 1) (u := ⟨1, 0⟩) (f0 := ⟨5, 0⟩) (f1 := ⟨6, 0⟩) (res := ⟨8, 0⟩) (u' := ⟨1, 0⟩) (f0' := ⟨5, 0⟩) (f1' := ⟨6, 0⟩) (res' := ⟨8, 0⟩) (beta := 2) (dx := exDx) (dx' := (fun d => if d = 0 then exDx 1 else if d = 1 then exDx 0 else 0)) (β1 := fun _ => revBackend) (β1' := fun _ => revBackend) (β2 := fun _ => seqBackend) (β2' := fun _ => seqBackend)
  (m := exWith [((F.cell2d ⟨1, 0⟩ 0 1 2 3 2), (exRd (F.cell2d ⟨1, 0⟩ 0 1 2 3 2)))])
  (m' := exWith [((F.cell2d ⟨1, 0⟩ 1 0 3 2 2), (fun p => exRd (F.cell2d ⟨1, 0⟩ 0 1 2 3 2) [p.getD 1 0, p.getD 0 0]))])
  (fun _ => revBackend_ok) (fun _ => seqBackend_ok) (fun _ => revBackend_ok) (fun _ => seqBackend_ok) (by decide) (by decide) (by decide) (by decide) (by decide) (by decide) rfl rfl (exWith_args (by ex_args)) (apart_blk (by decide)) ⟨apart_blk (by decide), apart_blk (by decide)⟩ (exWith_args (by ex_args)) (apart_blk (by decide)) ⟨apart_blk (by decide), apart_blk (by decide)⟩ (exWith_rd (exRat_ok rfl (by decide) (by decide)) rfl rfl) (exWith_rd (exRat_ok rfl (by decide) (by decide)) rfl rfl)

/-- 2D, Poisson operator: for data with the axes exchanged the assembled coefficients are those of the plain data, with the axes exchanged. -/
theorem C86_exchange_coef_poisson_2d {i0 j0 i1 j1 sgcw sgcw' : Int} {beta : T} {dx dx' : Nat → T} {st st' : Ptr} {β3 β4 β3' β4' : Backend} {m m' : Mem T}
    (hβ3 : ValidBackend β3) (hβ4 : ValidBackend β4) (hβ3' : ValidBackend β3') (hβ4' : ValidBackend β4') (hi : i0 ≤ i1) (hj : j0 ≤ j1) (hs : 0 ≤ sgcw) (hs' : 0 ≤ sgcw')
    (hx0 : dx' 0 = dx 1) (hx1 : dx' 1 = dx 0)
    (h : F.Args m [] [(F.st2d st i0 j0 i1 j1 sgcw)])
    (h' : F.Args m' [] [(F.st2d st' j0 i0 j1 i1 sgcw')]) :
    ∃ s1 s2 s1' s2', Cuda.poissonOffdiag2d i0 j0 i1 j1 dx beta sgcw st β3 m = .ok s1 ∧ Cuda.poissonDiag2d i0 j0 i1 j1 sgcw st β4 s1 = .ok s2 ∧ Cuda.poissonOffdiag2d j0 i0 j1 i1 dx' beta sgcw' st' β3' m' = .ok s1' ∧ Cuda.poissonDiag2d j0 i0 j1 i1 sgcw' st' β4' s1' = .ok s2' ∧
      ∀ i j, i0 ≤ i → i ≤ i1 → j0 ≤ j → j ≤ j1 → ∀ e ∈ ([(0, 0), (1, 3), (2, 4), (3, 1), (4, 2)] : List (Int × Int)), ∃ v, F.El s2 (F.st2d st i0 j0 i1 j1 sgcw) [e.1, i, j] v ∧ F.El s2' (F.st2d st' j0 i0 j1 i1 sgcw') [e.2, j, i] v := by
  obtain ⟨s1, s2, S, c1, c2, -, hS, hc⟩ := asm_p_2 (beta := beta) (dx := dx) hβ3 hβ4 hi hj hs h
  obtain ⟨s1', s2', S', c1', c2', -, hS', hc'⟩ := asm_p_2 (beta := beta) (dx := dx') hβ3' hβ4' (by omega) (by omega) hs' h'
  refine ⟨s1, s2, s1', s2', c1, c2, c1', c2', fun i j ia ib ja jb e he => ⟨S [e.1, i, j], hS _ ?_, ?_⟩⟩
  · simp only [List.mem_cons, List.not_mem_nil, or_false] at he
    rcases he with rfl | rfl | rfl | rfl | rfl <;> simp only [F.st2d, F.InBounds, and_true] <;> omega
  · have c := hc i j ia ib ja jb
    have c' := hc' (j) (i) (by omega) (by omega) (by omega) (by omega)
    have x := hS' [e.2, j, i] (by
      simp only [List.mem_cons, List.not_mem_nil, or_false] at he
      rcases he with rfl | rfl | rfl | rfl | rfl <;> simp only [F.st2d, F.InBounds, and_true] <;> omega)
    convert x using 1
    have hv := c'.c0
    simp only [List.mem_cons, List.not_mem_nil, or_false] at he
    rcases he with rfl | rfl | rfl | rfl | rfl
    · simp only [c.c0, c'.c0, c.c1, c.c2, c.c3, c.c4, c'.c1, c'.c2, c'.c3, c'.c4, List.getD_cons_zero, List.getD_cons_succ, hx0, hx1]
      try ring_nf
    · simp only [c.c1, c'.c3, List.getD_cons_zero, List.getD_cons_succ, hx0, hx1]
      try ring_nf
    · simp only [c.c2, c'.c4, List.getD_cons_zero, List.getD_cons_succ, hx0, hx1]
      try ring_nf
    · simp only [c.c3, c'.c1, List.getD_cons_zero, List.getD_cons_succ, hx0, hx1]
      try ring_nf
    · simp only [c.c4, c'.c2, List.getD_cons_zero, List.getD_cons_succ, hx0, hx1]
      try ring_nf

example := C86_exchange_coef_poisson_2d (T := Rat) (i0 := 0) (j0 := 1) (i1 := 2) (j1 := 3) (sgcw := 1) (sgcw' := 1) (st := ⟨9, 0⟩) (st' := ⟨9, 0⟩) (beta := 2) (dx := exDx) (dx' := (fun d => if d = 0 then exDx 1 else if d = 1 then exDx 0 else 0)) (β3 := revBackend) (β3' := revBackend) (β4 := seqBackend) (β4' := seqBackend)
  (m := exWith [])
  (m' := exWith [])
  revBackend_ok seqBackend_ok revBackend_ok seqBackend_ok (by decide) (by decide) (by decide) (by decide) rfl rfl (exWith_args (by ex_args)) (exWith_args (by ex_args))

/-- 2D, diffusion operator with cell coefficients: for data reflected in the first direction the results are those of the plain data, reflected in the first direction. -/
theorem C86_reflect_v1_2d {i0 j0 i1 j1 agcw gcw rgcw agcw' gcw' rgcw' : Int} {alpha beta : T} {dx dx' : Nat → T} {a u b0 b1 f0 f1 res a' u' b0' b1' f0' f1' res' : Ptr} {β1 β2 β1' β2' : Nat → Backend} {m m' : Mem T} {A B0 B1 U : List Int → T}
    (hβ1 : ∀ n, ValidBackend (β1 n)) (hβ2 : ∀ n, ValidBackend (β2 n)) (hβ1' : ∀ n, ValidBackend (β1' n)) (hβ2' : ∀ n, ValidBackend (β2' n)) (hi : i0 ≤ i1) (hj : j0 ≤ j1) (hg : 1 ≤ gcw) (hagcw : 0 ≤ agcw) (hrgcw : 0 ≤ rgcw) (hg' : 1 ≤ gcw') (hagcw' : 0 ≤ agcw') (hrgcw' : 0 ≤ rgcw')
    (hx0 : dx' 0 = dx 0) (hx1 : dx' 1 = dx 1)
    (h : F.Args m [(F.cell2d a i0 j0 i1 j1 agcw), (F.cell2d u i0 j0 i1 j1 gcw), (F.face2d0 b0 i0 j0 i1 j1 0), (F.face2d1 b1 i0 j0 i1 j1 0)] [(F.face2d0 f0 i0 j0 i1 j1 0), (F.face2d1 f1 i0 j0 i1 j1 0), (F.cell2d res i0 j0 i1 j1 rgcw)]) (hp : F.Apart (F.face2d0 f0 i0 j0 i1 j1 0) (F.face2d1 f1 i0 j0 i1 j1 0)) (hr : F.Apart (F.cell2d res i0 j0 i1 j1 rgcw) (F.face2d0 f0 i0 j0 i1 j1 0) ∧ F.Apart (F.cell2d res i0 j0 i1 j1 rgcw) (F.face2d1 f1 i0 j0 i1 j1 0))
    (h' : F.Args m' [(F.cell2d a' (-i1) j0 (-i0) j1 agcw'), (F.cell2d u' (-i1) j0 (-i0) j1 gcw'), (F.face2d0 b0' (-i1) j0 (-i0) j1 0), (F.face2d1 b1' (-i1) j0 (-i0) j1 0)] [(F.face2d0 f0' (-i1) j0 (-i0) j1 0), (F.face2d1 f1' (-i1) j0 (-i0) j1 0), (F.cell2d res' (-i1) j0 (-i0) j1 rgcw')]) (hp' : F.Apart (F.face2d0 f0' (-i1) j0 (-i0) j1 0) (F.face2d1 f1' (-i1) j0 (-i0) j1 0)) (hr' : F.Apart (F.cell2d res' (-i1) j0 (-i0) j1 rgcw') (F.face2d0 f0' (-i1) j0 (-i0) j1 0) ∧ F.Apart (F.cell2d res' (-i1) j0 (-i0) j1 rgcw') (F.face2d1 f1' (-i1) j0 (-i0) j1 0))
    (hA : F.Holds m (F.cell2d a i0 j0 i1 j1 agcw) A) (hB0 : F.Holds m (F.face2d0 b0 i0 j0 i1 j1 0) B0) (hB1 : F.Holds m (F.face2d1 b1 i0 j0 i1 j1 0) B1) (hU : F.Holds m (F.cell2d u i0 j0 i1 j1 gcw) U)
    (hA' : F.Holds m' (F.cell2d a' (-i1) j0 (-i0) j1 agcw') (fun p => A [-p.getD 0 0, p.getD 1 0])) (hB0' : F.Holds m' (F.face2d0 b0' (-i1) j0 (-i0) j1 0) (fun p => B0 [1 - p.getD 0 0, p.getD 1 0])) (hB1' : F.Holds m' (F.face2d1 b1' (-i1) j0 (-i0) j1 0) (fun p => B1 [p.getD 0 0, -p.getD 1 0])) (hU' : F.Holds m' (F.cell2d u' (-i1) j0 (-i0) j1 gcw') (fun p => U [-p.getD 0 0, p.getD 1 0])) :
    ∃ m1 m2 m1' m2', Cuda.flux2d i0 j0 i1 j1 dx b0 b1 gcw u f0 f1 β1 m = .ok m1 ∧ Cuda.diffusionV1Apply2d i0 i1 j0 j1 alpha beta dx agcw a gcw u f0 f1 rgcw res β2 m1 = .ok m2 ∧ Cuda.flux2d (-i1) j0 (-i0) j1 dx' b0' b1' gcw' u' f0' f1' β1' m' = .ok m1' ∧ Cuda.diffusionV1Apply2d (-i1) (-i0) j0 j1 alpha beta dx' agcw' a' gcw' u' f0' f1' rgcw' res' β2' m1' = .ok m2' ∧
      ∀ i j, i0 ≤ i → i ≤ i1 → j0 ≤ j → j ≤ j1 → ∃ v, F.El m2 (F.cell2d res i0 j0 i1 j1 rgcw) [i, j] v ∧ F.El m2' (F.cell2d res' (-i1) j0 (-i0) j1 rgcw') [-i, j] v := by
  obtain ⟨m1, m2, R, c1, c2, e, hR⟩ := energy_v1_2 (alpha := alpha) (beta := beta) (dx := dx) hβ1 hβ2 hi hj hg hagcw hrgcw h hp hr hA hB0 hB1 hU
  obtain ⟨m1', m2', R', c1', c2', e', hR'⟩ := energy_v1_2 (alpha := alpha) (beta := beta) (dx := dx') hβ1' hβ2' (by omega) (by omega) hg' hagcw' hrgcw' h' hp' hr' hA' hB0' hB1' hU'
  refine ⟨m1, m2, m1', m2', c1, c2, c1', c2', fun i j ia ib ja jb => ⟨_, e [i, j] (F.inBounds2.2 ⟨i, j, rfl, by omega⟩), ?_⟩⟩
  have x := e' [-i, j] (F.inBounds2.2 ⟨-i, j, rfl, by omega⟩)
  rw [hR' (-i) (j) (by omega) (by omega) (by omega) (by omega)] at x
  rw [hR i j ia ib ja jb]
  convert x using 1
  simp only [F.op2, List.getD_cons_zero, List.getD_cons_succ, hx0, hx1]
  ring_nf

example := C86_reflect_v1_2d (T := Rat) (i0 := 0) (j0 := 1) (i1 := 2) (j1 := 3) (agcw := 1) (gcw := 2) (rgcw := 1) (agcw' := 1) (gcw' := 2) (rgcw' := 1) (a := ⟨0, 0⟩) (u := ⟨1, 0⟩) (b0 := ⟨2, 0⟩) (b1 := ⟨3, 0⟩) (f0 := ⟨5, 0⟩) (f1 := ⟨6, 0⟩) (res := ⟨8, 0⟩) (a' := ⟨0, 0⟩) (u' := ⟨1, 0⟩) (b0' := ⟨2, 0⟩) (b1' := ⟨3, 0⟩) (f0' := ⟨5, 0⟩) (f1' := ⟨6, 0⟩) (res' := ⟨8, 0⟩) (alpha := 3) (beta := 2) (dx := exDx) (dx' := (fun d => if d = 0 then exDx 0 else if d = 1 then exDx 1 else 0)) (β1 := fun _ => revBackend) (β1' := fun _ => revBackend) (β2 := fun _ => seqBackend) (β2' := fun _ => seqBackend)
  (m := exWith [((F.cell2d ⟨0, 0⟩ 0 1 2 3 1), (exRd (F.cell2d ⟨0, 0⟩ 0 1 2 3 1))), ((F.face2d0 ⟨2, 0⟩ 0 1 2 3 0), (exRd (F.face2d0 ⟨2, 0⟩ 0 1 2 3 0))), ((F.face2d1 ⟨3, 0⟩ 0 1 2 3 0), (exRd (F.face2d1 ⟨3, 0⟩ 0 1 2 3 0))), ((F.cell2d ⟨1, 0⟩ 0 1 2 3 2), (exRd (F.cell2d ⟨1, 0⟩ 0 1 2 3 2)))])
  (m' := exWith [((F.cell2d ⟨0, 0⟩ (-2) 1 0 3 1), (fun p => exRd (F.cell2d ⟨0, 0⟩ 0 1 2 3 1) [-p.getD 0 0, p.getD 1 0])), ((F.face2d0 ⟨2, 0⟩ (-2) 1 0 3 0), (fun p => exRd (F.face2d0 ⟨2, 0⟩ 0 1 2 3 0) [1 - p.getD 0 0, p.getD 1 0])), ((F.face2d1 ⟨3, 0⟩ (-2) 1 0 3 0), (fun p => exRd (F.face2d1 ⟨3, 0⟩ 0 1 2 3 0) [p.getD 0 0, -p.getD 1 0])), ((F.cell2d ⟨1, 0⟩ (-2) 1 0 3 2), (fun p => exRd (F.cell2d ⟨1, 0⟩ 0 1 2 3 2) [-p.getD 0 0, p.getD 1 0]))])
  (fun _ => revBackend_ok) (fun _ => seqBackend_ok) (fun _ => revBackend_ok) (fun _ => seqBackend_ok) (by decide) (by decide) (by decide) (by decide) (by decide) (by decide) (by decide) (by decide) rfl rfl (exWith_args (by ex_args)) (apart_blk (by decide)) ⟨apart_blk (by decide), apart_blk (by decide)⟩ (exWith_args (by ex_args)) (apart_blk (by decide)) ⟨apart_blk (by decide), apart_blk (by decide)⟩ (exWith_rd (exRat_ok rfl (by decide) (by decide)) rfl rfl) (exWith_rd (exRat_ok rfl (by decide) (by decide)) rfl rfl) (exWith_rd (exRat_ok rfl (by decide) (by decide)) rfl rfl) (exWith_rd (exRat_ok rfl (by decide) (by decide)) rfl rfl) (exWith_rd (exRat_ok rfl (by decide) (by decide)) rfl rfl) (exWith_rd (exRat_ok rfl (by decide) (by decide)) rfl rfl) (exWith_rd (exRat_ok rfl (by decide) (by decide)) rfl rfl) (exWith_rd (exRat_ok rfl (by decide) (by decide)) rfl rfl)

/-- 2D, diffusion operator with cell coefficients: for data reflected in the first direction the assembled coefficients are those of the plain data, reflected in the first direction. -/
theorem C86_reflect_coef_v1_2d {i0 j0 i1 j1 agcw sgcw agcw' sgcw' : Int} {alpha beta : T} {dx dx' : Nat → T} {a b0 b1 st a' b0' b1' st' : Ptr} {β3 β4 β3' β4' : Backend} {m m' : Mem T} {A B0 B1 : List Int → T}
    (hβ3 : ValidBackend β3) (hβ4 : ValidBackend β4) (hβ3' : ValidBackend β3') (hβ4' : ValidBackend β4') (hi : i0 ≤ i1) (hj : j0 ≤ j1) (hagcw : 0 ≤ agcw) (hs : 0 ≤ sgcw) (hagcw' : 0 ≤ agcw') (hs' : 0 ≤ sgcw')
    (hx0 : dx' 0 = dx 0) (hx1 : dx' 1 = dx 1)
    (h : F.Args m [(F.cell2d a i0 j0 i1 j1 agcw), (F.face2d0 b0 i0 j0 i1 j1 0), (F.face2d1 b1 i0 j0 i1 j1 0)] [(F.st2d st i0 j0 i1 j1 sgcw)])
    (h' : F.Args m' [(F.cell2d a' (-i1) j0 (-i0) j1 agcw'), (F.face2d0 b0' (-i1) j0 (-i0) j1 0), (F.face2d1 b1' (-i1) j0 (-i0) j1 0)] [(F.st2d st' (-i1) j0 (-i0) j1 sgcw')])
    (hA : F.Holds m (F.cell2d a i0 j0 i1 j1 agcw) A) (hB0 : F.Holds m (F.face2d0 b0 i0 j0 i1 j1 0) B0) (hB1 : F.Holds m (F.face2d1 b1 i0 j0 i1 j1 0) B1)
    (hA' : F.Holds m' (F.cell2d a' (-i1) j0 (-i0) j1 agcw') (fun p => A [-p.getD 0 0, p.getD 1 0])) (hB0' : F.Holds m' (F.face2d0 b0' (-i1) j0 (-i0) j1 0) (fun p => B0 [1 - p.getD 0 0, p.getD 1 0])) (hB1' : F.Holds m' (F.face2d1 b1' (-i1) j0 (-i0) j1 0) (fun p => B1 [p.getD 0 0, -p.getD 1 0])) :
    ∃ s1 s2 s1' s2', Cuda.offdiag2d i0 j0 i1 j1 i0 j0 i1 j1 dx beta b0 b1 sgcw st β3 m = .ok s1 ∧ Cuda.v1diag2d i0 j0 i1 j1 (i0 - agcw) (j0 - agcw) (i1 + agcw) (j1 + agcw) alpha a sgcw st β4 s1 = .ok s2 ∧ Cuda.offdiag2d (-i1) j0 (-i0) j1 (-i1) j0 (-i0) j1 dx' beta b0' b1' sgcw' st' β3' m' = .ok s1' ∧ Cuda.v1diag2d (-i1) j0 (-i0) j1 ((-i1) - agcw') (j0 - agcw') ((-i0) + agcw') (j1 + agcw') alpha a' sgcw' st' β4' s1' = .ok s2' ∧
      ∀ i j, i0 ≤ i → i ≤ i1 → j0 ≤ j → j ≤ j1 → ∀ e ∈ ([(0, 0), (1, 2), (2, 1), (3, 3), (4, 4)] : List (Int × Int)), ∃ v, F.El s2 (F.st2d st i0 j0 i1 j1 sgcw) [e.1, i, j] v ∧ F.El s2' (F.st2d st' (-i1) j0 (-i0) j1 sgcw') [e.2, -i, j] v := by
  obtain ⟨s1, s2, S, c1, c2, -, hS, hc⟩ := asm_v1_2 (alpha := alpha) (beta := beta) (dx := dx) hβ3 hβ4 hi hj hagcw hs h hA hB0 hB1
  obtain ⟨s1', s2', S', c1', c2', -, hS', hc'⟩ := asm_v1_2 (alpha := alpha) (beta := beta) (dx := dx') hβ3' hβ4' (by omega) (by omega) hagcw' hs' h' hA' hB0' hB1'
  refine ⟨s1, s2, s1', s2', c1, c2, c1', c2', fun i j ia ib ja jb e he => ⟨S [e.1, i, j], hS _ ?_, ?_⟩⟩
  · simp only [List.mem_cons, List.not_mem_nil, or_false] at he
    rcases he with rfl | rfl | rfl | rfl | rfl <;> simp only [F.st2d, F.InBounds, and_true] <;> omega
  · have c := hc i j ia ib ja jb
    have c' := hc' (-i) (j) (by omega) (by omega) (by omega) (by omega)
    have x := hS' [e.2, -i, j] (by
      simp only [List.mem_cons, List.not_mem_nil, or_false] at he
      rcases he with rfl | rfl | rfl | rfl | rfl <;> simp only [F.st2d, F.InBounds, and_true] <;> omega)
    convert x using 1
    have hv := c'.c0
    simp only [List.mem_cons, List.not_mem_nil, or_false] at he
    rcases he with rfl | rfl | rfl | rfl | rfl
    · simp only [c.c0, c'.c0, c.c1, c.c2, c.c3, c.c4, c'.c1, c'.c2, c'.c3, c'.c4, List.getD_cons_zero, List.getD_cons_succ, hx0, hx1]
      try ring_nf
    · simp only [c.c1, c'.c2, List.getD_cons_zero, List.getD_cons_succ, hx0, hx1]
      try ring_nf
    · simp only [c.c2, c'.c1, List.getD_cons_zero, List.getD_cons_succ, hx0, hx1]
      try ring_nf
    · simp only [c.c3, c'.c3, List.getD_cons_zero, List.getD_cons_succ, hx0, hx1]
      try ring_nf
    · simp only [c.c4, c'.c4, List.getD_cons_zero, List.getD_cons_succ, hx0, hx1]
      try ring_nf

example := C86_reflect_coef_v1_2d (T := Rat) (i0 := 0) (j0 := 1) (i1 := 2) (j1 := 3) (agcw := 1) (sgcw := 1) (agcw' := 1) (sgcw' := 1) (a := ⟨0, 0⟩) (b0 := ⟨2, 0⟩) (b1 := ⟨3, 0⟩) (st := ⟨9, 0⟩) (a' := ⟨0, 0⟩) (b0' := ⟨2, 0⟩) (b1' := ⟨3, 0⟩) (st' := ⟨9, 0⟩) (alpha := 3) (beta := 2) (dx := exDx) (dx' := (fun d => if d = 0 then exDx 0 else if d = 1 then exDx 1 else 0)) (β3 := revBackend) (β3' := revBackend) (β4 := seqBackend) (β4' := seqBackend)
  (m := exWith [((F.cell2d ⟨0, 0⟩ 0 1 2 3 1), (exRd (F.cell2d ⟨0, 0⟩ 0 1 2 3 1))), ((F.face2d0 ⟨2, 0⟩ 0 1 2 3 0), (exRd (F.face2d0 ⟨2, 0⟩ 0 1 2 3 0))), ((F.face2d1 ⟨3, 0⟩ 0 1 2 3 0), (exRd (F.face2d1 ⟨3, 0⟩ 0 1 2 3 0)))])
  (m' := exWith [((F.cell2d ⟨0, 0⟩ (-2) 1 0 3 1), (fun p => exRd (F.cell2d ⟨0, 0⟩ 0 1 2 3 1) [-p.getD 0 0, p.getD 1 0])), ((F.face2d0 ⟨2, 0⟩ (-2) 1 0 3 0), (fun p => exRd (F.face2d0 ⟨2, 0⟩ 0 1 2 3 0) [1 - p.getD 0 0, p.getD 1 0])), ((F.face2d1 ⟨3, 0⟩ (-2) 1 0 3 0), (fun p => exRd (F.face2d1 ⟨3, 0⟩ 0 1 2 3 0) [p.getD 0 0, -p.getD 1 0]))])
  revBackend_ok seqBackend_ok revBackend_ok seqBackend_ok (by decide) (by decide) (by decide) (by decide) (by decide) (by decide) rfl rfl (exWith_args (by ex_args)) (exWith_args (by ex_args)) (exWith_rd (exRat_ok rfl (by decide) (by decide)) rfl rfl) (exWith_rd (exRat_ok rfl (by decide) (by decide)) rfl rfl) (exWith_rd (exRat_ok rfl (by decide) (by decide)) rfl rfl) (exWith_rd (exRat_ok rfl (by decide) (by decide)) rfl rfl) (exWith_rd (exRat_ok rfl (by decide) (by decide)) rfl rfl) (exWith_rd (exRat_ok rfl (by decide) (by decide)) rfl rfl)

/-- 2D, diffusion operator with constant reaction: for data reflected in the first direction the results are those of the plain data, reflected in the first direction. -/
theorem C86_reflect_v2_2d {i0 j0 i1 j1 gcw rgcw gcw' rgcw' : Int} {alpha beta : T} {dx dx' : Nat → T} {u b0 b1 f0 f1 res u' b0' b1' f0' f1' res' : Ptr} {β1 β2 β1' β2' : Nat → Backend} {m m' : Mem T} {B0 B1 U : List Int → T}
    (hβ1 : ∀ n, ValidBackend (β1 n)) (hβ2 : ∀ n, ValidBackend (β2 n)) (hβ1' : ∀ n, ValidBackend (β1' n)) (hβ2' : ∀ n, ValidBackend (β2' n)) (hi : i0 ≤ i1) (hj : j0 ≤ j1) (hg : 1 ≤ gcw) (hrgcw : 0 ≤ rgcw) (hg' : 1 ≤ gcw') (hrgcw' : 0 ≤ rgcw')
    (hx0 : dx' 0 = dx 0) (hx1 : dx' 1 = dx 1)
    (h : F.Args m [(F.cell2d u i0 j0 i1 j1 gcw), (F.face2d0 b0 i0 j0 i1 j1 0), (F.face2d1 b1 i0 j0 i1 j1 0)] [(F.face2d0 f0 i0 j0 i1 j1 0), (F.face2d1 f1 i0 j0 i1 j1 0), (F.cell2d res i0 j0 i1 j1 rgcw)]) (hp : F.Apart (F.face2d0 f0 i0 j0 i1 j1 0) (F.face2d1 f1 i0 j0 i1 j1 0)) (hr : F.Apart (F.cell2d res i0 j0 i1 j1 rgcw) (F.face2d0 f0 i0 j0 i1 j1 0) ∧ F.Apart (F.cell2d res i0 j0 i1 j1 rgcw) (F.face2d1 f1 i0 j0 i1 j1 0))
    (h' : F.Args m' [(F.cell2d u' (-i1) j0 (-i0) j1 gcw'), (F.face2d0 b0' (-i1) j0 (-i0) j1 0), (F.face2d1 b1' (-i1) j0 (-i0) j1 0)] [(F.face2d0 f0' (-i1) j0 (-i0) j1 0), (F.face2d1 f1' (-i1) j0 (-i0) j1 0), (F.cell2d res' (-i1) j0 (-i0) j1 rgcw')]) (hp' : F.Apart (F.face2d0 f0' (-i1) j0 (-i0) j1 0) (F.face2d1 f1' (-i1) j0 (-i0) j1 0)) (hr' : F.Apart (F.cell2d res' (-i1) j0 (-i0) j1 rgcw') (F.face2d0 f0' (-i1) j0 (-i0) j1 0) ∧ F.Apart (F.cell2d res' (-i1) j0 (-i0) j1 rgcw') (F.face2d1 f1' (-i1) j0 (-i0) j1 0))
    (hB0 : F.Holds m (F.face2d0 b0 i0 j0 i1 j1 0) B0) (hB1 : F.Holds m (F.face2d1 b1 i0 j0 i1 j1 0) B1) (hU : F.Holds m (F.cell2d u i0 j0 i1 j1 gcw) U)
    (hB0' : F.Holds m' (F.face2d0 b0' (-i1) j0 (-i0) j1 0) (fun p => B0 [1 - p.getD 0 0, p.getD 1 0])) (hB1' : F.Holds m' (F.face2d1 b1' (-i1) j0 (-i0) j1 0) (fun p => B1 [p.getD 0 0, -p.getD 1 0])) (hU' : F.Holds m' (F.cell2d u' (-i1) j0 (-i0) j1 gcw') (fun p => U [-p.getD 0 0, p.getD 1 0])) :
    ∃ m1 m2 m1' m2', Cuda.flux2d i0 j0 i1 j1 dx b0 b1 gcw u f0 f1 β1 m = .ok m1 ∧ Cuda.diffusionV2Apply2d i0 i1 j0 j1 alpha beta dx gcw u f0 f1 rgcw res β2 m1 = .ok m2 ∧ Cuda.flux2d (-i1) j0 (-i0) j1 dx' b0' b1' gcw' u' f0' f1' β1' m' = .ok m1' ∧ Cuda.diffusionV2Apply2d (-i1) (-i0) j0 j1 alpha beta dx' gcw' u' f0' f1' rgcw' res' β2' m1' = .ok m2' ∧
      ∀ i j, i0 ≤ i → i ≤ i1 → j0 ≤ j → j ≤ j1 → ∃ v, F.El m2 (F.cell2d res i0 j0 i1 j1 rgcw) [i, j] v ∧ F.El m2' (F.cell2d res' (-i1) j0 (-i0) j1 rgcw') [-i, j] v := by
  obtain ⟨m1, m2, R, c1, c2, e, hR⟩ := energy_v2_2 (alpha := alpha) (beta := beta) (dx := dx) hβ1 hβ2 hi hj hg hrgcw h hp hr hB0 hB1 hU
  obtain ⟨m1', m2', R', c1', c2', e', hR'⟩ := energy_v2_2 (alpha := alpha) (beta := beta) (dx := dx') hβ1' hβ2' (by omega) (by omega) hg' hrgcw' h' hp' hr' hB0' hB1' hU'
  refine ⟨m1, m2, m1', m2', c1, c2, c1', c2', fun i j ia ib ja jb => ⟨_, e [i, j] (F.inBounds2.2 ⟨i, j, rfl, by omega⟩), ?_⟩⟩
  have x := e' [-i, j] (F.inBounds2.2 ⟨-i, j, rfl, by omega⟩)
  rw [hR' (-i) (j) (by omega) (by omega) (by omega) (by omega)] at x
  rw [hR i j ia ib ja jb]
  convert x using 1
  simp only [F.op2, List.getD_cons_zero, List.getD_cons_succ, hx0, hx1]
  ring_nf

example := C86_reflect_v2_2d (T := Rat) (i0 := 0) (j0 := 1) (i1 := 2) (j1 := 3) (gcw := 2) (rgcw := 1) (gcw' := 2) (rgcw' := 1) (u := ⟨1, 0⟩) (b0 := ⟨2, 0⟩) (b1 := ⟨3, 0⟩) (f0 := ⟨5, 0⟩) (f1 := ⟨6, 0⟩) (res := ⟨8, 0⟩) (u' := ⟨1, 0⟩) (b0' := ⟨2, 0⟩) (b1' := ⟨3, 0⟩) (f0' := ⟨5, 0⟩) (f1' := ⟨6, 0⟩) (res' := ⟨8, 0⟩) (alpha := 3) (beta := 2) (dx := exDx) (dx' := (fun d => if d = 0 then exDx 0 else if d = 1 then exDx 1 else 0)) (β1 := fun _ => revBackend) (β1' := fun _ => revBackend) (β2 := fun _ => seqBackend) (β2' := fun _ => seqBackend)
  (m := exWith [((F.face2d0 ⟨2, 0⟩ 0 1 2 3 0), (exRd (F.face2d0 ⟨2, 0⟩ 0 1 2 3 0))), ((F.face2d1 ⟨3, 0⟩ 0 1 2 3 0), (exRd (F.face2d1 ⟨3, 0⟩ 0 1 2 3 0))), ((F.cell2d ⟨1, 0⟩ 0 1 2 3 2), (exRd (F.cell2d ⟨1, 0⟩ 0 1 2 3 2)))])
  (m' := exWith [((F.face2d0 ⟨2, 0⟩ (-2) 1 0 3 0), (fun p => exRd (F.face2d0 ⟨2, 0⟩ 0 1 2 3 0) [1 - p.getD 0 0, p.getD 1 0])), ((F.face2d1 ⟨3, 0⟩ (-2) 1 0 3 0), (fun p => exRd (F.face2d1 ⟨3, 0⟩ 0 1 2 3 0) [p.getD 0 0, -p.getD 1 0])), ((F.cell2d ⟨1, 0⟩ (-2) 1 0 3 2), (fun p => exRd (F.cell2d ⟨1, 0⟩ 0 1 2 3 2) [-p.getD 0 0, p.getD 1 0]))])
  (fun _ => revBackend_ok) (fun _ => seqBackend_ok) (fun _ => revBackend_ok) (fun _ => seqBackend_ok) (by decide) (by decide) (by decide) (by decide) (by decide) (by decide) rfl rfl (exWith_args (by ex_args)) (apart_blk (by decide)) ⟨apart_blk (by decide), apart_blk (by decide)⟩ (exWith_args (by ex_args)) (apart_blk (by decide)) ⟨apart_blk (by decide), apart_blk (by decide)⟩ (exWith_rd (exRat_ok rfl (by decide) (by decide)) rfl rfl) (exWith_rd (exRat_ok rfl (by decide) (by decide)) rfl rfl) (exWith_rd (exRat_ok rfl (by decide) (by decide)) rfl rfl) (exWith_rd (exRat_ok rfl (by decide) (by decide)) rfl rfl) (exWith_rd (exRat_ok rfl (by decide) (by decide)) rfl rfl) (exWith_rd (exRat_ok rfl (by decide) (by decide)) rfl rfl)

/-- 2D, diffusion operator with constant reaction: for data reflected in the first direction the assembled coefficients are those of the plain data, reflected in the first direction. -/
theorem C86_reflect_coef_v2_2d {i0 j0 i1 j1 sgcw sgcw' : Int} {alpha beta : T} {dx dx' : Nat → T} {b0 b1 st b0' b1' st' : Ptr} {β3 β4 β3' β4' : Backend} {m m' : Mem T} {B0 B1 : List Int → T}
    (hβ3 : ValidBackend β3) (hβ4 : ValidBackend β4) (hβ3' : ValidBackend β3') (hβ4' : ValidBackend β4') (hi : i0 ≤ i1) (hj : j0 ≤ j1) (hs : 0 ≤ sgcw) (hs' : 0 ≤ sgcw')
    (hx0 : dx' 0 = dx 0) (hx1 : dx' 1 = dx 1)
    (h : F.Args m [(F.face2d0 b0 i0 j0 i1 j1 0), (F.face2d1 b1 i0 j0 i1 j1 0)] [(F.st2d st i0 j0 i1 j1 sgcw)])
    (h' : F.Args m' [(F.face2d0 b0' (-i1) j0 (-i0) j1 0), (F.face2d1 b1' (-i1) j0 (-i0) j1 0)] [(F.st2d st' (-i1) j0 (-i0) j1 sgcw')])
    (hB0 : F.Holds m (F.face2d0 b0 i0 j0 i1 j1 0) B0) (hB1 : F.Holds m (F.face2d1 b1 i0 j0 i1 j1 0) B1)
    (hB0' : F.Holds m' (F.face2d0 b0' (-i1) j0 (-i0) j1 0) (fun p => B0 [1 - p.getD 0 0, p.getD 1 0])) (hB1' : F.Holds m' (F.face2d1 b1' (-i1) j0 (-i0) j1 0) (fun p => B1 [p.getD 0 0, -p.getD 1 0])) :
    ∃ s1 s2 s1' s2', Cuda.offdiag2d i0 j0 i1 j1 i0 j0 i1 j1 dx beta b0 b1 sgcw st β3 m = .ok s1 ∧ Cuda.v2diag2d i0 j0 i1 j1 alpha sgcw st β4 s1 = .ok s2 ∧ Cuda.offdiag2d (-i1) j0 (-i0) j1 (-i1) j0 (-i0) j1 dx' beta b0' b1' sgcw' st' β3' m' = .ok s1' ∧ Cuda.v2diag2d (-i1) j0 (-i0) j1 alpha sgcw' st' β4' s1' = .ok s2' ∧
      ∀ i j, i0 ≤ i → i ≤ i1 → j0 ≤ j → j ≤ j1 → ∀ e ∈ ([(0, 0), (1, 2), (2, 1), (3, 3), (4, 4)] : List (Int × Int)), ∃ v, F.El s2 (F.st2d st i0 j0 i1 j1 sgcw) [e.1, i, j] v ∧ F.El s2' (F.st2d st' (-i1) j0 (-i0) j1 sgcw') [e.2, -i, j] v := by
  obtain ⟨s1, s2, S, c1, c2, -, hS, hc⟩ := asm_v2_2 (alpha := alpha) (beta := beta) (dx := dx) hβ3 hβ4 hi hj hs h hB0 hB1
  obtain ⟨s1', s2', S', c1', c2', -, hS', hc'⟩ := asm_v2_2 (alpha := alpha) (beta := beta) (dx := dx') hβ3' hβ4' (by omega) (by omega) hs' h' hB0' hB1'
  refine ⟨s1, s2, s1', s2', c1, c2, c1', c2', fun i j ia ib ja jb e he => ⟨S [e.1, i, j], hS _ ?_, ?_⟩⟩
  · simp only [List.mem_cons, List.not_mem_nil, or_false] at he
    rcases he with rfl | rfl | rfl | rfl | rfl <;> simp only [F.st2d, F.InBounds, and_true] <;> omega
  · have c := hc i j ia ib ja jb
    have c' := hc' (-i) (j) (by omega) (by omega) (by omega) (by omega)
    have x := hS' [e.2, -i, j] (by
      simp only [List.mem_cons, List.not_mem_nil, or_false] at he
      rcases he with rfl | rfl | rfl | rfl | rfl <;> simp only [F.st2d, F.InBounds, and_true] <;> omega)
    convert x using 1
    have hv := c'.c0
    simp only [List.mem_cons, List.not_mem_nil, or_false] at he
    rcases he with rfl | rfl | rfl | rfl | rfl
    · simp only [c.c0, c'.c0, c.c1, c.c2, c.c3, c.c4, c'.c1, c'.c2, c'.c3, c'.c4, List.getD_cons_zero, List.getD_cons_succ, hx0, hx1]
      try ring_nf
    · simp only [c.c1, c'.c2, List.getD_cons_zero, List.getD_cons_succ, hx0, hx1]
      try ring_nf
    · simp only [c.c2, c'.c1, List.getD_cons_zero, List.getD_cons_succ, hx0, hx1]
      try ring_nf
    · simp only [c.c3, c'.c3, List.getD_cons_zero, List.getD_cons_succ, hx0, hx1]
      try ring_nf
    · simp only [c.c4, c'.c4, List.getD_cons_zero, List.getD_cons_succ, hx0, hx1]
      try ring_nf

example := C86_reflect_coef_v2_2d (T := Rat) (i0 := 0) (j0 := 1) (i1 := 2) (j1 := 3) (sgcw := 1) (sgcw' := 1) (b0 := ⟨2, 0⟩) (b1 := ⟨3, 0⟩) (st := ⟨9, 0⟩) (b0' := ⟨2, 0⟩) (b1' := ⟨3, 0⟩) (st' := ⟨9, 0⟩) (alpha := 3) (beta := 2) (dx := exDx) (dx' := (fun d => if d = 0 then exDx 0 else if d = 1 then exDx 1 else 0)) (β3 := revBackend) (β3' := revBackend) (β4 := seqBackend) (β4' := seqBackend)
  (m := exWith [((F.face2d0 ⟨2, 0⟩ 0 1 2 3 0), (exRd (F.face2d0 ⟨2, 0⟩ 0 1 2 3 0))), ((F.face2d1 ⟨3, 0⟩ 0 1 2 3 0), (exRd (F.face2d1 ⟨3, 0⟩ 0 1 2 3 0)))])
  (m' := exWith [((F.face2d0 ⟨2, 0⟩ (-2) 1 0 3 0), (fun p => exRd (F.face2d0 ⟨2, 0⟩ 0 1 2 3 0) [1 - p.getD 0 0, p.getD 1 0])), ((F.face2d1 ⟨3, 0⟩ (-2) 1 0 3 0), (fun p => exRd (F.face2d1 ⟨3, 0⟩ 0 1 2 3 0) [p.getD 0 0, -p.getD 1 0]))])
  revBackend_ok seqBackend_ok revBackend_ok seqBackend_ok (by decide) (by decide) (by decide) (by decide) rfl rfl (exWith_args (by ex_args)) (exWith_args (by ex_args)) (exWith_rd (exRat_ok rfl (by decide) (by decide)) rfl rfl) (exWith_rd (exRat_ok rfl (by decide) (by decide)) rfl rfl) (exWith_rd (exRat_ok rfl (by decide) (by decide)) rfl rfl) (exWith_rd (exRat_ok rfl (by decide) (by decide)) rfl rfl)

/-- 2D, Poisson operator: for data reflected in the first direction the results are those of the plain data, reflected in the first direction. -/
theorem C86_reflect_poisson_2d {i0 j0 i1 j1 gcw rgcw gcw' rgcw' : Int} {beta : T} {dx dx' : Nat → T} {u f0 f1 res u' f0' f1' res' : Ptr} {β1 β2 β1' β2' : Nat → Backend} {m m' : Mem T} {U : List Int → T}
    (hβ1 : ∀ n, ValidBackend (β1 n)) (hβ2 : ∀ n, ValidBackend (β2 n)) (hβ1' : ∀ n, ValidBackend (β1' n)) (hβ2' : ∀ n, ValidBackend (β2' n)) (hi : i0 ≤ i1) (hj : j0 ≤ j1) (hg : 1 ≤ gcw) (hrgcw : 0 ≤ rgcw) (hg' : 1 ≤ gcw') (hrgcw' : 0 ≤ rgcw')
    (hx0 : dx' 0 = dx 0) (hx1 : dx' 1 = dx 1)
    (h : F.Args m [(F.cell2d u i0 j0 i1 j1 gcw)] [(F.face2d0 f0 i0 j0 i1 j1 0), (F.face2d1 f1 i0 j0 i1 j1 0), (F.cell2d res i0 j0 i1 j1 rgcw)]) (hp : F.Apart (F.face2d0 f0 i0 j0 i1 j1 0) (F.face2d1 f1 i0 j0 i1 j1 0)) (hr : F.Apart (F.cell2d res i0 j0 i1 j1 rgcw) (F.face2d0 f0 i0 j0 i1 j1 0) ∧ F.Apart (F.cell2d res i0 j0 i1 j1 rgcw) (F.face2d1 f1 i0 j0 i1 j1 0))
    (h' : F.Args m' [(F.cell2d u' (-i1) j0 (-i0) j1 gcw')] [(F.face2d0 f0' (-i1) j0 (-i0) j1 0), (F.face2d1 f1' (-i1) j0 (-i0) j1 0), (F.cell2d res' (-i1) j0 (-i0) j1 rgcw')]) (hp' : F.Apart (F.face2d0 f0' (-i1) j0 (-i0) j1 0) (F.face2d1 f1' (-i1) j0 (-i0) j1 0)) (hr' : F.Apart (F.cell2d res' (-i1) j0 (-i0) j1 rgcw') (F.face2d0 f0' (-i1) j0 (-i0) j1 0) ∧ F.Apart (F.cell2d res' (-i1) j0 (-i0) j1 rgcw') (F.face2d1 f1' (-i1) j0 (-i0) j1 0))
    (hU : F.Holds m (F.cell2d u i0 j0 i1 j1 gcw) U)
    (hU' : F.Holds m' (F.cell2d u' (-i1) j0 (-i0) j1 gcw') (fun p => U [-p.getD 0 0, p.getD 1 0])) :
    ∃ m1 m2 m1' m2', Cuda.poissonFlux2d i0 j0 i1 j1 dx gcw u f0 f1 β1 m = .ok m1 ∧ Cuda.poissonV2Apply2d i0 i1 j0 j1 beta dx f0 f1 rgcw res β2 m1 = .ok m2 ∧ Cuda.poissonFlux2d (-i1) j0 (-i0) j1 dx' gcw' u' f0' f1' β1' m' = .ok m1' ∧ Cuda.poissonV2Apply2d (-i1) (-i0) j0 j1 beta dx' f0' f1' rgcw' res' β2' m1' = .ok m2' ∧
      ∀ i j, i0 ≤ i → i ≤ i1 → j0 ≤ j → j ≤ j1 → ∃ v, F.El m2 (F.cell2d res i0 j0 i1 j1 rgcw) [i, j] v ∧ F.El m2' (F.cell2d res' (-i1) j0 (-i0) j1 rgcw') [-i, j] v := by
  obtain ⟨m1, m2, R, c1, c2, e, hR⟩ := energy_p_2 (beta := beta) (dx := dx) hβ1 hβ2 hi hj hg hrgcw h hp hr hU
  obtain ⟨m1', m2', R', c1', c2', e', hR'⟩ := energy_p_2 (beta := beta) (dx := dx') hβ1' hβ2' (by omega) (by omega) hg' hrgcw' h' hp' hr' hU'
  refine ⟨m1, m2, m1', m2', c1, c2, c1', c2', fun i j ia ib ja jb => ⟨_, e [i, j] (F.inBounds2.2 ⟨i, j, rfl, by omega⟩), ?_⟩⟩
  have x := e' [-i, j] (F.inBounds2.2 ⟨-i, j, rfl, by omega⟩)
  rw [hR' (-i) (j) (by omega) (by omega) (by omega) (by omega)] at x
  rw [hR i j ia ib ja jb]
  convert x using 1
  simp only [F.op2, List.getD_cons_zero, List.getD_cons_succ, hx0, hx1]
  ring_nf

example := C86_reflect_poisson_2d (T := Rat) (i0 := 0) (j0 := 1) (i1 := 2) (j1 := 3) (gcw := 2) (rgcw := 1) (gcw' := 2) (rgcw' := 1) (u := ⟨1, 0⟩) (f0 := ⟨5, 0⟩) (f1 := ⟨6, 0⟩) (res := ⟨8, 0⟩) (u' := ⟨1, 0⟩) (f0' := ⟨5, 0⟩) (f1' := ⟨6, 0⟩) (res' := ⟨8, 0⟩) (beta := 2) (dx := exDx) (dx' := (fun d => if d = 0 then exDx 0 else if d = 1 then exDx 1 else 0)) (β1 := fun _ => revBackend) (β1' := fun _ => revBackend) (β2 := fun _ => seqBackend) (β2' := fun _ => seqBackend)
  (m := exWith [((F.cell2d ⟨1, 0⟩ 0 1 2 3 2), (exRd (F.cell2d ⟨1, 0⟩ 0 1 2 3 2)))])
  (m' := exWith [((F.cell2d ⟨1, 0⟩ (-2) 1 0 3 2), (fun p => exRd (F.cell2d ⟨1, 0⟩ 0 1 2 3 2) [-p.getD 0 0, p.getD 1 0]))])
  (fun _ => revBackend_ok) (fun _ => seqBackend_ok) (fun _ => revBackend_ok) (fun _ => seqBackend_ok) (by decide) (by decide) (by decide) (by decide) (by decide) (by decide) rfl rfl (exWith_args (by ex_args)) (apart_blk (by decide)) ⟨apart_blk (by decide), apart_blk (by decide)⟩ (exWith_args (by ex_args)) (apart_blk (by decide)) ⟨apart_blk (by decide), apart_blk (by decide)⟩ (exWith_rd (exRat_ok rfl (by decide) (by decide)) rfl rfl) (exWith_rd (exRat_ok rfl (by decide) (by decide)) rfl rfl)

/-- 2D, Poisson operator: for data reflected in the first direction the assembled coefficients are those of the plain data, reflected in the first direction. -/
theorem C86_reflect_coef_poisson_2d {i0 j0 i1 j1 sgcw sgcw' : Int} {beta : T} {dx dx' : Nat → T} {st st' : Ptr} {β3 β4 β3' β4' : Backend} {m m' : Mem T}
    (hβ3 : ValidBackend β3) (hβ4 : ValidBackend β4) (hβ3' : ValidBackend β3') (hβ4' : ValidBackend β4') (hi : i0 ≤ i1) (hj : j0 ≤ j1) (hs : 0 ≤ sgcw) (hs' : 0 ≤ sgcw')
    (hx0 : dx' 0 = dx 0) (hx1 : dx' 1 = dx 1)
    (h : F.Args m [] [(F.st2d st i0 j0 i1 j1 sgcw)])
    (h' : F.Args m' [] [(F.st2d st' (-i1) j0 (-i0) j1 sgcw')]) :
    ∃ s1 s2 s1' s2', Cuda.poissonOffdiag2d i0 j0 i1 j1 dx beta sgcw st β3 m = .ok s1 ∧ Cuda.poissonDiag2d i0 j0 i1 j1 sgcw st β4 s1 = .ok s2 ∧ Cuda.poissonOffdiag2d (-i1) j0 (-i0) j1 dx' beta sgcw' st' β3' m' = .ok s1' ∧ Cuda.poissonDiag2d (-i1) j0 (-i0) j1 sgcw' st' β4' s1' = .ok s2' ∧
      ∀ i j, i0 ≤ i → i ≤ i1 → j0 ≤ j → j ≤ j1 → ∀ e ∈ ([(0, 0), (1, 2), (2, 1), (3, 3), (4, 4)] : List (Int × Int)), ∃ v, F.El s2 (F.st2d st i0 j0 i1 j1 sgcw) [e.1, i, j] v ∧ F.El s2' (F.st2d st' (-i1) j0 (-i0) j1 sgcw') [e.2, -i, j] v := by
  obtain ⟨s1, s2, S, c1, c2, -, hS, hc⟩ := asm_p_2 (beta := beta) (dx := dx) hβ3 hβ4 hi hj hs h
  obtain ⟨s1', s2', S', c1', c2', -, hS', hc'⟩ := asm_p_2 (beta := beta) (dx := dx') hβ3' hβ4' (by omega) (by omega) hs' h'
  refine ⟨s1, s2, s1', s2', c1, c2, c1', c2', fun i j ia ib ja jb e he => ⟨S [e.1, i, j], hS _ ?_, ?_⟩⟩
  · simp only [List.mem_cons, List.not_mem_nil, or_false] at he
    rcases he with rfl | rfl | rfl | rfl | rfl <;> simp only [F.st2d, F.InBounds, and_true] <;> omega
  · have c := hc i j ia ib ja jb
    have c' := hc' (-i) (j) (by omega) (by omega) (by omega) (by omega)
    have x := hS' [e.2, -i, j] (by
      simp only [List.mem_cons, List.not_mem_nil, or_false] at he
      rcases he with rfl | rfl | rfl | rfl | rfl <;> simp only [F.st2d, F.InBounds, and_true] <;> omega)
    convert x using 1
    have hv := c'.c0
    simp only [List.mem_cons, List.not_mem_nil, or_false] at he
    rcases he with rfl | rfl | rfl | rfl | rfl
    · simp only [c.c0, c'.c0, c.c1, c.c2, c.c3, c.c4, c'.c1, c'.c2, c'.c3, c'.c4, List.getD_cons_zero, List.getD_cons_succ, hx0, hx1]
      try ring_nf
    · simp only [c.c1, c'.c2, List.getD_cons_zero, List.getD_cons_succ, hx0, hx1]
      try ring_nf
    · simp only [c.c2, c'.c1, List.getD_cons_zero, List.getD_cons_succ, hx0, hx1]
      try ring_nf
    · simp only [c.c3, c'.c3, List.getD_cons_zero, List.getD_cons_succ, hx0, hx1]
      try ring_nf
    · simp only [c.c4, c'.c4, List.getD_cons_zero, List.getD_cons_succ, hx0, hx1]
      try ring_nf

example := C86_reflect_coef_poisson_2d (T := Rat) (i0 := 0) (j0 := 1) (i1 := 2) (j1 := 3) (sgcw := 1) (sgcw' := 1) (st := ⟨9, 0⟩) (st' := ⟨9, 0⟩) (beta := 2) (dx := exDx) (dx' := (fun d => if d = 0 then exDx 0 else if d = 1 then exDx 1 else 0)) (β3 := revBackend) (β3' := revBackend) (β4 := seqBackend) (β4' := seqBackend)
  (m := exWith [])
  (m' := exWith [])
  revBackend_ok seqBackend_ok revBackend_ok seqBackend_ok (by decide) (by decide) (by decide) (by decide) rfl rfl (exWith_args (by ex_args)) (exWith_args (by ex_args))

/-- 3D, diffusion operator with cell coefficients: for data with the axes permuted cyclically the results are those of the plain data, with the axes permuted cyclically. -/
theorem C86_rotate_v1_3d {i0 j0 k0 i1 j1 k1 agcw gcw rgcw agcw' gcw' rgcw' : Int} {alpha beta : T} {dx dx' : Nat → T} {a u b0 b1 b2 f0 f1 f2 res a' u' b0' b1' b2' f0' f1' f2' res' : Ptr} {β1 β2 β1' β2' : Nat → Backend} {m m' : Mem T} {A B0 B1 B2 U : List Int → T}
    (hβ1 : ∀ n, ValidBackend (β1 n)) (hβ2 : ∀ n, ValidBackend (β2 n)) (hβ1' : ∀ n, ValidBackend (β1' n)) (hβ2' : ∀ n, ValidBackend (β2' n)) (hi : i0 ≤ i1) (hj : j0 ≤ j1) (hk : k0 ≤ k1) (hg : 1 ≤ gcw) (hagcw : 0 ≤ agcw) (hrgcw : 0 ≤ rgcw) (hg' : 1 ≤ gcw') (hagcw' : 0 ≤ agcw') (hrgcw' : 0 ≤ rgcw')
    (hx0 : dx' 0 = dx 1) (hx1 : dx' 1 = dx 2) (hx2 : dx' 2 = dx 0)
    (h : F.Args m [(F.cell3d a i0 j0 k0 i1 j1 k1 agcw), (F.cell3d u i0 j0 k0 i1 j1 k1 gcw), (F.face3d0 b0 i0 j0 k0 i1 j1 k1 0), (F.face3d1 b1 i0 j0 k0 i1 j1 k1 0), (F.face3d2 b2 i0 j0 k0 i1 j1 k1 0)] [(F.face3d0 f0 i0 j0 k0 i1 j1 k1 0), (F.face3d1 f1 i0 j0 k0 i1 j1 k1 0), (F.face3d2 f2 i0 j0 k0 i1 j1 k1 0), (F.cell3d res i0 j0 k0 i1 j1 k1 rgcw)]) (hp : F.Apart (F.face3d0 f0 i0 j0 k0 i1 j1 k1 0) (F.face3d1 f1 i0 j0 k0 i1 j1 k1 0) ∧ F.Apart (F.face3d0 f0 i0 j0 k0 i1 j1 k1 0) (F.face3d2 f2 i0 j0 k0 i1 j1 k1 0) ∧ F.Apart (F.face3d1 f1 i0 j0 k0 i1 j1 k1 0) (F.face3d2 f2 i0 j0 k0 i1 j1 k1 0)) (hr : F.Apart (F.cell3d res i0 j0 k0 i1 j1 k1 rgcw) (F.face3d0 f0 i0 j0 k0 i1 j1 k1 0) ∧ F.Apart (F.cell3d res i0 j0 k0 i1 j1 k1 rgcw) (F.face3d1 f1 i0 j0 k0 i1 j1 k1 0) ∧ F.Apart (F.cell3d res i0 j0 k0 i1 j1 k1 rgcw) (F.face3d2 f2 i0 j0 k0 i1 j1 k1 0))
    (h' : F.Args m' [(F.cell3d a' j0 k0 i0 j1 k1 i1 agcw'), (F.cell3d u' j0 k0 i0 j1 k1 i1 gcw'), (F.face3d0 b0' j0 k0 i0 j1 k1 i1 0), (F.face3d1 b1' j0 k0 i0 j1 k1 i1 0), (F.face3d2 b2' j0 k0 i0 j1 k1 i1 0)] [(F.face3d0 f0' j0 k0 i0 j1 k1 i1 0), (F.face3d1 f1' j0 k0 i0 j1 k1 i1 0), (F.face3d2 f2' j0 k0 i0 j1 k1 i1 0), (F.cell3d res' j0 k0 i0 j1 k1 i1 rgcw')]) (hp' : F.Apart (F.face3d0 f0' j0 k0 i0 j1 k1 i1 0) (F.face3d1 f1' j0 k0 i0 j1 k1 i1 0) ∧ F.Apart (F.face3d0 f0' j0 k0 i0 j1 k1 i1 0) (F.face3d2 f2' j0 k0 i0 j1 k1 i1 0) ∧ F.Apart (F.face3d1 f1' j0 k0 i0 j1 k1 i1 0) (F.face3d2 f2' j0 k0 i0 j1 k1 i1 0)) (hr' : F.Apart (F.cell3d res' j0 k0 i0 j1 k1 i1 rgcw') (F.face3d0 f0' j0 k0 i0 j1 k1 i1 0) ∧ F.Apart (F.cell3d res' j0 k0 i0 j1 k1 i1 rgcw') (F.face3d1 f1' j0 k0 i0 j1 k1 i1 0) ∧ F.Apart (F.cell3d res' j0 k0 i0 j1 k1 i1 rgcw') (F.face3d2 f2' j0 k0 i0 j1 k1 i1 0))
    (hA : F.Holds m (F.cell3d a i0 j0 k0 i1 j1 k1 agcw) A) (hB0 : F.Holds m (F.face3d0 b0 i0 j0 k0 i1 j1 k1 0) B0) (hB1 : F.Holds m (F.face3d1 b1 i0 j0 k0 i1 j1 k1 0) B1) (hB2 : F.Holds m (F.face3d2 b2 i0 j0 k0 i1 j1 k1 0) B2) (hU : F.Holds m (F.cell3d u i0 j0 k0 i1 j1 k1 gcw) U)
    (hA' : F.Holds m' (F.cell3d a' j0 k0 i0 j1 k1 i1 agcw') (fun p => A [p.getD 2 0, p.getD 0 0, p.getD 1 0])) (hB0' : F.Holds m' (F.face3d0 b0' j0 k0 i0 j1 k1 i1 0) (fun p => B1 [p.getD 0 0, p.getD 1 0, p.getD 2 0])) (hB1' : F.Holds m' (F.face3d1 b1' j0 k0 i0 j1 k1 i1 0) (fun p => B2 [p.getD 0 0, p.getD 1 0, p.getD 2 0])) (hB2' : F.Holds m' (F.face3d2 b2' j0 k0 i0 j1 k1 i1 0) (fun p => B0 [p.getD 0 0, p.getD 1 0, p.getD 2 0])) (hU' : F.Holds m' (F.cell3d u' j0 k0 i0 j1 k1 i1 gcw') (fun p => U [p.getD 2 0, p.getD 0 0, p.getD 1 0])) :
    ∃ m1 m2 m1' m2', Cuda.flux3d i0 j0 k0 i1 j1 k1 dx b0 b1 b2 gcw u f0 f1 f2 β1 m = .ok m1 ∧ Cuda.diffusionV1Apply3d i0 i1 j0 j1 k0 k1 alpha beta dx agcw a gcw u f0 f1 f2 rgcw res β2 m1 = .ok m2 ∧ Cuda.flux3d j0 k0 i0 j1 k1 i1 dx' b0' b1' b2' gcw' u' f0' f1' f2' β1' m' = .ok m1' ∧ Cuda.diffusionV1Apply3d j0 j1 k0 k1 i0 i1 alpha beta dx' agcw' a' gcw' u' f0' f1' f2' rgcw' res' β2' m1' = .ok m2' ∧
      ∀ i j k, i0 ≤ i → i ≤ i1 → j0 ≤ j → j ≤ j1 → k0 ≤ k → k ≤ k1 → ∃ v, F.El m2 (F.cell3d res i0 j0 k0 i1 j1 k1 rgcw) [i, j, k] v ∧ F.El m2' (F.cell3d res' j0 k0 i0 j1 k1 i1 rgcw') [j, k, i] v := by
  obtain ⟨m1, m2, R, c1, c2, e, hR⟩ := energy_v1_3 (alpha := alpha) (beta := beta) (dx := dx) hβ1 hβ2 hi hj hk hg hagcw hrgcw h hp hr hA hB0 hB1 hB2 hU
  obtain ⟨m1', m2', R', c1', c2', e', hR'⟩ := energy_v1_3 (alpha := alpha) (beta := beta) (dx := dx') hβ1' hβ2' (by omega) (by omega) (by omega) hg' hagcw' hrgcw' h' hp' hr' hA' hB0' hB1' hB2' hU'
  refine ⟨m1, m2, m1', m2', c1, c2, c1', c2', fun i j k ia ib ja jb ka kb => ⟨_, e [i, j, k] (F.inBounds3.2 ⟨i, j, k, rfl, by omega⟩), ?_⟩⟩
  have x := e' [j, k, i] (F.inBounds3.2 ⟨j, k, i, rfl, by omega⟩)
  rw [hR' (j) (k) (i) (by omega) (by omega) (by omega) (by omega) (by omega) (by omega)] at x
  rw [hR i j k ia ib ja jb ka kb]
  convert x using 1
  simp only [F.op3, List.getD_cons_zero, List.getD_cons_succ, hx0, hx1, hx2]
  ring

example := C86_rotate_v1_3d (T := Rat) (i0 := 0) (j0 := 1) (k0 := 2) (i1 := 1) (j1 := 2) (k1 := 3) (agcw := 1) (gcw := 2) (rgcw := 1) (agcw' := 1) (gcw' := 2) (rgcw' := 1) (a := ⟨0, 0⟩) (u := ⟨1, 0⟩) (b0 := ⟨2, 0⟩) (b1 := ⟨3, 0⟩) (b2 := ⟨4, 0⟩) (f0 := ⟨5, 0⟩) (f1 := ⟨6, 0⟩) (f2 := ⟨7, 0⟩) (res := ⟨8, 0⟩) (a' := ⟨0, 0⟩) (u' := ⟨1, 0⟩) (b0' := ⟨2, 0⟩) (b1' := ⟨3, 0⟩) (b2' := ⟨4, 0⟩) (f0' := ⟨5, 0⟩) (f1' := ⟨6, 0⟩) (f2' := ⟨7, 0⟩) (res' := ⟨8, 0⟩) (alpha := 3) (beta := 2) (dx := exDx) (dx' := (fun d => if d = 0 then exDx 1 else if d = 1 then exDx 2 else if d = 2 then exDx 0 else 0)) (β1 := fun _ => revBackend) (β1' := fun _ => revBackend) (β2 := fun _ => seqBackend) (β2' := fun _ => seqBackend)
  (m := exWith [((F.cell3d ⟨0, 0⟩ 0 1 2 1 2 3 1), (exRd (F.cell3d ⟨0, 0⟩ 0 1 2 1 2 3 1))), ((F.face3d0 ⟨2, 0⟩ 0 1 2 1 2 3 0), (exRd (F.face3d0 ⟨2, 0⟩ 0 1 2 1 2 3 0))), ((F.face3d1 ⟨3, 0⟩ 0 1 2 1 2 3 0), (exRd (F.face3d1 ⟨3, 0⟩ 0 1 2 1 2 3 0))), ((F.face3d2 ⟨4, 0⟩ 0 1 2 1 2 3 0), (exRd (F.face3d2 ⟨4, 0⟩ 0 1 2 1 2 3 0))), ((F.cell3d ⟨1, 0⟩ 0 1 2 1 2 3 2), (exRd (F.cell3d ⟨1, 0⟩ 0 1 2 1 2 3 2)))])
  (m' := exWith [((F.cell3d ⟨0, 0⟩ 1 2 0 2 3 1 1), (fun p => exRd (F.cell3d ⟨0, 0⟩ 0 1 2 1 2 3 1) [p.getD 2 0, p.getD 0 0, p.getD 1 0])), ((F.face3d0 ⟨2, 0⟩ 1 2 0 2 3 1 0), (fun p => exRd (F.face3d1 ⟨3, 0⟩ 0 1 2 1 2 3 0) [p.getD 0 0, p.getD 1 0, p.getD 2 0])), ((F.face3d1 ⟨3, 0⟩ 1 2 0 2 3 1 0), (fun p => exRd (F.face3d2 ⟨4, 0⟩ 0 1 2 1 2 3 0) [p.getD 0 0, p.getD 1 0, p.getD 2 0])), ((F.face3d2 ⟨4, 0⟩ 1 2 0 2 3 1 0), (fun p => exRd (F.face3d0 ⟨2, 0⟩ 0 1 2 1 2 3 0) [p.getD 0 0, p.getD 1 0, p.getD 2 0])), ((F.cell3d ⟨1, 0⟩ 1 2 0 2 3 1 2), (fun p => exRd (F.cell3d ⟨1, 0⟩ 0 1 2 1 2 3 2) [p.getD 2 0, p.getD 0 0, p.getD 1 0]))])
  (fun _ => revBackend_ok) (fun _ => seqBackend_ok) (fun _ => revBackend_ok) (fun _ => seqBackend_ok) (by decide) (by decide) (by decide) (by decide) (by decide) (by decide) (by decide) (by decide) (by decide) rfl rfl rfl (exWith_args (by ex_args)) ⟨apart_blk (by decide), apart_blk (by decide), apart_blk (by decide)⟩ ⟨apart_blk (by decide), apart_blk (by decide), apart_blk (by decide)⟩ (exWith_args (by ex_args)) ⟨apart_blk (by decide), apart_blk (by decide), apart_blk (by decide)⟩ ⟨apart_blk (by decide), apart_blk (by decide), apart_blk (by decide)⟩ (exWith_rd (exRat_ok rfl (by decide) (by decide)) rfl rfl) (exWith_rd (exRat_ok rfl (by decide) (by decide)) rfl rfl) (exWith_rd (exRat_ok rfl (by decide) (by decide)) rfl rfl) (exWith_rd (exRat_ok rfl (by decide) (by decide)) rfl rfl) (exWith_rd (exRat_ok rfl (by decide) (by decide)) rfl rfl) (exWith_rd (exRat_ok rfl (by decide) (by decide)) rfl rfl) (exWith_rd (exRat_ok rfl (by decide) (by decide)) rfl rfl) (exWith_rd (exRat_ok rfl (by decide) (by decide)) rfl rfl) (exWith_rd (exRat_ok rfl (by decide) (by decide)) rfl rfl) (exWith_rd (exRat_ok rfl (by decide) (by decide)) rfl rfl)

/-- 3D, diffusion operator with cell coefficients: for data with the axes permuted cyclically the assembled coefficients are those of the plain data, with the axes permuted cyclically. -/
theorem C86_rotate_coef_v1_3d {i0 j0 k0 i1 j1 k1 agcw sgcw agcw' sgcw' : Int} {alpha beta : T} {dx dx' : Nat → T} {a b0 b1 b2 st a' b0' b1' b2' st' : Ptr} {β3 β4 β3' β4' : Backend} {m m' : Mem T} {A B0 B1 B2 : List Int → T}
    (hβ3 : ValidBackend β3) (hβ4 : ValidBackend β4) (hβ3' : ValidBackend β3') (hβ4' : ValidBackend β4') (hi : i0 ≤ i1) (hj : j0 ≤ j1) (hk : k0 ≤ k1) (hagcw : 0 ≤ agcw) (hs : 0 ≤ sgcw) (hagcw' : 0 ≤ agcw') (hs' : 0 ≤ sgcw')
    (hx0 : dx' 0 = dx 1) (hx1 : dx' 1 = dx 2) (hx2 : dx' 2 = dx 0)
    (h : F.Args m [(F.cell3d a i0 j0 k0 i1 j1 k1 agcw), (F.face3d0 b0 i0 j0 k0 i1 j1 k1 0), (F.face3d1 b1 i0 j0 k0 i1 j1 k1 0), (F.face3d2 b2 i0 j0 k0 i1 j1 k1 0)] [(F.st3d st i0 j0 k0 i1 j1 k1 sgcw)])
    (h' : F.Args m' [(F.cell3d a' j0 k0 i0 j1 k1 i1 agcw'), (F.face3d0 b0' j0 k0 i0 j1 k1 i1 0), (F.face3d1 b1' j0 k0 i0 j1 k1 i1 0), (F.face3d2 b2' j0 k0 i0 j1 k1 i1 0)] [(F.st3d st' j0 k0 i0 j1 k1 i1 sgcw')])
    (hA : F.Holds m (F.cell3d a i0 j0 k0 i1 j1 k1 agcw) A) (hB0 : F.Holds m (F.face3d0 b0 i0 j0 k0 i1 j1 k1 0) B0) (hB1 : F.Holds m (F.face3d1 b1 i0 j0 k0 i1 j1 k1 0) B1) (hB2 : F.Holds m (F.face3d2 b2 i0 j0 k0 i1 j1 k1 0) B2)
    (hA' : F.Holds m' (F.cell3d a' j0 k0 i0 j1 k1 i1 agcw') (fun p => A [p.getD 2 0, p.getD 0 0, p.getD 1 0])) (hB0' : F.Holds m' (F.face3d0 b0' j0 k0 i0 j1 k1 i1 0) (fun p => B1 [p.getD 0 0, p.getD 1 0, p.getD 2 0])) (hB1' : F.Holds m' (F.face3d1 b1' j0 k0 i0 j1 k1 i1 0) (fun p => B2 [p.getD 0 0, p.getD 1 0, p.getD 2 0])) (hB2' : F.Holds m' (F.face3d2 b2' j0 k0 i0 j1 k1 i1 0) (fun p => B0 [p.getD 0 0, p.getD 1 0, p.getD 2 0])) :
    ∃ s1 s2 s1' s2', Cuda.offdiag3d i0 j0 k0 i1 j1 k1 i0 j0 k0 i1 j1 k1 dx beta b0 b1 b2 sgcw st β3 m = .ok s1 ∧ Cuda.v1diag3d i0 j0 k0 i1 j1 k1 (i0 - agcw) (j0 - agcw) (k0 - agcw) (i1 + agcw) (j1 + agcw) (k1 + agcw) alpha a sgcw st β4 s1 = .ok s2 ∧ Cuda.offdiag3d j0 k0 i0 j1 k1 i1 j0 k0 i0 j1 k1 i1 dx' beta b0' b1' b2' sgcw' st' β3' m' = .ok s1' ∧ Cuda.v1diag3d j0 k0 i0 j1 k1 i1 (j0 - agcw') (k0 - agcw') (i0 - agcw') (j1 + agcw') (k1 + agcw') (i1 + agcw') alpha a' sgcw' st' β4' s1' = .ok s2' ∧
      ∀ i j k, i0 ≤ i → i ≤ i1 → j0 ≤ j → j ≤ j1 → k0 ≤ k → k ≤ k1 → ∀ e ∈ ([(0, 0), (1, 5), (2, 6), (3, 1), (4, 2), (5, 3), (6, 4)] : List (Int × Int)), ∃ v, F.El s2 (F.st3d st i0 j0 k0 i1 j1 k1 sgcw) [e.1, i, j, k] v ∧ F.El s2' (F.st3d st' j0 k0 i0 j1 k1 i1 sgcw') [e.2, j, k, i] v := by
  obtain ⟨s1, s2, S, c1, c2, -, hS, hc⟩ := asm_v1_3 (alpha := alpha) (beta := beta) (dx := dx) hβ3 hβ4 hi hj hk hagcw hs h hA hB0 hB1 hB2
  obtain ⟨s1', s2', S', c1', c2', -, hS', hc'⟩ := asm_v1_3 (alpha := alpha) (beta := beta) (dx := dx') hβ3' hβ4' (by omega) (by omega) (by omega) hagcw' hs' h' hA' hB0' hB1' hB2'
  refine ⟨s1, s2, s1', s2', c1, c2, c1', c2', fun i j k ia ib ja jb ka kb e he => ⟨S [e.1, i, j, k], hS _ ?_, ?_⟩⟩
  · simp only [List.mem_cons, List.not_mem_nil, or_false] at he
    rcases he with rfl | rfl | rfl | rfl | rfl | rfl | rfl <;> simp only [F.st3d, F.InBounds, and_true] <;> omega
  · have c := hc i j k ia ib ja jb ka kb
    have c' := hc' (j) (k) (i) (by omega) (by omega) (by omega) (by omega) (by omega) (by omega)
    have x := hS' [e.2, j, k, i] (by
      simp only [List.mem_cons, List.not_mem_nil, or_false] at he
      rcases he with rfl | rfl | rfl | rfl | rfl | rfl | rfl <;> simp only [F.st3d, F.InBounds, and_true] <;> omega)
    convert x using 1
    have hv := c'.c0
    simp only [List.mem_cons, List.not_mem_nil, or_false] at he
    rcases he with rfl | rfl | rfl | rfl | rfl | rfl | rfl
    · simp only [c.c0, c'.c0, c.c1, c.c2, c.c3, c.c4, c.c5, c.c6, c'.c1, c'.c2, c'.c3, c'.c4, c'.c5, c'.c6, List.getD_cons_zero, List.getD_cons_succ, hx0, hx1, hx2]
      try ring_nf
    · simp only [c.c1, c'.c5, List.getD_cons_zero, List.getD_cons_succ, hx0, hx1, hx2]
      try ring_nf
    · simp only [c.c2, c'.c6, List.getD_cons_zero, List.getD_cons_succ, hx0, hx1, hx2]
      try ring_nf
    · simp only [c.c3, c'.c1, List.getD_cons_zero, List.getD_cons_succ, hx0, hx1, hx2]
      try ring_nf
    · simp only [c.c4, c'.c2, List.getD_cons_zero, List.getD_cons_succ, hx0, hx1, hx2]
      try ring_nf
    · simp only [c.c5, c'.c3, List.getD_cons_zero, List.getD_cons_succ, hx0, hx1, hx2]
      try ring_nf
    · simp only [c.c6, c'.c4, List.getD_cons_zero, List.getD_cons_succ, hx0, hx1, hx2]
      try ring_nf

example := C86_rotate_coef_v1_3d (T := Rat) (i0 := 0) (j0 := 1) (k0 := 2) (i1 := 1) (j1 := 2) (k1 := 3) (agcw := 1) (sgcw := 1) (agcw' := 1) (sgcw' := 1) (a := ⟨0, 0⟩) (b0 := ⟨2, 0⟩) (b1 := ⟨3, 0⟩) (b2 := ⟨4, 0⟩) (st := ⟨9, 0⟩) (a' := ⟨0, 0⟩) (b0' := ⟨2, 0⟩) (b1' := ⟨3, 0⟩) (b2' := ⟨4, 0⟩) (st' := ⟨9, 0⟩) (alpha := 3) (beta := 2) (dx := exDx) (dx' := (fun d => if d = 0 then exDx 1 else if d = 1 then exDx 2 else if d = 2 then exDx 0 else 0)) (β3 := revBackend) (β3' := revBackend) (β4 := seqBackend) (β4' := seqBackend)
  (m := exWith [((F.cell3d ⟨0, 0⟩ 0 1 2 1 2 3 1), (exRd (F.cell3d ⟨0, 0⟩ 0 1 2 1 2 3 1))), ((F.face3d0 ⟨2, 0⟩ 0 1 2 1 2 3 0), (exRd (F.face3d0 ⟨2, 0⟩ 0 1 2 1 2 3 0))), ((F.face3d1 ⟨3, 0⟩ 0 1 2 1 2 3 0), (exRd (F.face3d1 ⟨3, 0⟩ 0 1 2 1 2 3 0))), ((F.face3d2 ⟨4, 0⟩ 0 1 2 1 2 3 0), (exRd (F.face3d2 ⟨4, 0⟩ 0 1 2 1 2 3 0)))])
  (m' := exWith [((F.cell3d ⟨0, 0⟩ 1 2 0 2 3 1 1), (fun p => exRd (F.cell3d ⟨0, 0⟩ 0 1 2 1 2 3 1) [p.getD 2 0, p.getD 0 0, p.getD 1 0])), ((F.face3d0 ⟨2, 0⟩ 1 2 0 2 3 1 0), (fun p => exRd (F.face3d1 ⟨3, 0⟩ 0 1 2 1 2 3 0) [p.getD 0 0, p.getD 1 0, p.getD 2 0])), ((F.face3d1 ⟨3, 0⟩ 1 2 0 2 3 1 0), (fun p => exRd (F.face3d2 ⟨4, 0⟩ 0 1 2 1 2 3 0) [p.getD 0 0, p.getD 1 0, p.getD 2 0])), ((F.face3d2 ⟨4, 0⟩ 1 2 0 2 3 1 0), (fun p => exRd (F.face3d0 ⟨2, 0⟩ 0 1 2 1 2 3 0) [p.getD 0 0, p.getD 1 0, p.getD 2 0]))])
  revBackend_ok seqBackend_ok revBackend_ok seqBackend_ok (by decide) (by decide) (by decide) (by decide) (by decide) (by decide) (by decide) rfl rfl rfl (exWith_args (by ex_args)) (exWith_args (by ex_args)) (exWith_rd (exRat_ok rfl (by decide) (by decide)) rfl rfl) (exWith_rd (exRat_ok rfl (by decide) (by decide)) rfl rfl) (exWith_rd (exRat_ok rfl (by decide) (by decide)) rfl rfl) (exWith_rd (exRat_ok rfl (by decide) (by decide)) rfl rfl) (exWith_rd (exRat_ok rfl (by decide) (by decide)) rfl rfl) (exWith_rd (exRat_ok rfl (by decide) (by decide)) rfl rfl) (exWith_rd (exRat_ok rfl (by decide) (by decide)) rfl rfl) (exWith_rd (exRat_ok rfl (by decide) (by decide)) rfl rfl)

/-- 3D, diffusion operator with constant reaction: for data with the axes permuted cyclically the results are those of the plain data, with the axes permuted cyclically. -/
theorem C86_rotate_v2_3d {i0 j0 k0 i1 j1 k1 gcw rgcw gcw' rgcw' : Int} {alpha beta : T} {dx dx' : Nat → T} {u b0 b1 b2 f0 f1 f2 res u' b0' b1' b2' f0' f1' f2' res' : Ptr} {β1 β2 β1' β2' : Nat → Backend} {m m' : Mem T} {B0 B1 B2 U : List Int → T}
    (hβ1 : ∀ n, ValidBackend (β1 n)) (hβ2 : ∀ n, ValidBackend (β2 n)) (hβ1' : ∀ n, ValidBackend (β1' n)) (hβ2' : ∀ n, ValidBackend (β2' n)) (hi : i0 ≤ i1) (hj : j0 ≤ j1) (hk : k0 ≤ k1) (hg : 1 ≤ gcw) (hrgcw : 0 ≤ rgcw) (hg' : 1 ≤ gcw') (hrgcw' : 0 ≤ rgcw')
    (hx0 : dx' 0 = dx 1) (hx1 : dx' 1 = dx 2) (hx2 : dx' 2 = dx 0)
    (h : F.Args m [(F.cell3d u i0 j0 k0 i1 j1 k1 gcw), (F.face3d0 b0 i0 j0 k0 i1 j1 k1 0), (F.face3d1 b1 i0 j0 k0 i1 j1 k1 0), (F.face3d2 b2 i0 j0 k0 i1 j1 k1 0)] [(F.face3d0 f0 i0 j0 k0 i1 j1 k1 0), (F.face3d1 f1 i0 j0 k0 i1 j1 k1 0), (F.face3d2 f2 i0 j0 k0 i1 j1 k1 0), (F.cell3d res i0 j0 k0 i1 j1 k1 rgcw)]) (hp : F.Apart (F.face3d0 f0 i0 j0 k0 i1 j1 k1 0) (F.face3d1 f1 i0 j0 k0 i1 j1 k1 0) ∧ F.Apart (F.face3d0 f0 i0 j0 k0 i1 j1 k1 0) (F.face3d2 f2 i0 j0 k0 i1 j1 k1 0) ∧ F.Apart (F.face3d1 f1 i0 j0 k0 i1 j1 k1 0) (F.face3d2 f2 i0 j0 k0 i1 j1 k1 0)) (hr : F.Apart (F.cell3d res i0 j0 k0 i1 j1 k1 rgcw) (F.face3d0 f0 i0 j0 k0 i1 j1 k1 0) ∧ F.Apart (F.cell3d res i0 j0 k0 i1 j1 k1 rgcw) (F.face3d1 f1 i0 j0 k0 i1 j1 k1 0) ∧ F.Apart (F.cell3d res i0 j0 k0 i1 j1 k1 rgcw) (F.face3d2 f2 i0 j0 k0 i1 j1 k1 0))
    (h' : F.Args m' [(F.cell3d u' j0 k0 i0 j1 k1 i1 gcw'), (F.face3d0 b0' j0 k0 i0 j1 k1 i1 0), (F.face3d1 b1' j0 k0 i0 j1 k1 i1 0), (F.face3d2 b2' j0 k0 i0 j1 k1 i1 0)] [(F.face3d0 f0' j0 k0 i0 j1 k1 i1 0), (F.face3d1 f1' j0 k0 i0 j1 k1 i1 0), (F.face3d2 f2' j0 k0 i0 j1 k1 i1 0), (F.cell3d res' j0 k0 i0 j1 k1 i1 rgcw')]) (hp' : F.Apart (F.face3d0 f0' j0 k0 i0 j1 k1 i1 0) (F.face3d1 f1' j0 k0 i0 j1 k1 i1 0) ∧ F.Apart (F.face3d0 f0' j0 k0 i0 j1 k1 i1 0) (F.face3d2 f2' j0 k0 i0 j1 k1 i1 0) ∧ F.Apart (F.face3d1 f1' j0 k0 i0 j1 k1 i1 0) (F.face3d2 f2' j0 k0 i0 j1 k1 i1 0)) (hr' : F.Apart (F.cell3d res' j0 k0 i0 j1 k1 i1 rgcw') (F.face3d0 f0' j0 k0 i0 j1 k1 i1 0) ∧ F.Apart (F.cell3d res' j0 k0 i0 j1 k1 i1 rgcw') (F.face3d1 f1' j0 k0 i0 j1 k1 i1 0) ∧ F.Apart (F.cell3d res' j0 k0 i0 j1 k1 i1 rgcw') (F.face3d2 f2' j0 k0 i0 j1 k1 i1 0))
    (hB0 : F.Holds m (F.face3d0 b0 i0 j0 k0 i1 j1 k1 0) B0) (hB1 : F.Holds m (F.face3d1 b1 i0 j0 k0 i1 j1 k1 0) B1) (hB2 : F.Holds m (F.face3d2 b2 i0 j0 k0 i1 j1 k1 0) B2) (hU : F.Holds m (F.cell3d u i0 j0 k0 i1 j1 k1 gcw) U)
    (hB0' : F.Holds m' (F.face3d0 b0' j0 k0 i0 j1 k1 i1 0) (fun p => B1 [p.getD 0 0, p.getD 1 0, p.getD 2 0])) (hB1' : F.Holds m' (F.face3d1 b1' j0 k0 i0 j1 k1 i1 0) (fun p => B2 [p.getD 0 0, p.getD 1 0, p.getD 2 0])) (hB2' : F.Holds m' (F.face3d2 b2' j0 k0 i0 j1 k1 i1 0) (fun p => B0 [p.getD 0 0, p.getD 1 0, p.getD 2 0])) (hU' : F.Holds m' (F.cell3d u' j0 k0 i0 j1 k1 i1 gcw') (fun p => U [p.getD 2 0, p.getD 0 0, p.getD 1 0])) :
    ∃ m1 m2 m1' m2', Cuda.flux3d i0 j0 k0 i1 j1 k1 dx b0 b1 b2 gcw u f0 f1 f2 β1 m = .ok m1 ∧ Cuda.diffusionV2Apply3d i0 i1 j0 j1 k0 k1 alpha beta dx gcw u f0 f1 f2 rgcw res β2 m1 = .ok m2 ∧ Cuda.flux3d j0 k0 i0 j1 k1 i1 dx' b0' b1' b2' gcw' u' f0' f1' f2' β1' m' = .ok m1' ∧ Cuda.diffusionV2Apply3d j0 j1 k0 k1 i0 i1 alpha beta dx' gcw' u' f0' f1' f2' rgcw' res' β2' m1' = .ok m2' ∧
      ∀ i j k, i0 ≤ i → i ≤ i1 → j0 ≤ j → j ≤ j1 → k0 ≤ k → k ≤ k1 → ∃ v, F.El m2 (F.cell3d res i0 j0 k0 i1 j1 k1 rgcw) [i, j, k] v ∧ F.El m2' (F.cell3d res' j0 k0 i0 j1 k1 i1 rgcw') [j, k, i] v := by
  obtain ⟨m1, m2, R, c1, c2, e, hR⟩ := energy_v2_3 (alpha := alpha) (beta := beta) (dx := dx) hβ1 hβ2 hi hj hk hg hrgcw h hp hr hB0 hB1 hB2 hU
  obtain ⟨m1', m2', R', c1', c2', e', hR'⟩ := energy_v2_3 (alpha := alpha) (beta := beta) (dx := dx') hβ1' hβ2' (by omega) (by omega) (by omega) hg' hrgcw' h' hp' hr' hB0' hB1' hB2' hU'
  refine ⟨m1, m2, m1', m2', c1, c2, c1', c2', fun i j k ia ib ja jb ka kb => ⟨_, e [i, j, k] (F.inBounds3.2 ⟨i, j, k, rfl, by omega⟩), ?_⟩⟩
  have x := e' [j, k, i] (F.inBounds3.2 ⟨j, k, i, rfl, by omega⟩)
  rw [hR' (j) (k) (i) (by omega) (by omega) (by omega) (by omega) (by omega) (by omega)] at x
  rw [hR i j k ia ib ja jb ka kb]
  convert x using 1
  simp only [F.op3, List.getD_cons_zero, List.getD_cons_succ, hx0, hx1, hx2]
  ring

example := C86_rotate_v2_3d (T := Rat) (i0 := 0) (j0 := 1) (k0 := 2) (i1 := 1) (j1 := 2) (k1 := 3) (gcw := 2) (rgcw := 1) (gcw' := 2) (rgcw' := 1) (u := ⟨1, 0⟩) (b0 := ⟨2, 0⟩) (b1 := ⟨3, 0⟩) (b2 := ⟨4, 0⟩) (f0 := ⟨5, 0⟩) (f1 := ⟨6, 0⟩) (f2 := ⟨7, 0⟩) (res := ⟨8, 0⟩) (u' := ⟨1, 0⟩) (b0' := ⟨2, 0⟩) (b1' := ⟨3, 0⟩) (b2' := ⟨4, 0⟩) (f0' := ⟨5, 0⟩) (f1' := ⟨6, 0⟩) (f2' := ⟨7, 0⟩) (res' := ⟨8, 0⟩) (alpha := 3) (beta := 2) (dx := exDx) (dx' := (fun d => if d = 0 then exDx 1 else if d = 1 then exDx 2 else if d = 2 then exDx 0 else 0)) (β1 := fun _ => revBackend) (β1' := fun _ => revBackend) (β2 := fun _ => seqBackend) (β2' := fun _ => seqBackend)
  (m := exWith [((F.face3d0 ⟨2, 0⟩ 0 1 2 1 2 3 0), (exRd (F.face3d0 ⟨2, 0⟩ 0 1 2 1 2 3 0))), ((F.face3d1 ⟨3, 0⟩ 0 1 2 1 2 3 0), (exRd (F.face3d1 ⟨3, 0⟩ 0 1 2 1 2 3 0))), ((F.face3d2 ⟨4, 0⟩ 0 1 2 1 2 3 0), (exRd (F.face3d2 ⟨4, 0⟩ 0 1 2 1 2 3 0))), ((F.cell3d ⟨1, 0⟩ 0 1 2 1 2 3 2), (exRd (F.cell3d ⟨1, 0⟩ 0 1 2 1 2 3 2)))])
  (m' := exWith [((F.face3d0 ⟨2, 0⟩ 1 2 0 2 3 1 0), (fun p => exRd (F.face3d1 ⟨3, 0⟩ 0 1 2 1 2 3 0) [p.getD 0 0, p.getD 1 0, p.getD 2 0])), ((F.face3d1 ⟨3, 0⟩ 1 2 0 2 3 1 0), (fun p => exRd (F.face3d2 ⟨4, 0⟩ 0 1 2 1 2 3 0) [p.getD 0 0, p.getD 1 0, p.getD 2 0])), ((F.face3d2 ⟨4, 0⟩ 1 2 0 2 3 1 0), (fun p => exRd (F.face3d0 ⟨2, 0⟩ 0 1 2 1 2 3 0) [p.getD 0 0, p.getD 1 0, p.getD 2 0])), ((F.cell3d ⟨1, 0⟩ 1 2 0 2 3 1 2), (fun p => exRd (F.cell3d ⟨1, 0⟩ 0 1 2 1 2 3 2) [p.getD 2 0, p.getD 0 0, p.getD 1 0]))])
  (fun _ => revBackend_ok) (fun _ => seqBackend_ok) (fun _ => revBackend_ok) (fun _ => seqBackend_ok) (by decide) (by decide) (by decide) (by decide) (by decide) (by decide) (by decide) rfl rfl rfl (exWith_args (by ex_args)) ⟨apart_blk (by decide), apart_blk (by decide), apart_blk (by decide)⟩ ⟨apart_blk (by decide), apart_blk (by decide), apart_blk (by decide)⟩ (exWith_args (by ex_args)) ⟨apart_blk (by decide), apart_blk (by decide), apart_blk (by decide)⟩ ⟨apart_blk (by decide), apart_blk (by decide), apart_blk (by decide)⟩ (exWith_rd (exRat_ok rfl (by decide) (by decide)) rfl rfl) (exWith_rd (exRat_ok rfl (by decide) (by decide)) rfl rfl) (exWith_rd (exRat_ok rfl (by decide) (by decide)) rfl rfl) (exWith_rd (exRat_ok rfl (by decide) (by decide)) rfl rfl) (exWith_rd (exRat_ok rfl (by decide) (by decide)) rfl rfl) (exWith_rd (exRat_ok rfl (by decide) (by decide)) rfl rfl) (exWith_rd (exRat_ok rfl (by decide) (by decide)) rfl rfl) (exWith_rd (exRat_ok rfl (by decide) (by decide)) rfl rfl)

/-- 3D, diffusion operator with constant reaction: for data with the axes permuted cyclically the assembled coefficients are those of the plain data, with the axes permuted cyclically. -/
theorem C86_rotate_coef_v2_3d {i0 j0 k0 i1 j1 k1 sgcw sgcw' : Int} {alpha beta : T} {dx dx' : Nat → T} {b0 b1 b2 st b0' b1' b2' st' : Ptr} {β3 β4 β3' β4' : Backend} {m m' : Mem T} {B0 B1 B2 : List Int → T}
    (hβ3 : ValidBackend β3) (hβ4 : ValidBackend β4) (hβ3' : ValidBackend β3') (hβ4' : ValidBackend β4') (hi : i0 ≤ i1) (hj : j0 ≤ j1) (hk : k0 ≤ k1) (hs : 0 ≤ sgcw) (hs' : 0 ≤ sgcw')
    (hx0 : dx' 0 = dx 1) (hx1 : dx' 1 = dx 2) (hx2 : dx' 2 = dx 0)
    (h : F.Args m [(F.face3d0 b0 i0 j0 k0 i1 j1 k1 0), (F.face3d1 b1 i0 j0 k0 i1 j1 k1 0), (F.face3d2 b2 i0 j0 k0 i1 j1 k1 0)] [(F.st3d st i0 j0 k0 i1 j1 k1 sgcw)])
    (h' : F.Args m' [(F.face3d0 b0' j0 k0 i0 j1 k1 i1 0), (F.face3d1 b1' j0 k0 i0 j1 k1 i1 0), (F.face3d2 b2' j0 k0 i0 j1 k1 i1 0)] [(F.st3d st' j0 k0 i0 j1 k1 i1 sgcw')])
    (hB0 : F.Holds m (F.face3d0 b0 i0 j0 k0 i1 j1 k1 0) B0) (hB1 : F.Holds m (F.face3d1 b1 i0 j0 k0 i1 j1 k1 0) B1) (hB2 : F.Holds m (F.face3d2 b2 i0 j0 k0 i1 j1 k1 0) B2)
    (hB0' : F.Holds m' (F.face3d0 b0' j0 k0 i0 j1 k1 i1 0) (fun p => B1 [p.getD 0 0, p.getD 1 0, p.getD 2 0])) (hB1' : F.Holds m' (F.face3d1 b1' j0 k0 i0 j1 k1 i1 0) (fun p => B2 [p.getD 0 0, p.getD 1 0, p.getD 2 0])) (hB2' : F.Holds m' (F.face3d2 b2' j0 k0 i0 j1 k1 i1 0) (fun p => B0 [p.getD 0 0, p.getD 1 0, p.getD 2 0])) :
    ∃ s1 s2 s1' s2', Cuda.offdiag3d i0 j0 k0 i1 j1 k1 i0 j0 k0 i1 j1 k1 dx beta b0 b1 b2 sgcw st β3 m = .ok s1 ∧ Cuda.v2diag3d i0 j0 k0 i1 j1 k1 alpha sgcw st β4 s1 = .ok s2 ∧ Cuda.offdiag3d j0 k0 i0 j1 k1 i1 j0 k0 i0 j1 k1 i1 dx' beta b0' b1' b2' sgcw' st' β3' m' = .ok s1' ∧ Cuda.v2diag3d j0 k0 i0 j1 k1 i1 alpha sgcw' st' β4' s1' = .ok s2' ∧
      ∀ i j k, i0 ≤ i → i ≤ i1 → j0 ≤ j → j ≤ j1 → k0 ≤ k → k ≤ k1 → ∀ e ∈ ([(0, 0), (1, 5), (2, 6), (3, 1), (4, 2), (5, 3), (6, 4)] : List (Int × Int)), ∃ v, F.El s2 (F.st3d st i0 j0 k0 i1 j1 k1 sgcw) [e.1, i, j, k] v ∧ F.El s2' (F.st3d st' j0 k0 i0 j1 k1 i1 sgcw') [e.2, j, k, i] v := by
  obtain ⟨s1, s2, S, c1, c2, -, hS, hc⟩ := asm_v2_3 (alpha := alpha) (beta := beta) (dx := dx) hβ3 hβ4 hi hj hk hs h hB0 hB1 hB2
  obtain ⟨s1', s2', S', c1', c2', -, hS', hc'⟩ := asm_v2_3 (alpha := alpha) (beta := beta) (dx := dx') hβ3' hβ4' (by omega) (by omega) (by omega) hs' h' hB0' hB1' hB2'
  refine ⟨s1, s2, s1', s2', c1, c2, c1', c2', fun i j k ia ib ja jb ka kb e he => ⟨S [e.1, i, j, k], hS _ ?_, ?_⟩⟩
  · simp only [List.mem_cons, List.not_mem_nil, or_false] at he
    rcases he with rfl | rfl | rfl | rfl | rfl | rfl | rfl <;> simp only [F.st3d, F.InBounds, and_true] <;> omega
  · have c := hc i j k ia ib ja jb ka kb
    have c' := hc' (j) (k) (i) (by omega) (by omega) (by omega) (by omega) (by omega) (by omega)
    have x := hS' [e.2, j, k, i] (by
      simp only [List.mem_cons, List.not_mem_nil, or_false] at he
      rcases he with rfl | rfl | rfl | rfl | rfl | rfl | rfl <;> simp only [F.st3d, F.InBounds, and_true] <;> omega)
    convert x using 1
    have hv := c'.c0
    simp only [List.mem_cons, List.not_mem_nil, or_false] at he
    rcases he with rfl | rfl | rfl | rfl | rfl | rfl | rfl
    · simp only [c.c0, c'.c0, c.c1, c.c2, c.c3, c.c4, c.c5, c.c6, c'.c1, c'.c2, c'.c3, c'.c4, c'.c5, c'.c6, List.getD_cons_zero, List.getD_cons_succ, hx0, hx1, hx2]
      try ring_nf
    · simp only [c.c1, c'.c5, List.getD_cons_zero, List.getD_cons_succ, hx0, hx1, hx2]
      try ring_nf
    · simp only [c.c2, c'.c6, List.getD_cons_zero, List.getD_cons_succ, hx0, hx1, hx2]
      try ring_nf
    · simp only [c.c3, c'.c1, List.getD_cons_zero, List.getD_cons_succ, hx0, hx1, hx2]
      try ring_nf
    · simp only [c.c4, c'.c2, List.getD_cons_zero, List.getD_cons_succ, hx0, hx1, hx2]
      try ring_nf
    · simp only [c.c5, c'.c3, List.getD_cons_zero, List.getD_cons_succ, hx0, hx1, hx2]
      try ring_nf
    · simp only [c.c6, c'.c4, List.getD_cons_zero, List.getD_cons_succ, hx0, hx1, hx2]
      try ring_nf

example := C86_rotate_coef_v2_3d (T := Rat) (i0 := 0) (j0 := 1) (k0 := 2) (i1 := 1) (j1 := 2) (k1 := 3) (sgcw := 1) (sgcw' := 1) (b0 := ⟨2, 0⟩) (b1 := ⟨3, 0⟩) (b2 := ⟨4, 0⟩) (st := ⟨9, 0⟩) (b0' := ⟨2, 0⟩) (b1' := ⟨3, 0⟩) (b2' := ⟨4, 0⟩) (st' := ⟨9, 0⟩) (alpha := 3) (beta := 2) (dx := exDx) (dx' := (fun d => if d = 0 then exDx 1 else if d = 1 then exDx 2 else if d = 2 then exDx 0 else 0)) (β3 := revBackend) (β3' := revBackend) (β4 := seqBackend) (β4' := seqBackend)
  (m := exWith [((F.face3d0 ⟨2, 0⟩ 0 1 2 1 2 3 0), (exRd (F.face3d0 ⟨2, 0⟩ 0 1 2 1 2 3 0))), ((F.face3d1 ⟨3, 0⟩ 0 1 2 1 2 3 0), (exRd (F.face3d1 ⟨3, 0⟩ 0 1 2 1 2 3 0))), ((F.face3d2 ⟨4, 0⟩ 0 1 2 1 2 3 0), (exRd (F.face3d2 ⟨4, 0⟩ 0 1 2 1 2 3 0)))])
  (m' := exWith [((F.face3d0 ⟨2, 0⟩ 1 2 0 2 3 1 0), (fun p => exRd (F.face3d1 ⟨3, 0⟩ 0 1 2 1 2 3 0) [p.getD 0 0, p.getD 1 0, p.getD 2 0])), ((F.face3d1 ⟨3, 0⟩ 1 2 0 2 3 1 0), (fun p => exRd (F.face3d2 ⟨4, 0⟩ 0 1 2 1 2 3 0) [p.getD 0 0, p.getD 1 0, p.getD 2 0])), ((F.face3d2 ⟨4, 0⟩ 1 2 0 2 3 1 0), (fun p => exRd (F.face3d0 ⟨2, 0⟩ 0 1 2 1 2 3 0) [p.getD 0 0, p.getD 1 0, p.getD 2 0]))])
  revBackend_ok seqBackend_ok revBackend_ok seqBackend_ok (by decide) (by decide) (by decide) (by decide) (by decide) rfl rfl rfl (exWith_args (by ex_args)) (exWith_args (by ex_args)) (exWith_rd (exRat_ok rfl (by decide) (by decide)) rfl rfl) (exWith_rd (exRat_ok rfl (by decide) (by decide)) rfl rfl) (exWith_rd (exRat_ok rfl (by decide) (by decide)) rfl rfl) (exWith_rd (exRat_ok rfl (by decide) (by decide)) rfl rfl) (exWith_rd (exRat_ok rfl (by decide) (by decide)) rfl rfl) (exWith_rd (exRat_ok rfl (by decide) (by decide)) rfl rfl)

/-- 3D, Poisson operator: for data with the axes permuted cyclically the results are those of the plain data, with the axes permuted cyclically. -/
theorem C86_rotate_poisson_3d {i0 j0 k0 i1 j1 k1 gcw rgcw gcw' rgcw' : Int} {beta : T} {dx dx' : Nat → T} {u f0 f1 f2 res u' f0' f1' f2' res' : Ptr} {β1 β2 β1' β2' : Nat → Backend} {m m' : Mem T} {U : List Int → T}
    (hβ1 : ∀ n, ValidBackend (β1 n)) (hβ2 : ∀ n, ValidBackend (β2 n)) (hβ1' : ∀ n, ValidBackend (β1' n)) (hβ2' : ∀ n, ValidBackend (β2' n)) (hi : i0 ≤ i1) (hj : j0 ≤ j1) (hk : k0 ≤ k1) (hg : 1 ≤ gcw) (hrgcw : 0 ≤ rgcw) (hg' : 1 ≤ gcw') (hrgcw' : 0 ≤ rgcw')
    (hx0 : dx' 0 = dx 1) (hx1 : dx' 1 = dx 2) (hx2 : dx' 2 = dx 0)
    (h : F.Args m [(F.cell3d u i0 j0 k0 i1 j1 k1 gcw)] [(F.face3d0 f0 i0 j0 k0 i1 j1 k1 0), (F.face3d1 f1 i0 j0 k0 i1 j1 k1 0), (F.face3d2 f2 i0 j0 k0 i1 j1 k1 0), (F.cell3d res i0 j0 k0 i1 j1 k1 rgcw)]) (hp : F.Apart (F.face3d0 f0 i0 j0 k0 i1 j1 k1 0) (F.face3d1 f1 i0 j0 k0 i1 j1 k1 0) ∧ F.Apart (F.face3d0 f0 i0 j0 k0 i1 j1 k1 0) (F.face3d2 f2 i0 j0 k0 i1 j1 k1 0) ∧ F.Apart (F.face3d1 f1 i0 j0 k0 i1 j1 k1 0) (F.face3d2 f2 i0 j0 k0 i1 j1 k1 0)) (hr : F.Apart (F.cell3d res i0 j0 k0 i1 j1 k1 rgcw) (F.face3d0 f0 i0 j0 k0 i1 j1 k1 0) ∧ F.Apart (F.cell3d res i0 j0 k0 i1 j1 k1 rgcw) (F.face3d1 f1 i0 j0 k0 i1 j1 k1 0) ∧ F.Apart (F.cell3d res i0 j0 k0 i1 j1 k1 rgcw) (F.face3d2 f2 i0 j0 k0 i1 j1 k1 0))
    (h' : F.Args m' [(F.cell3d u' j0 k0 i0 j1 k1 i1 gcw')] [(F.face3d0 f0' j0 k0 i0 j1 k1 i1 0), (F.face3d1 f1' j0 k0 i0 j1 k1 i1 0), (F.face3d2 f2' j0 k0 i0 j1 k1 i1 0), (F.cell3d res' j0 k0 i0 j1 k1 i1 rgcw')]) (hp' : F.Apart (F.face3d0 f0' j0 k0 i0 j1 k1 i1 0) (F.face3d1 f1' j0 k0 i0 j1 k1 i1 0) ∧ F.Apart (F.face3d0 f0' j0 k0 i0 j1 k1 i1 0) (F.face3d2 f2' j0 k0 i0 j1 k1 i1 0) ∧ F.Apart (F.face3d1 f1' j0 k0 i0 j1 k1 i1 0) (F.face3d2 f2' j0 k0 i0 j1 k1 i1 0)) (hr' : F.Apart (F.cell3d res' j0 k0 i0 j1 k1 i1 rgcw') (F.face3d0 f0' j0 k0 i0 j1 k1 i1 0) ∧ F.Apart (F.cell3d res' j0 k0 i0 j1 k1 i1 rgcw') (F.face3d1 f1' j0 k0 i0 j1 k1 i1 0) ∧ F.Apart (F.cell3d res' j0 k0 i0 j1 k1 i1 rgcw') (F.face3d2 f2' j0 k0 i0 j1 k1 i1 0))
    (hU : F.Holds m (F.cell3d u i0 j0 k0 i1 j1 k1 gcw) U)
    (hU' : F.Holds m' (F.cell3d u' j0 k0 i0 j1 k1 i1 gcw') (fun p => U [p.getD 2 0, p.getD 0 0, p.getD 1 0])) :
    ∃ m1 m2 m1' m2', Cuda.poissonFlux3d i0 j0 k0 i1 j1 k1 dx gcw u f0 f1 f2 β1 m = .ok m1 ∧ Cuda.poissonV2Apply3d i0 i1 j0 j1 k0 k1 beta dx f0 f1 f2 rgcw res β2 m1 = .ok m2 ∧ Cuda.poissonFlux3d j0 k0 i0 j1 k1 i1 dx' gcw' u' f0' f1' f2' β1' m' = .ok m1' ∧ Cuda.poissonV2Apply3d j0 j1 k0 k1 i0 i1 beta dx' f0' f1' f2' rgcw' res' β2' m1' = .ok m2' ∧
      ∀ i j k, i0 ≤ i → i ≤ i1 → j0 ≤ j → j ≤ j1 → k0 ≤ k → k ≤ k1 → ∃ v, F.El m2 (F.cell3d res i0 j0 k0 i1 j1 k1 rgcw) [i, j, k] v ∧ F.El m2' (F.cell3d res' j0 k0 i0 j1 k1 i1 rgcw') [j, k, i] v := by
  obtain ⟨m1, m2, R, c1, c2, e, hR⟩ := energy_p_3 (beta := beta) (dx := dx) hβ1 hβ2 hi hj hk hg hrgcw h hp hr hU
  obtain ⟨m1', m2', R', c1', c2', e', hR'⟩ := energy_p_3 (beta := beta) (dx := dx') hβ1' hβ2' (by omega) (by omega) (by omega) hg' hrgcw' h' hp' hr' hU'
  refine ⟨m1, m2, m1', m2', c1, c2, c1', c2', fun i j k ia ib ja jb ka kb => ⟨_, e [i, j, k] (F.inBounds3.2 ⟨i, j, k, rfl, by omega⟩), ?_⟩⟩
  have x := e' [j, k, i] (F.inBounds3.2 ⟨j, k, i, rfl, by omega⟩)
  rw [hR' (j) (k) (i) (by omega) (by omega) (by omega) (by omega) (by omega) (by omega)] at x
  rw [hR i j k ia ib ja jb ka kb]
  convert x using 1
  simp only [F.op3, List.getD_cons_zero, List.getD_cons_succ, hx0, hx1, hx2]
  ring

example := C86_rotate_poisson_3d (T := Rat) (i0 := 0) (j0 := 1) (k0 := 2) (i1 := 1) (j1 := 2) (k1 := 3) (gcw := 2) (rgcw := 1) (gcw' := 2) (rgcw' := 1) (u := ⟨1, 0⟩) (f0 := ⟨5, 0⟩) (f1 := ⟨6, 0⟩) (f2 := ⟨7, 0⟩) (res := ⟨8, 0⟩) (u' := ⟨1, 0⟩) (f0' := ⟨5, 0⟩) (f1' := ⟨6, 0⟩) (f2' := ⟨7, 0⟩) (res' := ⟨8, 0⟩) (beta := 2) (dx := exDx) (dx' := (fun d => if d = 0 then exDx 1 else if d = 1 then exDx 2 else if d = 2 then exDx 0 else 0)) (β1 := fun _ => revBackend) (β1' := fun _ => revBackend) (β2 := fun _ => seqBackend) (β2' := fun _ => seqBackend)
  (m := exWith [((F.cell3d ⟨1, 0⟩ 0 1 2 1 2 3 2), (exRd (F.cell3d ⟨1, 0⟩ 0 1 2 1 2 3 2)))])
  (m' := exWith [((F.cell3d ⟨1, 0⟩ 1 2 0 2 3 1 2), (fun p => exRd (F.cell3d ⟨1, 0⟩ 0 1 2 1 2 3 2) [p.getD 2 0, p.getD 0 0, p.getD 1 0]))])
  (fun _ => revBackend_ok) (fun _ => seqBackend_ok) (fun _ => revBackend_ok) (fun _ => seqBackend_ok) (by decide) (by decide) (by decide) (by decide) (by decide) (by decide) (by decide) rfl rfl rfl (exWith_args (by ex_args)) ⟨apart_blk (by decide), apart_blk (by decide), apart_blk (by decide)⟩ ⟨apart_blk (by decide), apart_blk (by decide), apart_blk (by decide)⟩ (exWith_args (by ex_args)) ⟨apart_blk (by decide), apart_blk (by decide), apart_blk (by decide)⟩ ⟨apart_blk (by decide), apart_blk (by decide), apart_blk (by decide)⟩ (exWith_rd (exRat_ok rfl (by decide) (by decide)) rfl rfl) (exWith_rd (exRat_ok rfl (by decide) (by decide)) rfl rfl)

/-- 3D, Poisson operator: for data with the axes permuted cyclically the assembled coefficients are those of the plain data, with the axes permuted cyclically. -/
theorem C86_rotate_coef_poisson_3d {i0 j0 k0 i1 j1 k1 sgcw sgcw' : Int} {beta : T} {dx dx' : Nat → T} {st st' : Ptr} {β3 β4 β3' β4' : Backend} {m m' : Mem T}
    (hβ3 : ValidBackend β3) (hβ4 : ValidBackend β4) (hβ3' : ValidBackend β3') (hβ4' : ValidBackend β4') (hi : i0 ≤ i1) (hj : j0 ≤ j1) (hk : k0 ≤ k1) (hs : 0 ≤ sgcw) (hs' : 0 ≤ sgcw')
    (hx0 : dx' 0 = dx 1) (hx1 : dx' 1 = dx 2) (hx2 : dx' 2 = dx 0)
    (h : F.Args m [] [(F.st3d st i0 j0 k0 i1 j1 k1 sgcw)])
    (h' : F.Args m' [] [(F.st3d st' j0 k0 i0 j1 k1 i1 sgcw')]) :
    ∃ s1 s2 s1' s2', Cuda.poissonOffdiag3d i0 j0 k0 i1 j1 k1 dx beta sgcw st β3 m = .ok s1 ∧ Cuda.poissonDiag3d i0 j0 k0 i1 j1 k1 sgcw st β4 s1 = .ok s2 ∧ Cuda.poissonOffdiag3d j0 k0 i0 j1 k1 i1 dx' beta sgcw' st' β3' m' = .ok s1' ∧ Cuda.poissonDiag3d j0 k0 i0 j1 k1 i1 sgcw' st' β4' s1' = .ok s2' ∧
      ∀ i j k, i0 ≤ i → i ≤ i1 → j0 ≤ j → j ≤ j1 → k0 ≤ k → k ≤ k1 → ∀ e ∈ ([(0, 0), (1, 5), (2, 6), (3, 1), (4, 2), (5, 3), (6, 4)] : List (Int × Int)), ∃ v, F.El s2 (F.st3d st i0 j0 k0 i1 j1 k1 sgcw) [e.1, i, j, k] v ∧ F.El s2' (F.st3d st' j0 k0 i0 j1 k1 i1 sgcw') [e.2, j, k, i] v := by
  obtain ⟨s1, s2, S, c1, c2, -, hS, hc⟩ := asm_p_3 (beta := beta) (dx := dx) hβ3 hβ4 hi hj hk hs h
  obtain ⟨s1', s2', S', c1', c2', -, hS', hc'⟩ := asm_p_3 (beta := beta) (dx := dx') hβ3' hβ4' (by omega) (by omega) (by omega) hs' h'
  refine ⟨s1, s2, s1', s2', c1, c2, c1', c2', fun i j k ia ib ja jb ka kb e he => ⟨S [e.1, i, j, k], hS _ ?_, ?_⟩⟩
  · simp only [List.mem_cons, List.not_mem_nil, or_false] at he
    rcases he with rfl | rfl | rfl | rfl | rfl | rfl | rfl <;> simp only [F.st3d, F.InBounds, and_true] <;> omega
  · have c := hc i j k ia ib ja jb ka kb
    have c' := hc' (j) (k) (i) (by omega) (by omega) (by omega) (by omega) (by omega) (by omega)
    have x := hS' [e.2, j, k, i] (by
      simp only [List.mem_cons, List.not_mem_nil, or_false] at he
      rcases he with rfl | rfl | rfl | rfl | rfl | rfl | rfl <;> simp only [F.st3d, F.InBounds, and_true] <;> omega)
    convert x using 1
    have hv := c'.c0
    simp only [List.mem_cons, List.not_mem_nil, or_false] at he
    rcases he with rfl | rfl | rfl | rfl | rfl | rfl | rfl
    · simp only [c.c0, c'.c0, c.c1, c.c2, c.c3, c.c4, c.c5, c.c6, c'.c1, c'.c2, c'.c3, c'.c4, c'.c5, c'.c6, List.getD_cons_zero, List.getD_cons_succ, hx0, hx1, hx2]
      try ring_nf
    · simp only [c.c1, c'.c5, List.getD_cons_zero, List.getD_cons_succ, hx0, hx1, hx2]
      try ring_nf
    · simp only [c.c2, c'.c6, List.getD_cons_zero, List.getD_cons_succ, hx0, hx1, hx2]
      try ring_nf
    · simp only [c.c3, c'.c1, List.getD_cons_zero, List.getD_cons_succ, hx0, hx1, hx2]
      try ring_nf
    · simp only [c.c4, c'.c2, List.getD_cons_zero, List.getD_cons_succ, hx0, hx1, hx2]
      try ring_nf
    · simp only [c.c5, c'.c3, List.getD_cons_zero, List.getD_cons_succ, hx0, hx1, hx2]
      try ring_nf
    · simp only [c.c6, c'.c4, List.getD_cons_zero, List.getD_cons_succ, hx0, hx1, hx2]
      try ring_nf

example := C86_rotate_coef_poisson_3d (T := Rat) (i0 := 0) (j0 := 1) (k0 := 2) (i1 := 1) (j1 := 2) (k1 := 3) (sgcw := 1) (sgcw' := 1) (st := ⟨9, 0⟩) (st' := ⟨9, 0⟩) (beta := 2) (dx := exDx) (dx' := (fun d => if d = 0 then exDx 1 else if d = 1 then exDx 2 else if d = 2 then exDx 0 else 0)) (β3 := revBackend) (β3' := revBackend) (β4 := seqBackend) (β4' := seqBackend)
  (m := exWith [])
  (m' := exWith [])
  revBackend_ok seqBackend_ok revBackend_ok seqBackend_ok (by decide) (by decide) (by decide) (by decide) (by decide) rfl rfl rfl (exWith_args (by ex_args)) (exWith_args (by ex_args))

/-- 3D, diffusion operator with cell coefficients: for data with the first two axes exchanged the results are those of the plain data, with the first two axes exchanged. -/
theorem C86_exchange_v1_3d {i0 j0 k0 i1 j1 k1 agcw gcw rgcw agcw' gcw' rgcw' : Int} {alpha beta : T} {dx dx' : Nat → T} {a u b0 b1 b2 f0 f1 f2 res a' u' b0' b1' b2' f0' f1' f2' res' : Ptr} {β1 β2 β1' β2' : Nat → Backend} {m m' : Mem T} {A B0 B1 B2 U : List Int → T}
    (hβ1 : ∀ n, ValidBackend (β1 n)) (hβ2 : ∀ n, ValidBackend (β2 n)) (hβ1' : ∀ n, ValidBackend (β1' n)) (hβ2' : ∀ n, ValidBackend (β2' n)) (hi : i0 ≤ i1) (hj : j0 ≤ j1) (hk : k0 ≤ k1) (hg : 1 ≤ gcw) (hagcw : 0 ≤ agcw) (hrgcw : 0 ≤ rgcw) (hg' : 1 ≤ gcw') (hagcw' : 0 ≤ agcw') (hrgcw' : 0 ≤ rgcw')
    (hx0 : dx' 0 = dx 1) (hx1 : dx' 1 = dx 0) (hx2 : dx' 2 = dx 2)
    (h : F.Args m [(F.cell3d a i0 j0 k0 i1 j1 k1 agcw), (F.cell3d u i0 j0 k0 i1 j1 k1 gcw), (F.face3d0 b0 i0 j0 k0 i1 j1 k1 0), (F.face3d1 b1 i0 j0 k0 i1 j1 k1 0), (F.face3d2 b2 i0 j0 k0 i1 j1 k1 0)] [(F.face3d0 f0 i0 j0 k0 i1 j1 k1 0), (F.face3d1 f1 i0 j0 k0 i1 j1 k1 0), (F.face3d2 f2 i0 j0 k0 i1 j1 k1 0), (F.cell3d res i0 j0 k0 i1 j1 k1 rgcw)]) (hp : F.Apart (F.face3d0 f0 i0 j0 k0 i1 j1 k1 0) (F.face3d1 f1 i0 j0 k0 i1 j1 k1 0) ∧ F.Apart (F.face3d0 f0 i0 j0 k0 i1 j1 k1 0) (F.face3d2 f2 i0 j0 k0 i1 j1 k1 0) ∧ F.Apart (F.face3d1 f1 i0 j0 k0 i1 j1 k1 0) (F.face3d2 f2 i0 j0 k0 i1 j1 k1 0)) (hr : F.Apart (F.cell3d res i0 j0 k0 i1 j1 k1 rgcw) (F.face3d0 f0 i0 j0 k0 i1 j1 k1 0) ∧ F.Apart (F.cell3d res i0 j0 k0 i1 j1 k1 rgcw) (F.face3d1 f1 i0 j0 k0 i1 j1 k1 0) ∧ F.Apart (F.cell3d res i0 j0 k0 i1 j1 k1 rgcw) (F.face3d2 f2 i0 j0 k0 i1 j1 k1 0))
    (h' : F.Args m' [(F.cell3d a' j0 i0 k0 j1 i1 k1 agcw'), (F.cell3d u' j0 i0 k0 j1 i1 k1 gcw'), (F.face3d0 b0' j0 i0 k0 j1 i1 k1 0), (F.face3d1 b1' j0 i0 k0 j1 i1 k1 0), (F.face3d2 b2' j0 i0 k0 j1 i1 k1 0)] [(F.face3d0 f0' j0 i0 k0 j1 i1 k1 0), (F.face3d1 f1' j0 i0 k0 j1 i1 k1 0), (F.face3d2 f2' j0 i0 k0 j1 i1 k1 0), (F.cell3d res' j0 i0 k0 j1 i1 k1 rgcw')]) (hp' : F.Apart (F.face3d0 f0' j0 i0 k0 j1 i1 k1 0) (F.face3d1 f1' j0 i0 k0 j1 i1 k1 0) ∧ F.Apart (F.face3d0 f0' j0 i0 k0 j1 i1 k1 0) (F.face3d2 f2' j0 i0 k0 j1 i1 k1 0) ∧ F.Apart (F.face3d1 f1' j0 i0 k0 j1 i1 k1 0) (F.face3d2 f2' j0 i0 k0 j1 i1 k1 0)) (hr' : F.Apart (F.cell3d res' j0 i0 k0 j1 i1 k1 rgcw') (F.face3d0 f0' j0 i0 k0 j1 i1 k1 0) ∧ F.Apart (F.cell3d res' j0 i0 k0 j1 i1 k1 rgcw') (F.face3d1 f1' j0 i0 k0 j1 i1 k1 0) ∧ F.Apart (F.cell3d res' j0 i0 k0 j1 i1 k1 rgcw') (F.face3d2 f2' j0 i0 k0 j1 i1 k1 0))
    (hA : F.Holds m (F.cell3d a i0 j0 k0 i1 j1 k1 agcw) A) (hB0 : F.Holds m (F.face3d0 b0 i0 j0 k0 i1 j1 k1 0) B0) (hB1 : F.Holds m (F.face3d1 b1 i0 j0 k0 i1 j1 k1 0) B1) (hB2 : F.Holds m (F.face3d2 b2 i0 j0 k0 i1 j1 k1 0) B2) (hU : F.Holds m (F.cell3d u i0 j0 k0 i1 j1 k1 gcw) U)
    (hA' : F.Holds m' (F.cell3d a' j0 i0 k0 j1 i1 k1 agcw') (fun p => A [p.getD 1 0, p.getD 0 0, p.getD 2 0])) (hB0' : F.Holds m' (F.face3d0 b0' j0 i0 k0 j1 i1 k1 0) (fun p => B1 [p.getD 0 0, p.getD 2 0, p.getD 1 0])) (hB1' : F.Holds m' (F.face3d1 b1' j0 i0 k0 j1 i1 k1 0) (fun p => B0 [p.getD 0 0, p.getD 2 0, p.getD 1 0])) (hB2' : F.Holds m' (F.face3d2 b2' j0 i0 k0 j1 i1 k1 0) (fun p => B2 [p.getD 0 0, p.getD 2 0, p.getD 1 0])) (hU' : F.Holds m' (F.cell3d u' j0 i0 k0 j1 i1 k1 gcw') (fun p => U [p.getD 1 0, p.getD 0 0, p.getD 2 0])) :
    ∃ m1 m2 m1' m2', Cuda.flux3d i0 j0 k0 i1 j1 k1 dx b0 b1 b2 gcw u f0 f1 f2 β1 m = .ok m1 ∧ Cuda.diffusionV1Apply3d i0 i1 j0 j1 k0 k1 alpha beta dx agcw a gcw u f0 f1 f2 rgcw res β2 m1 = .ok m2 ∧ Cuda.flux3d j0 i0 k0 j1 i1 k1 dx' b0' b1' b2' gcw' u' f0' f1' f2' β1' m' = .ok m1' ∧ Cuda.diffusionV1Apply3d j0 j1 i0 i1 k0 k1 alpha beta dx' agcw' a' gcw' u' f0' f1' f2' rgcw' res' β2' m1' = .ok m2' ∧
      ∀ i j k, i0 ≤ i → i ≤ i1 → j0 ≤ j → j ≤ j1 → k0 ≤ k → k ≤ k1 → ∃ v, F.El m2 (F.cell3d res i0 j0 k0 i1 j1 k1 rgcw) [i, j, k] v ∧ F.El m2' (F.cell3d res' j0 i0 k0 j1 i1 k1 rgcw') [j, i, k] v := by
  obtain ⟨m1, m2, R, c1, c2, e, hR⟩ := energy_v1_3 (alpha := alpha) (beta := beta) (dx := dx) hβ1 hβ2 hi hj hk hg hagcw hrgcw h hp hr hA hB0 hB1 hB2 hU
  obtain ⟨m1', m2', R', c1', c2', e', hR'⟩ := energy_v1_3 (alpha := alpha) (beta := beta) (dx := dx') hβ1' hβ2' (by omega) (by omega) (by omega) hg' hagcw' hrgcw' h' hp' hr' hA' hB0' hB1' hB2' hU'
  refine ⟨m1, m2, m1', m2', c1, c2, c1', c2', fun i j k ia ib ja jb ka kb => ⟨_, e [i, j, k] (F.inBounds3.2 ⟨i, j, k, rfl, by omega⟩), ?_⟩⟩
  have x := e' [j, i, k] (F.inBounds3.2 ⟨j, i, k, rfl, by omega⟩)
  rw [hR' (j) (i) (k) (by omega) (by omega) (by omega) (by omega) (by omega) (by omega)] at x
  rw [hR i j k ia ib ja jb ka kb]
  convert x using 1
  simp only [F.op3, List.getD_cons_zero, List.getD_cons_succ, hx0, hx1, hx2]
  ring

example := C86_exchange_v1_3d (T := Rat) (i0 := 0) (j0 := 1) (k0 := 2) (i1 := 1) (j1 := 2) (k1 := 3) (agcw := 1) (gcw := 2) (rgcw := 1) (agcw' := 1) (gcw' := 2) (rgcw' := 1) (a := ⟨0, 0⟩) (u := ⟨1, 0⟩) (b0 := ⟨2, 0⟩) (b1 := ⟨3, 0⟩) (b2 := ⟨4, 0⟩) (f0 := ⟨5, 0⟩) (f1 := ⟨6, 0⟩) (f2 := ⟨7, 0⟩) (res := ⟨8, 0⟩) (a' := ⟨0, 0⟩) (u' := ⟨1, 0⟩) (b0' := ⟨2, 0⟩) (b1' := ⟨3, 0⟩) (b2' := ⟨4, 0⟩) (f0' := ⟨5, 0⟩) (f1' := ⟨6, 0⟩) (f2' := ⟨7, 0⟩) (res' := ⟨8, 0⟩) (alpha := 3) (beta := 2) (dx := exDx) (dx' := (fun d => if d = 0 then exDx 1 else if d = 1 then exDx 0 else if d = 2 then exDx 2 else 0)) (β1 := fun _ => revBackend) (β1' := fun _ => revBackend) (β2 := fun _ => seqBackend) (β2' := fun _ => seqBackend)
  (m := exWith [((F.cell3d ⟨0, 0⟩ 0 1 2 1 2 3 1), (exRd (F.cell3d ⟨0, 0⟩ 0 1 2 1 2 3 1))), ((F.face3d0 ⟨2, 0⟩ 0 1 2 1 2 3 0), (exRd (F.face3d0 ⟨2, 0⟩ 0 1 2 1 2 3 0))), ((F.face3d1 ⟨3, 0⟩ 0 1 2 1 2 3 0), (exRd (F.face3d1 ⟨3, 0⟩ 0 1 2 1 2 3 0))), ((F.face3d2 ⟨4, 0⟩ 0 1 2 1 2 3 0), (exRd (F.face3d2 ⟨4, 0⟩ 0 1 2 1 2 3 0))), ((F.cell3d ⟨1, 0⟩ 0 1 2 1 2 3 2), (exRd (F.cell3d ⟨1, 0⟩ 0 1 2 1 2 3 2)))])
  (m' := exWith [((F.cell3d ⟨0, 0⟩ 1 0 2 2 1 3 1), (fun p => exRd (F.cell3d ⟨0, 0⟩ 0 1 2 1 2 3 1) [p.getD 1 0, p.getD 0 0, p.getD 2 0])), ((F.face3d0 ⟨2, 0⟩ 1 0 2 2 1 3 0), (fun p => exRd (F.face3d1 ⟨3, 0⟩ 0 1 2 1 2 3 0) [p.getD 0 0, p.getD 2 0, p.getD 1 0])), ((F.face3d1 ⟨3, 0⟩ 1 0 2 2 1 3 0), (fun p => exRd (F.face3d0 ⟨2, 0⟩ 0 1 2 1 2 3 0) [p.getD 0 0, p.getD 2 0, p.getD 1 0])), ((F.face3d2 ⟨4, 0⟩ 1 0 2 2 1 3 0), (fun p => exRd (F.face3d2 ⟨4, 0⟩ 0 1 2 1 2 3 0) [p.getD 0 0, p.getD 2 0, p.getD 1 0])), ((F.cell3d ⟨1, 0⟩ 1 0 2 2 1 3 2), (fun p => exRd (F.cell3d ⟨1, 0⟩ 0 1 2 1 2 3 2) [p.getD 1 0, p.getD 0 0, p.getD 2 0]))])
  (fun _ => revBackend_ok) (fun _ => seqBackend_ok) (fun _ => revBackend_ok) (fun _ => seqBackend_ok) (by decide) (by decide) (by decide) (by decide) (by decide) (by decide) (by decide) (by decide) (by decide) rfl rfl rfl (exWith_args (by ex_args)) ⟨apart_blk (by decide), apart_blk (by decide), apart_blk (by decide)⟩ ⟨apart_blk (by decide), apart_blk (by decide), apart_blk (by decide)⟩ (exWith_args (by ex_args)) ⟨apart_blk (by decide), apart_blk (by decide), apart_blk (by decide)⟩ ⟨apart_blk (by decide), apart_blk (by decide), apart_blk (by decide)⟩ (exWith_rd (exRat_ok rfl (by decide) (by decide)) rfl rfl) (exWith_rd (exRat_ok rfl (by decide) (by decide)) rfl rfl) (exWith_rd (exRat_ok rfl (by decide) (by decide)) rfl rfl) (exWith_rd (exRat_ok rfl (by decide) (by decide)) rfl rfl) (exWith_rd (exRat_ok rfl (by decide) (by decide)) rfl rfl) (exWith_rd (exRat_ok rfl (by decide) (by decide)) rfl rfl) (exWith_rd (exRat_ok rfl (by decide) (by decide)) rfl rfl) (exWith_rd (exRat_ok rfl (by decide) (by decide)) rfl rfl) (exWith_rd (exRat_ok rfl (by decide) (by decide)) rfl rfl) (exWith_rd (exRat_ok rfl (by decide) (by decide)) rfl rfl)

/-- 3D, diffusion operator with cell coefficients: for data with the first two axes exchanged the assembled coefficients are those of the plain data, with the first two axes exchanged. -/
theorem C86_exchange_coef_v1_3d {i0 j0 k0 i1 j1 k1 agcw sgcw agcw' sgcw' : Int} {alpha beta : T} {dx dx' : Nat → T} {a b0 b1 b2 st a' b0' b1' b2' st' : Ptr} {β3 β4 β3' β4' : Backend} {m m' : Mem T} {A B0 B1 B2 : List Int → T}
    (hβ3 : ValidBackend β3) (hβ4 : ValidBackend β4) (hβ3' : ValidBackend β3') (hβ4' : ValidBackend β4') (hi : i0 ≤ i1) (hj : j0 ≤ j1) (hk : k0 ≤ k1) (hagcw : 0 ≤ agcw) (hs : 0 ≤ sgcw) (hagcw' : 0 ≤ agcw') (hs' : 0 ≤ sgcw')
    (hx0 : dx' 0 = dx 1) (hx1 : dx' 1 = dx 0) (hx2 : dx' 2 = dx 2)
    (h : F.Args m [(F.cell3d a i0 j0 k0 i1 j1 k1 agcw), (F.face3d0 b0 i0 j0 k0 i1 j1 k1 0), (F.face3d1 b1 i0 j0 k0 i1 j1 k1 0), (F.face3d2 b2 i0 j0 k0 i1 j1 k1 0)] [(F.st3d st i0 j0 k0 i1 j1 k1 sgcw)])
    (h' : F.Args m' [(F.cell3d a' j0 i0 k0 j1 i1 k1 agcw'), (F.face3d0 b0' j0 i0 k0 j1 i1 k1 0), (F.face3d1 b1' j0 i0 k0 j1 i1 k1 0), (F.face3d2 b2' j0 i0 k0 j1 i1 k1 0)] [(F.st3d st' j0 i0 k0 j1 i1 k1 sgcw')])
    (hA : F.Holds m (F.cell3d a i0 j0 k0 i1 j1 k1 agcw) A) (hB0 : F.Holds m (F.face3d0 b0 i0 j0 k0 i1 j1 k1 0) B0) (hB1 : F.Holds m (F.face3d1 b1 i0 j0 k0 i1 j1 k1 0) B1) (hB2 : F.Holds m (F.face3d2 b2 i0 j0 k0 i1 j1 k1 0) B2)
    (hA' : F.Holds m' (F.cell3d a' j0 i0 k0 j1 i1 k1 agcw') (fun p => A [p.getD 1 0, p.getD 0 0, p.getD 2 0])) (hB0' : F.Holds m' (F.face3d0 b0' j0 i0 k0 j1 i1 k1 0) (fun p => B1 [p.getD 0 0, p.getD 2 0, p.getD 1 0])) (hB1' : F.Holds m' (F.face3d1 b1' j0 i0 k0 j1 i1 k1 0) (fun p => B0 [p.getD 0 0, p.getD 2 0, p.getD 1 0])) (hB2' : F.Holds m' (F.face3d2 b2' j0 i0 k0 j1 i1 k1 0) (fun p => B2 [p.getD 0 0, p.getD 2 0, p.getD 1 0])) :
    ∃ s1 s2 s1' s2', Cuda.offdiag3d i0 j0 k0 i1 j1 k1 i0 j0 k0 i1 j1 k1 dx beta b0 b1 b2 sgcw st β3 m = .ok s1 ∧ Cuda.v1diag3d i0 j0 k0 i1 j1 k1 (i0 - agcw) (j0 - agcw) (k0 - agcw) (i1 + agcw) (j1 + agcw) (k1 + agcw) alpha a sgcw st β4 s1 = .ok s2 ∧ Cuda.offdiag3d j0 i0 k0 j1 i1 k1 j0 i0 k0 j1 i1 k1 dx' beta b0' b1' b2' sgcw' st' β3' m' = .ok s1' ∧ Cuda.v1diag3d j0 i0 k0 j1 i1 k1 (j0 - agcw') (i0 - agcw') (k0 - agcw') (j1 + agcw') (i1 + agcw') (k1 + agcw') alpha a' sgcw' st' β4' s1' = .ok s2' ∧
      ∀ i j k, i0 ≤ i → i ≤ i1 → j0 ≤ j → j ≤ j1 → k0 ≤ k → k ≤ k1 → ∀ e ∈ ([(0, 0), (1, 3), (2, 4), (3, 1), (4, 2), (5, 5), (6, 6)] : List (Int × Int)), ∃ v, F.El s2 (F.st3d st i0 j0 k0 i1 j1 k1 sgcw) [e.1, i, j, k] v ∧ F.El s2' (F.st3d st' j0 i0 k0 j1 i1 k1 sgcw') [e.2, j, i, k] v := by
  obtain ⟨s1, s2, S, c1, c2, -, hS, hc⟩ := asm_v1_3 (alpha := alpha) (beta := beta) (dx := dx) hβ3 hβ4 hi hj hk hagcw hs h hA hB0 hB1 hB2
  obtain ⟨s1', s2', S', c1', c2', -, hS', hc'⟩ := asm_v1_3 (alpha := alpha) (beta := beta) (dx := dx') hβ3' hβ4' (by omega) (by omega) (by omega) hagcw' hs' h' hA' hB0' hB1' hB2'
  refine ⟨s1, s2, s1', s2', c1, c2, c1', c2', fun i j k ia ib ja jb ka kb e he => ⟨S [e.1, i, j, k], hS _ ?_, ?_⟩⟩
  · simp only [List.mem_cons, List.not_mem_nil, or_false] at he
    rcases he with rfl | rfl | rfl | rfl | rfl | rfl | rfl <;> simp only [F.st3d, F.InBounds, and_true] <;> omega
  · have c := hc i j k ia ib ja jb ka kb
    have c' := hc' (j) (i) (k) (by omega) (by omega) (by omega) (by omega) (by omega) (by omega)
    have x := hS' [e.2, j, i, k] (by
      simp only [List.mem_cons, List.not_mem_nil, or_false] at he
      rcases he with rfl | rfl | rfl | rfl | rfl | rfl | rfl <;> simp only [F.st3d, F.InBounds, and_true] <;> omega)
    convert x using 1
    have hv := c'.c0
    simp only [List.mem_cons, List.not_mem_nil, or_false] at he
    rcases he with rfl | rfl | rfl | rfl | rfl | rfl | rfl
    · simp only [c.c0, c'.c0, c.c1, c.c2, c.c3, c.c4, c.c5, c.c6, c'.c1, c'.c2, c'.c3, c'.c4, c'.c5, c'.c6, List.getD_cons_zero, List.getD_cons_succ, hx0, hx1, hx2]
      try ring_nf
    · simp only [c.c1, c'.c3, List.getD_cons_zero, List.getD_cons_succ, hx0, hx1, hx2]
      try ring_nf
    · simp only [c.c2, c'.c4, List.getD_cons_zero, List.getD_cons_succ, hx0, hx1, hx2]
      try ring_nf
    · simp only [c.c3, c'.c1, List.getD_cons_zero, List.getD_cons_succ, hx0, hx1, hx2]
      try ring_nf
    · simp only [c.c4, c'.c2, List.getD_cons_zero, List.getD_cons_succ, hx0, hx1, hx2]
      try ring_nf
    · simp only [c.c5, c'.c5, List.getD_cons_zero, List.getD_cons_succ, hx0, hx1, hx2]
      try ring_nf
    · simp only [c.c6, c'.c6, List.getD_cons_zero, List.getD_cons_succ, hx0, hx1, hx2]
      try ring_nf

example := C86_exchange_coef_v1_3d (T := Rat) (i0 := 0) (j0 := 1) (k0 := 2) (i1 := 1) (j1 := 2) (k1 := 3) (agcw := 1) (sgcw := 1) (agcw' := 1) (sgcw' := 1) (a := ⟨0, 0⟩) (b0 := ⟨2, 0⟩) (b1 := ⟨3, 0⟩) (b2 := ⟨4, 0⟩) (st := ⟨9, 0⟩) (a' := ⟨0, 0⟩) (b0' := ⟨2, 0⟩) (b1' := ⟨3, 0⟩) (b2' := ⟨4, 0⟩) (st' := ⟨9, 0⟩) (alpha := 3) (beta := 2) (dx := exDx) (dx' := (fun d => if d = 0 then exDx 1 else if d = 1 then exDx 0 else if d = 2 then exDx 2 else 0)) (β3 := revBackend) (β3' := revBackend) (β4 := seqBackend) (β4' := seqBackend)
  (m := exWith [((F.cell3d ⟨0, 0⟩ 0 1 2 1 2 3 1), (exRd (F.cell3d ⟨0, 0⟩ 0 1 2 1 2 3 1))), ((F.face3d0 ⟨2, 0⟩ 0 1 2 1 2 3 0), (exRd (F.face3d0 ⟨2, 0⟩ 0 1 2 1 2 3 0))), ((F.face3d1 ⟨3, 0⟩ 0 1 2 1 2 3 0), (exRd (F.face3d1 ⟨3, 0⟩ 0 1 2 1 2 3 0))), ((F.face3d2 ⟨4, 0⟩ 0 1 2 1 2 3 0), (exRd (F.face3d2 ⟨4, 0⟩ 0 1 2 1 2 3 0)))])
  (m' := exWith [((F.cell3d ⟨0, 0⟩ 1 0 2 2 1 3 1), (fun p => exRd (F.cell3d ⟨0, 0⟩ 0 1 2 1 2 3 1) [p.getD 1 0, p.getD 0 0, p.getD 2 0])), ((F.face3d0 ⟨2, 0⟩ 1 0 2 2 1 3 0), (fun p => exRd (F.face3d1 ⟨3, 0⟩ 0 1 2 1 2 3 0) [p.getD 0 0, p.getD 2 0, p.getD 1 0])), ((F.face3d1 ⟨3, 0⟩ 1 0 2 2 1 3 0), (fun p => exRd (F.face3d0 ⟨2, 0⟩ 0 1 2 1 2 3 0) [p.getD 0 0, p.getD 2 0, p.getD 1 0])), ((F.face3d2 ⟨4, 0⟩ 1 0 2 2 1 3 0), (fun p => exRd (F.face3d2 ⟨4, 0⟩ 0 1 2 1 2 3 0) [p.getD 0 0, p.getD 2 0, p.getD 1 0]))])
  revBackend_ok seqBackend_ok revBackend_ok seqBackend_ok (by decide) (by decide) (by decide) (by decide) (by decide) (by decide) (by decide) rfl rfl rfl (exWith_args (by ex_args)) (exWith_args (by ex_args)) (exWith_rd (exRat_ok rfl (by decide) (by decide)) rfl rfl) (exWith_rd (exRat_ok rfl (by decide) (by decide)) rfl rfl) (exWith_rd (exRat_ok rfl (by decide) (by decide)) rfl rfl) (exWith_rd (exRat_ok rfl (by decide) (by decide)) rfl rfl) (exWith_rd (exRat_ok rfl (by decide) (by decide)) rfl rfl) (exWith_rd (exRat_ok rfl (by decide) (by decide)) rfl rfl) (exWith_rd (exRat_ok rfl (by decide) (by decide)) rfl rfl) (exWith_rd (exRat_ok rfl (by decide) (by decide)) rfl rfl)

/-- 3D, diffusion operator with constant reaction: for data with the first two axes exchanged the results are those of the plain data, with the first two axes exchanged. -/
theorem C86_exchange_v2_3d {i0 j0 k0 i1 j1 k1 gcw rgcw gcw' rgcw' : Int} {alpha beta : T} {dx dx' : Nat → T} {u b0 b1 b2 f0 f1 f2 res u' b0' b1' b2' f0' f1' f2' res' : Ptr} {β1 β2 β1' β2' : Nat → Backend} {m m' : Mem T} {B0 B1 B2 U : List Int → T}
    (hβ1 : ∀ n, ValidBackend (β1 n)) (hβ2 : ∀ n, ValidBackend (β2 n)) (hβ1' : ∀ n, ValidBackend (β1' n)) (hβ2' : ∀ n, ValidBackend (β2' n)) (hi : i0 ≤ i1) (hj : j0 ≤ j1) (hk : k0 ≤ k1) (hg : 1 ≤ gcw) (hrgcw : 0 ≤ rgcw) (hg' : 1 ≤ gcw') (hrgcw' : 0 ≤ rgcw')
    (hx0 : dx' 0 = dx 1) (hx1 : dx' 1 = dx 0) (hx2 : dx' 2 = dx 2)
    (h : F.Args m [(F.cell3d u i0 j0 k0 i1 j1 k1 gcw), (F.face3d0 b0 i0 j0 k0 i1 j1 k1 0), (F.face3d1 b1 i0 j0 k0 i1 j1 k1 0), (F.face3d2 b2 i0 j0 k0 i1 j1 k1 0)] [(F.face3d0 f0 i0 j0 k0 i1 j1 k1 0), (F.face3d1 f1 i0 j0 k0 i1 j1 k1 0), (F.face3d2 f2 i0 j0 k0 i1 j1 k1 0), (F.cell3d res i0 j0 k0 i1 j1 k1 rgcw)]) (hp : F.Apart (F.face3d0 f0 i0 j0 k0 i1 j1 k1 0) (F.face3d1 f1 i0 j0 k0 i1 j1 k1 0) ∧ F.Apart (F.face3d0 f0 i0 j0 k0 i1 j1 k1 0) (F.face3d2 f2 i0 j0 k0 i1 j1 k1 0) ∧ F.Apart (F.face3d1 f1 i0 j0 k0 i1 j1 k1 0) (F.face3d2 f2 i0 j0 k0 i1 j1 k1 0)) (hr : F.Apart (F.cell3d res i0 j0 k0 i1 j1 k1 rgcw) (F.face3d0 f0 i0 j0 k0 i1 j1 k1 0) ∧ F.Apart (F.cell3d res i0 j0 k0 i1 j1 k1 rgcw) (F.face3d1 f1 i0 j0 k0 i1 j1 k1 0) ∧ F.Apart (F.cell3d res i0 j0 k0 i1 j1 k1 rgcw) (F.face3d2 f2 i0 j0 k0 i1 j1 k1 0))
    (h' : F.Args m' [(F.cell3d u' j0 i0 k0 j1 i1 k1 gcw'), (F.face3d0 b0' j0 i0 k0 j1 i1 k1 0), (F.face3d1 b1' j0 i0 k0 j1 i1 k1 0), (F.face3d2 b2' j0 i0 k0 j1 i1 k1 0)] [(F.face3d0 f0' j0 i0 k0 j1 i1 k1 0), (F.face3d1 f1' j0 i0 k0 j1 i1 k1 0), (F.face3d2 f2' j0 i0 k0 j1 i1 k1 0), (F.cell3d res' j0 i0 k0 j1 i1 k1 rgcw')]) (hp' : F.Apart (F.face3d0 f0' j0 i0 k0 j1 i1 k1 0) (F.face3d1 f1' j0 i0 k0 j1 i1 k1 0) ∧ F.Apart (F.face3d0 f0' j0 i0 k0 j1 i1 k1 0) (F.face3d2 f2' j0 i0 k0 j1 i1 k1 0) ∧ F.Apart (F.face3d1 f1' j0 i0 k0 j1 i1 k1 0) (F.face3d2 f2' j0 i0 k0 j1 i1 k1 0)) (hr' : F.Apart (F.cell3d res' j0 i0 k0 j1 i1 k1 rgcw') (F.face3d0 f0' j0 i0 k0 j1 i1 k1 0) ∧ F.Apart (F.cell3d res' j0 i0 k0 j1 i1 k1 rgcw') (F.face3d1 f1' j0 i0 k0 j1 i1 k1 0) ∧ F.Apart (F.cell3d res' j0 i0 k0 j1 i1 k1 rgcw') (F.face3d2 f2' j0 i0 k0 j1 i1 k1 0))
    (hB0 : F.Holds m (F.face3d0 b0 i0 j0 k0 i1 j1 k1 0) B0) (hB1 : F.Holds m (F.face3d1 b1 i0 j0 k0 i1 j1 k1 0) B1) (hB2 : F.Holds m (F.face3d2 b2 i0 j0 k0 i1 j1 k1 0) B2) (hU : F.Holds m (F.cell3d u i0 j0 k0 i1 j1 k1 gcw) U)
    (hB0' : F.Holds m' (F.face3d0 b0' j0 i0 k0 j1 i1 k1 0) (fun p => B1 [p.getD 0 0, p.getD 2 0, p.getD 1 0])) (hB1' : F.Holds m' (F.face3d1 b1' j0 i0 k0 j1 i1 k1 0) (fun p => B0 [p.getD 0 0, p.getD 2 0, p.getD 1 0])) (hB2' : F.Holds m' (F.face3d2 b2' j0 i0 k0 j1 i1 k1 0) (fun p => B2 [p.getD 0 0, p.getD 2 0, p.getD 1 0])) (hU' : F.Holds m' (F.cell3d u' j0 i0 k0 j1 i1 k1 gcw') (fun p => U [p.getD 1 0, p.getD 0 0, p.getD 2 0])) :
    ∃ m1 m2 m1' m2', Cuda.flux3d i0 j0 k0 i1 j1 k1 dx b0 b1 b2 gcw u f0 f1 f2 β1 m = .ok m1 ∧ Cuda.diffusionV2Apply3d i0 i1 j0 j1 k0 k1 alpha beta dx gcw u f0 f1 f2 rgcw res β2 m1 = .ok m2 ∧ Cuda.flux3d j0 i0 k0 j1 i1 k1 dx' b0' b1' b2' gcw' u' f0' f1' f2' β1' m' = .ok m1' ∧ Cuda.diffusionV2Apply3d j0 j1 i0 i1 k0 k1 alpha beta dx' gcw' u' f0' f1' f2' rgcw' res' β2' m1' = .ok m2' ∧
      ∀ i j k, i0 ≤ i → i ≤ i1 → j0 ≤ j → j ≤ j1 → k0 ≤ k → k ≤ k1 → ∃ v, F.El m2 (F.cell3d res i0 j0 k0 i1 j1 k1 rgcw) [i, j, k] v ∧ F.El m2' (F.cell3d res' j0 i0 k0 j1 i1 k1 rgcw') [j, i, k] v := by
  obtain ⟨m1, m2, R, c1, c2, e, hR⟩ := energy_v2_3 (alpha := alpha) (beta := beta) (dx := dx) hβ1 hβ2 hi hj hk hg hrgcw h hp hr hB0 hB1 hB2 hU
  obtain ⟨m1', m2', R', c1', c2', e', hR'⟩ := energy_v2_3 (alpha := alpha) (beta := beta) (dx := dx') hβ1' hβ2' (by omega) (by omega) (by omega) hg' hrgcw' h' hp' hr' hB0' hB1' hB2' hU'
  refine ⟨m1, m2, m1', m2', c1, c2, c1', c2', fun i j k ia ib ja jb ka kb => ⟨_, e [i, j, k] (F.inBounds3.2 ⟨i, j, k, rfl, by omega⟩), ?_⟩⟩
  have x := e' [j, i, k] (F.inBounds3.2 ⟨j, i, k, rfl, by omega⟩)
  rw [hR' (j) (i) (k) (by omega) (by omega) (by omega) (by omega) (by omega) (by omega)] at x
  rw [hR i j k ia ib ja jb ka kb]
  convert x using 1
  simp only [F.op3, List.getD_cons_zero, List.getD_cons_succ, hx0, hx1, hx2]
  ring

example := C86_exchange_v2_3d (T := Rat) (i0 := 0) (j0 := 1) (k0 := 2) (i1 := 1) (j1 := 2) (k1 := 3) (gcw := 2) (rgcw := 1) (gcw' := 2) (rgcw' := 1) (u := ⟨1, 0⟩) (b0 := ⟨2, 0⟩) (b1 := ⟨3, 0⟩) (b2 := ⟨4, 0⟩) (f0 := ⟨5, 0⟩) (f1 := ⟨6, 0⟩) (f2 := ⟨7, 0⟩) (res := ⟨8, 0⟩) (u' := ⟨1, 0⟩) (b0' := ⟨2, 0⟩) (b1' := ⟨3, 0⟩) (b2' := ⟨4, 0⟩) (f0' := ⟨5, 0⟩) (f1' := ⟨6, 0⟩) (f2' := ⟨7, 0⟩) (res' := ⟨8, 0⟩) (alpha := 3) (beta := 2) (dx := exDx) (dx' := (fun d => if d = 0 then exDx 1 else if d = 1 then exDx 0 else if d = 2 then exDx 2 else 0)) (β1 := fun _ => revBackend) (β1' := fun _ => revBackend) (β2 := fun _ => seqBackend) (β2' := fun _ => seqBackend)
  (m := exWith [((F.face3d0 ⟨2, 0⟩ 0 1 2 1 2 3 0), (exRd (F.face3d0 ⟨2, 0⟩ 0 1 2 1 2 3 0))), ((F.face3d1 ⟨3, 0⟩ 0 1 2 1 2 3 0), (exRd (F.face3d1 ⟨3, 0⟩ 0 1 2 1 2 3 0))), ((F.face3d2 ⟨4, 0⟩ 0 1 2 1 2 3 0), (exRd (F.face3d2 ⟨4, 0⟩ 0 1 2 1 2 3 0))), ((F.cell3d ⟨1, 0⟩ 0 1 2 1 2 3 2), (exRd (F.cell3d ⟨1, 0⟩ 0 1 2 1 2 3 2)))])
  (m' := exWith [((F.face3d0 ⟨2, 0⟩ 1 0 2 2 1 3 0), (fun p => exRd (F.face3d1 ⟨3, 0⟩ 0 1 2 1 2 3 0) [p.getD 0 0, p.getD 2 0, p.getD 1 0])), ((F.face3d1 ⟨3, 0⟩ 1 0 2 2 1 3 0), (fun p => exRd (F.face3d0 ⟨2, 0⟩ 0 1 2 1 2 3 0) [p.getD 0 0, p.getD 2 0, p.getD 1 0])), ((F.face3d2 ⟨4, 0⟩ 1 0 2 2 1 3 0), (fun p => exRd (F.face3d2 ⟨4, 0⟩ 0 1 2 1 2 3 0) [p.getD 0 0, p.getD 2 0, p.getD 1 0])), ((F.cell3d ⟨1, 0⟩ 1 0 2 2 1 3 2), (fun p => exRd (F.cell3d ⟨1, 0⟩ 0 1 2 1 2 3 2) [p.getD 1 0, p.getD 0 0, p.getD 2 0]))])
  (fun _ => revBackend_ok) (fun _ => seqBackend_ok) (fun _ => revBackend_ok) (fun _ => seqBackend_ok) (by decide) (by decide) (by decide) (by decide) (by decide) (by decide) (by decide) rfl rfl rfl (exWith_args (by ex_args)) ⟨apart_blk (by decide), apart_blk (by decide), apart_blk (by decide)⟩ ⟨apart_blk (by decide), apart_blk (by decide), apart_blk (by decide)⟩ (exWith_args (by ex_args)) ⟨apart_blk (by decide), apart_blk (by decide), apart_blk (by decide)⟩ ⟨apart_blk (by decide), apart_blk (by decide), apart_blk (by decide)⟩ (exWith_rd (exRat_ok rfl (by decide) (by decide)) rfl rfl) (exWith_rd (exRat_ok rfl (by decide) (by decide)) rfl rfl) (exWith_rd (exRat_ok rfl (by decide) (by decide)) rfl rfl) (exWith_rd (exRat_ok rfl (by decide) (by decide)) rfl rfl) (exWith_rd (exRat_ok rfl (by decide) (by decide)) rfl rfl) (exWith_rd (exRat_ok rfl (by decide) (by decide)) rfl rfl) (exWith_rd (exRat_ok rfl (by decide) (by decide)) rfl rfl) (exWith_rd (exRat_ok rfl (by decide) (by decide)) rfl rfl)

/-- 3D, diffusion operator with constant reaction: for data with the first two axes exchanged the assembled coefficients are those of the plain data, with the first two axes exchanged. -/
theorem C86_exchange_coef_v2_3d {i0 j0 k0 i1 j1 k1 sgcw sgcw' : Int} {alpha beta : T} {dx dx' : Nat → T} {b0 b1 b2 st b0' b1' b2' st' : Ptr} {β3 β4 β3' β4' : Backend} {m m' : Mem T} {B0 B1 B2 : List Int → T}
    (hβ3 : ValidBackend β3) (hβ4 : ValidBackend β4) (hβ3' : ValidBackend β3') (hβ4' : ValidBackend β4') (hi : i0 ≤ i1) (hj : j0 ≤ j1) (hk : k0 ≤ k1) (hs : 0 ≤ sgcw) (hs' : 0 ≤ sgcw')
    (hx0 : dx' 0 = dx 1) (hx1 : dx' 1 = dx 0) (hx2 : dx' 2 = dx 2)
    (h : F.Args m [(F.face3d0 b0 i0 j0 k0 i1 j1 k1 0), (F.face3d1 b1 i0 j0 k0 i1 j1 k1 0), (F.face3d2 b2 i0 j0 k0 i1 j1 k1 0)] [(F.st3d st i0 j0 k0 i1 j1 k1 sgcw)])
    (h' : F.Args m' [(F.face3d0 b0' j0 i0 k0 j1 i1 k1 0), (F.face3d1 b1' j0 i0 k0 j1 i1 k1 0), (F.face3d2 b2' j0 i0 k0 j1 i1 k1 0)] [(F.st3d st' j0 i0 k0 j1 i1 k1 sgcw')])
    (hB0 : F.Holds m (F.face3d0 b0 i0 j0 k0 i1 j1 k1 0) B0) (hB1 : F.Holds m (F.face3d1 b1 i0 j0 k0 i1 j1 k1 0) B1) (hB2 : F.Holds m (F.face3d2 b2 i0 j0 k0 i1 j1 k1 0) B2)
    (hB0' : F.Holds m' (F.face3d0 b0' j0 i0 k0 j1 i1 k1 0) (fun p => B1 [p.getD 0 0, p.getD 2 0, p.getD 1 0])) (hB1' : F.Holds m' (F.face3d1 b1' j0 i0 k0 j1 i1 k1 0) (fun p => B0 [p.getD 0 0, p.getD 2 0, p.getD 1 0])) (hB2' : F.Holds m' (F.face3d2 b2' j0 i0 k0 j1 i1 k1 0) (fun p => B2 [p.getD 0 0, p.getD 2 0, p.getD 1 0])) :
    ∃ s1 s2 s1' s2', Cuda.offdiag3d i0 j0 k0 i1 j1 k1 i0 j0 k0 i1 j1 k1 dx beta b0 b1 b2 sgcw st β3 m = .ok s1 ∧ Cuda.v2diag3d i0 j0 k0 i1 j1 k1 alpha sgcw st β4 s1 = .ok s2 ∧ Cuda.offdiag3d j0 i0 k0 j1 i1 k1 j0 i0 k0 j1 i1 k1 dx' beta b0' b1' b2' sgcw' st' β3' m' = .ok s1' ∧ Cuda.v2diag3d j0 i0 k0 j1 i1 k1 alpha sgcw' st' β4' s1' = .ok s2' ∧
      ∀ i j k, i0 ≤ i → i ≤ i1 → j0 ≤ j → j ≤ j1 → k0 ≤ k → k ≤ k1 → ∀ e ∈ ([(0, 0), (1, 3), (2, 4), (3, 1), (4, 2), (5, 5), (6, 6)] : List (Int × Int)), ∃ v, F.El s2 (F.st3d st i0 j0 k0 i1 j1 k1 sgcw) [e.1, i, j, k] v ∧ F.El s2' (F.st3d st' j0 i0 k0 j1 i1 k1 sgcw') [e.2, j, i, k] v := by
  obtain ⟨s1, s2, S, c1, c2, -, hS, hc⟩ := asm_v2_3 (alpha := alpha) (beta := beta) (dx := dx) hβ3 hβ4 hi hj hk hs h hB0 hB1 hB2
  obtain ⟨s1', s2', S', c1', c2', -, hS', hc'⟩ := asm_v2_3 (alpha := alpha) (beta := beta) (dx := dx') hβ3' hβ4' (by omega) (by omega) (by omega) hs' h' hB0' hB1' hB2'
  refine ⟨s1, s2, s1', s2', c1, c2, c1', c2', fun i j k ia ib ja jb ka kb e he => ⟨S [e.1, i, j, k], hS _ ?_, ?_⟩⟩
  · simp only [List.mem_cons, List.not_mem_nil, or_false] at he
    rcases he with rfl | rfl | rfl | rfl | rfl | rfl | rfl <;> simp only [F.st3d, F.InBounds, and_true] <;> omega
  · have c := hc i j k ia ib ja jb ka kb
    have c' := hc' (j) (i) (k) (by omega) (by omega) (by omega) (by omega) (by omega) (by omega)
    have x := hS' [e.2, j, i, k] (by
      simp only [List.mem_cons, List.not_mem_nil, or_false] at he
      rcases he with rfl | rfl | rfl | rfl | rfl | rfl | rfl <;> simp only [F.st3d, F.InBounds, and_true] <;> omega)
    convert x using 1
    have hv := c'.c0
    simp only [List.mem_cons, List.not_mem_nil, or_false] at he
    rcases he with rfl | rfl | rfl | rfl | rfl | rfl | rfl
    · simp only [c.c0, c'.c0, c.c1, c.c2, c.c3, c.c4, c.c5, c.c6, c'.c1, c'.c2, c'.c3, c'.c4, c'.c5, c'.c6, List.getD_cons_zero, List.getD_cons_succ, hx0, hx1, hx2]
      try ring_nf
    · simp only [c.c1, c'.c3, List.getD_cons_zero, List.getD_cons_succ, hx0, hx1, hx2]
      try ring_nf
    · simp only [c.c2, c'.c4, List.getD_cons_zero, List.getD_cons_succ, hx0, hx1, hx2]
      try ring_nf
    · simp only [c.c3, c'.c1, List.getD_cons_zero, List.getD_cons_succ, hx0, hx1, hx2]
      try ring_nf
    · simp only [c.c4, c'.c2, List.getD_cons_zero, List.getD_cons_succ, hx0, hx1, hx2]
      try ring_nf
    · simp only [c.c5, c'.c5, List.getD_cons_zero, List.getD_cons_succ, hx0, hx1, hx2]
      try ring_nf
    · simp only [c.c6, c'.c6, List.getD_cons_zero, List.getD_cons_succ, hx0, hx1, hx2]
      try ring_nf

example := C86_exchange_coef_v2_3d (T := Rat) (i0 := 0) (j0 := 1) (k0 := 2) (i1 := 1) (j1 := 2) (k1 := 3) (sgcw := 1) (sgcw' := 1) (b0 := ⟨2, 0⟩) (b1 := ⟨3, 0⟩) (b2 := ⟨4, 0⟩) (st := ⟨9, 0⟩) (b0' := ⟨2, 0⟩) (b1' := ⟨3, 0⟩) (b2' := ⟨4, 0⟩) (st' := ⟨9, 0⟩) (alpha := 3) (beta := 2) (dx := exDx) (dx' := (fun d => if d = 0 then exDx 1 else if d = 1 then exDx 0 else if d = 2 then exDx 2 else 0)) (β3 := revBackend) (β3' := revBackend) (β4 := seqBackend) (β4' := seqBackend)
  (m := exWith [((F.face3d0 ⟨2, 0⟩ 0 1 2 1 2 3 0), (exRd (F.face3d0 ⟨2, 0⟩ 0 1 2 1 2 3 0))), ((F.face3d1 ⟨3, 0⟩ 0 1 2 1 2 3 0), (exRd (F.face3d1 ⟨3, 0⟩ 0 1 2 1 2 3 0))), ((F.face3d2 ⟨4, 0⟩ 0 1 2 1 2 3 0), (exRd (F.face3d2 ⟨4, 0⟩ 0 1 2 1 2 3 0)))])
  (m' := exWith [((F.face3d0 ⟨2, 0⟩ 1 0 2 2 1 3 0), (fun p => exRd (F.face3d1 ⟨3, 0⟩ 0 1 2 1 2 3 0) [p.getD 0 0, p.getD 2 0, p.getD 1 0])), ((F.face3d1 ⟨3, 0⟩ 1 0 2 2 1 3 0), (fun p => exRd (F.face3d0 ⟨2, 0⟩ 0 1 2 1 2 3 0) [p.getD 0 0, p.getD 2 0, p.getD 1 0])), ((F.face3d2 ⟨4, 0⟩ 1 0 2 2 1 3 0), (fun p => exRd (F.face3d2 ⟨4, 0⟩ 0 1 2 1 2 3 0) [p.getD 0 0, p.getD 2 0, p.getD 1 0]))])
  revBackend_ok seqBackend_ok revBackend_ok seqBackend_ok (by decide) (by decide) (by decide) (by decide) (by decide) rfl rfl rfl (exWith_args (by ex_args)) (exWith_args (by ex_args)) (exWith_rd (exRat_ok rfl (by decide) (by decide)) rfl rfl) (exWith_rd (exRat_ok rfl (by decide) (by decide)) rfl rfl) (exWith_rd (exRat_ok rfl (by decide) (by decide)) rfl rfl) (exWith_rd (exRat_ok rfl (by decide) (by decide)) rfl rfl) (exWith_rd (exRat_ok rfl (by decide) (by decide)) rfl rfl) (exWith_rd (exRat_ok rfl (by decide) (by decide)) rfl rfl)

/-- 3D, Poisson operator: for data with the first two axes exchanged the results are those of the plain data, with the first two axes exchanged. -/
theorem C86_exchange_poisson_3d {i0 j0 k0 i1 j1 k1 gcw rgcw gcw' rgcw' : Int} {beta : T} {dx dx' : Nat → T} {u f0 f1 f2 res u' f0' f1' f2' res' : Ptr} {β1 β2 β1' β2' : Nat → Backend} {m m' : Mem T} {U : List Int → T}
    (hβ1 : ∀ n, ValidBackend (β1 n)) (hβ2 : ∀ n, ValidBackend (β2 n)) (hβ1' : ∀ n, ValidBackend (β1' n)) (hβ2' : ∀ n, ValidBackend (β2' n)) (hi : i0 ≤ i1) (hj : j0 ≤ j1) (hk : k0 ≤ k1) (hg : 1 ≤ gcw) (hrgcw : 0 ≤ rgcw) (hg' : 1 ≤ gcw') (hrgcw' : 0 ≤ rgcw')
    (hx0 : dx' 0 = dx 1) (hx1 : dx' 1 = dx 0) (hx2 : dx' 2 = dx 2)
    (h : F.Args m [(F.cell3d u i0 j0 k0 i1 j1 k1 gcw)] [(F.face3d0 f0 i0 j0 k0 i1 j1 k1 0), (F.face3d1 f1 i0 j0 k0 i1 j1 k1 0), (F.face3d2 f2 i0 j0 k0 i1 j1 k1 0), (F.cell3d res i0 j0 k0 i1 j1 k1 rgcw)]) (hp : F.Apart (F.face3d0 f0 i0 j0 k0 i1 j1 k1 0) (F.face3d1 f1 i0 j0 k0 i1 j1 k1 0) ∧ F.Apart (F.face3d0 f0 i0 j0 k0 i1 j1 k1 0) (F.face3d2 f2 i0 j0 k0 i1 j1 k1 0) ∧ F.Apart (F.face3d1 f1 i0 j0 k0 i1 j1 k1 0) (F.face3d2 f2 i0 j0 k0 i1 j1 k1 0)) (hr : F.Apart (F.cell3d res i0 j0 k0 i1 j1 k1 rgcw) (F.face3d0 f0 i0 j0 k0 i1 j1 k1 0) ∧ F.Apart (F.cell3d res i0 j0 k0 i1 j1 k1 rgcw) (F.face3d1 f1 i0 j0 k0 i1 j1 k1 0) ∧ F.Apart (F.cell3d res i0 j0 k0 i1 j1 k1 rgcw) (F.face3d2 f2 i0 j0 k0 i1 j1 k1 0))
    (h' : F.Args m' [(F.cell3d u' j0 i0 k0 j1 i1 k1 gcw')] [(F.face3d0 f0' j0 i0 k0 j1 i1 k1 0), (F.face3d1 f1' j0 i0 k0 j1 i1 k1 0), (F.face3d2 f2' j0 i0 k0 j1 i1 k1 0), (F.cell3d res' j0 i0 k0 j1 i1 k1 rgcw')]) (hp' : F.Apart (F.face3d0 f0' j0 i0 k0 j1 i1 k1 0) (F.face3d1 f1' j0 i0 k0 j1 i1 k1 0) ∧ F.Apart (F.face3d0 f0' j0 i0 k0 j1 i1 k1 0) (F.face3d2 f2' j0 i0 k0 j1 i1 k1 0) ∧ F.Apart (F.face3d1 f1' j0 i0 k0 j1 i1 k1 0) (F.face3d2 f2' j0 i0 k0 j1 i1 k1 0)) (hr' : F.Apart (F.cell3d res' j0 i0 k0 j1 i1 k1 rgcw') (F.face3d0 f0' j0 i0 k0 j1 i1 k1 0) ∧ F.Apart (F.cell3d res' j0 i0 k0 j1 i1 k1 rgcw') (F.face3d1 f1' j0 i0 k0 j1 i1 k1 0) ∧ F.Apart (F.cell3d res' j0 i0 k0 j1 i1 k1 rgcw') (F.face3d2 f2' j0 i0 k0 j1 i1 k1 0))
    (hU : F.Holds m (F.cell3d u i0 j0 k0 i1 j1 k1 gcw) U)
    (hU' : F.Holds m' (F.cell3d u' j0 i0 k0 j1 i1 k1 gcw') (fun p => U [p.getD 1 0, p.getD 0 0, p.getD 2 0])) :
    ∃ m1 m2 m1' m2', Cuda.poissonFlux3d i0 j0 k0 i1 j1 k1 dx gcw u f0 f1 f2 β1 m = .ok m1 ∧ Cuda.poissonV2Apply3d i0 i1 j0 j1 k0 k1 beta dx f0 f1 f2 rgcw res β2 m1 = .ok m2 ∧ Cuda.poissonFlux3d j0 i0 k0 j1 i1 k1 dx' gcw' u' f0' f1' f2' β1' m' = .ok m1' ∧ Cuda.poissonV2Apply3d j0 j1 i0 i1 k0 k1 beta dx' f0' f1' f2' rgcw' res' β2' m1' = .ok m2' ∧
      ∀ i j k, i0 ≤ i → i ≤ i1 → j0 ≤ j → j ≤ j1 → k0 ≤ k → k ≤ k1 → ∃ v, F.El m2 (F.cell3d res i0 j0 k0 i1 j1 k1 rgcw) [i, j, k] v ∧ F.El m2' (F.cell3d res' j0 i0 k0 j1 i1 k1 rgcw') [j, i, k] v := by
  obtain ⟨m1, m2, R, c1, c2, e, hR⟩ := energy_p_3 (beta := beta) (dx := dx) hβ1 hβ2 hi hj hk hg hrgcw h hp hr hU
  obtain ⟨m1', m2', R', c1', c2', e', hR'⟩ := energy_p_3 (beta := beta) (dx := dx') hβ1' hβ2' (by omega) (by omega) (by omega) hg' hrgcw' h' hp' hr' hU'
  refine ⟨m1, m2, m1', m2', c1, c2, c1', c2', fun i j k ia ib ja jb ka kb => ⟨_, e [i, j, k] (F.inBounds3.2 ⟨i, j, k, rfl, by omega⟩), ?_⟩⟩
  have x := e' [j, i, k] (F.inBounds3.2 ⟨j, i, k, rfl, by omega⟩)
  rw [hR' (j) (i) (k) (by omega) (by omega) (by omega) (by omega) (by omega) (by omega)] at x
  rw [hR i j k ia ib ja jb ka kb]
  convert x using 1
  simp only [F.op3, List.getD_cons_zero, List.getD_cons_succ, hx0, hx1, hx2]
  ring

example := C86_exchange_poisson_3d (T := Rat) (i0 := 0) (j0 := 1) (k0 := 2) (i1 := 1) (j1 := 2) (k1 := 3) (gcw := 2) (rgcw := 1) (gcw' := 2) (rgcw' := 1) (u := ⟨1, 0⟩) (f0 := ⟨5, 0⟩) (f1 := ⟨6, 0⟩) (f2 := ⟨7, 0⟩) (res := ⟨8, 0⟩) (u' := ⟨1, 0⟩) (f0' := ⟨5, 0⟩) (f1' := ⟨6, 0⟩) (f2' := ⟨7, 0⟩) (res' := ⟨8, 0⟩) (beta := 2) (dx := exDx) (dx' := (fun d => if d = 0 then exDx 1 else if d = 1 then exDx 0 else if d = 2 then exDx 2 else 0)) (β1 := fun _ => revBackend) (β1' := fun _ => revBackend) (β2 := fun _ => seqBackend) (β2' := fun _ => seqBackend)
  (m := exWith [((F.cell3d ⟨1, 0⟩ 0 1 2 1 2 3 2), (exRd (F.cell3d ⟨1, 0⟩ 0 1 2 1 2 3 2)))])
  (m' := exWith [((F.cell3d ⟨1, 0⟩ 1 0 2 2 1 3 2), (fun p => exRd (F.cell3d ⟨1, 0⟩ 0 1 2 1 2 3 2) [p.getD 1 0, p.getD 0 0, p.getD 2 0]))])
  (fun _ => revBackend_ok) (fun _ => seqBackend_ok) (fun _ => revBackend_ok) (fun _ => seqBackend_ok) (by decide) (by decide) (by decide) (by decide) (by decide) (by decide) (by decide) rfl rfl rfl (exWith_args (by ex_args)) ⟨apart_blk (by decide), apart_blk (by decide), apart_blk (by decide)⟩ ⟨apart_blk (by decide), apart_blk (by decide), apart_blk (by decide)⟩ (exWith_args (by ex_args)) ⟨apart_blk (by decide), apart_blk (by decide), apart_blk (by decide)⟩ ⟨apart_blk (by decide), apart_blk (by decide), apart_blk (by decide)⟩ (exWith_rd (exRat_ok rfl (by decide) (by decide)) rfl rfl) (exWith_rd (exRat_ok rfl (by decide) (by decide)) rfl rfl)

/-- 3D, Poisson operator: for data with the first two axes exchanged the assembled coefficients are those of the plain data, with the first two axes exchanged. -/
theorem C86_exchange_coef_poisson_3d {i0 j0 k0 i1 j1 k1 sgcw sgcw' : Int} {beta : T} {dx dx' : Nat → T} {st st' : Ptr} {β3 β4 β3' β4' : Backend} {m m' : Mem T}
    (hβ3 : ValidBackend β3) (hβ4 : ValidBackend β4) (hβ3' : ValidBackend β3') (hβ4' : ValidBackend β4') (hi : i0 ≤ i1) (hj : j0 ≤ j1) (hk : k0 ≤ k1) (hs : 0 ≤ sgcw) (hs' : 0 ≤ sgcw')
    (hx0 : dx' 0 = dx 1) (hx1 : dx' 1 = dx 0) (hx2 : dx' 2 = dx 2)
    (h : F.Args m [] [(F.st3d st i0 j0 k0 i1 j1 k1 sgcw)])
    (h' : F.Args m' [] [(F.st3d st' j0 i0 k0 j1 i1 k1 sgcw')]) :
    ∃ s1 s2 s1' s2', Cuda.poissonOffdiag3d i0 j0 k0 i1 j1 k1 dx beta sgcw st β3 m = .ok s1 ∧ Cuda.poissonDiag3d i0 j0 k0 i1 j1 k1 sgcw st β4 s1 = .ok s2 ∧ Cuda.poissonOffdiag3d j0 i0 k0 j1 i1 k1 dx' beta sgcw' st' β3' m' = .ok s1' ∧ Cuda.poissonDiag3d j0 i0 k0 j1 i1 k1 sgcw' st' β4' s1' = .ok s2' ∧
      ∀ i j k, i0 ≤ i → i ≤ i1 → j0 ≤ j → j ≤ j1 → k0 ≤ k → k ≤ k1 → ∀ e ∈ ([(0, 0), (1, 3), (2, 4), (3, 1), (4, 2), (5, 5), (6, 6)] : List (Int × Int)), ∃ v, F.El s2 (F.st3d st i0 j0 k0 i1 j1 k1 sgcw) [e.1, i, j, k] v ∧ F.El s2' (F.st3d st' j0 i0 k0 j1 i1 k1 sgcw') [e.2, j, i, k] v := by
  obtain ⟨s1, s2, S, c1, c2, -, hS, hc⟩ := asm_p_3 (beta := beta) (dx := dx) hβ3 hβ4 hi hj hk hs h
  obtain ⟨s1', s2', S', c1', c2', -, hS', hc'⟩ := asm_p_3 (beta := beta) (dx := dx') hβ3' hβ4' (by omega) (by omega) (by omega) hs' h'
  refine ⟨s1, s2, s1', s2', c1, c2, c1', c2', fun i j k ia ib ja jb ka kb e he => ⟨S [e.1, i, j, k], hS _ ?_, ?_⟩⟩
  · simp only [List.mem_cons, List.not_mem_nil, or_false] at he
    rcases he with rfl | rfl | rfl | rfl | rfl | rfl | rfl <;> simp only [F.st3d, F.InBounds, and_true] <;> omega
  · have c := hc i j k ia ib ja jb ka kb
    have c' := hc' (j) (i) (k) (by omega) (by omega) (by omega) (by omega) (by omega) (by omega)
    have x := hS' [e.2, j, i, k] (by
      simp only [List.mem_cons, List.not_mem_nil, or_false] at he
      rcases he with rfl | rfl | rfl | rfl | rfl | rfl | rfl <;> simp only [F.st3d, F.InBounds, and_true] <;> omega)
    convert x using 1
    have hv := c'.c0
    simp only [List.mem_cons, List.not_mem_nil, or_false] at he
    rcases he with rfl | rfl | rfl | rfl | rfl | rfl | rfl
    · simp only [c.c0, c'.c0, c.c1, c.c2, c.c3, c.c4, c.c5, c.c6, c'.c1, c'.c2, c'.c3, c'.c4, c'.c5, c'.c6, List.getD_cons_zero, List.getD_cons_succ, hx0, hx1, hx2]
      try ring_nf
    · simp only [c.c1, c'.c3, List.getD_cons_zero, List.getD_cons_succ, hx0, hx1, hx2]
      try ring_nf
    · simp only [c.c2, c'.c4, List.getD_cons_zero, List.getD_cons_succ, hx0, hx1, hx2]
      try ring_nf
    · simp only [c.c3, c'.c1, List.getD_cons_zero, List.getD_cons_succ, hx0, hx1, hx2]
      try ring_nf
    · simp only [c.c4, c'.c2, List.getD_cons_zero, List.getD_cons_succ, hx0, hx1, hx2]
      try ring_nf
    · simp only [c.c5, c'.c5, List.getD_cons_zero, List.getD_cons_succ, hx0, hx1, hx2]
      try ring_nf
    · simp only [c.c6, c'.c6, List.getD_cons_zero, List.getD_cons_succ, hx0, hx1, hx2]
      try ring_nf

example := C86_exchange_coef_poisson_3d (T := Rat) (i0 := 0) (j0 := 1) (k0 := 2) (i1 := 1) (j1 := 2) (k1 := 3) (sgcw := 1) (sgcw' := 1) (st := ⟨9, 0⟩) (st' := ⟨9, 0⟩) (beta := 2) (dx := exDx) (dx' := (fun d => if d = 0 then exDx 1 else if d = 1 then exDx 0 else if d = 2 then exDx 2 else 0)) (β3 := revBackend) (β3' := revBackend) (β4 := seqBackend) (β4' := seqBackend)
  (m := exWith [])
  (m' := exWith [])
  revBackend_ok seqBackend_ok revBackend_ok seqBackend_ok (by decide) (by decide) (by decide) (by decide) (by decide) rfl rfl rfl (exWith_args (by ex_args)) (exWith_args (by ex_args))

/-- 3D, diffusion operator with cell coefficients: for data reflected in the first direction the results are those of the plain data, reflected in the first direction. -/
theorem C86_reflect_v1_3d {i0 j0 k0 i1 j1 k1 agcw gcw rgcw agcw' gcw' rgcw' : Int} {alpha beta : T} {dx dx' : Nat → T} {a u b0 b1 b2 f0 f1 f2 res a' u' b0' b1' b2' f0' f1' f2' res' : Ptr} {β1 β2 β1' β2' : Nat → Backend} {m m' : Mem T} {A B0 B1 B2 U : List Int → T}
    (hβ1 : ∀ n, ValidBackend (β1 n)) (hβ2 : ∀ n, ValidBackend (β2 n)) (hβ1' : ∀ n, ValidBackend (β1' n)) (hβ2' : ∀ n, ValidBackend (β2' n)) (hi : i0 ≤ i1) (hj : j0 ≤ j1) (hk : k0 ≤ k1) (hg : 1 ≤ gcw) (hagcw : 0 ≤ agcw) (hrgcw : 0 ≤ rgcw) (hg' : 1 ≤ gcw') (hagcw' : 0 ≤ agcw') (hrgcw' : 0 ≤ rgcw')
    (hx0 : dx' 0 = dx 0) (hx1 : dx' 1 = dx 1) (hx2 : dx' 2 = dx 2)
    (h : F.Args m [(F.cell3d a i0 j0 k0 i1 j1 k1 agcw), (F.cell3d u i0 j0 k0 i1 j1 k1 gcw), (F.face3d0 b0 i0 j0 k0 i1 j1 k1 0), (F.face3d1 b1 i0 j0 k0 i1 j1 k1 0), (F.face3d2 b2 i0 j0 k0 i1 j1 k1 0)] [(F.face3d0 f0 i0 j0 k0 i1 j1 k1 0), (F.face3d1 f1 i0 j0 k0 i1 j1 k1 0), (F.face3d2 f2 i0 j0 k0 i1 j1 k1 0), (F.cell3d res i0 j0 k0 i1 j1 k1 rgcw)]) (hp : F.Apart (F.face3d0 f0 i0 j0 k0 i1 j1 k1 0) (F.face3d1 f1 i0 j0 k0 i1 j1 k1 0) ∧ F.Apart (F.face3d0 f0 i0 j0 k0 i1 j1 k1 0) (F.face3d2 f2 i0 j0 k0 i1 j1 k1 0) ∧ F.Apart (F.face3d1 f1 i0 j0 k0 i1 j1 k1 0) (F.face3d2 f2 i0 j0 k0 i1 j1 k1 0)) (hr : F.Apart (F.cell3d res i0 j0 k0 i1 j1 k1 rgcw) (F.face3d0 f0 i0 j0 k0 i1 j1 k1 0) ∧ F.Apart (F.cell3d res i0 j0 k0 i1 j1 k1 rgcw) (F.face3d1 f1 i0 j0 k0 i1 j1 k1 0) ∧ F.Apart (F.cell3d res i0 j0 k0 i1 j1 k1 rgcw) (F.face3d2 f2 i0 j0 k0 i1 j1 k1 0))
    (h' : F.Args m' [(F.cell3d a' (-i1) j0 k0 (-i0) j1 k1 agcw'), (F.cell3d u' (-i1) j0 k0 (-i0) j1 k1 gcw'), (F.face3d0 b0' (-i1) j0 k0 (-i0) j1 k1 0), (F.face3d1 b1' (-i1) j0 k0 (-i0) j1 k1 0), (F.face3d2 b2' (-i1) j0 k0 (-i0) j1 k1 0)] [(F.face3d0 f0' (-i1) j0 k0 (-i0) j1 k1 0), (F.face3d1 f1' (-i1) j0 k0 (-i0) j1 k1 0), (F.face3d2 f2' (-i1) j0 k0 (-i0) j1 k1 0), (F.cell3d res' (-i1) j0 k0 (-i0) j1 k1 rgcw')]) (hp' : F.Apart (F.face3d0 f0' (-i1) j0 k0 (-i0) j1 k1 0) (F.face3d1 f1' (-i1) j0 k0 (-i0) j1 k1 0) ∧ F.Apart (F.face3d0 f0' (-i1) j0 k0 (-i0) j1 k1 0) (F.face3d2 f2' (-i1) j0 k0 (-i0) j1 k1 0) ∧ F.Apart (F.face3d1 f1' (-i1) j0 k0 (-i0) j1 k1 0) (F.face3d2 f2' (-i1) j0 k0 (-i0) j1 k1 0)) (hr' : F.Apart (F.cell3d res' (-i1) j0 k0 (-i0) j1 k1 rgcw') (F.face3d0 f0' (-i1) j0 k0 (-i0) j1 k1 0) ∧ F.Apart (F.cell3d res' (-i1) j0 k0 (-i0) j1 k1 rgcw') (F.face3d1 f1' (-i1) j0 k0 (-i0) j1 k1 0) ∧ F.Apart (F.cell3d res' (-i1) j0 k0 (-i0) j1 k1 rgcw') (F.face3d2 f2' (-i1) j0 k0 (-i0) j1 k1 0))
    (hA : F.Holds m (F.cell3d a i0 j0 k0 i1 j1 k1 agcw) A) (hB0 : F.Holds m (F.face3d0 b0 i0 j0 k0 i1 j1 k1 0) B0) (hB1 : F.Holds m (F.face3d1 b1 i0 j0 k0 i1 j1 k1 0) B1) (hB2 : F.Holds m (F.face3d2 b2 i0 j0 k0 i1 j1 k1 0) B2) (hU : F.Holds m (F.cell3d u i0 j0 k0 i1 j1 k1 gcw) U)
    (hA' : F.Holds m' (F.cell3d a' (-i1) j0 k0 (-i0) j1 k1 agcw') (fun p => A [-p.getD 0 0, p.getD 1 0, p.getD 2 0])) (hB0' : F.Holds m' (F.face3d0 b0' (-i1) j0 k0 (-i0) j1 k1 0) (fun p => B0 [1 - p.getD 0 0, p.getD 1 0, p.getD 2 0])) (hB1' : F.Holds m' (F.face3d1 b1' (-i1) j0 k0 (-i0) j1 k1 0) (fun p => B1 [p.getD 0 0, p.getD 1 0, -p.getD 2 0])) (hB2' : F.Holds m' (F.face3d2 b2' (-i1) j0 k0 (-i0) j1 k1 0) (fun p => B2 [p.getD 0 0, -p.getD 1 0, p.getD 2 0])) (hU' : F.Holds m' (F.cell3d u' (-i1) j0 k0 (-i0) j1 k1 gcw') (fun p => U [-p.getD 0 0, p.getD 1 0, p.getD 2 0])) :
    ∃ m1 m2 m1' m2', Cuda.flux3d i0 j0 k0 i1 j1 k1 dx b0 b1 b2 gcw u f0 f1 f2 β1 m = .ok m1 ∧ Cuda.diffusionV1Apply3d i0 i1 j0 j1 k0 k1 alpha beta dx agcw a gcw u f0 f1 f2 rgcw res β2 m1 = .ok m2 ∧ Cuda.flux3d (-i1) j0 k0 (-i0) j1 k1 dx' b0' b1' b2' gcw' u' f0' f1' f2' β1' m' = .ok m1' ∧ Cuda.diffusionV1Apply3d (-i1) (-i0) j0 j1 k0 k1 alpha beta dx' agcw' a' gcw' u' f0' f1' f2' rgcw' res' β2' m1' = .ok m2' ∧
      ∀ i j k, i0 ≤ i → i ≤ i1 → j0 ≤ j → j ≤ j1 → k0 ≤ k → k ≤ k1 → ∃ v, F.El m2 (F.cell3d res i0 j0 k0 i1 j1 k1 rgcw) [i, j, k] v ∧ F.El m2' (F.cell3d res' (-i1) j0 k0 (-i0) j1 k1 rgcw') [-i, j, k] v := by
  obtain ⟨m1, m2, R, c1, c2, e, hR⟩ := energy_v1_3 (alpha := alpha) (beta := beta) (dx := dx) hβ1 hβ2 hi hj hk hg hagcw hrgcw h hp hr hA hB0 hB1 hB2 hU
  obtain ⟨m1', m2', R', c1', c2', e', hR'⟩ := energy_v1_3 (alpha := alpha) (beta := beta) (dx := dx') hβ1' hβ2' (by omega) (by omega) (by omega) hg' hagcw' hrgcw' h' hp' hr' hA' hB0' hB1' hB2' hU'
  refine ⟨m1, m2, m1', m2', c1, c2, c1', c2', fun i j k ia ib ja jb ka kb => ⟨_, e [i, j, k] (F.inBounds3.2 ⟨i, j, k, rfl, by omega⟩), ?_⟩⟩
  have x := e' [-i, j, k] (F.inBounds3.2 ⟨-i, j, k, rfl, by omega⟩)
  rw [hR' (-i) (j) (k) (by omega) (by omega) (by omega) (by omega) (by omega) (by omega)] at x
  rw [hR i j k ia ib ja jb ka kb]
  convert x using 1
  simp only [F.op3, List.getD_cons_zero, List.getD_cons_succ, hx0, hx1, hx2]
  ring_nf

example := C86_reflect_v1_3d (T := Rat) (i0 := 0) (j0 := 1) (k0 := 2) (i1 := 1) (j1 := 2) (k1 := 3) (agcw := 1) (gcw := 2) (rgcw := 1) (agcw' := 1) (gcw' := 2) (rgcw' := 1) (a := ⟨0, 0⟩) (u := ⟨1, 0⟩) (b0 := ⟨2, 0⟩) (b1 := ⟨3, 0⟩) (b2 := ⟨4, 0⟩) (f0 := ⟨5, 0⟩) (f1 := ⟨6, 0⟩) (f2 := ⟨7, 0⟩) (res := ⟨8, 0⟩) (a' := ⟨0, 0⟩) (u' := ⟨1, 0⟩) (b0' := ⟨2, 0⟩) (b1' := ⟨3, 0⟩) (b2' := ⟨4, 0⟩) (f0' := ⟨5, 0⟩) (f1' := ⟨6, 0⟩) (f2' := ⟨7, 0⟩) (res' := ⟨8, 0⟩) (alpha := 3) (beta := 2) (dx := exDx) (dx' := (fun d => if d = 0 then exDx 0 else if d = 1 then exDx 1 else if d = 2 then exDx 2 else 0)) (β1 := fun _ => revBackend) (β1' := fun _ => revBackend) (β2 := fun _ => seqBackend) (β2' := fun _ => seqBackend)
  (m := exWith [((F.cell3d ⟨0, 0⟩ 0 1 2 1 2 3 1), (exRd (F.cell3d ⟨0, 0⟩ 0 1 2 1 2 3 1))), ((F.face3d0 ⟨2, 0⟩ 0 1 2 1 2 3 0), (exRd (F.face3d0 ⟨2, 0⟩ 0 1 2 1 2 3 0))), ((F.face3d1 ⟨3, 0⟩ 0 1 2 1 2 3 0), (exRd (F.face3d1 ⟨3, 0⟩ 0 1 2 1 2 3 0))), ((F.face3d2 ⟨4, 0⟩ 0 1 2 1 2 3 0), (exRd (F.face3d2 ⟨4, 0⟩ 0 1 2 1 2 3 0))), ((F.cell3d ⟨1, 0⟩ 0 1 2 1 2 3 2), (exRd (F.cell3d ⟨1, 0⟩ 0 1 2 1 2 3 2)))])
  (m' := exWith [((F.cell3d ⟨0, 0⟩ (-1) 1 2 0 2 3 1), (fun p => exRd (F.cell3d ⟨0, 0⟩ 0 1 2 1 2 3 1) [-p.getD 0 0, p.getD 1 0, p.getD 2 0])), ((F.face3d0 ⟨2, 0⟩ (-1) 1 2 0 2 3 0), (fun p => exRd (F.face3d0 ⟨2, 0⟩ 0 1 2 1 2 3 0) [1 - p.getD 0 0, p.getD 1 0, p.getD 2 0])), ((F.face3d1 ⟨3, 0⟩ (-1) 1 2 0 2 3 0), (fun p => exRd (F.face3d1 ⟨3, 0⟩ 0 1 2 1 2 3 0) [p.getD 0 0, p.getD 1 0, -p.getD 2 0])), ((F.face3d2 ⟨4, 0⟩ (-1) 1 2 0 2 3 0), (fun p => exRd (F.face3d2 ⟨4, 0⟩ 0 1 2 1 2 3 0) [p.getD 0 0, -p.getD 1 0, p.getD 2 0])), ((F.cell3d ⟨1, 0⟩ (-1) 1 2 0 2 3 2), (fun p => exRd (F.cell3d ⟨1, 0⟩ 0 1 2 1 2 3 2) [-p.getD 0 0, p.getD 1 0, p.getD 2 0]))])
  (fun _ => revBackend_ok) (fun _ => seqBackend_ok) (fun _ => revBackend_ok) (fun _ => seqBackend_ok) (by decide) (by decide) (by decide) (by decide) (by decide) (by decide) (by decide) (by decide) (by decide) rfl rfl rfl (exWith_args (by ex_args)) ⟨apart_blk (by decide), apart_blk (by decide), apart_blk (by decide)⟩ ⟨apart_blk (by decide), apart_blk (by decide), apart_blk (by decide)⟩ (exWith_args (by ex_args)) ⟨apart_blk (by decide), apart_blk (by decide), apart_blk (by decide)⟩ ⟨apart_blk (by decide), apart_blk (by decide), apart_blk (by decide)⟩ (exWith_rd (exRat_ok rfl (by decide) (by decide)) rfl rfl) (exWith_rd (exRat_ok rfl (by decide) (by decide)) rfl rfl) (exWith_rd (exRat_ok rfl (by decide) (by decide)) rfl rfl) (exWith_rd (exRat_ok rfl (by decide) (by decide)) rfl rfl) (exWith_rd (exRat_ok rfl (by decide) (by decide)) rfl rfl) (exWith_rd (exRat_ok rfl (by decide) (by decide)) rfl rfl) (exWith_rd (exRat_ok rfl (by decide) (by decide)) rfl rfl) (exWith_rd (exRat_ok rfl (by decide) (by decide)) rfl rfl) (exWith_rd (exRat_ok rfl (by decide) (by decide)) rfl rfl) (exWith_rd (exRat_ok rfl (by decide) (by decide)) rfl rfl)

/-- 3D, diffusion operator with cell coefficients: for data reflected in the first direction the assembled coefficients are those of the plain data, reflected in the first direction. -/
theorem C86_reflect_coef_v1_3d {i0 j0 k0 i1 j1 k1 agcw sgcw agcw' sgcw' : Int} {alpha beta : T} {dx dx' : Nat → T} {a b0 b1 b2 st a' b0' b1' b2' st' : Ptr} {β3 β4 β3' β4' : Backend} {m m' : Mem T} {A B0 B1 B2 : List Int → T}
    (hβ3 : ValidBackend β3) (hβ4 : ValidBackend β4) (hβ3' : ValidBackend β3') (hβ4' : ValidBackend β4') (hi : i0 ≤ i1) (hj : j0 ≤ j1) (hk : k0 ≤ k1) (hagcw : 0 ≤ agcw) (hs : 0 ≤ sgcw) (hagcw' : 0 ≤ agcw') (hs' : 0 ≤ sgcw')
    (hx0 : dx' 0 = dx 0) (hx1 : dx' 1 = dx 1) (hx2 : dx' 2 = dx 2)
    (h : F.Args m [(F.cell3d a i0 j0 k0 i1 j1 k1 agcw), (F.face3d0 b0 i0 j0 k0 i1 j1 k1 0), (F.face3d1 b1 i0 j0 k0 i1 j1 k1 0), (F.face3d2 b2 i0 j0 k0 i1 j1 k1 0)] [(F.st3d st i0 j0 k0 i1 j1 k1 sgcw)])
    (h' : F.Args m' [(F.cell3d a' (-i1) j0 k0 (-i0) j1 k1 agcw'), (F.face3d0 b0' (-i1) j0 k0 (-i0) j1 k1 0), (F.face3d1 b1' (-i1) j0 k0 (-i0) j1 k1 0), (F.face3d2 b2' (-i1) j0 k0 (-i0) j1 k1 0)] [(F.st3d st' (-i1) j0 k0 (-i0) j1 k1 sgcw')])
    (hA : F.Holds m (F.cell3d a i0 j0 k0 i1 j1 k1 agcw) A) (hB0 : F.Holds m (F.face3d0 b0 i0 j0 k0 i1 j1 k1 0) B0) (hB1 : F.Holds m (F.face3d1 b1 i0 j0 k0 i1 j1 k1 0) B1) (hB2 : F.Holds m (F.face3d2 b2 i0 j0 k0 i1 j1 k1 0) B2)
    (hA' : F.Holds m' (F.cell3d a' (-i1) j0 k0 (-i0) j1 k1 agcw') (fun p => A [-p.getD 0 0, p.getD 1 0, p.getD 2 0])) (hB0' : F.Holds m' (F.face3d0 b0' (-i1) j0 k0 (-i0) j1 k1 0) (fun p => B0 [1 - p.getD 0 0, p.getD 1 0, p.getD 2 0])) (hB1' : F.Holds m' (F.face3d1 b1' (-i1) j0 k0 (-i0) j1 k1 0) (fun p => B1 [p.getD 0 0, p.getD 1 0, -p.getD 2 0])) (hB2' : F.Holds m' (F.face3d2 b2' (-i1) j0 k0 (-i0) j1 k1 0) (fun p => B2 [p.getD 0 0, -p.getD 1 0, p.getD 2 0])) :
    ∃ s1 s2 s1' s2', Cuda.offdiag3d i0 j0 k0 i1 j1 k1 i0 j0 k0 i1 j1 k1 dx beta b0 b1 b2 sgcw st β3 m = .ok s1 ∧ Cuda.v1diag3d i0 j0 k0 i1 j1 k1 (i0 - agcw) (j0 - agcw) (k0 - agcw) (i1 + agcw) (j1 + agcw) (k1 + agcw) alpha a sgcw st β4 s1 = .ok s2 ∧ Cuda.offdiag3d (-i1) j0 k0 (-i0) j1 k1 (-i1) j0 k0 (-i0) j1 k1 dx' beta b0' b1' b2' sgcw' st' β3' m' = .ok s1' ∧ Cuda.v1diag3d (-i1) j0 k0 (-i0) j1 k1 ((-i1) - agcw') (j0 - agcw') (k0 - agcw') ((-i0) + agcw') (j1 + agcw') (k1 + agcw') alpha a' sgcw' st' β4' s1' = .ok s2' ∧
      ∀ i j k, i0 ≤ i → i ≤ i1 → j0 ≤ j → j ≤ j1 → k0 ≤ k → k ≤ k1 → ∀ e ∈ ([(0, 0), (1, 2), (2, 1), (3, 3), (4, 4), (5, 5), (6, 6)] : List (Int × Int)), ∃ v, F.El s2 (F.st3d st i0 j0 k0 i1 j1 k1 sgcw) [e.1, i, j, k] v ∧ F.El s2' (F.st3d st' (-i1) j0 k0 (-i0) j1 k1 sgcw') [e.2, -i, j, k] v := by
  obtain ⟨s1, s2, S, c1, c2, -, hS, hc⟩ := asm_v1_3 (alpha := alpha) (beta := beta) (dx := dx) hβ3 hβ4 hi hj hk hagcw hs h hA hB0 hB1 hB2
  obtain ⟨s1', s2', S', c1', c2', -, hS', hc'⟩ := asm_v1_3 (alpha := alpha) (beta := beta) (dx := dx') hβ3' hβ4' (by omega) (by omega) (by omega) hagcw' hs' h' hA' hB0' hB1' hB2'
  refine ⟨s1, s2, s1', s2', c1, c2, c1', c2', fun i j k ia ib ja jb ka kb e he => ⟨S [e.1, i, j, k], hS _ ?_, ?_⟩⟩
  · simp only [List.mem_cons, List.not_mem_nil, or_false] at he
    rcases he with rfl | rfl | rfl | rfl | rfl | rfl | rfl <;> simp only [F.st3d, F.InBounds, and_true] <;> omega
  · have c := hc i j k ia ib ja jb ka kb
    have c' := hc' (-i) (j) (k) (by omega) (by omega) (by omega) (by omega) (by omega) (by omega)
    have x := hS' [e.2, -i, j, k] (by
      simp only [List.mem_cons, List.not_mem_nil, or_false] at he
      rcases he with rfl | rfl | rfl | rfl | rfl | rfl | rfl <;> simp only [F.st3d, F.InBounds, and_true] <;> omega)
    convert x using 1
    have hv := c'.c0
    simp only [List.mem_cons, List.not_mem_nil, or_false] at he
    rcases he with rfl | rfl | rfl | rfl | rfl | rfl | rfl
    · simp only [c.c0, c'.c0, c.c1, c.c2, c.c3, c.c4, c.c5, c.c6, c'.c1, c'.c2, c'.c3, c'.c4, c'.c5, c'.c6, List.getD_cons_zero, List.getD_cons_succ, hx0, hx1, hx2]
      try ring_nf
    · simp only [c.c1, c'.c2, List.getD_cons_zero, List.getD_cons_succ, hx0, hx1, hx2]
      try ring_nf
    · simp only [c.c2, c'.c1, List.getD_cons_zero, List.getD_cons_succ, hx0, hx1, hx2]
      try ring_nf
    · simp only [c.c3, c'.c3, List.getD_cons_zero, List.getD_cons_succ, hx0, hx1, hx2]
      try ring_nf
    · simp only [c.c4, c'.c4, List.getD_cons_zero, List.getD_cons_succ, hx0, hx1, hx2]
      try ring_nf
    · simp only [c.c5, c'.c5, List.getD_cons_zero, List.getD_cons_succ, hx0, hx1, hx2]
      try ring_nf
    · simp only [c.c6, c'.c6, List.getD_cons_zero, List.getD_cons_succ, hx0, hx1, hx2]
      try ring_nf

example := C86_reflect_coef_v1_3d (T := Rat) (i0 := 0) (j0 := 1) (k0 := 2) (i1 := 1) (j1 := 2) (k1 := 3) (agcw := 1) (sgcw := 1) (agcw' := 1) (sgcw' := 1) (a := ⟨0, 0⟩) (b0 := ⟨2, 0⟩) (b1 := ⟨3, 0⟩) (b2 := ⟨4, 0⟩) (st := ⟨9, 0⟩) (a' := ⟨0, 0⟩) (b0' := ⟨2, 0⟩) (b1' := ⟨3, 0⟩) (b2' := ⟨4, 0⟩) (st' := ⟨9, 0⟩) (alpha := 3) (beta := 2) (dx := exDx) (dx' := (fun d => if d = 0 then exDx 0 else if d = 1 then exDx 1 else if d = 2 then exDx 2 else 0)) (β3 := revBackend) (β3' := revBackend) (β4 := seqBackend) (β4' := seqBackend)
  (m := exWith [((F.cell3d ⟨0, 0⟩ 0 1 2 1 2 3 1), (exRd (F.cell3d ⟨0, 0⟩ 0 1 2 1 2 3 1))), ((F.face3d0 ⟨2, 0⟩ 0 1 2 1 2 3 0), (exRd (F.face3d0 ⟨2, 0⟩ 0 1 2 1 2 3 0))), ((F.face3d1 ⟨3, 0⟩ 0 1 2 1 2 3 0), (exRd (F.face3d1 ⟨3, 0⟩ 0 1 2 1 2 3 0))), ((F.face3d2 ⟨4, 0⟩ 0 1 2 1 2 3 0), (exRd (F.face3d2 ⟨4, 0⟩ 0 1 2 1 2 3 0)))])
  (m' := exWith [((F.cell3d ⟨0, 0⟩ (-1) 1 2 0 2 3 1), (fun p => exRd (F.cell3d ⟨0, 0⟩ 0 1 2 1 2 3 1) [-p.getD 0 0, p.getD 1 0, p.getD 2 0])), ((F.face3d0 ⟨2, 0⟩ (-1) 1 2 0 2 3 0), (fun p => exRd (F.face3d0 ⟨2, 0⟩ 0 1 2 1 2 3 0) [1 - p.getD 0 0, p.getD 1 0, p.getD 2 0])), ((F.face3d1 ⟨3, 0⟩ (-1) 1 2 0 2 3 0), (fun p => exRd (F.face3d1 ⟨3, 0⟩ 0 1 2 1 2 3 0) [p.getD 0 0, p.getD 1 0, -p.getD 2 0])), ((F.face3d2 ⟨4, 0⟩ (-1) 1 2 0 2 3 0), (fun p => exRd (F.face3d2 ⟨4, 0⟩ 0 1 2 1 2 3 0) [p.getD 0 0, -p.getD 1 0, p.getD 2 0]))])
  revBackend_ok seqBackend_ok revBackend_ok seqBackend_ok (by decide) (by decide) (by decide) (by decide) (by decide) (by decide) (by decide) rfl rfl rfl (exWith_args (by ex_args)) (exWith_args (by ex_args)) (exWith_rd (exRat_ok rfl (by decide) (by decide)) rfl rfl) (exWith_rd (exRat_ok rfl (by decide) (by decide)) rfl rfl) (exWith_rd (exRat_ok rfl (by decide) (by decide)) rfl rfl) (exWith_rd (exRat_ok rfl (by decide) (by decide)) rfl rfl) (exWith_rd (exRat_ok rfl (by decide) (by decide)) rfl rfl) (exWith_rd (exRat_ok rfl (by decide) (by decide)) rfl rfl) (exWith_rd (exRat_ok rfl (by decide) (by decide)) rfl rfl) (exWith_rd (exRat_ok rfl (by decide) (by decide)) rfl rfl)

/-- 3D, diffusion operator with constant reaction: for data reflected in the first direction the results are those of the plain data, reflected in the first direction. -/
theorem C86_reflect_v2_3d {i0 j0 k0 i1 j1 k1 gcw rgcw gcw' rgcw' : Int} {alpha beta : T} {dx dx' : Nat → T} {u b0 b1 b2 f0 f1 f2 res u' b0' b1' b2' f0' f1' f2' res' : Ptr} {β1 β2 β1' β2' : Nat → Backend} {m m' : Mem T} {B0 B1 B2 U : List Int → T}
    (hβ1 : ∀ n, ValidBackend (β1 n)) (hβ2 : ∀ n, ValidBackend (β2 n)) (hβ1' : ∀ n, ValidBackend (β1' n)) (hβ2' : ∀ n, ValidBackend (β2' n)) (hi : i0 ≤ i1) (hj : j0 ≤ j1) (hk : k0 ≤ k1) (hg : 1 ≤ gcw) (hrgcw : 0 ≤ rgcw) (hg' : 1 ≤ gcw') (hrgcw' : 0 ≤ rgcw')
    (hx0 : dx' 0 = dx 0) (hx1 : dx' 1 = dx 1) (hx2 : dx' 2 = dx 2)
    (h : F.Args m [(F.cell3d u i0 j0 k0 i1 j1 k1 gcw), (F.face3d0 b0 i0 j0 k0 i1 j1 k1 0), (F.face3d1 b1 i0 j0 k0 i1 j1 k1 0), (F.face3d2 b2 i0 j0 k0 i1 j1 k1 0)] [(F.face3d0 f0 i0 j0 k0 i1 j1 k1 0), (F.face3d1 f1 i0 j0 k0 i1 j1 k1 0), (F.face3d2 f2 i0 j0 k0 i1 j1 k1 0), (F.cell3d res i0 j0 k0 i1 j1 k1 rgcw)]) (hp : F.Apart (F.face3d0 f0 i0 j0 k0 i1 j1 k1 0) (F.face3d1 f1 i0 j0 k0 i1 j1 k1 0) ∧ F.Apart (F.face3d0 f0 i0 j0 k0 i1 j1 k1 0) (F.face3d2 f2 i0 j0 k0 i1 j1 k1 0) ∧ F.Apart (F.face3d1 f1 i0 j0 k0 i1 j1 k1 0) (F.face3d2 f2 i0 j0 k0 i1 j1 k1 0)) (hr : F.Apart (F.cell3d res i0 j0 k0 i1 j1 k1 rgcw) (F.face3d0 f0 i0 j0 k0 i1 j1 k1 0) ∧ F.Apart (F.cell3d res i0 j0 k0 i1 j1 k1 rgcw) (F.face3d1 f1 i0 j0 k0 i1 j1 k1 0) ∧ F.Apart (F.cell3d res i0 j0 k0 i1 j1 k1 rgcw) (F.face3d2 f2 i0 j0 k0 i1 j1 k1 0))
    (h' : F.Args m' [(F.cell3d u' (-i1) j0 k0 (-i0) j1 k1 gcw'), (F.face3d0 b0' (-i1) j0 k0 (-i0) j1 k1 0), (F.face3d1 b1' (-i1) j0 k0 (-i0) j1 k1 0), (F.face3d2 b2' (-i1) j0 k0 (-i0) j1 k1 0)] [(F.face3d0 f0' (-i1) j0 k0 (-i0) j1 k1 0), (F.face3d1 f1' (-i1) j0 k0 (-i0) j1 k1 0), (F.face3d2 f2' (-i1) j0 k0 (-i0) j1 k1 0), (F.cell3d res' (-i1) j0 k0 (-i0) j1 k1 rgcw')]) (hp' : F.Apart (F.face3d0 f0' (-i1) j0 k0 (-i0) j1 k1 0) (F.face3d1 f1' (-i1) j0 k0 (-i0) j1 k1 0) ∧ F.Apart (F.face3d0 f0' (-i1) j0 k0 (-i0) j1 k1 0) (F.face3d2 f2' (-i1) j0 k0 (-i0) j1 k1 0) ∧ F.Apart (F.face3d1 f1' (-i1) j0 k0 (-i0) j1 k1 0) (F.face3d2 f2' (-i1) j0 k0 (-i0) j1 k1 0)) (hr' : F.Apart (F.cell3d res' (-i1) j0 k0 (-i0) j1 k1 rgcw') (F.face3d0 f0' (-i1) j0 k0 (-i0) j1 k1 0) ∧ F.Apart (F.cell3d res' (-i1) j0 k0 (-i0) j1 k1 rgcw') (F.face3d1 f1' (-i1) j0 k0 (-i0) j1 k1 0) ∧ F.Apart (F.cell3d res' (-i1) j0 k0 (-i0) j1 k1 rgcw') (F.face3d2 f2' (-i1) j0 k0 (-i0) j1 k1 0))
    (hB0 : F.Holds m (F.face3d0 b0 i0 j0 k0 i1 j1 k1 0) B0) (hB1 : F.Holds m (F.face3d1 b1 i0 j0 k0 i1 j1 k1 0) B1) (hB2 : F.Holds m (F.face3d2 b2 i0 j0 k0 i1 j1 k1 0) B2) (hU : F.Holds m (F.cell3d u i0 j0 k0 i1 j1 k1 gcw) U)
    (hB0' : F.Holds m' (F.face3d0 b0' (-i1) j0 k0 (-i0) j1 k1 0) (fun p => B0 [1 - p.getD 0 0, p.getD 1 0, p.getD 2 0])) (hB1' : F.Holds m' (F.face3d1 b1' (-i1) j0 k0 (-i0) j1 k1 0) (fun p => B1 [p.getD 0 0, p.getD 1 0, -p.getD 2 0])) (hB2' : F.Holds m' (F.face3d2 b2' (-i1) j0 k0 (-i0) j1 k1 0) (fun p => B2 [p.getD 0 0, -p.getD 1 0, p.getD 2 0])) (hU' : F.Holds m' (F.cell3d u' (-i1) j0 k0 (-i0) j1 k1 gcw') (fun p => U [-p.getD 0 0, p.getD 1 0, p.getD 2 0])) :
    ∃ m1 m2 m1' m2', Cuda.flux3d i0 j0 k0 i1 j1 k1 dx b0 b1 b2 gcw u f0 f1 f2 β1 m = .ok m1 ∧ Cuda.diffusionV2Apply3d i0 i1 j0 j1 k0 k1 alpha beta dx gcw u f0 f1 f2 rgcw res β2 m1 = .ok m2 ∧ Cuda.flux3d (-i1) j0 k0 (-i0) j1 k1 dx' b0' b1' b2' gcw' u' f0' f1' f2' β1' m' = .ok m1' ∧ Cuda.diffusionV2Apply3d (-i1) (-i0) j0 j1 k0 k1 alpha beta dx' gcw' u' f0' f1' f2' rgcw' res' β2' m1' = .ok m2' ∧
      ∀ i j k, i0 ≤ i → i ≤ i1 → j0 ≤ j → j ≤ j1 → k0 ≤ k → k ≤ k1 → ∃ v, F.El m2 (F.cell3d res i0 j0 k0 i1 j1 k1 rgcw) [i, j, k] v ∧ F.El m2' (F.cell3d res' (-i1) j0 k0 (-i0) j1 k1 rgcw') [-i, j, k] v := by
  obtain ⟨m1, m2, R, c1, c2, e, hR⟩ := energy_v2_3 (alpha := alpha) (beta := beta) (dx := dx) hβ1 hβ2 hi hj hk hg hrgcw h hp hr hB0 hB1 hB2 hU
  obtain ⟨m1', m2', R', c1', c2', e', hR'⟩ := energy_v2_3 (alpha := alpha) (beta := beta) (dx := dx') hβ1' hβ2' (by omega) (by omega) (by omega) hg' hrgcw' h' hp' hr' hB0' hB1' hB2' hU'
  refine ⟨m1, m2, m1', m2', c1, c2, c1', c2', fun i j k ia ib ja jb ka kb => ⟨_, e [i, j, k] (F.inBounds3.2 ⟨i, j, k, rfl, by omega⟩), ?_⟩⟩
  have x := e' [-i, j, k] (F.inBounds3.2 ⟨-i, j, k, rfl, by omega⟩)
  rw [hR' (-i) (j) (k) (by omega) (by omega) (by omega) (by omega) (by omega) (by omega)] at x
  rw [hR i j k ia ib ja jb ka kb]
  convert x using 1
  simp only [F.op3, List.getD_cons_zero, List.getD_cons_succ, hx0, hx1, hx2]
  ring_nf

example := C86_reflect_v2_3d (T := Rat) (i0 := 0) (j0 := 1) (k0 := 2) (i1 := 1) (j1 := 2) (k1 := 3) (gcw := 2) (rgcw := 1) (gcw' := 2) (rgcw' := 1) (u := ⟨1, 0⟩) (b0 := ⟨2, 0⟩) (b1 := ⟨3, 0⟩) (b2 := ⟨4, 0⟩) (f0 := ⟨5, 0⟩) (f1 := ⟨6, 0⟩) (f2 := ⟨7, 0⟩) (res := ⟨8, 0⟩) (u' := ⟨1, 0⟩) (b0' := ⟨2, 0⟩) (b1' := ⟨3, 0⟩) (b2' := ⟨4, 0⟩) (f0' := ⟨5, 0⟩) (f1' := ⟨6, 0⟩) (f2' := ⟨7, 0⟩) (res' := ⟨8, 0⟩) (alpha := 3) (beta := 2) (dx := exDx) (dx' := (fun d => if d = 0 then exDx 0 else if d = 1 then exDx 1 else if d = 2 then exDx 2 else 0)) (β1 := fun _ => revBackend) (β1' := fun _ => revBackend) (β2 := fun _ => seqBackend) (β2' := fun _ => seqBackend)
  (m := exWith [((F.face3d0 ⟨2, 0⟩ 0 1 2 1 2 3 0), (exRd (F.face3d0 ⟨2, 0⟩ 0 1 2 1 2 3 0))), ((F.face3d1 ⟨3, 0⟩ 0 1 2 1 2 3 0), (exRd (F.face3d1 ⟨3, 0⟩ 0 1 2 1 2 3 0))), ((F.face3d2 ⟨4, 0⟩ 0 1 2 1 2 3 0), (exRd (F.face3d2 ⟨4, 0⟩ 0 1 2 1 2 3 0))), ((F.cell3d ⟨1, 0⟩ 0 1 2 1 2 3 2), (exRd (F.cell3d ⟨1, 0⟩ 0 1 2 1 2 3 2)))])
  (m' := exWith [((F.face3d0 ⟨2, 0⟩ (-1) 1 2 0 2 3 0), (fun p => exRd (F.face3d0 ⟨2, 0⟩ 0 1 2 1 2 3 0) [1 - p.getD 0 0, p.getD 1 0, p.getD 2 0])), ((F.face3d1 ⟨3, 0⟩ (-1) 1 2 0 2 3 0), (fun p => exRd (F.face3d1 ⟨3, 0⟩ 0 1 2 1 2 3 0) [p.getD 0 0, p.getD 1 0, -p.getD 2 0])), ((F.face3d2 ⟨4, 0⟩ (-1) 1 2 0 2 3 0), (fun p => exRd (F.face3d2 ⟨4, 0⟩ 0 1 2 1 2 3 0) [p.getD 0 0, -p.getD 1 0, p.getD 2 0])), ((F.cell3d ⟨1, 0⟩ (-1) 1 2 0 2 3 2), (fun p => exRd (F.cell3d ⟨1, 0⟩ 0 1 2 1 2 3 2) [-p.getD 0 0, p.getD 1 0, p.getD 2 0]))])
  (fun _ => revBackend_ok) (fun _ => seqBackend_ok) (fun _ => revBackend_ok) (fun _ => seqBackend_ok) (by decide) (by decide) (by decide) (by decide) (by decide) (by decide) (by decide) rfl rfl rfl (exWith_args (by ex_args)) ⟨apart_blk (by decide), apart_blk (by decide), apart_blk (by decide)⟩ ⟨apart_blk (by decide), apart_blk (by decide), apart_blk (by decide)⟩ (exWith_args (by ex_args)) ⟨apart_blk (by decide), apart_blk (by decide), apart_blk (by decide)⟩ ⟨apart_blk (by decide), apart_blk (by decide), apart_blk (by decide)⟩ (exWith_rd (exRat_ok rfl (by decide) (by decide)) rfl rfl) (exWith_rd (exRat_ok rfl (by decide) (by decide)) rfl rfl) (exWith_rd (exRat_ok rfl (by decide) (by decide)) rfl rfl) (exWith_rd (exRat_ok rfl (by decide) (by decide)) rfl rfl) (exWith_rd (exRat_ok rfl (by decide) (by decide)) rfl rfl) (exWith_rd (exRat_ok rfl (by decide) (by decide)) rfl rfl) (exWith_rd (exRat_ok rfl (by decide) (by decide)) rfl rfl) (exWith_rd (exRat_ok rfl (by decide) (by decide)) rfl rfl)

/-- 3D, diffusion operator with constant reaction: for data reflected in the first direction the assembled coefficients are those of the plain data, reflected in the first direction. -/
theorem C86_reflect_coef_v2_3d {i0 j0 k0 i1 j1 k1 sgcw sgcw' : Int} {alpha beta : T} {dx dx' : Nat → T} {b0 b1 b2 st b0' b1' b2' st' : Ptr} {β3 β4 β3' β4' : Backend} {m m' : Mem T} {B0 B1 B2 : List Int → T}
    (hβ3 : ValidBackend β3) (hβ4 : ValidBackend β4) (hβ3' : ValidBackend β3') (hβ4' : ValidBackend β4') (hi : i0 ≤ i1) (hj : j0 ≤ j1) (hk : k0 ≤ k1) (hs : 0 ≤ sgcw) (hs' : 0 ≤ sgcw')
    (hx0 : dx' 0 = dx 0) (hx1 : dx' 1 = dx 1) (hx2 : dx' 2 = dx 2)
    (h : F.Args m [(F.face3d0 b0 i0 j0 k0 i1 j1 k1 0), (F.face3d1 b1 i0 j0 k0 i1 j1 k1 0), (F.face3d2 b2 i0 j0 k0 i1 j1 k1 0)] [(F.st3d st i0 j0 k0 i1 j1 k1 sgcw)])
    (h' : F.Args m' [(F.face3d0 b0' (-i1) j0 k0 (-i0) j1 k1 0), (F.face3d1 b1' (-i1) j0 k0 (-i0) j1 k1 0), (F.face3d2 b2' (-i1) j0 k0 (-i0) j1 k1 0)] [(F.st3d st' (-i1) j0 k0 (-i0) j1 k1 sgcw')])
    (hB0 : F.Holds m (F.face3d0 b0 i0 j0 k0 i1 j1 k1 0) B0) (hB1 : F.Holds m (F.face3d1 b1 i0 j0 k0 i1 j1 k1 0) B1) (hB2 : F.Holds m (F.face3d2 b2 i0 j0 k0 i1 j1 k1 0) B2)
    (hB0' : F.Holds m' (F.face3d0 b0' (-i1) j0 k0 (-i0) j1 k1 0) (fun p => B0 [1 - p.getD 0 0, p.getD 1 0, p.getD 2 0])) (hB1' : F.Holds m' (F.face3d1 b1' (-i1) j0 k0 (-i0) j1 k1 0) (fun p => B1 [p.getD 0 0, p.getD 1 0, -p.getD 2 0])) (hB2' : F.Holds m' (F.face3d2 b2' (-i1) j0 k0 (-i0) j1 k1 0) (fun p => B2 [p.getD 0 0, -p.getD 1 0, p.getD 2 0])) :
    ∃ s1 s2 s1' s2', Cuda.offdiag3d i0 j0 k0 i1 j1 k1 i0 j0 k0 i1 j1 k1 dx beta b0 b1 b2 sgcw st β3 m = .ok s1 ∧ Cuda.v2diag3d i0 j0 k0 i1 j1 k1 alpha sgcw st β4 s1 = .ok s2 ∧ Cuda.offdiag3d (-i1) j0 k0 (-i0) j1 k1 (-i1) j0 k0 (-i0) j1 k1 dx' beta b0' b1' b2' sgcw' st' β3' m' = .ok s1' ∧ Cuda.v2diag3d (-i1) j0 k0 (-i0) j1 k1 alpha sgcw' st' β4' s1' = .ok s2' ∧
      ∀ i j k, i0 ≤ i → i ≤ i1 → j0 ≤ j → j ≤ j1 → k0 ≤ k → k ≤ k1 → ∀ e ∈ ([(0, 0), (1, 2), (2, 1), (3, 3), (4, 4), (5, 5), (6, 6)] : List (Int × Int)), ∃ v, F.El s2 (F.st3d st i0 j0 k0 i1 j1 k1 sgcw) [e.1, i, j, k] v ∧ F.El s2' (F.st3d st' (-i1) j0 k0 (-i0) j1 k1 sgcw') [e.2, -i, j, k] v := by
  obtain ⟨s1, s2, S, c1, c2, -, hS, hc⟩ := asm_v2_3 (alpha := alpha) (beta := beta) (dx := dx) hβ3 hβ4 hi hj hk hs h hB0 hB1 hB2
  obtain ⟨s1', s2', S', c1', c2', -, hS', hc'⟩ := asm_v2_3 (alpha := alpha) (beta := beta) (dx := dx') hβ3' hβ4' (by omega) (by omega) (by omega) hs' h' hB0' hB1' hB2'
  refine ⟨s1, s2, s1', s2', c1, c2, c1', c2', fun i j k ia ib ja jb ka kb e he => ⟨S [e.1, i, j, k], hS _ ?_, ?_⟩⟩
  · simp only [List.mem_cons, List.not_mem_nil, or_false] at he
    rcases he with rfl | rfl | rfl | rfl | rfl | rfl | rfl <;> simp only [F.st3d, F.InBounds, and_true] <;> omega
  · have c := hc i j k ia ib ja jb ka kb
    have c' := hc' (-i) (j) (k) (by omega) (by omega) (by omega) (by omega) (by omega) (by omega)
    have x := hS' [e.2, -i, j, k] (by
      simp only [List.mem_cons, List.not_mem_nil, or_false] at he
      rcases he with rfl | rfl | rfl | rfl | rfl | rfl | rfl <;> simp only [F.st3d, F.InBounds, and_true] <;> omega)
    convert x using 1
    have hv := c'.c0
    simp only [List.mem_cons, List.not_mem_nil, or_false] at he
    rcases he with rfl | rfl | rfl | rfl | rfl | rfl | rfl
    · simp only [c.c0, c'.c0, c.c1, c.c2, c.c3, c.c4, c.c5, c.c6, c'.c1, c'.c2, c'.c3, c'.c4, c'.c5, c'.c6, List.getD_cons_zero, List.getD_cons_succ, hx0, hx1, hx2]
      try ring_nf
    · simp only [c.c1, c'.c2, List.getD_cons_zero, List.getD_cons_succ, hx0, hx1, hx2]
      try ring_nf
    · simp only [c.c2, c'.c1, List.getD_cons_zero, List.getD_cons_succ, hx0, hx1, hx2]
      try ring_nf
    · simp only [c.c3, c'.c3, List.getD_cons_zero, List.getD_cons_succ, hx0, hx1, hx2]
      try ring_nf
    · simp only [c.c4, c'.c4, List.getD_cons_zero, List.getD_cons_succ, hx0, hx1, hx2]
      try ring_nf
    · simp only [c.c5, c'.c5, List.getD_cons_zero, List.getD_cons_succ, hx0, hx1, hx2]
      try ring_nf
    · simp only [c.c6, c'.c6, List.getD_cons_zero, List.getD_cons_succ, hx0, hx1, hx2]
      try ring_nf

example := C86_reflect_coef_v2_3d (T := Rat) (i0 := 0) (j0 := 1) (k0 := 2) (i1 := 1) (j1 := 2) (k1 := 3) (sgcw := 1) (sgcw' := 1) (b0 := ⟨2, 0⟩) (b1 := ⟨3, 0⟩) (b2 := ⟨4, 0⟩) (st := ⟨9, 0⟩) (b0' := ⟨2, 0⟩) (b1' := ⟨3, 0⟩) (b2' := ⟨4, 0⟩) (st' := ⟨9, 0⟩) (alpha := 3) (beta := 2) (dx := exDx) (dx' := (fun d => if d = 0 then exDx 0 else if d = 1 then exDx 1 else if d = 2 then exDx 2 else 0)) (β3 := revBackend) (β3' := revBackend) (β4 := seqBackend) (β4' := seqBackend)
  (m := exWith [((F.face3d0 ⟨2, 0⟩ 0 1 2 1 2 3 0), (exRd (F.face3d0 ⟨2, 0⟩ 0 1 2 1 2 3 0))), ((F.face3d1 ⟨3, 0⟩ 0 1 2 1 2 3 0), (exRd (F.face3d1 ⟨3, 0⟩ 0 1 2 1 2 3 0))), ((F.face3d2 ⟨4, 0⟩ 0 1 2 1 2 3 0), (exRd (F.face3d2 ⟨4, 0⟩ 0 1 2 1 2 3 0)))])
  (m' := exWith [((F.face3d0 ⟨2, 0⟩ (-1) 1 2 0 2 3 0), (fun p => exRd (F.face3d0 ⟨2, 0⟩ 0 1 2 1 2 3 0) [1 - p.getD 0 0, p.getD 1 0, p.getD 2 0])), ((F.face3d1 ⟨3, 0⟩ (-1) 1 2 0 2 3 0), (fun p => exRd (F.face3d1 ⟨3, 0⟩ 0 1 2 1 2 3 0) [p.getD 0 0, p.getD 1 0, -p.getD 2 0])), ((F.face3d2 ⟨4, 0⟩ (-1) 1 2 0 2 3 0), (fun p => exRd (F.face3d2 ⟨4, 0⟩ 0 1 2 1 2 3 0) [p.getD 0 0, -p.getD 1 0, p.getD 2 0]))])
  revBackend_ok seqBackend_ok revBackend_ok seqBackend_ok (by decide) (by decide) (by decide) (by decide) (by decide) rfl rfl rfl (exWith_args (by ex_args)) (exWith_args (by ex_args)) (exWith_rd (exRat_ok rfl (by decide) (by decide)) rfl rfl) (exWith_rd (exRat_ok rfl (by decide) (by decide)) rfl rfl) (exWith_rd (exRat_ok rfl (by decide) (by decide)) rfl rfl) (exWith_rd (exRat_ok rfl (by decide) (by decide)) rfl rfl) (exWith_rd (exRat_ok rfl (by decide) (by decide)) rfl rfl) (exWith_rd (exRat_ok rfl (by decide) (by decide)) rfl rfl)

/-- 3D, Poisson operator: for data reflected in the first direction the results are those of the plain data, reflected in the first direction. -/
theorem C86_reflect_poisson_3d {i0 j0 k0 i1 j1 k1 gcw rgcw gcw' rgcw' : Int} {beta : T} {dx dx' : Nat → T} {u f0 f1 f2 res u' f0' f1' f2' res' : Ptr} {β1 β2 β1' β2' : Nat → Backend} {m m' : Mem T} {U : List Int → T}
    (hβ1 : ∀ n, ValidBackend (β1 n)) (hβ2 : ∀ n, ValidBackend (β2 n)) (hβ1' : ∀ n, ValidBackend (β1' n)) (hβ2' : ∀ n, ValidBackend (β2' n)) (hi : i0 ≤ i1) (hj : j0 ≤ j1) (hk : k0 ≤ k1) (hg : 1 ≤ gcw) (hrgcw : 0 ≤ rgcw) (hg' : 1 ≤ gcw') (hrgcw' : 0 ≤ rgcw')
    (hx0 : dx' 0 = dx 0) (hx1 : dx' 1 = dx 1) (hx2 : dx' 2 = dx 2)
    (h : F.Args m [(F.cell3d u i0 j0 k0 i1 j1 k1 gcw)] [(F.face3d0 f0 i0 j0 k0 i1 j1 k1 0), (F.face3d1 f1 i0 j0 k0 i1 j1 k1 0), (F.face3d2 f2 i0 j0 k0 i1 j1 k1 0), (F.cell3d res i0 j0 k0 i1 j1 k1 rgcw)]) (hp : F.Apart (F.face3d0 f0 i0 j0 k0 i1 j1 k1 0) (F.face3d1 f1 i0 j0 k0 i1 j1 k1 0) ∧ F.Apart (F.face3d0 f0 i0 j0 k0 i1 j1 k1 0) (F.face3d2 f2 i0 j0 k0 i1 j1 k1 0) ∧ F.Apart (F.face3d1 f1 i0 j0 k0 i1 j1 k1 0) (F.face3d2 f2 i0 j0 k0 i1 j1 k1 0)) (hr : F.Apart (F.cell3d res i0 j0 k0 i1 j1 k1 rgcw) (F.face3d0 f0 i0 j0 k0 i1 j1 k1 0) ∧ F.Apart (F.cell3d res i0 j0 k0 i1 j1 k1 rgcw) (F.face3d1 f1 i0 j0 k0 i1 j1 k1 0) ∧ F.Apart (F.cell3d res i0 j0 k0 i1 j1 k1 rgcw) (F.face3d2 f2 i0 j0 k0 i1 j1 k1 0))
    (h' : F.Args m' [(F.cell3d u' (-i1) j0 k0 (-i0) j1 k1 gcw')] [(F.face3d0 f0' (-i1) j0 k0 (-i0) j1 k1 0), (F.face3d1 f1' (-i1) j0 k0 (-i0) j1 k1 0), (F.face3d2 f2' (-i1) j0 k0 (-i0) j1 k1 0), (F.cell3d res' (-i1) j0 k0 (-i0) j1 k1 rgcw')]) (hp' : F.Apart (F.face3d0 f0' (-i1) j0 k0 (-i0) j1 k1 0) (F.face3d1 f1' (-i1) j0 k0 (-i0) j1 k1 0) ∧ F.Apart (F.face3d0 f0' (-i1) j0 k0 (-i0) j1 k1 0) (F.face3d2 f2' (-i1) j0 k0 (-i0) j1 k1 0) ∧ F.Apart (F.face3d1 f1' (-i1) j0 k0 (-i0) j1 k1 0) (F.face3d2 f2' (-i1) j0 k0 (-i0) j1 k1 0)) (hr' : F.Apart (F.cell3d res' (-i1) j0 k0 (-i0) j1 k1 rgcw') (F.face3d0 f0' (-i1) j0 k0 (-i0) j1 k1 0) ∧ F.Apart (F.cell3d res' (-i1) j0 k0 (-i0) j1 k1 rgcw') (F.face3d1 f1' (-i1) j0 k0 (-i0) j1 k1 0) ∧ F.Apart (F.cell3d res' (-i1) j0 k0 (-i0) j1 k1 rgcw') (F.face3d2 f2' (-i1) j0 k0 (-i0) j1 k1 0))
    (hU : F.Holds m (F.cell3d u i0 j0 k0 i1 j1 k1 gcw) U)
    (hU' : F.Holds m' (F.cell3d u' (-i1) j0 k0 (-i0) j1 k1 gcw') (fun p => U [-p.getD 0 0, p.getD 1 0, p.getD 2 0])) :
    ∃ m1 m2 m1' m2', Cuda.poissonFlux3d i0 j0 k0 i1 j1 k1 dx gcw u f0 f1 f2 β1 m = .ok m1 ∧ Cuda.poissonV2Apply3d i0 i1 j0 j1 k0 k1 beta dx f0 f1 f2 rgcw res β2 m1 = .ok m2 ∧ Cuda.poissonFlux3d (-i1) j0 k0 (-i0) j1 k1 dx' gcw' u' f0' f1' f2' β1' m' = .ok m1' ∧ Cuda.poissonV2Apply3d (-i1) (-i0) j0 j1 k0 k1 beta dx' f0' f1' f2' rgcw' res' β2' m1' = .ok m2' ∧
      ∀ i j k, i0 ≤ i → i ≤ i1 → j0 ≤ j → j ≤ j1 → k0 ≤ k → k ≤ k1 → ∃ v, F.El m2 (F.cell3d res i0 j0 k0 i1 j1 k1 rgcw) [i, j, k] v ∧ F.El m2' (F.cell3d res' (-i1) j0 k0 (-i0) j1 k1 rgcw') [-i, j, k] v := by
  obtain ⟨m1, m2, R, c1, c2, e, hR⟩ := energy_p_3 (beta := beta) (dx := dx) hβ1 hβ2 hi hj hk hg hrgcw h hp hr hU
  obtain ⟨m1', m2', R', c1', c2', e', hR'⟩ := energy_p_3 (beta := beta) (dx := dx') hβ1' hβ2' (by omega) (by omega) (by omega) hg' hrgcw' h' hp' hr' hU'
  refine ⟨m1, m2, m1', m2', c1, c2, c1', c2', fun i j k ia ib ja jb ka kb => ⟨_, e [i, j, k] (F.inBounds3.2 ⟨i, j, k, rfl, by omega⟩), ?_⟩⟩
  have x := e' [-i, j, k] (F.inBounds3.2 ⟨-i, j, k, rfl, by omega⟩)
  rw [hR' (-i) (j) (k) (by omega) (by omega) (by omega) (by omega) (by omega) (by omega)] at x
  rw [hR i j k ia ib ja jb ka kb]
  convert x using 1
  simp only [F.op3, List.getD_cons_zero, List.getD_cons_succ, hx0, hx1, hx2]
  ring_nf

example := C86_reflect_poisson_3d (T := Rat) (i0 := 0) (j0 := 1) (k0 := 2) (i1 := 1) (j1 := 2) (k1 := 3) (gcw := 2) (rgcw := 1) (gcw' := 2) (rgcw' := 1) (u := ⟨1, 0⟩) (f0 := ⟨5, 0⟩) (f1 := ⟨6, 0⟩) (f2 := ⟨7, 0⟩) (res := ⟨8, 0⟩) (u' := ⟨1, 0⟩) (f0' := ⟨5, 0⟩) (f1' := ⟨6, 0⟩) (f2' := ⟨7, 0⟩) (res' := ⟨8, 0⟩) (beta := 2) (dx := exDx) (dx' := (fun d => if d = 0 then exDx 0 else if d = 1 then exDx 1 else if d = 2 then exDx 2 else 0)) (β1 := fun _ => revBackend) (β1' := fun _ => revBackend) (β2 := fun _ => seqBackend) (β2' := fun _ => seqBackend)
  (m := exWith [((F.cell3d ⟨1, 0⟩ 0 1 2 1 2 3 2), (exRd (F.cell3d ⟨1, 0⟩ 0 1 2 1 2 3 2)))])
  (m' := exWith [((F.cell3d ⟨1, 0⟩ (-1) 1 2 0 2 3 2), (fun p => exRd (F.cell3d ⟨1, 0⟩ 0 1 2 1 2 3 2) [-p.getD 0 0, p.getD 1 0, p.getD 2 0]))])
  (fun _ => revBackend_ok) (fun _ => seqBackend_ok) (fun _ => revBackend_ok) (fun _ => seqBackend_ok) (by decide) (by decide) (by decide) (by decide) (by decide) (by decide) (by decide) rfl rfl rfl (exWith_args (by ex_args)) ⟨apart_blk (by decide), apart_blk (by decide), apart_blk (by decide)⟩ ⟨apart_blk (by decide), apart_blk (by decide), apart_blk (by decide)⟩ (exWith_args (by ex_args)) ⟨apart_blk (by decide), apart_blk (by decide), apart_blk (by decide)⟩ ⟨apart_blk (by decide), apart_blk (by decide), apart_blk (by decide)⟩ (exWith_rd (exRat_ok rfl (by decide) (by decide)) rfl rfl) (exWith_rd (exRat_ok rfl (by decide) (by decide)) rfl rfl)

/-- 3D, Poisson operator: for data reflected in the first direction the assembled coefficients are those of the plain data, reflected in the first direction. -/
theorem C86_reflect_coef_poisson_3d {i0 j0 k0 i1 j1 k1 sgcw sgcw' : Int} {beta : T} {dx dx' : Nat → T} {st st' : Ptr} {β3 β4 β3' β4' : Backend} {m m' : Mem T}
    (hβ3 : ValidBackend β3) (hβ4 : ValidBackend β4) (hβ3' : ValidBackend β3') (hβ4' : ValidBackend β4') (hi : i0 ≤ i1) (hj : j0 ≤ j1) (hk : k0 ≤ k1) (hs : 0 ≤ sgcw) (hs' : 0 ≤ sgcw')
    (hx0 : dx' 0 = dx 0) (hx1 : dx' 1 = dx 1) (hx2 : dx' 2 = dx 2)
    (h : F.Args m [] [(F.st3d st i0 j0 k0 i1 j1 k1 sgcw)])
    (h' : F.Args m' [] [(F.st3d st' (-i1) j0 k0 (-i0) j1 k1 sgcw')]) :
    ∃ s1 s2 s1' s2', Cuda.poissonOffdiag3d i0 j0 k0 i1 j1 k1 dx beta sgcw st β3 m = .ok s1 ∧ Cuda.poissonDiag3d i0 j0 k0 i1 j1 k1 sgcw st β4 s1 = .ok s2 ∧ Cuda.poissonOffdiag3d (-i1) j0 k0 (-i0) j1 k1 dx' beta sgcw' st' β3' m' = .ok s1' ∧ Cuda.poissonDiag3d (-i1) j0 k0 (-i0) j1 k1 sgcw' st' β4' s1' = .ok s2' ∧
      ∀ i j k, i0 ≤ i → i ≤ i1 → j0 ≤ j → j ≤ j1 → k0 ≤ k → k ≤ k1 → ∀ e ∈ ([(0, 0), (1, 2), (2, 1), (3, 3), (4, 4), (5, 5), (6, 6)] : List (Int × Int)), ∃ v, F.El s2 (F.st3d st i0 j0 k0 i1 j1 k1 sgcw) [e.1, i, j, k] v ∧ F.El s2' (F.st3d st' (-i1) j0 k0 (-i0) j1 k1 sgcw') [e.2, -i, j, k] v := by
  obtain ⟨s1, s2, S, c1, c2, -, hS, hc⟩ := asm_p_3 (beta := beta) (dx := dx) hβ3 hβ4 hi hj hk hs h
  obtain ⟨s1', s2', S', c1', c2', -, hS', hc'⟩ := asm_p_3 (beta := beta) (dx := dx') hβ3' hβ4' (by omega) (by omega) (by omega) hs' h'
  refine ⟨s1, s2, s1', s2', c1, c2, c1', c2', fun i j k ia ib ja jb ka kb e he => ⟨S [e.1, i, j, k], hS _ ?_, ?_⟩⟩
  · simp only [List.mem_cons, List.not_mem_nil, or_false] at he
    rcases he with rfl | rfl | rfl | rfl | rfl | rfl | rfl <;> simp only [F.st3d, F.InBounds, and_true] <;> omega
  · have c := hc i j k ia ib ja jb ka kb
    have c' := hc' (-i) (j) (k) (by omega) (by omega) (by omega) (by omega) (by omega) (by omega)
    have x := hS' [e.2, -i, j, k] (by
      simp only [List.mem_cons, List.not_mem_nil, or_false] at he
      rcases he with rfl | rfl | rfl | rfl | rfl | rfl | rfl <;> simp only [F.st3d, F.InBounds, and_true] <;> omega)
    convert x using 1
    have hv := c'.c0
    simp only [List.mem_cons, List.not_mem_nil, or_false] at he
    rcases he with rfl | rfl | rfl | rfl | rfl | rfl | rfl
    · simp only [c.c0, c'.c0, c.c1, c.c2, c.c3, c.c4, c.c5, c.c6, c'.c1, c'.c2, c'.c3, c'.c4, c'.c5, c'.c6, List.getD_cons_zero, List.getD_cons_succ, hx0, hx1, hx2]
      try ring_nf
    · simp only [c.c1, c'.c2, List.getD_cons_zero, List.getD_cons_succ, hx0, hx1, hx2]
      try ring_nf
    · simp only [c.c2, c'.c1, List.getD_cons_zero, List.getD_cons_succ, hx0, hx1, hx2]
      try ring_nf
    · simp only [c.c3, c'.c3, List.getD_cons_zero, List.getD_cons_succ, hx0, hx1, hx2]
      try ring_nf
    · simp only [c.c4, c'.c4, List.getD_cons_zero, List.getD_cons_succ, hx0, hx1, hx2]
      try ring_nf
    · simp only [c.c5, c'.c5, List.getD_cons_zero, List.getD_cons_succ, hx0, hx1, hx2]
      try ring_nf
    · simp only [c.c6, c'.c6, List.getD_cons_zero, List.getD_cons_succ, hx0, hx1, hx2]
      try ring_nf

example := C86_reflect_coef_poisson_3d (T := Rat) (i0 := 0) (j0 := 1) (k0 := 2) (i1 := 1) (j1 := 2) (k1 := 3) (sgcw := 1) (sgcw' := 1) (st := ⟨9, 0⟩) (st' := ⟨9, 0⟩) (beta := 2) (dx := exDx) (dx' := (fun d => if d = 0 then exDx 0 else if d = 1 then exDx 1 else if d = 2 then exDx 2 else 0)) (β3 := revBackend) (β3' := revBackend) (β4 := seqBackend) (β4' := seqBackend)
  (m := exWith [])
  (m' := exWith [])
  revBackend_ok seqBackend_ok revBackend_ok seqBackend_ok (by decide) (by decide) (by decide) (by decide) (by decide) rfl rfl rfl (exWith_args (by ex_args)) (exWith_args (by ex_args))

end Verif
