import Verif.Lemmas.Operator
import Verif.Lemmas.Sums
import Mathlib.Tactic.NormNum

/-
C38: the operator applied by the flux and apply kernels is the one assembled by the stencil coefficient kernels.
C39: the assembled off-diagonal coefficients are symmetric.
C40: discrete conservation.
C44: flux and apply kernels are idempotent and linear.
-/

namespace Verif
open Spec

set_option linter.unusedVariables false
set_option linter.unusedSimpArgs false
set_option linter.unusedTactic false
set_option linter.unreachableTactic false

variable {T : Type} [Field T]

/-! ### C38 -/

/-- Running the flux kernel and then the `diffusionV1Apply1d` kernel leaves, at every cell of the box, the sum over the cell and its 2
neighbours of the coefficients left by the off-diagonal and diagonal kernels times the unknown. -/
theorem C38_v1_1d {i0 i1 agcw gcw rgcw sgcw : Int} {alpha beta : T} {dx : Nat → T} {a u b0 f0 res st : Ptr} {β1 β2 : Nat → Backend} {β3 β4 : Backend} {m : Mem T}
    (hβ1 : ∀ n, ValidBackend (β1 n)) (hβ2 : ∀ n, ValidBackend (β2 n)) (hβ3 : ValidBackend β3) (hβ4 : ValidBackend β4)
    (hi : i0 ≤ i1) (hg : 1 ≤ gcw) (hagcw : 0 ≤ agcw) (hrgcw : 0 ≤ rgcw) (hs : 0 ≤ sgcw)
    (h : F.Args m [(F.cell1d a i0 i1 agcw), (F.cell1d u i0 i1 gcw), (F.face1d b0 i0 i1 0)] [(F.face1d f0 i0 i1 0), (F.cell1d res i0 i1 rgcw), (F.st1d st i0 i1 sgcw)])
    (hr : F.Apart (F.cell1d res i0 i1 rgcw) (F.face1d f0 i0 i1 0)) :
    ∃ m1 m2 s1 s2, Cuda.flux1d i0 i1 dx b0 gcw u f0 β1 m = .ok m1 ∧ Cuda.diffusionV1Apply1d i0 i1 alpha beta dx agcw a gcw u f0 rgcw res β2 m1 = .ok m2 ∧
      Cuda.offdiag1d i0 i1 i0 i1 dx beta b0 sgcw st β3 m = .ok s1 ∧ Cuda.v1diag1d i0 i1 (i0 - agcw) (i1 + agcw) alpha a sgcw st β4 s1 = .ok s2 ∧
      ∀ i, i0 ≤ i → i ≤ i1 → ∃ c0 c1 c2 x0 x1 x2 : T,
        F.El s2 (F.st1d st i0 i1 sgcw) [0, i] c0 ∧ F.El s2 (F.st1d st i0 i1 sgcw) [1, i] c1 ∧ F.El s2 (F.st1d st i0 i1 sgcw) [2, i] c2 ∧
        F.El m (F.cell1d u i0 i1 gcw) [i] x0 ∧ F.El m (F.cell1d u i0 i1 gcw) [i - 1] x1 ∧ F.El m (F.cell1d u i0 i1 gcw) [i + 1] x2 ∧
        F.El m2 (F.cell1d res i0 i1 rgcw) [i] (c0 * x0 + c1 * x1 + c2 * x2) := by
  obtain ⟨m1, m2, c1, c2, -, -, -, W⟩ := op_v1_1 (alpha := alpha) (beta := beta) (dx := dx) hβ1 hβ2 hi hg hagcw hrgcw
    (h.sub (fun _ e => e) (by intro x hx; simp only [List.mem_cons, List.not_mem_nil, or_false] at hx ⊢; tauto)) hr
  have h3 : F.Args m [(F.face1d b0 i0 i1 0)] [(F.st1d st i0 i1 sgcw)] := h.sub (by intro x hx; simp only [List.mem_cons, List.not_mem_nil, or_false] at hx ⊢; tauto) (by intro x hx; simp only [List.mem_cons, List.not_mem_nil, or_false] at hx ⊢; tauto)
  obtain ⟨s1, q1, -, K1, S1⟩ := offdiag1_run (dx := dx) (beta := beta) hi hs ⟨le_rfl, le_rfl⟩ h3
  obtain ⟨s1', d1, e1⟩ := C36_offdiag_1d (dx := dx) (beta := beta) hβ3 hi ⟨le_rfl, le_rfl⟩ hs h3
  obtain rfl : s1 = s1' := Except.ok.inj (q1.symm.trans e1)
  have ea : (F.cell1d a (i0 - agcw) (i1 + agcw) 0) = (F.cell1d a i0 i1 agcw) := by simp [F.cell1d]
  have h4 : F.Args s1 [(F.cell1d a (i0 - agcw) (i1 + agcw) 0)] [(F.st1d st i0 i1 sgcw)] := by rw [ea]; exact K1.args (h.sub (by intro x hx; simp only [List.mem_cons, List.not_mem_nil, or_false] at hx ⊢; tauto) (by intro x hx; simp only [List.mem_cons, List.not_mem_nil, or_false] at hx ⊢; tauto))
  obtain ⟨s2, q2, -, K2, S2, S3⟩ := v1diag1_run (alpha := alpha) hi hs ⟨by omega, by omega⟩ h4
  obtain ⟨s2', d2, e2⟩ := C36_v1diag_1d (alpha := alpha) hβ4 hi ⟨by omega, by omega⟩ hs h4
  obtain rfl : s2 = s2' := Except.ok.inj (q2.symm.trans e2)
  refine ⟨m1, m2, s1, s2, c1, c2, d1, d2, fun i h0 h1 => ?_⟩
  have hst := K2.ok (K1.ok (h.ok (F.st1d st i0 i1 sgcw) (by simp)))
  have hu := h.ok (F.cell1d u i0 i1 gcw) (by simp)
  obtain ⟨t1, t2⟩ := S1 i h0 h1
  have t0 := (S2 i h0 h1).rd
  have r1 := S3 i 1 h0 h1 (by decide) (by decide)
  rw [t1.rd] at r1
  have r2 := S3 i 2 h0 h1 (by decide) (by decide)
  rw [t2.rd] at r2
  rw [t1.rd, t2.rd] at t0
  have ra : F.rd s1 (F.cell1d a i0 i1 agcw) [i] = F.rd m (F.cell1d a i0 i1 agcw) [i] := K1.rd (by simp only [List.mem_cons, List.not_mem_nil, or_false, forall_eq]; exact h.apart _ (by simp) _ (by simp)) (by in_bounds)
  rw [ea, ra] at t0
  refine ⟨_, _, _, _, _, _, hst.rd (by in_bounds), hst.rd (by in_bounds), hst.rd (by in_bounds), hu.rd (by in_bounds), hu.rd (by in_bounds), hu.rd (by in_bounds), ?_⟩
  rw [r1, r2, t0]
  have w := W i h0 h1
  convert w using 1
  simp only [div_eq_mul_inv, mul_inv]
  ring

example : ∃ m1 m2 s1 s2, Cuda.flux1d 0 3 exDx ⟨2, 0⟩ 2 ⟨1, 0⟩ ⟨5, 0⟩ (fun _ => revBackend) exRat = .ok m1 ∧ Cuda.diffusionV1Apply1d 0 3 3 2 exDx 1 ⟨0, 0⟩ 2 ⟨1, 0⟩ ⟨5, 0⟩ 1 ⟨8, 0⟩ (fun _ => seqBackend) m1 = .ok m2 ∧
      Cuda.offdiag1d 0 3 0 3 exDx 2 ⟨2, 0⟩ 1 ⟨9, 0⟩ revBackend exRat = .ok s1 ∧ Cuda.v1diag1d 0 3 (0 - 1) (3 + 1) 3 ⟨0, 0⟩ 1 ⟨9, 0⟩ seqBackend s1 = .ok s2 ∧
      ∀ i, 0 ≤ i → i ≤ 3 → ∃ c0 c1 c2 x0 x1 x2 : Rat,
        F.El s2 (F.st1d ⟨9, 0⟩ 0 3 1) [0, i] c0 ∧ F.El s2 (F.st1d ⟨9, 0⟩ 0 3 1) [1, i] c1 ∧ F.El s2 (F.st1d ⟨9, 0⟩ 0 3 1) [2, i] c2 ∧
        F.El exRat (F.cell1d ⟨1, 0⟩ 0 3 2) [i] x0 ∧ F.El exRat (F.cell1d ⟨1, 0⟩ 0 3 2) [i - 1] x1 ∧ F.El exRat (F.cell1d ⟨1, 0⟩ 0 3 2) [i + 1] x2 ∧
        F.El m2 (F.cell1d ⟨8, 0⟩ 0 3 1) [i] (c0 * x0 + c1 * x1 + c2 * x2) :=
  C38_v1_1d (fun _ => revBackend_ok) (fun _ => seqBackend_ok) revBackend_ok seqBackend_ok (by decide) (by decide) (by decide) (by decide) (by decide) (by ex_args) (apart_blk (by decide))

/-- Running the flux kernel and then the `diffusionV2Apply1d` kernel leaves, at every cell of the box, the sum over the cell and its 2
neighbours of the coefficients left by the off-diagonal and diagonal kernels times the unknown. -/
theorem C38_v2_1d {i0 i1 gcw rgcw sgcw : Int} {alpha beta : T} {dx : Nat → T} {u b0 f0 res st : Ptr} {β1 β2 : Nat → Backend} {β3 β4 : Backend} {m : Mem T}
    (hβ1 : ∀ n, ValidBackend (β1 n)) (hβ2 : ∀ n, ValidBackend (β2 n)) (hβ3 : ValidBackend β3) (hβ4 : ValidBackend β4)
    (hi : i0 ≤ i1) (hg : 1 ≤ gcw) (hrgcw : 0 ≤ rgcw) (hs : 0 ≤ sgcw)
    (h : F.Args m [(F.cell1d u i0 i1 gcw), (F.face1d b0 i0 i1 0)] [(F.face1d f0 i0 i1 0), (F.cell1d res i0 i1 rgcw), (F.st1d st i0 i1 sgcw)])
    (hr : F.Apart (F.cell1d res i0 i1 rgcw) (F.face1d f0 i0 i1 0)) :
    ∃ m1 m2 s1 s2, Cuda.flux1d i0 i1 dx b0 gcw u f0 β1 m = .ok m1 ∧ Cuda.diffusionV2Apply1d i0 i1 alpha beta dx gcw u f0 rgcw res β2 m1 = .ok m2 ∧
      Cuda.offdiag1d i0 i1 i0 i1 dx beta b0 sgcw st β3 m = .ok s1 ∧ Cuda.v2diag1d i0 i1 alpha sgcw st β4 s1 = .ok s2 ∧
      ∀ i, i0 ≤ i → i ≤ i1 → ∃ c0 c1 c2 x0 x1 x2 : T,
        F.El s2 (F.st1d st i0 i1 sgcw) [0, i] c0 ∧ F.El s2 (F.st1d st i0 i1 sgcw) [1, i] c1 ∧ F.El s2 (F.st1d st i0 i1 sgcw) [2, i] c2 ∧
        F.El m (F.cell1d u i0 i1 gcw) [i] x0 ∧ F.El m (F.cell1d u i0 i1 gcw) [i - 1] x1 ∧ F.El m (F.cell1d u i0 i1 gcw) [i + 1] x2 ∧
        F.El m2 (F.cell1d res i0 i1 rgcw) [i] (c0 * x0 + c1 * x1 + c2 * x2) := by
  obtain ⟨m1, m2, c1, c2, -, -, -, W⟩ := op_v2_1 (alpha := alpha) (beta := beta) (dx := dx) hβ1 hβ2 hi hg hrgcw
    (h.sub (fun _ e => e) (by intro x hx; simp only [List.mem_cons, List.not_mem_nil, or_false] at hx ⊢; tauto)) hr
  have h3 : F.Args m [(F.face1d b0 i0 i1 0)] [(F.st1d st i0 i1 sgcw)] := h.sub (by intro x hx; simp only [List.mem_cons, List.not_mem_nil, or_false] at hx ⊢; tauto) (by intro x hx; simp only [List.mem_cons, List.not_mem_nil, or_false] at hx ⊢; tauto)
  obtain ⟨s1, q1, -, K1, S1⟩ := offdiag1_run (dx := dx) (beta := beta) hi hs ⟨le_rfl, le_rfl⟩ h3
  obtain ⟨s1', d1, e1⟩ := C36_offdiag_1d (dx := dx) (beta := beta) hβ3 hi ⟨le_rfl, le_rfl⟩ hs h3
  obtain rfl : s1 = s1' := Except.ok.inj (q1.symm.trans e1)
  have h4 : F.Args s1 [] [(F.st1d st i0 i1 sgcw)] := K1.args (h.sub (by simp) (by intro x hx; simp only [List.mem_cons, List.not_mem_nil, or_false] at hx ⊢; tauto))
  obtain ⟨s2, q2, -, K2, S2, S3⟩ := v2diag1_run (alpha := alpha) hi hs h4
  obtain ⟨s2', d2, e2⟩ := C36_v2diag_1d (alpha := alpha) hβ4 hi hs h4
  obtain rfl : s2 = s2' := Except.ok.inj (q2.symm.trans e2)
  refine ⟨m1, m2, s1, s2, c1, c2, d1, d2, fun i h0 h1 => ?_⟩
  have hst := K2.ok (K1.ok (h.ok (F.st1d st i0 i1 sgcw) (by simp)))
  have hu := h.ok (F.cell1d u i0 i1 gcw) (by simp)
  obtain ⟨t1, t2⟩ := S1 i h0 h1
  have t0 := (S2 i h0 h1).rd
  have r1 := S3 i 1 h0 h1 (by decide) (by decide)
  rw [t1.rd] at r1
  have r2 := S3 i 2 h0 h1 (by decide) (by decide)
  rw [t2.rd] at r2
  rw [t1.rd, t2.rd] at t0
  refine ⟨_, _, _, _, _, _, hst.rd (by in_bounds), hst.rd (by in_bounds), hst.rd (by in_bounds), hu.rd (by in_bounds), hu.rd (by in_bounds), hu.rd (by in_bounds), ?_⟩
  rw [r1, r2, t0]
  have w := W i h0 h1
  convert w using 1
  simp only [div_eq_mul_inv, mul_inv]
  ring

example : ∃ m1 m2 s1 s2, Cuda.flux1d 0 3 exDx ⟨2, 0⟩ 2 ⟨1, 0⟩ ⟨5, 0⟩ (fun _ => revBackend) exRat = .ok m1 ∧ Cuda.diffusionV2Apply1d 0 3 3 2 exDx 2 ⟨1, 0⟩ ⟨5, 0⟩ 1 ⟨8, 0⟩ (fun _ => seqBackend) m1 = .ok m2 ∧
      Cuda.offdiag1d 0 3 0 3 exDx 2 ⟨2, 0⟩ 1 ⟨9, 0⟩ revBackend exRat = .ok s1 ∧ Cuda.v2diag1d 0 3 3 1 ⟨9, 0⟩ seqBackend s1 = .ok s2 ∧
      ∀ i, 0 ≤ i → i ≤ 3 → ∃ c0 c1 c2 x0 x1 x2 : Rat,
        F.El s2 (F.st1d ⟨9, 0⟩ 0 3 1) [0, i] c0 ∧ F.El s2 (F.st1d ⟨9, 0⟩ 0 3 1) [1, i] c1 ∧ F.El s2 (F.st1d ⟨9, 0⟩ 0 3 1) [2, i] c2 ∧
        F.El exRat (F.cell1d ⟨1, 0⟩ 0 3 2) [i] x0 ∧ F.El exRat (F.cell1d ⟨1, 0⟩ 0 3 2) [i - 1] x1 ∧ F.El exRat (F.cell1d ⟨1, 0⟩ 0 3 2) [i + 1] x2 ∧
        F.El m2 (F.cell1d ⟨8, 0⟩ 0 3 1) [i] (c0 * x0 + c1 * x1 + c2 * x2) :=
  C38_v2_1d (fun _ => revBackend_ok) (fun _ => seqBackend_ok) revBackend_ok seqBackend_ok (by decide) (by decide) (by decide) (by decide) (by ex_args) (apart_blk (by decide))

/-- Running the Poisson flux kernel and then the `poissonV2Apply1d` kernel leaves, at every cell of the box, the sum over the cell and its 2
neighbours of the coefficients left by the off-diagonal and diagonal kernels times the unknown. -/
theorem C38_poisson_1d {i0 i1 gcw rgcw sgcw : Int} {beta : T} {dx : Nat → T} {u f0 res st : Ptr} {β1 β2 : Nat → Backend} {β3 β4 : Backend} {m : Mem T}
    (hβ1 : ∀ n, ValidBackend (β1 n)) (hβ2 : ∀ n, ValidBackend (β2 n)) (hβ3 : ValidBackend β3) (hβ4 : ValidBackend β4)
    (hi : i0 ≤ i1) (hg : 1 ≤ gcw) (hrgcw : 0 ≤ rgcw) (hs : 0 ≤ sgcw)
    (h : F.Args m [(F.cell1d u i0 i1 gcw)] [(F.face1d f0 i0 i1 0), (F.cell1d res i0 i1 rgcw), (F.st1d st i0 i1 sgcw)])
    (hr : F.Apart (F.cell1d res i0 i1 rgcw) (F.face1d f0 i0 i1 0)) :
    ∃ m1 m2 s1 s2, Cuda.poissonFlux1d i0 i1 dx gcw u f0 β1 m = .ok m1 ∧ Cuda.poissonV2Apply1d i0 i1 beta dx f0 rgcw res β2 m1 = .ok m2 ∧
      Cuda.poissonOffdiag1d i0 i1 dx beta sgcw st β3 m = .ok s1 ∧ Cuda.poissonDiag1d i0 i1 sgcw st β4 s1 = .ok s2 ∧
      ∀ i, i0 ≤ i → i ≤ i1 → ∃ c0 c1 c2 x0 x1 x2 : T,
        F.El s2 (F.st1d st i0 i1 sgcw) [0, i] c0 ∧ F.El s2 (F.st1d st i0 i1 sgcw) [1, i] c1 ∧ F.El s2 (F.st1d st i0 i1 sgcw) [2, i] c2 ∧
        F.El m (F.cell1d u i0 i1 gcw) [i] x0 ∧ F.El m (F.cell1d u i0 i1 gcw) [i - 1] x1 ∧ F.El m (F.cell1d u i0 i1 gcw) [i + 1] x2 ∧
        F.El m2 (F.cell1d res i0 i1 rgcw) [i] (c0 * x0 + c1 * x1 + c2 * x2) := by
  obtain ⟨m1, m2, c1, c2, -, -, -, W⟩ := op_p_1 (beta := beta) (dx := dx) hβ1 hβ2 hi hg hrgcw
    (h.sub (fun _ e => e) (by intro x hx; simp only [List.mem_cons, List.not_mem_nil, or_false] at hx ⊢; tauto)) hr
  have h3 : F.Args m [] [(F.st1d st i0 i1 sgcw)] := h.sub (by simp) (by intro x hx; simp only [List.mem_cons, List.not_mem_nil, or_false] at hx ⊢; tauto)
  obtain ⟨s1, q1, -, K1, S1⟩ := poffdiag1_run (dx := dx) (beta := beta) hi hs h3
  obtain ⟨s1', d1, e1⟩ := C36_poisson_offdiag_1d (dx := dx) (beta := beta) hβ3 hi hs h3
  obtain rfl : s1 = s1' := Except.ok.inj (q1.symm.trans e1)
  have h4 : F.Args s1 [] [(F.st1d st i0 i1 sgcw)] := K1.args (h.sub (by simp) (by intro x hx; simp only [List.mem_cons, List.not_mem_nil, or_false] at hx ⊢; tauto))
  obtain ⟨s2, q2, -, K2, S2, S3⟩ := pdiag1_run hi hs h4
  obtain ⟨s2', d2, e2⟩ := C36_poisson_diag_1d hβ4 hi hs h4
  obtain rfl : s2 = s2' := Except.ok.inj (q2.symm.trans e2)
  refine ⟨m1, m2, s1, s2, c1, c2, d1, d2, fun i h0 h1 => ?_⟩
  have hst := K2.ok (K1.ok (h.ok (F.st1d st i0 i1 sgcw) (by simp)))
  have hu := h.ok (F.cell1d u i0 i1 gcw) (by simp)
  obtain ⟨t1, t2⟩ := S1 i h0 h1
  have t0 := (S2 i h0 h1).rd
  have r1 := S3 i 1 h0 h1 (by decide) (by decide)
  rw [t1.rd] at r1
  have r2 := S3 i 2 h0 h1 (by decide) (by decide)
  rw [t2.rd] at r2
  rw [t1.rd, t2.rd] at t0
  refine ⟨_, _, _, _, _, _, hst.rd (by in_bounds), hst.rd (by in_bounds), hst.rd (by in_bounds), hu.rd (by in_bounds), hu.rd (by in_bounds), hu.rd (by in_bounds), ?_⟩
  rw [r1, r2, t0]
  have w := W i h0 h1
  convert w using 1
  simp only [div_eq_mul_inv, mul_inv]
  ring

example : ∃ m1 m2 s1 s2, Cuda.poissonFlux1d 0 3 exDx 2 ⟨1, 0⟩ ⟨5, 0⟩ (fun _ => revBackend) exRat = .ok m1 ∧ Cuda.poissonV2Apply1d 0 3 2 exDx ⟨5, 0⟩ 1 ⟨8, 0⟩ (fun _ => seqBackend) m1 = .ok m2 ∧
      Cuda.poissonOffdiag1d 0 3 exDx 2 1 ⟨9, 0⟩ revBackend exRat = .ok s1 ∧ Cuda.poissonDiag1d 0 3 1 ⟨9, 0⟩ seqBackend s1 = .ok s2 ∧
      ∀ i, 0 ≤ i → i ≤ 3 → ∃ c0 c1 c2 x0 x1 x2 : Rat,
        F.El s2 (F.st1d ⟨9, 0⟩ 0 3 1) [0, i] c0 ∧ F.El s2 (F.st1d ⟨9, 0⟩ 0 3 1) [1, i] c1 ∧ F.El s2 (F.st1d ⟨9, 0⟩ 0 3 1) [2, i] c2 ∧
        F.El exRat (F.cell1d ⟨1, 0⟩ 0 3 2) [i] x0 ∧ F.El exRat (F.cell1d ⟨1, 0⟩ 0 3 2) [i - 1] x1 ∧ F.El exRat (F.cell1d ⟨1, 0⟩ 0 3 2) [i + 1] x2 ∧
        F.El m2 (F.cell1d ⟨8, 0⟩ 0 3 1) [i] (c0 * x0 + c1 * x1 + c2 * x2) :=
  C38_poisson_1d (fun _ => revBackend_ok) (fun _ => seqBackend_ok) revBackend_ok seqBackend_ok (by decide) (by decide) (by decide) (by decide) (by ex_args) (apart_blk (by decide))

/-- Running the flux kernel and then the `diffusionV1Apply2d` kernel leaves, at every cell of the box, the sum over the cell and its 4
neighbours of the coefficients left by the off-diagonal and diagonal kernels times the unknown. -/
theorem C38_v1_2d {i0 j0 i1 j1 agcw gcw rgcw sgcw : Int} {alpha beta : T} {dx : Nat → T} {a u b0 b1 f0 f1 res st : Ptr} {β1 β2 : Nat → Backend} {β3 β4 : Backend} {m : Mem T}
    (hβ1 : ∀ n, ValidBackend (β1 n)) (hβ2 : ∀ n, ValidBackend (β2 n)) (hβ3 : ValidBackend β3) (hβ4 : ValidBackend β4)
    (hi : i0 ≤ i1) (hj : j0 ≤ j1) (hg : 1 ≤ gcw) (hagcw : 0 ≤ agcw) (hrgcw : 0 ≤ rgcw) (hs : 0 ≤ sgcw)
    (h : F.Args m [(F.cell2d a i0 j0 i1 j1 agcw), (F.cell2d u i0 j0 i1 j1 gcw), (F.face2d0 b0 i0 j0 i1 j1 0), (F.face2d1 b1 i0 j0 i1 j1 0)] [(F.face2d0 f0 i0 j0 i1 j1 0), (F.face2d1 f1 i0 j0 i1 j1 0), (F.cell2d res i0 j0 i1 j1 rgcw), (F.st2d st i0 j0 i1 j1 sgcw)])
    (hp : F.Apart (F.face2d0 f0 i0 j0 i1 j1 0) (F.face2d1 f1 i0 j0 i1 j1 0))
    (hr : F.Apart (F.cell2d res i0 j0 i1 j1 rgcw) (F.face2d0 f0 i0 j0 i1 j1 0) ∧ F.Apart (F.cell2d res i0 j0 i1 j1 rgcw) (F.face2d1 f1 i0 j0 i1 j1 0)) :
    ∃ m1 m2 s1 s2, Cuda.flux2d i0 j0 i1 j1 dx b0 b1 gcw u f0 f1 β1 m = .ok m1 ∧ Cuda.diffusionV1Apply2d i0 i1 j0 j1 alpha beta dx agcw a gcw u f0 f1 rgcw res β2 m1 = .ok m2 ∧
      Cuda.offdiag2d i0 j0 i1 j1 i0 j0 i1 j1 dx beta b0 b1 sgcw st β3 m = .ok s1 ∧ Cuda.v1diag2d i0 j0 i1 j1 (i0 - agcw) (j0 - agcw) (i1 + agcw) (j1 + agcw) alpha a sgcw st β4 s1 = .ok s2 ∧
      ∀ i j, i0 ≤ i → i ≤ i1 → j0 ≤ j → j ≤ j1 → ∃ c0 c1 c2 c3 c4 x0 x1 x2 x3 x4 : T,
        F.El s2 (F.st2d st i0 j0 i1 j1 sgcw) [0, i, j] c0 ∧ F.El s2 (F.st2d st i0 j0 i1 j1 sgcw) [1, i, j] c1 ∧ F.El s2 (F.st2d st i0 j0 i1 j1 sgcw) [2, i, j] c2 ∧ F.El s2 (F.st2d st i0 j0 i1 j1 sgcw) [3, i, j] c3 ∧ F.El s2 (F.st2d st i0 j0 i1 j1 sgcw) [4, i, j] c4 ∧
        F.El m (F.cell2d u i0 j0 i1 j1 gcw) [i, j] x0 ∧ F.El m (F.cell2d u i0 j0 i1 j1 gcw) [i - 1, j] x1 ∧ F.El m (F.cell2d u i0 j0 i1 j1 gcw) [i + 1, j] x2 ∧ F.El m (F.cell2d u i0 j0 i1 j1 gcw) [i, j - 1] x3 ∧ F.El m (F.cell2d u i0 j0 i1 j1 gcw) [i, j + 1] x4 ∧
        F.El m2 (F.cell2d res i0 j0 i1 j1 rgcw) [i, j] (c0 * x0 + c1 * x1 + c2 * x2 + c3 * x3 + c4 * x4) := by
  obtain ⟨m1, m2, c1, c2, -, -, -, -, W⟩ := op_v1_2 (alpha := alpha) (beta := beta) (dx := dx) hβ1 hβ2 hi hj hg hagcw hrgcw
    (h.sub (fun _ e => e) (by intro x hx; simp only [List.mem_cons, List.not_mem_nil, or_false] at hx ⊢; tauto)) hp hr
  have h3 : F.Args m [(F.face2d0 b0 i0 j0 i1 j1 0), (F.face2d1 b1 i0 j0 i1 j1 0)] [(F.st2d st i0 j0 i1 j1 sgcw)] := h.sub (by intro x hx; simp only [List.mem_cons, List.not_mem_nil, or_false] at hx ⊢; tauto) (by intro x hx; simp only [List.mem_cons, List.not_mem_nil, or_false] at hx ⊢; tauto)
  obtain ⟨s1, q1, -, K1, S1⟩ := offdiag2_run (dx := dx) (beta := beta) hi hj hs ⟨le_rfl, le_rfl⟩ ⟨le_rfl, le_rfl⟩ h3
  obtain ⟨s1', d1, e1⟩ := C36_offdiag_2d (dx := dx) (beta := beta) hβ3 hi hj ⟨le_rfl, le_rfl⟩ ⟨le_rfl, le_rfl⟩ hs h3
  obtain rfl : s1 = s1' := Except.ok.inj (q1.symm.trans e1)
  have ea : (F.cell2d a (i0 - agcw) (j0 - agcw) (i1 + agcw) (j1 + agcw) 0) = (F.cell2d a i0 j0 i1 j1 agcw) := by simp [F.cell2d]
  have h4 : F.Args s1 [(F.cell2d a (i0 - agcw) (j0 - agcw) (i1 + agcw) (j1 + agcw) 0)] [(F.st2d st i0 j0 i1 j1 sgcw)] := by rw [ea]; exact K1.args (h.sub (by intro x hx; simp only [List.mem_cons, List.not_mem_nil, or_false] at hx ⊢; tauto) (by intro x hx; simp only [List.mem_cons, List.not_mem_nil, or_false] at hx ⊢; tauto))
  obtain ⟨s2, q2, -, K2, S2, S3⟩ := v1diag2_run (alpha := alpha) hi hj hs ⟨by omega, by omega⟩ ⟨by omega, by omega⟩ h4
  obtain ⟨s2', d2, e2⟩ := C36_v1diag_2d (alpha := alpha) hβ4 hi hj ⟨by omega, by omega⟩ ⟨by omega, by omega⟩ hs h4
  obtain rfl : s2 = s2' := Except.ok.inj (q2.symm.trans e2)
  refine ⟨m1, m2, s1, s2, c1, c2, d1, d2, fun i j h0 h1 h2 h3 => ?_⟩
  have hst := K2.ok (K1.ok (h.ok (F.st2d st i0 j0 i1 j1 sgcw) (by simp)))
  have hu := h.ok (F.cell2d u i0 j0 i1 j1 gcw) (by simp)
  obtain ⟨t1, t2, t3, t4⟩ := S1 i j h0 h1 h2 h3
  have t0 := (S2 i j h0 h1 h2 h3).rd
  have r1 := S3 i j 1 h0 h1 h2 h3 (by decide) (by decide)
  rw [t1.rd] at r1
  have r2 := S3 i j 2 h0 h1 h2 h3 (by decide) (by decide)
  rw [t2.rd] at r2
  have r3 := S3 i j 3 h0 h1 h2 h3 (by decide) (by decide)
  rw [t3.rd] at r3
  have r4 := S3 i j 4 h0 h1 h2 h3 (by decide) (by decide)
  rw [t4.rd] at r4
  rw [t1.rd, t2.rd, t3.rd, t4.rd] at t0
  have ra : F.rd s1 (F.cell2d a i0 j0 i1 j1 agcw) [i, j] = F.rd m (F.cell2d a i0 j0 i1 j1 agcw) [i, j] := K1.rd (by simp only [List.mem_cons, List.not_mem_nil, or_false, forall_eq]; exact h.apart _ (by simp) _ (by simp)) (by in_bounds)
  rw [ea, ra] at t0
  refine ⟨_, _, _, _, _, _, _, _, _, _, hst.rd (by in_bounds), hst.rd (by in_bounds), hst.rd (by in_bounds), hst.rd (by in_bounds), hst.rd (by in_bounds), hu.rd (by in_bounds), hu.rd (by in_bounds), hu.rd (by in_bounds), hu.rd (by in_bounds), hu.rd (by in_bounds), ?_⟩
  rw [r1, r2, r3, r4, t0]
  have w := W i j h0 h1 h2 h3
  convert w using 1
  simp only [div_eq_mul_inv, mul_inv]
  ring

example : ∃ m1 m2 s1 s2, Cuda.flux2d 0 1 2 3 exDx ⟨2, 0⟩ ⟨3, 0⟩ 2 ⟨1, 0⟩ ⟨5, 0⟩ ⟨6, 0⟩ (fun _ => revBackend) exRat = .ok m1 ∧ Cuda.diffusionV1Apply2d 0 2 1 3 3 2 exDx 1 ⟨0, 0⟩ 2 ⟨1, 0⟩ ⟨5, 0⟩ ⟨6, 0⟩ 1 ⟨8, 0⟩ (fun _ => seqBackend) m1 = .ok m2 ∧
      Cuda.offdiag2d 0 1 2 3 0 1 2 3 exDx 2 ⟨2, 0⟩ ⟨3, 0⟩ 1 ⟨9, 0⟩ revBackend exRat = .ok s1 ∧ Cuda.v1diag2d 0 1 2 3 (0 - 1) (1 - 1) (2 + 1) (3 + 1) 3 ⟨0, 0⟩ 1 ⟨9, 0⟩ seqBackend s1 = .ok s2 ∧
      ∀ i j, 0 ≤ i → i ≤ 2 → 1 ≤ j → j ≤ 3 → ∃ c0 c1 c2 c3 c4 x0 x1 x2 x3 x4 : Rat,
        F.El s2 (F.st2d ⟨9, 0⟩ 0 1 2 3 1) [0, i, j] c0 ∧ F.El s2 (F.st2d ⟨9, 0⟩ 0 1 2 3 1) [1, i, j] c1 ∧ F.El s2 (F.st2d ⟨9, 0⟩ 0 1 2 3 1) [2, i, j] c2 ∧ F.El s2 (F.st2d ⟨9, 0⟩ 0 1 2 3 1) [3, i, j] c3 ∧ F.El s2 (F.st2d ⟨9, 0⟩ 0 1 2 3 1) [4, i, j] c4 ∧
        F.El exRat (F.cell2d ⟨1, 0⟩ 0 1 2 3 2) [i, j] x0 ∧ F.El exRat (F.cell2d ⟨1, 0⟩ 0 1 2 3 2) [i - 1, j] x1 ∧ F.El exRat (F.cell2d ⟨1, 0⟩ 0 1 2 3 2) [i + 1, j] x2 ∧ F.El exRat (F.cell2d ⟨1, 0⟩ 0 1 2 3 2) [i, j - 1] x3 ∧ F.El exRat (F.cell2d ⟨1, 0⟩ 0 1 2 3 2) [i, j + 1] x4 ∧
        F.El m2 (F.cell2d ⟨8, 0⟩ 0 1 2 3 1) [i, j] (c0 * x0 + c1 * x1 + c2 * x2 + c3 * x3 + c4 * x4) :=
  C38_v1_2d (fun _ => revBackend_ok) (fun _ => seqBackend_ok) revBackend_ok seqBackend_ok (by decide) (by decide) (by decide) (by decide) (by decide) (by decide) (by ex_args) (apart_blk (by decide)) ⟨apart_blk (by decide), apart_blk (by decide)⟩

/-- Running the flux kernel and then the `diffusionV2Apply2d` kernel leaves, at every cell of the box, the sum over the cell and its 4
neighbours of the coefficients left by the off-diagonal and diagonal kernels times the unknown. -/
theorem C38_v2_2d {i0 j0 i1 j1 gcw rgcw sgcw : Int} {alpha beta : T} {dx : Nat → T} {u b0 b1 f0 f1 res st : Ptr} {β1 β2 : Nat → Backend} {β3 β4 : Backend} {m : Mem T}
    (hβ1 : ∀ n, ValidBackend (β1 n)) (hβ2 : ∀ n, ValidBackend (β2 n)) (hβ3 : ValidBackend β3) (hβ4 : ValidBackend β4)
    (hi : i0 ≤ i1) (hj : j0 ≤ j1) (hg : 1 ≤ gcw) (hrgcw : 0 ≤ rgcw) (hs : 0 ≤ sgcw)
    (h : F.Args m [(F.cell2d u i0 j0 i1 j1 gcw), (F.face2d0 b0 i0 j0 i1 j1 0), (F.face2d1 b1 i0 j0 i1 j1 0)] [(F.face2d0 f0 i0 j0 i1 j1 0), (F.face2d1 f1 i0 j0 i1 j1 0), (F.cell2d res i0 j0 i1 j1 rgcw), (F.st2d st i0 j0 i1 j1 sgcw)])
    (hp : F.Apart (F.face2d0 f0 i0 j0 i1 j1 0) (F.face2d1 f1 i0 j0 i1 j1 0))
    (hr : F.Apart (F.cell2d res i0 j0 i1 j1 rgcw) (F.face2d0 f0 i0 j0 i1 j1 0) ∧ F.Apart (F.cell2d res i0 j0 i1 j1 rgcw) (F.face2d1 f1 i0 j0 i1 j1 0)) :
    ∃ m1 m2 s1 s2, Cuda.flux2d i0 j0 i1 j1 dx b0 b1 gcw u f0 f1 β1 m = .ok m1 ∧ Cuda.diffusionV2Apply2d i0 i1 j0 j1 alpha beta dx gcw u f0 f1 rgcw res β2 m1 = .ok m2 ∧
      Cuda.offdiag2d i0 j0 i1 j1 i0 j0 i1 j1 dx beta b0 b1 sgcw st β3 m = .ok s1 ∧ Cuda.v2diag2d i0 j0 i1 j1 alpha sgcw st β4 s1 = .ok s2 ∧
      ∀ i j, i0 ≤ i → i ≤ i1 → j0 ≤ j → j ≤ j1 → ∃ c0 c1 c2 c3 c4 x0 x1 x2 x3 x4 : T,
        F.El s2 (F.st2d st i0 j0 i1 j1 sgcw) [0, i, j] c0 ∧ F.El s2 (F.st2d st i0 j0 i1 j1 sgcw) [1, i, j] c1 ∧ F.El s2 (F.st2d st i0 j0 i1 j1 sgcw) [2, i, j] c2 ∧ F.El s2 (F.st2d st i0 j0 i1 j1 sgcw) [3, i, j] c3 ∧ F.El s2 (F.st2d st i0 j0 i1 j1 sgcw) [4, i, j] c4 ∧
        F.El m (F.cell2d u i0 j0 i1 j1 gcw) [i, j] x0 ∧ F.El m (F.cell2d u i0 j0 i1 j1 gcw) [i - 1, j] x1 ∧ F.El m (F.cell2d u i0 j0 i1 j1 gcw) [i + 1, j] x2 ∧ F.El m (F.cell2d u i0 j0 i1 j1 gcw) [i, j - 1] x3 ∧ F.El m (F.cell2d u i0 j0 i1 j1 gcw) [i, j + 1] x4 ∧
        F.El m2 (F.cell2d res i0 j0 i1 j1 rgcw) [i, j] (c0 * x0 + c1 * x1 + c2 * x2 + c3 * x3 + c4 * x4) := by
  obtain ⟨m1, m2, c1, c2, -, -, -, -, W⟩ := op_v2_2 (alpha := alpha) (beta := beta) (dx := dx) hβ1 hβ2 hi hj hg hrgcw
    (h.sub (fun _ e => e) (by intro x hx; simp only [List.mem_cons, List.not_mem_nil, or_false] at hx ⊢; tauto)) hp hr
  have h3 : F.Args m [(F.face2d0 b0 i0 j0 i1 j1 0), (F.face2d1 b1 i0 j0 i1 j1 0)] [(F.st2d st i0 j0 i1 j1 sgcw)] := h.sub (by intro x hx; simp only [List.mem_cons, List.not_mem_nil, or_false] at hx ⊢; tauto) (by intro x hx; simp only [List.mem_cons, List.not_mem_nil, or_false] at hx ⊢; tauto)
  obtain ⟨s1, q1, -, K1, S1⟩ := offdiag2_run (dx := dx) (beta := beta) hi hj hs ⟨le_rfl, le_rfl⟩ ⟨le_rfl, le_rfl⟩ h3
  obtain ⟨s1', d1, e1⟩ := C36_offdiag_2d (dx := dx) (beta := beta) hβ3 hi hj ⟨le_rfl, le_rfl⟩ ⟨le_rfl, le_rfl⟩ hs h3
  obtain rfl : s1 = s1' := Except.ok.inj (q1.symm.trans e1)
  have h4 : F.Args s1 [] [(F.st2d st i0 j0 i1 j1 sgcw)] := K1.args (h.sub (by simp) (by intro x hx; simp only [List.mem_cons, List.not_mem_nil, or_false] at hx ⊢; tauto))
  obtain ⟨s2, q2, -, K2, S2, S3⟩ := v2diag2_run (alpha := alpha) hi hj hs h4
  obtain ⟨s2', d2, e2⟩ := C36_v2diag_2d (alpha := alpha) hβ4 hi hj hs h4
  obtain rfl : s2 = s2' := Except.ok.inj (q2.symm.trans e2)
  refine ⟨m1, m2, s1, s2, c1, c2, d1, d2, fun i j h0 h1 h2 h3 => ?_⟩
  have hst := K2.ok (K1.ok (h.ok (F.st2d st i0 j0 i1 j1 sgcw) (by simp)))
  have hu := h.ok (F.cell2d u i0 j0 i1 j1 gcw) (by simp)
  obtain ⟨t1, t2, t3, t4⟩ := S1 i j h0 h1 h2 h3
  have t0 := (S2 i j h0 h1 h2 h3).rd
  have r1 := S3 i j 1 h0 h1 h2 h3 (by decide) (by decide)
  rw [t1.rd] at r1
  have r2 := S3 i j 2 h0 h1 h2 h3 (by decide) (by decide)
  rw [t2.rd] at r2
  have r3 := S3 i j 3 h0 h1 h2 h3 (by decide) (by decide)
  rw [t3.rd] at r3
  have r4 := S3 i j 4 h0 h1 h2 h3 (by decide) (by decide)
  rw [t4.rd] at r4
  rw [t1.rd, t2.rd, t3.rd, t4.rd] at t0
  refine ⟨_, _, _, _, _, _, _, _, _, _, hst.rd (by in_bounds), hst.rd (by in_bounds), hst.rd (by in_bounds), hst.rd (by in_bounds), hst.rd (by in_bounds), hu.rd (by in_bounds), hu.rd (by in_bounds), hu.rd (by in_bounds), hu.rd (by in_bounds), hu.rd (by in_bounds), ?_⟩
  rw [r1, r2, r3, r4, t0]
  have w := W i j h0 h1 h2 h3
  convert w using 1
  simp only [div_eq_mul_inv, mul_inv]
  ring

example : ∃ m1 m2 s1 s2, Cuda.flux2d 0 1 2 3 exDx ⟨2, 0⟩ ⟨3, 0⟩ 2 ⟨1, 0⟩ ⟨5, 0⟩ ⟨6, 0⟩ (fun _ => revBackend) exRat = .ok m1 ∧ Cuda.diffusionV2Apply2d 0 2 1 3 3 2 exDx 2 ⟨1, 0⟩ ⟨5, 0⟩ ⟨6, 0⟩ 1 ⟨8, 0⟩ (fun _ => seqBackend) m1 = .ok m2 ∧
      Cuda.offdiag2d 0 1 2 3 0 1 2 3 exDx 2 ⟨2, 0⟩ ⟨3, 0⟩ 1 ⟨9, 0⟩ revBackend exRat = .ok s1 ∧ Cuda.v2diag2d 0 1 2 3 3 1 ⟨9, 0⟩ seqBackend s1 = .ok s2 ∧
      ∀ i j, 0 ≤ i → i ≤ 2 → 1 ≤ j → j ≤ 3 → ∃ c0 c1 c2 c3 c4 x0 x1 x2 x3 x4 : Rat,
        F.El s2 (F.st2d ⟨9, 0⟩ 0 1 2 3 1) [0, i, j] c0 ∧ F.El s2 (F.st2d ⟨9, 0⟩ 0 1 2 3 1) [1, i, j] c1 ∧ F.El s2 (F.st2d ⟨9, 0⟩ 0 1 2 3 1) [2, i, j] c2 ∧ F.El s2 (F.st2d ⟨9, 0⟩ 0 1 2 3 1) [3, i, j] c3 ∧ F.El s2 (F.st2d ⟨9, 0⟩ 0 1 2 3 1) [4, i, j] c4 ∧
        F.El exRat (F.cell2d ⟨1, 0⟩ 0 1 2 3 2) [i, j] x0 ∧ F.El exRat (F.cell2d ⟨1, 0⟩ 0 1 2 3 2) [i - 1, j] x1 ∧ F.El exRat (F.cell2d ⟨1, 0⟩ 0 1 2 3 2) [i + 1, j] x2 ∧ F.El exRat (F.cell2d ⟨1, 0⟩ 0 1 2 3 2) [i, j - 1] x3 ∧ F.El exRat (F.cell2d ⟨1, 0⟩ 0 1 2 3 2) [i, j + 1] x4 ∧
        F.El m2 (F.cell2d ⟨8, 0⟩ 0 1 2 3 1) [i, j] (c0 * x0 + c1 * x1 + c2 * x2 + c3 * x3 + c4 * x4) :=
  C38_v2_2d (fun _ => revBackend_ok) (fun _ => seqBackend_ok) revBackend_ok seqBackend_ok (by decide) (by decide) (by decide) (by decide) (by decide) (by ex_args) (apart_blk (by decide)) ⟨apart_blk (by decide), apart_blk (by decide)⟩

/-- Running the Poisson flux kernel and then the `poissonV2Apply2d` kernel leaves, at every cell of the box, the sum over the cell and its 4
neighbours of the coefficients left by the off-diagonal and diagonal kernels times the unknown. -/
theorem C38_poisson_2d {i0 j0 i1 j1 gcw rgcw sgcw : Int} {beta : T} {dx : Nat → T} {u f0 f1 res st : Ptr} {β1 β2 : Nat → Backend} {β3 β4 : Backend} {m : Mem T}
    (hβ1 : ∀ n, ValidBackend (β1 n)) (hβ2 : ∀ n, ValidBackend (β2 n)) (hβ3 : ValidBackend β3) (hβ4 : ValidBackend β4)
    (hi : i0 ≤ i1) (hj : j0 ≤ j1) (hg : 1 ≤ gcw) (hrgcw : 0 ≤ rgcw) (hs : 0 ≤ sgcw)
    (h : F.Args m [(F.cell2d u i0 j0 i1 j1 gcw)] [(F.face2d0 f0 i0 j0 i1 j1 0), (F.face2d1 f1 i0 j0 i1 j1 0), (F.cell2d res i0 j0 i1 j1 rgcw), (F.st2d st i0 j0 i1 j1 sgcw)])
    (hp : F.Apart (F.face2d0 f0 i0 j0 i1 j1 0) (F.face2d1 f1 i0 j0 i1 j1 0))
    (hr : F.Apart (F.cell2d res i0 j0 i1 j1 rgcw) (F.face2d0 f0 i0 j0 i1 j1 0) ∧ F.Apart (F.cell2d res i0 j0 i1 j1 rgcw) (F.face2d1 f1 i0 j0 i1 j1 0)) :
    ∃ m1 m2 s1 s2, Cuda.poissonFlux2d i0 j0 i1 j1 dx gcw u f0 f1 β1 m = .ok m1 ∧ Cuda.poissonV2Apply2d i0 i1 j0 j1 beta dx f0 f1 rgcw res β2 m1 = .ok m2 ∧
      Cuda.poissonOffdiag2d i0 j0 i1 j1 dx beta sgcw st β3 m = .ok s1 ∧ Cuda.poissonDiag2d i0 j0 i1 j1 sgcw st β4 s1 = .ok s2 ∧
      ∀ i j, i0 ≤ i → i ≤ i1 → j0 ≤ j → j ≤ j1 → ∃ c0 c1 c2 c3 c4 x0 x1 x2 x3 x4 : T,
        F.El s2 (F.st2d st i0 j0 i1 j1 sgcw) [0, i, j] c0 ∧ F.El s2 (F.st2d st i0 j0 i1 j1 sgcw) [1, i, j] c1 ∧ F.El s2 (F.st2d st i0 j0 i1 j1 sgcw) [2, i, j] c2 ∧ F.El s2 (F.st2d st i0 j0 i1 j1 sgcw) [3, i, j] c3 ∧ F.El s2 (F.st2d st i0 j0 i1 j1 sgcw) [4, i, j] c4 ∧
        F.El m (F.cell2d u i0 j0 i1 j1 gcw) [i, j] x0 ∧ F.El m (F.cell2d u i0 j0 i1 j1 gcw) [i - 1, j] x1 ∧ F.El m (F.cell2d u i0 j0 i1 j1 gcw) [i + 1, j] x2 ∧ F.El m (F.cell2d u i0 j0 i1 j1 gcw) [i, j - 1] x3 ∧ F.El m (F.cell2d u i0 j0 i1 j1 gcw) [i, j + 1] x4 ∧
        F.El m2 (F.cell2d res i0 j0 i1 j1 rgcw) [i, j] (c0 * x0 + c1 * x1 + c2 * x2 + c3 * x3 + c4 * x4) := by
  obtain ⟨m1, m2, c1, c2, -, -, -, -, W⟩ := op_p_2 (beta := beta) (dx := dx) hβ1 hβ2 hi hj hg hrgcw
    (h.sub (fun _ e => e) (by intro x hx; simp only [List.mem_cons, List.not_mem_nil, or_false] at hx ⊢; tauto)) hp hr
  have h3 : F.Args m [] [(F.st2d st i0 j0 i1 j1 sgcw)] := h.sub (by simp) (by intro x hx; simp only [List.mem_cons, List.not_mem_nil, or_false] at hx ⊢; tauto)
  obtain ⟨s1, q1, -, K1, S1⟩ := poffdiag2_run (dx := dx) (beta := beta) hi hj hs h3
  obtain ⟨s1', d1, e1⟩ := C36_poisson_offdiag_2d (dx := dx) (beta := beta) hβ3 hi hj hs h3
  obtain rfl : s1 = s1' := Except.ok.inj (q1.symm.trans e1)
  have h4 : F.Args s1 [] [(F.st2d st i0 j0 i1 j1 sgcw)] := K1.args (h.sub (by simp) (by intro x hx; simp only [List.mem_cons, List.not_mem_nil, or_false] at hx ⊢; tauto))
  obtain ⟨s2, q2, -, K2, S2, S3⟩ := pdiag2_run hi hj hs h4
  obtain ⟨s2', d2, e2⟩ := C36_poisson_diag_2d hβ4 hi hj hs h4
  obtain rfl : s2 = s2' := Except.ok.inj (q2.symm.trans e2)
  refine ⟨m1, m2, s1, s2, c1, c2, d1, d2, fun i j h0 h1 h2 h3 => ?_⟩
  have hst := K2.ok (K1.ok (h.ok (F.st2d st i0 j0 i1 j1 sgcw) (by simp)))
  have hu := h.ok (F.cell2d u i0 j0 i1 j1 gcw) (by simp)
  obtain ⟨t1, t2, t3, t4⟩ := S1 i j h0 h1 h2 h3
  have t0 := (S2 i j h0 h1 h2 h3).rd
  have r1 := S3 i j 1 h0 h1 h2 h3 (by decide) (by decide)
  rw [t1.rd] at r1
  have r2 := S3 i j 2 h0 h1 h2 h3 (by decide) (by decide)
  rw [t2.rd] at r2
  have r3 := S3 i j 3 h0 h1 h2 h3 (by decide) (by decide)
  rw [t3.rd] at r3
  have r4 := S3 i j 4 h0 h1 h2 h3 (by decide) (by decide)
  rw [t4.rd] at r4
  rw [t1.rd, t2.rd, t3.rd, t4.rd] at t0
  refine ⟨_, _, _, _, _, _, _, _, _, _, hst.rd (by in_bounds), hst.rd (by in_bounds), hst.rd (by in_bounds), hst.rd (by in_bounds), hst.rd (by in_bounds), hu.rd (by in_bounds), hu.rd (by in_bounds), hu.rd (by in_bounds), hu.rd (by in_bounds), hu.rd (by in_bounds), ?_⟩
  rw [r1, r2, r3, r4, t0]
  have w := W i j h0 h1 h2 h3
  convert w using 1
  simp only [div_eq_mul_inv, mul_inv]
  ring

example : ∃ m1 m2 s1 s2, Cuda.poissonFlux2d 0 1 2 3 exDx 2 ⟨1, 0⟩ ⟨5, 0⟩ ⟨6, 0⟩ (fun _ => revBackend) exRat = .ok m1 ∧ Cuda.poissonV2Apply2d 0 2 1 3 2 exDx ⟨5, 0⟩ ⟨6, 0⟩ 1 ⟨8, 0⟩ (fun _ => seqBackend) m1 = .ok m2 ∧
      Cuda.poissonOffdiag2d 0 1 2 3 exDx 2 1 ⟨9, 0⟩ revBackend exRat = .ok s1 ∧ Cuda.poissonDiag2d 0 1 2 3 1 ⟨9, 0⟩ seqBackend s1 = .ok s2 ∧
      ∀ i j, 0 ≤ i → i ≤ 2 → 1 ≤ j → j ≤ 3 → ∃ c0 c1 c2 c3 c4 x0 x1 x2 x3 x4 : Rat,
        F.El s2 (F.st2d ⟨9, 0⟩ 0 1 2 3 1) [0, i, j] c0 ∧ F.El s2 (F.st2d ⟨9, 0⟩ 0 1 2 3 1) [1, i, j] c1 ∧ F.El s2 (F.st2d ⟨9, 0⟩ 0 1 2 3 1) [2, i, j] c2 ∧ F.El s2 (F.st2d ⟨9, 0⟩ 0 1 2 3 1) [3, i, j] c3 ∧ F.El s2 (F.st2d ⟨9, 0⟩ 0 1 2 3 1) [4, i, j] c4 ∧
        F.El exRat (F.cell2d ⟨1, 0⟩ 0 1 2 3 2) [i, j] x0 ∧ F.El exRat (F.cell2d ⟨1, 0⟩ 0 1 2 3 2) [i - 1, j] x1 ∧ F.El exRat (F.cell2d ⟨1, 0⟩ 0 1 2 3 2) [i + 1, j] x2 ∧ F.El exRat (F.cell2d ⟨1, 0⟩ 0 1 2 3 2) [i, j - 1] x3 ∧ F.El exRat (F.cell2d ⟨1, 0⟩ 0 1 2 3 2) [i, j + 1] x4 ∧
        F.El m2 (F.cell2d ⟨8, 0⟩ 0 1 2 3 1) [i, j] (c0 * x0 + c1 * x1 + c2 * x2 + c3 * x3 + c4 * x4) :=
  C38_poisson_2d (fun _ => revBackend_ok) (fun _ => seqBackend_ok) revBackend_ok seqBackend_ok (by decide) (by decide) (by decide) (by decide) (by decide) (by ex_args) (apart_blk (by decide)) ⟨apart_blk (by decide), apart_blk (by decide)⟩

/-- Running the flux kernel and then the `diffusionV1Apply3d` kernel leaves, at every cell of the box, the sum over the cell and its 6
neighbours of the coefficients left by the off-diagonal and diagonal kernels times the unknown. -/
theorem C38_v1_3d {i0 j0 k0 i1 j1 k1 agcw gcw rgcw sgcw : Int} {alpha beta : T} {dx : Nat → T} {a u b0 b1 b2 f0 f1 f2 res st : Ptr} {β1 β2 : Nat → Backend} {β3 β4 : Backend} {m : Mem T}
    (hβ1 : ∀ n, ValidBackend (β1 n)) (hβ2 : ∀ n, ValidBackend (β2 n)) (hβ3 : ValidBackend β3) (hβ4 : ValidBackend β4)
    (hi : i0 ≤ i1) (hj : j0 ≤ j1) (hk : k0 ≤ k1) (hg : 1 ≤ gcw) (hagcw : 0 ≤ agcw) (hrgcw : 0 ≤ rgcw) (hs : 0 ≤ sgcw)
    (h : F.Args m [(F.cell3d a i0 j0 k0 i1 j1 k1 agcw), (F.cell3d u i0 j0 k0 i1 j1 k1 gcw), (F.face3d0 b0 i0 j0 k0 i1 j1 k1 0), (F.face3d1 b1 i0 j0 k0 i1 j1 k1 0), (F.face3d2 b2 i0 j0 k0 i1 j1 k1 0)] [(F.face3d0 f0 i0 j0 k0 i1 j1 k1 0), (F.face3d1 f1 i0 j0 k0 i1 j1 k1 0), (F.face3d2 f2 i0 j0 k0 i1 j1 k1 0), (F.cell3d res i0 j0 k0 i1 j1 k1 rgcw), (F.st3d st i0 j0 k0 i1 j1 k1 sgcw)])
    (hp : F.Apart (F.face3d0 f0 i0 j0 k0 i1 j1 k1 0) (F.face3d1 f1 i0 j0 k0 i1 j1 k1 0) ∧ F.Apart (F.face3d0 f0 i0 j0 k0 i1 j1 k1 0) (F.face3d2 f2 i0 j0 k0 i1 j1 k1 0) ∧ F.Apart (F.face3d1 f1 i0 j0 k0 i1 j1 k1 0) (F.face3d2 f2 i0 j0 k0 i1 j1 k1 0))
    (hr : F.Apart (F.cell3d res i0 j0 k0 i1 j1 k1 rgcw) (F.face3d0 f0 i0 j0 k0 i1 j1 k1 0) ∧ F.Apart (F.cell3d res i0 j0 k0 i1 j1 k1 rgcw) (F.face3d1 f1 i0 j0 k0 i1 j1 k1 0) ∧ F.Apart (F.cell3d res i0 j0 k0 i1 j1 k1 rgcw) (F.face3d2 f2 i0 j0 k0 i1 j1 k1 0)) :
    ∃ m1 m2 s1 s2, Cuda.flux3d i0 j0 k0 i1 j1 k1 dx b0 b1 b2 gcw u f0 f1 f2 β1 m = .ok m1 ∧ Cuda.diffusionV1Apply3d i0 i1 j0 j1 k0 k1 alpha beta dx agcw a gcw u f0 f1 f2 rgcw res β2 m1 = .ok m2 ∧
      Cuda.offdiag3d i0 j0 k0 i1 j1 k1 i0 j0 k0 i1 j1 k1 dx beta b0 b1 b2 sgcw st β3 m = .ok s1 ∧ Cuda.v1diag3d i0 j0 k0 i1 j1 k1 (i0 - agcw) (j0 - agcw) (k0 - agcw) (i1 + agcw) (j1 + agcw) (k1 + agcw) alpha a sgcw st β4 s1 = .ok s2 ∧
      ∀ i j k, i0 ≤ i → i ≤ i1 → j0 ≤ j → j ≤ j1 → k0 ≤ k → k ≤ k1 → ∃ c0 c1 c2 c3 c4 c5 c6 x0 x1 x2 x3 x4 x5 x6 : T,
        F.El s2 (F.st3d st i0 j0 k0 i1 j1 k1 sgcw) [0, i, j, k] c0 ∧ F.El s2 (F.st3d st i0 j0 k0 i1 j1 k1 sgcw) [1, i, j, k] c1 ∧ F.El s2 (F.st3d st i0 j0 k0 i1 j1 k1 sgcw) [2, i, j, k] c2 ∧ F.El s2 (F.st3d st i0 j0 k0 i1 j1 k1 sgcw) [3, i, j, k] c3 ∧ F.El s2 (F.st3d st i0 j0 k0 i1 j1 k1 sgcw) [4, i, j, k] c4 ∧ F.El s2 (F.st3d st i0 j0 k0 i1 j1 k1 sgcw) [5, i, j, k] c5 ∧ F.El s2 (F.st3d st i0 j0 k0 i1 j1 k1 sgcw) [6, i, j, k] c6 ∧
        F.El m (F.cell3d u i0 j0 k0 i1 j1 k1 gcw) [i, j, k] x0 ∧ F.El m (F.cell3d u i0 j0 k0 i1 j1 k1 gcw) [i - 1, j, k] x1 ∧ F.El m (F.cell3d u i0 j0 k0 i1 j1 k1 gcw) [i + 1, j, k] x2 ∧ F.El m (F.cell3d u i0 j0 k0 i1 j1 k1 gcw) [i, j - 1, k] x3 ∧ F.El m (F.cell3d u i0 j0 k0 i1 j1 k1 gcw) [i, j + 1, k] x4 ∧ F.El m (F.cell3d u i0 j0 k0 i1 j1 k1 gcw) [i, j, k - 1] x5 ∧ F.El m (F.cell3d u i0 j0 k0 i1 j1 k1 gcw) [i, j, k + 1] x6 ∧
        F.El m2 (F.cell3d res i0 j0 k0 i1 j1 k1 rgcw) [i, j, k] (c0 * x0 + c1 * x1 + c2 * x2 + c3 * x3 + c4 * x4 + c5 * x5 + c6 * x6) := by
  obtain ⟨m1, m2, c1, c2, -, -, -, -, -, W⟩ := op_v1_3 (alpha := alpha) (beta := beta) (dx := dx) hβ1 hβ2 hi hj hk hg hagcw hrgcw
    (h.sub (fun _ e => e) (by intro x hx; simp only [List.mem_cons, List.not_mem_nil, or_false] at hx ⊢; tauto)) hp hr
  have h3 : F.Args m [(F.face3d0 b0 i0 j0 k0 i1 j1 k1 0), (F.face3d1 b1 i0 j0 k0 i1 j1 k1 0), (F.face3d2 b2 i0 j0 k0 i1 j1 k1 0)] [(F.st3d st i0 j0 k0 i1 j1 k1 sgcw)] := h.sub (by intro x hx; simp only [List.mem_cons, List.not_mem_nil, or_false] at hx ⊢; tauto) (by intro x hx; simp only [List.mem_cons, List.not_mem_nil, or_false] at hx ⊢; tauto)
  obtain ⟨s1, q1, -, K1, S1⟩ := offdiag3_run (dx := dx) (beta := beta) hi hj hk hs ⟨le_rfl, le_rfl⟩ ⟨le_rfl, le_rfl⟩ ⟨le_rfl, le_rfl⟩ h3
  obtain ⟨s1', d1, e1⟩ := C36_offdiag_3d (dx := dx) (beta := beta) hβ3 hi hj hk ⟨le_rfl, le_rfl⟩ ⟨le_rfl, le_rfl⟩ ⟨le_rfl, le_rfl⟩ hs h3
  obtain rfl : s1 = s1' := Except.ok.inj (q1.symm.trans e1)
  have ea : (F.cell3d a (i0 - agcw) (j0 - agcw) (k0 - agcw) (i1 + agcw) (j1 + agcw) (k1 + agcw) 0) = (F.cell3d a i0 j0 k0 i1 j1 k1 agcw) := by simp [F.cell3d]
  have h4 : F.Args s1 [(F.cell3d a (i0 - agcw) (j0 - agcw) (k0 - agcw) (i1 + agcw) (j1 + agcw) (k1 + agcw) 0)] [(F.st3d st i0 j0 k0 i1 j1 k1 sgcw)] := by rw [ea]; exact K1.args (h.sub (by intro x hx; simp only [List.mem_cons, List.not_mem_nil, or_false] at hx ⊢; tauto) (by intro x hx; simp only [List.mem_cons, List.not_mem_nil, or_false] at hx ⊢; tauto))
  obtain ⟨s2, q2, -, K2, S2, S3⟩ := v1diag3_run (alpha := alpha) hi hj hk hs ⟨by omega, by omega⟩ ⟨by omega, by omega⟩ ⟨by omega, by omega⟩ h4
  obtain ⟨s2', d2, e2⟩ := C36_v1diag_3d (alpha := alpha) hβ4 hi hj hk ⟨by omega, by omega⟩ ⟨by omega, by omega⟩ ⟨by omega, by omega⟩ hs h4
  obtain rfl : s2 = s2' := Except.ok.inj (q2.symm.trans e2)
  refine ⟨m1, m2, s1, s2, c1, c2, d1, d2, fun i j k h0 h1 h2 h3 h4 h5 => ?_⟩
  have hst := K2.ok (K1.ok (h.ok (F.st3d st i0 j0 k0 i1 j1 k1 sgcw) (by simp)))
  have hu := h.ok (F.cell3d u i0 j0 k0 i1 j1 k1 gcw) (by simp)
  obtain ⟨t1, t2, t3, t4, t5, t6⟩ := S1 i j k h0 h1 h2 h3 h4 h5
  have t0 := (S2 i j k h0 h1 h2 h3 h4 h5).rd
  have r1 := S3 i j k 1 h0 h1 h2 h3 h4 h5 (by decide) (by decide)
  rw [t1.rd] at r1
  have r2 := S3 i j k 2 h0 h1 h2 h3 h4 h5 (by decide) (by decide)
  rw [t2.rd] at r2
  have r3 := S3 i j k 3 h0 h1 h2 h3 h4 h5 (by decide) (by decide)
  rw [t3.rd] at r3
  have r4 := S3 i j k 4 h0 h1 h2 h3 h4 h5 (by decide) (by decide)
  rw [t4.rd] at r4
  have r5 := S3 i j k 5 h0 h1 h2 h3 h4 h5 (by decide) (by decide)
  rw [t5.rd] at r5
  have r6 := S3 i j k 6 h0 h1 h2 h3 h4 h5 (by decide) (by decide)
  rw [t6.rd] at r6
  rw [t1.rd, t2.rd, t3.rd, t4.rd, t5.rd, t6.rd] at t0
  have ra : F.rd s1 (F.cell3d a i0 j0 k0 i1 j1 k1 agcw) [i, j, k] = F.rd m (F.cell3d a i0 j0 k0 i1 j1 k1 agcw) [i, j, k] := K1.rd (by simp only [List.mem_cons, List.not_mem_nil, or_false, forall_eq]; exact h.apart _ (by simp) _ (by simp)) (by in_bounds)
  rw [ea, ra] at t0
  refine ⟨_, _, _, _, _, _, _, _, _, _, _, _, _, _, hst.rd (by in_bounds), hst.rd (by in_bounds), hst.rd (by in_bounds), hst.rd (by in_bounds), hst.rd (by in_bounds), hst.rd (by in_bounds), hst.rd (by in_bounds), hu.rd (by in_bounds), hu.rd (by in_bounds), hu.rd (by in_bounds), hu.rd (by in_bounds), hu.rd (by in_bounds), hu.rd (by in_bounds), hu.rd (by in_bounds), ?_⟩
  rw [r1, r2, r3, r4, r5, r6, t0]
  have w := W i j k h0 h1 h2 h3 h4 h5
  convert w using 1
  simp only [div_eq_mul_inv, mul_inv]
  ring

example : ∃ m1 m2 s1 s2, Cuda.flux3d 0 1 2 1 2 3 exDx ⟨2, 0⟩ ⟨3, 0⟩ ⟨4, 0⟩ 2 ⟨1, 0⟩ ⟨5, 0⟩ ⟨6, 0⟩ ⟨7, 0⟩ (fun _ => revBackend) exRat = .ok m1 ∧ Cuda.diffusionV1Apply3d 0 1 1 2 2 3 3 2 exDx 1 ⟨0, 0⟩ 2 ⟨1, 0⟩ ⟨5, 0⟩ ⟨6, 0⟩ ⟨7, 0⟩ 1 ⟨8, 0⟩ (fun _ => seqBackend) m1 = .ok m2 ∧
      Cuda.offdiag3d 0 1 2 1 2 3 0 1 2 1 2 3 exDx 2 ⟨2, 0⟩ ⟨3, 0⟩ ⟨4, 0⟩ 1 ⟨9, 0⟩ revBackend exRat = .ok s1 ∧ Cuda.v1diag3d 0 1 2 1 2 3 (0 - 1) (1 - 1) (2 - 1) (1 + 1) (2 + 1) (3 + 1) 3 ⟨0, 0⟩ 1 ⟨9, 0⟩ seqBackend s1 = .ok s2 ∧
      ∀ i j k, 0 ≤ i → i ≤ 1 → 1 ≤ j → j ≤ 2 → 2 ≤ k → k ≤ 3 → ∃ c0 c1 c2 c3 c4 c5 c6 x0 x1 x2 x3 x4 x5 x6 : Rat,
        F.El s2 (F.st3d ⟨9, 0⟩ 0 1 2 1 2 3 1) [0, i, j, k] c0 ∧ F.El s2 (F.st3d ⟨9, 0⟩ 0 1 2 1 2 3 1) [1, i, j, k] c1 ∧ F.El s2 (F.st3d ⟨9, 0⟩ 0 1 2 1 2 3 1) [2, i, j, k] c2 ∧ F.El s2 (F.st3d ⟨9, 0⟩ 0 1 2 1 2 3 1) [3, i, j, k] c3 ∧ F.El s2 (F.st3d ⟨9, 0⟩ 0 1 2 1 2 3 1) [4, i, j, k] c4 ∧ F.El s2 (F.st3d ⟨9, 0⟩ 0 1 2 1 2 3 1) [5, i, j, k] c5 ∧ F.El s2 (F.st3d ⟨9, 0⟩ 0 1 2 1 2 3 1) [6, i, j, k] c6 ∧
        F.El exRat (F.cell3d ⟨1, 0⟩ 0 1 2 1 2 3 2) [i, j, k] x0 ∧ F.El exRat (F.cell3d ⟨1, 0⟩ 0 1 2 1 2 3 2) [i - 1, j, k] x1 ∧ F.El exRat (F.cell3d ⟨1, 0⟩ 0 1 2 1 2 3 2) [i + 1, j, k] x2 ∧ F.El exRat (F.cell3d ⟨1, 0⟩ 0 1 2 1 2 3 2) [i, j - 1, k] x3 ∧ F.El exRat (F.cell3d ⟨1, 0⟩ 0 1 2 1 2 3 2) [i, j + 1, k] x4 ∧ F.El exRat (F.cell3d ⟨1, 0⟩ 0 1 2 1 2 3 2) [i, j, k - 1] x5 ∧ F.El exRat (F.cell3d ⟨1, 0⟩ 0 1 2 1 2 3 2) [i, j, k + 1] x6 ∧
        F.El m2 (F.cell3d ⟨8, 0⟩ 0 1 2 1 2 3 1) [i, j, k] (c0 * x0 + c1 * x1 + c2 * x2 + c3 * x3 + c4 * x4 + c5 * x5 + c6 * x6) :=
  C38_v1_3d (fun _ => revBackend_ok) (fun _ => seqBackend_ok) revBackend_ok seqBackend_ok (by decide) (by decide) (by decide) (by decide) (by decide) (by decide) (by decide) (by ex_args) (⟨apart_blk (by decide), apart_blk (by decide), apart_blk (by decide)⟩) ⟨apart_blk (by decide), apart_blk (by decide), apart_blk (by decide)⟩

/-- Running the flux kernel and then the `diffusionV2Apply3d` kernel leaves, at every cell of the box, the sum over the cell and its 6
neighbours of the coefficients left by the off-diagonal and diagonal kernels times the unknown. -/
theorem C38_v2_3d {i0 j0 k0 i1 j1 k1 gcw rgcw sgcw : Int} {alpha beta : T} {dx : Nat → T} {u b0 b1 b2 f0 f1 f2 res st : Ptr} {β1 β2 : Nat → Backend} {β3 β4 : Backend} {m : Mem T}
    (hβ1 : ∀ n, ValidBackend (β1 n)) (hβ2 : ∀ n, ValidBackend (β2 n)) (hβ3 : ValidBackend β3) (hβ4 : ValidBackend β4)
    (hi : i0 ≤ i1) (hj : j0 ≤ j1) (hk : k0 ≤ k1) (hg : 1 ≤ gcw) (hrgcw : 0 ≤ rgcw) (hs : 0 ≤ sgcw)
    (h : F.Args m [(F.cell3d u i0 j0 k0 i1 j1 k1 gcw), (F.face3d0 b0 i0 j0 k0 i1 j1 k1 0), (F.face3d1 b1 i0 j0 k0 i1 j1 k1 0), (F.face3d2 b2 i0 j0 k0 i1 j1 k1 0)] [(F.face3d0 f0 i0 j0 k0 i1 j1 k1 0), (F.face3d1 f1 i0 j0 k0 i1 j1 k1 0), (F.face3d2 f2 i0 j0 k0 i1 j1 k1 0), (F.cell3d res i0 j0 k0 i1 j1 k1 rgcw), (F.st3d st i0 j0 k0 i1 j1 k1 sgcw)])
    (hp : F.Apart (F.face3d0 f0 i0 j0 k0 i1 j1 k1 0) (F.face3d1 f1 i0 j0 k0 i1 j1 k1 0) ∧ F.Apart (F.face3d0 f0 i0 j0 k0 i1 j1 k1 0) (F.face3d2 f2 i0 j0 k0 i1 j1 k1 0) ∧ F.Apart (F.face3d1 f1 i0 j0 k0 i1 j1 k1 0) (F.face3d2 f2 i0 j0 k0 i1 j1 k1 0))
    (hr : F.Apart (F.cell3d res i0 j0 k0 i1 j1 k1 rgcw) (F.face3d0 f0 i0 j0 k0 i1 j1 k1 0) ∧ F.Apart (F.cell3d res i0 j0 k0 i1 j1 k1 rgcw) (F.face3d1 f1 i0 j0 k0 i1 j1 k1 0) ∧ F.Apart (F.cell3d res i0 j0 k0 i1 j1 k1 rgcw) (F.face3d2 f2 i0 j0 k0 i1 j1 k1 0)) :
    ∃ m1 m2 s1 s2, Cuda.flux3d i0 j0 k0 i1 j1 k1 dx b0 b1 b2 gcw u f0 f1 f2 β1 m = .ok m1 ∧ Cuda.diffusionV2Apply3d i0 i1 j0 j1 k0 k1 alpha beta dx gcw u f0 f1 f2 rgcw res β2 m1 = .ok m2 ∧
      Cuda.offdiag3d i0 j0 k0 i1 j1 k1 i0 j0 k0 i1 j1 k1 dx beta b0 b1 b2 sgcw st β3 m = .ok s1 ∧ Cuda.v2diag3d i0 j0 k0 i1 j1 k1 alpha sgcw st β4 s1 = .ok s2 ∧
      ∀ i j k, i0 ≤ i → i ≤ i1 → j0 ≤ j → j ≤ j1 → k0 ≤ k → k ≤ k1 → ∃ c0 c1 c2 c3 c4 c5 c6 x0 x1 x2 x3 x4 x5 x6 : T,
        F.El s2 (F.st3d st i0 j0 k0 i1 j1 k1 sgcw) [0, i, j, k] c0 ∧ F.El s2 (F.st3d st i0 j0 k0 i1 j1 k1 sgcw) [1, i, j, k] c1 ∧ F.El s2 (F.st3d st i0 j0 k0 i1 j1 k1 sgcw) [2, i, j, k] c2 ∧ F.El s2 (F.st3d st i0 j0 k0 i1 j1 k1 sgcw) [3, i, j, k] c3 ∧ F.El s2 (F.st3d st i0 j0 k0 i1 j1 k1 sgcw) [4, i, j, k] c4 ∧ F.El s2 (F.st3d st i0 j0 k0 i1 j1 k1 sgcw) [5, i, j, k] c5 ∧ F.El s2 (F.st3d st i0 j0 k0 i1 j1 k1 sgcw) [6, i, j, k] c6 ∧
        F.El m (F.cell3d u i0 j0 k0 i1 j1 k1 gcw) [i, j, k] x0 ∧ F.El m (F.cell3d u i0 j0 k0 i1 j1 k1 gcw) [i - 1, j, k] x1 ∧ F.El m (F.cell3d u i0 j0 k0 i1 j1 k1 gcw) [i + 1, j, k] x2 ∧ F.El m (F.cell3d u i0 j0 k0 i1 j1 k1 gcw) [i, j - 1, k] x3 ∧ F.El m (F.cell3d u i0 j0 k0 i1 j1 k1 gcw) [i, j + 1, k] x4 ∧ F.El m (F.cell3d u i0 j0 k0 i1 j1 k1 gcw) [i, j, k - 1] x5 ∧ F.El m (F.cell3d u i0 j0 k0 i1 j1 k1 gcw) [i, j, k + 1] x6 ∧
        F.El m2 (F.cell3d res i0 j0 k0 i1 j1 k1 rgcw) [i, j, k] (c0 * x0 + c1 * x1 + c2 * x2 + c3 * x3 + c4 * x4 + c5 * x5 + c6 * x6) := by
  obtain ⟨m1, m2, c1, c2, -, -, -, -, -, W⟩ := op_v2_3 (alpha := alpha) (beta := beta) (dx := dx) hβ1 hβ2 hi hj hk hg hrgcw
    (h.sub (fun _ e => e) (by intro x hx; simp only [List.mem_cons, List.not_mem_nil, or_false] at hx ⊢; tauto)) hp hr
  have h3 : F.Args m [(F.face3d0 b0 i0 j0 k0 i1 j1 k1 0), (F.face3d1 b1 i0 j0 k0 i1 j1 k1 0), (F.face3d2 b2 i0 j0 k0 i1 j1 k1 0)] [(F.st3d st i0 j0 k0 i1 j1 k1 sgcw)] := h.sub (by intro x hx; simp only [List.mem_cons, List.not_mem_nil, or_false] at hx ⊢; tauto) (by intro x hx; simp only [List.mem_cons, List.not_mem_nil, or_false] at hx ⊢; tauto)
  obtain ⟨s1, q1, -, K1, S1⟩ := offdiag3_run (dx := dx) (beta := beta) hi hj hk hs ⟨le_rfl, le_rfl⟩ ⟨le_rfl, le_rfl⟩ ⟨le_rfl, le_rfl⟩ h3
  obtain ⟨s1', d1, e1⟩ := C36_offdiag_3d (dx := dx) (beta := beta) hβ3 hi hj hk ⟨le_rfl, le_rfl⟩ ⟨le_rfl, le_rfl⟩ ⟨le_rfl, le_rfl⟩ hs h3
  obtain rfl : s1 = s1' := Except.ok.inj (q1.symm.trans e1)
  have h4 : F.Args s1 [] [(F.st3d st i0 j0 k0 i1 j1 k1 sgcw)] := K1.args (h.sub (by simp) (by intro x hx; simp only [List.mem_cons, List.not_mem_nil, or_false] at hx ⊢; tauto))
  obtain ⟨s2, q2, -, K2, S2, S3⟩ := v2diag3_run (alpha := alpha) hi hj hk hs h4
  obtain ⟨s2', d2, e2⟩ := C36_v2diag_3d (alpha := alpha) hβ4 hi hj hk hs h4
  obtain rfl : s2 = s2' := Except.ok.inj (q2.symm.trans e2)
  refine ⟨m1, m2, s1, s2, c1, c2, d1, d2, fun i j k h0 h1 h2 h3 h4 h5 => ?_⟩
  have hst := K2.ok (K1.ok (h.ok (F.st3d st i0 j0 k0 i1 j1 k1 sgcw) (by simp)))
  have hu := h.ok (F.cell3d u i0 j0 k0 i1 j1 k1 gcw) (by simp)
  obtain ⟨t1, t2, t3, t4, t5, t6⟩ := S1 i j k h0 h1 h2 h3 h4 h5
  have t0 := (S2 i j k h0 h1 h2 h3 h4 h5).rd
  have r1 := S3 i j k 1 h0 h1 h2 h3 h4 h5 (by decide) (by decide)
  rw [t1.rd] at r1
  have r2 := S3 i j k 2 h0 h1 h2 h3 h4 h5 (by decide) (by decide)
  rw [t2.rd] at r2
  have r3 := S3 i j k 3 h0 h1 h2 h3 h4 h5 (by decide) (by decide)
  rw [t3.rd] at r3
  have r4 := S3 i j k 4 h0 h1 h2 h3 h4 h5 (by decide) (by decide)
  rw [t4.rd] at r4
  have r5 := S3 i j k 5 h0 h1 h2 h3 h4 h5 (by decide) (by decide)
  rw [t5.rd] at r5
  have r6 := S3 i j k 6 h0 h1 h2 h3 h4 h5 (by decide) (by decide)
  rw [t6.rd] at r6
  rw [t1.rd, t2.rd, t3.rd, t4.rd, t5.rd, t6.rd] at t0
  refine ⟨_, _, _, _, _, _, _, _, _, _, _, _, _, _, hst.rd (by in_bounds), hst.rd (by in_bounds), hst.rd (by in_bounds), hst.rd (by in_bounds), hst.rd (by in_bounds), hst.rd (by in_bounds), hst.rd (by in_bounds), hu.rd (by in_bounds), hu.rd (by in_bounds), hu.rd (by in_bounds), hu.rd (by in_bounds), hu.rd (by in_bounds), hu.rd (by in_bounds), hu.rd (by in_bounds), ?_⟩
  rw [r1, r2, r3, r4, r5, r6, t0]
  have w := W i j k h0 h1 h2 h3 h4 h5
  convert w using 1
  simp only [div_eq_mul_inv, mul_inv]
  ring

example : ∃ m1 m2 s1 s2, Cuda.flux3d 0 1 2 1 2 3 exDx ⟨2, 0⟩ ⟨3, 0⟩ ⟨4, 0⟩ 2 ⟨1, 0⟩ ⟨5, 0⟩ ⟨6, 0⟩ ⟨7, 0⟩ (fun _ => revBackend) exRat = .ok m1 ∧ Cuda.diffusionV2Apply3d 0 1 1 2 2 3 3 2 exDx 2 ⟨1, 0⟩ ⟨5, 0⟩ ⟨6, 0⟩ ⟨7, 0⟩ 1 ⟨8, 0⟩ (fun _ => seqBackend) m1 = .ok m2 ∧
      Cuda.offdiag3d 0 1 2 1 2 3 0 1 2 1 2 3 exDx 2 ⟨2, 0⟩ ⟨3, 0⟩ ⟨4, 0⟩ 1 ⟨9, 0⟩ revBackend exRat = .ok s1 ∧ Cuda.v2diag3d 0 1 2 1 2 3 3 1 ⟨9, 0⟩ seqBackend s1 = .ok s2 ∧
      ∀ i j k, 0 ≤ i → i ≤ 1 → 1 ≤ j → j ≤ 2 → 2 ≤ k → k ≤ 3 → ∃ c0 c1 c2 c3 c4 c5 c6 x0 x1 x2 x3 x4 x5 x6 : Rat,
        F.El s2 (F.st3d ⟨9, 0⟩ 0 1 2 1 2 3 1) [0, i, j, k] c0 ∧ F.El s2 (F.st3d ⟨9, 0⟩ 0 1 2 1 2 3 1) [1, i, j, k] c1 ∧ F.El s2 (F.st3d ⟨9, 0⟩ 0 1 2 1 2 3 1) [2, i, j, k] c2 ∧ F.El s2 (F.st3d ⟨9, 0⟩ 0 1 2 1 2 3 1) [3, i, j, k] c3 ∧ F.El s2 (F.st3d ⟨9, 0⟩ 0 1 2 1 2 3 1) [4, i, j, k] c4 ∧ F.El s2 (F.st3d ⟨9, 0⟩ 0 1 2 1 2 3 1) [5, i, j, k] c5 ∧ F.El s2 (F.st3d ⟨9, 0⟩ 0 1 2 1 2 3 1) [6, i, j, k] c6 ∧
        F.El exRat (F.cell3d ⟨1, 0⟩ 0 1 2 1 2 3 2) [i, j, k] x0 ∧ F.El exRat (F.cell3d ⟨1, 0⟩ 0 1 2 1 2 3 2) [i - 1, j, k] x1 ∧ F.El exRat (F.cell3d ⟨1, 0⟩ 0 1 2 1 2 3 2) [i + 1, j, k] x2 ∧ F.El exRat (F.cell3d ⟨1, 0⟩ 0 1 2 1 2 3 2) [i, j - 1, k] x3 ∧ F.El exRat (F.cell3d ⟨1, 0⟩ 0 1 2 1 2 3 2) [i, j + 1, k] x4 ∧ F.El exRat (F.cell3d ⟨1, 0⟩ 0 1 2 1 2 3 2) [i, j, k - 1] x5 ∧ F.El exRat (F.cell3d ⟨1, 0⟩ 0 1 2 1 2 3 2) [i, j, k + 1] x6 ∧
        F.El m2 (F.cell3d ⟨8, 0⟩ 0 1 2 1 2 3 1) [i, j, k] (c0 * x0 + c1 * x1 + c2 * x2 + c3 * x3 + c4 * x4 + c5 * x5 + c6 * x6) :=
  C38_v2_3d (fun _ => revBackend_ok) (fun _ => seqBackend_ok) revBackend_ok seqBackend_ok (by decide) (by decide) (by decide) (by decide) (by decide) (by decide) (by ex_args) (⟨apart_blk (by decide), apart_blk (by decide), apart_blk (by decide)⟩) ⟨apart_blk (by decide), apart_blk (by decide), apart_blk (by decide)⟩

/-- Running the Poisson flux kernel and then the `poissonV2Apply3d` kernel leaves, at every cell of the box, the sum over the cell and its 6
neighbours of the coefficients left by the off-diagonal and diagonal kernels times the unknown. -/
theorem C38_poisson_3d {i0 j0 k0 i1 j1 k1 gcw rgcw sgcw : Int} {beta : T} {dx : Nat → T} {u f0 f1 f2 res st : Ptr} {β1 β2 : Nat → Backend} {β3 β4 : Backend} {m : Mem T}
    (hβ1 : ∀ n, ValidBackend (β1 n)) (hβ2 : ∀ n, ValidBackend (β2 n)) (hβ3 : ValidBackend β3) (hβ4 : ValidBackend β4)
    (hi : i0 ≤ i1) (hj : j0 ≤ j1) (hk : k0 ≤ k1) (hg : 1 ≤ gcw) (hrgcw : 0 ≤ rgcw) (hs : 0 ≤ sgcw)
    (h : F.Args m [(F.cell3d u i0 j0 k0 i1 j1 k1 gcw)] [(F.face3d0 f0 i0 j0 k0 i1 j1 k1 0), (F.face3d1 f1 i0 j0 k0 i1 j1 k1 0), (F.face3d2 f2 i0 j0 k0 i1 j1 k1 0), (F.cell3d res i0 j0 k0 i1 j1 k1 rgcw), (F.st3d st i0 j0 k0 i1 j1 k1 sgcw)])
    (hp : F.Apart (F.face3d0 f0 i0 j0 k0 i1 j1 k1 0) (F.face3d1 f1 i0 j0 k0 i1 j1 k1 0) ∧ F.Apart (F.face3d0 f0 i0 j0 k0 i1 j1 k1 0) (F.face3d2 f2 i0 j0 k0 i1 j1 k1 0) ∧ F.Apart (F.face3d1 f1 i0 j0 k0 i1 j1 k1 0) (F.face3d2 f2 i0 j0 k0 i1 j1 k1 0))
    (hr : F.Apart (F.cell3d res i0 j0 k0 i1 j1 k1 rgcw) (F.face3d0 f0 i0 j0 k0 i1 j1 k1 0) ∧ F.Apart (F.cell3d res i0 j0 k0 i1 j1 k1 rgcw) (F.face3d1 f1 i0 j0 k0 i1 j1 k1 0) ∧ F.Apart (F.cell3d res i0 j0 k0 i1 j1 k1 rgcw) (F.face3d2 f2 i0 j0 k0 i1 j1 k1 0)) :
    ∃ m1 m2 s1 s2, Cuda.poissonFlux3d i0 j0 k0 i1 j1 k1 dx gcw u f0 f1 f2 β1 m = .ok m1 ∧ Cuda.poissonV2Apply3d i0 i1 j0 j1 k0 k1 beta dx f0 f1 f2 rgcw res β2 m1 = .ok m2 ∧
      Cuda.poissonOffdiag3d i0 j0 k0 i1 j1 k1 dx beta sgcw st β3 m = .ok s1 ∧ Cuda.poissonDiag3d i0 j0 k0 i1 j1 k1 sgcw st β4 s1 = .ok s2 ∧
      ∀ i j k, i0 ≤ i → i ≤ i1 → j0 ≤ j → j ≤ j1 → k0 ≤ k → k ≤ k1 → ∃ c0 c1 c2 c3 c4 c5 c6 x0 x1 x2 x3 x4 x5 x6 : T,
        F.El s2 (F.st3d st i0 j0 k0 i1 j1 k1 sgcw) [0, i, j, k] c0 ∧ F.El s2 (F.st3d st i0 j0 k0 i1 j1 k1 sgcw) [1, i, j, k] c1 ∧ F.El s2 (F.st3d st i0 j0 k0 i1 j1 k1 sgcw) [2, i, j, k] c2 ∧ F.El s2 (F.st3d st i0 j0 k0 i1 j1 k1 sgcw) [3, i, j, k] c3 ∧ F.El s2 (F.st3d st i0 j0 k0 i1 j1 k1 sgcw) [4, i, j, k] c4 ∧ F.El s2 (F.st3d st i0 j0 k0 i1 j1 k1 sgcw) [5, i, j, k] c5 ∧ F.El s2 (F.st3d st i0 j0 k0 i1 j1 k1 sgcw) [6, i, j, k] c6 ∧
        F.El m (F.cell3d u i0 j0 k0 i1 j1 k1 gcw) [i, j, k] x0 ∧ F.El m (F.cell3d u i0 j0 k0 i1 j1 k1 gcw) [i - 1, j, k] x1 ∧ F.El m (F.cell3d u i0 j0 k0 i1 j1 k1 gcw) [i + 1, j, k] x2 ∧ F.El m (F.cell3d u i0 j0 k0 i1 j1 k1 gcw) [i, j - 1, k] x3 ∧ F.El m (F.cell3d u i0 j0 k0 i1 j1 k1 gcw) [i, j + 1, k] x4 ∧ F.El m (F.cell3d u i0 j0 k0 i1 j1 k1 gcw) [i, j, k - 1] x5 ∧ F.El m (F.cell3d u i0 j0 k0 i1 j1 k1 gcw) [i, j, k + 1] x6 ∧
        F.El m2 (F.cell3d res i0 j0 k0 i1 j1 k1 rgcw) [i, j, k] (c0 * x0 + c1 * x1 + c2 * x2 + c3 * x3 + c4 * x4 + c5 * x5 + c6 * x6) := by
  obtain ⟨m1, m2, c1, c2, -, -, -, -, -, W⟩ := op_p_3 (beta := beta) (dx := dx) hβ1 hβ2 hi hj hk hg hrgcw
    (h.sub (fun _ e => e) (by intro x hx; simp only [List.mem_cons, List.not_mem_nil, or_false] at hx ⊢; tauto)) hp hr
  have h3 : F.Args m [] [(F.st3d st i0 j0 k0 i1 j1 k1 sgcw)] := h.sub (by simp) (by intro x hx; simp only [List.mem_cons, List.not_mem_nil, or_false] at hx ⊢; tauto)
  obtain ⟨s1, q1, -, K1, S1⟩ := poffdiag3_run (dx := dx) (beta := beta) hi hj hk hs h3
  obtain ⟨s1', d1, e1⟩ := C36_poisson_offdiag_3d (dx := dx) (beta := beta) hβ3 hi hj hk hs h3
  obtain rfl : s1 = s1' := Except.ok.inj (q1.symm.trans e1)
  have h4 : F.Args s1 [] [(F.st3d st i0 j0 k0 i1 j1 k1 sgcw)] := K1.args (h.sub (by simp) (by intro x hx; simp only [List.mem_cons, List.not_mem_nil, or_false] at hx ⊢; tauto))
  obtain ⟨s2, q2, -, K2, S2, S3⟩ := pdiag3_run hi hj hk hs h4
  obtain ⟨s2', d2, e2⟩ := C36_poisson_diag_3d hβ4 hi hj hk hs h4
  obtain rfl : s2 = s2' := Except.ok.inj (q2.symm.trans e2)
  refine ⟨m1, m2, s1, s2, c1, c2, d1, d2, fun i j k h0 h1 h2 h3 h4 h5 => ?_⟩
  have hst := K2.ok (K1.ok (h.ok (F.st3d st i0 j0 k0 i1 j1 k1 sgcw) (by simp)))
  have hu := h.ok (F.cell3d u i0 j0 k0 i1 j1 k1 gcw) (by simp)
  obtain ⟨t1, t2, t3, t4, t5, t6⟩ := S1 i j k h0 h1 h2 h3 h4 h5
  have t0 := (S2 i j k h0 h1 h2 h3 h4 h5).rd
  have r1 := S3 i j k 1 h0 h1 h2 h3 h4 h5 (by decide) (by decide)
  rw [t1.rd] at r1
  have r2 := S3 i j k 2 h0 h1 h2 h3 h4 h5 (by decide) (by decide)
  rw [t2.rd] at r2
  have r3 := S3 i j k 3 h0 h1 h2 h3 h4 h5 (by decide) (by decide)
  rw [t3.rd] at r3
  have r4 := S3 i j k 4 h0 h1 h2 h3 h4 h5 (by decide) (by decide)
  rw [t4.rd] at r4
  have r5 := S3 i j k 5 h0 h1 h2 h3 h4 h5 (by decide) (by decide)
  rw [t5.rd] at r5
  have r6 := S3 i j k 6 h0 h1 h2 h3 h4 h5 (by decide) (by decide)
  rw [t6.rd] at r6
  rw [t1.rd, t2.rd, t3.rd, t4.rd, t5.rd, t6.rd] at t0
  refine ⟨_, _, _, _, _, _, _, _, _, _, _, _, _, _, hst.rd (by in_bounds), hst.rd (by in_bounds), hst.rd (by in_bounds), hst.rd (by in_bounds), hst.rd (by in_bounds), hst.rd (by in_bounds), hst.rd (by in_bounds), hu.rd (by in_bounds), hu.rd (by in_bounds), hu.rd (by in_bounds), hu.rd (by in_bounds), hu.rd (by in_bounds), hu.rd (by in_bounds), hu.rd (by in_bounds), ?_⟩
  rw [r1, r2, r3, r4, r5, r6, t0]
  have w := W i j k h0 h1 h2 h3 h4 h5
  convert w using 1
  simp only [div_eq_mul_inv, mul_inv]
  ring

example : ∃ m1 m2 s1 s2, Cuda.poissonFlux3d 0 1 2 1 2 3 exDx 2 ⟨1, 0⟩ ⟨5, 0⟩ ⟨6, 0⟩ ⟨7, 0⟩ (fun _ => revBackend) exRat = .ok m1 ∧ Cuda.poissonV2Apply3d 0 1 1 2 2 3 2 exDx ⟨5, 0⟩ ⟨6, 0⟩ ⟨7, 0⟩ 1 ⟨8, 0⟩ (fun _ => seqBackend) m1 = .ok m2 ∧
      Cuda.poissonOffdiag3d 0 1 2 1 2 3 exDx 2 1 ⟨9, 0⟩ revBackend exRat = .ok s1 ∧ Cuda.poissonDiag3d 0 1 2 1 2 3 1 ⟨9, 0⟩ seqBackend s1 = .ok s2 ∧
      ∀ i j k, 0 ≤ i → i ≤ 1 → 1 ≤ j → j ≤ 2 → 2 ≤ k → k ≤ 3 → ∃ c0 c1 c2 c3 c4 c5 c6 x0 x1 x2 x3 x4 x5 x6 : Rat,
        F.El s2 (F.st3d ⟨9, 0⟩ 0 1 2 1 2 3 1) [0, i, j, k] c0 ∧ F.El s2 (F.st3d ⟨9, 0⟩ 0 1 2 1 2 3 1) [1, i, j, k] c1 ∧ F.El s2 (F.st3d ⟨9, 0⟩ 0 1 2 1 2 3 1) [2, i, j, k] c2 ∧ F.El s2 (F.st3d ⟨9, 0⟩ 0 1 2 1 2 3 1) [3, i, j, k] c3 ∧ F.El s2 (F.st3d ⟨9, 0⟩ 0 1 2 1 2 3 1) [4, i, j, k] c4 ∧ F.El s2 (F.st3d ⟨9, 0⟩ 0 1 2 1 2 3 1) [5, i, j, k] c5 ∧ F.El s2 (F.st3d ⟨9, 0⟩ 0 1 2 1 2 3 1) [6, i, j, k] c6 ∧
        F.El exRat (F.cell3d ⟨1, 0⟩ 0 1 2 1 2 3 2) [i, j, k] x0 ∧ F.El exRat (F.cell3d ⟨1, 0⟩ 0 1 2 1 2 3 2) [i - 1, j, k] x1 ∧ F.El exRat (F.cell3d ⟨1, 0⟩ 0 1 2 1 2 3 2) [i + 1, j, k] x2 ∧ F.El exRat (F.cell3d ⟨1, 0⟩ 0 1 2 1 2 3 2) [i, j - 1, k] x3 ∧ F.El exRat (F.cell3d ⟨1, 0⟩ 0 1 2 1 2 3 2) [i, j + 1, k] x4 ∧ F.El exRat (F.cell3d ⟨1, 0⟩ 0 1 2 1 2 3 2) [i, j, k - 1] x5 ∧ F.El exRat (F.cell3d ⟨1, 0⟩ 0 1 2 1 2 3 2) [i, j, k + 1] x6 ∧
        F.El m2 (F.cell3d ⟨8, 0⟩ 0 1 2 1 2 3 1) [i, j, k] (c0 * x0 + c1 * x1 + c2 * x2 + c3 * x3 + c4 * x4 + c5 * x5 + c6 * x6) :=
  C38_poisson_3d (fun _ => revBackend_ok) (fun _ => seqBackend_ok) revBackend_ok seqBackend_ok (by decide) (by decide) (by decide) (by decide) (by decide) (by decide) (by ex_args) (⟨apart_blk (by decide), apart_blk (by decide), apart_blk (by decide)⟩) ⟨apart_blk (by decide), apart_blk (by decide), apart_blk (by decide)⟩

/-! ### C39 -/

/-- The coefficient with which `offdiag1d` couples a cell of the box to its upper neighbour in the box is the one coupling the neighbour to
the cell, in every direction. -/
theorem C39_1d {i0 i1 bi0 bi1 sgcw : Int} {dx : Nat → T} {beta : T} {b0 st : Ptr} {β : Backend} {m : Mem T}
    (hβ : ValidBackend β) (hi : i0 ≤ i1) (hbi : bi0 ≤ i0 ∧ i1 ≤ bi1) (hg : 0 ≤ sgcw)
    (h : F.Args m [(F.face1d b0 bi0 bi1 0)] [(F.st1d st i0 i1 sgcw)]) :
    ∃ m', Cuda.offdiag1d i0 i1 bi0 bi1 dx beta b0 sgcw st β m = .ok m' ∧
      (∀ i, i0 ≤ i → i < i1 → ∃ c, F.El m' (F.st1d st i0 i1 sgcw) [2, i] c ∧ F.El m' (F.st1d st i0 i1 sgcw) [1, i + 1] c) := by
  obtain ⟨m', q, -, -, S⟩ := offdiag1_run (dx := dx) (beta := beta) hi hg hbi h
  obtain ⟨m'', d, e⟩ := C36_offdiag_1d (dx := dx) (beta := beta) hβ hi hbi hg h
  obtain rfl : m' = m'' := Except.ok.inj (q.symm.trans e)
  exact ⟨m', d, fun i h0 h1 => ⟨_, (S i (by omega) (by omega)).2, (S (i + 1) (by omega) (by omega)).1⟩⟩

example : ∃ m', Cuda.offdiag1d 0 3 (-1) (4) exDx 2 ⟨2, 0⟩ 1 ⟨9, 0⟩ revBackend exRat = .ok m' ∧
      (∀ i, 0 ≤ i → i < 3 → ∃ c, F.El m' (F.st1d ⟨9, 0⟩ 0 3 1) [2, i] c ∧ F.El m' (F.st1d ⟨9, 0⟩ 0 3 1) [1, i + 1] c) :=
  C39_1d revBackend_ok (by decide) (by decide) (by decide) (by ex_args)

/-- The coefficient with which `poissonOffdiag1d` couples a cell of the box to its upper neighbour in the box is the one coupling the neighbour to
the cell, in every direction. -/
theorem C39_poisson_1d {i0 i1 sgcw : Int} {dx : Nat → T} {beta : T} {st : Ptr} {β : Backend} {m : Mem T}
    (hβ : ValidBackend β) (hi : i0 ≤ i1) (hg : 0 ≤ sgcw)
    (h : F.Args m [] [(F.st1d st i0 i1 sgcw)]) :
    ∃ m', Cuda.poissonOffdiag1d i0 i1 dx beta sgcw st β m = .ok m' ∧
      (∀ i, i0 ≤ i → i < i1 → ∃ c, F.El m' (F.st1d st i0 i1 sgcw) [2, i] c ∧ F.El m' (F.st1d st i0 i1 sgcw) [1, i + 1] c) := by
  obtain ⟨m', q, -, -, S⟩ := poffdiag1_run (dx := dx) (beta := beta) hi hg h
  obtain ⟨m'', d, e⟩ := C36_poisson_offdiag_1d (dx := dx) (beta := beta) hβ hi hg h
  obtain rfl : m' = m'' := Except.ok.inj (q.symm.trans e)
  exact ⟨m', d, fun i h0 h1 => ⟨_, (S i (by omega) (by omega)).2, (S (i + 1) (by omega) (by omega)).1⟩⟩

example : ∃ m', Cuda.poissonOffdiag1d 0 3 exDx 2 1 ⟨9, 0⟩ revBackend exRat = .ok m' ∧
      (∀ i, 0 ≤ i → i < 3 → ∃ c, F.El m' (F.st1d ⟨9, 0⟩ 0 3 1) [2, i] c ∧ F.El m' (F.st1d ⟨9, 0⟩ 0 3 1) [1, i + 1] c) :=
  C39_poisson_1d revBackend_ok (by decide) (by decide) (by ex_args)

/-- The coefficient with which `offdiag2d` couples a cell of the box to its upper neighbour in the box is the one coupling the neighbour to
the cell, in every direction. -/
theorem C39_2d {i0 j0 i1 j1 bi0 bj0 bi1 bj1 sgcw : Int} {dx : Nat → T} {beta : T} {b0 b1 st : Ptr} {β : Backend} {m : Mem T}
    (hβ : ValidBackend β) (hi : i0 ≤ i1) (hj : j0 ≤ j1) (hbi : bi0 ≤ i0 ∧ i1 ≤ bi1) (hbj : bj0 ≤ j0 ∧ j1 ≤ bj1) (hg : 0 ≤ sgcw)
    (h : F.Args m [(F.face2d0 b0 bi0 bj0 bi1 bj1 0), (F.face2d1 b1 bi0 bj0 bi1 bj1 0)] [(F.st2d st i0 j0 i1 j1 sgcw)]) :
    ∃ m', Cuda.offdiag2d i0 j0 i1 j1 bi0 bj0 bi1 bj1 dx beta b0 b1 sgcw st β m = .ok m' ∧
      (∀ i j, i0 ≤ i → i < i1 → j0 ≤ j → j ≤ j1 → ∃ c, F.El m' (F.st2d st i0 j0 i1 j1 sgcw) [2, i, j] c ∧ F.El m' (F.st2d st i0 j0 i1 j1 sgcw) [1, i + 1, j] c) ∧
      (∀ i j, i0 ≤ i → i ≤ i1 → j0 ≤ j → j < j1 → ∃ c, F.El m' (F.st2d st i0 j0 i1 j1 sgcw) [4, i, j] c ∧ F.El m' (F.st2d st i0 j0 i1 j1 sgcw) [3, i, j + 1] c) := by
  obtain ⟨m', q, -, -, S⟩ := offdiag2_run (dx := dx) (beta := beta) hi hj hg hbi hbj h
  obtain ⟨m'', d, e⟩ := C36_offdiag_2d (dx := dx) (beta := beta) hβ hi hj hbi hbj hg h
  obtain rfl : m' = m'' := Except.ok.inj (q.symm.trans e)
  exact ⟨m', d, fun i j h0 h1 h2 h3 => ⟨_, (S i j (by omega) (by omega) (by omega) (by omega)).2.1, (S (i + 1) j (by omega) (by omega) (by omega) (by omega)).1⟩, fun i j h0 h1 h2 h3 => ⟨_, (S i j (by omega) (by omega) (by omega) (by omega)).2.2.2, (S i (j + 1) (by omega) (by omega) (by omega) (by omega)).2.2.1⟩⟩

example : ∃ m', Cuda.offdiag2d 0 1 2 3 (-1) (0) (3) (4) exDx 2 ⟨2, 0⟩ ⟨3, 0⟩ 1 ⟨9, 0⟩ revBackend exRat = .ok m' ∧
      (∀ i j, 0 ≤ i → i < 2 → 1 ≤ j → j ≤ 3 → ∃ c, F.El m' (F.st2d ⟨9, 0⟩ 0 1 2 3 1) [2, i, j] c ∧ F.El m' (F.st2d ⟨9, 0⟩ 0 1 2 3 1) [1, i + 1, j] c) ∧
      (∀ i j, 0 ≤ i → i ≤ 2 → 1 ≤ j → j < 3 → ∃ c, F.El m' (F.st2d ⟨9, 0⟩ 0 1 2 3 1) [4, i, j] c ∧ F.El m' (F.st2d ⟨9, 0⟩ 0 1 2 3 1) [3, i, j + 1] c) :=
  C39_2d revBackend_ok (by decide) (by decide) (by decide) (by decide) (by decide) (by ex_args)

/-- The coefficient with which `poissonOffdiag2d` couples a cell of the box to its upper neighbour in the box is the one coupling the neighbour to
the cell, in every direction. -/
theorem C39_poisson_2d {i0 j0 i1 j1 sgcw : Int} {dx : Nat → T} {beta : T} {st : Ptr} {β : Backend} {m : Mem T}
    (hβ : ValidBackend β) (hi : i0 ≤ i1) (hj : j0 ≤ j1) (hg : 0 ≤ sgcw)
    (h : F.Args m [] [(F.st2d st i0 j0 i1 j1 sgcw)]) :
    ∃ m', Cuda.poissonOffdiag2d i0 j0 i1 j1 dx beta sgcw st β m = .ok m' ∧
      (∀ i j, i0 ≤ i → i < i1 → j0 ≤ j → j ≤ j1 → ∃ c, F.El m' (F.st2d st i0 j0 i1 j1 sgcw) [2, i, j] c ∧ F.El m' (F.st2d st i0 j0 i1 j1 sgcw) [1, i + 1, j] c) ∧
      (∀ i j, i0 ≤ i → i ≤ i1 → j0 ≤ j → j < j1 → ∃ c, F.El m' (F.st2d st i0 j0 i1 j1 sgcw) [4, i, j] c ∧ F.El m' (F.st2d st i0 j0 i1 j1 sgcw) [3, i, j + 1] c) := by
  obtain ⟨m', q, -, -, S⟩ := poffdiag2_run (dx := dx) (beta := beta) hi hj hg h
  obtain ⟨m'', d, e⟩ := C36_poisson_offdiag_2d (dx := dx) (beta := beta) hβ hi hj hg h
  obtain rfl : m' = m'' := Except.ok.inj (q.symm.trans e)
  exact ⟨m', d, fun i j h0 h1 h2 h3 => ⟨_, (S i j (by omega) (by omega) (by omega) (by omega)).2.1, (S (i + 1) j (by omega) (by omega) (by omega) (by omega)).1⟩, fun i j h0 h1 h2 h3 => ⟨_, (S i j (by omega) (by omega) (by omega) (by omega)).2.2.2, (S i (j + 1) (by omega) (by omega) (by omega) (by omega)).2.2.1⟩⟩

example : ∃ m', Cuda.poissonOffdiag2d 0 1 2 3 exDx 2 1 ⟨9, 0⟩ revBackend exRat = .ok m' ∧
      (∀ i j, 0 ≤ i → i < 2 → 1 ≤ j → j ≤ 3 → ∃ c, F.El m' (F.st2d ⟨9, 0⟩ 0 1 2 3 1) [2, i, j] c ∧ F.El m' (F.st2d ⟨9, 0⟩ 0 1 2 3 1) [1, i + 1, j] c) ∧
      (∀ i j, 0 ≤ i → i ≤ 2 → 1 ≤ j → j < 3 → ∃ c, F.El m' (F.st2d ⟨9, 0⟩ 0 1 2 3 1) [4, i, j] c ∧ F.El m' (F.st2d ⟨9, 0⟩ 0 1 2 3 1) [3, i, j + 1] c) :=
  C39_poisson_2d revBackend_ok (by decide) (by decide) (by decide) (by ex_args)

/-- The coefficient with which `offdiag3d` couples a cell of the box to its upper neighbour in the box is the one coupling the neighbour to
the cell, in every direction. -/
theorem C39_3d {i0 j0 k0 i1 j1 k1 bi0 bj0 bk0 bi1 bj1 bk1 sgcw : Int} {dx : Nat → T} {beta : T} {b0 b1 b2 st : Ptr} {β : Backend} {m : Mem T}
    (hβ : ValidBackend β) (hi : i0 ≤ i1) (hj : j0 ≤ j1) (hk : k0 ≤ k1) (hbi : bi0 ≤ i0 ∧ i1 ≤ bi1) (hbj : bj0 ≤ j0 ∧ j1 ≤ bj1) (hbk : bk0 ≤ k0 ∧ k1 ≤ bk1) (hg : 0 ≤ sgcw)
    (h : F.Args m [(F.face3d0 b0 bi0 bj0 bk0 bi1 bj1 bk1 0), (F.face3d1 b1 bi0 bj0 bk0 bi1 bj1 bk1 0), (F.face3d2 b2 bi0 bj0 bk0 bi1 bj1 bk1 0)] [(F.st3d st i0 j0 k0 i1 j1 k1 sgcw)]) :
    ∃ m', Cuda.offdiag3d i0 j0 k0 i1 j1 k1 bi0 bj0 bk0 bi1 bj1 bk1 dx beta b0 b1 b2 sgcw st β m = .ok m' ∧
      (∀ i j k, i0 ≤ i → i < i1 → j0 ≤ j → j ≤ j1 → k0 ≤ k → k ≤ k1 → ∃ c, F.El m' (F.st3d st i0 j0 k0 i1 j1 k1 sgcw) [2, i, j, k] c ∧ F.El m' (F.st3d st i0 j0 k0 i1 j1 k1 sgcw) [1, i + 1, j, k] c) ∧
      (∀ i j k, i0 ≤ i → i ≤ i1 → j0 ≤ j → j < j1 → k0 ≤ k → k ≤ k1 → ∃ c, F.El m' (F.st3d st i0 j0 k0 i1 j1 k1 sgcw) [4, i, j, k] c ∧ F.El m' (F.st3d st i0 j0 k0 i1 j1 k1 sgcw) [3, i, j + 1, k] c) ∧
      (∀ i j k, i0 ≤ i → i ≤ i1 → j0 ≤ j → j ≤ j1 → k0 ≤ k → k < k1 → ∃ c, F.El m' (F.st3d st i0 j0 k0 i1 j1 k1 sgcw) [6, i, j, k] c ∧ F.El m' (F.st3d st i0 j0 k0 i1 j1 k1 sgcw) [5, i, j, k + 1] c) := by
  obtain ⟨m', q, -, -, S⟩ := offdiag3_run (dx := dx) (beta := beta) hi hj hk hg hbi hbj hbk h
  obtain ⟨m'', d, e⟩ := C36_offdiag_3d (dx := dx) (beta := beta) hβ hi hj hk hbi hbj hbk hg h
  obtain rfl : m' = m'' := Except.ok.inj (q.symm.trans e)
  exact ⟨m', d, fun i j k h0 h1 h2 h3 h4 h5 => ⟨_, (S i j k (by omega) (by omega) (by omega) (by omega) (by omega) (by omega)).2.1, (S (i + 1) j k (by omega) (by omega) (by omega) (by omega) (by omega) (by omega)).1⟩, fun i j k h0 h1 h2 h3 h4 h5 => ⟨_, (S i j k (by omega) (by omega) (by omega) (by omega) (by omega) (by omega)).2.2.2.1, (S i (j + 1) k (by omega) (by omega) (by omega) (by omega) (by omega) (by omega)).2.2.1⟩, fun i j k h0 h1 h2 h3 h4 h5 => ⟨_, (S i j k (by omega) (by omega) (by omega) (by omega) (by omega) (by omega)).2.2.2.2.2, (S i j (k + 1) (by omega) (by omega) (by omega) (by omega) (by omega) (by omega)).2.2.2.2.1⟩⟩

example : ∃ m', Cuda.offdiag3d 0 1 2 1 2 3 (-1) (0) (1) (2) (3) (4) exDx 2 ⟨2, 0⟩ ⟨3, 0⟩ ⟨4, 0⟩ 1 ⟨9, 0⟩ revBackend exRat = .ok m' ∧
      (∀ i j k, 0 ≤ i → i < 1 → 1 ≤ j → j ≤ 2 → 2 ≤ k → k ≤ 3 → ∃ c, F.El m' (F.st3d ⟨9, 0⟩ 0 1 2 1 2 3 1) [2, i, j, k] c ∧ F.El m' (F.st3d ⟨9, 0⟩ 0 1 2 1 2 3 1) [1, i + 1, j, k] c) ∧
      (∀ i j k, 0 ≤ i → i ≤ 1 → 1 ≤ j → j < 2 → 2 ≤ k → k ≤ 3 → ∃ c, F.El m' (F.st3d ⟨9, 0⟩ 0 1 2 1 2 3 1) [4, i, j, k] c ∧ F.El m' (F.st3d ⟨9, 0⟩ 0 1 2 1 2 3 1) [3, i, j + 1, k] c) ∧
      (∀ i j k, 0 ≤ i → i ≤ 1 → 1 ≤ j → j ≤ 2 → 2 ≤ k → k < 3 → ∃ c, F.El m' (F.st3d ⟨9, 0⟩ 0 1 2 1 2 3 1) [6, i, j, k] c ∧ F.El m' (F.st3d ⟨9, 0⟩ 0 1 2 1 2 3 1) [5, i, j, k + 1] c) :=
  C39_3d revBackend_ok (by decide) (by decide) (by decide) (by decide) (by decide) (by decide) (by decide) (by ex_args)

/-- The coefficient with which `poissonOffdiag3d` couples a cell of the box to its upper neighbour in the box is the one coupling the neighbour to
the cell, in every direction. -/
theorem C39_poisson_3d {i0 j0 k0 i1 j1 k1 sgcw : Int} {dx : Nat → T} {beta : T} {st : Ptr} {β : Backend} {m : Mem T}
    (hβ : ValidBackend β) (hi : i0 ≤ i1) (hj : j0 ≤ j1) (hk : k0 ≤ k1) (hg : 0 ≤ sgcw)
    (h : F.Args m [] [(F.st3d st i0 j0 k0 i1 j1 k1 sgcw)]) :
    ∃ m', Cuda.poissonOffdiag3d i0 j0 k0 i1 j1 k1 dx beta sgcw st β m = .ok m' ∧
      (∀ i j k, i0 ≤ i → i < i1 → j0 ≤ j → j ≤ j1 → k0 ≤ k → k ≤ k1 → ∃ c, F.El m' (F.st3d st i0 j0 k0 i1 j1 k1 sgcw) [2, i, j, k] c ∧ F.El m' (F.st3d st i0 j0 k0 i1 j1 k1 sgcw) [1, i + 1, j, k] c) ∧
      (∀ i j k, i0 ≤ i → i ≤ i1 → j0 ≤ j → j < j1 → k0 ≤ k → k ≤ k1 → ∃ c, F.El m' (F.st3d st i0 j0 k0 i1 j1 k1 sgcw) [4, i, j, k] c ∧ F.El m' (F.st3d st i0 j0 k0 i1 j1 k1 sgcw) [3, i, j + 1, k] c) ∧
      (∀ i j k, i0 ≤ i → i ≤ i1 → j0 ≤ j → j ≤ j1 → k0 ≤ k → k < k1 → ∃ c, F.El m' (F.st3d st i0 j0 k0 i1 j1 k1 sgcw) [6, i, j, k] c ∧ F.El m' (F.st3d st i0 j0 k0 i1 j1 k1 sgcw) [5, i, j, k + 1] c) := by
  obtain ⟨m', q, -, -, S⟩ := poffdiag3_run (dx := dx) (beta := beta) hi hj hk hg h
  obtain ⟨m'', d, e⟩ := C36_poisson_offdiag_3d (dx := dx) (beta := beta) hβ hi hj hk hg h
  obtain rfl : m' = m'' := Except.ok.inj (q.symm.trans e)
  exact ⟨m', d, fun i j k h0 h1 h2 h3 h4 h5 => ⟨_, (S i j k (by omega) (by omega) (by omega) (by omega) (by omega) (by omega)).2.1, (S (i + 1) j k (by omega) (by omega) (by omega) (by omega) (by omega) (by omega)).1⟩, fun i j k h0 h1 h2 h3 h4 h5 => ⟨_, (S i j k (by omega) (by omega) (by omega) (by omega) (by omega) (by omega)).2.2.2.1, (S i (j + 1) k (by omega) (by omega) (by omega) (by omega) (by omega) (by omega)).2.2.1⟩, fun i j k h0 h1 h2 h3 h4 h5 => ⟨_, (S i j k (by omega) (by omega) (by omega) (by omega) (by omega) (by omega)).2.2.2.2.2, (S i j (k + 1) (by omega) (by omega) (by omega) (by omega) (by omega) (by omega)).2.2.2.2.1⟩⟩

example : ∃ m', Cuda.poissonOffdiag3d 0 1 2 1 2 3 exDx 2 1 ⟨9, 0⟩ revBackend exRat = .ok m' ∧
      (∀ i j k, 0 ≤ i → i < 1 → 1 ≤ j → j ≤ 2 → 2 ≤ k → k ≤ 3 → ∃ c, F.El m' (F.st3d ⟨9, 0⟩ 0 1 2 1 2 3 1) [2, i, j, k] c ∧ F.El m' (F.st3d ⟨9, 0⟩ 0 1 2 1 2 3 1) [1, i + 1, j, k] c) ∧
      (∀ i j k, 0 ≤ i → i ≤ 1 → 1 ≤ j → j < 2 → 2 ≤ k → k ≤ 3 → ∃ c, F.El m' (F.st3d ⟨9, 0⟩ 0 1 2 1 2 3 1) [4, i, j, k] c ∧ F.El m' (F.st3d ⟨9, 0⟩ 0 1 2 1 2 3 1) [3, i, j + 1, k] c) ∧
      (∀ i j k, 0 ≤ i → i ≤ 1 → 1 ≤ j → j ≤ 2 → 2 ≤ k → k < 3 → ∃ c, F.El m' (F.st3d ⟨9, 0⟩ 0 1 2 1 2 3 1) [6, i, j, k] c ∧ F.El m' (F.st3d ⟨9, 0⟩ 0 1 2 1 2 3 1) [5, i, j, k + 1] c) :=
  C39_poisson_3d revBackend_ok (by decide) (by decide) (by decide) (by decide) (by ex_args)

/-! ### C40 -/

/-- Summed over the box and scaled by the cell volume, what `poissonFlux1d` and then `poissonV2Apply1d` leave is `-beta` times the difference of the
fluxes through the boundary. -/
theorem C40_poisson_1d {i0 i1 gcw rgcw : Int} {beta : T} {dx : Nat → T} {u f0 res : Ptr} {β1 β2 : Nat → Backend} {m : Mem T}
    (hβ1 : ∀ n, ValidBackend (β1 n)) (hβ2 : ∀ n, ValidBackend (β2 n))
    (hi : i0 ≤ i1) (hg : 1 ≤ gcw) (hrgcw : 0 ≤ rgcw) (hd0 : dx 0 ≠ 0)
    (h : F.Args m [(F.cell1d u i0 i1 gcw)] [(F.face1d f0 i0 i1 0), (F.cell1d res i0 i1 rgcw)])
    (hr : F.Apart (F.cell1d res i0 i1 rgcw) (F.face1d f0 i0 i1 0)) :
    ∃ m1 m2, Cuda.poissonFlux1d i0 i1 dx gcw u f0 β1 m = .ok m1 ∧ Cuda.poissonV2Apply1d i0 i1 beta dx f0 rgcw res β2 m1 = .ok m2 ∧
      ∃ (R G0 : Int → T),
        (∀ i, i0 ≤ i → i ≤ i1 → F.El m2 (F.cell1d res i0 i1 rgcw) [i] (R i)) ∧
        (∀ i, i0 ≤ i → i ≤ i1 + 1 → F.El m1 (F.face1d f0 i0 i1 0) [i] (G0 i)) ∧
        (F.sum i0 i1 fun i => R i) * dx 0 =
          -beta * (G0 (i1 + 1) - G0 i0) := by
  obtain ⟨m1, m2, c1, c2, -, -, V0, W⟩ := op_p_1 (beta := beta) (dx := dx) hβ1 hβ2 hi hg hrgcw h hr
  refine ⟨m1, m2, c1, c2, fun i => -(beta * (((F.rd m (F.cell1d u i0 i1 gcw) [i + 1] - F.rd m (F.cell1d u i0 i1 gcw) [i]) / dx 0 - (F.rd m (F.cell1d u i0 i1 gcw) [i] - F.rd m (F.cell1d u i0 i1 gcw) [i - 1]) / dx 0) / dx 0)), fun i => (F.rd m (F.cell1d u i0 i1 gcw) [i] - F.rd m (F.cell1d u i0 i1 gcw) [i - 1]) / dx 0, W, V0, ?_⟩
  have e := F.conserve1 (beta := beta) (G0 := fun i => (F.rd m (F.cell1d u i0 i1 gcw) [i] - F.rd m (F.cell1d u i0 i1 gcw) [i - 1]) / dx 0) hi hd0
  simp only [add_sub_cancel_right] at e ⊢
  exact e

example : ∃ m1 m2, Cuda.poissonFlux1d 0 3 exDx 2 ⟨1, 0⟩ ⟨5, 0⟩ (fun _ => revBackend) exRat = .ok m1 ∧ Cuda.poissonV2Apply1d 0 3 2 exDx ⟨5, 0⟩ 1 ⟨8, 0⟩ (fun _ => seqBackend) m1 = .ok m2 ∧
      ∃ (R G0 : Int → Rat),
        (∀ i, 0 ≤ i → i ≤ 3 → F.El m2 (F.cell1d ⟨8, 0⟩ 0 3 1) [i] (R i)) ∧
        (∀ i, 0 ≤ i → i ≤ 3 + 1 → F.El m1 (F.face1d ⟨5, 0⟩ 0 3 0) [i] (G0 i)) ∧
        (F.sum 0 3 fun i => R i) * exDx 0 =
          -2 * (G0 (3 + 1) - G0 0) :=
  C40_poisson_1d (fun _ => revBackend_ok) (fun _ => seqBackend_ok) (by decide) (by decide) (by decide) (by norm_num [exDx]) (by ex_args) (apart_blk (by decide))

/-- Summed over the box and scaled by the cell volume, what `flux1d` and then `poissonV2Apply1d` leave is `-beta` times the difference of the
fluxes through the boundary. -/
theorem C40_diffusion_1d {i0 i1 gcw rgcw : Int} {beta : T} {dx : Nat → T} {u b0 f0 res : Ptr} {β1 β2 : Nat → Backend} {m : Mem T}
    (hβ1 : ∀ n, ValidBackend (β1 n)) (hβ2 : ∀ n, ValidBackend (β2 n))
    (hi : i0 ≤ i1) (hg : 1 ≤ gcw) (hrgcw : 0 ≤ rgcw) (hd0 : dx 0 ≠ 0)
    (h : F.Args m [(F.cell1d u i0 i1 gcw), (F.face1d b0 i0 i1 0)] [(F.face1d f0 i0 i1 0), (F.cell1d res i0 i1 rgcw)])
    (hr : F.Apart (F.cell1d res i0 i1 rgcw) (F.face1d f0 i0 i1 0)) :
    ∃ m1 m2, Cuda.flux1d i0 i1 dx b0 gcw u f0 β1 m = .ok m1 ∧ Cuda.poissonV2Apply1d i0 i1 beta dx f0 rgcw res β2 m1 = .ok m2 ∧
      ∃ (R G0 : Int → T),
        (∀ i, i0 ≤ i → i ≤ i1 → F.El m2 (F.cell1d res i0 i1 rgcw) [i] (R i)) ∧
        (∀ i, i0 ≤ i → i ≤ i1 + 1 → F.El m1 (F.face1d f0 i0 i1 0) [i] (G0 i)) ∧
        (F.sum i0 i1 fun i => R i) * dx 0 =
          -beta * (G0 (i1 + 1) - G0 i0) := by
  obtain ⟨m1, m2, c1, c2, -, -, V0, W⟩ := op_d_1 (beta := beta) (dx := dx) hβ1 hβ2 hi hg hrgcw h hr
  refine ⟨m1, m2, c1, c2, fun i => -(beta * ((F.rd m (F.face1d b0 i0 i1 0) [i + 1] * (F.rd m (F.cell1d u i0 i1 gcw) [i + 1] - F.rd m (F.cell1d u i0 i1 gcw) [i]) / dx 0 - F.rd m (F.face1d b0 i0 i1 0) [i] * (F.rd m (F.cell1d u i0 i1 gcw) [i] - F.rd m (F.cell1d u i0 i1 gcw) [i - 1]) / dx 0) / dx 0)), fun i => F.rd m (F.face1d b0 i0 i1 0) [i] * (F.rd m (F.cell1d u i0 i1 gcw) [i] - F.rd m (F.cell1d u i0 i1 gcw) [i - 1]) / dx 0, W, V0, ?_⟩
  have e := F.conserve1 (beta := beta) (G0 := fun i => F.rd m (F.face1d b0 i0 i1 0) [i] * (F.rd m (F.cell1d u i0 i1 gcw) [i] - F.rd m (F.cell1d u i0 i1 gcw) [i - 1]) / dx 0) hi hd0
  simp only [add_sub_cancel_right] at e ⊢
  exact e

example : ∃ m1 m2, Cuda.flux1d 0 3 exDx ⟨2, 0⟩ 2 ⟨1, 0⟩ ⟨5, 0⟩ (fun _ => revBackend) exRat = .ok m1 ∧ Cuda.poissonV2Apply1d 0 3 2 exDx ⟨5, 0⟩ 1 ⟨8, 0⟩ (fun _ => seqBackend) m1 = .ok m2 ∧
      ∃ (R G0 : Int → Rat),
        (∀ i, 0 ≤ i → i ≤ 3 → F.El m2 (F.cell1d ⟨8, 0⟩ 0 3 1) [i] (R i)) ∧
        (∀ i, 0 ≤ i → i ≤ 3 + 1 → F.El m1 (F.face1d ⟨5, 0⟩ 0 3 0) [i] (G0 i)) ∧
        (F.sum 0 3 fun i => R i) * exDx 0 =
          -2 * (G0 (3 + 1) - G0 0) :=
  C40_diffusion_1d (fun _ => revBackend_ok) (fun _ => seqBackend_ok) (by decide) (by decide) (by decide) (by norm_num [exDx]) (by ex_args) (apart_blk (by decide))

/-- Summed over the box and scaled by the cell volume, what `flux1d` and then `diffusionV1Apply1d` leave is `-beta` times the difference of the
fluxes through the boundary plus the sum of the term without derivatives. -/
theorem C40_v1_1d {i0 i1 agcw gcw rgcw : Int} {alpha beta : T} {dx : Nat → T} {a u b0 f0 res : Ptr} {β1 β2 : Nat → Backend} {m : Mem T}
    (hβ1 : ∀ n, ValidBackend (β1 n)) (hβ2 : ∀ n, ValidBackend (β2 n))
    (hi : i0 ≤ i1) (hg : 1 ≤ gcw) (hagcw : 0 ≤ agcw) (hrgcw : 0 ≤ rgcw) (hd0 : dx 0 ≠ 0)
    (h : F.Args m [(F.cell1d a i0 i1 agcw), (F.cell1d u i0 i1 gcw), (F.face1d b0 i0 i1 0)] [(F.face1d f0 i0 i1 0), (F.cell1d res i0 i1 rgcw)])
    (hr : F.Apart (F.cell1d res i0 i1 rgcw) (F.face1d f0 i0 i1 0)) :
    ∃ m1 m2, Cuda.flux1d i0 i1 dx b0 gcw u f0 β1 m = .ok m1 ∧ Cuda.diffusionV1Apply1d i0 i1 alpha beta dx agcw a gcw u f0 rgcw res β2 m1 = .ok m2 ∧
      ∃ (R G0 A U : Int → T),
        (∀ i, i0 ≤ i → i ≤ i1 → F.El m2 (F.cell1d res i0 i1 rgcw) [i] (R i)) ∧
        (∀ i, i0 ≤ i → i ≤ i1 + 1 → F.El m1 (F.face1d f0 i0 i1 0) [i] (G0 i)) ∧
        (∀ i, i0 ≤ i → i ≤ i1 → F.El m (F.cell1d a i0 i1 agcw) [i] (A i)) ∧
        (∀ i, i0 ≤ i → i ≤ i1 → F.El m (F.cell1d u i0 i1 gcw) [i] (U i)) ∧
        (F.sum i0 i1 fun i => R i) * dx 0 =
          -beta * (G0 (i1 + 1) - G0 i0) + (F.sum i0 i1 fun i => alpha * A i * U i) * dx 0 := by
  obtain ⟨m1, m2, c1, c2, -, -, V0, W⟩ := op_v1_1 (alpha := alpha) (beta := beta) (dx := dx) hβ1 hβ2 hi hg hagcw hrgcw h hr
  refine ⟨m1, m2, c1, c2, fun i => -(beta * ((F.rd m (F.face1d b0 i0 i1 0) [i + 1] * (F.rd m (F.cell1d u i0 i1 gcw) [i + 1] - F.rd m (F.cell1d u i0 i1 gcw) [i]) / dx 0 - F.rd m (F.face1d b0 i0 i1 0) [i] * (F.rd m (F.cell1d u i0 i1 gcw) [i] - F.rd m (F.cell1d u i0 i1 gcw) [i - 1]) / dx 0) / dx 0)) + alpha * F.rd m (F.cell1d a i0 i1 agcw) [i] * F.rd m (F.cell1d u i0 i1 gcw) [i], fun i => F.rd m (F.face1d b0 i0 i1 0) [i] * (F.rd m (F.cell1d u i0 i1 gcw) [i] - F.rd m (F.cell1d u i0 i1 gcw) [i - 1]) / dx 0, fun i => F.rd m (F.cell1d a i0 i1 agcw) [i], fun i => F.rd m (F.cell1d u i0 i1 gcw) [i], W, V0, fun i h0 h1 => (h.ok (F.cell1d a i0 i1 agcw) (by simp)).rd (by in_bounds), fun i h0 h1 => (h.ok (F.cell1d u i0 i1 gcw) (by simp)).rd (by in_bounds), ?_⟩
  have e := F.conserve1 (beta := beta) (G0 := fun i => F.rd m (F.face1d b0 i0 i1 0) [i] * (F.rd m (F.cell1d u i0 i1 gcw) [i] - F.rd m (F.cell1d u i0 i1 gcw) [i - 1]) / dx 0) hi hd0
  simp only [add_sub_cancel_right] at e
  simp only [F.sum_add, add_mul, add_sub_cancel_right]
  rw [e]

example : ∃ m1 m2, Cuda.flux1d 0 3 exDx ⟨2, 0⟩ 2 ⟨1, 0⟩ ⟨5, 0⟩ (fun _ => revBackend) exRat = .ok m1 ∧ Cuda.diffusionV1Apply1d 0 3 3 2 exDx 1 ⟨0, 0⟩ 2 ⟨1, 0⟩ ⟨5, 0⟩ 1 ⟨8, 0⟩ (fun _ => seqBackend) m1 = .ok m2 ∧
      ∃ (R G0 A U : Int → Rat),
        (∀ i, 0 ≤ i → i ≤ 3 → F.El m2 (F.cell1d ⟨8, 0⟩ 0 3 1) [i] (R i)) ∧
        (∀ i, 0 ≤ i → i ≤ 3 + 1 → F.El m1 (F.face1d ⟨5, 0⟩ 0 3 0) [i] (G0 i)) ∧
        (∀ i, 0 ≤ i → i ≤ 3 → F.El exRat (F.cell1d ⟨0, 0⟩ 0 3 1) [i] (A i)) ∧
        (∀ i, 0 ≤ i → i ≤ 3 → F.El exRat (F.cell1d ⟨1, 0⟩ 0 3 2) [i] (U i)) ∧
        (F.sum 0 3 fun i => R i) * exDx 0 =
          -2 * (G0 (3 + 1) - G0 0) + (F.sum 0 3 fun i => 3 * A i * U i) * exDx 0 :=
  C40_v1_1d (fun _ => revBackend_ok) (fun _ => seqBackend_ok) (by decide) (by decide) (by decide) (by decide) (by norm_num [exDx]) (by ex_args) (apart_blk (by decide))

/-- Summed over the box and scaled by the cell volume, what `flux1d` and then `diffusionV2Apply1d` leave is `-beta` times the difference of the
fluxes through the boundary plus the sum of the term without derivatives. -/
theorem C40_v2_1d {i0 i1 gcw rgcw : Int} {alpha beta : T} {dx : Nat → T} {u b0 f0 res : Ptr} {β1 β2 : Nat → Backend} {m : Mem T}
    (hβ1 : ∀ n, ValidBackend (β1 n)) (hβ2 : ∀ n, ValidBackend (β2 n))
    (hi : i0 ≤ i1) (hg : 1 ≤ gcw) (hrgcw : 0 ≤ rgcw) (hd0 : dx 0 ≠ 0)
    (h : F.Args m [(F.cell1d u i0 i1 gcw), (F.face1d b0 i0 i1 0)] [(F.face1d f0 i0 i1 0), (F.cell1d res i0 i1 rgcw)])
    (hr : F.Apart (F.cell1d res i0 i1 rgcw) (F.face1d f0 i0 i1 0)) :
    ∃ m1 m2, Cuda.flux1d i0 i1 dx b0 gcw u f0 β1 m = .ok m1 ∧ Cuda.diffusionV2Apply1d i0 i1 alpha beta dx gcw u f0 rgcw res β2 m1 = .ok m2 ∧
      ∃ (R G0 U : Int → T),
        (∀ i, i0 ≤ i → i ≤ i1 → F.El m2 (F.cell1d res i0 i1 rgcw) [i] (R i)) ∧
        (∀ i, i0 ≤ i → i ≤ i1 + 1 → F.El m1 (F.face1d f0 i0 i1 0) [i] (G0 i)) ∧
        (∀ i, i0 ≤ i → i ≤ i1 → F.El m (F.cell1d u i0 i1 gcw) [i] (U i)) ∧
        (F.sum i0 i1 fun i => R i) * dx 0 =
          -beta * (G0 (i1 + 1) - G0 i0) + (F.sum i0 i1 fun i => alpha * U i) * dx 0 := by
  obtain ⟨m1, m2, c1, c2, -, -, V0, W⟩ := op_v2_1 (alpha := alpha) (beta := beta) (dx := dx) hβ1 hβ2 hi hg hrgcw h hr
  refine ⟨m1, m2, c1, c2, fun i => -(beta * ((F.rd m (F.face1d b0 i0 i1 0) [i + 1] * (F.rd m (F.cell1d u i0 i1 gcw) [i + 1] - F.rd m (F.cell1d u i0 i1 gcw) [i]) / dx 0 - F.rd m (F.face1d b0 i0 i1 0) [i] * (F.rd m (F.cell1d u i0 i1 gcw) [i] - F.rd m (F.cell1d u i0 i1 gcw) [i - 1]) / dx 0) / dx 0)) + alpha * F.rd m (F.cell1d u i0 i1 gcw) [i], fun i => F.rd m (F.face1d b0 i0 i1 0) [i] * (F.rd m (F.cell1d u i0 i1 gcw) [i] - F.rd m (F.cell1d u i0 i1 gcw) [i - 1]) / dx 0, fun i => F.rd m (F.cell1d u i0 i1 gcw) [i], W, V0, fun i h0 h1 => (h.ok (F.cell1d u i0 i1 gcw) (by simp)).rd (by in_bounds), ?_⟩
  have e := F.conserve1 (beta := beta) (G0 := fun i => F.rd m (F.face1d b0 i0 i1 0) [i] * (F.rd m (F.cell1d u i0 i1 gcw) [i] - F.rd m (F.cell1d u i0 i1 gcw) [i - 1]) / dx 0) hi hd0
  simp only [add_sub_cancel_right] at e
  simp only [F.sum_add, add_mul, add_sub_cancel_right]
  rw [e]

example : ∃ m1 m2, Cuda.flux1d 0 3 exDx ⟨2, 0⟩ 2 ⟨1, 0⟩ ⟨5, 0⟩ (fun _ => revBackend) exRat = .ok m1 ∧ Cuda.diffusionV2Apply1d 0 3 3 2 exDx 2 ⟨1, 0⟩ ⟨5, 0⟩ 1 ⟨8, 0⟩ (fun _ => seqBackend) m1 = .ok m2 ∧
      ∃ (R G0 U : Int → Rat),
        (∀ i, 0 ≤ i → i ≤ 3 → F.El m2 (F.cell1d ⟨8, 0⟩ 0 3 1) [i] (R i)) ∧
        (∀ i, 0 ≤ i → i ≤ 3 + 1 → F.El m1 (F.face1d ⟨5, 0⟩ 0 3 0) [i] (G0 i)) ∧
        (∀ i, 0 ≤ i → i ≤ 3 → F.El exRat (F.cell1d ⟨1, 0⟩ 0 3 2) [i] (U i)) ∧
        (F.sum 0 3 fun i => R i) * exDx 0 =
          -2 * (G0 (3 + 1) - G0 0) + (F.sum 0 3 fun i => 3 * U i) * exDx 0 :=
  C40_v2_1d (fun _ => revBackend_ok) (fun _ => seqBackend_ok) (by decide) (by decide) (by decide) (by norm_num [exDx]) (by ex_args) (apart_blk (by decide))

/-- Summed over the box and scaled by the cell volume, what `poissonFlux2d` and then `poissonV2Apply2d` leave is `-beta` times the difference of the
fluxes through the boundary. -/
theorem C40_poisson_2d {i0 j0 i1 j1 gcw rgcw : Int} {beta : T} {dx : Nat → T} {u f0 f1 res : Ptr} {β1 β2 : Nat → Backend} {m : Mem T}
    (hβ1 : ∀ n, ValidBackend (β1 n)) (hβ2 : ∀ n, ValidBackend (β2 n))
    (hi : i0 ≤ i1) (hj : j0 ≤ j1) (hg : 1 ≤ gcw) (hrgcw : 0 ≤ rgcw) (hd0 : dx 0 ≠ 0) (hd1 : dx 1 ≠ 0)
    (h : F.Args m [(F.cell2d u i0 j0 i1 j1 gcw)] [(F.face2d0 f0 i0 j0 i1 j1 0), (F.face2d1 f1 i0 j0 i1 j1 0), (F.cell2d res i0 j0 i1 j1 rgcw)])
    (hp : F.Apart (F.face2d0 f0 i0 j0 i1 j1 0) (F.face2d1 f1 i0 j0 i1 j1 0))
    (hr : F.Apart (F.cell2d res i0 j0 i1 j1 rgcw) (F.face2d0 f0 i0 j0 i1 j1 0) ∧ F.Apart (F.cell2d res i0 j0 i1 j1 rgcw) (F.face2d1 f1 i0 j0 i1 j1 0)) :
    ∃ m1 m2, Cuda.poissonFlux2d i0 j0 i1 j1 dx gcw u f0 f1 β1 m = .ok m1 ∧ Cuda.poissonV2Apply2d i0 i1 j0 j1 beta dx f0 f1 rgcw res β2 m1 = .ok m2 ∧
      ∃ (R G0 G1 : Int → Int → T),
        (∀ i j, i0 ≤ i → i ≤ i1 → j0 ≤ j → j ≤ j1 → F.El m2 (F.cell2d res i0 j0 i1 j1 rgcw) [i, j] (R i j)) ∧
        (∀ i j, i0 ≤ i → i ≤ i1 + 1 → j0 ≤ j → j ≤ j1 → F.El m1 (F.face2d0 f0 i0 j0 i1 j1 0) [i, j] (G0 i j)) ∧
        (∀ i j, i0 ≤ i → i ≤ i1 → j0 ≤ j → j ≤ j1 + 1 → F.El m1 (F.face2d1 f1 i0 j0 i1 j1 0) [j, i] (G1 i j)) ∧
        (F.sum i0 i1 fun i => F.sum j0 j1 fun j => R i j) * (dx 0 * dx 1) =
          -beta * ((F.sum j0 j1 fun j => G0 (i1 + 1) j - G0 i0 j) * dx 1 + (F.sum i0 i1 fun i => G1 i (j1 + 1) - G1 i j0) * dx 0) := by
  obtain ⟨m1, m2, c1, c2, -, -, V0, V1, W⟩ := op_p_2 (beta := beta) (dx := dx) hβ1 hβ2 hi hj hg hrgcw h hp hr
  refine ⟨m1, m2, c1, c2, fun i j => -(beta * (((F.rd m (F.cell2d u i0 j0 i1 j1 gcw) [i + 1, j] - F.rd m (F.cell2d u i0 j0 i1 j1 gcw) [i, j]) / dx 0 - (F.rd m (F.cell2d u i0 j0 i1 j1 gcw) [i, j] - F.rd m (F.cell2d u i0 j0 i1 j1 gcw) [i - 1, j]) / dx 0) / dx 0 + ((F.rd m (F.cell2d u i0 j0 i1 j1 gcw) [i, j + 1] - F.rd m (F.cell2d u i0 j0 i1 j1 gcw) [i, j]) / dx 1 - (F.rd m (F.cell2d u i0 j0 i1 j1 gcw) [i, j] - F.rd m (F.cell2d u i0 j0 i1 j1 gcw) [i, j - 1]) / dx 1) / dx 1)), fun i j => (F.rd m (F.cell2d u i0 j0 i1 j1 gcw) [i, j] - F.rd m (F.cell2d u i0 j0 i1 j1 gcw) [i - 1, j]) / dx 0, fun i j => (F.rd m (F.cell2d u i0 j0 i1 j1 gcw) [i, j] - F.rd m (F.cell2d u i0 j0 i1 j1 gcw) [i, j - 1]) / dx 1, W, V0, V1, ?_⟩
  have e := F.conserve2 (beta := beta) (G0 := fun i j => (F.rd m (F.cell2d u i0 j0 i1 j1 gcw) [i, j] - F.rd m (F.cell2d u i0 j0 i1 j1 gcw) [i - 1, j]) / dx 0) (G1 := fun i j => (F.rd m (F.cell2d u i0 j0 i1 j1 gcw) [i, j] - F.rd m (F.cell2d u i0 j0 i1 j1 gcw) [i, j - 1]) / dx 1) hi hj hd0 hd1
  simp only [add_sub_cancel_right] at e ⊢
  exact e

example : ∃ m1 m2, Cuda.poissonFlux2d 0 1 2 3 exDx 2 ⟨1, 0⟩ ⟨5, 0⟩ ⟨6, 0⟩ (fun _ => revBackend) exRat = .ok m1 ∧ Cuda.poissonV2Apply2d 0 2 1 3 2 exDx ⟨5, 0⟩ ⟨6, 0⟩ 1 ⟨8, 0⟩ (fun _ => seqBackend) m1 = .ok m2 ∧
      ∃ (R G0 G1 : Int → Int → Rat),
        (∀ i j, 0 ≤ i → i ≤ 2 → 1 ≤ j → j ≤ 3 → F.El m2 (F.cell2d ⟨8, 0⟩ 0 1 2 3 1) [i, j] (R i j)) ∧
        (∀ i j, 0 ≤ i → i ≤ 2 + 1 → 1 ≤ j → j ≤ 3 → F.El m1 (F.face2d0 ⟨5, 0⟩ 0 1 2 3 0) [i, j] (G0 i j)) ∧
        (∀ i j, 0 ≤ i → i ≤ 2 → 1 ≤ j → j ≤ 3 + 1 → F.El m1 (F.face2d1 ⟨6, 0⟩ 0 1 2 3 0) [j, i] (G1 i j)) ∧
        (F.sum 0 2 fun i => F.sum 1 3 fun j => R i j) * (exDx 0 * exDx 1) =
          -2 * ((F.sum 1 3 fun j => G0 (2 + 1) j - G0 0 j) * exDx 1 + (F.sum 0 2 fun i => G1 i (3 + 1) - G1 i 1) * exDx 0) :=
  C40_poisson_2d (fun _ => revBackend_ok) (fun _ => seqBackend_ok) (by decide) (by decide) (by decide) (by decide) (by norm_num [exDx]) (by norm_num [exDx]) (by ex_args) (apart_blk (by decide)) ⟨apart_blk (by decide), apart_blk (by decide)⟩

/-- Summed over the box and scaled by the cell volume, what `flux2d` and then `poissonV2Apply2d` leave is `-beta` times the difference of the
fluxes through the boundary. -/
theorem C40_diffusion_2d {i0 j0 i1 j1 gcw rgcw : Int} {beta : T} {dx : Nat → T} {u b0 b1 f0 f1 res : Ptr} {β1 β2 : Nat → Backend} {m : Mem T}
    (hβ1 : ∀ n, ValidBackend (β1 n)) (hβ2 : ∀ n, ValidBackend (β2 n))
    (hi : i0 ≤ i1) (hj : j0 ≤ j1) (hg : 1 ≤ gcw) (hrgcw : 0 ≤ rgcw) (hd0 : dx 0 ≠ 0) (hd1 : dx 1 ≠ 0)
    (h : F.Args m [(F.cell2d u i0 j0 i1 j1 gcw), (F.face2d0 b0 i0 j0 i1 j1 0), (F.face2d1 b1 i0 j0 i1 j1 0)] [(F.face2d0 f0 i0 j0 i1 j1 0), (F.face2d1 f1 i0 j0 i1 j1 0), (F.cell2d res i0 j0 i1 j1 rgcw)])
    (hp : F.Apart (F.face2d0 f0 i0 j0 i1 j1 0) (F.face2d1 f1 i0 j0 i1 j1 0))
    (hr : F.Apart (F.cell2d res i0 j0 i1 j1 rgcw) (F.face2d0 f0 i0 j0 i1 j1 0) ∧ F.Apart (F.cell2d res i0 j0 i1 j1 rgcw) (F.face2d1 f1 i0 j0 i1 j1 0)) :
    ∃ m1 m2, Cuda.flux2d i0 j0 i1 j1 dx b0 b1 gcw u f0 f1 β1 m = .ok m1 ∧ Cuda.poissonV2Apply2d i0 i1 j0 j1 beta dx f0 f1 rgcw res β2 m1 = .ok m2 ∧
      ∃ (R G0 G1 : Int → Int → T),
        (∀ i j, i0 ≤ i → i ≤ i1 → j0 ≤ j → j ≤ j1 → F.El m2 (F.cell2d res i0 j0 i1 j1 rgcw) [i, j] (R i j)) ∧
        (∀ i j, i0 ≤ i → i ≤ i1 + 1 → j0 ≤ j → j ≤ j1 → F.El m1 (F.face2d0 f0 i0 j0 i1 j1 0) [i, j] (G0 i j)) ∧
        (∀ i j, i0 ≤ i → i ≤ i1 → j0 ≤ j → j ≤ j1 + 1 → F.El m1 (F.face2d1 f1 i0 j0 i1 j1 0) [j, i] (G1 i j)) ∧
        (F.sum i0 i1 fun i => F.sum j0 j1 fun j => R i j) * (dx 0 * dx 1) =
          -beta * ((F.sum j0 j1 fun j => G0 (i1 + 1) j - G0 i0 j) * dx 1 + (F.sum i0 i1 fun i => G1 i (j1 + 1) - G1 i j0) * dx 0) := by
  obtain ⟨m1, m2, c1, c2, -, -, V0, V1, W⟩ := op_d_2 (beta := beta) (dx := dx) hβ1 hβ2 hi hj hg hrgcw h hp hr
  refine ⟨m1, m2, c1, c2, fun i j => -(beta * ((F.rd m (F.face2d0 b0 i0 j0 i1 j1 0) [i + 1, j] * (F.rd m (F.cell2d u i0 j0 i1 j1 gcw) [i + 1, j] - F.rd m (F.cell2d u i0 j0 i1 j1 gcw) [i, j]) / dx 0 - F.rd m (F.face2d0 b0 i0 j0 i1 j1 0) [i, j] * (F.rd m (F.cell2d u i0 j0 i1 j1 gcw) [i, j] - F.rd m (F.cell2d u i0 j0 i1 j1 gcw) [i - 1, j]) / dx 0) / dx 0 + (F.rd m (F.face2d1 b1 i0 j0 i1 j1 0) [j + 1, i] * (F.rd m (F.cell2d u i0 j0 i1 j1 gcw) [i, j + 1] - F.rd m (F.cell2d u i0 j0 i1 j1 gcw) [i, j]) / dx 1 - F.rd m (F.face2d1 b1 i0 j0 i1 j1 0) [j, i] * (F.rd m (F.cell2d u i0 j0 i1 j1 gcw) [i, j] - F.rd m (F.cell2d u i0 j0 i1 j1 gcw) [i, j - 1]) / dx 1) / dx 1)), fun i j => F.rd m (F.face2d0 b0 i0 j0 i1 j1 0) [i, j] * (F.rd m (F.cell2d u i0 j0 i1 j1 gcw) [i, j] - F.rd m (F.cell2d u i0 j0 i1 j1 gcw) [i - 1, j]) / dx 0, fun i j => F.rd m (F.face2d1 b1 i0 j0 i1 j1 0) [j, i] * (F.rd m (F.cell2d u i0 j0 i1 j1 gcw) [i, j] - F.rd m (F.cell2d u i0 j0 i1 j1 gcw) [i, j - 1]) / dx 1, W, V0, V1, ?_⟩
  have e := F.conserve2 (beta := beta) (G0 := fun i j => F.rd m (F.face2d0 b0 i0 j0 i1 j1 0) [i, j] * (F.rd m (F.cell2d u i0 j0 i1 j1 gcw) [i, j] - F.rd m (F.cell2d u i0 j0 i1 j1 gcw) [i - 1, j]) / dx 0) (G1 := fun i j => F.rd m (F.face2d1 b1 i0 j0 i1 j1 0) [j, i] * (F.rd m (F.cell2d u i0 j0 i1 j1 gcw) [i, j] - F.rd m (F.cell2d u i0 j0 i1 j1 gcw) [i, j - 1]) / dx 1) hi hj hd0 hd1
  simp only [add_sub_cancel_right] at e ⊢
  exact e

example : ∃ m1 m2, Cuda.flux2d 0 1 2 3 exDx ⟨2, 0⟩ ⟨3, 0⟩ 2 ⟨1, 0⟩ ⟨5, 0⟩ ⟨6, 0⟩ (fun _ => revBackend) exRat = .ok m1 ∧ Cuda.poissonV2Apply2d 0 2 1 3 2 exDx ⟨5, 0⟩ ⟨6, 0⟩ 1 ⟨8, 0⟩ (fun _ => seqBackend) m1 = .ok m2 ∧
      ∃ (R G0 G1 : Int → Int → Rat),
        (∀ i j, 0 ≤ i → i ≤ 2 → 1 ≤ j → j ≤ 3 → F.El m2 (F.cell2d ⟨8, 0⟩ 0 1 2 3 1) [i, j] (R i j)) ∧
        (∀ i j, 0 ≤ i → i ≤ 2 + 1 → 1 ≤ j → j ≤ 3 → F.El m1 (F.face2d0 ⟨5, 0⟩ 0 1 2 3 0) [i, j] (G0 i j)) ∧
        (∀ i j, 0 ≤ i → i ≤ 2 → 1 ≤ j → j ≤ 3 + 1 → F.El m1 (F.face2d1 ⟨6, 0⟩ 0 1 2 3 0) [j, i] (G1 i j)) ∧
        (F.sum 0 2 fun i => F.sum 1 3 fun j => R i j) * (exDx 0 * exDx 1) =
          -2 * ((F.sum 1 3 fun j => G0 (2 + 1) j - G0 0 j) * exDx 1 + (F.sum 0 2 fun i => G1 i (3 + 1) - G1 i 1) * exDx 0) :=
  C40_diffusion_2d (fun _ => revBackend_ok) (fun _ => seqBackend_ok) (by decide) (by decide) (by decide) (by decide) (by norm_num [exDx]) (by norm_num [exDx]) (by ex_args) (apart_blk (by decide)) ⟨apart_blk (by decide), apart_blk (by decide)⟩

/-- Summed over the box and scaled by the cell volume, what `flux2d` and then `diffusionV1Apply2d` leave is `-beta` times the difference of the
fluxes through the boundary plus the sum of the term without derivatives. -/
theorem C40_v1_2d {i0 j0 i1 j1 agcw gcw rgcw : Int} {alpha beta : T} {dx : Nat → T} {a u b0 b1 f0 f1 res : Ptr} {β1 β2 : Nat → Backend} {m : Mem T}
    (hβ1 : ∀ n, ValidBackend (β1 n)) (hβ2 : ∀ n, ValidBackend (β2 n))
    (hi : i0 ≤ i1) (hj : j0 ≤ j1) (hg : 1 ≤ gcw) (hagcw : 0 ≤ agcw) (hrgcw : 0 ≤ rgcw) (hd0 : dx 0 ≠ 0) (hd1 : dx 1 ≠ 0)
    (h : F.Args m [(F.cell2d a i0 j0 i1 j1 agcw), (F.cell2d u i0 j0 i1 j1 gcw), (F.face2d0 b0 i0 j0 i1 j1 0), (F.face2d1 b1 i0 j0 i1 j1 0)] [(F.face2d0 f0 i0 j0 i1 j1 0), (F.face2d1 f1 i0 j0 i1 j1 0), (F.cell2d res i0 j0 i1 j1 rgcw)])
    (hp : F.Apart (F.face2d0 f0 i0 j0 i1 j1 0) (F.face2d1 f1 i0 j0 i1 j1 0))
    (hr : F.Apart (F.cell2d res i0 j0 i1 j1 rgcw) (F.face2d0 f0 i0 j0 i1 j1 0) ∧ F.Apart (F.cell2d res i0 j0 i1 j1 rgcw) (F.face2d1 f1 i0 j0 i1 j1 0)) :
    ∃ m1 m2, Cuda.flux2d i0 j0 i1 j1 dx b0 b1 gcw u f0 f1 β1 m = .ok m1 ∧ Cuda.diffusionV1Apply2d i0 i1 j0 j1 alpha beta dx agcw a gcw u f0 f1 rgcw res β2 m1 = .ok m2 ∧
      ∃ (R G0 G1 A U : Int → Int → T),
        (∀ i j, i0 ≤ i → i ≤ i1 → j0 ≤ j → j ≤ j1 → F.El m2 (F.cell2d res i0 j0 i1 j1 rgcw) [i, j] (R i j)) ∧
        (∀ i j, i0 ≤ i → i ≤ i1 + 1 → j0 ≤ j → j ≤ j1 → F.El m1 (F.face2d0 f0 i0 j0 i1 j1 0) [i, j] (G0 i j)) ∧
        (∀ i j, i0 ≤ i → i ≤ i1 → j0 ≤ j → j ≤ j1 + 1 → F.El m1 (F.face2d1 f1 i0 j0 i1 j1 0) [j, i] (G1 i j)) ∧
        (∀ i j, i0 ≤ i → i ≤ i1 → j0 ≤ j → j ≤ j1 → F.El m (F.cell2d a i0 j0 i1 j1 agcw) [i, j] (A i j)) ∧
        (∀ i j, i0 ≤ i → i ≤ i1 → j0 ≤ j → j ≤ j1 → F.El m (F.cell2d u i0 j0 i1 j1 gcw) [i, j] (U i j)) ∧
        (F.sum i0 i1 fun i => F.sum j0 j1 fun j => R i j) * (dx 0 * dx 1) =
          -beta * ((F.sum j0 j1 fun j => G0 (i1 + 1) j - G0 i0 j) * dx 1 + (F.sum i0 i1 fun i => G1 i (j1 + 1) - G1 i j0) * dx 0) + (F.sum i0 i1 fun i => F.sum j0 j1 fun j => alpha * A i j * U i j) * (dx 0 * dx 1) := by
  obtain ⟨m1, m2, c1, c2, -, -, V0, V1, W⟩ := op_v1_2 (alpha := alpha) (beta := beta) (dx := dx) hβ1 hβ2 hi hj hg hagcw hrgcw h hp hr
  refine ⟨m1, m2, c1, c2, fun i j => -(beta * ((F.rd m (F.face2d0 b0 i0 j0 i1 j1 0) [i + 1, j] * (F.rd m (F.cell2d u i0 j0 i1 j1 gcw) [i + 1, j] - F.rd m (F.cell2d u i0 j0 i1 j1 gcw) [i, j]) / dx 0 - F.rd m (F.face2d0 b0 i0 j0 i1 j1 0) [i, j] * (F.rd m (F.cell2d u i0 j0 i1 j1 gcw) [i, j] - F.rd m (F.cell2d u i0 j0 i1 j1 gcw) [i - 1, j]) / dx 0) / dx 0 + (F.rd m (F.face2d1 b1 i0 j0 i1 j1 0) [j + 1, i] * (F.rd m (F.cell2d u i0 j0 i1 j1 gcw) [i, j + 1] - F.rd m (F.cell2d u i0 j0 i1 j1 gcw) [i, j]) / dx 1 - F.rd m (F.face2d1 b1 i0 j0 i1 j1 0) [j, i] * (F.rd m (F.cell2d u i0 j0 i1 j1 gcw) [i, j] - F.rd m (F.cell2d u i0 j0 i1 j1 gcw) [i, j - 1]) / dx 1) / dx 1)) + alpha * F.rd m (F.cell2d a i0 j0 i1 j1 agcw) [i, j] * F.rd m (F.cell2d u i0 j0 i1 j1 gcw) [i, j], fun i j => F.rd m (F.face2d0 b0 i0 j0 i1 j1 0) [i, j] * (F.rd m (F.cell2d u i0 j0 i1 j1 gcw) [i, j] - F.rd m (F.cell2d u i0 j0 i1 j1 gcw) [i - 1, j]) / dx 0, fun i j => F.rd m (F.face2d1 b1 i0 j0 i1 j1 0) [j, i] * (F.rd m (F.cell2d u i0 j0 i1 j1 gcw) [i, j] - F.rd m (F.cell2d u i0 j0 i1 j1 gcw) [i, j - 1]) / dx 1, fun i j => F.rd m (F.cell2d a i0 j0 i1 j1 agcw) [i, j], fun i j => F.rd m (F.cell2d u i0 j0 i1 j1 gcw) [i, j], W, V0, V1, fun i j h0 h1 h2 h3 => (h.ok (F.cell2d a i0 j0 i1 j1 agcw) (by simp)).rd (by in_bounds), fun i j h0 h1 h2 h3 => (h.ok (F.cell2d u i0 j0 i1 j1 gcw) (by simp)).rd (by in_bounds), ?_⟩
  have e := F.conserve2 (beta := beta) (G0 := fun i j => F.rd m (F.face2d0 b0 i0 j0 i1 j1 0) [i, j] * (F.rd m (F.cell2d u i0 j0 i1 j1 gcw) [i, j] - F.rd m (F.cell2d u i0 j0 i1 j1 gcw) [i - 1, j]) / dx 0) (G1 := fun i j => F.rd m (F.face2d1 b1 i0 j0 i1 j1 0) [j, i] * (F.rd m (F.cell2d u i0 j0 i1 j1 gcw) [i, j] - F.rd m (F.cell2d u i0 j0 i1 j1 gcw) [i, j - 1]) / dx 1) hi hj hd0 hd1
  simp only [add_sub_cancel_right] at e
  simp only [F.sum_add, add_mul, add_sub_cancel_right]
  rw [e]

example : ∃ m1 m2, Cuda.flux2d 0 1 2 3 exDx ⟨2, 0⟩ ⟨3, 0⟩ 2 ⟨1, 0⟩ ⟨5, 0⟩ ⟨6, 0⟩ (fun _ => revBackend) exRat = .ok m1 ∧ Cuda.diffusionV1Apply2d 0 2 1 3 3 2 exDx 1 ⟨0, 0⟩ 2 ⟨1, 0⟩ ⟨5, 0⟩ ⟨6, 0⟩ 1 ⟨8, 0⟩ (fun _ => seqBackend) m1 = .ok m2 ∧
      ∃ (R G0 G1 A U : Int → Int → Rat),
        (∀ i j, 0 ≤ i → i ≤ 2 → 1 ≤ j → j ≤ 3 → F.El m2 (F.cell2d ⟨8, 0⟩ 0 1 2 3 1) [i, j] (R i j)) ∧
        (∀ i j, 0 ≤ i → i ≤ 2 + 1 → 1 ≤ j → j ≤ 3 → F.El m1 (F.face2d0 ⟨5, 0⟩ 0 1 2 3 0) [i, j] (G0 i j)) ∧
        (∀ i j, 0 ≤ i → i ≤ 2 → 1 ≤ j → j ≤ 3 + 1 → F.El m1 (F.face2d1 ⟨6, 0⟩ 0 1 2 3 0) [j, i] (G1 i j)) ∧
        (∀ i j, 0 ≤ i → i ≤ 2 → 1 ≤ j → j ≤ 3 → F.El exRat (F.cell2d ⟨0, 0⟩ 0 1 2 3 1) [i, j] (A i j)) ∧
        (∀ i j, 0 ≤ i → i ≤ 2 → 1 ≤ j → j ≤ 3 → F.El exRat (F.cell2d ⟨1, 0⟩ 0 1 2 3 2) [i, j] (U i j)) ∧
        (F.sum 0 2 fun i => F.sum 1 3 fun j => R i j) * (exDx 0 * exDx 1) =
          -2 * ((F.sum 1 3 fun j => G0 (2 + 1) j - G0 0 j) * exDx 1 + (F.sum 0 2 fun i => G1 i (3 + 1) - G1 i 1) * exDx 0) + (F.sum 0 2 fun i => F.sum 1 3 fun j => 3 * A i j * U i j) * (exDx 0 * exDx 1) :=
  C40_v1_2d (fun _ => revBackend_ok) (fun _ => seqBackend_ok) (by decide) (by decide) (by decide) (by decide) (by decide) (by norm_num [exDx]) (by norm_num [exDx]) (by ex_args) (apart_blk (by decide)) ⟨apart_blk (by decide), apart_blk (by decide)⟩

/-- Summed over the box and scaled by the cell volume, what `flux2d` and then `diffusionV2Apply2d` leave is `-beta` times the difference of the
fluxes through the boundary plus the sum of the term without derivatives. -/
theorem C40_v2_2d {i0 j0 i1 j1 gcw rgcw : Int} {alpha beta : T} {dx : Nat → T} {u b0 b1 f0 f1 res : Ptr} {β1 β2 : Nat → Backend} {m : Mem T}
    (hβ1 : ∀ n, ValidBackend (β1 n)) (hβ2 : ∀ n, ValidBackend (β2 n))
    (hi : i0 ≤ i1) (hj : j0 ≤ j1) (hg : 1 ≤ gcw) (hrgcw : 0 ≤ rgcw) (hd0 : dx 0 ≠ 0) (hd1 : dx 1 ≠ 0)
    (h : F.Args m [(F.cell2d u i0 j0 i1 j1 gcw), (F.face2d0 b0 i0 j0 i1 j1 0), (F.face2d1 b1 i0 j0 i1 j1 0)] [(F.face2d0 f0 i0 j0 i1 j1 0), (F.face2d1 f1 i0 j0 i1 j1 0), (F.cell2d res i0 j0 i1 j1 rgcw)])
    (hp : F.Apart (F.face2d0 f0 i0 j0 i1 j1 0) (F.face2d1 f1 i0 j0 i1 j1 0))
    (hr : F.Apart (F.cell2d res i0 j0 i1 j1 rgcw) (F.face2d0 f0 i0 j0 i1 j1 0) ∧ F.Apart (F.cell2d res i0 j0 i1 j1 rgcw) (F.face2d1 f1 i0 j0 i1 j1 0)) :
    ∃ m1 m2, Cuda.flux2d i0 j0 i1 j1 dx b0 b1 gcw u f0 f1 β1 m = .ok m1 ∧ Cuda.diffusionV2Apply2d i0 i1 j0 j1 alpha beta dx gcw u f0 f1 rgcw res β2 m1 = .ok m2 ∧
      ∃ (R G0 G1 U : Int → Int → T),
        (∀ i j, i0 ≤ i → i ≤ i1 → j0 ≤ j → j ≤ j1 → F.El m2 (F.cell2d res i0 j0 i1 j1 rgcw) [i, j] (R i j)) ∧
        (∀ i j, i0 ≤ i → i ≤ i1 + 1 → j0 ≤ j → j ≤ j1 → F.El m1 (F.face2d0 f0 i0 j0 i1 j1 0) [i, j] (G0 i j)) ∧
        (∀ i j, i0 ≤ i → i ≤ i1 → j0 ≤ j → j ≤ j1 + 1 → F.El m1 (F.face2d1 f1 i0 j0 i1 j1 0) [j, i] (G1 i j)) ∧
        (∀ i j, i0 ≤ i → i ≤ i1 → j0 ≤ j → j ≤ j1 → F.El m (F.cell2d u i0 j0 i1 j1 gcw) [i, j] (U i j)) ∧
        (F.sum i0 i1 fun i => F.sum j0 j1 fun j => R i j) * (dx 0 * dx 1) =
          -beta * ((F.sum j0 j1 fun j => G0 (i1 + 1) j - G0 i0 j) * dx 1 + (F.sum i0 i1 fun i => G1 i (j1 + 1) - G1 i j0) * dx 0) + (F.sum i0 i1 fun i => F.sum j0 j1 fun j => alpha * U i j) * (dx 0 * dx 1) := by
  obtain ⟨m1, m2, c1, c2, -, -, V0, V1, W⟩ := op_v2_2 (alpha := alpha) (beta := beta) (dx := dx) hβ1 hβ2 hi hj hg hrgcw h hp hr
  refine ⟨m1, m2, c1, c2, fun i j => -(beta * ((F.rd m (F.face2d0 b0 i0 j0 i1 j1 0) [i + 1, j] * (F.rd m (F.cell2d u i0 j0 i1 j1 gcw) [i + 1, j] - F.rd m (F.cell2d u i0 j0 i1 j1 gcw) [i, j]) / dx 0 - F.rd m (F.face2d0 b0 i0 j0 i1 j1 0) [i, j] * (F.rd m (F.cell2d u i0 j0 i1 j1 gcw) [i, j] - F.rd m (F.cell2d u i0 j0 i1 j1 gcw) [i - 1, j]) / dx 0) / dx 0 + (F.rd m (F.face2d1 b1 i0 j0 i1 j1 0) [j + 1, i] * (F.rd m (F.cell2d u i0 j0 i1 j1 gcw) [i, j + 1] - F.rd m (F.cell2d u i0 j0 i1 j1 gcw) [i, j]) / dx 1 - F.rd m (F.face2d1 b1 i0 j0 i1 j1 0) [j, i] * (F.rd m (F.cell2d u i0 j0 i1 j1 gcw) [i, j] - F.rd m (F.cell2d u i0 j0 i1 j1 gcw) [i, j - 1]) / dx 1) / dx 1)) + alpha * F.rd m (F.cell2d u i0 j0 i1 j1 gcw) [i, j], fun i j => F.rd m (F.face2d0 b0 i0 j0 i1 j1 0) [i, j] * (F.rd m (F.cell2d u i0 j0 i1 j1 gcw) [i, j] - F.rd m (F.cell2d u i0 j0 i1 j1 gcw) [i - 1, j]) / dx 0, fun i j => F.rd m (F.face2d1 b1 i0 j0 i1 j1 0) [j, i] * (F.rd m (F.cell2d u i0 j0 i1 j1 gcw) [i, j] - F.rd m (F.cell2d u i0 j0 i1 j1 gcw) [i, j - 1]) / dx 1, fun i j => F.rd m (F.cell2d u i0 j0 i1 j1 gcw) [i, j], W, V0, V1, fun i j h0 h1 h2 h3 => (h.ok (F.cell2d u i0 j0 i1 j1 gcw) (by simp)).rd (by in_bounds), ?_⟩
  have e := F.conserve2 (beta := beta) (G0 := fun i j => F.rd m (F.face2d0 b0 i0 j0 i1 j1 0) [i, j] * (F.rd m (F.cell2d u i0 j0 i1 j1 gcw) [i, j] - F.rd m (F.cell2d u i0 j0 i1 j1 gcw) [i - 1, j]) / dx 0) (G1 := fun i j => F.rd m (F.face2d1 b1 i0 j0 i1 j1 0) [j, i] * (F.rd m (F.cell2d u i0 j0 i1 j1 gcw) [i, j] - F.rd m (F.cell2d u i0 j0 i1 j1 gcw) [i, j - 1]) / dx 1) hi hj hd0 hd1
  simp only [add_sub_cancel_right] at e
  simp only [F.sum_add, add_mul, add_sub_cancel_right]
  rw [e]

example : ∃ m1 m2, Cuda.flux2d 0 1 2 3 exDx ⟨2, 0⟩ ⟨3, 0⟩ 2 ⟨1, 0⟩ ⟨5, 0⟩ ⟨6, 0⟩ (fun _ => revBackend) exRat = .ok m1 ∧ Cuda.diffusionV2Apply2d 0 2 1 3 3 2 exDx 2 ⟨1, 0⟩ ⟨5, 0⟩ ⟨6, 0⟩ 1 ⟨8, 0⟩ (fun _ => seqBackend) m1 = .ok m2 ∧
      ∃ (R G0 G1 U : Int → Int → Rat),
        (∀ i j, 0 ≤ i → i ≤ 2 → 1 ≤ j → j ≤ 3 → F.El m2 (F.cell2d ⟨8, 0⟩ 0 1 2 3 1) [i, j] (R i j)) ∧
        (∀ i j, 0 ≤ i → i ≤ 2 + 1 → 1 ≤ j → j ≤ 3 → F.El m1 (F.face2d0 ⟨5, 0⟩ 0 1 2 3 0) [i, j] (G0 i j)) ∧
        (∀ i j, 0 ≤ i → i ≤ 2 → 1 ≤ j → j ≤ 3 + 1 → F.El m1 (F.face2d1 ⟨6, 0⟩ 0 1 2 3 0) [j, i] (G1 i j)) ∧
        (∀ i j, 0 ≤ i → i ≤ 2 → 1 ≤ j → j ≤ 3 → F.El exRat (F.cell2d ⟨1, 0⟩ 0 1 2 3 2) [i, j] (U i j)) ∧
        (F.sum 0 2 fun i => F.sum 1 3 fun j => R i j) * (exDx 0 * exDx 1) =
          -2 * ((F.sum 1 3 fun j => G0 (2 + 1) j - G0 0 j) * exDx 1 + (F.sum 0 2 fun i => G1 i (3 + 1) - G1 i 1) * exDx 0) + (F.sum 0 2 fun i => F.sum 1 3 fun j => 3 * U i j) * (exDx 0 * exDx 1) :=
  C40_v2_2d (fun _ => revBackend_ok) (fun _ => seqBackend_ok) (by decide) (by decide) (by decide) (by decide) (by norm_num [exDx]) (by norm_num [exDx]) (by ex_args) (apart_blk (by decide)) ⟨apart_blk (by decide), apart_blk (by decide)⟩

/-- Summed over the box and scaled by the cell volume, what `poissonFlux3d` and then `poissonV2Apply3d` leave is `-beta` times the difference of the
fluxes through the boundary. -/
theorem C40_poisson_3d {i0 j0 k0 i1 j1 k1 gcw rgcw : Int} {beta : T} {dx : Nat → T} {u f0 f1 f2 res : Ptr} {β1 β2 : Nat → Backend} {m : Mem T}
    (hβ1 : ∀ n, ValidBackend (β1 n)) (hβ2 : ∀ n, ValidBackend (β2 n))
    (hi : i0 ≤ i1) (hj : j0 ≤ j1) (hk : k0 ≤ k1) (hg : 1 ≤ gcw) (hrgcw : 0 ≤ rgcw) (hd0 : dx 0 ≠ 0) (hd1 : dx 1 ≠ 0) (hd2 : dx 2 ≠ 0)
    (h : F.Args m [(F.cell3d u i0 j0 k0 i1 j1 k1 gcw)] [(F.face3d0 f0 i0 j0 k0 i1 j1 k1 0), (F.face3d1 f1 i0 j0 k0 i1 j1 k1 0), (F.face3d2 f2 i0 j0 k0 i1 j1 k1 0), (F.cell3d res i0 j0 k0 i1 j1 k1 rgcw)])
    (hp : F.Apart (F.face3d0 f0 i0 j0 k0 i1 j1 k1 0) (F.face3d1 f1 i0 j0 k0 i1 j1 k1 0) ∧ F.Apart (F.face3d0 f0 i0 j0 k0 i1 j1 k1 0) (F.face3d2 f2 i0 j0 k0 i1 j1 k1 0) ∧ F.Apart (F.face3d1 f1 i0 j0 k0 i1 j1 k1 0) (F.face3d2 f2 i0 j0 k0 i1 j1 k1 0))
    (hr : F.Apart (F.cell3d res i0 j0 k0 i1 j1 k1 rgcw) (F.face3d0 f0 i0 j0 k0 i1 j1 k1 0) ∧ F.Apart (F.cell3d res i0 j0 k0 i1 j1 k1 rgcw) (F.face3d1 f1 i0 j0 k0 i1 j1 k1 0) ∧ F.Apart (F.cell3d res i0 j0 k0 i1 j1 k1 rgcw) (F.face3d2 f2 i0 j0 k0 i1 j1 k1 0)) :
    ∃ m1 m2, Cuda.poissonFlux3d i0 j0 k0 i1 j1 k1 dx gcw u f0 f1 f2 β1 m = .ok m1 ∧ Cuda.poissonV2Apply3d i0 i1 j0 j1 k0 k1 beta dx f0 f1 f2 rgcw res β2 m1 = .ok m2 ∧
      ∃ (R G0 G1 G2 : Int → Int → Int → T),
        (∀ i j k, i0 ≤ i → i ≤ i1 → j0 ≤ j → j ≤ j1 → k0 ≤ k → k ≤ k1 → F.El m2 (F.cell3d res i0 j0 k0 i1 j1 k1 rgcw) [i, j, k] (R i j k)) ∧
        (∀ i j k, i0 ≤ i → i ≤ i1 + 1 → j0 ≤ j → j ≤ j1 → k0 ≤ k → k ≤ k1 → F.El m1 (F.face3d0 f0 i0 j0 k0 i1 j1 k1 0) [i, j, k] (G0 i j k)) ∧
        (∀ i j k, i0 ≤ i → i ≤ i1 → j0 ≤ j → j ≤ j1 + 1 → k0 ≤ k → k ≤ k1 → F.El m1 (F.face3d1 f1 i0 j0 k0 i1 j1 k1 0) [j, k, i] (G1 i j k)) ∧
        (∀ i j k, i0 ≤ i → i ≤ i1 → j0 ≤ j → j ≤ j1 → k0 ≤ k → k ≤ k1 + 1 → F.El m1 (F.face3d2 f2 i0 j0 k0 i1 j1 k1 0) [k, i, j] (G2 i j k)) ∧
        (F.sum i0 i1 fun i => F.sum j0 j1 fun j => F.sum k0 k1 fun k => R i j k) * (dx 0 * dx 1 * dx 2) =
          -beta * ((F.sum j0 j1 fun j => F.sum k0 k1 fun k => G0 (i1 + 1) j k - G0 i0 j k) * (dx 1 * dx 2) + (F.sum i0 i1 fun i => F.sum k0 k1 fun k => G1 i (j1 + 1) k - G1 i j0 k) * (dx 0 * dx 2) + (F.sum i0 i1 fun i => F.sum j0 j1 fun j => G2 i j (k1 + 1) - G2 i j k0) * (dx 0 * dx 1)) := by
  obtain ⟨m1, m2, c1, c2, -, -, V0, V1, V2, W⟩ := op_p_3 (beta := beta) (dx := dx) hβ1 hβ2 hi hj hk hg hrgcw h hp hr
  refine ⟨m1, m2, c1, c2, fun i j k => -(beta * (((F.rd m (F.cell3d u i0 j0 k0 i1 j1 k1 gcw) [i + 1, j, k] - F.rd m (F.cell3d u i0 j0 k0 i1 j1 k1 gcw) [i, j, k]) / dx 0 - (F.rd m (F.cell3d u i0 j0 k0 i1 j1 k1 gcw) [i, j, k] - F.rd m (F.cell3d u i0 j0 k0 i1 j1 k1 gcw) [i - 1, j, k]) / dx 0) / dx 0 + ((F.rd m (F.cell3d u i0 j0 k0 i1 j1 k1 gcw) [i, j + 1, k] - F.rd m (F.cell3d u i0 j0 k0 i1 j1 k1 gcw) [i, j, k]) / dx 1 - (F.rd m (F.cell3d u i0 j0 k0 i1 j1 k1 gcw) [i, j, k] - F.rd m (F.cell3d u i0 j0 k0 i1 j1 k1 gcw) [i, j - 1, k]) / dx 1) / dx 1 + ((F.rd m (F.cell3d u i0 j0 k0 i1 j1 k1 gcw) [i, j, k + 1] - F.rd m (F.cell3d u i0 j0 k0 i1 j1 k1 gcw) [i, j, k]) / dx 2 - (F.rd m (F.cell3d u i0 j0 k0 i1 j1 k1 gcw) [i, j, k] - F.rd m (F.cell3d u i0 j0 k0 i1 j1 k1 gcw) [i, j, k - 1]) / dx 2) / dx 2)), fun i j k => (F.rd m (F.cell3d u i0 j0 k0 i1 j1 k1 gcw) [i, j, k] - F.rd m (F.cell3d u i0 j0 k0 i1 j1 k1 gcw) [i - 1, j, k]) / dx 0, fun i j k => (F.rd m (F.cell3d u i0 j0 k0 i1 j1 k1 gcw) [i, j, k] - F.rd m (F.cell3d u i0 j0 k0 i1 j1 k1 gcw) [i, j - 1, k]) / dx 1, fun i j k => (F.rd m (F.cell3d u i0 j0 k0 i1 j1 k1 gcw) [i, j, k] - F.rd m (F.cell3d u i0 j0 k0 i1 j1 k1 gcw) [i, j, k - 1]) / dx 2, W, V0, V1, V2, ?_⟩
  have e := F.conserve3 (beta := beta) (G0 := fun i j k => (F.rd m (F.cell3d u i0 j0 k0 i1 j1 k1 gcw) [i, j, k] - F.rd m (F.cell3d u i0 j0 k0 i1 j1 k1 gcw) [i - 1, j, k]) / dx 0) (G1 := fun i j k => (F.rd m (F.cell3d u i0 j0 k0 i1 j1 k1 gcw) [i, j, k] - F.rd m (F.cell3d u i0 j0 k0 i1 j1 k1 gcw) [i, j - 1, k]) / dx 1) (G2 := fun i j k => (F.rd m (F.cell3d u i0 j0 k0 i1 j1 k1 gcw) [i, j, k] - F.rd m (F.cell3d u i0 j0 k0 i1 j1 k1 gcw) [i, j, k - 1]) / dx 2) hi hj hk hd0 hd1 hd2
  simp only [add_sub_cancel_right] at e ⊢
  exact e

example : ∃ m1 m2, Cuda.poissonFlux3d 0 1 2 1 2 3 exDx 2 ⟨1, 0⟩ ⟨5, 0⟩ ⟨6, 0⟩ ⟨7, 0⟩ (fun _ => revBackend) exRat = .ok m1 ∧ Cuda.poissonV2Apply3d 0 1 1 2 2 3 2 exDx ⟨5, 0⟩ ⟨6, 0⟩ ⟨7, 0⟩ 1 ⟨8, 0⟩ (fun _ => seqBackend) m1 = .ok m2 ∧
      ∃ (R G0 G1 G2 : Int → Int → Int → Rat),
        (∀ i j k, 0 ≤ i → i ≤ 1 → 1 ≤ j → j ≤ 2 → 2 ≤ k → k ≤ 3 → F.El m2 (F.cell3d ⟨8, 0⟩ 0 1 2 1 2 3 1) [i, j, k] (R i j k)) ∧
        (∀ i j k, 0 ≤ i → i ≤ 1 + 1 → 1 ≤ j → j ≤ 2 → 2 ≤ k → k ≤ 3 → F.El m1 (F.face3d0 ⟨5, 0⟩ 0 1 2 1 2 3 0) [i, j, k] (G0 i j k)) ∧
        (∀ i j k, 0 ≤ i → i ≤ 1 → 1 ≤ j → j ≤ 2 + 1 → 2 ≤ k → k ≤ 3 → F.El m1 (F.face3d1 ⟨6, 0⟩ 0 1 2 1 2 3 0) [j, k, i] (G1 i j k)) ∧
        (∀ i j k, 0 ≤ i → i ≤ 1 → 1 ≤ j → j ≤ 2 → 2 ≤ k → k ≤ 3 + 1 → F.El m1 (F.face3d2 ⟨7, 0⟩ 0 1 2 1 2 3 0) [k, i, j] (G2 i j k)) ∧
        (F.sum 0 1 fun i => F.sum 1 2 fun j => F.sum 2 3 fun k => R i j k) * (exDx 0 * exDx 1 * exDx 2) =
          -2 * ((F.sum 1 2 fun j => F.sum 2 3 fun k => G0 (1 + 1) j k - G0 0 j k) * (exDx 1 * exDx 2) + (F.sum 0 1 fun i => F.sum 2 3 fun k => G1 i (2 + 1) k - G1 i 1 k) * (exDx 0 * exDx 2) + (F.sum 0 1 fun i => F.sum 1 2 fun j => G2 i j (3 + 1) - G2 i j 2) * (exDx 0 * exDx 1)) :=
  C40_poisson_3d (fun _ => revBackend_ok) (fun _ => seqBackend_ok) (by decide) (by decide) (by decide) (by decide) (by decide) (by norm_num [exDx]) (by norm_num [exDx]) (by norm_num [exDx]) (by ex_args) (⟨apart_blk (by decide), apart_blk (by decide), apart_blk (by decide)⟩) ⟨apart_blk (by decide), apart_blk (by decide), apart_blk (by decide)⟩

/-- Summed over the box and scaled by the cell volume, what `flux3d` and then `poissonV2Apply3d` leave is `-beta` times the difference of the
fluxes through the boundary. -/
theorem C40_diffusion_3d {i0 j0 k0 i1 j1 k1 gcw rgcw : Int} {beta : T} {dx : Nat → T} {u b0 b1 b2 f0 f1 f2 res : Ptr} {β1 β2 : Nat → Backend} {m : Mem T}
    (hβ1 : ∀ n, ValidBackend (β1 n)) (hβ2 : ∀ n, ValidBackend (β2 n))
    (hi : i0 ≤ i1) (hj : j0 ≤ j1) (hk : k0 ≤ k1) (hg : 1 ≤ gcw) (hrgcw : 0 ≤ rgcw) (hd0 : dx 0 ≠ 0) (hd1 : dx 1 ≠ 0) (hd2 : dx 2 ≠ 0)
    (h : F.Args m [(F.cell3d u i0 j0 k0 i1 j1 k1 gcw), (F.face3d0 b0 i0 j0 k0 i1 j1 k1 0), (F.face3d1 b1 i0 j0 k0 i1 j1 k1 0), (F.face3d2 b2 i0 j0 k0 i1 j1 k1 0)] [(F.face3d0 f0 i0 j0 k0 i1 j1 k1 0), (F.face3d1 f1 i0 j0 k0 i1 j1 k1 0), (F.face3d2 f2 i0 j0 k0 i1 j1 k1 0), (F.cell3d res i0 j0 k0 i1 j1 k1 rgcw)])
    (hp : F.Apart (F.face3d0 f0 i0 j0 k0 i1 j1 k1 0) (F.face3d1 f1 i0 j0 k0 i1 j1 k1 0) ∧ F.Apart (F.face3d0 f0 i0 j0 k0 i1 j1 k1 0) (F.face3d2 f2 i0 j0 k0 i1 j1 k1 0) ∧ F.Apart (F.face3d1 f1 i0 j0 k0 i1 j1 k1 0) (F.face3d2 f2 i0 j0 k0 i1 j1 k1 0))
    (hr : F.Apart (F.cell3d res i0 j0 k0 i1 j1 k1 rgcw) (F.face3d0 f0 i0 j0 k0 i1 j1 k1 0) ∧ F.Apart (F.cell3d res i0 j0 k0 i1 j1 k1 rgcw) (F.face3d1 f1 i0 j0 k0 i1 j1 k1 0) ∧ F.Apart (F.cell3d res i0 j0 k0 i1 j1 k1 rgcw) (F.face3d2 f2 i0 j0 k0 i1 j1 k1 0)) :
    ∃ m1 m2, Cuda.flux3d i0 j0 k0 i1 j1 k1 dx b0 b1 b2 gcw u f0 f1 f2 β1 m = .ok m1 ∧ Cuda.poissonV2Apply3d i0 i1 j0 j1 k0 k1 beta dx f0 f1 f2 rgcw res β2 m1 = .ok m2 ∧
      ∃ (R G0 G1 G2 : Int → Int → Int → T),
        (∀ i j k, i0 ≤ i → i ≤ i1 → j0 ≤ j → j ≤ j1 → k0 ≤ k → k ≤ k1 → F.El m2 (F.cell3d res i0 j0 k0 i1 j1 k1 rgcw) [i, j, k] (R i j k)) ∧
        (∀ i j k, i0 ≤ i → i ≤ i1 + 1 → j0 ≤ j → j ≤ j1 → k0 ≤ k → k ≤ k1 → F.El m1 (F.face3d0 f0 i0 j0 k0 i1 j1 k1 0) [i, j, k] (G0 i j k)) ∧
        (∀ i j k, i0 ≤ i → i ≤ i1 → j0 ≤ j → j ≤ j1 + 1 → k0 ≤ k → k ≤ k1 → F.El m1 (F.face3d1 f1 i0 j0 k0 i1 j1 k1 0) [j, k, i] (G1 i j k)) ∧
        (∀ i j k, i0 ≤ i → i ≤ i1 → j0 ≤ j → j ≤ j1 → k0 ≤ k → k ≤ k1 + 1 → F.El m1 (F.face3d2 f2 i0 j0 k0 i1 j1 k1 0) [k, i, j] (G2 i j k)) ∧
        (F.sum i0 i1 fun i => F.sum j0 j1 fun j => F.sum k0 k1 fun k => R i j k) * (dx 0 * dx 1 * dx 2) =
          -beta * ((F.sum j0 j1 fun j => F.sum k0 k1 fun k => G0 (i1 + 1) j k - G0 i0 j k) * (dx 1 * dx 2) + (F.sum i0 i1 fun i => F.sum k0 k1 fun k => G1 i (j1 + 1) k - G1 i j0 k) * (dx 0 * dx 2) + (F.sum i0 i1 fun i => F.sum j0 j1 fun j => G2 i j (k1 + 1) - G2 i j k0) * (dx 0 * dx 1)) := by
  obtain ⟨m1, m2, c1, c2, -, -, V0, V1, V2, W⟩ := op_d_3 (beta := beta) (dx := dx) hβ1 hβ2 hi hj hk hg hrgcw h hp hr
  refine ⟨m1, m2, c1, c2, fun i j k => -(beta * ((F.rd m (F.face3d0 b0 i0 j0 k0 i1 j1 k1 0) [i + 1, j, k] * (F.rd m (F.cell3d u i0 j0 k0 i1 j1 k1 gcw) [i + 1, j, k] - F.rd m (F.cell3d u i0 j0 k0 i1 j1 k1 gcw) [i, j, k]) / dx 0 - F.rd m (F.face3d0 b0 i0 j0 k0 i1 j1 k1 0) [i, j, k] * (F.rd m (F.cell3d u i0 j0 k0 i1 j1 k1 gcw) [i, j, k] - F.rd m (F.cell3d u i0 j0 k0 i1 j1 k1 gcw) [i - 1, j, k]) / dx 0) / dx 0 + (F.rd m (F.face3d1 b1 i0 j0 k0 i1 j1 k1 0) [j + 1, k, i] * (F.rd m (F.cell3d u i0 j0 k0 i1 j1 k1 gcw) [i, j + 1, k] - F.rd m (F.cell3d u i0 j0 k0 i1 j1 k1 gcw) [i, j, k]) / dx 1 - F.rd m (F.face3d1 b1 i0 j0 k0 i1 j1 k1 0) [j, k, i] * (F.rd m (F.cell3d u i0 j0 k0 i1 j1 k1 gcw) [i, j, k] - F.rd m (F.cell3d u i0 j0 k0 i1 j1 k1 gcw) [i, j - 1, k]) / dx 1) / dx 1 + (F.rd m (F.face3d2 b2 i0 j0 k0 i1 j1 k1 0) [k + 1, i, j] * (F.rd m (F.cell3d u i0 j0 k0 i1 j1 k1 gcw) [i, j, k + 1] - F.rd m (F.cell3d u i0 j0 k0 i1 j1 k1 gcw) [i, j, k]) / dx 2 - F.rd m (F.face3d2 b2 i0 j0 k0 i1 j1 k1 0) [k, i, j] * (F.rd m (F.cell3d u i0 j0 k0 i1 j1 k1 gcw) [i, j, k] - F.rd m (F.cell3d u i0 j0 k0 i1 j1 k1 gcw) [i, j, k - 1]) / dx 2) / dx 2)), fun i j k => F.rd m (F.face3d0 b0 i0 j0 k0 i1 j1 k1 0) [i, j, k] * (F.rd m (F.cell3d u i0 j0 k0 i1 j1 k1 gcw) [i, j, k] - F.rd m (F.cell3d u i0 j0 k0 i1 j1 k1 gcw) [i - 1, j, k]) / dx 0, fun i j k => F.rd m (F.face3d1 b1 i0 j0 k0 i1 j1 k1 0) [j, k, i] * (F.rd m (F.cell3d u i0 j0 k0 i1 j1 k1 gcw) [i, j, k] - F.rd m (F.cell3d u i0 j0 k0 i1 j1 k1 gcw) [i, j - 1, k]) / dx 1, fun i j k => F.rd m (F.face3d2 b2 i0 j0 k0 i1 j1 k1 0) [k, i, j] * (F.rd m (F.cell3d u i0 j0 k0 i1 j1 k1 gcw) [i, j, k] - F.rd m (F.cell3d u i0 j0 k0 i1 j1 k1 gcw) [i, j, k - 1]) / dx 2, W, V0, V1, V2, ?_⟩
  have e := F.conserve3 (beta := beta) (G0 := fun i j k => F.rd m (F.face3d0 b0 i0 j0 k0 i1 j1 k1 0) [i, j, k] * (F.rd m (F.cell3d u i0 j0 k0 i1 j1 k1 gcw) [i, j, k] - F.rd m (F.cell3d u i0 j0 k0 i1 j1 k1 gcw) [i - 1, j, k]) / dx 0) (G1 := fun i j k => F.rd m (F.face3d1 b1 i0 j0 k0 i1 j1 k1 0) [j, k, i] * (F.rd m (F.cell3d u i0 j0 k0 i1 j1 k1 gcw) [i, j, k] - F.rd m (F.cell3d u i0 j0 k0 i1 j1 k1 gcw) [i, j - 1, k]) / dx 1) (G2 := fun i j k => F.rd m (F.face3d2 b2 i0 j0 k0 i1 j1 k1 0) [k, i, j] * (F.rd m (F.cell3d u i0 j0 k0 i1 j1 k1 gcw) [i, j, k] - F.rd m (F.cell3d u i0 j0 k0 i1 j1 k1 gcw) [i, j, k - 1]) / dx 2) hi hj hk hd0 hd1 hd2
  simp only [add_sub_cancel_right] at e ⊢
  exact e

example : ∃ m1 m2, Cuda.flux3d 0 1 2 1 2 3 exDx ⟨2, 0⟩ ⟨3, 0⟩ ⟨4, 0⟩ 2 ⟨1, 0⟩ ⟨5, 0⟩ ⟨6, 0⟩ ⟨7, 0⟩ (fun _ => revBackend) exRat = .ok m1 ∧ Cuda.poissonV2Apply3d 0 1 1 2 2 3 2 exDx ⟨5, 0⟩ ⟨6, 0⟩ ⟨7, 0⟩ 1 ⟨8, 0⟩ (fun _ => seqBackend) m1 = .ok m2 ∧
      ∃ (R G0 G1 G2 : Int → Int → Int → Rat),
        (∀ i j k, 0 ≤ i → i ≤ 1 → 1 ≤ j → j ≤ 2 → 2 ≤ k → k ≤ 3 → F.El m2 (F.cell3d ⟨8, 0⟩ 0 1 2 1 2 3 1) [i, j, k] (R i j k)) ∧
        (∀ i j k, 0 ≤ i → i ≤ 1 + 1 → 1 ≤ j → j ≤ 2 → 2 ≤ k → k ≤ 3 → F.El m1 (F.face3d0 ⟨5, 0⟩ 0 1 2 1 2 3 0) [i, j, k] (G0 i j k)) ∧
        (∀ i j k, 0 ≤ i → i ≤ 1 → 1 ≤ j → j ≤ 2 + 1 → 2 ≤ k → k ≤ 3 → F.El m1 (F.face3d1 ⟨6, 0⟩ 0 1 2 1 2 3 0) [j, k, i] (G1 i j k)) ∧
        (∀ i j k, 0 ≤ i → i ≤ 1 → 1 ≤ j → j ≤ 2 → 2 ≤ k → k ≤ 3 + 1 → F.El m1 (F.face3d2 ⟨7, 0⟩ 0 1 2 1 2 3 0) [k, i, j] (G2 i j k)) ∧
        (F.sum 0 1 fun i => F.sum 1 2 fun j => F.sum 2 3 fun k => R i j k) * (exDx 0 * exDx 1 * exDx 2) =
          -2 * ((F.sum 1 2 fun j => F.sum 2 3 fun k => G0 (1 + 1) j k - G0 0 j k) * (exDx 1 * exDx 2) + (F.sum 0 1 fun i => F.sum 2 3 fun k => G1 i (2 + 1) k - G1 i 1 k) * (exDx 0 * exDx 2) + (F.sum 0 1 fun i => F.sum 1 2 fun j => G2 i j (3 + 1) - G2 i j 2) * (exDx 0 * exDx 1)) :=
  C40_diffusion_3d (fun _ => revBackend_ok) (fun _ => seqBackend_ok) (by decide) (by decide) (by decide) (by decide) (by decide) (by norm_num [exDx]) (by norm_num [exDx]) (by norm_num [exDx]) (by ex_args) (⟨apart_blk (by decide), apart_blk (by decide), apart_blk (by decide)⟩) ⟨apart_blk (by decide), apart_blk (by decide), apart_blk (by decide)⟩

/-- Summed over the box and scaled by the cell volume, what `flux3d` and then `diffusionV1Apply3d` leave is `-beta` times the difference of the
fluxes through the boundary plus the sum of the term without derivatives. -/
theorem C40_v1_3d {i0 j0 k0 i1 j1 k1 agcw gcw rgcw : Int} {alpha beta : T} {dx : Nat → T} {a u b0 b1 b2 f0 f1 f2 res : Ptr} {β1 β2 : Nat → Backend} {m : Mem T}
    (hβ1 : ∀ n, ValidBackend (β1 n)) (hβ2 : ∀ n, ValidBackend (β2 n))
    (hi : i0 ≤ i1) (hj : j0 ≤ j1) (hk : k0 ≤ k1) (hg : 1 ≤ gcw) (hagcw : 0 ≤ agcw) (hrgcw : 0 ≤ rgcw) (hd0 : dx 0 ≠ 0) (hd1 : dx 1 ≠ 0) (hd2 : dx 2 ≠ 0)
    (h : F.Args m [(F.cell3d a i0 j0 k0 i1 j1 k1 agcw), (F.cell3d u i0 j0 k0 i1 j1 k1 gcw), (F.face3d0 b0 i0 j0 k0 i1 j1 k1 0), (F.face3d1 b1 i0 j0 k0 i1 j1 k1 0), (F.face3d2 b2 i0 j0 k0 i1 j1 k1 0)] [(F.face3d0 f0 i0 j0 k0 i1 j1 k1 0), (F.face3d1 f1 i0 j0 k0 i1 j1 k1 0), (F.face3d2 f2 i0 j0 k0 i1 j1 k1 0), (F.cell3d res i0 j0 k0 i1 j1 k1 rgcw)])
    (hp : F.Apart (F.face3d0 f0 i0 j0 k0 i1 j1 k1 0) (F.face3d1 f1 i0 j0 k0 i1 j1 k1 0) ∧ F.Apart (F.face3d0 f0 i0 j0 k0 i1 j1 k1 0) (F.face3d2 f2 i0 j0 k0 i1 j1 k1 0) ∧ F.Apart (F.face3d1 f1 i0 j0 k0 i1 j1 k1 0) (F.face3d2 f2 i0 j0 k0 i1 j1 k1 0))
    (hr : F.Apart (F.cell3d res i0 j0 k0 i1 j1 k1 rgcw) (F.face3d0 f0 i0 j0 k0 i1 j1 k1 0) ∧ F.Apart (F.cell3d res i0 j0 k0 i1 j1 k1 rgcw) (F.face3d1 f1 i0 j0 k0 i1 j1 k1 0) ∧ F.Apart (F.cell3d res i0 j0 k0 i1 j1 k1 rgcw) (F.face3d2 f2 i0 j0 k0 i1 j1 k1 0)) :
    ∃ m1 m2, Cuda.flux3d i0 j0 k0 i1 j1 k1 dx b0 b1 b2 gcw u f0 f1 f2 β1 m = .ok m1 ∧ Cuda.diffusionV1Apply3d i0 i1 j0 j1 k0 k1 alpha beta dx agcw a gcw u f0 f1 f2 rgcw res β2 m1 = .ok m2 ∧
      ∃ (R G0 G1 G2 A U : Int → Int → Int → T),
        (∀ i j k, i0 ≤ i → i ≤ i1 → j0 ≤ j → j ≤ j1 → k0 ≤ k → k ≤ k1 → F.El m2 (F.cell3d res i0 j0 k0 i1 j1 k1 rgcw) [i, j, k] (R i j k)) ∧
        (∀ i j k, i0 ≤ i → i ≤ i1 + 1 → j0 ≤ j → j ≤ j1 → k0 ≤ k → k ≤ k1 → F.El m1 (F.face3d0 f0 i0 j0 k0 i1 j1 k1 0) [i, j, k] (G0 i j k)) ∧
        (∀ i j k, i0 ≤ i → i ≤ i1 → j0 ≤ j → j ≤ j1 + 1 → k0 ≤ k → k ≤ k1 → F.El m1 (F.face3d1 f1 i0 j0 k0 i1 j1 k1 0) [j, k, i] (G1 i j k)) ∧
        (∀ i j k, i0 ≤ i → i ≤ i1 → j0 ≤ j → j ≤ j1 → k0 ≤ k → k ≤ k1 + 1 → F.El m1 (F.face3d2 f2 i0 j0 k0 i1 j1 k1 0) [k, i, j] (G2 i j k)) ∧
        (∀ i j k, i0 ≤ i → i ≤ i1 → j0 ≤ j → j ≤ j1 → k0 ≤ k → k ≤ k1 → F.El m (F.cell3d a i0 j0 k0 i1 j1 k1 agcw) [i, j, k] (A i j k)) ∧
        (∀ i j k, i0 ≤ i → i ≤ i1 → j0 ≤ j → j ≤ j1 → k0 ≤ k → k ≤ k1 → F.El m (F.cell3d u i0 j0 k0 i1 j1 k1 gcw) [i, j, k] (U i j k)) ∧
        (F.sum i0 i1 fun i => F.sum j0 j1 fun j => F.sum k0 k1 fun k => R i j k) * (dx 0 * dx 1 * dx 2) =
          -beta * ((F.sum j0 j1 fun j => F.sum k0 k1 fun k => G0 (i1 + 1) j k - G0 i0 j k) * (dx 1 * dx 2) + (F.sum i0 i1 fun i => F.sum k0 k1 fun k => G1 i (j1 + 1) k - G1 i j0 k) * (dx 0 * dx 2) + (F.sum i0 i1 fun i => F.sum j0 j1 fun j => G2 i j (k1 + 1) - G2 i j k0) * (dx 0 * dx 1)) + (F.sum i0 i1 fun i => F.sum j0 j1 fun j => F.sum k0 k1 fun k => alpha * A i j k * U i j k) * (dx 0 * dx 1 * dx 2) := by
  obtain ⟨m1, m2, c1, c2, -, -, V0, V1, V2, W⟩ := op_v1_3 (alpha := alpha) (beta := beta) (dx := dx) hβ1 hβ2 hi hj hk hg hagcw hrgcw h hp hr
  refine ⟨m1, m2, c1, c2, fun i j k => -(beta * ((F.rd m (F.face3d0 b0 i0 j0 k0 i1 j1 k1 0) [i + 1, j, k] * (F.rd m (F.cell3d u i0 j0 k0 i1 j1 k1 gcw) [i + 1, j, k] - F.rd m (F.cell3d u i0 j0 k0 i1 j1 k1 gcw) [i, j, k]) / dx 0 - F.rd m (F.face3d0 b0 i0 j0 k0 i1 j1 k1 0) [i, j, k] * (F.rd m (F.cell3d u i0 j0 k0 i1 j1 k1 gcw) [i, j, k] - F.rd m (F.cell3d u i0 j0 k0 i1 j1 k1 gcw) [i - 1, j, k]) / dx 0) / dx 0 + (F.rd m (F.face3d1 b1 i0 j0 k0 i1 j1 k1 0) [j + 1, k, i] * (F.rd m (F.cell3d u i0 j0 k0 i1 j1 k1 gcw) [i, j + 1, k] - F.rd m (F.cell3d u i0 j0 k0 i1 j1 k1 gcw) [i, j, k]) / dx 1 - F.rd m (F.face3d1 b1 i0 j0 k0 i1 j1 k1 0) [j, k, i] * (F.rd m (F.cell3d u i0 j0 k0 i1 j1 k1 gcw) [i, j, k] - F.rd m (F.cell3d u i0 j0 k0 i1 j1 k1 gcw) [i, j - 1, k]) / dx 1) / dx 1 + (F.rd m (F.face3d2 b2 i0 j0 k0 i1 j1 k1 0) [k + 1, i, j] * (F.rd m (F.cell3d u i0 j0 k0 i1 j1 k1 gcw) [i, j, k + 1] - F.rd m (F.cell3d u i0 j0 k0 i1 j1 k1 gcw) [i, j, k]) / dx 2 - F.rd m (F.face3d2 b2 i0 j0 k0 i1 j1 k1 0) [k, i, j] * (F.rd m (F.cell3d u i0 j0 k0 i1 j1 k1 gcw) [i, j, k] - F.rd m (F.cell3d u i0 j0 k0 i1 j1 k1 gcw) [i, j, k - 1]) / dx 2) / dx 2)) + alpha * F.rd m (F.cell3d a i0 j0 k0 i1 j1 k1 agcw) [i, j, k] * F.rd m (F.cell3d u i0 j0 k0 i1 j1 k1 gcw) [i, j, k], fun i j k => F.rd m (F.face3d0 b0 i0 j0 k0 i1 j1 k1 0) [i, j, k] * (F.rd m (F.cell3d u i0 j0 k0 i1 j1 k1 gcw) [i, j, k] - F.rd m (F.cell3d u i0 j0 k0 i1 j1 k1 gcw) [i - 1, j, k]) / dx 0, fun i j k => F.rd m (F.face3d1 b1 i0 j0 k0 i1 j1 k1 0) [j, k, i] * (F.rd m (F.cell3d u i0 j0 k0 i1 j1 k1 gcw) [i, j, k] - F.rd m (F.cell3d u i0 j0 k0 i1 j1 k1 gcw) [i, j - 1, k]) / dx 1, fun i j k => F.rd m (F.face3d2 b2 i0 j0 k0 i1 j1 k1 0) [k, i, j] * (F.rd m (F.cell3d u i0 j0 k0 i1 j1 k1 gcw) [i, j, k] - F.rd m (F.cell3d u i0 j0 k0 i1 j1 k1 gcw) [i, j, k - 1]) / dx 2, fun i j k => F.rd m (F.cell3d a i0 j0 k0 i1 j1 k1 agcw) [i, j, k], fun i j k => F.rd m (F.cell3d u i0 j0 k0 i1 j1 k1 gcw) [i, j, k], W, V0, V1, V2, fun i j k h0 h1 h2 h3 h4 h5 => (h.ok (F.cell3d a i0 j0 k0 i1 j1 k1 agcw) (by simp)).rd (by in_bounds), fun i j k h0 h1 h2 h3 h4 h5 => (h.ok (F.cell3d u i0 j0 k0 i1 j1 k1 gcw) (by simp)).rd (by in_bounds), ?_⟩
  have e := F.conserve3 (beta := beta) (G0 := fun i j k => F.rd m (F.face3d0 b0 i0 j0 k0 i1 j1 k1 0) [i, j, k] * (F.rd m (F.cell3d u i0 j0 k0 i1 j1 k1 gcw) [i, j, k] - F.rd m (F.cell3d u i0 j0 k0 i1 j1 k1 gcw) [i - 1, j, k]) / dx 0) (G1 := fun i j k => F.rd m (F.face3d1 b1 i0 j0 k0 i1 j1 k1 0) [j, k, i] * (F.rd m (F.cell3d u i0 j0 k0 i1 j1 k1 gcw) [i, j, k] - F.rd m (F.cell3d u i0 j0 k0 i1 j1 k1 gcw) [i, j - 1, k]) / dx 1) (G2 := fun i j k => F.rd m (F.face3d2 b2 i0 j0 k0 i1 j1 k1 0) [k, i, j] * (F.rd m (F.cell3d u i0 j0 k0 i1 j1 k1 gcw) [i, j, k] - F.rd m (F.cell3d u i0 j0 k0 i1 j1 k1 gcw) [i, j, k - 1]) / dx 2) hi hj hk hd0 hd1 hd2
  simp only [add_sub_cancel_right] at e
  simp only [F.sum_add, add_mul, add_sub_cancel_right]
  rw [e]

example : ∃ m1 m2, Cuda.flux3d 0 1 2 1 2 3 exDx ⟨2, 0⟩ ⟨3, 0⟩ ⟨4, 0⟩ 2 ⟨1, 0⟩ ⟨5, 0⟩ ⟨6, 0⟩ ⟨7, 0⟩ (fun _ => revBackend) exRat = .ok m1 ∧ Cuda.diffusionV1Apply3d 0 1 1 2 2 3 3 2 exDx 1 ⟨0, 0⟩ 2 ⟨1, 0⟩ ⟨5, 0⟩ ⟨6, 0⟩ ⟨7, 0⟩ 1 ⟨8, 0⟩ (fun _ => seqBackend) m1 = .ok m2 ∧
      ∃ (R G0 G1 G2 A U : Int → Int → Int → Rat),
        (∀ i j k, 0 ≤ i → i ≤ 1 → 1 ≤ j → j ≤ 2 → 2 ≤ k → k ≤ 3 → F.El m2 (F.cell3d ⟨8, 0⟩ 0 1 2 1 2 3 1) [i, j, k] (R i j k)) ∧
        (∀ i j k, 0 ≤ i → i ≤ 1 + 1 → 1 ≤ j → j ≤ 2 → 2 ≤ k → k ≤ 3 → F.El m1 (F.face3d0 ⟨5, 0⟩ 0 1 2 1 2 3 0) [i, j, k] (G0 i j k)) ∧
        (∀ i j k, 0 ≤ i → i ≤ 1 → 1 ≤ j → j ≤ 2 + 1 → 2 ≤ k → k ≤ 3 → F.El m1 (F.face3d1 ⟨6, 0⟩ 0 1 2 1 2 3 0) [j, k, i] (G1 i j k)) ∧
        (∀ i j k, 0 ≤ i → i ≤ 1 → 1 ≤ j → j ≤ 2 → 2 ≤ k → k ≤ 3 + 1 → F.El m1 (F.face3d2 ⟨7, 0⟩ 0 1 2 1 2 3 0) [k, i, j] (G2 i j k)) ∧
        (∀ i j k, 0 ≤ i → i ≤ 1 → 1 ≤ j → j ≤ 2 → 2 ≤ k → k ≤ 3 → F.El exRat (F.cell3d ⟨0, 0⟩ 0 1 2 1 2 3 1) [i, j, k] (A i j k)) ∧
        (∀ i j k, 0 ≤ i → i ≤ 1 → 1 ≤ j → j ≤ 2 → 2 ≤ k → k ≤ 3 → F.El exRat (F.cell3d ⟨1, 0⟩ 0 1 2 1 2 3 2) [i, j, k] (U i j k)) ∧
        (F.sum 0 1 fun i => F.sum 1 2 fun j => F.sum 2 3 fun k => R i j k) * (exDx 0 * exDx 1 * exDx 2) =
          -2 * ((F.sum 1 2 fun j => F.sum 2 3 fun k => G0 (1 + 1) j k - G0 0 j k) * (exDx 1 * exDx 2) + (F.sum 0 1 fun i => F.sum 2 3 fun k => G1 i (2 + 1) k - G1 i 1 k) * (exDx 0 * exDx 2) + (F.sum 0 1 fun i => F.sum 1 2 fun j => G2 i j (3 + 1) - G2 i j 2) * (exDx 0 * exDx 1)) + (F.sum 0 1 fun i => F.sum 1 2 fun j => F.sum 2 3 fun k => 3 * A i j k * U i j k) * (exDx 0 * exDx 1 * exDx 2) :=
  C40_v1_3d (fun _ => revBackend_ok) (fun _ => seqBackend_ok) (by decide) (by decide) (by decide) (by decide) (by decide) (by decide) (by norm_num [exDx]) (by norm_num [exDx]) (by norm_num [exDx]) (by ex_args) (⟨apart_blk (by decide), apart_blk (by decide), apart_blk (by decide)⟩) ⟨apart_blk (by decide), apart_blk (by decide), apart_blk (by decide)⟩

/-- Summed over the box and scaled by the cell volume, what `flux3d` and then `diffusionV2Apply3d` leave is `-beta` times the difference of the
fluxes through the boundary plus the sum of the term without derivatives. -/
theorem C40_v2_3d {i0 j0 k0 i1 j1 k1 gcw rgcw : Int} {alpha beta : T} {dx : Nat → T} {u b0 b1 b2 f0 f1 f2 res : Ptr} {β1 β2 : Nat → Backend} {m : Mem T}
    (hβ1 : ∀ n, ValidBackend (β1 n)) (hβ2 : ∀ n, ValidBackend (β2 n))
    (hi : i0 ≤ i1) (hj : j0 ≤ j1) (hk : k0 ≤ k1) (hg : 1 ≤ gcw) (hrgcw : 0 ≤ rgcw) (hd0 : dx 0 ≠ 0) (hd1 : dx 1 ≠ 0) (hd2 : dx 2 ≠ 0)
    (h : F.Args m [(F.cell3d u i0 j0 k0 i1 j1 k1 gcw), (F.face3d0 b0 i0 j0 k0 i1 j1 k1 0), (F.face3d1 b1 i0 j0 k0 i1 j1 k1 0), (F.face3d2 b2 i0 j0 k0 i1 j1 k1 0)] [(F.face3d0 f0 i0 j0 k0 i1 j1 k1 0), (F.face3d1 f1 i0 j0 k0 i1 j1 k1 0), (F.face3d2 f2 i0 j0 k0 i1 j1 k1 0), (F.cell3d res i0 j0 k0 i1 j1 k1 rgcw)])
    (hp : F.Apart (F.face3d0 f0 i0 j0 k0 i1 j1 k1 0) (F.face3d1 f1 i0 j0 k0 i1 j1 k1 0) ∧ F.Apart (F.face3d0 f0 i0 j0 k0 i1 j1 k1 0) (F.face3d2 f2 i0 j0 k0 i1 j1 k1 0) ∧ F.Apart (F.face3d1 f1 i0 j0 k0 i1 j1 k1 0) (F.face3d2 f2 i0 j0 k0 i1 j1 k1 0))
    (hr : F.Apart (F.cell3d res i0 j0 k0 i1 j1 k1 rgcw) (F.face3d0 f0 i0 j0 k0 i1 j1 k1 0) ∧ F.Apart (F.cell3d res i0 j0 k0 i1 j1 k1 rgcw) (F.face3d1 f1 i0 j0 k0 i1 j1 k1 0) ∧ F.Apart (F.cell3d res i0 j0 k0 i1 j1 k1 rgcw) (F.face3d2 f2 i0 j0 k0 i1 j1 k1 0)) :
    ∃ m1 m2, Cuda.flux3d i0 j0 k0 i1 j1 k1 dx b0 b1 b2 gcw u f0 f1 f2 β1 m = .ok m1 ∧ Cuda.diffusionV2Apply3d i0 i1 j0 j1 k0 k1 alpha beta dx gcw u f0 f1 f2 rgcw res β2 m1 = .ok m2 ∧
      ∃ (R G0 G1 G2 U : Int → Int → Int → T),
        (∀ i j k, i0 ≤ i → i ≤ i1 → j0 ≤ j → j ≤ j1 → k0 ≤ k → k ≤ k1 → F.El m2 (F.cell3d res i0 j0 k0 i1 j1 k1 rgcw) [i, j, k] (R i j k)) ∧
        (∀ i j k, i0 ≤ i → i ≤ i1 + 1 → j0 ≤ j → j ≤ j1 → k0 ≤ k → k ≤ k1 → F.El m1 (F.face3d0 f0 i0 j0 k0 i1 j1 k1 0) [i, j, k] (G0 i j k)) ∧
        (∀ i j k, i0 ≤ i → i ≤ i1 → j0 ≤ j → j ≤ j1 + 1 → k0 ≤ k → k ≤ k1 → F.El m1 (F.face3d1 f1 i0 j0 k0 i1 j1 k1 0) [j, k, i] (G1 i j k)) ∧
        (∀ i j k, i0 ≤ i → i ≤ i1 → j0 ≤ j → j ≤ j1 → k0 ≤ k → k ≤ k1 + 1 → F.El m1 (F.face3d2 f2 i0 j0 k0 i1 j1 k1 0) [k, i, j] (G2 i j k)) ∧
        (∀ i j k, i0 ≤ i → i ≤ i1 → j0 ≤ j → j ≤ j1 → k0 ≤ k → k ≤ k1 → F.El m (F.cell3d u i0 j0 k0 i1 j1 k1 gcw) [i, j, k] (U i j k)) ∧
        (F.sum i0 i1 fun i => F.sum j0 j1 fun j => F.sum k0 k1 fun k => R i j k) * (dx 0 * dx 1 * dx 2) =
          -beta * ((F.sum j0 j1 fun j => F.sum k0 k1 fun k => G0 (i1 + 1) j k - G0 i0 j k) * (dx 1 * dx 2) + (F.sum i0 i1 fun i => F.sum k0 k1 fun k => G1 i (j1 + 1) k - G1 i j0 k) * (dx 0 * dx 2) + (F.sum i0 i1 fun i => F.sum j0 j1 fun j => G2 i j (k1 + 1) - G2 i j k0) * (dx 0 * dx 1)) + (F.sum i0 i1 fun i => F.sum j0 j1 fun j => F.sum k0 k1 fun k => alpha * U i j k) * (dx 0 * dx 1 * dx 2) := by
  obtain ⟨m1, m2, c1, c2, -, -, V0, V1, V2, W⟩ := op_v2_3 (alpha := alpha) (beta := beta) (dx := dx) hβ1 hβ2 hi hj hk hg hrgcw h hp hr
  refine ⟨m1, m2, c1, c2, fun i j k => -(beta * ((F.rd m (F.face3d0 b0 i0 j0 k0 i1 j1 k1 0) [i + 1, j, k] * (F.rd m (F.cell3d u i0 j0 k0 i1 j1 k1 gcw) [i + 1, j, k] - F.rd m (F.cell3d u i0 j0 k0 i1 j1 k1 gcw) [i, j, k]) / dx 0 - F.rd m (F.face3d0 b0 i0 j0 k0 i1 j1 k1 0) [i, j, k] * (F.rd m (F.cell3d u i0 j0 k0 i1 j1 k1 gcw) [i, j, k] - F.rd m (F.cell3d u i0 j0 k0 i1 j1 k1 gcw) [i - 1, j, k]) / dx 0) / dx 0 + (F.rd m (F.face3d1 b1 i0 j0 k0 i1 j1 k1 0) [j + 1, k, i] * (F.rd m (F.cell3d u i0 j0 k0 i1 j1 k1 gcw) [i, j + 1, k] - F.rd m (F.cell3d u i0 j0 k0 i1 j1 k1 gcw) [i, j, k]) / dx 1 - F.rd m (F.face3d1 b1 i0 j0 k0 i1 j1 k1 0) [j, k, i] * (F.rd m (F.cell3d u i0 j0 k0 i1 j1 k1 gcw) [i, j, k] - F.rd m (F.cell3d u i0 j0 k0 i1 j1 k1 gcw) [i, j - 1, k]) / dx 1) / dx 1 + (F.rd m (F.face3d2 b2 i0 j0 k0 i1 j1 k1 0) [k + 1, i, j] * (F.rd m (F.cell3d u i0 j0 k0 i1 j1 k1 gcw) [i, j, k + 1] - F.rd m (F.cell3d u i0 j0 k0 i1 j1 k1 gcw) [i, j, k]) / dx 2 - F.rd m (F.face3d2 b2 i0 j0 k0 i1 j1 k1 0) [k, i, j] * (F.rd m (F.cell3d u i0 j0 k0 i1 j1 k1 gcw) [i, j, k] - F.rd m (F.cell3d u i0 j0 k0 i1 j1 k1 gcw) [i, j, k - 1]) / dx 2) / dx 2)) + alpha * F.rd m (F.cell3d u i0 j0 k0 i1 j1 k1 gcw) [i, j, k], fun i j k => F.rd m (F.face3d0 b0 i0 j0 k0 i1 j1 k1 0) [i, j, k] * (F.rd m (F.cell3d u i0 j0 k0 i1 j1 k1 gcw) [i, j, k] - F.rd m (F.cell3d u i0 j0 k0 i1 j1 k1 gcw) [i - 1, j, k]) / dx 0, fun i j k => F.rd m (F.face3d1 b1 i0 j0 k0 i1 j1 k1 0) [j, k, i] * (F.rd m (F.cell3d u i0 j0 k0 i1 j1 k1 gcw) [i, j, k] - F.rd m (F.cell3d u i0 j0 k0 i1 j1 k1 gcw) [i, j - 1, k]) / dx 1, fun i j k => F.rd m (F.face3d2 b2 i0 j0 k0 i1 j1 k1 0) [k, i, j] * (F.rd m (F.cell3d u i0 j0 k0 i1 j1 k1 gcw) [i, j, k] - F.rd m (F.cell3d u i0 j0 k0 i1 j1 k1 gcw) [i, j, k - 1]) / dx 2, fun i j k => F.rd m (F.cell3d u i0 j0 k0 i1 j1 k1 gcw) [i, j, k], W, V0, V1, V2, fun i j k h0 h1 h2 h3 h4 h5 => (h.ok (F.cell3d u i0 j0 k0 i1 j1 k1 gcw) (by simp)).rd (by in_bounds), ?_⟩
  have e := F.conserve3 (beta := beta) (G0 := fun i j k => F.rd m (F.face3d0 b0 i0 j0 k0 i1 j1 k1 0) [i, j, k] * (F.rd m (F.cell3d u i0 j0 k0 i1 j1 k1 gcw) [i, j, k] - F.rd m (F.cell3d u i0 j0 k0 i1 j1 k1 gcw) [i - 1, j, k]) / dx 0) (G1 := fun i j k => F.rd m (F.face3d1 b1 i0 j0 k0 i1 j1 k1 0) [j, k, i] * (F.rd m (F.cell3d u i0 j0 k0 i1 j1 k1 gcw) [i, j, k] - F.rd m (F.cell3d u i0 j0 k0 i1 j1 k1 gcw) [i, j - 1, k]) / dx 1) (G2 := fun i j k => F.rd m (F.face3d2 b2 i0 j0 k0 i1 j1 k1 0) [k, i, j] * (F.rd m (F.cell3d u i0 j0 k0 i1 j1 k1 gcw) [i, j, k] - F.rd m (F.cell3d u i0 j0 k0 i1 j1 k1 gcw) [i, j, k - 1]) / dx 2) hi hj hk hd0 hd1 hd2
  simp only [add_sub_cancel_right] at e
  simp only [F.sum_add, add_mul, add_sub_cancel_right]
  rw [e]

example : ∃ m1 m2, Cuda.flux3d 0 1 2 1 2 3 exDx ⟨2, 0⟩ ⟨3, 0⟩ ⟨4, 0⟩ 2 ⟨1, 0⟩ ⟨5, 0⟩ ⟨6, 0⟩ ⟨7, 0⟩ (fun _ => revBackend) exRat = .ok m1 ∧ Cuda.diffusionV2Apply3d 0 1 1 2 2 3 3 2 exDx 2 ⟨1, 0⟩ ⟨5, 0⟩ ⟨6, 0⟩ ⟨7, 0⟩ 1 ⟨8, 0⟩ (fun _ => seqBackend) m1 = .ok m2 ∧
      ∃ (R G0 G1 G2 U : Int → Int → Int → Rat),
        (∀ i j k, 0 ≤ i → i ≤ 1 → 1 ≤ j → j ≤ 2 → 2 ≤ k → k ≤ 3 → F.El m2 (F.cell3d ⟨8, 0⟩ 0 1 2 1 2 3 1) [i, j, k] (R i j k)) ∧
        (∀ i j k, 0 ≤ i → i ≤ 1 + 1 → 1 ≤ j → j ≤ 2 → 2 ≤ k → k ≤ 3 → F.El m1 (F.face3d0 ⟨5, 0⟩ 0 1 2 1 2 3 0) [i, j, k] (G0 i j k)) ∧
        (∀ i j k, 0 ≤ i → i ≤ 1 → 1 ≤ j → j ≤ 2 + 1 → 2 ≤ k → k ≤ 3 → F.El m1 (F.face3d1 ⟨6, 0⟩ 0 1 2 1 2 3 0) [j, k, i] (G1 i j k)) ∧
        (∀ i j k, 0 ≤ i → i ≤ 1 → 1 ≤ j → j ≤ 2 → 2 ≤ k → k ≤ 3 + 1 → F.El m1 (F.face3d2 ⟨7, 0⟩ 0 1 2 1 2 3 0) [k, i, j] (G2 i j k)) ∧
        (∀ i j k, 0 ≤ i → i ≤ 1 → 1 ≤ j → j ≤ 2 → 2 ≤ k → k ≤ 3 → F.El exRat (F.cell3d ⟨1, 0⟩ 0 1 2 1 2 3 2) [i, j, k] (U i j k)) ∧
        (F.sum 0 1 fun i => F.sum 1 2 fun j => F.sum 2 3 fun k => R i j k) * (exDx 0 * exDx 1 * exDx 2) =
          -2 * ((F.sum 1 2 fun j => F.sum 2 3 fun k => G0 (1 + 1) j k - G0 0 j k) * (exDx 1 * exDx 2) + (F.sum 0 1 fun i => F.sum 2 3 fun k => G1 i (2 + 1) k - G1 i 1 k) * (exDx 0 * exDx 2) + (F.sum 0 1 fun i => F.sum 1 2 fun j => G2 i j (3 + 1) - G2 i j 2) * (exDx 0 * exDx 1)) + (F.sum 0 1 fun i => F.sum 1 2 fun j => F.sum 2 3 fun k => 3 * U i j k) * (exDx 0 * exDx 1 * exDx 2) :=
  C40_v2_3d (fun _ => revBackend_ok) (fun _ => seqBackend_ok) (by decide) (by decide) (by decide) (by decide) (by decide) (by norm_num [exDx]) (by norm_num [exDx]) (by norm_num [exDx]) (by ex_args) (⟨apart_blk (by decide), apart_blk (by decide), apart_blk (by decide)⟩) ⟨apart_blk (by decide), apart_blk (by decide), apart_blk (by decide)⟩

/-! ### C44 -/

/-- `exRat` with the values of block `b` multiplied by `c` -/
def exScaled (b : Nat) (c : Rat) : Mem Rat := { exRat with val := fun q => if q.blk = b then (exRat.val q).map (c * ·) else exRat.val q }

theorem exScaled_args {b : Nat} {c : Rat} {ins outs : List F.Arr} (h : F.Args exRat ins outs) : F.Args (exScaled b c) ins outs := by
  refine ⟨fun a ha => ⟨fun is hi => ?_, (h.ok a ha).fits, (h.ok a ha).int⟩, h.apart⟩
  obtain ⟨v, hv⟩ := (h.ok a ha).alloc is hi
  simp only [exScaled]
  split
  · exact ⟨c * v, by rw [hv]; rfl⟩
  · exact ⟨v, hv⟩

theorem exScaled_other {b : Nat} {c : Rat} {a : F.Arr} {is : List Int} {x : Rat} (h : a.ptr.blk ≠ b) (hx : F.El exRat a is x) : F.El (exScaled b c) a is x :=
  ⟨hx.1, by simp only [exScaled, Ptr.add]; rw [if_neg h]; exact hx.2⟩

theorem exScaled_el {b : Nat} {c e d : Rat} {a : F.Arr} {is : List Int} {x y : Rat} (h : a.ptr.blk = b) (hx : F.El exRat a is x) (hy : F.El (exScaled b e) a is y) :
    F.El (exScaled b (c + d * e)) a is (c * x + d * y) := by
  refine ⟨hx.1, ?_⟩
  have h2 := hx.2
  have h3 := hy.2
  simp only [exScaled, Ptr.add] at h2 h3 ⊢
  rw [if_pos h] at h3 ⊢
  rw [h2] at h3 ⊢
  have : e * x = y := by simpa using h3
  rw [← this]
  simp only [Option.map_some, Option.some.injEq]
  ring

/-- Running `flux1d` again, on whatever schedule, changes nothing. -/
theorem C44_flux_twice_1d {i0 i1 gcw : Int} {dx : Nat → T} {u b0 f0 : Ptr} {β1 β2 : Nat → Backend} {m : Mem T}
    (hβ1 : ∀ n, ValidBackend (β1 n)) (hβ2 : ∀ n, ValidBackend (β2 n)) (hi : i0 ≤ i1) (hg : 1 ≤ gcw)
    (h : F.Args m [(F.cell1d u i0 i1 gcw), (F.face1d b0 i0 i1 0)] [(F.face1d f0 i0 i1 0)]) :
    ∃ m1, Cuda.flux1d i0 i1 dx b0 gcw u f0 β1 m = .ok m1 ∧ Cuda.flux1d i0 i1 dx b0 gcw u f0 β2 m1 = .ok m1 := by
  obtain ⟨m1, q1, q2, K, -⟩ := flux1_run (dx := dx) hi hg h
  obtain ⟨m2, c1, e1⟩ := C33_1d (dx := dx) (β := β1) hβ1 hi hg h
  obtain rfl : m1 = m2 := Except.ok.inj (q1.symm.trans e1)
  obtain ⟨m2, c2, e2⟩ := C33_1d (dx := dx) (β := β2) hβ2 hi hg (K.args h)
  obtain rfl : m1 = m2 := Except.ok.inj (q2.symm.trans e2)
  exact ⟨m1, c1, c2⟩

example : ∃ m1, Cuda.flux1d 0 3 exDx ⟨2, 0⟩ 2 ⟨1, 0⟩ ⟨5, 0⟩ (fun _ => revBackend) exRat = .ok m1 ∧ Cuda.flux1d 0 3 exDx ⟨2, 0⟩ 2 ⟨1, 0⟩ ⟨5, 0⟩ (fun _ => seqBackend) m1 = .ok m1 :=
  C44_flux_twice_1d (fun _ => revBackend_ok) (fun _ => seqBackend_ok) (by decide) (by decide) (by ex_args) 

/-- Running `poissonFlux1d` again, on whatever schedule, changes nothing. -/
theorem C44_poisson_flux_twice_1d {i0 i1 gcw : Int} {dx : Nat → T} {u f0 : Ptr} {β1 β2 : Nat → Backend} {m : Mem T}
    (hβ1 : ∀ n, ValidBackend (β1 n)) (hβ2 : ∀ n, ValidBackend (β2 n)) (hi : i0 ≤ i1) (hg : 1 ≤ gcw)
    (h : F.Args m [(F.cell1d u i0 i1 gcw)] [(F.face1d f0 i0 i1 0)]) :
    ∃ m1, Cuda.poissonFlux1d i0 i1 dx gcw u f0 β1 m = .ok m1 ∧ Cuda.poissonFlux1d i0 i1 dx gcw u f0 β2 m1 = .ok m1 := by
  obtain ⟨m1, q1, q2, K, -⟩ := pflux1_run (dx := dx) hi hg h
  obtain ⟨m2, c1, e1⟩ := C33_poisson_1d (dx := dx) (β := β1) hβ1 hi hg h
  obtain rfl : m1 = m2 := Except.ok.inj (q1.symm.trans e1)
  obtain ⟨m2, c2, e2⟩ := C33_poisson_1d (dx := dx) (β := β2) hβ2 hi hg (K.args h)
  obtain rfl : m1 = m2 := Except.ok.inj (q2.symm.trans e2)
  exact ⟨m1, c1, c2⟩

example : ∃ m1, Cuda.poissonFlux1d 0 3 exDx 2 ⟨1, 0⟩ ⟨5, 0⟩ (fun _ => revBackend) exRat = .ok m1 ∧ Cuda.poissonFlux1d 0 3 exDx 2 ⟨1, 0⟩ ⟨5, 0⟩ (fun _ => seqBackend) m1 = .ok m1 :=
  C44_poisson_flux_twice_1d (fun _ => revBackend_ok) (fun _ => seqBackend_ok) (by decide) (by decide) (by ex_args) 

/-- Running `diffusionV1Apply1d` again, on whatever schedule, changes nothing. -/
theorem C44_v1_apply_twice_1d {i0 i1 agcw gcw rgcw : Int} {alpha beta : T} {dx : Nat → T} {a u f0 res : Ptr} {β1 β2 : Nat → Backend} {m : Mem T}
    (hβ1 : ∀ n, ValidBackend (β1 n)) (hβ2 : ∀ n, ValidBackend (β2 n)) (hi : i0 ≤ i1) (hagcw : 0 ≤ agcw) (hg : 0 ≤ gcw) (hrgcw : 0 ≤ rgcw)
    (h : F.Args m [(F.cell1d a i0 i1 agcw), (F.cell1d u i0 i1 gcw), (F.face1d f0 i0 i1 0)] [(F.cell1d res i0 i1 rgcw)]) :
    ∃ m1, Cuda.diffusionV1Apply1d i0 i1 alpha beta dx agcw a gcw u f0 rgcw res β1 m = .ok m1 ∧ Cuda.diffusionV1Apply1d i0 i1 alpha beta dx agcw a gcw u f0 rgcw res β2 m1 = .ok m1 := by
  obtain ⟨m1, q1, q2, K, -⟩ := v1apply1_run (alpha := alpha) (beta := beta) (dx := dx) hi hagcw hg hrgcw h
  obtain ⟨m2, c1, e1⟩ := C34_v1_apply_1d (alpha := alpha) (beta := beta) (dx := dx) (β := β1) hβ1 hi hagcw hg hrgcw h
  obtain rfl : m1 = m2 := Except.ok.inj (q1.symm.trans e1)
  obtain ⟨m2, c2, e2⟩ := C34_v1_apply_1d (alpha := alpha) (beta := beta) (dx := dx) (β := β2) hβ2 hi hagcw hg hrgcw (K.args h)
  obtain rfl : m1 = m2 := Except.ok.inj (q2.symm.trans e2)
  exact ⟨m1, c1, c2⟩

example : ∃ m1, Cuda.diffusionV1Apply1d 0 3 3 2 exDx 1 ⟨0, 0⟩ 2 ⟨1, 0⟩ ⟨5, 0⟩ 1 ⟨8, 0⟩ (fun _ => revBackend) exRat = .ok m1 ∧ Cuda.diffusionV1Apply1d 0 3 3 2 exDx 1 ⟨0, 0⟩ 2 ⟨1, 0⟩ ⟨5, 0⟩ 1 ⟨8, 0⟩ (fun _ => seqBackend) m1 = .ok m1 :=
  C44_v1_apply_twice_1d (fun _ => revBackend_ok) (fun _ => seqBackend_ok) (by decide) (by decide) (by decide) (by decide) (by ex_args)

/-- Running `diffusionV2Apply1d` again, on whatever schedule, changes nothing. -/
theorem C44_v2_apply_twice_1d {i0 i1 gcw rgcw : Int} {alpha beta : T} {dx : Nat → T} {u f0 res : Ptr} {β1 β2 : Nat → Backend} {m : Mem T}
    (hβ1 : ∀ n, ValidBackend (β1 n)) (hβ2 : ∀ n, ValidBackend (β2 n)) (hi : i0 ≤ i1) (hg : 0 ≤ gcw) (hrgcw : 0 ≤ rgcw)
    (h : F.Args m [(F.cell1d u i0 i1 gcw), (F.face1d f0 i0 i1 0)] [(F.cell1d res i0 i1 rgcw)]) :
    ∃ m1, Cuda.diffusionV2Apply1d i0 i1 alpha beta dx gcw u f0 rgcw res β1 m = .ok m1 ∧ Cuda.diffusionV2Apply1d i0 i1 alpha beta dx gcw u f0 rgcw res β2 m1 = .ok m1 := by
  obtain ⟨m1, q1, q2, K, -⟩ := v2apply1_run (alpha := alpha) (beta := beta) (dx := dx) hi hg hrgcw h
  obtain ⟨m2, c1, e1⟩ := C34_v2_apply_1d (alpha := alpha) (beta := beta) (dx := dx) (β := β1) hβ1 hi hg hrgcw h
  obtain rfl : m1 = m2 := Except.ok.inj (q1.symm.trans e1)
  obtain ⟨m2, c2, e2⟩ := C34_v2_apply_1d (alpha := alpha) (beta := beta) (dx := dx) (β := β2) hβ2 hi hg hrgcw (K.args h)
  obtain rfl : m1 = m2 := Except.ok.inj (q2.symm.trans e2)
  exact ⟨m1, c1, c2⟩

example : ∃ m1, Cuda.diffusionV2Apply1d 0 3 3 2 exDx 2 ⟨1, 0⟩ ⟨5, 0⟩ 1 ⟨8, 0⟩ (fun _ => revBackend) exRat = .ok m1 ∧ Cuda.diffusionV2Apply1d 0 3 3 2 exDx 2 ⟨1, 0⟩ ⟨5, 0⟩ 1 ⟨8, 0⟩ (fun _ => seqBackend) m1 = .ok m1 :=
  C44_v2_apply_twice_1d (fun _ => revBackend_ok) (fun _ => seqBackend_ok) (by decide) (by decide) (by decide) (by ex_args)

/-- Running `poissonV2Apply1d` again, on whatever schedule, changes nothing. -/
theorem C44_poisson_apply_twice_1d {i0 i1 rgcw : Int} {beta : T} {dx : Nat → T} {f0 res : Ptr} {β1 β2 : Nat → Backend} {m : Mem T}
    (hβ1 : ∀ n, ValidBackend (β1 n)) (hβ2 : ∀ n, ValidBackend (β2 n)) (hi : i0 ≤ i1) (hrgcw : 0 ≤ rgcw)
    (h : F.Args m [(F.face1d f0 i0 i1 0)] [(F.cell1d res i0 i1 rgcw)]) :
    ∃ m1, Cuda.poissonV2Apply1d i0 i1 beta dx f0 rgcw res β1 m = .ok m1 ∧ Cuda.poissonV2Apply1d i0 i1 beta dx f0 rgcw res β2 m1 = .ok m1 := by
  obtain ⟨m1, q1, q2, K, -⟩ := papply1_run (beta := beta) (dx := dx) hi hrgcw h
  obtain ⟨m2, c1, e1⟩ := C34_poisson_apply_1d (beta := beta) (dx := dx) (β := β1) hβ1 hi hrgcw h
  obtain rfl : m1 = m2 := Except.ok.inj (q1.symm.trans e1)
  obtain ⟨m2, c2, e2⟩ := C34_poisson_apply_1d (beta := beta) (dx := dx) (β := β2) hβ2 hi hrgcw (K.args h)
  obtain rfl : m1 = m2 := Except.ok.inj (q2.symm.trans e2)
  exact ⟨m1, c1, c2⟩

example : ∃ m1, Cuda.poissonV2Apply1d 0 3 2 exDx ⟨5, 0⟩ 1 ⟨8, 0⟩ (fun _ => revBackend) exRat = .ok m1 ∧ Cuda.poissonV2Apply1d 0 3 2 exDx ⟨5, 0⟩ 1 ⟨8, 0⟩ (fun _ => seqBackend) m1 = .ok m1 :=
  C44_poisson_apply_twice_1d (fun _ => revBackend_ok) (fun _ => seqBackend_ok) (by decide) (by decide) (by ex_args)

/-- If `u` in the third memory is `c` times `u` in the first plus `d` times `u` in the second, and the coefficients are the same, then so it is
with the fluxes left by `flux1d` and with what `diffusionV1Apply1d` then leaves. -/
theorem C44_v1_linear_1d {i0 i1 agcw gcw rgcw : Int} {alpha beta : T} {dx : Nat → T} {a u b0 f0 res : Ptr} {β1 β2 : Nat → Backend} {m1 m2 m3 : Mem T} {c d : T}
    (hβ1 : ∀ n, ValidBackend (β1 n)) (hβ2 : ∀ n, ValidBackend (β2 n)) (hi : i0 ≤ i1) (hg : 1 ≤ gcw) (hagcw : 0 ≤ agcw) (hrgcw : 0 ≤ rgcw)
    (h1 : F.Args m1 [(F.cell1d a i0 i1 agcw), (F.cell1d u i0 i1 gcw), (F.face1d b0 i0 i1 0)] [(F.face1d f0 i0 i1 0), (F.cell1d res i0 i1 rgcw)])
    (h2 : F.Args m2 [(F.cell1d a i0 i1 agcw), (F.cell1d u i0 i1 gcw), (F.face1d b0 i0 i1 0)] [(F.face1d f0 i0 i1 0), (F.cell1d res i0 i1 rgcw)])
    (h3 : F.Args m3 [(F.cell1d a i0 i1 agcw), (F.cell1d u i0 i1 gcw), (F.face1d b0 i0 i1 0)] [(F.face1d f0 i0 i1 0), (F.cell1d res i0 i1 rgcw)])
    (hr : F.Apart (F.cell1d res i0 i1 rgcw) (F.face1d f0 i0 i1 0))
    (hu : ∀ is x y, F.El m1 (F.cell1d u i0 i1 gcw) is x → F.El m2 (F.cell1d u i0 i1 gcw) is y → F.El m3 (F.cell1d u i0 i1 gcw) is (c * x + d * y))
    (hc : ∀ b ∈ [(F.cell1d a i0 i1 agcw), (F.face1d b0 i0 i1 0)], ∀ is x, F.El m1 b is x → F.El m2 b is x ∧ F.El m3 b is x) :
    ∃ p1 p2 p3 q1 q2 q3, Cuda.flux1d i0 i1 dx b0 gcw u f0 β1 m1 = .ok p1 ∧ Cuda.diffusionV1Apply1d i0 i1 alpha beta dx agcw a gcw u f0 rgcw res β2 p1 = .ok q1 ∧ Cuda.flux1d i0 i1 dx b0 gcw u f0 β1 m2 = .ok p2 ∧ Cuda.diffusionV1Apply1d i0 i1 alpha beta dx agcw a gcw u f0 rgcw res β2 p2 = .ok q2 ∧ Cuda.flux1d i0 i1 dx b0 gcw u f0 β1 m3 = .ok p3 ∧ Cuda.diffusionV1Apply1d i0 i1 alpha beta dx agcw a gcw u f0 rgcw res β2 p3 = .ok q3 ∧
      (∀ i, i0 ≤ i → i ≤ i1 + 1 → ∃ x y, F.El p1 (F.face1d f0 i0 i1 0) [i] x ∧ F.El p2 (F.face1d f0 i0 i1 0) [i] y ∧ F.El p3 (F.face1d f0 i0 i1 0) [i] (c * x + d * y)) ∧
      (∀ i, i0 ≤ i → i ≤ i1 → ∃ x y, F.El q1 (F.cell1d res i0 i1 rgcw) [i] x ∧ F.El q2 (F.cell1d res i0 i1 rgcw) [i] y ∧ F.El q3 (F.cell1d res i0 i1 rgcw) [i] (c * x + d * y)) := by
  obtain ⟨p1, q1, c1, d1, -, -, V01, W1⟩ := op_v1_1 (alpha := alpha) (beta := beta) (dx := dx) hβ1 hβ2 hi hg hagcw hrgcw h1 hr
  obtain ⟨p2, q2, c2, d2, -, -, V02, W2⟩ := op_v1_1 (alpha := alpha) (beta := beta) (dx := dx) hβ1 hβ2 hi hg hagcw hrgcw h2 hr
  obtain ⟨p3, q3, c3, d3, -, -, V03, W3⟩ := op_v1_1 (alpha := alpha) (beta := beta) (dx := dx) hβ1 hβ2 hi hg hagcw hrgcw h3 hr
  have U : ∀ is, F.InBounds (F.cell1d u i0 i1 gcw).dims is → F.rd m3 (F.cell1d u i0 i1 gcw) is = c * F.rd m1 (F.cell1d u i0 i1 gcw) is + d * F.rd m2 (F.cell1d u i0 i1 gcw) is := fun is hi =>
    (hu is _ _ ((h1.ok (F.cell1d u i0 i1 gcw) (by simp)).rd hi) ((h2.ok (F.cell1d u i0 i1 gcw) (by simp)).rd hi)).rd
  have Ba : ∀ is, F.InBounds (F.cell1d a i0 i1 agcw).dims is → F.rd m2 (F.cell1d a i0 i1 agcw) is = F.rd m1 (F.cell1d a i0 i1 agcw) is ∧ F.rd m3 (F.cell1d a i0 i1 agcw) is = F.rd m1 (F.cell1d a i0 i1 agcw) is := fun is hi =>
    have e := hc (F.cell1d a i0 i1 agcw) (by simp) is _ ((h1.ok (F.cell1d a i0 i1 agcw) (by simp)).rd hi)
    ⟨e.1.rd, e.2.rd⟩
  have Bb0 : ∀ is, F.InBounds (F.face1d b0 i0 i1 0).dims is → F.rd m2 (F.face1d b0 i0 i1 0) is = F.rd m1 (F.face1d b0 i0 i1 0) is ∧ F.rd m3 (F.face1d b0 i0 i1 0) is = F.rd m1 (F.face1d b0 i0 i1 0) is := fun is hi =>
    have e := hc (F.face1d b0 i0 i1 0) (by simp) is _ ((h1.ok (F.face1d b0 i0 i1 0) (by simp)).rd hi)
    ⟨e.1.rd, e.2.rd⟩
  refine ⟨p1, p2, p3, q1, q2, q3, c1, d1, c2, d2, c3, d3, ?_, ?_⟩
  · intro i h0 h1
    refine ⟨_, _, V01 i h0 h1, V02 i h0 h1, ?_⟩
    convert V03 i h0 h1 using 1
    rw [U [i] (by in_bounds), U [i - 1] (by in_bounds), (Bb0 [i] (by in_bounds)).1, (Bb0 [i] (by in_bounds)).2]
    simp only [div_eq_mul_inv]
    ring
  · intro i h0 h1
    refine ⟨_, _, W1 i h0 h1, W2 i h0 h1, ?_⟩
    convert W3 i h0 h1 using 1
    rw [U [i] (by in_bounds), U [i - 1] (by in_bounds), U [i + 1] (by in_bounds), (Bb0 [i] (by in_bounds)).1, (Bb0 [i] (by in_bounds)).2, (Bb0 [i + 1] (by in_bounds)).1, (Bb0 [i + 1] (by in_bounds)).2, (Ba [i] (by in_bounds)).1, (Ba [i] (by in_bounds)).2]
    simp only [div_eq_mul_inv]
    ring

example : ∃ p1 p2 p3 q1 q2 q3, Cuda.flux1d 0 3 exDx ⟨2, 0⟩ 2 ⟨1, 0⟩ ⟨5, 0⟩ (fun _ => revBackend) exRat = .ok p1 ∧ Cuda.diffusionV1Apply1d 0 3 3 2 exDx 1 ⟨0, 0⟩ 2 ⟨1, 0⟩ ⟨5, 0⟩ 1 ⟨8, 0⟩ (fun _ => seqBackend) p1 = .ok q1 ∧ Cuda.flux1d 0 3 exDx ⟨2, 0⟩ 2 ⟨1, 0⟩ ⟨5, 0⟩ (fun _ => revBackend) (exScaled 1 3) = .ok p2 ∧ Cuda.diffusionV1Apply1d 0 3 3 2 exDx 1 ⟨0, 0⟩ 2 ⟨1, 0⟩ ⟨5, 0⟩ 1 ⟨8, 0⟩ (fun _ => seqBackend) p2 = .ok q2 ∧ Cuda.flux1d 0 3 exDx ⟨2, 0⟩ 2 ⟨1, 0⟩ ⟨5, 0⟩ (fun _ => revBackend) (exScaled 1 (5 + 7 * 3)) = .ok p3 ∧ Cuda.diffusionV1Apply1d 0 3 3 2 exDx 1 ⟨0, 0⟩ 2 ⟨1, 0⟩ ⟨5, 0⟩ 1 ⟨8, 0⟩ (fun _ => seqBackend) p3 = .ok q3 ∧
      (∀ i, 0 ≤ i → i ≤ 3 + 1 → ∃ x y, F.El p1 (F.face1d ⟨5, 0⟩ 0 3 0) [i] x ∧ F.El p2 (F.face1d ⟨5, 0⟩ 0 3 0) [i] y ∧ F.El p3 (F.face1d ⟨5, 0⟩ 0 3 0) [i] (5 * x + 7 * y)) ∧
      (∀ i, 0 ≤ i → i ≤ 3 → ∃ x y, F.El q1 (F.cell1d ⟨8, 0⟩ 0 3 1) [i] x ∧ F.El q2 (F.cell1d ⟨8, 0⟩ 0 3 1) [i] y ∧ F.El q3 (F.cell1d ⟨8, 0⟩ 0 3 1) [i] (5 * x + 7 * y)) :=
  C44_v1_linear_1d (fun _ => revBackend_ok) (fun _ => seqBackend_ok) (by decide) (by decide) (by decide) (by decide) (by ex_args) (exScaled_args (by ex_args)) (exScaled_args (by ex_args)) (apart_blk (by decide))
    (fun _ _ _ => exScaled_el rfl)
    (by
      intro b hb is x hx
      have : b.ptr.blk ≠ 1 := by clear hx; revert b; decide
      exact ⟨exScaled_other this hx, exScaled_other this hx⟩)

/-- If `u` in the third memory is `c` times `u` in the first plus `d` times `u` in the second, and the coefficients are the same, then so it is
with the fluxes left by `flux1d` and with what `diffusionV2Apply1d` then leaves. -/
theorem C44_v2_linear_1d {i0 i1 gcw rgcw : Int} {alpha beta : T} {dx : Nat → T} {u b0 f0 res : Ptr} {β1 β2 : Nat → Backend} {m1 m2 m3 : Mem T} {c d : T}
    (hβ1 : ∀ n, ValidBackend (β1 n)) (hβ2 : ∀ n, ValidBackend (β2 n)) (hi : i0 ≤ i1) (hg : 1 ≤ gcw) (hrgcw : 0 ≤ rgcw)
    (h1 : F.Args m1 [(F.cell1d u i0 i1 gcw), (F.face1d b0 i0 i1 0)] [(F.face1d f0 i0 i1 0), (F.cell1d res i0 i1 rgcw)])
    (h2 : F.Args m2 [(F.cell1d u i0 i1 gcw), (F.face1d b0 i0 i1 0)] [(F.face1d f0 i0 i1 0), (F.cell1d res i0 i1 rgcw)])
    (h3 : F.Args m3 [(F.cell1d u i0 i1 gcw), (F.face1d b0 i0 i1 0)] [(F.face1d f0 i0 i1 0), (F.cell1d res i0 i1 rgcw)])
    (hr : F.Apart (F.cell1d res i0 i1 rgcw) (F.face1d f0 i0 i1 0))
    (hu : ∀ is x y, F.El m1 (F.cell1d u i0 i1 gcw) is x → F.El m2 (F.cell1d u i0 i1 gcw) is y → F.El m3 (F.cell1d u i0 i1 gcw) is (c * x + d * y))
    (hc : ∀ b ∈ [(F.face1d b0 i0 i1 0)], ∀ is x, F.El m1 b is x → F.El m2 b is x ∧ F.El m3 b is x) :
    ∃ p1 p2 p3 q1 q2 q3, Cuda.flux1d i0 i1 dx b0 gcw u f0 β1 m1 = .ok p1 ∧ Cuda.diffusionV2Apply1d i0 i1 alpha beta dx gcw u f0 rgcw res β2 p1 = .ok q1 ∧ Cuda.flux1d i0 i1 dx b0 gcw u f0 β1 m2 = .ok p2 ∧ Cuda.diffusionV2Apply1d i0 i1 alpha beta dx gcw u f0 rgcw res β2 p2 = .ok q2 ∧ Cuda.flux1d i0 i1 dx b0 gcw u f0 β1 m3 = .ok p3 ∧ Cuda.diffusionV2Apply1d i0 i1 alpha beta dx gcw u f0 rgcw res β2 p3 = .ok q3 ∧
      (∀ i, i0 ≤ i → i ≤ i1 + 1 → ∃ x y, F.El p1 (F.face1d f0 i0 i1 0) [i] x ∧ F.El p2 (F.face1d f0 i0 i1 0) [i] y ∧ F.El p3 (F.face1d f0 i0 i1 0) [i] (c * x + d * y)) ∧
      (∀ i, i0 ≤ i → i ≤ i1 → ∃ x y, F.El q1 (F.cell1d res i0 i1 rgcw) [i] x ∧ F.El q2 (F.cell1d res i0 i1 rgcw) [i] y ∧ F.El q3 (F.cell1d res i0 i1 rgcw) [i] (c * x + d * y)) := by
  obtain ⟨p1, q1, c1, d1, -, -, V01, W1⟩ := op_v2_1 (alpha := alpha) (beta := beta) (dx := dx) hβ1 hβ2 hi hg hrgcw h1 hr
  obtain ⟨p2, q2, c2, d2, -, -, V02, W2⟩ := op_v2_1 (alpha := alpha) (beta := beta) (dx := dx) hβ1 hβ2 hi hg hrgcw h2 hr
  obtain ⟨p3, q3, c3, d3, -, -, V03, W3⟩ := op_v2_1 (alpha := alpha) (beta := beta) (dx := dx) hβ1 hβ2 hi hg hrgcw h3 hr
  have U : ∀ is, F.InBounds (F.cell1d u i0 i1 gcw).dims is → F.rd m3 (F.cell1d u i0 i1 gcw) is = c * F.rd m1 (F.cell1d u i0 i1 gcw) is + d * F.rd m2 (F.cell1d u i0 i1 gcw) is := fun is hi =>
    (hu is _ _ ((h1.ok (F.cell1d u i0 i1 gcw) (by simp)).rd hi) ((h2.ok (F.cell1d u i0 i1 gcw) (by simp)).rd hi)).rd
  have Bb0 : ∀ is, F.InBounds (F.face1d b0 i0 i1 0).dims is → F.rd m2 (F.face1d b0 i0 i1 0) is = F.rd m1 (F.face1d b0 i0 i1 0) is ∧ F.rd m3 (F.face1d b0 i0 i1 0) is = F.rd m1 (F.face1d b0 i0 i1 0) is := fun is hi =>
    have e := hc (F.face1d b0 i0 i1 0) (by simp) is _ ((h1.ok (F.face1d b0 i0 i1 0) (by simp)).rd hi)
    ⟨e.1.rd, e.2.rd⟩
  refine ⟨p1, p2, p3, q1, q2, q3, c1, d1, c2, d2, c3, d3, ?_, ?_⟩
  · intro i h0 h1
    refine ⟨_, _, V01 i h0 h1, V02 i h0 h1, ?_⟩
    convert V03 i h0 h1 using 1
    rw [U [i] (by in_bounds), U [i - 1] (by in_bounds), (Bb0 [i] (by in_bounds)).1, (Bb0 [i] (by in_bounds)).2]
    simp only [div_eq_mul_inv]
    ring
  · intro i h0 h1
    refine ⟨_, _, W1 i h0 h1, W2 i h0 h1, ?_⟩
    convert W3 i h0 h1 using 1
    rw [U [i] (by in_bounds), U [i - 1] (by in_bounds), U [i + 1] (by in_bounds), (Bb0 [i] (by in_bounds)).1, (Bb0 [i] (by in_bounds)).2, (Bb0 [i + 1] (by in_bounds)).1, (Bb0 [i + 1] (by in_bounds)).2]
    simp only [div_eq_mul_inv]
    ring

example : ∃ p1 p2 p3 q1 q2 q3, Cuda.flux1d 0 3 exDx ⟨2, 0⟩ 2 ⟨1, 0⟩ ⟨5, 0⟩ (fun _ => revBackend) exRat = .ok p1 ∧ Cuda.diffusionV2Apply1d 0 3 3 2 exDx 2 ⟨1, 0⟩ ⟨5, 0⟩ 1 ⟨8, 0⟩ (fun _ => seqBackend) p1 = .ok q1 ∧ Cuda.flux1d 0 3 exDx ⟨2, 0⟩ 2 ⟨1, 0⟩ ⟨5, 0⟩ (fun _ => revBackend) (exScaled 1 3) = .ok p2 ∧ Cuda.diffusionV2Apply1d 0 3 3 2 exDx 2 ⟨1, 0⟩ ⟨5, 0⟩ 1 ⟨8, 0⟩ (fun _ => seqBackend) p2 = .ok q2 ∧ Cuda.flux1d 0 3 exDx ⟨2, 0⟩ 2 ⟨1, 0⟩ ⟨5, 0⟩ (fun _ => revBackend) (exScaled 1 (5 + 7 * 3)) = .ok p3 ∧ Cuda.diffusionV2Apply1d 0 3 3 2 exDx 2 ⟨1, 0⟩ ⟨5, 0⟩ 1 ⟨8, 0⟩ (fun _ => seqBackend) p3 = .ok q3 ∧
      (∀ i, 0 ≤ i → i ≤ 3 + 1 → ∃ x y, F.El p1 (F.face1d ⟨5, 0⟩ 0 3 0) [i] x ∧ F.El p2 (F.face1d ⟨5, 0⟩ 0 3 0) [i] y ∧ F.El p3 (F.face1d ⟨5, 0⟩ 0 3 0) [i] (5 * x + 7 * y)) ∧
      (∀ i, 0 ≤ i → i ≤ 3 → ∃ x y, F.El q1 (F.cell1d ⟨8, 0⟩ 0 3 1) [i] x ∧ F.El q2 (F.cell1d ⟨8, 0⟩ 0 3 1) [i] y ∧ F.El q3 (F.cell1d ⟨8, 0⟩ 0 3 1) [i] (5 * x + 7 * y)) :=
  C44_v2_linear_1d (fun _ => revBackend_ok) (fun _ => seqBackend_ok) (by decide) (by decide) (by decide) (by ex_args) (exScaled_args (by ex_args)) (exScaled_args (by ex_args)) (apart_blk (by decide))
    (fun _ _ _ => exScaled_el rfl)
    (by
      intro b hb is x hx
      have : b.ptr.blk ≠ 1 := by clear hx; revert b; decide
      exact ⟨exScaled_other this hx, exScaled_other this hx⟩)

/-- If `u` in the third memory is `c` times `u` in the first plus `d` times `u` in the second, and the coefficients are the same, then so it is
with the fluxes left by `poissonFlux1d` and with what `poissonV2Apply1d` then leaves. -/
theorem C44_poisson_linear_1d {i0 i1 gcw rgcw : Int} {beta : T} {dx : Nat → T} {u f0 res : Ptr} {β1 β2 : Nat → Backend} {m1 m2 m3 : Mem T} {c d : T}
    (hβ1 : ∀ n, ValidBackend (β1 n)) (hβ2 : ∀ n, ValidBackend (β2 n)) (hi : i0 ≤ i1) (hg : 1 ≤ gcw) (hrgcw : 0 ≤ rgcw)
    (h1 : F.Args m1 [(F.cell1d u i0 i1 gcw)] [(F.face1d f0 i0 i1 0), (F.cell1d res i0 i1 rgcw)])
    (h2 : F.Args m2 [(F.cell1d u i0 i1 gcw)] [(F.face1d f0 i0 i1 0), (F.cell1d res i0 i1 rgcw)])
    (h3 : F.Args m3 [(F.cell1d u i0 i1 gcw)] [(F.face1d f0 i0 i1 0), (F.cell1d res i0 i1 rgcw)])
    (hr : F.Apart (F.cell1d res i0 i1 rgcw) (F.face1d f0 i0 i1 0))
    (hu : ∀ is x y, F.El m1 (F.cell1d u i0 i1 gcw) is x → F.El m2 (F.cell1d u i0 i1 gcw) is y → F.El m3 (F.cell1d u i0 i1 gcw) is (c * x + d * y)) :
    ∃ p1 p2 p3 q1 q2 q3, Cuda.poissonFlux1d i0 i1 dx gcw u f0 β1 m1 = .ok p1 ∧ Cuda.poissonV2Apply1d i0 i1 beta dx f0 rgcw res β2 p1 = .ok q1 ∧ Cuda.poissonFlux1d i0 i1 dx gcw u f0 β1 m2 = .ok p2 ∧ Cuda.poissonV2Apply1d i0 i1 beta dx f0 rgcw res β2 p2 = .ok q2 ∧ Cuda.poissonFlux1d i0 i1 dx gcw u f0 β1 m3 = .ok p3 ∧ Cuda.poissonV2Apply1d i0 i1 beta dx f0 rgcw res β2 p3 = .ok q3 ∧
      (∀ i, i0 ≤ i → i ≤ i1 + 1 → ∃ x y, F.El p1 (F.face1d f0 i0 i1 0) [i] x ∧ F.El p2 (F.face1d f0 i0 i1 0) [i] y ∧ F.El p3 (F.face1d f0 i0 i1 0) [i] (c * x + d * y)) ∧
      (∀ i, i0 ≤ i → i ≤ i1 → ∃ x y, F.El q1 (F.cell1d res i0 i1 rgcw) [i] x ∧ F.El q2 (F.cell1d res i0 i1 rgcw) [i] y ∧ F.El q3 (F.cell1d res i0 i1 rgcw) [i] (c * x + d * y)) := by
  obtain ⟨p1, q1, c1, d1, -, -, V01, W1⟩ := op_p_1 (beta := beta) (dx := dx) hβ1 hβ2 hi hg hrgcw h1 hr
  obtain ⟨p2, q2, c2, d2, -, -, V02, W2⟩ := op_p_1 (beta := beta) (dx := dx) hβ1 hβ2 hi hg hrgcw h2 hr
  obtain ⟨p3, q3, c3, d3, -, -, V03, W3⟩ := op_p_1 (beta := beta) (dx := dx) hβ1 hβ2 hi hg hrgcw h3 hr
  have U : ∀ is, F.InBounds (F.cell1d u i0 i1 gcw).dims is → F.rd m3 (F.cell1d u i0 i1 gcw) is = c * F.rd m1 (F.cell1d u i0 i1 gcw) is + d * F.rd m2 (F.cell1d u i0 i1 gcw) is := fun is hi =>
    (hu is _ _ ((h1.ok (F.cell1d u i0 i1 gcw) (by simp)).rd hi) ((h2.ok (F.cell1d u i0 i1 gcw) (by simp)).rd hi)).rd
  refine ⟨p1, p2, p3, q1, q2, q3, c1, d1, c2, d2, c3, d3, ?_, ?_⟩
  · intro i h0 h1
    refine ⟨_, _, V01 i h0 h1, V02 i h0 h1, ?_⟩
    convert V03 i h0 h1 using 1
    rw [U [i] (by in_bounds), U [i - 1] (by in_bounds)]
    simp only [div_eq_mul_inv]
    ring
  · intro i h0 h1
    refine ⟨_, _, W1 i h0 h1, W2 i h0 h1, ?_⟩
    convert W3 i h0 h1 using 1
    rw [U [i] (by in_bounds), U [i - 1] (by in_bounds), U [i + 1] (by in_bounds)]
    simp only [div_eq_mul_inv]
    ring

example : ∃ p1 p2 p3 q1 q2 q3, Cuda.poissonFlux1d 0 3 exDx 2 ⟨1, 0⟩ ⟨5, 0⟩ (fun _ => revBackend) exRat = .ok p1 ∧ Cuda.poissonV2Apply1d 0 3 2 exDx ⟨5, 0⟩ 1 ⟨8, 0⟩ (fun _ => seqBackend) p1 = .ok q1 ∧ Cuda.poissonFlux1d 0 3 exDx 2 ⟨1, 0⟩ ⟨5, 0⟩ (fun _ => revBackend) (exScaled 1 3) = .ok p2 ∧ Cuda.poissonV2Apply1d 0 3 2 exDx ⟨5, 0⟩ 1 ⟨8, 0⟩ (fun _ => seqBackend) p2 = .ok q2 ∧ Cuda.poissonFlux1d 0 3 exDx 2 ⟨1, 0⟩ ⟨5, 0⟩ (fun _ => revBackend) (exScaled 1 (5 + 7 * 3)) = .ok p3 ∧ Cuda.poissonV2Apply1d 0 3 2 exDx ⟨5, 0⟩ 1 ⟨8, 0⟩ (fun _ => seqBackend) p3 = .ok q3 ∧
      (∀ i, 0 ≤ i → i ≤ 3 + 1 → ∃ x y, F.El p1 (F.face1d ⟨5, 0⟩ 0 3 0) [i] x ∧ F.El p2 (F.face1d ⟨5, 0⟩ 0 3 0) [i] y ∧ F.El p3 (F.face1d ⟨5, 0⟩ 0 3 0) [i] (5 * x + 7 * y)) ∧
      (∀ i, 0 ≤ i → i ≤ 3 → ∃ x y, F.El q1 (F.cell1d ⟨8, 0⟩ 0 3 1) [i] x ∧ F.El q2 (F.cell1d ⟨8, 0⟩ 0 3 1) [i] y ∧ F.El q3 (F.cell1d ⟨8, 0⟩ 0 3 1) [i] (5 * x + 7 * y)) :=
  C44_poisson_linear_1d (fun _ => revBackend_ok) (fun _ => seqBackend_ok) (by decide) (by decide) (by decide) (by ex_args) (exScaled_args (by ex_args)) (exScaled_args (by ex_args)) (apart_blk (by decide))
    (fun _ _ _ => exScaled_el rfl)

/-- Running `flux2d` again, on whatever schedule, changes nothing. -/
theorem C44_flux_twice_2d {i0 j0 i1 j1 gcw : Int} {dx : Nat → T} {u b0 b1 f0 f1 : Ptr} {β1 β2 : Nat → Backend} {m : Mem T}
    (hβ1 : ∀ n, ValidBackend (β1 n)) (hβ2 : ∀ n, ValidBackend (β2 n)) (hi : i0 ≤ i1) (hj : j0 ≤ j1) (hg : 1 ≤ gcw)
    (h : F.Args m [(F.cell2d u i0 j0 i1 j1 gcw), (F.face2d0 b0 i0 j0 i1 j1 0), (F.face2d1 b1 i0 j0 i1 j1 0)] [(F.face2d0 f0 i0 j0 i1 j1 0), (F.face2d1 f1 i0 j0 i1 j1 0)])
    (hp : F.Apart (F.face2d0 f0 i0 j0 i1 j1 0) (F.face2d1 f1 i0 j0 i1 j1 0)) :
    ∃ m1, Cuda.flux2d i0 j0 i1 j1 dx b0 b1 gcw u f0 f1 β1 m = .ok m1 ∧ Cuda.flux2d i0 j0 i1 j1 dx b0 b1 gcw u f0 f1 β2 m1 = .ok m1 := by
  obtain ⟨m1, q1, q2, K, -⟩ := flux2_run (dx := dx) hi hj hg h hp
  obtain ⟨m2, c1, e1⟩ := C33_2d (dx := dx) (β := β1) hβ1 hi hj hg h
  obtain rfl : m1 = m2 := Except.ok.inj (q1.symm.trans e1)
  obtain ⟨m2, c2, e2⟩ := C33_2d (dx := dx) (β := β2) hβ2 hi hj hg (K.args h)
  obtain rfl : m1 = m2 := Except.ok.inj (q2.symm.trans e2)
  exact ⟨m1, c1, c2⟩

example : ∃ m1, Cuda.flux2d 0 1 2 3 exDx ⟨2, 0⟩ ⟨3, 0⟩ 2 ⟨1, 0⟩ ⟨5, 0⟩ ⟨6, 0⟩ (fun _ => revBackend) exRat = .ok m1 ∧ Cuda.flux2d 0 1 2 3 exDx ⟨2, 0⟩ ⟨3, 0⟩ 2 ⟨1, 0⟩ ⟨5, 0⟩ ⟨6, 0⟩ (fun _ => seqBackend) m1 = .ok m1 :=
  C44_flux_twice_2d (fun _ => revBackend_ok) (fun _ => seqBackend_ok) (by decide) (by decide) (by decide) (by ex_args) (apart_blk (by decide))

/-- Running `poissonFlux2d` again, on whatever schedule, changes nothing. -/
theorem C44_poisson_flux_twice_2d {i0 j0 i1 j1 gcw : Int} {dx : Nat → T} {u f0 f1 : Ptr} {β1 β2 : Nat → Backend} {m : Mem T}
    (hβ1 : ∀ n, ValidBackend (β1 n)) (hβ2 : ∀ n, ValidBackend (β2 n)) (hi : i0 ≤ i1) (hj : j0 ≤ j1) (hg : 1 ≤ gcw)
    (h : F.Args m [(F.cell2d u i0 j0 i1 j1 gcw)] [(F.face2d0 f0 i0 j0 i1 j1 0), (F.face2d1 f1 i0 j0 i1 j1 0)])
    (hp : F.Apart (F.face2d0 f0 i0 j0 i1 j1 0) (F.face2d1 f1 i0 j0 i1 j1 0)) :
    ∃ m1, Cuda.poissonFlux2d i0 j0 i1 j1 dx gcw u f0 f1 β1 m = .ok m1 ∧ Cuda.poissonFlux2d i0 j0 i1 j1 dx gcw u f0 f1 β2 m1 = .ok m1 := by
  obtain ⟨m1, q1, q2, K, -⟩ := pflux2_run (dx := dx) hi hj hg h hp
  obtain ⟨m2, c1, e1⟩ := C33_poisson_2d (dx := dx) (β := β1) hβ1 hi hj hg h
  obtain rfl : m1 = m2 := Except.ok.inj (q1.symm.trans e1)
  obtain ⟨m2, c2, e2⟩ := C33_poisson_2d (dx := dx) (β := β2) hβ2 hi hj hg (K.args h)
  obtain rfl : m1 = m2 := Except.ok.inj (q2.symm.trans e2)
  exact ⟨m1, c1, c2⟩

example : ∃ m1, Cuda.poissonFlux2d 0 1 2 3 exDx 2 ⟨1, 0⟩ ⟨5, 0⟩ ⟨6, 0⟩ (fun _ => revBackend) exRat = .ok m1 ∧ Cuda.poissonFlux2d 0 1 2 3 exDx 2 ⟨1, 0⟩ ⟨5, 0⟩ ⟨6, 0⟩ (fun _ => seqBackend) m1 = .ok m1 :=
  C44_poisson_flux_twice_2d (fun _ => revBackend_ok) (fun _ => seqBackend_ok) (by decide) (by decide) (by decide) (by ex_args) (apart_blk (by decide))

/-- Running `diffusionV1Apply2d` again, on whatever schedule, changes nothing. -/
theorem C44_v1_apply_twice_2d {i0 j0 i1 j1 agcw gcw rgcw : Int} {alpha beta : T} {dx : Nat → T} {a u f0 f1 res : Ptr} {β1 β2 : Nat → Backend} {m : Mem T}
    (hβ1 : ∀ n, ValidBackend (β1 n)) (hβ2 : ∀ n, ValidBackend (β2 n)) (hi : i0 ≤ i1) (hj : j0 ≤ j1) (hagcw : 0 ≤ agcw) (hg : 0 ≤ gcw) (hrgcw : 0 ≤ rgcw)
    (h : F.Args m [(F.cell2d a i0 j0 i1 j1 agcw), (F.cell2d u i0 j0 i1 j1 gcw), (F.face2d0 f0 i0 j0 i1 j1 0), (F.face2d1 f1 i0 j0 i1 j1 0)] [(F.cell2d res i0 j0 i1 j1 rgcw)]) :
    ∃ m1, Cuda.diffusionV1Apply2d i0 i1 j0 j1 alpha beta dx agcw a gcw u f0 f1 rgcw res β1 m = .ok m1 ∧ Cuda.diffusionV1Apply2d i0 i1 j0 j1 alpha beta dx agcw a gcw u f0 f1 rgcw res β2 m1 = .ok m1 := by
  obtain ⟨m1, q1, q2, K, -⟩ := v1apply2_run (alpha := alpha) (beta := beta) (dx := dx) hi hj hagcw hg hrgcw h
  obtain ⟨m2, c1, e1⟩ := C34_v1_apply_2d (alpha := alpha) (beta := beta) (dx := dx) (β := β1) hβ1 hi hj hagcw hg hrgcw h
  obtain rfl : m1 = m2 := Except.ok.inj (q1.symm.trans e1)
  obtain ⟨m2, c2, e2⟩ := C34_v1_apply_2d (alpha := alpha) (beta := beta) (dx := dx) (β := β2) hβ2 hi hj hagcw hg hrgcw (K.args h)
  obtain rfl : m1 = m2 := Except.ok.inj (q2.symm.trans e2)
  exact ⟨m1, c1, c2⟩

example : ∃ m1, Cuda.diffusionV1Apply2d 0 2 1 3 3 2 exDx 1 ⟨0, 0⟩ 2 ⟨1, 0⟩ ⟨5, 0⟩ ⟨6, 0⟩ 1 ⟨8, 0⟩ (fun _ => revBackend) exRat = .ok m1 ∧ Cuda.diffusionV1Apply2d 0 2 1 3 3 2 exDx 1 ⟨0, 0⟩ 2 ⟨1, 0⟩ ⟨5, 0⟩ ⟨6, 0⟩ 1 ⟨8, 0⟩ (fun _ => seqBackend) m1 = .ok m1 :=
  C44_v1_apply_twice_2d (fun _ => revBackend_ok) (fun _ => seqBackend_ok) (by decide) (by decide) (by decide) (by decide) (by decide) (by ex_args)

/-- Running `diffusionV2Apply2d` again, on whatever schedule, changes nothing. -/
theorem C44_v2_apply_twice_2d {i0 j0 i1 j1 gcw rgcw : Int} {alpha beta : T} {dx : Nat → T} {u f0 f1 res : Ptr} {β1 β2 : Nat → Backend} {m : Mem T}
    (hβ1 : ∀ n, ValidBackend (β1 n)) (hβ2 : ∀ n, ValidBackend (β2 n)) (hi : i0 ≤ i1) (hj : j0 ≤ j1) (hg : 0 ≤ gcw) (hrgcw : 0 ≤ rgcw)
    (h : F.Args m [(F.cell2d u i0 j0 i1 j1 gcw), (F.face2d0 f0 i0 j0 i1 j1 0), (F.face2d1 f1 i0 j0 i1 j1 0)] [(F.cell2d res i0 j0 i1 j1 rgcw)]) :
    ∃ m1, Cuda.diffusionV2Apply2d i0 i1 j0 j1 alpha beta dx gcw u f0 f1 rgcw res β1 m = .ok m1 ∧ Cuda.diffusionV2Apply2d i0 i1 j0 j1 alpha beta dx gcw u f0 f1 rgcw res β2 m1 = .ok m1 := by
  obtain ⟨m1, q1, q2, K, -⟩ := v2apply2_run (alpha := alpha) (beta := beta) (dx := dx) hi hj hg hrgcw h
  obtain ⟨m2, c1, e1⟩ := C34_v2_apply_2d (alpha := alpha) (beta := beta) (dx := dx) (β := β1) hβ1 hi hj hg hrgcw h
  obtain rfl : m1 = m2 := Except.ok.inj (q1.symm.trans e1)
  obtain ⟨m2, c2, e2⟩ := C34_v2_apply_2d (alpha := alpha) (beta := beta) (dx := dx) (β := β2) hβ2 hi hj hg hrgcw (K.args h)
  obtain rfl : m1 = m2 := Except.ok.inj (q2.symm.trans e2)
  exact ⟨m1, c1, c2⟩

example : ∃ m1, Cuda.diffusionV2Apply2d 0 2 1 3 3 2 exDx 2 ⟨1, 0⟩ ⟨5, 0⟩ ⟨6, 0⟩ 1 ⟨8, 0⟩ (fun _ => revBackend) exRat = .ok m1 ∧ Cuda.diffusionV2Apply2d 0 2 1 3 3 2 exDx 2 ⟨1, 0⟩ ⟨5, 0⟩ ⟨6, 0⟩ 1 ⟨8, 0⟩ (fun _ => seqBackend) m1 = .ok m1 :=
  C44_v2_apply_twice_2d (fun _ => revBackend_ok) (fun _ => seqBackend_ok) (by decide) (by decide) (by decide) (by decide) (by ex_args)

/-- Running `poissonV2Apply2d` again, on whatever schedule, changes nothing. -/
theorem C44_poisson_apply_twice_2d {i0 j0 i1 j1 rgcw : Int} {beta : T} {dx : Nat → T} {f0 f1 res : Ptr} {β1 β2 : Nat → Backend} {m : Mem T}
    (hβ1 : ∀ n, ValidBackend (β1 n)) (hβ2 : ∀ n, ValidBackend (β2 n)) (hi : i0 ≤ i1) (hj : j0 ≤ j1) (hrgcw : 0 ≤ rgcw)
    (h : F.Args m [(F.face2d0 f0 i0 j0 i1 j1 0), (F.face2d1 f1 i0 j0 i1 j1 0)] [(F.cell2d res i0 j0 i1 j1 rgcw)]) :
    ∃ m1, Cuda.poissonV2Apply2d i0 i1 j0 j1 beta dx f0 f1 rgcw res β1 m = .ok m1 ∧ Cuda.poissonV2Apply2d i0 i1 j0 j1 beta dx f0 f1 rgcw res β2 m1 = .ok m1 := by
  obtain ⟨m1, q1, q2, K, -⟩ := papply2_run (beta := beta) (dx := dx) hi hj hrgcw h
  obtain ⟨m2, c1, e1⟩ := C34_poisson_apply_2d (beta := beta) (dx := dx) (β := β1) hβ1 hi hj hrgcw h
  obtain rfl : m1 = m2 := Except.ok.inj (q1.symm.trans e1)
  obtain ⟨m2, c2, e2⟩ := C34_poisson_apply_2d (beta := beta) (dx := dx) (β := β2) hβ2 hi hj hrgcw (K.args h)
  obtain rfl : m1 = m2 := Except.ok.inj (q2.symm.trans e2)
  exact ⟨m1, c1, c2⟩

example : ∃ m1, Cuda.poissonV2Apply2d 0 2 1 3 2 exDx ⟨5, 0⟩ ⟨6, 0⟩ 1 ⟨8, 0⟩ (fun _ => revBackend) exRat = .ok m1 ∧ Cuda.poissonV2Apply2d 0 2 1 3 2 exDx ⟨5, 0⟩ ⟨6, 0⟩ 1 ⟨8, 0⟩ (fun _ => seqBackend) m1 = .ok m1 :=
  C44_poisson_apply_twice_2d (fun _ => revBackend_ok) (fun _ => seqBackend_ok) (by decide) (by decide) (by decide) (by ex_args)

/-- If `u` in the third memory is `c` times `u` in the first plus `d` times `u` in the second, and the coefficients are the same, then so it is
with the fluxes left by `flux2d` and with what `diffusionV1Apply2d` then leaves. -/
theorem C44_v1_linear_2d {i0 j0 i1 j1 agcw gcw rgcw : Int} {alpha beta : T} {dx : Nat → T} {a u b0 b1 f0 f1 res : Ptr} {β1 β2 : Nat → Backend} {m1 m2 m3 : Mem T} {c d : T}
    (hβ1 : ∀ n, ValidBackend (β1 n)) (hβ2 : ∀ n, ValidBackend (β2 n)) (hi : i0 ≤ i1) (hj : j0 ≤ j1) (hg : 1 ≤ gcw) (hagcw : 0 ≤ agcw) (hrgcw : 0 ≤ rgcw)
    (h1 : F.Args m1 [(F.cell2d a i0 j0 i1 j1 agcw), (F.cell2d u i0 j0 i1 j1 gcw), (F.face2d0 b0 i0 j0 i1 j1 0), (F.face2d1 b1 i0 j0 i1 j1 0)] [(F.face2d0 f0 i0 j0 i1 j1 0), (F.face2d1 f1 i0 j0 i1 j1 0), (F.cell2d res i0 j0 i1 j1 rgcw)])
    (h2 : F.Args m2 [(F.cell2d a i0 j0 i1 j1 agcw), (F.cell2d u i0 j0 i1 j1 gcw), (F.face2d0 b0 i0 j0 i1 j1 0), (F.face2d1 b1 i0 j0 i1 j1 0)] [(F.face2d0 f0 i0 j0 i1 j1 0), (F.face2d1 f1 i0 j0 i1 j1 0), (F.cell2d res i0 j0 i1 j1 rgcw)])
    (h3 : F.Args m3 [(F.cell2d a i0 j0 i1 j1 agcw), (F.cell2d u i0 j0 i1 j1 gcw), (F.face2d0 b0 i0 j0 i1 j1 0), (F.face2d1 b1 i0 j0 i1 j1 0)] [(F.face2d0 f0 i0 j0 i1 j1 0), (F.face2d1 f1 i0 j0 i1 j1 0), (F.cell2d res i0 j0 i1 j1 rgcw)])
    (hp : F.Apart (F.face2d0 f0 i0 j0 i1 j1 0) (F.face2d1 f1 i0 j0 i1 j1 0))
    (hr : F.Apart (F.cell2d res i0 j0 i1 j1 rgcw) (F.face2d0 f0 i0 j0 i1 j1 0) ∧ F.Apart (F.cell2d res i0 j0 i1 j1 rgcw) (F.face2d1 f1 i0 j0 i1 j1 0))
    (hu : ∀ is x y, F.El m1 (F.cell2d u i0 j0 i1 j1 gcw) is x → F.El m2 (F.cell2d u i0 j0 i1 j1 gcw) is y → F.El m3 (F.cell2d u i0 j0 i1 j1 gcw) is (c * x + d * y))
    (hc : ∀ b ∈ [(F.cell2d a i0 j0 i1 j1 agcw), (F.face2d0 b0 i0 j0 i1 j1 0), (F.face2d1 b1 i0 j0 i1 j1 0)], ∀ is x, F.El m1 b is x → F.El m2 b is x ∧ F.El m3 b is x) :
    ∃ p1 p2 p3 q1 q2 q3, Cuda.flux2d i0 j0 i1 j1 dx b0 b1 gcw u f0 f1 β1 m1 = .ok p1 ∧ Cuda.diffusionV1Apply2d i0 i1 j0 j1 alpha beta dx agcw a gcw u f0 f1 rgcw res β2 p1 = .ok q1 ∧ Cuda.flux2d i0 j0 i1 j1 dx b0 b1 gcw u f0 f1 β1 m2 = .ok p2 ∧ Cuda.diffusionV1Apply2d i0 i1 j0 j1 alpha beta dx agcw a gcw u f0 f1 rgcw res β2 p2 = .ok q2 ∧ Cuda.flux2d i0 j0 i1 j1 dx b0 b1 gcw u f0 f1 β1 m3 = .ok p3 ∧ Cuda.diffusionV1Apply2d i0 i1 j0 j1 alpha beta dx agcw a gcw u f0 f1 rgcw res β2 p3 = .ok q3 ∧
      (∀ i j, i0 ≤ i → i ≤ i1 + 1 → j0 ≤ j → j ≤ j1 → ∃ x y, F.El p1 (F.face2d0 f0 i0 j0 i1 j1 0) [i, j] x ∧ F.El p2 (F.face2d0 f0 i0 j0 i1 j1 0) [i, j] y ∧ F.El p3 (F.face2d0 f0 i0 j0 i1 j1 0) [i, j] (c * x + d * y)) ∧
      (∀ i j, i0 ≤ i → i ≤ i1 → j0 ≤ j → j ≤ j1 + 1 → ∃ x y, F.El p1 (F.face2d1 f1 i0 j0 i1 j1 0) [j, i] x ∧ F.El p2 (F.face2d1 f1 i0 j0 i1 j1 0) [j, i] y ∧ F.El p3 (F.face2d1 f1 i0 j0 i1 j1 0) [j, i] (c * x + d * y)) ∧
      (∀ i j, i0 ≤ i → i ≤ i1 → j0 ≤ j → j ≤ j1 → ∃ x y, F.El q1 (F.cell2d res i0 j0 i1 j1 rgcw) [i, j] x ∧ F.El q2 (F.cell2d res i0 j0 i1 j1 rgcw) [i, j] y ∧ F.El q3 (F.cell2d res i0 j0 i1 j1 rgcw) [i, j] (c * x + d * y)) := by
  obtain ⟨p1, q1, c1, d1, -, -, V01, V11, W1⟩ := op_v1_2 (alpha := alpha) (beta := beta) (dx := dx) hβ1 hβ2 hi hj hg hagcw hrgcw h1 hp hr
  obtain ⟨p2, q2, c2, d2, -, -, V02, V12, W2⟩ := op_v1_2 (alpha := alpha) (beta := beta) (dx := dx) hβ1 hβ2 hi hj hg hagcw hrgcw h2 hp hr
  obtain ⟨p3, q3, c3, d3, -, -, V03, V13, W3⟩ := op_v1_2 (alpha := alpha) (beta := beta) (dx := dx) hβ1 hβ2 hi hj hg hagcw hrgcw h3 hp hr
  have U : ∀ is, F.InBounds (F.cell2d u i0 j0 i1 j1 gcw).dims is → F.rd m3 (F.cell2d u i0 j0 i1 j1 gcw) is = c * F.rd m1 (F.cell2d u i0 j0 i1 j1 gcw) is + d * F.rd m2 (F.cell2d u i0 j0 i1 j1 gcw) is := fun is hi =>
    (hu is _ _ ((h1.ok (F.cell2d u i0 j0 i1 j1 gcw) (by simp)).rd hi) ((h2.ok (F.cell2d u i0 j0 i1 j1 gcw) (by simp)).rd hi)).rd
  have Ba : ∀ is, F.InBounds (F.cell2d a i0 j0 i1 j1 agcw).dims is → F.rd m2 (F.cell2d a i0 j0 i1 j1 agcw) is = F.rd m1 (F.cell2d a i0 j0 i1 j1 agcw) is ∧ F.rd m3 (F.cell2d a i0 j0 i1 j1 agcw) is = F.rd m1 (F.cell2d a i0 j0 i1 j1 agcw) is := fun is hi =>
    have e := hc (F.cell2d a i0 j0 i1 j1 agcw) (by simp) is _ ((h1.ok (F.cell2d a i0 j0 i1 j1 agcw) (by simp)).rd hi)
    ⟨e.1.rd, e.2.rd⟩
  have Bb0 : ∀ is, F.InBounds (F.face2d0 b0 i0 j0 i1 j1 0).dims is → F.rd m2 (F.face2d0 b0 i0 j0 i1 j1 0) is = F.rd m1 (F.face2d0 b0 i0 j0 i1 j1 0) is ∧ F.rd m3 (F.face2d0 b0 i0 j0 i1 j1 0) is = F.rd m1 (F.face2d0 b0 i0 j0 i1 j1 0) is := fun is hi =>
    have e := hc (F.face2d0 b0 i0 j0 i1 j1 0) (by simp) is _ ((h1.ok (F.face2d0 b0 i0 j0 i1 j1 0) (by simp)).rd hi)
    ⟨e.1.rd, e.2.rd⟩
  have Bb1 : ∀ is, F.InBounds (F.face2d1 b1 i0 j0 i1 j1 0).dims is → F.rd m2 (F.face2d1 b1 i0 j0 i1 j1 0) is = F.rd m1 (F.face2d1 b1 i0 j0 i1 j1 0) is ∧ F.rd m3 (F.face2d1 b1 i0 j0 i1 j1 0) is = F.rd m1 (F.face2d1 b1 i0 j0 i1 j1 0) is := fun is hi =>
    have e := hc (F.face2d1 b1 i0 j0 i1 j1 0) (by simp) is _ ((h1.ok (F.face2d1 b1 i0 j0 i1 j1 0) (by simp)).rd hi)
    ⟨e.1.rd, e.2.rd⟩
  refine ⟨p1, p2, p3, q1, q2, q3, c1, d1, c2, d2, c3, d3, ?_, ?_, ?_⟩
  · intro i j h0 h1 h2 h3
    refine ⟨_, _, V01 i j h0 h1 h2 h3, V02 i j h0 h1 h2 h3, ?_⟩
    convert V03 i j h0 h1 h2 h3 using 1
    rw [U [i, j] (by in_bounds), U [i - 1, j] (by in_bounds), (Bb0 [i, j] (by in_bounds)).1, (Bb0 [i, j] (by in_bounds)).2]
    simp only [div_eq_mul_inv]
    ring
  · intro i j h0 h1 h2 h3
    refine ⟨_, _, V11 i j h0 h1 h2 h3, V12 i j h0 h1 h2 h3, ?_⟩
    convert V13 i j h0 h1 h2 h3 using 1
    rw [U [i, j] (by in_bounds), U [i, j - 1] (by in_bounds), (Bb1 [j, i] (by in_bounds)).1, (Bb1 [j, i] (by in_bounds)).2]
    simp only [div_eq_mul_inv]
    ring
  · intro i j h0 h1 h2 h3
    refine ⟨_, _, W1 i j h0 h1 h2 h3, W2 i j h0 h1 h2 h3, ?_⟩
    convert W3 i j h0 h1 h2 h3 using 1
    rw [U [i, j] (by in_bounds), U [i - 1, j] (by in_bounds), U [i + 1, j] (by in_bounds), (Bb0 [i, j] (by in_bounds)).1, (Bb0 [i, j] (by in_bounds)).2, (Bb0 [i + 1, j] (by in_bounds)).1, (Bb0 [i + 1, j] (by in_bounds)).2, U [i, j - 1] (by in_bounds), U [i, j + 1] (by in_bounds), (Bb1 [j, i] (by in_bounds)).1, (Bb1 [j, i] (by in_bounds)).2, (Bb1 [j + 1, i] (by in_bounds)).1, (Bb1 [j + 1, i] (by in_bounds)).2, (Ba [i, j] (by in_bounds)).1, (Ba [i, j] (by in_bounds)).2]
    simp only [div_eq_mul_inv]
    ring

example : ∃ p1 p2 p3 q1 q2 q3, Cuda.flux2d 0 1 2 3 exDx ⟨2, 0⟩ ⟨3, 0⟩ 2 ⟨1, 0⟩ ⟨5, 0⟩ ⟨6, 0⟩ (fun _ => revBackend) exRat = .ok p1 ∧ Cuda.diffusionV1Apply2d 0 2 1 3 3 2 exDx 1 ⟨0, 0⟩ 2 ⟨1, 0⟩ ⟨5, 0⟩ ⟨6, 0⟩ 1 ⟨8, 0⟩ (fun _ => seqBackend) p1 = .ok q1 ∧ Cuda.flux2d 0 1 2 3 exDx ⟨2, 0⟩ ⟨3, 0⟩ 2 ⟨1, 0⟩ ⟨5, 0⟩ ⟨6, 0⟩ (fun _ => revBackend) (exScaled 1 3) = .ok p2 ∧ Cuda.diffusionV1Apply2d 0 2 1 3 3 2 exDx 1 ⟨0, 0⟩ 2 ⟨1, 0⟩ ⟨5, 0⟩ ⟨6, 0⟩ 1 ⟨8, 0⟩ (fun _ => seqBackend) p2 = .ok q2 ∧ Cuda.flux2d 0 1 2 3 exDx ⟨2, 0⟩ ⟨3, 0⟩ 2 ⟨1, 0⟩ ⟨5, 0⟩ ⟨6, 0⟩ (fun _ => revBackend) (exScaled 1 (5 + 7 * 3)) = .ok p3 ∧ Cuda.diffusionV1Apply2d 0 2 1 3 3 2 exDx 1 ⟨0, 0⟩ 2 ⟨1, 0⟩ ⟨5, 0⟩ ⟨6, 0⟩ 1 ⟨8, 0⟩ (fun _ => seqBackend) p3 = .ok q3 ∧
      (∀ i j, 0 ≤ i → i ≤ 2 + 1 → 1 ≤ j → j ≤ 3 → ∃ x y, F.El p1 (F.face2d0 ⟨5, 0⟩ 0 1 2 3 0) [i, j] x ∧ F.El p2 (F.face2d0 ⟨5, 0⟩ 0 1 2 3 0) [i, j] y ∧ F.El p3 (F.face2d0 ⟨5, 0⟩ 0 1 2 3 0) [i, j] (5 * x + 7 * y)) ∧
      (∀ i j, 0 ≤ i → i ≤ 2 → 1 ≤ j → j ≤ 3 + 1 → ∃ x y, F.El p1 (F.face2d1 ⟨6, 0⟩ 0 1 2 3 0) [j, i] x ∧ F.El p2 (F.face2d1 ⟨6, 0⟩ 0 1 2 3 0) [j, i] y ∧ F.El p3 (F.face2d1 ⟨6, 0⟩ 0 1 2 3 0) [j, i] (5 * x + 7 * y)) ∧
      (∀ i j, 0 ≤ i → i ≤ 2 → 1 ≤ j → j ≤ 3 → ∃ x y, F.El q1 (F.cell2d ⟨8, 0⟩ 0 1 2 3 1) [i, j] x ∧ F.El q2 (F.cell2d ⟨8, 0⟩ 0 1 2 3 1) [i, j] y ∧ F.El q3 (F.cell2d ⟨8, 0⟩ 0 1 2 3 1) [i, j] (5 * x + 7 * y)) :=
  C44_v1_linear_2d (fun _ => revBackend_ok) (fun _ => seqBackend_ok) (by decide) (by decide) (by decide) (by decide) (by decide) (by ex_args) (exScaled_args (by ex_args)) (exScaled_args (by ex_args)) (apart_blk (by decide)) ⟨apart_blk (by decide), apart_blk (by decide)⟩
    (fun _ _ _ => exScaled_el rfl)
    (by
      intro b hb is x hx
      have : b.ptr.blk ≠ 1 := by clear hx; revert b; decide
      exact ⟨exScaled_other this hx, exScaled_other this hx⟩)

/-- If `u` in the third memory is `c` times `u` in the first plus `d` times `u` in the second, and the coefficients are the same, then so it is
with the fluxes left by `flux2d` and with what `diffusionV2Apply2d` then leaves. -/
theorem C44_v2_linear_2d {i0 j0 i1 j1 gcw rgcw : Int} {alpha beta : T} {dx : Nat → T} {u b0 b1 f0 f1 res : Ptr} {β1 β2 : Nat → Backend} {m1 m2 m3 : Mem T} {c d : T}
    (hβ1 : ∀ n, ValidBackend (β1 n)) (hβ2 : ∀ n, ValidBackend (β2 n)) (hi : i0 ≤ i1) (hj : j0 ≤ j1) (hg : 1 ≤ gcw) (hrgcw : 0 ≤ rgcw)
    (h1 : F.Args m1 [(F.cell2d u i0 j0 i1 j1 gcw), (F.face2d0 b0 i0 j0 i1 j1 0), (F.face2d1 b1 i0 j0 i1 j1 0)] [(F.face2d0 f0 i0 j0 i1 j1 0), (F.face2d1 f1 i0 j0 i1 j1 0), (F.cell2d res i0 j0 i1 j1 rgcw)])
    (h2 : F.Args m2 [(F.cell2d u i0 j0 i1 j1 gcw), (F.face2d0 b0 i0 j0 i1 j1 0), (F.face2d1 b1 i0 j0 i1 j1 0)] [(F.face2d0 f0 i0 j0 i1 j1 0), (F.face2d1 f1 i0 j0 i1 j1 0), (F.cell2d res i0 j0 i1 j1 rgcw)])
    (h3 : F.Args m3 [(F.cell2d u i0 j0 i1 j1 gcw), (F.face2d0 b0 i0 j0 i1 j1 0), (F.face2d1 b1 i0 j0 i1 j1 0)] [(F.face2d0 f0 i0 j0 i1 j1 0), (F.face2d1 f1 i0 j0 i1 j1 0), (F.cell2d res i0 j0 i1 j1 rgcw)])
    (hp : F.Apart (F.face2d0 f0 i0 j0 i1 j1 0) (F.face2d1 f1 i0 j0 i1 j1 0))
    (hr : F.Apart (F.cell2d res i0 j0 i1 j1 rgcw) (F.face2d0 f0 i0 j0 i1 j1 0) ∧ F.Apart (F.cell2d res i0 j0 i1 j1 rgcw) (F.face2d1 f1 i0 j0 i1 j1 0))
    (hu : ∀ is x y, F.El m1 (F.cell2d u i0 j0 i1 j1 gcw) is x → F.El m2 (F.cell2d u i0 j0 i1 j1 gcw) is y → F.El m3 (F.cell2d u i0 j0 i1 j1 gcw) is (c * x + d * y))
    (hc : ∀ b ∈ [(F.face2d0 b0 i0 j0 i1 j1 0), (F.face2d1 b1 i0 j0 i1 j1 0)], ∀ is x, F.El m1 b is x → F.El m2 b is x ∧ F.El m3 b is x) :
    ∃ p1 p2 p3 q1 q2 q3, Cuda.flux2d i0 j0 i1 j1 dx b0 b1 gcw u f0 f1 β1 m1 = .ok p1 ∧ Cuda.diffusionV2Apply2d i0 i1 j0 j1 alpha beta dx gcw u f0 f1 rgcw res β2 p1 = .ok q1 ∧ Cuda.flux2d i0 j0 i1 j1 dx b0 b1 gcw u f0 f1 β1 m2 = .ok p2 ∧ Cuda.diffusionV2Apply2d i0 i1 j0 j1 alpha beta dx gcw u f0 f1 rgcw res β2 p2 = .ok q2 ∧ Cuda.flux2d i0 j0 i1 j1 dx b0 b1 gcw u f0 f1 β1 m3 = .ok p3 ∧ Cuda.diffusionV2Apply2d i0 i1 j0 j1 alpha beta dx gcw u f0 f1 rgcw res β2 p3 = .ok q3 ∧
      (∀ i j, i0 ≤ i → i ≤ i1 + 1 → j0 ≤ j → j ≤ j1 → ∃ x y, F.El p1 (F.face2d0 f0 i0 j0 i1 j1 0) [i, j] x ∧ F.El p2 (F.face2d0 f0 i0 j0 i1 j1 0) [i, j] y ∧ F.El p3 (F.face2d0 f0 i0 j0 i1 j1 0) [i, j] (c * x + d * y)) ∧
      (∀ i j, i0 ≤ i → i ≤ i1 → j0 ≤ j → j ≤ j1 + 1 → ∃ x y, F.El p1 (F.face2d1 f1 i0 j0 i1 j1 0) [j, i] x ∧ F.El p2 (F.face2d1 f1 i0 j0 i1 j1 0) [j, i] y ∧ F.El p3 (F.face2d1 f1 i0 j0 i1 j1 0) [j, i] (c * x + d * y)) ∧
      (∀ i j, i0 ≤ i → i ≤ i1 → j0 ≤ j → j ≤ j1 → ∃ x y, F.El q1 (F.cell2d res i0 j0 i1 j1 rgcw) [i, j] x ∧ F.El q2 (F.cell2d res i0 j0 i1 j1 rgcw) [i, j] y ∧ F.El q3 (F.cell2d res i0 j0 i1 j1 rgcw) [i, j] (c * x + d * y)) := by
  obtain ⟨p1, q1, c1, d1, -, -, V01, V11, W1⟩ := op_v2_2 (alpha := alpha) (beta := beta) (dx := dx) hβ1 hβ2 hi hj hg hrgcw h1 hp hr
  obtain ⟨p2, q2, c2, d2, -, -, V02, V12, W2⟩ := op_v2_2 (alpha := alpha) (beta := beta) (dx := dx) hβ1 hβ2 hi hj hg hrgcw h2 hp hr
  obtain ⟨p3, q3, c3, d3, -, -, V03, V13, W3⟩ := op_v2_2 (alpha := alpha) (beta := beta) (dx := dx) hβ1 hβ2 hi hj hg hrgcw h3 hp hr
  have U : ∀ is, F.InBounds (F.cell2d u i0 j0 i1 j1 gcw).dims is → F.rd m3 (F.cell2d u i0 j0 i1 j1 gcw) is = c * F.rd m1 (F.cell2d u i0 j0 i1 j1 gcw) is + d * F.rd m2 (F.cell2d u i0 j0 i1 j1 gcw) is := fun is hi =>
    (hu is _ _ ((h1.ok (F.cell2d u i0 j0 i1 j1 gcw) (by simp)).rd hi) ((h2.ok (F.cell2d u i0 j0 i1 j1 gcw) (by simp)).rd hi)).rd
  have Bb0 : ∀ is, F.InBounds (F.face2d0 b0 i0 j0 i1 j1 0).dims is → F.rd m2 (F.face2d0 b0 i0 j0 i1 j1 0) is = F.rd m1 (F.face2d0 b0 i0 j0 i1 j1 0) is ∧ F.rd m3 (F.face2d0 b0 i0 j0 i1 j1 0) is = F.rd m1 (F.face2d0 b0 i0 j0 i1 j1 0) is := fun is hi =>
    have e := hc (F.face2d0 b0 i0 j0 i1 j1 0) (by simp) is _ ((h1.ok (F.face2d0 b0 i0 j0 i1 j1 0) (by simp)).rd hi)
    ⟨e.1.rd, e.2.rd⟩
  have Bb1 : ∀ is, F.InBounds (F.face2d1 b1 i0 j0 i1 j1 0).dims is → F.rd m2 (F.face2d1 b1 i0 j0 i1 j1 0) is = F.rd m1 (F.face2d1 b1 i0 j0 i1 j1 0) is ∧ F.rd m3 (F.face2d1 b1 i0 j0 i1 j1 0) is = F.rd m1 (F.face2d1 b1 i0 j0 i1 j1 0) is := fun is hi =>
    have e := hc (F.face2d1 b1 i0 j0 i1 j1 0) (by simp) is _ ((h1.ok (F.face2d1 b1 i0 j0 i1 j1 0) (by simp)).rd hi)
    ⟨e.1.rd, e.2.rd⟩
  refine ⟨p1, p2, p3, q1, q2, q3, c1, d1, c2, d2, c3, d3, ?_, ?_, ?_⟩
  · intro i j h0 h1 h2 h3
    refine ⟨_, _, V01 i j h0 h1 h2 h3, V02 i j h0 h1 h2 h3, ?_⟩
    convert V03 i j h0 h1 h2 h3 using 1
    rw [U [i, j] (by in_bounds), U [i - 1, j] (by in_bounds), (Bb0 [i, j] (by in_bounds)).1, (Bb0 [i, j] (by in_bounds)).2]
    simp only [div_eq_mul_inv]
    ring
  · intro i j h0 h1 h2 h3
    refine ⟨_, _, V11 i j h0 h1 h2 h3, V12 i j h0 h1 h2 h3, ?_⟩
    convert V13 i j h0 h1 h2 h3 using 1
    rw [U [i, j] (by in_bounds), U [i, j - 1] (by in_bounds), (Bb1 [j, i] (by in_bounds)).1, (Bb1 [j, i] (by in_bounds)).2]
    simp only [div_eq_mul_inv]
    ring
  · intro i j h0 h1 h2 h3
    refine ⟨_, _, W1 i j h0 h1 h2 h3, W2 i j h0 h1 h2 h3, ?_⟩
    convert W3 i j h0 h1 h2 h3 using 1
    rw [U [i, j] (by in_bounds), U [i - 1, j] (by in_bounds), U [i + 1, j] (by in_bounds), (Bb0 [i, j] (by in_bounds)).1, (Bb0 [i, j] (by in_bounds)).2, (Bb0 [i + 1, j] (by in_bounds)).1, (Bb0 [i + 1, j] (by in_bounds)).2, U [i, j - 1] (by in_bounds), U [i, j + 1] (by in_bounds), (Bb1 [j, i] (by in_bounds)).1, (Bb1 [j, i] (by in_bounds)).2, (Bb1 [j + 1, i] (by in_bounds)).1, (Bb1 [j + 1, i] (by in_bounds)).2]
    simp only [div_eq_mul_inv]
    ring

example : ∃ p1 p2 p3 q1 q2 q3, Cuda.flux2d 0 1 2 3 exDx ⟨2, 0⟩ ⟨3, 0⟩ 2 ⟨1, 0⟩ ⟨5, 0⟩ ⟨6, 0⟩ (fun _ => revBackend) exRat = .ok p1 ∧ Cuda.diffusionV2Apply2d 0 2 1 3 3 2 exDx 2 ⟨1, 0⟩ ⟨5, 0⟩ ⟨6, 0⟩ 1 ⟨8, 0⟩ (fun _ => seqBackend) p1 = .ok q1 ∧ Cuda.flux2d 0 1 2 3 exDx ⟨2, 0⟩ ⟨3, 0⟩ 2 ⟨1, 0⟩ ⟨5, 0⟩ ⟨6, 0⟩ (fun _ => revBackend) (exScaled 1 3) = .ok p2 ∧ Cuda.diffusionV2Apply2d 0 2 1 3 3 2 exDx 2 ⟨1, 0⟩ ⟨5, 0⟩ ⟨6, 0⟩ 1 ⟨8, 0⟩ (fun _ => seqBackend) p2 = .ok q2 ∧ Cuda.flux2d 0 1 2 3 exDx ⟨2, 0⟩ ⟨3, 0⟩ 2 ⟨1, 0⟩ ⟨5, 0⟩ ⟨6, 0⟩ (fun _ => revBackend) (exScaled 1 (5 + 7 * 3)) = .ok p3 ∧ Cuda.diffusionV2Apply2d 0 2 1 3 3 2 exDx 2 ⟨1, 0⟩ ⟨5, 0⟩ ⟨6, 0⟩ 1 ⟨8, 0⟩ (fun _ => seqBackend) p3 = .ok q3 ∧
      (∀ i j, 0 ≤ i → i ≤ 2 + 1 → 1 ≤ j → j ≤ 3 → ∃ x y, F.El p1 (F.face2d0 ⟨5, 0⟩ 0 1 2 3 0) [i, j] x ∧ F.El p2 (F.face2d0 ⟨5, 0⟩ 0 1 2 3 0) [i, j] y ∧ F.El p3 (F.face2d0 ⟨5, 0⟩ 0 1 2 3 0) [i, j] (5 * x + 7 * y)) ∧
      (∀ i j, 0 ≤ i → i ≤ 2 → 1 ≤ j → j ≤ 3 + 1 → ∃ x y, F.El p1 (F.face2d1 ⟨6, 0⟩ 0 1 2 3 0) [j, i] x ∧ F.El p2 (F.face2d1 ⟨6, 0⟩ 0 1 2 3 0) [j, i] y ∧ F.El p3 (F.face2d1 ⟨6, 0⟩ 0 1 2 3 0) [j, i] (5 * x + 7 * y)) ∧
      (∀ i j, 0 ≤ i → i ≤ 2 → 1 ≤ j → j ≤ 3 → ∃ x y, F.El q1 (F.cell2d ⟨8, 0⟩ 0 1 2 3 1) [i, j] x ∧ F.El q2 (F.cell2d ⟨8, 0⟩ 0 1 2 3 1) [i, j] y ∧ F.El q3 (F.cell2d ⟨8, 0⟩ 0 1 2 3 1) [i, j] (5 * x + 7 * y)) :=
  C44_v2_linear_2d (fun _ => revBackend_ok) (fun _ => seqBackend_ok) (by decide) (by decide) (by decide) (by decide) (by ex_args) (exScaled_args (by ex_args)) (exScaled_args (by ex_args)) (apart_blk (by decide)) ⟨apart_blk (by decide), apart_blk (by decide)⟩
    (fun _ _ _ => exScaled_el rfl)
    (by
      intro b hb is x hx
      have : b.ptr.blk ≠ 1 := by clear hx; revert b; decide
      exact ⟨exScaled_other this hx, exScaled_other this hx⟩)

/-- If `u` in the third memory is `c` times `u` in the first plus `d` times `u` in the second, and the coefficients are the same, then so it is
with the fluxes left by `poissonFlux2d` and with what `poissonV2Apply2d` then leaves. -/
theorem C44_poisson_linear_2d {i0 j0 i1 j1 gcw rgcw : Int} {beta : T} {dx : Nat → T} {u f0 f1 res : Ptr} {β1 β2 : Nat → Backend} {m1 m2 m3 : Mem T} {c d : T}
    (hβ1 : ∀ n, ValidBackend (β1 n)) (hβ2 : ∀ n, ValidBackend (β2 n)) (hi : i0 ≤ i1) (hj : j0 ≤ j1) (hg : 1 ≤ gcw) (hrgcw : 0 ≤ rgcw)
    (h1 : F.Args m1 [(F.cell2d u i0 j0 i1 j1 gcw)] [(F.face2d0 f0 i0 j0 i1 j1 0), (F.face2d1 f1 i0 j0 i1 j1 0), (F.cell2d res i0 j0 i1 j1 rgcw)])
    (h2 : F.Args m2 [(F.cell2d u i0 j0 i1 j1 gcw)] [(F.face2d0 f0 i0 j0 i1 j1 0), (F.face2d1 f1 i0 j0 i1 j1 0), (F.cell2d res i0 j0 i1 j1 rgcw)])
    (h3 : F.Args m3 [(F.cell2d u i0 j0 i1 j1 gcw)] [(F.face2d0 f0 i0 j0 i1 j1 0), (F.face2d1 f1 i0 j0 i1 j1 0), (F.cell2d res i0 j0 i1 j1 rgcw)])
    (hp : F.Apart (F.face2d0 f0 i0 j0 i1 j1 0) (F.face2d1 f1 i0 j0 i1 j1 0))
    (hr : F.Apart (F.cell2d res i0 j0 i1 j1 rgcw) (F.face2d0 f0 i0 j0 i1 j1 0) ∧ F.Apart (F.cell2d res i0 j0 i1 j1 rgcw) (F.face2d1 f1 i0 j0 i1 j1 0))
    (hu : ∀ is x y, F.El m1 (F.cell2d u i0 j0 i1 j1 gcw) is x → F.El m2 (F.cell2d u i0 j0 i1 j1 gcw) is y → F.El m3 (F.cell2d u i0 j0 i1 j1 gcw) is (c * x + d * y)) :
    ∃ p1 p2 p3 q1 q2 q3, Cuda.poissonFlux2d i0 j0 i1 j1 dx gcw u f0 f1 β1 m1 = .ok p1 ∧ Cuda.poissonV2Apply2d i0 i1 j0 j1 beta dx f0 f1 rgcw res β2 p1 = .ok q1 ∧ Cuda.poissonFlux2d i0 j0 i1 j1 dx gcw u f0 f1 β1 m2 = .ok p2 ∧ Cuda.poissonV2Apply2d i0 i1 j0 j1 beta dx f0 f1 rgcw res β2 p2 = .ok q2 ∧ Cuda.poissonFlux2d i0 j0 i1 j1 dx gcw u f0 f1 β1 m3 = .ok p3 ∧ Cuda.poissonV2Apply2d i0 i1 j0 j1 beta dx f0 f1 rgcw res β2 p3 = .ok q3 ∧
      (∀ i j, i0 ≤ i → i ≤ i1 + 1 → j0 ≤ j → j ≤ j1 → ∃ x y, F.El p1 (F.face2d0 f0 i0 j0 i1 j1 0) [i, j] x ∧ F.El p2 (F.face2d0 f0 i0 j0 i1 j1 0) [i, j] y ∧ F.El p3 (F.face2d0 f0 i0 j0 i1 j1 0) [i, j] (c * x + d * y)) ∧
      (∀ i j, i0 ≤ i → i ≤ i1 → j0 ≤ j → j ≤ j1 + 1 → ∃ x y, F.El p1 (F.face2d1 f1 i0 j0 i1 j1 0) [j, i] x ∧ F.El p2 (F.face2d1 f1 i0 j0 i1 j1 0) [j, i] y ∧ F.El p3 (F.face2d1 f1 i0 j0 i1 j1 0) [j, i] (c * x + d * y)) ∧
      (∀ i j, i0 ≤ i → i ≤ i1 → j0 ≤ j → j ≤ j1 → ∃ x y, F.El q1 (F.cell2d res i0 j0 i1 j1 rgcw) [i, j] x ∧ F.El q2 (F.cell2d res i0 j0 i1 j1 rgcw) [i, j] y ∧ F.El q3 (F.cell2d res i0 j0 i1 j1 rgcw) [i, j] (c * x + d * y)) := by
  obtain ⟨p1, q1, c1, d1, -, -, V01, V11, W1⟩ := op_p_2 (beta := beta) (dx := dx) hβ1 hβ2 hi hj hg hrgcw h1 hp hr
  obtain ⟨p2, q2, c2, d2, -, -, V02, V12, W2⟩ := op_p_2 (beta := beta) (dx := dx) hβ1 hβ2 hi hj hg hrgcw h2 hp hr
  obtain ⟨p3, q3, c3, d3, -, -, V03, V13, W3⟩ := op_p_2 (beta := beta) (dx := dx) hβ1 hβ2 hi hj hg hrgcw h3 hp hr
  have U : ∀ is, F.InBounds (F.cell2d u i0 j0 i1 j1 gcw).dims is → F.rd m3 (F.cell2d u i0 j0 i1 j1 gcw) is = c * F.rd m1 (F.cell2d u i0 j0 i1 j1 gcw) is + d * F.rd m2 (F.cell2d u i0 j0 i1 j1 gcw) is := fun is hi =>
    (hu is _ _ ((h1.ok (F.cell2d u i0 j0 i1 j1 gcw) (by simp)).rd hi) ((h2.ok (F.cell2d u i0 j0 i1 j1 gcw) (by simp)).rd hi)).rd
  refine ⟨p1, p2, p3, q1, q2, q3, c1, d1, c2, d2, c3, d3, ?_, ?_, ?_⟩
  · intro i j h0 h1 h2 h3
    refine ⟨_, _, V01 i j h0 h1 h2 h3, V02 i j h0 h1 h2 h3, ?_⟩
    convert V03 i j h0 h1 h2 h3 using 1
    rw [U [i, j] (by in_bounds), U [i - 1, j] (by in_bounds)]
    simp only [div_eq_mul_inv]
    ring
  · intro i j h0 h1 h2 h3
    refine ⟨_, _, V11 i j h0 h1 h2 h3, V12 i j h0 h1 h2 h3, ?_⟩
    convert V13 i j h0 h1 h2 h3 using 1
    rw [U [i, j] (by in_bounds), U [i, j - 1] (by in_bounds)]
    simp only [div_eq_mul_inv]
    ring
  · intro i j h0 h1 h2 h3
    refine ⟨_, _, W1 i j h0 h1 h2 h3, W2 i j h0 h1 h2 h3, ?_⟩
    convert W3 i j h0 h1 h2 h3 using 1
    rw [U [i, j] (by in_bounds), U [i - 1, j] (by in_bounds), U [i + 1, j] (by in_bounds), U [i, j - 1] (by in_bounds), U [i, j + 1] (by in_bounds)]
    simp only [div_eq_mul_inv]
    ring

example : ∃ p1 p2 p3 q1 q2 q3, Cuda.poissonFlux2d 0 1 2 3 exDx 2 ⟨1, 0⟩ ⟨5, 0⟩ ⟨6, 0⟩ (fun _ => revBackend) exRat = .ok p1 ∧ Cuda.poissonV2Apply2d 0 2 1 3 2 exDx ⟨5, 0⟩ ⟨6, 0⟩ 1 ⟨8, 0⟩ (fun _ => seqBackend) p1 = .ok q1 ∧ Cuda.poissonFlux2d 0 1 2 3 exDx 2 ⟨1, 0⟩ ⟨5, 0⟩ ⟨6, 0⟩ (fun _ => revBackend) (exScaled 1 3) = .ok p2 ∧ Cuda.poissonV2Apply2d 0 2 1 3 2 exDx ⟨5, 0⟩ ⟨6, 0⟩ 1 ⟨8, 0⟩ (fun _ => seqBackend) p2 = .ok q2 ∧ Cuda.poissonFlux2d 0 1 2 3 exDx 2 ⟨1, 0⟩ ⟨5, 0⟩ ⟨6, 0⟩ (fun _ => revBackend) (exScaled 1 (5 + 7 * 3)) = .ok p3 ∧ Cuda.poissonV2Apply2d 0 2 1 3 2 exDx ⟨5, 0⟩ ⟨6, 0⟩ 1 ⟨8, 0⟩ (fun _ => seqBackend) p3 = .ok q3 ∧
      (∀ i j, 0 ≤ i → i ≤ 2 + 1 → 1 ≤ j → j ≤ 3 → ∃ x y, F.El p1 (F.face2d0 ⟨5, 0⟩ 0 1 2 3 0) [i, j] x ∧ F.El p2 (F.face2d0 ⟨5, 0⟩ 0 1 2 3 0) [i, j] y ∧ F.El p3 (F.face2d0 ⟨5, 0⟩ 0 1 2 3 0) [i, j] (5 * x + 7 * y)) ∧
      (∀ i j, 0 ≤ i → i ≤ 2 → 1 ≤ j → j ≤ 3 + 1 → ∃ x y, F.El p1 (F.face2d1 ⟨6, 0⟩ 0 1 2 3 0) [j, i] x ∧ F.El p2 (F.face2d1 ⟨6, 0⟩ 0 1 2 3 0) [j, i] y ∧ F.El p3 (F.face2d1 ⟨6, 0⟩ 0 1 2 3 0) [j, i] (5 * x + 7 * y)) ∧
      (∀ i j, 0 ≤ i → i ≤ 2 → 1 ≤ j → j ≤ 3 → ∃ x y, F.El q1 (F.cell2d ⟨8, 0⟩ 0 1 2 3 1) [i, j] x ∧ F.El q2 (F.cell2d ⟨8, 0⟩ 0 1 2 3 1) [i, j] y ∧ F.El q3 (F.cell2d ⟨8, 0⟩ 0 1 2 3 1) [i, j] (5 * x + 7 * y)) :=
  C44_poisson_linear_2d (fun _ => revBackend_ok) (fun _ => seqBackend_ok) (by decide) (by decide) (by decide) (by decide) (by ex_args) (exScaled_args (by ex_args)) (exScaled_args (by ex_args)) (apart_blk (by decide)) ⟨apart_blk (by decide), apart_blk (by decide)⟩
    (fun _ _ _ => exScaled_el rfl)

/-- Running `flux3d` again, on whatever schedule, changes nothing. -/
theorem C44_flux_twice_3d {i0 j0 k0 i1 j1 k1 gcw : Int} {dx : Nat → T} {u b0 b1 b2 f0 f1 f2 : Ptr} {β1 β2 : Nat → Backend} {m : Mem T}
    (hβ1 : ∀ n, ValidBackend (β1 n)) (hβ2 : ∀ n, ValidBackend (β2 n)) (hi : i0 ≤ i1) (hj : j0 ≤ j1) (hk : k0 ≤ k1) (hg : 1 ≤ gcw)
    (h : F.Args m [(F.cell3d u i0 j0 k0 i1 j1 k1 gcw), (F.face3d0 b0 i0 j0 k0 i1 j1 k1 0), (F.face3d1 b1 i0 j0 k0 i1 j1 k1 0), (F.face3d2 b2 i0 j0 k0 i1 j1 k1 0)] [(F.face3d0 f0 i0 j0 k0 i1 j1 k1 0), (F.face3d1 f1 i0 j0 k0 i1 j1 k1 0), (F.face3d2 f2 i0 j0 k0 i1 j1 k1 0)])
    (hp : F.Apart (F.face3d0 f0 i0 j0 k0 i1 j1 k1 0) (F.face3d1 f1 i0 j0 k0 i1 j1 k1 0) ∧ F.Apart (F.face3d0 f0 i0 j0 k0 i1 j1 k1 0) (F.face3d2 f2 i0 j0 k0 i1 j1 k1 0) ∧ F.Apart (F.face3d1 f1 i0 j0 k0 i1 j1 k1 0) (F.face3d2 f2 i0 j0 k0 i1 j1 k1 0)) :
    ∃ m1, Cuda.flux3d i0 j0 k0 i1 j1 k1 dx b0 b1 b2 gcw u f0 f1 f2 β1 m = .ok m1 ∧ Cuda.flux3d i0 j0 k0 i1 j1 k1 dx b0 b1 b2 gcw u f0 f1 f2 β2 m1 = .ok m1 := by
  obtain ⟨m1, q1, q2, K, -⟩ := flux3_run (dx := dx) hi hj hk hg h hp
  obtain ⟨m2, c1, e1⟩ := C33_3d (dx := dx) (β := β1) hβ1 hi hj hk hg h
  obtain rfl : m1 = m2 := Except.ok.inj (q1.symm.trans e1)
  obtain ⟨m2, c2, e2⟩ := C33_3d (dx := dx) (β := β2) hβ2 hi hj hk hg (K.args h)
  obtain rfl : m1 = m2 := Except.ok.inj (q2.symm.trans e2)
  exact ⟨m1, c1, c2⟩

example : ∃ m1, Cuda.flux3d 0 1 2 1 2 3 exDx ⟨2, 0⟩ ⟨3, 0⟩ ⟨4, 0⟩ 2 ⟨1, 0⟩ ⟨5, 0⟩ ⟨6, 0⟩ ⟨7, 0⟩ (fun _ => revBackend) exRat = .ok m1 ∧ Cuda.flux3d 0 1 2 1 2 3 exDx ⟨2, 0⟩ ⟨3, 0⟩ ⟨4, 0⟩ 2 ⟨1, 0⟩ ⟨5, 0⟩ ⟨6, 0⟩ ⟨7, 0⟩ (fun _ => seqBackend) m1 = .ok m1 :=
  C44_flux_twice_3d (fun _ => revBackend_ok) (fun _ => seqBackend_ok) (by decide) (by decide) (by decide) (by decide) (by ex_args) ⟨apart_blk (by decide), apart_blk (by decide), apart_blk (by decide)⟩

/-- Running `poissonFlux3d` again, on whatever schedule, changes nothing. -/
theorem C44_poisson_flux_twice_3d {i0 j0 k0 i1 j1 k1 gcw : Int} {dx : Nat → T} {u f0 f1 f2 : Ptr} {β1 β2 : Nat → Backend} {m : Mem T}
    (hβ1 : ∀ n, ValidBackend (β1 n)) (hβ2 : ∀ n, ValidBackend (β2 n)) (hi : i0 ≤ i1) (hj : j0 ≤ j1) (hk : k0 ≤ k1) (hg : 1 ≤ gcw)
    (h : F.Args m [(F.cell3d u i0 j0 k0 i1 j1 k1 gcw)] [(F.face3d0 f0 i0 j0 k0 i1 j1 k1 0), (F.face3d1 f1 i0 j0 k0 i1 j1 k1 0), (F.face3d2 f2 i0 j0 k0 i1 j1 k1 0)])
    (hp : F.Apart (F.face3d0 f0 i0 j0 k0 i1 j1 k1 0) (F.face3d1 f1 i0 j0 k0 i1 j1 k1 0) ∧ F.Apart (F.face3d0 f0 i0 j0 k0 i1 j1 k1 0) (F.face3d2 f2 i0 j0 k0 i1 j1 k1 0) ∧ F.Apart (F.face3d1 f1 i0 j0 k0 i1 j1 k1 0) (F.face3d2 f2 i0 j0 k0 i1 j1 k1 0)) :
    ∃ m1, Cuda.poissonFlux3d i0 j0 k0 i1 j1 k1 dx gcw u f0 f1 f2 β1 m = .ok m1 ∧ Cuda.poissonFlux3d i0 j0 k0 i1 j1 k1 dx gcw u f0 f1 f2 β2 m1 = .ok m1 := by
  obtain ⟨m1, q1, q2, K, -⟩ := pflux3_run (dx := dx) hi hj hk hg h hp
  obtain ⟨m2, c1, e1⟩ := C33_poisson_3d (dx := dx) (β := β1) hβ1 hi hj hk hg h
  obtain rfl : m1 = m2 := Except.ok.inj (q1.symm.trans e1)
  obtain ⟨m2, c2, e2⟩ := C33_poisson_3d (dx := dx) (β := β2) hβ2 hi hj hk hg (K.args h)
  obtain rfl : m1 = m2 := Except.ok.inj (q2.symm.trans e2)
  exact ⟨m1, c1, c2⟩

example : ∃ m1, Cuda.poissonFlux3d 0 1 2 1 2 3 exDx 2 ⟨1, 0⟩ ⟨5, 0⟩ ⟨6, 0⟩ ⟨7, 0⟩ (fun _ => revBackend) exRat = .ok m1 ∧ Cuda.poissonFlux3d 0 1 2 1 2 3 exDx 2 ⟨1, 0⟩ ⟨5, 0⟩ ⟨6, 0⟩ ⟨7, 0⟩ (fun _ => seqBackend) m1 = .ok m1 :=
  C44_poisson_flux_twice_3d (fun _ => revBackend_ok) (fun _ => seqBackend_ok) (by decide) (by decide) (by decide) (by decide) (by ex_args) ⟨apart_blk (by decide), apart_blk (by decide), apart_blk (by decide)⟩

/-- Running `diffusionV1Apply3d` again, on whatever schedule, changes nothing. -/
theorem C44_v1_apply_twice_3d {i0 j0 k0 i1 j1 k1 agcw gcw rgcw : Int} {alpha beta : T} {dx : Nat → T} {a u f0 f1 f2 res : Ptr} {β1 β2 : Nat → Backend} {m : Mem T}
    (hβ1 : ∀ n, ValidBackend (β1 n)) (hβ2 : ∀ n, ValidBackend (β2 n)) (hi : i0 ≤ i1) (hj : j0 ≤ j1) (hk : k0 ≤ k1) (hagcw : 0 ≤ agcw) (hg : 0 ≤ gcw) (hrgcw : 0 ≤ rgcw)
    (h : F.Args m [(F.cell3d a i0 j0 k0 i1 j1 k1 agcw), (F.cell3d u i0 j0 k0 i1 j1 k1 gcw), (F.face3d0 f0 i0 j0 k0 i1 j1 k1 0), (F.face3d1 f1 i0 j0 k0 i1 j1 k1 0), (F.face3d2 f2 i0 j0 k0 i1 j1 k1 0)] [(F.cell3d res i0 j0 k0 i1 j1 k1 rgcw)]) :
    ∃ m1, Cuda.diffusionV1Apply3d i0 i1 j0 j1 k0 k1 alpha beta dx agcw a gcw u f0 f1 f2 rgcw res β1 m = .ok m1 ∧ Cuda.diffusionV1Apply3d i0 i1 j0 j1 k0 k1 alpha beta dx agcw a gcw u f0 f1 f2 rgcw res β2 m1 = .ok m1 := by
  obtain ⟨m1, q1, q2, K, -⟩ := v1apply3_run (alpha := alpha) (beta := beta) (dx := dx) hi hj hk hagcw hg hrgcw h
  obtain ⟨m2, c1, e1⟩ := C34_v1_apply_3d (alpha := alpha) (beta := beta) (dx := dx) (β := β1) hβ1 hi hj hk hagcw hg hrgcw h
  obtain rfl : m1 = m2 := Except.ok.inj (q1.symm.trans e1)
  obtain ⟨m2, c2, e2⟩ := C34_v1_apply_3d (alpha := alpha) (beta := beta) (dx := dx) (β := β2) hβ2 hi hj hk hagcw hg hrgcw (K.args h)
  obtain rfl : m1 = m2 := Except.ok.inj (q2.symm.trans e2)
  exact ⟨m1, c1, c2⟩

example : ∃ m1, Cuda.diffusionV1Apply3d 0 1 1 2 2 3 3 2 exDx 1 ⟨0, 0⟩ 2 ⟨1, 0⟩ ⟨5, 0⟩ ⟨6, 0⟩ ⟨7, 0⟩ 1 ⟨8, 0⟩ (fun _ => revBackend) exRat = .ok m1 ∧ Cuda.diffusionV1Apply3d 0 1 1 2 2 3 3 2 exDx 1 ⟨0, 0⟩ 2 ⟨1, 0⟩ ⟨5, 0⟩ ⟨6, 0⟩ ⟨7, 0⟩ 1 ⟨8, 0⟩ (fun _ => seqBackend) m1 = .ok m1 :=
  C44_v1_apply_twice_3d (fun _ => revBackend_ok) (fun _ => seqBackend_ok) (by decide) (by decide) (by decide) (by decide) (by decide) (by decide) (by ex_args)

/-- Running `diffusionV2Apply3d` again, on whatever schedule, changes nothing. -/
theorem C44_v2_apply_twice_3d {i0 j0 k0 i1 j1 k1 gcw rgcw : Int} {alpha beta : T} {dx : Nat → T} {u f0 f1 f2 res : Ptr} {β1 β2 : Nat → Backend} {m : Mem T}
    (hβ1 : ∀ n, ValidBackend (β1 n)) (hβ2 : ∀ n, ValidBackend (β2 n)) (hi : i0 ≤ i1) (hj : j0 ≤ j1) (hk : k0 ≤ k1) (hg : 0 ≤ gcw) (hrgcw : 0 ≤ rgcw)
    (h : F.Args m [(F.cell3d u i0 j0 k0 i1 j1 k1 gcw), (F.face3d0 f0 i0 j0 k0 i1 j1 k1 0), (F.face3d1 f1 i0 j0 k0 i1 j1 k1 0), (F.face3d2 f2 i0 j0 k0 i1 j1 k1 0)] [(F.cell3d res i0 j0 k0 i1 j1 k1 rgcw)]) :
    ∃ m1, Cuda.diffusionV2Apply3d i0 i1 j0 j1 k0 k1 alpha beta dx gcw u f0 f1 f2 rgcw res β1 m = .ok m1 ∧ Cuda.diffusionV2Apply3d i0 i1 j0 j1 k0 k1 alpha beta dx gcw u f0 f1 f2 rgcw res β2 m1 = .ok m1 := by
  obtain ⟨m1, q1, q2, K, -⟩ := v2apply3_run (alpha := alpha) (beta := beta) (dx := dx) hi hj hk hg hrgcw h
  obtain ⟨m2, c1, e1⟩ := C34_v2_apply_3d (alpha := alpha) (beta := beta) (dx := dx) (β := β1) hβ1 hi hj hk hg hrgcw h
  obtain rfl : m1 = m2 := Except.ok.inj (q1.symm.trans e1)
  obtain ⟨m2, c2, e2⟩ := C34_v2_apply_3d (alpha := alpha) (beta := beta) (dx := dx) (β := β2) hβ2 hi hj hk hg hrgcw (K.args h)
  obtain rfl : m1 = m2 := Except.ok.inj (q2.symm.trans e2)
  exact ⟨m1, c1, c2⟩

example : ∃ m1, Cuda.diffusionV2Apply3d 0 1 1 2 2 3 3 2 exDx 2 ⟨1, 0⟩ ⟨5, 0⟩ ⟨6, 0⟩ ⟨7, 0⟩ 1 ⟨8, 0⟩ (fun _ => revBackend) exRat = .ok m1 ∧ Cuda.diffusionV2Apply3d 0 1 1 2 2 3 3 2 exDx 2 ⟨1, 0⟩ ⟨5, 0⟩ ⟨6, 0⟩ ⟨7, 0⟩ 1 ⟨8, 0⟩ (fun _ => seqBackend) m1 = .ok m1 :=
  C44_v2_apply_twice_3d (fun _ => revBackend_ok) (fun _ => seqBackend_ok) (by decide) (by decide) (by decide) (by decide) (by decide) (by ex_args)

/-- Running `poissonV2Apply3d` again, on whatever schedule, changes nothing. -/
theorem C44_poisson_apply_twice_3d {i0 j0 k0 i1 j1 k1 rgcw : Int} {beta : T} {dx : Nat → T} {f0 f1 f2 res : Ptr} {β1 β2 : Nat → Backend} {m : Mem T}
    (hβ1 : ∀ n, ValidBackend (β1 n)) (hβ2 : ∀ n, ValidBackend (β2 n)) (hi : i0 ≤ i1) (hj : j0 ≤ j1) (hk : k0 ≤ k1) (hrgcw : 0 ≤ rgcw)
    (h : F.Args m [(F.face3d0 f0 i0 j0 k0 i1 j1 k1 0), (F.face3d1 f1 i0 j0 k0 i1 j1 k1 0), (F.face3d2 f2 i0 j0 k0 i1 j1 k1 0)] [(F.cell3d res i0 j0 k0 i1 j1 k1 rgcw)]) :
    ∃ m1, Cuda.poissonV2Apply3d i0 i1 j0 j1 k0 k1 beta dx f0 f1 f2 rgcw res β1 m = .ok m1 ∧ Cuda.poissonV2Apply3d i0 i1 j0 j1 k0 k1 beta dx f0 f1 f2 rgcw res β2 m1 = .ok m1 := by
  obtain ⟨m1, q1, q2, K, -⟩ := papply3_run (beta := beta) (dx := dx) hi hj hk hrgcw h
  obtain ⟨m2, c1, e1⟩ := C34_poisson_apply_3d (beta := beta) (dx := dx) (β := β1) hβ1 hi hj hk hrgcw h
  obtain rfl : m1 = m2 := Except.ok.inj (q1.symm.trans e1)
  obtain ⟨m2, c2, e2⟩ := C34_poisson_apply_3d (beta := beta) (dx := dx) (β := β2) hβ2 hi hj hk hrgcw (K.args h)
  obtain rfl : m1 = m2 := Except.ok.inj (q2.symm.trans e2)
  exact ⟨m1, c1, c2⟩

example : ∃ m1, Cuda.poissonV2Apply3d 0 1 1 2 2 3 2 exDx ⟨5, 0⟩ ⟨6, 0⟩ ⟨7, 0⟩ 1 ⟨8, 0⟩ (fun _ => revBackend) exRat = .ok m1 ∧ Cuda.poissonV2Apply3d 0 1 1 2 2 3 2 exDx ⟨5, 0⟩ ⟨6, 0⟩ ⟨7, 0⟩ 1 ⟨8, 0⟩ (fun _ => seqBackend) m1 = .ok m1 :=
  C44_poisson_apply_twice_3d (fun _ => revBackend_ok) (fun _ => seqBackend_ok) (by decide) (by decide) (by decide) (by decide) (by ex_args)

/-- If `u` in the third memory is `c` times `u` in the first plus `d` times `u` in the second, and the coefficients are the same, then so it is
with the fluxes left by `flux3d` and with what `diffusionV1Apply3d` then leaves. -/
theorem C44_v1_linear_3d {i0 j0 k0 i1 j1 k1 agcw gcw rgcw : Int} {alpha beta : T} {dx : Nat → T} {a u b0 b1 b2 f0 f1 f2 res : Ptr} {β1 β2 : Nat → Backend} {m1 m2 m3 : Mem T} {c d : T}
    (hβ1 : ∀ n, ValidBackend (β1 n)) (hβ2 : ∀ n, ValidBackend (β2 n)) (hi : i0 ≤ i1) (hj : j0 ≤ j1) (hk : k0 ≤ k1) (hg : 1 ≤ gcw) (hagcw : 0 ≤ agcw) (hrgcw : 0 ≤ rgcw)
    (h1 : F.Args m1 [(F.cell3d a i0 j0 k0 i1 j1 k1 agcw), (F.cell3d u i0 j0 k0 i1 j1 k1 gcw), (F.face3d0 b0 i0 j0 k0 i1 j1 k1 0), (F.face3d1 b1 i0 j0 k0 i1 j1 k1 0), (F.face3d2 b2 i0 j0 k0 i1 j1 k1 0)] [(F.face3d0 f0 i0 j0 k0 i1 j1 k1 0), (F.face3d1 f1 i0 j0 k0 i1 j1 k1 0), (F.face3d2 f2 i0 j0 k0 i1 j1 k1 0), (F.cell3d res i0 j0 k0 i1 j1 k1 rgcw)])
    (h2 : F.Args m2 [(F.cell3d a i0 j0 k0 i1 j1 k1 agcw), (F.cell3d u i0 j0 k0 i1 j1 k1 gcw), (F.face3d0 b0 i0 j0 k0 i1 j1 k1 0), (F.face3d1 b1 i0 j0 k0 i1 j1 k1 0), (F.face3d2 b2 i0 j0 k0 i1 j1 k1 0)] [(F.face3d0 f0 i0 j0 k0 i1 j1 k1 0), (F.face3d1 f1 i0 j0 k0 i1 j1 k1 0), (F.face3d2 f2 i0 j0 k0 i1 j1 k1 0), (F.cell3d res i0 j0 k0 i1 j1 k1 rgcw)])
    (h3 : F.Args m3 [(F.cell3d a i0 j0 k0 i1 j1 k1 agcw), (F.cell3d u i0 j0 k0 i1 j1 k1 gcw), (F.face3d0 b0 i0 j0 k0 i1 j1 k1 0), (F.face3d1 b1 i0 j0 k0 i1 j1 k1 0), (F.face3d2 b2 i0 j0 k0 i1 j1 k1 0)] [(F.face3d0 f0 i0 j0 k0 i1 j1 k1 0), (F.face3d1 f1 i0 j0 k0 i1 j1 k1 0), (F.face3d2 f2 i0 j0 k0 i1 j1 k1 0), (F.cell3d res i0 j0 k0 i1 j1 k1 rgcw)])
    (hp : F.Apart (F.face3d0 f0 i0 j0 k0 i1 j1 k1 0) (F.face3d1 f1 i0 j0 k0 i1 j1 k1 0) ∧ F.Apart (F.face3d0 f0 i0 j0 k0 i1 j1 k1 0) (F.face3d2 f2 i0 j0 k0 i1 j1 k1 0) ∧ F.Apart (F.face3d1 f1 i0 j0 k0 i1 j1 k1 0) (F.face3d2 f2 i0 j0 k0 i1 j1 k1 0))
    (hr : F.Apart (F.cell3d res i0 j0 k0 i1 j1 k1 rgcw) (F.face3d0 f0 i0 j0 k0 i1 j1 k1 0) ∧ F.Apart (F.cell3d res i0 j0 k0 i1 j1 k1 rgcw) (F.face3d1 f1 i0 j0 k0 i1 j1 k1 0) ∧ F.Apart (F.cell3d res i0 j0 k0 i1 j1 k1 rgcw) (F.face3d2 f2 i0 j0 k0 i1 j1 k1 0))
    (hu : ∀ is x y, F.El m1 (F.cell3d u i0 j0 k0 i1 j1 k1 gcw) is x → F.El m2 (F.cell3d u i0 j0 k0 i1 j1 k1 gcw) is y → F.El m3 (F.cell3d u i0 j0 k0 i1 j1 k1 gcw) is (c * x + d * y))
    (hc : ∀ b ∈ [(F.cell3d a i0 j0 k0 i1 j1 k1 agcw), (F.face3d0 b0 i0 j0 k0 i1 j1 k1 0), (F.face3d1 b1 i0 j0 k0 i1 j1 k1 0), (F.face3d2 b2 i0 j0 k0 i1 j1 k1 0)], ∀ is x, F.El m1 b is x → F.El m2 b is x ∧ F.El m3 b is x) :
    ∃ p1 p2 p3 q1 q2 q3, Cuda.flux3d i0 j0 k0 i1 j1 k1 dx b0 b1 b2 gcw u f0 f1 f2 β1 m1 = .ok p1 ∧ Cuda.diffusionV1Apply3d i0 i1 j0 j1 k0 k1 alpha beta dx agcw a gcw u f0 f1 f2 rgcw res β2 p1 = .ok q1 ∧ Cuda.flux3d i0 j0 k0 i1 j1 k1 dx b0 b1 b2 gcw u f0 f1 f2 β1 m2 = .ok p2 ∧ Cuda.diffusionV1Apply3d i0 i1 j0 j1 k0 k1 alpha beta dx agcw a gcw u f0 f1 f2 rgcw res β2 p2 = .ok q2 ∧ Cuda.flux3d i0 j0 k0 i1 j1 k1 dx b0 b1 b2 gcw u f0 f1 f2 β1 m3 = .ok p3 ∧ Cuda.diffusionV1Apply3d i0 i1 j0 j1 k0 k1 alpha beta dx agcw a gcw u f0 f1 f2 rgcw res β2 p3 = .ok q3 ∧
      (∀ i j k, i0 ≤ i → i ≤ i1 + 1 → j0 ≤ j → j ≤ j1 → k0 ≤ k → k ≤ k1 → ∃ x y, F.El p1 (F.face3d0 f0 i0 j0 k0 i1 j1 k1 0) [i, j, k] x ∧ F.El p2 (F.face3d0 f0 i0 j0 k0 i1 j1 k1 0) [i, j, k] y ∧ F.El p3 (F.face3d0 f0 i0 j0 k0 i1 j1 k1 0) [i, j, k] (c * x + d * y)) ∧
      (∀ i j k, i0 ≤ i → i ≤ i1 → j0 ≤ j → j ≤ j1 + 1 → k0 ≤ k → k ≤ k1 → ∃ x y, F.El p1 (F.face3d1 f1 i0 j0 k0 i1 j1 k1 0) [j, k, i] x ∧ F.El p2 (F.face3d1 f1 i0 j0 k0 i1 j1 k1 0) [j, k, i] y ∧ F.El p3 (F.face3d1 f1 i0 j0 k0 i1 j1 k1 0) [j, k, i] (c * x + d * y)) ∧
      (∀ i j k, i0 ≤ i → i ≤ i1 → j0 ≤ j → j ≤ j1 → k0 ≤ k → k ≤ k1 + 1 → ∃ x y, F.El p1 (F.face3d2 f2 i0 j0 k0 i1 j1 k1 0) [k, i, j] x ∧ F.El p2 (F.face3d2 f2 i0 j0 k0 i1 j1 k1 0) [k, i, j] y ∧ F.El p3 (F.face3d2 f2 i0 j0 k0 i1 j1 k1 0) [k, i, j] (c * x + d * y)) ∧
      (∀ i j k, i0 ≤ i → i ≤ i1 → j0 ≤ j → j ≤ j1 → k0 ≤ k → k ≤ k1 → ∃ x y, F.El q1 (F.cell3d res i0 j0 k0 i1 j1 k1 rgcw) [i, j, k] x ∧ F.El q2 (F.cell3d res i0 j0 k0 i1 j1 k1 rgcw) [i, j, k] y ∧ F.El q3 (F.cell3d res i0 j0 k0 i1 j1 k1 rgcw) [i, j, k] (c * x + d * y)) := by
  obtain ⟨p1, q1, c1, d1, -, -, V01, V11, V21, W1⟩ := op_v1_3 (alpha := alpha) (beta := beta) (dx := dx) hβ1 hβ2 hi hj hk hg hagcw hrgcw h1 hp hr
  obtain ⟨p2, q2, c2, d2, -, -, V02, V12, V22, W2⟩ := op_v1_3 (alpha := alpha) (beta := beta) (dx := dx) hβ1 hβ2 hi hj hk hg hagcw hrgcw h2 hp hr
  obtain ⟨p3, q3, c3, d3, -, -, V03, V13, V23, W3⟩ := op_v1_3 (alpha := alpha) (beta := beta) (dx := dx) hβ1 hβ2 hi hj hk hg hagcw hrgcw h3 hp hr
  have U : ∀ is, F.InBounds (F.cell3d u i0 j0 k0 i1 j1 k1 gcw).dims is → F.rd m3 (F.cell3d u i0 j0 k0 i1 j1 k1 gcw) is = c * F.rd m1 (F.cell3d u i0 j0 k0 i1 j1 k1 gcw) is + d * F.rd m2 (F.cell3d u i0 j0 k0 i1 j1 k1 gcw) is := fun is hi =>
    (hu is _ _ ((h1.ok (F.cell3d u i0 j0 k0 i1 j1 k1 gcw) (by simp)).rd hi) ((h2.ok (F.cell3d u i0 j0 k0 i1 j1 k1 gcw) (by simp)).rd hi)).rd
  have Ba : ∀ is, F.InBounds (F.cell3d a i0 j0 k0 i1 j1 k1 agcw).dims is → F.rd m2 (F.cell3d a i0 j0 k0 i1 j1 k1 agcw) is = F.rd m1 (F.cell3d a i0 j0 k0 i1 j1 k1 agcw) is ∧ F.rd m3 (F.cell3d a i0 j0 k0 i1 j1 k1 agcw) is = F.rd m1 (F.cell3d a i0 j0 k0 i1 j1 k1 agcw) is := fun is hi =>
    have e := hc (F.cell3d a i0 j0 k0 i1 j1 k1 agcw) (by simp) is _ ((h1.ok (F.cell3d a i0 j0 k0 i1 j1 k1 agcw) (by simp)).rd hi)
    ⟨e.1.rd, e.2.rd⟩
  have Bb0 : ∀ is, F.InBounds (F.face3d0 b0 i0 j0 k0 i1 j1 k1 0).dims is → F.rd m2 (F.face3d0 b0 i0 j0 k0 i1 j1 k1 0) is = F.rd m1 (F.face3d0 b0 i0 j0 k0 i1 j1 k1 0) is ∧ F.rd m3 (F.face3d0 b0 i0 j0 k0 i1 j1 k1 0) is = F.rd m1 (F.face3d0 b0 i0 j0 k0 i1 j1 k1 0) is := fun is hi =>
    have e := hc (F.face3d0 b0 i0 j0 k0 i1 j1 k1 0) (by simp) is _ ((h1.ok (F.face3d0 b0 i0 j0 k0 i1 j1 k1 0) (by simp)).rd hi)
    ⟨e.1.rd, e.2.rd⟩
  have Bb1 : ∀ is, F.InBounds (F.face3d1 b1 i0 j0 k0 i1 j1 k1 0).dims is → F.rd m2 (F.face3d1 b1 i0 j0 k0 i1 j1 k1 0) is = F.rd m1 (F.face3d1 b1 i0 j0 k0 i1 j1 k1 0) is ∧ F.rd m3 (F.face3d1 b1 i0 j0 k0 i1 j1 k1 0) is = F.rd m1 (F.face3d1 b1 i0 j0 k0 i1 j1 k1 0) is := fun is hi =>
    have e := hc (F.face3d1 b1 i0 j0 k0 i1 j1 k1 0) (by simp) is _ ((h1.ok (F.face3d1 b1 i0 j0 k0 i1 j1 k1 0) (by simp)).rd hi)
    ⟨e.1.rd, e.2.rd⟩
  have Bb2 : ∀ is, F.InBounds (F.face3d2 b2 i0 j0 k0 i1 j1 k1 0).dims is → F.rd m2 (F.face3d2 b2 i0 j0 k0 i1 j1 k1 0) is = F.rd m1 (F.face3d2 b2 i0 j0 k0 i1 j1 k1 0) is ∧ F.rd m3 (F.face3d2 b2 i0 j0 k0 i1 j1 k1 0) is = F.rd m1 (F.face3d2 b2 i0 j0 k0 i1 j1 k1 0) is := fun is hi =>
    have e := hc (F.face3d2 b2 i0 j0 k0 i1 j1 k1 0) (by simp) is _ ((h1.ok (F.face3d2 b2 i0 j0 k0 i1 j1 k1 0) (by simp)).rd hi)
    ⟨e.1.rd, e.2.rd⟩
  refine ⟨p1, p2, p3, q1, q2, q3, c1, d1, c2, d2, c3, d3, ?_, ?_, ?_, ?_⟩
  · intro i j k h0 h1 h2 h3 h4 h5
    refine ⟨_, _, V01 i j k h0 h1 h2 h3 h4 h5, V02 i j k h0 h1 h2 h3 h4 h5, ?_⟩
    convert V03 i j k h0 h1 h2 h3 h4 h5 using 1
    rw [U [i, j, k] (by in_bounds), U [i - 1, j, k] (by in_bounds), (Bb0 [i, j, k] (by in_bounds)).1, (Bb0 [i, j, k] (by in_bounds)).2]
    simp only [div_eq_mul_inv]
    ring
  · intro i j k h0 h1 h2 h3 h4 h5
    refine ⟨_, _, V11 i j k h0 h1 h2 h3 h4 h5, V12 i j k h0 h1 h2 h3 h4 h5, ?_⟩
    convert V13 i j k h0 h1 h2 h3 h4 h5 using 1
    rw [U [i, j, k] (by in_bounds), U [i, j - 1, k] (by in_bounds), (Bb1 [j, k, i] (by in_bounds)).1, (Bb1 [j, k, i] (by in_bounds)).2]
    simp only [div_eq_mul_inv]
    ring
  · intro i j k h0 h1 h2 h3 h4 h5
    refine ⟨_, _, V21 i j k h0 h1 h2 h3 h4 h5, V22 i j k h0 h1 h2 h3 h4 h5, ?_⟩
    convert V23 i j k h0 h1 h2 h3 h4 h5 using 1
    rw [U [i, j, k] (by in_bounds), U [i, j, k - 1] (by in_bounds), (Bb2 [k, i, j] (by in_bounds)).1, (Bb2 [k, i, j] (by in_bounds)).2]
    simp only [div_eq_mul_inv]
    ring
  · intro i j k h0 h1 h2 h3 h4 h5
    refine ⟨_, _, W1 i j k h0 h1 h2 h3 h4 h5, W2 i j k h0 h1 h2 h3 h4 h5, ?_⟩
    convert W3 i j k h0 h1 h2 h3 h4 h5 using 1
    rw [U [i, j, k] (by in_bounds), U [i - 1, j, k] (by in_bounds), U [i + 1, j, k] (by in_bounds), (Bb0 [i, j, k] (by in_bounds)).1, (Bb0 [i, j, k] (by in_bounds)).2, (Bb0 [i + 1, j, k] (by in_bounds)).1, (Bb0 [i + 1, j, k] (by in_bounds)).2, U [i, j - 1, k] (by in_bounds), U [i, j + 1, k] (by in_bounds), (Bb1 [j, k, i] (by in_bounds)).1, (Bb1 [j, k, i] (by in_bounds)).2, (Bb1 [j + 1, k, i] (by in_bounds)).1, (Bb1 [j + 1, k, i] (by in_bounds)).2, U [i, j, k - 1] (by in_bounds), U [i, j, k + 1] (by in_bounds), (Bb2 [k, i, j] (by in_bounds)).1, (Bb2 [k, i, j] (by in_bounds)).2, (Bb2 [k + 1, i, j] (by in_bounds)).1, (Bb2 [k + 1, i, j] (by in_bounds)).2, (Ba [i, j, k] (by in_bounds)).1, (Ba [i, j, k] (by in_bounds)).2]
    simp only [div_eq_mul_inv]
    ring

example : ∃ p1 p2 p3 q1 q2 q3, Cuda.flux3d 0 1 2 1 2 3 exDx ⟨2, 0⟩ ⟨3, 0⟩ ⟨4, 0⟩ 2 ⟨1, 0⟩ ⟨5, 0⟩ ⟨6, 0⟩ ⟨7, 0⟩ (fun _ => revBackend) exRat = .ok p1 ∧ Cuda.diffusionV1Apply3d 0 1 1 2 2 3 3 2 exDx 1 ⟨0, 0⟩ 2 ⟨1, 0⟩ ⟨5, 0⟩ ⟨6, 0⟩ ⟨7, 0⟩ 1 ⟨8, 0⟩ (fun _ => seqBackend) p1 = .ok q1 ∧ Cuda.flux3d 0 1 2 1 2 3 exDx ⟨2, 0⟩ ⟨3, 0⟩ ⟨4, 0⟩ 2 ⟨1, 0⟩ ⟨5, 0⟩ ⟨6, 0⟩ ⟨7, 0⟩ (fun _ => revBackend) (exScaled 1 3) = .ok p2 ∧ Cuda.diffusionV1Apply3d 0 1 1 2 2 3 3 2 exDx 1 ⟨0, 0⟩ 2 ⟨1, 0⟩ ⟨5, 0⟩ ⟨6, 0⟩ ⟨7, 0⟩ 1 ⟨8, 0⟩ (fun _ => seqBackend) p2 = .ok q2 ∧ Cuda.flux3d 0 1 2 1 2 3 exDx ⟨2, 0⟩ ⟨3, 0⟩ ⟨4, 0⟩ 2 ⟨1, 0⟩ ⟨5, 0⟩ ⟨6, 0⟩ ⟨7, 0⟩ (fun _ => revBackend) (exScaled 1 (5 + 7 * 3)) = .ok p3 ∧ Cuda.diffusionV1Apply3d 0 1 1 2 2 3 3 2 exDx 1 ⟨0, 0⟩ 2 ⟨1, 0⟩ ⟨5, 0⟩ ⟨6, 0⟩ ⟨7, 0⟩ 1 ⟨8, 0⟩ (fun _ => seqBackend) p3 = .ok q3 ∧
      (∀ i j k, 0 ≤ i → i ≤ 1 + 1 → 1 ≤ j → j ≤ 2 → 2 ≤ k → k ≤ 3 → ∃ x y, F.El p1 (F.face3d0 ⟨5, 0⟩ 0 1 2 1 2 3 0) [i, j, k] x ∧ F.El p2 (F.face3d0 ⟨5, 0⟩ 0 1 2 1 2 3 0) [i, j, k] y ∧ F.El p3 (F.face3d0 ⟨5, 0⟩ 0 1 2 1 2 3 0) [i, j, k] (5 * x + 7 * y)) ∧
      (∀ i j k, 0 ≤ i → i ≤ 1 → 1 ≤ j → j ≤ 2 + 1 → 2 ≤ k → k ≤ 3 → ∃ x y, F.El p1 (F.face3d1 ⟨6, 0⟩ 0 1 2 1 2 3 0) [j, k, i] x ∧ F.El p2 (F.face3d1 ⟨6, 0⟩ 0 1 2 1 2 3 0) [j, k, i] y ∧ F.El p3 (F.face3d1 ⟨6, 0⟩ 0 1 2 1 2 3 0) [j, k, i] (5 * x + 7 * y)) ∧
      (∀ i j k, 0 ≤ i → i ≤ 1 → 1 ≤ j → j ≤ 2 → 2 ≤ k → k ≤ 3 + 1 → ∃ x y, F.El p1 (F.face3d2 ⟨7, 0⟩ 0 1 2 1 2 3 0) [k, i, j] x ∧ F.El p2 (F.face3d2 ⟨7, 0⟩ 0 1 2 1 2 3 0) [k, i, j] y ∧ F.El p3 (F.face3d2 ⟨7, 0⟩ 0 1 2 1 2 3 0) [k, i, j] (5 * x + 7 * y)) ∧
      (∀ i j k, 0 ≤ i → i ≤ 1 → 1 ≤ j → j ≤ 2 → 2 ≤ k → k ≤ 3 → ∃ x y, F.El q1 (F.cell3d ⟨8, 0⟩ 0 1 2 1 2 3 1) [i, j, k] x ∧ F.El q2 (F.cell3d ⟨8, 0⟩ 0 1 2 1 2 3 1) [i, j, k] y ∧ F.El q3 (F.cell3d ⟨8, 0⟩ 0 1 2 1 2 3 1) [i, j, k] (5 * x + 7 * y)) :=
  C44_v1_linear_3d (fun _ => revBackend_ok) (fun _ => seqBackend_ok) (by decide) (by decide) (by decide) (by decide) (by decide) (by decide) (by ex_args) (exScaled_args (by ex_args)) (exScaled_args (by ex_args)) (⟨apart_blk (by decide), apart_blk (by decide), apart_blk (by decide)⟩) ⟨apart_blk (by decide), apart_blk (by decide), apart_blk (by decide)⟩
    (fun _ _ _ => exScaled_el rfl)
    (by
      intro b hb is x hx
      have : b.ptr.blk ≠ 1 := by clear hx; revert b; decide
      exact ⟨exScaled_other this hx, exScaled_other this hx⟩)

/-- If `u` in the third memory is `c` times `u` in the first plus `d` times `u` in the second, and the coefficients are the same, then so it is
with the fluxes left by `flux3d` and with what `diffusionV2Apply3d` then leaves. -/
theorem C44_v2_linear_3d {i0 j0 k0 i1 j1 k1 gcw rgcw : Int} {alpha beta : T} {dx : Nat → T} {u b0 b1 b2 f0 f1 f2 res : Ptr} {β1 β2 : Nat → Backend} {m1 m2 m3 : Mem T} {c d : T}
    (hβ1 : ∀ n, ValidBackend (β1 n)) (hβ2 : ∀ n, ValidBackend (β2 n)) (hi : i0 ≤ i1) (hj : j0 ≤ j1) (hk : k0 ≤ k1) (hg : 1 ≤ gcw) (hrgcw : 0 ≤ rgcw)
    (h1 : F.Args m1 [(F.cell3d u i0 j0 k0 i1 j1 k1 gcw), (F.face3d0 b0 i0 j0 k0 i1 j1 k1 0), (F.face3d1 b1 i0 j0 k0 i1 j1 k1 0), (F.face3d2 b2 i0 j0 k0 i1 j1 k1 0)] [(F.face3d0 f0 i0 j0 k0 i1 j1 k1 0), (F.face3d1 f1 i0 j0 k0 i1 j1 k1 0), (F.face3d2 f2 i0 j0 k0 i1 j1 k1 0), (F.cell3d res i0 j0 k0 i1 j1 k1 rgcw)])
    (h2 : F.Args m2 [(F.cell3d u i0 j0 k0 i1 j1 k1 gcw), (F.face3d0 b0 i0 j0 k0 i1 j1 k1 0), (F.face3d1 b1 i0 j0 k0 i1 j1 k1 0), (F.face3d2 b2 i0 j0 k0 i1 j1 k1 0)] [(F.face3d0 f0 i0 j0 k0 i1 j1 k1 0), (F.face3d1 f1 i0 j0 k0 i1 j1 k1 0), (F.face3d2 f2 i0 j0 k0 i1 j1 k1 0), (F.cell3d res i0 j0 k0 i1 j1 k1 rgcw)])
    (h3 : F.Args m3 [(F.cell3d u i0 j0 k0 i1 j1 k1 gcw), (F.face3d0 b0 i0 j0 k0 i1 j1 k1 0), (F.face3d1 b1 i0 j0 k0 i1 j1 k1 0), (F.face3d2 b2 i0 j0 k0 i1 j1 k1 0)] [(F.face3d0 f0 i0 j0 k0 i1 j1 k1 0), (F.face3d1 f1 i0 j0 k0 i1 j1 k1 0), (F.face3d2 f2 i0 j0 k0 i1 j1 k1 0), (F.cell3d res i0 j0 k0 i1 j1 k1 rgcw)])
    (hp : F.Apart (F.face3d0 f0 i0 j0 k0 i1 j1 k1 0) (F.face3d1 f1 i0 j0 k0 i1 j1 k1 0) ∧ F.Apart (F.face3d0 f0 i0 j0 k0 i1 j1 k1 0) (F.face3d2 f2 i0 j0 k0 i1 j1 k1 0) ∧ F.Apart (F.face3d1 f1 i0 j0 k0 i1 j1 k1 0) (F.face3d2 f2 i0 j0 k0 i1 j1 k1 0))
    (hr : F.Apart (F.cell3d res i0 j0 k0 i1 j1 k1 rgcw) (F.face3d0 f0 i0 j0 k0 i1 j1 k1 0) ∧ F.Apart (F.cell3d res i0 j0 k0 i1 j1 k1 rgcw) (F.face3d1 f1 i0 j0 k0 i1 j1 k1 0) ∧ F.Apart (F.cell3d res i0 j0 k0 i1 j1 k1 rgcw) (F.face3d2 f2 i0 j0 k0 i1 j1 k1 0))
    (hu : ∀ is x y, F.El m1 (F.cell3d u i0 j0 k0 i1 j1 k1 gcw) is x → F.El m2 (F.cell3d u i0 j0 k0 i1 j1 k1 gcw) is y → F.El m3 (F.cell3d u i0 j0 k0 i1 j1 k1 gcw) is (c * x + d * y))
    (hc : ∀ b ∈ [(F.face3d0 b0 i0 j0 k0 i1 j1 k1 0), (F.face3d1 b1 i0 j0 k0 i1 j1 k1 0), (F.face3d2 b2 i0 j0 k0 i1 j1 k1 0)], ∀ is x, F.El m1 b is x → F.El m2 b is x ∧ F.El m3 b is x) :
    ∃ p1 p2 p3 q1 q2 q3, Cuda.flux3d i0 j0 k0 i1 j1 k1 dx b0 b1 b2 gcw u f0 f1 f2 β1 m1 = .ok p1 ∧ Cuda.diffusionV2Apply3d i0 i1 j0 j1 k0 k1 alpha beta dx gcw u f0 f1 f2 rgcw res β2 p1 = .ok q1 ∧ Cuda.flux3d i0 j0 k0 i1 j1 k1 dx b0 b1 b2 gcw u f0 f1 f2 β1 m2 = .ok p2 ∧ Cuda.diffusionV2Apply3d i0 i1 j0 j1 k0 k1 alpha beta dx gcw u f0 f1 f2 rgcw res β2 p2 = .ok q2 ∧ Cuda.flux3d i0 j0 k0 i1 j1 k1 dx b0 b1 b2 gcw u f0 f1 f2 β1 m3 = .ok p3 ∧ Cuda.diffusionV2Apply3d i0 i1 j0 j1 k0 k1 alpha beta dx gcw u f0 f1 f2 rgcw res β2 p3 = .ok q3 ∧
      (∀ i j k, i0 ≤ i → i ≤ i1 + 1 → j0 ≤ j → j ≤ j1 → k0 ≤ k → k ≤ k1 → ∃ x y, F.El p1 (F.face3d0 f0 i0 j0 k0 i1 j1 k1 0) [i, j, k] x ∧ F.El p2 (F.face3d0 f0 i0 j0 k0 i1 j1 k1 0) [i, j, k] y ∧ F.El p3 (F.face3d0 f0 i0 j0 k0 i1 j1 k1 0) [i, j, k] (c * x + d * y)) ∧
      (∀ i j k, i0 ≤ i → i ≤ i1 → j0 ≤ j → j ≤ j1 + 1 → k0 ≤ k → k ≤ k1 → ∃ x y, F.El p1 (F.face3d1 f1 i0 j0 k0 i1 j1 k1 0) [j, k, i] x ∧ F.El p2 (F.face3d1 f1 i0 j0 k0 i1 j1 k1 0) [j, k, i] y ∧ F.El p3 (F.face3d1 f1 i0 j0 k0 i1 j1 k1 0) [j, k, i] (c * x + d * y)) ∧
      (∀ i j k, i0 ≤ i → i ≤ i1 → j0 ≤ j → j ≤ j1 → k0 ≤ k → k ≤ k1 + 1 → ∃ x y, F.El p1 (F.face3d2 f2 i0 j0 k0 i1 j1 k1 0) [k, i, j] x ∧ F.El p2 (F.face3d2 f2 i0 j0 k0 i1 j1 k1 0) [k, i, j] y ∧ F.El p3 (F.face3d2 f2 i0 j0 k0 i1 j1 k1 0) [k, i, j] (c * x + d * y)) ∧
      (∀ i j k, i0 ≤ i → i ≤ i1 → j0 ≤ j → j ≤ j1 → k0 ≤ k → k ≤ k1 → ∃ x y, F.El q1 (F.cell3d res i0 j0 k0 i1 j1 k1 rgcw) [i, j, k] x ∧ F.El q2 (F.cell3d res i0 j0 k0 i1 j1 k1 rgcw) [i, j, k] y ∧ F.El q3 (F.cell3d res i0 j0 k0 i1 j1 k1 rgcw) [i, j, k] (c * x + d * y)) := by
  obtain ⟨p1, q1, c1, d1, -, -, V01, V11, V21, W1⟩ := op_v2_3 (alpha := alpha) (beta := beta) (dx := dx) hβ1 hβ2 hi hj hk hg hrgcw h1 hp hr
  obtain ⟨p2, q2, c2, d2, -, -, V02, V12, V22, W2⟩ := op_v2_3 (alpha := alpha) (beta := beta) (dx := dx) hβ1 hβ2 hi hj hk hg hrgcw h2 hp hr
  obtain ⟨p3, q3, c3, d3, -, -, V03, V13, V23, W3⟩ := op_v2_3 (alpha := alpha) (beta := beta) (dx := dx) hβ1 hβ2 hi hj hk hg hrgcw h3 hp hr
  have U : ∀ is, F.InBounds (F.cell3d u i0 j0 k0 i1 j1 k1 gcw).dims is → F.rd m3 (F.cell3d u i0 j0 k0 i1 j1 k1 gcw) is = c * F.rd m1 (F.cell3d u i0 j0 k0 i1 j1 k1 gcw) is + d * F.rd m2 (F.cell3d u i0 j0 k0 i1 j1 k1 gcw) is := fun is hi =>
    (hu is _ _ ((h1.ok (F.cell3d u i0 j0 k0 i1 j1 k1 gcw) (by simp)).rd hi) ((h2.ok (F.cell3d u i0 j0 k0 i1 j1 k1 gcw) (by simp)).rd hi)).rd
  have Bb0 : ∀ is, F.InBounds (F.face3d0 b0 i0 j0 k0 i1 j1 k1 0).dims is → F.rd m2 (F.face3d0 b0 i0 j0 k0 i1 j1 k1 0) is = F.rd m1 (F.face3d0 b0 i0 j0 k0 i1 j1 k1 0) is ∧ F.rd m3 (F.face3d0 b0 i0 j0 k0 i1 j1 k1 0) is = F.rd m1 (F.face3d0 b0 i0 j0 k0 i1 j1 k1 0) is := fun is hi =>
    have e := hc (F.face3d0 b0 i0 j0 k0 i1 j1 k1 0) (by simp) is _ ((h1.ok (F.face3d0 b0 i0 j0 k0 i1 j1 k1 0) (by simp)).rd hi)
    ⟨e.1.rd, e.2.rd⟩
  have Bb1 : ∀ is, F.InBounds (F.face3d1 b1 i0 j0 k0 i1 j1 k1 0).dims is → F.rd m2 (F.face3d1 b1 i0 j0 k0 i1 j1 k1 0) is = F.rd m1 (F.face3d1 b1 i0 j0 k0 i1 j1 k1 0) is ∧ F.rd m3 (F.face3d1 b1 i0 j0 k0 i1 j1 k1 0) is = F.rd m1 (F.face3d1 b1 i0 j0 k0 i1 j1 k1 0) is := fun is hi =>
    have e := hc (F.face3d1 b1 i0 j0 k0 i1 j1 k1 0) (by simp) is _ ((h1.ok (F.face3d1 b1 i0 j0 k0 i1 j1 k1 0) (by simp)).rd hi)
    ⟨e.1.rd, e.2.rd⟩
  have Bb2 : ∀ is, F.InBounds (F.face3d2 b2 i0 j0 k0 i1 j1 k1 0).dims is → F.rd m2 (F.face3d2 b2 i0 j0 k0 i1 j1 k1 0) is = F.rd m1 (F.face3d2 b2 i0 j0 k0 i1 j1 k1 0) is ∧ F.rd m3 (F.face3d2 b2 i0 j0 k0 i1 j1 k1 0) is = F.rd m1 (F.face3d2 b2 i0 j0 k0 i1 j1 k1 0) is := fun is hi =>
    have e := hc (F.face3d2 b2 i0 j0 k0 i1 j1 k1 0) (by simp) is _ ((h1.ok (F.face3d2 b2 i0 j0 k0 i1 j1 k1 0) (by simp)).rd hi)
    ⟨e.1.rd, e.2.rd⟩
  refine ⟨p1, p2, p3, q1, q2, q3, c1, d1, c2, d2, c3, d3, ?_, ?_, ?_, ?_⟩
  · intro i j k h0 h1 h2 h3 h4 h5
    refine ⟨_, _, V01 i j k h0 h1 h2 h3 h4 h5, V02 i j k h0 h1 h2 h3 h4 h5, ?_⟩
    convert V03 i j k h0 h1 h2 h3 h4 h5 using 1
    rw [U [i, j, k] (by in_bounds), U [i - 1, j, k] (by in_bounds), (Bb0 [i, j, k] (by in_bounds)).1, (Bb0 [i, j, k] (by in_bounds)).2]
    simp only [div_eq_mul_inv]
    ring
  · intro i j k h0 h1 h2 h3 h4 h5
    refine ⟨_, _, V11 i j k h0 h1 h2 h3 h4 h5, V12 i j k h0 h1 h2 h3 h4 h5, ?_⟩
    convert V13 i j k h0 h1 h2 h3 h4 h5 using 1
    rw [U [i, j, k] (by in_bounds), U [i, j - 1, k] (by in_bounds), (Bb1 [j, k, i] (by in_bounds)).1, (Bb1 [j, k, i] (by in_bounds)).2]
    simp only [div_eq_mul_inv]
    ring
  · intro i j k h0 h1 h2 h3 h4 h5
    refine ⟨_, _, V21 i j k h0 h1 h2 h3 h4 h5, V22 i j k h0 h1 h2 h3 h4 h5, ?_⟩
    convert V23 i j k h0 h1 h2 h3 h4 h5 using 1
    rw [U [i, j, k] (by in_bounds), U [i, j, k - 1] (by in_bounds), (Bb2 [k, i, j] (by in_bounds)).1, (Bb2 [k, i, j] (by in_bounds)).2]
    simp only [div_eq_mul_inv]
    ring
  · intro i j k h0 h1 h2 h3 h4 h5
    refine ⟨_, _, W1 i j k h0 h1 h2 h3 h4 h5, W2 i j k h0 h1 h2 h3 h4 h5, ?_⟩
    convert W3 i j k h0 h1 h2 h3 h4 h5 using 1
    rw [U [i, j, k] (by in_bounds), U [i - 1, j, k] (by in_bounds), U [i + 1, j, k] (by in_bounds), (Bb0 [i, j, k] (by in_bounds)).1, (Bb0 [i, j, k] (by in_bounds)).2, (Bb0 [i + 1, j, k] (by in_bounds)).1, (Bb0 [i + 1, j, k] (by in_bounds)).2, U [i, j - 1, k] (by in_bounds), U [i, j + 1, k] (by in_bounds), (Bb1 [j, k, i] (by in_bounds)).1, (Bb1 [j, k, i] (by in_bounds)).2, (Bb1 [j + 1, k, i] (by in_bounds)).1, (Bb1 [j + 1, k, i] (by in_bounds)).2, U [i, j, k - 1] (by in_bounds), U [i, j, k + 1] (by in_bounds), (Bb2 [k, i, j] (by in_bounds)).1, (Bb2 [k, i, j] (by in_bounds)).2, (Bb2 [k + 1, i, j] (by in_bounds)).1, (Bb2 [k + 1, i, j] (by in_bounds)).2]
    simp only [div_eq_mul_inv]
    ring

example : ∃ p1 p2 p3 q1 q2 q3, Cuda.flux3d 0 1 2 1 2 3 exDx ⟨2, 0⟩ ⟨3, 0⟩ ⟨4, 0⟩ 2 ⟨1, 0⟩ ⟨5, 0⟩ ⟨6, 0⟩ ⟨7, 0⟩ (fun _ => revBackend) exRat = .ok p1 ∧ Cuda.diffusionV2Apply3d 0 1 1 2 2 3 3 2 exDx 2 ⟨1, 0⟩ ⟨5, 0⟩ ⟨6, 0⟩ ⟨7, 0⟩ 1 ⟨8, 0⟩ (fun _ => seqBackend) p1 = .ok q1 ∧ Cuda.flux3d 0 1 2 1 2 3 exDx ⟨2, 0⟩ ⟨3, 0⟩ ⟨4, 0⟩ 2 ⟨1, 0⟩ ⟨5, 0⟩ ⟨6, 0⟩ ⟨7, 0⟩ (fun _ => revBackend) (exScaled 1 3) = .ok p2 ∧ Cuda.diffusionV2Apply3d 0 1 1 2 2 3 3 2 exDx 2 ⟨1, 0⟩ ⟨5, 0⟩ ⟨6, 0⟩ ⟨7, 0⟩ 1 ⟨8, 0⟩ (fun _ => seqBackend) p2 = .ok q2 ∧ Cuda.flux3d 0 1 2 1 2 3 exDx ⟨2, 0⟩ ⟨3, 0⟩ ⟨4, 0⟩ 2 ⟨1, 0⟩ ⟨5, 0⟩ ⟨6, 0⟩ ⟨7, 0⟩ (fun _ => revBackend) (exScaled 1 (5 + 7 * 3)) = .ok p3 ∧ Cuda.diffusionV2Apply3d 0 1 1 2 2 3 3 2 exDx 2 ⟨1, 0⟩ ⟨5, 0⟩ ⟨6, 0⟩ ⟨7, 0⟩ 1 ⟨8, 0⟩ (fun _ => seqBackend) p3 = .ok q3 ∧
      (∀ i j k, 0 ≤ i → i ≤ 1 + 1 → 1 ≤ j → j ≤ 2 → 2 ≤ k → k ≤ 3 → ∃ x y, F.El p1 (F.face3d0 ⟨5, 0⟩ 0 1 2 1 2 3 0) [i, j, k] x ∧ F.El p2 (F.face3d0 ⟨5, 0⟩ 0 1 2 1 2 3 0) [i, j, k] y ∧ F.El p3 (F.face3d0 ⟨5, 0⟩ 0 1 2 1 2 3 0) [i, j, k] (5 * x + 7 * y)) ∧
      (∀ i j k, 0 ≤ i → i ≤ 1 → 1 ≤ j → j ≤ 2 + 1 → 2 ≤ k → k ≤ 3 → ∃ x y, F.El p1 (F.face3d1 ⟨6, 0⟩ 0 1 2 1 2 3 0) [j, k, i] x ∧ F.El p2 (F.face3d1 ⟨6, 0⟩ 0 1 2 1 2 3 0) [j, k, i] y ∧ F.El p3 (F.face3d1 ⟨6, 0⟩ 0 1 2 1 2 3 0) [j, k, i] (5 * x + 7 * y)) ∧
      (∀ i j k, 0 ≤ i → i ≤ 1 → 1 ≤ j → j ≤ 2 → 2 ≤ k → k ≤ 3 + 1 → ∃ x y, F.El p1 (F.face3d2 ⟨7, 0⟩ 0 1 2 1 2 3 0) [k, i, j] x ∧ F.El p2 (F.face3d2 ⟨7, 0⟩ 0 1 2 1 2 3 0) [k, i, j] y ∧ F.El p3 (F.face3d2 ⟨7, 0⟩ 0 1 2 1 2 3 0) [k, i, j] (5 * x + 7 * y)) ∧
      (∀ i j k, 0 ≤ i → i ≤ 1 → 1 ≤ j → j ≤ 2 → 2 ≤ k → k ≤ 3 → ∃ x y, F.El q1 (F.cell3d ⟨8, 0⟩ 0 1 2 1 2 3 1) [i, j, k] x ∧ F.El q2 (F.cell3d ⟨8, 0⟩ 0 1 2 1 2 3 1) [i, j, k] y ∧ F.El q3 (F.cell3d ⟨8, 0⟩ 0 1 2 1 2 3 1) [i, j, k] (5 * x + 7 * y)) :=
  C44_v2_linear_3d (fun _ => revBackend_ok) (fun _ => seqBackend_ok) (by decide) (by decide) (by decide) (by decide) (by decide) (by ex_args) (exScaled_args (by ex_args)) (exScaled_args (by ex_args)) (⟨apart_blk (by decide), apart_blk (by decide), apart_blk (by decide)⟩) ⟨apart_blk (by decide), apart_blk (by decide), apart_blk (by decide)⟩
    (fun _ _ _ => exScaled_el rfl)
    (by
      intro b hb is x hx
      have : b.ptr.blk ≠ 1 := by clear hx; revert b; decide
      exact ⟨exScaled_other this hx, exScaled_other this hx⟩)

/-- If `u` in the third memory is `c` times `u` in the first plus `d` times `u` in the second, and the coefficients are the same, then so it is
with the fluxes left by `poissonFlux3d` and with what `poissonV2Apply3d` then leaves. -/
theorem C44_poisson_linear_3d {i0 j0 k0 i1 j1 k1 gcw rgcw : Int} {beta : T} {dx : Nat → T} {u f0 f1 f2 res : Ptr} {β1 β2 : Nat → Backend} {m1 m2 m3 : Mem T} {c d : T}
    (hβ1 : ∀ n, ValidBackend (β1 n)) (hβ2 : ∀ n, ValidBackend (β2 n)) (hi : i0 ≤ i1) (hj : j0 ≤ j1) (hk : k0 ≤ k1) (hg : 1 ≤ gcw) (hrgcw : 0 ≤ rgcw)
    (h1 : F.Args m1 [(F.cell3d u i0 j0 k0 i1 j1 k1 gcw)] [(F.face3d0 f0 i0 j0 k0 i1 j1 k1 0), (F.face3d1 f1 i0 j0 k0 i1 j1 k1 0), (F.face3d2 f2 i0 j0 k0 i1 j1 k1 0), (F.cell3d res i0 j0 k0 i1 j1 k1 rgcw)])
    (h2 : F.Args m2 [(F.cell3d u i0 j0 k0 i1 j1 k1 gcw)] [(F.face3d0 f0 i0 j0 k0 i1 j1 k1 0), (F.face3d1 f1 i0 j0 k0 i1 j1 k1 0), (F.face3d2 f2 i0 j0 k0 i1 j1 k1 0), (F.cell3d res i0 j0 k0 i1 j1 k1 rgcw)])
    (h3 : F.Args m3 [(F.cell3d u i0 j0 k0 i1 j1 k1 gcw)] [(F.face3d0 f0 i0 j0 k0 i1 j1 k1 0), (F.face3d1 f1 i0 j0 k0 i1 j1 k1 0), (F.face3d2 f2 i0 j0 k0 i1 j1 k1 0), (F.cell3d res i0 j0 k0 i1 j1 k1 rgcw)])
    (hp : F.Apart (F.face3d0 f0 i0 j0 k0 i1 j1 k1 0) (F.face3d1 f1 i0 j0 k0 i1 j1 k1 0) ∧ F.Apart (F.face3d0 f0 i0 j0 k0 i1 j1 k1 0) (F.face3d2 f2 i0 j0 k0 i1 j1 k1 0) ∧ F.Apart (F.face3d1 f1 i0 j0 k0 i1 j1 k1 0) (F.face3d2 f2 i0 j0 k0 i1 j1 k1 0))
    (hr : F.Apart (F.cell3d res i0 j0 k0 i1 j1 k1 rgcw) (F.face3d0 f0 i0 j0 k0 i1 j1 k1 0) ∧ F.Apart (F.cell3d res i0 j0 k0 i1 j1 k1 rgcw) (F.face3d1 f1 i0 j0 k0 i1 j1 k1 0) ∧ F.Apart (F.cell3d res i0 j0 k0 i1 j1 k1 rgcw) (F.face3d2 f2 i0 j0 k0 i1 j1 k1 0))
    (hu : ∀ is x y, F.El m1 (F.cell3d u i0 j0 k0 i1 j1 k1 gcw) is x → F.El m2 (F.cell3d u i0 j0 k0 i1 j1 k1 gcw) is y → F.El m3 (F.cell3d u i0 j0 k0 i1 j1 k1 gcw) is (c * x + d * y)) :
    ∃ p1 p2 p3 q1 q2 q3, Cuda.poissonFlux3d i0 j0 k0 i1 j1 k1 dx gcw u f0 f1 f2 β1 m1 = .ok p1 ∧ Cuda.poissonV2Apply3d i0 i1 j0 j1 k0 k1 beta dx f0 f1 f2 rgcw res β2 p1 = .ok q1 ∧ Cuda.poissonFlux3d i0 j0 k0 i1 j1 k1 dx gcw u f0 f1 f2 β1 m2 = .ok p2 ∧ Cuda.poissonV2Apply3d i0 i1 j0 j1 k0 k1 beta dx f0 f1 f2 rgcw res β2 p2 = .ok q2 ∧ Cuda.poissonFlux3d i0 j0 k0 i1 j1 k1 dx gcw u f0 f1 f2 β1 m3 = .ok p3 ∧ Cuda.poissonV2Apply3d i0 i1 j0 j1 k0 k1 beta dx f0 f1 f2 rgcw res β2 p3 = .ok q3 ∧
      (∀ i j k, i0 ≤ i → i ≤ i1 + 1 → j0 ≤ j → j ≤ j1 → k0 ≤ k → k ≤ k1 → ∃ x y, F.El p1 (F.face3d0 f0 i0 j0 k0 i1 j1 k1 0) [i, j, k] x ∧ F.El p2 (F.face3d0 f0 i0 j0 k0 i1 j1 k1 0) [i, j, k] y ∧ F.El p3 (F.face3d0 f0 i0 j0 k0 i1 j1 k1 0) [i, j, k] (c * x + d * y)) ∧
      (∀ i j k, i0 ≤ i → i ≤ i1 → j0 ≤ j → j ≤ j1 + 1 → k0 ≤ k → k ≤ k1 → ∃ x y, F.El p1 (F.face3d1 f1 i0 j0 k0 i1 j1 k1 0) [j, k, i] x ∧ F.El p2 (F.face3d1 f1 i0 j0 k0 i1 j1 k1 0) [j, k, i] y ∧ F.El p3 (F.face3d1 f1 i0 j0 k0 i1 j1 k1 0) [j, k, i] (c * x + d * y)) ∧
      (∀ i j k, i0 ≤ i → i ≤ i1 → j0 ≤ j → j ≤ j1 → k0 ≤ k → k ≤ k1 + 1 → ∃ x y, F.El p1 (F.face3d2 f2 i0 j0 k0 i1 j1 k1 0) [k, i, j] x ∧ F.El p2 (F.face3d2 f2 i0 j0 k0 i1 j1 k1 0) [k, i, j] y ∧ F.El p3 (F.face3d2 f2 i0 j0 k0 i1 j1 k1 0) [k, i, j] (c * x + d * y)) ∧
      (∀ i j k, i0 ≤ i → i ≤ i1 → j0 ≤ j → j ≤ j1 → k0 ≤ k → k ≤ k1 → ∃ x y, F.El q1 (F.cell3d res i0 j0 k0 i1 j1 k1 rgcw) [i, j, k] x ∧ F.El q2 (F.cell3d res i0 j0 k0 i1 j1 k1 rgcw) [i, j, k] y ∧ F.El q3 (F.cell3d res i0 j0 k0 i1 j1 k1 rgcw) [i, j, k] (c * x + d * y)) := by
  obtain ⟨p1, q1, c1, d1, -, -, V01, V11, V21, W1⟩ := op_p_3 (beta := beta) (dx := dx) hβ1 hβ2 hi hj hk hg hrgcw h1 hp hr
  obtain ⟨p2, q2, c2, d2, -, -, V02, V12, V22, W2⟩ := op_p_3 (beta := beta) (dx := dx) hβ1 hβ2 hi hj hk hg hrgcw h2 hp hr
  obtain ⟨p3, q3, c3, d3, -, -, V03, V13, V23, W3⟩ := op_p_3 (beta := beta) (dx := dx) hβ1 hβ2 hi hj hk hg hrgcw h3 hp hr
  have U : ∀ is, F.InBounds (F.cell3d u i0 j0 k0 i1 j1 k1 gcw).dims is → F.rd m3 (F.cell3d u i0 j0 k0 i1 j1 k1 gcw) is = c * F.rd m1 (F.cell3d u i0 j0 k0 i1 j1 k1 gcw) is + d * F.rd m2 (F.cell3d u i0 j0 k0 i1 j1 k1 gcw) is := fun is hi =>
    (hu is _ _ ((h1.ok (F.cell3d u i0 j0 k0 i1 j1 k1 gcw) (by simp)).rd hi) ((h2.ok (F.cell3d u i0 j0 k0 i1 j1 k1 gcw) (by simp)).rd hi)).rd
  refine ⟨p1, p2, p3, q1, q2, q3, c1, d1, c2, d2, c3, d3, ?_, ?_, ?_, ?_⟩
  · intro i j k h0 h1 h2 h3 h4 h5
    refine ⟨_, _, V01 i j k h0 h1 h2 h3 h4 h5, V02 i j k h0 h1 h2 h3 h4 h5, ?_⟩
    convert V03 i j k h0 h1 h2 h3 h4 h5 using 1
    rw [U [i, j, k] (by in_bounds), U [i - 1, j, k] (by in_bounds)]
    simp only [div_eq_mul_inv]
    ring
  · intro i j k h0 h1 h2 h3 h4 h5
    refine ⟨_, _, V11 i j k h0 h1 h2 h3 h4 h5, V12 i j k h0 h1 h2 h3 h4 h5, ?_⟩
    convert V13 i j k h0 h1 h2 h3 h4 h5 using 1
    rw [U [i, j, k] (by in_bounds), U [i, j - 1, k] (by in_bounds)]
    simp only [div_eq_mul_inv]
    ring
  · intro i j k h0 h1 h2 h3 h4 h5
    refine ⟨_, _, V21 i j k h0 h1 h2 h3 h4 h5, V22 i j k h0 h1 h2 h3 h4 h5, ?_⟩
    convert V23 i j k h0 h1 h2 h3 h4 h5 using 1
    rw [U [i, j, k] (by in_bounds), U [i, j, k - 1] (by in_bounds)]
    simp only [div_eq_mul_inv]
    ring
  · intro i j k h0 h1 h2 h3 h4 h5
    refine ⟨_, _, W1 i j k h0 h1 h2 h3 h4 h5, W2 i j k h0 h1 h2 h3 h4 h5, ?_⟩
    convert W3 i j k h0 h1 h2 h3 h4 h5 using 1
    rw [U [i, j, k] (by in_bounds), U [i - 1, j, k] (by in_bounds), U [i + 1, j, k] (by in_bounds), U [i, j - 1, k] (by in_bounds), U [i, j + 1, k] (by in_bounds), U [i, j, k - 1] (by in_bounds), U [i, j, k + 1] (by in_bounds)]
    simp only [div_eq_mul_inv]
    ring

example : ∃ p1 p2 p3 q1 q2 q3, Cuda.poissonFlux3d 0 1 2 1 2 3 exDx 2 ⟨1, 0⟩ ⟨5, 0⟩ ⟨6, 0⟩ ⟨7, 0⟩ (fun _ => revBackend) exRat = .ok p1 ∧ Cuda.poissonV2Apply3d 0 1 1 2 2 3 2 exDx ⟨5, 0⟩ ⟨6, 0⟩ ⟨7, 0⟩ 1 ⟨8, 0⟩ (fun _ => seqBackend) p1 = .ok q1 ∧ Cuda.poissonFlux3d 0 1 2 1 2 3 exDx 2 ⟨1, 0⟩ ⟨5, 0⟩ ⟨6, 0⟩ ⟨7, 0⟩ (fun _ => revBackend) (exScaled 1 3) = .ok p2 ∧ Cuda.poissonV2Apply3d 0 1 1 2 2 3 2 exDx ⟨5, 0⟩ ⟨6, 0⟩ ⟨7, 0⟩ 1 ⟨8, 0⟩ (fun _ => seqBackend) p2 = .ok q2 ∧ Cuda.poissonFlux3d 0 1 2 1 2 3 exDx 2 ⟨1, 0⟩ ⟨5, 0⟩ ⟨6, 0⟩ ⟨7, 0⟩ (fun _ => revBackend) (exScaled 1 (5 + 7 * 3)) = .ok p3 ∧ Cuda.poissonV2Apply3d 0 1 1 2 2 3 2 exDx ⟨5, 0⟩ ⟨6, 0⟩ ⟨7, 0⟩ 1 ⟨8, 0⟩ (fun _ => seqBackend) p3 = .ok q3 ∧
      (∀ i j k, 0 ≤ i → i ≤ 1 + 1 → 1 ≤ j → j ≤ 2 → 2 ≤ k → k ≤ 3 → ∃ x y, F.El p1 (F.face3d0 ⟨5, 0⟩ 0 1 2 1 2 3 0) [i, j, k] x ∧ F.El p2 (F.face3d0 ⟨5, 0⟩ 0 1 2 1 2 3 0) [i, j, k] y ∧ F.El p3 (F.face3d0 ⟨5, 0⟩ 0 1 2 1 2 3 0) [i, j, k] (5 * x + 7 * y)) ∧
      (∀ i j k, 0 ≤ i → i ≤ 1 → 1 ≤ j → j ≤ 2 + 1 → 2 ≤ k → k ≤ 3 → ∃ x y, F.El p1 (F.face3d1 ⟨6, 0⟩ 0 1 2 1 2 3 0) [j, k, i] x ∧ F.El p2 (F.face3d1 ⟨6, 0⟩ 0 1 2 1 2 3 0) [j, k, i] y ∧ F.El p3 (F.face3d1 ⟨6, 0⟩ 0 1 2 1 2 3 0) [j, k, i] (5 * x + 7 * y)) ∧
      (∀ i j k, 0 ≤ i → i ≤ 1 → 1 ≤ j → j ≤ 2 → 2 ≤ k → k ≤ 3 + 1 → ∃ x y, F.El p1 (F.face3d2 ⟨7, 0⟩ 0 1 2 1 2 3 0) [k, i, j] x ∧ F.El p2 (F.face3d2 ⟨7, 0⟩ 0 1 2 1 2 3 0) [k, i, j] y ∧ F.El p3 (F.face3d2 ⟨7, 0⟩ 0 1 2 1 2 3 0) [k, i, j] (5 * x + 7 * y)) ∧
      (∀ i j k, 0 ≤ i → i ≤ 1 → 1 ≤ j → j ≤ 2 → 2 ≤ k → k ≤ 3 → ∃ x y, F.El q1 (F.cell3d ⟨8, 0⟩ 0 1 2 1 2 3 1) [i, j, k] x ∧ F.El q2 (F.cell3d ⟨8, 0⟩ 0 1 2 1 2 3 1) [i, j, k] y ∧ F.El q3 (F.cell3d ⟨8, 0⟩ 0 1 2 1 2 3 1) [i, j, k] (5 * x + 7 * y)) :=
  C44_poisson_linear_3d (fun _ => revBackend_ok) (fun _ => seqBackend_ok) (by decide) (by decide) (by decide) (by decide) (by decide) (by ex_args) (exScaled_args (by ex_args)) (exScaled_args (by ex_args)) (⟨apart_blk (by decide), apart_blk (by decide), apart_blk (by decide)⟩) ⟨apart_blk (by decide), apart_blk (by decide), apart_blk (by decide)⟩
    (fun _ _ _ => exScaled_el rfl)

end Verif
