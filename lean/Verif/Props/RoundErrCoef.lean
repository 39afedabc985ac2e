import Verif.Lemmas.RoundOp
import Mathlib.Tactic.Ring

/-
C82: in 53 bit arithmetic the kernels lose no more than a few rounding errors of the sizes of their terms.
-/

namespace Verif
open Spec

set_option linter.unusedVariables false

/-- The coefficients left by the off-diagonal and diagonal kernels: each off-diagonal one is off by at most 5 of its rounding errors, the diagonal one by
at most 7 rounding errors of the sum of the sizes of its terms, so of itself when the terms have one sign. -/
theorem C82_coef_v1_1d {i0 i1 bi0 bi1 ai0 ai1 sgcw : Int} {alpha beta : B64} {dx : Nat → B64} {a b0 st : Ptr} {β1 β2 : Backend} {m : Mem B64} {B0 A : List Int → B64}
    (hβ1 : ValidBackend β1) (hβ2 : ValidBackend β2) (hi : i0 ≤ i1) (hbi : bi0 ≤ i0 ∧ i1 ≤ bi1) (hai : ai0 ≤ i0 ∧ i1 ≤ ai1) (hg : 0 ≤ sgcw) (hdx : ∀ n, (dx n).v ≠ 0)
    (h : F.Args m [(F.face1d b0 bi0 bi1 0), (F.cell1d a ai0 ai1 0)] [(F.st1d st i0 i1 sgcw)]) (hB0 : F.Holds m (F.face1d b0 bi0 bi1 0) B0) (hA : F.Holds m (F.cell1d a ai0 ai1 0) A) :
    ∃ m1 m2, Cuda.offdiag1d i0 i1 bi0 bi1 dx beta b0 sgcw st β1 m = .ok m1 ∧ Cuda.v1diag1d i0 i1 ai0 ai1 alpha a sgcw st β2 m1 = .ok m2 ∧
      (∀ i, i0 ≤ i → i ≤ i1 → ∃ v0 v1 v2, F.El m2 (F.st1d st i0 i1 sgcw) [0, i] v0 ∧ F.El m2 (F.st1d st i0 i1 sgcw) [1, i] v1 ∧ F.El m2 (F.st1d st i0 i1 sgcw) [2, i] v2 ∧
        F.Within 5 v1 (-(beta.v / ((dx 0).v * (dx 0).v) * (B0 [i]).v)) |beta.v / ((dx 0).v * (dx 0).v) * (B0 [i]).v| ∧
        F.Within 5 v2 (-(beta.v / ((dx 0).v * (dx 0).v) * (B0 [i + 1]).v)) |beta.v / ((dx 0).v * (dx 0).v) * (B0 [i + 1]).v| ∧
        F.Within 7 v0 (beta.v / ((dx 0).v * (dx 0).v) * (B0 [i]).v + beta.v / ((dx 0).v * (dx 0).v) * (B0 [i + 1]).v + alpha.v * (A [i]).v)
          (|beta.v / ((dx 0).v * (dx 0).v) * (B0 [i]).v| + |beta.v / ((dx 0).v * (dx 0).v) * (B0 [i + 1]).v| + |alpha.v * (A [i]).v|)) := by
  have h1 : F.Args m [(F.face1d b0 bi0 bi1 0)] [(F.st1d st i0 i1 sgcw)] := h.sub (by intro x hx; simp only [List.mem_cons, List.not_mem_nil, or_false] at hx ⊢; tauto) (by intro x hx; simp only [List.mem_cons, List.not_mem_nil, or_false] at hx ⊢; tauto)
  obtain ⟨m1, q1, -, K1, V⟩ := offdiag1_run (dx := dx) (beta := beta) hi hg hbi h1
  obtain ⟨m1', c1, e1⟩ := C49_offdiag_1d (dx := dx) (beta := beta) hβ1 B64.neg_div hi hbi hg h1
  obtain rfl : m1 = m1' := Except.ok.inj (q1.symm.trans e1)
  have h2 : F.Args m1 [(F.cell1d a ai0 ai1 0)] [(F.st1d st i0 i1 sgcw)] := by
    refine ⟨fun a ha => K1.ok (h.ok a ?_), ?_⟩
    · simp only [List.mem_cons, List.mem_append, List.not_mem_nil, or_false, false_or] at ha ⊢; tauto
    · simp only [List.mem_cons, List.not_mem_nil, or_false, forall_eq_or_imp, forall_eq]
      exact h.apart _ (by simp) _ (by simp)
  obtain ⟨m2, q2, -, K2, W, Q⟩ := v1diag1_run (alpha := alpha) hi hg hai h2
  obtain ⟨m2', c2, e2⟩ := C49_v1diag_1d (alpha := alpha) hβ2 B64.neg_one_mul hi hai hg h2
  obtain rfl : m2 = m2' := Except.ok.inj (q2.symm.trans e2)
  refine ⟨m1, m2, c1, c2, fun i h0 h1 => ?_⟩
  obtain ⟨V1, V2⟩ := V i h0 h1
  have w := W i h0 h1
  have z1 := Q i 1 h0 h1 (by omega) (by omega)
  rw [V1.rd] at z1
  have z2 := Q i 2 h0 h1 (by omega) (by omega)
  rw [V2.rd] at z2
  rw [V1.rd, V2.rd] at w
  rw [(hB0 [i] (by in_bounds)).rd] at z1
  rw [(hB0 [i + 1] (by in_bounds)).rd] at z2
  have ea : F.rd m1 (F.cell1d a ai0 ai1 0) [i] = A [i] := (K1.rd (by intro o ho; refine h.apart o ?_ _ (by simp); simp only [List.mem_cons, List.not_mem_nil, or_false] at ho ⊢; tauto) (by in_bounds)).trans (hA [i] (by in_bounds)).rd
  rw [(hB0 [i] (by in_bounds)).rd, (hB0 [i + 1] (by in_bounds)).rd, ea] at w
  refine ⟨_, _, _, w, F.el_of_rd (K2.ok (K1.ok (h.ok (F.st1d st i0 i1 sgcw) (by simp)))) (by in_bounds) z1, F.el_of_rd (K2.ok (K1.ok (h.ok (F.st1d st i0 i1 sgcw) (by simp)))) (by in_bounds) z2, (near_off (hdx 0)).within (by ulps), (near_off (hdx 0)).within (by ulps), ?_⟩
  refine Near.within (k := 6) (Near.eqs ((((near_off (hdx 0)).add (near_off (hdx 0))).neg).add ((Near.datum alpha).mul (Near.datum _))) (by ring) ?_) (by ulps)
  rw [abs_mul alpha.v]

example :
    ∃ m1 m2, Cuda.offdiag1d 0 3 0 3 exDxB 2 ⟨2, 0⟩ 1 ⟨9, 0⟩ revBackend exB64 = .ok m1 ∧ Cuda.v1diag1d 0 3 0 3 3 ⟨0, 0⟩ 1 ⟨9, 0⟩ seqBackend m1 = .ok m2 ∧
      (∀ i, 0 ≤ i → i ≤ 3 → ∃ v0 v1 v2, F.El m2 (F.st1d ⟨9, 0⟩ 0 3 1) [0, i] v0 ∧ F.El m2 (F.st1d ⟨9, 0⟩ 0 3 1) [1, i] v1 ∧ F.El m2 (F.st1d ⟨9, 0⟩ 0 3 1) [2, i] v2 ∧
        F.Within 5 v1 (-((2 : B64).v / ((exDxB 0).v * (exDxB 0).v) * ((F.rd exB64 (F.face1d ⟨2, 0⟩ 0 3 0)) [i]).v)) |(2 : B64).v / ((exDxB 0).v * (exDxB 0).v) * ((F.rd exB64 (F.face1d ⟨2, 0⟩ 0 3 0)) [i]).v| ∧
        F.Within 5 v2 (-((2 : B64).v / ((exDxB 0).v * (exDxB 0).v) * ((F.rd exB64 (F.face1d ⟨2, 0⟩ 0 3 0)) [i + 1]).v)) |(2 : B64).v / ((exDxB 0).v * (exDxB 0).v) * ((F.rd exB64 (F.face1d ⟨2, 0⟩ 0 3 0)) [i + 1]).v| ∧
        F.Within 7 v0 ((2 : B64).v / ((exDxB 0).v * (exDxB 0).v) * ((F.rd exB64 (F.face1d ⟨2, 0⟩ 0 3 0)) [i]).v + (2 : B64).v / ((exDxB 0).v * (exDxB 0).v) * ((F.rd exB64 (F.face1d ⟨2, 0⟩ 0 3 0)) [i + 1]).v + (3 : B64).v * ((F.rd exB64 (F.cell1d ⟨0, 0⟩ 0 3 0)) [i]).v)
          (|(2 : B64).v / ((exDxB 0).v * (exDxB 0).v) * ((F.rd exB64 (F.face1d ⟨2, 0⟩ 0 3 0)) [i]).v| + |(2 : B64).v / ((exDxB 0).v * (exDxB 0).v) * ((F.rd exB64 (F.face1d ⟨2, 0⟩ 0 3 0)) [i + 1]).v| + |(3 : B64).v * ((F.rd exB64 (F.cell1d ⟨0, 0⟩ 0 3 0)) [i]).v|)) :=
  C82_coef_v1_1d revBackend_ok seqBackend_ok (by decide) ⟨by decide, by decide⟩ ⟨by decide, by decide⟩ (by decide) exDxB_ne (by ex_argsB) (exB64_holds (exRat_ok rfl (by decide) (by decide))) (exB64_holds (exRat_ok rfl (by decide) (by decide)))

/-- The coefficients left by the off-diagonal and diagonal kernels: each off-diagonal one is off by at most 5 of its rounding errors, the diagonal one by
at most 7 rounding errors of the sum of the sizes of its terms, so of itself when the terms have one sign. -/
theorem C82_coef_v2_1d {i0 i1 bi0 bi1 sgcw : Int} {alpha beta : B64} {dx : Nat → B64} {b0 st : Ptr} {β1 β2 : Backend} {m : Mem B64} {B0 : List Int → B64}
    (hβ1 : ValidBackend β1) (hβ2 : ValidBackend β2) (hi : i0 ≤ i1) (hbi : bi0 ≤ i0 ∧ i1 ≤ bi1)  (hg : 0 ≤ sgcw) (hdx : ∀ n, (dx n).v ≠ 0)
    (h : F.Args m [(F.face1d b0 bi0 bi1 0)] [(F.st1d st i0 i1 sgcw)]) (hB0 : F.Holds m (F.face1d b0 bi0 bi1 0) B0) :
    ∃ m1 m2, Cuda.offdiag1d i0 i1 bi0 bi1 dx beta b0 sgcw st β1 m = .ok m1 ∧ Cuda.v2diag1d i0 i1 alpha sgcw st β2 m1 = .ok m2 ∧
      (∀ i, i0 ≤ i → i ≤ i1 → ∃ v0 v1 v2, F.El m2 (F.st1d st i0 i1 sgcw) [0, i] v0 ∧ F.El m2 (F.st1d st i0 i1 sgcw) [1, i] v1 ∧ F.El m2 (F.st1d st i0 i1 sgcw) [2, i] v2 ∧
        F.Within 5 v1 (-(beta.v / ((dx 0).v * (dx 0).v) * (B0 [i]).v)) |beta.v / ((dx 0).v * (dx 0).v) * (B0 [i]).v| ∧
        F.Within 5 v2 (-(beta.v / ((dx 0).v * (dx 0).v) * (B0 [i + 1]).v)) |beta.v / ((dx 0).v * (dx 0).v) * (B0 [i + 1]).v| ∧
        F.Within 7 v0 (beta.v / ((dx 0).v * (dx 0).v) * (B0 [i]).v + beta.v / ((dx 0).v * (dx 0).v) * (B0 [i + 1]).v + alpha.v)
          (|beta.v / ((dx 0).v * (dx 0).v) * (B0 [i]).v| + |beta.v / ((dx 0).v * (dx 0).v) * (B0 [i + 1]).v| + |alpha.v|)) := by
  have h1 : F.Args m [(F.face1d b0 bi0 bi1 0)] [(F.st1d st i0 i1 sgcw)] := h.sub (by intro x hx; simp only [List.mem_cons, List.not_mem_nil, or_false] at hx ⊢; tauto) (by intro x hx; simp only [List.mem_cons, List.not_mem_nil, or_false] at hx ⊢; tauto)
  obtain ⟨m1, q1, -, K1, V⟩ := offdiag1_run (dx := dx) (beta := beta) hi hg hbi h1
  obtain ⟨m1', c1, e1⟩ := C49_offdiag_1d (dx := dx) (beta := beta) hβ1 B64.neg_div hi hbi hg h1
  obtain rfl : m1 = m1' := Except.ok.inj (q1.symm.trans e1)
  have h2 : F.Args m1 [] [(F.st1d st i0 i1 sgcw)] := by
    refine ⟨fun a ha => K1.ok (h.ok a ?_), ?_⟩
    · simp only [List.mem_cons, List.mem_append, List.not_mem_nil, or_false, false_or] at ha ⊢; tauto
    · simp
  obtain ⟨m2, q2, -, K2, W, Q⟩ := v2diag1_run (alpha := alpha) hi hg  h2
  obtain ⟨m2', c2, e2⟩ := C49_v2diag_1d (alpha := alpha) hβ2 B64.neg_one_mul hi  hg h2
  obtain rfl : m2 = m2' := Except.ok.inj (q2.symm.trans e2)
  refine ⟨m1, m2, c1, c2, fun i h0 h1 => ?_⟩
  obtain ⟨V1, V2⟩ := V i h0 h1
  have w := W i h0 h1
  have z1 := Q i 1 h0 h1 (by omega) (by omega)
  rw [V1.rd] at z1
  have z2 := Q i 2 h0 h1 (by omega) (by omega)
  rw [V2.rd] at z2
  rw [V1.rd, V2.rd] at w
  rw [(hB0 [i] (by in_bounds)).rd] at z1
  rw [(hB0 [i + 1] (by in_bounds)).rd] at z2
  rw [(hB0 [i] (by in_bounds)).rd, (hB0 [i + 1] (by in_bounds)).rd] at w
  refine ⟨_, _, _, w, F.el_of_rd (K2.ok (K1.ok (h.ok (F.st1d st i0 i1 sgcw) (by simp)))) (by in_bounds) z1, F.el_of_rd (K2.ok (K1.ok (h.ok (F.st1d st i0 i1 sgcw) (by simp)))) (by in_bounds) z2, (near_off (hdx 0)).within (by ulps), (near_off (hdx 0)).within (by ulps), ?_⟩
  refine Near.within (k := 6) (Near.eqs ((((near_off (hdx 0)).add (near_off (hdx 0))).neg).add (Near.datum alpha)) (by ring) ?_) (by ulps)
  rfl

example :
    ∃ m1 m2, Cuda.offdiag1d 0 3 0 3 exDxB 2 ⟨2, 0⟩ 1 ⟨9, 0⟩ revBackend exB64 = .ok m1 ∧ Cuda.v2diag1d 0 3 3 1 ⟨9, 0⟩ seqBackend m1 = .ok m2 ∧
      (∀ i, 0 ≤ i → i ≤ 3 → ∃ v0 v1 v2, F.El m2 (F.st1d ⟨9, 0⟩ 0 3 1) [0, i] v0 ∧ F.El m2 (F.st1d ⟨9, 0⟩ 0 3 1) [1, i] v1 ∧ F.El m2 (F.st1d ⟨9, 0⟩ 0 3 1) [2, i] v2 ∧
        F.Within 5 v1 (-((2 : B64).v / ((exDxB 0).v * (exDxB 0).v) * ((F.rd exB64 (F.face1d ⟨2, 0⟩ 0 3 0)) [i]).v)) |(2 : B64).v / ((exDxB 0).v * (exDxB 0).v) * ((F.rd exB64 (F.face1d ⟨2, 0⟩ 0 3 0)) [i]).v| ∧
        F.Within 5 v2 (-((2 : B64).v / ((exDxB 0).v * (exDxB 0).v) * ((F.rd exB64 (F.face1d ⟨2, 0⟩ 0 3 0)) [i + 1]).v)) |(2 : B64).v / ((exDxB 0).v * (exDxB 0).v) * ((F.rd exB64 (F.face1d ⟨2, 0⟩ 0 3 0)) [i + 1]).v| ∧
        F.Within 7 v0 ((2 : B64).v / ((exDxB 0).v * (exDxB 0).v) * ((F.rd exB64 (F.face1d ⟨2, 0⟩ 0 3 0)) [i]).v + (2 : B64).v / ((exDxB 0).v * (exDxB 0).v) * ((F.rd exB64 (F.face1d ⟨2, 0⟩ 0 3 0)) [i + 1]).v + (3 : B64).v)
          (|(2 : B64).v / ((exDxB 0).v * (exDxB 0).v) * ((F.rd exB64 (F.face1d ⟨2, 0⟩ 0 3 0)) [i]).v| + |(2 : B64).v / ((exDxB 0).v * (exDxB 0).v) * ((F.rd exB64 (F.face1d ⟨2, 0⟩ 0 3 0)) [i + 1]).v| + |(3 : B64).v|)) :=
  C82_coef_v2_1d revBackend_ok seqBackend_ok (by decide) ⟨by decide, by decide⟩  (by decide) exDxB_ne (by ex_argsB) (exB64_holds (exRat_ok rfl (by decide) (by decide)))

/-- The coefficients left by the off-diagonal and diagonal kernels: each off-diagonal one is off by at most 4 of its rounding errors, the diagonal one by
at most 5 rounding errors of the sum of the sizes of its terms, so of itself when the terms have one sign. -/
theorem C82_coef_poisson_1d {i0 i1 sgcw : Int} {beta : B64} {dx : Nat → B64} {st : Ptr} {β1 β2 : Backend} {m : Mem B64}
    (hβ1 : ValidBackend β1) (hβ2 : ValidBackend β2) (hi : i0 ≤ i1)   (hg : 0 ≤ sgcw) (hdx : ∀ n, (dx n).v ≠ 0)
    (h : F.Args m [] [(F.st1d st i0 i1 sgcw)])  :
    ∃ m1 m2, Cuda.poissonOffdiag1d i0 i1 dx beta sgcw st β1 m = .ok m1 ∧ Cuda.poissonDiag1d i0 i1 sgcw st β2 m1 = .ok m2 ∧
      (∀ i, i0 ≤ i → i ≤ i1 → ∃ v0 v1 v2, F.El m2 (F.st1d st i0 i1 sgcw) [0, i] v0 ∧ F.El m2 (F.st1d st i0 i1 sgcw) [1, i] v1 ∧ F.El m2 (F.st1d st i0 i1 sgcw) [2, i] v2 ∧
        F.Within 4 v1 (-(beta.v / ((dx 0).v * (dx 0).v))) |beta.v / ((dx 0).v * (dx 0).v)| ∧
        F.Within 4 v2 (-(beta.v / ((dx 0).v * (dx 0).v))) |beta.v / ((dx 0).v * (dx 0).v)| ∧
        F.Within 5 v0 (beta.v / ((dx 0).v * (dx 0).v) + beta.v / ((dx 0).v * (dx 0).v))
          (|beta.v / ((dx 0).v * (dx 0).v)| + |beta.v / ((dx 0).v * (dx 0).v)|)) := by
  have h1 := h
  obtain ⟨m1, q1, -, K1, V⟩ := poffdiag1_run (dx := dx) (beta := beta) hi hg  h1
  obtain ⟨m1', c1, e1⟩ := C49_poisson_offdiag_1d (dx := dx) (beta := beta) hβ1 B64.neg_div hi  hg h1
  obtain rfl : m1 = m1' := Except.ok.inj (q1.symm.trans e1)
  have h2 : F.Args m1 [] [(F.st1d st i0 i1 sgcw)] := by
    refine ⟨fun a ha => K1.ok (h.ok a ?_), ?_⟩
    · simp only [List.mem_cons, List.mem_append, List.not_mem_nil, or_false, false_or] at ha ⊢; tauto
    · simp
  obtain ⟨m2, q2, -, K2, W, Q⟩ := pdiag1_run hi hg  h2
  obtain ⟨m2', c2, e2⟩ := C49_poisson_diag_1d hβ2 B64.neg_one_mul hi  hg h2
  obtain rfl : m2 = m2' := Except.ok.inj (q2.symm.trans e2)
  refine ⟨m1, m2, c1, c2, fun i h0 h1 => ?_⟩
  obtain ⟨V1, V2⟩ := V i h0 h1
  have w := W i h0 h1
  have z1 := Q i 1 h0 h1 (by omega) (by omega)
  rw [V1.rd] at z1
  have z2 := Q i 2 h0 h1 (by omega) (by omega)
  rw [V2.rd] at z2
  rw [V1.rd, V2.rd] at w
  refine ⟨_, _, _, w, F.el_of_rd (K2.ok (K1.ok (h.ok (F.st1d st i0 i1 sgcw) (by simp)))) (by in_bounds) z1, F.el_of_rd (K2.ok (K1.ok (h.ok (F.st1d st i0 i1 sgcw) (by simp)))) (by in_bounds) z2, (near_off1 (hdx 0)).within (by ulps), (near_off1 (hdx 0)).within (by ulps), ?_⟩
  refine Near.within (k := 4) (Near.eqs (((near_off1 (hdx 0)).add (near_off1 (hdx 0))).neg) (by ring) ?_) (by ulps)
  rfl

example :
    ∃ m1 m2, Cuda.poissonOffdiag1d 0 3 exDxB 2 1 ⟨9, 0⟩ revBackend exB64 = .ok m1 ∧ Cuda.poissonDiag1d 0 3 1 ⟨9, 0⟩ seqBackend m1 = .ok m2 ∧
      (∀ i, 0 ≤ i → i ≤ 3 → ∃ v0 v1 v2, F.El m2 (F.st1d ⟨9, 0⟩ 0 3 1) [0, i] v0 ∧ F.El m2 (F.st1d ⟨9, 0⟩ 0 3 1) [1, i] v1 ∧ F.El m2 (F.st1d ⟨9, 0⟩ 0 3 1) [2, i] v2 ∧
        F.Within 4 v1 (-((2 : B64).v / ((exDxB 0).v * (exDxB 0).v))) |(2 : B64).v / ((exDxB 0).v * (exDxB 0).v)| ∧
        F.Within 4 v2 (-((2 : B64).v / ((exDxB 0).v * (exDxB 0).v))) |(2 : B64).v / ((exDxB 0).v * (exDxB 0).v)| ∧
        F.Within 5 v0 ((2 : B64).v / ((exDxB 0).v * (exDxB 0).v) + (2 : B64).v / ((exDxB 0).v * (exDxB 0).v))
          (|(2 : B64).v / ((exDxB 0).v * (exDxB 0).v)| + |(2 : B64).v / ((exDxB 0).v * (exDxB 0).v)|)) :=
  C82_coef_poisson_1d revBackend_ok seqBackend_ok (by decide)   (by decide) exDxB_ne (by ex_argsB) 

/-- The diagonal coefficient of an equation with coefficients of one sign is off by at most 7 of its rounding errors. -/
theorem C82_diag_relative_1d {i0 i1 bi0 bi1 ai0 ai1 sgcw : Int} {alpha beta : B64} {dx : Nat → B64} {a b0 st : Ptr} {β1 β2 : Backend} {m : Mem B64} {B0 A : List Int → B64}
    (hβ1 : ValidBackend β1) (hβ2 : ValidBackend β2) (hi : i0 ≤ i1) (hbi : bi0 ≤ i0 ∧ i1 ≤ bi1) (hai : ai0 ≤ i0 ∧ i1 ≤ ai1) (hg : 0 ≤ sgcw) (hdx : ∀ n, (dx n).v ≠ 0)
    (h : F.Args m [(F.face1d b0 bi0 bi1 0), (F.cell1d a ai0 ai1 0)] [(F.st1d st i0 i1 sgcw)]) (hB0 : F.Holds m (F.face1d b0 bi0 bi1 0) B0) (hA : F.Holds m (F.cell1d a ai0 ai1 0) A)
    (sa : ∀ p, 0 ≤ alpha.v * (A p).v) (s0 : ∀ p, 0 ≤ beta.v * (B0 p).v) :
    ∃ m1 m2, Cuda.offdiag1d i0 i1 bi0 bi1 dx beta b0 sgcw st β1 m = .ok m1 ∧ Cuda.v1diag1d i0 i1 ai0 ai1 alpha a sgcw st β2 m1 = .ok m2 ∧
      (∀ i, i0 ≤ i → i ≤ i1 → ∃ v, F.El m2 (F.st1d st i0 i1 sgcw) [0, i] v ∧
        F.Within 7 v (beta.v / ((dx 0).v * (dx 0).v) * (B0 [i]).v + beta.v / ((dx 0).v * (dx 0).v) * (B0 [i + 1]).v + alpha.v * (A [i]).v)
          |beta.v / ((dx 0).v * (dx 0).v) * (B0 [i]).v + beta.v / ((dx 0).v * (dx 0).v) * (B0 [i + 1]).v + alpha.v * (A [i]).v|) := by
  obtain ⟨m1, m2, c1, c2, V⟩ := C82_coef_v1_1d (alpha := alpha) (beta := beta) hβ1 hβ2 hi hbi hai hg hdx h hB0 hA
  refine ⟨m1, m2, c1, c2, fun i h0 h1 => ?_⟩
  obtain ⟨v0, -, -, e0, -, -, -, -, w⟩ := V i h0 h1
  refine ⟨v0, e0, ?_⟩
  have t0 : ∀ p, 0 ≤ beta.v / ((dx 0).v * (dx 0).v) * (B0 p).v := fun p => by
    rw [div_mul_eq_mul_div]; exact div_nonneg (s0 p) (mul_self_nonneg _)
  rw [abs_of_nonneg (sa _), abs_of_nonneg (t0 _), abs_of_nonneg (t0 _)] at w
  rw [abs_of_nonneg]
  · exact w
  · repeat' apply add_nonneg
    all_goals first | exact sa _ | exact t0 _

example :
    ∃ m1 m2, Cuda.offdiag1d 0 3 0 3 exDxB 2 ⟨2, 0⟩ 1 ⟨9, 0⟩ revBackend (wB fun _ _ => 2) = .ok m1 ∧ Cuda.v1diag1d 0 3 0 3 3 ⟨0, 0⟩ 1 ⟨9, 0⟩ seqBackend m1 = .ok m2 ∧
      (∀ i, 0 ≤ i → i ≤ 3 → ∃ v, F.El m2 (F.st1d ⟨9, 0⟩ 0 3 1) [0, i] v ∧
        F.Within 7 v ((2 : B64).v / ((exDxB 0).v * (exDxB 0).v) * (2 : B64).v + (2 : B64).v / ((exDxB 0).v * (exDxB 0).v) * (2 : B64).v + (3 : B64).v * (2 : B64).v)
          |(2 : B64).v / ((exDxB 0).v * (exDxB 0).v) * (2 : B64).v + (2 : B64).v / ((exDxB 0).v * (exDxB 0).v) * (2 : B64).v + (3 : B64).v * (2 : B64).v|) :=
  C82_diag_relative_1d (A := fun _ => 2) (B0 := fun _ => 2) revBackend_ok seqBackend_ok (by decide) ⟨by decide, by decide⟩ ⟨by decide, by decide⟩ (by decide) exDxB_ne (by w_args) (wB_two (exRat_ok rfl (by decide) (by decide))) (wB_two (exRat_ok rfl (by decide) (by decide))) (fun _ => by decide +kernel) (fun _ => by decide +kernel)

/-- The coefficients left by the off-diagonal and diagonal kernels: each off-diagonal one is off by at most 5 of its rounding errors, the diagonal one by
at most 9 rounding errors of the sum of the sizes of its terms, so of itself when the terms have one sign. -/
theorem C82_coef_v1_2d {i0 j0 i1 j1 bi0 bj0 bi1 bj1 ai0 aj0 ai1 aj1 sgcw : Int} {alpha beta : B64} {dx : Nat → B64} {a b0 b1 st : Ptr} {β1 β2 : Backend} {m : Mem B64} {B0 B1 A : List Int → B64}
    (hβ1 : ValidBackend β1) (hβ2 : ValidBackend β2) (hi : i0 ≤ i1) (hj : j0 ≤ j1) (hbi : bi0 ≤ i0 ∧ i1 ≤ bi1) (hbj : bj0 ≤ j0 ∧ j1 ≤ bj1) (hai : ai0 ≤ i0 ∧ i1 ≤ ai1) (haj : aj0 ≤ j0 ∧ j1 ≤ aj1) (hg : 0 ≤ sgcw) (hdx : ∀ n, (dx n).v ≠ 0)
    (h : F.Args m [(F.face2d0 b0 bi0 bj0 bi1 bj1 0), (F.face2d1 b1 bi0 bj0 bi1 bj1 0), (F.cell2d a ai0 aj0 ai1 aj1 0)] [(F.st2d st i0 j0 i1 j1 sgcw)]) (hB0 : F.Holds m (F.face2d0 b0 bi0 bj0 bi1 bj1 0) B0) (hB1 : F.Holds m (F.face2d1 b1 bi0 bj0 bi1 bj1 0) B1) (hA : F.Holds m (F.cell2d a ai0 aj0 ai1 aj1 0) A) :
    ∃ m1 m2, Cuda.offdiag2d i0 j0 i1 j1 bi0 bj0 bi1 bj1 dx beta b0 b1 sgcw st β1 m = .ok m1 ∧ Cuda.v1diag2d i0 j0 i1 j1 ai0 aj0 ai1 aj1 alpha a sgcw st β2 m1 = .ok m2 ∧
      (∀ i j, i0 ≤ i → i ≤ i1 → j0 ≤ j → j ≤ j1 → ∃ v0 v1 v2 v3 v4, F.El m2 (F.st2d st i0 j0 i1 j1 sgcw) [0, i, j] v0 ∧ F.El m2 (F.st2d st i0 j0 i1 j1 sgcw) [1, i, j] v1 ∧ F.El m2 (F.st2d st i0 j0 i1 j1 sgcw) [2, i, j] v2 ∧ F.El m2 (F.st2d st i0 j0 i1 j1 sgcw) [3, i, j] v3 ∧ F.El m2 (F.st2d st i0 j0 i1 j1 sgcw) [4, i, j] v4 ∧
        F.Within 5 v1 (-(beta.v / ((dx 0).v * (dx 0).v) * (B0 [i, j]).v)) |beta.v / ((dx 0).v * (dx 0).v) * (B0 [i, j]).v| ∧
        F.Within 5 v2 (-(beta.v / ((dx 0).v * (dx 0).v) * (B0 [i + 1, j]).v)) |beta.v / ((dx 0).v * (dx 0).v) * (B0 [i + 1, j]).v| ∧
        F.Within 5 v3 (-(beta.v / ((dx 1).v * (dx 1).v) * (B1 [j, i]).v)) |beta.v / ((dx 1).v * (dx 1).v) * (B1 [j, i]).v| ∧
        F.Within 5 v4 (-(beta.v / ((dx 1).v * (dx 1).v) * (B1 [j + 1, i]).v)) |beta.v / ((dx 1).v * (dx 1).v) * (B1 [j + 1, i]).v| ∧
        F.Within 9 v0 (beta.v / ((dx 0).v * (dx 0).v) * (B0 [i, j]).v + beta.v / ((dx 0).v * (dx 0).v) * (B0 [i + 1, j]).v + beta.v / ((dx 1).v * (dx 1).v) * (B1 [j, i]).v + beta.v / ((dx 1).v * (dx 1).v) * (B1 [j + 1, i]).v + alpha.v * (A [i, j]).v)
          (|beta.v / ((dx 0).v * (dx 0).v) * (B0 [i, j]).v| + |beta.v / ((dx 0).v * (dx 0).v) * (B0 [i + 1, j]).v| + |beta.v / ((dx 1).v * (dx 1).v) * (B1 [j, i]).v| + |beta.v / ((dx 1).v * (dx 1).v) * (B1 [j + 1, i]).v| + |alpha.v * (A [i, j]).v|)) := by
  have h1 : F.Args m [(F.face2d0 b0 bi0 bj0 bi1 bj1 0), (F.face2d1 b1 bi0 bj0 bi1 bj1 0)] [(F.st2d st i0 j0 i1 j1 sgcw)] := h.sub (by intro x hx; simp only [List.mem_cons, List.not_mem_nil, or_false] at hx ⊢; tauto) (by intro x hx; simp only [List.mem_cons, List.not_mem_nil, or_false] at hx ⊢; tauto)
  obtain ⟨m1, q1, -, K1, V⟩ := offdiag2_run (dx := dx) (beta := beta) hi hj hg hbi hbj h1
  obtain ⟨m1', c1, e1⟩ := C49_offdiag_2d (dx := dx) (beta := beta) hβ1 B64.neg_div hi hj hbi hbj hg h1
  obtain rfl : m1 = m1' := Except.ok.inj (q1.symm.trans e1)
  have h2 : F.Args m1 [(F.cell2d a ai0 aj0 ai1 aj1 0)] [(F.st2d st i0 j0 i1 j1 sgcw)] := by
    refine ⟨fun a ha => K1.ok (h.ok a ?_), ?_⟩
    · simp only [List.mem_cons, List.mem_append, List.not_mem_nil, or_false, false_or] at ha ⊢; tauto
    · simp only [List.mem_cons, List.not_mem_nil, or_false, forall_eq_or_imp, forall_eq]
      exact h.apart _ (by simp) _ (by simp)
  obtain ⟨m2, q2, -, K2, W, Q⟩ := v1diag2_run (alpha := alpha) hi hj hg hai haj h2
  obtain ⟨m2', c2, e2⟩ := C49_v1diag_2d (alpha := alpha) hβ2 B64.neg_one_mul hi hj hai haj hg h2
  obtain rfl : m2 = m2' := Except.ok.inj (q2.symm.trans e2)
  refine ⟨m1, m2, c1, c2, fun i j h0 h1 h2 h3 => ?_⟩
  obtain ⟨V1, V2, V3, V4⟩ := V i j h0 h1 h2 h3
  have w := W i j h0 h1 h2 h3
  have z1 := Q i j 1 h0 h1 h2 h3 (by omega) (by omega)
  rw [V1.rd] at z1
  have z2 := Q i j 2 h0 h1 h2 h3 (by omega) (by omega)
  rw [V2.rd] at z2
  have z3 := Q i j 3 h0 h1 h2 h3 (by omega) (by omega)
  rw [V3.rd] at z3
  have z4 := Q i j 4 h0 h1 h2 h3 (by omega) (by omega)
  rw [V4.rd] at z4
  rw [V1.rd, V2.rd, V3.rd, V4.rd] at w
  rw [(hB0 [i, j] (by in_bounds)).rd] at z1
  rw [(hB0 [i + 1, j] (by in_bounds)).rd] at z2
  rw [(hB1 [j, i] (by in_bounds)).rd] at z3
  rw [(hB1 [j + 1, i] (by in_bounds)).rd] at z4
  have ea : F.rd m1 (F.cell2d a ai0 aj0 ai1 aj1 0) [i, j] = A [i, j] := (K1.rd (by intro o ho; refine h.apart o ?_ _ (by simp); simp only [List.mem_cons, List.not_mem_nil, or_false] at ho ⊢; tauto) (by in_bounds)).trans (hA [i, j] (by in_bounds)).rd
  rw [(hB0 [i, j] (by in_bounds)).rd, (hB0 [i + 1, j] (by in_bounds)).rd, (hB1 [j, i] (by in_bounds)).rd, (hB1 [j + 1, i] (by in_bounds)).rd, ea] at w
  refine ⟨_, _, _, _, _, w, F.el_of_rd (K2.ok (K1.ok (h.ok (F.st2d st i0 j0 i1 j1 sgcw) (by simp)))) (by in_bounds) z1, F.el_of_rd (K2.ok (K1.ok (h.ok (F.st2d st i0 j0 i1 j1 sgcw) (by simp)))) (by in_bounds) z2, F.el_of_rd (K2.ok (K1.ok (h.ok (F.st2d st i0 j0 i1 j1 sgcw) (by simp)))) (by in_bounds) z3, F.el_of_rd (K2.ok (K1.ok (h.ok (F.st2d st i0 j0 i1 j1 sgcw) (by simp)))) (by in_bounds) z4, (near_off (hdx 0)).within (by ulps), (near_off (hdx 0)).within (by ulps), (near_off (hdx 1)).within (by ulps), (near_off (hdx 1)).within (by ulps), ?_⟩
  refine Near.within (k := 8) (Near.eqs ((((((near_off (hdx 0)).add (near_off (hdx 0))).add (near_off (hdx 1))).add (near_off (hdx 1))).neg).add ((Near.datum alpha).mul (Near.datum _))) (by ring) ?_) (by ulps)
  rw [abs_mul alpha.v]

example :
    ∃ m1 m2, Cuda.offdiag2d 0 1 2 3 0 1 2 3 exDxB 2 ⟨2, 0⟩ ⟨3, 0⟩ 1 ⟨9, 0⟩ revBackend exB64 = .ok m1 ∧ Cuda.v1diag2d 0 1 2 3 0 1 2 3 3 ⟨0, 0⟩ 1 ⟨9, 0⟩ seqBackend m1 = .ok m2 ∧
      (∀ i j, 0 ≤ i → i ≤ 2 → 1 ≤ j → j ≤ 3 → ∃ v0 v1 v2 v3 v4, F.El m2 (F.st2d ⟨9, 0⟩ 0 1 2 3 1) [0, i, j] v0 ∧ F.El m2 (F.st2d ⟨9, 0⟩ 0 1 2 3 1) [1, i, j] v1 ∧ F.El m2 (F.st2d ⟨9, 0⟩ 0 1 2 3 1) [2, i, j] v2 ∧ F.El m2 (F.st2d ⟨9, 0⟩ 0 1 2 3 1) [3, i, j] v3 ∧ F.El m2 (F.st2d ⟨9, 0⟩ 0 1 2 3 1) [4, i, j] v4 ∧
        F.Within 5 v1 (-((2 : B64).v / ((exDxB 0).v * (exDxB 0).v) * ((F.rd exB64 (F.face2d0 ⟨2, 0⟩ 0 1 2 3 0)) [i, j]).v)) |(2 : B64).v / ((exDxB 0).v * (exDxB 0).v) * ((F.rd exB64 (F.face2d0 ⟨2, 0⟩ 0 1 2 3 0)) [i, j]).v| ∧
        F.Within 5 v2 (-((2 : B64).v / ((exDxB 0).v * (exDxB 0).v) * ((F.rd exB64 (F.face2d0 ⟨2, 0⟩ 0 1 2 3 0)) [i + 1, j]).v)) |(2 : B64).v / ((exDxB 0).v * (exDxB 0).v) * ((F.rd exB64 (F.face2d0 ⟨2, 0⟩ 0 1 2 3 0)) [i + 1, j]).v| ∧
        F.Within 5 v3 (-((2 : B64).v / ((exDxB 1).v * (exDxB 1).v) * ((F.rd exB64 (F.face2d1 ⟨3, 0⟩ 0 1 2 3 0)) [j, i]).v)) |(2 : B64).v / ((exDxB 1).v * (exDxB 1).v) * ((F.rd exB64 (F.face2d1 ⟨3, 0⟩ 0 1 2 3 0)) [j, i]).v| ∧
        F.Within 5 v4 (-((2 : B64).v / ((exDxB 1).v * (exDxB 1).v) * ((F.rd exB64 (F.face2d1 ⟨3, 0⟩ 0 1 2 3 0)) [j + 1, i]).v)) |(2 : B64).v / ((exDxB 1).v * (exDxB 1).v) * ((F.rd exB64 (F.face2d1 ⟨3, 0⟩ 0 1 2 3 0)) [j + 1, i]).v| ∧
        F.Within 9 v0 ((2 : B64).v / ((exDxB 0).v * (exDxB 0).v) * ((F.rd exB64 (F.face2d0 ⟨2, 0⟩ 0 1 2 3 0)) [i, j]).v + (2 : B64).v / ((exDxB 0).v * (exDxB 0).v) * ((F.rd exB64 (F.face2d0 ⟨2, 0⟩ 0 1 2 3 0)) [i + 1, j]).v + (2 : B64).v / ((exDxB 1).v * (exDxB 1).v) * ((F.rd exB64 (F.face2d1 ⟨3, 0⟩ 0 1 2 3 0)) [j, i]).v + (2 : B64).v / ((exDxB 1).v * (exDxB 1).v) * ((F.rd exB64 (F.face2d1 ⟨3, 0⟩ 0 1 2 3 0)) [j + 1, i]).v + (3 : B64).v * ((F.rd exB64 (F.cell2d ⟨0, 0⟩ 0 1 2 3 0)) [i, j]).v)
          (|(2 : B64).v / ((exDxB 0).v * (exDxB 0).v) * ((F.rd exB64 (F.face2d0 ⟨2, 0⟩ 0 1 2 3 0)) [i, j]).v| + |(2 : B64).v / ((exDxB 0).v * (exDxB 0).v) * ((F.rd exB64 (F.face2d0 ⟨2, 0⟩ 0 1 2 3 0)) [i + 1, j]).v| + |(2 : B64).v / ((exDxB 1).v * (exDxB 1).v) * ((F.rd exB64 (F.face2d1 ⟨3, 0⟩ 0 1 2 3 0)) [j, i]).v| + |(2 : B64).v / ((exDxB 1).v * (exDxB 1).v) * ((F.rd exB64 (F.face2d1 ⟨3, 0⟩ 0 1 2 3 0)) [j + 1, i]).v| + |(3 : B64).v * ((F.rd exB64 (F.cell2d ⟨0, 0⟩ 0 1 2 3 0)) [i, j]).v|)) :=
  C82_coef_v1_2d revBackend_ok seqBackend_ok (by decide) (by decide) ⟨by decide, by decide⟩ ⟨by decide, by decide⟩ ⟨by decide, by decide⟩ ⟨by decide, by decide⟩ (by decide) exDxB_ne (by ex_argsB) (exB64_holds (exRat_ok rfl (by decide) (by decide))) (exB64_holds (exRat_ok rfl (by decide) (by decide))) (exB64_holds (exRat_ok rfl (by decide) (by decide)))

/-- The coefficients left by the off-diagonal and diagonal kernels: each off-diagonal one is off by at most 5 of its rounding errors, the diagonal one by
at most 9 rounding errors of the sum of the sizes of its terms, so of itself when the terms have one sign. -/
theorem C82_coef_v2_2d {i0 j0 i1 j1 bi0 bj0 bi1 bj1 sgcw : Int} {alpha beta : B64} {dx : Nat → B64} {b0 b1 st : Ptr} {β1 β2 : Backend} {m : Mem B64} {B0 B1 : List Int → B64}
    (hβ1 : ValidBackend β1) (hβ2 : ValidBackend β2) (hi : i0 ≤ i1) (hj : j0 ≤ j1) (hbi : bi0 ≤ i0 ∧ i1 ≤ bi1) (hbj : bj0 ≤ j0 ∧ j1 ≤ bj1)  (hg : 0 ≤ sgcw) (hdx : ∀ n, (dx n).v ≠ 0)
    (h : F.Args m [(F.face2d0 b0 bi0 bj0 bi1 bj1 0), (F.face2d1 b1 bi0 bj0 bi1 bj1 0)] [(F.st2d st i0 j0 i1 j1 sgcw)]) (hB0 : F.Holds m (F.face2d0 b0 bi0 bj0 bi1 bj1 0) B0) (hB1 : F.Holds m (F.face2d1 b1 bi0 bj0 bi1 bj1 0) B1) :
    ∃ m1 m2, Cuda.offdiag2d i0 j0 i1 j1 bi0 bj0 bi1 bj1 dx beta b0 b1 sgcw st β1 m = .ok m1 ∧ Cuda.v2diag2d i0 j0 i1 j1 alpha sgcw st β2 m1 = .ok m2 ∧
      (∀ i j, i0 ≤ i → i ≤ i1 → j0 ≤ j → j ≤ j1 → ∃ v0 v1 v2 v3 v4, F.El m2 (F.st2d st i0 j0 i1 j1 sgcw) [0, i, j] v0 ∧ F.El m2 (F.st2d st i0 j0 i1 j1 sgcw) [1, i, j] v1 ∧ F.El m2 (F.st2d st i0 j0 i1 j1 sgcw) [2, i, j] v2 ∧ F.El m2 (F.st2d st i0 j0 i1 j1 sgcw) [3, i, j] v3 ∧ F.El m2 (F.st2d st i0 j0 i1 j1 sgcw) [4, i, j] v4 ∧
        F.Within 5 v1 (-(beta.v / ((dx 0).v * (dx 0).v) * (B0 [i, j]).v)) |beta.v / ((dx 0).v * (dx 0).v) * (B0 [i, j]).v| ∧
        F.Within 5 v2 (-(beta.v / ((dx 0).v * (dx 0).v) * (B0 [i + 1, j]).v)) |beta.v / ((dx 0).v * (dx 0).v) * (B0 [i + 1, j]).v| ∧
        F.Within 5 v3 (-(beta.v / ((dx 1).v * (dx 1).v) * (B1 [j, i]).v)) |beta.v / ((dx 1).v * (dx 1).v) * (B1 [j, i]).v| ∧
        F.Within 5 v4 (-(beta.v / ((dx 1).v * (dx 1).v) * (B1 [j + 1, i]).v)) |beta.v / ((dx 1).v * (dx 1).v) * (B1 [j + 1, i]).v| ∧
        F.Within 9 v0 (beta.v / ((dx 0).v * (dx 0).v) * (B0 [i, j]).v + beta.v / ((dx 0).v * (dx 0).v) * (B0 [i + 1, j]).v + beta.v / ((dx 1).v * (dx 1).v) * (B1 [j, i]).v + beta.v / ((dx 1).v * (dx 1).v) * (B1 [j + 1, i]).v + alpha.v)
          (|beta.v / ((dx 0).v * (dx 0).v) * (B0 [i, j]).v| + |beta.v / ((dx 0).v * (dx 0).v) * (B0 [i + 1, j]).v| + |beta.v / ((dx 1).v * (dx 1).v) * (B1 [j, i]).v| + |beta.v / ((dx 1).v * (dx 1).v) * (B1 [j + 1, i]).v| + |alpha.v|)) := by
  have h1 : F.Args m [(F.face2d0 b0 bi0 bj0 bi1 bj1 0), (F.face2d1 b1 bi0 bj0 bi1 bj1 0)] [(F.st2d st i0 j0 i1 j1 sgcw)] := h.sub (by intro x hx; simp only [List.mem_cons, List.not_mem_nil, or_false] at hx ⊢; tauto) (by intro x hx; simp only [List.mem_cons, List.not_mem_nil, or_false] at hx ⊢; tauto)
  obtain ⟨m1, q1, -, K1, V⟩ := offdiag2_run (dx := dx) (beta := beta) hi hj hg hbi hbj h1
  obtain ⟨m1', c1, e1⟩ := C49_offdiag_2d (dx := dx) (beta := beta) hβ1 B64.neg_div hi hj hbi hbj hg h1
  obtain rfl : m1 = m1' := Except.ok.inj (q1.symm.trans e1)
  have h2 : F.Args m1 [] [(F.st2d st i0 j0 i1 j1 sgcw)] := by
    refine ⟨fun a ha => K1.ok (h.ok a ?_), ?_⟩
    · simp only [List.mem_cons, List.mem_append, List.not_mem_nil, or_false, false_or] at ha ⊢; tauto
    · simp
  obtain ⟨m2, q2, -, K2, W, Q⟩ := v2diag2_run (alpha := alpha) hi hj hg  h2
  obtain ⟨m2', c2, e2⟩ := C49_v2diag_2d (alpha := alpha) hβ2 B64.neg_one_mul hi hj  hg h2
  obtain rfl : m2 = m2' := Except.ok.inj (q2.symm.trans e2)
  refine ⟨m1, m2, c1, c2, fun i j h0 h1 h2 h3 => ?_⟩
  obtain ⟨V1, V2, V3, V4⟩ := V i j h0 h1 h2 h3
  have w := W i j h0 h1 h2 h3
  have z1 := Q i j 1 h0 h1 h2 h3 (by omega) (by omega)
  rw [V1.rd] at z1
  have z2 := Q i j 2 h0 h1 h2 h3 (by omega) (by omega)
  rw [V2.rd] at z2
  have z3 := Q i j 3 h0 h1 h2 h3 (by omega) (by omega)
  rw [V3.rd] at z3
  have z4 := Q i j 4 h0 h1 h2 h3 (by omega) (by omega)
  rw [V4.rd] at z4
  rw [V1.rd, V2.rd, V3.rd, V4.rd] at w
  rw [(hB0 [i, j] (by in_bounds)).rd] at z1
  rw [(hB0 [i + 1, j] (by in_bounds)).rd] at z2
  rw [(hB1 [j, i] (by in_bounds)).rd] at z3
  rw [(hB1 [j + 1, i] (by in_bounds)).rd] at z4
  rw [(hB0 [i, j] (by in_bounds)).rd, (hB0 [i + 1, j] (by in_bounds)).rd, (hB1 [j, i] (by in_bounds)).rd, (hB1 [j + 1, i] (by in_bounds)).rd] at w
  refine ⟨_, _, _, _, _, w, F.el_of_rd (K2.ok (K1.ok (h.ok (F.st2d st i0 j0 i1 j1 sgcw) (by simp)))) (by in_bounds) z1, F.el_of_rd (K2.ok (K1.ok (h.ok (F.st2d st i0 j0 i1 j1 sgcw) (by simp)))) (by in_bounds) z2, F.el_of_rd (K2.ok (K1.ok (h.ok (F.st2d st i0 j0 i1 j1 sgcw) (by simp)))) (by in_bounds) z3, F.el_of_rd (K2.ok (K1.ok (h.ok (F.st2d st i0 j0 i1 j1 sgcw) (by simp)))) (by in_bounds) z4, (near_off (hdx 0)).within (by ulps), (near_off (hdx 0)).within (by ulps), (near_off (hdx 1)).within (by ulps), (near_off (hdx 1)).within (by ulps), ?_⟩
  refine Near.within (k := 8) (Near.eqs ((((((near_off (hdx 0)).add (near_off (hdx 0))).add (near_off (hdx 1))).add (near_off (hdx 1))).neg).add (Near.datum alpha)) (by ring) ?_) (by ulps)
  rfl

example :
    ∃ m1 m2, Cuda.offdiag2d 0 1 2 3 0 1 2 3 exDxB 2 ⟨2, 0⟩ ⟨3, 0⟩ 1 ⟨9, 0⟩ revBackend exB64 = .ok m1 ∧ Cuda.v2diag2d 0 1 2 3 3 1 ⟨9, 0⟩ seqBackend m1 = .ok m2 ∧
      (∀ i j, 0 ≤ i → i ≤ 2 → 1 ≤ j → j ≤ 3 → ∃ v0 v1 v2 v3 v4, F.El m2 (F.st2d ⟨9, 0⟩ 0 1 2 3 1) [0, i, j] v0 ∧ F.El m2 (F.st2d ⟨9, 0⟩ 0 1 2 3 1) [1, i, j] v1 ∧ F.El m2 (F.st2d ⟨9, 0⟩ 0 1 2 3 1) [2, i, j] v2 ∧ F.El m2 (F.st2d ⟨9, 0⟩ 0 1 2 3 1) [3, i, j] v3 ∧ F.El m2 (F.st2d ⟨9, 0⟩ 0 1 2 3 1) [4, i, j] v4 ∧
        F.Within 5 v1 (-((2 : B64).v / ((exDxB 0).v * (exDxB 0).v) * ((F.rd exB64 (F.face2d0 ⟨2, 0⟩ 0 1 2 3 0)) [i, j]).v)) |(2 : B64).v / ((exDxB 0).v * (exDxB 0).v) * ((F.rd exB64 (F.face2d0 ⟨2, 0⟩ 0 1 2 3 0)) [i, j]).v| ∧
        F.Within 5 v2 (-((2 : B64).v / ((exDxB 0).v * (exDxB 0).v) * ((F.rd exB64 (F.face2d0 ⟨2, 0⟩ 0 1 2 3 0)) [i + 1, j]).v)) |(2 : B64).v / ((exDxB 0).v * (exDxB 0).v) * ((F.rd exB64 (F.face2d0 ⟨2, 0⟩ 0 1 2 3 0)) [i + 1, j]).v| ∧
        F.Within 5 v3 (-((2 : B64).v / ((exDxB 1).v * (exDxB 1).v) * ((F.rd exB64 (F.face2d1 ⟨3, 0⟩ 0 1 2 3 0)) [j, i]).v)) |(2 : B64).v / ((exDxB 1).v * (exDxB 1).v) * ((F.rd exB64 (F.face2d1 ⟨3, 0⟩ 0 1 2 3 0)) [j, i]).v| ∧
        F.Within 5 v4 (-((2 : B64).v / ((exDxB 1).v * (exDxB 1).v) * ((F.rd exB64 (F.face2d1 ⟨3, 0⟩ 0 1 2 3 0)) [j + 1, i]).v)) |(2 : B64).v / ((exDxB 1).v * (exDxB 1).v) * ((F.rd exB64 (F.face2d1 ⟨3, 0⟩ 0 1 2 3 0)) [j + 1, i]).v| ∧
        F.Within 9 v0 ((2 : B64).v / ((exDxB 0).v * (exDxB 0).v) * ((F.rd exB64 (F.face2d0 ⟨2, 0⟩ 0 1 2 3 0)) [i, j]).v + (2 : B64).v / ((exDxB 0).v * (exDxB 0).v) * ((F.rd exB64 (F.face2d0 ⟨2, 0⟩ 0 1 2 3 0)) [i + 1, j]).v + (2 : B64).v / ((exDxB 1).v * (exDxB 1).v) * ((F.rd exB64 (F.face2d1 ⟨3, 0⟩ 0 1 2 3 0)) [j, i]).v + (2 : B64).v / ((exDxB 1).v * (exDxB 1).v) * ((F.rd exB64 (F.face2d1 ⟨3, 0⟩ 0 1 2 3 0)) [j + 1, i]).v + (3 : B64).v)
          (|(2 : B64).v / ((exDxB 0).v * (exDxB 0).v) * ((F.rd exB64 (F.face2d0 ⟨2, 0⟩ 0 1 2 3 0)) [i, j]).v| + |(2 : B64).v / ((exDxB 0).v * (exDxB 0).v) * ((F.rd exB64 (F.face2d0 ⟨2, 0⟩ 0 1 2 3 0)) [i + 1, j]).v| + |(2 : B64).v / ((exDxB 1).v * (exDxB 1).v) * ((F.rd exB64 (F.face2d1 ⟨3, 0⟩ 0 1 2 3 0)) [j, i]).v| + |(2 : B64).v / ((exDxB 1).v * (exDxB 1).v) * ((F.rd exB64 (F.face2d1 ⟨3, 0⟩ 0 1 2 3 0)) [j + 1, i]).v| + |(3 : B64).v|)) :=
  C82_coef_v2_2d revBackend_ok seqBackend_ok (by decide) (by decide) ⟨by decide, by decide⟩ ⟨by decide, by decide⟩  (by decide) exDxB_ne (by ex_argsB) (exB64_holds (exRat_ok rfl (by decide) (by decide))) (exB64_holds (exRat_ok rfl (by decide) (by decide)))

/-- The coefficients left by the off-diagonal and diagonal kernels: each off-diagonal one is off by at most 4 of its rounding errors, the diagonal one by
at most 7 rounding errors of the sum of the sizes of its terms, so of itself when the terms have one sign. -/
theorem C82_coef_poisson_2d {i0 j0 i1 j1 sgcw : Int} {beta : B64} {dx : Nat → B64} {st : Ptr} {β1 β2 : Backend} {m : Mem B64}
    (hβ1 : ValidBackend β1) (hβ2 : ValidBackend β2) (hi : i0 ≤ i1) (hj : j0 ≤ j1)   (hg : 0 ≤ sgcw) (hdx : ∀ n, (dx n).v ≠ 0)
    (h : F.Args m [] [(F.st2d st i0 j0 i1 j1 sgcw)])  :
    ∃ m1 m2, Cuda.poissonOffdiag2d i0 j0 i1 j1 dx beta sgcw st β1 m = .ok m1 ∧ Cuda.poissonDiag2d i0 j0 i1 j1 sgcw st β2 m1 = .ok m2 ∧
      (∀ i j, i0 ≤ i → i ≤ i1 → j0 ≤ j → j ≤ j1 → ∃ v0 v1 v2 v3 v4, F.El m2 (F.st2d st i0 j0 i1 j1 sgcw) [0, i, j] v0 ∧ F.El m2 (F.st2d st i0 j0 i1 j1 sgcw) [1, i, j] v1 ∧ F.El m2 (F.st2d st i0 j0 i1 j1 sgcw) [2, i, j] v2 ∧ F.El m2 (F.st2d st i0 j0 i1 j1 sgcw) [3, i, j] v3 ∧ F.El m2 (F.st2d st i0 j0 i1 j1 sgcw) [4, i, j] v4 ∧
        F.Within 4 v1 (-(beta.v / ((dx 0).v * (dx 0).v))) |beta.v / ((dx 0).v * (dx 0).v)| ∧
        F.Within 4 v2 (-(beta.v / ((dx 0).v * (dx 0).v))) |beta.v / ((dx 0).v * (dx 0).v)| ∧
        F.Within 4 v3 (-(beta.v / ((dx 1).v * (dx 1).v))) |beta.v / ((dx 1).v * (dx 1).v)| ∧
        F.Within 4 v4 (-(beta.v / ((dx 1).v * (dx 1).v))) |beta.v / ((dx 1).v * (dx 1).v)| ∧
        F.Within 7 v0 (beta.v / ((dx 0).v * (dx 0).v) + beta.v / ((dx 0).v * (dx 0).v) + beta.v / ((dx 1).v * (dx 1).v) + beta.v / ((dx 1).v * (dx 1).v))
          (|beta.v / ((dx 0).v * (dx 0).v)| + |beta.v / ((dx 0).v * (dx 0).v)| + |beta.v / ((dx 1).v * (dx 1).v)| + |beta.v / ((dx 1).v * (dx 1).v)|)) := by
  have h1 := h
  obtain ⟨m1, q1, -, K1, V⟩ := poffdiag2_run (dx := dx) (beta := beta) hi hj hg  h1
  obtain ⟨m1', c1, e1⟩ := C49_poisson_offdiag_2d (dx := dx) (beta := beta) hβ1 B64.neg_div hi hj  hg h1
  obtain rfl : m1 = m1' := Except.ok.inj (q1.symm.trans e1)
  have h2 : F.Args m1 [] [(F.st2d st i0 j0 i1 j1 sgcw)] := by
    refine ⟨fun a ha => K1.ok (h.ok a ?_), ?_⟩
    · simp only [List.mem_cons, List.mem_append, List.not_mem_nil, or_false, false_or] at ha ⊢; tauto
    · simp
  obtain ⟨m2, q2, -, K2, W, Q⟩ := pdiag2_run hi hj hg  h2
  obtain ⟨m2', c2, e2⟩ := C49_poisson_diag_2d hβ2 B64.neg_one_mul hi hj  hg h2
  obtain rfl : m2 = m2' := Except.ok.inj (q2.symm.trans e2)
  refine ⟨m1, m2, c1, c2, fun i j h0 h1 h2 h3 => ?_⟩
  obtain ⟨V1, V2, V3, V4⟩ := V i j h0 h1 h2 h3
  have w := W i j h0 h1 h2 h3
  have z1 := Q i j 1 h0 h1 h2 h3 (by omega) (by omega)
  rw [V1.rd] at z1
  have z2 := Q i j 2 h0 h1 h2 h3 (by omega) (by omega)
  rw [V2.rd] at z2
  have z3 := Q i j 3 h0 h1 h2 h3 (by omega) (by omega)
  rw [V3.rd] at z3
  have z4 := Q i j 4 h0 h1 h2 h3 (by omega) (by omega)
  rw [V4.rd] at z4
  rw [V1.rd, V2.rd, V3.rd, V4.rd] at w
  refine ⟨_, _, _, _, _, w, F.el_of_rd (K2.ok (K1.ok (h.ok (F.st2d st i0 j0 i1 j1 sgcw) (by simp)))) (by in_bounds) z1, F.el_of_rd (K2.ok (K1.ok (h.ok (F.st2d st i0 j0 i1 j1 sgcw) (by simp)))) (by in_bounds) z2, F.el_of_rd (K2.ok (K1.ok (h.ok (F.st2d st i0 j0 i1 j1 sgcw) (by simp)))) (by in_bounds) z3, F.el_of_rd (K2.ok (K1.ok (h.ok (F.st2d st i0 j0 i1 j1 sgcw) (by simp)))) (by in_bounds) z4, (near_off1 (hdx 0)).within (by ulps), (near_off1 (hdx 0)).within (by ulps), (near_off1 (hdx 1)).within (by ulps), (near_off1 (hdx 1)).within (by ulps), ?_⟩
  refine Near.within (k := 6) (Near.eqs (((((near_off1 (hdx 0)).add (near_off1 (hdx 0))).add (near_off1 (hdx 1))).add (near_off1 (hdx 1))).neg) (by ring) ?_) (by ulps)
  rfl

example :
    ∃ m1 m2, Cuda.poissonOffdiag2d 0 1 2 3 exDxB 2 1 ⟨9, 0⟩ revBackend exB64 = .ok m1 ∧ Cuda.poissonDiag2d 0 1 2 3 1 ⟨9, 0⟩ seqBackend m1 = .ok m2 ∧
      (∀ i j, 0 ≤ i → i ≤ 2 → 1 ≤ j → j ≤ 3 → ∃ v0 v1 v2 v3 v4, F.El m2 (F.st2d ⟨9, 0⟩ 0 1 2 3 1) [0, i, j] v0 ∧ F.El m2 (F.st2d ⟨9, 0⟩ 0 1 2 3 1) [1, i, j] v1 ∧ F.El m2 (F.st2d ⟨9, 0⟩ 0 1 2 3 1) [2, i, j] v2 ∧ F.El m2 (F.st2d ⟨9, 0⟩ 0 1 2 3 1) [3, i, j] v3 ∧ F.El m2 (F.st2d ⟨9, 0⟩ 0 1 2 3 1) [4, i, j] v4 ∧
        F.Within 4 v1 (-((2 : B64).v / ((exDxB 0).v * (exDxB 0).v))) |(2 : B64).v / ((exDxB 0).v * (exDxB 0).v)| ∧
        F.Within 4 v2 (-((2 : B64).v / ((exDxB 0).v * (exDxB 0).v))) |(2 : B64).v / ((exDxB 0).v * (exDxB 0).v)| ∧
        F.Within 4 v3 (-((2 : B64).v / ((exDxB 1).v * (exDxB 1).v))) |(2 : B64).v / ((exDxB 1).v * (exDxB 1).v)| ∧
        F.Within 4 v4 (-((2 : B64).v / ((exDxB 1).v * (exDxB 1).v))) |(2 : B64).v / ((exDxB 1).v * (exDxB 1).v)| ∧
        F.Within 7 v0 ((2 : B64).v / ((exDxB 0).v * (exDxB 0).v) + (2 : B64).v / ((exDxB 0).v * (exDxB 0).v) + (2 : B64).v / ((exDxB 1).v * (exDxB 1).v) + (2 : B64).v / ((exDxB 1).v * (exDxB 1).v))
          (|(2 : B64).v / ((exDxB 0).v * (exDxB 0).v)| + |(2 : B64).v / ((exDxB 0).v * (exDxB 0).v)| + |(2 : B64).v / ((exDxB 1).v * (exDxB 1).v)| + |(2 : B64).v / ((exDxB 1).v * (exDxB 1).v)|)) :=
  C82_coef_poisson_2d revBackend_ok seqBackend_ok (by decide) (by decide)   (by decide) exDxB_ne (by ex_argsB) 

/-- The diagonal coefficient of an equation with coefficients of one sign is off by at most 9 of its rounding errors. -/
theorem C82_diag_relative_2d {i0 j0 i1 j1 bi0 bj0 bi1 bj1 ai0 aj0 ai1 aj1 sgcw : Int} {alpha beta : B64} {dx : Nat → B64} {a b0 b1 st : Ptr} {β1 β2 : Backend} {m : Mem B64} {B0 B1 A : List Int → B64}
    (hβ1 : ValidBackend β1) (hβ2 : ValidBackend β2) (hi : i0 ≤ i1) (hj : j0 ≤ j1) (hbi : bi0 ≤ i0 ∧ i1 ≤ bi1) (hbj : bj0 ≤ j0 ∧ j1 ≤ bj1) (hai : ai0 ≤ i0 ∧ i1 ≤ ai1) (haj : aj0 ≤ j0 ∧ j1 ≤ aj1) (hg : 0 ≤ sgcw) (hdx : ∀ n, (dx n).v ≠ 0)
    (h : F.Args m [(F.face2d0 b0 bi0 bj0 bi1 bj1 0), (F.face2d1 b1 bi0 bj0 bi1 bj1 0), (F.cell2d a ai0 aj0 ai1 aj1 0)] [(F.st2d st i0 j0 i1 j1 sgcw)]) (hB0 : F.Holds m (F.face2d0 b0 bi0 bj0 bi1 bj1 0) B0) (hB1 : F.Holds m (F.face2d1 b1 bi0 bj0 bi1 bj1 0) B1) (hA : F.Holds m (F.cell2d a ai0 aj0 ai1 aj1 0) A)
    (sa : ∀ p, 0 ≤ alpha.v * (A p).v) (s0 : ∀ p, 0 ≤ beta.v * (B0 p).v) (s1 : ∀ p, 0 ≤ beta.v * (B1 p).v) :
    ∃ m1 m2, Cuda.offdiag2d i0 j0 i1 j1 bi0 bj0 bi1 bj1 dx beta b0 b1 sgcw st β1 m = .ok m1 ∧ Cuda.v1diag2d i0 j0 i1 j1 ai0 aj0 ai1 aj1 alpha a sgcw st β2 m1 = .ok m2 ∧
      (∀ i j, i0 ≤ i → i ≤ i1 → j0 ≤ j → j ≤ j1 → ∃ v, F.El m2 (F.st2d st i0 j0 i1 j1 sgcw) [0, i, j] v ∧
        F.Within 9 v (beta.v / ((dx 0).v * (dx 0).v) * (B0 [i, j]).v + beta.v / ((dx 0).v * (dx 0).v) * (B0 [i + 1, j]).v + beta.v / ((dx 1).v * (dx 1).v) * (B1 [j, i]).v + beta.v / ((dx 1).v * (dx 1).v) * (B1 [j + 1, i]).v + alpha.v * (A [i, j]).v)
          |beta.v / ((dx 0).v * (dx 0).v) * (B0 [i, j]).v + beta.v / ((dx 0).v * (dx 0).v) * (B0 [i + 1, j]).v + beta.v / ((dx 1).v * (dx 1).v) * (B1 [j, i]).v + beta.v / ((dx 1).v * (dx 1).v) * (B1 [j + 1, i]).v + alpha.v * (A [i, j]).v|) := by
  obtain ⟨m1, m2, c1, c2, V⟩ := C82_coef_v1_2d (alpha := alpha) (beta := beta) hβ1 hβ2 hi hj hbi hbj hai haj hg hdx h hB0 hB1 hA
  refine ⟨m1, m2, c1, c2, fun i j h0 h1 h2 h3 => ?_⟩
  obtain ⟨v0, -, -, -, -, e0, -, -, -, -, -, -, -, -, w⟩ := V i j h0 h1 h2 h3
  refine ⟨v0, e0, ?_⟩
  have t0 : ∀ p, 0 ≤ beta.v / ((dx 0).v * (dx 0).v) * (B0 p).v := fun p => by
    rw [div_mul_eq_mul_div]; exact div_nonneg (s0 p) (mul_self_nonneg _)
  have t1 : ∀ p, 0 ≤ beta.v / ((dx 1).v * (dx 1).v) * (B1 p).v := fun p => by
    rw [div_mul_eq_mul_div]; exact div_nonneg (s1 p) (mul_self_nonneg _)
  rw [abs_of_nonneg (sa _), abs_of_nonneg (t0 _), abs_of_nonneg (t0 _), abs_of_nonneg (t1 _), abs_of_nonneg (t1 _)] at w
  rw [abs_of_nonneg]
  · exact w
  · repeat' apply add_nonneg
    all_goals first | exact sa _ | exact t0 _ | exact t1 _

example :
    ∃ m1 m2, Cuda.offdiag2d 0 1 2 3 0 1 2 3 exDxB 2 ⟨2, 0⟩ ⟨3, 0⟩ 1 ⟨9, 0⟩ revBackend (wB fun _ _ => 2) = .ok m1 ∧ Cuda.v1diag2d 0 1 2 3 0 1 2 3 3 ⟨0, 0⟩ 1 ⟨9, 0⟩ seqBackend m1 = .ok m2 ∧
      (∀ i j, 0 ≤ i → i ≤ 2 → 1 ≤ j → j ≤ 3 → ∃ v, F.El m2 (F.st2d ⟨9, 0⟩ 0 1 2 3 1) [0, i, j] v ∧
        F.Within 9 v ((2 : B64).v / ((exDxB 0).v * (exDxB 0).v) * (2 : B64).v + (2 : B64).v / ((exDxB 0).v * (exDxB 0).v) * (2 : B64).v + (2 : B64).v / ((exDxB 1).v * (exDxB 1).v) * (2 : B64).v + (2 : B64).v / ((exDxB 1).v * (exDxB 1).v) * (2 : B64).v + (3 : B64).v * (2 : B64).v)
          |(2 : B64).v / ((exDxB 0).v * (exDxB 0).v) * (2 : B64).v + (2 : B64).v / ((exDxB 0).v * (exDxB 0).v) * (2 : B64).v + (2 : B64).v / ((exDxB 1).v * (exDxB 1).v) * (2 : B64).v + (2 : B64).v / ((exDxB 1).v * (exDxB 1).v) * (2 : B64).v + (3 : B64).v * (2 : B64).v|) :=
  C82_diag_relative_2d (A := fun _ => 2) (B0 := fun _ => 2) (B1 := fun _ => 2) revBackend_ok seqBackend_ok (by decide) (by decide) ⟨by decide, by decide⟩ ⟨by decide, by decide⟩ ⟨by decide, by decide⟩ ⟨by decide, by decide⟩ (by decide) exDxB_ne (by w_args) (wB_two (exRat_ok rfl (by decide) (by decide))) (wB_two (exRat_ok rfl (by decide) (by decide))) (wB_two (exRat_ok rfl (by decide) (by decide))) (fun _ => by decide +kernel) (fun _ => by decide +kernel) (fun _ => by decide +kernel)

/-- The coefficients left by the off-diagonal and diagonal kernels: each off-diagonal one is off by at most 5 of its rounding errors, the diagonal one by
at most 11 rounding errors of the sum of the sizes of its terms, so of itself when the terms have one sign. -/
theorem C82_coef_v1_3d {i0 j0 k0 i1 j1 k1 bi0 bj0 bk0 bi1 bj1 bk1 ai0 aj0 ak0 ai1 aj1 ak1 sgcw : Int} {alpha beta : B64} {dx : Nat → B64} {a b0 b1 b2 st : Ptr} {β1 β2 : Backend} {m : Mem B64} {B0 B1 B2 A : List Int → B64}
    (hβ1 : ValidBackend β1) (hβ2 : ValidBackend β2) (hi : i0 ≤ i1) (hj : j0 ≤ j1) (hk : k0 ≤ k1) (hbi : bi0 ≤ i0 ∧ i1 ≤ bi1) (hbj : bj0 ≤ j0 ∧ j1 ≤ bj1) (hbk : bk0 ≤ k0 ∧ k1 ≤ bk1) (hai : ai0 ≤ i0 ∧ i1 ≤ ai1) (haj : aj0 ≤ j0 ∧ j1 ≤ aj1) (hak : ak0 ≤ k0 ∧ k1 ≤ ak1) (hg : 0 ≤ sgcw) (hdx : ∀ n, (dx n).v ≠ 0)
    (h : F.Args m [(F.face3d0 b0 bi0 bj0 bk0 bi1 bj1 bk1 0), (F.face3d1 b1 bi0 bj0 bk0 bi1 bj1 bk1 0), (F.face3d2 b2 bi0 bj0 bk0 bi1 bj1 bk1 0), (F.cell3d a ai0 aj0 ak0 ai1 aj1 ak1 0)] [(F.st3d st i0 j0 k0 i1 j1 k1 sgcw)]) (hB0 : F.Holds m (F.face3d0 b0 bi0 bj0 bk0 bi1 bj1 bk1 0) B0) (hB1 : F.Holds m (F.face3d1 b1 bi0 bj0 bk0 bi1 bj1 bk1 0) B1) (hB2 : F.Holds m (F.face3d2 b2 bi0 bj0 bk0 bi1 bj1 bk1 0) B2) (hA : F.Holds m (F.cell3d a ai0 aj0 ak0 ai1 aj1 ak1 0) A) :
    ∃ m1 m2, Cuda.offdiag3d i0 j0 k0 i1 j1 k1 bi0 bj0 bk0 bi1 bj1 bk1 dx beta b0 b1 b2 sgcw st β1 m = .ok m1 ∧ Cuda.v1diag3d i0 j0 k0 i1 j1 k1 ai0 aj0 ak0 ai1 aj1 ak1 alpha a sgcw st β2 m1 = .ok m2 ∧
      (∀ i j k, i0 ≤ i → i ≤ i1 → j0 ≤ j → j ≤ j1 → k0 ≤ k → k ≤ k1 → ∃ v0 v1 v2 v3 v4 v5 v6, F.El m2 (F.st3d st i0 j0 k0 i1 j1 k1 sgcw) [0, i, j, k] v0 ∧ F.El m2 (F.st3d st i0 j0 k0 i1 j1 k1 sgcw) [1, i, j, k] v1 ∧ F.El m2 (F.st3d st i0 j0 k0 i1 j1 k1 sgcw) [2, i, j, k] v2 ∧ F.El m2 (F.st3d st i0 j0 k0 i1 j1 k1 sgcw) [3, i, j, k] v3 ∧ F.El m2 (F.st3d st i0 j0 k0 i1 j1 k1 sgcw) [4, i, j, k] v4 ∧ F.El m2 (F.st3d st i0 j0 k0 i1 j1 k1 sgcw) [5, i, j, k] v5 ∧ F.El m2 (F.st3d st i0 j0 k0 i1 j1 k1 sgcw) [6, i, j, k] v6 ∧
        F.Within 5 v1 (-(beta.v / ((dx 0).v * (dx 0).v) * (B0 [i, j, k]).v)) |beta.v / ((dx 0).v * (dx 0).v) * (B0 [i, j, k]).v| ∧
        F.Within 5 v2 (-(beta.v / ((dx 0).v * (dx 0).v) * (B0 [i + 1, j, k]).v)) |beta.v / ((dx 0).v * (dx 0).v) * (B0 [i + 1, j, k]).v| ∧
        F.Within 5 v3 (-(beta.v / ((dx 1).v * (dx 1).v) * (B1 [j, k, i]).v)) |beta.v / ((dx 1).v * (dx 1).v) * (B1 [j, k, i]).v| ∧
        F.Within 5 v4 (-(beta.v / ((dx 1).v * (dx 1).v) * (B1 [j + 1, k, i]).v)) |beta.v / ((dx 1).v * (dx 1).v) * (B1 [j + 1, k, i]).v| ∧
        F.Within 5 v5 (-(beta.v / ((dx 2).v * (dx 2).v) * (B2 [k, i, j]).v)) |beta.v / ((dx 2).v * (dx 2).v) * (B2 [k, i, j]).v| ∧
        F.Within 5 v6 (-(beta.v / ((dx 2).v * (dx 2).v) * (B2 [k + 1, i, j]).v)) |beta.v / ((dx 2).v * (dx 2).v) * (B2 [k + 1, i, j]).v| ∧
        F.Within 11 v0 (beta.v / ((dx 0).v * (dx 0).v) * (B0 [i, j, k]).v + beta.v / ((dx 0).v * (dx 0).v) * (B0 [i + 1, j, k]).v + beta.v / ((dx 1).v * (dx 1).v) * (B1 [j, k, i]).v + beta.v / ((dx 1).v * (dx 1).v) * (B1 [j + 1, k, i]).v + beta.v / ((dx 2).v * (dx 2).v) * (B2 [k, i, j]).v + beta.v / ((dx 2).v * (dx 2).v) * (B2 [k + 1, i, j]).v + alpha.v * (A [i, j, k]).v)
          (|beta.v / ((dx 0).v * (dx 0).v) * (B0 [i, j, k]).v| + |beta.v / ((dx 0).v * (dx 0).v) * (B0 [i + 1, j, k]).v| + |beta.v / ((dx 1).v * (dx 1).v) * (B1 [j, k, i]).v| + |beta.v / ((dx 1).v * (dx 1).v) * (B1 [j + 1, k, i]).v| + |beta.v / ((dx 2).v * (dx 2).v) * (B2 [k, i, j]).v| + |beta.v / ((dx 2).v * (dx 2).v) * (B2 [k + 1, i, j]).v| + |alpha.v * (A [i, j, k]).v|)) := by
  have h1 : F.Args m [(F.face3d0 b0 bi0 bj0 bk0 bi1 bj1 bk1 0), (F.face3d1 b1 bi0 bj0 bk0 bi1 bj1 bk1 0), (F.face3d2 b2 bi0 bj0 bk0 bi1 bj1 bk1 0)] [(F.st3d st i0 j0 k0 i1 j1 k1 sgcw)] := h.sub (by intro x hx; simp only [List.mem_cons, List.not_mem_nil, or_false] at hx ⊢; tauto) (by intro x hx; simp only [List.mem_cons, List.not_mem_nil, or_false] at hx ⊢; tauto)
  obtain ⟨m1, q1, -, K1, V⟩ := offdiag3_run (dx := dx) (beta := beta) hi hj hk hg hbi hbj hbk h1
  obtain ⟨m1', c1, e1⟩ := C49_offdiag_3d (dx := dx) (beta := beta) hβ1 B64.neg_div hi hj hk hbi hbj hbk hg h1
  obtain rfl : m1 = m1' := Except.ok.inj (q1.symm.trans e1)
  have h2 : F.Args m1 [(F.cell3d a ai0 aj0 ak0 ai1 aj1 ak1 0)] [(F.st3d st i0 j0 k0 i1 j1 k1 sgcw)] := by
    refine ⟨fun a ha => K1.ok (h.ok a ?_), ?_⟩
    · simp only [List.mem_cons, List.mem_append, List.not_mem_nil, or_false, false_or] at ha ⊢; tauto
    · simp only [List.mem_cons, List.not_mem_nil, or_false, forall_eq_or_imp, forall_eq]
      exact h.apart _ (by simp) _ (by simp)
  obtain ⟨m2, q2, -, K2, W, Q⟩ := v1diag3_run (alpha := alpha) hi hj hk hg hai haj hak h2
  obtain ⟨m2', c2, e2⟩ := C49_v1diag_3d (alpha := alpha) hβ2 B64.neg_one_mul hi hj hk hai haj hak hg h2
  obtain rfl : m2 = m2' := Except.ok.inj (q2.symm.trans e2)
  refine ⟨m1, m2, c1, c2, fun i j k h0 h1 h2 h3 h4 h5 => ?_⟩
  obtain ⟨V1, V2, V3, V4, V5, V6⟩ := V i j k h0 h1 h2 h3 h4 h5
  have w := W i j k h0 h1 h2 h3 h4 h5
  have z1 := Q i j k 1 h0 h1 h2 h3 h4 h5 (by omega) (by omega)
  rw [V1.rd] at z1
  have z2 := Q i j k 2 h0 h1 h2 h3 h4 h5 (by omega) (by omega)
  rw [V2.rd] at z2
  have z3 := Q i j k 3 h0 h1 h2 h3 h4 h5 (by omega) (by omega)
  rw [V3.rd] at z3
  have z4 := Q i j k 4 h0 h1 h2 h3 h4 h5 (by omega) (by omega)
  rw [V4.rd] at z4
  have z5 := Q i j k 5 h0 h1 h2 h3 h4 h5 (by omega) (by omega)
  rw [V5.rd] at z5
  have z6 := Q i j k 6 h0 h1 h2 h3 h4 h5 (by omega) (by omega)
  rw [V6.rd] at z6
  rw [V1.rd, V2.rd, V3.rd, V4.rd, V5.rd, V6.rd] at w
  rw [(hB0 [i, j, k] (by in_bounds)).rd] at z1
  rw [(hB0 [i + 1, j, k] (by in_bounds)).rd] at z2
  rw [(hB1 [j, k, i] (by in_bounds)).rd] at z3
  rw [(hB1 [j + 1, k, i] (by in_bounds)).rd] at z4
  rw [(hB2 [k, i, j] (by in_bounds)).rd] at z5
  rw [(hB2 [k + 1, i, j] (by in_bounds)).rd] at z6
  have ea : F.rd m1 (F.cell3d a ai0 aj0 ak0 ai1 aj1 ak1 0) [i, j, k] = A [i, j, k] := (K1.rd (by intro o ho; refine h.apart o ?_ _ (by simp); simp only [List.mem_cons, List.not_mem_nil, or_false] at ho ⊢; tauto) (by in_bounds)).trans (hA [i, j, k] (by in_bounds)).rd
  rw [(hB0 [i, j, k] (by in_bounds)).rd, (hB0 [i + 1, j, k] (by in_bounds)).rd, (hB1 [j, k, i] (by in_bounds)).rd, (hB1 [j + 1, k, i] (by in_bounds)).rd, (hB2 [k, i, j] (by in_bounds)).rd, (hB2 [k + 1, i, j] (by in_bounds)).rd, ea] at w
  refine ⟨_, _, _, _, _, _, _, w, F.el_of_rd (K2.ok (K1.ok (h.ok (F.st3d st i0 j0 k0 i1 j1 k1 sgcw) (by simp)))) (by in_bounds) z1, F.el_of_rd (K2.ok (K1.ok (h.ok (F.st3d st i0 j0 k0 i1 j1 k1 sgcw) (by simp)))) (by in_bounds) z2, F.el_of_rd (K2.ok (K1.ok (h.ok (F.st3d st i0 j0 k0 i1 j1 k1 sgcw) (by simp)))) (by in_bounds) z3, F.el_of_rd (K2.ok (K1.ok (h.ok (F.st3d st i0 j0 k0 i1 j1 k1 sgcw) (by simp)))) (by in_bounds) z4, F.el_of_rd (K2.ok (K1.ok (h.ok (F.st3d st i0 j0 k0 i1 j1 k1 sgcw) (by simp)))) (by in_bounds) z5, F.el_of_rd (K2.ok (K1.ok (h.ok (F.st3d st i0 j0 k0 i1 j1 k1 sgcw) (by simp)))) (by in_bounds) z6, (near_off (hdx 0)).within (by ulps), (near_off (hdx 0)).within (by ulps), (near_off (hdx 1)).within (by ulps), (near_off (hdx 1)).within (by ulps), (near_off (hdx 2)).within (by ulps), (near_off (hdx 2)).within (by ulps), ?_⟩
  refine Near.within (k := 10) (Near.eqs ((((((((near_off (hdx 0)).add (near_off (hdx 0))).add (near_off (hdx 1))).add (near_off (hdx 1))).add (near_off (hdx 2))).add (near_off (hdx 2))).neg).add ((Near.datum alpha).mul (Near.datum _))) (by ring) ?_) (by ulps)
  rw [abs_mul alpha.v]

example :
    ∃ m1 m2, Cuda.offdiag3d 0 1 2 1 2 3 0 1 2 1 2 3 exDxB 2 ⟨2, 0⟩ ⟨3, 0⟩ ⟨4, 0⟩ 1 ⟨9, 0⟩ revBackend exB64 = .ok m1 ∧ Cuda.v1diag3d 0 1 2 1 2 3 0 1 2 1 2 3 3 ⟨0, 0⟩ 1 ⟨9, 0⟩ seqBackend m1 = .ok m2 ∧
      (∀ i j k, 0 ≤ i → i ≤ 1 → 1 ≤ j → j ≤ 2 → 2 ≤ k → k ≤ 3 → ∃ v0 v1 v2 v3 v4 v5 v6, F.El m2 (F.st3d ⟨9, 0⟩ 0 1 2 1 2 3 1) [0, i, j, k] v0 ∧ F.El m2 (F.st3d ⟨9, 0⟩ 0 1 2 1 2 3 1) [1, i, j, k] v1 ∧ F.El m2 (F.st3d ⟨9, 0⟩ 0 1 2 1 2 3 1) [2, i, j, k] v2 ∧ F.El m2 (F.st3d ⟨9, 0⟩ 0 1 2 1 2 3 1) [3, i, j, k] v3 ∧ F.El m2 (F.st3d ⟨9, 0⟩ 0 1 2 1 2 3 1) [4, i, j, k] v4 ∧ F.El m2 (F.st3d ⟨9, 0⟩ 0 1 2 1 2 3 1) [5, i, j, k] v5 ∧ F.El m2 (F.st3d ⟨9, 0⟩ 0 1 2 1 2 3 1) [6, i, j, k] v6 ∧
        F.Within 5 v1 (-((2 : B64).v / ((exDxB 0).v * (exDxB 0).v) * ((F.rd exB64 (F.face3d0 ⟨2, 0⟩ 0 1 2 1 2 3 0)) [i, j, k]).v)) |(2 : B64).v / ((exDxB 0).v * (exDxB 0).v) * ((F.rd exB64 (F.face3d0 ⟨2, 0⟩ 0 1 2 1 2 3 0)) [i, j, k]).v| ∧
        F.Within 5 v2 (-((2 : B64).v / ((exDxB 0).v * (exDxB 0).v) * ((F.rd exB64 (F.face3d0 ⟨2, 0⟩ 0 1 2 1 2 3 0)) [i + 1, j, k]).v)) |(2 : B64).v / ((exDxB 0).v * (exDxB 0).v) * ((F.rd exB64 (F.face3d0 ⟨2, 0⟩ 0 1 2 1 2 3 0)) [i + 1, j, k]).v| ∧
        F.Within 5 v3 (-((2 : B64).v / ((exDxB 1).v * (exDxB 1).v) * ((F.rd exB64 (F.face3d1 ⟨3, 0⟩ 0 1 2 1 2 3 0)) [j, k, i]).v)) |(2 : B64).v / ((exDxB 1).v * (exDxB 1).v) * ((F.rd exB64 (F.face3d1 ⟨3, 0⟩ 0 1 2 1 2 3 0)) [j, k, i]).v| ∧
        F.Within 5 v4 (-((2 : B64).v / ((exDxB 1).v * (exDxB 1).v) * ((F.rd exB64 (F.face3d1 ⟨3, 0⟩ 0 1 2 1 2 3 0)) [j + 1, k, i]).v)) |(2 : B64).v / ((exDxB 1).v * (exDxB 1).v) * ((F.rd exB64 (F.face3d1 ⟨3, 0⟩ 0 1 2 1 2 3 0)) [j + 1, k, i]).v| ∧
        F.Within 5 v5 (-((2 : B64).v / ((exDxB 2).v * (exDxB 2).v) * ((F.rd exB64 (F.face3d2 ⟨4, 0⟩ 0 1 2 1 2 3 0)) [k, i, j]).v)) |(2 : B64).v / ((exDxB 2).v * (exDxB 2).v) * ((F.rd exB64 (F.face3d2 ⟨4, 0⟩ 0 1 2 1 2 3 0)) [k, i, j]).v| ∧
        F.Within 5 v6 (-((2 : B64).v / ((exDxB 2).v * (exDxB 2).v) * ((F.rd exB64 (F.face3d2 ⟨4, 0⟩ 0 1 2 1 2 3 0)) [k + 1, i, j]).v)) |(2 : B64).v / ((exDxB 2).v * (exDxB 2).v) * ((F.rd exB64 (F.face3d2 ⟨4, 0⟩ 0 1 2 1 2 3 0)) [k + 1, i, j]).v| ∧
        F.Within 11 v0 ((2 : B64).v / ((exDxB 0).v * (exDxB 0).v) * ((F.rd exB64 (F.face3d0 ⟨2, 0⟩ 0 1 2 1 2 3 0)) [i, j, k]).v + (2 : B64).v / ((exDxB 0).v * (exDxB 0).v) * ((F.rd exB64 (F.face3d0 ⟨2, 0⟩ 0 1 2 1 2 3 0)) [i + 1, j, k]).v + (2 : B64).v / ((exDxB 1).v * (exDxB 1).v) * ((F.rd exB64 (F.face3d1 ⟨3, 0⟩ 0 1 2 1 2 3 0)) [j, k, i]).v + (2 : B64).v / ((exDxB 1).v * (exDxB 1).v) * ((F.rd exB64 (F.face3d1 ⟨3, 0⟩ 0 1 2 1 2 3 0)) [j + 1, k, i]).v + (2 : B64).v / ((exDxB 2).v * (exDxB 2).v) * ((F.rd exB64 (F.face3d2 ⟨4, 0⟩ 0 1 2 1 2 3 0)) [k, i, j]).v + (2 : B64).v / ((exDxB 2).v * (exDxB 2).v) * ((F.rd exB64 (F.face3d2 ⟨4, 0⟩ 0 1 2 1 2 3 0)) [k + 1, i, j]).v + (3 : B64).v * ((F.rd exB64 (F.cell3d ⟨0, 0⟩ 0 1 2 1 2 3 0)) [i, j, k]).v)
          (|(2 : B64).v / ((exDxB 0).v * (exDxB 0).v) * ((F.rd exB64 (F.face3d0 ⟨2, 0⟩ 0 1 2 1 2 3 0)) [i, j, k]).v| + |(2 : B64).v / ((exDxB 0).v * (exDxB 0).v) * ((F.rd exB64 (F.face3d0 ⟨2, 0⟩ 0 1 2 1 2 3 0)) [i + 1, j, k]).v| + |(2 : B64).v / ((exDxB 1).v * (exDxB 1).v) * ((F.rd exB64 (F.face3d1 ⟨3, 0⟩ 0 1 2 1 2 3 0)) [j, k, i]).v| + |(2 : B64).v / ((exDxB 1).v * (exDxB 1).v) * ((F.rd exB64 (F.face3d1 ⟨3, 0⟩ 0 1 2 1 2 3 0)) [j + 1, k, i]).v| + |(2 : B64).v / ((exDxB 2).v * (exDxB 2).v) * ((F.rd exB64 (F.face3d2 ⟨4, 0⟩ 0 1 2 1 2 3 0)) [k, i, j]).v| + |(2 : B64).v / ((exDxB 2).v * (exDxB 2).v) * ((F.rd exB64 (F.face3d2 ⟨4, 0⟩ 0 1 2 1 2 3 0)) [k + 1, i, j]).v| + |(3 : B64).v * ((F.rd exB64 (F.cell3d ⟨0, 0⟩ 0 1 2 1 2 3 0)) [i, j, k]).v|)) :=
  C82_coef_v1_3d revBackend_ok seqBackend_ok (by decide) (by decide) (by decide) ⟨by decide, by decide⟩ ⟨by decide, by decide⟩ ⟨by decide, by decide⟩ ⟨by decide, by decide⟩ ⟨by decide, by decide⟩ ⟨by decide, by decide⟩ (by decide) exDxB_ne (by ex_argsB) (exB64_holds (exRat_ok rfl (by decide) (by decide))) (exB64_holds (exRat_ok rfl (by decide) (by decide))) (exB64_holds (exRat_ok rfl (by decide) (by decide))) (exB64_holds (exRat_ok rfl (by decide) (by decide)))

/-- The coefficients left by the off-diagonal and diagonal kernels: each off-diagonal one is off by at most 5 of its rounding errors, the diagonal one by
at most 11 rounding errors of the sum of the sizes of its terms, so of itself when the terms have one sign. -/
theorem C82_coef_v2_3d {i0 j0 k0 i1 j1 k1 bi0 bj0 bk0 bi1 bj1 bk1 sgcw : Int} {alpha beta : B64} {dx : Nat → B64} {b0 b1 b2 st : Ptr} {β1 β2 : Backend} {m : Mem B64} {B0 B1 B2 : List Int → B64}
    (hβ1 : ValidBackend β1) (hβ2 : ValidBackend β2) (hi : i0 ≤ i1) (hj : j0 ≤ j1) (hk : k0 ≤ k1) (hbi : bi0 ≤ i0 ∧ i1 ≤ bi1) (hbj : bj0 ≤ j0 ∧ j1 ≤ bj1) (hbk : bk0 ≤ k0 ∧ k1 ≤ bk1)  (hg : 0 ≤ sgcw) (hdx : ∀ n, (dx n).v ≠ 0)
    (h : F.Args m [(F.face3d0 b0 bi0 bj0 bk0 bi1 bj1 bk1 0), (F.face3d1 b1 bi0 bj0 bk0 bi1 bj1 bk1 0), (F.face3d2 b2 bi0 bj0 bk0 bi1 bj1 bk1 0)] [(F.st3d st i0 j0 k0 i1 j1 k1 sgcw)]) (hB0 : F.Holds m (F.face3d0 b0 bi0 bj0 bk0 bi1 bj1 bk1 0) B0) (hB1 : F.Holds m (F.face3d1 b1 bi0 bj0 bk0 bi1 bj1 bk1 0) B1) (hB2 : F.Holds m (F.face3d2 b2 bi0 bj0 bk0 bi1 bj1 bk1 0) B2) :
    ∃ m1 m2, Cuda.offdiag3d i0 j0 k0 i1 j1 k1 bi0 bj0 bk0 bi1 bj1 bk1 dx beta b0 b1 b2 sgcw st β1 m = .ok m1 ∧ Cuda.v2diag3d i0 j0 k0 i1 j1 k1 alpha sgcw st β2 m1 = .ok m2 ∧
      (∀ i j k, i0 ≤ i → i ≤ i1 → j0 ≤ j → j ≤ j1 → k0 ≤ k → k ≤ k1 → ∃ v0 v1 v2 v3 v4 v5 v6, F.El m2 (F.st3d st i0 j0 k0 i1 j1 k1 sgcw) [0, i, j, k] v0 ∧ F.El m2 (F.st3d st i0 j0 k0 i1 j1 k1 sgcw) [1, i, j, k] v1 ∧ F.El m2 (F.st3d st i0 j0 k0 i1 j1 k1 sgcw) [2, i, j, k] v2 ∧ F.El m2 (F.st3d st i0 j0 k0 i1 j1 k1 sgcw) [3, i, j, k] v3 ∧ F.El m2 (F.st3d st i0 j0 k0 i1 j1 k1 sgcw) [4, i, j, k] v4 ∧ F.El m2 (F.st3d st i0 j0 k0 i1 j1 k1 sgcw) [5, i, j, k] v5 ∧ F.El m2 (F.st3d st i0 j0 k0 i1 j1 k1 sgcw) [6, i, j, k] v6 ∧
        F.Within 5 v1 (-(beta.v / ((dx 0).v * (dx 0).v) * (B0 [i, j, k]).v)) |beta.v / ((dx 0).v * (dx 0).v) * (B0 [i, j, k]).v| ∧
        F.Within 5 v2 (-(beta.v / ((dx 0).v * (dx 0).v) * (B0 [i + 1, j, k]).v)) |beta.v / ((dx 0).v * (dx 0).v) * (B0 [i + 1, j, k]).v| ∧
        F.Within 5 v3 (-(beta.v / ((dx 1).v * (dx 1).v) * (B1 [j, k, i]).v)) |beta.v / ((dx 1).v * (dx 1).v) * (B1 [j, k, i]).v| ∧
        F.Within 5 v4 (-(beta.v / ((dx 1).v * (dx 1).v) * (B1 [j + 1, k, i]).v)) |beta.v / ((dx 1).v * (dx 1).v) * (B1 [j + 1, k, i]).v| ∧
        F.Within 5 v5 (-(beta.v / ((dx 2).v * (dx 2).v) * (B2 [k, i, j]).v)) |beta.v / ((dx 2).v * (dx 2).v) * (B2 [k, i, j]).v| ∧
        F.Within 5 v6 (-(beta.v / ((dx 2).v * (dx 2).v) * (B2 [k + 1, i, j]).v)) |beta.v / ((dx 2).v * (dx 2).v) * (B2 [k + 1, i, j]).v| ∧
        F.Within 11 v0 (beta.v / ((dx 0).v * (dx 0).v) * (B0 [i, j, k]).v + beta.v / ((dx 0).v * (dx 0).v) * (B0 [i + 1, j, k]).v + beta.v / ((dx 1).v * (dx 1).v) * (B1 [j, k, i]).v + beta.v / ((dx 1).v * (dx 1).v) * (B1 [j + 1, k, i]).v + beta.v / ((dx 2).v * (dx 2).v) * (B2 [k, i, j]).v + beta.v / ((dx 2).v * (dx 2).v) * (B2 [k + 1, i, j]).v + alpha.v)
          (|beta.v / ((dx 0).v * (dx 0).v) * (B0 [i, j, k]).v| + |beta.v / ((dx 0).v * (dx 0).v) * (B0 [i + 1, j, k]).v| + |beta.v / ((dx 1).v * (dx 1).v) * (B1 [j, k, i]).v| + |beta.v / ((dx 1).v * (dx 1).v) * (B1 [j + 1, k, i]).v| + |beta.v / ((dx 2).v * (dx 2).v) * (B2 [k, i, j]).v| + |beta.v / ((dx 2).v * (dx 2).v) * (B2 [k + 1, i, j]).v| + |alpha.v|)) := by
  have h1 : F.Args m [(F.face3d0 b0 bi0 bj0 bk0 bi1 bj1 bk1 0), (F.face3d1 b1 bi0 bj0 bk0 bi1 bj1 bk1 0), (F.face3d2 b2 bi0 bj0 bk0 bi1 bj1 bk1 0)] [(F.st3d st i0 j0 k0 i1 j1 k1 sgcw)] := h.sub (by intro x hx; simp only [List.mem_cons, List.not_mem_nil, or_false] at hx ⊢; tauto) (by intro x hx; simp only [List.mem_cons, List.not_mem_nil, or_false] at hx ⊢; tauto)
  obtain ⟨m1, q1, -, K1, V⟩ := offdiag3_run (dx := dx) (beta := beta) hi hj hk hg hbi hbj hbk h1
  obtain ⟨m1', c1, e1⟩ := C49_offdiag_3d (dx := dx) (beta := beta) hβ1 B64.neg_div hi hj hk hbi hbj hbk hg h1
  obtain rfl : m1 = m1' := Except.ok.inj (q1.symm.trans e1)
  have h2 : F.Args m1 [] [(F.st3d st i0 j0 k0 i1 j1 k1 sgcw)] := by
    refine ⟨fun a ha => K1.ok (h.ok a ?_), ?_⟩
    · simp only [List.mem_cons, List.mem_append, List.not_mem_nil, or_false, false_or] at ha ⊢; tauto
    · simp
  obtain ⟨m2, q2, -, K2, W, Q⟩ := v2diag3_run (alpha := alpha) hi hj hk hg  h2
  obtain ⟨m2', c2, e2⟩ := C49_v2diag_3d (alpha := alpha) hβ2 B64.neg_one_mul hi hj hk  hg h2
  obtain rfl : m2 = m2' := Except.ok.inj (q2.symm.trans e2)
  refine ⟨m1, m2, c1, c2, fun i j k h0 h1 h2 h3 h4 h5 => ?_⟩
  obtain ⟨V1, V2, V3, V4, V5, V6⟩ := V i j k h0 h1 h2 h3 h4 h5
  have w := W i j k h0 h1 h2 h3 h4 h5
  have z1 := Q i j k 1 h0 h1 h2 h3 h4 h5 (by omega) (by omega)
  rw [V1.rd] at z1
  have z2 := Q i j k 2 h0 h1 h2 h3 h4 h5 (by omega) (by omega)
  rw [V2.rd] at z2
  have z3 := Q i j k 3 h0 h1 h2 h3 h4 h5 (by omega) (by omega)
  rw [V3.rd] at z3
  have z4 := Q i j k 4 h0 h1 h2 h3 h4 h5 (by omega) (by omega)
  rw [V4.rd] at z4
  have z5 := Q i j k 5 h0 h1 h2 h3 h4 h5 (by omega) (by omega)
  rw [V5.rd] at z5
  have z6 := Q i j k 6 h0 h1 h2 h3 h4 h5 (by omega) (by omega)
  rw [V6.rd] at z6
  rw [V1.rd, V2.rd, V3.rd, V4.rd, V5.rd, V6.rd] at w
  rw [(hB0 [i, j, k] (by in_bounds)).rd] at z1
  rw [(hB0 [i + 1, j, k] (by in_bounds)).rd] at z2
  rw [(hB1 [j, k, i] (by in_bounds)).rd] at z3
  rw [(hB1 [j + 1, k, i] (by in_bounds)).rd] at z4
  rw [(hB2 [k, i, j] (by in_bounds)).rd] at z5
  rw [(hB2 [k + 1, i, j] (by in_bounds)).rd] at z6
  rw [(hB0 [i, j, k] (by in_bounds)).rd, (hB0 [i + 1, j, k] (by in_bounds)).rd, (hB1 [j, k, i] (by in_bounds)).rd, (hB1 [j + 1, k, i] (by in_bounds)).rd, (hB2 [k, i, j] (by in_bounds)).rd, (hB2 [k + 1, i, j] (by in_bounds)).rd] at w
  refine ⟨_, _, _, _, _, _, _, w, F.el_of_rd (K2.ok (K1.ok (h.ok (F.st3d st i0 j0 k0 i1 j1 k1 sgcw) (by simp)))) (by in_bounds) z1, F.el_of_rd (K2.ok (K1.ok (h.ok (F.st3d st i0 j0 k0 i1 j1 k1 sgcw) (by simp)))) (by in_bounds) z2, F.el_of_rd (K2.ok (K1.ok (h.ok (F.st3d st i0 j0 k0 i1 j1 k1 sgcw) (by simp)))) (by in_bounds) z3, F.el_of_rd (K2.ok (K1.ok (h.ok (F.st3d st i0 j0 k0 i1 j1 k1 sgcw) (by simp)))) (by in_bounds) z4, F.el_of_rd (K2.ok (K1.ok (h.ok (F.st3d st i0 j0 k0 i1 j1 k1 sgcw) (by simp)))) (by in_bounds) z5, F.el_of_rd (K2.ok (K1.ok (h.ok (F.st3d st i0 j0 k0 i1 j1 k1 sgcw) (by simp)))) (by in_bounds) z6, (near_off (hdx 0)).within (by ulps), (near_off (hdx 0)).within (by ulps), (near_off (hdx 1)).within (by ulps), (near_off (hdx 1)).within (by ulps), (near_off (hdx 2)).within (by ulps), (near_off (hdx 2)).within (by ulps), ?_⟩
  refine Near.within (k := 10) (Near.eqs ((((((((near_off (hdx 0)).add (near_off (hdx 0))).add (near_off (hdx 1))).add (near_off (hdx 1))).add (near_off (hdx 2))).add (near_off (hdx 2))).neg).add (Near.datum alpha)) (by ring) ?_) (by ulps)
  rfl

example :
    ∃ m1 m2, Cuda.offdiag3d 0 1 2 1 2 3 0 1 2 1 2 3 exDxB 2 ⟨2, 0⟩ ⟨3, 0⟩ ⟨4, 0⟩ 1 ⟨9, 0⟩ revBackend exB64 = .ok m1 ∧ Cuda.v2diag3d 0 1 2 1 2 3 3 1 ⟨9, 0⟩ seqBackend m1 = .ok m2 ∧
      (∀ i j k, 0 ≤ i → i ≤ 1 → 1 ≤ j → j ≤ 2 → 2 ≤ k → k ≤ 3 → ∃ v0 v1 v2 v3 v4 v5 v6, F.El m2 (F.st3d ⟨9, 0⟩ 0 1 2 1 2 3 1) [0, i, j, k] v0 ∧ F.El m2 (F.st3d ⟨9, 0⟩ 0 1 2 1 2 3 1) [1, i, j, k] v1 ∧ F.El m2 (F.st3d ⟨9, 0⟩ 0 1 2 1 2 3 1) [2, i, j, k] v2 ∧ F.El m2 (F.st3d ⟨9, 0⟩ 0 1 2 1 2 3 1) [3, i, j, k] v3 ∧ F.El m2 (F.st3d ⟨9, 0⟩ 0 1 2 1 2 3 1) [4, i, j, k] v4 ∧ F.El m2 (F.st3d ⟨9, 0⟩ 0 1 2 1 2 3 1) [5, i, j, k] v5 ∧ F.El m2 (F.st3d ⟨9, 0⟩ 0 1 2 1 2 3 1) [6, i, j, k] v6 ∧
        F.Within 5 v1 (-((2 : B64).v / ((exDxB 0).v * (exDxB 0).v) * ((F.rd exB64 (F.face3d0 ⟨2, 0⟩ 0 1 2 1 2 3 0)) [i, j, k]).v)) |(2 : B64).v / ((exDxB 0).v * (exDxB 0).v) * ((F.rd exB64 (F.face3d0 ⟨2, 0⟩ 0 1 2 1 2 3 0)) [i, j, k]).v| ∧
        F.Within 5 v2 (-((2 : B64).v / ((exDxB 0).v * (exDxB 0).v) * ((F.rd exB64 (F.face3d0 ⟨2, 0⟩ 0 1 2 1 2 3 0)) [i + 1, j, k]).v)) |(2 : B64).v / ((exDxB 0).v * (exDxB 0).v) * ((F.rd exB64 (F.face3d0 ⟨2, 0⟩ 0 1 2 1 2 3 0)) [i + 1, j, k]).v| ∧
        F.Within 5 v3 (-((2 : B64).v / ((exDxB 1).v * (exDxB 1).v) * ((F.rd exB64 (F.face3d1 ⟨3, 0⟩ 0 1 2 1 2 3 0)) [j, k, i]).v)) |(2 : B64).v / ((exDxB 1).v * (exDxB 1).v) * ((F.rd exB64 (F.face3d1 ⟨3, 0⟩ 0 1 2 1 2 3 0)) [j, k, i]).v| ∧
        F.Within 5 v4 (-((2 : B64).v / ((exDxB 1).v * (exDxB 1).v) * ((F.rd exB64 (F.face3d1 ⟨3, 0⟩ 0 1 2 1 2 3 0)) [j + 1, k, i]).v)) |(2 : B64).v / ((exDxB 1).v * (exDxB 1).v) * ((F.rd exB64 (F.face3d1 ⟨3, 0⟩ 0 1 2 1 2 3 0)) [j + 1, k, i]).v| ∧
        F.Within 5 v5 (-((2 : B64).v / ((exDxB 2).v * (exDxB 2).v) * ((F.rd exB64 (F.face3d2 ⟨4, 0⟩ 0 1 2 1 2 3 0)) [k, i, j]).v)) |(2 : B64).v / ((exDxB 2).v * (exDxB 2).v) * ((F.rd exB64 (F.face3d2 ⟨4, 0⟩ 0 1 2 1 2 3 0)) [k, i, j]).v| ∧
        F.Within 5 v6 (-((2 : B64).v / ((exDxB 2).v * (exDxB 2).v) * ((F.rd exB64 (F.face3d2 ⟨4, 0⟩ 0 1 2 1 2 3 0)) [k + 1, i, j]).v)) |(2 : B64).v / ((exDxB 2).v * (exDxB 2).v) * ((F.rd exB64 (F.face3d2 ⟨4, 0⟩ 0 1 2 1 2 3 0)) [k + 1, i, j]).v| ∧
        F.Within 11 v0 ((2 : B64).v / ((exDxB 0).v * (exDxB 0).v) * ((F.rd exB64 (F.face3d0 ⟨2, 0⟩ 0 1 2 1 2 3 0)) [i, j, k]).v + (2 : B64).v / ((exDxB 0).v * (exDxB 0).v) * ((F.rd exB64 (F.face3d0 ⟨2, 0⟩ 0 1 2 1 2 3 0)) [i + 1, j, k]).v + (2 : B64).v / ((exDxB 1).v * (exDxB 1).v) * ((F.rd exB64 (F.face3d1 ⟨3, 0⟩ 0 1 2 1 2 3 0)) [j, k, i]).v + (2 : B64).v / ((exDxB 1).v * (exDxB 1).v) * ((F.rd exB64 (F.face3d1 ⟨3, 0⟩ 0 1 2 1 2 3 0)) [j + 1, k, i]).v + (2 : B64).v / ((exDxB 2).v * (exDxB 2).v) * ((F.rd exB64 (F.face3d2 ⟨4, 0⟩ 0 1 2 1 2 3 0)) [k, i, j]).v + (2 : B64).v / ((exDxB 2).v * (exDxB 2).v) * ((F.rd exB64 (F.face3d2 ⟨4, 0⟩ 0 1 2 1 2 3 0)) [k + 1, i, j]).v + (3 : B64).v)
          (|(2 : B64).v / ((exDxB 0).v * (exDxB 0).v) * ((F.rd exB64 (F.face3d0 ⟨2, 0⟩ 0 1 2 1 2 3 0)) [i, j, k]).v| + |(2 : B64).v / ((exDxB 0).v * (exDxB 0).v) * ((F.rd exB64 (F.face3d0 ⟨2, 0⟩ 0 1 2 1 2 3 0)) [i + 1, j, k]).v| + |(2 : B64).v / ((exDxB 1).v * (exDxB 1).v) * ((F.rd exB64 (F.face3d1 ⟨3, 0⟩ 0 1 2 1 2 3 0)) [j, k, i]).v| + |(2 : B64).v / ((exDxB 1).v * (exDxB 1).v) * ((F.rd exB64 (F.face3d1 ⟨3, 0⟩ 0 1 2 1 2 3 0)) [j + 1, k, i]).v| + |(2 : B64).v / ((exDxB 2).v * (exDxB 2).v) * ((F.rd exB64 (F.face3d2 ⟨4, 0⟩ 0 1 2 1 2 3 0)) [k, i, j]).v| + |(2 : B64).v / ((exDxB 2).v * (exDxB 2).v) * ((F.rd exB64 (F.face3d2 ⟨4, 0⟩ 0 1 2 1 2 3 0)) [k + 1, i, j]).v| + |(3 : B64).v|)) :=
  C82_coef_v2_3d revBackend_ok seqBackend_ok (by decide) (by decide) (by decide) ⟨by decide, by decide⟩ ⟨by decide, by decide⟩ ⟨by decide, by decide⟩  (by decide) exDxB_ne (by ex_argsB) (exB64_holds (exRat_ok rfl (by decide) (by decide))) (exB64_holds (exRat_ok rfl (by decide) (by decide))) (exB64_holds (exRat_ok rfl (by decide) (by decide)))

/-- The coefficients left by the off-diagonal and diagonal kernels: each off-diagonal one is off by at most 4 of its rounding errors, the diagonal one by
at most 9 rounding errors of the sum of the sizes of its terms, so of itself when the terms have one sign. -/
theorem C82_coef_poisson_3d {i0 j0 k0 i1 j1 k1 sgcw : Int} {beta : B64} {dx : Nat → B64} {st : Ptr} {β1 β2 : Backend} {m : Mem B64}
    (hβ1 : ValidBackend β1) (hβ2 : ValidBackend β2) (hi : i0 ≤ i1) (hj : j0 ≤ j1) (hk : k0 ≤ k1)   (hg : 0 ≤ sgcw) (hdx : ∀ n, (dx n).v ≠ 0)
    (h : F.Args m [] [(F.st3d st i0 j0 k0 i1 j1 k1 sgcw)])  :
    ∃ m1 m2, Cuda.poissonOffdiag3d i0 j0 k0 i1 j1 k1 dx beta sgcw st β1 m = .ok m1 ∧ Cuda.poissonDiag3d i0 j0 k0 i1 j1 k1 sgcw st β2 m1 = .ok m2 ∧
      (∀ i j k, i0 ≤ i → i ≤ i1 → j0 ≤ j → j ≤ j1 → k0 ≤ k → k ≤ k1 → ∃ v0 v1 v2 v3 v4 v5 v6, F.El m2 (F.st3d st i0 j0 k0 i1 j1 k1 sgcw) [0, i, j, k] v0 ∧ F.El m2 (F.st3d st i0 j0 k0 i1 j1 k1 sgcw) [1, i, j, k] v1 ∧ F.El m2 (F.st3d st i0 j0 k0 i1 j1 k1 sgcw) [2, i, j, k] v2 ∧ F.El m2 (F.st3d st i0 j0 k0 i1 j1 k1 sgcw) [3, i, j, k] v3 ∧ F.El m2 (F.st3d st i0 j0 k0 i1 j1 k1 sgcw) [4, i, j, k] v4 ∧ F.El m2 (F.st3d st i0 j0 k0 i1 j1 k1 sgcw) [5, i, j, k] v5 ∧ F.El m2 (F.st3d st i0 j0 k0 i1 j1 k1 sgcw) [6, i, j, k] v6 ∧
        F.Within 4 v1 (-(beta.v / ((dx 0).v * (dx 0).v))) |beta.v / ((dx 0).v * (dx 0).v)| ∧
        F.Within 4 v2 (-(beta.v / ((dx 0).v * (dx 0).v))) |beta.v / ((dx 0).v * (dx 0).v)| ∧
        F.Within 4 v3 (-(beta.v / ((dx 1).v * (dx 1).v))) |beta.v / ((dx 1).v * (dx 1).v)| ∧
        F.Within 4 v4 (-(beta.v / ((dx 1).v * (dx 1).v))) |beta.v / ((dx 1).v * (dx 1).v)| ∧
        F.Within 4 v5 (-(beta.v / ((dx 2).v * (dx 2).v))) |beta.v / ((dx 2).v * (dx 2).v)| ∧
        F.Within 4 v6 (-(beta.v / ((dx 2).v * (dx 2).v))) |beta.v / ((dx 2).v * (dx 2).v)| ∧
        F.Within 9 v0 (beta.v / ((dx 0).v * (dx 0).v) + beta.v / ((dx 0).v * (dx 0).v) + beta.v / ((dx 1).v * (dx 1).v) + beta.v / ((dx 1).v * (dx 1).v) + beta.v / ((dx 2).v * (dx 2).v) + beta.v / ((dx 2).v * (dx 2).v))
          (|beta.v / ((dx 0).v * (dx 0).v)| + |beta.v / ((dx 0).v * (dx 0).v)| + |beta.v / ((dx 1).v * (dx 1).v)| + |beta.v / ((dx 1).v * (dx 1).v)| + |beta.v / ((dx 2).v * (dx 2).v)| + |beta.v / ((dx 2).v * (dx 2).v)|)) := by
  have h1 := h
  obtain ⟨m1, q1, -, K1, V⟩ := poffdiag3_run (dx := dx) (beta := beta) hi hj hk hg  h1
  obtain ⟨m1', c1, e1⟩ := C49_poisson_offdiag_3d (dx := dx) (beta := beta) hβ1 B64.neg_div hi hj hk  hg h1
  obtain rfl : m1 = m1' := Except.ok.inj (q1.symm.trans e1)
  have h2 : F.Args m1 [] [(F.st3d st i0 j0 k0 i1 j1 k1 sgcw)] := by
    refine ⟨fun a ha => K1.ok (h.ok a ?_), ?_⟩
    · simp only [List.mem_cons, List.mem_append, List.not_mem_nil, or_false, false_or] at ha ⊢; tauto
    · simp
  obtain ⟨m2, q2, -, K2, W, Q⟩ := pdiag3_run hi hj hk hg  h2
  obtain ⟨m2', c2, e2⟩ := C49_poisson_diag_3d hβ2 B64.neg_one_mul hi hj hk  hg h2
  obtain rfl : m2 = m2' := Except.ok.inj (q2.symm.trans e2)
  refine ⟨m1, m2, c1, c2, fun i j k h0 h1 h2 h3 h4 h5 => ?_⟩
  obtain ⟨V1, V2, V3, V4, V5, V6⟩ := V i j k h0 h1 h2 h3 h4 h5
  have w := W i j k h0 h1 h2 h3 h4 h5
  have z1 := Q i j k 1 h0 h1 h2 h3 h4 h5 (by omega) (by omega)
  rw [V1.rd] at z1
  have z2 := Q i j k 2 h0 h1 h2 h3 h4 h5 (by omega) (by omega)
  rw [V2.rd] at z2
  have z3 := Q i j k 3 h0 h1 h2 h3 h4 h5 (by omega) (by omega)
  rw [V3.rd] at z3
  have z4 := Q i j k 4 h0 h1 h2 h3 h4 h5 (by omega) (by omega)
  rw [V4.rd] at z4
  have z5 := Q i j k 5 h0 h1 h2 h3 h4 h5 (by omega) (by omega)
  rw [V5.rd] at z5
  have z6 := Q i j k 6 h0 h1 h2 h3 h4 h5 (by omega) (by omega)
  rw [V6.rd] at z6
  rw [V1.rd, V2.rd, V3.rd, V4.rd, V5.rd, V6.rd] at w
  refine ⟨_, _, _, _, _, _, _, w, F.el_of_rd (K2.ok (K1.ok (h.ok (F.st3d st i0 j0 k0 i1 j1 k1 sgcw) (by simp)))) (by in_bounds) z1, F.el_of_rd (K2.ok (K1.ok (h.ok (F.st3d st i0 j0 k0 i1 j1 k1 sgcw) (by simp)))) (by in_bounds) z2, F.el_of_rd (K2.ok (K1.ok (h.ok (F.st3d st i0 j0 k0 i1 j1 k1 sgcw) (by simp)))) (by in_bounds) z3, F.el_of_rd (K2.ok (K1.ok (h.ok (F.st3d st i0 j0 k0 i1 j1 k1 sgcw) (by simp)))) (by in_bounds) z4, F.el_of_rd (K2.ok (K1.ok (h.ok (F.st3d st i0 j0 k0 i1 j1 k1 sgcw) (by simp)))) (by in_bounds) z5, F.el_of_rd (K2.ok (K1.ok (h.ok (F.st3d st i0 j0 k0 i1 j1 k1 sgcw) (by simp)))) (by in_bounds) z6, (near_off1 (hdx 0)).within (by ulps), (near_off1 (hdx 0)).within (by ulps), (near_off1 (hdx 1)).within (by ulps), (near_off1 (hdx 1)).within (by ulps), (near_off1 (hdx 2)).within (by ulps), (near_off1 (hdx 2)).within (by ulps), ?_⟩
  refine Near.within (k := 8) (Near.eqs (((((((near_off1 (hdx 0)).add (near_off1 (hdx 0))).add (near_off1 (hdx 1))).add (near_off1 (hdx 1))).add (near_off1 (hdx 2))).add (near_off1 (hdx 2))).neg) (by ring) ?_) (by ulps)
  rfl

example :
    ∃ m1 m2, Cuda.poissonOffdiag3d 0 1 2 1 2 3 exDxB 2 1 ⟨9, 0⟩ revBackend exB64 = .ok m1 ∧ Cuda.poissonDiag3d 0 1 2 1 2 3 1 ⟨9, 0⟩ seqBackend m1 = .ok m2 ∧
      (∀ i j k, 0 ≤ i → i ≤ 1 → 1 ≤ j → j ≤ 2 → 2 ≤ k → k ≤ 3 → ∃ v0 v1 v2 v3 v4 v5 v6, F.El m2 (F.st3d ⟨9, 0⟩ 0 1 2 1 2 3 1) [0, i, j, k] v0 ∧ F.El m2 (F.st3d ⟨9, 0⟩ 0 1 2 1 2 3 1) [1, i, j, k] v1 ∧ F.El m2 (F.st3d ⟨9, 0⟩ 0 1 2 1 2 3 1) [2, i, j, k] v2 ∧ F.El m2 (F.st3d ⟨9, 0⟩ 0 1 2 1 2 3 1) [3, i, j, k] v3 ∧ F.El m2 (F.st3d ⟨9, 0⟩ 0 1 2 1 2 3 1) [4, i, j, k] v4 ∧ F.El m2 (F.st3d ⟨9, 0⟩ 0 1 2 1 2 3 1) [5, i, j, k] v5 ∧ F.El m2 (F.st3d ⟨9, 0⟩ 0 1 2 1 2 3 1) [6, i, j, k] v6 ∧
        F.Within 4 v1 (-((2 : B64).v / ((exDxB 0).v * (exDxB 0).v))) |(2 : B64).v / ((exDxB 0).v * (exDxB 0).v)| ∧
        F.Within 4 v2 (-((2 : B64).v / ((exDxB 0).v * (exDxB 0).v))) |(2 : B64).v / ((exDxB 0).v * (exDxB 0).v)| ∧
        F.Within 4 v3 (-((2 : B64).v / ((exDxB 1).v * (exDxB 1).v))) |(2 : B64).v / ((exDxB 1).v * (exDxB 1).v)| ∧
        F.Within 4 v4 (-((2 : B64).v / ((exDxB 1).v * (exDxB 1).v))) |(2 : B64).v / ((exDxB 1).v * (exDxB 1).v)| ∧
        F.Within 4 v5 (-((2 : B64).v / ((exDxB 2).v * (exDxB 2).v))) |(2 : B64).v / ((exDxB 2).v * (exDxB 2).v)| ∧
        F.Within 4 v6 (-((2 : B64).v / ((exDxB 2).v * (exDxB 2).v))) |(2 : B64).v / ((exDxB 2).v * (exDxB 2).v)| ∧
        F.Within 9 v0 ((2 : B64).v / ((exDxB 0).v * (exDxB 0).v) + (2 : B64).v / ((exDxB 0).v * (exDxB 0).v) + (2 : B64).v / ((exDxB 1).v * (exDxB 1).v) + (2 : B64).v / ((exDxB 1).v * (exDxB 1).v) + (2 : B64).v / ((exDxB 2).v * (exDxB 2).v) + (2 : B64).v / ((exDxB 2).v * (exDxB 2).v))
          (|(2 : B64).v / ((exDxB 0).v * (exDxB 0).v)| + |(2 : B64).v / ((exDxB 0).v * (exDxB 0).v)| + |(2 : B64).v / ((exDxB 1).v * (exDxB 1).v)| + |(2 : B64).v / ((exDxB 1).v * (exDxB 1).v)| + |(2 : B64).v / ((exDxB 2).v * (exDxB 2).v)| + |(2 : B64).v / ((exDxB 2).v * (exDxB 2).v)|)) :=
  C82_coef_poisson_3d revBackend_ok seqBackend_ok (by decide) (by decide) (by decide)   (by decide) exDxB_ne (by ex_argsB) 

/-- The diagonal coefficient of an equation with coefficients of one sign is off by at most 11 of its rounding errors. -/
theorem C82_diag_relative_3d {i0 j0 k0 i1 j1 k1 bi0 bj0 bk0 bi1 bj1 bk1 ai0 aj0 ak0 ai1 aj1 ak1 sgcw : Int} {alpha beta : B64} {dx : Nat → B64} {a b0 b1 b2 st : Ptr} {β1 β2 : Backend} {m : Mem B64} {B0 B1 B2 A : List Int → B64}
    (hβ1 : ValidBackend β1) (hβ2 : ValidBackend β2) (hi : i0 ≤ i1) (hj : j0 ≤ j1) (hk : k0 ≤ k1) (hbi : bi0 ≤ i0 ∧ i1 ≤ bi1) (hbj : bj0 ≤ j0 ∧ j1 ≤ bj1) (hbk : bk0 ≤ k0 ∧ k1 ≤ bk1) (hai : ai0 ≤ i0 ∧ i1 ≤ ai1) (haj : aj0 ≤ j0 ∧ j1 ≤ aj1) (hak : ak0 ≤ k0 ∧ k1 ≤ ak1) (hg : 0 ≤ sgcw) (hdx : ∀ n, (dx n).v ≠ 0)
    (h : F.Args m [(F.face3d0 b0 bi0 bj0 bk0 bi1 bj1 bk1 0), (F.face3d1 b1 bi0 bj0 bk0 bi1 bj1 bk1 0), (F.face3d2 b2 bi0 bj0 bk0 bi1 bj1 bk1 0), (F.cell3d a ai0 aj0 ak0 ai1 aj1 ak1 0)] [(F.st3d st i0 j0 k0 i1 j1 k1 sgcw)]) (hB0 : F.Holds m (F.face3d0 b0 bi0 bj0 bk0 bi1 bj1 bk1 0) B0) (hB1 : F.Holds m (F.face3d1 b1 bi0 bj0 bk0 bi1 bj1 bk1 0) B1) (hB2 : F.Holds m (F.face3d2 b2 bi0 bj0 bk0 bi1 bj1 bk1 0) B2) (hA : F.Holds m (F.cell3d a ai0 aj0 ak0 ai1 aj1 ak1 0) A)
    (sa : ∀ p, 0 ≤ alpha.v * (A p).v) (s0 : ∀ p, 0 ≤ beta.v * (B0 p).v) (s1 : ∀ p, 0 ≤ beta.v * (B1 p).v) (s2 : ∀ p, 0 ≤ beta.v * (B2 p).v) :
    ∃ m1 m2, Cuda.offdiag3d i0 j0 k0 i1 j1 k1 bi0 bj0 bk0 bi1 bj1 bk1 dx beta b0 b1 b2 sgcw st β1 m = .ok m1 ∧ Cuda.v1diag3d i0 j0 k0 i1 j1 k1 ai0 aj0 ak0 ai1 aj1 ak1 alpha a sgcw st β2 m1 = .ok m2 ∧
      (∀ i j k, i0 ≤ i → i ≤ i1 → j0 ≤ j → j ≤ j1 → k0 ≤ k → k ≤ k1 → ∃ v, F.El m2 (F.st3d st i0 j0 k0 i1 j1 k1 sgcw) [0, i, j, k] v ∧
        F.Within 11 v (beta.v / ((dx 0).v * (dx 0).v) * (B0 [i, j, k]).v + beta.v / ((dx 0).v * (dx 0).v) * (B0 [i + 1, j, k]).v + beta.v / ((dx 1).v * (dx 1).v) * (B1 [j, k, i]).v + beta.v / ((dx 1).v * (dx 1).v) * (B1 [j + 1, k, i]).v + beta.v / ((dx 2).v * (dx 2).v) * (B2 [k, i, j]).v + beta.v / ((dx 2).v * (dx 2).v) * (B2 [k + 1, i, j]).v + alpha.v * (A [i, j, k]).v)
          |beta.v / ((dx 0).v * (dx 0).v) * (B0 [i, j, k]).v + beta.v / ((dx 0).v * (dx 0).v) * (B0 [i + 1, j, k]).v + beta.v / ((dx 1).v * (dx 1).v) * (B1 [j, k, i]).v + beta.v / ((dx 1).v * (dx 1).v) * (B1 [j + 1, k, i]).v + beta.v / ((dx 2).v * (dx 2).v) * (B2 [k, i, j]).v + beta.v / ((dx 2).v * (dx 2).v) * (B2 [k + 1, i, j]).v + alpha.v * (A [i, j, k]).v|) := by
  obtain ⟨m1, m2, c1, c2, V⟩ := C82_coef_v1_3d (alpha := alpha) (beta := beta) hβ1 hβ2 hi hj hk hbi hbj hbk hai haj hak hg hdx h hB0 hB1 hB2 hA
  refine ⟨m1, m2, c1, c2, fun i j k h0 h1 h2 h3 h4 h5 => ?_⟩
  obtain ⟨v0, -, -, -, -, -, -, e0, -, -, -, -, -, -, -, -, -, -, -, -, w⟩ := V i j k h0 h1 h2 h3 h4 h5
  refine ⟨v0, e0, ?_⟩
  have t0 : ∀ p, 0 ≤ beta.v / ((dx 0).v * (dx 0).v) * (B0 p).v := fun p => by
    rw [div_mul_eq_mul_div]; exact div_nonneg (s0 p) (mul_self_nonneg _)
  have t1 : ∀ p, 0 ≤ beta.v / ((dx 1).v * (dx 1).v) * (B1 p).v := fun p => by
    rw [div_mul_eq_mul_div]; exact div_nonneg (s1 p) (mul_self_nonneg _)
  have t2 : ∀ p, 0 ≤ beta.v / ((dx 2).v * (dx 2).v) * (B2 p).v := fun p => by
    rw [div_mul_eq_mul_div]; exact div_nonneg (s2 p) (mul_self_nonneg _)
  rw [abs_of_nonneg (sa _), abs_of_nonneg (t0 _), abs_of_nonneg (t0 _), abs_of_nonneg (t1 _), abs_of_nonneg (t1 _), abs_of_nonneg (t2 _), abs_of_nonneg (t2 _)] at w
  rw [abs_of_nonneg]
  · exact w
  · repeat' apply add_nonneg
    all_goals first | exact sa _ | exact t0 _ | exact t1 _ | exact t2 _

example :
    ∃ m1 m2, Cuda.offdiag3d 0 1 2 1 2 3 0 1 2 1 2 3 exDxB 2 ⟨2, 0⟩ ⟨3, 0⟩ ⟨4, 0⟩ 1 ⟨9, 0⟩ revBackend (wB fun _ _ => 2) = .ok m1 ∧ Cuda.v1diag3d 0 1 2 1 2 3 0 1 2 1 2 3 3 ⟨0, 0⟩ 1 ⟨9, 0⟩ seqBackend m1 = .ok m2 ∧
      (∀ i j k, 0 ≤ i → i ≤ 1 → 1 ≤ j → j ≤ 2 → 2 ≤ k → k ≤ 3 → ∃ v, F.El m2 (F.st3d ⟨9, 0⟩ 0 1 2 1 2 3 1) [0, i, j, k] v ∧
        F.Within 11 v ((2 : B64).v / ((exDxB 0).v * (exDxB 0).v) * (2 : B64).v + (2 : B64).v / ((exDxB 0).v * (exDxB 0).v) * (2 : B64).v + (2 : B64).v / ((exDxB 1).v * (exDxB 1).v) * (2 : B64).v + (2 : B64).v / ((exDxB 1).v * (exDxB 1).v) * (2 : B64).v + (2 : B64).v / ((exDxB 2).v * (exDxB 2).v) * (2 : B64).v + (2 : B64).v / ((exDxB 2).v * (exDxB 2).v) * (2 : B64).v + (3 : B64).v * (2 : B64).v)
          |(2 : B64).v / ((exDxB 0).v * (exDxB 0).v) * (2 : B64).v + (2 : B64).v / ((exDxB 0).v * (exDxB 0).v) * (2 : B64).v + (2 : B64).v / ((exDxB 1).v * (exDxB 1).v) * (2 : B64).v + (2 : B64).v / ((exDxB 1).v * (exDxB 1).v) * (2 : B64).v + (2 : B64).v / ((exDxB 2).v * (exDxB 2).v) * (2 : B64).v + (2 : B64).v / ((exDxB 2).v * (exDxB 2).v) * (2 : B64).v + (3 : B64).v * (2 : B64).v|) :=
  C82_diag_relative_3d (A := fun _ => 2) (B0 := fun _ => 2) (B1 := fun _ => 2) (B2 := fun _ => 2) revBackend_ok seqBackend_ok (by decide) (by decide) (by decide) ⟨by decide, by decide⟩ ⟨by decide, by decide⟩ ⟨by decide, by decide⟩ ⟨by decide, by decide⟩ ⟨by decide, by decide⟩ ⟨by decide, by decide⟩ (by decide) exDxB_ne (by w_args) (wB_two (exRat_ok rfl (by decide) (by decide))) (wB_two (exRat_ok rfl (by decide) (by decide))) (wB_two (exRat_ok rfl (by decide) (by decide))) (wB_two (exRat_ok rfl (by decide) (by decide))) (fun _ => by decide +kernel) (fun _ => by decide +kernel) (fun _ => by decide +kernel) (fun _ => by decide +kernel)

end Verif
