import Verif.Lemmas.RoundRes
import Mathlib.Tactic.Ring

/-
C82: in 53 bit arithmetic the residual kernels lose no more than a few rounding errors of the sizes of their terms.
-/

namespace Verif
open Spec

set_option linter.unusedVariables false

/-- The flux kernel followed by the residual kernel leaves `F - alpha A U + beta div(B grad U)` with an error of at most 9 rounding errors of the sum of the
sizes of the terms. -/
theorem C82_res_v1_1d {i0 i1 agcw gcw fgcw rgcw : Int} {alpha beta : B64} {dx : Nat → B64} {a u b0 f f0 res : Ptr} {A U G B0 : List Int → B64} {β1 β2 : Nat → Backend} {m : Mem B64}
    (hβ1 : ∀ n, ValidBackend (β1 n)) (hβ2 : ∀ n, ValidBackend (β2 n)) (hi : i0 ≤ i1) (hg : 1 ≤ gcw) (hagcw : 0 ≤ agcw) (hfgcw : 0 ≤ fgcw) (hrgcw : 0 ≤ rgcw) (hdx : ∀ n, (dx n).v ≠ 0)
    (h : F.Args m [(F.cell1d a i0 i1 agcw), (F.cell1d u i0 i1 gcw), (F.cell1d f i0 i1 fgcw), (F.face1d b0 i0 i1 0)] [(F.face1d f0 i0 i1 0), (F.cell1d res i0 i1 rgcw)])
    (hr : F.Apart (F.cell1d res i0 i1 rgcw) (F.face1d f0 i0 i1 0))
    (hA : F.Holds m (F.cell1d a i0 i1 agcw) A) (hU : F.Holds m (F.cell1d u i0 i1 gcw) U) (hG : F.Holds m (F.cell1d f i0 i1 fgcw) G) (hB0 : F.Holds m (F.face1d b0 i0 i1 0) B0) :
    ∃ m1 m2, Cuda.flux1d i0 i1 dx b0 gcw u f0 β1 m = .ok m1 ∧ Cuda.diffusionV1Res1d i0 i1 alpha beta dx agcw a gcw u fgcw f f0 rgcw res β2 m1 = .ok m2 ∧
      (∀ i, i0 ≤ i → i ≤ i1 → ∃ v, F.El m2 (F.cell1d res i0 i1 rgcw) [i] v ∧
        F.Within 9 v ((G [i]).v + beta.v * (F.second (B0 [i]).v (B0 [i + 1]).v (U [i - 1]).v (U [i]).v (U [i + 1]).v (dx 0).v) - alpha.v * (A [i]).v * (U [i]).v)
          (|(G [i]).v| + |beta.v| * (F.size2 (B0 [i]).v (B0 [i + 1]).v (U [i - 1]).v (U [i]).v (U [i + 1]).v (dx 0).v) + |alpha.v * (A [i]).v * (U [i]).v|)) := by
  obtain ⟨m1, m2, c1, c2, -, -, -, W⟩ := rres_v1_1 (alpha := alpha) (beta := beta) (dx := dx) hβ1 hβ2 hi hg hagcw hfgcw hrgcw h hr
  refine ⟨m1, m2, c1, c2, fun i h0 h1 => ?_⟩
  have w := W i h0 h1
  rw [(hU [i] (by in_bounds)).rd, (hU [i - 1] (by in_bounds)).rd, (hU [i + 1] (by in_bounds)).rd, (hB0 [i] (by in_bounds)).rd, (hB0 [i + 1] (by in_bounds)).rd, (hA [i] (by in_bounds)).rd, (hG [i] (by in_bounds)).rd] at w
  refine ⟨_, w, Near.within (k := 8) (Near.eqs (((Near.datum _).add ((Near.datum beta).mul (near_second (hdx 0) (near_face (hdx 0)) (near_face (hdx 0))))).sub (((Near.datum alpha).mul (Near.datum _)).mul (Near.datum _))) rfl ?_) (by ulps)⟩
  rw [abs_mul (_ * _), abs_mul alpha.v]

example :
    ∃ m1 m2, Cuda.flux1d 0 3 exDxB ⟨2, 0⟩ 2 ⟨1, 0⟩ ⟨5, 0⟩ (fun _ => revBackend) exB64 = .ok m1 ∧ Cuda.diffusionV1Res1d 0 3 3 2 exDxB 1 ⟨0, 0⟩ 2 ⟨1, 0⟩ 1 ⟨9, 0⟩ ⟨5, 0⟩ 1 ⟨8, 0⟩ (fun _ => seqBackend) m1 = .ok m2 ∧
      (∀ i, 0 ≤ i → i ≤ 3 → ∃ v, F.El m2 (F.cell1d ⟨8, 0⟩ 0 3 1) [i] v ∧
        F.Within 9 v (((F.rd exB64 (F.cell1d ⟨9, 0⟩ 0 3 1)) [i]).v + (2 : B64).v * (F.second ((F.rd exB64 (F.face1d ⟨2, 0⟩ 0 3 0)) [i]).v ((F.rd exB64 (F.face1d ⟨2, 0⟩ 0 3 0)) [i + 1]).v ((F.rd exB64 (F.cell1d ⟨1, 0⟩ 0 3 2)) [i - 1]).v ((F.rd exB64 (F.cell1d ⟨1, 0⟩ 0 3 2)) [i]).v ((F.rd exB64 (F.cell1d ⟨1, 0⟩ 0 3 2)) [i + 1]).v (exDxB 0).v) - (3 : B64).v * ((F.rd exB64 (F.cell1d ⟨0, 0⟩ 0 3 1)) [i]).v * ((F.rd exB64 (F.cell1d ⟨1, 0⟩ 0 3 2)) [i]).v)
          (|((F.rd exB64 (F.cell1d ⟨9, 0⟩ 0 3 1)) [i]).v| + |(2 : B64).v| * (F.size2 ((F.rd exB64 (F.face1d ⟨2, 0⟩ 0 3 0)) [i]).v ((F.rd exB64 (F.face1d ⟨2, 0⟩ 0 3 0)) [i + 1]).v ((F.rd exB64 (F.cell1d ⟨1, 0⟩ 0 3 2)) [i - 1]).v ((F.rd exB64 (F.cell1d ⟨1, 0⟩ 0 3 2)) [i]).v ((F.rd exB64 (F.cell1d ⟨1, 0⟩ 0 3 2)) [i + 1]).v (exDxB 0).v) + |(3 : B64).v * ((F.rd exB64 (F.cell1d ⟨0, 0⟩ 0 3 1)) [i]).v * ((F.rd exB64 (F.cell1d ⟨1, 0⟩ 0 3 2)) [i]).v|)) :=
  C82_res_v1_1d (fun _ => revBackend_ok) (fun _ => seqBackend_ok) (by decide) (by decide) (by decide) (by decide) (by decide) exDxB_ne (by ex_argsB) (apart_blk (by decide)) (exB64_holds (exRat_ok rfl (by decide) (by decide))) (exB64_holds (exRat_ok rfl (by decide) (by decide))) (exB64_holds (exRat_ok rfl (by decide) (by decide))) (exB64_holds (exRat_ok rfl (by decide) (by decide)))

/-- The flux kernel followed by the residual kernel leaves `F - alpha U + beta div(B grad U)` with an error of at most 9 rounding errors of the sum of the
sizes of the terms. -/
theorem C82_res_v2_1d {i0 i1 gcw fgcw rgcw : Int} {alpha beta : B64} {dx : Nat → B64} {u b0 f f0 res : Ptr} {U G B0 : List Int → B64} {β1 β2 : Nat → Backend} {m : Mem B64}
    (hβ1 : ∀ n, ValidBackend (β1 n)) (hβ2 : ∀ n, ValidBackend (β2 n)) (hi : i0 ≤ i1) (hg : 1 ≤ gcw) (hfgcw : 0 ≤ fgcw) (hrgcw : 0 ≤ rgcw) (hdx : ∀ n, (dx n).v ≠ 0)
    (h : F.Args m [(F.cell1d u i0 i1 gcw), (F.cell1d f i0 i1 fgcw), (F.face1d b0 i0 i1 0)] [(F.face1d f0 i0 i1 0), (F.cell1d res i0 i1 rgcw)])
    (hr : F.Apart (F.cell1d res i0 i1 rgcw) (F.face1d f0 i0 i1 0))
    (hU : F.Holds m (F.cell1d u i0 i1 gcw) U) (hG : F.Holds m (F.cell1d f i0 i1 fgcw) G) (hB0 : F.Holds m (F.face1d b0 i0 i1 0) B0) :
    ∃ m1 m2, Cuda.flux1d i0 i1 dx b0 gcw u f0 β1 m = .ok m1 ∧ Cuda.diffusionV2Res1d i0 i1 alpha beta dx gcw u fgcw f f0 rgcw res β2 m1 = .ok m2 ∧
      (∀ i, i0 ≤ i → i ≤ i1 → ∃ v, F.El m2 (F.cell1d res i0 i1 rgcw) [i] v ∧
        F.Within 9 v ((G [i]).v + beta.v * (F.second (B0 [i]).v (B0 [i + 1]).v (U [i - 1]).v (U [i]).v (U [i + 1]).v (dx 0).v) - alpha.v * (U [i]).v)
          (|(G [i]).v| + |beta.v| * (F.size2 (B0 [i]).v (B0 [i + 1]).v (U [i - 1]).v (U [i]).v (U [i + 1]).v (dx 0).v) + |alpha.v * (U [i]).v|)) := by
  obtain ⟨m1, m2, c1, c2, -, -, -, W⟩ := rres_v2_1 (alpha := alpha) (beta := beta) (dx := dx) hβ1 hβ2 hi hg hfgcw hrgcw h hr
  refine ⟨m1, m2, c1, c2, fun i h0 h1 => ?_⟩
  have w := W i h0 h1
  rw [(hU [i] (by in_bounds)).rd, (hU [i - 1] (by in_bounds)).rd, (hU [i + 1] (by in_bounds)).rd, (hB0 [i] (by in_bounds)).rd, (hB0 [i + 1] (by in_bounds)).rd, (hG [i] (by in_bounds)).rd] at w
  refine ⟨_, w, Near.within (k := 8) (Near.eqs (((Near.datum _).add ((Near.datum beta).mul (near_second (hdx 0) (near_face (hdx 0)) (near_face (hdx 0))))).sub ((Near.datum alpha).mul (Near.datum _))) rfl ?_) (by ulps)⟩
  rw [abs_mul alpha.v]

example :
    ∃ m1 m2, Cuda.flux1d 0 3 exDxB ⟨2, 0⟩ 2 ⟨1, 0⟩ ⟨5, 0⟩ (fun _ => revBackend) exB64 = .ok m1 ∧ Cuda.diffusionV2Res1d 0 3 3 2 exDxB 2 ⟨1, 0⟩ 1 ⟨9, 0⟩ ⟨5, 0⟩ 1 ⟨8, 0⟩ (fun _ => seqBackend) m1 = .ok m2 ∧
      (∀ i, 0 ≤ i → i ≤ 3 → ∃ v, F.El m2 (F.cell1d ⟨8, 0⟩ 0 3 1) [i] v ∧
        F.Within 9 v (((F.rd exB64 (F.cell1d ⟨9, 0⟩ 0 3 1)) [i]).v + (2 : B64).v * (F.second ((F.rd exB64 (F.face1d ⟨2, 0⟩ 0 3 0)) [i]).v ((F.rd exB64 (F.face1d ⟨2, 0⟩ 0 3 0)) [i + 1]).v ((F.rd exB64 (F.cell1d ⟨1, 0⟩ 0 3 2)) [i - 1]).v ((F.rd exB64 (F.cell1d ⟨1, 0⟩ 0 3 2)) [i]).v ((F.rd exB64 (F.cell1d ⟨1, 0⟩ 0 3 2)) [i + 1]).v (exDxB 0).v) - (3 : B64).v * ((F.rd exB64 (F.cell1d ⟨1, 0⟩ 0 3 2)) [i]).v)
          (|((F.rd exB64 (F.cell1d ⟨9, 0⟩ 0 3 1)) [i]).v| + |(2 : B64).v| * (F.size2 ((F.rd exB64 (F.face1d ⟨2, 0⟩ 0 3 0)) [i]).v ((F.rd exB64 (F.face1d ⟨2, 0⟩ 0 3 0)) [i + 1]).v ((F.rd exB64 (F.cell1d ⟨1, 0⟩ 0 3 2)) [i - 1]).v ((F.rd exB64 (F.cell1d ⟨1, 0⟩ 0 3 2)) [i]).v ((F.rd exB64 (F.cell1d ⟨1, 0⟩ 0 3 2)) [i + 1]).v (exDxB 0).v) + |(3 : B64).v * ((F.rd exB64 (F.cell1d ⟨1, 0⟩ 0 3 2)) [i]).v|)) :=
  C82_res_v2_1d (fun _ => revBackend_ok) (fun _ => seqBackend_ok) (by decide) (by decide) (by decide) (by decide) exDxB_ne (by ex_argsB) (apart_blk (by decide)) (exB64_holds (exRat_ok rfl (by decide) (by decide))) (exB64_holds (exRat_ok rfl (by decide) (by decide))) (exB64_holds (exRat_ok rfl (by decide) (by decide)))

/-- The flux kernel followed by the residual kernel leaves `F + beta div(B grad U)` with an error of at most 8 rounding errors of the sum of the
sizes of the terms. -/
theorem C82_res_diffusion_1d {i0 i1 gcw fgcw rgcw : Int} {beta : B64} {dx : Nat → B64} {u b0 f f0 res : Ptr} {U G B0 : List Int → B64} {β1 β2 : Nat → Backend} {m : Mem B64}
    (hβ1 : ∀ n, ValidBackend (β1 n)) (hβ2 : ∀ n, ValidBackend (β2 n)) (hi : i0 ≤ i1) (hg : 1 ≤ gcw) (hfgcw : 0 ≤ fgcw) (hrgcw : 0 ≤ rgcw) (hdx : ∀ n, (dx n).v ≠ 0)
    (h : F.Args m [(F.cell1d u i0 i1 gcw), (F.cell1d f i0 i1 fgcw), (F.face1d b0 i0 i1 0)] [(F.face1d f0 i0 i1 0), (F.cell1d res i0 i1 rgcw)])
    (hr : F.Apart (F.cell1d res i0 i1 rgcw) (F.face1d f0 i0 i1 0))
    (hU : F.Holds m (F.cell1d u i0 i1 gcw) U) (hG : F.Holds m (F.cell1d f i0 i1 fgcw) G) (hB0 : F.Holds m (F.face1d b0 i0 i1 0) B0) :
    ∃ m1 m2, Cuda.flux1d i0 i1 dx b0 gcw u f0 β1 m = .ok m1 ∧ Cuda.poissonV1Res1d i0 i1 beta dx fgcw f f0 rgcw res β2 m1 = .ok m2 ∧
      (∀ i, i0 ≤ i → i ≤ i1 → ∃ v, F.El m2 (F.cell1d res i0 i1 rgcw) [i] v ∧
        F.Within 8 v ((G [i]).v + beta.v * (F.second (B0 [i]).v (B0 [i + 1]).v (U [i - 1]).v (U [i]).v (U [i + 1]).v (dx 0).v))
          (|(G [i]).v| + |beta.v| * (F.size2 (B0 [i]).v (B0 [i + 1]).v (U [i - 1]).v (U [i]).v (U [i + 1]).v (dx 0).v))) := by
  obtain ⟨m1, m2, c1, c2, -, -, -, W⟩ := rres_d_1 (beta := beta) (dx := dx) hβ1 hβ2 hi hg hfgcw hrgcw h hr
  refine ⟨m1, m2, c1, c2, fun i h0 h1 => ?_⟩
  have w := W i h0 h1
  rw [(hU [i] (by in_bounds)).rd, (hU [i - 1] (by in_bounds)).rd, (hU [i + 1] (by in_bounds)).rd, (hB0 [i] (by in_bounds)).rd, (hB0 [i + 1] (by in_bounds)).rd, (hG [i] (by in_bounds)).rd] at w
  refine ⟨_, w, Near.within (k := 7) (Near.eqs ((Near.datum _).add ((Near.datum beta).mul (near_second (hdx 0) (near_face (hdx 0)) (near_face (hdx 0))))) rfl ?_) (by ulps)⟩
  rfl

example :
    ∃ m1 m2, Cuda.flux1d 0 3 exDxB ⟨2, 0⟩ 2 ⟨1, 0⟩ ⟨5, 0⟩ (fun _ => revBackend) exB64 = .ok m1 ∧ Cuda.poissonV1Res1d 0 3 2 exDxB 1 ⟨9, 0⟩ ⟨5, 0⟩ 1 ⟨8, 0⟩ (fun _ => seqBackend) m1 = .ok m2 ∧
      (∀ i, 0 ≤ i → i ≤ 3 → ∃ v, F.El m2 (F.cell1d ⟨8, 0⟩ 0 3 1) [i] v ∧
        F.Within 8 v (((F.rd exB64 (F.cell1d ⟨9, 0⟩ 0 3 1)) [i]).v + (2 : B64).v * (F.second ((F.rd exB64 (F.face1d ⟨2, 0⟩ 0 3 0)) [i]).v ((F.rd exB64 (F.face1d ⟨2, 0⟩ 0 3 0)) [i + 1]).v ((F.rd exB64 (F.cell1d ⟨1, 0⟩ 0 3 2)) [i - 1]).v ((F.rd exB64 (F.cell1d ⟨1, 0⟩ 0 3 2)) [i]).v ((F.rd exB64 (F.cell1d ⟨1, 0⟩ 0 3 2)) [i + 1]).v (exDxB 0).v))
          (|((F.rd exB64 (F.cell1d ⟨9, 0⟩ 0 3 1)) [i]).v| + |(2 : B64).v| * (F.size2 ((F.rd exB64 (F.face1d ⟨2, 0⟩ 0 3 0)) [i]).v ((F.rd exB64 (F.face1d ⟨2, 0⟩ 0 3 0)) [i + 1]).v ((F.rd exB64 (F.cell1d ⟨1, 0⟩ 0 3 2)) [i - 1]).v ((F.rd exB64 (F.cell1d ⟨1, 0⟩ 0 3 2)) [i]).v ((F.rd exB64 (F.cell1d ⟨1, 0⟩ 0 3 2)) [i + 1]).v (exDxB 0).v))) :=
  C82_res_diffusion_1d (fun _ => revBackend_ok) (fun _ => seqBackend_ok) (by decide) (by decide) (by decide) (by decide) exDxB_ne (by ex_argsB) (apart_blk (by decide)) (exB64_holds (exRat_ok rfl (by decide) (by decide))) (exB64_holds (exRat_ok rfl (by decide) (by decide))) (exB64_holds (exRat_ok rfl (by decide) (by decide)))

/-- The flux kernel followed by the residual kernel leaves `F + beta div(grad U)` with an error of at most 7 rounding errors of the sum of the
sizes of the terms. -/
theorem C82_res_poisson_1d {i0 i1 gcw fgcw rgcw : Int} {beta : B64} {dx : Nat → B64} {u f f0 res : Ptr} {U G : List Int → B64} {β1 β2 : Nat → Backend} {m : Mem B64}
    (hβ1 : ∀ n, ValidBackend (β1 n)) (hβ2 : ∀ n, ValidBackend (β2 n)) (hi : i0 ≤ i1) (hg : 1 ≤ gcw) (hfgcw : 0 ≤ fgcw) (hrgcw : 0 ≤ rgcw) (hdx : ∀ n, (dx n).v ≠ 0)
    (h : F.Args m [(F.cell1d u i0 i1 gcw), (F.cell1d f i0 i1 fgcw)] [(F.face1d f0 i0 i1 0), (F.cell1d res i0 i1 rgcw)])
    (hr : F.Apart (F.cell1d res i0 i1 rgcw) (F.face1d f0 i0 i1 0))
    (hU : F.Holds m (F.cell1d u i0 i1 gcw) U) (hG : F.Holds m (F.cell1d f i0 i1 fgcw) G) :
    ∃ m1 m2, Cuda.poissonFlux1d i0 i1 dx gcw u f0 β1 m = .ok m1 ∧ Cuda.poissonV1Res1d i0 i1 beta dx fgcw f f0 rgcw res β2 m1 = .ok m2 ∧
      (∀ i, i0 ≤ i → i ≤ i1 → ∃ v, F.El m2 (F.cell1d res i0 i1 rgcw) [i] v ∧
        F.Within 7 v ((G [i]).v + beta.v * (F.second 1 1 (U [i - 1]).v (U [i]).v (U [i + 1]).v (dx 0).v))
          (|(G [i]).v| + |beta.v| * (F.size2 1 1 (U [i - 1]).v (U [i]).v (U [i + 1]).v (dx 0).v))) := by
  obtain ⟨m1, m2, c1, c2, -, -, -, W⟩ := rres_p_1 (beta := beta) (dx := dx) hβ1 hβ2 hi hg hfgcw hrgcw h hr
  refine ⟨m1, m2, c1, c2, fun i h0 h1 => ?_⟩
  have w := W i h0 h1
  rw [(hU [i] (by in_bounds)).rd, (hU [i - 1] (by in_bounds)).rd, (hU [i + 1] (by in_bounds)).rd, (hG [i] (by in_bounds)).rd] at w
  refine ⟨_, w, Near.within (k := 6) (Near.eqs ((Near.datum _).add ((Near.datum beta).mul (near_second (hdx 0) (near_face1 (hdx 0)) (near_face1 (hdx 0))))) rfl ?_) (by ulps)⟩
  rfl

example :
    ∃ m1 m2, Cuda.poissonFlux1d 0 3 exDxB 2 ⟨1, 0⟩ ⟨5, 0⟩ (fun _ => revBackend) exB64 = .ok m1 ∧ Cuda.poissonV1Res1d 0 3 2 exDxB 1 ⟨9, 0⟩ ⟨5, 0⟩ 1 ⟨8, 0⟩ (fun _ => seqBackend) m1 = .ok m2 ∧
      (∀ i, 0 ≤ i → i ≤ 3 → ∃ v, F.El m2 (F.cell1d ⟨8, 0⟩ 0 3 1) [i] v ∧
        F.Within 7 v (((F.rd exB64 (F.cell1d ⟨9, 0⟩ 0 3 1)) [i]).v + (2 : B64).v * (F.second 1 1 ((F.rd exB64 (F.cell1d ⟨1, 0⟩ 0 3 2)) [i - 1]).v ((F.rd exB64 (F.cell1d ⟨1, 0⟩ 0 3 2)) [i]).v ((F.rd exB64 (F.cell1d ⟨1, 0⟩ 0 3 2)) [i + 1]).v (exDxB 0).v))
          (|((F.rd exB64 (F.cell1d ⟨9, 0⟩ 0 3 1)) [i]).v| + |(2 : B64).v| * (F.size2 1 1 ((F.rd exB64 (F.cell1d ⟨1, 0⟩ 0 3 2)) [i - 1]).v ((F.rd exB64 (F.cell1d ⟨1, 0⟩ 0 3 2)) [i]).v ((F.rd exB64 (F.cell1d ⟨1, 0⟩ 0 3 2)) [i + 1]).v (exDxB 0).v))) :=
  C82_res_poisson_1d (fun _ => revBackend_ok) (fun _ => seqBackend_ok) (by decide) (by decide) (by decide) (by decide) exDxB_ne (by ex_argsB) (apart_blk (by decide)) (exB64_holds (exRat_ok rfl (by decide) (by decide))) (exB64_holds (exRat_ok rfl (by decide) (by decide)))

/-- The flux kernel followed by the residual kernel leaves `F - alpha A U + beta div(B grad U)` with an error of at most 10 rounding errors of the sum of the
sizes of the terms. -/
theorem C82_res_v1_2d {i0 j0 i1 j1 agcw gcw fgcw rgcw : Int} {alpha beta : B64} {dx : Nat → B64} {a u b0 b1 f f0 f1 res : Ptr} {A U G B0 B1 : List Int → B64} {β1 β2 : Nat → Backend} {m : Mem B64}
    (hβ1 : ∀ n, ValidBackend (β1 n)) (hβ2 : ∀ n, ValidBackend (β2 n)) (hi : i0 ≤ i1) (hj : j0 ≤ j1) (hg : 1 ≤ gcw) (hagcw : 0 ≤ agcw) (hfgcw : 0 ≤ fgcw) (hrgcw : 0 ≤ rgcw) (hdx : ∀ n, (dx n).v ≠ 0)
    (h : F.Args m [(F.cell2d a i0 j0 i1 j1 agcw), (F.cell2d u i0 j0 i1 j1 gcw), (F.cell2d f i0 j0 i1 j1 fgcw), (F.face2d0 b0 i0 j0 i1 j1 0), (F.face2d1 b1 i0 j0 i1 j1 0)] [(F.face2d0 f0 i0 j0 i1 j1 0), (F.face2d1 f1 i0 j0 i1 j1 0), (F.cell2d res i0 j0 i1 j1 rgcw)])
    (hp : F.Apart (F.face2d0 f0 i0 j0 i1 j1 0) (F.face2d1 f1 i0 j0 i1 j1 0))
    (hr : F.Apart (F.cell2d res i0 j0 i1 j1 rgcw) (F.face2d0 f0 i0 j0 i1 j1 0) ∧ F.Apart (F.cell2d res i0 j0 i1 j1 rgcw) (F.face2d1 f1 i0 j0 i1 j1 0))
    (hA : F.Holds m (F.cell2d a i0 j0 i1 j1 agcw) A) (hU : F.Holds m (F.cell2d u i0 j0 i1 j1 gcw) U) (hG : F.Holds m (F.cell2d f i0 j0 i1 j1 fgcw) G) (hB0 : F.Holds m (F.face2d0 b0 i0 j0 i1 j1 0) B0) (hB1 : F.Holds m (F.face2d1 b1 i0 j0 i1 j1 0) B1) :
    ∃ m1 m2, Cuda.flux2d i0 j0 i1 j1 dx b0 b1 gcw u f0 f1 β1 m = .ok m1 ∧ Cuda.diffusionV1Res2d i0 i1 j0 j1 alpha beta dx agcw a gcw u fgcw f f0 f1 rgcw res β2 m1 = .ok m2 ∧
      (∀ i j, i0 ≤ i → i ≤ i1 → j0 ≤ j → j ≤ j1 → ∃ v, F.El m2 (F.cell2d res i0 j0 i1 j1 rgcw) [i, j] v ∧
        F.Within 10 v ((G [i, j]).v + beta.v * (F.second (B0 [i, j]).v (B0 [i + 1, j]).v (U [i - 1, j]).v (U [i, j]).v (U [i + 1, j]).v (dx 0).v + F.second (B1 [j, i]).v (B1 [j + 1, i]).v (U [i, j - 1]).v (U [i, j]).v (U [i, j + 1]).v (dx 1).v) - alpha.v * (A [i, j]).v * (U [i, j]).v)
          (|(G [i, j]).v| + |beta.v| * (F.size2 (B0 [i, j]).v (B0 [i + 1, j]).v (U [i - 1, j]).v (U [i, j]).v (U [i + 1, j]).v (dx 0).v + F.size2 (B1 [j, i]).v (B1 [j + 1, i]).v (U [i, j - 1]).v (U [i, j]).v (U [i, j + 1]).v (dx 1).v) + |alpha.v * (A [i, j]).v * (U [i, j]).v|)) := by
  obtain ⟨m1, m2, c1, c2, -, -, -, -, W⟩ := rres_v1_2 (alpha := alpha) (beta := beta) (dx := dx) hβ1 hβ2 hi hj hg hagcw hfgcw hrgcw h hp hr
  refine ⟨m1, m2, c1, c2, fun i j h0 h1 h2 h3 => ?_⟩
  have w := W i j h0 h1 h2 h3
  rw [(hU [i, j] (by in_bounds)).rd, (hU [i - 1, j] (by in_bounds)).rd, (hU [i + 1, j] (by in_bounds)).rd, (hU [i, j - 1] (by in_bounds)).rd, (hU [i, j + 1] (by in_bounds)).rd, (hB0 [i, j] (by in_bounds)).rd, (hB0 [i + 1, j] (by in_bounds)).rd, (hB1 [j, i] (by in_bounds)).rd, (hB1 [j + 1, i] (by in_bounds)).rd, (hA [i, j] (by in_bounds)).rd, (hG [i, j] (by in_bounds)).rd] at w
  refine ⟨_, w, Near.within (k := 9) (Near.eqs (((Near.datum _).add ((Near.datum beta).mul ((near_second (hdx 0) (near_face (hdx 0)) (near_face (hdx 0))).add (near_second (hdx 1) (near_face (hdx 1)) (near_face (hdx 1)))))).sub (((Near.datum alpha).mul (Near.datum _)).mul (Near.datum _))) rfl ?_) (by ulps)⟩
  rw [abs_mul (_ * _), abs_mul alpha.v]

example :
    ∃ m1 m2, Cuda.flux2d 0 1 2 3 exDxB ⟨2, 0⟩ ⟨3, 0⟩ 2 ⟨1, 0⟩ ⟨5, 0⟩ ⟨6, 0⟩ (fun _ => revBackend) exB64 = .ok m1 ∧ Cuda.diffusionV1Res2d 0 2 1 3 3 2 exDxB 1 ⟨0, 0⟩ 2 ⟨1, 0⟩ 1 ⟨9, 0⟩ ⟨5, 0⟩ ⟨6, 0⟩ 1 ⟨8, 0⟩ (fun _ => seqBackend) m1 = .ok m2 ∧
      (∀ i j, 0 ≤ i → i ≤ 2 → 1 ≤ j → j ≤ 3 → ∃ v, F.El m2 (F.cell2d ⟨8, 0⟩ 0 1 2 3 1) [i, j] v ∧
        F.Within 10 v (((F.rd exB64 (F.cell2d ⟨9, 0⟩ 0 1 2 3 1)) [i, j]).v + (2 : B64).v * (F.second ((F.rd exB64 (F.face2d0 ⟨2, 0⟩ 0 1 2 3 0)) [i, j]).v ((F.rd exB64 (F.face2d0 ⟨2, 0⟩ 0 1 2 3 0)) [i + 1, j]).v ((F.rd exB64 (F.cell2d ⟨1, 0⟩ 0 1 2 3 2)) [i - 1, j]).v ((F.rd exB64 (F.cell2d ⟨1, 0⟩ 0 1 2 3 2)) [i, j]).v ((F.rd exB64 (F.cell2d ⟨1, 0⟩ 0 1 2 3 2)) [i + 1, j]).v (exDxB 0).v + F.second ((F.rd exB64 (F.face2d1 ⟨3, 0⟩ 0 1 2 3 0)) [j, i]).v ((F.rd exB64 (F.face2d1 ⟨3, 0⟩ 0 1 2 3 0)) [j + 1, i]).v ((F.rd exB64 (F.cell2d ⟨1, 0⟩ 0 1 2 3 2)) [i, j - 1]).v ((F.rd exB64 (F.cell2d ⟨1, 0⟩ 0 1 2 3 2)) [i, j]).v ((F.rd exB64 (F.cell2d ⟨1, 0⟩ 0 1 2 3 2)) [i, j + 1]).v (exDxB 1).v) - (3 : B64).v * ((F.rd exB64 (F.cell2d ⟨0, 0⟩ 0 1 2 3 1)) [i, j]).v * ((F.rd exB64 (F.cell2d ⟨1, 0⟩ 0 1 2 3 2)) [i, j]).v)
          (|((F.rd exB64 (F.cell2d ⟨9, 0⟩ 0 1 2 3 1)) [i, j]).v| + |(2 : B64).v| * (F.size2 ((F.rd exB64 (F.face2d0 ⟨2, 0⟩ 0 1 2 3 0)) [i, j]).v ((F.rd exB64 (F.face2d0 ⟨2, 0⟩ 0 1 2 3 0)) [i + 1, j]).v ((F.rd exB64 (F.cell2d ⟨1, 0⟩ 0 1 2 3 2)) [i - 1, j]).v ((F.rd exB64 (F.cell2d ⟨1, 0⟩ 0 1 2 3 2)) [i, j]).v ((F.rd exB64 (F.cell2d ⟨1, 0⟩ 0 1 2 3 2)) [i + 1, j]).v (exDxB 0).v + F.size2 ((F.rd exB64 (F.face2d1 ⟨3, 0⟩ 0 1 2 3 0)) [j, i]).v ((F.rd exB64 (F.face2d1 ⟨3, 0⟩ 0 1 2 3 0)) [j + 1, i]).v ((F.rd exB64 (F.cell2d ⟨1, 0⟩ 0 1 2 3 2)) [i, j - 1]).v ((F.rd exB64 (F.cell2d ⟨1, 0⟩ 0 1 2 3 2)) [i, j]).v ((F.rd exB64 (F.cell2d ⟨1, 0⟩ 0 1 2 3 2)) [i, j + 1]).v (exDxB 1).v) + |(3 : B64).v * ((F.rd exB64 (F.cell2d ⟨0, 0⟩ 0 1 2 3 1)) [i, j]).v * ((F.rd exB64 (F.cell2d ⟨1, 0⟩ 0 1 2 3 2)) [i, j]).v|)) :=
  C82_res_v1_2d (fun _ => revBackend_ok) (fun _ => seqBackend_ok) (by decide) (by decide) (by decide) (by decide) (by decide) (by decide) exDxB_ne (by ex_argsB) (apart_blk (by decide)) ⟨apart_blk (by decide), apart_blk (by decide)⟩ (exB64_holds (exRat_ok rfl (by decide) (by decide))) (exB64_holds (exRat_ok rfl (by decide) (by decide))) (exB64_holds (exRat_ok rfl (by decide) (by decide))) (exB64_holds (exRat_ok rfl (by decide) (by decide))) (exB64_holds (exRat_ok rfl (by decide) (by decide)))

/-- The flux kernel followed by the residual kernel leaves `F - alpha U + beta div(B grad U)` with an error of at most 10 rounding errors of the sum of the
sizes of the terms. -/
theorem C82_res_v2_2d {i0 j0 i1 j1 gcw fgcw rgcw : Int} {alpha beta : B64} {dx : Nat → B64} {u b0 b1 f f0 f1 res : Ptr} {U G B0 B1 : List Int → B64} {β1 β2 : Nat → Backend} {m : Mem B64}
    (hβ1 : ∀ n, ValidBackend (β1 n)) (hβ2 : ∀ n, ValidBackend (β2 n)) (hi : i0 ≤ i1) (hj : j0 ≤ j1) (hg : 1 ≤ gcw) (hfgcw : 0 ≤ fgcw) (hrgcw : 0 ≤ rgcw) (hdx : ∀ n, (dx n).v ≠ 0)
    (h : F.Args m [(F.cell2d u i0 j0 i1 j1 gcw), (F.cell2d f i0 j0 i1 j1 fgcw), (F.face2d0 b0 i0 j0 i1 j1 0), (F.face2d1 b1 i0 j0 i1 j1 0)] [(F.face2d0 f0 i0 j0 i1 j1 0), (F.face2d1 f1 i0 j0 i1 j1 0), (F.cell2d res i0 j0 i1 j1 rgcw)])
    (hp : F.Apart (F.face2d0 f0 i0 j0 i1 j1 0) (F.face2d1 f1 i0 j0 i1 j1 0))
    (hr : F.Apart (F.cell2d res i0 j0 i1 j1 rgcw) (F.face2d0 f0 i0 j0 i1 j1 0) ∧ F.Apart (F.cell2d res i0 j0 i1 j1 rgcw) (F.face2d1 f1 i0 j0 i1 j1 0))
    (hU : F.Holds m (F.cell2d u i0 j0 i1 j1 gcw) U) (hG : F.Holds m (F.cell2d f i0 j0 i1 j1 fgcw) G) (hB0 : F.Holds m (F.face2d0 b0 i0 j0 i1 j1 0) B0) (hB1 : F.Holds m (F.face2d1 b1 i0 j0 i1 j1 0) B1) :
    ∃ m1 m2, Cuda.flux2d i0 j0 i1 j1 dx b0 b1 gcw u f0 f1 β1 m = .ok m1 ∧ Cuda.diffusionV2Res2d i0 i1 j0 j1 alpha beta dx gcw u fgcw f f0 f1 rgcw res β2 m1 = .ok m2 ∧
      (∀ i j, i0 ≤ i → i ≤ i1 → j0 ≤ j → j ≤ j1 → ∃ v, F.El m2 (F.cell2d res i0 j0 i1 j1 rgcw) [i, j] v ∧
        F.Within 10 v ((G [i, j]).v + beta.v * (F.second (B0 [i, j]).v (B0 [i + 1, j]).v (U [i - 1, j]).v (U [i, j]).v (U [i + 1, j]).v (dx 0).v + F.second (B1 [j, i]).v (B1 [j + 1, i]).v (U [i, j - 1]).v (U [i, j]).v (U [i, j + 1]).v (dx 1).v) - alpha.v * (U [i, j]).v)
          (|(G [i, j]).v| + |beta.v| * (F.size2 (B0 [i, j]).v (B0 [i + 1, j]).v (U [i - 1, j]).v (U [i, j]).v (U [i + 1, j]).v (dx 0).v + F.size2 (B1 [j, i]).v (B1 [j + 1, i]).v (U [i, j - 1]).v (U [i, j]).v (U [i, j + 1]).v (dx 1).v) + |alpha.v * (U [i, j]).v|)) := by
  obtain ⟨m1, m2, c1, c2, -, -, -, -, W⟩ := rres_v2_2 (alpha := alpha) (beta := beta) (dx := dx) hβ1 hβ2 hi hj hg hfgcw hrgcw h hp hr
  refine ⟨m1, m2, c1, c2, fun i j h0 h1 h2 h3 => ?_⟩
  have w := W i j h0 h1 h2 h3
  rw [(hU [i, j] (by in_bounds)).rd, (hU [i - 1, j] (by in_bounds)).rd, (hU [i + 1, j] (by in_bounds)).rd, (hU [i, j - 1] (by in_bounds)).rd, (hU [i, j + 1] (by in_bounds)).rd, (hB0 [i, j] (by in_bounds)).rd, (hB0 [i + 1, j] (by in_bounds)).rd, (hB1 [j, i] (by in_bounds)).rd, (hB1 [j + 1, i] (by in_bounds)).rd, (hG [i, j] (by in_bounds)).rd] at w
  refine ⟨_, w, Near.within (k := 9) (Near.eqs (((Near.datum _).add ((Near.datum beta).mul ((near_second (hdx 0) (near_face (hdx 0)) (near_face (hdx 0))).add (near_second (hdx 1) (near_face (hdx 1)) (near_face (hdx 1)))))).sub ((Near.datum alpha).mul (Near.datum _))) rfl ?_) (by ulps)⟩
  rw [abs_mul alpha.v]

example :
    ∃ m1 m2, Cuda.flux2d 0 1 2 3 exDxB ⟨2, 0⟩ ⟨3, 0⟩ 2 ⟨1, 0⟩ ⟨5, 0⟩ ⟨6, 0⟩ (fun _ => revBackend) exB64 = .ok m1 ∧ Cuda.diffusionV2Res2d 0 2 1 3 3 2 exDxB 2 ⟨1, 0⟩ 1 ⟨9, 0⟩ ⟨5, 0⟩ ⟨6, 0⟩ 1 ⟨8, 0⟩ (fun _ => seqBackend) m1 = .ok m2 ∧
      (∀ i j, 0 ≤ i → i ≤ 2 → 1 ≤ j → j ≤ 3 → ∃ v, F.El m2 (F.cell2d ⟨8, 0⟩ 0 1 2 3 1) [i, j] v ∧
        F.Within 10 v (((F.rd exB64 (F.cell2d ⟨9, 0⟩ 0 1 2 3 1)) [i, j]).v + (2 : B64).v * (F.second ((F.rd exB64 (F.face2d0 ⟨2, 0⟩ 0 1 2 3 0)) [i, j]).v ((F.rd exB64 (F.face2d0 ⟨2, 0⟩ 0 1 2 3 0)) [i + 1, j]).v ((F.rd exB64 (F.cell2d ⟨1, 0⟩ 0 1 2 3 2)) [i - 1, j]).v ((F.rd exB64 (F.cell2d ⟨1, 0⟩ 0 1 2 3 2)) [i, j]).v ((F.rd exB64 (F.cell2d ⟨1, 0⟩ 0 1 2 3 2)) [i + 1, j]).v (exDxB 0).v + F.second ((F.rd exB64 (F.face2d1 ⟨3, 0⟩ 0 1 2 3 0)) [j, i]).v ((F.rd exB64 (F.face2d1 ⟨3, 0⟩ 0 1 2 3 0)) [j + 1, i]).v ((F.rd exB64 (F.cell2d ⟨1, 0⟩ 0 1 2 3 2)) [i, j - 1]).v ((F.rd exB64 (F.cell2d ⟨1, 0⟩ 0 1 2 3 2)) [i, j]).v ((F.rd exB64 (F.cell2d ⟨1, 0⟩ 0 1 2 3 2)) [i, j + 1]).v (exDxB 1).v) - (3 : B64).v * ((F.rd exB64 (F.cell2d ⟨1, 0⟩ 0 1 2 3 2)) [i, j]).v)
          (|((F.rd exB64 (F.cell2d ⟨9, 0⟩ 0 1 2 3 1)) [i, j]).v| + |(2 : B64).v| * (F.size2 ((F.rd exB64 (F.face2d0 ⟨2, 0⟩ 0 1 2 3 0)) [i, j]).v ((F.rd exB64 (F.face2d0 ⟨2, 0⟩ 0 1 2 3 0)) [i + 1, j]).v ((F.rd exB64 (F.cell2d ⟨1, 0⟩ 0 1 2 3 2)) [i - 1, j]).v ((F.rd exB64 (F.cell2d ⟨1, 0⟩ 0 1 2 3 2)) [i, j]).v ((F.rd exB64 (F.cell2d ⟨1, 0⟩ 0 1 2 3 2)) [i + 1, j]).v (exDxB 0).v + F.size2 ((F.rd exB64 (F.face2d1 ⟨3, 0⟩ 0 1 2 3 0)) [j, i]).v ((F.rd exB64 (F.face2d1 ⟨3, 0⟩ 0 1 2 3 0)) [j + 1, i]).v ((F.rd exB64 (F.cell2d ⟨1, 0⟩ 0 1 2 3 2)) [i, j - 1]).v ((F.rd exB64 (F.cell2d ⟨1, 0⟩ 0 1 2 3 2)) [i, j]).v ((F.rd exB64 (F.cell2d ⟨1, 0⟩ 0 1 2 3 2)) [i, j + 1]).v (exDxB 1).v) + |(3 : B64).v * ((F.rd exB64 (F.cell2d ⟨1, 0⟩ 0 1 2 3 2)) [i, j]).v|)) :=
  C82_res_v2_2d (fun _ => revBackend_ok) (fun _ => seqBackend_ok) (by decide) (by decide) (by decide) (by decide) (by decide) exDxB_ne (by ex_argsB) (apart_blk (by decide)) ⟨apart_blk (by decide), apart_blk (by decide)⟩ (exB64_holds (exRat_ok rfl (by decide) (by decide))) (exB64_holds (exRat_ok rfl (by decide) (by decide))) (exB64_holds (exRat_ok rfl (by decide) (by decide))) (exB64_holds (exRat_ok rfl (by decide) (by decide)))

/-- The flux kernel followed by the residual kernel leaves `F + beta div(B grad U)` with an error of at most 9 rounding errors of the sum of the
sizes of the terms. -/
theorem C82_res_diffusion_2d {i0 j0 i1 j1 gcw fgcw rgcw : Int} {beta : B64} {dx : Nat → B64} {u b0 b1 f f0 f1 res : Ptr} {U G B0 B1 : List Int → B64} {β1 β2 : Nat → Backend} {m : Mem B64}
    (hβ1 : ∀ n, ValidBackend (β1 n)) (hβ2 : ∀ n, ValidBackend (β2 n)) (hi : i0 ≤ i1) (hj : j0 ≤ j1) (hg : 1 ≤ gcw) (hfgcw : 0 ≤ fgcw) (hrgcw : 0 ≤ rgcw) (hdx : ∀ n, (dx n).v ≠ 0)
    (h : F.Args m [(F.cell2d u i0 j0 i1 j1 gcw), (F.cell2d f i0 j0 i1 j1 fgcw), (F.face2d0 b0 i0 j0 i1 j1 0), (F.face2d1 b1 i0 j0 i1 j1 0)] [(F.face2d0 f0 i0 j0 i1 j1 0), (F.face2d1 f1 i0 j0 i1 j1 0), (F.cell2d res i0 j0 i1 j1 rgcw)])
    (hp : F.Apart (F.face2d0 f0 i0 j0 i1 j1 0) (F.face2d1 f1 i0 j0 i1 j1 0))
    (hr : F.Apart (F.cell2d res i0 j0 i1 j1 rgcw) (F.face2d0 f0 i0 j0 i1 j1 0) ∧ F.Apart (F.cell2d res i0 j0 i1 j1 rgcw) (F.face2d1 f1 i0 j0 i1 j1 0))
    (hU : F.Holds m (F.cell2d u i0 j0 i1 j1 gcw) U) (hG : F.Holds m (F.cell2d f i0 j0 i1 j1 fgcw) G) (hB0 : F.Holds m (F.face2d0 b0 i0 j0 i1 j1 0) B0) (hB1 : F.Holds m (F.face2d1 b1 i0 j0 i1 j1 0) B1) :
    ∃ m1 m2, Cuda.flux2d i0 j0 i1 j1 dx b0 b1 gcw u f0 f1 β1 m = .ok m1 ∧ Cuda.poissonV1Res2d i0 i1 j0 j1 beta dx fgcw f f0 f1 rgcw res β2 m1 = .ok m2 ∧
      (∀ i j, i0 ≤ i → i ≤ i1 → j0 ≤ j → j ≤ j1 → ∃ v, F.El m2 (F.cell2d res i0 j0 i1 j1 rgcw) [i, j] v ∧
        F.Within 9 v ((G [i, j]).v + beta.v * (F.second (B0 [i, j]).v (B0 [i + 1, j]).v (U [i - 1, j]).v (U [i, j]).v (U [i + 1, j]).v (dx 0).v + F.second (B1 [j, i]).v (B1 [j + 1, i]).v (U [i, j - 1]).v (U [i, j]).v (U [i, j + 1]).v (dx 1).v))
          (|(G [i, j]).v| + |beta.v| * (F.size2 (B0 [i, j]).v (B0 [i + 1, j]).v (U [i - 1, j]).v (U [i, j]).v (U [i + 1, j]).v (dx 0).v + F.size2 (B1 [j, i]).v (B1 [j + 1, i]).v (U [i, j - 1]).v (U [i, j]).v (U [i, j + 1]).v (dx 1).v))) := by
  obtain ⟨m1, m2, c1, c2, -, -, -, -, W⟩ := rres_d_2 (beta := beta) (dx := dx) hβ1 hβ2 hi hj hg hfgcw hrgcw h hp hr
  refine ⟨m1, m2, c1, c2, fun i j h0 h1 h2 h3 => ?_⟩
  have w := W i j h0 h1 h2 h3
  rw [(hU [i, j] (by in_bounds)).rd, (hU [i - 1, j] (by in_bounds)).rd, (hU [i + 1, j] (by in_bounds)).rd, (hU [i, j - 1] (by in_bounds)).rd, (hU [i, j + 1] (by in_bounds)).rd, (hB0 [i, j] (by in_bounds)).rd, (hB0 [i + 1, j] (by in_bounds)).rd, (hB1 [j, i] (by in_bounds)).rd, (hB1 [j + 1, i] (by in_bounds)).rd, (hG [i, j] (by in_bounds)).rd] at w
  refine ⟨_, w, Near.within (k := 8) (Near.eqs ((Near.datum _).add ((Near.datum beta).mul ((near_second (hdx 0) (near_face (hdx 0)) (near_face (hdx 0))).add (near_second (hdx 1) (near_face (hdx 1)) (near_face (hdx 1)))))) rfl ?_) (by ulps)⟩
  rfl

example :
    ∃ m1 m2, Cuda.flux2d 0 1 2 3 exDxB ⟨2, 0⟩ ⟨3, 0⟩ 2 ⟨1, 0⟩ ⟨5, 0⟩ ⟨6, 0⟩ (fun _ => revBackend) exB64 = .ok m1 ∧ Cuda.poissonV1Res2d 0 2 1 3 2 exDxB 1 ⟨9, 0⟩ ⟨5, 0⟩ ⟨6, 0⟩ 1 ⟨8, 0⟩ (fun _ => seqBackend) m1 = .ok m2 ∧
      (∀ i j, 0 ≤ i → i ≤ 2 → 1 ≤ j → j ≤ 3 → ∃ v, F.El m2 (F.cell2d ⟨8, 0⟩ 0 1 2 3 1) [i, j] v ∧
        F.Within 9 v (((F.rd exB64 (F.cell2d ⟨9, 0⟩ 0 1 2 3 1)) [i, j]).v + (2 : B64).v * (F.second ((F.rd exB64 (F.face2d0 ⟨2, 0⟩ 0 1 2 3 0)) [i, j]).v ((F.rd exB64 (F.face2d0 ⟨2, 0⟩ 0 1 2 3 0)) [i + 1, j]).v ((F.rd exB64 (F.cell2d ⟨1, 0⟩ 0 1 2 3 2)) [i - 1, j]).v ((F.rd exB64 (F.cell2d ⟨1, 0⟩ 0 1 2 3 2)) [i, j]).v ((F.rd exB64 (F.cell2d ⟨1, 0⟩ 0 1 2 3 2)) [i + 1, j]).v (exDxB 0).v + F.second ((F.rd exB64 (F.face2d1 ⟨3, 0⟩ 0 1 2 3 0)) [j, i]).v ((F.rd exB64 (F.face2d1 ⟨3, 0⟩ 0 1 2 3 0)) [j + 1, i]).v ((F.rd exB64 (F.cell2d ⟨1, 0⟩ 0 1 2 3 2)) [i, j - 1]).v ((F.rd exB64 (F.cell2d ⟨1, 0⟩ 0 1 2 3 2)) [i, j]).v ((F.rd exB64 (F.cell2d ⟨1, 0⟩ 0 1 2 3 2)) [i, j + 1]).v (exDxB 1).v))
          (|((F.rd exB64 (F.cell2d ⟨9, 0⟩ 0 1 2 3 1)) [i, j]).v| + |(2 : B64).v| * (F.size2 ((F.rd exB64 (F.face2d0 ⟨2, 0⟩ 0 1 2 3 0)) [i, j]).v ((F.rd exB64 (F.face2d0 ⟨2, 0⟩ 0 1 2 3 0)) [i + 1, j]).v ((F.rd exB64 (F.cell2d ⟨1, 0⟩ 0 1 2 3 2)) [i - 1, j]).v ((F.rd exB64 (F.cell2d ⟨1, 0⟩ 0 1 2 3 2)) [i, j]).v ((F.rd exB64 (F.cell2d ⟨1, 0⟩ 0 1 2 3 2)) [i + 1, j]).v (exDxB 0).v + F.size2 ((F.rd exB64 (F.face2d1 ⟨3, 0⟩ 0 1 2 3 0)) [j, i]).v ((F.rd exB64 (F.face2d1 ⟨3, 0⟩ 0 1 2 3 0)) [j + 1, i]).v ((F.rd exB64 (F.cell2d ⟨1, 0⟩ 0 1 2 3 2)) [i, j - 1]).v ((F.rd exB64 (F.cell2d ⟨1, 0⟩ 0 1 2 3 2)) [i, j]).v ((F.rd exB64 (F.cell2d ⟨1, 0⟩ 0 1 2 3 2)) [i, j + 1]).v (exDxB 1).v))) :=
  C82_res_diffusion_2d (fun _ => revBackend_ok) (fun _ => seqBackend_ok) (by decide) (by decide) (by decide) (by decide) (by decide) exDxB_ne (by ex_argsB) (apart_blk (by decide)) ⟨apart_blk (by decide), apart_blk (by decide)⟩ (exB64_holds (exRat_ok rfl (by decide) (by decide))) (exB64_holds (exRat_ok rfl (by decide) (by decide))) (exB64_holds (exRat_ok rfl (by decide) (by decide))) (exB64_holds (exRat_ok rfl (by decide) (by decide)))

/-- The flux kernel followed by the residual kernel leaves `F + beta div(grad U)` with an error of at most 8 rounding errors of the sum of the
sizes of the terms. -/
theorem C82_res_poisson_2d {i0 j0 i1 j1 gcw fgcw rgcw : Int} {beta : B64} {dx : Nat → B64} {u f f0 f1 res : Ptr} {U G : List Int → B64} {β1 β2 : Nat → Backend} {m : Mem B64}
    (hβ1 : ∀ n, ValidBackend (β1 n)) (hβ2 : ∀ n, ValidBackend (β2 n)) (hi : i0 ≤ i1) (hj : j0 ≤ j1) (hg : 1 ≤ gcw) (hfgcw : 0 ≤ fgcw) (hrgcw : 0 ≤ rgcw) (hdx : ∀ n, (dx n).v ≠ 0)
    (h : F.Args m [(F.cell2d u i0 j0 i1 j1 gcw), (F.cell2d f i0 j0 i1 j1 fgcw)] [(F.face2d0 f0 i0 j0 i1 j1 0), (F.face2d1 f1 i0 j0 i1 j1 0), (F.cell2d res i0 j0 i1 j1 rgcw)])
    (hp : F.Apart (F.face2d0 f0 i0 j0 i1 j1 0) (F.face2d1 f1 i0 j0 i1 j1 0))
    (hr : F.Apart (F.cell2d res i0 j0 i1 j1 rgcw) (F.face2d0 f0 i0 j0 i1 j1 0) ∧ F.Apart (F.cell2d res i0 j0 i1 j1 rgcw) (F.face2d1 f1 i0 j0 i1 j1 0))
    (hU : F.Holds m (F.cell2d u i0 j0 i1 j1 gcw) U) (hG : F.Holds m (F.cell2d f i0 j0 i1 j1 fgcw) G) :
    ∃ m1 m2, Cuda.poissonFlux2d i0 j0 i1 j1 dx gcw u f0 f1 β1 m = .ok m1 ∧ Cuda.poissonV1Res2d i0 i1 j0 j1 beta dx fgcw f f0 f1 rgcw res β2 m1 = .ok m2 ∧
      (∀ i j, i0 ≤ i → i ≤ i1 → j0 ≤ j → j ≤ j1 → ∃ v, F.El m2 (F.cell2d res i0 j0 i1 j1 rgcw) [i, j] v ∧
        F.Within 8 v ((G [i, j]).v + beta.v * (F.second 1 1 (U [i - 1, j]).v (U [i, j]).v (U [i + 1, j]).v (dx 0).v + F.second 1 1 (U [i, j - 1]).v (U [i, j]).v (U [i, j + 1]).v (dx 1).v))
          (|(G [i, j]).v| + |beta.v| * (F.size2 1 1 (U [i - 1, j]).v (U [i, j]).v (U [i + 1, j]).v (dx 0).v + F.size2 1 1 (U [i, j - 1]).v (U [i, j]).v (U [i, j + 1]).v (dx 1).v))) := by
  obtain ⟨m1, m2, c1, c2, -, -, -, -, W⟩ := rres_p_2 (beta := beta) (dx := dx) hβ1 hβ2 hi hj hg hfgcw hrgcw h hp hr
  refine ⟨m1, m2, c1, c2, fun i j h0 h1 h2 h3 => ?_⟩
  have w := W i j h0 h1 h2 h3
  rw [(hU [i, j] (by in_bounds)).rd, (hU [i - 1, j] (by in_bounds)).rd, (hU [i + 1, j] (by in_bounds)).rd, (hU [i, j - 1] (by in_bounds)).rd, (hU [i, j + 1] (by in_bounds)).rd, (hG [i, j] (by in_bounds)).rd] at w
  refine ⟨_, w, Near.within (k := 7) (Near.eqs ((Near.datum _).add ((Near.datum beta).mul ((near_second (hdx 0) (near_face1 (hdx 0)) (near_face1 (hdx 0))).add (near_second (hdx 1) (near_face1 (hdx 1)) (near_face1 (hdx 1)))))) rfl ?_) (by ulps)⟩
  rfl

example :
    ∃ m1 m2, Cuda.poissonFlux2d 0 1 2 3 exDxB 2 ⟨1, 0⟩ ⟨5, 0⟩ ⟨6, 0⟩ (fun _ => revBackend) exB64 = .ok m1 ∧ Cuda.poissonV1Res2d 0 2 1 3 2 exDxB 1 ⟨9, 0⟩ ⟨5, 0⟩ ⟨6, 0⟩ 1 ⟨8, 0⟩ (fun _ => seqBackend) m1 = .ok m2 ∧
      (∀ i j, 0 ≤ i → i ≤ 2 → 1 ≤ j → j ≤ 3 → ∃ v, F.El m2 (F.cell2d ⟨8, 0⟩ 0 1 2 3 1) [i, j] v ∧
        F.Within 8 v (((F.rd exB64 (F.cell2d ⟨9, 0⟩ 0 1 2 3 1)) [i, j]).v + (2 : B64).v * (F.second 1 1 ((F.rd exB64 (F.cell2d ⟨1, 0⟩ 0 1 2 3 2)) [i - 1, j]).v ((F.rd exB64 (F.cell2d ⟨1, 0⟩ 0 1 2 3 2)) [i, j]).v ((F.rd exB64 (F.cell2d ⟨1, 0⟩ 0 1 2 3 2)) [i + 1, j]).v (exDxB 0).v + F.second 1 1 ((F.rd exB64 (F.cell2d ⟨1, 0⟩ 0 1 2 3 2)) [i, j - 1]).v ((F.rd exB64 (F.cell2d ⟨1, 0⟩ 0 1 2 3 2)) [i, j]).v ((F.rd exB64 (F.cell2d ⟨1, 0⟩ 0 1 2 3 2)) [i, j + 1]).v (exDxB 1).v))
          (|((F.rd exB64 (F.cell2d ⟨9, 0⟩ 0 1 2 3 1)) [i, j]).v| + |(2 : B64).v| * (F.size2 1 1 ((F.rd exB64 (F.cell2d ⟨1, 0⟩ 0 1 2 3 2)) [i - 1, j]).v ((F.rd exB64 (F.cell2d ⟨1, 0⟩ 0 1 2 3 2)) [i, j]).v ((F.rd exB64 (F.cell2d ⟨1, 0⟩ 0 1 2 3 2)) [i + 1, j]).v (exDxB 0).v + F.size2 1 1 ((F.rd exB64 (F.cell2d ⟨1, 0⟩ 0 1 2 3 2)) [i, j - 1]).v ((F.rd exB64 (F.cell2d ⟨1, 0⟩ 0 1 2 3 2)) [i, j]).v ((F.rd exB64 (F.cell2d ⟨1, 0⟩ 0 1 2 3 2)) [i, j + 1]).v (exDxB 1).v))) :=
  C82_res_poisson_2d (fun _ => revBackend_ok) (fun _ => seqBackend_ok) (by decide) (by decide) (by decide) (by decide) (by decide) exDxB_ne (by ex_argsB) (apart_blk (by decide)) ⟨apart_blk (by decide), apart_blk (by decide)⟩ (exB64_holds (exRat_ok rfl (by decide) (by decide))) (exB64_holds (exRat_ok rfl (by decide) (by decide)))

/-- The flux kernel followed by the residual kernel leaves `F - alpha A U + beta div(B grad U)` with an error of at most 11 rounding errors of the sum of the
sizes of the terms. -/
theorem C82_res_v1_3d {i0 j0 k0 i1 j1 k1 agcw gcw fgcw rgcw : Int} {alpha beta : B64} {dx : Nat → B64} {a u b0 b1 b2 f f0 f1 f2 res : Ptr} {A U G B0 B1 B2 : List Int → B64} {β1 β2 : Nat → Backend} {m : Mem B64}
    (hβ1 : ∀ n, ValidBackend (β1 n)) (hβ2 : ∀ n, ValidBackend (β2 n)) (hi : i0 ≤ i1) (hj : j0 ≤ j1) (hk : k0 ≤ k1) (hg : 1 ≤ gcw) (hagcw : 0 ≤ agcw) (hfgcw : 0 ≤ fgcw) (hrgcw : 0 ≤ rgcw) (hdx : ∀ n, (dx n).v ≠ 0)
    (h : F.Args m [(F.cell3d a i0 j0 k0 i1 j1 k1 agcw), (F.cell3d u i0 j0 k0 i1 j1 k1 gcw), (F.cell3d f i0 j0 k0 i1 j1 k1 fgcw), (F.face3d0 b0 i0 j0 k0 i1 j1 k1 0), (F.face3d1 b1 i0 j0 k0 i1 j1 k1 0), (F.face3d2 b2 i0 j0 k0 i1 j1 k1 0)] [(F.face3d0 f0 i0 j0 k0 i1 j1 k1 0), (F.face3d1 f1 i0 j0 k0 i1 j1 k1 0), (F.face3d2 f2 i0 j0 k0 i1 j1 k1 0), (F.cell3d res i0 j0 k0 i1 j1 k1 rgcw)])
    (hp : F.Apart (F.face3d0 f0 i0 j0 k0 i1 j1 k1 0) (F.face3d1 f1 i0 j0 k0 i1 j1 k1 0) ∧ F.Apart (F.face3d0 f0 i0 j0 k0 i1 j1 k1 0) (F.face3d2 f2 i0 j0 k0 i1 j1 k1 0) ∧ F.Apart (F.face3d1 f1 i0 j0 k0 i1 j1 k1 0) (F.face3d2 f2 i0 j0 k0 i1 j1 k1 0))
    (hr : F.Apart (F.cell3d res i0 j0 k0 i1 j1 k1 rgcw) (F.face3d0 f0 i0 j0 k0 i1 j1 k1 0) ∧ F.Apart (F.cell3d res i0 j0 k0 i1 j1 k1 rgcw) (F.face3d1 f1 i0 j0 k0 i1 j1 k1 0) ∧ F.Apart (F.cell3d res i0 j0 k0 i1 j1 k1 rgcw) (F.face3d2 f2 i0 j0 k0 i1 j1 k1 0))
    (hA : F.Holds m (F.cell3d a i0 j0 k0 i1 j1 k1 agcw) A) (hU : F.Holds m (F.cell3d u i0 j0 k0 i1 j1 k1 gcw) U) (hG : F.Holds m (F.cell3d f i0 j0 k0 i1 j1 k1 fgcw) G) (hB0 : F.Holds m (F.face3d0 b0 i0 j0 k0 i1 j1 k1 0) B0) (hB1 : F.Holds m (F.face3d1 b1 i0 j0 k0 i1 j1 k1 0) B1) (hB2 : F.Holds m (F.face3d2 b2 i0 j0 k0 i1 j1 k1 0) B2) :
    ∃ m1 m2, Cuda.flux3d i0 j0 k0 i1 j1 k1 dx b0 b1 b2 gcw u f0 f1 f2 β1 m = .ok m1 ∧ Cuda.diffusionV1Res3d i0 i1 j0 j1 k0 k1 alpha beta dx agcw a gcw u fgcw f f0 f1 f2 rgcw res β2 m1 = .ok m2 ∧
      (∀ i j k, i0 ≤ i → i ≤ i1 → j0 ≤ j → j ≤ j1 → k0 ≤ k → k ≤ k1 → ∃ v, F.El m2 (F.cell3d res i0 j0 k0 i1 j1 k1 rgcw) [i, j, k] v ∧
        F.Within 11 v ((G [i, j, k]).v + beta.v * (F.second (B0 [i, j, k]).v (B0 [i + 1, j, k]).v (U [i - 1, j, k]).v (U [i, j, k]).v (U [i + 1, j, k]).v (dx 0).v + F.second (B1 [j, k, i]).v (B1 [j + 1, k, i]).v (U [i, j - 1, k]).v (U [i, j, k]).v (U [i, j + 1, k]).v (dx 1).v + F.second (B2 [k, i, j]).v (B2 [k + 1, i, j]).v (U [i, j, k - 1]).v (U [i, j, k]).v (U [i, j, k + 1]).v (dx 2).v) - alpha.v * (A [i, j, k]).v * (U [i, j, k]).v)
          (|(G [i, j, k]).v| + |beta.v| * (F.size2 (B0 [i, j, k]).v (B0 [i + 1, j, k]).v (U [i - 1, j, k]).v (U [i, j, k]).v (U [i + 1, j, k]).v (dx 0).v + F.size2 (B1 [j, k, i]).v (B1 [j + 1, k, i]).v (U [i, j - 1, k]).v (U [i, j, k]).v (U [i, j + 1, k]).v (dx 1).v + F.size2 (B2 [k, i, j]).v (B2 [k + 1, i, j]).v (U [i, j, k - 1]).v (U [i, j, k]).v (U [i, j, k + 1]).v (dx 2).v) + |alpha.v * (A [i, j, k]).v * (U [i, j, k]).v|)) := by
  obtain ⟨m1, m2, c1, c2, -, -, -, -, -, W⟩ := rres_v1_3 (alpha := alpha) (beta := beta) (dx := dx) hβ1 hβ2 hi hj hk hg hagcw hfgcw hrgcw h hp hr
  refine ⟨m1, m2, c1, c2, fun i j k h0 h1 h2 h3 h4 h5 => ?_⟩
  have w := W i j k h0 h1 h2 h3 h4 h5
  rw [(hU [i, j, k] (by in_bounds)).rd, (hU [i - 1, j, k] (by in_bounds)).rd, (hU [i + 1, j, k] (by in_bounds)).rd, (hU [i, j - 1, k] (by in_bounds)).rd, (hU [i, j + 1, k] (by in_bounds)).rd, (hU [i, j, k - 1] (by in_bounds)).rd, (hU [i, j, k + 1] (by in_bounds)).rd, (hB0 [i, j, k] (by in_bounds)).rd, (hB0 [i + 1, j, k] (by in_bounds)).rd, (hB1 [j, k, i] (by in_bounds)).rd, (hB1 [j + 1, k, i] (by in_bounds)).rd, (hB2 [k, i, j] (by in_bounds)).rd, (hB2 [k + 1, i, j] (by in_bounds)).rd, (hA [i, j, k] (by in_bounds)).rd, (hG [i, j, k] (by in_bounds)).rd] at w
  refine ⟨_, w, Near.within (k := 10) (Near.eqs (((Near.datum _).add ((Near.datum beta).mul (((near_second (hdx 0) (near_face (hdx 0)) (near_face (hdx 0))).add (near_second (hdx 1) (near_face (hdx 1)) (near_face (hdx 1)))).add (near_second (hdx 2) (near_face (hdx 2)) (near_face (hdx 2)))))).sub (((Near.datum alpha).mul (Near.datum _)).mul (Near.datum _))) rfl ?_) (by ulps)⟩
  rw [abs_mul (_ * _), abs_mul alpha.v]

example :
    ∃ m1 m2, Cuda.flux3d 0 1 2 1 2 3 exDxB ⟨2, 0⟩ ⟨3, 0⟩ ⟨4, 0⟩ 2 ⟨1, 0⟩ ⟨5, 0⟩ ⟨6, 0⟩ ⟨7, 0⟩ (fun _ => revBackend) exB64 = .ok m1 ∧ Cuda.diffusionV1Res3d 0 1 1 2 2 3 3 2 exDxB 1 ⟨0, 0⟩ 2 ⟨1, 0⟩ 1 ⟨9, 0⟩ ⟨5, 0⟩ ⟨6, 0⟩ ⟨7, 0⟩ 1 ⟨8, 0⟩ (fun _ => seqBackend) m1 = .ok m2 ∧
      (∀ i j k, 0 ≤ i → i ≤ 1 → 1 ≤ j → j ≤ 2 → 2 ≤ k → k ≤ 3 → ∃ v, F.El m2 (F.cell3d ⟨8, 0⟩ 0 1 2 1 2 3 1) [i, j, k] v ∧
        F.Within 11 v (((F.rd exB64 (F.cell3d ⟨9, 0⟩ 0 1 2 1 2 3 1)) [i, j, k]).v + (2 : B64).v * (F.second ((F.rd exB64 (F.face3d0 ⟨2, 0⟩ 0 1 2 1 2 3 0)) [i, j, k]).v ((F.rd exB64 (F.face3d0 ⟨2, 0⟩ 0 1 2 1 2 3 0)) [i + 1, j, k]).v ((F.rd exB64 (F.cell3d ⟨1, 0⟩ 0 1 2 1 2 3 2)) [i - 1, j, k]).v ((F.rd exB64 (F.cell3d ⟨1, 0⟩ 0 1 2 1 2 3 2)) [i, j, k]).v ((F.rd exB64 (F.cell3d ⟨1, 0⟩ 0 1 2 1 2 3 2)) [i + 1, j, k]).v (exDxB 0).v + F.second ((F.rd exB64 (F.face3d1 ⟨3, 0⟩ 0 1 2 1 2 3 0)) [j, k, i]).v ((F.rd exB64 (F.face3d1 ⟨3, 0⟩ 0 1 2 1 2 3 0)) [j + 1, k, i]).v ((F.rd exB64 (F.cell3d ⟨1, 0⟩ 0 1 2 1 2 3 2)) [i, j - 1, k]).v ((F.rd exB64 (F.cell3d ⟨1, 0⟩ 0 1 2 1 2 3 2)) [i, j, k]).v ((F.rd exB64 (F.cell3d ⟨1, 0⟩ 0 1 2 1 2 3 2)) [i, j + 1, k]).v (exDxB 1).v + F.second ((F.rd exB64 (F.face3d2 ⟨4, 0⟩ 0 1 2 1 2 3 0)) [k, i, j]).v ((F.rd exB64 (F.face3d2 ⟨4, 0⟩ 0 1 2 1 2 3 0)) [k + 1, i, j]).v ((F.rd exB64 (F.cell3d ⟨1, 0⟩ 0 1 2 1 2 3 2)) [i, j, k - 1]).v ((F.rd exB64 (F.cell3d ⟨1, 0⟩ 0 1 2 1 2 3 2)) [i, j, k]).v ((F.rd exB64 (F.cell3d ⟨1, 0⟩ 0 1 2 1 2 3 2)) [i, j, k + 1]).v (exDxB 2).v) - (3 : B64).v * ((F.rd exB64 (F.cell3d ⟨0, 0⟩ 0 1 2 1 2 3 1)) [i, j, k]).v * ((F.rd exB64 (F.cell3d ⟨1, 0⟩ 0 1 2 1 2 3 2)) [i, j, k]).v)
          (|((F.rd exB64 (F.cell3d ⟨9, 0⟩ 0 1 2 1 2 3 1)) [i, j, k]).v| + |(2 : B64).v| * (F.size2 ((F.rd exB64 (F.face3d0 ⟨2, 0⟩ 0 1 2 1 2 3 0)) [i, j, k]).v ((F.rd exB64 (F.face3d0 ⟨2, 0⟩ 0 1 2 1 2 3 0)) [i + 1, j, k]).v ((F.rd exB64 (F.cell3d ⟨1, 0⟩ 0 1 2 1 2 3 2)) [i - 1, j, k]).v ((F.rd exB64 (F.cell3d ⟨1, 0⟩ 0 1 2 1 2 3 2)) [i, j, k]).v ((F.rd exB64 (F.cell3d ⟨1, 0⟩ 0 1 2 1 2 3 2)) [i + 1, j, k]).v (exDxB 0).v + F.size2 ((F.rd exB64 (F.face3d1 ⟨3, 0⟩ 0 1 2 1 2 3 0)) [j, k, i]).v ((F.rd exB64 (F.face3d1 ⟨3, 0⟩ 0 1 2 1 2 3 0)) [j + 1, k, i]).v ((F.rd exB64 (F.cell3d ⟨1, 0⟩ 0 1 2 1 2 3 2)) [i, j - 1, k]).v ((F.rd exB64 (F.cell3d ⟨1, 0⟩ 0 1 2 1 2 3 2)) [i, j, k]).v ((F.rd exB64 (F.cell3d ⟨1, 0⟩ 0 1 2 1 2 3 2)) [i, j + 1, k]).v (exDxB 1).v + F.size2 ((F.rd exB64 (F.face3d2 ⟨4, 0⟩ 0 1 2 1 2 3 0)) [k, i, j]).v ((F.rd exB64 (F.face3d2 ⟨4, 0⟩ 0 1 2 1 2 3 0)) [k + 1, i, j]).v ((F.rd exB64 (F.cell3d ⟨1, 0⟩ 0 1 2 1 2 3 2)) [i, j, k - 1]).v ((F.rd exB64 (F.cell3d ⟨1, 0⟩ 0 1 2 1 2 3 2)) [i, j, k]).v ((F.rd exB64 (F.cell3d ⟨1, 0⟩ 0 1 2 1 2 3 2)) [i, j, k + 1]).v (exDxB 2).v) + |(3 : B64).v * ((F.rd exB64 (F.cell3d ⟨0, 0⟩ 0 1 2 1 2 3 1)) [i, j, k]).v * ((F.rd exB64 (F.cell3d ⟨1, 0⟩ 0 1 2 1 2 3 2)) [i, j, k]).v|)) :=
  C82_res_v1_3d (fun _ => revBackend_ok) (fun _ => seqBackend_ok) (by decide) (by decide) (by decide) (by decide) (by decide) (by decide) (by decide) exDxB_ne (by ex_argsB) (⟨apart_blk (by decide), apart_blk (by decide), apart_blk (by decide)⟩) ⟨apart_blk (by decide), apart_blk (by decide), apart_blk (by decide)⟩ (exB64_holds (exRat_ok rfl (by decide) (by decide))) (exB64_holds (exRat_ok rfl (by decide) (by decide))) (exB64_holds (exRat_ok rfl (by decide) (by decide))) (exB64_holds (exRat_ok rfl (by decide) (by decide))) (exB64_holds (exRat_ok rfl (by decide) (by decide))) (exB64_holds (exRat_ok rfl (by decide) (by decide)))

/-- The flux kernel followed by the residual kernel leaves `F - alpha U + beta div(B grad U)` with an error of at most 11 rounding errors of the sum of the
sizes of the terms. -/
theorem C82_res_v2_3d {i0 j0 k0 i1 j1 k1 gcw fgcw rgcw : Int} {alpha beta : B64} {dx : Nat → B64} {u b0 b1 b2 f f0 f1 f2 res : Ptr} {U G B0 B1 B2 : List Int → B64} {β1 β2 : Nat → Backend} {m : Mem B64}
    (hβ1 : ∀ n, ValidBackend (β1 n)) (hβ2 : ∀ n, ValidBackend (β2 n)) (hi : i0 ≤ i1) (hj : j0 ≤ j1) (hk : k0 ≤ k1) (hg : 1 ≤ gcw) (hfgcw : 0 ≤ fgcw) (hrgcw : 0 ≤ rgcw) (hdx : ∀ n, (dx n).v ≠ 0)
    (h : F.Args m [(F.cell3d u i0 j0 k0 i1 j1 k1 gcw), (F.cell3d f i0 j0 k0 i1 j1 k1 fgcw), (F.face3d0 b0 i0 j0 k0 i1 j1 k1 0), (F.face3d1 b1 i0 j0 k0 i1 j1 k1 0), (F.face3d2 b2 i0 j0 k0 i1 j1 k1 0)] [(F.face3d0 f0 i0 j0 k0 i1 j1 k1 0), (F.face3d1 f1 i0 j0 k0 i1 j1 k1 0), (F.face3d2 f2 i0 j0 k0 i1 j1 k1 0), (F.cell3d res i0 j0 k0 i1 j1 k1 rgcw)])
    (hp : F.Apart (F.face3d0 f0 i0 j0 k0 i1 j1 k1 0) (F.face3d1 f1 i0 j0 k0 i1 j1 k1 0) ∧ F.Apart (F.face3d0 f0 i0 j0 k0 i1 j1 k1 0) (F.face3d2 f2 i0 j0 k0 i1 j1 k1 0) ∧ F.Apart (F.face3d1 f1 i0 j0 k0 i1 j1 k1 0) (F.face3d2 f2 i0 j0 k0 i1 j1 k1 0))
    (hr : F.Apart (F.cell3d res i0 j0 k0 i1 j1 k1 rgcw) (F.face3d0 f0 i0 j0 k0 i1 j1 k1 0) ∧ F.Apart (F.cell3d res i0 j0 k0 i1 j1 k1 rgcw) (F.face3d1 f1 i0 j0 k0 i1 j1 k1 0) ∧ F.Apart (F.cell3d res i0 j0 k0 i1 j1 k1 rgcw) (F.face3d2 f2 i0 j0 k0 i1 j1 k1 0))
    (hU : F.Holds m (F.cell3d u i0 j0 k0 i1 j1 k1 gcw) U) (hG : F.Holds m (F.cell3d f i0 j0 k0 i1 j1 k1 fgcw) G) (hB0 : F.Holds m (F.face3d0 b0 i0 j0 k0 i1 j1 k1 0) B0) (hB1 : F.Holds m (F.face3d1 b1 i0 j0 k0 i1 j1 k1 0) B1) (hB2 : F.Holds m (F.face3d2 b2 i0 j0 k0 i1 j1 k1 0) B2) :
    ∃ m1 m2, Cuda.flux3d i0 j0 k0 i1 j1 k1 dx b0 b1 b2 gcw u f0 f1 f2 β1 m = .ok m1 ∧ Cuda.diffusionV2Res3d i0 i1 j0 j1 k0 k1 alpha beta dx gcw u fgcw f f0 f1 f2 rgcw res β2 m1 = .ok m2 ∧
      (∀ i j k, i0 ≤ i → i ≤ i1 → j0 ≤ j → j ≤ j1 → k0 ≤ k → k ≤ k1 → ∃ v, F.El m2 (F.cell3d res i0 j0 k0 i1 j1 k1 rgcw) [i, j, k] v ∧
        F.Within 11 v ((G [i, j, k]).v + beta.v * (F.second (B0 [i, j, k]).v (B0 [i + 1, j, k]).v (U [i - 1, j, k]).v (U [i, j, k]).v (U [i + 1, j, k]).v (dx 0).v + F.second (B1 [j, k, i]).v (B1 [j + 1, k, i]).v (U [i, j - 1, k]).v (U [i, j, k]).v (U [i, j + 1, k]).v (dx 1).v + F.second (B2 [k, i, j]).v (B2 [k + 1, i, j]).v (U [i, j, k - 1]).v (U [i, j, k]).v (U [i, j, k + 1]).v (dx 2).v) - alpha.v * (U [i, j, k]).v)
          (|(G [i, j, k]).v| + |beta.v| * (F.size2 (B0 [i, j, k]).v (B0 [i + 1, j, k]).v (U [i - 1, j, k]).v (U [i, j, k]).v (U [i + 1, j, k]).v (dx 0).v + F.size2 (B1 [j, k, i]).v (B1 [j + 1, k, i]).v (U [i, j - 1, k]).v (U [i, j, k]).v (U [i, j + 1, k]).v (dx 1).v + F.size2 (B2 [k, i, j]).v (B2 [k + 1, i, j]).v (U [i, j, k - 1]).v (U [i, j, k]).v (U [i, j, k + 1]).v (dx 2).v) + |alpha.v * (U [i, j, k]).v|)) := by
  obtain ⟨m1, m2, c1, c2, -, -, -, -, -, W⟩ := rres_v2_3 (alpha := alpha) (beta := beta) (dx := dx) hβ1 hβ2 hi hj hk hg hfgcw hrgcw h hp hr
  refine ⟨m1, m2, c1, c2, fun i j k h0 h1 h2 h3 h4 h5 => ?_⟩
  have w := W i j k h0 h1 h2 h3 h4 h5
  rw [(hU [i, j, k] (by in_bounds)).rd, (hU [i - 1, j, k] (by in_bounds)).rd, (hU [i + 1, j, k] (by in_bounds)).rd, (hU [i, j - 1, k] (by in_bounds)).rd, (hU [i, j + 1, k] (by in_bounds)).rd, (hU [i, j, k - 1] (by in_bounds)).rd, (hU [i, j, k + 1] (by in_bounds)).rd, (hB0 [i, j, k] (by in_bounds)).rd, (hB0 [i + 1, j, k] (by in_bounds)).rd, (hB1 [j, k, i] (by in_bounds)).rd, (hB1 [j + 1, k, i] (by in_bounds)).rd, (hB2 [k, i, j] (by in_bounds)).rd, (hB2 [k + 1, i, j] (by in_bounds)).rd, (hG [i, j, k] (by in_bounds)).rd] at w
  refine ⟨_, w, Near.within (k := 10) (Near.eqs (((Near.datum _).add ((Near.datum beta).mul (((near_second (hdx 0) (near_face (hdx 0)) (near_face (hdx 0))).add (near_second (hdx 1) (near_face (hdx 1)) (near_face (hdx 1)))).add (near_second (hdx 2) (near_face (hdx 2)) (near_face (hdx 2)))))).sub ((Near.datum alpha).mul (Near.datum _))) rfl ?_) (by ulps)⟩
  rw [abs_mul alpha.v]

example :
    ∃ m1 m2, Cuda.flux3d 0 1 2 1 2 3 exDxB ⟨2, 0⟩ ⟨3, 0⟩ ⟨4, 0⟩ 2 ⟨1, 0⟩ ⟨5, 0⟩ ⟨6, 0⟩ ⟨7, 0⟩ (fun _ => revBackend) exB64 = .ok m1 ∧ Cuda.diffusionV2Res3d 0 1 1 2 2 3 3 2 exDxB 2 ⟨1, 0⟩ 1 ⟨9, 0⟩ ⟨5, 0⟩ ⟨6, 0⟩ ⟨7, 0⟩ 1 ⟨8, 0⟩ (fun _ => seqBackend) m1 = .ok m2 ∧
      (∀ i j k, 0 ≤ i → i ≤ 1 → 1 ≤ j → j ≤ 2 → 2 ≤ k → k ≤ 3 → ∃ v, F.El m2 (F.cell3d ⟨8, 0⟩ 0 1 2 1 2 3 1) [i, j, k] v ∧
        F.Within 11 v (((F.rd exB64 (F.cell3d ⟨9, 0⟩ 0 1 2 1 2 3 1)) [i, j, k]).v + (2 : B64).v * (F.second ((F.rd exB64 (F.face3d0 ⟨2, 0⟩ 0 1 2 1 2 3 0)) [i, j, k]).v ((F.rd exB64 (F.face3d0 ⟨2, 0⟩ 0 1 2 1 2 3 0)) [i + 1, j, k]).v ((F.rd exB64 (F.cell3d ⟨1, 0⟩ 0 1 2 1 2 3 2)) [i - 1, j, k]).v ((F.rd exB64 (F.cell3d ⟨1, 0⟩ 0 1 2 1 2 3 2)) [i, j, k]).v ((F.rd exB64 (F.cell3d ⟨1, 0⟩ 0 1 2 1 2 3 2)) [i + 1, j, k]).v (exDxB 0).v + F.second ((F.rd exB64 (F.face3d1 ⟨3, 0⟩ 0 1 2 1 2 3 0)) [j, k, i]).v ((F.rd exB64 (F.face3d1 ⟨3, 0⟩ 0 1 2 1 2 3 0)) [j + 1, k, i]).v ((F.rd exB64 (F.cell3d ⟨1, 0⟩ 0 1 2 1 2 3 2)) [i, j - 1, k]).v ((F.rd exB64 (F.cell3d ⟨1, 0⟩ 0 1 2 1 2 3 2)) [i, j, k]).v ((F.rd exB64 (F.cell3d ⟨1, 0⟩ 0 1 2 1 2 3 2)) [i, j + 1, k]).v (exDxB 1).v + F.second ((F.rd exB64 (F.face3d2 ⟨4, 0⟩ 0 1 2 1 2 3 0)) [k, i, j]).v ((F.rd exB64 (F.face3d2 ⟨4, 0⟩ 0 1 2 1 2 3 0)) [k + 1, i, j]).v ((F.rd exB64 (F.cell3d ⟨1, 0⟩ 0 1 2 1 2 3 2)) [i, j, k - 1]).v ((F.rd exB64 (F.cell3d ⟨1, 0⟩ 0 1 2 1 2 3 2)) [i, j, k]).v ((F.rd exB64 (F.cell3d ⟨1, 0⟩ 0 1 2 1 2 3 2)) [i, j, k + 1]).v (exDxB 2).v) - (3 : B64).v * ((F.rd exB64 (F.cell3d ⟨1, 0⟩ 0 1 2 1 2 3 2)) [i, j, k]).v)
          (|((F.rd exB64 (F.cell3d ⟨9, 0⟩ 0 1 2 1 2 3 1)) [i, j, k]).v| + |(2 : B64).v| * (F.size2 ((F.rd exB64 (F.face3d0 ⟨2, 0⟩ 0 1 2 1 2 3 0)) [i, j, k]).v ((F.rd exB64 (F.face3d0 ⟨2, 0⟩ 0 1 2 1 2 3 0)) [i + 1, j, k]).v ((F.rd exB64 (F.cell3d ⟨1, 0⟩ 0 1 2 1 2 3 2)) [i - 1, j, k]).v ((F.rd exB64 (F.cell3d ⟨1, 0⟩ 0 1 2 1 2 3 2)) [i, j, k]).v ((F.rd exB64 (F.cell3d ⟨1, 0⟩ 0 1 2 1 2 3 2)) [i + 1, j, k]).v (exDxB 0).v + F.size2 ((F.rd exB64 (F.face3d1 ⟨3, 0⟩ 0 1 2 1 2 3 0)) [j, k, i]).v ((F.rd exB64 (F.face3d1 ⟨3, 0⟩ 0 1 2 1 2 3 0)) [j + 1, k, i]).v ((F.rd exB64 (F.cell3d ⟨1, 0⟩ 0 1 2 1 2 3 2)) [i, j - 1, k]).v ((F.rd exB64 (F.cell3d ⟨1, 0⟩ 0 1 2 1 2 3 2)) [i, j, k]).v ((F.rd exB64 (F.cell3d ⟨1, 0⟩ 0 1 2 1 2 3 2)) [i, j + 1, k]).v (exDxB 1).v + F.size2 ((F.rd exB64 (F.face3d2 ⟨4, 0⟩ 0 1 2 1 2 3 0)) [k, i, j]).v ((F.rd exB64 (F.face3d2 ⟨4, 0⟩ 0 1 2 1 2 3 0)) [k + 1, i, j]).v ((F.rd exB64 (F.cell3d ⟨1, 0⟩ 0 1 2 1 2 3 2)) [i, j, k - 1]).v ((F.rd exB64 (F.cell3d ⟨1, 0⟩ 0 1 2 1 2 3 2)) [i, j, k]).v ((F.rd exB64 (F.cell3d ⟨1, 0⟩ 0 1 2 1 2 3 2)) [i, j, k + 1]).v (exDxB 2).v) + |(3 : B64).v * ((F.rd exB64 (F.cell3d ⟨1, 0⟩ 0 1 2 1 2 3 2)) [i, j, k]).v|)) :=
  C82_res_v2_3d (fun _ => revBackend_ok) (fun _ => seqBackend_ok) (by decide) (by decide) (by decide) (by decide) (by decide) (by decide) exDxB_ne (by ex_argsB) (⟨apart_blk (by decide), apart_blk (by decide), apart_blk (by decide)⟩) ⟨apart_blk (by decide), apart_blk (by decide), apart_blk (by decide)⟩ (exB64_holds (exRat_ok rfl (by decide) (by decide))) (exB64_holds (exRat_ok rfl (by decide) (by decide))) (exB64_holds (exRat_ok rfl (by decide) (by decide))) (exB64_holds (exRat_ok rfl (by decide) (by decide))) (exB64_holds (exRat_ok rfl (by decide) (by decide)))

/-- The flux kernel followed by the residual kernel leaves `F + beta div(B grad U)` with an error of at most 10 rounding errors of the sum of the
sizes of the terms. -/
theorem C82_res_diffusion_3d {i0 j0 k0 i1 j1 k1 gcw fgcw rgcw : Int} {beta : B64} {dx : Nat → B64} {u b0 b1 b2 f f0 f1 f2 res : Ptr} {U G B0 B1 B2 : List Int → B64} {β1 β2 : Nat → Backend} {m : Mem B64}
    (hβ1 : ∀ n, ValidBackend (β1 n)) (hβ2 : ∀ n, ValidBackend (β2 n)) (hi : i0 ≤ i1) (hj : j0 ≤ j1) (hk : k0 ≤ k1) (hg : 1 ≤ gcw) (hfgcw : 0 ≤ fgcw) (hrgcw : 0 ≤ rgcw) (hdx : ∀ n, (dx n).v ≠ 0)
    (h : F.Args m [(F.cell3d u i0 j0 k0 i1 j1 k1 gcw), (F.cell3d f i0 j0 k0 i1 j1 k1 fgcw), (F.face3d0 b0 i0 j0 k0 i1 j1 k1 0), (F.face3d1 b1 i0 j0 k0 i1 j1 k1 0), (F.face3d2 b2 i0 j0 k0 i1 j1 k1 0)] [(F.face3d0 f0 i0 j0 k0 i1 j1 k1 0), (F.face3d1 f1 i0 j0 k0 i1 j1 k1 0), (F.face3d2 f2 i0 j0 k0 i1 j1 k1 0), (F.cell3d res i0 j0 k0 i1 j1 k1 rgcw)])
    (hp : F.Apart (F.face3d0 f0 i0 j0 k0 i1 j1 k1 0) (F.face3d1 f1 i0 j0 k0 i1 j1 k1 0) ∧ F.Apart (F.face3d0 f0 i0 j0 k0 i1 j1 k1 0) (F.face3d2 f2 i0 j0 k0 i1 j1 k1 0) ∧ F.Apart (F.face3d1 f1 i0 j0 k0 i1 j1 k1 0) (F.face3d2 f2 i0 j0 k0 i1 j1 k1 0))
    (hr : F.Apart (F.cell3d res i0 j0 k0 i1 j1 k1 rgcw) (F.face3d0 f0 i0 j0 k0 i1 j1 k1 0) ∧ F.Apart (F.cell3d res i0 j0 k0 i1 j1 k1 rgcw) (F.face3d1 f1 i0 j0 k0 i1 j1 k1 0) ∧ F.Apart (F.cell3d res i0 j0 k0 i1 j1 k1 rgcw) (F.face3d2 f2 i0 j0 k0 i1 j1 k1 0))
    (hU : F.Holds m (F.cell3d u i0 j0 k0 i1 j1 k1 gcw) U) (hG : F.Holds m (F.cell3d f i0 j0 k0 i1 j1 k1 fgcw) G) (hB0 : F.Holds m (F.face3d0 b0 i0 j0 k0 i1 j1 k1 0) B0) (hB1 : F.Holds m (F.face3d1 b1 i0 j0 k0 i1 j1 k1 0) B1) (hB2 : F.Holds m (F.face3d2 b2 i0 j0 k0 i1 j1 k1 0) B2) :
    ∃ m1 m2, Cuda.flux3d i0 j0 k0 i1 j1 k1 dx b0 b1 b2 gcw u f0 f1 f2 β1 m = .ok m1 ∧ Cuda.poissonV1Res3d i0 i1 j0 j1 k0 k1 beta dx fgcw f f0 f1 f2 rgcw res β2 m1 = .ok m2 ∧
      (∀ i j k, i0 ≤ i → i ≤ i1 → j0 ≤ j → j ≤ j1 → k0 ≤ k → k ≤ k1 → ∃ v, F.El m2 (F.cell3d res i0 j0 k0 i1 j1 k1 rgcw) [i, j, k] v ∧
        F.Within 10 v ((G [i, j, k]).v + beta.v * (F.second (B0 [i, j, k]).v (B0 [i + 1, j, k]).v (U [i - 1, j, k]).v (U [i, j, k]).v (U [i + 1, j, k]).v (dx 0).v + F.second (B1 [j, k, i]).v (B1 [j + 1, k, i]).v (U [i, j - 1, k]).v (U [i, j, k]).v (U [i, j + 1, k]).v (dx 1).v + F.second (B2 [k, i, j]).v (B2 [k + 1, i, j]).v (U [i, j, k - 1]).v (U [i, j, k]).v (U [i, j, k + 1]).v (dx 2).v))
          (|(G [i, j, k]).v| + |beta.v| * (F.size2 (B0 [i, j, k]).v (B0 [i + 1, j, k]).v (U [i - 1, j, k]).v (U [i, j, k]).v (U [i + 1, j, k]).v (dx 0).v + F.size2 (B1 [j, k, i]).v (B1 [j + 1, k, i]).v (U [i, j - 1, k]).v (U [i, j, k]).v (U [i, j + 1, k]).v (dx 1).v + F.size2 (B2 [k, i, j]).v (B2 [k + 1, i, j]).v (U [i, j, k - 1]).v (U [i, j, k]).v (U [i, j, k + 1]).v (dx 2).v))) := by
  obtain ⟨m1, m2, c1, c2, -, -, -, -, -, W⟩ := rres_d_3 (beta := beta) (dx := dx) hβ1 hβ2 hi hj hk hg hfgcw hrgcw h hp hr
  refine ⟨m1, m2, c1, c2, fun i j k h0 h1 h2 h3 h4 h5 => ?_⟩
  have w := W i j k h0 h1 h2 h3 h4 h5
  rw [(hU [i, j, k] (by in_bounds)).rd, (hU [i - 1, j, k] (by in_bounds)).rd, (hU [i + 1, j, k] (by in_bounds)).rd, (hU [i, j - 1, k] (by in_bounds)).rd, (hU [i, j + 1, k] (by in_bounds)).rd, (hU [i, j, k - 1] (by in_bounds)).rd, (hU [i, j, k + 1] (by in_bounds)).rd, (hB0 [i, j, k] (by in_bounds)).rd, (hB0 [i + 1, j, k] (by in_bounds)).rd, (hB1 [j, k, i] (by in_bounds)).rd, (hB1 [j + 1, k, i] (by in_bounds)).rd, (hB2 [k, i, j] (by in_bounds)).rd, (hB2 [k + 1, i, j] (by in_bounds)).rd, (hG [i, j, k] (by in_bounds)).rd] at w
  refine ⟨_, w, Near.within (k := 9) (Near.eqs ((Near.datum _).add ((Near.datum beta).mul (((near_second (hdx 0) (near_face (hdx 0)) (near_face (hdx 0))).add (near_second (hdx 1) (near_face (hdx 1)) (near_face (hdx 1)))).add (near_second (hdx 2) (near_face (hdx 2)) (near_face (hdx 2)))))) rfl ?_) (by ulps)⟩
  rfl

example :
    ∃ m1 m2, Cuda.flux3d 0 1 2 1 2 3 exDxB ⟨2, 0⟩ ⟨3, 0⟩ ⟨4, 0⟩ 2 ⟨1, 0⟩ ⟨5, 0⟩ ⟨6, 0⟩ ⟨7, 0⟩ (fun _ => revBackend) exB64 = .ok m1 ∧ Cuda.poissonV1Res3d 0 1 1 2 2 3 2 exDxB 1 ⟨9, 0⟩ ⟨5, 0⟩ ⟨6, 0⟩ ⟨7, 0⟩ 1 ⟨8, 0⟩ (fun _ => seqBackend) m1 = .ok m2 ∧
      (∀ i j k, 0 ≤ i → i ≤ 1 → 1 ≤ j → j ≤ 2 → 2 ≤ k → k ≤ 3 → ∃ v, F.El m2 (F.cell3d ⟨8, 0⟩ 0 1 2 1 2 3 1) [i, j, k] v ∧
        F.Within 10 v (((F.rd exB64 (F.cell3d ⟨9, 0⟩ 0 1 2 1 2 3 1)) [i, j, k]).v + (2 : B64).v * (F.second ((F.rd exB64 (F.face3d0 ⟨2, 0⟩ 0 1 2 1 2 3 0)) [i, j, k]).v ((F.rd exB64 (F.face3d0 ⟨2, 0⟩ 0 1 2 1 2 3 0)) [i + 1, j, k]).v ((F.rd exB64 (F.cell3d ⟨1, 0⟩ 0 1 2 1 2 3 2)) [i - 1, j, k]).v ((F.rd exB64 (F.cell3d ⟨1, 0⟩ 0 1 2 1 2 3 2)) [i, j, k]).v ((F.rd exB64 (F.cell3d ⟨1, 0⟩ 0 1 2 1 2 3 2)) [i + 1, j, k]).v (exDxB 0).v + F.second ((F.rd exB64 (F.face3d1 ⟨3, 0⟩ 0 1 2 1 2 3 0)) [j, k, i]).v ((F.rd exB64 (F.face3d1 ⟨3, 0⟩ 0 1 2 1 2 3 0)) [j + 1, k, i]).v ((F.rd exB64 (F.cell3d ⟨1, 0⟩ 0 1 2 1 2 3 2)) [i, j - 1, k]).v ((F.rd exB64 (F.cell3d ⟨1, 0⟩ 0 1 2 1 2 3 2)) [i, j, k]).v ((F.rd exB64 (F.cell3d ⟨1, 0⟩ 0 1 2 1 2 3 2)) [i, j + 1, k]).v (exDxB 1).v + F.second ((F.rd exB64 (F.face3d2 ⟨4, 0⟩ 0 1 2 1 2 3 0)) [k, i, j]).v ((F.rd exB64 (F.face3d2 ⟨4, 0⟩ 0 1 2 1 2 3 0)) [k + 1, i, j]).v ((F.rd exB64 (F.cell3d ⟨1, 0⟩ 0 1 2 1 2 3 2)) [i, j, k - 1]).v ((F.rd exB64 (F.cell3d ⟨1, 0⟩ 0 1 2 1 2 3 2)) [i, j, k]).v ((F.rd exB64 (F.cell3d ⟨1, 0⟩ 0 1 2 1 2 3 2)) [i, j, k + 1]).v (exDxB 2).v))
          (|((F.rd exB64 (F.cell3d ⟨9, 0⟩ 0 1 2 1 2 3 1)) [i, j, k]).v| + |(2 : B64).v| * (F.size2 ((F.rd exB64 (F.face3d0 ⟨2, 0⟩ 0 1 2 1 2 3 0)) [i, j, k]).v ((F.rd exB64 (F.face3d0 ⟨2, 0⟩ 0 1 2 1 2 3 0)) [i + 1, j, k]).v ((F.rd exB64 (F.cell3d ⟨1, 0⟩ 0 1 2 1 2 3 2)) [i - 1, j, k]).v ((F.rd exB64 (F.cell3d ⟨1, 0⟩ 0 1 2 1 2 3 2)) [i, j, k]).v ((F.rd exB64 (F.cell3d ⟨1, 0⟩ 0 1 2 1 2 3 2)) [i + 1, j, k]).v (exDxB 0).v + F.size2 ((F.rd exB64 (F.face3d1 ⟨3, 0⟩ 0 1 2 1 2 3 0)) [j, k, i]).v ((F.rd exB64 (F.face3d1 ⟨3, 0⟩ 0 1 2 1 2 3 0)) [j + 1, k, i]).v ((F.rd exB64 (F.cell3d ⟨1, 0⟩ 0 1 2 1 2 3 2)) [i, j - 1, k]).v ((F.rd exB64 (F.cell3d ⟨1, 0⟩ 0 1 2 1 2 3 2)) [i, j, k]).v ((F.rd exB64 (F.cell3d ⟨1, 0⟩ 0 1 2 1 2 3 2)) [i, j + 1, k]).v (exDxB 1).v + F.size2 ((F.rd exB64 (F.face3d2 ⟨4, 0⟩ 0 1 2 1 2 3 0)) [k, i, j]).v ((F.rd exB64 (F.face3d2 ⟨4, 0⟩ 0 1 2 1 2 3 0)) [k + 1, i, j]).v ((F.rd exB64 (F.cell3d ⟨1, 0⟩ 0 1 2 1 2 3 2)) [i, j, k - 1]).v ((F.rd exB64 (F.cell3d ⟨1, 0⟩ 0 1 2 1 2 3 2)) [i, j, k]).v ((F.rd exB64 (F.cell3d ⟨1, 0⟩ 0 1 2 1 2 3 2)) [i, j, k + 1]).v (exDxB 2).v))) :=
  C82_res_diffusion_3d (fun _ => revBackend_ok) (fun _ => seqBackend_ok) (by decide) (by decide) (by decide) (by decide) (by decide) (by decide) exDxB_ne (by ex_argsB) (⟨apart_blk (by decide), apart_blk (by decide), apart_blk (by decide)⟩) ⟨apart_blk (by decide), apart_blk (by decide), apart_blk (by decide)⟩ (exB64_holds (exRat_ok rfl (by decide) (by decide))) (exB64_holds (exRat_ok rfl (by decide) (by decide))) (exB64_holds (exRat_ok rfl (by decide) (by decide))) (exB64_holds (exRat_ok rfl (by decide) (by decide))) (exB64_holds (exRat_ok rfl (by decide) (by decide)))

/-- The flux kernel followed by the residual kernel leaves `F + beta div(grad U)` with an error of at most 9 rounding errors of the sum of the
sizes of the terms. -/
theorem C82_res_poisson_3d {i0 j0 k0 i1 j1 k1 gcw fgcw rgcw : Int} {beta : B64} {dx : Nat → B64} {u f f0 f1 f2 res : Ptr} {U G : List Int → B64} {β1 β2 : Nat → Backend} {m : Mem B64}
    (hβ1 : ∀ n, ValidBackend (β1 n)) (hβ2 : ∀ n, ValidBackend (β2 n)) (hi : i0 ≤ i1) (hj : j0 ≤ j1) (hk : k0 ≤ k1) (hg : 1 ≤ gcw) (hfgcw : 0 ≤ fgcw) (hrgcw : 0 ≤ rgcw) (hdx : ∀ n, (dx n).v ≠ 0)
    (h : F.Args m [(F.cell3d u i0 j0 k0 i1 j1 k1 gcw), (F.cell3d f i0 j0 k0 i1 j1 k1 fgcw)] [(F.face3d0 f0 i0 j0 k0 i1 j1 k1 0), (F.face3d1 f1 i0 j0 k0 i1 j1 k1 0), (F.face3d2 f2 i0 j0 k0 i1 j1 k1 0), (F.cell3d res i0 j0 k0 i1 j1 k1 rgcw)])
    (hp : F.Apart (F.face3d0 f0 i0 j0 k0 i1 j1 k1 0) (F.face3d1 f1 i0 j0 k0 i1 j1 k1 0) ∧ F.Apart (F.face3d0 f0 i0 j0 k0 i1 j1 k1 0) (F.face3d2 f2 i0 j0 k0 i1 j1 k1 0) ∧ F.Apart (F.face3d1 f1 i0 j0 k0 i1 j1 k1 0) (F.face3d2 f2 i0 j0 k0 i1 j1 k1 0))
    (hr : F.Apart (F.cell3d res i0 j0 k0 i1 j1 k1 rgcw) (F.face3d0 f0 i0 j0 k0 i1 j1 k1 0) ∧ F.Apart (F.cell3d res i0 j0 k0 i1 j1 k1 rgcw) (F.face3d1 f1 i0 j0 k0 i1 j1 k1 0) ∧ F.Apart (F.cell3d res i0 j0 k0 i1 j1 k1 rgcw) (F.face3d2 f2 i0 j0 k0 i1 j1 k1 0))
    (hU : F.Holds m (F.cell3d u i0 j0 k0 i1 j1 k1 gcw) U) (hG : F.Holds m (F.cell3d f i0 j0 k0 i1 j1 k1 fgcw) G) :
    ∃ m1 m2, Cuda.poissonFlux3d i0 j0 k0 i1 j1 k1 dx gcw u f0 f1 f2 β1 m = .ok m1 ∧ Cuda.poissonV1Res3d i0 i1 j0 j1 k0 k1 beta dx fgcw f f0 f1 f2 rgcw res β2 m1 = .ok m2 ∧
      (∀ i j k, i0 ≤ i → i ≤ i1 → j0 ≤ j → j ≤ j1 → k0 ≤ k → k ≤ k1 → ∃ v, F.El m2 (F.cell3d res i0 j0 k0 i1 j1 k1 rgcw) [i, j, k] v ∧
        F.Within 9 v ((G [i, j, k]).v + beta.v * (F.second 1 1 (U [i - 1, j, k]).v (U [i, j, k]).v (U [i + 1, j, k]).v (dx 0).v + F.second 1 1 (U [i, j - 1, k]).v (U [i, j, k]).v (U [i, j + 1, k]).v (dx 1).v + F.second 1 1 (U [i, j, k - 1]).v (U [i, j, k]).v (U [i, j, k + 1]).v (dx 2).v))
          (|(G [i, j, k]).v| + |beta.v| * (F.size2 1 1 (U [i - 1, j, k]).v (U [i, j, k]).v (U [i + 1, j, k]).v (dx 0).v + F.size2 1 1 (U [i, j - 1, k]).v (U [i, j, k]).v (U [i, j + 1, k]).v (dx 1).v + F.size2 1 1 (U [i, j, k - 1]).v (U [i, j, k]).v (U [i, j, k + 1]).v (dx 2).v))) := by
  obtain ⟨m1, m2, c1, c2, -, -, -, -, -, W⟩ := rres_p_3 (beta := beta) (dx := dx) hβ1 hβ2 hi hj hk hg hfgcw hrgcw h hp hr
  refine ⟨m1, m2, c1, c2, fun i j k h0 h1 h2 h3 h4 h5 => ?_⟩
  have w := W i j k h0 h1 h2 h3 h4 h5
  rw [(hU [i, j, k] (by in_bounds)).rd, (hU [i - 1, j, k] (by in_bounds)).rd, (hU [i + 1, j, k] (by in_bounds)).rd, (hU [i, j - 1, k] (by in_bounds)).rd, (hU [i, j + 1, k] (by in_bounds)).rd, (hU [i, j, k - 1] (by in_bounds)).rd, (hU [i, j, k + 1] (by in_bounds)).rd, (hG [i, j, k] (by in_bounds)).rd] at w
  refine ⟨_, w, Near.within (k := 8) (Near.eqs ((Near.datum _).add ((Near.datum beta).mul (((near_second (hdx 0) (near_face1 (hdx 0)) (near_face1 (hdx 0))).add (near_second (hdx 1) (near_face1 (hdx 1)) (near_face1 (hdx 1)))).add (near_second (hdx 2) (near_face1 (hdx 2)) (near_face1 (hdx 2)))))) rfl ?_) (by ulps)⟩
  rfl

example :
    ∃ m1 m2, Cuda.poissonFlux3d 0 1 2 1 2 3 exDxB 2 ⟨1, 0⟩ ⟨5, 0⟩ ⟨6, 0⟩ ⟨7, 0⟩ (fun _ => revBackend) exB64 = .ok m1 ∧ Cuda.poissonV1Res3d 0 1 1 2 2 3 2 exDxB 1 ⟨9, 0⟩ ⟨5, 0⟩ ⟨6, 0⟩ ⟨7, 0⟩ 1 ⟨8, 0⟩ (fun _ => seqBackend) m1 = .ok m2 ∧
      (∀ i j k, 0 ≤ i → i ≤ 1 → 1 ≤ j → j ≤ 2 → 2 ≤ k → k ≤ 3 → ∃ v, F.El m2 (F.cell3d ⟨8, 0⟩ 0 1 2 1 2 3 1) [i, j, k] v ∧
        F.Within 9 v (((F.rd exB64 (F.cell3d ⟨9, 0⟩ 0 1 2 1 2 3 1)) [i, j, k]).v + (2 : B64).v * (F.second 1 1 ((F.rd exB64 (F.cell3d ⟨1, 0⟩ 0 1 2 1 2 3 2)) [i - 1, j, k]).v ((F.rd exB64 (F.cell3d ⟨1, 0⟩ 0 1 2 1 2 3 2)) [i, j, k]).v ((F.rd exB64 (F.cell3d ⟨1, 0⟩ 0 1 2 1 2 3 2)) [i + 1, j, k]).v (exDxB 0).v + F.second 1 1 ((F.rd exB64 (F.cell3d ⟨1, 0⟩ 0 1 2 1 2 3 2)) [i, j - 1, k]).v ((F.rd exB64 (F.cell3d ⟨1, 0⟩ 0 1 2 1 2 3 2)) [i, j, k]).v ((F.rd exB64 (F.cell3d ⟨1, 0⟩ 0 1 2 1 2 3 2)) [i, j + 1, k]).v (exDxB 1).v + F.second 1 1 ((F.rd exB64 (F.cell3d ⟨1, 0⟩ 0 1 2 1 2 3 2)) [i, j, k - 1]).v ((F.rd exB64 (F.cell3d ⟨1, 0⟩ 0 1 2 1 2 3 2)) [i, j, k]).v ((F.rd exB64 (F.cell3d ⟨1, 0⟩ 0 1 2 1 2 3 2)) [i, j, k + 1]).v (exDxB 2).v))
          (|((F.rd exB64 (F.cell3d ⟨9, 0⟩ 0 1 2 1 2 3 1)) [i, j, k]).v| + |(2 : B64).v| * (F.size2 1 1 ((F.rd exB64 (F.cell3d ⟨1, 0⟩ 0 1 2 1 2 3 2)) [i - 1, j, k]).v ((F.rd exB64 (F.cell3d ⟨1, 0⟩ 0 1 2 1 2 3 2)) [i, j, k]).v ((F.rd exB64 (F.cell3d ⟨1, 0⟩ 0 1 2 1 2 3 2)) [i + 1, j, k]).v (exDxB 0).v + F.size2 1 1 ((F.rd exB64 (F.cell3d ⟨1, 0⟩ 0 1 2 1 2 3 2)) [i, j - 1, k]).v ((F.rd exB64 (F.cell3d ⟨1, 0⟩ 0 1 2 1 2 3 2)) [i, j, k]).v ((F.rd exB64 (F.cell3d ⟨1, 0⟩ 0 1 2 1 2 3 2)) [i, j + 1, k]).v (exDxB 1).v + F.size2 1 1 ((F.rd exB64 (F.cell3d ⟨1, 0⟩ 0 1 2 1 2 3 2)) [i, j, k - 1]).v ((F.rd exB64 (F.cell3d ⟨1, 0⟩ 0 1 2 1 2 3 2)) [i, j, k]).v ((F.rd exB64 (F.cell3d ⟨1, 0⟩ 0 1 2 1 2 3 2)) [i, j, k + 1]).v (exDxB 2).v))) :=
  C82_res_poisson_3d (fun _ => revBackend_ok) (fun _ => seqBackend_ok) (by decide) (by decide) (by decide) (by decide) (by decide) (by decide) exDxB_ne (by ex_argsB) (⟨apart_blk (by decide), apart_blk (by decide), apart_blk (by decide)⟩) ⟨apart_blk (by decide), apart_blk (by decide), apart_blk (by decide)⟩ (exB64_holds (exRat_ok rfl (by decide) (by decide))) (exB64_holds (exRat_ok rfl (by decide) (by decide)))

end Verif
