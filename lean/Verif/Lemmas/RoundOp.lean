import Verif.Lemmas.FluxOrder
import Verif.Lemmas.Near
import Verif.Spec.Smooth
import Verif.Props.RoundFlux
import Verif.Props.RoundApply
import Verif.Props.RoundStencil
import Mathlib.Tactic.Tauto

/-
What the flux and apply kernels leave in 53 bit arithmetic, and the error of each part.
-/

namespace Verif
open Spec

set_option linter.unusedVariables false
set_option linter.unusedSimpArgs false
set_option linter.unusedTactic false
set_option linter.unreachableTactic false

theorem near_face {b x0 x1 d : B64} (hd : d.v ≠ 0) : Near 3 (b * ((x1 - x0) / d)) (F.face b.v x0.v x1.v d.v) |F.face b.v x0.v x1.v d.v| :=
  ((Near.datum b).mul ((Near.diff x1 x0).div hd)).eqs rfl (by unfold F.face; rw [abs_mul, abs_div])

theorem near_face1 {x0 x1 d : B64} (hd : d.v ≠ 0) : Near 2 ((x1 - x0) / d) (F.face 1 x0.v x1.v d.v) |F.face 1 x0.v x1.v d.v| :=
  ((Near.diff x1 x0).div hd).eqs (by unfold F.face; rw [one_mul]) (by unfold F.face; rw [one_mul, abs_div])

theorem near_second {k : Nat} {f0 f1 d : B64} {b0 b1 x0 x x1 : Rat} (hd : d.v ≠ 0) (h1 : Near k f1 (F.face b1 x x1 d.v) |F.face b1 x x1 d.v|)
    (h0 : Near k f0 (F.face b0 x0 x d.v) |F.face b0 x0 x d.v|) :
    Near (k + 2) ((f1 - f0) / d) (F.second b0 b1 x0 x x1 d.v) (F.size2 b0 b1 x0 x x1 d.v) := by
  have := (h1.sub h0).div hd
  rw [Nat.max_self] at this
  exact this

theorem near_off {beta b d : B64} (hd : d.v ≠ 0) : Near 4 (-(beta / (d * d)) * b) (-(beta.v / (d.v * d.v) * b.v)) |beta.v / (d.v * d.v) * b.v| :=
  ((((Near.datum beta).div_sq hd).neg).mul (Near.datum b)).eqs (by rw [neg_mul]) (by
    rw [abs_mul, abs_div, abs_of_pos (mul_self_pos.2 hd)])

theorem near_off1 {beta d : B64} (hd : d.v ≠ 0) : Near 3 (-(beta / (d * d))) (-(beta.v / (d.v * d.v))) |beta.v / (d.v * d.v)| :=
  (((Near.datum beta).div_sq hd).neg).eqs rfl (by
    rw [abs_div, abs_of_pos (mul_self_pos.2 hd)])

theorem F.el_of_rd {m : Mem B64} {a : F.Arr} {is : List Int} {v : B64} (h : F.ArrOK m a) (hi : F.InBounds a.dims is) (e : F.rd m a is = v) : F.El m a is v := by
  rw [← e]
  exact h.el_ld hi

theorem exB64_holds {a : F.Arr} (h : F.ArrOK exRat a) : F.Holds exB64 a (F.rd exB64 a) := fun _ hi => (exB64_ok h).el_ld hi

theorem exDxB_ne (n : Nat) : (exDxB n).v ≠ 0 := by
  intro e
  have r := rnd_error ((n : Rat) + 1 / 2)
  have p : (0 : Rat) < n + 1 / 2 := by positivity
  rw [show rnd ((n : Rat) + 1 / 2) = 0 from e, zero_sub, abs_neg, abs_of_pos p, le_div_iff₀ (by positivity)] at r
  nlinarith

/-- two runs after each other end with `v` at `q` -/
def lands (q : Ptr) (v : B64) (a : M (Mem B64)) (b : Mem B64 → M (Mem B64)) : Bool :=
  match a with
  | .ok m1 => match b m1 with
    | .ok m2 => decide (m2.val q = some v)
    | _ => false
  | _ => false

theorem lands_el {q : Ptr} {v : B64} {a : M (Mem B64)} {b : Mem B64 → M (Mem B64)} (h : lands q v a b = true) :
    ∃ m1 m2, a = .ok m1 ∧ b m1 = .ok m2 ∧ m2.val q = some v := by
  unfold lands at h
  split at h
  · rename_i m1
    split at h
    · rename_i m2 e
      exact ⟨m1, m2, rfl, e, of_decide_eq_true h⟩
    · simp at h
  · simp at h

/-- a memory of twos -/
theorem wB_two {a : F.Arr} (h : F.ArrOK exRat a) : F.Holds (wB fun _ _ => 2) a (fun _ => 2) := fun is hi => by
  obtain ⟨v, hv⟩ := h.alloc is hi
  refine ⟨hi, ?_⟩
  simp only [exRat] at hv
  split at hv
  · rename_i h
    exact if_pos h
  · simp at hv

macro "ulps" : tactic => `(tactic| (unfold ulp; norm_num))

theorem rop_v1_1 {i0 i1 agcw gcw rgcw : Int} {alpha beta : B64} {dx : Nat → B64} {a u b0 f0 res : Ptr} {β1 β2 : Nat → Backend} {m : Mem B64}
    (hβ1 : ∀ n, ValidBackend (β1 n)) (hβ2 : ∀ n, ValidBackend (β2 n)) (hi : i0 ≤ i1) (hg : 1 ≤ gcw) (hagcw : 0 ≤ agcw) (hrgcw : 0 ≤ rgcw)
    (h : F.Args m [(F.cell1d a i0 i1 agcw), (F.cell1d u i0 i1 gcw), (F.face1d b0 i0 i1 0)] [(F.face1d f0 i0 i1 0), (F.cell1d res i0 i1 rgcw)])
    (hr : F.Apart (F.cell1d res i0 i1 rgcw) (F.face1d f0 i0 i1 0)) :
    ∃ m1 m2, Cuda.flux1d i0 i1 dx b0 gcw u f0 β1 m = .ok m1 ∧ Cuda.diffusionV1Apply1d i0 i1 alpha beta dx agcw a gcw u f0 rgcw res β2 m1 = .ok m2 ∧ F.Kept [(F.face1d f0 i0 i1 0)] m m1 ∧ F.Kept [(F.cell1d res i0 i1 rgcw)] m1 m2 ∧
      (∀ i, i0 ≤ i → i ≤ i1 + 1 → F.El m1 (F.face1d f0 i0 i1 0) [i] (F.rd m (F.face1d b0 i0 i1 0) [i] * ((F.rd m (F.cell1d u i0 i1 gcw) [i] - F.rd m (F.cell1d u i0 i1 gcw) [i - 1]) / dx 0))) ∧
      (∀ i, i0 ≤ i → i ≤ i1 → F.El m2 (F.cell1d res i0 i1 rgcw) [i] (-(beta * ((F.rd m (F.face1d b0 i0 i1 0) [i + 1] * ((F.rd m (F.cell1d u i0 i1 gcw) [i + 1] - F.rd m (F.cell1d u i0 i1 gcw) [i]) / dx 0) - F.rd m (F.face1d b0 i0 i1 0) [i] * ((F.rd m (F.cell1d u i0 i1 gcw) [i] - F.rd m (F.cell1d u i0 i1 gcw) [i - 1]) / dx 0)) / dx 0)) + alpha * F.rd m (F.cell1d a i0 i1 agcw) [i] * F.rd m (F.cell1d u i0 i1 gcw) [i])) := by
  have h1 : F.Args m [(F.cell1d u i0 i1 gcw), (F.face1d b0 i0 i1 0)] [(F.face1d f0 i0 i1 0)] := h.sub (by intro x hx; simp only [List.mem_cons, List.not_mem_nil, or_false] at hx ⊢; tauto) (by intro x hx; simp only [List.mem_cons, List.not_mem_nil, or_false] at hx ⊢; tauto)
  obtain ⟨m1, c1, K1, V0⟩ := cflux1_run (dx := dx) hβ1 hi hg h1
  have h2 : F.Args m1 [(F.cell1d a i0 i1 agcw), (F.cell1d u i0 i1 gcw), (F.face1d f0 i0 i1 0)] [(F.cell1d res i0 i1 rgcw)] := by
    refine ⟨fun a ha => K1.ok (h.ok a ?_), ?_⟩
    · simp only [List.mem_cons, List.mem_append, List.not_mem_nil, or_false] at ha ⊢; tauto
    · simp only [List.mem_cons, List.not_mem_nil, or_false, forall_eq_or_imp, forall_eq]
      exact ⟨h.apart _ (by simp) _ (by simp), h.apart _ (by simp) _ (by simp), hr⟩
  obtain ⟨m2, q2, -, K2, W⟩ := v1apply1_run (alpha := alpha) (beta := beta) (dx := dx) hi hagcw (by omega) hrgcw h2
  obtain ⟨m2', c2, e2⟩ := C49_v1_apply_1d (alpha := alpha) (beta := beta) (dx := dx) (β := β2) hβ2 B64.neg_mul hi hagcw (by omega) hrgcw h2
  obtain rfl : m2 = m2' := Except.ok.inj (q2.symm.trans e2)
  refine ⟨m1, m2, c1, c2, K1, K2, V0, fun i h0 h1 => ?_⟩
  have w := W i h0 h1
  have e0a := (V0 (i + 1) (by omega) (by omega)).rd
  rw [add_sub_cancel_right] at e0a
  have e0b := (V0 i (by omega) (by omega)).rd
  have ea : F.rd m1 (F.cell1d a i0 i1 agcw) [i] = F.rd m (F.cell1d a i0 i1 agcw) [i] := K1.rd (by intro o ho; refine h.apart o ?_ _ (by simp); simp only [List.mem_cons, List.not_mem_nil, or_false] at ho ⊢; tauto) (by in_bounds)
  have eu : F.rd m1 (F.cell1d u i0 i1 gcw) [i] = F.rd m (F.cell1d u i0 i1 gcw) [i] := K1.rd (by intro o ho; refine h.apart o ?_ _ (by simp); simp only [List.mem_cons, List.not_mem_nil, or_false] at ho ⊢; tauto) (by in_bounds)
  rw [e0a, e0b, ea, eu] at w
  exact w

theorem rop_v2_1 {i0 i1 gcw rgcw : Int} {alpha beta : B64} {dx : Nat → B64} {u b0 f0 res : Ptr} {β1 β2 : Nat → Backend} {m : Mem B64}
    (hβ1 : ∀ n, ValidBackend (β1 n)) (hβ2 : ∀ n, ValidBackend (β2 n)) (hi : i0 ≤ i1) (hg : 1 ≤ gcw) (hrgcw : 0 ≤ rgcw)
    (h : F.Args m [(F.cell1d u i0 i1 gcw), (F.face1d b0 i0 i1 0)] [(F.face1d f0 i0 i1 0), (F.cell1d res i0 i1 rgcw)])
    (hr : F.Apart (F.cell1d res i0 i1 rgcw) (F.face1d f0 i0 i1 0)) :
    ∃ m1 m2, Cuda.flux1d i0 i1 dx b0 gcw u f0 β1 m = .ok m1 ∧ Cuda.diffusionV2Apply1d i0 i1 alpha beta dx gcw u f0 rgcw res β2 m1 = .ok m2 ∧ F.Kept [(F.face1d f0 i0 i1 0)] m m1 ∧ F.Kept [(F.cell1d res i0 i1 rgcw)] m1 m2 ∧
      (∀ i, i0 ≤ i → i ≤ i1 + 1 → F.El m1 (F.face1d f0 i0 i1 0) [i] (F.rd m (F.face1d b0 i0 i1 0) [i] * ((F.rd m (F.cell1d u i0 i1 gcw) [i] - F.rd m (F.cell1d u i0 i1 gcw) [i - 1]) / dx 0))) ∧
      (∀ i, i0 ≤ i → i ≤ i1 → F.El m2 (F.cell1d res i0 i1 rgcw) [i] (-(beta * ((F.rd m (F.face1d b0 i0 i1 0) [i + 1] * ((F.rd m (F.cell1d u i0 i1 gcw) [i + 1] - F.rd m (F.cell1d u i0 i1 gcw) [i]) / dx 0) - F.rd m (F.face1d b0 i0 i1 0) [i] * ((F.rd m (F.cell1d u i0 i1 gcw) [i] - F.rd m (F.cell1d u i0 i1 gcw) [i - 1]) / dx 0)) / dx 0)) + alpha * F.rd m (F.cell1d u i0 i1 gcw) [i])) := by
  have h1 : F.Args m [(F.cell1d u i0 i1 gcw), (F.face1d b0 i0 i1 0)] [(F.face1d f0 i0 i1 0)] := h.sub (by intro x hx; simp only [List.mem_cons, List.not_mem_nil, or_false] at hx ⊢; tauto) (by intro x hx; simp only [List.mem_cons, List.not_mem_nil, or_false] at hx ⊢; tauto)
  obtain ⟨m1, c1, K1, V0⟩ := cflux1_run (dx := dx) hβ1 hi hg h1
  have h2 : F.Args m1 [(F.cell1d u i0 i1 gcw), (F.face1d f0 i0 i1 0)] [(F.cell1d res i0 i1 rgcw)] := by
    refine ⟨fun a ha => K1.ok (h.ok a ?_), ?_⟩
    · simp only [List.mem_cons, List.mem_append, List.not_mem_nil, or_false] at ha ⊢; tauto
    · simp only [List.mem_cons, List.not_mem_nil, or_false, forall_eq_or_imp, forall_eq]
      exact ⟨h.apart _ (by simp) _ (by simp), hr⟩
  obtain ⟨m2, q2, -, K2, W⟩ := v2apply1_run (alpha := alpha) (beta := beta) (dx := dx) hi (by omega) hrgcw h2
  obtain ⟨m2', c2, e2⟩ := C49_v2_apply_1d (alpha := alpha) (beta := beta) (dx := dx) (β := β2) hβ2 B64.neg_mul hi (by omega) hrgcw h2
  obtain rfl : m2 = m2' := Except.ok.inj (q2.symm.trans e2)
  refine ⟨m1, m2, c1, c2, K1, K2, V0, fun i h0 h1 => ?_⟩
  have w := W i h0 h1
  have e0a := (V0 (i + 1) (by omega) (by omega)).rd
  rw [add_sub_cancel_right] at e0a
  have e0b := (V0 i (by omega) (by omega)).rd
  have eu : F.rd m1 (F.cell1d u i0 i1 gcw) [i] = F.rd m (F.cell1d u i0 i1 gcw) [i] := K1.rd (by intro o ho; refine h.apart o ?_ _ (by simp); simp only [List.mem_cons, List.not_mem_nil, or_false] at ho ⊢; tauto) (by in_bounds)
  rw [e0a, e0b, eu] at w
  exact w

theorem rop_p_1 {i0 i1 gcw rgcw : Int} {beta : B64} {dx : Nat → B64} {u f0 res : Ptr} {β1 β2 : Nat → Backend} {m : Mem B64}
    (hβ1 : ∀ n, ValidBackend (β1 n)) (hβ2 : ∀ n, ValidBackend (β2 n)) (hi : i0 ≤ i1) (hg : 1 ≤ gcw) (hrgcw : 0 ≤ rgcw)
    (h : F.Args m [(F.cell1d u i0 i1 gcw)] [(F.face1d f0 i0 i1 0), (F.cell1d res i0 i1 rgcw)])
    (hr : F.Apart (F.cell1d res i0 i1 rgcw) (F.face1d f0 i0 i1 0)) :
    ∃ m1 m2, Cuda.poissonFlux1d i0 i1 dx gcw u f0 β1 m = .ok m1 ∧ Cuda.poissonV2Apply1d i0 i1 beta dx f0 rgcw res β2 m1 = .ok m2 ∧ F.Kept [(F.face1d f0 i0 i1 0)] m m1 ∧ F.Kept [(F.cell1d res i0 i1 rgcw)] m1 m2 ∧
      (∀ i, i0 ≤ i → i ≤ i1 + 1 → F.El m1 (F.face1d f0 i0 i1 0) [i] ((F.rd m (F.cell1d u i0 i1 gcw) [i] - F.rd m (F.cell1d u i0 i1 gcw) [i - 1]) / dx 0)) ∧
      (∀ i, i0 ≤ i → i ≤ i1 → F.El m2 (F.cell1d res i0 i1 rgcw) [i] (-(beta * (((F.rd m (F.cell1d u i0 i1 gcw) [i + 1] - F.rd m (F.cell1d u i0 i1 gcw) [i]) / dx 0 - (F.rd m (F.cell1d u i0 i1 gcw) [i] - F.rd m (F.cell1d u i0 i1 gcw) [i - 1]) / dx 0) / dx 0)))) := by
  have h1 : F.Args m [(F.cell1d u i0 i1 gcw)] [(F.face1d f0 i0 i1 0)] := h.sub (by intro x hx; simp only [List.mem_cons, List.not_mem_nil, or_false] at hx ⊢; tauto) (by intro x hx; simp only [List.mem_cons, List.not_mem_nil, or_false] at hx ⊢; tauto)
  obtain ⟨m1, q1, -, K1, V0⟩ := pflux1_run (dx := dx) hi hg h1
  obtain ⟨m1', c1, e1⟩ := C49_flux_poisson_1d (dx := dx) (β := β1) hβ1 hi hg h1
  obtain rfl : m1 = m1' := Except.ok.inj (q1.symm.trans e1)
  have h2 : F.Args m1 [(F.face1d f0 i0 i1 0)] [(F.cell1d res i0 i1 rgcw)] := by
    refine ⟨fun a ha => K1.ok (h.ok a ?_), ?_⟩
    · simp only [List.mem_cons, List.mem_append, List.not_mem_nil, or_false] at ha ⊢; tauto
    · simp only [List.mem_cons, List.not_mem_nil, or_false, forall_eq_or_imp, forall_eq]
      exact hr
  obtain ⟨m2, q2, -, K2, W⟩ := papply1_run (beta := beta) (dx := dx) hi hrgcw h2
  obtain ⟨m2', c2, e2⟩ := C49_poisson_apply_1d (beta := beta) (dx := dx) (β := β2) hβ2 B64.neg_mul hi hrgcw h2
  obtain rfl : m2 = m2' := Except.ok.inj (q2.symm.trans e2)
  refine ⟨m1, m2, c1, c2, K1, K2, V0, fun i h0 h1 => ?_⟩
  have w := W i h0 h1
  have e0a := (V0 (i + 1) (by omega) (by omega)).rd
  rw [add_sub_cancel_right] at e0a
  have e0b := (V0 i (by omega) (by omega)).rd
  rw [e0a, e0b] at w
  exact w

theorem rop_d_1 {i0 i1 gcw rgcw : Int} {beta : B64} {dx : Nat → B64} {u b0 f0 res : Ptr} {β1 β2 : Nat → Backend} {m : Mem B64}
    (hβ1 : ∀ n, ValidBackend (β1 n)) (hβ2 : ∀ n, ValidBackend (β2 n)) (hi : i0 ≤ i1) (hg : 1 ≤ gcw) (hrgcw : 0 ≤ rgcw)
    (h : F.Args m [(F.cell1d u i0 i1 gcw), (F.face1d b0 i0 i1 0)] [(F.face1d f0 i0 i1 0), (F.cell1d res i0 i1 rgcw)])
    (hr : F.Apart (F.cell1d res i0 i1 rgcw) (F.face1d f0 i0 i1 0)) :
    ∃ m1 m2, Cuda.flux1d i0 i1 dx b0 gcw u f0 β1 m = .ok m1 ∧ Cuda.poissonV2Apply1d i0 i1 beta dx f0 rgcw res β2 m1 = .ok m2 ∧ F.Kept [(F.face1d f0 i0 i1 0)] m m1 ∧ F.Kept [(F.cell1d res i0 i1 rgcw)] m1 m2 ∧
      (∀ i, i0 ≤ i → i ≤ i1 + 1 → F.El m1 (F.face1d f0 i0 i1 0) [i] (F.rd m (F.face1d b0 i0 i1 0) [i] * ((F.rd m (F.cell1d u i0 i1 gcw) [i] - F.rd m (F.cell1d u i0 i1 gcw) [i - 1]) / dx 0))) ∧
      (∀ i, i0 ≤ i → i ≤ i1 → F.El m2 (F.cell1d res i0 i1 rgcw) [i] (-(beta * ((F.rd m (F.face1d b0 i0 i1 0) [i + 1] * ((F.rd m (F.cell1d u i0 i1 gcw) [i + 1] - F.rd m (F.cell1d u i0 i1 gcw) [i]) / dx 0) - F.rd m (F.face1d b0 i0 i1 0) [i] * ((F.rd m (F.cell1d u i0 i1 gcw) [i] - F.rd m (F.cell1d u i0 i1 gcw) [i - 1]) / dx 0)) / dx 0)))) := by
  have h1 : F.Args m [(F.cell1d u i0 i1 gcw), (F.face1d b0 i0 i1 0)] [(F.face1d f0 i0 i1 0)] := h.sub (by intro x hx; simp only [List.mem_cons, List.not_mem_nil, or_false] at hx ⊢; tauto) (by intro x hx; simp only [List.mem_cons, List.not_mem_nil, or_false] at hx ⊢; tauto)
  obtain ⟨m1, c1, K1, V0⟩ := cflux1_run (dx := dx) hβ1 hi hg h1
  have h2 : F.Args m1 [(F.face1d f0 i0 i1 0)] [(F.cell1d res i0 i1 rgcw)] := by
    refine ⟨fun a ha => K1.ok (h.ok a ?_), ?_⟩
    · simp only [List.mem_cons, List.mem_append, List.not_mem_nil, or_false] at ha ⊢; tauto
    · simp only [List.mem_cons, List.not_mem_nil, or_false, forall_eq_or_imp, forall_eq]
      exact hr
  obtain ⟨m2, q2, -, K2, W⟩ := papply1_run (beta := beta) (dx := dx) hi hrgcw h2
  obtain ⟨m2', c2, e2⟩ := C49_poisson_apply_1d (beta := beta) (dx := dx) (β := β2) hβ2 B64.neg_mul hi hrgcw h2
  obtain rfl : m2 = m2' := Except.ok.inj (q2.symm.trans e2)
  refine ⟨m1, m2, c1, c2, K1, K2, V0, fun i h0 h1 => ?_⟩
  have w := W i h0 h1
  have e0a := (V0 (i + 1) (by omega) (by omega)).rd
  rw [add_sub_cancel_right] at e0a
  have e0b := (V0 i (by omega) (by omega)).rd
  rw [e0a, e0b] at w
  exact w

theorem rop_v1_2 {i0 j0 i1 j1 agcw gcw rgcw : Int} {alpha beta : B64} {dx : Nat → B64} {a u b0 b1 f0 f1 res : Ptr} {β1 β2 : Nat → Backend} {m : Mem B64}
    (hβ1 : ∀ n, ValidBackend (β1 n)) (hβ2 : ∀ n, ValidBackend (β2 n)) (hi : i0 ≤ i1) (hj : j0 ≤ j1) (hg : 1 ≤ gcw) (hagcw : 0 ≤ agcw) (hrgcw : 0 ≤ rgcw)
    (h : F.Args m [(F.cell2d a i0 j0 i1 j1 agcw), (F.cell2d u i0 j0 i1 j1 gcw), (F.face2d0 b0 i0 j0 i1 j1 0), (F.face2d1 b1 i0 j0 i1 j1 0)] [(F.face2d0 f0 i0 j0 i1 j1 0), (F.face2d1 f1 i0 j0 i1 j1 0), (F.cell2d res i0 j0 i1 j1 rgcw)])
    (hp : F.Apart (F.face2d0 f0 i0 j0 i1 j1 0) (F.face2d1 f1 i0 j0 i1 j1 0))
    (hr : F.Apart (F.cell2d res i0 j0 i1 j1 rgcw) (F.face2d0 f0 i0 j0 i1 j1 0) ∧ F.Apart (F.cell2d res i0 j0 i1 j1 rgcw) (F.face2d1 f1 i0 j0 i1 j1 0)) :
    ∃ m1 m2, Cuda.flux2d i0 j0 i1 j1 dx b0 b1 gcw u f0 f1 β1 m = .ok m1 ∧ Cuda.diffusionV1Apply2d i0 i1 j0 j1 alpha beta dx agcw a gcw u f0 f1 rgcw res β2 m1 = .ok m2 ∧ F.Kept [(F.face2d0 f0 i0 j0 i1 j1 0), (F.face2d1 f1 i0 j0 i1 j1 0)] m m1 ∧ F.Kept [(F.cell2d res i0 j0 i1 j1 rgcw)] m1 m2 ∧
      (∀ i j, i0 ≤ i → i ≤ i1 + 1 → j0 ≤ j → j ≤ j1 → F.El m1 (F.face2d0 f0 i0 j0 i1 j1 0) [i, j] (F.rd m (F.face2d0 b0 i0 j0 i1 j1 0) [i, j] * ((F.rd m (F.cell2d u i0 j0 i1 j1 gcw) [i, j] - F.rd m (F.cell2d u i0 j0 i1 j1 gcw) [i - 1, j]) / dx 0))) ∧
      (∀ i j, i0 ≤ i → i ≤ i1 → j0 ≤ j → j ≤ j1 + 1 → F.El m1 (F.face2d1 f1 i0 j0 i1 j1 0) [j, i] (F.rd m (F.face2d1 b1 i0 j0 i1 j1 0) [j, i] * ((F.rd m (F.cell2d u i0 j0 i1 j1 gcw) [i, j] - F.rd m (F.cell2d u i0 j0 i1 j1 gcw) [i, j - 1]) / dx 1))) ∧
      (∀ i j, i0 ≤ i → i ≤ i1 → j0 ≤ j → j ≤ j1 → F.El m2 (F.cell2d res i0 j0 i1 j1 rgcw) [i, j] (-(beta * ((F.rd m (F.face2d0 b0 i0 j0 i1 j1 0) [i + 1, j] * ((F.rd m (F.cell2d u i0 j0 i1 j1 gcw) [i + 1, j] - F.rd m (F.cell2d u i0 j0 i1 j1 gcw) [i, j]) / dx 0) - F.rd m (F.face2d0 b0 i0 j0 i1 j1 0) [i, j] * ((F.rd m (F.cell2d u i0 j0 i1 j1 gcw) [i, j] - F.rd m (F.cell2d u i0 j0 i1 j1 gcw) [i - 1, j]) / dx 0)) / dx 0 + (F.rd m (F.face2d1 b1 i0 j0 i1 j1 0) [j + 1, i] * ((F.rd m (F.cell2d u i0 j0 i1 j1 gcw) [i, j + 1] - F.rd m (F.cell2d u i0 j0 i1 j1 gcw) [i, j]) / dx 1) - F.rd m (F.face2d1 b1 i0 j0 i1 j1 0) [j, i] * ((F.rd m (F.cell2d u i0 j0 i1 j1 gcw) [i, j] - F.rd m (F.cell2d u i0 j0 i1 j1 gcw) [i, j - 1]) / dx 1)) / dx 1)) + alpha * F.rd m (F.cell2d a i0 j0 i1 j1 agcw) [i, j] * F.rd m (F.cell2d u i0 j0 i1 j1 gcw) [i, j])) := by
  have h1 : F.Args m [(F.cell2d u i0 j0 i1 j1 gcw), (F.face2d0 b0 i0 j0 i1 j1 0), (F.face2d1 b1 i0 j0 i1 j1 0)] [(F.face2d0 f0 i0 j0 i1 j1 0), (F.face2d1 f1 i0 j0 i1 j1 0)] := h.sub (by intro x hx; simp only [List.mem_cons, List.not_mem_nil, or_false] at hx ⊢; tauto) (by intro x hx; simp only [List.mem_cons, List.not_mem_nil, or_false] at hx ⊢; tauto)
  obtain ⟨m1, c1, K1, V0, V1⟩ := cflux2_run (dx := dx) hβ1 hi hj hg h1 hp
  have h2 : F.Args m1 [(F.cell2d a i0 j0 i1 j1 agcw), (F.cell2d u i0 j0 i1 j1 gcw), (F.face2d0 f0 i0 j0 i1 j1 0), (F.face2d1 f1 i0 j0 i1 j1 0)] [(F.cell2d res i0 j0 i1 j1 rgcw)] := by
    refine ⟨fun a ha => K1.ok (h.ok a ?_), ?_⟩
    · simp only [List.mem_cons, List.mem_append, List.not_mem_nil, or_false] at ha ⊢; tauto
    · simp only [List.mem_cons, List.not_mem_nil, or_false, forall_eq_or_imp, forall_eq]
      exact ⟨h.apart _ (by simp) _ (by simp), h.apart _ (by simp) _ (by simp), hr.1, hr.2⟩
  obtain ⟨m2, q2, -, K2, W⟩ := v1apply2_run (alpha := alpha) (beta := beta) (dx := dx) hi hj hagcw (by omega) hrgcw h2
  obtain ⟨m2', c2, e2⟩ := C49_v1_apply_2d (alpha := alpha) (beta := beta) (dx := dx) (β := β2) hβ2 B64.neg_mul hi hj hagcw (by omega) hrgcw h2
  obtain rfl : m2 = m2' := Except.ok.inj (q2.symm.trans e2)
  refine ⟨m1, m2, c1, c2, K1, K2, V0, V1, fun i j h0 h1 h2 h3 => ?_⟩
  have w := W i j h0 h1 h2 h3
  have e0a := (V0 (i + 1) j (by omega) (by omega) (by omega) (by omega)).rd
  rw [add_sub_cancel_right] at e0a
  have e0b := (V0 i j (by omega) (by omega) (by omega) (by omega)).rd
  have e1a := (V1 i (j + 1) (by omega) (by omega) (by omega) (by omega)).rd
  rw [add_sub_cancel_right] at e1a
  have e1b := (V1 i j (by omega) (by omega) (by omega) (by omega)).rd
  have ea : F.rd m1 (F.cell2d a i0 j0 i1 j1 agcw) [i, j] = F.rd m (F.cell2d a i0 j0 i1 j1 agcw) [i, j] := K1.rd (by intro o ho; refine h.apart o ?_ _ (by simp); simp only [List.mem_cons, List.not_mem_nil, or_false] at ho ⊢; tauto) (by in_bounds)
  have eu : F.rd m1 (F.cell2d u i0 j0 i1 j1 gcw) [i, j] = F.rd m (F.cell2d u i0 j0 i1 j1 gcw) [i, j] := K1.rd (by intro o ho; refine h.apart o ?_ _ (by simp); simp only [List.mem_cons, List.not_mem_nil, or_false] at ho ⊢; tauto) (by in_bounds)
  rw [e0a, e0b, e1a, e1b, ea, eu] at w
  exact w

theorem rop_v2_2 {i0 j0 i1 j1 gcw rgcw : Int} {alpha beta : B64} {dx : Nat → B64} {u b0 b1 f0 f1 res : Ptr} {β1 β2 : Nat → Backend} {m : Mem B64}
    (hβ1 : ∀ n, ValidBackend (β1 n)) (hβ2 : ∀ n, ValidBackend (β2 n)) (hi : i0 ≤ i1) (hj : j0 ≤ j1) (hg : 1 ≤ gcw) (hrgcw : 0 ≤ rgcw)
    (h : F.Args m [(F.cell2d u i0 j0 i1 j1 gcw), (F.face2d0 b0 i0 j0 i1 j1 0), (F.face2d1 b1 i0 j0 i1 j1 0)] [(F.face2d0 f0 i0 j0 i1 j1 0), (F.face2d1 f1 i0 j0 i1 j1 0), (F.cell2d res i0 j0 i1 j1 rgcw)])
    (hp : F.Apart (F.face2d0 f0 i0 j0 i1 j1 0) (F.face2d1 f1 i0 j0 i1 j1 0))
    (hr : F.Apart (F.cell2d res i0 j0 i1 j1 rgcw) (F.face2d0 f0 i0 j0 i1 j1 0) ∧ F.Apart (F.cell2d res i0 j0 i1 j1 rgcw) (F.face2d1 f1 i0 j0 i1 j1 0)) :
    ∃ m1 m2, Cuda.flux2d i0 j0 i1 j1 dx b0 b1 gcw u f0 f1 β1 m = .ok m1 ∧ Cuda.diffusionV2Apply2d i0 i1 j0 j1 alpha beta dx gcw u f0 f1 rgcw res β2 m1 = .ok m2 ∧ F.Kept [(F.face2d0 f0 i0 j0 i1 j1 0), (F.face2d1 f1 i0 j0 i1 j1 0)] m m1 ∧ F.Kept [(F.cell2d res i0 j0 i1 j1 rgcw)] m1 m2 ∧
      (∀ i j, i0 ≤ i → i ≤ i1 + 1 → j0 ≤ j → j ≤ j1 → F.El m1 (F.face2d0 f0 i0 j0 i1 j1 0) [i, j] (F.rd m (F.face2d0 b0 i0 j0 i1 j1 0) [i, j] * ((F.rd m (F.cell2d u i0 j0 i1 j1 gcw) [i, j] - F.rd m (F.cell2d u i0 j0 i1 j1 gcw) [i - 1, j]) / dx 0))) ∧
      (∀ i j, i0 ≤ i → i ≤ i1 → j0 ≤ j → j ≤ j1 + 1 → F.El m1 (F.face2d1 f1 i0 j0 i1 j1 0) [j, i] (F.rd m (F.face2d1 b1 i0 j0 i1 j1 0) [j, i] * ((F.rd m (F.cell2d u i0 j0 i1 j1 gcw) [i, j] - F.rd m (F.cell2d u i0 j0 i1 j1 gcw) [i, j - 1]) / dx 1))) ∧
      (∀ i j, i0 ≤ i → i ≤ i1 → j0 ≤ j → j ≤ j1 → F.El m2 (F.cell2d res i0 j0 i1 j1 rgcw) [i, j] (-(beta * ((F.rd m (F.face2d0 b0 i0 j0 i1 j1 0) [i + 1, j] * ((F.rd m (F.cell2d u i0 j0 i1 j1 gcw) [i + 1, j] - F.rd m (F.cell2d u i0 j0 i1 j1 gcw) [i, j]) / dx 0) - F.rd m (F.face2d0 b0 i0 j0 i1 j1 0) [i, j] * ((F.rd m (F.cell2d u i0 j0 i1 j1 gcw) [i, j] - F.rd m (F.cell2d u i0 j0 i1 j1 gcw) [i - 1, j]) / dx 0)) / dx 0 + (F.rd m (F.face2d1 b1 i0 j0 i1 j1 0) [j + 1, i] * ((F.rd m (F.cell2d u i0 j0 i1 j1 gcw) [i, j + 1] - F.rd m (F.cell2d u i0 j0 i1 j1 gcw) [i, j]) / dx 1) - F.rd m (F.face2d1 b1 i0 j0 i1 j1 0) [j, i] * ((F.rd m (F.cell2d u i0 j0 i1 j1 gcw) [i, j] - F.rd m (F.cell2d u i0 j0 i1 j1 gcw) [i, j - 1]) / dx 1)) / dx 1)) + alpha * F.rd m (F.cell2d u i0 j0 i1 j1 gcw) [i, j])) := by
  have h1 : F.Args m [(F.cell2d u i0 j0 i1 j1 gcw), (F.face2d0 b0 i0 j0 i1 j1 0), (F.face2d1 b1 i0 j0 i1 j1 0)] [(F.face2d0 f0 i0 j0 i1 j1 0), (F.face2d1 f1 i0 j0 i1 j1 0)] := h.sub (by intro x hx; simp only [List.mem_cons, List.not_mem_nil, or_false] at hx ⊢; tauto) (by intro x hx; simp only [List.mem_cons, List.not_mem_nil, or_false] at hx ⊢; tauto)
  obtain ⟨m1, c1, K1, V0, V1⟩ := cflux2_run (dx := dx) hβ1 hi hj hg h1 hp
  have h2 : F.Args m1 [(F.cell2d u i0 j0 i1 j1 gcw), (F.face2d0 f0 i0 j0 i1 j1 0), (F.face2d1 f1 i0 j0 i1 j1 0)] [(F.cell2d res i0 j0 i1 j1 rgcw)] := by
    refine ⟨fun a ha => K1.ok (h.ok a ?_), ?_⟩
    · simp only [List.mem_cons, List.mem_append, List.not_mem_nil, or_false] at ha ⊢; tauto
    · simp only [List.mem_cons, List.not_mem_nil, or_false, forall_eq_or_imp, forall_eq]
      exact ⟨h.apart _ (by simp) _ (by simp), hr.1, hr.2⟩
  obtain ⟨m2, q2, -, K2, W⟩ := v2apply2_run (alpha := alpha) (beta := beta) (dx := dx) hi hj (by omega) hrgcw h2
  obtain ⟨m2', c2, e2⟩ := C49_v2_apply_2d (alpha := alpha) (beta := beta) (dx := dx) (β := β2) hβ2 B64.neg_mul hi hj (by omega) hrgcw h2
  obtain rfl : m2 = m2' := Except.ok.inj (q2.symm.trans e2)
  refine ⟨m1, m2, c1, c2, K1, K2, V0, V1, fun i j h0 h1 h2 h3 => ?_⟩
  have w := W i j h0 h1 h2 h3
  have e0a := (V0 (i + 1) j (by omega) (by omega) (by omega) (by omega)).rd
  rw [add_sub_cancel_right] at e0a
  have e0b := (V0 i j (by omega) (by omega) (by omega) (by omega)).rd
  have e1a := (V1 i (j + 1) (by omega) (by omega) (by omega) (by omega)).rd
  rw [add_sub_cancel_right] at e1a
  have e1b := (V1 i j (by omega) (by omega) (by omega) (by omega)).rd
  have eu : F.rd m1 (F.cell2d u i0 j0 i1 j1 gcw) [i, j] = F.rd m (F.cell2d u i0 j0 i1 j1 gcw) [i, j] := K1.rd (by intro o ho; refine h.apart o ?_ _ (by simp); simp only [List.mem_cons, List.not_mem_nil, or_false] at ho ⊢; tauto) (by in_bounds)
  rw [e0a, e0b, e1a, e1b, eu] at w
  exact w

theorem rop_p_2 {i0 j0 i1 j1 gcw rgcw : Int} {beta : B64} {dx : Nat → B64} {u f0 f1 res : Ptr} {β1 β2 : Nat → Backend} {m : Mem B64}
    (hβ1 : ∀ n, ValidBackend (β1 n)) (hβ2 : ∀ n, ValidBackend (β2 n)) (hi : i0 ≤ i1) (hj : j0 ≤ j1) (hg : 1 ≤ gcw) (hrgcw : 0 ≤ rgcw)
    (h : F.Args m [(F.cell2d u i0 j0 i1 j1 gcw)] [(F.face2d0 f0 i0 j0 i1 j1 0), (F.face2d1 f1 i0 j0 i1 j1 0), (F.cell2d res i0 j0 i1 j1 rgcw)])
    (hp : F.Apart (F.face2d0 f0 i0 j0 i1 j1 0) (F.face2d1 f1 i0 j0 i1 j1 0))
    (hr : F.Apart (F.cell2d res i0 j0 i1 j1 rgcw) (F.face2d0 f0 i0 j0 i1 j1 0) ∧ F.Apart (F.cell2d res i0 j0 i1 j1 rgcw) (F.face2d1 f1 i0 j0 i1 j1 0)) :
    ∃ m1 m2, Cuda.poissonFlux2d i0 j0 i1 j1 dx gcw u f0 f1 β1 m = .ok m1 ∧ Cuda.poissonV2Apply2d i0 i1 j0 j1 beta dx f0 f1 rgcw res β2 m1 = .ok m2 ∧ F.Kept [(F.face2d0 f0 i0 j0 i1 j1 0), (F.face2d1 f1 i0 j0 i1 j1 0)] m m1 ∧ F.Kept [(F.cell2d res i0 j0 i1 j1 rgcw)] m1 m2 ∧
      (∀ i j, i0 ≤ i → i ≤ i1 + 1 → j0 ≤ j → j ≤ j1 → F.El m1 (F.face2d0 f0 i0 j0 i1 j1 0) [i, j] ((F.rd m (F.cell2d u i0 j0 i1 j1 gcw) [i, j] - F.rd m (F.cell2d u i0 j0 i1 j1 gcw) [i - 1, j]) / dx 0)) ∧
      (∀ i j, i0 ≤ i → i ≤ i1 → j0 ≤ j → j ≤ j1 + 1 → F.El m1 (F.face2d1 f1 i0 j0 i1 j1 0) [j, i] ((F.rd m (F.cell2d u i0 j0 i1 j1 gcw) [i, j] - F.rd m (F.cell2d u i0 j0 i1 j1 gcw) [i, j - 1]) / dx 1)) ∧
      (∀ i j, i0 ≤ i → i ≤ i1 → j0 ≤ j → j ≤ j1 → F.El m2 (F.cell2d res i0 j0 i1 j1 rgcw) [i, j] (-(beta * (((F.rd m (F.cell2d u i0 j0 i1 j1 gcw) [i + 1, j] - F.rd m (F.cell2d u i0 j0 i1 j1 gcw) [i, j]) / dx 0 - (F.rd m (F.cell2d u i0 j0 i1 j1 gcw) [i, j] - F.rd m (F.cell2d u i0 j0 i1 j1 gcw) [i - 1, j]) / dx 0) / dx 0 + ((F.rd m (F.cell2d u i0 j0 i1 j1 gcw) [i, j + 1] - F.rd m (F.cell2d u i0 j0 i1 j1 gcw) [i, j]) / dx 1 - (F.rd m (F.cell2d u i0 j0 i1 j1 gcw) [i, j] - F.rd m (F.cell2d u i0 j0 i1 j1 gcw) [i, j - 1]) / dx 1) / dx 1)))) := by
  have h1 : F.Args m [(F.cell2d u i0 j0 i1 j1 gcw)] [(F.face2d0 f0 i0 j0 i1 j1 0), (F.face2d1 f1 i0 j0 i1 j1 0)] := h.sub (by intro x hx; simp only [List.mem_cons, List.not_mem_nil, or_false] at hx ⊢; tauto) (by intro x hx; simp only [List.mem_cons, List.not_mem_nil, or_false] at hx ⊢; tauto)
  obtain ⟨m1, q1, -, K1, V0, V1⟩ := pflux2_run (dx := dx) hi hj hg h1 hp
  obtain ⟨m1', c1, e1⟩ := C49_flux_poisson_2d (dx := dx) (β := β1) hβ1 hi hj hg h1
  obtain rfl : m1 = m1' := Except.ok.inj (q1.symm.trans e1)
  have h2 : F.Args m1 [(F.face2d0 f0 i0 j0 i1 j1 0), (F.face2d1 f1 i0 j0 i1 j1 0)] [(F.cell2d res i0 j0 i1 j1 rgcw)] := by
    refine ⟨fun a ha => K1.ok (h.ok a ?_), ?_⟩
    · simp only [List.mem_cons, List.mem_append, List.not_mem_nil, or_false] at ha ⊢; tauto
    · simp only [List.mem_cons, List.not_mem_nil, or_false, forall_eq_or_imp, forall_eq]
      exact ⟨hr.1, hr.2⟩
  obtain ⟨m2, q2, -, K2, W⟩ := papply2_run (beta := beta) (dx := dx) hi hj hrgcw h2
  obtain ⟨m2', c2, e2⟩ := C49_poisson_apply_2d (beta := beta) (dx := dx) (β := β2) hβ2 B64.neg_mul hi hj hrgcw h2
  obtain rfl : m2 = m2' := Except.ok.inj (q2.symm.trans e2)
  refine ⟨m1, m2, c1, c2, K1, K2, V0, V1, fun i j h0 h1 h2 h3 => ?_⟩
  have w := W i j h0 h1 h2 h3
  have e0a := (V0 (i + 1) j (by omega) (by omega) (by omega) (by omega)).rd
  rw [add_sub_cancel_right] at e0a
  have e0b := (V0 i j (by omega) (by omega) (by omega) (by omega)).rd
  have e1a := (V1 i (j + 1) (by omega) (by omega) (by omega) (by omega)).rd
  rw [add_sub_cancel_right] at e1a
  have e1b := (V1 i j (by omega) (by omega) (by omega) (by omega)).rd
  rw [e0a, e0b, e1a, e1b] at w
  exact w

theorem rop_d_2 {i0 j0 i1 j1 gcw rgcw : Int} {beta : B64} {dx : Nat → B64} {u b0 b1 f0 f1 res : Ptr} {β1 β2 : Nat → Backend} {m : Mem B64}
    (hβ1 : ∀ n, ValidBackend (β1 n)) (hβ2 : ∀ n, ValidBackend (β2 n)) (hi : i0 ≤ i1) (hj : j0 ≤ j1) (hg : 1 ≤ gcw) (hrgcw : 0 ≤ rgcw)
    (h : F.Args m [(F.cell2d u i0 j0 i1 j1 gcw), (F.face2d0 b0 i0 j0 i1 j1 0), (F.face2d1 b1 i0 j0 i1 j1 0)] [(F.face2d0 f0 i0 j0 i1 j1 0), (F.face2d1 f1 i0 j0 i1 j1 0), (F.cell2d res i0 j0 i1 j1 rgcw)])
    (hp : F.Apart (F.face2d0 f0 i0 j0 i1 j1 0) (F.face2d1 f1 i0 j0 i1 j1 0))
    (hr : F.Apart (F.cell2d res i0 j0 i1 j1 rgcw) (F.face2d0 f0 i0 j0 i1 j1 0) ∧ F.Apart (F.cell2d res i0 j0 i1 j1 rgcw) (F.face2d1 f1 i0 j0 i1 j1 0)) :
    ∃ m1 m2, Cuda.flux2d i0 j0 i1 j1 dx b0 b1 gcw u f0 f1 β1 m = .ok m1 ∧ Cuda.poissonV2Apply2d i0 i1 j0 j1 beta dx f0 f1 rgcw res β2 m1 = .ok m2 ∧ F.Kept [(F.face2d0 f0 i0 j0 i1 j1 0), (F.face2d1 f1 i0 j0 i1 j1 0)] m m1 ∧ F.Kept [(F.cell2d res i0 j0 i1 j1 rgcw)] m1 m2 ∧
      (∀ i j, i0 ≤ i → i ≤ i1 + 1 → j0 ≤ j → j ≤ j1 → F.El m1 (F.face2d0 f0 i0 j0 i1 j1 0) [i, j] (F.rd m (F.face2d0 b0 i0 j0 i1 j1 0) [i, j] * ((F.rd m (F.cell2d u i0 j0 i1 j1 gcw) [i, j] - F.rd m (F.cell2d u i0 j0 i1 j1 gcw) [i - 1, j]) / dx 0))) ∧
      (∀ i j, i0 ≤ i → i ≤ i1 → j0 ≤ j → j ≤ j1 + 1 → F.El m1 (F.face2d1 f1 i0 j0 i1 j1 0) [j, i] (F.rd m (F.face2d1 b1 i0 j0 i1 j1 0) [j, i] * ((F.rd m (F.cell2d u i0 j0 i1 j1 gcw) [i, j] - F.rd m (F.cell2d u i0 j0 i1 j1 gcw) [i, j - 1]) / dx 1))) ∧
      (∀ i j, i0 ≤ i → i ≤ i1 → j0 ≤ j → j ≤ j1 → F.El m2 (F.cell2d res i0 j0 i1 j1 rgcw) [i, j] (-(beta * ((F.rd m (F.face2d0 b0 i0 j0 i1 j1 0) [i + 1, j] * ((F.rd m (F.cell2d u i0 j0 i1 j1 gcw) [i + 1, j] - F.rd m (F.cell2d u i0 j0 i1 j1 gcw) [i, j]) / dx 0) - F.rd m (F.face2d0 b0 i0 j0 i1 j1 0) [i, j] * ((F.rd m (F.cell2d u i0 j0 i1 j1 gcw) [i, j] - F.rd m (F.cell2d u i0 j0 i1 j1 gcw) [i - 1, j]) / dx 0)) / dx 0 + (F.rd m (F.face2d1 b1 i0 j0 i1 j1 0) [j + 1, i] * ((F.rd m (F.cell2d u i0 j0 i1 j1 gcw) [i, j + 1] - F.rd m (F.cell2d u i0 j0 i1 j1 gcw) [i, j]) / dx 1) - F.rd m (F.face2d1 b1 i0 j0 i1 j1 0) [j, i] * ((F.rd m (F.cell2d u i0 j0 i1 j1 gcw) [i, j] - F.rd m (F.cell2d u i0 j0 i1 j1 gcw) [i, j - 1]) / dx 1)) / dx 1)))) := by
  have h1 : F.Args m [(F.cell2d u i0 j0 i1 j1 gcw), (F.face2d0 b0 i0 j0 i1 j1 0), (F.face2d1 b1 i0 j0 i1 j1 0)] [(F.face2d0 f0 i0 j0 i1 j1 0), (F.face2d1 f1 i0 j0 i1 j1 0)] := h.sub (by intro x hx; simp only [List.mem_cons, List.not_mem_nil, or_false] at hx ⊢; tauto) (by intro x hx; simp only [List.mem_cons, List.not_mem_nil, or_false] at hx ⊢; tauto)
  obtain ⟨m1, c1, K1, V0, V1⟩ := cflux2_run (dx := dx) hβ1 hi hj hg h1 hp
  have h2 : F.Args m1 [(F.face2d0 f0 i0 j0 i1 j1 0), (F.face2d1 f1 i0 j0 i1 j1 0)] [(F.cell2d res i0 j0 i1 j1 rgcw)] := by
    refine ⟨fun a ha => K1.ok (h.ok a ?_), ?_⟩
    · simp only [List.mem_cons, List.mem_append, List.not_mem_nil, or_false] at ha ⊢; tauto
    · simp only [List.mem_cons, List.not_mem_nil, or_false, forall_eq_or_imp, forall_eq]
      exact ⟨hr.1, hr.2⟩
  obtain ⟨m2, q2, -, K2, W⟩ := papply2_run (beta := beta) (dx := dx) hi hj hrgcw h2
  obtain ⟨m2', c2, e2⟩ := C49_poisson_apply_2d (beta := beta) (dx := dx) (β := β2) hβ2 B64.neg_mul hi hj hrgcw h2
  obtain rfl : m2 = m2' := Except.ok.inj (q2.symm.trans e2)
  refine ⟨m1, m2, c1, c2, K1, K2, V0, V1, fun i j h0 h1 h2 h3 => ?_⟩
  have w := W i j h0 h1 h2 h3
  have e0a := (V0 (i + 1) j (by omega) (by omega) (by omega) (by omega)).rd
  rw [add_sub_cancel_right] at e0a
  have e0b := (V0 i j (by omega) (by omega) (by omega) (by omega)).rd
  have e1a := (V1 i (j + 1) (by omega) (by omega) (by omega) (by omega)).rd
  rw [add_sub_cancel_right] at e1a
  have e1b := (V1 i j (by omega) (by omega) (by omega) (by omega)).rd
  rw [e0a, e0b, e1a, e1b] at w
  exact w

theorem rop_v1_3 {i0 j0 k0 i1 j1 k1 agcw gcw rgcw : Int} {alpha beta : B64} {dx : Nat → B64} {a u b0 b1 b2 f0 f1 f2 res : Ptr} {β1 β2 : Nat → Backend} {m : Mem B64}
    (hβ1 : ∀ n, ValidBackend (β1 n)) (hβ2 : ∀ n, ValidBackend (β2 n)) (hi : i0 ≤ i1) (hj : j0 ≤ j1) (hk : k0 ≤ k1) (hg : 1 ≤ gcw) (hagcw : 0 ≤ agcw) (hrgcw : 0 ≤ rgcw)
    (h : F.Args m [(F.cell3d a i0 j0 k0 i1 j1 k1 agcw), (F.cell3d u i0 j0 k0 i1 j1 k1 gcw), (F.face3d0 b0 i0 j0 k0 i1 j1 k1 0), (F.face3d1 b1 i0 j0 k0 i1 j1 k1 0), (F.face3d2 b2 i0 j0 k0 i1 j1 k1 0)] [(F.face3d0 f0 i0 j0 k0 i1 j1 k1 0), (F.face3d1 f1 i0 j0 k0 i1 j1 k1 0), (F.face3d2 f2 i0 j0 k0 i1 j1 k1 0), (F.cell3d res i0 j0 k0 i1 j1 k1 rgcw)])
    (hp : F.Apart (F.face3d0 f0 i0 j0 k0 i1 j1 k1 0) (F.face3d1 f1 i0 j0 k0 i1 j1 k1 0) ∧ F.Apart (F.face3d0 f0 i0 j0 k0 i1 j1 k1 0) (F.face3d2 f2 i0 j0 k0 i1 j1 k1 0) ∧ F.Apart (F.face3d1 f1 i0 j0 k0 i1 j1 k1 0) (F.face3d2 f2 i0 j0 k0 i1 j1 k1 0))
    (hr : F.Apart (F.cell3d res i0 j0 k0 i1 j1 k1 rgcw) (F.face3d0 f0 i0 j0 k0 i1 j1 k1 0) ∧ F.Apart (F.cell3d res i0 j0 k0 i1 j1 k1 rgcw) (F.face3d1 f1 i0 j0 k0 i1 j1 k1 0) ∧ F.Apart (F.cell3d res i0 j0 k0 i1 j1 k1 rgcw) (F.face3d2 f2 i0 j0 k0 i1 j1 k1 0)) :
    ∃ m1 m2, Cuda.flux3d i0 j0 k0 i1 j1 k1 dx b0 b1 b2 gcw u f0 f1 f2 β1 m = .ok m1 ∧ Cuda.diffusionV1Apply3d i0 i1 j0 j1 k0 k1 alpha beta dx agcw a gcw u f0 f1 f2 rgcw res β2 m1 = .ok m2 ∧ F.Kept [(F.face3d0 f0 i0 j0 k0 i1 j1 k1 0), (F.face3d1 f1 i0 j0 k0 i1 j1 k1 0), (F.face3d2 f2 i0 j0 k0 i1 j1 k1 0)] m m1 ∧ F.Kept [(F.cell3d res i0 j0 k0 i1 j1 k1 rgcw)] m1 m2 ∧
      (∀ i j k, i0 ≤ i → i ≤ i1 + 1 → j0 ≤ j → j ≤ j1 → k0 ≤ k → k ≤ k1 → F.El m1 (F.face3d0 f0 i0 j0 k0 i1 j1 k1 0) [i, j, k] (F.rd m (F.face3d0 b0 i0 j0 k0 i1 j1 k1 0) [i, j, k] * ((F.rd m (F.cell3d u i0 j0 k0 i1 j1 k1 gcw) [i, j, k] - F.rd m (F.cell3d u i0 j0 k0 i1 j1 k1 gcw) [i - 1, j, k]) / dx 0))) ∧
      (∀ i j k, i0 ≤ i → i ≤ i1 → j0 ≤ j → j ≤ j1 + 1 → k0 ≤ k → k ≤ k1 → F.El m1 (F.face3d1 f1 i0 j0 k0 i1 j1 k1 0) [j, k, i] (F.rd m (F.face3d1 b1 i0 j0 k0 i1 j1 k1 0) [j, k, i] * ((F.rd m (F.cell3d u i0 j0 k0 i1 j1 k1 gcw) [i, j, k] - F.rd m (F.cell3d u i0 j0 k0 i1 j1 k1 gcw) [i, j - 1, k]) / dx 1))) ∧
      (∀ i j k, i0 ≤ i → i ≤ i1 → j0 ≤ j → j ≤ j1 → k0 ≤ k → k ≤ k1 + 1 → F.El m1 (F.face3d2 f2 i0 j0 k0 i1 j1 k1 0) [k, i, j] (F.rd m (F.face3d2 b2 i0 j0 k0 i1 j1 k1 0) [k, i, j] * ((F.rd m (F.cell3d u i0 j0 k0 i1 j1 k1 gcw) [i, j, k] - F.rd m (F.cell3d u i0 j0 k0 i1 j1 k1 gcw) [i, j, k - 1]) / dx 2))) ∧
      (∀ i j k, i0 ≤ i → i ≤ i1 → j0 ≤ j → j ≤ j1 → k0 ≤ k → k ≤ k1 → F.El m2 (F.cell3d res i0 j0 k0 i1 j1 k1 rgcw) [i, j, k] (-(beta * ((F.rd m (F.face3d0 b0 i0 j0 k0 i1 j1 k1 0) [i + 1, j, k] * ((F.rd m (F.cell3d u i0 j0 k0 i1 j1 k1 gcw) [i + 1, j, k] - F.rd m (F.cell3d u i0 j0 k0 i1 j1 k1 gcw) [i, j, k]) / dx 0) - F.rd m (F.face3d0 b0 i0 j0 k0 i1 j1 k1 0) [i, j, k] * ((F.rd m (F.cell3d u i0 j0 k0 i1 j1 k1 gcw) [i, j, k] - F.rd m (F.cell3d u i0 j0 k0 i1 j1 k1 gcw) [i - 1, j, k]) / dx 0)) / dx 0 + (F.rd m (F.face3d1 b1 i0 j0 k0 i1 j1 k1 0) [j + 1, k, i] * ((F.rd m (F.cell3d u i0 j0 k0 i1 j1 k1 gcw) [i, j + 1, k] - F.rd m (F.cell3d u i0 j0 k0 i1 j1 k1 gcw) [i, j, k]) / dx 1) - F.rd m (F.face3d1 b1 i0 j0 k0 i1 j1 k1 0) [j, k, i] * ((F.rd m (F.cell3d u i0 j0 k0 i1 j1 k1 gcw) [i, j, k] - F.rd m (F.cell3d u i0 j0 k0 i1 j1 k1 gcw) [i, j - 1, k]) / dx 1)) / dx 1 + (F.rd m (F.face3d2 b2 i0 j0 k0 i1 j1 k1 0) [k + 1, i, j] * ((F.rd m (F.cell3d u i0 j0 k0 i1 j1 k1 gcw) [i, j, k + 1] - F.rd m (F.cell3d u i0 j0 k0 i1 j1 k1 gcw) [i, j, k]) / dx 2) - F.rd m (F.face3d2 b2 i0 j0 k0 i1 j1 k1 0) [k, i, j] * ((F.rd m (F.cell3d u i0 j0 k0 i1 j1 k1 gcw) [i, j, k] - F.rd m (F.cell3d u i0 j0 k0 i1 j1 k1 gcw) [i, j, k - 1]) / dx 2)) / dx 2)) + alpha * F.rd m (F.cell3d a i0 j0 k0 i1 j1 k1 agcw) [i, j, k] * F.rd m (F.cell3d u i0 j0 k0 i1 j1 k1 gcw) [i, j, k])) := by
  have h1 : F.Args m [(F.cell3d u i0 j0 k0 i1 j1 k1 gcw), (F.face3d0 b0 i0 j0 k0 i1 j1 k1 0), (F.face3d1 b1 i0 j0 k0 i1 j1 k1 0), (F.face3d2 b2 i0 j0 k0 i1 j1 k1 0)] [(F.face3d0 f0 i0 j0 k0 i1 j1 k1 0), (F.face3d1 f1 i0 j0 k0 i1 j1 k1 0), (F.face3d2 f2 i0 j0 k0 i1 j1 k1 0)] := h.sub (by intro x hx; simp only [List.mem_cons, List.not_mem_nil, or_false] at hx ⊢; tauto) (by intro x hx; simp only [List.mem_cons, List.not_mem_nil, or_false] at hx ⊢; tauto)
  obtain ⟨m1, c1, K1, V0, V1, V2⟩ := cflux3_run (dx := dx) hβ1 hi hj hk hg h1 hp
  have h2 : F.Args m1 [(F.cell3d a i0 j0 k0 i1 j1 k1 agcw), (F.cell3d u i0 j0 k0 i1 j1 k1 gcw), (F.face3d0 f0 i0 j0 k0 i1 j1 k1 0), (F.face3d1 f1 i0 j0 k0 i1 j1 k1 0), (F.face3d2 f2 i0 j0 k0 i1 j1 k1 0)] [(F.cell3d res i0 j0 k0 i1 j1 k1 rgcw)] := by
    refine ⟨fun a ha => K1.ok (h.ok a ?_), ?_⟩
    · simp only [List.mem_cons, List.mem_append, List.not_mem_nil, or_false] at ha ⊢; tauto
    · simp only [List.mem_cons, List.not_mem_nil, or_false, forall_eq_or_imp, forall_eq]
      exact ⟨h.apart _ (by simp) _ (by simp), h.apart _ (by simp) _ (by simp), hr.1, hr.2.1, hr.2.2⟩
  obtain ⟨m2, q2, -, K2, W⟩ := v1apply3_run (alpha := alpha) (beta := beta) (dx := dx) hi hj hk hagcw (by omega) hrgcw h2
  obtain ⟨m2', c2, e2⟩ := C49_v1_apply_3d (alpha := alpha) (beta := beta) (dx := dx) (β := β2) hβ2 B64.neg_mul hi hj hk hagcw (by omega) hrgcw h2
  obtain rfl : m2 = m2' := Except.ok.inj (q2.symm.trans e2)
  refine ⟨m1, m2, c1, c2, K1, K2, V0, V1, V2, fun i j k h0 h1 h2 h3 h4 h5 => ?_⟩
  have w := W i j k h0 h1 h2 h3 h4 h5
  have e0a := (V0 (i + 1) j k (by omega) (by omega) (by omega) (by omega) (by omega) (by omega)).rd
  rw [add_sub_cancel_right] at e0a
  have e0b := (V0 i j k (by omega) (by omega) (by omega) (by omega) (by omega) (by omega)).rd
  have e1a := (V1 i (j + 1) k (by omega) (by omega) (by omega) (by omega) (by omega) (by omega)).rd
  rw [add_sub_cancel_right] at e1a
  have e1b := (V1 i j k (by omega) (by omega) (by omega) (by omega) (by omega) (by omega)).rd
  have e2a := (V2 i j (k + 1) (by omega) (by omega) (by omega) (by omega) (by omega) (by omega)).rd
  rw [add_sub_cancel_right] at e2a
  have e2b := (V2 i j k (by omega) (by omega) (by omega) (by omega) (by omega) (by omega)).rd
  have ea : F.rd m1 (F.cell3d a i0 j0 k0 i1 j1 k1 agcw) [i, j, k] = F.rd m (F.cell3d a i0 j0 k0 i1 j1 k1 agcw) [i, j, k] := K1.rd (by intro o ho; refine h.apart o ?_ _ (by simp); simp only [List.mem_cons, List.not_mem_nil, or_false] at ho ⊢; tauto) (by in_bounds)
  have eu : F.rd m1 (F.cell3d u i0 j0 k0 i1 j1 k1 gcw) [i, j, k] = F.rd m (F.cell3d u i0 j0 k0 i1 j1 k1 gcw) [i, j, k] := K1.rd (by intro o ho; refine h.apart o ?_ _ (by simp); simp only [List.mem_cons, List.not_mem_nil, or_false] at ho ⊢; tauto) (by in_bounds)
  rw [e0a, e0b, e1a, e1b, e2a, e2b, ea, eu] at w
  exact w

theorem rop_v2_3 {i0 j0 k0 i1 j1 k1 gcw rgcw : Int} {alpha beta : B64} {dx : Nat → B64} {u b0 b1 b2 f0 f1 f2 res : Ptr} {β1 β2 : Nat → Backend} {m : Mem B64}
    (hβ1 : ∀ n, ValidBackend (β1 n)) (hβ2 : ∀ n, ValidBackend (β2 n)) (hi : i0 ≤ i1) (hj : j0 ≤ j1) (hk : k0 ≤ k1) (hg : 1 ≤ gcw) (hrgcw : 0 ≤ rgcw)
    (h : F.Args m [(F.cell3d u i0 j0 k0 i1 j1 k1 gcw), (F.face3d0 b0 i0 j0 k0 i1 j1 k1 0), (F.face3d1 b1 i0 j0 k0 i1 j1 k1 0), (F.face3d2 b2 i0 j0 k0 i1 j1 k1 0)] [(F.face3d0 f0 i0 j0 k0 i1 j1 k1 0), (F.face3d1 f1 i0 j0 k0 i1 j1 k1 0), (F.face3d2 f2 i0 j0 k0 i1 j1 k1 0), (F.cell3d res i0 j0 k0 i1 j1 k1 rgcw)])
    (hp : F.Apart (F.face3d0 f0 i0 j0 k0 i1 j1 k1 0) (F.face3d1 f1 i0 j0 k0 i1 j1 k1 0) ∧ F.Apart (F.face3d0 f0 i0 j0 k0 i1 j1 k1 0) (F.face3d2 f2 i0 j0 k0 i1 j1 k1 0) ∧ F.Apart (F.face3d1 f1 i0 j0 k0 i1 j1 k1 0) (F.face3d2 f2 i0 j0 k0 i1 j1 k1 0))
    (hr : F.Apart (F.cell3d res i0 j0 k0 i1 j1 k1 rgcw) (F.face3d0 f0 i0 j0 k0 i1 j1 k1 0) ∧ F.Apart (F.cell3d res i0 j0 k0 i1 j1 k1 rgcw) (F.face3d1 f1 i0 j0 k0 i1 j1 k1 0) ∧ F.Apart (F.cell3d res i0 j0 k0 i1 j1 k1 rgcw) (F.face3d2 f2 i0 j0 k0 i1 j1 k1 0)) :
    ∃ m1 m2, Cuda.flux3d i0 j0 k0 i1 j1 k1 dx b0 b1 b2 gcw u f0 f1 f2 β1 m = .ok m1 ∧ Cuda.diffusionV2Apply3d i0 i1 j0 j1 k0 k1 alpha beta dx gcw u f0 f1 f2 rgcw res β2 m1 = .ok m2 ∧ F.Kept [(F.face3d0 f0 i0 j0 k0 i1 j1 k1 0), (F.face3d1 f1 i0 j0 k0 i1 j1 k1 0), (F.face3d2 f2 i0 j0 k0 i1 j1 k1 0)] m m1 ∧ F.Kept [(F.cell3d res i0 j0 k0 i1 j1 k1 rgcw)] m1 m2 ∧
      (∀ i j k, i0 ≤ i → i ≤ i1 + 1 → j0 ≤ j → j ≤ j1 → k0 ≤ k → k ≤ k1 → F.El m1 (F.face3d0 f0 i0 j0 k0 i1 j1 k1 0) [i, j, k] (F.rd m (F.face3d0 b0 i0 j0 k0 i1 j1 k1 0) [i, j, k] * ((F.rd m (F.cell3d u i0 j0 k0 i1 j1 k1 gcw) [i, j, k] - F.rd m (F.cell3d u i0 j0 k0 i1 j1 k1 gcw) [i - 1, j, k]) / dx 0))) ∧
      (∀ i j k, i0 ≤ i → i ≤ i1 → j0 ≤ j → j ≤ j1 + 1 → k0 ≤ k → k ≤ k1 → F.El m1 (F.face3d1 f1 i0 j0 k0 i1 j1 k1 0) [j, k, i] (F.rd m (F.face3d1 b1 i0 j0 k0 i1 j1 k1 0) [j, k, i] * ((F.rd m (F.cell3d u i0 j0 k0 i1 j1 k1 gcw) [i, j, k] - F.rd m (F.cell3d u i0 j0 k0 i1 j1 k1 gcw) [i, j - 1, k]) / dx 1))) ∧
      (∀ i j k, i0 ≤ i → i ≤ i1 → j0 ≤ j → j ≤ j1 → k0 ≤ k → k ≤ k1 + 1 → F.El m1 (F.face3d2 f2 i0 j0 k0 i1 j1 k1 0) [k, i, j] (F.rd m (F.face3d2 b2 i0 j0 k0 i1 j1 k1 0) [k, i, j] * ((F.rd m (F.cell3d u i0 j0 k0 i1 j1 k1 gcw) [i, j, k] - F.rd m (F.cell3d u i0 j0 k0 i1 j1 k1 gcw) [i, j, k - 1]) / dx 2))) ∧
      (∀ i j k, i0 ≤ i → i ≤ i1 → j0 ≤ j → j ≤ j1 → k0 ≤ k → k ≤ k1 → F.El m2 (F.cell3d res i0 j0 k0 i1 j1 k1 rgcw) [i, j, k] (-(beta * ((F.rd m (F.face3d0 b0 i0 j0 k0 i1 j1 k1 0) [i + 1, j, k] * ((F.rd m (F.cell3d u i0 j0 k0 i1 j1 k1 gcw) [i + 1, j, k] - F.rd m (F.cell3d u i0 j0 k0 i1 j1 k1 gcw) [i, j, k]) / dx 0) - F.rd m (F.face3d0 b0 i0 j0 k0 i1 j1 k1 0) [i, j, k] * ((F.rd m (F.cell3d u i0 j0 k0 i1 j1 k1 gcw) [i, j, k] - F.rd m (F.cell3d u i0 j0 k0 i1 j1 k1 gcw) [i - 1, j, k]) / dx 0)) / dx 0 + (F.rd m (F.face3d1 b1 i0 j0 k0 i1 j1 k1 0) [j + 1, k, i] * ((F.rd m (F.cell3d u i0 j0 k0 i1 j1 k1 gcw) [i, j + 1, k] - F.rd m (F.cell3d u i0 j0 k0 i1 j1 k1 gcw) [i, j, k]) / dx 1) - F.rd m (F.face3d1 b1 i0 j0 k0 i1 j1 k1 0) [j, k, i] * ((F.rd m (F.cell3d u i0 j0 k0 i1 j1 k1 gcw) [i, j, k] - F.rd m (F.cell3d u i0 j0 k0 i1 j1 k1 gcw) [i, j - 1, k]) / dx 1)) / dx 1 + (F.rd m (F.face3d2 b2 i0 j0 k0 i1 j1 k1 0) [k + 1, i, j] * ((F.rd m (F.cell3d u i0 j0 k0 i1 j1 k1 gcw) [i, j, k + 1] - F.rd m (F.cell3d u i0 j0 k0 i1 j1 k1 gcw) [i, j, k]) / dx 2) - F.rd m (F.face3d2 b2 i0 j0 k0 i1 j1 k1 0) [k, i, j] * ((F.rd m (F.cell3d u i0 j0 k0 i1 j1 k1 gcw) [i, j, k] - F.rd m (F.cell3d u i0 j0 k0 i1 j1 k1 gcw) [i, j, k - 1]) / dx 2)) / dx 2)) + alpha * F.rd m (F.cell3d u i0 j0 k0 i1 j1 k1 gcw) [i, j, k])) := by
  have h1 : F.Args m [(F.cell3d u i0 j0 k0 i1 j1 k1 gcw), (F.face3d0 b0 i0 j0 k0 i1 j1 k1 0), (F.face3d1 b1 i0 j0 k0 i1 j1 k1 0), (F.face3d2 b2 i0 j0 k0 i1 j1 k1 0)] [(F.face3d0 f0 i0 j0 k0 i1 j1 k1 0), (F.face3d1 f1 i0 j0 k0 i1 j1 k1 0), (F.face3d2 f2 i0 j0 k0 i1 j1 k1 0)] := h.sub (by intro x hx; simp only [List.mem_cons, List.not_mem_nil, or_false] at hx ⊢; tauto) (by intro x hx; simp only [List.mem_cons, List.not_mem_nil, or_false] at hx ⊢; tauto)
  obtain ⟨m1, c1, K1, V0, V1, V2⟩ := cflux3_run (dx := dx) hβ1 hi hj hk hg h1 hp
  have h2 : F.Args m1 [(F.cell3d u i0 j0 k0 i1 j1 k1 gcw), (F.face3d0 f0 i0 j0 k0 i1 j1 k1 0), (F.face3d1 f1 i0 j0 k0 i1 j1 k1 0), (F.face3d2 f2 i0 j0 k0 i1 j1 k1 0)] [(F.cell3d res i0 j0 k0 i1 j1 k1 rgcw)] := by
    refine ⟨fun a ha => K1.ok (h.ok a ?_), ?_⟩
    · simp only [List.mem_cons, List.mem_append, List.not_mem_nil, or_false] at ha ⊢; tauto
    · simp only [List.mem_cons, List.not_mem_nil, or_false, forall_eq_or_imp, forall_eq]
      exact ⟨h.apart _ (by simp) _ (by simp), hr.1, hr.2.1, hr.2.2⟩
  obtain ⟨m2, q2, -, K2, W⟩ := v2apply3_run (alpha := alpha) (beta := beta) (dx := dx) hi hj hk (by omega) hrgcw h2
  obtain ⟨m2', c2, e2⟩ := C49_v2_apply_3d (alpha := alpha) (beta := beta) (dx := dx) (β := β2) hβ2 B64.neg_mul hi hj hk (by omega) hrgcw h2
  obtain rfl : m2 = m2' := Except.ok.inj (q2.symm.trans e2)
  refine ⟨m1, m2, c1, c2, K1, K2, V0, V1, V2, fun i j k h0 h1 h2 h3 h4 h5 => ?_⟩
  have w := W i j k h0 h1 h2 h3 h4 h5
  have e0a := (V0 (i + 1) j k (by omega) (by omega) (by omega) (by omega) (by omega) (by omega)).rd
  rw [add_sub_cancel_right] at e0a
  have e0b := (V0 i j k (by omega) (by omega) (by omega) (by omega) (by omega) (by omega)).rd
  have e1a := (V1 i (j + 1) k (by omega) (by omega) (by omega) (by omega) (by omega) (by omega)).rd
  rw [add_sub_cancel_right] at e1a
  have e1b := (V1 i j k (by omega) (by omega) (by omega) (by omega) (by omega) (by omega)).rd
  have e2a := (V2 i j (k + 1) (by omega) (by omega) (by omega) (by omega) (by omega) (by omega)).rd
  rw [add_sub_cancel_right] at e2a
  have e2b := (V2 i j k (by omega) (by omega) (by omega) (by omega) (by omega) (by omega)).rd
  have eu : F.rd m1 (F.cell3d u i0 j0 k0 i1 j1 k1 gcw) [i, j, k] = F.rd m (F.cell3d u i0 j0 k0 i1 j1 k1 gcw) [i, j, k] := K1.rd (by intro o ho; refine h.apart o ?_ _ (by simp); simp only [List.mem_cons, List.not_mem_nil, or_false] at ho ⊢; tauto) (by in_bounds)
  rw [e0a, e0b, e1a, e1b, e2a, e2b, eu] at w
  exact w

theorem rop_p_3 {i0 j0 k0 i1 j1 k1 gcw rgcw : Int} {beta : B64} {dx : Nat → B64} {u f0 f1 f2 res : Ptr} {β1 β2 : Nat → Backend} {m : Mem B64}
    (hβ1 : ∀ n, ValidBackend (β1 n)) (hβ2 : ∀ n, ValidBackend (β2 n)) (hi : i0 ≤ i1) (hj : j0 ≤ j1) (hk : k0 ≤ k1) (hg : 1 ≤ gcw) (hrgcw : 0 ≤ rgcw)
    (h : F.Args m [(F.cell3d u i0 j0 k0 i1 j1 k1 gcw)] [(F.face3d0 f0 i0 j0 k0 i1 j1 k1 0), (F.face3d1 f1 i0 j0 k0 i1 j1 k1 0), (F.face3d2 f2 i0 j0 k0 i1 j1 k1 0), (F.cell3d res i0 j0 k0 i1 j1 k1 rgcw)])
    (hp : F.Apart (F.face3d0 f0 i0 j0 k0 i1 j1 k1 0) (F.face3d1 f1 i0 j0 k0 i1 j1 k1 0) ∧ F.Apart (F.face3d0 f0 i0 j0 k0 i1 j1 k1 0) (F.face3d2 f2 i0 j0 k0 i1 j1 k1 0) ∧ F.Apart (F.face3d1 f1 i0 j0 k0 i1 j1 k1 0) (F.face3d2 f2 i0 j0 k0 i1 j1 k1 0))
    (hr : F.Apart (F.cell3d res i0 j0 k0 i1 j1 k1 rgcw) (F.face3d0 f0 i0 j0 k0 i1 j1 k1 0) ∧ F.Apart (F.cell3d res i0 j0 k0 i1 j1 k1 rgcw) (F.face3d1 f1 i0 j0 k0 i1 j1 k1 0) ∧ F.Apart (F.cell3d res i0 j0 k0 i1 j1 k1 rgcw) (F.face3d2 f2 i0 j0 k0 i1 j1 k1 0)) :
    ∃ m1 m2, Cuda.poissonFlux3d i0 j0 k0 i1 j1 k1 dx gcw u f0 f1 f2 β1 m = .ok m1 ∧ Cuda.poissonV2Apply3d i0 i1 j0 j1 k0 k1 beta dx f0 f1 f2 rgcw res β2 m1 = .ok m2 ∧ F.Kept [(F.face3d0 f0 i0 j0 k0 i1 j1 k1 0), (F.face3d1 f1 i0 j0 k0 i1 j1 k1 0), (F.face3d2 f2 i0 j0 k0 i1 j1 k1 0)] m m1 ∧ F.Kept [(F.cell3d res i0 j0 k0 i1 j1 k1 rgcw)] m1 m2 ∧
      (∀ i j k, i0 ≤ i → i ≤ i1 + 1 → j0 ≤ j → j ≤ j1 → k0 ≤ k → k ≤ k1 → F.El m1 (F.face3d0 f0 i0 j0 k0 i1 j1 k1 0) [i, j, k] ((F.rd m (F.cell3d u i0 j0 k0 i1 j1 k1 gcw) [i, j, k] - F.rd m (F.cell3d u i0 j0 k0 i1 j1 k1 gcw) [i - 1, j, k]) / dx 0)) ∧
      (∀ i j k, i0 ≤ i → i ≤ i1 → j0 ≤ j → j ≤ j1 + 1 → k0 ≤ k → k ≤ k1 → F.El m1 (F.face3d1 f1 i0 j0 k0 i1 j1 k1 0) [j, k, i] ((F.rd m (F.cell3d u i0 j0 k0 i1 j1 k1 gcw) [i, j, k] - F.rd m (F.cell3d u i0 j0 k0 i1 j1 k1 gcw) [i, j - 1, k]) / dx 1)) ∧
      (∀ i j k, i0 ≤ i → i ≤ i1 → j0 ≤ j → j ≤ j1 → k0 ≤ k → k ≤ k1 + 1 → F.El m1 (F.face3d2 f2 i0 j0 k0 i1 j1 k1 0) [k, i, j] ((F.rd m (F.cell3d u i0 j0 k0 i1 j1 k1 gcw) [i, j, k] - F.rd m (F.cell3d u i0 j0 k0 i1 j1 k1 gcw) [i, j, k - 1]) / dx 2)) ∧
      (∀ i j k, i0 ≤ i → i ≤ i1 → j0 ≤ j → j ≤ j1 → k0 ≤ k → k ≤ k1 → F.El m2 (F.cell3d res i0 j0 k0 i1 j1 k1 rgcw) [i, j, k] (-(beta * (((F.rd m (F.cell3d u i0 j0 k0 i1 j1 k1 gcw) [i + 1, j, k] - F.rd m (F.cell3d u i0 j0 k0 i1 j1 k1 gcw) [i, j, k]) / dx 0 - (F.rd m (F.cell3d u i0 j0 k0 i1 j1 k1 gcw) [i, j, k] - F.rd m (F.cell3d u i0 j0 k0 i1 j1 k1 gcw) [i - 1, j, k]) / dx 0) / dx 0 + ((F.rd m (F.cell3d u i0 j0 k0 i1 j1 k1 gcw) [i, j + 1, k] - F.rd m (F.cell3d u i0 j0 k0 i1 j1 k1 gcw) [i, j, k]) / dx 1 - (F.rd m (F.cell3d u i0 j0 k0 i1 j1 k1 gcw) [i, j, k] - F.rd m (F.cell3d u i0 j0 k0 i1 j1 k1 gcw) [i, j - 1, k]) / dx 1) / dx 1 + ((F.rd m (F.cell3d u i0 j0 k0 i1 j1 k1 gcw) [i, j, k + 1] - F.rd m (F.cell3d u i0 j0 k0 i1 j1 k1 gcw) [i, j, k]) / dx 2 - (F.rd m (F.cell3d u i0 j0 k0 i1 j1 k1 gcw) [i, j, k] - F.rd m (F.cell3d u i0 j0 k0 i1 j1 k1 gcw) [i, j, k - 1]) / dx 2) / dx 2)))) := by
  have h1 : F.Args m [(F.cell3d u i0 j0 k0 i1 j1 k1 gcw)] [(F.face3d0 f0 i0 j0 k0 i1 j1 k1 0), (F.face3d1 f1 i0 j0 k0 i1 j1 k1 0), (F.face3d2 f2 i0 j0 k0 i1 j1 k1 0)] := h.sub (by intro x hx; simp only [List.mem_cons, List.not_mem_nil, or_false] at hx ⊢; tauto) (by intro x hx; simp only [List.mem_cons, List.not_mem_nil, or_false] at hx ⊢; tauto)
  obtain ⟨m1, q1, -, K1, V0, V1, V2⟩ := pflux3_run (dx := dx) hi hj hk hg h1 hp
  obtain ⟨m1', c1, e1⟩ := C49_flux_poisson_3d (dx := dx) (β := β1) hβ1 hi hj hk hg h1
  obtain rfl : m1 = m1' := Except.ok.inj (q1.symm.trans e1)
  have h2 : F.Args m1 [(F.face3d0 f0 i0 j0 k0 i1 j1 k1 0), (F.face3d1 f1 i0 j0 k0 i1 j1 k1 0), (F.face3d2 f2 i0 j0 k0 i1 j1 k1 0)] [(F.cell3d res i0 j0 k0 i1 j1 k1 rgcw)] := by
    refine ⟨fun a ha => K1.ok (h.ok a ?_), ?_⟩
    · simp only [List.mem_cons, List.mem_append, List.not_mem_nil, or_false] at ha ⊢; tauto
    · simp only [List.mem_cons, List.not_mem_nil, or_false, forall_eq_or_imp, forall_eq]
      exact ⟨hr.1, hr.2.1, hr.2.2⟩
  obtain ⟨m2, q2, -, K2, W⟩ := papply3_run (beta := beta) (dx := dx) hi hj hk hrgcw h2
  obtain ⟨m2', c2, e2⟩ := C49_poisson_apply_3d (beta := beta) (dx := dx) (β := β2) hβ2 B64.neg_mul hi hj hk hrgcw h2
  obtain rfl : m2 = m2' := Except.ok.inj (q2.symm.trans e2)
  refine ⟨m1, m2, c1, c2, K1, K2, V0, V1, V2, fun i j k h0 h1 h2 h3 h4 h5 => ?_⟩
  have w := W i j k h0 h1 h2 h3 h4 h5
  have e0a := (V0 (i + 1) j k (by omega) (by omega) (by omega) (by omega) (by omega) (by omega)).rd
  rw [add_sub_cancel_right] at e0a
  have e0b := (V0 i j k (by omega) (by omega) (by omega) (by omega) (by omega) (by omega)).rd
  have e1a := (V1 i (j + 1) k (by omega) (by omega) (by omega) (by omega) (by omega) (by omega)).rd
  rw [add_sub_cancel_right] at e1a
  have e1b := (V1 i j k (by omega) (by omega) (by omega) (by omega) (by omega) (by omega)).rd
  have e2a := (V2 i j (k + 1) (by omega) (by omega) (by omega) (by omega) (by omega) (by omega)).rd
  rw [add_sub_cancel_right] at e2a
  have e2b := (V2 i j k (by omega) (by omega) (by omega) (by omega) (by omega) (by omega)).rd
  rw [e0a, e0b, e1a, e1b, e2a, e2b] at w
  exact w

theorem rop_d_3 {i0 j0 k0 i1 j1 k1 gcw rgcw : Int} {beta : B64} {dx : Nat → B64} {u b0 b1 b2 f0 f1 f2 res : Ptr} {β1 β2 : Nat → Backend} {m : Mem B64}
    (hβ1 : ∀ n, ValidBackend (β1 n)) (hβ2 : ∀ n, ValidBackend (β2 n)) (hi : i0 ≤ i1) (hj : j0 ≤ j1) (hk : k0 ≤ k1) (hg : 1 ≤ gcw) (hrgcw : 0 ≤ rgcw)
    (h : F.Args m [(F.cell3d u i0 j0 k0 i1 j1 k1 gcw), (F.face3d0 b0 i0 j0 k0 i1 j1 k1 0), (F.face3d1 b1 i0 j0 k0 i1 j1 k1 0), (F.face3d2 b2 i0 j0 k0 i1 j1 k1 0)] [(F.face3d0 f0 i0 j0 k0 i1 j1 k1 0), (F.face3d1 f1 i0 j0 k0 i1 j1 k1 0), (F.face3d2 f2 i0 j0 k0 i1 j1 k1 0), (F.cell3d res i0 j0 k0 i1 j1 k1 rgcw)])
    (hp : F.Apart (F.face3d0 f0 i0 j0 k0 i1 j1 k1 0) (F.face3d1 f1 i0 j0 k0 i1 j1 k1 0) ∧ F.Apart (F.face3d0 f0 i0 j0 k0 i1 j1 k1 0) (F.face3d2 f2 i0 j0 k0 i1 j1 k1 0) ∧ F.Apart (F.face3d1 f1 i0 j0 k0 i1 j1 k1 0) (F.face3d2 f2 i0 j0 k0 i1 j1 k1 0))
    (hr : F.Apart (F.cell3d res i0 j0 k0 i1 j1 k1 rgcw) (F.face3d0 f0 i0 j0 k0 i1 j1 k1 0) ∧ F.Apart (F.cell3d res i0 j0 k0 i1 j1 k1 rgcw) (F.face3d1 f1 i0 j0 k0 i1 j1 k1 0) ∧ F.Apart (F.cell3d res i0 j0 k0 i1 j1 k1 rgcw) (F.face3d2 f2 i0 j0 k0 i1 j1 k1 0)) :
    ∃ m1 m2, Cuda.flux3d i0 j0 k0 i1 j1 k1 dx b0 b1 b2 gcw u f0 f1 f2 β1 m = .ok m1 ∧ Cuda.poissonV2Apply3d i0 i1 j0 j1 k0 k1 beta dx f0 f1 f2 rgcw res β2 m1 = .ok m2 ∧ F.Kept [(F.face3d0 f0 i0 j0 k0 i1 j1 k1 0), (F.face3d1 f1 i0 j0 k0 i1 j1 k1 0), (F.face3d2 f2 i0 j0 k0 i1 j1 k1 0)] m m1 ∧ F.Kept [(F.cell3d res i0 j0 k0 i1 j1 k1 rgcw)] m1 m2 ∧
      (∀ i j k, i0 ≤ i → i ≤ i1 + 1 → j0 ≤ j → j ≤ j1 → k0 ≤ k → k ≤ k1 → F.El m1 (F.face3d0 f0 i0 j0 k0 i1 j1 k1 0) [i, j, k] (F.rd m (F.face3d0 b0 i0 j0 k0 i1 j1 k1 0) [i, j, k] * ((F.rd m (F.cell3d u i0 j0 k0 i1 j1 k1 gcw) [i, j, k] - F.rd m (F.cell3d u i0 j0 k0 i1 j1 k1 gcw) [i - 1, j, k]) / dx 0))) ∧
      (∀ i j k, i0 ≤ i → i ≤ i1 → j0 ≤ j → j ≤ j1 + 1 → k0 ≤ k → k ≤ k1 → F.El m1 (F.face3d1 f1 i0 j0 k0 i1 j1 k1 0) [j, k, i] (F.rd m (F.face3d1 b1 i0 j0 k0 i1 j1 k1 0) [j, k, i] * ((F.rd m (F.cell3d u i0 j0 k0 i1 j1 k1 gcw) [i, j, k] - F.rd m (F.cell3d u i0 j0 k0 i1 j1 k1 gcw) [i, j - 1, k]) / dx 1))) ∧
      (∀ i j k, i0 ≤ i → i ≤ i1 → j0 ≤ j → j ≤ j1 → k0 ≤ k → k ≤ k1 + 1 → F.El m1 (F.face3d2 f2 i0 j0 k0 i1 j1 k1 0) [k, i, j] (F.rd m (F.face3d2 b2 i0 j0 k0 i1 j1 k1 0) [k, i, j] * ((F.rd m (F.cell3d u i0 j0 k0 i1 j1 k1 gcw) [i, j, k] - F.rd m (F.cell3d u i0 j0 k0 i1 j1 k1 gcw) [i, j, k - 1]) / dx 2))) ∧
      (∀ i j k, i0 ≤ i → i ≤ i1 → j0 ≤ j → j ≤ j1 → k0 ≤ k → k ≤ k1 → F.El m2 (F.cell3d res i0 j0 k0 i1 j1 k1 rgcw) [i, j, k] (-(beta * ((F.rd m (F.face3d0 b0 i0 j0 k0 i1 j1 k1 0) [i + 1, j, k] * ((F.rd m (F.cell3d u i0 j0 k0 i1 j1 k1 gcw) [i + 1, j, k] - F.rd m (F.cell3d u i0 j0 k0 i1 j1 k1 gcw) [i, j, k]) / dx 0) - F.rd m (F.face3d0 b0 i0 j0 k0 i1 j1 k1 0) [i, j, k] * ((F.rd m (F.cell3d u i0 j0 k0 i1 j1 k1 gcw) [i, j, k] - F.rd m (F.cell3d u i0 j0 k0 i1 j1 k1 gcw) [i - 1, j, k]) / dx 0)) / dx 0 + (F.rd m (F.face3d1 b1 i0 j0 k0 i1 j1 k1 0) [j + 1, k, i] * ((F.rd m (F.cell3d u i0 j0 k0 i1 j1 k1 gcw) [i, j + 1, k] - F.rd m (F.cell3d u i0 j0 k0 i1 j1 k1 gcw) [i, j, k]) / dx 1) - F.rd m (F.face3d1 b1 i0 j0 k0 i1 j1 k1 0) [j, k, i] * ((F.rd m (F.cell3d u i0 j0 k0 i1 j1 k1 gcw) [i, j, k] - F.rd m (F.cell3d u i0 j0 k0 i1 j1 k1 gcw) [i, j - 1, k]) / dx 1)) / dx 1 + (F.rd m (F.face3d2 b2 i0 j0 k0 i1 j1 k1 0) [k + 1, i, j] * ((F.rd m (F.cell3d u i0 j0 k0 i1 j1 k1 gcw) [i, j, k + 1] - F.rd m (F.cell3d u i0 j0 k0 i1 j1 k1 gcw) [i, j, k]) / dx 2) - F.rd m (F.face3d2 b2 i0 j0 k0 i1 j1 k1 0) [k, i, j] * ((F.rd m (F.cell3d u i0 j0 k0 i1 j1 k1 gcw) [i, j, k] - F.rd m (F.cell3d u i0 j0 k0 i1 j1 k1 gcw) [i, j, k - 1]) / dx 2)) / dx 2)))) := by
  have h1 : F.Args m [(F.cell3d u i0 j0 k0 i1 j1 k1 gcw), (F.face3d0 b0 i0 j0 k0 i1 j1 k1 0), (F.face3d1 b1 i0 j0 k0 i1 j1 k1 0), (F.face3d2 b2 i0 j0 k0 i1 j1 k1 0)] [(F.face3d0 f0 i0 j0 k0 i1 j1 k1 0), (F.face3d1 f1 i0 j0 k0 i1 j1 k1 0), (F.face3d2 f2 i0 j0 k0 i1 j1 k1 0)] := h.sub (by intro x hx; simp only [List.mem_cons, List.not_mem_nil, or_false] at hx ⊢; tauto) (by intro x hx; simp only [List.mem_cons, List.not_mem_nil, or_false] at hx ⊢; tauto)
  obtain ⟨m1, c1, K1, V0, V1, V2⟩ := cflux3_run (dx := dx) hβ1 hi hj hk hg h1 hp
  have h2 : F.Args m1 [(F.face3d0 f0 i0 j0 k0 i1 j1 k1 0), (F.face3d1 f1 i0 j0 k0 i1 j1 k1 0), (F.face3d2 f2 i0 j0 k0 i1 j1 k1 0)] [(F.cell3d res i0 j0 k0 i1 j1 k1 rgcw)] := by
    refine ⟨fun a ha => K1.ok (h.ok a ?_), ?_⟩
    · simp only [List.mem_cons, List.mem_append, List.not_mem_nil, or_false] at ha ⊢; tauto
    · simp only [List.mem_cons, List.not_mem_nil, or_false, forall_eq_or_imp, forall_eq]
      exact ⟨hr.1, hr.2.1, hr.2.2⟩
  obtain ⟨m2, q2, -, K2, W⟩ := papply3_run (beta := beta) (dx := dx) hi hj hk hrgcw h2
  obtain ⟨m2', c2, e2⟩ := C49_poisson_apply_3d (beta := beta) (dx := dx) (β := β2) hβ2 B64.neg_mul hi hj hk hrgcw h2
  obtain rfl : m2 = m2' := Except.ok.inj (q2.symm.trans e2)
  refine ⟨m1, m2, c1, c2, K1, K2, V0, V1, V2, fun i j k h0 h1 h2 h3 h4 h5 => ?_⟩
  have w := W i j k h0 h1 h2 h3 h4 h5
  have e0a := (V0 (i + 1) j k (by omega) (by omega) (by omega) (by omega) (by omega) (by omega)).rd
  rw [add_sub_cancel_right] at e0a
  have e0b := (V0 i j k (by omega) (by omega) (by omega) (by omega) (by omega) (by omega)).rd
  have e1a := (V1 i (j + 1) k (by omega) (by omega) (by omega) (by omega) (by omega) (by omega)).rd
  rw [add_sub_cancel_right] at e1a
  have e1b := (V1 i j k (by omega) (by omega) (by omega) (by omega) (by omega) (by omega)).rd
  have e2a := (V2 i j (k + 1) (by omega) (by omega) (by omega) (by omega) (by omega) (by omega)).rd
  rw [add_sub_cancel_right] at e2a
  have e2b := (V2 i j k (by omega) (by omega) (by omega) (by omega) (by omega) (by omega)).rd
  rw [e0a, e0b, e1a, e1b, e2a, e2b] at w
  exact w

end Verif
