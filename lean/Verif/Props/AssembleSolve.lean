import Verif.Lemmas.AssembleEx
import Verif.Props.SmoothConv

/-
C62 and C63: assembling and sweeping solves the equations of the operator kernels.
-/

set_option linter.unusedVariables false
set_option linter.unusedSimpArgs false
set_option linter.unusedTactic false
set_option linter.unreachableTactic false

namespace Verif
open Spec

variable {T : Type} [Field T] [LinearOrder T] [IsStrictOrderedRing T]

/-- 1D, diffusion operator with cell coefficients, damped Jacobi: if flux and apply kernel take `X` to `G`, then off-diagonal and diagonal kernel followed by `l` sweeps for the right
hand side `G` bring the unknowns to within `rate^l E` of `X`. -/
theorem C62_jacobi_v1_1d {i0 i1 agcw gcw rgcw sgcw fgcw : Int} {alpha beta : T} {dx : Nat → T} {a u b0 f0 res st rhs o r : Ptr} {β1 β2 : Nat → Backend} {β3 β4 : Backend} {m mX m1 m2 : Mem T} {A B0 G U X : List Int → T} {E q : T}
    (hβ1 : ∀ n, ValidBackend (β1 n)) (hβ2 : ∀ n, ValidBackend (β2 n)) (hβ3 : ValidBackend β3) (hβ4 : ValidBackend β4)
    (hi : i0 ≤ i1) (hg : 1 ≤ gcw) (hagcw : 0 ≤ agcw) (hrgcw : 0 ≤ rgcw) (hs : 0 ≤ sgcw) (hfg : 0 ≤ fgcw) (he : F.Elliptic1 i0 i1 alpha beta dx A B0)
    (hq : ∀ i, i0 ≤ i → i ≤ i1 → (1 - q) * (beta / (dx 0 * dx 0) * (B0 [i] + B0 [i + 1]) + alpha * A [i]) ≤ alpha * A [i]) 
    (h : F.Args mX [(F.cell1d a i0 i1 agcw), (F.cell1d u i0 i1 gcw), (F.face1d b0 i0 i1 0)] [(F.face1d f0 i0 i1 0), (F.cell1d res i0 i1 rgcw)])
    (hr : F.Apart (F.cell1d res i0 i1 rgcw) (F.face1d f0 i0 i1 0)) (hAX : F.Holds mX (F.cell1d a i0 i1 agcw) A) (hB0X : F.Holds mX (F.face1d b0 i0 i1 0) B0) (hXX : F.Holds mX (F.cell1d u i0 i1 gcw) X)
    (c1 : Cuda.flux1d i0 i1 dx b0 gcw u f0 β1 mX = .ok m1) (c2 : Cuda.diffusionV1Apply1d i0 i1 alpha beta dx agcw a gcw u f0 rgcw res β2 m1 = .ok m2)
    (hR : ∀ p, F.InBounds [(i0, i1)] p → F.El m2 (F.cell1d res i0 i1 rgcw) p (G p))
    (h2 : F.Args m [(F.cell1d a i0 i1 agcw), (F.face1d b0 i0 i1 0), (F.cell1d u i0 i1 gcw), (F.cell1d rhs i0 i1 fgcw), (F.box1d r i0 i1)] [(F.st1d st i0 i1 sgcw)]) (huf : F.Apart (F.cell1d u i0 i1 gcw) (F.cell1d rhs i0 i1 fgcw)) (hru : F.Apart (F.box1d r i0 i1) (F.cell1d u i0 i1 gcw)) (hrf : F.Apart (F.box1d r i0 i1) (F.cell1d rhs i0 i1 fgcw))
    (hA : F.Holds m (F.cell1d a i0 i1 agcw) A) (hB0 : F.Holds m (F.face1d b0 i0 i1 0) B0) (hU : F.Holds m (F.cell1d u i0 i1 gcw) U) (hG : F.Holds m (F.cell1d rhs i0 i1 fgcw) G) (ht : F.Rows m (F.offset0 o 1 3) F.points1)
    (hUX : ∀ p, ¬ F.InBounds [(i0, i1)] p → U p = X p) (hE : ∀ p, F.InBounds [(i0, i1)] p → |U p - X p| ≤ E) (l : Nat) :
    ∃ s1 s2 m' U', Cuda.offdiag1d i0 i1 i0 i1 dx beta b0 sgcw st β3 m = .ok s1 ∧ Cuda.v1diag1d i0 i1 (i0 - agcw) (i1 + agcw) alpha a sgcw st β4 s1 = .ok s2 ∧
      F.times (F.celljacobi1d i0 i1 3 o (i0 - sgcw) (i1 + sgcw) st (i0 - fgcw) (i1 + fgcw) rhs (i0 - gcw) (i1 + gcw) u r) l s2 = .ok m' ∧
      F.Holds m' (F.cell1d u i0 i1 gcw) U' ∧ F.Only [(F.st1d st i0 i1 sgcw), (F.cell1d u i0 i1 gcw), (F.box1d r i0 i1)] m m' ∧
      (∀ p, ¬ F.InBounds [(i0, i1)] p → U' p = X p) ∧ ∀ p, F.InBounds [(i0, i1)] p → |U' p - X p| ≤ (1 - ((2 : Nat) / (3 : Nat) : T) + ((2 : Nat) / (3 : Nat) : T) * q) ^ l * E := by
  obtain ⟨m1', m2', R, d1, d2, ER, hop⟩ := energy_v1_1 (alpha := alpha) (beta := beta) (dx := dx) hβ1 hβ2 hi hg hagcw hrgcw h hr hAX hB0X hXX
  obtain rfl : m1 = m1' := Except.ok.inj (c1.symm.trans d1)
  obtain rfl : m2 = m2' := Except.ok.inj (c2.symm.trans d2)
  obtain ⟨s1, s2, S, a1, a2, ho, hp, hc⟩ := prob_v1_1 (alpha := alpha) (beta := beta) (dx := dx) (o := o) hβ3 hβ4 hi hagcw hs hg hfg (h2.sub (by intro x hx; simp only [List.mem_cons, List.not_mem_nil, or_false] at hx ⊢; tauto) (fun _ e => e)) huf hA hB0 hU hG ht
  have hX : ∀ p, F.InBounds [(i0, i1)] p → F.Eqn 3 (F.row F.points1) S G X p := fun p hp => by
    have e := (ER p hp).rd.symm.trans (hR p hp).rd
    rw [F.inBounds1] at hp
    obtain ⟨i, rfl, hp⟩ := hp
    rw [F.eqn1 (hc i (by omega) (by omega)), ← hop i (by omega) (by omega)]
    exact e
  have hD := F.dom1 he hc hq
  have hE1 : ∀ p, F.InBounds [(i0, i1)] p → |U p - X p| ≤ E * (fun _ => (1 : T)) p := fun p hp => by
    simpa using hE p hp
  have hr2 : F.Holds s2 (F.box1d r i0 i1) (F.rd m (F.box1d r i0 i1)) := F.Holds.only (fun is hi => (h2.ok (F.box1d r i0 i1) (by simp)).rd hi) ho (by simp only [List.mem_cons, List.not_mem_nil, or_false, forall_eq]; exact h2.apart _ (by simp) _ (by simp))
  obtain ⟨m', U', t, w1, w2, w3, w4⟩ := C59_jacobi_1d hp hr2 hru (F.apart_symm (h2.apart (F.st1d st i0 i1 sgcw) (by simp) (F.box1d r i0 i1) (by simp))) hrf rfl hD hX hUX hE1 l
  refine ⟨s1, s2, m', U', a1, a2, t, w1, (ho.mono (by simp)).trans (w2.mono fun _ ha => List.mem_cons_of_mem _ ha), w3, fun p hp => ?_⟩
  simpa using w4 p hp

example (l : Nat) : ∃ s1 s2 m' U', Cuda.offdiag1d 0 3 0 3 exDx 2 ⟨2, 0⟩ 1 ⟨9, 0⟩ revBackend (exSolve 1) = .ok s1 ∧ Cuda.v1diag1d 0 3 (0 - 1) (3 + 1) 3 ⟨0, 0⟩ 1 ⟨9, 0⟩ seqBackend s1 = .ok s2 ∧
      F.times (F.celljacobi1d 0 3 3 ⟨21, 0⟩ (0 - 1) (3 + 1) ⟨9, 0⟩ (0 - 2) (3 + 2) ⟨10, 0⟩ (0 - 2) (3 + 2) ⟨1, 0⟩ ⟨11, 0⟩) l s2 = .ok m' ∧
      F.Holds m' (F.cell1d ⟨1, 0⟩ 0 3 2) U' ∧ F.Only [(F.st1d ⟨9, 0⟩ 0 3 1), (F.cell1d ⟨1, 0⟩ 0 3 2), (F.box1d ⟨11, 0⟩ 0 3)] (exSolve 1) m' ∧
      (∀ p, ¬ F.InBounds [(0, 3)] p → U' p = exIns 1 0 p) ∧ ∀ p, F.InBounds [(0, 3)] p → |U' p - exIns 1 0 p| ≤ (1 - ((2 : Nat) / (3 : Nat) : Rat) + ((2 : Nat) / (3 : Nat) : Rat) * (9999 / 10000)) ^ l * 5 := by
  obtain ⟨m1, m2, c1, c2, hR⟩ := exRun_v1_1
  exact C62_jacobi_v1_1d (T := Rat) (q := 9999 / 10000) (fun _ => revBackend_ok) (fun _ => seqBackend_ok) revBackend_ok seqBackend_ok (by decide) (by decide) (by decide) (by decide) (by decide) (by decide) exEll_v1_1 exRate_v1_1 (exDir_args (by ex_args)) (apart_blk (by decide))
    (exDir_rd (by decide) (exRat_ok rfl (by decide) (by decide))) (exDir_rd (by decide) (exRat_ok rfl (by decide) (by decide))) exDir_u1 c1 c2 hR
    (exSolve_args (by ex_args)) (ex_apart (by decide)) (ex_apart (by decide)) (ex_apart (by decide)) (exSolve_rd (by decide) (exRat_ok rfl (by decide) (by decide))) (exSolve_rd (by decide) (exRat_ok rfl (by decide) (by decide))) exSolve_u1 (exSolve_f (exRat_ok rfl (by decide) (by decide)) rfl) exSolve_t1 exSolve_out1 exSolve_err1 l

/-- 1D, diffusion operator with cell coefficients, Gauss-Seidel: if flux and apply kernel take `X` to `G`, then off-diagonal and diagonal kernel followed by `l` sweeps for the right
hand side `G` bring the unknowns to within `rate^l E` of `X`. (Partial: equal ghost widths of right hand side and unknowns, see
`C51_gs_1d_false`.) -/
theorem C62_gs_v1_1d_partial {i0 i1 agcw gcw rgcw sgcw fgcw : Int} {alpha beta : T} {dx : Nat → T} {a u b0 f0 res st rhs o : Ptr} {β1 β2 : Nat → Backend} {β3 β4 : Backend} {m mX m1 m2 : Mem T} {A B0 G U X : List Int → T} {E q : T}
    (hβ1 : ∀ n, ValidBackend (β1 n)) (hβ2 : ∀ n, ValidBackend (β2 n)) (hβ3 : ValidBackend β3) (hβ4 : ValidBackend β4)
    (hi : i0 ≤ i1) (hg : 1 ≤ gcw) (hagcw : 0 ≤ agcw) (hrgcw : 0 ≤ rgcw) (hs : 0 ≤ sgcw) (hfg : 0 ≤ fgcw) (hf : fgcw = gcw) (he : F.Elliptic1 i0 i1 alpha beta dx A B0)
    (hq : ∀ i, i0 ≤ i → i ≤ i1 → (1 - q) * (beta / (dx 0 * dx 0) * (B0 [i] + B0 [i + 1]) + alpha * A [i]) ≤ alpha * A [i]) (h1 : q ≤ 1)
    (h : F.Args mX [(F.cell1d a i0 i1 agcw), (F.cell1d u i0 i1 gcw), (F.face1d b0 i0 i1 0)] [(F.face1d f0 i0 i1 0), (F.cell1d res i0 i1 rgcw)])
    (hr : F.Apart (F.cell1d res i0 i1 rgcw) (F.face1d f0 i0 i1 0)) (hAX : F.Holds mX (F.cell1d a i0 i1 agcw) A) (hB0X : F.Holds mX (F.face1d b0 i0 i1 0) B0) (hXX : F.Holds mX (F.cell1d u i0 i1 gcw) X)
    (c1 : Cuda.flux1d i0 i1 dx b0 gcw u f0 β1 mX = .ok m1) (c2 : Cuda.diffusionV1Apply1d i0 i1 alpha beta dx agcw a gcw u f0 rgcw res β2 m1 = .ok m2)
    (hR : ∀ p, F.InBounds [(i0, i1)] p → F.El m2 (F.cell1d res i0 i1 rgcw) p (G p))
    (h2 : F.Args m [(F.cell1d a i0 i1 agcw), (F.face1d b0 i0 i1 0), (F.cell1d u i0 i1 gcw), (F.cell1d rhs i0 i1 fgcw)] [(F.st1d st i0 i1 sgcw)]) (huf : F.Apart (F.cell1d u i0 i1 gcw) (F.cell1d rhs i0 i1 fgcw))
    (hA : F.Holds m (F.cell1d a i0 i1 agcw) A) (hB0 : F.Holds m (F.face1d b0 i0 i1 0) B0) (hU : F.Holds m (F.cell1d u i0 i1 gcw) U) (hG : F.Holds m (F.cell1d rhs i0 i1 fgcw) G) (ht : F.Rows m (F.offset0 o 1 3) F.points1)
    (hUX : ∀ p, ¬ F.InBounds [(i0, i1)] p → U p = X p) (hE : ∀ p, F.InBounds [(i0, i1)] p → |U p - X p| ≤ E) (l : Nat) :
    ∃ s1 s2 m' U', Cuda.offdiag1d i0 i1 i0 i1 dx beta b0 sgcw st β3 m = .ok s1 ∧ Cuda.v1diag1d i0 i1 (i0 - agcw) (i1 + agcw) alpha a sgcw st β4 s1 = .ok s2 ∧
      F.times (F.cellgs1d i0 i1 3 o (i0 - sgcw) (i1 + sgcw) st (i0 - fgcw) (i1 + fgcw) rhs (i0 - gcw) (i1 + gcw) u) l s2 = .ok m' ∧
      F.Holds m' (F.cell1d u i0 i1 gcw) U' ∧ F.Only [(F.st1d st i0 i1 sgcw), (F.cell1d u i0 i1 gcw)] m m' ∧
      (∀ p, ¬ F.InBounds [(i0, i1)] p → U' p = X p) ∧ ∀ p, F.InBounds [(i0, i1)] p → |U' p - X p| ≤ q ^ l * E := by
  obtain ⟨m1', m2', R, d1, d2, ER, hop⟩ := energy_v1_1 (alpha := alpha) (beta := beta) (dx := dx) hβ1 hβ2 hi hg hagcw hrgcw h hr hAX hB0X hXX
  obtain rfl : m1 = m1' := Except.ok.inj (c1.symm.trans d1)
  obtain rfl : m2 = m2' := Except.ok.inj (c2.symm.trans d2)
  obtain ⟨s1, s2, S, a1, a2, ho, hp, hc⟩ := prob_v1_1 (alpha := alpha) (beta := beta) (dx := dx) (o := o) hβ3 hβ4 hi hagcw hs hg hfg (h2.sub (by intro x hx; simp only [List.mem_cons, List.not_mem_nil, or_false] at hx ⊢; tauto) (fun _ e => e)) huf hA hB0 hU hG ht
  have hX : ∀ p, F.InBounds [(i0, i1)] p → F.Eqn 3 (F.row F.points1) S G X p := fun p hp => by
    have e := (ER p hp).rd.symm.trans (hR p hp).rd
    rw [F.inBounds1] at hp
    obtain ⟨i, rfl, hp⟩ := hp
    rw [F.eqn1 (hc i (by omega) (by omega)), ← hop i (by omega) (by omega)]
    exact e
  have hD := F.dom1 he hc hq
  have hE1 : ∀ p, F.InBounds [(i0, i1)] p → |U p - X p| ≤ E * (fun _ => (1 : T)) p := fun p hp => by
    simpa using hE p hp
  obtain ⟨m', U', t, w1, w2, w3, w4⟩ := C59_gs_1d_partial (by rw [hf]) hp rfl hD h1 hX hUX hE1 l
  refine ⟨s1, s2, m', U', a1, a2, t, w1, (ho.mono (by simp)).trans (w2.mono fun _ ha => List.mem_cons_of_mem _ ha), w3, fun p hp => ?_⟩
  simpa using w4 p hp

example (l : Nat) : ∃ s1 s2 m' U', Cuda.offdiag1d 0 3 0 3 exDx 2 ⟨2, 0⟩ 1 ⟨9, 0⟩ revBackend (exSolve 1) = .ok s1 ∧ Cuda.v1diag1d 0 3 (0 - 1) (3 + 1) 3 ⟨0, 0⟩ 1 ⟨9, 0⟩ seqBackend s1 = .ok s2 ∧
      F.times (F.cellgs1d 0 3 3 ⟨21, 0⟩ (0 - 1) (3 + 1) ⟨9, 0⟩ (0 - 2) (3 + 2) ⟨10, 0⟩ (0 - 2) (3 + 2) ⟨1, 0⟩) l s2 = .ok m' ∧
      F.Holds m' (F.cell1d ⟨1, 0⟩ 0 3 2) U' ∧ F.Only [(F.st1d ⟨9, 0⟩ 0 3 1), (F.cell1d ⟨1, 0⟩ 0 3 2)] (exSolve 1) m' ∧
      (∀ p, ¬ F.InBounds [(0, 3)] p → U' p = exIns 1 0 p) ∧ ∀ p, F.InBounds [(0, 3)] p → |U' p - exIns 1 0 p| ≤ (9999 / 10000) ^ l * 5 := by
  obtain ⟨m1, m2, c1, c2, hR⟩ := exRun_v1_1
  exact C62_gs_v1_1d_partial (T := Rat) (q := 9999 / 10000) (fun _ => revBackend_ok) (fun _ => seqBackend_ok) revBackend_ok seqBackend_ok (by decide) (by decide) (by decide) (by decide) (by decide) (by decide) rfl exEll_v1_1 exRate_v1_1 (by norm_num) (exDir_args (by ex_args)) (apart_blk (by decide))
    (exDir_rd (by decide) (exRat_ok rfl (by decide) (by decide))) (exDir_rd (by decide) (exRat_ok rfl (by decide) (by decide))) exDir_u1 c1 c2 hR
    (exSolve_args (by ex_args)) (ex_apart (by decide)) (exSolve_rd (by decide) (exRat_ok rfl (by decide) (by decide))) (exSolve_rd (by decide) (exRat_ok rfl (by decide) (by decide))) exSolve_u1 (exSolve_f (exRat_ok rfl (by decide) (by decide)) rfl) exSolve_t1 exSolve_out1 exSolve_err1 l

/-- 1D, diffusion operator with cell coefficients, red-black Gauss-Seidel: if flux and apply kernel take `X` to `G`, then off-diagonal and diagonal kernel followed by `l` pairs of sweeps for the right
hand side `G` bring the unknowns to within `rate^l E` of `X`. -/
theorem C62_rbgs_v1_1d {i0 i1 agcw gcw rgcw sgcw fgcw color color2 : Int} {alpha beta : T} {dx : Nat → T} {a u b0 f0 res st rhs o : Ptr} {β1 β2 : Nat → Backend} {β3 β4 : Backend} {m mX m1 m2 : Mem T} {A B0 G U X : List Int → T} {E q : T}
    (hβ1 : ∀ n, ValidBackend (β1 n)) (hβ2 : ∀ n, ValidBackend (β2 n)) (hβ3 : ValidBackend β3) (hβ4 : ValidBackend β4)
    (hi : i0 ≤ i1) (hg : 1 ≤ gcw) (hagcw : 0 ≤ agcw) (hrgcw : 0 ≤ rgcw) (hs : 0 ≤ sgcw) (hfg : 0 ≤ fgcw) (hc' : 0 ≤ color) (hc2 : 0 ≤ color2) (hcc : (color2 - color) % 2 = 1) (he : F.Elliptic1 i0 i1 alpha beta dx A B0)
    (hq : ∀ i, i0 ≤ i → i ≤ i1 → (1 - q) * (beta / (dx 0 * dx 0) * (B0 [i] + B0 [i + 1]) + alpha * A [i]) ≤ alpha * A [i]) (h1 : q ≤ 1)
    (h : F.Args mX [(F.cell1d a i0 i1 agcw), (F.cell1d u i0 i1 gcw), (F.face1d b0 i0 i1 0)] [(F.face1d f0 i0 i1 0), (F.cell1d res i0 i1 rgcw)])
    (hr : F.Apart (F.cell1d res i0 i1 rgcw) (F.face1d f0 i0 i1 0)) (hAX : F.Holds mX (F.cell1d a i0 i1 agcw) A) (hB0X : F.Holds mX (F.face1d b0 i0 i1 0) B0) (hXX : F.Holds mX (F.cell1d u i0 i1 gcw) X)
    (c1 : Cuda.flux1d i0 i1 dx b0 gcw u f0 β1 mX = .ok m1) (c2 : Cuda.diffusionV1Apply1d i0 i1 alpha beta dx agcw a gcw u f0 rgcw res β2 m1 = .ok m2)
    (hR : ∀ p, F.InBounds [(i0, i1)] p → F.El m2 (F.cell1d res i0 i1 rgcw) p (G p))
    (h2 : F.Args m [(F.cell1d a i0 i1 agcw), (F.face1d b0 i0 i1 0), (F.cell1d u i0 i1 gcw), (F.cell1d rhs i0 i1 fgcw)] [(F.st1d st i0 i1 sgcw)]) (huf : F.Apart (F.cell1d u i0 i1 gcw) (F.cell1d rhs i0 i1 fgcw))
    (hA : F.Holds m (F.cell1d a i0 i1 agcw) A) (hB0 : F.Holds m (F.face1d b0 i0 i1 0) B0) (hU : F.Holds m (F.cell1d u i0 i1 gcw) U) (hG : F.Holds m (F.cell1d rhs i0 i1 fgcw) G) (ht : F.Rows m (F.offset0 o 1 3) F.points1)
    (hUX : ∀ p, ¬ F.InBounds [(i0, i1)] p → U p = X p) (hE : ∀ p, F.InBounds [(i0, i1)] p → |U p - X p| ≤ E) (l : Nat) :
    ∃ s1 s2 m' U', Cuda.offdiag1d i0 i1 i0 i1 dx beta b0 sgcw st β3 m = .ok s1 ∧ Cuda.v1diag1d i0 i1 (i0 - agcw) (i1 + agcw) alpha a sgcw st β4 s1 = .ok s2 ∧
      F.times (fun m => F.cellrbgs1d i0 i1 color 3 o (i0 - sgcw) (i1 + sgcw) st (i0 - fgcw) (i1 + fgcw) rhs (i0 - gcw) (i1 + gcw) u m >>=
        F.cellrbgs1d i0 i1 color2 3 o (i0 - sgcw) (i1 + sgcw) st (i0 - fgcw) (i1 + fgcw) rhs (i0 - gcw) (i1 + gcw) u) l s2 = .ok m' ∧
      F.Holds m' (F.cell1d u i0 i1 gcw) U' ∧ F.Only [(F.st1d st i0 i1 sgcw), (F.cell1d u i0 i1 gcw)] m m' ∧
      (∀ p, ¬ F.InBounds [(i0, i1)] p → U' p = X p) ∧ ∀ p, F.InBounds [(i0, i1)] p → |U' p - X p| ≤ q ^ l * E := by
  obtain ⟨m1', m2', R, d1, d2, ER, hop⟩ := energy_v1_1 (alpha := alpha) (beta := beta) (dx := dx) hβ1 hβ2 hi hg hagcw hrgcw h hr hAX hB0X hXX
  obtain rfl : m1 = m1' := Except.ok.inj (c1.symm.trans d1)
  obtain rfl : m2 = m2' := Except.ok.inj (c2.symm.trans d2)
  obtain ⟨s1, s2, S, a1, a2, ho, hp, hc⟩ := prob_v1_1 (alpha := alpha) (beta := beta) (dx := dx) (o := o) hβ3 hβ4 hi hagcw hs hg hfg (h2.sub (by intro x hx; simp only [List.mem_cons, List.not_mem_nil, or_false] at hx ⊢; tauto) (fun _ e => e)) huf hA hB0 hU hG ht
  have hX : ∀ p, F.InBounds [(i0, i1)] p → F.Eqn 3 (F.row F.points1) S G X p := fun p hp => by
    have e := (ER p hp).rd.symm.trans (hR p hp).rd
    rw [F.inBounds1] at hp
    obtain ⟨i, rfl, hp⟩ := hp
    rw [F.eqn1 (hc i (by omega) (by omega)), ← hop i (by omega) (by omega)]
    exact e
  have hD := F.dom1 he hc hq
  have hE1 : ∀ p, F.InBounds [(i0, i1)] p → |U p - X p| ≤ E * (fun _ => (1 : T)) p := fun p hp => by
    simpa using hE p hp
  obtain ⟨m', U', t, w1, w2, w3, w4⟩ := C59_rbgs_1d hc' hc2 hcc hp rfl hD h1 hX hUX hE1 l
  refine ⟨s1, s2, m', U', a1, a2, t, w1, (ho.mono (by simp)).trans (w2.mono fun _ ha => List.mem_cons_of_mem _ ha), w3, fun p hp => ?_⟩
  simpa using w4 p hp

example (l : Nat) : ∃ s1 s2 m' U', Cuda.offdiag1d 0 3 0 3 exDx 2 ⟨2, 0⟩ 1 ⟨9, 0⟩ revBackend (exSolve 1) = .ok s1 ∧ Cuda.v1diag1d 0 3 (0 - 1) (3 + 1) 3 ⟨0, 0⟩ 1 ⟨9, 0⟩ seqBackend s1 = .ok s2 ∧
      F.times (fun μ => F.cellrbgs1d 0 3 0 3 ⟨21, 0⟩ (0 - 1) (3 + 1) ⟨9, 0⟩ (0 - 2) (3 + 2) ⟨10, 0⟩ (0 - 2) (3 + 2) ⟨1, 0⟩ μ >>=
        F.cellrbgs1d 0 3 1 3 ⟨21, 0⟩ (0 - 1) (3 + 1) ⟨9, 0⟩ (0 - 2) (3 + 2) ⟨10, 0⟩ (0 - 2) (3 + 2) ⟨1, 0⟩) l s2 = .ok m' ∧
      F.Holds m' (F.cell1d ⟨1, 0⟩ 0 3 2) U' ∧ F.Only [(F.st1d ⟨9, 0⟩ 0 3 1), (F.cell1d ⟨1, 0⟩ 0 3 2)] (exSolve 1) m' ∧
      (∀ p, ¬ F.InBounds [(0, 3)] p → U' p = exIns 1 0 p) ∧ ∀ p, F.InBounds [(0, 3)] p → |U' p - exIns 1 0 p| ≤ (9999 / 10000) ^ l * 5 := by
  obtain ⟨m1, m2, c1, c2, hR⟩ := exRun_v1_1
  exact C62_rbgs_v1_1d (T := Rat) (q := 9999 / 10000) (fun _ => revBackend_ok) (fun _ => seqBackend_ok) revBackend_ok seqBackend_ok (by decide) (by decide) (by decide) (by decide) (by decide) (by decide) (by decide) (by decide) (by decide) exEll_v1_1 exRate_v1_1 (by norm_num) (exDir_args (by ex_args)) (apart_blk (by decide))
    (exDir_rd (by decide) (exRat_ok rfl (by decide) (by decide))) (exDir_rd (by decide) (exRat_ok rfl (by decide) (by decide))) exDir_u1 c1 c2 hR
    (exSolve_args (by ex_args)) (ex_apart (by decide)) (exSolve_rd (by decide) (exRat_ok rfl (by decide) (by decide))) (exSolve_rd (by decide) (exRat_ok rfl (by decide) (by decide))) exSolve_u1 (exSolve_f (exRat_ok rfl (by decide) (by decide)) rfl) exSolve_t1 exSolve_out1 exSolve_err1 l

/-- 1D, diffusion operator with constant reaction, damped Jacobi: if flux and apply kernel take `X` to `G`, then off-diagonal and diagonal kernel followed by `l` sweeps for the right
hand side `G` bring the unknowns to within `rate^l E` of `X`. -/
theorem C62_jacobi_v2_1d {i0 i1 gcw rgcw sgcw fgcw : Int} {alpha beta : T} {dx : Nat → T} {u b0 f0 res st rhs o r : Ptr} {β1 β2 : Nat → Backend} {β3 β4 : Backend} {m mX m1 m2 : Mem T} {B0 G U X : List Int → T} {E q : T}
    (hβ1 : ∀ n, ValidBackend (β1 n)) (hβ2 : ∀ n, ValidBackend (β2 n)) (hβ3 : ValidBackend β3) (hβ4 : ValidBackend β4)
    (hi : i0 ≤ i1) (hg : 1 ≤ gcw) (hrgcw : 0 ≤ rgcw) (hs : 0 ≤ sgcw) (hfg : 0 ≤ fgcw) (he : F.Elliptic1 i0 i1 alpha beta dx (fun _ => 1) B0)
    (hq : ∀ i, i0 ≤ i → i ≤ i1 → (1 - q) * (beta / (dx 0 * dx 0) * (B0 [i] + B0 [i + 1]) + alpha * (fun _ => 1) [i]) ≤ alpha * (fun _ => 1) [i]) 
    (h : F.Args mX [(F.cell1d u i0 i1 gcw), (F.face1d b0 i0 i1 0)] [(F.face1d f0 i0 i1 0), (F.cell1d res i0 i1 rgcw)])
    (hr : F.Apart (F.cell1d res i0 i1 rgcw) (F.face1d f0 i0 i1 0)) (hB0X : F.Holds mX (F.face1d b0 i0 i1 0) B0) (hXX : F.Holds mX (F.cell1d u i0 i1 gcw) X)
    (c1 : Cuda.flux1d i0 i1 dx b0 gcw u f0 β1 mX = .ok m1) (c2 : Cuda.diffusionV2Apply1d i0 i1 alpha beta dx gcw u f0 rgcw res β2 m1 = .ok m2)
    (hR : ∀ p, F.InBounds [(i0, i1)] p → F.El m2 (F.cell1d res i0 i1 rgcw) p (G p))
    (h2 : F.Args m [(F.face1d b0 i0 i1 0), (F.cell1d u i0 i1 gcw), (F.cell1d rhs i0 i1 fgcw), (F.box1d r i0 i1)] [(F.st1d st i0 i1 sgcw)]) (huf : F.Apart (F.cell1d u i0 i1 gcw) (F.cell1d rhs i0 i1 fgcw)) (hru : F.Apart (F.box1d r i0 i1) (F.cell1d u i0 i1 gcw)) (hrf : F.Apart (F.box1d r i0 i1) (F.cell1d rhs i0 i1 fgcw))
    (hB0 : F.Holds m (F.face1d b0 i0 i1 0) B0) (hU : F.Holds m (F.cell1d u i0 i1 gcw) U) (hG : F.Holds m (F.cell1d rhs i0 i1 fgcw) G) (ht : F.Rows m (F.offset0 o 1 3) F.points1)
    (hUX : ∀ p, ¬ F.InBounds [(i0, i1)] p → U p = X p) (hE : ∀ p, F.InBounds [(i0, i1)] p → |U p - X p| ≤ E) (l : Nat) :
    ∃ s1 s2 m' U', Cuda.offdiag1d i0 i1 i0 i1 dx beta b0 sgcw st β3 m = .ok s1 ∧ Cuda.v2diag1d i0 i1 alpha sgcw st β4 s1 = .ok s2 ∧
      F.times (F.celljacobi1d i0 i1 3 o (i0 - sgcw) (i1 + sgcw) st (i0 - fgcw) (i1 + fgcw) rhs (i0 - gcw) (i1 + gcw) u r) l s2 = .ok m' ∧
      F.Holds m' (F.cell1d u i0 i1 gcw) U' ∧ F.Only [(F.st1d st i0 i1 sgcw), (F.cell1d u i0 i1 gcw), (F.box1d r i0 i1)] m m' ∧
      (∀ p, ¬ F.InBounds [(i0, i1)] p → U' p = X p) ∧ ∀ p, F.InBounds [(i0, i1)] p → |U' p - X p| ≤ (1 - ((2 : Nat) / (3 : Nat) : T) + ((2 : Nat) / (3 : Nat) : T) * q) ^ l * E := by
  obtain ⟨m1', m2', R, d1, d2, ER, hop⟩ := energy_v2_1 (alpha := alpha) (beta := beta) (dx := dx) hβ1 hβ2 hi hg hrgcw h hr hB0X hXX
  obtain rfl : m1 = m1' := Except.ok.inj (c1.symm.trans d1)
  obtain rfl : m2 = m2' := Except.ok.inj (c2.symm.trans d2)
  obtain ⟨s1, s2, S, a1, a2, ho, hp, hc⟩ := prob_v2_1 (alpha := alpha) (beta := beta) (dx := dx) (o := o) hβ3 hβ4 hi hs hg hfg (h2.sub (by intro x hx; simp only [List.mem_cons, List.not_mem_nil, or_false] at hx ⊢; tauto) (fun _ e => e)) huf hB0 hU hG ht
  have hX : ∀ p, F.InBounds [(i0, i1)] p → F.Eqn 3 (F.row F.points1) S G X p := fun p hp => by
    have e := (ER p hp).rd.symm.trans (hR p hp).rd
    rw [F.inBounds1] at hp
    obtain ⟨i, rfl, hp⟩ := hp
    rw [F.eqn1 (hc i (by omega) (by omega)), ← hop i (by omega) (by omega)]
    exact e
  have hD := F.dom1 he hc hq
  have hE1 : ∀ p, F.InBounds [(i0, i1)] p → |U p - X p| ≤ E * (fun _ => (1 : T)) p := fun p hp => by
    simpa using hE p hp
  have hr2 : F.Holds s2 (F.box1d r i0 i1) (F.rd m (F.box1d r i0 i1)) := F.Holds.only (fun is hi => (h2.ok (F.box1d r i0 i1) (by simp)).rd hi) ho (by simp only [List.mem_cons, List.not_mem_nil, or_false, forall_eq]; exact h2.apart _ (by simp) _ (by simp))
  obtain ⟨m', U', t, w1, w2, w3, w4⟩ := C59_jacobi_1d hp hr2 hru (F.apart_symm (h2.apart (F.st1d st i0 i1 sgcw) (by simp) (F.box1d r i0 i1) (by simp))) hrf rfl hD hX hUX hE1 l
  refine ⟨s1, s2, m', U', a1, a2, t, w1, (ho.mono (by simp)).trans (w2.mono fun _ ha => List.mem_cons_of_mem _ ha), w3, fun p hp => ?_⟩
  simpa using w4 p hp

example (l : Nat) : ∃ s1 s2 m' U', Cuda.offdiag1d 0 3 0 3 exDx 2 ⟨2, 0⟩ 1 ⟨9, 0⟩ revBackend (exSolve 1) = .ok s1 ∧ Cuda.v2diag1d 0 3 3 1 ⟨9, 0⟩ seqBackend s1 = .ok s2 ∧
      F.times (F.celljacobi1d 0 3 3 ⟨21, 0⟩ (0 - 1) (3 + 1) ⟨9, 0⟩ (0 - 2) (3 + 2) ⟨10, 0⟩ (0 - 2) (3 + 2) ⟨1, 0⟩ ⟨11, 0⟩) l s2 = .ok m' ∧
      F.Holds m' (F.cell1d ⟨1, 0⟩ 0 3 2) U' ∧ F.Only [(F.st1d ⟨9, 0⟩ 0 3 1), (F.cell1d ⟨1, 0⟩ 0 3 2), (F.box1d ⟨11, 0⟩ 0 3)] (exSolve 1) m' ∧
      (∀ p, ¬ F.InBounds [(0, 3)] p → U' p = exIns 1 0 p) ∧ ∀ p, F.InBounds [(0, 3)] p → |U' p - exIns 1 0 p| ≤ (1 - ((2 : Nat) / (3 : Nat) : Rat) + ((2 : Nat) / (3 : Nat) : Rat) * (9999 / 10000)) ^ l * 5 := by
  obtain ⟨m1, m2, c1, c2, hR⟩ := exRun_v2_1
  exact C62_jacobi_v2_1d (T := Rat) (q := 9999 / 10000) (fun _ => revBackend_ok) (fun _ => seqBackend_ok) revBackend_ok seqBackend_ok (by decide) (by decide) (by decide) (by decide) (by decide) exEll_v2_1 exRate_v2_1 (exDir_args (by ex_args)) (apart_blk (by decide))
    (exDir_rd (by decide) (exRat_ok rfl (by decide) (by decide))) exDir_u1 c1 c2 hR
    (exSolve_args (by ex_args)) (ex_apart (by decide)) (ex_apart (by decide)) (ex_apart (by decide)) (exSolve_rd (by decide) (exRat_ok rfl (by decide) (by decide))) exSolve_u1 (exSolve_f (exRat_ok rfl (by decide) (by decide)) rfl) exSolve_t1 exSolve_out1 exSolve_err1 l

/-- 1D, diffusion operator with constant reaction, Gauss-Seidel: if flux and apply kernel take `X` to `G`, then off-diagonal and diagonal kernel followed by `l` sweeps for the right
hand side `G` bring the unknowns to within `rate^l E` of `X`. (Partial: equal ghost widths of right hand side and unknowns, see
`C51_gs_1d_false`.) -/
theorem C62_gs_v2_1d_partial {i0 i1 gcw rgcw sgcw fgcw : Int} {alpha beta : T} {dx : Nat → T} {u b0 f0 res st rhs o : Ptr} {β1 β2 : Nat → Backend} {β3 β4 : Backend} {m mX m1 m2 : Mem T} {B0 G U X : List Int → T} {E q : T}
    (hβ1 : ∀ n, ValidBackend (β1 n)) (hβ2 : ∀ n, ValidBackend (β2 n)) (hβ3 : ValidBackend β3) (hβ4 : ValidBackend β4)
    (hi : i0 ≤ i1) (hg : 1 ≤ gcw) (hrgcw : 0 ≤ rgcw) (hs : 0 ≤ sgcw) (hfg : 0 ≤ fgcw) (hf : fgcw = gcw) (he : F.Elliptic1 i0 i1 alpha beta dx (fun _ => 1) B0)
    (hq : ∀ i, i0 ≤ i → i ≤ i1 → (1 - q) * (beta / (dx 0 * dx 0) * (B0 [i] + B0 [i + 1]) + alpha * (fun _ => 1) [i]) ≤ alpha * (fun _ => 1) [i]) (h1 : q ≤ 1)
    (h : F.Args mX [(F.cell1d u i0 i1 gcw), (F.face1d b0 i0 i1 0)] [(F.face1d f0 i0 i1 0), (F.cell1d res i0 i1 rgcw)])
    (hr : F.Apart (F.cell1d res i0 i1 rgcw) (F.face1d f0 i0 i1 0)) (hB0X : F.Holds mX (F.face1d b0 i0 i1 0) B0) (hXX : F.Holds mX (F.cell1d u i0 i1 gcw) X)
    (c1 : Cuda.flux1d i0 i1 dx b0 gcw u f0 β1 mX = .ok m1) (c2 : Cuda.diffusionV2Apply1d i0 i1 alpha beta dx gcw u f0 rgcw res β2 m1 = .ok m2)
    (hR : ∀ p, F.InBounds [(i0, i1)] p → F.El m2 (F.cell1d res i0 i1 rgcw) p (G p))
    (h2 : F.Args m [(F.face1d b0 i0 i1 0), (F.cell1d u i0 i1 gcw), (F.cell1d rhs i0 i1 fgcw)] [(F.st1d st i0 i1 sgcw)]) (huf : F.Apart (F.cell1d u i0 i1 gcw) (F.cell1d rhs i0 i1 fgcw))
    (hB0 : F.Holds m (F.face1d b0 i0 i1 0) B0) (hU : F.Holds m (F.cell1d u i0 i1 gcw) U) (hG : F.Holds m (F.cell1d rhs i0 i1 fgcw) G) (ht : F.Rows m (F.offset0 o 1 3) F.points1)
    (hUX : ∀ p, ¬ F.InBounds [(i0, i1)] p → U p = X p) (hE : ∀ p, F.InBounds [(i0, i1)] p → |U p - X p| ≤ E) (l : Nat) :
    ∃ s1 s2 m' U', Cuda.offdiag1d i0 i1 i0 i1 dx beta b0 sgcw st β3 m = .ok s1 ∧ Cuda.v2diag1d i0 i1 alpha sgcw st β4 s1 = .ok s2 ∧
      F.times (F.cellgs1d i0 i1 3 o (i0 - sgcw) (i1 + sgcw) st (i0 - fgcw) (i1 + fgcw) rhs (i0 - gcw) (i1 + gcw) u) l s2 = .ok m' ∧
      F.Holds m' (F.cell1d u i0 i1 gcw) U' ∧ F.Only [(F.st1d st i0 i1 sgcw), (F.cell1d u i0 i1 gcw)] m m' ∧
      (∀ p, ¬ F.InBounds [(i0, i1)] p → U' p = X p) ∧ ∀ p, F.InBounds [(i0, i1)] p → |U' p - X p| ≤ q ^ l * E := by
  obtain ⟨m1', m2', R, d1, d2, ER, hop⟩ := energy_v2_1 (alpha := alpha) (beta := beta) (dx := dx) hβ1 hβ2 hi hg hrgcw h hr hB0X hXX
  obtain rfl : m1 = m1' := Except.ok.inj (c1.symm.trans d1)
  obtain rfl : m2 = m2' := Except.ok.inj (c2.symm.trans d2)
  obtain ⟨s1, s2, S, a1, a2, ho, hp, hc⟩ := prob_v2_1 (alpha := alpha) (beta := beta) (dx := dx) (o := o) hβ3 hβ4 hi hs hg hfg (h2.sub (by intro x hx; simp only [List.mem_cons, List.not_mem_nil, or_false] at hx ⊢; tauto) (fun _ e => e)) huf hB0 hU hG ht
  have hX : ∀ p, F.InBounds [(i0, i1)] p → F.Eqn 3 (F.row F.points1) S G X p := fun p hp => by
    have e := (ER p hp).rd.symm.trans (hR p hp).rd
    rw [F.inBounds1] at hp
    obtain ⟨i, rfl, hp⟩ := hp
    rw [F.eqn1 (hc i (by omega) (by omega)), ← hop i (by omega) (by omega)]
    exact e
  have hD := F.dom1 he hc hq
  have hE1 : ∀ p, F.InBounds [(i0, i1)] p → |U p - X p| ≤ E * (fun _ => (1 : T)) p := fun p hp => by
    simpa using hE p hp
  obtain ⟨m', U', t, w1, w2, w3, w4⟩ := C59_gs_1d_partial (by rw [hf]) hp rfl hD h1 hX hUX hE1 l
  refine ⟨s1, s2, m', U', a1, a2, t, w1, (ho.mono (by simp)).trans (w2.mono fun _ ha => List.mem_cons_of_mem _ ha), w3, fun p hp => ?_⟩
  simpa using w4 p hp

example (l : Nat) : ∃ s1 s2 m' U', Cuda.offdiag1d 0 3 0 3 exDx 2 ⟨2, 0⟩ 1 ⟨9, 0⟩ revBackend (exSolve 1) = .ok s1 ∧ Cuda.v2diag1d 0 3 3 1 ⟨9, 0⟩ seqBackend s1 = .ok s2 ∧
      F.times (F.cellgs1d 0 3 3 ⟨21, 0⟩ (0 - 1) (3 + 1) ⟨9, 0⟩ (0 - 2) (3 + 2) ⟨10, 0⟩ (0 - 2) (3 + 2) ⟨1, 0⟩) l s2 = .ok m' ∧
      F.Holds m' (F.cell1d ⟨1, 0⟩ 0 3 2) U' ∧ F.Only [(F.st1d ⟨9, 0⟩ 0 3 1), (F.cell1d ⟨1, 0⟩ 0 3 2)] (exSolve 1) m' ∧
      (∀ p, ¬ F.InBounds [(0, 3)] p → U' p = exIns 1 0 p) ∧ ∀ p, F.InBounds [(0, 3)] p → |U' p - exIns 1 0 p| ≤ (9999 / 10000) ^ l * 5 := by
  obtain ⟨m1, m2, c1, c2, hR⟩ := exRun_v2_1
  exact C62_gs_v2_1d_partial (T := Rat) (q := 9999 / 10000) (fun _ => revBackend_ok) (fun _ => seqBackend_ok) revBackend_ok seqBackend_ok (by decide) (by decide) (by decide) (by decide) (by decide) rfl exEll_v2_1 exRate_v2_1 (by norm_num) (exDir_args (by ex_args)) (apart_blk (by decide))
    (exDir_rd (by decide) (exRat_ok rfl (by decide) (by decide))) exDir_u1 c1 c2 hR
    (exSolve_args (by ex_args)) (ex_apart (by decide)) (exSolve_rd (by decide) (exRat_ok rfl (by decide) (by decide))) exSolve_u1 (exSolve_f (exRat_ok rfl (by decide) (by decide)) rfl) exSolve_t1 exSolve_out1 exSolve_err1 l

/-- 1D, diffusion operator with constant reaction, red-black Gauss-Seidel: if flux and apply kernel take `X` to `G`, then off-diagonal and diagonal kernel followed by `l` pairs of sweeps for the right
hand side `G` bring the unknowns to within `rate^l E` of `X`. -/
theorem C62_rbgs_v2_1d {i0 i1 gcw rgcw sgcw fgcw color color2 : Int} {alpha beta : T} {dx : Nat → T} {u b0 f0 res st rhs o : Ptr} {β1 β2 : Nat → Backend} {β3 β4 : Backend} {m mX m1 m2 : Mem T} {B0 G U X : List Int → T} {E q : T}
    (hβ1 : ∀ n, ValidBackend (β1 n)) (hβ2 : ∀ n, ValidBackend (β2 n)) (hβ3 : ValidBackend β3) (hβ4 : ValidBackend β4)
    (hi : i0 ≤ i1) (hg : 1 ≤ gcw) (hrgcw : 0 ≤ rgcw) (hs : 0 ≤ sgcw) (hfg : 0 ≤ fgcw) (hc' : 0 ≤ color) (hc2 : 0 ≤ color2) (hcc : (color2 - color) % 2 = 1) (he : F.Elliptic1 i0 i1 alpha beta dx (fun _ => 1) B0)
    (hq : ∀ i, i0 ≤ i → i ≤ i1 → (1 - q) * (beta / (dx 0 * dx 0) * (B0 [i] + B0 [i + 1]) + alpha * (fun _ => 1) [i]) ≤ alpha * (fun _ => 1) [i]) (h1 : q ≤ 1)
    (h : F.Args mX [(F.cell1d u i0 i1 gcw), (F.face1d b0 i0 i1 0)] [(F.face1d f0 i0 i1 0), (F.cell1d res i0 i1 rgcw)])
    (hr : F.Apart (F.cell1d res i0 i1 rgcw) (F.face1d f0 i0 i1 0)) (hB0X : F.Holds mX (F.face1d b0 i0 i1 0) B0) (hXX : F.Holds mX (F.cell1d u i0 i1 gcw) X)
    (c1 : Cuda.flux1d i0 i1 dx b0 gcw u f0 β1 mX = .ok m1) (c2 : Cuda.diffusionV2Apply1d i0 i1 alpha beta dx gcw u f0 rgcw res β2 m1 = .ok m2)
    (hR : ∀ p, F.InBounds [(i0, i1)] p → F.El m2 (F.cell1d res i0 i1 rgcw) p (G p))
    (h2 : F.Args m [(F.face1d b0 i0 i1 0), (F.cell1d u i0 i1 gcw), (F.cell1d rhs i0 i1 fgcw)] [(F.st1d st i0 i1 sgcw)]) (huf : F.Apart (F.cell1d u i0 i1 gcw) (F.cell1d rhs i0 i1 fgcw))
    (hB0 : F.Holds m (F.face1d b0 i0 i1 0) B0) (hU : F.Holds m (F.cell1d u i0 i1 gcw) U) (hG : F.Holds m (F.cell1d rhs i0 i1 fgcw) G) (ht : F.Rows m (F.offset0 o 1 3) F.points1)
    (hUX : ∀ p, ¬ F.InBounds [(i0, i1)] p → U p = X p) (hE : ∀ p, F.InBounds [(i0, i1)] p → |U p - X p| ≤ E) (l : Nat) :
    ∃ s1 s2 m' U', Cuda.offdiag1d i0 i1 i0 i1 dx beta b0 sgcw st β3 m = .ok s1 ∧ Cuda.v2diag1d i0 i1 alpha sgcw st β4 s1 = .ok s2 ∧
      F.times (fun m => F.cellrbgs1d i0 i1 color 3 o (i0 - sgcw) (i1 + sgcw) st (i0 - fgcw) (i1 + fgcw) rhs (i0 - gcw) (i1 + gcw) u m >>=
        F.cellrbgs1d i0 i1 color2 3 o (i0 - sgcw) (i1 + sgcw) st (i0 - fgcw) (i1 + fgcw) rhs (i0 - gcw) (i1 + gcw) u) l s2 = .ok m' ∧
      F.Holds m' (F.cell1d u i0 i1 gcw) U' ∧ F.Only [(F.st1d st i0 i1 sgcw), (F.cell1d u i0 i1 gcw)] m m' ∧
      (∀ p, ¬ F.InBounds [(i0, i1)] p → U' p = X p) ∧ ∀ p, F.InBounds [(i0, i1)] p → |U' p - X p| ≤ q ^ l * E := by
  obtain ⟨m1', m2', R, d1, d2, ER, hop⟩ := energy_v2_1 (alpha := alpha) (beta := beta) (dx := dx) hβ1 hβ2 hi hg hrgcw h hr hB0X hXX
  obtain rfl : m1 = m1' := Except.ok.inj (c1.symm.trans d1)
  obtain rfl : m2 = m2' := Except.ok.inj (c2.symm.trans d2)
  obtain ⟨s1, s2, S, a1, a2, ho, hp, hc⟩ := prob_v2_1 (alpha := alpha) (beta := beta) (dx := dx) (o := o) hβ3 hβ4 hi hs hg hfg (h2.sub (by intro x hx; simp only [List.mem_cons, List.not_mem_nil, or_false] at hx ⊢; tauto) (fun _ e => e)) huf hB0 hU hG ht
  have hX : ∀ p, F.InBounds [(i0, i1)] p → F.Eqn 3 (F.row F.points1) S G X p := fun p hp => by
    have e := (ER p hp).rd.symm.trans (hR p hp).rd
    rw [F.inBounds1] at hp
    obtain ⟨i, rfl, hp⟩ := hp
    rw [F.eqn1 (hc i (by omega) (by omega)), ← hop i (by omega) (by omega)]
    exact e
  have hD := F.dom1 he hc hq
  have hE1 : ∀ p, F.InBounds [(i0, i1)] p → |U p - X p| ≤ E * (fun _ => (1 : T)) p := fun p hp => by
    simpa using hE p hp
  obtain ⟨m', U', t, w1, w2, w3, w4⟩ := C59_rbgs_1d hc' hc2 hcc hp rfl hD h1 hX hUX hE1 l
  refine ⟨s1, s2, m', U', a1, a2, t, w1, (ho.mono (by simp)).trans (w2.mono fun _ ha => List.mem_cons_of_mem _ ha), w3, fun p hp => ?_⟩
  simpa using w4 p hp

example (l : Nat) : ∃ s1 s2 m' U', Cuda.offdiag1d 0 3 0 3 exDx 2 ⟨2, 0⟩ 1 ⟨9, 0⟩ revBackend (exSolve 1) = .ok s1 ∧ Cuda.v2diag1d 0 3 3 1 ⟨9, 0⟩ seqBackend s1 = .ok s2 ∧
      F.times (fun μ => F.cellrbgs1d 0 3 0 3 ⟨21, 0⟩ (0 - 1) (3 + 1) ⟨9, 0⟩ (0 - 2) (3 + 2) ⟨10, 0⟩ (0 - 2) (3 + 2) ⟨1, 0⟩ μ >>=
        F.cellrbgs1d 0 3 1 3 ⟨21, 0⟩ (0 - 1) (3 + 1) ⟨9, 0⟩ (0 - 2) (3 + 2) ⟨10, 0⟩ (0 - 2) (3 + 2) ⟨1, 0⟩) l s2 = .ok m' ∧
      F.Holds m' (F.cell1d ⟨1, 0⟩ 0 3 2) U' ∧ F.Only [(F.st1d ⟨9, 0⟩ 0 3 1), (F.cell1d ⟨1, 0⟩ 0 3 2)] (exSolve 1) m' ∧
      (∀ p, ¬ F.InBounds [(0, 3)] p → U' p = exIns 1 0 p) ∧ ∀ p, F.InBounds [(0, 3)] p → |U' p - exIns 1 0 p| ≤ (9999 / 10000) ^ l * 5 := by
  obtain ⟨m1, m2, c1, c2, hR⟩ := exRun_v2_1
  exact C62_rbgs_v2_1d (T := Rat) (q := 9999 / 10000) (fun _ => revBackend_ok) (fun _ => seqBackend_ok) revBackend_ok seqBackend_ok (by decide) (by decide) (by decide) (by decide) (by decide) (by decide) (by decide) (by decide) exEll_v2_1 exRate_v2_1 (by norm_num) (exDir_args (by ex_args)) (apart_blk (by decide))
    (exDir_rd (by decide) (exRat_ok rfl (by decide) (by decide))) exDir_u1 c1 c2 hR
    (exSolve_args (by ex_args)) (ex_apart (by decide)) (exSolve_rd (by decide) (exRat_ok rfl (by decide) (by decide))) exSolve_u1 (exSolve_f (exRat_ok rfl (by decide) (by decide)) rfl) exSolve_t1 exSolve_out1 exSolve_err1 l

/-- 2D, diffusion operator with cell coefficients, damped Jacobi: if flux and apply kernel take `X` to `G`, then off-diagonal and diagonal kernel followed by `l` sweeps for the right
hand side `G` bring the unknowns to within `rate^l E` of `X`. -/
theorem C62_jacobi_v1_2d {i0 j0 i1 j1 agcw gcw rgcw sgcw fgcw : Int} {alpha beta : T} {dx : Nat → T} {a u b0 b1 f0 f1 res st rhs o r : Ptr} {β1 β2 : Nat → Backend} {β3 β4 : Backend} {m mX m1 m2 : Mem T} {A B0 B1 G U X : List Int → T} {E q : T}
    (hβ1 : ∀ n, ValidBackend (β1 n)) (hβ2 : ∀ n, ValidBackend (β2 n)) (hβ3 : ValidBackend β3) (hβ4 : ValidBackend β4)
    (hi : i0 ≤ i1) (hj : j0 ≤ j1) (hg : 1 ≤ gcw) (hagcw : 0 ≤ agcw) (hrgcw : 0 ≤ rgcw) (hs : 0 ≤ sgcw) (hfg : 0 ≤ fgcw) (he : F.Elliptic2 i0 j0 i1 j1 alpha beta dx A B0 B1)
    (hq : ∀ i j, i0 ≤ i → i ≤ i1 → j0 ≤ j → j ≤ j1 → (1 - q) * (beta / (dx 0 * dx 0) * (B0 [i, j] + B0 [i + 1, j]) + beta / (dx 1 * dx 1) * (B1 [j, i] + B1 [j + 1, i]) + alpha * A [i, j]) ≤ alpha * A [i, j]) 
    (h : F.Args mX [(F.cell2d a i0 j0 i1 j1 agcw), (F.cell2d u i0 j0 i1 j1 gcw), (F.face2d0 b0 i0 j0 i1 j1 0), (F.face2d1 b1 i0 j0 i1 j1 0)] [(F.face2d0 f0 i0 j0 i1 j1 0), (F.face2d1 f1 i0 j0 i1 j1 0), (F.cell2d res i0 j0 i1 j1 rgcw)])
    (hp : F.Apart (F.face2d0 f0 i0 j0 i1 j1 0) (F.face2d1 f1 i0 j0 i1 j1 0))
    (hr : F.Apart (F.cell2d res i0 j0 i1 j1 rgcw) (F.face2d0 f0 i0 j0 i1 j1 0) ∧ F.Apart (F.cell2d res i0 j0 i1 j1 rgcw) (F.face2d1 f1 i0 j0 i1 j1 0)) (hAX : F.Holds mX (F.cell2d a i0 j0 i1 j1 agcw) A) (hB0X : F.Holds mX (F.face2d0 b0 i0 j0 i1 j1 0) B0) (hB1X : F.Holds mX (F.face2d1 b1 i0 j0 i1 j1 0) B1) (hXX : F.Holds mX (F.cell2d u i0 j0 i1 j1 gcw) X)
    (c1 : Cuda.flux2d i0 j0 i1 j1 dx b0 b1 gcw u f0 f1 β1 mX = .ok m1) (c2 : Cuda.diffusionV1Apply2d i0 i1 j0 j1 alpha beta dx agcw a gcw u f0 f1 rgcw res β2 m1 = .ok m2)
    (hR : ∀ p, F.InBounds [(i0, i1), (j0, j1)] p → F.El m2 (F.cell2d res i0 j0 i1 j1 rgcw) p (G p))
    (h2 : F.Args m [(F.cell2d a i0 j0 i1 j1 agcw), (F.face2d0 b0 i0 j0 i1 j1 0), (F.face2d1 b1 i0 j0 i1 j1 0), (F.cell2d u i0 j0 i1 j1 gcw), (F.cell2d rhs i0 j0 i1 j1 fgcw), (F.box2d r i0 j0 i1 j1)] [(F.st2d st i0 j0 i1 j1 sgcw)]) (huf : F.Apart (F.cell2d u i0 j0 i1 j1 gcw) (F.cell2d rhs i0 j0 i1 j1 fgcw)) (hru : F.Apart (F.box2d r i0 j0 i1 j1) (F.cell2d u i0 j0 i1 j1 gcw)) (hrf : F.Apart (F.box2d r i0 j0 i1 j1) (F.cell2d rhs i0 j0 i1 j1 fgcw))
    (hA : F.Holds m (F.cell2d a i0 j0 i1 j1 agcw) A) (hB0 : F.Holds m (F.face2d0 b0 i0 j0 i1 j1 0) B0) (hB1 : F.Holds m (F.face2d1 b1 i0 j0 i1 j1 0) B1) (hU : F.Holds m (F.cell2d u i0 j0 i1 j1 gcw) U) (hG : F.Holds m (F.cell2d rhs i0 j0 i1 j1 fgcw) G) (ht : F.Rows m (F.offset0 o 2 5) F.points2)
    (hUX : ∀ p, ¬ F.InBounds [(i0, i1), (j0, j1)] p → U p = X p) (hE : ∀ p, F.InBounds [(i0, i1), (j0, j1)] p → |U p - X p| ≤ E) (l : Nat) :
    ∃ s1 s2 m' U', Cuda.offdiag2d i0 j0 i1 j1 i0 j0 i1 j1 dx beta b0 b1 sgcw st β3 m = .ok s1 ∧ Cuda.v1diag2d i0 j0 i1 j1 (i0 - agcw) (j0 - agcw) (i1 + agcw) (j1 + agcw) alpha a sgcw st β4 s1 = .ok s2 ∧
      F.times (F.celljacobi2d i0 i1 j0 j1 5 o (i0 - sgcw) (i1 + sgcw) (j0 - sgcw) (j1 + sgcw) st (i0 - fgcw) (i1 + fgcw) (j0 - fgcw) (j1 + fgcw) rhs (i0 - gcw) (i1 + gcw) (j0 - gcw) (j1 + gcw) u r) l s2 = .ok m' ∧
      F.Holds m' (F.cell2d u i0 j0 i1 j1 gcw) U' ∧ F.Only [(F.st2d st i0 j0 i1 j1 sgcw), (F.cell2d u i0 j0 i1 j1 gcw), (F.box2d r i0 j0 i1 j1)] m m' ∧
      (∀ p, ¬ F.InBounds [(i0, i1), (j0, j1)] p → U' p = X p) ∧ ∀ p, F.InBounds [(i0, i1), (j0, j1)] p → |U' p - X p| ≤ (1 - ((13421773 : Nat) / (16777216 : Nat) : T) + ((13421773 : Nat) / (16777216 : Nat) : T) * q) ^ l * E := by
  obtain ⟨m1', m2', R, d1, d2, ER, hop⟩ := energy_v1_2 (alpha := alpha) (beta := beta) (dx := dx) hβ1 hβ2 hi hj hg hagcw hrgcw h hp hr hAX hB0X hB1X hXX
  obtain rfl : m1 = m1' := Except.ok.inj (c1.symm.trans d1)
  obtain rfl : m2 = m2' := Except.ok.inj (c2.symm.trans d2)
  obtain ⟨s1, s2, S, a1, a2, ho, hp, hc⟩ := prob_v1_2 (alpha := alpha) (beta := beta) (dx := dx) (o := o) hβ3 hβ4 hi hj hagcw hs hg hfg (h2.sub (by intro x hx; simp only [List.mem_cons, List.not_mem_nil, or_false] at hx ⊢; tauto) (fun _ e => e)) huf hA hB0 hB1 hU hG ht
  have hX : ∀ p, F.InBounds [(i0, i1), (j0, j1)] p → F.Eqn 5 (F.row F.points2) S G X p := fun p hp => by
    have e := (ER p hp).rd.symm.trans (hR p hp).rd
    rw [F.inBounds2] at hp
    obtain ⟨i, j, rfl, hp⟩ := hp
    rw [F.eqn2 (hc i j (by omega) (by omega) (by omega) (by omega)), ← hop i j (by omega) (by omega) (by omega) (by omega)]
    exact e
  have hD := F.dom2 he hc hq
  have hE1 : ∀ p, F.InBounds [(i0, i1), (j0, j1)] p → |U p - X p| ≤ E * (fun _ => (1 : T)) p := fun p hp => by
    simpa using hE p hp
  have hr2 : F.Holds s2 (F.box2d r i0 j0 i1 j1) (F.rd m (F.box2d r i0 j0 i1 j1)) := F.Holds.only (fun is hi => (h2.ok (F.box2d r i0 j0 i1 j1) (by simp)).rd hi) ho (by simp only [List.mem_cons, List.not_mem_nil, or_false, forall_eq]; exact h2.apart _ (by simp) _ (by simp))
  obtain ⟨m', U', t, w1, w2, w3, w4⟩ := C59_jacobi_2d hp hr2 hru (F.apart_symm (h2.apart (F.st2d st i0 j0 i1 j1 sgcw) (by simp) (F.box2d r i0 j0 i1 j1) (by simp))) hrf rfl hD hX hUX hE1 l
  refine ⟨s1, s2, m', U', a1, a2, t, w1, (ho.mono (by simp)).trans (w2.mono fun _ ha => List.mem_cons_of_mem _ ha), w3, fun p hp => ?_⟩
  simpa using w4 p hp

example (l : Nat) : ∃ s1 s2 m' U', Cuda.offdiag2d 0 1 2 3 0 1 2 3 exDx 2 ⟨2, 0⟩ ⟨3, 0⟩ 1 ⟨9, 0⟩ revBackend (exSolve 2) = .ok s1 ∧ Cuda.v1diag2d 0 1 2 3 (0 - 1) (1 - 1) (2 + 1) (3 + 1) 3 ⟨0, 0⟩ 1 ⟨9, 0⟩ seqBackend s1 = .ok s2 ∧
      F.times (F.celljacobi2d 0 2 1 3 5 ⟨22, 0⟩ (0 - 1) (2 + 1) (1 - 1) (3 + 1) ⟨9, 0⟩ (0 - 2) (2 + 2) (1 - 2) (3 + 2) ⟨10, 0⟩ (0 - 2) (2 + 2) (1 - 2) (3 + 2) ⟨1, 0⟩ ⟨11, 0⟩) l s2 = .ok m' ∧
      F.Holds m' (F.cell2d ⟨1, 0⟩ 0 1 2 3 2) U' ∧ F.Only [(F.st2d ⟨9, 0⟩ 0 1 2 3 1), (F.cell2d ⟨1, 0⟩ 0 1 2 3 2), (F.box2d ⟨11, 0⟩ 0 1 2 3)] (exSolve 2) m' ∧
      (∀ p, ¬ F.InBounds [(0, 2), (1, 3)] p → U' p = exIns 2 0 p) ∧ ∀ p, F.InBounds [(0, 2), (1, 3)] p → |U' p - exIns 2 0 p| ≤ (1 - ((13421773 : Nat) / (16777216 : Nat) : Rat) + ((13421773 : Nat) / (16777216 : Nat) : Rat) * (9999 / 10000)) ^ l * 5 := by
  obtain ⟨m1, m2, c1, c2, hR⟩ := exRun_v1_2
  exact C62_jacobi_v1_2d (T := Rat) (q := 9999 / 10000) (fun _ => revBackend_ok) (fun _ => seqBackend_ok) revBackend_ok seqBackend_ok (by decide) (by decide) (by decide) (by decide) (by decide) (by decide) (by decide) exEll_v1_2 exRate_v1_2 (exDir_args (by ex_args)) (apart_blk (by decide)) ⟨apart_blk (by decide), apart_blk (by decide)⟩
    (exDir_rd (by decide) (exRat_ok rfl (by decide) (by decide))) (exDir_rd (by decide) (exRat_ok rfl (by decide) (by decide))) (exDir_rd (by decide) (exRat_ok rfl (by decide) (by decide))) exDir_u2 c1 c2 hR
    (exSolve_args (by ex_args)) (ex_apart (by decide)) (ex_apart (by decide)) (ex_apart (by decide)) (exSolve_rd (by decide) (exRat_ok rfl (by decide) (by decide))) (exSolve_rd (by decide) (exRat_ok rfl (by decide) (by decide))) (exSolve_rd (by decide) (exRat_ok rfl (by decide) (by decide))) exSolve_u2 (exSolve_f (exRat_ok rfl (by decide) (by decide)) rfl) exSolve_t2 exSolve_out2 exSolve_err2 l

/-- 2D, diffusion operator with cell coefficients, Gauss-Seidel: if flux and apply kernel take `X` to `G`, then off-diagonal and diagonal kernel followed by `l` sweeps for the right
hand side `G` bring the unknowns to within `rate^l E` of `X`. -/
theorem C62_gs_v1_2d {i0 j0 i1 j1 agcw gcw rgcw sgcw fgcw : Int} {alpha beta : T} {dx : Nat → T} {a u b0 b1 f0 f1 res st rhs o : Ptr} {β1 β2 : Nat → Backend} {β3 β4 : Backend} {m mX m1 m2 : Mem T} {A B0 B1 G U X : List Int → T} {E q : T}
    (hβ1 : ∀ n, ValidBackend (β1 n)) (hβ2 : ∀ n, ValidBackend (β2 n)) (hβ3 : ValidBackend β3) (hβ4 : ValidBackend β4)
    (hi : i0 ≤ i1) (hj : j0 ≤ j1) (hg : 1 ≤ gcw) (hagcw : 0 ≤ agcw) (hrgcw : 0 ≤ rgcw) (hs : 0 ≤ sgcw) (hfg : 0 ≤ fgcw) (he : F.Elliptic2 i0 j0 i1 j1 alpha beta dx A B0 B1)
    (hq : ∀ i j, i0 ≤ i → i ≤ i1 → j0 ≤ j → j ≤ j1 → (1 - q) * (beta / (dx 0 * dx 0) * (B0 [i, j] + B0 [i + 1, j]) + beta / (dx 1 * dx 1) * (B1 [j, i] + B1 [j + 1, i]) + alpha * A [i, j]) ≤ alpha * A [i, j]) (h1 : q ≤ 1)
    (h : F.Args mX [(F.cell2d a i0 j0 i1 j1 agcw), (F.cell2d u i0 j0 i1 j1 gcw), (F.face2d0 b0 i0 j0 i1 j1 0), (F.face2d1 b1 i0 j0 i1 j1 0)] [(F.face2d0 f0 i0 j0 i1 j1 0), (F.face2d1 f1 i0 j0 i1 j1 0), (F.cell2d res i0 j0 i1 j1 rgcw)])
    (hp : F.Apart (F.face2d0 f0 i0 j0 i1 j1 0) (F.face2d1 f1 i0 j0 i1 j1 0))
    (hr : F.Apart (F.cell2d res i0 j0 i1 j1 rgcw) (F.face2d0 f0 i0 j0 i1 j1 0) ∧ F.Apart (F.cell2d res i0 j0 i1 j1 rgcw) (F.face2d1 f1 i0 j0 i1 j1 0)) (hAX : F.Holds mX (F.cell2d a i0 j0 i1 j1 agcw) A) (hB0X : F.Holds mX (F.face2d0 b0 i0 j0 i1 j1 0) B0) (hB1X : F.Holds mX (F.face2d1 b1 i0 j0 i1 j1 0) B1) (hXX : F.Holds mX (F.cell2d u i0 j0 i1 j1 gcw) X)
    (c1 : Cuda.flux2d i0 j0 i1 j1 dx b0 b1 gcw u f0 f1 β1 mX = .ok m1) (c2 : Cuda.diffusionV1Apply2d i0 i1 j0 j1 alpha beta dx agcw a gcw u f0 f1 rgcw res β2 m1 = .ok m2)
    (hR : ∀ p, F.InBounds [(i0, i1), (j0, j1)] p → F.El m2 (F.cell2d res i0 j0 i1 j1 rgcw) p (G p))
    (h2 : F.Args m [(F.cell2d a i0 j0 i1 j1 agcw), (F.face2d0 b0 i0 j0 i1 j1 0), (F.face2d1 b1 i0 j0 i1 j1 0), (F.cell2d u i0 j0 i1 j1 gcw), (F.cell2d rhs i0 j0 i1 j1 fgcw)] [(F.st2d st i0 j0 i1 j1 sgcw)]) (huf : F.Apart (F.cell2d u i0 j0 i1 j1 gcw) (F.cell2d rhs i0 j0 i1 j1 fgcw))
    (hA : F.Holds m (F.cell2d a i0 j0 i1 j1 agcw) A) (hB0 : F.Holds m (F.face2d0 b0 i0 j0 i1 j1 0) B0) (hB1 : F.Holds m (F.face2d1 b1 i0 j0 i1 j1 0) B1) (hU : F.Holds m (F.cell2d u i0 j0 i1 j1 gcw) U) (hG : F.Holds m (F.cell2d rhs i0 j0 i1 j1 fgcw) G) (ht : F.Rows m (F.offset0 o 2 5) F.points2)
    (hUX : ∀ p, ¬ F.InBounds [(i0, i1), (j0, j1)] p → U p = X p) (hE : ∀ p, F.InBounds [(i0, i1), (j0, j1)] p → |U p - X p| ≤ E) (l : Nat) :
    ∃ s1 s2 m' U', Cuda.offdiag2d i0 j0 i1 j1 i0 j0 i1 j1 dx beta b0 b1 sgcw st β3 m = .ok s1 ∧ Cuda.v1diag2d i0 j0 i1 j1 (i0 - agcw) (j0 - agcw) (i1 + agcw) (j1 + agcw) alpha a sgcw st β4 s1 = .ok s2 ∧
      F.times (F.cellgs2d i0 i1 j0 j1 5 o (i0 - sgcw) (i1 + sgcw) (j0 - sgcw) (j1 + sgcw) st (i0 - fgcw) (i1 + fgcw) (j0 - fgcw) (j1 + fgcw) rhs (i0 - gcw) (i1 + gcw) (j0 - gcw) (j1 + gcw) u) l s2 = .ok m' ∧
      F.Holds m' (F.cell2d u i0 j0 i1 j1 gcw) U' ∧ F.Only [(F.st2d st i0 j0 i1 j1 sgcw), (F.cell2d u i0 j0 i1 j1 gcw)] m m' ∧
      (∀ p, ¬ F.InBounds [(i0, i1), (j0, j1)] p → U' p = X p) ∧ ∀ p, F.InBounds [(i0, i1), (j0, j1)] p → |U' p - X p| ≤ q ^ l * E := by
  obtain ⟨m1', m2', R, d1, d2, ER, hop⟩ := energy_v1_2 (alpha := alpha) (beta := beta) (dx := dx) hβ1 hβ2 hi hj hg hagcw hrgcw h hp hr hAX hB0X hB1X hXX
  obtain rfl : m1 = m1' := Except.ok.inj (c1.symm.trans d1)
  obtain rfl : m2 = m2' := Except.ok.inj (c2.symm.trans d2)
  obtain ⟨s1, s2, S, a1, a2, ho, hp, hc⟩ := prob_v1_2 (alpha := alpha) (beta := beta) (dx := dx) (o := o) hβ3 hβ4 hi hj hagcw hs hg hfg (h2.sub (by intro x hx; simp only [List.mem_cons, List.not_mem_nil, or_false] at hx ⊢; tauto) (fun _ e => e)) huf hA hB0 hB1 hU hG ht
  have hX : ∀ p, F.InBounds [(i0, i1), (j0, j1)] p → F.Eqn 5 (F.row F.points2) S G X p := fun p hp => by
    have e := (ER p hp).rd.symm.trans (hR p hp).rd
    rw [F.inBounds2] at hp
    obtain ⟨i, j, rfl, hp⟩ := hp
    rw [F.eqn2 (hc i j (by omega) (by omega) (by omega) (by omega)), ← hop i j (by omega) (by omega) (by omega) (by omega)]
    exact e
  have hD := F.dom2 he hc hq
  have hE1 : ∀ p, F.InBounds [(i0, i1), (j0, j1)] p → |U p - X p| ≤ E * (fun _ => (1 : T)) p := fun p hp => by
    simpa using hE p hp
  obtain ⟨m', U', t, w1, w2, w3, w4⟩ := C59_gs_2d hp rfl hD h1 hX hUX hE1 l
  refine ⟨s1, s2, m', U', a1, a2, t, w1, (ho.mono (by simp)).trans (w2.mono fun _ ha => List.mem_cons_of_mem _ ha), w3, fun p hp => ?_⟩
  simpa using w4 p hp

example (l : Nat) : ∃ s1 s2 m' U', Cuda.offdiag2d 0 1 2 3 0 1 2 3 exDx 2 ⟨2, 0⟩ ⟨3, 0⟩ 1 ⟨9, 0⟩ revBackend (exSolve 2) = .ok s1 ∧ Cuda.v1diag2d 0 1 2 3 (0 - 1) (1 - 1) (2 + 1) (3 + 1) 3 ⟨0, 0⟩ 1 ⟨9, 0⟩ seqBackend s1 = .ok s2 ∧
      F.times (F.cellgs2d 0 2 1 3 5 ⟨22, 0⟩ (0 - 1) (2 + 1) (1 - 1) (3 + 1) ⟨9, 0⟩ (0 - 2) (2 + 2) (1 - 2) (3 + 2) ⟨10, 0⟩ (0 - 2) (2 + 2) (1 - 2) (3 + 2) ⟨1, 0⟩) l s2 = .ok m' ∧
      F.Holds m' (F.cell2d ⟨1, 0⟩ 0 1 2 3 2) U' ∧ F.Only [(F.st2d ⟨9, 0⟩ 0 1 2 3 1), (F.cell2d ⟨1, 0⟩ 0 1 2 3 2)] (exSolve 2) m' ∧
      (∀ p, ¬ F.InBounds [(0, 2), (1, 3)] p → U' p = exIns 2 0 p) ∧ ∀ p, F.InBounds [(0, 2), (1, 3)] p → |U' p - exIns 2 0 p| ≤ (9999 / 10000) ^ l * 5 := by
  obtain ⟨m1, m2, c1, c2, hR⟩ := exRun_v1_2
  exact C62_gs_v1_2d (T := Rat) (q := 9999 / 10000) (fun _ => revBackend_ok) (fun _ => seqBackend_ok) revBackend_ok seqBackend_ok (by decide) (by decide) (by decide) (by decide) (by decide) (by decide) (by decide) exEll_v1_2 exRate_v1_2 (by norm_num) (exDir_args (by ex_args)) (apart_blk (by decide)) ⟨apart_blk (by decide), apart_blk (by decide)⟩
    (exDir_rd (by decide) (exRat_ok rfl (by decide) (by decide))) (exDir_rd (by decide) (exRat_ok rfl (by decide) (by decide))) (exDir_rd (by decide) (exRat_ok rfl (by decide) (by decide))) exDir_u2 c1 c2 hR
    (exSolve_args (by ex_args)) (ex_apart (by decide)) (exSolve_rd (by decide) (exRat_ok rfl (by decide) (by decide))) (exSolve_rd (by decide) (exRat_ok rfl (by decide) (by decide))) (exSolve_rd (by decide) (exRat_ok rfl (by decide) (by decide))) exSolve_u2 (exSolve_f (exRat_ok rfl (by decide) (by decide)) rfl) exSolve_t2 exSolve_out2 exSolve_err2 l

/-- 2D, diffusion operator with cell coefficients, red-black Gauss-Seidel: if flux and apply kernel take `X` to `G`, then off-diagonal and diagonal kernel followed by `l` pairs of sweeps for the right
hand side `G` bring the unknowns to within `rate^l E` of `X`. (Partial: `j0 + color` not negative, see `C52_sweep_2d_false`.) -/
theorem C62_rbgs_v1_2d_partial {i0 j0 i1 j1 agcw gcw rgcw sgcw fgcw color color2 : Int} {alpha beta : T} {dx : Nat → T} {a u b0 b1 f0 f1 res st rhs o : Ptr} {β1 β2 : Nat → Backend} {β3 β4 : Backend} {m mX m1 m2 : Mem T} {A B0 B1 G U X : List Int → T} {E q : T}
    (hβ1 : ∀ n, ValidBackend (β1 n)) (hβ2 : ∀ n, ValidBackend (β2 n)) (hβ3 : ValidBackend β3) (hβ4 : ValidBackend β4)
    (hi : i0 ≤ i1) (hj : j0 ≤ j1) (hg : 1 ≤ gcw) (hagcw : 0 ≤ agcw) (hrgcw : 0 ≤ rgcw) (hs : 0 ≤ sgcw) (hfg : 0 ≤ fgcw) (hc' : 0 ≤ j0 + color) (hc2 : 0 ≤ j0 + color2) (hcc : (color2 - color) % 2 = 1) (he : F.Elliptic2 i0 j0 i1 j1 alpha beta dx A B0 B1)
    (hq : ∀ i j, i0 ≤ i → i ≤ i1 → j0 ≤ j → j ≤ j1 → (1 - q) * (beta / (dx 0 * dx 0) * (B0 [i, j] + B0 [i + 1, j]) + beta / (dx 1 * dx 1) * (B1 [j, i] + B1 [j + 1, i]) + alpha * A [i, j]) ≤ alpha * A [i, j]) (h1 : q ≤ 1)
    (h : F.Args mX [(F.cell2d a i0 j0 i1 j1 agcw), (F.cell2d u i0 j0 i1 j1 gcw), (F.face2d0 b0 i0 j0 i1 j1 0), (F.face2d1 b1 i0 j0 i1 j1 0)] [(F.face2d0 f0 i0 j0 i1 j1 0), (F.face2d1 f1 i0 j0 i1 j1 0), (F.cell2d res i0 j0 i1 j1 rgcw)])
    (hp : F.Apart (F.face2d0 f0 i0 j0 i1 j1 0) (F.face2d1 f1 i0 j0 i1 j1 0))
    (hr : F.Apart (F.cell2d res i0 j0 i1 j1 rgcw) (F.face2d0 f0 i0 j0 i1 j1 0) ∧ F.Apart (F.cell2d res i0 j0 i1 j1 rgcw) (F.face2d1 f1 i0 j0 i1 j1 0)) (hAX : F.Holds mX (F.cell2d a i0 j0 i1 j1 agcw) A) (hB0X : F.Holds mX (F.face2d0 b0 i0 j0 i1 j1 0) B0) (hB1X : F.Holds mX (F.face2d1 b1 i0 j0 i1 j1 0) B1) (hXX : F.Holds mX (F.cell2d u i0 j0 i1 j1 gcw) X)
    (c1 : Cuda.flux2d i0 j0 i1 j1 dx b0 b1 gcw u f0 f1 β1 mX = .ok m1) (c2 : Cuda.diffusionV1Apply2d i0 i1 j0 j1 alpha beta dx agcw a gcw u f0 f1 rgcw res β2 m1 = .ok m2)
    (hR : ∀ p, F.InBounds [(i0, i1), (j0, j1)] p → F.El m2 (F.cell2d res i0 j0 i1 j1 rgcw) p (G p))
    (h2 : F.Args m [(F.cell2d a i0 j0 i1 j1 agcw), (F.face2d0 b0 i0 j0 i1 j1 0), (F.face2d1 b1 i0 j0 i1 j1 0), (F.cell2d u i0 j0 i1 j1 gcw), (F.cell2d rhs i0 j0 i1 j1 fgcw)] [(F.st2d st i0 j0 i1 j1 sgcw)]) (huf : F.Apart (F.cell2d u i0 j0 i1 j1 gcw) (F.cell2d rhs i0 j0 i1 j1 fgcw))
    (hA : F.Holds m (F.cell2d a i0 j0 i1 j1 agcw) A) (hB0 : F.Holds m (F.face2d0 b0 i0 j0 i1 j1 0) B0) (hB1 : F.Holds m (F.face2d1 b1 i0 j0 i1 j1 0) B1) (hU : F.Holds m (F.cell2d u i0 j0 i1 j1 gcw) U) (hG : F.Holds m (F.cell2d rhs i0 j0 i1 j1 fgcw) G) (ht : F.Rows m (F.offset0 o 2 5) F.points2)
    (hUX : ∀ p, ¬ F.InBounds [(i0, i1), (j0, j1)] p → U p = X p) (hE : ∀ p, F.InBounds [(i0, i1), (j0, j1)] p → |U p - X p| ≤ E) (l : Nat) :
    ∃ s1 s2 m' U', Cuda.offdiag2d i0 j0 i1 j1 i0 j0 i1 j1 dx beta b0 b1 sgcw st β3 m = .ok s1 ∧ Cuda.v1diag2d i0 j0 i1 j1 (i0 - agcw) (j0 - agcw) (i1 + agcw) (j1 + agcw) alpha a sgcw st β4 s1 = .ok s2 ∧
      F.times (fun m => F.cellrbgs2d i0 i1 j0 j1 color 5 o (i0 - sgcw) (i1 + sgcw) (j0 - sgcw) (j1 + sgcw) st (i0 - fgcw) (i1 + fgcw) (j0 - fgcw) (j1 + fgcw) rhs (i0 - gcw) (i1 + gcw) (j0 - gcw) (j1 + gcw) u m >>=
        F.cellrbgs2d i0 i1 j0 j1 color2 5 o (i0 - sgcw) (i1 + sgcw) (j0 - sgcw) (j1 + sgcw) st (i0 - fgcw) (i1 + fgcw) (j0 - fgcw) (j1 + fgcw) rhs (i0 - gcw) (i1 + gcw) (j0 - gcw) (j1 + gcw) u) l s2 = .ok m' ∧
      F.Holds m' (F.cell2d u i0 j0 i1 j1 gcw) U' ∧ F.Only [(F.st2d st i0 j0 i1 j1 sgcw), (F.cell2d u i0 j0 i1 j1 gcw)] m m' ∧
      (∀ p, ¬ F.InBounds [(i0, i1), (j0, j1)] p → U' p = X p) ∧ ∀ p, F.InBounds [(i0, i1), (j0, j1)] p → |U' p - X p| ≤ q ^ l * E := by
  obtain ⟨m1', m2', R, d1, d2, ER, hop⟩ := energy_v1_2 (alpha := alpha) (beta := beta) (dx := dx) hβ1 hβ2 hi hj hg hagcw hrgcw h hp hr hAX hB0X hB1X hXX
  obtain rfl : m1 = m1' := Except.ok.inj (c1.symm.trans d1)
  obtain rfl : m2 = m2' := Except.ok.inj (c2.symm.trans d2)
  obtain ⟨s1, s2, S, a1, a2, ho, hp, hc⟩ := prob_v1_2 (alpha := alpha) (beta := beta) (dx := dx) (o := o) hβ3 hβ4 hi hj hagcw hs hg hfg (h2.sub (by intro x hx; simp only [List.mem_cons, List.not_mem_nil, or_false] at hx ⊢; tauto) (fun _ e => e)) huf hA hB0 hB1 hU hG ht
  have hX : ∀ p, F.InBounds [(i0, i1), (j0, j1)] p → F.Eqn 5 (F.row F.points2) S G X p := fun p hp => by
    have e := (ER p hp).rd.symm.trans (hR p hp).rd
    rw [F.inBounds2] at hp
    obtain ⟨i, j, rfl, hp⟩ := hp
    rw [F.eqn2 (hc i j (by omega) (by omega) (by omega) (by omega)), ← hop i j (by omega) (by omega) (by omega) (by omega)]
    exact e
  have hD := F.dom2 he hc hq
  have hE1 : ∀ p, F.InBounds [(i0, i1), (j0, j1)] p → |U p - X p| ≤ E * (fun _ => (1 : T)) p := fun p hp => by
    simpa using hE p hp
  obtain ⟨m', U', t, w1, w2, w3, w4⟩ := C59_rbgs_2d_partial hc' hc2 hcc hp rfl hD h1 hX hUX hE1 l
  refine ⟨s1, s2, m', U', a1, a2, t, w1, (ho.mono (by simp)).trans (w2.mono fun _ ha => List.mem_cons_of_mem _ ha), w3, fun p hp => ?_⟩
  simpa using w4 p hp

example (l : Nat) : ∃ s1 s2 m' U', Cuda.offdiag2d 0 1 2 3 0 1 2 3 exDx 2 ⟨2, 0⟩ ⟨3, 0⟩ 1 ⟨9, 0⟩ revBackend (exSolve 2) = .ok s1 ∧ Cuda.v1diag2d 0 1 2 3 (0 - 1) (1 - 1) (2 + 1) (3 + 1) 3 ⟨0, 0⟩ 1 ⟨9, 0⟩ seqBackend s1 = .ok s2 ∧
      F.times (fun μ => F.cellrbgs2d 0 2 1 3 0 5 ⟨22, 0⟩ (0 - 1) (2 + 1) (1 - 1) (3 + 1) ⟨9, 0⟩ (0 - 2) (2 + 2) (1 - 2) (3 + 2) ⟨10, 0⟩ (0 - 2) (2 + 2) (1 - 2) (3 + 2) ⟨1, 0⟩ μ >>=
        F.cellrbgs2d 0 2 1 3 1 5 ⟨22, 0⟩ (0 - 1) (2 + 1) (1 - 1) (3 + 1) ⟨9, 0⟩ (0 - 2) (2 + 2) (1 - 2) (3 + 2) ⟨10, 0⟩ (0 - 2) (2 + 2) (1 - 2) (3 + 2) ⟨1, 0⟩) l s2 = .ok m' ∧
      F.Holds m' (F.cell2d ⟨1, 0⟩ 0 1 2 3 2) U' ∧ F.Only [(F.st2d ⟨9, 0⟩ 0 1 2 3 1), (F.cell2d ⟨1, 0⟩ 0 1 2 3 2)] (exSolve 2) m' ∧
      (∀ p, ¬ F.InBounds [(0, 2), (1, 3)] p → U' p = exIns 2 0 p) ∧ ∀ p, F.InBounds [(0, 2), (1, 3)] p → |U' p - exIns 2 0 p| ≤ (9999 / 10000) ^ l * 5 := by
  obtain ⟨m1, m2, c1, c2, hR⟩ := exRun_v1_2
  exact C62_rbgs_v1_2d_partial (T := Rat) (q := 9999 / 10000) (fun _ => revBackend_ok) (fun _ => seqBackend_ok) revBackend_ok seqBackend_ok (by decide) (by decide) (by decide) (by decide) (by decide) (by decide) (by decide) (by decide) (by decide) (by decide) exEll_v1_2 exRate_v1_2 (by norm_num) (exDir_args (by ex_args)) (apart_blk (by decide)) ⟨apart_blk (by decide), apart_blk (by decide)⟩
    (exDir_rd (by decide) (exRat_ok rfl (by decide) (by decide))) (exDir_rd (by decide) (exRat_ok rfl (by decide) (by decide))) (exDir_rd (by decide) (exRat_ok rfl (by decide) (by decide))) exDir_u2 c1 c2 hR
    (exSolve_args (by ex_args)) (ex_apart (by decide)) (exSolve_rd (by decide) (exRat_ok rfl (by decide) (by decide))) (exSolve_rd (by decide) (exRat_ok rfl (by decide) (by decide))) (exSolve_rd (by decide) (exRat_ok rfl (by decide) (by decide))) exSolve_u2 (exSolve_f (exRat_ok rfl (by decide) (by decide)) rfl) exSolve_t2 exSolve_out2 exSolve_err2 l

/-- 2D, diffusion operator with constant reaction, damped Jacobi: if flux and apply kernel take `X` to `G`, then off-diagonal and diagonal kernel followed by `l` sweeps for the right
hand side `G` bring the unknowns to within `rate^l E` of `X`. -/
theorem C62_jacobi_v2_2d {i0 j0 i1 j1 gcw rgcw sgcw fgcw : Int} {alpha beta : T} {dx : Nat → T} {u b0 b1 f0 f1 res st rhs o r : Ptr} {β1 β2 : Nat → Backend} {β3 β4 : Backend} {m mX m1 m2 : Mem T} {B0 B1 G U X : List Int → T} {E q : T}
    (hβ1 : ∀ n, ValidBackend (β1 n)) (hβ2 : ∀ n, ValidBackend (β2 n)) (hβ3 : ValidBackend β3) (hβ4 : ValidBackend β4)
    (hi : i0 ≤ i1) (hj : j0 ≤ j1) (hg : 1 ≤ gcw) (hrgcw : 0 ≤ rgcw) (hs : 0 ≤ sgcw) (hfg : 0 ≤ fgcw) (he : F.Elliptic2 i0 j0 i1 j1 alpha beta dx (fun _ => 1) B0 B1)
    (hq : ∀ i j, i0 ≤ i → i ≤ i1 → j0 ≤ j → j ≤ j1 → (1 - q) * (beta / (dx 0 * dx 0) * (B0 [i, j] + B0 [i + 1, j]) + beta / (dx 1 * dx 1) * (B1 [j, i] + B1 [j + 1, i]) + alpha * (fun _ => 1) [i, j]) ≤ alpha * (fun _ => 1) [i, j]) 
    (h : F.Args mX [(F.cell2d u i0 j0 i1 j1 gcw), (F.face2d0 b0 i0 j0 i1 j1 0), (F.face2d1 b1 i0 j0 i1 j1 0)] [(F.face2d0 f0 i0 j0 i1 j1 0), (F.face2d1 f1 i0 j0 i1 j1 0), (F.cell2d res i0 j0 i1 j1 rgcw)])
    (hp : F.Apart (F.face2d0 f0 i0 j0 i1 j1 0) (F.face2d1 f1 i0 j0 i1 j1 0))
    (hr : F.Apart (F.cell2d res i0 j0 i1 j1 rgcw) (F.face2d0 f0 i0 j0 i1 j1 0) ∧ F.Apart (F.cell2d res i0 j0 i1 j1 rgcw) (F.face2d1 f1 i0 j0 i1 j1 0)) (hB0X : F.Holds mX (F.face2d0 b0 i0 j0 i1 j1 0) B0) (hB1X : F.Holds mX (F.face2d1 b1 i0 j0 i1 j1 0) B1) (hXX : F.Holds mX (F.cell2d u i0 j0 i1 j1 gcw) X)
    (c1 : Cuda.flux2d i0 j0 i1 j1 dx b0 b1 gcw u f0 f1 β1 mX = .ok m1) (c2 : Cuda.diffusionV2Apply2d i0 i1 j0 j1 alpha beta dx gcw u f0 f1 rgcw res β2 m1 = .ok m2)
    (hR : ∀ p, F.InBounds [(i0, i1), (j0, j1)] p → F.El m2 (F.cell2d res i0 j0 i1 j1 rgcw) p (G p))
    (h2 : F.Args m [(F.face2d0 b0 i0 j0 i1 j1 0), (F.face2d1 b1 i0 j0 i1 j1 0), (F.cell2d u i0 j0 i1 j1 gcw), (F.cell2d rhs i0 j0 i1 j1 fgcw), (F.box2d r i0 j0 i1 j1)] [(F.st2d st i0 j0 i1 j1 sgcw)]) (huf : F.Apart (F.cell2d u i0 j0 i1 j1 gcw) (F.cell2d rhs i0 j0 i1 j1 fgcw)) (hru : F.Apart (F.box2d r i0 j0 i1 j1) (F.cell2d u i0 j0 i1 j1 gcw)) (hrf : F.Apart (F.box2d r i0 j0 i1 j1) (F.cell2d rhs i0 j0 i1 j1 fgcw))
    (hB0 : F.Holds m (F.face2d0 b0 i0 j0 i1 j1 0) B0) (hB1 : F.Holds m (F.face2d1 b1 i0 j0 i1 j1 0) B1) (hU : F.Holds m (F.cell2d u i0 j0 i1 j1 gcw) U) (hG : F.Holds m (F.cell2d rhs i0 j0 i1 j1 fgcw) G) (ht : F.Rows m (F.offset0 o 2 5) F.points2)
    (hUX : ∀ p, ¬ F.InBounds [(i0, i1), (j0, j1)] p → U p = X p) (hE : ∀ p, F.InBounds [(i0, i1), (j0, j1)] p → |U p - X p| ≤ E) (l : Nat) :
    ∃ s1 s2 m' U', Cuda.offdiag2d i0 j0 i1 j1 i0 j0 i1 j1 dx beta b0 b1 sgcw st β3 m = .ok s1 ∧ Cuda.v2diag2d i0 j0 i1 j1 alpha sgcw st β4 s1 = .ok s2 ∧
      F.times (F.celljacobi2d i0 i1 j0 j1 5 o (i0 - sgcw) (i1 + sgcw) (j0 - sgcw) (j1 + sgcw) st (i0 - fgcw) (i1 + fgcw) (j0 - fgcw) (j1 + fgcw) rhs (i0 - gcw) (i1 + gcw) (j0 - gcw) (j1 + gcw) u r) l s2 = .ok m' ∧
      F.Holds m' (F.cell2d u i0 j0 i1 j1 gcw) U' ∧ F.Only [(F.st2d st i0 j0 i1 j1 sgcw), (F.cell2d u i0 j0 i1 j1 gcw), (F.box2d r i0 j0 i1 j1)] m m' ∧
      (∀ p, ¬ F.InBounds [(i0, i1), (j0, j1)] p → U' p = X p) ∧ ∀ p, F.InBounds [(i0, i1), (j0, j1)] p → |U' p - X p| ≤ (1 - ((13421773 : Nat) / (16777216 : Nat) : T) + ((13421773 : Nat) / (16777216 : Nat) : T) * q) ^ l * E := by
  obtain ⟨m1', m2', R, d1, d2, ER, hop⟩ := energy_v2_2 (alpha := alpha) (beta := beta) (dx := dx) hβ1 hβ2 hi hj hg hrgcw h hp hr hB0X hB1X hXX
  obtain rfl : m1 = m1' := Except.ok.inj (c1.symm.trans d1)
  obtain rfl : m2 = m2' := Except.ok.inj (c2.symm.trans d2)
  obtain ⟨s1, s2, S, a1, a2, ho, hp, hc⟩ := prob_v2_2 (alpha := alpha) (beta := beta) (dx := dx) (o := o) hβ3 hβ4 hi hj hs hg hfg (h2.sub (by intro x hx; simp only [List.mem_cons, List.not_mem_nil, or_false] at hx ⊢; tauto) (fun _ e => e)) huf hB0 hB1 hU hG ht
  have hX : ∀ p, F.InBounds [(i0, i1), (j0, j1)] p → F.Eqn 5 (F.row F.points2) S G X p := fun p hp => by
    have e := (ER p hp).rd.symm.trans (hR p hp).rd
    rw [F.inBounds2] at hp
    obtain ⟨i, j, rfl, hp⟩ := hp
    rw [F.eqn2 (hc i j (by omega) (by omega) (by omega) (by omega)), ← hop i j (by omega) (by omega) (by omega) (by omega)]
    exact e
  have hD := F.dom2 he hc hq
  have hE1 : ∀ p, F.InBounds [(i0, i1), (j0, j1)] p → |U p - X p| ≤ E * (fun _ => (1 : T)) p := fun p hp => by
    simpa using hE p hp
  have hr2 : F.Holds s2 (F.box2d r i0 j0 i1 j1) (F.rd m (F.box2d r i0 j0 i1 j1)) := F.Holds.only (fun is hi => (h2.ok (F.box2d r i0 j0 i1 j1) (by simp)).rd hi) ho (by simp only [List.mem_cons, List.not_mem_nil, or_false, forall_eq]; exact h2.apart _ (by simp) _ (by simp))
  obtain ⟨m', U', t, w1, w2, w3, w4⟩ := C59_jacobi_2d hp hr2 hru (F.apart_symm (h2.apart (F.st2d st i0 j0 i1 j1 sgcw) (by simp) (F.box2d r i0 j0 i1 j1) (by simp))) hrf rfl hD hX hUX hE1 l
  refine ⟨s1, s2, m', U', a1, a2, t, w1, (ho.mono (by simp)).trans (w2.mono fun _ ha => List.mem_cons_of_mem _ ha), w3, fun p hp => ?_⟩
  simpa using w4 p hp

example (l : Nat) : ∃ s1 s2 m' U', Cuda.offdiag2d 0 1 2 3 0 1 2 3 exDx 2 ⟨2, 0⟩ ⟨3, 0⟩ 1 ⟨9, 0⟩ revBackend (exSolve 2) = .ok s1 ∧ Cuda.v2diag2d 0 1 2 3 3 1 ⟨9, 0⟩ seqBackend s1 = .ok s2 ∧
      F.times (F.celljacobi2d 0 2 1 3 5 ⟨22, 0⟩ (0 - 1) (2 + 1) (1 - 1) (3 + 1) ⟨9, 0⟩ (0 - 2) (2 + 2) (1 - 2) (3 + 2) ⟨10, 0⟩ (0 - 2) (2 + 2) (1 - 2) (3 + 2) ⟨1, 0⟩ ⟨11, 0⟩) l s2 = .ok m' ∧
      F.Holds m' (F.cell2d ⟨1, 0⟩ 0 1 2 3 2) U' ∧ F.Only [(F.st2d ⟨9, 0⟩ 0 1 2 3 1), (F.cell2d ⟨1, 0⟩ 0 1 2 3 2), (F.box2d ⟨11, 0⟩ 0 1 2 3)] (exSolve 2) m' ∧
      (∀ p, ¬ F.InBounds [(0, 2), (1, 3)] p → U' p = exIns 2 0 p) ∧ ∀ p, F.InBounds [(0, 2), (1, 3)] p → |U' p - exIns 2 0 p| ≤ (1 - ((13421773 : Nat) / (16777216 : Nat) : Rat) + ((13421773 : Nat) / (16777216 : Nat) : Rat) * (9999 / 10000)) ^ l * 5 := by
  obtain ⟨m1, m2, c1, c2, hR⟩ := exRun_v2_2
  exact C62_jacobi_v2_2d (T := Rat) (q := 9999 / 10000) (fun _ => revBackend_ok) (fun _ => seqBackend_ok) revBackend_ok seqBackend_ok (by decide) (by decide) (by decide) (by decide) (by decide) (by decide) exEll_v2_2 exRate_v2_2 (exDir_args (by ex_args)) (apart_blk (by decide)) ⟨apart_blk (by decide), apart_blk (by decide)⟩
    (exDir_rd (by decide) (exRat_ok rfl (by decide) (by decide))) (exDir_rd (by decide) (exRat_ok rfl (by decide) (by decide))) exDir_u2 c1 c2 hR
    (exSolve_args (by ex_args)) (ex_apart (by decide)) (ex_apart (by decide)) (ex_apart (by decide)) (exSolve_rd (by decide) (exRat_ok rfl (by decide) (by decide))) (exSolve_rd (by decide) (exRat_ok rfl (by decide) (by decide))) exSolve_u2 (exSolve_f (exRat_ok rfl (by decide) (by decide)) rfl) exSolve_t2 exSolve_out2 exSolve_err2 l

/-- 2D, diffusion operator with constant reaction, Gauss-Seidel: if flux and apply kernel take `X` to `G`, then off-diagonal and diagonal kernel followed by `l` sweeps for the right
hand side `G` bring the unknowns to within `rate^l E` of `X`. -/
theorem C62_gs_v2_2d {i0 j0 i1 j1 gcw rgcw sgcw fgcw : Int} {alpha beta : T} {dx : Nat → T} {u b0 b1 f0 f1 res st rhs o : Ptr} {β1 β2 : Nat → Backend} {β3 β4 : Backend} {m mX m1 m2 : Mem T} {B0 B1 G U X : List Int → T} {E q : T}
    (hβ1 : ∀ n, ValidBackend (β1 n)) (hβ2 : ∀ n, ValidBackend (β2 n)) (hβ3 : ValidBackend β3) (hβ4 : ValidBackend β4)
    (hi : i0 ≤ i1) (hj : j0 ≤ j1) (hg : 1 ≤ gcw) (hrgcw : 0 ≤ rgcw) (hs : 0 ≤ sgcw) (hfg : 0 ≤ fgcw) (he : F.Elliptic2 i0 j0 i1 j1 alpha beta dx (fun _ => 1) B0 B1)
    (hq : ∀ i j, i0 ≤ i → i ≤ i1 → j0 ≤ j → j ≤ j1 → (1 - q) * (beta / (dx 0 * dx 0) * (B0 [i, j] + B0 [i + 1, j]) + beta / (dx 1 * dx 1) * (B1 [j, i] + B1 [j + 1, i]) + alpha * (fun _ => 1) [i, j]) ≤ alpha * (fun _ => 1) [i, j]) (h1 : q ≤ 1)
    (h : F.Args mX [(F.cell2d u i0 j0 i1 j1 gcw), (F.face2d0 b0 i0 j0 i1 j1 0), (F.face2d1 b1 i0 j0 i1 j1 0)] [(F.face2d0 f0 i0 j0 i1 j1 0), (F.face2d1 f1 i0 j0 i1 j1 0), (F.cell2d res i0 j0 i1 j1 rgcw)])
    (hp : F.Apart (F.face2d0 f0 i0 j0 i1 j1 0) (F.face2d1 f1 i0 j0 i1 j1 0))
    (hr : F.Apart (F.cell2d res i0 j0 i1 j1 rgcw) (F.face2d0 f0 i0 j0 i1 j1 0) ∧ F.Apart (F.cell2d res i0 j0 i1 j1 rgcw) (F.face2d1 f1 i0 j0 i1 j1 0)) (hB0X : F.Holds mX (F.face2d0 b0 i0 j0 i1 j1 0) B0) (hB1X : F.Holds mX (F.face2d1 b1 i0 j0 i1 j1 0) B1) (hXX : F.Holds mX (F.cell2d u i0 j0 i1 j1 gcw) X)
    (c1 : Cuda.flux2d i0 j0 i1 j1 dx b0 b1 gcw u f0 f1 β1 mX = .ok m1) (c2 : Cuda.diffusionV2Apply2d i0 i1 j0 j1 alpha beta dx gcw u f0 f1 rgcw res β2 m1 = .ok m2)
    (hR : ∀ p, F.InBounds [(i0, i1), (j0, j1)] p → F.El m2 (F.cell2d res i0 j0 i1 j1 rgcw) p (G p))
    (h2 : F.Args m [(F.face2d0 b0 i0 j0 i1 j1 0), (F.face2d1 b1 i0 j0 i1 j1 0), (F.cell2d u i0 j0 i1 j1 gcw), (F.cell2d rhs i0 j0 i1 j1 fgcw)] [(F.st2d st i0 j0 i1 j1 sgcw)]) (huf : F.Apart (F.cell2d u i0 j0 i1 j1 gcw) (F.cell2d rhs i0 j0 i1 j1 fgcw))
    (hB0 : F.Holds m (F.face2d0 b0 i0 j0 i1 j1 0) B0) (hB1 : F.Holds m (F.face2d1 b1 i0 j0 i1 j1 0) B1) (hU : F.Holds m (F.cell2d u i0 j0 i1 j1 gcw) U) (hG : F.Holds m (F.cell2d rhs i0 j0 i1 j1 fgcw) G) (ht : F.Rows m (F.offset0 o 2 5) F.points2)
    (hUX : ∀ p, ¬ F.InBounds [(i0, i1), (j0, j1)] p → U p = X p) (hE : ∀ p, F.InBounds [(i0, i1), (j0, j1)] p → |U p - X p| ≤ E) (l : Nat) :
    ∃ s1 s2 m' U', Cuda.offdiag2d i0 j0 i1 j1 i0 j0 i1 j1 dx beta b0 b1 sgcw st β3 m = .ok s1 ∧ Cuda.v2diag2d i0 j0 i1 j1 alpha sgcw st β4 s1 = .ok s2 ∧
      F.times (F.cellgs2d i0 i1 j0 j1 5 o (i0 - sgcw) (i1 + sgcw) (j0 - sgcw) (j1 + sgcw) st (i0 - fgcw) (i1 + fgcw) (j0 - fgcw) (j1 + fgcw) rhs (i0 - gcw) (i1 + gcw) (j0 - gcw) (j1 + gcw) u) l s2 = .ok m' ∧
      F.Holds m' (F.cell2d u i0 j0 i1 j1 gcw) U' ∧ F.Only [(F.st2d st i0 j0 i1 j1 sgcw), (F.cell2d u i0 j0 i1 j1 gcw)] m m' ∧
      (∀ p, ¬ F.InBounds [(i0, i1), (j0, j1)] p → U' p = X p) ∧ ∀ p, F.InBounds [(i0, i1), (j0, j1)] p → |U' p - X p| ≤ q ^ l * E := by
  obtain ⟨m1', m2', R, d1, d2, ER, hop⟩ := energy_v2_2 (alpha := alpha) (beta := beta) (dx := dx) hβ1 hβ2 hi hj hg hrgcw h hp hr hB0X hB1X hXX
  obtain rfl : m1 = m1' := Except.ok.inj (c1.symm.trans d1)
  obtain rfl : m2 = m2' := Except.ok.inj (c2.symm.trans d2)
  obtain ⟨s1, s2, S, a1, a2, ho, hp, hc⟩ := prob_v2_2 (alpha := alpha) (beta := beta) (dx := dx) (o := o) hβ3 hβ4 hi hj hs hg hfg (h2.sub (by intro x hx; simp only [List.mem_cons, List.not_mem_nil, or_false] at hx ⊢; tauto) (fun _ e => e)) huf hB0 hB1 hU hG ht
  have hX : ∀ p, F.InBounds [(i0, i1), (j0, j1)] p → F.Eqn 5 (F.row F.points2) S G X p := fun p hp => by
    have e := (ER p hp).rd.symm.trans (hR p hp).rd
    rw [F.inBounds2] at hp
    obtain ⟨i, j, rfl, hp⟩ := hp
    rw [F.eqn2 (hc i j (by omega) (by omega) (by omega) (by omega)), ← hop i j (by omega) (by omega) (by omega) (by omega)]
    exact e
  have hD := F.dom2 he hc hq
  have hE1 : ∀ p, F.InBounds [(i0, i1), (j0, j1)] p → |U p - X p| ≤ E * (fun _ => (1 : T)) p := fun p hp => by
    simpa using hE p hp
  obtain ⟨m', U', t, w1, w2, w3, w4⟩ := C59_gs_2d hp rfl hD h1 hX hUX hE1 l
  refine ⟨s1, s2, m', U', a1, a2, t, w1, (ho.mono (by simp)).trans (w2.mono fun _ ha => List.mem_cons_of_mem _ ha), w3, fun p hp => ?_⟩
  simpa using w4 p hp

example (l : Nat) : ∃ s1 s2 m' U', Cuda.offdiag2d 0 1 2 3 0 1 2 3 exDx 2 ⟨2, 0⟩ ⟨3, 0⟩ 1 ⟨9, 0⟩ revBackend (exSolve 2) = .ok s1 ∧ Cuda.v2diag2d 0 1 2 3 3 1 ⟨9, 0⟩ seqBackend s1 = .ok s2 ∧
      F.times (F.cellgs2d 0 2 1 3 5 ⟨22, 0⟩ (0 - 1) (2 + 1) (1 - 1) (3 + 1) ⟨9, 0⟩ (0 - 2) (2 + 2) (1 - 2) (3 + 2) ⟨10, 0⟩ (0 - 2) (2 + 2) (1 - 2) (3 + 2) ⟨1, 0⟩) l s2 = .ok m' ∧
      F.Holds m' (F.cell2d ⟨1, 0⟩ 0 1 2 3 2) U' ∧ F.Only [(F.st2d ⟨9, 0⟩ 0 1 2 3 1), (F.cell2d ⟨1, 0⟩ 0 1 2 3 2)] (exSolve 2) m' ∧
      (∀ p, ¬ F.InBounds [(0, 2), (1, 3)] p → U' p = exIns 2 0 p) ∧ ∀ p, F.InBounds [(0, 2), (1, 3)] p → |U' p - exIns 2 0 p| ≤ (9999 / 10000) ^ l * 5 := by
  obtain ⟨m1, m2, c1, c2, hR⟩ := exRun_v2_2
  exact C62_gs_v2_2d (T := Rat) (q := 9999 / 10000) (fun _ => revBackend_ok) (fun _ => seqBackend_ok) revBackend_ok seqBackend_ok (by decide) (by decide) (by decide) (by decide) (by decide) (by decide) exEll_v2_2 exRate_v2_2 (by norm_num) (exDir_args (by ex_args)) (apart_blk (by decide)) ⟨apart_blk (by decide), apart_blk (by decide)⟩
    (exDir_rd (by decide) (exRat_ok rfl (by decide) (by decide))) (exDir_rd (by decide) (exRat_ok rfl (by decide) (by decide))) exDir_u2 c1 c2 hR
    (exSolve_args (by ex_args)) (ex_apart (by decide)) (exSolve_rd (by decide) (exRat_ok rfl (by decide) (by decide))) (exSolve_rd (by decide) (exRat_ok rfl (by decide) (by decide))) exSolve_u2 (exSolve_f (exRat_ok rfl (by decide) (by decide)) rfl) exSolve_t2 exSolve_out2 exSolve_err2 l

/-- 2D, diffusion operator with constant reaction, red-black Gauss-Seidel: if flux and apply kernel take `X` to `G`, then off-diagonal and diagonal kernel followed by `l` pairs of sweeps for the right
hand side `G` bring the unknowns to within `rate^l E` of `X`. (Partial: `j0 + color` not negative, see `C52_sweep_2d_false`.) -/
theorem C62_rbgs_v2_2d_partial {i0 j0 i1 j1 gcw rgcw sgcw fgcw color color2 : Int} {alpha beta : T} {dx : Nat → T} {u b0 b1 f0 f1 res st rhs o : Ptr} {β1 β2 : Nat → Backend} {β3 β4 : Backend} {m mX m1 m2 : Mem T} {B0 B1 G U X : List Int → T} {E q : T}
    (hβ1 : ∀ n, ValidBackend (β1 n)) (hβ2 : ∀ n, ValidBackend (β2 n)) (hβ3 : ValidBackend β3) (hβ4 : ValidBackend β4)
    (hi : i0 ≤ i1) (hj : j0 ≤ j1) (hg : 1 ≤ gcw) (hrgcw : 0 ≤ rgcw) (hs : 0 ≤ sgcw) (hfg : 0 ≤ fgcw) (hc' : 0 ≤ j0 + color) (hc2 : 0 ≤ j0 + color2) (hcc : (color2 - color) % 2 = 1) (he : F.Elliptic2 i0 j0 i1 j1 alpha beta dx (fun _ => 1) B0 B1)
    (hq : ∀ i j, i0 ≤ i → i ≤ i1 → j0 ≤ j → j ≤ j1 → (1 - q) * (beta / (dx 0 * dx 0) * (B0 [i, j] + B0 [i + 1, j]) + beta / (dx 1 * dx 1) * (B1 [j, i] + B1 [j + 1, i]) + alpha * (fun _ => 1) [i, j]) ≤ alpha * (fun _ => 1) [i, j]) (h1 : q ≤ 1)
    (h : F.Args mX [(F.cell2d u i0 j0 i1 j1 gcw), (F.face2d0 b0 i0 j0 i1 j1 0), (F.face2d1 b1 i0 j0 i1 j1 0)] [(F.face2d0 f0 i0 j0 i1 j1 0), (F.face2d1 f1 i0 j0 i1 j1 0), (F.cell2d res i0 j0 i1 j1 rgcw)])
    (hp : F.Apart (F.face2d0 f0 i0 j0 i1 j1 0) (F.face2d1 f1 i0 j0 i1 j1 0))
    (hr : F.Apart (F.cell2d res i0 j0 i1 j1 rgcw) (F.face2d0 f0 i0 j0 i1 j1 0) ∧ F.Apart (F.cell2d res i0 j0 i1 j1 rgcw) (F.face2d1 f1 i0 j0 i1 j1 0)) (hB0X : F.Holds mX (F.face2d0 b0 i0 j0 i1 j1 0) B0) (hB1X : F.Holds mX (F.face2d1 b1 i0 j0 i1 j1 0) B1) (hXX : F.Holds mX (F.cell2d u i0 j0 i1 j1 gcw) X)
    (c1 : Cuda.flux2d i0 j0 i1 j1 dx b0 b1 gcw u f0 f1 β1 mX = .ok m1) (c2 : Cuda.diffusionV2Apply2d i0 i1 j0 j1 alpha beta dx gcw u f0 f1 rgcw res β2 m1 = .ok m2)
    (hR : ∀ p, F.InBounds [(i0, i1), (j0, j1)] p → F.El m2 (F.cell2d res i0 j0 i1 j1 rgcw) p (G p))
    (h2 : F.Args m [(F.face2d0 b0 i0 j0 i1 j1 0), (F.face2d1 b1 i0 j0 i1 j1 0), (F.cell2d u i0 j0 i1 j1 gcw), (F.cell2d rhs i0 j0 i1 j1 fgcw)] [(F.st2d st i0 j0 i1 j1 sgcw)]) (huf : F.Apart (F.cell2d u i0 j0 i1 j1 gcw) (F.cell2d rhs i0 j0 i1 j1 fgcw))
    (hB0 : F.Holds m (F.face2d0 b0 i0 j0 i1 j1 0) B0) (hB1 : F.Holds m (F.face2d1 b1 i0 j0 i1 j1 0) B1) (hU : F.Holds m (F.cell2d u i0 j0 i1 j1 gcw) U) (hG : F.Holds m (F.cell2d rhs i0 j0 i1 j1 fgcw) G) (ht : F.Rows m (F.offset0 o 2 5) F.points2)
    (hUX : ∀ p, ¬ F.InBounds [(i0, i1), (j0, j1)] p → U p = X p) (hE : ∀ p, F.InBounds [(i0, i1), (j0, j1)] p → |U p - X p| ≤ E) (l : Nat) :
    ∃ s1 s2 m' U', Cuda.offdiag2d i0 j0 i1 j1 i0 j0 i1 j1 dx beta b0 b1 sgcw st β3 m = .ok s1 ∧ Cuda.v2diag2d i0 j0 i1 j1 alpha sgcw st β4 s1 = .ok s2 ∧
      F.times (fun m => F.cellrbgs2d i0 i1 j0 j1 color 5 o (i0 - sgcw) (i1 + sgcw) (j0 - sgcw) (j1 + sgcw) st (i0 - fgcw) (i1 + fgcw) (j0 - fgcw) (j1 + fgcw) rhs (i0 - gcw) (i1 + gcw) (j0 - gcw) (j1 + gcw) u m >>=
        F.cellrbgs2d i0 i1 j0 j1 color2 5 o (i0 - sgcw) (i1 + sgcw) (j0 - sgcw) (j1 + sgcw) st (i0 - fgcw) (i1 + fgcw) (j0 - fgcw) (j1 + fgcw) rhs (i0 - gcw) (i1 + gcw) (j0 - gcw) (j1 + gcw) u) l s2 = .ok m' ∧
      F.Holds m' (F.cell2d u i0 j0 i1 j1 gcw) U' ∧ F.Only [(F.st2d st i0 j0 i1 j1 sgcw), (F.cell2d u i0 j0 i1 j1 gcw)] m m' ∧
      (∀ p, ¬ F.InBounds [(i0, i1), (j0, j1)] p → U' p = X p) ∧ ∀ p, F.InBounds [(i0, i1), (j0, j1)] p → |U' p - X p| ≤ q ^ l * E := by
  obtain ⟨m1', m2', R, d1, d2, ER, hop⟩ := energy_v2_2 (alpha := alpha) (beta := beta) (dx := dx) hβ1 hβ2 hi hj hg hrgcw h hp hr hB0X hB1X hXX
  obtain rfl : m1 = m1' := Except.ok.inj (c1.symm.trans d1)
  obtain rfl : m2 = m2' := Except.ok.inj (c2.symm.trans d2)
  obtain ⟨s1, s2, S, a1, a2, ho, hp, hc⟩ := prob_v2_2 (alpha := alpha) (beta := beta) (dx := dx) (o := o) hβ3 hβ4 hi hj hs hg hfg (h2.sub (by intro x hx; simp only [List.mem_cons, List.not_mem_nil, or_false] at hx ⊢; tauto) (fun _ e => e)) huf hB0 hB1 hU hG ht
  have hX : ∀ p, F.InBounds [(i0, i1), (j0, j1)] p → F.Eqn 5 (F.row F.points2) S G X p := fun p hp => by
    have e := (ER p hp).rd.symm.trans (hR p hp).rd
    rw [F.inBounds2] at hp
    obtain ⟨i, j, rfl, hp⟩ := hp
    rw [F.eqn2 (hc i j (by omega) (by omega) (by omega) (by omega)), ← hop i j (by omega) (by omega) (by omega) (by omega)]
    exact e
  have hD := F.dom2 he hc hq
  have hE1 : ∀ p, F.InBounds [(i0, i1), (j0, j1)] p → |U p - X p| ≤ E * (fun _ => (1 : T)) p := fun p hp => by
    simpa using hE p hp
  obtain ⟨m', U', t, w1, w2, w3, w4⟩ := C59_rbgs_2d_partial hc' hc2 hcc hp rfl hD h1 hX hUX hE1 l
  refine ⟨s1, s2, m', U', a1, a2, t, w1, (ho.mono (by simp)).trans (w2.mono fun _ ha => List.mem_cons_of_mem _ ha), w3, fun p hp => ?_⟩
  simpa using w4 p hp

example (l : Nat) : ∃ s1 s2 m' U', Cuda.offdiag2d 0 1 2 3 0 1 2 3 exDx 2 ⟨2, 0⟩ ⟨3, 0⟩ 1 ⟨9, 0⟩ revBackend (exSolve 2) = .ok s1 ∧ Cuda.v2diag2d 0 1 2 3 3 1 ⟨9, 0⟩ seqBackend s1 = .ok s2 ∧
      F.times (fun μ => F.cellrbgs2d 0 2 1 3 0 5 ⟨22, 0⟩ (0 - 1) (2 + 1) (1 - 1) (3 + 1) ⟨9, 0⟩ (0 - 2) (2 + 2) (1 - 2) (3 + 2) ⟨10, 0⟩ (0 - 2) (2 + 2) (1 - 2) (3 + 2) ⟨1, 0⟩ μ >>=
        F.cellrbgs2d 0 2 1 3 1 5 ⟨22, 0⟩ (0 - 1) (2 + 1) (1 - 1) (3 + 1) ⟨9, 0⟩ (0 - 2) (2 + 2) (1 - 2) (3 + 2) ⟨10, 0⟩ (0 - 2) (2 + 2) (1 - 2) (3 + 2) ⟨1, 0⟩) l s2 = .ok m' ∧
      F.Holds m' (F.cell2d ⟨1, 0⟩ 0 1 2 3 2) U' ∧ F.Only [(F.st2d ⟨9, 0⟩ 0 1 2 3 1), (F.cell2d ⟨1, 0⟩ 0 1 2 3 2)] (exSolve 2) m' ∧
      (∀ p, ¬ F.InBounds [(0, 2), (1, 3)] p → U' p = exIns 2 0 p) ∧ ∀ p, F.InBounds [(0, 2), (1, 3)] p → |U' p - exIns 2 0 p| ≤ (9999 / 10000) ^ l * 5 := by
  obtain ⟨m1, m2, c1, c2, hR⟩ := exRun_v2_2
  exact C62_rbgs_v2_2d_partial (T := Rat) (q := 9999 / 10000) (fun _ => revBackend_ok) (fun _ => seqBackend_ok) revBackend_ok seqBackend_ok (by decide) (by decide) (by decide) (by decide) (by decide) (by decide) (by decide) (by decide) (by decide) exEll_v2_2 exRate_v2_2 (by norm_num) (exDir_args (by ex_args)) (apart_blk (by decide)) ⟨apart_blk (by decide), apart_blk (by decide)⟩
    (exDir_rd (by decide) (exRat_ok rfl (by decide) (by decide))) (exDir_rd (by decide) (exRat_ok rfl (by decide) (by decide))) exDir_u2 c1 c2 hR
    (exSolve_args (by ex_args)) (ex_apart (by decide)) (exSolve_rd (by decide) (exRat_ok rfl (by decide) (by decide))) (exSolve_rd (by decide) (exRat_ok rfl (by decide) (by decide))) exSolve_u2 (exSolve_f (exRat_ok rfl (by decide) (by decide)) rfl) exSolve_t2 exSolve_out2 exSolve_err2 l

/-- 3D, diffusion operator with cell coefficients, damped Jacobi: if flux and apply kernel take `X` to `G`, then off-diagonal and diagonal kernel followed by `l` sweeps for the right
hand side `G` bring the unknowns to within `rate^l E` of `X`. -/
theorem C62_jacobi_v1_3d {i0 j0 k0 i1 j1 k1 agcw gcw rgcw sgcw fgcw : Int} {alpha beta : T} {dx : Nat → T} {a u b0 b1 b2 f0 f1 f2 res st rhs o r : Ptr} {β1 β2 : Nat → Backend} {β3 β4 : Backend} {m mX m1 m2 : Mem T} {A B0 B1 B2 G U X : List Int → T} {E q : T}
    (hβ1 : ∀ n, ValidBackend (β1 n)) (hβ2 : ∀ n, ValidBackend (β2 n)) (hβ3 : ValidBackend β3) (hβ4 : ValidBackend β4)
    (hi : i0 ≤ i1) (hj : j0 ≤ j1) (hk : k0 ≤ k1) (hg : 1 ≤ gcw) (hagcw : 0 ≤ agcw) (hrgcw : 0 ≤ rgcw) (hs : 0 ≤ sgcw) (hfg : 0 ≤ fgcw) (he : F.Elliptic3 i0 j0 k0 i1 j1 k1 alpha beta dx A B0 B1 B2)
    (hq : ∀ i j k, i0 ≤ i → i ≤ i1 → j0 ≤ j → j ≤ j1 → k0 ≤ k → k ≤ k1 → (1 - q) * (beta / (dx 0 * dx 0) * (B0 [i, j, k] + B0 [i + 1, j, k]) + beta / (dx 1 * dx 1) * (B1 [j, k, i] + B1 [j + 1, k, i]) + beta / (dx 2 * dx 2) * (B2 [k, i, j] + B2 [k + 1, i, j]) + alpha * A [i, j, k]) ≤ alpha * A [i, j, k]) 
    (h : F.Args mX [(F.cell3d a i0 j0 k0 i1 j1 k1 agcw), (F.cell3d u i0 j0 k0 i1 j1 k1 gcw), (F.face3d0 b0 i0 j0 k0 i1 j1 k1 0), (F.face3d1 b1 i0 j0 k0 i1 j1 k1 0), (F.face3d2 b2 i0 j0 k0 i1 j1 k1 0)] [(F.face3d0 f0 i0 j0 k0 i1 j1 k1 0), (F.face3d1 f1 i0 j0 k0 i1 j1 k1 0), (F.face3d2 f2 i0 j0 k0 i1 j1 k1 0), (F.cell3d res i0 j0 k0 i1 j1 k1 rgcw)])
    (hp : F.Apart (F.face3d0 f0 i0 j0 k0 i1 j1 k1 0) (F.face3d1 f1 i0 j0 k0 i1 j1 k1 0) ∧ F.Apart (F.face3d0 f0 i0 j0 k0 i1 j1 k1 0) (F.face3d2 f2 i0 j0 k0 i1 j1 k1 0) ∧ F.Apart (F.face3d1 f1 i0 j0 k0 i1 j1 k1 0) (F.face3d2 f2 i0 j0 k0 i1 j1 k1 0))
    (hr : F.Apart (F.cell3d res i0 j0 k0 i1 j1 k1 rgcw) (F.face3d0 f0 i0 j0 k0 i1 j1 k1 0) ∧ F.Apart (F.cell3d res i0 j0 k0 i1 j1 k1 rgcw) (F.face3d1 f1 i0 j0 k0 i1 j1 k1 0) ∧ F.Apart (F.cell3d res i0 j0 k0 i1 j1 k1 rgcw) (F.face3d2 f2 i0 j0 k0 i1 j1 k1 0)) (hAX : F.Holds mX (F.cell3d a i0 j0 k0 i1 j1 k1 agcw) A) (hB0X : F.Holds mX (F.face3d0 b0 i0 j0 k0 i1 j1 k1 0) B0) (hB1X : F.Holds mX (F.face3d1 b1 i0 j0 k0 i1 j1 k1 0) B1) (hB2X : F.Holds mX (F.face3d2 b2 i0 j0 k0 i1 j1 k1 0) B2) (hXX : F.Holds mX (F.cell3d u i0 j0 k0 i1 j1 k1 gcw) X)
    (c1 : Cuda.flux3d i0 j0 k0 i1 j1 k1 dx b0 b1 b2 gcw u f0 f1 f2 β1 mX = .ok m1) (c2 : Cuda.diffusionV1Apply3d i0 i1 j0 j1 k0 k1 alpha beta dx agcw a gcw u f0 f1 f2 rgcw res β2 m1 = .ok m2)
    (hR : ∀ p, F.InBounds [(i0, i1), (j0, j1), (k0, k1)] p → F.El m2 (F.cell3d res i0 j0 k0 i1 j1 k1 rgcw) p (G p))
    (h2 : F.Args m [(F.cell3d a i0 j0 k0 i1 j1 k1 agcw), (F.face3d0 b0 i0 j0 k0 i1 j1 k1 0), (F.face3d1 b1 i0 j0 k0 i1 j1 k1 0), (F.face3d2 b2 i0 j0 k0 i1 j1 k1 0), (F.cell3d u i0 j0 k0 i1 j1 k1 gcw), (F.cell3d rhs i0 j0 k0 i1 j1 k1 fgcw), (F.box3d r i0 j0 k0 i1 j1 k1)] [(F.st3d st i0 j0 k0 i1 j1 k1 sgcw)]) (huf : F.Apart (F.cell3d u i0 j0 k0 i1 j1 k1 gcw) (F.cell3d rhs i0 j0 k0 i1 j1 k1 fgcw)) (hru : F.Apart (F.box3d r i0 j0 k0 i1 j1 k1) (F.cell3d u i0 j0 k0 i1 j1 k1 gcw)) (hrf : F.Apart (F.box3d r i0 j0 k0 i1 j1 k1) (F.cell3d rhs i0 j0 k0 i1 j1 k1 fgcw))
    (hA : F.Holds m (F.cell3d a i0 j0 k0 i1 j1 k1 agcw) A) (hB0 : F.Holds m (F.face3d0 b0 i0 j0 k0 i1 j1 k1 0) B0) (hB1 : F.Holds m (F.face3d1 b1 i0 j0 k0 i1 j1 k1 0) B1) (hB2 : F.Holds m (F.face3d2 b2 i0 j0 k0 i1 j1 k1 0) B2) (hU : F.Holds m (F.cell3d u i0 j0 k0 i1 j1 k1 gcw) U) (hG : F.Holds m (F.cell3d rhs i0 j0 k0 i1 j1 k1 fgcw) G) (ht : F.Rows m (F.offset0 o 3 7) F.points3)
    (hUX : ∀ p, ¬ F.InBounds [(i0, i1), (j0, j1), (k0, k1)] p → U p = X p) (hE : ∀ p, F.InBounds [(i0, i1), (j0, j1), (k0, k1)] p → |U p - X p| ≤ E) (l : Nat) :
    ∃ s1 s2 m' U', Cuda.offdiag3d i0 j0 k0 i1 j1 k1 i0 j0 k0 i1 j1 k1 dx beta b0 b1 b2 sgcw st β3 m = .ok s1 ∧ Cuda.v1diag3d i0 j0 k0 i1 j1 k1 (i0 - agcw) (j0 - agcw) (k0 - agcw) (i1 + agcw) (j1 + agcw) (k1 + agcw) alpha a sgcw st β4 s1 = .ok s2 ∧
      F.times (F.celljacobi3d i0 i1 j0 j1 k0 k1 7 o (i0 - sgcw) (i1 + sgcw) (j0 - sgcw) (j1 + sgcw) (k0 - sgcw) (k1 + sgcw) st (i0 - fgcw) (i1 + fgcw) (j0 - fgcw) (j1 + fgcw) (k0 - fgcw) (k1 + fgcw) rhs (i0 - gcw) (i1 + gcw) (j0 - gcw) (j1 + gcw) (k0 - gcw) (k1 + gcw) u r) l s2 = .ok m' ∧
      F.Holds m' (F.cell3d u i0 j0 k0 i1 j1 k1 gcw) U' ∧ F.Only [(F.st3d st i0 j0 k0 i1 j1 k1 sgcw), (F.cell3d u i0 j0 k0 i1 j1 k1 gcw), (F.box3d r i0 j0 k0 i1 j1 k1)] m m' ∧
      (∀ p, ¬ F.InBounds [(i0, i1), (j0, j1), (k0, k1)] p → U' p = X p) ∧ ∀ p, F.InBounds [(i0, i1), (j0, j1), (k0, k1)] p → |U' p - X p| ≤ (1 - ((8 : Nat) / (10 : Nat) : T) + ((8 : Nat) / (10 : Nat) : T) * q) ^ l * E := by
  obtain ⟨m1', m2', R, d1, d2, ER, hop⟩ := energy_v1_3 (alpha := alpha) (beta := beta) (dx := dx) hβ1 hβ2 hi hj hk hg hagcw hrgcw h hp hr hAX hB0X hB1X hB2X hXX
  obtain rfl : m1 = m1' := Except.ok.inj (c1.symm.trans d1)
  obtain rfl : m2 = m2' := Except.ok.inj (c2.symm.trans d2)
  obtain ⟨s1, s2, S, a1, a2, ho, hp, hc⟩ := prob_v1_3 (alpha := alpha) (beta := beta) (dx := dx) (o := o) hβ3 hβ4 hi hj hk hagcw hs hg hfg (h2.sub (by intro x hx; simp only [List.mem_cons, List.not_mem_nil, or_false] at hx ⊢; tauto) (fun _ e => e)) huf hA hB0 hB1 hB2 hU hG ht
  have hX : ∀ p, F.InBounds [(i0, i1), (j0, j1), (k0, k1)] p → F.Eqn 7 (F.row F.points3) S G X p := fun p hp => by
    have e := (ER p hp).rd.symm.trans (hR p hp).rd
    rw [F.inBounds3] at hp
    obtain ⟨i, j, k, rfl, hp⟩ := hp
    rw [F.eqn3 (hc i j k (by omega) (by omega) (by omega) (by omega) (by omega) (by omega)), ← hop i j k (by omega) (by omega) (by omega) (by omega) (by omega) (by omega)]
    exact e
  have hD := F.dom3 he hc hq
  have hE1 : ∀ p, F.InBounds [(i0, i1), (j0, j1), (k0, k1)] p → |U p - X p| ≤ E * (fun _ => (1 : T)) p := fun p hp => by
    simpa using hE p hp
  have hr2 : F.Holds s2 (F.box3d r i0 j0 k0 i1 j1 k1) (F.rd m (F.box3d r i0 j0 k0 i1 j1 k1)) := F.Holds.only (fun is hi => (h2.ok (F.box3d r i0 j0 k0 i1 j1 k1) (by simp)).rd hi) ho (by simp only [List.mem_cons, List.not_mem_nil, or_false, forall_eq]; exact h2.apart _ (by simp) _ (by simp))
  obtain ⟨m', U', t, w1, w2, w3, w4⟩ := C59_jacobi_3d hp hr2 hru (F.apart_symm (h2.apart (F.st3d st i0 j0 k0 i1 j1 k1 sgcw) (by simp) (F.box3d r i0 j0 k0 i1 j1 k1) (by simp))) hrf rfl hD hX hUX hE1 l
  refine ⟨s1, s2, m', U', a1, a2, t, w1, (ho.mono (by simp)).trans (w2.mono fun _ ha => List.mem_cons_of_mem _ ha), w3, fun p hp => ?_⟩
  simpa using w4 p hp

example (l : Nat) : ∃ s1 s2 m' U', Cuda.offdiag3d 0 1 2 1 2 3 0 1 2 1 2 3 exDx 2 ⟨2, 0⟩ ⟨3, 0⟩ ⟨4, 0⟩ 1 ⟨9, 0⟩ revBackend (exSolve 3) = .ok s1 ∧ Cuda.v1diag3d 0 1 2 1 2 3 (0 - 1) (1 - 1) (2 - 1) (1 + 1) (2 + 1) (3 + 1) 3 ⟨0, 0⟩ 1 ⟨9, 0⟩ seqBackend s1 = .ok s2 ∧
      F.times (F.celljacobi3d 0 1 1 2 2 3 7 ⟨23, 0⟩ (0 - 1) (1 + 1) (1 - 1) (2 + 1) (2 - 1) (3 + 1) ⟨9, 0⟩ (0 - 2) (1 + 2) (1 - 2) (2 + 2) (2 - 2) (3 + 2) ⟨10, 0⟩ (0 - 2) (1 + 2) (1 - 2) (2 + 2) (2 - 2) (3 + 2) ⟨1, 0⟩ ⟨11, 0⟩) l s2 = .ok m' ∧
      F.Holds m' (F.cell3d ⟨1, 0⟩ 0 1 2 1 2 3 2) U' ∧ F.Only [(F.st3d ⟨9, 0⟩ 0 1 2 1 2 3 1), (F.cell3d ⟨1, 0⟩ 0 1 2 1 2 3 2), (F.box3d ⟨11, 0⟩ 0 1 2 1 2 3)] (exSolve 3) m' ∧
      (∀ p, ¬ F.InBounds [(0, 1), (1, 2), (2, 3)] p → U' p = exIns 3 0 p) ∧ ∀ p, F.InBounds [(0, 1), (1, 2), (2, 3)] p → |U' p - exIns 3 0 p| ≤ (1 - ((8 : Nat) / (10 : Nat) : Rat) + ((8 : Nat) / (10 : Nat) : Rat) * (9999 / 10000)) ^ l * 5 := by
  obtain ⟨m1, m2, c1, c2, hR⟩ := exRun_v1_3
  exact C62_jacobi_v1_3d (T := Rat) (q := 9999 / 10000) (fun _ => revBackend_ok) (fun _ => seqBackend_ok) revBackend_ok seqBackend_ok (by decide) (by decide) (by decide) (by decide) (by decide) (by decide) (by decide) (by decide) exEll_v1_3 exRate_v1_3 (exDir_args (by ex_args)) (⟨apart_blk (by decide), apart_blk (by decide), apart_blk (by decide)⟩) ⟨apart_blk (by decide), apart_blk (by decide), apart_blk (by decide)⟩
    (exDir_rd (by decide) (exRat_ok rfl (by decide) (by decide))) (exDir_rd (by decide) (exRat_ok rfl (by decide) (by decide))) (exDir_rd (by decide) (exRat_ok rfl (by decide) (by decide))) (exDir_rd (by decide) (exRat_ok rfl (by decide) (by decide))) exDir_u3 c1 c2 hR
    (exSolve_args (by ex_args)) (ex_apart (by decide)) (ex_apart (by decide)) (ex_apart (by decide)) (exSolve_rd (by decide) (exRat_ok rfl (by decide) (by decide))) (exSolve_rd (by decide) (exRat_ok rfl (by decide) (by decide))) (exSolve_rd (by decide) (exRat_ok rfl (by decide) (by decide))) (exSolve_rd (by decide) (exRat_ok rfl (by decide) (by decide))) exSolve_u3 (exSolve_f (exRat_ok rfl (by decide) (by decide)) rfl) exSolve_t3 exSolve_out3 exSolve_err3 l

/-- 3D, diffusion operator with cell coefficients, Gauss-Seidel: if flux and apply kernel take `X` to `G`, then off-diagonal and diagonal kernel followed by `l` sweeps for the right
hand side `G` bring the unknowns to within `rate^l E` of `X`. -/
theorem C62_gs_v1_3d {i0 j0 k0 i1 j1 k1 agcw gcw rgcw sgcw fgcw : Int} {alpha beta : T} {dx : Nat → T} {a u b0 b1 b2 f0 f1 f2 res st rhs o : Ptr} {β1 β2 : Nat → Backend} {β3 β4 : Backend} {m mX m1 m2 : Mem T} {A B0 B1 B2 G U X : List Int → T} {E q : T}
    (hβ1 : ∀ n, ValidBackend (β1 n)) (hβ2 : ∀ n, ValidBackend (β2 n)) (hβ3 : ValidBackend β3) (hβ4 : ValidBackend β4)
    (hi : i0 ≤ i1) (hj : j0 ≤ j1) (hk : k0 ≤ k1) (hg : 1 ≤ gcw) (hagcw : 0 ≤ agcw) (hrgcw : 0 ≤ rgcw) (hs : 0 ≤ sgcw) (hfg : 0 ≤ fgcw) (he : F.Elliptic3 i0 j0 k0 i1 j1 k1 alpha beta dx A B0 B1 B2)
    (hq : ∀ i j k, i0 ≤ i → i ≤ i1 → j0 ≤ j → j ≤ j1 → k0 ≤ k → k ≤ k1 → (1 - q) * (beta / (dx 0 * dx 0) * (B0 [i, j, k] + B0 [i + 1, j, k]) + beta / (dx 1 * dx 1) * (B1 [j, k, i] + B1 [j + 1, k, i]) + beta / (dx 2 * dx 2) * (B2 [k, i, j] + B2 [k + 1, i, j]) + alpha * A [i, j, k]) ≤ alpha * A [i, j, k]) (h1 : q ≤ 1)
    (h : F.Args mX [(F.cell3d a i0 j0 k0 i1 j1 k1 agcw), (F.cell3d u i0 j0 k0 i1 j1 k1 gcw), (F.face3d0 b0 i0 j0 k0 i1 j1 k1 0), (F.face3d1 b1 i0 j0 k0 i1 j1 k1 0), (F.face3d2 b2 i0 j0 k0 i1 j1 k1 0)] [(F.face3d0 f0 i0 j0 k0 i1 j1 k1 0), (F.face3d1 f1 i0 j0 k0 i1 j1 k1 0), (F.face3d2 f2 i0 j0 k0 i1 j1 k1 0), (F.cell3d res i0 j0 k0 i1 j1 k1 rgcw)])
    (hp : F.Apart (F.face3d0 f0 i0 j0 k0 i1 j1 k1 0) (F.face3d1 f1 i0 j0 k0 i1 j1 k1 0) ∧ F.Apart (F.face3d0 f0 i0 j0 k0 i1 j1 k1 0) (F.face3d2 f2 i0 j0 k0 i1 j1 k1 0) ∧ F.Apart (F.face3d1 f1 i0 j0 k0 i1 j1 k1 0) (F.face3d2 f2 i0 j0 k0 i1 j1 k1 0))
    (hr : F.Apart (F.cell3d res i0 j0 k0 i1 j1 k1 rgcw) (F.face3d0 f0 i0 j0 k0 i1 j1 k1 0) ∧ F.Apart (F.cell3d res i0 j0 k0 i1 j1 k1 rgcw) (F.face3d1 f1 i0 j0 k0 i1 j1 k1 0) ∧ F.Apart (F.cell3d res i0 j0 k0 i1 j1 k1 rgcw) (F.face3d2 f2 i0 j0 k0 i1 j1 k1 0)) (hAX : F.Holds mX (F.cell3d a i0 j0 k0 i1 j1 k1 agcw) A) (hB0X : F.Holds mX (F.face3d0 b0 i0 j0 k0 i1 j1 k1 0) B0) (hB1X : F.Holds mX (F.face3d1 b1 i0 j0 k0 i1 j1 k1 0) B1) (hB2X : F.Holds mX (F.face3d2 b2 i0 j0 k0 i1 j1 k1 0) B2) (hXX : F.Holds mX (F.cell3d u i0 j0 k0 i1 j1 k1 gcw) X)
    (c1 : Cuda.flux3d i0 j0 k0 i1 j1 k1 dx b0 b1 b2 gcw u f0 f1 f2 β1 mX = .ok m1) (c2 : Cuda.diffusionV1Apply3d i0 i1 j0 j1 k0 k1 alpha beta dx agcw a gcw u f0 f1 f2 rgcw res β2 m1 = .ok m2)
    (hR : ∀ p, F.InBounds [(i0, i1), (j0, j1), (k0, k1)] p → F.El m2 (F.cell3d res i0 j0 k0 i1 j1 k1 rgcw) p (G p))
    (h2 : F.Args m [(F.cell3d a i0 j0 k0 i1 j1 k1 agcw), (F.face3d0 b0 i0 j0 k0 i1 j1 k1 0), (F.face3d1 b1 i0 j0 k0 i1 j1 k1 0), (F.face3d2 b2 i0 j0 k0 i1 j1 k1 0), (F.cell3d u i0 j0 k0 i1 j1 k1 gcw), (F.cell3d rhs i0 j0 k0 i1 j1 k1 fgcw)] [(F.st3d st i0 j0 k0 i1 j1 k1 sgcw)]) (huf : F.Apart (F.cell3d u i0 j0 k0 i1 j1 k1 gcw) (F.cell3d rhs i0 j0 k0 i1 j1 k1 fgcw))
    (hA : F.Holds m (F.cell3d a i0 j0 k0 i1 j1 k1 agcw) A) (hB0 : F.Holds m (F.face3d0 b0 i0 j0 k0 i1 j1 k1 0) B0) (hB1 : F.Holds m (F.face3d1 b1 i0 j0 k0 i1 j1 k1 0) B1) (hB2 : F.Holds m (F.face3d2 b2 i0 j0 k0 i1 j1 k1 0) B2) (hU : F.Holds m (F.cell3d u i0 j0 k0 i1 j1 k1 gcw) U) (hG : F.Holds m (F.cell3d rhs i0 j0 k0 i1 j1 k1 fgcw) G) (ht : F.Rows m (F.offset0 o 3 7) F.points3)
    (hUX : ∀ p, ¬ F.InBounds [(i0, i1), (j0, j1), (k0, k1)] p → U p = X p) (hE : ∀ p, F.InBounds [(i0, i1), (j0, j1), (k0, k1)] p → |U p - X p| ≤ E) (l : Nat) :
    ∃ s1 s2 m' U', Cuda.offdiag3d i0 j0 k0 i1 j1 k1 i0 j0 k0 i1 j1 k1 dx beta b0 b1 b2 sgcw st β3 m = .ok s1 ∧ Cuda.v1diag3d i0 j0 k0 i1 j1 k1 (i0 - agcw) (j0 - agcw) (k0 - agcw) (i1 + agcw) (j1 + agcw) (k1 + agcw) alpha a sgcw st β4 s1 = .ok s2 ∧
      F.times (F.cellgs3d i0 i1 j0 j1 k0 k1 7 o (i0 - sgcw) (i1 + sgcw) (j0 - sgcw) (j1 + sgcw) (k0 - sgcw) (k1 + sgcw) st (i0 - fgcw) (i1 + fgcw) (j0 - fgcw) (j1 + fgcw) (k0 - fgcw) (k1 + fgcw) rhs (i0 - gcw) (i1 + gcw) (j0 - gcw) (j1 + gcw) (k0 - gcw) (k1 + gcw) u) l s2 = .ok m' ∧
      F.Holds m' (F.cell3d u i0 j0 k0 i1 j1 k1 gcw) U' ∧ F.Only [(F.st3d st i0 j0 k0 i1 j1 k1 sgcw), (F.cell3d u i0 j0 k0 i1 j1 k1 gcw)] m m' ∧
      (∀ p, ¬ F.InBounds [(i0, i1), (j0, j1), (k0, k1)] p → U' p = X p) ∧ ∀ p, F.InBounds [(i0, i1), (j0, j1), (k0, k1)] p → |U' p - X p| ≤ q ^ l * E := by
  obtain ⟨m1', m2', R, d1, d2, ER, hop⟩ := energy_v1_3 (alpha := alpha) (beta := beta) (dx := dx) hβ1 hβ2 hi hj hk hg hagcw hrgcw h hp hr hAX hB0X hB1X hB2X hXX
  obtain rfl : m1 = m1' := Except.ok.inj (c1.symm.trans d1)
  obtain rfl : m2 = m2' := Except.ok.inj (c2.symm.trans d2)
  obtain ⟨s1, s2, S, a1, a2, ho, hp, hc⟩ := prob_v1_3 (alpha := alpha) (beta := beta) (dx := dx) (o := o) hβ3 hβ4 hi hj hk hagcw hs hg hfg (h2.sub (by intro x hx; simp only [List.mem_cons, List.not_mem_nil, or_false] at hx ⊢; tauto) (fun _ e => e)) huf hA hB0 hB1 hB2 hU hG ht
  have hX : ∀ p, F.InBounds [(i0, i1), (j0, j1), (k0, k1)] p → F.Eqn 7 (F.row F.points3) S G X p := fun p hp => by
    have e := (ER p hp).rd.symm.trans (hR p hp).rd
    rw [F.inBounds3] at hp
    obtain ⟨i, j, k, rfl, hp⟩ := hp
    rw [F.eqn3 (hc i j k (by omega) (by omega) (by omega) (by omega) (by omega) (by omega)), ← hop i j k (by omega) (by omega) (by omega) (by omega) (by omega) (by omega)]
    exact e
  have hD := F.dom3 he hc hq
  have hE1 : ∀ p, F.InBounds [(i0, i1), (j0, j1), (k0, k1)] p → |U p - X p| ≤ E * (fun _ => (1 : T)) p := fun p hp => by
    simpa using hE p hp
  obtain ⟨m', U', t, w1, w2, w3, w4⟩ := C59_gs_3d hp rfl hD h1 hX hUX hE1 l
  refine ⟨s1, s2, m', U', a1, a2, t, w1, (ho.mono (by simp)).trans (w2.mono fun _ ha => List.mem_cons_of_mem _ ha), w3, fun p hp => ?_⟩
  simpa using w4 p hp

example (l : Nat) : ∃ s1 s2 m' U', Cuda.offdiag3d 0 1 2 1 2 3 0 1 2 1 2 3 exDx 2 ⟨2, 0⟩ ⟨3, 0⟩ ⟨4, 0⟩ 1 ⟨9, 0⟩ revBackend (exSolve 3) = .ok s1 ∧ Cuda.v1diag3d 0 1 2 1 2 3 (0 - 1) (1 - 1) (2 - 1) (1 + 1) (2 + 1) (3 + 1) 3 ⟨0, 0⟩ 1 ⟨9, 0⟩ seqBackend s1 = .ok s2 ∧
      F.times (F.cellgs3d 0 1 1 2 2 3 7 ⟨23, 0⟩ (0 - 1) (1 + 1) (1 - 1) (2 + 1) (2 - 1) (3 + 1) ⟨9, 0⟩ (0 - 2) (1 + 2) (1 - 2) (2 + 2) (2 - 2) (3 + 2) ⟨10, 0⟩ (0 - 2) (1 + 2) (1 - 2) (2 + 2) (2 - 2) (3 + 2) ⟨1, 0⟩) l s2 = .ok m' ∧
      F.Holds m' (F.cell3d ⟨1, 0⟩ 0 1 2 1 2 3 2) U' ∧ F.Only [(F.st3d ⟨9, 0⟩ 0 1 2 1 2 3 1), (F.cell3d ⟨1, 0⟩ 0 1 2 1 2 3 2)] (exSolve 3) m' ∧
      (∀ p, ¬ F.InBounds [(0, 1), (1, 2), (2, 3)] p → U' p = exIns 3 0 p) ∧ ∀ p, F.InBounds [(0, 1), (1, 2), (2, 3)] p → |U' p - exIns 3 0 p| ≤ (9999 / 10000) ^ l * 5 := by
  obtain ⟨m1, m2, c1, c2, hR⟩ := exRun_v1_3
  exact C62_gs_v1_3d (T := Rat) (q := 9999 / 10000) (fun _ => revBackend_ok) (fun _ => seqBackend_ok) revBackend_ok seqBackend_ok (by decide) (by decide) (by decide) (by decide) (by decide) (by decide) (by decide) (by decide) exEll_v1_3 exRate_v1_3 (by norm_num) (exDir_args (by ex_args)) (⟨apart_blk (by decide), apart_blk (by decide), apart_blk (by decide)⟩) ⟨apart_blk (by decide), apart_blk (by decide), apart_blk (by decide)⟩
    (exDir_rd (by decide) (exRat_ok rfl (by decide) (by decide))) (exDir_rd (by decide) (exRat_ok rfl (by decide) (by decide))) (exDir_rd (by decide) (exRat_ok rfl (by decide) (by decide))) (exDir_rd (by decide) (exRat_ok rfl (by decide) (by decide))) exDir_u3 c1 c2 hR
    (exSolve_args (by ex_args)) (ex_apart (by decide)) (exSolve_rd (by decide) (exRat_ok rfl (by decide) (by decide))) (exSolve_rd (by decide) (exRat_ok rfl (by decide) (by decide))) (exSolve_rd (by decide) (exRat_ok rfl (by decide) (by decide))) (exSolve_rd (by decide) (exRat_ok rfl (by decide) (by decide))) exSolve_u3 (exSolve_f (exRat_ok rfl (by decide) (by decide)) rfl) exSolve_t3 exSolve_out3 exSolve_err3 l

/-- 3D, diffusion operator with cell coefficients, red-black Gauss-Seidel: if flux and apply kernel take `X` to `G`, then off-diagonal and diagonal kernel followed by `l` pairs of sweeps for the right
hand side `G` bring the unknowns to within `rate^l E` of `X`. -/
theorem C62_rbgs_v1_3d {i0 j0 k0 i1 j1 k1 agcw gcw rgcw sgcw fgcw color color2 : Int} {alpha beta : T} {dx : Nat → T} {a u b0 b1 b2 f0 f1 f2 res st rhs o : Ptr} {β1 β2 : Nat → Backend} {β3 β4 : Backend} {m mX m1 m2 : Mem T} {A B0 B1 B2 G U X : List Int → T} {E q : T}
    (hβ1 : ∀ n, ValidBackend (β1 n)) (hβ2 : ∀ n, ValidBackend (β2 n)) (hβ3 : ValidBackend β3) (hβ4 : ValidBackend β4)
    (hi : i0 ≤ i1) (hj : j0 ≤ j1) (hk : k0 ≤ k1) (hg : 1 ≤ gcw) (hagcw : 0 ≤ agcw) (hrgcw : 0 ≤ rgcw) (hs : 0 ≤ sgcw) (hfg : 0 ≤ fgcw) (hc' : 0 ≤ color) (hc2 : 0 ≤ color2) (hcc : (color2 - color) % 2 = 1) (he : F.Elliptic3 i0 j0 k0 i1 j1 k1 alpha beta dx A B0 B1 B2)
    (hq : ∀ i j k, i0 ≤ i → i ≤ i1 → j0 ≤ j → j ≤ j1 → k0 ≤ k → k ≤ k1 → (1 - q) * (beta / (dx 0 * dx 0) * (B0 [i, j, k] + B0 [i + 1, j, k]) + beta / (dx 1 * dx 1) * (B1 [j, k, i] + B1 [j + 1, k, i]) + beta / (dx 2 * dx 2) * (B2 [k, i, j] + B2 [k + 1, i, j]) + alpha * A [i, j, k]) ≤ alpha * A [i, j, k]) (h1 : q ≤ 1)
    (h : F.Args mX [(F.cell3d a i0 j0 k0 i1 j1 k1 agcw), (F.cell3d u i0 j0 k0 i1 j1 k1 gcw), (F.face3d0 b0 i0 j0 k0 i1 j1 k1 0), (F.face3d1 b1 i0 j0 k0 i1 j1 k1 0), (F.face3d2 b2 i0 j0 k0 i1 j1 k1 0)] [(F.face3d0 f0 i0 j0 k0 i1 j1 k1 0), (F.face3d1 f1 i0 j0 k0 i1 j1 k1 0), (F.face3d2 f2 i0 j0 k0 i1 j1 k1 0), (F.cell3d res i0 j0 k0 i1 j1 k1 rgcw)])
    (hp : F.Apart (F.face3d0 f0 i0 j0 k0 i1 j1 k1 0) (F.face3d1 f1 i0 j0 k0 i1 j1 k1 0) ∧ F.Apart (F.face3d0 f0 i0 j0 k0 i1 j1 k1 0) (F.face3d2 f2 i0 j0 k0 i1 j1 k1 0) ∧ F.Apart (F.face3d1 f1 i0 j0 k0 i1 j1 k1 0) (F.face3d2 f2 i0 j0 k0 i1 j1 k1 0))
    (hr : F.Apart (F.cell3d res i0 j0 k0 i1 j1 k1 rgcw) (F.face3d0 f0 i0 j0 k0 i1 j1 k1 0) ∧ F.Apart (F.cell3d res i0 j0 k0 i1 j1 k1 rgcw) (F.face3d1 f1 i0 j0 k0 i1 j1 k1 0) ∧ F.Apart (F.cell3d res i0 j0 k0 i1 j1 k1 rgcw) (F.face3d2 f2 i0 j0 k0 i1 j1 k1 0)) (hAX : F.Holds mX (F.cell3d a i0 j0 k0 i1 j1 k1 agcw) A) (hB0X : F.Holds mX (F.face3d0 b0 i0 j0 k0 i1 j1 k1 0) B0) (hB1X : F.Holds mX (F.face3d1 b1 i0 j0 k0 i1 j1 k1 0) B1) (hB2X : F.Holds mX (F.face3d2 b2 i0 j0 k0 i1 j1 k1 0) B2) (hXX : F.Holds mX (F.cell3d u i0 j0 k0 i1 j1 k1 gcw) X)
    (c1 : Cuda.flux3d i0 j0 k0 i1 j1 k1 dx b0 b1 b2 gcw u f0 f1 f2 β1 mX = .ok m1) (c2 : Cuda.diffusionV1Apply3d i0 i1 j0 j1 k0 k1 alpha beta dx agcw a gcw u f0 f1 f2 rgcw res β2 m1 = .ok m2)
    (hR : ∀ p, F.InBounds [(i0, i1), (j0, j1), (k0, k1)] p → F.El m2 (F.cell3d res i0 j0 k0 i1 j1 k1 rgcw) p (G p))
    (h2 : F.Args m [(F.cell3d a i0 j0 k0 i1 j1 k1 agcw), (F.face3d0 b0 i0 j0 k0 i1 j1 k1 0), (F.face3d1 b1 i0 j0 k0 i1 j1 k1 0), (F.face3d2 b2 i0 j0 k0 i1 j1 k1 0), (F.cell3d u i0 j0 k0 i1 j1 k1 gcw), (F.cell3d rhs i0 j0 k0 i1 j1 k1 fgcw)] [(F.st3d st i0 j0 k0 i1 j1 k1 sgcw)]) (huf : F.Apart (F.cell3d u i0 j0 k0 i1 j1 k1 gcw) (F.cell3d rhs i0 j0 k0 i1 j1 k1 fgcw))
    (hA : F.Holds m (F.cell3d a i0 j0 k0 i1 j1 k1 agcw) A) (hB0 : F.Holds m (F.face3d0 b0 i0 j0 k0 i1 j1 k1 0) B0) (hB1 : F.Holds m (F.face3d1 b1 i0 j0 k0 i1 j1 k1 0) B1) (hB2 : F.Holds m (F.face3d2 b2 i0 j0 k0 i1 j1 k1 0) B2) (hU : F.Holds m (F.cell3d u i0 j0 k0 i1 j1 k1 gcw) U) (hG : F.Holds m (F.cell3d rhs i0 j0 k0 i1 j1 k1 fgcw) G) (ht : F.Rows m (F.offset0 o 3 7) F.points3)
    (hUX : ∀ p, ¬ F.InBounds [(i0, i1), (j0, j1), (k0, k1)] p → U p = X p) (hE : ∀ p, F.InBounds [(i0, i1), (j0, j1), (k0, k1)] p → |U p - X p| ≤ E) (l : Nat) :
    ∃ s1 s2 m' U', Cuda.offdiag3d i0 j0 k0 i1 j1 k1 i0 j0 k0 i1 j1 k1 dx beta b0 b1 b2 sgcw st β3 m = .ok s1 ∧ Cuda.v1diag3d i0 j0 k0 i1 j1 k1 (i0 - agcw) (j0 - agcw) (k0 - agcw) (i1 + agcw) (j1 + agcw) (k1 + agcw) alpha a sgcw st β4 s1 = .ok s2 ∧
      F.times (fun m => F.cellrbgs3d i0 i1 j0 j1 k0 k1 color 7 o (i0 - sgcw) (i1 + sgcw) (j0 - sgcw) (j1 + sgcw) (k0 - sgcw) (k1 + sgcw) st (i0 - fgcw) (i1 + fgcw) (j0 - fgcw) (j1 + fgcw) (k0 - fgcw) (k1 + fgcw) rhs (i0 - gcw) (i1 + gcw) (j0 - gcw) (j1 + gcw) (k0 - gcw) (k1 + gcw) u m >>=
        F.cellrbgs3d i0 i1 j0 j1 k0 k1 color2 7 o (i0 - sgcw) (i1 + sgcw) (j0 - sgcw) (j1 + sgcw) (k0 - sgcw) (k1 + sgcw) st (i0 - fgcw) (i1 + fgcw) (j0 - fgcw) (j1 + fgcw) (k0 - fgcw) (k1 + fgcw) rhs (i0 - gcw) (i1 + gcw) (j0 - gcw) (j1 + gcw) (k0 - gcw) (k1 + gcw) u) l s2 = .ok m' ∧
      F.Holds m' (F.cell3d u i0 j0 k0 i1 j1 k1 gcw) U' ∧ F.Only [(F.st3d st i0 j0 k0 i1 j1 k1 sgcw), (F.cell3d u i0 j0 k0 i1 j1 k1 gcw)] m m' ∧
      (∀ p, ¬ F.InBounds [(i0, i1), (j0, j1), (k0, k1)] p → U' p = X p) ∧ ∀ p, F.InBounds [(i0, i1), (j0, j1), (k0, k1)] p → |U' p - X p| ≤ q ^ l * E := by
  obtain ⟨m1', m2', R, d1, d2, ER, hop⟩ := energy_v1_3 (alpha := alpha) (beta := beta) (dx := dx) hβ1 hβ2 hi hj hk hg hagcw hrgcw h hp hr hAX hB0X hB1X hB2X hXX
  obtain rfl : m1 = m1' := Except.ok.inj (c1.symm.trans d1)
  obtain rfl : m2 = m2' := Except.ok.inj (c2.symm.trans d2)
  obtain ⟨s1, s2, S, a1, a2, ho, hp, hc⟩ := prob_v1_3 (alpha := alpha) (beta := beta) (dx := dx) (o := o) hβ3 hβ4 hi hj hk hagcw hs hg hfg (h2.sub (by intro x hx; simp only [List.mem_cons, List.not_mem_nil, or_false] at hx ⊢; tauto) (fun _ e => e)) huf hA hB0 hB1 hB2 hU hG ht
  have hX : ∀ p, F.InBounds [(i0, i1), (j0, j1), (k0, k1)] p → F.Eqn 7 (F.row F.points3) S G X p := fun p hp => by
    have e := (ER p hp).rd.symm.trans (hR p hp).rd
    rw [F.inBounds3] at hp
    obtain ⟨i, j, k, rfl, hp⟩ := hp
    rw [F.eqn3 (hc i j k (by omega) (by omega) (by omega) (by omega) (by omega) (by omega)), ← hop i j k (by omega) (by omega) (by omega) (by omega) (by omega) (by omega)]
    exact e
  have hD := F.dom3 he hc hq
  have hE1 : ∀ p, F.InBounds [(i0, i1), (j0, j1), (k0, k1)] p → |U p - X p| ≤ E * (fun _ => (1 : T)) p := fun p hp => by
    simpa using hE p hp
  obtain ⟨m', U', t, w1, w2, w3, w4⟩ := C59_rbgs_3d hc' hc2 hcc hp rfl hD h1 hX hUX hE1 l
  refine ⟨s1, s2, m', U', a1, a2, t, w1, (ho.mono (by simp)).trans (w2.mono fun _ ha => List.mem_cons_of_mem _ ha), w3, fun p hp => ?_⟩
  simpa using w4 p hp

example (l : Nat) : ∃ s1 s2 m' U', Cuda.offdiag3d 0 1 2 1 2 3 0 1 2 1 2 3 exDx 2 ⟨2, 0⟩ ⟨3, 0⟩ ⟨4, 0⟩ 1 ⟨9, 0⟩ revBackend (exSolve 3) = .ok s1 ∧ Cuda.v1diag3d 0 1 2 1 2 3 (0 - 1) (1 - 1) (2 - 1) (1 + 1) (2 + 1) (3 + 1) 3 ⟨0, 0⟩ 1 ⟨9, 0⟩ seqBackend s1 = .ok s2 ∧
      F.times (fun μ => F.cellrbgs3d 0 1 1 2 2 3 0 7 ⟨23, 0⟩ (0 - 1) (1 + 1) (1 - 1) (2 + 1) (2 - 1) (3 + 1) ⟨9, 0⟩ (0 - 2) (1 + 2) (1 - 2) (2 + 2) (2 - 2) (3 + 2) ⟨10, 0⟩ (0 - 2) (1 + 2) (1 - 2) (2 + 2) (2 - 2) (3 + 2) ⟨1, 0⟩ μ >>=
        F.cellrbgs3d 0 1 1 2 2 3 1 7 ⟨23, 0⟩ (0 - 1) (1 + 1) (1 - 1) (2 + 1) (2 - 1) (3 + 1) ⟨9, 0⟩ (0 - 2) (1 + 2) (1 - 2) (2 + 2) (2 - 2) (3 + 2) ⟨10, 0⟩ (0 - 2) (1 + 2) (1 - 2) (2 + 2) (2 - 2) (3 + 2) ⟨1, 0⟩) l s2 = .ok m' ∧
      F.Holds m' (F.cell3d ⟨1, 0⟩ 0 1 2 1 2 3 2) U' ∧ F.Only [(F.st3d ⟨9, 0⟩ 0 1 2 1 2 3 1), (F.cell3d ⟨1, 0⟩ 0 1 2 1 2 3 2)] (exSolve 3) m' ∧
      (∀ p, ¬ F.InBounds [(0, 1), (1, 2), (2, 3)] p → U' p = exIns 3 0 p) ∧ ∀ p, F.InBounds [(0, 1), (1, 2), (2, 3)] p → |U' p - exIns 3 0 p| ≤ (9999 / 10000) ^ l * 5 := by
  obtain ⟨m1, m2, c1, c2, hR⟩ := exRun_v1_3
  exact C62_rbgs_v1_3d (T := Rat) (q := 9999 / 10000) (fun _ => revBackend_ok) (fun _ => seqBackend_ok) revBackend_ok seqBackend_ok (by decide) (by decide) (by decide) (by decide) (by decide) (by decide) (by decide) (by decide) (by decide) (by decide) (by decide) exEll_v1_3 exRate_v1_3 (by norm_num) (exDir_args (by ex_args)) (⟨apart_blk (by decide), apart_blk (by decide), apart_blk (by decide)⟩) ⟨apart_blk (by decide), apart_blk (by decide), apart_blk (by decide)⟩
    (exDir_rd (by decide) (exRat_ok rfl (by decide) (by decide))) (exDir_rd (by decide) (exRat_ok rfl (by decide) (by decide))) (exDir_rd (by decide) (exRat_ok rfl (by decide) (by decide))) (exDir_rd (by decide) (exRat_ok rfl (by decide) (by decide))) exDir_u3 c1 c2 hR
    (exSolve_args (by ex_args)) (ex_apart (by decide)) (exSolve_rd (by decide) (exRat_ok rfl (by decide) (by decide))) (exSolve_rd (by decide) (exRat_ok rfl (by decide) (by decide))) (exSolve_rd (by decide) (exRat_ok rfl (by decide) (by decide))) (exSolve_rd (by decide) (exRat_ok rfl (by decide) (by decide))) exSolve_u3 (exSolve_f (exRat_ok rfl (by decide) (by decide)) rfl) exSolve_t3 exSolve_out3 exSolve_err3 l

/-- 3D, diffusion operator with constant reaction, damped Jacobi: if flux and apply kernel take `X` to `G`, then off-diagonal and diagonal kernel followed by `l` sweeps for the right
hand side `G` bring the unknowns to within `rate^l E` of `X`. -/
theorem C62_jacobi_v2_3d {i0 j0 k0 i1 j1 k1 gcw rgcw sgcw fgcw : Int} {alpha beta : T} {dx : Nat → T} {u b0 b1 b2 f0 f1 f2 res st rhs o r : Ptr} {β1 β2 : Nat → Backend} {β3 β4 : Backend} {m mX m1 m2 : Mem T} {B0 B1 B2 G U X : List Int → T} {E q : T}
    (hβ1 : ∀ n, ValidBackend (β1 n)) (hβ2 : ∀ n, ValidBackend (β2 n)) (hβ3 : ValidBackend β3) (hβ4 : ValidBackend β4)
    (hi : i0 ≤ i1) (hj : j0 ≤ j1) (hk : k0 ≤ k1) (hg : 1 ≤ gcw) (hrgcw : 0 ≤ rgcw) (hs : 0 ≤ sgcw) (hfg : 0 ≤ fgcw) (he : F.Elliptic3 i0 j0 k0 i1 j1 k1 alpha beta dx (fun _ => 1) B0 B1 B2)
    (hq : ∀ i j k, i0 ≤ i → i ≤ i1 → j0 ≤ j → j ≤ j1 → k0 ≤ k → k ≤ k1 → (1 - q) * (beta / (dx 0 * dx 0) * (B0 [i, j, k] + B0 [i + 1, j, k]) + beta / (dx 1 * dx 1) * (B1 [j, k, i] + B1 [j + 1, k, i]) + beta / (dx 2 * dx 2) * (B2 [k, i, j] + B2 [k + 1, i, j]) + alpha * (fun _ => 1) [i, j, k]) ≤ alpha * (fun _ => 1) [i, j, k]) 
    (h : F.Args mX [(F.cell3d u i0 j0 k0 i1 j1 k1 gcw), (F.face3d0 b0 i0 j0 k0 i1 j1 k1 0), (F.face3d1 b1 i0 j0 k0 i1 j1 k1 0), (F.face3d2 b2 i0 j0 k0 i1 j1 k1 0)] [(F.face3d0 f0 i0 j0 k0 i1 j1 k1 0), (F.face3d1 f1 i0 j0 k0 i1 j1 k1 0), (F.face3d2 f2 i0 j0 k0 i1 j1 k1 0), (F.cell3d res i0 j0 k0 i1 j1 k1 rgcw)])
    (hp : F.Apart (F.face3d0 f0 i0 j0 k0 i1 j1 k1 0) (F.face3d1 f1 i0 j0 k0 i1 j1 k1 0) ∧ F.Apart (F.face3d0 f0 i0 j0 k0 i1 j1 k1 0) (F.face3d2 f2 i0 j0 k0 i1 j1 k1 0) ∧ F.Apart (F.face3d1 f1 i0 j0 k0 i1 j1 k1 0) (F.face3d2 f2 i0 j0 k0 i1 j1 k1 0))
    (hr : F.Apart (F.cell3d res i0 j0 k0 i1 j1 k1 rgcw) (F.face3d0 f0 i0 j0 k0 i1 j1 k1 0) ∧ F.Apart (F.cell3d res i0 j0 k0 i1 j1 k1 rgcw) (F.face3d1 f1 i0 j0 k0 i1 j1 k1 0) ∧ F.Apart (F.cell3d res i0 j0 k0 i1 j1 k1 rgcw) (F.face3d2 f2 i0 j0 k0 i1 j1 k1 0)) (hB0X : F.Holds mX (F.face3d0 b0 i0 j0 k0 i1 j1 k1 0) B0) (hB1X : F.Holds mX (F.face3d1 b1 i0 j0 k0 i1 j1 k1 0) B1) (hB2X : F.Holds mX (F.face3d2 b2 i0 j0 k0 i1 j1 k1 0) B2) (hXX : F.Holds mX (F.cell3d u i0 j0 k0 i1 j1 k1 gcw) X)
    (c1 : Cuda.flux3d i0 j0 k0 i1 j1 k1 dx b0 b1 b2 gcw u f0 f1 f2 β1 mX = .ok m1) (c2 : Cuda.diffusionV2Apply3d i0 i1 j0 j1 k0 k1 alpha beta dx gcw u f0 f1 f2 rgcw res β2 m1 = .ok m2)
    (hR : ∀ p, F.InBounds [(i0, i1), (j0, j1), (k0, k1)] p → F.El m2 (F.cell3d res i0 j0 k0 i1 j1 k1 rgcw) p (G p))
    (h2 : F.Args m [(F.face3d0 b0 i0 j0 k0 i1 j1 k1 0), (F.face3d1 b1 i0 j0 k0 i1 j1 k1 0), (F.face3d2 b2 i0 j0 k0 i1 j1 k1 0), (F.cell3d u i0 j0 k0 i1 j1 k1 gcw), (F.cell3d rhs i0 j0 k0 i1 j1 k1 fgcw), (F.box3d r i0 j0 k0 i1 j1 k1)] [(F.st3d st i0 j0 k0 i1 j1 k1 sgcw)]) (huf : F.Apart (F.cell3d u i0 j0 k0 i1 j1 k1 gcw) (F.cell3d rhs i0 j0 k0 i1 j1 k1 fgcw)) (hru : F.Apart (F.box3d r i0 j0 k0 i1 j1 k1) (F.cell3d u i0 j0 k0 i1 j1 k1 gcw)) (hrf : F.Apart (F.box3d r i0 j0 k0 i1 j1 k1) (F.cell3d rhs i0 j0 k0 i1 j1 k1 fgcw))
    (hB0 : F.Holds m (F.face3d0 b0 i0 j0 k0 i1 j1 k1 0) B0) (hB1 : F.Holds m (F.face3d1 b1 i0 j0 k0 i1 j1 k1 0) B1) (hB2 : F.Holds m (F.face3d2 b2 i0 j0 k0 i1 j1 k1 0) B2) (hU : F.Holds m (F.cell3d u i0 j0 k0 i1 j1 k1 gcw) U) (hG : F.Holds m (F.cell3d rhs i0 j0 k0 i1 j1 k1 fgcw) G) (ht : F.Rows m (F.offset0 o 3 7) F.points3)
    (hUX : ∀ p, ¬ F.InBounds [(i0, i1), (j0, j1), (k0, k1)] p → U p = X p) (hE : ∀ p, F.InBounds [(i0, i1), (j0, j1), (k0, k1)] p → |U p - X p| ≤ E) (l : Nat) :
    ∃ s1 s2 m' U', Cuda.offdiag3d i0 j0 k0 i1 j1 k1 i0 j0 k0 i1 j1 k1 dx beta b0 b1 b2 sgcw st β3 m = .ok s1 ∧ Cuda.v2diag3d i0 j0 k0 i1 j1 k1 alpha sgcw st β4 s1 = .ok s2 ∧
      F.times (F.celljacobi3d i0 i1 j0 j1 k0 k1 7 o (i0 - sgcw) (i1 + sgcw) (j0 - sgcw) (j1 + sgcw) (k0 - sgcw) (k1 + sgcw) st (i0 - fgcw) (i1 + fgcw) (j0 - fgcw) (j1 + fgcw) (k0 - fgcw) (k1 + fgcw) rhs (i0 - gcw) (i1 + gcw) (j0 - gcw) (j1 + gcw) (k0 - gcw) (k1 + gcw) u r) l s2 = .ok m' ∧
      F.Holds m' (F.cell3d u i0 j0 k0 i1 j1 k1 gcw) U' ∧ F.Only [(F.st3d st i0 j0 k0 i1 j1 k1 sgcw), (F.cell3d u i0 j0 k0 i1 j1 k1 gcw), (F.box3d r i0 j0 k0 i1 j1 k1)] m m' ∧
      (∀ p, ¬ F.InBounds [(i0, i1), (j0, j1), (k0, k1)] p → U' p = X p) ∧ ∀ p, F.InBounds [(i0, i1), (j0, j1), (k0, k1)] p → |U' p - X p| ≤ (1 - ((8 : Nat) / (10 : Nat) : T) + ((8 : Nat) / (10 : Nat) : T) * q) ^ l * E := by
  obtain ⟨m1', m2', R, d1, d2, ER, hop⟩ := energy_v2_3 (alpha := alpha) (beta := beta) (dx := dx) hβ1 hβ2 hi hj hk hg hrgcw h hp hr hB0X hB1X hB2X hXX
  obtain rfl : m1 = m1' := Except.ok.inj (c1.symm.trans d1)
  obtain rfl : m2 = m2' := Except.ok.inj (c2.symm.trans d2)
  obtain ⟨s1, s2, S, a1, a2, ho, hp, hc⟩ := prob_v2_3 (alpha := alpha) (beta := beta) (dx := dx) (o := o) hβ3 hβ4 hi hj hk hs hg hfg (h2.sub (by intro x hx; simp only [List.mem_cons, List.not_mem_nil, or_false] at hx ⊢; tauto) (fun _ e => e)) huf hB0 hB1 hB2 hU hG ht
  have hX : ∀ p, F.InBounds [(i0, i1), (j0, j1), (k0, k1)] p → F.Eqn 7 (F.row F.points3) S G X p := fun p hp => by
    have e := (ER p hp).rd.symm.trans (hR p hp).rd
    rw [F.inBounds3] at hp
    obtain ⟨i, j, k, rfl, hp⟩ := hp
    rw [F.eqn3 (hc i j k (by omega) (by omega) (by omega) (by omega) (by omega) (by omega)), ← hop i j k (by omega) (by omega) (by omega) (by omega) (by omega) (by omega)]
    exact e
  have hD := F.dom3 he hc hq
  have hE1 : ∀ p, F.InBounds [(i0, i1), (j0, j1), (k0, k1)] p → |U p - X p| ≤ E * (fun _ => (1 : T)) p := fun p hp => by
    simpa using hE p hp
  have hr2 : F.Holds s2 (F.box3d r i0 j0 k0 i1 j1 k1) (F.rd m (F.box3d r i0 j0 k0 i1 j1 k1)) := F.Holds.only (fun is hi => (h2.ok (F.box3d r i0 j0 k0 i1 j1 k1) (by simp)).rd hi) ho (by simp only [List.mem_cons, List.not_mem_nil, or_false, forall_eq]; exact h2.apart _ (by simp) _ (by simp))
  obtain ⟨m', U', t, w1, w2, w3, w4⟩ := C59_jacobi_3d hp hr2 hru (F.apart_symm (h2.apart (F.st3d st i0 j0 k0 i1 j1 k1 sgcw) (by simp) (F.box3d r i0 j0 k0 i1 j1 k1) (by simp))) hrf rfl hD hX hUX hE1 l
  refine ⟨s1, s2, m', U', a1, a2, t, w1, (ho.mono (by simp)).trans (w2.mono fun _ ha => List.mem_cons_of_mem _ ha), w3, fun p hp => ?_⟩
  simpa using w4 p hp

example (l : Nat) : ∃ s1 s2 m' U', Cuda.offdiag3d 0 1 2 1 2 3 0 1 2 1 2 3 exDx 2 ⟨2, 0⟩ ⟨3, 0⟩ ⟨4, 0⟩ 1 ⟨9, 0⟩ revBackend (exSolve 3) = .ok s1 ∧ Cuda.v2diag3d 0 1 2 1 2 3 3 1 ⟨9, 0⟩ seqBackend s1 = .ok s2 ∧
      F.times (F.celljacobi3d 0 1 1 2 2 3 7 ⟨23, 0⟩ (0 - 1) (1 + 1) (1 - 1) (2 + 1) (2 - 1) (3 + 1) ⟨9, 0⟩ (0 - 2) (1 + 2) (1 - 2) (2 + 2) (2 - 2) (3 + 2) ⟨10, 0⟩ (0 - 2) (1 + 2) (1 - 2) (2 + 2) (2 - 2) (3 + 2) ⟨1, 0⟩ ⟨11, 0⟩) l s2 = .ok m' ∧
      F.Holds m' (F.cell3d ⟨1, 0⟩ 0 1 2 1 2 3 2) U' ∧ F.Only [(F.st3d ⟨9, 0⟩ 0 1 2 1 2 3 1), (F.cell3d ⟨1, 0⟩ 0 1 2 1 2 3 2), (F.box3d ⟨11, 0⟩ 0 1 2 1 2 3)] (exSolve 3) m' ∧
      (∀ p, ¬ F.InBounds [(0, 1), (1, 2), (2, 3)] p → U' p = exIns 3 0 p) ∧ ∀ p, F.InBounds [(0, 1), (1, 2), (2, 3)] p → |U' p - exIns 3 0 p| ≤ (1 - ((8 : Nat) / (10 : Nat) : Rat) + ((8 : Nat) / (10 : Nat) : Rat) * (9999 / 10000)) ^ l * 5 := by
  obtain ⟨m1, m2, c1, c2, hR⟩ := exRun_v2_3
  exact C62_jacobi_v2_3d (T := Rat) (q := 9999 / 10000) (fun _ => revBackend_ok) (fun _ => seqBackend_ok) revBackend_ok seqBackend_ok (by decide) (by decide) (by decide) (by decide) (by decide) (by decide) (by decide) exEll_v2_3 exRate_v2_3 (exDir_args (by ex_args)) (⟨apart_blk (by decide), apart_blk (by decide), apart_blk (by decide)⟩) ⟨apart_blk (by decide), apart_blk (by decide), apart_blk (by decide)⟩
    (exDir_rd (by decide) (exRat_ok rfl (by decide) (by decide))) (exDir_rd (by decide) (exRat_ok rfl (by decide) (by decide))) (exDir_rd (by decide) (exRat_ok rfl (by decide) (by decide))) exDir_u3 c1 c2 hR
    (exSolve_args (by ex_args)) (ex_apart (by decide)) (ex_apart (by decide)) (ex_apart (by decide)) (exSolve_rd (by decide) (exRat_ok rfl (by decide) (by decide))) (exSolve_rd (by decide) (exRat_ok rfl (by decide) (by decide))) (exSolve_rd (by decide) (exRat_ok rfl (by decide) (by decide))) exSolve_u3 (exSolve_f (exRat_ok rfl (by decide) (by decide)) rfl) exSolve_t3 exSolve_out3 exSolve_err3 l

/-- 3D, diffusion operator with constant reaction, Gauss-Seidel: if flux and apply kernel take `X` to `G`, then off-diagonal and diagonal kernel followed by `l` sweeps for the right
hand side `G` bring the unknowns to within `rate^l E` of `X`. -/
theorem C62_gs_v2_3d {i0 j0 k0 i1 j1 k1 gcw rgcw sgcw fgcw : Int} {alpha beta : T} {dx : Nat → T} {u b0 b1 b2 f0 f1 f2 res st rhs o : Ptr} {β1 β2 : Nat → Backend} {β3 β4 : Backend} {m mX m1 m2 : Mem T} {B0 B1 B2 G U X : List Int → T} {E q : T}
    (hβ1 : ∀ n, ValidBackend (β1 n)) (hβ2 : ∀ n, ValidBackend (β2 n)) (hβ3 : ValidBackend β3) (hβ4 : ValidBackend β4)
    (hi : i0 ≤ i1) (hj : j0 ≤ j1) (hk : k0 ≤ k1) (hg : 1 ≤ gcw) (hrgcw : 0 ≤ rgcw) (hs : 0 ≤ sgcw) (hfg : 0 ≤ fgcw) (he : F.Elliptic3 i0 j0 k0 i1 j1 k1 alpha beta dx (fun _ => 1) B0 B1 B2)
    (hq : ∀ i j k, i0 ≤ i → i ≤ i1 → j0 ≤ j → j ≤ j1 → k0 ≤ k → k ≤ k1 → (1 - q) * (beta / (dx 0 * dx 0) * (B0 [i, j, k] + B0 [i + 1, j, k]) + beta / (dx 1 * dx 1) * (B1 [j, k, i] + B1 [j + 1, k, i]) + beta / (dx 2 * dx 2) * (B2 [k, i, j] + B2 [k + 1, i, j]) + alpha * (fun _ => 1) [i, j, k]) ≤ alpha * (fun _ => 1) [i, j, k]) (h1 : q ≤ 1)
    (h : F.Args mX [(F.cell3d u i0 j0 k0 i1 j1 k1 gcw), (F.face3d0 b0 i0 j0 k0 i1 j1 k1 0), (F.face3d1 b1 i0 j0 k0 i1 j1 k1 0), (F.face3d2 b2 i0 j0 k0 i1 j1 k1 0)] [(F.face3d0 f0 i0 j0 k0 i1 j1 k1 0), (F.face3d1 f1 i0 j0 k0 i1 j1 k1 0), (F.face3d2 f2 i0 j0 k0 i1 j1 k1 0), (F.cell3d res i0 j0 k0 i1 j1 k1 rgcw)])
    (hp : F.Apart (F.face3d0 f0 i0 j0 k0 i1 j1 k1 0) (F.face3d1 f1 i0 j0 k0 i1 j1 k1 0) ∧ F.Apart (F.face3d0 f0 i0 j0 k0 i1 j1 k1 0) (F.face3d2 f2 i0 j0 k0 i1 j1 k1 0) ∧ F.Apart (F.face3d1 f1 i0 j0 k0 i1 j1 k1 0) (F.face3d2 f2 i0 j0 k0 i1 j1 k1 0))
    (hr : F.Apart (F.cell3d res i0 j0 k0 i1 j1 k1 rgcw) (F.face3d0 f0 i0 j0 k0 i1 j1 k1 0) ∧ F.Apart (F.cell3d res i0 j0 k0 i1 j1 k1 rgcw) (F.face3d1 f1 i0 j0 k0 i1 j1 k1 0) ∧ F.Apart (F.cell3d res i0 j0 k0 i1 j1 k1 rgcw) (F.face3d2 f2 i0 j0 k0 i1 j1 k1 0)) (hB0X : F.Holds mX (F.face3d0 b0 i0 j0 k0 i1 j1 k1 0) B0) (hB1X : F.Holds mX (F.face3d1 b1 i0 j0 k0 i1 j1 k1 0) B1) (hB2X : F.Holds mX (F.face3d2 b2 i0 j0 k0 i1 j1 k1 0) B2) (hXX : F.Holds mX (F.cell3d u i0 j0 k0 i1 j1 k1 gcw) X)
    (c1 : Cuda.flux3d i0 j0 k0 i1 j1 k1 dx b0 b1 b2 gcw u f0 f1 f2 β1 mX = .ok m1) (c2 : Cuda.diffusionV2Apply3d i0 i1 j0 j1 k0 k1 alpha beta dx gcw u f0 f1 f2 rgcw res β2 m1 = .ok m2)
    (hR : ∀ p, F.InBounds [(i0, i1), (j0, j1), (k0, k1)] p → F.El m2 (F.cell3d res i0 j0 k0 i1 j1 k1 rgcw) p (G p))
    (h2 : F.Args m [(F.face3d0 b0 i0 j0 k0 i1 j1 k1 0), (F.face3d1 b1 i0 j0 k0 i1 j1 k1 0), (F.face3d2 b2 i0 j0 k0 i1 j1 k1 0), (F.cell3d u i0 j0 k0 i1 j1 k1 gcw), (F.cell3d rhs i0 j0 k0 i1 j1 k1 fgcw)] [(F.st3d st i0 j0 k0 i1 j1 k1 sgcw)]) (huf : F.Apart (F.cell3d u i0 j0 k0 i1 j1 k1 gcw) (F.cell3d rhs i0 j0 k0 i1 j1 k1 fgcw))
    (hB0 : F.Holds m (F.face3d0 b0 i0 j0 k0 i1 j1 k1 0) B0) (hB1 : F.Holds m (F.face3d1 b1 i0 j0 k0 i1 j1 k1 0) B1) (hB2 : F.Holds m (F.face3d2 b2 i0 j0 k0 i1 j1 k1 0) B2) (hU : F.Holds m (F.cell3d u i0 j0 k0 i1 j1 k1 gcw) U) (hG : F.Holds m (F.cell3d rhs i0 j0 k0 i1 j1 k1 fgcw) G) (ht : F.Rows m (F.offset0 o 3 7) F.points3)
    (hUX : ∀ p, ¬ F.InBounds [(i0, i1), (j0, j1), (k0, k1)] p → U p = X p) (hE : ∀ p, F.InBounds [(i0, i1), (j0, j1), (k0, k1)] p → |U p - X p| ≤ E) (l : Nat) :
    ∃ s1 s2 m' U', Cuda.offdiag3d i0 j0 k0 i1 j1 k1 i0 j0 k0 i1 j1 k1 dx beta b0 b1 b2 sgcw st β3 m = .ok s1 ∧ Cuda.v2diag3d i0 j0 k0 i1 j1 k1 alpha sgcw st β4 s1 = .ok s2 ∧
      F.times (F.cellgs3d i0 i1 j0 j1 k0 k1 7 o (i0 - sgcw) (i1 + sgcw) (j0 - sgcw) (j1 + sgcw) (k0 - sgcw) (k1 + sgcw) st (i0 - fgcw) (i1 + fgcw) (j0 - fgcw) (j1 + fgcw) (k0 - fgcw) (k1 + fgcw) rhs (i0 - gcw) (i1 + gcw) (j0 - gcw) (j1 + gcw) (k0 - gcw) (k1 + gcw) u) l s2 = .ok m' ∧
      F.Holds m' (F.cell3d u i0 j0 k0 i1 j1 k1 gcw) U' ∧ F.Only [(F.st3d st i0 j0 k0 i1 j1 k1 sgcw), (F.cell3d u i0 j0 k0 i1 j1 k1 gcw)] m m' ∧
      (∀ p, ¬ F.InBounds [(i0, i1), (j0, j1), (k0, k1)] p → U' p = X p) ∧ ∀ p, F.InBounds [(i0, i1), (j0, j1), (k0, k1)] p → |U' p - X p| ≤ q ^ l * E := by
  obtain ⟨m1', m2', R, d1, d2, ER, hop⟩ := energy_v2_3 (alpha := alpha) (beta := beta) (dx := dx) hβ1 hβ2 hi hj hk hg hrgcw h hp hr hB0X hB1X hB2X hXX
  obtain rfl : m1 = m1' := Except.ok.inj (c1.symm.trans d1)
  obtain rfl : m2 = m2' := Except.ok.inj (c2.symm.trans d2)
  obtain ⟨s1, s2, S, a1, a2, ho, hp, hc⟩ := prob_v2_3 (alpha := alpha) (beta := beta) (dx := dx) (o := o) hβ3 hβ4 hi hj hk hs hg hfg (h2.sub (by intro x hx; simp only [List.mem_cons, List.not_mem_nil, or_false] at hx ⊢; tauto) (fun _ e => e)) huf hB0 hB1 hB2 hU hG ht
  have hX : ∀ p, F.InBounds [(i0, i1), (j0, j1), (k0, k1)] p → F.Eqn 7 (F.row F.points3) S G X p := fun p hp => by
    have e := (ER p hp).rd.symm.trans (hR p hp).rd
    rw [F.inBounds3] at hp
    obtain ⟨i, j, k, rfl, hp⟩ := hp
    rw [F.eqn3 (hc i j k (by omega) (by omega) (by omega) (by omega) (by omega) (by omega)), ← hop i j k (by omega) (by omega) (by omega) (by omega) (by omega) (by omega)]
    exact e
  have hD := F.dom3 he hc hq
  have hE1 : ∀ p, F.InBounds [(i0, i1), (j0, j1), (k0, k1)] p → |U p - X p| ≤ E * (fun _ => (1 : T)) p := fun p hp => by
    simpa using hE p hp
  obtain ⟨m', U', t, w1, w2, w3, w4⟩ := C59_gs_3d hp rfl hD h1 hX hUX hE1 l
  refine ⟨s1, s2, m', U', a1, a2, t, w1, (ho.mono (by simp)).trans (w2.mono fun _ ha => List.mem_cons_of_mem _ ha), w3, fun p hp => ?_⟩
  simpa using w4 p hp

example (l : Nat) : ∃ s1 s2 m' U', Cuda.offdiag3d 0 1 2 1 2 3 0 1 2 1 2 3 exDx 2 ⟨2, 0⟩ ⟨3, 0⟩ ⟨4, 0⟩ 1 ⟨9, 0⟩ revBackend (exSolve 3) = .ok s1 ∧ Cuda.v2diag3d 0 1 2 1 2 3 3 1 ⟨9, 0⟩ seqBackend s1 = .ok s2 ∧
      F.times (F.cellgs3d 0 1 1 2 2 3 7 ⟨23, 0⟩ (0 - 1) (1 + 1) (1 - 1) (2 + 1) (2 - 1) (3 + 1) ⟨9, 0⟩ (0 - 2) (1 + 2) (1 - 2) (2 + 2) (2 - 2) (3 + 2) ⟨10, 0⟩ (0 - 2) (1 + 2) (1 - 2) (2 + 2) (2 - 2) (3 + 2) ⟨1, 0⟩) l s2 = .ok m' ∧
      F.Holds m' (F.cell3d ⟨1, 0⟩ 0 1 2 1 2 3 2) U' ∧ F.Only [(F.st3d ⟨9, 0⟩ 0 1 2 1 2 3 1), (F.cell3d ⟨1, 0⟩ 0 1 2 1 2 3 2)] (exSolve 3) m' ∧
      (∀ p, ¬ F.InBounds [(0, 1), (1, 2), (2, 3)] p → U' p = exIns 3 0 p) ∧ ∀ p, F.InBounds [(0, 1), (1, 2), (2, 3)] p → |U' p - exIns 3 0 p| ≤ (9999 / 10000) ^ l * 5 := by
  obtain ⟨m1, m2, c1, c2, hR⟩ := exRun_v2_3
  exact C62_gs_v2_3d (T := Rat) (q := 9999 / 10000) (fun _ => revBackend_ok) (fun _ => seqBackend_ok) revBackend_ok seqBackend_ok (by decide) (by decide) (by decide) (by decide) (by decide) (by decide) (by decide) exEll_v2_3 exRate_v2_3 (by norm_num) (exDir_args (by ex_args)) (⟨apart_blk (by decide), apart_blk (by decide), apart_blk (by decide)⟩) ⟨apart_blk (by decide), apart_blk (by decide), apart_blk (by decide)⟩
    (exDir_rd (by decide) (exRat_ok rfl (by decide) (by decide))) (exDir_rd (by decide) (exRat_ok rfl (by decide) (by decide))) (exDir_rd (by decide) (exRat_ok rfl (by decide) (by decide))) exDir_u3 c1 c2 hR
    (exSolve_args (by ex_args)) (ex_apart (by decide)) (exSolve_rd (by decide) (exRat_ok rfl (by decide) (by decide))) (exSolve_rd (by decide) (exRat_ok rfl (by decide) (by decide))) (exSolve_rd (by decide) (exRat_ok rfl (by decide) (by decide))) exSolve_u3 (exSolve_f (exRat_ok rfl (by decide) (by decide)) rfl) exSolve_t3 exSolve_out3 exSolve_err3 l

/-- 3D, diffusion operator with constant reaction, red-black Gauss-Seidel: if flux and apply kernel take `X` to `G`, then off-diagonal and diagonal kernel followed by `l` pairs of sweeps for the right
hand side `G` bring the unknowns to within `rate^l E` of `X`. -/
theorem C62_rbgs_v2_3d {i0 j0 k0 i1 j1 k1 gcw rgcw sgcw fgcw color color2 : Int} {alpha beta : T} {dx : Nat → T} {u b0 b1 b2 f0 f1 f2 res st rhs o : Ptr} {β1 β2 : Nat → Backend} {β3 β4 : Backend} {m mX m1 m2 : Mem T} {B0 B1 B2 G U X : List Int → T} {E q : T}
    (hβ1 : ∀ n, ValidBackend (β1 n)) (hβ2 : ∀ n, ValidBackend (β2 n)) (hβ3 : ValidBackend β3) (hβ4 : ValidBackend β4)
    (hi : i0 ≤ i1) (hj : j0 ≤ j1) (hk : k0 ≤ k1) (hg : 1 ≤ gcw) (hrgcw : 0 ≤ rgcw) (hs : 0 ≤ sgcw) (hfg : 0 ≤ fgcw) (hc' : 0 ≤ color) (hc2 : 0 ≤ color2) (hcc : (color2 - color) % 2 = 1) (he : F.Elliptic3 i0 j0 k0 i1 j1 k1 alpha beta dx (fun _ => 1) B0 B1 B2)
    (hq : ∀ i j k, i0 ≤ i → i ≤ i1 → j0 ≤ j → j ≤ j1 → k0 ≤ k → k ≤ k1 → (1 - q) * (beta / (dx 0 * dx 0) * (B0 [i, j, k] + B0 [i + 1, j, k]) + beta / (dx 1 * dx 1) * (B1 [j, k, i] + B1 [j + 1, k, i]) + beta / (dx 2 * dx 2) * (B2 [k, i, j] + B2 [k + 1, i, j]) + alpha * (fun _ => 1) [i, j, k]) ≤ alpha * (fun _ => 1) [i, j, k]) (h1 : q ≤ 1)
    (h : F.Args mX [(F.cell3d u i0 j0 k0 i1 j1 k1 gcw), (F.face3d0 b0 i0 j0 k0 i1 j1 k1 0), (F.face3d1 b1 i0 j0 k0 i1 j1 k1 0), (F.face3d2 b2 i0 j0 k0 i1 j1 k1 0)] [(F.face3d0 f0 i0 j0 k0 i1 j1 k1 0), (F.face3d1 f1 i0 j0 k0 i1 j1 k1 0), (F.face3d2 f2 i0 j0 k0 i1 j1 k1 0), (F.cell3d res i0 j0 k0 i1 j1 k1 rgcw)])
    (hp : F.Apart (F.face3d0 f0 i0 j0 k0 i1 j1 k1 0) (F.face3d1 f1 i0 j0 k0 i1 j1 k1 0) ∧ F.Apart (F.face3d0 f0 i0 j0 k0 i1 j1 k1 0) (F.face3d2 f2 i0 j0 k0 i1 j1 k1 0) ∧ F.Apart (F.face3d1 f1 i0 j0 k0 i1 j1 k1 0) (F.face3d2 f2 i0 j0 k0 i1 j1 k1 0))
    (hr : F.Apart (F.cell3d res i0 j0 k0 i1 j1 k1 rgcw) (F.face3d0 f0 i0 j0 k0 i1 j1 k1 0) ∧ F.Apart (F.cell3d res i0 j0 k0 i1 j1 k1 rgcw) (F.face3d1 f1 i0 j0 k0 i1 j1 k1 0) ∧ F.Apart (F.cell3d res i0 j0 k0 i1 j1 k1 rgcw) (F.face3d2 f2 i0 j0 k0 i1 j1 k1 0)) (hB0X : F.Holds mX (F.face3d0 b0 i0 j0 k0 i1 j1 k1 0) B0) (hB1X : F.Holds mX (F.face3d1 b1 i0 j0 k0 i1 j1 k1 0) B1) (hB2X : F.Holds mX (F.face3d2 b2 i0 j0 k0 i1 j1 k1 0) B2) (hXX : F.Holds mX (F.cell3d u i0 j0 k0 i1 j1 k1 gcw) X)
    (c1 : Cuda.flux3d i0 j0 k0 i1 j1 k1 dx b0 b1 b2 gcw u f0 f1 f2 β1 mX = .ok m1) (c2 : Cuda.diffusionV2Apply3d i0 i1 j0 j1 k0 k1 alpha beta dx gcw u f0 f1 f2 rgcw res β2 m1 = .ok m2)
    (hR : ∀ p, F.InBounds [(i0, i1), (j0, j1), (k0, k1)] p → F.El m2 (F.cell3d res i0 j0 k0 i1 j1 k1 rgcw) p (G p))
    (h2 : F.Args m [(F.face3d0 b0 i0 j0 k0 i1 j1 k1 0), (F.face3d1 b1 i0 j0 k0 i1 j1 k1 0), (F.face3d2 b2 i0 j0 k0 i1 j1 k1 0), (F.cell3d u i0 j0 k0 i1 j1 k1 gcw), (F.cell3d rhs i0 j0 k0 i1 j1 k1 fgcw)] [(F.st3d st i0 j0 k0 i1 j1 k1 sgcw)]) (huf : F.Apart (F.cell3d u i0 j0 k0 i1 j1 k1 gcw) (F.cell3d rhs i0 j0 k0 i1 j1 k1 fgcw))
    (hB0 : F.Holds m (F.face3d0 b0 i0 j0 k0 i1 j1 k1 0) B0) (hB1 : F.Holds m (F.face3d1 b1 i0 j0 k0 i1 j1 k1 0) B1) (hB2 : F.Holds m (F.face3d2 b2 i0 j0 k0 i1 j1 k1 0) B2) (hU : F.Holds m (F.cell3d u i0 j0 k0 i1 j1 k1 gcw) U) (hG : F.Holds m (F.cell3d rhs i0 j0 k0 i1 j1 k1 fgcw) G) (ht : F.Rows m (F.offset0 o 3 7) F.points3)
    (hUX : ∀ p, ¬ F.InBounds [(i0, i1), (j0, j1), (k0, k1)] p → U p = X p) (hE : ∀ p, F.InBounds [(i0, i1), (j0, j1), (k0, k1)] p → |U p - X p| ≤ E) (l : Nat) :
    ∃ s1 s2 m' U', Cuda.offdiag3d i0 j0 k0 i1 j1 k1 i0 j0 k0 i1 j1 k1 dx beta b0 b1 b2 sgcw st β3 m = .ok s1 ∧ Cuda.v2diag3d i0 j0 k0 i1 j1 k1 alpha sgcw st β4 s1 = .ok s2 ∧
      F.times (fun m => F.cellrbgs3d i0 i1 j0 j1 k0 k1 color 7 o (i0 - sgcw) (i1 + sgcw) (j0 - sgcw) (j1 + sgcw) (k0 - sgcw) (k1 + sgcw) st (i0 - fgcw) (i1 + fgcw) (j0 - fgcw) (j1 + fgcw) (k0 - fgcw) (k1 + fgcw) rhs (i0 - gcw) (i1 + gcw) (j0 - gcw) (j1 + gcw) (k0 - gcw) (k1 + gcw) u m >>=
        F.cellrbgs3d i0 i1 j0 j1 k0 k1 color2 7 o (i0 - sgcw) (i1 + sgcw) (j0 - sgcw) (j1 + sgcw) (k0 - sgcw) (k1 + sgcw) st (i0 - fgcw) (i1 + fgcw) (j0 - fgcw) (j1 + fgcw) (k0 - fgcw) (k1 + fgcw) rhs (i0 - gcw) (i1 + gcw) (j0 - gcw) (j1 + gcw) (k0 - gcw) (k1 + gcw) u) l s2 = .ok m' ∧
      F.Holds m' (F.cell3d u i0 j0 k0 i1 j1 k1 gcw) U' ∧ F.Only [(F.st3d st i0 j0 k0 i1 j1 k1 sgcw), (F.cell3d u i0 j0 k0 i1 j1 k1 gcw)] m m' ∧
      (∀ p, ¬ F.InBounds [(i0, i1), (j0, j1), (k0, k1)] p → U' p = X p) ∧ ∀ p, F.InBounds [(i0, i1), (j0, j1), (k0, k1)] p → |U' p - X p| ≤ q ^ l * E := by
  obtain ⟨m1', m2', R, d1, d2, ER, hop⟩ := energy_v2_3 (alpha := alpha) (beta := beta) (dx := dx) hβ1 hβ2 hi hj hk hg hrgcw h hp hr hB0X hB1X hB2X hXX
  obtain rfl : m1 = m1' := Except.ok.inj (c1.symm.trans d1)
  obtain rfl : m2 = m2' := Except.ok.inj (c2.symm.trans d2)
  obtain ⟨s1, s2, S, a1, a2, ho, hp, hc⟩ := prob_v2_3 (alpha := alpha) (beta := beta) (dx := dx) (o := o) hβ3 hβ4 hi hj hk hs hg hfg (h2.sub (by intro x hx; simp only [List.mem_cons, List.not_mem_nil, or_false] at hx ⊢; tauto) (fun _ e => e)) huf hB0 hB1 hB2 hU hG ht
  have hX : ∀ p, F.InBounds [(i0, i1), (j0, j1), (k0, k1)] p → F.Eqn 7 (F.row F.points3) S G X p := fun p hp => by
    have e := (ER p hp).rd.symm.trans (hR p hp).rd
    rw [F.inBounds3] at hp
    obtain ⟨i, j, k, rfl, hp⟩ := hp
    rw [F.eqn3 (hc i j k (by omega) (by omega) (by omega) (by omega) (by omega) (by omega)), ← hop i j k (by omega) (by omega) (by omega) (by omega) (by omega) (by omega)]
    exact e
  have hD := F.dom3 he hc hq
  have hE1 : ∀ p, F.InBounds [(i0, i1), (j0, j1), (k0, k1)] p → |U p - X p| ≤ E * (fun _ => (1 : T)) p := fun p hp => by
    simpa using hE p hp
  obtain ⟨m', U', t, w1, w2, w3, w4⟩ := C59_rbgs_3d hc' hc2 hcc hp rfl hD h1 hX hUX hE1 l
  refine ⟨s1, s2, m', U', a1, a2, t, w1, (ho.mono (by simp)).trans (w2.mono fun _ ha => List.mem_cons_of_mem _ ha), w3, fun p hp => ?_⟩
  simpa using w4 p hp

example (l : Nat) : ∃ s1 s2 m' U', Cuda.offdiag3d 0 1 2 1 2 3 0 1 2 1 2 3 exDx 2 ⟨2, 0⟩ ⟨3, 0⟩ ⟨4, 0⟩ 1 ⟨9, 0⟩ revBackend (exSolve 3) = .ok s1 ∧ Cuda.v2diag3d 0 1 2 1 2 3 3 1 ⟨9, 0⟩ seqBackend s1 = .ok s2 ∧
      F.times (fun μ => F.cellrbgs3d 0 1 1 2 2 3 0 7 ⟨23, 0⟩ (0 - 1) (1 + 1) (1 - 1) (2 + 1) (2 - 1) (3 + 1) ⟨9, 0⟩ (0 - 2) (1 + 2) (1 - 2) (2 + 2) (2 - 2) (3 + 2) ⟨10, 0⟩ (0 - 2) (1 + 2) (1 - 2) (2 + 2) (2 - 2) (3 + 2) ⟨1, 0⟩ μ >>=
        F.cellrbgs3d 0 1 1 2 2 3 1 7 ⟨23, 0⟩ (0 - 1) (1 + 1) (1 - 1) (2 + 1) (2 - 1) (3 + 1) ⟨9, 0⟩ (0 - 2) (1 + 2) (1 - 2) (2 + 2) (2 - 2) (3 + 2) ⟨10, 0⟩ (0 - 2) (1 + 2) (1 - 2) (2 + 2) (2 - 2) (3 + 2) ⟨1, 0⟩) l s2 = .ok m' ∧
      F.Holds m' (F.cell3d ⟨1, 0⟩ 0 1 2 1 2 3 2) U' ∧ F.Only [(F.st3d ⟨9, 0⟩ 0 1 2 1 2 3 1), (F.cell3d ⟨1, 0⟩ 0 1 2 1 2 3 2)] (exSolve 3) m' ∧
      (∀ p, ¬ F.InBounds [(0, 1), (1, 2), (2, 3)] p → U' p = exIns 3 0 p) ∧ ∀ p, F.InBounds [(0, 1), (1, 2), (2, 3)] p → |U' p - exIns 3 0 p| ≤ (9999 / 10000) ^ l * 5 := by
  obtain ⟨m1, m2, c1, c2, hR⟩ := exRun_v2_3
  exact C62_rbgs_v2_3d (T := Rat) (q := 9999 / 10000) (fun _ => revBackend_ok) (fun _ => seqBackend_ok) revBackend_ok seqBackend_ok (by decide) (by decide) (by decide) (by decide) (by decide) (by decide) (by decide) (by decide) (by decide) (by decide) exEll_v2_3 exRate_v2_3 (by norm_num) (exDir_args (by ex_args)) (⟨apart_blk (by decide), apart_blk (by decide), apart_blk (by decide)⟩) ⟨apart_blk (by decide), apart_blk (by decide), apart_blk (by decide)⟩
    (exDir_rd (by decide) (exRat_ok rfl (by decide) (by decide))) (exDir_rd (by decide) (exRat_ok rfl (by decide) (by decide))) (exDir_rd (by decide) (exRat_ok rfl (by decide) (by decide))) exDir_u3 c1 c2 hR
    (exSolve_args (by ex_args)) (ex_apart (by decide)) (exSolve_rd (by decide) (exRat_ok rfl (by decide) (by decide))) (exSolve_rd (by decide) (exRat_ok rfl (by decide) (by decide))) (exSolve_rd (by decide) (exRat_ok rfl (by decide) (by decide))) exSolve_u3 (exSolve_f (exRat_ok rfl (by decide) (by decide)) rfl) exSolve_t3 exSolve_out3 exSolve_err3 l

/-- 1D, Poisson operator, damped Jacobi: if flux and apply kernel take `X` to `G`, then off-diagonal and diagonal kernel followed by `l` sweeps for the right
hand side `G` bring the unknowns to within `rate^l (K / 4) E` of `X`, `K` the sum of the squares of the number of cells plus one along each axis. -/
theorem C63_jacobi_1d {i0 i1 gcw rgcw sgcw fgcw : Int} {beta : T} {dx : Nat → T} {u f0 res st rhs o r : Ptr} {β1 β2 : Nat → Backend} {β3 β4 : Backend} {m mX m1 m2 : Mem T} {G U X : List Int → T} {E : T}
    (hβ1 : ∀ n, ValidBackend (β1 n)) (hβ2 : ∀ n, ValidBackend (β2 n)) (hβ3 : ValidBackend β3) (hβ4 : ValidBackend β4)
    (hi : i0 ≤ i1) (hg : 1 ≤ gcw) (hrgcw : 0 ≤ rgcw) (hs : 0 ≤ sgcw) (hfg : 0 ≤ fgcw) (he : F.Elliptic1 i0 i1 0 beta dx (fun _ => 1) (fun _ => 1))
    (h : F.Args mX [(F.cell1d u i0 i1 gcw)] [(F.face1d f0 i0 i1 0), (F.cell1d res i0 i1 rgcw)])
    (hr : F.Apart (F.cell1d res i0 i1 rgcw) (F.face1d f0 i0 i1 0)) (hXX : F.Holds mX (F.cell1d u i0 i1 gcw) X)
    (c1 : Cuda.poissonFlux1d i0 i1 dx gcw u f0 β1 mX = .ok m1) (c2 : Cuda.poissonV2Apply1d i0 i1 beta dx f0 rgcw res β2 m1 = .ok m2)
    (hR : ∀ p, F.InBounds [(i0, i1)] p → F.El m2 (F.cell1d res i0 i1 rgcw) p (G p))
    (h2 : F.Args m [(F.cell1d u i0 i1 gcw), (F.cell1d rhs i0 i1 fgcw), (F.box1d r i0 i1)] [(F.st1d st i0 i1 sgcw)]) (huf : F.Apart (F.cell1d u i0 i1 gcw) (F.cell1d rhs i0 i1 fgcw)) (hru : F.Apart (F.box1d r i0 i1) (F.cell1d u i0 i1 gcw)) (hrf : F.Apart (F.box1d r i0 i1) (F.cell1d rhs i0 i1 fgcw))
     (hU : F.Holds m (F.cell1d u i0 i1 gcw) U) (hG : F.Holds m (F.cell1d rhs i0 i1 fgcw) G) (ht : F.Rows m (F.offset0 o 1 3) F.points1)
    (hUX : ∀ p, ¬ F.InBounds [(i0, i1)] p → U p = X p) (hE : ∀ p, F.InBounds [(i0, i1)] p → |U p - X p| ≤ E) (l : Nat) :
    ∃ s1 s2 m' U', Cuda.poissonOffdiag1d i0 i1 dx beta sgcw st β3 m = .ok s1 ∧ Cuda.poissonDiag1d i0 i1 sgcw st β4 s1 = .ok s2 ∧
      F.times (F.celljacobi1d i0 i1 3 o (i0 - sgcw) (i1 + sgcw) st (i0 - fgcw) (i1 + fgcw) rhs (i0 - gcw) (i1 + gcw) u r) l s2 = .ok m' ∧
      F.Holds m' (F.cell1d u i0 i1 gcw) U' ∧ F.Only [(F.st1d st i0 i1 sgcw), (F.cell1d u i0 i1 gcw), (F.box1d r i0 i1)] m m' ∧
      (∀ p, ¬ F.InBounds [(i0, i1)] p → U' p = X p) ∧ ∀ p, F.InBounds [(i0, i1)] p → |U' p - X p| ≤ (1 - ((2 : Nat) / (3 : Nat) : T) + ((2 : Nat) / (3 : Nat) : T) * (1 - 4 / (((i1 - i0 + 2) * (i1 - i0 + 2) : Int) : T))) ^ l * ((((i1 - i0 + 2) * (i1 - i0 + 2) : Int) : T) / 4 * E) := by
  obtain ⟨m1', m2', R, d1, d2, ER, hop⟩ := energy_p_1 (beta := beta) (dx := dx) hβ1 hβ2 hi hg hrgcw h hr hXX
  obtain rfl : m1 = m1' := Except.ok.inj (c1.symm.trans d1)
  obtain rfl : m2 = m2' := Except.ok.inj (c2.symm.trans d2)
  obtain ⟨s1, s2, S, a1, a2, ho, hp, hc⟩ := prob_p_1 (beta := beta) (dx := dx) (o := o) hβ3 hβ4 hi hs hg hfg (h2.sub (by intro x hx; simp only [List.mem_cons, List.not_mem_nil, or_false] at hx ⊢; tauto) (fun _ e => e)) huf  hU hG ht
  have hX : ∀ p, F.InBounds [(i0, i1)] p → F.Eqn 3 (F.row F.points1) S G X p := fun p hp => by
    have e := (ER p hp).rd.symm.trans (hR p hp).rd
    rw [F.inBounds1] at hp
    obtain ⟨i, rfl, hp⟩ := hp
    rw [F.eqn1 (hc i (by omega) (by omega)), ← hop i (by omega) (by omega)]
    exact e
  have hD := F.domp1 he hc hi
  have hE0 : 0 ≤ E := (abs_nonneg _).trans (hE [i0] (F.inBounds1.2 ⟨i0, rfl, by omega⟩))
  have hE1 : ∀ p, F.InBounds [(i0, i1)] p → |U p - X p| ≤ E * (fun p => (F.hill1 i0 i1 p : T)) p := fun p hp => by
    refine (hE p hp).trans (le_mul_of_one_le_right hE0 ?_)
    rw [F.inBounds1] at hp
    obtain ⟨i, rfl, hp⟩ := hp
    have := F.hill1_ge (i0 := i0) (i1 := i1) (i := i) (by omega) (by omega)
    show (1 : T) ≤ (F.hill1 i0 i1 [i] : T)
    exact_mod_cast this
  have hK : (4 : Int) ≤ (i1 - i0 + 2) * (i1 - i0 + 2) := by
    have kk0 : 2 * 2 ≤ (i1 - i0 + 2) * (i1 - i0 + 2) := mul_le_mul (by omega) (by omega) (by decide) (by omega)
    omega
  have hK : (4 : T) ≤ (((i1 - i0 + 2) * (i1 - i0 + 2) : Int) : T) := by exact_mod_cast hK
  have hq0 : 0 ≤ 1 - 4 / (((i1 - i0 + 2) * (i1 - i0 + 2) : Int) : T) := sub_nonneg.2 ((div_le_one (by linarith)).2 hK)
  have h1 : 1 - 4 / (((i1 - i0 + 2) * (i1 - i0 + 2) : Int) : T) ≤ 1 := sub_le_self _ (div_nonneg (by norm_num) (by linarith))
  have hr2 : F.Holds s2 (F.box1d r i0 i1) (F.rd m (F.box1d r i0 i1)) := F.Holds.only (fun is hi => (h2.ok (F.box1d r i0 i1) (by simp)).rd hi) ho (by simp only [List.mem_cons, List.not_mem_nil, or_false, forall_eq]; exact h2.apart _ (by simp) _ (by simp))
  obtain ⟨m', U', t, w1, w2, w3, w4⟩ := C59_jacobi_1d hp hr2 hru (F.apart_symm (h2.apart (F.st1d st i0 i1 sgcw) (by simp) (F.box1d r i0 i1) (by simp))) hrf rfl hD hX hUX hE1 l
  refine ⟨s1, s2, m', U', a1, a2, t, w1, (ho.mono (by simp)).trans (w2.mono fun _ ha => List.mem_cons_of_mem _ ha), w3, fun p hp => ?_⟩
  refine (w4 p hp).trans ?_
  rw [F.inBounds1] at hp
  obtain ⟨i, rfl, hp⟩ := hp
  have := F.hill1_le (i0 := i0) (i1 := i1) (i := i) (by omega) (by omega)
  have : 4 * (F.hill1 i0 i1 [i] : T) ≤ (((i1 - i0 + 2) * (i1 - i0 + 2) : Int) : T) := by exact_mod_cast this
  rw [mul_assoc]
  refine mul_le_mul_of_nonneg_left ?_ (pow_nonneg ?_ l)
  · have := mul_le_mul_of_nonneg_left this hE0
    linarith
  · refine add_nonneg (by norm_num) (mul_nonneg (by positivity) hq0)

example (l : Nat) : ∃ s1 s2 m' U', Cuda.poissonOffdiag1d 0 3 exDx 2 1 ⟨9, 0⟩ revBackend (exSolve 1) = .ok s1 ∧ Cuda.poissonDiag1d 0 3 1 ⟨9, 0⟩ seqBackend s1 = .ok s2 ∧
      F.times (F.celljacobi1d 0 3 3 ⟨21, 0⟩ (0 - 1) (3 + 1) ⟨9, 0⟩ (0 - 2) (3 + 2) ⟨10, 0⟩ (0 - 2) (3 + 2) ⟨1, 0⟩ ⟨11, 0⟩) l s2 = .ok m' ∧
      F.Holds m' (F.cell1d ⟨1, 0⟩ 0 3 2) U' ∧ F.Only [(F.st1d ⟨9, 0⟩ 0 3 1), (F.cell1d ⟨1, 0⟩ 0 3 2), (F.box1d ⟨11, 0⟩ 0 3)] (exSolve 1) m' ∧
      (∀ p, ¬ F.InBounds [(0, 3)] p → U' p = exIns 1 0 p) ∧ ∀ p, F.InBounds [(0, 3)] p → |U' p - exIns 1 0 p| ≤ (1 - ((2 : Nat) / (3 : Nat) : Rat) + ((2 : Nat) / (3 : Nat) : Rat) * (1 - 4 / (((3 - 0 + 2) * (3 - 0 + 2) : Int) : Rat))) ^ l * ((((3 - 0 + 2) * (3 - 0 + 2) : Int) : Rat) / 4 * 5) := by
  obtain ⟨m1, m2, c1, c2, hR⟩ := exRun_p_1
  exact C63_jacobi_1d (T := Rat) (fun _ => revBackend_ok) (fun _ => seqBackend_ok) revBackend_ok seqBackend_ok (by decide) (by decide) (by decide) (by decide) (by decide) exEll_p_1 (exDir_args (by ex_args)) (apart_blk (by decide))
     exDir_u1 c1 c2 hR
    (exSolve_args (by ex_args)) (ex_apart (by decide)) (ex_apart (by decide)) (ex_apart (by decide))  exSolve_u1 (exSolve_f (exRat_ok rfl (by decide) (by decide)) rfl) exSolve_t1 exSolve_out1 exSolve_err1 l

/-- 1D, Poisson operator, Gauss-Seidel: if flux and apply kernel take `X` to `G`, then off-diagonal and diagonal kernel followed by `l` sweeps for the right
hand side `G` bring the unknowns to within `rate^l (K / 4) E` of `X`, `K` the sum of the squares of the number of cells plus one along each axis. (Partial: equal ghost widths of right hand side and unknowns, see
`C51_gs_1d_false`.) -/
theorem C63_gs_1d_partial {i0 i1 gcw rgcw sgcw fgcw : Int} {beta : T} {dx : Nat → T} {u f0 res st rhs o : Ptr} {β1 β2 : Nat → Backend} {β3 β4 : Backend} {m mX m1 m2 : Mem T} {G U X : List Int → T} {E : T}
    (hβ1 : ∀ n, ValidBackend (β1 n)) (hβ2 : ∀ n, ValidBackend (β2 n)) (hβ3 : ValidBackend β3) (hβ4 : ValidBackend β4)
    (hi : i0 ≤ i1) (hg : 1 ≤ gcw) (hrgcw : 0 ≤ rgcw) (hs : 0 ≤ sgcw) (hfg : 0 ≤ fgcw) (hf : fgcw = gcw) (he : F.Elliptic1 i0 i1 0 beta dx (fun _ => 1) (fun _ => 1))
    (h : F.Args mX [(F.cell1d u i0 i1 gcw)] [(F.face1d f0 i0 i1 0), (F.cell1d res i0 i1 rgcw)])
    (hr : F.Apart (F.cell1d res i0 i1 rgcw) (F.face1d f0 i0 i1 0)) (hXX : F.Holds mX (F.cell1d u i0 i1 gcw) X)
    (c1 : Cuda.poissonFlux1d i0 i1 dx gcw u f0 β1 mX = .ok m1) (c2 : Cuda.poissonV2Apply1d i0 i1 beta dx f0 rgcw res β2 m1 = .ok m2)
    (hR : ∀ p, F.InBounds [(i0, i1)] p → F.El m2 (F.cell1d res i0 i1 rgcw) p (G p))
    (h2 : F.Args m [(F.cell1d u i0 i1 gcw), (F.cell1d rhs i0 i1 fgcw)] [(F.st1d st i0 i1 sgcw)]) (huf : F.Apart (F.cell1d u i0 i1 gcw) (F.cell1d rhs i0 i1 fgcw))
     (hU : F.Holds m (F.cell1d u i0 i1 gcw) U) (hG : F.Holds m (F.cell1d rhs i0 i1 fgcw) G) (ht : F.Rows m (F.offset0 o 1 3) F.points1)
    (hUX : ∀ p, ¬ F.InBounds [(i0, i1)] p → U p = X p) (hE : ∀ p, F.InBounds [(i0, i1)] p → |U p - X p| ≤ E) (l : Nat) :
    ∃ s1 s2 m' U', Cuda.poissonOffdiag1d i0 i1 dx beta sgcw st β3 m = .ok s1 ∧ Cuda.poissonDiag1d i0 i1 sgcw st β4 s1 = .ok s2 ∧
      F.times (F.cellgs1d i0 i1 3 o (i0 - sgcw) (i1 + sgcw) st (i0 - fgcw) (i1 + fgcw) rhs (i0 - gcw) (i1 + gcw) u) l s2 = .ok m' ∧
      F.Holds m' (F.cell1d u i0 i1 gcw) U' ∧ F.Only [(F.st1d st i0 i1 sgcw), (F.cell1d u i0 i1 gcw)] m m' ∧
      (∀ p, ¬ F.InBounds [(i0, i1)] p → U' p = X p) ∧ ∀ p, F.InBounds [(i0, i1)] p → |U' p - X p| ≤ (1 - 4 / (((i1 - i0 + 2) * (i1 - i0 + 2) : Int) : T)) ^ l * ((((i1 - i0 + 2) * (i1 - i0 + 2) : Int) : T) / 4 * E) := by
  obtain ⟨m1', m2', R, d1, d2, ER, hop⟩ := energy_p_1 (beta := beta) (dx := dx) hβ1 hβ2 hi hg hrgcw h hr hXX
  obtain rfl : m1 = m1' := Except.ok.inj (c1.symm.trans d1)
  obtain rfl : m2 = m2' := Except.ok.inj (c2.symm.trans d2)
  obtain ⟨s1, s2, S, a1, a2, ho, hp, hc⟩ := prob_p_1 (beta := beta) (dx := dx) (o := o) hβ3 hβ4 hi hs hg hfg (h2.sub (by intro x hx; simp only [List.mem_cons, List.not_mem_nil, or_false] at hx ⊢; tauto) (fun _ e => e)) huf  hU hG ht
  have hX : ∀ p, F.InBounds [(i0, i1)] p → F.Eqn 3 (F.row F.points1) S G X p := fun p hp => by
    have e := (ER p hp).rd.symm.trans (hR p hp).rd
    rw [F.inBounds1] at hp
    obtain ⟨i, rfl, hp⟩ := hp
    rw [F.eqn1 (hc i (by omega) (by omega)), ← hop i (by omega) (by omega)]
    exact e
  have hD := F.domp1 he hc hi
  have hE0 : 0 ≤ E := (abs_nonneg _).trans (hE [i0] (F.inBounds1.2 ⟨i0, rfl, by omega⟩))
  have hE1 : ∀ p, F.InBounds [(i0, i1)] p → |U p - X p| ≤ E * (fun p => (F.hill1 i0 i1 p : T)) p := fun p hp => by
    refine (hE p hp).trans (le_mul_of_one_le_right hE0 ?_)
    rw [F.inBounds1] at hp
    obtain ⟨i, rfl, hp⟩ := hp
    have := F.hill1_ge (i0 := i0) (i1 := i1) (i := i) (by omega) (by omega)
    show (1 : T) ≤ (F.hill1 i0 i1 [i] : T)
    exact_mod_cast this
  have hK : (4 : Int) ≤ (i1 - i0 + 2) * (i1 - i0 + 2) := by
    have kk0 : 2 * 2 ≤ (i1 - i0 + 2) * (i1 - i0 + 2) := mul_le_mul (by omega) (by omega) (by decide) (by omega)
    omega
  have hK : (4 : T) ≤ (((i1 - i0 + 2) * (i1 - i0 + 2) : Int) : T) := by exact_mod_cast hK
  have hq0 : 0 ≤ 1 - 4 / (((i1 - i0 + 2) * (i1 - i0 + 2) : Int) : T) := sub_nonneg.2 ((div_le_one (by linarith)).2 hK)
  have h1 : 1 - 4 / (((i1 - i0 + 2) * (i1 - i0 + 2) : Int) : T) ≤ 1 := sub_le_self _ (div_nonneg (by norm_num) (by linarith))
  obtain ⟨m', U', t, w1, w2, w3, w4⟩ := C59_gs_1d_partial (by rw [hf]) hp rfl hD h1 hX hUX hE1 l
  refine ⟨s1, s2, m', U', a1, a2, t, w1, (ho.mono (by simp)).trans (w2.mono fun _ ha => List.mem_cons_of_mem _ ha), w3, fun p hp => ?_⟩
  refine (w4 p hp).trans ?_
  rw [F.inBounds1] at hp
  obtain ⟨i, rfl, hp⟩ := hp
  have := F.hill1_le (i0 := i0) (i1 := i1) (i := i) (by omega) (by omega)
  have : 4 * (F.hill1 i0 i1 [i] : T) ≤ (((i1 - i0 + 2) * (i1 - i0 + 2) : Int) : T) := by exact_mod_cast this
  rw [mul_assoc]
  refine mul_le_mul_of_nonneg_left ?_ (pow_nonneg ?_ l)
  · have := mul_le_mul_of_nonneg_left this hE0
    linarith
  · exact hq0

example (l : Nat) : ∃ s1 s2 m' U', Cuda.poissonOffdiag1d 0 3 exDx 2 1 ⟨9, 0⟩ revBackend (exSolve 1) = .ok s1 ∧ Cuda.poissonDiag1d 0 3 1 ⟨9, 0⟩ seqBackend s1 = .ok s2 ∧
      F.times (F.cellgs1d 0 3 3 ⟨21, 0⟩ (0 - 1) (3 + 1) ⟨9, 0⟩ (0 - 2) (3 + 2) ⟨10, 0⟩ (0 - 2) (3 + 2) ⟨1, 0⟩) l s2 = .ok m' ∧
      F.Holds m' (F.cell1d ⟨1, 0⟩ 0 3 2) U' ∧ F.Only [(F.st1d ⟨9, 0⟩ 0 3 1), (F.cell1d ⟨1, 0⟩ 0 3 2)] (exSolve 1) m' ∧
      (∀ p, ¬ F.InBounds [(0, 3)] p → U' p = exIns 1 0 p) ∧ ∀ p, F.InBounds [(0, 3)] p → |U' p - exIns 1 0 p| ≤ (1 - 4 / (((3 - 0 + 2) * (3 - 0 + 2) : Int) : Rat)) ^ l * ((((3 - 0 + 2) * (3 - 0 + 2) : Int) : Rat) / 4 * 5) := by
  obtain ⟨m1, m2, c1, c2, hR⟩ := exRun_p_1
  exact C63_gs_1d_partial (T := Rat) (fun _ => revBackend_ok) (fun _ => seqBackend_ok) revBackend_ok seqBackend_ok (by decide) (by decide) (by decide) (by decide) (by decide) rfl exEll_p_1 (exDir_args (by ex_args)) (apart_blk (by decide))
     exDir_u1 c1 c2 hR
    (exSolve_args (by ex_args)) (ex_apart (by decide))  exSolve_u1 (exSolve_f (exRat_ok rfl (by decide) (by decide)) rfl) exSolve_t1 exSolve_out1 exSolve_err1 l

/-- 1D, Poisson operator, red-black Gauss-Seidel: if flux and apply kernel take `X` to `G`, then off-diagonal and diagonal kernel followed by `l` pairs of sweeps for the right
hand side `G` bring the unknowns to within `rate^l (K / 4) E` of `X`, `K` the sum of the squares of the number of cells plus one along each axis. -/
theorem C63_rbgs_1d {i0 i1 gcw rgcw sgcw fgcw color color2 : Int} {beta : T} {dx : Nat → T} {u f0 res st rhs o : Ptr} {β1 β2 : Nat → Backend} {β3 β4 : Backend} {m mX m1 m2 : Mem T} {G U X : List Int → T} {E : T}
    (hβ1 : ∀ n, ValidBackend (β1 n)) (hβ2 : ∀ n, ValidBackend (β2 n)) (hβ3 : ValidBackend β3) (hβ4 : ValidBackend β4)
    (hi : i0 ≤ i1) (hg : 1 ≤ gcw) (hrgcw : 0 ≤ rgcw) (hs : 0 ≤ sgcw) (hfg : 0 ≤ fgcw) (hc' : 0 ≤ color) (hc2 : 0 ≤ color2) (hcc : (color2 - color) % 2 = 1) (he : F.Elliptic1 i0 i1 0 beta dx (fun _ => 1) (fun _ => 1))
    (h : F.Args mX [(F.cell1d u i0 i1 gcw)] [(F.face1d f0 i0 i1 0), (F.cell1d res i0 i1 rgcw)])
    (hr : F.Apart (F.cell1d res i0 i1 rgcw) (F.face1d f0 i0 i1 0)) (hXX : F.Holds mX (F.cell1d u i0 i1 gcw) X)
    (c1 : Cuda.poissonFlux1d i0 i1 dx gcw u f0 β1 mX = .ok m1) (c2 : Cuda.poissonV2Apply1d i0 i1 beta dx f0 rgcw res β2 m1 = .ok m2)
    (hR : ∀ p, F.InBounds [(i0, i1)] p → F.El m2 (F.cell1d res i0 i1 rgcw) p (G p))
    (h2 : F.Args m [(F.cell1d u i0 i1 gcw), (F.cell1d rhs i0 i1 fgcw)] [(F.st1d st i0 i1 sgcw)]) (huf : F.Apart (F.cell1d u i0 i1 gcw) (F.cell1d rhs i0 i1 fgcw))
     (hU : F.Holds m (F.cell1d u i0 i1 gcw) U) (hG : F.Holds m (F.cell1d rhs i0 i1 fgcw) G) (ht : F.Rows m (F.offset0 o 1 3) F.points1)
    (hUX : ∀ p, ¬ F.InBounds [(i0, i1)] p → U p = X p) (hE : ∀ p, F.InBounds [(i0, i1)] p → |U p - X p| ≤ E) (l : Nat) :
    ∃ s1 s2 m' U', Cuda.poissonOffdiag1d i0 i1 dx beta sgcw st β3 m = .ok s1 ∧ Cuda.poissonDiag1d i0 i1 sgcw st β4 s1 = .ok s2 ∧
      F.times (fun m => F.cellrbgs1d i0 i1 color 3 o (i0 - sgcw) (i1 + sgcw) st (i0 - fgcw) (i1 + fgcw) rhs (i0 - gcw) (i1 + gcw) u m >>=
        F.cellrbgs1d i0 i1 color2 3 o (i0 - sgcw) (i1 + sgcw) st (i0 - fgcw) (i1 + fgcw) rhs (i0 - gcw) (i1 + gcw) u) l s2 = .ok m' ∧
      F.Holds m' (F.cell1d u i0 i1 gcw) U' ∧ F.Only [(F.st1d st i0 i1 sgcw), (F.cell1d u i0 i1 gcw)] m m' ∧
      (∀ p, ¬ F.InBounds [(i0, i1)] p → U' p = X p) ∧ ∀ p, F.InBounds [(i0, i1)] p → |U' p - X p| ≤ (1 - 4 / (((i1 - i0 + 2) * (i1 - i0 + 2) : Int) : T)) ^ l * ((((i1 - i0 + 2) * (i1 - i0 + 2) : Int) : T) / 4 * E) := by
  obtain ⟨m1', m2', R, d1, d2, ER, hop⟩ := energy_p_1 (beta := beta) (dx := dx) hβ1 hβ2 hi hg hrgcw h hr hXX
  obtain rfl : m1 = m1' := Except.ok.inj (c1.symm.trans d1)
  obtain rfl : m2 = m2' := Except.ok.inj (c2.symm.trans d2)
  obtain ⟨s1, s2, S, a1, a2, ho, hp, hc⟩ := prob_p_1 (beta := beta) (dx := dx) (o := o) hβ3 hβ4 hi hs hg hfg (h2.sub (by intro x hx; simp only [List.mem_cons, List.not_mem_nil, or_false] at hx ⊢; tauto) (fun _ e => e)) huf  hU hG ht
  have hX : ∀ p, F.InBounds [(i0, i1)] p → F.Eqn 3 (F.row F.points1) S G X p := fun p hp => by
    have e := (ER p hp).rd.symm.trans (hR p hp).rd
    rw [F.inBounds1] at hp
    obtain ⟨i, rfl, hp⟩ := hp
    rw [F.eqn1 (hc i (by omega) (by omega)), ← hop i (by omega) (by omega)]
    exact e
  have hD := F.domp1 he hc hi
  have hE0 : 0 ≤ E := (abs_nonneg _).trans (hE [i0] (F.inBounds1.2 ⟨i0, rfl, by omega⟩))
  have hE1 : ∀ p, F.InBounds [(i0, i1)] p → |U p - X p| ≤ E * (fun p => (F.hill1 i0 i1 p : T)) p := fun p hp => by
    refine (hE p hp).trans (le_mul_of_one_le_right hE0 ?_)
    rw [F.inBounds1] at hp
    obtain ⟨i, rfl, hp⟩ := hp
    have := F.hill1_ge (i0 := i0) (i1 := i1) (i := i) (by omega) (by omega)
    show (1 : T) ≤ (F.hill1 i0 i1 [i] : T)
    exact_mod_cast this
  have hK : (4 : Int) ≤ (i1 - i0 + 2) * (i1 - i0 + 2) := by
    have kk0 : 2 * 2 ≤ (i1 - i0 + 2) * (i1 - i0 + 2) := mul_le_mul (by omega) (by omega) (by decide) (by omega)
    omega
  have hK : (4 : T) ≤ (((i1 - i0 + 2) * (i1 - i0 + 2) : Int) : T) := by exact_mod_cast hK
  have hq0 : 0 ≤ 1 - 4 / (((i1 - i0 + 2) * (i1 - i0 + 2) : Int) : T) := sub_nonneg.2 ((div_le_one (by linarith)).2 hK)
  have h1 : 1 - 4 / (((i1 - i0 + 2) * (i1 - i0 + 2) : Int) : T) ≤ 1 := sub_le_self _ (div_nonneg (by norm_num) (by linarith))
  obtain ⟨m', U', t, w1, w2, w3, w4⟩ := C59_rbgs_1d hc' hc2 hcc hp rfl hD h1 hX hUX hE1 l
  refine ⟨s1, s2, m', U', a1, a2, t, w1, (ho.mono (by simp)).trans (w2.mono fun _ ha => List.mem_cons_of_mem _ ha), w3, fun p hp => ?_⟩
  refine (w4 p hp).trans ?_
  rw [F.inBounds1] at hp
  obtain ⟨i, rfl, hp⟩ := hp
  have := F.hill1_le (i0 := i0) (i1 := i1) (i := i) (by omega) (by omega)
  have : 4 * (F.hill1 i0 i1 [i] : T) ≤ (((i1 - i0 + 2) * (i1 - i0 + 2) : Int) : T) := by exact_mod_cast this
  rw [mul_assoc]
  refine mul_le_mul_of_nonneg_left ?_ (pow_nonneg ?_ l)
  · have := mul_le_mul_of_nonneg_left this hE0
    linarith
  · exact hq0

example (l : Nat) : ∃ s1 s2 m' U', Cuda.poissonOffdiag1d 0 3 exDx 2 1 ⟨9, 0⟩ revBackend (exSolve 1) = .ok s1 ∧ Cuda.poissonDiag1d 0 3 1 ⟨9, 0⟩ seqBackend s1 = .ok s2 ∧
      F.times (fun μ => F.cellrbgs1d 0 3 0 3 ⟨21, 0⟩ (0 - 1) (3 + 1) ⟨9, 0⟩ (0 - 2) (3 + 2) ⟨10, 0⟩ (0 - 2) (3 + 2) ⟨1, 0⟩ μ >>=
        F.cellrbgs1d 0 3 1 3 ⟨21, 0⟩ (0 - 1) (3 + 1) ⟨9, 0⟩ (0 - 2) (3 + 2) ⟨10, 0⟩ (0 - 2) (3 + 2) ⟨1, 0⟩) l s2 = .ok m' ∧
      F.Holds m' (F.cell1d ⟨1, 0⟩ 0 3 2) U' ∧ F.Only [(F.st1d ⟨9, 0⟩ 0 3 1), (F.cell1d ⟨1, 0⟩ 0 3 2)] (exSolve 1) m' ∧
      (∀ p, ¬ F.InBounds [(0, 3)] p → U' p = exIns 1 0 p) ∧ ∀ p, F.InBounds [(0, 3)] p → |U' p - exIns 1 0 p| ≤ (1 - 4 / (((3 - 0 + 2) * (3 - 0 + 2) : Int) : Rat)) ^ l * ((((3 - 0 + 2) * (3 - 0 + 2) : Int) : Rat) / 4 * 5) := by
  obtain ⟨m1, m2, c1, c2, hR⟩ := exRun_p_1
  exact C63_rbgs_1d (T := Rat) (fun _ => revBackend_ok) (fun _ => seqBackend_ok) revBackend_ok seqBackend_ok (by decide) (by decide) (by decide) (by decide) (by decide) (by decide) (by decide) (by decide) exEll_p_1 (exDir_args (by ex_args)) (apart_blk (by decide))
     exDir_u1 c1 c2 hR
    (exSolve_args (by ex_args)) (ex_apart (by decide))  exSolve_u1 (exSolve_f (exRat_ok rfl (by decide) (by decide)) rfl) exSolve_t1 exSolve_out1 exSolve_err1 l

/-- 2D, Poisson operator, damped Jacobi: if flux and apply kernel take `X` to `G`, then off-diagonal and diagonal kernel followed by `l` sweeps for the right
hand side `G` bring the unknowns to within `rate^l (K / 4) E` of `X`, `K` the sum of the squares of the number of cells plus one along each axis. -/
theorem C63_jacobi_2d {i0 j0 i1 j1 gcw rgcw sgcw fgcw : Int} {beta : T} {dx : Nat → T} {u f0 f1 res st rhs o r : Ptr} {β1 β2 : Nat → Backend} {β3 β4 : Backend} {m mX m1 m2 : Mem T} {G U X : List Int → T} {E : T}
    (hβ1 : ∀ n, ValidBackend (β1 n)) (hβ2 : ∀ n, ValidBackend (β2 n)) (hβ3 : ValidBackend β3) (hβ4 : ValidBackend β4)
    (hi : i0 ≤ i1) (hj : j0 ≤ j1) (hg : 1 ≤ gcw) (hrgcw : 0 ≤ rgcw) (hs : 0 ≤ sgcw) (hfg : 0 ≤ fgcw) (he : F.Elliptic2 i0 j0 i1 j1 0 beta dx (fun _ => 1) (fun _ => 1) (fun _ => 1))
    (h : F.Args mX [(F.cell2d u i0 j0 i1 j1 gcw)] [(F.face2d0 f0 i0 j0 i1 j1 0), (F.face2d1 f1 i0 j0 i1 j1 0), (F.cell2d res i0 j0 i1 j1 rgcw)])
    (hp : F.Apart (F.face2d0 f0 i0 j0 i1 j1 0) (F.face2d1 f1 i0 j0 i1 j1 0))
    (hr : F.Apart (F.cell2d res i0 j0 i1 j1 rgcw) (F.face2d0 f0 i0 j0 i1 j1 0) ∧ F.Apart (F.cell2d res i0 j0 i1 j1 rgcw) (F.face2d1 f1 i0 j0 i1 j1 0)) (hXX : F.Holds mX (F.cell2d u i0 j0 i1 j1 gcw) X)
    (c1 : Cuda.poissonFlux2d i0 j0 i1 j1 dx gcw u f0 f1 β1 mX = .ok m1) (c2 : Cuda.poissonV2Apply2d i0 i1 j0 j1 beta dx f0 f1 rgcw res β2 m1 = .ok m2)
    (hR : ∀ p, F.InBounds [(i0, i1), (j0, j1)] p → F.El m2 (F.cell2d res i0 j0 i1 j1 rgcw) p (G p))
    (h2 : F.Args m [(F.cell2d u i0 j0 i1 j1 gcw), (F.cell2d rhs i0 j0 i1 j1 fgcw), (F.box2d r i0 j0 i1 j1)] [(F.st2d st i0 j0 i1 j1 sgcw)]) (huf : F.Apart (F.cell2d u i0 j0 i1 j1 gcw) (F.cell2d rhs i0 j0 i1 j1 fgcw)) (hru : F.Apart (F.box2d r i0 j0 i1 j1) (F.cell2d u i0 j0 i1 j1 gcw)) (hrf : F.Apart (F.box2d r i0 j0 i1 j1) (F.cell2d rhs i0 j0 i1 j1 fgcw))
     (hU : F.Holds m (F.cell2d u i0 j0 i1 j1 gcw) U) (hG : F.Holds m (F.cell2d rhs i0 j0 i1 j1 fgcw) G) (ht : F.Rows m (F.offset0 o 2 5) F.points2)
    (hUX : ∀ p, ¬ F.InBounds [(i0, i1), (j0, j1)] p → U p = X p) (hE : ∀ p, F.InBounds [(i0, i1), (j0, j1)] p → |U p - X p| ≤ E) (l : Nat) :
    ∃ s1 s2 m' U', Cuda.poissonOffdiag2d i0 j0 i1 j1 dx beta sgcw st β3 m = .ok s1 ∧ Cuda.poissonDiag2d i0 j0 i1 j1 sgcw st β4 s1 = .ok s2 ∧
      F.times (F.celljacobi2d i0 i1 j0 j1 5 o (i0 - sgcw) (i1 + sgcw) (j0 - sgcw) (j1 + sgcw) st (i0 - fgcw) (i1 + fgcw) (j0 - fgcw) (j1 + fgcw) rhs (i0 - gcw) (i1 + gcw) (j0 - gcw) (j1 + gcw) u r) l s2 = .ok m' ∧
      F.Holds m' (F.cell2d u i0 j0 i1 j1 gcw) U' ∧ F.Only [(F.st2d st i0 j0 i1 j1 sgcw), (F.cell2d u i0 j0 i1 j1 gcw), (F.box2d r i0 j0 i1 j1)] m m' ∧
      (∀ p, ¬ F.InBounds [(i0, i1), (j0, j1)] p → U' p = X p) ∧ ∀ p, F.InBounds [(i0, i1), (j0, j1)] p → |U' p - X p| ≤ (1 - ((13421773 : Nat) / (16777216 : Nat) : T) + ((13421773 : Nat) / (16777216 : Nat) : T) * (1 - 4 / (((i1 - i0 + 2) * (i1 - i0 + 2) + (j1 - j0 + 2) * (j1 - j0 + 2) : Int) : T))) ^ l * ((((i1 - i0 + 2) * (i1 - i0 + 2) + (j1 - j0 + 2) * (j1 - j0 + 2) : Int) : T) / 4 * E) := by
  obtain ⟨m1', m2', R, d1, d2, ER, hop⟩ := energy_p_2 (beta := beta) (dx := dx) hβ1 hβ2 hi hj hg hrgcw h hp hr hXX
  obtain rfl : m1 = m1' := Except.ok.inj (c1.symm.trans d1)
  obtain rfl : m2 = m2' := Except.ok.inj (c2.symm.trans d2)
  obtain ⟨s1, s2, S, a1, a2, ho, hp, hc⟩ := prob_p_2 (beta := beta) (dx := dx) (o := o) hβ3 hβ4 hi hj hs hg hfg (h2.sub (by intro x hx; simp only [List.mem_cons, List.not_mem_nil, or_false] at hx ⊢; tauto) (fun _ e => e)) huf  hU hG ht
  have hX : ∀ p, F.InBounds [(i0, i1), (j0, j1)] p → F.Eqn 5 (F.row F.points2) S G X p := fun p hp => by
    have e := (ER p hp).rd.symm.trans (hR p hp).rd
    rw [F.inBounds2] at hp
    obtain ⟨i, j, rfl, hp⟩ := hp
    rw [F.eqn2 (hc i j (by omega) (by omega) (by omega) (by omega)), ← hop i j (by omega) (by omega) (by omega) (by omega)]
    exact e
  have hD := F.domp2 he hc hi hj
  have hE0 : 0 ≤ E := (abs_nonneg _).trans (hE [i0, j0] (F.inBounds2.2 ⟨i0, j0, rfl, by omega⟩))
  have hE1 : ∀ p, F.InBounds [(i0, i1), (j0, j1)] p → |U p - X p| ≤ E * (fun p => (F.hill2 i0 j0 i1 j1 p : T)) p := fun p hp => by
    refine (hE p hp).trans (le_mul_of_one_le_right hE0 ?_)
    rw [F.inBounds2] at hp
    obtain ⟨i, j, rfl, hp⟩ := hp
    have := F.hill2_ge (i0 := i0) (j0 := j0) (i1 := i1) (j1 := j1) (i := i) (j := j) (by omega) (by omega) (by omega) (by omega)
    show (1 : T) ≤ (F.hill2 i0 j0 i1 j1 [i, j] : T)
    exact_mod_cast this
  have hK : (4 : Int) ≤ (i1 - i0 + 2) * (i1 - i0 + 2) + (j1 - j0 + 2) * (j1 - j0 + 2) := by
    have kk0 : 2 * 2 ≤ (i1 - i0 + 2) * (i1 - i0 + 2) := mul_le_mul (by omega) (by omega) (by decide) (by omega)
    have kk1 : 2 * 2 ≤ (j1 - j0 + 2) * (j1 - j0 + 2) := mul_le_mul (by omega) (by omega) (by decide) (by omega)
    omega
  have hK : (4 : T) ≤ (((i1 - i0 + 2) * (i1 - i0 + 2) + (j1 - j0 + 2) * (j1 - j0 + 2) : Int) : T) := by exact_mod_cast hK
  have hq0 : 0 ≤ 1 - 4 / (((i1 - i0 + 2) * (i1 - i0 + 2) + (j1 - j0 + 2) * (j1 - j0 + 2) : Int) : T) := sub_nonneg.2 ((div_le_one (by linarith)).2 hK)
  have h1 : 1 - 4 / (((i1 - i0 + 2) * (i1 - i0 + 2) + (j1 - j0 + 2) * (j1 - j0 + 2) : Int) : T) ≤ 1 := sub_le_self _ (div_nonneg (by norm_num) (by linarith))
  have hr2 : F.Holds s2 (F.box2d r i0 j0 i1 j1) (F.rd m (F.box2d r i0 j0 i1 j1)) := F.Holds.only (fun is hi => (h2.ok (F.box2d r i0 j0 i1 j1) (by simp)).rd hi) ho (by simp only [List.mem_cons, List.not_mem_nil, or_false, forall_eq]; exact h2.apart _ (by simp) _ (by simp))
  obtain ⟨m', U', t, w1, w2, w3, w4⟩ := C59_jacobi_2d hp hr2 hru (F.apart_symm (h2.apart (F.st2d st i0 j0 i1 j1 sgcw) (by simp) (F.box2d r i0 j0 i1 j1) (by simp))) hrf rfl hD hX hUX hE1 l
  refine ⟨s1, s2, m', U', a1, a2, t, w1, (ho.mono (by simp)).trans (w2.mono fun _ ha => List.mem_cons_of_mem _ ha), w3, fun p hp => ?_⟩
  refine (w4 p hp).trans ?_
  rw [F.inBounds2] at hp
  obtain ⟨i, j, rfl, hp⟩ := hp
  have := F.hill2_le (i0 := i0) (j0 := j0) (i1 := i1) (j1 := j1) (i := i) (j := j) (by omega) (by omega) (by omega) (by omega)
  have : 4 * (F.hill2 i0 j0 i1 j1 [i, j] : T) ≤ (((i1 - i0 + 2) * (i1 - i0 + 2) + (j1 - j0 + 2) * (j1 - j0 + 2) : Int) : T) := by exact_mod_cast this
  rw [mul_assoc]
  refine mul_le_mul_of_nonneg_left ?_ (pow_nonneg ?_ l)
  · have := mul_le_mul_of_nonneg_left this hE0
    linarith
  · refine add_nonneg (by norm_num) (mul_nonneg (by positivity) hq0)

example (l : Nat) : ∃ s1 s2 m' U', Cuda.poissonOffdiag2d 0 1 2 3 exDx 2 1 ⟨9, 0⟩ revBackend (exSolve 2) = .ok s1 ∧ Cuda.poissonDiag2d 0 1 2 3 1 ⟨9, 0⟩ seqBackend s1 = .ok s2 ∧
      F.times (F.celljacobi2d 0 2 1 3 5 ⟨22, 0⟩ (0 - 1) (2 + 1) (1 - 1) (3 + 1) ⟨9, 0⟩ (0 - 2) (2 + 2) (1 - 2) (3 + 2) ⟨10, 0⟩ (0 - 2) (2 + 2) (1 - 2) (3 + 2) ⟨1, 0⟩ ⟨11, 0⟩) l s2 = .ok m' ∧
      F.Holds m' (F.cell2d ⟨1, 0⟩ 0 1 2 3 2) U' ∧ F.Only [(F.st2d ⟨9, 0⟩ 0 1 2 3 1), (F.cell2d ⟨1, 0⟩ 0 1 2 3 2), (F.box2d ⟨11, 0⟩ 0 1 2 3)] (exSolve 2) m' ∧
      (∀ p, ¬ F.InBounds [(0, 2), (1, 3)] p → U' p = exIns 2 0 p) ∧ ∀ p, F.InBounds [(0, 2), (1, 3)] p → |U' p - exIns 2 0 p| ≤ (1 - ((13421773 : Nat) / (16777216 : Nat) : Rat) + ((13421773 : Nat) / (16777216 : Nat) : Rat) * (1 - 4 / (((2 - 0 + 2) * (2 - 0 + 2) + (3 - 1 + 2) * (3 - 1 + 2) : Int) : Rat))) ^ l * ((((2 - 0 + 2) * (2 - 0 + 2) + (3 - 1 + 2) * (3 - 1 + 2) : Int) : Rat) / 4 * 5) := by
  obtain ⟨m1, m2, c1, c2, hR⟩ := exRun_p_2
  exact C63_jacobi_2d (T := Rat) (fun _ => revBackend_ok) (fun _ => seqBackend_ok) revBackend_ok seqBackend_ok (by decide) (by decide) (by decide) (by decide) (by decide) (by decide) exEll_p_2 (exDir_args (by ex_args)) (apart_blk (by decide)) ⟨apart_blk (by decide), apart_blk (by decide)⟩
     exDir_u2 c1 c2 hR
    (exSolve_args (by ex_args)) (ex_apart (by decide)) (ex_apart (by decide)) (ex_apart (by decide))  exSolve_u2 (exSolve_f (exRat_ok rfl (by decide) (by decide)) rfl) exSolve_t2 exSolve_out2 exSolve_err2 l

/-- 2D, Poisson operator, Gauss-Seidel: if flux and apply kernel take `X` to `G`, then off-diagonal and diagonal kernel followed by `l` sweeps for the right
hand side `G` bring the unknowns to within `rate^l (K / 4) E` of `X`, `K` the sum of the squares of the number of cells plus one along each axis. -/
theorem C63_gs_2d {i0 j0 i1 j1 gcw rgcw sgcw fgcw : Int} {beta : T} {dx : Nat → T} {u f0 f1 res st rhs o : Ptr} {β1 β2 : Nat → Backend} {β3 β4 : Backend} {m mX m1 m2 : Mem T} {G U X : List Int → T} {E : T}
    (hβ1 : ∀ n, ValidBackend (β1 n)) (hβ2 : ∀ n, ValidBackend (β2 n)) (hβ3 : ValidBackend β3) (hβ4 : ValidBackend β4)
    (hi : i0 ≤ i1) (hj : j0 ≤ j1) (hg : 1 ≤ gcw) (hrgcw : 0 ≤ rgcw) (hs : 0 ≤ sgcw) (hfg : 0 ≤ fgcw) (he : F.Elliptic2 i0 j0 i1 j1 0 beta dx (fun _ => 1) (fun _ => 1) (fun _ => 1))
    (h : F.Args mX [(F.cell2d u i0 j0 i1 j1 gcw)] [(F.face2d0 f0 i0 j0 i1 j1 0), (F.face2d1 f1 i0 j0 i1 j1 0), (F.cell2d res i0 j0 i1 j1 rgcw)])
    (hp : F.Apart (F.face2d0 f0 i0 j0 i1 j1 0) (F.face2d1 f1 i0 j0 i1 j1 0))
    (hr : F.Apart (F.cell2d res i0 j0 i1 j1 rgcw) (F.face2d0 f0 i0 j0 i1 j1 0) ∧ F.Apart (F.cell2d res i0 j0 i1 j1 rgcw) (F.face2d1 f1 i0 j0 i1 j1 0)) (hXX : F.Holds mX (F.cell2d u i0 j0 i1 j1 gcw) X)
    (c1 : Cuda.poissonFlux2d i0 j0 i1 j1 dx gcw u f0 f1 β1 mX = .ok m1) (c2 : Cuda.poissonV2Apply2d i0 i1 j0 j1 beta dx f0 f1 rgcw res β2 m1 = .ok m2)
    (hR : ∀ p, F.InBounds [(i0, i1), (j0, j1)] p → F.El m2 (F.cell2d res i0 j0 i1 j1 rgcw) p (G p))
    (h2 : F.Args m [(F.cell2d u i0 j0 i1 j1 gcw), (F.cell2d rhs i0 j0 i1 j1 fgcw)] [(F.st2d st i0 j0 i1 j1 sgcw)]) (huf : F.Apart (F.cell2d u i0 j0 i1 j1 gcw) (F.cell2d rhs i0 j0 i1 j1 fgcw))
     (hU : F.Holds m (F.cell2d u i0 j0 i1 j1 gcw) U) (hG : F.Holds m (F.cell2d rhs i0 j0 i1 j1 fgcw) G) (ht : F.Rows m (F.offset0 o 2 5) F.points2)
    (hUX : ∀ p, ¬ F.InBounds [(i0, i1), (j0, j1)] p → U p = X p) (hE : ∀ p, F.InBounds [(i0, i1), (j0, j1)] p → |U p - X p| ≤ E) (l : Nat) :
    ∃ s1 s2 m' U', Cuda.poissonOffdiag2d i0 j0 i1 j1 dx beta sgcw st β3 m = .ok s1 ∧ Cuda.poissonDiag2d i0 j0 i1 j1 sgcw st β4 s1 = .ok s2 ∧
      F.times (F.cellgs2d i0 i1 j0 j1 5 o (i0 - sgcw) (i1 + sgcw) (j0 - sgcw) (j1 + sgcw) st (i0 - fgcw) (i1 + fgcw) (j0 - fgcw) (j1 + fgcw) rhs (i0 - gcw) (i1 + gcw) (j0 - gcw) (j1 + gcw) u) l s2 = .ok m' ∧
      F.Holds m' (F.cell2d u i0 j0 i1 j1 gcw) U' ∧ F.Only [(F.st2d st i0 j0 i1 j1 sgcw), (F.cell2d u i0 j0 i1 j1 gcw)] m m' ∧
      (∀ p, ¬ F.InBounds [(i0, i1), (j0, j1)] p → U' p = X p) ∧ ∀ p, F.InBounds [(i0, i1), (j0, j1)] p → |U' p - X p| ≤ (1 - 4 / (((i1 - i0 + 2) * (i1 - i0 + 2) + (j1 - j0 + 2) * (j1 - j0 + 2) : Int) : T)) ^ l * ((((i1 - i0 + 2) * (i1 - i0 + 2) + (j1 - j0 + 2) * (j1 - j0 + 2) : Int) : T) / 4 * E) := by
  obtain ⟨m1', m2', R, d1, d2, ER, hop⟩ := energy_p_2 (beta := beta) (dx := dx) hβ1 hβ2 hi hj hg hrgcw h hp hr hXX
  obtain rfl : m1 = m1' := Except.ok.inj (c1.symm.trans d1)
  obtain rfl : m2 = m2' := Except.ok.inj (c2.symm.trans d2)
  obtain ⟨s1, s2, S, a1, a2, ho, hp, hc⟩ := prob_p_2 (beta := beta) (dx := dx) (o := o) hβ3 hβ4 hi hj hs hg hfg (h2.sub (by intro x hx; simp only [List.mem_cons, List.not_mem_nil, or_false] at hx ⊢; tauto) (fun _ e => e)) huf  hU hG ht
  have hX : ∀ p, F.InBounds [(i0, i1), (j0, j1)] p → F.Eqn 5 (F.row F.points2) S G X p := fun p hp => by
    have e := (ER p hp).rd.symm.trans (hR p hp).rd
    rw [F.inBounds2] at hp
    obtain ⟨i, j, rfl, hp⟩ := hp
    rw [F.eqn2 (hc i j (by omega) (by omega) (by omega) (by omega)), ← hop i j (by omega) (by omega) (by omega) (by omega)]
    exact e
  have hD := F.domp2 he hc hi hj
  have hE0 : 0 ≤ E := (abs_nonneg _).trans (hE [i0, j0] (F.inBounds2.2 ⟨i0, j0, rfl, by omega⟩))
  have hE1 : ∀ p, F.InBounds [(i0, i1), (j0, j1)] p → |U p - X p| ≤ E * (fun p => (F.hill2 i0 j0 i1 j1 p : T)) p := fun p hp => by
    refine (hE p hp).trans (le_mul_of_one_le_right hE0 ?_)
    rw [F.inBounds2] at hp
    obtain ⟨i, j, rfl, hp⟩ := hp
    have := F.hill2_ge (i0 := i0) (j0 := j0) (i1 := i1) (j1 := j1) (i := i) (j := j) (by omega) (by omega) (by omega) (by omega)
    show (1 : T) ≤ (F.hill2 i0 j0 i1 j1 [i, j] : T)
    exact_mod_cast this
  have hK : (4 : Int) ≤ (i1 - i0 + 2) * (i1 - i0 + 2) + (j1 - j0 + 2) * (j1 - j0 + 2) := by
    have kk0 : 2 * 2 ≤ (i1 - i0 + 2) * (i1 - i0 + 2) := mul_le_mul (by omega) (by omega) (by decide) (by omega)
    have kk1 : 2 * 2 ≤ (j1 - j0 + 2) * (j1 - j0 + 2) := mul_le_mul (by omega) (by omega) (by decide) (by omega)
    omega
  have hK : (4 : T) ≤ (((i1 - i0 + 2) * (i1 - i0 + 2) + (j1 - j0 + 2) * (j1 - j0 + 2) : Int) : T) := by exact_mod_cast hK
  have hq0 : 0 ≤ 1 - 4 / (((i1 - i0 + 2) * (i1 - i0 + 2) + (j1 - j0 + 2) * (j1 - j0 + 2) : Int) : T) := sub_nonneg.2 ((div_le_one (by linarith)).2 hK)
  have h1 : 1 - 4 / (((i1 - i0 + 2) * (i1 - i0 + 2) + (j1 - j0 + 2) * (j1 - j0 + 2) : Int) : T) ≤ 1 := sub_le_self _ (div_nonneg (by norm_num) (by linarith))
  obtain ⟨m', U', t, w1, w2, w3, w4⟩ := C59_gs_2d hp rfl hD h1 hX hUX hE1 l
  refine ⟨s1, s2, m', U', a1, a2, t, w1, (ho.mono (by simp)).trans (w2.mono fun _ ha => List.mem_cons_of_mem _ ha), w3, fun p hp => ?_⟩
  refine (w4 p hp).trans ?_
  rw [F.inBounds2] at hp
  obtain ⟨i, j, rfl, hp⟩ := hp
  have := F.hill2_le (i0 := i0) (j0 := j0) (i1 := i1) (j1 := j1) (i := i) (j := j) (by omega) (by omega) (by omega) (by omega)
  have : 4 * (F.hill2 i0 j0 i1 j1 [i, j] : T) ≤ (((i1 - i0 + 2) * (i1 - i0 + 2) + (j1 - j0 + 2) * (j1 - j0 + 2) : Int) : T) := by exact_mod_cast this
  rw [mul_assoc]
  refine mul_le_mul_of_nonneg_left ?_ (pow_nonneg ?_ l)
  · have := mul_le_mul_of_nonneg_left this hE0
    linarith
  · exact hq0

example (l : Nat) : ∃ s1 s2 m' U', Cuda.poissonOffdiag2d 0 1 2 3 exDx 2 1 ⟨9, 0⟩ revBackend (exSolve 2) = .ok s1 ∧ Cuda.poissonDiag2d 0 1 2 3 1 ⟨9, 0⟩ seqBackend s1 = .ok s2 ∧
      F.times (F.cellgs2d 0 2 1 3 5 ⟨22, 0⟩ (0 - 1) (2 + 1) (1 - 1) (3 + 1) ⟨9, 0⟩ (0 - 2) (2 + 2) (1 - 2) (3 + 2) ⟨10, 0⟩ (0 - 2) (2 + 2) (1 - 2) (3 + 2) ⟨1, 0⟩) l s2 = .ok m' ∧
      F.Holds m' (F.cell2d ⟨1, 0⟩ 0 1 2 3 2) U' ∧ F.Only [(F.st2d ⟨9, 0⟩ 0 1 2 3 1), (F.cell2d ⟨1, 0⟩ 0 1 2 3 2)] (exSolve 2) m' ∧
      (∀ p, ¬ F.InBounds [(0, 2), (1, 3)] p → U' p = exIns 2 0 p) ∧ ∀ p, F.InBounds [(0, 2), (1, 3)] p → |U' p - exIns 2 0 p| ≤ (1 - 4 / (((2 - 0 + 2) * (2 - 0 + 2) + (3 - 1 + 2) * (3 - 1 + 2) : Int) : Rat)) ^ l * ((((2 - 0 + 2) * (2 - 0 + 2) + (3 - 1 + 2) * (3 - 1 + 2) : Int) : Rat) / 4 * 5) := by
  obtain ⟨m1, m2, c1, c2, hR⟩ := exRun_p_2
  exact C63_gs_2d (T := Rat) (fun _ => revBackend_ok) (fun _ => seqBackend_ok) revBackend_ok seqBackend_ok (by decide) (by decide) (by decide) (by decide) (by decide) (by decide) exEll_p_2 (exDir_args (by ex_args)) (apart_blk (by decide)) ⟨apart_blk (by decide), apart_blk (by decide)⟩
     exDir_u2 c1 c2 hR
    (exSolve_args (by ex_args)) (ex_apart (by decide))  exSolve_u2 (exSolve_f (exRat_ok rfl (by decide) (by decide)) rfl) exSolve_t2 exSolve_out2 exSolve_err2 l

/-- 2D, Poisson operator, red-black Gauss-Seidel: if flux and apply kernel take `X` to `G`, then off-diagonal and diagonal kernel followed by `l` pairs of sweeps for the right
hand side `G` bring the unknowns to within `rate^l (K / 4) E` of `X`, `K` the sum of the squares of the number of cells plus one along each axis. (Partial: `j0 + color` not negative, see `C52_sweep_2d_false`.) -/
theorem C63_rbgs_2d_partial {i0 j0 i1 j1 gcw rgcw sgcw fgcw color color2 : Int} {beta : T} {dx : Nat → T} {u f0 f1 res st rhs o : Ptr} {β1 β2 : Nat → Backend} {β3 β4 : Backend} {m mX m1 m2 : Mem T} {G U X : List Int → T} {E : T}
    (hβ1 : ∀ n, ValidBackend (β1 n)) (hβ2 : ∀ n, ValidBackend (β2 n)) (hβ3 : ValidBackend β3) (hβ4 : ValidBackend β4)
    (hi : i0 ≤ i1) (hj : j0 ≤ j1) (hg : 1 ≤ gcw) (hrgcw : 0 ≤ rgcw) (hs : 0 ≤ sgcw) (hfg : 0 ≤ fgcw) (hc' : 0 ≤ j0 + color) (hc2 : 0 ≤ j0 + color2) (hcc : (color2 - color) % 2 = 1) (he : F.Elliptic2 i0 j0 i1 j1 0 beta dx (fun _ => 1) (fun _ => 1) (fun _ => 1))
    (h : F.Args mX [(F.cell2d u i0 j0 i1 j1 gcw)] [(F.face2d0 f0 i0 j0 i1 j1 0), (F.face2d1 f1 i0 j0 i1 j1 0), (F.cell2d res i0 j0 i1 j1 rgcw)])
    (hp : F.Apart (F.face2d0 f0 i0 j0 i1 j1 0) (F.face2d1 f1 i0 j0 i1 j1 0))
    (hr : F.Apart (F.cell2d res i0 j0 i1 j1 rgcw) (F.face2d0 f0 i0 j0 i1 j1 0) ∧ F.Apart (F.cell2d res i0 j0 i1 j1 rgcw) (F.face2d1 f1 i0 j0 i1 j1 0)) (hXX : F.Holds mX (F.cell2d u i0 j0 i1 j1 gcw) X)
    (c1 : Cuda.poissonFlux2d i0 j0 i1 j1 dx gcw u f0 f1 β1 mX = .ok m1) (c2 : Cuda.poissonV2Apply2d i0 i1 j0 j1 beta dx f0 f1 rgcw res β2 m1 = .ok m2)
    (hR : ∀ p, F.InBounds [(i0, i1), (j0, j1)] p → F.El m2 (F.cell2d res i0 j0 i1 j1 rgcw) p (G p))
    (h2 : F.Args m [(F.cell2d u i0 j0 i1 j1 gcw), (F.cell2d rhs i0 j0 i1 j1 fgcw)] [(F.st2d st i0 j0 i1 j1 sgcw)]) (huf : F.Apart (F.cell2d u i0 j0 i1 j1 gcw) (F.cell2d rhs i0 j0 i1 j1 fgcw))
     (hU : F.Holds m (F.cell2d u i0 j0 i1 j1 gcw) U) (hG : F.Holds m (F.cell2d rhs i0 j0 i1 j1 fgcw) G) (ht : F.Rows m (F.offset0 o 2 5) F.points2)
    (hUX : ∀ p, ¬ F.InBounds [(i0, i1), (j0, j1)] p → U p = X p) (hE : ∀ p, F.InBounds [(i0, i1), (j0, j1)] p → |U p - X p| ≤ E) (l : Nat) :
    ∃ s1 s2 m' U', Cuda.poissonOffdiag2d i0 j0 i1 j1 dx beta sgcw st β3 m = .ok s1 ∧ Cuda.poissonDiag2d i0 j0 i1 j1 sgcw st β4 s1 = .ok s2 ∧
      F.times (fun m => F.cellrbgs2d i0 i1 j0 j1 color 5 o (i0 - sgcw) (i1 + sgcw) (j0 - sgcw) (j1 + sgcw) st (i0 - fgcw) (i1 + fgcw) (j0 - fgcw) (j1 + fgcw) rhs (i0 - gcw) (i1 + gcw) (j0 - gcw) (j1 + gcw) u m >>=
        F.cellrbgs2d i0 i1 j0 j1 color2 5 o (i0 - sgcw) (i1 + sgcw) (j0 - sgcw) (j1 + sgcw) st (i0 - fgcw) (i1 + fgcw) (j0 - fgcw) (j1 + fgcw) rhs (i0 - gcw) (i1 + gcw) (j0 - gcw) (j1 + gcw) u) l s2 = .ok m' ∧
      F.Holds m' (F.cell2d u i0 j0 i1 j1 gcw) U' ∧ F.Only [(F.st2d st i0 j0 i1 j1 sgcw), (F.cell2d u i0 j0 i1 j1 gcw)] m m' ∧
      (∀ p, ¬ F.InBounds [(i0, i1), (j0, j1)] p → U' p = X p) ∧ ∀ p, F.InBounds [(i0, i1), (j0, j1)] p → |U' p - X p| ≤ (1 - 4 / (((i1 - i0 + 2) * (i1 - i0 + 2) + (j1 - j0 + 2) * (j1 - j0 + 2) : Int) : T)) ^ l * ((((i1 - i0 + 2) * (i1 - i0 + 2) + (j1 - j0 + 2) * (j1 - j0 + 2) : Int) : T) / 4 * E) := by
  obtain ⟨m1', m2', R, d1, d2, ER, hop⟩ := energy_p_2 (beta := beta) (dx := dx) hβ1 hβ2 hi hj hg hrgcw h hp hr hXX
  obtain rfl : m1 = m1' := Except.ok.inj (c1.symm.trans d1)
  obtain rfl : m2 = m2' := Except.ok.inj (c2.symm.trans d2)
  obtain ⟨s1, s2, S, a1, a2, ho, hp, hc⟩ := prob_p_2 (beta := beta) (dx := dx) (o := o) hβ3 hβ4 hi hj hs hg hfg (h2.sub (by intro x hx; simp only [List.mem_cons, List.not_mem_nil, or_false] at hx ⊢; tauto) (fun _ e => e)) huf  hU hG ht
  have hX : ∀ p, F.InBounds [(i0, i1), (j0, j1)] p → F.Eqn 5 (F.row F.points2) S G X p := fun p hp => by
    have e := (ER p hp).rd.symm.trans (hR p hp).rd
    rw [F.inBounds2] at hp
    obtain ⟨i, j, rfl, hp⟩ := hp
    rw [F.eqn2 (hc i j (by omega) (by omega) (by omega) (by omega)), ← hop i j (by omega) (by omega) (by omega) (by omega)]
    exact e
  have hD := F.domp2 he hc hi hj
  have hE0 : 0 ≤ E := (abs_nonneg _).trans (hE [i0, j0] (F.inBounds2.2 ⟨i0, j0, rfl, by omega⟩))
  have hE1 : ∀ p, F.InBounds [(i0, i1), (j0, j1)] p → |U p - X p| ≤ E * (fun p => (F.hill2 i0 j0 i1 j1 p : T)) p := fun p hp => by
    refine (hE p hp).trans (le_mul_of_one_le_right hE0 ?_)
    rw [F.inBounds2] at hp
    obtain ⟨i, j, rfl, hp⟩ := hp
    have := F.hill2_ge (i0 := i0) (j0 := j0) (i1 := i1) (j1 := j1) (i := i) (j := j) (by omega) (by omega) (by omega) (by omega)
    show (1 : T) ≤ (F.hill2 i0 j0 i1 j1 [i, j] : T)
    exact_mod_cast this
  have hK : (4 : Int) ≤ (i1 - i0 + 2) * (i1 - i0 + 2) + (j1 - j0 + 2) * (j1 - j0 + 2) := by
    have kk0 : 2 * 2 ≤ (i1 - i0 + 2) * (i1 - i0 + 2) := mul_le_mul (by omega) (by omega) (by decide) (by omega)
    have kk1 : 2 * 2 ≤ (j1 - j0 + 2) * (j1 - j0 + 2) := mul_le_mul (by omega) (by omega) (by decide) (by omega)
    omega
  have hK : (4 : T) ≤ (((i1 - i0 + 2) * (i1 - i0 + 2) + (j1 - j0 + 2) * (j1 - j0 + 2) : Int) : T) := by exact_mod_cast hK
  have hq0 : 0 ≤ 1 - 4 / (((i1 - i0 + 2) * (i1 - i0 + 2) + (j1 - j0 + 2) * (j1 - j0 + 2) : Int) : T) := sub_nonneg.2 ((div_le_one (by linarith)).2 hK)
  have h1 : 1 - 4 / (((i1 - i0 + 2) * (i1 - i0 + 2) + (j1 - j0 + 2) * (j1 - j0 + 2) : Int) : T) ≤ 1 := sub_le_self _ (div_nonneg (by norm_num) (by linarith))
  obtain ⟨m', U', t, w1, w2, w3, w4⟩ := C59_rbgs_2d_partial hc' hc2 hcc hp rfl hD h1 hX hUX hE1 l
  refine ⟨s1, s2, m', U', a1, a2, t, w1, (ho.mono (by simp)).trans (w2.mono fun _ ha => List.mem_cons_of_mem _ ha), w3, fun p hp => ?_⟩
  refine (w4 p hp).trans ?_
  rw [F.inBounds2] at hp
  obtain ⟨i, j, rfl, hp⟩ := hp
  have := F.hill2_le (i0 := i0) (j0 := j0) (i1 := i1) (j1 := j1) (i := i) (j := j) (by omega) (by omega) (by omega) (by omega)
  have : 4 * (F.hill2 i0 j0 i1 j1 [i, j] : T) ≤ (((i1 - i0 + 2) * (i1 - i0 + 2) + (j1 - j0 + 2) * (j1 - j0 + 2) : Int) : T) := by exact_mod_cast this
  rw [mul_assoc]
  refine mul_le_mul_of_nonneg_left ?_ (pow_nonneg ?_ l)
  · have := mul_le_mul_of_nonneg_left this hE0
    linarith
  · exact hq0

example (l : Nat) : ∃ s1 s2 m' U', Cuda.poissonOffdiag2d 0 1 2 3 exDx 2 1 ⟨9, 0⟩ revBackend (exSolve 2) = .ok s1 ∧ Cuda.poissonDiag2d 0 1 2 3 1 ⟨9, 0⟩ seqBackend s1 = .ok s2 ∧
      F.times (fun μ => F.cellrbgs2d 0 2 1 3 0 5 ⟨22, 0⟩ (0 - 1) (2 + 1) (1 - 1) (3 + 1) ⟨9, 0⟩ (0 - 2) (2 + 2) (1 - 2) (3 + 2) ⟨10, 0⟩ (0 - 2) (2 + 2) (1 - 2) (3 + 2) ⟨1, 0⟩ μ >>=
        F.cellrbgs2d 0 2 1 3 1 5 ⟨22, 0⟩ (0 - 1) (2 + 1) (1 - 1) (3 + 1) ⟨9, 0⟩ (0 - 2) (2 + 2) (1 - 2) (3 + 2) ⟨10, 0⟩ (0 - 2) (2 + 2) (1 - 2) (3 + 2) ⟨1, 0⟩) l s2 = .ok m' ∧
      F.Holds m' (F.cell2d ⟨1, 0⟩ 0 1 2 3 2) U' ∧ F.Only [(F.st2d ⟨9, 0⟩ 0 1 2 3 1), (F.cell2d ⟨1, 0⟩ 0 1 2 3 2)] (exSolve 2) m' ∧
      (∀ p, ¬ F.InBounds [(0, 2), (1, 3)] p → U' p = exIns 2 0 p) ∧ ∀ p, F.InBounds [(0, 2), (1, 3)] p → |U' p - exIns 2 0 p| ≤ (1 - 4 / (((2 - 0 + 2) * (2 - 0 + 2) + (3 - 1 + 2) * (3 - 1 + 2) : Int) : Rat)) ^ l * ((((2 - 0 + 2) * (2 - 0 + 2) + (3 - 1 + 2) * (3 - 1 + 2) : Int) : Rat) / 4 * 5) := by
  obtain ⟨m1, m2, c1, c2, hR⟩ := exRun_p_2
  exact C63_rbgs_2d_partial (T := Rat) (fun _ => revBackend_ok) (fun _ => seqBackend_ok) revBackend_ok seqBackend_ok (by decide) (by decide) (by decide) (by decide) (by decide) (by decide) (by decide) (by decide) (by decide) exEll_p_2 (exDir_args (by ex_args)) (apart_blk (by decide)) ⟨apart_blk (by decide), apart_blk (by decide)⟩
     exDir_u2 c1 c2 hR
    (exSolve_args (by ex_args)) (ex_apart (by decide))  exSolve_u2 (exSolve_f (exRat_ok rfl (by decide) (by decide)) rfl) exSolve_t2 exSolve_out2 exSolve_err2 l

/-- 3D, Poisson operator, damped Jacobi: if flux and apply kernel take `X` to `G`, then off-diagonal and diagonal kernel followed by `l` sweeps for the right
hand side `G` bring the unknowns to within `rate^l (K / 4) E` of `X`, `K` the sum of the squares of the number of cells plus one along each axis. -/
theorem C63_jacobi_3d {i0 j0 k0 i1 j1 k1 gcw rgcw sgcw fgcw : Int} {beta : T} {dx : Nat → T} {u f0 f1 f2 res st rhs o r : Ptr} {β1 β2 : Nat → Backend} {β3 β4 : Backend} {m mX m1 m2 : Mem T} {G U X : List Int → T} {E : T}
    (hβ1 : ∀ n, ValidBackend (β1 n)) (hβ2 : ∀ n, ValidBackend (β2 n)) (hβ3 : ValidBackend β3) (hβ4 : ValidBackend β4)
    (hi : i0 ≤ i1) (hj : j0 ≤ j1) (hk : k0 ≤ k1) (hg : 1 ≤ gcw) (hrgcw : 0 ≤ rgcw) (hs : 0 ≤ sgcw) (hfg : 0 ≤ fgcw) (he : F.Elliptic3 i0 j0 k0 i1 j1 k1 0 beta dx (fun _ => 1) (fun _ => 1) (fun _ => 1) (fun _ => 1))
    (h : F.Args mX [(F.cell3d u i0 j0 k0 i1 j1 k1 gcw)] [(F.face3d0 f0 i0 j0 k0 i1 j1 k1 0), (F.face3d1 f1 i0 j0 k0 i1 j1 k1 0), (F.face3d2 f2 i0 j0 k0 i1 j1 k1 0), (F.cell3d res i0 j0 k0 i1 j1 k1 rgcw)])
    (hp : F.Apart (F.face3d0 f0 i0 j0 k0 i1 j1 k1 0) (F.face3d1 f1 i0 j0 k0 i1 j1 k1 0) ∧ F.Apart (F.face3d0 f0 i0 j0 k0 i1 j1 k1 0) (F.face3d2 f2 i0 j0 k0 i1 j1 k1 0) ∧ F.Apart (F.face3d1 f1 i0 j0 k0 i1 j1 k1 0) (F.face3d2 f2 i0 j0 k0 i1 j1 k1 0))
    (hr : F.Apart (F.cell3d res i0 j0 k0 i1 j1 k1 rgcw) (F.face3d0 f0 i0 j0 k0 i1 j1 k1 0) ∧ F.Apart (F.cell3d res i0 j0 k0 i1 j1 k1 rgcw) (F.face3d1 f1 i0 j0 k0 i1 j1 k1 0) ∧ F.Apart (F.cell3d res i0 j0 k0 i1 j1 k1 rgcw) (F.face3d2 f2 i0 j0 k0 i1 j1 k1 0)) (hXX : F.Holds mX (F.cell3d u i0 j0 k0 i1 j1 k1 gcw) X)
    (c1 : Cuda.poissonFlux3d i0 j0 k0 i1 j1 k1 dx gcw u f0 f1 f2 β1 mX = .ok m1) (c2 : Cuda.poissonV2Apply3d i0 i1 j0 j1 k0 k1 beta dx f0 f1 f2 rgcw res β2 m1 = .ok m2)
    (hR : ∀ p, F.InBounds [(i0, i1), (j0, j1), (k0, k1)] p → F.El m2 (F.cell3d res i0 j0 k0 i1 j1 k1 rgcw) p (G p))
    (h2 : F.Args m [(F.cell3d u i0 j0 k0 i1 j1 k1 gcw), (F.cell3d rhs i0 j0 k0 i1 j1 k1 fgcw), (F.box3d r i0 j0 k0 i1 j1 k1)] [(F.st3d st i0 j0 k0 i1 j1 k1 sgcw)]) (huf : F.Apart (F.cell3d u i0 j0 k0 i1 j1 k1 gcw) (F.cell3d rhs i0 j0 k0 i1 j1 k1 fgcw)) (hru : F.Apart (F.box3d r i0 j0 k0 i1 j1 k1) (F.cell3d u i0 j0 k0 i1 j1 k1 gcw)) (hrf : F.Apart (F.box3d r i0 j0 k0 i1 j1 k1) (F.cell3d rhs i0 j0 k0 i1 j1 k1 fgcw))
     (hU : F.Holds m (F.cell3d u i0 j0 k0 i1 j1 k1 gcw) U) (hG : F.Holds m (F.cell3d rhs i0 j0 k0 i1 j1 k1 fgcw) G) (ht : F.Rows m (F.offset0 o 3 7) F.points3)
    (hUX : ∀ p, ¬ F.InBounds [(i0, i1), (j0, j1), (k0, k1)] p → U p = X p) (hE : ∀ p, F.InBounds [(i0, i1), (j0, j1), (k0, k1)] p → |U p - X p| ≤ E) (l : Nat) :
    ∃ s1 s2 m' U', Cuda.poissonOffdiag3d i0 j0 k0 i1 j1 k1 dx beta sgcw st β3 m = .ok s1 ∧ Cuda.poissonDiag3d i0 j0 k0 i1 j1 k1 sgcw st β4 s1 = .ok s2 ∧
      F.times (F.celljacobi3d i0 i1 j0 j1 k0 k1 7 o (i0 - sgcw) (i1 + sgcw) (j0 - sgcw) (j1 + sgcw) (k0 - sgcw) (k1 + sgcw) st (i0 - fgcw) (i1 + fgcw) (j0 - fgcw) (j1 + fgcw) (k0 - fgcw) (k1 + fgcw) rhs (i0 - gcw) (i1 + gcw) (j0 - gcw) (j1 + gcw) (k0 - gcw) (k1 + gcw) u r) l s2 = .ok m' ∧
      F.Holds m' (F.cell3d u i0 j0 k0 i1 j1 k1 gcw) U' ∧ F.Only [(F.st3d st i0 j0 k0 i1 j1 k1 sgcw), (F.cell3d u i0 j0 k0 i1 j1 k1 gcw), (F.box3d r i0 j0 k0 i1 j1 k1)] m m' ∧
      (∀ p, ¬ F.InBounds [(i0, i1), (j0, j1), (k0, k1)] p → U' p = X p) ∧ ∀ p, F.InBounds [(i0, i1), (j0, j1), (k0, k1)] p → |U' p - X p| ≤ (1 - ((8 : Nat) / (10 : Nat) : T) + ((8 : Nat) / (10 : Nat) : T) * (1 - 4 / (((i1 - i0 + 2) * (i1 - i0 + 2) + (j1 - j0 + 2) * (j1 - j0 + 2) + (k1 - k0 + 2) * (k1 - k0 + 2) : Int) : T))) ^ l * ((((i1 - i0 + 2) * (i1 - i0 + 2) + (j1 - j0 + 2) * (j1 - j0 + 2) + (k1 - k0 + 2) * (k1 - k0 + 2) : Int) : T) / 4 * E) := by
  obtain ⟨m1', m2', R, d1, d2, ER, hop⟩ := energy_p_3 (beta := beta) (dx := dx) hβ1 hβ2 hi hj hk hg hrgcw h hp hr hXX
  obtain rfl : m1 = m1' := Except.ok.inj (c1.symm.trans d1)
  obtain rfl : m2 = m2' := Except.ok.inj (c2.symm.trans d2)
  obtain ⟨s1, s2, S, a1, a2, ho, hp, hc⟩ := prob_p_3 (beta := beta) (dx := dx) (o := o) hβ3 hβ4 hi hj hk hs hg hfg (h2.sub (by intro x hx; simp only [List.mem_cons, List.not_mem_nil, or_false] at hx ⊢; tauto) (fun _ e => e)) huf  hU hG ht
  have hX : ∀ p, F.InBounds [(i0, i1), (j0, j1), (k0, k1)] p → F.Eqn 7 (F.row F.points3) S G X p := fun p hp => by
    have e := (ER p hp).rd.symm.trans (hR p hp).rd
    rw [F.inBounds3] at hp
    obtain ⟨i, j, k, rfl, hp⟩ := hp
    rw [F.eqn3 (hc i j k (by omega) (by omega) (by omega) (by omega) (by omega) (by omega)), ← hop i j k (by omega) (by omega) (by omega) (by omega) (by omega) (by omega)]
    exact e
  have hD := F.domp3 he hc hi hj hk
  have hE0 : 0 ≤ E := (abs_nonneg _).trans (hE [i0, j0, k0] (F.inBounds3.2 ⟨i0, j0, k0, rfl, by omega⟩))
  have hE1 : ∀ p, F.InBounds [(i0, i1), (j0, j1), (k0, k1)] p → |U p - X p| ≤ E * (fun p => (F.hill3 i0 j0 k0 i1 j1 k1 p : T)) p := fun p hp => by
    refine (hE p hp).trans (le_mul_of_one_le_right hE0 ?_)
    rw [F.inBounds3] at hp
    obtain ⟨i, j, k, rfl, hp⟩ := hp
    have := F.hill3_ge (i0 := i0) (j0 := j0) (k0 := k0) (i1 := i1) (j1 := j1) (k1 := k1) (i := i) (j := j) (k := k) (by omega) (by omega) (by omega) (by omega) (by omega) (by omega)
    show (1 : T) ≤ (F.hill3 i0 j0 k0 i1 j1 k1 [i, j, k] : T)
    exact_mod_cast this
  have hK : (4 : Int) ≤ (i1 - i0 + 2) * (i1 - i0 + 2) + (j1 - j0 + 2) * (j1 - j0 + 2) + (k1 - k0 + 2) * (k1 - k0 + 2) := by
    have kk0 : 2 * 2 ≤ (i1 - i0 + 2) * (i1 - i0 + 2) := mul_le_mul (by omega) (by omega) (by decide) (by omega)
    have kk1 : 2 * 2 ≤ (j1 - j0 + 2) * (j1 - j0 + 2) := mul_le_mul (by omega) (by omega) (by decide) (by omega)
    have kk2 : 2 * 2 ≤ (k1 - k0 + 2) * (k1 - k0 + 2) := mul_le_mul (by omega) (by omega) (by decide) (by omega)
    omega
  have hK : (4 : T) ≤ (((i1 - i0 + 2) * (i1 - i0 + 2) + (j1 - j0 + 2) * (j1 - j0 + 2) + (k1 - k0 + 2) * (k1 - k0 + 2) : Int) : T) := by exact_mod_cast hK
  have hq0 : 0 ≤ 1 - 4 / (((i1 - i0 + 2) * (i1 - i0 + 2) + (j1 - j0 + 2) * (j1 - j0 + 2) + (k1 - k0 + 2) * (k1 - k0 + 2) : Int) : T) := sub_nonneg.2 ((div_le_one (by linarith)).2 hK)
  have h1 : 1 - 4 / (((i1 - i0 + 2) * (i1 - i0 + 2) + (j1 - j0 + 2) * (j1 - j0 + 2) + (k1 - k0 + 2) * (k1 - k0 + 2) : Int) : T) ≤ 1 := sub_le_self _ (div_nonneg (by norm_num) (by linarith))
  have hr2 : F.Holds s2 (F.box3d r i0 j0 k0 i1 j1 k1) (F.rd m (F.box3d r i0 j0 k0 i1 j1 k1)) := F.Holds.only (fun is hi => (h2.ok (F.box3d r i0 j0 k0 i1 j1 k1) (by simp)).rd hi) ho (by simp only [List.mem_cons, List.not_mem_nil, or_false, forall_eq]; exact h2.apart _ (by simp) _ (by simp))
  obtain ⟨m', U', t, w1, w2, w3, w4⟩ := C59_jacobi_3d hp hr2 hru (F.apart_symm (h2.apart (F.st3d st i0 j0 k0 i1 j1 k1 sgcw) (by simp) (F.box3d r i0 j0 k0 i1 j1 k1) (by simp))) hrf rfl hD hX hUX hE1 l
  refine ⟨s1, s2, m', U', a1, a2, t, w1, (ho.mono (by simp)).trans (w2.mono fun _ ha => List.mem_cons_of_mem _ ha), w3, fun p hp => ?_⟩
  refine (w4 p hp).trans ?_
  rw [F.inBounds3] at hp
  obtain ⟨i, j, k, rfl, hp⟩ := hp
  have := F.hill3_le (i0 := i0) (j0 := j0) (k0 := k0) (i1 := i1) (j1 := j1) (k1 := k1) (i := i) (j := j) (k := k) (by omega) (by omega) (by omega) (by omega) (by omega) (by omega)
  have : 4 * (F.hill3 i0 j0 k0 i1 j1 k1 [i, j, k] : T) ≤ (((i1 - i0 + 2) * (i1 - i0 + 2) + (j1 - j0 + 2) * (j1 - j0 + 2) + (k1 - k0 + 2) * (k1 - k0 + 2) : Int) : T) := by exact_mod_cast this
  rw [mul_assoc]
  refine mul_le_mul_of_nonneg_left ?_ (pow_nonneg ?_ l)
  · have := mul_le_mul_of_nonneg_left this hE0
    linarith
  · refine add_nonneg (by norm_num) (mul_nonneg (by positivity) hq0)

example (l : Nat) : ∃ s1 s2 m' U', Cuda.poissonOffdiag3d 0 1 2 1 2 3 exDx 2 1 ⟨9, 0⟩ revBackend (exSolve 3) = .ok s1 ∧ Cuda.poissonDiag3d 0 1 2 1 2 3 1 ⟨9, 0⟩ seqBackend s1 = .ok s2 ∧
      F.times (F.celljacobi3d 0 1 1 2 2 3 7 ⟨23, 0⟩ (0 - 1) (1 + 1) (1 - 1) (2 + 1) (2 - 1) (3 + 1) ⟨9, 0⟩ (0 - 2) (1 + 2) (1 - 2) (2 + 2) (2 - 2) (3 + 2) ⟨10, 0⟩ (0 - 2) (1 + 2) (1 - 2) (2 + 2) (2 - 2) (3 + 2) ⟨1, 0⟩ ⟨11, 0⟩) l s2 = .ok m' ∧
      F.Holds m' (F.cell3d ⟨1, 0⟩ 0 1 2 1 2 3 2) U' ∧ F.Only [(F.st3d ⟨9, 0⟩ 0 1 2 1 2 3 1), (F.cell3d ⟨1, 0⟩ 0 1 2 1 2 3 2), (F.box3d ⟨11, 0⟩ 0 1 2 1 2 3)] (exSolve 3) m' ∧
      (∀ p, ¬ F.InBounds [(0, 1), (1, 2), (2, 3)] p → U' p = exIns 3 0 p) ∧ ∀ p, F.InBounds [(0, 1), (1, 2), (2, 3)] p → |U' p - exIns 3 0 p| ≤ (1 - ((8 : Nat) / (10 : Nat) : Rat) + ((8 : Nat) / (10 : Nat) : Rat) * (1 - 4 / (((1 - 0 + 2) * (1 - 0 + 2) + (2 - 1 + 2) * (2 - 1 + 2) + (3 - 2 + 2) * (3 - 2 + 2) : Int) : Rat))) ^ l * ((((1 - 0 + 2) * (1 - 0 + 2) + (2 - 1 + 2) * (2 - 1 + 2) + (3 - 2 + 2) * (3 - 2 + 2) : Int) : Rat) / 4 * 5) := by
  obtain ⟨m1, m2, c1, c2, hR⟩ := exRun_p_3
  exact C63_jacobi_3d (T := Rat) (fun _ => revBackend_ok) (fun _ => seqBackend_ok) revBackend_ok seqBackend_ok (by decide) (by decide) (by decide) (by decide) (by decide) (by decide) (by decide) exEll_p_3 (exDir_args (by ex_args)) (⟨apart_blk (by decide), apart_blk (by decide), apart_blk (by decide)⟩) ⟨apart_blk (by decide), apart_blk (by decide), apart_blk (by decide)⟩
     exDir_u3 c1 c2 hR
    (exSolve_args (by ex_args)) (ex_apart (by decide)) (ex_apart (by decide)) (ex_apart (by decide))  exSolve_u3 (exSolve_f (exRat_ok rfl (by decide) (by decide)) rfl) exSolve_t3 exSolve_out3 exSolve_err3 l

/-- 3D, Poisson operator, Gauss-Seidel: if flux and apply kernel take `X` to `G`, then off-diagonal and diagonal kernel followed by `l` sweeps for the right
hand side `G` bring the unknowns to within `rate^l (K / 4) E` of `X`, `K` the sum of the squares of the number of cells plus one along each axis. -/
theorem C63_gs_3d {i0 j0 k0 i1 j1 k1 gcw rgcw sgcw fgcw : Int} {beta : T} {dx : Nat → T} {u f0 f1 f2 res st rhs o : Ptr} {β1 β2 : Nat → Backend} {β3 β4 : Backend} {m mX m1 m2 : Mem T} {G U X : List Int → T} {E : T}
    (hβ1 : ∀ n, ValidBackend (β1 n)) (hβ2 : ∀ n, ValidBackend (β2 n)) (hβ3 : ValidBackend β3) (hβ4 : ValidBackend β4)
    (hi : i0 ≤ i1) (hj : j0 ≤ j1) (hk : k0 ≤ k1) (hg : 1 ≤ gcw) (hrgcw : 0 ≤ rgcw) (hs : 0 ≤ sgcw) (hfg : 0 ≤ fgcw) (he : F.Elliptic3 i0 j0 k0 i1 j1 k1 0 beta dx (fun _ => 1) (fun _ => 1) (fun _ => 1) (fun _ => 1))
    (h : F.Args mX [(F.cell3d u i0 j0 k0 i1 j1 k1 gcw)] [(F.face3d0 f0 i0 j0 k0 i1 j1 k1 0), (F.face3d1 f1 i0 j0 k0 i1 j1 k1 0), (F.face3d2 f2 i0 j0 k0 i1 j1 k1 0), (F.cell3d res i0 j0 k0 i1 j1 k1 rgcw)])
    (hp : F.Apart (F.face3d0 f0 i0 j0 k0 i1 j1 k1 0) (F.face3d1 f1 i0 j0 k0 i1 j1 k1 0) ∧ F.Apart (F.face3d0 f0 i0 j0 k0 i1 j1 k1 0) (F.face3d2 f2 i0 j0 k0 i1 j1 k1 0) ∧ F.Apart (F.face3d1 f1 i0 j0 k0 i1 j1 k1 0) (F.face3d2 f2 i0 j0 k0 i1 j1 k1 0))
    (hr : F.Apart (F.cell3d res i0 j0 k0 i1 j1 k1 rgcw) (F.face3d0 f0 i0 j0 k0 i1 j1 k1 0) ∧ F.Apart (F.cell3d res i0 j0 k0 i1 j1 k1 rgcw) (F.face3d1 f1 i0 j0 k0 i1 j1 k1 0) ∧ F.Apart (F.cell3d res i0 j0 k0 i1 j1 k1 rgcw) (F.face3d2 f2 i0 j0 k0 i1 j1 k1 0)) (hXX : F.Holds mX (F.cell3d u i0 j0 k0 i1 j1 k1 gcw) X)
    (c1 : Cuda.poissonFlux3d i0 j0 k0 i1 j1 k1 dx gcw u f0 f1 f2 β1 mX = .ok m1) (c2 : Cuda.poissonV2Apply3d i0 i1 j0 j1 k0 k1 beta dx f0 f1 f2 rgcw res β2 m1 = .ok m2)
    (hR : ∀ p, F.InBounds [(i0, i1), (j0, j1), (k0, k1)] p → F.El m2 (F.cell3d res i0 j0 k0 i1 j1 k1 rgcw) p (G p))
    (h2 : F.Args m [(F.cell3d u i0 j0 k0 i1 j1 k1 gcw), (F.cell3d rhs i0 j0 k0 i1 j1 k1 fgcw)] [(F.st3d st i0 j0 k0 i1 j1 k1 sgcw)]) (huf : F.Apart (F.cell3d u i0 j0 k0 i1 j1 k1 gcw) (F.cell3d rhs i0 j0 k0 i1 j1 k1 fgcw))
     (hU : F.Holds m (F.cell3d u i0 j0 k0 i1 j1 k1 gcw) U) (hG : F.Holds m (F.cell3d rhs i0 j0 k0 i1 j1 k1 fgcw) G) (ht : F.Rows m (F.offset0 o 3 7) F.points3)
    (hUX : ∀ p, ¬ F.InBounds [(i0, i1), (j0, j1), (k0, k1)] p → U p = X p) (hE : ∀ p, F.InBounds [(i0, i1), (j0, j1), (k0, k1)] p → |U p - X p| ≤ E) (l : Nat) :
    ∃ s1 s2 m' U', Cuda.poissonOffdiag3d i0 j0 k0 i1 j1 k1 dx beta sgcw st β3 m = .ok s1 ∧ Cuda.poissonDiag3d i0 j0 k0 i1 j1 k1 sgcw st β4 s1 = .ok s2 ∧
      F.times (F.cellgs3d i0 i1 j0 j1 k0 k1 7 o (i0 - sgcw) (i1 + sgcw) (j0 - sgcw) (j1 + sgcw) (k0 - sgcw) (k1 + sgcw) st (i0 - fgcw) (i1 + fgcw) (j0 - fgcw) (j1 + fgcw) (k0 - fgcw) (k1 + fgcw) rhs (i0 - gcw) (i1 + gcw) (j0 - gcw) (j1 + gcw) (k0 - gcw) (k1 + gcw) u) l s2 = .ok m' ∧
      F.Holds m' (F.cell3d u i0 j0 k0 i1 j1 k1 gcw) U' ∧ F.Only [(F.st3d st i0 j0 k0 i1 j1 k1 sgcw), (F.cell3d u i0 j0 k0 i1 j1 k1 gcw)] m m' ∧
      (∀ p, ¬ F.InBounds [(i0, i1), (j0, j1), (k0, k1)] p → U' p = X p) ∧ ∀ p, F.InBounds [(i0, i1), (j0, j1), (k0, k1)] p → |U' p - X p| ≤ (1 - 4 / (((i1 - i0 + 2) * (i1 - i0 + 2) + (j1 - j0 + 2) * (j1 - j0 + 2) + (k1 - k0 + 2) * (k1 - k0 + 2) : Int) : T)) ^ l * ((((i1 - i0 + 2) * (i1 - i0 + 2) + (j1 - j0 + 2) * (j1 - j0 + 2) + (k1 - k0 + 2) * (k1 - k0 + 2) : Int) : T) / 4 * E) := by
  obtain ⟨m1', m2', R, d1, d2, ER, hop⟩ := energy_p_3 (beta := beta) (dx := dx) hβ1 hβ2 hi hj hk hg hrgcw h hp hr hXX
  obtain rfl : m1 = m1' := Except.ok.inj (c1.symm.trans d1)
  obtain rfl : m2 = m2' := Except.ok.inj (c2.symm.trans d2)
  obtain ⟨s1, s2, S, a1, a2, ho, hp, hc⟩ := prob_p_3 (beta := beta) (dx := dx) (o := o) hβ3 hβ4 hi hj hk hs hg hfg (h2.sub (by intro x hx; simp only [List.mem_cons, List.not_mem_nil, or_false] at hx ⊢; tauto) (fun _ e => e)) huf  hU hG ht
  have hX : ∀ p, F.InBounds [(i0, i1), (j0, j1), (k0, k1)] p → F.Eqn 7 (F.row F.points3) S G X p := fun p hp => by
    have e := (ER p hp).rd.symm.trans (hR p hp).rd
    rw [F.inBounds3] at hp
    obtain ⟨i, j, k, rfl, hp⟩ := hp
    rw [F.eqn3 (hc i j k (by omega) (by omega) (by omega) (by omega) (by omega) (by omega)), ← hop i j k (by omega) (by omega) (by omega) (by omega) (by omega) (by omega)]
    exact e
  have hD := F.domp3 he hc hi hj hk
  have hE0 : 0 ≤ E := (abs_nonneg _).trans (hE [i0, j0, k0] (F.inBounds3.2 ⟨i0, j0, k0, rfl, by omega⟩))
  have hE1 : ∀ p, F.InBounds [(i0, i1), (j0, j1), (k0, k1)] p → |U p - X p| ≤ E * (fun p => (F.hill3 i0 j0 k0 i1 j1 k1 p : T)) p := fun p hp => by
    refine (hE p hp).trans (le_mul_of_one_le_right hE0 ?_)
    rw [F.inBounds3] at hp
    obtain ⟨i, j, k, rfl, hp⟩ := hp
    have := F.hill3_ge (i0 := i0) (j0 := j0) (k0 := k0) (i1 := i1) (j1 := j1) (k1 := k1) (i := i) (j := j) (k := k) (by omega) (by omega) (by omega) (by omega) (by omega) (by omega)
    show (1 : T) ≤ (F.hill3 i0 j0 k0 i1 j1 k1 [i, j, k] : T)
    exact_mod_cast this
  have hK : (4 : Int) ≤ (i1 - i0 + 2) * (i1 - i0 + 2) + (j1 - j0 + 2) * (j1 - j0 + 2) + (k1 - k0 + 2) * (k1 - k0 + 2) := by
    have kk0 : 2 * 2 ≤ (i1 - i0 + 2) * (i1 - i0 + 2) := mul_le_mul (by omega) (by omega) (by decide) (by omega)
    have kk1 : 2 * 2 ≤ (j1 - j0 + 2) * (j1 - j0 + 2) := mul_le_mul (by omega) (by omega) (by decide) (by omega)
    have kk2 : 2 * 2 ≤ (k1 - k0 + 2) * (k1 - k0 + 2) := mul_le_mul (by omega) (by omega) (by decide) (by omega)
    omega
  have hK : (4 : T) ≤ (((i1 - i0 + 2) * (i1 - i0 + 2) + (j1 - j0 + 2) * (j1 - j0 + 2) + (k1 - k0 + 2) * (k1 - k0 + 2) : Int) : T) := by exact_mod_cast hK
  have hq0 : 0 ≤ 1 - 4 / (((i1 - i0 + 2) * (i1 - i0 + 2) + (j1 - j0 + 2) * (j1 - j0 + 2) + (k1 - k0 + 2) * (k1 - k0 + 2) : Int) : T) := sub_nonneg.2 ((div_le_one (by linarith)).2 hK)
  have h1 : 1 - 4 / (((i1 - i0 + 2) * (i1 - i0 + 2) + (j1 - j0 + 2) * (j1 - j0 + 2) + (k1 - k0 + 2) * (k1 - k0 + 2) : Int) : T) ≤ 1 := sub_le_self _ (div_nonneg (by norm_num) (by linarith))
  obtain ⟨m', U', t, w1, w2, w3, w4⟩ := C59_gs_3d hp rfl hD h1 hX hUX hE1 l
  refine ⟨s1, s2, m', U', a1, a2, t, w1, (ho.mono (by simp)).trans (w2.mono fun _ ha => List.mem_cons_of_mem _ ha), w3, fun p hp => ?_⟩
  refine (w4 p hp).trans ?_
  rw [F.inBounds3] at hp
  obtain ⟨i, j, k, rfl, hp⟩ := hp
  have := F.hill3_le (i0 := i0) (j0 := j0) (k0 := k0) (i1 := i1) (j1 := j1) (k1 := k1) (i := i) (j := j) (k := k) (by omega) (by omega) (by omega) (by omega) (by omega) (by omega)
  have : 4 * (F.hill3 i0 j0 k0 i1 j1 k1 [i, j, k] : T) ≤ (((i1 - i0 + 2) * (i1 - i0 + 2) + (j1 - j0 + 2) * (j1 - j0 + 2) + (k1 - k0 + 2) * (k1 - k0 + 2) : Int) : T) := by exact_mod_cast this
  rw [mul_assoc]
  refine mul_le_mul_of_nonneg_left ?_ (pow_nonneg ?_ l)
  · have := mul_le_mul_of_nonneg_left this hE0
    linarith
  · exact hq0

example (l : Nat) : ∃ s1 s2 m' U', Cuda.poissonOffdiag3d 0 1 2 1 2 3 exDx 2 1 ⟨9, 0⟩ revBackend (exSolve 3) = .ok s1 ∧ Cuda.poissonDiag3d 0 1 2 1 2 3 1 ⟨9, 0⟩ seqBackend s1 = .ok s2 ∧
      F.times (F.cellgs3d 0 1 1 2 2 3 7 ⟨23, 0⟩ (0 - 1) (1 + 1) (1 - 1) (2 + 1) (2 - 1) (3 + 1) ⟨9, 0⟩ (0 - 2) (1 + 2) (1 - 2) (2 + 2) (2 - 2) (3 + 2) ⟨10, 0⟩ (0 - 2) (1 + 2) (1 - 2) (2 + 2) (2 - 2) (3 + 2) ⟨1, 0⟩) l s2 = .ok m' ∧
      F.Holds m' (F.cell3d ⟨1, 0⟩ 0 1 2 1 2 3 2) U' ∧ F.Only [(F.st3d ⟨9, 0⟩ 0 1 2 1 2 3 1), (F.cell3d ⟨1, 0⟩ 0 1 2 1 2 3 2)] (exSolve 3) m' ∧
      (∀ p, ¬ F.InBounds [(0, 1), (1, 2), (2, 3)] p → U' p = exIns 3 0 p) ∧ ∀ p, F.InBounds [(0, 1), (1, 2), (2, 3)] p → |U' p - exIns 3 0 p| ≤ (1 - 4 / (((1 - 0 + 2) * (1 - 0 + 2) + (2 - 1 + 2) * (2 - 1 + 2) + (3 - 2 + 2) * (3 - 2 + 2) : Int) : Rat)) ^ l * ((((1 - 0 + 2) * (1 - 0 + 2) + (2 - 1 + 2) * (2 - 1 + 2) + (3 - 2 + 2) * (3 - 2 + 2) : Int) : Rat) / 4 * 5) := by
  obtain ⟨m1, m2, c1, c2, hR⟩ := exRun_p_3
  exact C63_gs_3d (T := Rat) (fun _ => revBackend_ok) (fun _ => seqBackend_ok) revBackend_ok seqBackend_ok (by decide) (by decide) (by decide) (by decide) (by decide) (by decide) (by decide) exEll_p_3 (exDir_args (by ex_args)) (⟨apart_blk (by decide), apart_blk (by decide), apart_blk (by decide)⟩) ⟨apart_blk (by decide), apart_blk (by decide), apart_blk (by decide)⟩
     exDir_u3 c1 c2 hR
    (exSolve_args (by ex_args)) (ex_apart (by decide))  exSolve_u3 (exSolve_f (exRat_ok rfl (by decide) (by decide)) rfl) exSolve_t3 exSolve_out3 exSolve_err3 l

/-- 3D, Poisson operator, red-black Gauss-Seidel: if flux and apply kernel take `X` to `G`, then off-diagonal and diagonal kernel followed by `l` pairs of sweeps for the right
hand side `G` bring the unknowns to within `rate^l (K / 4) E` of `X`, `K` the sum of the squares of the number of cells plus one along each axis. -/
theorem C63_rbgs_3d {i0 j0 k0 i1 j1 k1 gcw rgcw sgcw fgcw color color2 : Int} {beta : T} {dx : Nat → T} {u f0 f1 f2 res st rhs o : Ptr} {β1 β2 : Nat → Backend} {β3 β4 : Backend} {m mX m1 m2 : Mem T} {G U X : List Int → T} {E : T}
    (hβ1 : ∀ n, ValidBackend (β1 n)) (hβ2 : ∀ n, ValidBackend (β2 n)) (hβ3 : ValidBackend β3) (hβ4 : ValidBackend β4)
    (hi : i0 ≤ i1) (hj : j0 ≤ j1) (hk : k0 ≤ k1) (hg : 1 ≤ gcw) (hrgcw : 0 ≤ rgcw) (hs : 0 ≤ sgcw) (hfg : 0 ≤ fgcw) (hc' : 0 ≤ color) (hc2 : 0 ≤ color2) (hcc : (color2 - color) % 2 = 1) (he : F.Elliptic3 i0 j0 k0 i1 j1 k1 0 beta dx (fun _ => 1) (fun _ => 1) (fun _ => 1) (fun _ => 1))
    (h : F.Args mX [(F.cell3d u i0 j0 k0 i1 j1 k1 gcw)] [(F.face3d0 f0 i0 j0 k0 i1 j1 k1 0), (F.face3d1 f1 i0 j0 k0 i1 j1 k1 0), (F.face3d2 f2 i0 j0 k0 i1 j1 k1 0), (F.cell3d res i0 j0 k0 i1 j1 k1 rgcw)])
    (hp : F.Apart (F.face3d0 f0 i0 j0 k0 i1 j1 k1 0) (F.face3d1 f1 i0 j0 k0 i1 j1 k1 0) ∧ F.Apart (F.face3d0 f0 i0 j0 k0 i1 j1 k1 0) (F.face3d2 f2 i0 j0 k0 i1 j1 k1 0) ∧ F.Apart (F.face3d1 f1 i0 j0 k0 i1 j1 k1 0) (F.face3d2 f2 i0 j0 k0 i1 j1 k1 0))
    (hr : F.Apart (F.cell3d res i0 j0 k0 i1 j1 k1 rgcw) (F.face3d0 f0 i0 j0 k0 i1 j1 k1 0) ∧ F.Apart (F.cell3d res i0 j0 k0 i1 j1 k1 rgcw) (F.face3d1 f1 i0 j0 k0 i1 j1 k1 0) ∧ F.Apart (F.cell3d res i0 j0 k0 i1 j1 k1 rgcw) (F.face3d2 f2 i0 j0 k0 i1 j1 k1 0)) (hXX : F.Holds mX (F.cell3d u i0 j0 k0 i1 j1 k1 gcw) X)
    (c1 : Cuda.poissonFlux3d i0 j0 k0 i1 j1 k1 dx gcw u f0 f1 f2 β1 mX = .ok m1) (c2 : Cuda.poissonV2Apply3d i0 i1 j0 j1 k0 k1 beta dx f0 f1 f2 rgcw res β2 m1 = .ok m2)
    (hR : ∀ p, F.InBounds [(i0, i1), (j0, j1), (k0, k1)] p → F.El m2 (F.cell3d res i0 j0 k0 i1 j1 k1 rgcw) p (G p))
    (h2 : F.Args m [(F.cell3d u i0 j0 k0 i1 j1 k1 gcw), (F.cell3d rhs i0 j0 k0 i1 j1 k1 fgcw)] [(F.st3d st i0 j0 k0 i1 j1 k1 sgcw)]) (huf : F.Apart (F.cell3d u i0 j0 k0 i1 j1 k1 gcw) (F.cell3d rhs i0 j0 k0 i1 j1 k1 fgcw))
     (hU : F.Holds m (F.cell3d u i0 j0 k0 i1 j1 k1 gcw) U) (hG : F.Holds m (F.cell3d rhs i0 j0 k0 i1 j1 k1 fgcw) G) (ht : F.Rows m (F.offset0 o 3 7) F.points3)
    (hUX : ∀ p, ¬ F.InBounds [(i0, i1), (j0, j1), (k0, k1)] p → U p = X p) (hE : ∀ p, F.InBounds [(i0, i1), (j0, j1), (k0, k1)] p → |U p - X p| ≤ E) (l : Nat) :
    ∃ s1 s2 m' U', Cuda.poissonOffdiag3d i0 j0 k0 i1 j1 k1 dx beta sgcw st β3 m = .ok s1 ∧ Cuda.poissonDiag3d i0 j0 k0 i1 j1 k1 sgcw st β4 s1 = .ok s2 ∧
      F.times (fun m => F.cellrbgs3d i0 i1 j0 j1 k0 k1 color 7 o (i0 - sgcw) (i1 + sgcw) (j0 - sgcw) (j1 + sgcw) (k0 - sgcw) (k1 + sgcw) st (i0 - fgcw) (i1 + fgcw) (j0 - fgcw) (j1 + fgcw) (k0 - fgcw) (k1 + fgcw) rhs (i0 - gcw) (i1 + gcw) (j0 - gcw) (j1 + gcw) (k0 - gcw) (k1 + gcw) u m >>=
        F.cellrbgs3d i0 i1 j0 j1 k0 k1 color2 7 o (i0 - sgcw) (i1 + sgcw) (j0 - sgcw) (j1 + sgcw) (k0 - sgcw) (k1 + sgcw) st (i0 - fgcw) (i1 + fgcw) (j0 - fgcw) (j1 + fgcw) (k0 - fgcw) (k1 + fgcw) rhs (i0 - gcw) (i1 + gcw) (j0 - gcw) (j1 + gcw) (k0 - gcw) (k1 + gcw) u) l s2 = .ok m' ∧
      F.Holds m' (F.cell3d u i0 j0 k0 i1 j1 k1 gcw) U' ∧ F.Only [(F.st3d st i0 j0 k0 i1 j1 k1 sgcw), (F.cell3d u i0 j0 k0 i1 j1 k1 gcw)] m m' ∧
      (∀ p, ¬ F.InBounds [(i0, i1), (j0, j1), (k0, k1)] p → U' p = X p) ∧ ∀ p, F.InBounds [(i0, i1), (j0, j1), (k0, k1)] p → |U' p - X p| ≤ (1 - 4 / (((i1 - i0 + 2) * (i1 - i0 + 2) + (j1 - j0 + 2) * (j1 - j0 + 2) + (k1 - k0 + 2) * (k1 - k0 + 2) : Int) : T)) ^ l * ((((i1 - i0 + 2) * (i1 - i0 + 2) + (j1 - j0 + 2) * (j1 - j0 + 2) + (k1 - k0 + 2) * (k1 - k0 + 2) : Int) : T) / 4 * E) := by
  obtain ⟨m1', m2', R, d1, d2, ER, hop⟩ := energy_p_3 (beta := beta) (dx := dx) hβ1 hβ2 hi hj hk hg hrgcw h hp hr hXX
  obtain rfl : m1 = m1' := Except.ok.inj (c1.symm.trans d1)
  obtain rfl : m2 = m2' := Except.ok.inj (c2.symm.trans d2)
  obtain ⟨s1, s2, S, a1, a2, ho, hp, hc⟩ := prob_p_3 (beta := beta) (dx := dx) (o := o) hβ3 hβ4 hi hj hk hs hg hfg (h2.sub (by intro x hx; simp only [List.mem_cons, List.not_mem_nil, or_false] at hx ⊢; tauto) (fun _ e => e)) huf  hU hG ht
  have hX : ∀ p, F.InBounds [(i0, i1), (j0, j1), (k0, k1)] p → F.Eqn 7 (F.row F.points3) S G X p := fun p hp => by
    have e := (ER p hp).rd.symm.trans (hR p hp).rd
    rw [F.inBounds3] at hp
    obtain ⟨i, j, k, rfl, hp⟩ := hp
    rw [F.eqn3 (hc i j k (by omega) (by omega) (by omega) (by omega) (by omega) (by omega)), ← hop i j k (by omega) (by omega) (by omega) (by omega) (by omega) (by omega)]
    exact e
  have hD := F.domp3 he hc hi hj hk
  have hE0 : 0 ≤ E := (abs_nonneg _).trans (hE [i0, j0, k0] (F.inBounds3.2 ⟨i0, j0, k0, rfl, by omega⟩))
  have hE1 : ∀ p, F.InBounds [(i0, i1), (j0, j1), (k0, k1)] p → |U p - X p| ≤ E * (fun p => (F.hill3 i0 j0 k0 i1 j1 k1 p : T)) p := fun p hp => by
    refine (hE p hp).trans (le_mul_of_one_le_right hE0 ?_)
    rw [F.inBounds3] at hp
    obtain ⟨i, j, k, rfl, hp⟩ := hp
    have := F.hill3_ge (i0 := i0) (j0 := j0) (k0 := k0) (i1 := i1) (j1 := j1) (k1 := k1) (i := i) (j := j) (k := k) (by omega) (by omega) (by omega) (by omega) (by omega) (by omega)
    show (1 : T) ≤ (F.hill3 i0 j0 k0 i1 j1 k1 [i, j, k] : T)
    exact_mod_cast this
  have hK : (4 : Int) ≤ (i1 - i0 + 2) * (i1 - i0 + 2) + (j1 - j0 + 2) * (j1 - j0 + 2) + (k1 - k0 + 2) * (k1 - k0 + 2) := by
    have kk0 : 2 * 2 ≤ (i1 - i0 + 2) * (i1 - i0 + 2) := mul_le_mul (by omega) (by omega) (by decide) (by omega)
    have kk1 : 2 * 2 ≤ (j1 - j0 + 2) * (j1 - j0 + 2) := mul_le_mul (by omega) (by omega) (by decide) (by omega)
    have kk2 : 2 * 2 ≤ (k1 - k0 + 2) * (k1 - k0 + 2) := mul_le_mul (by omega) (by omega) (by decide) (by omega)
    omega
  have hK : (4 : T) ≤ (((i1 - i0 + 2) * (i1 - i0 + 2) + (j1 - j0 + 2) * (j1 - j0 + 2) + (k1 - k0 + 2) * (k1 - k0 + 2) : Int) : T) := by exact_mod_cast hK
  have hq0 : 0 ≤ 1 - 4 / (((i1 - i0 + 2) * (i1 - i0 + 2) + (j1 - j0 + 2) * (j1 - j0 + 2) + (k1 - k0 + 2) * (k1 - k0 + 2) : Int) : T) := sub_nonneg.2 ((div_le_one (by linarith)).2 hK)
  have h1 : 1 - 4 / (((i1 - i0 + 2) * (i1 - i0 + 2) + (j1 - j0 + 2) * (j1 - j0 + 2) + (k1 - k0 + 2) * (k1 - k0 + 2) : Int) : T) ≤ 1 := sub_le_self _ (div_nonneg (by norm_num) (by linarith))
  obtain ⟨m', U', t, w1, w2, w3, w4⟩ := C59_rbgs_3d hc' hc2 hcc hp rfl hD h1 hX hUX hE1 l
  refine ⟨s1, s2, m', U', a1, a2, t, w1, (ho.mono (by simp)).trans (w2.mono fun _ ha => List.mem_cons_of_mem _ ha), w3, fun p hp => ?_⟩
  refine (w4 p hp).trans ?_
  rw [F.inBounds3] at hp
  obtain ⟨i, j, k, rfl, hp⟩ := hp
  have := F.hill3_le (i0 := i0) (j0 := j0) (k0 := k0) (i1 := i1) (j1 := j1) (k1 := k1) (i := i) (j := j) (k := k) (by omega) (by omega) (by omega) (by omega) (by omega) (by omega)
  have : 4 * (F.hill3 i0 j0 k0 i1 j1 k1 [i, j, k] : T) ≤ (((i1 - i0 + 2) * (i1 - i0 + 2) + (j1 - j0 + 2) * (j1 - j0 + 2) + (k1 - k0 + 2) * (k1 - k0 + 2) : Int) : T) := by exact_mod_cast this
  rw [mul_assoc]
  refine mul_le_mul_of_nonneg_left ?_ (pow_nonneg ?_ l)
  · have := mul_le_mul_of_nonneg_left this hE0
    linarith
  · exact hq0

example (l : Nat) : ∃ s1 s2 m' U', Cuda.poissonOffdiag3d 0 1 2 1 2 3 exDx 2 1 ⟨9, 0⟩ revBackend (exSolve 3) = .ok s1 ∧ Cuda.poissonDiag3d 0 1 2 1 2 3 1 ⟨9, 0⟩ seqBackend s1 = .ok s2 ∧
      F.times (fun μ => F.cellrbgs3d 0 1 1 2 2 3 0 7 ⟨23, 0⟩ (0 - 1) (1 + 1) (1 - 1) (2 + 1) (2 - 1) (3 + 1) ⟨9, 0⟩ (0 - 2) (1 + 2) (1 - 2) (2 + 2) (2 - 2) (3 + 2) ⟨10, 0⟩ (0 - 2) (1 + 2) (1 - 2) (2 + 2) (2 - 2) (3 + 2) ⟨1, 0⟩ μ >>=
        F.cellrbgs3d 0 1 1 2 2 3 1 7 ⟨23, 0⟩ (0 - 1) (1 + 1) (1 - 1) (2 + 1) (2 - 1) (3 + 1) ⟨9, 0⟩ (0 - 2) (1 + 2) (1 - 2) (2 + 2) (2 - 2) (3 + 2) ⟨10, 0⟩ (0 - 2) (1 + 2) (1 - 2) (2 + 2) (2 - 2) (3 + 2) ⟨1, 0⟩) l s2 = .ok m' ∧
      F.Holds m' (F.cell3d ⟨1, 0⟩ 0 1 2 1 2 3 2) U' ∧ F.Only [(F.st3d ⟨9, 0⟩ 0 1 2 1 2 3 1), (F.cell3d ⟨1, 0⟩ 0 1 2 1 2 3 2)] (exSolve 3) m' ∧
      (∀ p, ¬ F.InBounds [(0, 1), (1, 2), (2, 3)] p → U' p = exIns 3 0 p) ∧ ∀ p, F.InBounds [(0, 1), (1, 2), (2, 3)] p → |U' p - exIns 3 0 p| ≤ (1 - 4 / (((1 - 0 + 2) * (1 - 0 + 2) + (2 - 1 + 2) * (2 - 1 + 2) + (3 - 2 + 2) * (3 - 2 + 2) : Int) : Rat)) ^ l * ((((1 - 0 + 2) * (1 - 0 + 2) + (2 - 1 + 2) * (2 - 1 + 2) + (3 - 2 + 2) * (3 - 2 + 2) : Int) : Rat) / 4 * 5) := by
  obtain ⟨m1, m2, c1, c2, hR⟩ := exRun_p_3
  exact C63_rbgs_3d (T := Rat) (fun _ => revBackend_ok) (fun _ => seqBackend_ok) revBackend_ok seqBackend_ok (by decide) (by decide) (by decide) (by decide) (by decide) (by decide) (by decide) (by decide) (by decide) (by decide) exEll_p_3 (exDir_args (by ex_args)) (⟨apart_blk (by decide), apart_blk (by decide), apart_blk (by decide)⟩) ⟨apart_blk (by decide), apart_blk (by decide), apart_blk (by decide)⟩
     exDir_u3 c1 c2 hR
    (exSolve_args (by ex_args)) (ex_apart (by decide))  exSolve_u3 (exSolve_f (exRat_ok rfl (by decide) (by decide)) rfl) exSolve_t3 exSolve_out3 exSolve_err3 l

end Verif
