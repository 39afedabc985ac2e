import Verif.Lemmas.BoundaryEx
import Verif.Lemmas.BoundaryAsm
import Verif.Props.SmoothConv

/-
C84: assembling, adjusting for the boundary conditions and sweeping solves the boundary value problem.
-/

set_option linter.unusedVariables false
set_option linter.unusedSimpArgs false
set_option linter.unusedTactic false
set_option linter.unreachableTactic false

namespace Verif
open Spec

variable {T : Type} [Field T] [LinearOrder T] [IsStrictOrderedRing T]

/-- 1D, diffusion operator with cell coefficients, damped Jacobi: if flux and apply kernel take `X` to `G`, and `X` with its ghost values fulfils conditions of first order on pieces of the
boundary with the data in the ghost cells of the unknowns, then off-diagonal kernel, adjustment for each piece, diagonal kernel and its adjustment, followed by `l` sweeps for the right
hand side `G` bring the unknowns to within `rate^l E` of `X`. -/
theorem C84_jacobi_v1_1d {i0 i1 agcw gcw rgcw sgcw fgcw : Int} {alpha beta neu : T} {dx : Nat → T} {a u b0 f0 res st rhs o r : Ptr} {β1 β2 : Nat → Backend} {β3 β4 : Backend} {βs : F.Side1 → Backend} {sides : List F.Side1} {m mX m1 m2 : Mem T} {A B0 G U X : List Int → T} {E q : T}
    (hβ1 : ∀ n, ValidBackend (β1 n)) (hβ2 : ∀ n, ValidBackend (β2 n)) (hβ3 : ValidBackend β3) (hβ4 : ValidBackend β4) (hβs : ∀ s, ValidBackend (βs s))
    (hi : i0 ≤ i1) (hg : 1 ≤ gcw) (hagcw : 0 ≤ agcw) (hrgcw : 0 ≤ rgcw) (hs : 0 ≤ sgcw) (hfg : 0 ≤ fgcw) (he : F.Elliptic1 i0 i1 alpha beta dx A B0)
    (hdx : ∀ d, d < 1 → 0 < dx d)
    (hq : ∀ i, i0 ≤ i → i ≤ i1 → (1 - q) * (2 * (beta / (dx 0 * dx 0) * (B0 [i] + B0 [i + 1])) + alpha * A [i]) ≤ alpha * A [i]) (h1 : q < 1)
    (hl : ∀ s ∈ sides, Layer1 i0 i1 0 s.i0 s.i1 s.side) (hout : ∀ s ∈ sides, s.Outside i0 i1) (hfi : ∀ s ∈ sides, F.First s.btype s.order)
    (hd : F.Disjoint (sides.map (F.Side1.piece dx B0))) (hF : F.Fulfils [(i0, i1)] 3 (F.row F.points1) (sides.map (F.Side1.piece dx B0)) U X)
    (h : F.Args mX [(F.cell1d a i0 i1 agcw), (F.cell1d u i0 i1 gcw), (F.face1d b0 i0 i1 0)] [(F.face1d f0 i0 i1 0), (F.cell1d res i0 i1 rgcw)])
    (hr : F.Apart (F.cell1d res i0 i1 rgcw) (F.face1d f0 i0 i1 0)) (hAX : F.Holds mX (F.cell1d a i0 i1 agcw) A) (hB0X : F.Holds mX (F.face1d b0 i0 i1 0) B0) (hXX : F.Holds mX (F.cell1d u i0 i1 gcw) X)
    (c1 : Cuda.flux1d i0 i1 dx b0 gcw u f0 β1 mX = .ok m1) (c2 : Cuda.diffusionV1Apply1d i0 i1 alpha beta dx agcw a gcw u f0 rgcw res β2 m1 = .ok m2)
    (hR : ∀ p, F.InBounds [(i0, i1)] p → F.El m2 (F.cell1d res i0 i1 rgcw) p (G p))
    (h2 : F.Args m [(F.cell1d a i0 i1 agcw), (F.face1d b0 i0 i1 0), (F.cell1d u i0 i1 gcw), (F.cell1d rhs i0 i1 fgcw), (F.box1d r i0 i1)] [(F.st1d st i0 i1 sgcw)]) (huf : F.Apart (F.cell1d u i0 i1 gcw) (F.cell1d rhs i0 i1 fgcw)) (hru : F.Apart (F.box1d r i0 i1) (F.cell1d u i0 i1 gcw)) (hrf : F.Apart (F.box1d r i0 i1) (F.cell1d rhs i0 i1 fgcw))
    (hA : F.Holds m (F.cell1d a i0 i1 agcw) A) (hB0 : F.Holds m (F.face1d b0 i0 i1 0) B0) (hU : F.Holds m (F.cell1d u i0 i1 gcw) U) (hG : F.Holds m (F.cell1d rhs i0 i1 fgcw) G) (ht : F.Rows m (F.offset0 o 1 3) F.points1)
    (hE : ∀ p, F.InBounds [(i0, i1)] p → |U p - X p| ≤ E) (l : Nat) :
    ∃ s1 s2 s3 m' U', Cuda.offdiag1d i0 i1 i0 i1 dx beta b0 sgcw st β3 m = .ok s1 ∧
      sides.foldlM (fun m s => Cuda.adjOffdiag1d i0 i1 s.i0 s.i1 s.side s.btype s.order dx 2 neu beta b0 sgcw st (βs s) m) s1 = .ok s2 ∧ Cuda.v1diag1d i0 i1 (i0 - agcw) (i1 + agcw) alpha a sgcw st β4 s2 = .ok s3 ∧
      sides.foldlM (fun m s => Cuda.adjDiag1d i0 i1 s.i0 s.i1 s.side s.btype s.order dx beta b0 sgcw st (βs s) m) s3 = .ok s3 ∧
      F.times (F.celljacobi1d i0 i1 3 o (i0 - sgcw) (i1 + sgcw) st (i0 - fgcw) (i1 + fgcw) rhs (i0 - gcw) (i1 + gcw) u r) l s3 = .ok m' ∧
      F.Holds m' (F.cell1d u i0 i1 gcw) U' ∧ F.Only [(F.st1d st i0 i1 sgcw), (F.cell1d u i0 i1 gcw), (F.box1d r i0 i1)] m m' ∧
      (∀ p, ¬ F.InBounds [(i0, i1)] p → U' p = U p) ∧ ∀ p, F.InBounds [(i0, i1)] p → |U' p - X p| ≤ (1 - ((2 : Nat) / (3 : Nat) : T) + ((2 : Nat) / (3 : Nat) : T) * q) ^ l * E := by
  obtain ⟨m1', m2', R, d1, d2, ER, hop⟩ := energy_v1_1 (alpha := alpha) (beta := beta) (dx := dx) hβ1 hβ2 hi hg hagcw hrgcw h hr hAX hB0X hXX
  obtain rfl : m1 = m1' := Except.ok.inj (c1.symm.trans d1)
  obtain rfl : m2 = m2' := Except.ok.inj (c2.symm.trans d2)
  classical
  obtain ⟨Y, hY, hYD⟩ : ∃ Y : List Int → T, (∀ p, F.InBounds [(i0, i1)] p → Y p = X p) ∧ ∀ p, ¬ F.InBounds [(i0, i1)] p → Y p = U p :=
    ⟨fun p => if F.InBounds [(i0, i1)] p then X p else U p, fun p hp => if_pos hp, fun p hp => if_neg hp⟩
  obtain ⟨s1, s2, s3, S, a1, a2, a3, a4, ho, hp, hD, hX⟩ := bvp_v1_1 (alpha := alpha) (beta := beta) (neu := neu) (dx := dx) (o := o) (q := q) (X := X) (Y := Y) hβ3 hβ4 hβs hi hagcw hs hg hfg he hdx hq h1 hl hout hfi hd (h2.sub (by intro x hx; simp only [List.mem_cons, List.not_mem_nil, or_false] at hx ⊢; tauto) (fun _ e => e)) huf hA hB0 hU hG ht
    (fun i hi0 hi1 => by
      have hp : F.InBounds [(i0, i1)] [i] := F.inBounds1.2 ⟨i, rfl, by omega⟩
      rw [← hop i hi0 hi1]
      exact (ER _ hp).rd.symm.trans (hR _ hp).rd) hF hY hYD
  have hUY : ∀ p, ¬ F.InBounds [(i0, i1)] p → U p = Y p := fun p hp => (hYD p hp).symm
  have hE1 : ∀ p, F.InBounds [(i0, i1)] p → |U p - Y p| ≤ E * (fun _ => (1 : T)) p := fun p hp => by
    rw [hY p hp]
    simpa using hE p hp
  have hr2 : F.Holds s3 (F.box1d r i0 i1) (F.rd m (F.box1d r i0 i1)) := F.Holds.only (fun is hi => (h2.ok (F.box1d r i0 i1) (by simp)).rd hi) ho (by simp only [List.mem_cons, List.not_mem_nil, or_false, forall_eq]; exact h2.apart _ (by simp) _ (by simp))
  obtain ⟨m', U', t, w1, w2, w3, w4⟩ := C59_jacobi_1d hp hr2 hru (F.apart_symm (h2.apart (F.st1d st i0 i1 sgcw) (by simp) (F.box1d r i0 i1) (by simp))) hrf rfl hD hX hUY hE1 l
  refine ⟨s1, s2, s3, m', U', a1, a2, a3, a4, t, w1, (ho.mono (by simp)).trans (w2.mono fun _ ha => List.mem_cons_of_mem _ ha), fun p hp => (w3 p hp).trans (hYD p hp), fun p hp => ?_⟩
  rw [← hY p hp]
  simpa using w4 p hp

example (l : Nat) : ∃ s1 s2 s3 m' U', Cuda.offdiag1d 0 3 0 3 exDx 2 ⟨2, 0⟩ 1 ⟨9, 0⟩ revBackend (exSolve 1) = .ok s1 ∧
      exSides1.foldlM (fun m s => Cuda.adjOffdiag1d 0 3 s.i0 s.i1 s.side s.btype s.order exDx 2 3 2 ⟨2, 0⟩ 1 ⟨9, 0⟩ revBackend m) s1 = .ok s2 ∧ Cuda.v1diag1d 0 3 (0 - 1) (3 + 1) 3 ⟨0, 0⟩ 1 ⟨9, 0⟩ seqBackend s2 = .ok s3 ∧
      exSides1.foldlM (fun m s => Cuda.adjDiag1d 0 3 s.i0 s.i1 s.side s.btype s.order exDx 2 ⟨2, 0⟩ 1 ⟨9, 0⟩ revBackend m) s3 = .ok s3 ∧
      F.times (F.celljacobi1d 0 3 3 ⟨21, 0⟩ (0 - 1) (3 + 1) ⟨9, 0⟩ (0 - 2) (3 + 2) ⟨10, 0⟩ (0 - 2) (3 + 2) ⟨1, 0⟩ ⟨11, 0⟩) l s3 = .ok m' ∧
      F.Holds m' (F.cell1d ⟨1, 0⟩ 0 3 2) U' ∧ F.Only [(F.st1d ⟨9, 0⟩ 0 3 1), (F.cell1d ⟨1, 0⟩ 0 3 2), (F.box1d ⟨11, 0⟩ 0 3)] (exSolve 1) m' ∧
      (∀ p, ¬ F.InBounds [(0, 3)] p → U' p = exIns 1 5 p) ∧ ∀ p, F.InBounds [(0, 3)] p → |U' p - exIns 1 0 p| ≤ (1 - ((2 : Nat) / (3 : Nat) : Rat) + ((2 : Nat) / (3 : Nat) : Rat) * (99999 / 100000)) ^ l * 5 := by
  obtain ⟨m1, m2, c1, c2, hR⟩ := exRun_v1_1
  exact C84_jacobi_v1_1d (T := Rat) (q := 99999 / 100000) (neu := 3) (βs := fun _ => revBackend) (fun _ => revBackend_ok) (fun _ => seqBackend_ok) revBackend_ok seqBackend_ok (fun _ => revBackend_ok) (by decide) (by decide) (by decide) (by decide) (by decide) (by decide) exEll_v1_1 exWidth exRate2_v1_1 (by norm_num) exSides1_layer exSides1_out exSides1_first exSides1_disjoint exSides1_fulfils (exDir_args (by ex_args)) (apart_blk (by decide))
    (exDir_rd (by decide) (exRat_ok rfl (by decide) (by decide))) (exDir_rd (by decide) (exRat_ok rfl (by decide) (by decide))) exDir_u1 c1 c2 hR
    (exSolve_args (by ex_args)) (ex_apart (by decide)) (ex_apart (by decide)) (ex_apart (by decide)) (exSolve_rd (by decide) (exRat_ok rfl (by decide) (by decide))) (exSolve_rd (by decide) (exRat_ok rfl (by decide) (by decide))) exSolve_u1 (exSolve_f (exRat_ok rfl (by decide) (by decide)) rfl) exSolve_t1 exSolve_err1 l

/-- 1D, diffusion operator with cell coefficients, Gauss-Seidel: if flux and apply kernel take `X` to `G`, and `X` with its ghost values fulfils conditions of first order on pieces of the
boundary with the data in the ghost cells of the unknowns, then off-diagonal kernel, adjustment for each piece, diagonal kernel and its adjustment, followed by `l` sweeps for the right
hand side `G` bring the unknowns to within `rate^l E` of `X`. (Partial: equal ghost widths of right hand side and unknowns, see
`C51_gs_1d_false`.) -/
theorem C84_gs_v1_1d_partial {i0 i1 agcw gcw rgcw sgcw fgcw : Int} {alpha beta neu : T} {dx : Nat → T} {a u b0 f0 res st rhs o : Ptr} {β1 β2 : Nat → Backend} {β3 β4 : Backend} {βs : F.Side1 → Backend} {sides : List F.Side1} {m mX m1 m2 : Mem T} {A B0 G U X : List Int → T} {E q : T}
    (hβ1 : ∀ n, ValidBackend (β1 n)) (hβ2 : ∀ n, ValidBackend (β2 n)) (hβ3 : ValidBackend β3) (hβ4 : ValidBackend β4) (hβs : ∀ s, ValidBackend (βs s))
    (hi : i0 ≤ i1) (hg : 1 ≤ gcw) (hagcw : 0 ≤ agcw) (hrgcw : 0 ≤ rgcw) (hs : 0 ≤ sgcw) (hfg : 0 ≤ fgcw) (hf : fgcw = gcw) (he : F.Elliptic1 i0 i1 alpha beta dx A B0)
    (hdx : ∀ d, d < 1 → 0 < dx d)
    (hq : ∀ i, i0 ≤ i → i ≤ i1 → (1 - q) * (2 * (beta / (dx 0 * dx 0) * (B0 [i] + B0 [i + 1])) + alpha * A [i]) ≤ alpha * A [i]) (h1 : q < 1)
    (hl : ∀ s ∈ sides, Layer1 i0 i1 0 s.i0 s.i1 s.side) (hout : ∀ s ∈ sides, s.Outside i0 i1) (hfi : ∀ s ∈ sides, F.First s.btype s.order)
    (hd : F.Disjoint (sides.map (F.Side1.piece dx B0))) (hF : F.Fulfils [(i0, i1)] 3 (F.row F.points1) (sides.map (F.Side1.piece dx B0)) U X)
    (h : F.Args mX [(F.cell1d a i0 i1 agcw), (F.cell1d u i0 i1 gcw), (F.face1d b0 i0 i1 0)] [(F.face1d f0 i0 i1 0), (F.cell1d res i0 i1 rgcw)])
    (hr : F.Apart (F.cell1d res i0 i1 rgcw) (F.face1d f0 i0 i1 0)) (hAX : F.Holds mX (F.cell1d a i0 i1 agcw) A) (hB0X : F.Holds mX (F.face1d b0 i0 i1 0) B0) (hXX : F.Holds mX (F.cell1d u i0 i1 gcw) X)
    (c1 : Cuda.flux1d i0 i1 dx b0 gcw u f0 β1 mX = .ok m1) (c2 : Cuda.diffusionV1Apply1d i0 i1 alpha beta dx agcw a gcw u f0 rgcw res β2 m1 = .ok m2)
    (hR : ∀ p, F.InBounds [(i0, i1)] p → F.El m2 (F.cell1d res i0 i1 rgcw) p (G p))
    (h2 : F.Args m [(F.cell1d a i0 i1 agcw), (F.face1d b0 i0 i1 0), (F.cell1d u i0 i1 gcw), (F.cell1d rhs i0 i1 fgcw)] [(F.st1d st i0 i1 sgcw)]) (huf : F.Apart (F.cell1d u i0 i1 gcw) (F.cell1d rhs i0 i1 fgcw))
    (hA : F.Holds m (F.cell1d a i0 i1 agcw) A) (hB0 : F.Holds m (F.face1d b0 i0 i1 0) B0) (hU : F.Holds m (F.cell1d u i0 i1 gcw) U) (hG : F.Holds m (F.cell1d rhs i0 i1 fgcw) G) (ht : F.Rows m (F.offset0 o 1 3) F.points1)
    (hE : ∀ p, F.InBounds [(i0, i1)] p → |U p - X p| ≤ E) (l : Nat) :
    ∃ s1 s2 s3 m' U', Cuda.offdiag1d i0 i1 i0 i1 dx beta b0 sgcw st β3 m = .ok s1 ∧
      sides.foldlM (fun m s => Cuda.adjOffdiag1d i0 i1 s.i0 s.i1 s.side s.btype s.order dx 2 neu beta b0 sgcw st (βs s) m) s1 = .ok s2 ∧ Cuda.v1diag1d i0 i1 (i0 - agcw) (i1 + agcw) alpha a sgcw st β4 s2 = .ok s3 ∧
      sides.foldlM (fun m s => Cuda.adjDiag1d i0 i1 s.i0 s.i1 s.side s.btype s.order dx beta b0 sgcw st (βs s) m) s3 = .ok s3 ∧
      F.times (F.cellgs1d i0 i1 3 o (i0 - sgcw) (i1 + sgcw) st (i0 - fgcw) (i1 + fgcw) rhs (i0 - gcw) (i1 + gcw) u) l s3 = .ok m' ∧
      F.Holds m' (F.cell1d u i0 i1 gcw) U' ∧ F.Only [(F.st1d st i0 i1 sgcw), (F.cell1d u i0 i1 gcw)] m m' ∧
      (∀ p, ¬ F.InBounds [(i0, i1)] p → U' p = U p) ∧ ∀ p, F.InBounds [(i0, i1)] p → |U' p - X p| ≤ q ^ l * E := by
  obtain ⟨m1', m2', R, d1, d2, ER, hop⟩ := energy_v1_1 (alpha := alpha) (beta := beta) (dx := dx) hβ1 hβ2 hi hg hagcw hrgcw h hr hAX hB0X hXX
  obtain rfl : m1 = m1' := Except.ok.inj (c1.symm.trans d1)
  obtain rfl : m2 = m2' := Except.ok.inj (c2.symm.trans d2)
  classical
  obtain ⟨Y, hY, hYD⟩ : ∃ Y : List Int → T, (∀ p, F.InBounds [(i0, i1)] p → Y p = X p) ∧ ∀ p, ¬ F.InBounds [(i0, i1)] p → Y p = U p :=
    ⟨fun p => if F.InBounds [(i0, i1)] p then X p else U p, fun p hp => if_pos hp, fun p hp => if_neg hp⟩
  obtain ⟨s1, s2, s3, S, a1, a2, a3, a4, ho, hp, hD, hX⟩ := bvp_v1_1 (alpha := alpha) (beta := beta) (neu := neu) (dx := dx) (o := o) (q := q) (X := X) (Y := Y) hβ3 hβ4 hβs hi hagcw hs hg hfg he hdx hq h1 hl hout hfi hd (h2.sub (by intro x hx; simp only [List.mem_cons, List.not_mem_nil, or_false] at hx ⊢; tauto) (fun _ e => e)) huf hA hB0 hU hG ht
    (fun i hi0 hi1 => by
      have hp : F.InBounds [(i0, i1)] [i] := F.inBounds1.2 ⟨i, rfl, by omega⟩
      rw [← hop i hi0 hi1]
      exact (ER _ hp).rd.symm.trans (hR _ hp).rd) hF hY hYD
  have hUY : ∀ p, ¬ F.InBounds [(i0, i1)] p → U p = Y p := fun p hp => (hYD p hp).symm
  have hE1 : ∀ p, F.InBounds [(i0, i1)] p → |U p - Y p| ≤ E * (fun _ => (1 : T)) p := fun p hp => by
    rw [hY p hp]
    simpa using hE p hp
  obtain ⟨m', U', t, w1, w2, w3, w4⟩ := C59_gs_1d_partial (by rw [hf]) hp rfl hD h1.le hX hUY hE1 l
  refine ⟨s1, s2, s3, m', U', a1, a2, a3, a4, t, w1, (ho.mono (by simp)).trans (w2.mono fun _ ha => List.mem_cons_of_mem _ ha), fun p hp => (w3 p hp).trans (hYD p hp), fun p hp => ?_⟩
  rw [← hY p hp]
  simpa using w4 p hp

example (l : Nat) : ∃ s1 s2 s3 m' U', Cuda.offdiag1d 0 3 0 3 exDx 2 ⟨2, 0⟩ 1 ⟨9, 0⟩ revBackend (exSolve 1) = .ok s1 ∧
      exSides1.foldlM (fun m s => Cuda.adjOffdiag1d 0 3 s.i0 s.i1 s.side s.btype s.order exDx 2 3 2 ⟨2, 0⟩ 1 ⟨9, 0⟩ revBackend m) s1 = .ok s2 ∧ Cuda.v1diag1d 0 3 (0 - 1) (3 + 1) 3 ⟨0, 0⟩ 1 ⟨9, 0⟩ seqBackend s2 = .ok s3 ∧
      exSides1.foldlM (fun m s => Cuda.adjDiag1d 0 3 s.i0 s.i1 s.side s.btype s.order exDx 2 ⟨2, 0⟩ 1 ⟨9, 0⟩ revBackend m) s3 = .ok s3 ∧
      F.times (F.cellgs1d 0 3 3 ⟨21, 0⟩ (0 - 1) (3 + 1) ⟨9, 0⟩ (0 - 2) (3 + 2) ⟨10, 0⟩ (0 - 2) (3 + 2) ⟨1, 0⟩) l s3 = .ok m' ∧
      F.Holds m' (F.cell1d ⟨1, 0⟩ 0 3 2) U' ∧ F.Only [(F.st1d ⟨9, 0⟩ 0 3 1), (F.cell1d ⟨1, 0⟩ 0 3 2)] (exSolve 1) m' ∧
      (∀ p, ¬ F.InBounds [(0, 3)] p → U' p = exIns 1 5 p) ∧ ∀ p, F.InBounds [(0, 3)] p → |U' p - exIns 1 0 p| ≤ (99999 / 100000) ^ l * 5 := by
  obtain ⟨m1, m2, c1, c2, hR⟩ := exRun_v1_1
  exact C84_gs_v1_1d_partial (T := Rat) (q := 99999 / 100000) (neu := 3) (βs := fun _ => revBackend) (fun _ => revBackend_ok) (fun _ => seqBackend_ok) revBackend_ok seqBackend_ok (fun _ => revBackend_ok) (by decide) (by decide) (by decide) (by decide) (by decide) (by decide) rfl exEll_v1_1 exWidth exRate2_v1_1 (by norm_num) exSides1_layer exSides1_out exSides1_first exSides1_disjoint exSides1_fulfils (exDir_args (by ex_args)) (apart_blk (by decide))
    (exDir_rd (by decide) (exRat_ok rfl (by decide) (by decide))) (exDir_rd (by decide) (exRat_ok rfl (by decide) (by decide))) exDir_u1 c1 c2 hR
    (exSolve_args (by ex_args)) (ex_apart (by decide)) (exSolve_rd (by decide) (exRat_ok rfl (by decide) (by decide))) (exSolve_rd (by decide) (exRat_ok rfl (by decide) (by decide))) exSolve_u1 (exSolve_f (exRat_ok rfl (by decide) (by decide)) rfl) exSolve_t1 exSolve_err1 l

/-- 1D, diffusion operator with cell coefficients, red-black Gauss-Seidel: if flux and apply kernel take `X` to `G`, and `X` with its ghost values fulfils conditions of first order on pieces of the
boundary with the data in the ghost cells of the unknowns, then off-diagonal kernel, adjustment for each piece, diagonal kernel and its adjustment, followed by `l` pairs of sweeps for the right
hand side `G` bring the unknowns to within `rate^l E` of `X`. -/
theorem C84_rbgs_v1_1d {i0 i1 agcw gcw rgcw sgcw fgcw color color2 : Int} {alpha beta neu : T} {dx : Nat → T} {a u b0 f0 res st rhs o : Ptr} {β1 β2 : Nat → Backend} {β3 β4 : Backend} {βs : F.Side1 → Backend} {sides : List F.Side1} {m mX m1 m2 : Mem T} {A B0 G U X : List Int → T} {E q : T}
    (hβ1 : ∀ n, ValidBackend (β1 n)) (hβ2 : ∀ n, ValidBackend (β2 n)) (hβ3 : ValidBackend β3) (hβ4 : ValidBackend β4) (hβs : ∀ s, ValidBackend (βs s))
    (hi : i0 ≤ i1) (hg : 1 ≤ gcw) (hagcw : 0 ≤ agcw) (hrgcw : 0 ≤ rgcw) (hs : 0 ≤ sgcw) (hfg : 0 ≤ fgcw) (hc' : 0 ≤ color) (hc2 : 0 ≤ color2) (hcc : (color2 - color) % 2 = 1) (he : F.Elliptic1 i0 i1 alpha beta dx A B0)
    (hdx : ∀ d, d < 1 → 0 < dx d)
    (hq : ∀ i, i0 ≤ i → i ≤ i1 → (1 - q) * (2 * (beta / (dx 0 * dx 0) * (B0 [i] + B0 [i + 1])) + alpha * A [i]) ≤ alpha * A [i]) (h1 : q < 1)
    (hl : ∀ s ∈ sides, Layer1 i0 i1 0 s.i0 s.i1 s.side) (hout : ∀ s ∈ sides, s.Outside i0 i1) (hfi : ∀ s ∈ sides, F.First s.btype s.order)
    (hd : F.Disjoint (sides.map (F.Side1.piece dx B0))) (hF : F.Fulfils [(i0, i1)] 3 (F.row F.points1) (sides.map (F.Side1.piece dx B0)) U X)
    (h : F.Args mX [(F.cell1d a i0 i1 agcw), (F.cell1d u i0 i1 gcw), (F.face1d b0 i0 i1 0)] [(F.face1d f0 i0 i1 0), (F.cell1d res i0 i1 rgcw)])
    (hr : F.Apart (F.cell1d res i0 i1 rgcw) (F.face1d f0 i0 i1 0)) (hAX : F.Holds mX (F.cell1d a i0 i1 agcw) A) (hB0X : F.Holds mX (F.face1d b0 i0 i1 0) B0) (hXX : F.Holds mX (F.cell1d u i0 i1 gcw) X)
    (c1 : Cuda.flux1d i0 i1 dx b0 gcw u f0 β1 mX = .ok m1) (c2 : Cuda.diffusionV1Apply1d i0 i1 alpha beta dx agcw a gcw u f0 rgcw res β2 m1 = .ok m2)
    (hR : ∀ p, F.InBounds [(i0, i1)] p → F.El m2 (F.cell1d res i0 i1 rgcw) p (G p))
    (h2 : F.Args m [(F.cell1d a i0 i1 agcw), (F.face1d b0 i0 i1 0), (F.cell1d u i0 i1 gcw), (F.cell1d rhs i0 i1 fgcw)] [(F.st1d st i0 i1 sgcw)]) (huf : F.Apart (F.cell1d u i0 i1 gcw) (F.cell1d rhs i0 i1 fgcw))
    (hA : F.Holds m (F.cell1d a i0 i1 agcw) A) (hB0 : F.Holds m (F.face1d b0 i0 i1 0) B0) (hU : F.Holds m (F.cell1d u i0 i1 gcw) U) (hG : F.Holds m (F.cell1d rhs i0 i1 fgcw) G) (ht : F.Rows m (F.offset0 o 1 3) F.points1)
    (hE : ∀ p, F.InBounds [(i0, i1)] p → |U p - X p| ≤ E) (l : Nat) :
    ∃ s1 s2 s3 m' U', Cuda.offdiag1d i0 i1 i0 i1 dx beta b0 sgcw st β3 m = .ok s1 ∧
      sides.foldlM (fun m s => Cuda.adjOffdiag1d i0 i1 s.i0 s.i1 s.side s.btype s.order dx 2 neu beta b0 sgcw st (βs s) m) s1 = .ok s2 ∧ Cuda.v1diag1d i0 i1 (i0 - agcw) (i1 + agcw) alpha a sgcw st β4 s2 = .ok s3 ∧
      sides.foldlM (fun m s => Cuda.adjDiag1d i0 i1 s.i0 s.i1 s.side s.btype s.order dx beta b0 sgcw st (βs s) m) s3 = .ok s3 ∧
      F.times (fun m => F.cellrbgs1d i0 i1 color 3 o (i0 - sgcw) (i1 + sgcw) st (i0 - fgcw) (i1 + fgcw) rhs (i0 - gcw) (i1 + gcw) u m >>=
        F.cellrbgs1d i0 i1 color2 3 o (i0 - sgcw) (i1 + sgcw) st (i0 - fgcw) (i1 + fgcw) rhs (i0 - gcw) (i1 + gcw) u) l s3 = .ok m' ∧
      F.Holds m' (F.cell1d u i0 i1 gcw) U' ∧ F.Only [(F.st1d st i0 i1 sgcw), (F.cell1d u i0 i1 gcw)] m m' ∧
      (∀ p, ¬ F.InBounds [(i0, i1)] p → U' p = U p) ∧ ∀ p, F.InBounds [(i0, i1)] p → |U' p - X p| ≤ q ^ l * E := by
  obtain ⟨m1', m2', R, d1, d2, ER, hop⟩ := energy_v1_1 (alpha := alpha) (beta := beta) (dx := dx) hβ1 hβ2 hi hg hagcw hrgcw h hr hAX hB0X hXX
  obtain rfl : m1 = m1' := Except.ok.inj (c1.symm.trans d1)
  obtain rfl : m2 = m2' := Except.ok.inj (c2.symm.trans d2)
  classical
  obtain ⟨Y, hY, hYD⟩ : ∃ Y : List Int → T, (∀ p, F.InBounds [(i0, i1)] p → Y p = X p) ∧ ∀ p, ¬ F.InBounds [(i0, i1)] p → Y p = U p :=
    ⟨fun p => if F.InBounds [(i0, i1)] p then X p else U p, fun p hp => if_pos hp, fun p hp => if_neg hp⟩
  obtain ⟨s1, s2, s3, S, a1, a2, a3, a4, ho, hp, hD, hX⟩ := bvp_v1_1 (alpha := alpha) (beta := beta) (neu := neu) (dx := dx) (o := o) (q := q) (X := X) (Y := Y) hβ3 hβ4 hβs hi hagcw hs hg hfg he hdx hq h1 hl hout hfi hd (h2.sub (by intro x hx; simp only [List.mem_cons, List.not_mem_nil, or_false] at hx ⊢; tauto) (fun _ e => e)) huf hA hB0 hU hG ht
    (fun i hi0 hi1 => by
      have hp : F.InBounds [(i0, i1)] [i] := F.inBounds1.2 ⟨i, rfl, by omega⟩
      rw [← hop i hi0 hi1]
      exact (ER _ hp).rd.symm.trans (hR _ hp).rd) hF hY hYD
  have hUY : ∀ p, ¬ F.InBounds [(i0, i1)] p → U p = Y p := fun p hp => (hYD p hp).symm
  have hE1 : ∀ p, F.InBounds [(i0, i1)] p → |U p - Y p| ≤ E * (fun _ => (1 : T)) p := fun p hp => by
    rw [hY p hp]
    simpa using hE p hp
  obtain ⟨m', U', t, w1, w2, w3, w4⟩ := C59_rbgs_1d hc' hc2 hcc hp rfl hD h1.le hX hUY hE1 l
  refine ⟨s1, s2, s3, m', U', a1, a2, a3, a4, t, w1, (ho.mono (by simp)).trans (w2.mono fun _ ha => List.mem_cons_of_mem _ ha), fun p hp => (w3 p hp).trans (hYD p hp), fun p hp => ?_⟩
  rw [← hY p hp]
  simpa using w4 p hp

example (l : Nat) : ∃ s1 s2 s3 m' U', Cuda.offdiag1d 0 3 0 3 exDx 2 ⟨2, 0⟩ 1 ⟨9, 0⟩ revBackend (exSolve 1) = .ok s1 ∧
      exSides1.foldlM (fun m s => Cuda.adjOffdiag1d 0 3 s.i0 s.i1 s.side s.btype s.order exDx 2 3 2 ⟨2, 0⟩ 1 ⟨9, 0⟩ revBackend m) s1 = .ok s2 ∧ Cuda.v1diag1d 0 3 (0 - 1) (3 + 1) 3 ⟨0, 0⟩ 1 ⟨9, 0⟩ seqBackend s2 = .ok s3 ∧
      exSides1.foldlM (fun m s => Cuda.adjDiag1d 0 3 s.i0 s.i1 s.side s.btype s.order exDx 2 ⟨2, 0⟩ 1 ⟨9, 0⟩ revBackend m) s3 = .ok s3 ∧
      F.times (fun μ => F.cellrbgs1d 0 3 0 3 ⟨21, 0⟩ (0 - 1) (3 + 1) ⟨9, 0⟩ (0 - 2) (3 + 2) ⟨10, 0⟩ (0 - 2) (3 + 2) ⟨1, 0⟩ μ >>=
        F.cellrbgs1d 0 3 1 3 ⟨21, 0⟩ (0 - 1) (3 + 1) ⟨9, 0⟩ (0 - 2) (3 + 2) ⟨10, 0⟩ (0 - 2) (3 + 2) ⟨1, 0⟩) l s3 = .ok m' ∧
      F.Holds m' (F.cell1d ⟨1, 0⟩ 0 3 2) U' ∧ F.Only [(F.st1d ⟨9, 0⟩ 0 3 1), (F.cell1d ⟨1, 0⟩ 0 3 2)] (exSolve 1) m' ∧
      (∀ p, ¬ F.InBounds [(0, 3)] p → U' p = exIns 1 5 p) ∧ ∀ p, F.InBounds [(0, 3)] p → |U' p - exIns 1 0 p| ≤ (99999 / 100000) ^ l * 5 := by
  obtain ⟨m1, m2, c1, c2, hR⟩ := exRun_v1_1
  exact C84_rbgs_v1_1d (T := Rat) (q := 99999 / 100000) (neu := 3) (βs := fun _ => revBackend) (fun _ => revBackend_ok) (fun _ => seqBackend_ok) revBackend_ok seqBackend_ok (fun _ => revBackend_ok) (by decide) (by decide) (by decide) (by decide) (by decide) (by decide) (by decide) (by decide) (by decide) exEll_v1_1 exWidth exRate2_v1_1 (by norm_num) exSides1_layer exSides1_out exSides1_first exSides1_disjoint exSides1_fulfils (exDir_args (by ex_args)) (apart_blk (by decide))
    (exDir_rd (by decide) (exRat_ok rfl (by decide) (by decide))) (exDir_rd (by decide) (exRat_ok rfl (by decide) (by decide))) exDir_u1 c1 c2 hR
    (exSolve_args (by ex_args)) (ex_apart (by decide)) (exSolve_rd (by decide) (exRat_ok rfl (by decide) (by decide))) (exSolve_rd (by decide) (exRat_ok rfl (by decide) (by decide))) exSolve_u1 (exSolve_f (exRat_ok rfl (by decide) (by decide)) rfl) exSolve_t1 exSolve_err1 l

/-- 1D, diffusion operator with constant reaction, damped Jacobi: if flux and apply kernel take `X` to `G`, and `X` with its ghost values fulfils conditions of first order on pieces of the
boundary with the data in the ghost cells of the unknowns, then off-diagonal kernel, adjustment for each piece, diagonal kernel and its adjustment, followed by `l` sweeps for the right
hand side `G` bring the unknowns to within `rate^l E` of `X`. -/
theorem C84_jacobi_v2_1d {i0 i1 gcw rgcw sgcw fgcw : Int} {alpha beta neu : T} {dx : Nat → T} {u b0 f0 res st rhs o r : Ptr} {β1 β2 : Nat → Backend} {β3 β4 : Backend} {βs : F.Side1 → Backend} {sides : List F.Side1} {m mX m1 m2 : Mem T} {B0 G U X : List Int → T} {E q : T}
    (hβ1 : ∀ n, ValidBackend (β1 n)) (hβ2 : ∀ n, ValidBackend (β2 n)) (hβ3 : ValidBackend β3) (hβ4 : ValidBackend β4) (hβs : ∀ s, ValidBackend (βs s))
    (hi : i0 ≤ i1) (hg : 1 ≤ gcw) (hrgcw : 0 ≤ rgcw) (hs : 0 ≤ sgcw) (hfg : 0 ≤ fgcw) (he : F.Elliptic1 i0 i1 alpha beta dx (fun _ => 1) B0)
    (hdx : ∀ d, d < 1 → 0 < dx d)
    (hq : ∀ i, i0 ≤ i → i ≤ i1 → (1 - q) * (2 * (beta / (dx 0 * dx 0) * (B0 [i] + B0 [i + 1])) + alpha * (fun _ => 1) [i]) ≤ alpha * (fun _ => 1) [i]) (h1 : q < 1)
    (hl : ∀ s ∈ sides, Layer1 i0 i1 0 s.i0 s.i1 s.side) (hout : ∀ s ∈ sides, s.Outside i0 i1) (hfi : ∀ s ∈ sides, F.First s.btype s.order)
    (hd : F.Disjoint (sides.map (F.Side1.piece dx B0))) (hF : F.Fulfils [(i0, i1)] 3 (F.row F.points1) (sides.map (F.Side1.piece dx B0)) U X)
    (h : F.Args mX [(F.cell1d u i0 i1 gcw), (F.face1d b0 i0 i1 0)] [(F.face1d f0 i0 i1 0), (F.cell1d res i0 i1 rgcw)])
    (hr : F.Apart (F.cell1d res i0 i1 rgcw) (F.face1d f0 i0 i1 0)) (hB0X : F.Holds mX (F.face1d b0 i0 i1 0) B0) (hXX : F.Holds mX (F.cell1d u i0 i1 gcw) X)
    (c1 : Cuda.flux1d i0 i1 dx b0 gcw u f0 β1 mX = .ok m1) (c2 : Cuda.diffusionV2Apply1d i0 i1 alpha beta dx gcw u f0 rgcw res β2 m1 = .ok m2)
    (hR : ∀ p, F.InBounds [(i0, i1)] p → F.El m2 (F.cell1d res i0 i1 rgcw) p (G p))
    (h2 : F.Args m [(F.face1d b0 i0 i1 0), (F.cell1d u i0 i1 gcw), (F.cell1d rhs i0 i1 fgcw), (F.box1d r i0 i1)] [(F.st1d st i0 i1 sgcw)]) (huf : F.Apart (F.cell1d u i0 i1 gcw) (F.cell1d rhs i0 i1 fgcw)) (hru : F.Apart (F.box1d r i0 i1) (F.cell1d u i0 i1 gcw)) (hrf : F.Apart (F.box1d r i0 i1) (F.cell1d rhs i0 i1 fgcw))
    (hB0 : F.Holds m (F.face1d b0 i0 i1 0) B0) (hU : F.Holds m (F.cell1d u i0 i1 gcw) U) (hG : F.Holds m (F.cell1d rhs i0 i1 fgcw) G) (ht : F.Rows m (F.offset0 o 1 3) F.points1)
    (hE : ∀ p, F.InBounds [(i0, i1)] p → |U p - X p| ≤ E) (l : Nat) :
    ∃ s1 s2 s3 m' U', Cuda.offdiag1d i0 i1 i0 i1 dx beta b0 sgcw st β3 m = .ok s1 ∧
      sides.foldlM (fun m s => Cuda.adjOffdiag1d i0 i1 s.i0 s.i1 s.side s.btype s.order dx 2 neu beta b0 sgcw st (βs s) m) s1 = .ok s2 ∧ Cuda.v2diag1d i0 i1 alpha sgcw st β4 s2 = .ok s3 ∧
      sides.foldlM (fun m s => Cuda.adjDiag1d i0 i1 s.i0 s.i1 s.side s.btype s.order dx beta b0 sgcw st (βs s) m) s3 = .ok s3 ∧
      F.times (F.celljacobi1d i0 i1 3 o (i0 - sgcw) (i1 + sgcw) st (i0 - fgcw) (i1 + fgcw) rhs (i0 - gcw) (i1 + gcw) u r) l s3 = .ok m' ∧
      F.Holds m' (F.cell1d u i0 i1 gcw) U' ∧ F.Only [(F.st1d st i0 i1 sgcw), (F.cell1d u i0 i1 gcw), (F.box1d r i0 i1)] m m' ∧
      (∀ p, ¬ F.InBounds [(i0, i1)] p → U' p = U p) ∧ ∀ p, F.InBounds [(i0, i1)] p → |U' p - X p| ≤ (1 - ((2 : Nat) / (3 : Nat) : T) + ((2 : Nat) / (3 : Nat) : T) * q) ^ l * E := by
  obtain ⟨m1', m2', R, d1, d2, ER, hop⟩ := energy_v2_1 (alpha := alpha) (beta := beta) (dx := dx) hβ1 hβ2 hi hg hrgcw h hr hB0X hXX
  obtain rfl : m1 = m1' := Except.ok.inj (c1.symm.trans d1)
  obtain rfl : m2 = m2' := Except.ok.inj (c2.symm.trans d2)
  classical
  obtain ⟨Y, hY, hYD⟩ : ∃ Y : List Int → T, (∀ p, F.InBounds [(i0, i1)] p → Y p = X p) ∧ ∀ p, ¬ F.InBounds [(i0, i1)] p → Y p = U p :=
    ⟨fun p => if F.InBounds [(i0, i1)] p then X p else U p, fun p hp => if_pos hp, fun p hp => if_neg hp⟩
  obtain ⟨s1, s2, s3, S, a1, a2, a3, a4, ho, hp, hD, hX⟩ := bvp_v2_1 (alpha := alpha) (beta := beta) (neu := neu) (dx := dx) (o := o) (q := q) (X := X) (Y := Y) hβ3 hβ4 hβs hi hs hg hfg he hdx hq h1 hl hout hfi hd (h2.sub (by intro x hx; simp only [List.mem_cons, List.not_mem_nil, or_false] at hx ⊢; tauto) (fun _ e => e)) huf hB0 hU hG ht
    (fun i hi0 hi1 => by
      have hp : F.InBounds [(i0, i1)] [i] := F.inBounds1.2 ⟨i, rfl, by omega⟩
      rw [← hop i hi0 hi1]
      exact (ER _ hp).rd.symm.trans (hR _ hp).rd) hF hY hYD
  have hUY : ∀ p, ¬ F.InBounds [(i0, i1)] p → U p = Y p := fun p hp => (hYD p hp).symm
  have hE1 : ∀ p, F.InBounds [(i0, i1)] p → |U p - Y p| ≤ E * (fun _ => (1 : T)) p := fun p hp => by
    rw [hY p hp]
    simpa using hE p hp
  have hr2 : F.Holds s3 (F.box1d r i0 i1) (F.rd m (F.box1d r i0 i1)) := F.Holds.only (fun is hi => (h2.ok (F.box1d r i0 i1) (by simp)).rd hi) ho (by simp only [List.mem_cons, List.not_mem_nil, or_false, forall_eq]; exact h2.apart _ (by simp) _ (by simp))
  obtain ⟨m', U', t, w1, w2, w3, w4⟩ := C59_jacobi_1d hp hr2 hru (F.apart_symm (h2.apart (F.st1d st i0 i1 sgcw) (by simp) (F.box1d r i0 i1) (by simp))) hrf rfl hD hX hUY hE1 l
  refine ⟨s1, s2, s3, m', U', a1, a2, a3, a4, t, w1, (ho.mono (by simp)).trans (w2.mono fun _ ha => List.mem_cons_of_mem _ ha), fun p hp => (w3 p hp).trans (hYD p hp), fun p hp => ?_⟩
  rw [← hY p hp]
  simpa using w4 p hp

example (l : Nat) : ∃ s1 s2 s3 m' U', Cuda.offdiag1d 0 3 0 3 exDx 2 ⟨2, 0⟩ 1 ⟨9, 0⟩ revBackend (exSolve 1) = .ok s1 ∧
      exSides1.foldlM (fun m s => Cuda.adjOffdiag1d 0 3 s.i0 s.i1 s.side s.btype s.order exDx 2 3 2 ⟨2, 0⟩ 1 ⟨9, 0⟩ revBackend m) s1 = .ok s2 ∧ Cuda.v2diag1d 0 3 3 1 ⟨9, 0⟩ seqBackend s2 = .ok s3 ∧
      exSides1.foldlM (fun m s => Cuda.adjDiag1d 0 3 s.i0 s.i1 s.side s.btype s.order exDx 2 ⟨2, 0⟩ 1 ⟨9, 0⟩ revBackend m) s3 = .ok s3 ∧
      F.times (F.celljacobi1d 0 3 3 ⟨21, 0⟩ (0 - 1) (3 + 1) ⟨9, 0⟩ (0 - 2) (3 + 2) ⟨10, 0⟩ (0 - 2) (3 + 2) ⟨1, 0⟩ ⟨11, 0⟩) l s3 = .ok m' ∧
      F.Holds m' (F.cell1d ⟨1, 0⟩ 0 3 2) U' ∧ F.Only [(F.st1d ⟨9, 0⟩ 0 3 1), (F.cell1d ⟨1, 0⟩ 0 3 2), (F.box1d ⟨11, 0⟩ 0 3)] (exSolve 1) m' ∧
      (∀ p, ¬ F.InBounds [(0, 3)] p → U' p = exIns 1 5 p) ∧ ∀ p, F.InBounds [(0, 3)] p → |U' p - exIns 1 0 p| ≤ (1 - ((2 : Nat) / (3 : Nat) : Rat) + ((2 : Nat) / (3 : Nat) : Rat) * (99999 / 100000)) ^ l * 5 := by
  obtain ⟨m1, m2, c1, c2, hR⟩ := exRun_v2_1
  exact C84_jacobi_v2_1d (T := Rat) (q := 99999 / 100000) (neu := 3) (βs := fun _ => revBackend) (fun _ => revBackend_ok) (fun _ => seqBackend_ok) revBackend_ok seqBackend_ok (fun _ => revBackend_ok) (by decide) (by decide) (by decide) (by decide) (by decide) exEll_v2_1 exWidth exRate2_v2_1 (by norm_num) exSides1_layer exSides1_out exSides1_first exSides1_disjoint exSides1_fulfils (exDir_args (by ex_args)) (apart_blk (by decide))
    (exDir_rd (by decide) (exRat_ok rfl (by decide) (by decide))) exDir_u1 c1 c2 hR
    (exSolve_args (by ex_args)) (ex_apart (by decide)) (ex_apart (by decide)) (ex_apart (by decide)) (exSolve_rd (by decide) (exRat_ok rfl (by decide) (by decide))) exSolve_u1 (exSolve_f (exRat_ok rfl (by decide) (by decide)) rfl) exSolve_t1 exSolve_err1 l

/-- 1D, diffusion operator with constant reaction, Gauss-Seidel: if flux and apply kernel take `X` to `G`, and `X` with its ghost values fulfils conditions of first order on pieces of the
boundary with the data in the ghost cells of the unknowns, then off-diagonal kernel, adjustment for each piece, diagonal kernel and its adjustment, followed by `l` sweeps for the right
hand side `G` bring the unknowns to within `rate^l E` of `X`. (Partial: equal ghost widths of right hand side and unknowns, see
`C51_gs_1d_false`.) -/
theorem C84_gs_v2_1d_partial {i0 i1 gcw rgcw sgcw fgcw : Int} {alpha beta neu : T} {dx : Nat → T} {u b0 f0 res st rhs o : Ptr} {β1 β2 : Nat → Backend} {β3 β4 : Backend} {βs : F.Side1 → Backend} {sides : List F.Side1} {m mX m1 m2 : Mem T} {B0 G U X : List Int → T} {E q : T}
    (hβ1 : ∀ n, ValidBackend (β1 n)) (hβ2 : ∀ n, ValidBackend (β2 n)) (hβ3 : ValidBackend β3) (hβ4 : ValidBackend β4) (hβs : ∀ s, ValidBackend (βs s))
    (hi : i0 ≤ i1) (hg : 1 ≤ gcw) (hrgcw : 0 ≤ rgcw) (hs : 0 ≤ sgcw) (hfg : 0 ≤ fgcw) (hf : fgcw = gcw) (he : F.Elliptic1 i0 i1 alpha beta dx (fun _ => 1) B0)
    (hdx : ∀ d, d < 1 → 0 < dx d)
    (hq : ∀ i, i0 ≤ i → i ≤ i1 → (1 - q) * (2 * (beta / (dx 0 * dx 0) * (B0 [i] + B0 [i + 1])) + alpha * (fun _ => 1) [i]) ≤ alpha * (fun _ => 1) [i]) (h1 : q < 1)
    (hl : ∀ s ∈ sides, Layer1 i0 i1 0 s.i0 s.i1 s.side) (hout : ∀ s ∈ sides, s.Outside i0 i1) (hfi : ∀ s ∈ sides, F.First s.btype s.order)
    (hd : F.Disjoint (sides.map (F.Side1.piece dx B0))) (hF : F.Fulfils [(i0, i1)] 3 (F.row F.points1) (sides.map (F.Side1.piece dx B0)) U X)
    (h : F.Args mX [(F.cell1d u i0 i1 gcw), (F.face1d b0 i0 i1 0)] [(F.face1d f0 i0 i1 0), (F.cell1d res i0 i1 rgcw)])
    (hr : F.Apart (F.cell1d res i0 i1 rgcw) (F.face1d f0 i0 i1 0)) (hB0X : F.Holds mX (F.face1d b0 i0 i1 0) B0) (hXX : F.Holds mX (F.cell1d u i0 i1 gcw) X)
    (c1 : Cuda.flux1d i0 i1 dx b0 gcw u f0 β1 mX = .ok m1) (c2 : Cuda.diffusionV2Apply1d i0 i1 alpha beta dx gcw u f0 rgcw res β2 m1 = .ok m2)
    (hR : ∀ p, F.InBounds [(i0, i1)] p → F.El m2 (F.cell1d res i0 i1 rgcw) p (G p))
    (h2 : F.Args m [(F.face1d b0 i0 i1 0), (F.cell1d u i0 i1 gcw), (F.cell1d rhs i0 i1 fgcw)] [(F.st1d st i0 i1 sgcw)]) (huf : F.Apart (F.cell1d u i0 i1 gcw) (F.cell1d rhs i0 i1 fgcw))
    (hB0 : F.Holds m (F.face1d b0 i0 i1 0) B0) (hU : F.Holds m (F.cell1d u i0 i1 gcw) U) (hG : F.Holds m (F.cell1d rhs i0 i1 fgcw) G) (ht : F.Rows m (F.offset0 o 1 3) F.points1)
    (hE : ∀ p, F.InBounds [(i0, i1)] p → |U p - X p| ≤ E) (l : Nat) :
    ∃ s1 s2 s3 m' U', Cuda.offdiag1d i0 i1 i0 i1 dx beta b0 sgcw st β3 m = .ok s1 ∧
      sides.foldlM (fun m s => Cuda.adjOffdiag1d i0 i1 s.i0 s.i1 s.side s.btype s.order dx 2 neu beta b0 sgcw st (βs s) m) s1 = .ok s2 ∧ Cuda.v2diag1d i0 i1 alpha sgcw st β4 s2 = .ok s3 ∧
      sides.foldlM (fun m s => Cuda.adjDiag1d i0 i1 s.i0 s.i1 s.side s.btype s.order dx beta b0 sgcw st (βs s) m) s3 = .ok s3 ∧
      F.times (F.cellgs1d i0 i1 3 o (i0 - sgcw) (i1 + sgcw) st (i0 - fgcw) (i1 + fgcw) rhs (i0 - gcw) (i1 + gcw) u) l s3 = .ok m' ∧
      F.Holds m' (F.cell1d u i0 i1 gcw) U' ∧ F.Only [(F.st1d st i0 i1 sgcw), (F.cell1d u i0 i1 gcw)] m m' ∧
      (∀ p, ¬ F.InBounds [(i0, i1)] p → U' p = U p) ∧ ∀ p, F.InBounds [(i0, i1)] p → |U' p - X p| ≤ q ^ l * E := by
  obtain ⟨m1', m2', R, d1, d2, ER, hop⟩ := energy_v2_1 (alpha := alpha) (beta := beta) (dx := dx) hβ1 hβ2 hi hg hrgcw h hr hB0X hXX
  obtain rfl : m1 = m1' := Except.ok.inj (c1.symm.trans d1)
  obtain rfl : m2 = m2' := Except.ok.inj (c2.symm.trans d2)
  classical
  obtain ⟨Y, hY, hYD⟩ : ∃ Y : List Int → T, (∀ p, F.InBounds [(i0, i1)] p → Y p = X p) ∧ ∀ p, ¬ F.InBounds [(i0, i1)] p → Y p = U p :=
    ⟨fun p => if F.InBounds [(i0, i1)] p then X p else U p, fun p hp => if_pos hp, fun p hp => if_neg hp⟩
  obtain ⟨s1, s2, s3, S, a1, a2, a3, a4, ho, hp, hD, hX⟩ := bvp_v2_1 (alpha := alpha) (beta := beta) (neu := neu) (dx := dx) (o := o) (q := q) (X := X) (Y := Y) hβ3 hβ4 hβs hi hs hg hfg he hdx hq h1 hl hout hfi hd (h2.sub (by intro x hx; simp only [List.mem_cons, List.not_mem_nil, or_false] at hx ⊢; tauto) (fun _ e => e)) huf hB0 hU hG ht
    (fun i hi0 hi1 => by
      have hp : F.InBounds [(i0, i1)] [i] := F.inBounds1.2 ⟨i, rfl, by omega⟩
      rw [← hop i hi0 hi1]
      exact (ER _ hp).rd.symm.trans (hR _ hp).rd) hF hY hYD
  have hUY : ∀ p, ¬ F.InBounds [(i0, i1)] p → U p = Y p := fun p hp => (hYD p hp).symm
  have hE1 : ∀ p, F.InBounds [(i0, i1)] p → |U p - Y p| ≤ E * (fun _ => (1 : T)) p := fun p hp => by
    rw [hY p hp]
    simpa using hE p hp
  obtain ⟨m', U', t, w1, w2, w3, w4⟩ := C59_gs_1d_partial (by rw [hf]) hp rfl hD h1.le hX hUY hE1 l
  refine ⟨s1, s2, s3, m', U', a1, a2, a3, a4, t, w1, (ho.mono (by simp)).trans (w2.mono fun _ ha => List.mem_cons_of_mem _ ha), fun p hp => (w3 p hp).trans (hYD p hp), fun p hp => ?_⟩
  rw [← hY p hp]
  simpa using w4 p hp

example (l : Nat) : ∃ s1 s2 s3 m' U', Cuda.offdiag1d 0 3 0 3 exDx 2 ⟨2, 0⟩ 1 ⟨9, 0⟩ revBackend (exSolve 1) = .ok s1 ∧
      exSides1.foldlM (fun m s => Cuda.adjOffdiag1d 0 3 s.i0 s.i1 s.side s.btype s.order exDx 2 3 2 ⟨2, 0⟩ 1 ⟨9, 0⟩ revBackend m) s1 = .ok s2 ∧ Cuda.v2diag1d 0 3 3 1 ⟨9, 0⟩ seqBackend s2 = .ok s3 ∧
      exSides1.foldlM (fun m s => Cuda.adjDiag1d 0 3 s.i0 s.i1 s.side s.btype s.order exDx 2 ⟨2, 0⟩ 1 ⟨9, 0⟩ revBackend m) s3 = .ok s3 ∧
      F.times (F.cellgs1d 0 3 3 ⟨21, 0⟩ (0 - 1) (3 + 1) ⟨9, 0⟩ (0 - 2) (3 + 2) ⟨10, 0⟩ (0 - 2) (3 + 2) ⟨1, 0⟩) l s3 = .ok m' ∧
      F.Holds m' (F.cell1d ⟨1, 0⟩ 0 3 2) U' ∧ F.Only [(F.st1d ⟨9, 0⟩ 0 3 1), (F.cell1d ⟨1, 0⟩ 0 3 2)] (exSolve 1) m' ∧
      (∀ p, ¬ F.InBounds [(0, 3)] p → U' p = exIns 1 5 p) ∧ ∀ p, F.InBounds [(0, 3)] p → |U' p - exIns 1 0 p| ≤ (99999 / 100000) ^ l * 5 := by
  obtain ⟨m1, m2, c1, c2, hR⟩ := exRun_v2_1
  exact C84_gs_v2_1d_partial (T := Rat) (q := 99999 / 100000) (neu := 3) (βs := fun _ => revBackend) (fun _ => revBackend_ok) (fun _ => seqBackend_ok) revBackend_ok seqBackend_ok (fun _ => revBackend_ok) (by decide) (by decide) (by decide) (by decide) (by decide) rfl exEll_v2_1 exWidth exRate2_v2_1 (by norm_num) exSides1_layer exSides1_out exSides1_first exSides1_disjoint exSides1_fulfils (exDir_args (by ex_args)) (apart_blk (by decide))
    (exDir_rd (by decide) (exRat_ok rfl (by decide) (by decide))) exDir_u1 c1 c2 hR
    (exSolve_args (by ex_args)) (ex_apart (by decide)) (exSolve_rd (by decide) (exRat_ok rfl (by decide) (by decide))) exSolve_u1 (exSolve_f (exRat_ok rfl (by decide) (by decide)) rfl) exSolve_t1 exSolve_err1 l

/-- 1D, diffusion operator with constant reaction, red-black Gauss-Seidel: if flux and apply kernel take `X` to `G`, and `X` with its ghost values fulfils conditions of first order on pieces of the
boundary with the data in the ghost cells of the unknowns, then off-diagonal kernel, adjustment for each piece, diagonal kernel and its adjustment, followed by `l` pairs of sweeps for the right
hand side `G` bring the unknowns to within `rate^l E` of `X`. -/
theorem C84_rbgs_v2_1d {i0 i1 gcw rgcw sgcw fgcw color color2 : Int} {alpha beta neu : T} {dx : Nat → T} {u b0 f0 res st rhs o : Ptr} {β1 β2 : Nat → Backend} {β3 β4 : Backend} {βs : F.Side1 → Backend} {sides : List F.Side1} {m mX m1 m2 : Mem T} {B0 G U X : List Int → T} {E q : T}
    (hβ1 : ∀ n, ValidBackend (β1 n)) (hβ2 : ∀ n, ValidBackend (β2 n)) (hβ3 : ValidBackend β3) (hβ4 : ValidBackend β4) (hβs : ∀ s, ValidBackend (βs s))
    (hi : i0 ≤ i1) (hg : 1 ≤ gcw) (hrgcw : 0 ≤ rgcw) (hs : 0 ≤ sgcw) (hfg : 0 ≤ fgcw) (hc' : 0 ≤ color) (hc2 : 0 ≤ color2) (hcc : (color2 - color) % 2 = 1) (he : F.Elliptic1 i0 i1 alpha beta dx (fun _ => 1) B0)
    (hdx : ∀ d, d < 1 → 0 < dx d)
    (hq : ∀ i, i0 ≤ i → i ≤ i1 → (1 - q) * (2 * (beta / (dx 0 * dx 0) * (B0 [i] + B0 [i + 1])) + alpha * (fun _ => 1) [i]) ≤ alpha * (fun _ => 1) [i]) (h1 : q < 1)
    (hl : ∀ s ∈ sides, Layer1 i0 i1 0 s.i0 s.i1 s.side) (hout : ∀ s ∈ sides, s.Outside i0 i1) (hfi : ∀ s ∈ sides, F.First s.btype s.order)
    (hd : F.Disjoint (sides.map (F.Side1.piece dx B0))) (hF : F.Fulfils [(i0, i1)] 3 (F.row F.points1) (sides.map (F.Side1.piece dx B0)) U X)
    (h : F.Args mX [(F.cell1d u i0 i1 gcw), (F.face1d b0 i0 i1 0)] [(F.face1d f0 i0 i1 0), (F.cell1d res i0 i1 rgcw)])
    (hr : F.Apart (F.cell1d res i0 i1 rgcw) (F.face1d f0 i0 i1 0)) (hB0X : F.Holds mX (F.face1d b0 i0 i1 0) B0) (hXX : F.Holds mX (F.cell1d u i0 i1 gcw) X)
    (c1 : Cuda.flux1d i0 i1 dx b0 gcw u f0 β1 mX = .ok m1) (c2 : Cuda.diffusionV2Apply1d i0 i1 alpha beta dx gcw u f0 rgcw res β2 m1 = .ok m2)
    (hR : ∀ p, F.InBounds [(i0, i1)] p → F.El m2 (F.cell1d res i0 i1 rgcw) p (G p))
    (h2 : F.Args m [(F.face1d b0 i0 i1 0), (F.cell1d u i0 i1 gcw), (F.cell1d rhs i0 i1 fgcw)] [(F.st1d st i0 i1 sgcw)]) (huf : F.Apart (F.cell1d u i0 i1 gcw) (F.cell1d rhs i0 i1 fgcw))
    (hB0 : F.Holds m (F.face1d b0 i0 i1 0) B0) (hU : F.Holds m (F.cell1d u i0 i1 gcw) U) (hG : F.Holds m (F.cell1d rhs i0 i1 fgcw) G) (ht : F.Rows m (F.offset0 o 1 3) F.points1)
    (hE : ∀ p, F.InBounds [(i0, i1)] p → |U p - X p| ≤ E) (l : Nat) :
    ∃ s1 s2 s3 m' U', Cuda.offdiag1d i0 i1 i0 i1 dx beta b0 sgcw st β3 m = .ok s1 ∧
      sides.foldlM (fun m s => Cuda.adjOffdiag1d i0 i1 s.i0 s.i1 s.side s.btype s.order dx 2 neu beta b0 sgcw st (βs s) m) s1 = .ok s2 ∧ Cuda.v2diag1d i0 i1 alpha sgcw st β4 s2 = .ok s3 ∧
      sides.foldlM (fun m s => Cuda.adjDiag1d i0 i1 s.i0 s.i1 s.side s.btype s.order dx beta b0 sgcw st (βs s) m) s3 = .ok s3 ∧
      F.times (fun m => F.cellrbgs1d i0 i1 color 3 o (i0 - sgcw) (i1 + sgcw) st (i0 - fgcw) (i1 + fgcw) rhs (i0 - gcw) (i1 + gcw) u m >>=
        F.cellrbgs1d i0 i1 color2 3 o (i0 - sgcw) (i1 + sgcw) st (i0 - fgcw) (i1 + fgcw) rhs (i0 - gcw) (i1 + gcw) u) l s3 = .ok m' ∧
      F.Holds m' (F.cell1d u i0 i1 gcw) U' ∧ F.Only [(F.st1d st i0 i1 sgcw), (F.cell1d u i0 i1 gcw)] m m' ∧
      (∀ p, ¬ F.InBounds [(i0, i1)] p → U' p = U p) ∧ ∀ p, F.InBounds [(i0, i1)] p → |U' p - X p| ≤ q ^ l * E := by
  obtain ⟨m1', m2', R, d1, d2, ER, hop⟩ := energy_v2_1 (alpha := alpha) (beta := beta) (dx := dx) hβ1 hβ2 hi hg hrgcw h hr hB0X hXX
  obtain rfl : m1 = m1' := Except.ok.inj (c1.symm.trans d1)
  obtain rfl : m2 = m2' := Except.ok.inj (c2.symm.trans d2)
  classical
  obtain ⟨Y, hY, hYD⟩ : ∃ Y : List Int → T, (∀ p, F.InBounds [(i0, i1)] p → Y p = X p) ∧ ∀ p, ¬ F.InBounds [(i0, i1)] p → Y p = U p :=
    ⟨fun p => if F.InBounds [(i0, i1)] p then X p else U p, fun p hp => if_pos hp, fun p hp => if_neg hp⟩
  obtain ⟨s1, s2, s3, S, a1, a2, a3, a4, ho, hp, hD, hX⟩ := bvp_v2_1 (alpha := alpha) (beta := beta) (neu := neu) (dx := dx) (o := o) (q := q) (X := X) (Y := Y) hβ3 hβ4 hβs hi hs hg hfg he hdx hq h1 hl hout hfi hd (h2.sub (by intro x hx; simp only [List.mem_cons, List.not_mem_nil, or_false] at hx ⊢; tauto) (fun _ e => e)) huf hB0 hU hG ht
    (fun i hi0 hi1 => by
      have hp : F.InBounds [(i0, i1)] [i] := F.inBounds1.2 ⟨i, rfl, by omega⟩
      rw [← hop i hi0 hi1]
      exact (ER _ hp).rd.symm.trans (hR _ hp).rd) hF hY hYD
  have hUY : ∀ p, ¬ F.InBounds [(i0, i1)] p → U p = Y p := fun p hp => (hYD p hp).symm
  have hE1 : ∀ p, F.InBounds [(i0, i1)] p → |U p - Y p| ≤ E * (fun _ => (1 : T)) p := fun p hp => by
    rw [hY p hp]
    simpa using hE p hp
  obtain ⟨m', U', t, w1, w2, w3, w4⟩ := C59_rbgs_1d hc' hc2 hcc hp rfl hD h1.le hX hUY hE1 l
  refine ⟨s1, s2, s3, m', U', a1, a2, a3, a4, t, w1, (ho.mono (by simp)).trans (w2.mono fun _ ha => List.mem_cons_of_mem _ ha), fun p hp => (w3 p hp).trans (hYD p hp), fun p hp => ?_⟩
  rw [← hY p hp]
  simpa using w4 p hp

example (l : Nat) : ∃ s1 s2 s3 m' U', Cuda.offdiag1d 0 3 0 3 exDx 2 ⟨2, 0⟩ 1 ⟨9, 0⟩ revBackend (exSolve 1) = .ok s1 ∧
      exSides1.foldlM (fun m s => Cuda.adjOffdiag1d 0 3 s.i0 s.i1 s.side s.btype s.order exDx 2 3 2 ⟨2, 0⟩ 1 ⟨9, 0⟩ revBackend m) s1 = .ok s2 ∧ Cuda.v2diag1d 0 3 3 1 ⟨9, 0⟩ seqBackend s2 = .ok s3 ∧
      exSides1.foldlM (fun m s => Cuda.adjDiag1d 0 3 s.i0 s.i1 s.side s.btype s.order exDx 2 ⟨2, 0⟩ 1 ⟨9, 0⟩ revBackend m) s3 = .ok s3 ∧
      F.times (fun μ => F.cellrbgs1d 0 3 0 3 ⟨21, 0⟩ (0 - 1) (3 + 1) ⟨9, 0⟩ (0 - 2) (3 + 2) ⟨10, 0⟩ (0 - 2) (3 + 2) ⟨1, 0⟩ μ >>=
        F.cellrbgs1d 0 3 1 3 ⟨21, 0⟩ (0 - 1) (3 + 1) ⟨9, 0⟩ (0 - 2) (3 + 2) ⟨10, 0⟩ (0 - 2) (3 + 2) ⟨1, 0⟩) l s3 = .ok m' ∧
      F.Holds m' (F.cell1d ⟨1, 0⟩ 0 3 2) U' ∧ F.Only [(F.st1d ⟨9, 0⟩ 0 3 1), (F.cell1d ⟨1, 0⟩ 0 3 2)] (exSolve 1) m' ∧
      (∀ p, ¬ F.InBounds [(0, 3)] p → U' p = exIns 1 5 p) ∧ ∀ p, F.InBounds [(0, 3)] p → |U' p - exIns 1 0 p| ≤ (99999 / 100000) ^ l * 5 := by
  obtain ⟨m1, m2, c1, c2, hR⟩ := exRun_v2_1
  exact C84_rbgs_v2_1d (T := Rat) (q := 99999 / 100000) (neu := 3) (βs := fun _ => revBackend) (fun _ => revBackend_ok) (fun _ => seqBackend_ok) revBackend_ok seqBackend_ok (fun _ => revBackend_ok) (by decide) (by decide) (by decide) (by decide) (by decide) (by decide) (by decide) (by decide) exEll_v2_1 exWidth exRate2_v2_1 (by norm_num) exSides1_layer exSides1_out exSides1_first exSides1_disjoint exSides1_fulfils (exDir_args (by ex_args)) (apart_blk (by decide))
    (exDir_rd (by decide) (exRat_ok rfl (by decide) (by decide))) exDir_u1 c1 c2 hR
    (exSolve_args (by ex_args)) (ex_apart (by decide)) (exSolve_rd (by decide) (exRat_ok rfl (by decide) (by decide))) exSolve_u1 (exSolve_f (exRat_ok rfl (by decide) (by decide)) rfl) exSolve_t1 exSolve_err1 l

/-- 2D, diffusion operator with cell coefficients, damped Jacobi: if flux and apply kernel take `X` to `G`, and `X` with its ghost values fulfils conditions of first order on pieces of the
boundary with the data in the ghost cells of the unknowns, then off-diagonal kernel, adjustment for each piece, diagonal kernel and its adjustment, followed by `l` sweeps for the right
hand side `G` bring the unknowns to within `rate^l E` of `X`. (Partial: Robin conditions across the first direction only, see `C74_v2_2d_robin_dir1_false`.) -/
theorem C84_jacobi_v1_2d_partial {i0 j0 i1 j1 agcw gcw rgcw sgcw fgcw : Int} {alpha beta neu : T} {dx : Nat → T} {a u b0 b1 f0 f1 res st rhs o r : Ptr} {β1 β2 : Nat → Backend} {β3 β4 : Backend} {βs : F.Side2 → Backend} {sides : List F.Side2} {m mX m1 m2 : Mem T} {A B0 B1 G U X : List Int → T} {E q : T}
    (hβ1 : ∀ n, ValidBackend (β1 n)) (hβ2 : ∀ n, ValidBackend (β2 n)) (hβ3 : ValidBackend β3) (hβ4 : ValidBackend β4) (hβs : ∀ s, ValidBackend (βs s))
    (hi : i0 ≤ i1) (hj : j0 ≤ j1) (hg : 1 ≤ gcw) (hagcw : 0 ≤ agcw) (hrgcw : 0 ≤ rgcw) (hs : 0 ≤ sgcw) (hfg : 0 ≤ fgcw) (he : F.Elliptic2 i0 j0 i1 j1 alpha beta dx A B0 B1)
    (hdx : ∀ d, d < 2 → 0 < dx d)
    (hq : ∀ i j, i0 ≤ i → i ≤ i1 → j0 ≤ j → j ≤ j1 → (1 - q) * (2 * (beta / (dx 0 * dx 0) * (B0 [i, j] + B0 [i + 1, j]) + beta / (dx 1 * dx 1) * (B1 [j, i] + B1 [j + 1, i])) + alpha * A [i, j]) ≤ alpha * A [i, j]) (h1 : q < 1)
    (hl : ∀ s ∈ sides, Layer2 i0 j0 i1 j1 0 s.i0 s.j0 s.i1 s.j1 s.dir s.side) (hout : ∀ s ∈ sides, s.Outside i0 j0 i1 j1) (hfi : ∀ s ∈ sides, F.First s.btype s.order) (hrob : ∀ s ∈ sides, s.btype = 4 → s.dir = 0)
    (hd : F.Disjoint (sides.map (F.Side2.piece dx B0 B1))) (hF : F.Fulfils [(i0, i1), (j0, j1)] 5 (F.row F.points2) (sides.map (F.Side2.piece dx B0 B1)) U X)
    (h : F.Args mX [(F.cell2d a i0 j0 i1 j1 agcw), (F.cell2d u i0 j0 i1 j1 gcw), (F.face2d0 b0 i0 j0 i1 j1 0), (F.face2d1 b1 i0 j0 i1 j1 0)] [(F.face2d0 f0 i0 j0 i1 j1 0), (F.face2d1 f1 i0 j0 i1 j1 0), (F.cell2d res i0 j0 i1 j1 rgcw)])
    (hp : F.Apart (F.face2d0 f0 i0 j0 i1 j1 0) (F.face2d1 f1 i0 j0 i1 j1 0))
    (hr : F.Apart (F.cell2d res i0 j0 i1 j1 rgcw) (F.face2d0 f0 i0 j0 i1 j1 0) ∧ F.Apart (F.cell2d res i0 j0 i1 j1 rgcw) (F.face2d1 f1 i0 j0 i1 j1 0)) (hAX : F.Holds mX (F.cell2d a i0 j0 i1 j1 agcw) A) (hB0X : F.Holds mX (F.face2d0 b0 i0 j0 i1 j1 0) B0) (hB1X : F.Holds mX (F.face2d1 b1 i0 j0 i1 j1 0) B1) (hXX : F.Holds mX (F.cell2d u i0 j0 i1 j1 gcw) X)
    (c1 : Cuda.flux2d i0 j0 i1 j1 dx b0 b1 gcw u f0 f1 β1 mX = .ok m1) (c2 : Cuda.diffusionV1Apply2d i0 i1 j0 j1 alpha beta dx agcw a gcw u f0 f1 rgcw res β2 m1 = .ok m2)
    (hR : ∀ p, F.InBounds [(i0, i1), (j0, j1)] p → F.El m2 (F.cell2d res i0 j0 i1 j1 rgcw) p (G p))
    (h2 : F.Args m [(F.cell2d a i0 j0 i1 j1 agcw), (F.face2d0 b0 i0 j0 i1 j1 0), (F.face2d1 b1 i0 j0 i1 j1 0), (F.cell2d u i0 j0 i1 j1 gcw), (F.cell2d rhs i0 j0 i1 j1 fgcw), (F.box2d r i0 j0 i1 j1)] [(F.st2d st i0 j0 i1 j1 sgcw)]) (huf : F.Apart (F.cell2d u i0 j0 i1 j1 gcw) (F.cell2d rhs i0 j0 i1 j1 fgcw)) (hru : F.Apart (F.box2d r i0 j0 i1 j1) (F.cell2d u i0 j0 i1 j1 gcw)) (hrf : F.Apart (F.box2d r i0 j0 i1 j1) (F.cell2d rhs i0 j0 i1 j1 fgcw))
    (hA : F.Holds m (F.cell2d a i0 j0 i1 j1 agcw) A) (hB0 : F.Holds m (F.face2d0 b0 i0 j0 i1 j1 0) B0) (hB1 : F.Holds m (F.face2d1 b1 i0 j0 i1 j1 0) B1) (hU : F.Holds m (F.cell2d u i0 j0 i1 j1 gcw) U) (hG : F.Holds m (F.cell2d rhs i0 j0 i1 j1 fgcw) G) (ht : F.Rows m (F.offset0 o 2 5) F.points2)
    (hE : ∀ p, F.InBounds [(i0, i1), (j0, j1)] p → |U p - X p| ≤ E) (l : Nat) :
    ∃ s1 s2 s3 m' U', Cuda.offdiag2d i0 j0 i1 j1 i0 j0 i1 j1 dx beta b0 b1 sgcw st β3 m = .ok s1 ∧
      sides.foldlM (fun m s => Cuda.adjOffdiag2d i0 j0 i1 j1 s.i0 s.j0 s.i1 s.j1 s.dir s.side s.btype s.order dx 2 neu beta b0 b1 sgcw st (βs s) m) s1 = .ok s2 ∧ Cuda.v1diag2d i0 j0 i1 j1 (i0 - agcw) (j0 - agcw) (i1 + agcw) (j1 + agcw) alpha a sgcw st β4 s2 = .ok s3 ∧
      sides.foldlM (fun m s => Cuda.adjDiag2d i0 j0 i1 j1 s.i0 s.j0 s.i1 s.j1 s.dir s.side s.btype s.order dx beta b0 b1 sgcw st (βs s) m) s3 = .ok s3 ∧
      F.times (F.celljacobi2d i0 i1 j0 j1 5 o (i0 - sgcw) (i1 + sgcw) (j0 - sgcw) (j1 + sgcw) st (i0 - fgcw) (i1 + fgcw) (j0 - fgcw) (j1 + fgcw) rhs (i0 - gcw) (i1 + gcw) (j0 - gcw) (j1 + gcw) u r) l s3 = .ok m' ∧
      F.Holds m' (F.cell2d u i0 j0 i1 j1 gcw) U' ∧ F.Only [(F.st2d st i0 j0 i1 j1 sgcw), (F.cell2d u i0 j0 i1 j1 gcw), (F.box2d r i0 j0 i1 j1)] m m' ∧
      (∀ p, ¬ F.InBounds [(i0, i1), (j0, j1)] p → U' p = U p) ∧ ∀ p, F.InBounds [(i0, i1), (j0, j1)] p → |U' p - X p| ≤ (1 - ((13421773 : Nat) / (16777216 : Nat) : T) + ((13421773 : Nat) / (16777216 : Nat) : T) * q) ^ l * E := by
  obtain ⟨m1', m2', R, d1, d2, ER, hop⟩ := energy_v1_2 (alpha := alpha) (beta := beta) (dx := dx) hβ1 hβ2 hi hj hg hagcw hrgcw h hp hr hAX hB0X hB1X hXX
  obtain rfl : m1 = m1' := Except.ok.inj (c1.symm.trans d1)
  obtain rfl : m2 = m2' := Except.ok.inj (c2.symm.trans d2)
  classical
  obtain ⟨Y, hY, hYD⟩ : ∃ Y : List Int → T, (∀ p, F.InBounds [(i0, i1), (j0, j1)] p → Y p = X p) ∧ ∀ p, ¬ F.InBounds [(i0, i1), (j0, j1)] p → Y p = U p :=
    ⟨fun p => if F.InBounds [(i0, i1), (j0, j1)] p then X p else U p, fun p hp => if_pos hp, fun p hp => if_neg hp⟩
  obtain ⟨s1, s2, s3, S, a1, a2, a3, a4, ho, hp, hD, hX⟩ := bvp_v1_2 (alpha := alpha) (beta := beta) (neu := neu) (dx := dx) (o := o) (q := q) (X := X) (Y := Y) hβ3 hβ4 hβs hi hj hagcw hs hg hfg he hdx hq h1 hl hout hfi hrob hd (h2.sub (by intro x hx; simp only [List.mem_cons, List.not_mem_nil, or_false] at hx ⊢; tauto) (fun _ e => e)) huf hA hB0 hB1 hU hG ht
    (fun i j hi0 hi1 hj0 hj1 => by
      have hp : F.InBounds [(i0, i1), (j0, j1)] [i, j] := F.inBounds2.2 ⟨i, j, rfl, by omega⟩
      rw [← hop i j hi0 hi1 hj0 hj1]
      exact (ER _ hp).rd.symm.trans (hR _ hp).rd) hF hY hYD
  have hUY : ∀ p, ¬ F.InBounds [(i0, i1), (j0, j1)] p → U p = Y p := fun p hp => (hYD p hp).symm
  have hE1 : ∀ p, F.InBounds [(i0, i1), (j0, j1)] p → |U p - Y p| ≤ E * (fun _ => (1 : T)) p := fun p hp => by
    rw [hY p hp]
    simpa using hE p hp
  have hr2 : F.Holds s3 (F.box2d r i0 j0 i1 j1) (F.rd m (F.box2d r i0 j0 i1 j1)) := F.Holds.only (fun is hi => (h2.ok (F.box2d r i0 j0 i1 j1) (by simp)).rd hi) ho (by simp only [List.mem_cons, List.not_mem_nil, or_false, forall_eq]; exact h2.apart _ (by simp) _ (by simp))
  obtain ⟨m', U', t, w1, w2, w3, w4⟩ := C59_jacobi_2d hp hr2 hru (F.apart_symm (h2.apart (F.st2d st i0 j0 i1 j1 sgcw) (by simp) (F.box2d r i0 j0 i1 j1) (by simp))) hrf rfl hD hX hUY hE1 l
  refine ⟨s1, s2, s3, m', U', a1, a2, a3, a4, t, w1, (ho.mono (by simp)).trans (w2.mono fun _ ha => List.mem_cons_of_mem _ ha), fun p hp => (w3 p hp).trans (hYD p hp), fun p hp => ?_⟩
  rw [← hY p hp]
  simpa using w4 p hp

example (l : Nat) : ∃ s1 s2 s3 m' U', Cuda.offdiag2d 0 1 2 3 0 1 2 3 exDx 2 ⟨2, 0⟩ ⟨3, 0⟩ 1 ⟨9, 0⟩ revBackend (exSolve 2) = .ok s1 ∧
      exSides2.foldlM (fun m s => Cuda.adjOffdiag2d 0 1 2 3 s.i0 s.j0 s.i1 s.j1 s.dir s.side s.btype s.order exDx 2 3 2 ⟨2, 0⟩ ⟨3, 0⟩ 1 ⟨9, 0⟩ revBackend m) s1 = .ok s2 ∧ Cuda.v1diag2d 0 1 2 3 (0 - 1) (1 - 1) (2 + 1) (3 + 1) 3 ⟨0, 0⟩ 1 ⟨9, 0⟩ seqBackend s2 = .ok s3 ∧
      exSides2.foldlM (fun m s => Cuda.adjDiag2d 0 1 2 3 s.i0 s.j0 s.i1 s.j1 s.dir s.side s.btype s.order exDx 2 ⟨2, 0⟩ ⟨3, 0⟩ 1 ⟨9, 0⟩ revBackend m) s3 = .ok s3 ∧
      F.times (F.celljacobi2d 0 2 1 3 5 ⟨22, 0⟩ (0 - 1) (2 + 1) (1 - 1) (3 + 1) ⟨9, 0⟩ (0 - 2) (2 + 2) (1 - 2) (3 + 2) ⟨10, 0⟩ (0 - 2) (2 + 2) (1 - 2) (3 + 2) ⟨1, 0⟩ ⟨11, 0⟩) l s3 = .ok m' ∧
      F.Holds m' (F.cell2d ⟨1, 0⟩ 0 1 2 3 2) U' ∧ F.Only [(F.st2d ⟨9, 0⟩ 0 1 2 3 1), (F.cell2d ⟨1, 0⟩ 0 1 2 3 2), (F.box2d ⟨11, 0⟩ 0 1 2 3)] (exSolve 2) m' ∧
      (∀ p, ¬ F.InBounds [(0, 2), (1, 3)] p → U' p = exIns 2 5 p) ∧ ∀ p, F.InBounds [(0, 2), (1, 3)] p → |U' p - exIns 2 0 p| ≤ (1 - ((13421773 : Nat) / (16777216 : Nat) : Rat) + ((13421773 : Nat) / (16777216 : Nat) : Rat) * (99999 / 100000)) ^ l * 5 := by
  obtain ⟨m1, m2, c1, c2, hR⟩ := exRun_v1_2
  exact C84_jacobi_v1_2d_partial (T := Rat) (q := 99999 / 100000) (neu := 3) (βs := fun _ => revBackend) (fun _ => revBackend_ok) (fun _ => seqBackend_ok) revBackend_ok seqBackend_ok (fun _ => revBackend_ok) (by decide) (by decide) (by decide) (by decide) (by decide) (by decide) (by decide) exEll_v1_2 exWidth exRate2_v1_2 (by norm_num) exSides2_layer exSides2_out exSides2_first exSides2_rob exSides2_disjoint exSides2_fulfils (exDir_args (by ex_args)) (apart_blk (by decide)) ⟨apart_blk (by decide), apart_blk (by decide)⟩
    (exDir_rd (by decide) (exRat_ok rfl (by decide) (by decide))) (exDir_rd (by decide) (exRat_ok rfl (by decide) (by decide))) (exDir_rd (by decide) (exRat_ok rfl (by decide) (by decide))) exDir_u2 c1 c2 hR
    (exSolve_args (by ex_args)) (ex_apart (by decide)) (ex_apart (by decide)) (ex_apart (by decide)) (exSolve_rd (by decide) (exRat_ok rfl (by decide) (by decide))) (exSolve_rd (by decide) (exRat_ok rfl (by decide) (by decide))) (exSolve_rd (by decide) (exRat_ok rfl (by decide) (by decide))) exSolve_u2 (exSolve_f (exRat_ok rfl (by decide) (by decide)) rfl) exSolve_t2 exSolve_err2 l

/-- 2D, diffusion operator with cell coefficients, Gauss-Seidel: if flux and apply kernel take `X` to `G`, and `X` with its ghost values fulfils conditions of first order on pieces of the
boundary with the data in the ghost cells of the unknowns, then off-diagonal kernel, adjustment for each piece, diagonal kernel and its adjustment, followed by `l` sweeps for the right
hand side `G` bring the unknowns to within `rate^l E` of `X`. (Partial: Robin conditions across the first direction only, see `C74_v2_2d_robin_dir1_false`.) -/
theorem C84_gs_v1_2d_partial {i0 j0 i1 j1 agcw gcw rgcw sgcw fgcw : Int} {alpha beta neu : T} {dx : Nat → T} {a u b0 b1 f0 f1 res st rhs o : Ptr} {β1 β2 : Nat → Backend} {β3 β4 : Backend} {βs : F.Side2 → Backend} {sides : List F.Side2} {m mX m1 m2 : Mem T} {A B0 B1 G U X : List Int → T} {E q : T}
    (hβ1 : ∀ n, ValidBackend (β1 n)) (hβ2 : ∀ n, ValidBackend (β2 n)) (hβ3 : ValidBackend β3) (hβ4 : ValidBackend β4) (hβs : ∀ s, ValidBackend (βs s))
    (hi : i0 ≤ i1) (hj : j0 ≤ j1) (hg : 1 ≤ gcw) (hagcw : 0 ≤ agcw) (hrgcw : 0 ≤ rgcw) (hs : 0 ≤ sgcw) (hfg : 0 ≤ fgcw) (he : F.Elliptic2 i0 j0 i1 j1 alpha beta dx A B0 B1)
    (hdx : ∀ d, d < 2 → 0 < dx d)
    (hq : ∀ i j, i0 ≤ i → i ≤ i1 → j0 ≤ j → j ≤ j1 → (1 - q) * (2 * (beta / (dx 0 * dx 0) * (B0 [i, j] + B0 [i + 1, j]) + beta / (dx 1 * dx 1) * (B1 [j, i] + B1 [j + 1, i])) + alpha * A [i, j]) ≤ alpha * A [i, j]) (h1 : q < 1)
    (hl : ∀ s ∈ sides, Layer2 i0 j0 i1 j1 0 s.i0 s.j0 s.i1 s.j1 s.dir s.side) (hout : ∀ s ∈ sides, s.Outside i0 j0 i1 j1) (hfi : ∀ s ∈ sides, F.First s.btype s.order) (hrob : ∀ s ∈ sides, s.btype = 4 → s.dir = 0)
    (hd : F.Disjoint (sides.map (F.Side2.piece dx B0 B1))) (hF : F.Fulfils [(i0, i1), (j0, j1)] 5 (F.row F.points2) (sides.map (F.Side2.piece dx B0 B1)) U X)
    (h : F.Args mX [(F.cell2d a i0 j0 i1 j1 agcw), (F.cell2d u i0 j0 i1 j1 gcw), (F.face2d0 b0 i0 j0 i1 j1 0), (F.face2d1 b1 i0 j0 i1 j1 0)] [(F.face2d0 f0 i0 j0 i1 j1 0), (F.face2d1 f1 i0 j0 i1 j1 0), (F.cell2d res i0 j0 i1 j1 rgcw)])
    (hp : F.Apart (F.face2d0 f0 i0 j0 i1 j1 0) (F.face2d1 f1 i0 j0 i1 j1 0))
    (hr : F.Apart (F.cell2d res i0 j0 i1 j1 rgcw) (F.face2d0 f0 i0 j0 i1 j1 0) ∧ F.Apart (F.cell2d res i0 j0 i1 j1 rgcw) (F.face2d1 f1 i0 j0 i1 j1 0)) (hAX : F.Holds mX (F.cell2d a i0 j0 i1 j1 agcw) A) (hB0X : F.Holds mX (F.face2d0 b0 i0 j0 i1 j1 0) B0) (hB1X : F.Holds mX (F.face2d1 b1 i0 j0 i1 j1 0) B1) (hXX : F.Holds mX (F.cell2d u i0 j0 i1 j1 gcw) X)
    (c1 : Cuda.flux2d i0 j0 i1 j1 dx b0 b1 gcw u f0 f1 β1 mX = .ok m1) (c2 : Cuda.diffusionV1Apply2d i0 i1 j0 j1 alpha beta dx agcw a gcw u f0 f1 rgcw res β2 m1 = .ok m2)
    (hR : ∀ p, F.InBounds [(i0, i1), (j0, j1)] p → F.El m2 (F.cell2d res i0 j0 i1 j1 rgcw) p (G p))
    (h2 : F.Args m [(F.cell2d a i0 j0 i1 j1 agcw), (F.face2d0 b0 i0 j0 i1 j1 0), (F.face2d1 b1 i0 j0 i1 j1 0), (F.cell2d u i0 j0 i1 j1 gcw), (F.cell2d rhs i0 j0 i1 j1 fgcw)] [(F.st2d st i0 j0 i1 j1 sgcw)]) (huf : F.Apart (F.cell2d u i0 j0 i1 j1 gcw) (F.cell2d rhs i0 j0 i1 j1 fgcw))
    (hA : F.Holds m (F.cell2d a i0 j0 i1 j1 agcw) A) (hB0 : F.Holds m (F.face2d0 b0 i0 j0 i1 j1 0) B0) (hB1 : F.Holds m (F.face2d1 b1 i0 j0 i1 j1 0) B1) (hU : F.Holds m (F.cell2d u i0 j0 i1 j1 gcw) U) (hG : F.Holds m (F.cell2d rhs i0 j0 i1 j1 fgcw) G) (ht : F.Rows m (F.offset0 o 2 5) F.points2)
    (hE : ∀ p, F.InBounds [(i0, i1), (j0, j1)] p → |U p - X p| ≤ E) (l : Nat) :
    ∃ s1 s2 s3 m' U', Cuda.offdiag2d i0 j0 i1 j1 i0 j0 i1 j1 dx beta b0 b1 sgcw st β3 m = .ok s1 ∧
      sides.foldlM (fun m s => Cuda.adjOffdiag2d i0 j0 i1 j1 s.i0 s.j0 s.i1 s.j1 s.dir s.side s.btype s.order dx 2 neu beta b0 b1 sgcw st (βs s) m) s1 = .ok s2 ∧ Cuda.v1diag2d i0 j0 i1 j1 (i0 - agcw) (j0 - agcw) (i1 + agcw) (j1 + agcw) alpha a sgcw st β4 s2 = .ok s3 ∧
      sides.foldlM (fun m s => Cuda.adjDiag2d i0 j0 i1 j1 s.i0 s.j0 s.i1 s.j1 s.dir s.side s.btype s.order dx beta b0 b1 sgcw st (βs s) m) s3 = .ok s3 ∧
      F.times (F.cellgs2d i0 i1 j0 j1 5 o (i0 - sgcw) (i1 + sgcw) (j0 - sgcw) (j1 + sgcw) st (i0 - fgcw) (i1 + fgcw) (j0 - fgcw) (j1 + fgcw) rhs (i0 - gcw) (i1 + gcw) (j0 - gcw) (j1 + gcw) u) l s3 = .ok m' ∧
      F.Holds m' (F.cell2d u i0 j0 i1 j1 gcw) U' ∧ F.Only [(F.st2d st i0 j0 i1 j1 sgcw), (F.cell2d u i0 j0 i1 j1 gcw)] m m' ∧
      (∀ p, ¬ F.InBounds [(i0, i1), (j0, j1)] p → U' p = U p) ∧ ∀ p, F.InBounds [(i0, i1), (j0, j1)] p → |U' p - X p| ≤ q ^ l * E := by
  obtain ⟨m1', m2', R, d1, d2, ER, hop⟩ := energy_v1_2 (alpha := alpha) (beta := beta) (dx := dx) hβ1 hβ2 hi hj hg hagcw hrgcw h hp hr hAX hB0X hB1X hXX
  obtain rfl : m1 = m1' := Except.ok.inj (c1.symm.trans d1)
  obtain rfl : m2 = m2' := Except.ok.inj (c2.symm.trans d2)
  classical
  obtain ⟨Y, hY, hYD⟩ : ∃ Y : List Int → T, (∀ p, F.InBounds [(i0, i1), (j0, j1)] p → Y p = X p) ∧ ∀ p, ¬ F.InBounds [(i0, i1), (j0, j1)] p → Y p = U p :=
    ⟨fun p => if F.InBounds [(i0, i1), (j0, j1)] p then X p else U p, fun p hp => if_pos hp, fun p hp => if_neg hp⟩
  obtain ⟨s1, s2, s3, S, a1, a2, a3, a4, ho, hp, hD, hX⟩ := bvp_v1_2 (alpha := alpha) (beta := beta) (neu := neu) (dx := dx) (o := o) (q := q) (X := X) (Y := Y) hβ3 hβ4 hβs hi hj hagcw hs hg hfg he hdx hq h1 hl hout hfi hrob hd (h2.sub (by intro x hx; simp only [List.mem_cons, List.not_mem_nil, or_false] at hx ⊢; tauto) (fun _ e => e)) huf hA hB0 hB1 hU hG ht
    (fun i j hi0 hi1 hj0 hj1 => by
      have hp : F.InBounds [(i0, i1), (j0, j1)] [i, j] := F.inBounds2.2 ⟨i, j, rfl, by omega⟩
      rw [← hop i j hi0 hi1 hj0 hj1]
      exact (ER _ hp).rd.symm.trans (hR _ hp).rd) hF hY hYD
  have hUY : ∀ p, ¬ F.InBounds [(i0, i1), (j0, j1)] p → U p = Y p := fun p hp => (hYD p hp).symm
  have hE1 : ∀ p, F.InBounds [(i0, i1), (j0, j1)] p → |U p - Y p| ≤ E * (fun _ => (1 : T)) p := fun p hp => by
    rw [hY p hp]
    simpa using hE p hp
  obtain ⟨m', U', t, w1, w2, w3, w4⟩ := C59_gs_2d hp rfl hD h1.le hX hUY hE1 l
  refine ⟨s1, s2, s3, m', U', a1, a2, a3, a4, t, w1, (ho.mono (by simp)).trans (w2.mono fun _ ha => List.mem_cons_of_mem _ ha), fun p hp => (w3 p hp).trans (hYD p hp), fun p hp => ?_⟩
  rw [← hY p hp]
  simpa using w4 p hp

example (l : Nat) : ∃ s1 s2 s3 m' U', Cuda.offdiag2d 0 1 2 3 0 1 2 3 exDx 2 ⟨2, 0⟩ ⟨3, 0⟩ 1 ⟨9, 0⟩ revBackend (exSolve 2) = .ok s1 ∧
      exSides2.foldlM (fun m s => Cuda.adjOffdiag2d 0 1 2 3 s.i0 s.j0 s.i1 s.j1 s.dir s.side s.btype s.order exDx 2 3 2 ⟨2, 0⟩ ⟨3, 0⟩ 1 ⟨9, 0⟩ revBackend m) s1 = .ok s2 ∧ Cuda.v1diag2d 0 1 2 3 (0 - 1) (1 - 1) (2 + 1) (3 + 1) 3 ⟨0, 0⟩ 1 ⟨9, 0⟩ seqBackend s2 = .ok s3 ∧
      exSides2.foldlM (fun m s => Cuda.adjDiag2d 0 1 2 3 s.i0 s.j0 s.i1 s.j1 s.dir s.side s.btype s.order exDx 2 ⟨2, 0⟩ ⟨3, 0⟩ 1 ⟨9, 0⟩ revBackend m) s3 = .ok s3 ∧
      F.times (F.cellgs2d 0 2 1 3 5 ⟨22, 0⟩ (0 - 1) (2 + 1) (1 - 1) (3 + 1) ⟨9, 0⟩ (0 - 2) (2 + 2) (1 - 2) (3 + 2) ⟨10, 0⟩ (0 - 2) (2 + 2) (1 - 2) (3 + 2) ⟨1, 0⟩) l s3 = .ok m' ∧
      F.Holds m' (F.cell2d ⟨1, 0⟩ 0 1 2 3 2) U' ∧ F.Only [(F.st2d ⟨9, 0⟩ 0 1 2 3 1), (F.cell2d ⟨1, 0⟩ 0 1 2 3 2)] (exSolve 2) m' ∧
      (∀ p, ¬ F.InBounds [(0, 2), (1, 3)] p → U' p = exIns 2 5 p) ∧ ∀ p, F.InBounds [(0, 2), (1, 3)] p → |U' p - exIns 2 0 p| ≤ (99999 / 100000) ^ l * 5 := by
  obtain ⟨m1, m2, c1, c2, hR⟩ := exRun_v1_2
  exact C84_gs_v1_2d_partial (T := Rat) (q := 99999 / 100000) (neu := 3) (βs := fun _ => revBackend) (fun _ => revBackend_ok) (fun _ => seqBackend_ok) revBackend_ok seqBackend_ok (fun _ => revBackend_ok) (by decide) (by decide) (by decide) (by decide) (by decide) (by decide) (by decide) exEll_v1_2 exWidth exRate2_v1_2 (by norm_num) exSides2_layer exSides2_out exSides2_first exSides2_rob exSides2_disjoint exSides2_fulfils (exDir_args (by ex_args)) (apart_blk (by decide)) ⟨apart_blk (by decide), apart_blk (by decide)⟩
    (exDir_rd (by decide) (exRat_ok rfl (by decide) (by decide))) (exDir_rd (by decide) (exRat_ok rfl (by decide) (by decide))) (exDir_rd (by decide) (exRat_ok rfl (by decide) (by decide))) exDir_u2 c1 c2 hR
    (exSolve_args (by ex_args)) (ex_apart (by decide)) (exSolve_rd (by decide) (exRat_ok rfl (by decide) (by decide))) (exSolve_rd (by decide) (exRat_ok rfl (by decide) (by decide))) (exSolve_rd (by decide) (exRat_ok rfl (by decide) (by decide))) exSolve_u2 (exSolve_f (exRat_ok rfl (by decide) (by decide)) rfl) exSolve_t2 exSolve_err2 l

/-- 2D, diffusion operator with cell coefficients, red-black Gauss-Seidel: if flux and apply kernel take `X` to `G`, and `X` with its ghost values fulfils conditions of first order on pieces of the
boundary with the data in the ghost cells of the unknowns, then off-diagonal kernel, adjustment for each piece, diagonal kernel and its adjustment, followed by `l` pairs of sweeps for the right
hand side `G` bring the unknowns to within `rate^l E` of `X`. (Partial: `j0 + color` not negative, see `C52_sweep_2d_false`; Robin
conditions across the first direction only.) -/
theorem C84_rbgs_v1_2d_partial {i0 j0 i1 j1 agcw gcw rgcw sgcw fgcw color color2 : Int} {alpha beta neu : T} {dx : Nat → T} {a u b0 b1 f0 f1 res st rhs o : Ptr} {β1 β2 : Nat → Backend} {β3 β4 : Backend} {βs : F.Side2 → Backend} {sides : List F.Side2} {m mX m1 m2 : Mem T} {A B0 B1 G U X : List Int → T} {E q : T}
    (hβ1 : ∀ n, ValidBackend (β1 n)) (hβ2 : ∀ n, ValidBackend (β2 n)) (hβ3 : ValidBackend β3) (hβ4 : ValidBackend β4) (hβs : ∀ s, ValidBackend (βs s))
    (hi : i0 ≤ i1) (hj : j0 ≤ j1) (hg : 1 ≤ gcw) (hagcw : 0 ≤ agcw) (hrgcw : 0 ≤ rgcw) (hs : 0 ≤ sgcw) (hfg : 0 ≤ fgcw) (hc' : 0 ≤ j0 + color) (hc2 : 0 ≤ j0 + color2) (hcc : (color2 - color) % 2 = 1) (he : F.Elliptic2 i0 j0 i1 j1 alpha beta dx A B0 B1)
    (hdx : ∀ d, d < 2 → 0 < dx d)
    (hq : ∀ i j, i0 ≤ i → i ≤ i1 → j0 ≤ j → j ≤ j1 → (1 - q) * (2 * (beta / (dx 0 * dx 0) * (B0 [i, j] + B0 [i + 1, j]) + beta / (dx 1 * dx 1) * (B1 [j, i] + B1 [j + 1, i])) + alpha * A [i, j]) ≤ alpha * A [i, j]) (h1 : q < 1)
    (hl : ∀ s ∈ sides, Layer2 i0 j0 i1 j1 0 s.i0 s.j0 s.i1 s.j1 s.dir s.side) (hout : ∀ s ∈ sides, s.Outside i0 j0 i1 j1) (hfi : ∀ s ∈ sides, F.First s.btype s.order) (hrob : ∀ s ∈ sides, s.btype = 4 → s.dir = 0)
    (hd : F.Disjoint (sides.map (F.Side2.piece dx B0 B1))) (hF : F.Fulfils [(i0, i1), (j0, j1)] 5 (F.row F.points2) (sides.map (F.Side2.piece dx B0 B1)) U X)
    (h : F.Args mX [(F.cell2d a i0 j0 i1 j1 agcw), (F.cell2d u i0 j0 i1 j1 gcw), (F.face2d0 b0 i0 j0 i1 j1 0), (F.face2d1 b1 i0 j0 i1 j1 0)] [(F.face2d0 f0 i0 j0 i1 j1 0), (F.face2d1 f1 i0 j0 i1 j1 0), (F.cell2d res i0 j0 i1 j1 rgcw)])
    (hp : F.Apart (F.face2d0 f0 i0 j0 i1 j1 0) (F.face2d1 f1 i0 j0 i1 j1 0))
    (hr : F.Apart (F.cell2d res i0 j0 i1 j1 rgcw) (F.face2d0 f0 i0 j0 i1 j1 0) ∧ F.Apart (F.cell2d res i0 j0 i1 j1 rgcw) (F.face2d1 f1 i0 j0 i1 j1 0)) (hAX : F.Holds mX (F.cell2d a i0 j0 i1 j1 agcw) A) (hB0X : F.Holds mX (F.face2d0 b0 i0 j0 i1 j1 0) B0) (hB1X : F.Holds mX (F.face2d1 b1 i0 j0 i1 j1 0) B1) (hXX : F.Holds mX (F.cell2d u i0 j0 i1 j1 gcw) X)
    (c1 : Cuda.flux2d i0 j0 i1 j1 dx b0 b1 gcw u f0 f1 β1 mX = .ok m1) (c2 : Cuda.diffusionV1Apply2d i0 i1 j0 j1 alpha beta dx agcw a gcw u f0 f1 rgcw res β2 m1 = .ok m2)
    (hR : ∀ p, F.InBounds [(i0, i1), (j0, j1)] p → F.El m2 (F.cell2d res i0 j0 i1 j1 rgcw) p (G p))
    (h2 : F.Args m [(F.cell2d a i0 j0 i1 j1 agcw), (F.face2d0 b0 i0 j0 i1 j1 0), (F.face2d1 b1 i0 j0 i1 j1 0), (F.cell2d u i0 j0 i1 j1 gcw), (F.cell2d rhs i0 j0 i1 j1 fgcw)] [(F.st2d st i0 j0 i1 j1 sgcw)]) (huf : F.Apart (F.cell2d u i0 j0 i1 j1 gcw) (F.cell2d rhs i0 j0 i1 j1 fgcw))
    (hA : F.Holds m (F.cell2d a i0 j0 i1 j1 agcw) A) (hB0 : F.Holds m (F.face2d0 b0 i0 j0 i1 j1 0) B0) (hB1 : F.Holds m (F.face2d1 b1 i0 j0 i1 j1 0) B1) (hU : F.Holds m (F.cell2d u i0 j0 i1 j1 gcw) U) (hG : F.Holds m (F.cell2d rhs i0 j0 i1 j1 fgcw) G) (ht : F.Rows m (F.offset0 o 2 5) F.points2)
    (hE : ∀ p, F.InBounds [(i0, i1), (j0, j1)] p → |U p - X p| ≤ E) (l : Nat) :
    ∃ s1 s2 s3 m' U', Cuda.offdiag2d i0 j0 i1 j1 i0 j0 i1 j1 dx beta b0 b1 sgcw st β3 m = .ok s1 ∧
      sides.foldlM (fun m s => Cuda.adjOffdiag2d i0 j0 i1 j1 s.i0 s.j0 s.i1 s.j1 s.dir s.side s.btype s.order dx 2 neu beta b0 b1 sgcw st (βs s) m) s1 = .ok s2 ∧ Cuda.v1diag2d i0 j0 i1 j1 (i0 - agcw) (j0 - agcw) (i1 + agcw) (j1 + agcw) alpha a sgcw st β4 s2 = .ok s3 ∧
      sides.foldlM (fun m s => Cuda.adjDiag2d i0 j0 i1 j1 s.i0 s.j0 s.i1 s.j1 s.dir s.side s.btype s.order dx beta b0 b1 sgcw st (βs s) m) s3 = .ok s3 ∧
      F.times (fun m => F.cellrbgs2d i0 i1 j0 j1 color 5 o (i0 - sgcw) (i1 + sgcw) (j0 - sgcw) (j1 + sgcw) st (i0 - fgcw) (i1 + fgcw) (j0 - fgcw) (j1 + fgcw) rhs (i0 - gcw) (i1 + gcw) (j0 - gcw) (j1 + gcw) u m >>=
        F.cellrbgs2d i0 i1 j0 j1 color2 5 o (i0 - sgcw) (i1 + sgcw) (j0 - sgcw) (j1 + sgcw) st (i0 - fgcw) (i1 + fgcw) (j0 - fgcw) (j1 + fgcw) rhs (i0 - gcw) (i1 + gcw) (j0 - gcw) (j1 + gcw) u) l s3 = .ok m' ∧
      F.Holds m' (F.cell2d u i0 j0 i1 j1 gcw) U' ∧ F.Only [(F.st2d st i0 j0 i1 j1 sgcw), (F.cell2d u i0 j0 i1 j1 gcw)] m m' ∧
      (∀ p, ¬ F.InBounds [(i0, i1), (j0, j1)] p → U' p = U p) ∧ ∀ p, F.InBounds [(i0, i1), (j0, j1)] p → |U' p - X p| ≤ q ^ l * E := by
  obtain ⟨m1', m2', R, d1, d2, ER, hop⟩ := energy_v1_2 (alpha := alpha) (beta := beta) (dx := dx) hβ1 hβ2 hi hj hg hagcw hrgcw h hp hr hAX hB0X hB1X hXX
  obtain rfl : m1 = m1' := Except.ok.inj (c1.symm.trans d1)
  obtain rfl : m2 = m2' := Except.ok.inj (c2.symm.trans d2)
  classical
  obtain ⟨Y, hY, hYD⟩ : ∃ Y : List Int → T, (∀ p, F.InBounds [(i0, i1), (j0, j1)] p → Y p = X p) ∧ ∀ p, ¬ F.InBounds [(i0, i1), (j0, j1)] p → Y p = U p :=
    ⟨fun p => if F.InBounds [(i0, i1), (j0, j1)] p then X p else U p, fun p hp => if_pos hp, fun p hp => if_neg hp⟩
  obtain ⟨s1, s2, s3, S, a1, a2, a3, a4, ho, hp, hD, hX⟩ := bvp_v1_2 (alpha := alpha) (beta := beta) (neu := neu) (dx := dx) (o := o) (q := q) (X := X) (Y := Y) hβ3 hβ4 hβs hi hj hagcw hs hg hfg he hdx hq h1 hl hout hfi hrob hd (h2.sub (by intro x hx; simp only [List.mem_cons, List.not_mem_nil, or_false] at hx ⊢; tauto) (fun _ e => e)) huf hA hB0 hB1 hU hG ht
    (fun i j hi0 hi1 hj0 hj1 => by
      have hp : F.InBounds [(i0, i1), (j0, j1)] [i, j] := F.inBounds2.2 ⟨i, j, rfl, by omega⟩
      rw [← hop i j hi0 hi1 hj0 hj1]
      exact (ER _ hp).rd.symm.trans (hR _ hp).rd) hF hY hYD
  have hUY : ∀ p, ¬ F.InBounds [(i0, i1), (j0, j1)] p → U p = Y p := fun p hp => (hYD p hp).symm
  have hE1 : ∀ p, F.InBounds [(i0, i1), (j0, j1)] p → |U p - Y p| ≤ E * (fun _ => (1 : T)) p := fun p hp => by
    rw [hY p hp]
    simpa using hE p hp
  obtain ⟨m', U', t, w1, w2, w3, w4⟩ := C59_rbgs_2d_partial hc' hc2 hcc hp rfl hD h1.le hX hUY hE1 l
  refine ⟨s1, s2, s3, m', U', a1, a2, a3, a4, t, w1, (ho.mono (by simp)).trans (w2.mono fun _ ha => List.mem_cons_of_mem _ ha), fun p hp => (w3 p hp).trans (hYD p hp), fun p hp => ?_⟩
  rw [← hY p hp]
  simpa using w4 p hp

example (l : Nat) : ∃ s1 s2 s3 m' U', Cuda.offdiag2d 0 1 2 3 0 1 2 3 exDx 2 ⟨2, 0⟩ ⟨3, 0⟩ 1 ⟨9, 0⟩ revBackend (exSolve 2) = .ok s1 ∧
      exSides2.foldlM (fun m s => Cuda.adjOffdiag2d 0 1 2 3 s.i0 s.j0 s.i1 s.j1 s.dir s.side s.btype s.order exDx 2 3 2 ⟨2, 0⟩ ⟨3, 0⟩ 1 ⟨9, 0⟩ revBackend m) s1 = .ok s2 ∧ Cuda.v1diag2d 0 1 2 3 (0 - 1) (1 - 1) (2 + 1) (3 + 1) 3 ⟨0, 0⟩ 1 ⟨9, 0⟩ seqBackend s2 = .ok s3 ∧
      exSides2.foldlM (fun m s => Cuda.adjDiag2d 0 1 2 3 s.i0 s.j0 s.i1 s.j1 s.dir s.side s.btype s.order exDx 2 ⟨2, 0⟩ ⟨3, 0⟩ 1 ⟨9, 0⟩ revBackend m) s3 = .ok s3 ∧
      F.times (fun μ => F.cellrbgs2d 0 2 1 3 0 5 ⟨22, 0⟩ (0 - 1) (2 + 1) (1 - 1) (3 + 1) ⟨9, 0⟩ (0 - 2) (2 + 2) (1 - 2) (3 + 2) ⟨10, 0⟩ (0 - 2) (2 + 2) (1 - 2) (3 + 2) ⟨1, 0⟩ μ >>=
        F.cellrbgs2d 0 2 1 3 1 5 ⟨22, 0⟩ (0 - 1) (2 + 1) (1 - 1) (3 + 1) ⟨9, 0⟩ (0 - 2) (2 + 2) (1 - 2) (3 + 2) ⟨10, 0⟩ (0 - 2) (2 + 2) (1 - 2) (3 + 2) ⟨1, 0⟩) l s3 = .ok m' ∧
      F.Holds m' (F.cell2d ⟨1, 0⟩ 0 1 2 3 2) U' ∧ F.Only [(F.st2d ⟨9, 0⟩ 0 1 2 3 1), (F.cell2d ⟨1, 0⟩ 0 1 2 3 2)] (exSolve 2) m' ∧
      (∀ p, ¬ F.InBounds [(0, 2), (1, 3)] p → U' p = exIns 2 5 p) ∧ ∀ p, F.InBounds [(0, 2), (1, 3)] p → |U' p - exIns 2 0 p| ≤ (99999 / 100000) ^ l * 5 := by
  obtain ⟨m1, m2, c1, c2, hR⟩ := exRun_v1_2
  exact C84_rbgs_v1_2d_partial (T := Rat) (q := 99999 / 100000) (neu := 3) (βs := fun _ => revBackend) (fun _ => revBackend_ok) (fun _ => seqBackend_ok) revBackend_ok seqBackend_ok (fun _ => revBackend_ok) (by decide) (by decide) (by decide) (by decide) (by decide) (by decide) (by decide) (by decide) (by decide) (by decide) exEll_v1_2 exWidth exRate2_v1_2 (by norm_num) exSides2_layer exSides2_out exSides2_first exSides2_rob exSides2_disjoint exSides2_fulfils (exDir_args (by ex_args)) (apart_blk (by decide)) ⟨apart_blk (by decide), apart_blk (by decide)⟩
    (exDir_rd (by decide) (exRat_ok rfl (by decide) (by decide))) (exDir_rd (by decide) (exRat_ok rfl (by decide) (by decide))) (exDir_rd (by decide) (exRat_ok rfl (by decide) (by decide))) exDir_u2 c1 c2 hR
    (exSolve_args (by ex_args)) (ex_apart (by decide)) (exSolve_rd (by decide) (exRat_ok rfl (by decide) (by decide))) (exSolve_rd (by decide) (exRat_ok rfl (by decide) (by decide))) (exSolve_rd (by decide) (exRat_ok rfl (by decide) (by decide))) exSolve_u2 (exSolve_f (exRat_ok rfl (by decide) (by decide)) rfl) exSolve_t2 exSolve_err2 l

/-- 2D, diffusion operator with constant reaction, damped Jacobi: if flux and apply kernel take `X` to `G`, and `X` with its ghost values fulfils conditions of first order on pieces of the
boundary with the data in the ghost cells of the unknowns, then off-diagonal kernel, adjustment for each piece, diagonal kernel and its adjustment, followed by `l` sweeps for the right
hand side `G` bring the unknowns to within `rate^l E` of `X`. (Partial: Robin conditions across the first direction only, see `C74_v2_2d_robin_dir1_false`.) -/
theorem C84_jacobi_v2_2d_partial {i0 j0 i1 j1 gcw rgcw sgcw fgcw : Int} {alpha beta neu : T} {dx : Nat → T} {u b0 b1 f0 f1 res st rhs o r : Ptr} {β1 β2 : Nat → Backend} {β3 β4 : Backend} {βs : F.Side2 → Backend} {sides : List F.Side2} {m mX m1 m2 : Mem T} {B0 B1 G U X : List Int → T} {E q : T}
    (hβ1 : ∀ n, ValidBackend (β1 n)) (hβ2 : ∀ n, ValidBackend (β2 n)) (hβ3 : ValidBackend β3) (hβ4 : ValidBackend β4) (hβs : ∀ s, ValidBackend (βs s))
    (hi : i0 ≤ i1) (hj : j0 ≤ j1) (hg : 1 ≤ gcw) (hrgcw : 0 ≤ rgcw) (hs : 0 ≤ sgcw) (hfg : 0 ≤ fgcw) (he : F.Elliptic2 i0 j0 i1 j1 alpha beta dx (fun _ => 1) B0 B1)
    (hdx : ∀ d, d < 2 → 0 < dx d)
    (hq : ∀ i j, i0 ≤ i → i ≤ i1 → j0 ≤ j → j ≤ j1 → (1 - q) * (2 * (beta / (dx 0 * dx 0) * (B0 [i, j] + B0 [i + 1, j]) + beta / (dx 1 * dx 1) * (B1 [j, i] + B1 [j + 1, i])) + alpha * (fun _ => 1) [i, j]) ≤ alpha * (fun _ => 1) [i, j]) (h1 : q < 1)
    (hl : ∀ s ∈ sides, Layer2 i0 j0 i1 j1 0 s.i0 s.j0 s.i1 s.j1 s.dir s.side) (hout : ∀ s ∈ sides, s.Outside i0 j0 i1 j1) (hfi : ∀ s ∈ sides, F.First s.btype s.order) (hrob : ∀ s ∈ sides, s.btype = 4 → s.dir = 0)
    (hd : F.Disjoint (sides.map (F.Side2.piece dx B0 B1))) (hF : F.Fulfils [(i0, i1), (j0, j1)] 5 (F.row F.points2) (sides.map (F.Side2.piece dx B0 B1)) U X)
    (h : F.Args mX [(F.cell2d u i0 j0 i1 j1 gcw), (F.face2d0 b0 i0 j0 i1 j1 0), (F.face2d1 b1 i0 j0 i1 j1 0)] [(F.face2d0 f0 i0 j0 i1 j1 0), (F.face2d1 f1 i0 j0 i1 j1 0), (F.cell2d res i0 j0 i1 j1 rgcw)])
    (hp : F.Apart (F.face2d0 f0 i0 j0 i1 j1 0) (F.face2d1 f1 i0 j0 i1 j1 0))
    (hr : F.Apart (F.cell2d res i0 j0 i1 j1 rgcw) (F.face2d0 f0 i0 j0 i1 j1 0) ∧ F.Apart (F.cell2d res i0 j0 i1 j1 rgcw) (F.face2d1 f1 i0 j0 i1 j1 0)) (hB0X : F.Holds mX (F.face2d0 b0 i0 j0 i1 j1 0) B0) (hB1X : F.Holds mX (F.face2d1 b1 i0 j0 i1 j1 0) B1) (hXX : F.Holds mX (F.cell2d u i0 j0 i1 j1 gcw) X)
    (c1 : Cuda.flux2d i0 j0 i1 j1 dx b0 b1 gcw u f0 f1 β1 mX = .ok m1) (c2 : Cuda.diffusionV2Apply2d i0 i1 j0 j1 alpha beta dx gcw u f0 f1 rgcw res β2 m1 = .ok m2)
    (hR : ∀ p, F.InBounds [(i0, i1), (j0, j1)] p → F.El m2 (F.cell2d res i0 j0 i1 j1 rgcw) p (G p))
    (h2 : F.Args m [(F.face2d0 b0 i0 j0 i1 j1 0), (F.face2d1 b1 i0 j0 i1 j1 0), (F.cell2d u i0 j0 i1 j1 gcw), (F.cell2d rhs i0 j0 i1 j1 fgcw), (F.box2d r i0 j0 i1 j1)] [(F.st2d st i0 j0 i1 j1 sgcw)]) (huf : F.Apart (F.cell2d u i0 j0 i1 j1 gcw) (F.cell2d rhs i0 j0 i1 j1 fgcw)) (hru : F.Apart (F.box2d r i0 j0 i1 j1) (F.cell2d u i0 j0 i1 j1 gcw)) (hrf : F.Apart (F.box2d r i0 j0 i1 j1) (F.cell2d rhs i0 j0 i1 j1 fgcw))
    (hB0 : F.Holds m (F.face2d0 b0 i0 j0 i1 j1 0) B0) (hB1 : F.Holds m (F.face2d1 b1 i0 j0 i1 j1 0) B1) (hU : F.Holds m (F.cell2d u i0 j0 i1 j1 gcw) U) (hG : F.Holds m (F.cell2d rhs i0 j0 i1 j1 fgcw) G) (ht : F.Rows m (F.offset0 o 2 5) F.points2)
    (hE : ∀ p, F.InBounds [(i0, i1), (j0, j1)] p → |U p - X p| ≤ E) (l : Nat) :
    ∃ s1 s2 s3 m' U', Cuda.offdiag2d i0 j0 i1 j1 i0 j0 i1 j1 dx beta b0 b1 sgcw st β3 m = .ok s1 ∧
      sides.foldlM (fun m s => Cuda.adjOffdiag2d i0 j0 i1 j1 s.i0 s.j0 s.i1 s.j1 s.dir s.side s.btype s.order dx 2 neu beta b0 b1 sgcw st (βs s) m) s1 = .ok s2 ∧ Cuda.v2diag2d i0 j0 i1 j1 alpha sgcw st β4 s2 = .ok s3 ∧
      sides.foldlM (fun m s => Cuda.adjDiag2d i0 j0 i1 j1 s.i0 s.j0 s.i1 s.j1 s.dir s.side s.btype s.order dx beta b0 b1 sgcw st (βs s) m) s3 = .ok s3 ∧
      F.times (F.celljacobi2d i0 i1 j0 j1 5 o (i0 - sgcw) (i1 + sgcw) (j0 - sgcw) (j1 + sgcw) st (i0 - fgcw) (i1 + fgcw) (j0 - fgcw) (j1 + fgcw) rhs (i0 - gcw) (i1 + gcw) (j0 - gcw) (j1 + gcw) u r) l s3 = .ok m' ∧
      F.Holds m' (F.cell2d u i0 j0 i1 j1 gcw) U' ∧ F.Only [(F.st2d st i0 j0 i1 j1 sgcw), (F.cell2d u i0 j0 i1 j1 gcw), (F.box2d r i0 j0 i1 j1)] m m' ∧
      (∀ p, ¬ F.InBounds [(i0, i1), (j0, j1)] p → U' p = U p) ∧ ∀ p, F.InBounds [(i0, i1), (j0, j1)] p → |U' p - X p| ≤ (1 - ((13421773 : Nat) / (16777216 : Nat) : T) + ((13421773 : Nat) / (16777216 : Nat) : T) * q) ^ l * E := by
  obtain ⟨m1', m2', R, d1, d2, ER, hop⟩ := energy_v2_2 (alpha := alpha) (beta := beta) (dx := dx) hβ1 hβ2 hi hj hg hrgcw h hp hr hB0X hB1X hXX
  obtain rfl : m1 = m1' := Except.ok.inj (c1.symm.trans d1)
  obtain rfl : m2 = m2' := Except.ok.inj (c2.symm.trans d2)
  classical
  obtain ⟨Y, hY, hYD⟩ : ∃ Y : List Int → T, (∀ p, F.InBounds [(i0, i1), (j0, j1)] p → Y p = X p) ∧ ∀ p, ¬ F.InBounds [(i0, i1), (j0, j1)] p → Y p = U p :=
    ⟨fun p => if F.InBounds [(i0, i1), (j0, j1)] p then X p else U p, fun p hp => if_pos hp, fun p hp => if_neg hp⟩
  obtain ⟨s1, s2, s3, S, a1, a2, a3, a4, ho, hp, hD, hX⟩ := bvp_v2_2 (alpha := alpha) (beta := beta) (neu := neu) (dx := dx) (o := o) (q := q) (X := X) (Y := Y) hβ3 hβ4 hβs hi hj hs hg hfg he hdx hq h1 hl hout hfi hrob hd (h2.sub (by intro x hx; simp only [List.mem_cons, List.not_mem_nil, or_false] at hx ⊢; tauto) (fun _ e => e)) huf hB0 hB1 hU hG ht
    (fun i j hi0 hi1 hj0 hj1 => by
      have hp : F.InBounds [(i0, i1), (j0, j1)] [i, j] := F.inBounds2.2 ⟨i, j, rfl, by omega⟩
      rw [← hop i j hi0 hi1 hj0 hj1]
      exact (ER _ hp).rd.symm.trans (hR _ hp).rd) hF hY hYD
  have hUY : ∀ p, ¬ F.InBounds [(i0, i1), (j0, j1)] p → U p = Y p := fun p hp => (hYD p hp).symm
  have hE1 : ∀ p, F.InBounds [(i0, i1), (j0, j1)] p → |U p - Y p| ≤ E * (fun _ => (1 : T)) p := fun p hp => by
    rw [hY p hp]
    simpa using hE p hp
  have hr2 : F.Holds s3 (F.box2d r i0 j0 i1 j1) (F.rd m (F.box2d r i0 j0 i1 j1)) := F.Holds.only (fun is hi => (h2.ok (F.box2d r i0 j0 i1 j1) (by simp)).rd hi) ho (by simp only [List.mem_cons, List.not_mem_nil, or_false, forall_eq]; exact h2.apart _ (by simp) _ (by simp))
  obtain ⟨m', U', t, w1, w2, w3, w4⟩ := C59_jacobi_2d hp hr2 hru (F.apart_symm (h2.apart (F.st2d st i0 j0 i1 j1 sgcw) (by simp) (F.box2d r i0 j0 i1 j1) (by simp))) hrf rfl hD hX hUY hE1 l
  refine ⟨s1, s2, s3, m', U', a1, a2, a3, a4, t, w1, (ho.mono (by simp)).trans (w2.mono fun _ ha => List.mem_cons_of_mem _ ha), fun p hp => (w3 p hp).trans (hYD p hp), fun p hp => ?_⟩
  rw [← hY p hp]
  simpa using w4 p hp

example (l : Nat) : ∃ s1 s2 s3 m' U', Cuda.offdiag2d 0 1 2 3 0 1 2 3 exDx 2 ⟨2, 0⟩ ⟨3, 0⟩ 1 ⟨9, 0⟩ revBackend (exSolve 2) = .ok s1 ∧
      exSides2.foldlM (fun m s => Cuda.adjOffdiag2d 0 1 2 3 s.i0 s.j0 s.i1 s.j1 s.dir s.side s.btype s.order exDx 2 3 2 ⟨2, 0⟩ ⟨3, 0⟩ 1 ⟨9, 0⟩ revBackend m) s1 = .ok s2 ∧ Cuda.v2diag2d 0 1 2 3 3 1 ⟨9, 0⟩ seqBackend s2 = .ok s3 ∧
      exSides2.foldlM (fun m s => Cuda.adjDiag2d 0 1 2 3 s.i0 s.j0 s.i1 s.j1 s.dir s.side s.btype s.order exDx 2 ⟨2, 0⟩ ⟨3, 0⟩ 1 ⟨9, 0⟩ revBackend m) s3 = .ok s3 ∧
      F.times (F.celljacobi2d 0 2 1 3 5 ⟨22, 0⟩ (0 - 1) (2 + 1) (1 - 1) (3 + 1) ⟨9, 0⟩ (0 - 2) (2 + 2) (1 - 2) (3 + 2) ⟨10, 0⟩ (0 - 2) (2 + 2) (1 - 2) (3 + 2) ⟨1, 0⟩ ⟨11, 0⟩) l s3 = .ok m' ∧
      F.Holds m' (F.cell2d ⟨1, 0⟩ 0 1 2 3 2) U' ∧ F.Only [(F.st2d ⟨9, 0⟩ 0 1 2 3 1), (F.cell2d ⟨1, 0⟩ 0 1 2 3 2), (F.box2d ⟨11, 0⟩ 0 1 2 3)] (exSolve 2) m' ∧
      (∀ p, ¬ F.InBounds [(0, 2), (1, 3)] p → U' p = exIns 2 5 p) ∧ ∀ p, F.InBounds [(0, 2), (1, 3)] p → |U' p - exIns 2 0 p| ≤ (1 - ((13421773 : Nat) / (16777216 : Nat) : Rat) + ((13421773 : Nat) / (16777216 : Nat) : Rat) * (99999 / 100000)) ^ l * 5 := by
  obtain ⟨m1, m2, c1, c2, hR⟩ := exRun_v2_2
  exact C84_jacobi_v2_2d_partial (T := Rat) (q := 99999 / 100000) (neu := 3) (βs := fun _ => revBackend) (fun _ => revBackend_ok) (fun _ => seqBackend_ok) revBackend_ok seqBackend_ok (fun _ => revBackend_ok) (by decide) (by decide) (by decide) (by decide) (by decide) (by decide) exEll_v2_2 exWidth exRate2_v2_2 (by norm_num) exSides2_layer exSides2_out exSides2_first exSides2_rob exSides2_disjoint exSides2_fulfils (exDir_args (by ex_args)) (apart_blk (by decide)) ⟨apart_blk (by decide), apart_blk (by decide)⟩
    (exDir_rd (by decide) (exRat_ok rfl (by decide) (by decide))) (exDir_rd (by decide) (exRat_ok rfl (by decide) (by decide))) exDir_u2 c1 c2 hR
    (exSolve_args (by ex_args)) (ex_apart (by decide)) (ex_apart (by decide)) (ex_apart (by decide)) (exSolve_rd (by decide) (exRat_ok rfl (by decide) (by decide))) (exSolve_rd (by decide) (exRat_ok rfl (by decide) (by decide))) exSolve_u2 (exSolve_f (exRat_ok rfl (by decide) (by decide)) rfl) exSolve_t2 exSolve_err2 l

/-- 2D, diffusion operator with constant reaction, Gauss-Seidel: if flux and apply kernel take `X` to `G`, and `X` with its ghost values fulfils conditions of first order on pieces of the
boundary with the data in the ghost cells of the unknowns, then off-diagonal kernel, adjustment for each piece, diagonal kernel and its adjustment, followed by `l` sweeps for the right
hand side `G` bring the unknowns to within `rate^l E` of `X`. (Partial: Robin conditions across the first direction only, see `C74_v2_2d_robin_dir1_false`.) -/
theorem C84_gs_v2_2d_partial {i0 j0 i1 j1 gcw rgcw sgcw fgcw : Int} {alpha beta neu : T} {dx : Nat → T} {u b0 b1 f0 f1 res st rhs o : Ptr} {β1 β2 : Nat → Backend} {β3 β4 : Backend} {βs : F.Side2 → Backend} {sides : List F.Side2} {m mX m1 m2 : Mem T} {B0 B1 G U X : List Int → T} {E q : T}
    (hβ1 : ∀ n, ValidBackend (β1 n)) (hβ2 : ∀ n, ValidBackend (β2 n)) (hβ3 : ValidBackend β3) (hβ4 : ValidBackend β4) (hβs : ∀ s, ValidBackend (βs s))
    (hi : i0 ≤ i1) (hj : j0 ≤ j1) (hg : 1 ≤ gcw) (hrgcw : 0 ≤ rgcw) (hs : 0 ≤ sgcw) (hfg : 0 ≤ fgcw) (he : F.Elliptic2 i0 j0 i1 j1 alpha beta dx (fun _ => 1) B0 B1)
    (hdx : ∀ d, d < 2 → 0 < dx d)
    (hq : ∀ i j, i0 ≤ i → i ≤ i1 → j0 ≤ j → j ≤ j1 → (1 - q) * (2 * (beta / (dx 0 * dx 0) * (B0 [i, j] + B0 [i + 1, j]) + beta / (dx 1 * dx 1) * (B1 [j, i] + B1 [j + 1, i])) + alpha * (fun _ => 1) [i, j]) ≤ alpha * (fun _ => 1) [i, j]) (h1 : q < 1)
    (hl : ∀ s ∈ sides, Layer2 i0 j0 i1 j1 0 s.i0 s.j0 s.i1 s.j1 s.dir s.side) (hout : ∀ s ∈ sides, s.Outside i0 j0 i1 j1) (hfi : ∀ s ∈ sides, F.First s.btype s.order) (hrob : ∀ s ∈ sides, s.btype = 4 → s.dir = 0)
    (hd : F.Disjoint (sides.map (F.Side2.piece dx B0 B1))) (hF : F.Fulfils [(i0, i1), (j0, j1)] 5 (F.row F.points2) (sides.map (F.Side2.piece dx B0 B1)) U X)
    (h : F.Args mX [(F.cell2d u i0 j0 i1 j1 gcw), (F.face2d0 b0 i0 j0 i1 j1 0), (F.face2d1 b1 i0 j0 i1 j1 0)] [(F.face2d0 f0 i0 j0 i1 j1 0), (F.face2d1 f1 i0 j0 i1 j1 0), (F.cell2d res i0 j0 i1 j1 rgcw)])
    (hp : F.Apart (F.face2d0 f0 i0 j0 i1 j1 0) (F.face2d1 f1 i0 j0 i1 j1 0))
    (hr : F.Apart (F.cell2d res i0 j0 i1 j1 rgcw) (F.face2d0 f0 i0 j0 i1 j1 0) ∧ F.Apart (F.cell2d res i0 j0 i1 j1 rgcw) (F.face2d1 f1 i0 j0 i1 j1 0)) (hB0X : F.Holds mX (F.face2d0 b0 i0 j0 i1 j1 0) B0) (hB1X : F.Holds mX (F.face2d1 b1 i0 j0 i1 j1 0) B1) (hXX : F.Holds mX (F.cell2d u i0 j0 i1 j1 gcw) X)
    (c1 : Cuda.flux2d i0 j0 i1 j1 dx b0 b1 gcw u f0 f1 β1 mX = .ok m1) (c2 : Cuda.diffusionV2Apply2d i0 i1 j0 j1 alpha beta dx gcw u f0 f1 rgcw res β2 m1 = .ok m2)
    (hR : ∀ p, F.InBounds [(i0, i1), (j0, j1)] p → F.El m2 (F.cell2d res i0 j0 i1 j1 rgcw) p (G p))
    (h2 : F.Args m [(F.face2d0 b0 i0 j0 i1 j1 0), (F.face2d1 b1 i0 j0 i1 j1 0), (F.cell2d u i0 j0 i1 j1 gcw), (F.cell2d rhs i0 j0 i1 j1 fgcw)] [(F.st2d st i0 j0 i1 j1 sgcw)]) (huf : F.Apart (F.cell2d u i0 j0 i1 j1 gcw) (F.cell2d rhs i0 j0 i1 j1 fgcw))
    (hB0 : F.Holds m (F.face2d0 b0 i0 j0 i1 j1 0) B0) (hB1 : F.Holds m (F.face2d1 b1 i0 j0 i1 j1 0) B1) (hU : F.Holds m (F.cell2d u i0 j0 i1 j1 gcw) U) (hG : F.Holds m (F.cell2d rhs i0 j0 i1 j1 fgcw) G) (ht : F.Rows m (F.offset0 o 2 5) F.points2)
    (hE : ∀ p, F.InBounds [(i0, i1), (j0, j1)] p → |U p - X p| ≤ E) (l : Nat) :
    ∃ s1 s2 s3 m' U', Cuda.offdiag2d i0 j0 i1 j1 i0 j0 i1 j1 dx beta b0 b1 sgcw st β3 m = .ok s1 ∧
      sides.foldlM (fun m s => Cuda.adjOffdiag2d i0 j0 i1 j1 s.i0 s.j0 s.i1 s.j1 s.dir s.side s.btype s.order dx 2 neu beta b0 b1 sgcw st (βs s) m) s1 = .ok s2 ∧ Cuda.v2diag2d i0 j0 i1 j1 alpha sgcw st β4 s2 = .ok s3 ∧
      sides.foldlM (fun m s => Cuda.adjDiag2d i0 j0 i1 j1 s.i0 s.j0 s.i1 s.j1 s.dir s.side s.btype s.order dx beta b0 b1 sgcw st (βs s) m) s3 = .ok s3 ∧
      F.times (F.cellgs2d i0 i1 j0 j1 5 o (i0 - sgcw) (i1 + sgcw) (j0 - sgcw) (j1 + sgcw) st (i0 - fgcw) (i1 + fgcw) (j0 - fgcw) (j1 + fgcw) rhs (i0 - gcw) (i1 + gcw) (j0 - gcw) (j1 + gcw) u) l s3 = .ok m' ∧
      F.Holds m' (F.cell2d u i0 j0 i1 j1 gcw) U' ∧ F.Only [(F.st2d st i0 j0 i1 j1 sgcw), (F.cell2d u i0 j0 i1 j1 gcw)] m m' ∧
      (∀ p, ¬ F.InBounds [(i0, i1), (j0, j1)] p → U' p = U p) ∧ ∀ p, F.InBounds [(i0, i1), (j0, j1)] p → |U' p - X p| ≤ q ^ l * E := by
  obtain ⟨m1', m2', R, d1, d2, ER, hop⟩ := energy_v2_2 (alpha := alpha) (beta := beta) (dx := dx) hβ1 hβ2 hi hj hg hrgcw h hp hr hB0X hB1X hXX
  obtain rfl : m1 = m1' := Except.ok.inj (c1.symm.trans d1)
  obtain rfl : m2 = m2' := Except.ok.inj (c2.symm.trans d2)
  classical
  obtain ⟨Y, hY, hYD⟩ : ∃ Y : List Int → T, (∀ p, F.InBounds [(i0, i1), (j0, j1)] p → Y p = X p) ∧ ∀ p, ¬ F.InBounds [(i0, i1), (j0, j1)] p → Y p = U p :=
    ⟨fun p => if F.InBounds [(i0, i1), (j0, j1)] p then X p else U p, fun p hp => if_pos hp, fun p hp => if_neg hp⟩
  obtain ⟨s1, s2, s3, S, a1, a2, a3, a4, ho, hp, hD, hX⟩ := bvp_v2_2 (alpha := alpha) (beta := beta) (neu := neu) (dx := dx) (o := o) (q := q) (X := X) (Y := Y) hβ3 hβ4 hβs hi hj hs hg hfg he hdx hq h1 hl hout hfi hrob hd (h2.sub (by intro x hx; simp only [List.mem_cons, List.not_mem_nil, or_false] at hx ⊢; tauto) (fun _ e => e)) huf hB0 hB1 hU hG ht
    (fun i j hi0 hi1 hj0 hj1 => by
      have hp : F.InBounds [(i0, i1), (j0, j1)] [i, j] := F.inBounds2.2 ⟨i, j, rfl, by omega⟩
      rw [← hop i j hi0 hi1 hj0 hj1]
      exact (ER _ hp).rd.symm.trans (hR _ hp).rd) hF hY hYD
  have hUY : ∀ p, ¬ F.InBounds [(i0, i1), (j0, j1)] p → U p = Y p := fun p hp => (hYD p hp).symm
  have hE1 : ∀ p, F.InBounds [(i0, i1), (j0, j1)] p → |U p - Y p| ≤ E * (fun _ => (1 : T)) p := fun p hp => by
    rw [hY p hp]
    simpa using hE p hp
  obtain ⟨m', U', t, w1, w2, w3, w4⟩ := C59_gs_2d hp rfl hD h1.le hX hUY hE1 l
  refine ⟨s1, s2, s3, m', U', a1, a2, a3, a4, t, w1, (ho.mono (by simp)).trans (w2.mono fun _ ha => List.mem_cons_of_mem _ ha), fun p hp => (w3 p hp).trans (hYD p hp), fun p hp => ?_⟩
  rw [← hY p hp]
  simpa using w4 p hp

example (l : Nat) : ∃ s1 s2 s3 m' U', Cuda.offdiag2d 0 1 2 3 0 1 2 3 exDx 2 ⟨2, 0⟩ ⟨3, 0⟩ 1 ⟨9, 0⟩ revBackend (exSolve 2) = .ok s1 ∧
      exSides2.foldlM (fun m s => Cuda.adjOffdiag2d 0 1 2 3 s.i0 s.j0 s.i1 s.j1 s.dir s.side s.btype s.order exDx 2 3 2 ⟨2, 0⟩ ⟨3, 0⟩ 1 ⟨9, 0⟩ revBackend m) s1 = .ok s2 ∧ Cuda.v2diag2d 0 1 2 3 3 1 ⟨9, 0⟩ seqBackend s2 = .ok s3 ∧
      exSides2.foldlM (fun m s => Cuda.adjDiag2d 0 1 2 3 s.i0 s.j0 s.i1 s.j1 s.dir s.side s.btype s.order exDx 2 ⟨2, 0⟩ ⟨3, 0⟩ 1 ⟨9, 0⟩ revBackend m) s3 = .ok s3 ∧
      F.times (F.cellgs2d 0 2 1 3 5 ⟨22, 0⟩ (0 - 1) (2 + 1) (1 - 1) (3 + 1) ⟨9, 0⟩ (0 - 2) (2 + 2) (1 - 2) (3 + 2) ⟨10, 0⟩ (0 - 2) (2 + 2) (1 - 2) (3 + 2) ⟨1, 0⟩) l s3 = .ok m' ∧
      F.Holds m' (F.cell2d ⟨1, 0⟩ 0 1 2 3 2) U' ∧ F.Only [(F.st2d ⟨9, 0⟩ 0 1 2 3 1), (F.cell2d ⟨1, 0⟩ 0 1 2 3 2)] (exSolve 2) m' ∧
      (∀ p, ¬ F.InBounds [(0, 2), (1, 3)] p → U' p = exIns 2 5 p) ∧ ∀ p, F.InBounds [(0, 2), (1, 3)] p → |U' p - exIns 2 0 p| ≤ (99999 / 100000) ^ l * 5 := by
  obtain ⟨m1, m2, c1, c2, hR⟩ := exRun_v2_2
  exact C84_gs_v2_2d_partial (T := Rat) (q := 99999 / 100000) (neu := 3) (βs := fun _ => revBackend) (fun _ => revBackend_ok) (fun _ => seqBackend_ok) revBackend_ok seqBackend_ok (fun _ => revBackend_ok) (by decide) (by decide) (by decide) (by decide) (by decide) (by decide) exEll_v2_2 exWidth exRate2_v2_2 (by norm_num) exSides2_layer exSides2_out exSides2_first exSides2_rob exSides2_disjoint exSides2_fulfils (exDir_args (by ex_args)) (apart_blk (by decide)) ⟨apart_blk (by decide), apart_blk (by decide)⟩
    (exDir_rd (by decide) (exRat_ok rfl (by decide) (by decide))) (exDir_rd (by decide) (exRat_ok rfl (by decide) (by decide))) exDir_u2 c1 c2 hR
    (exSolve_args (by ex_args)) (ex_apart (by decide)) (exSolve_rd (by decide) (exRat_ok rfl (by decide) (by decide))) (exSolve_rd (by decide) (exRat_ok rfl (by decide) (by decide))) exSolve_u2 (exSolve_f (exRat_ok rfl (by decide) (by decide)) rfl) exSolve_t2 exSolve_err2 l

/-- 2D, diffusion operator with constant reaction, red-black Gauss-Seidel: if flux and apply kernel take `X` to `G`, and `X` with its ghost values fulfils conditions of first order on pieces of the
boundary with the data in the ghost cells of the unknowns, then off-diagonal kernel, adjustment for each piece, diagonal kernel and its adjustment, followed by `l` pairs of sweeps for the right
hand side `G` bring the unknowns to within `rate^l E` of `X`. (Partial: `j0 + color` not negative, see `C52_sweep_2d_false`; Robin
conditions across the first direction only.) -/
theorem C84_rbgs_v2_2d_partial {i0 j0 i1 j1 gcw rgcw sgcw fgcw color color2 : Int} {alpha beta neu : T} {dx : Nat → T} {u b0 b1 f0 f1 res st rhs o : Ptr} {β1 β2 : Nat → Backend} {β3 β4 : Backend} {βs : F.Side2 → Backend} {sides : List F.Side2} {m mX m1 m2 : Mem T} {B0 B1 G U X : List Int → T} {E q : T}
    (hβ1 : ∀ n, ValidBackend (β1 n)) (hβ2 : ∀ n, ValidBackend (β2 n)) (hβ3 : ValidBackend β3) (hβ4 : ValidBackend β4) (hβs : ∀ s, ValidBackend (βs s))
    (hi : i0 ≤ i1) (hj : j0 ≤ j1) (hg : 1 ≤ gcw) (hrgcw : 0 ≤ rgcw) (hs : 0 ≤ sgcw) (hfg : 0 ≤ fgcw) (hc' : 0 ≤ j0 + color) (hc2 : 0 ≤ j0 + color2) (hcc : (color2 - color) % 2 = 1) (he : F.Elliptic2 i0 j0 i1 j1 alpha beta dx (fun _ => 1) B0 B1)
    (hdx : ∀ d, d < 2 → 0 < dx d)
    (hq : ∀ i j, i0 ≤ i → i ≤ i1 → j0 ≤ j → j ≤ j1 → (1 - q) * (2 * (beta / (dx 0 * dx 0) * (B0 [i, j] + B0 [i + 1, j]) + beta / (dx 1 * dx 1) * (B1 [j, i] + B1 [j + 1, i])) + alpha * (fun _ => 1) [i, j]) ≤ alpha * (fun _ => 1) [i, j]) (h1 : q < 1)
    (hl : ∀ s ∈ sides, Layer2 i0 j0 i1 j1 0 s.i0 s.j0 s.i1 s.j1 s.dir s.side) (hout : ∀ s ∈ sides, s.Outside i0 j0 i1 j1) (hfi : ∀ s ∈ sides, F.First s.btype s.order) (hrob : ∀ s ∈ sides, s.btype = 4 → s.dir = 0)
    (hd : F.Disjoint (sides.map (F.Side2.piece dx B0 B1))) (hF : F.Fulfils [(i0, i1), (j0, j1)] 5 (F.row F.points2) (sides.map (F.Side2.piece dx B0 B1)) U X)
    (h : F.Args mX [(F.cell2d u i0 j0 i1 j1 gcw), (F.face2d0 b0 i0 j0 i1 j1 0), (F.face2d1 b1 i0 j0 i1 j1 0)] [(F.face2d0 f0 i0 j0 i1 j1 0), (F.face2d1 f1 i0 j0 i1 j1 0), (F.cell2d res i0 j0 i1 j1 rgcw)])
    (hp : F.Apart (F.face2d0 f0 i0 j0 i1 j1 0) (F.face2d1 f1 i0 j0 i1 j1 0))
    (hr : F.Apart (F.cell2d res i0 j0 i1 j1 rgcw) (F.face2d0 f0 i0 j0 i1 j1 0) ∧ F.Apart (F.cell2d res i0 j0 i1 j1 rgcw) (F.face2d1 f1 i0 j0 i1 j1 0)) (hB0X : F.Holds mX (F.face2d0 b0 i0 j0 i1 j1 0) B0) (hB1X : F.Holds mX (F.face2d1 b1 i0 j0 i1 j1 0) B1) (hXX : F.Holds mX (F.cell2d u i0 j0 i1 j1 gcw) X)
    (c1 : Cuda.flux2d i0 j0 i1 j1 dx b0 b1 gcw u f0 f1 β1 mX = .ok m1) (c2 : Cuda.diffusionV2Apply2d i0 i1 j0 j1 alpha beta dx gcw u f0 f1 rgcw res β2 m1 = .ok m2)
    (hR : ∀ p, F.InBounds [(i0, i1), (j0, j1)] p → F.El m2 (F.cell2d res i0 j0 i1 j1 rgcw) p (G p))
    (h2 : F.Args m [(F.face2d0 b0 i0 j0 i1 j1 0), (F.face2d1 b1 i0 j0 i1 j1 0), (F.cell2d u i0 j0 i1 j1 gcw), (F.cell2d rhs i0 j0 i1 j1 fgcw)] [(F.st2d st i0 j0 i1 j1 sgcw)]) (huf : F.Apart (F.cell2d u i0 j0 i1 j1 gcw) (F.cell2d rhs i0 j0 i1 j1 fgcw))
    (hB0 : F.Holds m (F.face2d0 b0 i0 j0 i1 j1 0) B0) (hB1 : F.Holds m (F.face2d1 b1 i0 j0 i1 j1 0) B1) (hU : F.Holds m (F.cell2d u i0 j0 i1 j1 gcw) U) (hG : F.Holds m (F.cell2d rhs i0 j0 i1 j1 fgcw) G) (ht : F.Rows m (F.offset0 o 2 5) F.points2)
    (hE : ∀ p, F.InBounds [(i0, i1), (j0, j1)] p → |U p - X p| ≤ E) (l : Nat) :
    ∃ s1 s2 s3 m' U', Cuda.offdiag2d i0 j0 i1 j1 i0 j0 i1 j1 dx beta b0 b1 sgcw st β3 m = .ok s1 ∧
      sides.foldlM (fun m s => Cuda.adjOffdiag2d i0 j0 i1 j1 s.i0 s.j0 s.i1 s.j1 s.dir s.side s.btype s.order dx 2 neu beta b0 b1 sgcw st (βs s) m) s1 = .ok s2 ∧ Cuda.v2diag2d i0 j0 i1 j1 alpha sgcw st β4 s2 = .ok s3 ∧
      sides.foldlM (fun m s => Cuda.adjDiag2d i0 j0 i1 j1 s.i0 s.j0 s.i1 s.j1 s.dir s.side s.btype s.order dx beta b0 b1 sgcw st (βs s) m) s3 = .ok s3 ∧
      F.times (fun m => F.cellrbgs2d i0 i1 j0 j1 color 5 o (i0 - sgcw) (i1 + sgcw) (j0 - sgcw) (j1 + sgcw) st (i0 - fgcw) (i1 + fgcw) (j0 - fgcw) (j1 + fgcw) rhs (i0 - gcw) (i1 + gcw) (j0 - gcw) (j1 + gcw) u m >>=
        F.cellrbgs2d i0 i1 j0 j1 color2 5 o (i0 - sgcw) (i1 + sgcw) (j0 - sgcw) (j1 + sgcw) st (i0 - fgcw) (i1 + fgcw) (j0 - fgcw) (j1 + fgcw) rhs (i0 - gcw) (i1 + gcw) (j0 - gcw) (j1 + gcw) u) l s3 = .ok m' ∧
      F.Holds m' (F.cell2d u i0 j0 i1 j1 gcw) U' ∧ F.Only [(F.st2d st i0 j0 i1 j1 sgcw), (F.cell2d u i0 j0 i1 j1 gcw)] m m' ∧
      (∀ p, ¬ F.InBounds [(i0, i1), (j0, j1)] p → U' p = U p) ∧ ∀ p, F.InBounds [(i0, i1), (j0, j1)] p → |U' p - X p| ≤ q ^ l * E := by
  obtain ⟨m1', m2', R, d1, d2, ER, hop⟩ := energy_v2_2 (alpha := alpha) (beta := beta) (dx := dx) hβ1 hβ2 hi hj hg hrgcw h hp hr hB0X hB1X hXX
  obtain rfl : m1 = m1' := Except.ok.inj (c1.symm.trans d1)
  obtain rfl : m2 = m2' := Except.ok.inj (c2.symm.trans d2)
  classical
  obtain ⟨Y, hY, hYD⟩ : ∃ Y : List Int → T, (∀ p, F.InBounds [(i0, i1), (j0, j1)] p → Y p = X p) ∧ ∀ p, ¬ F.InBounds [(i0, i1), (j0, j1)] p → Y p = U p :=
    ⟨fun p => if F.InBounds [(i0, i1), (j0, j1)] p then X p else U p, fun p hp => if_pos hp, fun p hp => if_neg hp⟩
  obtain ⟨s1, s2, s3, S, a1, a2, a3, a4, ho, hp, hD, hX⟩ := bvp_v2_2 (alpha := alpha) (beta := beta) (neu := neu) (dx := dx) (o := o) (q := q) (X := X) (Y := Y) hβ3 hβ4 hβs hi hj hs hg hfg he hdx hq h1 hl hout hfi hrob hd (h2.sub (by intro x hx; simp only [List.mem_cons, List.not_mem_nil, or_false] at hx ⊢; tauto) (fun _ e => e)) huf hB0 hB1 hU hG ht
    (fun i j hi0 hi1 hj0 hj1 => by
      have hp : F.InBounds [(i0, i1), (j0, j1)] [i, j] := F.inBounds2.2 ⟨i, j, rfl, by omega⟩
      rw [← hop i j hi0 hi1 hj0 hj1]
      exact (ER _ hp).rd.symm.trans (hR _ hp).rd) hF hY hYD
  have hUY : ∀ p, ¬ F.InBounds [(i0, i1), (j0, j1)] p → U p = Y p := fun p hp => (hYD p hp).symm
  have hE1 : ∀ p, F.InBounds [(i0, i1), (j0, j1)] p → |U p - Y p| ≤ E * (fun _ => (1 : T)) p := fun p hp => by
    rw [hY p hp]
    simpa using hE p hp
  obtain ⟨m', U', t, w1, w2, w3, w4⟩ := C59_rbgs_2d_partial hc' hc2 hcc hp rfl hD h1.le hX hUY hE1 l
  refine ⟨s1, s2, s3, m', U', a1, a2, a3, a4, t, w1, (ho.mono (by simp)).trans (w2.mono fun _ ha => List.mem_cons_of_mem _ ha), fun p hp => (w3 p hp).trans (hYD p hp), fun p hp => ?_⟩
  rw [← hY p hp]
  simpa using w4 p hp

example (l : Nat) : ∃ s1 s2 s3 m' U', Cuda.offdiag2d 0 1 2 3 0 1 2 3 exDx 2 ⟨2, 0⟩ ⟨3, 0⟩ 1 ⟨9, 0⟩ revBackend (exSolve 2) = .ok s1 ∧
      exSides2.foldlM (fun m s => Cuda.adjOffdiag2d 0 1 2 3 s.i0 s.j0 s.i1 s.j1 s.dir s.side s.btype s.order exDx 2 3 2 ⟨2, 0⟩ ⟨3, 0⟩ 1 ⟨9, 0⟩ revBackend m) s1 = .ok s2 ∧ Cuda.v2diag2d 0 1 2 3 3 1 ⟨9, 0⟩ seqBackend s2 = .ok s3 ∧
      exSides2.foldlM (fun m s => Cuda.adjDiag2d 0 1 2 3 s.i0 s.j0 s.i1 s.j1 s.dir s.side s.btype s.order exDx 2 ⟨2, 0⟩ ⟨3, 0⟩ 1 ⟨9, 0⟩ revBackend m) s3 = .ok s3 ∧
      F.times (fun μ => F.cellrbgs2d 0 2 1 3 0 5 ⟨22, 0⟩ (0 - 1) (2 + 1) (1 - 1) (3 + 1) ⟨9, 0⟩ (0 - 2) (2 + 2) (1 - 2) (3 + 2) ⟨10, 0⟩ (0 - 2) (2 + 2) (1 - 2) (3 + 2) ⟨1, 0⟩ μ >>=
        F.cellrbgs2d 0 2 1 3 1 5 ⟨22, 0⟩ (0 - 1) (2 + 1) (1 - 1) (3 + 1) ⟨9, 0⟩ (0 - 2) (2 + 2) (1 - 2) (3 + 2) ⟨10, 0⟩ (0 - 2) (2 + 2) (1 - 2) (3 + 2) ⟨1, 0⟩) l s3 = .ok m' ∧
      F.Holds m' (F.cell2d ⟨1, 0⟩ 0 1 2 3 2) U' ∧ F.Only [(F.st2d ⟨9, 0⟩ 0 1 2 3 1), (F.cell2d ⟨1, 0⟩ 0 1 2 3 2)] (exSolve 2) m' ∧
      (∀ p, ¬ F.InBounds [(0, 2), (1, 3)] p → U' p = exIns 2 5 p) ∧ ∀ p, F.InBounds [(0, 2), (1, 3)] p → |U' p - exIns 2 0 p| ≤ (99999 / 100000) ^ l * 5 := by
  obtain ⟨m1, m2, c1, c2, hR⟩ := exRun_v2_2
  exact C84_rbgs_v2_2d_partial (T := Rat) (q := 99999 / 100000) (neu := 3) (βs := fun _ => revBackend) (fun _ => revBackend_ok) (fun _ => seqBackend_ok) revBackend_ok seqBackend_ok (fun _ => revBackend_ok) (by decide) (by decide) (by decide) (by decide) (by decide) (by decide) (by decide) (by decide) (by decide) exEll_v2_2 exWidth exRate2_v2_2 (by norm_num) exSides2_layer exSides2_out exSides2_first exSides2_rob exSides2_disjoint exSides2_fulfils (exDir_args (by ex_args)) (apart_blk (by decide)) ⟨apart_blk (by decide), apart_blk (by decide)⟩
    (exDir_rd (by decide) (exRat_ok rfl (by decide) (by decide))) (exDir_rd (by decide) (exRat_ok rfl (by decide) (by decide))) exDir_u2 c1 c2 hR
    (exSolve_args (by ex_args)) (ex_apart (by decide)) (exSolve_rd (by decide) (exRat_ok rfl (by decide) (by decide))) (exSolve_rd (by decide) (exRat_ok rfl (by decide) (by decide))) exSolve_u2 (exSolve_f (exRat_ok rfl (by decide) (by decide)) rfl) exSolve_t2 exSolve_err2 l

/-- 3D, diffusion operator with cell coefficients, damped Jacobi: if flux and apply kernel take `X` to `G`, and `X` with its ghost values fulfils conditions of first order on pieces of the
boundary with the data in the ghost cells of the unknowns, then off-diagonal kernel, adjustment for each piece, diagonal kernel and its adjustment, followed by `l` sweeps for the right
hand side `G` bring the unknowns to within `rate^l E` of `X`. -/
theorem C84_jacobi_v1_3d {i0 j0 k0 i1 j1 k1 agcw gcw rgcw sgcw fgcw : Int} {alpha beta neu : T} {dx : Nat → T} {a u b0 b1 b2 f0 f1 f2 res st rhs o r : Ptr} {β1 β2 : Nat → Backend} {β3 β4 : Backend} {βs : F.Side3 → Backend} {sides : List F.Side3} {m mX m1 m2 : Mem T} {A B0 B1 B2 G U X : List Int → T} {E q : T}
    (hβ1 : ∀ n, ValidBackend (β1 n)) (hβ2 : ∀ n, ValidBackend (β2 n)) (hβ3 : ValidBackend β3) (hβ4 : ValidBackend β4) (hβs : ∀ s, ValidBackend (βs s))
    (hi : i0 ≤ i1) (hj : j0 ≤ j1) (hk : k0 ≤ k1) (hg : 1 ≤ gcw) (hagcw : 0 ≤ agcw) (hrgcw : 0 ≤ rgcw) (hs : 0 ≤ sgcw) (hfg : 0 ≤ fgcw) (he : F.Elliptic3 i0 j0 k0 i1 j1 k1 alpha beta dx A B0 B1 B2)
    (hdx : ∀ d, d < 3 → 0 < dx d)
    (hq : ∀ i j k, i0 ≤ i → i ≤ i1 → j0 ≤ j → j ≤ j1 → k0 ≤ k → k ≤ k1 → (1 - q) * (2 * (beta / (dx 0 * dx 0) * (B0 [i, j, k] + B0 [i + 1, j, k]) + beta / (dx 1 * dx 1) * (B1 [j, k, i] + B1 [j + 1, k, i]) + beta / (dx 2 * dx 2) * (B2 [k, i, j] + B2 [k + 1, i, j])) + alpha * A [i, j, k]) ≤ alpha * A [i, j, k]) (h1 : q < 1)
    (hl : ∀ s ∈ sides, Layer3 i0 j0 k0 i1 j1 k1 0 s.i0 s.j0 s.k0 s.i1 s.j1 s.k1 s.dir s.side) (hout : ∀ s ∈ sides, s.Outside i0 j0 k0 i1 j1 k1) (hfi : ∀ s ∈ sides, F.First s.btype s.order)
    (hd : F.Disjoint (sides.map (F.Side3.piece dx B0 B1 B2))) (hF : F.Fulfils [(i0, i1), (j0, j1), (k0, k1)] 7 (F.row F.points3) (sides.map (F.Side3.piece dx B0 B1 B2)) U X)
    (h : F.Args mX [(F.cell3d a i0 j0 k0 i1 j1 k1 agcw), (F.cell3d u i0 j0 k0 i1 j1 k1 gcw), (F.face3d0 b0 i0 j0 k0 i1 j1 k1 0), (F.face3d1 b1 i0 j0 k0 i1 j1 k1 0), (F.face3d2 b2 i0 j0 k0 i1 j1 k1 0)] [(F.face3d0 f0 i0 j0 k0 i1 j1 k1 0), (F.face3d1 f1 i0 j0 k0 i1 j1 k1 0), (F.face3d2 f2 i0 j0 k0 i1 j1 k1 0), (F.cell3d res i0 j0 k0 i1 j1 k1 rgcw)])
    (hp : F.Apart (F.face3d0 f0 i0 j0 k0 i1 j1 k1 0) (F.face3d1 f1 i0 j0 k0 i1 j1 k1 0) ∧ F.Apart (F.face3d0 f0 i0 j0 k0 i1 j1 k1 0) (F.face3d2 f2 i0 j0 k0 i1 j1 k1 0) ∧ F.Apart (F.face3d1 f1 i0 j0 k0 i1 j1 k1 0) (F.face3d2 f2 i0 j0 k0 i1 j1 k1 0))
    (hr : F.Apart (F.cell3d res i0 j0 k0 i1 j1 k1 rgcw) (F.face3d0 f0 i0 j0 k0 i1 j1 k1 0) ∧ F.Apart (F.cell3d res i0 j0 k0 i1 j1 k1 rgcw) (F.face3d1 f1 i0 j0 k0 i1 j1 k1 0) ∧ F.Apart (F.cell3d res i0 j0 k0 i1 j1 k1 rgcw) (F.face3d2 f2 i0 j0 k0 i1 j1 k1 0)) (hAX : F.Holds mX (F.cell3d a i0 j0 k0 i1 j1 k1 agcw) A) (hB0X : F.Holds mX (F.face3d0 b0 i0 j0 k0 i1 j1 k1 0) B0) (hB1X : F.Holds mX (F.face3d1 b1 i0 j0 k0 i1 j1 k1 0) B1) (hB2X : F.Holds mX (F.face3d2 b2 i0 j0 k0 i1 j1 k1 0) B2) (hXX : F.Holds mX (F.cell3d u i0 j0 k0 i1 j1 k1 gcw) X)
    (c1 : Cuda.flux3d i0 j0 k0 i1 j1 k1 dx b0 b1 b2 gcw u f0 f1 f2 β1 mX = .ok m1) (c2 : Cuda.diffusionV1Apply3d i0 i1 j0 j1 k0 k1 alpha beta dx agcw a gcw u f0 f1 f2 rgcw res β2 m1 = .ok m2)
    (hR : ∀ p, F.InBounds [(i0, i1), (j0, j1), (k0, k1)] p → F.El m2 (F.cell3d res i0 j0 k0 i1 j1 k1 rgcw) p (G p))
    (h2 : F.Args m [(F.cell3d a i0 j0 k0 i1 j1 k1 agcw), (F.face3d0 b0 i0 j0 k0 i1 j1 k1 0), (F.face3d1 b1 i0 j0 k0 i1 j1 k1 0), (F.face3d2 b2 i0 j0 k0 i1 j1 k1 0), (F.cell3d u i0 j0 k0 i1 j1 k1 gcw), (F.cell3d rhs i0 j0 k0 i1 j1 k1 fgcw), (F.box3d r i0 j0 k0 i1 j1 k1)] [(F.st3d st i0 j0 k0 i1 j1 k1 sgcw)]) (huf : F.Apart (F.cell3d u i0 j0 k0 i1 j1 k1 gcw) (F.cell3d rhs i0 j0 k0 i1 j1 k1 fgcw)) (hru : F.Apart (F.box3d r i0 j0 k0 i1 j1 k1) (F.cell3d u i0 j0 k0 i1 j1 k1 gcw)) (hrf : F.Apart (F.box3d r i0 j0 k0 i1 j1 k1) (F.cell3d rhs i0 j0 k0 i1 j1 k1 fgcw))
    (hA : F.Holds m (F.cell3d a i0 j0 k0 i1 j1 k1 agcw) A) (hB0 : F.Holds m (F.face3d0 b0 i0 j0 k0 i1 j1 k1 0) B0) (hB1 : F.Holds m (F.face3d1 b1 i0 j0 k0 i1 j1 k1 0) B1) (hB2 : F.Holds m (F.face3d2 b2 i0 j0 k0 i1 j1 k1 0) B2) (hU : F.Holds m (F.cell3d u i0 j0 k0 i1 j1 k1 gcw) U) (hG : F.Holds m (F.cell3d rhs i0 j0 k0 i1 j1 k1 fgcw) G) (ht : F.Rows m (F.offset0 o 3 7) F.points3)
    (hE : ∀ p, F.InBounds [(i0, i1), (j0, j1), (k0, k1)] p → |U p - X p| ≤ E) (l : Nat) :
    ∃ s1 s2 s3 m' U', Cuda.offdiag3d i0 j0 k0 i1 j1 k1 i0 j0 k0 i1 j1 k1 dx beta b0 b1 b2 sgcw st β3 m = .ok s1 ∧
      sides.foldlM (fun m s => Cuda.adjOffdiag3d i0 j0 k0 i1 j1 k1 s.i0 s.j0 s.k0 s.i1 s.j1 s.k1 s.dir s.side s.btype s.order dx 2 neu beta b0 b1 b2 sgcw st (βs s) m) s1 = .ok s2 ∧ Cuda.v1diag3d i0 j0 k0 i1 j1 k1 (i0 - agcw) (j0 - agcw) (k0 - agcw) (i1 + agcw) (j1 + agcw) (k1 + agcw) alpha a sgcw st β4 s2 = .ok s3 ∧
      sides.foldlM (fun m s => Cuda.adjDiag3d i0 j0 k0 i1 j1 k1 s.i0 s.j0 s.k0 s.i1 s.j1 s.k1 s.dir s.side s.btype s.order dx beta b0 b1 b2 sgcw st (βs s) m) s3 = .ok s3 ∧
      F.times (F.celljacobi3d i0 i1 j0 j1 k0 k1 7 o (i0 - sgcw) (i1 + sgcw) (j0 - sgcw) (j1 + sgcw) (k0 - sgcw) (k1 + sgcw) st (i0 - fgcw) (i1 + fgcw) (j0 - fgcw) (j1 + fgcw) (k0 - fgcw) (k1 + fgcw) rhs (i0 - gcw) (i1 + gcw) (j0 - gcw) (j1 + gcw) (k0 - gcw) (k1 + gcw) u r) l s3 = .ok m' ∧
      F.Holds m' (F.cell3d u i0 j0 k0 i1 j1 k1 gcw) U' ∧ F.Only [(F.st3d st i0 j0 k0 i1 j1 k1 sgcw), (F.cell3d u i0 j0 k0 i1 j1 k1 gcw), (F.box3d r i0 j0 k0 i1 j1 k1)] m m' ∧
      (∀ p, ¬ F.InBounds [(i0, i1), (j0, j1), (k0, k1)] p → U' p = U p) ∧ ∀ p, F.InBounds [(i0, i1), (j0, j1), (k0, k1)] p → |U' p - X p| ≤ (1 - ((8 : Nat) / (10 : Nat) : T) + ((8 : Nat) / (10 : Nat) : T) * q) ^ l * E := by
  obtain ⟨m1', m2', R, d1, d2, ER, hop⟩ := energy_v1_3 (alpha := alpha) (beta := beta) (dx := dx) hβ1 hβ2 hi hj hk hg hagcw hrgcw h hp hr hAX hB0X hB1X hB2X hXX
  obtain rfl : m1 = m1' := Except.ok.inj (c1.symm.trans d1)
  obtain rfl : m2 = m2' := Except.ok.inj (c2.symm.trans d2)
  classical
  obtain ⟨Y, hY, hYD⟩ : ∃ Y : List Int → T, (∀ p, F.InBounds [(i0, i1), (j0, j1), (k0, k1)] p → Y p = X p) ∧ ∀ p, ¬ F.InBounds [(i0, i1), (j0, j1), (k0, k1)] p → Y p = U p :=
    ⟨fun p => if F.InBounds [(i0, i1), (j0, j1), (k0, k1)] p then X p else U p, fun p hp => if_pos hp, fun p hp => if_neg hp⟩
  obtain ⟨s1, s2, s3, S, a1, a2, a3, a4, ho, hp, hD, hX⟩ := bvp_v1_3 (alpha := alpha) (beta := beta) (neu := neu) (dx := dx) (o := o) (q := q) (X := X) (Y := Y) hβ3 hβ4 hβs hi hj hk hagcw hs hg hfg he hdx hq h1 hl hout hfi hd (h2.sub (by intro x hx; simp only [List.mem_cons, List.not_mem_nil, or_false] at hx ⊢; tauto) (fun _ e => e)) huf hA hB0 hB1 hB2 hU hG ht
    (fun i j k hi0 hi1 hj0 hj1 hk0 hk1 => by
      have hp : F.InBounds [(i0, i1), (j0, j1), (k0, k1)] [i, j, k] := F.inBounds3.2 ⟨i, j, k, rfl, by omega⟩
      rw [← hop i j k hi0 hi1 hj0 hj1 hk0 hk1]
      exact (ER _ hp).rd.symm.trans (hR _ hp).rd) hF hY hYD
  have hUY : ∀ p, ¬ F.InBounds [(i0, i1), (j0, j1), (k0, k1)] p → U p = Y p := fun p hp => (hYD p hp).symm
  have hE1 : ∀ p, F.InBounds [(i0, i1), (j0, j1), (k0, k1)] p → |U p - Y p| ≤ E * (fun _ => (1 : T)) p := fun p hp => by
    rw [hY p hp]
    simpa using hE p hp
  have hr2 : F.Holds s3 (F.box3d r i0 j0 k0 i1 j1 k1) (F.rd m (F.box3d r i0 j0 k0 i1 j1 k1)) := F.Holds.only (fun is hi => (h2.ok (F.box3d r i0 j0 k0 i1 j1 k1) (by simp)).rd hi) ho (by simp only [List.mem_cons, List.not_mem_nil, or_false, forall_eq]; exact h2.apart _ (by simp) _ (by simp))
  obtain ⟨m', U', t, w1, w2, w3, w4⟩ := C59_jacobi_3d hp hr2 hru (F.apart_symm (h2.apart (F.st3d st i0 j0 k0 i1 j1 k1 sgcw) (by simp) (F.box3d r i0 j0 k0 i1 j1 k1) (by simp))) hrf rfl hD hX hUY hE1 l
  refine ⟨s1, s2, s3, m', U', a1, a2, a3, a4, t, w1, (ho.mono (by simp)).trans (w2.mono fun _ ha => List.mem_cons_of_mem _ ha), fun p hp => (w3 p hp).trans (hYD p hp), fun p hp => ?_⟩
  rw [← hY p hp]
  simpa using w4 p hp

example (l : Nat) : ∃ s1 s2 s3 m' U', Cuda.offdiag3d 0 1 2 1 2 3 0 1 2 1 2 3 exDx 2 ⟨2, 0⟩ ⟨3, 0⟩ ⟨4, 0⟩ 1 ⟨9, 0⟩ revBackend (exSolve 3) = .ok s1 ∧
      exSides3.foldlM (fun m s => Cuda.adjOffdiag3d 0 1 2 1 2 3 s.i0 s.j0 s.k0 s.i1 s.j1 s.k1 s.dir s.side s.btype s.order exDx 2 3 2 ⟨2, 0⟩ ⟨3, 0⟩ ⟨4, 0⟩ 1 ⟨9, 0⟩ revBackend m) s1 = .ok s2 ∧ Cuda.v1diag3d 0 1 2 1 2 3 (0 - 1) (1 - 1) (2 - 1) (1 + 1) (2 + 1) (3 + 1) 3 ⟨0, 0⟩ 1 ⟨9, 0⟩ seqBackend s2 = .ok s3 ∧
      exSides3.foldlM (fun m s => Cuda.adjDiag3d 0 1 2 1 2 3 s.i0 s.j0 s.k0 s.i1 s.j1 s.k1 s.dir s.side s.btype s.order exDx 2 ⟨2, 0⟩ ⟨3, 0⟩ ⟨4, 0⟩ 1 ⟨9, 0⟩ revBackend m) s3 = .ok s3 ∧
      F.times (F.celljacobi3d 0 1 1 2 2 3 7 ⟨23, 0⟩ (0 - 1) (1 + 1) (1 - 1) (2 + 1) (2 - 1) (3 + 1) ⟨9, 0⟩ (0 - 2) (1 + 2) (1 - 2) (2 + 2) (2 - 2) (3 + 2) ⟨10, 0⟩ (0 - 2) (1 + 2) (1 - 2) (2 + 2) (2 - 2) (3 + 2) ⟨1, 0⟩ ⟨11, 0⟩) l s3 = .ok m' ∧
      F.Holds m' (F.cell3d ⟨1, 0⟩ 0 1 2 1 2 3 2) U' ∧ F.Only [(F.st3d ⟨9, 0⟩ 0 1 2 1 2 3 1), (F.cell3d ⟨1, 0⟩ 0 1 2 1 2 3 2), (F.box3d ⟨11, 0⟩ 0 1 2 1 2 3)] (exSolve 3) m' ∧
      (∀ p, ¬ F.InBounds [(0, 1), (1, 2), (2, 3)] p → U' p = exIns 3 5 p) ∧ ∀ p, F.InBounds [(0, 1), (1, 2), (2, 3)] p → |U' p - exIns 3 0 p| ≤ (1 - ((8 : Nat) / (10 : Nat) : Rat) + ((8 : Nat) / (10 : Nat) : Rat) * (99999 / 100000)) ^ l * 5 := by
  obtain ⟨m1, m2, c1, c2, hR⟩ := exRun_v1_3
  exact C84_jacobi_v1_3d (T := Rat) (q := 99999 / 100000) (neu := 3) (βs := fun _ => revBackend) (fun _ => revBackend_ok) (fun _ => seqBackend_ok) revBackend_ok seqBackend_ok (fun _ => revBackend_ok) (by decide) (by decide) (by decide) (by decide) (by decide) (by decide) (by decide) (by decide) exEll_v1_3 exWidth exRate2_v1_3 (by norm_num) exSides3_layer exSides3_out exSides3_first exSides3_disjoint exSides3_fulfils (exDir_args (by ex_args)) (⟨apart_blk (by decide), apart_blk (by decide), apart_blk (by decide)⟩) ⟨apart_blk (by decide), apart_blk (by decide), apart_blk (by decide)⟩
    (exDir_rd (by decide) (exRat_ok rfl (by decide) (by decide))) (exDir_rd (by decide) (exRat_ok rfl (by decide) (by decide))) (exDir_rd (by decide) (exRat_ok rfl (by decide) (by decide))) (exDir_rd (by decide) (exRat_ok rfl (by decide) (by decide))) exDir_u3 c1 c2 hR
    (exSolve_args (by ex_args)) (ex_apart (by decide)) (ex_apart (by decide)) (ex_apart (by decide)) (exSolve_rd (by decide) (exRat_ok rfl (by decide) (by decide))) (exSolve_rd (by decide) (exRat_ok rfl (by decide) (by decide))) (exSolve_rd (by decide) (exRat_ok rfl (by decide) (by decide))) (exSolve_rd (by decide) (exRat_ok rfl (by decide) (by decide))) exSolve_u3 (exSolve_f (exRat_ok rfl (by decide) (by decide)) rfl) exSolve_t3 exSolve_err3 l

/-- 3D, diffusion operator with cell coefficients, Gauss-Seidel: if flux and apply kernel take `X` to `G`, and `X` with its ghost values fulfils conditions of first order on pieces of the
boundary with the data in the ghost cells of the unknowns, then off-diagonal kernel, adjustment for each piece, diagonal kernel and its adjustment, followed by `l` sweeps for the right
hand side `G` bring the unknowns to within `rate^l E` of `X`. -/
theorem C84_gs_v1_3d {i0 j0 k0 i1 j1 k1 agcw gcw rgcw sgcw fgcw : Int} {alpha beta neu : T} {dx : Nat → T} {a u b0 b1 b2 f0 f1 f2 res st rhs o : Ptr} {β1 β2 : Nat → Backend} {β3 β4 : Backend} {βs : F.Side3 → Backend} {sides : List F.Side3} {m mX m1 m2 : Mem T} {A B0 B1 B2 G U X : List Int → T} {E q : T}
    (hβ1 : ∀ n, ValidBackend (β1 n)) (hβ2 : ∀ n, ValidBackend (β2 n)) (hβ3 : ValidBackend β3) (hβ4 : ValidBackend β4) (hβs : ∀ s, ValidBackend (βs s))
    (hi : i0 ≤ i1) (hj : j0 ≤ j1) (hk : k0 ≤ k1) (hg : 1 ≤ gcw) (hagcw : 0 ≤ agcw) (hrgcw : 0 ≤ rgcw) (hs : 0 ≤ sgcw) (hfg : 0 ≤ fgcw) (he : F.Elliptic3 i0 j0 k0 i1 j1 k1 alpha beta dx A B0 B1 B2)
    (hdx : ∀ d, d < 3 → 0 < dx d)
    (hq : ∀ i j k, i0 ≤ i → i ≤ i1 → j0 ≤ j → j ≤ j1 → k0 ≤ k → k ≤ k1 → (1 - q) * (2 * (beta / (dx 0 * dx 0) * (B0 [i, j, k] + B0 [i + 1, j, k]) + beta / (dx 1 * dx 1) * (B1 [j, k, i] + B1 [j + 1, k, i]) + beta / (dx 2 * dx 2) * (B2 [k, i, j] + B2 [k + 1, i, j])) + alpha * A [i, j, k]) ≤ alpha * A [i, j, k]) (h1 : q < 1)
    (hl : ∀ s ∈ sides, Layer3 i0 j0 k0 i1 j1 k1 0 s.i0 s.j0 s.k0 s.i1 s.j1 s.k1 s.dir s.side) (hout : ∀ s ∈ sides, s.Outside i0 j0 k0 i1 j1 k1) (hfi : ∀ s ∈ sides, F.First s.btype s.order)
    (hd : F.Disjoint (sides.map (F.Side3.piece dx B0 B1 B2))) (hF : F.Fulfils [(i0, i1), (j0, j1), (k0, k1)] 7 (F.row F.points3) (sides.map (F.Side3.piece dx B0 B1 B2)) U X)
    (h : F.Args mX [(F.cell3d a i0 j0 k0 i1 j1 k1 agcw), (F.cell3d u i0 j0 k0 i1 j1 k1 gcw), (F.face3d0 b0 i0 j0 k0 i1 j1 k1 0), (F.face3d1 b1 i0 j0 k0 i1 j1 k1 0), (F.face3d2 b2 i0 j0 k0 i1 j1 k1 0)] [(F.face3d0 f0 i0 j0 k0 i1 j1 k1 0), (F.face3d1 f1 i0 j0 k0 i1 j1 k1 0), (F.face3d2 f2 i0 j0 k0 i1 j1 k1 0), (F.cell3d res i0 j0 k0 i1 j1 k1 rgcw)])
    (hp : F.Apart (F.face3d0 f0 i0 j0 k0 i1 j1 k1 0) (F.face3d1 f1 i0 j0 k0 i1 j1 k1 0) ∧ F.Apart (F.face3d0 f0 i0 j0 k0 i1 j1 k1 0) (F.face3d2 f2 i0 j0 k0 i1 j1 k1 0) ∧ F.Apart (F.face3d1 f1 i0 j0 k0 i1 j1 k1 0) (F.face3d2 f2 i0 j0 k0 i1 j1 k1 0))
    (hr : F.Apart (F.cell3d res i0 j0 k0 i1 j1 k1 rgcw) (F.face3d0 f0 i0 j0 k0 i1 j1 k1 0) ∧ F.Apart (F.cell3d res i0 j0 k0 i1 j1 k1 rgcw) (F.face3d1 f1 i0 j0 k0 i1 j1 k1 0) ∧ F.Apart (F.cell3d res i0 j0 k0 i1 j1 k1 rgcw) (F.face3d2 f2 i0 j0 k0 i1 j1 k1 0)) (hAX : F.Holds mX (F.cell3d a i0 j0 k0 i1 j1 k1 agcw) A) (hB0X : F.Holds mX (F.face3d0 b0 i0 j0 k0 i1 j1 k1 0) B0) (hB1X : F.Holds mX (F.face3d1 b1 i0 j0 k0 i1 j1 k1 0) B1) (hB2X : F.Holds mX (F.face3d2 b2 i0 j0 k0 i1 j1 k1 0) B2) (hXX : F.Holds mX (F.cell3d u i0 j0 k0 i1 j1 k1 gcw) X)
    (c1 : Cuda.flux3d i0 j0 k0 i1 j1 k1 dx b0 b1 b2 gcw u f0 f1 f2 β1 mX = .ok m1) (c2 : Cuda.diffusionV1Apply3d i0 i1 j0 j1 k0 k1 alpha beta dx agcw a gcw u f0 f1 f2 rgcw res β2 m1 = .ok m2)
    (hR : ∀ p, F.InBounds [(i0, i1), (j0, j1), (k0, k1)] p → F.El m2 (F.cell3d res i0 j0 k0 i1 j1 k1 rgcw) p (G p))
    (h2 : F.Args m [(F.cell3d a i0 j0 k0 i1 j1 k1 agcw), (F.face3d0 b0 i0 j0 k0 i1 j1 k1 0), (F.face3d1 b1 i0 j0 k0 i1 j1 k1 0), (F.face3d2 b2 i0 j0 k0 i1 j1 k1 0), (F.cell3d u i0 j0 k0 i1 j1 k1 gcw), (F.cell3d rhs i0 j0 k0 i1 j1 k1 fgcw)] [(F.st3d st i0 j0 k0 i1 j1 k1 sgcw)]) (huf : F.Apart (F.cell3d u i0 j0 k0 i1 j1 k1 gcw) (F.cell3d rhs i0 j0 k0 i1 j1 k1 fgcw))
    (hA : F.Holds m (F.cell3d a i0 j0 k0 i1 j1 k1 agcw) A) (hB0 : F.Holds m (F.face3d0 b0 i0 j0 k0 i1 j1 k1 0) B0) (hB1 : F.Holds m (F.face3d1 b1 i0 j0 k0 i1 j1 k1 0) B1) (hB2 : F.Holds m (F.face3d2 b2 i0 j0 k0 i1 j1 k1 0) B2) (hU : F.Holds m (F.cell3d u i0 j0 k0 i1 j1 k1 gcw) U) (hG : F.Holds m (F.cell3d rhs i0 j0 k0 i1 j1 k1 fgcw) G) (ht : F.Rows m (F.offset0 o 3 7) F.points3)
    (hE : ∀ p, F.InBounds [(i0, i1), (j0, j1), (k0, k1)] p → |U p - X p| ≤ E) (l : Nat) :
    ∃ s1 s2 s3 m' U', Cuda.offdiag3d i0 j0 k0 i1 j1 k1 i0 j0 k0 i1 j1 k1 dx beta b0 b1 b2 sgcw st β3 m = .ok s1 ∧
      sides.foldlM (fun m s => Cuda.adjOffdiag3d i0 j0 k0 i1 j1 k1 s.i0 s.j0 s.k0 s.i1 s.j1 s.k1 s.dir s.side s.btype s.order dx 2 neu beta b0 b1 b2 sgcw st (βs s) m) s1 = .ok s2 ∧ Cuda.v1diag3d i0 j0 k0 i1 j1 k1 (i0 - agcw) (j0 - agcw) (k0 - agcw) (i1 + agcw) (j1 + agcw) (k1 + agcw) alpha a sgcw st β4 s2 = .ok s3 ∧
      sides.foldlM (fun m s => Cuda.adjDiag3d i0 j0 k0 i1 j1 k1 s.i0 s.j0 s.k0 s.i1 s.j1 s.k1 s.dir s.side s.btype s.order dx beta b0 b1 b2 sgcw st (βs s) m) s3 = .ok s3 ∧
      F.times (F.cellgs3d i0 i1 j0 j1 k0 k1 7 o (i0 - sgcw) (i1 + sgcw) (j0 - sgcw) (j1 + sgcw) (k0 - sgcw) (k1 + sgcw) st (i0 - fgcw) (i1 + fgcw) (j0 - fgcw) (j1 + fgcw) (k0 - fgcw) (k1 + fgcw) rhs (i0 - gcw) (i1 + gcw) (j0 - gcw) (j1 + gcw) (k0 - gcw) (k1 + gcw) u) l s3 = .ok m' ∧
      F.Holds m' (F.cell3d u i0 j0 k0 i1 j1 k1 gcw) U' ∧ F.Only [(F.st3d st i0 j0 k0 i1 j1 k1 sgcw), (F.cell3d u i0 j0 k0 i1 j1 k1 gcw)] m m' ∧
      (∀ p, ¬ F.InBounds [(i0, i1), (j0, j1), (k0, k1)] p → U' p = U p) ∧ ∀ p, F.InBounds [(i0, i1), (j0, j1), (k0, k1)] p → |U' p - X p| ≤ q ^ l * E := by
  obtain ⟨m1', m2', R, d1, d2, ER, hop⟩ := energy_v1_3 (alpha := alpha) (beta := beta) (dx := dx) hβ1 hβ2 hi hj hk hg hagcw hrgcw h hp hr hAX hB0X hB1X hB2X hXX
  obtain rfl : m1 = m1' := Except.ok.inj (c1.symm.trans d1)
  obtain rfl : m2 = m2' := Except.ok.inj (c2.symm.trans d2)
  classical
  obtain ⟨Y, hY, hYD⟩ : ∃ Y : List Int → T, (∀ p, F.InBounds [(i0, i1), (j0, j1), (k0, k1)] p → Y p = X p) ∧ ∀ p, ¬ F.InBounds [(i0, i1), (j0, j1), (k0, k1)] p → Y p = U p :=
    ⟨fun p => if F.InBounds [(i0, i1), (j0, j1), (k0, k1)] p then X p else U p, fun p hp => if_pos hp, fun p hp => if_neg hp⟩
  obtain ⟨s1, s2, s3, S, a1, a2, a3, a4, ho, hp, hD, hX⟩ := bvp_v1_3 (alpha := alpha) (beta := beta) (neu := neu) (dx := dx) (o := o) (q := q) (X := X) (Y := Y) hβ3 hβ4 hβs hi hj hk hagcw hs hg hfg he hdx hq h1 hl hout hfi hd (h2.sub (by intro x hx; simp only [List.mem_cons, List.not_mem_nil, or_false] at hx ⊢; tauto) (fun _ e => e)) huf hA hB0 hB1 hB2 hU hG ht
    (fun i j k hi0 hi1 hj0 hj1 hk0 hk1 => by
      have hp : F.InBounds [(i0, i1), (j0, j1), (k0, k1)] [i, j, k] := F.inBounds3.2 ⟨i, j, k, rfl, by omega⟩
      rw [← hop i j k hi0 hi1 hj0 hj1 hk0 hk1]
      exact (ER _ hp).rd.symm.trans (hR _ hp).rd) hF hY hYD
  have hUY : ∀ p, ¬ F.InBounds [(i0, i1), (j0, j1), (k0, k1)] p → U p = Y p := fun p hp => (hYD p hp).symm
  have hE1 : ∀ p, F.InBounds [(i0, i1), (j0, j1), (k0, k1)] p → |U p - Y p| ≤ E * (fun _ => (1 : T)) p := fun p hp => by
    rw [hY p hp]
    simpa using hE p hp
  obtain ⟨m', U', t, w1, w2, w3, w4⟩ := C59_gs_3d hp rfl hD h1.le hX hUY hE1 l
  refine ⟨s1, s2, s3, m', U', a1, a2, a3, a4, t, w1, (ho.mono (by simp)).trans (w2.mono fun _ ha => List.mem_cons_of_mem _ ha), fun p hp => (w3 p hp).trans (hYD p hp), fun p hp => ?_⟩
  rw [← hY p hp]
  simpa using w4 p hp

example (l : Nat) : ∃ s1 s2 s3 m' U', Cuda.offdiag3d 0 1 2 1 2 3 0 1 2 1 2 3 exDx 2 ⟨2, 0⟩ ⟨3, 0⟩ ⟨4, 0⟩ 1 ⟨9, 0⟩ revBackend (exSolve 3) = .ok s1 ∧
      exSides3.foldlM (fun m s => Cuda.adjOffdiag3d 0 1 2 1 2 3 s.i0 s.j0 s.k0 s.i1 s.j1 s.k1 s.dir s.side s.btype s.order exDx 2 3 2 ⟨2, 0⟩ ⟨3, 0⟩ ⟨4, 0⟩ 1 ⟨9, 0⟩ revBackend m) s1 = .ok s2 ∧ Cuda.v1diag3d 0 1 2 1 2 3 (0 - 1) (1 - 1) (2 - 1) (1 + 1) (2 + 1) (3 + 1) 3 ⟨0, 0⟩ 1 ⟨9, 0⟩ seqBackend s2 = .ok s3 ∧
      exSides3.foldlM (fun m s => Cuda.adjDiag3d 0 1 2 1 2 3 s.i0 s.j0 s.k0 s.i1 s.j1 s.k1 s.dir s.side s.btype s.order exDx 2 ⟨2, 0⟩ ⟨3, 0⟩ ⟨4, 0⟩ 1 ⟨9, 0⟩ revBackend m) s3 = .ok s3 ∧
      F.times (F.cellgs3d 0 1 1 2 2 3 7 ⟨23, 0⟩ (0 - 1) (1 + 1) (1 - 1) (2 + 1) (2 - 1) (3 + 1) ⟨9, 0⟩ (0 - 2) (1 + 2) (1 - 2) (2 + 2) (2 - 2) (3 + 2) ⟨10, 0⟩ (0 - 2) (1 + 2) (1 - 2) (2 + 2) (2 - 2) (3 + 2) ⟨1, 0⟩) l s3 = .ok m' ∧
      F.Holds m' (F.cell3d ⟨1, 0⟩ 0 1 2 1 2 3 2) U' ∧ F.Only [(F.st3d ⟨9, 0⟩ 0 1 2 1 2 3 1), (F.cell3d ⟨1, 0⟩ 0 1 2 1 2 3 2)] (exSolve 3) m' ∧
      (∀ p, ¬ F.InBounds [(0, 1), (1, 2), (2, 3)] p → U' p = exIns 3 5 p) ∧ ∀ p, F.InBounds [(0, 1), (1, 2), (2, 3)] p → |U' p - exIns 3 0 p| ≤ (99999 / 100000) ^ l * 5 := by
  obtain ⟨m1, m2, c1, c2, hR⟩ := exRun_v1_3
  exact C84_gs_v1_3d (T := Rat) (q := 99999 / 100000) (neu := 3) (βs := fun _ => revBackend) (fun _ => revBackend_ok) (fun _ => seqBackend_ok) revBackend_ok seqBackend_ok (fun _ => revBackend_ok) (by decide) (by decide) (by decide) (by decide) (by decide) (by decide) (by decide) (by decide) exEll_v1_3 exWidth exRate2_v1_3 (by norm_num) exSides3_layer exSides3_out exSides3_first exSides3_disjoint exSides3_fulfils (exDir_args (by ex_args)) (⟨apart_blk (by decide), apart_blk (by decide), apart_blk (by decide)⟩) ⟨apart_blk (by decide), apart_blk (by decide), apart_blk (by decide)⟩
    (exDir_rd (by decide) (exRat_ok rfl (by decide) (by decide))) (exDir_rd (by decide) (exRat_ok rfl (by decide) (by decide))) (exDir_rd (by decide) (exRat_ok rfl (by decide) (by decide))) (exDir_rd (by decide) (exRat_ok rfl (by decide) (by decide))) exDir_u3 c1 c2 hR
    (exSolve_args (by ex_args)) (ex_apart (by decide)) (exSolve_rd (by decide) (exRat_ok rfl (by decide) (by decide))) (exSolve_rd (by decide) (exRat_ok rfl (by decide) (by decide))) (exSolve_rd (by decide) (exRat_ok rfl (by decide) (by decide))) (exSolve_rd (by decide) (exRat_ok rfl (by decide) (by decide))) exSolve_u3 (exSolve_f (exRat_ok rfl (by decide) (by decide)) rfl) exSolve_t3 exSolve_err3 l

/-- 3D, diffusion operator with cell coefficients, red-black Gauss-Seidel: if flux and apply kernel take `X` to `G`, and `X` with its ghost values fulfils conditions of first order on pieces of the
boundary with the data in the ghost cells of the unknowns, then off-diagonal kernel, adjustment for each piece, diagonal kernel and its adjustment, followed by `l` pairs of sweeps for the right
hand side `G` bring the unknowns to within `rate^l E` of `X`. -/
theorem C84_rbgs_v1_3d {i0 j0 k0 i1 j1 k1 agcw gcw rgcw sgcw fgcw color color2 : Int} {alpha beta neu : T} {dx : Nat → T} {a u b0 b1 b2 f0 f1 f2 res st rhs o : Ptr} {β1 β2 : Nat → Backend} {β3 β4 : Backend} {βs : F.Side3 → Backend} {sides : List F.Side3} {m mX m1 m2 : Mem T} {A B0 B1 B2 G U X : List Int → T} {E q : T}
    (hβ1 : ∀ n, ValidBackend (β1 n)) (hβ2 : ∀ n, ValidBackend (β2 n)) (hβ3 : ValidBackend β3) (hβ4 : ValidBackend β4) (hβs : ∀ s, ValidBackend (βs s))
    (hi : i0 ≤ i1) (hj : j0 ≤ j1) (hk : k0 ≤ k1) (hg : 1 ≤ gcw) (hagcw : 0 ≤ agcw) (hrgcw : 0 ≤ rgcw) (hs : 0 ≤ sgcw) (hfg : 0 ≤ fgcw) (hc' : 0 ≤ color) (hc2 : 0 ≤ color2) (hcc : (color2 - color) % 2 = 1) (he : F.Elliptic3 i0 j0 k0 i1 j1 k1 alpha beta dx A B0 B1 B2)
    (hdx : ∀ d, d < 3 → 0 < dx d)
    (hq : ∀ i j k, i0 ≤ i → i ≤ i1 → j0 ≤ j → j ≤ j1 → k0 ≤ k → k ≤ k1 → (1 - q) * (2 * (beta / (dx 0 * dx 0) * (B0 [i, j, k] + B0 [i + 1, j, k]) + beta / (dx 1 * dx 1) * (B1 [j, k, i] + B1 [j + 1, k, i]) + beta / (dx 2 * dx 2) * (B2 [k, i, j] + B2 [k + 1, i, j])) + alpha * A [i, j, k]) ≤ alpha * A [i, j, k]) (h1 : q < 1)
    (hl : ∀ s ∈ sides, Layer3 i0 j0 k0 i1 j1 k1 0 s.i0 s.j0 s.k0 s.i1 s.j1 s.k1 s.dir s.side) (hout : ∀ s ∈ sides, s.Outside i0 j0 k0 i1 j1 k1) (hfi : ∀ s ∈ sides, F.First s.btype s.order)
    (hd : F.Disjoint (sides.map (F.Side3.piece dx B0 B1 B2))) (hF : F.Fulfils [(i0, i1), (j0, j1), (k0, k1)] 7 (F.row F.points3) (sides.map (F.Side3.piece dx B0 B1 B2)) U X)
    (h : F.Args mX [(F.cell3d a i0 j0 k0 i1 j1 k1 agcw), (F.cell3d u i0 j0 k0 i1 j1 k1 gcw), (F.face3d0 b0 i0 j0 k0 i1 j1 k1 0), (F.face3d1 b1 i0 j0 k0 i1 j1 k1 0), (F.face3d2 b2 i0 j0 k0 i1 j1 k1 0)] [(F.face3d0 f0 i0 j0 k0 i1 j1 k1 0), (F.face3d1 f1 i0 j0 k0 i1 j1 k1 0), (F.face3d2 f2 i0 j0 k0 i1 j1 k1 0), (F.cell3d res i0 j0 k0 i1 j1 k1 rgcw)])
    (hp : F.Apart (F.face3d0 f0 i0 j0 k0 i1 j1 k1 0) (F.face3d1 f1 i0 j0 k0 i1 j1 k1 0) ∧ F.Apart (F.face3d0 f0 i0 j0 k0 i1 j1 k1 0) (F.face3d2 f2 i0 j0 k0 i1 j1 k1 0) ∧ F.Apart (F.face3d1 f1 i0 j0 k0 i1 j1 k1 0) (F.face3d2 f2 i0 j0 k0 i1 j1 k1 0))
    (hr : F.Apart (F.cell3d res i0 j0 k0 i1 j1 k1 rgcw) (F.face3d0 f0 i0 j0 k0 i1 j1 k1 0) ∧ F.Apart (F.cell3d res i0 j0 k0 i1 j1 k1 rgcw) (F.face3d1 f1 i0 j0 k0 i1 j1 k1 0) ∧ F.Apart (F.cell3d res i0 j0 k0 i1 j1 k1 rgcw) (F.face3d2 f2 i0 j0 k0 i1 j1 k1 0)) (hAX : F.Holds mX (F.cell3d a i0 j0 k0 i1 j1 k1 agcw) A) (hB0X : F.Holds mX (F.face3d0 b0 i0 j0 k0 i1 j1 k1 0) B0) (hB1X : F.Holds mX (F.face3d1 b1 i0 j0 k0 i1 j1 k1 0) B1) (hB2X : F.Holds mX (F.face3d2 b2 i0 j0 k0 i1 j1 k1 0) B2) (hXX : F.Holds mX (F.cell3d u i0 j0 k0 i1 j1 k1 gcw) X)
    (c1 : Cuda.flux3d i0 j0 k0 i1 j1 k1 dx b0 b1 b2 gcw u f0 f1 f2 β1 mX = .ok m1) (c2 : Cuda.diffusionV1Apply3d i0 i1 j0 j1 k0 k1 alpha beta dx agcw a gcw u f0 f1 f2 rgcw res β2 m1 = .ok m2)
    (hR : ∀ p, F.InBounds [(i0, i1), (j0, j1), (k0, k1)] p → F.El m2 (F.cell3d res i0 j0 k0 i1 j1 k1 rgcw) p (G p))
    (h2 : F.Args m [(F.cell3d a i0 j0 k0 i1 j1 k1 agcw), (F.face3d0 b0 i0 j0 k0 i1 j1 k1 0), (F.face3d1 b1 i0 j0 k0 i1 j1 k1 0), (F.face3d2 b2 i0 j0 k0 i1 j1 k1 0), (F.cell3d u i0 j0 k0 i1 j1 k1 gcw), (F.cell3d rhs i0 j0 k0 i1 j1 k1 fgcw)] [(F.st3d st i0 j0 k0 i1 j1 k1 sgcw)]) (huf : F.Apart (F.cell3d u i0 j0 k0 i1 j1 k1 gcw) (F.cell3d rhs i0 j0 k0 i1 j1 k1 fgcw))
    (hA : F.Holds m (F.cell3d a i0 j0 k0 i1 j1 k1 agcw) A) (hB0 : F.Holds m (F.face3d0 b0 i0 j0 k0 i1 j1 k1 0) B0) (hB1 : F.Holds m (F.face3d1 b1 i0 j0 k0 i1 j1 k1 0) B1) (hB2 : F.Holds m (F.face3d2 b2 i0 j0 k0 i1 j1 k1 0) B2) (hU : F.Holds m (F.cell3d u i0 j0 k0 i1 j1 k1 gcw) U) (hG : F.Holds m (F.cell3d rhs i0 j0 k0 i1 j1 k1 fgcw) G) (ht : F.Rows m (F.offset0 o 3 7) F.points3)
    (hE : ∀ p, F.InBounds [(i0, i1), (j0, j1), (k0, k1)] p → |U p - X p| ≤ E) (l : Nat) :
    ∃ s1 s2 s3 m' U', Cuda.offdiag3d i0 j0 k0 i1 j1 k1 i0 j0 k0 i1 j1 k1 dx beta b0 b1 b2 sgcw st β3 m = .ok s1 ∧
      sides.foldlM (fun m s => Cuda.adjOffdiag3d i0 j0 k0 i1 j1 k1 s.i0 s.j0 s.k0 s.i1 s.j1 s.k1 s.dir s.side s.btype s.order dx 2 neu beta b0 b1 b2 sgcw st (βs s) m) s1 = .ok s2 ∧ Cuda.v1diag3d i0 j0 k0 i1 j1 k1 (i0 - agcw) (j0 - agcw) (k0 - agcw) (i1 + agcw) (j1 + agcw) (k1 + agcw) alpha a sgcw st β4 s2 = .ok s3 ∧
      sides.foldlM (fun m s => Cuda.adjDiag3d i0 j0 k0 i1 j1 k1 s.i0 s.j0 s.k0 s.i1 s.j1 s.k1 s.dir s.side s.btype s.order dx beta b0 b1 b2 sgcw st (βs s) m) s3 = .ok s3 ∧
      F.times (fun m => F.cellrbgs3d i0 i1 j0 j1 k0 k1 color 7 o (i0 - sgcw) (i1 + sgcw) (j0 - sgcw) (j1 + sgcw) (k0 - sgcw) (k1 + sgcw) st (i0 - fgcw) (i1 + fgcw) (j0 - fgcw) (j1 + fgcw) (k0 - fgcw) (k1 + fgcw) rhs (i0 - gcw) (i1 + gcw) (j0 - gcw) (j1 + gcw) (k0 - gcw) (k1 + gcw) u m >>=
        F.cellrbgs3d i0 i1 j0 j1 k0 k1 color2 7 o (i0 - sgcw) (i1 + sgcw) (j0 - sgcw) (j1 + sgcw) (k0 - sgcw) (k1 + sgcw) st (i0 - fgcw) (i1 + fgcw) (j0 - fgcw) (j1 + fgcw) (k0 - fgcw) (k1 + fgcw) rhs (i0 - gcw) (i1 + gcw) (j0 - gcw) (j1 + gcw) (k0 - gcw) (k1 + gcw) u) l s3 = .ok m' ∧
      F.Holds m' (F.cell3d u i0 j0 k0 i1 j1 k1 gcw) U' ∧ F.Only [(F.st3d st i0 j0 k0 i1 j1 k1 sgcw), (F.cell3d u i0 j0 k0 i1 j1 k1 gcw)] m m' ∧
      (∀ p, ¬ F.InBounds [(i0, i1), (j0, j1), (k0, k1)] p → U' p = U p) ∧ ∀ p, F.InBounds [(i0, i1), (j0, j1), (k0, k1)] p → |U' p - X p| ≤ q ^ l * E := by
  obtain ⟨m1', m2', R, d1, d2, ER, hop⟩ := energy_v1_3 (alpha := alpha) (beta := beta) (dx := dx) hβ1 hβ2 hi hj hk hg hagcw hrgcw h hp hr hAX hB0X hB1X hB2X hXX
  obtain rfl : m1 = m1' := Except.ok.inj (c1.symm.trans d1)
  obtain rfl : m2 = m2' := Except.ok.inj (c2.symm.trans d2)
  classical
  obtain ⟨Y, hY, hYD⟩ : ∃ Y : List Int → T, (∀ p, F.InBounds [(i0, i1), (j0, j1), (k0, k1)] p → Y p = X p) ∧ ∀ p, ¬ F.InBounds [(i0, i1), (j0, j1), (k0, k1)] p → Y p = U p :=
    ⟨fun p => if F.InBounds [(i0, i1), (j0, j1), (k0, k1)] p then X p else U p, fun p hp => if_pos hp, fun p hp => if_neg hp⟩
  obtain ⟨s1, s2, s3, S, a1, a2, a3, a4, ho, hp, hD, hX⟩ := bvp_v1_3 (alpha := alpha) (beta := beta) (neu := neu) (dx := dx) (o := o) (q := q) (X := X) (Y := Y) hβ3 hβ4 hβs hi hj hk hagcw hs hg hfg he hdx hq h1 hl hout hfi hd (h2.sub (by intro x hx; simp only [List.mem_cons, List.not_mem_nil, or_false] at hx ⊢; tauto) (fun _ e => e)) huf hA hB0 hB1 hB2 hU hG ht
    (fun i j k hi0 hi1 hj0 hj1 hk0 hk1 => by
      have hp : F.InBounds [(i0, i1), (j0, j1), (k0, k1)] [i, j, k] := F.inBounds3.2 ⟨i, j, k, rfl, by omega⟩
      rw [← hop i j k hi0 hi1 hj0 hj1 hk0 hk1]
      exact (ER _ hp).rd.symm.trans (hR _ hp).rd) hF hY hYD
  have hUY : ∀ p, ¬ F.InBounds [(i0, i1), (j0, j1), (k0, k1)] p → U p = Y p := fun p hp => (hYD p hp).symm
  have hE1 : ∀ p, F.InBounds [(i0, i1), (j0, j1), (k0, k1)] p → |U p - Y p| ≤ E * (fun _ => (1 : T)) p := fun p hp => by
    rw [hY p hp]
    simpa using hE p hp
  obtain ⟨m', U', t, w1, w2, w3, w4⟩ := C59_rbgs_3d hc' hc2 hcc hp rfl hD h1.le hX hUY hE1 l
  refine ⟨s1, s2, s3, m', U', a1, a2, a3, a4, t, w1, (ho.mono (by simp)).trans (w2.mono fun _ ha => List.mem_cons_of_mem _ ha), fun p hp => (w3 p hp).trans (hYD p hp), fun p hp => ?_⟩
  rw [← hY p hp]
  simpa using w4 p hp

example (l : Nat) : ∃ s1 s2 s3 m' U', Cuda.offdiag3d 0 1 2 1 2 3 0 1 2 1 2 3 exDx 2 ⟨2, 0⟩ ⟨3, 0⟩ ⟨4, 0⟩ 1 ⟨9, 0⟩ revBackend (exSolve 3) = .ok s1 ∧
      exSides3.foldlM (fun m s => Cuda.adjOffdiag3d 0 1 2 1 2 3 s.i0 s.j0 s.k0 s.i1 s.j1 s.k1 s.dir s.side s.btype s.order exDx 2 3 2 ⟨2, 0⟩ ⟨3, 0⟩ ⟨4, 0⟩ 1 ⟨9, 0⟩ revBackend m) s1 = .ok s2 ∧ Cuda.v1diag3d 0 1 2 1 2 3 (0 - 1) (1 - 1) (2 - 1) (1 + 1) (2 + 1) (3 + 1) 3 ⟨0, 0⟩ 1 ⟨9, 0⟩ seqBackend s2 = .ok s3 ∧
      exSides3.foldlM (fun m s => Cuda.adjDiag3d 0 1 2 1 2 3 s.i0 s.j0 s.k0 s.i1 s.j1 s.k1 s.dir s.side s.btype s.order exDx 2 ⟨2, 0⟩ ⟨3, 0⟩ ⟨4, 0⟩ 1 ⟨9, 0⟩ revBackend m) s3 = .ok s3 ∧
      F.times (fun μ => F.cellrbgs3d 0 1 1 2 2 3 0 7 ⟨23, 0⟩ (0 - 1) (1 + 1) (1 - 1) (2 + 1) (2 - 1) (3 + 1) ⟨9, 0⟩ (0 - 2) (1 + 2) (1 - 2) (2 + 2) (2 - 2) (3 + 2) ⟨10, 0⟩ (0 - 2) (1 + 2) (1 - 2) (2 + 2) (2 - 2) (3 + 2) ⟨1, 0⟩ μ >>=
        F.cellrbgs3d 0 1 1 2 2 3 1 7 ⟨23, 0⟩ (0 - 1) (1 + 1) (1 - 1) (2 + 1) (2 - 1) (3 + 1) ⟨9, 0⟩ (0 - 2) (1 + 2) (1 - 2) (2 + 2) (2 - 2) (3 + 2) ⟨10, 0⟩ (0 - 2) (1 + 2) (1 - 2) (2 + 2) (2 - 2) (3 + 2) ⟨1, 0⟩) l s3 = .ok m' ∧
      F.Holds m' (F.cell3d ⟨1, 0⟩ 0 1 2 1 2 3 2) U' ∧ F.Only [(F.st3d ⟨9, 0⟩ 0 1 2 1 2 3 1), (F.cell3d ⟨1, 0⟩ 0 1 2 1 2 3 2)] (exSolve 3) m' ∧
      (∀ p, ¬ F.InBounds [(0, 1), (1, 2), (2, 3)] p → U' p = exIns 3 5 p) ∧ ∀ p, F.InBounds [(0, 1), (1, 2), (2, 3)] p → |U' p - exIns 3 0 p| ≤ (99999 / 100000) ^ l * 5 := by
  obtain ⟨m1, m2, c1, c2, hR⟩ := exRun_v1_3
  exact C84_rbgs_v1_3d (T := Rat) (q := 99999 / 100000) (neu := 3) (βs := fun _ => revBackend) (fun _ => revBackend_ok) (fun _ => seqBackend_ok) revBackend_ok seqBackend_ok (fun _ => revBackend_ok) (by decide) (by decide) (by decide) (by decide) (by decide) (by decide) (by decide) (by decide) (by decide) (by decide) (by decide) exEll_v1_3 exWidth exRate2_v1_3 (by norm_num) exSides3_layer exSides3_out exSides3_first exSides3_disjoint exSides3_fulfils (exDir_args (by ex_args)) (⟨apart_blk (by decide), apart_blk (by decide), apart_blk (by decide)⟩) ⟨apart_blk (by decide), apart_blk (by decide), apart_blk (by decide)⟩
    (exDir_rd (by decide) (exRat_ok rfl (by decide) (by decide))) (exDir_rd (by decide) (exRat_ok rfl (by decide) (by decide))) (exDir_rd (by decide) (exRat_ok rfl (by decide) (by decide))) (exDir_rd (by decide) (exRat_ok rfl (by decide) (by decide))) exDir_u3 c1 c2 hR
    (exSolve_args (by ex_args)) (ex_apart (by decide)) (exSolve_rd (by decide) (exRat_ok rfl (by decide) (by decide))) (exSolve_rd (by decide) (exRat_ok rfl (by decide) (by decide))) (exSolve_rd (by decide) (exRat_ok rfl (by decide) (by decide))) (exSolve_rd (by decide) (exRat_ok rfl (by decide) (by decide))) exSolve_u3 (exSolve_f (exRat_ok rfl (by decide) (by decide)) rfl) exSolve_t3 exSolve_err3 l

/-- 3D, diffusion operator with constant reaction, damped Jacobi: if flux and apply kernel take `X` to `G`, and `X` with its ghost values fulfils conditions of first order on pieces of the
boundary with the data in the ghost cells of the unknowns, then off-diagonal kernel, adjustment for each piece, diagonal kernel and its adjustment, followed by `l` sweeps for the right
hand side `G` bring the unknowns to within `rate^l E` of `X`. -/
theorem C84_jacobi_v2_3d {i0 j0 k0 i1 j1 k1 gcw rgcw sgcw fgcw : Int} {alpha beta neu : T} {dx : Nat → T} {u b0 b1 b2 f0 f1 f2 res st rhs o r : Ptr} {β1 β2 : Nat → Backend} {β3 β4 : Backend} {βs : F.Side3 → Backend} {sides : List F.Side3} {m mX m1 m2 : Mem T} {B0 B1 B2 G U X : List Int → T} {E q : T}
    (hβ1 : ∀ n, ValidBackend (β1 n)) (hβ2 : ∀ n, ValidBackend (β2 n)) (hβ3 : ValidBackend β3) (hβ4 : ValidBackend β4) (hβs : ∀ s, ValidBackend (βs s))
    (hi : i0 ≤ i1) (hj : j0 ≤ j1) (hk : k0 ≤ k1) (hg : 1 ≤ gcw) (hrgcw : 0 ≤ rgcw) (hs : 0 ≤ sgcw) (hfg : 0 ≤ fgcw) (he : F.Elliptic3 i0 j0 k0 i1 j1 k1 alpha beta dx (fun _ => 1) B0 B1 B2)
    (hdx : ∀ d, d < 3 → 0 < dx d)
    (hq : ∀ i j k, i0 ≤ i → i ≤ i1 → j0 ≤ j → j ≤ j1 → k0 ≤ k → k ≤ k1 → (1 - q) * (2 * (beta / (dx 0 * dx 0) * (B0 [i, j, k] + B0 [i + 1, j, k]) + beta / (dx 1 * dx 1) * (B1 [j, k, i] + B1 [j + 1, k, i]) + beta / (dx 2 * dx 2) * (B2 [k, i, j] + B2 [k + 1, i, j])) + alpha * (fun _ => 1) [i, j, k]) ≤ alpha * (fun _ => 1) [i, j, k]) (h1 : q < 1)
    (hl : ∀ s ∈ sides, Layer3 i0 j0 k0 i1 j1 k1 0 s.i0 s.j0 s.k0 s.i1 s.j1 s.k1 s.dir s.side) (hout : ∀ s ∈ sides, s.Outside i0 j0 k0 i1 j1 k1) (hfi : ∀ s ∈ sides, F.First s.btype s.order)
    (hd : F.Disjoint (sides.map (F.Side3.piece dx B0 B1 B2))) (hF : F.Fulfils [(i0, i1), (j0, j1), (k0, k1)] 7 (F.row F.points3) (sides.map (F.Side3.piece dx B0 B1 B2)) U X)
    (h : F.Args mX [(F.cell3d u i0 j0 k0 i1 j1 k1 gcw), (F.face3d0 b0 i0 j0 k0 i1 j1 k1 0), (F.face3d1 b1 i0 j0 k0 i1 j1 k1 0), (F.face3d2 b2 i0 j0 k0 i1 j1 k1 0)] [(F.face3d0 f0 i0 j0 k0 i1 j1 k1 0), (F.face3d1 f1 i0 j0 k0 i1 j1 k1 0), (F.face3d2 f2 i0 j0 k0 i1 j1 k1 0), (F.cell3d res i0 j0 k0 i1 j1 k1 rgcw)])
    (hp : F.Apart (F.face3d0 f0 i0 j0 k0 i1 j1 k1 0) (F.face3d1 f1 i0 j0 k0 i1 j1 k1 0) ∧ F.Apart (F.face3d0 f0 i0 j0 k0 i1 j1 k1 0) (F.face3d2 f2 i0 j0 k0 i1 j1 k1 0) ∧ F.Apart (F.face3d1 f1 i0 j0 k0 i1 j1 k1 0) (F.face3d2 f2 i0 j0 k0 i1 j1 k1 0))
    (hr : F.Apart (F.cell3d res i0 j0 k0 i1 j1 k1 rgcw) (F.face3d0 f0 i0 j0 k0 i1 j1 k1 0) ∧ F.Apart (F.cell3d res i0 j0 k0 i1 j1 k1 rgcw) (F.face3d1 f1 i0 j0 k0 i1 j1 k1 0) ∧ F.Apart (F.cell3d res i0 j0 k0 i1 j1 k1 rgcw) (F.face3d2 f2 i0 j0 k0 i1 j1 k1 0)) (hB0X : F.Holds mX (F.face3d0 b0 i0 j0 k0 i1 j1 k1 0) B0) (hB1X : F.Holds mX (F.face3d1 b1 i0 j0 k0 i1 j1 k1 0) B1) (hB2X : F.Holds mX (F.face3d2 b2 i0 j0 k0 i1 j1 k1 0) B2) (hXX : F.Holds mX (F.cell3d u i0 j0 k0 i1 j1 k1 gcw) X)
    (c1 : Cuda.flux3d i0 j0 k0 i1 j1 k1 dx b0 b1 b2 gcw u f0 f1 f2 β1 mX = .ok m1) (c2 : Cuda.diffusionV2Apply3d i0 i1 j0 j1 k0 k1 alpha beta dx gcw u f0 f1 f2 rgcw res β2 m1 = .ok m2)
    (hR : ∀ p, F.InBounds [(i0, i1), (j0, j1), (k0, k1)] p → F.El m2 (F.cell3d res i0 j0 k0 i1 j1 k1 rgcw) p (G p))
    (h2 : F.Args m [(F.face3d0 b0 i0 j0 k0 i1 j1 k1 0), (F.face3d1 b1 i0 j0 k0 i1 j1 k1 0), (F.face3d2 b2 i0 j0 k0 i1 j1 k1 0), (F.cell3d u i0 j0 k0 i1 j1 k1 gcw), (F.cell3d rhs i0 j0 k0 i1 j1 k1 fgcw), (F.box3d r i0 j0 k0 i1 j1 k1)] [(F.st3d st i0 j0 k0 i1 j1 k1 sgcw)]) (huf : F.Apart (F.cell3d u i0 j0 k0 i1 j1 k1 gcw) (F.cell3d rhs i0 j0 k0 i1 j1 k1 fgcw)) (hru : F.Apart (F.box3d r i0 j0 k0 i1 j1 k1) (F.cell3d u i0 j0 k0 i1 j1 k1 gcw)) (hrf : F.Apart (F.box3d r i0 j0 k0 i1 j1 k1) (F.cell3d rhs i0 j0 k0 i1 j1 k1 fgcw))
    (hB0 : F.Holds m (F.face3d0 b0 i0 j0 k0 i1 j1 k1 0) B0) (hB1 : F.Holds m (F.face3d1 b1 i0 j0 k0 i1 j1 k1 0) B1) (hB2 : F.Holds m (F.face3d2 b2 i0 j0 k0 i1 j1 k1 0) B2) (hU : F.Holds m (F.cell3d u i0 j0 k0 i1 j1 k1 gcw) U) (hG : F.Holds m (F.cell3d rhs i0 j0 k0 i1 j1 k1 fgcw) G) (ht : F.Rows m (F.offset0 o 3 7) F.points3)
    (hE : ∀ p, F.InBounds [(i0, i1), (j0, j1), (k0, k1)] p → |U p - X p| ≤ E) (l : Nat) :
    ∃ s1 s2 s3 m' U', Cuda.offdiag3d i0 j0 k0 i1 j1 k1 i0 j0 k0 i1 j1 k1 dx beta b0 b1 b2 sgcw st β3 m = .ok s1 ∧
      sides.foldlM (fun m s => Cuda.adjOffdiag3d i0 j0 k0 i1 j1 k1 s.i0 s.j0 s.k0 s.i1 s.j1 s.k1 s.dir s.side s.btype s.order dx 2 neu beta b0 b1 b2 sgcw st (βs s) m) s1 = .ok s2 ∧ Cuda.v2diag3d i0 j0 k0 i1 j1 k1 alpha sgcw st β4 s2 = .ok s3 ∧
      sides.foldlM (fun m s => Cuda.adjDiag3d i0 j0 k0 i1 j1 k1 s.i0 s.j0 s.k0 s.i1 s.j1 s.k1 s.dir s.side s.btype s.order dx beta b0 b1 b2 sgcw st (βs s) m) s3 = .ok s3 ∧
      F.times (F.celljacobi3d i0 i1 j0 j1 k0 k1 7 o (i0 - sgcw) (i1 + sgcw) (j0 - sgcw) (j1 + sgcw) (k0 - sgcw) (k1 + sgcw) st (i0 - fgcw) (i1 + fgcw) (j0 - fgcw) (j1 + fgcw) (k0 - fgcw) (k1 + fgcw) rhs (i0 - gcw) (i1 + gcw) (j0 - gcw) (j1 + gcw) (k0 - gcw) (k1 + gcw) u r) l s3 = .ok m' ∧
      F.Holds m' (F.cell3d u i0 j0 k0 i1 j1 k1 gcw) U' ∧ F.Only [(F.st3d st i0 j0 k0 i1 j1 k1 sgcw), (F.cell3d u i0 j0 k0 i1 j1 k1 gcw), (F.box3d r i0 j0 k0 i1 j1 k1)] m m' ∧
      (∀ p, ¬ F.InBounds [(i0, i1), (j0, j1), (k0, k1)] p → U' p = U p) ∧ ∀ p, F.InBounds [(i0, i1), (j0, j1), (k0, k1)] p → |U' p - X p| ≤ (1 - ((8 : Nat) / (10 : Nat) : T) + ((8 : Nat) / (10 : Nat) : T) * q) ^ l * E := by
  obtain ⟨m1', m2', R, d1, d2, ER, hop⟩ := energy_v2_3 (alpha := alpha) (beta := beta) (dx := dx) hβ1 hβ2 hi hj hk hg hrgcw h hp hr hB0X hB1X hB2X hXX
  obtain rfl : m1 = m1' := Except.ok.inj (c1.symm.trans d1)
  obtain rfl : m2 = m2' := Except.ok.inj (c2.symm.trans d2)
  classical
  obtain ⟨Y, hY, hYD⟩ : ∃ Y : List Int → T, (∀ p, F.InBounds [(i0, i1), (j0, j1), (k0, k1)] p → Y p = X p) ∧ ∀ p, ¬ F.InBounds [(i0, i1), (j0, j1), (k0, k1)] p → Y p = U p :=
    ⟨fun p => if F.InBounds [(i0, i1), (j0, j1), (k0, k1)] p then X p else U p, fun p hp => if_pos hp, fun p hp => if_neg hp⟩
  obtain ⟨s1, s2, s3, S, a1, a2, a3, a4, ho, hp, hD, hX⟩ := bvp_v2_3 (alpha := alpha) (beta := beta) (neu := neu) (dx := dx) (o := o) (q := q) (X := X) (Y := Y) hβ3 hβ4 hβs hi hj hk hs hg hfg he hdx hq h1 hl hout hfi hd (h2.sub (by intro x hx; simp only [List.mem_cons, List.not_mem_nil, or_false] at hx ⊢; tauto) (fun _ e => e)) huf hB0 hB1 hB2 hU hG ht
    (fun i j k hi0 hi1 hj0 hj1 hk0 hk1 => by
      have hp : F.InBounds [(i0, i1), (j0, j1), (k0, k1)] [i, j, k] := F.inBounds3.2 ⟨i, j, k, rfl, by omega⟩
      rw [← hop i j k hi0 hi1 hj0 hj1 hk0 hk1]
      exact (ER _ hp).rd.symm.trans (hR _ hp).rd) hF hY hYD
  have hUY : ∀ p, ¬ F.InBounds [(i0, i1), (j0, j1), (k0, k1)] p → U p = Y p := fun p hp => (hYD p hp).symm
  have hE1 : ∀ p, F.InBounds [(i0, i1), (j0, j1), (k0, k1)] p → |U p - Y p| ≤ E * (fun _ => (1 : T)) p := fun p hp => by
    rw [hY p hp]
    simpa using hE p hp
  have hr2 : F.Holds s3 (F.box3d r i0 j0 k0 i1 j1 k1) (F.rd m (F.box3d r i0 j0 k0 i1 j1 k1)) := F.Holds.only (fun is hi => (h2.ok (F.box3d r i0 j0 k0 i1 j1 k1) (by simp)).rd hi) ho (by simp only [List.mem_cons, List.not_mem_nil, or_false, forall_eq]; exact h2.apart _ (by simp) _ (by simp))
  obtain ⟨m', U', t, w1, w2, w3, w4⟩ := C59_jacobi_3d hp hr2 hru (F.apart_symm (h2.apart (F.st3d st i0 j0 k0 i1 j1 k1 sgcw) (by simp) (F.box3d r i0 j0 k0 i1 j1 k1) (by simp))) hrf rfl hD hX hUY hE1 l
  refine ⟨s1, s2, s3, m', U', a1, a2, a3, a4, t, w1, (ho.mono (by simp)).trans (w2.mono fun _ ha => List.mem_cons_of_mem _ ha), fun p hp => (w3 p hp).trans (hYD p hp), fun p hp => ?_⟩
  rw [← hY p hp]
  simpa using w4 p hp

example (l : Nat) : ∃ s1 s2 s3 m' U', Cuda.offdiag3d 0 1 2 1 2 3 0 1 2 1 2 3 exDx 2 ⟨2, 0⟩ ⟨3, 0⟩ ⟨4, 0⟩ 1 ⟨9, 0⟩ revBackend (exSolve 3) = .ok s1 ∧
      exSides3.foldlM (fun m s => Cuda.adjOffdiag3d 0 1 2 1 2 3 s.i0 s.j0 s.k0 s.i1 s.j1 s.k1 s.dir s.side s.btype s.order exDx 2 3 2 ⟨2, 0⟩ ⟨3, 0⟩ ⟨4, 0⟩ 1 ⟨9, 0⟩ revBackend m) s1 = .ok s2 ∧ Cuda.v2diag3d 0 1 2 1 2 3 3 1 ⟨9, 0⟩ seqBackend s2 = .ok s3 ∧
      exSides3.foldlM (fun m s => Cuda.adjDiag3d 0 1 2 1 2 3 s.i0 s.j0 s.k0 s.i1 s.j1 s.k1 s.dir s.side s.btype s.order exDx 2 ⟨2, 0⟩ ⟨3, 0⟩ ⟨4, 0⟩ 1 ⟨9, 0⟩ revBackend m) s3 = .ok s3 ∧
      F.times (F.celljacobi3d 0 1 1 2 2 3 7 ⟨23, 0⟩ (0 - 1) (1 + 1) (1 - 1) (2 + 1) (2 - 1) (3 + 1) ⟨9, 0⟩ (0 - 2) (1 + 2) (1 - 2) (2 + 2) (2 - 2) (3 + 2) ⟨10, 0⟩ (0 - 2) (1 + 2) (1 - 2) (2 + 2) (2 - 2) (3 + 2) ⟨1, 0⟩ ⟨11, 0⟩) l s3 = .ok m' ∧
      F.Holds m' (F.cell3d ⟨1, 0⟩ 0 1 2 1 2 3 2) U' ∧ F.Only [(F.st3d ⟨9, 0⟩ 0 1 2 1 2 3 1), (F.cell3d ⟨1, 0⟩ 0 1 2 1 2 3 2), (F.box3d ⟨11, 0⟩ 0 1 2 1 2 3)] (exSolve 3) m' ∧
      (∀ p, ¬ F.InBounds [(0, 1), (1, 2), (2, 3)] p → U' p = exIns 3 5 p) ∧ ∀ p, F.InBounds [(0, 1), (1, 2), (2, 3)] p → |U' p - exIns 3 0 p| ≤ (1 - ((8 : Nat) / (10 : Nat) : Rat) + ((8 : Nat) / (10 : Nat) : Rat) * (99999 / 100000)) ^ l * 5 := by
  obtain ⟨m1, m2, c1, c2, hR⟩ := exRun_v2_3
  exact C84_jacobi_v2_3d (T := Rat) (q := 99999 / 100000) (neu := 3) (βs := fun _ => revBackend) (fun _ => revBackend_ok) (fun _ => seqBackend_ok) revBackend_ok seqBackend_ok (fun _ => revBackend_ok) (by decide) (by decide) (by decide) (by decide) (by decide) (by decide) (by decide) exEll_v2_3 exWidth exRate2_v2_3 (by norm_num) exSides3_layer exSides3_out exSides3_first exSides3_disjoint exSides3_fulfils (exDir_args (by ex_args)) (⟨apart_blk (by decide), apart_blk (by decide), apart_blk (by decide)⟩) ⟨apart_blk (by decide), apart_blk (by decide), apart_blk (by decide)⟩
    (exDir_rd (by decide) (exRat_ok rfl (by decide) (by decide))) (exDir_rd (by decide) (exRat_ok rfl (by decide) (by decide))) (exDir_rd (by decide) (exRat_ok rfl (by decide) (by decide))) exDir_u3 c1 c2 hR
    (exSolve_args (by ex_args)) (ex_apart (by decide)) (ex_apart (by decide)) (ex_apart (by decide)) (exSolve_rd (by decide) (exRat_ok rfl (by decide) (by decide))) (exSolve_rd (by decide) (exRat_ok rfl (by decide) (by decide))) (exSolve_rd (by decide) (exRat_ok rfl (by decide) (by decide))) exSolve_u3 (exSolve_f (exRat_ok rfl (by decide) (by decide)) rfl) exSolve_t3 exSolve_err3 l

/-- 3D, diffusion operator with constant reaction, Gauss-Seidel: if flux and apply kernel take `X` to `G`, and `X` with its ghost values fulfils conditions of first order on pieces of the
boundary with the data in the ghost cells of the unknowns, then off-diagonal kernel, adjustment for each piece, diagonal kernel and its adjustment, followed by `l` sweeps for the right
hand side `G` bring the unknowns to within `rate^l E` of `X`. -/
theorem C84_gs_v2_3d {i0 j0 k0 i1 j1 k1 gcw rgcw sgcw fgcw : Int} {alpha beta neu : T} {dx : Nat → T} {u b0 b1 b2 f0 f1 f2 res st rhs o : Ptr} {β1 β2 : Nat → Backend} {β3 β4 : Backend} {βs : F.Side3 → Backend} {sides : List F.Side3} {m mX m1 m2 : Mem T} {B0 B1 B2 G U X : List Int → T} {E q : T}
    (hβ1 : ∀ n, ValidBackend (β1 n)) (hβ2 : ∀ n, ValidBackend (β2 n)) (hβ3 : ValidBackend β3) (hβ4 : ValidBackend β4) (hβs : ∀ s, ValidBackend (βs s))
    (hi : i0 ≤ i1) (hj : j0 ≤ j1) (hk : k0 ≤ k1) (hg : 1 ≤ gcw) (hrgcw : 0 ≤ rgcw) (hs : 0 ≤ sgcw) (hfg : 0 ≤ fgcw) (he : F.Elliptic3 i0 j0 k0 i1 j1 k1 alpha beta dx (fun _ => 1) B0 B1 B2)
    (hdx : ∀ d, d < 3 → 0 < dx d)
    (hq : ∀ i j k, i0 ≤ i → i ≤ i1 → j0 ≤ j → j ≤ j1 → k0 ≤ k → k ≤ k1 → (1 - q) * (2 * (beta / (dx 0 * dx 0) * (B0 [i, j, k] + B0 [i + 1, j, k]) + beta / (dx 1 * dx 1) * (B1 [j, k, i] + B1 [j + 1, k, i]) + beta / (dx 2 * dx 2) * (B2 [k, i, j] + B2 [k + 1, i, j])) + alpha * (fun _ => 1) [i, j, k]) ≤ alpha * (fun _ => 1) [i, j, k]) (h1 : q < 1)
    (hl : ∀ s ∈ sides, Layer3 i0 j0 k0 i1 j1 k1 0 s.i0 s.j0 s.k0 s.i1 s.j1 s.k1 s.dir s.side) (hout : ∀ s ∈ sides, s.Outside i0 j0 k0 i1 j1 k1) (hfi : ∀ s ∈ sides, F.First s.btype s.order)
    (hd : F.Disjoint (sides.map (F.Side3.piece dx B0 B1 B2))) (hF : F.Fulfils [(i0, i1), (j0, j1), (k0, k1)] 7 (F.row F.points3) (sides.map (F.Side3.piece dx B0 B1 B2)) U X)
    (h : F.Args mX [(F.cell3d u i0 j0 k0 i1 j1 k1 gcw), (F.face3d0 b0 i0 j0 k0 i1 j1 k1 0), (F.face3d1 b1 i0 j0 k0 i1 j1 k1 0), (F.face3d2 b2 i0 j0 k0 i1 j1 k1 0)] [(F.face3d0 f0 i0 j0 k0 i1 j1 k1 0), (F.face3d1 f1 i0 j0 k0 i1 j1 k1 0), (F.face3d2 f2 i0 j0 k0 i1 j1 k1 0), (F.cell3d res i0 j0 k0 i1 j1 k1 rgcw)])
    (hp : F.Apart (F.face3d0 f0 i0 j0 k0 i1 j1 k1 0) (F.face3d1 f1 i0 j0 k0 i1 j1 k1 0) ∧ F.Apart (F.face3d0 f0 i0 j0 k0 i1 j1 k1 0) (F.face3d2 f2 i0 j0 k0 i1 j1 k1 0) ∧ F.Apart (F.face3d1 f1 i0 j0 k0 i1 j1 k1 0) (F.face3d2 f2 i0 j0 k0 i1 j1 k1 0))
    (hr : F.Apart (F.cell3d res i0 j0 k0 i1 j1 k1 rgcw) (F.face3d0 f0 i0 j0 k0 i1 j1 k1 0) ∧ F.Apart (F.cell3d res i0 j0 k0 i1 j1 k1 rgcw) (F.face3d1 f1 i0 j0 k0 i1 j1 k1 0) ∧ F.Apart (F.cell3d res i0 j0 k0 i1 j1 k1 rgcw) (F.face3d2 f2 i0 j0 k0 i1 j1 k1 0)) (hB0X : F.Holds mX (F.face3d0 b0 i0 j0 k0 i1 j1 k1 0) B0) (hB1X : F.Holds mX (F.face3d1 b1 i0 j0 k0 i1 j1 k1 0) B1) (hB2X : F.Holds mX (F.face3d2 b2 i0 j0 k0 i1 j1 k1 0) B2) (hXX : F.Holds mX (F.cell3d u i0 j0 k0 i1 j1 k1 gcw) X)
    (c1 : Cuda.flux3d i0 j0 k0 i1 j1 k1 dx b0 b1 b2 gcw u f0 f1 f2 β1 mX = .ok m1) (c2 : Cuda.diffusionV2Apply3d i0 i1 j0 j1 k0 k1 alpha beta dx gcw u f0 f1 f2 rgcw res β2 m1 = .ok m2)
    (hR : ∀ p, F.InBounds [(i0, i1), (j0, j1), (k0, k1)] p → F.El m2 (F.cell3d res i0 j0 k0 i1 j1 k1 rgcw) p (G p))
    (h2 : F.Args m [(F.face3d0 b0 i0 j0 k0 i1 j1 k1 0), (F.face3d1 b1 i0 j0 k0 i1 j1 k1 0), (F.face3d2 b2 i0 j0 k0 i1 j1 k1 0), (F.cell3d u i0 j0 k0 i1 j1 k1 gcw), (F.cell3d rhs i0 j0 k0 i1 j1 k1 fgcw)] [(F.st3d st i0 j0 k0 i1 j1 k1 sgcw)]) (huf : F.Apart (F.cell3d u i0 j0 k0 i1 j1 k1 gcw) (F.cell3d rhs i0 j0 k0 i1 j1 k1 fgcw))
    (hB0 : F.Holds m (F.face3d0 b0 i0 j0 k0 i1 j1 k1 0) B0) (hB1 : F.Holds m (F.face3d1 b1 i0 j0 k0 i1 j1 k1 0) B1) (hB2 : F.Holds m (F.face3d2 b2 i0 j0 k0 i1 j1 k1 0) B2) (hU : F.Holds m (F.cell3d u i0 j0 k0 i1 j1 k1 gcw) U) (hG : F.Holds m (F.cell3d rhs i0 j0 k0 i1 j1 k1 fgcw) G) (ht : F.Rows m (F.offset0 o 3 7) F.points3)
    (hE : ∀ p, F.InBounds [(i0, i1), (j0, j1), (k0, k1)] p → |U p - X p| ≤ E) (l : Nat) :
    ∃ s1 s2 s3 m' U', Cuda.offdiag3d i0 j0 k0 i1 j1 k1 i0 j0 k0 i1 j1 k1 dx beta b0 b1 b2 sgcw st β3 m = .ok s1 ∧
      sides.foldlM (fun m s => Cuda.adjOffdiag3d i0 j0 k0 i1 j1 k1 s.i0 s.j0 s.k0 s.i1 s.j1 s.k1 s.dir s.side s.btype s.order dx 2 neu beta b0 b1 b2 sgcw st (βs s) m) s1 = .ok s2 ∧ Cuda.v2diag3d i0 j0 k0 i1 j1 k1 alpha sgcw st β4 s2 = .ok s3 ∧
      sides.foldlM (fun m s => Cuda.adjDiag3d i0 j0 k0 i1 j1 k1 s.i0 s.j0 s.k0 s.i1 s.j1 s.k1 s.dir s.side s.btype s.order dx beta b0 b1 b2 sgcw st (βs s) m) s3 = .ok s3 ∧
      F.times (F.cellgs3d i0 i1 j0 j1 k0 k1 7 o (i0 - sgcw) (i1 + sgcw) (j0 - sgcw) (j1 + sgcw) (k0 - sgcw) (k1 + sgcw) st (i0 - fgcw) (i1 + fgcw) (j0 - fgcw) (j1 + fgcw) (k0 - fgcw) (k1 + fgcw) rhs (i0 - gcw) (i1 + gcw) (j0 - gcw) (j1 + gcw) (k0 - gcw) (k1 + gcw) u) l s3 = .ok m' ∧
      F.Holds m' (F.cell3d u i0 j0 k0 i1 j1 k1 gcw) U' ∧ F.Only [(F.st3d st i0 j0 k0 i1 j1 k1 sgcw), (F.cell3d u i0 j0 k0 i1 j1 k1 gcw)] m m' ∧
      (∀ p, ¬ F.InBounds [(i0, i1), (j0, j1), (k0, k1)] p → U' p = U p) ∧ ∀ p, F.InBounds [(i0, i1), (j0, j1), (k0, k1)] p → |U' p - X p| ≤ q ^ l * E := by
  obtain ⟨m1', m2', R, d1, d2, ER, hop⟩ := energy_v2_3 (alpha := alpha) (beta := beta) (dx := dx) hβ1 hβ2 hi hj hk hg hrgcw h hp hr hB0X hB1X hB2X hXX
  obtain rfl : m1 = m1' := Except.ok.inj (c1.symm.trans d1)
  obtain rfl : m2 = m2' := Except.ok.inj (c2.symm.trans d2)
  classical
  obtain ⟨Y, hY, hYD⟩ : ∃ Y : List Int → T, (∀ p, F.InBounds [(i0, i1), (j0, j1), (k0, k1)] p → Y p = X p) ∧ ∀ p, ¬ F.InBounds [(i0, i1), (j0, j1), (k0, k1)] p → Y p = U p :=
    ⟨fun p => if F.InBounds [(i0, i1), (j0, j1), (k0, k1)] p then X p else U p, fun p hp => if_pos hp, fun p hp => if_neg hp⟩
  obtain ⟨s1, s2, s3, S, a1, a2, a3, a4, ho, hp, hD, hX⟩ := bvp_v2_3 (alpha := alpha) (beta := beta) (neu := neu) (dx := dx) (o := o) (q := q) (X := X) (Y := Y) hβ3 hβ4 hβs hi hj hk hs hg hfg he hdx hq h1 hl hout hfi hd (h2.sub (by intro x hx; simp only [List.mem_cons, List.not_mem_nil, or_false] at hx ⊢; tauto) (fun _ e => e)) huf hB0 hB1 hB2 hU hG ht
    (fun i j k hi0 hi1 hj0 hj1 hk0 hk1 => by
      have hp : F.InBounds [(i0, i1), (j0, j1), (k0, k1)] [i, j, k] := F.inBounds3.2 ⟨i, j, k, rfl, by omega⟩
      rw [← hop i j k hi0 hi1 hj0 hj1 hk0 hk1]
      exact (ER _ hp).rd.symm.trans (hR _ hp).rd) hF hY hYD
  have hUY : ∀ p, ¬ F.InBounds [(i0, i1), (j0, j1), (k0, k1)] p → U p = Y p := fun p hp => (hYD p hp).symm
  have hE1 : ∀ p, F.InBounds [(i0, i1), (j0, j1), (k0, k1)] p → |U p - Y p| ≤ E * (fun _ => (1 : T)) p := fun p hp => by
    rw [hY p hp]
    simpa using hE p hp
  obtain ⟨m', U', t, w1, w2, w3, w4⟩ := C59_gs_3d hp rfl hD h1.le hX hUY hE1 l
  refine ⟨s1, s2, s3, m', U', a1, a2, a3, a4, t, w1, (ho.mono (by simp)).trans (w2.mono fun _ ha => List.mem_cons_of_mem _ ha), fun p hp => (w3 p hp).trans (hYD p hp), fun p hp => ?_⟩
  rw [← hY p hp]
  simpa using w4 p hp

example (l : Nat) : ∃ s1 s2 s3 m' U', Cuda.offdiag3d 0 1 2 1 2 3 0 1 2 1 2 3 exDx 2 ⟨2, 0⟩ ⟨3, 0⟩ ⟨4, 0⟩ 1 ⟨9, 0⟩ revBackend (exSolve 3) = .ok s1 ∧
      exSides3.foldlM (fun m s => Cuda.adjOffdiag3d 0 1 2 1 2 3 s.i0 s.j0 s.k0 s.i1 s.j1 s.k1 s.dir s.side s.btype s.order exDx 2 3 2 ⟨2, 0⟩ ⟨3, 0⟩ ⟨4, 0⟩ 1 ⟨9, 0⟩ revBackend m) s1 = .ok s2 ∧ Cuda.v2diag3d 0 1 2 1 2 3 3 1 ⟨9, 0⟩ seqBackend s2 = .ok s3 ∧
      exSides3.foldlM (fun m s => Cuda.adjDiag3d 0 1 2 1 2 3 s.i0 s.j0 s.k0 s.i1 s.j1 s.k1 s.dir s.side s.btype s.order exDx 2 ⟨2, 0⟩ ⟨3, 0⟩ ⟨4, 0⟩ 1 ⟨9, 0⟩ revBackend m) s3 = .ok s3 ∧
      F.times (F.cellgs3d 0 1 1 2 2 3 7 ⟨23, 0⟩ (0 - 1) (1 + 1) (1 - 1) (2 + 1) (2 - 1) (3 + 1) ⟨9, 0⟩ (0 - 2) (1 + 2) (1 - 2) (2 + 2) (2 - 2) (3 + 2) ⟨10, 0⟩ (0 - 2) (1 + 2) (1 - 2) (2 + 2) (2 - 2) (3 + 2) ⟨1, 0⟩) l s3 = .ok m' ∧
      F.Holds m' (F.cell3d ⟨1, 0⟩ 0 1 2 1 2 3 2) U' ∧ F.Only [(F.st3d ⟨9, 0⟩ 0 1 2 1 2 3 1), (F.cell3d ⟨1, 0⟩ 0 1 2 1 2 3 2)] (exSolve 3) m' ∧
      (∀ p, ¬ F.InBounds [(0, 1), (1, 2), (2, 3)] p → U' p = exIns 3 5 p) ∧ ∀ p, F.InBounds [(0, 1), (1, 2), (2, 3)] p → |U' p - exIns 3 0 p| ≤ (99999 / 100000) ^ l * 5 := by
  obtain ⟨m1, m2, c1, c2, hR⟩ := exRun_v2_3
  exact C84_gs_v2_3d (T := Rat) (q := 99999 / 100000) (neu := 3) (βs := fun _ => revBackend) (fun _ => revBackend_ok) (fun _ => seqBackend_ok) revBackend_ok seqBackend_ok (fun _ => revBackend_ok) (by decide) (by decide) (by decide) (by decide) (by decide) (by decide) (by decide) exEll_v2_3 exWidth exRate2_v2_3 (by norm_num) exSides3_layer exSides3_out exSides3_first exSides3_disjoint exSides3_fulfils (exDir_args (by ex_args)) (⟨apart_blk (by decide), apart_blk (by decide), apart_blk (by decide)⟩) ⟨apart_blk (by decide), apart_blk (by decide), apart_blk (by decide)⟩
    (exDir_rd (by decide) (exRat_ok rfl (by decide) (by decide))) (exDir_rd (by decide) (exRat_ok rfl (by decide) (by decide))) (exDir_rd (by decide) (exRat_ok rfl (by decide) (by decide))) exDir_u3 c1 c2 hR
    (exSolve_args (by ex_args)) (ex_apart (by decide)) (exSolve_rd (by decide) (exRat_ok rfl (by decide) (by decide))) (exSolve_rd (by decide) (exRat_ok rfl (by decide) (by decide))) (exSolve_rd (by decide) (exRat_ok rfl (by decide) (by decide))) exSolve_u3 (exSolve_f (exRat_ok rfl (by decide) (by decide)) rfl) exSolve_t3 exSolve_err3 l

/-- 3D, diffusion operator with constant reaction, red-black Gauss-Seidel: if flux and apply kernel take `X` to `G`, and `X` with its ghost values fulfils conditions of first order on pieces of the
boundary with the data in the ghost cells of the unknowns, then off-diagonal kernel, adjustment for each piece, diagonal kernel and its adjustment, followed by `l` pairs of sweeps for the right
hand side `G` bring the unknowns to within `rate^l E` of `X`. -/
theorem C84_rbgs_v2_3d {i0 j0 k0 i1 j1 k1 gcw rgcw sgcw fgcw color color2 : Int} {alpha beta neu : T} {dx : Nat → T} {u b0 b1 b2 f0 f1 f2 res st rhs o : Ptr} {β1 β2 : Nat → Backend} {β3 β4 : Backend} {βs : F.Side3 → Backend} {sides : List F.Side3} {m mX m1 m2 : Mem T} {B0 B1 B2 G U X : List Int → T} {E q : T}
    (hβ1 : ∀ n, ValidBackend (β1 n)) (hβ2 : ∀ n, ValidBackend (β2 n)) (hβ3 : ValidBackend β3) (hβ4 : ValidBackend β4) (hβs : ∀ s, ValidBackend (βs s))
    (hi : i0 ≤ i1) (hj : j0 ≤ j1) (hk : k0 ≤ k1) (hg : 1 ≤ gcw) (hrgcw : 0 ≤ rgcw) (hs : 0 ≤ sgcw) (hfg : 0 ≤ fgcw) (hc' : 0 ≤ color) (hc2 : 0 ≤ color2) (hcc : (color2 - color) % 2 = 1) (he : F.Elliptic3 i0 j0 k0 i1 j1 k1 alpha beta dx (fun _ => 1) B0 B1 B2)
    (hdx : ∀ d, d < 3 → 0 < dx d)
    (hq : ∀ i j k, i0 ≤ i → i ≤ i1 → j0 ≤ j → j ≤ j1 → k0 ≤ k → k ≤ k1 → (1 - q) * (2 * (beta / (dx 0 * dx 0) * (B0 [i, j, k] + B0 [i + 1, j, k]) + beta / (dx 1 * dx 1) * (B1 [j, k, i] + B1 [j + 1, k, i]) + beta / (dx 2 * dx 2) * (B2 [k, i, j] + B2 [k + 1, i, j])) + alpha * (fun _ => 1) [i, j, k]) ≤ alpha * (fun _ => 1) [i, j, k]) (h1 : q < 1)
    (hl : ∀ s ∈ sides, Layer3 i0 j0 k0 i1 j1 k1 0 s.i0 s.j0 s.k0 s.i1 s.j1 s.k1 s.dir s.side) (hout : ∀ s ∈ sides, s.Outside i0 j0 k0 i1 j1 k1) (hfi : ∀ s ∈ sides, F.First s.btype s.order)
    (hd : F.Disjoint (sides.map (F.Side3.piece dx B0 B1 B2))) (hF : F.Fulfils [(i0, i1), (j0, j1), (k0, k1)] 7 (F.row F.points3) (sides.map (F.Side3.piece dx B0 B1 B2)) U X)
    (h : F.Args mX [(F.cell3d u i0 j0 k0 i1 j1 k1 gcw), (F.face3d0 b0 i0 j0 k0 i1 j1 k1 0), (F.face3d1 b1 i0 j0 k0 i1 j1 k1 0), (F.face3d2 b2 i0 j0 k0 i1 j1 k1 0)] [(F.face3d0 f0 i0 j0 k0 i1 j1 k1 0), (F.face3d1 f1 i0 j0 k0 i1 j1 k1 0), (F.face3d2 f2 i0 j0 k0 i1 j1 k1 0), (F.cell3d res i0 j0 k0 i1 j1 k1 rgcw)])
    (hp : F.Apart (F.face3d0 f0 i0 j0 k0 i1 j1 k1 0) (F.face3d1 f1 i0 j0 k0 i1 j1 k1 0) ∧ F.Apart (F.face3d0 f0 i0 j0 k0 i1 j1 k1 0) (F.face3d2 f2 i0 j0 k0 i1 j1 k1 0) ∧ F.Apart (F.face3d1 f1 i0 j0 k0 i1 j1 k1 0) (F.face3d2 f2 i0 j0 k0 i1 j1 k1 0))
    (hr : F.Apart (F.cell3d res i0 j0 k0 i1 j1 k1 rgcw) (F.face3d0 f0 i0 j0 k0 i1 j1 k1 0) ∧ F.Apart (F.cell3d res i0 j0 k0 i1 j1 k1 rgcw) (F.face3d1 f1 i0 j0 k0 i1 j1 k1 0) ∧ F.Apart (F.cell3d res i0 j0 k0 i1 j1 k1 rgcw) (F.face3d2 f2 i0 j0 k0 i1 j1 k1 0)) (hB0X : F.Holds mX (F.face3d0 b0 i0 j0 k0 i1 j1 k1 0) B0) (hB1X : F.Holds mX (F.face3d1 b1 i0 j0 k0 i1 j1 k1 0) B1) (hB2X : F.Holds mX (F.face3d2 b2 i0 j0 k0 i1 j1 k1 0) B2) (hXX : F.Holds mX (F.cell3d u i0 j0 k0 i1 j1 k1 gcw) X)
    (c1 : Cuda.flux3d i0 j0 k0 i1 j1 k1 dx b0 b1 b2 gcw u f0 f1 f2 β1 mX = .ok m1) (c2 : Cuda.diffusionV2Apply3d i0 i1 j0 j1 k0 k1 alpha beta dx gcw u f0 f1 f2 rgcw res β2 m1 = .ok m2)
    (hR : ∀ p, F.InBounds [(i0, i1), (j0, j1), (k0, k1)] p → F.El m2 (F.cell3d res i0 j0 k0 i1 j1 k1 rgcw) p (G p))
    (h2 : F.Args m [(F.face3d0 b0 i0 j0 k0 i1 j1 k1 0), (F.face3d1 b1 i0 j0 k0 i1 j1 k1 0), (F.face3d2 b2 i0 j0 k0 i1 j1 k1 0), (F.cell3d u i0 j0 k0 i1 j1 k1 gcw), (F.cell3d rhs i0 j0 k0 i1 j1 k1 fgcw)] [(F.st3d st i0 j0 k0 i1 j1 k1 sgcw)]) (huf : F.Apart (F.cell3d u i0 j0 k0 i1 j1 k1 gcw) (F.cell3d rhs i0 j0 k0 i1 j1 k1 fgcw))
    (hB0 : F.Holds m (F.face3d0 b0 i0 j0 k0 i1 j1 k1 0) B0) (hB1 : F.Holds m (F.face3d1 b1 i0 j0 k0 i1 j1 k1 0) B1) (hB2 : F.Holds m (F.face3d2 b2 i0 j0 k0 i1 j1 k1 0) B2) (hU : F.Holds m (F.cell3d u i0 j0 k0 i1 j1 k1 gcw) U) (hG : F.Holds m (F.cell3d rhs i0 j0 k0 i1 j1 k1 fgcw) G) (ht : F.Rows m (F.offset0 o 3 7) F.points3)
    (hE : ∀ p, F.InBounds [(i0, i1), (j0, j1), (k0, k1)] p → |U p - X p| ≤ E) (l : Nat) :
    ∃ s1 s2 s3 m' U', Cuda.offdiag3d i0 j0 k0 i1 j1 k1 i0 j0 k0 i1 j1 k1 dx beta b0 b1 b2 sgcw st β3 m = .ok s1 ∧
      sides.foldlM (fun m s => Cuda.adjOffdiag3d i0 j0 k0 i1 j1 k1 s.i0 s.j0 s.k0 s.i1 s.j1 s.k1 s.dir s.side s.btype s.order dx 2 neu beta b0 b1 b2 sgcw st (βs s) m) s1 = .ok s2 ∧ Cuda.v2diag3d i0 j0 k0 i1 j1 k1 alpha sgcw st β4 s2 = .ok s3 ∧
      sides.foldlM (fun m s => Cuda.adjDiag3d i0 j0 k0 i1 j1 k1 s.i0 s.j0 s.k0 s.i1 s.j1 s.k1 s.dir s.side s.btype s.order dx beta b0 b1 b2 sgcw st (βs s) m) s3 = .ok s3 ∧
      F.times (fun m => F.cellrbgs3d i0 i1 j0 j1 k0 k1 color 7 o (i0 - sgcw) (i1 + sgcw) (j0 - sgcw) (j1 + sgcw) (k0 - sgcw) (k1 + sgcw) st (i0 - fgcw) (i1 + fgcw) (j0 - fgcw) (j1 + fgcw) (k0 - fgcw) (k1 + fgcw) rhs (i0 - gcw) (i1 + gcw) (j0 - gcw) (j1 + gcw) (k0 - gcw) (k1 + gcw) u m >>=
        F.cellrbgs3d i0 i1 j0 j1 k0 k1 color2 7 o (i0 - sgcw) (i1 + sgcw) (j0 - sgcw) (j1 + sgcw) (k0 - sgcw) (k1 + sgcw) st (i0 - fgcw) (i1 + fgcw) (j0 - fgcw) (j1 + fgcw) (k0 - fgcw) (k1 + fgcw) rhs (i0 - gcw) (i1 + gcw) (j0 - gcw) (j1 + gcw) (k0 - gcw) (k1 + gcw) u) l s3 = .ok m' ∧
      F.Holds m' (F.cell3d u i0 j0 k0 i1 j1 k1 gcw) U' ∧ F.Only [(F.st3d st i0 j0 k0 i1 j1 k1 sgcw), (F.cell3d u i0 j0 k0 i1 j1 k1 gcw)] m m' ∧
      (∀ p, ¬ F.InBounds [(i0, i1), (j0, j1), (k0, k1)] p → U' p = U p) ∧ ∀ p, F.InBounds [(i0, i1), (j0, j1), (k0, k1)] p → |U' p - X p| ≤ q ^ l * E := by
  obtain ⟨m1', m2', R, d1, d2, ER, hop⟩ := energy_v2_3 (alpha := alpha) (beta := beta) (dx := dx) hβ1 hβ2 hi hj hk hg hrgcw h hp hr hB0X hB1X hB2X hXX
  obtain rfl : m1 = m1' := Except.ok.inj (c1.symm.trans d1)
  obtain rfl : m2 = m2' := Except.ok.inj (c2.symm.trans d2)
  classical
  obtain ⟨Y, hY, hYD⟩ : ∃ Y : List Int → T, (∀ p, F.InBounds [(i0, i1), (j0, j1), (k0, k1)] p → Y p = X p) ∧ ∀ p, ¬ F.InBounds [(i0, i1), (j0, j1), (k0, k1)] p → Y p = U p :=
    ⟨fun p => if F.InBounds [(i0, i1), (j0, j1), (k0, k1)] p then X p else U p, fun p hp => if_pos hp, fun p hp => if_neg hp⟩
  obtain ⟨s1, s2, s3, S, a1, a2, a3, a4, ho, hp, hD, hX⟩ := bvp_v2_3 (alpha := alpha) (beta := beta) (neu := neu) (dx := dx) (o := o) (q := q) (X := X) (Y := Y) hβ3 hβ4 hβs hi hj hk hs hg hfg he hdx hq h1 hl hout hfi hd (h2.sub (by intro x hx; simp only [List.mem_cons, List.not_mem_nil, or_false] at hx ⊢; tauto) (fun _ e => e)) huf hB0 hB1 hB2 hU hG ht
    (fun i j k hi0 hi1 hj0 hj1 hk0 hk1 => by
      have hp : F.InBounds [(i0, i1), (j0, j1), (k0, k1)] [i, j, k] := F.inBounds3.2 ⟨i, j, k, rfl, by omega⟩
      rw [← hop i j k hi0 hi1 hj0 hj1 hk0 hk1]
      exact (ER _ hp).rd.symm.trans (hR _ hp).rd) hF hY hYD
  have hUY : ∀ p, ¬ F.InBounds [(i0, i1), (j0, j1), (k0, k1)] p → U p = Y p := fun p hp => (hYD p hp).symm
  have hE1 : ∀ p, F.InBounds [(i0, i1), (j0, j1), (k0, k1)] p → |U p - Y p| ≤ E * (fun _ => (1 : T)) p := fun p hp => by
    rw [hY p hp]
    simpa using hE p hp
  obtain ⟨m', U', t, w1, w2, w3, w4⟩ := C59_rbgs_3d hc' hc2 hcc hp rfl hD h1.le hX hUY hE1 l
  refine ⟨s1, s2, s3, m', U', a1, a2, a3, a4, t, w1, (ho.mono (by simp)).trans (w2.mono fun _ ha => List.mem_cons_of_mem _ ha), fun p hp => (w3 p hp).trans (hYD p hp), fun p hp => ?_⟩
  rw [← hY p hp]
  simpa using w4 p hp

example (l : Nat) : ∃ s1 s2 s3 m' U', Cuda.offdiag3d 0 1 2 1 2 3 0 1 2 1 2 3 exDx 2 ⟨2, 0⟩ ⟨3, 0⟩ ⟨4, 0⟩ 1 ⟨9, 0⟩ revBackend (exSolve 3) = .ok s1 ∧
      exSides3.foldlM (fun m s => Cuda.adjOffdiag3d 0 1 2 1 2 3 s.i0 s.j0 s.k0 s.i1 s.j1 s.k1 s.dir s.side s.btype s.order exDx 2 3 2 ⟨2, 0⟩ ⟨3, 0⟩ ⟨4, 0⟩ 1 ⟨9, 0⟩ revBackend m) s1 = .ok s2 ∧ Cuda.v2diag3d 0 1 2 1 2 3 3 1 ⟨9, 0⟩ seqBackend s2 = .ok s3 ∧
      exSides3.foldlM (fun m s => Cuda.adjDiag3d 0 1 2 1 2 3 s.i0 s.j0 s.k0 s.i1 s.j1 s.k1 s.dir s.side s.btype s.order exDx 2 ⟨2, 0⟩ ⟨3, 0⟩ ⟨4, 0⟩ 1 ⟨9, 0⟩ revBackend m) s3 = .ok s3 ∧
      F.times (fun μ => F.cellrbgs3d 0 1 1 2 2 3 0 7 ⟨23, 0⟩ (0 - 1) (1 + 1) (1 - 1) (2 + 1) (2 - 1) (3 + 1) ⟨9, 0⟩ (0 - 2) (1 + 2) (1 - 2) (2 + 2) (2 - 2) (3 + 2) ⟨10, 0⟩ (0 - 2) (1 + 2) (1 - 2) (2 + 2) (2 - 2) (3 + 2) ⟨1, 0⟩ μ >>=
        F.cellrbgs3d 0 1 1 2 2 3 1 7 ⟨23, 0⟩ (0 - 1) (1 + 1) (1 - 1) (2 + 1) (2 - 1) (3 + 1) ⟨9, 0⟩ (0 - 2) (1 + 2) (1 - 2) (2 + 2) (2 - 2) (3 + 2) ⟨10, 0⟩ (0 - 2) (1 + 2) (1 - 2) (2 + 2) (2 - 2) (3 + 2) ⟨1, 0⟩) l s3 = .ok m' ∧
      F.Holds m' (F.cell3d ⟨1, 0⟩ 0 1 2 1 2 3 2) U' ∧ F.Only [(F.st3d ⟨9, 0⟩ 0 1 2 1 2 3 1), (F.cell3d ⟨1, 0⟩ 0 1 2 1 2 3 2)] (exSolve 3) m' ∧
      (∀ p, ¬ F.InBounds [(0, 1), (1, 2), (2, 3)] p → U' p = exIns 3 5 p) ∧ ∀ p, F.InBounds [(0, 1), (1, 2), (2, 3)] p → |U' p - exIns 3 0 p| ≤ (99999 / 100000) ^ l * 5 := by
  obtain ⟨m1, m2, c1, c2, hR⟩ := exRun_v2_3
  exact C84_rbgs_v2_3d (T := Rat) (q := 99999 / 100000) (neu := 3) (βs := fun _ => revBackend) (fun _ => revBackend_ok) (fun _ => seqBackend_ok) revBackend_ok seqBackend_ok (fun _ => revBackend_ok) (by decide) (by decide) (by decide) (by decide) (by decide) (by decide) (by decide) (by decide) (by decide) (by decide) exEll_v2_3 exWidth exRate2_v2_3 (by norm_num) exSides3_layer exSides3_out exSides3_first exSides3_disjoint exSides3_fulfils (exDir_args (by ex_args)) (⟨apart_blk (by decide), apart_blk (by decide), apart_blk (by decide)⟩) ⟨apart_blk (by decide), apart_blk (by decide), apart_blk (by decide)⟩
    (exDir_rd (by decide) (exRat_ok rfl (by decide) (by decide))) (exDir_rd (by decide) (exRat_ok rfl (by decide) (by decide))) (exDir_rd (by decide) (exRat_ok rfl (by decide) (by decide))) exDir_u3 c1 c2 hR
    (exSolve_args (by ex_args)) (ex_apart (by decide)) (exSolve_rd (by decide) (exRat_ok rfl (by decide) (by decide))) (exSolve_rd (by decide) (exRat_ok rfl (by decide) (by decide))) (exSolve_rd (by decide) (exRat_ok rfl (by decide) (by decide))) exSolve_u3 (exSolve_f (exRat_ok rfl (by decide) (by decide)) rfl) exSolve_t3 exSolve_err3 l

end Verif
