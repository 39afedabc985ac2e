import Verif.Lemmas.BoundarySolve

/-
The kernels that assemble the coefficients and adjust them for pieces of the boundary leave the equations of the boundary value problem.
-/

set_option linter.unusedSectionVars false
set_option linter.unusedSimpArgs false

namespace Verif
open Spec

variable {T : Type} [Field T] [LinearOrder T] [IsStrictOrderedRing T]

theorem bvp_v1_1 {i0 i1 agcw sgcw gcw fgcw : Int} {alpha beta neu q : T} {dx : Nat → T} {a b0 st u rhs o : Ptr} {β3 β4 : Backend} {βs : F.Side1 → Backend} {sides : List F.Side1} {m : Mem T} {A B0 G U X Y : List Int → T}
    (hβ3 : ValidBackend β3) (hβ4 : ValidBackend β4) (hβs : ∀ s, ValidBackend (βs s)) (hi : i0 ≤ i1) (hagcw : 0 ≤ agcw) (hs : 0 ≤ sgcw) (hg : 1 ≤ gcw) (hfg : 0 ≤ fgcw) (he : F.Elliptic1 i0 i1 alpha beta dx A B0) (hdx : ∀ d, d < 1 → 0 < dx d)
    (hq : ∀ i, i0 ≤ i → i ≤ i1 → (1 - q) * (2 * (beta / (dx 0 * dx 0) * (B0 [i] + B0 [i + 1])) + alpha * A [i]) ≤ alpha * A [i]) (h1 : q < 1)
    (hl : ∀ s ∈ sides, Layer1 i0 i1 0 s.i0 s.i1 s.side) (hout : ∀ s ∈ sides, s.Outside i0 i1) (hfi : ∀ s ∈ sides, F.First s.btype s.order) (hd : F.Disjoint (sides.map (F.Side1.piece dx B0)))
    (h : F.Args m [(F.cell1d a i0 i1 agcw), (F.face1d b0 i0 i1 0), (F.cell1d u i0 i1 gcw), (F.cell1d rhs i0 i1 fgcw)] [(F.st1d st i0 i1 sgcw)]) (huf : F.Apart (F.cell1d u i0 i1 gcw) (F.cell1d rhs i0 i1 fgcw))
    (hA : F.Holds m (F.cell1d a i0 i1 agcw) A) (hB0 : F.Holds m (F.face1d b0 i0 i1 0) B0) (hU : F.Holds m (F.cell1d u i0 i1 gcw) U) (hG : F.Holds m (F.cell1d rhs i0 i1 fgcw) G) (ht : F.Rows m (F.offset0 o 1 3) F.points1)
    (hX : ∀ i, i0 ≤ i → i ≤ i1 → F.op1 alpha beta dx A B0 X i = G [i]) (hF : F.Fulfils [(i0, i1)] 3 (F.row F.points1) (sides.map (F.Side1.piece dx B0)) U X)
    (hY : ∀ p, F.InBounds [(i0, i1)] p → Y p = X p) (hD : ∀ p, ¬ F.InBounds [(i0, i1)] p → Y p = U p) :
    ∃ s1 s2 s3, ∃ S : List Int → T, Cuda.offdiag1d i0 i1 i0 i1 dx beta b0 sgcw st β3 m = .ok s1 ∧ sides.foldlM (fun m s => Cuda.adjOffdiag1d i0 i1 s.i0 s.i1 s.side s.btype s.order dx 2 neu beta b0 sgcw st (βs s) m) s1 = .ok s2 ∧ Cuda.v1diag1d i0 i1 (i0 - agcw) (i1 + agcw) alpha a sgcw st β4 s2 = .ok s3 ∧
      sides.foldlM (fun m s => Cuda.adjDiag1d i0 i1 s.i0 s.i1 s.side s.btype s.order dx beta b0 sgcw st (βs s) m) s3 = .ok s3 ∧ F.Only [(F.st1d st i0 i1 sgcw)] m s3 ∧
      F.Problem s3 [(i0, i1)] 3 (F.offset0 o 1 3) (F.sm1d st 3 (i0 - sgcw) (i1 + sgcw)) (F.box1d rhs (i0 - fgcw) (i1 + fgcw)) (F.box1d u (i0 - gcw) (i1 + gcw)) (F.row F.points1) S G U ∧
      F.Dominant [(i0, i1)] 3 (F.row F.points1) q (fun _ => 1) S ∧ ∀ p, F.InBounds [(i0, i1)] p → F.Eqn 3 (F.row F.points1) S G Y p := by
  obtain ⟨s1, s2u, S, a1, a2, ho, hp, hc⟩ := prob_v1_1 (alpha := alpha) (beta := beta) (dx := dx) (o := o) hβ3 hβ4 hi hagcw hs hg hfg h huf hA hB0 hU hG ht
  have hb : F.Args m [(F.face1d b0 i0 i1 0)] [(F.st1d st i0 i1 sgcw)] := h.sub (by simp) (by simp)
  have hne : (F.st1d st i0 i1 sgcw).dims ≠ [] := by simp [F.st1d]
  obtain ⟨s1', d1, e1⟩ := C36_offdiag_1d (dx := dx) (beta := beta) hβ3 hi ⟨le_rfl, le_rfl⟩ hs hb
  obtain ⟨s1'', q1, -, K1, -⟩ := offdiag1_run (dx := dx) (beta := beta) hi hs ⟨le_rfl, le_rfl⟩ hb
  obtain rfl : s1'' = s1' := Except.ok.inj (q1.symm.trans e1)
  obtain rfl : s1 = s1'' := Except.ok.inj (a1.symm.trans d1)
  obtain ⟨s2, f2, o2, ⟨g2, w2⟩, v2⟩ := F.fold_adj (run := fun s m => Cuda.adjOffdiag1d i0 i1 s.i0 s.i1 s.side s.btype s.order dx 2 neu beta b0 sgcw st (βs s) m) (pc := (F.Side1.piece dx B0)) (a := (F.st1d st i0 i1 sgcw)) hne
    (Good := fun x => F.Args x [(F.cell1d a i0 i1 agcw), (F.face1d b0 i0 i1 0), (F.cell1d u i0 i1 gcw), (F.cell1d rhs i0 i1 fgcw)] [(F.st1d st i0 i1 sgcw)] ∧ F.Holds x (F.face1d b0 i0 i1 0) B0) (l := sides) (fun s hsm x gx => by
      obtain ⟨gx, gB0⟩ := gx
      have hfo := hfi s hsm
      have hll := hl s hsm
      have h' := adjoff1_does (dx := dx) (dir_factor := 2) (neu_factor := neu) (beta := beta) (btype := s.btype) (exOrder := s.order) (st_ := st) (b0_ := b0) (hβs s) hi hs hll (by
        unfold F.First at hfo
        skip
        rcases hfo with ⟨h1, h2⟩ | h1 | ⟨h1, h2⟩
        · exact .inl ⟨h1, h2, rfl⟩
        · exact .inr (.inr (.inl h1))
        · exact .inr (.inr (.inr ⟨h1, h2⟩))) (gx.sub (by simp) (by simp))
      refine ⟨_, h'.congr (fun _ => Iff.rfl) (fun c hc => ?_) (fun c hc => ?_)⟩
      · show facU _ _ _ _ = facU _ _ _ _
        rw [onFace1_holds hll hc gB0]
        rfl
      · unfold F.First at hfo
        unfold facV
        rcases hfo with ⟨h1, h2⟩ | h1 | ⟨h1, h2⟩ <;> simp [h1, *])
    (fun x x' L u v A B hA hx => ⟨hA.args hne hx.1, (hx.2).only hA.only (by simp only [List.mem_singleton, forall_eq]; exact h.apart _ (by simp) _ (by simp))⟩)
    s1 ⟨K1.args h, hB0.only K1.only (by simp only [List.mem_singleton, forall_eq]; exact h.apart _ (by simp) _ (by simp))⟩
  have ea : (F.cell1d a (i0 - agcw) (i1 + agcw) 0) = (F.cell1d a i0 i1 agcw) := by simp [F.cell1d]
  have hAx : ∀ x, F.Only [(F.st1d st i0 i1 sgcw)] m x → ∀ c, F.InBounds [(i0, i1)] c → alpha * F.rd x (F.cell1d a (i0 - agcw) (i1 + agcw) 0) c = alpha * A c := fun x ox c hc => by
    have hin := in_cell1 (a_ := a) hc (show i0 - agcw ≤ i0 ∧ i1 ≤ i1 + agcw by omega)
    rw [F.rd_only ox (ea ▸ h.apart _ (by simp) (F.cell1d a i0 i1 agcw) (by simp)) hin, ea, (hA c (ea ▸ hin)).rd]
  have g1 := K1.args h
  obtain ⟨s2u', a2', K2, D1⟩ := diag_v1_1 (alpha := alpha) hβ4 hi hs ⟨by omega, by omega⟩ (show F.Args s1 [(F.cell1d a (i0 - agcw) (i1 + agcw) 0)] [(F.st1d st i0 i1 sgcw)] by rw [ea]; exact g1.sub (by simp) (by simp))
  obtain rfl : s2u = s2u' := Except.ok.inj (a2.symm.trans a2')
  obtain ⟨s3, a3, K3, D3⟩ := diag_v1_1 (alpha := alpha) hβ4 hi hs ⟨by omega, by omega⟩ (show F.Args s2 [(F.cell1d a (i0 - agcw) (i1 + agcw) 0)] [(F.st1d st i0 i1 sgcw)] by rw [ea]; exact g2.sub (by simp) (by simp))
  have D1 : F.Diagonal s1 s2u (F.st1d st i0 i1 sgcw) (3 - 1) (F.InBounds [(i0, i1)]) (fun c => alpha * A c) := ⟨fun c hc => by rw [D1.zero c hc, hAx s1 K1.only c hc], D1.other⟩
  have D3 : F.Diagonal s2 s3 (F.st1d st i0 i1 sgcw) (3 - 1) (F.InBounds [(i0, i1)]) (fun c => alpha * A c) := ⟨fun c hc => by rw [D3.zero c hc, hAx s2 (K1.only.trans o2) c hc], D3.other⟩
  have o3 := (K1.only.trans o2).trans K3.only
  obtain ⟨r1, r2, r3⟩ := F.bvp_core (q := q) (X := X) (Y := Y) (a := (F.st1d st i0 i1 sgcw)) hp ho o3 (K3.ok (g2.ok _ (by simp))) ⟨h.apart _ (by simp) (F.cell1d rhs i0 i1 fgcw) (by simp), h.apart _ (by simp) (F.cell1d u i0 i1 gcw) (by simp)⟩ D1 D3 v2
    (fun p hp => by
      rw [F.inBounds1] at hp
      obtain ⟨i, rfl, hp⟩ := hp
      exact F.shift1_0)
    (fun p hp => by
      rw [F.inBounds1] at hp
      obtain ⟨i, rfl, hp⟩ := hp
      rw [F.eqn1 (hc i (by omega) (by omega))]
      exact hX i (by omega) (by omega))
    (fun p hp e h0 h1 => by
      rw [F.inBounds1] at hp
      obtain ⟨i, rfl, hp⟩ := hp
      obtain ⟨-, g1, g2⟩ := (hc i (by omega) (by omega)).sign he (by omega) (by omega)
      have : e = 1 ∨ e = 2 := by omega
      rcases this with rfl | rfl
      · exact g1.le
      · exact g2.le)
    (fun p hp => by
      rw [F.inBounds1] at hp
      obtain ⟨i, rfl, hp⟩ := hp
      have d0 : 0 < beta / (dx 0 * dx 0) * (B0 [i] + B0 [i + 1]) := mul_pos (div_pos he.beta (mul_self_pos.2 he.dx0)) (add_pos (he.face0 i (by omega) (by omega)) (he.face0 (i + 1) (by omega) (by omega)))
      have k0 := he.cell i (by omega) (by omega)
      have kq := hq i (by omega) (by omega)
      have h3 : 0 < (1 - q) * (2 * (beta / (dx 0 * dx 0) * (B0 [i] + B0 [i + 1]))) := mul_pos (by linarith) (by linarith)
      have h4 : 0 ≤ (1 - q) * (alpha * A [i]) := mul_nonneg (by linarith) k0
      rw [mul_add] at kq
      exact lt_of_lt_of_le (by linarith) kq)
    (fun p hp => by
      rw [F.inBounds1] at hp
      obtain ⟨i, rfl, hp⟩ := hp
      have kq := hq i (by omega) (by omega)
      have c := hc i (by omega) (by omega)
      rw [F.ring1, c.c1, c.c2]
      refine le_trans (le_of_eq ?_) kq
      ring)
    hd hF (fun k hk => by
      obtain ⟨s, hsm, rfl⟩ := List.mem_map.1 hk
      have hll := hl s hsm
      have hoo := hout s hsm
      refine ⟨hfi s hsm, ?_, fun c hc => ?_⟩
      · exact hdx 0 (by decide)
      · refine ⟨layer1_in hll hc, ?_, ?_⟩
        · exact piece_out1 hll hoo hc
        · obtain rfl : c = [s.i0 - 2 * s.side + 1] := hc
          have := hll.x
          have := hll.hside
          exact (he.face0 _ (by omega) (by omega)).le)
    hY hD
  refine ⟨s1, s2, s3, _, a1, f2, a3, ?_, o3, r1, r2, r3⟩
  have hw : ∀ l' : List F.Side1, (∀ s ∈ l', s ∈ sides) → l'.foldlM (fun m s => Cuda.adjDiag1d i0 i1 s.i0 s.i1 s.side s.btype s.order dx beta b0 sgcw st (βs s) m) s3 = .ok s3 := by
    intro l'
    induction l' with
    | nil => exact fun _ => rfl
    | cons s l' ih =>
      intro hs'
      have hfo := hfi s (hs' s (by simp))
      unfold F.First at hfo
      rw [List.foldlM_cons, adjdiag1_skip hi hs (hl s (hs' s (by simp))) (by omega) hb]
      exact ih fun s hs'' => hs' s (List.mem_cons_of_mem _ hs'')
  exact hw sides fun _ h => h

theorem bvp_v2_1 {i0 i1 sgcw gcw fgcw : Int} {alpha beta neu q : T} {dx : Nat → T} {b0 st u rhs o : Ptr} {β3 β4 : Backend} {βs : F.Side1 → Backend} {sides : List F.Side1} {m : Mem T} {B0 G U X Y : List Int → T}
    (hβ3 : ValidBackend β3) (hβ4 : ValidBackend β4) (hβs : ∀ s, ValidBackend (βs s)) (hi : i0 ≤ i1) (hs : 0 ≤ sgcw) (hg : 1 ≤ gcw) (hfg : 0 ≤ fgcw) (he : F.Elliptic1 i0 i1 alpha beta dx (fun _ => 1) B0) (hdx : ∀ d, d < 1 → 0 < dx d)
    (hq : ∀ i, i0 ≤ i → i ≤ i1 → (1 - q) * (2 * (beta / (dx 0 * dx 0) * (B0 [i] + B0 [i + 1])) + alpha * (fun _ => 1) [i]) ≤ alpha * (fun _ => 1) [i]) (h1 : q < 1)
    (hl : ∀ s ∈ sides, Layer1 i0 i1 0 s.i0 s.i1 s.side) (hout : ∀ s ∈ sides, s.Outside i0 i1) (hfi : ∀ s ∈ sides, F.First s.btype s.order) (hd : F.Disjoint (sides.map (F.Side1.piece dx B0)))
    (h : F.Args m [(F.face1d b0 i0 i1 0), (F.cell1d u i0 i1 gcw), (F.cell1d rhs i0 i1 fgcw)] [(F.st1d st i0 i1 sgcw)]) (huf : F.Apart (F.cell1d u i0 i1 gcw) (F.cell1d rhs i0 i1 fgcw))
    (hB0 : F.Holds m (F.face1d b0 i0 i1 0) B0) (hU : F.Holds m (F.cell1d u i0 i1 gcw) U) (hG : F.Holds m (F.cell1d rhs i0 i1 fgcw) G) (ht : F.Rows m (F.offset0 o 1 3) F.points1)
    (hX : ∀ i, i0 ≤ i → i ≤ i1 → F.op1 alpha beta dx (fun _ => 1) B0 X i = G [i]) (hF : F.Fulfils [(i0, i1)] 3 (F.row F.points1) (sides.map (F.Side1.piece dx B0)) U X)
    (hY : ∀ p, F.InBounds [(i0, i1)] p → Y p = X p) (hD : ∀ p, ¬ F.InBounds [(i0, i1)] p → Y p = U p) :
    ∃ s1 s2 s3, ∃ S : List Int → T, Cuda.offdiag1d i0 i1 i0 i1 dx beta b0 sgcw st β3 m = .ok s1 ∧ sides.foldlM (fun m s => Cuda.adjOffdiag1d i0 i1 s.i0 s.i1 s.side s.btype s.order dx 2 neu beta b0 sgcw st (βs s) m) s1 = .ok s2 ∧ Cuda.v2diag1d i0 i1 alpha sgcw st β4 s2 = .ok s3 ∧
      sides.foldlM (fun m s => Cuda.adjDiag1d i0 i1 s.i0 s.i1 s.side s.btype s.order dx beta b0 sgcw st (βs s) m) s3 = .ok s3 ∧ F.Only [(F.st1d st i0 i1 sgcw)] m s3 ∧
      F.Problem s3 [(i0, i1)] 3 (F.offset0 o 1 3) (F.sm1d st 3 (i0 - sgcw) (i1 + sgcw)) (F.box1d rhs (i0 - fgcw) (i1 + fgcw)) (F.box1d u (i0 - gcw) (i1 + gcw)) (F.row F.points1) S G U ∧
      F.Dominant [(i0, i1)] 3 (F.row F.points1) q (fun _ => 1) S ∧ ∀ p, F.InBounds [(i0, i1)] p → F.Eqn 3 (F.row F.points1) S G Y p := by
  obtain ⟨s1, s2u, S, a1, a2, ho, hp, hc⟩ := prob_v2_1 (alpha := alpha) (beta := beta) (dx := dx) (o := o) hβ3 hβ4 hi hs hg hfg h huf hB0 hU hG ht
  have hb : F.Args m [(F.face1d b0 i0 i1 0)] [(F.st1d st i0 i1 sgcw)] := h.sub (by simp) (by simp)
  have hne : (F.st1d st i0 i1 sgcw).dims ≠ [] := by simp [F.st1d]
  obtain ⟨s1', d1, e1⟩ := C36_offdiag_1d (dx := dx) (beta := beta) hβ3 hi ⟨le_rfl, le_rfl⟩ hs hb
  obtain ⟨s1'', q1, -, K1, -⟩ := offdiag1_run (dx := dx) (beta := beta) hi hs ⟨le_rfl, le_rfl⟩ hb
  obtain rfl : s1'' = s1' := Except.ok.inj (q1.symm.trans e1)
  obtain rfl : s1 = s1'' := Except.ok.inj (a1.symm.trans d1)
  obtain ⟨s2, f2, o2, ⟨g2, w2⟩, v2⟩ := F.fold_adj (run := fun s m => Cuda.adjOffdiag1d i0 i1 s.i0 s.i1 s.side s.btype s.order dx 2 neu beta b0 sgcw st (βs s) m) (pc := (F.Side1.piece dx B0)) (a := (F.st1d st i0 i1 sgcw)) hne
    (Good := fun x => F.Args x [(F.face1d b0 i0 i1 0), (F.cell1d u i0 i1 gcw), (F.cell1d rhs i0 i1 fgcw)] [(F.st1d st i0 i1 sgcw)] ∧ F.Holds x (F.face1d b0 i0 i1 0) B0) (l := sides) (fun s hsm x gx => by
      obtain ⟨gx, gB0⟩ := gx
      have hfo := hfi s hsm
      have hll := hl s hsm
      have h' := adjoff1_does (dx := dx) (dir_factor := 2) (neu_factor := neu) (beta := beta) (btype := s.btype) (exOrder := s.order) (st_ := st) (b0_ := b0) (hβs s) hi hs hll (by
        unfold F.First at hfo
        skip
        rcases hfo with ⟨h1, h2⟩ | h1 | ⟨h1, h2⟩
        · exact .inl ⟨h1, h2, rfl⟩
        · exact .inr (.inr (.inl h1))
        · exact .inr (.inr (.inr ⟨h1, h2⟩))) (gx.sub (by simp) (by simp))
      refine ⟨_, h'.congr (fun _ => Iff.rfl) (fun c hc => ?_) (fun c hc => ?_)⟩
      · show facU _ _ _ _ = facU _ _ _ _
        rw [onFace1_holds hll hc gB0]
        rfl
      · unfold F.First at hfo
        unfold facV
        rcases hfo with ⟨h1, h2⟩ | h1 | ⟨h1, h2⟩ <;> simp [h1, *])
    (fun x x' L u v A B hA hx => ⟨hA.args hne hx.1, (hx.2).only hA.only (by simp only [List.mem_singleton, forall_eq]; exact h.apart _ (by simp) _ (by simp))⟩)
    s1 ⟨K1.args h, hB0.only K1.only (by simp only [List.mem_singleton, forall_eq]; exact h.apart _ (by simp) _ (by simp))⟩
  have g1 := K1.args h
  obtain ⟨s2u', a2', K2, D1⟩ := diag_v2_1 (alpha := alpha) hβ4 hi hs (g1.sub (by simp) (fun _ e => e))
  obtain rfl : s2u = s2u' := Except.ok.inj (a2.symm.trans a2')
  obtain ⟨s3, a3, K3, D3⟩ := diag_v2_1 (alpha := alpha) hβ4 hi hs (g2.sub (by simp) (fun _ e => e))
  have D1 : F.Diagonal s1 s2u (F.st1d st i0 i1 sgcw) (3 - 1) (F.InBounds [(i0, i1)]) (fun c => alpha * (fun _ => 1) c) := ⟨fun c hc => by rw [D1.zero c hc, mul_one], D1.other⟩
  have D3 : F.Diagonal s2 s3 (F.st1d st i0 i1 sgcw) (3 - 1) (F.InBounds [(i0, i1)]) (fun c => alpha * (fun _ => 1) c) := ⟨fun c hc => by rw [D3.zero c hc, mul_one], D3.other⟩
  have o3 := (K1.only.trans o2).trans K3.only
  obtain ⟨r1, r2, r3⟩ := F.bvp_core (q := q) (X := X) (Y := Y) (a := (F.st1d st i0 i1 sgcw)) hp ho o3 (K3.ok (g2.ok _ (by simp))) ⟨h.apart _ (by simp) (F.cell1d rhs i0 i1 fgcw) (by simp), h.apart _ (by simp) (F.cell1d u i0 i1 gcw) (by simp)⟩ D1 D3 v2
    (fun p hp => by
      rw [F.inBounds1] at hp
      obtain ⟨i, rfl, hp⟩ := hp
      exact F.shift1_0)
    (fun p hp => by
      rw [F.inBounds1] at hp
      obtain ⟨i, rfl, hp⟩ := hp
      rw [F.eqn1 (hc i (by omega) (by omega))]
      exact hX i (by omega) (by omega))
    (fun p hp e h0 h1 => by
      rw [F.inBounds1] at hp
      obtain ⟨i, rfl, hp⟩ := hp
      obtain ⟨-, g1, g2⟩ := (hc i (by omega) (by omega)).sign he (by omega) (by omega)
      have : e = 1 ∨ e = 2 := by omega
      rcases this with rfl | rfl
      · exact g1.le
      · exact g2.le)
    (fun p hp => by
      rw [F.inBounds1] at hp
      obtain ⟨i, rfl, hp⟩ := hp
      have d0 : 0 < beta / (dx 0 * dx 0) * (B0 [i] + B0 [i + 1]) := mul_pos (div_pos he.beta (mul_self_pos.2 he.dx0)) (add_pos (he.face0 i (by omega) (by omega)) (he.face0 (i + 1) (by omega) (by omega)))
      have k0 := he.cell i (by omega) (by omega)
      have kq := hq i (by omega) (by omega)
      have h3 : 0 < (1 - q) * (2 * (beta / (dx 0 * dx 0) * (B0 [i] + B0 [i + 1]))) := mul_pos (by linarith) (by linarith)
      have h4 : 0 ≤ (1 - q) * (alpha * (fun _ => 1) [i]) := mul_nonneg (by linarith) k0
      rw [mul_add] at kq
      exact lt_of_lt_of_le (by linarith) kq)
    (fun p hp => by
      rw [F.inBounds1] at hp
      obtain ⟨i, rfl, hp⟩ := hp
      have kq := hq i (by omega) (by omega)
      have c := hc i (by omega) (by omega)
      rw [F.ring1, c.c1, c.c2]
      refine le_trans (le_of_eq ?_) kq
      ring)
    hd hF (fun k hk => by
      obtain ⟨s, hsm, rfl⟩ := List.mem_map.1 hk
      have hll := hl s hsm
      have hoo := hout s hsm
      refine ⟨hfi s hsm, ?_, fun c hc => ?_⟩
      · exact hdx 0 (by decide)
      · refine ⟨layer1_in hll hc, ?_, ?_⟩
        · exact piece_out1 hll hoo hc
        · obtain rfl : c = [s.i0 - 2 * s.side + 1] := hc
          have := hll.x
          have := hll.hside
          exact (he.face0 _ (by omega) (by omega)).le)
    hY hD
  refine ⟨s1, s2, s3, _, a1, f2, a3, ?_, o3, r1, r2, r3⟩
  have hw : ∀ l' : List F.Side1, (∀ s ∈ l', s ∈ sides) → l'.foldlM (fun m s => Cuda.adjDiag1d i0 i1 s.i0 s.i1 s.side s.btype s.order dx beta b0 sgcw st (βs s) m) s3 = .ok s3 := by
    intro l'
    induction l' with
    | nil => exact fun _ => rfl
    | cons s l' ih =>
      intro hs'
      have hfo := hfi s (hs' s (by simp))
      unfold F.First at hfo
      rw [List.foldlM_cons, adjdiag1_skip hi hs (hl s (hs' s (by simp))) (by omega) hb]
      exact ih fun s hs'' => hs' s (List.mem_cons_of_mem _ hs'')
  exact hw sides fun _ h => h

theorem bvp_v1_2 {i0 j0 i1 j1 agcw sgcw gcw fgcw : Int} {alpha beta neu q : T} {dx : Nat → T} {a b0 b1 st u rhs o : Ptr} {β3 β4 : Backend} {βs : F.Side2 → Backend} {sides : List F.Side2} {m : Mem T} {A B0 B1 G U X Y : List Int → T}
    (hβ3 : ValidBackend β3) (hβ4 : ValidBackend β4) (hβs : ∀ s, ValidBackend (βs s)) (hi : i0 ≤ i1) (hj : j0 ≤ j1) (hagcw : 0 ≤ agcw) (hs : 0 ≤ sgcw) (hg : 1 ≤ gcw) (hfg : 0 ≤ fgcw) (he : F.Elliptic2 i0 j0 i1 j1 alpha beta dx A B0 B1) (hdx : ∀ d, d < 2 → 0 < dx d)
    (hq : ∀ i j, i0 ≤ i → i ≤ i1 → j0 ≤ j → j ≤ j1 → (1 - q) * (2 * (beta / (dx 0 * dx 0) * (B0 [i, j] + B0 [i + 1, j]) + beta / (dx 1 * dx 1) * (B1 [j, i] + B1 [j + 1, i])) + alpha * A [i, j]) ≤ alpha * A [i, j]) (h1 : q < 1)
    (hl : ∀ s ∈ sides, Layer2 i0 j0 i1 j1 0 s.i0 s.j0 s.i1 s.j1 s.dir s.side) (hout : ∀ s ∈ sides, s.Outside i0 j0 i1 j1) (hfi : ∀ s ∈ sides, F.First s.btype s.order) (hrob : ∀ s ∈ sides, s.btype = 4 → s.dir = 0) (hd : F.Disjoint (sides.map (F.Side2.piece dx B0 B1)))
    (h : F.Args m [(F.cell2d a i0 j0 i1 j1 agcw), (F.face2d0 b0 i0 j0 i1 j1 0), (F.face2d1 b1 i0 j0 i1 j1 0), (F.cell2d u i0 j0 i1 j1 gcw), (F.cell2d rhs i0 j0 i1 j1 fgcw)] [(F.st2d st i0 j0 i1 j1 sgcw)]) (huf : F.Apart (F.cell2d u i0 j0 i1 j1 gcw) (F.cell2d rhs i0 j0 i1 j1 fgcw))
    (hA : F.Holds m (F.cell2d a i0 j0 i1 j1 agcw) A) (hB0 : F.Holds m (F.face2d0 b0 i0 j0 i1 j1 0) B0) (hB1 : F.Holds m (F.face2d1 b1 i0 j0 i1 j1 0) B1) (hU : F.Holds m (F.cell2d u i0 j0 i1 j1 gcw) U) (hG : F.Holds m (F.cell2d rhs i0 j0 i1 j1 fgcw) G) (ht : F.Rows m (F.offset0 o 2 5) F.points2)
    (hX : ∀ i j, i0 ≤ i → i ≤ i1 → j0 ≤ j → j ≤ j1 → F.op2 alpha beta dx A B0 B1 X i j = G [i, j]) (hF : F.Fulfils [(i0, i1), (j0, j1)] 5 (F.row F.points2) (sides.map (F.Side2.piece dx B0 B1)) U X)
    (hY : ∀ p, F.InBounds [(i0, i1), (j0, j1)] p → Y p = X p) (hD : ∀ p, ¬ F.InBounds [(i0, i1), (j0, j1)] p → Y p = U p) :
    ∃ s1 s2 s3, ∃ S : List Int → T, Cuda.offdiag2d i0 j0 i1 j1 i0 j0 i1 j1 dx beta b0 b1 sgcw st β3 m = .ok s1 ∧ sides.foldlM (fun m s => Cuda.adjOffdiag2d i0 j0 i1 j1 s.i0 s.j0 s.i1 s.j1 s.dir s.side s.btype s.order dx 2 neu beta b0 b1 sgcw st (βs s) m) s1 = .ok s2 ∧ Cuda.v1diag2d i0 j0 i1 j1 (i0 - agcw) (j0 - agcw) (i1 + agcw) (j1 + agcw) alpha a sgcw st β4 s2 = .ok s3 ∧
      sides.foldlM (fun m s => Cuda.adjDiag2d i0 j0 i1 j1 s.i0 s.j0 s.i1 s.j1 s.dir s.side s.btype s.order dx beta b0 b1 sgcw st (βs s) m) s3 = .ok s3 ∧ F.Only [(F.st2d st i0 j0 i1 j1 sgcw)] m s3 ∧
      F.Problem s3 [(i0, i1), (j0, j1)] 5 (F.offset0 o 2 5) (F.sm2d st 5 (i0 - sgcw) (j0 - sgcw) (i1 + sgcw) (j1 + sgcw)) (F.box2d rhs (i0 - fgcw) (j0 - fgcw) (i1 + fgcw) (j1 + fgcw)) (F.box2d u (i0 - gcw) (j0 - gcw) (i1 + gcw) (j1 + gcw)) (F.row F.points2) S G U ∧
      F.Dominant [(i0, i1), (j0, j1)] 5 (F.row F.points2) q (fun _ => 1) S ∧ ∀ p, F.InBounds [(i0, i1), (j0, j1)] p → F.Eqn 5 (F.row F.points2) S G Y p := by
  obtain ⟨s1, s2u, S, a1, a2, ho, hp, hc⟩ := prob_v1_2 (alpha := alpha) (beta := beta) (dx := dx) (o := o) hβ3 hβ4 hi hj hagcw hs hg hfg h huf hA hB0 hB1 hU hG ht
  have hb : F.Args m [(F.face2d0 b0 i0 j0 i1 j1 0), (F.face2d1 b1 i0 j0 i1 j1 0)] [(F.st2d st i0 j0 i1 j1 sgcw)] := h.sub (by simp) (by simp)
  have hne : (F.st2d st i0 j0 i1 j1 sgcw).dims ≠ [] := by simp [F.st2d]
  obtain ⟨s1', d1, e1⟩ := C36_offdiag_2d (dx := dx) (beta := beta) hβ3 hi hj ⟨le_rfl, le_rfl⟩ ⟨le_rfl, le_rfl⟩ hs hb
  obtain ⟨s1'', q1, -, K1, -⟩ := offdiag2_run (dx := dx) (beta := beta) hi hj hs ⟨le_rfl, le_rfl⟩ ⟨le_rfl, le_rfl⟩ hb
  obtain rfl : s1'' = s1' := Except.ok.inj (q1.symm.trans e1)
  obtain rfl : s1 = s1'' := Except.ok.inj (a1.symm.trans d1)
  obtain ⟨s2, f2, o2, ⟨g2, w2⟩, v2⟩ := F.fold_adj (run := fun s m => Cuda.adjOffdiag2d i0 j0 i1 j1 s.i0 s.j0 s.i1 s.j1 s.dir s.side s.btype s.order dx 2 neu beta b0 b1 sgcw st (βs s) m) (pc := (F.Side2.piece dx B0 B1)) (a := (F.st2d st i0 j0 i1 j1 sgcw)) hne
    (Good := fun x => F.Args x [(F.cell2d a i0 j0 i1 j1 agcw), (F.face2d0 b0 i0 j0 i1 j1 0), (F.face2d1 b1 i0 j0 i1 j1 0), (F.cell2d u i0 j0 i1 j1 gcw), (F.cell2d rhs i0 j0 i1 j1 fgcw)] [(F.st2d st i0 j0 i1 j1 sgcw)] ∧ F.Holds x (F.face2d0 b0 i0 j0 i1 j1 0) B0 ∧ F.Holds x (F.face2d1 b1 i0 j0 i1 j1 0) B1) (l := sides) (fun s hsm x gx => by
      obtain ⟨gx, gB0, gB1⟩ := gx
      have hfo := hfi s hsm
      have hll := hl s hsm
      have h' := adjoff2_does (dx := dx) (dir_factor := 2) (neu_factor := neu) (beta := beta) (btype := s.btype) (exOrder := s.order) (st_ := st) (b0_ := b0) (b1_ := b1) (hβs s) hi hj hs hll (by
        unfold F.First at hfo
        have hr := hrob s hsm
        rcases hfo with ⟨h1, h2⟩ | h1 | ⟨h1, h2⟩
        · exact .inl ⟨h1, h2, rfl⟩
        · exact .inr (.inr (.inl h1))
        · exact .inr (.inr (.inr ⟨h1, h2, hr h1⟩))) (gx.sub (by simp) (by simp))
      refine ⟨_, h'.congr (fun _ => Iff.rfl) (fun c hc => ?_) (fun c hc => ?_)⟩
      · show facU _ _ _ _ = facU _ _ _ _
        rw [onFace2_holds hll hc gB0 gB1]
        rfl
      · unfold F.First at hfo
        unfold facV
        rcases hfo with ⟨h1, h2⟩ | h1 | ⟨h1, h2⟩ <;> simp [h1, *])
    (fun x x' L u v A B hA hx => ⟨hA.args hne hx.1, (hx.2.1).only hA.only (by simp only [List.mem_singleton, forall_eq]; exact h.apart _ (by simp) _ (by simp)), (hx.2.2).only hA.only (by simp only [List.mem_singleton, forall_eq]; exact h.apart _ (by simp) _ (by simp))⟩)
    s1 ⟨K1.args h, hB0.only K1.only (by simp only [List.mem_singleton, forall_eq]; exact h.apart _ (by simp) _ (by simp)), hB1.only K1.only (by simp only [List.mem_singleton, forall_eq]; exact h.apart _ (by simp) _ (by simp))⟩
  have ea : (F.cell2d a (i0 - agcw) (j0 - agcw) (i1 + agcw) (j1 + agcw) 0) = (F.cell2d a i0 j0 i1 j1 agcw) := by simp [F.cell2d]
  have hAx : ∀ x, F.Only [(F.st2d st i0 j0 i1 j1 sgcw)] m x → ∀ c, F.InBounds [(i0, i1), (j0, j1)] c → alpha * F.rd x (F.cell2d a (i0 - agcw) (j0 - agcw) (i1 + agcw) (j1 + agcw) 0) c = alpha * A c := fun x ox c hc => by
    have hin := in_cell2 (a_ := a) hc (show i0 - agcw ≤ i0 ∧ i1 ≤ i1 + agcw by omega) (show j0 - agcw ≤ j0 ∧ j1 ≤ j1 + agcw by omega)
    rw [F.rd_only ox (ea ▸ h.apart _ (by simp) (F.cell2d a i0 j0 i1 j1 agcw) (by simp)) hin, ea, (hA c (ea ▸ hin)).rd]
  have g1 := K1.args h
  obtain ⟨s2u', a2', K2, D1⟩ := diag_v1_2 (alpha := alpha) hβ4 hi hj hs ⟨by omega, by omega⟩ ⟨by omega, by omega⟩ (show F.Args s1 [(F.cell2d a (i0 - agcw) (j0 - agcw) (i1 + agcw) (j1 + agcw) 0)] [(F.st2d st i0 j0 i1 j1 sgcw)] by rw [ea]; exact g1.sub (by simp) (by simp))
  obtain rfl : s2u = s2u' := Except.ok.inj (a2.symm.trans a2')
  obtain ⟨s3, a3, K3, D3⟩ := diag_v1_2 (alpha := alpha) hβ4 hi hj hs ⟨by omega, by omega⟩ ⟨by omega, by omega⟩ (show F.Args s2 [(F.cell2d a (i0 - agcw) (j0 - agcw) (i1 + agcw) (j1 + agcw) 0)] [(F.st2d st i0 j0 i1 j1 sgcw)] by rw [ea]; exact g2.sub (by simp) (by simp))
  have D1 : F.Diagonal s1 s2u (F.st2d st i0 j0 i1 j1 sgcw) (5 - 1) (F.InBounds [(i0, i1), (j0, j1)]) (fun c => alpha * A c) := ⟨fun c hc => by rw [D1.zero c hc, hAx s1 K1.only c hc], D1.other⟩
  have D3 : F.Diagonal s2 s3 (F.st2d st i0 j0 i1 j1 sgcw) (5 - 1) (F.InBounds [(i0, i1), (j0, j1)]) (fun c => alpha * A c) := ⟨fun c hc => by rw [D3.zero c hc, hAx s2 (K1.only.trans o2) c hc], D3.other⟩
  have o3 := (K1.only.trans o2).trans K3.only
  obtain ⟨r1, r2, r3⟩ := F.bvp_core (q := q) (X := X) (Y := Y) (a := (F.st2d st i0 j0 i1 j1 sgcw)) hp ho o3 (K3.ok (g2.ok _ (by simp))) ⟨h.apart _ (by simp) (F.cell2d rhs i0 j0 i1 j1 fgcw) (by simp), h.apart _ (by simp) (F.cell2d u i0 j0 i1 j1 gcw) (by simp)⟩ D1 D3 v2
    (fun p hp => by
      rw [F.inBounds2] at hp
      obtain ⟨i, j, rfl, hp⟩ := hp
      exact F.shift2_0)
    (fun p hp => by
      rw [F.inBounds2] at hp
      obtain ⟨i, j, rfl, hp⟩ := hp
      rw [F.eqn2 (hc i j (by omega) (by omega) (by omega) (by omega))]
      exact hX i j (by omega) (by omega) (by omega) (by omega))
    (fun p hp e h0 h1 => by
      rw [F.inBounds2] at hp
      obtain ⟨i, j, rfl, hp⟩ := hp
      obtain ⟨-, g1, g2, g3, g4⟩ := (hc i j (by omega) (by omega) (by omega) (by omega)).sign he (by omega) (by omega) (by omega) (by omega)
      have : e = 1 ∨ e = 2 ∨ e = 3 ∨ e = 4 := by omega
      rcases this with rfl | rfl | rfl | rfl
      · exact g1.le
      · exact g2.le
      · exact g3.le
      · exact g4.le)
    (fun p hp => by
      rw [F.inBounds2] at hp
      obtain ⟨i, j, rfl, hp⟩ := hp
      have d0 : 0 < beta / (dx 0 * dx 0) * (B0 [i, j] + B0 [i + 1, j]) := mul_pos (div_pos he.beta (mul_self_pos.2 he.dx0)) (add_pos (he.face0 i j (by omega) (by omega) (by omega) (by omega)) (he.face0 (i + 1) j (by omega) (by omega) (by omega) (by omega)))
      have d1 : 0 < beta / (dx 1 * dx 1) * (B1 [j, i] + B1 [j + 1, i]) := mul_pos (div_pos he.beta (mul_self_pos.2 he.dx1)) (add_pos (he.face1 i j (by omega) (by omega) (by omega) (by omega)) (he.face1 i (j + 1) (by omega) (by omega) (by omega) (by omega)))
      have k0 := he.cell i j (by omega) (by omega) (by omega) (by omega)
      have kq := hq i j (by omega) (by omega) (by omega) (by omega)
      have h3 : 0 < (1 - q) * (2 * (beta / (dx 0 * dx 0) * (B0 [i, j] + B0 [i + 1, j]) + beta / (dx 1 * dx 1) * (B1 [j, i] + B1 [j + 1, i]))) := mul_pos (by linarith) (by linarith)
      have h4 : 0 ≤ (1 - q) * (alpha * A [i, j]) := mul_nonneg (by linarith) k0
      rw [mul_add] at kq
      exact lt_of_lt_of_le (by linarith) kq)
    (fun p hp => by
      rw [F.inBounds2] at hp
      obtain ⟨i, j, rfl, hp⟩ := hp
      have kq := hq i j (by omega) (by omega) (by omega) (by omega)
      have c := hc i j (by omega) (by omega) (by omega) (by omega)
      rw [F.ring2, c.c1, c.c2, c.c3, c.c4]
      refine le_trans (le_of_eq ?_) kq
      ring)
    hd hF (fun k hk => by
      obtain ⟨s, hsm, rfl⟩ := List.mem_map.1 hk
      have hll := hl s hsm
      have hoo := hout s hsm
      refine ⟨hfi s hsm, ?_, fun c hc => ?_⟩
      · have := hll.hdir; exact hdx s.dir.toNat (by omega)
      · refine ⟨layer2_in hll hc, ?_, ?_⟩
        · exact piece_out2 hll hoo hc
        · obtain ⟨i, j, rfl, hc⟩ := hc
          have hin := (F.inBounds2.1 (layer2_in hll ⟨i, j, rfl, hc⟩))
          obtain ⟨i', j', hi', hb1⟩ := hin
          simp at hi'
          have hsd := hll.hside
          show 0 ≤ F.onFace2 B0 B1 s.dir s.side [i, j]
          unfold F.onFace2
          have hdd : s.dir = 0 ∨ s.dir = 1 := by have := hll.hdir; omega
          rcases hdd with e' | e' <;> simp only [e', if_true, if_false, show ¬ (1 : Int) = 0 by decide]
          · exact (he.face0 _ _ (by omega) (by omega) (by omega) (by omega)).le
          · exact (he.face1 _ _ (by omega) (by omega) (by omega) (by omega)).le)
    hY hD
  refine ⟨s1, s2, s3, _, a1, f2, a3, ?_, o3, r1, r2, r3⟩
  have hw : ∀ l' : List F.Side2, (∀ s ∈ l', s ∈ sides) → l'.foldlM (fun m s => Cuda.adjDiag2d i0 j0 i1 j1 s.i0 s.j0 s.i1 s.j1 s.dir s.side s.btype s.order dx beta b0 b1 sgcw st (βs s) m) s3 = .ok s3 := by
    intro l'
    induction l' with
    | nil => exact fun _ => rfl
    | cons s l' ih =>
      intro hs'
      have hfo := hfi s (hs' s (by simp))
      unfold F.First at hfo
      rw [List.foldlM_cons, adjdiag2_skip hi hj hs (hl s (hs' s (by simp))) (by omega) hb]
      exact ih fun s hs'' => hs' s (List.mem_cons_of_mem _ hs'')
  exact hw sides fun _ h => h

theorem bvp_v2_2 {i0 j0 i1 j1 sgcw gcw fgcw : Int} {alpha beta neu q : T} {dx : Nat → T} {b0 b1 st u rhs o : Ptr} {β3 β4 : Backend} {βs : F.Side2 → Backend} {sides : List F.Side2} {m : Mem T} {B0 B1 G U X Y : List Int → T}
    (hβ3 : ValidBackend β3) (hβ4 : ValidBackend β4) (hβs : ∀ s, ValidBackend (βs s)) (hi : i0 ≤ i1) (hj : j0 ≤ j1) (hs : 0 ≤ sgcw) (hg : 1 ≤ gcw) (hfg : 0 ≤ fgcw) (he : F.Elliptic2 i0 j0 i1 j1 alpha beta dx (fun _ => 1) B0 B1) (hdx : ∀ d, d < 2 → 0 < dx d)
    (hq : ∀ i j, i0 ≤ i → i ≤ i1 → j0 ≤ j → j ≤ j1 → (1 - q) * (2 * (beta / (dx 0 * dx 0) * (B0 [i, j] + B0 [i + 1, j]) + beta / (dx 1 * dx 1) * (B1 [j, i] + B1 [j + 1, i])) + alpha * (fun _ => 1) [i, j]) ≤ alpha * (fun _ => 1) [i, j]) (h1 : q < 1)
    (hl : ∀ s ∈ sides, Layer2 i0 j0 i1 j1 0 s.i0 s.j0 s.i1 s.j1 s.dir s.side) (hout : ∀ s ∈ sides, s.Outside i0 j0 i1 j1) (hfi : ∀ s ∈ sides, F.First s.btype s.order) (hrob : ∀ s ∈ sides, s.btype = 4 → s.dir = 0) (hd : F.Disjoint (sides.map (F.Side2.piece dx B0 B1)))
    (h : F.Args m [(F.face2d0 b0 i0 j0 i1 j1 0), (F.face2d1 b1 i0 j0 i1 j1 0), (F.cell2d u i0 j0 i1 j1 gcw), (F.cell2d rhs i0 j0 i1 j1 fgcw)] [(F.st2d st i0 j0 i1 j1 sgcw)]) (huf : F.Apart (F.cell2d u i0 j0 i1 j1 gcw) (F.cell2d rhs i0 j0 i1 j1 fgcw))
    (hB0 : F.Holds m (F.face2d0 b0 i0 j0 i1 j1 0) B0) (hB1 : F.Holds m (F.face2d1 b1 i0 j0 i1 j1 0) B1) (hU : F.Holds m (F.cell2d u i0 j0 i1 j1 gcw) U) (hG : F.Holds m (F.cell2d rhs i0 j0 i1 j1 fgcw) G) (ht : F.Rows m (F.offset0 o 2 5) F.points2)
    (hX : ∀ i j, i0 ≤ i → i ≤ i1 → j0 ≤ j → j ≤ j1 → F.op2 alpha beta dx (fun _ => 1) B0 B1 X i j = G [i, j]) (hF : F.Fulfils [(i0, i1), (j0, j1)] 5 (F.row F.points2) (sides.map (F.Side2.piece dx B0 B1)) U X)
    (hY : ∀ p, F.InBounds [(i0, i1), (j0, j1)] p → Y p = X p) (hD : ∀ p, ¬ F.InBounds [(i0, i1), (j0, j1)] p → Y p = U p) :
    ∃ s1 s2 s3, ∃ S : List Int → T, Cuda.offdiag2d i0 j0 i1 j1 i0 j0 i1 j1 dx beta b0 b1 sgcw st β3 m = .ok s1 ∧ sides.foldlM (fun m s => Cuda.adjOffdiag2d i0 j0 i1 j1 s.i0 s.j0 s.i1 s.j1 s.dir s.side s.btype s.order dx 2 neu beta b0 b1 sgcw st (βs s) m) s1 = .ok s2 ∧ Cuda.v2diag2d i0 j0 i1 j1 alpha sgcw st β4 s2 = .ok s3 ∧
      sides.foldlM (fun m s => Cuda.adjDiag2d i0 j0 i1 j1 s.i0 s.j0 s.i1 s.j1 s.dir s.side s.btype s.order dx beta b0 b1 sgcw st (βs s) m) s3 = .ok s3 ∧ F.Only [(F.st2d st i0 j0 i1 j1 sgcw)] m s3 ∧
      F.Problem s3 [(i0, i1), (j0, j1)] 5 (F.offset0 o 2 5) (F.sm2d st 5 (i0 - sgcw) (j0 - sgcw) (i1 + sgcw) (j1 + sgcw)) (F.box2d rhs (i0 - fgcw) (j0 - fgcw) (i1 + fgcw) (j1 + fgcw)) (F.box2d u (i0 - gcw) (j0 - gcw) (i1 + gcw) (j1 + gcw)) (F.row F.points2) S G U ∧
      F.Dominant [(i0, i1), (j0, j1)] 5 (F.row F.points2) q (fun _ => 1) S ∧ ∀ p, F.InBounds [(i0, i1), (j0, j1)] p → F.Eqn 5 (F.row F.points2) S G Y p := by
  obtain ⟨s1, s2u, S, a1, a2, ho, hp, hc⟩ := prob_v2_2 (alpha := alpha) (beta := beta) (dx := dx) (o := o) hβ3 hβ4 hi hj hs hg hfg h huf hB0 hB1 hU hG ht
  have hb : F.Args m [(F.face2d0 b0 i0 j0 i1 j1 0), (F.face2d1 b1 i0 j0 i1 j1 0)] [(F.st2d st i0 j0 i1 j1 sgcw)] := h.sub (by simp) (by simp)
  have hne : (F.st2d st i0 j0 i1 j1 sgcw).dims ≠ [] := by simp [F.st2d]
  obtain ⟨s1', d1, e1⟩ := C36_offdiag_2d (dx := dx) (beta := beta) hβ3 hi hj ⟨le_rfl, le_rfl⟩ ⟨le_rfl, le_rfl⟩ hs hb
  obtain ⟨s1'', q1, -, K1, -⟩ := offdiag2_run (dx := dx) (beta := beta) hi hj hs ⟨le_rfl, le_rfl⟩ ⟨le_rfl, le_rfl⟩ hb
  obtain rfl : s1'' = s1' := Except.ok.inj (q1.symm.trans e1)
  obtain rfl : s1 = s1'' := Except.ok.inj (a1.symm.trans d1)
  obtain ⟨s2, f2, o2, ⟨g2, w2⟩, v2⟩ := F.fold_adj (run := fun s m => Cuda.adjOffdiag2d i0 j0 i1 j1 s.i0 s.j0 s.i1 s.j1 s.dir s.side s.btype s.order dx 2 neu beta b0 b1 sgcw st (βs s) m) (pc := (F.Side2.piece dx B0 B1)) (a := (F.st2d st i0 j0 i1 j1 sgcw)) hne
    (Good := fun x => F.Args x [(F.face2d0 b0 i0 j0 i1 j1 0), (F.face2d1 b1 i0 j0 i1 j1 0), (F.cell2d u i0 j0 i1 j1 gcw), (F.cell2d rhs i0 j0 i1 j1 fgcw)] [(F.st2d st i0 j0 i1 j1 sgcw)] ∧ F.Holds x (F.face2d0 b0 i0 j0 i1 j1 0) B0 ∧ F.Holds x (F.face2d1 b1 i0 j0 i1 j1 0) B1) (l := sides) (fun s hsm x gx => by
      obtain ⟨gx, gB0, gB1⟩ := gx
      have hfo := hfi s hsm
      have hll := hl s hsm
      have h' := adjoff2_does (dx := dx) (dir_factor := 2) (neu_factor := neu) (beta := beta) (btype := s.btype) (exOrder := s.order) (st_ := st) (b0_ := b0) (b1_ := b1) (hβs s) hi hj hs hll (by
        unfold F.First at hfo
        have hr := hrob s hsm
        rcases hfo with ⟨h1, h2⟩ | h1 | ⟨h1, h2⟩
        · exact .inl ⟨h1, h2, rfl⟩
        · exact .inr (.inr (.inl h1))
        · exact .inr (.inr (.inr ⟨h1, h2, hr h1⟩))) (gx.sub (by simp) (by simp))
      refine ⟨_, h'.congr (fun _ => Iff.rfl) (fun c hc => ?_) (fun c hc => ?_)⟩
      · show facU _ _ _ _ = facU _ _ _ _
        rw [onFace2_holds hll hc gB0 gB1]
        rfl
      · unfold F.First at hfo
        unfold facV
        rcases hfo with ⟨h1, h2⟩ | h1 | ⟨h1, h2⟩ <;> simp [h1, *])
    (fun x x' L u v A B hA hx => ⟨hA.args hne hx.1, (hx.2.1).only hA.only (by simp only [List.mem_singleton, forall_eq]; exact h.apart _ (by simp) _ (by simp)), (hx.2.2).only hA.only (by simp only [List.mem_singleton, forall_eq]; exact h.apart _ (by simp) _ (by simp))⟩)
    s1 ⟨K1.args h, hB0.only K1.only (by simp only [List.mem_singleton, forall_eq]; exact h.apart _ (by simp) _ (by simp)), hB1.only K1.only (by simp only [List.mem_singleton, forall_eq]; exact h.apart _ (by simp) _ (by simp))⟩
  have g1 := K1.args h
  obtain ⟨s2u', a2', K2, D1⟩ := diag_v2_2 (alpha := alpha) hβ4 hi hj hs (g1.sub (by simp) (fun _ e => e))
  obtain rfl : s2u = s2u' := Except.ok.inj (a2.symm.trans a2')
  obtain ⟨s3, a3, K3, D3⟩ := diag_v2_2 (alpha := alpha) hβ4 hi hj hs (g2.sub (by simp) (fun _ e => e))
  have D1 : F.Diagonal s1 s2u (F.st2d st i0 j0 i1 j1 sgcw) (5 - 1) (F.InBounds [(i0, i1), (j0, j1)]) (fun c => alpha * (fun _ => 1) c) := ⟨fun c hc => by rw [D1.zero c hc, mul_one], D1.other⟩
  have D3 : F.Diagonal s2 s3 (F.st2d st i0 j0 i1 j1 sgcw) (5 - 1) (F.InBounds [(i0, i1), (j0, j1)]) (fun c => alpha * (fun _ => 1) c) := ⟨fun c hc => by rw [D3.zero c hc, mul_one], D3.other⟩
  have o3 := (K1.only.trans o2).trans K3.only
  obtain ⟨r1, r2, r3⟩ := F.bvp_core (q := q) (X := X) (Y := Y) (a := (F.st2d st i0 j0 i1 j1 sgcw)) hp ho o3 (K3.ok (g2.ok _ (by simp))) ⟨h.apart _ (by simp) (F.cell2d rhs i0 j0 i1 j1 fgcw) (by simp), h.apart _ (by simp) (F.cell2d u i0 j0 i1 j1 gcw) (by simp)⟩ D1 D3 v2
    (fun p hp => by
      rw [F.inBounds2] at hp
      obtain ⟨i, j, rfl, hp⟩ := hp
      exact F.shift2_0)
    (fun p hp => by
      rw [F.inBounds2] at hp
      obtain ⟨i, j, rfl, hp⟩ := hp
      rw [F.eqn2 (hc i j (by omega) (by omega) (by omega) (by omega))]
      exact hX i j (by omega) (by omega) (by omega) (by omega))
    (fun p hp e h0 h1 => by
      rw [F.inBounds2] at hp
      obtain ⟨i, j, rfl, hp⟩ := hp
      obtain ⟨-, g1, g2, g3, g4⟩ := (hc i j (by omega) (by omega) (by omega) (by omega)).sign he (by omega) (by omega) (by omega) (by omega)
      have : e = 1 ∨ e = 2 ∨ e = 3 ∨ e = 4 := by omega
      rcases this with rfl | rfl | rfl | rfl
      · exact g1.le
      · exact g2.le
      · exact g3.le
      · exact g4.le)
    (fun p hp => by
      rw [F.inBounds2] at hp
      obtain ⟨i, j, rfl, hp⟩ := hp
      have d0 : 0 < beta / (dx 0 * dx 0) * (B0 [i, j] + B0 [i + 1, j]) := mul_pos (div_pos he.beta (mul_self_pos.2 he.dx0)) (add_pos (he.face0 i j (by omega) (by omega) (by omega) (by omega)) (he.face0 (i + 1) j (by omega) (by omega) (by omega) (by omega)))
      have d1 : 0 < beta / (dx 1 * dx 1) * (B1 [j, i] + B1 [j + 1, i]) := mul_pos (div_pos he.beta (mul_self_pos.2 he.dx1)) (add_pos (he.face1 i j (by omega) (by omega) (by omega) (by omega)) (he.face1 i (j + 1) (by omega) (by omega) (by omega) (by omega)))
      have k0 := he.cell i j (by omega) (by omega) (by omega) (by omega)
      have kq := hq i j (by omega) (by omega) (by omega) (by omega)
      have h3 : 0 < (1 - q) * (2 * (beta / (dx 0 * dx 0) * (B0 [i, j] + B0 [i + 1, j]) + beta / (dx 1 * dx 1) * (B1 [j, i] + B1 [j + 1, i]))) := mul_pos (by linarith) (by linarith)
      have h4 : 0 ≤ (1 - q) * (alpha * (fun _ => 1) [i, j]) := mul_nonneg (by linarith) k0
      rw [mul_add] at kq
      exact lt_of_lt_of_le (by linarith) kq)
    (fun p hp => by
      rw [F.inBounds2] at hp
      obtain ⟨i, j, rfl, hp⟩ := hp
      have kq := hq i j (by omega) (by omega) (by omega) (by omega)
      have c := hc i j (by omega) (by omega) (by omega) (by omega)
      rw [F.ring2, c.c1, c.c2, c.c3, c.c4]
      refine le_trans (le_of_eq ?_) kq
      ring)
    hd hF (fun k hk => by
      obtain ⟨s, hsm, rfl⟩ := List.mem_map.1 hk
      have hll := hl s hsm
      have hoo := hout s hsm
      refine ⟨hfi s hsm, ?_, fun c hc => ?_⟩
      · have := hll.hdir; exact hdx s.dir.toNat (by omega)
      · refine ⟨layer2_in hll hc, ?_, ?_⟩
        · exact piece_out2 hll hoo hc
        · obtain ⟨i, j, rfl, hc⟩ := hc
          have hin := (F.inBounds2.1 (layer2_in hll ⟨i, j, rfl, hc⟩))
          obtain ⟨i', j', hi', hb1⟩ := hin
          simp at hi'
          have hsd := hll.hside
          show 0 ≤ F.onFace2 B0 B1 s.dir s.side [i, j]
          unfold F.onFace2
          have hdd : s.dir = 0 ∨ s.dir = 1 := by have := hll.hdir; omega
          rcases hdd with e' | e' <;> simp only [e', if_true, if_false, show ¬ (1 : Int) = 0 by decide]
          · exact (he.face0 _ _ (by omega) (by omega) (by omega) (by omega)).le
          · exact (he.face1 _ _ (by omega) (by omega) (by omega) (by omega)).le)
    hY hD
  refine ⟨s1, s2, s3, _, a1, f2, a3, ?_, o3, r1, r2, r3⟩
  have hw : ∀ l' : List F.Side2, (∀ s ∈ l', s ∈ sides) → l'.foldlM (fun m s => Cuda.adjDiag2d i0 j0 i1 j1 s.i0 s.j0 s.i1 s.j1 s.dir s.side s.btype s.order dx beta b0 b1 sgcw st (βs s) m) s3 = .ok s3 := by
    intro l'
    induction l' with
    | nil => exact fun _ => rfl
    | cons s l' ih =>
      intro hs'
      have hfo := hfi s (hs' s (by simp))
      unfold F.First at hfo
      rw [List.foldlM_cons, adjdiag2_skip hi hj hs (hl s (hs' s (by simp))) (by omega) hb]
      exact ih fun s hs'' => hs' s (List.mem_cons_of_mem _ hs'')
  exact hw sides fun _ h => h

theorem bvp_v1_3 {i0 j0 k0 i1 j1 k1 agcw sgcw gcw fgcw : Int} {alpha beta neu q : T} {dx : Nat → T} {a b0 b1 b2 st u rhs o : Ptr} {β3 β4 : Backend} {βs : F.Side3 → Backend} {sides : List F.Side3} {m : Mem T} {A B0 B1 B2 G U X Y : List Int → T}
    (hβ3 : ValidBackend β3) (hβ4 : ValidBackend β4) (hβs : ∀ s, ValidBackend (βs s)) (hi : i0 ≤ i1) (hj : j0 ≤ j1) (hk : k0 ≤ k1) (hagcw : 0 ≤ agcw) (hs : 0 ≤ sgcw) (hg : 1 ≤ gcw) (hfg : 0 ≤ fgcw) (he : F.Elliptic3 i0 j0 k0 i1 j1 k1 alpha beta dx A B0 B1 B2) (hdx : ∀ d, d < 3 → 0 < dx d)
    (hq : ∀ i j k, i0 ≤ i → i ≤ i1 → j0 ≤ j → j ≤ j1 → k0 ≤ k → k ≤ k1 → (1 - q) * (2 * (beta / (dx 0 * dx 0) * (B0 [i, j, k] + B0 [i + 1, j, k]) + beta / (dx 1 * dx 1) * (B1 [j, k, i] + B1 [j + 1, k, i]) + beta / (dx 2 * dx 2) * (B2 [k, i, j] + B2 [k + 1, i, j])) + alpha * A [i, j, k]) ≤ alpha * A [i, j, k]) (h1 : q < 1)
    (hl : ∀ s ∈ sides, Layer3 i0 j0 k0 i1 j1 k1 0 s.i0 s.j0 s.k0 s.i1 s.j1 s.k1 s.dir s.side) (hout : ∀ s ∈ sides, s.Outside i0 j0 k0 i1 j1 k1) (hfi : ∀ s ∈ sides, F.First s.btype s.order) (hd : F.Disjoint (sides.map (F.Side3.piece dx B0 B1 B2)))
    (h : F.Args m [(F.cell3d a i0 j0 k0 i1 j1 k1 agcw), (F.face3d0 b0 i0 j0 k0 i1 j1 k1 0), (F.face3d1 b1 i0 j0 k0 i1 j1 k1 0), (F.face3d2 b2 i0 j0 k0 i1 j1 k1 0), (F.cell3d u i0 j0 k0 i1 j1 k1 gcw), (F.cell3d rhs i0 j0 k0 i1 j1 k1 fgcw)] [(F.st3d st i0 j0 k0 i1 j1 k1 sgcw)]) (huf : F.Apart (F.cell3d u i0 j0 k0 i1 j1 k1 gcw) (F.cell3d rhs i0 j0 k0 i1 j1 k1 fgcw))
    (hA : F.Holds m (F.cell3d a i0 j0 k0 i1 j1 k1 agcw) A) (hB0 : F.Holds m (F.face3d0 b0 i0 j0 k0 i1 j1 k1 0) B0) (hB1 : F.Holds m (F.face3d1 b1 i0 j0 k0 i1 j1 k1 0) B1) (hB2 : F.Holds m (F.face3d2 b2 i0 j0 k0 i1 j1 k1 0) B2) (hU : F.Holds m (F.cell3d u i0 j0 k0 i1 j1 k1 gcw) U) (hG : F.Holds m (F.cell3d rhs i0 j0 k0 i1 j1 k1 fgcw) G) (ht : F.Rows m (F.offset0 o 3 7) F.points3)
    (hX : ∀ i j k, i0 ≤ i → i ≤ i1 → j0 ≤ j → j ≤ j1 → k0 ≤ k → k ≤ k1 → F.op3 alpha beta dx A B0 B1 B2 X i j k = G [i, j, k]) (hF : F.Fulfils [(i0, i1), (j0, j1), (k0, k1)] 7 (F.row F.points3) (sides.map (F.Side3.piece dx B0 B1 B2)) U X)
    (hY : ∀ p, F.InBounds [(i0, i1), (j0, j1), (k0, k1)] p → Y p = X p) (hD : ∀ p, ¬ F.InBounds [(i0, i1), (j0, j1), (k0, k1)] p → Y p = U p) :
    ∃ s1 s2 s3, ∃ S : List Int → T, Cuda.offdiag3d i0 j0 k0 i1 j1 k1 i0 j0 k0 i1 j1 k1 dx beta b0 b1 b2 sgcw st β3 m = .ok s1 ∧ sides.foldlM (fun m s => Cuda.adjOffdiag3d i0 j0 k0 i1 j1 k1 s.i0 s.j0 s.k0 s.i1 s.j1 s.k1 s.dir s.side s.btype s.order dx 2 neu beta b0 b1 b2 sgcw st (βs s) m) s1 = .ok s2 ∧ Cuda.v1diag3d i0 j0 k0 i1 j1 k1 (i0 - agcw) (j0 - agcw) (k0 - agcw) (i1 + agcw) (j1 + agcw) (k1 + agcw) alpha a sgcw st β4 s2 = .ok s3 ∧
      sides.foldlM (fun m s => Cuda.adjDiag3d i0 j0 k0 i1 j1 k1 s.i0 s.j0 s.k0 s.i1 s.j1 s.k1 s.dir s.side s.btype s.order dx beta b0 b1 b2 sgcw st (βs s) m) s3 = .ok s3 ∧ F.Only [(F.st3d st i0 j0 k0 i1 j1 k1 sgcw)] m s3 ∧
      F.Problem s3 [(i0, i1), (j0, j1), (k0, k1)] 7 (F.offset0 o 3 7) (F.sm3d st 7 (i0 - sgcw) (j0 - sgcw) (k0 - sgcw) (i1 + sgcw) (j1 + sgcw) (k1 + sgcw)) (F.box3d rhs (i0 - fgcw) (j0 - fgcw) (k0 - fgcw) (i1 + fgcw) (j1 + fgcw) (k1 + fgcw)) (F.box3d u (i0 - gcw) (j0 - gcw) (k0 - gcw) (i1 + gcw) (j1 + gcw) (k1 + gcw)) (F.row F.points3) S G U ∧
      F.Dominant [(i0, i1), (j0, j1), (k0, k1)] 7 (F.row F.points3) q (fun _ => 1) S ∧ ∀ p, F.InBounds [(i0, i1), (j0, j1), (k0, k1)] p → F.Eqn 7 (F.row F.points3) S G Y p := by
  obtain ⟨s1, s2u, S, a1, a2, ho, hp, hc⟩ := prob_v1_3 (alpha := alpha) (beta := beta) (dx := dx) (o := o) hβ3 hβ4 hi hj hk hagcw hs hg hfg h huf hA hB0 hB1 hB2 hU hG ht
  have hb : F.Args m [(F.face3d0 b0 i0 j0 k0 i1 j1 k1 0), (F.face3d1 b1 i0 j0 k0 i1 j1 k1 0), (F.face3d2 b2 i0 j0 k0 i1 j1 k1 0)] [(F.st3d st i0 j0 k0 i1 j1 k1 sgcw)] := h.sub (by simp) (by simp)
  have hne : (F.st3d st i0 j0 k0 i1 j1 k1 sgcw).dims ≠ [] := by simp [F.st3d]
  obtain ⟨s1', d1, e1⟩ := C36_offdiag_3d (dx := dx) (beta := beta) hβ3 hi hj hk ⟨le_rfl, le_rfl⟩ ⟨le_rfl, le_rfl⟩ ⟨le_rfl, le_rfl⟩ hs hb
  obtain ⟨s1'', q1, -, K1, -⟩ := offdiag3_run (dx := dx) (beta := beta) hi hj hk hs ⟨le_rfl, le_rfl⟩ ⟨le_rfl, le_rfl⟩ ⟨le_rfl, le_rfl⟩ hb
  obtain rfl : s1'' = s1' := Except.ok.inj (q1.symm.trans e1)
  obtain rfl : s1 = s1'' := Except.ok.inj (a1.symm.trans d1)
  obtain ⟨s2, f2, o2, ⟨g2, w2⟩, v2⟩ := F.fold_adj (run := fun s m => Cuda.adjOffdiag3d i0 j0 k0 i1 j1 k1 s.i0 s.j0 s.k0 s.i1 s.j1 s.k1 s.dir s.side s.btype s.order dx 2 neu beta b0 b1 b2 sgcw st (βs s) m) (pc := (F.Side3.piece dx B0 B1 B2)) (a := (F.st3d st i0 j0 k0 i1 j1 k1 sgcw)) hne
    (Good := fun x => F.Args x [(F.cell3d a i0 j0 k0 i1 j1 k1 agcw), (F.face3d0 b0 i0 j0 k0 i1 j1 k1 0), (F.face3d1 b1 i0 j0 k0 i1 j1 k1 0), (F.face3d2 b2 i0 j0 k0 i1 j1 k1 0), (F.cell3d u i0 j0 k0 i1 j1 k1 gcw), (F.cell3d rhs i0 j0 k0 i1 j1 k1 fgcw)] [(F.st3d st i0 j0 k0 i1 j1 k1 sgcw)] ∧ F.Holds x (F.face3d0 b0 i0 j0 k0 i1 j1 k1 0) B0 ∧ F.Holds x (F.face3d1 b1 i0 j0 k0 i1 j1 k1 0) B1 ∧ F.Holds x (F.face3d2 b2 i0 j0 k0 i1 j1 k1 0) B2) (l := sides) (fun s hsm x gx => by
      obtain ⟨gx, gB0, gB1, gB2⟩ := gx
      have hfo := hfi s hsm
      have hll := hl s hsm
      have h' := adjoff3_does (dx := dx) (dir_factor := 2) (neu_factor := neu) (beta := beta) (btype := s.btype) (exOrder := s.order) (st_ := st) (b0_ := b0) (b1_ := b1) (b2_ := b2) (hβs s) hi hj hk hs hll (by
        unfold F.First at hfo
        skip
        rcases hfo with ⟨h1, h2⟩ | h1 | ⟨h1, h2⟩
        · exact .inl ⟨h1, h2, rfl⟩
        · exact .inr (.inr (.inl h1))
        · exact .inr (.inr (.inr ⟨h1, h2⟩))) (gx.sub (by simp) (by simp))
      refine ⟨_, h'.congr (fun _ => Iff.rfl) (fun c hc => ?_) (fun c hc => ?_)⟩
      · show facU _ _ _ _ = facU _ _ _ _
        rw [onFace3_holds hll hc gB0 gB1 gB2]
        rfl
      · unfold F.First at hfo
        unfold facV
        rcases hfo with ⟨h1, h2⟩ | h1 | ⟨h1, h2⟩ <;> simp [h1, *])
    (fun x x' L u v A B hA hx => ⟨hA.args hne hx.1, (hx.2.1).only hA.only (by simp only [List.mem_singleton, forall_eq]; exact h.apart _ (by simp) _ (by simp)), (hx.2.2.1).only hA.only (by simp only [List.mem_singleton, forall_eq]; exact h.apart _ (by simp) _ (by simp)), (hx.2.2.2).only hA.only (by simp only [List.mem_singleton, forall_eq]; exact h.apart _ (by simp) _ (by simp))⟩)
    s1 ⟨K1.args h, hB0.only K1.only (by simp only [List.mem_singleton, forall_eq]; exact h.apart _ (by simp) _ (by simp)), hB1.only K1.only (by simp only [List.mem_singleton, forall_eq]; exact h.apart _ (by simp) _ (by simp)), hB2.only K1.only (by simp only [List.mem_singleton, forall_eq]; exact h.apart _ (by simp) _ (by simp))⟩
  have ea : (F.cell3d a (i0 - agcw) (j0 - agcw) (k0 - agcw) (i1 + agcw) (j1 + agcw) (k1 + agcw) 0) = (F.cell3d a i0 j0 k0 i1 j1 k1 agcw) := by simp [F.cell3d]
  have hAx : ∀ x, F.Only [(F.st3d st i0 j0 k0 i1 j1 k1 sgcw)] m x → ∀ c, F.InBounds [(i0, i1), (j0, j1), (k0, k1)] c → alpha * F.rd x (F.cell3d a (i0 - agcw) (j0 - agcw) (k0 - agcw) (i1 + agcw) (j1 + agcw) (k1 + agcw) 0) c = alpha * A c := fun x ox c hc => by
    have hin := in_cell3 (a_ := a) hc (show i0 - agcw ≤ i0 ∧ i1 ≤ i1 + agcw by omega) (show j0 - agcw ≤ j0 ∧ j1 ≤ j1 + agcw by omega) (show k0 - agcw ≤ k0 ∧ k1 ≤ k1 + agcw by omega)
    rw [F.rd_only ox (ea ▸ h.apart _ (by simp) (F.cell3d a i0 j0 k0 i1 j1 k1 agcw) (by simp)) hin, ea, (hA c (ea ▸ hin)).rd]
  have g1 := K1.args h
  obtain ⟨s2u', a2', K2, D1⟩ := diag_v1_3 (alpha := alpha) hβ4 hi hj hk hs ⟨by omega, by omega⟩ ⟨by omega, by omega⟩ ⟨by omega, by omega⟩ (show F.Args s1 [(F.cell3d a (i0 - agcw) (j0 - agcw) (k0 - agcw) (i1 + agcw) (j1 + agcw) (k1 + agcw) 0)] [(F.st3d st i0 j0 k0 i1 j1 k1 sgcw)] by rw [ea]; exact g1.sub (by simp) (by simp))
  obtain rfl : s2u = s2u' := Except.ok.inj (a2.symm.trans a2')
  obtain ⟨s3, a3, K3, D3⟩ := diag_v1_3 (alpha := alpha) hβ4 hi hj hk hs ⟨by omega, by omega⟩ ⟨by omega, by omega⟩ ⟨by omega, by omega⟩ (show F.Args s2 [(F.cell3d a (i0 - agcw) (j0 - agcw) (k0 - agcw) (i1 + agcw) (j1 + agcw) (k1 + agcw) 0)] [(F.st3d st i0 j0 k0 i1 j1 k1 sgcw)] by rw [ea]; exact g2.sub (by simp) (by simp))
  have D1 : F.Diagonal s1 s2u (F.st3d st i0 j0 k0 i1 j1 k1 sgcw) (7 - 1) (F.InBounds [(i0, i1), (j0, j1), (k0, k1)]) (fun c => alpha * A c) := ⟨fun c hc => by rw [D1.zero c hc, hAx s1 K1.only c hc], D1.other⟩
  have D3 : F.Diagonal s2 s3 (F.st3d st i0 j0 k0 i1 j1 k1 sgcw) (7 - 1) (F.InBounds [(i0, i1), (j0, j1), (k0, k1)]) (fun c => alpha * A c) := ⟨fun c hc => by rw [D3.zero c hc, hAx s2 (K1.only.trans o2) c hc], D3.other⟩
  have o3 := (K1.only.trans o2).trans K3.only
  obtain ⟨r1, r2, r3⟩ := F.bvp_core (q := q) (X := X) (Y := Y) (a := (F.st3d st i0 j0 k0 i1 j1 k1 sgcw)) hp ho o3 (K3.ok (g2.ok _ (by simp))) ⟨h.apart _ (by simp) (F.cell3d rhs i0 j0 k0 i1 j1 k1 fgcw) (by simp), h.apart _ (by simp) (F.cell3d u i0 j0 k0 i1 j1 k1 gcw) (by simp)⟩ D1 D3 v2
    (fun p hp => by
      rw [F.inBounds3] at hp
      obtain ⟨i, j, k, rfl, hp⟩ := hp
      exact F.shift3_0)
    (fun p hp => by
      rw [F.inBounds3] at hp
      obtain ⟨i, j, k, rfl, hp⟩ := hp
      rw [F.eqn3 (hc i j k (by omega) (by omega) (by omega) (by omega) (by omega) (by omega))]
      exact hX i j k (by omega) (by omega) (by omega) (by omega) (by omega) (by omega))
    (fun p hp e h0 h1 => by
      rw [F.inBounds3] at hp
      obtain ⟨i, j, k, rfl, hp⟩ := hp
      obtain ⟨-, g1, g2, g3, g4, g5, g6⟩ := (hc i j k (by omega) (by omega) (by omega) (by omega) (by omega) (by omega)).sign he (by omega) (by omega) (by omega) (by omega) (by omega) (by omega)
      have : e = 1 ∨ e = 2 ∨ e = 3 ∨ e = 4 ∨ e = 5 ∨ e = 6 := by omega
      rcases this with rfl | rfl | rfl | rfl | rfl | rfl
      · exact g1.le
      · exact g2.le
      · exact g3.le
      · exact g4.le
      · exact g5.le
      · exact g6.le)
    (fun p hp => by
      rw [F.inBounds3] at hp
      obtain ⟨i, j, k, rfl, hp⟩ := hp
      have d0 : 0 < beta / (dx 0 * dx 0) * (B0 [i, j, k] + B0 [i + 1, j, k]) := mul_pos (div_pos he.beta (mul_self_pos.2 he.dx0)) (add_pos (he.face0 i j k (by omega) (by omega) (by omega) (by omega) (by omega) (by omega)) (he.face0 (i + 1) j k (by omega) (by omega) (by omega) (by omega) (by omega) (by omega)))
      have d1 : 0 < beta / (dx 1 * dx 1) * (B1 [j, k, i] + B1 [j + 1, k, i]) := mul_pos (div_pos he.beta (mul_self_pos.2 he.dx1)) (add_pos (he.face1 i j k (by omega) (by omega) (by omega) (by omega) (by omega) (by omega)) (he.face1 i (j + 1) k (by omega) (by omega) (by omega) (by omega) (by omega) (by omega)))
      have d2 : 0 < beta / (dx 2 * dx 2) * (B2 [k, i, j] + B2 [k + 1, i, j]) := mul_pos (div_pos he.beta (mul_self_pos.2 he.dx2)) (add_pos (he.face2 i j k (by omega) (by omega) (by omega) (by omega) (by omega) (by omega)) (he.face2 i j (k + 1) (by omega) (by omega) (by omega) (by omega) (by omega) (by omega)))
      have k0 := he.cell i j k (by omega) (by omega) (by omega) (by omega) (by omega) (by omega)
      have kq := hq i j k (by omega) (by omega) (by omega) (by omega) (by omega) (by omega)
      have h3 : 0 < (1 - q) * (2 * (beta / (dx 0 * dx 0) * (B0 [i, j, k] + B0 [i + 1, j, k]) + beta / (dx 1 * dx 1) * (B1 [j, k, i] + B1 [j + 1, k, i]) + beta / (dx 2 * dx 2) * (B2 [k, i, j] + B2 [k + 1, i, j]))) := mul_pos (by linarith) (by linarith)
      have h4 : 0 ≤ (1 - q) * (alpha * A [i, j, k]) := mul_nonneg (by linarith) k0
      rw [mul_add] at kq
      exact lt_of_lt_of_le (by linarith) kq)
    (fun p hp => by
      rw [F.inBounds3] at hp
      obtain ⟨i, j, k, rfl, hp⟩ := hp
      have kq := hq i j k (by omega) (by omega) (by omega) (by omega) (by omega) (by omega)
      have c := hc i j k (by omega) (by omega) (by omega) (by omega) (by omega) (by omega)
      rw [F.ring3, c.c1, c.c2, c.c3, c.c4, c.c5, c.c6]
      refine le_trans (le_of_eq ?_) kq
      ring)
    hd hF (fun k hk => by
      obtain ⟨s, hsm, rfl⟩ := List.mem_map.1 hk
      have hll := hl s hsm
      have hoo := hout s hsm
      refine ⟨hfi s hsm, ?_, fun c hc => ?_⟩
      · have := hll.hdir; exact hdx s.dir.toNat (by omega)
      · refine ⟨layer3_in hll hc, ?_, ?_⟩
        · exact piece_out3 hll hoo hc
        · obtain ⟨i, j, k, rfl, hc⟩ := hc
          have hin := (F.inBounds3.1 (layer3_in hll ⟨i, j, k, rfl, hc⟩))
          obtain ⟨i', j', k', hi', hb1⟩ := hin
          simp at hi'
          have hsd := hll.hside
          show 0 ≤ F.onFace3 B0 B1 B2 s.dir s.side [i, j, k]
          unfold F.onFace3
          have hdd : s.dir = 0 ∨ s.dir = 1 ∨ s.dir = 2 := by have := hll.hdir; omega
          rcases hdd with e' | e' | e' <;> simp only [e', if_true, if_false, show ¬ (1 : Int) = 0 by decide, show ¬ (2 : Int) = 0 by decide, show ¬ (2 : Int) = 1 by decide]
          · exact (he.face0 _ _ _ (by omega) (by omega) (by omega) (by omega) (by omega) (by omega)).le
          · exact (he.face1 _ _ _ (by omega) (by omega) (by omega) (by omega) (by omega) (by omega)).le
          · exact (he.face2 _ _ _ (by omega) (by omega) (by omega) (by omega) (by omega) (by omega)).le)
    hY hD
  refine ⟨s1, s2, s3, _, a1, f2, a3, ?_, o3, r1, r2, r3⟩
  have hw : ∀ l' : List F.Side3, (∀ s ∈ l', s ∈ sides) → l'.foldlM (fun m s => Cuda.adjDiag3d i0 j0 k0 i1 j1 k1 s.i0 s.j0 s.k0 s.i1 s.j1 s.k1 s.dir s.side s.btype s.order dx beta b0 b1 b2 sgcw st (βs s) m) s3 = .ok s3 := by
    intro l'
    induction l' with
    | nil => exact fun _ => rfl
    | cons s l' ih =>
      intro hs'
      have hfo := hfi s (hs' s (by simp))
      unfold F.First at hfo
      rw [List.foldlM_cons, adjdiag3_skip hi hj hk hs (hl s (hs' s (by simp))) (by omega) hb]
      exact ih fun s hs'' => hs' s (List.mem_cons_of_mem _ hs'')
  exact hw sides fun _ h => h

theorem bvp_v2_3 {i0 j0 k0 i1 j1 k1 sgcw gcw fgcw : Int} {alpha beta neu q : T} {dx : Nat → T} {b0 b1 b2 st u rhs o : Ptr} {β3 β4 : Backend} {βs : F.Side3 → Backend} {sides : List F.Side3} {m : Mem T} {B0 B1 B2 G U X Y : List Int → T}
    (hβ3 : ValidBackend β3) (hβ4 : ValidBackend β4) (hβs : ∀ s, ValidBackend (βs s)) (hi : i0 ≤ i1) (hj : j0 ≤ j1) (hk : k0 ≤ k1) (hs : 0 ≤ sgcw) (hg : 1 ≤ gcw) (hfg : 0 ≤ fgcw) (he : F.Elliptic3 i0 j0 k0 i1 j1 k1 alpha beta dx (fun _ => 1) B0 B1 B2) (hdx : ∀ d, d < 3 → 0 < dx d)
    (hq : ∀ i j k, i0 ≤ i → i ≤ i1 → j0 ≤ j → j ≤ j1 → k0 ≤ k → k ≤ k1 → (1 - q) * (2 * (beta / (dx 0 * dx 0) * (B0 [i, j, k] + B0 [i + 1, j, k]) + beta / (dx 1 * dx 1) * (B1 [j, k, i] + B1 [j + 1, k, i]) + beta / (dx 2 * dx 2) * (B2 [k, i, j] + B2 [k + 1, i, j])) + alpha * (fun _ => 1) [i, j, k]) ≤ alpha * (fun _ => 1) [i, j, k]) (h1 : q < 1)
    (hl : ∀ s ∈ sides, Layer3 i0 j0 k0 i1 j1 k1 0 s.i0 s.j0 s.k0 s.i1 s.j1 s.k1 s.dir s.side) (hout : ∀ s ∈ sides, s.Outside i0 j0 k0 i1 j1 k1) (hfi : ∀ s ∈ sides, F.First s.btype s.order) (hd : F.Disjoint (sides.map (F.Side3.piece dx B0 B1 B2)))
    (h : F.Args m [(F.face3d0 b0 i0 j0 k0 i1 j1 k1 0), (F.face3d1 b1 i0 j0 k0 i1 j1 k1 0), (F.face3d2 b2 i0 j0 k0 i1 j1 k1 0), (F.cell3d u i0 j0 k0 i1 j1 k1 gcw), (F.cell3d rhs i0 j0 k0 i1 j1 k1 fgcw)] [(F.st3d st i0 j0 k0 i1 j1 k1 sgcw)]) (huf : F.Apart (F.cell3d u i0 j0 k0 i1 j1 k1 gcw) (F.cell3d rhs i0 j0 k0 i1 j1 k1 fgcw))
    (hB0 : F.Holds m (F.face3d0 b0 i0 j0 k0 i1 j1 k1 0) B0) (hB1 : F.Holds m (F.face3d1 b1 i0 j0 k0 i1 j1 k1 0) B1) (hB2 : F.Holds m (F.face3d2 b2 i0 j0 k0 i1 j1 k1 0) B2) (hU : F.Holds m (F.cell3d u i0 j0 k0 i1 j1 k1 gcw) U) (hG : F.Holds m (F.cell3d rhs i0 j0 k0 i1 j1 k1 fgcw) G) (ht : F.Rows m (F.offset0 o 3 7) F.points3)
    (hX : ∀ i j k, i0 ≤ i → i ≤ i1 → j0 ≤ j → j ≤ j1 → k0 ≤ k → k ≤ k1 → F.op3 alpha beta dx (fun _ => 1) B0 B1 B2 X i j k = G [i, j, k]) (hF : F.Fulfils [(i0, i1), (j0, j1), (k0, k1)] 7 (F.row F.points3) (sides.map (F.Side3.piece dx B0 B1 B2)) U X)
    (hY : ∀ p, F.InBounds [(i0, i1), (j0, j1), (k0, k1)] p → Y p = X p) (hD : ∀ p, ¬ F.InBounds [(i0, i1), (j0, j1), (k0, k1)] p → Y p = U p) :
    ∃ s1 s2 s3, ∃ S : List Int → T, Cuda.offdiag3d i0 j0 k0 i1 j1 k1 i0 j0 k0 i1 j1 k1 dx beta b0 b1 b2 sgcw st β3 m = .ok s1 ∧ sides.foldlM (fun m s => Cuda.adjOffdiag3d i0 j0 k0 i1 j1 k1 s.i0 s.j0 s.k0 s.i1 s.j1 s.k1 s.dir s.side s.btype s.order dx 2 neu beta b0 b1 b2 sgcw st (βs s) m) s1 = .ok s2 ∧ Cuda.v2diag3d i0 j0 k0 i1 j1 k1 alpha sgcw st β4 s2 = .ok s3 ∧
      sides.foldlM (fun m s => Cuda.adjDiag3d i0 j0 k0 i1 j1 k1 s.i0 s.j0 s.k0 s.i1 s.j1 s.k1 s.dir s.side s.btype s.order dx beta b0 b1 b2 sgcw st (βs s) m) s3 = .ok s3 ∧ F.Only [(F.st3d st i0 j0 k0 i1 j1 k1 sgcw)] m s3 ∧
      F.Problem s3 [(i0, i1), (j0, j1), (k0, k1)] 7 (F.offset0 o 3 7) (F.sm3d st 7 (i0 - sgcw) (j0 - sgcw) (k0 - sgcw) (i1 + sgcw) (j1 + sgcw) (k1 + sgcw)) (F.box3d rhs (i0 - fgcw) (j0 - fgcw) (k0 - fgcw) (i1 + fgcw) (j1 + fgcw) (k1 + fgcw)) (F.box3d u (i0 - gcw) (j0 - gcw) (k0 - gcw) (i1 + gcw) (j1 + gcw) (k1 + gcw)) (F.row F.points3) S G U ∧
      F.Dominant [(i0, i1), (j0, j1), (k0, k1)] 7 (F.row F.points3) q (fun _ => 1) S ∧ ∀ p, F.InBounds [(i0, i1), (j0, j1), (k0, k1)] p → F.Eqn 7 (F.row F.points3) S G Y p := by
  obtain ⟨s1, s2u, S, a1, a2, ho, hp, hc⟩ := prob_v2_3 (alpha := alpha) (beta := beta) (dx := dx) (o := o) hβ3 hβ4 hi hj hk hs hg hfg h huf hB0 hB1 hB2 hU hG ht
  have hb : F.Args m [(F.face3d0 b0 i0 j0 k0 i1 j1 k1 0), (F.face3d1 b1 i0 j0 k0 i1 j1 k1 0), (F.face3d2 b2 i0 j0 k0 i1 j1 k1 0)] [(F.st3d st i0 j0 k0 i1 j1 k1 sgcw)] := h.sub (by simp) (by simp)
  have hne : (F.st3d st i0 j0 k0 i1 j1 k1 sgcw).dims ≠ [] := by simp [F.st3d]
  obtain ⟨s1', d1, e1⟩ := C36_offdiag_3d (dx := dx) (beta := beta) hβ3 hi hj hk ⟨le_rfl, le_rfl⟩ ⟨le_rfl, le_rfl⟩ ⟨le_rfl, le_rfl⟩ hs hb
  obtain ⟨s1'', q1, -, K1, -⟩ := offdiag3_run (dx := dx) (beta := beta) hi hj hk hs ⟨le_rfl, le_rfl⟩ ⟨le_rfl, le_rfl⟩ ⟨le_rfl, le_rfl⟩ hb
  obtain rfl : s1'' = s1' := Except.ok.inj (q1.symm.trans e1)
  obtain rfl : s1 = s1'' := Except.ok.inj (a1.symm.trans d1)
  obtain ⟨s2, f2, o2, ⟨g2, w2⟩, v2⟩ := F.fold_adj (run := fun s m => Cuda.adjOffdiag3d i0 j0 k0 i1 j1 k1 s.i0 s.j0 s.k0 s.i1 s.j1 s.k1 s.dir s.side s.btype s.order dx 2 neu beta b0 b1 b2 sgcw st (βs s) m) (pc := (F.Side3.piece dx B0 B1 B2)) (a := (F.st3d st i0 j0 k0 i1 j1 k1 sgcw)) hne
    (Good := fun x => F.Args x [(F.face3d0 b0 i0 j0 k0 i1 j1 k1 0), (F.face3d1 b1 i0 j0 k0 i1 j1 k1 0), (F.face3d2 b2 i0 j0 k0 i1 j1 k1 0), (F.cell3d u i0 j0 k0 i1 j1 k1 gcw), (F.cell3d rhs i0 j0 k0 i1 j1 k1 fgcw)] [(F.st3d st i0 j0 k0 i1 j1 k1 sgcw)] ∧ F.Holds x (F.face3d0 b0 i0 j0 k0 i1 j1 k1 0) B0 ∧ F.Holds x (F.face3d1 b1 i0 j0 k0 i1 j1 k1 0) B1 ∧ F.Holds x (F.face3d2 b2 i0 j0 k0 i1 j1 k1 0) B2) (l := sides) (fun s hsm x gx => by
      obtain ⟨gx, gB0, gB1, gB2⟩ := gx
      have hfo := hfi s hsm
      have hll := hl s hsm
      have h' := adjoff3_does (dx := dx) (dir_factor := 2) (neu_factor := neu) (beta := beta) (btype := s.btype) (exOrder := s.order) (st_ := st) (b0_ := b0) (b1_ := b1) (b2_ := b2) (hβs s) hi hj hk hs hll (by
        unfold F.First at hfo
        skip
        rcases hfo with ⟨h1, h2⟩ | h1 | ⟨h1, h2⟩
        · exact .inl ⟨h1, h2, rfl⟩
        · exact .inr (.inr (.inl h1))
        · exact .inr (.inr (.inr ⟨h1, h2⟩))) (gx.sub (by simp) (by simp))
      refine ⟨_, h'.congr (fun _ => Iff.rfl) (fun c hc => ?_) (fun c hc => ?_)⟩
      · show facU _ _ _ _ = facU _ _ _ _
        rw [onFace3_holds hll hc gB0 gB1 gB2]
        rfl
      · unfold F.First at hfo
        unfold facV
        rcases hfo with ⟨h1, h2⟩ | h1 | ⟨h1, h2⟩ <;> simp [h1, *])
    (fun x x' L u v A B hA hx => ⟨hA.args hne hx.1, (hx.2.1).only hA.only (by simp only [List.mem_singleton, forall_eq]; exact h.apart _ (by simp) _ (by simp)), (hx.2.2.1).only hA.only (by simp only [List.mem_singleton, forall_eq]; exact h.apart _ (by simp) _ (by simp)), (hx.2.2.2).only hA.only (by simp only [List.mem_singleton, forall_eq]; exact h.apart _ (by simp) _ (by simp))⟩)
    s1 ⟨K1.args h, hB0.only K1.only (by simp only [List.mem_singleton, forall_eq]; exact h.apart _ (by simp) _ (by simp)), hB1.only K1.only (by simp only [List.mem_singleton, forall_eq]; exact h.apart _ (by simp) _ (by simp)), hB2.only K1.only (by simp only [List.mem_singleton, forall_eq]; exact h.apart _ (by simp) _ (by simp))⟩
  have g1 := K1.args h
  obtain ⟨s2u', a2', K2, D1⟩ := diag_v2_3 (alpha := alpha) hβ4 hi hj hk hs (g1.sub (by simp) (fun _ e => e))
  obtain rfl : s2u = s2u' := Except.ok.inj (a2.symm.trans a2')
  obtain ⟨s3, a3, K3, D3⟩ := diag_v2_3 (alpha := alpha) hβ4 hi hj hk hs (g2.sub (by simp) (fun _ e => e))
  have D1 : F.Diagonal s1 s2u (F.st3d st i0 j0 k0 i1 j1 k1 sgcw) (7 - 1) (F.InBounds [(i0, i1), (j0, j1), (k0, k1)]) (fun c => alpha * (fun _ => 1) c) := ⟨fun c hc => by rw [D1.zero c hc, mul_one], D1.other⟩
  have D3 : F.Diagonal s2 s3 (F.st3d st i0 j0 k0 i1 j1 k1 sgcw) (7 - 1) (F.InBounds [(i0, i1), (j0, j1), (k0, k1)]) (fun c => alpha * (fun _ => 1) c) := ⟨fun c hc => by rw [D3.zero c hc, mul_one], D3.other⟩
  have o3 := (K1.only.trans o2).trans K3.only
  obtain ⟨r1, r2, r3⟩ := F.bvp_core (q := q) (X := X) (Y := Y) (a := (F.st3d st i0 j0 k0 i1 j1 k1 sgcw)) hp ho o3 (K3.ok (g2.ok _ (by simp))) ⟨h.apart _ (by simp) (F.cell3d rhs i0 j0 k0 i1 j1 k1 fgcw) (by simp), h.apart _ (by simp) (F.cell3d u i0 j0 k0 i1 j1 k1 gcw) (by simp)⟩ D1 D3 v2
    (fun p hp => by
      rw [F.inBounds3] at hp
      obtain ⟨i, j, k, rfl, hp⟩ := hp
      exact F.shift3_0)
    (fun p hp => by
      rw [F.inBounds3] at hp
      obtain ⟨i, j, k, rfl, hp⟩ := hp
      rw [F.eqn3 (hc i j k (by omega) (by omega) (by omega) (by omega) (by omega) (by omega))]
      exact hX i j k (by omega) (by omega) (by omega) (by omega) (by omega) (by omega))
    (fun p hp e h0 h1 => by
      rw [F.inBounds3] at hp
      obtain ⟨i, j, k, rfl, hp⟩ := hp
      obtain ⟨-, g1, g2, g3, g4, g5, g6⟩ := (hc i j k (by omega) (by omega) (by omega) (by omega) (by omega) (by omega)).sign he (by omega) (by omega) (by omega) (by omega) (by omega) (by omega)
      have : e = 1 ∨ e = 2 ∨ e = 3 ∨ e = 4 ∨ e = 5 ∨ e = 6 := by omega
      rcases this with rfl | rfl | rfl | rfl | rfl | rfl
      · exact g1.le
      · exact g2.le
      · exact g3.le
      · exact g4.le
      · exact g5.le
      · exact g6.le)
    (fun p hp => by
      rw [F.inBounds3] at hp
      obtain ⟨i, j, k, rfl, hp⟩ := hp
      have d0 : 0 < beta / (dx 0 * dx 0) * (B0 [i, j, k] + B0 [i + 1, j, k]) := mul_pos (div_pos he.beta (mul_self_pos.2 he.dx0)) (add_pos (he.face0 i j k (by omega) (by omega) (by omega) (by omega) (by omega) (by omega)) (he.face0 (i + 1) j k (by omega) (by omega) (by omega) (by omega) (by omega) (by omega)))
      have d1 : 0 < beta / (dx 1 * dx 1) * (B1 [j, k, i] + B1 [j + 1, k, i]) := mul_pos (div_pos he.beta (mul_self_pos.2 he.dx1)) (add_pos (he.face1 i j k (by omega) (by omega) (by omega) (by omega) (by omega) (by omega)) (he.face1 i (j + 1) k (by omega) (by omega) (by omega) (by omega) (by omega) (by omega)))
      have d2 : 0 < beta / (dx 2 * dx 2) * (B2 [k, i, j] + B2 [k + 1, i, j]) := mul_pos (div_pos he.beta (mul_self_pos.2 he.dx2)) (add_pos (he.face2 i j k (by omega) (by omega) (by omega) (by omega) (by omega) (by omega)) (he.face2 i j (k + 1) (by omega) (by omega) (by omega) (by omega) (by omega) (by omega)))
      have k0 := he.cell i j k (by omega) (by omega) (by omega) (by omega) (by omega) (by omega)
      have kq := hq i j k (by omega) (by omega) (by omega) (by omega) (by omega) (by omega)
      have h3 : 0 < (1 - q) * (2 * (beta / (dx 0 * dx 0) * (B0 [i, j, k] + B0 [i + 1, j, k]) + beta / (dx 1 * dx 1) * (B1 [j, k, i] + B1 [j + 1, k, i]) + beta / (dx 2 * dx 2) * (B2 [k, i, j] + B2 [k + 1, i, j]))) := mul_pos (by linarith) (by linarith)
      have h4 : 0 ≤ (1 - q) * (alpha * (fun _ => 1) [i, j, k]) := mul_nonneg (by linarith) k0
      rw [mul_add] at kq
      exact lt_of_lt_of_le (by linarith) kq)
    (fun p hp => by
      rw [F.inBounds3] at hp
      obtain ⟨i, j, k, rfl, hp⟩ := hp
      have kq := hq i j k (by omega) (by omega) (by omega) (by omega) (by omega) (by omega)
      have c := hc i j k (by omega) (by omega) (by omega) (by omega) (by omega) (by omega)
      rw [F.ring3, c.c1, c.c2, c.c3, c.c4, c.c5, c.c6]
      refine le_trans (le_of_eq ?_) kq
      ring)
    hd hF (fun k hk => by
      obtain ⟨s, hsm, rfl⟩ := List.mem_map.1 hk
      have hll := hl s hsm
      have hoo := hout s hsm
      refine ⟨hfi s hsm, ?_, fun c hc => ?_⟩
      · have := hll.hdir; exact hdx s.dir.toNat (by omega)
      · refine ⟨layer3_in hll hc, ?_, ?_⟩
        · exact piece_out3 hll hoo hc
        · obtain ⟨i, j, k, rfl, hc⟩ := hc
          have hin := (F.inBounds3.1 (layer3_in hll ⟨i, j, k, rfl, hc⟩))
          obtain ⟨i', j', k', hi', hb1⟩ := hin
          simp at hi'
          have hsd := hll.hside
          show 0 ≤ F.onFace3 B0 B1 B2 s.dir s.side [i, j, k]
          unfold F.onFace3
          have hdd : s.dir = 0 ∨ s.dir = 1 ∨ s.dir = 2 := by have := hll.hdir; omega
          rcases hdd with e' | e' | e' <;> simp only [e', if_true, if_false, show ¬ (1 : Int) = 0 by decide, show ¬ (2 : Int) = 0 by decide, show ¬ (2 : Int) = 1 by decide]
          · exact (he.face0 _ _ _ (by omega) (by omega) (by omega) (by omega) (by omega) (by omega)).le
          · exact (he.face1 _ _ _ (by omega) (by omega) (by omega) (by omega) (by omega) (by omega)).le
          · exact (he.face2 _ _ _ (by omega) (by omega) (by omega) (by omega) (by omega) (by omega)).le)
    hY hD
  refine ⟨s1, s2, s3, _, a1, f2, a3, ?_, o3, r1, r2, r3⟩
  have hw : ∀ l' : List F.Side3, (∀ s ∈ l', s ∈ sides) → l'.foldlM (fun m s => Cuda.adjDiag3d i0 j0 k0 i1 j1 k1 s.i0 s.j0 s.k0 s.i1 s.j1 s.k1 s.dir s.side s.btype s.order dx beta b0 b1 b2 sgcw st (βs s) m) s3 = .ok s3 := by
    intro l'
    induction l' with
    | nil => exact fun _ => rfl
    | cons s l' ih =>
      intro hs'
      have hfo := hfi s (hs' s (by simp))
      unfold F.First at hfo
      rw [List.foldlM_cons, adjdiag3_skip hi hj hk hs (hl s (hs' s (by simp))) (by omega) hb]
      exact ih fun s hs'' => hs' s (List.mem_cons_of_mem _ hs'')
  exact hw sides fun _ h => h

end Verif
