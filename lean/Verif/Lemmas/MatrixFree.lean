import Verif.Lemmas.BoundarySolve
import Verif.Props.DotOffset

/-
Assembled and adjusted coefficients, applied with the dot product kernel.
-/

set_option linter.unusedSectionVars false
set_option linter.unusedSimpArgs false
set_option linter.unusedVariables false

namespace Verif
open Spec

variable {T : Type}

/-- the table with indices from 0 and from 1 -/
theorem IntEl.from1 {m : Mem T} {o : Ptr} {N n c s z : Int} (h : F.IntEl m (F.offset0 o N n) [c, s] z) : F.IntEl m (F.offsets o N n) [c + 1, s + 1] z := by
  obtain ⟨hb, hv⟩ := h
  simp only [F.offset0, F.InBounds, and_true] at hb
  refine ⟨?_, ?_⟩
  · simp only [F.offsets, F.InBounds, and_true]
    omega
  · rw [← hv]
    simp [F.offsets, F.offset0, F.colMajor]

variable [Field T]

namespace F

/-- the rows with the factors on the data in the ghost cells have the value that the rows without have on the ghost values -/
theorem mat_core [CharZero T] {box : List (Int × Int)} {n : Int} {O : Int → List Int} {k X Y D : List Int → T} {ps : List (Piece T)} {s1 s2u s2 s3 : Mem T} {a : Arr} (hn : 1 ≤ n)
    (hin : ∀ c, InBounds box c → ∀ e, 0 ≤ e → e ≤ n - 1 → InBounds a.dims (e :: c))
    (D1 : Diagonal s1 s2u a (n - 1) (InBounds box) k) (D3 : Diagonal s2 s3 a (n - 1) (InBounds box) k)
    (hv : ∀ c e, InBounds a.dims (e :: c) → rd s2 a (e :: c) = factor ps c e * rd s1 a (e :: c))
    (hO : ∀ p, InBounds box p → shift p (O 0) = p) (hd : Disjoint ps) (hF : Fulfils box n O ps D X)
    (hc : ∀ k ∈ ps, First k.btype k.order ∧ ∀ c, k.cells c → InBounds box c ∧ ¬ InBounds box (shift c (O k.ghost)) ∧ (k.btype = 4 → 4 * k.coef c + k.width ≠ 0))
    (hY : ∀ p, InBounds box p → Y p = X p) (hD : ∀ p, ¬ InBounds box p → Y p = D p) {p : List Int} (hp : InBounds box p) (G : List Int → T) :
    Eqn n O (rd s3 a) G Y p ↔ Eqn n O (rd s2u a) G X p := by
  have e2 : ∀ c, InBounds box c → ∀ e, 1 ≤ e → e ≤ n - 1 → rd s1 a (e :: c) = rd s2u a (e :: c) := fun c hc e h0 h1 => (D1.other c hc e h0 h1).symm
  have hS : ∀ c, InBounds box c → rd s2u a (0 :: c) = -sum 1 (n - 1) (fun e => rd s2u a (e :: c)) + k c := fun c hc => by
    rw [D1.zero c hc, sum_congr fun e h0 h1 => e2 c hc e h0 h1]
  have hf : ∀ c, InBounds box c → ∀ e, 1 ≤ e → e ≤ n - 1 → rd s3 a (e :: c) = factor ps c e * rd s2u a (e :: c) := fun c hc e h0 h1 => by
    rw [D3.other c hc e h0 h1, hv c e (hin c hc e (by omega) (by omega)), e2 c hc e h0 h1]
  have hS' : ∀ c, InBounds box c → rd s3 a (0 :: c) = -sum 1 (n - 1) (fun e => rd s3 a (e :: c)) + k c := fun c hc => by
    rw [D3.zero c hc, sum_congr fun e h0 h1 => (D3.other c hc e h0 h1).symm]
  exact bv_eqn hn hO hS hS' hf hd hF hc hY hD hp

end F

theorem points1_entry {m : Mem T} {o : Ptr} (ht : F.Rows m (F.offset0 o 1 3) F.points1) :
    F.IntEl m (F.offsets o 1 3) [1, 1] (0) ∧ F.IntEl m (F.offsets o 1 3) [1, 2] (-1) ∧ F.IntEl m (F.offsets o 1 3) [1, 3] (1) :=
  ⟨IntEl.from1 (c := 0) (s := 0) (ht 0 0 _ _ rfl rfl), IntEl.from1 (c := 0) (s := 1) (ht 1 0 _ _ rfl rfl), IntEl.from1 (c := 0) (s := 2) (ht 2 0 _ _ rfl rfl)⟩

theorem points1_reach {m : Mem T} {o : Ptr} {g : Int} (hg : 1 ≤ g) (ht : F.Rows m (F.offset0 o 1 3) F.points1) : F.Reach m o 1 3 g := by
  obtain ⟨t00, t10, t20⟩ := points1_entry ht
  intro s c s0 s1 c0 c1
  obtain rfl | rfl | rfl : s = 1 ∨ s = 2 ∨ s = 3 := by omega
  · obtain rfl : c = 1 := by omega
    exact ⟨_, t00, by omega, by omega⟩
  · obtain rfl : c = 1 := by omega
    exact ⟨_, t10, by omega, by omega⟩
  · obtain rfl : c = 1 := by omega
    exact ⟨_, t20, by omega, by omega⟩

theorem points2_entry {m : Mem T} {o : Ptr} (ht : F.Rows m (F.offset0 o 2 5) F.points2) :
    F.IntEl m (F.offsets o 2 5) [1, 1] (0) ∧ F.IntEl m (F.offsets o 2 5) [2, 1] (0) ∧ F.IntEl m (F.offsets o 2 5) [1, 2] (-1) ∧ F.IntEl m (F.offsets o 2 5) [2, 2] (0) ∧ F.IntEl m (F.offsets o 2 5) [1, 3] (1) ∧ F.IntEl m (F.offsets o 2 5) [2, 3] (0) ∧ F.IntEl m (F.offsets o 2 5) [1, 4] (0) ∧ F.IntEl m (F.offsets o 2 5) [2, 4] (-1) ∧ F.IntEl m (F.offsets o 2 5) [1, 5] (0) ∧ F.IntEl m (F.offsets o 2 5) [2, 5] (1) :=
  ⟨IntEl.from1 (c := 0) (s := 0) (ht 0 0 _ _ rfl rfl), IntEl.from1 (c := 1) (s := 0) (ht 0 1 _ _ rfl rfl), IntEl.from1 (c := 0) (s := 1) (ht 1 0 _ _ rfl rfl), IntEl.from1 (c := 1) (s := 1) (ht 1 1 _ _ rfl rfl), IntEl.from1 (c := 0) (s := 2) (ht 2 0 _ _ rfl rfl), IntEl.from1 (c := 1) (s := 2) (ht 2 1 _ _ rfl rfl), IntEl.from1 (c := 0) (s := 3) (ht 3 0 _ _ rfl rfl), IntEl.from1 (c := 1) (s := 3) (ht 3 1 _ _ rfl rfl), IntEl.from1 (c := 0) (s := 4) (ht 4 0 _ _ rfl rfl), IntEl.from1 (c := 1) (s := 4) (ht 4 1 _ _ rfl rfl)⟩

theorem points2_reach {m : Mem T} {o : Ptr} {g : Int} (hg : 1 ≤ g) (ht : F.Rows m (F.offset0 o 2 5) F.points2) : F.Reach m o 2 5 g := by
  obtain ⟨t00, t01, t10, t11, t20, t21, t30, t31, t40, t41⟩ := points2_entry ht
  intro s c s0 s1 c0 c1
  obtain rfl | rfl | rfl | rfl | rfl : s = 1 ∨ s = 2 ∨ s = 3 ∨ s = 4 ∨ s = 5 := by omega
  · obtain rfl | rfl : c = 1 ∨ c = 2 := by omega
    · exact ⟨_, t00, by omega, by omega⟩
    · exact ⟨_, t01, by omega, by omega⟩
  · obtain rfl | rfl : c = 1 ∨ c = 2 := by omega
    · exact ⟨_, t10, by omega, by omega⟩
    · exact ⟨_, t11, by omega, by omega⟩
  · obtain rfl | rfl : c = 1 ∨ c = 2 := by omega
    · exact ⟨_, t20, by omega, by omega⟩
    · exact ⟨_, t21, by omega, by omega⟩
  · obtain rfl | rfl : c = 1 ∨ c = 2 := by omega
    · exact ⟨_, t30, by omega, by omega⟩
    · exact ⟨_, t31, by omega, by omega⟩
  · obtain rfl | rfl : c = 1 ∨ c = 2 := by omega
    · exact ⟨_, t40, by omega, by omega⟩
    · exact ⟨_, t41, by omega, by omega⟩

theorem points3_entry {m : Mem T} {o : Ptr} (ht : F.Rows m (F.offset0 o 3 7) F.points3) :
    F.IntEl m (F.offsets o 3 7) [1, 1] (0) ∧ F.IntEl m (F.offsets o 3 7) [2, 1] (0) ∧ F.IntEl m (F.offsets o 3 7) [3, 1] (0) ∧ F.IntEl m (F.offsets o 3 7) [1, 2] (-1) ∧ F.IntEl m (F.offsets o 3 7) [2, 2] (0) ∧ F.IntEl m (F.offsets o 3 7) [3, 2] (0) ∧ F.IntEl m (F.offsets o 3 7) [1, 3] (1) ∧ F.IntEl m (F.offsets o 3 7) [2, 3] (0) ∧ F.IntEl m (F.offsets o 3 7) [3, 3] (0) ∧ F.IntEl m (F.offsets o 3 7) [1, 4] (0) ∧ F.IntEl m (F.offsets o 3 7) [2, 4] (-1) ∧ F.IntEl m (F.offsets o 3 7) [3, 4] (0) ∧ F.IntEl m (F.offsets o 3 7) [1, 5] (0) ∧ F.IntEl m (F.offsets o 3 7) [2, 5] (1) ∧ F.IntEl m (F.offsets o 3 7) [3, 5] (0) ∧ F.IntEl m (F.offsets o 3 7) [1, 6] (0) ∧ F.IntEl m (F.offsets o 3 7) [2, 6] (0) ∧ F.IntEl m (F.offsets o 3 7) [3, 6] (-1) ∧ F.IntEl m (F.offsets o 3 7) [1, 7] (0) ∧ F.IntEl m (F.offsets o 3 7) [2, 7] (0) ∧ F.IntEl m (F.offsets o 3 7) [3, 7] (1) :=
  ⟨IntEl.from1 (c := 0) (s := 0) (ht 0 0 _ _ rfl rfl), IntEl.from1 (c := 1) (s := 0) (ht 0 1 _ _ rfl rfl), IntEl.from1 (c := 2) (s := 0) (ht 0 2 _ _ rfl rfl), IntEl.from1 (c := 0) (s := 1) (ht 1 0 _ _ rfl rfl), IntEl.from1 (c := 1) (s := 1) (ht 1 1 _ _ rfl rfl), IntEl.from1 (c := 2) (s := 1) (ht 1 2 _ _ rfl rfl), IntEl.from1 (c := 0) (s := 2) (ht 2 0 _ _ rfl rfl), IntEl.from1 (c := 1) (s := 2) (ht 2 1 _ _ rfl rfl), IntEl.from1 (c := 2) (s := 2) (ht 2 2 _ _ rfl rfl), IntEl.from1 (c := 0) (s := 3) (ht 3 0 _ _ rfl rfl), IntEl.from1 (c := 1) (s := 3) (ht 3 1 _ _ rfl rfl), IntEl.from1 (c := 2) (s := 3) (ht 3 2 _ _ rfl rfl), IntEl.from1 (c := 0) (s := 4) (ht 4 0 _ _ rfl rfl), IntEl.from1 (c := 1) (s := 4) (ht 4 1 _ _ rfl rfl), IntEl.from1 (c := 2) (s := 4) (ht 4 2 _ _ rfl rfl), IntEl.from1 (c := 0) (s := 5) (ht 5 0 _ _ rfl rfl), IntEl.from1 (c := 1) (s := 5) (ht 5 1 _ _ rfl rfl), IntEl.from1 (c := 2) (s := 5) (ht 5 2 _ _ rfl rfl), IntEl.from1 (c := 0) (s := 6) (ht 6 0 _ _ rfl rfl), IntEl.from1 (c := 1) (s := 6) (ht 6 1 _ _ rfl rfl), IntEl.from1 (c := 2) (s := 6) (ht 6 2 _ _ rfl rfl)⟩

theorem points3_reach {m : Mem T} {o : Ptr} {g : Int} (hg : 1 ≤ g) (ht : F.Rows m (F.offset0 o 3 7) F.points3) : F.Reach m o 3 7 g := by
  obtain ⟨t00, t01, t02, t10, t11, t12, t20, t21, t22, t30, t31, t32, t40, t41, t42, t50, t51, t52, t60, t61, t62⟩ := points3_entry ht
  intro s c s0 s1 c0 c1
  obtain rfl | rfl | rfl | rfl | rfl | rfl | rfl : s = 1 ∨ s = 2 ∨ s = 3 ∨ s = 4 ∨ s = 5 ∨ s = 6 ∨ s = 7 := by omega
  · obtain rfl | rfl | rfl : c = 1 ∨ c = 2 ∨ c = 3 := by omega
    · exact ⟨_, t00, by omega, by omega⟩
    · exact ⟨_, t01, by omega, by omega⟩
    · exact ⟨_, t02, by omega, by omega⟩
  · obtain rfl | rfl | rfl : c = 1 ∨ c = 2 ∨ c = 3 := by omega
    · exact ⟨_, t10, by omega, by omega⟩
    · exact ⟨_, t11, by omega, by omega⟩
    · exact ⟨_, t12, by omega, by omega⟩
  · obtain rfl | rfl | rfl : c = 1 ∨ c = 2 ∨ c = 3 := by omega
    · exact ⟨_, t20, by omega, by omega⟩
    · exact ⟨_, t21, by omega, by omega⟩
    · exact ⟨_, t22, by omega, by omega⟩
  · obtain rfl | rfl | rfl : c = 1 ∨ c = 2 ∨ c = 3 := by omega
    · exact ⟨_, t30, by omega, by omega⟩
    · exact ⟨_, t31, by omega, by omega⟩
    · exact ⟨_, t32, by omega, by omega⟩
  · obtain rfl | rfl | rfl : c = 1 ∨ c = 2 ∨ c = 3 := by omega
    · exact ⟨_, t40, by omega, by omega⟩
    · exact ⟨_, t41, by omega, by omega⟩
    · exact ⟨_, t42, by omega, by omega⟩
  · obtain rfl | rfl | rfl : c = 1 ∨ c = 2 ∨ c = 3 := by omega
    · exact ⟨_, t50, by omega, by omega⟩
    · exact ⟨_, t51, by omega, by omega⟩
    · exact ⟨_, t52, by omega, by omega⟩
  · obtain rfl | rfl | rfl : c = 1 ∨ c = 2 ∨ c = 3 := by omega
    · exact ⟨_, t60, by omega, by omega⟩
    · exact ⟨_, t61, by omega, by omega⟩
    · exact ⟨_, t62, by omega, by omega⟩

theorem mat_v1_1 [CharZero T] {i0 i1 agcw sgcw ugcw vgcw : Int} {alpha beta neu : T} {dx : Nat → T} {a b0 st u v o : Ptr} {β3 β4 β5 : Backend} {βs : F.Side1 → Backend} {sides : List F.Side1} {m : Mem T} {A B0 D X Y : List Int → T}
    (hβ3 : ValidBackend β3) (hβ4 : ValidBackend β4) (hβ5 : ValidBackend β5) (hβs : ∀ s, ValidBackend (βs s)) (hi : i0 ≤ i1) (hagcw : 0 ≤ agcw) (hs : 0 ≤ sgcw) (hg : 1 ≤ ugcw) (hvg : 0 ≤ vgcw)
    (hl : ∀ s ∈ sides, Layer1 i0 i1 0 s.i0 s.i1 s.side) (hout : ∀ s ∈ sides, s.Outside i0 i1) (hfi : ∀ s ∈ sides, F.First s.btype s.order) (hd : F.Disjoint (sides.map (F.Side1.piece dx B0)))
    (hco : ∀ s ∈ sides, s.btype = 4 → ∀ c, ((F.Side1.piece dx B0) s).cells c → 4 * ((F.Side1.piece dx B0) s).coef c + ((F.Side1.piece dx B0) s).width ≠ 0)
    (h : F.Args m [(F.cell1d a i0 i1 agcw), (F.face1d b0 i0 i1 0), (F.cell1d u i0 i1 ugcw)] [(F.st1d st i0 i1 sgcw), (F.cell1d v i0 i1 vgcw)]) (hvs : F.Apart (F.cell1d v i0 i1 vgcw) (F.st1d st i0 i1 sgcw))
    (hA : F.Holds m (F.cell1d a i0 i1 agcw) A) (hB0 : F.Holds m (F.face1d b0 i0 i1 0) B0) (hU : F.Holds m (F.cell1d u i0 i1 ugcw) Y) (ht : F.Rows m (F.offset0 o 1 3) F.points1)
    (hF : F.Fulfils [(i0, i1)] 3 (F.row F.points1) (sides.map (F.Side1.piece dx B0)) D X)
    (hY : ∀ p, F.InBounds [(i0, i1)] p → Y p = X p) (hD : ∀ p, ¬ F.InBounds [(i0, i1)] p → Y p = D p) :
    ∃ s1 s2 s3 s4, Cuda.offdiag1d i0 i1 i0 i1 dx beta b0 sgcw st β3 m = .ok s1 ∧ sides.foldlM (fun m s => Cuda.adjOffdiag1d i0 i1 s.i0 s.i1 s.side s.btype s.order dx 2 neu beta b0 sgcw st (βs s) m) s1 = .ok s2 ∧ Cuda.v1diag1d i0 i1 (i0 - agcw) (i1 + agcw) alpha a sgcw st β4 s2 = .ok s3 ∧
      sides.foldlM (fun m s => Cuda.adjDiag1d i0 i1 s.i0 s.i1 s.side s.btype s.order dx beta b0 sgcw st (βs s) m) s3 = .ok s3 ∧ Cuda.dotOffset1d st sgcw u ugcw v vgcw o i0 i1 3 β5 s3 = .ok s4 ∧
      ∀ i, i0 ≤ i → i ≤ i1 → F.El s4 (F.cell1d v i0 i1 vgcw) [i] (F.op1 alpha beta dx A B0 X i) := by
  obtain ⟨s1, s2u, S, a1, a2, ho, hS, hc⟩ := asm_v1_1 (alpha := alpha) (beta := beta) (dx := dx) hβ3 hβ4 hi hagcw hs (h.sub (ins' := [(F.cell1d a i0 i1 agcw), (F.face1d b0 i0 i1 0)]) (outs' := [(F.st1d st i0 i1 sgcw)]) (by simp) (by simp)) hA hB0
  have hb : F.Args m [(F.face1d b0 i0 i1 0)] [(F.st1d st i0 i1 sgcw)] := h.sub (by simp) (by simp)
  have hne : (F.st1d st i0 i1 sgcw).dims ≠ [] := by simp [F.st1d]
  obtain ⟨s1', d1, e1⟩ := C36_offdiag_1d (dx := dx) (beta := beta) hβ3 hi ⟨le_rfl, le_rfl⟩ hs hb
  obtain ⟨s1'', q1, -, K1, -⟩ := offdiag1_run (dx := dx) (beta := beta) hi hs ⟨le_rfl, le_rfl⟩ hb
  obtain rfl : s1'' = s1' := Except.ok.inj (q1.symm.trans e1)
  obtain rfl : s1 = s1'' := Except.ok.inj (a1.symm.trans d1)
  obtain ⟨s2, f2, o2, ⟨g2, w2⟩, v2⟩ := F.fold_adj (run := fun s m => Cuda.adjOffdiag1d i0 i1 s.i0 s.i1 s.side s.btype s.order dx 2 neu beta b0 sgcw st (βs s) m) (pc := (F.Side1.piece dx B0)) (a := (F.st1d st i0 i1 sgcw)) hne
    (Good := fun x => F.Args x [(F.cell1d a i0 i1 agcw), (F.face1d b0 i0 i1 0), (F.cell1d u i0 i1 ugcw)] [(F.st1d st i0 i1 sgcw), (F.cell1d v i0 i1 vgcw)] ∧ F.Holds x (F.face1d b0 i0 i1 0) B0) (l := sides) (fun s hsm x gx => by
      obtain ⟨gx, gB0⟩ := gx
      have hfo := hfi s hsm
      have hll := hl s hsm
      have h' := adjoff1_does (dx := dx) (dir_factor := 2) (neu_factor := neu) (beta := beta) (btype := s.btype) (exOrder := s.order) (st_ := st) (b0_ := b0) (hβs s) hi hs hll (by
        unfold F.First at hfo
        skip
        rcases hfo with ⟨h1, h2⟩ | h1 | ⟨h1, h2⟩
        · exact .inl ⟨h1, h2, rfl⟩
        · exact .inr (.inr (.inl h1))
        · exact .inr (.inr (.inr ⟨h1, h2⟩))) (gx.sub (by simp) (by simp))
      refine ⟨_, h'.congr (fun _ => Iff.rfl) (fun c hc => ?_) (fun c hc => ?_)⟩
      · show facU _ _ _ _ = facU _ _ _ _
        rw [onFace1_holds hll hc gB0]
        rfl
      · unfold F.First at hfo
        unfold facV
        rcases hfo with ⟨h1, h2⟩ | h1 | ⟨h1, h2⟩ <;> simp [h1, *])
    (fun x x' L u v A B hA hx => ⟨hA.args hne hx.1, (hx.2).only hA.only (by simp only [List.mem_singleton, forall_eq]; exact h.apart _ (by simp) _ (by simp))⟩)
    s1 ⟨K1.args h, hB0.only K1.only (by simp only [List.mem_singleton, forall_eq]; exact h.apart _ (by simp) _ (by simp))⟩
  have g1 := K1.args h
  have ea : (F.cell1d a (i0 - agcw) (i1 + agcw) 0) = (F.cell1d a i0 i1 agcw) := by simp [F.cell1d]
  have hAx : ∀ x, F.Only [(F.st1d st i0 i1 sgcw)] m x → ∀ c, F.InBounds [(i0, i1)] c → alpha * F.rd x (F.cell1d a (i0 - agcw) (i1 + agcw) 0) c = alpha * A c := fun x ox c hc => by
    have hin := in_cell1 (a_ := a) hc (show i0 - agcw ≤ i0 ∧ i1 ≤ i1 + agcw by omega)
    rw [F.rd_only ox (ea ▸ h.apart _ (by simp) (F.cell1d a i0 i1 agcw) (by simp)) hin, ea, (hA c (ea ▸ hin)).rd]
  obtain ⟨s2u', a2', K2, D1⟩ := diag_v1_1 (alpha := alpha) hβ4 hi hs ⟨by omega, by omega⟩ (show F.Args s1 [(F.cell1d a (i0 - agcw) (i1 + agcw) 0)] [(F.st1d st i0 i1 sgcw)] by rw [ea]; exact g1.sub (by simp) (by simp))
  obtain rfl : s2u = s2u' := Except.ok.inj (a2.symm.trans a2')
  obtain ⟨s3, a3, K3, D3⟩ := diag_v1_1 (alpha := alpha) hβ4 hi hs ⟨by omega, by omega⟩ (show F.Args s2 [(F.cell1d a (i0 - agcw) (i1 + agcw) 0)] [(F.st1d st i0 i1 sgcw)] by rw [ea]; exact g2.sub (by simp) (by simp))
  have D1 : F.Diagonal s1 s2u (F.st1d st i0 i1 sgcw) (3 - 1) (F.InBounds [(i0, i1)]) (fun c => alpha * A c) := ⟨fun c hc => by rw [D1.zero c hc, hAx s1 K1.only c hc], D1.other⟩
  have D3 : F.Diagonal s2 s3 (F.st1d st i0 i1 sgcw) (3 - 1) (F.InBounds [(i0, i1)]) (fun c => alpha * A c) := ⟨fun c hc => by rw [D3.zero c hc, hAx s2 (K1.only.trans o2) c hc], D3.other⟩
  have o3 := (K1.only.trans o2).trans K3.only
  have g3 := K3.args g2
  have ht3 : F.Rows s3 (F.offset0 o 1 3) F.points1 := fun s c row z hr hz => ⟨(ht s c row z hr hz).1, by rw [o3.ints]; exact (ht s c row z hr hz).2⟩
  have hU3 : F.Holds s3 (F.cell1d u i0 i1 ugcw) Y := hU.only o3 (by simp only [List.mem_singleton, forall_eq]; exact h.apart _ (by simp) _ (by simp))
  have hap : ∀ b ∈ [(F.st1d st i0 i1 sgcw), (F.cell1d u i0 i1 ugcw)], F.Apart (F.cell1d v i0 i1 vgcw) b := by
    intro b hb
    simp only [List.mem_cons, List.not_mem_nil, or_false] at hb
    rcases hb with rfl | rfl
    · exact hvs
    · exact h.apart _ (by simp) _ (by simp)
  have hd3 : F.Args s3 [(F.st1d st i0 i1 sgcw), (F.cell1d u i0 i1 ugcw)] [(F.cell1d v i0 i1 vgcw)] := by
    refine ⟨fun b hb => g3.ok b ?_, fun w hw b hb => by rw [List.mem_singleton.1 hw]; exact hap b hb⟩
    simp only [List.mem_cons, List.mem_append, List.not_mem_nil, or_false] at hb ⊢
    tauto
  obtain ⟨s4, f4, r4, -, -⟩ := C48_value_1d (w1 := 3) hβ5 hi (by omega) hs hvg hd3 (points1_reach hg ht3) (by omega)
  refine ⟨s1, s2, s3, s4, a1, f2, a3, ?_, f4, fun i hi0 hi1 => ?_⟩
  · have hw : ∀ l' : List F.Side1, (∀ s ∈ l', s ∈ sides) → l'.foldlM (fun m s => Cuda.adjDiag1d i0 i1 s.i0 s.i1 s.side s.btype s.order dx beta b0 sgcw st (βs s) m) s3 = .ok s3 := by
      intro l'
      induction l' with
      | nil => exact fun _ => rfl
      | cons s l' ih =>
        intro hs'
        have hfo := hfi s (hs' s (by simp))
        unfold F.First at hfo
        rw [List.foldlM_cons, adjdiag1_skip hi hs (hl s (hs' s (by simp))) (by omega) hb]
        exact ih fun s hs'' => hs' s (List.mem_cons_of_mem _ hs'')
    exact hw sides fun _ h => h
  have hp : F.InBounds [(i0, i1)] [i] := F.inBounds1.2 ⟨i, rfl, by omega⟩
  have hin : ∀ c, F.InBounds [(i0, i1)] c → ∀ e, 0 ≤ e → e ≤ 3 - 1 → F.InBounds (F.st1d st i0 i1 sgcw).dims (e :: c) := by
    intro c hc e he0 he1
    obtain ⟨i, rfl, hc⟩ := F.inBounds1.1 hc
    simp only [F.st1d, F.InBounds, and_true]
    omega
  have key := (F.mat_core (s1 := s1) (s2u := s2u) (s2 := s2) (s3 := s3) (a := (F.st1d st i0 i1 sgcw)) (by omega) hin D1 D3 v2
    (fun p hp => by
      obtain ⟨i, rfl, hp⟩ := F.inBounds1.1 hp
      exact F.shift1_0)
    hd hF (fun k hk => by
      obtain ⟨s, hsm, rfl⟩ := List.mem_map.1 hk
      exact ⟨hfi s hsm, fun c hc => ⟨layer1_in (hl s hsm) hc, piece_out1 (hl s hsm) (hout s hsm) hc, fun h4 => hco s hsm h4 c hc⟩⟩)
    hY hD hp (fun _ => F.op1 alpha beta dx A B0 X i)).2
  have hq : F.Eqn 3 (F.row F.points1) (F.rd s2u (F.st1d st i0 i1 sgcw)) (fun _ => F.op1 alpha beta dx A B0 X i) X [i] := by
    have e := (F.eqn1 (G := fun _ => F.op1 alpha beta dx A B0 X i) (X := X) (hc i hi0 hi1)).2 rfl
    unfold F.Eqn at e ⊢
    rw [← e]
    exact F.sum_congr fun e he0 he1 => by rw [(hS _ (hin _ hp e he0 he1)).rd]
  have val := key hq
  unfold F.Eqn at val
  rw [F.star1, F.shift1_0, F.shift1_1, F.shift1_2] at val
  obtain ⟨t00, t10, t20⟩ := points1_entry ht3
  have fin := r4 i hi0 hi1 (fun e => F.rd s3 (F.st1d st i0 i1 sgcw) [e, i]) (fun e => Y (F.shift [i] (F.row F.points1 e))) (fun e he0 he1 => by
    refine ⟨(g3.ok (F.st1d st i0 i1 sgcw) (by simp)).rd (hin _ hp e he0 (by omega)), ?_⟩
    obtain rfl | rfl | rfl : e = 0 ∨ e = 1 ∨ e = 2 := by omega
    · refine ⟨_, t00, ?_⟩
      rw [F.shift1_0]
      have w := hU3 [i] (by in_bounds)
      rw [show [i + (0)] = [i] by simp only [add_zero, ← sub_eq_add_neg]]
      exact w
    · refine ⟨_, t10, ?_⟩
      rw [F.shift1_1]
      have w := hU3 [i - 1] (by in_bounds)
      rw [show [i + (-1)] = [i - 1] by simp only [add_zero, ← sub_eq_add_neg]]
      exact w
    · refine ⟨_, t20, ?_⟩
      rw [F.shift1_2]
      have w := hU3 [i + 1] (by in_bounds)
      rw [show [i + (1)] = [i + 1] by simp only [add_zero, ← sub_eq_add_neg]]
      exact w)
  replace val := val.symm
  beta_reduce at val
  rw [val]
  have er : F.irange 0 (3 - 1) = [0, 1, 2] := rfl
  rw [er] at fin
  simp only [List.foldl_cons, List.foldl_nil, zero_add, F.shift1_0, F.shift1_1, F.shift1_2] at fin
  exact fin

theorem mat_v2_1 [CharZero T] {i0 i1 sgcw ugcw vgcw : Int} {alpha beta neu : T} {dx : Nat → T} {b0 st u v o : Ptr} {β3 β4 β5 : Backend} {βs : F.Side1 → Backend} {sides : List F.Side1} {m : Mem T} {B0 D X Y : List Int → T}
    (hβ3 : ValidBackend β3) (hβ4 : ValidBackend β4) (hβ5 : ValidBackend β5) (hβs : ∀ s, ValidBackend (βs s)) (hi : i0 ≤ i1) (hs : 0 ≤ sgcw) (hg : 1 ≤ ugcw) (hvg : 0 ≤ vgcw)
    (hl : ∀ s ∈ sides, Layer1 i0 i1 0 s.i0 s.i1 s.side) (hout : ∀ s ∈ sides, s.Outside i0 i1) (hfi : ∀ s ∈ sides, F.First s.btype s.order) (hd : F.Disjoint (sides.map (F.Side1.piece dx B0)))
    (hco : ∀ s ∈ sides, s.btype = 4 → ∀ c, ((F.Side1.piece dx B0) s).cells c → 4 * ((F.Side1.piece dx B0) s).coef c + ((F.Side1.piece dx B0) s).width ≠ 0)
    (h : F.Args m [(F.face1d b0 i0 i1 0), (F.cell1d u i0 i1 ugcw)] [(F.st1d st i0 i1 sgcw), (F.cell1d v i0 i1 vgcw)]) (hvs : F.Apart (F.cell1d v i0 i1 vgcw) (F.st1d st i0 i1 sgcw))
    (hB0 : F.Holds m (F.face1d b0 i0 i1 0) B0) (hU : F.Holds m (F.cell1d u i0 i1 ugcw) Y) (ht : F.Rows m (F.offset0 o 1 3) F.points1)
    (hF : F.Fulfils [(i0, i1)] 3 (F.row F.points1) (sides.map (F.Side1.piece dx B0)) D X)
    (hY : ∀ p, F.InBounds [(i0, i1)] p → Y p = X p) (hD : ∀ p, ¬ F.InBounds [(i0, i1)] p → Y p = D p) :
    ∃ s1 s2 s3 s4, Cuda.offdiag1d i0 i1 i0 i1 dx beta b0 sgcw st β3 m = .ok s1 ∧ sides.foldlM (fun m s => Cuda.adjOffdiag1d i0 i1 s.i0 s.i1 s.side s.btype s.order dx 2 neu beta b0 sgcw st (βs s) m) s1 = .ok s2 ∧ Cuda.v2diag1d i0 i1 alpha sgcw st β4 s2 = .ok s3 ∧
      sides.foldlM (fun m s => Cuda.adjDiag1d i0 i1 s.i0 s.i1 s.side s.btype s.order dx beta b0 sgcw st (βs s) m) s3 = .ok s3 ∧ Cuda.dotOffset1d st sgcw u ugcw v vgcw o i0 i1 3 β5 s3 = .ok s4 ∧
      ∀ i, i0 ≤ i → i ≤ i1 → F.El s4 (F.cell1d v i0 i1 vgcw) [i] (F.op1 alpha beta dx (fun _ => 1) B0 X i) := by
  obtain ⟨s1, s2u, S, a1, a2, ho, hS, hc⟩ := asm_v2_1 (alpha := alpha) (beta := beta) (dx := dx) hβ3 hβ4 hi hs (h.sub (ins' := [(F.face1d b0 i0 i1 0)]) (outs' := [(F.st1d st i0 i1 sgcw)]) (by simp) (by simp)) hB0
  have hb : F.Args m [(F.face1d b0 i0 i1 0)] [(F.st1d st i0 i1 sgcw)] := h.sub (by simp) (by simp)
  have hne : (F.st1d st i0 i1 sgcw).dims ≠ [] := by simp [F.st1d]
  obtain ⟨s1', d1, e1⟩ := C36_offdiag_1d (dx := dx) (beta := beta) hβ3 hi ⟨le_rfl, le_rfl⟩ hs hb
  obtain ⟨s1'', q1, -, K1, -⟩ := offdiag1_run (dx := dx) (beta := beta) hi hs ⟨le_rfl, le_rfl⟩ hb
  obtain rfl : s1'' = s1' := Except.ok.inj (q1.symm.trans e1)
  obtain rfl : s1 = s1'' := Except.ok.inj (a1.symm.trans d1)
  obtain ⟨s2, f2, o2, ⟨g2, w2⟩, v2⟩ := F.fold_adj (run := fun s m => Cuda.adjOffdiag1d i0 i1 s.i0 s.i1 s.side s.btype s.order dx 2 neu beta b0 sgcw st (βs s) m) (pc := (F.Side1.piece dx B0)) (a := (F.st1d st i0 i1 sgcw)) hne
    (Good := fun x => F.Args x [(F.face1d b0 i0 i1 0), (F.cell1d u i0 i1 ugcw)] [(F.st1d st i0 i1 sgcw), (F.cell1d v i0 i1 vgcw)] ∧ F.Holds x (F.face1d b0 i0 i1 0) B0) (l := sides) (fun s hsm x gx => by
      obtain ⟨gx, gB0⟩ := gx
      have hfo := hfi s hsm
      have hll := hl s hsm
      have h' := adjoff1_does (dx := dx) (dir_factor := 2) (neu_factor := neu) (beta := beta) (btype := s.btype) (exOrder := s.order) (st_ := st) (b0_ := b0) (hβs s) hi hs hll (by
        unfold F.First at hfo
        skip
        rcases hfo with ⟨h1, h2⟩ | h1 | ⟨h1, h2⟩
        · exact .inl ⟨h1, h2, rfl⟩
        · exact .inr (.inr (.inl h1))
        · exact .inr (.inr (.inr ⟨h1, h2⟩))) (gx.sub (by simp) (by simp))
      refine ⟨_, h'.congr (fun _ => Iff.rfl) (fun c hc => ?_) (fun c hc => ?_)⟩
      · show facU _ _ _ _ = facU _ _ _ _
        rw [onFace1_holds hll hc gB0]
        rfl
      · unfold F.First at hfo
        unfold facV
        rcases hfo with ⟨h1, h2⟩ | h1 | ⟨h1, h2⟩ <;> simp [h1, *])
    (fun x x' L u v A B hA hx => ⟨hA.args hne hx.1, (hx.2).only hA.only (by simp only [List.mem_singleton, forall_eq]; exact h.apart _ (by simp) _ (by simp))⟩)
    s1 ⟨K1.args h, hB0.only K1.only (by simp only [List.mem_singleton, forall_eq]; exact h.apart _ (by simp) _ (by simp))⟩
  have g1 := K1.args h
  obtain ⟨s2u', a2', K2, D1⟩ := diag_v2_1 (alpha := alpha) hβ4 hi hs (g1.sub (outs' := [(F.st1d st i0 i1 sgcw)]) (by simp) (by simp))
  obtain rfl : s2u = s2u' := Except.ok.inj (a2.symm.trans a2')
  obtain ⟨s3, a3, K3, D3⟩ := diag_v2_1 (alpha := alpha) hβ4 hi hs (g2.sub (outs' := [(F.st1d st i0 i1 sgcw)]) (by simp) (by simp))
  have o3 := (K1.only.trans o2).trans K3.only
  have g3 := K3.args g2
  have ht3 : F.Rows s3 (F.offset0 o 1 3) F.points1 := fun s c row z hr hz => ⟨(ht s c row z hr hz).1, by rw [o3.ints]; exact (ht s c row z hr hz).2⟩
  have hU3 : F.Holds s3 (F.cell1d u i0 i1 ugcw) Y := hU.only o3 (by simp only [List.mem_singleton, forall_eq]; exact h.apart _ (by simp) _ (by simp))
  have hap : ∀ b ∈ [(F.st1d st i0 i1 sgcw), (F.cell1d u i0 i1 ugcw)], F.Apart (F.cell1d v i0 i1 vgcw) b := by
    intro b hb
    simp only [List.mem_cons, List.not_mem_nil, or_false] at hb
    rcases hb with rfl | rfl
    · exact hvs
    · exact h.apart _ (by simp) _ (by simp)
  have hd3 : F.Args s3 [(F.st1d st i0 i1 sgcw), (F.cell1d u i0 i1 ugcw)] [(F.cell1d v i0 i1 vgcw)] := by
    refine ⟨fun b hb => g3.ok b ?_, fun w hw b hb => by rw [List.mem_singleton.1 hw]; exact hap b hb⟩
    simp only [List.mem_cons, List.mem_append, List.not_mem_nil, or_false] at hb ⊢
    tauto
  obtain ⟨s4, f4, r4, -, -⟩ := C48_value_1d (w1 := 3) hβ5 hi (by omega) hs hvg hd3 (points1_reach hg ht3) (by omega)
  refine ⟨s1, s2, s3, s4, a1, f2, a3, ?_, f4, fun i hi0 hi1 => ?_⟩
  · have hw : ∀ l' : List F.Side1, (∀ s ∈ l', s ∈ sides) → l'.foldlM (fun m s => Cuda.adjDiag1d i0 i1 s.i0 s.i1 s.side s.btype s.order dx beta b0 sgcw st (βs s) m) s3 = .ok s3 := by
      intro l'
      induction l' with
      | nil => exact fun _ => rfl
      | cons s l' ih =>
        intro hs'
        have hfo := hfi s (hs' s (by simp))
        unfold F.First at hfo
        rw [List.foldlM_cons, adjdiag1_skip hi hs (hl s (hs' s (by simp))) (by omega) hb]
        exact ih fun s hs'' => hs' s (List.mem_cons_of_mem _ hs'')
    exact hw sides fun _ h => h
  have hp : F.InBounds [(i0, i1)] [i] := F.inBounds1.2 ⟨i, rfl, by omega⟩
  have hin : ∀ c, F.InBounds [(i0, i1)] c → ∀ e, 0 ≤ e → e ≤ 3 - 1 → F.InBounds (F.st1d st i0 i1 sgcw).dims (e :: c) := by
    intro c hc e he0 he1
    obtain ⟨i, rfl, hc⟩ := F.inBounds1.1 hc
    simp only [F.st1d, F.InBounds, and_true]
    omega
  have key := (F.mat_core (s1 := s1) (s2u := s2u) (s2 := s2) (s3 := s3) (a := (F.st1d st i0 i1 sgcw)) (by omega) hin D1 D3 v2
    (fun p hp => by
      obtain ⟨i, rfl, hp⟩ := F.inBounds1.1 hp
      exact F.shift1_0)
    hd hF (fun k hk => by
      obtain ⟨s, hsm, rfl⟩ := List.mem_map.1 hk
      exact ⟨hfi s hsm, fun c hc => ⟨layer1_in (hl s hsm) hc, piece_out1 (hl s hsm) (hout s hsm) hc, fun h4 => hco s hsm h4 c hc⟩⟩)
    hY hD hp (fun _ => F.op1 alpha beta dx (fun _ => 1) B0 X i)).2
  have hq : F.Eqn 3 (F.row F.points1) (F.rd s2u (F.st1d st i0 i1 sgcw)) (fun _ => F.op1 alpha beta dx (fun _ => 1) B0 X i) X [i] := by
    have e := (F.eqn1 (G := fun _ => F.op1 alpha beta dx (fun _ => 1) B0 X i) (X := X) (hc i hi0 hi1)).2 rfl
    unfold F.Eqn at e ⊢
    rw [← e]
    exact F.sum_congr fun e he0 he1 => by rw [(hS _ (hin _ hp e he0 he1)).rd]
  have val := key hq
  unfold F.Eqn at val
  rw [F.star1, F.shift1_0, F.shift1_1, F.shift1_2] at val
  obtain ⟨t00, t10, t20⟩ := points1_entry ht3
  have fin := r4 i hi0 hi1 (fun e => F.rd s3 (F.st1d st i0 i1 sgcw) [e, i]) (fun e => Y (F.shift [i] (F.row F.points1 e))) (fun e he0 he1 => by
    refine ⟨(g3.ok (F.st1d st i0 i1 sgcw) (by simp)).rd (hin _ hp e he0 (by omega)), ?_⟩
    obtain rfl | rfl | rfl : e = 0 ∨ e = 1 ∨ e = 2 := by omega
    · refine ⟨_, t00, ?_⟩
      rw [F.shift1_0]
      have w := hU3 [i] (by in_bounds)
      rw [show [i + (0)] = [i] by simp only [add_zero, ← sub_eq_add_neg]]
      exact w
    · refine ⟨_, t10, ?_⟩
      rw [F.shift1_1]
      have w := hU3 [i - 1] (by in_bounds)
      rw [show [i + (-1)] = [i - 1] by simp only [add_zero, ← sub_eq_add_neg]]
      exact w
    · refine ⟨_, t20, ?_⟩
      rw [F.shift1_2]
      have w := hU3 [i + 1] (by in_bounds)
      rw [show [i + (1)] = [i + 1] by simp only [add_zero, ← sub_eq_add_neg]]
      exact w)
  replace val := val.symm
  beta_reduce at val
  rw [val]
  have er : F.irange 0 (3 - 1) = [0, 1, 2] := rfl
  rw [er] at fin
  simp only [List.foldl_cons, List.foldl_nil, zero_add, F.shift1_0, F.shift1_1, F.shift1_2] at fin
  exact fin

theorem mat_v1_2 [CharZero T] {i0 j0 i1 j1 agcw sgcw ugcw vgcw : Int} {alpha beta neu : T} {dx : Nat → T} {a b0 b1 st u v o : Ptr} {β3 β4 β5 : Backend} {βs : F.Side2 → Backend} {sides : List F.Side2} {m : Mem T} {A B0 B1 D X Y : List Int → T}
    (hβ3 : ValidBackend β3) (hβ4 : ValidBackend β4) (hβ5 : ValidBackend β5) (hβs : ∀ s, ValidBackend (βs s)) (hi : i0 ≤ i1) (hj : j0 ≤ j1) (hagcw : 0 ≤ agcw) (hs : 0 ≤ sgcw) (hg : 1 ≤ ugcw) (hvg : 0 ≤ vgcw)
    (hl : ∀ s ∈ sides, Layer2 i0 j0 i1 j1 0 s.i0 s.j0 s.i1 s.j1 s.dir s.side) (hout : ∀ s ∈ sides, s.Outside i0 j0 i1 j1) (hfi : ∀ s ∈ sides, F.First s.btype s.order) (hrob : ∀ s ∈ sides, s.btype = 4 → s.dir = 0) (hd : F.Disjoint (sides.map (F.Side2.piece dx B0 B1)))
    (hco : ∀ s ∈ sides, s.btype = 4 → ∀ c, ((F.Side2.piece dx B0 B1) s).cells c → 4 * ((F.Side2.piece dx B0 B1) s).coef c + ((F.Side2.piece dx B0 B1) s).width ≠ 0)
    (h : F.Args m [(F.cell2d a i0 j0 i1 j1 agcw), (F.face2d0 b0 i0 j0 i1 j1 0), (F.face2d1 b1 i0 j0 i1 j1 0), (F.cell2d u i0 j0 i1 j1 ugcw)] [(F.st2d st i0 j0 i1 j1 sgcw), (F.cell2d v i0 j0 i1 j1 vgcw)]) (hvs : F.Apart (F.cell2d v i0 j0 i1 j1 vgcw) (F.st2d st i0 j0 i1 j1 sgcw))
    (hA : F.Holds m (F.cell2d a i0 j0 i1 j1 agcw) A) (hB0 : F.Holds m (F.face2d0 b0 i0 j0 i1 j1 0) B0) (hB1 : F.Holds m (F.face2d1 b1 i0 j0 i1 j1 0) B1) (hU : F.Holds m (F.cell2d u i0 j0 i1 j1 ugcw) Y) (ht : F.Rows m (F.offset0 o 2 5) F.points2)
    (hF : F.Fulfils [(i0, i1), (j0, j1)] 5 (F.row F.points2) (sides.map (F.Side2.piece dx B0 B1)) D X)
    (hY : ∀ p, F.InBounds [(i0, i1), (j0, j1)] p → Y p = X p) (hD : ∀ p, ¬ F.InBounds [(i0, i1), (j0, j1)] p → Y p = D p) :
    ∃ s1 s2 s3 s4, Cuda.offdiag2d i0 j0 i1 j1 i0 j0 i1 j1 dx beta b0 b1 sgcw st β3 m = .ok s1 ∧ sides.foldlM (fun m s => Cuda.adjOffdiag2d i0 j0 i1 j1 s.i0 s.j0 s.i1 s.j1 s.dir s.side s.btype s.order dx 2 neu beta b0 b1 sgcw st (βs s) m) s1 = .ok s2 ∧ Cuda.v1diag2d i0 j0 i1 j1 (i0 - agcw) (j0 - agcw) (i1 + agcw) (j1 + agcw) alpha a sgcw st β4 s2 = .ok s3 ∧
      sides.foldlM (fun m s => Cuda.adjDiag2d i0 j0 i1 j1 s.i0 s.j0 s.i1 s.j1 s.dir s.side s.btype s.order dx beta b0 b1 sgcw st (βs s) m) s3 = .ok s3 ∧ Cuda.dotOffset2d st sgcw u ugcw v vgcw o i0 i1 j0 j1 5 β5 s3 = .ok s4 ∧
      ∀ i j, i0 ≤ i → i ≤ i1 → j0 ≤ j → j ≤ j1 → F.El s4 (F.cell2d v i0 j0 i1 j1 vgcw) [i, j] (F.op2 alpha beta dx A B0 B1 X i j) := by
  obtain ⟨s1, s2u, S, a1, a2, ho, hS, hc⟩ := asm_v1_2 (alpha := alpha) (beta := beta) (dx := dx) hβ3 hβ4 hi hj hagcw hs (h.sub (ins' := [(F.cell2d a i0 j0 i1 j1 agcw), (F.face2d0 b0 i0 j0 i1 j1 0), (F.face2d1 b1 i0 j0 i1 j1 0)]) (outs' := [(F.st2d st i0 j0 i1 j1 sgcw)]) (by simp) (by simp)) hA hB0 hB1
  have hb : F.Args m [(F.face2d0 b0 i0 j0 i1 j1 0), (F.face2d1 b1 i0 j0 i1 j1 0)] [(F.st2d st i0 j0 i1 j1 sgcw)] := h.sub (by simp) (by simp)
  have hne : (F.st2d st i0 j0 i1 j1 sgcw).dims ≠ [] := by simp [F.st2d]
  obtain ⟨s1', d1, e1⟩ := C36_offdiag_2d (dx := dx) (beta := beta) hβ3 hi hj ⟨le_rfl, le_rfl⟩ ⟨le_rfl, le_rfl⟩ hs hb
  obtain ⟨s1'', q1, -, K1, -⟩ := offdiag2_run (dx := dx) (beta := beta) hi hj hs ⟨le_rfl, le_rfl⟩ ⟨le_rfl, le_rfl⟩ hb
  obtain rfl : s1'' = s1' := Except.ok.inj (q1.symm.trans e1)
  obtain rfl : s1 = s1'' := Except.ok.inj (a1.symm.trans d1)
  obtain ⟨s2, f2, o2, ⟨g2, w2⟩, v2⟩ := F.fold_adj (run := fun s m => Cuda.adjOffdiag2d i0 j0 i1 j1 s.i0 s.j0 s.i1 s.j1 s.dir s.side s.btype s.order dx 2 neu beta b0 b1 sgcw st (βs s) m) (pc := (F.Side2.piece dx B0 B1)) (a := (F.st2d st i0 j0 i1 j1 sgcw)) hne
    (Good := fun x => F.Args x [(F.cell2d a i0 j0 i1 j1 agcw), (F.face2d0 b0 i0 j0 i1 j1 0), (F.face2d1 b1 i0 j0 i1 j1 0), (F.cell2d u i0 j0 i1 j1 ugcw)] [(F.st2d st i0 j0 i1 j1 sgcw), (F.cell2d v i0 j0 i1 j1 vgcw)] ∧ F.Holds x (F.face2d0 b0 i0 j0 i1 j1 0) B0 ∧ F.Holds x (F.face2d1 b1 i0 j0 i1 j1 0) B1) (l := sides) (fun s hsm x gx => by
      obtain ⟨gx, gB0, gB1⟩ := gx
      have hfo := hfi s hsm
      have hll := hl s hsm
      have h' := adjoff2_does (dx := dx) (dir_factor := 2) (neu_factor := neu) (beta := beta) (btype := s.btype) (exOrder := s.order) (st_ := st) (b0_ := b0) (b1_ := b1) (hβs s) hi hj hs hll (by
        unfold F.First at hfo
        have hr := hrob s hsm
        rcases hfo with ⟨h1, h2⟩ | h1 | ⟨h1, h2⟩
        · exact .inl ⟨h1, h2, rfl⟩
        · exact .inr (.inr (.inl h1))
        · exact .inr (.inr (.inr ⟨h1, h2, hr h1⟩))) (gx.sub (by simp) (by simp))
      refine ⟨_, h'.congr (fun _ => Iff.rfl) (fun c hc => ?_) (fun c hc => ?_)⟩
      · show facU _ _ _ _ = facU _ _ _ _
        rw [onFace2_holds hll hc gB0 gB1]
        rfl
      · unfold F.First at hfo
        unfold facV
        rcases hfo with ⟨h1, h2⟩ | h1 | ⟨h1, h2⟩ <;> simp [h1, *])
    (fun x x' L u v A B hA hx => ⟨hA.args hne hx.1, (hx.2.1).only hA.only (by simp only [List.mem_singleton, forall_eq]; exact h.apart _ (by simp) _ (by simp)), (hx.2.2).only hA.only (by simp only [List.mem_singleton, forall_eq]; exact h.apart _ (by simp) _ (by simp))⟩)
    s1 ⟨K1.args h, hB0.only K1.only (by simp only [List.mem_singleton, forall_eq]; exact h.apart _ (by simp) _ (by simp)), hB1.only K1.only (by simp only [List.mem_singleton, forall_eq]; exact h.apart _ (by simp) _ (by simp))⟩
  have g1 := K1.args h
  have ea : (F.cell2d a (i0 - agcw) (j0 - agcw) (i1 + agcw) (j1 + agcw) 0) = (F.cell2d a i0 j0 i1 j1 agcw) := by simp [F.cell2d]
  have hAx : ∀ x, F.Only [(F.st2d st i0 j0 i1 j1 sgcw)] m x → ∀ c, F.InBounds [(i0, i1), (j0, j1)] c → alpha * F.rd x (F.cell2d a (i0 - agcw) (j0 - agcw) (i1 + agcw) (j1 + agcw) 0) c = alpha * A c := fun x ox c hc => by
    have hin := in_cell2 (a_ := a) hc (show i0 - agcw ≤ i0 ∧ i1 ≤ i1 + agcw by omega) (show j0 - agcw ≤ j0 ∧ j1 ≤ j1 + agcw by omega)
    rw [F.rd_only ox (ea ▸ h.apart _ (by simp) (F.cell2d a i0 j0 i1 j1 agcw) (by simp)) hin, ea, (hA c (ea ▸ hin)).rd]
  obtain ⟨s2u', a2', K2, D1⟩ := diag_v1_2 (alpha := alpha) hβ4 hi hj hs ⟨by omega, by omega⟩ ⟨by omega, by omega⟩ (show F.Args s1 [(F.cell2d a (i0 - agcw) (j0 - agcw) (i1 + agcw) (j1 + agcw) 0)] [(F.st2d st i0 j0 i1 j1 sgcw)] by rw [ea]; exact g1.sub (by simp) (by simp))
  obtain rfl : s2u = s2u' := Except.ok.inj (a2.symm.trans a2')
  obtain ⟨s3, a3, K3, D3⟩ := diag_v1_2 (alpha := alpha) hβ4 hi hj hs ⟨by omega, by omega⟩ ⟨by omega, by omega⟩ (show F.Args s2 [(F.cell2d a (i0 - agcw) (j0 - agcw) (i1 + agcw) (j1 + agcw) 0)] [(F.st2d st i0 j0 i1 j1 sgcw)] by rw [ea]; exact g2.sub (by simp) (by simp))
  have D1 : F.Diagonal s1 s2u (F.st2d st i0 j0 i1 j1 sgcw) (5 - 1) (F.InBounds [(i0, i1), (j0, j1)]) (fun c => alpha * A c) := ⟨fun c hc => by rw [D1.zero c hc, hAx s1 K1.only c hc], D1.other⟩
  have D3 : F.Diagonal s2 s3 (F.st2d st i0 j0 i1 j1 sgcw) (5 - 1) (F.InBounds [(i0, i1), (j0, j1)]) (fun c => alpha * A c) := ⟨fun c hc => by rw [D3.zero c hc, hAx s2 (K1.only.trans o2) c hc], D3.other⟩
  have o3 := (K1.only.trans o2).trans K3.only
  have g3 := K3.args g2
  have ht3 : F.Rows s3 (F.offset0 o 2 5) F.points2 := fun s c row z hr hz => ⟨(ht s c row z hr hz).1, by rw [o3.ints]; exact (ht s c row z hr hz).2⟩
  have hU3 : F.Holds s3 (F.cell2d u i0 j0 i1 j1 ugcw) Y := hU.only o3 (by simp only [List.mem_singleton, forall_eq]; exact h.apart _ (by simp) _ (by simp))
  have hap : ∀ b ∈ [(F.st2d st i0 j0 i1 j1 sgcw), (F.cell2d u i0 j0 i1 j1 ugcw)], F.Apart (F.cell2d v i0 j0 i1 j1 vgcw) b := by
    intro b hb
    simp only [List.mem_cons, List.not_mem_nil, or_false] at hb
    rcases hb with rfl | rfl
    · exact hvs
    · exact h.apart _ (by simp) _ (by simp)
  have hd3 : F.Args s3 [(F.st2d st i0 j0 i1 j1 sgcw), (F.cell2d u i0 j0 i1 j1 ugcw)] [(F.cell2d v i0 j0 i1 j1 vgcw)] := by
    refine ⟨fun b hb => g3.ok b ?_, fun w hw b hb => by rw [List.mem_singleton.1 hw]; exact hap b hb⟩
    simp only [List.mem_cons, List.mem_append, List.not_mem_nil, or_false] at hb ⊢
    tauto
  obtain ⟨s4, f4, r4, -, -⟩ := C48_value_2d (w1 := 5) hβ5 hi hj (by omega) hs hvg hd3 (points2_reach hg ht3) (by omega)
  refine ⟨s1, s2, s3, s4, a1, f2, a3, ?_, f4, fun i j hi0 hi1 hj0 hj1 => ?_⟩
  · have hw : ∀ l' : List F.Side2, (∀ s ∈ l', s ∈ sides) → l'.foldlM (fun m s => Cuda.adjDiag2d i0 j0 i1 j1 s.i0 s.j0 s.i1 s.j1 s.dir s.side s.btype s.order dx beta b0 b1 sgcw st (βs s) m) s3 = .ok s3 := by
      intro l'
      induction l' with
      | nil => exact fun _ => rfl
      | cons s l' ih =>
        intro hs'
        have hfo := hfi s (hs' s (by simp))
        unfold F.First at hfo
        rw [List.foldlM_cons, adjdiag2_skip hi hj hs (hl s (hs' s (by simp))) (by omega) hb]
        exact ih fun s hs'' => hs' s (List.mem_cons_of_mem _ hs'')
    exact hw sides fun _ h => h
  have hp : F.InBounds [(i0, i1), (j0, j1)] [i, j] := F.inBounds2.2 ⟨i, j, rfl, by omega⟩
  have hin : ∀ c, F.InBounds [(i0, i1), (j0, j1)] c → ∀ e, 0 ≤ e → e ≤ 5 - 1 → F.InBounds (F.st2d st i0 j0 i1 j1 sgcw).dims (e :: c) := by
    intro c hc e he0 he1
    obtain ⟨i, j, rfl, hc⟩ := F.inBounds2.1 hc
    simp only [F.st2d, F.InBounds, and_true]
    omega
  have key := (F.mat_core (s1 := s1) (s2u := s2u) (s2 := s2) (s3 := s3) (a := (F.st2d st i0 j0 i1 j1 sgcw)) (by omega) hin D1 D3 v2
    (fun p hp => by
      obtain ⟨i, j, rfl, hp⟩ := F.inBounds2.1 hp
      exact F.shift2_0)
    hd hF (fun k hk => by
      obtain ⟨s, hsm, rfl⟩ := List.mem_map.1 hk
      exact ⟨hfi s hsm, fun c hc => ⟨layer2_in (hl s hsm) hc, piece_out2 (hl s hsm) (hout s hsm) hc, fun h4 => hco s hsm h4 c hc⟩⟩)
    hY hD hp (fun _ => F.op2 alpha beta dx A B0 B1 X i j)).2
  have hq : F.Eqn 5 (F.row F.points2) (F.rd s2u (F.st2d st i0 j0 i1 j1 sgcw)) (fun _ => F.op2 alpha beta dx A B0 B1 X i j) X [i, j] := by
    have e := (F.eqn2 (G := fun _ => F.op2 alpha beta dx A B0 B1 X i j) (X := X) (hc i j hi0 hi1 hj0 hj1)).2 rfl
    unfold F.Eqn at e ⊢
    rw [← e]
    exact F.sum_congr fun e he0 he1 => by rw [(hS _ (hin _ hp e he0 he1)).rd]
  have val := key hq
  unfold F.Eqn at val
  rw [F.star2, F.shift2_0, F.shift2_1, F.shift2_2, F.shift2_3, F.shift2_4] at val
  obtain ⟨t00, t01, t10, t11, t20, t21, t30, t31, t40, t41⟩ := points2_entry ht3
  have fin := r4 i j hi0 hi1 hj0 hj1 (fun e => F.rd s3 (F.st2d st i0 j0 i1 j1 sgcw) [e, i, j]) (fun e => Y (F.shift [i, j] (F.row F.points2 e))) (fun e he0 he1 => by
    refine ⟨(g3.ok (F.st2d st i0 j0 i1 j1 sgcw) (by simp)).rd (hin _ hp e he0 (by omega)), ?_⟩
    obtain rfl | rfl | rfl | rfl | rfl : e = 0 ∨ e = 1 ∨ e = 2 ∨ e = 3 ∨ e = 4 := by omega
    · refine ⟨_, _, t00, t01, ?_⟩
      rw [F.shift2_0]
      have w := hU3 [i, j] (by in_bounds)
      rw [show [i + (0), j + (0)] = [i, j] by simp only [add_zero, ← sub_eq_add_neg]]
      exact w
    · refine ⟨_, _, t10, t11, ?_⟩
      rw [F.shift2_1]
      have w := hU3 [i - 1, j] (by in_bounds)
      rw [show [i + (-1), j + (0)] = [i - 1, j] by simp only [add_zero, ← sub_eq_add_neg]]
      exact w
    · refine ⟨_, _, t20, t21, ?_⟩
      rw [F.shift2_2]
      have w := hU3 [i + 1, j] (by in_bounds)
      rw [show [i + (1), j + (0)] = [i + 1, j] by simp only [add_zero, ← sub_eq_add_neg]]
      exact w
    · refine ⟨_, _, t30, t31, ?_⟩
      rw [F.shift2_3]
      have w := hU3 [i, j - 1] (by in_bounds)
      rw [show [i + (0), j + (-1)] = [i, j - 1] by simp only [add_zero, ← sub_eq_add_neg]]
      exact w
    · refine ⟨_, _, t40, t41, ?_⟩
      rw [F.shift2_4]
      have w := hU3 [i, j + 1] (by in_bounds)
      rw [show [i + (0), j + (1)] = [i, j + 1] by simp only [add_zero, ← sub_eq_add_neg]]
      exact w)
  replace val := val.symm
  beta_reduce at val
  rw [val]
  have er : F.irange 0 (5 - 1) = [0, 1, 2, 3, 4] := rfl
  rw [er] at fin
  simp only [List.foldl_cons, List.foldl_nil, zero_add, F.shift2_0, F.shift2_1, F.shift2_2, F.shift2_3, F.shift2_4] at fin
  exact fin

theorem mat_v2_2 [CharZero T] {i0 j0 i1 j1 sgcw ugcw vgcw : Int} {alpha beta neu : T} {dx : Nat → T} {b0 b1 st u v o : Ptr} {β3 β4 β5 : Backend} {βs : F.Side2 → Backend} {sides : List F.Side2} {m : Mem T} {B0 B1 D X Y : List Int → T}
    (hβ3 : ValidBackend β3) (hβ4 : ValidBackend β4) (hβ5 : ValidBackend β5) (hβs : ∀ s, ValidBackend (βs s)) (hi : i0 ≤ i1) (hj : j0 ≤ j1) (hs : 0 ≤ sgcw) (hg : 1 ≤ ugcw) (hvg : 0 ≤ vgcw)
    (hl : ∀ s ∈ sides, Layer2 i0 j0 i1 j1 0 s.i0 s.j0 s.i1 s.j1 s.dir s.side) (hout : ∀ s ∈ sides, s.Outside i0 j0 i1 j1) (hfi : ∀ s ∈ sides, F.First s.btype s.order) (hrob : ∀ s ∈ sides, s.btype = 4 → s.dir = 0) (hd : F.Disjoint (sides.map (F.Side2.piece dx B0 B1)))
    (hco : ∀ s ∈ sides, s.btype = 4 → ∀ c, ((F.Side2.piece dx B0 B1) s).cells c → 4 * ((F.Side2.piece dx B0 B1) s).coef c + ((F.Side2.piece dx B0 B1) s).width ≠ 0)
    (h : F.Args m [(F.face2d0 b0 i0 j0 i1 j1 0), (F.face2d1 b1 i0 j0 i1 j1 0), (F.cell2d u i0 j0 i1 j1 ugcw)] [(F.st2d st i0 j0 i1 j1 sgcw), (F.cell2d v i0 j0 i1 j1 vgcw)]) (hvs : F.Apart (F.cell2d v i0 j0 i1 j1 vgcw) (F.st2d st i0 j0 i1 j1 sgcw))
    (hB0 : F.Holds m (F.face2d0 b0 i0 j0 i1 j1 0) B0) (hB1 : F.Holds m (F.face2d1 b1 i0 j0 i1 j1 0) B1) (hU : F.Holds m (F.cell2d u i0 j0 i1 j1 ugcw) Y) (ht : F.Rows m (F.offset0 o 2 5) F.points2)
    (hF : F.Fulfils [(i0, i1), (j0, j1)] 5 (F.row F.points2) (sides.map (F.Side2.piece dx B0 B1)) D X)
    (hY : ∀ p, F.InBounds [(i0, i1), (j0, j1)] p → Y p = X p) (hD : ∀ p, ¬ F.InBounds [(i0, i1), (j0, j1)] p → Y p = D p) :
    ∃ s1 s2 s3 s4, Cuda.offdiag2d i0 j0 i1 j1 i0 j0 i1 j1 dx beta b0 b1 sgcw st β3 m = .ok s1 ∧ sides.foldlM (fun m s => Cuda.adjOffdiag2d i0 j0 i1 j1 s.i0 s.j0 s.i1 s.j1 s.dir s.side s.btype s.order dx 2 neu beta b0 b1 sgcw st (βs s) m) s1 = .ok s2 ∧ Cuda.v2diag2d i0 j0 i1 j1 alpha sgcw st β4 s2 = .ok s3 ∧
      sides.foldlM (fun m s => Cuda.adjDiag2d i0 j0 i1 j1 s.i0 s.j0 s.i1 s.j1 s.dir s.side s.btype s.order dx beta b0 b1 sgcw st (βs s) m) s3 = .ok s3 ∧ Cuda.dotOffset2d st sgcw u ugcw v vgcw o i0 i1 j0 j1 5 β5 s3 = .ok s4 ∧
      ∀ i j, i0 ≤ i → i ≤ i1 → j0 ≤ j → j ≤ j1 → F.El s4 (F.cell2d v i0 j0 i1 j1 vgcw) [i, j] (F.op2 alpha beta dx (fun _ => 1) B0 B1 X i j) := by
  obtain ⟨s1, s2u, S, a1, a2, ho, hS, hc⟩ := asm_v2_2 (alpha := alpha) (beta := beta) (dx := dx) hβ3 hβ4 hi hj hs (h.sub (ins' := [(F.face2d0 b0 i0 j0 i1 j1 0), (F.face2d1 b1 i0 j0 i1 j1 0)]) (outs' := [(F.st2d st i0 j0 i1 j1 sgcw)]) (by simp) (by simp)) hB0 hB1
  have hb : F.Args m [(F.face2d0 b0 i0 j0 i1 j1 0), (F.face2d1 b1 i0 j0 i1 j1 0)] [(F.st2d st i0 j0 i1 j1 sgcw)] := h.sub (by simp) (by simp)
  have hne : (F.st2d st i0 j0 i1 j1 sgcw).dims ≠ [] := by simp [F.st2d]
  obtain ⟨s1', d1, e1⟩ := C36_offdiag_2d (dx := dx) (beta := beta) hβ3 hi hj ⟨le_rfl, le_rfl⟩ ⟨le_rfl, le_rfl⟩ hs hb
  obtain ⟨s1'', q1, -, K1, -⟩ := offdiag2_run (dx := dx) (beta := beta) hi hj hs ⟨le_rfl, le_rfl⟩ ⟨le_rfl, le_rfl⟩ hb
  obtain rfl : s1'' = s1' := Except.ok.inj (q1.symm.trans e1)
  obtain rfl : s1 = s1'' := Except.ok.inj (a1.symm.trans d1)
  obtain ⟨s2, f2, o2, ⟨g2, w2⟩, v2⟩ := F.fold_adj (run := fun s m => Cuda.adjOffdiag2d i0 j0 i1 j1 s.i0 s.j0 s.i1 s.j1 s.dir s.side s.btype s.order dx 2 neu beta b0 b1 sgcw st (βs s) m) (pc := (F.Side2.piece dx B0 B1)) (a := (F.st2d st i0 j0 i1 j1 sgcw)) hne
    (Good := fun x => F.Args x [(F.face2d0 b0 i0 j0 i1 j1 0), (F.face2d1 b1 i0 j0 i1 j1 0), (F.cell2d u i0 j0 i1 j1 ugcw)] [(F.st2d st i0 j0 i1 j1 sgcw), (F.cell2d v i0 j0 i1 j1 vgcw)] ∧ F.Holds x (F.face2d0 b0 i0 j0 i1 j1 0) B0 ∧ F.Holds x (F.face2d1 b1 i0 j0 i1 j1 0) B1) (l := sides) (fun s hsm x gx => by
      obtain ⟨gx, gB0, gB1⟩ := gx
      have hfo := hfi s hsm
      have hll := hl s hsm
      have h' := adjoff2_does (dx := dx) (dir_factor := 2) (neu_factor := neu) (beta := beta) (btype := s.btype) (exOrder := s.order) (st_ := st) (b0_ := b0) (b1_ := b1) (hβs s) hi hj hs hll (by
        unfold F.First at hfo
        have hr := hrob s hsm
        rcases hfo with ⟨h1, h2⟩ | h1 | ⟨h1, h2⟩
        · exact .inl ⟨h1, h2, rfl⟩
        · exact .inr (.inr (.inl h1))
        · exact .inr (.inr (.inr ⟨h1, h2, hr h1⟩))) (gx.sub (by simp) (by simp))
      refine ⟨_, h'.congr (fun _ => Iff.rfl) (fun c hc => ?_) (fun c hc => ?_)⟩
      · show facU _ _ _ _ = facU _ _ _ _
        rw [onFace2_holds hll hc gB0 gB1]
        rfl
      · unfold F.First at hfo
        unfold facV
        rcases hfo with ⟨h1, h2⟩ | h1 | ⟨h1, h2⟩ <;> simp [h1, *])
    (fun x x' L u v A B hA hx => ⟨hA.args hne hx.1, (hx.2.1).only hA.only (by simp only [List.mem_singleton, forall_eq]; exact h.apart _ (by simp) _ (by simp)), (hx.2.2).only hA.only (by simp only [List.mem_singleton, forall_eq]; exact h.apart _ (by simp) _ (by simp))⟩)
    s1 ⟨K1.args h, hB0.only K1.only (by simp only [List.mem_singleton, forall_eq]; exact h.apart _ (by simp) _ (by simp)), hB1.only K1.only (by simp only [List.mem_singleton, forall_eq]; exact h.apart _ (by simp) _ (by simp))⟩
  have g1 := K1.args h
  obtain ⟨s2u', a2', K2, D1⟩ := diag_v2_2 (alpha := alpha) hβ4 hi hj hs (g1.sub (outs' := [(F.st2d st i0 j0 i1 j1 sgcw)]) (by simp) (by simp))
  obtain rfl : s2u = s2u' := Except.ok.inj (a2.symm.trans a2')
  obtain ⟨s3, a3, K3, D3⟩ := diag_v2_2 (alpha := alpha) hβ4 hi hj hs (g2.sub (outs' := [(F.st2d st i0 j0 i1 j1 sgcw)]) (by simp) (by simp))
  have o3 := (K1.only.trans o2).trans K3.only
  have g3 := K3.args g2
  have ht3 : F.Rows s3 (F.offset0 o 2 5) F.points2 := fun s c row z hr hz => ⟨(ht s c row z hr hz).1, by rw [o3.ints]; exact (ht s c row z hr hz).2⟩
  have hU3 : F.Holds s3 (F.cell2d u i0 j0 i1 j1 ugcw) Y := hU.only o3 (by simp only [List.mem_singleton, forall_eq]; exact h.apart _ (by simp) _ (by simp))
  have hap : ∀ b ∈ [(F.st2d st i0 j0 i1 j1 sgcw), (F.cell2d u i0 j0 i1 j1 ugcw)], F.Apart (F.cell2d v i0 j0 i1 j1 vgcw) b := by
    intro b hb
    simp only [List.mem_cons, List.not_mem_nil, or_false] at hb
    rcases hb with rfl | rfl
    · exact hvs
    · exact h.apart _ (by simp) _ (by simp)
  have hd3 : F.Args s3 [(F.st2d st i0 j0 i1 j1 sgcw), (F.cell2d u i0 j0 i1 j1 ugcw)] [(F.cell2d v i0 j0 i1 j1 vgcw)] := by
    refine ⟨fun b hb => g3.ok b ?_, fun w hw b hb => by rw [List.mem_singleton.1 hw]; exact hap b hb⟩
    simp only [List.mem_cons, List.mem_append, List.not_mem_nil, or_false] at hb ⊢
    tauto
  obtain ⟨s4, f4, r4, -, -⟩ := C48_value_2d (w1 := 5) hβ5 hi hj (by omega) hs hvg hd3 (points2_reach hg ht3) (by omega)
  refine ⟨s1, s2, s3, s4, a1, f2, a3, ?_, f4, fun i j hi0 hi1 hj0 hj1 => ?_⟩
  · have hw : ∀ l' : List F.Side2, (∀ s ∈ l', s ∈ sides) → l'.foldlM (fun m s => Cuda.adjDiag2d i0 j0 i1 j1 s.i0 s.j0 s.i1 s.j1 s.dir s.side s.btype s.order dx beta b0 b1 sgcw st (βs s) m) s3 = .ok s3 := by
      intro l'
      induction l' with
      | nil => exact fun _ => rfl
      | cons s l' ih =>
        intro hs'
        have hfo := hfi s (hs' s (by simp))
        unfold F.First at hfo
        rw [List.foldlM_cons, adjdiag2_skip hi hj hs (hl s (hs' s (by simp))) (by omega) hb]
        exact ih fun s hs'' => hs' s (List.mem_cons_of_mem _ hs'')
    exact hw sides fun _ h => h
  have hp : F.InBounds [(i0, i1), (j0, j1)] [i, j] := F.inBounds2.2 ⟨i, j, rfl, by omega⟩
  have hin : ∀ c, F.InBounds [(i0, i1), (j0, j1)] c → ∀ e, 0 ≤ e → e ≤ 5 - 1 → F.InBounds (F.st2d st i0 j0 i1 j1 sgcw).dims (e :: c) := by
    intro c hc e he0 he1
    obtain ⟨i, j, rfl, hc⟩ := F.inBounds2.1 hc
    simp only [F.st2d, F.InBounds, and_true]
    omega
  have key := (F.mat_core (s1 := s1) (s2u := s2u) (s2 := s2) (s3 := s3) (a := (F.st2d st i0 j0 i1 j1 sgcw)) (by omega) hin D1 D3 v2
    (fun p hp => by
      obtain ⟨i, j, rfl, hp⟩ := F.inBounds2.1 hp
      exact F.shift2_0)
    hd hF (fun k hk => by
      obtain ⟨s, hsm, rfl⟩ := List.mem_map.1 hk
      exact ⟨hfi s hsm, fun c hc => ⟨layer2_in (hl s hsm) hc, piece_out2 (hl s hsm) (hout s hsm) hc, fun h4 => hco s hsm h4 c hc⟩⟩)
    hY hD hp (fun _ => F.op2 alpha beta dx (fun _ => 1) B0 B1 X i j)).2
  have hq : F.Eqn 5 (F.row F.points2) (F.rd s2u (F.st2d st i0 j0 i1 j1 sgcw)) (fun _ => F.op2 alpha beta dx (fun _ => 1) B0 B1 X i j) X [i, j] := by
    have e := (F.eqn2 (G := fun _ => F.op2 alpha beta dx (fun _ => 1) B0 B1 X i j) (X := X) (hc i j hi0 hi1 hj0 hj1)).2 rfl
    unfold F.Eqn at e ⊢
    rw [← e]
    exact F.sum_congr fun e he0 he1 => by rw [(hS _ (hin _ hp e he0 he1)).rd]
  have val := key hq
  unfold F.Eqn at val
  rw [F.star2, F.shift2_0, F.shift2_1, F.shift2_2, F.shift2_3, F.shift2_4] at val
  obtain ⟨t00, t01, t10, t11, t20, t21, t30, t31, t40, t41⟩ := points2_entry ht3
  have fin := r4 i j hi0 hi1 hj0 hj1 (fun e => F.rd s3 (F.st2d st i0 j0 i1 j1 sgcw) [e, i, j]) (fun e => Y (F.shift [i, j] (F.row F.points2 e))) (fun e he0 he1 => by
    refine ⟨(g3.ok (F.st2d st i0 j0 i1 j1 sgcw) (by simp)).rd (hin _ hp e he0 (by omega)), ?_⟩
    obtain rfl | rfl | rfl | rfl | rfl : e = 0 ∨ e = 1 ∨ e = 2 ∨ e = 3 ∨ e = 4 := by omega
    · refine ⟨_, _, t00, t01, ?_⟩
      rw [F.shift2_0]
      have w := hU3 [i, j] (by in_bounds)
      rw [show [i + (0), j + (0)] = [i, j] by simp only [add_zero, ← sub_eq_add_neg]]
      exact w
    · refine ⟨_, _, t10, t11, ?_⟩
      rw [F.shift2_1]
      have w := hU3 [i - 1, j] (by in_bounds)
      rw [show [i + (-1), j + (0)] = [i - 1, j] by simp only [add_zero, ← sub_eq_add_neg]]
      exact w
    · refine ⟨_, _, t20, t21, ?_⟩
      rw [F.shift2_2]
      have w := hU3 [i + 1, j] (by in_bounds)
      rw [show [i + (1), j + (0)] = [i + 1, j] by simp only [add_zero, ← sub_eq_add_neg]]
      exact w
    · refine ⟨_, _, t30, t31, ?_⟩
      rw [F.shift2_3]
      have w := hU3 [i, j - 1] (by in_bounds)
      rw [show [i + (0), j + (-1)] = [i, j - 1] by simp only [add_zero, ← sub_eq_add_neg]]
      exact w
    · refine ⟨_, _, t40, t41, ?_⟩
      rw [F.shift2_4]
      have w := hU3 [i, j + 1] (by in_bounds)
      rw [show [i + (0), j + (1)] = [i, j + 1] by simp only [add_zero, ← sub_eq_add_neg]]
      exact w)
  replace val := val.symm
  beta_reduce at val
  rw [val]
  have er : F.irange 0 (5 - 1) = [0, 1, 2, 3, 4] := rfl
  rw [er] at fin
  simp only [List.foldl_cons, List.foldl_nil, zero_add, F.shift2_0, F.shift2_1, F.shift2_2, F.shift2_3, F.shift2_4] at fin
  exact fin

theorem mat_v1_3 [CharZero T] {i0 j0 k0 i1 j1 k1 agcw sgcw ugcw vgcw : Int} {alpha beta neu : T} {dx : Nat → T} {a b0 b1 b2 st u v o : Ptr} {β3 β4 β5 : Backend} {βs : F.Side3 → Backend} {sides : List F.Side3} {m : Mem T} {A B0 B1 B2 D X Y : List Int → T}
    (hβ3 : ValidBackend β3) (hβ4 : ValidBackend β4) (hβ5 : ValidBackend β5) (hβs : ∀ s, ValidBackend (βs s)) (hi : i0 ≤ i1) (hj : j0 ≤ j1) (hk : k0 ≤ k1) (hagcw : 0 ≤ agcw) (hs : 0 ≤ sgcw) (hg : 1 ≤ ugcw) (hvg : 0 ≤ vgcw)
    (hl : ∀ s ∈ sides, Layer3 i0 j0 k0 i1 j1 k1 0 s.i0 s.j0 s.k0 s.i1 s.j1 s.k1 s.dir s.side) (hout : ∀ s ∈ sides, s.Outside i0 j0 k0 i1 j1 k1) (hfi : ∀ s ∈ sides, F.First s.btype s.order) (hd : F.Disjoint (sides.map (F.Side3.piece dx B0 B1 B2)))
    (hco : ∀ s ∈ sides, s.btype = 4 → ∀ c, ((F.Side3.piece dx B0 B1 B2) s).cells c → 4 * ((F.Side3.piece dx B0 B1 B2) s).coef c + ((F.Side3.piece dx B0 B1 B2) s).width ≠ 0)
    (h : F.Args m [(F.cell3d a i0 j0 k0 i1 j1 k1 agcw), (F.face3d0 b0 i0 j0 k0 i1 j1 k1 0), (F.face3d1 b1 i0 j0 k0 i1 j1 k1 0), (F.face3d2 b2 i0 j0 k0 i1 j1 k1 0), (F.cell3d u i0 j0 k0 i1 j1 k1 ugcw)] [(F.st3d st i0 j0 k0 i1 j1 k1 sgcw), (F.cell3d v i0 j0 k0 i1 j1 k1 vgcw)]) (hvs : F.Apart (F.cell3d v i0 j0 k0 i1 j1 k1 vgcw) (F.st3d st i0 j0 k0 i1 j1 k1 sgcw))
    (hA : F.Holds m (F.cell3d a i0 j0 k0 i1 j1 k1 agcw) A) (hB0 : F.Holds m (F.face3d0 b0 i0 j0 k0 i1 j1 k1 0) B0) (hB1 : F.Holds m (F.face3d1 b1 i0 j0 k0 i1 j1 k1 0) B1) (hB2 : F.Holds m (F.face3d2 b2 i0 j0 k0 i1 j1 k1 0) B2) (hU : F.Holds m (F.cell3d u i0 j0 k0 i1 j1 k1 ugcw) Y) (ht : F.Rows m (F.offset0 o 3 7) F.points3)
    (hF : F.Fulfils [(i0, i1), (j0, j1), (k0, k1)] 7 (F.row F.points3) (sides.map (F.Side3.piece dx B0 B1 B2)) D X)
    (hY : ∀ p, F.InBounds [(i0, i1), (j0, j1), (k0, k1)] p → Y p = X p) (hD : ∀ p, ¬ F.InBounds [(i0, i1), (j0, j1), (k0, k1)] p → Y p = D p) :
    ∃ s1 s2 s3 s4, Cuda.offdiag3d i0 j0 k0 i1 j1 k1 i0 j0 k0 i1 j1 k1 dx beta b0 b1 b2 sgcw st β3 m = .ok s1 ∧ sides.foldlM (fun m s => Cuda.adjOffdiag3d i0 j0 k0 i1 j1 k1 s.i0 s.j0 s.k0 s.i1 s.j1 s.k1 s.dir s.side s.btype s.order dx 2 neu beta b0 b1 b2 sgcw st (βs s) m) s1 = .ok s2 ∧ Cuda.v1diag3d i0 j0 k0 i1 j1 k1 (i0 - agcw) (j0 - agcw) (k0 - agcw) (i1 + agcw) (j1 + agcw) (k1 + agcw) alpha a sgcw st β4 s2 = .ok s3 ∧
      sides.foldlM (fun m s => Cuda.adjDiag3d i0 j0 k0 i1 j1 k1 s.i0 s.j0 s.k0 s.i1 s.j1 s.k1 s.dir s.side s.btype s.order dx beta b0 b1 b2 sgcw st (βs s) m) s3 = .ok s3 ∧ Cuda.dotOffset3d st sgcw u ugcw v vgcw o i0 i1 j0 j1 k0 k1 7 β5 s3 = .ok s4 ∧
      ∀ i j k, i0 ≤ i → i ≤ i1 → j0 ≤ j → j ≤ j1 → k0 ≤ k → k ≤ k1 → F.El s4 (F.cell3d v i0 j0 k0 i1 j1 k1 vgcw) [i, j, k] (F.op3 alpha beta dx A B0 B1 B2 X i j k) := by
  obtain ⟨s1, s2u, S, a1, a2, ho, hS, hc⟩ := asm_v1_3 (alpha := alpha) (beta := beta) (dx := dx) hβ3 hβ4 hi hj hk hagcw hs (h.sub (ins' := [(F.cell3d a i0 j0 k0 i1 j1 k1 agcw), (F.face3d0 b0 i0 j0 k0 i1 j1 k1 0), (F.face3d1 b1 i0 j0 k0 i1 j1 k1 0), (F.face3d2 b2 i0 j0 k0 i1 j1 k1 0)]) (outs' := [(F.st3d st i0 j0 k0 i1 j1 k1 sgcw)]) (by simp) (by simp)) hA hB0 hB1 hB2
  have hb : F.Args m [(F.face3d0 b0 i0 j0 k0 i1 j1 k1 0), (F.face3d1 b1 i0 j0 k0 i1 j1 k1 0), (F.face3d2 b2 i0 j0 k0 i1 j1 k1 0)] [(F.st3d st i0 j0 k0 i1 j1 k1 sgcw)] := h.sub (by simp) (by simp)
  have hne : (F.st3d st i0 j0 k0 i1 j1 k1 sgcw).dims ≠ [] := by simp [F.st3d]
  obtain ⟨s1', d1, e1⟩ := C36_offdiag_3d (dx := dx) (beta := beta) hβ3 hi hj hk ⟨le_rfl, le_rfl⟩ ⟨le_rfl, le_rfl⟩ ⟨le_rfl, le_rfl⟩ hs hb
  obtain ⟨s1'', q1, -, K1, -⟩ := offdiag3_run (dx := dx) (beta := beta) hi hj hk hs ⟨le_rfl, le_rfl⟩ ⟨le_rfl, le_rfl⟩ ⟨le_rfl, le_rfl⟩ hb
  obtain rfl : s1'' = s1' := Except.ok.inj (q1.symm.trans e1)
  obtain rfl : s1 = s1'' := Except.ok.inj (a1.symm.trans d1)
  obtain ⟨s2, f2, o2, ⟨g2, w2⟩, v2⟩ := F.fold_adj (run := fun s m => Cuda.adjOffdiag3d i0 j0 k0 i1 j1 k1 s.i0 s.j0 s.k0 s.i1 s.j1 s.k1 s.dir s.side s.btype s.order dx 2 neu beta b0 b1 b2 sgcw st (βs s) m) (pc := (F.Side3.piece dx B0 B1 B2)) (a := (F.st3d st i0 j0 k0 i1 j1 k1 sgcw)) hne
    (Good := fun x => F.Args x [(F.cell3d a i0 j0 k0 i1 j1 k1 agcw), (F.face3d0 b0 i0 j0 k0 i1 j1 k1 0), (F.face3d1 b1 i0 j0 k0 i1 j1 k1 0), (F.face3d2 b2 i0 j0 k0 i1 j1 k1 0), (F.cell3d u i0 j0 k0 i1 j1 k1 ugcw)] [(F.st3d st i0 j0 k0 i1 j1 k1 sgcw), (F.cell3d v i0 j0 k0 i1 j1 k1 vgcw)] ∧ F.Holds x (F.face3d0 b0 i0 j0 k0 i1 j1 k1 0) B0 ∧ F.Holds x (F.face3d1 b1 i0 j0 k0 i1 j1 k1 0) B1 ∧ F.Holds x (F.face3d2 b2 i0 j0 k0 i1 j1 k1 0) B2) (l := sides) (fun s hsm x gx => by
      obtain ⟨gx, gB0, gB1, gB2⟩ := gx
      have hfo := hfi s hsm
      have hll := hl s hsm
      have h' := adjoff3_does (dx := dx) (dir_factor := 2) (neu_factor := neu) (beta := beta) (btype := s.btype) (exOrder := s.order) (st_ := st) (b0_ := b0) (b1_ := b1) (b2_ := b2) (hβs s) hi hj hk hs hll (by
        unfold F.First at hfo
        skip
        rcases hfo with ⟨h1, h2⟩ | h1 | ⟨h1, h2⟩
        · exact .inl ⟨h1, h2, rfl⟩
        · exact .inr (.inr (.inl h1))
        · exact .inr (.inr (.inr ⟨h1, h2⟩))) (gx.sub (by simp) (by simp))
      refine ⟨_, h'.congr (fun _ => Iff.rfl) (fun c hc => ?_) (fun c hc => ?_)⟩
      · show facU _ _ _ _ = facU _ _ _ _
        rw [onFace3_holds hll hc gB0 gB1 gB2]
        rfl
      · unfold F.First at hfo
        unfold facV
        rcases hfo with ⟨h1, h2⟩ | h1 | ⟨h1, h2⟩ <;> simp [h1, *])
    (fun x x' L u v A B hA hx => ⟨hA.args hne hx.1, (hx.2.1).only hA.only (by simp only [List.mem_singleton, forall_eq]; exact h.apart _ (by simp) _ (by simp)), (hx.2.2.1).only hA.only (by simp only [List.mem_singleton, forall_eq]; exact h.apart _ (by simp) _ (by simp)), (hx.2.2.2).only hA.only (by simp only [List.mem_singleton, forall_eq]; exact h.apart _ (by simp) _ (by simp))⟩)
    s1 ⟨K1.args h, hB0.only K1.only (by simp only [List.mem_singleton, forall_eq]; exact h.apart _ (by simp) _ (by simp)), hB1.only K1.only (by simp only [List.mem_singleton, forall_eq]; exact h.apart _ (by simp) _ (by simp)), hB2.only K1.only (by simp only [List.mem_singleton, forall_eq]; exact h.apart _ (by simp) _ (by simp))⟩
  have g1 := K1.args h
  have ea : (F.cell3d a (i0 - agcw) (j0 - agcw) (k0 - agcw) (i1 + agcw) (j1 + agcw) (k1 + agcw) 0) = (F.cell3d a i0 j0 k0 i1 j1 k1 agcw) := by simp [F.cell3d]
  have hAx : ∀ x, F.Only [(F.st3d st i0 j0 k0 i1 j1 k1 sgcw)] m x → ∀ c, F.InBounds [(i0, i1), (j0, j1), (k0, k1)] c → alpha * F.rd x (F.cell3d a (i0 - agcw) (j0 - agcw) (k0 - agcw) (i1 + agcw) (j1 + agcw) (k1 + agcw) 0) c = alpha * A c := fun x ox c hc => by
    have hin := in_cell3 (a_ := a) hc (show i0 - agcw ≤ i0 ∧ i1 ≤ i1 + agcw by omega) (show j0 - agcw ≤ j0 ∧ j1 ≤ j1 + agcw by omega) (show k0 - agcw ≤ k0 ∧ k1 ≤ k1 + agcw by omega)
    rw [F.rd_only ox (ea ▸ h.apart _ (by simp) (F.cell3d a i0 j0 k0 i1 j1 k1 agcw) (by simp)) hin, ea, (hA c (ea ▸ hin)).rd]
  obtain ⟨s2u', a2', K2, D1⟩ := diag_v1_3 (alpha := alpha) hβ4 hi hj hk hs ⟨by omega, by omega⟩ ⟨by omega, by omega⟩ ⟨by omega, by omega⟩ (show F.Args s1 [(F.cell3d a (i0 - agcw) (j0 - agcw) (k0 - agcw) (i1 + agcw) (j1 + agcw) (k1 + agcw) 0)] [(F.st3d st i0 j0 k0 i1 j1 k1 sgcw)] by rw [ea]; exact g1.sub (by simp) (by simp))
  obtain rfl : s2u = s2u' := Except.ok.inj (a2.symm.trans a2')
  obtain ⟨s3, a3, K3, D3⟩ := diag_v1_3 (alpha := alpha) hβ4 hi hj hk hs ⟨by omega, by omega⟩ ⟨by omega, by omega⟩ ⟨by omega, by omega⟩ (show F.Args s2 [(F.cell3d a (i0 - agcw) (j0 - agcw) (k0 - agcw) (i1 + agcw) (j1 + agcw) (k1 + agcw) 0)] [(F.st3d st i0 j0 k0 i1 j1 k1 sgcw)] by rw [ea]; exact g2.sub (by simp) (by simp))
  have D1 : F.Diagonal s1 s2u (F.st3d st i0 j0 k0 i1 j1 k1 sgcw) (7 - 1) (F.InBounds [(i0, i1), (j0, j1), (k0, k1)]) (fun c => alpha * A c) := ⟨fun c hc => by rw [D1.zero c hc, hAx s1 K1.only c hc], D1.other⟩
  have D3 : F.Diagonal s2 s3 (F.st3d st i0 j0 k0 i1 j1 k1 sgcw) (7 - 1) (F.InBounds [(i0, i1), (j0, j1), (k0, k1)]) (fun c => alpha * A c) := ⟨fun c hc => by rw [D3.zero c hc, hAx s2 (K1.only.trans o2) c hc], D3.other⟩
  have o3 := (K1.only.trans o2).trans K3.only
  have g3 := K3.args g2
  have ht3 : F.Rows s3 (F.offset0 o 3 7) F.points3 := fun s c row z hr hz => ⟨(ht s c row z hr hz).1, by rw [o3.ints]; exact (ht s c row z hr hz).2⟩
  have hU3 : F.Holds s3 (F.cell3d u i0 j0 k0 i1 j1 k1 ugcw) Y := hU.only o3 (by simp only [List.mem_singleton, forall_eq]; exact h.apart _ (by simp) _ (by simp))
  have hap : ∀ b ∈ [(F.st3d st i0 j0 k0 i1 j1 k1 sgcw), (F.cell3d u i0 j0 k0 i1 j1 k1 ugcw)], F.Apart (F.cell3d v i0 j0 k0 i1 j1 k1 vgcw) b := by
    intro b hb
    simp only [List.mem_cons, List.not_mem_nil, or_false] at hb
    rcases hb with rfl | rfl
    · exact hvs
    · exact h.apart _ (by simp) _ (by simp)
  have hd3 : F.Args s3 [(F.st3d st i0 j0 k0 i1 j1 k1 sgcw), (F.cell3d u i0 j0 k0 i1 j1 k1 ugcw)] [(F.cell3d v i0 j0 k0 i1 j1 k1 vgcw)] := by
    refine ⟨fun b hb => g3.ok b ?_, fun w hw b hb => by rw [List.mem_singleton.1 hw]; exact hap b hb⟩
    simp only [List.mem_cons, List.mem_append, List.not_mem_nil, or_false] at hb ⊢
    tauto
  obtain ⟨s4, f4, r4, -, -⟩ := C48_value_3d (w1 := 7) hβ5 hi hj hk (by omega) hs hvg hd3 (points3_reach hg ht3) (by omega)
  refine ⟨s1, s2, s3, s4, a1, f2, a3, ?_, f4, fun i j k hi0 hi1 hj0 hj1 hk0 hk1 => ?_⟩
  · have hw : ∀ l' : List F.Side3, (∀ s ∈ l', s ∈ sides) → l'.foldlM (fun m s => Cuda.adjDiag3d i0 j0 k0 i1 j1 k1 s.i0 s.j0 s.k0 s.i1 s.j1 s.k1 s.dir s.side s.btype s.order dx beta b0 b1 b2 sgcw st (βs s) m) s3 = .ok s3 := by
      intro l'
      induction l' with
      | nil => exact fun _ => rfl
      | cons s l' ih =>
        intro hs'
        have hfo := hfi s (hs' s (by simp))
        unfold F.First at hfo
        rw [List.foldlM_cons, adjdiag3_skip hi hj hk hs (hl s (hs' s (by simp))) (by omega) hb]
        exact ih fun s hs'' => hs' s (List.mem_cons_of_mem _ hs'')
    exact hw sides fun _ h => h
  have hp : F.InBounds [(i0, i1), (j0, j1), (k0, k1)] [i, j, k] := F.inBounds3.2 ⟨i, j, k, rfl, by omega⟩
  have hin : ∀ c, F.InBounds [(i0, i1), (j0, j1), (k0, k1)] c → ∀ e, 0 ≤ e → e ≤ 7 - 1 → F.InBounds (F.st3d st i0 j0 k0 i1 j1 k1 sgcw).dims (e :: c) := by
    intro c hc e he0 he1
    obtain ⟨i, j, k, rfl, hc⟩ := F.inBounds3.1 hc
    simp only [F.st3d, F.InBounds, and_true]
    omega
  have key := (F.mat_core (s1 := s1) (s2u := s2u) (s2 := s2) (s3 := s3) (a := (F.st3d st i0 j0 k0 i1 j1 k1 sgcw)) (by omega) hin D1 D3 v2
    (fun p hp => by
      obtain ⟨i, j, k, rfl, hp⟩ := F.inBounds3.1 hp
      exact F.shift3_0)
    hd hF (fun k hk => by
      obtain ⟨s, hsm, rfl⟩ := List.mem_map.1 hk
      exact ⟨hfi s hsm, fun c hc => ⟨layer3_in (hl s hsm) hc, piece_out3 (hl s hsm) (hout s hsm) hc, fun h4 => hco s hsm h4 c hc⟩⟩)
    hY hD hp (fun _ => F.op3 alpha beta dx A B0 B1 B2 X i j k)).2
  have hq : F.Eqn 7 (F.row F.points3) (F.rd s2u (F.st3d st i0 j0 k0 i1 j1 k1 sgcw)) (fun _ => F.op3 alpha beta dx A B0 B1 B2 X i j k) X [i, j, k] := by
    have e := (F.eqn3 (G := fun _ => F.op3 alpha beta dx A B0 B1 B2 X i j k) (X := X) (hc i j k hi0 hi1 hj0 hj1 hk0 hk1)).2 rfl
    unfold F.Eqn at e ⊢
    rw [← e]
    exact F.sum_congr fun e he0 he1 => by rw [(hS _ (hin _ hp e he0 he1)).rd]
  have val := key hq
  unfold F.Eqn at val
  rw [F.star3, F.shift3_0, F.shift3_1, F.shift3_2, F.shift3_3, F.shift3_4, F.shift3_5, F.shift3_6] at val
  obtain ⟨t00, t01, t02, t10, t11, t12, t20, t21, t22, t30, t31, t32, t40, t41, t42, t50, t51, t52, t60, t61, t62⟩ := points3_entry ht3
  have fin := r4 i j k hi0 hi1 hj0 hj1 hk0 hk1 (fun e => F.rd s3 (F.st3d st i0 j0 k0 i1 j1 k1 sgcw) [e, i, j, k]) (fun e => Y (F.shift [i, j, k] (F.row F.points3 e))) (fun e he0 he1 => by
    refine ⟨(g3.ok (F.st3d st i0 j0 k0 i1 j1 k1 sgcw) (by simp)).rd (hin _ hp e he0 (by omega)), ?_⟩
    obtain rfl | rfl | rfl | rfl | rfl | rfl | rfl : e = 0 ∨ e = 1 ∨ e = 2 ∨ e = 3 ∨ e = 4 ∨ e = 5 ∨ e = 6 := by omega
    · refine ⟨_, _, _, t00, t01, t02, ?_⟩
      rw [F.shift3_0]
      have w := hU3 [i, j, k] (by in_bounds)
      rw [show [i + (0), j + (0), k + (0)] = [i, j, k] by simp only [add_zero, ← sub_eq_add_neg]]
      exact w
    · refine ⟨_, _, _, t10, t11, t12, ?_⟩
      rw [F.shift3_1]
      have w := hU3 [i - 1, j, k] (by in_bounds)
      rw [show [i + (-1), j + (0), k + (0)] = [i - 1, j, k] by simp only [add_zero, ← sub_eq_add_neg]]
      exact w
    · refine ⟨_, _, _, t20, t21, t22, ?_⟩
      rw [F.shift3_2]
      have w := hU3 [i + 1, j, k] (by in_bounds)
      rw [show [i + (1), j + (0), k + (0)] = [i + 1, j, k] by simp only [add_zero, ← sub_eq_add_neg]]
      exact w
    · refine ⟨_, _, _, t30, t31, t32, ?_⟩
      rw [F.shift3_3]
      have w := hU3 [i, j - 1, k] (by in_bounds)
      rw [show [i + (0), j + (-1), k + (0)] = [i, j - 1, k] by simp only [add_zero, ← sub_eq_add_neg]]
      exact w
    · refine ⟨_, _, _, t40, t41, t42, ?_⟩
      rw [F.shift3_4]
      have w := hU3 [i, j + 1, k] (by in_bounds)
      rw [show [i + (0), j + (1), k + (0)] = [i, j + 1, k] by simp only [add_zero, ← sub_eq_add_neg]]
      exact w
    · refine ⟨_, _, _, t50, t51, t52, ?_⟩
      rw [F.shift3_5]
      have w := hU3 [i, j, k - 1] (by in_bounds)
      rw [show [i + (0), j + (0), k + (-1)] = [i, j, k - 1] by simp only [add_zero, ← sub_eq_add_neg]]
      exact w
    · refine ⟨_, _, _, t60, t61, t62, ?_⟩
      rw [F.shift3_6]
      have w := hU3 [i, j, k + 1] (by in_bounds)
      rw [show [i + (0), j + (0), k + (1)] = [i, j, k + 1] by simp only [add_zero, ← sub_eq_add_neg]]
      exact w)
  replace val := val.symm
  beta_reduce at val
  rw [val]
  have er : F.irange 0 (7 - 1) = [0, 1, 2, 3, 4, 5, 6] := rfl
  rw [er] at fin
  simp only [List.foldl_cons, List.foldl_nil, zero_add, F.shift3_0, F.shift3_1, F.shift3_2, F.shift3_3, F.shift3_4, F.shift3_5, F.shift3_6] at fin
  exact fin

theorem mat_v2_3 [CharZero T] {i0 j0 k0 i1 j1 k1 sgcw ugcw vgcw : Int} {alpha beta neu : T} {dx : Nat → T} {b0 b1 b2 st u v o : Ptr} {β3 β4 β5 : Backend} {βs : F.Side3 → Backend} {sides : List F.Side3} {m : Mem T} {B0 B1 B2 D X Y : List Int → T}
    (hβ3 : ValidBackend β3) (hβ4 : ValidBackend β4) (hβ5 : ValidBackend β5) (hβs : ∀ s, ValidBackend (βs s)) (hi : i0 ≤ i1) (hj : j0 ≤ j1) (hk : k0 ≤ k1) (hs : 0 ≤ sgcw) (hg : 1 ≤ ugcw) (hvg : 0 ≤ vgcw)
    (hl : ∀ s ∈ sides, Layer3 i0 j0 k0 i1 j1 k1 0 s.i0 s.j0 s.k0 s.i1 s.j1 s.k1 s.dir s.side) (hout : ∀ s ∈ sides, s.Outside i0 j0 k0 i1 j1 k1) (hfi : ∀ s ∈ sides, F.First s.btype s.order) (hd : F.Disjoint (sides.map (F.Side3.piece dx B0 B1 B2)))
    (hco : ∀ s ∈ sides, s.btype = 4 → ∀ c, ((F.Side3.piece dx B0 B1 B2) s).cells c → 4 * ((F.Side3.piece dx B0 B1 B2) s).coef c + ((F.Side3.piece dx B0 B1 B2) s).width ≠ 0)
    (h : F.Args m [(F.face3d0 b0 i0 j0 k0 i1 j1 k1 0), (F.face3d1 b1 i0 j0 k0 i1 j1 k1 0), (F.face3d2 b2 i0 j0 k0 i1 j1 k1 0), (F.cell3d u i0 j0 k0 i1 j1 k1 ugcw)] [(F.st3d st i0 j0 k0 i1 j1 k1 sgcw), (F.cell3d v i0 j0 k0 i1 j1 k1 vgcw)]) (hvs : F.Apart (F.cell3d v i0 j0 k0 i1 j1 k1 vgcw) (F.st3d st i0 j0 k0 i1 j1 k1 sgcw))
    (hB0 : F.Holds m (F.face3d0 b0 i0 j0 k0 i1 j1 k1 0) B0) (hB1 : F.Holds m (F.face3d1 b1 i0 j0 k0 i1 j1 k1 0) B1) (hB2 : F.Holds m (F.face3d2 b2 i0 j0 k0 i1 j1 k1 0) B2) (hU : F.Holds m (F.cell3d u i0 j0 k0 i1 j1 k1 ugcw) Y) (ht : F.Rows m (F.offset0 o 3 7) F.points3)
    (hF : F.Fulfils [(i0, i1), (j0, j1), (k0, k1)] 7 (F.row F.points3) (sides.map (F.Side3.piece dx B0 B1 B2)) D X)
    (hY : ∀ p, F.InBounds [(i0, i1), (j0, j1), (k0, k1)] p → Y p = X p) (hD : ∀ p, ¬ F.InBounds [(i0, i1), (j0, j1), (k0, k1)] p → Y p = D p) :
    ∃ s1 s2 s3 s4, Cuda.offdiag3d i0 j0 k0 i1 j1 k1 i0 j0 k0 i1 j1 k1 dx beta b0 b1 b2 sgcw st β3 m = .ok s1 ∧ sides.foldlM (fun m s => Cuda.adjOffdiag3d i0 j0 k0 i1 j1 k1 s.i0 s.j0 s.k0 s.i1 s.j1 s.k1 s.dir s.side s.btype s.order dx 2 neu beta b0 b1 b2 sgcw st (βs s) m) s1 = .ok s2 ∧ Cuda.v2diag3d i0 j0 k0 i1 j1 k1 alpha sgcw st β4 s2 = .ok s3 ∧
      sides.foldlM (fun m s => Cuda.adjDiag3d i0 j0 k0 i1 j1 k1 s.i0 s.j0 s.k0 s.i1 s.j1 s.k1 s.dir s.side s.btype s.order dx beta b0 b1 b2 sgcw st (βs s) m) s3 = .ok s3 ∧ Cuda.dotOffset3d st sgcw u ugcw v vgcw o i0 i1 j0 j1 k0 k1 7 β5 s3 = .ok s4 ∧
      ∀ i j k, i0 ≤ i → i ≤ i1 → j0 ≤ j → j ≤ j1 → k0 ≤ k → k ≤ k1 → F.El s4 (F.cell3d v i0 j0 k0 i1 j1 k1 vgcw) [i, j, k] (F.op3 alpha beta dx (fun _ => 1) B0 B1 B2 X i j k) := by
  obtain ⟨s1, s2u, S, a1, a2, ho, hS, hc⟩ := asm_v2_3 (alpha := alpha) (beta := beta) (dx := dx) hβ3 hβ4 hi hj hk hs (h.sub (ins' := [(F.face3d0 b0 i0 j0 k0 i1 j1 k1 0), (F.face3d1 b1 i0 j0 k0 i1 j1 k1 0), (F.face3d2 b2 i0 j0 k0 i1 j1 k1 0)]) (outs' := [(F.st3d st i0 j0 k0 i1 j1 k1 sgcw)]) (by simp) (by simp)) hB0 hB1 hB2
  have hb : F.Args m [(F.face3d0 b0 i0 j0 k0 i1 j1 k1 0), (F.face3d1 b1 i0 j0 k0 i1 j1 k1 0), (F.face3d2 b2 i0 j0 k0 i1 j1 k1 0)] [(F.st3d st i0 j0 k0 i1 j1 k1 sgcw)] := h.sub (by simp) (by simp)
  have hne : (F.st3d st i0 j0 k0 i1 j1 k1 sgcw).dims ≠ [] := by simp [F.st3d]
  obtain ⟨s1', d1, e1⟩ := C36_offdiag_3d (dx := dx) (beta := beta) hβ3 hi hj hk ⟨le_rfl, le_rfl⟩ ⟨le_rfl, le_rfl⟩ ⟨le_rfl, le_rfl⟩ hs hb
  obtain ⟨s1'', q1, -, K1, -⟩ := offdiag3_run (dx := dx) (beta := beta) hi hj hk hs ⟨le_rfl, le_rfl⟩ ⟨le_rfl, le_rfl⟩ ⟨le_rfl, le_rfl⟩ hb
  obtain rfl : s1'' = s1' := Except.ok.inj (q1.symm.trans e1)
  obtain rfl : s1 = s1'' := Except.ok.inj (a1.symm.trans d1)
  obtain ⟨s2, f2, o2, ⟨g2, w2⟩, v2⟩ := F.fold_adj (run := fun s m => Cuda.adjOffdiag3d i0 j0 k0 i1 j1 k1 s.i0 s.j0 s.k0 s.i1 s.j1 s.k1 s.dir s.side s.btype s.order dx 2 neu beta b0 b1 b2 sgcw st (βs s) m) (pc := (F.Side3.piece dx B0 B1 B2)) (a := (F.st3d st i0 j0 k0 i1 j1 k1 sgcw)) hne
    (Good := fun x => F.Args x [(F.face3d0 b0 i0 j0 k0 i1 j1 k1 0), (F.face3d1 b1 i0 j0 k0 i1 j1 k1 0), (F.face3d2 b2 i0 j0 k0 i1 j1 k1 0), (F.cell3d u i0 j0 k0 i1 j1 k1 ugcw)] [(F.st3d st i0 j0 k0 i1 j1 k1 sgcw), (F.cell3d v i0 j0 k0 i1 j1 k1 vgcw)] ∧ F.Holds x (F.face3d0 b0 i0 j0 k0 i1 j1 k1 0) B0 ∧ F.Holds x (F.face3d1 b1 i0 j0 k0 i1 j1 k1 0) B1 ∧ F.Holds x (F.face3d2 b2 i0 j0 k0 i1 j1 k1 0) B2) (l := sides) (fun s hsm x gx => by
      obtain ⟨gx, gB0, gB1, gB2⟩ := gx
      have hfo := hfi s hsm
      have hll := hl s hsm
      have h' := adjoff3_does (dx := dx) (dir_factor := 2) (neu_factor := neu) (beta := beta) (btype := s.btype) (exOrder := s.order) (st_ := st) (b0_ := b0) (b1_ := b1) (b2_ := b2) (hβs s) hi hj hk hs hll (by
        unfold F.First at hfo
        skip
        rcases hfo with ⟨h1, h2⟩ | h1 | ⟨h1, h2⟩
        · exact .inl ⟨h1, h2, rfl⟩
        · exact .inr (.inr (.inl h1))
        · exact .inr (.inr (.inr ⟨h1, h2⟩))) (gx.sub (by simp) (by simp))
      refine ⟨_, h'.congr (fun _ => Iff.rfl) (fun c hc => ?_) (fun c hc => ?_)⟩
      · show facU _ _ _ _ = facU _ _ _ _
        rw [onFace3_holds hll hc gB0 gB1 gB2]
        rfl
      · unfold F.First at hfo
        unfold facV
        rcases hfo with ⟨h1, h2⟩ | h1 | ⟨h1, h2⟩ <;> simp [h1, *])
    (fun x x' L u v A B hA hx => ⟨hA.args hne hx.1, (hx.2.1).only hA.only (by simp only [List.mem_singleton, forall_eq]; exact h.apart _ (by simp) _ (by simp)), (hx.2.2.1).only hA.only (by simp only [List.mem_singleton, forall_eq]; exact h.apart _ (by simp) _ (by simp)), (hx.2.2.2).only hA.only (by simp only [List.mem_singleton, forall_eq]; exact h.apart _ (by simp) _ (by simp))⟩)
    s1 ⟨K1.args h, hB0.only K1.only (by simp only [List.mem_singleton, forall_eq]; exact h.apart _ (by simp) _ (by simp)), hB1.only K1.only (by simp only [List.mem_singleton, forall_eq]; exact h.apart _ (by simp) _ (by simp)), hB2.only K1.only (by simp only [List.mem_singleton, forall_eq]; exact h.apart _ (by simp) _ (by simp))⟩
  have g1 := K1.args h
  obtain ⟨s2u', a2', K2, D1⟩ := diag_v2_3 (alpha := alpha) hβ4 hi hj hk hs (g1.sub (outs' := [(F.st3d st i0 j0 k0 i1 j1 k1 sgcw)]) (by simp) (by simp))
  obtain rfl : s2u = s2u' := Except.ok.inj (a2.symm.trans a2')
  obtain ⟨s3, a3, K3, D3⟩ := diag_v2_3 (alpha := alpha) hβ4 hi hj hk hs (g2.sub (outs' := [(F.st3d st i0 j0 k0 i1 j1 k1 sgcw)]) (by simp) (by simp))
  have o3 := (K1.only.trans o2).trans K3.only
  have g3 := K3.args g2
  have ht3 : F.Rows s3 (F.offset0 o 3 7) F.points3 := fun s c row z hr hz => ⟨(ht s c row z hr hz).1, by rw [o3.ints]; exact (ht s c row z hr hz).2⟩
  have hU3 : F.Holds s3 (F.cell3d u i0 j0 k0 i1 j1 k1 ugcw) Y := hU.only o3 (by simp only [List.mem_singleton, forall_eq]; exact h.apart _ (by simp) _ (by simp))
  have hap : ∀ b ∈ [(F.st3d st i0 j0 k0 i1 j1 k1 sgcw), (F.cell3d u i0 j0 k0 i1 j1 k1 ugcw)], F.Apart (F.cell3d v i0 j0 k0 i1 j1 k1 vgcw) b := by
    intro b hb
    simp only [List.mem_cons, List.not_mem_nil, or_false] at hb
    rcases hb with rfl | rfl
    · exact hvs
    · exact h.apart _ (by simp) _ (by simp)
  have hd3 : F.Args s3 [(F.st3d st i0 j0 k0 i1 j1 k1 sgcw), (F.cell3d u i0 j0 k0 i1 j1 k1 ugcw)] [(F.cell3d v i0 j0 k0 i1 j1 k1 vgcw)] := by
    refine ⟨fun b hb => g3.ok b ?_, fun w hw b hb => by rw [List.mem_singleton.1 hw]; exact hap b hb⟩
    simp only [List.mem_cons, List.mem_append, List.not_mem_nil, or_false] at hb ⊢
    tauto
  obtain ⟨s4, f4, r4, -, -⟩ := C48_value_3d (w1 := 7) hβ5 hi hj hk (by omega) hs hvg hd3 (points3_reach hg ht3) (by omega)
  refine ⟨s1, s2, s3, s4, a1, f2, a3, ?_, f4, fun i j k hi0 hi1 hj0 hj1 hk0 hk1 => ?_⟩
  · have hw : ∀ l' : List F.Side3, (∀ s ∈ l', s ∈ sides) → l'.foldlM (fun m s => Cuda.adjDiag3d i0 j0 k0 i1 j1 k1 s.i0 s.j0 s.k0 s.i1 s.j1 s.k1 s.dir s.side s.btype s.order dx beta b0 b1 b2 sgcw st (βs s) m) s3 = .ok s3 := by
      intro l'
      induction l' with
      | nil => exact fun _ => rfl
      | cons s l' ih =>
        intro hs'
        have hfo := hfi s (hs' s (by simp))
        unfold F.First at hfo
        rw [List.foldlM_cons, adjdiag3_skip hi hj hk hs (hl s (hs' s (by simp))) (by omega) hb]
        exact ih fun s hs'' => hs' s (List.mem_cons_of_mem _ hs'')
    exact hw sides fun _ h => h
  have hp : F.InBounds [(i0, i1), (j0, j1), (k0, k1)] [i, j, k] := F.inBounds3.2 ⟨i, j, k, rfl, by omega⟩
  have hin : ∀ c, F.InBounds [(i0, i1), (j0, j1), (k0, k1)] c → ∀ e, 0 ≤ e → e ≤ 7 - 1 → F.InBounds (F.st3d st i0 j0 k0 i1 j1 k1 sgcw).dims (e :: c) := by
    intro c hc e he0 he1
    obtain ⟨i, j, k, rfl, hc⟩ := F.inBounds3.1 hc
    simp only [F.st3d, F.InBounds, and_true]
    omega
  have key := (F.mat_core (s1 := s1) (s2u := s2u) (s2 := s2) (s3 := s3) (a := (F.st3d st i0 j0 k0 i1 j1 k1 sgcw)) (by omega) hin D1 D3 v2
    (fun p hp => by
      obtain ⟨i, j, k, rfl, hp⟩ := F.inBounds3.1 hp
      exact F.shift3_0)
    hd hF (fun k hk => by
      obtain ⟨s, hsm, rfl⟩ := List.mem_map.1 hk
      exact ⟨hfi s hsm, fun c hc => ⟨layer3_in (hl s hsm) hc, piece_out3 (hl s hsm) (hout s hsm) hc, fun h4 => hco s hsm h4 c hc⟩⟩)
    hY hD hp (fun _ => F.op3 alpha beta dx (fun _ => 1) B0 B1 B2 X i j k)).2
  have hq : F.Eqn 7 (F.row F.points3) (F.rd s2u (F.st3d st i0 j0 k0 i1 j1 k1 sgcw)) (fun _ => F.op3 alpha beta dx (fun _ => 1) B0 B1 B2 X i j k) X [i, j, k] := by
    have e := (F.eqn3 (G := fun _ => F.op3 alpha beta dx (fun _ => 1) B0 B1 B2 X i j k) (X := X) (hc i j k hi0 hi1 hj0 hj1 hk0 hk1)).2 rfl
    unfold F.Eqn at e ⊢
    rw [← e]
    exact F.sum_congr fun e he0 he1 => by rw [(hS _ (hin _ hp e he0 he1)).rd]
  have val := key hq
  unfold F.Eqn at val
  rw [F.star3, F.shift3_0, F.shift3_1, F.shift3_2, F.shift3_3, F.shift3_4, F.shift3_5, F.shift3_6] at val
  obtain ⟨t00, t01, t02, t10, t11, t12, t20, t21, t22, t30, t31, t32, t40, t41, t42, t50, t51, t52, t60, t61, t62⟩ := points3_entry ht3
  have fin := r4 i j k hi0 hi1 hj0 hj1 hk0 hk1 (fun e => F.rd s3 (F.st3d st i0 j0 k0 i1 j1 k1 sgcw) [e, i, j, k]) (fun e => Y (F.shift [i, j, k] (F.row F.points3 e))) (fun e he0 he1 => by
    refine ⟨(g3.ok (F.st3d st i0 j0 k0 i1 j1 k1 sgcw) (by simp)).rd (hin _ hp e he0 (by omega)), ?_⟩
    obtain rfl | rfl | rfl | rfl | rfl | rfl | rfl : e = 0 ∨ e = 1 ∨ e = 2 ∨ e = 3 ∨ e = 4 ∨ e = 5 ∨ e = 6 := by omega
    · refine ⟨_, _, _, t00, t01, t02, ?_⟩
      rw [F.shift3_0]
      have w := hU3 [i, j, k] (by in_bounds)
      rw [show [i + (0), j + (0), k + (0)] = [i, j, k] by simp only [add_zero, ← sub_eq_add_neg]]
      exact w
    · refine ⟨_, _, _, t10, t11, t12, ?_⟩
      rw [F.shift3_1]
      have w := hU3 [i - 1, j, k] (by in_bounds)
      rw [show [i + (-1), j + (0), k + (0)] = [i - 1, j, k] by simp only [add_zero, ← sub_eq_add_neg]]
      exact w
    · refine ⟨_, _, _, t20, t21, t22, ?_⟩
      rw [F.shift3_2]
      have w := hU3 [i + 1, j, k] (by in_bounds)
      rw [show [i + (1), j + (0), k + (0)] = [i + 1, j, k] by simp only [add_zero, ← sub_eq_add_neg]]
      exact w
    · refine ⟨_, _, _, t30, t31, t32, ?_⟩
      rw [F.shift3_3]
      have w := hU3 [i, j - 1, k] (by in_bounds)
      rw [show [i + (0), j + (-1), k + (0)] = [i, j - 1, k] by simp only [add_zero, ← sub_eq_add_neg]]
      exact w
    · refine ⟨_, _, _, t40, t41, t42, ?_⟩
      rw [F.shift3_4]
      have w := hU3 [i, j + 1, k] (by in_bounds)
      rw [show [i + (0), j + (1), k + (0)] = [i, j + 1, k] by simp only [add_zero, ← sub_eq_add_neg]]
      exact w
    · refine ⟨_, _, _, t50, t51, t52, ?_⟩
      rw [F.shift3_5]
      have w := hU3 [i, j, k - 1] (by in_bounds)
      rw [show [i + (0), j + (0), k + (-1)] = [i, j, k - 1] by simp only [add_zero, ← sub_eq_add_neg]]
      exact w
    · refine ⟨_, _, _, t60, t61, t62, ?_⟩
      rw [F.shift3_6]
      have w := hU3 [i, j, k + 1] (by in_bounds)
      rw [show [i + (0), j + (0), k + (1)] = [i, j, k + 1] by simp only [add_zero, ← sub_eq_add_neg]]
      exact w)
  replace val := val.symm
  beta_reduce at val
  rw [val]
  have er : F.irange 0 (7 - 1) = [0, 1, 2, 3, 4, 5, 6] := rfl
  rw [er] at fin
  simp only [List.foldl_cons, List.foldl_nil, zero_add, F.shift3_0, F.shift3_1, F.shift3_2, F.shift3_3, F.shift3_4, F.shift3_5, F.shift3_6] at fin
  exact fin

end Verif
