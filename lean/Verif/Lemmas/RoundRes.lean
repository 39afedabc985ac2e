import Verif.Lemmas.RoundOp

/-
What the flux and residual kernels leave in 53 bit arithmetic.
-/

namespace Verif
open Spec

set_option linter.unusedVariables false
set_option linter.unusedSimpArgs false
set_option linter.unusedTactic false
set_option linter.unreachableTactic false

theorem cres_v1_1 {i0 i1 agcw ugcw fgcw rgcw : Int} {alpha beta : B64} {dx : Nat → B64} {a u f f0 res : Ptr} {β : Nat → Backend} {m : Mem B64}
    (hβ : ∀ n, ValidBackend (β n)) (hi : i0 ≤ i1) (hagcw : 0 ≤ agcw) (hugcw : 0 ≤ ugcw) (hfgcw : 0 ≤ fgcw) (hrgcw : 0 ≤ rgcw)
    (h : F.Args m [F.cell1d a i0 i1 agcw, F.cell1d u i0 i1 ugcw, F.cell1d f i0 i1 fgcw, F.face1d f0 i0 i1 0]
      [F.cell1d res i0 i1 rgcw]) :
    ∃ m', Cuda.diffusionV1Res1d i0 i1 alpha beta dx agcw a ugcw u fgcw f f0 rgcw res β m = .ok m' ∧ F.Kept [F.cell1d res i0 i1 rgcw] m m' ∧
      (∀ i, i0 ≤ i → i ≤ i1 → F.El m' (F.cell1d res i0 i1 rgcw) [i] (F.rd m (F.cell1d f i0 i1 fgcw) [i] + beta * ((F.rd m (F.face1d f0 i0 i1 0) [i + 1] - F.rd m (F.face1d f0 i0 i1 0) [i]) / dx 0) - alpha * F.rd m (F.cell1d a i0 i1 agcw) [i] * F.rd m (F.cell1d u i0 i1 ugcw) [i])) := by
  have ha := h.ok (F.cell1d a i0 i1 agcw) (by simp)
  have hu := h.ok (F.cell1d u i0 i1 ugcw) (by simp)
  have hf := h.ok (F.cell1d f i0 i1 fgcw) (by simp)
  have hres := h.ok (F.cell1d res i0 i1 rgcw) (by simp)
  have hf0 := h.ok (F.face1d f0 i0 i1 0) (by simp)
  have Ia := ha.int
  have Iu := hu.int
  have If := hf.int
  have Ires := hres.int
  have If0 := hf0.int
  simp only [F.cell1d, F.face1d, List.mem_cons, List.not_mem_nil, or_false, forall_eq, InInt] at Ia Iu If Ires If0
  have mkI := mkB_ok (d := .I) (lo := i0) (hi := i1) (by list_omega)
  have plI := plus_ok (d := .I) (b := ⟨i0, i1 + 1, 1⟩) (x := 1) (by omega) (by list_omega)
  have spa : makeSpanOffset a agcw [(.I, ⟨i0, i1 + 1, 1⟩)] = .ok (sCell1 a i0 i1 agcw) := makeSpanOffset_ok (by simp) (by list_omega)
  have spu : makeSpanOffset u ugcw [(.I, ⟨i0, i1 + 1, 1⟩)] = .ok (sCell1 u i0 i1 ugcw) := makeSpanOffset_ok (by simp) (by list_omega)
  have spf : makeSpanOffset f fgcw [(.I, ⟨i0, i1 + 1, 1⟩)] = .ok (sCell1 f i0 i1 fgcw) := makeSpanOffset_ok (by simp) (by list_omega)
  have spres : makeSpanOffset res rgcw [(.I, ⟨i0, i1 + 1, 1⟩)] = .ok (sCell1 res i0 i1 rgcw) := makeSpanOffset_ok (by simp) (by list_omega)
  have Aa : ArrOK m (sCell1 a i0 i1 agcw) := by arr_ok ha
  have Au : ArrOK m (sCell1 u i0 i1 ugcw) := by arr_ok hu
  have Af : ArrOK m (sCell1 f i0 i1 fgcw) := by arr_ok hf
  have Ares : ArrOK m (sCell1 res i0 i1 rgcw) := by arr_ok hres
  have Af0 : ArrOK m (sFace1 f0 i0 i1) := by arr_ok hf0
  have Pa : Apart (sCell1 res i0 i1 rgcw) (sCell1 a i0 i1 agcw) := by apart_ok (h.apart _ (by simp) _ (by simp))
  have Pu : Apart (sCell1 res i0 i1 rgcw) (sCell1 u i0 i1 ugcw) := by apart_ok (h.apart _ (by simp) _ (by simp))
  have Pf : Apart (sCell1 res i0 i1 rgcw) (sCell1 f i0 i1 fgcw) := by apart_ok (h.apart _ (by simp) _ (by simp))
  have Pf0 : Apart (sCell1 res i0 i1 rgcw) (sFace1 f0 i0 i1) := by apart_ok (h.apart _ (by simp) _ (by simp))
  obtain ⟨m', c, f', x⟩ := stmt_nest (lhs := sCell1 res i0 i1 rgcw) (e := (sCell1 f i0 i1 fgcw).e B64 + beta * ((sFace1 f0 i0 i1).grad .I (dx 0)) - alpha * (sCell1 a i0 i1 agcw).e B64 * (sCell1 u i0 i1 ugcw).e B64)
    (D := [(.I, ⟨i0, i1 + 1, 1⟩)]) (r := [(.I, i0, i1)]) (p0 := fun _ => 0)
    (stmt := fun p => F.assign (F.cell1d res i0 i1 rgcw) [p .I] (.ref (F.cell1d f i0 i1 fgcw) [p .I] + .const beta * ((.ref (F.face1d f0 i0 i1 0) [p .I + 1] - .ref (F.face1d f0 i0 i1 0) [p .I]) / .const (dx 0)) - .const alpha * .ref (F.cell1d a i0 i1 agcw) [p .I] * .ref (F.cell1d u i0 i1 ugcw) [p .I]))
    (hβ 0) (by unit_dom) Ares (by within) (by operands) (by fits) (by typed) (by dims) (by same_dims) (by intro p; list_omega) (by body_ops trivial)
  have P0 : F.Part (T := B64) [F.cell1d a i0 i1 agcw, F.cell1d u i0 i1 ugcw, F.cell1d f i0 i1 fgcw, F.face1d f0 i0 i1 0] [F.cell1d res i0 i1 rgcw] (F.nestL [(.I, i0, i1)] (fun _ => 0) fun p => [((F.cell1d res i0 i1 rgcw), [p .I], F.Expr.ref (F.cell1d f i0 i1 fgcw) [p .I] + F.Expr.const beta * ((F.Expr.ref (F.face1d f0 i0 i1 0) [p .I + 1] - F.Expr.ref (F.face1d f0 i0 i1 0) [p .I]) / F.Expr.const (dx 0)) - F.Expr.const alpha * F.Expr.ref (F.cell1d a i0 i1 agcw) [p .I] * F.Expr.ref (F.cell1d u i0 i1 ugcw) [p .I])]) := by part_tac
  obtain ⟨m2, g1, -, g3, g4⟩ := P0.run (c := F.nest (fun p => F.assign (F.cell1d res i0 i1 rgcw) [p .I] (.ref (F.cell1d f i0 i1 fgcw) [p .I] + .const beta * ((.ref (F.face1d f0 i0 i1 0) [p .I + 1] - .ref (F.face1d f0 i0 i1 0) [p .I]) / .const (dx 0)) - .const alpha * .ref (F.cell1d a i0 i1 agcw) [p .I] * .ref (F.cell1d u i0 i1 ugcw) [p .I])) [(.I, i0, i1)] fun _ => 0) (by rw [← F.nest_seqn1]) h
  obtain rfl : m' = m2 := Except.ok.inj (f'.symm.trans g1)
  refine ⟨m', ?_, g3, fun i h0 h1 => g4 _ (F.mem_nestL (p := (pt1 i)) (by nodups) (by in_nest) (by pt_else) List.mem_cons_self)⟩
  unfold Cuda.diffusionV1Res1d
  exact bind_step mkI <| bind_step spa <| bind_step spu <| bind_step spf <| bind_step spres <| bind_step plI <| bind_step c rfl

theorem cres_v2_1 {i0 i1 ugcw fgcw rgcw : Int} {alpha beta : B64} {dx : Nat → B64} {u f f0 res : Ptr} {β : Nat → Backend} {m : Mem B64}
    (hβ : ∀ n, ValidBackend (β n)) (hi : i0 ≤ i1) (hugcw : 0 ≤ ugcw) (hfgcw : 0 ≤ fgcw) (hrgcw : 0 ≤ rgcw)
    (h : F.Args m [F.cell1d u i0 i1 ugcw, F.cell1d f i0 i1 fgcw, F.face1d f0 i0 i1 0]
      [F.cell1d res i0 i1 rgcw]) :
    ∃ m', Cuda.diffusionV2Res1d i0 i1 alpha beta dx ugcw u fgcw f f0 rgcw res β m = .ok m' ∧ F.Kept [F.cell1d res i0 i1 rgcw] m m' ∧
      (∀ i, i0 ≤ i → i ≤ i1 → F.El m' (F.cell1d res i0 i1 rgcw) [i] (F.rd m (F.cell1d f i0 i1 fgcw) [i] + beta * ((F.rd m (F.face1d f0 i0 i1 0) [i + 1] - F.rd m (F.face1d f0 i0 i1 0) [i]) / dx 0) - alpha * F.rd m (F.cell1d u i0 i1 ugcw) [i])) := by
  have hu := h.ok (F.cell1d u i0 i1 ugcw) (by simp)
  have hf := h.ok (F.cell1d f i0 i1 fgcw) (by simp)
  have hres := h.ok (F.cell1d res i0 i1 rgcw) (by simp)
  have hf0 := h.ok (F.face1d f0 i0 i1 0) (by simp)
  have Iu := hu.int
  have If := hf.int
  have Ires := hres.int
  have If0 := hf0.int
  simp only [F.cell1d, F.face1d, List.mem_cons, List.not_mem_nil, or_false, forall_eq, InInt] at Iu If Ires If0
  have mkI := mkB_ok (d := .I) (lo := i0) (hi := i1) (by list_omega)
  have plI := plus_ok (d := .I) (b := ⟨i0, i1 + 1, 1⟩) (x := 1) (by omega) (by list_omega)
  have spu : makeSpanOffset u ugcw [(.I, ⟨i0, i1 + 1, 1⟩)] = .ok (sCell1 u i0 i1 ugcw) := makeSpanOffset_ok (by simp) (by list_omega)
  have spf : makeSpanOffset f fgcw [(.I, ⟨i0, i1 + 1, 1⟩)] = .ok (sCell1 f i0 i1 fgcw) := makeSpanOffset_ok (by simp) (by list_omega)
  have spres : makeSpanOffset res rgcw [(.I, ⟨i0, i1 + 1, 1⟩)] = .ok (sCell1 res i0 i1 rgcw) := makeSpanOffset_ok (by simp) (by list_omega)
  have Au : ArrOK m (sCell1 u i0 i1 ugcw) := by arr_ok hu
  have Af : ArrOK m (sCell1 f i0 i1 fgcw) := by arr_ok hf
  have Ares : ArrOK m (sCell1 res i0 i1 rgcw) := by arr_ok hres
  have Af0 : ArrOK m (sFace1 f0 i0 i1) := by arr_ok hf0
  have Pu : Apart (sCell1 res i0 i1 rgcw) (sCell1 u i0 i1 ugcw) := by apart_ok (h.apart _ (by simp) _ (by simp))
  have Pf : Apart (sCell1 res i0 i1 rgcw) (sCell1 f i0 i1 fgcw) := by apart_ok (h.apart _ (by simp) _ (by simp))
  have Pf0 : Apart (sCell1 res i0 i1 rgcw) (sFace1 f0 i0 i1) := by apart_ok (h.apart _ (by simp) _ (by simp))
  obtain ⟨m', c, f', x⟩ := stmt_nest (lhs := sCell1 res i0 i1 rgcw) (e := (sCell1 f i0 i1 fgcw).e B64 + beta * ((sFace1 f0 i0 i1).grad .I (dx 0)) - alpha * (sCell1 u i0 i1 ugcw).e B64)
    (D := [(.I, ⟨i0, i1 + 1, 1⟩)]) (r := [(.I, i0, i1)]) (p0 := fun _ => 0)
    (stmt := fun p => F.assign (F.cell1d res i0 i1 rgcw) [p .I] (.ref (F.cell1d f i0 i1 fgcw) [p .I] + .const beta * ((.ref (F.face1d f0 i0 i1 0) [p .I + 1] - .ref (F.face1d f0 i0 i1 0) [p .I]) / .const (dx 0)) - .const alpha * .ref (F.cell1d u i0 i1 ugcw) [p .I]))
    (hβ 0) (by unit_dom) Ares (by within) (by operands) (by fits) (by typed) (by dims) (by same_dims) (by intro p; list_omega) (by body_ops trivial)
  have P0 : F.Part (T := B64) [F.cell1d u i0 i1 ugcw, F.cell1d f i0 i1 fgcw, F.face1d f0 i0 i1 0] [F.cell1d res i0 i1 rgcw] (F.nestL [(.I, i0, i1)] (fun _ => 0) fun p => [((F.cell1d res i0 i1 rgcw), [p .I], F.Expr.ref (F.cell1d f i0 i1 fgcw) [p .I] + F.Expr.const beta * ((F.Expr.ref (F.face1d f0 i0 i1 0) [p .I + 1] - F.Expr.ref (F.face1d f0 i0 i1 0) [p .I]) / F.Expr.const (dx 0)) - F.Expr.const alpha * F.Expr.ref (F.cell1d u i0 i1 ugcw) [p .I])]) := by part_tac
  obtain ⟨m2, g1, -, g3, g4⟩ := P0.run (c := F.nest (fun p => F.assign (F.cell1d res i0 i1 rgcw) [p .I] (.ref (F.cell1d f i0 i1 fgcw) [p .I] + .const beta * ((.ref (F.face1d f0 i0 i1 0) [p .I + 1] - .ref (F.face1d f0 i0 i1 0) [p .I]) / .const (dx 0)) - .const alpha * .ref (F.cell1d u i0 i1 ugcw) [p .I])) [(.I, i0, i1)] fun _ => 0) (by rw [← F.nest_seqn1]) h
  obtain rfl : m' = m2 := Except.ok.inj (f'.symm.trans g1)
  refine ⟨m', ?_, g3, fun i h0 h1 => g4 _ (F.mem_nestL (p := (pt1 i)) (by nodups) (by in_nest) (by pt_else) List.mem_cons_self)⟩
  unfold Cuda.diffusionV2Res1d
  exact bind_step mkI <| bind_step spu <| bind_step spf <| bind_step spres <| bind_step plI <| bind_step c rfl

theorem cres_p_1 {i0 i1 fgcw rgcw : Int} {beta : B64} {dx : Nat → B64} {f f0 res : Ptr} {β : Nat → Backend} {m : Mem B64}
    (hβ : ∀ n, ValidBackend (β n)) (hi : i0 ≤ i1) (hfgcw : 0 ≤ fgcw) (hrgcw : 0 ≤ rgcw)
    (h : F.Args m [F.cell1d f i0 i1 fgcw, F.face1d f0 i0 i1 0]
      [F.cell1d res i0 i1 rgcw]) :
    ∃ m', Cuda.poissonV1Res1d i0 i1 beta dx fgcw f f0 rgcw res β m = .ok m' ∧ F.Kept [F.cell1d res i0 i1 rgcw] m m' ∧
      (∀ i, i0 ≤ i → i ≤ i1 → F.El m' (F.cell1d res i0 i1 rgcw) [i] (F.rd m (F.cell1d f i0 i1 fgcw) [i] + beta * ((F.rd m (F.face1d f0 i0 i1 0) [i + 1] - F.rd m (F.face1d f0 i0 i1 0) [i]) / dx 0))) := by
  have hf := h.ok (F.cell1d f i0 i1 fgcw) (by simp)
  have hres := h.ok (F.cell1d res i0 i1 rgcw) (by simp)
  have hf0 := h.ok (F.face1d f0 i0 i1 0) (by simp)
  have If := hf.int
  have Ires := hres.int
  have If0 := hf0.int
  simp only [F.cell1d, F.face1d, List.mem_cons, List.not_mem_nil, or_false, forall_eq, InInt] at If Ires If0
  have mkI := mkB_ok (d := .I) (lo := i0) (hi := i1) (by list_omega)
  have plI := plus_ok (d := .I) (b := ⟨i0, i1 + 1, 1⟩) (x := 1) (by omega) (by list_omega)
  have spf : makeSpanOffset f fgcw [(.I, ⟨i0, i1 + 1, 1⟩)] = .ok (sCell1 f i0 i1 fgcw) := makeSpanOffset_ok (by simp) (by list_omega)
  have spres : makeSpanOffset res rgcw [(.I, ⟨i0, i1 + 1, 1⟩)] = .ok (sCell1 res i0 i1 rgcw) := makeSpanOffset_ok (by simp) (by list_omega)
  have Af : ArrOK m (sCell1 f i0 i1 fgcw) := by arr_ok hf
  have Ares : ArrOK m (sCell1 res i0 i1 rgcw) := by arr_ok hres
  have Af0 : ArrOK m (sFace1 f0 i0 i1) := by arr_ok hf0
  have Pf : Apart (sCell1 res i0 i1 rgcw) (sCell1 f i0 i1 fgcw) := by apart_ok (h.apart _ (by simp) _ (by simp))
  have Pf0 : Apart (sCell1 res i0 i1 rgcw) (sFace1 f0 i0 i1) := by apart_ok (h.apart _ (by simp) _ (by simp))
  obtain ⟨m', c, f', x⟩ := stmt_nest (lhs := sCell1 res i0 i1 rgcw) (e := (sCell1 f i0 i1 fgcw).e B64 + beta * ((sFace1 f0 i0 i1).grad .I (dx 0)))
    (D := [(.I, ⟨i0, i1 + 1, 1⟩)]) (r := [(.I, i0, i1)]) (p0 := fun _ => 0)
    (stmt := fun p => F.assign (F.cell1d res i0 i1 rgcw) [p .I] (.ref (F.cell1d f i0 i1 fgcw) [p .I] + .const beta * ((.ref (F.face1d f0 i0 i1 0) [p .I + 1] - .ref (F.face1d f0 i0 i1 0) [p .I]) / .const (dx 0))))
    (hβ 0) (by unit_dom) Ares (by within) (by operands) (by fits) (by typed) (by dims) (by same_dims) (by intro p; list_omega) (by body_ops trivial)
  have P0 : F.Part (T := B64) [F.cell1d f i0 i1 fgcw, F.face1d f0 i0 i1 0] [F.cell1d res i0 i1 rgcw] (F.nestL [(.I, i0, i1)] (fun _ => 0) fun p => [((F.cell1d res i0 i1 rgcw), [p .I], F.Expr.ref (F.cell1d f i0 i1 fgcw) [p .I] + F.Expr.const beta * ((F.Expr.ref (F.face1d f0 i0 i1 0) [p .I + 1] - F.Expr.ref (F.face1d f0 i0 i1 0) [p .I]) / F.Expr.const (dx 0)))]) := by part_tac
  obtain ⟨m2, g1, -, g3, g4⟩ := P0.run (c := F.nest (fun p => F.assign (F.cell1d res i0 i1 rgcw) [p .I] (.ref (F.cell1d f i0 i1 fgcw) [p .I] + .const beta * ((.ref (F.face1d f0 i0 i1 0) [p .I + 1] - .ref (F.face1d f0 i0 i1 0) [p .I]) / .const (dx 0)))) [(.I, i0, i1)] fun _ => 0) (by rw [← F.nest_seqn1]) h
  obtain rfl : m' = m2 := Except.ok.inj (f'.symm.trans g1)
  refine ⟨m', ?_, g3, fun i h0 h1 => g4 _ (F.mem_nestL (p := (pt1 i)) (by nodups) (by in_nest) (by pt_else) List.mem_cons_self)⟩
  unfold Cuda.poissonV1Res1d
  exact bind_step mkI <| bind_step spf <| bind_step spres <| bind_step plI <| bind_step c rfl

theorem rres_v1_1 {i0 i1 agcw gcw fgcw rgcw : Int} {alpha beta : B64} {dx : Nat → B64} {a u b0 f f0 res : Ptr} {β1 β2 : Nat → Backend} {m : Mem B64}
    (hβ1 : ∀ n, ValidBackend (β1 n)) (hβ2 : ∀ n, ValidBackend (β2 n)) (hi : i0 ≤ i1) (hg : 1 ≤ gcw) (hagcw : 0 ≤ agcw) (hfgcw : 0 ≤ fgcw) (hrgcw : 0 ≤ rgcw)
    (h : F.Args m [(F.cell1d a i0 i1 agcw), (F.cell1d u i0 i1 gcw), (F.cell1d f i0 i1 fgcw), (F.face1d b0 i0 i1 0)] [(F.face1d f0 i0 i1 0), (F.cell1d res i0 i1 rgcw)])
    (hr : F.Apart (F.cell1d res i0 i1 rgcw) (F.face1d f0 i0 i1 0)) :
    ∃ m1 m2, Cuda.flux1d i0 i1 dx b0 gcw u f0 β1 m = .ok m1 ∧ Cuda.diffusionV1Res1d i0 i1 alpha beta dx agcw a gcw u fgcw f f0 rgcw res β2 m1 = .ok m2 ∧ F.Kept [(F.face1d f0 i0 i1 0)] m m1 ∧ F.Kept [(F.cell1d res i0 i1 rgcw)] m1 m2 ∧
      (∀ i, i0 ≤ i → i ≤ i1 + 1 → F.El m1 (F.face1d f0 i0 i1 0) [i] (F.rd m (F.face1d b0 i0 i1 0) [i] * ((F.rd m (F.cell1d u i0 i1 gcw) [i] - F.rd m (F.cell1d u i0 i1 gcw) [i - 1]) / dx 0))) ∧
      (∀ i, i0 ≤ i → i ≤ i1 → F.El m2 (F.cell1d res i0 i1 rgcw) [i] (F.rd m (F.cell1d f i0 i1 fgcw) [i] + beta * ((F.rd m (F.face1d b0 i0 i1 0) [i + 1] * ((F.rd m (F.cell1d u i0 i1 gcw) [i + 1] - F.rd m (F.cell1d u i0 i1 gcw) [i]) / dx 0) - F.rd m (F.face1d b0 i0 i1 0) [i] * ((F.rd m (F.cell1d u i0 i1 gcw) [i] - F.rd m (F.cell1d u i0 i1 gcw) [i - 1]) / dx 0)) / dx 0) - alpha * F.rd m (F.cell1d a i0 i1 agcw) [i] * F.rd m (F.cell1d u i0 i1 gcw) [i])) := by
  have h1 : F.Args m [(F.cell1d u i0 i1 gcw), (F.face1d b0 i0 i1 0)] [(F.face1d f0 i0 i1 0)] := h.sub (by intro x hx; simp only [List.mem_cons, List.not_mem_nil, or_false] at hx ⊢; tauto) (by intro x hx; simp only [List.mem_cons, List.not_mem_nil, or_false] at hx ⊢; tauto)
  obtain ⟨m1, c1, K1, V0⟩ := cflux1_run (dx := dx) hβ1 hi hg h1
  have h2 : F.Args m1 [(F.cell1d a i0 i1 agcw), (F.cell1d u i0 i1 gcw), (F.cell1d f i0 i1 fgcw), (F.face1d f0 i0 i1 0)] [(F.cell1d res i0 i1 rgcw)] := by
    refine ⟨fun a ha => K1.ok (h.ok a ?_), ?_⟩
    · simp only [List.mem_cons, List.mem_append, List.not_mem_nil, or_false] at ha ⊢; tauto
    · simp only [List.mem_cons, List.not_mem_nil, or_false, forall_eq_or_imp, forall_eq]
      exact ⟨h.apart _ (by simp) _ (by simp), h.apart _ (by simp) _ (by simp), h.apart _ (by simp) _ (by simp), hr⟩
  obtain ⟨m2, c2, K2, W⟩ := cres_v1_1 (alpha := alpha) (beta := beta) (dx := dx) (β := β2) hβ2 hi hagcw (by omega) hfgcw hrgcw h2
  refine ⟨m1, m2, c1, c2, K1, K2, V0, fun i h0 h1 => ?_⟩
  have w := W i h0 h1
  have e0a := (V0 (i + 1) (by omega) (by omega)).rd
  rw [add_sub_cancel_right] at e0a
  have e0b := (V0 i (by omega) (by omega)).rd
  have ea : F.rd m1 (F.cell1d a i0 i1 agcw) [i] = F.rd m (F.cell1d a i0 i1 agcw) [i] := K1.rd (by intro o ho; refine h.apart o ?_ _ (by simp); simp only [List.mem_cons, List.not_mem_nil, or_false] at ho ⊢; tauto) (by in_bounds)
  have eu : F.rd m1 (F.cell1d u i0 i1 gcw) [i] = F.rd m (F.cell1d u i0 i1 gcw) [i] := K1.rd (by intro o ho; refine h.apart o ?_ _ (by simp); simp only [List.mem_cons, List.not_mem_nil, or_false] at ho ⊢; tauto) (by in_bounds)
  have ef : F.rd m1 (F.cell1d f i0 i1 fgcw) [i] = F.rd m (F.cell1d f i0 i1 fgcw) [i] := K1.rd (by intro o ho; refine h.apart o ?_ _ (by simp); simp only [List.mem_cons, List.not_mem_nil, or_false] at ho ⊢; tauto) (by in_bounds)
  rw [e0a, e0b, ea, eu, ef] at w
  exact w

theorem rres_v2_1 {i0 i1 gcw fgcw rgcw : Int} {alpha beta : B64} {dx : Nat → B64} {u b0 f f0 res : Ptr} {β1 β2 : Nat → Backend} {m : Mem B64}
    (hβ1 : ∀ n, ValidBackend (β1 n)) (hβ2 : ∀ n, ValidBackend (β2 n)) (hi : i0 ≤ i1) (hg : 1 ≤ gcw) (hfgcw : 0 ≤ fgcw) (hrgcw : 0 ≤ rgcw)
    (h : F.Args m [(F.cell1d u i0 i1 gcw), (F.cell1d f i0 i1 fgcw), (F.face1d b0 i0 i1 0)] [(F.face1d f0 i0 i1 0), (F.cell1d res i0 i1 rgcw)])
    (hr : F.Apart (F.cell1d res i0 i1 rgcw) (F.face1d f0 i0 i1 0)) :
    ∃ m1 m2, Cuda.flux1d i0 i1 dx b0 gcw u f0 β1 m = .ok m1 ∧ Cuda.diffusionV2Res1d i0 i1 alpha beta dx gcw u fgcw f f0 rgcw res β2 m1 = .ok m2 ∧ F.Kept [(F.face1d f0 i0 i1 0)] m m1 ∧ F.Kept [(F.cell1d res i0 i1 rgcw)] m1 m2 ∧
      (∀ i, i0 ≤ i → i ≤ i1 + 1 → F.El m1 (F.face1d f0 i0 i1 0) [i] (F.rd m (F.face1d b0 i0 i1 0) [i] * ((F.rd m (F.cell1d u i0 i1 gcw) [i] - F.rd m (F.cell1d u i0 i1 gcw) [i - 1]) / dx 0))) ∧
      (∀ i, i0 ≤ i → i ≤ i1 → F.El m2 (F.cell1d res i0 i1 rgcw) [i] (F.rd m (F.cell1d f i0 i1 fgcw) [i] + beta * ((F.rd m (F.face1d b0 i0 i1 0) [i + 1] * ((F.rd m (F.cell1d u i0 i1 gcw) [i + 1] - F.rd m (F.cell1d u i0 i1 gcw) [i]) / dx 0) - F.rd m (F.face1d b0 i0 i1 0) [i] * ((F.rd m (F.cell1d u i0 i1 gcw) [i] - F.rd m (F.cell1d u i0 i1 gcw) [i - 1]) / dx 0)) / dx 0) - alpha * F.rd m (F.cell1d u i0 i1 gcw) [i])) := by
  have h1 : F.Args m [(F.cell1d u i0 i1 gcw), (F.face1d b0 i0 i1 0)] [(F.face1d f0 i0 i1 0)] := h.sub (by intro x hx; simp only [List.mem_cons, List.not_mem_nil, or_false] at hx ⊢; tauto) (by intro x hx; simp only [List.mem_cons, List.not_mem_nil, or_false] at hx ⊢; tauto)
  obtain ⟨m1, c1, K1, V0⟩ := cflux1_run (dx := dx) hβ1 hi hg h1
  have h2 : F.Args m1 [(F.cell1d u i0 i1 gcw), (F.cell1d f i0 i1 fgcw), (F.face1d f0 i0 i1 0)] [(F.cell1d res i0 i1 rgcw)] := by
    refine ⟨fun a ha => K1.ok (h.ok a ?_), ?_⟩
    · simp only [List.mem_cons, List.mem_append, List.not_mem_nil, or_false] at ha ⊢; tauto
    · simp only [List.mem_cons, List.not_mem_nil, or_false, forall_eq_or_imp, forall_eq]
      exact ⟨h.apart _ (by simp) _ (by simp), h.apart _ (by simp) _ (by simp), hr⟩
  obtain ⟨m2, c2, K2, W⟩ := cres_v2_1 (alpha := alpha) (beta := beta) (dx := dx) (β := β2) hβ2 hi (by omega) hfgcw hrgcw h2
  refine ⟨m1, m2, c1, c2, K1, K2, V0, fun i h0 h1 => ?_⟩
  have w := W i h0 h1
  have e0a := (V0 (i + 1) (by omega) (by omega)).rd
  rw [add_sub_cancel_right] at e0a
  have e0b := (V0 i (by omega) (by omega)).rd
  have eu : F.rd m1 (F.cell1d u i0 i1 gcw) [i] = F.rd m (F.cell1d u i0 i1 gcw) [i] := K1.rd (by intro o ho; refine h.apart o ?_ _ (by simp); simp only [List.mem_cons, List.not_mem_nil, or_false] at ho ⊢; tauto) (by in_bounds)
  have ef : F.rd m1 (F.cell1d f i0 i1 fgcw) [i] = F.rd m (F.cell1d f i0 i1 fgcw) [i] := K1.rd (by intro o ho; refine h.apart o ?_ _ (by simp); simp only [List.mem_cons, List.not_mem_nil, or_false] at ho ⊢; tauto) (by in_bounds)
  rw [e0a, e0b, eu, ef] at w
  exact w

theorem rres_p_1 {i0 i1 gcw fgcw rgcw : Int} {beta : B64} {dx : Nat → B64} {u f f0 res : Ptr} {β1 β2 : Nat → Backend} {m : Mem B64}
    (hβ1 : ∀ n, ValidBackend (β1 n)) (hβ2 : ∀ n, ValidBackend (β2 n)) (hi : i0 ≤ i1) (hg : 1 ≤ gcw) (hfgcw : 0 ≤ fgcw) (hrgcw : 0 ≤ rgcw)
    (h : F.Args m [(F.cell1d u i0 i1 gcw), (F.cell1d f i0 i1 fgcw)] [(F.face1d f0 i0 i1 0), (F.cell1d res i0 i1 rgcw)])
    (hr : F.Apart (F.cell1d res i0 i1 rgcw) (F.face1d f0 i0 i1 0)) :
    ∃ m1 m2, Cuda.poissonFlux1d i0 i1 dx gcw u f0 β1 m = .ok m1 ∧ Cuda.poissonV1Res1d i0 i1 beta dx fgcw f f0 rgcw res β2 m1 = .ok m2 ∧ F.Kept [(F.face1d f0 i0 i1 0)] m m1 ∧ F.Kept [(F.cell1d res i0 i1 rgcw)] m1 m2 ∧
      (∀ i, i0 ≤ i → i ≤ i1 + 1 → F.El m1 (F.face1d f0 i0 i1 0) [i] ((F.rd m (F.cell1d u i0 i1 gcw) [i] - F.rd m (F.cell1d u i0 i1 gcw) [i - 1]) / dx 0)) ∧
      (∀ i, i0 ≤ i → i ≤ i1 → F.El m2 (F.cell1d res i0 i1 rgcw) [i] (F.rd m (F.cell1d f i0 i1 fgcw) [i] + beta * (((F.rd m (F.cell1d u i0 i1 gcw) [i + 1] - F.rd m (F.cell1d u i0 i1 gcw) [i]) / dx 0 - (F.rd m (F.cell1d u i0 i1 gcw) [i] - F.rd m (F.cell1d u i0 i1 gcw) [i - 1]) / dx 0) / dx 0))) := by
  have h1 : F.Args m [(F.cell1d u i0 i1 gcw)] [(F.face1d f0 i0 i1 0)] := h.sub (by intro x hx; simp only [List.mem_cons, List.not_mem_nil, or_false] at hx ⊢; tauto) (by intro x hx; simp only [List.mem_cons, List.not_mem_nil, or_false] at hx ⊢; tauto)
  obtain ⟨m1, q1, -, K1, V0⟩ := pflux1_run (dx := dx) hi hg h1
  obtain ⟨m1', c1, e1⟩ := C49_flux_poisson_1d (dx := dx) (β := β1) hβ1 hi hg h1
  obtain rfl : m1 = m1' := Except.ok.inj (q1.symm.trans e1)
  have h2 : F.Args m1 [(F.cell1d f i0 i1 fgcw), (F.face1d f0 i0 i1 0)] [(F.cell1d res i0 i1 rgcw)] := by
    refine ⟨fun a ha => K1.ok (h.ok a ?_), ?_⟩
    · simp only [List.mem_cons, List.mem_append, List.not_mem_nil, or_false] at ha ⊢; tauto
    · simp only [List.mem_cons, List.not_mem_nil, or_false, forall_eq_or_imp, forall_eq]
      exact ⟨h.apart _ (by simp) _ (by simp), hr⟩
  obtain ⟨m2, c2, K2, W⟩ := cres_p_1 (beta := beta) (dx := dx) (β := β2) hβ2 hi hfgcw hrgcw h2
  refine ⟨m1, m2, c1, c2, K1, K2, V0, fun i h0 h1 => ?_⟩
  have w := W i h0 h1
  have e0a := (V0 (i + 1) (by omega) (by omega)).rd
  rw [add_sub_cancel_right] at e0a
  have e0b := (V0 i (by omega) (by omega)).rd
  have ef : F.rd m1 (F.cell1d f i0 i1 fgcw) [i] = F.rd m (F.cell1d f i0 i1 fgcw) [i] := K1.rd (by intro o ho; refine h.apart o ?_ _ (by simp); simp only [List.mem_cons, List.not_mem_nil, or_false] at ho ⊢; tauto) (by in_bounds)
  rw [e0a, e0b, ef] at w
  exact w

theorem rres_d_1 {i0 i1 gcw fgcw rgcw : Int} {beta : B64} {dx : Nat → B64} {u b0 f f0 res : Ptr} {β1 β2 : Nat → Backend} {m : Mem B64}
    (hβ1 : ∀ n, ValidBackend (β1 n)) (hβ2 : ∀ n, ValidBackend (β2 n)) (hi : i0 ≤ i1) (hg : 1 ≤ gcw) (hfgcw : 0 ≤ fgcw) (hrgcw : 0 ≤ rgcw)
    (h : F.Args m [(F.cell1d u i0 i1 gcw), (F.cell1d f i0 i1 fgcw), (F.face1d b0 i0 i1 0)] [(F.face1d f0 i0 i1 0), (F.cell1d res i0 i1 rgcw)])
    (hr : F.Apart (F.cell1d res i0 i1 rgcw) (F.face1d f0 i0 i1 0)) :
    ∃ m1 m2, Cuda.flux1d i0 i1 dx b0 gcw u f0 β1 m = .ok m1 ∧ Cuda.poissonV1Res1d i0 i1 beta dx fgcw f f0 rgcw res β2 m1 = .ok m2 ∧ F.Kept [(F.face1d f0 i0 i1 0)] m m1 ∧ F.Kept [(F.cell1d res i0 i1 rgcw)] m1 m2 ∧
      (∀ i, i0 ≤ i → i ≤ i1 + 1 → F.El m1 (F.face1d f0 i0 i1 0) [i] (F.rd m (F.face1d b0 i0 i1 0) [i] * ((F.rd m (F.cell1d u i0 i1 gcw) [i] - F.rd m (F.cell1d u i0 i1 gcw) [i - 1]) / dx 0))) ∧
      (∀ i, i0 ≤ i → i ≤ i1 → F.El m2 (F.cell1d res i0 i1 rgcw) [i] (F.rd m (F.cell1d f i0 i1 fgcw) [i] + beta * ((F.rd m (F.face1d b0 i0 i1 0) [i + 1] * ((F.rd m (F.cell1d u i0 i1 gcw) [i + 1] - F.rd m (F.cell1d u i0 i1 gcw) [i]) / dx 0) - F.rd m (F.face1d b0 i0 i1 0) [i] * ((F.rd m (F.cell1d u i0 i1 gcw) [i] - F.rd m (F.cell1d u i0 i1 gcw) [i - 1]) / dx 0)) / dx 0))) := by
  have h1 : F.Args m [(F.cell1d u i0 i1 gcw), (F.face1d b0 i0 i1 0)] [(F.face1d f0 i0 i1 0)] := h.sub (by intro x hx; simp only [List.mem_cons, List.not_mem_nil, or_false] at hx ⊢; tauto) (by intro x hx; simp only [List.mem_cons, List.not_mem_nil, or_false] at hx ⊢; tauto)
  obtain ⟨m1, c1, K1, V0⟩ := cflux1_run (dx := dx) hβ1 hi hg h1
  have h2 : F.Args m1 [(F.cell1d f i0 i1 fgcw), (F.face1d f0 i0 i1 0)] [(F.cell1d res i0 i1 rgcw)] := by
    refine ⟨fun a ha => K1.ok (h.ok a ?_), ?_⟩
    · simp only [List.mem_cons, List.mem_append, List.not_mem_nil, or_false] at ha ⊢; tauto
    · simp only [List.mem_cons, List.not_mem_nil, or_false, forall_eq_or_imp, forall_eq]
      exact ⟨h.apart _ (by simp) _ (by simp), hr⟩
  obtain ⟨m2, c2, K2, W⟩ := cres_p_1 (beta := beta) (dx := dx) (β := β2) hβ2 hi hfgcw hrgcw h2
  refine ⟨m1, m2, c1, c2, K1, K2, V0, fun i h0 h1 => ?_⟩
  have w := W i h0 h1
  have e0a := (V0 (i + 1) (by omega) (by omega)).rd
  rw [add_sub_cancel_right] at e0a
  have e0b := (V0 i (by omega) (by omega)).rd
  have ef : F.rd m1 (F.cell1d f i0 i1 fgcw) [i] = F.rd m (F.cell1d f i0 i1 fgcw) [i] := K1.rd (by intro o ho; refine h.apart o ?_ _ (by simp); simp only [List.mem_cons, List.not_mem_nil, or_false] at ho ⊢; tauto) (by in_bounds)
  rw [e0a, e0b, ef] at w
  exact w

theorem cres_v1_2 {i0 i1 j0 j1 agcw ugcw fgcw rgcw : Int} {alpha beta : B64} {dx : Nat → B64} {a u f f0 f1 res : Ptr} {β : Nat → Backend} {m : Mem B64}
    (hβ : ∀ n, ValidBackend (β n)) (hi : i0 ≤ i1) (hj : j0 ≤ j1) (hagcw : 0 ≤ agcw) (hugcw : 0 ≤ ugcw) (hfgcw : 0 ≤ fgcw) (hrgcw : 0 ≤ rgcw)
    (h : F.Args m [F.cell2d a i0 j0 i1 j1 agcw, F.cell2d u i0 j0 i1 j1 ugcw, F.cell2d f i0 j0 i1 j1 fgcw, F.face2d0 f0 i0 j0 i1 j1 0, F.face2d1 f1 i0 j0 i1 j1 0]
      [F.cell2d res i0 j0 i1 j1 rgcw]) :
    ∃ m', Cuda.diffusionV1Res2d i0 i1 j0 j1 alpha beta dx agcw a ugcw u fgcw f f0 f1 rgcw res β m = .ok m' ∧ F.Kept [F.cell2d res i0 j0 i1 j1 rgcw] m m' ∧
      (∀ i j, i0 ≤ i → i ≤ i1 → j0 ≤ j → j ≤ j1 → F.El m' (F.cell2d res i0 j0 i1 j1 rgcw) [i, j] (F.rd m (F.cell2d f i0 j0 i1 j1 fgcw) [i, j] + beta * ((F.rd m (F.face2d0 f0 i0 j0 i1 j1 0) [i + 1, j] - F.rd m (F.face2d0 f0 i0 j0 i1 j1 0) [i, j]) / dx 0 + (F.rd m (F.face2d1 f1 i0 j0 i1 j1 0) [j + 1, i] - F.rd m (F.face2d1 f1 i0 j0 i1 j1 0) [j, i]) / dx 1) - alpha * F.rd m (F.cell2d a i0 j0 i1 j1 agcw) [i, j] * F.rd m (F.cell2d u i0 j0 i1 j1 ugcw) [i, j])) := by
  have ha := h.ok (F.cell2d a i0 j0 i1 j1 agcw) (by simp)
  have hu := h.ok (F.cell2d u i0 j0 i1 j1 ugcw) (by simp)
  have hf := h.ok (F.cell2d f i0 j0 i1 j1 fgcw) (by simp)
  have hres := h.ok (F.cell2d res i0 j0 i1 j1 rgcw) (by simp)
  have hf0 := h.ok (F.face2d0 f0 i0 j0 i1 j1 0) (by simp)
  have hf1 := h.ok (F.face2d1 f1 i0 j0 i1 j1 0) (by simp)
  have Ia := ha.int
  have Iu := hu.int
  have If := hf.int
  have Ires := hres.int
  have If0 := hf0.int
  have If1 := hf1.int
  simp only [F.cell2d, F.face2d0, F.face2d1, List.mem_cons, List.not_mem_nil, or_false, forall_eq_or_imp, forall_eq, InInt] at Ia Iu If Ires If0 If1
  have mkI := mkB_ok (d := .I) (lo := i0) (hi := i1) (by list_omega)
  have plI := plus_ok (d := .I) (b := ⟨i0, i1 + 1, 1⟩) (x := 1) (by omega) (by list_omega)
  have mkJ := mkB_ok (d := .J) (lo := j0) (hi := j1) (by list_omega)
  have plJ := plus_ok (d := .J) (b := ⟨j0, j1 + 1, 1⟩) (x := 1) (by omega) (by list_omega)
  have spa : makeSpanOffset a agcw [(.J, ⟨j0, j1 + 1, 1⟩), (.I, ⟨i0, i1 + 1, 1⟩)] = .ok (sCell2 a i0 j0 i1 j1 agcw) := makeSpanOffset_ok (by simp) (by list_omega)
  have spu : makeSpanOffset u ugcw [(.J, ⟨j0, j1 + 1, 1⟩), (.I, ⟨i0, i1 + 1, 1⟩)] = .ok (sCell2 u i0 j0 i1 j1 ugcw) := makeSpanOffset_ok (by simp) (by list_omega)
  have spf : makeSpanOffset f fgcw [(.J, ⟨j0, j1 + 1, 1⟩), (.I, ⟨i0, i1 + 1, 1⟩)] = .ok (sCell2 f i0 j0 i1 j1 fgcw) := makeSpanOffset_ok (by simp) (by list_omega)
  have spres : makeSpanOffset res rgcw [(.J, ⟨j0, j1 + 1, 1⟩), (.I, ⟨i0, i1 + 1, 1⟩)] = .ok (sCell2 res i0 j0 i1 j1 rgcw) := makeSpanOffset_ok (by simp) (by list_omega)
  have Aa : ArrOK m (sCell2 a i0 j0 i1 j1 agcw) := by arr_ok ha
  have Au : ArrOK m (sCell2 u i0 j0 i1 j1 ugcw) := by arr_ok hu
  have Af : ArrOK m (sCell2 f i0 j0 i1 j1 fgcw) := by arr_ok hf
  have Ares : ArrOK m (sCell2 res i0 j0 i1 j1 rgcw) := by arr_ok hres
  have Af0 : ArrOK m (sFace20 f0 i0 j0 i1 j1) := by arr_ok hf0
  have Af1 : ArrOK m (sFace21 f1 i0 j0 i1 j1) := by arr_ok hf1
  have Pa : Apart (sCell2 res i0 j0 i1 j1 rgcw) (sCell2 a i0 j0 i1 j1 agcw) := by apart_ok (h.apart _ (by simp) _ (by simp))
  have Pu : Apart (sCell2 res i0 j0 i1 j1 rgcw) (sCell2 u i0 j0 i1 j1 ugcw) := by apart_ok (h.apart _ (by simp) _ (by simp))
  have Pf : Apart (sCell2 res i0 j0 i1 j1 rgcw) (sCell2 f i0 j0 i1 j1 fgcw) := by apart_ok (h.apart _ (by simp) _ (by simp))
  have Pf0 : Apart (sCell2 res i0 j0 i1 j1 rgcw) (sFace20 f0 i0 j0 i1 j1) := by apart_ok (h.apart _ (by simp) _ (by simp))
  have Pf1 : Apart (sCell2 res i0 j0 i1 j1 rgcw) (sFace21 f1 i0 j0 i1 j1) := by apart_ok (h.apart _ (by simp) _ (by simp))
  obtain ⟨m', c, f', x⟩ := stmt_nest (lhs := sCell2 res i0 j0 i1 j1 rgcw) (e := (sCell2 f i0 j0 i1 j1 fgcw).e B64 + beta * ((sFace20 f0 i0 j0 i1 j1).grad .I (dx 0) + (sFace21 f1 i0 j0 i1 j1).grad .J (dx 1)) - alpha * (sCell2 a i0 j0 i1 j1 agcw).e B64 * (sCell2 u i0 j0 i1 j1 ugcw).e B64)
    (D := [(.J, ⟨j0, j1 + 1, 1⟩), (.I, ⟨i0, i1 + 1, 1⟩)]) (r := [(.J, j0, j1), (.I, i0, i1)]) (p0 := fun _ => 0)
    (stmt := fun p => F.assign (F.cell2d res i0 j0 i1 j1 rgcw) [p .I, p .J] (.ref (F.cell2d f i0 j0 i1 j1 fgcw) [p .I, p .J] + .const beta * ((.ref (F.face2d0 f0 i0 j0 i1 j1 0) [p .I + 1, p .J] - .ref (F.face2d0 f0 i0 j0 i1 j1 0) [p .I, p .J]) / .const (dx 0) + (.ref (F.face2d1 f1 i0 j0 i1 j1 0) [p .J + 1, p .I] - .ref (F.face2d1 f1 i0 j0 i1 j1 0) [p .J, p .I]) / .const (dx 1)) - .const alpha * .ref (F.cell2d a i0 j0 i1 j1 agcw) [p .I, p .J] * .ref (F.cell2d u i0 j0 i1 j1 ugcw) [p .I, p .J]))
    (hβ 0) (by unit_dom) Ares (by within) (by operands) (by fits) (by typed) (by dims) (by same_dims) (by intro p; list_omega) (by body_ops trivial)
  have P0 : F.Part (T := B64) [F.cell2d a i0 j0 i1 j1 agcw, F.cell2d u i0 j0 i1 j1 ugcw, F.cell2d f i0 j0 i1 j1 fgcw, F.face2d0 f0 i0 j0 i1 j1 0, F.face2d1 f1 i0 j0 i1 j1 0] [F.cell2d res i0 j0 i1 j1 rgcw] (F.nestL [(.J, j0, j1), (.I, i0, i1)] (fun _ => 0) fun p => [((F.cell2d res i0 j0 i1 j1 rgcw), [p .I, p .J], F.Expr.ref (F.cell2d f i0 j0 i1 j1 fgcw) [p .I, p .J] + F.Expr.const beta * ((F.Expr.ref (F.face2d0 f0 i0 j0 i1 j1 0) [p .I + 1, p .J] - F.Expr.ref (F.face2d0 f0 i0 j0 i1 j1 0) [p .I, p .J]) / F.Expr.const (dx 0) + (F.Expr.ref (F.face2d1 f1 i0 j0 i1 j1 0) [p .J + 1, p .I] - F.Expr.ref (F.face2d1 f1 i0 j0 i1 j1 0) [p .J, p .I]) / F.Expr.const (dx 1)) - F.Expr.const alpha * F.Expr.ref (F.cell2d a i0 j0 i1 j1 agcw) [p .I, p .J] * F.Expr.ref (F.cell2d u i0 j0 i1 j1 ugcw) [p .I, p .J])]) := by part_tac
  obtain ⟨m2, g1, -, g3, g4⟩ := P0.run (c := F.nest (fun p => F.assign (F.cell2d res i0 j0 i1 j1 rgcw) [p .I, p .J] (.ref (F.cell2d f i0 j0 i1 j1 fgcw) [p .I, p .J] + .const beta * ((.ref (F.face2d0 f0 i0 j0 i1 j1 0) [p .I + 1, p .J] - .ref (F.face2d0 f0 i0 j0 i1 j1 0) [p .I, p .J]) / .const (dx 0) + (.ref (F.face2d1 f1 i0 j0 i1 j1 0) [p .J + 1, p .I] - .ref (F.face2d1 f1 i0 j0 i1 j1 0) [p .J, p .I]) / .const (dx 1)) - .const alpha * .ref (F.cell2d a i0 j0 i1 j1 agcw) [p .I, p .J] * .ref (F.cell2d u i0 j0 i1 j1 ugcw) [p .I, p .J])) [(.J, j0, j1), (.I, i0, i1)] fun _ => 0) (by rw [← F.nest_seqn1]) h
  obtain rfl : m' = m2 := Except.ok.inj (f'.symm.trans g1)
  refine ⟨m', ?_, g3, fun i j h0 h1 h2 h3 => g4 _ (F.mem_nestL (p := (pt2 i j)) (by nodups) (by in_nest) (by pt_else) List.mem_cons_self)⟩
  unfold Cuda.diffusionV1Res2d
  exact bind_step mkI <| bind_step mkJ <| bind_step spa <| bind_step spu <| bind_step spf <| bind_step spres <| bind_step plI <| bind_step plJ <| bind_step c rfl

theorem cres_v2_2 {i0 i1 j0 j1 ugcw fgcw rgcw : Int} {alpha beta : B64} {dx : Nat → B64} {u f f0 f1 res : Ptr} {β : Nat → Backend} {m : Mem B64}
    (hβ : ∀ n, ValidBackend (β n)) (hi : i0 ≤ i1) (hj : j0 ≤ j1) (hugcw : 0 ≤ ugcw) (hfgcw : 0 ≤ fgcw) (hrgcw : 0 ≤ rgcw)
    (h : F.Args m [F.cell2d u i0 j0 i1 j1 ugcw, F.cell2d f i0 j0 i1 j1 fgcw, F.face2d0 f0 i0 j0 i1 j1 0, F.face2d1 f1 i0 j0 i1 j1 0]
      [F.cell2d res i0 j0 i1 j1 rgcw]) :
    ∃ m', Cuda.diffusionV2Res2d i0 i1 j0 j1 alpha beta dx ugcw u fgcw f f0 f1 rgcw res β m = .ok m' ∧ F.Kept [F.cell2d res i0 j0 i1 j1 rgcw] m m' ∧
      (∀ i j, i0 ≤ i → i ≤ i1 → j0 ≤ j → j ≤ j1 → F.El m' (F.cell2d res i0 j0 i1 j1 rgcw) [i, j] (F.rd m (F.cell2d f i0 j0 i1 j1 fgcw) [i, j] + beta * ((F.rd m (F.face2d0 f0 i0 j0 i1 j1 0) [i + 1, j] - F.rd m (F.face2d0 f0 i0 j0 i1 j1 0) [i, j]) / dx 0 + (F.rd m (F.face2d1 f1 i0 j0 i1 j1 0) [j + 1, i] - F.rd m (F.face2d1 f1 i0 j0 i1 j1 0) [j, i]) / dx 1) - alpha * F.rd m (F.cell2d u i0 j0 i1 j1 ugcw) [i, j])) := by
  have hu := h.ok (F.cell2d u i0 j0 i1 j1 ugcw) (by simp)
  have hf := h.ok (F.cell2d f i0 j0 i1 j1 fgcw) (by simp)
  have hres := h.ok (F.cell2d res i0 j0 i1 j1 rgcw) (by simp)
  have hf0 := h.ok (F.face2d0 f0 i0 j0 i1 j1 0) (by simp)
  have hf1 := h.ok (F.face2d1 f1 i0 j0 i1 j1 0) (by simp)
  have Iu := hu.int
  have If := hf.int
  have Ires := hres.int
  have If0 := hf0.int
  have If1 := hf1.int
  simp only [F.cell2d, F.face2d0, F.face2d1, List.mem_cons, List.not_mem_nil, or_false, forall_eq_or_imp, forall_eq, InInt] at Iu If Ires If0 If1
  have mkI := mkB_ok (d := .I) (lo := i0) (hi := i1) (by list_omega)
  have plI := plus_ok (d := .I) (b := ⟨i0, i1 + 1, 1⟩) (x := 1) (by omega) (by list_omega)
  have mkJ := mkB_ok (d := .J) (lo := j0) (hi := j1) (by list_omega)
  have plJ := plus_ok (d := .J) (b := ⟨j0, j1 + 1, 1⟩) (x := 1) (by omega) (by list_omega)
  have spu : makeSpanOffset u ugcw [(.J, ⟨j0, j1 + 1, 1⟩), (.I, ⟨i0, i1 + 1, 1⟩)] = .ok (sCell2 u i0 j0 i1 j1 ugcw) := makeSpanOffset_ok (by simp) (by list_omega)
  have spf : makeSpanOffset f fgcw [(.J, ⟨j0, j1 + 1, 1⟩), (.I, ⟨i0, i1 + 1, 1⟩)] = .ok (sCell2 f i0 j0 i1 j1 fgcw) := makeSpanOffset_ok (by simp) (by list_omega)
  have spres : makeSpanOffset res rgcw [(.J, ⟨j0, j1 + 1, 1⟩), (.I, ⟨i0, i1 + 1, 1⟩)] = .ok (sCell2 res i0 j0 i1 j1 rgcw) := makeSpanOffset_ok (by simp) (by list_omega)
  have Au : ArrOK m (sCell2 u i0 j0 i1 j1 ugcw) := by arr_ok hu
  have Af : ArrOK m (sCell2 f i0 j0 i1 j1 fgcw) := by arr_ok hf
  have Ares : ArrOK m (sCell2 res i0 j0 i1 j1 rgcw) := by arr_ok hres
  have Af0 : ArrOK m (sFace20 f0 i0 j0 i1 j1) := by arr_ok hf0
  have Af1 : ArrOK m (sFace21 f1 i0 j0 i1 j1) := by arr_ok hf1
  have Pu : Apart (sCell2 res i0 j0 i1 j1 rgcw) (sCell2 u i0 j0 i1 j1 ugcw) := by apart_ok (h.apart _ (by simp) _ (by simp))
  have Pf : Apart (sCell2 res i0 j0 i1 j1 rgcw) (sCell2 f i0 j0 i1 j1 fgcw) := by apart_ok (h.apart _ (by simp) _ (by simp))
  have Pf0 : Apart (sCell2 res i0 j0 i1 j1 rgcw) (sFace20 f0 i0 j0 i1 j1) := by apart_ok (h.apart _ (by simp) _ (by simp))
  have Pf1 : Apart (sCell2 res i0 j0 i1 j1 rgcw) (sFace21 f1 i0 j0 i1 j1) := by apart_ok (h.apart _ (by simp) _ (by simp))
  obtain ⟨m', c, f', x⟩ := stmt_nest (lhs := sCell2 res i0 j0 i1 j1 rgcw) (e := (sCell2 f i0 j0 i1 j1 fgcw).e B64 + beta * ((sFace20 f0 i0 j0 i1 j1).grad .I (dx 0) + (sFace21 f1 i0 j0 i1 j1).grad .J (dx 1)) - alpha * (sCell2 u i0 j0 i1 j1 ugcw).e B64)
    (D := [(.J, ⟨j0, j1 + 1, 1⟩), (.I, ⟨i0, i1 + 1, 1⟩)]) (r := [(.J, j0, j1), (.I, i0, i1)]) (p0 := fun _ => 0)
    (stmt := fun p => F.assign (F.cell2d res i0 j0 i1 j1 rgcw) [p .I, p .J] (.ref (F.cell2d f i0 j0 i1 j1 fgcw) [p .I, p .J] + .const beta * ((.ref (F.face2d0 f0 i0 j0 i1 j1 0) [p .I + 1, p .J] - .ref (F.face2d0 f0 i0 j0 i1 j1 0) [p .I, p .J]) / .const (dx 0) + (.ref (F.face2d1 f1 i0 j0 i1 j1 0) [p .J + 1, p .I] - .ref (F.face2d1 f1 i0 j0 i1 j1 0) [p .J, p .I]) / .const (dx 1)) - .const alpha * .ref (F.cell2d u i0 j0 i1 j1 ugcw) [p .I, p .J]))
    (hβ 0) (by unit_dom) Ares (by within) (by operands) (by fits) (by typed) (by dims) (by same_dims) (by intro p; list_omega) (by body_ops trivial)
  have P0 : F.Part (T := B64) [F.cell2d u i0 j0 i1 j1 ugcw, F.cell2d f i0 j0 i1 j1 fgcw, F.face2d0 f0 i0 j0 i1 j1 0, F.face2d1 f1 i0 j0 i1 j1 0] [F.cell2d res i0 j0 i1 j1 rgcw] (F.nestL [(.J, j0, j1), (.I, i0, i1)] (fun _ => 0) fun p => [((F.cell2d res i0 j0 i1 j1 rgcw), [p .I, p .J], F.Expr.ref (F.cell2d f i0 j0 i1 j1 fgcw) [p .I, p .J] + F.Expr.const beta * ((F.Expr.ref (F.face2d0 f0 i0 j0 i1 j1 0) [p .I + 1, p .J] - F.Expr.ref (F.face2d0 f0 i0 j0 i1 j1 0) [p .I, p .J]) / F.Expr.const (dx 0) + (F.Expr.ref (F.face2d1 f1 i0 j0 i1 j1 0) [p .J + 1, p .I] - F.Expr.ref (F.face2d1 f1 i0 j0 i1 j1 0) [p .J, p .I]) / F.Expr.const (dx 1)) - F.Expr.const alpha * F.Expr.ref (F.cell2d u i0 j0 i1 j1 ugcw) [p .I, p .J])]) := by part_tac
  obtain ⟨m2, g1, -, g3, g4⟩ := P0.run (c := F.nest (fun p => F.assign (F.cell2d res i0 j0 i1 j1 rgcw) [p .I, p .J] (.ref (F.cell2d f i0 j0 i1 j1 fgcw) [p .I, p .J] + .const beta * ((.ref (F.face2d0 f0 i0 j0 i1 j1 0) [p .I + 1, p .J] - .ref (F.face2d0 f0 i0 j0 i1 j1 0) [p .I, p .J]) / .const (dx 0) + (.ref (F.face2d1 f1 i0 j0 i1 j1 0) [p .J + 1, p .I] - .ref (F.face2d1 f1 i0 j0 i1 j1 0) [p .J, p .I]) / .const (dx 1)) - .const alpha * .ref (F.cell2d u i0 j0 i1 j1 ugcw) [p .I, p .J])) [(.J, j0, j1), (.I, i0, i1)] fun _ => 0) (by rw [← F.nest_seqn1]) h
  obtain rfl : m' = m2 := Except.ok.inj (f'.symm.trans g1)
  refine ⟨m', ?_, g3, fun i j h0 h1 h2 h3 => g4 _ (F.mem_nestL (p := (pt2 i j)) (by nodups) (by in_nest) (by pt_else) List.mem_cons_self)⟩
  unfold Cuda.diffusionV2Res2d
  exact bind_step mkI <| bind_step mkJ <| bind_step spu <| bind_step spf <| bind_step spres <| bind_step plI <| bind_step plJ <| bind_step c rfl

theorem cres_p_2 {i0 i1 j0 j1 fgcw rgcw : Int} {beta : B64} {dx : Nat → B64} {f f0 f1 res : Ptr} {β : Nat → Backend} {m : Mem B64}
    (hβ : ∀ n, ValidBackend (β n)) (hi : i0 ≤ i1) (hj : j0 ≤ j1) (hfgcw : 0 ≤ fgcw) (hrgcw : 0 ≤ rgcw)
    (h : F.Args m [F.cell2d f i0 j0 i1 j1 fgcw, F.face2d0 f0 i0 j0 i1 j1 0, F.face2d1 f1 i0 j0 i1 j1 0]
      [F.cell2d res i0 j0 i1 j1 rgcw]) :
    ∃ m', Cuda.poissonV1Res2d i0 i1 j0 j1 beta dx fgcw f f0 f1 rgcw res β m = .ok m' ∧ F.Kept [F.cell2d res i0 j0 i1 j1 rgcw] m m' ∧
      (∀ i j, i0 ≤ i → i ≤ i1 → j0 ≤ j → j ≤ j1 → F.El m' (F.cell2d res i0 j0 i1 j1 rgcw) [i, j] (F.rd m (F.cell2d f i0 j0 i1 j1 fgcw) [i, j] + beta * ((F.rd m (F.face2d0 f0 i0 j0 i1 j1 0) [i + 1, j] - F.rd m (F.face2d0 f0 i0 j0 i1 j1 0) [i, j]) / dx 0 + (F.rd m (F.face2d1 f1 i0 j0 i1 j1 0) [j + 1, i] - F.rd m (F.face2d1 f1 i0 j0 i1 j1 0) [j, i]) / dx 1))) := by
  have hf := h.ok (F.cell2d f i0 j0 i1 j1 fgcw) (by simp)
  have hres := h.ok (F.cell2d res i0 j0 i1 j1 rgcw) (by simp)
  have hf0 := h.ok (F.face2d0 f0 i0 j0 i1 j1 0) (by simp)
  have hf1 := h.ok (F.face2d1 f1 i0 j0 i1 j1 0) (by simp)
  have If := hf.int
  have Ires := hres.int
  have If0 := hf0.int
  have If1 := hf1.int
  simp only [F.cell2d, F.face2d0, F.face2d1, List.mem_cons, List.not_mem_nil, or_false, forall_eq_or_imp, forall_eq, InInt] at If Ires If0 If1
  have mkI := mkB_ok (d := .I) (lo := i0) (hi := i1) (by list_omega)
  have plI := plus_ok (d := .I) (b := ⟨i0, i1 + 1, 1⟩) (x := 1) (by omega) (by list_omega)
  have mkJ := mkB_ok (d := .J) (lo := j0) (hi := j1) (by list_omega)
  have plJ := plus_ok (d := .J) (b := ⟨j0, j1 + 1, 1⟩) (x := 1) (by omega) (by list_omega)
  have spf : makeSpanOffset f fgcw [(.J, ⟨j0, j1 + 1, 1⟩), (.I, ⟨i0, i1 + 1, 1⟩)] = .ok (sCell2 f i0 j0 i1 j1 fgcw) := makeSpanOffset_ok (by simp) (by list_omega)
  have spres : makeSpanOffset res rgcw [(.J, ⟨j0, j1 + 1, 1⟩), (.I, ⟨i0, i1 + 1, 1⟩)] = .ok (sCell2 res i0 j0 i1 j1 rgcw) := makeSpanOffset_ok (by simp) (by list_omega)
  have Af : ArrOK m (sCell2 f i0 j0 i1 j1 fgcw) := by arr_ok hf
  have Ares : ArrOK m (sCell2 res i0 j0 i1 j1 rgcw) := by arr_ok hres
  have Af0 : ArrOK m (sFace20 f0 i0 j0 i1 j1) := by arr_ok hf0
  have Af1 : ArrOK m (sFace21 f1 i0 j0 i1 j1) := by arr_ok hf1
  have Pf : Apart (sCell2 res i0 j0 i1 j1 rgcw) (sCell2 f i0 j0 i1 j1 fgcw) := by apart_ok (h.apart _ (by simp) _ (by simp))
  have Pf0 : Apart (sCell2 res i0 j0 i1 j1 rgcw) (sFace20 f0 i0 j0 i1 j1) := by apart_ok (h.apart _ (by simp) _ (by simp))
  have Pf1 : Apart (sCell2 res i0 j0 i1 j1 rgcw) (sFace21 f1 i0 j0 i1 j1) := by apart_ok (h.apart _ (by simp) _ (by simp))
  obtain ⟨m', c, f', x⟩ := stmt_nest (lhs := sCell2 res i0 j0 i1 j1 rgcw) (e := (sCell2 f i0 j0 i1 j1 fgcw).e B64 + beta * ((sFace20 f0 i0 j0 i1 j1).grad .I (dx 0) + (sFace21 f1 i0 j0 i1 j1).grad .J (dx 1)))
    (D := [(.J, ⟨j0, j1 + 1, 1⟩), (.I, ⟨i0, i1 + 1, 1⟩)]) (r := [(.J, j0, j1), (.I, i0, i1)]) (p0 := fun _ => 0)
    (stmt := fun p => F.assign (F.cell2d res i0 j0 i1 j1 rgcw) [p .I, p .J] (.ref (F.cell2d f i0 j0 i1 j1 fgcw) [p .I, p .J] + .const beta * ((.ref (F.face2d0 f0 i0 j0 i1 j1 0) [p .I + 1, p .J] - .ref (F.face2d0 f0 i0 j0 i1 j1 0) [p .I, p .J]) / .const (dx 0) + (.ref (F.face2d1 f1 i0 j0 i1 j1 0) [p .J + 1, p .I] - .ref (F.face2d1 f1 i0 j0 i1 j1 0) [p .J, p .I]) / .const (dx 1))))
    (hβ 0) (by unit_dom) Ares (by within) (by operands) (by fits) (by typed) (by dims) (by same_dims) (by intro p; list_omega) (by body_ops trivial)
  have P0 : F.Part (T := B64) [F.cell2d f i0 j0 i1 j1 fgcw, F.face2d0 f0 i0 j0 i1 j1 0, F.face2d1 f1 i0 j0 i1 j1 0] [F.cell2d res i0 j0 i1 j1 rgcw] (F.nestL [(.J, j0, j1), (.I, i0, i1)] (fun _ => 0) fun p => [((F.cell2d res i0 j0 i1 j1 rgcw), [p .I, p .J], F.Expr.ref (F.cell2d f i0 j0 i1 j1 fgcw) [p .I, p .J] + F.Expr.const beta * ((F.Expr.ref (F.face2d0 f0 i0 j0 i1 j1 0) [p .I + 1, p .J] - F.Expr.ref (F.face2d0 f0 i0 j0 i1 j1 0) [p .I, p .J]) / F.Expr.const (dx 0) + (F.Expr.ref (F.face2d1 f1 i0 j0 i1 j1 0) [p .J + 1, p .I] - F.Expr.ref (F.face2d1 f1 i0 j0 i1 j1 0) [p .J, p .I]) / F.Expr.const (dx 1)))]) := by part_tac
  obtain ⟨m2, g1, -, g3, g4⟩ := P0.run (c := F.nest (fun p => F.assign (F.cell2d res i0 j0 i1 j1 rgcw) [p .I, p .J] (.ref (F.cell2d f i0 j0 i1 j1 fgcw) [p .I, p .J] + .const beta * ((.ref (F.face2d0 f0 i0 j0 i1 j1 0) [p .I + 1, p .J] - .ref (F.face2d0 f0 i0 j0 i1 j1 0) [p .I, p .J]) / .const (dx 0) + (.ref (F.face2d1 f1 i0 j0 i1 j1 0) [p .J + 1, p .I] - .ref (F.face2d1 f1 i0 j0 i1 j1 0) [p .J, p .I]) / .const (dx 1)))) [(.J, j0, j1), (.I, i0, i1)] fun _ => 0) (by rw [← F.nest_seqn1]) h
  obtain rfl : m' = m2 := Except.ok.inj (f'.symm.trans g1)
  refine ⟨m', ?_, g3, fun i j h0 h1 h2 h3 => g4 _ (F.mem_nestL (p := (pt2 i j)) (by nodups) (by in_nest) (by pt_else) List.mem_cons_self)⟩
  unfold Cuda.poissonV1Res2d
  exact bind_step mkI <| bind_step mkJ <| bind_step spf <| bind_step spres <| bind_step plI <| bind_step plJ <| bind_step c rfl

theorem rres_v1_2 {i0 j0 i1 j1 agcw gcw fgcw rgcw : Int} {alpha beta : B64} {dx : Nat → B64} {a u b0 b1 f f0 f1 res : Ptr} {β1 β2 : Nat → Backend} {m : Mem B64}
    (hβ1 : ∀ n, ValidBackend (β1 n)) (hβ2 : ∀ n, ValidBackend (β2 n)) (hi : i0 ≤ i1) (hj : j0 ≤ j1) (hg : 1 ≤ gcw) (hagcw : 0 ≤ agcw) (hfgcw : 0 ≤ fgcw) (hrgcw : 0 ≤ rgcw)
    (h : F.Args m [(F.cell2d a i0 j0 i1 j1 agcw), (F.cell2d u i0 j0 i1 j1 gcw), (F.cell2d f i0 j0 i1 j1 fgcw), (F.face2d0 b0 i0 j0 i1 j1 0), (F.face2d1 b1 i0 j0 i1 j1 0)] [(F.face2d0 f0 i0 j0 i1 j1 0), (F.face2d1 f1 i0 j0 i1 j1 0), (F.cell2d res i0 j0 i1 j1 rgcw)])
    (hp : F.Apart (F.face2d0 f0 i0 j0 i1 j1 0) (F.face2d1 f1 i0 j0 i1 j1 0))
    (hr : F.Apart (F.cell2d res i0 j0 i1 j1 rgcw) (F.face2d0 f0 i0 j0 i1 j1 0) ∧ F.Apart (F.cell2d res i0 j0 i1 j1 rgcw) (F.face2d1 f1 i0 j0 i1 j1 0)) :
    ∃ m1 m2, Cuda.flux2d i0 j0 i1 j1 dx b0 b1 gcw u f0 f1 β1 m = .ok m1 ∧ Cuda.diffusionV1Res2d i0 i1 j0 j1 alpha beta dx agcw a gcw u fgcw f f0 f1 rgcw res β2 m1 = .ok m2 ∧ F.Kept [(F.face2d0 f0 i0 j0 i1 j1 0), (F.face2d1 f1 i0 j0 i1 j1 0)] m m1 ∧ F.Kept [(F.cell2d res i0 j0 i1 j1 rgcw)] m1 m2 ∧
      (∀ i j, i0 ≤ i → i ≤ i1 + 1 → j0 ≤ j → j ≤ j1 → F.El m1 (F.face2d0 f0 i0 j0 i1 j1 0) [i, j] (F.rd m (F.face2d0 b0 i0 j0 i1 j1 0) [i, j] * ((F.rd m (F.cell2d u i0 j0 i1 j1 gcw) [i, j] - F.rd m (F.cell2d u i0 j0 i1 j1 gcw) [i - 1, j]) / dx 0))) ∧
      (∀ i j, i0 ≤ i → i ≤ i1 → j0 ≤ j → j ≤ j1 + 1 → F.El m1 (F.face2d1 f1 i0 j0 i1 j1 0) [j, i] (F.rd m (F.face2d1 b1 i0 j0 i1 j1 0) [j, i] * ((F.rd m (F.cell2d u i0 j0 i1 j1 gcw) [i, j] - F.rd m (F.cell2d u i0 j0 i1 j1 gcw) [i, j - 1]) / dx 1))) ∧
      (∀ i j, i0 ≤ i → i ≤ i1 → j0 ≤ j → j ≤ j1 → F.El m2 (F.cell2d res i0 j0 i1 j1 rgcw) [i, j] (F.rd m (F.cell2d f i0 j0 i1 j1 fgcw) [i, j] + beta * ((F.rd m (F.face2d0 b0 i0 j0 i1 j1 0) [i + 1, j] * ((F.rd m (F.cell2d u i0 j0 i1 j1 gcw) [i + 1, j] - F.rd m (F.cell2d u i0 j0 i1 j1 gcw) [i, j]) / dx 0) - F.rd m (F.face2d0 b0 i0 j0 i1 j1 0) [i, j] * ((F.rd m (F.cell2d u i0 j0 i1 j1 gcw) [i, j] - F.rd m (F.cell2d u i0 j0 i1 j1 gcw) [i - 1, j]) / dx 0)) / dx 0 + (F.rd m (F.face2d1 b1 i0 j0 i1 j1 0) [j + 1, i] * ((F.rd m (F.cell2d u i0 j0 i1 j1 gcw) [i, j + 1] - F.rd m (F.cell2d u i0 j0 i1 j1 gcw) [i, j]) / dx 1) - F.rd m (F.face2d1 b1 i0 j0 i1 j1 0) [j, i] * ((F.rd m (F.cell2d u i0 j0 i1 j1 gcw) [i, j] - F.rd m (F.cell2d u i0 j0 i1 j1 gcw) [i, j - 1]) / dx 1)) / dx 1) - alpha * F.rd m (F.cell2d a i0 j0 i1 j1 agcw) [i, j] * F.rd m (F.cell2d u i0 j0 i1 j1 gcw) [i, j])) := by
  have h1 : F.Args m [(F.cell2d u i0 j0 i1 j1 gcw), (F.face2d0 b0 i0 j0 i1 j1 0), (F.face2d1 b1 i0 j0 i1 j1 0)] [(F.face2d0 f0 i0 j0 i1 j1 0), (F.face2d1 f1 i0 j0 i1 j1 0)] := h.sub (by intro x hx; simp only [List.mem_cons, List.not_mem_nil, or_false] at hx ⊢; tauto) (by intro x hx; simp only [List.mem_cons, List.not_mem_nil, or_false] at hx ⊢; tauto)
  obtain ⟨m1, c1, K1, V0, V1⟩ := cflux2_run (dx := dx) hβ1 hi hj hg h1 hp
  have h2 : F.Args m1 [(F.cell2d a i0 j0 i1 j1 agcw), (F.cell2d u i0 j0 i1 j1 gcw), (F.cell2d f i0 j0 i1 j1 fgcw), (F.face2d0 f0 i0 j0 i1 j1 0), (F.face2d1 f1 i0 j0 i1 j1 0)] [(F.cell2d res i0 j0 i1 j1 rgcw)] := by
    refine ⟨fun a ha => K1.ok (h.ok a ?_), ?_⟩
    · simp only [List.mem_cons, List.mem_append, List.not_mem_nil, or_false] at ha ⊢; tauto
    · simp only [List.mem_cons, List.not_mem_nil, or_false, forall_eq_or_imp, forall_eq]
      exact ⟨h.apart _ (by simp) _ (by simp), h.apart _ (by simp) _ (by simp), h.apart _ (by simp) _ (by simp), hr.1, hr.2⟩
  obtain ⟨m2, c2, K2, W⟩ := cres_v1_2 (alpha := alpha) (beta := beta) (dx := dx) (β := β2) hβ2 hi hj hagcw (by omega) hfgcw hrgcw h2
  refine ⟨m1, m2, c1, c2, K1, K2, V0, V1, fun i j h0 h1 h2 h3 => ?_⟩
  have w := W i j h0 h1 h2 h3
  have e0a := (V0 (i + 1) j (by omega) (by omega) (by omega) (by omega)).rd
  rw [add_sub_cancel_right] at e0a
  have e0b := (V0 i j (by omega) (by omega) (by omega) (by omega)).rd
  have e1a := (V1 i (j + 1) (by omega) (by omega) (by omega) (by omega)).rd
  rw [add_sub_cancel_right] at e1a
  have e1b := (V1 i j (by omega) (by omega) (by omega) (by omega)).rd
  have ea : F.rd m1 (F.cell2d a i0 j0 i1 j1 agcw) [i, j] = F.rd m (F.cell2d a i0 j0 i1 j1 agcw) [i, j] := K1.rd (by intro o ho; refine h.apart o ?_ _ (by simp); simp only [List.mem_cons, List.not_mem_nil, or_false] at ho ⊢; tauto) (by in_bounds)
  have eu : F.rd m1 (F.cell2d u i0 j0 i1 j1 gcw) [i, j] = F.rd m (F.cell2d u i0 j0 i1 j1 gcw) [i, j] := K1.rd (by intro o ho; refine h.apart o ?_ _ (by simp); simp only [List.mem_cons, List.not_mem_nil, or_false] at ho ⊢; tauto) (by in_bounds)
  have ef : F.rd m1 (F.cell2d f i0 j0 i1 j1 fgcw) [i, j] = F.rd m (F.cell2d f i0 j0 i1 j1 fgcw) [i, j] := K1.rd (by intro o ho; refine h.apart o ?_ _ (by simp); simp only [List.mem_cons, List.not_mem_nil, or_false] at ho ⊢; tauto) (by in_bounds)
  rw [e0a, e0b, e1a, e1b, ea, eu, ef] at w
  exact w

theorem rres_v2_2 {i0 j0 i1 j1 gcw fgcw rgcw : Int} {alpha beta : B64} {dx : Nat → B64} {u b0 b1 f f0 f1 res : Ptr} {β1 β2 : Nat → Backend} {m : Mem B64}
    (hβ1 : ∀ n, ValidBackend (β1 n)) (hβ2 : ∀ n, ValidBackend (β2 n)) (hi : i0 ≤ i1) (hj : j0 ≤ j1) (hg : 1 ≤ gcw) (hfgcw : 0 ≤ fgcw) (hrgcw : 0 ≤ rgcw)
    (h : F.Args m [(F.cell2d u i0 j0 i1 j1 gcw), (F.cell2d f i0 j0 i1 j1 fgcw), (F.face2d0 b0 i0 j0 i1 j1 0), (F.face2d1 b1 i0 j0 i1 j1 0)] [(F.face2d0 f0 i0 j0 i1 j1 0), (F.face2d1 f1 i0 j0 i1 j1 0), (F.cell2d res i0 j0 i1 j1 rgcw)])
    (hp : F.Apart (F.face2d0 f0 i0 j0 i1 j1 0) (F.face2d1 f1 i0 j0 i1 j1 0))
    (hr : F.Apart (F.cell2d res i0 j0 i1 j1 rgcw) (F.face2d0 f0 i0 j0 i1 j1 0) ∧ F.Apart (F.cell2d res i0 j0 i1 j1 rgcw) (F.face2d1 f1 i0 j0 i1 j1 0)) :
    ∃ m1 m2, Cuda.flux2d i0 j0 i1 j1 dx b0 b1 gcw u f0 f1 β1 m = .ok m1 ∧ Cuda.diffusionV2Res2d i0 i1 j0 j1 alpha beta dx gcw u fgcw f f0 f1 rgcw res β2 m1 = .ok m2 ∧ F.Kept [(F.face2d0 f0 i0 j0 i1 j1 0), (F.face2d1 f1 i0 j0 i1 j1 0)] m m1 ∧ F.Kept [(F.cell2d res i0 j0 i1 j1 rgcw)] m1 m2 ∧
      (∀ i j, i0 ≤ i → i ≤ i1 + 1 → j0 ≤ j → j ≤ j1 → F.El m1 (F.face2d0 f0 i0 j0 i1 j1 0) [i, j] (F.rd m (F.face2d0 b0 i0 j0 i1 j1 0) [i, j] * ((F.rd m (F.cell2d u i0 j0 i1 j1 gcw) [i, j] - F.rd m (F.cell2d u i0 j0 i1 j1 gcw) [i - 1, j]) / dx 0))) ∧
      (∀ i j, i0 ≤ i → i ≤ i1 → j0 ≤ j → j ≤ j1 + 1 → F.El m1 (F.face2d1 f1 i0 j0 i1 j1 0) [j, i] (F.rd m (F.face2d1 b1 i0 j0 i1 j1 0) [j, i] * ((F.rd m (F.cell2d u i0 j0 i1 j1 gcw) [i, j] - F.rd m (F.cell2d u i0 j0 i1 j1 gcw) [i, j - 1]) / dx 1))) ∧
      (∀ i j, i0 ≤ i → i ≤ i1 → j0 ≤ j → j ≤ j1 → F.El m2 (F.cell2d res i0 j0 i1 j1 rgcw) [i, j] (F.rd m (F.cell2d f i0 j0 i1 j1 fgcw) [i, j] + beta * ((F.rd m (F.face2d0 b0 i0 j0 i1 j1 0) [i + 1, j] * ((F.rd m (F.cell2d u i0 j0 i1 j1 gcw) [i + 1, j] - F.rd m (F.cell2d u i0 j0 i1 j1 gcw) [i, j]) / dx 0) - F.rd m (F.face2d0 b0 i0 j0 i1 j1 0) [i, j] * ((F.rd m (F.cell2d u i0 j0 i1 j1 gcw) [i, j] - F.rd m (F.cell2d u i0 j0 i1 j1 gcw) [i - 1, j]) / dx 0)) / dx 0 + (F.rd m (F.face2d1 b1 i0 j0 i1 j1 0) [j + 1, i] * ((F.rd m (F.cell2d u i0 j0 i1 j1 gcw) [i, j + 1] - F.rd m (F.cell2d u i0 j0 i1 j1 gcw) [i, j]) / dx 1) - F.rd m (F.face2d1 b1 i0 j0 i1 j1 0) [j, i] * ((F.rd m (F.cell2d u i0 j0 i1 j1 gcw) [i, j] - F.rd m (F.cell2d u i0 j0 i1 j1 gcw) [i, j - 1]) / dx 1)) / dx 1) - alpha * F.rd m (F.cell2d u i0 j0 i1 j1 gcw) [i, j])) := by
  have h1 : F.Args m [(F.cell2d u i0 j0 i1 j1 gcw), (F.face2d0 b0 i0 j0 i1 j1 0), (F.face2d1 b1 i0 j0 i1 j1 0)] [(F.face2d0 f0 i0 j0 i1 j1 0), (F.face2d1 f1 i0 j0 i1 j1 0)] := h.sub (by intro x hx; simp only [List.mem_cons, List.not_mem_nil, or_false] at hx ⊢; tauto) (by intro x hx; simp only [List.mem_cons, List.not_mem_nil, or_false] at hx ⊢; tauto)
  obtain ⟨m1, c1, K1, V0, V1⟩ := cflux2_run (dx := dx) hβ1 hi hj hg h1 hp
  have h2 : F.Args m1 [(F.cell2d u i0 j0 i1 j1 gcw), (F.cell2d f i0 j0 i1 j1 fgcw), (F.face2d0 f0 i0 j0 i1 j1 0), (F.face2d1 f1 i0 j0 i1 j1 0)] [(F.cell2d res i0 j0 i1 j1 rgcw)] := by
    refine ⟨fun a ha => K1.ok (h.ok a ?_), ?_⟩
    · simp only [List.mem_cons, List.mem_append, List.not_mem_nil, or_false] at ha ⊢; tauto
    · simp only [List.mem_cons, List.not_mem_nil, or_false, forall_eq_or_imp, forall_eq]
      exact ⟨h.apart _ (by simp) _ (by simp), h.apart _ (by simp) _ (by simp), hr.1, hr.2⟩
  obtain ⟨m2, c2, K2, W⟩ := cres_v2_2 (alpha := alpha) (beta := beta) (dx := dx) (β := β2) hβ2 hi hj (by omega) hfgcw hrgcw h2
  refine ⟨m1, m2, c1, c2, K1, K2, V0, V1, fun i j h0 h1 h2 h3 => ?_⟩
  have w := W i j h0 h1 h2 h3
  have e0a := (V0 (i + 1) j (by omega) (by omega) (by omega) (by omega)).rd
  rw [add_sub_cancel_right] at e0a
  have e0b := (V0 i j (by omega) (by omega) (by omega) (by omega)).rd
  have e1a := (V1 i (j + 1) (by omega) (by omega) (by omega) (by omega)).rd
  rw [add_sub_cancel_right] at e1a
  have e1b := (V1 i j (by omega) (by omega) (by omega) (by omega)).rd
  have eu : F.rd m1 (F.cell2d u i0 j0 i1 j1 gcw) [i, j] = F.rd m (F.cell2d u i0 j0 i1 j1 gcw) [i, j] := K1.rd (by intro o ho; refine h.apart o ?_ _ (by simp); simp only [List.mem_cons, List.not_mem_nil, or_false] at ho ⊢; tauto) (by in_bounds)
  have ef : F.rd m1 (F.cell2d f i0 j0 i1 j1 fgcw) [i, j] = F.rd m (F.cell2d f i0 j0 i1 j1 fgcw) [i, j] := K1.rd (by intro o ho; refine h.apart o ?_ _ (by simp); simp only [List.mem_cons, List.not_mem_nil, or_false] at ho ⊢; tauto) (by in_bounds)
  rw [e0a, e0b, e1a, e1b, eu, ef] at w
  exact w

theorem rres_p_2 {i0 j0 i1 j1 gcw fgcw rgcw : Int} {beta : B64} {dx : Nat → B64} {u f f0 f1 res : Ptr} {β1 β2 : Nat → Backend} {m : Mem B64}
    (hβ1 : ∀ n, ValidBackend (β1 n)) (hβ2 : ∀ n, ValidBackend (β2 n)) (hi : i0 ≤ i1) (hj : j0 ≤ j1) (hg : 1 ≤ gcw) (hfgcw : 0 ≤ fgcw) (hrgcw : 0 ≤ rgcw)
    (h : F.Args m [(F.cell2d u i0 j0 i1 j1 gcw), (F.cell2d f i0 j0 i1 j1 fgcw)] [(F.face2d0 f0 i0 j0 i1 j1 0), (F.face2d1 f1 i0 j0 i1 j1 0), (F.cell2d res i0 j0 i1 j1 rgcw)])
    (hp : F.Apart (F.face2d0 f0 i0 j0 i1 j1 0) (F.face2d1 f1 i0 j0 i1 j1 0))
    (hr : F.Apart (F.cell2d res i0 j0 i1 j1 rgcw) (F.face2d0 f0 i0 j0 i1 j1 0) ∧ F.Apart (F.cell2d res i0 j0 i1 j1 rgcw) (F.face2d1 f1 i0 j0 i1 j1 0)) :
    ∃ m1 m2, Cuda.poissonFlux2d i0 j0 i1 j1 dx gcw u f0 f1 β1 m = .ok m1 ∧ Cuda.poissonV1Res2d i0 i1 j0 j1 beta dx fgcw f f0 f1 rgcw res β2 m1 = .ok m2 ∧ F.Kept [(F.face2d0 f0 i0 j0 i1 j1 0), (F.face2d1 f1 i0 j0 i1 j1 0)] m m1 ∧ F.Kept [(F.cell2d res i0 j0 i1 j1 rgcw)] m1 m2 ∧
      (∀ i j, i0 ≤ i → i ≤ i1 + 1 → j0 ≤ j → j ≤ j1 → F.El m1 (F.face2d0 f0 i0 j0 i1 j1 0) [i, j] ((F.rd m (F.cell2d u i0 j0 i1 j1 gcw) [i, j] - F.rd m (F.cell2d u i0 j0 i1 j1 gcw) [i - 1, j]) / dx 0)) ∧
      (∀ i j, i0 ≤ i → i ≤ i1 → j0 ≤ j → j ≤ j1 + 1 → F.El m1 (F.face2d1 f1 i0 j0 i1 j1 0) [j, i] ((F.rd m (F.cell2d u i0 j0 i1 j1 gcw) [i, j] - F.rd m (F.cell2d u i0 j0 i1 j1 gcw) [i, j - 1]) / dx 1)) ∧
      (∀ i j, i0 ≤ i → i ≤ i1 → j0 ≤ j → j ≤ j1 → F.El m2 (F.cell2d res i0 j0 i1 j1 rgcw) [i, j] (F.rd m (F.cell2d f i0 j0 i1 j1 fgcw) [i, j] + beta * (((F.rd m (F.cell2d u i0 j0 i1 j1 gcw) [i + 1, j] - F.rd m (F.cell2d u i0 j0 i1 j1 gcw) [i, j]) / dx 0 - (F.rd m (F.cell2d u i0 j0 i1 j1 gcw) [i, j] - F.rd m (F.cell2d u i0 j0 i1 j1 gcw) [i - 1, j]) / dx 0) / dx 0 + ((F.rd m (F.cell2d u i0 j0 i1 j1 gcw) [i, j + 1] - F.rd m (F.cell2d u i0 j0 i1 j1 gcw) [i, j]) / dx 1 - (F.rd m (F.cell2d u i0 j0 i1 j1 gcw) [i, j] - F.rd m (F.cell2d u i0 j0 i1 j1 gcw) [i, j - 1]) / dx 1) / dx 1))) := by
  have h1 : F.Args m [(F.cell2d u i0 j0 i1 j1 gcw)] [(F.face2d0 f0 i0 j0 i1 j1 0), (F.face2d1 f1 i0 j0 i1 j1 0)] := h.sub (by intro x hx; simp only [List.mem_cons, List.not_mem_nil, or_false] at hx ⊢; tauto) (by intro x hx; simp only [List.mem_cons, List.not_mem_nil, or_false] at hx ⊢; tauto)
  obtain ⟨m1, q1, -, K1, V0, V1⟩ := pflux2_run (dx := dx) hi hj hg h1 hp
  obtain ⟨m1', c1, e1⟩ := C49_flux_poisson_2d (dx := dx) (β := β1) hβ1 hi hj hg h1
  obtain rfl : m1 = m1' := Except.ok.inj (q1.symm.trans e1)
  have h2 : F.Args m1 [(F.cell2d f i0 j0 i1 j1 fgcw), (F.face2d0 f0 i0 j0 i1 j1 0), (F.face2d1 f1 i0 j0 i1 j1 0)] [(F.cell2d res i0 j0 i1 j1 rgcw)] := by
    refine ⟨fun a ha => K1.ok (h.ok a ?_), ?_⟩
    · simp only [List.mem_cons, List.mem_append, List.not_mem_nil, or_false] at ha ⊢; tauto
    · simp only [List.mem_cons, List.not_mem_nil, or_false, forall_eq_or_imp, forall_eq]
      exact ⟨h.apart _ (by simp) _ (by simp), hr.1, hr.2⟩
  obtain ⟨m2, c2, K2, W⟩ := cres_p_2 (beta := beta) (dx := dx) (β := β2) hβ2 hi hj hfgcw hrgcw h2
  refine ⟨m1, m2, c1, c2, K1, K2, V0, V1, fun i j h0 h1 h2 h3 => ?_⟩
  have w := W i j h0 h1 h2 h3
  have e0a := (V0 (i + 1) j (by omega) (by omega) (by omega) (by omega)).rd
  rw [add_sub_cancel_right] at e0a
  have e0b := (V0 i j (by omega) (by omega) (by omega) (by omega)).rd
  have e1a := (V1 i (j + 1) (by omega) (by omega) (by omega) (by omega)).rd
  rw [add_sub_cancel_right] at e1a
  have e1b := (V1 i j (by omega) (by omega) (by omega) (by omega)).rd
  have ef : F.rd m1 (F.cell2d f i0 j0 i1 j1 fgcw) [i, j] = F.rd m (F.cell2d f i0 j0 i1 j1 fgcw) [i, j] := K1.rd (by intro o ho; refine h.apart o ?_ _ (by simp); simp only [List.mem_cons, List.not_mem_nil, or_false] at ho ⊢; tauto) (by in_bounds)
  rw [e0a, e0b, e1a, e1b, ef] at w
  exact w

theorem rres_d_2 {i0 j0 i1 j1 gcw fgcw rgcw : Int} {beta : B64} {dx : Nat → B64} {u b0 b1 f f0 f1 res : Ptr} {β1 β2 : Nat → Backend} {m : Mem B64}
    (hβ1 : ∀ n, ValidBackend (β1 n)) (hβ2 : ∀ n, ValidBackend (β2 n)) (hi : i0 ≤ i1) (hj : j0 ≤ j1) (hg : 1 ≤ gcw) (hfgcw : 0 ≤ fgcw) (hrgcw : 0 ≤ rgcw)
    (h : F.Args m [(F.cell2d u i0 j0 i1 j1 gcw), (F.cell2d f i0 j0 i1 j1 fgcw), (F.face2d0 b0 i0 j0 i1 j1 0), (F.face2d1 b1 i0 j0 i1 j1 0)] [(F.face2d0 f0 i0 j0 i1 j1 0), (F.face2d1 f1 i0 j0 i1 j1 0), (F.cell2d res i0 j0 i1 j1 rgcw)])
    (hp : F.Apart (F.face2d0 f0 i0 j0 i1 j1 0) (F.face2d1 f1 i0 j0 i1 j1 0))
    (hr : F.Apart (F.cell2d res i0 j0 i1 j1 rgcw) (F.face2d0 f0 i0 j0 i1 j1 0) ∧ F.Apart (F.cell2d res i0 j0 i1 j1 rgcw) (F.face2d1 f1 i0 j0 i1 j1 0)) :
    ∃ m1 m2, Cuda.flux2d i0 j0 i1 j1 dx b0 b1 gcw u f0 f1 β1 m = .ok m1 ∧ Cuda.poissonV1Res2d i0 i1 j0 j1 beta dx fgcw f f0 f1 rgcw res β2 m1 = .ok m2 ∧ F.Kept [(F.face2d0 f0 i0 j0 i1 j1 0), (F.face2d1 f1 i0 j0 i1 j1 0)] m m1 ∧ F.Kept [(F.cell2d res i0 j0 i1 j1 rgcw)] m1 m2 ∧
      (∀ i j, i0 ≤ i → i ≤ i1 + 1 → j0 ≤ j → j ≤ j1 → F.El m1 (F.face2d0 f0 i0 j0 i1 j1 0) [i, j] (F.rd m (F.face2d0 b0 i0 j0 i1 j1 0) [i, j] * ((F.rd m (F.cell2d u i0 j0 i1 j1 gcw) [i, j] - F.rd m (F.cell2d u i0 j0 i1 j1 gcw) [i - 1, j]) / dx 0))) ∧
      (∀ i j, i0 ≤ i → i ≤ i1 → j0 ≤ j → j ≤ j1 + 1 → F.El m1 (F.face2d1 f1 i0 j0 i1 j1 0) [j, i] (F.rd m (F.face2d1 b1 i0 j0 i1 j1 0) [j, i] * ((F.rd m (F.cell2d u i0 j0 i1 j1 gcw) [i, j] - F.rd m (F.cell2d u i0 j0 i1 j1 gcw) [i, j - 1]) / dx 1))) ∧
      (∀ i j, i0 ≤ i → i ≤ i1 → j0 ≤ j → j ≤ j1 → F.El m2 (F.cell2d res i0 j0 i1 j1 rgcw) [i, j] (F.rd m (F.cell2d f i0 j0 i1 j1 fgcw) [i, j] + beta * ((F.rd m (F.face2d0 b0 i0 j0 i1 j1 0) [i + 1, j] * ((F.rd m (F.cell2d u i0 j0 i1 j1 gcw) [i + 1, j] - F.rd m (F.cell2d u i0 j0 i1 j1 gcw) [i, j]) / dx 0) - F.rd m (F.face2d0 b0 i0 j0 i1 j1 0) [i, j] * ((F.rd m (F.cell2d u i0 j0 i1 j1 gcw) [i, j] - F.rd m (F.cell2d u i0 j0 i1 j1 gcw) [i - 1, j]) / dx 0)) / dx 0 + (F.rd m (F.face2d1 b1 i0 j0 i1 j1 0) [j + 1, i] * ((F.rd m (F.cell2d u i0 j0 i1 j1 gcw) [i, j + 1] - F.rd m (F.cell2d u i0 j0 i1 j1 gcw) [i, j]) / dx 1) - F.rd m (F.face2d1 b1 i0 j0 i1 j1 0) [j, i] * ((F.rd m (F.cell2d u i0 j0 i1 j1 gcw) [i, j] - F.rd m (F.cell2d u i0 j0 i1 j1 gcw) [i, j - 1]) / dx 1)) / dx 1))) := by
  have h1 : F.Args m [(F.cell2d u i0 j0 i1 j1 gcw), (F.face2d0 b0 i0 j0 i1 j1 0), (F.face2d1 b1 i0 j0 i1 j1 0)] [(F.face2d0 f0 i0 j0 i1 j1 0), (F.face2d1 f1 i0 j0 i1 j1 0)] := h.sub (by intro x hx; simp only [List.mem_cons, List.not_mem_nil, or_false] at hx ⊢; tauto) (by intro x hx; simp only [List.mem_cons, List.not_mem_nil, or_false] at hx ⊢; tauto)
  obtain ⟨m1, c1, K1, V0, V1⟩ := cflux2_run (dx := dx) hβ1 hi hj hg h1 hp
  have h2 : F.Args m1 [(F.cell2d f i0 j0 i1 j1 fgcw), (F.face2d0 f0 i0 j0 i1 j1 0), (F.face2d1 f1 i0 j0 i1 j1 0)] [(F.cell2d res i0 j0 i1 j1 rgcw)] := by
    refine ⟨fun a ha => K1.ok (h.ok a ?_), ?_⟩
    · simp only [List.mem_cons, List.mem_append, List.not_mem_nil, or_false] at ha ⊢; tauto
    · simp only [List.mem_cons, List.not_mem_nil, or_false, forall_eq_or_imp, forall_eq]
      exact ⟨h.apart _ (by simp) _ (by simp), hr.1, hr.2⟩
  obtain ⟨m2, c2, K2, W⟩ := cres_p_2 (beta := beta) (dx := dx) (β := β2) hβ2 hi hj hfgcw hrgcw h2
  refine ⟨m1, m2, c1, c2, K1, K2, V0, V1, fun i j h0 h1 h2 h3 => ?_⟩
  have w := W i j h0 h1 h2 h3
  have e0a := (V0 (i + 1) j (by omega) (by omega) (by omega) (by omega)).rd
  rw [add_sub_cancel_right] at e0a
  have e0b := (V0 i j (by omega) (by omega) (by omega) (by omega)).rd
  have e1a := (V1 i (j + 1) (by omega) (by omega) (by omega) (by omega)).rd
  rw [add_sub_cancel_right] at e1a
  have e1b := (V1 i j (by omega) (by omega) (by omega) (by omega)).rd
  have ef : F.rd m1 (F.cell2d f i0 j0 i1 j1 fgcw) [i, j] = F.rd m (F.cell2d f i0 j0 i1 j1 fgcw) [i, j] := K1.rd (by intro o ho; refine h.apart o ?_ _ (by simp); simp only [List.mem_cons, List.not_mem_nil, or_false] at ho ⊢; tauto) (by in_bounds)
  rw [e0a, e0b, e1a, e1b, ef] at w
  exact w

theorem cres_v1_3 {i0 i1 j0 j1 k0 k1 agcw ugcw fgcw rgcw : Int} {alpha beta : B64} {dx : Nat → B64} {a u f f0 f1 f2 res : Ptr} {β : Nat → Backend} {m : Mem B64}
    (hβ : ∀ n, ValidBackend (β n)) (hi : i0 ≤ i1) (hj : j0 ≤ j1) (hk : k0 ≤ k1) (hagcw : 0 ≤ agcw) (hugcw : 0 ≤ ugcw) (hfgcw : 0 ≤ fgcw) (hrgcw : 0 ≤ rgcw)
    (h : F.Args m [F.cell3d a i0 j0 k0 i1 j1 k1 agcw, F.cell3d u i0 j0 k0 i1 j1 k1 ugcw, F.cell3d f i0 j0 k0 i1 j1 k1 fgcw, F.face3d0 f0 i0 j0 k0 i1 j1 k1 0, F.face3d1 f1 i0 j0 k0 i1 j1 k1 0, F.face3d2 f2 i0 j0 k0 i1 j1 k1 0]
      [F.cell3d res i0 j0 k0 i1 j1 k1 rgcw]) :
    ∃ m', Cuda.diffusionV1Res3d i0 i1 j0 j1 k0 k1 alpha beta dx agcw a ugcw u fgcw f f0 f1 f2 rgcw res β m = .ok m' ∧ F.Kept [F.cell3d res i0 j0 k0 i1 j1 k1 rgcw] m m' ∧
      (∀ i j k, i0 ≤ i → i ≤ i1 → j0 ≤ j → j ≤ j1 → k0 ≤ k → k ≤ k1 → F.El m' (F.cell3d res i0 j0 k0 i1 j1 k1 rgcw) [i, j, k] (F.rd m (F.cell3d f i0 j0 k0 i1 j1 k1 fgcw) [i, j, k] + beta * ((F.rd m (F.face3d0 f0 i0 j0 k0 i1 j1 k1 0) [i + 1, j, k] - F.rd m (F.face3d0 f0 i0 j0 k0 i1 j1 k1 0) [i, j, k]) / dx 0 + (F.rd m (F.face3d1 f1 i0 j0 k0 i1 j1 k1 0) [j + 1, k, i] - F.rd m (F.face3d1 f1 i0 j0 k0 i1 j1 k1 0) [j, k, i]) / dx 1 + (F.rd m (F.face3d2 f2 i0 j0 k0 i1 j1 k1 0) [k + 1, i, j] - F.rd m (F.face3d2 f2 i0 j0 k0 i1 j1 k1 0) [k, i, j]) / dx 2) - alpha * F.rd m (F.cell3d a i0 j0 k0 i1 j1 k1 agcw) [i, j, k] * F.rd m (F.cell3d u i0 j0 k0 i1 j1 k1 ugcw) [i, j, k])) := by
  have ha := h.ok (F.cell3d a i0 j0 k0 i1 j1 k1 agcw) (by simp)
  have hu := h.ok (F.cell3d u i0 j0 k0 i1 j1 k1 ugcw) (by simp)
  have hf := h.ok (F.cell3d f i0 j0 k0 i1 j1 k1 fgcw) (by simp)
  have hres := h.ok (F.cell3d res i0 j0 k0 i1 j1 k1 rgcw) (by simp)
  have hf0 := h.ok (F.face3d0 f0 i0 j0 k0 i1 j1 k1 0) (by simp)
  have hf1 := h.ok (F.face3d1 f1 i0 j0 k0 i1 j1 k1 0) (by simp)
  have hf2 := h.ok (F.face3d2 f2 i0 j0 k0 i1 j1 k1 0) (by simp)
  have Ia := ha.int
  have Iu := hu.int
  have If := hf.int
  have Ires := hres.int
  have If0 := hf0.int
  have If1 := hf1.int
  have If2 := hf2.int
  simp only [F.cell3d, F.face3d0, F.face3d1, F.face3d2, List.mem_cons, List.not_mem_nil, or_false, forall_eq_or_imp, forall_eq, InInt] at Ia Iu If Ires If0 If1 If2
  have mkI := mkB_ok (d := .I) (lo := i0) (hi := i1) (by list_omega)
  have plI := plus_ok (d := .I) (b := ⟨i0, i1 + 1, 1⟩) (x := 1) (by omega) (by list_omega)
  have mkJ := mkB_ok (d := .J) (lo := j0) (hi := j1) (by list_omega)
  have plJ := plus_ok (d := .J) (b := ⟨j0, j1 + 1, 1⟩) (x := 1) (by omega) (by list_omega)
  have mkK := mkB_ok (d := .K) (lo := k0) (hi := k1) (by list_omega)
  have plK := plus_ok (d := .K) (b := ⟨k0, k1 + 1, 1⟩) (x := 1) (by omega) (by list_omega)
  have spa : makeSpanOffset a agcw [(.K, ⟨k0, k1 + 1, 1⟩), (.J, ⟨j0, j1 + 1, 1⟩), (.I, ⟨i0, i1 + 1, 1⟩)] = .ok (sCell3 a i0 j0 k0 i1 j1 k1 agcw) := makeSpanOffset_ok (by simp) (by list_omega)
  have spu : makeSpanOffset u ugcw [(.K, ⟨k0, k1 + 1, 1⟩), (.J, ⟨j0, j1 + 1, 1⟩), (.I, ⟨i0, i1 + 1, 1⟩)] = .ok (sCell3 u i0 j0 k0 i1 j1 k1 ugcw) := makeSpanOffset_ok (by simp) (by list_omega)
  have spf : makeSpanOffset f fgcw [(.K, ⟨k0, k1 + 1, 1⟩), (.J, ⟨j0, j1 + 1, 1⟩), (.I, ⟨i0, i1 + 1, 1⟩)] = .ok (sCell3 f i0 j0 k0 i1 j1 k1 fgcw) := makeSpanOffset_ok (by simp) (by list_omega)
  have spres : makeSpanOffset res rgcw [(.K, ⟨k0, k1 + 1, 1⟩), (.J, ⟨j0, j1 + 1, 1⟩), (.I, ⟨i0, i1 + 1, 1⟩)] = .ok (sCell3 res i0 j0 k0 i1 j1 k1 rgcw) := makeSpanOffset_ok (by simp) (by list_omega)
  have Aa : ArrOK m (sCell3 a i0 j0 k0 i1 j1 k1 agcw) := by arr_ok ha
  have Au : ArrOK m (sCell3 u i0 j0 k0 i1 j1 k1 ugcw) := by arr_ok hu
  have Af : ArrOK m (sCell3 f i0 j0 k0 i1 j1 k1 fgcw) := by arr_ok hf
  have Ares : ArrOK m (sCell3 res i0 j0 k0 i1 j1 k1 rgcw) := by arr_ok hres
  have Af0 : ArrOK m (sFace30 f0 i0 j0 k0 i1 j1 k1) := by arr_ok hf0
  have Af1 : ArrOK m (sFace31 f1 i0 j0 k0 i1 j1 k1) := by arr_ok hf1
  have Af2 : ArrOK m (sFace32 f2 i0 j0 k0 i1 j1 k1) := by arr_ok hf2
  have Pa : Apart (sCell3 res i0 j0 k0 i1 j1 k1 rgcw) (sCell3 a i0 j0 k0 i1 j1 k1 agcw) := by apart_ok (h.apart _ (by simp) _ (by simp))
  have Pu : Apart (sCell3 res i0 j0 k0 i1 j1 k1 rgcw) (sCell3 u i0 j0 k0 i1 j1 k1 ugcw) := by apart_ok (h.apart _ (by simp) _ (by simp))
  have Pf : Apart (sCell3 res i0 j0 k0 i1 j1 k1 rgcw) (sCell3 f i0 j0 k0 i1 j1 k1 fgcw) := by apart_ok (h.apart _ (by simp) _ (by simp))
  have Pf0 : Apart (sCell3 res i0 j0 k0 i1 j1 k1 rgcw) (sFace30 f0 i0 j0 k0 i1 j1 k1) := by apart_ok (h.apart _ (by simp) _ (by simp))
  have Pf1 : Apart (sCell3 res i0 j0 k0 i1 j1 k1 rgcw) (sFace31 f1 i0 j0 k0 i1 j1 k1) := by apart_ok (h.apart _ (by simp) _ (by simp))
  have Pf2 : Apart (sCell3 res i0 j0 k0 i1 j1 k1 rgcw) (sFace32 f2 i0 j0 k0 i1 j1 k1) := by apart_ok (h.apart _ (by simp) _ (by simp))
  obtain ⟨m', c, f', x⟩ := stmt_nest (lhs := sCell3 res i0 j0 k0 i1 j1 k1 rgcw) (e := (sCell3 f i0 j0 k0 i1 j1 k1 fgcw).e B64 + beta * ((sFace30 f0 i0 j0 k0 i1 j1 k1).grad .I (dx 0) + (sFace31 f1 i0 j0 k0 i1 j1 k1).grad .J (dx 1) + (sFace32 f2 i0 j0 k0 i1 j1 k1).grad .K (dx 2)) - alpha * (sCell3 a i0 j0 k0 i1 j1 k1 agcw).e B64 * (sCell3 u i0 j0 k0 i1 j1 k1 ugcw).e B64)
    (D := [(.K, ⟨k0, k1 + 1, 1⟩), (.J, ⟨j0, j1 + 1, 1⟩), (.I, ⟨i0, i1 + 1, 1⟩)]) (r := [(.K, k0, k1), (.J, j0, j1), (.I, i0, i1)]) (p0 := fun _ => 0)
    (stmt := fun p => F.assign (F.cell3d res i0 j0 k0 i1 j1 k1 rgcw) [p .I, p .J, p .K] (.ref (F.cell3d f i0 j0 k0 i1 j1 k1 fgcw) [p .I, p .J, p .K] + .const beta * ((.ref (F.face3d0 f0 i0 j0 k0 i1 j1 k1 0) [p .I + 1, p .J, p .K] - .ref (F.face3d0 f0 i0 j0 k0 i1 j1 k1 0) [p .I, p .J, p .K]) / .const (dx 0) + (.ref (F.face3d1 f1 i0 j0 k0 i1 j1 k1 0) [p .J + 1, p .K, p .I] - .ref (F.face3d1 f1 i0 j0 k0 i1 j1 k1 0) [p .J, p .K, p .I]) / .const (dx 1) + (.ref (F.face3d2 f2 i0 j0 k0 i1 j1 k1 0) [p .K + 1, p .I, p .J] - .ref (F.face3d2 f2 i0 j0 k0 i1 j1 k1 0) [p .K, p .I, p .J]) / .const (dx 2)) - .const alpha * .ref (F.cell3d a i0 j0 k0 i1 j1 k1 agcw) [p .I, p .J, p .K] * .ref (F.cell3d u i0 j0 k0 i1 j1 k1 ugcw) [p .I, p .J, p .K]))
    (hβ 0) (by unit_dom) Ares (by within) (by operands) (by fits) (by typed) (by dims) (by same_dims) (by intro p; list_omega) (by body_ops trivial)
  have P0 : F.Part (T := B64) [F.cell3d a i0 j0 k0 i1 j1 k1 agcw, F.cell3d u i0 j0 k0 i1 j1 k1 ugcw, F.cell3d f i0 j0 k0 i1 j1 k1 fgcw, F.face3d0 f0 i0 j0 k0 i1 j1 k1 0, F.face3d1 f1 i0 j0 k0 i1 j1 k1 0, F.face3d2 f2 i0 j0 k0 i1 j1 k1 0] [F.cell3d res i0 j0 k0 i1 j1 k1 rgcw] (F.nestL [(.K, k0, k1), (.J, j0, j1), (.I, i0, i1)] (fun _ => 0) fun p => [((F.cell3d res i0 j0 k0 i1 j1 k1 rgcw), [p .I, p .J, p .K], F.Expr.ref (F.cell3d f i0 j0 k0 i1 j1 k1 fgcw) [p .I, p .J, p .K] + F.Expr.const beta * ((F.Expr.ref (F.face3d0 f0 i0 j0 k0 i1 j1 k1 0) [p .I + 1, p .J, p .K] - F.Expr.ref (F.face3d0 f0 i0 j0 k0 i1 j1 k1 0) [p .I, p .J, p .K]) / F.Expr.const (dx 0) + (F.Expr.ref (F.face3d1 f1 i0 j0 k0 i1 j1 k1 0) [p .J + 1, p .K, p .I] - F.Expr.ref (F.face3d1 f1 i0 j0 k0 i1 j1 k1 0) [p .J, p .K, p .I]) / F.Expr.const (dx 1) + (F.Expr.ref (F.face3d2 f2 i0 j0 k0 i1 j1 k1 0) [p .K + 1, p .I, p .J] - F.Expr.ref (F.face3d2 f2 i0 j0 k0 i1 j1 k1 0) [p .K, p .I, p .J]) / F.Expr.const (dx 2)) - F.Expr.const alpha * F.Expr.ref (F.cell3d a i0 j0 k0 i1 j1 k1 agcw) [p .I, p .J, p .K] * F.Expr.ref (F.cell3d u i0 j0 k0 i1 j1 k1 ugcw) [p .I, p .J, p .K])]) := by part_tac
  obtain ⟨m2, g1, -, g3, g4⟩ := P0.run (c := F.nest (fun p => F.assign (F.cell3d res i0 j0 k0 i1 j1 k1 rgcw) [p .I, p .J, p .K] (.ref (F.cell3d f i0 j0 k0 i1 j1 k1 fgcw) [p .I, p .J, p .K] + .const beta * ((.ref (F.face3d0 f0 i0 j0 k0 i1 j1 k1 0) [p .I + 1, p .J, p .K] - .ref (F.face3d0 f0 i0 j0 k0 i1 j1 k1 0) [p .I, p .J, p .K]) / .const (dx 0) + (.ref (F.face3d1 f1 i0 j0 k0 i1 j1 k1 0) [p .J + 1, p .K, p .I] - .ref (F.face3d1 f1 i0 j0 k0 i1 j1 k1 0) [p .J, p .K, p .I]) / .const (dx 1) + (.ref (F.face3d2 f2 i0 j0 k0 i1 j1 k1 0) [p .K + 1, p .I, p .J] - .ref (F.face3d2 f2 i0 j0 k0 i1 j1 k1 0) [p .K, p .I, p .J]) / .const (dx 2)) - .const alpha * .ref (F.cell3d a i0 j0 k0 i1 j1 k1 agcw) [p .I, p .J, p .K] * .ref (F.cell3d u i0 j0 k0 i1 j1 k1 ugcw) [p .I, p .J, p .K])) [(.K, k0, k1), (.J, j0, j1), (.I, i0, i1)] fun _ => 0) (by rw [← F.nest_seqn1]) h
  obtain rfl : m' = m2 := Except.ok.inj (f'.symm.trans g1)
  refine ⟨m', ?_, g3, fun i j k h0 h1 h2 h3 h4 h5 => g4 _ (F.mem_nestL (p := (pt3 i j k)) (by nodups) (by in_nest) (by pt_else) List.mem_cons_self)⟩
  unfold Cuda.diffusionV1Res3d
  exact bind_step mkI <| bind_step mkJ <| bind_step mkK <| bind_step spa <| bind_step spu <| bind_step spf <| bind_step spres <| bind_step plI <| bind_step plJ <| bind_step plK <| bind_step c rfl

theorem cres_v2_3 {i0 i1 j0 j1 k0 k1 ugcw fgcw rgcw : Int} {alpha beta : B64} {dx : Nat → B64} {u f f0 f1 f2 res : Ptr} {β : Nat → Backend} {m : Mem B64}
    (hβ : ∀ n, ValidBackend (β n)) (hi : i0 ≤ i1) (hj : j0 ≤ j1) (hk : k0 ≤ k1) (hugcw : 0 ≤ ugcw) (hfgcw : 0 ≤ fgcw) (hrgcw : 0 ≤ rgcw)
    (h : F.Args m [F.cell3d u i0 j0 k0 i1 j1 k1 ugcw, F.cell3d f i0 j0 k0 i1 j1 k1 fgcw, F.face3d0 f0 i0 j0 k0 i1 j1 k1 0, F.face3d1 f1 i0 j0 k0 i1 j1 k1 0, F.face3d2 f2 i0 j0 k0 i1 j1 k1 0]
      [F.cell3d res i0 j0 k0 i1 j1 k1 rgcw]) :
    ∃ m', Cuda.diffusionV2Res3d i0 i1 j0 j1 k0 k1 alpha beta dx ugcw u fgcw f f0 f1 f2 rgcw res β m = .ok m' ∧ F.Kept [F.cell3d res i0 j0 k0 i1 j1 k1 rgcw] m m' ∧
      (∀ i j k, i0 ≤ i → i ≤ i1 → j0 ≤ j → j ≤ j1 → k0 ≤ k → k ≤ k1 → F.El m' (F.cell3d res i0 j0 k0 i1 j1 k1 rgcw) [i, j, k] (F.rd m (F.cell3d f i0 j0 k0 i1 j1 k1 fgcw) [i, j, k] + beta * ((F.rd m (F.face3d0 f0 i0 j0 k0 i1 j1 k1 0) [i + 1, j, k] - F.rd m (F.face3d0 f0 i0 j0 k0 i1 j1 k1 0) [i, j, k]) / dx 0 + (F.rd m (F.face3d1 f1 i0 j0 k0 i1 j1 k1 0) [j + 1, k, i] - F.rd m (F.face3d1 f1 i0 j0 k0 i1 j1 k1 0) [j, k, i]) / dx 1 + (F.rd m (F.face3d2 f2 i0 j0 k0 i1 j1 k1 0) [k + 1, i, j] - F.rd m (F.face3d2 f2 i0 j0 k0 i1 j1 k1 0) [k, i, j]) / dx 2) - alpha * F.rd m (F.cell3d u i0 j0 k0 i1 j1 k1 ugcw) [i, j, k])) := by
  have hu := h.ok (F.cell3d u i0 j0 k0 i1 j1 k1 ugcw) (by simp)
  have hf := h.ok (F.cell3d f i0 j0 k0 i1 j1 k1 fgcw) (by simp)
  have hres := h.ok (F.cell3d res i0 j0 k0 i1 j1 k1 rgcw) (by simp)
  have hf0 := h.ok (F.face3d0 f0 i0 j0 k0 i1 j1 k1 0) (by simp)
  have hf1 := h.ok (F.face3d1 f1 i0 j0 k0 i1 j1 k1 0) (by simp)
  have hf2 := h.ok (F.face3d2 f2 i0 j0 k0 i1 j1 k1 0) (by simp)
  have Iu := hu.int
  have If := hf.int
  have Ires := hres.int
  have If0 := hf0.int
  have If1 := hf1.int
  have If2 := hf2.int
  simp only [F.cell3d, F.face3d0, F.face3d1, F.face3d2, List.mem_cons, List.not_mem_nil, or_false, forall_eq_or_imp, forall_eq, InInt] at Iu If Ires If0 If1 If2
  have mkI := mkB_ok (d := .I) (lo := i0) (hi := i1) (by list_omega)
  have plI := plus_ok (d := .I) (b := ⟨i0, i1 + 1, 1⟩) (x := 1) (by omega) (by list_omega)
  have mkJ := mkB_ok (d := .J) (lo := j0) (hi := j1) (by list_omega)
  have plJ := plus_ok (d := .J) (b := ⟨j0, j1 + 1, 1⟩) (x := 1) (by omega) (by list_omega)
  have mkK := mkB_ok (d := .K) (lo := k0) (hi := k1) (by list_omega)
  have plK := plus_ok (d := .K) (b := ⟨k0, k1 + 1, 1⟩) (x := 1) (by omega) (by list_omega)
  have spu : makeSpanOffset u ugcw [(.K, ⟨k0, k1 + 1, 1⟩), (.J, ⟨j0, j1 + 1, 1⟩), (.I, ⟨i0, i1 + 1, 1⟩)] = .ok (sCell3 u i0 j0 k0 i1 j1 k1 ugcw) := makeSpanOffset_ok (by simp) (by list_omega)
  have spf : makeSpanOffset f fgcw [(.K, ⟨k0, k1 + 1, 1⟩), (.J, ⟨j0, j1 + 1, 1⟩), (.I, ⟨i0, i1 + 1, 1⟩)] = .ok (sCell3 f i0 j0 k0 i1 j1 k1 fgcw) := makeSpanOffset_ok (by simp) (by list_omega)
  have spres : makeSpanOffset res rgcw [(.K, ⟨k0, k1 + 1, 1⟩), (.J, ⟨j0, j1 + 1, 1⟩), (.I, ⟨i0, i1 + 1, 1⟩)] = .ok (sCell3 res i0 j0 k0 i1 j1 k1 rgcw) := makeSpanOffset_ok (by simp) (by list_omega)
  have Au : ArrOK m (sCell3 u i0 j0 k0 i1 j1 k1 ugcw) := by arr_ok hu
  have Af : ArrOK m (sCell3 f i0 j0 k0 i1 j1 k1 fgcw) := by arr_ok hf
  have Ares : ArrOK m (sCell3 res i0 j0 k0 i1 j1 k1 rgcw) := by arr_ok hres
  have Af0 : ArrOK m (sFace30 f0 i0 j0 k0 i1 j1 k1) := by arr_ok hf0
  have Af1 : ArrOK m (sFace31 f1 i0 j0 k0 i1 j1 k1) := by arr_ok hf1
  have Af2 : ArrOK m (sFace32 f2 i0 j0 k0 i1 j1 k1) := by arr_ok hf2
  have Pu : Apart (sCell3 res i0 j0 k0 i1 j1 k1 rgcw) (sCell3 u i0 j0 k0 i1 j1 k1 ugcw) := by apart_ok (h.apart _ (by simp) _ (by simp))
  have Pf : Apart (sCell3 res i0 j0 k0 i1 j1 k1 rgcw) (sCell3 f i0 j0 k0 i1 j1 k1 fgcw) := by apart_ok (h.apart _ (by simp) _ (by simp))
  have Pf0 : Apart (sCell3 res i0 j0 k0 i1 j1 k1 rgcw) (sFace30 f0 i0 j0 k0 i1 j1 k1) := by apart_ok (h.apart _ (by simp) _ (by simp))
  have Pf1 : Apart (sCell3 res i0 j0 k0 i1 j1 k1 rgcw) (sFace31 f1 i0 j0 k0 i1 j1 k1) := by apart_ok (h.apart _ (by simp) _ (by simp))
  have Pf2 : Apart (sCell3 res i0 j0 k0 i1 j1 k1 rgcw) (sFace32 f2 i0 j0 k0 i1 j1 k1) := by apart_ok (h.apart _ (by simp) _ (by simp))
  obtain ⟨m', c, f', x⟩ := stmt_nest (lhs := sCell3 res i0 j0 k0 i1 j1 k1 rgcw) (e := (sCell3 f i0 j0 k0 i1 j1 k1 fgcw).e B64 + beta * ((sFace30 f0 i0 j0 k0 i1 j1 k1).grad .I (dx 0) + (sFace31 f1 i0 j0 k0 i1 j1 k1).grad .J (dx 1) + (sFace32 f2 i0 j0 k0 i1 j1 k1).grad .K (dx 2)) - alpha * (sCell3 u i0 j0 k0 i1 j1 k1 ugcw).e B64)
    (D := [(.K, ⟨k0, k1 + 1, 1⟩), (.J, ⟨j0, j1 + 1, 1⟩), (.I, ⟨i0, i1 + 1, 1⟩)]) (r := [(.K, k0, k1), (.J, j0, j1), (.I, i0, i1)]) (p0 := fun _ => 0)
    (stmt := fun p => F.assign (F.cell3d res i0 j0 k0 i1 j1 k1 rgcw) [p .I, p .J, p .K] (.ref (F.cell3d f i0 j0 k0 i1 j1 k1 fgcw) [p .I, p .J, p .K] + .const beta * ((.ref (F.face3d0 f0 i0 j0 k0 i1 j1 k1 0) [p .I + 1, p .J, p .K] - .ref (F.face3d0 f0 i0 j0 k0 i1 j1 k1 0) [p .I, p .J, p .K]) / .const (dx 0) + (.ref (F.face3d1 f1 i0 j0 k0 i1 j1 k1 0) [p .J + 1, p .K, p .I] - .ref (F.face3d1 f1 i0 j0 k0 i1 j1 k1 0) [p .J, p .K, p .I]) / .const (dx 1) + (.ref (F.face3d2 f2 i0 j0 k0 i1 j1 k1 0) [p .K + 1, p .I, p .J] - .ref (F.face3d2 f2 i0 j0 k0 i1 j1 k1 0) [p .K, p .I, p .J]) / .const (dx 2)) - .const alpha * .ref (F.cell3d u i0 j0 k0 i1 j1 k1 ugcw) [p .I, p .J, p .K]))
    (hβ 0) (by unit_dom) Ares (by within) (by operands) (by fits) (by typed) (by dims) (by same_dims) (by intro p; list_omega) (by body_ops trivial)
  have P0 : F.Part (T := B64) [F.cell3d u i0 j0 k0 i1 j1 k1 ugcw, F.cell3d f i0 j0 k0 i1 j1 k1 fgcw, F.face3d0 f0 i0 j0 k0 i1 j1 k1 0, F.face3d1 f1 i0 j0 k0 i1 j1 k1 0, F.face3d2 f2 i0 j0 k0 i1 j1 k1 0] [F.cell3d res i0 j0 k0 i1 j1 k1 rgcw] (F.nestL [(.K, k0, k1), (.J, j0, j1), (.I, i0, i1)] (fun _ => 0) fun p => [((F.cell3d res i0 j0 k0 i1 j1 k1 rgcw), [p .I, p .J, p .K], F.Expr.ref (F.cell3d f i0 j0 k0 i1 j1 k1 fgcw) [p .I, p .J, p .K] + F.Expr.const beta * ((F.Expr.ref (F.face3d0 f0 i0 j0 k0 i1 j1 k1 0) [p .I + 1, p .J, p .K] - F.Expr.ref (F.face3d0 f0 i0 j0 k0 i1 j1 k1 0) [p .I, p .J, p .K]) / F.Expr.const (dx 0) + (F.Expr.ref (F.face3d1 f1 i0 j0 k0 i1 j1 k1 0) [p .J + 1, p .K, p .I] - F.Expr.ref (F.face3d1 f1 i0 j0 k0 i1 j1 k1 0) [p .J, p .K, p .I]) / F.Expr.const (dx 1) + (F.Expr.ref (F.face3d2 f2 i0 j0 k0 i1 j1 k1 0) [p .K + 1, p .I, p .J] - F.Expr.ref (F.face3d2 f2 i0 j0 k0 i1 j1 k1 0) [p .K, p .I, p .J]) / F.Expr.const (dx 2)) - F.Expr.const alpha * F.Expr.ref (F.cell3d u i0 j0 k0 i1 j1 k1 ugcw) [p .I, p .J, p .K])]) := by part_tac
  obtain ⟨m2, g1, -, g3, g4⟩ := P0.run (c := F.nest (fun p => F.assign (F.cell3d res i0 j0 k0 i1 j1 k1 rgcw) [p .I, p .J, p .K] (.ref (F.cell3d f i0 j0 k0 i1 j1 k1 fgcw) [p .I, p .J, p .K] + .const beta * ((.ref (F.face3d0 f0 i0 j0 k0 i1 j1 k1 0) [p .I + 1, p .J, p .K] - .ref (F.face3d0 f0 i0 j0 k0 i1 j1 k1 0) [p .I, p .J, p .K]) / .const (dx 0) + (.ref (F.face3d1 f1 i0 j0 k0 i1 j1 k1 0) [p .J + 1, p .K, p .I] - .ref (F.face3d1 f1 i0 j0 k0 i1 j1 k1 0) [p .J, p .K, p .I]) / .const (dx 1) + (.ref (F.face3d2 f2 i0 j0 k0 i1 j1 k1 0) [p .K + 1, p .I, p .J] - .ref (F.face3d2 f2 i0 j0 k0 i1 j1 k1 0) [p .K, p .I, p .J]) / .const (dx 2)) - .const alpha * .ref (F.cell3d u i0 j0 k0 i1 j1 k1 ugcw) [p .I, p .J, p .K])) [(.K, k0, k1), (.J, j0, j1), (.I, i0, i1)] fun _ => 0) (by rw [← F.nest_seqn1]) h
  obtain rfl : m' = m2 := Except.ok.inj (f'.symm.trans g1)
  refine ⟨m', ?_, g3, fun i j k h0 h1 h2 h3 h4 h5 => g4 _ (F.mem_nestL (p := (pt3 i j k)) (by nodups) (by in_nest) (by pt_else) List.mem_cons_self)⟩
  unfold Cuda.diffusionV2Res3d
  exact bind_step mkI <| bind_step mkJ <| bind_step mkK <| bind_step spu <| bind_step spf <| bind_step spres <| bind_step plI <| bind_step plJ <| bind_step plK <| bind_step c rfl

theorem cres_p_3 {i0 i1 j0 j1 k0 k1 fgcw rgcw : Int} {beta : B64} {dx : Nat → B64} {f f0 f1 f2 res : Ptr} {β : Nat → Backend} {m : Mem B64}
    (hβ : ∀ n, ValidBackend (β n)) (hi : i0 ≤ i1) (hj : j0 ≤ j1) (hk : k0 ≤ k1) (hfgcw : 0 ≤ fgcw) (hrgcw : 0 ≤ rgcw)
    (h : F.Args m [F.cell3d f i0 j0 k0 i1 j1 k1 fgcw, F.face3d0 f0 i0 j0 k0 i1 j1 k1 0, F.face3d1 f1 i0 j0 k0 i1 j1 k1 0, F.face3d2 f2 i0 j0 k0 i1 j1 k1 0]
      [F.cell3d res i0 j0 k0 i1 j1 k1 rgcw]) :
    ∃ m', Cuda.poissonV1Res3d i0 i1 j0 j1 k0 k1 beta dx fgcw f f0 f1 f2 rgcw res β m = .ok m' ∧ F.Kept [F.cell3d res i0 j0 k0 i1 j1 k1 rgcw] m m' ∧
      (∀ i j k, i0 ≤ i → i ≤ i1 → j0 ≤ j → j ≤ j1 → k0 ≤ k → k ≤ k1 → F.El m' (F.cell3d res i0 j0 k0 i1 j1 k1 rgcw) [i, j, k] (F.rd m (F.cell3d f i0 j0 k0 i1 j1 k1 fgcw) [i, j, k] + beta * ((F.rd m (F.face3d0 f0 i0 j0 k0 i1 j1 k1 0) [i + 1, j, k] - F.rd m (F.face3d0 f0 i0 j0 k0 i1 j1 k1 0) [i, j, k]) / dx 0 + (F.rd m (F.face3d1 f1 i0 j0 k0 i1 j1 k1 0) [j + 1, k, i] - F.rd m (F.face3d1 f1 i0 j0 k0 i1 j1 k1 0) [j, k, i]) / dx 1 + (F.rd m (F.face3d2 f2 i0 j0 k0 i1 j1 k1 0) [k + 1, i, j] - F.rd m (F.face3d2 f2 i0 j0 k0 i1 j1 k1 0) [k, i, j]) / dx 2))) := by
  have hf := h.ok (F.cell3d f i0 j0 k0 i1 j1 k1 fgcw) (by simp)
  have hres := h.ok (F.cell3d res i0 j0 k0 i1 j1 k1 rgcw) (by simp)
  have hf0 := h.ok (F.face3d0 f0 i0 j0 k0 i1 j1 k1 0) (by simp)
  have hf1 := h.ok (F.face3d1 f1 i0 j0 k0 i1 j1 k1 0) (by simp)
  have hf2 := h.ok (F.face3d2 f2 i0 j0 k0 i1 j1 k1 0) (by simp)
  have If := hf.int
  have Ires := hres.int
  have If0 := hf0.int
  have If1 := hf1.int
  have If2 := hf2.int
  simp only [F.cell3d, F.face3d0, F.face3d1, F.face3d2, List.mem_cons, List.not_mem_nil, or_false, forall_eq_or_imp, forall_eq, InInt] at If Ires If0 If1 If2
  have mkI := mkB_ok (d := .I) (lo := i0) (hi := i1) (by list_omega)
  have plI := plus_ok (d := .I) (b := ⟨i0, i1 + 1, 1⟩) (x := 1) (by omega) (by list_omega)
  have mkJ := mkB_ok (d := .J) (lo := j0) (hi := j1) (by list_omega)
  have plJ := plus_ok (d := .J) (b := ⟨j0, j1 + 1, 1⟩) (x := 1) (by omega) (by list_omega)
  have mkK := mkB_ok (d := .K) (lo := k0) (hi := k1) (by list_omega)
  have plK := plus_ok (d := .K) (b := ⟨k0, k1 + 1, 1⟩) (x := 1) (by omega) (by list_omega)
  have spf : makeSpanOffset f fgcw [(.K, ⟨k0, k1 + 1, 1⟩), (.J, ⟨j0, j1 + 1, 1⟩), (.I, ⟨i0, i1 + 1, 1⟩)] = .ok (sCell3 f i0 j0 k0 i1 j1 k1 fgcw) := makeSpanOffset_ok (by simp) (by list_omega)
  have spres : makeSpanOffset res rgcw [(.K, ⟨k0, k1 + 1, 1⟩), (.J, ⟨j0, j1 + 1, 1⟩), (.I, ⟨i0, i1 + 1, 1⟩)] = .ok (sCell3 res i0 j0 k0 i1 j1 k1 rgcw) := makeSpanOffset_ok (by simp) (by list_omega)
  have Af : ArrOK m (sCell3 f i0 j0 k0 i1 j1 k1 fgcw) := by arr_ok hf
  have Ares : ArrOK m (sCell3 res i0 j0 k0 i1 j1 k1 rgcw) := by arr_ok hres
  have Af0 : ArrOK m (sFace30 f0 i0 j0 k0 i1 j1 k1) := by arr_ok hf0
  have Af1 : ArrOK m (sFace31 f1 i0 j0 k0 i1 j1 k1) := by arr_ok hf1
  have Af2 : ArrOK m (sFace32 f2 i0 j0 k0 i1 j1 k1) := by arr_ok hf2
  have Pf : Apart (sCell3 res i0 j0 k0 i1 j1 k1 rgcw) (sCell3 f i0 j0 k0 i1 j1 k1 fgcw) := by apart_ok (h.apart _ (by simp) _ (by simp))
  have Pf0 : Apart (sCell3 res i0 j0 k0 i1 j1 k1 rgcw) (sFace30 f0 i0 j0 k0 i1 j1 k1) := by apart_ok (h.apart _ (by simp) _ (by simp))
  have Pf1 : Apart (sCell3 res i0 j0 k0 i1 j1 k1 rgcw) (sFace31 f1 i0 j0 k0 i1 j1 k1) := by apart_ok (h.apart _ (by simp) _ (by simp))
  have Pf2 : Apart (sCell3 res i0 j0 k0 i1 j1 k1 rgcw) (sFace32 f2 i0 j0 k0 i1 j1 k1) := by apart_ok (h.apart _ (by simp) _ (by simp))
  obtain ⟨m', c, f', x⟩ := stmt_nest (lhs := sCell3 res i0 j0 k0 i1 j1 k1 rgcw) (e := (sCell3 f i0 j0 k0 i1 j1 k1 fgcw).e B64 + beta * ((sFace30 f0 i0 j0 k0 i1 j1 k1).grad .I (dx 0) + (sFace31 f1 i0 j0 k0 i1 j1 k1).grad .J (dx 1) + (sFace32 f2 i0 j0 k0 i1 j1 k1).grad .K (dx 2)))
    (D := [(.K, ⟨k0, k1 + 1, 1⟩), (.J, ⟨j0, j1 + 1, 1⟩), (.I, ⟨i0, i1 + 1, 1⟩)]) (r := [(.K, k0, k1), (.J, j0, j1), (.I, i0, i1)]) (p0 := fun _ => 0)
    (stmt := fun p => F.assign (F.cell3d res i0 j0 k0 i1 j1 k1 rgcw) [p .I, p .J, p .K] (.ref (F.cell3d f i0 j0 k0 i1 j1 k1 fgcw) [p .I, p .J, p .K] + .const beta * ((.ref (F.face3d0 f0 i0 j0 k0 i1 j1 k1 0) [p .I + 1, p .J, p .K] - .ref (F.face3d0 f0 i0 j0 k0 i1 j1 k1 0) [p .I, p .J, p .K]) / .const (dx 0) + (.ref (F.face3d1 f1 i0 j0 k0 i1 j1 k1 0) [p .J + 1, p .K, p .I] - .ref (F.face3d1 f1 i0 j0 k0 i1 j1 k1 0) [p .J, p .K, p .I]) / .const (dx 1) + (.ref (F.face3d2 f2 i0 j0 k0 i1 j1 k1 0) [p .K + 1, p .I, p .J] - .ref (F.face3d2 f2 i0 j0 k0 i1 j1 k1 0) [p .K, p .I, p .J]) / .const (dx 2))))
    (hβ 0) (by unit_dom) Ares (by within) (by operands) (by fits) (by typed) (by dims) (by same_dims) (by intro p; list_omega) (by body_ops trivial)
  have P0 : F.Part (T := B64) [F.cell3d f i0 j0 k0 i1 j1 k1 fgcw, F.face3d0 f0 i0 j0 k0 i1 j1 k1 0, F.face3d1 f1 i0 j0 k0 i1 j1 k1 0, F.face3d2 f2 i0 j0 k0 i1 j1 k1 0] [F.cell3d res i0 j0 k0 i1 j1 k1 rgcw] (F.nestL [(.K, k0, k1), (.J, j0, j1), (.I, i0, i1)] (fun _ => 0) fun p => [((F.cell3d res i0 j0 k0 i1 j1 k1 rgcw), [p .I, p .J, p .K], F.Expr.ref (F.cell3d f i0 j0 k0 i1 j1 k1 fgcw) [p .I, p .J, p .K] + F.Expr.const beta * ((F.Expr.ref (F.face3d0 f0 i0 j0 k0 i1 j1 k1 0) [p .I + 1, p .J, p .K] - F.Expr.ref (F.face3d0 f0 i0 j0 k0 i1 j1 k1 0) [p .I, p .J, p .K]) / F.Expr.const (dx 0) + (F.Expr.ref (F.face3d1 f1 i0 j0 k0 i1 j1 k1 0) [p .J + 1, p .K, p .I] - F.Expr.ref (F.face3d1 f1 i0 j0 k0 i1 j1 k1 0) [p .J, p .K, p .I]) / F.Expr.const (dx 1) + (F.Expr.ref (F.face3d2 f2 i0 j0 k0 i1 j1 k1 0) [p .K + 1, p .I, p .J] - F.Expr.ref (F.face3d2 f2 i0 j0 k0 i1 j1 k1 0) [p .K, p .I, p .J]) / F.Expr.const (dx 2)))]) := by part_tac
  obtain ⟨m2, g1, -, g3, g4⟩ := P0.run (c := F.nest (fun p => F.assign (F.cell3d res i0 j0 k0 i1 j1 k1 rgcw) [p .I, p .J, p .K] (.ref (F.cell3d f i0 j0 k0 i1 j1 k1 fgcw) [p .I, p .J, p .K] + .const beta * ((.ref (F.face3d0 f0 i0 j0 k0 i1 j1 k1 0) [p .I + 1, p .J, p .K] - .ref (F.face3d0 f0 i0 j0 k0 i1 j1 k1 0) [p .I, p .J, p .K]) / .const (dx 0) + (.ref (F.face3d1 f1 i0 j0 k0 i1 j1 k1 0) [p .J + 1, p .K, p .I] - .ref (F.face3d1 f1 i0 j0 k0 i1 j1 k1 0) [p .J, p .K, p .I]) / .const (dx 1) + (.ref (F.face3d2 f2 i0 j0 k0 i1 j1 k1 0) [p .K + 1, p .I, p .J] - .ref (F.face3d2 f2 i0 j0 k0 i1 j1 k1 0) [p .K, p .I, p .J]) / .const (dx 2)))) [(.K, k0, k1), (.J, j0, j1), (.I, i0, i1)] fun _ => 0) (by rw [← F.nest_seqn1]) h
  obtain rfl : m' = m2 := Except.ok.inj (f'.symm.trans g1)
  refine ⟨m', ?_, g3, fun i j k h0 h1 h2 h3 h4 h5 => g4 _ (F.mem_nestL (p := (pt3 i j k)) (by nodups) (by in_nest) (by pt_else) List.mem_cons_self)⟩
  unfold Cuda.poissonV1Res3d
  exact bind_step mkI <| bind_step mkJ <| bind_step mkK <| bind_step spf <| bind_step spres <| bind_step plI <| bind_step plJ <| bind_step plK <| bind_step c rfl

theorem rres_v1_3 {i0 j0 k0 i1 j1 k1 agcw gcw fgcw rgcw : Int} {alpha beta : B64} {dx : Nat → B64} {a u b0 b1 b2 f f0 f1 f2 res : Ptr} {β1 β2 : Nat → Backend} {m : Mem B64}
    (hβ1 : ∀ n, ValidBackend (β1 n)) (hβ2 : ∀ n, ValidBackend (β2 n)) (hi : i0 ≤ i1) (hj : j0 ≤ j1) (hk : k0 ≤ k1) (hg : 1 ≤ gcw) (hagcw : 0 ≤ agcw) (hfgcw : 0 ≤ fgcw) (hrgcw : 0 ≤ rgcw)
    (h : F.Args m [(F.cell3d a i0 j0 k0 i1 j1 k1 agcw), (F.cell3d u i0 j0 k0 i1 j1 k1 gcw), (F.cell3d f i0 j0 k0 i1 j1 k1 fgcw), (F.face3d0 b0 i0 j0 k0 i1 j1 k1 0), (F.face3d1 b1 i0 j0 k0 i1 j1 k1 0), (F.face3d2 b2 i0 j0 k0 i1 j1 k1 0)] [(F.face3d0 f0 i0 j0 k0 i1 j1 k1 0), (F.face3d1 f1 i0 j0 k0 i1 j1 k1 0), (F.face3d2 f2 i0 j0 k0 i1 j1 k1 0), (F.cell3d res i0 j0 k0 i1 j1 k1 rgcw)])
    (hp : F.Apart (F.face3d0 f0 i0 j0 k0 i1 j1 k1 0) (F.face3d1 f1 i0 j0 k0 i1 j1 k1 0) ∧ F.Apart (F.face3d0 f0 i0 j0 k0 i1 j1 k1 0) (F.face3d2 f2 i0 j0 k0 i1 j1 k1 0) ∧ F.Apart (F.face3d1 f1 i0 j0 k0 i1 j1 k1 0) (F.face3d2 f2 i0 j0 k0 i1 j1 k1 0))
    (hr : F.Apart (F.cell3d res i0 j0 k0 i1 j1 k1 rgcw) (F.face3d0 f0 i0 j0 k0 i1 j1 k1 0) ∧ F.Apart (F.cell3d res i0 j0 k0 i1 j1 k1 rgcw) (F.face3d1 f1 i0 j0 k0 i1 j1 k1 0) ∧ F.Apart (F.cell3d res i0 j0 k0 i1 j1 k1 rgcw) (F.face3d2 f2 i0 j0 k0 i1 j1 k1 0)) :
    ∃ m1 m2, Cuda.flux3d i0 j0 k0 i1 j1 k1 dx b0 b1 b2 gcw u f0 f1 f2 β1 m = .ok m1 ∧ Cuda.diffusionV1Res3d i0 i1 j0 j1 k0 k1 alpha beta dx agcw a gcw u fgcw f f0 f1 f2 rgcw res β2 m1 = .ok m2 ∧ F.Kept [(F.face3d0 f0 i0 j0 k0 i1 j1 k1 0), (F.face3d1 f1 i0 j0 k0 i1 j1 k1 0), (F.face3d2 f2 i0 j0 k0 i1 j1 k1 0)] m m1 ∧ F.Kept [(F.cell3d res i0 j0 k0 i1 j1 k1 rgcw)] m1 m2 ∧
      (∀ i j k, i0 ≤ i → i ≤ i1 + 1 → j0 ≤ j → j ≤ j1 → k0 ≤ k → k ≤ k1 → F.El m1 (F.face3d0 f0 i0 j0 k0 i1 j1 k1 0) [i, j, k] (F.rd m (F.face3d0 b0 i0 j0 k0 i1 j1 k1 0) [i, j, k] * ((F.rd m (F.cell3d u i0 j0 k0 i1 j1 k1 gcw) [i, j, k] - F.rd m (F.cell3d u i0 j0 k0 i1 j1 k1 gcw) [i - 1, j, k]) / dx 0))) ∧
      (∀ i j k, i0 ≤ i → i ≤ i1 → j0 ≤ j → j ≤ j1 + 1 → k0 ≤ k → k ≤ k1 → F.El m1 (F.face3d1 f1 i0 j0 k0 i1 j1 k1 0) [j, k, i] (F.rd m (F.face3d1 b1 i0 j0 k0 i1 j1 k1 0) [j, k, i] * ((F.rd m (F.cell3d u i0 j0 k0 i1 j1 k1 gcw) [i, j, k] - F.rd m (F.cell3d u i0 j0 k0 i1 j1 k1 gcw) [i, j - 1, k]) / dx 1))) ∧
      (∀ i j k, i0 ≤ i → i ≤ i1 → j0 ≤ j → j ≤ j1 → k0 ≤ k → k ≤ k1 + 1 → F.El m1 (F.face3d2 f2 i0 j0 k0 i1 j1 k1 0) [k, i, j] (F.rd m (F.face3d2 b2 i0 j0 k0 i1 j1 k1 0) [k, i, j] * ((F.rd m (F.cell3d u i0 j0 k0 i1 j1 k1 gcw) [i, j, k] - F.rd m (F.cell3d u i0 j0 k0 i1 j1 k1 gcw) [i, j, k - 1]) / dx 2))) ∧
      (∀ i j k, i0 ≤ i → i ≤ i1 → j0 ≤ j → j ≤ j1 → k0 ≤ k → k ≤ k1 → F.El m2 (F.cell3d res i0 j0 k0 i1 j1 k1 rgcw) [i, j, k] (F.rd m (F.cell3d f i0 j0 k0 i1 j1 k1 fgcw) [i, j, k] + beta * ((F.rd m (F.face3d0 b0 i0 j0 k0 i1 j1 k1 0) [i + 1, j, k] * ((F.rd m (F.cell3d u i0 j0 k0 i1 j1 k1 gcw) [i + 1, j, k] - F.rd m (F.cell3d u i0 j0 k0 i1 j1 k1 gcw) [i, j, k]) / dx 0) - F.rd m (F.face3d0 b0 i0 j0 k0 i1 j1 k1 0) [i, j, k] * ((F.rd m (F.cell3d u i0 j0 k0 i1 j1 k1 gcw) [i, j, k] - F.rd m (F.cell3d u i0 j0 k0 i1 j1 k1 gcw) [i - 1, j, k]) / dx 0)) / dx 0 + (F.rd m (F.face3d1 b1 i0 j0 k0 i1 j1 k1 0) [j + 1, k, i] * ((F.rd m (F.cell3d u i0 j0 k0 i1 j1 k1 gcw) [i, j + 1, k] - F.rd m (F.cell3d u i0 j0 k0 i1 j1 k1 gcw) [i, j, k]) / dx 1) - F.rd m (F.face3d1 b1 i0 j0 k0 i1 j1 k1 0) [j, k, i] * ((F.rd m (F.cell3d u i0 j0 k0 i1 j1 k1 gcw) [i, j, k] - F.rd m (F.cell3d u i0 j0 k0 i1 j1 k1 gcw) [i, j - 1, k]) / dx 1)) / dx 1 + (F.rd m (F.face3d2 b2 i0 j0 k0 i1 j1 k1 0) [k + 1, i, j] * ((F.rd m (F.cell3d u i0 j0 k0 i1 j1 k1 gcw) [i, j, k + 1] - F.rd m (F.cell3d u i0 j0 k0 i1 j1 k1 gcw) [i, j, k]) / dx 2) - F.rd m (F.face3d2 b2 i0 j0 k0 i1 j1 k1 0) [k, i, j] * ((F.rd m (F.cell3d u i0 j0 k0 i1 j1 k1 gcw) [i, j, k] - F.rd m (F.cell3d u i0 j0 k0 i1 j1 k1 gcw) [i, j, k - 1]) / dx 2)) / dx 2) - alpha * F.rd m (F.cell3d a i0 j0 k0 i1 j1 k1 agcw) [i, j, k] * F.rd m (F.cell3d u i0 j0 k0 i1 j1 k1 gcw) [i, j, k])) := by
  have h1 : F.Args m [(F.cell3d u i0 j0 k0 i1 j1 k1 gcw), (F.face3d0 b0 i0 j0 k0 i1 j1 k1 0), (F.face3d1 b1 i0 j0 k0 i1 j1 k1 0), (F.face3d2 b2 i0 j0 k0 i1 j1 k1 0)] [(F.face3d0 f0 i0 j0 k0 i1 j1 k1 0), (F.face3d1 f1 i0 j0 k0 i1 j1 k1 0), (F.face3d2 f2 i0 j0 k0 i1 j1 k1 0)] := h.sub (by intro x hx; simp only [List.mem_cons, List.not_mem_nil, or_false] at hx ⊢; tauto) (by intro x hx; simp only [List.mem_cons, List.not_mem_nil, or_false] at hx ⊢; tauto)
  obtain ⟨m1, c1, K1, V0, V1, V2⟩ := cflux3_run (dx := dx) hβ1 hi hj hk hg h1 hp
  have h2 : F.Args m1 [(F.cell3d a i0 j0 k0 i1 j1 k1 agcw), (F.cell3d u i0 j0 k0 i1 j1 k1 gcw), (F.cell3d f i0 j0 k0 i1 j1 k1 fgcw), (F.face3d0 f0 i0 j0 k0 i1 j1 k1 0), (F.face3d1 f1 i0 j0 k0 i1 j1 k1 0), (F.face3d2 f2 i0 j0 k0 i1 j1 k1 0)] [(F.cell3d res i0 j0 k0 i1 j1 k1 rgcw)] := by
    refine ⟨fun a ha => K1.ok (h.ok a ?_), ?_⟩
    · simp only [List.mem_cons, List.mem_append, List.not_mem_nil, or_false] at ha ⊢; tauto
    · simp only [List.mem_cons, List.not_mem_nil, or_false, forall_eq_or_imp, forall_eq]
      exact ⟨h.apart _ (by simp) _ (by simp), h.apart _ (by simp) _ (by simp), h.apart _ (by simp) _ (by simp), hr.1, hr.2.1, hr.2.2⟩
  obtain ⟨m2, c2, K2, W⟩ := cres_v1_3 (alpha := alpha) (beta := beta) (dx := dx) (β := β2) hβ2 hi hj hk hagcw (by omega) hfgcw hrgcw h2
  refine ⟨m1, m2, c1, c2, K1, K2, V0, V1, V2, fun i j k h0 h1 h2 h3 h4 h5 => ?_⟩
  have w := W i j k h0 h1 h2 h3 h4 h5
  have e0a := (V0 (i + 1) j k (by omega) (by omega) (by omega) (by omega) (by omega) (by omega)).rd
  rw [add_sub_cancel_right] at e0a
  have e0b := (V0 i j k (by omega) (by omega) (by omega) (by omega) (by omega) (by omega)).rd
  have e1a := (V1 i (j + 1) k (by omega) (by omega) (by omega) (by omega) (by omega) (by omega)).rd
  rw [add_sub_cancel_right] at e1a
  have e1b := (V1 i j k (by omega) (by omega) (by omega) (by omega) (by omega) (by omega)).rd
  have e2a := (V2 i j (k + 1) (by omega) (by omega) (by omega) (by omega) (by omega) (by omega)).rd
  rw [add_sub_cancel_right] at e2a
  have e2b := (V2 i j k (by omega) (by omega) (by omega) (by omega) (by omega) (by omega)).rd
  have ea : F.rd m1 (F.cell3d a i0 j0 k0 i1 j1 k1 agcw) [i, j, k] = F.rd m (F.cell3d a i0 j0 k0 i1 j1 k1 agcw) [i, j, k] := K1.rd (by intro o ho; refine h.apart o ?_ _ (by simp); simp only [List.mem_cons, List.not_mem_nil, or_false] at ho ⊢; tauto) (by in_bounds)
  have eu : F.rd m1 (F.cell3d u i0 j0 k0 i1 j1 k1 gcw) [i, j, k] = F.rd m (F.cell3d u i0 j0 k0 i1 j1 k1 gcw) [i, j, k] := K1.rd (by intro o ho; refine h.apart o ?_ _ (by simp); simp only [List.mem_cons, List.not_mem_nil, or_false] at ho ⊢; tauto) (by in_bounds)
  have ef : F.rd m1 (F.cell3d f i0 j0 k0 i1 j1 k1 fgcw) [i, j, k] = F.rd m (F.cell3d f i0 j0 k0 i1 j1 k1 fgcw) [i, j, k] := K1.rd (by intro o ho; refine h.apart o ?_ _ (by simp); simp only [List.mem_cons, List.not_mem_nil, or_false] at ho ⊢; tauto) (by in_bounds)
  rw [e0a, e0b, e1a, e1b, e2a, e2b, ea, eu, ef] at w
  exact w

theorem rres_v2_3 {i0 j0 k0 i1 j1 k1 gcw fgcw rgcw : Int} {alpha beta : B64} {dx : Nat → B64} {u b0 b1 b2 f f0 f1 f2 res : Ptr} {β1 β2 : Nat → Backend} {m : Mem B64}
    (hβ1 : ∀ n, ValidBackend (β1 n)) (hβ2 : ∀ n, ValidBackend (β2 n)) (hi : i0 ≤ i1) (hj : j0 ≤ j1) (hk : k0 ≤ k1) (hg : 1 ≤ gcw) (hfgcw : 0 ≤ fgcw) (hrgcw : 0 ≤ rgcw)
    (h : F.Args m [(F.cell3d u i0 j0 k0 i1 j1 k1 gcw), (F.cell3d f i0 j0 k0 i1 j1 k1 fgcw), (F.face3d0 b0 i0 j0 k0 i1 j1 k1 0), (F.face3d1 b1 i0 j0 k0 i1 j1 k1 0), (F.face3d2 b2 i0 j0 k0 i1 j1 k1 0)] [(F.face3d0 f0 i0 j0 k0 i1 j1 k1 0), (F.face3d1 f1 i0 j0 k0 i1 j1 k1 0), (F.face3d2 f2 i0 j0 k0 i1 j1 k1 0), (F.cell3d res i0 j0 k0 i1 j1 k1 rgcw)])
    (hp : F.Apart (F.face3d0 f0 i0 j0 k0 i1 j1 k1 0) (F.face3d1 f1 i0 j0 k0 i1 j1 k1 0) ∧ F.Apart (F.face3d0 f0 i0 j0 k0 i1 j1 k1 0) (F.face3d2 f2 i0 j0 k0 i1 j1 k1 0) ∧ F.Apart (F.face3d1 f1 i0 j0 k0 i1 j1 k1 0) (F.face3d2 f2 i0 j0 k0 i1 j1 k1 0))
    (hr : F.Apart (F.cell3d res i0 j0 k0 i1 j1 k1 rgcw) (F.face3d0 f0 i0 j0 k0 i1 j1 k1 0) ∧ F.Apart (F.cell3d res i0 j0 k0 i1 j1 k1 rgcw) (F.face3d1 f1 i0 j0 k0 i1 j1 k1 0) ∧ F.Apart (F.cell3d res i0 j0 k0 i1 j1 k1 rgcw) (F.face3d2 f2 i0 j0 k0 i1 j1 k1 0)) :
    ∃ m1 m2, Cuda.flux3d i0 j0 k0 i1 j1 k1 dx b0 b1 b2 gcw u f0 f1 f2 β1 m = .ok m1 ∧ Cuda.diffusionV2Res3d i0 i1 j0 j1 k0 k1 alpha beta dx gcw u fgcw f f0 f1 f2 rgcw res β2 m1 = .ok m2 ∧ F.Kept [(F.face3d0 f0 i0 j0 k0 i1 j1 k1 0), (F.face3d1 f1 i0 j0 k0 i1 j1 k1 0), (F.face3d2 f2 i0 j0 k0 i1 j1 k1 0)] m m1 ∧ F.Kept [(F.cell3d res i0 j0 k0 i1 j1 k1 rgcw)] m1 m2 ∧
      (∀ i j k, i0 ≤ i → i ≤ i1 + 1 → j0 ≤ j → j ≤ j1 → k0 ≤ k → k ≤ k1 → F.El m1 (F.face3d0 f0 i0 j0 k0 i1 j1 k1 0) [i, j, k] (F.rd m (F.face3d0 b0 i0 j0 k0 i1 j1 k1 0) [i, j, k] * ((F.rd m (F.cell3d u i0 j0 k0 i1 j1 k1 gcw) [i, j, k] - F.rd m (F.cell3d u i0 j0 k0 i1 j1 k1 gcw) [i - 1, j, k]) / dx 0))) ∧
      (∀ i j k, i0 ≤ i → i ≤ i1 → j0 ≤ j → j ≤ j1 + 1 → k0 ≤ k → k ≤ k1 → F.El m1 (F.face3d1 f1 i0 j0 k0 i1 j1 k1 0) [j, k, i] (F.rd m (F.face3d1 b1 i0 j0 k0 i1 j1 k1 0) [j, k, i] * ((F.rd m (F.cell3d u i0 j0 k0 i1 j1 k1 gcw) [i, j, k] - F.rd m (F.cell3d u i0 j0 k0 i1 j1 k1 gcw) [i, j - 1, k]) / dx 1))) ∧
      (∀ i j k, i0 ≤ i → i ≤ i1 → j0 ≤ j → j ≤ j1 → k0 ≤ k → k ≤ k1 + 1 → F.El m1 (F.face3d2 f2 i0 j0 k0 i1 j1 k1 0) [k, i, j] (F.rd m (F.face3d2 b2 i0 j0 k0 i1 j1 k1 0) [k, i, j] * ((F.rd m (F.cell3d u i0 j0 k0 i1 j1 k1 gcw) [i, j, k] - F.rd m (F.cell3d u i0 j0 k0 i1 j1 k1 gcw) [i, j, k - 1]) / dx 2))) ∧
      (∀ i j k, i0 ≤ i → i ≤ i1 → j0 ≤ j → j ≤ j1 → k0 ≤ k → k ≤ k1 → F.El m2 (F.cell3d res i0 j0 k0 i1 j1 k1 rgcw) [i, j, k] (F.rd m (F.cell3d f i0 j0 k0 i1 j1 k1 fgcw) [i, j, k] + beta * ((F.rd m (F.face3d0 b0 i0 j0 k0 i1 j1 k1 0) [i + 1, j, k] * ((F.rd m (F.cell3d u i0 j0 k0 i1 j1 k1 gcw) [i + 1, j, k] - F.rd m (F.cell3d u i0 j0 k0 i1 j1 k1 gcw) [i, j, k]) / dx 0) - F.rd m (F.face3d0 b0 i0 j0 k0 i1 j1 k1 0) [i, j, k] * ((F.rd m (F.cell3d u i0 j0 k0 i1 j1 k1 gcw) [i, j, k] - F.rd m (F.cell3d u i0 j0 k0 i1 j1 k1 gcw) [i - 1, j, k]) / dx 0)) / dx 0 + (F.rd m (F.face3d1 b1 i0 j0 k0 i1 j1 k1 0) [j + 1, k, i] * ((F.rd m (F.cell3d u i0 j0 k0 i1 j1 k1 gcw) [i, j + 1, k] - F.rd m (F.cell3d u i0 j0 k0 i1 j1 k1 gcw) [i, j, k]) / dx 1) - F.rd m (F.face3d1 b1 i0 j0 k0 i1 j1 k1 0) [j, k, i] * ((F.rd m (F.cell3d u i0 j0 k0 i1 j1 k1 gcw) [i, j, k] - F.rd m (F.cell3d u i0 j0 k0 i1 j1 k1 gcw) [i, j - 1, k]) / dx 1)) / dx 1 + (F.rd m (F.face3d2 b2 i0 j0 k0 i1 j1 k1 0) [k + 1, i, j] * ((F.rd m (F.cell3d u i0 j0 k0 i1 j1 k1 gcw) [i, j, k + 1] - F.rd m (F.cell3d u i0 j0 k0 i1 j1 k1 gcw) [i, j, k]) / dx 2) - F.rd m (F.face3d2 b2 i0 j0 k0 i1 j1 k1 0) [k, i, j] * ((F.rd m (F.cell3d u i0 j0 k0 i1 j1 k1 gcw) [i, j, k] - F.rd m (F.cell3d u i0 j0 k0 i1 j1 k1 gcw) [i, j, k - 1]) / dx 2)) / dx 2) - alpha * F.rd m (F.cell3d u i0 j0 k0 i1 j1 k1 gcw) [i, j, k])) := by
  have h1 : F.Args m [(F.cell3d u i0 j0 k0 i1 j1 k1 gcw), (F.face3d0 b0 i0 j0 k0 i1 j1 k1 0), (F.face3d1 b1 i0 j0 k0 i1 j1 k1 0), (F.face3d2 b2 i0 j0 k0 i1 j1 k1 0)] [(F.face3d0 f0 i0 j0 k0 i1 j1 k1 0), (F.face3d1 f1 i0 j0 k0 i1 j1 k1 0), (F.face3d2 f2 i0 j0 k0 i1 j1 k1 0)] := h.sub (by intro x hx; simp only [List.mem_cons, List.not_mem_nil, or_false] at hx ⊢; tauto) (by intro x hx; simp only [List.mem_cons, List.not_mem_nil, or_false] at hx ⊢; tauto)
  obtain ⟨m1, c1, K1, V0, V1, V2⟩ := cflux3_run (dx := dx) hβ1 hi hj hk hg h1 hp
  have h2 : F.Args m1 [(F.cell3d u i0 j0 k0 i1 j1 k1 gcw), (F.cell3d f i0 j0 k0 i1 j1 k1 fgcw), (F.face3d0 f0 i0 j0 k0 i1 j1 k1 0), (F.face3d1 f1 i0 j0 k0 i1 j1 k1 0), (F.face3d2 f2 i0 j0 k0 i1 j1 k1 0)] [(F.cell3d res i0 j0 k0 i1 j1 k1 rgcw)] := by
    refine ⟨fun a ha => K1.ok (h.ok a ?_), ?_⟩
    · simp only [List.mem_cons, List.mem_append, List.not_mem_nil, or_false] at ha ⊢; tauto
    · simp only [List.mem_cons, List.not_mem_nil, or_false, forall_eq_or_imp, forall_eq]
      exact ⟨h.apart _ (by simp) _ (by simp), h.apart _ (by simp) _ (by simp), hr.1, hr.2.1, hr.2.2⟩
  obtain ⟨m2, c2, K2, W⟩ := cres_v2_3 (alpha := alpha) (beta := beta) (dx := dx) (β := β2) hβ2 hi hj hk (by omega) hfgcw hrgcw h2
  refine ⟨m1, m2, c1, c2, K1, K2, V0, V1, V2, fun i j k h0 h1 h2 h3 h4 h5 => ?_⟩
  have w := W i j k h0 h1 h2 h3 h4 h5
  have e0a := (V0 (i + 1) j k (by omega) (by omega) (by omega) (by omega) (by omega) (by omega)).rd
  rw [add_sub_cancel_right] at e0a
  have e0b := (V0 i j k (by omega) (by omega) (by omega) (by omega) (by omega) (by omega)).rd
  have e1a := (V1 i (j + 1) k (by omega) (by omega) (by omega) (by omega) (by omega) (by omega)).rd
  rw [add_sub_cancel_right] at e1a
  have e1b := (V1 i j k (by omega) (by omega) (by omega) (by omega) (by omega) (by omega)).rd
  have e2a := (V2 i j (k + 1) (by omega) (by omega) (by omega) (by omega) (by omega) (by omega)).rd
  rw [add_sub_cancel_right] at e2a
  have e2b := (V2 i j k (by omega) (by omega) (by omega) (by omega) (by omega) (by omega)).rd
  have eu : F.rd m1 (F.cell3d u i0 j0 k0 i1 j1 k1 gcw) [i, j, k] = F.rd m (F.cell3d u i0 j0 k0 i1 j1 k1 gcw) [i, j, k] := K1.rd (by intro o ho; refine h.apart o ?_ _ (by simp); simp only [List.mem_cons, List.not_mem_nil, or_false] at ho ⊢; tauto) (by in_bounds)
  have ef : F.rd m1 (F.cell3d f i0 j0 k0 i1 j1 k1 fgcw) [i, j, k] = F.rd m (F.cell3d f i0 j0 k0 i1 j1 k1 fgcw) [i, j, k] := K1.rd (by intro o ho; refine h.apart o ?_ _ (by simp); simp only [List.mem_cons, List.not_mem_nil, or_false] at ho ⊢; tauto) (by in_bounds)
  rw [e0a, e0b, e1a, e1b, e2a, e2b, eu, ef] at w
  exact w

theorem rres_p_3 {i0 j0 k0 i1 j1 k1 gcw fgcw rgcw : Int} {beta : B64} {dx : Nat → B64} {u f f0 f1 f2 res : Ptr} {β1 β2 : Nat → Backend} {m : Mem B64}
    (hβ1 : ∀ n, ValidBackend (β1 n)) (hβ2 : ∀ n, ValidBackend (β2 n)) (hi : i0 ≤ i1) (hj : j0 ≤ j1) (hk : k0 ≤ k1) (hg : 1 ≤ gcw) (hfgcw : 0 ≤ fgcw) (hrgcw : 0 ≤ rgcw)
    (h : F.Args m [(F.cell3d u i0 j0 k0 i1 j1 k1 gcw), (F.cell3d f i0 j0 k0 i1 j1 k1 fgcw)] [(F.face3d0 f0 i0 j0 k0 i1 j1 k1 0), (F.face3d1 f1 i0 j0 k0 i1 j1 k1 0), (F.face3d2 f2 i0 j0 k0 i1 j1 k1 0), (F.cell3d res i0 j0 k0 i1 j1 k1 rgcw)])
    (hp : F.Apart (F.face3d0 f0 i0 j0 k0 i1 j1 k1 0) (F.face3d1 f1 i0 j0 k0 i1 j1 k1 0) ∧ F.Apart (F.face3d0 f0 i0 j0 k0 i1 j1 k1 0) (F.face3d2 f2 i0 j0 k0 i1 j1 k1 0) ∧ F.Apart (F.face3d1 f1 i0 j0 k0 i1 j1 k1 0) (F.face3d2 f2 i0 j0 k0 i1 j1 k1 0))
    (hr : F.Apart (F.cell3d res i0 j0 k0 i1 j1 k1 rgcw) (F.face3d0 f0 i0 j0 k0 i1 j1 k1 0) ∧ F.Apart (F.cell3d res i0 j0 k0 i1 j1 k1 rgcw) (F.face3d1 f1 i0 j0 k0 i1 j1 k1 0) ∧ F.Apart (F.cell3d res i0 j0 k0 i1 j1 k1 rgcw) (F.face3d2 f2 i0 j0 k0 i1 j1 k1 0)) :
    ∃ m1 m2, Cuda.poissonFlux3d i0 j0 k0 i1 j1 k1 dx gcw u f0 f1 f2 β1 m = .ok m1 ∧ Cuda.poissonV1Res3d i0 i1 j0 j1 k0 k1 beta dx fgcw f f0 f1 f2 rgcw res β2 m1 = .ok m2 ∧ F.Kept [(F.face3d0 f0 i0 j0 k0 i1 j1 k1 0), (F.face3d1 f1 i0 j0 k0 i1 j1 k1 0), (F.face3d2 f2 i0 j0 k0 i1 j1 k1 0)] m m1 ∧ F.Kept [(F.cell3d res i0 j0 k0 i1 j1 k1 rgcw)] m1 m2 ∧
      (∀ i j k, i0 ≤ i → i ≤ i1 + 1 → j0 ≤ j → j ≤ j1 → k0 ≤ k → k ≤ k1 → F.El m1 (F.face3d0 f0 i0 j0 k0 i1 j1 k1 0) [i, j, k] ((F.rd m (F.cell3d u i0 j0 k0 i1 j1 k1 gcw) [i, j, k] - F.rd m (F.cell3d u i0 j0 k0 i1 j1 k1 gcw) [i - 1, j, k]) / dx 0)) ∧
      (∀ i j k, i0 ≤ i → i ≤ i1 → j0 ≤ j → j ≤ j1 + 1 → k0 ≤ k → k ≤ k1 → F.El m1 (F.face3d1 f1 i0 j0 k0 i1 j1 k1 0) [j, k, i] ((F.rd m (F.cell3d u i0 j0 k0 i1 j1 k1 gcw) [i, j, k] - F.rd m (F.cell3d u i0 j0 k0 i1 j1 k1 gcw) [i, j - 1, k]) / dx 1)) ∧
      (∀ i j k, i0 ≤ i → i ≤ i1 → j0 ≤ j → j ≤ j1 → k0 ≤ k → k ≤ k1 + 1 → F.El m1 (F.face3d2 f2 i0 j0 k0 i1 j1 k1 0) [k, i, j] ((F.rd m (F.cell3d u i0 j0 k0 i1 j1 k1 gcw) [i, j, k] - F.rd m (F.cell3d u i0 j0 k0 i1 j1 k1 gcw) [i, j, k - 1]) / dx 2)) ∧
      (∀ i j k, i0 ≤ i → i ≤ i1 → j0 ≤ j → j ≤ j1 → k0 ≤ k → k ≤ k1 → F.El m2 (F.cell3d res i0 j0 k0 i1 j1 k1 rgcw) [i, j, k] (F.rd m (F.cell3d f i0 j0 k0 i1 j1 k1 fgcw) [i, j, k] + beta * (((F.rd m (F.cell3d u i0 j0 k0 i1 j1 k1 gcw) [i + 1, j, k] - F.rd m (F.cell3d u i0 j0 k0 i1 j1 k1 gcw) [i, j, k]) / dx 0 - (F.rd m (F.cell3d u i0 j0 k0 i1 j1 k1 gcw) [i, j, k] - F.rd m (F.cell3d u i0 j0 k0 i1 j1 k1 gcw) [i - 1, j, k]) / dx 0) / dx 0 + ((F.rd m (F.cell3d u i0 j0 k0 i1 j1 k1 gcw) [i, j + 1, k] - F.rd m (F.cell3d u i0 j0 k0 i1 j1 k1 gcw) [i, j, k]) / dx 1 - (F.rd m (F.cell3d u i0 j0 k0 i1 j1 k1 gcw) [i, j, k] - F.rd m (F.cell3d u i0 j0 k0 i1 j1 k1 gcw) [i, j - 1, k]) / dx 1) / dx 1 + ((F.rd m (F.cell3d u i0 j0 k0 i1 j1 k1 gcw) [i, j, k + 1] - F.rd m (F.cell3d u i0 j0 k0 i1 j1 k1 gcw) [i, j, k]) / dx 2 - (F.rd m (F.cell3d u i0 j0 k0 i1 j1 k1 gcw) [i, j, k] - F.rd m (F.cell3d u i0 j0 k0 i1 j1 k1 gcw) [i, j, k - 1]) / dx 2) / dx 2))) := by
  have h1 : F.Args m [(F.cell3d u i0 j0 k0 i1 j1 k1 gcw)] [(F.face3d0 f0 i0 j0 k0 i1 j1 k1 0), (F.face3d1 f1 i0 j0 k0 i1 j1 k1 0), (F.face3d2 f2 i0 j0 k0 i1 j1 k1 0)] := h.sub (by intro x hx; simp only [List.mem_cons, List.not_mem_nil, or_false] at hx ⊢; tauto) (by intro x hx; simp only [List.mem_cons, List.not_mem_nil, or_false] at hx ⊢; tauto)
  obtain ⟨m1, q1, -, K1, V0, V1, V2⟩ := pflux3_run (dx := dx) hi hj hk hg h1 hp
  obtain ⟨m1', c1, e1⟩ := C49_flux_poisson_3d (dx := dx) (β := β1) hβ1 hi hj hk hg h1
  obtain rfl : m1 = m1' := Except.ok.inj (q1.symm.trans e1)
  have h2 : F.Args m1 [(F.cell3d f i0 j0 k0 i1 j1 k1 fgcw), (F.face3d0 f0 i0 j0 k0 i1 j1 k1 0), (F.face3d1 f1 i0 j0 k0 i1 j1 k1 0), (F.face3d2 f2 i0 j0 k0 i1 j1 k1 0)] [(F.cell3d res i0 j0 k0 i1 j1 k1 rgcw)] := by
    refine ⟨fun a ha => K1.ok (h.ok a ?_), ?_⟩
    · simp only [List.mem_cons, List.mem_append, List.not_mem_nil, or_false] at ha ⊢; tauto
    · simp only [List.mem_cons, List.not_mem_nil, or_false, forall_eq_or_imp, forall_eq]
      exact ⟨h.apart _ (by simp) _ (by simp), hr.1, hr.2.1, hr.2.2⟩
  obtain ⟨m2, c2, K2, W⟩ := cres_p_3 (beta := beta) (dx := dx) (β := β2) hβ2 hi hj hk hfgcw hrgcw h2
  refine ⟨m1, m2, c1, c2, K1, K2, V0, V1, V2, fun i j k h0 h1 h2 h3 h4 h5 => ?_⟩
  have w := W i j k h0 h1 h2 h3 h4 h5
  have e0a := (V0 (i + 1) j k (by omega) (by omega) (by omega) (by omega) (by omega) (by omega)).rd
  rw [add_sub_cancel_right] at e0a
  have e0b := (V0 i j k (by omega) (by omega) (by omega) (by omega) (by omega) (by omega)).rd
  have e1a := (V1 i (j + 1) k (by omega) (by omega) (by omega) (by omega) (by omega) (by omega)).rd
  rw [add_sub_cancel_right] at e1a
  have e1b := (V1 i j k (by omega) (by omega) (by omega) (by omega) (by omega) (by omega)).rd
  have e2a := (V2 i j (k + 1) (by omega) (by omega) (by omega) (by omega) (by omega) (by omega)).rd
  rw [add_sub_cancel_right] at e2a
  have e2b := (V2 i j k (by omega) (by omega) (by omega) (by omega) (by omega) (by omega)).rd
  have ef : F.rd m1 (F.cell3d f i0 j0 k0 i1 j1 k1 fgcw) [i, j, k] = F.rd m (F.cell3d f i0 j0 k0 i1 j1 k1 fgcw) [i, j, k] := K1.rd (by intro o ho; refine h.apart o ?_ _ (by simp); simp only [List.mem_cons, List.not_mem_nil, or_false] at ho ⊢; tauto) (by in_bounds)
  rw [e0a, e0b, e1a, e1b, e2a, e2b, ef] at w
  exact w

theorem rres_d_3 {i0 j0 k0 i1 j1 k1 gcw fgcw rgcw : Int} {beta : B64} {dx : Nat → B64} {u b0 b1 b2 f f0 f1 f2 res : Ptr} {β1 β2 : Nat → Backend} {m : Mem B64}
    (hβ1 : ∀ n, ValidBackend (β1 n)) (hβ2 : ∀ n, ValidBackend (β2 n)) (hi : i0 ≤ i1) (hj : j0 ≤ j1) (hk : k0 ≤ k1) (hg : 1 ≤ gcw) (hfgcw : 0 ≤ fgcw) (hrgcw : 0 ≤ rgcw)
    (h : F.Args m [(F.cell3d u i0 j0 k0 i1 j1 k1 gcw), (F.cell3d f i0 j0 k0 i1 j1 k1 fgcw), (F.face3d0 b0 i0 j0 k0 i1 j1 k1 0), (F.face3d1 b1 i0 j0 k0 i1 j1 k1 0), (F.face3d2 b2 i0 j0 k0 i1 j1 k1 0)] [(F.face3d0 f0 i0 j0 k0 i1 j1 k1 0), (F.face3d1 f1 i0 j0 k0 i1 j1 k1 0), (F.face3d2 f2 i0 j0 k0 i1 j1 k1 0), (F.cell3d res i0 j0 k0 i1 j1 k1 rgcw)])
    (hp : F.Apart (F.face3d0 f0 i0 j0 k0 i1 j1 k1 0) (F.face3d1 f1 i0 j0 k0 i1 j1 k1 0) ∧ F.Apart (F.face3d0 f0 i0 j0 k0 i1 j1 k1 0) (F.face3d2 f2 i0 j0 k0 i1 j1 k1 0) ∧ F.Apart (F.face3d1 f1 i0 j0 k0 i1 j1 k1 0) (F.face3d2 f2 i0 j0 k0 i1 j1 k1 0))
    (hr : F.Apart (F.cell3d res i0 j0 k0 i1 j1 k1 rgcw) (F.face3d0 f0 i0 j0 k0 i1 j1 k1 0) ∧ F.Apart (F.cell3d res i0 j0 k0 i1 j1 k1 rgcw) (F.face3d1 f1 i0 j0 k0 i1 j1 k1 0) ∧ F.Apart (F.cell3d res i0 j0 k0 i1 j1 k1 rgcw) (F.face3d2 f2 i0 j0 k0 i1 j1 k1 0)) :
    ∃ m1 m2, Cuda.flux3d i0 j0 k0 i1 j1 k1 dx b0 b1 b2 gcw u f0 f1 f2 β1 m = .ok m1 ∧ Cuda.poissonV1Res3d i0 i1 j0 j1 k0 k1 beta dx fgcw f f0 f1 f2 rgcw res β2 m1 = .ok m2 ∧ F.Kept [(F.face3d0 f0 i0 j0 k0 i1 j1 k1 0), (F.face3d1 f1 i0 j0 k0 i1 j1 k1 0), (F.face3d2 f2 i0 j0 k0 i1 j1 k1 0)] m m1 ∧ F.Kept [(F.cell3d res i0 j0 k0 i1 j1 k1 rgcw)] m1 m2 ∧
      (∀ i j k, i0 ≤ i → i ≤ i1 + 1 → j0 ≤ j → j ≤ j1 → k0 ≤ k → k ≤ k1 → F.El m1 (F.face3d0 f0 i0 j0 k0 i1 j1 k1 0) [i, j, k] (F.rd m (F.face3d0 b0 i0 j0 k0 i1 j1 k1 0) [i, j, k] * ((F.rd m (F.cell3d u i0 j0 k0 i1 j1 k1 gcw) [i, j, k] - F.rd m (F.cell3d u i0 j0 k0 i1 j1 k1 gcw) [i - 1, j, k]) / dx 0))) ∧
      (∀ i j k, i0 ≤ i → i ≤ i1 → j0 ≤ j → j ≤ j1 + 1 → k0 ≤ k → k ≤ k1 → F.El m1 (F.face3d1 f1 i0 j0 k0 i1 j1 k1 0) [j, k, i] (F.rd m (F.face3d1 b1 i0 j0 k0 i1 j1 k1 0) [j, k, i] * ((F.rd m (F.cell3d u i0 j0 k0 i1 j1 k1 gcw) [i, j, k] - F.rd m (F.cell3d u i0 j0 k0 i1 j1 k1 gcw) [i, j - 1, k]) / dx 1))) ∧
      (∀ i j k, i0 ≤ i → i ≤ i1 → j0 ≤ j → j ≤ j1 → k0 ≤ k → k ≤ k1 + 1 → F.El m1 (F.face3d2 f2 i0 j0 k0 i1 j1 k1 0) [k, i, j] (F.rd m (F.face3d2 b2 i0 j0 k0 i1 j1 k1 0) [k, i, j] * ((F.rd m (F.cell3d u i0 j0 k0 i1 j1 k1 gcw) [i, j, k] - F.rd m (F.cell3d u i0 j0 k0 i1 j1 k1 gcw) [i, j, k - 1]) / dx 2))) ∧
      (∀ i j k, i0 ≤ i → i ≤ i1 → j0 ≤ j → j ≤ j1 → k0 ≤ k → k ≤ k1 → F.El m2 (F.cell3d res i0 j0 k0 i1 j1 k1 rgcw) [i, j, k] (F.rd m (F.cell3d f i0 j0 k0 i1 j1 k1 fgcw) [i, j, k] + beta * ((F.rd m (F.face3d0 b0 i0 j0 k0 i1 j1 k1 0) [i + 1, j, k] * ((F.rd m (F.cell3d u i0 j0 k0 i1 j1 k1 gcw) [i + 1, j, k] - F.rd m (F.cell3d u i0 j0 k0 i1 j1 k1 gcw) [i, j, k]) / dx 0) - F.rd m (F.face3d0 b0 i0 j0 k0 i1 j1 k1 0) [i, j, k] * ((F.rd m (F.cell3d u i0 j0 k0 i1 j1 k1 gcw) [i, j, k] - F.rd m (F.cell3d u i0 j0 k0 i1 j1 k1 gcw) [i - 1, j, k]) / dx 0)) / dx 0 + (F.rd m (F.face3d1 b1 i0 j0 k0 i1 j1 k1 0) [j + 1, k, i] * ((F.rd m (F.cell3d u i0 j0 k0 i1 j1 k1 gcw) [i, j + 1, k] - F.rd m (F.cell3d u i0 j0 k0 i1 j1 k1 gcw) [i, j, k]) / dx 1) - F.rd m (F.face3d1 b1 i0 j0 k0 i1 j1 k1 0) [j, k, i] * ((F.rd m (F.cell3d u i0 j0 k0 i1 j1 k1 gcw) [i, j, k] - F.rd m (F.cell3d u i0 j0 k0 i1 j1 k1 gcw) [i, j - 1, k]) / dx 1)) / dx 1 + (F.rd m (F.face3d2 b2 i0 j0 k0 i1 j1 k1 0) [k + 1, i, j] * ((F.rd m (F.cell3d u i0 j0 k0 i1 j1 k1 gcw) [i, j, k + 1] - F.rd m (F.cell3d u i0 j0 k0 i1 j1 k1 gcw) [i, j, k]) / dx 2) - F.rd m (F.face3d2 b2 i0 j0 k0 i1 j1 k1 0) [k, i, j] * ((F.rd m (F.cell3d u i0 j0 k0 i1 j1 k1 gcw) [i, j, k] - F.rd m (F.cell3d u i0 j0 k0 i1 j1 k1 gcw) [i, j, k - 1]) / dx 2)) / dx 2))) := by
  have h1 : F.Args m [(F.cell3d u i0 j0 k0 i1 j1 k1 gcw), (F.face3d0 b0 i0 j0 k0 i1 j1 k1 0), (F.face3d1 b1 i0 j0 k0 i1 j1 k1 0), (F.face3d2 b2 i0 j0 k0 i1 j1 k1 0)] [(F.face3d0 f0 i0 j0 k0 i1 j1 k1 0), (F.face3d1 f1 i0 j0 k0 i1 j1 k1 0), (F.face3d2 f2 i0 j0 k0 i1 j1 k1 0)] := h.sub (by intro x hx; simp only [List.mem_cons, List.not_mem_nil, or_false] at hx ⊢; tauto) (by intro x hx; simp only [List.mem_cons, List.not_mem_nil, or_false] at hx ⊢; tauto)
  obtain ⟨m1, c1, K1, V0, V1, V2⟩ := cflux3_run (dx := dx) hβ1 hi hj hk hg h1 hp
  have h2 : F.Args m1 [(F.cell3d f i0 j0 k0 i1 j1 k1 fgcw), (F.face3d0 f0 i0 j0 k0 i1 j1 k1 0), (F.face3d1 f1 i0 j0 k0 i1 j1 k1 0), (F.face3d2 f2 i0 j0 k0 i1 j1 k1 0)] [(F.cell3d res i0 j0 k0 i1 j1 k1 rgcw)] := by
    refine ⟨fun a ha => K1.ok (h.ok a ?_), ?_⟩
    · simp only [List.mem_cons, List.mem_append, List.not_mem_nil, or_false] at ha ⊢; tauto
    · simp only [List.mem_cons, List.not_mem_nil, or_false, forall_eq_or_imp, forall_eq]
      exact ⟨h.apart _ (by simp) _ (by simp), hr.1, hr.2.1, hr.2.2⟩
  obtain ⟨m2, c2, K2, W⟩ := cres_p_3 (beta := beta) (dx := dx) (β := β2) hβ2 hi hj hk hfgcw hrgcw h2
  refine ⟨m1, m2, c1, c2, K1, K2, V0, V1, V2, fun i j k h0 h1 h2 h3 h4 h5 => ?_⟩
  have w := W i j k h0 h1 h2 h3 h4 h5
  have e0a := (V0 (i + 1) j k (by omega) (by omega) (by omega) (by omega) (by omega) (by omega)).rd
  rw [add_sub_cancel_right] at e0a
  have e0b := (V0 i j k (by omega) (by omega) (by omega) (by omega) (by omega) (by omega)).rd
  have e1a := (V1 i (j + 1) k (by omega) (by omega) (by omega) (by omega) (by omega) (by omega)).rd
  rw [add_sub_cancel_right] at e1a
  have e1b := (V1 i j k (by omega) (by omega) (by omega) (by omega) (by omega) (by omega)).rd
  have e2a := (V2 i j (k + 1) (by omega) (by omega) (by omega) (by omega) (by omega) (by omega)).rd
  rw [add_sub_cancel_right] at e2a
  have e2b := (V2 i j k (by omega) (by omega) (by omega) (by omega) (by omega) (by omega)).rd
  have ef : F.rd m1 (F.cell3d f i0 j0 k0 i1 j1 k1 fgcw) [i, j, k] = F.rd m (F.cell3d f i0 j0 k0 i1 j1 k1 fgcw) [i, j, k] := K1.rd (by intro o ho; refine h.apart o ?_ _ (by simp); simp only [List.mem_cons, List.not_mem_nil, or_false] at ho ⊢; tauto) (by in_bounds)
  rw [e0a, e0b, e1a, e1b, e2a, e2b, ef] at w
  exact w

end Verif
