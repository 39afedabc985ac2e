import Verif.Lemmas.Eliminate
import Verif.Props.RoundStencil

/-
What the adjustment kernels and the diagonal kernels do to the rows.
-/

set_option linter.unusedVariables false
set_option linter.unusedSectionVars false
set_option linter.unusedSimpArgs false
set_option linter.unusedTactic false
set_option linter.unreachableTactic false

namespace Verif
open Spec

/-! ### the layers -/

section
variable {c : List Int}

theorem layer1_iff {pi0 side : Int} : (∃ p ∈ F.nestPts [] (fun _ => pi0 - 2 * side + 1), (fun _ : Pt => [pi0 - 2 * side + 1]) p = c) ↔ F.layer1 pi0 side c := by
  simp [F.nestPts, F.layer1, eq_comm]

theorem layer2_0_iff {pi0 pj0 pi1 pj1 side : Int} : (∃ p ∈ F.nestPts [(.J, pj0, pj1)] (fun _ => pi0 - 2 * side + 1), (fun p : Pt => [pi0 - 2 * side + 1, p .J]) p = c) ↔
    F.layer2 pi0 pj0 pi1 pj1 0 side c := by
  unfold F.layer2
  constructor
  · rintro ⟨p, hp, rfl⟩
    have h := ((F.mem_nestPts (by simp)).1 hp).1
    simp only [List.mem_cons, List.not_mem_nil, or_false, forall_eq_or_imp, forall_eq] at h
    refine ⟨_, _, rfl, ?_⟩
    omega
  · rintro ⟨i, j, rfl, h⟩
    have h : i = pi0 - 2 * side + 1 ∧ pj0 ≤ j ∧ j ≤ pj1 := by omega
    refine ⟨fun d => if d = .J then j else pi0 - 2 * side + 1, (F.mem_nestPts (by simp)).2 ⟨?_, ?_⟩, ?_⟩
    · simp only [List.mem_cons, List.not_mem_nil, or_false, forall_eq_or_imp, forall_eq]
      simp
      omega
    · intro d hd
      simp only [List.map_cons, List.map_nil, List.mem_cons, List.not_mem_nil, or_false, not_or] at hd
      simp [hd]
    · simp [h.1]

theorem layer2_1_iff {pi0 pj0 pi1 pj1 side : Int} : (∃ p ∈ F.nestPts [(.I, pi0, pi1)] (fun _ => pj0 - 2 * side + 1), (fun p : Pt => [p .I, pj0 - 2 * side + 1]) p = c) ↔
    F.layer2 pi0 pj0 pi1 pj1 1 side c := by
  unfold F.layer2
  constructor
  · rintro ⟨p, hp, rfl⟩
    have h := ((F.mem_nestPts (by simp)).1 hp).1
    simp only [List.mem_cons, List.not_mem_nil, or_false, forall_eq_or_imp, forall_eq] at h
    refine ⟨_, _, rfl, ?_⟩
    omega
  · rintro ⟨i, j, rfl, h⟩
    have h : j = pj0 - 2 * side + 1 ∧ pi0 ≤ i ∧ i ≤ pi1 := by omega
    refine ⟨fun d => if d = .I then i else pj0 - 2 * side + 1, (F.mem_nestPts (by simp)).2 ⟨?_, ?_⟩, ?_⟩
    · simp only [List.mem_cons, List.not_mem_nil, or_false, forall_eq_or_imp, forall_eq]
      simp
      omega
    · intro d hd
      simp only [List.map_cons, List.map_nil, List.mem_cons, List.not_mem_nil, or_false, not_or] at hd
      simp [hd]
    · simp [h.1]

theorem layer3_0_iff {pi0 pj0 pk0 pi1 pj1 pk1 side : Int} : (∃ p ∈ F.nestPts [(.K, pk0, pk1), (.J, pj0, pj1)] (fun _ => pi0 - 2 * side + 1), (fun p : Pt => [pi0 - 2 * side + 1, p .J, p .K]) p = c) ↔
    F.layer3 pi0 pj0 pk0 pi1 pj1 pk1 0 side c := by
  unfold F.layer3
  constructor
  · rintro ⟨p, hp, rfl⟩
    have h := ((F.mem_nestPts (by simp)).1 hp).1
    simp only [List.mem_cons, List.not_mem_nil, or_false, forall_eq_or_imp, forall_eq] at h
    refine ⟨_, _, _, rfl, ?_⟩
    omega
  · rintro ⟨i, j, k, rfl, h⟩
    have h : i = pi0 - 2 * side + 1 ∧ pj0 ≤ j ∧ j ≤ pj1 ∧ pk0 ≤ k ∧ k ≤ pk1 := by omega
    refine ⟨fun d => if d = .J then j else if d = .K then k else pi0 - 2 * side + 1, (F.mem_nestPts (by simp)).2 ⟨?_, ?_⟩, ?_⟩
    · simp only [List.mem_cons, List.not_mem_nil, or_false, forall_eq_or_imp, forall_eq]
      simp
      omega
    · intro d hd
      simp only [List.map_cons, List.map_nil, List.mem_cons, List.not_mem_nil, or_false, not_or] at hd
      simp [hd]
    · simp [h.1]

theorem layer3_1_iff {pi0 pj0 pk0 pi1 pj1 pk1 side : Int} : (∃ p ∈ F.nestPts [(.K, pk0, pk1), (.I, pi0, pi1)] (fun _ => pj0 - 2 * side + 1), (fun p : Pt => [p .I, pj0 - 2 * side + 1, p .K]) p = c) ↔
    F.layer3 pi0 pj0 pk0 pi1 pj1 pk1 1 side c := by
  unfold F.layer3
  constructor
  · rintro ⟨p, hp, rfl⟩
    have h := ((F.mem_nestPts (by simp)).1 hp).1
    simp only [List.mem_cons, List.not_mem_nil, or_false, forall_eq_or_imp, forall_eq] at h
    refine ⟨_, _, _, rfl, ?_⟩
    omega
  · rintro ⟨i, j, k, rfl, h⟩
    have h : j = pj0 - 2 * side + 1 ∧ pi0 ≤ i ∧ i ≤ pi1 ∧ pk0 ≤ k ∧ k ≤ pk1 := by omega
    refine ⟨fun d => if d = .I then i else if d = .K then k else pj0 - 2 * side + 1, (F.mem_nestPts (by simp)).2 ⟨?_, ?_⟩, ?_⟩
    · simp only [List.mem_cons, List.not_mem_nil, or_false, forall_eq_or_imp, forall_eq]
      simp
      omega
    · intro d hd
      simp only [List.map_cons, List.map_nil, List.mem_cons, List.not_mem_nil, or_false, not_or] at hd
      simp [hd]
    · simp [h.1]

theorem layer3_2_iff {pi0 pj0 pk0 pi1 pj1 pk1 side : Int} : (∃ p ∈ F.nestPts [(.J, pj0, pj1), (.I, pi0, pi1)] (fun _ => pk0 - 2 * side + 1), (fun p : Pt => [p .I, p .J, pk0 - 2 * side + 1]) p = c) ↔
    F.layer3 pi0 pj0 pk0 pi1 pj1 pk1 2 side c := by
  unfold F.layer3
  constructor
  · rintro ⟨p, hp, rfl⟩
    have h := ((F.mem_nestPts (by simp)).1 hp).1
    simp only [List.mem_cons, List.not_mem_nil, or_false, forall_eq_or_imp, forall_eq] at h
    refine ⟨_, _, _, rfl, ?_⟩
    omega
  · rintro ⟨i, j, k, rfl, h⟩
    have h : k = pk0 - 2 * side + 1 ∧ pi0 ≤ i ∧ i ≤ pi1 ∧ pj0 ≤ j ∧ j ≤ pj1 := by omega
    refine ⟨fun d => if d = .I then i else if d = .J then j else pk0 - 2 * side + 1, (F.mem_nestPts (by simp)).2 ⟨?_, ?_⟩, ?_⟩
    · simp only [List.mem_cons, List.not_mem_nil, or_false, forall_eq_or_imp, forall_eq]
      simp
      omega
    · intro d hd
      simp only [List.map_cons, List.map_nil, List.mem_cons, List.not_mem_nil, or_false, not_or] at hd
      simp [hd]
    · simp [h.1]

end

variable {T : Type} [Field T]

/-! ### the adjustments -/

theorem adjoff1_does {i0 i1 pi0 pi1 side btype exOrder sgcw : Int} {dx : Nat → T} {dir_factor neu_factor beta : T} {b0_ st_ : Ptr} {β : Backend} {m : Mem T}
    (hβ : ValidBackend β) (hi : i0 ≤ i1) (hg : 0 ≤ sgcw) (hl : Layer1 i0 i1 0 pi0 pi1 side)
    (hq : (btype = 0 ∧ exOrder = 1 ∧ dir_factor = 2) ∨ (btype = 0 ∧ exOrder = 2) ∨ btype = 1 ∨ (btype = 4 ∧ exOrder = 1))
    (h : F.Args m [(F.face1d b0_ i0 i1 0)] [(F.st1d st_ i0 i1 sgcw)]) :
    F.Adjusts (Cuda.adjOffdiag1d i0 i1 pi0 pi1 side btype exOrder dx dir_factor neu_factor beta b0_ sgcw st_ β m) m (F.st1d st_ i0 i1 sgcw) (F.layer1 pi0 side) (1 + side) (2 - side) (fun c => facU btype exOrder (dx 0) (F.onFace1 (F.rd m (F.face1d b0_ i0 i1 0)) side c)) (fun _ => facV btype exOrder) := by
  have hst := h.ok (F.st1d st_ i0 i1 sgcw) (by simp)
  obtain ⟨Ast, spst, Ii⟩ := st1_setup hst hi hg
  have hb0 := h.ok (F.face1d b0_ i0 i1 0) (by simp)
  obtain ⟨Ab0, plI, J0⟩ := face1_setup hb0 hi
  have Pb0 : Apart (sSt1 st_ i0 i1 sgcw) (sFace1 b0_ i0 i1) := apart_of farr_st1 farr_face1 (h.apart _ (by simp) _ (by simp))
  have mkI := mkB_near (d := .I) (lo := i0) (hi := i1) (by rng)
  have mkW := mkB_near (d := .W) (lo := 0) (hi := 2) (by rng)
  obtain ⟨hs, hx, nI⟩ := hl
  unfold Cuda.adjOffdiag1d
  rw [← farr_st1]
  rcases hs with rfl | rfl
  · show F.Adjusts _ m _ _ 1 2 _ _
    refine F.Adjusts.bind mkI <| F.Adjusts.bind mkW <| F.Adjusts.bind spst <| F.Adjusts.bind plI <| F.Adjusts.bind (y := (1 : Int)) rfl <| F.Adjusts.bind (y := (2 : Int)) rfl <| F.Adjusts.bind (localize_ok (l := pi0 - 2 * 0 + 1) (by omega) nI.1 rfl) <| ?_
    rcases hq with ⟨rfl, rfl, rfl⟩ | ⟨rfl, rfl⟩ | rfl | ⟨rfl, rfl⟩
    · simp only [↓reduceIte, Int.reduceEq]
      exact (adj0_1 (seg1 (x := pi0 - 2 * 0 + 1) Ast (by omega) rfl) hβ (by omega) (by omega) (by decide)).congr (fun c => layer1_iff) (fun c hc => by simp [facU]) (fun c hc => by simp [facV])
    · simp only [↓reduceIte, Int.reduceEq]
      exact (adj0_2 (seg1 (x := pi0 - 2 * 0 + 1) Ast (by omega) rfl) hβ (by omega) (by omega) (by decide)).congr (fun c => layer1_iff) (fun c hc => by simp [facU]) (fun c hc => by simp [facV])
    · simp only [↓reduceIte, Int.reduceEq]
      exact (adj1 (seg1 (x := pi0 - 2 * 0 + 1) Ast (by omega) rfl) hβ (by omega) (by omega) (by decide)).congr (fun c => layer1_iff) (fun c hc => by simp [facU]) (fun c hc => by simp [facV])
    · simp only [↓reduceIte, Int.reduceEq]
      exact (adj4_1 (seg1 (x := pi0 - 2 * 0 + 1) Ast (by omega) rfl) hβ (by omega) (by omega) (by decide) (face_at1 (e := pi0 - 2 * 0 + 1 + 0) Ab0 Pb0 (by omega) (by omega) rfl) (b := fun c => F.onFace1 (F.rd m (F.face1d b0_ i0 i1 0)) 0 c) (fun p hp => by simp [F.onFace1])).congr (fun c => layer1_iff) (fun c hc => by simp [facU]) (fun c hc => by simp [facV])
  · show F.Adjusts _ m _ _ 2 1 _ _
    refine F.Adjusts.bind mkI <| F.Adjusts.bind mkW <| F.Adjusts.bind spst <| F.Adjusts.bind plI <| F.Adjusts.bind (y := (2 : Int)) rfl <| F.Adjusts.bind (y := (1 : Int)) rfl <| F.Adjusts.bind (localize_ok (l := pi0 - 2 * 1 + 1) (by omega) nI.1 rfl) <| ?_
    rcases hq with ⟨rfl, rfl, rfl⟩ | ⟨rfl, rfl⟩ | rfl | ⟨rfl, rfl⟩
    · simp only [↓reduceIte, Int.reduceEq]
      exact (adj0_1 (seg1 (x := pi0 - 2 * 1 + 1) Ast (by omega) rfl) hβ (by omega) (by omega) (by decide)).congr (fun c => layer1_iff) (fun c hc => by simp [facU]) (fun c hc => by simp [facV])
    · simp only [↓reduceIte, Int.reduceEq]
      exact (adj0_2 (seg1 (x := pi0 - 2 * 1 + 1) Ast (by omega) rfl) hβ (by omega) (by omega) (by decide)).congr (fun c => layer1_iff) (fun c hc => by simp [facU]) (fun c hc => by simp [facV])
    · simp only [↓reduceIte, Int.reduceEq]
      exact (adj1 (seg1 (x := pi0 - 2 * 1 + 1) Ast (by omega) rfl) hβ (by omega) (by omega) (by decide)).congr (fun c => layer1_iff) (fun c hc => by simp [facU]) (fun c hc => by simp [facV])
    · simp only [↓reduceIte, Int.reduceEq]
      exact (adj4_1 (seg1 (x := pi0 - 2 * 1 + 1) Ast (by omega) rfl) hβ (by omega) (by omega) (by decide) (face_at1 (e := pi0 - 2 * 1 + 1 + 1) Ab0 Pb0 (by omega) (by omega) rfl) (b := fun c => F.onFace1 (F.rd m (F.face1d b0_ i0 i1 0)) 1 c) (fun p hp => by simp [F.onFace1])).congr (fun c => layer1_iff) (fun c hc => by simp [facU]) (fun c hc => by simp [facV])

theorem padjoff1_does {i0 i1 pi0 pi1 side btype exOrder sgcw : Int} {dx : Nat → T} {dir_factor neu_factor beta : T} {st_ : Ptr} {β : Backend} {m : Mem T}
    (hβ : ValidBackend β) (hi : i0 ≤ i1) (hg : 0 ≤ sgcw) (hl : Layer1 i0 i1 0 pi0 pi1 side)
    (hq : (btype = 0 ∧ exOrder = 1 ∧ dir_factor = 2) ∨ (btype = 0 ∧ exOrder = 2) ∨ btype = 1 ∨ (btype = 4 ∧ exOrder = 1))
    (h : F.Args m [] [(F.st1d st_ i0 i1 sgcw)]) :
    F.Adjusts (Cuda.adjPoissonOffdiag1d i0 i1 pi0 pi1 side btype exOrder dx dir_factor neu_factor beta sgcw st_ β m) m (F.st1d st_ i0 i1 sgcw) (F.layer1 pi0 side) (1 + side) (2 - side) (fun c => facU btype exOrder (dx 0) 1) (fun _ => facV btype exOrder) := by
  have hst := h.ok (F.st1d st_ i0 i1 sgcw) (by simp)
  obtain ⟨Ast, spst, Ii⟩ := st1_setup hst hi hg
  have mkI := mkB_near (d := .I) (lo := i0) (hi := i1) (by rng)
  have mkW := mkB_near (d := .W) (lo := 0) (hi := 2) (by rng)
  obtain ⟨hs, hx, nI⟩ := hl
  unfold Cuda.adjPoissonOffdiag1d
  rw [← farr_st1]
  rcases hs with rfl | rfl
  · show F.Adjusts _ m _ _ 1 2 _ _
    refine F.Adjusts.bind mkI <| F.Adjusts.bind mkW <| F.Adjusts.bind spst <| F.Adjusts.bind (y := (1 : Int)) rfl <| F.Adjusts.bind (y := (2 : Int)) rfl <| F.Adjusts.bind (localize_ok (l := pi0 - 2 * 0 + 1) (by omega) nI.1 rfl) <| ?_
    rcases hq with ⟨rfl, rfl, rfl⟩ | ⟨rfl, rfl⟩ | rfl | ⟨rfl, rfl⟩
    · simp only [↓reduceIte, Int.reduceEq]
      exact (adj0_1 (seg1 (x := pi0 - 2 * 0 + 1) Ast (by omega) rfl) hβ (by omega) (by omega) (by decide)).congr (fun c => layer1_iff) (fun c hc => by simp [facU]) (fun c hc => by simp [facV])
    · simp only [↓reduceIte, Int.reduceEq]
      exact (adj0_2 (seg1 (x := pi0 - 2 * 0 + 1) Ast (by omega) rfl) hβ (by omega) (by omega) (by decide)).congr (fun c => layer1_iff) (fun c hc => by simp [facU]) (fun c hc => by simp [facV])
    · simp only [↓reduceIte, Int.reduceEq]
      exact (adj1 (seg1 (x := pi0 - 2 * 0 + 1) Ast (by omega) rfl) hβ (by omega) (by omega) (by decide)).congr (fun c => layer1_iff) (fun c hc => by simp [facU]) (fun c hc => by simp [facV])
    · simp only [↓reduceIte, Int.reduceEq]
      exact (padj4_1 (seg1 (x := pi0 - 2 * 0 + 1) Ast (by omega) rfl) hβ (by omega) (by omega) (by decide)).congr (fun c => layer1_iff) (fun c hc => by simp [facU]) (fun c hc => by simp [facV])
  · show F.Adjusts _ m _ _ 2 1 _ _
    refine F.Adjusts.bind mkI <| F.Adjusts.bind mkW <| F.Adjusts.bind spst <| F.Adjusts.bind (y := (2 : Int)) rfl <| F.Adjusts.bind (y := (1 : Int)) rfl <| F.Adjusts.bind (localize_ok (l := pi0 - 2 * 1 + 1) (by omega) nI.1 rfl) <| ?_
    rcases hq with ⟨rfl, rfl, rfl⟩ | ⟨rfl, rfl⟩ | rfl | ⟨rfl, rfl⟩
    · simp only [↓reduceIte, Int.reduceEq]
      exact (adj0_1 (seg1 (x := pi0 - 2 * 1 + 1) Ast (by omega) rfl) hβ (by omega) (by omega) (by decide)).congr (fun c => layer1_iff) (fun c hc => by simp [facU]) (fun c hc => by simp [facV])
    · simp only [↓reduceIte, Int.reduceEq]
      exact (adj0_2 (seg1 (x := pi0 - 2 * 1 + 1) Ast (by omega) rfl) hβ (by omega) (by omega) (by decide)).congr (fun c => layer1_iff) (fun c hc => by simp [facU]) (fun c hc => by simp [facV])
    · simp only [↓reduceIte, Int.reduceEq]
      exact (adj1 (seg1 (x := pi0 - 2 * 1 + 1) Ast (by omega) rfl) hβ (by omega) (by omega) (by decide)).congr (fun c => layer1_iff) (fun c hc => by simp [facU]) (fun c hc => by simp [facV])
    · simp only [↓reduceIte, Int.reduceEq]
      exact (padj4_1 (seg1 (x := pi0 - 2 * 1 + 1) Ast (by omega) rfl) hβ (by omega) (by omega) (by decide)).congr (fun c => layer1_iff) (fun c hc => by simp [facU]) (fun c hc => by simp [facV])

theorem adjoff2_does {i0 j0 i1 j1 pi0 pj0 pi1 pj1 dir side btype exOrder sgcw : Int} {dx : Nat → T} {dir_factor neu_factor beta : T} {b0_ b1_ st_ : Ptr} {β : Backend} {m : Mem T}
    (hβ : ValidBackend β) (hi : i0 ≤ i1) (hj : j0 ≤ j1) (hg : 0 ≤ sgcw) (hl : Layer2 i0 j0 i1 j1 0 pi0 pj0 pi1 pj1 dir side)
    (hq : (btype = 0 ∧ exOrder = 1 ∧ dir_factor = 2) ∨ (btype = 0 ∧ exOrder = 2) ∨ btype = 1 ∨ (btype = 4 ∧ exOrder = 1 ∧ dir = 0))
    (h : F.Args m [(F.face2d0 b0_ i0 j0 i1 j1 0), (F.face2d1 b1_ i0 j0 i1 j1 0)] [(F.st2d st_ i0 j0 i1 j1 sgcw)]) :
    F.Adjusts (Cuda.adjOffdiag2d i0 j0 i1 j1 pi0 pj0 pi1 pj1 dir side btype exOrder dx dir_factor neu_factor beta b0_ b1_ sgcw st_ β m) m (F.st2d st_ i0 j0 i1 j1 sgcw) (F.layer2 pi0 pj0 pi1 pj1 dir side) (2 * dir + 1 + side) (2 * dir + 2 - side) (fun c => facU btype exOrder (dx dir.toNat) (F.onFace2 (F.rd m (F.face2d0 b0_ i0 j0 i1 j1 0)) (F.rd m (F.face2d1 b1_ i0 j0 i1 j1 0)) dir side c)) (fun _ => facV btype exOrder) := by
  have hst := h.ok (F.st2d st_ i0 j0 i1 j1 sgcw) (by simp)
  obtain ⟨Ast, spst, Ii, Ij⟩ := st2_setup hst hi hj hg
  have hb0 := h.ok (F.face2d0 b0_ i0 j0 i1 j1 0) (by simp)
  obtain ⟨Ab0, plI, J0⟩ := face20_setup hb0 hi hj
  have Pb0 : Apart (sSt2 st_ i0 j0 i1 j1 sgcw) (sFace20 b0_ i0 j0 i1 j1) := apart_of farr_st2 farr_face20 (h.apart _ (by simp) _ (by simp))
  have hb1 := h.ok (F.face2d1 b1_ i0 j0 i1 j1 0) (by simp)
  obtain ⟨Ab1, plJ, J1⟩ := face21_setup hb1 hi hj
  have Pb1 : Apart (sSt2 st_ i0 j0 i1 j1 sgcw) (sFace21 b1_ i0 j0 i1 j1) := apart_of farr_st2 farr_face21 (h.apart _ (by simp) _ (by simp))
  have mkI := mkB_near (d := .I) (lo := i0) (hi := i1) (by rng)
  have mkJ := mkB_near (d := .J) (lo := j0) (hi := j1) (by rng)
  have mkW := mkB_near (d := .W) (lo := 0) (hi := 4) (by rng)
  obtain ⟨hd, hs, hx, hy, nI, nJ⟩ := hl
  have mkPI := mkB_near (d := .I) (lo := pi0) nI.2
  have mkPJ := mkB_near (d := .J) (lo := pj0) nJ.2
  have hd : dir = 0 ∨ dir = 1 := by omega
  unfold Cuda.adjOffdiag2d
  rw [← farr_st2]
  rcases hd with rfl | rfl <;> rcases hs with rfl | rfl
  · replace hx := hx rfl
    show F.Adjusts _ m _ _ 1 2 _ _
    refine F.Adjusts.bind mkI <| F.Adjusts.bind mkPI <| F.Adjusts.bind mkJ <| F.Adjusts.bind mkPJ <| F.Adjusts.bind mkW <| F.Adjusts.bind spst <| F.Adjusts.bind plI <| F.Adjusts.bind plJ <| F.Adjusts.bind (y := dx 0) rfl <| F.Adjusts.bind (y := (1 : Int)) rfl <| F.Adjusts.bind (y := (2 : Int)) rfl <| F.Adjusts.bind (localize_ok (l := pi0 - 2 * 0 + 1) (by omega) nI.1 rfl) <| F.Adjusts.bind (localize_ok (l := pj0 - 2 * 0 + 1) (by omega) nJ.1 rfl) <| ?_
    rcases hq with ⟨rfl, rfl, rfl⟩ | ⟨rfl, rfl⟩ | rfl | ⟨rfl, rfl, hd⟩
    · simp only [↓reduceIte, Int.reduceEq]
      exact (adj0_1 (seg2_0 (x := pi0 - 2 * 0 + 1) Ast (by omega) (by omega) rfl) hβ (by omega) (by omega) (by decide)).congr (fun c => layer2_0_iff) (fun c hc => by simp [facU]) (fun c hc => by simp [facV])
    · simp only [↓reduceIte, Int.reduceEq]
      exact (adj0_2 (seg2_0 (x := pi0 - 2 * 0 + 1) Ast (by omega) (by omega) rfl) hβ (by omega) (by omega) (by decide)).congr (fun c => layer2_0_iff) (fun c hc => by simp [facU]) (fun c hc => by simp [facV])
    · simp only [↓reduceIte, Int.reduceEq]
      exact (adj1 (seg2_0 (x := pi0 - 2 * 0 + 1) Ast (by omega) (by omega) rfl) hβ (by omega) (by omega) (by decide)).congr (fun c => layer2_0_iff) (fun c hc => by simp [facU]) (fun c hc => by simp [facV])
    · simp only [↓reduceIte, Int.reduceEq]
      exact (adj4_1 (seg2_0 (x := pi0 - 2 * 0 + 1) Ast (by omega) (by omega) rfl) hβ (by omega) (by omega) (by decide) (face_at20 (e := pi0 - 2 * 0 + 1 + 0) Ab0 Pb0 (by omega) (by omega) (by omega) rfl) (b := fun c => F.onFace2 (F.rd m (F.face2d0 b0_ i0 j0 i1 j1 0)) (F.rd m (F.face2d1 b1_ i0 j0 i1 j1 0)) 0 0 c) (fun p hp => by simp [F.onFace2])).congr (fun c => layer2_0_iff) (fun c hc => by simp [facU]) (fun c hc => by simp [facV])
  · replace hx := hx rfl
    show F.Adjusts _ m _ _ 2 1 _ _
    refine F.Adjusts.bind mkI <| F.Adjusts.bind mkPI <| F.Adjusts.bind mkJ <| F.Adjusts.bind mkPJ <| F.Adjusts.bind mkW <| F.Adjusts.bind spst <| F.Adjusts.bind plI <| F.Adjusts.bind plJ <| F.Adjusts.bind (y := dx 0) rfl <| F.Adjusts.bind (y := (2 : Int)) rfl <| F.Adjusts.bind (y := (1 : Int)) rfl <| F.Adjusts.bind (localize_ok (l := pi0 - 2 * 1 + 1) (by omega) nI.1 rfl) <| F.Adjusts.bind (localize_ok (l := pj0 - 2 * 1 + 1) (by omega) nJ.1 rfl) <| ?_
    rcases hq with ⟨rfl, rfl, rfl⟩ | ⟨rfl, rfl⟩ | rfl | ⟨rfl, rfl, hd⟩
    · simp only [↓reduceIte, Int.reduceEq]
      exact (adj0_1 (seg2_0 (x := pi0 - 2 * 1 + 1) Ast (by omega) (by omega) rfl) hβ (by omega) (by omega) (by decide)).congr (fun c => layer2_0_iff) (fun c hc => by simp [facU]) (fun c hc => by simp [facV])
    · simp only [↓reduceIte, Int.reduceEq]
      exact (adj0_2 (seg2_0 (x := pi0 - 2 * 1 + 1) Ast (by omega) (by omega) rfl) hβ (by omega) (by omega) (by decide)).congr (fun c => layer2_0_iff) (fun c hc => by simp [facU]) (fun c hc => by simp [facV])
    · simp only [↓reduceIte, Int.reduceEq]
      exact (adj1 (seg2_0 (x := pi0 - 2 * 1 + 1) Ast (by omega) (by omega) rfl) hβ (by omega) (by omega) (by decide)).congr (fun c => layer2_0_iff) (fun c hc => by simp [facU]) (fun c hc => by simp [facV])
    · simp only [↓reduceIte, Int.reduceEq]
      exact (adj4_1 (seg2_0 (x := pi0 - 2 * 1 + 1) Ast (by omega) (by omega) rfl) hβ (by omega) (by omega) (by decide) (face_at20 (e := pi0 - 2 * 1 + 1 + 1) Ab0 Pb0 (by omega) (by omega) (by omega) rfl) (b := fun c => F.onFace2 (F.rd m (F.face2d0 b0_ i0 j0 i1 j1 0)) (F.rd m (F.face2d1 b1_ i0 j0 i1 j1 0)) 0 1 c) (fun p hp => by simp [F.onFace2])).congr (fun c => layer2_0_iff) (fun c hc => by simp [facU]) (fun c hc => by simp [facV])
  · replace hy := hy rfl
    show F.Adjusts _ m _ _ 3 4 _ _
    refine F.Adjusts.bind mkI <| F.Adjusts.bind mkPI <| F.Adjusts.bind mkJ <| F.Adjusts.bind mkPJ <| F.Adjusts.bind mkW <| F.Adjusts.bind spst <| F.Adjusts.bind plI <| F.Adjusts.bind plJ <| F.Adjusts.bind (y := dx 1) rfl <| F.Adjusts.bind (y := (3 : Int)) rfl <| F.Adjusts.bind (y := (4 : Int)) rfl <| F.Adjusts.bind (localize_ok (l := pi0 - 2 * 0 + 1) (by omega) nI.1 rfl) <| F.Adjusts.bind (localize_ok (l := pj0 - 2 * 0 + 1) (by omega) nJ.1 rfl) <| ?_
    rcases hq with ⟨rfl, rfl, rfl⟩ | ⟨rfl, rfl⟩ | rfl | ⟨rfl, rfl, hd⟩
    · simp only [↓reduceIte, Int.reduceEq]
      exact (adj0_1 (seg2_1 (x := pj0 - 2 * 0 + 1) Ast (by omega) (by omega) rfl) hβ (by omega) (by omega) (by decide)).congr (fun c => layer2_1_iff) (fun c hc => by simp [facU]) (fun c hc => by simp [facV])
    · simp only [↓reduceIte, Int.reduceEq]
      exact (adj0_2 (seg2_1 (x := pj0 - 2 * 0 + 1) Ast (by omega) (by omega) rfl) hβ (by omega) (by omega) (by decide)).congr (fun c => layer2_1_iff) (fun c hc => by simp [facU]) (fun c hc => by simp [facV])
    · simp only [↓reduceIte, Int.reduceEq]
      exact (adj1 (seg2_1 (x := pj0 - 2 * 0 + 1) Ast (by omega) (by omega) rfl) hβ (by omega) (by omega) (by decide)).congr (fun c => layer2_1_iff) (fun c hc => by simp [facU]) (fun c hc => by simp [facV])
    · exact absurd hd (by decide)
  · replace hy := hy rfl
    show F.Adjusts _ m _ _ 4 3 _ _
    refine F.Adjusts.bind mkI <| F.Adjusts.bind mkPI <| F.Adjusts.bind mkJ <| F.Adjusts.bind mkPJ <| F.Adjusts.bind mkW <| F.Adjusts.bind spst <| F.Adjusts.bind plI <| F.Adjusts.bind plJ <| F.Adjusts.bind (y := dx 1) rfl <| F.Adjusts.bind (y := (4 : Int)) rfl <| F.Adjusts.bind (y := (3 : Int)) rfl <| F.Adjusts.bind (localize_ok (l := pi0 - 2 * 1 + 1) (by omega) nI.1 rfl) <| F.Adjusts.bind (localize_ok (l := pj0 - 2 * 1 + 1) (by omega) nJ.1 rfl) <| ?_
    rcases hq with ⟨rfl, rfl, rfl⟩ | ⟨rfl, rfl⟩ | rfl | ⟨rfl, rfl, hd⟩
    · simp only [↓reduceIte, Int.reduceEq]
      exact (adj0_1 (seg2_1 (x := pj0 - 2 * 1 + 1) Ast (by omega) (by omega) rfl) hβ (by omega) (by omega) (by decide)).congr (fun c => layer2_1_iff) (fun c hc => by simp [facU]) (fun c hc => by simp [facV])
    · simp only [↓reduceIte, Int.reduceEq]
      exact (adj0_2 (seg2_1 (x := pj0 - 2 * 1 + 1) Ast (by omega) (by omega) rfl) hβ (by omega) (by omega) (by decide)).congr (fun c => layer2_1_iff) (fun c hc => by simp [facU]) (fun c hc => by simp [facV])
    · simp only [↓reduceIte, Int.reduceEq]
      exact (adj1 (seg2_1 (x := pj0 - 2 * 1 + 1) Ast (by omega) (by omega) rfl) hβ (by omega) (by omega) (by decide)).congr (fun c => layer2_1_iff) (fun c hc => by simp [facU]) (fun c hc => by simp [facV])
    · exact absurd hd (by decide)

theorem padjoff2_does {i0 j0 i1 j1 pi0 pj0 pi1 pj1 dir side btype exOrder sgcw : Int} {dx : Nat → T} {dir_factor neu_factor beta : T} {st_ : Ptr} {β : Backend} {m : Mem T}
    (hβ : ValidBackend β) (hi : i0 ≤ i1) (hj : j0 ≤ j1) (hg : 0 ≤ sgcw) (hl : Layer2 i0 j0 i1 j1 0 pi0 pj0 pi1 pj1 dir side)
    (hq : (btype = 0 ∧ exOrder = 1 ∧ dir_factor = 2) ∨ (btype = 0 ∧ exOrder = 2) ∨ btype = 1 ∨ (btype = 4 ∧ exOrder = 1 ∧ dir = 0))
    (h : F.Args m [] [(F.st2d st_ i0 j0 i1 j1 sgcw)]) :
    F.Adjusts (Cuda.adjPoissonOffdiag2d i0 j0 i1 j1 pi0 pj0 pi1 pj1 dir side btype exOrder dx dir_factor neu_factor beta sgcw st_ β m) m (F.st2d st_ i0 j0 i1 j1 sgcw) (F.layer2 pi0 pj0 pi1 pj1 dir side) (2 * dir + 1 + side) (2 * dir + 2 - side) (fun c => facU btype exOrder (dx dir.toNat) 1) (fun _ => facV btype exOrder) := by
  have hst := h.ok (F.st2d st_ i0 j0 i1 j1 sgcw) (by simp)
  obtain ⟨Ast, spst, Ii, Ij⟩ := st2_setup hst hi hj hg
  have mkI := mkB_near (d := .I) (lo := i0) (hi := i1) (by rng)
  have mkJ := mkB_near (d := .J) (lo := j0) (hi := j1) (by rng)
  have mkW := mkB_near (d := .W) (lo := 0) (hi := 4) (by rng)
  obtain ⟨hd, hs, hx, hy, nI, nJ⟩ := hl
  have mkPI := mkB_near (d := .I) (lo := pi0) nI.2
  have mkPJ := mkB_near (d := .J) (lo := pj0) nJ.2
  have hd : dir = 0 ∨ dir = 1 := by omega
  unfold Cuda.adjPoissonOffdiag2d
  rw [← farr_st2]
  rcases hd with rfl | rfl <;> rcases hs with rfl | rfl
  · replace hx := hx rfl
    show F.Adjusts _ m _ _ 1 2 _ _
    refine F.Adjusts.bind mkI <| F.Adjusts.bind mkPI <| F.Adjusts.bind mkJ <| F.Adjusts.bind mkPJ <| F.Adjusts.bind mkW <| F.Adjusts.bind spst <| F.Adjusts.bind (y := dx 0) rfl <| F.Adjusts.bind (y := (1 : Int)) rfl <| F.Adjusts.bind (y := (2 : Int)) rfl <| F.Adjusts.bind (localize_ok (l := pi0 - 2 * 0 + 1) (by omega) nI.1 rfl) <| F.Adjusts.bind (localize_ok (l := pj0 - 2 * 0 + 1) (by omega) nJ.1 rfl) <| ?_
    rcases hq with ⟨rfl, rfl, rfl⟩ | ⟨rfl, rfl⟩ | rfl | ⟨rfl, rfl, hd⟩
    · simp only [↓reduceIte, Int.reduceEq]
      exact (adj0_1 (seg2_0 (x := pi0 - 2 * 0 + 1) Ast (by omega) (by omega) rfl) hβ (by omega) (by omega) (by decide)).congr (fun c => layer2_0_iff) (fun c hc => by simp [facU]) (fun c hc => by simp [facV])
    · simp only [↓reduceIte, Int.reduceEq]
      exact (adj0_2 (seg2_0 (x := pi0 - 2 * 0 + 1) Ast (by omega) (by omega) rfl) hβ (by omega) (by omega) (by decide)).congr (fun c => layer2_0_iff) (fun c hc => by simp [facU]) (fun c hc => by simp [facV])
    · simp only [↓reduceIte, Int.reduceEq]
      exact (adj1 (seg2_0 (x := pi0 - 2 * 0 + 1) Ast (by omega) (by omega) rfl) hβ (by omega) (by omega) (by decide)).congr (fun c => layer2_0_iff) (fun c hc => by simp [facU]) (fun c hc => by simp [facV])
    · simp only [↓reduceIte, Int.reduceEq]
      exact (padj4_1 (seg2_0 (x := pi0 - 2 * 0 + 1) Ast (by omega) (by omega) rfl) hβ (by omega) (by omega) (by decide)).congr (fun c => layer2_0_iff) (fun c hc => by simp [facU]) (fun c hc => by simp [facV])
  · replace hx := hx rfl
    show F.Adjusts _ m _ _ 2 1 _ _
    refine F.Adjusts.bind mkI <| F.Adjusts.bind mkPI <| F.Adjusts.bind mkJ <| F.Adjusts.bind mkPJ <| F.Adjusts.bind mkW <| F.Adjusts.bind spst <| F.Adjusts.bind (y := dx 0) rfl <| F.Adjusts.bind (y := (2 : Int)) rfl <| F.Adjusts.bind (y := (1 : Int)) rfl <| F.Adjusts.bind (localize_ok (l := pi0 - 2 * 1 + 1) (by omega) nI.1 rfl) <| F.Adjusts.bind (localize_ok (l := pj0 - 2 * 1 + 1) (by omega) nJ.1 rfl) <| ?_
    rcases hq with ⟨rfl, rfl, rfl⟩ | ⟨rfl, rfl⟩ | rfl | ⟨rfl, rfl, hd⟩
    · simp only [↓reduceIte, Int.reduceEq]
      exact (adj0_1 (seg2_0 (x := pi0 - 2 * 1 + 1) Ast (by omega) (by omega) rfl) hβ (by omega) (by omega) (by decide)).congr (fun c => layer2_0_iff) (fun c hc => by simp [facU]) (fun c hc => by simp [facV])
    · simp only [↓reduceIte, Int.reduceEq]
      exact (adj0_2 (seg2_0 (x := pi0 - 2 * 1 + 1) Ast (by omega) (by omega) rfl) hβ (by omega) (by omega) (by decide)).congr (fun c => layer2_0_iff) (fun c hc => by simp [facU]) (fun c hc => by simp [facV])
    · simp only [↓reduceIte, Int.reduceEq]
      exact (adj1 (seg2_0 (x := pi0 - 2 * 1 + 1) Ast (by omega) (by omega) rfl) hβ (by omega) (by omega) (by decide)).congr (fun c => layer2_0_iff) (fun c hc => by simp [facU]) (fun c hc => by simp [facV])
    · simp only [↓reduceIte, Int.reduceEq]
      exact (padj4_1 (seg2_0 (x := pi0 - 2 * 1 + 1) Ast (by omega) (by omega) rfl) hβ (by omega) (by omega) (by decide)).congr (fun c => layer2_0_iff) (fun c hc => by simp [facU]) (fun c hc => by simp [facV])
  · replace hy := hy rfl
    show F.Adjusts _ m _ _ 3 4 _ _
    refine F.Adjusts.bind mkI <| F.Adjusts.bind mkPI <| F.Adjusts.bind mkJ <| F.Adjusts.bind mkPJ <| F.Adjusts.bind mkW <| F.Adjusts.bind spst <| F.Adjusts.bind (y := dx 1) rfl <| F.Adjusts.bind (y := (3 : Int)) rfl <| F.Adjusts.bind (y := (4 : Int)) rfl <| F.Adjusts.bind (localize_ok (l := pi0 - 2 * 0 + 1) (by omega) nI.1 rfl) <| F.Adjusts.bind (localize_ok (l := pj0 - 2 * 0 + 1) (by omega) nJ.1 rfl) <| ?_
    rcases hq with ⟨rfl, rfl, rfl⟩ | ⟨rfl, rfl⟩ | rfl | ⟨rfl, rfl, hd⟩
    · simp only [↓reduceIte, Int.reduceEq]
      exact (adj0_1 (seg2_1 (x := pj0 - 2 * 0 + 1) Ast (by omega) (by omega) rfl) hβ (by omega) (by omega) (by decide)).congr (fun c => layer2_1_iff) (fun c hc => by simp [facU]) (fun c hc => by simp [facV])
    · simp only [↓reduceIte, Int.reduceEq]
      exact (adj0_2 (seg2_1 (x := pj0 - 2 * 0 + 1) Ast (by omega) (by omega) rfl) hβ (by omega) (by omega) (by decide)).congr (fun c => layer2_1_iff) (fun c hc => by simp [facU]) (fun c hc => by simp [facV])
    · simp only [↓reduceIte, Int.reduceEq]
      exact (adj1 (seg2_1 (x := pj0 - 2 * 0 + 1) Ast (by omega) (by omega) rfl) hβ (by omega) (by omega) (by decide)).congr (fun c => layer2_1_iff) (fun c hc => by simp [facU]) (fun c hc => by simp [facV])
    · exact absurd hd (by decide)
  · replace hy := hy rfl
    show F.Adjusts _ m _ _ 4 3 _ _
    refine F.Adjusts.bind mkI <| F.Adjusts.bind mkPI <| F.Adjusts.bind mkJ <| F.Adjusts.bind mkPJ <| F.Adjusts.bind mkW <| F.Adjusts.bind spst <| F.Adjusts.bind (y := dx 1) rfl <| F.Adjusts.bind (y := (4 : Int)) rfl <| F.Adjusts.bind (y := (3 : Int)) rfl <| F.Adjusts.bind (localize_ok (l := pi0 - 2 * 1 + 1) (by omega) nI.1 rfl) <| F.Adjusts.bind (localize_ok (l := pj0 - 2 * 1 + 1) (by omega) nJ.1 rfl) <| ?_
    rcases hq with ⟨rfl, rfl, rfl⟩ | ⟨rfl, rfl⟩ | rfl | ⟨rfl, rfl, hd⟩
    · simp only [↓reduceIte, Int.reduceEq]
      exact (adj0_1 (seg2_1 (x := pj0 - 2 * 1 + 1) Ast (by omega) (by omega) rfl) hβ (by omega) (by omega) (by decide)).congr (fun c => layer2_1_iff) (fun c hc => by simp [facU]) (fun c hc => by simp [facV])
    · simp only [↓reduceIte, Int.reduceEq]
      exact (adj0_2 (seg2_1 (x := pj0 - 2 * 1 + 1) Ast (by omega) (by omega) rfl) hβ (by omega) (by omega) (by decide)).congr (fun c => layer2_1_iff) (fun c hc => by simp [facU]) (fun c hc => by simp [facV])
    · simp only [↓reduceIte, Int.reduceEq]
      exact (adj1 (seg2_1 (x := pj0 - 2 * 1 + 1) Ast (by omega) (by omega) rfl) hβ (by omega) (by omega) (by decide)).congr (fun c => layer2_1_iff) (fun c hc => by simp [facU]) (fun c hc => by simp [facV])
    · exact absurd hd (by decide)

theorem adjoff3_does {i0 j0 k0 i1 j1 k1 pi0 pj0 pk0 pi1 pj1 pk1 dir side btype exOrder sgcw : Int} {dx : Nat → T} {dir_factor neu_factor beta : T} {b0_ b1_ b2_ st_ : Ptr} {β : Backend} {m : Mem T}
    (hβ : ValidBackend β) (hi : i0 ≤ i1) (hj : j0 ≤ j1) (hk : k0 ≤ k1) (hg : 0 ≤ sgcw) (hl : Layer3 i0 j0 k0 i1 j1 k1 0 pi0 pj0 pk0 pi1 pj1 pk1 dir side)
    (hq : (btype = 0 ∧ exOrder = 1 ∧ dir_factor = 2) ∨ (btype = 0 ∧ exOrder = 2) ∨ btype = 1 ∨ (btype = 4 ∧ exOrder = 1))
    (h : F.Args m [(F.face3d0 b0_ i0 j0 k0 i1 j1 k1 0), (F.face3d1 b1_ i0 j0 k0 i1 j1 k1 0), (F.face3d2 b2_ i0 j0 k0 i1 j1 k1 0)] [(F.st3d st_ i0 j0 k0 i1 j1 k1 sgcw)]) :
    F.Adjusts (Cuda.adjOffdiag3d i0 j0 k0 i1 j1 k1 pi0 pj0 pk0 pi1 pj1 pk1 dir side btype exOrder dx dir_factor neu_factor beta b0_ b1_ b2_ sgcw st_ β m) m (F.st3d st_ i0 j0 k0 i1 j1 k1 sgcw) (F.layer3 pi0 pj0 pk0 pi1 pj1 pk1 dir side) (2 * dir + 1 + side) (2 * dir + 2 - side) (fun c => facU btype exOrder (dx dir.toNat) (F.onFace3 (F.rd m (F.face3d0 b0_ i0 j0 k0 i1 j1 k1 0)) (F.rd m (F.face3d1 b1_ i0 j0 k0 i1 j1 k1 0)) (F.rd m (F.face3d2 b2_ i0 j0 k0 i1 j1 k1 0)) dir side c)) (fun _ => facV btype exOrder) := by
  have hst := h.ok (F.st3d st_ i0 j0 k0 i1 j1 k1 sgcw) (by simp)
  obtain ⟨Ast, spst, Ii, Ij, Ik⟩ := st3_setup hst hi hj hk hg
  have hb0 := h.ok (F.face3d0 b0_ i0 j0 k0 i1 j1 k1 0) (by simp)
  obtain ⟨Ab0, plI, J0⟩ := face30_setup hb0 hi hj hk
  have Pb0 : Apart (sSt3 st_ i0 j0 k0 i1 j1 k1 sgcw) (sFace30 b0_ i0 j0 k0 i1 j1 k1) := apart_of farr_st3 farr_face30 (h.apart _ (by simp) _ (by simp))
  have hb1 := h.ok (F.face3d1 b1_ i0 j0 k0 i1 j1 k1 0) (by simp)
  obtain ⟨Ab1, plJ, J1⟩ := face31_setup hb1 hi hj hk
  have Pb1 : Apart (sSt3 st_ i0 j0 k0 i1 j1 k1 sgcw) (sFace31 b1_ i0 j0 k0 i1 j1 k1) := apart_of farr_st3 farr_face31 (h.apart _ (by simp) _ (by simp))
  have hb2 := h.ok (F.face3d2 b2_ i0 j0 k0 i1 j1 k1 0) (by simp)
  obtain ⟨Ab2, plK, J2⟩ := face32_setup hb2 hi hj hk
  have Pb2 : Apart (sSt3 st_ i0 j0 k0 i1 j1 k1 sgcw) (sFace32 b2_ i0 j0 k0 i1 j1 k1) := apart_of farr_st3 farr_face32 (h.apart _ (by simp) _ (by simp))
  have mkI := mkB_near (d := .I) (lo := i0) (hi := i1) (by rng)
  have mkJ := mkB_near (d := .J) (lo := j0) (hi := j1) (by rng)
  have mkK := mkB_near (d := .K) (lo := k0) (hi := k1) (by rng)
  have mkW := mkB_near (d := .W) (lo := 0) (hi := 6) (by rng)
  obtain ⟨hd, hs, hx, hy, hz, nI, nJ, nK⟩ := hl
  have mkPI := mkB_near (d := .I) (lo := pi0) nI.2
  have mkPJ := mkB_near (d := .J) (lo := pj0) nJ.2
  have mkPK := mkB_near (d := .K) (lo := pk0) nK.2
  have hd : dir = 0 ∨ dir = 1 ∨ dir = 2 := by omega
  unfold Cuda.adjOffdiag3d
  rw [← farr_st3]
  rcases hd with rfl | rfl | rfl <;> rcases hs with rfl | rfl
  · replace hx := hx rfl
    show F.Adjusts _ m _ _ 1 2 _ _
    refine F.Adjusts.bind mkI <| F.Adjusts.bind mkPI <| F.Adjusts.bind mkJ <| F.Adjusts.bind mkPJ <| F.Adjusts.bind mkK <| F.Adjusts.bind mkPK <| F.Adjusts.bind mkW <| F.Adjusts.bind spst <| F.Adjusts.bind plI <| F.Adjusts.bind plJ <| F.Adjusts.bind plK <| F.Adjusts.bind (y := dx 0) rfl <| F.Adjusts.bind (y := (1 : Int)) rfl <| F.Adjusts.bind (y := (2 : Int)) rfl <| F.Adjusts.bind (localize_ok (l := pi0 - 2 * 0 + 1) (by omega) nI.1 rfl) <| F.Adjusts.bind (localize_ok (l := pj0 - 2 * 0 + 1) (by omega) nJ.1 rfl) <| F.Adjusts.bind (localize_ok (l := pk0 - 2 * 0 + 1) (by omega) nK.1 rfl) <| ?_
    rcases hq with ⟨rfl, rfl, rfl⟩ | ⟨rfl, rfl⟩ | rfl | ⟨rfl, rfl⟩
    · simp only [↓reduceIte, Int.reduceEq]
      exact (adj0_1 (seg3_0 (x := pi0 - 2 * 0 + 1) Ast (by omega) (by omega) (by omega) rfl) hβ (by omega) (by omega) (by decide)).congr (fun c => layer3_0_iff) (fun c hc => by simp [facU]) (fun c hc => by simp [facV])
    · simp only [↓reduceIte, Int.reduceEq]
      exact (adj0_2 (seg3_0 (x := pi0 - 2 * 0 + 1) Ast (by omega) (by omega) (by omega) rfl) hβ (by omega) (by omega) (by decide)).congr (fun c => layer3_0_iff) (fun c hc => by simp [facU]) (fun c hc => by simp [facV])
    · simp only [↓reduceIte, Int.reduceEq]
      exact (adj1 (seg3_0 (x := pi0 - 2 * 0 + 1) Ast (by omega) (by omega) (by omega) rfl) hβ (by omega) (by omega) (by decide)).congr (fun c => layer3_0_iff) (fun c hc => by simp [facU]) (fun c hc => by simp [facV])
    · simp only [↓reduceIte, Int.reduceEq]
      exact (adj4_1 (seg3_0 (x := pi0 - 2 * 0 + 1) Ast (by omega) (by omega) (by omega) rfl) hβ (by omega) (by omega) (by decide) (face_at30 (e := pi0 - 2 * 0 + 1 + 0) Ab0 Pb0 (by omega) (by omega) (by omega) (by omega) rfl) (b := fun c => F.onFace3 (F.rd m (F.face3d0 b0_ i0 j0 k0 i1 j1 k1 0)) (F.rd m (F.face3d1 b1_ i0 j0 k0 i1 j1 k1 0)) (F.rd m (F.face3d2 b2_ i0 j0 k0 i1 j1 k1 0)) 0 0 c) (fun p hp => by simp [F.onFace3])).congr (fun c => layer3_0_iff) (fun c hc => by simp [facU]) (fun c hc => by simp [facV])
  · replace hx := hx rfl
    show F.Adjusts _ m _ _ 2 1 _ _
    refine F.Adjusts.bind mkI <| F.Adjusts.bind mkPI <| F.Adjusts.bind mkJ <| F.Adjusts.bind mkPJ <| F.Adjusts.bind mkK <| F.Adjusts.bind mkPK <| F.Adjusts.bind mkW <| F.Adjusts.bind spst <| F.Adjusts.bind plI <| F.Adjusts.bind plJ <| F.Adjusts.bind plK <| F.Adjusts.bind (y := dx 0) rfl <| F.Adjusts.bind (y := (2 : Int)) rfl <| F.Adjusts.bind (y := (1 : Int)) rfl <| F.Adjusts.bind (localize_ok (l := pi0 - 2 * 1 + 1) (by omega) nI.1 rfl) <| F.Adjusts.bind (localize_ok (l := pj0 - 2 * 1 + 1) (by omega) nJ.1 rfl) <| F.Adjusts.bind (localize_ok (l := pk0 - 2 * 1 + 1) (by omega) nK.1 rfl) <| ?_
    rcases hq with ⟨rfl, rfl, rfl⟩ | ⟨rfl, rfl⟩ | rfl | ⟨rfl, rfl⟩
    · simp only [↓reduceIte, Int.reduceEq]
      exact (adj0_1 (seg3_0 (x := pi0 - 2 * 1 + 1) Ast (by omega) (by omega) (by omega) rfl) hβ (by omega) (by omega) (by decide)).congr (fun c => layer3_0_iff) (fun c hc => by simp [facU]) (fun c hc => by simp [facV])
    · simp only [↓reduceIte, Int.reduceEq]
      exact (adj0_2 (seg3_0 (x := pi0 - 2 * 1 + 1) Ast (by omega) (by omega) (by omega) rfl) hβ (by omega) (by omega) (by decide)).congr (fun c => layer3_0_iff) (fun c hc => by simp [facU]) (fun c hc => by simp [facV])
    · simp only [↓reduceIte, Int.reduceEq]
      exact (adj1 (seg3_0 (x := pi0 - 2 * 1 + 1) Ast (by omega) (by omega) (by omega) rfl) hβ (by omega) (by omega) (by decide)).congr (fun c => layer3_0_iff) (fun c hc => by simp [facU]) (fun c hc => by simp [facV])
    · simp only [↓reduceIte, Int.reduceEq]
      exact (adj4_1 (seg3_0 (x := pi0 - 2 * 1 + 1) Ast (by omega) (by omega) (by omega) rfl) hβ (by omega) (by omega) (by decide) (face_at30 (e := pi0 - 2 * 1 + 1 + 1) Ab0 Pb0 (by omega) (by omega) (by omega) (by omega) rfl) (b := fun c => F.onFace3 (F.rd m (F.face3d0 b0_ i0 j0 k0 i1 j1 k1 0)) (F.rd m (F.face3d1 b1_ i0 j0 k0 i1 j1 k1 0)) (F.rd m (F.face3d2 b2_ i0 j0 k0 i1 j1 k1 0)) 0 1 c) (fun p hp => by simp [F.onFace3])).congr (fun c => layer3_0_iff) (fun c hc => by simp [facU]) (fun c hc => by simp [facV])
  · replace hy := hy rfl
    show F.Adjusts _ m _ _ 3 4 _ _
    refine F.Adjusts.bind mkI <| F.Adjusts.bind mkPI <| F.Adjusts.bind mkJ <| F.Adjusts.bind mkPJ <| F.Adjusts.bind mkK <| F.Adjusts.bind mkPK <| F.Adjusts.bind mkW <| F.Adjusts.bind spst <| F.Adjusts.bind plI <| F.Adjusts.bind plJ <| F.Adjusts.bind plK <| F.Adjusts.bind (y := dx 1) rfl <| F.Adjusts.bind (y := (3 : Int)) rfl <| F.Adjusts.bind (y := (4 : Int)) rfl <| F.Adjusts.bind (localize_ok (l := pi0 - 2 * 0 + 1) (by omega) nI.1 rfl) <| F.Adjusts.bind (localize_ok (l := pj0 - 2 * 0 + 1) (by omega) nJ.1 rfl) <| F.Adjusts.bind (localize_ok (l := pk0 - 2 * 0 + 1) (by omega) nK.1 rfl) <| ?_
    rcases hq with ⟨rfl, rfl, rfl⟩ | ⟨rfl, rfl⟩ | rfl | ⟨rfl, rfl⟩
    · simp only [↓reduceIte, Int.reduceEq]
      exact (adj0_1 (seg3_1 (x := pj0 - 2 * 0 + 1) Ast (by omega) (by omega) (by omega) rfl) hβ (by omega) (by omega) (by decide)).congr (fun c => layer3_1_iff) (fun c hc => by simp [facU]) (fun c hc => by simp [facV])
    · simp only [↓reduceIte, Int.reduceEq]
      exact (adj0_2 (seg3_1 (x := pj0 - 2 * 0 + 1) Ast (by omega) (by omega) (by omega) rfl) hβ (by omega) (by omega) (by decide)).congr (fun c => layer3_1_iff) (fun c hc => by simp [facU]) (fun c hc => by simp [facV])
    · simp only [↓reduceIte, Int.reduceEq]
      exact (adj1 (seg3_1 (x := pj0 - 2 * 0 + 1) Ast (by omega) (by omega) (by omega) rfl) hβ (by omega) (by omega) (by decide)).congr (fun c => layer3_1_iff) (fun c hc => by simp [facU]) (fun c hc => by simp [facV])
    · simp only [↓reduceIte, Int.reduceEq]
      exact (adj4_1 (seg3_1 (x := pj0 - 2 * 0 + 1) Ast (by omega) (by omega) (by omega) rfl) hβ (by omega) (by omega) (by decide) (face_at31 (e := pj0 - 2 * 0 + 1 + 0) Ab1 Pb1 (by omega) (by omega) (by omega) (by omega) rfl) (b := fun c => F.onFace3 (F.rd m (F.face3d0 b0_ i0 j0 k0 i1 j1 k1 0)) (F.rd m (F.face3d1 b1_ i0 j0 k0 i1 j1 k1 0)) (F.rd m (F.face3d2 b2_ i0 j0 k0 i1 j1 k1 0)) 1 0 c) (fun p hp => by simp [F.onFace3])).congr (fun c => layer3_1_iff) (fun c hc => by simp [facU]) (fun c hc => by simp [facV])
  · replace hy := hy rfl
    show F.Adjusts _ m _ _ 4 3 _ _
    refine F.Adjusts.bind mkI <| F.Adjusts.bind mkPI <| F.Adjusts.bind mkJ <| F.Adjusts.bind mkPJ <| F.Adjusts.bind mkK <| F.Adjusts.bind mkPK <| F.Adjusts.bind mkW <| F.Adjusts.bind spst <| F.Adjusts.bind plI <| F.Adjusts.bind plJ <| F.Adjusts.bind plK <| F.Adjusts.bind (y := dx 1) rfl <| F.Adjusts.bind (y := (4 : Int)) rfl <| F.Adjusts.bind (y := (3 : Int)) rfl <| F.Adjusts.bind (localize_ok (l := pi0 - 2 * 1 + 1) (by omega) nI.1 rfl) <| F.Adjusts.bind (localize_ok (l := pj0 - 2 * 1 + 1) (by omega) nJ.1 rfl) <| F.Adjusts.bind (localize_ok (l := pk0 - 2 * 1 + 1) (by omega) nK.1 rfl) <| ?_
    rcases hq with ⟨rfl, rfl, rfl⟩ | ⟨rfl, rfl⟩ | rfl | ⟨rfl, rfl⟩
    · simp only [↓reduceIte, Int.reduceEq]
      exact (adj0_1 (seg3_1 (x := pj0 - 2 * 1 + 1) Ast (by omega) (by omega) (by omega) rfl) hβ (by omega) (by omega) (by decide)).congr (fun c => layer3_1_iff) (fun c hc => by simp [facU]) (fun c hc => by simp [facV])
    · simp only [↓reduceIte, Int.reduceEq]
      exact (adj0_2 (seg3_1 (x := pj0 - 2 * 1 + 1) Ast (by omega) (by omega) (by omega) rfl) hβ (by omega) (by omega) (by decide)).congr (fun c => layer3_1_iff) (fun c hc => by simp [facU]) (fun c hc => by simp [facV])
    · simp only [↓reduceIte, Int.reduceEq]
      exact (adj1 (seg3_1 (x := pj0 - 2 * 1 + 1) Ast (by omega) (by omega) (by omega) rfl) hβ (by omega) (by omega) (by decide)).congr (fun c => layer3_1_iff) (fun c hc => by simp [facU]) (fun c hc => by simp [facV])
    · simp only [↓reduceIte, Int.reduceEq]
      exact (adj4_1 (seg3_1 (x := pj0 - 2 * 1 + 1) Ast (by omega) (by omega) (by omega) rfl) hβ (by omega) (by omega) (by decide) (face_at31 (e := pj0 - 2 * 1 + 1 + 1) Ab1 Pb1 (by omega) (by omega) (by omega) (by omega) rfl) (b := fun c => F.onFace3 (F.rd m (F.face3d0 b0_ i0 j0 k0 i1 j1 k1 0)) (F.rd m (F.face3d1 b1_ i0 j0 k0 i1 j1 k1 0)) (F.rd m (F.face3d2 b2_ i0 j0 k0 i1 j1 k1 0)) 1 1 c) (fun p hp => by simp [F.onFace3])).congr (fun c => layer3_1_iff) (fun c hc => by simp [facU]) (fun c hc => by simp [facV])
  · replace hz := hz rfl
    show F.Adjusts _ m _ _ 5 6 _ _
    refine F.Adjusts.bind mkI <| F.Adjusts.bind mkPI <| F.Adjusts.bind mkJ <| F.Adjusts.bind mkPJ <| F.Adjusts.bind mkK <| F.Adjusts.bind mkPK <| F.Adjusts.bind mkW <| F.Adjusts.bind spst <| F.Adjusts.bind plI <| F.Adjusts.bind plJ <| F.Adjusts.bind plK <| F.Adjusts.bind (y := dx 2) rfl <| F.Adjusts.bind (y := (5 : Int)) rfl <| F.Adjusts.bind (y := (6 : Int)) rfl <| F.Adjusts.bind (localize_ok (l := pi0 - 2 * 0 + 1) (by omega) nI.1 rfl) <| F.Adjusts.bind (localize_ok (l := pj0 - 2 * 0 + 1) (by omega) nJ.1 rfl) <| F.Adjusts.bind (localize_ok (l := pk0 - 2 * 0 + 1) (by omega) nK.1 rfl) <| ?_
    rcases hq with ⟨rfl, rfl, rfl⟩ | ⟨rfl, rfl⟩ | rfl | ⟨rfl, rfl⟩
    · simp only [↓reduceIte, Int.reduceEq]
      exact (adj0_1 (seg3_2 (x := pk0 - 2 * 0 + 1) Ast (by omega) (by omega) (by omega) rfl) hβ (by omega) (by omega) (by decide)).congr (fun c => layer3_2_iff) (fun c hc => by simp [facU]) (fun c hc => by simp [facV])
    · simp only [↓reduceIte, Int.reduceEq]
      exact (adj0_2 (seg3_2 (x := pk0 - 2 * 0 + 1) Ast (by omega) (by omega) (by omega) rfl) hβ (by omega) (by omega) (by decide)).congr (fun c => layer3_2_iff) (fun c hc => by simp [facU]) (fun c hc => by simp [facV])
    · simp only [↓reduceIte, Int.reduceEq]
      exact (adj1 (seg3_2 (x := pk0 - 2 * 0 + 1) Ast (by omega) (by omega) (by omega) rfl) hβ (by omega) (by omega) (by decide)).congr (fun c => layer3_2_iff) (fun c hc => by simp [facU]) (fun c hc => by simp [facV])
    · simp only [↓reduceIte, Int.reduceEq]
      exact (adj4_1 (seg3_2 (x := pk0 - 2 * 0 + 1) Ast (by omega) (by omega) (by omega) rfl) hβ (by omega) (by omega) (by decide) (face_at32 (e := pk0 - 2 * 0 + 1 + 0) Ab2 Pb2 (by omega) (by omega) (by omega) (by omega) rfl) (b := fun c => F.onFace3 (F.rd m (F.face3d0 b0_ i0 j0 k0 i1 j1 k1 0)) (F.rd m (F.face3d1 b1_ i0 j0 k0 i1 j1 k1 0)) (F.rd m (F.face3d2 b2_ i0 j0 k0 i1 j1 k1 0)) 2 0 c) (fun p hp => by simp [F.onFace3])).congr (fun c => layer3_2_iff) (fun c hc => by simp [facU]) (fun c hc => by simp [facV])
  · replace hz := hz rfl
    show F.Adjusts _ m _ _ 6 5 _ _
    refine F.Adjusts.bind mkI <| F.Adjusts.bind mkPI <| F.Adjusts.bind mkJ <| F.Adjusts.bind mkPJ <| F.Adjusts.bind mkK <| F.Adjusts.bind mkPK <| F.Adjusts.bind mkW <| F.Adjusts.bind spst <| F.Adjusts.bind plI <| F.Adjusts.bind plJ <| F.Adjusts.bind plK <| F.Adjusts.bind (y := dx 2) rfl <| F.Adjusts.bind (y := (6 : Int)) rfl <| F.Adjusts.bind (y := (5 : Int)) rfl <| F.Adjusts.bind (localize_ok (l := pi0 - 2 * 1 + 1) (by omega) nI.1 rfl) <| F.Adjusts.bind (localize_ok (l := pj0 - 2 * 1 + 1) (by omega) nJ.1 rfl) <| F.Adjusts.bind (localize_ok (l := pk0 - 2 * 1 + 1) (by omega) nK.1 rfl) <| ?_
    rcases hq with ⟨rfl, rfl, rfl⟩ | ⟨rfl, rfl⟩ | rfl | ⟨rfl, rfl⟩
    · simp only [↓reduceIte, Int.reduceEq]
      exact (adj0_1 (seg3_2 (x := pk0 - 2 * 1 + 1) Ast (by omega) (by omega) (by omega) rfl) hβ (by omega) (by omega) (by decide)).congr (fun c => layer3_2_iff) (fun c hc => by simp [facU]) (fun c hc => by simp [facV])
    · simp only [↓reduceIte, Int.reduceEq]
      exact (adj0_2 (seg3_2 (x := pk0 - 2 * 1 + 1) Ast (by omega) (by omega) (by omega) rfl) hβ (by omega) (by omega) (by decide)).congr (fun c => layer3_2_iff) (fun c hc => by simp [facU]) (fun c hc => by simp [facV])
    · simp only [↓reduceIte, Int.reduceEq]
      exact (adj1 (seg3_2 (x := pk0 - 2 * 1 + 1) Ast (by omega) (by omega) (by omega) rfl) hβ (by omega) (by omega) (by decide)).congr (fun c => layer3_2_iff) (fun c hc => by simp [facU]) (fun c hc => by simp [facV])
    · simp only [↓reduceIte, Int.reduceEq]
      exact (adj4_1 (seg3_2 (x := pk0 - 2 * 1 + 1) Ast (by omega) (by omega) (by omega) rfl) hβ (by omega) (by omega) (by decide) (face_at32 (e := pk0 - 2 * 1 + 1 + 1) Ab2 Pb2 (by omega) (by omega) (by omega) (by omega) rfl) (b := fun c => F.onFace3 (F.rd m (F.face3d0 b0_ i0 j0 k0 i1 j1 k1 0)) (F.rd m (F.face3d1 b1_ i0 j0 k0 i1 j1 k1 0)) (F.rd m (F.face3d2 b2_ i0 j0 k0 i1 j1 k1 0)) 2 1 c) (fun p hp => by simp [F.onFace3])).congr (fun c => layer3_2_iff) (fun c hc => by simp [facU]) (fun c hc => by simp [facV])

theorem padjoff3_does {i0 j0 k0 i1 j1 k1 pi0 pj0 pk0 pi1 pj1 pk1 dir side btype exOrder sgcw : Int} {dx : Nat → T} {dir_factor neu_factor beta : T} {st_ : Ptr} {β : Backend} {m : Mem T}
    (hβ : ValidBackend β) (hi : i0 ≤ i1) (hj : j0 ≤ j1) (hk : k0 ≤ k1) (hg : 0 ≤ sgcw) (hl : Layer3 i0 j0 k0 i1 j1 k1 0 pi0 pj0 pk0 pi1 pj1 pk1 dir side)
    (hq : (btype = 0 ∧ exOrder = 1 ∧ dir_factor = 2) ∨ (btype = 0 ∧ exOrder = 2) ∨ btype = 1 ∨ (btype = 4 ∧ exOrder = 1))
    (h : F.Args m [] [(F.st3d st_ i0 j0 k0 i1 j1 k1 sgcw)]) :
    F.Adjusts (Cuda.adjPoissonOffdiag3d i0 j0 k0 i1 j1 k1 pi0 pj0 pk0 pi1 pj1 pk1 dir side btype exOrder dx dir_factor neu_factor beta sgcw st_ β m) m (F.st3d st_ i0 j0 k0 i1 j1 k1 sgcw) (F.layer3 pi0 pj0 pk0 pi1 pj1 pk1 dir side) (2 * dir + 1 + side) (2 * dir + 2 - side) (fun c => facU btype exOrder (dx dir.toNat) 1) (fun _ => facV btype exOrder) := by
  have hst := h.ok (F.st3d st_ i0 j0 k0 i1 j1 k1 sgcw) (by simp)
  obtain ⟨Ast, spst, Ii, Ij, Ik⟩ := st3_setup hst hi hj hk hg
  have mkI := mkB_near (d := .I) (lo := i0) (hi := i1) (by rng)
  have mkJ := mkB_near (d := .J) (lo := j0) (hi := j1) (by rng)
  have mkK := mkB_near (d := .K) (lo := k0) (hi := k1) (by rng)
  have mkW := mkB_near (d := .W) (lo := 0) (hi := 6) (by rng)
  obtain ⟨hd, hs, hx, hy, hz, nI, nJ, nK⟩ := hl
  have mkPI := mkB_near (d := .I) (lo := pi0) nI.2
  have mkPJ := mkB_near (d := .J) (lo := pj0) nJ.2
  have mkPK := mkB_near (d := .K) (lo := pk0) nK.2
  have hd : dir = 0 ∨ dir = 1 ∨ dir = 2 := by omega
  unfold Cuda.adjPoissonOffdiag3d
  rw [← farr_st3]
  rcases hd with rfl | rfl | rfl <;> rcases hs with rfl | rfl
  · replace hx := hx rfl
    show F.Adjusts _ m _ _ 1 2 _ _
    refine F.Adjusts.bind mkI <| F.Adjusts.bind mkPI <| F.Adjusts.bind mkJ <| F.Adjusts.bind mkPJ <| F.Adjusts.bind mkK <| F.Adjusts.bind mkPK <| F.Adjusts.bind mkW <| F.Adjusts.bind spst <| F.Adjusts.bind (y := dx 0) rfl <| F.Adjusts.bind (y := (1 : Int)) rfl <| F.Adjusts.bind (y := (2 : Int)) rfl <| F.Adjusts.bind (localize_ok (l := pi0 - 2 * 0 + 1) (by omega) nI.1 rfl) <| F.Adjusts.bind (localize_ok (l := pj0 - 2 * 0 + 1) (by omega) nJ.1 rfl) <| F.Adjusts.bind (localize_ok (l := pk0 - 2 * 0 + 1) (by omega) nK.1 rfl) <| ?_
    rcases hq with ⟨rfl, rfl, rfl⟩ | ⟨rfl, rfl⟩ | rfl | ⟨rfl, rfl⟩
    · simp only [↓reduceIte, Int.reduceEq]
      exact (adj0_1 (seg3_0 (x := pi0 - 2 * 0 + 1) Ast (by omega) (by omega) (by omega) rfl) hβ (by omega) (by omega) (by decide)).congr (fun c => layer3_0_iff) (fun c hc => by simp [facU]) (fun c hc => by simp [facV])
    · simp only [↓reduceIte, Int.reduceEq]
      exact (adj0_2 (seg3_0 (x := pi0 - 2 * 0 + 1) Ast (by omega) (by omega) (by omega) rfl) hβ (by omega) (by omega) (by decide)).congr (fun c => layer3_0_iff) (fun c hc => by simp [facU]) (fun c hc => by simp [facV])
    · simp only [↓reduceIte, Int.reduceEq]
      exact (adj1 (seg3_0 (x := pi0 - 2 * 0 + 1) Ast (by omega) (by omega) (by omega) rfl) hβ (by omega) (by omega) (by decide)).congr (fun c => layer3_0_iff) (fun c hc => by simp [facU]) (fun c hc => by simp [facV])
    · simp only [↓reduceIte, Int.reduceEq]
      exact (padj4_1 (seg3_0 (x := pi0 - 2 * 0 + 1) Ast (by omega) (by omega) (by omega) rfl) hβ (by omega) (by omega) (by decide)).congr (fun c => layer3_0_iff) (fun c hc => by simp [facU]) (fun c hc => by simp [facV])
  · replace hx := hx rfl
    show F.Adjusts _ m _ _ 2 1 _ _
    refine F.Adjusts.bind mkI <| F.Adjusts.bind mkPI <| F.Adjusts.bind mkJ <| F.Adjusts.bind mkPJ <| F.Adjusts.bind mkK <| F.Adjusts.bind mkPK <| F.Adjusts.bind mkW <| F.Adjusts.bind spst <| F.Adjusts.bind (y := dx 0) rfl <| F.Adjusts.bind (y := (2 : Int)) rfl <| F.Adjusts.bind (y := (1 : Int)) rfl <| F.Adjusts.bind (localize_ok (l := pi0 - 2 * 1 + 1) (by omega) nI.1 rfl) <| F.Adjusts.bind (localize_ok (l := pj0 - 2 * 1 + 1) (by omega) nJ.1 rfl) <| F.Adjusts.bind (localize_ok (l := pk0 - 2 * 1 + 1) (by omega) nK.1 rfl) <| ?_
    rcases hq with ⟨rfl, rfl, rfl⟩ | ⟨rfl, rfl⟩ | rfl | ⟨rfl, rfl⟩
    · simp only [↓reduceIte, Int.reduceEq]
      exact (adj0_1 (seg3_0 (x := pi0 - 2 * 1 + 1) Ast (by omega) (by omega) (by omega) rfl) hβ (by omega) (by omega) (by decide)).congr (fun c => layer3_0_iff) (fun c hc => by simp [facU]) (fun c hc => by simp [facV])
    · simp only [↓reduceIte, Int.reduceEq]
      exact (adj0_2 (seg3_0 (x := pi0 - 2 * 1 + 1) Ast (by omega) (by omega) (by omega) rfl) hβ (by omega) (by omega) (by decide)).congr (fun c => layer3_0_iff) (fun c hc => by simp [facU]) (fun c hc => by simp [facV])
    · simp only [↓reduceIte, Int.reduceEq]
      exact (adj1 (seg3_0 (x := pi0 - 2 * 1 + 1) Ast (by omega) (by omega) (by omega) rfl) hβ (by omega) (by omega) (by decide)).congr (fun c => layer3_0_iff) (fun c hc => by simp [facU]) (fun c hc => by simp [facV])
    · simp only [↓reduceIte, Int.reduceEq]
      exact (padj4_1 (seg3_0 (x := pi0 - 2 * 1 + 1) Ast (by omega) (by omega) (by omega) rfl) hβ (by omega) (by omega) (by decide)).congr (fun c => layer3_0_iff) (fun c hc => by simp [facU]) (fun c hc => by simp [facV])
  · replace hy := hy rfl
    show F.Adjusts _ m _ _ 3 4 _ _
    refine F.Adjusts.bind mkI <| F.Adjusts.bind mkPI <| F.Adjusts.bind mkJ <| F.Adjusts.bind mkPJ <| F.Adjusts.bind mkK <| F.Adjusts.bind mkPK <| F.Adjusts.bind mkW <| F.Adjusts.bind spst <| F.Adjusts.bind (y := dx 1) rfl <| F.Adjusts.bind (y := (3 : Int)) rfl <| F.Adjusts.bind (y := (4 : Int)) rfl <| F.Adjusts.bind (localize_ok (l := pi0 - 2 * 0 + 1) (by omega) nI.1 rfl) <| F.Adjusts.bind (localize_ok (l := pj0 - 2 * 0 + 1) (by omega) nJ.1 rfl) <| F.Adjusts.bind (localize_ok (l := pk0 - 2 * 0 + 1) (by omega) nK.1 rfl) <| ?_
    rcases hq with ⟨rfl, rfl, rfl⟩ | ⟨rfl, rfl⟩ | rfl | ⟨rfl, rfl⟩
    · simp only [↓reduceIte, Int.reduceEq]
      exact (adj0_1 (seg3_1 (x := pj0 - 2 * 0 + 1) Ast (by omega) (by omega) (by omega) rfl) hβ (by omega) (by omega) (by decide)).congr (fun c => layer3_1_iff) (fun c hc => by simp [facU]) (fun c hc => by simp [facV])
    · simp only [↓reduceIte, Int.reduceEq]
      exact (adj0_2 (seg3_1 (x := pj0 - 2 * 0 + 1) Ast (by omega) (by omega) (by omega) rfl) hβ (by omega) (by omega) (by decide)).congr (fun c => layer3_1_iff) (fun c hc => by simp [facU]) (fun c hc => by simp [facV])
    · simp only [↓reduceIte, Int.reduceEq]
      exact (adj1 (seg3_1 (x := pj0 - 2 * 0 + 1) Ast (by omega) (by omega) (by omega) rfl) hβ (by omega) (by omega) (by decide)).congr (fun c => layer3_1_iff) (fun c hc => by simp [facU]) (fun c hc => by simp [facV])
    · simp only [↓reduceIte, Int.reduceEq]
      exact (padj4_1 (seg3_1 (x := pj0 - 2 * 0 + 1) Ast (by omega) (by omega) (by omega) rfl) hβ (by omega) (by omega) (by decide)).congr (fun c => layer3_1_iff) (fun c hc => by simp [facU]) (fun c hc => by simp [facV])
  · replace hy := hy rfl
    show F.Adjusts _ m _ _ 4 3 _ _
    refine F.Adjusts.bind mkI <| F.Adjusts.bind mkPI <| F.Adjusts.bind mkJ <| F.Adjusts.bind mkPJ <| F.Adjusts.bind mkK <| F.Adjusts.bind mkPK <| F.Adjusts.bind mkW <| F.Adjusts.bind spst <| F.Adjusts.bind (y := dx 1) rfl <| F.Adjusts.bind (y := (4 : Int)) rfl <| F.Adjusts.bind (y := (3 : Int)) rfl <| F.Adjusts.bind (localize_ok (l := pi0 - 2 * 1 + 1) (by omega) nI.1 rfl) <| F.Adjusts.bind (localize_ok (l := pj0 - 2 * 1 + 1) (by omega) nJ.1 rfl) <| F.Adjusts.bind (localize_ok (l := pk0 - 2 * 1 + 1) (by omega) nK.1 rfl) <| ?_
    rcases hq with ⟨rfl, rfl, rfl⟩ | ⟨rfl, rfl⟩ | rfl | ⟨rfl, rfl⟩
    · simp only [↓reduceIte, Int.reduceEq]
      exact (adj0_1 (seg3_1 (x := pj0 - 2 * 1 + 1) Ast (by omega) (by omega) (by omega) rfl) hβ (by omega) (by omega) (by decide)).congr (fun c => layer3_1_iff) (fun c hc => by simp [facU]) (fun c hc => by simp [facV])
    · simp only [↓reduceIte, Int.reduceEq]
      exact (adj0_2 (seg3_1 (x := pj0 - 2 * 1 + 1) Ast (by omega) (by omega) (by omega) rfl) hβ (by omega) (by omega) (by decide)).congr (fun c => layer3_1_iff) (fun c hc => by simp [facU]) (fun c hc => by simp [facV])
    · simp only [↓reduceIte, Int.reduceEq]
      exact (adj1 (seg3_1 (x := pj0 - 2 * 1 + 1) Ast (by omega) (by omega) (by omega) rfl) hβ (by omega) (by omega) (by decide)).congr (fun c => layer3_1_iff) (fun c hc => by simp [facU]) (fun c hc => by simp [facV])
    · simp only [↓reduceIte, Int.reduceEq]
      exact (padj4_1 (seg3_1 (x := pj0 - 2 * 1 + 1) Ast (by omega) (by omega) (by omega) rfl) hβ (by omega) (by omega) (by decide)).congr (fun c => layer3_1_iff) (fun c hc => by simp [facU]) (fun c hc => by simp [facV])
  · replace hz := hz rfl
    show F.Adjusts _ m _ _ 5 6 _ _
    refine F.Adjusts.bind mkI <| F.Adjusts.bind mkPI <| F.Adjusts.bind mkJ <| F.Adjusts.bind mkPJ <| F.Adjusts.bind mkK <| F.Adjusts.bind mkPK <| F.Adjusts.bind mkW <| F.Adjusts.bind spst <| F.Adjusts.bind (y := dx 2) rfl <| F.Adjusts.bind (y := (5 : Int)) rfl <| F.Adjusts.bind (y := (6 : Int)) rfl <| F.Adjusts.bind (localize_ok (l := pi0 - 2 * 0 + 1) (by omega) nI.1 rfl) <| F.Adjusts.bind (localize_ok (l := pj0 - 2 * 0 + 1) (by omega) nJ.1 rfl) <| F.Adjusts.bind (localize_ok (l := pk0 - 2 * 0 + 1) (by omega) nK.1 rfl) <| ?_
    rcases hq with ⟨rfl, rfl, rfl⟩ | ⟨rfl, rfl⟩ | rfl | ⟨rfl, rfl⟩
    · simp only [↓reduceIte, Int.reduceEq]
      exact (adj0_1 (seg3_2 (x := pk0 - 2 * 0 + 1) Ast (by omega) (by omega) (by omega) rfl) hβ (by omega) (by omega) (by decide)).congr (fun c => layer3_2_iff) (fun c hc => by simp [facU]) (fun c hc => by simp [facV])
    · simp only [↓reduceIte, Int.reduceEq]
      exact (adj0_2 (seg3_2 (x := pk0 - 2 * 0 + 1) Ast (by omega) (by omega) (by omega) rfl) hβ (by omega) (by omega) (by decide)).congr (fun c => layer3_2_iff) (fun c hc => by simp [facU]) (fun c hc => by simp [facV])
    · simp only [↓reduceIte, Int.reduceEq]
      exact (adj1 (seg3_2 (x := pk0 - 2 * 0 + 1) Ast (by omega) (by omega) (by omega) rfl) hβ (by omega) (by omega) (by decide)).congr (fun c => layer3_2_iff) (fun c hc => by simp [facU]) (fun c hc => by simp [facV])
    · simp only [↓reduceIte, Int.reduceEq]
      exact (padj4_1 (seg3_2 (x := pk0 - 2 * 0 + 1) Ast (by omega) (by omega) (by omega) rfl) hβ (by omega) (by omega) (by decide)).congr (fun c => layer3_2_iff) (fun c hc => by simp [facU]) (fun c hc => by simp [facV])
  · replace hz := hz rfl
    show F.Adjusts _ m _ _ 6 5 _ _
    refine F.Adjusts.bind mkI <| F.Adjusts.bind mkPI <| F.Adjusts.bind mkJ <| F.Adjusts.bind mkPJ <| F.Adjusts.bind mkK <| F.Adjusts.bind mkPK <| F.Adjusts.bind mkW <| F.Adjusts.bind spst <| F.Adjusts.bind (y := dx 2) rfl <| F.Adjusts.bind (y := (6 : Int)) rfl <| F.Adjusts.bind (y := (5 : Int)) rfl <| F.Adjusts.bind (localize_ok (l := pi0 - 2 * 1 + 1) (by omega) nI.1 rfl) <| F.Adjusts.bind (localize_ok (l := pj0 - 2 * 1 + 1) (by omega) nJ.1 rfl) <| F.Adjusts.bind (localize_ok (l := pk0 - 2 * 1 + 1) (by omega) nK.1 rfl) <| ?_
    rcases hq with ⟨rfl, rfl, rfl⟩ | ⟨rfl, rfl⟩ | rfl | ⟨rfl, rfl⟩
    · simp only [↓reduceIte, Int.reduceEq]
      exact (adj0_1 (seg3_2 (x := pk0 - 2 * 1 + 1) Ast (by omega) (by omega) (by omega) rfl) hβ (by omega) (by omega) (by decide)).congr (fun c => layer3_2_iff) (fun c hc => by simp [facU]) (fun c hc => by simp [facV])
    · simp only [↓reduceIte, Int.reduceEq]
      exact (adj0_2 (seg3_2 (x := pk0 - 2 * 1 + 1) Ast (by omega) (by omega) (by omega) rfl) hβ (by omega) (by omega) (by decide)).congr (fun c => layer3_2_iff) (fun c hc => by simp [facU]) (fun c hc => by simp [facV])
    · simp only [↓reduceIte, Int.reduceEq]
      exact (adj1 (seg3_2 (x := pk0 - 2 * 1 + 1) Ast (by omega) (by omega) (by omega) rfl) hβ (by omega) (by omega) (by decide)).congr (fun c => layer3_2_iff) (fun c hc => by simp [facU]) (fun c hc => by simp [facV])
    · simp only [↓reduceIte, Int.reduceEq]
      exact (padj4_1 (seg3_2 (x := pk0 - 2 * 1 + 1) Ast (by omega) (by omega) (by omega) rfl) hβ (by omega) (by omega) (by decide)).congr (fun c => layer3_2_iff) (fun c hc => by simp [facU]) (fun c hc => by simp [facV])

/-! ### the diagonals -/

theorem diag_v1_1 {i0 i1 ai0 ai1 sgcw : Int} {alpha : T} {a_ st_ : Ptr} {β : Backend} {m : Mem T} (hβ : ValidBackend β) (hi : i0 ≤ i1) (hg : 0 ≤ sgcw) (hai : ai0 ≤ i0 ∧ i1 ≤ ai1)
    (h : F.Args m [(F.cell1d a_ ai0 ai1 0)] [(F.st1d st_ i0 i1 sgcw)]) :
    ∃ m', Cuda.v1diag1d i0 i1 ai0 ai1 alpha a_ sgcw st_ β m = .ok m' ∧ F.Kept [(F.st1d st_ i0 i1 sgcw)] m m' ∧ F.Diagonal m m' (F.st1d st_ i0 i1 sgcw) (3 - 1) (F.InBounds [(i0, i1)]) (fun c => alpha * F.rd m (F.cell1d a_ ai0 ai1 0) c) := by
  obtain ⟨m', q, -, K, S2, S3⟩ := v1diag1_run (alpha := alpha) hi hg hai h
  obtain ⟨m1, d, e⟩ := C36_v1diag_1d (alpha := alpha) hβ hi hai hg h
  obtain rfl : m' = m1 := Except.ok.inj (q.symm.trans e)
  refine ⟨m', d, K, fun c hc => ?_, fun c hc e e1 e2 => ?_⟩
  · obtain ⟨i, rfl, h0, h1⟩ := F.inBounds1.1 hc
    rw [F.ring1, (S2 i h0 h1).rd]
  · obtain ⟨i, rfl, h0, h1⟩ := F.inBounds1.1 hc
    exact S3 i e h0 h1 e1 (by omega)

theorem diag_v2_1 {i0 i1 sgcw : Int} {alpha : T} {st_ : Ptr} {β : Backend} {m : Mem T} (hβ : ValidBackend β) (hi : i0 ≤ i1) (hg : 0 ≤ sgcw) 
    (h : F.Args m [] [(F.st1d st_ i0 i1 sgcw)]) :
    ∃ m', Cuda.v2diag1d i0 i1 alpha sgcw st_ β m = .ok m' ∧ F.Kept [(F.st1d st_ i0 i1 sgcw)] m m' ∧ F.Diagonal m m' (F.st1d st_ i0 i1 sgcw) (3 - 1) (F.InBounds [(i0, i1)]) (fun _ => alpha) := by
  obtain ⟨m', q, -, K, S2, S3⟩ := v2diag1_run (alpha := alpha) hi hg h
  obtain ⟨m1, d, e⟩ := C36_v2diag_1d (alpha := alpha) hβ hi hg h
  obtain rfl : m' = m1 := Except.ok.inj (q.symm.trans e)
  refine ⟨m', d, K, fun c hc => ?_, fun c hc e e1 e2 => ?_⟩
  · obtain ⟨i, rfl, h0, h1⟩ := F.inBounds1.1 hc
    rw [F.ring1, (S2 i h0 h1).rd]
  · obtain ⟨i, rfl, h0, h1⟩ := F.inBounds1.1 hc
    exact S3 i e h0 h1 e1 (by omega)

theorem diag_p_1 {i0 i1 sgcw : Int} {st_ : Ptr} {β : Backend} {m : Mem T} (hβ : ValidBackend β) (hi : i0 ≤ i1) (hg : 0 ≤ sgcw) 
    (h : F.Args m [] [(F.st1d st_ i0 i1 sgcw)]) :
    ∃ m', Cuda.poissonDiag1d i0 i1 sgcw st_ β m = .ok m' ∧ F.Kept [(F.st1d st_ i0 i1 sgcw)] m m' ∧ F.Diagonal m m' (F.st1d st_ i0 i1 sgcw) (3 - 1) (F.InBounds [(i0, i1)]) (fun _ => 0) := by
  obtain ⟨m', q, -, K, S2, S3⟩ := pdiag1_run hi hg h
  obtain ⟨m1, d, e⟩ := C36_poisson_diag_1d hβ hi hg h
  obtain rfl : m' = m1 := Except.ok.inj (q.symm.trans e)
  refine ⟨m', d, K, fun c hc => ?_, fun c hc e e1 e2 => ?_⟩
  · obtain ⟨i, rfl, h0, h1⟩ := F.inBounds1.1 hc
    rw [F.ring1, (S2 i h0 h1).rd, add_zero]
  · obtain ⟨i, rfl, h0, h1⟩ := F.inBounds1.1 hc
    exact S3 i e h0 h1 e1 (by omega)

theorem diag_v1_2 {i0 j0 i1 j1 ai0 aj0 ai1 aj1 sgcw : Int} {alpha : T} {a_ st_ : Ptr} {β : Backend} {m : Mem T} (hβ : ValidBackend β) (hi : i0 ≤ i1) (hj : j0 ≤ j1) (hg : 0 ≤ sgcw) (hai : ai0 ≤ i0 ∧ i1 ≤ ai1) (haj : aj0 ≤ j0 ∧ j1 ≤ aj1)
    (h : F.Args m [(F.cell2d a_ ai0 aj0 ai1 aj1 0)] [(F.st2d st_ i0 j0 i1 j1 sgcw)]) :
    ∃ m', Cuda.v1diag2d i0 j0 i1 j1 ai0 aj0 ai1 aj1 alpha a_ sgcw st_ β m = .ok m' ∧ F.Kept [(F.st2d st_ i0 j0 i1 j1 sgcw)] m m' ∧ F.Diagonal m m' (F.st2d st_ i0 j0 i1 j1 sgcw) (5 - 1) (F.InBounds [(i0, i1), (j0, j1)]) (fun c => alpha * F.rd m (F.cell2d a_ ai0 aj0 ai1 aj1 0) c) := by
  obtain ⟨m', q, -, K, S2, S3⟩ := v1diag2_run (alpha := alpha) hi hj hg hai haj h
  obtain ⟨m1, d, e⟩ := C36_v1diag_2d (alpha := alpha) hβ hi hj hai haj hg h
  obtain rfl : m' = m1 := Except.ok.inj (q.symm.trans e)
  refine ⟨m', d, K, fun c hc => ?_, fun c hc e e1 e2 => ?_⟩
  · obtain ⟨i, j, rfl, ⟨h2, h3⟩, h0, h1⟩ := F.inBounds2.1 hc
    rw [F.ring2, (S2 i j h0 h1 h2 h3).rd]
  · obtain ⟨i, j, rfl, ⟨h2, h3⟩, h0, h1⟩ := F.inBounds2.1 hc
    exact S3 i j e h0 h1 h2 h3 e1 (by omega)

theorem diag_v2_2 {i0 j0 i1 j1 sgcw : Int} {alpha : T} {st_ : Ptr} {β : Backend} {m : Mem T} (hβ : ValidBackend β) (hi : i0 ≤ i1) (hj : j0 ≤ j1) (hg : 0 ≤ sgcw) 
    (h : F.Args m [] [(F.st2d st_ i0 j0 i1 j1 sgcw)]) :
    ∃ m', Cuda.v2diag2d i0 j0 i1 j1 alpha sgcw st_ β m = .ok m' ∧ F.Kept [(F.st2d st_ i0 j0 i1 j1 sgcw)] m m' ∧ F.Diagonal m m' (F.st2d st_ i0 j0 i1 j1 sgcw) (5 - 1) (F.InBounds [(i0, i1), (j0, j1)]) (fun _ => alpha) := by
  obtain ⟨m', q, -, K, S2, S3⟩ := v2diag2_run (alpha := alpha) hi hj hg h
  obtain ⟨m1, d, e⟩ := C36_v2diag_2d (alpha := alpha) hβ hi hj hg h
  obtain rfl : m' = m1 := Except.ok.inj (q.symm.trans e)
  refine ⟨m', d, K, fun c hc => ?_, fun c hc e e1 e2 => ?_⟩
  · obtain ⟨i, j, rfl, ⟨h2, h3⟩, h0, h1⟩ := F.inBounds2.1 hc
    rw [F.ring2, (S2 i j h0 h1 h2 h3).rd]
  · obtain ⟨i, j, rfl, ⟨h2, h3⟩, h0, h1⟩ := F.inBounds2.1 hc
    exact S3 i j e h0 h1 h2 h3 e1 (by omega)

theorem diag_p_2 {i0 j0 i1 j1 sgcw : Int} {st_ : Ptr} {β : Backend} {m : Mem T} (hβ : ValidBackend β) (hi : i0 ≤ i1) (hj : j0 ≤ j1) (hg : 0 ≤ sgcw) 
    (h : F.Args m [] [(F.st2d st_ i0 j0 i1 j1 sgcw)]) :
    ∃ m', Cuda.poissonDiag2d i0 j0 i1 j1 sgcw st_ β m = .ok m' ∧ F.Kept [(F.st2d st_ i0 j0 i1 j1 sgcw)] m m' ∧ F.Diagonal m m' (F.st2d st_ i0 j0 i1 j1 sgcw) (5 - 1) (F.InBounds [(i0, i1), (j0, j1)]) (fun _ => 0) := by
  obtain ⟨m', q, -, K, S2, S3⟩ := pdiag2_run hi hj hg h
  obtain ⟨m1, d, e⟩ := C36_poisson_diag_2d hβ hi hj hg h
  obtain rfl : m' = m1 := Except.ok.inj (q.symm.trans e)
  refine ⟨m', d, K, fun c hc => ?_, fun c hc e e1 e2 => ?_⟩
  · obtain ⟨i, j, rfl, ⟨h2, h3⟩, h0, h1⟩ := F.inBounds2.1 hc
    rw [F.ring2, (S2 i j h0 h1 h2 h3).rd, add_zero]
  · obtain ⟨i, j, rfl, ⟨h2, h3⟩, h0, h1⟩ := F.inBounds2.1 hc
    exact S3 i j e h0 h1 h2 h3 e1 (by omega)

theorem diag_v1_3 {i0 j0 k0 i1 j1 k1 ai0 aj0 ak0 ai1 aj1 ak1 sgcw : Int} {alpha : T} {a_ st_ : Ptr} {β : Backend} {m : Mem T} (hβ : ValidBackend β) (hi : i0 ≤ i1) (hj : j0 ≤ j1) (hk : k0 ≤ k1) (hg : 0 ≤ sgcw) (hai : ai0 ≤ i0 ∧ i1 ≤ ai1) (haj : aj0 ≤ j0 ∧ j1 ≤ aj1) (hak : ak0 ≤ k0 ∧ k1 ≤ ak1)
    (h : F.Args m [(F.cell3d a_ ai0 aj0 ak0 ai1 aj1 ak1 0)] [(F.st3d st_ i0 j0 k0 i1 j1 k1 sgcw)]) :
    ∃ m', Cuda.v1diag3d i0 j0 k0 i1 j1 k1 ai0 aj0 ak0 ai1 aj1 ak1 alpha a_ sgcw st_ β m = .ok m' ∧ F.Kept [(F.st3d st_ i0 j0 k0 i1 j1 k1 sgcw)] m m' ∧ F.Diagonal m m' (F.st3d st_ i0 j0 k0 i1 j1 k1 sgcw) (7 - 1) (F.InBounds [(i0, i1), (j0, j1), (k0, k1)]) (fun c => alpha * F.rd m (F.cell3d a_ ai0 aj0 ak0 ai1 aj1 ak1 0) c) := by
  obtain ⟨m', q, -, K, S2, S3⟩ := v1diag3_run (alpha := alpha) hi hj hk hg hai haj hak h
  obtain ⟨m1, d, e⟩ := C36_v1diag_3d (alpha := alpha) hβ hi hj hk hai haj hak hg h
  obtain rfl : m' = m1 := Except.ok.inj (q.symm.trans e)
  refine ⟨m', d, K, fun c hc => ?_, fun c hc e e1 e2 => ?_⟩
  · obtain ⟨i, j, k, rfl, ⟨h4, h5⟩, ⟨h2, h3⟩, h0, h1⟩ := F.inBounds3.1 hc
    rw [F.ring3, (S2 i j k h0 h1 h2 h3 h4 h5).rd]
  · obtain ⟨i, j, k, rfl, ⟨h4, h5⟩, ⟨h2, h3⟩, h0, h1⟩ := F.inBounds3.1 hc
    exact S3 i j k e h0 h1 h2 h3 h4 h5 e1 (by omega)

theorem diag_v2_3 {i0 j0 k0 i1 j1 k1 sgcw : Int} {alpha : T} {st_ : Ptr} {β : Backend} {m : Mem T} (hβ : ValidBackend β) (hi : i0 ≤ i1) (hj : j0 ≤ j1) (hk : k0 ≤ k1) (hg : 0 ≤ sgcw) 
    (h : F.Args m [] [(F.st3d st_ i0 j0 k0 i1 j1 k1 sgcw)]) :
    ∃ m', Cuda.v2diag3d i0 j0 k0 i1 j1 k1 alpha sgcw st_ β m = .ok m' ∧ F.Kept [(F.st3d st_ i0 j0 k0 i1 j1 k1 sgcw)] m m' ∧ F.Diagonal m m' (F.st3d st_ i0 j0 k0 i1 j1 k1 sgcw) (7 - 1) (F.InBounds [(i0, i1), (j0, j1), (k0, k1)]) (fun _ => alpha) := by
  obtain ⟨m', q, -, K, S2, S3⟩ := v2diag3_run (alpha := alpha) hi hj hk hg h
  obtain ⟨m1, d, e⟩ := C36_v2diag_3d (alpha := alpha) hβ hi hj hk hg h
  obtain rfl : m' = m1 := Except.ok.inj (q.symm.trans e)
  refine ⟨m', d, K, fun c hc => ?_, fun c hc e e1 e2 => ?_⟩
  · obtain ⟨i, j, k, rfl, ⟨h4, h5⟩, ⟨h2, h3⟩, h0, h1⟩ := F.inBounds3.1 hc
    rw [F.ring3, (S2 i j k h0 h1 h2 h3 h4 h5).rd]
  · obtain ⟨i, j, k, rfl, ⟨h4, h5⟩, ⟨h2, h3⟩, h0, h1⟩ := F.inBounds3.1 hc
    exact S3 i j k e h0 h1 h2 h3 h4 h5 e1 (by omega)

theorem diag_p_3 {i0 j0 k0 i1 j1 k1 sgcw : Int} {st_ : Ptr} {β : Backend} {m : Mem T} (hβ : ValidBackend β) (hi : i0 ≤ i1) (hj : j0 ≤ j1) (hk : k0 ≤ k1) (hg : 0 ≤ sgcw) 
    (h : F.Args m [] [(F.st3d st_ i0 j0 k0 i1 j1 k1 sgcw)]) :
    ∃ m', Cuda.poissonDiag3d i0 j0 k0 i1 j1 k1 sgcw st_ β m = .ok m' ∧ F.Kept [(F.st3d st_ i0 j0 k0 i1 j1 k1 sgcw)] m m' ∧ F.Diagonal m m' (F.st3d st_ i0 j0 k0 i1 j1 k1 sgcw) (7 - 1) (F.InBounds [(i0, i1), (j0, j1), (k0, k1)]) (fun _ => 0) := by
  obtain ⟨m', q, -, K, S2, S3⟩ := pdiag3_run hi hj hk hg h
  obtain ⟨m1, d, e⟩ := C36_poisson_diag_3d hβ hi hj hk hg h
  obtain rfl : m' = m1 := Except.ok.inj (q.symm.trans e)
  refine ⟨m', d, K, fun c hc => ?_, fun c hc e e1 e2 => ?_⟩
  · obtain ⟨i, j, k, rfl, ⟨h4, h5⟩, ⟨h2, h3⟩, h0, h1⟩ := F.inBounds3.1 hc
    rw [F.ring3, (S2 i j k h0 h1 h2 h3 h4 h5).rd, add_zero]
  · obtain ⟨i, j, k, rfl, ⟨h4, h5⟩, ⟨h2, h3⟩, h0, h1⟩ := F.inBounds3.1 hc
    exact S3 i j k e h0 h1 h2 h3 h4 h5 e1 (by omega)

theorem okb {α β : Type} {x : M α} {y : α} {g : α → M β} {z : β} (hx : x = .ok y) (h : g y = .ok z) : (x >>= g) = .ok z := by subst hx; exact h

/-! ### where the adjustment of the diagonal does nothing -/

theorem adjdiag1_skip {i0 i1 pi0 pi1 side btype exOrder sgcw : Int} {dx : Nat → T} {beta : T} {b0_ st_ : Ptr} {β : Backend} {m m' : Mem T}
    (hi : i0 ≤ i1) (hg : 0 ≤ sgcw) (hl : Layer1 i0 i1 0 pi0 pi1 side)
    (hq : (btype = 0 ∧ exOrder = 1) ∨ (btype = 0 ∧ exOrder = 2) ∨ btype = 1 ∨ (btype = 4 ∧ exOrder = 1))
    (h : F.Args m [(F.face1d b0_ i0 i1 0)] [(F.st1d st_ i0 i1 sgcw)]) :
    Cuda.adjDiag1d i0 i1 pi0 pi1 side btype exOrder dx beta b0_ sgcw st_ β m' = .ok m' := by
  obtain ⟨Ast, spst, Ii⟩ := st1_setup (h.ok (F.st1d st_ i0 i1 sgcw) (by simp)) hi hg
  obtain ⟨-, plI, J0⟩ := face1_setup (h.ok (F.face1d b0_ i0 i1 0) (by simp)) hi
  have mkI := mkB_near (d := .I) (lo := i0) (hi := i1) (by rng)
  have mkW := mkB_near (d := .W) (lo := 0) (hi := 2) (by rng)
  obtain ⟨hs, hx, nI⟩ := hl
  have mkPI := mkB_near (d := .I) (lo := pi0) nI.2
  unfold Cuda.adjDiag1d
  refine okb mkI <| okb mkPI <| okb mkW <| okb spst <| okb plI <| ?_
  rcases hq with ⟨rfl, rfl⟩ | ⟨rfl, rfl⟩ | rfl | ⟨rfl, rfl⟩
  · simp [Cuda.adjDiagBt0, Cuda.adjDiagBt4]
  · simp [Cuda.adjDiagBt0, Cuda.adjDiagBt4]
  · simp [Cuda.adjDiagBt0, Cuda.adjDiagBt4]
  · simp only [↓reduceIte, Int.reduceEq, ne_eq, not_false_eq_true, not_true_eq_false, false_and, and_false, true_and]
    exact okb (localize_ok (l := pi0 - 2 * side + 1) (by omega) nI.1 rfl) (by simp [Cuda.adjDiagBt4])

theorem padjdiag1_skip {i0 i1 pi0 pi1 side btype exOrder sgcw : Int} {dx : Nat → T} {beta : T} {st_ : Ptr} {β : Backend} {m m' : Mem T}
    (hi : i0 ≤ i1) (hg : 0 ≤ sgcw) (hl : Layer1 i0 i1 0 pi0 pi1 side)
    (hq : (btype = 0 ∧ exOrder = 1) ∨ (btype = 0 ∧ exOrder = 2) ∨ btype = 1 ∨ (btype = 4 ∧ exOrder = 1))
    (h : F.Args m [] [(F.st1d st_ i0 i1 sgcw)]) :
    Cuda.adjPoissonDiag1d i0 i1 pi0 pi1 side btype exOrder dx beta sgcw st_ β m' = .ok m' := by
  obtain ⟨Ast, spst, Ii⟩ := st1_setup (h.ok (F.st1d st_ i0 i1 sgcw) (by simp)) hi hg
  have mkI := mkB_near (d := .I) (lo := i0) (hi := i1) (by rng)
  have mkW := mkB_near (d := .W) (lo := 0) (hi := 2) (by rng)
  obtain ⟨hs, hx, nI⟩ := hl
  have mkPI := mkB_near (d := .I) (lo := pi0) nI.2
  unfold Cuda.adjPoissonDiag1d
  refine okb mkI <| okb mkPI <| okb mkW <| okb spst <| ?_
  rcases hq with ⟨rfl, rfl⟩ | ⟨rfl, rfl⟩ | rfl | ⟨rfl, rfl⟩
  · simp [Cuda.adjDiagBt0, Cuda.adjDiagBt4]
  · simp [Cuda.adjDiagBt0, Cuda.adjDiagBt4]
  · simp [Cuda.adjDiagBt0, Cuda.adjDiagBt4]
  · simp [Cuda.adjDiagBt0, Cuda.adjDiagBt4]

theorem adjdiag2_skip {i0 j0 i1 j1 pi0 pj0 pi1 pj1 dir side btype exOrder sgcw : Int} {dx : Nat → T} {beta : T} {b0_ b1_ st_ : Ptr} {β : Backend} {m m' : Mem T}
    (hi : i0 ≤ i1) (hj : j0 ≤ j1) (hg : 0 ≤ sgcw) (hl : Layer2 i0 j0 i1 j1 0 pi0 pj0 pi1 pj1 dir side)
    (hq : (btype = 0 ∧ exOrder = 1) ∨ btype = 1 ∨ (btype = 4 ∧ exOrder = 1))
    (h : F.Args m [(F.face2d0 b0_ i0 j0 i1 j1 0), (F.face2d1 b1_ i0 j0 i1 j1 0)] [(F.st2d st_ i0 j0 i1 j1 sgcw)]) :
    Cuda.adjDiag2d i0 j0 i1 j1 pi0 pj0 pi1 pj1 dir side btype exOrder dx beta b0_ b1_ sgcw st_ β m' = .ok m' := by
  obtain ⟨Ast, spst, Ii, Ij⟩ := st2_setup (h.ok (F.st2d st_ i0 j0 i1 j1 sgcw) (by simp)) hi hj hg
  obtain ⟨-, plI, J0⟩ := face20_setup (h.ok (F.face2d0 b0_ i0 j0 i1 j1 0) (by simp)) hi hj
  obtain ⟨-, plJ, J1⟩ := face21_setup (h.ok (F.face2d1 b1_ i0 j0 i1 j1 0) (by simp)) hi hj
  have mkI := mkB_near (d := .I) (lo := i0) (hi := i1) (by rng)
  have mkJ := mkB_near (d := .J) (lo := j0) (hi := j1) (by rng)
  have mkW := mkB_near (d := .W) (lo := 0) (hi := 4) (by rng)
  obtain ⟨hd, hs, hx, hy, nI, nJ⟩ := hl
  have mkPI := mkB_near (d := .I) (lo := pi0) nI.2
  have mkPJ := mkB_near (d := .J) (lo := pj0) nJ.2
  unfold Cuda.adjDiag2d
  have hd : dir = 0 ∨ dir = 1 := by omega
  rcases hd with rfl | rfl
  · refine okb mkI <| okb mkPI <| okb mkJ <| okb mkPJ <| okb mkW <| okb spst <| okb plI <| okb plJ <| okb (y := dx 0) rfl <| ?_
    rcases hq with ⟨rfl, rfl⟩ | rfl | ⟨rfl, rfl⟩
    · simp only [↓reduceIte, Int.reduceEq, ne_eq, not_false_eq_true, not_true_eq_false, false_and, and_false, true_and]
      exact okb (localizeEdge_ok hs nI.1 rfl) (by simp [Cuda.adjDiagBt0])
    · simp [Cuda.adjDiagBt0, Cuda.adjDiagBt4]
    · simp only [↓reduceIte, Int.reduceEq, ne_eq, not_false_eq_true, not_true_eq_false, false_and, and_false, true_and]
      exact okb (localize_ok (l := pi0 - 2 * side + 1) (by omega) nI.1 rfl) (by simp [Cuda.adjDiagBt4])
  · refine okb mkI <| okb mkPI <| okb mkJ <| okb mkPJ <| okb mkW <| okb spst <| okb plI <| okb plJ <| okb (y := dx 1) rfl <| ?_
    rcases hq with ⟨rfl, rfl⟩ | rfl | ⟨rfl, rfl⟩
    · simp only [↓reduceIte, Int.reduceEq, ne_eq, not_false_eq_true, not_true_eq_false, false_and, and_false, true_and]
      exact okb (localizeEdge_ok hs nJ.1 rfl) (by simp [Cuda.adjDiagBt0])
    · simp [Cuda.adjDiagBt0, Cuda.adjDiagBt4]
    · simp [Cuda.adjDiagBt0, Cuda.adjDiagBt4]

theorem padjdiag2_skip {i0 j0 i1 j1 pi0 pj0 pi1 pj1 dir side btype exOrder sgcw : Int} {dx : Nat → T} {beta : T} {st_ : Ptr} {β : Backend} {m m' : Mem T}
    (hi : i0 ≤ i1) (hj : j0 ≤ j1) (hg : 0 ≤ sgcw) (hl : Layer2 i0 j0 i1 j1 0 pi0 pj0 pi1 pj1 dir side)
    (hq : (btype = 0 ∧ exOrder = 1) ∨ (btype = 0 ∧ exOrder = 2) ∨ btype = 1 ∨ (btype = 4 ∧ exOrder = 1))
    (h : F.Args m [] [(F.st2d st_ i0 j0 i1 j1 sgcw)]) :
    Cuda.adjPoissonDiag2d i0 j0 i1 j1 pi0 pj0 pi1 pj1 dir side btype exOrder dx beta sgcw st_ β m' = .ok m' := by
  obtain ⟨Ast, spst, Ii, Ij⟩ := st2_setup (h.ok (F.st2d st_ i0 j0 i1 j1 sgcw) (by simp)) hi hj hg
  have mkI := mkB_near (d := .I) (lo := i0) (hi := i1) (by rng)
  have mkJ := mkB_near (d := .J) (lo := j0) (hi := j1) (by rng)
  have mkW := mkB_near (d := .W) (lo := 0) (hi := 4) (by rng)
  obtain ⟨hd, hs, hx, hy, nI, nJ⟩ := hl
  have mkPI := mkB_near (d := .I) (lo := pi0) nI.2
  have mkPJ := mkB_near (d := .J) (lo := pj0) nJ.2
  unfold Cuda.adjPoissonDiag2d
  have hd : dir = 0 ∨ dir = 1 := by omega
  rcases hd with rfl | rfl
  · refine okb mkI <| okb mkPI <| okb mkJ <| okb mkPJ <| okb mkW <| okb spst <| okb (y := dx 0) rfl <| ?_
    rcases hq with ⟨rfl, rfl⟩ | ⟨rfl, rfl⟩ | rfl | ⟨rfl, rfl⟩
    · simp [Cuda.adjDiagBt0, Cuda.adjDiagBt4]
    · simp [Cuda.adjDiagBt0, Cuda.adjDiagBt4]
    · simp [Cuda.adjDiagBt0, Cuda.adjDiagBt4]
    · simp [Cuda.adjDiagBt0, Cuda.adjDiagBt4]
  · refine okb mkI <| okb mkPI <| okb mkJ <| okb mkPJ <| okb mkW <| okb spst <| okb (y := dx 1) rfl <| ?_
    rcases hq with ⟨rfl, rfl⟩ | ⟨rfl, rfl⟩ | rfl | ⟨rfl, rfl⟩
    · simp [Cuda.adjDiagBt0, Cuda.adjDiagBt4]
    · simp [Cuda.adjDiagBt0, Cuda.adjDiagBt4]
    · simp [Cuda.adjDiagBt0, Cuda.adjDiagBt4]
    · simp [Cuda.adjDiagBt0, Cuda.adjDiagBt4]

theorem adjdiag3_skip {i0 j0 k0 i1 j1 k1 pi0 pj0 pk0 pi1 pj1 pk1 dir side btype exOrder sgcw : Int} {dx : Nat → T} {beta : T} {b0_ b1_ b2_ st_ : Ptr} {β : Backend} {m m' : Mem T}
    (hi : i0 ≤ i1) (hj : j0 ≤ j1) (hk : k0 ≤ k1) (hg : 0 ≤ sgcw) (hl : Layer3 i0 j0 k0 i1 j1 k1 0 pi0 pj0 pk0 pi1 pj1 pk1 dir side)
    (hq : (btype = 0 ∧ exOrder = 1) ∨ btype = 1 ∨ (btype = 4 ∧ exOrder = 1))
    (h : F.Args m [(F.face3d0 b0_ i0 j0 k0 i1 j1 k1 0), (F.face3d1 b1_ i0 j0 k0 i1 j1 k1 0), (F.face3d2 b2_ i0 j0 k0 i1 j1 k1 0)] [(F.st3d st_ i0 j0 k0 i1 j1 k1 sgcw)]) :
    Cuda.adjDiag3d i0 j0 k0 i1 j1 k1 pi0 pj0 pk0 pi1 pj1 pk1 dir side btype exOrder dx beta b0_ b1_ b2_ sgcw st_ β m' = .ok m' := by
  obtain ⟨Ast, spst, Ii, Ij, Ik⟩ := st3_setup (h.ok (F.st3d st_ i0 j0 k0 i1 j1 k1 sgcw) (by simp)) hi hj hk hg
  obtain ⟨-, plI, J0⟩ := face30_setup (h.ok (F.face3d0 b0_ i0 j0 k0 i1 j1 k1 0) (by simp)) hi hj hk
  obtain ⟨-, plJ, J1⟩ := face31_setup (h.ok (F.face3d1 b1_ i0 j0 k0 i1 j1 k1 0) (by simp)) hi hj hk
  obtain ⟨-, plK, J2⟩ := face32_setup (h.ok (F.face3d2 b2_ i0 j0 k0 i1 j1 k1 0) (by simp)) hi hj hk
  have mkI := mkB_near (d := .I) (lo := i0) (hi := i1) (by rng)
  have mkJ := mkB_near (d := .J) (lo := j0) (hi := j1) (by rng)
  have mkK := mkB_near (d := .K) (lo := k0) (hi := k1) (by rng)
  have mkW := mkB_near (d := .W) (lo := 0) (hi := 6) (by rng)
  obtain ⟨hd, hs, hx, hy, hz, nI, nJ, nK⟩ := hl
  have mkPI := mkB_near (d := .I) (lo := pi0) nI.2
  have mkPJ := mkB_near (d := .J) (lo := pj0) nJ.2
  have mkPK := mkB_near (d := .K) (lo := pk0) nK.2
  unfold Cuda.adjDiag3d
  have hd : dir = 0 ∨ dir = 1 ∨ dir = 2 := by omega
  rcases hd with rfl | rfl | rfl
  · refine okb mkI <| okb mkPI <| okb mkJ <| okb mkPJ <| okb mkK <| okb mkPK <| okb mkW <| okb spst <| okb plI <| okb plJ <| okb plK <| okb (y := dx 0) rfl <| okb (localize_ok (l := pi0 - 2 * side + 1) (by omega) nI.1 rfl) <| okb (localize_ok (l := pj0 - 2 * side + 1) (by omega) nJ.1 rfl) <| okb (localize_ok (l := pk0 - 2 * side + 1) (by omega) nK.1 rfl) <| ?_
    rcases hq with ⟨rfl, rfl⟩ | rfl | ⟨rfl, rfl⟩
    · simp [Cuda.adjDiagBt0, Cuda.adjDiagBt4]
    · simp [Cuda.adjDiagBt0, Cuda.adjDiagBt4]
    · simp [Cuda.adjDiagBt0, Cuda.adjDiagBt4]
  · refine okb mkI <| okb mkPI <| okb mkJ <| okb mkPJ <| okb mkK <| okb mkPK <| okb mkW <| okb spst <| okb plI <| okb plJ <| okb plK <| okb (y := dx 1) rfl <| okb (localize_ok (l := pi0 - 2 * side + 1) (by omega) nI.1 rfl) <| okb (localize_ok (l := pj0 - 2 * side + 1) (by omega) nJ.1 rfl) <| okb (localize_ok (l := pk0 - 2 * side + 1) (by omega) nK.1 rfl) <| ?_
    rcases hq with ⟨rfl, rfl⟩ | rfl | ⟨rfl, rfl⟩
    · simp [Cuda.adjDiagBt0, Cuda.adjDiagBt4]
    · simp [Cuda.adjDiagBt0, Cuda.adjDiagBt4]
    · simp [Cuda.adjDiagBt0, Cuda.adjDiagBt4]
  · refine okb mkI <| okb mkPI <| okb mkJ <| okb mkPJ <| okb mkK <| okb mkPK <| okb mkW <| okb spst <| okb plI <| okb plJ <| okb plK <| okb (y := dx 2) rfl <| okb (localize_ok (l := pi0 - 2 * side + 1) (by omega) nI.1 rfl) <| okb (localize_ok (l := pj0 - 2 * side + 1) (by omega) nJ.1 rfl) <| okb (localize_ok (l := pk0 - 2 * side + 1) (by omega) nK.1 rfl) <| ?_
    rcases hq with ⟨rfl, rfl⟩ | rfl | ⟨rfl, rfl⟩
    · simp [Cuda.adjDiagBt0, Cuda.adjDiagBt4]
    · simp [Cuda.adjDiagBt0, Cuda.adjDiagBt4]
    · simp [Cuda.adjDiagBt0, Cuda.adjDiagBt4]

theorem padjdiag3_skip {i0 j0 k0 i1 j1 k1 pi0 pj0 pk0 pi1 pj1 pk1 dir side btype exOrder sgcw : Int} {dx : Nat → T} {beta : T} {st_ : Ptr} {β : Backend} {m m' : Mem T}
    (hi : i0 ≤ i1) (hj : j0 ≤ j1) (hk : k0 ≤ k1) (hg : 0 ≤ sgcw) (hl : Layer3 i0 j0 k0 i1 j1 k1 0 pi0 pj0 pk0 pi1 pj1 pk1 dir side)
    (hq : (btype = 0 ∧ exOrder = 1) ∨ btype = 1 ∨ (btype = 4 ∧ exOrder = 1))
    (h : F.Args m [] [(F.st3d st_ i0 j0 k0 i1 j1 k1 sgcw)]) :
    Cuda.adjPoissonDiag3d i0 j0 k0 i1 j1 k1 pi0 pj0 pk0 pi1 pj1 pk1 dir side btype exOrder dx beta sgcw st_ β m' = .ok m' := by
  obtain ⟨Ast, spst, Ii, Ij, Ik⟩ := st3_setup (h.ok (F.st3d st_ i0 j0 k0 i1 j1 k1 sgcw) (by simp)) hi hj hk hg
  have mkI := mkB_near (d := .I) (lo := i0) (hi := i1) (by rng)
  have mkJ := mkB_near (d := .J) (lo := j0) (hi := j1) (by rng)
  have mkK := mkB_near (d := .K) (lo := k0) (hi := k1) (by rng)
  have mkW := mkB_near (d := .W) (lo := 0) (hi := 6) (by rng)
  obtain ⟨hd, hs, hx, hy, hz, nI, nJ, nK⟩ := hl
  have mkPI := mkB_near (d := .I) (lo := pi0) nI.2
  have mkPJ := mkB_near (d := .J) (lo := pj0) nJ.2
  have mkPK := mkB_near (d := .K) (lo := pk0) nK.2
  unfold Cuda.adjPoissonDiag3d
  have hd : dir = 0 ∨ dir = 1 ∨ dir = 2 := by omega
  rcases hd with rfl | rfl | rfl
  · refine okb mkI <| okb mkPI <| okb mkJ <| okb mkPJ <| okb mkK <| okb mkPK <| okb mkW <| okb spst <| okb (y := dx 0) rfl <| ?_
    rcases hq with ⟨rfl, rfl⟩ | rfl | ⟨rfl, rfl⟩
    · simp [Cuda.adjDiagBt0, Cuda.adjDiagBt4]
    · simp only [↓reduceIte, Int.reduceEq, ne_eq, not_false_eq_true, not_true_eq_false, false_and, and_false, true_and]
      split
      · rfl
      · exact okb (localize_ok (l := pi0 - 2 * side + 1) (by omega) nI.1 rfl) <| okb (localize_ok (l := pj0 - 2 * side + 1) (by omega) nJ.1 rfl) <| okb (localize_ok (l := pk0 - 2 * side + 1) (by omega) nK.1 rfl) <| rfl
    · simp [Cuda.adjDiagBt0, Cuda.adjDiagBt4]
  · refine okb mkI <| okb mkPI <| okb mkJ <| okb mkPJ <| okb mkK <| okb mkPK <| okb mkW <| okb spst <| okb (y := dx 1) rfl <| ?_
    rcases hq with ⟨rfl, rfl⟩ | rfl | ⟨rfl, rfl⟩
    · simp [Cuda.adjDiagBt0, Cuda.adjDiagBt4]
    · simp only [↓reduceIte, Int.reduceEq, ne_eq, not_false_eq_true, not_true_eq_false, false_and, and_false, true_and]
      split
      · rfl
      · exact okb (localize_ok (l := pi0 - 2 * side + 1) (by omega) nI.1 rfl) <| okb (localize_ok (l := pj0 - 2 * side + 1) (by omega) nJ.1 rfl) <| okb (localize_ok (l := pk0 - 2 * side + 1) (by omega) nK.1 rfl) <| rfl
    · simp [Cuda.adjDiagBt0, Cuda.adjDiagBt4]
  · refine okb mkI <| okb mkPI <| okb mkJ <| okb mkPJ <| okb mkK <| okb mkPK <| okb mkW <| okb spst <| okb (y := dx 2) rfl <| ?_
    rcases hq with ⟨rfl, rfl⟩ | rfl | ⟨rfl, rfl⟩
    · simp [Cuda.adjDiagBt0, Cuda.adjDiagBt4]
    · simp only [↓reduceIte, Int.reduceEq, ne_eq, not_false_eq_true, not_true_eq_false, false_and, and_false, true_and]
      split
      · rfl
      · exact okb (localize_ok (l := pi0 - 2 * side + 1) (by omega) nI.1 rfl) <| okb (localize_ok (l := pj0 - 2 * side + 1) (by omega) nJ.1 rfl) <| okb (localize_ok (l := pk0 - 2 * side + 1) (by omega) nK.1 rfl) <| rfl
    · simp [Cuda.adjDiagBt0, Cuda.adjDiagBt4]

/-! ### places -/

theorem F.rd_only {m m' : Mem T} {a o : F.Arr} (h : F.Only [o] m m') (ha : F.Apart o a) {is : List Int} (hi : F.InBounds a.dims is) :
    F.rd m' a is = F.rd m a is := by
  unfold F.rd ld
  rw [h.val _ fun b hb js hj e => by simp at hb; subst hb; exact ha js is hj hi e]

theorem in_cell1 {i0 i1 ai0 ai1 : Int} {a_ : Ptr} {c : List Int} (h : F.InBounds [(i0, i1)] c) (hai : ai0 ≤ i0 ∧ i1 ≤ ai1) : F.InBounds (F.cell1d a_ ai0 ai1 0).dims c := by
  obtain ⟨i, rfl, h⟩ := F.inBounds1.1 h
  simp only [F.cell1d, F.InBounds, and_true]
  omega

theorem st_in1 {i0 i1 sgcw e : Int} {st_ : Ptr} {c : List Int} (h : F.InBounds [(i0, i1)] c) (hg : 0 ≤ sgcw) (h0 : 0 ≤ e) (h1 : e ≤ 2) :
    F.InBounds (F.st1d st_ i0 i1 sgcw).dims (e :: c) := by
  obtain ⟨i, rfl, h⟩ := F.inBounds1.1 h
  simp only [F.st1d, F.InBounds, and_true]
  omega

theorem layer1_in {i0 i1 pi0 pi1 side : Int} {c : List Int} (hl : Layer1 i0 i1 0 pi0 pi1 side) (hc : F.layer1 pi0 side c) : F.InBounds [(i0, i1)] c := by
  obtain rfl : c = [pi0 - 2 * side + 1] := hc
  have h1 := hl.x
  simp only [F.InBounds, and_true]
  omega

theorem onFace1_holds {i0 i1 pi0 pi1 side : Int} {b0_ : Ptr} {m : Mem T} {B0 : List Int → T} {c : List Int} (hl : Layer1 i0 i1 0 pi0 pi1 side) (hc : F.layer1 pi0 side c) (hB0 : F.Holds m (F.face1d b0_ i0 i1 0) B0) :
    F.onFace1 (F.rd m (F.face1d b0_ i0 i1 0)) side c = F.onFace1 B0 side c := by
  have hs := hl.hside
  obtain rfl : c = [pi0 - 2 * side + 1] := hc
  have h1 := hl.x
  simp only [F.onFace1]
  exact (hB0 _ (by simp only [F.face1d, F.InBounds, and_true]; omega)).rd

theorem in_cell2 {i0 j0 i1 j1 ai0 aj0 ai1 aj1 : Int} {a_ : Ptr} {c : List Int} (h : F.InBounds [(i0, i1), (j0, j1)] c) (hai : ai0 ≤ i0 ∧ i1 ≤ ai1) (haj : aj0 ≤ j0 ∧ j1 ≤ aj1) : F.InBounds (F.cell2d a_ ai0 aj0 ai1 aj1 0).dims c := by
  obtain ⟨i, j, rfl, h⟩ := F.inBounds2.1 h
  simp only [F.cell2d, F.InBounds, and_true]
  omega

theorem st_in2 {i0 j0 i1 j1 sgcw e : Int} {st_ : Ptr} {c : List Int} (h : F.InBounds [(i0, i1), (j0, j1)] c) (hg : 0 ≤ sgcw) (h0 : 0 ≤ e) (h1 : e ≤ 4) :
    F.InBounds (F.st2d st_ i0 j0 i1 j1 sgcw).dims (e :: c) := by
  obtain ⟨i, j, rfl, h⟩ := F.inBounds2.1 h
  simp only [F.st2d, F.InBounds, and_true]
  omega

theorem layer2_in {i0 j0 i1 j1 pi0 pj0 pi1 pj1 dir side : Int} {c : List Int} (hl : Layer2 i0 j0 i1 j1 0 pi0 pj0 pi1 pj1 dir side) (hc : F.layer2 pi0 pj0 pi1 pj1 dir side c) : F.InBounds [(i0, i1), (j0, j1)] c := by
  obtain ⟨i, j, rfl, hc⟩ := hc
  have h1 := hl.x
  have h2 := hl.y
  simp only [F.InBounds, and_true]
  omega

theorem onFace2_holds {i0 j0 i1 j1 pi0 pj0 pi1 pj1 dir side : Int} {b0_ b1_ : Ptr} {m : Mem T} {B0 B1 : List Int → T} {c : List Int} (hl : Layer2 i0 j0 i1 j1 0 pi0 pj0 pi1 pj1 dir side) (hc : F.layer2 pi0 pj0 pi1 pj1 dir side c) (hB0 : F.Holds m (F.face2d0 b0_ i0 j0 i1 j1 0) B0) (hB1 : F.Holds m (F.face2d1 b1_ i0 j0 i1 j1 0) B1) :
    F.onFace2 (F.rd m (F.face2d0 b0_ i0 j0 i1 j1 0)) (F.rd m (F.face2d1 b1_ i0 j0 i1 j1 0)) dir side c = F.onFace2 B0 B1 dir side c := by
  have hs := hl.hside
  obtain ⟨i, j, rfl, hc⟩ := hc
  have h1 := hl.x
  have h2 := hl.y
  simp only [F.onFace2]
  split
  · exact (hB0 _ (by simp only [F.face2d0, F.InBounds, and_true]; omega)).rd
  · exact (hB1 _ (by simp only [F.face2d1, F.InBounds, and_true]; omega)).rd

theorem in_cell3 {i0 j0 k0 i1 j1 k1 ai0 aj0 ak0 ai1 aj1 ak1 : Int} {a_ : Ptr} {c : List Int} (h : F.InBounds [(i0, i1), (j0, j1), (k0, k1)] c) (hai : ai0 ≤ i0 ∧ i1 ≤ ai1) (haj : aj0 ≤ j0 ∧ j1 ≤ aj1) (hak : ak0 ≤ k0 ∧ k1 ≤ ak1) : F.InBounds (F.cell3d a_ ai0 aj0 ak0 ai1 aj1 ak1 0).dims c := by
  obtain ⟨i, j, k, rfl, h⟩ := F.inBounds3.1 h
  simp only [F.cell3d, F.InBounds, and_true]
  omega

theorem st_in3 {i0 j0 k0 i1 j1 k1 sgcw e : Int} {st_ : Ptr} {c : List Int} (h : F.InBounds [(i0, i1), (j0, j1), (k0, k1)] c) (hg : 0 ≤ sgcw) (h0 : 0 ≤ e) (h1 : e ≤ 6) :
    F.InBounds (F.st3d st_ i0 j0 k0 i1 j1 k1 sgcw).dims (e :: c) := by
  obtain ⟨i, j, k, rfl, h⟩ := F.inBounds3.1 h
  simp only [F.st3d, F.InBounds, and_true]
  omega

theorem layer3_in {i0 j0 k0 i1 j1 k1 pi0 pj0 pk0 pi1 pj1 pk1 dir side : Int} {c : List Int} (hl : Layer3 i0 j0 k0 i1 j1 k1 0 pi0 pj0 pk0 pi1 pj1 pk1 dir side) (hc : F.layer3 pi0 pj0 pk0 pi1 pj1 pk1 dir side c) : F.InBounds [(i0, i1), (j0, j1), (k0, k1)] c := by
  obtain ⟨i, j, k, rfl, hc⟩ := hc
  have h1 := hl.x
  have h2 := hl.y
  have h3 := hl.z
  simp only [F.InBounds, and_true]
  omega

theorem onFace3_holds {i0 j0 k0 i1 j1 k1 pi0 pj0 pk0 pi1 pj1 pk1 dir side : Int} {b0_ b1_ b2_ : Ptr} {m : Mem T} {B0 B1 B2 : List Int → T} {c : List Int} (hl : Layer3 i0 j0 k0 i1 j1 k1 0 pi0 pj0 pk0 pi1 pj1 pk1 dir side) (hc : F.layer3 pi0 pj0 pk0 pi1 pj1 pk1 dir side c) (hB0 : F.Holds m (F.face3d0 b0_ i0 j0 k0 i1 j1 k1 0) B0) (hB1 : F.Holds m (F.face3d1 b1_ i0 j0 k0 i1 j1 k1 0) B1) (hB2 : F.Holds m (F.face3d2 b2_ i0 j0 k0 i1 j1 k1 0) B2) :
    F.onFace3 (F.rd m (F.face3d0 b0_ i0 j0 k0 i1 j1 k1 0)) (F.rd m (F.face3d1 b1_ i0 j0 k0 i1 j1 k1 0)) (F.rd m (F.face3d2 b2_ i0 j0 k0 i1 j1 k1 0)) dir side c = F.onFace3 B0 B1 B2 dir side c := by
  have hs := hl.hside
  obtain ⟨i, j, k, rfl, hc⟩ := hc
  have h1 := hl.x
  have h2 := hl.y
  have h3 := hl.z
  simp only [F.onFace3]
  split
  · exact (hB0 _ (by simp only [F.face3d0, F.InBounds, and_true]; omega)).rd
  ·
    split
    · exact (hB1 _ (by simp only [F.face3d1, F.InBounds, and_true]; omega)).rd
    · exact (hB2 _ (by simp only [F.face3d2, F.InBounds, and_true]; omega)).rd

end Verif
