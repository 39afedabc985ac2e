import Verif.Lemmas.Bridge
import Verif.Lemmas.EliminateRun

/-
What the kernels for coarse-fine boundaries do to the rows.
-/

set_option linter.unusedVariables false
set_option linter.unusedSectionVars false
set_option linter.unusedSimpArgs false
set_option linter.unusedTactic false
set_option linter.unreachableTactic false

namespace Verif
open Spec

variable {T : Type} [Field T]

theorem cfdiag1_does {i0 i1 pi0 pi1 r side k sgcw : Int} {dx : Nat → T} {beta : T} {b0_ st_ : Ptr} {β : Backend} {m : Mem T}
    (hβ : ValidBackend β) (hi : i0 ≤ i1) (hg : 0 ≤ sgcw) (hl : Layer1 i0 i1 0 pi0 pi1 side) (hq : k = 1 ∨ k = 2)
    (h : F.Args m [(F.face1d b0_ i0 i1 0)] [(F.st1d st_ i0 i1 sgcw)])
    (hx : ∀ c, F.layer1 pi0 side c → F.rd m (F.st1d st_ i0 i1 sgcw) ((1 + side) :: c) = -(beta / (dx 0 * dx 0)) * F.onFace1 (F.rd m (F.face1d b0_ i0 i1 0)) side c) :
    F.Adjusts (Cuda.adjCfDiag1d i0 i1 pi0 pi1 r side k dx beta b0_ sgcw st_ β m) m (F.st1d st_ i0 i1 sgcw) (F.layer1 pi0 side) (1 + side) 0 (fun _ => 1) (fun _ => cfD T r k) := by
  have hst := h.ok (F.st1d st_ i0 i1 sgcw) (by simp)
  obtain ⟨Ast, spst, Ii⟩ := st1_setup hst hi hg
  have hb0 := h.ok (F.face1d b0_ i0 i1 0) (by simp)
  obtain ⟨Ab0, plI, J0⟩ := face1_setup hb0 hi
  have Pb0 : Apart (sSt1 st_ i0 i1 sgcw) (sFace1 b0_ i0 i1) := apart_of farr_st1 farr_face1 (h.apart _ (by simp) _ (by simp))
  have mkI := mkB_near (d := .I) (lo := i0) (hi := i1) (by rng)
  have mkW := mkB_near (d := .W) (lo := 0) (hi := 2) (by rng)
  obtain ⟨hs, hxx, nI⟩ := hl
  unfold Cuda.adjCfDiag1d
  rw [← farr_st1]
  rcases hs with rfl | rfl
  · show F.Adjusts _ m _ _ 1 0 _ _
    refine F.Adjusts.bind mkI <| F.Adjusts.bind mkW <| F.Adjusts.bind spst <| F.Adjusts.bind plI <| F.Adjusts.bind (localize_ok (l := pi0 - 2 * 0 + 1) (by omega) nI.1 rfl) <| ?_
    rcases hq with rfl | rfl
    · exact (cfd1 (seg1 (x := pi0 - 2 * 0 + 1) Ast (by omega) rfl) hβ (u := 1) (by omega) (by decide) (face_at1 (e := pi0 - 2 * 0 + 1 + 0) Ab0 Pb0 (by omega) (by omega) rfl) (dr := 2 * ((r : T) - 1) / ((r : T) + 1)) fun p hp => by
        have := hx _ (layer1_iff.1 ⟨p, hp, rfl⟩)
        simpa [farr_st1, F.onFace1] using this).congr (fun c => layer1_iff) (fun c hc => rfl) (fun c hc => rfl)
    · exact (cfd2 (seg1 (x := pi0 - 2 * 0 + 1) Ast (by omega) rfl) hβ (u := 1) (by omega) (by decide) (face_at1 (e := pi0 - 2 * 0 + 1 + 0) Ab0 Pb0 (by omega) (by omega) rfl) rfl fun p hp => by
        have := hx _ (layer1_iff.1 ⟨p, hp, rfl⟩)
        simpa [farr_st1, F.onFace1] using this).congr (fun c => layer1_iff) (fun c hc => rfl) (fun c hc => rfl)
  · show F.Adjusts _ m _ _ 2 0 _ _
    refine F.Adjusts.bind mkI <| F.Adjusts.bind mkW <| F.Adjusts.bind spst <| F.Adjusts.bind plI <| F.Adjusts.bind (localize_ok (l := pi0 - 2 * 1 + 1) (by omega) nI.1 rfl) <| ?_
    rcases hq with rfl | rfl
    · exact (cfd1 (seg1 (x := pi0 - 2 * 1 + 1) Ast (by omega) rfl) hβ (u := 2) (by omega) (by decide) (face_at1 (e := pi0 - 2 * 1 + 1 + 1) Ab0 Pb0 (by omega) (by omega) rfl) (dr := 2 * ((r : T) - 1) / ((r : T) + 1)) fun p hp => by
        have := hx _ (layer1_iff.1 ⟨p, hp, rfl⟩)
        simpa [farr_st1, F.onFace1] using this).congr (fun c => layer1_iff) (fun c hc => rfl) (fun c hc => rfl)
    · exact (cfd2 (seg1 (x := pi0 - 2 * 1 + 1) Ast (by omega) rfl) hβ (u := 2) (by omega) (by decide) (face_at1 (e := pi0 - 2 * 1 + 1 + 1) Ab0 Pb0 (by omega) (by omega) rfl) rfl fun p hp => by
        have := hx _ (layer1_iff.1 ⟨p, hp, rfl⟩)
        simpa [farr_st1, F.onFace1] using this).congr (fun c => layer1_iff) (fun c hc => rfl) (fun c hc => rfl)

theorem pcfdiag1_does {i0 i1 pi0 pi1 r side k sgcw : Int} {dx : Nat → T} {beta : T} {st_ : Ptr} {β : Backend} {m : Mem T}
    (hβ : ValidBackend β) (hi : i0 ≤ i1) (hg : 0 ≤ sgcw) (hl : Layer1 i0 i1 0 pi0 pi1 side) (hq : k = 1 ∨ k = 2)
    (h : F.Args m [] [(F.st1d st_ i0 i1 sgcw)])
    (hx : ∀ c, F.layer1 pi0 side c → F.rd m (F.st1d st_ i0 i1 sgcw) ((1 + side) :: c) = -(beta / (dx 0 * dx 0))) :
    F.Adjusts (Cuda.adjPoissonCfDiag1d i0 i1 pi0 pi1 r side k dx beta sgcw st_ β m) m (F.st1d st_ i0 i1 sgcw) (F.layer1 pi0 side) (1 + side) 0 (fun _ => 1) (fun _ => cfD T r k) := by
  have hst := h.ok (F.st1d st_ i0 i1 sgcw) (by simp)
  obtain ⟨Ast, spst, Ii⟩ := st1_setup hst hi hg
  have mkI := mkB_near (d := .I) (lo := i0) (hi := i1) (by rng)
  have mkW := mkB_near (d := .W) (lo := 0) (hi := 2) (by rng)
  obtain ⟨hs, hxx, nI⟩ := hl
  unfold Cuda.adjPoissonCfDiag1d
  rw [← farr_st1]
  rcases hs with rfl | rfl
  · show F.Adjusts _ m _ _ 1 0 _ _
    refine F.Adjusts.bind mkI <| F.Adjusts.bind mkW <| F.Adjusts.bind spst <| F.Adjusts.bind (localize_ok (l := pi0 - 2 * 0 + 1) (by omega) nI.1 rfl) <| ?_
    rcases hq with rfl | rfl
    · exact (pcfd1 (seg1 (x := pi0 - 2 * 0 + 1) Ast (by omega) rfl) hβ (u := 1) (by omega) (by decide) (dr := 2 * ((r : T) - 1) / ((r : T) + 1)) fun p hp => by
        have := hx _ (layer1_iff.1 ⟨p, hp, rfl⟩)
        simpa [farr_st1, F.onFace1] using this).congr (fun c => layer1_iff) (fun c hc => rfl) (fun c hc => rfl)
    · exact (pcfd2 (seg1 (x := pi0 - 2 * 0 + 1) Ast (by omega) rfl) hβ (u := 1) (by omega) (by decide) rfl fun p hp => by
        have := hx _ (layer1_iff.1 ⟨p, hp, rfl⟩)
        simpa [farr_st1, F.onFace1] using this).congr (fun c => layer1_iff) (fun c hc => rfl) (fun c hc => rfl)
  · show F.Adjusts _ m _ _ 2 0 _ _
    refine F.Adjusts.bind mkI <| F.Adjusts.bind mkW <| F.Adjusts.bind spst <| F.Adjusts.bind (localize_ok (l := pi0 - 2 * 1 + 1) (by omega) nI.1 rfl) <| ?_
    rcases hq with rfl | rfl
    · exact (pcfd1 (seg1 (x := pi0 - 2 * 1 + 1) Ast (by omega) rfl) hβ (u := 2) (by omega) (by decide) (dr := 2 * ((r : T) - 1) / ((r : T) + 1)) fun p hp => by
        have := hx _ (layer1_iff.1 ⟨p, hp, rfl⟩)
        simpa [farr_st1, F.onFace1] using this).congr (fun c => layer1_iff) (fun c hc => rfl) (fun c hc => rfl)
    · exact (pcfd2 (seg1 (x := pi0 - 2 * 1 + 1) Ast (by omega) rfl) hβ (u := 2) (by omega) (by decide) rfl fun p hp => by
        have := hx _ (layer1_iff.1 ⟨p, hp, rfl⟩)
        simpa [farr_st1, F.onFace1] using this).congr (fun c => layer1_iff) (fun c hc => rfl) (fun c hc => rfl)

theorem cfoff1_does {i0 i1 pi0 pi1 r side k sgcw : Int} {st_ : Ptr} {β : Backend} {m : Mem T}
    (hβ : ValidBackend β) (hi : i0 ≤ i1) (hg : 0 ≤ sgcw) (hl : Layer1 i0 i1 0 pi0 pi1 side) (hq : k = 1 ∨ k = 2)
    (h : F.Args m [] [(F.st1d st_ i0 i1 sgcw)]) :
    F.Adjusts (Cuda.adjCfOffdiag1d i0 i1 pi0 pi1 r side k sgcw st_ β m) m (F.st1d st_ i0 i1 sgcw) (F.layer1 pi0 side) (1 + side) (2 - side) (fun _ => cfU T r k) (fun _ => cfV T r k) := by
  have hst := h.ok (F.st1d st_ i0 i1 sgcw) (by simp)
  obtain ⟨Ast, spst, Ii⟩ := st1_setup hst hi hg
  have mkI := mkB_near (d := .I) (lo := i0) (hi := i1) (by rng)
  have mkW := mkB_near (d := .W) (lo := 0) (hi := 2) (by rng)
  obtain ⟨hs, hxx, nI⟩ := hl
  unfold Cuda.adjCfOffdiag1d
  rw [← farr_st1]
  rcases hs with rfl | rfl
  · show F.Adjusts _ m _ _ 1 2 _ _
    refine F.Adjusts.bind mkI <| F.Adjusts.bind (localize_ok (l := pi0 - 2 * 0 + 1) (by omega) nI.1 rfl) <| F.Adjusts.bind mkW <| F.Adjusts.bind spst <| F.Adjusts.bind (y := (1 : Int)) rfl <| F.Adjusts.bind (y := (2 : Int)) rfl <| ?_
    rcases hq with rfl | rfl
    · exact (cfo_1 (seg1 (x := pi0 - 2 * 0 + 1) Ast (by omega) rfl) hβ (by omega) (by omega) (by decide)).congr (fun c => layer1_iff) (fun c hc => rfl) (fun c hc => rfl)
    · exact (cfo_2 (seg1 (x := pi0 - 2 * 0 + 1) Ast (by omega) rfl) hβ (by omega) (by omega) (by decide)).congr (fun c => layer1_iff) (fun c hc => rfl) (fun c hc => rfl)
  · show F.Adjusts _ m _ _ 2 1 _ _
    refine F.Adjusts.bind mkI <| F.Adjusts.bind (localize_ok (l := pi0 - 2 * 1 + 1) (by omega) nI.1 rfl) <| F.Adjusts.bind mkW <| F.Adjusts.bind spst <| F.Adjusts.bind (y := (2 : Int)) rfl <| F.Adjusts.bind (y := (1 : Int)) rfl <| ?_
    rcases hq with rfl | rfl
    · exact (cfo_1 (seg1 (x := pi0 - 2 * 1 + 1) Ast (by omega) rfl) hβ (by omega) (by omega) (by decide)).congr (fun c => layer1_iff) (fun c hc => rfl) (fun c hc => rfl)
    · exact (cfo_2 (seg1 (x := pi0 - 2 * 1 + 1) Ast (by omega) rfl) hβ (by omega) (by omega) (by decide)).congr (fun c => layer1_iff) (fun c hc => rfl) (fun c hc => rfl)

theorem cfdiag2_does {i0 j0 i1 j1 pi0 pj0 pi1 pj1 r dir side k sgcw : Int} {dx : Nat → T} {beta : T} {b0_ b1_ st_ : Ptr} {β : Backend} {m : Mem T}
    (hβ : ValidBackend β) (hi : i0 ≤ i1) (hj : j0 ≤ j1) (hg : 0 ≤ sgcw) (hl : Layer2 i0 j0 i1 j1 0 pi0 pj0 pi1 pj1 dir side) (hq : k = 1 ∨ k = 2)
    (h : F.Args m [(F.face2d0 b0_ i0 j0 i1 j1 0), (F.face2d1 b1_ i0 j0 i1 j1 0)] [(F.st2d st_ i0 j0 i1 j1 sgcw)])
    (hx : ∀ c, F.layer2 pi0 pj0 pi1 pj1 dir side c → F.rd m (F.st2d st_ i0 j0 i1 j1 sgcw) ((2 * dir + 1 + side) :: c) = -(beta / (dx dir.toNat * dx dir.toNat)) * F.onFace2 (F.rd m (F.face2d0 b0_ i0 j0 i1 j1 0)) (F.rd m (F.face2d1 b1_ i0 j0 i1 j1 0)) dir side c) :
    F.Adjusts (Cuda.adjCfDiag2d i0 j0 i1 j1 pi0 pj0 pi1 pj1 r dir side k dx beta b0_ b1_ sgcw st_ β m) m (F.st2d st_ i0 j0 i1 j1 sgcw) (F.layer2 pi0 pj0 pi1 pj1 dir side) (2 * dir + 1 + side) 0 (fun _ => 1) (fun _ => cfD T r k) := by
  have hst := h.ok (F.st2d st_ i0 j0 i1 j1 sgcw) (by simp)
  obtain ⟨Ast, spst, Ii, Ij⟩ := st2_setup hst hi hj hg
  have hb0 := h.ok (F.face2d0 b0_ i0 j0 i1 j1 0) (by simp)
  obtain ⟨Ab0, plI, J0⟩ := face20_setup hb0 hi hj
  have Pb0 : Apart (sSt2 st_ i0 j0 i1 j1 sgcw) (sFace20 b0_ i0 j0 i1 j1) := apart_of farr_st2 farr_face20 (h.apart _ (by simp) _ (by simp))
  have hb1 := h.ok (F.face2d1 b1_ i0 j0 i1 j1 0) (by simp)
  obtain ⟨Ab1, plJ, J1⟩ := face21_setup hb1 hi hj
  have Pb1 : Apart (sSt2 st_ i0 j0 i1 j1 sgcw) (sFace21 b1_ i0 j0 i1 j1) := apart_of farr_st2 farr_face21 (h.apart _ (by simp) _ (by simp))
  have mkI := mkB_near (d := .I) (lo := i0) (hi := i1) (by rng)
  have mkJ := mkB_near (d := .J) (lo := j0) (hi := j1) (by rng)
  have mkW := mkB_near (d := .W) (lo := 0) (hi := 4) (by rng)
  obtain ⟨hd, hs, hxx, hy, nI, nJ⟩ := hl
  have mkPI := mkB_near (d := .I) (lo := pi0) nI.2
  have mkPJ := mkB_near (d := .J) (lo := pj0) nJ.2
  have hd : dir = 0 ∨ dir = 1 := by omega
  unfold Cuda.adjCfDiag2d
  rw [← farr_st2]
  rcases hd with rfl | rfl <;> rcases hs with rfl | rfl
  · replace hxx := hxx rfl
    show F.Adjusts _ m _ _ 1 0 _ _
    refine F.Adjusts.bind mkI <| F.Adjusts.bind mkPI <| F.Adjusts.bind mkJ <| F.Adjusts.bind mkPJ <| F.Adjusts.bind mkW <| F.Adjusts.bind spst <| F.Adjusts.bind plI <| F.Adjusts.bind plJ <| F.Adjusts.bind (y := dx 0) rfl <| F.Adjusts.bind (localize_ok (l := pi0 - 2 * 0 + 1) (by omega) nI.1 rfl) <| F.Adjusts.bind (localize_ok (l := pj0 - 2 * 0 + 1) (by omega) nJ.1 rfl) <| ?_
    rcases hq with rfl | rfl
    · exact (cfd1 (seg2_0 (x := pi0 - 2 * 0 + 1) Ast (by omega) (by omega) rfl) hβ (u := 1) (by omega) (by decide) (face_at20 (e := pi0 - 2 * 0 + 1 + 0) Ab0 Pb0 (by omega) (by omega) (by omega) rfl) (dr := 2 * ((r : T) - 1) / ((r : T) + 1)) fun p hp => by
        have := hx _ (layer2_0_iff.1 ⟨p, hp, rfl⟩)
        simpa [farr_st2, F.onFace2] using this).congr (fun c => layer2_0_iff) (fun c hc => rfl) (fun c hc => rfl)
    · exact (cfd2 (seg2_0 (x := pi0 - 2 * 0 + 1) Ast (by omega) (by omega) rfl) hβ (u := 1) (by omega) (by decide) (face_at20 (e := pi0 - 2 * 0 + 1 + 0) Ab0 Pb0 (by omega) (by omega) (by omega) rfl) rfl fun p hp => by
        have := hx _ (layer2_0_iff.1 ⟨p, hp, rfl⟩)
        simpa [farr_st2, F.onFace2] using this).congr (fun c => layer2_0_iff) (fun c hc => rfl) (fun c hc => rfl)
  · replace hxx := hxx rfl
    show F.Adjusts _ m _ _ 2 0 _ _
    refine F.Adjusts.bind mkI <| F.Adjusts.bind mkPI <| F.Adjusts.bind mkJ <| F.Adjusts.bind mkPJ <| F.Adjusts.bind mkW <| F.Adjusts.bind spst <| F.Adjusts.bind plI <| F.Adjusts.bind plJ <| F.Adjusts.bind (y := dx 0) rfl <| F.Adjusts.bind (localize_ok (l := pi0 - 2 * 1 + 1) (by omega) nI.1 rfl) <| F.Adjusts.bind (localize_ok (l := pj0 - 2 * 1 + 1) (by omega) nJ.1 rfl) <| ?_
    rcases hq with rfl | rfl
    · exact (cfd1 (seg2_0 (x := pi0 - 2 * 1 + 1) Ast (by omega) (by omega) rfl) hβ (u := 2) (by omega) (by decide) (face_at20 (e := pi0 - 2 * 1 + 1 + 1) Ab0 Pb0 (by omega) (by omega) (by omega) rfl) (dr := 2 * ((r : T) - 1) / ((r : T) + 1)) fun p hp => by
        have := hx _ (layer2_0_iff.1 ⟨p, hp, rfl⟩)
        simpa [farr_st2, F.onFace2] using this).congr (fun c => layer2_0_iff) (fun c hc => rfl) (fun c hc => rfl)
    · exact (cfd2 (seg2_0 (x := pi0 - 2 * 1 + 1) Ast (by omega) (by omega) rfl) hβ (u := 2) (by omega) (by decide) (face_at20 (e := pi0 - 2 * 1 + 1 + 1) Ab0 Pb0 (by omega) (by omega) (by omega) rfl) rfl fun p hp => by
        have := hx _ (layer2_0_iff.1 ⟨p, hp, rfl⟩)
        simpa [farr_st2, F.onFace2] using this).congr (fun c => layer2_0_iff) (fun c hc => rfl) (fun c hc => rfl)
  · replace hy := hy rfl
    show F.Adjusts _ m _ _ 3 0 _ _
    refine F.Adjusts.bind mkI <| F.Adjusts.bind mkPI <| F.Adjusts.bind mkJ <| F.Adjusts.bind mkPJ <| F.Adjusts.bind mkW <| F.Adjusts.bind spst <| F.Adjusts.bind plI <| F.Adjusts.bind plJ <| F.Adjusts.bind (y := dx 1) rfl <| F.Adjusts.bind (localize_ok (l := pi0 - 2 * 0 + 1) (by omega) nI.1 rfl) <| F.Adjusts.bind (localize_ok (l := pj0 - 2 * 0 + 1) (by omega) nJ.1 rfl) <| ?_
    rcases hq with rfl | rfl
    · exact (cfd1 (seg2_1 (x := pj0 - 2 * 0 + 1) Ast (by omega) (by omega) rfl) hβ (u := 3) (by omega) (by decide) (face_at21 (e := pj0 - 2 * 0 + 1 + 0) Ab1 Pb1 (by omega) (by omega) (by omega) rfl) (dr := 2 * ((r : T) - 1) / ((r : T) + 1)) fun p hp => by
        have := hx _ (layer2_1_iff.1 ⟨p, hp, rfl⟩)
        simpa [farr_st2, F.onFace2] using this).congr (fun c => layer2_1_iff) (fun c hc => rfl) (fun c hc => rfl)
    · exact (cfd2 (seg2_1 (x := pj0 - 2 * 0 + 1) Ast (by omega) (by omega) rfl) hβ (u := 3) (by omega) (by decide) (face_at21 (e := pj0 - 2 * 0 + 1 + 0) Ab1 Pb1 (by omega) (by omega) (by omega) rfl) rfl fun p hp => by
        have := hx _ (layer2_1_iff.1 ⟨p, hp, rfl⟩)
        simpa [farr_st2, F.onFace2] using this).congr (fun c => layer2_1_iff) (fun c hc => rfl) (fun c hc => rfl)
  · replace hy := hy rfl
    show F.Adjusts _ m _ _ 4 0 _ _
    refine F.Adjusts.bind mkI <| F.Adjusts.bind mkPI <| F.Adjusts.bind mkJ <| F.Adjusts.bind mkPJ <| F.Adjusts.bind mkW <| F.Adjusts.bind spst <| F.Adjusts.bind plI <| F.Adjusts.bind plJ <| F.Adjusts.bind (y := dx 1) rfl <| F.Adjusts.bind (localize_ok (l := pi0 - 2 * 1 + 1) (by omega) nI.1 rfl) <| F.Adjusts.bind (localize_ok (l := pj0 - 2 * 1 + 1) (by omega) nJ.1 rfl) <| ?_
    rcases hq with rfl | rfl
    · exact (cfd1 (seg2_1 (x := pj0 - 2 * 1 + 1) Ast (by omega) (by omega) rfl) hβ (u := 4) (by omega) (by decide) (face_at21 (e := pj0 - 2 * 1 + 1 + 1) Ab1 Pb1 (by omega) (by omega) (by omega) rfl) (dr := 2 * ((r : T) - 1) / ((r : T) + 1)) fun p hp => by
        have := hx _ (layer2_1_iff.1 ⟨p, hp, rfl⟩)
        simpa [farr_st2, F.onFace2] using this).congr (fun c => layer2_1_iff) (fun c hc => rfl) (fun c hc => rfl)
    · exact (cfd2 (seg2_1 (x := pj0 - 2 * 1 + 1) Ast (by omega) (by omega) rfl) hβ (u := 4) (by omega) (by decide) (face_at21 (e := pj0 - 2 * 1 + 1 + 1) Ab1 Pb1 (by omega) (by omega) (by omega) rfl) rfl fun p hp => by
        have := hx _ (layer2_1_iff.1 ⟨p, hp, rfl⟩)
        simpa [farr_st2, F.onFace2] using this).congr (fun c => layer2_1_iff) (fun c hc => rfl) (fun c hc => rfl)

theorem pcfdiag2_does {i0 j0 i1 j1 pi0 pj0 pi1 pj1 r dir side k sgcw : Int} {dx : Nat → T} {beta : T} {st_ : Ptr} {β : Backend} {m : Mem T}
    (hβ : ValidBackend β) (hi : i0 ≤ i1) (hj : j0 ≤ j1) (hg : 0 ≤ sgcw) (hl : Layer2 i0 j0 i1 j1 0 pi0 pj0 pi1 pj1 dir side) (hq : k = 1 ∨ k = 2)
    (h : F.Args m [] [(F.st2d st_ i0 j0 i1 j1 sgcw)])
    (hx : ∀ c, F.layer2 pi0 pj0 pi1 pj1 dir side c → F.rd m (F.st2d st_ i0 j0 i1 j1 sgcw) ((2 * dir + 1 + side) :: c) = -(beta / (dx dir.toNat * dx dir.toNat))) :
    F.Adjusts (Cuda.adjPoissonCfDiag2d i0 j0 i1 j1 pi0 pj0 pi1 pj1 r dir side k dx beta sgcw st_ β m) m (F.st2d st_ i0 j0 i1 j1 sgcw) (F.layer2 pi0 pj0 pi1 pj1 dir side) (2 * dir + 1 + side) 0 (fun _ => 1) (fun _ => cfD T r k) := by
  have hst := h.ok (F.st2d st_ i0 j0 i1 j1 sgcw) (by simp)
  obtain ⟨Ast, spst, Ii, Ij⟩ := st2_setup hst hi hj hg
  have mkI := mkB_near (d := .I) (lo := i0) (hi := i1) (by rng)
  have mkJ := mkB_near (d := .J) (lo := j0) (hi := j1) (by rng)
  have mkW := mkB_near (d := .W) (lo := 0) (hi := 4) (by rng)
  obtain ⟨hd, hs, hxx, hy, nI, nJ⟩ := hl
  have mkPI := mkB_near (d := .I) (lo := pi0) nI.2
  have mkPJ := mkB_near (d := .J) (lo := pj0) nJ.2
  have hd : dir = 0 ∨ dir = 1 := by omega
  unfold Cuda.adjPoissonCfDiag2d
  rw [← farr_st2]
  rcases hd with rfl | rfl <;> rcases hs with rfl | rfl
  · replace hxx := hxx rfl
    show F.Adjusts _ m _ _ 1 0 _ _
    refine F.Adjusts.bind mkI <| F.Adjusts.bind mkPI <| F.Adjusts.bind mkJ <| F.Adjusts.bind mkPJ <| F.Adjusts.bind mkW <| F.Adjusts.bind spst <| F.Adjusts.bind (y := dx 0) rfl <| F.Adjusts.bind (localize_ok (l := pi0 - 2 * 0 + 1) (by omega) nI.1 rfl) <| F.Adjusts.bind (localize_ok (l := pj0 - 2 * 0 + 1) (by omega) nJ.1 rfl) <| ?_
    rcases hq with rfl | rfl
    · exact (pcfd1 (seg2_0 (x := pi0 - 2 * 0 + 1) Ast (by omega) (by omega) rfl) hβ (u := 1) (by omega) (by decide) (dr := 2 * ((r : T) - 1) / ((r : T) + 1)) fun p hp => by
        have := hx _ (layer2_0_iff.1 ⟨p, hp, rfl⟩)
        simpa [farr_st2, F.onFace2] using this).congr (fun c => layer2_0_iff) (fun c hc => rfl) (fun c hc => rfl)
    · exact (pcfd2 (seg2_0 (x := pi0 - 2 * 0 + 1) Ast (by omega) (by omega) rfl) hβ (u := 1) (by omega) (by decide) rfl fun p hp => by
        have := hx _ (layer2_0_iff.1 ⟨p, hp, rfl⟩)
        simpa [farr_st2, F.onFace2] using this).congr (fun c => layer2_0_iff) (fun c hc => rfl) (fun c hc => rfl)
  · replace hxx := hxx rfl
    show F.Adjusts _ m _ _ 2 0 _ _
    refine F.Adjusts.bind mkI <| F.Adjusts.bind mkPI <| F.Adjusts.bind mkJ <| F.Adjusts.bind mkPJ <| F.Adjusts.bind mkW <| F.Adjusts.bind spst <| F.Adjusts.bind (y := dx 0) rfl <| F.Adjusts.bind (localize_ok (l := pi0 - 2 * 1 + 1) (by omega) nI.1 rfl) <| F.Adjusts.bind (localize_ok (l := pj0 - 2 * 1 + 1) (by omega) nJ.1 rfl) <| ?_
    rcases hq with rfl | rfl
    · exact (pcfd1 (seg2_0 (x := pi0 - 2 * 1 + 1) Ast (by omega) (by omega) rfl) hβ (u := 2) (by omega) (by decide) (dr := 2 * ((r : T) - 1) / ((r : T) + 1)) fun p hp => by
        have := hx _ (layer2_0_iff.1 ⟨p, hp, rfl⟩)
        simpa [farr_st2, F.onFace2] using this).congr (fun c => layer2_0_iff) (fun c hc => rfl) (fun c hc => rfl)
    · exact (pcfd2 (seg2_0 (x := pi0 - 2 * 1 + 1) Ast (by omega) (by omega) rfl) hβ (u := 2) (by omega) (by decide) rfl fun p hp => by
        have := hx _ (layer2_0_iff.1 ⟨p, hp, rfl⟩)
        simpa [farr_st2, F.onFace2] using this).congr (fun c => layer2_0_iff) (fun c hc => rfl) (fun c hc => rfl)
  · replace hy := hy rfl
    show F.Adjusts _ m _ _ 3 0 _ _
    refine F.Adjusts.bind mkI <| F.Adjusts.bind mkPI <| F.Adjusts.bind mkJ <| F.Adjusts.bind mkPJ <| F.Adjusts.bind mkW <| F.Adjusts.bind spst <| F.Adjusts.bind (y := dx 1) rfl <| F.Adjusts.bind (localize_ok (l := pi0 - 2 * 0 + 1) (by omega) nI.1 rfl) <| F.Adjusts.bind (localize_ok (l := pj0 - 2 * 0 + 1) (by omega) nJ.1 rfl) <| ?_
    rcases hq with rfl | rfl
    · exact (pcfd1 (seg2_1 (x := pj0 - 2 * 0 + 1) Ast (by omega) (by omega) rfl) hβ (u := 3) (by omega) (by decide) (dr := 2 * ((r : T) - 1) / ((r : T) + 1)) fun p hp => by
        have := hx _ (layer2_1_iff.1 ⟨p, hp, rfl⟩)
        simpa [farr_st2, F.onFace2] using this).congr (fun c => layer2_1_iff) (fun c hc => rfl) (fun c hc => rfl)
    · exact (pcfd2 (seg2_1 (x := pj0 - 2 * 0 + 1) Ast (by omega) (by omega) rfl) hβ (u := 3) (by omega) (by decide) rfl fun p hp => by
        have := hx _ (layer2_1_iff.1 ⟨p, hp, rfl⟩)
        simpa [farr_st2, F.onFace2] using this).congr (fun c => layer2_1_iff) (fun c hc => rfl) (fun c hc => rfl)
  · replace hy := hy rfl
    show F.Adjusts _ m _ _ 4 0 _ _
    refine F.Adjusts.bind mkI <| F.Adjusts.bind mkPI <| F.Adjusts.bind mkJ <| F.Adjusts.bind mkPJ <| F.Adjusts.bind mkW <| F.Adjusts.bind spst <| F.Adjusts.bind (y := dx 1) rfl <| F.Adjusts.bind (localize_ok (l := pi0 - 2 * 1 + 1) (by omega) nI.1 rfl) <| F.Adjusts.bind (localize_ok (l := pj0 - 2 * 1 + 1) (by omega) nJ.1 rfl) <| ?_
    rcases hq with rfl | rfl
    · exact (pcfd1 (seg2_1 (x := pj0 - 2 * 1 + 1) Ast (by omega) (by omega) rfl) hβ (u := 4) (by omega) (by decide) (dr := 2 * ((r : T) - 1) / ((r : T) + 1)) fun p hp => by
        have := hx _ (layer2_1_iff.1 ⟨p, hp, rfl⟩)
        simpa [farr_st2, F.onFace2] using this).congr (fun c => layer2_1_iff) (fun c hc => rfl) (fun c hc => rfl)
    · exact (pcfd2 (seg2_1 (x := pj0 - 2 * 1 + 1) Ast (by omega) (by omega) rfl) hβ (u := 4) (by omega) (by decide) rfl fun p hp => by
        have := hx _ (layer2_1_iff.1 ⟨p, hp, rfl⟩)
        simpa [farr_st2, F.onFace2] using this).congr (fun c => layer2_1_iff) (fun c hc => rfl) (fun c hc => rfl)

theorem cfoff2_does {i0 j0 i1 j1 pi0 pj0 pi1 pj1 r dir side k sgcw : Int} {st_ : Ptr} {β : Backend} {m : Mem T}
    (hβ : ValidBackend β) (hi : i0 ≤ i1) (hj : j0 ≤ j1) (hg : 0 ≤ sgcw) (hl : Layer2 i0 j0 i1 j1 0 pi0 pj0 pi1 pj1 dir side) (hq : k = 1 ∨ k = 2)
    (h : F.Args m [] [(F.st2d st_ i0 j0 i1 j1 sgcw)]) :
    F.Adjusts (Cuda.adjCfOffdiag2d i0 j0 i1 j1 pi0 pj0 pi1 pj1 r dir side k sgcw st_ β m) m (F.st2d st_ i0 j0 i1 j1 sgcw) (F.layer2 pi0 pj0 pi1 pj1 dir side) (2 * dir + 1 + side) (2 * dir + 2 - side) (fun _ => cfU T r k) (fun _ => cfV T r k) := by
  have hst := h.ok (F.st2d st_ i0 j0 i1 j1 sgcw) (by simp)
  obtain ⟨Ast, spst, Ii, Ij⟩ := st2_setup hst hi hj hg
  have mkI := mkB_near (d := .I) (lo := i0) (hi := i1) (by rng)
  have mkJ := mkB_near (d := .J) (lo := j0) (hi := j1) (by rng)
  have mkW := mkB_near (d := .W) (lo := 0) (hi := 4) (by rng)
  obtain ⟨hd, hs, hxx, hy, nI, nJ⟩ := hl
  have mkPI := mkB_near (d := .I) (lo := pi0) nI.2
  have mkPJ := mkB_near (d := .J) (lo := pj0) nJ.2
  have hd : dir = 0 ∨ dir = 1 := by omega
  unfold Cuda.adjCfOffdiag2d
  rw [← farr_st2]
  rcases hd with rfl | rfl <;> rcases hs with rfl | rfl
  · replace hxx := hxx rfl
    show F.Adjusts _ m _ _ 1 2 _ _
    refine F.Adjusts.bind mkI <| F.Adjusts.bind mkPI <| F.Adjusts.bind mkJ <| F.Adjusts.bind mkPJ <| F.Adjusts.bind mkW <| F.Adjusts.bind spst <| F.Adjusts.bind (localize_ok (l := pi0 - 2 * 0 + 1) (by omega) nI.1 rfl) <| F.Adjusts.bind (localize_ok (l := pj0 - 2 * 0 + 1) (by omega) nJ.1 rfl) <| F.Adjusts.bind (y := (1 : Int)) rfl <| F.Adjusts.bind (y := (2 : Int)) rfl <| ?_
    rcases hq with rfl | rfl
    · exact (cfo_1 (seg2_0 (x := pi0 - 2 * 0 + 1) Ast (by omega) (by omega) rfl) hβ (by omega) (by omega) (by decide)).congr (fun c => layer2_0_iff) (fun c hc => rfl) (fun c hc => rfl)
    · exact (cfo_2 (seg2_0 (x := pi0 - 2 * 0 + 1) Ast (by omega) (by omega) rfl) hβ (by omega) (by omega) (by decide)).congr (fun c => layer2_0_iff) (fun c hc => rfl) (fun c hc => rfl)
  · replace hxx := hxx rfl
    show F.Adjusts _ m _ _ 2 1 _ _
    refine F.Adjusts.bind mkI <| F.Adjusts.bind mkPI <| F.Adjusts.bind mkJ <| F.Adjusts.bind mkPJ <| F.Adjusts.bind mkW <| F.Adjusts.bind spst <| F.Adjusts.bind (localize_ok (l := pi0 - 2 * 1 + 1) (by omega) nI.1 rfl) <| F.Adjusts.bind (localize_ok (l := pj0 - 2 * 1 + 1) (by omega) nJ.1 rfl) <| F.Adjusts.bind (y := (2 : Int)) rfl <| F.Adjusts.bind (y := (1 : Int)) rfl <| ?_
    rcases hq with rfl | rfl
    · exact (cfo_1 (seg2_0 (x := pi0 - 2 * 1 + 1) Ast (by omega) (by omega) rfl) hβ (by omega) (by omega) (by decide)).congr (fun c => layer2_0_iff) (fun c hc => rfl) (fun c hc => rfl)
    · exact (cfo_2 (seg2_0 (x := pi0 - 2 * 1 + 1) Ast (by omega) (by omega) rfl) hβ (by omega) (by omega) (by decide)).congr (fun c => layer2_0_iff) (fun c hc => rfl) (fun c hc => rfl)
  · replace hy := hy rfl
    show F.Adjusts _ m _ _ 3 4 _ _
    refine F.Adjusts.bind mkI <| F.Adjusts.bind mkPI <| F.Adjusts.bind mkJ <| F.Adjusts.bind mkPJ <| F.Adjusts.bind mkW <| F.Adjusts.bind spst <| F.Adjusts.bind (localize_ok (l := pi0 - 2 * 0 + 1) (by omega) nI.1 rfl) <| F.Adjusts.bind (localize_ok (l := pj0 - 2 * 0 + 1) (by omega) nJ.1 rfl) <| F.Adjusts.bind (y := (3 : Int)) rfl <| F.Adjusts.bind (y := (4 : Int)) rfl <| ?_
    rcases hq with rfl | rfl
    · exact (cfo_1 (seg2_1 (x := pj0 - 2 * 0 + 1) Ast (by omega) (by omega) rfl) hβ (by omega) (by omega) (by decide)).congr (fun c => layer2_1_iff) (fun c hc => rfl) (fun c hc => rfl)
    · exact (cfo_2 (seg2_1 (x := pj0 - 2 * 0 + 1) Ast (by omega) (by omega) rfl) hβ (by omega) (by omega) (by decide)).congr (fun c => layer2_1_iff) (fun c hc => rfl) (fun c hc => rfl)
  · replace hy := hy rfl
    show F.Adjusts _ m _ _ 4 3 _ _
    refine F.Adjusts.bind mkI <| F.Adjusts.bind mkPI <| F.Adjusts.bind mkJ <| F.Adjusts.bind mkPJ <| F.Adjusts.bind mkW <| F.Adjusts.bind spst <| F.Adjusts.bind (localize_ok (l := pi0 - 2 * 1 + 1) (by omega) nI.1 rfl) <| F.Adjusts.bind (localize_ok (l := pj0 - 2 * 1 + 1) (by omega) nJ.1 rfl) <| F.Adjusts.bind (y := (4 : Int)) rfl <| F.Adjusts.bind (y := (3 : Int)) rfl <| ?_
    rcases hq with rfl | rfl
    · exact (cfo_1 (seg2_1 (x := pj0 - 2 * 1 + 1) Ast (by omega) (by omega) rfl) hβ (by omega) (by omega) (by decide)).congr (fun c => layer2_1_iff) (fun c hc => rfl) (fun c hc => rfl)
    · exact (cfo_2 (seg2_1 (x := pj0 - 2 * 1 + 1) Ast (by omega) (by omega) rfl) hβ (by omega) (by omega) (by decide)).congr (fun c => layer2_1_iff) (fun c hc => rfl) (fun c hc => rfl)

theorem cfdiag3_does {i0 j0 k0 i1 j1 k1 pi0 pj0 pk0 pi1 pj1 pk1 r dir side k sgcw : Int} {dx : Nat → T} {beta : T} {b0_ b1_ b2_ st_ : Ptr} {β : Backend} {m : Mem T}
    (hβ : ValidBackend β) (hi : i0 ≤ i1) (hj : j0 ≤ j1) (hk : k0 ≤ k1) (hg : 0 ≤ sgcw) (hl : Layer3 i0 j0 k0 i1 j1 k1 0 pi0 pj0 pk0 pi1 pj1 pk1 dir side) (hq : k = 1 ∨ k = 2)
    (h : F.Args m [(F.face3d0 b0_ i0 j0 k0 i1 j1 k1 0), (F.face3d1 b1_ i0 j0 k0 i1 j1 k1 0), (F.face3d2 b2_ i0 j0 k0 i1 j1 k1 0)] [(F.st3d st_ i0 j0 k0 i1 j1 k1 sgcw)])
    (hx : ∀ c, F.layer3 pi0 pj0 pk0 pi1 pj1 pk1 dir side c → F.rd m (F.st3d st_ i0 j0 k0 i1 j1 k1 sgcw) ((2 * dir + 1 + side) :: c) = -(beta / (dx dir.toNat * dx dir.toNat)) * F.onFace3 (F.rd m (F.face3d0 b0_ i0 j0 k0 i1 j1 k1 0)) (F.rd m (F.face3d1 b1_ i0 j0 k0 i1 j1 k1 0)) (F.rd m (F.face3d2 b2_ i0 j0 k0 i1 j1 k1 0)) dir side c) :
    F.Adjusts (Cuda.adjCfDiag3d i0 j0 k0 i1 j1 k1 pi0 pj0 pk0 pi1 pj1 pk1 r dir side k dx beta b0_ b1_ b2_ sgcw st_ β m) m (F.st3d st_ i0 j0 k0 i1 j1 k1 sgcw) (F.layer3 pi0 pj0 pk0 pi1 pj1 pk1 dir side) (2 * dir + 1 + side) 0 (fun _ => 1) (fun _ => cfD T r k) := by
  have hst := h.ok (F.st3d st_ i0 j0 k0 i1 j1 k1 sgcw) (by simp)
  obtain ⟨Ast, spst, Ii, Ij, Ik⟩ := st3_setup hst hi hj hk hg
  have hb0 := h.ok (F.face3d0 b0_ i0 j0 k0 i1 j1 k1 0) (by simp)
  obtain ⟨Ab0, plI, J0⟩ := face30_setup hb0 hi hj hk
  have Pb0 : Apart (sSt3 st_ i0 j0 k0 i1 j1 k1 sgcw) (sFace30 b0_ i0 j0 k0 i1 j1 k1) := apart_of farr_st3 farr_face30 (h.apart _ (by simp) _ (by simp))
  have hb1 := h.ok (F.face3d1 b1_ i0 j0 k0 i1 j1 k1 0) (by simp)
  obtain ⟨Ab1, plJ, J1⟩ := face31_setup hb1 hi hj hk
  have Pb1 : Apart (sSt3 st_ i0 j0 k0 i1 j1 k1 sgcw) (sFace31 b1_ i0 j0 k0 i1 j1 k1) := apart_of farr_st3 farr_face31 (h.apart _ (by simp) _ (by simp))
  have hb2 := h.ok (F.face3d2 b2_ i0 j0 k0 i1 j1 k1 0) (by simp)
  obtain ⟨Ab2, plK, J2⟩ := face32_setup hb2 hi hj hk
  have Pb2 : Apart (sSt3 st_ i0 j0 k0 i1 j1 k1 sgcw) (sFace32 b2_ i0 j0 k0 i1 j1 k1) := apart_of farr_st3 farr_face32 (h.apart _ (by simp) _ (by simp))
  have mkI := mkB_near (d := .I) (lo := i0) (hi := i1) (by rng)
  have mkJ := mkB_near (d := .J) (lo := j0) (hi := j1) (by rng)
  have mkK := mkB_near (d := .K) (lo := k0) (hi := k1) (by rng)
  have mkW := mkB_near (d := .W) (lo := 0) (hi := 6) (by rng)
  obtain ⟨hd, hs, hxx, hy, hz, nI, nJ, nK⟩ := hl
  have mkPI := mkB_near (d := .I) (lo := pi0) nI.2
  have mkPJ := mkB_near (d := .J) (lo := pj0) nJ.2
  have mkPK := mkB_near (d := .K) (lo := pk0) nK.2
  have hd : dir = 0 ∨ dir = 1 ∨ dir = 2 := by omega
  unfold Cuda.adjCfDiag3d
  rw [← farr_st3]
  rcases hd with rfl | rfl | rfl <;> rcases hs with rfl | rfl
  · replace hxx := hxx rfl
    show F.Adjusts _ m _ _ 1 0 _ _
    refine F.Adjusts.bind mkI <| F.Adjusts.bind mkPI <| F.Adjusts.bind mkJ <| F.Adjusts.bind mkPJ <| F.Adjusts.bind mkK <| F.Adjusts.bind mkPK <| F.Adjusts.bind mkW <| F.Adjusts.bind spst <| F.Adjusts.bind plI <| F.Adjusts.bind plJ <| F.Adjusts.bind plK <| F.Adjusts.bind (y := dx 0) rfl <| F.Adjusts.bind (localize_ok (l := pi0 - 2 * 0 + 1) (by omega) nI.1 rfl) <| F.Adjusts.bind (localize_ok (l := pj0 - 2 * 0 + 1) (by omega) nJ.1 rfl) <| F.Adjusts.bind (localize_ok (l := pk0 - 2 * 0 + 1) (by omega) nK.1 rfl) <| ?_
    rcases hq with rfl | rfl
    · exact (cfd1 (seg3_0 (x := pi0 - 2 * 0 + 1) Ast (by omega) (by omega) (by omega) rfl) hβ (u := 1) (by omega) (by decide) (face_at30 (e := pi0 - 2 * 0 + 1 + 0) Ab0 Pb0 (by omega) (by omega) (by omega) (by omega) rfl) (dr := 2 * ((r : T) - 1) / ((r : T) + 1)) fun p hp => by
        have := hx _ (layer3_0_iff.1 ⟨p, hp, rfl⟩)
        simpa [farr_st3, F.onFace3] using this).congr (fun c => layer3_0_iff) (fun c hc => rfl) (fun c hc => rfl)
    · exact (cfd2 (seg3_0 (x := pi0 - 2 * 0 + 1) Ast (by omega) (by omega) (by omega) rfl) hβ (u := 1) (by omega) (by decide) (face_at30 (e := pi0 - 2 * 0 + 1 + 0) Ab0 Pb0 (by omega) (by omega) (by omega) (by omega) rfl) rfl fun p hp => by
        have := hx _ (layer3_0_iff.1 ⟨p, hp, rfl⟩)
        simpa [farr_st3, F.onFace3] using this).congr (fun c => layer3_0_iff) (fun c hc => rfl) (fun c hc => rfl)
  · replace hxx := hxx rfl
    show F.Adjusts _ m _ _ 2 0 _ _
    refine F.Adjusts.bind mkI <| F.Adjusts.bind mkPI <| F.Adjusts.bind mkJ <| F.Adjusts.bind mkPJ <| F.Adjusts.bind mkK <| F.Adjusts.bind mkPK <| F.Adjusts.bind mkW <| F.Adjusts.bind spst <| F.Adjusts.bind plI <| F.Adjusts.bind plJ <| F.Adjusts.bind plK <| F.Adjusts.bind (y := dx 0) rfl <| F.Adjusts.bind (localize_ok (l := pi0 - 2 * 1 + 1) (by omega) nI.1 rfl) <| F.Adjusts.bind (localize_ok (l := pj0 - 2 * 1 + 1) (by omega) nJ.1 rfl) <| F.Adjusts.bind (localize_ok (l := pk0 - 2 * 1 + 1) (by omega) nK.1 rfl) <| ?_
    rcases hq with rfl | rfl
    · exact (cfd1 (seg3_0 (x := pi0 - 2 * 1 + 1) Ast (by omega) (by omega) (by omega) rfl) hβ (u := 2) (by omega) (by decide) (face_at30 (e := pi0 - 2 * 1 + 1 + 1) Ab0 Pb0 (by omega) (by omega) (by omega) (by omega) rfl) (dr := 2 * ((r : T) - 1) / ((r : T) + 1)) fun p hp => by
        have := hx _ (layer3_0_iff.1 ⟨p, hp, rfl⟩)
        simpa [farr_st3, F.onFace3] using this).congr (fun c => layer3_0_iff) (fun c hc => rfl) (fun c hc => rfl)
    · exact (cfd2 (seg3_0 (x := pi0 - 2 * 1 + 1) Ast (by omega) (by omega) (by omega) rfl) hβ (u := 2) (by omega) (by decide) (face_at30 (e := pi0 - 2 * 1 + 1 + 1) Ab0 Pb0 (by omega) (by omega) (by omega) (by omega) rfl) rfl fun p hp => by
        have := hx _ (layer3_0_iff.1 ⟨p, hp, rfl⟩)
        simpa [farr_st3, F.onFace3] using this).congr (fun c => layer3_0_iff) (fun c hc => rfl) (fun c hc => rfl)
  · replace hy := hy rfl
    show F.Adjusts _ m _ _ 3 0 _ _
    refine F.Adjusts.bind mkI <| F.Adjusts.bind mkPI <| F.Adjusts.bind mkJ <| F.Adjusts.bind mkPJ <| F.Adjusts.bind mkK <| F.Adjusts.bind mkPK <| F.Adjusts.bind mkW <| F.Adjusts.bind spst <| F.Adjusts.bind plI <| F.Adjusts.bind plJ <| F.Adjusts.bind plK <| F.Adjusts.bind (y := dx 1) rfl <| F.Adjusts.bind (localize_ok (l := pi0 - 2 * 0 + 1) (by omega) nI.1 rfl) <| F.Adjusts.bind (localize_ok (l := pj0 - 2 * 0 + 1) (by omega) nJ.1 rfl) <| F.Adjusts.bind (localize_ok (l := pk0 - 2 * 0 + 1) (by omega) nK.1 rfl) <| ?_
    rcases hq with rfl | rfl
    · exact (cfd1 (seg3_1 (x := pj0 - 2 * 0 + 1) Ast (by omega) (by omega) (by omega) rfl) hβ (u := 3) (by omega) (by decide) (face_at31 (e := pj0 - 2 * 0 + 1 + 0) Ab1 Pb1 (by omega) (by omega) (by omega) (by omega) rfl) (dr := 2 * ((r : T) - 1) / ((r : T) + 1)) fun p hp => by
        have := hx _ (layer3_1_iff.1 ⟨p, hp, rfl⟩)
        simpa [farr_st3, F.onFace3] using this).congr (fun c => layer3_1_iff) (fun c hc => rfl) (fun c hc => rfl)
    · exact (cfd2 (seg3_1 (x := pj0 - 2 * 0 + 1) Ast (by omega) (by omega) (by omega) rfl) hβ (u := 3) (by omega) (by decide) (face_at31 (e := pj0 - 2 * 0 + 1 + 0) Ab1 Pb1 (by omega) (by omega) (by omega) (by omega) rfl) rfl fun p hp => by
        have := hx _ (layer3_1_iff.1 ⟨p, hp, rfl⟩)
        simpa [farr_st3, F.onFace3] using this).congr (fun c => layer3_1_iff) (fun c hc => rfl) (fun c hc => rfl)
  · replace hy := hy rfl
    show F.Adjusts _ m _ _ 4 0 _ _
    refine F.Adjusts.bind mkI <| F.Adjusts.bind mkPI <| F.Adjusts.bind mkJ <| F.Adjusts.bind mkPJ <| F.Adjusts.bind mkK <| F.Adjusts.bind mkPK <| F.Adjusts.bind mkW <| F.Adjusts.bind spst <| F.Adjusts.bind plI <| F.Adjusts.bind plJ <| F.Adjusts.bind plK <| F.Adjusts.bind (y := dx 1) rfl <| F.Adjusts.bind (localize_ok (l := pi0 - 2 * 1 + 1) (by omega) nI.1 rfl) <| F.Adjusts.bind (localize_ok (l := pj0 - 2 * 1 + 1) (by omega) nJ.1 rfl) <| F.Adjusts.bind (localize_ok (l := pk0 - 2 * 1 + 1) (by omega) nK.1 rfl) <| ?_
    rcases hq with rfl | rfl
    · exact (cfd1 (seg3_1 (x := pj0 - 2 * 1 + 1) Ast (by omega) (by omega) (by omega) rfl) hβ (u := 4) (by omega) (by decide) (face_at31 (e := pj0 - 2 * 1 + 1 + 1) Ab1 Pb1 (by omega) (by omega) (by omega) (by omega) rfl) (dr := 2 * ((r : T) - 1) / ((r : T) + 1)) fun p hp => by
        have := hx _ (layer3_1_iff.1 ⟨p, hp, rfl⟩)
        simpa [farr_st3, F.onFace3] using this).congr (fun c => layer3_1_iff) (fun c hc => rfl) (fun c hc => rfl)
    · exact (cfd2 (seg3_1 (x := pj0 - 2 * 1 + 1) Ast (by omega) (by omega) (by omega) rfl) hβ (u := 4) (by omega) (by decide) (face_at31 (e := pj0 - 2 * 1 + 1 + 1) Ab1 Pb1 (by omega) (by omega) (by omega) (by omega) rfl) rfl fun p hp => by
        have := hx _ (layer3_1_iff.1 ⟨p, hp, rfl⟩)
        simpa [farr_st3, F.onFace3] using this).congr (fun c => layer3_1_iff) (fun c hc => rfl) (fun c hc => rfl)
  · replace hz := hz rfl
    show F.Adjusts _ m _ _ 5 0 _ _
    refine F.Adjusts.bind mkI <| F.Adjusts.bind mkPI <| F.Adjusts.bind mkJ <| F.Adjusts.bind mkPJ <| F.Adjusts.bind mkK <| F.Adjusts.bind mkPK <| F.Adjusts.bind mkW <| F.Adjusts.bind spst <| F.Adjusts.bind plI <| F.Adjusts.bind plJ <| F.Adjusts.bind plK <| F.Adjusts.bind (y := dx 2) rfl <| F.Adjusts.bind (localize_ok (l := pi0 - 2 * 0 + 1) (by omega) nI.1 rfl) <| F.Adjusts.bind (localize_ok (l := pj0 - 2 * 0 + 1) (by omega) nJ.1 rfl) <| F.Adjusts.bind (localize_ok (l := pk0 - 2 * 0 + 1) (by omega) nK.1 rfl) <| ?_
    rcases hq with rfl | rfl
    · exact (cfd1 (seg3_2 (x := pk0 - 2 * 0 + 1) Ast (by omega) (by omega) (by omega) rfl) hβ (u := 5) (by omega) (by decide) (face_at32 (e := pk0 - 2 * 0 + 1 + 0) Ab2 Pb2 (by omega) (by omega) (by omega) (by omega) rfl) (dr := 2 * ((r : T) - 1) / ((r : T) + 1)) fun p hp => by
        have := hx _ (layer3_2_iff.1 ⟨p, hp, rfl⟩)
        simpa [farr_st3, F.onFace3] using this).congr (fun c => layer3_2_iff) (fun c hc => rfl) (fun c hc => rfl)
    · exact (cfd2 (seg3_2 (x := pk0 - 2 * 0 + 1) Ast (by omega) (by omega) (by omega) rfl) hβ (u := 5) (by omega) (by decide) (face_at32 (e := pk0 - 2 * 0 + 1 + 0) Ab2 Pb2 (by omega) (by omega) (by omega) (by omega) rfl) rfl fun p hp => by
        have := hx _ (layer3_2_iff.1 ⟨p, hp, rfl⟩)
        simpa [farr_st3, F.onFace3] using this).congr (fun c => layer3_2_iff) (fun c hc => rfl) (fun c hc => rfl)
  · replace hz := hz rfl
    show F.Adjusts _ m _ _ 6 0 _ _
    refine F.Adjusts.bind mkI <| F.Adjusts.bind mkPI <| F.Adjusts.bind mkJ <| F.Adjusts.bind mkPJ <| F.Adjusts.bind mkK <| F.Adjusts.bind mkPK <| F.Adjusts.bind mkW <| F.Adjusts.bind spst <| F.Adjusts.bind plI <| F.Adjusts.bind plJ <| F.Adjusts.bind plK <| F.Adjusts.bind (y := dx 2) rfl <| F.Adjusts.bind (localize_ok (l := pi0 - 2 * 1 + 1) (by omega) nI.1 rfl) <| F.Adjusts.bind (localize_ok (l := pj0 - 2 * 1 + 1) (by omega) nJ.1 rfl) <| F.Adjusts.bind (localize_ok (l := pk0 - 2 * 1 + 1) (by omega) nK.1 rfl) <| ?_
    rcases hq with rfl | rfl
    · exact (cfd1 (seg3_2 (x := pk0 - 2 * 1 + 1) Ast (by omega) (by omega) (by omega) rfl) hβ (u := 6) (by omega) (by decide) (face_at32 (e := pk0 - 2 * 1 + 1 + 1) Ab2 Pb2 (by omega) (by omega) (by omega) (by omega) rfl) (dr := 2 * ((r : T) - 1) / ((r : T) + 1)) fun p hp => by
        have := hx _ (layer3_2_iff.1 ⟨p, hp, rfl⟩)
        simpa [farr_st3, F.onFace3] using this).congr (fun c => layer3_2_iff) (fun c hc => rfl) (fun c hc => rfl)
    · exact (cfd2 (seg3_2 (x := pk0 - 2 * 1 + 1) Ast (by omega) (by omega) (by omega) rfl) hβ (u := 6) (by omega) (by decide) (face_at32 (e := pk0 - 2 * 1 + 1 + 1) Ab2 Pb2 (by omega) (by omega) (by omega) (by omega) rfl) rfl fun p hp => by
        have := hx _ (layer3_2_iff.1 ⟨p, hp, rfl⟩)
        simpa [farr_st3, F.onFace3] using this).congr (fun c => layer3_2_iff) (fun c hc => rfl) (fun c hc => rfl)

theorem pcfdiag3_does {i0 j0 k0 i1 j1 k1 pi0 pj0 pk0 pi1 pj1 pk1 r dir side k sgcw : Int} {dx : Nat → T} {beta : T} {st_ : Ptr} {β : Backend} {m : Mem T}
    (hβ : ValidBackend β) (hi : i0 ≤ i1) (hj : j0 ≤ j1) (hk : k0 ≤ k1) (hg : 0 ≤ sgcw) (hl : Layer3 i0 j0 k0 i1 j1 k1 0 pi0 pj0 pk0 pi1 pj1 pk1 dir side) (hq : k = 1 ∨ k = 2)
    (h : F.Args m [] [(F.st3d st_ i0 j0 k0 i1 j1 k1 sgcw)])
    (hx : ∀ c, F.layer3 pi0 pj0 pk0 pi1 pj1 pk1 dir side c → F.rd m (F.st3d st_ i0 j0 k0 i1 j1 k1 sgcw) ((2 * dir + 1 + side) :: c) = -(beta / (dx dir.toNat * dx dir.toNat))) :
    F.Adjusts (Cuda.adjPoissonCfDiag3d i0 j0 k0 i1 j1 k1 pi0 pj0 pk0 pi1 pj1 pk1 r dir side k dx beta sgcw st_ β m) m (F.st3d st_ i0 j0 k0 i1 j1 k1 sgcw) (F.layer3 pi0 pj0 pk0 pi1 pj1 pk1 dir side) (2 * dir + 1 + side) 0 (fun _ => 1) (fun _ => cfD T r k) := by
  have hst := h.ok (F.st3d st_ i0 j0 k0 i1 j1 k1 sgcw) (by simp)
  obtain ⟨Ast, spst, Ii, Ij, Ik⟩ := st3_setup hst hi hj hk hg
  have mkI := mkB_near (d := .I) (lo := i0) (hi := i1) (by rng)
  have mkJ := mkB_near (d := .J) (lo := j0) (hi := j1) (by rng)
  have mkK := mkB_near (d := .K) (lo := k0) (hi := k1) (by rng)
  have mkW := mkB_near (d := .W) (lo := 0) (hi := 6) (by rng)
  obtain ⟨hd, hs, hxx, hy, hz, nI, nJ, nK⟩ := hl
  have mkPI := mkB_near (d := .I) (lo := pi0) nI.2
  have mkPJ := mkB_near (d := .J) (lo := pj0) nJ.2
  have mkPK := mkB_near (d := .K) (lo := pk0) nK.2
  have hd : dir = 0 ∨ dir = 1 ∨ dir = 2 := by omega
  unfold Cuda.adjPoissonCfDiag3d
  rw [← farr_st3]
  rcases hd with rfl | rfl | rfl <;> rcases hs with rfl | rfl
  · replace hxx := hxx rfl
    show F.Adjusts _ m _ _ 1 0 _ _
    refine F.Adjusts.bind mkI <| F.Adjusts.bind mkPI <| F.Adjusts.bind mkJ <| F.Adjusts.bind mkPJ <| F.Adjusts.bind mkK <| F.Adjusts.bind mkPK <| F.Adjusts.bind mkW <| F.Adjusts.bind spst <| F.Adjusts.bind (y := dx 0) rfl <| F.Adjusts.bind (localize_ok (l := pi0 - 2 * 0 + 1) (by omega) nI.1 rfl) <| F.Adjusts.bind (localize_ok (l := pj0 - 2 * 0 + 1) (by omega) nJ.1 rfl) <| F.Adjusts.bind (localize_ok (l := pk0 - 2 * 0 + 1) (by omega) nK.1 rfl) <| ?_
    rcases hq with rfl | rfl
    · exact (pcfd1 (seg3_0 (x := pi0 - 2 * 0 + 1) Ast (by omega) (by omega) (by omega) rfl) hβ (u := 1) (by omega) (by decide) (dr := 2 * ((r : T) - 1) / ((r : T) + 1)) fun p hp => by
        have := hx _ (layer3_0_iff.1 ⟨p, hp, rfl⟩)
        simpa [farr_st3, F.onFace3] using this).congr (fun c => layer3_0_iff) (fun c hc => rfl) (fun c hc => rfl)
    · exact (pcfd2 (seg3_0 (x := pi0 - 2 * 0 + 1) Ast (by omega) (by omega) (by omega) rfl) hβ (u := 1) (by omega) (by decide) rfl fun p hp => by
        have := hx _ (layer3_0_iff.1 ⟨p, hp, rfl⟩)
        simpa [farr_st3, F.onFace3] using this).congr (fun c => layer3_0_iff) (fun c hc => rfl) (fun c hc => rfl)
  · replace hxx := hxx rfl
    show F.Adjusts _ m _ _ 2 0 _ _
    refine F.Adjusts.bind mkI <| F.Adjusts.bind mkPI <| F.Adjusts.bind mkJ <| F.Adjusts.bind mkPJ <| F.Adjusts.bind mkK <| F.Adjusts.bind mkPK <| F.Adjusts.bind mkW <| F.Adjusts.bind spst <| F.Adjusts.bind (y := dx 0) rfl <| F.Adjusts.bind (localize_ok (l := pi0 - 2 * 1 + 1) (by omega) nI.1 rfl) <| F.Adjusts.bind (localize_ok (l := pj0 - 2 * 1 + 1) (by omega) nJ.1 rfl) <| F.Adjusts.bind (localize_ok (l := pk0 - 2 * 1 + 1) (by omega) nK.1 rfl) <| ?_
    rcases hq with rfl | rfl
    · exact (pcfd1 (seg3_0 (x := pi0 - 2 * 1 + 1) Ast (by omega) (by omega) (by omega) rfl) hβ (u := 2) (by omega) (by decide) (dr := 2 * ((r : T) - 1) / ((r : T) + 1)) fun p hp => by
        have := hx _ (layer3_0_iff.1 ⟨p, hp, rfl⟩)
        simpa [farr_st3, F.onFace3] using this).congr (fun c => layer3_0_iff) (fun c hc => rfl) (fun c hc => rfl)
    · exact (pcfd2 (seg3_0 (x := pi0 - 2 * 1 + 1) Ast (by omega) (by omega) (by omega) rfl) hβ (u := 2) (by omega) (by decide) rfl fun p hp => by
        have := hx _ (layer3_0_iff.1 ⟨p, hp, rfl⟩)
        simpa [farr_st3, F.onFace3] using this).congr (fun c => layer3_0_iff) (fun c hc => rfl) (fun c hc => rfl)
  · replace hy := hy rfl
    show F.Adjusts _ m _ _ 3 0 _ _
    refine F.Adjusts.bind mkI <| F.Adjusts.bind mkPI <| F.Adjusts.bind mkJ <| F.Adjusts.bind mkPJ <| F.Adjusts.bind mkK <| F.Adjusts.bind mkPK <| F.Adjusts.bind mkW <| F.Adjusts.bind spst <| F.Adjusts.bind (y := dx 1) rfl <| F.Adjusts.bind (localize_ok (l := pi0 - 2 * 0 + 1) (by omega) nI.1 rfl) <| F.Adjusts.bind (localize_ok (l := pj0 - 2 * 0 + 1) (by omega) nJ.1 rfl) <| F.Adjusts.bind (localize_ok (l := pk0 - 2 * 0 + 1) (by omega) nK.1 rfl) <| ?_
    rcases hq with rfl | rfl
    · exact (pcfd1 (seg3_1 (x := pj0 - 2 * 0 + 1) Ast (by omega) (by omega) (by omega) rfl) hβ (u := 3) (by omega) (by decide) (dr := 2 * ((r : T) - 1) / ((r : T) + 1)) fun p hp => by
        have := hx _ (layer3_1_iff.1 ⟨p, hp, rfl⟩)
        simpa [farr_st3, F.onFace3] using this).congr (fun c => layer3_1_iff) (fun c hc => rfl) (fun c hc => rfl)
    · exact (pcfd2 (seg3_1 (x := pj0 - 2 * 0 + 1) Ast (by omega) (by omega) (by omega) rfl) hβ (u := 3) (by omega) (by decide) rfl fun p hp => by
        have := hx _ (layer3_1_iff.1 ⟨p, hp, rfl⟩)
        simpa [farr_st3, F.onFace3] using this).congr (fun c => layer3_1_iff) (fun c hc => rfl) (fun c hc => rfl)
  · replace hy := hy rfl
    show F.Adjusts _ m _ _ 4 0 _ _
    refine F.Adjusts.bind mkI <| F.Adjusts.bind mkPI <| F.Adjusts.bind mkJ <| F.Adjusts.bind mkPJ <| F.Adjusts.bind mkK <| F.Adjusts.bind mkPK <| F.Adjusts.bind mkW <| F.Adjusts.bind spst <| F.Adjusts.bind (y := dx 1) rfl <| F.Adjusts.bind (localize_ok (l := pi0 - 2 * 1 + 1) (by omega) nI.1 rfl) <| F.Adjusts.bind (localize_ok (l := pj0 - 2 * 1 + 1) (by omega) nJ.1 rfl) <| F.Adjusts.bind (localize_ok (l := pk0 - 2 * 1 + 1) (by omega) nK.1 rfl) <| ?_
    rcases hq with rfl | rfl
    · exact (pcfd1 (seg3_1 (x := pj0 - 2 * 1 + 1) Ast (by omega) (by omega) (by omega) rfl) hβ (u := 4) (by omega) (by decide) (dr := 2 * ((r : T) - 1) / ((r : T) + 1)) fun p hp => by
        have := hx _ (layer3_1_iff.1 ⟨p, hp, rfl⟩)
        simpa [farr_st3, F.onFace3] using this).congr (fun c => layer3_1_iff) (fun c hc => rfl) (fun c hc => rfl)
    · exact (pcfd2 (seg3_1 (x := pj0 - 2 * 1 + 1) Ast (by omega) (by omega) (by omega) rfl) hβ (u := 4) (by omega) (by decide) rfl fun p hp => by
        have := hx _ (layer3_1_iff.1 ⟨p, hp, rfl⟩)
        simpa [farr_st3, F.onFace3] using this).congr (fun c => layer3_1_iff) (fun c hc => rfl) (fun c hc => rfl)
  · replace hz := hz rfl
    show F.Adjusts _ m _ _ 5 0 _ _
    refine F.Adjusts.bind mkI <| F.Adjusts.bind mkPI <| F.Adjusts.bind mkJ <| F.Adjusts.bind mkPJ <| F.Adjusts.bind mkK <| F.Adjusts.bind mkPK <| F.Adjusts.bind mkW <| F.Adjusts.bind spst <| F.Adjusts.bind (y := dx 2) rfl <| F.Adjusts.bind (localize_ok (l := pi0 - 2 * 0 + 1) (by omega) nI.1 rfl) <| F.Adjusts.bind (localize_ok (l := pj0 - 2 * 0 + 1) (by omega) nJ.1 rfl) <| F.Adjusts.bind (localize_ok (l := pk0 - 2 * 0 + 1) (by omega) nK.1 rfl) <| ?_
    rcases hq with rfl | rfl
    · exact (pcfd1 (seg3_2 (x := pk0 - 2 * 0 + 1) Ast (by omega) (by omega) (by omega) rfl) hβ (u := 5) (by omega) (by decide) (dr := 2 * ((r : T) - 1) / ((r : T) + 1)) fun p hp => by
        have := hx _ (layer3_2_iff.1 ⟨p, hp, rfl⟩)
        simpa [farr_st3, F.onFace3] using this).congr (fun c => layer3_2_iff) (fun c hc => rfl) (fun c hc => rfl)
    · exact (pcfd2 (seg3_2 (x := pk0 - 2 * 0 + 1) Ast (by omega) (by omega) (by omega) rfl) hβ (u := 5) (by omega) (by decide) rfl fun p hp => by
        have := hx _ (layer3_2_iff.1 ⟨p, hp, rfl⟩)
        simpa [farr_st3, F.onFace3] using this).congr (fun c => layer3_2_iff) (fun c hc => rfl) (fun c hc => rfl)
  · replace hz := hz rfl
    show F.Adjusts _ m _ _ 6 0 _ _
    refine F.Adjusts.bind mkI <| F.Adjusts.bind mkPI <| F.Adjusts.bind mkJ <| F.Adjusts.bind mkPJ <| F.Adjusts.bind mkK <| F.Adjusts.bind mkPK <| F.Adjusts.bind mkW <| F.Adjusts.bind spst <| F.Adjusts.bind (y := dx 2) rfl <| F.Adjusts.bind (localize_ok (l := pi0 - 2 * 1 + 1) (by omega) nI.1 rfl) <| F.Adjusts.bind (localize_ok (l := pj0 - 2 * 1 + 1) (by omega) nJ.1 rfl) <| F.Adjusts.bind (localize_ok (l := pk0 - 2 * 1 + 1) (by omega) nK.1 rfl) <| ?_
    rcases hq with rfl | rfl
    · exact (pcfd1 (seg3_2 (x := pk0 - 2 * 1 + 1) Ast (by omega) (by omega) (by omega) rfl) hβ (u := 6) (by omega) (by decide) (dr := 2 * ((r : T) - 1) / ((r : T) + 1)) fun p hp => by
        have := hx _ (layer3_2_iff.1 ⟨p, hp, rfl⟩)
        simpa [farr_st3, F.onFace3] using this).congr (fun c => layer3_2_iff) (fun c hc => rfl) (fun c hc => rfl)
    · exact (pcfd2 (seg3_2 (x := pk0 - 2 * 1 + 1) Ast (by omega) (by omega) (by omega) rfl) hβ (u := 6) (by omega) (by decide) rfl fun p hp => by
        have := hx _ (layer3_2_iff.1 ⟨p, hp, rfl⟩)
        simpa [farr_st3, F.onFace3] using this).congr (fun c => layer3_2_iff) (fun c hc => rfl) (fun c hc => rfl)

theorem cfoff3_does {i0 j0 k0 i1 j1 k1 pi0 pj0 pk0 pi1 pj1 pk1 r dir side k sgcw : Int} {st_ : Ptr} {β : Backend} {m : Mem T}
    (hβ : ValidBackend β) (hi : i0 ≤ i1) (hj : j0 ≤ j1) (hk : k0 ≤ k1) (hg : 0 ≤ sgcw) (hl : Layer3 i0 j0 k0 i1 j1 k1 0 pi0 pj0 pk0 pi1 pj1 pk1 dir side) (hq : k = 1 ∨ k = 2)
    (h : F.Args m [] [(F.st3d st_ i0 j0 k0 i1 j1 k1 sgcw)]) :
    F.Adjusts (Cuda.adjCfOffdiag3d i0 j0 k0 i1 j1 k1 pi0 pj0 pk0 pi1 pj1 pk1 r dir side k sgcw st_ β m) m (F.st3d st_ i0 j0 k0 i1 j1 k1 sgcw) (F.layer3 pi0 pj0 pk0 pi1 pj1 pk1 dir side) (2 * dir + 1 + side) (2 * dir + 2 - side) (fun _ => cfU T r k) (fun _ => cfV T r k) := by
  have hst := h.ok (F.st3d st_ i0 j0 k0 i1 j1 k1 sgcw) (by simp)
  obtain ⟨Ast, spst, Ii, Ij, Ik⟩ := st3_setup hst hi hj hk hg
  have mkI := mkB_near (d := .I) (lo := i0) (hi := i1) (by rng)
  have mkJ := mkB_near (d := .J) (lo := j0) (hi := j1) (by rng)
  have mkK := mkB_near (d := .K) (lo := k0) (hi := k1) (by rng)
  have mkW := mkB_near (d := .W) (lo := 0) (hi := 6) (by rng)
  obtain ⟨hd, hs, hxx, hy, hz, nI, nJ, nK⟩ := hl
  have mkPI := mkB_near (d := .I) (lo := pi0) nI.2
  have mkPJ := mkB_near (d := .J) (lo := pj0) nJ.2
  have mkPK := mkB_near (d := .K) (lo := pk0) nK.2
  have hd : dir = 0 ∨ dir = 1 ∨ dir = 2 := by omega
  unfold Cuda.adjCfOffdiag3d
  rw [← farr_st3]
  rcases hd with rfl | rfl | rfl <;> rcases hs with rfl | rfl
  · replace hxx := hxx rfl
    show F.Adjusts _ m _ _ 1 2 _ _
    refine F.Adjusts.bind mkI <| F.Adjusts.bind mkPI <| F.Adjusts.bind mkJ <| F.Adjusts.bind mkPJ <| F.Adjusts.bind mkK <| F.Adjusts.bind mkPK <| F.Adjusts.bind mkW <| F.Adjusts.bind spst <| F.Adjusts.bind (localize_ok (l := pi0 - 2 * 0 + 1) (by omega) nI.1 rfl) <| F.Adjusts.bind (localize_ok (l := pj0 - 2 * 0 + 1) (by omega) nJ.1 rfl) <| F.Adjusts.bind (localize_ok (l := pk0 - 2 * 0 + 1) (by omega) nK.1 rfl) <| F.Adjusts.bind (y := (1 : Int)) rfl <| F.Adjusts.bind (y := (2 : Int)) rfl <| ?_
    rcases hq with rfl | rfl
    · exact (cfo_1 (seg3_0 (x := pi0 - 2 * 0 + 1) Ast (by omega) (by omega) (by omega) rfl) hβ (by omega) (by omega) (by decide)).congr (fun c => layer3_0_iff) (fun c hc => rfl) (fun c hc => rfl)
    · exact (cfo_2 (seg3_0 (x := pi0 - 2 * 0 + 1) Ast (by omega) (by omega) (by omega) rfl) hβ (by omega) (by omega) (by decide)).congr (fun c => layer3_0_iff) (fun c hc => rfl) (fun c hc => rfl)
  · replace hxx := hxx rfl
    show F.Adjusts _ m _ _ 2 1 _ _
    refine F.Adjusts.bind mkI <| F.Adjusts.bind mkPI <| F.Adjusts.bind mkJ <| F.Adjusts.bind mkPJ <| F.Adjusts.bind mkK <| F.Adjusts.bind mkPK <| F.Adjusts.bind mkW <| F.Adjusts.bind spst <| F.Adjusts.bind (localize_ok (l := pi0 - 2 * 1 + 1) (by omega) nI.1 rfl) <| F.Adjusts.bind (localize_ok (l := pj0 - 2 * 1 + 1) (by omega) nJ.1 rfl) <| F.Adjusts.bind (localize_ok (l := pk0 - 2 * 1 + 1) (by omega) nK.1 rfl) <| F.Adjusts.bind (y := (2 : Int)) rfl <| F.Adjusts.bind (y := (1 : Int)) rfl <| ?_
    rcases hq with rfl | rfl
    · exact (cfo_1 (seg3_0 (x := pi0 - 2 * 1 + 1) Ast (by omega) (by omega) (by omega) rfl) hβ (by omega) (by omega) (by decide)).congr (fun c => layer3_0_iff) (fun c hc => rfl) (fun c hc => rfl)
    · exact (cfo_2 (seg3_0 (x := pi0 - 2 * 1 + 1) Ast (by omega) (by omega) (by omega) rfl) hβ (by omega) (by omega) (by decide)).congr (fun c => layer3_0_iff) (fun c hc => rfl) (fun c hc => rfl)
  · replace hy := hy rfl
    show F.Adjusts _ m _ _ 3 4 _ _
    refine F.Adjusts.bind mkI <| F.Adjusts.bind mkPI <| F.Adjusts.bind mkJ <| F.Adjusts.bind mkPJ <| F.Adjusts.bind mkK <| F.Adjusts.bind mkPK <| F.Adjusts.bind mkW <| F.Adjusts.bind spst <| F.Adjusts.bind (localize_ok (l := pi0 - 2 * 0 + 1) (by omega) nI.1 rfl) <| F.Adjusts.bind (localize_ok (l := pj0 - 2 * 0 + 1) (by omega) nJ.1 rfl) <| F.Adjusts.bind (localize_ok (l := pk0 - 2 * 0 + 1) (by omega) nK.1 rfl) <| F.Adjusts.bind (y := (3 : Int)) rfl <| F.Adjusts.bind (y := (4 : Int)) rfl <| ?_
    rcases hq with rfl | rfl
    · exact (cfo_1 (seg3_1 (x := pj0 - 2 * 0 + 1) Ast (by omega) (by omega) (by omega) rfl) hβ (by omega) (by omega) (by decide)).congr (fun c => layer3_1_iff) (fun c hc => rfl) (fun c hc => rfl)
    · exact (cfo_2 (seg3_1 (x := pj0 - 2 * 0 + 1) Ast (by omega) (by omega) (by omega) rfl) hβ (by omega) (by omega) (by decide)).congr (fun c => layer3_1_iff) (fun c hc => rfl) (fun c hc => rfl)
  · replace hy := hy rfl
    show F.Adjusts _ m _ _ 4 3 _ _
    refine F.Adjusts.bind mkI <| F.Adjusts.bind mkPI <| F.Adjusts.bind mkJ <| F.Adjusts.bind mkPJ <| F.Adjusts.bind mkK <| F.Adjusts.bind mkPK <| F.Adjusts.bind mkW <| F.Adjusts.bind spst <| F.Adjusts.bind (localize_ok (l := pi0 - 2 * 1 + 1) (by omega) nI.1 rfl) <| F.Adjusts.bind (localize_ok (l := pj0 - 2 * 1 + 1) (by omega) nJ.1 rfl) <| F.Adjusts.bind (localize_ok (l := pk0 - 2 * 1 + 1) (by omega) nK.1 rfl) <| F.Adjusts.bind (y := (4 : Int)) rfl <| F.Adjusts.bind (y := (3 : Int)) rfl <| ?_
    rcases hq with rfl | rfl
    · exact (cfo_1 (seg3_1 (x := pj0 - 2 * 1 + 1) Ast (by omega) (by omega) (by omega) rfl) hβ (by omega) (by omega) (by decide)).congr (fun c => layer3_1_iff) (fun c hc => rfl) (fun c hc => rfl)
    · exact (cfo_2 (seg3_1 (x := pj0 - 2 * 1 + 1) Ast (by omega) (by omega) (by omega) rfl) hβ (by omega) (by omega) (by decide)).congr (fun c => layer3_1_iff) (fun c hc => rfl) (fun c hc => rfl)
  · replace hz := hz rfl
    show F.Adjusts _ m _ _ 5 6 _ _
    refine F.Adjusts.bind mkI <| F.Adjusts.bind mkPI <| F.Adjusts.bind mkJ <| F.Adjusts.bind mkPJ <| F.Adjusts.bind mkK <| F.Adjusts.bind mkPK <| F.Adjusts.bind mkW <| F.Adjusts.bind spst <| F.Adjusts.bind (localize_ok (l := pi0 - 2 * 0 + 1) (by omega) nI.1 rfl) <| F.Adjusts.bind (localize_ok (l := pj0 - 2 * 0 + 1) (by omega) nJ.1 rfl) <| F.Adjusts.bind (localize_ok (l := pk0 - 2 * 0 + 1) (by omega) nK.1 rfl) <| F.Adjusts.bind (y := (5 : Int)) rfl <| F.Adjusts.bind (y := (6 : Int)) rfl <| ?_
    rcases hq with rfl | rfl
    · exact (cfo_1 (seg3_2 (x := pk0 - 2 * 0 + 1) Ast (by omega) (by omega) (by omega) rfl) hβ (by omega) (by omega) (by decide)).congr (fun c => layer3_2_iff) (fun c hc => rfl) (fun c hc => rfl)
    · exact (cfo_2 (seg3_2 (x := pk0 - 2 * 0 + 1) Ast (by omega) (by omega) (by omega) rfl) hβ (by omega) (by omega) (by decide)).congr (fun c => layer3_2_iff) (fun c hc => rfl) (fun c hc => rfl)
  · replace hz := hz rfl
    show F.Adjusts _ m _ _ 6 5 _ _
    refine F.Adjusts.bind mkI <| F.Adjusts.bind mkPI <| F.Adjusts.bind mkJ <| F.Adjusts.bind mkPJ <| F.Adjusts.bind mkK <| F.Adjusts.bind mkPK <| F.Adjusts.bind mkW <| F.Adjusts.bind spst <| F.Adjusts.bind (localize_ok (l := pi0 - 2 * 1 + 1) (by omega) nI.1 rfl) <| F.Adjusts.bind (localize_ok (l := pj0 - 2 * 1 + 1) (by omega) nJ.1 rfl) <| F.Adjusts.bind (localize_ok (l := pk0 - 2 * 1 + 1) (by omega) nK.1 rfl) <| F.Adjusts.bind (y := (6 : Int)) rfl <| F.Adjusts.bind (y := (5 : Int)) rfl <| ?_
    rcases hq with rfl | rfl
    · exact (cfo_1 (seg3_2 (x := pk0 - 2 * 1 + 1) Ast (by omega) (by omega) (by omega) rfl) hβ (by omega) (by omega) (by decide)).congr (fun c => layer3_2_iff) (fun c hc => rfl) (fun c hc => rfl)
    · exact (cfo_2 (seg3_2 (x := pk0 - 2 * 1 + 1) Ast (by omega) (by omega) (by omega) rfl) hβ (by omega) (by omega) (by decide)).congr (fun c => layer3_2_iff) (fun c hc => rfl) (fun c hc => rfl)

end Verif
