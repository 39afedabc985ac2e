import Verif.Lemmas.BcValues
import Verif.Spec.Segment

/-
The ghost values each boundary condition kernel leaves, face by face.
-/

namespace Verif
open Spec

set_option linter.unusedVariables false

variable {T : Type} [Field T]

theorem ghosts_1d {i0 i1 g dg exOrder face btype : Int} {dx : Nat → T} {d0 u : Ptr} {bLo bHi : Nat → Int} {alpha beta : T}
    {β : Nat → Backend} {m : Mem T} (hβ : ∀ n, ValidBackend (β n))
    (hi : i0 ≤ i1) (hg : 0 ≤ g) (hdg : 0 ≤ dg)
    (hs : ∀ n < 1, InInt (bLo n + 1) ∧ InInt (bHi n + 1))
    (hf0 : face = 0 → Reach i0 i1 g (bLo 0) 2 ∧ OnFaces i0 i1 dg (bLo 0 + 1))
    (hf1 : face = 1 → Reach i0 i1 g (bHi 0) (-2) ∧ OnFaces i0 i1 dg (bHi 0))
    (h : F.Args m [F.face1d d0 i0 i1 dg] [F.cell1d u i0 i1 g]) :
    Ends (Cuda.setBc1d i0 i1 dx dg d0 g u bLo bHi exOrder face btype alpha beta β m) fun m' =>
      (face = 0 → ∀ v, ghost false btype exOrder alpha beta (dx 0) (F.rd m (F.face1d d0 i0 i1 dg) [bLo 0 + 1])
          (F.rd m (F.cell1d u i0 i1 g) [bLo 0 + 1]) (F.rd m (F.cell1d u i0 i1 g) [bLo 0 + 2]) = some v → F.El m' (F.cell1d u i0 i1 g) [bLo 0 + 0] v) ∧
      (face = 1 → ∀ v, ghost false btype exOrder alpha beta (dx 0) (F.rd m (F.face1d d0 i0 i1 dg) [bHi 0])
          (F.rd m (F.cell1d u i0 i1 g) [bHi 0 - 1]) (F.rd m (F.cell1d u i0 i1 g) [bHi 0 - 2]) = some v → F.El m' (F.cell1d u i0 i1 g) [bHi 0 - 0] v) := by
  obtain ⟨Au, spu, Iu⟩ := cell1_setup (h.ok (F.cell1d u i0 i1 g) (by simp)) hi hg
  obtain ⟨Ad0, pl0, sp0⟩ := faceG1_setup (h.ok (F.face1d d0 i0 i1 dg) (by simp)) hi hdg
  have Pd0 : Apart (sCell1 u i0 i1 g) (sFaceG1 d0 i0 i1 dg) := apart_of farr_cell1 farr_faceG1 (h.apart _ (by simp) _ (by simp))
  have hs0 := hs 0 (by decide)
  unfold InInt at Iu hs0
  have mkI := mkB_ok (d := .I) (lo := i0) (hi := i1) (by unfold InInt; omega)
  have mkIb := mkB_ok (d := .I) (lo := max (bLo 0) i0) (hi := min (bHi 0) i1) (by unfold InInt; omega)
  have mkIl := mkB_ok (d := .I) (lo := bLo 0) (hi := bLo 0) (by unfold InInt; omega)
  have mkIh := mkB_ok (d := .I) (lo := bHi 0) (hi := bHi 0) (by unfold InInt; omega)
  unfold Cuda.setBc1d
  refine Ends.bind mkI <| Ends.bind pl0 <| Ends.bind sp0 <| Ends.bind spu <| Ends.bind mkIb <| Ends.bind mkIl <| Ends.bind mkIh <| ?_
  by_cases e0 : face = 0
  · rw [if_pos e0]
    obtain ⟨⟨⟨r1, r2⟩, r3, r4⟩, ⟨c1, c2⟩⟩ := hf0 e0
    have S := site1I (li := bLo 0) (xi := bLo 0 + 0)  Au (by omega) (by omega)
    have A1 := at1I_I (ki := 1) (yi := bLo 0 + 1) S  (by omega) (by decide) (by omega)
    have A2 := at1I_I (ki := 2) (yi := bLo 0 + 2) S  (by omega) (by decide) (by omega)
    have Ad := at1I_d1 (yi := bLo 0 + 1) S Ad0 Pd0  (by omega) (by omega)
    exact (S.t1_ghosts (hβ 0) A1 A2 Ad).mono fun m' hB => ⟨fun _ v hv => hB (facePt (bLo 0) 0 0 0) (by site_mem) v hv, fun e => absurd (e0.symm.trans e) (by decide)⟩
  by_cases e1 : face = 1
  · rw [if_neg e0, if_pos e1]
    obtain ⟨⟨⟨r1, r2⟩, r3, r4⟩, ⟨c1, c2⟩⟩ := hf1 e1
    have S := site1I (li := bHi 0) (xi := bHi 0 - 0)  Au (by omega) (by omega)
    have A1 := at1I_I (ki := -1) (yi := bHi 0 - 1) S  (by omega) (by decide) (by omega)
    have A2 := at1I_I (ki := -2) (yi := bHi 0 - 2) S  (by omega) (by decide) (by omega)
    have Ad := at1I_d0 (yi := bHi 0) S Ad0 Pd0  (by omega) (by omega)
    exact (S.t1_ghosts (hβ 0) A1 A2 Ad).mono fun m' hB => ⟨fun e => absurd (e1.symm.trans e) (by decide), fun _ v hv => hB (facePt (bHi 0) 0 0 0) (by site_mem) v hv⟩
  rw [if_neg e0, if_neg e1]
  exact ⟨m, rfl, fun e => absurd e e0, fun e => absurd e e1⟩

theorem ghosts_p1d {i0 i1 g exOrder face btype : Int} {dx : Nat → T} { u : Ptr} {bLo bHi : Nat → Int} {alpha beta : T}
    {β : Nat → Backend} {m : Mem T} (hβ : ∀ n, ValidBackend (β n))
    (hi : i0 ≤ i1) (hg : 0 ≤ g)
    (hs : ∀ n < 1, InInt (bLo n + 1) ∧ InInt (bHi n + 1))
    (hf0 : face = 0 → Reach i0 i1 g (bLo 0) 2)
    (hf1 : face = 1 → Reach i0 i1 g (bHi 0) (-2))
    (h : F.Args m [] [F.cell1d u i0 i1 g]) :
    Ends (Cuda.setPoissonBc1d i0 i1 dx g u bLo bHi exOrder face btype alpha beta β m) fun m' =>
      (face = 0 → ∀ v, ghost false btype exOrder 2 1 (dx 0) 1
          (F.rd m (F.cell1d u i0 i1 g) [bLo 0 + 1]) (F.rd m (F.cell1d u i0 i1 g) [bLo 0 + 2]) = some v → F.El m' (F.cell1d u i0 i1 g) [bLo 0 + 0] v) ∧
      (face = 1 → ∀ v, ghost false btype exOrder 2 1 (dx 0) 1
          (F.rd m (F.cell1d u i0 i1 g) [bHi 0 - 1]) (F.rd m (F.cell1d u i0 i1 g) [bHi 0 - 2]) = some v → F.El m' (F.cell1d u i0 i1 g) [bHi 0 - 0] v) := by
  obtain ⟨Au, spu, Iu⟩ := cell1_setup (h.ok (F.cell1d u i0 i1 g) (by simp)) hi hg
  have hs0 := hs 0 (by decide)
  unfold InInt at Iu hs0
  have mkI := mkB_ok (d := .I) (lo := i0) (hi := i1) (by unfold InInt; omega)
  have mkIb := mkB_ok (d := .I) (lo := max (bLo 0) i0) (hi := min (bHi 0) i1) (by unfold InInt; omega)
  have mkIl := mkB_ok (d := .I) (lo := bLo 0) (hi := bLo 0) (by unfold InInt; omega)
  have mkIh := mkB_ok (d := .I) (lo := bHi 0) (hi := bHi 0) (by unfold InInt; omega)
  unfold Cuda.setPoissonBc1d
  refine Ends.bind mkI <| Ends.bind spu <| Ends.bind mkIb <| Ends.bind mkIl <| Ends.bind mkIh <| ?_
  by_cases e0 : face = 0
  · rw [if_pos e0]
    obtain ⟨⟨r1, r2⟩, r3, r4⟩ := hf0 e0
    have S := site1I (li := bLo 0) (xi := bLo 0 + 0)  Au (by omega) (by omega)
    have A1 := at1I_I (ki := 1) (yi := bLo 0 + 1) S  (by omega) (by decide) (by omega)
    have A2 := at1I_I (ki := 2) (yi := bLo 0 + 2) S  (by omega) (by decide) (by omega)
    exact (S.q1_ghosts (hβ 0) A1 A2).mono fun m' hB => ⟨fun _ v hv => hB (facePt (bLo 0) 0 0 0) (by site_mem) v hv, fun e => absurd (e0.symm.trans e) (by decide)⟩
  by_cases e1 : face = 1
  · rw [if_neg e0, if_pos e1]
    obtain ⟨⟨r1, r2⟩, r3, r4⟩ := hf1 e1
    have S := site1I (li := bHi 0) (xi := bHi 0 - 0)  Au (by omega) (by omega)
    have A1 := at1I_I (ki := -1) (yi := bHi 0 - 1) S  (by omega) (by decide) (by omega)
    have A2 := at1I_I (ki := -2) (yi := bHi 0 - 2) S  (by omega) (by decide) (by omega)
    exact (S.q1_ghosts (hβ 0) A1 A2).mono fun m' hB => ⟨fun e => absurd (e1.symm.trans e) (by decide), fun _ v hv => hB (facePt (bHi 0) 0 0 0) (by site_mem) v hv⟩
  rw [if_neg e0, if_neg e1]
  exact ⟨m, rfl, fun e => absurd e e0, fun e => absurd e e1⟩

theorem ghosts_2d {i0 j0 i1 j1 g dg exOrder face btype : Int} {dx : Nat → T} {d0 d1 u : Ptr} {bLo bHi : Nat → Int} {alpha beta : T}
    {β : Nat → Backend} {m : Mem T} (hβ : ∀ n, ValidBackend (β n))
    (hi : i0 ≤ i1) (hj : j0 ≤ j1) (hg : 0 ≤ g) (hdg : 0 ≤ dg)
    (hs : ∀ n < 2, InInt (bLo n + 1) ∧ InInt (bHi n + 1))
    (hf0 : face = 0 → Reach i0 i1 g (bLo 0) 2 ∧ OnFaces i0 i1 dg (bLo 0 + 1) ∧ Meets j0 j1 (bLo 1) (bHi 1))
    (hf1 : face = 1 → Reach i0 i1 g (bHi 0) (-2) ∧ OnFaces i0 i1 dg (bHi 0) ∧ Meets j0 j1 (bLo 1) (bHi 1))
    (hf2 : face = 2 → Reach j0 j1 g (bLo 1) 2 ∧ OnFaces j0 j1 dg (bLo 1 + 1) ∧ Meets i0 i1 (bLo 0) (bHi 0))
    (hf3 : face = 3 → Reach j0 j1 g (bHi 1) (-2) ∧ OnFaces j0 j1 dg (bHi 1) ∧ Meets i0 i1 (bLo 0) (bHi 0))
    (h : F.Args m [F.face2d0 d0 i0 j0 i1 j1 dg, F.face2d1 d1 i0 j0 i1 j1 dg] [F.cell2d u i0 j0 i1 j1 g]) :
    Ends (Cuda.setBc2d i0 i1 j0 j1 dx dg d0 d1 g u bLo bHi exOrder face 1 btype alpha beta β m) fun m' =>
      (face = 0 → ∀ j, max j0 (bLo 1) ≤ j → j ≤ min j1 (bHi 1) → ∀ v, ghost true btype exOrder alpha beta (dx 0) (F.rd m (F.face2d0 d0 i0 j0 i1 j1 dg) [bLo 0 + 1, j])
          (F.rd m (F.cell2d u i0 j0 i1 j1 g) [bLo 0 + 1, j]) (F.rd m (F.cell2d u i0 j0 i1 j1 g) [bLo 0 + 2, j]) = some v → F.El m' (F.cell2d u i0 j0 i1 j1 g) [bLo 0 + 0, j] v) ∧
      (face = 1 → ∀ j, max j0 (bLo 1) ≤ j → j ≤ min j1 (bHi 1) → ∀ v, ghost true btype exOrder alpha beta (dx 0) (F.rd m (F.face2d0 d0 i0 j0 i1 j1 dg) [bHi 0, j])
          (F.rd m (F.cell2d u i0 j0 i1 j1 g) [bHi 0 - 1, j]) (F.rd m (F.cell2d u i0 j0 i1 j1 g) [bHi 0 - 2, j]) = some v → F.El m' (F.cell2d u i0 j0 i1 j1 g) [bHi 0 - 0, j] v) ∧
      (face = 2 → ∀ i, max i0 (bLo 0) ≤ i → i ≤ min i1 (bHi 0) → ∀ v, ghost true btype exOrder alpha beta (dx 1) (F.rd m (F.face2d1 d1 i0 j0 i1 j1 dg) [bLo 1 + 1, i])
          (F.rd m (F.cell2d u i0 j0 i1 j1 g) [i, bLo 1 + 1]) (F.rd m (F.cell2d u i0 j0 i1 j1 g) [i, bLo 1 + 2]) = some v → F.El m' (F.cell2d u i0 j0 i1 j1 g) [i, bLo 1 + 0] v) ∧
      (face = 3 → ∀ i, max i0 (bLo 0) ≤ i → i ≤ min i1 (bHi 0) → ∀ v, ghost true btype exOrder alpha beta (dx 1) (F.rd m (F.face2d1 d1 i0 j0 i1 j1 dg) [bHi 1, i])
          (F.rd m (F.cell2d u i0 j0 i1 j1 g) [i, bHi 1 - 1]) (F.rd m (F.cell2d u i0 j0 i1 j1 g) [i, bHi 1 - 2]) = some v → F.El m' (F.cell2d u i0 j0 i1 j1 g) [i, bHi 1 - 0] v) := by
  obtain ⟨Au, spu, Iu⟩ := cell2_setup (h.ok (F.cell2d u i0 j0 i1 j1 g) (by simp)) hi hj hg
  obtain ⟨Ad0, pl0, sp0⟩ := faceG20_setup (h.ok (F.face2d0 d0 i0 j0 i1 j1 dg) (by simp)) hi hj hdg
  have Pd0 : Apart (sCell2 u i0 j0 i1 j1 g) (sFaceG20 d0 i0 j0 i1 j1 dg) := apart_of farr_cell2 farr_faceG20 (h.apart _ (by simp) _ (by simp))
  obtain ⟨Ad1, pl1, sp1⟩ := faceG21_setup (h.ok (F.face2d1 d1 i0 j0 i1 j1 dg) (by simp)) hi hj hdg
  have Pd1 : Apart (sCell2 u i0 j0 i1 j1 g) (sFaceG21 d1 i0 j0 i1 j1 dg) := apart_of farr_cell2 farr_faceG21 (h.apart _ (by simp) _ (by simp))
  have hs0 := hs 0 (by decide)
  have hs1 := hs 1 (by decide)
  unfold InInt at Iu hs0 hs1
  have mkI := mkB_ok (d := .I) (lo := i0) (hi := i1) (by unfold InInt; omega)
  have mkIb := mkB_ok (d := .I) (lo := max (bLo 0) i0) (hi := min (bHi 0) i1) (by unfold InInt; omega)
  have mkIl := mkB_ok (d := .I) (lo := bLo 0) (hi := bLo 0) (by unfold InInt; omega)
  have mkIh := mkB_ok (d := .I) (lo := bHi 0) (hi := bHi 0) (by unfold InInt; omega)
  have mkJ := mkB_ok (d := .J) (lo := j0) (hi := j1) (by unfold InInt; omega)
  have mkJb := mkB_ok (d := .J) (lo := max (bLo 1) j0) (hi := min (bHi 1) j1) (by unfold InInt; omega)
  have mkJl := mkB_ok (d := .J) (lo := bLo 1) (hi := bLo 1) (by unfold InInt; omega)
  have mkJh := mkB_ok (d := .J) (lo := bHi 1) (hi := bHi 1) (by unfold InInt; omega)
  unfold Cuda.setBc2d
  refine Ends.bind mkI <| Ends.bind mkJ <| Ends.bind pl0 <| Ends.bind sp0 <| Ends.bind pl1 <| Ends.bind sp1 <| Ends.bind spu <| Ends.bind mkIb <| Ends.bind mkJb <| Ends.bind mkIl <| Ends.bind mkIh <| Ends.bind mkJl <| Ends.bind mkJh <| ?_
  rw [if_pos rfl]
  by_cases e0 : face = 0
  · rw [if_pos e0]
    obtain ⟨⟨⟨r1, r2⟩, r3, r4⟩, ⟨c1, c2⟩, pj⟩ := hf0 e0
    unfold Meets at pj
    rw [max_comm (bLo 1) j0, min_comm (bHi 1) j1] at *
    have S := site2I (li := bLo 0) (xi := bLo 0 + 0) (aj := max j0 (bLo 1)) (bj := min j1 (bHi 1)) Au (by omega) (by omega) (by omega)
    have A1 := at2I_I (ki := 1) (yi := bLo 0 + 1) S (by omega) (by omega) (by decide) (by omega)
    have A2 := at2I_I (ki := 2) (yi := bLo 0 + 2) S (by omega) (by omega) (by decide) (by omega)
    have Ad := at2I_d1 (yi := bLo 0 + 1) S Ad0 Pd0 (by omega) (by omega) (by omega)
    exact (S.t1_ghosts (hβ 0) A1 A2 Ad).mono fun m' hB => ⟨fun _ j ja jb v hv => hB (facePt (bLo 0) j 0 0) (by site_mem) v hv, fun e => absurd (e0.symm.trans e) (by decide), fun e => absurd (e0.symm.trans e) (by decide), fun e => absurd (e0.symm.trans e) (by decide)⟩
  by_cases e1 : face = 1
  · rw [if_neg e0, if_pos e1]
    obtain ⟨⟨⟨r1, r2⟩, r3, r4⟩, ⟨c1, c2⟩, pj⟩ := hf1 e1
    unfold Meets at pj
    rw [max_comm (bLo 1) j0, min_comm (bHi 1) j1] at *
    have S := site2I (li := bHi 0) (xi := bHi 0 - 0) (aj := max j0 (bLo 1)) (bj := min j1 (bHi 1)) Au (by omega) (by omega) (by omega)
    have A1 := at2I_I (ki := -1) (yi := bHi 0 - 1) S (by omega) (by omega) (by decide) (by omega)
    have A2 := at2I_I (ki := -2) (yi := bHi 0 - 2) S (by omega) (by omega) (by decide) (by omega)
    have Ad := at2I_d0 (yi := bHi 0) S Ad0 Pd0 (by omega) (by omega) (by omega)
    exact (S.t1_ghosts (hβ 0) A1 A2 Ad).mono fun m' hB => ⟨fun e => absurd (e1.symm.trans e) (by decide), fun _ j ja jb v hv => hB (facePt (bHi 0) j 0 0) (by site_mem) v hv, fun e => absurd (e1.symm.trans e) (by decide), fun e => absurd (e1.symm.trans e) (by decide)⟩
  by_cases e2 : face = 2
  · rw [if_neg e0, if_neg e1, if_pos e2]
    obtain ⟨⟨⟨r1, r2⟩, r3, r4⟩, ⟨c1, c2⟩, pi⟩ := hf2 e2
    unfold Meets at pi
    rw [max_comm (bLo 0) i0, min_comm (bHi 0) i1] at *
    have S := site2J (lj := bLo 1) (xj := bLo 1 + 0) (ai := max i0 (bLo 0)) (bi := min i1 (bHi 0)) Au (by omega) (by omega) (by omega)
    have A1 := at2J_J (kj := 1) (yj := bLo 1 + 1) S (by omega) (by omega) (by decide) (by omega)
    have A2 := at2J_J (kj := 2) (yj := bLo 1 + 2) S (by omega) (by omega) (by decide) (by omega)
    have Ad := at2J_d1 (yj := bLo 1 + 1) S Ad1 Pd1 (by omega) (by omega) (by omega)
    exact (S.t1_ghosts (hβ 0) A1 A2 Ad).mono fun m' hB => ⟨fun e => absurd (e2.symm.trans e) (by decide), fun e => absurd (e2.symm.trans e) (by decide), fun _ i ia ib v hv => hB (facePt i (bLo 1) 0 0) (by site_mem) v hv, fun e => absurd (e2.symm.trans e) (by decide)⟩
  by_cases e3 : face = 3
  · rw [if_neg e0, if_neg e1, if_neg e2, if_pos e3]
    obtain ⟨⟨⟨r1, r2⟩, r3, r4⟩, ⟨c1, c2⟩, pi⟩ := hf3 e3
    unfold Meets at pi
    rw [max_comm (bLo 0) i0, min_comm (bHi 0) i1] at *
    have S := site2J (lj := bHi 1) (xj := bHi 1 - 0) (ai := max i0 (bLo 0)) (bi := min i1 (bHi 0)) Au (by omega) (by omega) (by omega)
    have A1 := at2J_J (kj := -1) (yj := bHi 1 - 1) S (by omega) (by omega) (by decide) (by omega)
    have A2 := at2J_J (kj := -2) (yj := bHi 1 - 2) S (by omega) (by omega) (by decide) (by omega)
    have Ad := at2J_d0 (yj := bHi 1) S Ad1 Pd1 (by omega) (by omega) (by omega)
    exact (S.t1_ghosts (hβ 0) A1 A2 Ad).mono fun m' hB => ⟨fun e => absurd (e3.symm.trans e) (by decide), fun e => absurd (e3.symm.trans e) (by decide), fun e => absurd (e3.symm.trans e) (by decide), fun _ i ia ib v hv => hB (facePt i (bHi 1) 0 0) (by site_mem) v hv⟩
  rw [if_neg e0, if_neg e1, if_neg e2, if_neg e3]
  exact ⟨m, rfl, fun e => absurd e e0, fun e => absurd e e1, fun e => absurd e e2, fun e => absurd e e3⟩

theorem ghosts_p2d {i0 j0 i1 j1 g exOrder face btype : Int} {dx : Nat → T} { u : Ptr} {bLo bHi : Nat → Int} {alpha beta : T}
    {β : Nat → Backend} {m : Mem T} (hβ : ∀ n, ValidBackend (β n))
    (hi : i0 ≤ i1) (hj : j0 ≤ j1) (hg : 0 ≤ g)
    (hs : ∀ n < 2, InInt (bLo n + 1) ∧ InInt (bHi n + 1))
    (hf0 : face = 0 → Reach i0 i1 g (bLo 0) 2 ∧ Meets j0 j1 (bLo 1) (bHi 1))
    (hf1 : face = 1 → Reach i0 i1 g (bHi 0) (-2) ∧ Meets j0 j1 (bLo 1) (bHi 1))
    (hf2 : face = 2 → Reach j0 j1 g (bLo 1) 2 ∧ Meets i0 i1 (bLo 0) (bHi 0))
    (hf3 : face = 3 → Reach j0 j1 g (bHi 1) (-2) ∧ Meets i0 i1 (bLo 0) (bHi 0))
    (h : F.Args m [] [F.cell2d u i0 j0 i1 j1 g]) :
    Ends (Cuda.setPoissonBc2d i0 i1 j0 j1 dx g u bLo bHi exOrder face 1 btype alpha beta β m) fun m' =>
      (face = 0 → ∀ j, max j0 (bLo 1) ≤ j → j ≤ min j1 (bHi 1) → ∀ v, ghost false btype exOrder alpha beta (dx 0) 1
          (F.rd m (F.cell2d u i0 j0 i1 j1 g) [bLo 0 + 1, j]) (F.rd m (F.cell2d u i0 j0 i1 j1 g) [bLo 0 + 2, j]) = some v → F.El m' (F.cell2d u i0 j0 i1 j1 g) [bLo 0 + 0, j] v) ∧
      (face = 1 → ∀ j, max j0 (bLo 1) ≤ j → j ≤ min j1 (bHi 1) → ∀ v, ghost false btype exOrder alpha beta (dx 0) 1
          (F.rd m (F.cell2d u i0 j0 i1 j1 g) [bHi 0 - 1, j]) (F.rd m (F.cell2d u i0 j0 i1 j1 g) [bHi 0 - 2, j]) = some v → F.El m' (F.cell2d u i0 j0 i1 j1 g) [bHi 0 - 0, j] v) ∧
      (face = 2 → btype ≠ 4 → ∀ i, max i0 (bLo 0) ≤ i → i ≤ min i1 (bHi 0) → ∀ v, ghost false btype exOrder alpha beta (dx 1) 1
          (F.rd m (F.cell2d u i0 j0 i1 j1 g) [i, bLo 1 + 1]) (F.rd m (F.cell2d u i0 j0 i1 j1 g) [i, bLo 1 + 2]) = some v → F.El m' (F.cell2d u i0 j0 i1 j1 g) [i, bLo 1 + 0] v) ∧
      (face = 3 → btype ≠ 4 → ∀ i, max i0 (bLo 0) ≤ i → i ≤ min i1 (bHi 0) → ∀ v, ghost false btype exOrder alpha beta (dx 1) 1
          (F.rd m (F.cell2d u i0 j0 i1 j1 g) [i, bHi 1 - 1]) (F.rd m (F.cell2d u i0 j0 i1 j1 g) [i, bHi 1 - 2]) = some v → F.El m' (F.cell2d u i0 j0 i1 j1 g) [i, bHi 1 - 0] v) := by
  obtain ⟨Au, spu, Iu⟩ := cell2_setup (h.ok (F.cell2d u i0 j0 i1 j1 g) (by simp)) hi hj hg
  have hs0 := hs 0 (by decide)
  have hs1 := hs 1 (by decide)
  unfold InInt at Iu hs0 hs1
  have mkI := mkB_ok (d := .I) (lo := i0) (hi := i1) (by unfold InInt; omega)
  have mkIb := mkB_ok (d := .I) (lo := max (bLo 0) i0) (hi := min (bHi 0) i1) (by unfold InInt; omega)
  have mkIl := mkB_ok (d := .I) (lo := bLo 0) (hi := bLo 0) (by unfold InInt; omega)
  have mkIh := mkB_ok (d := .I) (lo := bHi 0) (hi := bHi 0) (by unfold InInt; omega)
  have mkJ := mkB_ok (d := .J) (lo := j0) (hi := j1) (by unfold InInt; omega)
  have mkJb := mkB_ok (d := .J) (lo := max (bLo 1) j0) (hi := min (bHi 1) j1) (by unfold InInt; omega)
  have mkJl := mkB_ok (d := .J) (lo := bLo 1) (hi := bLo 1) (by unfold InInt; omega)
  have mkJh := mkB_ok (d := .J) (lo := bHi 1) (hi := bHi 1) (by unfold InInt; omega)
  unfold Cuda.setPoissonBc2d
  refine Ends.bind mkI <| Ends.bind mkJ <| Ends.bind spu <| Ends.bind mkIb <| Ends.bind mkJb <| Ends.bind mkIl <| Ends.bind mkIh <| Ends.bind mkJl <| Ends.bind mkJh <| ?_
  rw [if_pos rfl]
  by_cases e0 : face = 0
  · rw [if_pos e0]
    obtain ⟨⟨⟨r1, r2⟩, r3, r4⟩, pj⟩ := hf0 e0
    unfold Meets at pj
    rw [max_comm (bLo 1) j0, min_comm (bHi 1) j1] at *
    have S := site2I (li := bLo 0) (xi := bLo 0 + 0) (aj := max j0 (bLo 1)) (bj := min j1 (bHi 1)) Au (by omega) (by omega) (by omega)
    have A1 := at2I_I (ki := 1) (yi := bLo 0 + 1) S (by omega) (by omega) (by decide) (by omega)
    have A2 := at2I_I (ki := 2) (yi := bLo 0 + 2) S (by omega) (by omega) (by decide) (by omega)
    exact (S.p1_ghosts (hβ 0) A1 A2).mono fun m' hB => ⟨fun _ j ja jb v hv => hB (facePt (bLo 0) j 0 0) (by site_mem) v hv, fun e => absurd (e0.symm.trans e) (by decide), fun e => absurd (e0.symm.trans e) (by decide), fun e => absurd (e0.symm.trans e) (by decide)⟩
  by_cases e1 : face = 1
  · rw [if_neg e0, if_pos e1]
    obtain ⟨⟨⟨r1, r2⟩, r3, r4⟩, pj⟩ := hf1 e1
    unfold Meets at pj
    rw [max_comm (bLo 1) j0, min_comm (bHi 1) j1] at *
    have S := site2I (li := bHi 0) (xi := bHi 0 - 0) (aj := max j0 (bLo 1)) (bj := min j1 (bHi 1)) Au (by omega) (by omega) (by omega)
    have A1 := at2I_I (ki := -1) (yi := bHi 0 - 1) S (by omega) (by omega) (by decide) (by omega)
    have A2 := at2I_I (ki := -2) (yi := bHi 0 - 2) S (by omega) (by omega) (by decide) (by omega)
    exact (S.p1_ghosts (hβ 0) A1 A2).mono fun m' hB => ⟨fun e => absurd (e1.symm.trans e) (by decide), fun _ j ja jb v hv => hB (facePt (bHi 0) j 0 0) (by site_mem) v hv, fun e => absurd (e1.symm.trans e) (by decide), fun e => absurd (e1.symm.trans e) (by decide)⟩
  by_cases e2 : face = 2
  · rw [if_neg e0, if_neg e1, if_pos e2]
    obtain ⟨⟨⟨r1, r2⟩, r3, r4⟩, pi⟩ := hf2 e2
    unfold Meets at pi
    rw [max_comm (bLo 0) i0, min_comm (bHi 0) i1] at *
    have S := site2J (lj := bLo 1) (xj := bLo 1 + 0) (ai := max i0 (bLo 0)) (bi := min i1 (bHi 0)) Au (by omega) (by omega) (by omega)
    have A1 := at2J_J (kj := 1) (yj := bLo 1 + 1) S (by omega) (by omega) (by decide) (by omega)
    have A2 := at2J_J (kj := 2) (yj := bLo 1 + 2) S (by omega) (by omega) (by decide) (by omega)
    by_cases hb : btype = 4
    · rw [if_neg (by simpa using hb)]
      exact ⟨m, rfl, fun e => absurd (e2.symm.trans e) (by decide), fun e => absurd (e2.symm.trans e) (by decide), fun _ h4 => absurd hb h4, fun e => absurd (e2.symm.trans e) (by decide)⟩
    rw [if_pos hb]
    exact (S.p1_ghosts (hβ 0) A1 A2).mono fun m' hB => ⟨fun e => absurd (e2.symm.trans e) (by decide), fun e => absurd (e2.symm.trans e) (by decide), fun _ _ i ia ib v hv => hB (facePt i (bLo 1) 0 0) (by site_mem) v hv, fun e => absurd (e2.symm.trans e) (by decide)⟩
  by_cases e3 : face = 3
  · rw [if_neg e0, if_neg e1, if_neg e2, if_pos e3]
    obtain ⟨⟨⟨r1, r2⟩, r3, r4⟩, pi⟩ := hf3 e3
    unfold Meets at pi
    rw [max_comm (bLo 0) i0, min_comm (bHi 0) i1] at *
    have S := site2J (lj := bHi 1) (xj := bHi 1 - 0) (ai := max i0 (bLo 0)) (bi := min i1 (bHi 0)) Au (by omega) (by omega) (by omega)
    have A1 := at2J_J (kj := -1) (yj := bHi 1 - 1) S (by omega) (by omega) (by decide) (by omega)
    have A2 := at2J_J (kj := -2) (yj := bHi 1 - 2) S (by omega) (by omega) (by decide) (by omega)
    by_cases hb : btype = 4
    · rw [if_neg (by simpa using hb)]
      exact ⟨m, rfl, fun e => absurd (e3.symm.trans e) (by decide), fun e => absurd (e3.symm.trans e) (by decide), fun e => absurd (e3.symm.trans e) (by decide), fun _ h4 => absurd hb h4⟩
    rw [if_pos hb]
    exact (S.p1_ghosts (hβ 0) A1 A2).mono fun m' hB => ⟨fun e => absurd (e3.symm.trans e) (by decide), fun e => absurd (e3.symm.trans e) (by decide), fun e => absurd (e3.symm.trans e) (by decide), fun _ _ i ia ib v hv => hB (facePt i (bHi 1) 0 0) (by site_mem) v hv⟩
  rw [if_neg e0, if_neg e1, if_neg e2, if_neg e3]
  exact ⟨m, rfl, fun e => absurd e e0, fun e => absurd e e1, fun e => absurd e e2, fun e => absurd e e3⟩

theorem ghosts_3d {i0 j0 k0 i1 j1 k1 g dg exOrder face btype : Int} {dx : Nat → T} {d0 d1 d2 u : Ptr} {bLo bHi : Nat → Int} {alpha beta : T}
    {β : Nat → Backend} {m : Mem T} (hβ : ∀ n, ValidBackend (β n))
    (hi : i0 ≤ i1) (hj : j0 ≤ j1) (hk : k0 ≤ k1) (hg : 0 ≤ g) (hdg : 0 ≤ dg)
    (hs : ∀ n < 3, InInt (bLo n + 1) ∧ InInt (bHi n + 1))
    (hf0 : face = 0 → Reach i0 i1 g (bLo 0) 2 ∧ OnFaces i0 i1 dg (bLo 0 + 1) ∧ Meets j0 j1 (bLo 1) (bHi 1) ∧ Meets k0 k1 (bLo 2) (bHi 2))
    (hf1 : face = 1 → Reach i0 i1 g (bHi 0) (-2) ∧ OnFaces i0 i1 dg (bHi 0) ∧ Meets j0 j1 (bLo 1) (bHi 1) ∧ Meets k0 k1 (bLo 2) (bHi 2))
    (hf2 : face = 2 → Reach j0 j1 g (bLo 1) 2 ∧ OnFaces j0 j1 dg (bLo 1 + 1) ∧ Meets i0 i1 (bLo 0) (bHi 0) ∧ Meets k0 k1 (bLo 2) (bHi 2))
    (hf3 : face = 3 → Reach j0 j1 g (bHi 1) (-2) ∧ OnFaces j0 j1 dg (bHi 1) ∧ Meets i0 i1 (bLo 0) (bHi 0) ∧ Meets k0 k1 (bLo 2) (bHi 2))
    (hf4 : face = 4 → Reach k0 k1 g (bLo 2) 2 ∧ OnFaces k0 k1 dg (bLo 2 + 1) ∧ Meets i0 i1 (bLo 0) (bHi 0) ∧ Meets j0 j1 (bLo 1) (bHi 1))
    (hf5 : face = 5 → Reach k0 k1 g (bHi 2) (-2) ∧ OnFaces k0 k1 dg (bHi 2) ∧ Meets i0 i1 (bLo 0) (bHi 0) ∧ Meets j0 j1 (bLo 1) (bHi 1))
    (h : F.Args m [F.face3d0 d0 i0 j0 k0 i1 j1 k1 dg, F.face3d1 d1 i0 j0 k0 i1 j1 k1 dg, F.face3d2 d2 i0 j0 k0 i1 j1 k1 dg] [F.cell3d u i0 j0 k0 i1 j1 k1 g]) :
    Ends (Cuda.setBc3d i0 i1 j0 j1 k0 k1 dx dg d0 d1 d2 g u bLo bHi exOrder face 1 btype alpha beta β m) fun m' =>
      (face = 0 → ∀ j, max j0 (bLo 1) ≤ j → j ≤ min j1 (bHi 1) → ∀ k, max k0 (bLo 2) ≤ k → k ≤ min k1 (bHi 2) → ∀ v, ghost false btype exOrder alpha beta (dx 0) (F.rd m (F.face3d0 d0 i0 j0 k0 i1 j1 k1 dg) [bLo 0 + 1, j, k])
          (F.rd m (F.cell3d u i0 j0 k0 i1 j1 k1 g) [bLo 0 + 1, j, k]) (F.rd m (F.cell3d u i0 j0 k0 i1 j1 k1 g) [bLo 0 + 2, j, k]) = some v → F.El m' (F.cell3d u i0 j0 k0 i1 j1 k1 g) [bLo 0 + 0, j, k] v) ∧
      (face = 1 → ∀ j, max j0 (bLo 1) ≤ j → j ≤ min j1 (bHi 1) → ∀ k, max k0 (bLo 2) ≤ k → k ≤ min k1 (bHi 2) → ∀ v, ghost false btype exOrder alpha beta (dx 0) (F.rd m (F.face3d0 d0 i0 j0 k0 i1 j1 k1 dg) [bHi 0, j, k])
          (F.rd m (F.cell3d u i0 j0 k0 i1 j1 k1 g) [bHi 0 - 1, j, k]) (F.rd m (F.cell3d u i0 j0 k0 i1 j1 k1 g) [bHi 0 - 2, j, k]) = some v → F.El m' (F.cell3d u i0 j0 k0 i1 j1 k1 g) [bHi 0 - 0, j, k] v) ∧
      (face = 2 → ∀ i, max i0 (bLo 0) ≤ i → i ≤ min i1 (bHi 0) → ∀ k, max k0 (bLo 2) ≤ k → k ≤ min k1 (bHi 2) → ∀ v, ghost false btype exOrder alpha beta (dx 1) (F.rd m (F.face3d1 d1 i0 j0 k0 i1 j1 k1 dg) [bLo 1 + 1, k, i])
          (F.rd m (F.cell3d u i0 j0 k0 i1 j1 k1 g) [i, bLo 1 + 1, k]) (F.rd m (F.cell3d u i0 j0 k0 i1 j1 k1 g) [i, bLo 1 + 2, k]) = some v → F.El m' (F.cell3d u i0 j0 k0 i1 j1 k1 g) [i, bLo 1 + 0, k] v) ∧
      (face = 3 → ∀ i, max i0 (bLo 0) ≤ i → i ≤ min i1 (bHi 0) → ∀ k, max k0 (bLo 2) ≤ k → k ≤ min k1 (bHi 2) → ∀ v, ghost false btype exOrder alpha beta (dx 1) (F.rd m (F.face3d1 d1 i0 j0 k0 i1 j1 k1 dg) [bHi 1, k, i])
          (F.rd m (F.cell3d u i0 j0 k0 i1 j1 k1 g) [i, bHi 1 - 1, k]) (F.rd m (F.cell3d u i0 j0 k0 i1 j1 k1 g) [i, bHi 1 - 2, k]) = some v → F.El m' (F.cell3d u i0 j0 k0 i1 j1 k1 g) [i, bHi 1 - 0, k] v) ∧
      (face = 4 → ∀ i, max i0 (bLo 0) ≤ i → i ≤ min i1 (bHi 0) → ∀ j, max j0 (bLo 1) ≤ j → j ≤ min j1 (bHi 1) → ∀ v, ghost false btype exOrder alpha beta (dx 2) (F.rd m (F.face3d2 d2 i0 j0 k0 i1 j1 k1 dg) [bLo 2 + 1, i, j])
          (F.rd m (F.cell3d u i0 j0 k0 i1 j1 k1 g) [i, j, bLo 2 + 1]) (F.rd m (F.cell3d u i0 j0 k0 i1 j1 k1 g) [i, j, bLo 2 + 2]) = some v → F.El m' (F.cell3d u i0 j0 k0 i1 j1 k1 g) [i, j, bLo 2 + 0] v) ∧
      (face = 5 → ∀ i, max i0 (bLo 0) ≤ i → i ≤ min i1 (bHi 0) → ∀ j, max j0 (bLo 1) ≤ j → j ≤ min j1 (bHi 1) → ∀ v, ghost false btype exOrder alpha beta (dx 2) (F.rd m (F.face3d2 d2 i0 j0 k0 i1 j1 k1 dg) [bHi 2, i, j])
          (F.rd m (F.cell3d u i0 j0 k0 i1 j1 k1 g) [i, j, bHi 2 - 1]) (F.rd m (F.cell3d u i0 j0 k0 i1 j1 k1 g) [i, j, bHi 2 - 2]) = some v → F.El m' (F.cell3d u i0 j0 k0 i1 j1 k1 g) [i, j, bHi 2 - 0] v) := by
  obtain ⟨Au, spu, Iu⟩ := cell3_setup (h.ok (F.cell3d u i0 j0 k0 i1 j1 k1 g) (by simp)) hi hj hk hg
  obtain ⟨Ad0, pl0, sp0⟩ := faceG30_setup (h.ok (F.face3d0 d0 i0 j0 k0 i1 j1 k1 dg) (by simp)) hi hj hk hdg
  have Pd0 : Apart (sCell3 u i0 j0 k0 i1 j1 k1 g) (sFaceG30 d0 i0 j0 k0 i1 j1 k1 dg) := apart_of farr_cell3 farr_faceG30 (h.apart _ (by simp) _ (by simp))
  obtain ⟨Ad1, pl1, sp1⟩ := faceG31_setup (h.ok (F.face3d1 d1 i0 j0 k0 i1 j1 k1 dg) (by simp)) hi hj hk hdg
  have Pd1 : Apart (sCell3 u i0 j0 k0 i1 j1 k1 g) (sFaceG31 d1 i0 j0 k0 i1 j1 k1 dg) := apart_of farr_cell3 farr_faceG31 (h.apart _ (by simp) _ (by simp))
  obtain ⟨Ad2, pl2, sp2⟩ := faceG32_setup (h.ok (F.face3d2 d2 i0 j0 k0 i1 j1 k1 dg) (by simp)) hi hj hk hdg
  have Pd2 : Apart (sCell3 u i0 j0 k0 i1 j1 k1 g) (sFaceG32 d2 i0 j0 k0 i1 j1 k1 dg) := apart_of farr_cell3 farr_faceG32 (h.apart _ (by simp) _ (by simp))
  have hs0 := hs 0 (by decide)
  have hs1 := hs 1 (by decide)
  have hs2 := hs 2 (by decide)
  unfold InInt at Iu hs0 hs1 hs2
  have mkI := mkB_ok (d := .I) (lo := i0) (hi := i1) (by unfold InInt; omega)
  have mkIb := mkB_ok (d := .I) (lo := max (bLo 0) i0) (hi := min (bHi 0) i1) (by unfold InInt; omega)
  have mkIl := mkB_ok (d := .I) (lo := bLo 0) (hi := bLo 0) (by unfold InInt; omega)
  have mkIh := mkB_ok (d := .I) (lo := bHi 0) (hi := bHi 0) (by unfold InInt; omega)
  have mkJ := mkB_ok (d := .J) (lo := j0) (hi := j1) (by unfold InInt; omega)
  have mkJb := mkB_ok (d := .J) (lo := max (bLo 1) j0) (hi := min (bHi 1) j1) (by unfold InInt; omega)
  have mkJl := mkB_ok (d := .J) (lo := bLo 1) (hi := bLo 1) (by unfold InInt; omega)
  have mkJh := mkB_ok (d := .J) (lo := bHi 1) (hi := bHi 1) (by unfold InInt; omega)
  have mkK := mkB_ok (d := .K) (lo := k0) (hi := k1) (by unfold InInt; omega)
  have mkKb := mkB_ok (d := .K) (lo := max (bLo 2) k0) (hi := min (bHi 2) k1) (by unfold InInt; omega)
  have mkKl := mkB_ok (d := .K) (lo := bLo 2) (hi := bLo 2) (by unfold InInt; omega)
  have mkKh := mkB_ok (d := .K) (lo := bHi 2) (hi := bHi 2) (by unfold InInt; omega)
  unfold Cuda.setBc3d
  refine Ends.bind mkI <| Ends.bind mkJ <| Ends.bind mkK <| Ends.bind pl0 <| Ends.bind sp0 <| Ends.bind pl1 <| Ends.bind sp1 <| Ends.bind pl2 <| Ends.bind sp2 <| Ends.bind spu <| Ends.bind mkIb <| Ends.bind mkJb <| Ends.bind mkKb <| Ends.bind mkIl <| Ends.bind mkIh <| Ends.bind mkJl <| Ends.bind mkJh <| Ends.bind mkKl <| Ends.bind mkKh <| ?_
  rw [if_pos rfl]
  by_cases e0 : face = 0
  · rw [if_pos e0]
    obtain ⟨⟨⟨r1, r2⟩, r3, r4⟩, ⟨c1, c2⟩, pj, pk⟩ := hf0 e0
    unfold Meets at pj
    rw [max_comm (bLo 1) j0, min_comm (bHi 1) j1] at *
    unfold Meets at pk
    rw [max_comm (bLo 2) k0, min_comm (bHi 2) k1] at *
    have S := site3I (li := bLo 0) (xi := bLo 0 + 0) (aj := max j0 (bLo 1)) (bj := min j1 (bHi 1)) (ak := max k0 (bLo 2)) (bk := min k1 (bHi 2)) Au (by omega) (by omega) (by omega) (by omega)
    have A1 := at3I_I (ki := 1) (yi := bLo 0 + 1) S (by omega) (by omega) (by omega) (by decide) (by omega)
    have A2 := at3I_I (ki := 2) (yi := bLo 0 + 2) S (by omega) (by omega) (by omega) (by decide) (by omega)
    have Ad := at3I_d1 (yi := bLo 0 + 1) S Ad0 Pd0 (by omega) (by omega) (by omega) (by omega)
    exact (S.t1_ghosts (hβ 0) A1 A2 Ad).mono fun m' hB => ⟨fun _ j ja jb k ka kb v hv => hB (facePt (bLo 0) j k 0) (by site_mem) v hv, fun e => absurd (e0.symm.trans e) (by decide), fun e => absurd (e0.symm.trans e) (by decide), fun e => absurd (e0.symm.trans e) (by decide), fun e => absurd (e0.symm.trans e) (by decide), fun e => absurd (e0.symm.trans e) (by decide)⟩
  by_cases e1 : face = 1
  · rw [if_neg e0, if_pos e1]
    obtain ⟨⟨⟨r1, r2⟩, r3, r4⟩, ⟨c1, c2⟩, pj, pk⟩ := hf1 e1
    unfold Meets at pj
    rw [max_comm (bLo 1) j0, min_comm (bHi 1) j1] at *
    unfold Meets at pk
    rw [max_comm (bLo 2) k0, min_comm (bHi 2) k1] at *
    have S := site3I (li := bHi 0) (xi := bHi 0 - 0) (aj := max j0 (bLo 1)) (bj := min j1 (bHi 1)) (ak := max k0 (bLo 2)) (bk := min k1 (bHi 2)) Au (by omega) (by omega) (by omega) (by omega)
    have A1 := at3I_I (ki := -1) (yi := bHi 0 - 1) S (by omega) (by omega) (by omega) (by decide) (by omega)
    have A2 := at3I_I (ki := -2) (yi := bHi 0 - 2) S (by omega) (by omega) (by omega) (by decide) (by omega)
    have Ad := at3I_d0 (yi := bHi 0) S Ad0 Pd0 (by omega) (by omega) (by omega) (by omega)
    exact (S.t1_ghosts (hβ 0) A1 A2 Ad).mono fun m' hB => ⟨fun e => absurd (e1.symm.trans e) (by decide), fun _ j ja jb k ka kb v hv => hB (facePt (bHi 0) j k 0) (by site_mem) v hv, fun e => absurd (e1.symm.trans e) (by decide), fun e => absurd (e1.symm.trans e) (by decide), fun e => absurd (e1.symm.trans e) (by decide), fun e => absurd (e1.symm.trans e) (by decide)⟩
  by_cases e2 : face = 2
  · rw [if_neg e0, if_neg e1, if_pos e2]
    obtain ⟨⟨⟨r1, r2⟩, r3, r4⟩, ⟨c1, c2⟩, pi, pk⟩ := hf2 e2
    unfold Meets at pi
    rw [max_comm (bLo 0) i0, min_comm (bHi 0) i1] at *
    unfold Meets at pk
    rw [max_comm (bLo 2) k0, min_comm (bHi 2) k1] at *
    have S := site3J (lj := bLo 1) (xj := bLo 1 + 0) (ai := max i0 (bLo 0)) (bi := min i1 (bHi 0)) (ak := max k0 (bLo 2)) (bk := min k1 (bHi 2)) Au (by omega) (by omega) (by omega) (by omega)
    have A1 := at3J_J (kj := 1) (yj := bLo 1 + 1) S (by omega) (by omega) (by omega) (by decide) (by omega)
    have A2 := at3J_J (kj := 2) (yj := bLo 1 + 2) S (by omega) (by omega) (by omega) (by decide) (by omega)
    have Ad := at3J_d1 (yj := bLo 1 + 1) S Ad1 Pd1 (by omega) (by omega) (by omega) (by omega)
    exact (S.t1_ghosts (hβ 0) A1 A2 Ad).mono fun m' hB => ⟨fun e => absurd (e2.symm.trans e) (by decide), fun e => absurd (e2.symm.trans e) (by decide), fun _ i ia ib k ka kb v hv => hB (facePt i (bLo 1) k 0) (by site_mem) v hv, fun e => absurd (e2.symm.trans e) (by decide), fun e => absurd (e2.symm.trans e) (by decide), fun e => absurd (e2.symm.trans e) (by decide)⟩
  by_cases e3 : face = 3
  · rw [if_neg e0, if_neg e1, if_neg e2, if_pos e3]
    obtain ⟨⟨⟨r1, r2⟩, r3, r4⟩, ⟨c1, c2⟩, pi, pk⟩ := hf3 e3
    unfold Meets at pi
    rw [max_comm (bLo 0) i0, min_comm (bHi 0) i1] at *
    unfold Meets at pk
    rw [max_comm (bLo 2) k0, min_comm (bHi 2) k1] at *
    have S := site3J (lj := bHi 1) (xj := bHi 1 - 0) (ai := max i0 (bLo 0)) (bi := min i1 (bHi 0)) (ak := max k0 (bLo 2)) (bk := min k1 (bHi 2)) Au (by omega) (by omega) (by omega) (by omega)
    have A1 := at3J_J (kj := -1) (yj := bHi 1 - 1) S (by omega) (by omega) (by omega) (by decide) (by omega)
    have A2 := at3J_J (kj := -2) (yj := bHi 1 - 2) S (by omega) (by omega) (by omega) (by decide) (by omega)
    have Ad := at3J_d0 (yj := bHi 1) S Ad1 Pd1 (by omega) (by omega) (by omega) (by omega)
    exact (S.t1_ghosts (hβ 0) A1 A2 Ad).mono fun m' hB => ⟨fun e => absurd (e3.symm.trans e) (by decide), fun e => absurd (e3.symm.trans e) (by decide), fun e => absurd (e3.symm.trans e) (by decide), fun _ i ia ib k ka kb v hv => hB (facePt i (bHi 1) k 0) (by site_mem) v hv, fun e => absurd (e3.symm.trans e) (by decide), fun e => absurd (e3.symm.trans e) (by decide)⟩
  by_cases e4 : face = 4
  · rw [if_neg e0, if_neg e1, if_neg e2, if_neg e3, if_pos e4]
    obtain ⟨⟨⟨r1, r2⟩, r3, r4⟩, ⟨c1, c2⟩, pi, pj⟩ := hf4 e4
    unfold Meets at pi
    rw [max_comm (bLo 0) i0, min_comm (bHi 0) i1] at *
    unfold Meets at pj
    rw [max_comm (bLo 1) j0, min_comm (bHi 1) j1] at *
    have S := site3K (lk := bLo 2) (xk := bLo 2 + 0) (ai := max i0 (bLo 0)) (bi := min i1 (bHi 0)) (aj := max j0 (bLo 1)) (bj := min j1 (bHi 1)) Au (by omega) (by omega) (by omega) (by omega)
    have A1 := at3K_K (kk := 1) (yk := bLo 2 + 1) S (by omega) (by omega) (by omega) (by decide) (by omega)
    have A2 := at3K_K (kk := 2) (yk := bLo 2 + 2) S (by omega) (by omega) (by omega) (by decide) (by omega)
    have Ad := at3K_d1 (yk := bLo 2 + 1) S Ad2 Pd2 (by omega) (by omega) (by omega) (by omega)
    exact (S.t1_ghosts (hβ 0) A1 A2 Ad).mono fun m' hB => ⟨fun e => absurd (e4.symm.trans e) (by decide), fun e => absurd (e4.symm.trans e) (by decide), fun e => absurd (e4.symm.trans e) (by decide), fun e => absurd (e4.symm.trans e) (by decide), fun _ i ia ib j ja jb v hv => hB (facePt i j (bLo 2) (bLo 2)) (by site_mem) v hv, fun e => absurd (e4.symm.trans e) (by decide)⟩
  by_cases e5 : face = 5
  · rw [if_neg e0, if_neg e1, if_neg e2, if_neg e3, if_neg e4, if_pos e5]
    obtain ⟨⟨⟨r1, r2⟩, r3, r4⟩, ⟨c1, c2⟩, pi, pj⟩ := hf5 e5
    unfold Meets at pi
    rw [max_comm (bLo 0) i0, min_comm (bHi 0) i1] at *
    unfold Meets at pj
    rw [max_comm (bLo 1) j0, min_comm (bHi 1) j1] at *
    have S := site3K (lk := bHi 2) (xk := bHi 2 - 0) (ai := max i0 (bLo 0)) (bi := min i1 (bHi 0)) (aj := max j0 (bLo 1)) (bj := min j1 (bHi 1)) Au (by omega) (by omega) (by omega) (by omega)
    have A1 := at3K_K (kk := -1) (yk := bHi 2 - 1) S (by omega) (by omega) (by omega) (by decide) (by omega)
    have A2 := at3K_K (kk := -2) (yk := bHi 2 - 2) S (by omega) (by omega) (by omega) (by decide) (by omega)
    have Ad := at3K_d0 (yk := bHi 2) S Ad2 Pd2 (by omega) (by omega) (by omega) (by omega)
    exact (S.t1_ghosts (hβ 0) A1 A2 Ad).mono fun m' hB => ⟨fun e => absurd (e5.symm.trans e) (by decide), fun e => absurd (e5.symm.trans e) (by decide), fun e => absurd (e5.symm.trans e) (by decide), fun e => absurd (e5.symm.trans e) (by decide), fun e => absurd (e5.symm.trans e) (by decide), fun _ i ia ib j ja jb v hv => hB (facePt i j (bHi 2) (bHi 2)) (by site_mem) v hv⟩
  rw [if_neg e0, if_neg e1, if_neg e2, if_neg e3, if_neg e4, if_neg e5]
  exact ⟨m, rfl, fun e => absurd e e0, fun e => absurd e e1, fun e => absurd e e2, fun e => absurd e e3, fun e => absurd e e4, fun e => absurd e e5⟩

theorem ghosts_p3d {i0 j0 k0 i1 j1 k1 g exOrder face btype : Int} {dx : Nat → T} { u : Ptr} {bLo bHi : Nat → Int} {alpha beta : T}
    {β : Nat → Backend} {m : Mem T} (hβ : ∀ n, ValidBackend (β n))
    (hi : i0 ≤ i1) (hj : j0 ≤ j1) (hk : k0 ≤ k1) (hg : 0 ≤ g)
    (hs : ∀ n < 3, InInt (bLo n + 1) ∧ InInt (bHi n + 1))
    (hf0 : face = 0 → Reach i0 i1 g (bLo 0) 2 ∧ Meets j0 j1 (bLo 1) (bHi 1) ∧ Meets k0 k1 (bLo 2) (bHi 2))
    (hf1 : face = 1 → Reach i0 i1 g (bHi 0) (-2) ∧ Meets j0 j1 (bLo 1) (bHi 1) ∧ Meets k0 k1 (bLo 2) (bHi 2))
    (hf2 : face = 2 → Reach j0 j1 g (bLo 1) 2 ∧ Meets i0 i1 (bLo 0) (bHi 0) ∧ Meets k0 k1 (bLo 2) (bHi 2))
    (hf3 : face = 3 → Reach j0 j1 g (bHi 1) (-2) ∧ Meets i0 i1 (bLo 0) (bHi 0) ∧ Meets k0 k1 (bLo 2) (bHi 2))
    (hf4 : face = 4 → Reach k0 k1 g (bLo 2) 2 ∧ Meets i0 i1 (bLo 0) (bHi 0) ∧ Meets j0 j1 (bLo 1) (bHi 1))
    (hf5 : face = 5 → Reach k0 k1 g (bHi 2) (-2) ∧ Meets i0 i1 (bLo 0) (bHi 0) ∧ Meets j0 j1 (bLo 1) (bHi 1))
    (h : F.Args m [] [F.cell3d u i0 j0 k0 i1 j1 k1 g]) :
    Ends (Cuda.setPoissonBc3d i0 i1 j0 j1 k0 k1 dx g u bLo bHi exOrder face 1 btype alpha beta β m) fun m' =>
      (face = 0 → ∀ j, max j0 (bLo 1) ≤ j → j ≤ min j1 (bHi 1) → ∀ k, max k0 (bLo 2) ≤ k → k ≤ min k1 (bHi 2) → ∀ v, ghost false btype exOrder alpha beta (dx 0) 1
          (F.rd m (F.cell3d u i0 j0 k0 i1 j1 k1 g) [bLo 0 + 1, j, k]) (F.rd m (F.cell3d u i0 j0 k0 i1 j1 k1 g) [bLo 0 + 2, j, k]) = some v → F.El m' (F.cell3d u i0 j0 k0 i1 j1 k1 g) [bLo 0 + 0, j, k] v) ∧
      (face = 1 → ∀ j, max j0 (bLo 1) ≤ j → j ≤ min j1 (bHi 1) → ∀ k, max k0 (bLo 2) ≤ k → k ≤ min k1 (bHi 2) → ∀ v, ghost false btype exOrder alpha beta (dx 0) 1
          (F.rd m (F.cell3d u i0 j0 k0 i1 j1 k1 g) [bHi 0 - 1, j, k]) (F.rd m (F.cell3d u i0 j0 k0 i1 j1 k1 g) [bHi 0 - 2, j, k]) = some v → F.El m' (F.cell3d u i0 j0 k0 i1 j1 k1 g) [bHi 0 - 0, j, k] v) ∧
      (face = 2 → ∀ i, max i0 (bLo 0) ≤ i → i ≤ min i1 (bHi 0) → ∀ k, max k0 (bLo 2) ≤ k → k ≤ min k1 (bHi 2) → ∀ v, ghost false btype exOrder alpha beta (dx 1) 1
          (F.rd m (F.cell3d u i0 j0 k0 i1 j1 k1 g) [i, bLo 1 + 1, k]) (F.rd m (F.cell3d u i0 j0 k0 i1 j1 k1 g) [i, bLo 1 + 2, k]) = some v → F.El m' (F.cell3d u i0 j0 k0 i1 j1 k1 g) [i, bLo 1 + 0, k] v) ∧
      (face = 3 → ∀ i, max i0 (bLo 0) ≤ i → i ≤ min i1 (bHi 0) → ∀ k, max k0 (bLo 2) ≤ k → k ≤ min k1 (bHi 2) → ∀ v, ghost false btype exOrder alpha beta (dx 1) 1
          (F.rd m (F.cell3d u i0 j0 k0 i1 j1 k1 g) [i, bHi 1 - 1, k]) (F.rd m (F.cell3d u i0 j0 k0 i1 j1 k1 g) [i, bHi 1 - 2, k]) = some v → F.El m' (F.cell3d u i0 j0 k0 i1 j1 k1 g) [i, bHi 1 - 0, k] v) ∧
      (face = 4 → ∀ i, max i0 (bLo 0) ≤ i → i ≤ min i1 (bHi 0) → ∀ j, max j0 (bLo 1) ≤ j → j ≤ min j1 (bHi 1) → ∀ v, ghost false btype exOrder alpha beta (dx 2) 1
          (F.rd m (F.cell3d u i0 j0 k0 i1 j1 k1 g) [i, j, bLo 2 + 1]) (F.rd m (F.cell3d u i0 j0 k0 i1 j1 k1 g) [i, j, bLo 2 + 2]) = some v → F.El m' (F.cell3d u i0 j0 k0 i1 j1 k1 g) [i, j, bLo 2 + 0] v) ∧
      (face = 5 → ∀ i, max i0 (bLo 0) ≤ i → i ≤ min i1 (bHi 0) → ∀ j, max j0 (bLo 1) ≤ j → j ≤ min j1 (bHi 1) → ∀ v, ghost false btype exOrder alpha beta (dx 2) 1
          (F.rd m (F.cell3d u i0 j0 k0 i1 j1 k1 g) [i, j, bHi 2 - 1]) (F.rd m (F.cell3d u i0 j0 k0 i1 j1 k1 g) [i, j, bHi 2 - 2]) = some v → F.El m' (F.cell3d u i0 j0 k0 i1 j1 k1 g) [i, j, bHi 2 - 0] v) := by
  obtain ⟨Au, spu, Iu⟩ := cell3_setup (h.ok (F.cell3d u i0 j0 k0 i1 j1 k1 g) (by simp)) hi hj hk hg
  have hs0 := hs 0 (by decide)
  have hs1 := hs 1 (by decide)
  have hs2 := hs 2 (by decide)
  unfold InInt at Iu hs0 hs1 hs2
  have mkI := mkB_ok (d := .I) (lo := i0) (hi := i1) (by unfold InInt; omega)
  have mkIb := mkB_ok (d := .I) (lo := max (bLo 0) i0) (hi := min (bHi 0) i1) (by unfold InInt; omega)
  have mkIl := mkB_ok (d := .I) (lo := bLo 0) (hi := bLo 0) (by unfold InInt; omega)
  have mkIh := mkB_ok (d := .I) (lo := bHi 0) (hi := bHi 0) (by unfold InInt; omega)
  have mkJ := mkB_ok (d := .J) (lo := j0) (hi := j1) (by unfold InInt; omega)
  have mkJb := mkB_ok (d := .J) (lo := max (bLo 1) j0) (hi := min (bHi 1) j1) (by unfold InInt; omega)
  have mkJl := mkB_ok (d := .J) (lo := bLo 1) (hi := bLo 1) (by unfold InInt; omega)
  have mkJh := mkB_ok (d := .J) (lo := bHi 1) (hi := bHi 1) (by unfold InInt; omega)
  have mkK := mkB_ok (d := .K) (lo := k0) (hi := k1) (by unfold InInt; omega)
  have mkKb := mkB_ok (d := .K) (lo := max (bLo 2) k0) (hi := min (bHi 2) k1) (by unfold InInt; omega)
  have mkKl := mkB_ok (d := .K) (lo := bLo 2) (hi := bLo 2) (by unfold InInt; omega)
  have mkKh := mkB_ok (d := .K) (lo := bHi 2) (hi := bHi 2) (by unfold InInt; omega)
  unfold Cuda.setPoissonBc3d
  refine Ends.bind mkI <| Ends.bind mkJ <| Ends.bind mkK <| Ends.bind spu <| Ends.bind mkIb <| Ends.bind mkJb <| Ends.bind mkKb <| Ends.bind mkIl <| Ends.bind mkIh <| Ends.bind mkJl <| Ends.bind mkJh <| Ends.bind mkKl <| Ends.bind mkKh <| ?_
  rw [if_pos rfl]
  by_cases e0 : face = 0
  · rw [if_pos e0]
    obtain ⟨⟨⟨r1, r2⟩, r3, r4⟩, pj, pk⟩ := hf0 e0
    unfold Meets at pj
    rw [max_comm (bLo 1) j0, min_comm (bHi 1) j1] at *
    unfold Meets at pk
    rw [max_comm (bLo 2) k0, min_comm (bHi 2) k1] at *
    have S := site3I (li := bLo 0) (xi := bLo 0 + 0) (aj := max j0 (bLo 1)) (bj := min j1 (bHi 1)) (ak := max k0 (bLo 2)) (bk := min k1 (bHi 2)) Au (by omega) (by omega) (by omega) (by omega)
    have A1 := at3I_I (ki := 1) (yi := bLo 0 + 1) S (by omega) (by omega) (by omega) (by decide) (by omega)
    have A2 := at3I_I (ki := 2) (yi := bLo 0 + 2) S (by omega) (by omega) (by omega) (by decide) (by omega)
    exact (S.p1_ghosts (hβ 0) A1 A2).mono fun m' hB => ⟨fun _ j ja jb k ka kb v hv => hB (facePt (bLo 0) j k 0) (by site_mem) v hv, fun e => absurd (e0.symm.trans e) (by decide), fun e => absurd (e0.symm.trans e) (by decide), fun e => absurd (e0.symm.trans e) (by decide), fun e => absurd (e0.symm.trans e) (by decide), fun e => absurd (e0.symm.trans e) (by decide)⟩
  by_cases e1 : face = 1
  · rw [if_neg e0, if_pos e1]
    obtain ⟨⟨⟨r1, r2⟩, r3, r4⟩, pj, pk⟩ := hf1 e1
    unfold Meets at pj
    rw [max_comm (bLo 1) j0, min_comm (bHi 1) j1] at *
    unfold Meets at pk
    rw [max_comm (bLo 2) k0, min_comm (bHi 2) k1] at *
    have S := site3I (li := bHi 0) (xi := bHi 0 - 0) (aj := max j0 (bLo 1)) (bj := min j1 (bHi 1)) (ak := max k0 (bLo 2)) (bk := min k1 (bHi 2)) Au (by omega) (by omega) (by omega) (by omega)
    have A1 := at3I_I (ki := -1) (yi := bHi 0 - 1) S (by omega) (by omega) (by omega) (by decide) (by omega)
    have A2 := at3I_I (ki := -2) (yi := bHi 0 - 2) S (by omega) (by omega) (by omega) (by decide) (by omega)
    exact (S.p1_ghosts (hβ 0) A1 A2).mono fun m' hB => ⟨fun e => absurd (e1.symm.trans e) (by decide), fun _ j ja jb k ka kb v hv => hB (facePt (bHi 0) j k 0) (by site_mem) v hv, fun e => absurd (e1.symm.trans e) (by decide), fun e => absurd (e1.symm.trans e) (by decide), fun e => absurd (e1.symm.trans e) (by decide), fun e => absurd (e1.symm.trans e) (by decide)⟩
  by_cases e2 : face = 2
  · rw [if_neg e0, if_neg e1, if_pos e2]
    obtain ⟨⟨⟨r1, r2⟩, r3, r4⟩, pi, pk⟩ := hf2 e2
    unfold Meets at pi
    rw [max_comm (bLo 0) i0, min_comm (bHi 0) i1] at *
    unfold Meets at pk
    rw [max_comm (bLo 2) k0, min_comm (bHi 2) k1] at *
    have S := site3J (lj := bLo 1) (xj := bLo 1 + 0) (ai := max i0 (bLo 0)) (bi := min i1 (bHi 0)) (ak := max k0 (bLo 2)) (bk := min k1 (bHi 2)) Au (by omega) (by omega) (by omega) (by omega)
    have A1 := at3J_J (kj := 1) (yj := bLo 1 + 1) S (by omega) (by omega) (by omega) (by decide) (by omega)
    have A2 := at3J_J (kj := 2) (yj := bLo 1 + 2) S (by omega) (by omega) (by omega) (by decide) (by omega)
    exact (S.p1_ghosts (hβ 0) A1 A2).mono fun m' hB => ⟨fun e => absurd (e2.symm.trans e) (by decide), fun e => absurd (e2.symm.trans e) (by decide), fun _ i ia ib k ka kb v hv => hB (facePt i (bLo 1) k 0) (by site_mem) v hv, fun e => absurd (e2.symm.trans e) (by decide), fun e => absurd (e2.symm.trans e) (by decide), fun e => absurd (e2.symm.trans e) (by decide)⟩
  by_cases e3 : face = 3
  · rw [if_neg e0, if_neg e1, if_neg e2, if_pos e3]
    obtain ⟨⟨⟨r1, r2⟩, r3, r4⟩, pi, pk⟩ := hf3 e3
    unfold Meets at pi
    rw [max_comm (bLo 0) i0, min_comm (bHi 0) i1] at *
    unfold Meets at pk
    rw [max_comm (bLo 2) k0, min_comm (bHi 2) k1] at *
    have S := site3J (lj := bHi 1) (xj := bHi 1 - 0) (ai := max i0 (bLo 0)) (bi := min i1 (bHi 0)) (ak := max k0 (bLo 2)) (bk := min k1 (bHi 2)) Au (by omega) (by omega) (by omega) (by omega)
    have A1 := at3J_J (kj := -1) (yj := bHi 1 - 1) S (by omega) (by omega) (by omega) (by decide) (by omega)
    have A2 := at3J_J (kj := -2) (yj := bHi 1 - 2) S (by omega) (by omega) (by omega) (by decide) (by omega)
    exact (S.p1_ghosts (hβ 0) A1 A2).mono fun m' hB => ⟨fun e => absurd (e3.symm.trans e) (by decide), fun e => absurd (e3.symm.trans e) (by decide), fun e => absurd (e3.symm.trans e) (by decide), fun _ i ia ib k ka kb v hv => hB (facePt i (bHi 1) k 0) (by site_mem) v hv, fun e => absurd (e3.symm.trans e) (by decide), fun e => absurd (e3.symm.trans e) (by decide)⟩
  by_cases e4 : face = 4
  · rw [if_neg e0, if_neg e1, if_neg e2, if_neg e3, if_pos e4]
    obtain ⟨⟨⟨r1, r2⟩, r3, r4⟩, pi, pj⟩ := hf4 e4
    unfold Meets at pi
    rw [max_comm (bLo 0) i0, min_comm (bHi 0) i1] at *
    unfold Meets at pj
    rw [max_comm (bLo 1) j0, min_comm (bHi 1) j1] at *
    have S := site3K (lk := bLo 2) (xk := bLo 2 + 0) (ai := max i0 (bLo 0)) (bi := min i1 (bHi 0)) (aj := max j0 (bLo 1)) (bj := min j1 (bHi 1)) Au (by omega) (by omega) (by omega) (by omega)
    have A1 := at3K_K (kk := 1) (yk := bLo 2 + 1) S (by omega) (by omega) (by omega) (by decide) (by omega)
    have A2 := at3K_K (kk := 2) (yk := bLo 2 + 2) S (by omega) (by omega) (by omega) (by decide) (by omega)
    exact (S.p1_ghosts (hβ 0) A1 A2).mono fun m' hB => ⟨fun e => absurd (e4.symm.trans e) (by decide), fun e => absurd (e4.symm.trans e) (by decide), fun e => absurd (e4.symm.trans e) (by decide), fun e => absurd (e4.symm.trans e) (by decide), fun _ i ia ib j ja jb v hv => hB (facePt i j (bLo 2) (bLo 2)) (by site_mem) v hv, fun e => absurd (e4.symm.trans e) (by decide)⟩
  by_cases e5 : face = 5
  · rw [if_neg e0, if_neg e1, if_neg e2, if_neg e3, if_neg e4, if_pos e5]
    obtain ⟨⟨⟨r1, r2⟩, r3, r4⟩, pi, pj⟩ := hf5 e5
    unfold Meets at pi
    rw [max_comm (bLo 0) i0, min_comm (bHi 0) i1] at *
    unfold Meets at pj
    rw [max_comm (bLo 1) j0, min_comm (bHi 1) j1] at *
    have S := site3K (lk := bHi 2) (xk := bHi 2 - 0) (ai := max i0 (bLo 0)) (bi := min i1 (bHi 0)) (aj := max j0 (bLo 1)) (bj := min j1 (bHi 1)) Au (by omega) (by omega) (by omega) (by omega)
    have A1 := at3K_K (kk := -1) (yk := bHi 2 - 1) S (by omega) (by omega) (by omega) (by decide) (by omega)
    have A2 := at3K_K (kk := -2) (yk := bHi 2 - 2) S (by omega) (by omega) (by omega) (by decide) (by omega)
    exact (S.p1_ghosts (hβ 0) A1 A2).mono fun m' hB => ⟨fun e => absurd (e5.symm.trans e) (by decide), fun e => absurd (e5.symm.trans e) (by decide), fun e => absurd (e5.symm.trans e) (by decide), fun e => absurd (e5.symm.trans e) (by decide), fun e => absurd (e5.symm.trans e) (by decide), fun _ i ia ib j ja jb v hv => hB (facePt i j (bHi 2) (bHi 2)) (by site_mem) v hv⟩
  rw [if_neg e0, if_neg e1, if_neg e2, if_neg e3, if_neg e4, if_neg e5]
  exact ⟨m, rfl, fun e => absurd e e0, fun e => absurd e e1, fun e => absurd e e2, fun e => absurd e e3, fun e => absurd e e4, fun e => absurd e e5⟩

end Verif
