import Verif.Lemmas.BcGhosts
import Verif.Props.Bc

/-
C47: the values in corners and edges continue sums of a function of one coordinate and a function of the other.
-/

namespace Verif
open Spec

set_option linter.unusedVariables false
set_option linter.unusedSimpArgs false

variable {T : Type} [Field T]

theorem continuesSum_of {m m' : Mem T} {u : F.Arr} {c : Int → Int → List Int}
    (h : F.El m' u (c 0 0) (F.rd m u (c 1 0) + F.rd m u (c 0 1) - F.rd m u (c 1 1))) : ContinuesSum m m' u c := by
  intro f g h10 h01 h11
  rw [h10.rd, h01.rd, h11.rd] at h
  have : f 1 + g 0 + (f 0 + g 1) - (f 1 + g 1) = f 0 + g 0 := by ring
  rwa [this] at h

/-- `cd_correct_bc_2d_cuda::set_bc`, corners: the ghost cell continues every sum of a function of `i` and a function of `j`. -/
theorem C47_2d {i0 j0 i1 j1 g dg exOrder face btype : Int} {dx : Nat → T} {d0 d1 u : Ptr} {bLo bHi : Nat → Int} {alpha beta : T}
    {β : Nat → Backend} {m : Mem T} (hβ : ∀ n, ValidBackend (β n))
    (hi : i0 ≤ i1) (hj : j0 ≤ j1) (hg : 0 ≤ g) (hdg : 0 ≤ dg)
    (hs : ∀ n < 2, InInt (bLo n + 1) ∧ InInt (bHi n + 1))
    (hf : 0 ≤ face ∧ face < 4)
    (hn : Reach i0 i1 g (if face % 2 = 0 then bLo 0 else bHi 0) (dir0 face) ∧ Reach j0 j1 g (if face < 2 then bLo 1 else bHi 1) (dir1 face))
    (h : F.Args m [F.face2d0 d0 i0 j0 i1 j1 dg, F.face2d1 d1 i0 j0 i1 j1 dg] [F.cell2d u i0 j0 i1 j1 g]) :
    ∃ m', Cuda.setBc2d i0 i1 j0 j1 dx dg d0 d1 g u bLo bHi exOrder face 2 btype alpha beta β m = .ok m' ∧
      ContinuesSum m m' (F.cell2d u i0 j0 i1 j1 g) fun a b => [(if face % 2 = 0 then bLo 0 else bHi 0) + dir0 face * a, (if face < 2 then bLo 1 else bHi 1) + dir1 face * b] := by
  show Ends _ fun m' => _
  obtain ⟨Au, spu, Iu⟩ := cell2_setup (h.ok (F.cell2d u i0 j0 i1 j1 g) (by simp)) hi hj hg
  obtain ⟨Ad0, pl0, sp0⟩ := faceG20_setup (h.ok (F.face2d0 d0 i0 j0 i1 j1 dg) (by simp)) hi hj hdg
  obtain ⟨Ad1, pl1, sp1⟩ := faceG21_setup (h.ok (F.face2d1 d1 i0 j0 i1 j1 dg) (by simp)) hi hj hdg
  have hs0 := hs 0 (by decide)
  have hs1 := hs 1 (by decide)
  unfold InInt at Iu hs0 hs1
  have mkI := mkB_ok (d := .I) (lo := i0) (hi := i1) (by unfold InInt; omega)
  have mkIb := mkB_ok (d := .I) (lo := max (bLo 0) i0) (hi := min (bHi 0) i1) (by unfold InInt; omega)
  have mkIl := mkB_ok (d := .I) (lo := bLo 0) (hi := bLo 0) (by unfold InInt; omega)
  have mkIh := mkB_ok (d := .I) (lo := bHi 0) (hi := bHi 0) (by unfold InInt; omega)
  have mkJ := mkB_ok (d := .J) (lo := j0) (hi := j1) (by unfold InInt; omega)
  have mkJb := mkB_ok (d := .J) (lo := max (bLo 1) j0) (hi := min (bHi 1) j1) (by unfold InInt; omega)
  have mkJl := mkB_ok (d := .J) (lo := bLo 1) (hi := bLo 1) (by unfold InInt; omega)
  have mkJh := mkB_ok (d := .J) (lo := bHi 1) (hi := bHi 1) (by unfold InInt; omega)
  unfold Cuda.setBc2d
  refine Ends.bind mkI <| Ends.bind mkJ <| Ends.bind pl0 <| Ends.bind sp0 <| Ends.bind pl1 <| Ends.bind sp1 <| Ends.bind spu <| Ends.bind mkIb <| Ends.bind mkJb <| Ends.bind mkIl <| Ends.bind mkIh <| Ends.bind mkJl <| Ends.bind mkJh <| ?_
  rw [if_neg (by decide)]
  rw [if_pos rfl]
  by_cases e0 : face = 0
  · subst e0
    rw [if_pos rfl]
    simp only [Reach] at hn
    have hd0 : dir0 0 = 1 := rfl
    have hd1 : dir1 0 = 1 := rfl
    have hp0 : (if (0 : Int) % 2 = 0 then bLo 0 else bHi 0) = bLo 0 := by simp
    have hp1 : (if (0 : Int) < 2 then bLo 1 else bHi 1) = bLo 1 := by simp
    rw [hd0, hd1, hp0, hp1] at hn
    have S := site2IJ (lj := bLo 1) (li := bLo 0) (xj := (if (0 : Int) < 2 then bLo 1 else bHi 1) + dir1 0 * 0) (xi := (if (0 : Int) % 2 = 0 then bLo 0 else bHi 0) + dir0 0 * 0) Au (by omega) (by omega) (by simp) (by simp)
    have A1 := at2IJ_IJ (ki := 1) (kj := 1) (yi := (if (0 : Int) % 2 = 0 then bLo 0 else bHi 0) + dir0 0 * 1) (yj := (if (0 : Int) < 2 then bLo 1 else bHi 1) + dir1 0 * 1) S (by omega) (by decide) (by rw [hd0, hp0]; simp) (by omega) (by decide) (by rw [hd1, hp1]; simp)
    have A2 := at2IJ_I (ki := 1) (yi := (if (0 : Int) % 2 = 0 then bLo 0 else bHi 0) + dir0 0 * 1) (yj := (if (0 : Int) < 2 then bLo 1 else bHi 1) + dir1 0 * 0) S (by omega) (by decide) (by rw [hd0, hp0]; simp) (by omega) (by simp)
    have A3 := at2IJ_J (kj := 1) (yi := (if (0 : Int) % 2 = 0 then bLo 0 else bHi 0) + dir0 0 * 0) (yj := (if (0 : Int) < 2 then bLo 1 else bHi 1) + dir1 0 * 1) S (by omega) (by simp) (by omega) (by decide) (by rw [hd1, hp1]; simp)
    exact (S.t2_ends (hβ 0) A1 A2 A3).mono fun m' L => continuesSum_of (L.el _ (List.mem_singleton.2 rfl))
  by_cases e1 : face = 1
  · subst e1
    rw [if_neg (by decide), if_pos rfl]
    simp only [Reach] at hn
    have hd0 : dir0 1 = -1 := rfl
    have hd1 : dir1 1 = 1 := rfl
    have hp0 : (if (1 : Int) % 2 = 0 then bLo 0 else bHi 0) = bHi 0 := by simp
    have hp1 : (if (1 : Int) < 2 then bLo 1 else bHi 1) = bLo 1 := by simp
    rw [hd0, hd1, hp0, hp1] at hn
    have S := site2IJ (lj := bLo 1) (li := bHi 0) (xj := (if (1 : Int) < 2 then bLo 1 else bHi 1) + dir1 1 * 0) (xi := (if (1 : Int) % 2 = 0 then bLo 0 else bHi 0) + dir0 1 * 0) Au (by omega) (by omega) (by simp) (by simp)
    have A1 := at2IJ_IJ (ki := -1) (kj := 1) (yi := (if (1 : Int) % 2 = 0 then bLo 0 else bHi 0) + dir0 1 * 1) (yj := (if (1 : Int) < 2 then bLo 1 else bHi 1) + dir1 1 * 1) S (by omega) (by decide) (by rw [hd0, hp0]; simp) (by omega) (by decide) (by rw [hd1, hp1]; simp)
    have A2 := at2IJ_I (ki := -1) (yi := (if (1 : Int) % 2 = 0 then bLo 0 else bHi 0) + dir0 1 * 1) (yj := (if (1 : Int) < 2 then bLo 1 else bHi 1) + dir1 1 * 0) S (by omega) (by decide) (by rw [hd0, hp0]; simp) (by omega) (by simp)
    have A3 := at2IJ_J (kj := 1) (yi := (if (1 : Int) % 2 = 0 then bLo 0 else bHi 0) + dir0 1 * 0) (yj := (if (1 : Int) < 2 then bLo 1 else bHi 1) + dir1 1 * 1) S (by omega) (by simp) (by omega) (by decide) (by rw [hd1, hp1]; simp)
    exact (S.t2_ends (hβ 0) A1 A2 A3).mono fun m' L => continuesSum_of (L.el _ (List.mem_singleton.2 rfl))
  by_cases e2 : face = 2
  · subst e2
    rw [if_neg (by decide), if_neg (by decide), if_pos rfl]
    simp only [Reach] at hn
    have hd0 : dir0 2 = 1 := rfl
    have hd1 : dir1 2 = -1 := rfl
    have hp0 : (if (2 : Int) % 2 = 0 then bLo 0 else bHi 0) = bLo 0 := by simp
    have hp1 : (if (2 : Int) < 2 then bLo 1 else bHi 1) = bHi 1 := by simp
    rw [hd0, hd1, hp0, hp1] at hn
    have S := site2IJ (lj := bHi 1) (li := bLo 0) (xj := (if (2 : Int) < 2 then bLo 1 else bHi 1) + dir1 2 * 0) (xi := (if (2 : Int) % 2 = 0 then bLo 0 else bHi 0) + dir0 2 * 0) Au (by omega) (by omega) (by simp) (by simp)
    have A1 := at2IJ_IJ (ki := 1) (kj := -1) (yi := (if (2 : Int) % 2 = 0 then bLo 0 else bHi 0) + dir0 2 * 1) (yj := (if (2 : Int) < 2 then bLo 1 else bHi 1) + dir1 2 * 1) S (by omega) (by decide) (by rw [hd0, hp0]; simp) (by omega) (by decide) (by rw [hd1, hp1]; simp)
    have A2 := at2IJ_I (ki := 1) (yi := (if (2 : Int) % 2 = 0 then bLo 0 else bHi 0) + dir0 2 * 1) (yj := (if (2 : Int) < 2 then bLo 1 else bHi 1) + dir1 2 * 0) S (by omega) (by decide) (by rw [hd0, hp0]; simp) (by omega) (by simp)
    have A3 := at2IJ_J (kj := -1) (yi := (if (2 : Int) % 2 = 0 then bLo 0 else bHi 0) + dir0 2 * 0) (yj := (if (2 : Int) < 2 then bLo 1 else bHi 1) + dir1 2 * 1) S (by omega) (by simp) (by omega) (by decide) (by rw [hd1, hp1]; simp)
    exact (S.t2_ends (hβ 0) A1 A2 A3).mono fun m' L => continuesSum_of (L.el _ (List.mem_singleton.2 rfl))
  by_cases e3 : face = 3
  · subst e3
    rw [if_neg (by decide), if_neg (by decide), if_neg (by decide), if_pos rfl]
    simp only [Reach] at hn
    have hd0 : dir0 3 = -1 := rfl
    have hd1 : dir1 3 = -1 := rfl
    have hp0 : (if (3 : Int) % 2 = 0 then bLo 0 else bHi 0) = bHi 0 := by simp
    have hp1 : (if (3 : Int) < 2 then bLo 1 else bHi 1) = bHi 1 := by simp
    rw [hd0, hd1, hp0, hp1] at hn
    have S := site2IJ (lj := bHi 1) (li := bHi 0) (xj := (if (3 : Int) < 2 then bLo 1 else bHi 1) + dir1 3 * 0) (xi := (if (3 : Int) % 2 = 0 then bLo 0 else bHi 0) + dir0 3 * 0) Au (by omega) (by omega) (by simp) (by simp)
    have A1 := at2IJ_IJ (ki := -1) (kj := -1) (yi := (if (3 : Int) % 2 = 0 then bLo 0 else bHi 0) + dir0 3 * 1) (yj := (if (3 : Int) < 2 then bLo 1 else bHi 1) + dir1 3 * 1) S (by omega) (by decide) (by rw [hd0, hp0]; simp) (by omega) (by decide) (by rw [hd1, hp1]; simp)
    have A2 := at2IJ_I (ki := -1) (yi := (if (3 : Int) % 2 = 0 then bLo 0 else bHi 0) + dir0 3 * 1) (yj := (if (3 : Int) < 2 then bLo 1 else bHi 1) + dir1 3 * 0) S (by omega) (by decide) (by rw [hd0, hp0]; simp) (by omega) (by simp)
    have A3 := at2IJ_J (kj := -1) (yi := (if (3 : Int) % 2 = 0 then bLo 0 else bHi 0) + dir0 3 * 0) (yj := (if (3 : Int) < 2 then bLo 1 else bHi 1) + dir1 3 * 1) S (by omega) (by simp) (by omega) (by decide) (by rw [hd1, hp1]; simp)
    exact (S.t2_ends (hβ 0) A1 A2 A3).mono fun m' L => continuesSum_of (L.el _ (List.mem_singleton.2 rfl))
  omega

example : ∃ m', Cuda.setBc2d 0 7 0 7 exDx 1 ⟨0, 0⟩ ⟨1, 0⟩ 1 ⟨9, 0⟩ exLo exHi 2 3 2 0 3 5 (fun _ => revBackend) exRat = .ok m' ∧
    ContinuesSum exRat m' (F.cell2d ⟨9, 0⟩ 0 0 7 7 1) fun a b => [(if (3 : Int) % 2 = 0 then exLo 0 else exHi 0) + dir0 3 * a, (if (3 : Int) < 2 then exLo 1 else exHi 1) + dir1 3 * b] :=
  C47_2d (fun _ => revBackend_ok) (by decide) (by decide) (by decide) (by decide) (by ex_seg) (by decide) (by ex_seg) (by ex_args)

/-- `cd_correct_bc_2d_cuda::set_poisson_bc`, corners: the ghost cell continues every sum of a function of `i` and a function of `j`. -/
theorem C47_poisson_2d {i0 j0 i1 j1 g exOrder face btype : Int} {dx : Nat → T} { u : Ptr} {bLo bHi : Nat → Int} {alpha beta : T}
    {β : Nat → Backend} {m : Mem T} (hβ : ∀ n, ValidBackend (β n))
    (hi : i0 ≤ i1) (hj : j0 ≤ j1) (hg : 0 ≤ g)
    (hs : ∀ n < 2, InInt (bLo n + 1) ∧ InInt (bHi n + 1))
    (hf : 0 ≤ face ∧ face < 4)
    (hn : Reach i0 i1 g (if face % 2 = 0 then bLo 0 else bHi 0) (dir0 face) ∧ Reach j0 j1 g (if face < 2 then bLo 1 else bHi 1) (dir1 face))
    (h : F.Args m [] [F.cell2d u i0 j0 i1 j1 g]) :
    ∃ m', Cuda.setPoissonBc2d i0 i1 j0 j1 dx g u bLo bHi exOrder face 2 btype alpha beta β m = .ok m' ∧
      ContinuesSum m m' (F.cell2d u i0 j0 i1 j1 g) fun a b => [(if face % 2 = 0 then bLo 0 else bHi 0) + dir0 face * a, (if face < 2 then bLo 1 else bHi 1) + dir1 face * b] := by
  show Ends _ fun m' => _
  obtain ⟨Au, spu, Iu⟩ := cell2_setup (h.ok (F.cell2d u i0 j0 i1 j1 g) (by simp)) hi hj hg
  have hs0 := hs 0 (by decide)
  have hs1 := hs 1 (by decide)
  unfold InInt at Iu hs0 hs1
  have mkI := mkB_ok (d := .I) (lo := i0) (hi := i1) (by unfold InInt; omega)
  have mkIb := mkB_ok (d := .I) (lo := max (bLo 0) i0) (hi := min (bHi 0) i1) (by unfold InInt; omega)
  have mkIl := mkB_ok (d := .I) (lo := bLo 0) (hi := bLo 0) (by unfold InInt; omega)
  have mkIh := mkB_ok (d := .I) (lo := bHi 0) (hi := bHi 0) (by unfold InInt; omega)
  have mkJ := mkB_ok (d := .J) (lo := j0) (hi := j1) (by unfold InInt; omega)
  have mkJb := mkB_ok (d := .J) (lo := max (bLo 1) j0) (hi := min (bHi 1) j1) (by unfold InInt; omega)
  have mkJl := mkB_ok (d := .J) (lo := bLo 1) (hi := bLo 1) (by unfold InInt; omega)
  have mkJh := mkB_ok (d := .J) (lo := bHi 1) (hi := bHi 1) (by unfold InInt; omega)
  unfold Cuda.setPoissonBc2d
  refine Ends.bind mkI <| Ends.bind mkJ <| Ends.bind spu <| Ends.bind mkIb <| Ends.bind mkJb <| Ends.bind mkIl <| Ends.bind mkIh <| Ends.bind mkJl <| Ends.bind mkJh <| ?_
  rw [if_neg (by decide)]
  rw [if_pos rfl]
  by_cases e0 : face = 0
  · subst e0
    rw [if_pos rfl]
    simp only [Reach] at hn
    have hd0 : dir0 0 = 1 := rfl
    have hd1 : dir1 0 = 1 := rfl
    have hp0 : (if (0 : Int) % 2 = 0 then bLo 0 else bHi 0) = bLo 0 := by simp
    have hp1 : (if (0 : Int) < 2 then bLo 1 else bHi 1) = bLo 1 := by simp
    rw [hd0, hd1, hp0, hp1] at hn
    have S := site2IJ (lj := bLo 1) (li := bLo 0) (xj := (if (0 : Int) < 2 then bLo 1 else bHi 1) + dir1 0 * 0) (xi := (if (0 : Int) % 2 = 0 then bLo 0 else bHi 0) + dir0 0 * 0) Au (by omega) (by omega) (by simp) (by simp)
    have A1 := at2IJ_IJ (ki := 1) (kj := 1) (yi := (if (0 : Int) % 2 = 0 then bLo 0 else bHi 0) + dir0 0 * 1) (yj := (if (0 : Int) < 2 then bLo 1 else bHi 1) + dir1 0 * 1) S (by omega) (by decide) (by rw [hd0, hp0]; simp) (by omega) (by decide) (by rw [hd1, hp1]; simp)
    have A2 := at2IJ_I (ki := 1) (yi := (if (0 : Int) % 2 = 0 then bLo 0 else bHi 0) + dir0 0 * 1) (yj := (if (0 : Int) < 2 then bLo 1 else bHi 1) + dir1 0 * 0) S (by omega) (by decide) (by rw [hd0, hp0]; simp) (by omega) (by simp)
    have A3 := at2IJ_J (kj := 1) (yi := (if (0 : Int) % 2 = 0 then bLo 0 else bHi 0) + dir0 0 * 0) (yj := (if (0 : Int) < 2 then bLo 1 else bHi 1) + dir1 0 * 1) S (by omega) (by simp) (by omega) (by decide) (by rw [hd1, hp1]; simp)
    exact (S.t2_ends (hβ 0) A1 A2 A3).mono fun m' L => continuesSum_of (L.el _ (List.mem_singleton.2 rfl))
  by_cases e1 : face = 1
  · subst e1
    rw [if_neg (by decide), if_pos rfl]
    simp only [Reach] at hn
    have hd0 : dir0 1 = -1 := rfl
    have hd1 : dir1 1 = 1 := rfl
    have hp0 : (if (1 : Int) % 2 = 0 then bLo 0 else bHi 0) = bHi 0 := by simp
    have hp1 : (if (1 : Int) < 2 then bLo 1 else bHi 1) = bLo 1 := by simp
    rw [hd0, hd1, hp0, hp1] at hn
    have S := site2IJ (lj := bLo 1) (li := bHi 0) (xj := (if (1 : Int) < 2 then bLo 1 else bHi 1) + dir1 1 * 0) (xi := (if (1 : Int) % 2 = 0 then bLo 0 else bHi 0) + dir0 1 * 0) Au (by omega) (by omega) (by simp) (by simp)
    have A1 := at2IJ_IJ (ki := -1) (kj := 1) (yi := (if (1 : Int) % 2 = 0 then bLo 0 else bHi 0) + dir0 1 * 1) (yj := (if (1 : Int) < 2 then bLo 1 else bHi 1) + dir1 1 * 1) S (by omega) (by decide) (by rw [hd0, hp0]; simp) (by omega) (by decide) (by rw [hd1, hp1]; simp)
    have A2 := at2IJ_I (ki := -1) (yi := (if (1 : Int) % 2 = 0 then bLo 0 else bHi 0) + dir0 1 * 1) (yj := (if (1 : Int) < 2 then bLo 1 else bHi 1) + dir1 1 * 0) S (by omega) (by decide) (by rw [hd0, hp0]; simp) (by omega) (by simp)
    have A3 := at2IJ_J (kj := 1) (yi := (if (1 : Int) % 2 = 0 then bLo 0 else bHi 0) + dir0 1 * 0) (yj := (if (1 : Int) < 2 then bLo 1 else bHi 1) + dir1 1 * 1) S (by omega) (by simp) (by omega) (by decide) (by rw [hd1, hp1]; simp)
    exact (S.t2_ends (hβ 0) A1 A2 A3).mono fun m' L => continuesSum_of (L.el _ (List.mem_singleton.2 rfl))
  by_cases e2 : face = 2
  · subst e2
    rw [if_neg (by decide), if_neg (by decide), if_pos rfl]
    simp only [Reach] at hn
    have hd0 : dir0 2 = 1 := rfl
    have hd1 : dir1 2 = -1 := rfl
    have hp0 : (if (2 : Int) % 2 = 0 then bLo 0 else bHi 0) = bLo 0 := by simp
    have hp1 : (if (2 : Int) < 2 then bLo 1 else bHi 1) = bHi 1 := by simp
    rw [hd0, hd1, hp0, hp1] at hn
    have S := site2IJ (lj := bHi 1) (li := bLo 0) (xj := (if (2 : Int) < 2 then bLo 1 else bHi 1) + dir1 2 * 0) (xi := (if (2 : Int) % 2 = 0 then bLo 0 else bHi 0) + dir0 2 * 0) Au (by omega) (by omega) (by simp) (by simp)
    have A1 := at2IJ_IJ (ki := 1) (kj := -1) (yi := (if (2 : Int) % 2 = 0 then bLo 0 else bHi 0) + dir0 2 * 1) (yj := (if (2 : Int) < 2 then bLo 1 else bHi 1) + dir1 2 * 1) S (by omega) (by decide) (by rw [hd0, hp0]; simp) (by omega) (by decide) (by rw [hd1, hp1]; simp)
    have A2 := at2IJ_I (ki := 1) (yi := (if (2 : Int) % 2 = 0 then bLo 0 else bHi 0) + dir0 2 * 1) (yj := (if (2 : Int) < 2 then bLo 1 else bHi 1) + dir1 2 * 0) S (by omega) (by decide) (by rw [hd0, hp0]; simp) (by omega) (by simp)
    have A3 := at2IJ_J (kj := -1) (yi := (if (2 : Int) % 2 = 0 then bLo 0 else bHi 0) + dir0 2 * 0) (yj := (if (2 : Int) < 2 then bLo 1 else bHi 1) + dir1 2 * 1) S (by omega) (by simp) (by omega) (by decide) (by rw [hd1, hp1]; simp)
    exact (S.t2_ends (hβ 0) A1 A2 A3).mono fun m' L => continuesSum_of (L.el _ (List.mem_singleton.2 rfl))
  by_cases e3 : face = 3
  · subst e3
    rw [if_neg (by decide), if_neg (by decide), if_neg (by decide), if_pos rfl]
    simp only [Reach] at hn
    have hd0 : dir0 3 = -1 := rfl
    have hd1 : dir1 3 = -1 := rfl
    have hp0 : (if (3 : Int) % 2 = 0 then bLo 0 else bHi 0) = bHi 0 := by simp
    have hp1 : (if (3 : Int) < 2 then bLo 1 else bHi 1) = bHi 1 := by simp
    rw [hd0, hd1, hp0, hp1] at hn
    have S := site2IJ (lj := bHi 1) (li := bHi 0) (xj := (if (3 : Int) < 2 then bLo 1 else bHi 1) + dir1 3 * 0) (xi := (if (3 : Int) % 2 = 0 then bLo 0 else bHi 0) + dir0 3 * 0) Au (by omega) (by omega) (by simp) (by simp)
    have A1 := at2IJ_IJ (ki := -1) (kj := -1) (yi := (if (3 : Int) % 2 = 0 then bLo 0 else bHi 0) + dir0 3 * 1) (yj := (if (3 : Int) < 2 then bLo 1 else bHi 1) + dir1 3 * 1) S (by omega) (by decide) (by rw [hd0, hp0]; simp) (by omega) (by decide) (by rw [hd1, hp1]; simp)
    have A2 := at2IJ_I (ki := -1) (yi := (if (3 : Int) % 2 = 0 then bLo 0 else bHi 0) + dir0 3 * 1) (yj := (if (3 : Int) < 2 then bLo 1 else bHi 1) + dir1 3 * 0) S (by omega) (by decide) (by rw [hd0, hp0]; simp) (by omega) (by simp)
    have A3 := at2IJ_J (kj := -1) (yi := (if (3 : Int) % 2 = 0 then bLo 0 else bHi 0) + dir0 3 * 0) (yj := (if (3 : Int) < 2 then bLo 1 else bHi 1) + dir1 3 * 1) S (by omega) (by simp) (by omega) (by decide) (by rw [hd1, hp1]; simp)
    exact (S.t2_ends (hβ 0) A1 A2 A3).mono fun m' L => continuesSum_of (L.el _ (List.mem_singleton.2 rfl))
  omega

example : ∃ m', Cuda.setPoissonBc2d 0 7 0 7 exDx 1 ⟨9, 0⟩ exLo exHi 2 3 2 0 3 5 (fun _ => revBackend) exRat = .ok m' ∧
    ContinuesSum exRat m' (F.cell2d ⟨9, 0⟩ 0 0 7 7 1) fun a b => [(if (3 : Int) % 2 = 0 then exLo 0 else exHi 0) + dir0 3 * a, (if (3 : Int) < 2 then exLo 1 else exHi 1) + dir1 3 * b] :=
  C47_poisson_2d (fun _ => revBackend_ok) (by decide) (by decide) (by decide) (by ex_seg) (by decide) (by ex_seg) (by ex_args)

/-- `cd_correct_bc_3d_cuda::set_bc`, edges along `k`: the ghost cells continue every sum of a function of `i` and a function of `j`. -/
theorem C47_3d_edge_ij {i0 j0 k0 i1 j1 k1 g dg exOrder face btype : Int} {dx : Nat → T} {d0 d1 d2 u : Ptr} {bLo bHi : Nat → Int} {alpha beta : T}
    {β : Nat → Backend} {m : Mem T} (hβ : ∀ n, ValidBackend (β n))
    (hi : i0 ≤ i1) (hj : j0 ≤ j1) (hk : k0 ≤ k1) (hg : 0 ≤ g) (hdg : 0 ≤ dg)
    (hs : ∀ n < 3, InInt (bLo n + 1) ∧ InInt (bHi n + 1))
    (hf : 0 ≤ face ∧ face < 4)
    (hn : Reach i0 i1 g (bLo 0) (dir0 face) ∧ Reach j0 j1 g (bLo 1) (dir1 face) ∧ Meets k0 k1 (bLo 2) (bHi 2))
    (h : F.Args m [F.face3d0 d0 i0 j0 k0 i1 j1 k1 dg, F.face3d1 d1 i0 j0 k0 i1 j1 k1 dg, F.face3d2 d2 i0 j0 k0 i1 j1 k1 dg] [F.cell3d u i0 j0 k0 i1 j1 k1 g]) :
    ∃ m', Cuda.setBc3d i0 i1 j0 j1 k0 k1 dx dg d0 d1 d2 g u bLo bHi exOrder face 2 btype alpha beta β m = .ok m' ∧
      ∀ k, max k0 (bLo 2) ≤ k → k ≤ min k1 (bHi 2) →
        ContinuesSum m m' (F.cell3d u i0 j0 k0 i1 j1 k1 g) fun a b => [bLo 0 + dir0 face * a, bLo 1 + dir1 face * b, k] := by
  show Ends _ fun m' => _
  obtain ⟨Au, spu, Iu⟩ := cell3_setup (h.ok (F.cell3d u i0 j0 k0 i1 j1 k1 g) (by simp)) hi hj hk hg
  obtain ⟨Ad0, pl0, sp0⟩ := faceG30_setup (h.ok (F.face3d0 d0 i0 j0 k0 i1 j1 k1 dg) (by simp)) hi hj hk hdg
  obtain ⟨Ad1, pl1, sp1⟩ := faceG31_setup (h.ok (F.face3d1 d1 i0 j0 k0 i1 j1 k1 dg) (by simp)) hi hj hk hdg
  obtain ⟨Ad2, pl2, sp2⟩ := faceG32_setup (h.ok (F.face3d2 d2 i0 j0 k0 i1 j1 k1 dg) (by simp)) hi hj hk hdg
  have hs0 := hs 0 (by decide)
  have hs1 := hs 1 (by decide)
  have hs2 := hs 2 (by decide)
  unfold InInt at Iu hs0 hs1 hs2
  have mkI := mkB_ok (d := .I) (lo := i0) (hi := i1) (by unfold InInt; omega)
  have mkIb := mkB_ok (d := .I) (lo := max (bLo 0) i0) (hi := min (bHi 0) i1) (by unfold InInt; omega)
  have mkIl := mkB_ok (d := .I) (lo := bLo 0) (hi := bLo 0) (by unfold InInt; omega)
  have mkIh := mkB_ok (d := .I) (lo := bHi 0) (hi := bHi 0) (by unfold InInt; omega)
  have mkJ := mkB_ok (d := .J) (lo := j0) (hi := j1) (by unfold InInt; omega)
  have mkJb := mkB_ok (d := .J) (lo := max (bLo 1) j0) (hi := min (bHi 1) j1) (by unfold InInt; omega)
  have mkJl := mkB_ok (d := .J) (lo := bLo 1) (hi := bLo 1) (by unfold InInt; omega)
  have mkJh := mkB_ok (d := .J) (lo := bHi 1) (hi := bHi 1) (by unfold InInt; omega)
  have mkK := mkB_ok (d := .K) (lo := k0) (hi := k1) (by unfold InInt; omega)
  have mkKb := mkB_ok (d := .K) (lo := max (bLo 2) k0) (hi := min (bHi 2) k1) (by unfold InInt; omega)
  have mkKl := mkB_ok (d := .K) (lo := bLo 2) (hi := bLo 2) (by unfold InInt; omega)
  have mkKh := mkB_ok (d := .K) (lo := bHi 2) (hi := bHi 2) (by unfold InInt; omega)
  unfold Cuda.setBc3d
  refine Ends.bind mkI <| Ends.bind mkJ <| Ends.bind mkK <| Ends.bind pl0 <| Ends.bind sp0 <| Ends.bind pl1 <| Ends.bind sp1 <| Ends.bind pl2 <| Ends.bind sp2 <| Ends.bind spu <| Ends.bind mkIb <| Ends.bind mkJb <| Ends.bind mkKb <| Ends.bind mkIl <| Ends.bind mkIh <| Ends.bind mkJl <| Ends.bind mkJh <| Ends.bind mkKl <| Ends.bind mkKh <| ?_
  rw [if_neg (by decide)]
  rw [if_pos rfl]
  by_cases e0 : face = 0
  · subst e0
    rw [if_pos rfl]
    simp only [Reach, Meets] at hn
    rw [max_comm (bLo 2) k0, min_comm (bHi 2) k1] at *
    have hd0 : dir0 0 = 1 := rfl
    have hd1 : dir1 0 = 1 := rfl
    rw [hd0, hd1] at hn
    have S := site3IJ (li := bLo 0) (xi := bLo 0 + dir0 0 * 0) (lj := bLo 1) (xj := bLo 1 + dir1 0 * 0) (ak := max k0 (bLo 2)) (bk := min k1 (bHi 2)) Au (by omega) (by omega) (by omega) (by simp) (by simp)
    have A1 := at3IJ_IJ (ki := 1) (kj := 1) (yi := bLo 0 + dir0 0 * 1) (yj := bLo 1 + dir1 0 * 1) S (by omega) (by omega) (by decide) (by rw [hd0]; simp) (by omega) (by decide) (by rw [hd1]; simp)
    have A2 := at3IJ_I (ki := 1) (yi := bLo 0 + dir0 0 * 1) (yj := bLo 1 + dir1 0 * 0) S (by omega) (by omega) (by decide) (by rw [hd0]; simp) (by omega) (by simp)
    have A3 := at3IJ_J (kj := 1) (yi := bLo 0 + dir0 0 * 0) (yj := bLo 1 + dir1 0 * 1) S (by omega) (by omega) (by simp) (by omega) (by decide) (by rw [hd1]; simp)
    exact (S.t2_ends (hβ 0) A1 A2 A3).mono fun m' L k ka kb => continuesSum_of (c := fun a b => [bLo 0 + dir0 0 * a, bLo 1 + dir1 0 * b, k]) (L.el (facePt (bLo 0) (bLo 1) k 0) (by site_mem))
  by_cases e1 : face = 1
  · subst e1
    rw [if_neg (by decide), if_pos rfl]
    simp only [Reach, Meets] at hn
    rw [max_comm (bLo 2) k0, min_comm (bHi 2) k1] at *
    have hd0 : dir0 1 = -1 := rfl
    have hd1 : dir1 1 = 1 := rfl
    rw [hd0, hd1] at hn
    have S := site3IJ (li := bLo 0) (xi := bLo 0 + dir0 1 * 0) (lj := bLo 1) (xj := bLo 1 + dir1 1 * 0) (ak := max k0 (bLo 2)) (bk := min k1 (bHi 2)) Au (by omega) (by omega) (by omega) (by simp) (by simp)
    have A1 := at3IJ_IJ (ki := -1) (kj := 1) (yi := bLo 0 + dir0 1 * 1) (yj := bLo 1 + dir1 1 * 1) S (by omega) (by omega) (by decide) (by rw [hd0]; simp) (by omega) (by decide) (by rw [hd1]; simp)
    have A2 := at3IJ_I (ki := -1) (yi := bLo 0 + dir0 1 * 1) (yj := bLo 1 + dir1 1 * 0) S (by omega) (by omega) (by decide) (by rw [hd0]; simp) (by omega) (by simp)
    have A3 := at3IJ_J (kj := 1) (yi := bLo 0 + dir0 1 * 0) (yj := bLo 1 + dir1 1 * 1) S (by omega) (by omega) (by simp) (by omega) (by decide) (by rw [hd1]; simp)
    exact (S.t2_ends (hβ 0) A1 A2 A3).mono fun m' L k ka kb => continuesSum_of (c := fun a b => [bLo 0 + dir0 1 * a, bLo 1 + dir1 1 * b, k]) (L.el (facePt (bLo 0) (bLo 1) k 0) (by site_mem))
  by_cases e2 : face = 2
  · subst e2
    rw [if_neg (by decide), if_neg (by decide), if_pos rfl]
    simp only [Reach, Meets] at hn
    rw [max_comm (bLo 2) k0, min_comm (bHi 2) k1] at *
    have hd0 : dir0 2 = 1 := rfl
    have hd1 : dir1 2 = -1 := rfl
    rw [hd0, hd1] at hn
    have S := site3IJ (li := bLo 0) (xi := bLo 0 + dir0 2 * 0) (lj := bLo 1) (xj := bLo 1 + dir1 2 * 0) (ak := max k0 (bLo 2)) (bk := min k1 (bHi 2)) Au (by omega) (by omega) (by omega) (by simp) (by simp)
    have A1 := at3IJ_IJ (ki := 1) (kj := -1) (yi := bLo 0 + dir0 2 * 1) (yj := bLo 1 + dir1 2 * 1) S (by omega) (by omega) (by decide) (by rw [hd0]; simp) (by omega) (by decide) (by rw [hd1]; simp)
    have A2 := at3IJ_I (ki := 1) (yi := bLo 0 + dir0 2 * 1) (yj := bLo 1 + dir1 2 * 0) S (by omega) (by omega) (by decide) (by rw [hd0]; simp) (by omega) (by simp)
    have A3 := at3IJ_J (kj := -1) (yi := bLo 0 + dir0 2 * 0) (yj := bLo 1 + dir1 2 * 1) S (by omega) (by omega) (by simp) (by omega) (by decide) (by rw [hd1]; simp)
    exact (S.t2_ends (hβ 0) A1 A2 A3).mono fun m' L k ka kb => continuesSum_of (c := fun a b => [bLo 0 + dir0 2 * a, bLo 1 + dir1 2 * b, k]) (L.el (facePt (bLo 0) (bLo 1) k 0) (by site_mem))
  by_cases e3 : face = 3
  · subst e3
    rw [if_neg (by decide), if_neg (by decide), if_neg (by decide), if_pos rfl]
    simp only [Reach, Meets] at hn
    rw [max_comm (bLo 2) k0, min_comm (bHi 2) k1] at *
    have hd0 : dir0 3 = -1 := rfl
    have hd1 : dir1 3 = -1 := rfl
    rw [hd0, hd1] at hn
    have S := site3IJ (li := bLo 0) (xi := bLo 0 + dir0 3 * 0) (lj := bLo 1) (xj := bLo 1 + dir1 3 * 0) (ak := max k0 (bLo 2)) (bk := min k1 (bHi 2)) Au (by omega) (by omega) (by omega) (by simp) (by simp)
    have A1 := at3IJ_IJ (ki := -1) (kj := -1) (yi := bLo 0 + dir0 3 * 1) (yj := bLo 1 + dir1 3 * 1) S (by omega) (by omega) (by decide) (by rw [hd0]; simp) (by omega) (by decide) (by rw [hd1]; simp)
    have A2 := at3IJ_I (ki := -1) (yi := bLo 0 + dir0 3 * 1) (yj := bLo 1 + dir1 3 * 0) S (by omega) (by omega) (by decide) (by rw [hd0]; simp) (by omega) (by simp)
    have A3 := at3IJ_J (kj := -1) (yi := bLo 0 + dir0 3 * 0) (yj := bLo 1 + dir1 3 * 1) S (by omega) (by omega) (by simp) (by omega) (by decide) (by rw [hd1]; simp)
    exact (S.t2_ends (hβ 0) A1 A2 A3).mono fun m' L k ka kb => continuesSum_of (c := fun a b => [bLo 0 + dir0 3 * a, bLo 1 + dir1 3 * b, k]) (L.el (facePt (bLo 0) (bLo 1) k 0) (by site_mem))
  omega

example : ∃ m', Cuda.setBc3d 0 7 0 6 0 5 exDx 1 ⟨0, 0⟩ ⟨1, 0⟩ ⟨2, 0⟩ 1 ⟨9, 0⟩ exLo exHi 2 0 2 0 3 5 (fun _ => revBackend) exRat = .ok m' ∧
    ∀ k, max 0 (exLo 2) ≤ k → k ≤ min 5 (exHi 2) → ContinuesSum exRat m' (F.cell3d ⟨9, 0⟩ 0 0 0 7 6 5 1) fun a b => [exLo 0 + dir0 0 * a, exLo 1 + dir1 0 * b, k] :=
  C47_3d_edge_ij (fun _ => revBackend_ok) (by decide) (by decide) (by decide) (by decide) (by decide) (by ex_seg) (by decide) (by ex_seg) (by ex_args)

/-- `cd_correct_bc_3d_cuda::set_bc`, edges along `j`: the ghost cells continue every sum of a function of `i` and a function of `k`. -/
theorem C47_3d_edge_ik {i0 j0 k0 i1 j1 k1 g dg exOrder face btype : Int} {dx : Nat → T} {d0 d1 d2 u : Ptr} {bLo bHi : Nat → Int} {alpha beta : T}
    {β : Nat → Backend} {m : Mem T} (hβ : ∀ n, ValidBackend (β n))
    (hi : i0 ≤ i1) (hj : j0 ≤ j1) (hk : k0 ≤ k1) (hg : 0 ≤ g) (hdg : 0 ≤ dg)
    (hs : ∀ n < 3, InInt (bLo n + 1) ∧ InInt (bHi n + 1))
    (hf : 4 ≤ face ∧ face < 8)
    (hn : Reach i0 i1 g (bLo 0) (dir0 face) ∧ Reach k0 k1 g (bLo 2) (dir1 face) ∧ Meets j0 j1 (bLo 1) (bHi 1))
    (h : F.Args m [F.face3d0 d0 i0 j0 k0 i1 j1 k1 dg, F.face3d1 d1 i0 j0 k0 i1 j1 k1 dg, F.face3d2 d2 i0 j0 k0 i1 j1 k1 dg] [F.cell3d u i0 j0 k0 i1 j1 k1 g]) :
    ∃ m', Cuda.setBc3d i0 i1 j0 j1 k0 k1 dx dg d0 d1 d2 g u bLo bHi exOrder face 2 btype alpha beta β m = .ok m' ∧
      ∀ j, max j0 (bLo 1) ≤ j → j ≤ min j1 (bHi 1) →
        ContinuesSum m m' (F.cell3d u i0 j0 k0 i1 j1 k1 g) fun a b => [bLo 0 + dir0 face * a, j, bLo 2 + dir1 face * b] := by
  show Ends _ fun m' => _
  obtain ⟨Au, spu, Iu⟩ := cell3_setup (h.ok (F.cell3d u i0 j0 k0 i1 j1 k1 g) (by simp)) hi hj hk hg
  obtain ⟨Ad0, pl0, sp0⟩ := faceG30_setup (h.ok (F.face3d0 d0 i0 j0 k0 i1 j1 k1 dg) (by simp)) hi hj hk hdg
  obtain ⟨Ad1, pl1, sp1⟩ := faceG31_setup (h.ok (F.face3d1 d1 i0 j0 k0 i1 j1 k1 dg) (by simp)) hi hj hk hdg
  obtain ⟨Ad2, pl2, sp2⟩ := faceG32_setup (h.ok (F.face3d2 d2 i0 j0 k0 i1 j1 k1 dg) (by simp)) hi hj hk hdg
  have hs0 := hs 0 (by decide)
  have hs1 := hs 1 (by decide)
  have hs2 := hs 2 (by decide)
  unfold InInt at Iu hs0 hs1 hs2
  have mkI := mkB_ok (d := .I) (lo := i0) (hi := i1) (by unfold InInt; omega)
  have mkIb := mkB_ok (d := .I) (lo := max (bLo 0) i0) (hi := min (bHi 0) i1) (by unfold InInt; omega)
  have mkIl := mkB_ok (d := .I) (lo := bLo 0) (hi := bLo 0) (by unfold InInt; omega)
  have mkIh := mkB_ok (d := .I) (lo := bHi 0) (hi := bHi 0) (by unfold InInt; omega)
  have mkJ := mkB_ok (d := .J) (lo := j0) (hi := j1) (by unfold InInt; omega)
  have mkJb := mkB_ok (d := .J) (lo := max (bLo 1) j0) (hi := min (bHi 1) j1) (by unfold InInt; omega)
  have mkJl := mkB_ok (d := .J) (lo := bLo 1) (hi := bLo 1) (by unfold InInt; omega)
  have mkJh := mkB_ok (d := .J) (lo := bHi 1) (hi := bHi 1) (by unfold InInt; omega)
  have mkK := mkB_ok (d := .K) (lo := k0) (hi := k1) (by unfold InInt; omega)
  have mkKb := mkB_ok (d := .K) (lo := max (bLo 2) k0) (hi := min (bHi 2) k1) (by unfold InInt; omega)
  have mkKl := mkB_ok (d := .K) (lo := bLo 2) (hi := bLo 2) (by unfold InInt; omega)
  have mkKh := mkB_ok (d := .K) (lo := bHi 2) (hi := bHi 2) (by unfold InInt; omega)
  unfold Cuda.setBc3d
  refine Ends.bind mkI <| Ends.bind mkJ <| Ends.bind mkK <| Ends.bind pl0 <| Ends.bind sp0 <| Ends.bind pl1 <| Ends.bind sp1 <| Ends.bind pl2 <| Ends.bind sp2 <| Ends.bind spu <| Ends.bind mkIb <| Ends.bind mkJb <| Ends.bind mkKb <| Ends.bind mkIl <| Ends.bind mkIh <| Ends.bind mkJl <| Ends.bind mkJh <| Ends.bind mkKl <| Ends.bind mkKh <| ?_
  rw [if_neg (by decide)]
  rw [if_pos rfl]
  by_cases e4 : face = 4
  · subst e4
    rw [if_neg (by decide), if_neg (by decide), if_neg (by decide), if_neg (by decide), if_pos rfl]
    simp only [Reach, Meets] at hn
    rw [max_comm (bLo 1) j0, min_comm (bHi 1) j1] at *
    have hd0 : dir0 4 = 1 := rfl
    have hd1 : dir1 4 = 1 := rfl
    rw [hd0, hd1] at hn
    have S := site3IK (li := bLo 0) (xi := bLo 0 + dir0 4 * 0) (lk := bLo 2) (xk := bLo 2 + dir1 4 * 0) (aj := max j0 (bLo 1)) (bj := min j1 (bHi 1)) Au (by omega) (by omega) (by omega) (by simp) (by simp)
    have A1 := at3IK_IK (ki := 1) (kk := 1) (yi := bLo 0 + dir0 4 * 1) (yk := bLo 2 + dir1 4 * 1) S (by omega) (by omega) (by decide) (by rw [hd0]; simp) (by omega) (by decide) (by rw [hd1]; simp)
    have A2 := at3IK_I (ki := 1) (yi := bLo 0 + dir0 4 * 1) (yk := bLo 2 + dir1 4 * 0) S (by omega) (by omega) (by decide) (by rw [hd0]; simp) (by omega) (by simp)
    have A3 := at3IK_K (kk := 1) (yi := bLo 0 + dir0 4 * 0) (yk := bLo 2 + dir1 4 * 1) S (by omega) (by omega) (by simp) (by omega) (by decide) (by rw [hd1]; simp)
    exact (S.t2_ends (hβ 0) A1 A2 A3).mono fun m' L j ja jb => continuesSum_of (c := fun a b => [bLo 0 + dir0 4 * a, j, bLo 2 + dir1 4 * b]) (L.el (facePt (bLo 0) j (bLo 2) (bLo 2)) (by site_mem))
  by_cases e5 : face = 5
  · subst e5
    rw [if_neg (by decide), if_neg (by decide), if_neg (by decide), if_neg (by decide), if_neg (by decide), if_pos rfl]
    simp only [Reach, Meets] at hn
    rw [max_comm (bLo 1) j0, min_comm (bHi 1) j1] at *
    have hd0 : dir0 5 = -1 := rfl
    have hd1 : dir1 5 = 1 := rfl
    rw [hd0, hd1] at hn
    have S := site3IK (li := bLo 0) (xi := bLo 0 + dir0 5 * 0) (lk := bLo 2) (xk := bLo 2 + dir1 5 * 0) (aj := max j0 (bLo 1)) (bj := min j1 (bHi 1)) Au (by omega) (by omega) (by omega) (by simp) (by simp)
    have A1 := at3IK_IK (ki := -1) (kk := 1) (yi := bLo 0 + dir0 5 * 1) (yk := bLo 2 + dir1 5 * 1) S (by omega) (by omega) (by decide) (by rw [hd0]; simp) (by omega) (by decide) (by rw [hd1]; simp)
    have A2 := at3IK_I (ki := -1) (yi := bLo 0 + dir0 5 * 1) (yk := bLo 2 + dir1 5 * 0) S (by omega) (by omega) (by decide) (by rw [hd0]; simp) (by omega) (by simp)
    have A3 := at3IK_K (kk := 1) (yi := bLo 0 + dir0 5 * 0) (yk := bLo 2 + dir1 5 * 1) S (by omega) (by omega) (by simp) (by omega) (by decide) (by rw [hd1]; simp)
    exact (S.t2_ends (hβ 0) A1 A2 A3).mono fun m' L j ja jb => continuesSum_of (c := fun a b => [bLo 0 + dir0 5 * a, j, bLo 2 + dir1 5 * b]) (L.el (facePt (bLo 0) j (bLo 2) (bLo 2)) (by site_mem))
  by_cases e6 : face = 6
  · subst e6
    rw [if_neg (by decide), if_neg (by decide), if_neg (by decide), if_neg (by decide), if_neg (by decide), if_neg (by decide), if_pos rfl]
    simp only [Reach, Meets] at hn
    rw [max_comm (bLo 1) j0, min_comm (bHi 1) j1] at *
    have hd0 : dir0 6 = 1 := rfl
    have hd1 : dir1 6 = -1 := rfl
    rw [hd0, hd1] at hn
    have S := site3IK (li := bLo 0) (xi := bLo 0 + dir0 6 * 0) (lk := bLo 2) (xk := bLo 2 + dir1 6 * 0) (aj := max j0 (bLo 1)) (bj := min j1 (bHi 1)) Au (by omega) (by omega) (by omega) (by simp) (by simp)
    have A1 := at3IK_IK (ki := 1) (kk := -1) (yi := bLo 0 + dir0 6 * 1) (yk := bLo 2 + dir1 6 * 1) S (by omega) (by omega) (by decide) (by rw [hd0]; simp) (by omega) (by decide) (by rw [hd1]; simp)
    have A2 := at3IK_I (ki := 1) (yi := bLo 0 + dir0 6 * 1) (yk := bLo 2 + dir1 6 * 0) S (by omega) (by omega) (by decide) (by rw [hd0]; simp) (by omega) (by simp)
    have A3 := at3IK_K (kk := -1) (yi := bLo 0 + dir0 6 * 0) (yk := bLo 2 + dir1 6 * 1) S (by omega) (by omega) (by simp) (by omega) (by decide) (by rw [hd1]; simp)
    exact (S.t2_ends (hβ 0) A1 A2 A3).mono fun m' L j ja jb => continuesSum_of (c := fun a b => [bLo 0 + dir0 6 * a, j, bLo 2 + dir1 6 * b]) (L.el (facePt (bLo 0) j (bLo 2) (bLo 2)) (by site_mem))
  by_cases e7 : face = 7
  · subst e7
    rw [if_neg (by decide), if_neg (by decide), if_neg (by decide), if_neg (by decide), if_neg (by decide), if_neg (by decide), if_neg (by decide), if_pos rfl]
    simp only [Reach, Meets] at hn
    rw [max_comm (bLo 1) j0, min_comm (bHi 1) j1] at *
    have hd0 : dir0 7 = -1 := rfl
    have hd1 : dir1 7 = -1 := rfl
    rw [hd0, hd1] at hn
    have S := site3IK (li := bLo 0) (xi := bLo 0 + dir0 7 * 0) (lk := bLo 2) (xk := bLo 2 + dir1 7 * 0) (aj := max j0 (bLo 1)) (bj := min j1 (bHi 1)) Au (by omega) (by omega) (by omega) (by simp) (by simp)
    have A1 := at3IK_IK (ki := -1) (kk := -1) (yi := bLo 0 + dir0 7 * 1) (yk := bLo 2 + dir1 7 * 1) S (by omega) (by omega) (by decide) (by rw [hd0]; simp) (by omega) (by decide) (by rw [hd1]; simp)
    have A2 := at3IK_I (ki := -1) (yi := bLo 0 + dir0 7 * 1) (yk := bLo 2 + dir1 7 * 0) S (by omega) (by omega) (by decide) (by rw [hd0]; simp) (by omega) (by simp)
    have A3 := at3IK_K (kk := -1) (yi := bLo 0 + dir0 7 * 0) (yk := bLo 2 + dir1 7 * 1) S (by omega) (by omega) (by simp) (by omega) (by decide) (by rw [hd1]; simp)
    exact (S.t2_ends (hβ 0) A1 A2 A3).mono fun m' L j ja jb => continuesSum_of (c := fun a b => [bLo 0 + dir0 7 * a, j, bLo 2 + dir1 7 * b]) (L.el (facePt (bLo 0) j (bLo 2) (bLo 2)) (by site_mem))
  omega

example : ∃ m', Cuda.setBc3d 0 7 0 6 0 5 exDx 1 ⟨0, 0⟩ ⟨1, 0⟩ ⟨2, 0⟩ 1 ⟨9, 0⟩ exLo exHi 2 4 2 0 3 5 (fun _ => revBackend) exRat = .ok m' ∧
    ∀ j, max 0 (exLo 1) ≤ j → j ≤ min 6 (exHi 1) → ContinuesSum exRat m' (F.cell3d ⟨9, 0⟩ 0 0 0 7 6 5 1) fun a b => [exLo 0 + dir0 4 * a, j, exLo 2 + dir1 4 * b] :=
  C47_3d_edge_ik (fun _ => revBackend_ok) (by decide) (by decide) (by decide) (by decide) (by decide) (by ex_seg) (by decide) (by ex_seg) (by ex_args)

/-- `cd_correct_bc_3d_cuda::set_bc`, edges along `i`: the ghost cells continue every sum of a function of `j` and a function of `k`. -/
theorem C47_3d_edge_jk {i0 j0 k0 i1 j1 k1 g dg exOrder face btype : Int} {dx : Nat → T} {d0 d1 d2 u : Ptr} {bLo bHi : Nat → Int} {alpha beta : T}
    {β : Nat → Backend} {m : Mem T} (hβ : ∀ n, ValidBackend (β n))
    (hi : i0 ≤ i1) (hj : j0 ≤ j1) (hk : k0 ≤ k1) (hg : 0 ≤ g) (hdg : 0 ≤ dg)
    (hs : ∀ n < 3, InInt (bLo n + 1) ∧ InInt (bHi n + 1))
    (hf : 8 ≤ face ∧ face < 12)
    (hn : Reach j0 j1 g (bLo 1) (dir0 face) ∧ Reach k0 k1 g (bLo 2) (dir1 face) ∧ Meets i0 i1 (bLo 0) (bHi 0))
    (h : F.Args m [F.face3d0 d0 i0 j0 k0 i1 j1 k1 dg, F.face3d1 d1 i0 j0 k0 i1 j1 k1 dg, F.face3d2 d2 i0 j0 k0 i1 j1 k1 dg] [F.cell3d u i0 j0 k0 i1 j1 k1 g]) :
    ∃ m', Cuda.setBc3d i0 i1 j0 j1 k0 k1 dx dg d0 d1 d2 g u bLo bHi exOrder face 2 btype alpha beta β m = .ok m' ∧
      ∀ i, max i0 (bLo 0) ≤ i → i ≤ min i1 (bHi 0) →
        ContinuesSum m m' (F.cell3d u i0 j0 k0 i1 j1 k1 g) fun a b => [i, bLo 1 + dir0 face * a, bLo 2 + dir1 face * b] := by
  show Ends _ fun m' => _
  obtain ⟨Au, spu, Iu⟩ := cell3_setup (h.ok (F.cell3d u i0 j0 k0 i1 j1 k1 g) (by simp)) hi hj hk hg
  obtain ⟨Ad0, pl0, sp0⟩ := faceG30_setup (h.ok (F.face3d0 d0 i0 j0 k0 i1 j1 k1 dg) (by simp)) hi hj hk hdg
  obtain ⟨Ad1, pl1, sp1⟩ := faceG31_setup (h.ok (F.face3d1 d1 i0 j0 k0 i1 j1 k1 dg) (by simp)) hi hj hk hdg
  obtain ⟨Ad2, pl2, sp2⟩ := faceG32_setup (h.ok (F.face3d2 d2 i0 j0 k0 i1 j1 k1 dg) (by simp)) hi hj hk hdg
  have hs0 := hs 0 (by decide)
  have hs1 := hs 1 (by decide)
  have hs2 := hs 2 (by decide)
  unfold InInt at Iu hs0 hs1 hs2
  have mkI := mkB_ok (d := .I) (lo := i0) (hi := i1) (by unfold InInt; omega)
  have mkIb := mkB_ok (d := .I) (lo := max (bLo 0) i0) (hi := min (bHi 0) i1) (by unfold InInt; omega)
  have mkIl := mkB_ok (d := .I) (lo := bLo 0) (hi := bLo 0) (by unfold InInt; omega)
  have mkIh := mkB_ok (d := .I) (lo := bHi 0) (hi := bHi 0) (by unfold InInt; omega)
  have mkJ := mkB_ok (d := .J) (lo := j0) (hi := j1) (by unfold InInt; omega)
  have mkJb := mkB_ok (d := .J) (lo := max (bLo 1) j0) (hi := min (bHi 1) j1) (by unfold InInt; omega)
  have mkJl := mkB_ok (d := .J) (lo := bLo 1) (hi := bLo 1) (by unfold InInt; omega)
  have mkJh := mkB_ok (d := .J) (lo := bHi 1) (hi := bHi 1) (by unfold InInt; omega)
  have mkK := mkB_ok (d := .K) (lo := k0) (hi := k1) (by unfold InInt; omega)
  have mkKb := mkB_ok (d := .K) (lo := max (bLo 2) k0) (hi := min (bHi 2) k1) (by unfold InInt; omega)
  have mkKl := mkB_ok (d := .K) (lo := bLo 2) (hi := bLo 2) (by unfold InInt; omega)
  have mkKh := mkB_ok (d := .K) (lo := bHi 2) (hi := bHi 2) (by unfold InInt; omega)
  unfold Cuda.setBc3d
  refine Ends.bind mkI <| Ends.bind mkJ <| Ends.bind mkK <| Ends.bind pl0 <| Ends.bind sp0 <| Ends.bind pl1 <| Ends.bind sp1 <| Ends.bind pl2 <| Ends.bind sp2 <| Ends.bind spu <| Ends.bind mkIb <| Ends.bind mkJb <| Ends.bind mkKb <| Ends.bind mkIl <| Ends.bind mkIh <| Ends.bind mkJl <| Ends.bind mkJh <| Ends.bind mkKl <| Ends.bind mkKh <| ?_
  rw [if_neg (by decide)]
  rw [if_pos rfl]
  by_cases e8 : face = 8
  · subst e8
    rw [if_neg (by decide), if_neg (by decide), if_neg (by decide), if_neg (by decide), if_neg (by decide), if_neg (by decide), if_neg (by decide), if_neg (by decide), if_pos rfl]
    simp only [Reach, Meets] at hn
    rw [max_comm (bLo 0) i0, min_comm (bHi 0) i1] at *
    have hd0 : dir0 8 = 1 := rfl
    have hd1 : dir1 8 = 1 := rfl
    rw [hd0, hd1] at hn
    have S := site3JK (lj := bLo 1) (xj := bLo 1 + dir0 8 * 0) (lk := bLo 2) (xk := bLo 2 + dir1 8 * 0) (ai := max i0 (bLo 0)) (bi := min i1 (bHi 0)) Au (by omega) (by omega) (by omega) (by simp) (by simp)
    have A1 := at3JK_JK (kj := 1) (kk := 1) (yj := bLo 1 + dir0 8 * 1) (yk := bLo 2 + dir1 8 * 1) S (by omega) (by omega) (by decide) (by rw [hd0]; simp) (by omega) (by decide) (by rw [hd1]; simp)
    have A2 := at3JK_J (kj := 1) (yj := bLo 1 + dir0 8 * 1) (yk := bLo 2 + dir1 8 * 0) S (by omega) (by omega) (by decide) (by rw [hd0]; simp) (by omega) (by simp)
    have A3 := at3JK_K (kk := 1) (yj := bLo 1 + dir0 8 * 0) (yk := bLo 2 + dir1 8 * 1) S (by omega) (by omega) (by simp) (by omega) (by decide) (by rw [hd1]; simp)
    exact (S.t2_ends (hβ 0) A1 A2 A3).mono fun m' L i ia ib => continuesSum_of (c := fun a b => [i, bLo 1 + dir0 8 * a, bLo 2 + dir1 8 * b]) (L.el (facePt i (bLo 1) (bLo 2) (bLo 2)) (by site_mem))
  by_cases e9 : face = 9
  · subst e9
    rw [if_neg (by decide), if_neg (by decide), if_neg (by decide), if_neg (by decide), if_neg (by decide), if_neg (by decide), if_neg (by decide), if_neg (by decide), if_neg (by decide), if_pos rfl]
    simp only [Reach, Meets] at hn
    rw [max_comm (bLo 0) i0, min_comm (bHi 0) i1] at *
    have hd0 : dir0 9 = -1 := rfl
    have hd1 : dir1 9 = 1 := rfl
    rw [hd0, hd1] at hn
    have S := site3JK (lj := bLo 1) (xj := bLo 1 + dir0 9 * 0) (lk := bLo 2) (xk := bLo 2 + dir1 9 * 0) (ai := max i0 (bLo 0)) (bi := min i1 (bHi 0)) Au (by omega) (by omega) (by omega) (by simp) (by simp)
    have A1 := at3JK_JK (kj := -1) (kk := 1) (yj := bLo 1 + dir0 9 * 1) (yk := bLo 2 + dir1 9 * 1) S (by omega) (by omega) (by decide) (by rw [hd0]; simp) (by omega) (by decide) (by rw [hd1]; simp)
    have A2 := at3JK_J (kj := -1) (yj := bLo 1 + dir0 9 * 1) (yk := bLo 2 + dir1 9 * 0) S (by omega) (by omega) (by decide) (by rw [hd0]; simp) (by omega) (by simp)
    have A3 := at3JK_K (kk := 1) (yj := bLo 1 + dir0 9 * 0) (yk := bLo 2 + dir1 9 * 1) S (by omega) (by omega) (by simp) (by omega) (by decide) (by rw [hd1]; simp)
    exact (S.t2_ends (hβ 0) A1 A2 A3).mono fun m' L i ia ib => continuesSum_of (c := fun a b => [i, bLo 1 + dir0 9 * a, bLo 2 + dir1 9 * b]) (L.el (facePt i (bLo 1) (bLo 2) (bLo 2)) (by site_mem))
  by_cases e10 : face = 10
  · subst e10
    rw [if_neg (by decide), if_neg (by decide), if_neg (by decide), if_neg (by decide), if_neg (by decide), if_neg (by decide), if_neg (by decide), if_neg (by decide), if_neg (by decide), if_neg (by decide), if_pos rfl]
    simp only [Reach, Meets] at hn
    rw [max_comm (bLo 0) i0, min_comm (bHi 0) i1] at *
    have hd0 : dir0 10 = 1 := rfl
    have hd1 : dir1 10 = -1 := rfl
    rw [hd0, hd1] at hn
    have S := site3JK (lj := bLo 1) (xj := bLo 1 + dir0 10 * 0) (lk := bLo 2) (xk := bLo 2 + dir1 10 * 0) (ai := max i0 (bLo 0)) (bi := min i1 (bHi 0)) Au (by omega) (by omega) (by omega) (by simp) (by simp)
    have A1 := at3JK_JK (kj := 1) (kk := -1) (yj := bLo 1 + dir0 10 * 1) (yk := bLo 2 + dir1 10 * 1) S (by omega) (by omega) (by decide) (by rw [hd0]; simp) (by omega) (by decide) (by rw [hd1]; simp)
    have A2 := at3JK_J (kj := 1) (yj := bLo 1 + dir0 10 * 1) (yk := bLo 2 + dir1 10 * 0) S (by omega) (by omega) (by decide) (by rw [hd0]; simp) (by omega) (by simp)
    have A3 := at3JK_K (kk := -1) (yj := bLo 1 + dir0 10 * 0) (yk := bLo 2 + dir1 10 * 1) S (by omega) (by omega) (by simp) (by omega) (by decide) (by rw [hd1]; simp)
    exact (S.t2_ends (hβ 0) A1 A2 A3).mono fun m' L i ia ib => continuesSum_of (c := fun a b => [i, bLo 1 + dir0 10 * a, bLo 2 + dir1 10 * b]) (L.el (facePt i (bLo 1) (bLo 2) (bLo 2)) (by site_mem))
  by_cases e11 : face = 11
  · subst e11
    rw [if_neg (by decide), if_neg (by decide), if_neg (by decide), if_neg (by decide), if_neg (by decide), if_neg (by decide), if_neg (by decide), if_neg (by decide), if_neg (by decide), if_neg (by decide), if_neg (by decide), if_pos rfl]
    simp only [Reach, Meets] at hn
    rw [max_comm (bLo 0) i0, min_comm (bHi 0) i1] at *
    have hd0 : dir0 11 = -1 := rfl
    have hd1 : dir1 11 = -1 := rfl
    rw [hd0, hd1] at hn
    have S := site3JK (lj := bLo 1) (xj := bLo 1 + dir0 11 * 0) (lk := bLo 2) (xk := bLo 2 + dir1 11 * 0) (ai := max i0 (bLo 0)) (bi := min i1 (bHi 0)) Au (by omega) (by omega) (by omega) (by simp) (by simp)
    have A1 := at3JK_JK (kj := -1) (kk := -1) (yj := bLo 1 + dir0 11 * 1) (yk := bLo 2 + dir1 11 * 1) S (by omega) (by omega) (by decide) (by rw [hd0]; simp) (by omega) (by decide) (by rw [hd1]; simp)
    have A2 := at3JK_J (kj := -1) (yj := bLo 1 + dir0 11 * 1) (yk := bLo 2 + dir1 11 * 0) S (by omega) (by omega) (by decide) (by rw [hd0]; simp) (by omega) (by simp)
    have A3 := at3JK_K (kk := -1) (yj := bLo 1 + dir0 11 * 0) (yk := bLo 2 + dir1 11 * 1) S (by omega) (by omega) (by simp) (by omega) (by decide) (by rw [hd1]; simp)
    exact (S.t2_ends (hβ 0) A1 A2 A3).mono fun m' L i ia ib => continuesSum_of (c := fun a b => [i, bLo 1 + dir0 11 * a, bLo 2 + dir1 11 * b]) (L.el (facePt i (bLo 1) (bLo 2) (bLo 2)) (by site_mem))
  omega

example : ∃ m', Cuda.setBc3d 0 7 0 6 0 5 exDx 1 ⟨0, 0⟩ ⟨1, 0⟩ ⟨2, 0⟩ 1 ⟨9, 0⟩ exLo exHi 2 8 2 0 3 5 (fun _ => revBackend) exRat = .ok m' ∧
    ∀ i, max 0 (exLo 0) ≤ i → i ≤ min 7 (exHi 0) → ContinuesSum exRat m' (F.cell3d ⟨9, 0⟩ 0 0 0 7 6 5 1) fun a b => [i, exLo 1 + dir0 8 * a, exLo 2 + dir1 8 * b] :=
  C47_3d_edge_jk (fun _ => revBackend_ok) (by decide) (by decide) (by decide) (by decide) (by decide) (by ex_seg) (by decide) (by ex_seg) (by ex_args)

/-- `cd_correct_bc_3d_cuda::set_bc`, nodes: the ghost cell continues every sum of a function of `i` and a function of `j`, in the plane of the node. -/
theorem C47_3d_node {i0 j0 k0 i1 j1 k1 g dg exOrder face btype : Int} {dx : Nat → T} {d0 d1 d2 u : Ptr} {bLo bHi : Nat → Int} {alpha beta : T}
    {β : Nat → Backend} {m : Mem T} (hβ : ∀ n, ValidBackend (β n))
    (hi : i0 ≤ i1) (hj : j0 ≤ j1) (hk : k0 ≤ k1) (hg : 0 ≤ g) (hdg : 0 ≤ dg)
    (hs : ∀ n < 3, InInt (bLo n + 1) ∧ InInt (bHi n + 1))
    (hf : 0 ≤ face ∧ face < 8)
    (hn : Reach i0 i1 g (bLo 0) (dir0 face) ∧ Reach j0 j1 g (bLo 1) (dir1 face) ∧ Reach k0 k1 g (bLo 2) 0)
    (h : F.Args m [F.face3d0 d0 i0 j0 k0 i1 j1 k1 dg, F.face3d1 d1 i0 j0 k0 i1 j1 k1 dg, F.face3d2 d2 i0 j0 k0 i1 j1 k1 dg] [F.cell3d u i0 j0 k0 i1 j1 k1 g]) :
    ∃ m', Cuda.setBc3d i0 i1 j0 j1 k0 k1 dx dg d0 d1 d2 g u bLo bHi exOrder face 3 btype alpha beta β m = .ok m' ∧
      ContinuesSum m m' (F.cell3d u i0 j0 k0 i1 j1 k1 g) fun a b => [bLo 0 + dir0 face * a, bLo 1 + dir1 face * b, bLo 2] := by
  show Ends _ fun m' => _
  obtain ⟨Au, spu, Iu⟩ := cell3_setup (h.ok (F.cell3d u i0 j0 k0 i1 j1 k1 g) (by simp)) hi hj hk hg
  obtain ⟨Ad0, pl0, sp0⟩ := faceG30_setup (h.ok (F.face3d0 d0 i0 j0 k0 i1 j1 k1 dg) (by simp)) hi hj hk hdg
  obtain ⟨Ad1, pl1, sp1⟩ := faceG31_setup (h.ok (F.face3d1 d1 i0 j0 k0 i1 j1 k1 dg) (by simp)) hi hj hk hdg
  obtain ⟨Ad2, pl2, sp2⟩ := faceG32_setup (h.ok (F.face3d2 d2 i0 j0 k0 i1 j1 k1 dg) (by simp)) hi hj hk hdg
  have hs0 := hs 0 (by decide)
  have hs1 := hs 1 (by decide)
  have hs2 := hs 2 (by decide)
  unfold InInt at Iu hs0 hs1 hs2
  have mkI := mkB_ok (d := .I) (lo := i0) (hi := i1) (by unfold InInt; omega)
  have mkIb := mkB_ok (d := .I) (lo := max (bLo 0) i0) (hi := min (bHi 0) i1) (by unfold InInt; omega)
  have mkIl := mkB_ok (d := .I) (lo := bLo 0) (hi := bLo 0) (by unfold InInt; omega)
  have mkIh := mkB_ok (d := .I) (lo := bHi 0) (hi := bHi 0) (by unfold InInt; omega)
  have mkJ := mkB_ok (d := .J) (lo := j0) (hi := j1) (by unfold InInt; omega)
  have mkJb := mkB_ok (d := .J) (lo := max (bLo 1) j0) (hi := min (bHi 1) j1) (by unfold InInt; omega)
  have mkJl := mkB_ok (d := .J) (lo := bLo 1) (hi := bLo 1) (by unfold InInt; omega)
  have mkJh := mkB_ok (d := .J) (lo := bHi 1) (hi := bHi 1) (by unfold InInt; omega)
  have mkK := mkB_ok (d := .K) (lo := k0) (hi := k1) (by unfold InInt; omega)
  have mkKb := mkB_ok (d := .K) (lo := max (bLo 2) k0) (hi := min (bHi 2) k1) (by unfold InInt; omega)
  have mkKl := mkB_ok (d := .K) (lo := bLo 2) (hi := bLo 2) (by unfold InInt; omega)
  have mkKh := mkB_ok (d := .K) (lo := bHi 2) (hi := bHi 2) (by unfold InInt; omega)
  unfold Cuda.setBc3d
  refine Ends.bind mkI <| Ends.bind mkJ <| Ends.bind mkK <| Ends.bind pl0 <| Ends.bind sp0 <| Ends.bind pl1 <| Ends.bind sp1 <| Ends.bind pl2 <| Ends.bind sp2 <| Ends.bind spu <| Ends.bind mkIb <| Ends.bind mkJb <| Ends.bind mkKb <| Ends.bind mkIl <| Ends.bind mkIh <| Ends.bind mkJl <| Ends.bind mkJh <| Ends.bind mkKl <| Ends.bind mkKh <| ?_
  rw [if_neg (by decide)]
  rw [if_neg (by decide)]
  rw [if_pos rfl]
  by_cases e0 : face = 0 ∨ face = 4
  · have hd0 : dir0 face = 1 := by rcases e0 with rfl | rfl <;> rfl
    have hd1 : dir1 face = 1 := by rcases e0 with rfl | rfl <;> rfl
    rw [if_pos e0]
    simp only [Reach] at hn
    rw [hd0, hd1] at hn
    have S := site3IJK (li := bLo 0) (xi := bLo 0 + dir0 face * 0) (lj := bLo 1) (xj := bLo 1 + dir1 face * 0) (lk := bLo 2) (xk := bLo 2) Au (by omega) (by omega) (by omega) (by simp) (by simp) rfl
    have A1 := at3IJK_IJ (ki := 1) (kj := 1) (yi := bLo 0 + dir0 face * 1) (yj := bLo 1 + dir1 face * 1) (yk := bLo 2) S (by omega) (by decide) (by rw [hd0]; simp) (by omega) (by decide) (by rw [hd1]; simp) (by omega) (by omega)
    have A2 := at3IJK_I (ki := 1) (yi := bLo 0 + dir0 face * 1) (yj := bLo 1 + dir1 face * 0) (yk := bLo 2) S (by omega) (by decide) (by rw [hd0]; simp) (by omega) (by simp) (by omega) (by omega)
    have A3 := at3IJK_J (kj := 1) (yi := bLo 0 + dir0 face * 0) (yj := bLo 1 + dir1 face * 1) (yk := bLo 2) S (by omega) (by simp) (by omega) (by decide) (by rw [hd1]; simp) (by omega) (by omega)
    exact (S.t2_ends (hβ 0) A1 A2 A3).mono fun m' L => continuesSum_of (c := fun a b => [bLo 0 + dir0 face * a, bLo 1 + dir1 face * b, bLo 2]) (L.el _ (List.mem_singleton.2 rfl))
  by_cases e1 : face = 1 ∨ face = 5
  · have hd0 : dir0 face = -1 := by rcases e1 with rfl | rfl <;> rfl
    have hd1 : dir1 face = 1 := by rcases e1 with rfl | rfl <;> rfl
    rw [if_neg e0, if_pos e1]
    simp only [Reach] at hn
    rw [hd0, hd1] at hn
    have S := site3IJK (li := bLo 0) (xi := bLo 0 + dir0 face * 0) (lj := bLo 1) (xj := bLo 1 + dir1 face * 0) (lk := bLo 2) (xk := bLo 2) Au (by omega) (by omega) (by omega) (by simp) (by simp) rfl
    have A1 := at3IJK_IJ (ki := -1) (kj := 1) (yi := bLo 0 + dir0 face * 1) (yj := bLo 1 + dir1 face * 1) (yk := bLo 2) S (by omega) (by decide) (by rw [hd0]; simp) (by omega) (by decide) (by rw [hd1]; simp) (by omega) (by omega)
    have A2 := at3IJK_I (ki := -1) (yi := bLo 0 + dir0 face * 1) (yj := bLo 1 + dir1 face * 0) (yk := bLo 2) S (by omega) (by decide) (by rw [hd0]; simp) (by omega) (by simp) (by omega) (by omega)
    have A3 := at3IJK_J (kj := 1) (yi := bLo 0 + dir0 face * 0) (yj := bLo 1 + dir1 face * 1) (yk := bLo 2) S (by omega) (by simp) (by omega) (by decide) (by rw [hd1]; simp) (by omega) (by omega)
    exact (S.t2_ends (hβ 0) A1 A2 A3).mono fun m' L => continuesSum_of (c := fun a b => [bLo 0 + dir0 face * a, bLo 1 + dir1 face * b, bLo 2]) (L.el _ (List.mem_singleton.2 rfl))
  by_cases e2 : face = 2 ∨ face = 6
  · have hd0 : dir0 face = 1 := by rcases e2 with rfl | rfl <;> rfl
    have hd1 : dir1 face = -1 := by rcases e2 with rfl | rfl <;> rfl
    rw [if_neg e0, if_neg e1, if_pos e2]
    simp only [Reach] at hn
    rw [hd0, hd1] at hn
    have S := site3IJK (li := bLo 0) (xi := bLo 0 + dir0 face * 0) (lj := bLo 1) (xj := bLo 1 + dir1 face * 0) (lk := bLo 2) (xk := bLo 2) Au (by omega) (by omega) (by omega) (by simp) (by simp) rfl
    have A1 := at3IJK_IJ (ki := 1) (kj := -1) (yi := bLo 0 + dir0 face * 1) (yj := bLo 1 + dir1 face * 1) (yk := bLo 2) S (by omega) (by decide) (by rw [hd0]; simp) (by omega) (by decide) (by rw [hd1]; simp) (by omega) (by omega)
    have A2 := at3IJK_I (ki := 1) (yi := bLo 0 + dir0 face * 1) (yj := bLo 1 + dir1 face * 0) (yk := bLo 2) S (by omega) (by decide) (by rw [hd0]; simp) (by omega) (by simp) (by omega) (by omega)
    have A3 := at3IJK_J (kj := -1) (yi := bLo 0 + dir0 face * 0) (yj := bLo 1 + dir1 face * 1) (yk := bLo 2) S (by omega) (by simp) (by omega) (by decide) (by rw [hd1]; simp) (by omega) (by omega)
    exact (S.t2_ends (hβ 0) A1 A2 A3).mono fun m' L => continuesSum_of (c := fun a b => [bLo 0 + dir0 face * a, bLo 1 + dir1 face * b, bLo 2]) (L.el _ (List.mem_singleton.2 rfl))
  by_cases e3 : face = 3 ∨ face = 7
  · have hd0 : dir0 face = -1 := by rcases e3 with rfl | rfl <;> rfl
    have hd1 : dir1 face = -1 := by rcases e3 with rfl | rfl <;> rfl
    rw [if_neg e0, if_neg e1, if_neg e2, if_pos e3]
    simp only [Reach] at hn
    rw [hd0, hd1] at hn
    have S := site3IJK (li := bLo 0) (xi := bLo 0 + dir0 face * 0) (lj := bLo 1) (xj := bLo 1 + dir1 face * 0) (lk := bLo 2) (xk := bLo 2) Au (by omega) (by omega) (by omega) (by simp) (by simp) rfl
    have A1 := at3IJK_IJ (ki := -1) (kj := -1) (yi := bLo 0 + dir0 face * 1) (yj := bLo 1 + dir1 face * 1) (yk := bLo 2) S (by omega) (by decide) (by rw [hd0]; simp) (by omega) (by decide) (by rw [hd1]; simp) (by omega) (by omega)
    have A2 := at3IJK_I (ki := -1) (yi := bLo 0 + dir0 face * 1) (yj := bLo 1 + dir1 face * 0) (yk := bLo 2) S (by omega) (by decide) (by rw [hd0]; simp) (by omega) (by simp) (by omega) (by omega)
    have A3 := at3IJK_J (kj := -1) (yi := bLo 0 + dir0 face * 0) (yj := bLo 1 + dir1 face * 1) (yk := bLo 2) S (by omega) (by simp) (by omega) (by decide) (by rw [hd1]; simp) (by omega) (by omega)
    exact (S.t2_ends (hβ 0) A1 A2 A3).mono fun m' L => continuesSum_of (c := fun a b => [bLo 0 + dir0 face * a, bLo 1 + dir1 face * b, bLo 2]) (L.el _ (List.mem_singleton.2 rfl))
  omega

example : ∃ m', Cuda.setBc3d 0 7 0 6 0 5 exDx 1 ⟨0, 0⟩ ⟨1, 0⟩ ⟨2, 0⟩ 1 ⟨9, 0⟩ exLo exHi 2 0 3 0 3 5 (fun _ => revBackend) exRat = .ok m' ∧
    ContinuesSum exRat m' (F.cell3d ⟨9, 0⟩ 0 0 0 7 6 5 1) fun a b => [exLo 0 + dir0 0 * a, exLo 1 + dir1 0 * b, exLo 2] :=
  C47_3d_node (fun _ => revBackend_ok) (by decide) (by decide) (by decide) (by decide) (by decide) (by ex_seg) (by decide) (by ex_seg) (by ex_args)

/-- `cd_correct_bc_3d_cuda::set_poisson_bc`, edges along `k`: the ghost cells continue every sum of a function of `i` and a function of `j`. -/
theorem C47_poisson_3d_edge_ij {i0 j0 k0 i1 j1 k1 g exOrder face btype : Int} {dx : Nat → T} { u : Ptr} {bLo bHi : Nat → Int} {alpha beta : T}
    {β : Nat → Backend} {m : Mem T} (hβ : ∀ n, ValidBackend (β n))
    (hi : i0 ≤ i1) (hj : j0 ≤ j1) (hk : k0 ≤ k1) (hg : 0 ≤ g)
    (hs : ∀ n < 3, InInt (bLo n + 1) ∧ InInt (bHi n + 1))
    (hf : 0 ≤ face ∧ face < 4)
    (hn : Reach i0 i1 g (bLo 0) (dir0 face) ∧ Reach j0 j1 g (bLo 1) (dir1 face) ∧ Meets k0 k1 (bLo 2) (bHi 2))
    (h : F.Args m [] [F.cell3d u i0 j0 k0 i1 j1 k1 g]) :
    ∃ m', Cuda.setPoissonBc3d i0 i1 j0 j1 k0 k1 dx g u bLo bHi exOrder face 2 btype alpha beta β m = .ok m' ∧
      ∀ k, max k0 (bLo 2) ≤ k → k ≤ min k1 (bHi 2) →
        ContinuesSum m m' (F.cell3d u i0 j0 k0 i1 j1 k1 g) fun a b => [bLo 0 + dir0 face * a, bLo 1 + dir1 face * b, k] := by
  show Ends _ fun m' => _
  obtain ⟨Au, spu, Iu⟩ := cell3_setup (h.ok (F.cell3d u i0 j0 k0 i1 j1 k1 g) (by simp)) hi hj hk hg
  have hs0 := hs 0 (by decide)
  have hs1 := hs 1 (by decide)
  have hs2 := hs 2 (by decide)
  unfold InInt at Iu hs0 hs1 hs2
  have mkI := mkB_ok (d := .I) (lo := i0) (hi := i1) (by unfold InInt; omega)
  have mkIb := mkB_ok (d := .I) (lo := max (bLo 0) i0) (hi := min (bHi 0) i1) (by unfold InInt; omega)
  have mkIl := mkB_ok (d := .I) (lo := bLo 0) (hi := bLo 0) (by unfold InInt; omega)
  have mkIh := mkB_ok (d := .I) (lo := bHi 0) (hi := bHi 0) (by unfold InInt; omega)
  have mkJ := mkB_ok (d := .J) (lo := j0) (hi := j1) (by unfold InInt; omega)
  have mkJb := mkB_ok (d := .J) (lo := max (bLo 1) j0) (hi := min (bHi 1) j1) (by unfold InInt; omega)
  have mkJl := mkB_ok (d := .J) (lo := bLo 1) (hi := bLo 1) (by unfold InInt; omega)
  have mkJh := mkB_ok (d := .J) (lo := bHi 1) (hi := bHi 1) (by unfold InInt; omega)
  have mkK := mkB_ok (d := .K) (lo := k0) (hi := k1) (by unfold InInt; omega)
  have mkKb := mkB_ok (d := .K) (lo := max (bLo 2) k0) (hi := min (bHi 2) k1) (by unfold InInt; omega)
  have mkKl := mkB_ok (d := .K) (lo := bLo 2) (hi := bLo 2) (by unfold InInt; omega)
  have mkKh := mkB_ok (d := .K) (lo := bHi 2) (hi := bHi 2) (by unfold InInt; omega)
  unfold Cuda.setPoissonBc3d
  refine Ends.bind mkI <| Ends.bind mkJ <| Ends.bind mkK <| Ends.bind spu <| Ends.bind mkIb <| Ends.bind mkJb <| Ends.bind mkKb <| Ends.bind mkIl <| Ends.bind mkIh <| Ends.bind mkJl <| Ends.bind mkJh <| Ends.bind mkKl <| Ends.bind mkKh <| ?_
  rw [if_neg (by decide)]
  rw [if_pos rfl]
  by_cases e0 : face = 0
  · subst e0
    rw [if_pos rfl]
    simp only [Reach, Meets] at hn
    rw [max_comm (bLo 2) k0, min_comm (bHi 2) k1] at *
    have hd0 : dir0 0 = 1 := rfl
    have hd1 : dir1 0 = 1 := rfl
    rw [hd0, hd1] at hn
    have S := site3IJ (li := bLo 0) (xi := bLo 0 + dir0 0 * 0) (lj := bLo 1) (xj := bLo 1 + dir1 0 * 0) (ak := max k0 (bLo 2)) (bk := min k1 (bHi 2)) Au (by omega) (by omega) (by omega) (by simp) (by simp)
    have A1 := at3IJ_IJ (ki := 1) (kj := 1) (yi := bLo 0 + dir0 0 * 1) (yj := bLo 1 + dir1 0 * 1) S (by omega) (by omega) (by decide) (by rw [hd0]; simp) (by omega) (by decide) (by rw [hd1]; simp)
    have A2 := at3IJ_I (ki := 1) (yi := bLo 0 + dir0 0 * 1) (yj := bLo 1 + dir1 0 * 0) S (by omega) (by omega) (by decide) (by rw [hd0]; simp) (by omega) (by simp)
    have A3 := at3IJ_J (kj := 1) (yi := bLo 0 + dir0 0 * 0) (yj := bLo 1 + dir1 0 * 1) S (by omega) (by omega) (by simp) (by omega) (by decide) (by rw [hd1]; simp)
    exact (S.t2_ends (hβ 0) A1 A2 A3).mono fun m' L k ka kb => continuesSum_of (c := fun a b => [bLo 0 + dir0 0 * a, bLo 1 + dir1 0 * b, k]) (L.el (facePt (bLo 0) (bLo 1) k 0) (by site_mem))
  by_cases e1 : face = 1
  · subst e1
    rw [if_neg (by decide), if_pos rfl]
    simp only [Reach, Meets] at hn
    rw [max_comm (bLo 2) k0, min_comm (bHi 2) k1] at *
    have hd0 : dir0 1 = -1 := rfl
    have hd1 : dir1 1 = 1 := rfl
    rw [hd0, hd1] at hn
    have S := site3IJ (li := bLo 0) (xi := bLo 0 + dir0 1 * 0) (lj := bLo 1) (xj := bLo 1 + dir1 1 * 0) (ak := max k0 (bLo 2)) (bk := min k1 (bHi 2)) Au (by omega) (by omega) (by omega) (by simp) (by simp)
    have A1 := at3IJ_IJ (ki := -1) (kj := 1) (yi := bLo 0 + dir0 1 * 1) (yj := bLo 1 + dir1 1 * 1) S (by omega) (by omega) (by decide) (by rw [hd0]; simp) (by omega) (by decide) (by rw [hd1]; simp)
    have A2 := at3IJ_I (ki := -1) (yi := bLo 0 + dir0 1 * 1) (yj := bLo 1 + dir1 1 * 0) S (by omega) (by omega) (by decide) (by rw [hd0]; simp) (by omega) (by simp)
    have A3 := at3IJ_J (kj := 1) (yi := bLo 0 + dir0 1 * 0) (yj := bLo 1 + dir1 1 * 1) S (by omega) (by omega) (by simp) (by omega) (by decide) (by rw [hd1]; simp)
    exact (S.t2_ends (hβ 0) A1 A2 A3).mono fun m' L k ka kb => continuesSum_of (c := fun a b => [bLo 0 + dir0 1 * a, bLo 1 + dir1 1 * b, k]) (L.el (facePt (bLo 0) (bLo 1) k 0) (by site_mem))
  by_cases e2 : face = 2
  · subst e2
    rw [if_neg (by decide), if_neg (by decide), if_pos rfl]
    simp only [Reach, Meets] at hn
    rw [max_comm (bLo 2) k0, min_comm (bHi 2) k1] at *
    have hd0 : dir0 2 = 1 := rfl
    have hd1 : dir1 2 = -1 := rfl
    rw [hd0, hd1] at hn
    have S := site3IJ (li := bLo 0) (xi := bLo 0 + dir0 2 * 0) (lj := bLo 1) (xj := bLo 1 + dir1 2 * 0) (ak := max k0 (bLo 2)) (bk := min k1 (bHi 2)) Au (by omega) (by omega) (by omega) (by simp) (by simp)
    have A1 := at3IJ_IJ (ki := 1) (kj := -1) (yi := bLo 0 + dir0 2 * 1) (yj := bLo 1 + dir1 2 * 1) S (by omega) (by omega) (by decide) (by rw [hd0]; simp) (by omega) (by decide) (by rw [hd1]; simp)
    have A2 := at3IJ_I (ki := 1) (yi := bLo 0 + dir0 2 * 1) (yj := bLo 1 + dir1 2 * 0) S (by omega) (by omega) (by decide) (by rw [hd0]; simp) (by omega) (by simp)
    have A3 := at3IJ_J (kj := -1) (yi := bLo 0 + dir0 2 * 0) (yj := bLo 1 + dir1 2 * 1) S (by omega) (by omega) (by simp) (by omega) (by decide) (by rw [hd1]; simp)
    exact (S.t2_ends (hβ 0) A1 A2 A3).mono fun m' L k ka kb => continuesSum_of (c := fun a b => [bLo 0 + dir0 2 * a, bLo 1 + dir1 2 * b, k]) (L.el (facePt (bLo 0) (bLo 1) k 0) (by site_mem))
  by_cases e3 : face = 3
  · subst e3
    rw [if_neg (by decide), if_neg (by decide), if_neg (by decide), if_pos rfl]
    simp only [Reach, Meets] at hn
    rw [max_comm (bLo 2) k0, min_comm (bHi 2) k1] at *
    have hd0 : dir0 3 = -1 := rfl
    have hd1 : dir1 3 = -1 := rfl
    rw [hd0, hd1] at hn
    have S := site3IJ (li := bLo 0) (xi := bLo 0 + dir0 3 * 0) (lj := bLo 1) (xj := bLo 1 + dir1 3 * 0) (ak := max k0 (bLo 2)) (bk := min k1 (bHi 2)) Au (by omega) (by omega) (by omega) (by simp) (by simp)
    have A1 := at3IJ_IJ (ki := -1) (kj := -1) (yi := bLo 0 + dir0 3 * 1) (yj := bLo 1 + dir1 3 * 1) S (by omega) (by omega) (by decide) (by rw [hd0]; simp) (by omega) (by decide) (by rw [hd1]; simp)
    have A2 := at3IJ_I (ki := -1) (yi := bLo 0 + dir0 3 * 1) (yj := bLo 1 + dir1 3 * 0) S (by omega) (by omega) (by decide) (by rw [hd0]; simp) (by omega) (by simp)
    have A3 := at3IJ_J (kj := -1) (yi := bLo 0 + dir0 3 * 0) (yj := bLo 1 + dir1 3 * 1) S (by omega) (by omega) (by simp) (by omega) (by decide) (by rw [hd1]; simp)
    exact (S.t2_ends (hβ 0) A1 A2 A3).mono fun m' L k ka kb => continuesSum_of (c := fun a b => [bLo 0 + dir0 3 * a, bLo 1 + dir1 3 * b, k]) (L.el (facePt (bLo 0) (bLo 1) k 0) (by site_mem))
  omega

example : ∃ m', Cuda.setPoissonBc3d 0 7 0 6 0 5 exDx 1 ⟨9, 0⟩ exLo exHi 2 0 2 0 3 5 (fun _ => revBackend) exRat = .ok m' ∧
    ∀ k, max 0 (exLo 2) ≤ k → k ≤ min 5 (exHi 2) → ContinuesSum exRat m' (F.cell3d ⟨9, 0⟩ 0 0 0 7 6 5 1) fun a b => [exLo 0 + dir0 0 * a, exLo 1 + dir1 0 * b, k] :=
  C47_poisson_3d_edge_ij (fun _ => revBackend_ok) (by decide) (by decide) (by decide) (by decide) (by ex_seg) (by decide) (by ex_seg) (by ex_args)

/-- `cd_correct_bc_3d_cuda::set_poisson_bc`, edges along `j`: the ghost cells continue every sum of a function of `i` and a function of `k`. -/
theorem C47_poisson_3d_edge_ik {i0 j0 k0 i1 j1 k1 g exOrder face btype : Int} {dx : Nat → T} { u : Ptr} {bLo bHi : Nat → Int} {alpha beta : T}
    {β : Nat → Backend} {m : Mem T} (hβ : ∀ n, ValidBackend (β n))
    (hi : i0 ≤ i1) (hj : j0 ≤ j1) (hk : k0 ≤ k1) (hg : 0 ≤ g)
    (hs : ∀ n < 3, InInt (bLo n + 1) ∧ InInt (bHi n + 1))
    (hf : 4 ≤ face ∧ face < 8)
    (hn : Reach i0 i1 g (bLo 0) (dir0 face) ∧ Reach k0 k1 g (bLo 2) (dir1 face) ∧ Meets j0 j1 (bLo 1) (bHi 1))
    (h : F.Args m [] [F.cell3d u i0 j0 k0 i1 j1 k1 g]) :
    ∃ m', Cuda.setPoissonBc3d i0 i1 j0 j1 k0 k1 dx g u bLo bHi exOrder face 2 btype alpha beta β m = .ok m' ∧
      ∀ j, max j0 (bLo 1) ≤ j → j ≤ min j1 (bHi 1) →
        ContinuesSum m m' (F.cell3d u i0 j0 k0 i1 j1 k1 g) fun a b => [bLo 0 + dir0 face * a, j, bLo 2 + dir1 face * b] := by
  show Ends _ fun m' => _
  obtain ⟨Au, spu, Iu⟩ := cell3_setup (h.ok (F.cell3d u i0 j0 k0 i1 j1 k1 g) (by simp)) hi hj hk hg
  have hs0 := hs 0 (by decide)
  have hs1 := hs 1 (by decide)
  have hs2 := hs 2 (by decide)
  unfold InInt at Iu hs0 hs1 hs2
  have mkI := mkB_ok (d := .I) (lo := i0) (hi := i1) (by unfold InInt; omega)
  have mkIb := mkB_ok (d := .I) (lo := max (bLo 0) i0) (hi := min (bHi 0) i1) (by unfold InInt; omega)
  have mkIl := mkB_ok (d := .I) (lo := bLo 0) (hi := bLo 0) (by unfold InInt; omega)
  have mkIh := mkB_ok (d := .I) (lo := bHi 0) (hi := bHi 0) (by unfold InInt; omega)
  have mkJ := mkB_ok (d := .J) (lo := j0) (hi := j1) (by unfold InInt; omega)
  have mkJb := mkB_ok (d := .J) (lo := max (bLo 1) j0) (hi := min (bHi 1) j1) (by unfold InInt; omega)
  have mkJl := mkB_ok (d := .J) (lo := bLo 1) (hi := bLo 1) (by unfold InInt; omega)
  have mkJh := mkB_ok (d := .J) (lo := bHi 1) (hi := bHi 1) (by unfold InInt; omega)
  have mkK := mkB_ok (d := .K) (lo := k0) (hi := k1) (by unfold InInt; omega)
  have mkKb := mkB_ok (d := .K) (lo := max (bLo 2) k0) (hi := min (bHi 2) k1) (by unfold InInt; omega)
  have mkKl := mkB_ok (d := .K) (lo := bLo 2) (hi := bLo 2) (by unfold InInt; omega)
  have mkKh := mkB_ok (d := .K) (lo := bHi 2) (hi := bHi 2) (by unfold InInt; omega)
  unfold Cuda.setPoissonBc3d
  refine Ends.bind mkI <| Ends.bind mkJ <| Ends.bind mkK <| Ends.bind spu <| Ends.bind mkIb <| Ends.bind mkJb <| Ends.bind mkKb <| Ends.bind mkIl <| Ends.bind mkIh <| Ends.bind mkJl <| Ends.bind mkJh <| Ends.bind mkKl <| Ends.bind mkKh <| ?_
  rw [if_neg (by decide)]
  rw [if_pos rfl]
  by_cases e4 : face = 4
  · subst e4
    rw [if_neg (by decide), if_neg (by decide), if_neg (by decide), if_neg (by decide), if_pos rfl]
    simp only [Reach, Meets] at hn
    rw [max_comm (bLo 1) j0, min_comm (bHi 1) j1] at *
    have hd0 : dir0 4 = 1 := rfl
    have hd1 : dir1 4 = 1 := rfl
    rw [hd0, hd1] at hn
    have S := site3IK (li := bLo 0) (xi := bLo 0 + dir0 4 * 0) (lk := bLo 2) (xk := bLo 2 + dir1 4 * 0) (aj := max j0 (bLo 1)) (bj := min j1 (bHi 1)) Au (by omega) (by omega) (by omega) (by simp) (by simp)
    have A1 := at3IK_IK (ki := 1) (kk := 1) (yi := bLo 0 + dir0 4 * 1) (yk := bLo 2 + dir1 4 * 1) S (by omega) (by omega) (by decide) (by rw [hd0]; simp) (by omega) (by decide) (by rw [hd1]; simp)
    have A2 := at3IK_I (ki := 1) (yi := bLo 0 + dir0 4 * 1) (yk := bLo 2 + dir1 4 * 0) S (by omega) (by omega) (by decide) (by rw [hd0]; simp) (by omega) (by simp)
    have A3 := at3IK_K (kk := 1) (yi := bLo 0 + dir0 4 * 0) (yk := bLo 2 + dir1 4 * 1) S (by omega) (by omega) (by simp) (by omega) (by decide) (by rw [hd1]; simp)
    exact (S.t2_ends (hβ 0) A1 A2 A3).mono fun m' L j ja jb => continuesSum_of (c := fun a b => [bLo 0 + dir0 4 * a, j, bLo 2 + dir1 4 * b]) (L.el (facePt (bLo 0) j (bLo 2) (bLo 2)) (by site_mem))
  by_cases e5 : face = 5
  · subst e5
    rw [if_neg (by decide), if_neg (by decide), if_neg (by decide), if_neg (by decide), if_neg (by decide), if_pos rfl]
    simp only [Reach, Meets] at hn
    rw [max_comm (bLo 1) j0, min_comm (bHi 1) j1] at *
    have hd0 : dir0 5 = -1 := rfl
    have hd1 : dir1 5 = 1 := rfl
    rw [hd0, hd1] at hn
    have S := site3IK (li := bLo 0) (xi := bLo 0 + dir0 5 * 0) (lk := bLo 2) (xk := bLo 2 + dir1 5 * 0) (aj := max j0 (bLo 1)) (bj := min j1 (bHi 1)) Au (by omega) (by omega) (by omega) (by simp) (by simp)
    have A1 := at3IK_IK (ki := -1) (kk := 1) (yi := bLo 0 + dir0 5 * 1) (yk := bLo 2 + dir1 5 * 1) S (by omega) (by omega) (by decide) (by rw [hd0]; simp) (by omega) (by decide) (by rw [hd1]; simp)
    have A2 := at3IK_I (ki := -1) (yi := bLo 0 + dir0 5 * 1) (yk := bLo 2 + dir1 5 * 0) S (by omega) (by omega) (by decide) (by rw [hd0]; simp) (by omega) (by simp)
    have A3 := at3IK_K (kk := 1) (yi := bLo 0 + dir0 5 * 0) (yk := bLo 2 + dir1 5 * 1) S (by omega) (by omega) (by simp) (by omega) (by decide) (by rw [hd1]; simp)
    exact (S.t2_ends (hβ 0) A1 A2 A3).mono fun m' L j ja jb => continuesSum_of (c := fun a b => [bLo 0 + dir0 5 * a, j, bLo 2 + dir1 5 * b]) (L.el (facePt (bLo 0) j (bLo 2) (bLo 2)) (by site_mem))
  by_cases e6 : face = 6
  · subst e6
    rw [if_neg (by decide), if_neg (by decide), if_neg (by decide), if_neg (by decide), if_neg (by decide), if_neg (by decide), if_pos rfl]
    simp only [Reach, Meets] at hn
    rw [max_comm (bLo 1) j0, min_comm (bHi 1) j1] at *
    have hd0 : dir0 6 = 1 := rfl
    have hd1 : dir1 6 = -1 := rfl
    rw [hd0, hd1] at hn
    have S := site3IK (li := bLo 0) (xi := bLo 0 + dir0 6 * 0) (lk := bLo 2) (xk := bLo 2 + dir1 6 * 0) (aj := max j0 (bLo 1)) (bj := min j1 (bHi 1)) Au (by omega) (by omega) (by omega) (by simp) (by simp)
    have A1 := at3IK_IK (ki := 1) (kk := -1) (yi := bLo 0 + dir0 6 * 1) (yk := bLo 2 + dir1 6 * 1) S (by omega) (by omega) (by decide) (by rw [hd0]; simp) (by omega) (by decide) (by rw [hd1]; simp)
    have A2 := at3IK_I (ki := 1) (yi := bLo 0 + dir0 6 * 1) (yk := bLo 2 + dir1 6 * 0) S (by omega) (by omega) (by decide) (by rw [hd0]; simp) (by omega) (by simp)
    have A3 := at3IK_K (kk := -1) (yi := bLo 0 + dir0 6 * 0) (yk := bLo 2 + dir1 6 * 1) S (by omega) (by omega) (by simp) (by omega) (by decide) (by rw [hd1]; simp)
    exact (S.t2_ends (hβ 0) A1 A2 A3).mono fun m' L j ja jb => continuesSum_of (c := fun a b => [bLo 0 + dir0 6 * a, j, bLo 2 + dir1 6 * b]) (L.el (facePt (bLo 0) j (bLo 2) (bLo 2)) (by site_mem))
  by_cases e7 : face = 7
  · subst e7
    rw [if_neg (by decide), if_neg (by decide), if_neg (by decide), if_neg (by decide), if_neg (by decide), if_neg (by decide), if_neg (by decide), if_pos rfl]
    simp only [Reach, Meets] at hn
    rw [max_comm (bLo 1) j0, min_comm (bHi 1) j1] at *
    have hd0 : dir0 7 = -1 := rfl
    have hd1 : dir1 7 = -1 := rfl
    rw [hd0, hd1] at hn
    have S := site3IK (li := bLo 0) (xi := bLo 0 + dir0 7 * 0) (lk := bLo 2) (xk := bLo 2 + dir1 7 * 0) (aj := max j0 (bLo 1)) (bj := min j1 (bHi 1)) Au (by omega) (by omega) (by omega) (by simp) (by simp)
    have A1 := at3IK_IK (ki := -1) (kk := -1) (yi := bLo 0 + dir0 7 * 1) (yk := bLo 2 + dir1 7 * 1) S (by omega) (by omega) (by decide) (by rw [hd0]; simp) (by omega) (by decide) (by rw [hd1]; simp)
    have A2 := at3IK_I (ki := -1) (yi := bLo 0 + dir0 7 * 1) (yk := bLo 2 + dir1 7 * 0) S (by omega) (by omega) (by decide) (by rw [hd0]; simp) (by omega) (by simp)
    have A3 := at3IK_K (kk := -1) (yi := bLo 0 + dir0 7 * 0) (yk := bLo 2 + dir1 7 * 1) S (by omega) (by omega) (by simp) (by omega) (by decide) (by rw [hd1]; simp)
    exact (S.t2_ends (hβ 0) A1 A2 A3).mono fun m' L j ja jb => continuesSum_of (c := fun a b => [bLo 0 + dir0 7 * a, j, bLo 2 + dir1 7 * b]) (L.el (facePt (bLo 0) j (bLo 2) (bLo 2)) (by site_mem))
  omega

example : ∃ m', Cuda.setPoissonBc3d 0 7 0 6 0 5 exDx 1 ⟨9, 0⟩ exLo exHi 2 4 2 0 3 5 (fun _ => revBackend) exRat = .ok m' ∧
    ∀ j, max 0 (exLo 1) ≤ j → j ≤ min 6 (exHi 1) → ContinuesSum exRat m' (F.cell3d ⟨9, 0⟩ 0 0 0 7 6 5 1) fun a b => [exLo 0 + dir0 4 * a, j, exLo 2 + dir1 4 * b] :=
  C47_poisson_3d_edge_ik (fun _ => revBackend_ok) (by decide) (by decide) (by decide) (by decide) (by ex_seg) (by decide) (by ex_seg) (by ex_args)

/-- `cd_correct_bc_3d_cuda::set_poisson_bc`, edges along `i`: the ghost cells continue every sum of a function of `j` and a function of `k`. -/
theorem C47_poisson_3d_edge_jk {i0 j0 k0 i1 j1 k1 g exOrder face btype : Int} {dx : Nat → T} { u : Ptr} {bLo bHi : Nat → Int} {alpha beta : T}
    {β : Nat → Backend} {m : Mem T} (hβ : ∀ n, ValidBackend (β n))
    (hi : i0 ≤ i1) (hj : j0 ≤ j1) (hk : k0 ≤ k1) (hg : 0 ≤ g)
    (hs : ∀ n < 3, InInt (bLo n + 1) ∧ InInt (bHi n + 1))
    (hf : 8 ≤ face ∧ face < 12)
    (hn : Reach j0 j1 g (bLo 1) (dir0 face) ∧ Reach k0 k1 g (bLo 2) (dir1 face) ∧ Meets i0 i1 (bLo 0) (bHi 0))
    (h : F.Args m [] [F.cell3d u i0 j0 k0 i1 j1 k1 g]) :
    ∃ m', Cuda.setPoissonBc3d i0 i1 j0 j1 k0 k1 dx g u bLo bHi exOrder face 2 btype alpha beta β m = .ok m' ∧
      ∀ i, max i0 (bLo 0) ≤ i → i ≤ min i1 (bHi 0) →
        ContinuesSum m m' (F.cell3d u i0 j0 k0 i1 j1 k1 g) fun a b => [i, bLo 1 + dir0 face * a, bLo 2 + dir1 face * b] := by
  show Ends _ fun m' => _
  obtain ⟨Au, spu, Iu⟩ := cell3_setup (h.ok (F.cell3d u i0 j0 k0 i1 j1 k1 g) (by simp)) hi hj hk hg
  have hs0 := hs 0 (by decide)
  have hs1 := hs 1 (by decide)
  have hs2 := hs 2 (by decide)
  unfold InInt at Iu hs0 hs1 hs2
  have mkI := mkB_ok (d := .I) (lo := i0) (hi := i1) (by unfold InInt; omega)
  have mkIb := mkB_ok (d := .I) (lo := max (bLo 0) i0) (hi := min (bHi 0) i1) (by unfold InInt; omega)
  have mkIl := mkB_ok (d := .I) (lo := bLo 0) (hi := bLo 0) (by unfold InInt; omega)
  have mkIh := mkB_ok (d := .I) (lo := bHi 0) (hi := bHi 0) (by unfold InInt; omega)
  have mkJ := mkB_ok (d := .J) (lo := j0) (hi := j1) (by unfold InInt; omega)
  have mkJb := mkB_ok (d := .J) (lo := max (bLo 1) j0) (hi := min (bHi 1) j1) (by unfold InInt; omega)
  have mkJl := mkB_ok (d := .J) (lo := bLo 1) (hi := bLo 1) (by unfold InInt; omega)
  have mkJh := mkB_ok (d := .J) (lo := bHi 1) (hi := bHi 1) (by unfold InInt; omega)
  have mkK := mkB_ok (d := .K) (lo := k0) (hi := k1) (by unfold InInt; omega)
  have mkKb := mkB_ok (d := .K) (lo := max (bLo 2) k0) (hi := min (bHi 2) k1) (by unfold InInt; omega)
  have mkKl := mkB_ok (d := .K) (lo := bLo 2) (hi := bLo 2) (by unfold InInt; omega)
  have mkKh := mkB_ok (d := .K) (lo := bHi 2) (hi := bHi 2) (by unfold InInt; omega)
  unfold Cuda.setPoissonBc3d
  refine Ends.bind mkI <| Ends.bind mkJ <| Ends.bind mkK <| Ends.bind spu <| Ends.bind mkIb <| Ends.bind mkJb <| Ends.bind mkKb <| Ends.bind mkIl <| Ends.bind mkIh <| Ends.bind mkJl <| Ends.bind mkJh <| Ends.bind mkKl <| Ends.bind mkKh <| ?_
  rw [if_neg (by decide)]
  rw [if_pos rfl]
  by_cases e8 : face = 8
  · subst e8
    rw [if_neg (by decide), if_neg (by decide), if_neg (by decide), if_neg (by decide), if_neg (by decide), if_neg (by decide), if_neg (by decide), if_neg (by decide), if_pos rfl]
    simp only [Reach, Meets] at hn
    rw [max_comm (bLo 0) i0, min_comm (bHi 0) i1] at *
    have hd0 : dir0 8 = 1 := rfl
    have hd1 : dir1 8 = 1 := rfl
    rw [hd0, hd1] at hn
    have S := site3JK (lj := bLo 1) (xj := bLo 1 + dir0 8 * 0) (lk := bLo 2) (xk := bLo 2 + dir1 8 * 0) (ai := max i0 (bLo 0)) (bi := min i1 (bHi 0)) Au (by omega) (by omega) (by omega) (by simp) (by simp)
    have A1 := at3JK_JK (kj := 1) (kk := 1) (yj := bLo 1 + dir0 8 * 1) (yk := bLo 2 + dir1 8 * 1) S (by omega) (by omega) (by decide) (by rw [hd0]; simp) (by omega) (by decide) (by rw [hd1]; simp)
    have A2 := at3JK_J (kj := 1) (yj := bLo 1 + dir0 8 * 1) (yk := bLo 2 + dir1 8 * 0) S (by omega) (by omega) (by decide) (by rw [hd0]; simp) (by omega) (by simp)
    have A3 := at3JK_K (kk := 1) (yj := bLo 1 + dir0 8 * 0) (yk := bLo 2 + dir1 8 * 1) S (by omega) (by omega) (by simp) (by omega) (by decide) (by rw [hd1]; simp)
    exact (S.t2_ends (hβ 0) A1 A2 A3).mono fun m' L i ia ib => continuesSum_of (c := fun a b => [i, bLo 1 + dir0 8 * a, bLo 2 + dir1 8 * b]) (L.el (facePt i (bLo 1) (bLo 2) (bLo 2)) (by site_mem))
  by_cases e9 : face = 9
  · subst e9
    rw [if_neg (by decide), if_neg (by decide), if_neg (by decide), if_neg (by decide), if_neg (by decide), if_neg (by decide), if_neg (by decide), if_neg (by decide), if_neg (by decide), if_pos rfl]
    simp only [Reach, Meets] at hn
    rw [max_comm (bLo 0) i0, min_comm (bHi 0) i1] at *
    have hd0 : dir0 9 = -1 := rfl
    have hd1 : dir1 9 = 1 := rfl
    rw [hd0, hd1] at hn
    have S := site3JK (lj := bLo 1) (xj := bLo 1 + dir0 9 * 0) (lk := bLo 2) (xk := bLo 2 + dir1 9 * 0) (ai := max i0 (bLo 0)) (bi := min i1 (bHi 0)) Au (by omega) (by omega) (by omega) (by simp) (by simp)
    have A1 := at3JK_JK (kj := -1) (kk := 1) (yj := bLo 1 + dir0 9 * 1) (yk := bLo 2 + dir1 9 * 1) S (by omega) (by omega) (by decide) (by rw [hd0]; simp) (by omega) (by decide) (by rw [hd1]; simp)
    have A2 := at3JK_J (kj := -1) (yj := bLo 1 + dir0 9 * 1) (yk := bLo 2 + dir1 9 * 0) S (by omega) (by omega) (by decide) (by rw [hd0]; simp) (by omega) (by simp)
    have A3 := at3JK_K (kk := 1) (yj := bLo 1 + dir0 9 * 0) (yk := bLo 2 + dir1 9 * 1) S (by omega) (by omega) (by simp) (by omega) (by decide) (by rw [hd1]; simp)
    exact (S.t2_ends (hβ 0) A1 A2 A3).mono fun m' L i ia ib => continuesSum_of (c := fun a b => [i, bLo 1 + dir0 9 * a, bLo 2 + dir1 9 * b]) (L.el (facePt i (bLo 1) (bLo 2) (bLo 2)) (by site_mem))
  by_cases e10 : face = 10
  · subst e10
    rw [if_neg (by decide), if_neg (by decide), if_neg (by decide), if_neg (by decide), if_neg (by decide), if_neg (by decide), if_neg (by decide), if_neg (by decide), if_neg (by decide), if_neg (by decide), if_pos rfl]
    simp only [Reach, Meets] at hn
    rw [max_comm (bLo 0) i0, min_comm (bHi 0) i1] at *
    have hd0 : dir0 10 = 1 := rfl
    have hd1 : dir1 10 = -1 := rfl
    rw [hd0, hd1] at hn
    have S := site3JK (lj := bLo 1) (xj := bLo 1 + dir0 10 * 0) (lk := bLo 2) (xk := bLo 2 + dir1 10 * 0) (ai := max i0 (bLo 0)) (bi := min i1 (bHi 0)) Au (by omega) (by omega) (by omega) (by simp) (by simp)
    have A1 := at3JK_JK (kj := 1) (kk := -1) (yj := bLo 1 + dir0 10 * 1) (yk := bLo 2 + dir1 10 * 1) S (by omega) (by omega) (by decide) (by rw [hd0]; simp) (by omega) (by decide) (by rw [hd1]; simp)
    have A2 := at3JK_J (kj := 1) (yj := bLo 1 + dir0 10 * 1) (yk := bLo 2 + dir1 10 * 0) S (by omega) (by omega) (by decide) (by rw [hd0]; simp) (by omega) (by simp)
    have A3 := at3JK_K (kk := -1) (yj := bLo 1 + dir0 10 * 0) (yk := bLo 2 + dir1 10 * 1) S (by omega) (by omega) (by simp) (by omega) (by decide) (by rw [hd1]; simp)
    exact (S.t2_ends (hβ 0) A1 A2 A3).mono fun m' L i ia ib => continuesSum_of (c := fun a b => [i, bLo 1 + dir0 10 * a, bLo 2 + dir1 10 * b]) (L.el (facePt i (bLo 1) (bLo 2) (bLo 2)) (by site_mem))
  by_cases e11 : face = 11
  · subst e11
    rw [if_neg (by decide), if_neg (by decide), if_neg (by decide), if_neg (by decide), if_neg (by decide), if_neg (by decide), if_neg (by decide), if_neg (by decide), if_neg (by decide), if_neg (by decide), if_neg (by decide), if_pos rfl]
    simp only [Reach, Meets] at hn
    rw [max_comm (bLo 0) i0, min_comm (bHi 0) i1] at *
    have hd0 : dir0 11 = -1 := rfl
    have hd1 : dir1 11 = -1 := rfl
    rw [hd0, hd1] at hn
    have S := site3JK (lj := bLo 1) (xj := bLo 1 + dir0 11 * 0) (lk := bLo 2) (xk := bLo 2 + dir1 11 * 0) (ai := max i0 (bLo 0)) (bi := min i1 (bHi 0)) Au (by omega) (by omega) (by omega) (by simp) (by simp)
    have A1 := at3JK_JK (kj := -1) (kk := -1) (yj := bLo 1 + dir0 11 * 1) (yk := bLo 2 + dir1 11 * 1) S (by omega) (by omega) (by decide) (by rw [hd0]; simp) (by omega) (by decide) (by rw [hd1]; simp)
    have A2 := at3JK_J (kj := -1) (yj := bLo 1 + dir0 11 * 1) (yk := bLo 2 + dir1 11 * 0) S (by omega) (by omega) (by decide) (by rw [hd0]; simp) (by omega) (by simp)
    have A3 := at3JK_K (kk := -1) (yj := bLo 1 + dir0 11 * 0) (yk := bLo 2 + dir1 11 * 1) S (by omega) (by omega) (by simp) (by omega) (by decide) (by rw [hd1]; simp)
    exact (S.t2_ends (hβ 0) A1 A2 A3).mono fun m' L i ia ib => continuesSum_of (c := fun a b => [i, bLo 1 + dir0 11 * a, bLo 2 + dir1 11 * b]) (L.el (facePt i (bLo 1) (bLo 2) (bLo 2)) (by site_mem))
  omega

example : ∃ m', Cuda.setPoissonBc3d 0 7 0 6 0 5 exDx 1 ⟨9, 0⟩ exLo exHi 2 8 2 0 3 5 (fun _ => revBackend) exRat = .ok m' ∧
    ∀ i, max 0 (exLo 0) ≤ i → i ≤ min 7 (exHi 0) → ContinuesSum exRat m' (F.cell3d ⟨9, 0⟩ 0 0 0 7 6 5 1) fun a b => [i, exLo 1 + dir0 8 * a, exLo 2 + dir1 8 * b] :=
  C47_poisson_3d_edge_jk (fun _ => revBackend_ok) (by decide) (by decide) (by decide) (by decide) (by ex_seg) (by decide) (by ex_seg) (by ex_args)

/-- `cd_correct_bc_3d_cuda::set_poisson_bc`, nodes: the ghost cell continues every sum of a function of `i` and a function of `j`, in the plane of the node. -/
theorem C47_poisson_3d_node {i0 j0 k0 i1 j1 k1 g exOrder face btype : Int} {dx : Nat → T} { u : Ptr} {bLo bHi : Nat → Int} {alpha beta : T}
    {β : Nat → Backend} {m : Mem T} (hβ : ∀ n, ValidBackend (β n))
    (hi : i0 ≤ i1) (hj : j0 ≤ j1) (hk : k0 ≤ k1) (hg : 0 ≤ g)
    (hs : ∀ n < 3, InInt (bLo n + 1) ∧ InInt (bHi n + 1))
    (hf : 0 ≤ face ∧ face < 8)
    (hn : Reach i0 i1 g (bLo 0) (dir0 face) ∧ Reach j0 j1 g (bLo 1) (dir1 face) ∧ Reach k0 k1 g (bLo 2) 0)
    (h : F.Args m [] [F.cell3d u i0 j0 k0 i1 j1 k1 g]) :
    ∃ m', Cuda.setPoissonBc3d i0 i1 j0 j1 k0 k1 dx g u bLo bHi exOrder face 3 btype alpha beta β m = .ok m' ∧
      ContinuesSum m m' (F.cell3d u i0 j0 k0 i1 j1 k1 g) fun a b => [bLo 0 + dir0 face * a, bLo 1 + dir1 face * b, bLo 2] := by
  show Ends _ fun m' => _
  obtain ⟨Au, spu, Iu⟩ := cell3_setup (h.ok (F.cell3d u i0 j0 k0 i1 j1 k1 g) (by simp)) hi hj hk hg
  have hs0 := hs 0 (by decide)
  have hs1 := hs 1 (by decide)
  have hs2 := hs 2 (by decide)
  unfold InInt at Iu hs0 hs1 hs2
  have mkI := mkB_ok (d := .I) (lo := i0) (hi := i1) (by unfold InInt; omega)
  have mkIb := mkB_ok (d := .I) (lo := max (bLo 0) i0) (hi := min (bHi 0) i1) (by unfold InInt; omega)
  have mkIl := mkB_ok (d := .I) (lo := bLo 0) (hi := bLo 0) (by unfold InInt; omega)
  have mkIh := mkB_ok (d := .I) (lo := bHi 0) (hi := bHi 0) (by unfold InInt; omega)
  have mkJ := mkB_ok (d := .J) (lo := j0) (hi := j1) (by unfold InInt; omega)
  have mkJb := mkB_ok (d := .J) (lo := max (bLo 1) j0) (hi := min (bHi 1) j1) (by unfold InInt; omega)
  have mkJl := mkB_ok (d := .J) (lo := bLo 1) (hi := bLo 1) (by unfold InInt; omega)
  have mkJh := mkB_ok (d := .J) (lo := bHi 1) (hi := bHi 1) (by unfold InInt; omega)
  have mkK := mkB_ok (d := .K) (lo := k0) (hi := k1) (by unfold InInt; omega)
  have mkKb := mkB_ok (d := .K) (lo := max (bLo 2) k0) (hi := min (bHi 2) k1) (by unfold InInt; omega)
  have mkKl := mkB_ok (d := .K) (lo := bLo 2) (hi := bLo 2) (by unfold InInt; omega)
  have mkKh := mkB_ok (d := .K) (lo := bHi 2) (hi := bHi 2) (by unfold InInt; omega)
  unfold Cuda.setPoissonBc3d
  refine Ends.bind mkI <| Ends.bind mkJ <| Ends.bind mkK <| Ends.bind spu <| Ends.bind mkIb <| Ends.bind mkJb <| Ends.bind mkKb <| Ends.bind mkIl <| Ends.bind mkIh <| Ends.bind mkJl <| Ends.bind mkJh <| Ends.bind mkKl <| Ends.bind mkKh <| ?_
  rw [if_neg (by decide)]
  rw [if_neg (by decide)]
  rw [if_pos rfl]
  by_cases e0 : face = 0 ∨ face = 4
  · have hd0 : dir0 face = 1 := by rcases e0 with rfl | rfl <;> rfl
    have hd1 : dir1 face = 1 := by rcases e0 with rfl | rfl <;> rfl
    rw [if_pos e0]
    simp only [Reach] at hn
    rw [hd0, hd1] at hn
    have S := site3IJK (li := bLo 0) (xi := bLo 0 + dir0 face * 0) (lj := bLo 1) (xj := bLo 1 + dir1 face * 0) (lk := bLo 2) (xk := bLo 2) Au (by omega) (by omega) (by omega) (by simp) (by simp) rfl
    have A1 := at3IJK_IJ (ki := 1) (kj := 1) (yi := bLo 0 + dir0 face * 1) (yj := bLo 1 + dir1 face * 1) (yk := bLo 2) S (by omega) (by decide) (by rw [hd0]; simp) (by omega) (by decide) (by rw [hd1]; simp) (by omega) (by omega)
    have A2 := at3IJK_I (ki := 1) (yi := bLo 0 + dir0 face * 1) (yj := bLo 1 + dir1 face * 0) (yk := bLo 2) S (by omega) (by decide) (by rw [hd0]; simp) (by omega) (by simp) (by omega) (by omega)
    have A3 := at3IJK_J (kj := 1) (yi := bLo 0 + dir0 face * 0) (yj := bLo 1 + dir1 face * 1) (yk := bLo 2) S (by omega) (by simp) (by omega) (by decide) (by rw [hd1]; simp) (by omega) (by omega)
    exact (S.t2_ends (hβ 0) A1 A2 A3).mono fun m' L => continuesSum_of (c := fun a b => [bLo 0 + dir0 face * a, bLo 1 + dir1 face * b, bLo 2]) (L.el _ (List.mem_singleton.2 rfl))
  by_cases e1 : face = 1 ∨ face = 5
  · have hd0 : dir0 face = -1 := by rcases e1 with rfl | rfl <;> rfl
    have hd1 : dir1 face = 1 := by rcases e1 with rfl | rfl <;> rfl
    rw [if_neg e0, if_pos e1]
    simp only [Reach] at hn
    rw [hd0, hd1] at hn
    have S := site3IJK (li := bLo 0) (xi := bLo 0 + dir0 face * 0) (lj := bLo 1) (xj := bLo 1 + dir1 face * 0) (lk := bLo 2) (xk := bLo 2) Au (by omega) (by omega) (by omega) (by simp) (by simp) rfl
    have A1 := at3IJK_IJ (ki := -1) (kj := 1) (yi := bLo 0 + dir0 face * 1) (yj := bLo 1 + dir1 face * 1) (yk := bLo 2) S (by omega) (by decide) (by rw [hd0]; simp) (by omega) (by decide) (by rw [hd1]; simp) (by omega) (by omega)
    have A2 := at3IJK_I (ki := -1) (yi := bLo 0 + dir0 face * 1) (yj := bLo 1 + dir1 face * 0) (yk := bLo 2) S (by omega) (by decide) (by rw [hd0]; simp) (by omega) (by simp) (by omega) (by omega)
    have A3 := at3IJK_J (kj := 1) (yi := bLo 0 + dir0 face * 0) (yj := bLo 1 + dir1 face * 1) (yk := bLo 2) S (by omega) (by simp) (by omega) (by decide) (by rw [hd1]; simp) (by omega) (by omega)
    exact (S.t2_ends (hβ 0) A1 A2 A3).mono fun m' L => continuesSum_of (c := fun a b => [bLo 0 + dir0 face * a, bLo 1 + dir1 face * b, bLo 2]) (L.el _ (List.mem_singleton.2 rfl))
  by_cases e2 : face = 2 ∨ face = 6
  · have hd0 : dir0 face = 1 := by rcases e2 with rfl | rfl <;> rfl
    have hd1 : dir1 face = -1 := by rcases e2 with rfl | rfl <;> rfl
    rw [if_neg e0, if_neg e1, if_pos e2]
    simp only [Reach] at hn
    rw [hd0, hd1] at hn
    have S := site3IJK (li := bLo 0) (xi := bLo 0 + dir0 face * 0) (lj := bLo 1) (xj := bLo 1 + dir1 face * 0) (lk := bLo 2) (xk := bLo 2) Au (by omega) (by omega) (by omega) (by simp) (by simp) rfl
    have A1 := at3IJK_IJ (ki := 1) (kj := -1) (yi := bLo 0 + dir0 face * 1) (yj := bLo 1 + dir1 face * 1) (yk := bLo 2) S (by omega) (by decide) (by rw [hd0]; simp) (by omega) (by decide) (by rw [hd1]; simp) (by omega) (by omega)
    have A2 := at3IJK_I (ki := 1) (yi := bLo 0 + dir0 face * 1) (yj := bLo 1 + dir1 face * 0) (yk := bLo 2) S (by omega) (by decide) (by rw [hd0]; simp) (by omega) (by simp) (by omega) (by omega)
    have A3 := at3IJK_J (kj := -1) (yi := bLo 0 + dir0 face * 0) (yj := bLo 1 + dir1 face * 1) (yk := bLo 2) S (by omega) (by simp) (by omega) (by decide) (by rw [hd1]; simp) (by omega) (by omega)
    exact (S.t2_ends (hβ 0) A1 A2 A3).mono fun m' L => continuesSum_of (c := fun a b => [bLo 0 + dir0 face * a, bLo 1 + dir1 face * b, bLo 2]) (L.el _ (List.mem_singleton.2 rfl))
  by_cases e3 : face = 3 ∨ face = 7
  · have hd0 : dir0 face = -1 := by rcases e3 with rfl | rfl <;> rfl
    have hd1 : dir1 face = -1 := by rcases e3 with rfl | rfl <;> rfl
    rw [if_neg e0, if_neg e1, if_neg e2, if_pos e3]
    simp only [Reach] at hn
    rw [hd0, hd1] at hn
    have S := site3IJK (li := bLo 0) (xi := bLo 0 + dir0 face * 0) (lj := bLo 1) (xj := bLo 1 + dir1 face * 0) (lk := bLo 2) (xk := bLo 2) Au (by omega) (by omega) (by omega) (by simp) (by simp) rfl
    have A1 := at3IJK_IJ (ki := -1) (kj := -1) (yi := bLo 0 + dir0 face * 1) (yj := bLo 1 + dir1 face * 1) (yk := bLo 2) S (by omega) (by decide) (by rw [hd0]; simp) (by omega) (by decide) (by rw [hd1]; simp) (by omega) (by omega)
    have A2 := at3IJK_I (ki := -1) (yi := bLo 0 + dir0 face * 1) (yj := bLo 1 + dir1 face * 0) (yk := bLo 2) S (by omega) (by decide) (by rw [hd0]; simp) (by omega) (by simp) (by omega) (by omega)
    have A3 := at3IJK_J (kj := -1) (yi := bLo 0 + dir0 face * 0) (yj := bLo 1 + dir1 face * 1) (yk := bLo 2) S (by omega) (by simp) (by omega) (by decide) (by rw [hd1]; simp) (by omega) (by omega)
    exact (S.t2_ends (hβ 0) A1 A2 A3).mono fun m' L => continuesSum_of (c := fun a b => [bLo 0 + dir0 face * a, bLo 1 + dir1 face * b, bLo 2]) (L.el _ (List.mem_singleton.2 rfl))
  omega

example : ∃ m', Cuda.setPoissonBc3d 0 7 0 6 0 5 exDx 1 ⟨9, 0⟩ exLo exHi 2 0 3 0 3 5 (fun _ => revBackend) exRat = .ok m' ∧
    ContinuesSum exRat m' (F.cell3d ⟨9, 0⟩ 0 0 0 7 6 5 1) fun a b => [exLo 0 + dir0 0 * a, exLo 1 + dir1 0 * b, exLo 2] :=
  C47_poisson_3d_node (fun _ => revBackend_ok) (by decide) (by decide) (by decide) (by decide) (by ex_seg) (by decide) (by ex_seg) (by ex_args)

end Verif
