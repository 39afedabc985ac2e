import Verif.Lemmas.BcHom
import Verif.Spec.Segment
import Verif.Lemmas.Rounded

/-
C49: the boundary condition kernels and their Fortran routines in arithmetic without laws.
-/

namespace Verif
open Spec

variable {T : Type} [Zero T] [One T] [NatCast T] [Add T] [Sub T] [Mul T] [Div T] [Neg T]

theorem Both.ite {p : Prop} [Decidable p] {a b : M (Mem T)} {f g : F.Cmd T} {m : Mem T} (h1 : p → Both a f m) (h2 : ¬ p → Both b g m) :
    Both (if p then a else b) (if p then f else g) m := by
  by_cases hp : p
  · rw [if_pos hp, if_pos hp]; exact h1 hp
  · rw [if_neg hp, if_neg hp]; exact h2 hp

/-- constants the routine computes with `b = 1` -/
macro "bc_coef" L:term : tactic => `(tactic| first | rfl | (simp only [($L).mul_one]; done) | (simp only [($L).mul_one, ($L).add_comm]; done))

/-- lower corner of the segment in the examples: on the ghost layer along the first axis, inside the box along the others -/
def exLo : Nat → Int
  | 0 => -1
  | n => n

/-- upper corner of the segment in the examples -/
def exHi : Nat → Int
  | 0 => 8
  | n => n + 3

/-- closes a hypothesis about a concrete segment -/
macro "ex_seg" : tactic => `(tactic| (
  simp only [Reach, OnFaces, Part, Meets, dir0, dir1, InInt]
  decide +kernel))

/-- `cd_correct_bc_1d_cuda::set_bc` and `cellsetcorrectionbc1d` leave the same memory in every arithmetic that obeys the laws rounding keeps, for every face, boundary type, order and schedule. -/
theorem C49_bc_1d {i0 i1 g dg exOrder face btype : Int} {dx : Nat → T} {d0 u : Ptr} {bLo bHi : Nat → Int} {alpha beta : T}
    {β : Nat → Backend} {m : Mem T} (hβ : ∀ n, ValidBackend (β n)) (L : Rounding T)
    (hi : i0 ≤ i1) (hg : 0 ≤ g) (hdg : 0 ≤ dg)
    (hs : ∀ n < 1, InInt (bLo n + 1) ∧ InInt (bHi n + 1))
    (hf0 : face = 0 → Reach i0 i1 g (bLo 0) 2 ∧ OnFaces i0 i1 dg (bLo 0 + 1))
    (hf1 : face = 1 → Reach i0 i1 g (bHi 0) (-2) ∧ OnFaces i0 i1 dg (bHi 0))
    (h : F.Args m [F.face1d d0 i0 i1 dg] [F.cell1d u i0 i1 g]) :
    ∃ m', Cuda.setBc1d i0 i1 dx dg d0 g u bLo bHi exOrder face btype alpha beta β m = .ok m' ∧
      F.cellsetcorrectionbc1d i0 i1 dx dg d0 g u bLo bHi exOrder face btype alpha beta m = .ok m' := by
  obtain ⟨Au, spu, Iu⟩ := cell1_setup (h.ok (F.cell1d u i0 i1 g) (by simp)) hi hg
  obtain ⟨Ad0, pl0, sp0⟩ := faceG1_setup (h.ok (F.face1d d0 i0 i1 dg) (by simp)) hi hdg
  have Pd0 : Apart (sCell1 u i0 i1 g) (sFaceG1 d0 i0 i1 dg) := apart_of farr_cell1 farr_faceG1 (h.apart _ (by simp) _ (by simp))
  have hs0 := hs 0 (by decide)
  unfold InInt at Iu hs0
  have mkI := mkB_ok (d := .I) (lo := i0) (hi := i1) (by unfold InInt; omega)
  have mkIb := mkB_ok (d := .I) (lo := max (bLo 0) i0) (hi := min (bHi 0) i1) (by unfold InInt; omega)
  have mkIl := mkB_ok (d := .I) (lo := bLo 0) (hi := bLo 0) (by unfold InInt; omega)
  have mkIh := mkB_ok (d := .I) (lo := bHi 0) (hi := bHi 0) (by unfold InInt; omega)
  show Both _ (F.cellsetcorrectionbc1d i0 i1 dx dg d0 g u bLo bHi exOrder face btype alpha beta) m
  unfold Cuda.setBc1d F.cellsetcorrectionbc1d
  refine Both.bind mkI <| Both.bind pl0 <| Both.bind sp0 <| Both.bind spu <| Both.bind mkIb <| Both.bind mkIl <| Both.bind mkIh <| ?_
  refine Both.ite (fun e0 => ?_) (fun e0 => ?_)
  · obtain ⟨⟨⟨r1, r2⟩, r3, r4⟩, ⟨c1, c2⟩⟩ := hf0 e0
    have S := site1I (li := bLo 0) (xi := bLo 0 + 1 - 1)  Au (by omega) (by omega)
    have A1 := at1I_I (ki := 1) (yi := bLo 0 + 1) S  (by omega) (by decide) (by omega)
    have A2 := at1I_I (ki := 2) (yi := bLo 0 + 1 + 1) S  (by omega) (by decide) (by omega)
    have Ad := at1I_d1 (yi := bLo 0 + 1) S Ad0 Pd0  (by omega) (by omega)
    exact S.t1 L (hβ 0) A1 A2 Ad
  refine Both.ite (fun e1 => ?_) (fun e1 => ?_)
  · obtain ⟨⟨⟨r1, r2⟩, r3, r4⟩, ⟨c1, c2⟩⟩ := hf1 e1
    have S := site1I (li := bHi 0) (xi := bHi 0 - 1 + 1)  Au (by omega) (by omega)
    have A1 := at1I_I (ki := -1) (yi := bHi 0 - 1) S  (by omega) (by decide) (by omega)
    have A2 := at1I_I (ki := -2) (yi := bHi 0 - 1 - 1) S  (by omega) (by decide) (by omega)
    have Ad := at1I_d0 (yi := bHi 0 - 1 + 1) S Ad0 Pd0  (by omega) (by omega)
    exact S.t1 L (hβ 0) A1 A2 Ad
  exact Both.skip

set_option maxHeartbeats 1000000 in
example : ∃ m', Cuda.setBc1d 0 7 exDxB 1 ⟨0, 0⟩ 1 ⟨1, 0⟩ exLo exHi 2 0 1 3 5 (fun _ => revBackend) exB64 = .ok m' ∧
    F.cellsetcorrectionbc1d 0 7 exDxB 1 ⟨0, 0⟩ 1 ⟨1, 0⟩ exLo exHi 2 0 1 3 5 exB64 = .ok m' :=
  C49_bc_1d (fun _ => revBackend_ok) B64.rounding (by decide) (by decide) (by decide) (by ex_seg) (by ex_seg) (by ex_seg) (by ex_argsB)

/-- `cd_correct_bc_1d_cuda::set_poisson_bc` and `cellsetpoissoncorrectionbc1d` leave the same memory in every arithmetic that obeys the laws rounding keeps, for every face, boundary type, order and schedule. -/
theorem C49_poisson_bc_1d {i0 i1 g exOrder face btype : Int} {dx : Nat → T} { u : Ptr} {bLo bHi : Nat → Int} {alpha beta : T}
    {β : Nat → Backend} {m : Mem T} (hβ : ∀ n, ValidBackend (β n)) (L : Rounding T)
    (hi : i0 ≤ i1) (hg : 0 ≤ g)
    (hs : ∀ n < 1, InInt (bLo n + 1) ∧ InInt (bHi n + 1))
    (hf0 : face = 0 → Reach i0 i1 g (bLo 0) 2)
    (hf1 : face = 1 → Reach i0 i1 g (bHi 0) (-2))
    (h : F.Args m [] [F.cell1d u i0 i1 g]) :
    ∃ m', Cuda.setPoissonBc1d i0 i1 dx g u bLo bHi exOrder face btype alpha beta β m = .ok m' ∧
      F.cellsetpoissoncorrectionbc1d i0 i1 dx g u bLo bHi exOrder face btype alpha beta m = .ok m' := by
  obtain ⟨Au, spu, Iu⟩ := cell1_setup (h.ok (F.cell1d u i0 i1 g) (by simp)) hi hg
  have hs0 := hs 0 (by decide)
  unfold InInt at Iu hs0
  have mkI := mkB_ok (d := .I) (lo := i0) (hi := i1) (by unfold InInt; omega)
  have mkIb := mkB_ok (d := .I) (lo := max (bLo 0) i0) (hi := min (bHi 0) i1) (by unfold InInt; omega)
  have mkIl := mkB_ok (d := .I) (lo := bLo 0) (hi := bLo 0) (by unfold InInt; omega)
  have mkIh := mkB_ok (d := .I) (lo := bHi 0) (hi := bHi 0) (by unfold InInt; omega)
  show Both _ (F.cellsetpoissoncorrectionbc1d i0 i1 dx g u bLo bHi exOrder face btype alpha beta) m
  unfold Cuda.setPoissonBc1d F.cellsetpoissoncorrectionbc1d
  refine Both.bind mkI <| Both.bind spu <| Both.bind mkIb <| Both.bind mkIl <| Both.bind mkIh <| ?_
  refine Both.ite (fun e0 => ?_) (fun e0 => ?_)
  · obtain ⟨⟨r1, r2⟩, r3, r4⟩ := hf0 e0
    have S := site1I (li := bLo 0) (xi := bLo 0 + 1 - 1)  Au (by omega) (by omega)
    have A1 := at1I_I (ki := 1) (yi := bLo 0 + 1) S  (by omega) (by decide) (by omega)
    have A2 := at1I_I (ki := 2) (yi := bLo 0 + 1 + 1) S  (by omega) (by decide) (by omega)
    exact S.q1 L (hβ 0) A1 A2 (by bc_coef L) (by bc_coef L) (by bc_coef L)
  refine Both.ite (fun e1 => ?_) (fun e1 => ?_)
  · obtain ⟨⟨r1, r2⟩, r3, r4⟩ := hf1 e1
    have S := site1I (li := bHi 0) (xi := bHi 0 - 1 + 1)  Au (by omega) (by omega)
    have A1 := at1I_I (ki := -1) (yi := bHi 0 - 1) S  (by omega) (by decide) (by omega)
    have A2 := at1I_I (ki := -2) (yi := bHi 0 - 1 - 1) S  (by omega) (by decide) (by omega)
    exact S.q1 L (hβ 0) A1 A2 (by bc_coef L) (by bc_coef L) (by bc_coef L)
  exact Both.skip

set_option maxHeartbeats 1000000 in
example : ∃ m', Cuda.setPoissonBc1d 0 7 exDxB 1 ⟨1, 0⟩ exLo exHi 2 1 1 3 5 (fun _ => revBackend) exB64 = .ok m' ∧
    F.cellsetpoissoncorrectionbc1d 0 7 exDxB 1 ⟨1, 0⟩ exLo exHi 2 1 1 3 5 exB64 = .ok m' :=
  C49_poisson_bc_1d (fun _ => revBackend_ok) B64.rounding (by decide) (by decide) (by ex_seg) (by ex_seg) (by ex_seg) (by ex_argsB)

/-- `cd_correct_bc_2d_cuda::set_bc` and `cellsetcorrectionbc2d` leave the same memory in every arithmetic that obeys the laws rounding keeps, and on edges and corners also where a sum of three terms may be taken in either order, for every type, face, boundary type, order and schedule, when the segment
lies along the box; `C35_2d_segment_false` is the case where it does not. -/
theorem C49_bc_2d_partial {i0 j0 i1 j1 g dg exOrder face type btype : Int} {dx : Nat → T} {d0 d1 u : Ptr} {bLo bHi : Nat → Int} {alpha beta : T}
    {β : Nat → Backend} {m : Mem T} (hβ : ∀ n, ValidBackend (β n)) (L : Rounding T)
    (lt : type = 2 → ∀ x y z : T, y + z - x = -x + z + y)
    (hi : i0 ≤ i1) (hj : j0 ≤ j1) (hg : 0 ≤ g) (hdg : 0 ≤ dg)
    (hs : ∀ n < 2, InInt (bLo n + 1) ∧ InInt (bHi n + 1))
    (hf0 : type = 1 → face = 0 → Reach i0 i1 g (bLo 0) 2 ∧ OnFaces i0 i1 dg (bLo 0 + 1) ∧ Part j0 j1 (bLo 1) (bHi 1))
    (hf1 : type = 1 → face = 1 → Reach i0 i1 g (bHi 0) (-2) ∧ OnFaces i0 i1 dg (bHi 0) ∧ Part j0 j1 (bLo 1) (bHi 1))
    (hf2 : type = 1 → face = 2 → Reach j0 j1 g (bLo 1) 2 ∧ OnFaces j0 j1 dg (bLo 1 + 1) ∧ Part i0 i1 (bLo 0) (bHi 0))
    (hf3 : type = 1 → face = 3 → Reach j0 j1 g (bHi 1) (-2) ∧ OnFaces j0 j1 dg (bHi 1) ∧ Part i0 i1 (bLo 0) (bHi 0))
    (hn : type = 2 → 0 ≤ face → face < 4 → Reach i0 i1 g (if face % 2 = 0 then bLo 0 else bHi 0) (dir0 face) ∧
      Reach j0 j1 g (if face < 2 then bLo 1 else bHi 1) (dir1 face))
    (h : F.Args m [F.face2d0 d0 i0 j0 i1 j1 dg, F.face2d1 d1 i0 j0 i1 j1 dg] [F.cell2d u i0 j0 i1 j1 g]) :
    ∃ m', Cuda.setBc2d i0 i1 j0 j1 dx dg d0 d1 g u bLo bHi exOrder face type btype alpha beta β m = .ok m' ∧
      F.cellsetcorrectionbc2d i0 i1 j0 j1 dx dg d0 d1 g u bLo bHi exOrder face type btype alpha beta m = .ok m' := by
  obtain ⟨Au, spu, Iu⟩ := cell2_setup (h.ok (F.cell2d u i0 j0 i1 j1 g) (by simp)) hi hj hg
  obtain ⟨Ad0, pl0, sp0⟩ := faceG20_setup (h.ok (F.face2d0 d0 i0 j0 i1 j1 dg) (by simp)) hi hj hdg
  have Pd0 : Apart (sCell2 u i0 j0 i1 j1 g) (sFaceG20 d0 i0 j0 i1 j1 dg) := apart_of farr_cell2 farr_faceG20 (h.apart _ (by simp) _ (by simp))
  obtain ⟨Ad1, pl1, sp1⟩ := faceG21_setup (h.ok (F.face2d1 d1 i0 j0 i1 j1 dg) (by simp)) hi hj hdg
  have Pd1 : Apart (sCell2 u i0 j0 i1 j1 g) (sFaceG21 d1 i0 j0 i1 j1 dg) := apart_of farr_cell2 farr_faceG21 (h.apart _ (by simp) _ (by simp))
  have hs0 := hs 0 (by decide)
  have hs1 := hs 1 (by decide)
  unfold InInt at Iu hs0 hs1
  have mkI := mkB_ok (d := .I) (lo := i0) (hi := i1) (by unfold InInt; omega)
  have mkIb := mkB_ok (d := .I) (lo := max (bLo 0) i0) (hi := min (bHi 0) i1) (by unfold InInt; omega)
  have mkIl := mkB_ok (d := .I) (lo := bLo 0) (hi := bLo 0) (by unfold InInt; omega)
  have mkIh := mkB_ok (d := .I) (lo := bHi 0) (hi := bHi 0) (by unfold InInt; omega)
  have mkJ := mkB_ok (d := .J) (lo := j0) (hi := j1) (by unfold InInt; omega)
  have mkJb := mkB_ok (d := .J) (lo := max (bLo 1) j0) (hi := min (bHi 1) j1) (by unfold InInt; omega)
  have mkJl := mkB_ok (d := .J) (lo := bLo 1) (hi := bLo 1) (by unfold InInt; omega)
  have mkJh := mkB_ok (d := .J) (lo := bHi 1) (hi := bHi 1) (by unfold InInt; omega)
  show Both _ (F.cellsetcorrectionbc2d i0 i1 j0 j1 dx dg d0 d1 g u bLo bHi exOrder face type btype alpha beta) m
  unfold Cuda.setBc2d F.cellsetcorrectionbc2d
  refine Both.bind mkI <| Both.bind mkJ <| Both.bind pl0 <| Both.bind sp0 <| Both.bind pl1 <| Both.bind sp1 <| Both.bind spu <| Both.bind mkIb <| Both.bind mkJb <| Both.bind mkIl <| Both.bind mkIh <| Both.bind mkJl <| Both.bind mkJh <| ?_
  refine Both.ite (fun t1 => ?_) (fun t1 => ?_)
  · refine Both.ite (fun e0 => ?_) (fun e0 => ?_)
    · obtain ⟨⟨⟨r1, r2⟩, r3, r4⟩, ⟨c1, c2⟩, ⟨pj1, pj2, pj3⟩⟩ := hf0 t1 e0
      rw [max_eq_left pj1, min_eq_left pj3]
      have S := site2I (li := bLo 0) (xi := bLo 0 + 1 - 1) (aj := bLo 1) (bj := bHi 1) Au (by omega) (by omega) (by omega)
      have A1 := at2I_I (ki := 1) (yi := bLo 0 + 1) S (by omega) (by omega) (by decide) (by omega)
      have A2 := at2I_I (ki := 2) (yi := bLo 0 + 1 + 1) S (by omega) (by omega) (by decide) (by omega)
      have Ad := at2I_d1 (yi := bLo 0 + 1) S Ad0 Pd0 (by omega) (by omega) (by omega)
      exact S.t1_in L (hβ 0) A1 A2 Ad
    refine Both.ite (fun e1 => ?_) (fun e1 => ?_)
    · obtain ⟨⟨⟨r1, r2⟩, r3, r4⟩, ⟨c1, c2⟩, ⟨pj1, pj2, pj3⟩⟩ := hf1 t1 e1
      rw [max_eq_left pj1, min_eq_left pj3]
      have S := site2I (li := bHi 0) (xi := bHi 0 - 1 + 1) (aj := bLo 1) (bj := bHi 1) Au (by omega) (by omega) (by omega)
      have A1 := at2I_I (ki := -1) (yi := bHi 0 - 1) S (by omega) (by omega) (by decide) (by omega)
      have A2 := at2I_I (ki := -2) (yi := bHi 0 - 1 - 1) S (by omega) (by omega) (by decide) (by omega)
      have Ad := at2I_d0 (yi := bHi 0 - 1 + 1) S Ad0 Pd0 (by omega) (by omega) (by omega)
      exact S.t1_in L (hβ 0) A1 A2 Ad
    refine Both.ite (fun e2 => ?_) (fun e2 => ?_)
    · obtain ⟨⟨⟨r1, r2⟩, r3, r4⟩, ⟨c1, c2⟩, ⟨pi1, pi2, pi3⟩⟩ := hf2 t1 e2
      rw [max_eq_left pi1, min_eq_left pi3]
      have S := site2J (lj := bLo 1) (xj := bLo 1 + 1 - 1) (ai := bLo 0) (bi := bHi 0) Au (by omega) (by omega) (by omega)
      have A1 := at2J_J (kj := 1) (yj := bLo 1 + 1) S (by omega) (by omega) (by decide) (by omega)
      have A2 := at2J_J (kj := 2) (yj := bLo 1 + 1 + 1) S (by omega) (by omega) (by decide) (by omega)
      have Ad := at2J_d1 (yj := bLo 1 + 1) S Ad1 Pd1 (by omega) (by omega) (by omega)
      exact S.t1_in L (hβ 0) A1 A2 Ad
    refine Both.ite (fun e3 => ?_) (fun e3 => ?_)
    · obtain ⟨⟨⟨r1, r2⟩, r3, r4⟩, ⟨c1, c2⟩, ⟨pi1, pi2, pi3⟩⟩ := hf3 t1 e3
      rw [max_eq_left pi1, min_eq_left pi3]
      have S := site2J (lj := bHi 1) (xj := bHi 1 - 1 + 1) (ai := bLo 0) (bi := bHi 0) Au (by omega) (by omega) (by omega)
      have A1 := at2J_J (kj := -1) (yj := bHi 1 - 1) S (by omega) (by omega) (by decide) (by omega)
      have A2 := at2J_J (kj := -2) (yj := bHi 1 - 1 - 1) S (by omega) (by omega) (by decide) (by omega)
      have Ad := at2J_d0 (yj := bHi 1 - 1 + 1) S Ad1 Pd1 (by omega) (by omega) (by omega)
      exact S.t1_in L (hβ 0) A1 A2 Ad
    exact Both.skip
  refine Both.ite (fun t2 => ?_) (fun t2 => ?_)
  · refine Both.ite (fun e0 => ?_) (fun e0 => ?_)
    · have hq := hn t2 (by omega) (by omega)
      subst e0
      simp only [dir0, dir1, Reach] at hq
      norm_num at hq
      have S := site2IJ (lj := bLo 1) (li := bLo 0) (xj := bLo 1) (xi := bLo 0) Au (by omega) (by omega) rfl rfl
      have A1 := at2IJ_IJ (ki := 1) (kj := 1) (yi := bLo 0 + 1) (yj := bLo 1 + 1) S (by omega) (by decide) (by omega) (by omega) (by decide) (by omega)
      have A2 := at2IJ_I (ki := 1) (yi := bLo 0 + 1) (yj := bLo 1) S (by omega) (by decide) (by omega) (by omega) (by omega)
      have A3 := at2IJ_J (kj := 1) (yi := bLo 0) (yj := bLo 1 + 1) S (by omega) (by omega) (by omega) (by decide) (by omega)
      have B := S.t2' (lt t2) (hβ 0) A1 A2 A3
      simp only [F.nest] at B
      exact B
    refine Both.ite (fun e1 => ?_) (fun e1 => ?_)
    · have hq := hn t2 (by omega) (by omega)
      subst e1
      simp only [dir0, dir1, Reach] at hq
      norm_num at hq
      have S := site2IJ (lj := bLo 1) (li := bHi 0) (xj := bLo 1) (xi := bHi 0) Au (by omega) (by omega) rfl rfl
      have A1 := at2IJ_IJ (ki := -1) (kj := 1) (yi := bHi 0 - 1) (yj := bLo 1 + 1) S (by omega) (by decide) (by omega) (by omega) (by decide) (by omega)
      have A2 := at2IJ_I (ki := -1) (yi := bHi 0 - 1) (yj := bLo 1) S (by omega) (by decide) (by omega) (by omega) (by omega)
      have A3 := at2IJ_J (kj := 1) (yi := bHi 0) (yj := bLo 1 + 1) S (by omega) (by omega) (by omega) (by decide) (by omega)
      have B := S.t2' (lt t2) (hβ 0) A1 A2 A3
      simp only [F.nest] at B
      exact B
    refine Both.ite (fun e2 => ?_) (fun e2 => ?_)
    · have hq := hn t2 (by omega) (by omega)
      subst e2
      simp only [dir0, dir1, Reach] at hq
      norm_num at hq
      have S := site2IJ (lj := bHi 1) (li := bLo 0) (xj := bHi 1) (xi := bLo 0) Au (by omega) (by omega) rfl rfl
      have A1 := at2IJ_IJ (ki := 1) (kj := -1) (yi := bLo 0 + 1) (yj := bHi 1 - 1) S (by omega) (by decide) (by omega) (by omega) (by decide) (by omega)
      have A2 := at2IJ_I (ki := 1) (yi := bLo 0 + 1) (yj := bHi 1) S (by omega) (by decide) (by omega) (by omega) (by omega)
      have A3 := at2IJ_J (kj := -1) (yi := bLo 0) (yj := bHi 1 - 1) S (by omega) (by omega) (by omega) (by decide) (by omega)
      have B := S.t2' (lt t2) (hβ 0) A1 A2 A3
      simp only [F.nest] at B
      exact B
    refine Both.ite (fun e3 => ?_) (fun e3 => ?_)
    · have hq := hn t2 (by omega) (by omega)
      subst e3
      simp only [dir0, dir1, Reach] at hq
      norm_num at hq
      have S := site2IJ (lj := bHi 1) (li := bHi 0) (xj := bHi 1) (xi := bHi 0) Au (by omega) (by omega) rfl rfl
      have A1 := at2IJ_IJ (ki := -1) (kj := -1) (yi := bHi 0 - 1) (yj := bHi 1 - 1) S (by omega) (by decide) (by omega) (by omega) (by decide) (by omega)
      have A2 := at2IJ_I (ki := -1) (yi := bHi 0 - 1) (yj := bHi 1) S (by omega) (by decide) (by omega) (by omega) (by omega)
      have A3 := at2IJ_J (kj := -1) (yi := bHi 0) (yj := bHi 1 - 1) S (by omega) (by omega) (by omega) (by decide) (by omega)
      have B := S.t2' (lt t2) (hβ 0) A1 A2 A3
      simp only [F.nest] at B
      exact B
    exact Both.skip
  exact Both.skip

set_option maxHeartbeats 1000000 in
example : ∃ m', Cuda.setBc2d 0 7 0 7 exDxB 1 ⟨0, 0⟩ ⟨1, 0⟩ 1 ⟨9, 0⟩ exLo exHi 2 0 1 1 3 5 (fun _ => revBackend) exB64 = .ok m' ∧
    F.cellsetcorrectionbc2d 0 7 0 7 exDxB 1 ⟨0, 0⟩ ⟨1, 0⟩ 1 ⟨9, 0⟩ exLo exHi 2 0 1 1 3 5 exB64 = .ok m' :=
  C49_bc_2d_partial (fun _ => revBackend_ok) B64.rounding (fun h => absurd h (by decide)) (by decide) (by decide) (by decide) (by decide) (by ex_seg) (by ex_seg) (by ex_seg) (by ex_seg) (by ex_seg) (by ex_seg) (by ex_argsB)

/-- `cd_correct_bc_2d_cuda::set_poisson_bc` and `cellsetpoissoncorrectionbc2d` leave the same memory in every arithmetic that obeys the laws rounding keeps, and on edges and corners also where a sum of three terms may be taken in either order, for every type, face, boundary type, order and schedule,
when the segment lies along the box. -/
theorem C49_poisson_bc_2d_partial {i0 j0 i1 j1 g exOrder face type btype : Int} {dx : Nat → T} { u : Ptr} {bLo bHi : Nat → Int} {alpha beta : T}
    {β : Nat → Backend} {m : Mem T} (hβ : ∀ n, ValidBackend (β n)) (L : Rounding T)
    (lt : type = 2 → ∀ x y z : T, y + z - x = -x + z + y)
    (hi : i0 ≤ i1) (hj : j0 ≤ j1) (hg : 0 ≤ g)
    (hs : ∀ n < 2, InInt (bLo n + 1) ∧ InInt (bHi n + 1))
    (hf0 : type = 1 → face = 0 → Reach i0 i1 g (bLo 0) 2 ∧ Part j0 j1 (bLo 1) (bHi 1))
    (hf1 : type = 1 → face = 1 → Reach i0 i1 g (bHi 0) (-2) ∧ Part j0 j1 (bLo 1) (bHi 1))
    (hf2 : type = 1 → face = 2 → Reach j0 j1 g (bLo 1) 2 ∧ Part i0 i1 (bLo 0) (bHi 0))
    (hf3 : type = 1 → face = 3 → Reach j0 j1 g (bHi 1) (-2) ∧ Part i0 i1 (bLo 0) (bHi 0))
    (hn : type = 2 → 0 ≤ face → face < 4 → Reach i0 i1 g (if face % 2 = 0 then bLo 0 else bHi 0) (dir0 face) ∧
      Reach j0 j1 g (if face < 2 then bLo 1 else bHi 1) (dir1 face))
    (h : F.Args m [] [F.cell2d u i0 j0 i1 j1 g]) :
    ∃ m', Cuda.setPoissonBc2d i0 i1 j0 j1 dx g u bLo bHi exOrder face type btype alpha beta β m = .ok m' ∧
      F.cellsetpoissoncorrectionbc2d i0 i1 j0 j1 dx g u bLo bHi exOrder face type btype alpha beta m = .ok m' := by
  obtain ⟨Au, spu, Iu⟩ := cell2_setup (h.ok (F.cell2d u i0 j0 i1 j1 g) (by simp)) hi hj hg
  have hs0 := hs 0 (by decide)
  have hs1 := hs 1 (by decide)
  unfold InInt at Iu hs0 hs1
  have mkI := mkB_ok (d := .I) (lo := i0) (hi := i1) (by unfold InInt; omega)
  have mkIb := mkB_ok (d := .I) (lo := max (bLo 0) i0) (hi := min (bHi 0) i1) (by unfold InInt; omega)
  have mkIl := mkB_ok (d := .I) (lo := bLo 0) (hi := bLo 0) (by unfold InInt; omega)
  have mkIh := mkB_ok (d := .I) (lo := bHi 0) (hi := bHi 0) (by unfold InInt; omega)
  have mkJ := mkB_ok (d := .J) (lo := j0) (hi := j1) (by unfold InInt; omega)
  have mkJb := mkB_ok (d := .J) (lo := max (bLo 1) j0) (hi := min (bHi 1) j1) (by unfold InInt; omega)
  have mkJl := mkB_ok (d := .J) (lo := bLo 1) (hi := bLo 1) (by unfold InInt; omega)
  have mkJh := mkB_ok (d := .J) (lo := bHi 1) (hi := bHi 1) (by unfold InInt; omega)
  show Both _ (F.cellsetpoissoncorrectionbc2d i0 i1 j0 j1 dx g u bLo bHi exOrder face type btype alpha beta) m
  unfold Cuda.setPoissonBc2d F.cellsetpoissoncorrectionbc2d
  refine Both.bind mkI <| Both.bind mkJ <| Both.bind spu <| Both.bind mkIb <| Both.bind mkJb <| Both.bind mkIl <| Both.bind mkIh <| Both.bind mkJl <| Both.bind mkJh <| ?_
  refine Both.ite (fun t1 => ?_) (fun t1 => ?_)
  · refine Both.ite (fun e0 => ?_) (fun e0 => ?_)
    · obtain ⟨⟨⟨r1, r2⟩, r3, r4⟩, ⟨pj1, pj2, pj3⟩⟩ := hf0 t1 e0
      rw [max_eq_left pj1, min_eq_left pj3]
      have S := site2I (li := bLo 0) (xi := bLo 0 + 1 - 1) (aj := bLo 1) (bj := bHi 1) Au (by omega) (by omega) (by omega)
      have A1 := at2I_I (ki := 1) (yi := bLo 0 + 1) S (by omega) (by omega) (by decide) (by omega)
      have A2 := at2I_I (ki := 2) (yi := bLo 0 + 1 + 1) S (by omega) (by omega) (by decide) (by omega)
      exact S.p1_in L (hβ 0) A1 A2 (by bc_coef L) (by bc_coef L) (by bc_coef L)
    refine Both.ite (fun e1 => ?_) (fun e1 => ?_)
    · obtain ⟨⟨⟨r1, r2⟩, r3, r4⟩, ⟨pj1, pj2, pj3⟩⟩ := hf1 t1 e1
      rw [max_eq_left pj1, min_eq_left pj3]
      have S := site2I (li := bHi 0) (xi := bHi 0 - 1 + 1) (aj := bLo 1) (bj := bHi 1) Au (by omega) (by omega) (by omega)
      have A1 := at2I_I (ki := -1) (yi := bHi 0 - 1) S (by omega) (by omega) (by decide) (by omega)
      have A2 := at2I_I (ki := -2) (yi := bHi 0 - 1 - 1) S (by omega) (by omega) (by decide) (by omega)
      exact S.p1_in L (hβ 0) A1 A2 (by bc_coef L) (by bc_coef L) (by bc_coef L)
    refine Both.ite (fun e2 => ?_) (fun e2 => ?_)
    · obtain ⟨⟨⟨r1, r2⟩, r3, r4⟩, ⟨pi1, pi2, pi3⟩⟩ := hf2 t1 e2
      rw [max_eq_left pi1, min_eq_left pi3]
      have S := site2J (lj := bLo 1) (xj := bLo 1 + 1 - 1) (ai := bLo 0) (bi := bHi 0) Au (by omega) (by omega) (by omega)
      have A1 := at2J_J (kj := 1) (yj := bLo 1 + 1) S (by omega) (by omega) (by decide) (by omega)
      have A2 := at2J_J (kj := 2) (yj := bLo 1 + 1 + 1) S (by omega) (by omega) (by decide) (by omega)
      exact S.p1_dn L (hβ 0) A1 A2
    refine Both.ite (fun e3 => ?_) (fun e3 => ?_)
    · obtain ⟨⟨⟨r1, r2⟩, r3, r4⟩, ⟨pi1, pi2, pi3⟩⟩ := hf3 t1 e3
      rw [max_eq_left pi1, min_eq_left pi3]
      have S := site2J (lj := bHi 1) (xj := bHi 1 - 1 + 1) (ai := bLo 0) (bi := bHi 0) Au (by omega) (by omega) (by omega)
      have A1 := at2J_J (kj := -1) (yj := bHi 1 - 1) S (by omega) (by omega) (by decide) (by omega)
      have A2 := at2J_J (kj := -2) (yj := bHi 1 - 1 - 1) S (by omega) (by omega) (by decide) (by omega)
      exact S.p1_dn L (hβ 0) A1 A2
    exact Both.skip
  refine Both.ite (fun t2 => ?_) (fun t2 => ?_)
  · refine Both.ite (fun e0 => ?_) (fun e0 => ?_)
    · have hq := hn t2 (by omega) (by omega)
      subst e0
      simp only [dir0, dir1, Reach] at hq
      norm_num at hq
      have S := site2IJ (lj := bLo 1) (li := bLo 0) (xj := bLo 1) (xi := bLo 0) Au (by omega) (by omega) rfl rfl
      have A1 := at2IJ_IJ (ki := 1) (kj := 1) (yi := bLo 0 + 1) (yj := bLo 1 + 1) S (by omega) (by decide) (by omega) (by omega) (by decide) (by omega)
      have A2 := at2IJ_I (ki := 1) (yi := bLo 0 + 1) (yj := bLo 1) S (by omega) (by decide) (by omega) (by omega) (by omega)
      have A3 := at2IJ_J (kj := 1) (yi := bLo 0) (yj := bLo 1 + 1) S (by omega) (by omega) (by omega) (by decide) (by omega)
      have B := S.t2' (lt t2) (hβ 0) A1 A2 A3
      simp only [F.nest] at B
      exact B
    refine Both.ite (fun e1 => ?_) (fun e1 => ?_)
    · have hq := hn t2 (by omega) (by omega)
      subst e1
      simp only [dir0, dir1, Reach] at hq
      norm_num at hq
      have S := site2IJ (lj := bLo 1) (li := bHi 0) (xj := bLo 1) (xi := bHi 0) Au (by omega) (by omega) rfl rfl
      have A1 := at2IJ_IJ (ki := -1) (kj := 1) (yi := bHi 0 - 1) (yj := bLo 1 + 1) S (by omega) (by decide) (by omega) (by omega) (by decide) (by omega)
      have A2 := at2IJ_I (ki := -1) (yi := bHi 0 - 1) (yj := bLo 1) S (by omega) (by decide) (by omega) (by omega) (by omega)
      have A3 := at2IJ_J (kj := 1) (yi := bHi 0) (yj := bLo 1 + 1) S (by omega) (by omega) (by omega) (by decide) (by omega)
      have B := S.t2' (lt t2) (hβ 0) A1 A2 A3
      simp only [F.nest] at B
      exact B
    refine Both.ite (fun e2 => ?_) (fun e2 => ?_)
    · have hq := hn t2 (by omega) (by omega)
      subst e2
      simp only [dir0, dir1, Reach] at hq
      norm_num at hq
      have S := site2IJ (lj := bHi 1) (li := bLo 0) (xj := bHi 1) (xi := bLo 0) Au (by omega) (by omega) rfl rfl
      have A1 := at2IJ_IJ (ki := 1) (kj := -1) (yi := bLo 0 + 1) (yj := bHi 1 - 1) S (by omega) (by decide) (by omega) (by omega) (by decide) (by omega)
      have A2 := at2IJ_I (ki := 1) (yi := bLo 0 + 1) (yj := bHi 1) S (by omega) (by decide) (by omega) (by omega) (by omega)
      have A3 := at2IJ_J (kj := -1) (yi := bLo 0) (yj := bHi 1 - 1) S (by omega) (by omega) (by omega) (by decide) (by omega)
      have B := S.t2' (lt t2) (hβ 0) A1 A2 A3
      simp only [F.nest] at B
      exact B
    refine Both.ite (fun e3 => ?_) (fun e3 => ?_)
    · have hq := hn t2 (by omega) (by omega)
      subst e3
      simp only [dir0, dir1, Reach] at hq
      norm_num at hq
      have S := site2IJ (lj := bHi 1) (li := bHi 0) (xj := bHi 1) (xi := bHi 0) Au (by omega) (by omega) rfl rfl
      have A1 := at2IJ_IJ (ki := -1) (kj := -1) (yi := bHi 0 - 1) (yj := bHi 1 - 1) S (by omega) (by decide) (by omega) (by omega) (by decide) (by omega)
      have A2 := at2IJ_I (ki := -1) (yi := bHi 0 - 1) (yj := bHi 1) S (by omega) (by decide) (by omega) (by omega) (by omega)
      have A3 := at2IJ_J (kj := -1) (yi := bHi 0) (yj := bHi 1 - 1) S (by omega) (by omega) (by omega) (by decide) (by omega)
      have B := S.t2' (lt t2) (hβ 0) A1 A2 A3
      simp only [F.nest] at B
      exact B
    exact Both.skip
  exact Both.skip

set_option maxHeartbeats 1000000 in
example : ∃ m', Cuda.setPoissonBc2d 0 7 0 7 exDxB 1 ⟨9, 0⟩ exLo exHi 2 0 1 1 3 5 (fun _ => revBackend) exB64 = .ok m' ∧
    F.cellsetpoissoncorrectionbc2d 0 7 0 7 exDxB 1 ⟨9, 0⟩ exLo exHi 2 0 1 1 3 5 exB64 = .ok m' :=
  C49_poisson_bc_2d_partial (fun _ => revBackend_ok) B64.rounding (fun h => absurd h (by decide)) (by decide) (by decide) (by decide) (by ex_seg) (by ex_seg) (by ex_seg) (by ex_seg) (by ex_seg) (by ex_seg) (by ex_argsB)

/-- `cd_correct_bc_3d_cuda::set_bc` and `cellsetcorrectionbc3d` leave the same memory in every arithmetic that obeys the laws rounding keeps, and on edges and corners also where a sum of three terms may be taken in either order, for every type, face, boundary type, order and schedule; both clip a
face segment to the box, an edge segment has to lie along it. -/
theorem C49_bc_3d_partial {i0 j0 k0 i1 j1 k1 g dg exOrder face type btype : Int} {dx : Nat → T} {d0 d1 d2 u : Ptr} {bLo bHi : Nat → Int} {alpha beta : T}
    {β : Nat → Backend} {m : Mem T} (hβ : ∀ n, ValidBackend (β n)) (L : Rounding T)
    (lt : type = 2 ∨ type = 3 → ∀ x y z : T, y + z - x = -x + y + z)
    (hi : i0 ≤ i1) (hj : j0 ≤ j1) (hk : k0 ≤ k1) (hg : 0 ≤ g) (hdg : 0 ≤ dg)
    (hs : ∀ n < 3, InInt (bLo n + 1) ∧ InInt (bHi n + 1))
    (hf0 : type = 1 → face = 0 → Reach i0 i1 g (bLo 0) 2 ∧ OnFaces i0 i1 dg (bLo 0 + 1) ∧ Meets j0 j1 (bLo 1) (bHi 1) ∧ Meets k0 k1 (bLo 2) (bHi 2))
    (hf1 : type = 1 → face = 1 → Reach i0 i1 g (bHi 0) (-2) ∧ OnFaces i0 i1 dg (bHi 0) ∧ Meets j0 j1 (bLo 1) (bHi 1) ∧ Meets k0 k1 (bLo 2) (bHi 2))
    (hf2 : type = 1 → face = 2 → Reach j0 j1 g (bLo 1) 2 ∧ OnFaces j0 j1 dg (bLo 1 + 1) ∧ Meets i0 i1 (bLo 0) (bHi 0) ∧ Meets k0 k1 (bLo 2) (bHi 2))
    (hf3 : type = 1 → face = 3 → Reach j0 j1 g (bHi 1) (-2) ∧ OnFaces j0 j1 dg (bHi 1) ∧ Meets i0 i1 (bLo 0) (bHi 0) ∧ Meets k0 k1 (bLo 2) (bHi 2))
    (hf4 : type = 1 → face = 4 → Reach k0 k1 g (bLo 2) 2 ∧ OnFaces k0 k1 dg (bLo 2 + 1) ∧ Meets i0 i1 (bLo 0) (bHi 0) ∧ Meets j0 j1 (bLo 1) (bHi 1))
    (hf5 : type = 1 → face = 5 → Reach k0 k1 g (bHi 2) (-2) ∧ OnFaces k0 k1 dg (bHi 2) ∧ Meets i0 i1 (bLo 0) (bHi 0) ∧ Meets j0 j1 (bLo 1) (bHi 1))
    (he0 : type = 2 → 0 ≤ face → face < 4 → Reach i0 i1 g (bLo 0) (dir0 face) ∧ Reach j0 j1 g (bLo 1) (dir1 face) ∧
      Part k0 k1 (bLo 2) (bHi 2))
    (he1 : type = 2 → 4 ≤ face → face < 8 → Reach i0 i1 g (bLo 0) (dir0 face) ∧ Reach k0 k1 g (bLo 2) (dir1 face) ∧
      Part j0 j1 (bLo 1) (bHi 1))
    (he2 : type = 2 → 8 ≤ face → face < 12 → Reach j0 j1 g (bLo 1) (dir0 face) ∧ Reach k0 k1 g (bLo 2) (dir1 face) ∧
      Part i0 i1 (bLo 0) (bHi 0))
    (hn : type = 3 → 0 ≤ face → face < 8 → Reach i0 i1 g (bLo 0) (dir0 face) ∧ Reach j0 j1 g (bLo 1) (dir1 face) ∧ Reach k0 k1 g (bLo 2) 0)
    (h : F.Args m [F.face3d0 d0 i0 j0 k0 i1 j1 k1 dg, F.face3d1 d1 i0 j0 k0 i1 j1 k1 dg, F.face3d2 d2 i0 j0 k0 i1 j1 k1 dg] [F.cell3d u i0 j0 k0 i1 j1 k1 g]) :
    ∃ m', Cuda.setBc3d i0 i1 j0 j1 k0 k1 dx dg d0 d1 d2 g u bLo bHi exOrder face type btype alpha beta β m = .ok m' ∧
      F.cellsetcorrectionbc3d i0 i1 j0 j1 k0 k1 dx dg d0 d1 d2 g u bLo bHi exOrder face type btype alpha beta m = .ok m' := by
  obtain ⟨Au, spu, Iu⟩ := cell3_setup (h.ok (F.cell3d u i0 j0 k0 i1 j1 k1 g) (by simp)) hi hj hk hg
  obtain ⟨Ad0, pl0, sp0⟩ := faceG30_setup (h.ok (F.face3d0 d0 i0 j0 k0 i1 j1 k1 dg) (by simp)) hi hj hk hdg
  have Pd0 : Apart (sCell3 u i0 j0 k0 i1 j1 k1 g) (sFaceG30 d0 i0 j0 k0 i1 j1 k1 dg) := apart_of farr_cell3 farr_faceG30 (h.apart _ (by simp) _ (by simp))
  obtain ⟨Ad1, pl1, sp1⟩ := faceG31_setup (h.ok (F.face3d1 d1 i0 j0 k0 i1 j1 k1 dg) (by simp)) hi hj hk hdg
  have Pd1 : Apart (sCell3 u i0 j0 k0 i1 j1 k1 g) (sFaceG31 d1 i0 j0 k0 i1 j1 k1 dg) := apart_of farr_cell3 farr_faceG31 (h.apart _ (by simp) _ (by simp))
  obtain ⟨Ad2, pl2, sp2⟩ := faceG32_setup (h.ok (F.face3d2 d2 i0 j0 k0 i1 j1 k1 dg) (by simp)) hi hj hk hdg
  have Pd2 : Apart (sCell3 u i0 j0 k0 i1 j1 k1 g) (sFaceG32 d2 i0 j0 k0 i1 j1 k1 dg) := apart_of farr_cell3 farr_faceG32 (h.apart _ (by simp) _ (by simp))
  have hs0 := hs 0 (by decide)
  have hs1 := hs 1 (by decide)
  have hs2 := hs 2 (by decide)
  unfold InInt at Iu hs0 hs1 hs2
  have mkI := mkB_ok (d := .I) (lo := i0) (hi := i1) (by unfold InInt; omega)
  have mkIb := mkB_ok (d := .I) (lo := max (bLo 0) i0) (hi := min (bHi 0) i1) (by unfold InInt; omega)
  have mkIl := mkB_ok (d := .I) (lo := bLo 0) (hi := bLo 0) (by unfold InInt; omega)
  have mkIh := mkB_ok (d := .I) (lo := bHi 0) (hi := bHi 0) (by unfold InInt; omega)
  have mkJ := mkB_ok (d := .J) (lo := j0) (hi := j1) (by unfold InInt; omega)
  have mkJb := mkB_ok (d := .J) (lo := max (bLo 1) j0) (hi := min (bHi 1) j1) (by unfold InInt; omega)
  have mkJl := mkB_ok (d := .J) (lo := bLo 1) (hi := bLo 1) (by unfold InInt; omega)
  have mkJh := mkB_ok (d := .J) (lo := bHi 1) (hi := bHi 1) (by unfold InInt; omega)
  have mkK := mkB_ok (d := .K) (lo := k0) (hi := k1) (by unfold InInt; omega)
  have mkKb := mkB_ok (d := .K) (lo := max (bLo 2) k0) (hi := min (bHi 2) k1) (by unfold InInt; omega)
  have mkKl := mkB_ok (d := .K) (lo := bLo 2) (hi := bLo 2) (by unfold InInt; omega)
  have mkKh := mkB_ok (d := .K) (lo := bHi 2) (hi := bHi 2) (by unfold InInt; omega)
  show Both _ (F.cellsetcorrectionbc3d i0 i1 j0 j1 k0 k1 dx dg d0 d1 d2 g u bLo bHi exOrder face type btype alpha beta) m
  unfold Cuda.setBc3d F.cellsetcorrectionbc3d
  refine Both.bind mkI <| Both.bind mkJ <| Both.bind mkK <| Both.bind pl0 <| Both.bind sp0 <| Both.bind pl1 <| Both.bind sp1 <| Both.bind pl2 <| Both.bind sp2 <| Both.bind spu <| Both.bind mkIb <| Both.bind mkJb <| Both.bind mkKb <| Both.bind mkIl <| Both.bind mkIh <| Both.bind mkJl <| Both.bind mkJh <| Both.bind mkKl <| Both.bind mkKh <| ?_
  refine Both.ite (fun t1 => ?_) (fun t1 => ?_)
  · refine Both.ite (fun e0 => ?_) (fun e0 => ?_)
    · obtain ⟨⟨⟨r1, r2⟩, r3, r4⟩, ⟨c1, c2⟩, pj, pk⟩ := hf0 t1 e0
      unfold Meets at pj
      rw [max_comm (bLo 1) j0, min_comm (bHi 1) j1] at *
      unfold Meets at pk
      rw [max_comm (bLo 2) k0, min_comm (bHi 2) k1] at *
      have S := site3I (li := bLo 0) (xi := bLo 0 + 1 - 1) (aj := max j0 (bLo 1)) (bj := min j1 (bHi 1)) (ak := max k0 (bLo 2)) (bk := min k1 (bHi 2)) Au (by omega) (by omega) (by omega) (by omega)
      have A1 := at3I_I (ki := 1) (yi := bLo 0 + 1) S (by omega) (by omega) (by omega) (by decide) (by omega)
      have A2 := at3I_I (ki := 2) (yi := bLo 0 + 1 + 1) S (by omega) (by omega) (by omega) (by decide) (by omega)
      have Ad := at3I_d1 (yi := bLo 0 + 1) S Ad0 Pd0 (by omega) (by omega) (by omega) (by omega)
      exact S.t1 L (hβ 0) A1 A2 Ad
    refine Both.ite (fun e1 => ?_) (fun e1 => ?_)
    · obtain ⟨⟨⟨r1, r2⟩, r3, r4⟩, ⟨c1, c2⟩, pj, pk⟩ := hf1 t1 e1
      unfold Meets at pj
      rw [max_comm (bLo 1) j0, min_comm (bHi 1) j1] at *
      unfold Meets at pk
      rw [max_comm (bLo 2) k0, min_comm (bHi 2) k1] at *
      have S := site3I (li := bHi 0) (xi := bHi 0 - 1 + 1) (aj := max j0 (bLo 1)) (bj := min j1 (bHi 1)) (ak := max k0 (bLo 2)) (bk := min k1 (bHi 2)) Au (by omega) (by omega) (by omega) (by omega)
      have A1 := at3I_I (ki := -1) (yi := bHi 0 - 1) S (by omega) (by omega) (by omega) (by decide) (by omega)
      have A2 := at3I_I (ki := -2) (yi := bHi 0 - 1 - 1) S (by omega) (by omega) (by omega) (by decide) (by omega)
      have Ad := at3I_d0 (yi := bHi 0 - 1 + 1) S Ad0 Pd0 (by omega) (by omega) (by omega) (by omega)
      exact S.t1 L (hβ 0) A1 A2 Ad
    refine Both.ite (fun e2 => ?_) (fun e2 => ?_)
    · obtain ⟨⟨⟨r1, r2⟩, r3, r4⟩, ⟨c1, c2⟩, pi, pk⟩ := hf2 t1 e2
      unfold Meets at pi
      rw [max_comm (bLo 0) i0, min_comm (bHi 0) i1] at *
      unfold Meets at pk
      rw [max_comm (bLo 2) k0, min_comm (bHi 2) k1] at *
      have S := site3J (lj := bLo 1) (xj := bLo 1 + 1 - 1) (ai := max i0 (bLo 0)) (bi := min i1 (bHi 0)) (ak := max k0 (bLo 2)) (bk := min k1 (bHi 2)) Au (by omega) (by omega) (by omega) (by omega)
      have A1 := at3J_J (kj := 1) (yj := bLo 1 + 1) S (by omega) (by omega) (by omega) (by decide) (by omega)
      have A2 := at3J_J (kj := 2) (yj := bLo 1 + 1 + 1) S (by omega) (by omega) (by omega) (by decide) (by omega)
      have Ad := at3J_d1 (yj := bLo 1 + 1) S Ad1 Pd1 (by omega) (by omega) (by omega) (by omega)
      exact S.t1 L (hβ 0) A1 A2 Ad
    refine Both.ite (fun e3 => ?_) (fun e3 => ?_)
    · obtain ⟨⟨⟨r1, r2⟩, r3, r4⟩, ⟨c1, c2⟩, pi, pk⟩ := hf3 t1 e3
      unfold Meets at pi
      rw [max_comm (bLo 0) i0, min_comm (bHi 0) i1] at *
      unfold Meets at pk
      rw [max_comm (bLo 2) k0, min_comm (bHi 2) k1] at *
      have S := site3J (lj := bHi 1) (xj := bHi 1 - 1 + 1) (ai := max i0 (bLo 0)) (bi := min i1 (bHi 0)) (ak := max k0 (bLo 2)) (bk := min k1 (bHi 2)) Au (by omega) (by omega) (by omega) (by omega)
      have A1 := at3J_J (kj := -1) (yj := bHi 1 - 1) S (by omega) (by omega) (by omega) (by decide) (by omega)
      have A2 := at3J_J (kj := -2) (yj := bHi 1 - 1 - 1) S (by omega) (by omega) (by omega) (by decide) (by omega)
      have Ad := at3J_d0 (yj := bHi 1 - 1 + 1) S Ad1 Pd1 (by omega) (by omega) (by omega) (by omega)
      exact S.t1 L (hβ 0) A1 A2 Ad
    refine Both.ite (fun e4 => ?_) (fun e4 => ?_)
    · obtain ⟨⟨⟨r1, r2⟩, r3, r4⟩, ⟨c1, c2⟩, pi, pj⟩ := hf4 t1 e4
      unfold Meets at pi
      rw [max_comm (bLo 0) i0, min_comm (bHi 0) i1] at *
      unfold Meets at pj
      rw [max_comm (bLo 1) j0, min_comm (bHi 1) j1] at *
      have S := site3K (lk := bLo 2) (xk := bLo 2 + 1 - 1) (ai := max i0 (bLo 0)) (bi := min i1 (bHi 0)) (aj := max j0 (bLo 1)) (bj := min j1 (bHi 1)) Au (by omega) (by omega) (by omega) (by omega)
      have A1 := at3K_K (kk := 1) (yk := bLo 2 + 1) S (by omega) (by omega) (by omega) (by decide) (by omega)
      have A2 := at3K_K (kk := 2) (yk := bLo 2 + 1 + 1) S (by omega) (by omega) (by omega) (by decide) (by omega)
      have Ad := at3K_d1 (yk := bLo 2 + 1) S Ad2 Pd2 (by omega) (by omega) (by omega) (by omega)
      exact S.t1 L (hβ 0) A1 A2 Ad
    refine Both.ite (fun e5 => ?_) (fun e5 => ?_)
    · obtain ⟨⟨⟨r1, r2⟩, r3, r4⟩, ⟨c1, c2⟩, pi, pj⟩ := hf5 t1 e5
      unfold Meets at pi
      rw [max_comm (bLo 0) i0, min_comm (bHi 0) i1] at *
      unfold Meets at pj
      rw [max_comm (bLo 1) j0, min_comm (bHi 1) j1] at *
      have S := site3K (lk := bHi 2) (xk := bHi 2 - 1 + 1) (ai := max i0 (bLo 0)) (bi := min i1 (bHi 0)) (aj := max j0 (bLo 1)) (bj := min j1 (bHi 1)) Au (by omega) (by omega) (by omega) (by omega)
      have A1 := at3K_K (kk := -1) (yk := bHi 2 - 1) S (by omega) (by omega) (by omega) (by decide) (by omega)
      have A2 := at3K_K (kk := -2) (yk := bHi 2 - 1 - 1) S (by omega) (by omega) (by omega) (by decide) (by omega)
      have Ad := at3K_d0 (yk := bHi 2 - 1 + 1) S Ad2 Pd2 (by omega) (by omega) (by omega) (by omega)
      exact S.t1 L (hβ 0) A1 A2 Ad
    exact Both.skip
  refine Both.ite (fun t2 => ?_) (fun t2 => ?_)
  · refine Both.ite (fun e0 => ?_) (fun e0 => ?_)
    · have hq := he0 t2 (by omega) (by omega)
      subst e0
      simp only [dir0, dir1, Reach, Part] at hq
      norm_num at hq
      rw [max_eq_left hq.2.2.1, min_eq_left hq.2.2.2.2]
      have S := site3IJ (li := bLo 0) (xi := bLo 0) (lj := bLo 1) (xj := bLo 1) (ak := bLo 2) (bk := bHi 2) Au (by omega) (by omega) (by omega) rfl rfl
      have A1 := at3IJ_IJ (ki := 1) (kj := 1) (yi := bLo 0 + 1) (yj := bLo 1 + 1) S (by omega) (by omega) (by decide) (by omega) (by omega) (by decide) (by omega)
      have A2 := at3IJ_I (ki := 1) (yi := bLo 0 + 1) (yj := bLo 1) S (by omega) (by omega) (by decide) (by omega) (by omega) (by omega)
      have A3 := at3IJ_J (kj := 1) (yi := bLo 0) (yj := bLo 1 + 1) S (by omega) (by omega) (by omega) (by omega) (by decide) (by omega)
      have B := S.t2 (lt (.inl t2)) (hβ 0) A1 A2 A3
      simp only [F.nest] at B
      exact B
    refine Both.ite (fun e1 => ?_) (fun e1 => ?_)
    · have hq := he0 t2 (by omega) (by omega)
      subst e1
      simp only [dir0, dir1, Reach, Part] at hq
      norm_num at hq
      rw [max_eq_left hq.2.2.1, min_eq_left hq.2.2.2.2]
      have S := site3IJ (li := bLo 0) (xi := bLo 0) (lj := bLo 1) (xj := bLo 1) (ak := bLo 2) (bk := bHi 2) Au (by omega) (by omega) (by omega) rfl rfl
      have A1 := at3IJ_IJ (ki := -1) (kj := 1) (yi := bLo 0 - 1) (yj := bLo 1 + 1) S (by omega) (by omega) (by decide) (by omega) (by omega) (by decide) (by omega)
      have A2 := at3IJ_I (ki := -1) (yi := bLo 0 - 1) (yj := bLo 1) S (by omega) (by omega) (by decide) (by omega) (by omega) (by omega)
      have A3 := at3IJ_J (kj := 1) (yi := bLo 0) (yj := bLo 1 + 1) S (by omega) (by omega) (by omega) (by omega) (by decide) (by omega)
      have B := S.t2 (lt (.inl t2)) (hβ 0) A1 A2 A3
      simp only [F.nest] at B
      exact B
    refine Both.ite (fun e2 => ?_) (fun e2 => ?_)
    · have hq := he0 t2 (by omega) (by omega)
      subst e2
      simp only [dir0, dir1, Reach, Part] at hq
      norm_num at hq
      rw [max_eq_left hq.2.2.1, min_eq_left hq.2.2.2.2]
      have S := site3IJ (li := bLo 0) (xi := bLo 0) (lj := bLo 1) (xj := bLo 1) (ak := bLo 2) (bk := bHi 2) Au (by omega) (by omega) (by omega) rfl rfl
      have A1 := at3IJ_IJ (ki := 1) (kj := -1) (yi := bLo 0 + 1) (yj := bLo 1 - 1) S (by omega) (by omega) (by decide) (by omega) (by omega) (by decide) (by omega)
      have A2 := at3IJ_I (ki := 1) (yi := bLo 0 + 1) (yj := bLo 1) S (by omega) (by omega) (by decide) (by omega) (by omega) (by omega)
      have A3 := at3IJ_J (kj := -1) (yi := bLo 0) (yj := bLo 1 - 1) S (by omega) (by omega) (by omega) (by omega) (by decide) (by omega)
      have B := S.t2 (lt (.inl t2)) (hβ 0) A1 A2 A3
      simp only [F.nest] at B
      exact B
    refine Both.ite (fun e3 => ?_) (fun e3 => ?_)
    · have hq := he0 t2 (by omega) (by omega)
      subst e3
      simp only [dir0, dir1, Reach, Part] at hq
      norm_num at hq
      rw [max_eq_left hq.2.2.1, min_eq_left hq.2.2.2.2]
      have S := site3IJ (li := bLo 0) (xi := bLo 0) (lj := bLo 1) (xj := bLo 1) (ak := bLo 2) (bk := bHi 2) Au (by omega) (by omega) (by omega) rfl rfl
      have A1 := at3IJ_IJ (ki := -1) (kj := -1) (yi := bLo 0 - 1) (yj := bLo 1 - 1) S (by omega) (by omega) (by decide) (by omega) (by omega) (by decide) (by omega)
      have A2 := at3IJ_I (ki := -1) (yi := bLo 0 - 1) (yj := bLo 1) S (by omega) (by omega) (by decide) (by omega) (by omega) (by omega)
      have A3 := at3IJ_J (kj := -1) (yi := bLo 0) (yj := bLo 1 - 1) S (by omega) (by omega) (by omega) (by omega) (by decide) (by omega)
      have B := S.t2 (lt (.inl t2)) (hβ 0) A1 A2 A3
      simp only [F.nest] at B
      exact B
    refine Both.ite (fun e4 => ?_) (fun e4 => ?_)
    · have hq := he1 t2 (by omega) (by omega)
      subst e4
      simp only [dir0, dir1, Reach, Part] at hq
      norm_num at hq
      rw [max_eq_left hq.2.2.1, min_eq_left hq.2.2.2.2]
      have S := site3IK (li := bLo 0) (xi := bLo 0) (lk := bLo 2) (xk := bLo 2) (aj := bLo 1) (bj := bHi 1) Au (by omega) (by omega) (by omega) rfl rfl
      have A1 := at3IK_IK (ki := 1) (kk := 1) (yi := bLo 0 + 1) (yk := bLo 2 + 1) S (by omega) (by omega) (by decide) (by omega) (by omega) (by decide) (by omega)
      have A2 := at3IK_I (ki := 1) (yi := bLo 0 + 1) (yk := bLo 2) S (by omega) (by omega) (by decide) (by omega) (by omega) (by omega)
      have A3 := at3IK_K (kk := 1) (yi := bLo 0) (yk := bLo 2 + 1) S (by omega) (by omega) (by omega) (by omega) (by decide) (by omega)
      have B := S.t2 (lt (.inl t2)) (hβ 0) A1 A2 A3
      simp only [F.nest] at B
      exact B
    refine Both.ite (fun e5 => ?_) (fun e5 => ?_)
    · have hq := he1 t2 (by omega) (by omega)
      subst e5
      simp only [dir0, dir1, Reach, Part] at hq
      norm_num at hq
      rw [max_eq_left hq.2.2.1, min_eq_left hq.2.2.2.2]
      have S := site3IK (li := bLo 0) (xi := bLo 0) (lk := bLo 2) (xk := bLo 2) (aj := bLo 1) (bj := bHi 1) Au (by omega) (by omega) (by omega) rfl rfl
      have A1 := at3IK_IK (ki := -1) (kk := 1) (yi := bLo 0 - 1) (yk := bLo 2 + 1) S (by omega) (by omega) (by decide) (by omega) (by omega) (by decide) (by omega)
      have A2 := at3IK_I (ki := -1) (yi := bLo 0 - 1) (yk := bLo 2) S (by omega) (by omega) (by decide) (by omega) (by omega) (by omega)
      have A3 := at3IK_K (kk := 1) (yi := bLo 0) (yk := bLo 2 + 1) S (by omega) (by omega) (by omega) (by omega) (by decide) (by omega)
      have B := S.t2 (lt (.inl t2)) (hβ 0) A1 A2 A3
      simp only [F.nest] at B
      exact B
    refine Both.ite (fun e6 => ?_) (fun e6 => ?_)
    · have hq := he1 t2 (by omega) (by omega)
      subst e6
      simp only [dir0, dir1, Reach, Part] at hq
      norm_num at hq
      rw [max_eq_left hq.2.2.1, min_eq_left hq.2.2.2.2]
      have S := site3IK (li := bLo 0) (xi := bLo 0) (lk := bLo 2) (xk := bLo 2) (aj := bLo 1) (bj := bHi 1) Au (by omega) (by omega) (by omega) rfl rfl
      have A1 := at3IK_IK (ki := 1) (kk := -1) (yi := bLo 0 + 1) (yk := bLo 2 - 1) S (by omega) (by omega) (by decide) (by omega) (by omega) (by decide) (by omega)
      have A2 := at3IK_I (ki := 1) (yi := bLo 0 + 1) (yk := bLo 2) S (by omega) (by omega) (by decide) (by omega) (by omega) (by omega)
      have A3 := at3IK_K (kk := -1) (yi := bLo 0) (yk := bLo 2 - 1) S (by omega) (by omega) (by omega) (by omega) (by decide) (by omega)
      have B := S.t2 (lt (.inl t2)) (hβ 0) A1 A2 A3
      simp only [F.nest] at B
      exact B
    refine Both.ite (fun e7 => ?_) (fun e7 => ?_)
    · have hq := he1 t2 (by omega) (by omega)
      subst e7
      simp only [dir0, dir1, Reach, Part] at hq
      norm_num at hq
      rw [max_eq_left hq.2.2.1, min_eq_left hq.2.2.2.2]
      have S := site3IK (li := bLo 0) (xi := bLo 0) (lk := bLo 2) (xk := bLo 2) (aj := bLo 1) (bj := bHi 1) Au (by omega) (by omega) (by omega) rfl rfl
      have A1 := at3IK_IK (ki := -1) (kk := -1) (yi := bLo 0 - 1) (yk := bLo 2 - 1) S (by omega) (by omega) (by decide) (by omega) (by omega) (by decide) (by omega)
      have A2 := at3IK_I (ki := -1) (yi := bLo 0 - 1) (yk := bLo 2) S (by omega) (by omega) (by decide) (by omega) (by omega) (by omega)
      have A3 := at3IK_K (kk := -1) (yi := bLo 0) (yk := bLo 2 - 1) S (by omega) (by omega) (by omega) (by omega) (by decide) (by omega)
      have B := S.t2 (lt (.inl t2)) (hβ 0) A1 A2 A3
      simp only [F.nest] at B
      exact B
    refine Both.ite (fun e8 => ?_) (fun e8 => ?_)
    · have hq := he2 t2 (by omega) (by omega)
      subst e8
      simp only [dir0, dir1, Reach, Part] at hq
      norm_num at hq
      rw [max_eq_left hq.2.2.1, min_eq_left hq.2.2.2.2]
      have S := site3JK (lj := bLo 1) (xj := bLo 1) (lk := bLo 2) (xk := bLo 2) (ai := bLo 0) (bi := bHi 0) Au (by omega) (by omega) (by omega) rfl rfl
      have A1 := at3JK_JK (kj := 1) (kk := 1) (yj := bLo 1 + 1) (yk := bLo 2 + 1) S (by omega) (by omega) (by decide) (by omega) (by omega) (by decide) (by omega)
      have A2 := at3JK_J (kj := 1) (yj := bLo 1 + 1) (yk := bLo 2) S (by omega) (by omega) (by decide) (by omega) (by omega) (by omega)
      have A3 := at3JK_K (kk := 1) (yj := bLo 1) (yk := bLo 2 + 1) S (by omega) (by omega) (by omega) (by omega) (by decide) (by omega)
      have B := S.t2 (lt (.inl t2)) (hβ 0) A1 A2 A3
      simp only [F.nest] at B
      exact B
    refine Both.ite (fun e9 => ?_) (fun e9 => ?_)
    · have hq := he2 t2 (by omega) (by omega)
      subst e9
      simp only [dir0, dir1, Reach, Part] at hq
      norm_num at hq
      rw [max_eq_left hq.2.2.1, min_eq_left hq.2.2.2.2]
      have S := site3JK (lj := bLo 1) (xj := bLo 1) (lk := bLo 2) (xk := bLo 2) (ai := bLo 0) (bi := bHi 0) Au (by omega) (by omega) (by omega) rfl rfl
      have A1 := at3JK_JK (kj := -1) (kk := 1) (yj := bLo 1 - 1) (yk := bLo 2 + 1) S (by omega) (by omega) (by decide) (by omega) (by omega) (by decide) (by omega)
      have A2 := at3JK_J (kj := -1) (yj := bLo 1 - 1) (yk := bLo 2) S (by omega) (by omega) (by decide) (by omega) (by omega) (by omega)
      have A3 := at3JK_K (kk := 1) (yj := bLo 1) (yk := bLo 2 + 1) S (by omega) (by omega) (by omega) (by omega) (by decide) (by omega)
      have B := S.t2 (lt (.inl t2)) (hβ 0) A1 A2 A3
      simp only [F.nest] at B
      exact B
    refine Both.ite (fun e10 => ?_) (fun e10 => ?_)
    · have hq := he2 t2 (by omega) (by omega)
      subst e10
      simp only [dir0, dir1, Reach, Part] at hq
      norm_num at hq
      rw [max_eq_left hq.2.2.1, min_eq_left hq.2.2.2.2]
      have S := site3JK (lj := bLo 1) (xj := bLo 1) (lk := bLo 2) (xk := bLo 2) (ai := bLo 0) (bi := bHi 0) Au (by omega) (by omega) (by omega) rfl rfl
      have A1 := at3JK_JK (kj := 1) (kk := -1) (yj := bLo 1 + 1) (yk := bLo 2 - 1) S (by omega) (by omega) (by decide) (by omega) (by omega) (by decide) (by omega)
      have A2 := at3JK_J (kj := 1) (yj := bLo 1 + 1) (yk := bLo 2) S (by omega) (by omega) (by decide) (by omega) (by omega) (by omega)
      have A3 := at3JK_K (kk := -1) (yj := bLo 1) (yk := bLo 2 - 1) S (by omega) (by omega) (by omega) (by omega) (by decide) (by omega)
      have B := S.t2 (lt (.inl t2)) (hβ 0) A1 A2 A3
      simp only [F.nest] at B
      exact B
    refine Both.ite (fun e11 => ?_) (fun e11 => ?_)
    · have hq := he2 t2 (by omega) (by omega)
      subst e11
      simp only [dir0, dir1, Reach, Part] at hq
      norm_num at hq
      rw [max_eq_left hq.2.2.1, min_eq_left hq.2.2.2.2]
      have S := site3JK (lj := bLo 1) (xj := bLo 1) (lk := bLo 2) (xk := bLo 2) (ai := bLo 0) (bi := bHi 0) Au (by omega) (by omega) (by omega) rfl rfl
      have A1 := at3JK_JK (kj := -1) (kk := -1) (yj := bLo 1 - 1) (yk := bLo 2 - 1) S (by omega) (by omega) (by decide) (by omega) (by omega) (by decide) (by omega)
      have A2 := at3JK_J (kj := -1) (yj := bLo 1 - 1) (yk := bLo 2) S (by omega) (by omega) (by decide) (by omega) (by omega) (by omega)
      have A3 := at3JK_K (kk := -1) (yj := bLo 1) (yk := bLo 2 - 1) S (by omega) (by omega) (by omega) (by omega) (by decide) (by omega)
      have B := S.t2 (lt (.inl t2)) (hβ 0) A1 A2 A3
      simp only [F.nest] at B
      exact B
    exact Both.skip
  refine Both.ite (fun t3 => ?_) (fun t3 => ?_)
  · refine Both.ite (fun e0 => ?_) (fun e0 => ?_)
    · have hq := hn t3 (by omega) (by omega)
      have hd0 : dir0 face = 1 := by rcases e0 with rfl | rfl <;> rfl
      have hd1 : dir1 face = 1 := by rcases e0 with rfl | rfl <;> rfl
      rw [hd0, hd1] at hq
      simp only [Reach] at hq
      have S := site3IJK (li := bLo 0) (xi := bLo 0) (lj := bLo 1) (xj := bLo 1) (lk := bLo 2) (xk := bLo 2) Au (by omega) (by omega) (by omega) rfl rfl rfl
      have A1 := at3IJK_IJ (ki := 1) (kj := 1) (yi := bLo 0 + 1) (yj := bLo 1 + 1) (yk := bLo 2) S (by omega) (by decide) (by omega) (by omega) (by decide) (by omega) (by omega) (by omega)
      have A2 := at3IJK_I (ki := 1) (yi := bLo 0 + 1) (yj := bLo 1) (yk := bLo 2) S (by omega) (by decide) (by omega) (by omega) (by omega) (by omega) (by omega)
      have A3 := at3IJK_J (kj := 1) (yi := bLo 0) (yj := bLo 1 + 1) (yk := bLo 2) S (by omega) (by omega) (by omega) (by decide) (by omega) (by omega) (by omega)
      have B := S.t2 (lt (.inr t3)) (hβ 0) A1 A2 A3
      simp only [F.nest] at B
      exact B
    refine Both.ite (fun e1 => ?_) (fun e1 => ?_)
    · have hq := hn t3 (by omega) (by omega)
      have hd0 : dir0 face = -1 := by rcases e1 with rfl | rfl <;> rfl
      have hd1 : dir1 face = 1 := by rcases e1 with rfl | rfl <;> rfl
      rw [hd0, hd1] at hq
      simp only [Reach] at hq
      have S := site3IJK (li := bLo 0) (xi := bLo 0) (lj := bLo 1) (xj := bLo 1) (lk := bLo 2) (xk := bLo 2) Au (by omega) (by omega) (by omega) rfl rfl rfl
      have A1 := at3IJK_IJ (ki := -1) (kj := 1) (yi := bLo 0 - 1) (yj := bLo 1 + 1) (yk := bLo 2) S (by omega) (by decide) (by omega) (by omega) (by decide) (by omega) (by omega) (by omega)
      have A2 := at3IJK_I (ki := -1) (yi := bLo 0 - 1) (yj := bLo 1) (yk := bLo 2) S (by omega) (by decide) (by omega) (by omega) (by omega) (by omega) (by omega)
      have A3 := at3IJK_J (kj := 1) (yi := bLo 0) (yj := bLo 1 + 1) (yk := bLo 2) S (by omega) (by omega) (by omega) (by decide) (by omega) (by omega) (by omega)
      have B := S.t2 (lt (.inr t3)) (hβ 0) A1 A2 A3
      simp only [F.nest] at B
      exact B
    refine Both.ite (fun e2 => ?_) (fun e2 => ?_)
    · have hq := hn t3 (by omega) (by omega)
      have hd0 : dir0 face = 1 := by rcases e2 with rfl | rfl <;> rfl
      have hd1 : dir1 face = -1 := by rcases e2 with rfl | rfl <;> rfl
      rw [hd0, hd1] at hq
      simp only [Reach] at hq
      have S := site3IJK (li := bLo 0) (xi := bLo 0) (lj := bLo 1) (xj := bLo 1) (lk := bLo 2) (xk := bLo 2) Au (by omega) (by omega) (by omega) rfl rfl rfl
      have A1 := at3IJK_IJ (ki := 1) (kj := -1) (yi := bLo 0 + 1) (yj := bLo 1 - 1) (yk := bLo 2) S (by omega) (by decide) (by omega) (by omega) (by decide) (by omega) (by omega) (by omega)
      have A2 := at3IJK_I (ki := 1) (yi := bLo 0 + 1) (yj := bLo 1) (yk := bLo 2) S (by omega) (by decide) (by omega) (by omega) (by omega) (by omega) (by omega)
      have A3 := at3IJK_J (kj := -1) (yi := bLo 0) (yj := bLo 1 - 1) (yk := bLo 2) S (by omega) (by omega) (by omega) (by decide) (by omega) (by omega) (by omega)
      have B := S.t2 (lt (.inr t3)) (hβ 0) A1 A2 A3
      simp only [F.nest] at B
      exact B
    refine Both.ite (fun e3 => ?_) (fun e3 => ?_)
    · have hq := hn t3 (by omega) (by omega)
      have hd0 : dir0 face = -1 := by rcases e3 with rfl | rfl <;> rfl
      have hd1 : dir1 face = -1 := by rcases e3 with rfl | rfl <;> rfl
      rw [hd0, hd1] at hq
      simp only [Reach] at hq
      have S := site3IJK (li := bLo 0) (xi := bLo 0) (lj := bLo 1) (xj := bLo 1) (lk := bLo 2) (xk := bLo 2) Au (by omega) (by omega) (by omega) rfl rfl rfl
      have A1 := at3IJK_IJ (ki := -1) (kj := -1) (yi := bLo 0 - 1) (yj := bLo 1 - 1) (yk := bLo 2) S (by omega) (by decide) (by omega) (by omega) (by decide) (by omega) (by omega) (by omega)
      have A2 := at3IJK_I (ki := -1) (yi := bLo 0 - 1) (yj := bLo 1) (yk := bLo 2) S (by omega) (by decide) (by omega) (by omega) (by omega) (by omega) (by omega)
      have A3 := at3IJK_J (kj := -1) (yi := bLo 0) (yj := bLo 1 - 1) (yk := bLo 2) S (by omega) (by omega) (by omega) (by decide) (by omega) (by omega) (by omega)
      have B := S.t2 (lt (.inr t3)) (hβ 0) A1 A2 A3
      simp only [F.nest] at B
      exact B
    exact Both.skip
  exact Both.skip

set_option maxHeartbeats 1000000 in
example : ∃ m', Cuda.setBc3d 0 7 0 6 0 5 exDxB 1 ⟨0, 0⟩ ⟨1, 0⟩ ⟨2, 0⟩ 1 ⟨9, 0⟩ exLo exHi 2 0 1 1 3 5 (fun _ => revBackend) exB64 = .ok m' ∧
    F.cellsetcorrectionbc3d 0 7 0 6 0 5 exDxB 1 ⟨0, 0⟩ ⟨1, 0⟩ ⟨2, 0⟩ 1 ⟨9, 0⟩ exLo exHi 2 0 1 1 3 5 exB64 = .ok m' :=
  C49_bc_3d_partial (fun _ => revBackend_ok) B64.rounding (fun h => absurd h (by decide)) (by decide) (by decide) (by decide) (by decide) (by decide) (by ex_seg) (by ex_seg) (by ex_seg) (by ex_seg) (by ex_seg) (by ex_seg) (by ex_seg) (by ex_seg) (by ex_seg) (by ex_seg) (by ex_seg) (by ex_argsB)

/-- `cd_correct_bc_3d_cuda::set_poisson_bc` and `cellsetpoissoncorrectionbc3d` leave the same memory in every arithmetic that obeys the laws rounding keeps, and on edges and corners also where a sum of three terms may be taken in either order, for every type, face, boundary type, order and schedule,
when the segment lies along the box. -/
theorem C49_poisson_bc_3d_partial {i0 j0 k0 i1 j1 k1 g exOrder face type btype : Int} {dx : Nat → T} { u : Ptr} {bLo bHi : Nat → Int} {alpha beta : T}
    {β : Nat → Backend} {m : Mem T} (hβ : ∀ n, ValidBackend (β n)) (L : Rounding T)
    (lt : type = 2 ∨ type = 3 → ∀ x y z : T, y + z - x = -x + y + z)
    (hi : i0 ≤ i1) (hj : j0 ≤ j1) (hk : k0 ≤ k1) (hg : 0 ≤ g)
    (hs : ∀ n < 3, InInt (bLo n + 1) ∧ InInt (bHi n + 1))
    (hf0 : type = 1 → face = 0 → Reach i0 i1 g (bLo 0) 2 ∧ Part j0 j1 (bLo 1) (bHi 1) ∧ Part k0 k1 (bLo 2) (bHi 2))
    (hf1 : type = 1 → face = 1 → Reach i0 i1 g (bHi 0) (-2) ∧ Part j0 j1 (bLo 1) (bHi 1) ∧ Part k0 k1 (bLo 2) (bHi 2))
    (hf2 : type = 1 → face = 2 → Reach j0 j1 g (bLo 1) 2 ∧ Part i0 i1 (bLo 0) (bHi 0) ∧ Part k0 k1 (bLo 2) (bHi 2))
    (hf3 : type = 1 → face = 3 → Reach j0 j1 g (bHi 1) (-2) ∧ Part i0 i1 (bLo 0) (bHi 0) ∧ Part k0 k1 (bLo 2) (bHi 2))
    (hf4 : type = 1 → face = 4 → Reach k0 k1 g (bLo 2) 2 ∧ Part i0 i1 (bLo 0) (bHi 0) ∧ Part j0 j1 (bLo 1) (bHi 1))
    (hf5 : type = 1 → face = 5 → Reach k0 k1 g (bHi 2) (-2) ∧ Part i0 i1 (bLo 0) (bHi 0) ∧ Part j0 j1 (bLo 1) (bHi 1))
    (he0 : type = 2 → 0 ≤ face → face < 4 → Reach i0 i1 g (bLo 0) (dir0 face) ∧ Reach j0 j1 g (bLo 1) (dir1 face) ∧
      Part k0 k1 (bLo 2) (bHi 2))
    (he1 : type = 2 → 4 ≤ face → face < 8 → Reach i0 i1 g (bLo 0) (dir0 face) ∧ Reach k0 k1 g (bLo 2) (dir1 face) ∧
      Part j0 j1 (bLo 1) (bHi 1))
    (he2 : type = 2 → 8 ≤ face → face < 12 → Reach j0 j1 g (bLo 1) (dir0 face) ∧ Reach k0 k1 g (bLo 2) (dir1 face) ∧
      Part i0 i1 (bLo 0) (bHi 0))
    (hn : type = 3 → 0 ≤ face → face < 8 → Reach i0 i1 g (bLo 0) (dir0 face) ∧ Reach j0 j1 g (bLo 1) (dir1 face) ∧ Reach k0 k1 g (bLo 2) 0)
    (h : F.Args m [] [F.cell3d u i0 j0 k0 i1 j1 k1 g]) :
    ∃ m', Cuda.setPoissonBc3d i0 i1 j0 j1 k0 k1 dx g u bLo bHi exOrder face type btype alpha beta β m = .ok m' ∧
      F.cellsetpoissoncorrectionbc3d i0 i1 j0 j1 k0 k1 dx g u bLo bHi exOrder face type btype alpha beta m = .ok m' := by
  obtain ⟨Au, spu, Iu⟩ := cell3_setup (h.ok (F.cell3d u i0 j0 k0 i1 j1 k1 g) (by simp)) hi hj hk hg
  have hs0 := hs 0 (by decide)
  have hs1 := hs 1 (by decide)
  have hs2 := hs 2 (by decide)
  unfold InInt at Iu hs0 hs1 hs2
  have mkI := mkB_ok (d := .I) (lo := i0) (hi := i1) (by unfold InInt; omega)
  have mkIb := mkB_ok (d := .I) (lo := max (bLo 0) i0) (hi := min (bHi 0) i1) (by unfold InInt; omega)
  have mkIl := mkB_ok (d := .I) (lo := bLo 0) (hi := bLo 0) (by unfold InInt; omega)
  have mkIh := mkB_ok (d := .I) (lo := bHi 0) (hi := bHi 0) (by unfold InInt; omega)
  have mkJ := mkB_ok (d := .J) (lo := j0) (hi := j1) (by unfold InInt; omega)
  have mkJb := mkB_ok (d := .J) (lo := max (bLo 1) j0) (hi := min (bHi 1) j1) (by unfold InInt; omega)
  have mkJl := mkB_ok (d := .J) (lo := bLo 1) (hi := bLo 1) (by unfold InInt; omega)
  have mkJh := mkB_ok (d := .J) (lo := bHi 1) (hi := bHi 1) (by unfold InInt; omega)
  have mkK := mkB_ok (d := .K) (lo := k0) (hi := k1) (by unfold InInt; omega)
  have mkKb := mkB_ok (d := .K) (lo := max (bLo 2) k0) (hi := min (bHi 2) k1) (by unfold InInt; omega)
  have mkKl := mkB_ok (d := .K) (lo := bLo 2) (hi := bLo 2) (by unfold InInt; omega)
  have mkKh := mkB_ok (d := .K) (lo := bHi 2) (hi := bHi 2) (by unfold InInt; omega)
  show Both _ (F.cellsetpoissoncorrectionbc3d i0 i1 j0 j1 k0 k1 dx g u bLo bHi exOrder face type btype alpha beta) m
  unfold Cuda.setPoissonBc3d F.cellsetpoissoncorrectionbc3d
  refine Both.bind mkI <| Both.bind mkJ <| Both.bind mkK <| Both.bind spu <| Both.bind mkIb <| Both.bind mkJb <| Both.bind mkKb <| Both.bind mkIl <| Both.bind mkIh <| Both.bind mkJl <| Both.bind mkJh <| Both.bind mkKl <| Both.bind mkKh <| ?_
  refine Both.ite (fun t1 => ?_) (fun t1 => ?_)
  · refine Both.ite (fun e0 => ?_) (fun e0 => ?_)
    · obtain ⟨⟨⟨r1, r2⟩, r3, r4⟩, ⟨pj1, pj2, pj3⟩, ⟨pk1, pk2, pk3⟩⟩ := hf0 t1 e0
      rw [max_eq_left pj1, min_eq_left pj3]
      rw [max_eq_left pk1, min_eq_left pk3]
      have S := site3I (li := bLo 0) (xi := bLo 0 + 1 - 1) (aj := bLo 1) (bj := bHi 1) (ak := bLo 2) (bk := bHi 2) Au (by omega) (by omega) (by omega) (by omega)
      have A1 := at3I_I (ki := 1) (yi := bLo 0 + 1) S (by omega) (by omega) (by omega) (by decide) (by omega)
      have A2 := at3I_I (ki := 2) (yi := bLo 0 + 1 + 1) S (by omega) (by omega) (by omega) (by decide) (by omega)
      exact S.p1 L (hβ 0) A1 A2 (by bc_coef L) (by bc_coef L) (by bc_coef L)
    refine Both.ite (fun e1 => ?_) (fun e1 => ?_)
    · obtain ⟨⟨⟨r1, r2⟩, r3, r4⟩, ⟨pj1, pj2, pj3⟩, ⟨pk1, pk2, pk3⟩⟩ := hf1 t1 e1
      rw [max_eq_left pj1, min_eq_left pj3]
      rw [max_eq_left pk1, min_eq_left pk3]
      have S := site3I (li := bHi 0) (xi := bHi 0 - 1 + 1) (aj := bLo 1) (bj := bHi 1) (ak := bLo 2) (bk := bHi 2) Au (by omega) (by omega) (by omega) (by omega)
      have A1 := at3I_I (ki := -1) (yi := bHi 0 - 1) S (by omega) (by omega) (by omega) (by decide) (by omega)
      have A2 := at3I_I (ki := -2) (yi := bHi 0 - 1 - 1) S (by omega) (by omega) (by omega) (by decide) (by omega)
      exact S.p1 L (hβ 0) A1 A2 (by bc_coef L) (by bc_coef L) (by bc_coef L)
    refine Both.ite (fun e2 => ?_) (fun e2 => ?_)
    · obtain ⟨⟨⟨r1, r2⟩, r3, r4⟩, ⟨pi1, pi2, pi3⟩, ⟨pk1, pk2, pk3⟩⟩ := hf2 t1 e2
      rw [max_eq_left pi1, min_eq_left pi3]
      rw [max_eq_left pk1, min_eq_left pk3]
      have S := site3J (lj := bLo 1) (xj := bLo 1 + 1 - 1) (ai := bLo 0) (bi := bHi 0) (ak := bLo 2) (bk := bHi 2) Au (by omega) (by omega) (by omega) (by omega)
      have A1 := at3J_J (kj := 1) (yj := bLo 1 + 1) S (by omega) (by omega) (by omega) (by decide) (by omega)
      have A2 := at3J_J (kj := 2) (yj := bLo 1 + 1 + 1) S (by omega) (by omega) (by omega) (by decide) (by omega)
      exact S.p1 L (hβ 0) A1 A2 (by bc_coef L) (by bc_coef L) (by bc_coef L)
    refine Both.ite (fun e3 => ?_) (fun e3 => ?_)
    · obtain ⟨⟨⟨r1, r2⟩, r3, r4⟩, ⟨pi1, pi2, pi3⟩, ⟨pk1, pk2, pk3⟩⟩ := hf3 t1 e3
      rw [max_eq_left pi1, min_eq_left pi3]
      rw [max_eq_left pk1, min_eq_left pk3]
      have S := site3J (lj := bHi 1) (xj := bHi 1 - 1 + 1) (ai := bLo 0) (bi := bHi 0) (ak := bLo 2) (bk := bHi 2) Au (by omega) (by omega) (by omega) (by omega)
      have A1 := at3J_J (kj := -1) (yj := bHi 1 - 1) S (by omega) (by omega) (by omega) (by decide) (by omega)
      have A2 := at3J_J (kj := -2) (yj := bHi 1 - 1 - 1) S (by omega) (by omega) (by omega) (by decide) (by omega)
      exact S.p1 L (hβ 0) A1 A2 (by bc_coef L) (by bc_coef L) (by bc_coef L)
    refine Both.ite (fun e4 => ?_) (fun e4 => ?_)
    · obtain ⟨⟨⟨r1, r2⟩, r3, r4⟩, ⟨pi1, pi2, pi3⟩, ⟨pj1, pj2, pj3⟩⟩ := hf4 t1 e4
      rw [max_eq_left pi1, min_eq_left pi3]
      rw [max_eq_left pj1, min_eq_left pj3]
      have S := site3K (lk := bLo 2) (xk := bLo 2 + 1 - 1) (ai := bLo 0) (bi := bHi 0) (aj := bLo 1) (bj := bHi 1) Au (by omega) (by omega) (by omega) (by omega)
      have A1 := at3K_K (kk := 1) (yk := bLo 2 + 1) S (by omega) (by omega) (by omega) (by decide) (by omega)
      have A2 := at3K_K (kk := 2) (yk := bLo 2 + 1 + 1) S (by omega) (by omega) (by omega) (by decide) (by omega)
      exact S.p1 L (hβ 0) A1 A2 (by bc_coef L) (by bc_coef L) (by bc_coef L)
    refine Both.ite (fun e5 => ?_) (fun e5 => ?_)
    · obtain ⟨⟨⟨r1, r2⟩, r3, r4⟩, ⟨pi1, pi2, pi3⟩, ⟨pj1, pj2, pj3⟩⟩ := hf5 t1 e5
      rw [max_eq_left pi1, min_eq_left pi3]
      rw [max_eq_left pj1, min_eq_left pj3]
      have S := site3K (lk := bHi 2) (xk := bHi 2 - 1 + 1) (ai := bLo 0) (bi := bHi 0) (aj := bLo 1) (bj := bHi 1) Au (by omega) (by omega) (by omega) (by omega)
      have A1 := at3K_K (kk := -1) (yk := bHi 2 - 1) S (by omega) (by omega) (by omega) (by decide) (by omega)
      have A2 := at3K_K (kk := -2) (yk := bHi 2 - 1 - 1) S (by omega) (by omega) (by omega) (by decide) (by omega)
      exact S.p1 L (hβ 0) A1 A2 (by bc_coef L) (by bc_coef L) (by bc_coef L)
    exact Both.skip
  refine Both.ite (fun t2 => ?_) (fun t2 => ?_)
  · refine Both.ite (fun e0 => ?_) (fun e0 => ?_)
    · have hq := he0 t2 (by omega) (by omega)
      subst e0
      simp only [dir0, dir1, Reach, Part] at hq
      norm_num at hq
      rw [max_eq_left hq.2.2.1, min_eq_left hq.2.2.2.2]
      have S := site3IJ (li := bLo 0) (xi := bLo 0) (lj := bLo 1) (xj := bLo 1) (ak := bLo 2) (bk := bHi 2) Au (by omega) (by omega) (by omega) rfl rfl
      have A1 := at3IJ_IJ (ki := 1) (kj := 1) (yi := bLo 0 + 1) (yj := bLo 1 + 1) S (by omega) (by omega) (by decide) (by omega) (by omega) (by decide) (by omega)
      have A2 := at3IJ_I (ki := 1) (yi := bLo 0 + 1) (yj := bLo 1) S (by omega) (by omega) (by decide) (by omega) (by omega) (by omega)
      have A3 := at3IJ_J (kj := 1) (yi := bLo 0) (yj := bLo 1 + 1) S (by omega) (by omega) (by omega) (by omega) (by decide) (by omega)
      have B := S.t2 (lt (.inl t2)) (hβ 0) A1 A2 A3
      simp only [F.nest] at B
      exact B
    refine Both.ite (fun e1 => ?_) (fun e1 => ?_)
    · have hq := he0 t2 (by omega) (by omega)
      subst e1
      simp only [dir0, dir1, Reach, Part] at hq
      norm_num at hq
      rw [max_eq_left hq.2.2.1, min_eq_left hq.2.2.2.2]
      have S := site3IJ (li := bLo 0) (xi := bLo 0) (lj := bLo 1) (xj := bLo 1) (ak := bLo 2) (bk := bHi 2) Au (by omega) (by omega) (by omega) rfl rfl
      have A1 := at3IJ_IJ (ki := -1) (kj := 1) (yi := bLo 0 - 1) (yj := bLo 1 + 1) S (by omega) (by omega) (by decide) (by omega) (by omega) (by decide) (by omega)
      have A2 := at3IJ_I (ki := -1) (yi := bLo 0 - 1) (yj := bLo 1) S (by omega) (by omega) (by decide) (by omega) (by omega) (by omega)
      have A3 := at3IJ_J (kj := 1) (yi := bLo 0) (yj := bLo 1 + 1) S (by omega) (by omega) (by omega) (by omega) (by decide) (by omega)
      have B := S.t2 (lt (.inl t2)) (hβ 0) A1 A2 A3
      simp only [F.nest] at B
      exact B
    refine Both.ite (fun e2 => ?_) (fun e2 => ?_)
    · have hq := he0 t2 (by omega) (by omega)
      subst e2
      simp only [dir0, dir1, Reach, Part] at hq
      norm_num at hq
      rw [max_eq_left hq.2.2.1, min_eq_left hq.2.2.2.2]
      have S := site3IJ (li := bLo 0) (xi := bLo 0) (lj := bLo 1) (xj := bLo 1) (ak := bLo 2) (bk := bHi 2) Au (by omega) (by omega) (by omega) rfl rfl
      have A1 := at3IJ_IJ (ki := 1) (kj := -1) (yi := bLo 0 + 1) (yj := bLo 1 - 1) S (by omega) (by omega) (by decide) (by omega) (by omega) (by decide) (by omega)
      have A2 := at3IJ_I (ki := 1) (yi := bLo 0 + 1) (yj := bLo 1) S (by omega) (by omega) (by decide) (by omega) (by omega) (by omega)
      have A3 := at3IJ_J (kj := -1) (yi := bLo 0) (yj := bLo 1 - 1) S (by omega) (by omega) (by omega) (by omega) (by decide) (by omega)
      have B := S.t2 (lt (.inl t2)) (hβ 0) A1 A2 A3
      simp only [F.nest] at B
      exact B
    refine Both.ite (fun e3 => ?_) (fun e3 => ?_)
    · have hq := he0 t2 (by omega) (by omega)
      subst e3
      simp only [dir0, dir1, Reach, Part] at hq
      norm_num at hq
      rw [max_eq_left hq.2.2.1, min_eq_left hq.2.2.2.2]
      have S := site3IJ (li := bLo 0) (xi := bLo 0) (lj := bLo 1) (xj := bLo 1) (ak := bLo 2) (bk := bHi 2) Au (by omega) (by omega) (by omega) rfl rfl
      have A1 := at3IJ_IJ (ki := -1) (kj := -1) (yi := bLo 0 - 1) (yj := bLo 1 - 1) S (by omega) (by omega) (by decide) (by omega) (by omega) (by decide) (by omega)
      have A2 := at3IJ_I (ki := -1) (yi := bLo 0 - 1) (yj := bLo 1) S (by omega) (by omega) (by decide) (by omega) (by omega) (by omega)
      have A3 := at3IJ_J (kj := -1) (yi := bLo 0) (yj := bLo 1 - 1) S (by omega) (by omega) (by omega) (by omega) (by decide) (by omega)
      have B := S.t2 (lt (.inl t2)) (hβ 0) A1 A2 A3
      simp only [F.nest] at B
      exact B
    refine Both.ite (fun e4 => ?_) (fun e4 => ?_)
    · have hq := he1 t2 (by omega) (by omega)
      subst e4
      simp only [dir0, dir1, Reach, Part] at hq
      norm_num at hq
      rw [max_eq_left hq.2.2.1, min_eq_left hq.2.2.2.2]
      have S := site3IK (li := bLo 0) (xi := bLo 0) (lk := bLo 2) (xk := bLo 2) (aj := bLo 1) (bj := bHi 1) Au (by omega) (by omega) (by omega) rfl rfl
      have A1 := at3IK_IK (ki := 1) (kk := 1) (yi := bLo 0 + 1) (yk := bLo 2 + 1) S (by omega) (by omega) (by decide) (by omega) (by omega) (by decide) (by omega)
      have A2 := at3IK_I (ki := 1) (yi := bLo 0 + 1) (yk := bLo 2) S (by omega) (by omega) (by decide) (by omega) (by omega) (by omega)
      have A3 := at3IK_K (kk := 1) (yi := bLo 0) (yk := bLo 2 + 1) S (by omega) (by omega) (by omega) (by omega) (by decide) (by omega)
      have B := S.t2 (lt (.inl t2)) (hβ 0) A1 A2 A3
      simp only [F.nest] at B
      exact B
    refine Both.ite (fun e5 => ?_) (fun e5 => ?_)
    · have hq := he1 t2 (by omega) (by omega)
      subst e5
      simp only [dir0, dir1, Reach, Part] at hq
      norm_num at hq
      rw [max_eq_left hq.2.2.1, min_eq_left hq.2.2.2.2]
      have S := site3IK (li := bLo 0) (xi := bLo 0) (lk := bLo 2) (xk := bLo 2) (aj := bLo 1) (bj := bHi 1) Au (by omega) (by omega) (by omega) rfl rfl
      have A1 := at3IK_IK (ki := -1) (kk := 1) (yi := bLo 0 - 1) (yk := bLo 2 + 1) S (by omega) (by omega) (by decide) (by omega) (by omega) (by decide) (by omega)
      have A2 := at3IK_I (ki := -1) (yi := bLo 0 - 1) (yk := bLo 2) S (by omega) (by omega) (by decide) (by omega) (by omega) (by omega)
      have A3 := at3IK_K (kk := 1) (yi := bLo 0) (yk := bLo 2 + 1) S (by omega) (by omega) (by omega) (by omega) (by decide) (by omega)
      have B := S.t2 (lt (.inl t2)) (hβ 0) A1 A2 A3
      simp only [F.nest] at B
      exact B
    refine Both.ite (fun e6 => ?_) (fun e6 => ?_)
    · have hq := he1 t2 (by omega) (by omega)
      subst e6
      simp only [dir0, dir1, Reach, Part] at hq
      norm_num at hq
      rw [max_eq_left hq.2.2.1, min_eq_left hq.2.2.2.2]
      have S := site3IK (li := bLo 0) (xi := bLo 0) (lk := bLo 2) (xk := bLo 2) (aj := bLo 1) (bj := bHi 1) Au (by omega) (by omega) (by omega) rfl rfl
      have A1 := at3IK_IK (ki := 1) (kk := -1) (yi := bLo 0 + 1) (yk := bLo 2 - 1) S (by omega) (by omega) (by decide) (by omega) (by omega) (by decide) (by omega)
      have A2 := at3IK_I (ki := 1) (yi := bLo 0 + 1) (yk := bLo 2) S (by omega) (by omega) (by decide) (by omega) (by omega) (by omega)
      have A3 := at3IK_K (kk := -1) (yi := bLo 0) (yk := bLo 2 - 1) S (by omega) (by omega) (by omega) (by omega) (by decide) (by omega)
      have B := S.t2 (lt (.inl t2)) (hβ 0) A1 A2 A3
      simp only [F.nest] at B
      exact B
    refine Both.ite (fun e7 => ?_) (fun e7 => ?_)
    · have hq := he1 t2 (by omega) (by omega)
      subst e7
      simp only [dir0, dir1, Reach, Part] at hq
      norm_num at hq
      rw [max_eq_left hq.2.2.1, min_eq_left hq.2.2.2.2]
      have S := site3IK (li := bLo 0) (xi := bLo 0) (lk := bLo 2) (xk := bLo 2) (aj := bLo 1) (bj := bHi 1) Au (by omega) (by omega) (by omega) rfl rfl
      have A1 := at3IK_IK (ki := -1) (kk := -1) (yi := bLo 0 - 1) (yk := bLo 2 - 1) S (by omega) (by omega) (by decide) (by omega) (by omega) (by decide) (by omega)
      have A2 := at3IK_I (ki := -1) (yi := bLo 0 - 1) (yk := bLo 2) S (by omega) (by omega) (by decide) (by omega) (by omega) (by omega)
      have A3 := at3IK_K (kk := -1) (yi := bLo 0) (yk := bLo 2 - 1) S (by omega) (by omega) (by omega) (by omega) (by decide) (by omega)
      have B := S.t2 (lt (.inl t2)) (hβ 0) A1 A2 A3
      simp only [F.nest] at B
      exact B
    refine Both.ite (fun e8 => ?_) (fun e8 => ?_)
    · have hq := he2 t2 (by omega) (by omega)
      subst e8
      simp only [dir0, dir1, Reach, Part] at hq
      norm_num at hq
      rw [max_eq_left hq.2.2.1, min_eq_left hq.2.2.2.2]
      have S := site3JK (lj := bLo 1) (xj := bLo 1) (lk := bLo 2) (xk := bLo 2) (ai := bLo 0) (bi := bHi 0) Au (by omega) (by omega) (by omega) rfl rfl
      have A1 := at3JK_JK (kj := 1) (kk := 1) (yj := bLo 1 + 1) (yk := bLo 2 + 1) S (by omega) (by omega) (by decide) (by omega) (by omega) (by decide) (by omega)
      have A2 := at3JK_J (kj := 1) (yj := bLo 1 + 1) (yk := bLo 2) S (by omega) (by omega) (by decide) (by omega) (by omega) (by omega)
      have A3 := at3JK_K (kk := 1) (yj := bLo 1) (yk := bLo 2 + 1) S (by omega) (by omega) (by omega) (by omega) (by decide) (by omega)
      have B := S.t2 (lt (.inl t2)) (hβ 0) A1 A2 A3
      simp only [F.nest] at B
      exact B
    refine Both.ite (fun e9 => ?_) (fun e9 => ?_)
    · have hq := he2 t2 (by omega) (by omega)
      subst e9
      simp only [dir0, dir1, Reach, Part] at hq
      norm_num at hq
      rw [max_eq_left hq.2.2.1, min_eq_left hq.2.2.2.2]
      have S := site3JK (lj := bLo 1) (xj := bLo 1) (lk := bLo 2) (xk := bLo 2) (ai := bLo 0) (bi := bHi 0) Au (by omega) (by omega) (by omega) rfl rfl
      have A1 := at3JK_JK (kj := -1) (kk := 1) (yj := bLo 1 - 1) (yk := bLo 2 + 1) S (by omega) (by omega) (by decide) (by omega) (by omega) (by decide) (by omega)
      have A2 := at3JK_J (kj := -1) (yj := bLo 1 - 1) (yk := bLo 2) S (by omega) (by omega) (by decide) (by omega) (by omega) (by omega)
      have A3 := at3JK_K (kk := 1) (yj := bLo 1) (yk := bLo 2 + 1) S (by omega) (by omega) (by omega) (by omega) (by decide) (by omega)
      have B := S.t2 (lt (.inl t2)) (hβ 0) A1 A2 A3
      simp only [F.nest] at B
      exact B
    refine Both.ite (fun e10 => ?_) (fun e10 => ?_)
    · have hq := he2 t2 (by omega) (by omega)
      subst e10
      simp only [dir0, dir1, Reach, Part] at hq
      norm_num at hq
      rw [max_eq_left hq.2.2.1, min_eq_left hq.2.2.2.2]
      have S := site3JK (lj := bLo 1) (xj := bLo 1) (lk := bLo 2) (xk := bLo 2) (ai := bLo 0) (bi := bHi 0) Au (by omega) (by omega) (by omega) rfl rfl
      have A1 := at3JK_JK (kj := 1) (kk := -1) (yj := bLo 1 + 1) (yk := bLo 2 - 1) S (by omega) (by omega) (by decide) (by omega) (by omega) (by decide) (by omega)
      have A2 := at3JK_J (kj := 1) (yj := bLo 1 + 1) (yk := bLo 2) S (by omega) (by omega) (by decide) (by omega) (by omega) (by omega)
      have A3 := at3JK_K (kk := -1) (yj := bLo 1) (yk := bLo 2 - 1) S (by omega) (by omega) (by omega) (by omega) (by decide) (by omega)
      have B := S.t2 (lt (.inl t2)) (hβ 0) A1 A2 A3
      simp only [F.nest] at B
      exact B
    refine Both.ite (fun e11 => ?_) (fun e11 => ?_)
    · have hq := he2 t2 (by omega) (by omega)
      subst e11
      simp only [dir0, dir1, Reach, Part] at hq
      norm_num at hq
      rw [max_eq_left hq.2.2.1, min_eq_left hq.2.2.2.2]
      have S := site3JK (lj := bLo 1) (xj := bLo 1) (lk := bLo 2) (xk := bLo 2) (ai := bLo 0) (bi := bHi 0) Au (by omega) (by omega) (by omega) rfl rfl
      have A1 := at3JK_JK (kj := -1) (kk := -1) (yj := bLo 1 - 1) (yk := bLo 2 - 1) S (by omega) (by omega) (by decide) (by omega) (by omega) (by decide) (by omega)
      have A2 := at3JK_J (kj := -1) (yj := bLo 1 - 1) (yk := bLo 2) S (by omega) (by omega) (by decide) (by omega) (by omega) (by omega)
      have A3 := at3JK_K (kk := -1) (yj := bLo 1) (yk := bLo 2 - 1) S (by omega) (by omega) (by omega) (by omega) (by decide) (by omega)
      have B := S.t2 (lt (.inl t2)) (hβ 0) A1 A2 A3
      simp only [F.nest] at B
      exact B
    exact Both.skip
  refine Both.ite (fun t3 => ?_) (fun t3 => ?_)
  · refine Both.ite (fun e0 => ?_) (fun e0 => ?_)
    · have hq := hn t3 (by omega) (by omega)
      have hd0 : dir0 face = 1 := by rcases e0 with rfl | rfl <;> rfl
      have hd1 : dir1 face = 1 := by rcases e0 with rfl | rfl <;> rfl
      rw [hd0, hd1] at hq
      simp only [Reach] at hq
      have S := site3IJK (li := bLo 0) (xi := bLo 0) (lj := bLo 1) (xj := bLo 1) (lk := bLo 2) (xk := bLo 2) Au (by omega) (by omega) (by omega) rfl rfl rfl
      have A1 := at3IJK_IJ (ki := 1) (kj := 1) (yi := bLo 0 + 1) (yj := bLo 1 + 1) (yk := bLo 2) S (by omega) (by decide) (by omega) (by omega) (by decide) (by omega) (by omega) (by omega)
      have A2 := at3IJK_I (ki := 1) (yi := bLo 0 + 1) (yj := bLo 1) (yk := bLo 2) S (by omega) (by decide) (by omega) (by omega) (by omega) (by omega) (by omega)
      have A3 := at3IJK_J (kj := 1) (yi := bLo 0) (yj := bLo 1 + 1) (yk := bLo 2) S (by omega) (by omega) (by omega) (by decide) (by omega) (by omega) (by omega)
      have B := S.t2 (lt (.inr t3)) (hβ 0) A1 A2 A3
      simp only [F.nest] at B
      exact B
    refine Both.ite (fun e1 => ?_) (fun e1 => ?_)
    · have hq := hn t3 (by omega) (by omega)
      have hd0 : dir0 face = -1 := by rcases e1 with rfl | rfl <;> rfl
      have hd1 : dir1 face = 1 := by rcases e1 with rfl | rfl <;> rfl
      rw [hd0, hd1] at hq
      simp only [Reach] at hq
      have S := site3IJK (li := bLo 0) (xi := bLo 0) (lj := bLo 1) (xj := bLo 1) (lk := bLo 2) (xk := bLo 2) Au (by omega) (by omega) (by omega) rfl rfl rfl
      have A1 := at3IJK_IJ (ki := -1) (kj := 1) (yi := bLo 0 - 1) (yj := bLo 1 + 1) (yk := bLo 2) S (by omega) (by decide) (by omega) (by omega) (by decide) (by omega) (by omega) (by omega)
      have A2 := at3IJK_I (ki := -1) (yi := bLo 0 - 1) (yj := bLo 1) (yk := bLo 2) S (by omega) (by decide) (by omega) (by omega) (by omega) (by omega) (by omega)
      have A3 := at3IJK_J (kj := 1) (yi := bLo 0) (yj := bLo 1 + 1) (yk := bLo 2) S (by omega) (by omega) (by omega) (by decide) (by omega) (by omega) (by omega)
      have B := S.t2 (lt (.inr t3)) (hβ 0) A1 A2 A3
      simp only [F.nest] at B
      exact B
    refine Both.ite (fun e2 => ?_) (fun e2 => ?_)
    · have hq := hn t3 (by omega) (by omega)
      have hd0 : dir0 face = 1 := by rcases e2 with rfl | rfl <;> rfl
      have hd1 : dir1 face = -1 := by rcases e2 with rfl | rfl <;> rfl
      rw [hd0, hd1] at hq
      simp only [Reach] at hq
      have S := site3IJK (li := bLo 0) (xi := bLo 0) (lj := bLo 1) (xj := bLo 1) (lk := bLo 2) (xk := bLo 2) Au (by omega) (by omega) (by omega) rfl rfl rfl
      have A1 := at3IJK_IJ (ki := 1) (kj := -1) (yi := bLo 0 + 1) (yj := bLo 1 - 1) (yk := bLo 2) S (by omega) (by decide) (by omega) (by omega) (by decide) (by omega) (by omega) (by omega)
      have A2 := at3IJK_I (ki := 1) (yi := bLo 0 + 1) (yj := bLo 1) (yk := bLo 2) S (by omega) (by decide) (by omega) (by omega) (by omega) (by omega) (by omega)
      have A3 := at3IJK_J (kj := -1) (yi := bLo 0) (yj := bLo 1 - 1) (yk := bLo 2) S (by omega) (by omega) (by omega) (by decide) (by omega) (by omega) (by omega)
      have B := S.t2 (lt (.inr t3)) (hβ 0) A1 A2 A3
      simp only [F.nest] at B
      exact B
    refine Both.ite (fun e3 => ?_) (fun e3 => ?_)
    · have hq := hn t3 (by omega) (by omega)
      have hd0 : dir0 face = -1 := by rcases e3 with rfl | rfl <;> rfl
      have hd1 : dir1 face = -1 := by rcases e3 with rfl | rfl <;> rfl
      rw [hd0, hd1] at hq
      simp only [Reach] at hq
      have S := site3IJK (li := bLo 0) (xi := bLo 0) (lj := bLo 1) (xj := bLo 1) (lk := bLo 2) (xk := bLo 2) Au (by omega) (by omega) (by omega) rfl rfl rfl
      have A1 := at3IJK_IJ (ki := -1) (kj := -1) (yi := bLo 0 - 1) (yj := bLo 1 - 1) (yk := bLo 2) S (by omega) (by decide) (by omega) (by omega) (by decide) (by omega) (by omega) (by omega)
      have A2 := at3IJK_I (ki := -1) (yi := bLo 0 - 1) (yj := bLo 1) (yk := bLo 2) S (by omega) (by decide) (by omega) (by omega) (by omega) (by omega) (by omega)
      have A3 := at3IJK_J (kj := -1) (yi := bLo 0) (yj := bLo 1 - 1) (yk := bLo 2) S (by omega) (by omega) (by omega) (by decide) (by omega) (by omega) (by omega)
      have B := S.t2 (lt (.inr t3)) (hβ 0) A1 A2 A3
      simp only [F.nest] at B
      exact B
    exact Both.skip
  exact Both.skip

set_option maxHeartbeats 1000000 in
example : ∃ m', Cuda.setPoissonBc3d 0 7 0 6 0 5 exDxB 1 ⟨9, 0⟩ exLo exHi 2 0 1 1 3 5 (fun _ => revBackend) exB64 = .ok m' ∧
    F.cellsetpoissoncorrectionbc3d 0 7 0 6 0 5 exDxB 1 ⟨9, 0⟩ exLo exHi 2 0 1 1 3 5 exB64 = .ok m' :=
  C49_poisson_bc_3d_partial (fun _ => revBackend_ok) B64.rounding (fun h => absurd h (by decide)) (by decide) (by decide) (by decide) (by decide) (by ex_seg) (by ex_seg) (by ex_seg) (by ex_seg) (by ex_seg) (by ex_seg) (by ex_seg) (by ex_seg) (by ex_seg) (by ex_seg) (by ex_seg) (by ex_argsB)

/-- `cd_correct_bc_2d_cuda::set_corner_bc` and `cellsetinteriorcornerbc2d` leave the same memory in every arithmetic that obeys the laws rounding keeps, for every face and schedule. -/
theorem C49_corner_bc_2d {i0 j0 i1 j1 g exOrder face type btype : Int} {dx : Nat → T} {d0 d1 u : Ptr} {bLo bHi : Nat → Int}
    {β : Nat → Backend} {m : Mem T} (hβ : ∀ n, ValidBackend (β n)) (L : Rounding T) (hi : i0 ≤ i1) (hj : j0 ≤ j1) (hg : 0 ≤ g)
    (hs : ∀ n < 2, InInt (bLo n + 1) ∧ InInt (bHi n + 1))
    (hn : 0 ≤ face → face < 4 → Reach i0 i1 g (if face % 2 = 0 then bLo 0 else bHi 0) (dir0 face) ∧
      Reach j0 j1 g (if face < 2 then bLo 1 else bHi 1) (dir1 face))
    (h : F.Args m [] [F.cell2d u i0 j0 i1 j1 g]) :
    ∃ m', Cuda.setCornerBc2d i0 i1 j0 j1 g dx d0 d1 u bLo bHi exOrder face type btype β m = .ok m' ∧
      F.cellsetinteriorcornerbc2d i0 i1 j0 j1 g dx d0 d1 u bLo bHi exOrder face type btype m = .ok m' := by
  obtain ⟨Au, spu, Iu⟩ := cell2_setup (h.ok (F.cell2d u i0 j0 i1 j1 g) (by simp)) hi hj hg
  have hs0 := hs 0 (by decide)
  have hs1 := hs 1 (by decide)
  unfold InInt at Iu hs0 hs1
  have mkI := mkB_ok (d := .I) (lo := i0) (hi := i1) (by unfold InInt; omega)
  have mkIl := mkB_ok (d := .I) (lo := bLo 0) (hi := bLo 0) (by unfold InInt; omega)
  have mkIh := mkB_ok (d := .I) (lo := bHi 0) (hi := bHi 0) (by unfold InInt; omega)
  have mkJ := mkB_ok (d := .J) (lo := j0) (hi := j1) (by unfold InInt; omega)
  have mkJl := mkB_ok (d := .J) (lo := bLo 1) (hi := bLo 1) (by unfold InInt; omega)
  have mkJh := mkB_ok (d := .J) (lo := bHi 1) (hi := bHi 1) (by unfold InInt; omega)
  show Both _ (F.cellsetinteriorcornerbc2d i0 i1 j0 j1 g dx d0 d1 u bLo bHi exOrder face type btype) m
  unfold Cuda.setCornerBc2d F.cellsetinteriorcornerbc2d
  refine Both.bind mkI <| Both.bind mkJ <| Both.bind spu <| Both.bind mkIl <| Both.bind mkIh <| Both.bind mkJl <| Both.bind mkJh <| ?_
  refine Both.ite (fun e0 => ?_) (fun e0 => ?_)
  · have hq := hn (by omega) (by omega)
    subst e0
    simp only [dir0, dir1, Reach] at hq
    norm_num at hq
    have S := site2IJ (lj := bLo 1) (li := bLo 0) (xj := bLo 1) (xi := bLo 0) Au (by omega) (by omega) rfl rfl
    have A1 := at2IJ_IJ (ki := 1) (kj := 1) (yi := bLo 0 + 1) (yj := bLo 1 + 1) S (by omega) (by decide) (by omega) (by omega) (by decide) (by omega)
    have B := S.corner L (hβ 0) A1
    simp only [F.nest] at B
    exact B
  refine Both.ite (fun e1 => ?_) (fun e1 => ?_)
  · have hq := hn (by omega) (by omega)
    subst e1
    simp only [dir0, dir1, Reach] at hq
    norm_num at hq
    have S := site2IJ (lj := bLo 1) (li := bHi 0) (xj := bLo 1) (xi := bHi 0) Au (by omega) (by omega) rfl rfl
    have A1 := at2IJ_IJ (ki := -1) (kj := 1) (yi := bHi 0 - 1) (yj := bLo 1 + 1) S (by omega) (by decide) (by omega) (by omega) (by decide) (by omega)
    have B := S.corner L (hβ 0) A1
    simp only [F.nest] at B
    exact B
  refine Both.ite (fun e2 => ?_) (fun e2 => ?_)
  · have hq := hn (by omega) (by omega)
    subst e2
    simp only [dir0, dir1, Reach] at hq
    norm_num at hq
    have S := site2IJ (lj := bHi 1) (li := bLo 0) (xj := bHi 1) (xi := bLo 0) Au (by omega) (by omega) rfl rfl
    have A1 := at2IJ_IJ (ki := 1) (kj := -1) (yi := bLo 0 + 1) (yj := bHi 1 - 1) S (by omega) (by decide) (by omega) (by omega) (by decide) (by omega)
    have B := S.corner L (hβ 0) A1
    simp only [F.nest] at B
    exact B
  refine Both.ite (fun e3 => ?_) (fun e3 => ?_)
  · have hq := hn (by omega) (by omega)
    subst e3
    simp only [dir0, dir1, Reach] at hq
    norm_num at hq
    have S := site2IJ (lj := bHi 1) (li := bHi 0) (xj := bHi 1) (xi := bHi 0) Au (by omega) (by omega) rfl rfl
    have A1 := at2IJ_IJ (ki := -1) (kj := -1) (yi := bHi 0 - 1) (yj := bHi 1 - 1) S (by omega) (by decide) (by omega) (by omega) (by decide) (by omega)
    have B := S.corner L (hβ 0) A1
    simp only [F.nest] at B
    exact B
  exact Both.skip

set_option maxHeartbeats 1000000 in
example : ∃ m', Cuda.setCornerBc2d 0 7 0 7 1 exDxB ⟨0, 0⟩ ⟨1, 0⟩ ⟨9, 0⟩ exLo exHi 2 1 2 1 (fun _ => revBackend) exB64 = .ok m' ∧
    F.cellsetinteriorcornerbc2d 0 7 0 7 1 exDxB ⟨0, 0⟩ ⟨1, 0⟩ ⟨9, 0⟩ exLo exHi 2 1 2 1 exB64 = .ok m' :=
  C49_corner_bc_2d (fun _ => revBackend_ok) B64.rounding (by decide) (by decide) (by decide) (by ex_seg) (by ex_seg) (by ex_argsB)

/-- `cd_correct_bc_2d_cuda::set_homogenous_bc` and `cellsethomogenousbc2d` leave the same memory in every arithmetic that obeys the laws rounding keeps, for every face and schedule, when the order is one of
1, 2, 3, 4 and the segment meets the box; `C35_homogenous_2d_false` has order 0. -/
theorem C49_homogenous_bc_2d_partial {i0 j0 i1 j1 exOrder face : Int} {u : Ptr} {bLo bHi : Nat → Int}
    {β : Nat → Backend} {m : Mem T} (hβ : ∀ n, ValidBackend (β n)) (L : Rounding T) (hi : i0 ≤ i1) (hj : j0 ≤ j1)
    (hs : ∀ n < 2, InInt (bLo n + 1) ∧ InInt (bHi n + 1)) (ho : 1 ≤ exOrder ∧ exOrder ≤ 4)
    (hx : face = 0 ∨ face = 1 → Reach i0 i1 1 (i0 - 1) exOrder ∧ Meets j0 j1 (bLo 1) (bHi 1))
    (hy : face = 2 ∨ face = 3 → Reach j0 j1 1 (j0 - 1) exOrder ∧ Meets i0 i1 (bLo 0) (bHi 0))
    (h : F.Args m [] [F.cell2d u i0 j0 i1 j1 1]) :
    ∃ m', Cuda.setHomogenousBc2d i0 j0 i1 j1 face bLo bHi exOrder u β m = .ok m' ∧
      F.cellsethomogenousbc2d i0 j0 i1 j1 face bLo bHi exOrder u m = .ok m' := by
  obtain ⟨Au, spu, Iu⟩ := cell2_setup (h.ok (F.cell2d u i0 j0 i1 j1 1) (by simp)) hi hj (by decide)
  have hs0 := hs 0 (by decide)
  have hs1 := hs 1 (by decide)
  unfold InInt at Iu hs0 hs1
  have mkI := mkB_ok (d := .I) (lo := i0) (hi := i1) (by unfold InInt; omega)
  have mkJ := mkB_ok (d := .J) (lo := j0) (hi := j1) (by unfold InInt; omega)
  have mkIb := mkB_ok (d := .I) (lo := max i0 (bLo 0)) (hi := min i1 (bHi 0)) (by unfold InInt; omega)
  have mkJb := mkB_ok (d := .J) (lo := max j0 (bLo 1)) (hi := min j1 (bHi 1)) (by unfold InInt; omega)
  have sI : isub i0 1 = .ok (i0 - 1) := isub_ok (by unfold InInt; omega)
  have aI : iadd i1 1 = .ok (i1 + 1) := iadd_ok (by unfold InInt; omega)
  have sJ : isub j0 1 = .ok (j0 - 1) := isub_ok (by unfold InInt; omega)
  have aJ : iadd j1 1 = .ok (j1 + 1) := iadd_ok (by unfold InInt; omega)
  have mkIl := mkB_ok (d := .I) (lo := i0 - 1) (hi := i0 - 1) (by unfold InInt; omega)
  have mkIh := mkB_ok (d := .I) (lo := i1 + 1) (hi := i1 + 1) (by unfold InInt; omega)
  have mkJl := mkB_ok (d := .J) (lo := j0 - 1) (hi := j0 - 1) (by unfold InInt; omega)
  have mkJh := mkB_ok (d := .J) (lo := j1 + 1) (hi := j1 + 1) (by unfold InInt; omega)
  show Both _ (F.cellsethomogenousbc2d i0 j0 i1 j1 face bLo bHi exOrder u) m
  unfold Cuda.setHomogenousBc2d F.cellsethomogenousbc2d
  refine Both.bind mkI <| Both.bind mkJ <| Both.bind spu <| Both.bind mkIb <| Both.bind mkJb <| Both.bind sI <| Both.bind mkIl <| Both.bind aI <|
    Both.bind mkIh <| Both.bind sJ <| Both.bind mkJl <| Both.bind aJ <| Both.bind mkJh <| ?_
  refine Both.ite (fun e0 => ?_) (fun e0 => ?_)
  · obtain ⟨hr, hm⟩ := hx (by omega)
    simp only [Reach, Meets] at hr hm
    have S := site2I (li := i0 - 1) (xi := i0 - 1) (aj := max j0 (bLo 1)) (bj := min j1 (bHi 1)) Au (by omega) (by omega) rfl
    have A1 := at2I_I (ki := 1) (yi := i0 - 1 + 1) S (by omega) (by omega) (by decide) (by omega)
    have A2 := fun h2 : 2 ≤ exOrder => at2I_I (ki := 2) (yi := i0 - 1 + 2) S (by omega) (by omega) (by decide) (by omega)
    have A3 := fun h3 : 3 ≤ exOrder => at2I_I (ki := 3) (yi := i0 - 1 + 3) S (by omega) (by omega) (by decide) (by omega)
    have A4 := fun h4 : 4 ≤ exOrder => at2I_I (ki := 4) (yi := i0 - 1 + 4) S (by omega) (by omega) (by decide) (by omega)
    have B := S.hom (jx := fun io p => [i0 - 1 + io, p .J]) L (hβ 0) ho A1 A2 A3 A4
    simp only [F.nest] at B
    refine Both.seq (f := F.doLoop (max j0 (bLo 1)) (min j1 (bHi 1)) fun x => homBody exOrder (F.cell2d u i0 j0 i1 j1 1) [i0 - 1, x] (F.cell2d u i0 j0 i1 j1 1) fun io => [i0 - 1 + io, x])
      B (keeps_loop fun _ => keeps_hom) fun m1 k1 => ?_
    have S0 := site2IJ (lj := j0 - 1) (li := i0 - 1) (xj := j0 - 1) (xi := i0 - 1) (Au.mono k1) (by omega) (by omega) rfl rfl
    have C0 := S0.copy L (hβ 1) (at2IJ_IJ (ki := 1) (kj := 1) (yi := i0) (yj := j0) S0 (by omega) (by decide) (by omega) (by omega) (by decide) (by omega))
    simp only [F.nest] at C0
    refine Both.seq C0 keeps_assign fun m2 k2 => ?_
    have S1 := site2IJ (lj := j1 + 1) (li := i0 - 1) (xj := j1 + 1) (xi := i0 - 1) ((Au.mono k1).mono k2) (by omega) (by omega) rfl rfl
    have C1 := S1.copy L (hβ 2) (at2IJ_IJ (ki := 1) (kj := -1) (yi := i0) (yj := j1) S1 (by omega) (by decide) (by omega) (by omega) (by decide) (by omega))
    simp only [F.nest] at C1
    exact Both.last C1
  refine Both.ite (fun e1 => ?_) (fun e1 => ?_)
  · obtain ⟨hr, hm⟩ := hx (by omega)
    simp only [Reach, Meets] at hr hm
    have S := site2I (li := i1 + 1) (xi := i1 + 1) (aj := max j0 (bLo 1)) (bj := min j1 (bHi 1)) Au (by omega) (by omega) rfl
    have A1 := at2I_I (ki := -1) (yi := i1 + 1 - 1) S (by omega) (by omega) (by decide) (by omega)
    have A2 := fun h2 : 2 ≤ exOrder => at2I_I (ki := -2) (yi := i1 + 1 - 2) S (by omega) (by omega) (by decide) (by omega)
    have A3 := fun h3 : 3 ≤ exOrder => at2I_I (ki := -3) (yi := i1 + 1 - 3) S (by omega) (by omega) (by decide) (by omega)
    have A4 := fun h4 : 4 ≤ exOrder => at2I_I (ki := -4) (yi := i1 + 1 - 4) S (by omega) (by omega) (by decide) (by omega)
    have B := S.hom (jx := fun io p => [i1 + 1 - io, p .J]) L (hβ 0) ho A1 A2 A3 A4
    simp only [F.nest] at B
    refine Both.seq (f := F.doLoop (max j0 (bLo 1)) (min j1 (bHi 1)) fun x => homBody exOrder (F.cell2d u i0 j0 i1 j1 1) [i1 + 1, x] (F.cell2d u i0 j0 i1 j1 1) fun io => [i1 + 1 - io, x])
      B (keeps_loop fun _ => keeps_hom) fun m1 k1 => ?_
    have S0 := site2IJ (lj := j0 - 1) (li := i1 + 1) (xj := j0 - 1) (xi := i1 + 1) (Au.mono k1) (by omega) (by omega) rfl rfl
    have C0 := S0.copy L (hβ 1) (at2IJ_IJ (ki := -1) (kj := 1) (yi := i1) (yj := j0) S0 (by omega) (by decide) (by omega) (by omega) (by decide) (by omega))
    simp only [F.nest] at C0
    refine Both.seq C0 keeps_assign fun m2 k2 => ?_
    have S1 := site2IJ (lj := j1 + 1) (li := i1 + 1) (xj := j1 + 1) (xi := i1 + 1) ((Au.mono k1).mono k2) (by omega) (by omega) rfl rfl
    have C1 := S1.copy L (hβ 2) (at2IJ_IJ (ki := -1) (kj := -1) (yi := i1) (yj := j1) S1 (by omega) (by decide) (by omega) (by omega) (by decide) (by omega))
    simp only [F.nest] at C1
    exact Both.last C1
  refine Both.ite (fun e2 => ?_) (fun e2 => ?_)
  · obtain ⟨hr, hm⟩ := hy (by omega)
    simp only [Reach, Meets] at hr hm
    have S := site2J (lj := j0 - 1) (xj := j0 - 1) (ai := max i0 (bLo 0)) (bi := min i1 (bHi 0)) Au (by omega) (by omega) rfl
    have A1 := at2J_J (kj := 1) (yj := j0 - 1 + 1) S (by omega) (by omega) (by decide) (by omega)
    have A2 := fun h2 : 2 ≤ exOrder => at2J_J (kj := 2) (yj := j0 - 1 + 2) S (by omega) (by omega) (by decide) (by omega)
    have A3 := fun h3 : 3 ≤ exOrder => at2J_J (kj := 3) (yj := j0 - 1 + 3) S (by omega) (by omega) (by decide) (by omega)
    have A4 := fun h4 : 4 ≤ exOrder => at2J_J (kj := 4) (yj := j0 - 1 + 4) S (by omega) (by omega) (by decide) (by omega)
    have B := S.hom (jx := fun io p => [p .I, j0 - 1 + io]) L (hβ 0) ho A1 A2 A3 A4
    simp only [F.nest] at B
    refine Both.seq (f := F.doLoop (max i0 (bLo 0)) (min i1 (bHi 0)) fun x => homBody exOrder (F.cell2d u i0 j0 i1 j1 1) [x, j0 - 1] (F.cell2d u i0 j0 i1 j1 1) fun io => [x, j0 - 1 + io])
      B (keeps_loop fun _ => keeps_hom) fun m1 k1 => ?_
    have S0 := site2IJ (lj := j0 - 1) (li := i0 - 1) (xj := j0 - 1) (xi := i0 - 1) (Au.mono k1) (by omega) (by omega) rfl rfl
    have C0 := S0.copy L (hβ 1) (at2IJ_IJ (ki := 1) (kj := 1) (yi := i0) (yj := j0) S0 (by omega) (by decide) (by omega) (by omega) (by decide) (by omega))
    simp only [F.nest] at C0
    refine Both.seq C0 keeps_assign fun m2 k2 => ?_
    have S1 := site2IJ (lj := j0 - 1) (li := i1 + 1) (xj := j0 - 1) (xi := i1 + 1) ((Au.mono k1).mono k2) (by omega) (by omega) rfl rfl
    have C1 := S1.copy L (hβ 2) (at2IJ_IJ (ki := -1) (kj := 1) (yi := i1) (yj := j0) S1 (by omega) (by decide) (by omega) (by omega) (by decide) (by omega))
    simp only [F.nest] at C1
    exact Both.last C1
  refine Both.ite (fun e3 => ?_) (fun e3 => ?_)
  · obtain ⟨hr, hm⟩ := hy (by omega)
    simp only [Reach, Meets] at hr hm
    have S := site2J (lj := j1 + 1) (xj := j1 + 1) (ai := max i0 (bLo 0)) (bi := min i1 (bHi 0)) Au (by omega) (by omega) rfl
    have A1 := at2J_J (kj := -1) (yj := j1 + 1 - 1) S (by omega) (by omega) (by decide) (by omega)
    have A2 := fun h2 : 2 ≤ exOrder => at2J_J (kj := -2) (yj := j1 + 1 - 2) S (by omega) (by omega) (by decide) (by omega)
    have A3 := fun h3 : 3 ≤ exOrder => at2J_J (kj := -3) (yj := j1 + 1 - 3) S (by omega) (by omega) (by decide) (by omega)
    have A4 := fun h4 : 4 ≤ exOrder => at2J_J (kj := -4) (yj := j1 + 1 - 4) S (by omega) (by omega) (by decide) (by omega)
    have B := S.hom (jx := fun io p => [p .I, j1 + 1 - io]) L (hβ 0) ho A1 A2 A3 A4
    simp only [F.nest] at B
    refine Both.seq (f := F.doLoop (max i0 (bLo 0)) (min i1 (bHi 0)) fun x => homBody exOrder (F.cell2d u i0 j0 i1 j1 1) [x, j1 + 1] (F.cell2d u i0 j0 i1 j1 1) fun io => [x, j1 + 1 - io])
      B (keeps_loop fun _ => keeps_hom) fun m1 k1 => ?_
    have S0 := site2IJ (lj := j1 + 1) (li := i0 - 1) (xj := j1 + 1) (xi := i0 - 1) (Au.mono k1) (by omega) (by omega) rfl rfl
    have C0 := S0.copy L (hβ 1) (at2IJ_IJ (ki := 1) (kj := -1) (yi := i0) (yj := j1) S0 (by omega) (by decide) (by omega) (by omega) (by decide) (by omega))
    simp only [F.nest] at C0
    refine Both.seq C0 keeps_assign fun m2 k2 => ?_
    have S1 := site2IJ (lj := j1 + 1) (li := i1 + 1) (xj := j1 + 1) (xi := i1 + 1) ((Au.mono k1).mono k2) (by omega) (by omega) rfl rfl
    have C1 := S1.copy L (hβ 2) (at2IJ_IJ (ki := -1) (kj := -1) (yi := i1) (yj := j1) S1 (by omega) (by decide) (by omega) (by omega) (by decide) (by omega))
    simp only [F.nest] at C1
    exact Both.last C1
  exact Both.skip

example : ∃ m', Cuda.setHomogenousBc2d 0 0 7 7 2 exLo exHi 3 ⟨9, 0⟩ (fun _ => revBackend) exB64 = .ok m' ∧
    F.cellsethomogenousbc2d 0 0 7 7 2 exLo exHi 3 ⟨9, 0⟩ exB64 = .ok m' :=
  C49_homogenous_bc_2d_partial (fun _ => revBackend_ok) B64.rounding (by decide) (by decide) (by ex_seg) (by decide) (by ex_seg) (by ex_seg) (by ex_argsB)

end Verif
