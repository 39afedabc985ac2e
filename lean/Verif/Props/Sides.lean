import Verif.Props.Bc
import Verif.Lemmas.Sides
import Verif.Props.RoundBc

/-
C80: boundary segments of one kind can be filled in any order, and filling them again changes nothing.
-/

namespace Verif
open Spec

variable {T : Type} [Field T]

/-- a call of the examples -/
def exSide (lo hi : Nat → Int) (face btype : Int) : BcCall Rat := ⟨lo, hi, 2, face, btype, 3, 5, fun _ => revBackend⟩

/-- closes the hypotheses about a concrete list of calls -/
macro "ex_usable" : tactic => `(tactic| (
  simp only [List.forall_mem_cons, List.not_mem_nil, false_imp_iff, implies_true, and_true, BcCall.Usable, exSide, InInt]
  repeat' apply And.intro
  all_goals first | exact fun _ => revBackend_ok | decide +kernel))

macro "ex_along" : tactic => `(tactic| (
  simp only [List.forall_mem_cons, List.not_mem_nil, false_imp_iff, implies_true, and_true, BcCall.Along1, BcCall.Along2, BcCall.Along3, Part, nextTo, exSide, exSeg]
  repeat' apply And.intro
  all_goals first | decide +kernel | omega))

macro "ex_separate" : tactic => `(tactic| (
  simp only [List.forall_mem_cons, List.not_mem_nil, false_imp_iff, implies_true, and_true]
  repeat' apply And.intro
  all_goals first
    | exact Or.inl rfl
    | (refine Or.inr fun p h h' => ?_
       simp [F.onSeg1, exSide, exSeg] at h h'
       have e := h.symm.trans h'
       simp at e)
    | (refine Or.inr ?_
       rintro p ⟨i, j, r, h⟩ ⟨i', j', e, h'⟩
       subst r
       simp only [exSide, exSeg, List.cons.injEq, and_true] at e h h'
       omega)
    | (refine Or.inr ?_
       rintro p ⟨i, j, k, r, h⟩ ⟨i', j', k', e, h'⟩
       subst r
       simp only [exSide, exSeg, List.cons.injEq, and_true] at e h h'
       omega)))

/-- closes what a kernel needs to know about a segment next to the box -/
macro "beside" : tactic => `(tactic| (
  intros
  simp only [Reach, OnFaces, Part, Spec.Meets, dir0, dir1, nextTo] at *
  (repeat' split) <;> omega))

/-- Calls of `cd_correct_bc_1d_cuda::set_bc` for the two cells next to the box of a box at least two cells wide, for segments without common cells, can be made in any order, and repeated, whatever the orders, boundary types, coefficients, schedules and contents. -/
theorem C80_1d {i0 i1 g dg : Int} {dx : Nat → T} {d0 u : Ptr} {l : List (BcCall T)} {m : Mem T} (hwi : i0 < i1) (hg : 1 ≤ g) (hdg : 0 ≤ dg)
    (hu : ∀ c ∈ l, c.Usable 1) (hl : ∀ c ∈ l, c.Along1 i0 i1) (hs : ∀ c ∈ l, ∀ d ∈ l, Separate (fun c : BcCall T => F.onSeg1 c.lo c.hi c.face) c d)
    (h : F.Args m [F.face1d d0 i0 i1 dg] [F.cell1d u i0 i1 g]) :
    AnyOrder (fun c : BcCall T => Cuda.setBc1d i0 i1 dx dg d0 g u c.lo c.hi c.order c.face c.btype c.alpha c.beta c.sched) l m := by
  refine sides_of (a := F.cell1d u i0 i1 g) (ins := [F.face1d d0 i0 i1 dg]) (R := outside1 i0 i1)
    (cmd := fun c : BcCall T => F.cellsetcorrectionbc1d i0 i1 dx dg d0 g u c.lo c.hi c.order c.face c.btype c.alpha c.beta)
    hs ?_ ?_ ?_ ?_ h
  · intro c hc m hm
    obtain ⟨u1, u2⟩ := hu c hc
    obtain ⟨c1, c2⟩ := hl c hc
    clear hu hl hs h
    exact C35_1d u2 (by omega) (by omega) hdg u1
      (by intro a; have hh := c1 a; clear c1 c2; beside)
      (by intro a; have hh := c2 a; clear c1 c2; beside) hm
  · intro c _; exact touches_bc1
  · intro c hc; exact blind_bc1 hwi (hl c hc) (h.apart _ (by simp) _ (by simp))
  · intro c hc p hp; exact seg1_out (hl c hc) hp

set_option maxHeartbeats 1000000 in
example : AnyOrder (fun c : BcCall Rat => Cuda.setBc1d 0 7 exDx 1 ⟨0, 0⟩ 1 ⟨1, 0⟩ c.lo c.hi c.order c.face c.btype c.alpha c.beta c.sched) [exSide (exSeg (-1) 0 0) (exSeg (-1) 0 0) 0 0, exSide (exSeg 8 0 0) (exSeg 8 0 0) 1 1] exRat :=
  C80_1d (by decide) (by decide) (by decide) (by ex_usable) (by ex_along) (by ex_separate) (by ex_args)

/-- Calls of `cd_correct_bc_1d_cuda::set_poisson_bc` for the two cells next to the box of a box at least two cells wide, for segments without common cells, can be made in any order, and repeated, whatever the orders, boundary types, coefficients, schedules and contents. -/
theorem C80_poisson_1d {i0 i1 g : Int} {dx : Nat → T} {u : Ptr} {l : List (BcCall T)} {m : Mem T} (hwi : i0 < i1) (hg : 1 ≤ g)
    (hu : ∀ c ∈ l, c.Usable 1) (hl : ∀ c ∈ l, c.Along1 i0 i1) (hs : ∀ c ∈ l, ∀ d ∈ l, Separate (fun c : BcCall T => F.onSeg1 c.lo c.hi c.face) c d)
    (h : F.Args m [] [F.cell1d u i0 i1 g]) :
    AnyOrder (fun c : BcCall T => Cuda.setPoissonBc1d i0 i1 dx g u c.lo c.hi c.order c.face c.btype c.alpha c.beta c.sched) l m := by
  refine sides_of (a := F.cell1d u i0 i1 g) (ins := []) (R := outside1 i0 i1)
    (cmd := fun c : BcCall T => F.cellsetpoissoncorrectionbc1d i0 i1 dx g u c.lo c.hi c.order c.face c.btype c.alpha c.beta)
    hs ?_ ?_ ?_ ?_ h
  · intro c hc m hm
    obtain ⟨u1, u2⟩ := hu c hc
    obtain ⟨c1, c2⟩ := hl c hc
    clear hu hl hs h
    exact C35_poisson_1d u2 (by omega) (by omega) u1
      (by intro a; have hh := c1 a; clear c1 c2; beside)
      (by intro a; have hh := c2 a; clear c1 c2; beside) hm
  · intro c _; exact touches_pbc1
  · intro c hc; exact blind_pbc1 hwi (hl c hc)
  · intro c hc p hp; exact seg1_out (hl c hc) hp

set_option maxHeartbeats 1000000 in
example : AnyOrder (fun c : BcCall Rat => Cuda.setPoissonBc1d 0 7 exDx 1 ⟨1, 0⟩ c.lo c.hi c.order c.face c.btype c.alpha c.beta c.sched) [exSide (exSeg (-1) 0 0) (exSeg (-1) 0 0) 0 0, exSide (exSeg 8 0 0) (exSeg 8 0 0) 1 1] exRat :=
  C80_poisson_1d (by decide) (by decide) (by ex_usable) (by ex_along) (by ex_separate) (by ex_args)

/-- Calls of `cd_correct_bc_2d_cuda::set_bc` for sides (type 1) or corners (type 2) of a box at least two cells wide, for segments without common cells, can be made in any order, and repeated, whatever the orders, boundary types, coefficients, schedules and contents. -/
theorem C80_2d {i0 j0 i1 j1 g dg type : Int} {dx : Nat → T} {d0 d1 u : Ptr} {l : List (BcCall T)} {m : Mem T} (hwi : i0 < i1) (hwj : j0 < j1) (hg : 1 ≤ g) (hdg : 0 ≤ dg)
    (hu : ∀ c ∈ l, c.Usable 2) (hl : ∀ c ∈ l, c.Along2 type i0 j0 i1 j1) (hs : ∀ c ∈ l, ∀ d ∈ l, Separate (fun c : BcCall T => F.onSeg2 c.lo c.hi type c.face) c d)
    (h : F.Args m [F.face2d0 d0 i0 j0 i1 j1 dg, F.face2d1 d1 i0 j0 i1 j1 dg] [F.cell2d u i0 j0 i1 j1 g]) :
    AnyOrder (fun c : BcCall T => Cuda.setBc2d i0 i1 j0 j1 dx dg d0 d1 g u c.lo c.hi c.order c.face type c.btype c.alpha c.beta c.sched) l m := by
  refine sides_of (a := F.cell2d u i0 j0 i1 j1 g) (ins := [F.face2d0 d0 i0 j0 i1 j1 dg, F.face2d1 d1 i0 j0 i1 j1 dg]) (R := outside2 type i0 j0 i1 j1)
    (cmd := fun c : BcCall T => F.cellsetcorrectionbc2d i0 i1 j0 j1 dx dg d0 d1 g u c.lo c.hi c.order c.face type c.btype c.alpha c.beta)
    hs ?_ ?_ ?_ ?_ h
  · intro c hc m hm
    obtain ⟨u1, u2⟩ := hu c hc
    obtain ⟨c1, c2, c3, c4, c5, c6, c7, c8⟩ := hl c hc
    clear hu hl hs h
    exact C35_2d_partial u2 (by omega) (by omega) (by omega) hdg u1
      (by intro a b; have hh := c1 a b; clear c1 c2 c3 c4 c5 c6 c7 c8; beside)
      (by intro a b; have hh := c2 a b; clear c1 c2 c3 c4 c5 c6 c7 c8; beside)
      (by intro a b; have hh := c3 a b; clear c1 c2 c3 c4 c5 c6 c7 c8; beside)
      (by intro a b; have hh := c4 a b; clear c1 c2 c3 c4 c5 c6 c7 c8; beside)
      (by
        intro a b b'
        have hf : c.face = 0 ∨ c.face = 1 ∨ c.face = 2 ∨ c.face = 3 := by omega
        rcases hf with hf | hf | hf | hf
        · have hh := c5 a hf; clear c1 c2 c3 c4 c5 c6 c7 c8; rw [hf]; beside
        · have hh := c6 a hf; clear c1 c2 c3 c4 c5 c6 c7 c8; rw [hf]; beside
        · have hh := c7 a hf; clear c1 c2 c3 c4 c5 c6 c7 c8; rw [hf]; beside
        · have hh := c8 a hf; clear c1 c2 c3 c4 c5 c6 c7 c8; rw [hf]; beside) hm
  · intro c _; exact touches_bc2
  · intro c hc; exact blind_bc2 hwi hwj (hl c hc) (h.apart _ (by simp) _ (by simp)) (h.apart _ (by simp) _ (by simp))
  · intro c hc p hp; exact seg2_out (hl c hc) hp

set_option maxHeartbeats 1000000 in
example : AnyOrder (fun c : BcCall Rat => Cuda.setBc2d 0 7 0 7 exDx 1 ⟨0, 0⟩ ⟨1, 0⟩ 1 ⟨9, 0⟩ c.lo c.hi c.order c.face 1 c.btype c.alpha c.beta c.sched) [exSide (exSeg (-1) 0 0) (exSeg (-1) 4 0) 0 0, exSide (exSeg (-1) 5 0) (exSeg (-1) 7 0) 0 1, exSide (exSeg 8 0 0) (exSeg 8 7 0) 1 1,
      exSide (exSeg 0 8 0) (exSeg 7 8 0) 3 0] exRat :=
  C80_2d (by decide) (by decide) (by decide) (by decide) (by ex_usable) (by ex_along) (by ex_separate) (by ex_args)

set_option maxHeartbeats 1000000 in
example : AnyOrder (fun c : BcCall Rat => Cuda.setBc2d 0 7 0 7 exDx 1 ⟨0, 0⟩ ⟨1, 0⟩ 1 ⟨9, 0⟩ c.lo c.hi c.order c.face 2 c.btype c.alpha c.beta c.sched) [exSide (exSeg (-1) (-1) 0) (exSeg (-1) (-1) 0) 0 0, exSide (exSeg 8 (-1) 0) (exSeg 8 (-1) 0) 1 1, exSide (exSeg 8 8 0) (exSeg 8 8 0) 3 0] exRat :=
  C80_2d (by decide) (by decide) (by decide) (by decide) (by ex_usable) (by ex_along) (by ex_separate) (by ex_args)

/-- Calls of `cd_correct_bc_2d_cuda::set_poisson_bc` for sides (type 1) or corners (type 2) of a box at least two cells wide, for segments without common cells, can be made in any order, and repeated, whatever the orders, boundary types, coefficients, schedules and contents. -/
theorem C80_poisson_2d {i0 j0 i1 j1 g type : Int} {dx : Nat → T} {u : Ptr} {l : List (BcCall T)} {m : Mem T} (hwi : i0 < i1) (hwj : j0 < j1) (hg : 1 ≤ g)
    (hu : ∀ c ∈ l, c.Usable 2) (hl : ∀ c ∈ l, c.Along2 type i0 j0 i1 j1) (hs : ∀ c ∈ l, ∀ d ∈ l, Separate (fun c : BcCall T => F.onSeg2 c.lo c.hi type c.face) c d)
    (h : F.Args m [] [F.cell2d u i0 j0 i1 j1 g]) :
    AnyOrder (fun c : BcCall T => Cuda.setPoissonBc2d i0 i1 j0 j1 dx g u c.lo c.hi c.order c.face type c.btype c.alpha c.beta c.sched) l m := by
  refine sides_of (a := F.cell2d u i0 j0 i1 j1 g) (ins := []) (R := outside2 type i0 j0 i1 j1)
    (cmd := fun c : BcCall T => F.cellsetpoissoncorrectionbc2d i0 i1 j0 j1 dx g u c.lo c.hi c.order c.face type c.btype c.alpha c.beta)
    hs ?_ ?_ ?_ ?_ h
  · intro c hc m hm
    obtain ⟨u1, u2⟩ := hu c hc
    obtain ⟨c1, c2, c3, c4, c5, c6, c7, c8⟩ := hl c hc
    clear hu hl hs h
    exact C35_poisson_2d_partial u2 (by omega) (by omega) (by omega) u1
      (by intro a b; have hh := c1 a b; clear c1 c2 c3 c4 c5 c6 c7 c8; beside)
      (by intro a b; have hh := c2 a b; clear c1 c2 c3 c4 c5 c6 c7 c8; beside)
      (by intro a b; have hh := c3 a b; clear c1 c2 c3 c4 c5 c6 c7 c8; beside)
      (by intro a b; have hh := c4 a b; clear c1 c2 c3 c4 c5 c6 c7 c8; beside)
      (by
        intro a b b'
        have hf : c.face = 0 ∨ c.face = 1 ∨ c.face = 2 ∨ c.face = 3 := by omega
        rcases hf with hf | hf | hf | hf
        · have hh := c5 a hf; clear c1 c2 c3 c4 c5 c6 c7 c8; rw [hf]; beside
        · have hh := c6 a hf; clear c1 c2 c3 c4 c5 c6 c7 c8; rw [hf]; beside
        · have hh := c7 a hf; clear c1 c2 c3 c4 c5 c6 c7 c8; rw [hf]; beside
        · have hh := c8 a hf; clear c1 c2 c3 c4 c5 c6 c7 c8; rw [hf]; beside) hm
  · intro c _; exact touches_pbc2
  · intro c hc; exact blind_pbc2 hwi hwj (hl c hc)
  · intro c hc p hp; exact seg2_out (hl c hc) hp

set_option maxHeartbeats 1000000 in
example : AnyOrder (fun c : BcCall Rat => Cuda.setPoissonBc2d 0 7 0 7 exDx 1 ⟨9, 0⟩ c.lo c.hi c.order c.face 1 c.btype c.alpha c.beta c.sched) [exSide (exSeg (-1) 0 0) (exSeg (-1) 4 0) 0 0, exSide (exSeg (-1) 5 0) (exSeg (-1) 7 0) 0 1, exSide (exSeg 8 0 0) (exSeg 8 7 0) 1 1,
      exSide (exSeg 0 8 0) (exSeg 7 8 0) 3 0] exRat :=
  C80_poisson_2d (by decide) (by decide) (by decide) (by ex_usable) (by ex_along) (by ex_separate) (by ex_args)

set_option maxHeartbeats 1000000 in
example : AnyOrder (fun c : BcCall Rat => Cuda.setPoissonBc2d 0 7 0 7 exDx 1 ⟨9, 0⟩ c.lo c.hi c.order c.face 2 c.btype c.alpha c.beta c.sched) [exSide (exSeg (-1) (-1) 0) (exSeg (-1) (-1) 0) 0 0, exSide (exSeg 8 (-1) 0) (exSeg 8 (-1) 0) 1 1, exSide (exSeg 8 8 0) (exSeg 8 8 0) 3 0] exRat :=
  C80_poisson_2d (by decide) (by decide) (by decide) (by ex_usable) (by ex_along) (by ex_separate) (by ex_args)

/-- Calls of `cd_correct_bc_3d_cuda::set_bc` for sides (type 1), edges (type 2) or corners (type 3) of a box at least two cells wide, for segments without common cells, can be made in any order, and repeated, whatever the orders, boundary types, coefficients, schedules and contents. -/
theorem C80_3d {i0 j0 k0 i1 j1 k1 g dg type : Int} {dx : Nat → T} {d0 d1 d2 u : Ptr} {l : List (BcCall T)} {m : Mem T} (hwi : i0 < i1) (hwj : j0 < j1) (hwk : k0 < k1) (hg : 1 ≤ g) (hdg : 0 ≤ dg)
    (hu : ∀ c ∈ l, c.Usable 3) (hl : ∀ c ∈ l, c.Along3 type i0 j0 k0 i1 j1 k1) (hs : ∀ c ∈ l, ∀ d ∈ l, Separate (fun c : BcCall T => F.onSeg3 c.lo c.hi type c.face) c d)
    (h : F.Args m [F.face3d0 d0 i0 j0 k0 i1 j1 k1 dg, F.face3d1 d1 i0 j0 k0 i1 j1 k1 dg, F.face3d2 d2 i0 j0 k0 i1 j1 k1 dg] [F.cell3d u i0 j0 k0 i1 j1 k1 g]) :
    AnyOrder (fun c : BcCall T => Cuda.setBc3d i0 i1 j0 j1 k0 k1 dx dg d0 d1 d2 g u c.lo c.hi c.order c.face type c.btype c.alpha c.beta c.sched) l m := by
  refine sides_of (a := F.cell3d u i0 j0 k0 i1 j1 k1 g) (ins := [F.face3d0 d0 i0 j0 k0 i1 j1 k1 dg, F.face3d1 d1 i0 j0 k0 i1 j1 k1 dg, F.face3d2 d2 i0 j0 k0 i1 j1 k1 dg]) (R := outside3 type i0 j0 k0 i1 j1 k1)
    (cmd := fun c : BcCall T => F.cellsetcorrectionbc3d i0 i1 j0 j1 k0 k1 dx dg d0 d1 d2 g u c.lo c.hi c.order c.face type c.btype c.alpha c.beta)
    hs ?_ ?_ ?_ ?_ h
  · intro c hc m hm
    obtain ⟨u1, u2⟩ := hu c hc
    obtain ⟨c1, c2, c3, c4, c5, c6, c7, c8, c9, c10⟩ := hl c hc
    clear hu hl hs h
    exact C35_3d_partial u2 (by omega) (by omega) (by omega) (by omega) hdg u1
      (by intro a b; have hh := c1 a b; clear c1 c2 c3 c4 c5 c6 c7 c8 c9 c10; beside)
      (by intro a b; have hh := c2 a b; clear c1 c2 c3 c4 c5 c6 c7 c8 c9 c10; beside)
      (by intro a b; have hh := c3 a b; clear c1 c2 c3 c4 c5 c6 c7 c8 c9 c10; beside)
      (by intro a b; have hh := c4 a b; clear c1 c2 c3 c4 c5 c6 c7 c8 c9 c10; beside)
      (by intro a b; have hh := c5 a b; clear c1 c2 c3 c4 c5 c6 c7 c8 c9 c10; beside)
      (by intro a b; have hh := c6 a b; clear c1 c2 c3 c4 c5 c6 c7 c8 c9 c10; beside)
      (by intro a b b'; have hh := c7 a b b'; clear c1 c2 c3 c4 c5 c6 c7 c8 c9 c10; beside)
      (by intro a b b'; have hh := c8 a b b'; clear c1 c2 c3 c4 c5 c6 c7 c8 c9 c10; beside)
      (by intro a b b'; have hh := c9 a b b'; clear c1 c2 c3 c4 c5 c6 c7 c8 c9 c10; beside)
      (by intro a b b'; have hh := c10 a b b'; clear c1 c2 c3 c4 c5 c6 c7 c8 c9 c10; beside) hm
  · intro c _; exact touches_bc3
  · intro c hc; exact blind_bc3 hwi hwj hwk (hl c hc) (h.apart _ (by simp) _ (by simp)) (h.apart _ (by simp) _ (by simp)) (h.apart _ (by simp) _ (by simp))
  · intro c hc p hp; exact seg3_out (hl c hc) hp

set_option maxHeartbeats 1000000 in
example : AnyOrder (fun c : BcCall Rat => Cuda.setBc3d 0 7 0 6 0 5 exDx 1 ⟨0, 0⟩ ⟨1, 0⟩ ⟨2, 0⟩ 1 ⟨9, 0⟩ c.lo c.hi c.order c.face 1 c.btype c.alpha c.beta c.sched) [exSide (exSeg (-1) 0 0) (exSeg (-1) 3 5) 0 0, exSide (exSeg (-1) 4 0) (exSeg (-1) 6 5) 0 1, exSide (exSeg 0 7 0) (exSeg 7 7 5) 3 1] exRat :=
  C80_3d (by decide) (by decide) (by decide) (by decide) (by decide) (by ex_usable) (by ex_along) (by ex_separate) (by ex_args)

set_option maxHeartbeats 1000000 in
example : AnyOrder (fun c : BcCall Rat => Cuda.setBc3d 0 7 0 6 0 5 exDx 1 ⟨0, 0⟩ ⟨1, 0⟩ ⟨2, 0⟩ 1 ⟨9, 0⟩ c.lo c.hi c.order c.face 2 c.btype c.alpha c.beta c.sched) [exSide (exSeg (-1) (-1) 0) (exSeg (-1) (-1) 5) 0 0, exSide (exSeg 8 0 (-1)) (exSeg 8 6 (-1)) 5 1] exRat :=
  C80_3d (by decide) (by decide) (by decide) (by decide) (by decide) (by ex_usable) (by ex_along) (by ex_separate) (by ex_args)

set_option maxHeartbeats 1000000 in
example : AnyOrder (fun c : BcCall Rat => Cuda.setBc3d 0 7 0 6 0 5 exDx 1 ⟨0, 0⟩ ⟨1, 0⟩ ⟨2, 0⟩ 1 ⟨9, 0⟩ c.lo c.hi c.order c.face 3 c.btype c.alpha c.beta c.sched) [exSide (exSeg (-1) (-1) (-1)) (exSeg (-1) (-1) (-1)) 0 0, exSide (exSeg 8 7 6) (exSeg 8 7 6) 7 1] exRat :=
  C80_3d (by decide) (by decide) (by decide) (by decide) (by decide) (by ex_usable) (by ex_along) (by ex_separate) (by ex_args)

/-- Calls of `cd_correct_bc_3d_cuda::set_poisson_bc` for sides (type 1), edges (type 2) or corners (type 3) of a box at least two cells wide, for segments without common cells, can be made in any order, and repeated, whatever the orders, boundary types, coefficients, schedules and contents. -/
theorem C80_poisson_3d {i0 j0 k0 i1 j1 k1 g type : Int} {dx : Nat → T} {u : Ptr} {l : List (BcCall T)} {m : Mem T} (hwi : i0 < i1) (hwj : j0 < j1) (hwk : k0 < k1) (hg : 1 ≤ g)
    (hu : ∀ c ∈ l, c.Usable 3) (hl : ∀ c ∈ l, c.Along3 type i0 j0 k0 i1 j1 k1) (hs : ∀ c ∈ l, ∀ d ∈ l, Separate (fun c : BcCall T => F.onSeg3 c.lo c.hi type c.face) c d)
    (h : F.Args m [] [F.cell3d u i0 j0 k0 i1 j1 k1 g]) :
    AnyOrder (fun c : BcCall T => Cuda.setPoissonBc3d i0 i1 j0 j1 k0 k1 dx g u c.lo c.hi c.order c.face type c.btype c.alpha c.beta c.sched) l m := by
  refine sides_of (a := F.cell3d u i0 j0 k0 i1 j1 k1 g) (ins := []) (R := outside3 type i0 j0 k0 i1 j1 k1)
    (cmd := fun c : BcCall T => F.cellsetpoissoncorrectionbc3d i0 i1 j0 j1 k0 k1 dx g u c.lo c.hi c.order c.face type c.btype c.alpha c.beta)
    hs ?_ ?_ ?_ ?_ h
  · intro c hc m hm
    obtain ⟨u1, u2⟩ := hu c hc
    obtain ⟨c1, c2, c3, c4, c5, c6, c7, c8, c9, c10⟩ := hl c hc
    clear hu hl hs h
    exact C35_poisson_3d_partial u2 (by omega) (by omega) (by omega) (by omega) u1
      (by intro a b; have hh := c1 a b; clear c1 c2 c3 c4 c5 c6 c7 c8 c9 c10; beside)
      (by intro a b; have hh := c2 a b; clear c1 c2 c3 c4 c5 c6 c7 c8 c9 c10; beside)
      (by intro a b; have hh := c3 a b; clear c1 c2 c3 c4 c5 c6 c7 c8 c9 c10; beside)
      (by intro a b; have hh := c4 a b; clear c1 c2 c3 c4 c5 c6 c7 c8 c9 c10; beside)
      (by intro a b; have hh := c5 a b; clear c1 c2 c3 c4 c5 c6 c7 c8 c9 c10; beside)
      (by intro a b; have hh := c6 a b; clear c1 c2 c3 c4 c5 c6 c7 c8 c9 c10; beside)
      (by intro a b b'; have hh := c7 a b b'; clear c1 c2 c3 c4 c5 c6 c7 c8 c9 c10; beside)
      (by intro a b b'; have hh := c8 a b b'; clear c1 c2 c3 c4 c5 c6 c7 c8 c9 c10; beside)
      (by intro a b b'; have hh := c9 a b b'; clear c1 c2 c3 c4 c5 c6 c7 c8 c9 c10; beside)
      (by intro a b b'; have hh := c10 a b b'; clear c1 c2 c3 c4 c5 c6 c7 c8 c9 c10; beside) hm
  · intro c _; exact touches_pbc3
  · intro c hc; exact blind_pbc3 hwi hwj hwk (hl c hc)
  · intro c hc p hp; exact seg3_out (hl c hc) hp

set_option maxHeartbeats 1000000 in
example : AnyOrder (fun c : BcCall Rat => Cuda.setPoissonBc3d 0 7 0 6 0 5 exDx 1 ⟨9, 0⟩ c.lo c.hi c.order c.face 1 c.btype c.alpha c.beta c.sched) [exSide (exSeg (-1) 0 0) (exSeg (-1) 3 5) 0 0, exSide (exSeg (-1) 4 0) (exSeg (-1) 6 5) 0 1, exSide (exSeg 0 7 0) (exSeg 7 7 5) 3 1] exRat :=
  C80_poisson_3d (by decide) (by decide) (by decide) (by decide) (by ex_usable) (by ex_along) (by ex_separate) (by ex_args)

set_option maxHeartbeats 1000000 in
example : AnyOrder (fun c : BcCall Rat => Cuda.setPoissonBc3d 0 7 0 6 0 5 exDx 1 ⟨9, 0⟩ c.lo c.hi c.order c.face 2 c.btype c.alpha c.beta c.sched) [exSide (exSeg (-1) (-1) 0) (exSeg (-1) (-1) 5) 0 0, exSide (exSeg 8 0 (-1)) (exSeg 8 6 (-1)) 5 1] exRat :=
  C80_poisson_3d (by decide) (by decide) (by decide) (by decide) (by ex_usable) (by ex_along) (by ex_separate) (by ex_args)

set_option maxHeartbeats 1000000 in
example : AnyOrder (fun c : BcCall Rat => Cuda.setPoissonBc3d 0 7 0 6 0 5 exDx 1 ⟨9, 0⟩ c.lo c.hi c.order c.face 3 c.btype c.alpha c.beta c.sched) [exSide (exSeg (-1) (-1) (-1)) (exSeg (-1) (-1) (-1)) 0 0, exSide (exSeg 8 7 6) (exSeg 8 7 6) 7 1] exRat :=
  C80_poisson_3d (by decide) (by decide) (by decide) (by decide) (by ex_usable) (by ex_along) (by ex_separate) (by ex_args)

/-- Calls of `cd_correct_bc_2d_cuda::set_corner_bc` for corners of a box at least two cells wide, for different corners, can be made in any order, and repeated, whatever the orders, boundary types, schedules and contents. -/
theorem C80_corner_2d {i0 j0 i1 j1 g type : Int} {dx : Nat → T} {d0 d1 u : Ptr} {l : List (BcCall T)} {m : Mem T} (hwi : i0 < i1) (hwj : j0 < j1) (hg : 1 ≤ g)
    (hu : ∀ c ∈ l, c.Usable 2) (hl : ∀ c ∈ l, c.Along2 2 i0 j0 i1 j1) (hs : ∀ c ∈ l, ∀ d ∈ l, Separate (fun c : BcCall T => F.onSeg2 c.lo c.hi 2 c.face) c d)
    (h : F.Args m [] [F.cell2d u i0 j0 i1 j1 g]) :
    AnyOrder (fun c : BcCall T => Cuda.setCornerBc2d i0 i1 j0 j1 g dx d0 d1 u c.lo c.hi c.order c.face type c.btype c.sched) l m := by
  refine sides_of (a := F.cell2d u i0 j0 i1 j1 g) (ins := []) (R := outside2 2 i0 j0 i1 j1)
    (cmd := fun c : BcCall T => F.cellsetinteriorcornerbc2d i0 i1 j0 j1 g dx d0 d1 u c.lo c.hi c.order c.face type c.btype) hs ?_ ?_ ?_ ?_ h
  · intro c hc m hm
    obtain ⟨u1, u2⟩ := hu c hc
    obtain ⟨-, -, -, -, c5, c6, c7, c8⟩ := hl c hc
    clear hu hl hs h
    exact C35_corner_2d u2 (by omega) (by omega) (by omega) u1 (by
        intro b b'
        have hf : c.face = 0 ∨ c.face = 1 ∨ c.face = 2 ∨ c.face = 3 := by omega
        rcases hf with hf | hf | hf | hf
        · have hh := c5 rfl hf; clear c5 c6 c7 c8; rw [hf]; beside
        · have hh := c6 rfl hf; clear c5 c6 c7 c8; rw [hf]; beside
        · have hh := c7 rfl hf; clear c5 c6 c7 c8; rw [hf]; beside
        · have hh := c8 rfl hf; clear c5 c6 c7 c8; rw [hf]; beside) hm
  · intro c _; exact touches_corner2
  · intro c hc; exact blind_corner2 hwi hwj (hl c hc)
  · intro c hc p hp; exact seg2_out (hl c hc) hp

set_option maxHeartbeats 1000000 in
example : AnyOrder (fun c : BcCall Rat => Cuda.setCornerBc2d 0 7 0 7 1 exDx ⟨0, 0⟩ ⟨1, 0⟩ ⟨9, 0⟩ c.lo c.hi c.order c.face 2 c.btype c.sched) [exSide (exSeg (-1) (-1) 0) (exSeg (-1) (-1) 0) 0 0, exSide (exSeg 8 (-1) 0) (exSeg 8 (-1) 0) 1 1, exSide (exSeg 8 8 0) (exSeg 8 8 0) 3 0] exRat :=
  C80_corner_2d (by decide) (by decide) (by decide) (by ex_usable) (by ex_along) (by ex_separate) (by ex_args)

theorem not_anyOrder {C : Type} {call : C → Mem Rat → M (Mem Rat)} {c d : C} {m : Mem Rat} {q : Ptr}
    (h : Differ (inOrder call [c, d] m) (inOrder call [d, c] m) q) : ¬ AnyOrder call [c, d] m := by
  rintro ⟨m', h1, -⟩
  obtain ⟨a, b, ha, hb, hn⟩ := h
  rw [h1 _ (List.Perm.refl _)] at ha
  rw [h1 _ (List.Perm.swap d c [])] at hb
  cases ha; cases hb
  exact hn rfl

/-- A box one cell wide: the second order formulas of each side read the ghost cell of the other side, so the order of the calls matters. -/
theorem C80_narrow_false : ¬ AnyOrder (fun c : BcCall Rat => Cuda.setPoissonBc1d 0 0 exDx 1 ⟨1, 0⟩ c.lo c.hi c.order c.face c.btype c.alpha c.beta c.sched)
    [exSide (exSeg (-1) 0 0) (exSeg (-1) 0 0) 0 0, exSide (exSeg 1 0 0) (exSeg 1 0 0) 1 0] exRat :=
  not_anyOrder (q := ⟨1, 0⟩) (differ_of (v := some (-37 / 3)) (w := some (-185 / 9)) (by decide +kernel) (by decide +kernel) (by decide +kernel))

/-- Sides and corners: the corner formulas read the ghost cells of the sides, so the corners have to be filled after the sides. -/
theorem C80_mixed_false : Differ
    (Cuda.setPoissonBc2d 0 7 0 7 exDx 1 ⟨9, 0⟩ (exSeg (-1) 0 0) (exSeg (-1) 7 0) 2 0 1 1 3 5 (fun _ => revBackend) exRat >>=
      Cuda.setPoissonBc2d 0 7 0 7 exDx 1 ⟨9, 0⟩ (exSeg (-1) (-1) 0) (exSeg (-1) (-1) 0) 2 0 2 1 3 5 (fun _ => revBackend))
    (Cuda.setPoissonBc2d 0 7 0 7 exDx 1 ⟨9, 0⟩ (exSeg (-1) (-1) 0) (exSeg (-1) (-1) 0) 2 0 2 1 3 5 (fun _ => revBackend) exRat >>=
      Cuda.setPoissonBc2d 0 7 0 7 exDx 1 ⟨9, 0⟩ (exSeg (-1) 0 0) (exSeg (-1) 7 0) 2 0 1 1 3 5 (fun _ => revBackend)) ⟨9, 0⟩ :=
  differ_of (v := some 64) (w := some 43) (by decide +kernel) (by decide +kernel) (by decide)

end Verif
