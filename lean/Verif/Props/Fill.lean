import Verif.Lemmas.FillEx
import Verif.Lemmas.BcGhosts

/-
C90: the boundary condition kernels leave fields that fulfil the boundary conditions.
-/

set_option linter.unusedVariables false
set_option linter.unusedSimpArgs false
set_option maxHeartbeats 1000000

namespace Verif
open Spec Polynomial

variable {T : Type} [Field T] [CharZero T]

/-- Calls of `cd_correct_bc_1d_cuda::set_bc` for parts of the sides of a box at least two cells wide, without common cells, leave a field that fulfils homogeneous boundary conditions on these parts, and change nothing else. -/
theorem C90_1d {i0 i1 g dg : Int} {dx : Nat → T} {d0 u : Ptr} {l : List (BcCall T)} {m : Mem T} {V B0 : List Int → T} (hwi : i0 < i1) (hg : 1 ≤ g) (hdg : 0 ≤ dg)
    (hu : ∀ c ∈ l, c.Usable 1) (hl : ∀ c ∈ l, c.Along1 i0 i1) (hs : ∀ c ∈ l, ∀ d ∈ l, Separate (fun c : BcCall T => F.onSeg1 c.lo c.hi c.face) c d)
    (h : F.Args m [F.face1d d0 i0 i1 dg] [F.cell1d u i0 i1 g])
    (hV : F.Holds m (F.cell1d u i0 i1 g) V) (hB0 : F.Holds m (F.face1d d0 i0 i1 dg) B0)
    (hc : ∀ c ∈ l, c.Solvable (c.piece1 i0 i1 dx B0)) :
    Filled (fun c : BcCall T => Cuda.setBc1d i0 i1 dx dg d0 g u c.lo c.hi c.order c.face c.btype c.alpha c.beta c.sched) (fun c : BcCall T => F.onSeg1 c.lo c.hi c.face) (fun c : BcCall T => c.piece1 i0 i1 dx B0) [(i0, i1)] 3 (F.row F.points1) (F.cell1d u i0 i1 g) l m V := by
  have hc0 := hc
  clear hc
  have hch : ∀ c ∈ l, ∀ m, F.Args m [F.face1d d0 i0 i1 dg] [F.cell1d u i0 i1 g] → ∃ m', (fun c : BcCall T => Cuda.setBc1d i0 i1 dx dg d0 g u c.lo c.hi c.order c.face c.btype c.alpha c.beta c.sched) c m = .ok m' ∧ F.Changes (F.cell1d u i0 i1 g) ((fun c : BcCall T => F.onSeg1 c.lo c.hi c.face) c) m m' := by
    intro c hc m hm
    obtain ⟨u1, u2⟩ := hu c hc
    obtain ⟨c1, c2⟩ := hl c hc
    clear hu hl hs h hV hB0 hc0
    exact C76_1d u2 (by omega) (by omega) hdg u1
      (by intro a; have hh := c1 a; clear c1 c2; beside)
      (by intro a; have hh := c2 a; clear c1 c2; beside) hm
  refine filled_of (C80_1d hwi hg hdg hu hl hs h) hch h hV ?_ (fun c _ p hp => hp.2) ?_ ?_
  · intro p hp e e0 e1
    obtain ⟨i, rfl, hp⟩ := F.inBounds1.1 hp
    obtain rfl | rfl | rfl : e = 0 ∨ e = 1 ∨ e = 2 := by omega
    · rw [F.shift1_0]; exact F.inBounds1.2 ⟨i, rfl, by omega⟩
    · rw [F.shift1_1]; exact F.inBounds1.2 ⟨i - 1, rfl, by omega⟩
    · rw [F.shift1_2]; exact F.inBounds1.2 ⟨i + 1, rfl, by omega⟩
  · intro c hcl p hp e e1 e2 hs'
    have hf : c.face + 1 = e := by
      obtain ⟨c1, c2⟩ := hl c hcl
      obtain ⟨i, rfl, hp⟩ := F.inBounds1.1 hp
      clear hch hu hl hs h hV hB0 hc0
      obtain rfl | rfl : e = 1 ∨ e = 2 := by omega
      · rw [F.shift1_1] at hs'
        rcases hs' with ⟨f, h1⟩ | ⟨f, h1⟩ <;> simp only [List.cons.injEq, and_true] at h1 <;> omega
      · rw [F.shift1_2] at hs'
        rcases hs' with ⟨f, h1⟩ | ⟨f, h1⟩ <;> simp only [List.cons.injEq, and_true] at h1 <;> omega
    refine ⟨⟨hp, ?_⟩, hf⟩
    rw [hf]
    exact hs'
  · intro m' ha hch2 c hcl hself p hcells
    have kB0 := (hch2.keeps (h.apart _ (by simp) _ (by simp)) hB0)
    obtain ⟨s1, s2, s3⟩ := hc0 c hcl
    obtain ⟨u1, u2⟩ := hu c hcl
    obtain ⟨c1, c2⟩ := hl c hcl
    obtain ⟨lo, hi, order, face, btype, alpha, beta, sched⟩ := c
    have hcells' := hcells
    obtain ⟨hin, hseg⟩ := hcells'
    obtain ⟨i, rfl, hin⟩ := F.inBounds1.1 hin
    simp only at s1 s2 u1 u2 hseg hself
    have G := ghosts_1d (dx := dx) (exOrder := order) (btype := btype) (alpha := alpha) (beta := beta) (face := face) (m := m') u2 (by omega) (by omega) hdg u1
      (by intro b; have hh := c1 b; clear c1 c2; beside)
      (by intro b; have hh := c2 b; clear c1 c2; beside)
      ha
    obtain ⟨m'', e', G0, G1⟩ := G
    rw [hself] at e'
    cases e'
    have hf : face = 0 ∧ i - 1 = lo 0 ∨ face = 1 ∧ i + 1 = hi 0 := by
      rcases hseg with ⟨f, h1⟩ | ⟨f, h1⟩ <;> subst f
      · have h1 : F.shift [i] (F.row F.points1 1) = [lo 0] := h1
        rw [F.shift1_1] at h1
        simp only [List.cons.injEq, and_true] at h1
        omega
      · have h1 : F.shift [i] (F.row F.points1 2) = [hi 0] := h1
        rw [F.shift1_2] at h1
        simp only [List.cons.injEq, and_true] at h1
        omega
    rcases hf with ⟨rfl, hf⟩ | ⟨rfl, hf⟩
    · have hq : i = lo 0 + 1 := by omega
      subst hq
      have eb : F.onFace1 B0 0 [lo 0 + 1] = (F.rd m' (F.face1d d0 i0 i1 dg) [lo 0 + 1]) := by
        rw [(kB0 _ (F.inBounds1.2 ⟨lo 0 + 1, rfl, by omega⟩)).rd]
        simp [F.onFace1]
      obtain ⟨y, y1, y2, y3⟩ := fit_first (zero := false) (btype := btype) (order := order) (alpha := alpha) (beta := beta) (h := dx 0) (b := (F.rd m' (F.face1d d0 i0 i1 dg) [lo 0 + 1])) (x1 := F.rd m' (F.cell1d u i0 i1 g) [lo 0 + 1]) (x2 := F.rd m' (F.cell1d u i0 i1 g) [lo 0 + 2]) s2 s1
        (fun e4 => by
          have q2 := (s3 e4).2 _ hcells
          simp only [BcCall.piece1, BcCall.piece, eb] at q2
          exact ⟨(s3 e4).1, q2⟩)
      have g := (G0 rfl  _ y3).rd
      refine ⟨y, by
        simp only [BcCall.piece1, BcCall.piece, eb]
        exact y1, y2, ?_⟩
      show F.rd m' _ (F.shift [lo 0 + 1] (F.row F.points1 1)) = _
      rw [F.shift1_1, show lo 0 + 1 - 1 = lo 0 + 0 by omega]
      exact g
    · have hq : i = hi 0 - 1 := by omega
      subst hq
      have eb : F.onFace1 B0 1 [hi 0 - 1] = (F.rd m' (F.face1d d0 i0 i1 dg) [hi 0]) := by
        rw [(kB0 _ (F.inBounds1.2 ⟨hi 0, rfl, by omega⟩)).rd]
        simp [F.onFace1]
      obtain ⟨y, y1, y2, y3⟩ := fit_first (zero := false) (btype := btype) (order := order) (alpha := alpha) (beta := beta) (h := dx 0) (b := (F.rd m' (F.face1d d0 i0 i1 dg) [hi 0])) (x1 := F.rd m' (F.cell1d u i0 i1 g) [hi 0 - 1]) (x2 := F.rd m' (F.cell1d u i0 i1 g) [hi 0 - 2]) s2 s1
        (fun e4 => by
          have q2 := (s3 e4).2 _ hcells
          simp only [BcCall.piece1, BcCall.piece, eb] at q2
          exact ⟨(s3 e4).1, q2⟩)
      have g := (G1 rfl  _ y3).rd
      refine ⟨y, by
        simp only [BcCall.piece1, BcCall.piece, eb]
        exact y1, y2, ?_⟩
      show F.rd m' _ (F.shift [hi 0 - 1] (F.row F.points1 2)) = _
      rw [F.shift1_2, show hi 0 - 1 + 1 = hi 0 - 0 by omega]
      exact g


set_option maxHeartbeats 1000000 in
example :=
  C90_1d (T := Rat) (l := [exFill (exSeg (-1) 0 0) (exSeg (-1) 0 0) 0 4, exFill (exSeg 8 0 0) (exSeg 8 0 0) 1 0])
    (m := exRat) (i0 := 0) (i1 := 7) (dx := exDx) (u := ⟨1, 0⟩) (g := 1) (dg := 1) (d0 := ⟨0, 0⟩) (V := F.rd exRat (F.cell1d ⟨1, 0⟩ 0 7 1)) (B0 := F.rd exRat (F.face1d ⟨0, 0⟩ 0 7 1))
    (by decide) (by decide) (by decide) (by ex_fusable) (by ex_falong) (by ex_fseparate) (by ex_args) (exHolds (by decide) (by decide) (by decide)) (exHolds (by decide) (by decide) (by decide)) (by ex_solvable1 exNonneg)

/-- Calls of `cd_correct_bc_1d_cuda::set_poisson_bc` for parts of the sides of a box at least two cells wide, without common cells, leave a field that fulfils homogeneous boundary conditions on these parts, and change nothing else. Robin conditions only with `alpha = 2 beta`, which the kernel takes for granted. -/
theorem C90_poisson_1d_partial {i0 i1 g : Int} {dx : Nat → T} {u : Ptr} {l : List (BcCall T)} {m : Mem T} {V : List Int → T} (hwi : i0 < i1) (hg : 1 ≤ g)
    (hu : ∀ c ∈ l, c.Usable 1) (hl : ∀ c ∈ l, c.Along1 i0 i1) (hs : ∀ c ∈ l, ∀ d ∈ l, Separate (fun c : BcCall T => F.onSeg1 c.lo c.hi c.face) c d)
    (h : F.Args m [] [F.cell1d u i0 i1 g])
    (hV : F.Holds m (F.cell1d u i0 i1 g) V)
    (hc : ∀ c ∈ l, c.Solvable (c.piece1 i0 i1 dx (fun _ => (1 : T)))) (hr : ∀ c ∈ l, c.btype = 4 → c.alpha = 2 * c.beta) :
    Filled (fun c : BcCall T => Cuda.setPoissonBc1d i0 i1 dx g u c.lo c.hi c.order c.face c.btype c.alpha c.beta c.sched) (fun c : BcCall T => F.onSeg1 c.lo c.hi c.face) (fun c : BcCall T => c.piece1 i0 i1 dx (fun _ => (1 : T))) [(i0, i1)] 3 (F.row F.points1) (F.cell1d u i0 i1 g) l m V := by
  have hc0 := hc
  clear hc
  have hch : ∀ c ∈ l, ∀ m, F.Args m [] [F.cell1d u i0 i1 g] → ∃ m', (fun c : BcCall T => Cuda.setPoissonBc1d i0 i1 dx g u c.lo c.hi c.order c.face c.btype c.alpha c.beta c.sched) c m = .ok m' ∧ F.Changes (F.cell1d u i0 i1 g) ((fun c : BcCall T => F.onSeg1 c.lo c.hi c.face) c) m m' := by
    intro c hc m hm
    obtain ⟨u1, u2⟩ := hu c hc
    obtain ⟨c1, c2⟩ := hl c hc
    clear hu hl hs h hV hc0 hr
    exact C76_poisson_1d u2 (by omega) (by omega) u1
      (by intro a; have hh := c1 a; clear c1 c2; beside)
      (by intro a; have hh := c2 a; clear c1 c2; beside) hm
  refine filled_of (C80_poisson_1d hwi hg hu hl hs h) hch h hV ?_ (fun c _ p hp => hp.2) ?_ ?_
  · intro p hp e e0 e1
    obtain ⟨i, rfl, hp⟩ := F.inBounds1.1 hp
    obtain rfl | rfl | rfl : e = 0 ∨ e = 1 ∨ e = 2 := by omega
    · rw [F.shift1_0]; exact F.inBounds1.2 ⟨i, rfl, by omega⟩
    · rw [F.shift1_1]; exact F.inBounds1.2 ⟨i - 1, rfl, by omega⟩
    · rw [F.shift1_2]; exact F.inBounds1.2 ⟨i + 1, rfl, by omega⟩
  · intro c hcl p hp e e1 e2 hs'
    have hf : c.face + 1 = e := by
      obtain ⟨c1, c2⟩ := hl c hcl
      obtain ⟨i, rfl, hp⟩ := F.inBounds1.1 hp
      clear hch hu hl hs h hV hc0 hr
      obtain rfl | rfl : e = 1 ∨ e = 2 := by omega
      · rw [F.shift1_1] at hs'
        rcases hs' with ⟨f, h1⟩ | ⟨f, h1⟩ <;> simp only [List.cons.injEq, and_true] at h1 <;> omega
      · rw [F.shift1_2] at hs'
        rcases hs' with ⟨f, h1⟩ | ⟨f, h1⟩ <;> simp only [List.cons.injEq, and_true] at h1 <;> omega
    refine ⟨⟨hp, ?_⟩, hf⟩
    rw [hf]
    exact hs'
  · intro m' ha hch2 c hcl hself p hcells
    obtain ⟨s1, s2, s3⟩ := hc0 c hcl
    obtain ⟨u1, u2⟩ := hu c hcl
    obtain ⟨c1, c2⟩ := hl c hcl
    obtain ⟨lo, hi, order, face, btype, alpha, beta, sched⟩ := c
    have hcells' := hcells
    obtain ⟨hin, hseg⟩ := hcells'
    obtain ⟨i, rfl, hin⟩ := F.inBounds1.1 hin
    simp only at s1 s2 u1 u2 hseg hself
    have G := ghosts_p1d (dx := dx) (exOrder := order) (btype := btype) (alpha := alpha) (beta := beta) (face := face) (m := m') u2 (by omega) (by omega) u1
      (by intro b; have hh := c1 b; clear c1 c2; beside)
      (by intro b; have hh := c2 b; clear c1 c2; beside)
      ha
    obtain ⟨m'', e', G0, G1⟩ := G
    rw [hself] at e'
    cases e'
    have hf : face = 0 ∧ i - 1 = lo 0 ∨ face = 1 ∧ i + 1 = hi 0 := by
      rcases hseg with ⟨f, h1⟩ | ⟨f, h1⟩ <;> subst f
      · have h1 : F.shift [i] (F.row F.points1 1) = [lo 0] := h1
        rw [F.shift1_1] at h1
        simp only [List.cons.injEq, and_true] at h1
        omega
      · have h1 : F.shift [i] (F.row F.points1 2) = [hi 0] := h1
        rw [F.shift1_2] at h1
        simp only [List.cons.injEq, and_true] at h1
        omega
    rcases hf with ⟨rfl, hf⟩ | ⟨rfl, hf⟩
    · have hq : i = lo 0 + 1 := by omega
      subst hq
      have eb : F.onFace1 (fun _ => (1 : T)) 0 [lo 0 + 1] = (1 : T) := by simp [F.onFace1]
      obtain ⟨y, y1, y2, y3⟩ := fit_first (zero := false) (btype := btype) (order := order) (alpha := 2) (beta := 1) (h := dx 0) (b := 1) (x1 := F.rd m' (F.cell1d u i0 i1 g) [lo 0 + 1]) (x2 := F.rd m' (F.cell1d u i0 i1 g) [lo 0 + 2]) s2 s1
        (fun e4 => by
          have q := hr _ hcl e4
          have b0 := (s3 e4).1
          have q2 := (s3 e4).2 _ hcells
          simp only [BcCall.piece1, BcCall.piece, eb] at q2
          simp only at q b0
          rw [q] at q2
          refine ⟨one_ne_zero, ?_⟩
          rwa [show (2 : T) / (2 * 1) * 1 = 2 * beta / (2 * beta) * 1 by field_simp])
      have g := (G0 rfl  _ y3).rd
      refine ⟨y, meets_coef y1 fun e4 => by
        have q := hr _ hcl e4
        have b0 := (s3 e4).1
        simp only [BcCall.piece1, BcCall.piece] at q b0 ⊢
        rw [eb, q]
        field_simp, y2, ?_⟩
      show F.rd m' _ (F.shift [lo 0 + 1] (F.row F.points1 1)) = _
      rw [F.shift1_1, show lo 0 + 1 - 1 = lo 0 + 0 by omega]
      exact g
    · have hq : i = hi 0 - 1 := by omega
      subst hq
      have eb : F.onFace1 (fun _ => (1 : T)) 1 [hi 0 - 1] = (1 : T) := by simp [F.onFace1]
      obtain ⟨y, y1, y2, y3⟩ := fit_first (zero := false) (btype := btype) (order := order) (alpha := 2) (beta := 1) (h := dx 0) (b := 1) (x1 := F.rd m' (F.cell1d u i0 i1 g) [hi 0 - 1]) (x2 := F.rd m' (F.cell1d u i0 i1 g) [hi 0 - 2]) s2 s1
        (fun e4 => by
          have q := hr _ hcl e4
          have b0 := (s3 e4).1
          have q2 := (s3 e4).2 _ hcells
          simp only [BcCall.piece1, BcCall.piece, eb] at q2
          simp only at q b0
          rw [q] at q2
          refine ⟨one_ne_zero, ?_⟩
          rwa [show (2 : T) / (2 * 1) * 1 = 2 * beta / (2 * beta) * 1 by field_simp])
      have g := (G1 rfl  _ y3).rd
      refine ⟨y, meets_coef y1 fun e4 => by
        have q := hr _ hcl e4
        have b0 := (s3 e4).1
        simp only [BcCall.piece1, BcCall.piece] at q b0 ⊢
        rw [eb, q]
        field_simp, y2, ?_⟩
      show F.rd m' _ (F.shift [hi 0 - 1] (F.row F.points1 2)) = _
      rw [F.shift1_2, show hi 0 - 1 + 1 = hi 0 - 0 by omega]
      exact g


set_option maxHeartbeats 1000000 in
example :=
  C90_poisson_1d_partial (T := Rat) (l := [exFill (exSeg (-1) 0 0) (exSeg (-1) 0 0) 0 4, exFill (exSeg 8 0 0) (exSeg 8 0 0) 1 0])
    (m := exRat) (i0 := 0) (i1 := 7) (dx := exDx) (u := ⟨1, 0⟩) (g := 1) (V := F.rd exRat (F.cell1d ⟨1, 0⟩ 0 7 1))
    (by decide) (by decide) (by ex_fusable) (by ex_falong) (by ex_fseparate) (by ex_args) (exHolds (by decide) (by decide) (by decide)) (by ex_solvable1 exOne) (by norm_num [exFill])

/-- Calls of `cd_correct_bc_2d_cuda::set_bc` for parts of the sides of a box at least two cells wide, without common cells, leave a field that fulfils homogeneous boundary conditions on these parts, and change nothing else. -/
theorem C90_2d {i0 j0 i1 j1 g dg : Int} {dx : Nat → T} {d0 d1 u : Ptr} {l : List (BcCall T)} {m : Mem T} {V B0 B1 : List Int → T} (hwi : i0 < i1) (hwj : j0 < j1) (hg : 1 ≤ g) (hdg : 0 ≤ dg)
    (hu : ∀ c ∈ l, c.Usable 2) (hl : ∀ c ∈ l, c.Along2 1 i0 j0 i1 j1) (hs : ∀ c ∈ l, ∀ d ∈ l, Separate (fun c : BcCall T => F.onSeg2 c.lo c.hi 1 c.face) c d)
    (h : F.Args m [F.face2d0 d0 i0 j0 i1 j1 dg, F.face2d1 d1 i0 j0 i1 j1 dg] [F.cell2d u i0 j0 i1 j1 g])
    (hV : F.Holds m (F.cell2d u i0 j0 i1 j1 g) V) (hB0 : F.Holds m (F.face2d0 d0 i0 j0 i1 j1 dg) B0) (hB1 : F.Holds m (F.face2d1 d1 i0 j0 i1 j1 dg) B1)
    (hc : ∀ c ∈ l, c.Solvable (c.piece2 i0 j0 i1 j1 dx B0 B1)) :
    Filled (fun c : BcCall T => Cuda.setBc2d i0 i1 j0 j1 dx dg d0 d1 g u c.lo c.hi c.order c.face 1 c.btype c.alpha c.beta c.sched) (fun c : BcCall T => F.onSeg2 c.lo c.hi 1 c.face) (fun c : BcCall T => c.piece2 i0 j0 i1 j1 dx B0 B1) [(i0, i1), (j0, j1)] 5 (F.row F.points2) (F.cell2d u i0 j0 i1 j1 g) l m V := by
  have hc0 := hc
  clear hc
  have hch : ∀ c ∈ l, ∀ m, F.Args m [F.face2d0 d0 i0 j0 i1 j1 dg, F.face2d1 d1 i0 j0 i1 j1 dg] [F.cell2d u i0 j0 i1 j1 g] → ∃ m', (fun c : BcCall T => Cuda.setBc2d i0 i1 j0 j1 dx dg d0 d1 g u c.lo c.hi c.order c.face 1 c.btype c.alpha c.beta c.sched) c m = .ok m' ∧ F.Changes (F.cell2d u i0 j0 i1 j1 g) ((fun c : BcCall T => F.onSeg2 c.lo c.hi 1 c.face) c) m m' := by
    intro c hc m hm
    obtain ⟨u1, u2⟩ := hu c hc
    obtain ⟨c1, c2, c3, c4, c5, c6, c7, c8⟩ := hl c hc
    clear hu hl hs h hV hB0 hB1 hc0
    exact C76_2d u2 (by omega) (by omega) (by omega) hdg u1
      (by intro a b; have hh := c1 a b; clear c1 c2 c3 c4 c5 c6 c7 c8; beside)
      (by intro a b; have hh := c2 a b; clear c1 c2 c3 c4 c5 c6 c7 c8; beside)
      (by intro a b; have hh := c3 a b; clear c1 c2 c3 c4 c5 c6 c7 c8; beside)
      (by intro a b; have hh := c4 a b; clear c1 c2 c3 c4 c5 c6 c7 c8; beside)
      (by
        intro a b b'
        have hf : c.face = 0 ∨ c.face = 1 ∨ c.face = 2 ∨ c.face = 3 := by omega
        rcases hf with hf | hf | hf | hf
        · have hh := c5 a hf; clear c1 c2 c3 c4 c5 c6 c7 c8; rw [hf]; beside
        · have hh := c6 a hf; clear c1 c2 c3 c4 c5 c6 c7 c8; rw [hf]; beside
        · have hh := c7 a hf; clear c1 c2 c3 c4 c5 c6 c7 c8; rw [hf]; beside
        · have hh := c8 a hf; clear c1 c2 c3 c4 c5 c6 c7 c8; rw [hf]; beside) hm
  refine filled_of (C80_2d hwi hwj hg hdg hu hl hs h) hch h hV ?_ (fun c _ p hp => hp.2) ?_ ?_
  · intro p hp e e0 e1
    obtain ⟨i, j, rfl, hp⟩ := F.inBounds2.1 hp
    obtain rfl | rfl | rfl | rfl | rfl : e = 0 ∨ e = 1 ∨ e = 2 ∨ e = 3 ∨ e = 4 := by omega
    · rw [F.shift2_0]; exact F.inBounds2.2 ⟨i, j, rfl, by omega⟩
    · rw [F.shift2_1]; exact F.inBounds2.2 ⟨i - 1, j, rfl, by omega⟩
    · rw [F.shift2_2]; exact F.inBounds2.2 ⟨i + 1, j, rfl, by omega⟩
    · rw [F.shift2_3]; exact F.inBounds2.2 ⟨i, j - 1, rfl, by omega⟩
    · rw [F.shift2_4]; exact F.inBounds2.2 ⟨i, j + 1, rfl, by omega⟩
  · intro c hcl p hp e e1 e2 hs'
    have hf : c.face + 1 = e := row_of_side2 (hl c hcl) hp e1 (by omega) hs'
    refine ⟨⟨hp, ?_⟩, hf⟩
    rw [hf]
    exact hs'
  · intro m' ha hch2 c hcl hself p hcells
    have kB0 := (hch2.keeps (h.apart _ (by simp) _ (by simp)) hB0)
    have kB1 := (hch2.keeps (h.apart _ (by simp) _ (by simp)) hB1)
    obtain ⟨s1, s2, s3⟩ := hc0 c hcl
    obtain ⟨u1, u2⟩ := hu c hcl
    obtain ⟨c1, c2, c3, c4, c5, c6, c7, c8⟩ := hl c hcl
    obtain ⟨lo, hi, order, face, btype, alpha, beta, sched⟩ := c
    have hcells' := hcells
    obtain ⟨hin, hseg⟩ := hcells'
    obtain ⟨i, j, rfl, hin⟩ := F.inBounds2.1 hin
    simp only at s1 s2 u1 u2 hseg hself
    have G := ghosts_2d (dx := dx) (exOrder := order) (btype := btype) (alpha := alpha) (beta := beta) (face := face) (m := m') u2 (by omega) (by omega) (by omega) hdg u1
      (by intro b; have hh := c1 rfl b; clear c1 c2 c3 c4 c5 c6 c7 c8; beside)
      (by intro b; have hh := c2 rfl b; clear c1 c2 c3 c4 c5 c6 c7 c8; beside)
      (by intro b; have hh := c3 rfl b; clear c1 c2 c3 c4 c5 c6 c7 c8; beside)
      (by intro b; have hh := c4 rfl b; clear c1 c2 c3 c4 c5 c6 c7 c8; beside)
      ha
    obtain ⟨m'', e', G0, G1, G2, G3⟩ := G
    rw [hself] at e'
    cases e'
    have hf := side2 hseg
    rcases hf with ⟨rfl, hf⟩ | ⟨rfl, hf⟩ | ⟨rfl, hf⟩ | ⟨rfl, hf⟩
    · have hq : i = lo 0 + 1 := by omega
      subst hq
      have eb : F.onFace2 B0 B1 (0 / 2) (0 % 2) [lo 0 + 1, j] = (F.rd m' (F.face2d0 d0 i0 j0 i1 j1 dg) [lo 0 + 1, j]) := by
        rw [(kB0 _ (F.inBounds2.2 ⟨lo 0 + 1, j, rfl, by omega⟩)).rd]
        simp [F.onFace2]
      obtain ⟨y, y1, y2, y3⟩ := fit_first (zero := true) (btype := btype) (order := order) (alpha := alpha) (beta := beta) (h := dx 0) (b := (F.rd m' (F.face2d0 d0 i0 j0 i1 j1 dg) [lo 0 + 1, j])) (x1 := F.rd m' (F.cell2d u i0 j0 i1 j1 g) [lo 0 + 1, j]) (x2 := F.rd m' (F.cell2d u i0 j0 i1 j1 g) [lo 0 + 2, j]) s2 s1
        (fun e4 => by
          have q2 := (s3 e4).2 _ hcells
          simp only [BcCall.piece2, BcCall.piece, eb] at q2
          exact ⟨(s3 e4).1, q2⟩)
      have g := (G0 rfl j (by omega) (by omega) _ y3).rd
      refine ⟨y, by
        simp only [BcCall.piece2, BcCall.piece, eb]
        exact y1, y2, ?_⟩
      show F.rd m' _ (F.shift [lo 0 + 1, j] (F.row F.points2 1)) = _
      rw [F.shift2_1, show lo 0 + 1 - 1 = lo 0 + 0 by omega]
      exact g
    · have hq : i = hi 0 - 1 := by omega
      subst hq
      have eb : F.onFace2 B0 B1 (1 / 2) (1 % 2) [hi 0 - 1, j] = (F.rd m' (F.face2d0 d0 i0 j0 i1 j1 dg) [hi 0, j]) := by
        rw [(kB0 _ (F.inBounds2.2 ⟨hi 0, j, rfl, by omega⟩)).rd]
        simp [F.onFace2]
      obtain ⟨y, y1, y2, y3⟩ := fit_first (zero := true) (btype := btype) (order := order) (alpha := alpha) (beta := beta) (h := dx 0) (b := (F.rd m' (F.face2d0 d0 i0 j0 i1 j1 dg) [hi 0, j])) (x1 := F.rd m' (F.cell2d u i0 j0 i1 j1 g) [hi 0 - 1, j]) (x2 := F.rd m' (F.cell2d u i0 j0 i1 j1 g) [hi 0 - 2, j]) s2 s1
        (fun e4 => by
          have q2 := (s3 e4).2 _ hcells
          simp only [BcCall.piece2, BcCall.piece, eb] at q2
          exact ⟨(s3 e4).1, q2⟩)
      have g := (G1 rfl j (by omega) (by omega) _ y3).rd
      refine ⟨y, by
        simp only [BcCall.piece2, BcCall.piece, eb]
        exact y1, y2, ?_⟩
      show F.rd m' _ (F.shift [hi 0 - 1, j] (F.row F.points2 2)) = _
      rw [F.shift2_2, show hi 0 - 1 + 1 = hi 0 - 0 by omega]
      exact g
    · have hq : j = lo 1 + 1 := by omega
      subst hq
      have eb : F.onFace2 B0 B1 (2 / 2) (2 % 2) [i, lo 1 + 1] = (F.rd m' (F.face2d1 d1 i0 j0 i1 j1 dg) [lo 1 + 1, i]) := by
        rw [(kB1 _ (F.inBounds2.2 ⟨lo 1 + 1, i, rfl, by omega⟩)).rd]
        simp [F.onFace2]
      obtain ⟨y, y1, y2, y3⟩ := fit_first (zero := true) (btype := btype) (order := order) (alpha := alpha) (beta := beta) (h := dx 1) (b := (F.rd m' (F.face2d1 d1 i0 j0 i1 j1 dg) [lo 1 + 1, i])) (x1 := F.rd m' (F.cell2d u i0 j0 i1 j1 g) [i, lo 1 + 1]) (x2 := F.rd m' (F.cell2d u i0 j0 i1 j1 g) [i, lo 1 + 2]) s2 s1
        (fun e4 => by
          have q2 := (s3 e4).2 _ hcells
          simp only [BcCall.piece2, BcCall.piece, eb] at q2
          exact ⟨(s3 e4).1, q2⟩)
      have g := (G2 rfl i (by omega) (by omega) _ y3).rd
      refine ⟨y, by
        simp only [BcCall.piece2, BcCall.piece, eb]
        exact y1, y2, ?_⟩
      show F.rd m' _ (F.shift [i, lo 1 + 1] (F.row F.points2 3)) = _
      rw [F.shift2_3, show lo 1 + 1 - 1 = lo 1 + 0 by omega]
      exact g
    · have hq : j = hi 1 - 1 := by omega
      subst hq
      have eb : F.onFace2 B0 B1 (3 / 2) (3 % 2) [i, hi 1 - 1] = (F.rd m' (F.face2d1 d1 i0 j0 i1 j1 dg) [hi 1, i]) := by
        rw [(kB1 _ (F.inBounds2.2 ⟨hi 1, i, rfl, by omega⟩)).rd]
        simp [F.onFace2]
      obtain ⟨y, y1, y2, y3⟩ := fit_first (zero := true) (btype := btype) (order := order) (alpha := alpha) (beta := beta) (h := dx 1) (b := (F.rd m' (F.face2d1 d1 i0 j0 i1 j1 dg) [hi 1, i])) (x1 := F.rd m' (F.cell2d u i0 j0 i1 j1 g) [i, hi 1 - 1]) (x2 := F.rd m' (F.cell2d u i0 j0 i1 j1 g) [i, hi 1 - 2]) s2 s1
        (fun e4 => by
          have q2 := (s3 e4).2 _ hcells
          simp only [BcCall.piece2, BcCall.piece, eb] at q2
          exact ⟨(s3 e4).1, q2⟩)
      have g := (G3 rfl i (by omega) (by omega) _ y3).rd
      refine ⟨y, by
        simp only [BcCall.piece2, BcCall.piece, eb]
        exact y1, y2, ?_⟩
      show F.rd m' _ (F.shift [i, hi 1 - 1] (F.row F.points2 4)) = _
      rw [F.shift2_4, show hi 1 - 1 + 1 = hi 1 - 0 by omega]
      exact g


set_option maxHeartbeats 1000000 in
example :=
  C90_2d (T := Rat) (l := [exFill (exSeg (-1) 0 0) (exSeg (-1) 4 0) 0 4, exFill (exSeg (-1) 5 0) (exSeg (-1) 7 0) 0 1, exFill (exSeg 8 1 0) (exSeg 8 7 0) 1 0, exFill (exSeg 0 8 0) (exSeg 7 8 0) 3 4])
    (m := exRat) (i0 := 0) (j0 := 0) (i1 := 7) (j1 := 7) (dx := exDx) (u := ⟨9, 0⟩) (g := 1) (dg := 1) (d0 := ⟨0, 0⟩) (d1 := ⟨1, 0⟩) (V := F.rd exRat (F.cell2d ⟨9, 0⟩ 0 0 7 7 1)) (B0 := F.rd exRat (F.face2d0 ⟨0, 0⟩ 0 0 7 7 1)) (B1 := F.rd exRat (F.face2d1 ⟨1, 0⟩ 0 0 7 7 1))
    (by decide) (by decide) (by decide) (by decide) (by ex_fusable) (by ex_falong) (by ex_fseparate) (by ex_args) (exHolds (by decide) (by decide) (by decide)) (exHolds (by decide) (by decide) (by decide)) (exHolds (by decide) (by decide) (by decide)) (by ex_solvable2 exNonneg)

/-- Calls of `cd_correct_bc_2d_cuda::set_poisson_bc` for parts of the sides of a box at least two cells wide, without common cells, leave a field that fulfils homogeneous boundary conditions on these parts, and change nothing else. Robin conditions only across the first direction. -/
theorem C90_poisson_2d_partial {i0 j0 i1 j1 g : Int} {dx : Nat → T} {u : Ptr} {l : List (BcCall T)} {m : Mem T} {V : List Int → T} (hwi : i0 < i1) (hwj : j0 < j1) (hg : 1 ≤ g)
    (hu : ∀ c ∈ l, c.Usable 2) (hl : ∀ c ∈ l, c.Along2 1 i0 j0 i1 j1) (hs : ∀ c ∈ l, ∀ d ∈ l, Separate (fun c : BcCall T => F.onSeg2 c.lo c.hi 1 c.face) c d)
    (h : F.Args m [] [F.cell2d u i0 j0 i1 j1 g])
    (hV : F.Holds m (F.cell2d u i0 j0 i1 j1 g) V)
    (hc : ∀ c ∈ l, c.Solvable (c.piece2 i0 j0 i1 j1 dx (fun _ => (1 : T)) (fun _ => (1 : T)))) (hr : ∀ c ∈ l, c.btype = 4 → c.face < 2) :
    Filled (fun c : BcCall T => Cuda.setPoissonBc2d i0 i1 j0 j1 dx g u c.lo c.hi c.order c.face 1 c.btype c.alpha c.beta c.sched) (fun c : BcCall T => F.onSeg2 c.lo c.hi 1 c.face) (fun c : BcCall T => c.piece2 i0 j0 i1 j1 dx (fun _ => (1 : T)) (fun _ => (1 : T))) [(i0, i1), (j0, j1)] 5 (F.row F.points2) (F.cell2d u i0 j0 i1 j1 g) l m V := by
  have hc0 := hc
  clear hc
  have hch : ∀ c ∈ l, ∀ m, F.Args m [] [F.cell2d u i0 j0 i1 j1 g] → ∃ m', (fun c : BcCall T => Cuda.setPoissonBc2d i0 i1 j0 j1 dx g u c.lo c.hi c.order c.face 1 c.btype c.alpha c.beta c.sched) c m = .ok m' ∧ F.Changes (F.cell2d u i0 j0 i1 j1 g) ((fun c : BcCall T => F.onSeg2 c.lo c.hi 1 c.face) c) m m' := by
    intro c hc m hm
    obtain ⟨u1, u2⟩ := hu c hc
    obtain ⟨c1, c2, c3, c4, c5, c6, c7, c8⟩ := hl c hc
    clear hu hl hs h hV hc0 hr
    exact C76_poisson_2d u2 (by omega) (by omega) (by omega) u1
      (by intro a b; have hh := c1 a b; clear c1 c2 c3 c4 c5 c6 c7 c8; beside)
      (by intro a b; have hh := c2 a b; clear c1 c2 c3 c4 c5 c6 c7 c8; beside)
      (by intro a b; have hh := c3 a b; clear c1 c2 c3 c4 c5 c6 c7 c8; beside)
      (by intro a b; have hh := c4 a b; clear c1 c2 c3 c4 c5 c6 c7 c8; beside)
      (by
        intro a b b'
        have hf : c.face = 0 ∨ c.face = 1 ∨ c.face = 2 ∨ c.face = 3 := by omega
        rcases hf with hf | hf | hf | hf
        · have hh := c5 a hf; clear c1 c2 c3 c4 c5 c6 c7 c8; rw [hf]; beside
        · have hh := c6 a hf; clear c1 c2 c3 c4 c5 c6 c7 c8; rw [hf]; beside
        · have hh := c7 a hf; clear c1 c2 c3 c4 c5 c6 c7 c8; rw [hf]; beside
        · have hh := c8 a hf; clear c1 c2 c3 c4 c5 c6 c7 c8; rw [hf]; beside) hm
  refine filled_of (C80_poisson_2d hwi hwj hg hu hl hs h) hch h hV ?_ (fun c _ p hp => hp.2) ?_ ?_
  · intro p hp e e0 e1
    obtain ⟨i, j, rfl, hp⟩ := F.inBounds2.1 hp
    obtain rfl | rfl | rfl | rfl | rfl : e = 0 ∨ e = 1 ∨ e = 2 ∨ e = 3 ∨ e = 4 := by omega
    · rw [F.shift2_0]; exact F.inBounds2.2 ⟨i, j, rfl, by omega⟩
    · rw [F.shift2_1]; exact F.inBounds2.2 ⟨i - 1, j, rfl, by omega⟩
    · rw [F.shift2_2]; exact F.inBounds2.2 ⟨i + 1, j, rfl, by omega⟩
    · rw [F.shift2_3]; exact F.inBounds2.2 ⟨i, j - 1, rfl, by omega⟩
    · rw [F.shift2_4]; exact F.inBounds2.2 ⟨i, j + 1, rfl, by omega⟩
  · intro c hcl p hp e e1 e2 hs'
    have hf : c.face + 1 = e := row_of_side2 (hl c hcl) hp e1 (by omega) hs'
    refine ⟨⟨hp, ?_⟩, hf⟩
    rw [hf]
    exact hs'
  · intro m' ha hch2 c hcl hself p hcells
    obtain ⟨s1, s2, s3⟩ := hc0 c hcl
    obtain ⟨u1, u2⟩ := hu c hcl
    obtain ⟨c1, c2, c3, c4, c5, c6, c7, c8⟩ := hl c hcl
    obtain ⟨lo, hi, order, face, btype, alpha, beta, sched⟩ := c
    have hcells' := hcells
    obtain ⟨hin, hseg⟩ := hcells'
    obtain ⟨i, j, rfl, hin⟩ := F.inBounds2.1 hin
    simp only at s1 s2 u1 u2 hseg hself
    have G := ghosts_p2d (dx := dx) (exOrder := order) (btype := btype) (alpha := alpha) (beta := beta) (face := face) (m := m') u2 (by omega) (by omega) (by omega) u1
      (by intro b; have hh := c1 rfl b; clear c1 c2 c3 c4 c5 c6 c7 c8; beside)
      (by intro b; have hh := c2 rfl b; clear c1 c2 c3 c4 c5 c6 c7 c8; beside)
      (by intro b; have hh := c3 rfl b; clear c1 c2 c3 c4 c5 c6 c7 c8; beside)
      (by intro b; have hh := c4 rfl b; clear c1 c2 c3 c4 c5 c6 c7 c8; beside)
      ha
    obtain ⟨m'', e', G0, G1, G2, G3⟩ := G
    rw [hself] at e'
    cases e'
    have hf := side2 hseg
    rcases hf with ⟨rfl, hf⟩ | ⟨rfl, hf⟩ | ⟨rfl, hf⟩ | ⟨rfl, hf⟩
    · have hq : i = lo 0 + 1 := by omega
      subst hq
      have eb : F.onFace2 (fun _ => (1 : T)) (fun _ => (1 : T)) (0 / 2) (0 % 2) [lo 0 + 1, j] = (1 : T) := by simp [F.onFace2]
      obtain ⟨y, y1, y2, y3⟩ := fit_first (zero := false) (btype := btype) (order := order) (alpha := alpha) (beta := beta) (h := dx 0) (b := 1) (x1 := F.rd m' (F.cell2d u i0 j0 i1 j1 g) [lo 0 + 1, j]) (x2 := F.rd m' (F.cell2d u i0 j0 i1 j1 g) [lo 0 + 2, j]) s2 s1
        (fun e4 => by
          have q2 := (s3 e4).2 _ hcells
          simp only [BcCall.piece2, BcCall.piece, eb] at q2
          exact ⟨(s3 e4).1, q2⟩)
      have g := (G0 rfl j (by omega) (by omega) _ y3).rd
      refine ⟨y, by
        simp only [BcCall.piece2, BcCall.piece, eb]
        exact y1, y2, ?_⟩
      show F.rd m' _ (F.shift [lo 0 + 1, j] (F.row F.points2 1)) = _
      rw [F.shift2_1, show lo 0 + 1 - 1 = lo 0 + 0 by omega]
      exact g
    · have hq : i = hi 0 - 1 := by omega
      subst hq
      have eb : F.onFace2 (fun _ => (1 : T)) (fun _ => (1 : T)) (1 / 2) (1 % 2) [hi 0 - 1, j] = (1 : T) := by simp [F.onFace2]
      obtain ⟨y, y1, y2, y3⟩ := fit_first (zero := false) (btype := btype) (order := order) (alpha := alpha) (beta := beta) (h := dx 0) (b := 1) (x1 := F.rd m' (F.cell2d u i0 j0 i1 j1 g) [hi 0 - 1, j]) (x2 := F.rd m' (F.cell2d u i0 j0 i1 j1 g) [hi 0 - 2, j]) s2 s1
        (fun e4 => by
          have q2 := (s3 e4).2 _ hcells
          simp only [BcCall.piece2, BcCall.piece, eb] at q2
          exact ⟨(s3 e4).1, q2⟩)
      have g := (G1 rfl j (by omega) (by omega) _ y3).rd
      refine ⟨y, by
        simp only [BcCall.piece2, BcCall.piece, eb]
        exact y1, y2, ?_⟩
      show F.rd m' _ (F.shift [hi 0 - 1, j] (F.row F.points2 2)) = _
      rw [F.shift2_2, show hi 0 - 1 + 1 = hi 0 - 0 by omega]
      exact g
    · have hq : j = lo 1 + 1 := by omega
      subst hq
      have eb : F.onFace2 (fun _ => (1 : T)) (fun _ => (1 : T)) (2 / 2) (2 % 2) [i, lo 1 + 1] = (1 : T) := by simp [F.onFace2]
      obtain ⟨y, y1, y2, y3⟩ := fit_first (zero := false) (btype := btype) (order := order) (alpha := alpha) (beta := beta) (h := dx 1) (b := 1) (x1 := F.rd m' (F.cell2d u i0 j0 i1 j1 g) [i, lo 1 + 1]) (x2 := F.rd m' (F.cell2d u i0 j0 i1 j1 g) [i, lo 1 + 2]) s2 s1
        (fun e4 => by
          have q2 := (s3 e4).2 _ hcells
          simp only [BcCall.piece2, BcCall.piece, eb] at q2
          exact ⟨(s3 e4).1, q2⟩)
      have g := (G2 rfl (fun e4 => absurd (hr _ hcl e4) (by simp)) i (by omega) (by omega) _ y3).rd
      refine ⟨y, by
        simp only [BcCall.piece2, BcCall.piece, eb]
        exact y1, y2, ?_⟩
      show F.rd m' _ (F.shift [i, lo 1 + 1] (F.row F.points2 3)) = _
      rw [F.shift2_3, show lo 1 + 1 - 1 = lo 1 + 0 by omega]
      exact g
    · have hq : j = hi 1 - 1 := by omega
      subst hq
      have eb : F.onFace2 (fun _ => (1 : T)) (fun _ => (1 : T)) (3 / 2) (3 % 2) [i, hi 1 - 1] = (1 : T) := by simp [F.onFace2]
      obtain ⟨y, y1, y2, y3⟩ := fit_first (zero := false) (btype := btype) (order := order) (alpha := alpha) (beta := beta) (h := dx 1) (b := 1) (x1 := F.rd m' (F.cell2d u i0 j0 i1 j1 g) [i, hi 1 - 1]) (x2 := F.rd m' (F.cell2d u i0 j0 i1 j1 g) [i, hi 1 - 2]) s2 s1
        (fun e4 => by
          have q2 := (s3 e4).2 _ hcells
          simp only [BcCall.piece2, BcCall.piece, eb] at q2
          exact ⟨(s3 e4).1, q2⟩)
      have g := (G3 rfl (fun e4 => absurd (hr _ hcl e4) (by simp)) i (by omega) (by omega) _ y3).rd
      refine ⟨y, by
        simp only [BcCall.piece2, BcCall.piece, eb]
        exact y1, y2, ?_⟩
      show F.rd m' _ (F.shift [i, hi 1 - 1] (F.row F.points2 4)) = _
      rw [F.shift2_4, show hi 1 - 1 + 1 = hi 1 - 0 by omega]
      exact g


set_option maxHeartbeats 1000000 in
example :=
  C90_poisson_2d_partial (T := Rat) (l := [exFill (exSeg (-1) 0 0) (exSeg (-1) 4 0) 0 4, exFill (exSeg (-1) 5 0) (exSeg (-1) 7 0) 0 1, exFill (exSeg 8 1 0) (exSeg 8 7 0) 1 0, exFill (exSeg 0 8 0) (exSeg 7 8 0) 3 1])
    (m := exRat) (i0 := 0) (j0 := 0) (i1 := 7) (j1 := 7) (dx := exDx) (u := ⟨9, 0⟩) (g := 1) (V := F.rd exRat (F.cell2d ⟨9, 0⟩ 0 0 7 7 1))
    (by decide) (by decide) (by decide) (by ex_fusable) (by ex_falong) (by ex_fseparate) (by ex_args) (exHolds (by decide) (by decide) (by decide)) (by ex_solvable2 exOne) (by simp [exFill])

/-- `set_poisson_bc` in 1D takes `alpha = 2 beta` for granted: a Robin condition with other coefficients is not fulfilled after the call. -/
theorem C90_poisson_1d_false : ∃ c : BcCall Rat, c.Usable 1 ∧ c.Along1 0 7 ∧ F.Args exRat [] [F.cell1d ⟨1, 0⟩ 0 7 1] ∧ c.Solvable (c.piece1 0 7 exDx fun _ => (1 : Rat)) ∧
    ¬ Filled (fun c : BcCall Rat => Cuda.setPoissonBc1d 0 7 exDx 1 ⟨1, 0⟩ c.lo c.hi c.order c.face c.btype c.alpha c.beta c.sched) (fun c : BcCall Rat => F.onSeg1 c.lo c.hi c.face)
      (fun c : BcCall Rat => c.piece1 0 7 exDx fun _ => (1 : Rat)) [(0, 7)] 3 (F.row F.points1) (F.cell1d ⟨1, 0⟩ 0 7 1) [c] exRat (F.rd exRat (F.cell1d ⟨1, 0⟩ 0 7 1)) := by
  refine ⟨⟨exSeg (-1) 0 0, exSeg (-1) 0 0, 1, 0, 4, 1, 1, fun _ => revBackend⟩, ⟨by simp only [InInt]; decide +kernel, fun _ => revBackend_ok⟩, ?_, by ex_args, ?_, fun h => ?_⟩
  · simp only [BcCall.Along1, Spec.Part, nextTo, exSeg]
    decide +kernel
  · exact exSolvable (by simp [F.First]) (exDx_pos _) (exOn1 exOne _) (by norm_num) (by norm_num)
  · obtain ⟨y, y1, y2, y3⟩ := filled_at (p := [0]) (x := 8) (g := 56 / 9) h ⟨by decide, .inl ⟨rfl, rfl⟩⟩ (.inl ⟨rfl, rfl⟩) (by decide) (by decide) (by decide +kernel) (by decide +kernel)
    rcases y1 with y1 | y1 | y1 | y1 | y1 <;> simp only [BcCall.piece1, BcCall.piece, Int.reduceEq, false_and, true_and] at y1
    obtain ⟨b, d, rfl⟩ := exists_eq_X_add_C_of_natDegree_le_one y1.1
    have y1 := y1.2
    simp [BcCall.piece1, BcCall.piece, exDx, F.onFace1] at y1 y2 y3
    norm_num at y1 y2 y3
    linarith

/-- `set_poisson_bc` in 2D has no Robin conditions across the second direction: the ghost cells are left as they are. -/
theorem C90_poisson_2d_false : ∃ c : BcCall Rat, c.Usable 2 ∧ c.Along2 1 0 0 7 7 ∧ F.Args exRat [] [F.cell2d ⟨9, 0⟩ 0 0 7 7 1] ∧
    c.Solvable (c.piece2 0 0 7 7 exDx (fun _ => (1 : Rat)) fun _ => (1 : Rat)) ∧
    ¬ Filled (fun c : BcCall Rat => Cuda.setPoissonBc2d 0 7 0 7 exDx 1 ⟨9, 0⟩ c.lo c.hi c.order c.face 1 c.btype c.alpha c.beta c.sched) (fun c : BcCall Rat => F.onSeg2 c.lo c.hi 1 c.face)
      (fun c : BcCall Rat => c.piece2 0 0 7 7 exDx (fun _ => (1 : Rat)) fun _ => (1 : Rat)) [(0, 7), (0, 7)] 5 (F.row F.points2) (F.cell2d ⟨9, 0⟩ 0 0 7 7 1) [c] exRat
      (F.rd exRat (F.cell2d ⟨9, 0⟩ 0 0 7 7 1)) := by
  refine ⟨⟨exSeg 0 (-1) 0, exSeg 7 (-1) 0, 1, 2, 4, 2, 1, fun _ => revBackend⟩, ⟨by simp only [InInt]; decide +kernel, fun _ => revBackend_ok⟩, ?_, by ex_args, ?_, fun h => ?_⟩
  · simp [BcCall.Along2, Spec.Part, exSeg]
  · exact exSolvable (by simp [F.First]) (exDx_pos _) (exOn2 exOne exOne _ _) (by norm_num) (by norm_num)
  · have hs : F.onSeg2 (exSeg 0 (-1) 0) (exSeg 7 (-1) 0) 1 2 (F.shift [0, 0] (F.row F.points2 3)) := ⟨0, -1, rfl, .inr (.inl (by decide))⟩
    obtain ⟨y, y1, y2, y3⟩ := filled_at (p := [0, 0]) (x := 184) (g := 64) h ⟨by decide, hs⟩ hs (by decide) (by decide) (by decide +kernel) (by decide +kernel)
    rcases y1 with y1 | y1 | y1 | y1 | y1 <;> simp only [BcCall.piece2, BcCall.piece, Int.reduceEq, false_and, true_and] at y1
    obtain ⟨b, d, rfl⟩ := exists_eq_X_add_C_of_natDegree_le_one y1.1
    have y1 := y1.2
    simp [BcCall.piece2, BcCall.piece, exDx, F.onFace2] at y1 y2 y3
    norm_num at y1 y2 y3
    linarith

end Verif
