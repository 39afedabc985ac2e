import Verif.Lemmas.FillEx
import Verif.Lemmas.BcGhosts

/-
C90: the boundary condition kernels leave fields that fulfil the boundary conditions.
-/

set_option linter.unusedVariables false
set_option linter.unusedSimpArgs false
set_option maxHeartbeats 1000000

namespace Verif
open Spec Polynomial

variable {T : Type} [Field T] [CharZero T]

/-- Calls of `cd_correct_bc_3d_cuda::set_bc` for parts of the sides of a box at least two cells wide, without common cells, leave a field that fulfils homogeneous boundary conditions on these parts, and change nothing else. -/
theorem C90_3d {i0 j0 k0 i1 j1 k1 g dg : Int} {dx : Nat → T} {d0 d1 d2 u : Ptr} {l : List (BcCall T)} {m : Mem T} {V B0 B1 B2 : List Int → T} (hwi : i0 < i1) (hwj : j0 < j1) (hwk : k0 < k1) (hg : 1 ≤ g) (hdg : 0 ≤ dg)
    (hu : ∀ c ∈ l, c.Usable 3) (hl : ∀ c ∈ l, c.Along3 1 i0 j0 k0 i1 j1 k1) (hs : ∀ c ∈ l, ∀ d ∈ l, Separate (fun c : BcCall T => F.onSeg3 c.lo c.hi 1 c.face) c d)
    (h : F.Args m [F.face3d0 d0 i0 j0 k0 i1 j1 k1 dg, F.face3d1 d1 i0 j0 k0 i1 j1 k1 dg, F.face3d2 d2 i0 j0 k0 i1 j1 k1 dg] [F.cell3d u i0 j0 k0 i1 j1 k1 g])
    (hV : F.Holds m (F.cell3d u i0 j0 k0 i1 j1 k1 g) V) (hB0 : F.Holds m (F.face3d0 d0 i0 j0 k0 i1 j1 k1 dg) B0) (hB1 : F.Holds m (F.face3d1 d1 i0 j0 k0 i1 j1 k1 dg) B1) (hB2 : F.Holds m (F.face3d2 d2 i0 j0 k0 i1 j1 k1 dg) B2)
    (hc : ∀ c ∈ l, c.Solvable (c.piece3 i0 j0 k0 i1 j1 k1 dx B0 B1 B2)) :
    Filled (fun c : BcCall T => Cuda.setBc3d i0 i1 j0 j1 k0 k1 dx dg d0 d1 d2 g u c.lo c.hi c.order c.face 1 c.btype c.alpha c.beta c.sched) (fun c : BcCall T => F.onSeg3 c.lo c.hi 1 c.face) (fun c : BcCall T => c.piece3 i0 j0 k0 i1 j1 k1 dx B0 B1 B2) [(i0, i1), (j0, j1), (k0, k1)] 7 (F.row F.points3) (F.cell3d u i0 j0 k0 i1 j1 k1 g) l m V := by
  have hc0 := hc
  clear hc
  have hch : ∀ c ∈ l, ∀ m, F.Args m [F.face3d0 d0 i0 j0 k0 i1 j1 k1 dg, F.face3d1 d1 i0 j0 k0 i1 j1 k1 dg, F.face3d2 d2 i0 j0 k0 i1 j1 k1 dg] [F.cell3d u i0 j0 k0 i1 j1 k1 g] → ∃ m', (fun c : BcCall T => Cuda.setBc3d i0 i1 j0 j1 k0 k1 dx dg d0 d1 d2 g u c.lo c.hi c.order c.face 1 c.btype c.alpha c.beta c.sched) c m = .ok m' ∧ F.Changes (F.cell3d u i0 j0 k0 i1 j1 k1 g) ((fun c : BcCall T => F.onSeg3 c.lo c.hi 1 c.face) c) m m' := by
    intro c hc m hm
    obtain ⟨u1, u2⟩ := hu c hc
    obtain ⟨c1, c2, c3, c4, c5, c6, c7, c8, c9, c10⟩ := hl c hc
    clear hu hl hs h hV hB0 hB1 hB2 hc0
    exact C76_3d u2 (by omega) (by omega) (by omega) (by omega) hdg u1
      (by intro a b; have hh := c1 a b; clear c1 c2 c3 c4 c5 c6 c7 c8 c9 c10; beside)
      (by intro a b; have hh := c2 a b; clear c1 c2 c3 c4 c5 c6 c7 c8 c9 c10; beside)
      (by intro a b; have hh := c3 a b; clear c1 c2 c3 c4 c5 c6 c7 c8 c9 c10; beside)
      (by intro a b; have hh := c4 a b; clear c1 c2 c3 c4 c5 c6 c7 c8 c9 c10; beside)
      (by intro a b; have hh := c5 a b; clear c1 c2 c3 c4 c5 c6 c7 c8 c9 c10; beside)
      (by intro a b; have hh := c6 a b; clear c1 c2 c3 c4 c5 c6 c7 c8 c9 c10; beside)
      (by intro a b b'; have hh := c7 a b b'; clear c1 c2 c3 c4 c5 c6 c7 c8 c9 c10; beside)
      (by intro a b b'; have hh := c8 a b b'; clear c1 c2 c3 c4 c5 c6 c7 c8 c9 c10; beside)
      (by intro a b b'; have hh := c9 a b b'; clear c1 c2 c3 c4 c5 c6 c7 c8 c9 c10; beside)
      (by intro a b b'; have hh := c10 a b b'; clear c1 c2 c3 c4 c5 c6 c7 c8 c9 c10; beside) hm
  refine filled_of (C80_3d hwi hwj hwk hg hdg hu hl hs h) hch h hV ?_ (fun c _ p hp => hp.2) ?_ ?_
  · intro p hp e e0 e1
    obtain ⟨i, j, k, rfl, hp⟩ := F.inBounds3.1 hp
    obtain rfl | rfl | rfl | rfl | rfl | rfl | rfl : e = 0 ∨ e = 1 ∨ e = 2 ∨ e = 3 ∨ e = 4 ∨ e = 5 ∨ e = 6 := by omega
    · rw [F.shift3_0]; exact F.inBounds3.2 ⟨i, j, k, rfl, by omega⟩
    · rw [F.shift3_1]; exact F.inBounds3.2 ⟨i - 1, j, k, rfl, by omega⟩
    · rw [F.shift3_2]; exact F.inBounds3.2 ⟨i + 1, j, k, rfl, by omega⟩
    · rw [F.shift3_3]; exact F.inBounds3.2 ⟨i, j - 1, k, rfl, by omega⟩
    · rw [F.shift3_4]; exact F.inBounds3.2 ⟨i, j + 1, k, rfl, by omega⟩
    · rw [F.shift3_5]; exact F.inBounds3.2 ⟨i, j, k - 1, rfl, by omega⟩
    · rw [F.shift3_6]; exact F.inBounds3.2 ⟨i, j, k + 1, rfl, by omega⟩
  · intro c hcl p hp e e1 e2 hs'
    have hf : c.face + 1 = e := row_of_side3 (hl c hcl) hp e1 (by omega) hs'
    refine ⟨⟨hp, ?_⟩, hf⟩
    rw [hf]
    exact hs'
  · intro m' ha hch2 c hcl hself p hcells
    have kB0 := (hch2.keeps (h.apart _ (by simp) _ (by simp)) hB0)
    have kB1 := (hch2.keeps (h.apart _ (by simp) _ (by simp)) hB1)
    have kB2 := (hch2.keeps (h.apart _ (by simp) _ (by simp)) hB2)
    obtain ⟨s1, s2, s3⟩ := hc0 c hcl
    obtain ⟨u1, u2⟩ := hu c hcl
    obtain ⟨c1, c2, c3, c4, c5, c6, c7, c8, c9, c10⟩ := hl c hcl
    obtain ⟨lo, hi, order, face, btype, alpha, beta, sched⟩ := c
    have hcells' := hcells
    obtain ⟨hin, hseg⟩ := hcells'
    obtain ⟨i, j, k, rfl, hin⟩ := F.inBounds3.1 hin
    simp only at s1 s2 u1 u2 hseg hself
    have G := ghosts_3d (dx := dx) (exOrder := order) (btype := btype) (alpha := alpha) (beta := beta) (face := face) (m := m') u2 (by omega) (by omega) (by omega) (by omega) hdg u1
      (by intro b; have hh := c1 rfl b; clear c1 c2 c3 c4 c5 c6 c7 c8 c9 c10; beside)
      (by intro b; have hh := c2 rfl b; clear c1 c2 c3 c4 c5 c6 c7 c8 c9 c10; beside)
      (by intro b; have hh := c3 rfl b; clear c1 c2 c3 c4 c5 c6 c7 c8 c9 c10; beside)
      (by intro b; have hh := c4 rfl b; clear c1 c2 c3 c4 c5 c6 c7 c8 c9 c10; beside)
      (by intro b; have hh := c5 rfl b; clear c1 c2 c3 c4 c5 c6 c7 c8 c9 c10; beside)
      (by intro b; have hh := c6 rfl b; clear c1 c2 c3 c4 c5 c6 c7 c8 c9 c10; beside)
      ha
    obtain ⟨m'', e', G0, G1, G2, G3, G4, G5⟩ := G
    rw [hself] at e'
    cases e'
    have hf := side3 hseg
    rcases hf with ⟨rfl, hf⟩ | ⟨rfl, hf⟩ | ⟨rfl, hf⟩ | ⟨rfl, hf⟩ | ⟨rfl, hf⟩ | ⟨rfl, hf⟩
    · have hq : i = lo 0 + 1 := by omega
      subst hq
      have eb : F.onFace3 B0 B1 B2 (0 / 2) (0 % 2) [lo 0 + 1, j, k] = (F.rd m' (F.face3d0 d0 i0 j0 k0 i1 j1 k1 dg) [lo 0 + 1, j, k]) := by
        rw [(kB0 _ (F.inBounds3.2 ⟨lo 0 + 1, j, k, rfl, by omega⟩)).rd]
        simp [F.onFace3]
      obtain ⟨y, y1, y2, y3⟩ := fit_first (zero := false) (btype := btype) (order := order) (alpha := alpha) (beta := beta) (h := dx 0) (b := (F.rd m' (F.face3d0 d0 i0 j0 k0 i1 j1 k1 dg) [lo 0 + 1, j, k])) (x1 := F.rd m' (F.cell3d u i0 j0 k0 i1 j1 k1 g) [lo 0 + 1, j, k]) (x2 := F.rd m' (F.cell3d u i0 j0 k0 i1 j1 k1 g) [lo 0 + 2, j, k]) s2 s1
        (fun e4 => by
          have q2 := (s3 e4).2 _ hcells
          simp only [BcCall.piece3, BcCall.piece, eb] at q2
          exact ⟨(s3 e4).1, q2⟩)
      have g := (G0 rfl j (by omega) (by omega) k (by omega) (by omega) _ y3).rd
      refine ⟨y, by
        simp only [BcCall.piece3, BcCall.piece, eb]
        exact y1, y2, ?_⟩
      show F.rd m' _ (F.shift [lo 0 + 1, j, k] (F.row F.points3 1)) = _
      rw [F.shift3_1, show lo 0 + 1 - 1 = lo 0 + 0 by omega]
      exact g
    · have hq : i = hi 0 - 1 := by omega
      subst hq
      have eb : F.onFace3 B0 B1 B2 (1 / 2) (1 % 2) [hi 0 - 1, j, k] = (F.rd m' (F.face3d0 d0 i0 j0 k0 i1 j1 k1 dg) [hi 0, j, k]) := by
        rw [(kB0 _ (F.inBounds3.2 ⟨hi 0, j, k, rfl, by omega⟩)).rd]
        simp [F.onFace3]
      obtain ⟨y, y1, y2, y3⟩ := fit_first (zero := false) (btype := btype) (order := order) (alpha := alpha) (beta := beta) (h := dx 0) (b := (F.rd m' (F.face3d0 d0 i0 j0 k0 i1 j1 k1 dg) [hi 0, j, k])) (x1 := F.rd m' (F.cell3d u i0 j0 k0 i1 j1 k1 g) [hi 0 - 1, j, k]) (x2 := F.rd m' (F.cell3d u i0 j0 k0 i1 j1 k1 g) [hi 0 - 2, j, k]) s2 s1
        (fun e4 => by
          have q2 := (s3 e4).2 _ hcells
          simp only [BcCall.piece3, BcCall.piece, eb] at q2
          exact ⟨(s3 e4).1, q2⟩)
      have g := (G1 rfl j (by omega) (by omega) k (by omega) (by omega) _ y3).rd
      refine ⟨y, by
        simp only [BcCall.piece3, BcCall.piece, eb]
        exact y1, y2, ?_⟩
      show F.rd m' _ (F.shift [hi 0 - 1, j, k] (F.row F.points3 2)) = _
      rw [F.shift3_2, show hi 0 - 1 + 1 = hi 0 - 0 by omega]
      exact g
    · have hq : j = lo 1 + 1 := by omega
      subst hq
      have eb : F.onFace3 B0 B1 B2 (2 / 2) (2 % 2) [i, lo 1 + 1, k] = (F.rd m' (F.face3d1 d1 i0 j0 k0 i1 j1 k1 dg) [lo 1 + 1, k, i]) := by
        rw [(kB1 _ (F.inBounds3.2 ⟨lo 1 + 1, k, i, rfl, by omega⟩)).rd]
        simp [F.onFace3]
      obtain ⟨y, y1, y2, y3⟩ := fit_first (zero := false) (btype := btype) (order := order) (alpha := alpha) (beta := beta) (h := dx 1) (b := (F.rd m' (F.face3d1 d1 i0 j0 k0 i1 j1 k1 dg) [lo 1 + 1, k, i])) (x1 := F.rd m' (F.cell3d u i0 j0 k0 i1 j1 k1 g) [i, lo 1 + 1, k]) (x2 := F.rd m' (F.cell3d u i0 j0 k0 i1 j1 k1 g) [i, lo 1 + 2, k]) s2 s1
        (fun e4 => by
          have q2 := (s3 e4).2 _ hcells
          simp only [BcCall.piece3, BcCall.piece, eb] at q2
          exact ⟨(s3 e4).1, q2⟩)
      have g := (G2 rfl i (by omega) (by omega) k (by omega) (by omega) _ y3).rd
      refine ⟨y, by
        simp only [BcCall.piece3, BcCall.piece, eb]
        exact y1, y2, ?_⟩
      show F.rd m' _ (F.shift [i, lo 1 + 1, k] (F.row F.points3 3)) = _
      rw [F.shift3_3, show lo 1 + 1 - 1 = lo 1 + 0 by omega]
      exact g
    · have hq : j = hi 1 - 1 := by omega
      subst hq
      have eb : F.onFace3 B0 B1 B2 (3 / 2) (3 % 2) [i, hi 1 - 1, k] = (F.rd m' (F.face3d1 d1 i0 j0 k0 i1 j1 k1 dg) [hi 1, k, i]) := by
        rw [(kB1 _ (F.inBounds3.2 ⟨hi 1, k, i, rfl, by omega⟩)).rd]
        simp [F.onFace3]
      obtain ⟨y, y1, y2, y3⟩ := fit_first (zero := false) (btype := btype) (order := order) (alpha := alpha) (beta := beta) (h := dx 1) (b := (F.rd m' (F.face3d1 d1 i0 j0 k0 i1 j1 k1 dg) [hi 1, k, i])) (x1 := F.rd m' (F.cell3d u i0 j0 k0 i1 j1 k1 g) [i, hi 1 - 1, k]) (x2 := F.rd m' (F.cell3d u i0 j0 k0 i1 j1 k1 g) [i, hi 1 - 2, k]) s2 s1
        (fun e4 => by
          have q2 := (s3 e4).2 _ hcells
          simp only [BcCall.piece3, BcCall.piece, eb] at q2
          exact ⟨(s3 e4).1, q2⟩)
      have g := (G3 rfl i (by omega) (by omega) k (by omega) (by omega) _ y3).rd
      refine ⟨y, by
        simp only [BcCall.piece3, BcCall.piece, eb]
        exact y1, y2, ?_⟩
      show F.rd m' _ (F.shift [i, hi 1 - 1, k] (F.row F.points3 4)) = _
      rw [F.shift3_4, show hi 1 - 1 + 1 = hi 1 - 0 by omega]
      exact g
    · have hq : k = lo 2 + 1 := by omega
      subst hq
      have eb : F.onFace3 B0 B1 B2 (4 / 2) (4 % 2) [i, j, lo 2 + 1] = (F.rd m' (F.face3d2 d2 i0 j0 k0 i1 j1 k1 dg) [lo 2 + 1, i, j]) := by
        rw [(kB2 _ (F.inBounds3.2 ⟨lo 2 + 1, i, j, rfl, by omega⟩)).rd]
        simp [F.onFace3]
      obtain ⟨y, y1, y2, y3⟩ := fit_first (zero := false) (btype := btype) (order := order) (alpha := alpha) (beta := beta) (h := dx 2) (b := (F.rd m' (F.face3d2 d2 i0 j0 k0 i1 j1 k1 dg) [lo 2 + 1, i, j])) (x1 := F.rd m' (F.cell3d u i0 j0 k0 i1 j1 k1 g) [i, j, lo 2 + 1]) (x2 := F.rd m' (F.cell3d u i0 j0 k0 i1 j1 k1 g) [i, j, lo 2 + 2]) s2 s1
        (fun e4 => by
          have q2 := (s3 e4).2 _ hcells
          simp only [BcCall.piece3, BcCall.piece, eb] at q2
          exact ⟨(s3 e4).1, q2⟩)
      have g := (G4 rfl i (by omega) (by omega) j (by omega) (by omega) _ y3).rd
      refine ⟨y, by
        simp only [BcCall.piece3, BcCall.piece, eb]
        exact y1, y2, ?_⟩
      show F.rd m' _ (F.shift [i, j, lo 2 + 1] (F.row F.points3 5)) = _
      rw [F.shift3_5, show lo 2 + 1 - 1 = lo 2 + 0 by omega]
      exact g
    · have hq : k = hi 2 - 1 := by omega
      subst hq
      have eb : F.onFace3 B0 B1 B2 (5 / 2) (5 % 2) [i, j, hi 2 - 1] = (F.rd m' (F.face3d2 d2 i0 j0 k0 i1 j1 k1 dg) [hi 2, i, j]) := by
        rw [(kB2 _ (F.inBounds3.2 ⟨hi 2, i, j, rfl, by omega⟩)).rd]
        simp [F.onFace3]
      obtain ⟨y, y1, y2, y3⟩ := fit_first (zero := false) (btype := btype) (order := order) (alpha := alpha) (beta := beta) (h := dx 2) (b := (F.rd m' (F.face3d2 d2 i0 j0 k0 i1 j1 k1 dg) [hi 2, i, j])) (x1 := F.rd m' (F.cell3d u i0 j0 k0 i1 j1 k1 g) [i, j, hi 2 - 1]) (x2 := F.rd m' (F.cell3d u i0 j0 k0 i1 j1 k1 g) [i, j, hi 2 - 2]) s2 s1
        (fun e4 => by
          have q2 := (s3 e4).2 _ hcells
          simp only [BcCall.piece3, BcCall.piece, eb] at q2
          exact ⟨(s3 e4).1, q2⟩)
      have g := (G5 rfl i (by omega) (by omega) j (by omega) (by omega) _ y3).rd
      refine ⟨y, by
        simp only [BcCall.piece3, BcCall.piece, eb]
        exact y1, y2, ?_⟩
      show F.rd m' _ (F.shift [i, j, hi 2 - 1] (F.row F.points3 6)) = _
      rw [F.shift3_6, show hi 2 - 1 + 1 = hi 2 - 0 by omega]
      exact g


set_option maxHeartbeats 1000000 in
example :=
  C90_3d (T := Rat) (l := [exFill (exSeg (-1) 0 0) (exSeg (-1) 3 5) 0 4, exFill (exSeg (-1) 4 0) (exSeg (-1) 6 5) 0 1, exFill (exSeg 0 7 0) (exSeg 7 7 4) 3 4, exFill (exSeg 0 0 (-1)) (exSeg 7 6 (-1)) 4 0])
    (m := exRat) (i0 := 0) (j0 := 0) (k0 := 0) (i1 := 7) (j1 := 6) (k1 := 5) (dx := exDx) (u := ⟨9, 0⟩) (g := 1) (dg := 1) (d0 := ⟨0, 0⟩) (d1 := ⟨1, 0⟩) (d2 := ⟨2, 0⟩) (V := F.rd exRat (F.cell3d ⟨9, 0⟩ 0 0 0 7 6 5 1)) (B0 := F.rd exRat (F.face3d0 ⟨0, 0⟩ 0 0 0 7 6 5 1)) (B1 := F.rd exRat (F.face3d1 ⟨1, 0⟩ 0 0 0 7 6 5 1)) (B2 := F.rd exRat (F.face3d2 ⟨2, 0⟩ 0 0 0 7 6 5 1))
    (by decide) (by decide) (by decide) (by decide) (by decide) (by ex_fusable) (by ex_falong) (by ex_fseparate) (by ex_args) (exHolds (by decide) (by decide) (by decide)) (exHolds (by decide) (by decide) (by decide)) (exHolds (by decide) (by decide) (by decide)) (exHolds (by decide) (by decide) (by decide)) (by ex_solvable3 exNonneg)

/-- Calls of `cd_correct_bc_3d_cuda::set_poisson_bc` for parts of the sides of a box at least two cells wide, without common cells, leave a field that fulfils homogeneous boundary conditions on these parts, and change nothing else. -/
theorem C90_poisson_3d {i0 j0 k0 i1 j1 k1 g : Int} {dx : Nat → T} {u : Ptr} {l : List (BcCall T)} {m : Mem T} {V : List Int → T} (hwi : i0 < i1) (hwj : j0 < j1) (hwk : k0 < k1) (hg : 1 ≤ g)
    (hu : ∀ c ∈ l, c.Usable 3) (hl : ∀ c ∈ l, c.Along3 1 i0 j0 k0 i1 j1 k1) (hs : ∀ c ∈ l, ∀ d ∈ l, Separate (fun c : BcCall T => F.onSeg3 c.lo c.hi 1 c.face) c d)
    (h : F.Args m [] [F.cell3d u i0 j0 k0 i1 j1 k1 g])
    (hV : F.Holds m (F.cell3d u i0 j0 k0 i1 j1 k1 g) V)
    (hc : ∀ c ∈ l, c.Solvable (c.piece3 i0 j0 k0 i1 j1 k1 dx (fun _ => (1 : T)) (fun _ => (1 : T)) (fun _ => (1 : T)))) :
    Filled (fun c : BcCall T => Cuda.setPoissonBc3d i0 i1 j0 j1 k0 k1 dx g u c.lo c.hi c.order c.face 1 c.btype c.alpha c.beta c.sched) (fun c : BcCall T => F.onSeg3 c.lo c.hi 1 c.face) (fun c : BcCall T => c.piece3 i0 j0 k0 i1 j1 k1 dx (fun _ => (1 : T)) (fun _ => (1 : T)) (fun _ => (1 : T))) [(i0, i1), (j0, j1), (k0, k1)] 7 (F.row F.points3) (F.cell3d u i0 j0 k0 i1 j1 k1 g) l m V := by
  have hc0 := hc
  clear hc
  have hch : ∀ c ∈ l, ∀ m, F.Args m [] [F.cell3d u i0 j0 k0 i1 j1 k1 g] → ∃ m', (fun c : BcCall T => Cuda.setPoissonBc3d i0 i1 j0 j1 k0 k1 dx g u c.lo c.hi c.order c.face 1 c.btype c.alpha c.beta c.sched) c m = .ok m' ∧ F.Changes (F.cell3d u i0 j0 k0 i1 j1 k1 g) ((fun c : BcCall T => F.onSeg3 c.lo c.hi 1 c.face) c) m m' := by
    intro c hc m hm
    obtain ⟨u1, u2⟩ := hu c hc
    obtain ⟨c1, c2, c3, c4, c5, c6, c7, c8, c9, c10⟩ := hl c hc
    clear hu hl hs h hV hc0
    exact C76_poisson_3d u2 (by omega) (by omega) (by omega) (by omega) u1
      (by intro a b; have hh := c1 a b; clear c1 c2 c3 c4 c5 c6 c7 c8 c9 c10; beside)
      (by intro a b; have hh := c2 a b; clear c1 c2 c3 c4 c5 c6 c7 c8 c9 c10; beside)
      (by intro a b; have hh := c3 a b; clear c1 c2 c3 c4 c5 c6 c7 c8 c9 c10; beside)
      (by intro a b; have hh := c4 a b; clear c1 c2 c3 c4 c5 c6 c7 c8 c9 c10; beside)
      (by intro a b; have hh := c5 a b; clear c1 c2 c3 c4 c5 c6 c7 c8 c9 c10; beside)
      (by intro a b; have hh := c6 a b; clear c1 c2 c3 c4 c5 c6 c7 c8 c9 c10; beside)
      (by intro a b b'; have hh := c7 a b b'; clear c1 c2 c3 c4 c5 c6 c7 c8 c9 c10; beside)
      (by intro a b b'; have hh := c8 a b b'; clear c1 c2 c3 c4 c5 c6 c7 c8 c9 c10; beside)
      (by intro a b b'; have hh := c9 a b b'; clear c1 c2 c3 c4 c5 c6 c7 c8 c9 c10; beside)
      (by intro a b b'; have hh := c10 a b b'; clear c1 c2 c3 c4 c5 c6 c7 c8 c9 c10; beside) hm
  refine filled_of (C80_poisson_3d hwi hwj hwk hg hu hl hs h) hch h hV ?_ (fun c _ p hp => hp.2) ?_ ?_
  · intro p hp e e0 e1
    obtain ⟨i, j, k, rfl, hp⟩ := F.inBounds3.1 hp
    obtain rfl | rfl | rfl | rfl | rfl | rfl | rfl : e = 0 ∨ e = 1 ∨ e = 2 ∨ e = 3 ∨ e = 4 ∨ e = 5 ∨ e = 6 := by omega
    · rw [F.shift3_0]; exact F.inBounds3.2 ⟨i, j, k, rfl, by omega⟩
    · rw [F.shift3_1]; exact F.inBounds3.2 ⟨i - 1, j, k, rfl, by omega⟩
    · rw [F.shift3_2]; exact F.inBounds3.2 ⟨i + 1, j, k, rfl, by omega⟩
    · rw [F.shift3_3]; exact F.inBounds3.2 ⟨i, j - 1, k, rfl, by omega⟩
    · rw [F.shift3_4]; exact F.inBounds3.2 ⟨i, j + 1, k, rfl, by omega⟩
    · rw [F.shift3_5]; exact F.inBounds3.2 ⟨i, j, k - 1, rfl, by omega⟩
    · rw [F.shift3_6]; exact F.inBounds3.2 ⟨i, j, k + 1, rfl, by omega⟩
  · intro c hcl p hp e e1 e2 hs'
    have hf : c.face + 1 = e := row_of_side3 (hl c hcl) hp e1 (by omega) hs'
    refine ⟨⟨hp, ?_⟩, hf⟩
    rw [hf]
    exact hs'
  · intro m' ha hch2 c hcl hself p hcells
    obtain ⟨s1, s2, s3⟩ := hc0 c hcl
    obtain ⟨u1, u2⟩ := hu c hcl
    obtain ⟨c1, c2, c3, c4, c5, c6, c7, c8, c9, c10⟩ := hl c hcl
    obtain ⟨lo, hi, order, face, btype, alpha, beta, sched⟩ := c
    have hcells' := hcells
    obtain ⟨hin, hseg⟩ := hcells'
    obtain ⟨i, j, k, rfl, hin⟩ := F.inBounds3.1 hin
    simp only at s1 s2 u1 u2 hseg hself
    have G := ghosts_p3d (dx := dx) (exOrder := order) (btype := btype) (alpha := alpha) (beta := beta) (face := face) (m := m') u2 (by omega) (by omega) (by omega) (by omega) u1
      (by intro b; have hh := c1 rfl b; clear c1 c2 c3 c4 c5 c6 c7 c8 c9 c10; beside)
      (by intro b; have hh := c2 rfl b; clear c1 c2 c3 c4 c5 c6 c7 c8 c9 c10; beside)
      (by intro b; have hh := c3 rfl b; clear c1 c2 c3 c4 c5 c6 c7 c8 c9 c10; beside)
      (by intro b; have hh := c4 rfl b; clear c1 c2 c3 c4 c5 c6 c7 c8 c9 c10; beside)
      (by intro b; have hh := c5 rfl b; clear c1 c2 c3 c4 c5 c6 c7 c8 c9 c10; beside)
      (by intro b; have hh := c6 rfl b; clear c1 c2 c3 c4 c5 c6 c7 c8 c9 c10; beside)
      ha
    obtain ⟨m'', e', G0, G1, G2, G3, G4, G5⟩ := G
    rw [hself] at e'
    cases e'
    have hf := side3 hseg
    rcases hf with ⟨rfl, hf⟩ | ⟨rfl, hf⟩ | ⟨rfl, hf⟩ | ⟨rfl, hf⟩ | ⟨rfl, hf⟩ | ⟨rfl, hf⟩
    · have hq : i = lo 0 + 1 := by omega
      subst hq
      have eb : F.onFace3 (fun _ => (1 : T)) (fun _ => (1 : T)) (fun _ => (1 : T)) (0 / 2) (0 % 2) [lo 0 + 1, j, k] = (1 : T) := by simp [F.onFace3]
      obtain ⟨y, y1, y2, y3⟩ := fit_first (zero := false) (btype := btype) (order := order) (alpha := alpha) (beta := beta) (h := dx 0) (b := 1) (x1 := F.rd m' (F.cell3d u i0 j0 k0 i1 j1 k1 g) [lo 0 + 1, j, k]) (x2 := F.rd m' (F.cell3d u i0 j0 k0 i1 j1 k1 g) [lo 0 + 2, j, k]) s2 s1
        (fun e4 => by
          have q2 := (s3 e4).2 _ hcells
          simp only [BcCall.piece3, BcCall.piece, eb] at q2
          exact ⟨(s3 e4).1, q2⟩)
      have g := (G0 rfl j (by omega) (by omega) k (by omega) (by omega) _ y3).rd
      refine ⟨y, by
        simp only [BcCall.piece3, BcCall.piece, eb]
        exact y1, y2, ?_⟩
      show F.rd m' _ (F.shift [lo 0 + 1, j, k] (F.row F.points3 1)) = _
      rw [F.shift3_1, show lo 0 + 1 - 1 = lo 0 + 0 by omega]
      exact g
    · have hq : i = hi 0 - 1 := by omega
      subst hq
      have eb : F.onFace3 (fun _ => (1 : T)) (fun _ => (1 : T)) (fun _ => (1 : T)) (1 / 2) (1 % 2) [hi 0 - 1, j, k] = (1 : T) := by simp [F.onFace3]
      obtain ⟨y, y1, y2, y3⟩ := fit_first (zero := false) (btype := btype) (order := order) (alpha := alpha) (beta := beta) (h := dx 0) (b := 1) (x1 := F.rd m' (F.cell3d u i0 j0 k0 i1 j1 k1 g) [hi 0 - 1, j, k]) (x2 := F.rd m' (F.cell3d u i0 j0 k0 i1 j1 k1 g) [hi 0 - 2, j, k]) s2 s1
        (fun e4 => by
          have q2 := (s3 e4).2 _ hcells
          simp only [BcCall.piece3, BcCall.piece, eb] at q2
          exact ⟨(s3 e4).1, q2⟩)
      have g := (G1 rfl j (by omega) (by omega) k (by omega) (by omega) _ y3).rd
      refine ⟨y, by
        simp only [BcCall.piece3, BcCall.piece, eb]
        exact y1, y2, ?_⟩
      show F.rd m' _ (F.shift [hi 0 - 1, j, k] (F.row F.points3 2)) = _
      rw [F.shift3_2, show hi 0 - 1 + 1 = hi 0 - 0 by omega]
      exact g
    · have hq : j = lo 1 + 1 := by omega
      subst hq
      have eb : F.onFace3 (fun _ => (1 : T)) (fun _ => (1 : T)) (fun _ => (1 : T)) (2 / 2) (2 % 2) [i, lo 1 + 1, k] = (1 : T) := by simp [F.onFace3]
      obtain ⟨y, y1, y2, y3⟩ := fit_first (zero := false) (btype := btype) (order := order) (alpha := alpha) (beta := beta) (h := dx 1) (b := 1) (x1 := F.rd m' (F.cell3d u i0 j0 k0 i1 j1 k1 g) [i, lo 1 + 1, k]) (x2 := F.rd m' (F.cell3d u i0 j0 k0 i1 j1 k1 g) [i, lo 1 + 2, k]) s2 s1
        (fun e4 => by
          have q2 := (s3 e4).2 _ hcells
          simp only [BcCall.piece3, BcCall.piece, eb] at q2
          exact ⟨(s3 e4).1, q2⟩)
      have g := (G2 rfl i (by omega) (by omega) k (by omega) (by omega) _ y3).rd
      refine ⟨y, by
        simp only [BcCall.piece3, BcCall.piece, eb]
        exact y1, y2, ?_⟩
      show F.rd m' _ (F.shift [i, lo 1 + 1, k] (F.row F.points3 3)) = _
      rw [F.shift3_3, show lo 1 + 1 - 1 = lo 1 + 0 by omega]
      exact g
    · have hq : j = hi 1 - 1 := by omega
      subst hq
      have eb : F.onFace3 (fun _ => (1 : T)) (fun _ => (1 : T)) (fun _ => (1 : T)) (3 / 2) (3 % 2) [i, hi 1 - 1, k] = (1 : T) := by simp [F.onFace3]
      obtain ⟨y, y1, y2, y3⟩ := fit_first (zero := false) (btype := btype) (order := order) (alpha := alpha) (beta := beta) (h := dx 1) (b := 1) (x1 := F.rd m' (F.cell3d u i0 j0 k0 i1 j1 k1 g) [i, hi 1 - 1, k]) (x2 := F.rd m' (F.cell3d u i0 j0 k0 i1 j1 k1 g) [i, hi 1 - 2, k]) s2 s1
        (fun e4 => by
          have q2 := (s3 e4).2 _ hcells
          simp only [BcCall.piece3, BcCall.piece, eb] at q2
          exact ⟨(s3 e4).1, q2⟩)
      have g := (G3 rfl i (by omega) (by omega) k (by omega) (by omega) _ y3).rd
      refine ⟨y, by
        simp only [BcCall.piece3, BcCall.piece, eb]
        exact y1, y2, ?_⟩
      show F.rd m' _ (F.shift [i, hi 1 - 1, k] (F.row F.points3 4)) = _
      rw [F.shift3_4, show hi 1 - 1 + 1 = hi 1 - 0 by omega]
      exact g
    · have hq : k = lo 2 + 1 := by omega
      subst hq
      have eb : F.onFace3 (fun _ => (1 : T)) (fun _ => (1 : T)) (fun _ => (1 : T)) (4 / 2) (4 % 2) [i, j, lo 2 + 1] = (1 : T) := by simp [F.onFace3]
      obtain ⟨y, y1, y2, y3⟩ := fit_first (zero := false) (btype := btype) (order := order) (alpha := alpha) (beta := beta) (h := dx 2) (b := 1) (x1 := F.rd m' (F.cell3d u i0 j0 k0 i1 j1 k1 g) [i, j, lo 2 + 1]) (x2 := F.rd m' (F.cell3d u i0 j0 k0 i1 j1 k1 g) [i, j, lo 2 + 2]) s2 s1
        (fun e4 => by
          have q2 := (s3 e4).2 _ hcells
          simp only [BcCall.piece3, BcCall.piece, eb] at q2
          exact ⟨(s3 e4).1, q2⟩)
      have g := (G4 rfl i (by omega) (by omega) j (by omega) (by omega) _ y3).rd
      refine ⟨y, by
        simp only [BcCall.piece3, BcCall.piece, eb]
        exact y1, y2, ?_⟩
      show F.rd m' _ (F.shift [i, j, lo 2 + 1] (F.row F.points3 5)) = _
      rw [F.shift3_5, show lo 2 + 1 - 1 = lo 2 + 0 by omega]
      exact g
    · have hq : k = hi 2 - 1 := by omega
      subst hq
      have eb : F.onFace3 (fun _ => (1 : T)) (fun _ => (1 : T)) (fun _ => (1 : T)) (5 / 2) (5 % 2) [i, j, hi 2 - 1] = (1 : T) := by simp [F.onFace3]
      obtain ⟨y, y1, y2, y3⟩ := fit_first (zero := false) (btype := btype) (order := order) (alpha := alpha) (beta := beta) (h := dx 2) (b := 1) (x1 := F.rd m' (F.cell3d u i0 j0 k0 i1 j1 k1 g) [i, j, hi 2 - 1]) (x2 := F.rd m' (F.cell3d u i0 j0 k0 i1 j1 k1 g) [i, j, hi 2 - 2]) s2 s1
        (fun e4 => by
          have q2 := (s3 e4).2 _ hcells
          simp only [BcCall.piece3, BcCall.piece, eb] at q2
          exact ⟨(s3 e4).1, q2⟩)
      have g := (G5 rfl i (by omega) (by omega) j (by omega) (by omega) _ y3).rd
      refine ⟨y, by
        simp only [BcCall.piece3, BcCall.piece, eb]
        exact y1, y2, ?_⟩
      show F.rd m' _ (F.shift [i, j, hi 2 - 1] (F.row F.points3 6)) = _
      rw [F.shift3_6, show hi 2 - 1 + 1 = hi 2 - 0 by omega]
      exact g


set_option maxHeartbeats 1000000 in
example :=
  C90_poisson_3d (T := Rat) (l := [exFill (exSeg (-1) 0 0) (exSeg (-1) 3 5) 0 4, exFill (exSeg (-1) 4 0) (exSeg (-1) 6 5) 0 1, exFill (exSeg 0 7 0) (exSeg 7 7 4) 3 4, exFill (exSeg 0 0 (-1)) (exSeg 7 6 (-1)) 4 0])
    (m := exRat) (i0 := 0) (j0 := 0) (k0 := 0) (i1 := 7) (j1 := 6) (k1 := 5) (dx := exDx) (u := ⟨9, 0⟩) (g := 1) (V := F.rd exRat (F.cell3d ⟨9, 0⟩ 0 0 0 7 6 5 1))
    (by decide) (by decide) (by decide) (by decide) (by ex_fusable) (by ex_falong) (by ex_fseparate) (by ex_args) (exHolds (by decide) (by decide) (by decide)) (by ex_solvable3 exOne)

end Verif
