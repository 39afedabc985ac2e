import Verif.Spec.Fill
import Verif.Props.Sides
import Verif.Lemmas.GhostRow

/-
Filling the ghost cells.
-/

set_option linter.unusedVariables false
set_option linter.unusedSimpArgs false

namespace Verif
open Spec Polynomial

variable {T : Type}

theorem F.Changes.mono {a : F.Arr} {P Q : List Int → Prop} {m m1 : Mem T} (h : F.Changes a P m m1) (hs : ∀ p, P p → Q p) : F.Changes a Q m m1 :=
  ⟨h.ints, fun q hq => h.val q fun is hi hp => hq is hi (hs is hp), h.alloc⟩

/-- another array keeps its contents -/
theorem F.Changes.keeps {a b : F.Arr} {P : List Int → Prop} {m m' : Mem T} {V : List Int → T} (h : F.Changes a P m m') (hab : F.Apart a b) (hV : F.Holds m b V) : F.Holds m' b V :=
  hV.only h.only fun _ hx => by rw [List.mem_singleton.1 hx]; exact hab

theorem inOrder_changes {C : Type} {call : C → Mem T → M (Mem T)} {seg : C → List Int → Prop} {a : F.Arr} {ins : List F.Arr} :
    ∀ {l : List C} {m m' : Mem T}, (∀ c ∈ l, ∀ m, F.Args m ins [a] → ∃ m', call c m = .ok m' ∧ F.Changes a (seg c) m m') → F.Args m ins [a] →
      inOrder call l m = .ok m' → F.Changes a (fun p => ∃ c ∈ l, seg c p) m m'
  | [], m, m', _, _, e => by
    cases e
    exact F.Changes.refl _
  | c :: l, m, m', hc, h, e => by
    obtain ⟨m1, e1, h1⟩ := hc c List.mem_cons_self m h
    simp only [inOrder, e1] at e
    exact (h1.mono fun p hp => ⟨c, List.mem_cons_self, hp⟩).trans
      ((inOrder_changes (fun d hd => hc d (List.mem_cons_of_mem _ hd)) (h1.args h) e).mono fun p ⟨d, hd, hp⟩ => ⟨d, List.mem_cons_of_mem _ hd, hp⟩)

/-- the cells whose neighbours across a side are in its segment -/
theorem side2 {lo hi : Nat → Int} {face i j : Int} (h : F.onSeg2 lo hi 1 face (F.shift [i, j] (F.row F.points2 (face + 1)))) :
    face = 0 ∧ i - 1 = lo 0 ∧ lo 1 ≤ j ∧ j ≤ hi 1 ∨ face = 1 ∧ i + 1 = hi 0 ∧ lo 1 ≤ j ∧ j ≤ hi 1 ∨ face = 2 ∧ j - 1 = lo 1 ∧ lo 0 ≤ i ∧ i ≤ hi 0 ∨ face = 3 ∧ j + 1 = hi 1 ∧ lo 0 ≤ i ∧ i ≤ hi 0 := by
  obtain ⟨i', j', h1, h2⟩ := h
  rcases h2 with ⟨-, a0, a1, ⟨rfl, h3⟩ | ⟨rfl, h3⟩⟩ | ⟨-, a0, a1, ⟨rfl, h3⟩ | ⟨rfl, h3⟩⟩ | ⟨h3, -⟩
  · have h1 : F.shift [i, j] (F.row F.points2 1) = [i', j'] := h1
    rw [F.shift2_1] at h1
    simp only [List.cons.injEq, and_true] at h1
    obtain ⟨rfl, rfl⟩ := h1
    exact .inl ⟨rfl, h3, a0, a1⟩
  · have h1 : F.shift [i, j] (F.row F.points2 2) = [i', j'] := h1
    rw [F.shift2_2] at h1
    simp only [List.cons.injEq, and_true] at h1
    obtain ⟨rfl, rfl⟩ := h1
    exact .inr (.inl ⟨rfl, h3, a0, a1⟩)
  · have h1 : F.shift [i, j] (F.row F.points2 3) = [i', j'] := h1
    rw [F.shift2_3] at h1
    simp only [List.cons.injEq, and_true] at h1
    obtain ⟨rfl, rfl⟩ := h1
    exact .inr (.inr (.inl ⟨rfl, h3, a0, a1⟩))
  · have h1 : F.shift [i, j] (F.row F.points2 4) = [i', j'] := h1
    rw [F.shift2_4] at h1
    simp only [List.cons.injEq, and_true] at h1
    obtain ⟨rfl, rfl⟩ := h1
    exact .inr (.inr (.inr (⟨rfl, h3, a0, a1⟩)))
  · exact absurd h3 (by decide)

/-- the segment of a side has no neighbours of the box across other sides -/
theorem row_of_side2 {i0 j0 i1 j1 : Int} {c : BcCall T} {p : List Int} {e : Int} (hl : c.Along2 1 i0 j0 i1 j1) (hp : F.InBounds [(i0, i1), (j0, j1)] p) (e1 : 1 ≤ e) (e2 : e ≤ 4) (hs' : F.onSeg2 c.lo c.hi 1 c.face (F.shift p (F.row F.points2 e))) : c.face + 1 = e := by
  obtain ⟨c1, c2, c3, c4, c5, c6, c7, c8⟩ := hl
  obtain ⟨i, j, rfl, hp⟩ := F.inBounds2.1 hp
  obtain rfl | rfl | rfl | rfl : e = 1 ∨ e = 2 ∨ e = 3 ∨ e = 4 := by omega
  · rw [F.shift2_1] at hs'
    obtain ⟨i', j', h1, h2⟩ := hs'
    simp only [List.cons.injEq, and_true] at h1
    rcases h2 with ⟨-, a0, a1, ⟨f, h3⟩ | ⟨f, h3⟩⟩ | ⟨-, a0, a1, ⟨f, h3⟩ | ⟨f, h3⟩⟩ | ⟨h3, -⟩
    · have cc := c1 rfl f; simp only [Spec.Part] at cc; clear c1 c2 c3 c4 c5 c6 c7 c8; omega
    · have cc := c2 rfl f; simp only [Spec.Part] at cc; clear c1 c2 c3 c4 c5 c6 c7 c8; omega
    · have cc := c3 rfl f; simp only [Spec.Part] at cc; clear c1 c2 c3 c4 c5 c6 c7 c8; omega
    · have cc := c4 rfl f; simp only [Spec.Part] at cc; clear c1 c2 c3 c4 c5 c6 c7 c8; omega
    · exact absurd h3 (by decide)
  · rw [F.shift2_2] at hs'
    obtain ⟨i', j', h1, h2⟩ := hs'
    simp only [List.cons.injEq, and_true] at h1
    rcases h2 with ⟨-, a0, a1, ⟨f, h3⟩ | ⟨f, h3⟩⟩ | ⟨-, a0, a1, ⟨f, h3⟩ | ⟨f, h3⟩⟩ | ⟨h3, -⟩
    · have cc := c1 rfl f; simp only [Spec.Part] at cc; clear c1 c2 c3 c4 c5 c6 c7 c8; omega
    · have cc := c2 rfl f; simp only [Spec.Part] at cc; clear c1 c2 c3 c4 c5 c6 c7 c8; omega
    · have cc := c3 rfl f; simp only [Spec.Part] at cc; clear c1 c2 c3 c4 c5 c6 c7 c8; omega
    · have cc := c4 rfl f; simp only [Spec.Part] at cc; clear c1 c2 c3 c4 c5 c6 c7 c8; omega
    · exact absurd h3 (by decide)
  · rw [F.shift2_3] at hs'
    obtain ⟨i', j', h1, h2⟩ := hs'
    simp only [List.cons.injEq, and_true] at h1
    rcases h2 with ⟨-, a0, a1, ⟨f, h3⟩ | ⟨f, h3⟩⟩ | ⟨-, a0, a1, ⟨f, h3⟩ | ⟨f, h3⟩⟩ | ⟨h3, -⟩
    · have cc := c1 rfl f; simp only [Spec.Part] at cc; clear c1 c2 c3 c4 c5 c6 c7 c8; omega
    · have cc := c2 rfl f; simp only [Spec.Part] at cc; clear c1 c2 c3 c4 c5 c6 c7 c8; omega
    · have cc := c3 rfl f; simp only [Spec.Part] at cc; clear c1 c2 c3 c4 c5 c6 c7 c8; omega
    · have cc := c4 rfl f; simp only [Spec.Part] at cc; clear c1 c2 c3 c4 c5 c6 c7 c8; omega
    · exact absurd h3 (by decide)
  · rw [F.shift2_4] at hs'
    obtain ⟨i', j', h1, h2⟩ := hs'
    simp only [List.cons.injEq, and_true] at h1
    rcases h2 with ⟨-, a0, a1, ⟨f, h3⟩ | ⟨f, h3⟩⟩ | ⟨-, a0, a1, ⟨f, h3⟩ | ⟨f, h3⟩⟩ | ⟨h3, -⟩
    · have cc := c1 rfl f; simp only [Spec.Part] at cc; clear c1 c2 c3 c4 c5 c6 c7 c8; omega
    · have cc := c2 rfl f; simp only [Spec.Part] at cc; clear c1 c2 c3 c4 c5 c6 c7 c8; omega
    · have cc := c3 rfl f; simp only [Spec.Part] at cc; clear c1 c2 c3 c4 c5 c6 c7 c8; omega
    · have cc := c4 rfl f; simp only [Spec.Part] at cc; clear c1 c2 c3 c4 c5 c6 c7 c8; omega
    · exact absurd h3 (by decide)

/-- the cells whose neighbours across a side are in its segment -/
theorem side3 {lo hi : Nat → Int} {face i j k : Int} (h : F.onSeg3 lo hi 1 face (F.shift [i, j, k] (F.row F.points3 (face + 1)))) :
    face = 0 ∧ i - 1 = lo 0 ∧ lo 1 ≤ j ∧ j ≤ hi 1 ∧ lo 2 ≤ k ∧ k ≤ hi 2 ∨ face = 1 ∧ i + 1 = hi 0 ∧ lo 1 ≤ j ∧ j ≤ hi 1 ∧ lo 2 ≤ k ∧ k ≤ hi 2 ∨ face = 2 ∧ j - 1 = lo 1 ∧ lo 0 ≤ i ∧ i ≤ hi 0 ∧ lo 2 ≤ k ∧ k ≤ hi 2 ∨ face = 3 ∧ j + 1 = hi 1 ∧ lo 0 ≤ i ∧ i ≤ hi 0 ∧ lo 2 ≤ k ∧ k ≤ hi 2 ∨ face = 4 ∧ k - 1 = lo 2 ∧ lo 0 ≤ i ∧ i ≤ hi 0 ∧ lo 1 ≤ j ∧ j ≤ hi 1 ∨ face = 5 ∧ k + 1 = hi 2 ∧ lo 0 ≤ i ∧ i ≤ hi 0 ∧ lo 1 ≤ j ∧ j ≤ hi 1 := by
  obtain ⟨i', j', k', h1, h2⟩ := h
  rcases h2 with ⟨-, a0, a1, a2, a3, ⟨rfl, h3⟩ | ⟨rfl, h3⟩⟩ | ⟨-, a0, a1, a2, a3, ⟨rfl, h3⟩ | ⟨rfl, h3⟩⟩ | ⟨-, a0, a1, a2, a3, ⟨rfl, h3⟩ | ⟨rfl, h3⟩⟩ | ⟨h3, -⟩ | ⟨h3, -⟩ | ⟨h3, -⟩ | ⟨h3, -⟩
  · have h1 : F.shift [i, j, k] (F.row F.points3 1) = [i', j', k'] := h1
    rw [F.shift3_1] at h1
    simp only [List.cons.injEq, and_true] at h1
    obtain ⟨rfl, rfl, rfl⟩ := h1
    exact .inl ⟨rfl, h3, a0, a1, a2, a3⟩
  · have h1 : F.shift [i, j, k] (F.row F.points3 2) = [i', j', k'] := h1
    rw [F.shift3_2] at h1
    simp only [List.cons.injEq, and_true] at h1
    obtain ⟨rfl, rfl, rfl⟩ := h1
    exact .inr (.inl ⟨rfl, h3, a0, a1, a2, a3⟩)
  · have h1 : F.shift [i, j, k] (F.row F.points3 3) = [i', j', k'] := h1
    rw [F.shift3_3] at h1
    simp only [List.cons.injEq, and_true] at h1
    obtain ⟨rfl, rfl, rfl⟩ := h1
    exact .inr (.inr (.inl ⟨rfl, h3, a0, a1, a2, a3⟩))
  · have h1 : F.shift [i, j, k] (F.row F.points3 4) = [i', j', k'] := h1
    rw [F.shift3_4] at h1
    simp only [List.cons.injEq, and_true] at h1
    obtain ⟨rfl, rfl, rfl⟩ := h1
    exact .inr (.inr (.inr (.inl ⟨rfl, h3, a0, a1, a2, a3⟩)))
  · have h1 : F.shift [i, j, k] (F.row F.points3 5) = [i', j', k'] := h1
    rw [F.shift3_5] at h1
    simp only [List.cons.injEq, and_true] at h1
    obtain ⟨rfl, rfl, rfl⟩ := h1
    exact .inr (.inr (.inr (.inr (.inl ⟨rfl, h3, a0, a1, a2, a3⟩))))
  · have h1 : F.shift [i, j, k] (F.row F.points3 6) = [i', j', k'] := h1
    rw [F.shift3_6] at h1
    simp only [List.cons.injEq, and_true] at h1
    obtain ⟨rfl, rfl, rfl⟩ := h1
    exact .inr (.inr (.inr (.inr (.inr (⟨rfl, h3, a0, a1, a2, a3⟩)))))
  · exact absurd h3 (by decide)
  · exact absurd h3 (by decide)
  · exact absurd h3 (by decide)
  · exact absurd h3 (by decide)

/-- the segment of a side has no neighbours of the box across other sides -/
theorem row_of_side3 {i0 j0 k0 i1 j1 k1 : Int} {c : BcCall T} {p : List Int} {e : Int} (hl : c.Along3 1 i0 j0 k0 i1 j1 k1) (hp : F.InBounds [(i0, i1), (j0, j1), (k0, k1)] p) (e1 : 1 ≤ e) (e2 : e ≤ 6) (hs' : F.onSeg3 c.lo c.hi 1 c.face (F.shift p (F.row F.points3 e))) : c.face + 1 = e := by
  obtain ⟨c1, c2, c3, c4, c5, c6, c7, c8, c9, c10⟩ := hl
  obtain ⟨i, j, k, rfl, hp⟩ := F.inBounds3.1 hp
  obtain rfl | rfl | rfl | rfl | rfl | rfl : e = 1 ∨ e = 2 ∨ e = 3 ∨ e = 4 ∨ e = 5 ∨ e = 6 := by omega
  · rw [F.shift3_1] at hs'
    obtain ⟨i', j', k', h1, h2⟩ := hs'
    simp only [List.cons.injEq, and_true] at h1
    rcases h2 with ⟨-, a0, a1, a2, a3, ⟨f, h3⟩ | ⟨f, h3⟩⟩ | ⟨-, a0, a1, a2, a3, ⟨f, h3⟩ | ⟨f, h3⟩⟩ | ⟨-, a0, a1, a2, a3, ⟨f, h3⟩ | ⟨f, h3⟩⟩ | ⟨h3, -⟩ | ⟨h3, -⟩ | ⟨h3, -⟩ | ⟨h3, -⟩
    · have cc := c1 rfl f; simp only [Spec.Part] at cc; clear c1 c2 c3 c4 c5 c6 c7 c8 c9 c10; omega
    · have cc := c2 rfl f; simp only [Spec.Part] at cc; clear c1 c2 c3 c4 c5 c6 c7 c8 c9 c10; omega
    · have cc := c3 rfl f; simp only [Spec.Part] at cc; clear c1 c2 c3 c4 c5 c6 c7 c8 c9 c10; omega
    · have cc := c4 rfl f; simp only [Spec.Part] at cc; clear c1 c2 c3 c4 c5 c6 c7 c8 c9 c10; omega
    · have cc := c5 rfl f; simp only [Spec.Part] at cc; clear c1 c2 c3 c4 c5 c6 c7 c8 c9 c10; omega
    · have cc := c6 rfl f; simp only [Spec.Part] at cc; clear c1 c2 c3 c4 c5 c6 c7 c8 c9 c10; omega
    · exact absurd h3 (by decide)
    · exact absurd h3 (by decide)
    · exact absurd h3 (by decide)
    · exact absurd h3 (by decide)
  · rw [F.shift3_2] at hs'
    obtain ⟨i', j', k', h1, h2⟩ := hs'
    simp only [List.cons.injEq, and_true] at h1
    rcases h2 with ⟨-, a0, a1, a2, a3, ⟨f, h3⟩ | ⟨f, h3⟩⟩ | ⟨-, a0, a1, a2, a3, ⟨f, h3⟩ | ⟨f, h3⟩⟩ | ⟨-, a0, a1, a2, a3, ⟨f, h3⟩ | ⟨f, h3⟩⟩ | ⟨h3, -⟩ | ⟨h3, -⟩ | ⟨h3, -⟩ | ⟨h3, -⟩
    · have cc := c1 rfl f; simp only [Spec.Part] at cc; clear c1 c2 c3 c4 c5 c6 c7 c8 c9 c10; omega
    · have cc := c2 rfl f; simp only [Spec.Part] at cc; clear c1 c2 c3 c4 c5 c6 c7 c8 c9 c10; omega
    · have cc := c3 rfl f; simp only [Spec.Part] at cc; clear c1 c2 c3 c4 c5 c6 c7 c8 c9 c10; omega
    · have cc := c4 rfl f; simp only [Spec.Part] at cc; clear c1 c2 c3 c4 c5 c6 c7 c8 c9 c10; omega
    · have cc := c5 rfl f; simp only [Spec.Part] at cc; clear c1 c2 c3 c4 c5 c6 c7 c8 c9 c10; omega
    · have cc := c6 rfl f; simp only [Spec.Part] at cc; clear c1 c2 c3 c4 c5 c6 c7 c8 c9 c10; omega
    · exact absurd h3 (by decide)
    · exact absurd h3 (by decide)
    · exact absurd h3 (by decide)
    · exact absurd h3 (by decide)
  · rw [F.shift3_3] at hs'
    obtain ⟨i', j', k', h1, h2⟩ := hs'
    simp only [List.cons.injEq, and_true] at h1
    rcases h2 with ⟨-, a0, a1, a2, a3, ⟨f, h3⟩ | ⟨f, h3⟩⟩ | ⟨-, a0, a1, a2, a3, ⟨f, h3⟩ | ⟨f, h3⟩⟩ | ⟨-, a0, a1, a2, a3, ⟨f, h3⟩ | ⟨f, h3⟩⟩ | ⟨h3, -⟩ | ⟨h3, -⟩ | ⟨h3, -⟩ | ⟨h3, -⟩
    · have cc := c1 rfl f; simp only [Spec.Part] at cc; clear c1 c2 c3 c4 c5 c6 c7 c8 c9 c10; omega
    · have cc := c2 rfl f; simp only [Spec.Part] at cc; clear c1 c2 c3 c4 c5 c6 c7 c8 c9 c10; omega
    · have cc := c3 rfl f; simp only [Spec.Part] at cc; clear c1 c2 c3 c4 c5 c6 c7 c8 c9 c10; omega
    · have cc := c4 rfl f; simp only [Spec.Part] at cc; clear c1 c2 c3 c4 c5 c6 c7 c8 c9 c10; omega
    · have cc := c5 rfl f; simp only [Spec.Part] at cc; clear c1 c2 c3 c4 c5 c6 c7 c8 c9 c10; omega
    · have cc := c6 rfl f; simp only [Spec.Part] at cc; clear c1 c2 c3 c4 c5 c6 c7 c8 c9 c10; omega
    · exact absurd h3 (by decide)
    · exact absurd h3 (by decide)
    · exact absurd h3 (by decide)
    · exact absurd h3 (by decide)
  · rw [F.shift3_4] at hs'
    obtain ⟨i', j', k', h1, h2⟩ := hs'
    simp only [List.cons.injEq, and_true] at h1
    rcases h2 with ⟨-, a0, a1, a2, a3, ⟨f, h3⟩ | ⟨f, h3⟩⟩ | ⟨-, a0, a1, a2, a3, ⟨f, h3⟩ | ⟨f, h3⟩⟩ | ⟨-, a0, a1, a2, a3, ⟨f, h3⟩ | ⟨f, h3⟩⟩ | ⟨h3, -⟩ | ⟨h3, -⟩ | ⟨h3, -⟩ | ⟨h3, -⟩
    · have cc := c1 rfl f; simp only [Spec.Part] at cc; clear c1 c2 c3 c4 c5 c6 c7 c8 c9 c10; omega
    · have cc := c2 rfl f; simp only [Spec.Part] at cc; clear c1 c2 c3 c4 c5 c6 c7 c8 c9 c10; omega
    · have cc := c3 rfl f; simp only [Spec.Part] at cc; clear c1 c2 c3 c4 c5 c6 c7 c8 c9 c10; omega
    · have cc := c4 rfl f; simp only [Spec.Part] at cc; clear c1 c2 c3 c4 c5 c6 c7 c8 c9 c10; omega
    · have cc := c5 rfl f; simp only [Spec.Part] at cc; clear c1 c2 c3 c4 c5 c6 c7 c8 c9 c10; omega
    · have cc := c6 rfl f; simp only [Spec.Part] at cc; clear c1 c2 c3 c4 c5 c6 c7 c8 c9 c10; omega
    · exact absurd h3 (by decide)
    · exact absurd h3 (by decide)
    · exact absurd h3 (by decide)
    · exact absurd h3 (by decide)
  · rw [F.shift3_5] at hs'
    obtain ⟨i', j', k', h1, h2⟩ := hs'
    simp only [List.cons.injEq, and_true] at h1
    rcases h2 with ⟨-, a0, a1, a2, a3, ⟨f, h3⟩ | ⟨f, h3⟩⟩ | ⟨-, a0, a1, a2, a3, ⟨f, h3⟩ | ⟨f, h3⟩⟩ | ⟨-, a0, a1, a2, a3, ⟨f, h3⟩ | ⟨f, h3⟩⟩ | ⟨h3, -⟩ | ⟨h3, -⟩ | ⟨h3, -⟩ | ⟨h3, -⟩
    · have cc := c1 rfl f; simp only [Spec.Part] at cc; clear c1 c2 c3 c4 c5 c6 c7 c8 c9 c10; omega
    · have cc := c2 rfl f; simp only [Spec.Part] at cc; clear c1 c2 c3 c4 c5 c6 c7 c8 c9 c10; omega
    · have cc := c3 rfl f; simp only [Spec.Part] at cc; clear c1 c2 c3 c4 c5 c6 c7 c8 c9 c10; omega
    · have cc := c4 rfl f; simp only [Spec.Part] at cc; clear c1 c2 c3 c4 c5 c6 c7 c8 c9 c10; omega
    · have cc := c5 rfl f; simp only [Spec.Part] at cc; clear c1 c2 c3 c4 c5 c6 c7 c8 c9 c10; omega
    · have cc := c6 rfl f; simp only [Spec.Part] at cc; clear c1 c2 c3 c4 c5 c6 c7 c8 c9 c10; omega
    · exact absurd h3 (by decide)
    · exact absurd h3 (by decide)
    · exact absurd h3 (by decide)
    · exact absurd h3 (by decide)
  · rw [F.shift3_6] at hs'
    obtain ⟨i', j', k', h1, h2⟩ := hs'
    simp only [List.cons.injEq, and_true] at h1
    rcases h2 with ⟨-, a0, a1, a2, a3, ⟨f, h3⟩ | ⟨f, h3⟩⟩ | ⟨-, a0, a1, a2, a3, ⟨f, h3⟩ | ⟨f, h3⟩⟩ | ⟨-, a0, a1, a2, a3, ⟨f, h3⟩ | ⟨f, h3⟩⟩ | ⟨h3, -⟩ | ⟨h3, -⟩ | ⟨h3, -⟩ | ⟨h3, -⟩
    · have cc := c1 rfl f; simp only [Spec.Part] at cc; clear c1 c2 c3 c4 c5 c6 c7 c8 c9 c10; omega
    · have cc := c2 rfl f; simp only [Spec.Part] at cc; clear c1 c2 c3 c4 c5 c6 c7 c8 c9 c10; omega
    · have cc := c3 rfl f; simp only [Spec.Part] at cc; clear c1 c2 c3 c4 c5 c6 c7 c8 c9 c10; omega
    · have cc := c4 rfl f; simp only [Spec.Part] at cc; clear c1 c2 c3 c4 c5 c6 c7 c8 c9 c10; omega
    · have cc := c5 rfl f; simp only [Spec.Part] at cc; clear c1 c2 c3 c4 c5 c6 c7 c8 c9 c10; omega
    · have cc := c6 rfl f; simp only [Spec.Part] at cc; clear c1 c2 c3 c4 c5 c6 c7 c8 c9 c10; omega
    · exact absurd h3 (by decide)
    · exact absurd h3 (by decide)
    · exact absurd h3 (by decide)
    · exact absurd h3 (by decide)

variable [Field T]

/-- the ghost value of a call is on a polynomial that meets its condition -/
theorem fit_first [CharZero T] {btype order : Int} {alpha beta h b x1 x2 : T} {zero : Bool} (hh : h ≠ 0) (hq : F.First btype order)
    (hb : btype = 4 → beta ≠ 0 ∧ 4 * (alpha / (2 * beta) * b) + h ≠ 0) :
    ∃ y : T[X], F.Meets btype order (alpha / (2 * beta) * b) 0 y ∧ x1 = y.eval (1 / 2 * h) ∧ ghost zero btype order alpha beta h b x1 x2 = some (y.eval (-(1 / 2) * h)) := by
  have hq' : (btype = 0 ∧ order = 1) ∨ (btype = 0 ∧ order = 2) ∨ btype = 1 ∨ (btype = 4 ∧ order = 1) := by
    rcases hq with h | h | h
    · exact .inl h
    · exact .inr (.inr (.inl h))
    · exact .inr (.inr (.inr h))
  obtain ⟨y, h1, h2, -, h3⟩ := fit_poly (zero := zero) (x1 := x1) (x2 := x2) (b := alpha / (2 * beta) * b) hh
    hq' (fun h => (hb h).2)
  refine ⟨y, h1, h2, ?_⟩
  rw [← h3]
  rcases hq with ⟨rfl, rfl⟩ | rfl | ⟨rfl, rfl⟩
  · simp [ghost]
  · simp [ghost]
  · obtain ⟨b0, b1⟩ := hb rfl
    simp only [ghost, reduceIte, Int.reduceEq]
    congr 2
    have e1 : 2 * alpha * b + h * beta = beta * (4 * (alpha / (2 * beta) * b) + h) := by field_simp; ring
    have e2 : 2 * alpha * b - h * beta = beta * (2 * 2 * (alpha / (2 * beta) * b) - h * 1) := by field_simp
    rw [e1, e2, mul_div_mul_left _ _ b0]
    congr 1
    ring

/-- the coefficient matters to Robin conditions only -/
theorem meets_coef {btype order : Int} {b b' g : T} {y : T[X]} (h : F.Meets btype order b g y) (hb : btype = 4 → b = b') : F.Meets btype order b' g y := by
  by_cases e : btype = 4
  · rwa [← hb e]
  · rcases h with h | h | h | h | h
    · exact .inl h
    · exact .inr (.inl h)
    · exact .inr (.inr (.inl h))
    · exact absurd h.1 e
    · exact absurd h.1 e

/-- what is to be shown of each call and of the cells outside the segments -/
theorem filled_of {C : Type} {call : C → Mem T → M (Mem T)} {seg : C → List Int → Prop} {piece : C → F.Piece T} {box : List (Int × Int)} {n : Int} {O : Int → List Int} {a : F.Arr}
    {ins : List F.Arr} {l : List C} {m : Mem T} {V : List Int → T} (hany : AnyOrder call l m)
    (hch : ∀ c ∈ l, ∀ m, F.Args m ins [a] → ∃ m', call c m = .ok m' ∧ F.Changes a (seg c) m m') (h : F.Args m ins [a]) (hV : F.Holds m a V)
    (hbox : ∀ p, F.InBounds box p → ∀ e, 0 ≤ e → e ≤ n - 1 → F.InBounds a.dims (F.shift p (O e)))
    (hcell : ∀ c ∈ l, ∀ p, (piece c).cells p → seg c (F.shift p (O (piece c).ghost)))
    (hout : ∀ c ∈ l, ∀ p, F.InBounds box p → ∀ e, 1 ≤ e → e ≤ n - 1 → seg c (F.shift p (O e)) → (piece c).cells p ∧ (piece c).ghost = e)
    (hgiven : ∀ m', F.Args m' ins [a] → F.Changes a (fun p => ∃ c ∈ l, seg c p) m m' → ∀ c ∈ l, call c m' = .ok m' → ∀ p, (piece c).cells p →
      ∃ y : T[X], F.Meets (piece c).btype (piece c).order ((piece c).coef p) 0 y ∧ F.rd m' a p = y.eval (1 / 2 * (piece c).width) ∧
        F.rd m' a (F.shift p (O (piece c).ghost)) = y.eval (-(1 / 2) * (piece c).width)) :
    Filled call seg piece box n O a l m V := by
  obtain ⟨m', h1, h2⟩ := hany
  have hc := inOrder_changes hch h (h1 l (List.Perm.refl l))
  have ha := hc.args h
  refine ⟨m', F.rd m' a, h1, hc, fun _ hi => (ha.ok a (by simp)).rd hi, fun D hD0 hD1 => ⟨fun k hk p hp => ?_, fun p hp e e1 e2 hn hf => ?_⟩⟩
  · obtain ⟨c, hcl, rfl⟩ := List.mem_map.1 hk
    rw [hD0 c hcl _ (hcell c hcl p hp)]
    exact hgiven m' ha hc c hcl (h2 c hcl) p hp
  · have no : ∀ c ∈ l, ¬ seg c (F.shift p (O e)) := fun c hcl hs => by
      obtain ⟨x, y⟩ := hout c hcl p hp e e1 e2 hs
      exact hf _ (List.mem_map_of_mem hcl) x y
    have hb := hbox p hp e (by omega) e2
    rw [hD1 _ no, hc.rd hb fun ⟨c, hcl, hs⟩ => no c hcl hs]
    exact (hV _ hb).rd

end Verif
