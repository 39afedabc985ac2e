import Verif.Lemmas.Walls
import Verif.Lemmas.Thin
import Verif.Spec.Walls

/-
Ghost values filled for homogeneous conditions are multiples of the values in the cells at the boundary.
-/

set_option linter.unusedSectionVars false
set_option linter.unusedSimpArgs false
set_option linter.unusedVariables false

namespace Verif
open Spec

namespace F

section
variable {T : Type} [Field T]

open Classical in
/-- the part of its value by which a cell differs from its ghost cell -/
noncomputable def jump (ps : List (Piece T)) (p : List Int) (e : Int) : T := if h : ∃ k ∈ ps, k.cells p ∧ k.ghost = e then h.choose.fac p else 1

theorem jump_one {ps : List (Piece T)} {p : List Int} {e : Int} (h : ∀ k ∈ ps, k.cells p → k.ghost ≠ e) : jump ps p e = 1 :=
  dif_neg fun ⟨k, hk, hc, he⟩ => h k hk hc he

theorem jump_some {ps : List (Piece T)} {p : List Int} {e : Int} (h : ∃ k ∈ ps, k.cells p ∧ k.ghost = e) : ∃ k ∈ ps, k.cells p ∧ k.ghost = e ∧ jump ps p e = k.fac p :=
  ⟨h.choose, h.choose_spec.1, h.choose_spec.2.1, h.choose_spec.2.2, dif_pos h⟩

theorem fulfils_jump [CharZero T] {box : List (Int × Int)} {n : Int} {O : Int → List Int} {ps : List (Piece T)} {D X : List Int → T} (hF : Fulfils box n O ps D X)
    (hc : ∀ k ∈ ps, First k.btype k.order ∧ (k.btype = 4 → ∀ c, k.cells c → 4 * k.coef c + k.width ≠ 0)) (hD : ∀ k ∈ ps, ∀ p, k.cells p → D (shift p (O k.ghost)) = 0)
    {p : List Int} (hp : InBounds box p) {e : Int} (e0 : 1 ≤ e) (e1 : e ≤ n - 1) (ho : ¬ InBounds box (shift p (O e))) :
    ((∃ k ∈ ps, k.cells p ∧ k.ghost = e) ∧ X (shift p (O e)) = (1 - jump ps p e) * X p) ∨ (jump ps p e = 1 ∧ X (shift p (O e)) = D (shift p (O e))) := by
  by_cases h : ∃ k ∈ ps, k.cells p ∧ k.ghost = e
  · obtain ⟨k, hk, hkc, rfl, hj⟩ := jump_some h
    obtain ⟨y, hm, h1, h2⟩ := hF.given k hk p hkc
    obtain ⟨hfi, hb⟩ := hc k hk
    rw [hD k hk p hkc] at hm
    refine Or.inl ⟨h, ?_⟩
    have hv : (facV k.btype k.order : T) = 0 := by
      unfold facV
      rcases hfi with ⟨h, h'⟩ | h | ⟨h, h'⟩ <;> simp [h, *]
    rw [h2, h1, weights hm (by rintro ⟨h4, h2⟩; rcases hfi with h | h | h <;> omega) (fun h4 => hb h4 p hkc), hv, hj]
    unfold Piece.fac
    ring
  · have hn : ∀ k ∈ ps, k.cells p → k.ghost ≠ e := fun k hk hkc he => h ⟨k, hk, hkc, he⟩
    exact Or.inr ⟨jump_one hn, hF.free p hp e e0 e1 ho hn⟩

end

variable {T : Type} [Field T] [LinearOrder T] [IsStrictOrderedRing T]

theorem jump_nonneg {ps : List (Piece T)} (h : ∀ k ∈ ps, First k.btype k.order ∧ 0 < k.width ∧ ∀ p, k.cells p → 0 ≤ k.coef p) (p : List Int) (e : Int) : 0 ≤ jump ps p e := by
  by_cases hex : ∃ k ∈ ps, k.cells p ∧ k.ghost = e
  · obtain ⟨k, hk, hkc, rfl, hj⟩ := jump_some hex
    rw [hj]
    exact (facU_bounds (h k hk).1 (h k hk).2.1 ((h k hk).2.2 p hkc)).1
  · rw [jump_one fun k hk' hc he => hex ⟨k, hk', hc, he⟩]
    exact zero_le_one

theorem jump_ne {ps : List (Piece T)} (h : ∀ k ∈ ps, First k.btype k.order ∧ 0 < k.width ∧ ∀ p, k.cells p → 0 ≤ k.coef p) (p : List Int) (e : Int)
    (hq : ∀ q ∈ ps, q.cells p → q.ghost = e → q.btype ≠ 1) : jump ps p e ≠ 0 := by
  by_cases hk : ∃ k ∈ ps, k.cells p ∧ k.ghost = e
  · obtain ⟨k, hk, hkc, he, hj⟩ := jump_some hk
    rw [hj]
    have h5 := (h k hk).2.2 p hkc
    have h6 := (h k hk).2.1
    unfold Piece.fac facU
    rcases (h k hk).1 with ⟨a, b⟩ | a | ⟨a, b⟩
    · simp [a, b]
    · exact absurd a (hq k hk hkc he)
    · simp only [a, show ¬ (4 : Int) = 0 by decide, show ¬ (4 : Int) = 1 by decide, if_false]
      exact (div_pos (by linarith) (by linarith)).ne'
  · rw [jump_one fun k hk' hc he => hk ⟨k, hk', hc, he⟩]
    exact one_ne_zero

/-- a walled field, as its own test function -/
theorem Walled.leaky {box : List (Int × Int)} {n : Int} {O : Int → List Int} {f : List Int → Int → T} {X : List Int → T} (h : Walled box n O f X) : Leaky box n O f X X := fun p hp e e0 e1 ho => by
  rw [h p hp e e0 e1 ho]
  apply le_of_eq
  ring

end F

section
variable {T : Type} [Field T]

open Classical in
/-- what calls that fill the ghost cells leave: the values in the box, and ghost values that are multiples of these, zeros, or the old ones where there is no segment -/
theorem filled_jump [CharZero T] {C : Type} {call : C → Mem T → M (Mem T)} {seg : C → List Int → Prop} {piece : C → F.Piece T} {box : List (Int × Int)} {n : Int} {O : Int → List Int} {a : F.Arr}
    {l : List C} {m : Mem T} {V : List Int → T} (h : Filled call seg piece box n O a l m V)
    (hc : ∀ c ∈ l, F.First (piece c).btype (piece c).order ∧ ((piece c).btype = 4 → ∀ p, (piece c).cells p → 4 * (piece c).coef p + (piece c).width ≠ 0))
    (hs : ∀ c ∈ l, ∀ p, (piece c).cells p → seg c (F.shift p (O (piece c).ghost)))
    (hout : ∀ c ∈ l, ∀ p, F.InBounds box p → ¬ seg c p) (hdim : ∀ p, F.InBounds box p → F.InBounds a.dims p) (hV : F.Holds m a V) :
    ∃ m' X, inOrder call l m = .ok m' ∧ F.Changes a (fun p => ∃ c ∈ l, seg c p) m m' ∧ F.Holds m' a X ∧ (∀ p, F.InBounds box p → X p = V p) ∧
      ∀ p, F.InBounds box p → ∀ e, 1 ≤ e → e ≤ n - 1 → ¬ F.InBounds box (F.shift p (O e)) →
        (¬ Uncovered seg l box n O (F.shift p (O e)) ∧ X (F.shift p (O e)) = (1 - F.jump (l.map piece) p e) * X p) ∨
        (F.jump (l.map piece) p e = 1 ∧ Uncovered seg l box n O (F.shift p (O e)) ∧ X (F.shift p (O e)) = V (F.shift p (O e))) := by
  obtain ⟨m', X, h1, h2, h3, h4⟩ := h
  refine ⟨m', X, h1 l (List.Perm.refl l), h2, h3, fun p hp => changes_same h2 hV h3 (hdim p hp) fun ⟨c, hcl, hsg⟩ => hout c hcl p hp hsg, fun p hp e e0 e1 ho => ?_⟩
  have hF := h4 (fun p => if ∃ c ∈ l, seg c p then 0 else V p) (fun c hcl p hp => if_pos ⟨c, hcl, hp⟩) fun p hp => if_neg fun ⟨c, hcl, hsg⟩ => hp c hcl hsg
  have j := F.fulfils_jump hF
    (fun k hk => by
      obtain ⟨c, hcl, rfl⟩ := List.mem_map.1 hk
      exact hc c hcl)
    (fun k hk p hkc => by
      obtain ⟨c, hcl, rfl⟩ := List.mem_map.1 hk
      exact if_pos ⟨c, hcl, hs c hcl p hkc⟩) hp e0 e1 ho
  rcases j with ⟨⟨k, hk, hkc, rfl⟩, j⟩ | ⟨j1, j2⟩
  · obtain ⟨c, hcl, rfl⟩ := List.mem_map.1 hk
    exact Or.inl ⟨fun hU => hU.2.2 c hcl (hs c hcl p hkc), j⟩
  · by_cases hsg : ∃ c ∈ l, seg c (F.shift p (O e))
    · rw [if_pos hsg] at j2
      obtain ⟨c, hcl, hsc⟩ := hsg
      refine Or.inl ⟨fun hU => hU.2.2 c hcl hsc, ?_⟩
      rw [j1, j2, sub_self, zero_mul]
    · rw [if_neg hsg] at j2
      exact Or.inr ⟨j1, ⟨ho, ⟨p, e, hp, e0, e1, rfl⟩, fun c hcl h => hsg ⟨c, hcl, h⟩⟩, j2⟩

/-- homogeneous: zeros where there is no segment -/
theorem filled_walled [CharZero T] {C : Type} {call : C → Mem T → M (Mem T)} {seg : C → List Int → Prop} {piece : C → F.Piece T} {box : List (Int × Int)} {n : Int} {O : Int → List Int} {a : F.Arr}
    {l : List C} {m : Mem T} {V : List Int → T} (h : Filled call seg piece box n O a l m V)
    (hc : ∀ c ∈ l, F.First (piece c).btype (piece c).order ∧ ((piece c).btype = 4 → ∀ p, (piece c).cells p → 4 * (piece c).coef p + (piece c).width ≠ 0))
    (hs : ∀ c ∈ l, ∀ p, (piece c).cells p → seg c (F.shift p (O (piece c).ghost)))
    (hout : ∀ c ∈ l, ∀ p, F.InBounds box p → ¬ seg c p) (hdim : ∀ p, F.InBounds box p → F.InBounds a.dims p) (hV : F.Holds m a V)
    (hz : ∀ g, Uncovered seg l box n O g → V g = 0) :
    ∃ m' X, inOrder call l m = .ok m' ∧ F.Changes a (fun p => ∃ c ∈ l, seg c p) m m' ∧ F.Holds m' a X ∧ (∀ p, F.InBounds box p → X p = V p) ∧
      F.Walled box n O (F.jump (l.map piece)) X := by
  obtain ⟨m', X, h1, h2, h3, h4, h5⟩ := filled_jump h hc hs hout hdim hV
  refine ⟨m', X, h1, h2, h3, h4, fun p hp e e0 e1 ho => ?_⟩
  rcases h5 p hp e e0 e1 ho with ⟨-, j⟩ | ⟨j1, j2, j3⟩
  · exact j
  · rw [j1, j3, hz _ j2, sub_self, zero_mul]

theorem along_out1 {i0 i1 : Int} {c : BcCall T} (h : c.Along1 i0 i1) (p : List Int) (hp : F.InBounds [(i0, i1)] p) : ¬ F.onSeg1 c.lo c.hi c.face p := fun hs => by
  obtain ⟨i, rfl, hp⟩ := F.inBounds1.1 hp
  obtain ⟨c1, c2⟩ := h
  rcases hs with ⟨f, h1⟩ | ⟨f, h1⟩ <;> simp only [List.cons.injEq, and_true] at h1
  · have := c1 f
    omega
  · have := c2 f
    omega

theorem along_out2 {i0 j0 i1 j1 : Int} {c : BcCall T} (h : c.Along2 1 i0 j0 i1 j1) (p : List Int) (hp : F.InBounds [(i0, i1), (j0, j1)] p) : ¬ F.onSeg2 c.lo c.hi 1 c.face p := fun hs => by
  obtain ⟨i, j, rfl, hp⟩ := F.inBounds2.1 hp
  obtain ⟨c1, c2, c3, c4, -⟩ := h
  obtain ⟨i', j', e, hs⟩ := hs
  simp only [List.cons.injEq, and_true] at e
  obtain ⟨rfl, rfl⟩ := e
  rcases hs with ⟨-, -, -, ⟨f, h1⟩ | ⟨f, h1⟩⟩ | ⟨-, -, -, ⟨f, h1⟩ | ⟨f, h1⟩⟩ | ⟨h2, -⟩
  · have := (c1 rfl f).1
    omega
  · have := (c2 rfl f).1
    omega
  · have := (c3 rfl f).1
    omega
  · have := (c4 rfl f).1
    omega
  · exact absurd h2 (by decide)

theorem along_out3 {i0 j0 k0 i1 j1 k1 : Int} {c : BcCall T} (h : c.Along3 1 i0 j0 k0 i1 j1 k1) (p : List Int) (hp : F.InBounds [(i0, i1), (j0, j1), (k0, k1)] p) : ¬ F.onSeg3 c.lo c.hi 1 c.face p := fun hs => by
  obtain ⟨i, j, k, rfl, hp⟩ := F.inBounds3.1 hp
  obtain ⟨c1, c2, c3, c4, c5, c6, -⟩ := h
  obtain ⟨i', j', k', e, hs⟩ := hs
  simp only [List.cons.injEq, and_true] at e
  obtain ⟨rfl, rfl, rfl⟩ := e
  rcases hs with ⟨-, -, -, -, -, ⟨f, h1⟩ | ⟨f, h1⟩⟩ | ⟨-, -, -, -, -, ⟨f, h1⟩ | ⟨f, h1⟩⟩ | ⟨-, -, -, -, -, ⟨f, h1⟩ | ⟨f, h1⟩⟩ | ⟨h2, -⟩ | ⟨h2, -⟩ | ⟨h2, -⟩ | ⟨h2, -⟩
  · have := (c1 rfl f).1
    omega
  · have := (c2 rfl f).1
    omega
  · have := (c3 rfl f).1
    omega
  · have := (c4 rfl f).1
    omega
  · have := (c5 rfl f).1
    omega
  · have := (c6 rfl f).1
    omega
  all_goals exact absurd h2 (by decide)

end

end Verif

namespace Verif.F
variable {T : Type} [Field T] [LinearOrder T] [IsStrictOrderedRing T]

theorem max_le (x y : T) : (max x 0 - max y 0) * (max x 0 - max y 0) ≤ (x - y) * (max x 0 - max y 0) := by
  have := cut_le x y 0
  simpa only [sub_zero] using this

theorem max_cell (x : T) : max x 0 * max x 0 ≤ x * max x 0 := by
  have := cut_cell x (le_refl (0 : T))
  simpa only [sub_zero] using this

/-- the positive part as test function -/
theorem leaky_max {box : List (Int × Int)} {n : Int} {O : Int → List Int} {f : List Int → Int → T} {W : List Int → T} (hf : ∀ c e, 0 ≤ f c e)
    (h : ∀ p, InBounds box p → ∀ e, 1 ≤ e → e ≤ n - 1 → ¬ InBounds box (shift p (O e)) → W (shift p (O e)) = (1 - f p e) * W p ∨ (f p e = 1 ∧ W (shift p (O e)) ≤ 0)) :
    Leaky box n O f W (fun p => max (W p) 0) := fun p hp e e0 e1 ho => by
  show f p e * (max (W p) 0 * max (W p) 0) ≤ (W p - W (shift p (O e))) * max (W p) 0
  rcases h p hp e e0 e1 ho with j | ⟨j1, j2⟩
  · rw [j]
    have := mul_le_mul_of_nonneg_left (max_cell (W p)) (hf p e)
    linarith
  · rw [j1]
    have h1 := max_cell (W p)
    have h2 := mul_nonneg (neg_nonneg.2 j2) (le_max_right (W p) 0)
    linarith

end Verif.F
