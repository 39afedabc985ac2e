import Verif.Lemmas.Fill

/-
Examples of calls that fill ghost cells.
-/

set_option linter.unusedVariables false
set_option linter.unusedSimpArgs false
set_option maxHeartbeats 1000000

namespace Verif
open Spec Polynomial

/-- a call of the examples -/
def exFill (lo hi : Nat → Int) (face btype : Int) : BcCall Rat := ⟨lo, hi, 1, face, btype, 6, 3, fun _ => revBackend⟩

theorem exHolds {a : F.Arr} (hp : a.ptr.off = 0) (hn : (a.dims.map fun d => d.2 - d.1 + 1).prod ≤ 1000) (hi : ∀ d ∈ a.dims, -2147483648 ≤ d.1 ∧ d.1 < 2147483648 ∧ -2147483648 ≤ d.2 + 1 ∧ d.2 + 1 < 2147483648) :
    F.Holds exRat a (F.rd exRat a) :=
  fun _ h => (exRat_ok hp hn fun d hd => by have := hi d hd; unfold InInt; omega).rd h

theorem exNonneg {a : F.Arr} (p : List Int) : 0 ≤ F.rd exRat a p := by
  unfold F.rd ld exRat
  simp only
  split
  · simp only [Option.getD_some]
    exact add_nonneg (by positivity) (mul_self_nonneg _)
  · simp

theorem exOne (p : List Int) : (0 : Rat) ≤ (fun _ : List Int => (1 : Rat)) p := by norm_num

theorem exSolvable {c : BcCall Rat} {box : List (Int × Int)} {O : Int → List Int} {seg : List Int → Prop} {w : Rat} {b : List Int → Rat} (h : F.First c.btype c.order) (hw : 0 < w) (hb : ∀ p, 0 ≤ b p)
    (ha : 0 ≤ c.alpha / (2 * c.beta)) (h0 : c.beta ≠ 0) : c.Solvable (c.piece box O seg w b) :=
  ⟨h, hw.ne', fun _ => ⟨h0, fun p _ => by
    have := mul_nonneg ha (hb p)
    simp only [BcCall.piece]
    positivity⟩⟩

theorem exDx_pos (n : Nat) : 0 < exDx n := by unfold exDx; positivity

theorem exOn1 {B0 : List Int → Rat} (h0 : ∀ p, 0 ≤ B0 p) (side : Int) (p : List Int) : 0 ≤ F.onFace1 B0 side p := by
  unfold F.onFace1; split <;> first | exact h0 _ | exact le_refl _

theorem exOn2 {B0 B1 : List Int → Rat} (h0 : ∀ p, 0 ≤ B0 p) (h1 : ∀ p, 0 ≤ B1 p) (dir side : Int) (p : List Int) : 0 ≤ F.onFace2 B0 B1 dir side p := by
  unfold F.onFace2; (repeat' split) <;> first | exact h0 _ | exact h1 _ | exact le_refl _

theorem exOn3 {B0 B1 B2 : List Int → Rat} (h0 : ∀ p, 0 ≤ B0 p) (h1 : ∀ p, 0 ≤ B1 p) (h2 : ∀ p, 0 ≤ B2 p) (dir side : Int) (p : List Int) : 0 ≤ F.onFace3 B0 B1 B2 dir side p := by
  unfold F.onFace3; (repeat' split) <;> first | exact h0 _ | exact h1 _ | exact h2 _ | exact le_refl _

/-- closes the hypotheses about a concrete list of calls -/
macro "ex_fusable" : tactic => `(tactic| (
  simp only [List.forall_mem_cons, List.not_mem_nil, false_imp_iff, implies_true, and_true, BcCall.Usable, exFill, InInt]
  repeat' apply And.intro
  all_goals first | exact fun _ => revBackend_ok | decide +kernel))

macro "ex_falong" : tactic => `(tactic| (
  simp only [List.forall_mem_cons, List.not_mem_nil, false_imp_iff, implies_true, and_true, BcCall.Along1, BcCall.Along2, BcCall.Along3, Spec.Part, nextTo, exFill, exSeg]
  repeat' apply And.intro
  all_goals first | decide +kernel | omega))

macro "ex_fseparate" : tactic => `(tactic| (
  simp only [List.forall_mem_cons, List.not_mem_nil, false_imp_iff, implies_true, and_true]
  repeat' apply And.intro
  all_goals first
    | exact Or.inl rfl
    | (refine Or.inr fun p h h' => ?_
       simp [F.onSeg1, exFill, exSeg] at h h'
       have e := h.symm.trans h'
       simp at e)
    | (refine Or.inr ?_
       rintro p ⟨i, j, r, h⟩ ⟨i', j', e, h'⟩
       subst r
       simp only [exFill, exSeg, List.cons.injEq, and_true] at e h h'
       omega)
    | (refine Or.inr ?_
       rintro p ⟨i, j, k, r, h⟩ ⟨i', j', k', e, h'⟩
       subst r
       simp only [exFill, exSeg, List.cons.injEq, and_true] at e h h'
       omega)))

macro "ex_solvable1 " t:term : tactic => `(tactic| (
  intro c hc
  refine exSolvable ?_ (exDx_pos _) (exOn1 $t _) ?_ ?_ <;> revert c <;>
    norm_num [List.forall_mem_cons, F.First, exFill]))

macro "ex_solvable2 " t:term : tactic => `(tactic| (
  intro c hc
  refine exSolvable ?_ (exDx_pos _) (exOn2 $t $t _ _) ?_ ?_ <;> revert c <;>
    norm_num [List.forall_mem_cons, F.First, exFill]))

macro "ex_solvable3 " t:term : tactic => `(tactic| (
  intro c hc
  refine exSolvable ?_ (exDx_pos _) (exOn3 $t $t $t _ _) ?_ ?_ <;> revert c <;>
    norm_num [List.forall_mem_cons, F.First, exFill]))

/-- Wherever calls fill the ghost cells, what a single call leaves beside a cell of its piece is on a polynomial that meets its condition. -/
theorem filled_at {C : Type} {call : C → Mem Rat → M (Mem Rat)} {seg : C → List Int → Prop} {piece : C → F.Piece Rat} {box : List (Int × Int)} {n : Int} {O : Int → List Int} {a : F.Arr}
    {c : C} {m : Mem Rat} {V : List Int → Rat} (h : Filled call seg piece box n O a [c] m V) {p : List Int} (hp : (piece c).cells p) (hs : seg c (F.shift p (O (piece c).ghost)))
    (hb : F.InBounds a.dims p) (hb' : F.InBounds a.dims (F.shift p (O (piece c).ghost))) {x g : Rat} (hx : leaves (call c m) (a.addrT p) = some (some x))
    (hg : leaves (call c m) (a.addrT (F.shift p (O (piece c).ghost))) = some (some g)) :
    ∃ y : Rat[X], F.Meets (piece c).btype (piece c).order ((piece c).coef p) 0 y ∧ x = y.eval (1 / 2 * (piece c).width) ∧ g = y.eval (-(1 / 2) * (piece c).width) := by
  classical
  obtain ⟨m', V', h1, -, h3, h4⟩ := h
  have e1 := h1 [c] (List.Perm.refl _)
  obtain ⟨m1, e2, v1⟩ := leaves_eq hx
  obtain ⟨m2, e3, v2⟩ := leaves_eq hg
  rw [e2] at e3
  cases e3
  simp only [inOrder, e2] at e1
  cases e1
  have f := h4 (fun q => if seg c q then 0 else V q) (by simp +contextual) (by simp +contextual)
  obtain ⟨y, y1, y2, y3⟩ := f.given (piece c) (by simp) p hp
  rw [if_pos hs] at y1
  refine ⟨y, y1, ?_, ?_⟩
  · rw [← y2, ← (h3 p hb).rd]; simp [F.rd, ld, v1]
  · rw [← y3, ← (h3 _ hb').rd]; simp [F.rd, ld, v2]

end Verif
