import Verif.Lemmas.Blind

/-
The Fortran boundary condition routines do not look at the cells next to the box whose kind (side, edge, corner) they are called for.
-/

namespace Verif
open Spec

set_option linter.unusedTactic false
set_option linter.unreachableTactic false

variable {T : Type}

/-- 1 if `x` is not between `lo` and `hi` -/
def out (lo hi x : Int) : Int := if lo ≤ x ∧ x ≤ hi then 0 else 1

/-- cells with at least `t` indices outside the box -/
def outside1 (i0 i1 : Int) (p : List Int) : Prop := ∃ i, p = [i] ∧ (i < i0 ∨ i1 < i)
def outside2 (t i0 j0 i1 j1 : Int) (p : List Int) : Prop := ∃ i j, p = [i, j] ∧ t ≤ out i0 i1 i + out j0 j1 j
def outside3 (t i0 j0 k0 i1 j1 k1 : Int) (p : List Int) : Prop := ∃ i j k, p = [i, j, k] ∧ t ≤ out i0 i1 i + out j0 j1 j + out k0 k1 k

theorem off_elems {u b : F.Arr} {R : List Int → Prop} {js : List Int} (h : (b = u ∧ ¬ R js) ∨ F.Apart u b) (hb : F.InBounds b.dims js) :
    ¬ elems u R (b.addrT js) := by
  rintro ⟨is, hi, hr, e⟩
  rcases h with ⟨rfl, h⟩ | h
  · exact h (F.addrT_inj hb hi e ▸ hr)
  · exact h is js hi hb e.symm

theorem blind_set [Add T] [Sub T] [Mul T] [Div T] [Neg T] {u : F.Arr} {R : List Int → Prop} {is : List Int} {e : F.Expr T}
    (h : ∀ r ∈ e.refs, (r.1 = u ∧ ¬ R r.2) ∨ F.Apart u r.1) : Blind (elems u R) (F.assign u is e) :=
  blind_assign fun r hr hb => off_elems (h r hr) hb

/-- a routine made of conditionals, loops and assignments -/
macro "blind" : tactic => `(tactic| (
  repeat' first
    | with_reducible refine blind_ite (fun _ => ?_) ?_
    | with_reducible exact blind_skip
    | with_reducible exact blind_nil
    | with_reducible refine blind_set ?_
    | with_reducible refine blind_loop fun _ _ _ => ?_
    | with_reducible refine blind_cons ?_ ?_))

theorem refs_neg {e : F.Expr T} : (-e).refs = e.refs := rfl
theorem refs_add {e f : F.Expr T} : (e + f).refs = e.refs ++ f.refs := rfl
theorem refs_sub {e f : F.Expr T} : (e - f).refs = e.refs ++ f.refs := rfl
theorem refs_mul {e f : F.Expr T} : (e * f).refs = e.refs ++ f.refs := rfl
theorem refs_div {e f : F.Expr T} : (e / f).refs = e.refs ++ f.refs := rfl
theorem refs_const {t : T} : (F.Expr.const t).refs = [] := rfl
theorem refs_ref {a : F.Arr} {is : List Int} : (F.Expr.ref (T := T) a is).refs = [(a, is)] := rfl

variable [Field T]

theorem blind_bc1 {i0 i1 g dg : Int} {dx : Nat → T} {d0 u : Ptr} {c : BcCall T} (hw : i0 < i1) (hc : c.Along1 i0 i1)
    (h0 : F.Apart (F.cell1d u i0 i1 g) (F.face1d d0 i0 i1 dg)) :
    Blind (elems (F.cell1d u i0 i1 g) (outside1 i0 i1)) (F.cellsetcorrectionbc1d i0 i1 dx dg d0 g u c.lo c.hi c.order c.face c.btype c.alpha c.beta) := by
  obtain ⟨c1, c2⟩ := hc
  unfold F.cellsetcorrectionbc1d
  simp only []
  blind
  all_goals
    simp only [refs_neg, refs_add, refs_sub, refs_mul, refs_div, refs_const, refs_ref, List.nil_append, List.append_nil, List.cons_append, List.mem_cons,
      List.not_mem_nil, or_false, forall_eq_or_imp, forall_eq, h0, or_true, true_and, and_true, outside1, List.cons.injEq, exists_eq_left']
    try omega

theorem blind_pbc1 {i0 i1 g : Int} {dx : Nat → T} {u : Ptr} {c : BcCall T} (hw : i0 < i1) (hc : c.Along1 i0 i1) :
    Blind (elems (F.cell1d u i0 i1 g) (outside1 i0 i1)) (F.cellsetpoissoncorrectionbc1d i0 i1 dx g u c.lo c.hi c.order c.face c.btype c.alpha c.beta) := by
  obtain ⟨c1, c2⟩ := hc
  unfold F.cellsetpoissoncorrectionbc1d
  simp only []
  blind
  all_goals
    simp only [refs_neg, refs_add, refs_sub, refs_mul, refs_div, refs_const, refs_ref, List.nil_append, List.append_nil, List.cons_append, List.mem_cons,
      List.not_mem_nil, or_false, forall_eq_or_imp, forall_eq, or_true, true_and, and_true, outside1, List.cons.injEq, exists_eq_left']
    try omega

theorem outside2_iff {t i0 j0 i1 j1 i j : Int} : outside2 t i0 j0 i1 j1 [i, j] ↔ t ≤ out i0 i1 i + out j0 j1 j :=
  ⟨fun ⟨_, _, e, h⟩ => by cases e; exact h, fun h => ⟨_, _, rfl, h⟩⟩

theorem outside3_iff {t i0 j0 k0 i1 j1 k1 i j k : Int} : outside3 t i0 j0 k0 i1 j1 k1 [i, j, k] ↔ t ≤ out i0 i1 i + out j0 j1 j + out k0 k1 k :=
  ⟨fun ⟨_, _, _, e, h⟩ => by cases e; exact h, fun h => ⟨_, _, _, rfl, h⟩⟩

theorem out_in {lo hi x : Int} (h : lo ≤ x) (h' : x ≤ hi) : out lo hi x = 0 := if_pos ⟨h, h'⟩

theorem out_le {lo hi x : Int} : out lo hi x ≤ 1 := by
  unfold out; split <;> omega

macro "leaf2" h:ident : tactic => `(tactic| (
  try simp only [Part] at $h:ident
  repeat' apply And.intro
  all_goals (simp only [*, out]) <;> (repeat' split) <;> first | omega | (simp_all; omega)))

macro "leaf3" h:ident : tactic => `(tactic| (
  try simp only [Part, nextTo] at $h:ident
  repeat' apply And.intro
  all_goals (simp only [*, out]) <;> (repeat' split) <;> first | omega | (simp_all; omega)))

set_option maxHeartbeats 1000000 in
theorem blind_bc2 {i0 j0 i1 j1 g dg type : Int} {dx : Nat → T} {d0 d1 u : Ptr} {c : BcCall T} (hwi : i0 < i1) (hwj : j0 < j1) (hc : c.Along2 type i0 j0 i1 j1)
    (h0 : F.Apart (F.cell2d u i0 j0 i1 j1 g) (F.face2d0 d0 i0 j0 i1 j1 dg))
    (h1 : F.Apart (F.cell2d u i0 j0 i1 j1 g) (F.face2d1 d1 i0 j0 i1 j1 dg)) :
    Blind (elems (F.cell2d u i0 j0 i1 j1 g) (outside2 type i0 j0 i1 j1)) (F.cellsetcorrectionbc2d i0 i1 j0 j1 dx dg d0 d1 g u c.lo c.hi c.order c.face type c.btype c.alpha c.beta) := by
  obtain ⟨c1, c2, c3, c4, c5, c6, c7, c8⟩ := hc
  unfold F.cellsetcorrectionbc2d
  simp only []
  blind
  all_goals
    simp only [refs_neg, refs_add, refs_sub, refs_mul, refs_div, refs_const, refs_ref, List.nil_append, List.append_nil, List.cons_append, List.mem_cons,
      List.not_mem_nil, or_false, forall_eq_or_imp, forall_eq, h0, h1, or_true, true_and, and_true, outside2_iff, false_imp_iff, implies_true, not_le]
  all_goals
    first
      | (have hh := c1 (by first | rfl | assumption) (by first | assumption | omega); clear c1 c2 c3 c4 c5 c6 c7 c8; leaf2 hh)
      | (have hh := c2 (by first | rfl | assumption) (by first | assumption | omega); clear c1 c2 c3 c4 c5 c6 c7 c8; leaf2 hh)
      | (have hh := c3 (by first | rfl | assumption) (by first | assumption | omega); clear c1 c2 c3 c4 c5 c6 c7 c8; leaf2 hh)
      | (have hh := c4 (by first | rfl | assumption) (by first | assumption | omega); clear c1 c2 c3 c4 c5 c6 c7 c8; leaf2 hh)
      | (have hh := c5 (by first | rfl | assumption) (by first | assumption | omega); clear c1 c2 c3 c4 c5 c6 c7 c8; leaf2 hh)
      | (have hh := c6 (by first | rfl | assumption) (by first | assumption | omega); clear c1 c2 c3 c4 c5 c6 c7 c8; leaf2 hh)
      | (have hh := c7 (by first | rfl | assumption) (by first | assumption | omega); clear c1 c2 c3 c4 c5 c6 c7 c8; leaf2 hh)
      | (have hh := c8 (by first | rfl | assumption) (by first | assumption | omega); clear c1 c2 c3 c4 c5 c6 c7 c8; leaf2 hh)

set_option maxHeartbeats 1000000 in
theorem blind_pbc2 {i0 j0 i1 j1 g type : Int} {dx : Nat → T} {u : Ptr} {c : BcCall T} (hwi : i0 < i1) (hwj : j0 < j1) (hc : c.Along2 type i0 j0 i1 j1) :
    Blind (elems (F.cell2d u i0 j0 i1 j1 g) (outside2 type i0 j0 i1 j1)) (F.cellsetpoissoncorrectionbc2d i0 i1 j0 j1 dx g u c.lo c.hi c.order c.face type c.btype c.alpha c.beta) := by
  obtain ⟨c1, c2, c3, c4, c5, c6, c7, c8⟩ := hc
  unfold F.cellsetpoissoncorrectionbc2d
  simp only []
  blind
  all_goals
    simp only [refs_neg, refs_add, refs_sub, refs_mul, refs_div, refs_const, refs_ref, List.nil_append, List.append_nil, List.cons_append, List.mem_cons,
      List.not_mem_nil, or_false, forall_eq_or_imp, forall_eq, or_true, true_and, and_true, outside2_iff, false_imp_iff, implies_true, not_le]
  all_goals
    first
      | (have hh := c1 (by first | rfl | assumption) (by first | assumption | omega); clear c1 c2 c3 c4 c5 c6 c7 c8; leaf2 hh)
      | (have hh := c2 (by first | rfl | assumption) (by first | assumption | omega); clear c1 c2 c3 c4 c5 c6 c7 c8; leaf2 hh)
      | (have hh := c3 (by first | rfl | assumption) (by first | assumption | omega); clear c1 c2 c3 c4 c5 c6 c7 c8; leaf2 hh)
      | (have hh := c4 (by first | rfl | assumption) (by first | assumption | omega); clear c1 c2 c3 c4 c5 c6 c7 c8; leaf2 hh)
      | (have hh := c5 (by first | rfl | assumption) (by first | assumption | omega); clear c1 c2 c3 c4 c5 c6 c7 c8; leaf2 hh)
      | (have hh := c6 (by first | rfl | assumption) (by first | assumption | omega); clear c1 c2 c3 c4 c5 c6 c7 c8; leaf2 hh)
      | (have hh := c7 (by first | rfl | assumption) (by first | assumption | omega); clear c1 c2 c3 c4 c5 c6 c7 c8; leaf2 hh)
      | (have hh := c8 (by first | rfl | assumption) (by first | assumption | omega); clear c1 c2 c3 c4 c5 c6 c7 c8; leaf2 hh)

set_option maxHeartbeats 1000000 in
theorem blind_corner2 {i0 j0 i1 j1 g type : Int} {dx : Nat → T} {d0 d1 u : Ptr} {c : BcCall T} (hwi : i0 < i1) (hwj : j0 < j1) (hc : c.Along2 2 i0 j0 i1 j1) :
    Blind (elems (F.cell2d u i0 j0 i1 j1 g) (outside2 2 i0 j0 i1 j1)) (F.cellsetinteriorcornerbc2d i0 i1 j0 j1 g dx d0 d1 u c.lo c.hi c.order c.face type c.btype) := by
  obtain ⟨c1, c2, c3, c4, c5, c6, c7, c8⟩ := hc
  unfold F.cellsetinteriorcornerbc2d
  simp only []
  blind
  all_goals
    simp only [refs_neg, refs_add, refs_sub, refs_mul, refs_div, refs_const, refs_ref, List.nil_append, List.append_nil, List.cons_append, List.mem_cons,
      List.not_mem_nil, or_false, forall_eq_or_imp, forall_eq, or_true, true_and, and_true, outside2_iff, false_imp_iff, implies_true, not_le]
  all_goals
    first
      | (have hh := c1 (by first | rfl | assumption) (by first | assumption | omega); clear c1 c2 c3 c4 c5 c6 c7 c8; leaf2 hh)
      | (have hh := c2 (by first | rfl | assumption) (by first | assumption | omega); clear c1 c2 c3 c4 c5 c6 c7 c8; leaf2 hh)
      | (have hh := c3 (by first | rfl | assumption) (by first | assumption | omega); clear c1 c2 c3 c4 c5 c6 c7 c8; leaf2 hh)
      | (have hh := c4 (by first | rfl | assumption) (by first | assumption | omega); clear c1 c2 c3 c4 c5 c6 c7 c8; leaf2 hh)
      | (have hh := c5 (by first | rfl | assumption) (by first | assumption | omega); clear c1 c2 c3 c4 c5 c6 c7 c8; leaf2 hh)
      | (have hh := c6 (by first | rfl | assumption) (by first | assumption | omega); clear c1 c2 c3 c4 c5 c6 c7 c8; leaf2 hh)
      | (have hh := c7 (by first | rfl | assumption) (by first | assumption | omega); clear c1 c2 c3 c4 c5 c6 c7 c8; leaf2 hh)
      | (have hh := c8 (by first | rfl | assumption) (by first | assumption | omega); clear c1 c2 c3 c4 c5 c6 c7 c8; leaf2 hh)

set_option maxHeartbeats 1000000 in
theorem blind_bc3 {i0 j0 k0 i1 j1 k1 g dg type : Int} {dx : Nat → T} {d0 d1 d2 u : Ptr} {c : BcCall T} (hwi : i0 < i1) (hwj : j0 < j1) (hwk : k0 < k1) (hc : c.Along3 type i0 j0 k0 i1 j1 k1)
    (h0 : F.Apart (F.cell3d u i0 j0 k0 i1 j1 k1 g) (F.face3d0 d0 i0 j0 k0 i1 j1 k1 dg))
    (h1 : F.Apart (F.cell3d u i0 j0 k0 i1 j1 k1 g) (F.face3d1 d1 i0 j0 k0 i1 j1 k1 dg))
    (h2 : F.Apart (F.cell3d u i0 j0 k0 i1 j1 k1 g) (F.face3d2 d2 i0 j0 k0 i1 j1 k1 dg)) :
    Blind (elems (F.cell3d u i0 j0 k0 i1 j1 k1 g) (outside3 type i0 j0 k0 i1 j1 k1)) (F.cellsetcorrectionbc3d i0 i1 j0 j1 k0 k1 dx dg d0 d1 d2 g u c.lo c.hi c.order c.face type c.btype c.alpha c.beta) := by
  obtain ⟨c1, c2, c3, c4, c5, c6, c7, c8, c9, c10⟩ := hc
  unfold F.cellsetcorrectionbc3d
  simp only []
  blind
  all_goals
    simp only [refs_neg, refs_add, refs_sub, refs_mul, refs_div, refs_const, refs_ref, List.nil_append, List.append_nil, List.cons_append, List.mem_cons,
      List.not_mem_nil, or_false, forall_eq_or_imp, forall_eq, h0, h1, h2, or_true, true_and, and_true, outside3_iff, false_imp_iff, implies_true, not_le]
  all_goals
    first
      | (have hh := c1 (by first | rfl | assumption) (by first | assumption | omega); clear c1 c2 c3 c4 c5 c6 c7 c8 c9 c10; leaf3 hh)
      | (have hh := c2 (by first | rfl | assumption) (by first | assumption | omega); clear c1 c2 c3 c4 c5 c6 c7 c8 c9 c10; leaf3 hh)
      | (have hh := c3 (by first | rfl | assumption) (by first | assumption | omega); clear c1 c2 c3 c4 c5 c6 c7 c8 c9 c10; leaf3 hh)
      | (have hh := c4 (by first | rfl | assumption) (by first | assumption | omega); clear c1 c2 c3 c4 c5 c6 c7 c8 c9 c10; leaf3 hh)
      | (have hh := c5 (by first | rfl | assumption) (by first | assumption | omega); clear c1 c2 c3 c4 c5 c6 c7 c8 c9 c10; leaf3 hh)
      | (have hh := c6 (by first | rfl | assumption) (by first | assumption | omega); clear c1 c2 c3 c4 c5 c6 c7 c8 c9 c10; leaf3 hh)
      | (have hh := c7 (by first | rfl | assumption) (by first | assumption | omega) (by omega); clear c1 c2 c3 c4 c5 c6 c7 c8 c9 c10; leaf3 hh)
      | (have hh := c8 (by first | rfl | assumption) (by first | assumption | omega) (by omega); clear c1 c2 c3 c4 c5 c6 c7 c8 c9 c10; leaf3 hh)
      | (have hh := c9 (by first | rfl | assumption) (by first | assumption | omega) (by omega); clear c1 c2 c3 c4 c5 c6 c7 c8 c9 c10; leaf3 hh)
      | (have hh := c10 (by first | rfl | assumption) (by first | assumption | omega) (by omega); clear c1 c2 c3 c4 c5 c6 c7 c8 c9 c10; leaf3 hh)

set_option maxHeartbeats 1000000 in
theorem blind_pbc3 {i0 j0 k0 i1 j1 k1 g type : Int} {dx : Nat → T} {u : Ptr} {c : BcCall T} (hwi : i0 < i1) (hwj : j0 < j1) (hwk : k0 < k1) (hc : c.Along3 type i0 j0 k0 i1 j1 k1) :
    Blind (elems (F.cell3d u i0 j0 k0 i1 j1 k1 g) (outside3 type i0 j0 k0 i1 j1 k1)) (F.cellsetpoissoncorrectionbc3d i0 i1 j0 j1 k0 k1 dx g u c.lo c.hi c.order c.face type c.btype c.alpha c.beta) := by
  obtain ⟨c1, c2, c3, c4, c5, c6, c7, c8, c9, c10⟩ := hc
  unfold F.cellsetpoissoncorrectionbc3d
  simp only []
  blind
  all_goals
    simp only [refs_neg, refs_add, refs_sub, refs_mul, refs_div, refs_const, refs_ref, List.nil_append, List.append_nil, List.cons_append, List.mem_cons,
      List.not_mem_nil, or_false, forall_eq_or_imp, forall_eq, or_true, true_and, and_true, outside3_iff, false_imp_iff, implies_true, not_le]
  all_goals
    first
      | (have hh := c1 (by first | rfl | assumption) (by first | assumption | omega); clear c1 c2 c3 c4 c5 c6 c7 c8 c9 c10; leaf3 hh)
      | (have hh := c2 (by first | rfl | assumption) (by first | assumption | omega); clear c1 c2 c3 c4 c5 c6 c7 c8 c9 c10; leaf3 hh)
      | (have hh := c3 (by first | rfl | assumption) (by first | assumption | omega); clear c1 c2 c3 c4 c5 c6 c7 c8 c9 c10; leaf3 hh)
      | (have hh := c4 (by first | rfl | assumption) (by first | assumption | omega); clear c1 c2 c3 c4 c5 c6 c7 c8 c9 c10; leaf3 hh)
      | (have hh := c5 (by first | rfl | assumption) (by first | assumption | omega); clear c1 c2 c3 c4 c5 c6 c7 c8 c9 c10; leaf3 hh)
      | (have hh := c6 (by first | rfl | assumption) (by first | assumption | omega); clear c1 c2 c3 c4 c5 c6 c7 c8 c9 c10; leaf3 hh)
      | (have hh := c7 (by first | rfl | assumption) (by first | assumption | omega) (by omega); clear c1 c2 c3 c4 c5 c6 c7 c8 c9 c10; leaf3 hh)
      | (have hh := c8 (by first | rfl | assumption) (by first | assumption | omega) (by omega); clear c1 c2 c3 c4 c5 c6 c7 c8 c9 c10; leaf3 hh)
      | (have hh := c9 (by first | rfl | assumption) (by first | assumption | omega) (by omega); clear c1 c2 c3 c4 c5 c6 c7 c8 c9 c10; leaf3 hh)
      | (have hh := c10 (by first | rfl | assumption) (by first | assumption | omega) (by omega); clear c1 c2 c3 c4 c5 c6 c7 c8 c9 c10; leaf3 hh)

/-! ### the segments lie outside the box -/

omit [Field T]

theorem seg1_out {i0 i1 : Int} {c : BcCall T} (hc : c.Along1 i0 i1) {p : List Int} (h : F.onSeg1 c.lo c.hi c.face p) : outside1 i0 i1 p := by
  obtain ⟨c1, c2⟩ := hc
  rcases h with ⟨hf, rfl⟩ | ⟨hf, rfl⟩
  · exact ⟨_, rfl, by have := c1 hf; omega⟩
  · exact ⟨_, rfl, by have := c2 hf; omega⟩

theorem seg2_out {type i0 j0 i1 j1 : Int} {c : BcCall T} (hc : c.Along2 type i0 j0 i1 j1) {p : List Int} (h : F.onSeg2 c.lo c.hi type c.face p) :
    outside2 type i0 j0 i1 j1 p := by
  obtain ⟨c1, c2, c3, c4, c5, c6, c7, c8⟩ := hc
  obtain ⟨i, j, rfl, h⟩ := h
  rw [outside2_iff]
  rcases h with ⟨rfl, a, b, ⟨hf, rfl⟩ | ⟨hf, rfl⟩⟩ | ⟨rfl, a, b, ⟨hf, rfl⟩ | ⟨hf, rfl⟩⟩ | ⟨rfl, ⟨hf, rfl, rfl⟩ | ⟨hf, rfl, rfl⟩ | ⟨hf, rfl, rfl⟩ | ⟨hf, rfl, rfl⟩⟩
  all_goals
    first
      | (have hh := c1 rfl hf; clear c1 c2 c3 c4 c5 c6 c7 c8; leaf2 hh)
      | (have hh := c2 rfl hf; clear c1 c2 c3 c4 c5 c6 c7 c8; leaf2 hh)
      | (have hh := c3 rfl hf; clear c1 c2 c3 c4 c5 c6 c7 c8; leaf2 hh)
      | (have hh := c4 rfl hf; clear c1 c2 c3 c4 c5 c6 c7 c8; leaf2 hh)
      | (have hh := c5 rfl hf; clear c1 c2 c3 c4 c5 c6 c7 c8; leaf2 hh)
      | (have hh := c6 rfl hf; clear c1 c2 c3 c4 c5 c6 c7 c8; leaf2 hh)
      | (have hh := c7 rfl hf; clear c1 c2 c3 c4 c5 c6 c7 c8; leaf2 hh)
      | (have hh := c8 rfl hf; clear c1 c2 c3 c4 c5 c6 c7 c8; leaf2 hh)

theorem seg3_out {type i0 j0 k0 i1 j1 k1 : Int} {c : BcCall T} (hc : c.Along3 type i0 j0 k0 i1 j1 k1) {p : List Int}
    (h : F.onSeg3 c.lo c.hi type c.face p) : outside3 type i0 j0 k0 i1 j1 k1 p := by
  obtain ⟨c1, c2, c3, c4, c5, c6, c7, c8, c9, c10⟩ := hc
  obtain ⟨i, j, k, rfl, h⟩ := h
  rw [outside3_iff]
  rcases h with ⟨rfl, a, b, a', b', ⟨hf, rfl⟩ | ⟨hf, rfl⟩⟩ | ⟨rfl, a, b, a', b', ⟨hf, rfl⟩ | ⟨hf, rfl⟩⟩ | ⟨rfl, a, b, a', b', ⟨hf, rfl⟩ | ⟨hf, rfl⟩⟩ |
    ⟨rfl, a, b, rfl, rfl, hk⟩ | ⟨rfl, a, b, rfl, rfl, hk⟩ | ⟨rfl, a, b, rfl, rfl, hk⟩ | ⟨rfl, a, b, rfl, rfl, rfl⟩
  · have hh := c1 rfl hf; clear c1 c2 c3 c4 c5 c6 c7 c8 c9 c10; leaf3 hh
  · have hh := c2 rfl hf; clear c1 c2 c3 c4 c5 c6 c7 c8 c9 c10; leaf3 hh
  · have hh := c3 rfl hf; clear c1 c2 c3 c4 c5 c6 c7 c8 c9 c10; leaf3 hh
  · have hh := c4 rfl hf; clear c1 c2 c3 c4 c5 c6 c7 c8 c9 c10; leaf3 hh
  · have hh := c5 rfl hf; clear c1 c2 c3 c4 c5 c6 c7 c8 c9 c10; leaf3 hh
  · have hh := c6 rfl hf; clear c1 c2 c3 c4 c5 c6 c7 c8 c9 c10; leaf3 hh
  · have hh := c7 rfl a b; clear c1 c2 c3 c4 c5 c6 c7 c8 c9 c10; leaf3 hh
  · have hh := c8 rfl a b; clear c1 c2 c3 c4 c5 c6 c7 c8 c9 c10; leaf3 hh
  · have hh := c9 rfl a b; clear c1 c2 c3 c4 c5 c6 c7 c8 c9 c10; leaf3 hh
  · have hh := c10 rfl a b; clear c1 c2 c3 c4 c5 c6 c7 c8 c9 c10; leaf3 hh

end Verif
