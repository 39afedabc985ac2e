import Verif.Lemmas.Values
import Verif.Lemmas.Shapes
import Verif.Spec.Kernels.Flux
import Verif.Spec.Kernels.Apply
import Verif.Spec.Kernels.Stencil

/-
What the Fortran flux, operator and coefficient routines leave, element by element.
-/

namespace Verif
open Spec

set_option linter.unusedVariables false
set_option linter.unusedSimpArgs false
set_option linter.unusedTactic false
set_option linter.unreachableTactic false

/-- points by coordinates -/
def pt1 (i : Int) : Pt := fun d => if d = .I then i else 0
def pt2 (i j : Int) : Pt := fun d => if d = .I then i else if d = .J then j else 0
def pt3 (i j k : Int) : Pt := fun d => if d = .I then i else if d = .J then j else if d = .K then k else 0

macro "in_bounds" : tactic => `(tactic| (
  simp only [F.cell1d, F.face1d, F.cell2d, F.face2d0, F.face2d1, F.cell3d, F.face3d0, F.face3d1, F.face3d2, F.st1d, F.st2d, F.st3d, F.InBounds, and_true]
  omega))

macro "in_nest" : tactic => `(tactic| (
  simp only [List.mem_cons, List.not_mem_nil, or_false, forall_eq_or_imp, forall_eq, pt1, pt2, pt3, Dim.I, Dim.J, Dim.K, if_true, if_false, reduceIte,
    Nat.reduceEqDiff]
  omega))

macro "pt_else" : tactic => `(tactic| (
  intro d hd
  simp only [List.map_cons, List.map_nil, List.mem_cons, List.not_mem_nil, or_false, not_or] at hd
  simp [pt1, pt2, pt3, hd]))

macro "nodups" : tactic => `(tactic| (
  simp only [List.map_cons, List.map_nil]
  decide))

macro "all_of" : tactic => `(tactic|
  simp only [List.mem_cons, List.not_mem_nil, or_false, forall_eq_or_imp, forall_eq, List.map_cons, List.map_nil, F.mul_def, F.sub_def, F.div_def,
    F.add_def, F.neg_def, F.Expr.refs, List.cons_append, List.nil_append, List.append_nil, false_implies, implies_true, and_true, true_and, and_self,
    List.cons.injEq, ne_eq, not_and, Int.reduceEq, false_and, not_false_eq_true, true_implies, forall_const])

macro "part_tac" : tactic => `(tactic| (
  refine F.Part.nest (by nodups) ?_ ?_ ?_ ?_ ?_
  · intro p
    all_of
  · intro p
    all_of
    intro hp
    in_bounds
  · intro p
    simp
  · intro p p'
    all_of
    try omega
  · intro p
    all_of
    try (intro hp; (repeat' (first | (exact ⟨by in_bounds, by simp⟩) | apply And.intro)))))

variable {T : Type} [Zero T] [One T] [NatCast T] [IntCast T] [Add T] [Sub T] [Mul T] [Div T] [Neg T] [Pow T Nat]

theorem entry_kept {L : List (F.Asg T)} {m m' : Mem T} {a : F.Arr} {is : List Int} (hw : F.Wrote L m m')
    (h : ∀ x ∈ L, x.1 = a ∧ F.InBounds a.dims x.2.1 ∧ x.2.1 ≠ is) (hi : F.InBounds a.dims is) : F.rd m' a is = F.rd m a is := by
  unfold F.rd ld
  rw [hw.frame _ fun x hx e => ?_]
  obtain ⟨h1, h2, h3⟩ := h x hx
  rw [h1] at e
  exact h3 (F.addrT_inj h2 hi e)

macro "entry_tac" : tactic => `(tactic| (
  intro x hx
  obtain ⟨p, hp, hx2⟩ := List.mem_flatMap.1 hx
  clear hx
  replace hp := ((F.mem_nestPts (by nodups)).1 hp).1
  revert hp
  revert x
  all_of
  intro hp
  refine ⟨by in_bounds, ?_⟩
  omega))

theorem flux1_run {i0 i1 gcw : Int} {dx : Nat → T} {b0 u f0 : Ptr} {m : Mem T} (hi : i0 ≤ i1) (hg : 1 ≤ gcw)
    (h : F.Args m [(F.cell1d u i0 i1 gcw), (F.face1d b0 i0 i1 0)] [(F.face1d f0 i0 i1 0)]) :
    ∃ m', F.celldiffusionflux1d i0 i1 dx b0 gcw u f0 m = .ok m' ∧ F.celldiffusionflux1d i0 i1 dx b0 gcw u f0 m' = .ok m' ∧ F.Kept [(F.face1d f0 i0 i1 0)] m m' ∧
      (∀ i, i0 ≤ i → i ≤ i1 + 1 → F.El m' (F.face1d f0 i0 i1 0) [i] (F.rd m (F.face1d b0 i0 i1 0) [i] * (F.rd m (F.cell1d u i0 i1 gcw) [i] - F.rd m (F.cell1d u i0 i1 gcw) [i - 1]) / dx 0)) := by
  have P0 : F.Part (T := T) [(F.cell1d u i0 i1 gcw), (F.face1d b0 i0 i1 0)] [(F.face1d f0 i0 i1 0)] (F.nestL [(.I, i0, i1 + 1)] (fun _ => 0) fun p => [((F.face1d f0 i0 i1 0), [p .I], F.Expr.ref (F.face1d b0 i0 i1 0) [p .I] * (F.Expr.ref (F.cell1d u i0 i1 gcw) [p .I] - F.Expr.ref (F.cell1d u i0 i1 gcw) [p .I - 1]) / .const (dx 0))]) := by part_tac
  obtain ⟨m', g1, g2, g3, g4⟩ := P0.run (c := F.celldiffusionflux1d i0 i1 dx b0 gcw u f0) (by rw [← F.nest_seqn1]; rfl) h
  exact ⟨m', g1, g2, g3, fun i h0 h1 => g4 _ (F.mem_nestL (p := (pt1 i)) (by nodups) (by in_nest) (by pt_else) List.mem_cons_self)⟩

theorem pflux1_run {i0 i1 gcw : Int} {dx : Nat → T} {u f0 : Ptr} {m : Mem T} (hi : i0 ≤ i1) (hg : 1 ≤ gcw)
    (h : F.Args m [(F.cell1d u i0 i1 gcw)] [(F.face1d f0 i0 i1 0)]) :
    ∃ m', F.cellpoissonflux1d i0 i1 dx gcw u f0 m = .ok m' ∧ F.cellpoissonflux1d i0 i1 dx gcw u f0 m' = .ok m' ∧ F.Kept [(F.face1d f0 i0 i1 0)] m m' ∧
      (∀ i, i0 ≤ i → i ≤ i1 + 1 → F.El m' (F.face1d f0 i0 i1 0) [i] ((F.rd m (F.cell1d u i0 i1 gcw) [i] - F.rd m (F.cell1d u i0 i1 gcw) [i - 1]) / dx 0)) := by
  have P0 : F.Part (T := T) [(F.cell1d u i0 i1 gcw)] [(F.face1d f0 i0 i1 0)] (F.nestL [(.I, i0, i1 + 1)] (fun _ => 0) fun p => [((F.face1d f0 i0 i1 0), [p .I], (F.Expr.ref (F.cell1d u i0 i1 gcw) [p .I] - F.Expr.ref (F.cell1d u i0 i1 gcw) [p .I - 1]) / .const (dx 0))]) := by part_tac
  obtain ⟨m', g1, g2, g3, g4⟩ := P0.run (c := F.cellpoissonflux1d i0 i1 dx gcw u f0) (by rw [← F.nest_seqn1]; rfl) h
  exact ⟨m', g1, g2, g3, fun i h0 h1 => g4 _ (F.mem_nestL (p := (pt1 i)) (by nodups) (by in_nest) (by pt_else) List.mem_cons_self)⟩

theorem v1apply1_run {i0 i1 agcw ugcw rgcw : Int} {alpha beta : T} {dx : Nat → T} {a u f0 res : Ptr} {m : Mem T} (hi : i0 ≤ i1) (hagcw : 0 ≤ agcw) (hugcw : 0 ≤ ugcw) (hrgcw : 0 ≤ rgcw)
    (h : F.Args m [(F.cell1d a i0 i1 agcw), (F.cell1d u i0 i1 ugcw), (F.face1d f0 i0 i1 0)] [(F.cell1d res i0 i1 rgcw)]) :
    ∃ m', F.celldiffusionv1apply1d i0 i1 alpha beta dx agcw a ugcw u f0 rgcw res m = .ok m' ∧ F.celldiffusionv1apply1d i0 i1 alpha beta dx agcw a ugcw u f0 rgcw res m' = .ok m' ∧ F.Kept [(F.cell1d res i0 i1 rgcw)] m m' ∧
      (∀ i, i0 ≤ i → i ≤ i1 → F.El m' (F.cell1d res i0 i1 rgcw) [i] (-(beta * ((F.rd m (F.face1d f0 i0 i1 0) [i + 1] - F.rd m (F.face1d f0 i0 i1 0) [i]) / dx 0)) + alpha * F.rd m (F.cell1d a i0 i1 agcw) [i] * F.rd m (F.cell1d u i0 i1 ugcw) [i])) := by
  have P0 : F.Part (T := T) [(F.cell1d a i0 i1 agcw), (F.cell1d u i0 i1 ugcw), (F.face1d f0 i0 i1 0)] [(F.cell1d res i0 i1 rgcw)] (F.nestL [(.I, i0, i1)] (fun _ => 0) fun p => [((F.cell1d res i0 i1 rgcw), [p .I], -(F.Expr.const (beta) * ((F.Expr.ref (F.face1d f0 i0 i1 0) [p .I + 1] - F.Expr.ref (F.face1d f0 i0 i1 0) [p .I]) / F.Expr.const (dx 0))) + F.Expr.const (alpha) * F.Expr.ref (F.cell1d a i0 i1 agcw) [p .I] * F.Expr.ref (F.cell1d u i0 i1 ugcw) [p .I])]) := by part_tac
  obtain ⟨m', g1, g2, g3, g4⟩ := P0.run (c := F.celldiffusionv1apply1d i0 i1 alpha beta dx agcw a ugcw u f0 rgcw res) (by rw [← F.nest_seqn1]; rfl) h
  exact ⟨m', g1, g2, g3, fun i h0 h1 => g4 _ (F.mem_nestL (p := (pt1 i)) (by nodups) (by in_nest) (by pt_else) List.mem_cons_self)⟩

theorem v2apply1_run {i0 i1 ugcw rgcw : Int} {alpha beta : T} {dx : Nat → T} {u f0 res : Ptr} {m : Mem T} (hi : i0 ≤ i1) (hugcw : 0 ≤ ugcw) (hrgcw : 0 ≤ rgcw)
    (h : F.Args m [(F.cell1d u i0 i1 ugcw), (F.face1d f0 i0 i1 0)] [(F.cell1d res i0 i1 rgcw)]) :
    ∃ m', F.celldiffusionv2apply1d i0 i1 alpha beta dx ugcw u f0 rgcw res m = .ok m' ∧ F.celldiffusionv2apply1d i0 i1 alpha beta dx ugcw u f0 rgcw res m' = .ok m' ∧ F.Kept [(F.cell1d res i0 i1 rgcw)] m m' ∧
      (∀ i, i0 ≤ i → i ≤ i1 → F.El m' (F.cell1d res i0 i1 rgcw) [i] (-(beta * ((F.rd m (F.face1d f0 i0 i1 0) [i + 1] - F.rd m (F.face1d f0 i0 i1 0) [i]) / dx 0)) + alpha * F.rd m (F.cell1d u i0 i1 ugcw) [i])) := by
  have P0 : F.Part (T := T) [(F.cell1d u i0 i1 ugcw), (F.face1d f0 i0 i1 0)] [(F.cell1d res i0 i1 rgcw)] (F.nestL [(.I, i0, i1)] (fun _ => 0) fun p => [((F.cell1d res i0 i1 rgcw), [p .I], -(F.Expr.const (beta) * ((F.Expr.ref (F.face1d f0 i0 i1 0) [p .I + 1] - F.Expr.ref (F.face1d f0 i0 i1 0) [p .I]) / F.Expr.const (dx 0))) + F.Expr.const (alpha) * F.Expr.ref (F.cell1d u i0 i1 ugcw) [p .I])]) := by part_tac
  obtain ⟨m', g1, g2, g3, g4⟩ := P0.run (c := F.celldiffusionv2apply1d i0 i1 alpha beta dx ugcw u f0 rgcw res) (by rw [← F.nest_seqn1]; rfl) h
  exact ⟨m', g1, g2, g3, fun i h0 h1 => g4 _ (F.mem_nestL (p := (pt1 i)) (by nodups) (by in_nest) (by pt_else) List.mem_cons_self)⟩

theorem papply1_run {i0 i1 rgcw : Int} {beta : T} {dx : Nat → T} {f0 res : Ptr} {m : Mem T} (hi : i0 ≤ i1) (hrgcw : 0 ≤ rgcw)
    (h : F.Args m [(F.face1d f0 i0 i1 0)] [(F.cell1d res i0 i1 rgcw)]) :
    ∃ m', F.cellpoissonv2apply1d i0 i1 beta dx f0 rgcw res m = .ok m' ∧ F.cellpoissonv2apply1d i0 i1 beta dx f0 rgcw res m' = .ok m' ∧ F.Kept [(F.cell1d res i0 i1 rgcw)] m m' ∧
      (∀ i, i0 ≤ i → i ≤ i1 → F.El m' (F.cell1d res i0 i1 rgcw) [i] (-(beta * ((F.rd m (F.face1d f0 i0 i1 0) [i + 1] - F.rd m (F.face1d f0 i0 i1 0) [i]) / dx 0)))) := by
  have P0 : F.Part (T := T) [(F.face1d f0 i0 i1 0)] [(F.cell1d res i0 i1 rgcw)] (F.nestL [(.I, i0, i1)] (fun _ => 0) fun p => [((F.cell1d res i0 i1 rgcw), [p .I], -(F.Expr.const (beta) * ((F.Expr.ref (F.face1d f0 i0 i1 0) [p .I + 1] - F.Expr.ref (F.face1d f0 i0 i1 0) [p .I]) / F.Expr.const (dx 0))))]) := by part_tac
  obtain ⟨m', g1, g2, g3, g4⟩ := P0.run (c := F.cellpoissonv2apply1d i0 i1 beta dx f0 rgcw res) (by rw [← F.nest_seqn1]; rfl) h
  exact ⟨m', g1, g2, g3, fun i h0 h1 => g4 _ (F.mem_nestL (p := (pt1 i)) (by nodups) (by in_nest) (by pt_else) List.mem_cons_self)⟩

theorem offdiag1_run {i0 i1 bi0 bi1 sgcw : Int} {dx : Nat → T} {beta : T} {b0 st : Ptr} {m : Mem T} (hi : i0 ≤ i1) (hg : 0 ≤ sgcw) (hbi : bi0 ≤ i0 ∧ i1 ≤ bi1)
    (h : F.Args m [(F.face1d b0 bi0 bi1 0)] [(F.st1d st i0 i1 sgcw)]) :
    ∃ m', F.celldiffusionoffdiag1d i0 i1 bi0 bi1 dx beta b0 sgcw st m = .ok m' ∧ F.celldiffusionoffdiag1d i0 i1 bi0 bi1 dx beta b0 sgcw st m' = .ok m' ∧ F.Kept [(F.st1d st i0 i1 sgcw)] m m' ∧
      (∀ i, i0 ≤ i → i ≤ i1 → F.El m' (F.st1d st i0 i1 sgcw) [1, i] (-(beta / (dx 0 * dx 0)) * F.rd m (F.face1d b0 bi0 bi1 0) [i]) ∧ F.El m' (F.st1d st i0 i1 sgcw) [2, i] (-(beta / (dx 0 * dx 0)) * F.rd m (F.face1d b0 bi0 bi1 0) [i + 1])) := by
  have P0 : F.Part (T := T) [(F.face1d b0 bi0 bi1 0)] [(F.st1d st i0 i1 sgcw)] (F.nestL [(.I, i0, i1)] (fun _ => 0) fun p => [((F.st1d st i0 i1 sgcw), [1, p .I], F.Expr.const (-(beta / (dx 0 * dx 0))) * F.Expr.ref (F.face1d b0 bi0 bi1 0) [p .I]), ((F.st1d st i0 i1 sgcw), [2, p .I], F.Expr.const (-(beta / (dx 0 * dx 0))) * F.Expr.ref (F.face1d b0 bi0 bi1 0) [p .I + 1])]) := by part_tac
  obtain ⟨m', g1, g2, g3, g4⟩ := P0.run (c := F.celldiffusionoffdiag1d i0 i1 bi0 bi1 dx beta b0 sgcw st) (by rw [← F.nest_seqn]; rfl) h
  exact ⟨m', g1, g2, g3, fun i h0 h1 => ⟨g4 _ (F.mem_nestL (p := (pt1 i)) (by nodups) (by in_nest) (by pt_else) List.mem_cons_self), g4 _ (F.mem_nestL (p := (pt1 i)) (by nodups) (by in_nest) (by pt_else) (List.mem_cons_of_mem _ List.mem_cons_self))⟩⟩

theorem poffdiag1_run {i0 i1 sgcw : Int} {dx : Nat → T} {beta : T} {st : Ptr} {m : Mem T} (hi : i0 ≤ i1) (hg : 0 ≤ sgcw)
    (h : F.Args m [] [(F.st1d st i0 i1 sgcw)]) :
    ∃ m', F.cellpoissonoffdiag1d i0 i1 dx beta sgcw st m = .ok m' ∧ F.cellpoissonoffdiag1d i0 i1 dx beta sgcw st m' = .ok m' ∧ F.Kept [(F.st1d st i0 i1 sgcw)] m m' ∧
      (∀ i, i0 ≤ i → i ≤ i1 → F.El m' (F.st1d st i0 i1 sgcw) [1, i] (-(beta / (dx 0 * dx 0))) ∧ F.El m' (F.st1d st i0 i1 sgcw) [2, i] (-(beta / (dx 0 * dx 0)))) := by
  have P0 : F.Part (T := T) [] [(F.st1d st i0 i1 sgcw)] (F.nestL [(.I, i0, i1)] (fun _ => 0) fun p => [((F.st1d st i0 i1 sgcw), [1, p .I], F.Expr.const (-(beta / (dx 0 * dx 0)))), ((F.st1d st i0 i1 sgcw), [2, p .I], F.Expr.const (-(beta / (dx 0 * dx 0))))]) := by part_tac
  obtain ⟨m', g1, g2, g3, g4⟩ := P0.run (c := F.cellpoissonoffdiag1d i0 i1 dx beta sgcw st) (by rw [← F.nest_seqn]; rfl) h
  exact ⟨m', g1, g2, g3, fun i h0 h1 => ⟨g4 _ (F.mem_nestL (p := (pt1 i)) (by nodups) (by in_nest) (by pt_else) List.mem_cons_self), g4 _ (F.mem_nestL (p := (pt1 i)) (by nodups) (by in_nest) (by pt_else) (List.mem_cons_of_mem _ List.mem_cons_self))⟩⟩

theorem v1diag1_run {i0 i1 ai0 ai1 sgcw : Int} {alpha : T} {a st : Ptr} {m : Mem T} (hi : i0 ≤ i1) (hg : 0 ≤ sgcw) (hai : ai0 ≤ i0 ∧ i1 ≤ ai1)
    (h : F.Args m [(F.cell1d a ai0 ai1 0)] [(F.st1d st i0 i1 sgcw)]) :
    ∃ m', F.celldiffusionv1diag1d i0 i1 ai0 ai1 alpha a sgcw st m = .ok m' ∧ F.celldiffusionv1diag1d i0 i1 ai0 ai1 alpha a sgcw st m' = .ok m' ∧ F.Kept [(F.st1d st i0 i1 sgcw)] m m' ∧
      (∀ i, i0 ≤ i → i ≤ i1 → F.El m' (F.st1d st i0 i1 sgcw) [0, i] (-(F.rd m (F.st1d st i0 i1 sgcw) [1, i] + F.rd m (F.st1d st i0 i1 sgcw) [2, i]) + alpha * F.rd m (F.cell1d a ai0 ai1 0) [i])) ∧
      (∀ i e, i0 ≤ i → i ≤ i1 → 1 ≤ e → e ≤ 2 → F.rd m' (F.st1d st i0 i1 sgcw) [e, i] = F.rd m (F.st1d st i0 i1 sgcw) [e, i]) := by
  have P0 : F.Part (T := T) [(F.cell1d a ai0 ai1 0)] [(F.st1d st i0 i1 sgcw)] (F.nestL [(.I, i0, i1)] (fun _ => 0) fun p => [((F.st1d st i0 i1 sgcw), [0, p .I], -(F.Expr.ref (F.st1d st i0 i1 sgcw) [1, p .I] + F.Expr.ref (F.st1d st i0 i1 sgcw) [2, p .I]) + F.Expr.const (alpha) * F.Expr.ref (F.cell1d a ai0 ai1 0) [p .I])]) := by part_tac
  obtain ⟨m', g1, hw⟩ := (P0.indep h).run
  have hc : (F.celldiffusionv1diag1d i0 i1 ai0 ai1 alpha a sgcw st : F.Cmd T) = F.seqn (F.nestL [(.I, i0, i1)] (fun _ => 0) fun p => [((F.st1d st i0 i1 sgcw), [0, p .I], -(F.Expr.ref (F.st1d st i0 i1 sgcw) [1, p .I] + F.Expr.ref (F.st1d st i0 i1 sgcw) [2, p .I]) + F.Expr.const (alpha) * F.Expr.ref (F.cell1d a ai0 ai1 0) [p .I])]) := by rw [← F.nest_seqn1]; rfl
  refine ⟨m', by rw [hc]; exact g1, by rw [hc]; exact (P0.indep h).again hw, P0.kept hw,
    fun i h0 h1 => hw.el _ (F.mem_nestL (p := (pt1 i)) (by nodups) (by in_nest) (by pt_else) List.mem_cons_self), fun i e h0 h1 e1 e2 => ?_⟩
  exact entry_kept hw (by entry_tac) (by in_bounds)

theorem v2diag1_run {i0 i1 sgcw : Int} {alpha : T} {st : Ptr} {m : Mem T} (hi : i0 ≤ i1) (hg : 0 ≤ sgcw)
    (h : F.Args m [] [(F.st1d st i0 i1 sgcw)]) :
    ∃ m', F.celldiffusionv2diag1d i0 i1 alpha sgcw st m = .ok m' ∧ F.celldiffusionv2diag1d i0 i1 alpha sgcw st m' = .ok m' ∧ F.Kept [(F.st1d st i0 i1 sgcw)] m m' ∧
      (∀ i, i0 ≤ i → i ≤ i1 → F.El m' (F.st1d st i0 i1 sgcw) [0, i] (-(F.rd m (F.st1d st i0 i1 sgcw) [1, i] + F.rd m (F.st1d st i0 i1 sgcw) [2, i]) + alpha)) ∧
      (∀ i e, i0 ≤ i → i ≤ i1 → 1 ≤ e → e ≤ 2 → F.rd m' (F.st1d st i0 i1 sgcw) [e, i] = F.rd m (F.st1d st i0 i1 sgcw) [e, i]) := by
  have P0 : F.Part (T := T) [] [(F.st1d st i0 i1 sgcw)] (F.nestL [(.I, i0, i1)] (fun _ => 0) fun p => [((F.st1d st i0 i1 sgcw), [0, p .I], -(F.Expr.ref (F.st1d st i0 i1 sgcw) [1, p .I] + F.Expr.ref (F.st1d st i0 i1 sgcw) [2, p .I]) + F.Expr.const (alpha))]) := by part_tac
  obtain ⟨m', g1, hw⟩ := (P0.indep h).run
  have hc : (F.celldiffusionv2diag1d i0 i1 alpha sgcw st : F.Cmd T) = F.seqn (F.nestL [(.I, i0, i1)] (fun _ => 0) fun p => [((F.st1d st i0 i1 sgcw), [0, p .I], -(F.Expr.ref (F.st1d st i0 i1 sgcw) [1, p .I] + F.Expr.ref (F.st1d st i0 i1 sgcw) [2, p .I]) + F.Expr.const (alpha))]) := by rw [← F.nest_seqn1]; rfl
  refine ⟨m', by rw [hc]; exact g1, by rw [hc]; exact (P0.indep h).again hw, P0.kept hw,
    fun i h0 h1 => hw.el _ (F.mem_nestL (p := (pt1 i)) (by nodups) (by in_nest) (by pt_else) List.mem_cons_self), fun i e h0 h1 e1 e2 => ?_⟩
  exact entry_kept hw (by entry_tac) (by in_bounds)

theorem pdiag1_run {i0 i1 sgcw : Int} {st : Ptr} {m : Mem T} (hi : i0 ≤ i1) (hg : 0 ≤ sgcw)
    (h : F.Args m [] [(F.st1d st i0 i1 sgcw)]) :
    ∃ m', F.cellpoissondiag1d i0 i1 sgcw st m = .ok m' ∧ F.cellpoissondiag1d i0 i1 sgcw st m' = .ok m' ∧ F.Kept [(F.st1d st i0 i1 sgcw)] m m' ∧
      (∀ i, i0 ≤ i → i ≤ i1 → F.El m' (F.st1d st i0 i1 sgcw) [0, i] (-(F.rd m (F.st1d st i0 i1 sgcw) [1, i] + F.rd m (F.st1d st i0 i1 sgcw) [2, i]))) ∧
      (∀ i e, i0 ≤ i → i ≤ i1 → 1 ≤ e → e ≤ 2 → F.rd m' (F.st1d st i0 i1 sgcw) [e, i] = F.rd m (F.st1d st i0 i1 sgcw) [e, i]) := by
  have P0 : F.Part (T := T) [] [(F.st1d st i0 i1 sgcw)] (F.nestL [(.I, i0, i1)] (fun _ => 0) fun p => [((F.st1d st i0 i1 sgcw), [0, p .I], -(F.Expr.ref (F.st1d st i0 i1 sgcw) [1, p .I] + F.Expr.ref (F.st1d st i0 i1 sgcw) [2, p .I]))]) := by part_tac
  obtain ⟨m', g1, hw⟩ := (P0.indep h).run
  have hc : (F.cellpoissondiag1d i0 i1 sgcw st : F.Cmd T) = F.seqn (F.nestL [(.I, i0, i1)] (fun _ => 0) fun p => [((F.st1d st i0 i1 sgcw), [0, p .I], -(F.Expr.ref (F.st1d st i0 i1 sgcw) [1, p .I] + F.Expr.ref (F.st1d st i0 i1 sgcw) [2, p .I]))]) := by rw [← F.nest_seqn1]; rfl
  refine ⟨m', by rw [hc]; exact g1, by rw [hc]; exact (P0.indep h).again hw, P0.kept hw,
    fun i h0 h1 => hw.el _ (F.mem_nestL (p := (pt1 i)) (by nodups) (by in_nest) (by pt_else) List.mem_cons_self), fun i e h0 h1 e1 e2 => ?_⟩
  exact entry_kept hw (by entry_tac) (by in_bounds)

theorem flux2_run {i0 j0 i1 j1 gcw : Int} {dx : Nat → T} {b0 b1 u f0 f1 : Ptr} {m : Mem T} (hi : i0 ≤ i1) (hj : j0 ≤ j1) (hg : 1 ≤ gcw)
    (h : F.Args m [(F.cell2d u i0 j0 i1 j1 gcw), (F.face2d0 b0 i0 j0 i1 j1 0), (F.face2d1 b1 i0 j0 i1 j1 0)] [(F.face2d0 f0 i0 j0 i1 j1 0), (F.face2d1 f1 i0 j0 i1 j1 0)]) (hp : F.Apart (F.face2d0 f0 i0 j0 i1 j1 0) (F.face2d1 f1 i0 j0 i1 j1 0)) :
    ∃ m', F.celldiffusionflux2d i0 j0 i1 j1 dx b0 b1 gcw u f0 f1 m = .ok m' ∧ F.celldiffusionflux2d i0 j0 i1 j1 dx b0 b1 gcw u f0 f1 m' = .ok m' ∧ F.Kept [(F.face2d0 f0 i0 j0 i1 j1 0), (F.face2d1 f1 i0 j0 i1 j1 0)] m m' ∧
      (∀ i j, i0 ≤ i → i ≤ i1 + 1 → j0 ≤ j → j ≤ j1 → F.El m' (F.face2d0 f0 i0 j0 i1 j1 0) [i, j] (F.rd m (F.face2d0 b0 i0 j0 i1 j1 0) [i, j] * (F.rd m (F.cell2d u i0 j0 i1 j1 gcw) [i, j] - F.rd m (F.cell2d u i0 j0 i1 j1 gcw) [i - 1, j]) / dx 0)) ∧
      (∀ i j, i0 ≤ i → i ≤ i1 → j0 ≤ j → j ≤ j1 + 1 → F.El m' (F.face2d1 f1 i0 j0 i1 j1 0) [j, i] (F.rd m (F.face2d1 b1 i0 j0 i1 j1 0) [j, i] * (F.rd m (F.cell2d u i0 j0 i1 j1 gcw) [i, j] - F.rd m (F.cell2d u i0 j0 i1 j1 gcw) [i, j - 1]) / dx 1)) := by
  have P0 : F.Part (T := T) [(F.cell2d u i0 j0 i1 j1 gcw), (F.face2d0 b0 i0 j0 i1 j1 0), (F.face2d1 b1 i0 j0 i1 j1 0)] [(F.face2d0 f0 i0 j0 i1 j1 0)] (F.nestL [(.J, j0, j1), (.I, i0, i1 + 1)] (fun _ => 0) fun p => [((F.face2d0 f0 i0 j0 i1 j1 0), [p .I, p .J], F.Expr.ref (F.face2d0 b0 i0 j0 i1 j1 0) [p .I, p .J] * (F.Expr.ref (F.cell2d u i0 j0 i1 j1 gcw) [p .I, p .J] - F.Expr.ref (F.cell2d u i0 j0 i1 j1 gcw) [p .I - 1, p .J]) / .const (dx 0))]) := by part_tac
  have P1 : F.Part (T := T) [(F.cell2d u i0 j0 i1 j1 gcw), (F.face2d0 b0 i0 j0 i1 j1 0), (F.face2d1 b1 i0 j0 i1 j1 0)] [(F.face2d1 f1 i0 j0 i1 j1 0)] (F.nestL [(.I, i0, i1), (.J, j0, j1 + 1)] (fun _ => 0) fun p => [((F.face2d1 f1 i0 j0 i1 j1 0), [p .J, p .I], F.Expr.ref (F.face2d1 b1 i0 j0 i1 j1 0) [p .J, p .I] * (F.Expr.ref (F.cell2d u i0 j0 i1 j1 gcw) [p .I, p .J] - F.Expr.ref (F.cell2d u i0 j0 i1 j1 gcw) [p .I, p .J - 1]) / .const (dx 1))]) := by part_tac
  obtain ⟨m', g1, g2, g3, g4⟩ := (P0.append P1 (by simpa using hp)).run (c := F.celldiffusionflux2d i0 j0 i1 j1 dx b0 b1 gcw u f0 f1) (by rw [← F.seqn_append, ← F.nest_seqn1, ← F.nest_seqn1]; rfl) h
  exact ⟨m', g1, g2, g3, fun i j h0 h1 h2 h3 => g4 _ (List.mem_append_left _ (F.mem_nestL (p := (pt2 i j)) (by nodups) (by in_nest) (by pt_else) List.mem_cons_self)), fun i j h0 h1 h2 h3 => g4 _ (List.mem_append_right _ (F.mem_nestL (p := (pt2 i j)) (by nodups) (by in_nest) (by pt_else) List.mem_cons_self))⟩

theorem pflux2_run {i0 j0 i1 j1 gcw : Int} {dx : Nat → T} {u f0 f1 : Ptr} {m : Mem T} (hi : i0 ≤ i1) (hj : j0 ≤ j1) (hg : 1 ≤ gcw)
    (h : F.Args m [(F.cell2d u i0 j0 i1 j1 gcw)] [(F.face2d0 f0 i0 j0 i1 j1 0), (F.face2d1 f1 i0 j0 i1 j1 0)]) (hp : F.Apart (F.face2d0 f0 i0 j0 i1 j1 0) (F.face2d1 f1 i0 j0 i1 j1 0)) :
    ∃ m', F.cellpoissonflux2d i0 j0 i1 j1 dx gcw u f0 f1 m = .ok m' ∧ F.cellpoissonflux2d i0 j0 i1 j1 dx gcw u f0 f1 m' = .ok m' ∧ F.Kept [(F.face2d0 f0 i0 j0 i1 j1 0), (F.face2d1 f1 i0 j0 i1 j1 0)] m m' ∧
      (∀ i j, i0 ≤ i → i ≤ i1 + 1 → j0 ≤ j → j ≤ j1 → F.El m' (F.face2d0 f0 i0 j0 i1 j1 0) [i, j] ((F.rd m (F.cell2d u i0 j0 i1 j1 gcw) [i, j] - F.rd m (F.cell2d u i0 j0 i1 j1 gcw) [i - 1, j]) / dx 0)) ∧
      (∀ i j, i0 ≤ i → i ≤ i1 → j0 ≤ j → j ≤ j1 + 1 → F.El m' (F.face2d1 f1 i0 j0 i1 j1 0) [j, i] ((F.rd m (F.cell2d u i0 j0 i1 j1 gcw) [i, j] - F.rd m (F.cell2d u i0 j0 i1 j1 gcw) [i, j - 1]) / dx 1)) := by
  have P0 : F.Part (T := T) [(F.cell2d u i0 j0 i1 j1 gcw)] [(F.face2d0 f0 i0 j0 i1 j1 0)] (F.nestL [(.I, i0, i1 + 1), (.J, j0, j1)] (fun _ => 0) fun p => [((F.face2d0 f0 i0 j0 i1 j1 0), [p .I, p .J], (F.Expr.ref (F.cell2d u i0 j0 i1 j1 gcw) [p .I, p .J] - F.Expr.ref (F.cell2d u i0 j0 i1 j1 gcw) [p .I - 1, p .J]) / .const (dx 0))]) := by part_tac
  have P1 : F.Part (T := T) [(F.cell2d u i0 j0 i1 j1 gcw)] [(F.face2d1 f1 i0 j0 i1 j1 0)] (F.nestL [(.J, j0, j1 + 1), (.I, i0, i1)] (fun _ => 0) fun p => [((F.face2d1 f1 i0 j0 i1 j1 0), [p .J, p .I], (F.Expr.ref (F.cell2d u i0 j0 i1 j1 gcw) [p .I, p .J] - F.Expr.ref (F.cell2d u i0 j0 i1 j1 gcw) [p .I, p .J - 1]) / .const (dx 1))]) := by part_tac
  obtain ⟨m', g1, g2, g3, g4⟩ := (P0.append P1 (by simpa using hp)).run (c := F.cellpoissonflux2d i0 j0 i1 j1 dx gcw u f0 f1) (by rw [← F.seqn_append, ← F.nest_seqn1, ← F.nest_seqn1]; rfl) h
  exact ⟨m', g1, g2, g3, fun i j h0 h1 h2 h3 => g4 _ (List.mem_append_left _ (F.mem_nestL (p := (pt2 i j)) (by nodups) (by in_nest) (by pt_else) List.mem_cons_self)), fun i j h0 h1 h2 h3 => g4 _ (List.mem_append_right _ (F.mem_nestL (p := (pt2 i j)) (by nodups) (by in_nest) (by pt_else) List.mem_cons_self))⟩

theorem v1apply2_run {i0 j0 i1 j1 agcw ugcw rgcw : Int} {alpha beta : T} {dx : Nat → T} {a u f0 f1 res : Ptr} {m : Mem T} (hi : i0 ≤ i1) (hj : j0 ≤ j1) (hagcw : 0 ≤ agcw) (hugcw : 0 ≤ ugcw) (hrgcw : 0 ≤ rgcw)
    (h : F.Args m [(F.cell2d a i0 j0 i1 j1 agcw), (F.cell2d u i0 j0 i1 j1 ugcw), (F.face2d0 f0 i0 j0 i1 j1 0), (F.face2d1 f1 i0 j0 i1 j1 0)] [(F.cell2d res i0 j0 i1 j1 rgcw)]) :
    ∃ m', F.celldiffusionv1apply2d i0 i1 j0 j1 alpha beta dx agcw a ugcw u f0 f1 rgcw res m = .ok m' ∧ F.celldiffusionv1apply2d i0 i1 j0 j1 alpha beta dx agcw a ugcw u f0 f1 rgcw res m' = .ok m' ∧ F.Kept [(F.cell2d res i0 j0 i1 j1 rgcw)] m m' ∧
      (∀ i j, i0 ≤ i → i ≤ i1 → j0 ≤ j → j ≤ j1 → F.El m' (F.cell2d res i0 j0 i1 j1 rgcw) [i, j] (-(beta * ((F.rd m (F.face2d0 f0 i0 j0 i1 j1 0) [i + 1, j] - F.rd m (F.face2d0 f0 i0 j0 i1 j1 0) [i, j]) / dx 0 + (F.rd m (F.face2d1 f1 i0 j0 i1 j1 0) [j + 1, i] - F.rd m (F.face2d1 f1 i0 j0 i1 j1 0) [j, i]) / dx 1)) + alpha * F.rd m (F.cell2d a i0 j0 i1 j1 agcw) [i, j] * F.rd m (F.cell2d u i0 j0 i1 j1 ugcw) [i, j])) := by
  have P0 : F.Part (T := T) [(F.cell2d a i0 j0 i1 j1 agcw), (F.cell2d u i0 j0 i1 j1 ugcw), (F.face2d0 f0 i0 j0 i1 j1 0), (F.face2d1 f1 i0 j0 i1 j1 0)] [(F.cell2d res i0 j0 i1 j1 rgcw)] (F.nestL [(.J, j0, j1), (.I, i0, i1)] (fun _ => 0) fun p => [((F.cell2d res i0 j0 i1 j1 rgcw), [p .I, p .J], -(F.Expr.const (beta) * ((F.Expr.ref (F.face2d0 f0 i0 j0 i1 j1 0) [p .I + 1, p .J] - F.Expr.ref (F.face2d0 f0 i0 j0 i1 j1 0) [p .I, p .J]) / F.Expr.const (dx 0) + (F.Expr.ref (F.face2d1 f1 i0 j0 i1 j1 0) [p .J + 1, p .I] - F.Expr.ref (F.face2d1 f1 i0 j0 i1 j1 0) [p .J, p .I]) / F.Expr.const (dx 1))) + F.Expr.const (alpha) * F.Expr.ref (F.cell2d a i0 j0 i1 j1 agcw) [p .I, p .J] * F.Expr.ref (F.cell2d u i0 j0 i1 j1 ugcw) [p .I, p .J])]) := by part_tac
  obtain ⟨m', g1, g2, g3, g4⟩ := P0.run (c := F.celldiffusionv1apply2d i0 i1 j0 j1 alpha beta dx agcw a ugcw u f0 f1 rgcw res) (by rw [← F.nest_seqn1]; rfl) h
  exact ⟨m', g1, g2, g3, fun i j h0 h1 h2 h3 => g4 _ (F.mem_nestL (p := (pt2 i j)) (by nodups) (by in_nest) (by pt_else) List.mem_cons_self)⟩

theorem v2apply2_run {i0 j0 i1 j1 ugcw rgcw : Int} {alpha beta : T} {dx : Nat → T} {u f0 f1 res : Ptr} {m : Mem T} (hi : i0 ≤ i1) (hj : j0 ≤ j1) (hugcw : 0 ≤ ugcw) (hrgcw : 0 ≤ rgcw)
    (h : F.Args m [(F.cell2d u i0 j0 i1 j1 ugcw), (F.face2d0 f0 i0 j0 i1 j1 0), (F.face2d1 f1 i0 j0 i1 j1 0)] [(F.cell2d res i0 j0 i1 j1 rgcw)]) :
    ∃ m', F.celldiffusionv2apply2d i0 i1 j0 j1 alpha beta dx ugcw u f0 f1 rgcw res m = .ok m' ∧ F.celldiffusionv2apply2d i0 i1 j0 j1 alpha beta dx ugcw u f0 f1 rgcw res m' = .ok m' ∧ F.Kept [(F.cell2d res i0 j0 i1 j1 rgcw)] m m' ∧
      (∀ i j, i0 ≤ i → i ≤ i1 → j0 ≤ j → j ≤ j1 → F.El m' (F.cell2d res i0 j0 i1 j1 rgcw) [i, j] (-(beta * ((F.rd m (F.face2d0 f0 i0 j0 i1 j1 0) [i + 1, j] - F.rd m (F.face2d0 f0 i0 j0 i1 j1 0) [i, j]) / dx 0 + (F.rd m (F.face2d1 f1 i0 j0 i1 j1 0) [j + 1, i] - F.rd m (F.face2d1 f1 i0 j0 i1 j1 0) [j, i]) / dx 1)) + alpha * F.rd m (F.cell2d u i0 j0 i1 j1 ugcw) [i, j])) := by
  have P0 : F.Part (T := T) [(F.cell2d u i0 j0 i1 j1 ugcw), (F.face2d0 f0 i0 j0 i1 j1 0), (F.face2d1 f1 i0 j0 i1 j1 0)] [(F.cell2d res i0 j0 i1 j1 rgcw)] (F.nestL [(.J, j0, j1), (.I, i0, i1)] (fun _ => 0) fun p => [((F.cell2d res i0 j0 i1 j1 rgcw), [p .I, p .J], -(F.Expr.const (beta) * ((F.Expr.ref (F.face2d0 f0 i0 j0 i1 j1 0) [p .I + 1, p .J] - F.Expr.ref (F.face2d0 f0 i0 j0 i1 j1 0) [p .I, p .J]) / F.Expr.const (dx 0) + (F.Expr.ref (F.face2d1 f1 i0 j0 i1 j1 0) [p .J + 1, p .I] - F.Expr.ref (F.face2d1 f1 i0 j0 i1 j1 0) [p .J, p .I]) / F.Expr.const (dx 1))) + F.Expr.const (alpha) * F.Expr.ref (F.cell2d u i0 j0 i1 j1 ugcw) [p .I, p .J])]) := by part_tac
  obtain ⟨m', g1, g2, g3, g4⟩ := P0.run (c := F.celldiffusionv2apply2d i0 i1 j0 j1 alpha beta dx ugcw u f0 f1 rgcw res) (by rw [← F.nest_seqn1]; rfl) h
  exact ⟨m', g1, g2, g3, fun i j h0 h1 h2 h3 => g4 _ (F.mem_nestL (p := (pt2 i j)) (by nodups) (by in_nest) (by pt_else) List.mem_cons_self)⟩

theorem papply2_run {i0 j0 i1 j1 rgcw : Int} {beta : T} {dx : Nat → T} {f0 f1 res : Ptr} {m : Mem T} (hi : i0 ≤ i1) (hj : j0 ≤ j1) (hrgcw : 0 ≤ rgcw)
    (h : F.Args m [(F.face2d0 f0 i0 j0 i1 j1 0), (F.face2d1 f1 i0 j0 i1 j1 0)] [(F.cell2d res i0 j0 i1 j1 rgcw)]) :
    ∃ m', F.cellpoissonv2apply2d i0 i1 j0 j1 beta dx f0 f1 rgcw res m = .ok m' ∧ F.cellpoissonv2apply2d i0 i1 j0 j1 beta dx f0 f1 rgcw res m' = .ok m' ∧ F.Kept [(F.cell2d res i0 j0 i1 j1 rgcw)] m m' ∧
      (∀ i j, i0 ≤ i → i ≤ i1 → j0 ≤ j → j ≤ j1 → F.El m' (F.cell2d res i0 j0 i1 j1 rgcw) [i, j] (-(beta * ((F.rd m (F.face2d0 f0 i0 j0 i1 j1 0) [i + 1, j] - F.rd m (F.face2d0 f0 i0 j0 i1 j1 0) [i, j]) / dx 0 + (F.rd m (F.face2d1 f1 i0 j0 i1 j1 0) [j + 1, i] - F.rd m (F.face2d1 f1 i0 j0 i1 j1 0) [j, i]) / dx 1)))) := by
  have P0 : F.Part (T := T) [(F.face2d0 f0 i0 j0 i1 j1 0), (F.face2d1 f1 i0 j0 i1 j1 0)] [(F.cell2d res i0 j0 i1 j1 rgcw)] (F.nestL [(.J, j0, j1), (.I, i0, i1)] (fun _ => 0) fun p => [((F.cell2d res i0 j0 i1 j1 rgcw), [p .I, p .J], -(F.Expr.const (beta) * ((F.Expr.ref (F.face2d0 f0 i0 j0 i1 j1 0) [p .I + 1, p .J] - F.Expr.ref (F.face2d0 f0 i0 j0 i1 j1 0) [p .I, p .J]) / F.Expr.const (dx 0) + (F.Expr.ref (F.face2d1 f1 i0 j0 i1 j1 0) [p .J + 1, p .I] - F.Expr.ref (F.face2d1 f1 i0 j0 i1 j1 0) [p .J, p .I]) / F.Expr.const (dx 1))))]) := by part_tac
  obtain ⟨m', g1, g2, g3, g4⟩ := P0.run (c := F.cellpoissonv2apply2d i0 i1 j0 j1 beta dx f0 f1 rgcw res) (by rw [← F.nest_seqn1]; rfl) h
  exact ⟨m', g1, g2, g3, fun i j h0 h1 h2 h3 => g4 _ (F.mem_nestL (p := (pt2 i j)) (by nodups) (by in_nest) (by pt_else) List.mem_cons_self)⟩

theorem offdiag2_run {i0 j0 i1 j1 bi0 bj0 bi1 bj1 sgcw : Int} {dx : Nat → T} {beta : T} {b0 b1 st : Ptr} {m : Mem T} (hi : i0 ≤ i1) (hj : j0 ≤ j1) (hg : 0 ≤ sgcw) (hbi : bi0 ≤ i0 ∧ i1 ≤ bi1) (hbj : bj0 ≤ j0 ∧ j1 ≤ bj1)
    (h : F.Args m [(F.face2d0 b0 bi0 bj0 bi1 bj1 0), (F.face2d1 b1 bi0 bj0 bi1 bj1 0)] [(F.st2d st i0 j0 i1 j1 sgcw)]) :
    ∃ m', F.celldiffusionoffdiag2d i0 j0 i1 j1 bi0 bj0 bi1 bj1 dx beta b0 b1 sgcw st m = .ok m' ∧ F.celldiffusionoffdiag2d i0 j0 i1 j1 bi0 bj0 bi1 bj1 dx beta b0 b1 sgcw st m' = .ok m' ∧ F.Kept [(F.st2d st i0 j0 i1 j1 sgcw)] m m' ∧
      (∀ i j, i0 ≤ i → i ≤ i1 → j0 ≤ j → j ≤ j1 → F.El m' (F.st2d st i0 j0 i1 j1 sgcw) [1, i, j] (-(beta / (dx 0 * dx 0)) * F.rd m (F.face2d0 b0 bi0 bj0 bi1 bj1 0) [i, j]) ∧ F.El m' (F.st2d st i0 j0 i1 j1 sgcw) [2, i, j] (-(beta / (dx 0 * dx 0)) * F.rd m (F.face2d0 b0 bi0 bj0 bi1 bj1 0) [i + 1, j]) ∧ F.El m' (F.st2d st i0 j0 i1 j1 sgcw) [3, i, j] (-(beta / (dx 1 * dx 1)) * F.rd m (F.face2d1 b1 bi0 bj0 bi1 bj1 0) [j, i]) ∧ F.El m' (F.st2d st i0 j0 i1 j1 sgcw) [4, i, j] (-(beta / (dx 1 * dx 1)) * F.rd m (F.face2d1 b1 bi0 bj0 bi1 bj1 0) [j + 1, i])) := by
  have P0 : F.Part (T := T) [(F.face2d0 b0 bi0 bj0 bi1 bj1 0), (F.face2d1 b1 bi0 bj0 bi1 bj1 0)] [(F.st2d st i0 j0 i1 j1 sgcw)] (F.nestL [(.J, j0, j1), (.I, i0, i1)] (fun _ => 0) fun p => [((F.st2d st i0 j0 i1 j1 sgcw), [1, p .I, p .J], F.Expr.const (-(beta / (dx 0 * dx 0))) * F.Expr.ref (F.face2d0 b0 bi0 bj0 bi1 bj1 0) [p .I, p .J]), ((F.st2d st i0 j0 i1 j1 sgcw), [2, p .I, p .J], F.Expr.const (-(beta / (dx 0 * dx 0))) * F.Expr.ref (F.face2d0 b0 bi0 bj0 bi1 bj1 0) [p .I + 1, p .J]), ((F.st2d st i0 j0 i1 j1 sgcw), [3, p .I, p .J], F.Expr.const (-(beta / (dx 1 * dx 1))) * F.Expr.ref (F.face2d1 b1 bi0 bj0 bi1 bj1 0) [p .J, p .I]), ((F.st2d st i0 j0 i1 j1 sgcw), [4, p .I, p .J], F.Expr.const (-(beta / (dx 1 * dx 1))) * F.Expr.ref (F.face2d1 b1 bi0 bj0 bi1 bj1 0) [p .J + 1, p .I])]) := by part_tac
  obtain ⟨m', g1, g2, g3, g4⟩ := P0.run (c := F.celldiffusionoffdiag2d i0 j0 i1 j1 bi0 bj0 bi1 bj1 dx beta b0 b1 sgcw st) (by rw [← F.nest_seqn]; rfl) h
  exact ⟨m', g1, g2, g3, fun i j h0 h1 h2 h3 => ⟨g4 _ (F.mem_nestL (p := (pt2 i j)) (by nodups) (by in_nest) (by pt_else) List.mem_cons_self), g4 _ (F.mem_nestL (p := (pt2 i j)) (by nodups) (by in_nest) (by pt_else) (List.mem_cons_of_mem _ List.mem_cons_self)), g4 _ (F.mem_nestL (p := (pt2 i j)) (by nodups) (by in_nest) (by pt_else) (List.mem_cons_of_mem _ (List.mem_cons_of_mem _ List.mem_cons_self))), g4 _ (F.mem_nestL (p := (pt2 i j)) (by nodups) (by in_nest) (by pt_else) (List.mem_cons_of_mem _ (List.mem_cons_of_mem _ (List.mem_cons_of_mem _ List.mem_cons_self))))⟩⟩

theorem poffdiag2_run {i0 j0 i1 j1 sgcw : Int} {dx : Nat → T} {beta : T} {st : Ptr} {m : Mem T} (hi : i0 ≤ i1) (hj : j0 ≤ j1) (hg : 0 ≤ sgcw)
    (h : F.Args m [] [(F.st2d st i0 j0 i1 j1 sgcw)]) :
    ∃ m', F.cellpoissonoffdiag2d i0 j0 i1 j1 dx beta sgcw st m = .ok m' ∧ F.cellpoissonoffdiag2d i0 j0 i1 j1 dx beta sgcw st m' = .ok m' ∧ F.Kept [(F.st2d st i0 j0 i1 j1 sgcw)] m m' ∧
      (∀ i j, i0 ≤ i → i ≤ i1 → j0 ≤ j → j ≤ j1 → F.El m' (F.st2d st i0 j0 i1 j1 sgcw) [1, i, j] (-(beta / (dx 0 * dx 0))) ∧ F.El m' (F.st2d st i0 j0 i1 j1 sgcw) [2, i, j] (-(beta / (dx 0 * dx 0))) ∧ F.El m' (F.st2d st i0 j0 i1 j1 sgcw) [3, i, j] (-(beta / (dx 1 * dx 1))) ∧ F.El m' (F.st2d st i0 j0 i1 j1 sgcw) [4, i, j] (-(beta / (dx 1 * dx 1)))) := by
  have P0 : F.Part (T := T) [] [(F.st2d st i0 j0 i1 j1 sgcw)] (F.nestL [(.J, j0, j1), (.I, i0, i1)] (fun _ => 0) fun p => [((F.st2d st i0 j0 i1 j1 sgcw), [1, p .I, p .J], F.Expr.const (-(beta / (dx 0 * dx 0)))), ((F.st2d st i0 j0 i1 j1 sgcw), [2, p .I, p .J], F.Expr.const (-(beta / (dx 0 * dx 0)))), ((F.st2d st i0 j0 i1 j1 sgcw), [3, p .I, p .J], F.Expr.const (-(beta / (dx 1 * dx 1)))), ((F.st2d st i0 j0 i1 j1 sgcw), [4, p .I, p .J], F.Expr.const (-(beta / (dx 1 * dx 1))))]) := by part_tac
  obtain ⟨m', g1, g2, g3, g4⟩ := P0.run (c := F.cellpoissonoffdiag2d i0 j0 i1 j1 dx beta sgcw st) (by rw [← F.nest_seqn]; rfl) h
  exact ⟨m', g1, g2, g3, fun i j h0 h1 h2 h3 => ⟨g4 _ (F.mem_nestL (p := (pt2 i j)) (by nodups) (by in_nest) (by pt_else) List.mem_cons_self), g4 _ (F.mem_nestL (p := (pt2 i j)) (by nodups) (by in_nest) (by pt_else) (List.mem_cons_of_mem _ List.mem_cons_self)), g4 _ (F.mem_nestL (p := (pt2 i j)) (by nodups) (by in_nest) (by pt_else) (List.mem_cons_of_mem _ (List.mem_cons_of_mem _ List.mem_cons_self))), g4 _ (F.mem_nestL (p := (pt2 i j)) (by nodups) (by in_nest) (by pt_else) (List.mem_cons_of_mem _ (List.mem_cons_of_mem _ (List.mem_cons_of_mem _ List.mem_cons_self))))⟩⟩

theorem v1diag2_run {i0 j0 i1 j1 ai0 aj0 ai1 aj1 sgcw : Int} {alpha : T} {a st : Ptr} {m : Mem T} (hi : i0 ≤ i1) (hj : j0 ≤ j1) (hg : 0 ≤ sgcw) (hai : ai0 ≤ i0 ∧ i1 ≤ ai1) (haj : aj0 ≤ j0 ∧ j1 ≤ aj1)
    (h : F.Args m [(F.cell2d a ai0 aj0 ai1 aj1 0)] [(F.st2d st i0 j0 i1 j1 sgcw)]) :
    ∃ m', F.celldiffusionv1diag2d i0 j0 i1 j1 ai0 aj0 ai1 aj1 alpha a sgcw st m = .ok m' ∧ F.celldiffusionv1diag2d i0 j0 i1 j1 ai0 aj0 ai1 aj1 alpha a sgcw st m' = .ok m' ∧ F.Kept [(F.st2d st i0 j0 i1 j1 sgcw)] m m' ∧
      (∀ i j, i0 ≤ i → i ≤ i1 → j0 ≤ j → j ≤ j1 → F.El m' (F.st2d st i0 j0 i1 j1 sgcw) [0, i, j] (-(F.rd m (F.st2d st i0 j0 i1 j1 sgcw) [1, i, j] + F.rd m (F.st2d st i0 j0 i1 j1 sgcw) [2, i, j] + F.rd m (F.st2d st i0 j0 i1 j1 sgcw) [3, i, j] + F.rd m (F.st2d st i0 j0 i1 j1 sgcw) [4, i, j]) + alpha * F.rd m (F.cell2d a ai0 aj0 ai1 aj1 0) [i, j])) ∧
      (∀ i j e, i0 ≤ i → i ≤ i1 → j0 ≤ j → j ≤ j1 → 1 ≤ e → e ≤ 4 → F.rd m' (F.st2d st i0 j0 i1 j1 sgcw) [e, i, j] = F.rd m (F.st2d st i0 j0 i1 j1 sgcw) [e, i, j]) := by
  have P0 : F.Part (T := T) [(F.cell2d a ai0 aj0 ai1 aj1 0)] [(F.st2d st i0 j0 i1 j1 sgcw)] (F.nestL [(.J, j0, j1), (.I, i0, i1)] (fun _ => 0) fun p => [((F.st2d st i0 j0 i1 j1 sgcw), [0, p .I, p .J], -(F.Expr.ref (F.st2d st i0 j0 i1 j1 sgcw) [1, p .I, p .J] + F.Expr.ref (F.st2d st i0 j0 i1 j1 sgcw) [2, p .I, p .J] + F.Expr.ref (F.st2d st i0 j0 i1 j1 sgcw) [3, p .I, p .J] + F.Expr.ref (F.st2d st i0 j0 i1 j1 sgcw) [4, p .I, p .J]) + F.Expr.const (alpha) * F.Expr.ref (F.cell2d a ai0 aj0 ai1 aj1 0) [p .I, p .J])]) := by part_tac
  obtain ⟨m', g1, hw⟩ := (P0.indep h).run
  have hc : (F.celldiffusionv1diag2d i0 j0 i1 j1 ai0 aj0 ai1 aj1 alpha a sgcw st : F.Cmd T) = F.seqn (F.nestL [(.J, j0, j1), (.I, i0, i1)] (fun _ => 0) fun p => [((F.st2d st i0 j0 i1 j1 sgcw), [0, p .I, p .J], -(F.Expr.ref (F.st2d st i0 j0 i1 j1 sgcw) [1, p .I, p .J] + F.Expr.ref (F.st2d st i0 j0 i1 j1 sgcw) [2, p .I, p .J] + F.Expr.ref (F.st2d st i0 j0 i1 j1 sgcw) [3, p .I, p .J] + F.Expr.ref (F.st2d st i0 j0 i1 j1 sgcw) [4, p .I, p .J]) + F.Expr.const (alpha) * F.Expr.ref (F.cell2d a ai0 aj0 ai1 aj1 0) [p .I, p .J])]) := by rw [← F.nest_seqn1]; rfl
  refine ⟨m', by rw [hc]; exact g1, by rw [hc]; exact (P0.indep h).again hw, P0.kept hw,
    fun i j h0 h1 h2 h3 => hw.el _ (F.mem_nestL (p := (pt2 i j)) (by nodups) (by in_nest) (by pt_else) List.mem_cons_self), fun i j e h0 h1 h2 h3 e1 e2 => ?_⟩
  exact entry_kept hw (by entry_tac) (by in_bounds)

theorem v2diag2_run {i0 j0 i1 j1 sgcw : Int} {alpha : T} {st : Ptr} {m : Mem T} (hi : i0 ≤ i1) (hj : j0 ≤ j1) (hg : 0 ≤ sgcw)
    (h : F.Args m [] [(F.st2d st i0 j0 i1 j1 sgcw)]) :
    ∃ m', F.celldiffusionv2diag2d i0 j0 i1 j1 alpha sgcw st m = .ok m' ∧ F.celldiffusionv2diag2d i0 j0 i1 j1 alpha sgcw st m' = .ok m' ∧ F.Kept [(F.st2d st i0 j0 i1 j1 sgcw)] m m' ∧
      (∀ i j, i0 ≤ i → i ≤ i1 → j0 ≤ j → j ≤ j1 → F.El m' (F.st2d st i0 j0 i1 j1 sgcw) [0, i, j] (-(F.rd m (F.st2d st i0 j0 i1 j1 sgcw) [1, i, j] + F.rd m (F.st2d st i0 j0 i1 j1 sgcw) [2, i, j] + F.rd m (F.st2d st i0 j0 i1 j1 sgcw) [3, i, j] + F.rd m (F.st2d st i0 j0 i1 j1 sgcw) [4, i, j]) + alpha)) ∧
      (∀ i j e, i0 ≤ i → i ≤ i1 → j0 ≤ j → j ≤ j1 → 1 ≤ e → e ≤ 4 → F.rd m' (F.st2d st i0 j0 i1 j1 sgcw) [e, i, j] = F.rd m (F.st2d st i0 j0 i1 j1 sgcw) [e, i, j]) := by
  have P0 : F.Part (T := T) [] [(F.st2d st i0 j0 i1 j1 sgcw)] (F.nestL [(.J, j0, j1), (.I, i0, i1)] (fun _ => 0) fun p => [((F.st2d st i0 j0 i1 j1 sgcw), [0, p .I, p .J], -(F.Expr.ref (F.st2d st i0 j0 i1 j1 sgcw) [1, p .I, p .J] + F.Expr.ref (F.st2d st i0 j0 i1 j1 sgcw) [2, p .I, p .J] + F.Expr.ref (F.st2d st i0 j0 i1 j1 sgcw) [3, p .I, p .J] + F.Expr.ref (F.st2d st i0 j0 i1 j1 sgcw) [4, p .I, p .J]) + F.Expr.const (alpha))]) := by part_tac
  obtain ⟨m', g1, hw⟩ := (P0.indep h).run
  have hc : (F.celldiffusionv2diag2d i0 j0 i1 j1 alpha sgcw st : F.Cmd T) = F.seqn (F.nestL [(.J, j0, j1), (.I, i0, i1)] (fun _ => 0) fun p => [((F.st2d st i0 j0 i1 j1 sgcw), [0, p .I, p .J], -(F.Expr.ref (F.st2d st i0 j0 i1 j1 sgcw) [1, p .I, p .J] + F.Expr.ref (F.st2d st i0 j0 i1 j1 sgcw) [2, p .I, p .J] + F.Expr.ref (F.st2d st i0 j0 i1 j1 sgcw) [3, p .I, p .J] + F.Expr.ref (F.st2d st i0 j0 i1 j1 sgcw) [4, p .I, p .J]) + F.Expr.const (alpha))]) := by rw [← F.nest_seqn1]; rfl
  refine ⟨m', by rw [hc]; exact g1, by rw [hc]; exact (P0.indep h).again hw, P0.kept hw,
    fun i j h0 h1 h2 h3 => hw.el _ (F.mem_nestL (p := (pt2 i j)) (by nodups) (by in_nest) (by pt_else) List.mem_cons_self), fun i j e h0 h1 h2 h3 e1 e2 => ?_⟩
  exact entry_kept hw (by entry_tac) (by in_bounds)

theorem pdiag2_run {i0 j0 i1 j1 sgcw : Int} {st : Ptr} {m : Mem T} (hi : i0 ≤ i1) (hj : j0 ≤ j1) (hg : 0 ≤ sgcw)
    (h : F.Args m [] [(F.st2d st i0 j0 i1 j1 sgcw)]) :
    ∃ m', F.cellpoissondiag2d i0 j0 i1 j1 sgcw st m = .ok m' ∧ F.cellpoissondiag2d i0 j0 i1 j1 sgcw st m' = .ok m' ∧ F.Kept [(F.st2d st i0 j0 i1 j1 sgcw)] m m' ∧
      (∀ i j, i0 ≤ i → i ≤ i1 → j0 ≤ j → j ≤ j1 → F.El m' (F.st2d st i0 j0 i1 j1 sgcw) [0, i, j] (-(F.rd m (F.st2d st i0 j0 i1 j1 sgcw) [1, i, j] + F.rd m (F.st2d st i0 j0 i1 j1 sgcw) [2, i, j] + F.rd m (F.st2d st i0 j0 i1 j1 sgcw) [3, i, j] + F.rd m (F.st2d st i0 j0 i1 j1 sgcw) [4, i, j]))) ∧
      (∀ i j e, i0 ≤ i → i ≤ i1 → j0 ≤ j → j ≤ j1 → 1 ≤ e → e ≤ 4 → F.rd m' (F.st2d st i0 j0 i1 j1 sgcw) [e, i, j] = F.rd m (F.st2d st i0 j0 i1 j1 sgcw) [e, i, j]) := by
  have P0 : F.Part (T := T) [] [(F.st2d st i0 j0 i1 j1 sgcw)] (F.nestL [(.J, j0, j1), (.I, i0, i1)] (fun _ => 0) fun p => [((F.st2d st i0 j0 i1 j1 sgcw), [0, p .I, p .J], -(F.Expr.ref (F.st2d st i0 j0 i1 j1 sgcw) [1, p .I, p .J] + F.Expr.ref (F.st2d st i0 j0 i1 j1 sgcw) [2, p .I, p .J] + F.Expr.ref (F.st2d st i0 j0 i1 j1 sgcw) [3, p .I, p .J] + F.Expr.ref (F.st2d st i0 j0 i1 j1 sgcw) [4, p .I, p .J]))]) := by part_tac
  obtain ⟨m', g1, hw⟩ := (P0.indep h).run
  have hc : (F.cellpoissondiag2d i0 j0 i1 j1 sgcw st : F.Cmd T) = F.seqn (F.nestL [(.J, j0, j1), (.I, i0, i1)] (fun _ => 0) fun p => [((F.st2d st i0 j0 i1 j1 sgcw), [0, p .I, p .J], -(F.Expr.ref (F.st2d st i0 j0 i1 j1 sgcw) [1, p .I, p .J] + F.Expr.ref (F.st2d st i0 j0 i1 j1 sgcw) [2, p .I, p .J] + F.Expr.ref (F.st2d st i0 j0 i1 j1 sgcw) [3, p .I, p .J] + F.Expr.ref (F.st2d st i0 j0 i1 j1 sgcw) [4, p .I, p .J]))]) := by rw [← F.nest_seqn1]; rfl
  refine ⟨m', by rw [hc]; exact g1, by rw [hc]; exact (P0.indep h).again hw, P0.kept hw,
    fun i j h0 h1 h2 h3 => hw.el _ (F.mem_nestL (p := (pt2 i j)) (by nodups) (by in_nest) (by pt_else) List.mem_cons_self), fun i j e h0 h1 h2 h3 e1 e2 => ?_⟩
  exact entry_kept hw (by entry_tac) (by in_bounds)

theorem flux3_run {i0 j0 k0 i1 j1 k1 gcw : Int} {dx : Nat → T} {b0 b1 b2 u f0 f1 f2 : Ptr} {m : Mem T} (hi : i0 ≤ i1) (hj : j0 ≤ j1) (hk : k0 ≤ k1) (hg : 1 ≤ gcw)
    (h : F.Args m [(F.cell3d u i0 j0 k0 i1 j1 k1 gcw), (F.face3d0 b0 i0 j0 k0 i1 j1 k1 0), (F.face3d1 b1 i0 j0 k0 i1 j1 k1 0), (F.face3d2 b2 i0 j0 k0 i1 j1 k1 0)] [(F.face3d0 f0 i0 j0 k0 i1 j1 k1 0), (F.face3d1 f1 i0 j0 k0 i1 j1 k1 0), (F.face3d2 f2 i0 j0 k0 i1 j1 k1 0)])
    (hp : F.Apart (F.face3d0 f0 i0 j0 k0 i1 j1 k1 0) (F.face3d1 f1 i0 j0 k0 i1 j1 k1 0) ∧ F.Apart (F.face3d0 f0 i0 j0 k0 i1 j1 k1 0) (F.face3d2 f2 i0 j0 k0 i1 j1 k1 0) ∧ F.Apart (F.face3d1 f1 i0 j0 k0 i1 j1 k1 0) (F.face3d2 f2 i0 j0 k0 i1 j1 k1 0)) :
    ∃ m', F.celldiffusionflux3d i0 j0 k0 i1 j1 k1 dx b0 b1 b2 gcw u f0 f1 f2 m = .ok m' ∧ F.celldiffusionflux3d i0 j0 k0 i1 j1 k1 dx b0 b1 b2 gcw u f0 f1 f2 m' = .ok m' ∧ F.Kept [(F.face3d0 f0 i0 j0 k0 i1 j1 k1 0), (F.face3d1 f1 i0 j0 k0 i1 j1 k1 0), (F.face3d2 f2 i0 j0 k0 i1 j1 k1 0)] m m' ∧
      (∀ i j k, i0 ≤ i → i ≤ i1 + 1 → j0 ≤ j → j ≤ j1 → k0 ≤ k → k ≤ k1 → F.El m' (F.face3d0 f0 i0 j0 k0 i1 j1 k1 0) [i, j, k] (F.rd m (F.face3d0 b0 i0 j0 k0 i1 j1 k1 0) [i, j, k] * (F.rd m (F.cell3d u i0 j0 k0 i1 j1 k1 gcw) [i, j, k] - F.rd m (F.cell3d u i0 j0 k0 i1 j1 k1 gcw) [i - 1, j, k]) / dx 0)) ∧
      (∀ i j k, i0 ≤ i → i ≤ i1 → j0 ≤ j → j ≤ j1 + 1 → k0 ≤ k → k ≤ k1 → F.El m' (F.face3d1 f1 i0 j0 k0 i1 j1 k1 0) [j, k, i] (F.rd m (F.face3d1 b1 i0 j0 k0 i1 j1 k1 0) [j, k, i] * (F.rd m (F.cell3d u i0 j0 k0 i1 j1 k1 gcw) [i, j, k] - F.rd m (F.cell3d u i0 j0 k0 i1 j1 k1 gcw) [i, j - 1, k]) / dx 1)) ∧
      (∀ i j k, i0 ≤ i → i ≤ i1 → j0 ≤ j → j ≤ j1 → k0 ≤ k → k ≤ k1 + 1 → F.El m' (F.face3d2 f2 i0 j0 k0 i1 j1 k1 0) [k, i, j] (F.rd m (F.face3d2 b2 i0 j0 k0 i1 j1 k1 0) [k, i, j] * (F.rd m (F.cell3d u i0 j0 k0 i1 j1 k1 gcw) [i, j, k] - F.rd m (F.cell3d u i0 j0 k0 i1 j1 k1 gcw) [i, j, k - 1]) / dx 2)) := by
  have P0 : F.Part (T := T) [(F.cell3d u i0 j0 k0 i1 j1 k1 gcw), (F.face3d0 b0 i0 j0 k0 i1 j1 k1 0), (F.face3d1 b1 i0 j0 k0 i1 j1 k1 0), (F.face3d2 b2 i0 j0 k0 i1 j1 k1 0)] [(F.face3d0 f0 i0 j0 k0 i1 j1 k1 0)] (F.nestL [(.K, k0, k1), (.J, j0, j1), (.I, i0, i1 + 1)] (fun _ => 0) fun p => [((F.face3d0 f0 i0 j0 k0 i1 j1 k1 0), [p .I, p .J, p .K], F.Expr.ref (F.face3d0 b0 i0 j0 k0 i1 j1 k1 0) [p .I, p .J, p .K] * (F.Expr.ref (F.cell3d u i0 j0 k0 i1 j1 k1 gcw) [p .I, p .J, p .K] - F.Expr.ref (F.cell3d u i0 j0 k0 i1 j1 k1 gcw) [p .I - 1, p .J, p .K]) / .const (dx 0))]) := by part_tac
  have P1 : F.Part (T := T) [(F.cell3d u i0 j0 k0 i1 j1 k1 gcw), (F.face3d0 b0 i0 j0 k0 i1 j1 k1 0), (F.face3d1 b1 i0 j0 k0 i1 j1 k1 0), (F.face3d2 b2 i0 j0 k0 i1 j1 k1 0)] [(F.face3d1 f1 i0 j0 k0 i1 j1 k1 0)] (F.nestL [(.I, i0, i1), (.K, k0, k1), (.J, j0, j1 + 1)] (fun _ => 0) fun p => [((F.face3d1 f1 i0 j0 k0 i1 j1 k1 0), [p .J, p .K, p .I], F.Expr.ref (F.face3d1 b1 i0 j0 k0 i1 j1 k1 0) [p .J, p .K, p .I] * (F.Expr.ref (F.cell3d u i0 j0 k0 i1 j1 k1 gcw) [p .I, p .J, p .K] - F.Expr.ref (F.cell3d u i0 j0 k0 i1 j1 k1 gcw) [p .I, p .J - 1, p .K]) / .const (dx 1))]) := by part_tac
  have P2 : F.Part (T := T) [(F.cell3d u i0 j0 k0 i1 j1 k1 gcw), (F.face3d0 b0 i0 j0 k0 i1 j1 k1 0), (F.face3d1 b1 i0 j0 k0 i1 j1 k1 0), (F.face3d2 b2 i0 j0 k0 i1 j1 k1 0)] [(F.face3d2 f2 i0 j0 k0 i1 j1 k1 0)] (F.nestL [(.J, j0, j1), (.I, i0, i1), (.K, k0, k1 + 1)] (fun _ => 0) fun p => [((F.face3d2 f2 i0 j0 k0 i1 j1 k1 0), [p .K, p .I, p .J], F.Expr.ref (F.face3d2 b2 i0 j0 k0 i1 j1 k1 0) [p .K, p .I, p .J] * (F.Expr.ref (F.cell3d u i0 j0 k0 i1 j1 k1 gcw) [p .I, p .J, p .K] - F.Expr.ref (F.cell3d u i0 j0 k0 i1 j1 k1 gcw) [p .I, p .J, p .K - 1]) / .const (dx 2))]) := by part_tac
  obtain ⟨m', g1, g2, g3, g4⟩ := (P0.append (P1.append P2 (by simpa using hp.2.2)) (by simpa using ⟨hp.1, hp.2.1⟩)).run (c := F.celldiffusionflux3d i0 j0 k0 i1 j1 k1 dx b0 b1 b2 gcw u f0 f1 f2) (by rw [← F.seqn_append3, ← F.nest_seqn1, ← F.nest_seqn1, ← F.nest_seqn1]; rfl) h
  exact ⟨m', g1, g2, g3, fun i j k h0 h1 h2 h3 h4 h5 => g4 _ (List.mem_append_left _ (F.mem_nestL (p := (pt3 i j k)) (by nodups) (by in_nest) (by pt_else) List.mem_cons_self)), fun i j k h0 h1 h2 h3 h4 h5 => g4 _ (List.mem_append_right _ (List.mem_append_left _ (F.mem_nestL (p := (pt3 i j k)) (by nodups) (by in_nest) (by pt_else) List.mem_cons_self))), fun i j k h0 h1 h2 h3 h4 h5 => g4 _ (List.mem_append_right _ (List.mem_append_right _ (F.mem_nestL (p := (pt3 i j k)) (by nodups) (by in_nest) (by pt_else) List.mem_cons_self)))⟩

theorem pflux3_run {i0 j0 k0 i1 j1 k1 gcw : Int} {dx : Nat → T} {u f0 f1 f2 : Ptr} {m : Mem T} (hi : i0 ≤ i1) (hj : j0 ≤ j1) (hk : k0 ≤ k1) (hg : 1 ≤ gcw)
    (h : F.Args m [(F.cell3d u i0 j0 k0 i1 j1 k1 gcw)] [(F.face3d0 f0 i0 j0 k0 i1 j1 k1 0), (F.face3d1 f1 i0 j0 k0 i1 j1 k1 0), (F.face3d2 f2 i0 j0 k0 i1 j1 k1 0)])
    (hp : F.Apart (F.face3d0 f0 i0 j0 k0 i1 j1 k1 0) (F.face3d1 f1 i0 j0 k0 i1 j1 k1 0) ∧ F.Apart (F.face3d0 f0 i0 j0 k0 i1 j1 k1 0) (F.face3d2 f2 i0 j0 k0 i1 j1 k1 0) ∧ F.Apart (F.face3d1 f1 i0 j0 k0 i1 j1 k1 0) (F.face3d2 f2 i0 j0 k0 i1 j1 k1 0)) :
    ∃ m', F.cellpoissonflux3d i0 j0 k0 i1 j1 k1 dx gcw u f0 f1 f2 m = .ok m' ∧ F.cellpoissonflux3d i0 j0 k0 i1 j1 k1 dx gcw u f0 f1 f2 m' = .ok m' ∧ F.Kept [(F.face3d0 f0 i0 j0 k0 i1 j1 k1 0), (F.face3d1 f1 i0 j0 k0 i1 j1 k1 0), (F.face3d2 f2 i0 j0 k0 i1 j1 k1 0)] m m' ∧
      (∀ i j k, i0 ≤ i → i ≤ i1 + 1 → j0 ≤ j → j ≤ j1 → k0 ≤ k → k ≤ k1 → F.El m' (F.face3d0 f0 i0 j0 k0 i1 j1 k1 0) [i, j, k] ((F.rd m (F.cell3d u i0 j0 k0 i1 j1 k1 gcw) [i, j, k] - F.rd m (F.cell3d u i0 j0 k0 i1 j1 k1 gcw) [i - 1, j, k]) / dx 0)) ∧
      (∀ i j k, i0 ≤ i → i ≤ i1 → j0 ≤ j → j ≤ j1 + 1 → k0 ≤ k → k ≤ k1 → F.El m' (F.face3d1 f1 i0 j0 k0 i1 j1 k1 0) [j, k, i] ((F.rd m (F.cell3d u i0 j0 k0 i1 j1 k1 gcw) [i, j, k] - F.rd m (F.cell3d u i0 j0 k0 i1 j1 k1 gcw) [i, j - 1, k]) / dx 1)) ∧
      (∀ i j k, i0 ≤ i → i ≤ i1 → j0 ≤ j → j ≤ j1 → k0 ≤ k → k ≤ k1 + 1 → F.El m' (F.face3d2 f2 i0 j0 k0 i1 j1 k1 0) [k, i, j] ((F.rd m (F.cell3d u i0 j0 k0 i1 j1 k1 gcw) [i, j, k] - F.rd m (F.cell3d u i0 j0 k0 i1 j1 k1 gcw) [i, j, k - 1]) / dx 2)) := by
  have P0 : F.Part (T := T) [(F.cell3d u i0 j0 k0 i1 j1 k1 gcw)] [(F.face3d0 f0 i0 j0 k0 i1 j1 k1 0)] (F.nestL [(.K, k0, k1), (.J, j0, j1), (.I, i0, i1 + 1)] (fun _ => 0) fun p => [((F.face3d0 f0 i0 j0 k0 i1 j1 k1 0), [p .I, p .J, p .K], (F.Expr.ref (F.cell3d u i0 j0 k0 i1 j1 k1 gcw) [p .I, p .J, p .K] - F.Expr.ref (F.cell3d u i0 j0 k0 i1 j1 k1 gcw) [p .I - 1, p .J, p .K]) / .const (dx 0))]) := by part_tac
  have P1 : F.Part (T := T) [(F.cell3d u i0 j0 k0 i1 j1 k1 gcw)] [(F.face3d1 f1 i0 j0 k0 i1 j1 k1 0)] (F.nestL [(.I, i0, i1), (.K, k0, k1), (.J, j0, j1 + 1)] (fun _ => 0) fun p => [((F.face3d1 f1 i0 j0 k0 i1 j1 k1 0), [p .J, p .K, p .I], (F.Expr.ref (F.cell3d u i0 j0 k0 i1 j1 k1 gcw) [p .I, p .J, p .K] - F.Expr.ref (F.cell3d u i0 j0 k0 i1 j1 k1 gcw) [p .I, p .J - 1, p .K]) / .const (dx 1))]) := by part_tac
  have P2 : F.Part (T := T) [(F.cell3d u i0 j0 k0 i1 j1 k1 gcw)] [(F.face3d2 f2 i0 j0 k0 i1 j1 k1 0)] (F.nestL [(.J, j0, j1), (.I, i0, i1), (.K, k0, k1 + 1)] (fun _ => 0) fun p => [((F.face3d2 f2 i0 j0 k0 i1 j1 k1 0), [p .K, p .I, p .J], (F.Expr.ref (F.cell3d u i0 j0 k0 i1 j1 k1 gcw) [p .I, p .J, p .K] - F.Expr.ref (F.cell3d u i0 j0 k0 i1 j1 k1 gcw) [p .I, p .J, p .K - 1]) / .const (dx 2))]) := by part_tac
  obtain ⟨m', g1, g2, g3, g4⟩ := (P0.append (P1.append P2 (by simpa using hp.2.2)) (by simpa using ⟨hp.1, hp.2.1⟩)).run (c := F.cellpoissonflux3d i0 j0 k0 i1 j1 k1 dx gcw u f0 f1 f2) (by rw [← F.seqn_append3, ← F.nest_seqn1, ← F.nest_seqn1, ← F.nest_seqn1]; rfl) h
  exact ⟨m', g1, g2, g3, fun i j k h0 h1 h2 h3 h4 h5 => g4 _ (List.mem_append_left _ (F.mem_nestL (p := (pt3 i j k)) (by nodups) (by in_nest) (by pt_else) List.mem_cons_self)), fun i j k h0 h1 h2 h3 h4 h5 => g4 _ (List.mem_append_right _ (List.mem_append_left _ (F.mem_nestL (p := (pt3 i j k)) (by nodups) (by in_nest) (by pt_else) List.mem_cons_self))), fun i j k h0 h1 h2 h3 h4 h5 => g4 _ (List.mem_append_right _ (List.mem_append_right _ (F.mem_nestL (p := (pt3 i j k)) (by nodups) (by in_nest) (by pt_else) List.mem_cons_self)))⟩

theorem v1apply3_run {i0 j0 k0 i1 j1 k1 agcw ugcw rgcw : Int} {alpha beta : T} {dx : Nat → T} {a u f0 f1 f2 res : Ptr} {m : Mem T} (hi : i0 ≤ i1) (hj : j0 ≤ j1) (hk : k0 ≤ k1) (hagcw : 0 ≤ agcw) (hugcw : 0 ≤ ugcw) (hrgcw : 0 ≤ rgcw)
    (h : F.Args m [(F.cell3d a i0 j0 k0 i1 j1 k1 agcw), (F.cell3d u i0 j0 k0 i1 j1 k1 ugcw), (F.face3d0 f0 i0 j0 k0 i1 j1 k1 0), (F.face3d1 f1 i0 j0 k0 i1 j1 k1 0), (F.face3d2 f2 i0 j0 k0 i1 j1 k1 0)] [(F.cell3d res i0 j0 k0 i1 j1 k1 rgcw)]) :
    ∃ m', F.celldiffusionv1apply3d i0 i1 j0 j1 k0 k1 alpha beta dx agcw a ugcw u f0 f1 f2 rgcw res m = .ok m' ∧ F.celldiffusionv1apply3d i0 i1 j0 j1 k0 k1 alpha beta dx agcw a ugcw u f0 f1 f2 rgcw res m' = .ok m' ∧ F.Kept [(F.cell3d res i0 j0 k0 i1 j1 k1 rgcw)] m m' ∧
      (∀ i j k, i0 ≤ i → i ≤ i1 → j0 ≤ j → j ≤ j1 → k0 ≤ k → k ≤ k1 → F.El m' (F.cell3d res i0 j0 k0 i1 j1 k1 rgcw) [i, j, k] (-(beta * ((F.rd m (F.face3d0 f0 i0 j0 k0 i1 j1 k1 0) [i + 1, j, k] - F.rd m (F.face3d0 f0 i0 j0 k0 i1 j1 k1 0) [i, j, k]) / dx 0 + (F.rd m (F.face3d1 f1 i0 j0 k0 i1 j1 k1 0) [j + 1, k, i] - F.rd m (F.face3d1 f1 i0 j0 k0 i1 j1 k1 0) [j, k, i]) / dx 1 + (F.rd m (F.face3d2 f2 i0 j0 k0 i1 j1 k1 0) [k + 1, i, j] - F.rd m (F.face3d2 f2 i0 j0 k0 i1 j1 k1 0) [k, i, j]) / dx 2)) + alpha * F.rd m (F.cell3d a i0 j0 k0 i1 j1 k1 agcw) [i, j, k] * F.rd m (F.cell3d u i0 j0 k0 i1 j1 k1 ugcw) [i, j, k])) := by
  have P0 : F.Part (T := T) [(F.cell3d a i0 j0 k0 i1 j1 k1 agcw), (F.cell3d u i0 j0 k0 i1 j1 k1 ugcw), (F.face3d0 f0 i0 j0 k0 i1 j1 k1 0), (F.face3d1 f1 i0 j0 k0 i1 j1 k1 0), (F.face3d2 f2 i0 j0 k0 i1 j1 k1 0)] [(F.cell3d res i0 j0 k0 i1 j1 k1 rgcw)] (F.nestL [(.K, k0, k1), (.J, j0, j1), (.I, i0, i1)] (fun _ => 0) fun p => [((F.cell3d res i0 j0 k0 i1 j1 k1 rgcw), [p .I, p .J, p .K], -(F.Expr.const (beta) * ((F.Expr.ref (F.face3d0 f0 i0 j0 k0 i1 j1 k1 0) [p .I + 1, p .J, p .K] - F.Expr.ref (F.face3d0 f0 i0 j0 k0 i1 j1 k1 0) [p .I, p .J, p .K]) / F.Expr.const (dx 0) + (F.Expr.ref (F.face3d1 f1 i0 j0 k0 i1 j1 k1 0) [p .J + 1, p .K, p .I] - F.Expr.ref (F.face3d1 f1 i0 j0 k0 i1 j1 k1 0) [p .J, p .K, p .I]) / F.Expr.const (dx 1) + (F.Expr.ref (F.face3d2 f2 i0 j0 k0 i1 j1 k1 0) [p .K + 1, p .I, p .J] - F.Expr.ref (F.face3d2 f2 i0 j0 k0 i1 j1 k1 0) [p .K, p .I, p .J]) / F.Expr.const (dx 2))) + F.Expr.const (alpha) * F.Expr.ref (F.cell3d a i0 j0 k0 i1 j1 k1 agcw) [p .I, p .J, p .K] * F.Expr.ref (F.cell3d u i0 j0 k0 i1 j1 k1 ugcw) [p .I, p .J, p .K])]) := by part_tac
  obtain ⟨m', g1, g2, g3, g4⟩ := P0.run (c := F.celldiffusionv1apply3d i0 i1 j0 j1 k0 k1 alpha beta dx agcw a ugcw u f0 f1 f2 rgcw res) (by rw [← F.nest_seqn1]; rfl) h
  exact ⟨m', g1, g2, g3, fun i j k h0 h1 h2 h3 h4 h5 => g4 _ (F.mem_nestL (p := (pt3 i j k)) (by nodups) (by in_nest) (by pt_else) List.mem_cons_self)⟩

theorem v2apply3_run {i0 j0 k0 i1 j1 k1 ugcw rgcw : Int} {alpha beta : T} {dx : Nat → T} {u f0 f1 f2 res : Ptr} {m : Mem T} (hi : i0 ≤ i1) (hj : j0 ≤ j1) (hk : k0 ≤ k1) (hugcw : 0 ≤ ugcw) (hrgcw : 0 ≤ rgcw)
    (h : F.Args m [(F.cell3d u i0 j0 k0 i1 j1 k1 ugcw), (F.face3d0 f0 i0 j0 k0 i1 j1 k1 0), (F.face3d1 f1 i0 j0 k0 i1 j1 k1 0), (F.face3d2 f2 i0 j0 k0 i1 j1 k1 0)] [(F.cell3d res i0 j0 k0 i1 j1 k1 rgcw)]) :
    ∃ m', F.celldiffusionv2apply3d i0 i1 j0 j1 k0 k1 alpha beta dx ugcw u f0 f1 f2 rgcw res m = .ok m' ∧ F.celldiffusionv2apply3d i0 i1 j0 j1 k0 k1 alpha beta dx ugcw u f0 f1 f2 rgcw res m' = .ok m' ∧ F.Kept [(F.cell3d res i0 j0 k0 i1 j1 k1 rgcw)] m m' ∧
      (∀ i j k, i0 ≤ i → i ≤ i1 → j0 ≤ j → j ≤ j1 → k0 ≤ k → k ≤ k1 → F.El m' (F.cell3d res i0 j0 k0 i1 j1 k1 rgcw) [i, j, k] (-(beta * ((F.rd m (F.face3d0 f0 i0 j0 k0 i1 j1 k1 0) [i + 1, j, k] - F.rd m (F.face3d0 f0 i0 j0 k0 i1 j1 k1 0) [i, j, k]) / dx 0 + (F.rd m (F.face3d1 f1 i0 j0 k0 i1 j1 k1 0) [j + 1, k, i] - F.rd m (F.face3d1 f1 i0 j0 k0 i1 j1 k1 0) [j, k, i]) / dx 1 + (F.rd m (F.face3d2 f2 i0 j0 k0 i1 j1 k1 0) [k + 1, i, j] - F.rd m (F.face3d2 f2 i0 j0 k0 i1 j1 k1 0) [k, i, j]) / dx 2)) + alpha * F.rd m (F.cell3d u i0 j0 k0 i1 j1 k1 ugcw) [i, j, k])) := by
  have P0 : F.Part (T := T) [(F.cell3d u i0 j0 k0 i1 j1 k1 ugcw), (F.face3d0 f0 i0 j0 k0 i1 j1 k1 0), (F.face3d1 f1 i0 j0 k0 i1 j1 k1 0), (F.face3d2 f2 i0 j0 k0 i1 j1 k1 0)] [(F.cell3d res i0 j0 k0 i1 j1 k1 rgcw)] (F.nestL [(.K, k0, k1), (.J, j0, j1), (.I, i0, i1)] (fun _ => 0) fun p => [((F.cell3d res i0 j0 k0 i1 j1 k1 rgcw), [p .I, p .J, p .K], -(F.Expr.const (beta) * ((F.Expr.ref (F.face3d0 f0 i0 j0 k0 i1 j1 k1 0) [p .I + 1, p .J, p .K] - F.Expr.ref (F.face3d0 f0 i0 j0 k0 i1 j1 k1 0) [p .I, p .J, p .K]) / F.Expr.const (dx 0) + (F.Expr.ref (F.face3d1 f1 i0 j0 k0 i1 j1 k1 0) [p .J + 1, p .K, p .I] - F.Expr.ref (F.face3d1 f1 i0 j0 k0 i1 j1 k1 0) [p .J, p .K, p .I]) / F.Expr.const (dx 1) + (F.Expr.ref (F.face3d2 f2 i0 j0 k0 i1 j1 k1 0) [p .K + 1, p .I, p .J] - F.Expr.ref (F.face3d2 f2 i0 j0 k0 i1 j1 k1 0) [p .K, p .I, p .J]) / F.Expr.const (dx 2))) + F.Expr.const (alpha) * F.Expr.ref (F.cell3d u i0 j0 k0 i1 j1 k1 ugcw) [p .I, p .J, p .K])]) := by part_tac
  obtain ⟨m', g1, g2, g3, g4⟩ := P0.run (c := F.celldiffusionv2apply3d i0 i1 j0 j1 k0 k1 alpha beta dx ugcw u f0 f1 f2 rgcw res) (by rw [← F.nest_seqn1]; rfl) h
  exact ⟨m', g1, g2, g3, fun i j k h0 h1 h2 h3 h4 h5 => g4 _ (F.mem_nestL (p := (pt3 i j k)) (by nodups) (by in_nest) (by pt_else) List.mem_cons_self)⟩

theorem papply3_run {i0 j0 k0 i1 j1 k1 rgcw : Int} {beta : T} {dx : Nat → T} {f0 f1 f2 res : Ptr} {m : Mem T} (hi : i0 ≤ i1) (hj : j0 ≤ j1) (hk : k0 ≤ k1) (hrgcw : 0 ≤ rgcw)
    (h : F.Args m [(F.face3d0 f0 i0 j0 k0 i1 j1 k1 0), (F.face3d1 f1 i0 j0 k0 i1 j1 k1 0), (F.face3d2 f2 i0 j0 k0 i1 j1 k1 0)] [(F.cell3d res i0 j0 k0 i1 j1 k1 rgcw)]) :
    ∃ m', F.cellpoissonv2apply3d i0 i1 j0 j1 k0 k1 beta dx f0 f1 f2 rgcw res m = .ok m' ∧ F.cellpoissonv2apply3d i0 i1 j0 j1 k0 k1 beta dx f0 f1 f2 rgcw res m' = .ok m' ∧ F.Kept [(F.cell3d res i0 j0 k0 i1 j1 k1 rgcw)] m m' ∧
      (∀ i j k, i0 ≤ i → i ≤ i1 → j0 ≤ j → j ≤ j1 → k0 ≤ k → k ≤ k1 → F.El m' (F.cell3d res i0 j0 k0 i1 j1 k1 rgcw) [i, j, k] (-(beta * ((F.rd m (F.face3d0 f0 i0 j0 k0 i1 j1 k1 0) [i + 1, j, k] - F.rd m (F.face3d0 f0 i0 j0 k0 i1 j1 k1 0) [i, j, k]) / dx 0 + (F.rd m (F.face3d1 f1 i0 j0 k0 i1 j1 k1 0) [j + 1, k, i] - F.rd m (F.face3d1 f1 i0 j0 k0 i1 j1 k1 0) [j, k, i]) / dx 1 + (F.rd m (F.face3d2 f2 i0 j0 k0 i1 j1 k1 0) [k + 1, i, j] - F.rd m (F.face3d2 f2 i0 j0 k0 i1 j1 k1 0) [k, i, j]) / dx 2)))) := by
  have P0 : F.Part (T := T) [(F.face3d0 f0 i0 j0 k0 i1 j1 k1 0), (F.face3d1 f1 i0 j0 k0 i1 j1 k1 0), (F.face3d2 f2 i0 j0 k0 i1 j1 k1 0)] [(F.cell3d res i0 j0 k0 i1 j1 k1 rgcw)] (F.nestL [(.K, k0, k1), (.J, j0, j1), (.I, i0, i1)] (fun _ => 0) fun p => [((F.cell3d res i0 j0 k0 i1 j1 k1 rgcw), [p .I, p .J, p .K], -(F.Expr.const (beta) * ((F.Expr.ref (F.face3d0 f0 i0 j0 k0 i1 j1 k1 0) [p .I + 1, p .J, p .K] - F.Expr.ref (F.face3d0 f0 i0 j0 k0 i1 j1 k1 0) [p .I, p .J, p .K]) / F.Expr.const (dx 0) + (F.Expr.ref (F.face3d1 f1 i0 j0 k0 i1 j1 k1 0) [p .J + 1, p .K, p .I] - F.Expr.ref (F.face3d1 f1 i0 j0 k0 i1 j1 k1 0) [p .J, p .K, p .I]) / F.Expr.const (dx 1) + (F.Expr.ref (F.face3d2 f2 i0 j0 k0 i1 j1 k1 0) [p .K + 1, p .I, p .J] - F.Expr.ref (F.face3d2 f2 i0 j0 k0 i1 j1 k1 0) [p .K, p .I, p .J]) / F.Expr.const (dx 2))))]) := by part_tac
  obtain ⟨m', g1, g2, g3, g4⟩ := P0.run (c := F.cellpoissonv2apply3d i0 i1 j0 j1 k0 k1 beta dx f0 f1 f2 rgcw res) (by rw [← F.nest_seqn1]; rfl) h
  exact ⟨m', g1, g2, g3, fun i j k h0 h1 h2 h3 h4 h5 => g4 _ (F.mem_nestL (p := (pt3 i j k)) (by nodups) (by in_nest) (by pt_else) List.mem_cons_self)⟩

theorem offdiag3_run {i0 j0 k0 i1 j1 k1 bi0 bj0 bk0 bi1 bj1 bk1 sgcw : Int} {dx : Nat → T} {beta : T} {b0 b1 b2 st : Ptr} {m : Mem T} (hi : i0 ≤ i1) (hj : j0 ≤ j1) (hk : k0 ≤ k1) (hg : 0 ≤ sgcw) (hbi : bi0 ≤ i0 ∧ i1 ≤ bi1) (hbj : bj0 ≤ j0 ∧ j1 ≤ bj1) (hbk : bk0 ≤ k0 ∧ k1 ≤ bk1)
    (h : F.Args m [(F.face3d0 b0 bi0 bj0 bk0 bi1 bj1 bk1 0), (F.face3d1 b1 bi0 bj0 bk0 bi1 bj1 bk1 0), (F.face3d2 b2 bi0 bj0 bk0 bi1 bj1 bk1 0)] [(F.st3d st i0 j0 k0 i1 j1 k1 sgcw)]) :
    ∃ m', F.celldiffusionoffdiag3d i0 j0 k0 i1 j1 k1 bi0 bj0 bk0 bi1 bj1 bk1 dx beta b0 b1 b2 sgcw st m = .ok m' ∧ F.celldiffusionoffdiag3d i0 j0 k0 i1 j1 k1 bi0 bj0 bk0 bi1 bj1 bk1 dx beta b0 b1 b2 sgcw st m' = .ok m' ∧ F.Kept [(F.st3d st i0 j0 k0 i1 j1 k1 sgcw)] m m' ∧
      (∀ i j k, i0 ≤ i → i ≤ i1 → j0 ≤ j → j ≤ j1 → k0 ≤ k → k ≤ k1 → F.El m' (F.st3d st i0 j0 k0 i1 j1 k1 sgcw) [1, i, j, k] (-(beta / (dx 0 * dx 0)) * F.rd m (F.face3d0 b0 bi0 bj0 bk0 bi1 bj1 bk1 0) [i, j, k]) ∧ F.El m' (F.st3d st i0 j0 k0 i1 j1 k1 sgcw) [2, i, j, k] (-(beta / (dx 0 * dx 0)) * F.rd m (F.face3d0 b0 bi0 bj0 bk0 bi1 bj1 bk1 0) [i + 1, j, k]) ∧ F.El m' (F.st3d st i0 j0 k0 i1 j1 k1 sgcw) [3, i, j, k] (-(beta / (dx 1 * dx 1)) * F.rd m (F.face3d1 b1 bi0 bj0 bk0 bi1 bj1 bk1 0) [j, k, i]) ∧ F.El m' (F.st3d st i0 j0 k0 i1 j1 k1 sgcw) [4, i, j, k] (-(beta / (dx 1 * dx 1)) * F.rd m (F.face3d1 b1 bi0 bj0 bk0 bi1 bj1 bk1 0) [j + 1, k, i]) ∧ F.El m' (F.st3d st i0 j0 k0 i1 j1 k1 sgcw) [5, i, j, k] (-(beta / (dx 2 * dx 2)) * F.rd m (F.face3d2 b2 bi0 bj0 bk0 bi1 bj1 bk1 0) [k, i, j]) ∧ F.El m' (F.st3d st i0 j0 k0 i1 j1 k1 sgcw) [6, i, j, k] (-(beta / (dx 2 * dx 2)) * F.rd m (F.face3d2 b2 bi0 bj0 bk0 bi1 bj1 bk1 0) [k + 1, i, j])) := by
  have P0 : F.Part (T := T) [(F.face3d0 b0 bi0 bj0 bk0 bi1 bj1 bk1 0), (F.face3d1 b1 bi0 bj0 bk0 bi1 bj1 bk1 0), (F.face3d2 b2 bi0 bj0 bk0 bi1 bj1 bk1 0)] [(F.st3d st i0 j0 k0 i1 j1 k1 sgcw)] (F.nestL [(.K, k0, k1), (.J, j0, j1), (.I, i0, i1)] (fun _ => 0) fun p => [((F.st3d st i0 j0 k0 i1 j1 k1 sgcw), [1, p .I, p .J, p .K], F.Expr.const (-(beta / (dx 0 * dx 0))) * F.Expr.ref (F.face3d0 b0 bi0 bj0 bk0 bi1 bj1 bk1 0) [p .I, p .J, p .K]), ((F.st3d st i0 j0 k0 i1 j1 k1 sgcw), [2, p .I, p .J, p .K], F.Expr.const (-(beta / (dx 0 * dx 0))) * F.Expr.ref (F.face3d0 b0 bi0 bj0 bk0 bi1 bj1 bk1 0) [p .I + 1, p .J, p .K]), ((F.st3d st i0 j0 k0 i1 j1 k1 sgcw), [3, p .I, p .J, p .K], F.Expr.const (-(beta / (dx 1 * dx 1))) * F.Expr.ref (F.face3d1 b1 bi0 bj0 bk0 bi1 bj1 bk1 0) [p .J, p .K, p .I]), ((F.st3d st i0 j0 k0 i1 j1 k1 sgcw), [4, p .I, p .J, p .K], F.Expr.const (-(beta / (dx 1 * dx 1))) * F.Expr.ref (F.face3d1 b1 bi0 bj0 bk0 bi1 bj1 bk1 0) [p .J + 1, p .K, p .I]), ((F.st3d st i0 j0 k0 i1 j1 k1 sgcw), [5, p .I, p .J, p .K], F.Expr.const (-(beta / (dx 2 * dx 2))) * F.Expr.ref (F.face3d2 b2 bi0 bj0 bk0 bi1 bj1 bk1 0) [p .K, p .I, p .J]), ((F.st3d st i0 j0 k0 i1 j1 k1 sgcw), [6, p .I, p .J, p .K], F.Expr.const (-(beta / (dx 2 * dx 2))) * F.Expr.ref (F.face3d2 b2 bi0 bj0 bk0 bi1 bj1 bk1 0) [p .K + 1, p .I, p .J])]) := by part_tac
  obtain ⟨m', g1, g2, g3, g4⟩ := P0.run (c := F.celldiffusionoffdiag3d i0 j0 k0 i1 j1 k1 bi0 bj0 bk0 bi1 bj1 bk1 dx beta b0 b1 b2 sgcw st) (by rw [← F.nest_seqn]; rfl) h
  exact ⟨m', g1, g2, g3, fun i j k h0 h1 h2 h3 h4 h5 => ⟨g4 _ (F.mem_nestL (p := (pt3 i j k)) (by nodups) (by in_nest) (by pt_else) List.mem_cons_self), g4 _ (F.mem_nestL (p := (pt3 i j k)) (by nodups) (by in_nest) (by pt_else) (List.mem_cons_of_mem _ List.mem_cons_self)), g4 _ (F.mem_nestL (p := (pt3 i j k)) (by nodups) (by in_nest) (by pt_else) (List.mem_cons_of_mem _ (List.mem_cons_of_mem _ List.mem_cons_self))), g4 _ (F.mem_nestL (p := (pt3 i j k)) (by nodups) (by in_nest) (by pt_else) (List.mem_cons_of_mem _ (List.mem_cons_of_mem _ (List.mem_cons_of_mem _ List.mem_cons_self)))), g4 _ (F.mem_nestL (p := (pt3 i j k)) (by nodups) (by in_nest) (by pt_else) (List.mem_cons_of_mem _ (List.mem_cons_of_mem _ (List.mem_cons_of_mem _ (List.mem_cons_of_mem _ List.mem_cons_self))))), g4 _ (F.mem_nestL (p := (pt3 i j k)) (by nodups) (by in_nest) (by pt_else) (List.mem_cons_of_mem _ (List.mem_cons_of_mem _ (List.mem_cons_of_mem _ (List.mem_cons_of_mem _ (List.mem_cons_of_mem _ List.mem_cons_self))))))⟩⟩

theorem poffdiag3_run {i0 j0 k0 i1 j1 k1 sgcw : Int} {dx : Nat → T} {beta : T} {st : Ptr} {m : Mem T} (hi : i0 ≤ i1) (hj : j0 ≤ j1) (hk : k0 ≤ k1) (hg : 0 ≤ sgcw)
    (h : F.Args m [] [(F.st3d st i0 j0 k0 i1 j1 k1 sgcw)]) :
    ∃ m', F.cellpoissonoffdiag3d i0 j0 k0 i1 j1 k1 dx beta sgcw st m = .ok m' ∧ F.cellpoissonoffdiag3d i0 j0 k0 i1 j1 k1 dx beta sgcw st m' = .ok m' ∧ F.Kept [(F.st3d st i0 j0 k0 i1 j1 k1 sgcw)] m m' ∧
      (∀ i j k, i0 ≤ i → i ≤ i1 → j0 ≤ j → j ≤ j1 → k0 ≤ k → k ≤ k1 → F.El m' (F.st3d st i0 j0 k0 i1 j1 k1 sgcw) [1, i, j, k] (-(beta / (dx 0 * dx 0))) ∧ F.El m' (F.st3d st i0 j0 k0 i1 j1 k1 sgcw) [2, i, j, k] (-(beta / (dx 0 * dx 0))) ∧ F.El m' (F.st3d st i0 j0 k0 i1 j1 k1 sgcw) [3, i, j, k] (-(beta / (dx 1 * dx 1))) ∧ F.El m' (F.st3d st i0 j0 k0 i1 j1 k1 sgcw) [4, i, j, k] (-(beta / (dx 1 * dx 1))) ∧ F.El m' (F.st3d st i0 j0 k0 i1 j1 k1 sgcw) [5, i, j, k] (-(beta / (dx 2 * dx 2))) ∧ F.El m' (F.st3d st i0 j0 k0 i1 j1 k1 sgcw) [6, i, j, k] (-(beta / (dx 2 * dx 2)))) := by
  have P0 : F.Part (T := T) [] [(F.st3d st i0 j0 k0 i1 j1 k1 sgcw)] (F.nestL [(.K, k0, k1), (.J, j0, j1), (.I, i0, i1)] (fun _ => 0) fun p => [((F.st3d st i0 j0 k0 i1 j1 k1 sgcw), [1, p .I, p .J, p .K], F.Expr.const (-(beta / (dx 0 * dx 0)))), ((F.st3d st i0 j0 k0 i1 j1 k1 sgcw), [2, p .I, p .J, p .K], F.Expr.const (-(beta / (dx 0 * dx 0)))), ((F.st3d st i0 j0 k0 i1 j1 k1 sgcw), [3, p .I, p .J, p .K], F.Expr.const (-(beta / (dx 1 * dx 1)))), ((F.st3d st i0 j0 k0 i1 j1 k1 sgcw), [4, p .I, p .J, p .K], F.Expr.const (-(beta / (dx 1 * dx 1)))), ((F.st3d st i0 j0 k0 i1 j1 k1 sgcw), [5, p .I, p .J, p .K], F.Expr.const (-(beta / (dx 2 * dx 2)))), ((F.st3d st i0 j0 k0 i1 j1 k1 sgcw), [6, p .I, p .J, p .K], F.Expr.const (-(beta / (dx 2 * dx 2))))]) := by part_tac
  obtain ⟨m', g1, g2, g3, g4⟩ := P0.run (c := F.cellpoissonoffdiag3d i0 j0 k0 i1 j1 k1 dx beta sgcw st) (by rw [← F.nest_seqn]; rfl) h
  exact ⟨m', g1, g2, g3, fun i j k h0 h1 h2 h3 h4 h5 => ⟨g4 _ (F.mem_nestL (p := (pt3 i j k)) (by nodups) (by in_nest) (by pt_else) List.mem_cons_self), g4 _ (F.mem_nestL (p := (pt3 i j k)) (by nodups) (by in_nest) (by pt_else) (List.mem_cons_of_mem _ List.mem_cons_self)), g4 _ (F.mem_nestL (p := (pt3 i j k)) (by nodups) (by in_nest) (by pt_else) (List.mem_cons_of_mem _ (List.mem_cons_of_mem _ List.mem_cons_self))), g4 _ (F.mem_nestL (p := (pt3 i j k)) (by nodups) (by in_nest) (by pt_else) (List.mem_cons_of_mem _ (List.mem_cons_of_mem _ (List.mem_cons_of_mem _ List.mem_cons_self)))), g4 _ (F.mem_nestL (p := (pt3 i j k)) (by nodups) (by in_nest) (by pt_else) (List.mem_cons_of_mem _ (List.mem_cons_of_mem _ (List.mem_cons_of_mem _ (List.mem_cons_of_mem _ List.mem_cons_self))))), g4 _ (F.mem_nestL (p := (pt3 i j k)) (by nodups) (by in_nest) (by pt_else) (List.mem_cons_of_mem _ (List.mem_cons_of_mem _ (List.mem_cons_of_mem _ (List.mem_cons_of_mem _ (List.mem_cons_of_mem _ List.mem_cons_self))))))⟩⟩

theorem v1diag3_run {i0 j0 k0 i1 j1 k1 ai0 aj0 ak0 ai1 aj1 ak1 sgcw : Int} {alpha : T} {a st : Ptr} {m : Mem T} (hi : i0 ≤ i1) (hj : j0 ≤ j1) (hk : k0 ≤ k1) (hg : 0 ≤ sgcw) (hai : ai0 ≤ i0 ∧ i1 ≤ ai1) (haj : aj0 ≤ j0 ∧ j1 ≤ aj1) (hak : ak0 ≤ k0 ∧ k1 ≤ ak1)
    (h : F.Args m [(F.cell3d a ai0 aj0 ak0 ai1 aj1 ak1 0)] [(F.st3d st i0 j0 k0 i1 j1 k1 sgcw)]) :
    ∃ m', F.celldiffusionv1diag3d i0 j0 k0 i1 j1 k1 ai0 aj0 ak0 ai1 aj1 ak1 alpha a sgcw st m = .ok m' ∧ F.celldiffusionv1diag3d i0 j0 k0 i1 j1 k1 ai0 aj0 ak0 ai1 aj1 ak1 alpha a sgcw st m' = .ok m' ∧ F.Kept [(F.st3d st i0 j0 k0 i1 j1 k1 sgcw)] m m' ∧
      (∀ i j k, i0 ≤ i → i ≤ i1 → j0 ≤ j → j ≤ j1 → k0 ≤ k → k ≤ k1 → F.El m' (F.st3d st i0 j0 k0 i1 j1 k1 sgcw) [0, i, j, k] (-(F.rd m (F.st3d st i0 j0 k0 i1 j1 k1 sgcw) [1, i, j, k] + F.rd m (F.st3d st i0 j0 k0 i1 j1 k1 sgcw) [2, i, j, k] + F.rd m (F.st3d st i0 j0 k0 i1 j1 k1 sgcw) [3, i, j, k] + F.rd m (F.st3d st i0 j0 k0 i1 j1 k1 sgcw) [4, i, j, k] + F.rd m (F.st3d st i0 j0 k0 i1 j1 k1 sgcw) [5, i, j, k] + F.rd m (F.st3d st i0 j0 k0 i1 j1 k1 sgcw) [6, i, j, k]) + alpha * F.rd m (F.cell3d a ai0 aj0 ak0 ai1 aj1 ak1 0) [i, j, k])) ∧
      (∀ i j k e, i0 ≤ i → i ≤ i1 → j0 ≤ j → j ≤ j1 → k0 ≤ k → k ≤ k1 → 1 ≤ e → e ≤ 6 → F.rd m' (F.st3d st i0 j0 k0 i1 j1 k1 sgcw) [e, i, j, k] = F.rd m (F.st3d st i0 j0 k0 i1 j1 k1 sgcw) [e, i, j, k]) := by
  have P0 : F.Part (T := T) [(F.cell3d a ai0 aj0 ak0 ai1 aj1 ak1 0)] [(F.st3d st i0 j0 k0 i1 j1 k1 sgcw)] (F.nestL [(.K, k0, k1), (.J, j0, j1), (.I, i0, i1)] (fun _ => 0) fun p => [((F.st3d st i0 j0 k0 i1 j1 k1 sgcw), [0, p .I, p .J, p .K], -(F.Expr.ref (F.st3d st i0 j0 k0 i1 j1 k1 sgcw) [1, p .I, p .J, p .K] + F.Expr.ref (F.st3d st i0 j0 k0 i1 j1 k1 sgcw) [2, p .I, p .J, p .K] + F.Expr.ref (F.st3d st i0 j0 k0 i1 j1 k1 sgcw) [3, p .I, p .J, p .K] + F.Expr.ref (F.st3d st i0 j0 k0 i1 j1 k1 sgcw) [4, p .I, p .J, p .K] + F.Expr.ref (F.st3d st i0 j0 k0 i1 j1 k1 sgcw) [5, p .I, p .J, p .K] + F.Expr.ref (F.st3d st i0 j0 k0 i1 j1 k1 sgcw) [6, p .I, p .J, p .K]) + F.Expr.const (alpha) * F.Expr.ref (F.cell3d a ai0 aj0 ak0 ai1 aj1 ak1 0) [p .I, p .J, p .K])]) := by part_tac
  obtain ⟨m', g1, hw⟩ := (P0.indep h).run
  have hc : (F.celldiffusionv1diag3d i0 j0 k0 i1 j1 k1 ai0 aj0 ak0 ai1 aj1 ak1 alpha a sgcw st : F.Cmd T) = F.seqn (F.nestL [(.K, k0, k1), (.J, j0, j1), (.I, i0, i1)] (fun _ => 0) fun p => [((F.st3d st i0 j0 k0 i1 j1 k1 sgcw), [0, p .I, p .J, p .K], -(F.Expr.ref (F.st3d st i0 j0 k0 i1 j1 k1 sgcw) [1, p .I, p .J, p .K] + F.Expr.ref (F.st3d st i0 j0 k0 i1 j1 k1 sgcw) [2, p .I, p .J, p .K] + F.Expr.ref (F.st3d st i0 j0 k0 i1 j1 k1 sgcw) [3, p .I, p .J, p .K] + F.Expr.ref (F.st3d st i0 j0 k0 i1 j1 k1 sgcw) [4, p .I, p .J, p .K] + F.Expr.ref (F.st3d st i0 j0 k0 i1 j1 k1 sgcw) [5, p .I, p .J, p .K] + F.Expr.ref (F.st3d st i0 j0 k0 i1 j1 k1 sgcw) [6, p .I, p .J, p .K]) + F.Expr.const (alpha) * F.Expr.ref (F.cell3d a ai0 aj0 ak0 ai1 aj1 ak1 0) [p .I, p .J, p .K])]) := by rw [← F.nest_seqn1]; rfl
  refine ⟨m', by rw [hc]; exact g1, by rw [hc]; exact (P0.indep h).again hw, P0.kept hw,
    fun i j k h0 h1 h2 h3 h4 h5 => hw.el _ (F.mem_nestL (p := (pt3 i j k)) (by nodups) (by in_nest) (by pt_else) List.mem_cons_self), fun i j k e h0 h1 h2 h3 h4 h5 e1 e2 => ?_⟩
  exact entry_kept hw (by entry_tac) (by in_bounds)

theorem v2diag3_run {i0 j0 k0 i1 j1 k1 sgcw : Int} {alpha : T} {st : Ptr} {m : Mem T} (hi : i0 ≤ i1) (hj : j0 ≤ j1) (hk : k0 ≤ k1) (hg : 0 ≤ sgcw)
    (h : F.Args m [] [(F.st3d st i0 j0 k0 i1 j1 k1 sgcw)]) :
    ∃ m', F.celldiffusionv2diag3d i0 j0 k0 i1 j1 k1 alpha sgcw st m = .ok m' ∧ F.celldiffusionv2diag3d i0 j0 k0 i1 j1 k1 alpha sgcw st m' = .ok m' ∧ F.Kept [(F.st3d st i0 j0 k0 i1 j1 k1 sgcw)] m m' ∧
      (∀ i j k, i0 ≤ i → i ≤ i1 → j0 ≤ j → j ≤ j1 → k0 ≤ k → k ≤ k1 → F.El m' (F.st3d st i0 j0 k0 i1 j1 k1 sgcw) [0, i, j, k] (-(F.rd m (F.st3d st i0 j0 k0 i1 j1 k1 sgcw) [1, i, j, k] + F.rd m (F.st3d st i0 j0 k0 i1 j1 k1 sgcw) [2, i, j, k] + F.rd m (F.st3d st i0 j0 k0 i1 j1 k1 sgcw) [3, i, j, k] + F.rd m (F.st3d st i0 j0 k0 i1 j1 k1 sgcw) [4, i, j, k] + F.rd m (F.st3d st i0 j0 k0 i1 j1 k1 sgcw) [5, i, j, k] + F.rd m (F.st3d st i0 j0 k0 i1 j1 k1 sgcw) [6, i, j, k]) + alpha)) ∧
      (∀ i j k e, i0 ≤ i → i ≤ i1 → j0 ≤ j → j ≤ j1 → k0 ≤ k → k ≤ k1 → 1 ≤ e → e ≤ 6 → F.rd m' (F.st3d st i0 j0 k0 i1 j1 k1 sgcw) [e, i, j, k] = F.rd m (F.st3d st i0 j0 k0 i1 j1 k1 sgcw) [e, i, j, k]) := by
  have P0 : F.Part (T := T) [] [(F.st3d st i0 j0 k0 i1 j1 k1 sgcw)] (F.nestL [(.K, k0, k1), (.J, j0, j1), (.I, i0, i1)] (fun _ => 0) fun p => [((F.st3d st i0 j0 k0 i1 j1 k1 sgcw), [0, p .I, p .J, p .K], -(F.Expr.ref (F.st3d st i0 j0 k0 i1 j1 k1 sgcw) [1, p .I, p .J, p .K] + F.Expr.ref (F.st3d st i0 j0 k0 i1 j1 k1 sgcw) [2, p .I, p .J, p .K] + F.Expr.ref (F.st3d st i0 j0 k0 i1 j1 k1 sgcw) [3, p .I, p .J, p .K] + F.Expr.ref (F.st3d st i0 j0 k0 i1 j1 k1 sgcw) [4, p .I, p .J, p .K] + F.Expr.ref (F.st3d st i0 j0 k0 i1 j1 k1 sgcw) [5, p .I, p .J, p .K] + F.Expr.ref (F.st3d st i0 j0 k0 i1 j1 k1 sgcw) [6, p .I, p .J, p .K]) + F.Expr.const (alpha))]) := by part_tac
  obtain ⟨m', g1, hw⟩ := (P0.indep h).run
  have hc : (F.celldiffusionv2diag3d i0 j0 k0 i1 j1 k1 alpha sgcw st : F.Cmd T) = F.seqn (F.nestL [(.K, k0, k1), (.J, j0, j1), (.I, i0, i1)] (fun _ => 0) fun p => [((F.st3d st i0 j0 k0 i1 j1 k1 sgcw), [0, p .I, p .J, p .K], -(F.Expr.ref (F.st3d st i0 j0 k0 i1 j1 k1 sgcw) [1, p .I, p .J, p .K] + F.Expr.ref (F.st3d st i0 j0 k0 i1 j1 k1 sgcw) [2, p .I, p .J, p .K] + F.Expr.ref (F.st3d st i0 j0 k0 i1 j1 k1 sgcw) [3, p .I, p .J, p .K] + F.Expr.ref (F.st3d st i0 j0 k0 i1 j1 k1 sgcw) [4, p .I, p .J, p .K] + F.Expr.ref (F.st3d st i0 j0 k0 i1 j1 k1 sgcw) [5, p .I, p .J, p .K] + F.Expr.ref (F.st3d st i0 j0 k0 i1 j1 k1 sgcw) [6, p .I, p .J, p .K]) + F.Expr.const (alpha))]) := by rw [← F.nest_seqn1]; rfl
  refine ⟨m', by rw [hc]; exact g1, by rw [hc]; exact (P0.indep h).again hw, P0.kept hw,
    fun i j k h0 h1 h2 h3 h4 h5 => hw.el _ (F.mem_nestL (p := (pt3 i j k)) (by nodups) (by in_nest) (by pt_else) List.mem_cons_self), fun i j k e h0 h1 h2 h3 h4 h5 e1 e2 => ?_⟩
  exact entry_kept hw (by entry_tac) (by in_bounds)

theorem pdiag3_run {i0 j0 k0 i1 j1 k1 sgcw : Int} {st : Ptr} {m : Mem T} (hi : i0 ≤ i1) (hj : j0 ≤ j1) (hk : k0 ≤ k1) (hg : 0 ≤ sgcw)
    (h : F.Args m [] [(F.st3d st i0 j0 k0 i1 j1 k1 sgcw)]) :
    ∃ m', F.cellpoissondiag3d i0 j0 k0 i1 j1 k1 sgcw st m = .ok m' ∧ F.cellpoissondiag3d i0 j0 k0 i1 j1 k1 sgcw st m' = .ok m' ∧ F.Kept [(F.st3d st i0 j0 k0 i1 j1 k1 sgcw)] m m' ∧
      (∀ i j k, i0 ≤ i → i ≤ i1 → j0 ≤ j → j ≤ j1 → k0 ≤ k → k ≤ k1 → F.El m' (F.st3d st i0 j0 k0 i1 j1 k1 sgcw) [0, i, j, k] (-(F.rd m (F.st3d st i0 j0 k0 i1 j1 k1 sgcw) [1, i, j, k] + F.rd m (F.st3d st i0 j0 k0 i1 j1 k1 sgcw) [2, i, j, k] + F.rd m (F.st3d st i0 j0 k0 i1 j1 k1 sgcw) [3, i, j, k] + F.rd m (F.st3d st i0 j0 k0 i1 j1 k1 sgcw) [4, i, j, k] + F.rd m (F.st3d st i0 j0 k0 i1 j1 k1 sgcw) [5, i, j, k] + F.rd m (F.st3d st i0 j0 k0 i1 j1 k1 sgcw) [6, i, j, k]))) ∧
      (∀ i j k e, i0 ≤ i → i ≤ i1 → j0 ≤ j → j ≤ j1 → k0 ≤ k → k ≤ k1 → 1 ≤ e → e ≤ 6 → F.rd m' (F.st3d st i0 j0 k0 i1 j1 k1 sgcw) [e, i, j, k] = F.rd m (F.st3d st i0 j0 k0 i1 j1 k1 sgcw) [e, i, j, k]) := by
  have P0 : F.Part (T := T) [] [(F.st3d st i0 j0 k0 i1 j1 k1 sgcw)] (F.nestL [(.K, k0, k1), (.J, j0, j1), (.I, i0, i1)] (fun _ => 0) fun p => [((F.st3d st i0 j0 k0 i1 j1 k1 sgcw), [0, p .I, p .J, p .K], -(F.Expr.ref (F.st3d st i0 j0 k0 i1 j1 k1 sgcw) [1, p .I, p .J, p .K] + F.Expr.ref (F.st3d st i0 j0 k0 i1 j1 k1 sgcw) [2, p .I, p .J, p .K] + F.Expr.ref (F.st3d st i0 j0 k0 i1 j1 k1 sgcw) [3, p .I, p .J, p .K] + F.Expr.ref (F.st3d st i0 j0 k0 i1 j1 k1 sgcw) [4, p .I, p .J, p .K] + F.Expr.ref (F.st3d st i0 j0 k0 i1 j1 k1 sgcw) [5, p .I, p .J, p .K] + F.Expr.ref (F.st3d st i0 j0 k0 i1 j1 k1 sgcw) [6, p .I, p .J, p .K]))]) := by part_tac
  obtain ⟨m', g1, hw⟩ := (P0.indep h).run
  have hc : (F.cellpoissondiag3d i0 j0 k0 i1 j1 k1 sgcw st : F.Cmd T) = F.seqn (F.nestL [(.K, k0, k1), (.J, j0, j1), (.I, i0, i1)] (fun _ => 0) fun p => [((F.st3d st i0 j0 k0 i1 j1 k1 sgcw), [0, p .I, p .J, p .K], -(F.Expr.ref (F.st3d st i0 j0 k0 i1 j1 k1 sgcw) [1, p .I, p .J, p .K] + F.Expr.ref (F.st3d st i0 j0 k0 i1 j1 k1 sgcw) [2, p .I, p .J, p .K] + F.Expr.ref (F.st3d st i0 j0 k0 i1 j1 k1 sgcw) [3, p .I, p .J, p .K] + F.Expr.ref (F.st3d st i0 j0 k0 i1 j1 k1 sgcw) [4, p .I, p .J, p .K] + F.Expr.ref (F.st3d st i0 j0 k0 i1 j1 k1 sgcw) [5, p .I, p .J, p .K] + F.Expr.ref (F.st3d st i0 j0 k0 i1 j1 k1 sgcw) [6, p .I, p .J, p .K]))]) := by rw [← F.nest_seqn1]; rfl
  refine ⟨m', by rw [hc]; exact g1, by rw [hc]; exact (P0.indep h).again hw, P0.kept hw,
    fun i j k h0 h1 h2 h3 h4 h5 => hw.el _ (F.mem_nestL (p := (pt3 i j k)) (by nodups) (by in_nest) (by pt_else) List.mem_cons_self), fun i j k e h0 h1 h2 h3 h4 h5 e1 e2 => ?_⟩
  exact entry_kept hw (by entry_tac) (by in_bounds)

end Verif
