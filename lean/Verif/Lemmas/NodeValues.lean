import Verif.Lemmas.KernelValues
import Verif.Lemmas.DotKernel
import Verif.Spec.Filled
import Verif.Spec.Kernels.Node

/-
What the Fortran operator, residual and node operator routines leave, as one update of the result array.
-/

namespace Verif
open Spec

set_option linter.unusedVariables false
set_option linter.unusedSimpArgs false
set_option linter.unusedTactic false
set_option linter.unreachableTactic false

namespace F

/-- a memory is determined by the update -/
theorem Filled.eq {T : Type} {a : Arr} {b : List (Int × Int)} {v w : List Int → T} {m m1 m2 : Mem T} (h1 : Filled a b v m m1) (h2 : Filled a b w m m2)
    (hv : ∀ p, InBounds b p → v p = w p) : m1 = m2 := by
  have e : m1.val = m2.val := by
    funext q
    by_cases hq : ∃ p, InBounds b p ∧ a.ptr.add (colMajor a.dims p) = q
    · obtain ⟨p, hp, rfl⟩ := hq
      rw [(h1.el p hp).2, (h2.el p hp).2, hv p hp]
    · rw [h1.other q fun p hp e => hq ⟨p, hp, e⟩, h2.other q fun p hp e => hq ⟨p, hp, e⟩]
  cases m1; cases m2
  simp only at e
  rw [Mem.mk.injEq]
  exact ⟨e, h1.ints.trans h2.ints.symm⟩

theorem Filled.congr {T : Type} {a : Arr} {b : List (Int × Int)} {v w : List Int → T} {m m' : Mem T} (h : Filled a b v m m')
    (hv : ∀ p, InBounds b p → v p = w p) : Filled a b w m m' :=
  ⟨fun p hp => hv p hp ▸ h.el p hp, h.other, h.ints⟩

variable {T : Type} [Zero T] [Add T] [Sub T] [Mul T] [Div T] [Neg T]

/-- a loop nest of single assignments to the elements of a box -/
theorem Part.filled {ins : List Arr} {out : Arr} {r : List (Dim × Int × Int)} {p0 : Pt} {is : Pt → List Int} {e : Pt → Expr T} {c : Cmd T} {m : Mem T}
    {b : List (Int × Int)} {v : List Int → T} (h : Part ins [out] (nestL r p0 fun p => [(out, is p, e p)])) (hn : (r.map (·.1)).Nodup)
    (hc : c = seqn (nestL r p0 fun p => [(out, is p, e p)])) (hm : Args m ins [out])
    (hb : ∀ p, InBounds b p → ∃ x : Pt, (∀ y ∈ r, y.2.1 ≤ x y.1 ∧ x y.1 ≤ y.2.2) ∧ (∀ d, d ∉ r.map (·.1) → x d = p0 d) ∧ is x = p ∧ (e x).evalT m = v p)
    (hx : ∀ x : Pt, (∀ y ∈ r, y.2.1 ≤ x y.1 ∧ x y.1 ≤ y.2.2) → InBounds b (is x)) : ∃ m', c m = .ok m' ∧ Filled out b v m m' := by
  subst hc
  obtain ⟨m', g, hw⟩ := (h.indep hm).run
  refine ⟨m', g, fun p hp => ?_, fun q hq => ?_, hw.ints⟩
  · obtain ⟨x, h1, h2, rfl, h4⟩ := hb p hp
    rw [← h4]
    exact hw.el (out, is x, e x) (mem_nestL hn h1 h2 List.mem_cons_self)
  · refine hw.frame q fun y hy => ?_
    obtain ⟨x, hx', hy⟩ := List.mem_flatMap.1 hy
    rw [List.mem_singleton] at hy
    subst hy
    exact hq _ (hx x ((mem_nestPts hn).1 hx').1)

/-- two lists of assignments with the same targets and values -/
theorem Indep.same {m : Mem T} {L L' : List (Asg T)} (h : Indep m L) (h' : Indep m L')
    (e : ∀ x ∈ L, ∃ y ∈ L', y.1.addrT y.2.1 = x.1.addrT x.2.1 ∧ y.2.2.evalT m = x.2.2.evalT m)
    (e' : ∀ y ∈ L', ∃ x ∈ L, x.1.addrT x.2.1 = y.1.addrT y.2.1) : ∃ m', seqn L m = .ok m' ∧ seqn L' m = .ok m' := by
  obtain ⟨m1, g1, w1⟩ := h.run
  obtain ⟨m2, g2, w2⟩ := h'.run
  have hv : m1.val = m2.val := by
    funext q
    by_cases hq : ∃ x ∈ L, x.1.addrT x.2.1 = q
    · obtain ⟨x, hx, rfl⟩ := hq
      obtain ⟨y, hy, a, b⟩ := e x hx
      have k1 := (w1.el x hx).2
      have k2 := (w2.el y hy).2
      unfold Arr.addrT at a ⊢
      rw [k1, ← a, k2, b]
    · rw [w1.frame q fun x hx he => hq ⟨x, hx, he⟩, w2.frame q fun y hy he => ?_]
      obtain ⟨x, hx, a⟩ := e' y hy
      exact hq ⟨x, hx, a.trans he⟩
  have : m1 = m2 := by
    have hi := w1.ints.trans w2.ints.symm
    cases m1; cases m2
    simp only at hv hi
    rw [hv, hi]
  exact ⟨m1, g1, this ▸ g2⟩

theorem sub_inv {e f : Expr T} {m : Mem T} {v : T} (h : (Expr.sub e f).eval m = .ok v) : (∃ x, e.eval m = .ok x) ∧ ∃ y, f.eval m = .ok y := by
  rw [Expr.eval] at h
  obtain ⟨x, h1, h⟩ := Verif.bind_inv h
  obtain ⟨y, h2, -⟩ := Verif.bind_inv h
  exact ⟨⟨x, h1⟩, y, h2⟩

theorem div_inv {e f : Expr T} {m : Mem T} {v : T} (h : (Expr.div e f).eval m = .ok v) : (∃ x, e.eval m = .ok x) ∧ ∃ y, f.eval m = .ok y := by
  rw [Expr.eval] at h
  obtain ⟨x, h1, h⟩ := Verif.bind_inv h
  obtain ⟨y, h2, -⟩ := Verif.bind_inv h
  exact ⟨⟨x, h1⟩, y, h2⟩

theorem neg_inv {e : Expr T} {m : Mem T} {v : T} (h : (Expr.neg e).eval m = .ok v) : ∃ x, e.eval m = .ok x := by
  rw [Expr.eval] at h
  obtain ⟨x, h1, -⟩ := Verif.bind_inv h
  exact ⟨x, h1⟩

end F

section
variable {T : Type} [Zero T] [Add T] [Sub T] [Mul T] [Div T] [Neg T]

/-- the operator at a cell, from the fluxes through its faces and the term without derivatives -/
def F.lu1 (m : Mem T) (beta : T) (dx : Nat → T) (f0 : F.Arr) (z : List Int → T) : List Int → T
  | [i] => -(beta * ((F.rd m f0 [i + 1] - F.rd m f0 [i]) / dx 0)) + z [i]
  | _ => 0

def F.lu2 (m : Mem T) (beta : T) (dx : Nat → T) (f0 f1 : F.Arr) (z : List Int → T) : List Int → T
  | [i, j] => -(beta * ((F.rd m f0 [i + 1, j] - F.rd m f0 [i, j]) / dx 0 + (F.rd m f1 [j + 1, i] - F.rd m f1 [j, i]) / dx 1)) + z [i, j]
  | _ => 0

def F.lu3 (m : Mem T) (beta : T) (dx : Nat → T) (f0 f1 f2 : F.Arr) (z : List Int → T) : List Int → T
  | [i, j, k] => -(beta * ((F.rd m f0 [i + 1, j, k] - F.rd m f0 [i, j, k]) / dx 0 + (F.rd m f1 [j + 1, k, i] - F.rd m f1 [j, k, i]) / dx 1 +
      (F.rd m f2 [k + 1, i, j] - F.rd m f2 [k, i, j]) / dx 2)) + z [i, j, k]
  | _ => 0

end

macro "fill_val" : tactic => `(tactic| (
  simp only [F.mul_def, F.sub_def, F.div_def, F.add_def, F.neg_def, F.Expr.evalT, F.lu1, F.lu2, F.lu3, F.rd, pt1, pt2, pt3, Dim.I, Dim.J, Dim.K, if_true, if_false,
    reduceIte, Nat.reduceEqDiff, add_zero]))

macro "fill_in" h:ident : tactic => `(tactic| (
  revert $h
  simp only [List.mem_cons, List.not_mem_nil, or_false, forall_eq_or_imp, forall_eq, F.InBounds, and_true]
  omega))

macro "fill_at1" p:ident h:ident : tactic => `(tactic| (
  match $p:ident, $h:ident with
  | [i], hq =>
    simp only [F.InBounds, and_true] at hq
    exact ⟨pt1 i, by in_nest, by pt_else, rfl, by fill_val⟩))

macro "fill_at2" p:ident h:ident : tactic => `(tactic| (
  match $p:ident, $h:ident with
  | [i, j], hq =>
    simp only [F.InBounds, and_true] at hq
    exact ⟨pt2 i j, by in_nest, by pt_else, rfl, by fill_val⟩))

macro "fill_at3" p:ident h:ident : tactic => `(tactic| (
  match $p:ident, $h:ident with
  | [i, j, k], hq =>
    simp only [F.InBounds, and_true] at hq
    exact ⟨pt3 i j k, by in_nest, by pt_else, rfl, by fill_val⟩))

section
variable {T : Type} [Field T]

theorem apply_v1_1_filled {i0 i1 agcw ugcw rgcw : Int} {alpha beta : T} {dx : Nat → T} {a u f0 res : Ptr} {m : Mem T} (hi : i0 ≤ i1) (hagcw : 0 ≤ agcw) (hugcw : 0 ≤ ugcw) (hrgcw : 0 ≤ rgcw)
    (h : F.Args m [(F.cell1d a i0 i1 agcw), (F.cell1d u i0 i1 ugcw), (F.face1d f0 i0 i1 0)] [(F.cell1d res i0 i1 rgcw)]) :
    ∃ m', F.celldiffusionv1apply1d i0 i1 alpha beta dx agcw a ugcw u f0 rgcw res m = .ok m' ∧ F.Filled (F.cell1d res i0 i1 rgcw) [(i0, i1)] (F.lu1 m beta dx (F.face1d f0 i0 i1 0) (fun p => alpha * F.rd m (F.cell1d a i0 i1 agcw) p * F.rd m (F.cell1d u i0 i1 ugcw) p)) m m' := by
  have P0 : F.Part (T := T) [(F.cell1d a i0 i1 agcw), (F.cell1d u i0 i1 ugcw), (F.face1d f0 i0 i1 0)] [(F.cell1d res i0 i1 rgcw)] (F.nestL [(.I, i0, i1)] (fun _ => 0) fun p => [((F.cell1d res i0 i1 rgcw), [p .I], -(F.Expr.const beta * ((F.Expr.ref (F.face1d f0 i0 i1 0) [p .I + 1] - F.Expr.ref (F.face1d f0 i0 i1 0) [p .I]) / F.Expr.const (dx 0))) + F.Expr.const alpha * F.Expr.ref (F.cell1d a i0 i1 agcw) [p .I] * F.Expr.ref (F.cell1d u i0 i1 ugcw) [p .I])]) := by part_tac
  refine P0.filled (c := F.celldiffusionv1apply1d i0 i1 alpha beta dx agcw a ugcw u f0 rgcw res) (by nodups) (by rw [← F.nest_seqn1]; rfl) h (fun p hp => ?_) (fun x hx => ?_)
  · fill_at1 p hp
  · fill_in hx

theorem res_v1_1_filled {i0 i1 agcw ugcw fgcw rgcw : Int} {alpha beta : T} {dx : Nat → T} {a u f f0 res : Ptr} {m : Mem T} (hi : i0 ≤ i1) (hagcw : 0 ≤ agcw) (hugcw : 0 ≤ ugcw) (hfgcw : 0 ≤ fgcw) (hrgcw : 0 ≤ rgcw)
    (h : F.Args m [(F.cell1d a i0 i1 agcw), (F.cell1d u i0 i1 ugcw), (F.cell1d f i0 i1 fgcw), (F.face1d f0 i0 i1 0)] [(F.cell1d res i0 i1 rgcw)]) :
    ∃ m', F.celldiffusionv1res1d i0 i1 alpha beta dx agcw a ugcw u fgcw f f0 rgcw res m = .ok m' ∧ F.Filled (F.cell1d res i0 i1 rgcw) [(i0, i1)] (fun p => F.rd m (F.cell1d f i0 i1 fgcw) p - F.lu1 m beta dx (F.face1d f0 i0 i1 0) (fun p => alpha * F.rd m (F.cell1d a i0 i1 agcw) p * F.rd m (F.cell1d u i0 i1 ugcw) p) p) m m' := by
  have P0 : F.Part (T := T) [(F.cell1d a i0 i1 agcw), (F.cell1d u i0 i1 ugcw), (F.cell1d f i0 i1 fgcw), (F.face1d f0 i0 i1 0)] [(F.cell1d res i0 i1 rgcw)] (F.nestL [(.I, i0, i1)] (fun _ => 0) fun p => [((F.cell1d res i0 i1 rgcw), [p .I], F.Expr.ref (F.cell1d f i0 i1 fgcw) [p .I] - (-(F.Expr.const beta * ((F.Expr.ref (F.face1d f0 i0 i1 0) [p .I + 1] - F.Expr.ref (F.face1d f0 i0 i1 0) [p .I]) / F.Expr.const (dx 0))) + F.Expr.const alpha * F.Expr.ref (F.cell1d a i0 i1 agcw) [p .I] * F.Expr.ref (F.cell1d u i0 i1 ugcw) [p .I]))]) := by part_tac
  refine P0.filled (c := F.celldiffusionv1res1d i0 i1 alpha beta dx agcw a ugcw u fgcw f f0 rgcw res) (by nodups) (by rw [← F.nest_seqn1]; rfl) h (fun p hp => ?_) (fun x hx => ?_)
  · fill_at1 p hp
  · fill_in hx

theorem node_v1_1_filled {i0 i1 agcw ugcw fgcw rgcw : Int} {alpha beta wa wb : T} {dx : Nat → T} {a u f f0 res : Ptr} {m : Mem T} (hi : i0 ≤ i1) (hagcw : 0 ≤ agcw) (hugcw : 0 ≤ ugcw) (hfgcw : 0 ≤ fgcw) (hrgcw : 0 ≤ rgcw)
    (h : F.Args m [(F.cell1d a i0 i1 agcw), (F.cell1d u i0 i1 ugcw), (F.cell1d f i0 i1 fgcw), (F.face1d f0 i0 i1 0)] [(F.cell1d res i0 i1 rgcw)]) :
    ∃ m', F.nodediffusionv1apply1d i0 i1 alpha beta dx agcw a ugcw u fgcw f f0 wa wb rgcw res m = .ok m' ∧ F.Filled (F.cell1d res i0 i1 rgcw) [(i0, i1)] (fun p => wb * F.rd m (F.cell1d f i0 i1 fgcw) p + wa * F.lu1 m beta dx (F.face1d f0 i0 i1 0) (fun p => alpha * F.rd m (F.cell1d a i0 i1 agcw) p * F.rd m (F.cell1d u i0 i1 ugcw) p) p) m m' := by
  have P0 : F.Part (T := T) [(F.cell1d a i0 i1 agcw), (F.cell1d u i0 i1 ugcw), (F.cell1d f i0 i1 fgcw), (F.face1d f0 i0 i1 0)] [(F.cell1d res i0 i1 rgcw)] (F.nestL [(.I, i0, i1)] (fun _ => 0) fun p => [((F.cell1d res i0 i1 rgcw), [p .I], F.Expr.const wb * F.Expr.ref (F.cell1d f i0 i1 fgcw) [p .I] + F.Expr.const wa * (-(F.Expr.const beta * ((F.Expr.ref (F.face1d f0 i0 i1 0) [p .I + 1] - F.Expr.ref (F.face1d f0 i0 i1 0) [p .I]) / F.Expr.const (dx 0))) + F.Expr.const alpha * F.Expr.ref (F.cell1d a i0 i1 agcw) [p .I] * F.Expr.ref (F.cell1d u i0 i1 ugcw) [p .I]))]) := by part_tac
  refine P0.filled (c := F.nodediffusionv1apply1d i0 i1 alpha beta dx agcw a ugcw u fgcw f f0 wa wb rgcw res) (by nodups) (by rw [← F.nest_seqn1]; rfl) h (fun p hp => ?_) (fun x hx => ?_)
  · fill_at1 p hp
  · fill_in hx

theorem apply_v2_1_filled {i0 i1 ugcw rgcw : Int} {alpha beta : T} {dx : Nat → T} {u f0 res : Ptr} {m : Mem T} (hi : i0 ≤ i1) (hugcw : 0 ≤ ugcw) (hrgcw : 0 ≤ rgcw)
    (h : F.Args m [(F.cell1d u i0 i1 ugcw), (F.face1d f0 i0 i1 0)] [(F.cell1d res i0 i1 rgcw)]) :
    ∃ m', F.celldiffusionv2apply1d i0 i1 alpha beta dx ugcw u f0 rgcw res m = .ok m' ∧ F.Filled (F.cell1d res i0 i1 rgcw) [(i0, i1)] (F.lu1 m beta dx (F.face1d f0 i0 i1 0) (fun p => alpha * F.rd m (F.cell1d u i0 i1 ugcw) p)) m m' := by
  have P0 : F.Part (T := T) [(F.cell1d u i0 i1 ugcw), (F.face1d f0 i0 i1 0)] [(F.cell1d res i0 i1 rgcw)] (F.nestL [(.I, i0, i1)] (fun _ => 0) fun p => [((F.cell1d res i0 i1 rgcw), [p .I], -(F.Expr.const beta * ((F.Expr.ref (F.face1d f0 i0 i1 0) [p .I + 1] - F.Expr.ref (F.face1d f0 i0 i1 0) [p .I]) / F.Expr.const (dx 0))) + F.Expr.const alpha * F.Expr.ref (F.cell1d u i0 i1 ugcw) [p .I])]) := by part_tac
  refine P0.filled (c := F.celldiffusionv2apply1d i0 i1 alpha beta dx ugcw u f0 rgcw res) (by nodups) (by rw [← F.nest_seqn1]; rfl) h (fun p hp => ?_) (fun x hx => ?_)
  · fill_at1 p hp
  · fill_in hx

theorem res_v2_1_filled {i0 i1 ugcw fgcw rgcw : Int} {alpha beta : T} {dx : Nat → T} {u f f0 res : Ptr} {m : Mem T} (hi : i0 ≤ i1) (hugcw : 0 ≤ ugcw) (hfgcw : 0 ≤ fgcw) (hrgcw : 0 ≤ rgcw)
    (h : F.Args m [(F.cell1d u i0 i1 ugcw), (F.cell1d f i0 i1 fgcw), (F.face1d f0 i0 i1 0)] [(F.cell1d res i0 i1 rgcw)]) :
    ∃ m', F.celldiffusionv2res1d i0 i1 alpha beta dx ugcw u fgcw f f0 rgcw res m = .ok m' ∧ F.Filled (F.cell1d res i0 i1 rgcw) [(i0, i1)] (fun p => F.rd m (F.cell1d f i0 i1 fgcw) p - F.lu1 m beta dx (F.face1d f0 i0 i1 0) (fun p => alpha * F.rd m (F.cell1d u i0 i1 ugcw) p) p) m m' := by
  have P0 : F.Part (T := T) [(F.cell1d u i0 i1 ugcw), (F.cell1d f i0 i1 fgcw), (F.face1d f0 i0 i1 0)] [(F.cell1d res i0 i1 rgcw)] (F.nestL [(.I, i0, i1)] (fun _ => 0) fun p => [((F.cell1d res i0 i1 rgcw), [p .I], F.Expr.ref (F.cell1d f i0 i1 fgcw) [p .I] - (-(F.Expr.const beta * ((F.Expr.ref (F.face1d f0 i0 i1 0) [p .I + 1] - F.Expr.ref (F.face1d f0 i0 i1 0) [p .I]) / F.Expr.const (dx 0))) + F.Expr.const alpha * F.Expr.ref (F.cell1d u i0 i1 ugcw) [p .I]))]) := by part_tac
  refine P0.filled (c := F.celldiffusionv2res1d i0 i1 alpha beta dx ugcw u fgcw f f0 rgcw res) (by nodups) (by rw [← F.nest_seqn1]; rfl) h (fun p hp => ?_) (fun x hx => ?_)
  · fill_at1 p hp
  · fill_in hx

theorem node_v2_1_filled {i0 i1 ugcw fgcw rgcw : Int} {alpha beta wa wb : T} {dx : Nat → T} {u f f0 res : Ptr} {m : Mem T} (hi : i0 ≤ i1) (hugcw : 0 ≤ ugcw) (hfgcw : 0 ≤ fgcw) (hrgcw : 0 ≤ rgcw)
    (h : F.Args m [(F.cell1d u i0 i1 ugcw), (F.cell1d f i0 i1 fgcw), (F.face1d f0 i0 i1 0)] [(F.cell1d res i0 i1 rgcw)]) :
    ∃ m', F.nodediffusionv2apply1d i0 i1 alpha beta dx ugcw u fgcw f f0 wa wb rgcw res m = .ok m' ∧ F.Filled (F.cell1d res i0 i1 rgcw) [(i0, i1)] (fun p => wb * F.rd m (F.cell1d f i0 i1 fgcw) p + wa * F.lu1 m beta dx (F.face1d f0 i0 i1 0) (fun p => alpha * F.rd m (F.cell1d u i0 i1 ugcw) p) p) m m' := by
  have P0 : F.Part (T := T) [(F.cell1d u i0 i1 ugcw), (F.cell1d f i0 i1 fgcw), (F.face1d f0 i0 i1 0)] [(F.cell1d res i0 i1 rgcw)] (F.nestL [(.I, i0, i1)] (fun _ => 0) fun p => [((F.cell1d res i0 i1 rgcw), [p .I], F.Expr.const wb * F.Expr.ref (F.cell1d f i0 i1 fgcw) [p .I] + F.Expr.const wa * (-(F.Expr.const beta * ((F.Expr.ref (F.face1d f0 i0 i1 0) [p .I + 1] - F.Expr.ref (F.face1d f0 i0 i1 0) [p .I]) / F.Expr.const (dx 0))) + F.Expr.const alpha * F.Expr.ref (F.cell1d u i0 i1 ugcw) [p .I]))]) := by part_tac
  refine P0.filled (c := F.nodediffusionv2apply1d i0 i1 alpha beta dx ugcw u fgcw f f0 wa wb rgcw res) (by nodups) (by rw [← F.nest_seqn1]; rfl) h (fun p hp => ?_) (fun x hx => ?_)
  · fill_at1 p hp
  · fill_in hx

theorem apply_p_1_filled {i0 i1 rgcw : Int} {beta : T} {dx : Nat → T} {f0 res : Ptr} {m : Mem T} (hi : i0 ≤ i1) (hrgcw : 0 ≤ rgcw)
    (h : F.Args m [(F.face1d f0 i0 i1 0)] [(F.cell1d res i0 i1 rgcw)]) :
    ∃ m', F.cellpoissonv2apply1d i0 i1 beta dx f0 rgcw res m = .ok m' ∧ F.Filled (F.cell1d res i0 i1 rgcw) [(i0, i1)] (F.lu1 m beta dx (F.face1d f0 i0 i1 0) (fun _ => 0)) m m' := by
  have P0 : F.Part (T := T) [(F.face1d f0 i0 i1 0)] [(F.cell1d res i0 i1 rgcw)] (F.nestL [(.I, i0, i1)] (fun _ => 0) fun p => [((F.cell1d res i0 i1 rgcw), [p .I], -(F.Expr.const beta * ((F.Expr.ref (F.face1d f0 i0 i1 0) [p .I + 1] - F.Expr.ref (F.face1d f0 i0 i1 0) [p .I]) / F.Expr.const (dx 0))))]) := by part_tac
  refine P0.filled (c := F.cellpoissonv2apply1d i0 i1 beta dx f0 rgcw res) (by nodups) (by rw [← F.nest_seqn1]; rfl) h (fun p hp => ?_) (fun x hx => ?_)
  · fill_at1 p hp
  · fill_in hx

theorem res_p_1_filled {i0 i1 fgcw rgcw : Int} {beta : T} {dx : Nat → T} {f f0 res : Ptr} {m : Mem T} (hi : i0 ≤ i1) (hfgcw : 0 ≤ fgcw) (hrgcw : 0 ≤ rgcw)
    (h : F.Args m [(F.cell1d f i0 i1 fgcw), (F.face1d f0 i0 i1 0)] [(F.cell1d res i0 i1 rgcw)]) :
    ∃ m', F.cellpoissonv1res1d i0 i1 beta dx fgcw f f0 rgcw res m = .ok m' ∧ F.Filled (F.cell1d res i0 i1 rgcw) [(i0, i1)] (fun p => F.rd m (F.cell1d f i0 i1 fgcw) p - F.lu1 m beta dx (F.face1d f0 i0 i1 0) (fun _ => 0) p) m m' := by
  have P0 : F.Part (T := T) [(F.cell1d f i0 i1 fgcw), (F.face1d f0 i0 i1 0)] [(F.cell1d res i0 i1 rgcw)] (F.nestL [(.I, i0, i1)] (fun _ => 0) fun p => [((F.cell1d res i0 i1 rgcw), [p .I], F.Expr.ref (F.cell1d f i0 i1 fgcw) [p .I] - (-(F.Expr.const beta * ((F.Expr.ref (F.face1d f0 i0 i1 0) [p .I + 1] - F.Expr.ref (F.face1d f0 i0 i1 0) [p .I]) / F.Expr.const (dx 0)))))]) := by part_tac
  refine P0.filled (c := F.cellpoissonv1res1d i0 i1 beta dx fgcw f f0 rgcw res) (by nodups) (by rw [← F.nest_seqn1]; rfl) h (fun p hp => ?_) (fun x hx => ?_)
  · fill_at1 p hp
  · fill_in hx

theorem node_p_1_filled {i0 i1 fgcw rgcw : Int} {beta wa wb : T} {dx : Nat → T} {f f0 res : Ptr} {m : Mem T} (hi : i0 ≤ i1) (hfgcw : 0 ≤ fgcw) (hrgcw : 0 ≤ rgcw)
    (h : F.Args m [(F.cell1d f i0 i1 fgcw), (F.face1d f0 i0 i1 0)] [(F.cell1d res i0 i1 rgcw)]) :
    ∃ m', F.nodepoissonapply1d i0 i1 beta dx fgcw f f0 wa wb rgcw res m = .ok m' ∧ F.Filled (F.cell1d res i0 i1 rgcw) [(i0, i1)] (fun p => wb * F.rd m (F.cell1d f i0 i1 fgcw) p + wa * F.lu1 m beta dx (F.face1d f0 i0 i1 0) (fun _ => 0) p) m m' := by
  have P0 : F.Part (T := T) [(F.cell1d f i0 i1 fgcw), (F.face1d f0 i0 i1 0)] [(F.cell1d res i0 i1 rgcw)] (F.nestL [(.I, i0, i1)] (fun _ => 0) fun p => [((F.cell1d res i0 i1 rgcw), [p .I], F.Expr.const wb * F.Expr.ref (F.cell1d f i0 i1 fgcw) [p .I] + F.Expr.const wa * (-(F.Expr.const beta * ((F.Expr.ref (F.face1d f0 i0 i1 0) [p .I + 1] - F.Expr.ref (F.face1d f0 i0 i1 0) [p .I]) / F.Expr.const (dx 0)))))]) := by part_tac
  refine P0.filled (c := F.nodepoissonapply1d i0 i1 beta dx fgcw f f0 wa wb rgcw res) (by nodups) (by rw [← F.nest_seqn1]; rfl) h (fun p hp => ?_) (fun x hx => ?_)
  · fill_at1 p hp
  · fill_in hx

theorem apply_v1_2_filled {i0 j0 i1 j1 agcw ugcw rgcw : Int} {alpha beta : T} {dx : Nat → T} {a u f0 f1 res : Ptr} {m : Mem T} (hi : i0 ≤ i1) (hj : j0 ≤ j1) (hagcw : 0 ≤ agcw) (hugcw : 0 ≤ ugcw) (hrgcw : 0 ≤ rgcw)
    (h : F.Args m [(F.cell2d a i0 j0 i1 j1 agcw), (F.cell2d u i0 j0 i1 j1 ugcw), (F.face2d0 f0 i0 j0 i1 j1 0), (F.face2d1 f1 i0 j0 i1 j1 0)] [(F.cell2d res i0 j0 i1 j1 rgcw)]) :
    ∃ m', F.celldiffusionv1apply2d i0 i1 j0 j1 alpha beta dx agcw a ugcw u f0 f1 rgcw res m = .ok m' ∧ F.Filled (F.cell2d res i0 j0 i1 j1 rgcw) [(i0, i1), (j0, j1)] (F.lu2 m beta dx (F.face2d0 f0 i0 j0 i1 j1 0) (F.face2d1 f1 i0 j0 i1 j1 0) (fun p => alpha * F.rd m (F.cell2d a i0 j0 i1 j1 agcw) p * F.rd m (F.cell2d u i0 j0 i1 j1 ugcw) p)) m m' := by
  have P0 : F.Part (T := T) [(F.cell2d a i0 j0 i1 j1 agcw), (F.cell2d u i0 j0 i1 j1 ugcw), (F.face2d0 f0 i0 j0 i1 j1 0), (F.face2d1 f1 i0 j0 i1 j1 0)] [(F.cell2d res i0 j0 i1 j1 rgcw)] (F.nestL [(.J, j0, j1), (.I, i0, i1)] (fun _ => 0) fun p => [((F.cell2d res i0 j0 i1 j1 rgcw), [p .I, p .J], -(F.Expr.const beta * ((F.Expr.ref (F.face2d0 f0 i0 j0 i1 j1 0) [p .I + 1, p .J] - F.Expr.ref (F.face2d0 f0 i0 j0 i1 j1 0) [p .I, p .J]) / F.Expr.const (dx 0) + (F.Expr.ref (F.face2d1 f1 i0 j0 i1 j1 0) [p .J + 1, p .I] - F.Expr.ref (F.face2d1 f1 i0 j0 i1 j1 0) [p .J, p .I]) / F.Expr.const (dx 1))) + F.Expr.const alpha * F.Expr.ref (F.cell2d a i0 j0 i1 j1 agcw) [p .I, p .J] * F.Expr.ref (F.cell2d u i0 j0 i1 j1 ugcw) [p .I, p .J])]) := by part_tac
  refine P0.filled (c := F.celldiffusionv1apply2d i0 i1 j0 j1 alpha beta dx agcw a ugcw u f0 f1 rgcw res) (by nodups) (by rw [← F.nest_seqn1]; rfl) h (fun p hp => ?_) (fun x hx => ?_)
  · fill_at2 p hp
  · fill_in hx

theorem res_v1_2_filled {i0 j0 i1 j1 agcw ugcw fgcw rgcw : Int} {alpha beta : T} {dx : Nat → T} {a u f f0 f1 res : Ptr} {m : Mem T} (hi : i0 ≤ i1) (hj : j0 ≤ j1) (hagcw : 0 ≤ agcw) (hugcw : 0 ≤ ugcw) (hfgcw : 0 ≤ fgcw) (hrgcw : 0 ≤ rgcw)
    (h : F.Args m [(F.cell2d a i0 j0 i1 j1 agcw), (F.cell2d u i0 j0 i1 j1 ugcw), (F.cell2d f i0 j0 i1 j1 fgcw), (F.face2d0 f0 i0 j0 i1 j1 0), (F.face2d1 f1 i0 j0 i1 j1 0)] [(F.cell2d res i0 j0 i1 j1 rgcw)]) :
    ∃ m', F.celldiffusionv1res2d i0 i1 j0 j1 alpha beta dx agcw a ugcw u fgcw f f0 f1 rgcw res m = .ok m' ∧ F.Filled (F.cell2d res i0 j0 i1 j1 rgcw) [(i0, i1), (j0, j1)] (fun p => F.rd m (F.cell2d f i0 j0 i1 j1 fgcw) p - F.lu2 m beta dx (F.face2d0 f0 i0 j0 i1 j1 0) (F.face2d1 f1 i0 j0 i1 j1 0) (fun p => alpha * F.rd m (F.cell2d a i0 j0 i1 j1 agcw) p * F.rd m (F.cell2d u i0 j0 i1 j1 ugcw) p) p) m m' := by
  have P0 : F.Part (T := T) [(F.cell2d a i0 j0 i1 j1 agcw), (F.cell2d u i0 j0 i1 j1 ugcw), (F.cell2d f i0 j0 i1 j1 fgcw), (F.face2d0 f0 i0 j0 i1 j1 0), (F.face2d1 f1 i0 j0 i1 j1 0)] [(F.cell2d res i0 j0 i1 j1 rgcw)] (F.nestL [(.J, j0, j1), (.I, i0, i1)] (fun _ => 0) fun p => [((F.cell2d res i0 j0 i1 j1 rgcw), [p .I, p .J], F.Expr.ref (F.cell2d f i0 j0 i1 j1 fgcw) [p .I, p .J] - (-(F.Expr.const beta * ((F.Expr.ref (F.face2d0 f0 i0 j0 i1 j1 0) [p .I + 1, p .J] - F.Expr.ref (F.face2d0 f0 i0 j0 i1 j1 0) [p .I, p .J]) / F.Expr.const (dx 0) + (F.Expr.ref (F.face2d1 f1 i0 j0 i1 j1 0) [p .J + 1, p .I] - F.Expr.ref (F.face2d1 f1 i0 j0 i1 j1 0) [p .J, p .I]) / F.Expr.const (dx 1))) + F.Expr.const alpha * F.Expr.ref (F.cell2d a i0 j0 i1 j1 agcw) [p .I, p .J] * F.Expr.ref (F.cell2d u i0 j0 i1 j1 ugcw) [p .I, p .J]))]) := by part_tac
  refine P0.filled (c := F.celldiffusionv1res2d i0 i1 j0 j1 alpha beta dx agcw a ugcw u fgcw f f0 f1 rgcw res) (by nodups) (by rw [← F.nest_seqn1]; rfl) h (fun p hp => ?_) (fun x hx => ?_)
  · fill_at2 p hp
  · fill_in hx

theorem node_v1_2_filled {i0 j0 i1 j1 agcw ugcw fgcw rgcw : Int} {alpha beta wa wb : T} {dx : Nat → T} {a u f f0 f1 res : Ptr} {m : Mem T} (hi : i0 ≤ i1) (hj : j0 ≤ j1) (hagcw : 0 ≤ agcw) (hugcw : 0 ≤ ugcw) (hfgcw : 0 ≤ fgcw) (hrgcw : 0 ≤ rgcw)
    (h : F.Args m [(F.cell2d a i0 j0 i1 j1 agcw), (F.cell2d u i0 j0 i1 j1 ugcw), (F.cell2d f i0 j0 i1 j1 fgcw), (F.face2d0 f0 i0 j0 i1 j1 0), (F.face2d1 f1 i0 j0 i1 j1 0)] [(F.cell2d res i0 j0 i1 j1 rgcw)]) :
    ∃ m', F.nodediffusionv1apply2d i0 i1 j0 j1 alpha beta dx agcw a ugcw u fgcw f f0 f1 wa wb rgcw res m = .ok m' ∧ F.Filled (F.cell2d res i0 j0 i1 j1 rgcw) [(i0, i1), (j0, j1)] (fun p => wb * F.rd m (F.cell2d f i0 j0 i1 j1 fgcw) p + wa * F.lu2 m beta dx (F.face2d0 f0 i0 j0 i1 j1 0) (F.face2d1 f1 i0 j0 i1 j1 0) (fun p => alpha * F.rd m (F.cell2d a i0 j0 i1 j1 agcw) p * F.rd m (F.cell2d u i0 j0 i1 j1 ugcw) p) p) m m' := by
  have P0 : F.Part (T := T) [(F.cell2d a i0 j0 i1 j1 agcw), (F.cell2d u i0 j0 i1 j1 ugcw), (F.cell2d f i0 j0 i1 j1 fgcw), (F.face2d0 f0 i0 j0 i1 j1 0), (F.face2d1 f1 i0 j0 i1 j1 0)] [(F.cell2d res i0 j0 i1 j1 rgcw)] (F.nestL [(.J, j0, j1), (.I, i0, i1)] (fun _ => 0) fun p => [((F.cell2d res i0 j0 i1 j1 rgcw), [p .I, p .J], F.Expr.const wb * F.Expr.ref (F.cell2d f i0 j0 i1 j1 fgcw) [p .I, p .J] + F.Expr.const wa * (-(F.Expr.const beta * ((F.Expr.ref (F.face2d0 f0 i0 j0 i1 j1 0) [p .I + 1, p .J] - F.Expr.ref (F.face2d0 f0 i0 j0 i1 j1 0) [p .I, p .J]) / F.Expr.const (dx 0) + (F.Expr.ref (F.face2d1 f1 i0 j0 i1 j1 0) [p .J + 1, p .I] - F.Expr.ref (F.face2d1 f1 i0 j0 i1 j1 0) [p .J, p .I]) / F.Expr.const (dx 1))) + F.Expr.const alpha * F.Expr.ref (F.cell2d a i0 j0 i1 j1 agcw) [p .I, p .J] * F.Expr.ref (F.cell2d u i0 j0 i1 j1 ugcw) [p .I, p .J]))]) := by part_tac
  refine P0.filled (c := F.nodediffusionv1apply2d i0 i1 j0 j1 alpha beta dx agcw a ugcw u fgcw f f0 f1 wa wb rgcw res) (by nodups) (by rw [← F.nest_seqn1]; rfl) h (fun p hp => ?_) (fun x hx => ?_)
  · fill_at2 p hp
  · fill_in hx

theorem apply_v2_2_filled {i0 j0 i1 j1 ugcw rgcw : Int} {alpha beta : T} {dx : Nat → T} {u f0 f1 res : Ptr} {m : Mem T} (hi : i0 ≤ i1) (hj : j0 ≤ j1) (hugcw : 0 ≤ ugcw) (hrgcw : 0 ≤ rgcw)
    (h : F.Args m [(F.cell2d u i0 j0 i1 j1 ugcw), (F.face2d0 f0 i0 j0 i1 j1 0), (F.face2d1 f1 i0 j0 i1 j1 0)] [(F.cell2d res i0 j0 i1 j1 rgcw)]) :
    ∃ m', F.celldiffusionv2apply2d i0 i1 j0 j1 alpha beta dx ugcw u f0 f1 rgcw res m = .ok m' ∧ F.Filled (F.cell2d res i0 j0 i1 j1 rgcw) [(i0, i1), (j0, j1)] (F.lu2 m beta dx (F.face2d0 f0 i0 j0 i1 j1 0) (F.face2d1 f1 i0 j0 i1 j1 0) (fun p => alpha * F.rd m (F.cell2d u i0 j0 i1 j1 ugcw) p)) m m' := by
  have P0 : F.Part (T := T) [(F.cell2d u i0 j0 i1 j1 ugcw), (F.face2d0 f0 i0 j0 i1 j1 0), (F.face2d1 f1 i0 j0 i1 j1 0)] [(F.cell2d res i0 j0 i1 j1 rgcw)] (F.nestL [(.J, j0, j1), (.I, i0, i1)] (fun _ => 0) fun p => [((F.cell2d res i0 j0 i1 j1 rgcw), [p .I, p .J], -(F.Expr.const beta * ((F.Expr.ref (F.face2d0 f0 i0 j0 i1 j1 0) [p .I + 1, p .J] - F.Expr.ref (F.face2d0 f0 i0 j0 i1 j1 0) [p .I, p .J]) / F.Expr.const (dx 0) + (F.Expr.ref (F.face2d1 f1 i0 j0 i1 j1 0) [p .J + 1, p .I] - F.Expr.ref (F.face2d1 f1 i0 j0 i1 j1 0) [p .J, p .I]) / F.Expr.const (dx 1))) + F.Expr.const alpha * F.Expr.ref (F.cell2d u i0 j0 i1 j1 ugcw) [p .I, p .J])]) := by part_tac
  refine P0.filled (c := F.celldiffusionv2apply2d i0 i1 j0 j1 alpha beta dx ugcw u f0 f1 rgcw res) (by nodups) (by rw [← F.nest_seqn1]; rfl) h (fun p hp => ?_) (fun x hx => ?_)
  · fill_at2 p hp
  · fill_in hx

theorem res_v2_2_filled {i0 j0 i1 j1 ugcw fgcw rgcw : Int} {alpha beta : T} {dx : Nat → T} {u f f0 f1 res : Ptr} {m : Mem T} (hi : i0 ≤ i1) (hj : j0 ≤ j1) (hugcw : 0 ≤ ugcw) (hfgcw : 0 ≤ fgcw) (hrgcw : 0 ≤ rgcw)
    (h : F.Args m [(F.cell2d u i0 j0 i1 j1 ugcw), (F.cell2d f i0 j0 i1 j1 fgcw), (F.face2d0 f0 i0 j0 i1 j1 0), (F.face2d1 f1 i0 j0 i1 j1 0)] [(F.cell2d res i0 j0 i1 j1 rgcw)]) :
    ∃ m', F.celldiffusionv2res2d i0 i1 j0 j1 alpha beta dx ugcw u fgcw f f0 f1 rgcw res m = .ok m' ∧ F.Filled (F.cell2d res i0 j0 i1 j1 rgcw) [(i0, i1), (j0, j1)] (fun p => F.rd m (F.cell2d f i0 j0 i1 j1 fgcw) p - F.lu2 m beta dx (F.face2d0 f0 i0 j0 i1 j1 0) (F.face2d1 f1 i0 j0 i1 j1 0) (fun p => alpha * F.rd m (F.cell2d u i0 j0 i1 j1 ugcw) p) p) m m' := by
  have P0 : F.Part (T := T) [(F.cell2d u i0 j0 i1 j1 ugcw), (F.cell2d f i0 j0 i1 j1 fgcw), (F.face2d0 f0 i0 j0 i1 j1 0), (F.face2d1 f1 i0 j0 i1 j1 0)] [(F.cell2d res i0 j0 i1 j1 rgcw)] (F.nestL [(.J, j0, j1), (.I, i0, i1)] (fun _ => 0) fun p => [((F.cell2d res i0 j0 i1 j1 rgcw), [p .I, p .J], F.Expr.ref (F.cell2d f i0 j0 i1 j1 fgcw) [p .I, p .J] - (-(F.Expr.const beta * ((F.Expr.ref (F.face2d0 f0 i0 j0 i1 j1 0) [p .I + 1, p .J] - F.Expr.ref (F.face2d0 f0 i0 j0 i1 j1 0) [p .I, p .J]) / F.Expr.const (dx 0) + (F.Expr.ref (F.face2d1 f1 i0 j0 i1 j1 0) [p .J + 1, p .I] - F.Expr.ref (F.face2d1 f1 i0 j0 i1 j1 0) [p .J, p .I]) / F.Expr.const (dx 1))) + F.Expr.const alpha * F.Expr.ref (F.cell2d u i0 j0 i1 j1 ugcw) [p .I, p .J]))]) := by part_tac
  refine P0.filled (c := F.celldiffusionv2res2d i0 i1 j0 j1 alpha beta dx ugcw u fgcw f f0 f1 rgcw res) (by nodups) (by rw [← F.nest_seqn1]; rfl) h (fun p hp => ?_) (fun x hx => ?_)
  · fill_at2 p hp
  · fill_in hx

theorem node_v2_2_filled {i0 j0 i1 j1 ugcw fgcw rgcw : Int} {alpha beta wa wb : T} {dx : Nat → T} {u f f0 f1 res : Ptr} {m : Mem T} (hi : i0 ≤ i1) (hj : j0 ≤ j1) (hugcw : 0 ≤ ugcw) (hfgcw : 0 ≤ fgcw) (hrgcw : 0 ≤ rgcw)
    (h : F.Args m [(F.cell2d u i0 j0 i1 j1 ugcw), (F.cell2d f i0 j0 i1 j1 fgcw), (F.face2d0 f0 i0 j0 i1 j1 0), (F.face2d1 f1 i0 j0 i1 j1 0)] [(F.cell2d res i0 j0 i1 j1 rgcw)]) :
    ∃ m', F.nodediffusionv2apply2d i0 i1 j0 j1 alpha beta dx ugcw u fgcw f f0 f1 wa wb rgcw res m = .ok m' ∧ F.Filled (F.cell2d res i0 j0 i1 j1 rgcw) [(i0, i1), (j0, j1)] (fun p => wb * F.rd m (F.cell2d f i0 j0 i1 j1 fgcw) p + wa * F.lu2 m beta dx (F.face2d0 f0 i0 j0 i1 j1 0) (F.face2d1 f1 i0 j0 i1 j1 0) (fun p => alpha * F.rd m (F.cell2d u i0 j0 i1 j1 ugcw) p) p) m m' := by
  have P0 : F.Part (T := T) [(F.cell2d u i0 j0 i1 j1 ugcw), (F.cell2d f i0 j0 i1 j1 fgcw), (F.face2d0 f0 i0 j0 i1 j1 0), (F.face2d1 f1 i0 j0 i1 j1 0)] [(F.cell2d res i0 j0 i1 j1 rgcw)] (F.nestL [(.J, j0, j1), (.I, i0, i1)] (fun _ => 0) fun p => [((F.cell2d res i0 j0 i1 j1 rgcw), [p .I, p .J], F.Expr.const wb * F.Expr.ref (F.cell2d f i0 j0 i1 j1 fgcw) [p .I, p .J] + F.Expr.const wa * (-(F.Expr.const beta * ((F.Expr.ref (F.face2d0 f0 i0 j0 i1 j1 0) [p .I + 1, p .J] - F.Expr.ref (F.face2d0 f0 i0 j0 i1 j1 0) [p .I, p .J]) / F.Expr.const (dx 0) + (F.Expr.ref (F.face2d1 f1 i0 j0 i1 j1 0) [p .J + 1, p .I] - F.Expr.ref (F.face2d1 f1 i0 j0 i1 j1 0) [p .J, p .I]) / F.Expr.const (dx 1))) + F.Expr.const alpha * F.Expr.ref (F.cell2d u i0 j0 i1 j1 ugcw) [p .I, p .J]))]) := by part_tac
  refine P0.filled (c := F.nodediffusionv2apply2d i0 i1 j0 j1 alpha beta dx ugcw u fgcw f f0 f1 wa wb rgcw res) (by nodups) (by rw [← F.nest_seqn1]; rfl) h (fun p hp => ?_) (fun x hx => ?_)
  · fill_at2 p hp
  · fill_in hx

theorem apply_p_2_filled {i0 j0 i1 j1 rgcw : Int} {beta : T} {dx : Nat → T} {f0 f1 res : Ptr} {m : Mem T} (hi : i0 ≤ i1) (hj : j0 ≤ j1) (hrgcw : 0 ≤ rgcw)
    (h : F.Args m [(F.face2d0 f0 i0 j0 i1 j1 0), (F.face2d1 f1 i0 j0 i1 j1 0)] [(F.cell2d res i0 j0 i1 j1 rgcw)]) :
    ∃ m', F.cellpoissonv2apply2d i0 i1 j0 j1 beta dx f0 f1 rgcw res m = .ok m' ∧ F.Filled (F.cell2d res i0 j0 i1 j1 rgcw) [(i0, i1), (j0, j1)] (F.lu2 m beta dx (F.face2d0 f0 i0 j0 i1 j1 0) (F.face2d1 f1 i0 j0 i1 j1 0) (fun _ => 0)) m m' := by
  have P0 : F.Part (T := T) [(F.face2d0 f0 i0 j0 i1 j1 0), (F.face2d1 f1 i0 j0 i1 j1 0)] [(F.cell2d res i0 j0 i1 j1 rgcw)] (F.nestL [(.J, j0, j1), (.I, i0, i1)] (fun _ => 0) fun p => [((F.cell2d res i0 j0 i1 j1 rgcw), [p .I, p .J], -(F.Expr.const beta * ((F.Expr.ref (F.face2d0 f0 i0 j0 i1 j1 0) [p .I + 1, p .J] - F.Expr.ref (F.face2d0 f0 i0 j0 i1 j1 0) [p .I, p .J]) / F.Expr.const (dx 0) + (F.Expr.ref (F.face2d1 f1 i0 j0 i1 j1 0) [p .J + 1, p .I] - F.Expr.ref (F.face2d1 f1 i0 j0 i1 j1 0) [p .J, p .I]) / F.Expr.const (dx 1))))]) := by part_tac
  refine P0.filled (c := F.cellpoissonv2apply2d i0 i1 j0 j1 beta dx f0 f1 rgcw res) (by nodups) (by rw [← F.nest_seqn1]; rfl) h (fun p hp => ?_) (fun x hx => ?_)
  · fill_at2 p hp
  · fill_in hx

theorem res_p_2_filled {i0 j0 i1 j1 fgcw rgcw : Int} {beta : T} {dx : Nat → T} {f f0 f1 res : Ptr} {m : Mem T} (hi : i0 ≤ i1) (hj : j0 ≤ j1) (hfgcw : 0 ≤ fgcw) (hrgcw : 0 ≤ rgcw)
    (h : F.Args m [(F.cell2d f i0 j0 i1 j1 fgcw), (F.face2d0 f0 i0 j0 i1 j1 0), (F.face2d1 f1 i0 j0 i1 j1 0)] [(F.cell2d res i0 j0 i1 j1 rgcw)]) :
    ∃ m', F.cellpoissonv1res2d i0 i1 j0 j1 beta dx fgcw f f0 f1 rgcw res m = .ok m' ∧ F.Filled (F.cell2d res i0 j0 i1 j1 rgcw) [(i0, i1), (j0, j1)] (fun p => F.rd m (F.cell2d f i0 j0 i1 j1 fgcw) p - F.lu2 m beta dx (F.face2d0 f0 i0 j0 i1 j1 0) (F.face2d1 f1 i0 j0 i1 j1 0) (fun _ => 0) p) m m' := by
  have P0 : F.Part (T := T) [(F.cell2d f i0 j0 i1 j1 fgcw), (F.face2d0 f0 i0 j0 i1 j1 0), (F.face2d1 f1 i0 j0 i1 j1 0)] [(F.cell2d res i0 j0 i1 j1 rgcw)] (F.nestL [(.J, j0, j1), (.I, i0, i1)] (fun _ => 0) fun p => [((F.cell2d res i0 j0 i1 j1 rgcw), [p .I, p .J], F.Expr.ref (F.cell2d f i0 j0 i1 j1 fgcw) [p .I, p .J] - (-(F.Expr.const beta * ((F.Expr.ref (F.face2d0 f0 i0 j0 i1 j1 0) [p .I + 1, p .J] - F.Expr.ref (F.face2d0 f0 i0 j0 i1 j1 0) [p .I, p .J]) / F.Expr.const (dx 0) + (F.Expr.ref (F.face2d1 f1 i0 j0 i1 j1 0) [p .J + 1, p .I] - F.Expr.ref (F.face2d1 f1 i0 j0 i1 j1 0) [p .J, p .I]) / F.Expr.const (dx 1)))))]) := by part_tac
  refine P0.filled (c := F.cellpoissonv1res2d i0 i1 j0 j1 beta dx fgcw f f0 f1 rgcw res) (by nodups) (by rw [← F.nest_seqn1]; rfl) h (fun p hp => ?_) (fun x hx => ?_)
  · fill_at2 p hp
  · fill_in hx

theorem node_p_2_filled {i0 j0 i1 j1 fgcw rgcw : Int} {beta wa wb : T} {dx : Nat → T} {f f0 f1 res : Ptr} {m : Mem T} (hi : i0 ≤ i1) (hj : j0 ≤ j1) (hfgcw : 0 ≤ fgcw) (hrgcw : 0 ≤ rgcw)
    (h : F.Args m [(F.cell2d f i0 j0 i1 j1 fgcw), (F.face2d0 f0 i0 j0 i1 j1 0), (F.face2d1 f1 i0 j0 i1 j1 0)] [(F.cell2d res i0 j0 i1 j1 rgcw)]) :
    ∃ m', F.nodepoissonapply2d i0 i1 j0 j1 beta dx fgcw f f0 f1 wa wb rgcw res m = .ok m' ∧ F.Filled (F.cell2d res i0 j0 i1 j1 rgcw) [(i0, i1), (j0, j1)] (fun p => wb * F.rd m (F.cell2d f i0 j0 i1 j1 fgcw) p + wa * F.lu2 m beta dx (F.face2d0 f0 i0 j0 i1 j1 0) (F.face2d1 f1 i0 j0 i1 j1 0) (fun _ => 0) p) m m' := by
  have P0 : F.Part (T := T) [(F.cell2d f i0 j0 i1 j1 fgcw), (F.face2d0 f0 i0 j0 i1 j1 0), (F.face2d1 f1 i0 j0 i1 j1 0)] [(F.cell2d res i0 j0 i1 j1 rgcw)] (F.nestL [(.J, j0, j1), (.I, i0, i1)] (fun _ => 0) fun p => [((F.cell2d res i0 j0 i1 j1 rgcw), [p .I, p .J], F.Expr.const wb * F.Expr.ref (F.cell2d f i0 j0 i1 j1 fgcw) [p .I, p .J] + F.Expr.const wa * (-(F.Expr.const beta * ((F.Expr.ref (F.face2d0 f0 i0 j0 i1 j1 0) [p .I + 1, p .J] - F.Expr.ref (F.face2d0 f0 i0 j0 i1 j1 0) [p .I, p .J]) / F.Expr.const (dx 0) + (F.Expr.ref (F.face2d1 f1 i0 j0 i1 j1 0) [p .J + 1, p .I] - F.Expr.ref (F.face2d1 f1 i0 j0 i1 j1 0) [p .J, p .I]) / F.Expr.const (dx 1)))))]) := by part_tac
  refine P0.filled (c := F.nodepoissonapply2d i0 i1 j0 j1 beta dx fgcw f f0 f1 wa wb rgcw res) (by nodups) (by rw [← F.nest_seqn1]; rfl) h (fun p hp => ?_) (fun x hx => ?_)
  · fill_at2 p hp
  · fill_in hx

theorem apply_v1_3_filled {i0 j0 k0 i1 j1 k1 agcw ugcw rgcw : Int} {alpha beta : T} {dx : Nat → T} {a u f0 f1 f2 res : Ptr} {m : Mem T} (hi : i0 ≤ i1) (hj : j0 ≤ j1) (hk : k0 ≤ k1) (hagcw : 0 ≤ agcw) (hugcw : 0 ≤ ugcw) (hrgcw : 0 ≤ rgcw)
    (h : F.Args m [(F.cell3d a i0 j0 k0 i1 j1 k1 agcw), (F.cell3d u i0 j0 k0 i1 j1 k1 ugcw), (F.face3d0 f0 i0 j0 k0 i1 j1 k1 0), (F.face3d1 f1 i0 j0 k0 i1 j1 k1 0), (F.face3d2 f2 i0 j0 k0 i1 j1 k1 0)] [(F.cell3d res i0 j0 k0 i1 j1 k1 rgcw)]) :
    ∃ m', F.celldiffusionv1apply3d i0 i1 j0 j1 k0 k1 alpha beta dx agcw a ugcw u f0 f1 f2 rgcw res m = .ok m' ∧ F.Filled (F.cell3d res i0 j0 k0 i1 j1 k1 rgcw) [(i0, i1), (j0, j1), (k0, k1)] (F.lu3 m beta dx (F.face3d0 f0 i0 j0 k0 i1 j1 k1 0) (F.face3d1 f1 i0 j0 k0 i1 j1 k1 0) (F.face3d2 f2 i0 j0 k0 i1 j1 k1 0) (fun p => alpha * F.rd m (F.cell3d a i0 j0 k0 i1 j1 k1 agcw) p * F.rd m (F.cell3d u i0 j0 k0 i1 j1 k1 ugcw) p)) m m' := by
  have P0 : F.Part (T := T) [(F.cell3d a i0 j0 k0 i1 j1 k1 agcw), (F.cell3d u i0 j0 k0 i1 j1 k1 ugcw), (F.face3d0 f0 i0 j0 k0 i1 j1 k1 0), (F.face3d1 f1 i0 j0 k0 i1 j1 k1 0), (F.face3d2 f2 i0 j0 k0 i1 j1 k1 0)] [(F.cell3d res i0 j0 k0 i1 j1 k1 rgcw)] (F.nestL [(.K, k0, k1), (.J, j0, j1), (.I, i0, i1)] (fun _ => 0) fun p => [((F.cell3d res i0 j0 k0 i1 j1 k1 rgcw), [p .I, p .J, p .K], -(F.Expr.const beta * ((F.Expr.ref (F.face3d0 f0 i0 j0 k0 i1 j1 k1 0) [p .I + 1, p .J, p .K] - F.Expr.ref (F.face3d0 f0 i0 j0 k0 i1 j1 k1 0) [p .I, p .J, p .K]) / F.Expr.const (dx 0) + (F.Expr.ref (F.face3d1 f1 i0 j0 k0 i1 j1 k1 0) [p .J + 1, p .K, p .I] - F.Expr.ref (F.face3d1 f1 i0 j0 k0 i1 j1 k1 0) [p .J, p .K, p .I]) / F.Expr.const (dx 1) + (F.Expr.ref (F.face3d2 f2 i0 j0 k0 i1 j1 k1 0) [p .K + 1, p .I, p .J] - F.Expr.ref (F.face3d2 f2 i0 j0 k0 i1 j1 k1 0) [p .K, p .I, p .J]) / F.Expr.const (dx 2))) + F.Expr.const alpha * F.Expr.ref (F.cell3d a i0 j0 k0 i1 j1 k1 agcw) [p .I, p .J, p .K] * F.Expr.ref (F.cell3d u i0 j0 k0 i1 j1 k1 ugcw) [p .I, p .J, p .K])]) := by part_tac
  refine P0.filled (c := F.celldiffusionv1apply3d i0 i1 j0 j1 k0 k1 alpha beta dx agcw a ugcw u f0 f1 f2 rgcw res) (by nodups) (by rw [← F.nest_seqn1]; rfl) h (fun p hp => ?_) (fun x hx => ?_)
  · fill_at3 p hp
  · fill_in hx

theorem res_v1_3_filled {i0 j0 k0 i1 j1 k1 agcw ugcw fgcw rgcw : Int} {alpha beta : T} {dx : Nat → T} {a u f f0 f1 f2 res : Ptr} {m : Mem T} (hi : i0 ≤ i1) (hj : j0 ≤ j1) (hk : k0 ≤ k1) (hagcw : 0 ≤ agcw) (hugcw : 0 ≤ ugcw) (hfgcw : 0 ≤ fgcw) (hrgcw : 0 ≤ rgcw)
    (h : F.Args m [(F.cell3d a i0 j0 k0 i1 j1 k1 agcw), (F.cell3d u i0 j0 k0 i1 j1 k1 ugcw), (F.cell3d f i0 j0 k0 i1 j1 k1 fgcw), (F.face3d0 f0 i0 j0 k0 i1 j1 k1 0), (F.face3d1 f1 i0 j0 k0 i1 j1 k1 0), (F.face3d2 f2 i0 j0 k0 i1 j1 k1 0)] [(F.cell3d res i0 j0 k0 i1 j1 k1 rgcw)]) :
    ∃ m', F.celldiffusionv1res3d i0 i1 j0 j1 k0 k1 alpha beta dx agcw a ugcw u fgcw f f0 f1 f2 rgcw res m = .ok m' ∧ F.Filled (F.cell3d res i0 j0 k0 i1 j1 k1 rgcw) [(i0, i1), (j0, j1), (k0, k1)] (fun p => F.rd m (F.cell3d f i0 j0 k0 i1 j1 k1 fgcw) p - F.lu3 m beta dx (F.face3d0 f0 i0 j0 k0 i1 j1 k1 0) (F.face3d1 f1 i0 j0 k0 i1 j1 k1 0) (F.face3d2 f2 i0 j0 k0 i1 j1 k1 0) (fun p => alpha * F.rd m (F.cell3d a i0 j0 k0 i1 j1 k1 agcw) p * F.rd m (F.cell3d u i0 j0 k0 i1 j1 k1 ugcw) p) p) m m' := by
  have P0 : F.Part (T := T) [(F.cell3d a i0 j0 k0 i1 j1 k1 agcw), (F.cell3d u i0 j0 k0 i1 j1 k1 ugcw), (F.cell3d f i0 j0 k0 i1 j1 k1 fgcw), (F.face3d0 f0 i0 j0 k0 i1 j1 k1 0), (F.face3d1 f1 i0 j0 k0 i1 j1 k1 0), (F.face3d2 f2 i0 j0 k0 i1 j1 k1 0)] [(F.cell3d res i0 j0 k0 i1 j1 k1 rgcw)] (F.nestL [(.K, k0, k1), (.J, j0, j1), (.I, i0, i1)] (fun _ => 0) fun p => [((F.cell3d res i0 j0 k0 i1 j1 k1 rgcw), [p .I, p .J, p .K], F.Expr.ref (F.cell3d f i0 j0 k0 i1 j1 k1 fgcw) [p .I, p .J, p .K] - (-(F.Expr.const beta * ((F.Expr.ref (F.face3d0 f0 i0 j0 k0 i1 j1 k1 0) [p .I + 1, p .J, p .K] - F.Expr.ref (F.face3d0 f0 i0 j0 k0 i1 j1 k1 0) [p .I, p .J, p .K]) / F.Expr.const (dx 0) + (F.Expr.ref (F.face3d1 f1 i0 j0 k0 i1 j1 k1 0) [p .J + 1, p .K, p .I] - F.Expr.ref (F.face3d1 f1 i0 j0 k0 i1 j1 k1 0) [p .J, p .K, p .I]) / F.Expr.const (dx 1) + (F.Expr.ref (F.face3d2 f2 i0 j0 k0 i1 j1 k1 0) [p .K + 1, p .I, p .J] - F.Expr.ref (F.face3d2 f2 i0 j0 k0 i1 j1 k1 0) [p .K, p .I, p .J]) / F.Expr.const (dx 2))) + F.Expr.const alpha * F.Expr.ref (F.cell3d a i0 j0 k0 i1 j1 k1 agcw) [p .I, p .J, p .K] * F.Expr.ref (F.cell3d u i0 j0 k0 i1 j1 k1 ugcw) [p .I, p .J, p .K]))]) := by part_tac
  refine P0.filled (c := F.celldiffusionv1res3d i0 i1 j0 j1 k0 k1 alpha beta dx agcw a ugcw u fgcw f f0 f1 f2 rgcw res) (by nodups) (by rw [← F.nest_seqn1]; rfl) h (fun p hp => ?_) (fun x hx => ?_)
  · fill_at3 p hp
  · fill_in hx

theorem node_v1_3_filled {i0 j0 k0 i1 j1 k1 agcw ugcw fgcw rgcw : Int} {alpha beta wa wb : T} {dx : Nat → T} {a u f f0 f1 f2 res : Ptr} {m : Mem T} (hi : i0 ≤ i1) (hj : j0 ≤ j1) (hk : k0 ≤ k1) (hagcw : 0 ≤ agcw) (hugcw : 0 ≤ ugcw) (hfgcw : 0 ≤ fgcw) (hrgcw : 0 ≤ rgcw)
    (h : F.Args m [(F.cell3d a i0 j0 k0 i1 j1 k1 agcw), (F.cell3d u i0 j0 k0 i1 j1 k1 ugcw), (F.cell3d f i0 j0 k0 i1 j1 k1 fgcw), (F.face3d0 f0 i0 j0 k0 i1 j1 k1 0), (F.face3d1 f1 i0 j0 k0 i1 j1 k1 0), (F.face3d2 f2 i0 j0 k0 i1 j1 k1 0)] [(F.cell3d res i0 j0 k0 i1 j1 k1 rgcw)]) :
    ∃ m', F.nodediffusionv1apply3d i0 i1 j0 j1 k0 k1 alpha beta dx agcw a ugcw u fgcw f f0 f1 f2 wa wb rgcw res m = .ok m' ∧ F.Filled (F.cell3d res i0 j0 k0 i1 j1 k1 rgcw) [(i0, i1), (j0, j1), (k0, k1)] (fun p => wb * F.rd m (F.cell3d f i0 j0 k0 i1 j1 k1 fgcw) p + wa * F.lu3 m beta dx (F.face3d0 f0 i0 j0 k0 i1 j1 k1 0) (F.face3d1 f1 i0 j0 k0 i1 j1 k1 0) (F.face3d2 f2 i0 j0 k0 i1 j1 k1 0) (fun p => alpha * F.rd m (F.cell3d a i0 j0 k0 i1 j1 k1 agcw) p * F.rd m (F.cell3d u i0 j0 k0 i1 j1 k1 ugcw) p) p) m m' := by
  have P0 : F.Part (T := T) [(F.cell3d a i0 j0 k0 i1 j1 k1 agcw), (F.cell3d u i0 j0 k0 i1 j1 k1 ugcw), (F.cell3d f i0 j0 k0 i1 j1 k1 fgcw), (F.face3d0 f0 i0 j0 k0 i1 j1 k1 0), (F.face3d1 f1 i0 j0 k0 i1 j1 k1 0), (F.face3d2 f2 i0 j0 k0 i1 j1 k1 0)] [(F.cell3d res i0 j0 k0 i1 j1 k1 rgcw)] (F.nestL [(.K, k0, k1), (.J, j0, j1), (.I, i0, i1)] (fun _ => 0) fun p => [((F.cell3d res i0 j0 k0 i1 j1 k1 rgcw), [p .I, p .J, p .K], F.Expr.const wb * F.Expr.ref (F.cell3d f i0 j0 k0 i1 j1 k1 fgcw) [p .I, p .J, p .K] + F.Expr.const wa * (-(F.Expr.const beta * ((F.Expr.ref (F.face3d0 f0 i0 j0 k0 i1 j1 k1 0) [p .I + 1, p .J, p .K] - F.Expr.ref (F.face3d0 f0 i0 j0 k0 i1 j1 k1 0) [p .I, p .J, p .K]) / F.Expr.const (dx 0) + (F.Expr.ref (F.face3d1 f1 i0 j0 k0 i1 j1 k1 0) [p .J + 1, p .K, p .I] - F.Expr.ref (F.face3d1 f1 i0 j0 k0 i1 j1 k1 0) [p .J, p .K, p .I]) / F.Expr.const (dx 1) + (F.Expr.ref (F.face3d2 f2 i0 j0 k0 i1 j1 k1 0) [p .K + 1, p .I, p .J] - F.Expr.ref (F.face3d2 f2 i0 j0 k0 i1 j1 k1 0) [p .K, p .I, p .J]) / F.Expr.const (dx 2))) + F.Expr.const alpha * F.Expr.ref (F.cell3d a i0 j0 k0 i1 j1 k1 agcw) [p .I, p .J, p .K] * F.Expr.ref (F.cell3d u i0 j0 k0 i1 j1 k1 ugcw) [p .I, p .J, p .K]))]) := by part_tac
  refine P0.filled (c := F.nodediffusionv1apply3d i0 i1 j0 j1 k0 k1 alpha beta dx agcw a ugcw u fgcw f f0 f1 f2 wa wb rgcw res) (by nodups) (by rw [← F.nest_seqn1]; rfl) h (fun p hp => ?_) (fun x hx => ?_)
  · fill_at3 p hp
  · fill_in hx

theorem apply_v2_3_filled {i0 j0 k0 i1 j1 k1 ugcw rgcw : Int} {alpha beta : T} {dx : Nat → T} {u f0 f1 f2 res : Ptr} {m : Mem T} (hi : i0 ≤ i1) (hj : j0 ≤ j1) (hk : k0 ≤ k1) (hugcw : 0 ≤ ugcw) (hrgcw : 0 ≤ rgcw)
    (h : F.Args m [(F.cell3d u i0 j0 k0 i1 j1 k1 ugcw), (F.face3d0 f0 i0 j0 k0 i1 j1 k1 0), (F.face3d1 f1 i0 j0 k0 i1 j1 k1 0), (F.face3d2 f2 i0 j0 k0 i1 j1 k1 0)] [(F.cell3d res i0 j0 k0 i1 j1 k1 rgcw)]) :
    ∃ m', F.celldiffusionv2apply3d i0 i1 j0 j1 k0 k1 alpha beta dx ugcw u f0 f1 f2 rgcw res m = .ok m' ∧ F.Filled (F.cell3d res i0 j0 k0 i1 j1 k1 rgcw) [(i0, i1), (j0, j1), (k0, k1)] (F.lu3 m beta dx (F.face3d0 f0 i0 j0 k0 i1 j1 k1 0) (F.face3d1 f1 i0 j0 k0 i1 j1 k1 0) (F.face3d2 f2 i0 j0 k0 i1 j1 k1 0) (fun p => alpha * F.rd m (F.cell3d u i0 j0 k0 i1 j1 k1 ugcw) p)) m m' := by
  have P0 : F.Part (T := T) [(F.cell3d u i0 j0 k0 i1 j1 k1 ugcw), (F.face3d0 f0 i0 j0 k0 i1 j1 k1 0), (F.face3d1 f1 i0 j0 k0 i1 j1 k1 0), (F.face3d2 f2 i0 j0 k0 i1 j1 k1 0)] [(F.cell3d res i0 j0 k0 i1 j1 k1 rgcw)] (F.nestL [(.K, k0, k1), (.J, j0, j1), (.I, i0, i1)] (fun _ => 0) fun p => [((F.cell3d res i0 j0 k0 i1 j1 k1 rgcw), [p .I, p .J, p .K], -(F.Expr.const beta * ((F.Expr.ref (F.face3d0 f0 i0 j0 k0 i1 j1 k1 0) [p .I + 1, p .J, p .K] - F.Expr.ref (F.face3d0 f0 i0 j0 k0 i1 j1 k1 0) [p .I, p .J, p .K]) / F.Expr.const (dx 0) + (F.Expr.ref (F.face3d1 f1 i0 j0 k0 i1 j1 k1 0) [p .J + 1, p .K, p .I] - F.Expr.ref (F.face3d1 f1 i0 j0 k0 i1 j1 k1 0) [p .J, p .K, p .I]) / F.Expr.const (dx 1) + (F.Expr.ref (F.face3d2 f2 i0 j0 k0 i1 j1 k1 0) [p .K + 1, p .I, p .J] - F.Expr.ref (F.face3d2 f2 i0 j0 k0 i1 j1 k1 0) [p .K, p .I, p .J]) / F.Expr.const (dx 2))) + F.Expr.const alpha * F.Expr.ref (F.cell3d u i0 j0 k0 i1 j1 k1 ugcw) [p .I, p .J, p .K])]) := by part_tac
  refine P0.filled (c := F.celldiffusionv2apply3d i0 i1 j0 j1 k0 k1 alpha beta dx ugcw u f0 f1 f2 rgcw res) (by nodups) (by rw [← F.nest_seqn1]; rfl) h (fun p hp => ?_) (fun x hx => ?_)
  · fill_at3 p hp
  · fill_in hx

theorem res_v2_3_filled {i0 j0 k0 i1 j1 k1 ugcw fgcw rgcw : Int} {alpha beta : T} {dx : Nat → T} {u f f0 f1 f2 res : Ptr} {m : Mem T} (hi : i0 ≤ i1) (hj : j0 ≤ j1) (hk : k0 ≤ k1) (hugcw : 0 ≤ ugcw) (hfgcw : 0 ≤ fgcw) (hrgcw : 0 ≤ rgcw)
    (h : F.Args m [(F.cell3d u i0 j0 k0 i1 j1 k1 ugcw), (F.cell3d f i0 j0 k0 i1 j1 k1 fgcw), (F.face3d0 f0 i0 j0 k0 i1 j1 k1 0), (F.face3d1 f1 i0 j0 k0 i1 j1 k1 0), (F.face3d2 f2 i0 j0 k0 i1 j1 k1 0)] [(F.cell3d res i0 j0 k0 i1 j1 k1 rgcw)]) :
    ∃ m', F.celldiffusionv2res3d i0 i1 j0 j1 k0 k1 alpha beta dx ugcw u fgcw f f0 f1 f2 rgcw res m = .ok m' ∧ F.Filled (F.cell3d res i0 j0 k0 i1 j1 k1 rgcw) [(i0, i1), (j0, j1), (k0, k1)] (fun p => F.rd m (F.cell3d f i0 j0 k0 i1 j1 k1 fgcw) p - F.lu3 m beta dx (F.face3d0 f0 i0 j0 k0 i1 j1 k1 0) (F.face3d1 f1 i0 j0 k0 i1 j1 k1 0) (F.face3d2 f2 i0 j0 k0 i1 j1 k1 0) (fun p => alpha * F.rd m (F.cell3d u i0 j0 k0 i1 j1 k1 ugcw) p) p) m m' := by
  have P0 : F.Part (T := T) [(F.cell3d u i0 j0 k0 i1 j1 k1 ugcw), (F.cell3d f i0 j0 k0 i1 j1 k1 fgcw), (F.face3d0 f0 i0 j0 k0 i1 j1 k1 0), (F.face3d1 f1 i0 j0 k0 i1 j1 k1 0), (F.face3d2 f2 i0 j0 k0 i1 j1 k1 0)] [(F.cell3d res i0 j0 k0 i1 j1 k1 rgcw)] (F.nestL [(.K, k0, k1), (.J, j0, j1), (.I, i0, i1)] (fun _ => 0) fun p => [((F.cell3d res i0 j0 k0 i1 j1 k1 rgcw), [p .I, p .J, p .K], F.Expr.ref (F.cell3d f i0 j0 k0 i1 j1 k1 fgcw) [p .I, p .J, p .K] - (-(F.Expr.const beta * ((F.Expr.ref (F.face3d0 f0 i0 j0 k0 i1 j1 k1 0) [p .I + 1, p .J, p .K] - F.Expr.ref (F.face3d0 f0 i0 j0 k0 i1 j1 k1 0) [p .I, p .J, p .K]) / F.Expr.const (dx 0) + (F.Expr.ref (F.face3d1 f1 i0 j0 k0 i1 j1 k1 0) [p .J + 1, p .K, p .I] - F.Expr.ref (F.face3d1 f1 i0 j0 k0 i1 j1 k1 0) [p .J, p .K, p .I]) / F.Expr.const (dx 1) + (F.Expr.ref (F.face3d2 f2 i0 j0 k0 i1 j1 k1 0) [p .K + 1, p .I, p .J] - F.Expr.ref (F.face3d2 f2 i0 j0 k0 i1 j1 k1 0) [p .K, p .I, p .J]) / F.Expr.const (dx 2))) + F.Expr.const alpha * F.Expr.ref (F.cell3d u i0 j0 k0 i1 j1 k1 ugcw) [p .I, p .J, p .K]))]) := by part_tac
  refine P0.filled (c := F.celldiffusionv2res3d i0 i1 j0 j1 k0 k1 alpha beta dx ugcw u fgcw f f0 f1 f2 rgcw res) (by nodups) (by rw [← F.nest_seqn1]; rfl) h (fun p hp => ?_) (fun x hx => ?_)
  · fill_at3 p hp
  · fill_in hx

theorem apply_p_3_filled {i0 j0 k0 i1 j1 k1 rgcw : Int} {beta : T} {dx : Nat → T} {f0 f1 f2 res : Ptr} {m : Mem T} (hi : i0 ≤ i1) (hj : j0 ≤ j1) (hk : k0 ≤ k1) (hrgcw : 0 ≤ rgcw)
    (h : F.Args m [(F.face3d0 f0 i0 j0 k0 i1 j1 k1 0), (F.face3d1 f1 i0 j0 k0 i1 j1 k1 0), (F.face3d2 f2 i0 j0 k0 i1 j1 k1 0)] [(F.cell3d res i0 j0 k0 i1 j1 k1 rgcw)]) :
    ∃ m', F.cellpoissonv2apply3d i0 i1 j0 j1 k0 k1 beta dx f0 f1 f2 rgcw res m = .ok m' ∧ F.Filled (F.cell3d res i0 j0 k0 i1 j1 k1 rgcw) [(i0, i1), (j0, j1), (k0, k1)] (F.lu3 m beta dx (F.face3d0 f0 i0 j0 k0 i1 j1 k1 0) (F.face3d1 f1 i0 j0 k0 i1 j1 k1 0) (F.face3d2 f2 i0 j0 k0 i1 j1 k1 0) (fun _ => 0)) m m' := by
  have P0 : F.Part (T := T) [(F.face3d0 f0 i0 j0 k0 i1 j1 k1 0), (F.face3d1 f1 i0 j0 k0 i1 j1 k1 0), (F.face3d2 f2 i0 j0 k0 i1 j1 k1 0)] [(F.cell3d res i0 j0 k0 i1 j1 k1 rgcw)] (F.nestL [(.K, k0, k1), (.J, j0, j1), (.I, i0, i1)] (fun _ => 0) fun p => [((F.cell3d res i0 j0 k0 i1 j1 k1 rgcw), [p .I, p .J, p .K], -(F.Expr.const beta * ((F.Expr.ref (F.face3d0 f0 i0 j0 k0 i1 j1 k1 0) [p .I + 1, p .J, p .K] - F.Expr.ref (F.face3d0 f0 i0 j0 k0 i1 j1 k1 0) [p .I, p .J, p .K]) / F.Expr.const (dx 0) + (F.Expr.ref (F.face3d1 f1 i0 j0 k0 i1 j1 k1 0) [p .J + 1, p .K, p .I] - F.Expr.ref (F.face3d1 f1 i0 j0 k0 i1 j1 k1 0) [p .J, p .K, p .I]) / F.Expr.const (dx 1) + (F.Expr.ref (F.face3d2 f2 i0 j0 k0 i1 j1 k1 0) [p .K + 1, p .I, p .J] - F.Expr.ref (F.face3d2 f2 i0 j0 k0 i1 j1 k1 0) [p .K, p .I, p .J]) / F.Expr.const (dx 2))))]) := by part_tac
  refine P0.filled (c := F.cellpoissonv2apply3d i0 i1 j0 j1 k0 k1 beta dx f0 f1 f2 rgcw res) (by nodups) (by rw [← F.nest_seqn1]; rfl) h (fun p hp => ?_) (fun x hx => ?_)
  · fill_at3 p hp
  · fill_in hx

theorem res_p_3_filled {i0 j0 k0 i1 j1 k1 fgcw rgcw : Int} {beta : T} {dx : Nat → T} {f f0 f1 f2 res : Ptr} {m : Mem T} (hi : i0 ≤ i1) (hj : j0 ≤ j1) (hk : k0 ≤ k1) (hfgcw : 0 ≤ fgcw) (hrgcw : 0 ≤ rgcw)
    (h : F.Args m [(F.cell3d f i0 j0 k0 i1 j1 k1 fgcw), (F.face3d0 f0 i0 j0 k0 i1 j1 k1 0), (F.face3d1 f1 i0 j0 k0 i1 j1 k1 0), (F.face3d2 f2 i0 j0 k0 i1 j1 k1 0)] [(F.cell3d res i0 j0 k0 i1 j1 k1 rgcw)]) :
    ∃ m', F.cellpoissonv1res3d i0 i1 j0 j1 k0 k1 beta dx fgcw f f0 f1 f2 rgcw res m = .ok m' ∧ F.Filled (F.cell3d res i0 j0 k0 i1 j1 k1 rgcw) [(i0, i1), (j0, j1), (k0, k1)] (fun p => F.rd m (F.cell3d f i0 j0 k0 i1 j1 k1 fgcw) p - F.lu3 m beta dx (F.face3d0 f0 i0 j0 k0 i1 j1 k1 0) (F.face3d1 f1 i0 j0 k0 i1 j1 k1 0) (F.face3d2 f2 i0 j0 k0 i1 j1 k1 0) (fun _ => 0) p) m m' := by
  have P0 : F.Part (T := T) [(F.cell3d f i0 j0 k0 i1 j1 k1 fgcw), (F.face3d0 f0 i0 j0 k0 i1 j1 k1 0), (F.face3d1 f1 i0 j0 k0 i1 j1 k1 0), (F.face3d2 f2 i0 j0 k0 i1 j1 k1 0)] [(F.cell3d res i0 j0 k0 i1 j1 k1 rgcw)] (F.nestL [(.K, k0, k1), (.J, j0, j1), (.I, i0, i1)] (fun _ => 0) fun p => [((F.cell3d res i0 j0 k0 i1 j1 k1 rgcw), [p .I, p .J, p .K], F.Expr.ref (F.cell3d f i0 j0 k0 i1 j1 k1 fgcw) [p .I, p .J, p .K] - (-(F.Expr.const beta * ((F.Expr.ref (F.face3d0 f0 i0 j0 k0 i1 j1 k1 0) [p .I + 1, p .J, p .K] - F.Expr.ref (F.face3d0 f0 i0 j0 k0 i1 j1 k1 0) [p .I, p .J, p .K]) / F.Expr.const (dx 0) + (F.Expr.ref (F.face3d1 f1 i0 j0 k0 i1 j1 k1 0) [p .J + 1, p .K, p .I] - F.Expr.ref (F.face3d1 f1 i0 j0 k0 i1 j1 k1 0) [p .J, p .K, p .I]) / F.Expr.const (dx 1) + (F.Expr.ref (F.face3d2 f2 i0 j0 k0 i1 j1 k1 0) [p .K + 1, p .I, p .J] - F.Expr.ref (F.face3d2 f2 i0 j0 k0 i1 j1 k1 0) [p .K, p .I, p .J]) / F.Expr.const (dx 2)))))]) := by part_tac
  refine P0.filled (c := F.cellpoissonv1res3d i0 i1 j0 j1 k0 k1 beta dx fgcw f f0 f1 f2 rgcw res) (by nodups) (by rw [← F.nest_seqn1]; rfl) h (fun p hp => ?_) (fun x hx => ?_)
  · fill_at3 p hp
  · fill_in hx

theorem node_v2_3_cube {i0 i1 ugcw fgcw rgcw : Int} {alpha beta wa wb : T} {dx : Nat → T} {u f f0 f1 f2 res : Ptr} {m : Mem T} (hi : i0 ≤ i1) (hugcw : 0 ≤ ugcw) (hfgcw : 0 ≤ fgcw) (hrgcw : 0 ≤ rgcw)
    (h : F.Args m [(F.cell3d u i0 i0 i0 i1 i1 i1 ugcw), (F.cell3d f i0 i0 i0 i1 i1 i1 fgcw), (F.face3d0 f0 i0 i0 i0 i1 i1 i1 0), (F.face3d1 f1 i0 i0 i0 i1 i1 i1 0), (F.face3d2 f2 i0 i0 i0 i1 i1 i1 0)] [(F.cell3d res i0 i0 i0 i1 i1 i1 rgcw)]) :
    ∃ m', F.nodediffusionv2apply3d i0 i1 i0 i1 i0 i1 alpha beta dx ugcw u fgcw f f0 f1 f2 wa wb rgcw res m = .ok m' ∧ F.Filled (F.cell3d res i0 i0 i0 i1 i1 i1 rgcw) [(i0, i1), (i0, i1), (i0, i1)] (fun p => wb * F.rd m (F.cell3d f i0 i0 i0 i1 i1 i1 fgcw) p + wa * F.lu3 m beta dx (F.face3d0 f0 i0 i0 i0 i1 i1 i1 0) (F.face3d1 f1 i0 i0 i0 i1 i1 i1 0) (F.face3d1 f1 i0 i0 i0 i1 i1 i1 0) (fun p => alpha * F.rd m (F.cell3d u i0 i0 i0 i1 i1 i1 ugcw) p) p) m m' := by
  have P0 : F.Part (T := T) [(F.cell3d u i0 i0 i0 i1 i1 i1 ugcw), (F.cell3d f i0 i0 i0 i1 i1 i1 fgcw), (F.face3d0 f0 i0 i0 i0 i1 i1 i1 0), (F.face3d1 f1 i0 i0 i0 i1 i1 i1 0), (F.face3d2 f2 i0 i0 i0 i1 i1 i1 0)] [(F.cell3d res i0 i0 i0 i1 i1 i1 rgcw)] (F.nestL [(.K, i0, i1), (.J, i0, i1), (.I, i0, i1)] (fun _ => 0) fun p => [((F.cell3d res i0 i0 i0 i1 i1 i1 rgcw), [p .I, p .J, p .K], F.Expr.const wb * F.Expr.ref (F.cell3d f i0 i0 i0 i1 i1 i1 fgcw) [p .I, p .J, p .K] + F.Expr.const wa * (-(F.Expr.const beta * ((F.Expr.ref (F.face3d0 f0 i0 i0 i0 i1 i1 i1 0) [p .I + 1, p .J, p .K] - F.Expr.ref (F.face3d0 f0 i0 i0 i0 i1 i1 i1 0) [p .I, p .J, p .K]) / F.Expr.const (dx 0) + (F.Expr.ref (F.face3d1 f1 i0 i0 i0 i1 i1 i1 0) [p .J + 1, p .K, p .I] - F.Expr.ref (F.face3d1 f1 i0 i0 i0 i1 i1 i1 0) [p .J, p .K, p .I]) / F.Expr.const (dx 1) + (F.Expr.ref (F.face3d1 f1 i0 i0 i0 i1 i1 i1 0) [p .K + 1, p .I, p .J] - F.Expr.ref (F.face3d1 f1 i0 i0 i0 i1 i1 i1 0) [p .K, p .I, p .J]) / F.Expr.const (dx 2))) + F.Expr.const alpha * F.Expr.ref (F.cell3d u i0 i0 i0 i1 i1 i1 ugcw) [p .I, p .J, p .K]))]) := by part_tac
  refine P0.filled (c := F.nodediffusionv2apply3d i0 i1 i0 i1 i0 i1 alpha beta dx ugcw u fgcw f f0 f1 f2 wa wb rgcw res) (by nodups) (by rw [← F.nest_seqn1]; rfl) h (fun p hp => ?_) (fun x hx => ?_)
  · fill_at3 p hp
  · fill_in hx

theorem node_p_3_cube {i0 i1 fgcw rgcw : Int} {beta wa wb : T} {dx : Nat → T} {f f0 f1 f2 res : Ptr} {m : Mem T} (hi : i0 ≤ i1) (hfgcw : 0 ≤ fgcw) (hrgcw : 0 ≤ rgcw)
    (h : F.Args m [(F.cell3d f i0 i0 i0 i1 i1 i1 fgcw), (F.face3d0 f0 i0 i0 i0 i1 i1 i1 0), (F.face3d1 f1 i0 i0 i0 i1 i1 i1 0), (F.face3d2 f2 i0 i0 i0 i1 i1 i1 0)] [(F.cell3d res i0 i0 i0 i1 i1 i1 rgcw)]) :
    ∃ m', F.nodepoissonapply3d i0 i1 i0 i1 i0 i1 beta dx fgcw f f0 f1 f2 wa wb rgcw res m = .ok m' ∧ F.Filled (F.cell3d res i0 i0 i0 i1 i1 i1 rgcw) [(i0, i1), (i0, i1), (i0, i1)] (fun p => wb * F.rd m (F.cell3d f i0 i0 i0 i1 i1 i1 fgcw) p + wa * F.lu3 m beta dx (F.face3d0 f0 i0 i0 i0 i1 i1 i1 0) (F.face3d1 f1 i0 i0 i0 i1 i1 i1 0) (F.face3d1 f1 i0 i0 i0 i1 i1 i1 0) (fun _ => 0) p) m m' := by
  have P0 : F.Part (T := T) [(F.cell3d f i0 i0 i0 i1 i1 i1 fgcw), (F.face3d0 f0 i0 i0 i0 i1 i1 i1 0), (F.face3d1 f1 i0 i0 i0 i1 i1 i1 0), (F.face3d2 f2 i0 i0 i0 i1 i1 i1 0)] [(F.cell3d res i0 i0 i0 i1 i1 i1 rgcw)] (F.nestL [(.K, i0, i1), (.J, i0, i1), (.I, i0, i1)] (fun _ => 0) fun p => [((F.cell3d res i0 i0 i0 i1 i1 i1 rgcw), [p .I, p .J, p .K], F.Expr.const wb * F.Expr.ref (F.cell3d f i0 i0 i0 i1 i1 i1 fgcw) [p .I, p .J, p .K] + F.Expr.const wa * (-(F.Expr.const beta * ((F.Expr.ref (F.face3d0 f0 i0 i0 i0 i1 i1 i1 0) [p .I + 1, p .J, p .K] - F.Expr.ref (F.face3d0 f0 i0 i0 i0 i1 i1 i1 0) [p .I, p .J, p .K]) / F.Expr.const (dx 0) + (F.Expr.ref (F.face3d1 f1 i0 i0 i0 i1 i1 i1 0) [p .J + 1, p .K, p .I] - F.Expr.ref (F.face3d1 f1 i0 i0 i0 i1 i1 i1 0) [p .J, p .K, p .I]) / F.Expr.const (dx 1) + (F.Expr.ref (F.face3d1 f1 i0 i0 i0 i1 i1 i1 0) [p .K + 1, p .I, p .J] - F.Expr.ref (F.face3d1 f1 i0 i0 i0 i1 i1 i1 0) [p .K, p .I, p .J]) / F.Expr.const (dx 2)))))]) := by part_tac
  refine P0.filled (c := F.nodepoissonapply3d i0 i1 i0 i1 i0 i1 beta dx fgcw f f0 f1 f2 wa wb rgcw res) (by nodups) (by rw [← F.nest_seqn1]; rfl) h (fun p hp => ?_) (fun x hx => ?_)
  · fill_at3 p hp
  · fill_in hx

theorem flux_3_cube {i0 i1 gcw : Int} {dx : Nat → T} {b0 b1 b2 u f0 f1 f2 : Ptr} {m : Mem T} (hi : i0 ≤ i1) (hg : 1 ≤ gcw)
    (h : F.Args m [(F.cell3d u i0 i0 i0 i1 i1 i1 gcw), (F.face3d0 b0 i0 i0 i0 i1 i1 i1 0), (F.face3d1 b1 i0 i0 i0 i1 i1 i1 0), (F.face3d2 b2 i0 i0 i0 i1 i1 i1 0)] [(F.face3d0 f0 i0 i0 i0 i1 i1 i1 0), (F.face3d1 f1 i0 i0 i0 i1 i1 i1 0), (F.face3d2 f2 i0 i0 i0 i1 i1 i1 0)])
    (hp : F.Apart (F.face3d0 f0 i0 i0 i0 i1 i1 i1 0) (F.face3d1 f1 i0 i0 i0 i1 i1 i1 0) ∧ F.Apart (F.face3d0 f0 i0 i0 i0 i1 i1 i1 0) (F.face3d2 f2 i0 i0 i0 i1 i1 i1 0) ∧ F.Apart (F.face3d1 f1 i0 i0 i0 i1 i1 i1 0) (F.face3d2 f2 i0 i0 i0 i1 i1 i1 0))
    (he : ∀ i j k, i0 ≤ i → i ≤ i1 → i0 ≤ j → j ≤ i1 → i0 ≤ k → k ≤ i1 + 1 → F.rd m (F.face3d1 b1 i0 i0 i0 i1 i1 i1 0) [k, i, j] = F.rd m (F.face3d2 b2 i0 i0 i0 i1 i1 i1 0) [k, i, j]) :
    ∃ m', F.celldiffusionflux3d i0 i0 i0 i1 i1 i1 dx b0 b1 b2 gcw u f0 f1 f2 m = .ok m' ∧ F.nodediffusionflux3d i0 i0 i0 i1 i1 i1 dx b0 b1 b2 gcw u f0 f1 f2 m = .ok m' := by
  have P0 : F.Part (T := T) [(F.cell3d u i0 i0 i0 i1 i1 i1 gcw), (F.face3d0 b0 i0 i0 i0 i1 i1 i1 0), (F.face3d1 b1 i0 i0 i0 i1 i1 i1 0), (F.face3d2 b2 i0 i0 i0 i1 i1 i1 0)] [(F.face3d0 f0 i0 i0 i0 i1 i1 i1 0)] (F.nestL [(.K, i0, i1), (.J, i0, i1), (.I, i0, i1 + 1)] (fun _ => 0) fun p => [((F.face3d0 f0 i0 i0 i0 i1 i1 i1 0), [p .I, p .J, p .K], F.Expr.ref (F.face3d0 b0 i0 i0 i0 i1 i1 i1 0) [p .I, p .J, p .K] * (F.Expr.ref (F.cell3d u i0 i0 i0 i1 i1 i1 gcw) [p .I, p .J, p .K] - F.Expr.ref (F.cell3d u i0 i0 i0 i1 i1 i1 gcw) [p .I - 1, p .J, p .K]) / .const (dx 0))]) := by part_tac
  have P1 : F.Part (T := T) [(F.cell3d u i0 i0 i0 i1 i1 i1 gcw), (F.face3d0 b0 i0 i0 i0 i1 i1 i1 0), (F.face3d1 b1 i0 i0 i0 i1 i1 i1 0), (F.face3d2 b2 i0 i0 i0 i1 i1 i1 0)] [(F.face3d1 f1 i0 i0 i0 i1 i1 i1 0)] (F.nestL [(.I, i0, i1), (.K, i0, i1), (.J, i0, i1 + 1)] (fun _ => 0) fun p => [((F.face3d1 f1 i0 i0 i0 i1 i1 i1 0), [p .J, p .K, p .I], F.Expr.ref (F.face3d1 b1 i0 i0 i0 i1 i1 i1 0) [p .J, p .K, p .I] * (F.Expr.ref (F.cell3d u i0 i0 i0 i1 i1 i1 gcw) [p .I, p .J, p .K] - F.Expr.ref (F.cell3d u i0 i0 i0 i1 i1 i1 gcw) [p .I, p .J - 1, p .K]) / .const (dx 1))]) := by part_tac
  have P2 : F.Part (T := T) [(F.cell3d u i0 i0 i0 i1 i1 i1 gcw), (F.face3d0 b0 i0 i0 i0 i1 i1 i1 0), (F.face3d1 b1 i0 i0 i0 i1 i1 i1 0), (F.face3d2 b2 i0 i0 i0 i1 i1 i1 0)] [(F.face3d2 f2 i0 i0 i0 i1 i1 i1 0)] (F.nestL [(.J, i0, i1), (.I, i0, i1), (.K, i0, i1 + 1)] (fun _ => 0) fun p => [((F.face3d2 f2 i0 i0 i0 i1 i1 i1 0), [p .K, p .I, p .J], F.Expr.ref (F.face3d2 b2 i0 i0 i0 i1 i1 i1 0) [p .K, p .I, p .J] * (F.Expr.ref (F.cell3d u i0 i0 i0 i1 i1 i1 gcw) [p .I, p .J, p .K] - F.Expr.ref (F.cell3d u i0 i0 i0 i1 i1 i1 gcw) [p .I, p .J, p .K - 1]) / .const (dx 2))]) := by part_tac
  have P3 : F.Part (T := T) [(F.cell3d u i0 i0 i0 i1 i1 i1 gcw), (F.face3d0 b0 i0 i0 i0 i1 i1 i1 0), (F.face3d1 b1 i0 i0 i0 i1 i1 i1 0), (F.face3d2 b2 i0 i0 i0 i1 i1 i1 0)] [(F.face3d2 f2 i0 i0 i0 i1 i1 i1 0)] (F.nestL [(.J, i0, i1), (.I, i0, i1), (.K, i0, i1 + 1)] (fun _ => 0) fun p => [((F.face3d2 f2 i0 i0 i0 i1 i1 i1 0), [p .K, p .I, p .J], F.Expr.ref (F.face3d1 b1 i0 i0 i0 i1 i1 i1 0) [p .K, p .I, p .J] * (F.Expr.ref (F.cell3d u i0 i0 i0 i1 i1 i1 gcw) [p .I, p .J, p .K] - F.Expr.ref (F.cell3d u i0 i0 i0 i1 i1 i1 gcw) [p .I, p .J, p .K - 1]) / .const (dx 2))]) := by part_tac
  have Q := (P0.append (P1.append P2 (by simpa using hp.2.2)) (by simpa using ⟨hp.1, hp.2.1⟩)).indep h
  have Q' := (P0.append (P1.append P3 (by simpa using hp.2.2)) (by simpa using ⟨hp.1, hp.2.1⟩)).indep h
  obtain ⟨m', g1, g2⟩ := F.Indep.same Q Q' (fun x hx => by
    rcases List.mem_append.1 hx with hx | hx
    · exact ⟨x, List.mem_append_left _ hx, rfl, rfl⟩
    · rcases List.mem_append.1 hx with hx | hx
      · exact ⟨x, List.mem_append_right _ (List.mem_append_left _ hx), rfl, rfl⟩
      · obtain ⟨p, hp', hx⟩ := List.mem_flatMap.1 hx
        rw [List.mem_singleton] at hx
        subst hx
        refine ⟨_, List.mem_append_right _ (List.mem_append_right _ (List.mem_flatMap.2 ⟨p, hp', List.mem_cons_self⟩)), rfl, ?_⟩
        have hr := ((F.mem_nestPts (by nodups)).1 hp').1
        simp only [List.mem_cons, List.not_mem_nil, or_false, forall_eq_or_imp, forall_eq] at hr
        simp only [F.mul_def, F.sub_def, F.div_def, F.Expr.evalT]
        have := he (p .I) (p .J) (p .K) (by omega) (by omega) (by omega) (by omega) (by omega) (by omega)
        unfold F.rd at this
        rw [this]) (fun x hx => by
    rcases List.mem_append.1 hx with hx | hx
    · exact ⟨x, List.mem_append_left _ hx, rfl⟩
    · rcases List.mem_append.1 hx with hx | hx
      · exact ⟨x, List.mem_append_right _ (List.mem_append_left _ hx), rfl⟩
      · obtain ⟨p, hp', hx⟩ := List.mem_flatMap.1 hx
        rw [List.mem_singleton] at hx
        subst hx
        exact ⟨_, List.mem_append_right _ (List.mem_append_right _ (List.mem_flatMap.2 ⟨p, hp', List.mem_cons_self⟩)), rfl⟩)
  refine ⟨m', ?_, ?_⟩
  · rw [← F.seqn_append3, ← F.nest_seqn1, ← F.nest_seqn1, ← F.nest_seqn1] at g1
    exact g1
  · rw [← F.seqn_append3, ← F.nest_seqn1, ← F.nest_seqn1, ← F.nest_seqn1] at g2
    exact g2

end

/-- both run and differ at an address -/
def differQ (q : Ptr) (a b : M (Mem Rat)) : Bool :=
  match a, b with
  | .ok m1, .ok m2 => m1.val q != m2.val q
  | _, _ => false

theorem differQ_ne {q : Ptr} {a b : M (Mem Rat)} (h : differQ q a b = true) : ∃ m1 m2, a = .ok m1 ∧ b = .ok m2 ∧ m1 ≠ m2 := by
  unfold differQ at h
  split at h
  · refine ⟨_, _, rfl, rfl, fun e => ?_⟩
    rw [e] at h
    simp at h
  · simp at h

end Verif
