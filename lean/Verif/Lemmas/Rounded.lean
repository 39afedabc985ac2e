import Verif.Lemmas.Shapes
import Verif.Spec.Binary64

/-
Tactics and memories for the comparison with the Fortran routines in arithmetic without laws.
-/

namespace Verif
open Spec

/-- the Fortran statement at a point, with the one identity of the arithmetic that may be used -/
macro "body_ops" h:term : tactic => `(tactic| (
  intro p hp
  simp only [List.mem_cons, List.not_mem_nil, or_false, forall_eq_or_imp, forall_eq] at hp
  refine ⟨_, _, by
    farr_rw, by simp [sCell1, sFace1, sCell2, sFace20, sFace21, sCell3, sFace30, sFace31, sFace32], ?_, ?_⟩
  · simp only [F.mul_def, F.sub_def, F.div_def, F.add_def, F.neg_def, F.Expr.refs, mul_def, nmul_def, add_def, sub_def, Span.e, Span.grad, Expr.grad,
      arrays, accArray, List.cons_append, List.nil_append, List.append_nil]
    repeat' (first | exact List.forall_mem_nil _ | refine List.forall_mem_cons.2 ⟨?_, ?_⟩)
    all_goals pick
  · simp only [F.mul_def, F.sub_def, F.div_def, F.add_def, F.neg_def, F.Expr.evalT, mul_def, nmul_def, add_def, sub_def, Span.e, Span.grad, Expr.grad, denT,
      arith, gradOp, okOr, Val.first, accCell, cell_cell1, cell_face1, cell_cell2, cell_face20, cell_face21, cell_cell3, cell_face30, cell_face31, cell_face32]
    (try simp [lowPt, shiftPt, ← sub_eq_add_neg]) <;> first | rfl | exact ($h _ _).symm | exact ($h _ _ _).symm | exact ($h _ _ _ _).symm | rw [$h:term]))

/-! ### rounded arithmetic -/

theorem B64.ext {x y : B64} (h : x.v = y.v) : x = y := by
  cases x; cases y; cases h; rfl

theorem B64.neg_mul (x y : B64) : -x * y = -(x * y) := B64.ext <| by
  show rnd (-x.v * y.v) = -rnd (x.v * y.v)
  rw [_root_.neg_mul, rnd_neg]

theorem B64.mul_comm (x y : B64) : x * y = y * x := B64.ext <| by
  show rnd (x.v * y.v) = rnd (y.v * x.v)
  rw [_root_.mul_comm]

theorem B64.sub_neg (x y : B64) : x + y = x - -y := B64.ext <| by
  show rnd (x.v + y.v) = rnd (x.v - -y.v)
  rw [sub_neg_eq_add]

theorem B64.neg_one_mul (x : B64) : -1 * x = -x := B64.ext <| by
  show rnd (-rnd (1 : Nat) * x.v) = -x.v
  rw [show rnd (1 : Nat) = 1 by decide +kernel, _root_.neg_one_mul, rnd_neg, x.ok]

theorem B64.neg_div (x y : B64) : -x / y = -(x / y) := B64.ext <| by
  show rnd (-x.v / y.v) = -rnd (x.v / y.v)
  rw [_root_.neg_div, rnd_neg]

theorem B64.sub_eq (x y : B64) : x - y = -1 * y + x := by
  rw [B64.neg_one_mul]
  refine B64.ext ?_
  show rnd (x.v - y.v) = rnd (-y.v + x.v)
  rw [sub_eq_neg_add]

/-- the memory of the other examples -/
def exB64 : Mem B64 := ⟨fun q => (exRat.val q).map B64.near, exRat.ints⟩

def exDxB (n : Nat) : B64 := .near (n + 1 / 2)

theorem exB64_ok {a : F.Arr} (h : F.ArrOK exRat a) : F.ArrOK exB64 a where
  alloc is hi := by
    obtain ⟨v, hv⟩ := h.alloc is hi
    exact ⟨.near v, by simp [exB64, hv]⟩
  fits := h.fits
  int := h.int

theorem exB64_args {i o : List F.Arr} (h : F.Args exRat i o) : F.Args exB64 i o := ⟨fun a ha => exB64_ok (h.ok a ha), h.apart⟩

macro "ex_argsB" : tactic => `(tactic| (refine exB64_args ?_; ex_args))

/-! ### witnesses -/

/-- two runs end, in memories that differ at `q` -/
def differ (q : Ptr) (a b : M (Mem B64)) : Bool :=
  match a, b with
  | .ok m1, .ok m2 => decide (m1.val q ≠ m2.val q)
  | _, _ => false

theorem differ_ne {q : Ptr} {a b : M (Mem B64)} (h : differ q a b = true) : ∃ m1 m2, a = .ok m1 ∧ b = .ok m2 ∧ m1 ≠ m2 := by
  unfold differ at h
  split at h
  · refine ⟨_, _, rfl, rfl, fun e => ?_⟩
    rw [e] at h
    simp at h
  · simp at h

/-- every block has 1000 elements -/
def wB (f : Nat → Int → Int) : Mem B64 := ⟨fun q => if 0 ≤ q.off ∧ q.off < 1000 then some (.near (f q.blk q.off)) else none, fun _ => none⟩

theorem wB_ok {f : Nat → Int → Int} {a : F.Arr} (h : F.ArrOK exRat a) : F.ArrOK (wB f) a where
  alloc is hi := by
    obtain ⟨v, hv⟩ := h.alloc is hi
    simp only [exRat] at hv
    split at hv
    · rename_i h
      exact ⟨_, if_pos h⟩
    · simp at hv
  fits := h.fits
  int := h.int

theorem wB_args {f : Nat → Int → Int} {i o : List F.Arr} (h : F.Args exRat i o) : F.Args (wB f) i o := ⟨fun a ha => wB_ok (h.ok a ha), h.apart⟩

macro "w_args" : tactic => `(tactic| (refine wB_args ?_; ex_args))

end Verif
