import Verif.Lemmas.Kernel
import Mathlib.Algebra.Field.Defs
import Mathlib.Algebra.Field.Rat
import Mathlib.Tactic.Ring

/-
The arrays of the kernels, as spans and as Fortran arrays.
-/

namespace Verif
open Spec

variable {T : Type}

def sCell1 (t : Ptr) (i0 i1 g : Int) : Span := ⟨t, [(Dim.I, ⟨i0 - g, i1 + 1 + g, 1⟩)]⟩
def sFace1 (t : Ptr) (i0 i1 : Int) : Span := ⟨t, [(Dim.I, ⟨i0, i1 + 1 + 1, 1⟩)]⟩
def sCell2 (t : Ptr) (i0 j0 i1 j1 g : Int) : Span := ⟨t, [(Dim.J, ⟨j0 - g, j1 + 1 + g, 1⟩), (Dim.I, ⟨i0 - g, i1 + 1 + g, 1⟩)]⟩
def sFace20 (t : Ptr) (i0 j0 i1 j1 : Int) : Span := ⟨t, [(Dim.J, ⟨j0, j1 + 1, 1⟩), (Dim.I, ⟨i0, i1 + 1 + 1, 1⟩)]⟩
def sFace21 (t : Ptr) (i0 j0 i1 j1 : Int) : Span := ⟨t, [(Dim.I, ⟨i0, i1 + 1, 1⟩), (Dim.J, ⟨j0, j1 + 1 + 1, 1⟩)]⟩
def sCell3 (t : Ptr) (i0 j0 k0 i1 j1 k1 g : Int) : Span :=
  ⟨t, [(Dim.K, ⟨k0 - g, k1 + 1 + g, 1⟩), (Dim.J, ⟨j0 - g, j1 + 1 + g, 1⟩), (Dim.I, ⟨i0 - g, i1 + 1 + g, 1⟩)]⟩
def sFace30 (t : Ptr) (i0 j0 k0 i1 j1 k1 : Int) : Span := ⟨t, [(Dim.K, ⟨k0, k1 + 1, 1⟩), (Dim.J, ⟨j0, j1 + 1, 1⟩), (Dim.I, ⟨i0, i1 + 1 + 1, 1⟩)]⟩
def sFace31 (t : Ptr) (i0 j0 k0 i1 j1 k1 : Int) : Span := ⟨t, [(Dim.I, ⟨i0, i1 + 1, 1⟩), (Dim.K, ⟨k0, k1 + 1, 1⟩), (Dim.J, ⟨j0, j1 + 1 + 1, 1⟩)]⟩
def sFace32 (t : Ptr) (i0 j0 k0 i1 j1 k1 : Int) : Span := ⟨t, [(Dim.J, ⟨j0, j1 + 1, 1⟩), (Dim.I, ⟨i0, i1 + 1, 1⟩), (Dim.K, ⟨k0, k1 + 1 + 1, 1⟩)]⟩

macro "shape_eq" : tactic => `(tactic| (
  simp only [farr, sCell1, sFace1, sCell2, sFace20, sFace21, sCell3, sFace30, sFace31, sFace32, F.cell1d, F.face1d, F.cell2d, F.face2d0, F.face2d1,
    F.cell3d, F.face3d0, F.face3d1, F.face3d2, List.map_cons, List.map_nil, List.reverse_cons, List.reverse_nil, List.nil_append, List.cons_append,
    F.Arr.mk.injEq, List.cons.injEq, Prod.mk.injEq, and_true, true_and]
  omega))

theorem farr_cell1 {t i0 i1 g} : farr (sCell1 t i0 i1 g) = F.cell1d t i0 i1 g := by shape_eq
theorem farr_face1 {t i0 i1} : farr (sFace1 t i0 i1) = F.face1d t i0 i1 0 := by shape_eq
theorem farr_cell2 {t i0 j0 i1 j1 g} : farr (sCell2 t i0 j0 i1 j1 g) = F.cell2d t i0 j0 i1 j1 g := by shape_eq
theorem farr_face20 {t i0 j0 i1 j1} : farr (sFace20 t i0 j0 i1 j1) = F.face2d0 t i0 j0 i1 j1 0 := by shape_eq
theorem farr_face21 {t i0 j0 i1 j1} : farr (sFace21 t i0 j0 i1 j1) = F.face2d1 t i0 j0 i1 j1 0 := by shape_eq
theorem farr_cell3 {t i0 j0 k0 i1 j1 k1 g} : farr (sCell3 t i0 j0 k0 i1 j1 k1 g) = F.cell3d t i0 j0 k0 i1 j1 k1 g := by shape_eq
theorem farr_face30 {t i0 j0 k0 i1 j1 k1} : farr (sFace30 t i0 j0 k0 i1 j1 k1) = F.face3d0 t i0 j0 k0 i1 j1 k1 0 := by shape_eq
theorem farr_face31 {t i0 j0 k0 i1 j1 k1} : farr (sFace31 t i0 j0 k0 i1 j1 k1) = F.face3d1 t i0 j0 k0 i1 j1 k1 0 := by shape_eq
theorem farr_face32 {t i0 j0 k0 i1 j1 k1} : farr (sFace32 t i0 j0 k0 i1 j1 k1) = F.face3d2 t i0 j0 k0 i1 j1 k1 0 := by shape_eq

/-! ### cells by indices -/

theorem cell_farr {s : Span} {a : F.Arr} {p : Pt} (h : farr s = a) : cell s p = a.addrT (s.geo.map fun x => p x.1).reverse := by
  rw [← h, addrT_farr (by simp), List.reverse_reverse, cell_eq]

theorem cell_cell1 {t i0 i1 g p} : cell (sCell1 t i0 i1 g) p = (F.cell1d t i0 i1 g).addrT [p .I] := cell_farr farr_cell1
theorem cell_face1 {t i0 i1 p} : cell (sFace1 t i0 i1) p = (F.face1d t i0 i1 0).addrT [p .I] := cell_farr farr_face1
theorem cell_cell2 {t i0 j0 i1 j1 g p} : cell (sCell2 t i0 j0 i1 j1 g) p = (F.cell2d t i0 j0 i1 j1 g).addrT [p .I, p .J] := cell_farr farr_cell2
theorem cell_face20 {t i0 j0 i1 j1 p} : cell (sFace20 t i0 j0 i1 j1) p = (F.face2d0 t i0 j0 i1 j1 0).addrT [p .I, p .J] := cell_farr farr_face20
theorem cell_face21 {t i0 j0 i1 j1 p} : cell (sFace21 t i0 j0 i1 j1) p = (F.face2d1 t i0 j0 i1 j1 0).addrT [p .J, p .I] := cell_farr farr_face21
theorem cell_cell3 {t i0 j0 k0 i1 j1 k1 g p} : cell (sCell3 t i0 j0 k0 i1 j1 k1 g) p =
    (F.cell3d t i0 j0 k0 i1 j1 k1 g).addrT [p .I, p .J, p .K] := cell_farr farr_cell3
theorem cell_face30 {t i0 j0 k0 i1 j1 k1 p} : cell (sFace30 t i0 j0 k0 i1 j1 k1) p =
    (F.face3d0 t i0 j0 k0 i1 j1 k1 0).addrT [p .I, p .J, p .K] := cell_farr farr_face30
theorem cell_face31 {t i0 j0 k0 i1 j1 k1 p} : cell (sFace31 t i0 j0 k0 i1 j1 k1) p =
    (F.face3d1 t i0 j0 k0 i1 j1 k1 0).addrT [p .J, p .K, p .I] := cell_farr farr_face31
theorem cell_face32 {t i0 j0 k0 i1 j1 k1 p} : cell (sFace32 t i0 j0 k0 i1 j1 k1) p =
    (F.face3d2 t i0 j0 k0 i1 j1 k1 0).addrT [p .K, p .I, p .J] := cell_farr farr_face32

/-! ### unfolding operators -/

section
variable {e f : Expr T} {t : T}
theorem mul_def [Mul T] : e * f = .zip (arith (· * ·)) e f := rfl
theorem nmul_def [Mul T] : t * e = .right (arith (· * ·)) t e := rfl
theorem add_def [Add T] : e + f = .zip (arith (· + ·)) e f := rfl
theorem sub_def [Sub T] : e - f = .zip (arith (· - ·)) e f := rfl
end

section
variable {e f : F.Expr T}
theorem F.mul_def : e * f = .mul e f := rfl
theorem F.add_def : e + f = .add e f := rfl
theorem F.sub_def : e - f = .sub e f := rfl
theorem F.div_def : e / f = .div e f := rfl
theorem F.neg_def : -e = .neg e := rfl
end

/-- unfold the shapes in a goal about their bounds, then `omega` -/
macro "list_omega" : tactic => `(tactic| (
  simp [sCell1, sFace1, sCell2, sFace20, sFace21, sCell3, sFace30, sFace31, sFace32, extDom, shiftDom, InInt, InDom, IsPoint, InRange, F.cell1d, F.face1d,
    F.cell2d, F.face2d0, F.face2d1, F.cell3d, F.face3d0, F.face3d1, F.face3d2, F.InBounds] <;> omega))

/-- dimensions of shapes -/
macro "dims" : tactic => `(tactic| (
  simp [sCell1, sFace1, sCell2, sFace20, sFace21, sCell3, sFace30, sFace31, sFace32, extDom, shiftDom] <;> decide))

/-- the domain and the loops have the same dimensions -/
macro "same_dims" : tactic => `(tactic| (
  intro d
  simp [sCell1, sFace1, sCell2, sFace20, sFace21, sCell3, sFace30, sFace31, sFace32, or_comm, or_left_comm, or_assoc]))

macro "farr_tac" : tactic => `(tactic| first
  | exact farr_cell1 | exact farr_face1 | exact farr_cell2 | exact farr_face20 | exact farr_face21
  | exact farr_cell3 | exact farr_face30 | exact farr_face31 | exact farr_face32)

macro "farr_rw" : tactic => `(tactic| first
  | rw [farr_cell1] | rw [farr_face1] | rw [farr_cell2] | rw [farr_face20] | rw [farr_face21]
  | rw [farr_cell3] | rw [farr_face30] | rw [farr_face31] | rw [farr_face32])

/-- `ArrOK m s` from the Fortran array -/
macro "arr_ok" h:term : tactic => `(tactic| exact arrOK_farr (by
    farr_rw
    exact $h) (by dims) (by dims) (by list_omega))

macro "apart_ok" h:term : tactic => `(tactic| exact apart_farr (by
    simp only [farr_cell1, farr_face1, farr_cell2, farr_face20, farr_face21, farr_cell3, farr_face30, farr_face31, farr_face32]
    exact $h))

macro "unit_dom" : tactic => `(tactic| exact UnitDom.mk (by dims) (by dims) (by list_omega))
macro "within" : tactic => `(tactic| exact Within.mk (by dims) (by list_omega))

macro "conj" : tactic => `(tactic| repeat' (first | assumption | within | apply And.intro))

/-- arrays of the operands -/
macro "operands" : tactic => `(tactic| (
  simp only [mul_def, nmul_def, add_def, sub_def, Span.e, Span.grad, Expr.grad, arrays, accArray, List.cons_append, List.nil_append, List.mem_cons,
    List.not_mem_nil, or_false, forall_eq_or_imp, forall_eq]
  repeat' (first | assumption | apply And.intro)))

macro "fits" : tactic => `(tactic| (
  simp only [mul_def, nmul_def, add_def, sub_def, Span.e, Span.grad, Expr.grad, Fit, AccFit]
  repeat' (first | within | apply And.intro | (dims; done))))

macro "typed" : tactic => `(tactic| (
  simp only [mul_def, nmul_def, add_def, sub_def, Span.e, Span.grad, Expr.grad]
  repeat' (first
    | exact HasShape.acc | exact HasShape.stencil | exact opShape_grad | exact opShape_arith_num
    | refine HasShape.zip ?_ ?_ opShape_arith_num | refine HasShape.right ?_ opShape_arith_num | refine HasShape.right HasShape.stencil opShape_grad)))

macro "pick" : tactic => `(tactic| first
  | exact ⟨_, List.mem_cons_self, by farr_tac, by list_omega⟩
  | exact ⟨_, List.mem_cons_of_mem _ List.mem_cons_self, by farr_tac, by list_omega⟩
  | exact ⟨_, List.mem_cons_of_mem _ (List.mem_cons_of_mem _ List.mem_cons_self), by farr_tac, by list_omega⟩
  | exact ⟨_, List.mem_cons_of_mem _ (List.mem_cons_of_mem _ (List.mem_cons_of_mem _ List.mem_cons_self)), by farr_tac, by list_omega⟩
  | exact ⟨_, List.mem_cons_of_mem _ (List.mem_cons_of_mem _ (List.mem_cons_of_mem _ (List.mem_cons_of_mem _ List.mem_cons_self))), by farr_tac, by list_omega⟩
  | exact ⟨_, List.mem_cons_of_mem _ (List.mem_cons_of_mem _ (List.mem_cons_of_mem _ (List.mem_cons_of_mem _ (List.mem_cons_of_mem _ List.mem_cons_self)))),
      by farr_tac, by list_omega⟩)

/-- the Fortran statement at a point -/
macro "body" : tactic => `(tactic| (
  intro p hp
  simp only [List.mem_cons, List.not_mem_nil, or_false, forall_eq_or_imp, forall_eq] at hp
  refine ⟨_, _, by
    farr_rw, by simp [sCell1, sFace1, sCell2, sFace20, sFace21, sCell3, sFace30, sFace31, sFace32], ?_, ?_⟩
  · simp only [F.mul_def, F.sub_def, F.div_def, F.add_def, F.neg_def, F.Expr.refs, mul_def, nmul_def, add_def, sub_def, Span.e, Span.grad, Expr.grad,
      arrays, accArray, List.cons_append, List.nil_append, List.append_nil]
    repeat' (first | exact List.forall_mem_nil _ | refine List.forall_mem_cons.2 ⟨?_, ?_⟩)
    all_goals pick
  · simp only [F.mul_def, F.sub_def, F.div_def, F.add_def, F.neg_def, F.Expr.evalT, mul_def, nmul_def, add_def, sub_def, Span.e, Span.grad, Expr.grad, denT,
      arith, gradOp, okOr, Val.first, accCell, cell_cell1, cell_face1, cell_cell2, cell_face20, cell_face21, cell_cell3, cell_face30, cell_face31, cell_face32]
    simp [lowPt, shiftPt, ← sub_eq_add_neg]
    try ring))

/-! ### a memory for the examples -/

/-- every block has 1000 elements -/
def exRat : Mem Rat := ⟨fun q => if 0 ≤ q.off ∧ q.off < 1000 then some (q.blk * 7 + q.off * q.off) else none, fun _ => none⟩

def exDx (n : Nat) : Rat := n + 1 / 2

theorem colMajor_range : ∀ {ds : List (Int × Int)} {is : List Int}, F.InBounds ds is →
    0 ≤ F.colMajor ds is ∧ F.colMajor ds is < (ds.map fun d => d.2 - d.1 + 1).prod
  | [], [], _ => by simp [F.colMajor]
  | (l, u) :: ds, i :: is, ⟨h1, h2⟩ => by
    have := colMajor_range h2
    simp only [F.colMajor, List.map_cons, List.prod_cons]
    constructor
    · nlinarith
    · nlinarith

theorem exRat_ok {a : F.Arr} (hp : a.ptr.off = 0) (hn : (a.dims.map fun d => d.2 - d.1 + 1).prod ≤ 1000) (hi : ∀ d ∈ a.dims, InInt d.1 ∧ InInt (d.2 + 1)) :
    F.ArrOK exRat a where
  alloc is h := by
    have := colMajor_range h
    refine ⟨_, if_pos ?_⟩
    simp only [Ptr.add, hp]
    omega
  fits := by omega
  int := hi

theorem apart_blk {a b : F.Arr} (h : a.ptr.blk ≠ b.ptr.blk) : F.Apart a b := fun _ _ _ _ e => h (by have := congrArg (fun q : Ptr => q.blk) e; exact this)

macro "ex_args" : tactic => `(tactic| (
  refine ⟨?_, ?_⟩
  · intro a ha
    have : a.ptr.off = 0 ∧ (a.dims.map fun d => d.2 - d.1 + 1).prod ≤ 1000 ∧ ∀ d ∈ a.dims, InInt d.1 ∧ InInt (d.2 + 1) := by
      revert a
      unfold InInt
      decide
    exact exRat_ok this.1 this.2.1 this.2.2
  · intro o ho a ha
    refine apart_blk ?_
    revert o a
    decide))

end Verif
