import Verif.Lemmas.KernelValues
import Verif.Model.Kernels.SpanTest
import Verif.Spec.SpanTest

/-
Arrays stored with the other direction fastest, statements over domains with strides, and window statements at one point.
-/

namespace Verif
open Spec

variable {T : Type}

/-- an array of two or three dimensions stored the other way round -/
def tCell2 (t : Ptr) (i0 j0 i1 j1 g : Int) : Span := ⟨t, [(Dim.I, ⟨i0 - g, i1 + 1 + g, 1⟩), (Dim.J, ⟨j0 - g, j1 + 1 + g, 1⟩)]⟩
def tCell3 (t : Ptr) (i0 j0 k0 i1 j1 k1 g : Int) : Span :=
  ⟨t, [(Dim.I, ⟨i0 - g, i1 + 1 + g, 1⟩), (Dim.J, ⟨j0 - g, j1 + 1 + g, 1⟩), (Dim.K, ⟨k0 - g, k1 + 1 + g, 1⟩)]⟩

theorem farr_tcell2 {t i0 j0 i1 j1 g} : farr (tCell2 t i0 j0 i1 j1 g) = F.cell2d t j0 i0 j1 i1 g := by
  simp only [farr, tCell2, F.cell2d, List.map_cons, List.map_nil, List.reverse_cons, List.reverse_nil, List.nil_append, List.cons_append,
    F.Arr.mk.injEq, List.cons.injEq, Prod.mk.injEq, and_true, true_and]
  omega

theorem farr_tcell3 {t i0 j0 k0 i1 j1 k1 g} : farr (tCell3 t i0 j0 k0 i1 j1 k1 g) = F.cell3d t k0 j0 i0 k1 j1 i1 g := by
  simp only [farr, tCell3, F.cell3d, List.map_cons, List.map_nil, List.reverse_cons, List.reverse_nil, List.nil_append, List.cons_append,
    F.Arr.mk.injEq, List.cons.injEq, Prod.mk.injEq, and_true, true_and]
  omega

theorem cell_tcell2 {t i0 j0 i1 j1 g p} : cell (tCell2 t i0 j0 i1 j1 g) p = (F.cell2d t j0 i0 j1 i1 g).addrT [p .J, p .I] := cell_farr farr_tcell2
theorem cell_tcell3 {t i0 j0 k0 i1 j1 k1 g p} : cell (tCell3 t i0 j0 k0 i1 j1 k1 g) p = (F.cell3d t k0 j0 i0 k1 j1 i1 g).addrT [p .K, p .J, p .I] :=
  cell_farr farr_tcell3

theorem mkBS_ok {d : Dim} {lo hi s : Int} (h : InInt (hi + 1)) : mkBS d lo hi s = .ok (d, ⟨lo, hi + 1, s⟩) := by
  unfold mkBS Bounds.make
  rw [if_pos rfl, iadd_ok h]
  rfl

/-- a statement leaves the values of its right hand side -/
theorem assign_left [Zero T] {lhs : Span} {e : Expr T} {D : List DB} {β : Backend} {m : Mem T} (hβ : ValidBackend β) (hD : DomInt D)
    (h : StmtOK m D ⟨lhs, .expr e⟩) : ∃ m', (lhs.set e).exec D β m = .ok m' ∧ Left D lhs (fun p => (denT m (D.map (·.1)) e p).first) m m' := by
  obtain ⟨m', h1, h2⟩ := C15_assign hβ hD h
  refine ⟨m', h1, fun p hp => ?_, fun q hq => h2.frame q fun p hp e => hq ⟨p, hp, e⟩, h2.ints⟩
  obtain ⟨v, h3, h4⟩ := h2.at_ p hp
  show m'.val (cell lhs p) = some _
  rw [show cell lhs p = cell (⟨lhs, .expr e⟩ : Assign T).lhs p from rfl, h4, ← rhsT_eq h3]
  rfl

/-- scaling one array into another over a domain with strides -/
theorem scaleOK [Mul T] {m : Mem T} {D : List DB} {lhs s : Span} {t : T} (hl : ArrOK m lhs) (hs : ArrOK m s) (ha : Apart lhs s)
    (hq : ReqOK lhs.geo D) (hn : D.length = lhs.geo.length) (hq' : ReqOK s.geo D) (hn' : D.length = s.geo.length) :
    StmtOK m D ⟨lhs, .expr (t * s.e T)⟩ where
  lhs := ⟨hl.geo, hq, hn⟩
  rhs := ⟨hs.geo, hq', hn'⟩
  typed := .right .acc opShape_arith_num
  lalloc := hl.alloc
  ralloc r hr := by
    have : r = s := by simpa [rhsArrays, nmul_def, Span.e, arrays, accArray] using hr
    exact this ▸ hs.alloc
  noAlias p q hp hq2 hm := by
    have : cell lhs p = cell s q := by simpa [rhsReads, nmul_def, Span.e, reads, accCell] using hm
    exact absurd this (ha p q (inside_full hl.geo hq hn hp) (inside_full hs.geo hq' hn' hq2))

/-- from points to indices -/
theorem Left.sets {D : List DB} {lhs : Span} {g : Pt → T} {m m' : Mem T} {a : F.Arr} {P : List Int → Prop} {f : List Int → T} (h : Left D lhs g m m')
    (ha : farr lhs = a) (hi : ∀ p, InDom D p → Inside lhs.geo p) (hout : ∀ p, InDom D p → P (lhs.geo.map fun x => p x.1).reverse)
    (hin : ∀ is, P is → ∃ p, InDom D p ∧ (lhs.geo.map fun x => p x.1).reverse = is ∧ g p = f is) : F.Sets a P f m m' where
  at_ is hp := by
    obtain ⟨p, h1, h2, h3⟩ := hin is hp
    have h4 := inside_addr (hi p h1)
    rw [h2, ha] at h4
    refine ⟨h4.1, ?_⟩
    rw [← h3, ← h.at_ p h1, ← h4.2]
    rfl
  rest := {
    ints := h.ints
    val := fun q hq => h.frame q fun ⟨p, h1, h2⟩ => by
      have h4 := inside_addr (hi p h1)
      rw [ha] at h4
      exact hq _ h4.1 (hout p h1) (h2.symm.trans h4.2.symm)
    alloc := h.alloc }

end Verif
