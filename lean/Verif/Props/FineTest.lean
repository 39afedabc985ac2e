import Verif.Lemmas.SpanTest

/-
C96: the coarse to fine test kernel.
-/

namespace Verif
open Spec

variable {T : Type} [Zero T]

theorem sCell1_zero {t : Ptr} {i0 i1 : Int} : makeSpan t [(.I, ⟨i0, i1 + 1, 1⟩)] = sCell1 t i0 i1 0 := by
  simp [makeSpan, Bounds.unitStride, sCell1]

/-- `test::init` of the coarse to fine test: every fine cell `i`, also with a negative index, gets the coarse cell that contains it, the one with
index `i / ratio` rounded down; nothing else changes. -/
theorem C96_fine {fi0 fi1 ci0 ci1 ratio : Int} {c f : Ptr} {β : Nat → Backend} {m : Mem T} (hβ : ∀ n, ValidBackend (β n)) (hr : 1 ≤ ratio)
    (hf : fi0 ≤ fi1) (hc : ci0 * ratio ≤ fi0) (hc' : fi1 < (ci1 + 1) * ratio) (h : F.Args m [F.cell1d c ci0 ci1 0] [F.cell1d f fi0 fi1 0]) :
    ∃ m', Cuda.fineTest fi0 fi1 ci0 ci1 ratio c f β m = .ok m' ∧
      (∀ i k, fi0 ≤ i → i ≤ fi1 → k * ratio ≤ i → i < (k + 1) * ratio → F.El m' (F.cell1d f fi0 fi1 0) [i] (F.rd m (F.cell1d c ci0 ci1 0) [k])) ∧
      F.Changes (F.cell1d f fi0 fi1 0) (fun c => ∃ i, c = [i] ∧ fi0 ≤ i ∧ i ≤ fi1) m m' := by
  have hlo : ci0 ≤ fi0 / ratio := (Int.le_ediv_iff_mul_le (by omega)).2 hc
  have hhi : ∀ i, i ≤ fi1 → i / ratio ≤ ci1 := fun i hi => by
    have : i / ratio < ci1 + 1 := (Int.ediv_lt_iff_lt_mul (by omega)).2 (by omega)
    omega
  have hlo' : ∀ i, fi0 ≤ i → ci0 ≤ i / ratio := fun i hi => hlo.trans (Int.ediv_le_ediv (by omega) hi)
  have hcc : ci0 ≤ ci1 := (hlo' fi1 hf).trans (hhi fi1 (le_refl _))
  have kc := h.ok (F.cell1d c ci0 ci1 0) (by simp)
  have kf := h.ok (F.cell1d f fi0 fi1 0) (by simp)
  have Ic := kc.int
  have If := kf.int
  simp only [F.cell1d, List.mem_cons, List.not_mem_nil, or_false, forall_eq, InInt] at Ic If
  have mkC := mkB_ok (d := .I) (lo := ci0) (hi := ci1) (by list_omega)
  have mkF := mkB_ok (d := .I) (lo := fi0) (hi := fi1) (by list_omega)
  have Ac : ArrOK m (sCell1 c ci0 ci1 0) := by arr_ok kc
  have Af : ArrOK m (sCell1 f fi0 fi1 0) := by arr_ok kf
  have P : Apart (sCell1 f fi0 fi1 0) (sCell1 c ci0 ci1 0) := by apart_ok (h.apart _ (by simp) _ (by simp))
  have hD : UnitDom [(Dim.I, (⟨fi0, fi1 + 1, 1⟩ : Bounds))] := by unit_dom
  have hw : Within (sCell1 f fi0 fi1 0).geo [(Dim.I, (⟨fi0, fi1 + 1, 1⟩ : Bounds))] := by within
  have hI : ∀ p, InDom [(Dim.I, (⟨fi0, fi1 + 1, 1⟩ : Bounds))] p → fi0 ≤ p .I ∧ p .I ≤ fi1 := fun p hp => by
    have := hp _ List.mem_cons_self
    unfold IsPoint InRange at this
    dsimp only at this
    omega
  have hO : FineOK (sCell1 c ci0 ci1 0) ratio [] [(Dim.I, (⟨fi0, fi1 + 1, 1⟩ : Bounds))] := {
    ratio := hr
    geo := Ac.geo
    nodup := by simp
    cnodup := by simp
    len := by simp
    glen := by simp [sCell1]
    line := ⟨.I, ⟨fi0, fi1 + 1, 1⟩, by simp, by simp, by simp [sCell1], rfl, by show fi0 < fi1 + 1; omega, by simp, by simp [sCell1]⟩
    inside := by
      intro k h0 h1
      have h1 : k < fi1 - fi0 + 1 := by simpa [npts, extents, count] using h1
      intro x hx
      simp only [sCell1, List.mem_singleton] at hx
      subst hx
      have e : finePt ratio [] (pt [(Dim.I, (⟨fi0, fi1 + 1, 1⟩ : Bounds))] k) .I = (fi0 + k) / ratio := by
        simp [finePt, pt, npts, extents]
      have h2 := hlo' (fi0 + k) (by omega)
      have h3 := hhi (fi0 + k) (by omega)
      show InRange _ _
      unfold InRange
      dsimp only
      rw [e]
      omega }
  have hread : ∀ p, reads m.ints [Dim.I] (.fine (sCell1 c ci0 ci1 0) ratio [] : Expr T) p = [(F.cell1d c ci0 ci1 0).addrT [p .I / ratio]] := fun p => by
    simp only [reads, cell_cell1]
    simp
  have hS : StmtOK m [(Dim.I, (⟨fi0, fi1 + 1, 1⟩ : Bounds))] ⟨sCell1 f fi0 fi1 0, .expr (.fine (sCell1 c ci0 ci1 0) ratio [])⟩ := {
    lhs := ⟨Af.geo, hw.req Af.geo hD, hw.len⟩
    rhs := hO
    typed := HasShape.fine
    lalloc := Af.alloc
    ralloc := by
      intro s hs
      simp only [rhsArrays, arrays, List.mem_singleton] at hs
      subst hs
      exact Ac.alloc
    noAlias := by
      intro p q hp hq hm
      simp only [rhsReads, List.map_cons, List.map_nil, hread, List.mem_singleton] at hm
      have hq' := hI q hq
      have e : (F.cell1d c ci0 ci1 0).addrT [q .I / ratio] = cell (sCell1 c ci0 ci1 0) (pt1 (q .I / ratio)) := by rw [cell_cell1]; rfl
      rw [e] at hm
      refine absurd hm (P p _ (hw.elem Af.geo hD hp) ?_)
      have h2 := hlo' _ hq'.1
      have h3 := hhi _ hq'.2
      simp [Inside, sCell1, InRange, pt1]
      omega }
  obtain ⟨m', c', x⟩ := assign_left (β := β 0) (hβ 0) (hw.int Af.geo hD) hS
  have key : F.Sets (F.cell1d f fi0 fi1 0) (fun c => ∃ i, c = [i] ∧ fi0 ≤ i ∧ i ≤ fi1) (fun l => F.rd m (F.cell1d c ci0 ci1 0) (l.map (· / ratio))) m m' := by
    refine x.sets farr_cell1 (fun p hp => hw.elem Af.geo hD hp) (fun p hp => ⟨p .I, rfl, hI p hp⟩) ?_
    rintro _ ⟨i, rfl, hi⟩
    have hp : InDom [(Dim.I, (⟨fi0, fi1 + 1, 1⟩ : Bounds))] (pt1 i) := by
      simp [InDom, pt1, IsPoint, InRange]; omega
    refine ⟨pt1 i, hp, rfl, ?_⟩
    obtain ⟨v, h1, -⟩ := C14_value (m := m) HasShape.fine (h := hO) (by
      intro s hs
      simp only [arrays, List.mem_singleton] at hs
      subst hs
      exact Ac.alloc) hp
    have h2 := h1
    simp only [den] at h1
    obtain ⟨w, h3, h4⟩ := bind_inv h1
    injection h4 with h4
    simp only [denT, h2, okOr, ← h4, Val.first]
    rw [← load_ld h3, cell_cell1]
    simp [F.rd, pt1]
  refine ⟨m', ?_, fun i k h1 h2 h3 h4 => ?_, key.rest⟩
  · unfold Cuda.fineTest
    refine bind_step mkC <| bind_step mkF ?_
    simp only [sCell1_zero]
    exact bind_step c' rfl
  · have := key.at_ [i] ⟨i, rfl, h1, h2⟩
    have e : i / ratio = k := by
      have h5 : k ≤ i / ratio := (Int.le_ediv_iff_mul_le (by omega)).2 h3
      have h6 : i / ratio < k + 1 := (Int.ediv_lt_iff_lt_mul (by omega)).2 h4
      omega
    simpa [e] using this

example : ∃ m', Cuda.fineTest (-5) 6 (-3) 3 2 ⟨0, 0⟩ ⟨1, 0⟩ (fun _ => revBackend) exRat = .ok m' ∧
    (∀ i k, -5 ≤ i → i ≤ 6 → k * 2 ≤ i → i < (k + 1) * 2 → F.El m' (F.cell1d ⟨1, 0⟩ (-5) 6 0) [i] (F.rd exRat (F.cell1d ⟨0, 0⟩ (-3) 3 0) [k])) ∧
    F.Changes (F.cell1d ⟨1, 0⟩ (-5) 6 0) (fun c => ∃ i, c = [i] ∧ -5 ≤ i ∧ i ≤ 6) exRat m' :=
  C96_fine (fun _ => revBackend_ok) (by decide) (by decide) (by decide) (by decide) (by ex_args)

end Verif
