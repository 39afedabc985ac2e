import Verif.Lemmas.Shapes
import Verif.Spec.Kernels.CoarseFine

/-
`f = c.fine(r, cb...)` against a loop.
-/

namespace Verif
open Spec

variable {T : Type} [Zero T] [Add T] [Sub T] [Mul T] [Div T] [Neg T]

theorem coarse_floor {i r : Int} (hr : 1 ≤ r) : F.coarse i r = i / r := by
  unfold F.coarse
  split
  · exact tdiv_neg_floor ‹_› hr
  · exact Int.tdiv_eq_ediv_of_nonneg (by omega)

omit [Zero T] [Add T] [Sub T] [Mul T] [Div T] [Neg T] in
theorem doLoop_one {a : Int} {body : Int → F.Cmd T} : F.doLoop a a body = body a := by
  funext m
  unfold F.doLoop
  have : F.irange a a = [a] := by
    unfold F.irange
    rw [show a - a + 1 = 1 by omega]
    simp
  rw [this]
  simp only [List.foldlM_cons, List.foldlM_nil]
  cases body a m <;> rfl

/-- `f = c.fine(r, cb...)` and a loop that copies the coarse cell of each fine cell -/
theorem fine_nest {lhs c : Span} {r : Int} {cb D : List DB} {β : Backend} {m : Mem T} {rr : List (Dim × Int × Int)} {p0 : Pt}
    {stmt : Pt → F.Cmd T} (hβ : ValidBackend β) (hD : UnitDom D) (hl : ArrOK m lhs) (hw : Within lhs.geo D)
    (hc : ArrOK m c) (ha : Apart lhs c) (hf : FineOK c r cb D) (hin : ∀ p, InDom D p → Inside c.geo (finePt r cb p))
    (hn : (rr.map (·.1)).Nodup) (hd : ∀ d, d ∈ D.map (·.1) ↔ d ∈ rr.map (·.1))
    (hb : ∀ p, InDom D p ↔ ∀ x ∈ rr, x.2.1 ≤ p x.1 ∧ p x.1 ≤ x.2.2)
    (hs : ∀ p, InDom D p → ∃ is js, stmt p = F.assign (farr lhs) is (.ref (farr c) js) ∧
      is.reverse = lhs.geo.map (fun x => p x.1) ∧ js.reverse = c.geo.map (fun x => finePt r cb p x.1)) :
    ∃ m', (lhs.set (.fine c r cb)).exec D β m = .ok m' ∧ F.nest stmt rr p0 m = .ok m' := by
  have hok : StmtOK m D (lhs.set (.fine c r cb) : Assign T) :=
    ⟨⟨hl.geo, hw.req hl.geo hD, hw.len⟩, hf, .fine, hl.alloc, by
      intro s hs
      simp only [Span.set, rhsArrays, arrays, List.mem_singleton] at hs
      exact hs ▸ hc.alloc, by
      intro p q hp hq hm
      simp only [Span.set, rhsReads, reads, List.mem_singleton] at hm
      exact absurd hm (ha p _ (hw.elem hl.geo hD hp) (hin q hq))⟩
  obtain ⟨m', h1, h2, -⟩ := loop_exec (p0 := p0) (stmt := stmt) hβ (hw.int hl.geo hD) hok hn hd hb fun p hp => by
    obtain ⟨is, js, g1, g2, g3⟩ := hs p hp
    have hi := inside_addr (hw.elem hl.geo hD hp)
    rw [← g2, List.reverse_reverse] at hi
    have hj := inside_addr (hin p hp)
    rw [← g3, List.reverse_reverse] at hj
    refine ⟨_, is, _, g1, hi.1, hi.2, ?_, ?_⟩
    · simp only [F.Expr.refs, List.mem_singleton, forall_eq]
      exact good_of hD hl hw hc ha hj.1
    · obtain ⟨v, hv⟩ := hc.alloc _ (hin p hp)
      have hden : den m (D.map (·.1)) (.fine c r cb) p = .ok (.num v) := by
        simp only [den, Mem.load]
        have : m.val (cell c fun d => if d ∈ cb.map (·.1) then (bnd cb d).first else p d / r) = some v := hv
        rw [this]; rfl
      simp only [F.Expr.evalT, Span.set, rhsT, denT_eq hden, Val.first]
      rw [hj.2]
      unfold ld
      rw [hv]; rfl
  exact ⟨m', h1, h2⟩

end Verif
