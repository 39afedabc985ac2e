import Verif.Spec.Assign
import Verif.Lemmas.Eval
import Verif.Lemmas.Parallel

namespace Verif
open Spec

variable {T : Type}

/-- a domain fitting the array on the left hand side -/
structure LhsOK (s : Span) (D : List DB) : Prop where
  geo : GeoOK s.geo
  req : ReqOK s.geo D
  len : D.length = s.geo.length

def RhsOK (tab : Ptr → Option Int) (D : List DB) : Rhs T → Prop
  | .num _ => True
  | .expr e => ExprOK tab D e

theorem IsPoint.inRange {b : Bounds} {x : Int} (h : IsPoint b x) : InRange b x := h.1

/-- a point of the domain lies inside the array -/
theorem LhsOK.inside {s : Span} {D : List DB} (h : LhsOK s D) {p : Pt} (hp : InDom D p) : Inside s.geo p := by
  intro x hx
  have hm : x.1 ∈ D.map (·.1) := (perm_of_full h.req h.len).mem_iff.1 (List.mem_map_of_mem hx)
  have hb := bnd_mem hm
  have h1 := hp _ hb
  have h2 := h.req.inside _ hb x.2 hx
  obtain ⟨⟨h3, h4⟩, -⟩ := h1
  simp only at h2 h3 h4
  exact ⟨by omega, by omega⟩

theorem LhsOK.npts_le {s : Span} {D : List DB} (h : LhsOK s D) : npts D ≤ 2147483647 := by
  obtain ⟨v, -, hb, hn, -, -⟩ := call_ok (it := s.ptr) h.geo h.req
  have := hb.toWF.lt
  rw [hn] at this
  exact this

/-- distinct points have distinct cells -/
theorem LhsOK.cell_inj {s : Span} {D : List DB} (h : LhsOK s D) {p q : Pt} (hp : InDom D p) (hq : InDom D q)
    (e : cell s p = cell s q) : ∀ x ∈ D, p x.1 = q x.1 := by
  have : storeOff s.geo p = storeOff s.geo q := by
    simp only [cell, Ptr.add, Ptr.mk.injEq] at e; omega
  have := storeOff_inj (h.inside hp) (h.inside hq) this
  intro x hx
  obtain ⟨g, hg⟩ := h.req.mem_geo hx
  exact this (x.1, g) hg

/-- what the statement leaves, and that its elements do not get in each other's way -/
theorem assign_free {a : Assign T} {D : List DB} {β : Backend} {m : Mem T} {f : Pt → T} (hβ : ValidBackend β) (hD : DomInt D)
    (hl : LhsOK a.lhs D) (hr : RhsOK m.ints D a.rhs) (hf : ∀ p, InDom D p → rhsDen m (D.map (·.1)) a.rhs p = .ok (f p))
    (hw : ∀ p, InDom D p → ∃ v, m.val (cell a.lhs p) = some v) (hna : NoAlias m.ints a.lhs D a.rhs) :
    ∃ m', a.exec D β m = .ok m' ∧ Assigned m a.lhs D f m' ∧ ∃ v, a.lhs.call D = .ok v ∧ v.size = .ok (npts D) ∧
      match a.rhs with
      | .num t => RaceFree (npts D) (assignThread (fun _ _ => .ok t) v (β (npts D) 2)) m m'
      | .expr e => ∃ i, e.call D = .ok i ∧ RaceFree (npts D) (assignThread (fun k m => do
          let i ← runMoves ((β (npts D) 2).rhist k) i
          let x ← i.deref m
          x.toNum) v (β (npts D) 2)) m m' := by
  obtain ⟨v, hv, hb, hn, -, hat⟩ := call_ok (it := a.lhs.ptr) hl.geo hl.req
  have hsz : v.size = .ok (npts D) := by rw [MT.size_ok hb.toWF, hn]; rfl
  have hσ := hβ (npts D) 2
  set σ := β (npts D) 2 with hσd
  have hdom := hl.req.dom
  have hpt : ∀ {k}, 0 ≤ k → k < npts D → InDom D (pt D k) := fun h0 h1 => pt_inDom hdom h0 h1
  have hwalk : FWalk (β := MT) (npts D) v.at_ := by have := hb.fwalk; rwa [hn] at this
  have hcell : ∀ {k}, 0 ≤ k → k < npts D → (v.at_ k).addr = .ok (cell a.lhs (pt D k)) := by
    intro k h0 h1
    exact (hat k h0 h1 (pt D k) (fun _ _ => rfl) (by
      rw [List.drop_eq_nil_of_le (by have := hl.len; omega)]; intro x hx; cases hx)).1
  -- the store of element k
  have hwr : ∀ {k}, 0 ≤ k → k < npts D → (do
      let o ← runMoves (σ.whist k) v
      o.addr) = .ok (cell a.lhs (pt D k)) := by
    intro k h0 h1
    obtain ⟨w1, w2⟩ := hσ.whist k h0 h1
    have := hwalk.run hl.npts_le w1
    rw [zero_add, w2, ← hb.eq_at] at this
    rw [this, M.ok_bind, hcell h0 h1]
  -- whatever evaluates the right hand side at k
  have main : ∀ rd : Int → Mem T → M T,
      (∀ k, 0 ≤ k → k < npts D → ∀ m' : Mem T, m'.ints = m.ints → rd k m' = rhsDen m' (D.map (·.1)) a.rhs (pt D k)) →
      ∃ m', parallel (assignThread rd v σ) σ.trace m = .ok m' ∧ Assigned m a.lhs D f m' ∧ RaceFree (npts D) (assignThread rd v σ) m m' := by
    intro rd hrd
    have hcong : ∀ k, 0 ≤ k → k < npts D → ∀ m1 : Mem T, m1.ints = m.ints →
        (∀ q ∈ rhsReads m.ints (D.map (·.1)) a.rhs (pt D k), m1.val q = m.val q) → rd k m1 = .ok (f (pt D k)) := by
      intro k h0 h1 m1 hi hq
      rw [hrd k h0 h1 m1 hi, ← hf _ (hpt h0 h1)]
      cases hrhs : a.rhs with
      | num t => rfl
      | expr e =>
        simp only [rhsDen]
        rw [hrhs] at hq
        rw [den_congr (m := m1) (m' := m) hi (by rw [hi]; exact hq)]
    obtain ⟨m', h1, hfree, h2, h3, h4⟩ := parallel_free (n := npts D) (c := 2) (threads := assignThread rd v σ) (m := m)
      (R := fun k q => q ∈ rhsReads m.ints (D.map (·.1)) a.rhs (pt D k)) (W := fun k q => q = cell a.lhs (pt D k))
      (fin := fun k => ([.val (.num (f (pt D k)))], { m with val := fun q => if q = cell a.lhs (pt D k) then some (f (pt D k)) else m.val q }))
      (trace := σ.trace) (fun _ _ _ => rfl)
      (by
        intro k k0 k1
        refine ⟨fun m1 m2 hi1 hag => ?_, ([.val (.num (f (pt D k)))], m), ?_, ⟨_, hwr k0 k1, rfl⟩, ([.val (.num (f (pt D k)))], ⟨fun q => if q = cell a.lhs (pt D k) then some (f (pt D k)) else m.val q, m.ints⟩), ?_, rfl⟩
        · dsimp only
          rw [hrd k k0 k1 m1 hi1, hrd k k0 k1 m2 (hag.1.symm.trans hi1)]
          cases hrhs : a.rhs with
          | num t => rfl
          | expr e =>
            simp only [rhsDen]
            rw [den_congr (m := m1) (m' := m2) hag.1]
            intro q hq
            rw [hi1] at hq
            exact hag.2 q (Or.inl (by rw [hrhs]; exact hq))
        · simp only [Micro.run]
          rw [hcong k k0 k1 m rfl (fun _ _ => rfl), M.ok_bind]
          rfl
        · simp only [Micro.run]
          rw [hwr k0 k1, M.ok_bind]
          obtain ⟨v0, hv0⟩ := hw _ (hpt k0 k1)
          simp only [List.getLast?_singleton, Mem.store, hv0, M.ok_bind])
      (by
        intro k k' k0 k1 k0' k1' hne q hq
        subst hq
        have hdiff : cell a.lhs (pt D k) ≠ cell a.lhs (pt D k') := by
          intro e
          exact hne (pt_inj hdom k0 k1 k0' k1' (hl.cell_inj (hpt k0 k1) (hpt k0' k1') e))
        exact ⟨fun hr => hdiff (hna _ _ (hpt k0 k1) (hpt k0' k1') hr), hdiff⟩)
      hσ.once
    refine ⟨m', h1, ⟨fun p hp => ?_, fun q hq => ?_, h2⟩, hfree⟩
    · obtain ⟨k, k0, k1, hk⟩ := pt_surj hdom hp
      have e : cell a.lhs (pt D k) = cell a.lhs p := cell_congr (full_agree hl.req hl.len hk)
      rw [← e, h3 k k0 k1 _ rfl]
      simp only [if_true]
      have e1 := hf _ (hpt k0 k1)
      have e2 := hf _ hp
      have : rhsDen m (D.map (·.1)) a.rhs (pt D k) = rhsDen m (D.map (·.1)) a.rhs p := by
        cases hrhs : a.rhs with
        | num t => rfl
        | expr e =>
          rw [hrhs] at hr
          simp only [rhsDen]
          rw [den_pt hk hr]
      rw [this, e2, Except.ok.injEq] at e1
      rw [e1]
    · exact h4 q fun k k0 k1 e => hq _ (hpt k0 k1) e.symm
  unfold Assign.exec
  have hv' : a.lhs.call D = .ok v := hv
  rw [hv', M.ok_bind, hsz, M.ok_bind, ← hσd]
  dsimp only
  cases hrhs : a.rhs with
  | num t =>
    obtain ⟨m', g1, g2, g3⟩ := main (fun _ _ => .ok t) (fun k _ _ m' _ => by rw [hrhs]; rfl)
    exact ⟨m', g1, g2, v, rfl, hsz, g3⟩
  | expr e =>
    rw [hrhs] at hr
    obtain ⟨st, g1, g2, g3⟩ := leads_expr hD hr
    dsimp only
    rw [g1, M.ok_bind]
    suffices H : ∃ m', parallel (assignThread (fun k m => do
        let i ← runMoves (σ.rhist k) (st 0)
        let x ← i.deref m
        x.toNum) v σ) σ.trace m = .ok m' ∧ Assigned m a.lhs D f m' ∧ RaceFree (npts D) (assignThread (fun k m => do
        let i ← runMoves (σ.rhist k) (st 0)
        let x ← i.deref m
        x.toNum) v σ) m m' by
      obtain ⟨m', k1, k2, k3⟩ := H
      exact ⟨m', k1, k2, v, rfl, hsz, _, rfl, k3⟩
    refine main _ fun k k0 k1 m' hm' => ?_
    obtain ⟨r1, r2⟩ := hσ.rhist k k0 k1
    have := g2.run hl.npts_le r1
    rw [zero_add, r2] at this
    rw [this, M.ok_bind, g3 m' k hm' k0 k1, hrhs]
    simp only [rhsDen]
    cases den m' (D.map (·.1)) e (pt D k) with
    | error u => rfl
    | ok x => cases x <;> rfl

theorem assign_exec {a : Assign T} {D : List DB} {β : Backend} {m : Mem T} {f : Pt → T} (hβ : ValidBackend β) (hD : DomInt D)
    (hl : LhsOK a.lhs D) (hr : RhsOK m.ints D a.rhs) (hf : ∀ p, InDom D p → rhsDen m (D.map (·.1)) a.rhs p = .ok (f p))
    (hw : ∀ p, InDom D p → ∃ v, m.val (cell a.lhs p) = some v) (hna : NoAlias m.ints a.lhs D a.rhs) :
    ∃ m', a.exec D β m = .ok m' ∧ Assigned m a.lhs D f m' := by
  obtain ⟨m', h1, h2, -⟩ := assign_free hβ hD hl hr hf hw hna
  exact ⟨m', h1, h2⟩

end Verif
