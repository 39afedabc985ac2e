import Verif.Lemmas.Assign

namespace Verif
open Spec

variable {T : Type}

theorem opShape_arith_num {f : T → T → T} : OpShape (arith f) .num .num .num := by
  intro x y hx hy
  cases x <;> cases y <;> simp [shapeOf] at hx hy
  exact ⟨_, rfl, rfl⟩

theorem opShape_arith_right {f : T → T → T} : OpShape (arith f) .num .pair .pair := by
  intro x y hx hy
  cases x <;> cases y <;> simp [shapeOf] at hx hy
  exact ⟨_, rfl, rfl⟩

theorem opShape_arith_left {f : T → T → T} : OpShape (arith f) .pair .num .pair := by
  intro x y hx hy
  cases x <;> cases y <;> simp [shapeOf] at hx hy
  exact ⟨_, rfl, rfl⟩

theorem opShape_grad {sub div : T → T → T} : OpShape (gradOp sub div) .num .pair .num := by
  intro x y hx hy
  cases x <;> cases y <;> simp [shapeOf] at hx hy
  exact ⟨_, rfl, rfl⟩

/-! ### where an expression reads -/

theorem inside_full {s : Span} {D : List DB} (hg : GeoOK s.geo) (hr : ReqOK s.geo D) (hl : D.length = s.geo.length) {p : Pt}
    (hp : InDom D p) : Inside s.geo p := LhsOK.inside ⟨hg, hr, hl⟩ hp

theorem acc_element : ∀ {a : Acc} {D : List DB} {p : Pt}, AccOK a D → InDom D p → IsElement (accArray a) (accCell a p)
  | .span s, D, p, ⟨hg, hr, hl⟩, hp => ⟨p, inside_full hg hr hl hp, rfl⟩
  | .shift d k a, D, p, ⟨_, ha⟩, hp => by
    refine acc_element ha (p := shiftPt p d k) ?_
    intro x hx
    obtain ⟨y, hy, rfl⟩ := List.mem_map.1 hx
    obtain ⟨⟨h1, h2⟩, h3⟩ := hp y hy
    split
    · rename_i e
      refine ⟨⟨?_, ?_⟩, ?_⟩
      · simp only [shiftPt, if_pos e]; omega
      · simp only [shiftPt, if_pos e]; omega
      · simp only [shiftPt, if_pos e]
        rwa [show p y.1 + k - (y.2.first + k) = p y.1 - y.2.first by omega]
    · rename_i e
      refine ⟨⟨?_, ?_⟩, ?_⟩ <;> simpa only [shiftPt, if_neg e]

theorem extDom_mem {D : List DB} (S : Int) (d : Dim) {x : DB} (h : x ∈ D) :
    (if x.1 = d then (x.1, if S < 0 then (⟨x.2.first - 1, x.2.last, x.2.stride⟩ : Bounds) else ⟨x.2.first, x.2.last + 1, x.2.stride⟩) else x) ∈
      extDom D d S := List.mem_map.2 ⟨x, h, rfl⟩

theorem stencil_elements {S : Int} {d : Dim} {s : Span} {D : List DB} {p : Pt} (h : StencilOK S d s D) (hp : InDom D p) :
    Inside s.geo (lowPt S d p) ∧ Inside s.geo (shiftPt (lowPt S d p) d 1) := by
  obtain ⟨hS, hm, hne, hu, hg, hr, hl⟩ := h
  have hd : (D.map (·.1)).Nodup := by have := hr.nodup; rwa [extDom_fst] at this
  have hl' : (extDom D d S).length = s.geo.length := by simpa [extDom] using hl
  have hperm := perm_of_full hr hl'
  rw [extDom_fst] at hperm
  constructor
  all_goals
    intro g hgm
    have hgd : g.1 ∈ D.map (·.1) := hperm.mem_iff.1 (List.mem_map_of_mem hgm)
    have hb := bnd_mem hgd
    obtain ⟨⟨h1, h2⟩, h3⟩ := hp _ hb
    have hin := hr.inside _ (extDom_mem S d hb) g.2
    simp only at h1 h2
    by_cases e : g.1 = d
    · simp only [if_pos e] at hin
      have := hin hgm
      rcases hS with rfl | rfl
      · simp only [if_neg (show ¬ (1 : Int) < 0 by omega)] at this
        simp only [lowPt, if_neg (show ¬ (1 : Int) < 0 by omega), shiftPt, if_pos e]
        exact ⟨by omega, by omega⟩
      · simp only [if_pos (show (-1 : Int) < 0 by omega)] at this
        simp only [lowPt, if_pos (show (-1 : Int) < 0 by omega), shiftPt, if_pos e]
        exact ⟨by omega, by omega⟩
    · simp only [if_neg e] at hin
      have := hin hgm
      have e1 : lowPt S d p g.1 = p g.1 := by
        unfold lowPt; split <;> simp only [shiftPt, if_neg e]
      simp only [shiftPt, if_neg e, e1]
      exact ⟨by omega, by omega⟩

theorem dot_elements {tab : Ptr → Option Int} {u v : Span} {o : Ptr} {D : List DB} {p : Pt} (h : DotOK tab u v o D) (hp : InDom D p)
    {w : Dim} {b : Bounds} (hw : u.geo.getLast? = some (w, b)) {i : Nat} (hi : i < (b.last - b.first).toNat) :
    Inside u.geo (setPt p w (b.first + i)) ∧ Inside v.geo (offPt tab o (D.map (·.1)) i p) := by
  constructor
  · have hlead := h.ureq.lead
    have hnd := h.ugeo.nodup
    have hin := h.ureq.inside
    have hlen := h.ulen
    obtain ⟨gi, hgi⟩ := List.getLast?_eq_some_iff.1 hw
    rw [hgi] at hlead hnd hin hlen
    have hl : gi.length = D.length := by simpa using hlen
    rw [← hl, List.take_left] at hlead
    rw [hgi]
    intro x hx
    by_cases e : x.1 = w
    · have : x.2 = b := by
        have h1 := bnd_eq hnd hx
        have h2 := bnd_eq hnd (show ((w, b) : DB) ∈ gi ++ [(w, b)] by simp)
        rw [← h1, e]; exact h2
      simp only [setPt, if_pos e, this]
      exact ⟨by omega, by omega⟩
    · rcases List.mem_append.1 hx with hx' | hx'
      · have hb := bnd_mem (hlead.mem_iff.1 (List.mem_map_of_mem (f := (·.1)) hx'))
        obtain ⟨⟨h1, h2⟩, -⟩ := hp _ hb
        have := hin _ hb x.2 hx
        simp only [setPt, if_neg e]
        simp only at h1 h2 this
        exact ⟨by omega, by omega⟩
      · rw [List.mem_singleton] at hx'; subst hx'; exact absurd rfl e
  · obtain ⟨k, k0, k1, hk⟩ := pt_surj h.vreq.dom hp
    have := (h.table w b hw i (by omega)).2.1 k k0 k1
    intro x hx
    have hv := full_agree h.vreq h.vlen hk x hx
    have := this x hx
    simp only [offPt, hv] at this ⊢
    exact this

/-- every cell an expression looks at is an element of one of its arrays -/
theorem reads_elements {tab : Ptr → Option Int} {D : List DB} {p : Pt} (hp : InDom D p) : ∀ {e : Expr T}, ExprOK tab D e →
    ∀ q ∈ reads tab (D.map (·.1)) e p, ∃ s ∈ arrays e, IsElement s q
  | .acc a, h, q, hq => by
    simp only [reads, List.mem_singleton] at hq
    subst hq
    exact ⟨accArray a, by simp [arrays], acc_element h hp⟩
  | .stencil S d s, h, q, hq => by
    obtain ⟨h1, h2⟩ := stencil_elements h hp
    simp only [reads, List.mem_cons, List.not_mem_nil, or_false] at hq
    rcases hq with rfl | rfl
    · exact ⟨s, by simp [arrays], _, h1, rfl⟩
    · exact ⟨s, by simp [arrays], _, h2, rfl⟩
  | .right op t e, h, q, hq => reads_elements hp (e := e) h q hq
  | .left op e t, h, q, hq => reads_elements hp (e := e) h q hq
  | .zip op e f, h, q, hq => by
    simp only [reads, List.mem_append] at hq
    rcases hq with hq | hq
    · obtain ⟨s, hs, hs'⟩ := reads_elements hp (e := e) h.1 q hq
      exact ⟨s, by simp [arrays, hs], hs'⟩
    · obtain ⟨s, hs, hs'⟩ := reads_elements hp (e := f) h.2 q hq
      exact ⟨s, by simp [arrays, hs], hs'⟩
  | .dot z acc u v o, h, q, hq => by
    simp only [reads] at hq
    split at hq
    · cases hq
    · rename_i w b hw
      simp only [List.mem_flatMap, List.mem_range, List.mem_cons, List.not_mem_nil, or_false] at hq
      obtain ⟨i, hi, hq⟩ := hq
      obtain ⟨h1, h2⟩ := dot_elements h hp hw hi
      rcases hq with rfl | rfl
      · exact ⟨u, by simp [arrays], _, h1, rfl⟩
      · exact ⟨v, by simp [arrays], _, h2, rfl⟩
  | .fine s r cb, h, q, hq => by
    simp only [reads, List.mem_singleton] at hq
    subst hq
    refine ⟨s, by simp [arrays], _, ?_, rfl⟩
    obtain ⟨d, b, hdb, hdc, -, hb1, hbn, hrest, hgrest⟩ := h.line
    -- the point of the line with the same index
    have hcnt : count b = b.last - b.first := by unfold count; rw [hb1, Int.ediv_one]; omega
    obtain ⟨hn, hpt⟩ := pt_line h.nodup hdb fun x hx e => (hrest x hx e).2
    obtain ⟨⟨h1, h2⟩, -⟩ := hp _ hdb
    simp only at h1 h2
    have hk := hpt (p d - b.first) (by omega) (by omega)
    have := h.inside (p d - b.first) (by omega) (by omega)
    intro x hx
    have := this x hx
    simp only [finePt] at this
    show InRange x.2 (if x.1 ∈ cb.map (·.1) then (bnd cb x.1).first else p x.1 / r)
    by_cases hm : x.1 ∈ cb.map (·.1)
    · rw [if_pos hm] at this ⊢; exact this
    · rw [if_neg hm]
      rw [if_neg hm] at this
      have e : x.1 = d := by
        by_contra e; exact hm (hgrest x hx e)
      rw [e] at this ⊢
      rw [hk, hb1, one_mul, show b.first + (p d - b.first) = p d by omega] at this
      exact this

theorem load_ok {m : Mem T} {q : Ptr} (h : ∃ v, m.val q = some v) : ∃ v, m.load q = .ok v := by
  obtain ⟨v, hv⟩ := h
  exact ⟨v, by unfold Mem.load; rw [hv]⟩

theorem dotSum_ok {acc : T → T → T → T} {f g : Nat → M T} {z : T} : ∀ {n : Nat},
    (∀ i, i < n → (∃ a, f i = .ok a) ∧ ∃ b, g i = .ok b) → ∃ r, dotSum acc f g n z = .ok r
  | 0, _ => ⟨z, rfl⟩
  | n + 1, h => by
    obtain ⟨r, hr⟩ := dotSum_ok (acc := acc) (z := z) (n := n) fun i hi => h i (by omega)
    obtain ⟨⟨a, ha⟩, b, hb⟩ := h n (by omega)
    exact ⟨acc r a b, by simp only [dotSum]; rw [hr, M.ok_bind, ha, M.ok_bind, hb, M.ok_bind]⟩

/-- an accepted expression whose reads are allocated has a value -/
theorem den_ok {m : Mem T} {tab : Ptr → Option Int} {D : List DB} {dims : List Dim} {p : Pt} {e : Expr T} {a : Shape} (hs : HasShape e a) :
    (∀ q ∈ reads m.ints dims e p, ∃ v, m.val q = some v) → ExprOK tab D e →
    ∃ x, den m dims e p = .ok x ∧ shapeOf x = a := by
  induction hs with
  | acc =>
    intro h _
    obtain ⟨v, hv⟩ := load_ok (h _ (List.mem_singleton_self _))
    exact ⟨.num v, by simp only [den]; rw [hv, M.ok_bind], rfl⟩
  | @stencil S d s =>
    intro h _
    obtain ⟨v, hv⟩ := load_ok (h (cell s (lowPt S d p)) (by simp [reads]))
    obtain ⟨w, hw⟩ := load_ok (h (cell s (shiftPt (lowPt S d p) d 1)) (by simp [reads]))
    exact ⟨.pair v w, by simp only [den]; rw [hv, M.ok_bind, hw, M.ok_bind], rfl⟩
  | right he hop ih =>
    intro h ho
    obtain ⟨x, hx, hx'⟩ := ih h ho
    obtain ⟨z, hz, hz'⟩ := hop (.num _) x rfl hx'
    exact ⟨z, by simp only [den]; rw [hx, M.ok_bind, hz], hz'⟩
  | left he hop ih =>
    intro h ho
    obtain ⟨x, hx, hx'⟩ := ih h ho
    obtain ⟨z, hz, hz'⟩ := hop x (.num _) hx' rfl
    exact ⟨z, by simp only [den]; rw [hx, M.ok_bind, hz], hz'⟩
  | zip he hf hop ih1 ih2 =>
    intro h ho
    simp only [reads, List.mem_append] at h
    obtain ⟨x, hx, hx'⟩ := ih1 (fun q hq => h q (Or.inl hq)) ho.1
    obtain ⟨y, hy, hy'⟩ := ih2 (fun q hq => h q (Or.inr hq)) ho.2
    obtain ⟨z, hz, hz'⟩ := hop x y hx' hy'
    exact ⟨z, by simp only [den]; rw [hx, M.ok_bind, hy, M.ok_bind, hz], hz'⟩
  | @dot z acc u v o =>
    intro h ho
    cases hw : u.geo.getLast? with
    | none => exact absurd (List.getLast?_eq_none_iff.1 hw) ho.ugeo.ne
    | some x =>
      obtain ⟨w, b⟩ := x
      simp only [reads, hw, List.mem_flatMap, List.mem_range] at h
      obtain ⟨r, hr⟩ := dotSum_ok (acc := acc) (z := z) (n := (b.last - b.first).toNat)
        (f := fun i : Nat => m.load (cell u (setPt p w (b.first + i)))) (g := fun i : Nat => m.load (cell v (offPt m.ints o dims i p)))
        (fun i hi => ⟨load_ok (h _ ⟨i, hi, by simp⟩), load_ok (h _ ⟨i, hi, by simp⟩)⟩)
      exact ⟨.num r, by simp only [den, hw]; rw [hr, M.ok_bind], rfl⟩
  | fine =>
    intro h _
    obtain ⟨v, hv⟩ := load_ok (h _ (List.mem_singleton_self _))
    exact ⟨.num v, by simp only [den]; rw [hv, M.ok_bind], rfl⟩

/-- a statement on allocated arrays whose right hand side is accepted: every point has a value -/
def RhsTyped : Rhs T → Prop
  | .num _ => True
  | .expr e => HasShape e .num

def rhsArrays : Rhs T → List Span
  | .num _ => []
  | .expr e => arrays e

theorem rhsDen_ok {m : Mem T} {D : List DB} {p : Pt} {r : Rhs T} (ht : RhsTyped r) (hr : RhsOK m.ints D r)
    (ha : ∀ s ∈ rhsArrays r, Allocated m s) (hp : InDom D p) : ∃ v, rhsDen m (D.map (·.1)) r p = .ok v := by
  cases r with
  | num t => exact ⟨t, rfl⟩
  | expr e =>
    obtain ⟨x, hx, hs⟩ := den_ok ht (p := p) (dims := D.map (·.1)) (m := m) (tab := m.ints) (D := D) (by
      intro q hq
      obtain ⟨s, hs, p', hp', rfl⟩ := reads_elements hp hr q hq
      exact ha s hs p' hp') hr
    simp only [rhsDen]
    cases x with
    | num v => exact ⟨v, by rw [hx]⟩
    | pair a b => cases hs

end Verif
