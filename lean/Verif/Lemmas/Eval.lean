import Verif.Lemmas.Fine

namespace Verif
open Spec

variable {T : Type}

/-- every array of the expression covers what the expression needs of it over the domain `D` -/
def ExprOK (tab : Ptr → Option Int) (D : List DB) : Expr T → Prop
  | .acc a => AccOK a D
  | .stencil S d s => StencilOK S d s D
  | .right _ _ e => ExprOK tab D e
  | .left _ e _ => ExprOK tab D e
  | .zip _ e f => ExprOK tab D e ∧ ExprOK tab D f
  | .dot _ _ u v o => DotOK tab u v o D
  | .fine s r cb => FineOK s r cb D

theorem leads_expr {tab : Ptr → Option Int} {D : List DB} (hD : DomInt D) : ∀ {e : Expr T}, ExprOK tab D e → Leads tab e D
  | .acc a, h => leads_acc hD h
  | .stencil S d s, h => leads_stencil hD h
  | .right op t e, h => by
    obtain ⟨st, h1, h2, h3⟩ := leads_expr hD (e := e) h
    refine ⟨fun k => .right op t (st k), ?_, ⟨fun {k} a b => ?_, fun {k d} a b c => ?_⟩, fun m k hm a b => ?_⟩
    · simp only [Expr.call]; rw [h1]; rfl
    · show It.inc _ = _
      simp only [It.inc]
      rw [show It.inc (st k) = _ from h2.inc a b]; rfl
    · show It.adv _ _ = _
      simp only [It.adv]
      rw [show It.adv d (st k) = _ from h2.adv a b c]; rfl
    · simp only [It.deref, den]; rw [h3 m k hm a b]
  | .left op e t, h => by
    obtain ⟨st, h1, h2, h3⟩ := leads_expr hD (e := e) h
    refine ⟨fun k => .left op (st k) t, ?_, ⟨fun {k} a b => ?_, fun {k d} a b c => ?_⟩, fun m k hm a b => ?_⟩
    · simp only [Expr.call]; rw [h1]; rfl
    · show It.inc _ = _
      simp only [It.inc]
      rw [show It.inc (st k) = _ from h2.inc a b]; rfl
    · show It.adv _ _ = _
      simp only [It.adv]
      rw [show It.adv d (st k) = _ from h2.adv a b c]; rfl
    · simp only [It.deref, den]; rw [h3 m k hm a b]
  | .zip op e f, ⟨he, hf⟩ => by
    obtain ⟨st, h1, h2, h3⟩ := leads_expr hD (e := e) he
    obtain ⟨su, g1, g2, g3⟩ := leads_expr hD (e := f) hf
    refine ⟨fun k => .zip op (st k) (su k), ?_, ⟨fun {k} a b => ?_, fun {k d} a b c => ?_⟩, fun m k hm a b => ?_⟩
    · simp only [Expr.call]; rw [h1, M.ok_bind, g1]; rfl
    · show It.inc _ = _
      simp only [It.inc]
      rw [show It.inc (st k) = _ from h2.inc a b, M.ok_bind, show It.inc (su k) = _ from g2.inc a b]; rfl
    · show It.adv _ _ = _
      simp only [It.adv]
      rw [show It.adv d (st k) = _ from h2.adv a b c, M.ok_bind, show It.adv d (su k) = _ from g2.adv a b c]; rfl
    · simp only [It.deref, den]; rw [h3 m k hm a b, g3 m k hm a b]
  | .dot z acc u v o, h => leads_dot h
  | .fine s r cb, h => leads_fine hD h

theorem dotSum_congr {acc : T → T → T → T} {f g f' g' : Nat → M T} {z : T} : ∀ {n : Nat},
    (∀ i, i < n → f i = f' i ∧ g i = g' i) → dotSum acc f g n z = dotSum acc f' g' n z
  | 0, _ => rfl
  | n + 1, h => by
    simp only [dotSum]
    rw [dotSum_congr fun i hi => h i (by omega), (h n (by omega)).1, (h n (by omega)).2]

theorem load_congr {m m' : Mem T} {q : Ptr} (h : m.val q = m'.val q) : m.load q = m'.load q := by
  unfold Mem.load; rw [h]

/-- the value of an expression depends only on the cells it reads -/
theorem den_congr {m m' : Mem T} {dims : List Dim} {p : Pt} (hi : m.ints = m'.ints) : ∀ {e : Expr T},
    (∀ q ∈ reads m.ints dims e p, m.val q = m'.val q) → den m dims e p = den m' dims e p
  | .acc a, h => by
    simp only [den]; rw [load_congr (h _ (by simp [reads]))]
  | .stencil S d s, h => by
    simp only [den]
    rw [load_congr (h (cell s (lowPt S d p)) (by simp [reads])), load_congr (h (cell s (shiftPt (lowPt S d p) d 1)) (by simp [reads]))]
  | .right op t e, h => by simp only [den]; rw [den_congr hi (e := e) h]
  | .left op e t, h => by simp only [den]; rw [den_congr hi (e := e) h]
  | .zip op e f, h => by
    simp only [reads, List.mem_append] at h
    simp only [den]
    rw [den_congr hi (e := e) fun q hq => h q (Or.inl hq), den_congr hi (e := f) fun q hq => h q (Or.inr hq)]
  | .dot z acc u v o, h => by
    simp only [den]
    simp only [reads] at h
    split
    · rfl
    · rename_i w b hw
      rw [hw] at h
      simp only [List.mem_flatMap, List.mem_range] at h
      have := dotSum_congr (acc := acc) (z := z) (n := (b.last - b.first).toNat)
        (f := fun i : Nat => m.load (cell u (setPt p w (b.first + i)))) (f' := fun i : Nat => m'.load (cell u (setPt p w (b.first + i))))
        (g := fun i : Nat => m.load (cell v (offPt m.ints o dims i p))) (g' := fun i : Nat => m'.load (cell v (offPt m'.ints o dims i p)))
        (fun i hin => ⟨load_congr (h _ ⟨i, hin, by simp⟩), by
          rw [← hi]; exact load_congr (h _ ⟨i, hin, by simp⟩)⟩)
      rw [this]
  | .fine s r cb, h => by
    simp only [den]; rw [load_congr (h _ (by simp [reads]))]

theorem cell_congr {s : Span} {p q : Pt} (h : ∀ x ∈ s.geo, p x.1 = q x.1) : cell s p = cell s q := by
  unfold cell; rw [storeOff_congr h]

theorem full_agree {geo D : List DB} (hr : ReqOK geo D) (hl : D.length = geo.length) {p q : Pt} (h : ∀ x ∈ D, p x.1 = q x.1) :
    ∀ x ∈ geo, p x.1 = q x.1 := by
  intro x hx
  obtain ⟨y, hy, e⟩ := List.mem_map.1 ((perm_of_full hr hl).mem_iff.1 (List.mem_map_of_mem (f := (·.1)) hx))
  rw [← e]; exact h y hy

theorem stencil_agree {S : Int} {d : Dim} {s : Span} {D : List DB} (h : StencilOK S d s D) {p q : Pt} (hpq : ∀ x ∈ D, p x.1 = q x.1) :
    ∀ x ∈ s.geo, p x.1 = q x.1 := by
  have hl : (extDom D d S).length = s.geo.length := by simpa [extDom] using h.len
  have := full_agree h.req hl (p := p) (q := q) (by
    intro x hx
    have hm : x.1 ∈ (extDom D d S).map (·.1) := List.mem_map_of_mem hx
    rw [extDom_fst] at hm
    obtain ⟨y, hy, e⟩ := List.mem_map.1 hm
    rw [← e]; exact hpq y hy)
  exact this

theorem lowPt_congr {S : Int} {d e : Dim} {p q : Pt} (h : p e = q e) : lowPt S d p e = lowPt S d q e := by
  unfold lowPt
  split
  · simp only [shiftPt, h]
  · exact h

/-- what an expression reads depends only on the coordinates along the domain's dimensions -/
theorem reads_pt {tab : Ptr → Option Int} {D : List DB} {p q : Pt} (hpq : ∀ x ∈ D, p x.1 = q x.1) : ∀ {e : Expr T},
    ExprOK tab D e → reads tab (D.map (·.1)) e p = reads tab (D.map (·.1)) e q
  | .acc a, h => by simp only [reads]; rw [accCell_congr h hpq]
  | .stencil S d s, h => by
    have := stencil_agree h hpq
    simp only [reads]
    rw [cell_congr (p := lowPt S d p) (q := lowPt S d q), cell_congr (p := shiftPt (lowPt S d p) d 1) (q := shiftPt (lowPt S d q) d 1)]
    · intro x hx
      simp only [shiftPt, lowPt_congr (this x hx)]
    · intro x hx
      exact lowPt_congr (this x hx)
  | .right op t e, h => by simp only [reads]; exact reads_pt hpq (e := e) h
  | .left op e t, h => by simp only [reads]; exact reads_pt hpq (e := e) h
  | .zip op e f, h => by simp only [reads]; rw [reads_pt hpq (e := e) h.1, reads_pt hpq (e := f) h.2]
  | .dot z acc u v o, h => by
    simp only [reads]
    split
    · rfl
    · rename_i w b hw
      congr 1
      funext i
      have hv := full_agree h.vreq h.vlen hpq
      have hu : ∀ x ∈ u.geo, x.1 ≠ w → p x.1 = q x.1 := by
        intro x hx hxw
        have := h.ureq.lead
        obtain ⟨gi, hgi⟩ := List.getLast?_eq_some_iff.1 hw
        have hlen : gi.length = D.length := by have := h.ulen; rw [hgi] at this; simpa using this
        rw [hgi, ← hlen, List.take_left] at this
        rw [hgi] at hx
        rcases List.mem_append.1 hx with hx | hx
        · obtain ⟨y, hy, e⟩ := List.mem_map.1 (this.mem_iff.1 (List.mem_map_of_mem (f := (·.1)) hx))
          rw [← e]; exact hpq y hy
        · rw [List.mem_singleton] at hx; subst hx; exact absurd rfl hxw
      rw [cell_congr (s := u) (p := setPt p w (b.first + i)) (q := setPt q w (b.first + i)),
        cell_congr (s := v) (p := offPt tab o (D.map (·.1)) i p) (q := offPt tab o (D.map (·.1)) i q)]
      · intro x hx
        simp only [offPt, hv x hx]
      · intro x hx
        simp only [setPt]
        split
        · rfl
        · rename_i hne; exact hu x hx hne
  | .fine s r cb, h => by
    simp only [reads]
    rw [cell_congr]
    intro x hx
    obtain ⟨d, b, hdb, hdc, -, -, -, -, hrest⟩ := h.line
    split
    · rfl
    · rename_i hne
      have : x.1 = d := by
        by_contra e
        exact hne (hrest x hx e)
      rw [this]
      rw [hpq (d, b) hdb]

/-- the value of an expression depends only on the coordinates along the domain's dimensions -/
theorem den_pt {D : List DB} {m : Mem T} {p q : Pt} (hpq : ∀ x ∈ D, p x.1 = q x.1) : ∀ {e : Expr T},
    ExprOK m.ints D e → den m (D.map (·.1)) e p = den m (D.map (·.1)) e q
  | .acc a, h => by simp only [den]; rw [accCell_congr h hpq]
  | .stencil S d s, h => by
    have := reads_pt (T := T) hpq (e := .stencil S d s) h
    simp only [reads, List.cons.injEq, and_true] at this
    simp only [den]; rw [this.1, this.2]
  | .right op t e, h => by simp only [den]; rw [den_pt hpq (e := e) h]
  | .left op e t, h => by simp only [den]; rw [den_pt hpq (e := e) h]
  | .zip op e f, h => by simp only [den]; rw [den_pt hpq (e := e) h.1, den_pt hpq (e := f) h.2]
  | .dot z acc u v o, h => by
    have := reads_pt (T := T) hpq (e := .dot z acc u v o) h
    simp only [reads] at this
    simp only [den]
    split
    · rfl
    · rename_i w b hw
      rw [hw] at this
      simp only at this
      have hi : ∀ i, i < (b.last - b.first).toNat → cell u (setPt p w (b.first + i)) = cell u (setPt q w (b.first + i)) ∧
          cell v (offPt m.ints o (D.map (·.1)) i p) = cell v (offPt m.ints o (D.map (·.1)) i q) := by
        intro i hi
        have := flatMap_pairs this i hi
        exact this
      have := dotSum_congr (acc := acc) (z := z) (n := (b.last - b.first).toNat)
        (f := fun i : Nat => m.load (cell u (setPt p w (b.first + i)))) (f' := fun i : Nat => m.load (cell u (setPt q w (b.first + i))))
        (g := fun i : Nat => m.load (cell v (offPt m.ints o (D.map (·.1)) i p)))
        (g' := fun i : Nat => m.load (cell v (offPt m.ints o (D.map (·.1)) i q)))
        (fun i hin => ⟨by rw [(hi i hin).1], by rw [(hi i hin).2]⟩)
      rw [this]
  | .fine s r cb, h => by
    have := reads_pt (T := T) hpq (e := .fine s r cb) h
    simp only [reads, List.cons.injEq, and_true] at this
    simp only [den]; rw [this]
where
  flatMap_pairs {f g f' g' : Nat → Ptr} : ∀ {n : Nat}, ((List.range n).flatMap fun i => [f i, g i]) = ((List.range n).flatMap fun i => [f' i, g' i]) →
      ∀ i, i < n → f i = f' i ∧ g i = g' i
    | 0, _, i, hi => by omega
    | n + 1, h, i, hi => by
      rw [List.range_succ, List.flatMap_append, List.flatMap_append] at h
      have hlen : ∀ f g : Nat → Ptr, ((List.range n).flatMap fun i => [f i, g i]).length = 2 * n := by
        intro f g
        simp [List.length_flatMap]; omega
      obtain ⟨h1, h2⟩ := List.append_inj h (by rw [hlen, hlen])
      simp only [List.flatMap_cons, List.flatMap_nil, List.append_nil, List.cons.injEq, and_true] at h2
      by_cases e : i = n
      · subst e; exact h2
      · exact flatMap_pairs h1 i (by omega)

end Verif
