import Verif.Lemmas.Span

/-
C12, C13: addressing of spans.
-/

namespace Verif
open Spec

/-! ### C12 -/

/-- A span called with a domain in any dimension order: the iterator has as many elements as the domain has points, and its
k-th element is the element the array stores for the k-th point of the domain, which lies inside the array. -/
theorem C12_call {s : Span} {D : List DB} (hg : GeoOK s.geo) (hr : ReqOK s.geo D) (hall : D.length = s.geo.length) :
    ∃ v, s.call D = .ok v ∧ v.size = .ok (npts D) ∧ ∀ k, 0 ≤ k → k < npts D → ∃ r, v.adv k = .ok r ∧
      r.addr = .ok (s.ptr.add (storeOff s.geo (pt D k))) ∧ Inside s.geo (pt D k) ∧ InDom D (pt D k) := by
  obtain ⟨v, hv, hb, hn, -, hat⟩ := call_ok (it := s.ptr) hg hr
  refine ⟨v, hv, by rw [MT.size_ok hb.toWF, hn]; rfl, fun k h0 h1 => ⟨v.at_ k, hb.adv h0 ?_, ?_⟩⟩
  · rw [hn]; exact le_of_lt h1
  · obtain ⟨a, i⟩ := hat k h0 h1 (pt D k) (fun _ _ => rfl) (by
      rw [List.drop_eq_nil_of_le (by omega)]; intro x hx; cases hx)
    exact ⟨a, i, pt_inDom hr.dom h0 h1⟩

/-- The points are visited exactly once each: every point of the domain is the k-th for exactly one k. -/
theorem C12_every_point_once {D : List DB} (h : DomOK D) {p : Pt} (hp : InDom D p) :
    ∃ k, (0 ≤ k ∧ k < npts D ∧ ∀ x ∈ D, pt D k x.1 = p x.1) ∧
      ∀ k', 0 ≤ k' → k' < npts D → (∀ x ∈ D, pt D k' x.1 = p x.1) → k' = k := by
  obtain ⟨k, h0, h1, hk⟩ := pt_surj h hp
  exact ⟨k, ⟨h0, h1, hk⟩, fun k' h0' h1' hk' => pt_inj h h0' h1' h0 h1 fun x hx => (hk' x hx).trans (hk x hx).symm⟩

/-- Two spans with whatever storage orders called with the same domain are visited in lock step: after any equal number of
steps both iterators are at the element stored for the same point. -/
theorem C12_lock_step {s t : Span} {D : List DB} (hs : GeoOK s.geo) (hrs : ReqOK s.geo D) (ht : GeoOK t.geo)
    (hrt : ReqOK t.geo D) (ls : D.length = s.geo.length) (lt : D.length = t.geo.length) {k : Int} (h0 : 0 ≤ k) (h1 : k < npts D) :
    ∃ v w rv rw, s.call D = .ok v ∧ t.call D = .ok w ∧ v.adv k = .ok rv ∧ w.adv k = .ok rw ∧
      ∃ p : Pt, InDom D p ∧ rv.addr = .ok (s.ptr.add (storeOff s.geo p)) ∧ rw.addr = .ok (t.ptr.add (storeOff t.geo p)) := by
  obtain ⟨v, hv, -, hv'⟩ := C12_call hs hrs ls
  obtain ⟨w, hw, -, hw'⟩ := C12_call ht hrt lt
  obtain ⟨rv, e1, a1, -, d1⟩ := hv' k h0 h1
  obtain ⟨rw, e2, a2, -, -⟩ := hw' k h0 h1
  exact ⟨v, w, rv, rw, hv, hw, e1, e2, pt D k, d1, a1, a2⟩

/-- A span called with fewer bounds (how windowed arrays are addressed): the dimensions not mentioned must be the last of the
storage order and are held at their lower bound. -/
theorem C12_call_window {s : Span} {D : List DB} (hg : GeoOK s.geo) (hr : ReqOK s.geo D) :
    ∃ v, s.call D = .ok v ∧ v.size = .ok (npts D) ∧ ∀ k, 0 ≤ k → k < npts D → ∃ r, v.adv k = .ok r ∧
      ∀ p : Pt, (∀ x ∈ D, p x.1 = pt D k x.1) → (∀ x ∈ s.geo.drop D.length, p x.1 = x.2.first) →
        r.addr = .ok (s.ptr.add (storeOff s.geo p)) ∧ Inside s.geo p := by
  obtain ⟨v, hv, hb, hn, -, hat⟩ := call_ok (it := s.ptr) hg hr
  refine ⟨v, hv, by rw [MT.size_ok hb.toWF, hn]; rfl, fun k h0 h1 => ⟨v.at_ k, hb.adv h0 ?_, hat k h0 h1⟩⟩
  rw [hn]; exact le_of_lt h1

/-- a 4 x 5 array stored with dimension 2 slow and dimension 1 fast -/
def exSpan : Span := ⟨⟨0, 0⟩, [(Dim.I, ⟨-1, 3, 1⟩), (Dim.J, ⟨0, 5, 1⟩)]⟩

/-- a domain given in the other order, with a stride of two along dimension 1 -/
def exDom : List DB := [(Dim.J, ⟨1, 5, 2⟩), (Dim.I, ⟨0, 3, 1⟩)]

theorem exSpan_ok : GeoOK exSpan.geo where
  ne := by decide
  nodup := by decide
  unit := by decide
  nonempty := by decide
  fits := by decide
  int := by decide

theorem exDom_ok : ReqOK exSpan.geo exDom where
  ne := by decide
  nodup := by decide
  nonempty := by decide
  stride := by decide
  inside := by
    intro x hx g hg
    simp only [exDom, exSpan, List.mem_cons, List.not_mem_nil, or_false, Dim.I, Dim.J] at hx hg
    rcases hx with rfl | rfl <;> rcases hg with hg | hg <;> simp at hg <;> subst hg <;> decide
  fit := by decide
  fit' := by decide
  lead := by decide

example : ∃ v, exSpan.call exDom = .ok v ∧ v.size = .ok 6 := by
  obtain ⟨v, h, h', -⟩ := C12_call exSpan_ok exDom_ok rfl
  exact ⟨v, h, h'⟩
example : (List.range 6).map (fun k => (pt exDom k Dim.J, pt exDom k Dim.I, storeOff exSpan.geo (pt exDom k))) =
    [(1, 0, 6), (1, 1, 11), (1, 2, 16), (3, 0, 8), (3, 1, 13), (3, 2, 18)] := by decide

/-- Naming the dimensions in an order where the omitted one is not stored last does not fix the omitted dimension: the
address then mixes the two dimensions (the code overwrites the tables by position). -/
theorem C12_window_first_false :
    ∃ (s : Span) (D : List DB) (v : MT), s.call D = .ok v ∧ s.geo = [(Dim.W, ⟨0, 2, 1⟩), (Dim.I, ⟨0, 3, 1⟩)] ∧
      D = [(Dim.I, ⟨1, 3, 1⟩)] ∧ v.size ≠ .ok (npts D) :=
  ⟨⟨⟨0, 0⟩, [(Dim.W, ⟨0, 2, 1⟩), (Dim.I, ⟨0, 3, 1⟩)]⟩, [(Dim.I, ⟨1, 3, 1⟩)], _, rfl, rfl, rfl, by decide⟩

/-! ### C13 -/

theorem at_ok {s : Span} {p : Pt} (hg : GeoOK s.geo) (hp : Inside s.geo p) :
    s.at_ (s.geo.map fun x => p x.1) = .ok (s.ptr.add (storeOff s.geo p)) := by
  have hsz : ∀ x ∈ s.geo, x.2.last - x.2.first ≤ 2147483647 := by
    intro x hx
    have := mem_le_prod hg.pos (x.2.last - x.2.first) (List.mem_map_of_mem (f := fun x : DB => x.2.last - x.2.first) hx)
    have := hg.fits
    omega
  have hb : InBox (lengths s.geo) (s.geo.map fun x => p x.1 - x.2.first) := by
    rw [lengths, InBox_map]
    intro x hx
    have := hp x hx
    unfold InRange at this; omega
  unfold Span.at_
  rw [if_neg (by simp), zip_map_self, mapM_ok (g := fun y : Int × DB => y.1 - y.2.2.first), M.ok_bind,
    mapM_ok (g := fun x : DB => x.2.last - x.2.first) (l := s.geo)
      (fun x hx => size_unit (hg.unit x hx) (hg.nonempty x hx) (hsz x hx)), M.ok_bind, List.map_map]
  · have := ravel_ok (c := s.geo.map fun x => p x.1 - x.2.first) (by simpa [lengths] using hg.ne) hg.pos hb.nonneg
      (by simp [lengths]) (by have := rowMajor_lt hb; have := hg.fits; omega)
    exact bind_congr_ok this
  · intro y hy
    obtain ⟨x, hx, rfl⟩ := List.mem_map.1 hy
    refine isub_ok ?_
    have h1 := hsz x hx
    have h2 := hp x hx
    unfold InRange at h2
    simp only [Bounds.lb]
    unfold InInt; omega
where
  bind_congr_ok {a : M Int} {r : Int} (h : a = .ok r) : (a >>= fun r => (.ok (s.ptr.add r) : M Ptr)) = .ok (s.ptr.add r) := by
    rw [h]; rfl

/-- `at` with the indices of a point, in storage order, is the element every traversal visits at that point. -/
theorem C13_at_eq_traversal {s : Span} {D : List DB} (hg : GeoOK s.geo) (hr : ReqOK s.geo D)
    (hall : D.length = s.geo.length) {p : Pt} (hp : InDom D p) :
    ∃ v k r a, s.call D = .ok v ∧ 0 ≤ k ∧ k < npts D ∧ (∀ x ∈ D, pt D k x.1 = p x.1) ∧ v.adv k = .ok r ∧ r.addr = .ok a ∧
      s.at_ (s.geo.map fun x => p x.1) = .ok a := by
  obtain ⟨v, hv, -, hat⟩ := C12_call hg hr hall
  obtain ⟨k, h0, h1, hk⟩ := pt_surj hr.dom hp
  obtain ⟨r, e1, e2, e3, -⟩ := hat k h0 h1
  have hperm := hr.lead
  rw [hall, List.take_length] at hperm
  have hall' : ∀ x ∈ s.geo, pt D k x.1 = p x.1 := by
    intro x hx
    obtain ⟨y, hy, e⟩ := List.mem_map.1 (hperm.mem_iff.1 (List.mem_map_of_mem (f := (·.1)) hx))
    rw [← e]; exact hk y hy
  refine ⟨v, k, r, _, hv, h0, h1, hk, e1, e2, ?_⟩
  rw [← at_ok hg e3]
  congr 1
  exact List.map_congr_left fun x hx => (hall' x hx).symm

/-- Different points are different elements. -/
theorem C13_at_injective {s : Span} {p q : Pt} {a : Ptr} (hg : GeoOK s.geo) (hp : Inside s.geo p) (hq : Inside s.geo q)
    (h1 : s.at_ (s.geo.map fun x => p x.1) = .ok a) (h2 : s.at_ (s.geo.map fun x => q x.1) = .ok a) :
    ∀ x ∈ s.geo, p x.1 = q x.1 := by
  rw [at_ok hg hp] at h1
  rw [at_ok hg hq, ← h1] at h2
  simp only [Ptr.add, Except.ok.injEq, Ptr.mk.injEq, true_and] at h2
  exact storeOff_inj hp hq (by omega)

/-- Every element of the allocation (and nothing else) is reached, by indices inside the bounds. -/
theorem C13_at_surjective {s : Span} (hg : GeoOK s.geo) (o : Int) :
    (0 ≤ o ∧ o < (lengths s.geo).prod) ↔
      ∃ p, Inside s.geo p ∧ s.at_ (s.geo.map fun x => p x.1) = .ok (s.ptr.add o) := by
  constructor
  · rintro ⟨h0, h1⟩
    have hd : DomOK s.geo := ⟨hg.nodup, fun x hx => ⟨hg.nonempty x hx, by rw [hg.unit x hx]⟩⟩
    have hb := coords_inBox hg.pos h0 h1
    let p : Pt := fun d => (bnd s.geo d).first + (coords (lengths s.geo) o).getD ((s.geo.map (·.1)).idxOf d) 0
    have hc : coords (lengths s.geo) o = s.geo.map fun x => (coords (lengths s.geo) o).getD ((s.geo.map (·.1)).idxOf x.1) 0 := by
      have := coords_map (l := s.geo.map (·.1)) (c := coords (lengths s.geo) o) hg.nodup (by simp [coords_length, lengths])
      rw [List.map_map] at this
      exact this
    have hp : ∀ x ∈ s.geo, p x.1 - x.2.first = (coords (lengths s.geo) o).getD ((s.geo.map (·.1)).idxOf x.1) 0 := by
      intro x hx
      simp only [p, bnd_eq hg.nodup hx]
      omega
    have hin : Inside s.geo p := by
      have hb' := hb
      rw [hc] at hb'
      have hb'' := InBox_map.1 hb'
      intro x hx
      have h1 := hb'' x hx
      have h2 := hp x hx
      unfold InRange
      omega
    refine ⟨p, hin, ?_⟩
    rw [at_ok hg hin, storeOff]
    congr 2
    rw [List.map_congr_left hp, ← hc]
    exact rowMajor_coords hg.pos h0 h1
  · rintro ⟨p, hp, h⟩
    rw [at_ok hg hp] at h
    simp only [Ptr.add, Except.ok.injEq, Ptr.mk.injEq, true_and] at h
    have := storeOff_range hp
    omega

example : exSpan.at_ [1, 3] = .ok ⟨0, 13⟩ := rfl
example : InDom exDom (fun d => if d = Dim.I then 1 else 3) := by
  intro x hx
  simp only [exDom, List.mem_cons, List.not_mem_nil, or_false, Dim.I, Dim.J] at hx
  rcases hx with rfl | rfl
  · exact ⟨⟨by decide, by decide⟩, 1, by decide⟩
  · exact ⟨⟨by decide, by decide⟩, 1, by decide⟩

end Verif
