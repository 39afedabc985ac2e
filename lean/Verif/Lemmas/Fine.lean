import Verif.Lemmas.Dot
import Verif.Lemmas.CoarseFine

namespace Verif
open Spec

variable {T : Type}

theorem npts_one : ∀ {D : List DB}, (∀ x ∈ D, count x.2 = 1) → npts D = 1
  | [], _ => by simp [npts, extents]
  | x :: D, h => by
    rw [npts_cons, h x List.mem_cons_self, npts_one fun y hy => h y (List.mem_cons_of_mem _ hy), one_mul]

/-- a domain with more than one point along one dimension only -/
theorem pt_line : ∀ {D : List DB} {d : Dim} {b : Bounds}, (D.map (·.1)).Nodup → (d, b) ∈ D →
    (∀ x ∈ D, x.1 ≠ d → count x.2 = 1) →
    npts D = count b ∧ ∀ k, 0 ≤ k → k < npts D → pt D k d = b.first + b.stride * k
  | (e, c) :: D, d, b, hd, hm, h => by
    simp only [List.map_cons, List.nodup_cons] at hd
    rcases List.mem_cons.1 hm with e' | hm'
    · obtain ⟨rfl, rfl⟩ := Prod.mk.inj e'
      have h1 : npts D = 1 := npts_one fun y hy => h y (List.mem_cons_of_mem _ hy) (by
        intro e; exact hd.1 (e ▸ List.mem_map_of_mem hy))
      refine ⟨by rw [npts_cons, h1, mul_one], fun k _ _ => ?_⟩
      simp [pt, h1]
    · have hne : d ≠ e := by
        rintro rfl
        exact hd.1 (List.mem_map.2 ⟨(_, b), hm', rfl⟩)
      obtain ⟨i1, i2⟩ := pt_line hd.2 hm' fun y hy => h y (List.mem_cons_of_mem _ hy)
      have h1 : count c = 1 := h (e, c) List.mem_cons_self (Ne.symm hne)
      have h2 : npts ((e, c) :: D) = npts D := by rw [npts_cons]; simp [h1]
      refine ⟨by rw [h2, i1], fun k k0 k1 => ?_⟩
      rw [h2] at k1
      simp only [pt, if_neg hne, Int.emod_eq_of_lt k0 k1]
      exact i2 k k0 k1

/-- moving along one stored dimension -/
theorem storeOff_set {geo : List DB} {d : Dim} {p q : Pt} {δ : Int} (hd : (geo.map (·.1)).Nodup) (hm : d ∈ geo.map (·.1))
    (hq : q d = p d + δ) (ho : ∀ x ∈ geo, x.1 ≠ d → q x.1 = p x.1) :
    storeOff geo q = storeOff geo p + weight (lengths geo) ((geo.map (·.1)).idxOf d) * δ := by
  unfold storeOff
  rw [show (geo.map fun x => q x.1 - x.2.first) = geo.map fun x => (p x.1 - x.2.first) + if x.1 = d then δ else 0 from ?_]
  · unfold lengths at *
    rw [rowMajor_add]
    congr 1
    have := rowMajor_sum_idx hd (fun x : DB => if x.1 = d then δ else 0)
    unfold lengths at this
    rw [this]
    obtain ⟨x0, hx0, rfl⟩ := List.mem_map.1 hm
    have key : ∀ {g : List DB}, (g.map (·.1)).Nodup → ∀ W : Dim → Int,
        (g.map fun x => W x.1 * if x.1 = x0.1 then δ else 0).sum = if x0.1 ∈ g.map (·.1) then W x0.1 * δ else 0 := by
      intro g
      induction g with
      | nil => intro _ W; simp
      | cons a g ih =>
        intro hnd W
        simp only [List.map_cons, List.nodup_cons] at hnd
        simp only [List.map_cons, List.sum_cons, ih hnd.2, List.mem_cons]
        by_cases e : a.1 = x0.1
        · rw [if_pos e, if_neg (e ▸ hnd.1), if_pos (Or.inl e.symm), e, add_zero]
        · rw [if_neg e, mul_zero, zero_add]
          congr 1
          simp only [eq_iff_iff]
          exact ⟨Or.inr, fun h => h.resolve_left (Ne.symm e)⟩
    have k := key hd fun e => weight (geo.map fun x => x.2.last - x.2.first) ((geo.map (·.1)).idxOf e)
    rw [k, if_pos hm]
  · refine List.map_congr_left fun x hx => ?_
    by_cases e : x.1 = d
    · rw [if_pos e, e, hq]; omega
    · rw [if_neg e, ho x hx e]; omega

/-- the coarse point belonging to a fine point -/
def finePt (r : Int) (cb : List DB) (p : Pt) : Pt := fun d => if d ∈ cb.map (·.1) then (bnd cb d).first else p d / r

/-- `fine(r, cb...)` over a fine domain that has more than one index along `d` only -/
structure FineOK (s : Span) (r : Int) (cb D : List DB) : Prop where
  ratio : 1 ≤ r
  geo : GeoOK s.geo
  nodup : (D.map (·.1)).Nodup
  cnodup : (cb.map (·.1)).Nodup
  len : cb.length + 1 = D.length
  glen : D.length = s.geo.length
  line : ∃ d b, (d, b) ∈ D ∧ d ∉ cb.map (·.1) ∧ d ∈ s.geo.map (·.1) ∧ b.stride = 1 ∧ b.first < b.last ∧
    (∀ x ∈ D, x.1 ≠ d → x.1 ∈ cb.map (·.1) ∧ count x.2 = 1) ∧ (∀ x ∈ s.geo, x.1 ≠ d → x.1 ∈ cb.map (·.1))
  inside : ∀ k, 0 ≤ k → k < npts D → Inside s.geo (finePt r cb (pt D k))

theorem leads_fine {tab : Ptr → Option Int} {s : Span} {r : Int} {cb D : List DB} (hD : DomInt D) (h : FineOK s r cb D) :
    Leads (T := T) tab (.fine s r cb) D := by
  obtain ⟨hr, hg, hnd, hcn, hlen, hgl, ⟨d, b, hdb, hdc, hdg, hb1, hbn, hrest, hgrest⟩, hin⟩ := h
  obtain ⟨hn, hpt⟩ := pt_line hnd hdb fun x hx e => (hrest x hx e).2
  have hcnt : count b = b.last - b.first := by unfold count; rw [hb1, Int.ediv_one]; omega
  rw [hcnt] at hn
  simp only [hb1, one_mul] at hpt
  obtain ⟨hbi, hbl⟩ := hD _ hdb
  simp only at hbi hbl
  set p0 : Pt := finePt r cb (pt D 0) with hp0
  have hn0 : 0 < npts D := by omega
  have hin0 : Inside s.geo p0 := hin 0 (le_refl _) hn0
  have hpd : ∀ k, 0 ≤ k → k < npts D → finePt r cb (pt D k) d = (b.first + k) / r := by
    intro k h0 h1
    simp only [finePt, if_neg hdc, hpt k h0 h1]
  have hpo : ∀ k, ∀ x ∈ s.geo, x.1 ≠ d → finePt r cb (pt D k) x.1 = p0 x.1 := by
    intro k x hx e
    simp only [hp0, finePt, if_pos (hgrest x hx e)]
  have hci : ∀ k, 0 ≤ k → k < npts D → coarseIndex r (b.first + k) = .ok ((b.first + k) / r) := by
    intro k h0 h1
    exact coarseIndex_ok hr (by unfold InInt at *; omega) (by unfold InInt at *; omega)
  have hci0 : coarseIndex r b.first = .ok (b.first / r) := by simpa using hci 0 (le_refl _) hn0
  have hsz : ∀ x ∈ s.geo, x.2.last - x.2.first ≤ 2147483647 := by
    intro x hx
    have := mem_le_prod hg.pos (x.2.last - x.2.first) (List.mem_map_of_mem (f := fun x : DB => x.2.last - x.2.first) hx)
    have := hg.fits
    omega
  set base := (s.geo.map (·.1)).idxOf d with hbase
  have hbl : base < s.geo.length := by
    have := List.idxOf_lt_length_of_mem hdg
    simpa [hbase] using this
  set W := weight (lengths s.geo) base with hWd
  have hW : 1 ≤ W := weight_pos hg.pos base
  set c : C2F := ⟨s.ptr.add (storeOff s.geo p0), r, W, b.first, b.first / r⟩ with hc
  have hfind : D.find? (fun x => !((cb.map (·.1)).contains x.1)) = some (d, b) := by
    cases hf : D.find? (fun x => !((cb.map (·.1)).contains x.1)) with
    | none =>
      have := List.find?_eq_none.1 hf (d, b) hdb
      simp only [Bool.not_eq_true', Bool.not_eq_false, List.contains_iff_mem] at this
      exact absurd this hdc
    | some x =>
      have hx := List.mem_of_find?_eq_some hf
      have hp := List.find?_some hf
      simp only [Bool.not_eq_true', ← Bool.not_eq_true, List.contains_iff_mem] at hp
      have e : x.1 = d := by
        by_contra e
        exact hp (hrest x hx e).1
      have e1 := bnd_eq hnd hx
      have e2 := bnd_eq hnd hdb
      simp only at e2
      rw [e, e2] at e1
      rw [← e, e1]
  have hmake : s.fine r cb D = .ok c := by
    unfold Span.fine
    rw [if_neg (by omega), hfind]
    dsimp only
    have ht : ∀ e ∈ s.geo.map (·.1), get (cb.map (fun x : DB => x.2.lb) ++ List.replicate (s.geo.length - cb.length) 0)
        ((cb.map (·.1)).idxOf e) = .ok (if e ∈ cb.map (·.1) then (bnd cb e).first else 0) := by
      intro e _
      exact get_table (f := fun b => b.lb) (by omega) (Or.inr (by omega))
    rw [mapM_ok ht, M.ok_bind]
    rw [if_pos (by simpa using hbl)]
    rw [show b.lb = b.first from rfl, hci0, M.ok_bind, List.map_map]
    have hset : ((s.geo.map ((fun e => if e ∈ cb.map (·.1) then (bnd cb e).first else 0) ∘ fun x : DB => x.1)).set
        ((s.geo.map (·.1)).idxOf d) (b.first / r)) = s.geo.map fun x => p0 x.1 := by
      apply List.ext_getElem
      · simp
      · intro i h1 h2
        have hi : i < s.geo.length := by simpa using h2
        rw [List.getElem_set]
        by_cases e : (s.geo.map (·.1)).idxOf d = i
        · rw [if_pos e]
          have e' : s.geo[i].1 = d := by
            have := List.getElem_idxOf (x := d) (xs := s.geo.map (·.1)) (List.idxOf_lt_length_of_mem hdg)
            simp only [e, List.getElem_map] at this
            exact this
          simp only [List.getElem_map, e', hp0]
          have := hpd 0 (le_refl _) hn0
          simpa using this.symm
        · rw [if_neg e]
          have e' : s.geo[i].1 ≠ d := by
            intro e'
            apply e
            rw [← e']
            have := hg.nodup.idxOf_getElem (xs := s.geo.map (·.1)) i (by simpa using hi)
            simpa using this
          have hm := hgrest _ (List.getElem_mem hi) e'
          simp only [List.getElem_map, Function.comp_apply, if_pos hm, hp0, finePt]
    rw [hset, zip_map_self]
    have hb : InBox (lengths s.geo) (s.geo.map fun x => p0 x.1 - x.2.first) := by
      rw [lengths, InBox_map]
      intro x hx
      have := hin0 x hx
      unfold InRange at this; omega
    rw [mapM_ok (g := fun y : Int × DB => y.1 - y.2.2.first), M.ok_bind,
      mapM_ok (g := fun x : DB => x.2.last - x.2.first) (l := s.geo)
        (fun x hx => size_unit (hg.unit x hx) (hg.nonempty x hx) (hsz x hx)), M.ok_bind, List.map_map]
    · unfold makeC2F
      have h1 := ravel_ok (c := s.geo.map fun x => p0 x.1 - x.2.first) (by simpa [lengths] using hg.ne) hg.pos hb.nonneg
        (by simp [lengths]) (by have := rowMajor_lt hb; have := hg.fits; omega)
      have h2 := strideDim_ok (base + 1) hg.pos hg.fits
      simp only [Function.comp_def]
      rw [show (s.geo.map fun x : DB => x.2.last - x.2.first) = lengths s.geo from rfl, h1, M.ok_bind, ← hbase, h2, M.ok_bind]
      unfold C2F.make
      rw [hci0, M.ok_bind]
      rfl
    · intro y hy
      obtain ⟨x, hx, rfl⟩ := List.mem_map.1 hy
      refine isub_ok ?_
      have h1 := hsz x hx
      have h2 := hin0 x hx
      unfold InRange at h2
      simp only [Bounds.lb]
      unfold InInt; omega
  have hwalk : ∀ {k : Int}, 0 ≤ k → k < npts D → InInt (b.first + k) := by
    intro k h0 h1
    unfold InInt at *; omega
  refine ⟨fun k => .c2f (c.at_ k), ?_, ⟨fun {k} h0 h1 => ?_, fun {k e} h0 h1 h2 => ?_⟩, fun m k _ h0 h1 => ?_⟩
  · simp only [Expr.call]
    rw [hmake]
    simp [C2F.at_]
  · show It.inc _ = _
    simp only [It.inc]
    rw [C2F.inc_ok (by have := hwalk (k := k + 1) (by omega) h1; rwa [← add_assoc] at this)]; rfl
  · show It.adv _ _ = _
    simp only [It.adv]
    rw [C2F.adv_ok (by have := hwalk (k := k + e) (by omega) h2; rwa [← add_assoc] at this)]; rfl
  · have haddr : (c.at_ k).addr = .ok (cell s (finePt r cb (pt D k))) := by
      have hd' := hpd k h0 h1
      have hd0 := hpd 0 (le_refl _) hn0
      rw [add_zero] at hd0
      obtain ⟨g, hgm, hge⟩ := List.mem_map.1 hdg
      have a := hin0 g hgm
      have a' := hin k h0 h1 g hgm
      rw [hge] at a a'
      rw [hd'] at a'
      rw [hp0, hd0] at a
      unfold InRange at a a'
      have h5 := hsz g hgm
      have hmw := getD_mul_weight hg.pos (i := base) (by simpa [lengths] using hbl)
      have hgd : (lengths s.geo).getD base 0 = g.2.last - g.2.first := by
        rw [hbase, ← hge]
        exact getD_geo hg.nodup hgm (fun y : DB => y.2.last - y.2.first)
      rw [hgd, ← hWd] at hmw
      have hf := hg.fits
      have h6 : ((b.first + k) / r - b.first / r) * W ≤ (g.2.last - g.2.first) * W :=
        mul_le_mul_of_nonneg_right (by omega) (by omega)
      have h7 : -(g.2.last - g.2.first) * W ≤ ((b.first + k) / r - b.first / r) * W :=
        mul_le_mul_of_nonneg_right (by omega) (by omega)
      rw [neg_mul] at h7
      unfold C2F.addr
      simp only [C2F.at_, hc]
      rw [hci k h0 h1, M.ok_bind, isub_ok (by unfold InInt; omega), M.ok_bind, imul_ok (by unfold InInt; omega), M.ok_bind]
      have hs := storeOff_set (δ := (b.first + k) / r - b.first / r) (q := finePt r cb (pt D k)) (p := p0) hg.nodup hdg
        (by rw [hd', hp0, hd0]; omega) (hpo k)
      simp only [cell, hs, Ptr.add, ← hbase, ← hWd, Except.ok.injEq, Ptr.mk.injEq, true_and]
      rw [mul_comm W]; omega
    simp only [It.deref, den]
    rw [haddr]; rfl

end Verif
