import Verif.Spec.Expr
import Verif.Lemmas.Span
import Verif.Lemmas.StencilGeo

namespace Verif
open Spec

variable {T : Type}

/-- `st k` is the iterator at element `k` of `n`: forward moves lead from one to another -/
structure FWalk {β : Type} [Step β] (n : Int) (st : Int → β) : Prop where
  inc : ∀ {k}, 0 ≤ k → k + 1 < n → Step.inc (st k) = .ok (st (k + 1))
  adv : ∀ {k d}, 0 ≤ k → 0 ≤ d → k + d < n → Step.adv (st k) d = .ok (st (k + d))

theorem Fwd.head {n p : Int} : ∀ {ms : List Move}, Fwd n p ms → 0 ≤ p ∧ p < n
  | [], h => h
  | _ :: _, h => h.1

theorem Fwd.last {n : Int} : ∀ {ms : List Move} {p : Int}, Fwd n p ms → p ≤ p + net ms ∧ p + net ms < n
  | [], p, h => by simp only [net, List.map_nil, List.sum_nil, add_zero]; exact ⟨le_refl _, h.2⟩
  | m :: ms, p, h => by
    have := Fwd.last h.2.2
    have := h.2.1
    simp only [net, List.map_cons, List.sum_cons] at *; omega

theorem FWalk.run {β : Type} [Step β] {n : Int} {st : Int → β} (w : FWalk n st) (hn : n ≤ 2147483647) :
    ∀ {ms : List Move} {p : Int}, Fwd n p ms → runMoves ms (st p) = .ok (st (p + net ms))
  | [], p, h => by simp [runMoves, net]
  | m :: ms, p, h => by
    obtain ⟨⟨h0, h1⟩, hd, hs⟩ := h
    obtain ⟨g0, g1⟩ := Fwd.head hs
    have hm : m.run (st p) = .ok (st (p + delta m)) := by
      cases m with
      | inc => exact w.inc h0 g1
      | dec => simp [delta] at hd
      | add k => exact w.adv h0 hd g1
      | sub k =>
        simp only [Move.run, delta] at *
        rw [dsub_ok (by unfold InDiff; omega), M.ok_bind, zero_sub]
        exact w.adv h0 hd g1
    simp only [runMoves]
    rw [hm, M.ok_bind, w.run hn hs]
    simp only [net, List.map_cons, List.sum_cons]
    congr 2; omega

theorem MT.IsBegin.fwalk {v : MT} (h : v.IsBegin) : FWalk (β := MT) v.n.prod v.at_ :=
  ⟨fun h0 h1 => MT.inc_at h.toWF h0 (by omega), fun h0 h1 h2 => MT.adv_at h.toWF h0 (by omega) (by omega) (by omega)⟩

/-! ### shifted and extended domains -/

theorem shiftDom_fst {D : List DB} {d : Dim} {k : Int} : (shiftDom D d k).map (·.1) = D.map (·.1) := by
  unfold shiftDom
  rw [List.map_map]
  refine List.map_congr_left fun x _ => ?_
  simp only [Function.comp]
  split <;> rfl

theorem extDom_fst {D : List DB} {d : Dim} {S : Int} : (extDom D d S).map (·.1) = D.map (·.1) := by
  unfold extDom
  rw [List.map_map]
  refine List.map_congr_left fun x _ => ?_
  simp only [Function.comp]
  split <;> rfl

theorem shiftDom_extents {D : List DB} {d : Dim} {k : Int} : extents (shiftDom D d k) = extents D := by
  unfold shiftDom extents
  rw [List.map_map]
  refine List.map_congr_left fun x _ => ?_
  simp only [Function.comp]
  split
  · unfold count; simp only
    rw [show x.2.last + k - 1 - (x.2.first + k) = x.2.last - 1 - x.2.first by omega]
  · rfl

theorem shiftDom_npts {D : List DB} {d : Dim} {k : Int} : npts (shiftDom D d k) = npts D := by
  unfold npts; rw [shiftDom_extents]

theorem shiftDom_pt : ∀ {D : List DB} {d : Dim} {j k : Int} {e : Dim}, e ∈ D.map (·.1) →
    pt (shiftDom D d j) k e = shiftPt (pt D k) d j e
  | (f, b) :: D, d, j, k, e, he => by
    have h1 : shiftDom ((f, b) :: D) d j = (if f = d then (f, ⟨b.first + j, b.last + j, b.stride⟩) else (f, b)) :: shiftDom D d j := rfl
    rw [h1]
    by_cases hef : e = f
    · subst hef
      split
      · rename_i hed
        simp only [pt, if_true, shiftPt, hed, shiftDom_npts]; omega
      · rename_i hed
        simp only [pt, if_true, shiftPt, hed, shiftDom_npts, if_false]
    · have he' : e ∈ D.map (·.1) := by
        simp only [List.map_cons, List.mem_cons] at he; exact he.resolve_left hef
      have := shiftDom_pt (d := d) (j := j) (k := k % npts D) he'
      split <;> simp only [pt, if_neg hef, shiftDom_npts, this, shiftPt]

theorem extDom_of_notMem {D : List DB} {d : Dim} {S : Int} (h : d ∉ D.map (·.1)) : extDom D d S = D := by
  unfold extDom
  conv_rhs => rw [← List.map_id D]
  refine List.map_congr_left fun x hx => ?_
  rw [if_neg]
  · rfl
  · intro e; exact h (e ▸ List.mem_map_of_mem hx)

/-- the extended domain shortened by one is the domain -/
theorem extDom_shorten : ∀ {D : List DB} {d : Dim} {S : Int}, (D.map (·.1)).Nodup → d ∈ D.map (·.1) → (bnd D d).stride = 1 →
    shorten (extents (extDom D d S)) ((D.map (·.1)).idxOf d) = extents D
  | (f, b) :: D, d, S, hd, hm, hs => by
    simp only [List.map_cons, List.nodup_cons] at hd
    have h1 : extDom ((f, b) :: D) d S = (if f = d then (f, if S < 0 then ⟨b.first - 1, b.last, b.stride⟩ else
      ⟨b.first, b.last + 1, b.stride⟩) else (f, b)) :: extDom D d S := rfl
    rw [h1]
    by_cases hf : f = d
    · subst hf
      rw [extDom_of_notMem hd.1]
      simp only [bnd, if_true] at hs
      simp only [if_true, List.map_cons, List.idxOf_cons_self, extents, shorten]
      congr 1
      split <;> simp only [count, hs, Int.ediv_one] <;> omega
    · have hm' : d ∈ D.map (·.1) := by
        simp only [List.map_cons, List.mem_cons] at hm; exact hm.resolve_left (Ne.symm hf)
      simp only [bnd, if_neg (Ne.symm hf)] at hs
      have := extDom_shorten (S := S) hd.2 hm' hs
      simp only [if_neg hf, List.map_cons]
      rw [List.idxOf_cons_ne _ hf]
      simp only [extents, List.map_cons, shorten]
      congr 1

theorem getD_bump : ∀ {c : List Int} {i j : Nat}, j < c.length → (bump c i).getD j 0 = c.getD j 0 + if j = i then 1 else 0
  | _ :: _, 0, 0, _ => by simp [bump]
  | _ :: _, 0, j + 1, _ => by simp [bump]
  | _ :: _, i + 1, 0, _ => by simp [bump]
  | _ :: cs, i + 1, j + 1, h => by
    have := getD_bump (c := cs) (i := i) (j := j) (by simpa using h)
    simp only [bump, List.getD_cons_succ, this, Nat.add_right_cancel_iff]

/-! ### leaves -/

/-- calling `e` with the domain `D` gives an iterator whose element `k` is the value of `e` at the k-th point, whatever the
arrays hold and with offset tables `tab` -/
def Leads (tab : Ptr → Option Int) (e : Expr T) (D : List DB) : Prop :=
  ∃ st : Int → It T, e.call D = .ok (st 0) ∧ FWalk (npts D) st ∧
    ∀ (m : Mem T) (k : Int), m.ints = tab → 0 ≤ k → k < npts D → (st k).deref m = den m (D.map (·.1)) e (pt D k)

/-- the (shifted) array can be called with domain `D` -/
def AccOK : Acc → List DB → Prop
  | .span s, D => GeoOK s.geo ∧ ReqOK s.geo D ∧ D.length = s.geo.length
  | .shift d k a, D => (∀ x ∈ D, x.1 = d → InInt (x.2.first + k) ∧ InInt (x.2.last + k)) ∧ AccOK a (shiftDom D d k)

/-- bounds hold ints -/
def DomInt (D : List DB) : Prop := ∀ x ∈ D, InInt x.2.first ∧ InInt x.2.last

theorem storeOff_congr {geo : List DB} {p q : Pt} (h : ∀ x ∈ geo, p x.1 = q x.1) : storeOff geo p = storeOff geo q := by
  unfold storeOff
  congr 1
  exact List.map_congr_left fun x hx => by rw [h x hx]

theorem perm_of_full {geo D : List DB} (h : ReqOK geo D) (hl : D.length = geo.length) : (geo.map (·.1)).Perm (D.map (·.1)) := by
  have := h.lead
  rwa [hl, List.take_length] at this

theorem shiftDom_call {D : List DB} {d : Dim} {k : Int} (hD : DomInt D) (h : ∀ x ∈ D, x.1 = d → InInt (x.2.first + k) ∧ InInt (x.2.last + k)) :
    (D.mapM fun x => do
      let b ← x.2.shift (if d = x.1 then k else 0)
      (.ok (x.1, b) : M DB)) = .ok (shiftDom D d k) := by
  refine mapM_ok fun x hx => ?_
  obtain ⟨h1, h2⟩ := hD x hx
  unfold Bounds.shift
  by_cases e : x.1 = d
  · obtain ⟨h3, h4⟩ := h x hx e
    rw [if_pos e.symm, if_pos e, iadd_ok h3, M.ok_bind, iadd_ok h4]
    rfl
  · rw [if_neg (Ne.symm e), if_neg e, iadd_ok (by simpa using h1), M.ok_bind, iadd_ok (by simpa using h2)]
    simp

theorem accCell_congr : ∀ {a : Acc} {D : List DB} {p q : Pt}, AccOK a D → (∀ x ∈ D, p x.1 = q x.1) → accCell a p = accCell a q
  | .span s, D, p, q, ⟨_, hr, hl⟩, h => by
    simp only [accCell, cell]
    congr 1
    refine storeOff_congr fun x hx => ?_
    obtain ⟨y, hy, e⟩ := List.mem_map.1 ((perm_of_full hr hl).mem_iff.1 (List.mem_map_of_mem (f := (·.1)) hx))
    rw [← e]; exact h y hy
  | .shift d k a, D, p, q, ⟨_, ha⟩, h => by
    simp only [accCell]
    refine accCell_congr ha fun x hx => ?_
    have : x.1 ∈ (shiftDom D d k).map (·.1) := List.mem_map_of_mem hx
    rw [shiftDom_fst] at this
    obtain ⟨y, hy, e⟩ := List.mem_map.1 this
    have := h y hy
    simp only [shiftPt, ← e, this]

theorem shiftDom_int {D : List DB} {d : Dim} {k : Int} (hD : DomInt D) (h : ∀ x ∈ D, x.1 = d → InInt (x.2.first + k) ∧ InInt (x.2.last + k)) :
    DomInt (shiftDom D d k) := by
  intro x hx
  obtain ⟨y, hy, rfl⟩ := List.mem_map.1 hx
  split
  · rename_i e; exact h y hy e
  · exact hD y hy

theorem acc_call : ∀ {a : Acc} {D : List DB}, DomInt D → AccOK a D →
    ∃ v : MT, a.call D = .ok v ∧ v.IsBegin ∧ v.n = extents D ∧
      ∀ k, 0 ≤ k → k < npts D → (v.at_ k).addr = .ok (accCell a (pt D k))
  | .span s, D, _, ⟨hg, hr, hl⟩ => by
    obtain ⟨v, hv, hb, hn, -, hat⟩ := call_ok (it := s.ptr) hg hr
    refine ⟨v, ?_, hb, hn, fun k h0 h1 => ?_⟩
    · simp only [Acc.call, Span.callAll, if_pos hl]; exact hv
    · exact (hat k h0 h1 (pt D k) (fun _ _ => rfl) (by
        rw [List.drop_eq_nil_of_le (by omega)]; intro x hx; cases hx)).1
  | .shift d k a, D, hD, ⟨hi, ha⟩ => by
    obtain ⟨v, hv, hb, hn, hat⟩ := acc_call (shiftDom_int hD hi) ha
    refine ⟨v, ?_, hb, by rw [hn, shiftDom_extents], fun j h0 h1 => ?_⟩
    · simp only [Acc.call]
      rw [shiftDom_call hD hi, M.ok_bind, hv]
    · rw [hat j h0 (by rw [shiftDom_npts]; exact h1)]
      simp only [accCell]
      congr 1
      refine accCell_congr ha fun x hx => ?_
      have : x.1 ∈ (shiftDom D d k).map (·.1) := List.mem_map_of_mem hx
      rw [shiftDom_fst] at this
      exact shiftDom_pt this

theorem leads_acc {tab : Ptr → Option Int} {a : Acc} {D : List DB} (hD : DomInt D) (h : AccOK a D) : Leads (T := T) tab (.acc a) D := by
  obtain ⟨v, hv, hb, hn, hat⟩ := acc_call hD h
  have w := hb.fwalk
  rw [hn] at w
  refine ⟨fun k => .mt (v.at_ k), ?_, ⟨fun {k} h0 h1 => ?_, fun {k d} h0 h1 h2 => ?_⟩, fun m k _ h0 h1 => ?_⟩
  · simp only [Expr.call]
    rw [hv, ← hb.eq_at]; rfl
  · have := w.inc h0 h1
    show It.inc _ = _
    simp only [It.inc]
    rw [show MT.inc (v.at_ k) = _ from this]; rfl
  · have := w.adv h0 h1 h2
    show It.adv _ _ = _
    simp only [It.adv]
    rw [show MT.adv (v.at_ k) d = _ from this]; rfl
  · simp only [It.deref, den]
    rw [hat k h0 h1, M.ok_bind]

/-- a neighbour pair can be formed at every point of `D` -/
structure StencilOK (S : Int) (d : Dim) (s : Span) (D : List DB) : Prop where
  dir : S = 1 ∨ S = -1
  mem : d ∈ D.map (·.1)
  nonempty : ∀ x ∈ D, x.2.first < x.2.last
  unit : (bnd D d).stride = 1
  geo : GeoOK s.geo
  req : ReqOK s.geo (extDom D d S)
  len : D.length = s.geo.length

theorem extDom_call {D : List DB} {d : Dim} {S : Int} {geo : List DB} (hD : DomInt D) (hS : S = 1 ∨ S = -1) (hg : GeoOK geo)
    (hr : ReqOK geo (extDom D d S)) :
    (D.mapM fun x => do
      let b ← x.2.add (if d = x.1 then S else 0)
      (.ok (x.1, b) : M DB)) = .ok (extDom D d S) := by
  refine mapM_ok fun x hx => ?_
  obtain ⟨h1, h2⟩ := hD x hx
  unfold Bounds.add
  by_cases e : x.1 = d
  · rw [if_pos e.symm, if_pos e]
    have hm : (x.1, if S < 0 then (⟨x.2.first - 1, x.2.last, x.2.stride⟩ : Bounds) else ⟨x.2.first, x.2.last + 1, x.2.stride⟩) ∈ extDom D d S := by
      refine List.mem_map.2 ⟨x, hx, ?_⟩
      rw [if_pos e]
    obtain ⟨g, hgm⟩ := hr.mem_geo hm
    have h3 := hr.inside _ hm g hgm
    have h4 := hg.int _ hgm
    rcases hS with rfl | rfl
    · simp only [if_neg (show ¬ (1 : Int) < 0 by omega)] at h3
      rw [if_pos (by omega), if_neg (by omega)]
      unfold Bounds.addEq
      rw [iadd_ok (by unfold InInt at *; simp only at h3 h4; omega)]
      rfl
    · simp only [if_pos (show (-1 : Int) < 0 by omega)] at h3
      rw [if_neg (by omega), if_pos (by omega)]
      unfold Bounds.subEq
      rw [isub_ok (by decide), M.ok_bind, isub_ok (by unfold InInt at *; simp only at h3 h4; omega)]
      rfl
  · rw [if_neg (Ne.symm e), if_neg e, if_pos (le_refl _)]
    unfold Bounds.addEq
    rw [iadd_ok (by simpa using h2)]
    simp

/-- the coordinates along the dimensions of the extended domain of element `c` -/
theorem extDom_pt {D : List DB} {d : Dim} {S : Int} {k j : Int} (hS : S = 1 ∨ S = -1) (hd : (D.map (·.1)).Nodup)
    (hm : d ∈ D.map (·.1)) (hu : (bnd D d).stride = 1) (δ : Int)
    (hc : ∀ i, i < D.length → (coords (extents (extDom D d S)) j).getD i 0 =
      (coords (extents D) k).getD i 0 + if i = (D.map (·.1)).idxOf d then δ else 0) :
    ∀ x ∈ D, pt (extDom D d S) j x.1 = shiftPt (lowPt S d (pt D k)) d δ x.1 := by
  intro x hx
  have hx' : (if x.1 = d then (x.1, if S < 0 then (⟨x.2.first - 1, x.2.last, x.2.stride⟩ : Bounds) else ⟨x.2.first, x.2.last + 1, x.2.stride⟩) else x) ∈
      extDom D d S := List.mem_map.2 ⟨x, hx, rfl⟩
  have hi : (D.map (·.1)).idxOf x.1 < D.length := by
    have := List.idxOf_lt_length_of_mem (List.mem_map_of_mem (f := (·.1)) hx)
    simpa using this
  have e1 := pt_eq (D := D) (k := k) hd hx
  have e2 := pt_eq (D := extDom D d S) (k := j) (by rw [extDom_fst]; exact hd) hx'
  rw [extDom_fst] at e2
  by_cases e : x.1 = d
  · have hxs : x.2.stride = 1 := by rw [← bnd_eq hd hx, e]; exact hu
    simp only [if_pos e] at e2
    have hj : (D.map (·.1)).idxOf x.1 = (D.map (·.1)).idxOf d := by rw [e]
    rw [hc _ hi, if_pos hj, hxs] at e2
    rw [hxs] at e1
    rw [e2]
    rcases hS with rfl | rfl
    · simp only [shiftPt, lowPt, if_pos e, if_neg (show ¬ (1 : Int) < 0 by omega)]
      rw [e1]; ring
    · simp only [lowPt, if_pos (show (-1 : Int) < 0 by omega)]
      simp only [shiftPt, if_pos e]
      rw [e1]; ring
  · simp only [if_neg e] at e2
    have hne : (D.map (·.1)).idxOf x.1 ≠ (D.map (·.1)).idxOf d := by
      intro h
      apply e
      have h1 := List.getElem_idxOf (List.idxOf_lt_length_of_mem (List.mem_map_of_mem (f := (·.1)) hx))
      have h2 := List.getElem_idxOf (List.idxOf_lt_length_of_mem hm)
      rw [← h1, ← h2]
      simp only [h]
    rw [hc _ hi, if_neg hne, add_zero] at e2
    rw [e2, ← e1]
    unfold lowPt
    split <;> simp only [shiftPt, if_neg e]

theorem leads_stencil {tab : Ptr → Option Int} {S : Int} {d : Dim} {s : Span} {D : List DB} (hD : DomInt D) (h : StencilOK S d s D) :
    Leads (T := T) tab (.stencil S d s) D := by
  obtain ⟨hS, hm, hne, hu, hg, hr, hl⟩ := h
  have hd : (D.map (·.1)).Nodup := by have := hr.nodup; rwa [extDom_fst] at this
  have hl' : (extDom D d S).length = D.length := by simp [extDom]
  obtain ⟨v, hv, hb, hn, -, hat⟩ := call_ok (it := s.ptr) hg hr
  set i := (D.map (·.1)).idxOf d with hi
  have hiD : i < D.length := by have := List.idxOf_lt_length_of_mem hm; simpa using this
  have hsh : shorten v.n i = extents D := by rw [hn]; exact extDom_shorten hd hm hu
  have hlen : v.n.length = D.length := by rw [hn]; simp [extents, hl']
  have hst : v.StOK i := by
    refine ⟨hb, by rw [hlen]; exact hiD, ?_⟩
    have hcount : (extents D).getD i 0 = v.n.getD i 0 - 1 := by
      rw [← hsh]
      exact getD_shorten (by rw [hlen]; exact hiD)
    have hpos : 1 ≤ (extents D).getD i 0 := by
      have hmem := bnd_mem hm
      have := getD_geo (geo := D) hd hmem (fun x => count x.2)
      simp only at this
      unfold extents
      rw [this]
      exact count_pos (hne _ hmem) (by rw [hu])
    omega
  have hcall : s.stencilCall S d D = .ok (FS.at_ v.at_ (v.gS i) (v.gL i) (v.gB i) 0) := by
    unfold Span.stencilCall
    rw [extDom_call hD hS hg hr, M.ok_bind]
    unfold Span.callAll
    rw [if_pos (by omega)]
    show (callHelper _ _ _ >>= _) = _
    rw [hv, M.ok_bind, MT.stencil_ok hst, hst.begin_eq]
  have hN : v.gB i * v.gL i = npts D := by rw [hst.size_eq, hsh]; rfl
  have w := MT.walk hb.toWF
  have hpe : Pos (extents D) := by rw [← hsh]; exact shorten_pos hst.pos hst.h2
  refine ⟨fun k => .fs (FS.at_ v.at_ (v.gS i) (v.gL i) (v.gB i) k), ?_, ⟨fun {k} h0 h1 => ?_, fun {k d} h0 h1 h2 => ?_⟩,
    fun m k _ h0 h1 => ?_⟩
  · simp only [Expr.call]
    rw [hcall]; rfl
  · show It.inc _ = _
    simp only [It.inc]
    rw [FS.inc_at hst.geo w h0 (by omega)]; rfl
  · show It.adv _ _ = _
    simp only [It.adv]
    have : 0 ≤ k % v.gL i := Int.emod_nonneg _ (by have := hst.geo.hL; omega)
    rw [FS.adv_at hst.geo w h0 (by omega) (by omega) (by omega) (.inl (by omega))]; rfl
  · simp only [It.deref, den]
    have ha := hst.addrs_at h0 (by rw [hsh]; exact h1)
    rw [hsh] at ha
    have hc := coords_inBox hpe h0 h1
    have hc' : InBox (shorten v.n i) (coords (extents D) k) := by rw [hsh]; exact hc
    have hin := (rowMajor_shorten hst.hi hst.pos hc' hst.h2).2
    have hbin := bump_inBox (i := i) hst.pos hc'
    have hnp : npts (extDom D d S) = v.n.prod := by rw [hn]; rfl
    have key : ∀ {c : List Int} {δ : Int}, InBox v.n c → (∀ j, j < D.length → c.getD j 0 = (coords (extents D) k).getD j 0 +
        if j = i then δ else 0) → MT.addr { v with current := c } = .ok (cell s (shiftPt (lowPt S d (pt D k)) d δ)) := by
      intro c δ hcin hcj
      have l0 := rowMajor_nonneg hcin
      have l1 := rowMajor_lt hcin
      have e : ({ v with current := c } : MT) = v.at_ (rowMajor v.n c) := by
        simp only [MT.at_]
        rw [posCoord_of_lt l1, coords_rowMajor hcin]
      have hcr : coords (extents (extDom D d S)) (rowMajor v.n c) = c := by rw [← hn]; exact coords_rowMajor hcin
      rw [e]
      refine (hat _ l0 (by omega) _ ?_ (by rw [List.drop_eq_nil_of_le (by omega)]; intro x hx; cases hx)).1
      intro x hx
      have : x.1 ∈ (extDom D d S).map (·.1) := List.mem_map_of_mem hx
      rw [extDom_fst] at this
      obtain ⟨y, hy, e⟩ := List.mem_map.1 this
      have := extDom_pt (k := k) (j := rowMajor v.n c) hS hd hm hu δ (by rw [hcr]; exact hcj) y hy
      rw [← e]; exact this.symm
    rw [ha, key hin (δ := 0) (by intro j _; simp), M.ok_bind, key hbin (δ := 1) (by
      intro j hj
      exact getD_bump (by rw [coords_length]; simpa [extents] using hj)), M.ok_bind, M.ok_bind]
    have : shiftPt (lowPt S d (pt D k)) d 0 = lowPt S d (pt D k) := by
      funext e; simp [shiftPt]
    rw [this]
where
  getD_shorten : ∀ {n : List Int} {i : Nat}, i < n.length → (shorten n i).getD i 0 = n.getD i 0 - 1
    | _ :: _, 0, _ => by simp [shorten]
    | _ :: ns, i + 1, h => by
      have := getD_shorten (n := ns) (i := i) (by simpa using h)
      simp only [shorten, List.getD_cons_succ, this]

end Verif
