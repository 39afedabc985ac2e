import Verif.Model.Span
import Verif.Lemmas.Bounds

namespace Verif
open Spec

/-- a storage geometry: distinct dimensions, unit strides, nonempty int-sized bounds, at least one and at most 2^31-1 elements -/
structure GeoOK (geo : List DB) : Prop where
  ne : geo ≠ []
  nodup : (geo.map (·.1)).Nodup
  unit : ∀ x ∈ geo, x.2.stride = 1
  nonempty : ∀ x ∈ geo, x.2.first < x.2.last
  fits : (lengths geo).prod ≤ 2147483647
  int : ∀ x ∈ geo, InInt x.2.first ∧ InInt x.2.last

theorem GeoOK.pos {geo : List DB} (h : GeoOK geo) : Pos (lengths geo) := by
  intro s hs
  obtain ⟨x, hx, rfl⟩ := List.mem_map.1 hs
  have := h.nonempty x hx
  omega

/-- a request inside a geometry (or inside the leading dimensions of one, up to order): distinct dimensions, nonempty, positive strides,
each bound inside the storage bound of its dimension, products formed by the code fit an int -/
structure ReqOK (geo D : List DB) : Prop where
  ne : D ≠ []
  nodup : (D.map (·.1)).Nodup
  nonempty : ∀ x ∈ D, x.2.first < x.2.last
  stride : ∀ x ∈ D, 1 ≤ x.2.stride
  inside : ∀ x ∈ D, ∀ g, (x.1, g) ∈ geo → g.first ≤ x.2.first ∧ x.2.last ≤ g.last
  fit : ∀ x ∈ D, x.2.last - 1 - x.2.first + x.2.stride ≤ 2147483647
  fit' : ∀ x ∈ D, ((lengths geo).drop ((geo.map (·.1)).idxOf x.1 + 1)).prod * x.2.stride ≤ 2147483647
  lead : ((geo.take D.length).map (·.1)).Perm (D.map (·.1))

theorem bnd_mem : ∀ {D : List DB} {d : Dim}, d ∈ D.map (·.1) → (d, bnd D d) ∈ D
  | (e, b) :: D, d, h => by
    simp only [bnd]
    split
    · rename_i h; subst h; exact List.mem_cons_self
    · rename_i hne
      simp only [List.map_cons, List.mem_cons] at h
      exact List.mem_cons_of_mem _ (bnd_mem (h.resolve_left hne))

theorem bnd_eq : ∀ {D : List DB} {x : DB}, (D.map (·.1)).Nodup → x ∈ D → bnd D x.1 = x.2
  | (e, b) :: D, x, hd, h => by
    simp only [List.map_cons, List.nodup_cons] at hd
    rcases List.mem_cons.1 h with rfl | h
    · simp [bnd]
    · have : x.1 ≠ e := fun e' => hd.1 (e' ▸ List.mem_map_of_mem h)
      simp only [bnd, if_neg this]
      exact bnd_eq hd.2 h

theorem getD_idxOf {f : Bounds → Int} {pad : List Int} : ∀ {D : List DB} {d : Dim}, d ∈ D.map (·.1) →
    (D.map (fun x : DB => f x.2) ++ pad).getD ((D.map (fun x : DB => x.1)).idxOf d) 0 = f (bnd D d)
  | (e, b) :: D, d, h => by
    by_cases hde : d = e
    · subst hde; simp [bnd]
    · have hd : d ∈ D.map (·.1) := by
        simp only [List.map_cons, List.mem_cons] at h; exact h.resolve_left hde
      have := getD_idxOf (f := f) (pad := pad) hd
      simp only [List.map_cons, List.cons_append, bnd, if_neg hde]
      rw [List.idxOf_cons_ne _ (Ne.symm hde), List.getD_cons_succ]
      exact this

/-- what the padded tables hold -/
theorem getD_table {f : Bounds → Int} {n : Nat} {D : List DB} {d : Dim} (_h : D.length ≤ n) :
    (D.map (fun x : DB => f x.2) ++ List.replicate (n - D.length) 0).getD ((D.map (fun x : DB => x.1)).idxOf d) 0 =
      if d ∈ D.map (·.1) then f (bnd D d) else 0 := by
  split
  · rename_i hd; exact getD_idxOf hd
  · rename_i hd
    rw [List.idxOf_eq_length hd]
    simp only [List.length_map]
    have e : (D.map (fun x : DB => f x.2)).length ≤ D.length := by simp
    rw [List.getD_eq_getElem?_getD, List.getElem?_append_right e]
    simp only [List.length_map, Nat.sub_self]
    cases n - D.length <;> simp

theorem get_table {f : Bounds → Int} {n : Nat} {D : List DB} {d : Dim} (h : D.length ≤ n) (hd : d ∈ D.map (·.1) ∨ D.length < n) :
    get (D.map (fun x : DB => f x.2) ++ List.replicate (n - D.length) 0) ((D.map (·.1)).idxOf d) =
      .ok (if d ∈ D.map (·.1) then f (bnd D d) else 0) := by
  rw [get_ok, getD_table h]
  simp only [List.length_append, List.length_map, List.length_replicate]
  rcases hd with hd | hd
  · have := List.idxOf_lt_length_of_mem hd
    simp only [List.length_map] at this
    omega
  · have : (D.map (·.1)).idxOf d ≤ (D.map (·.1)).length := List.idxOf_le_length
    simp only [List.length_map] at this
    omega

theorem pt_eq : ∀ {D : List DB} {k : Int} {x : DB}, (D.map (·.1)).Nodup → x ∈ D →
    pt D k x.1 = x.2.first + x.2.stride * (coords (extents D) k).getD ((D.map (·.1)).idxOf x.1) 0
  | (e, b) :: D, k, x, hd, h => by
    simp only [List.map_cons, List.nodup_cons] at hd
    rcases List.mem_cons.1 h with rfl | h
    · simp [pt, npts, extents, coords]
    · have : x.1 ≠ e := fun e' => hd.1 (e' ▸ List.mem_map_of_mem h)
      simp only [pt, if_neg this, List.map_cons]
      rw [pt_eq hd.2 h, List.idxOf_cons_ne _ (Ne.symm this)]
      simp only [extents, npts, List.map_cons, coords, List.getD_cons_succ]

theorem zip_map_self {α β : Type} (f : α → β) : ∀ l : List α, (l.map f).zip l = l.map fun x => (f x, x)
  | [] => rfl
  | a :: as => by simp [zip_map_self f as]

theorem size_unit {b : Bounds} (hs : b.stride = 1) (h : b.first < b.last) (hf : b.last - b.first ≤ 2147483647) :
    b.size = .ok (b.last - b.first) := by
  unfold Bounds.size
  rw [hs, isub_ok (by unfold InInt; omega), M.ok_bind, idiv_ok (by omega) (by omega) (by unfold InInt; omega), Int.ediv_one]

/-- the first `req.length` entries come from the request, the others from the storage bounds -/
theorem take_append_rest {geo : List DB} {m : Nat} {F : DB → Int} {G : DB → Int} :
    (geo.map F).take m ++ (geo.drop m).map G = (geo.take m).map F ++ (geo.drop m).map G := by
  rw [← List.map_take]

theorem callHelper_tables {geo D : List DB} {it : Ptr} (hg : GeoOK geo) (hr : ReqOK geo D) (hlen : D.length ≤ geo.length)
    (hlead : ∀ x ∈ geo.take D.length, x.1 ∈ D.map (·.1)) (hrest : ∀ x ∈ geo.drop D.length, x.1 ∉ D.map (·.1)) :
    callHelper it geo D = submatrixHelper ((D.map (·.1)).map fun d => (geo.map (·.1)).idxOf d) it (lengths geo)
      (geo.map fun x => if x.1 ∈ D.map (·.1) then (bnd D x.1).first - x.2.first else 0)
      (geo.map fun x => if x.1 ∈ D.map (·.1) then (bnd D x.1).last - 1 - x.2.first else x.2.last - 1 - x.2.first)
      (geo.map fun x => if x.1 ∈ D.map (·.1) then (bnd D x.1).stride else x.2.stride) := by
  have hdim : ∀ x ∈ geo, x.1 ∈ D.map (·.1) ∨ D.length < geo.length := by
    intro x hx
    by_cases h : x.1 ∈ D.map (·.1)
    · exact .inl h
    · right
      by_contra hc
      have : D.length = geo.length := by omega
      apply h
      apply hlead
      rw [this, List.take_length]; exact hx
  have hbI : ∀ x ∈ geo, x.1 ∈ D.map (·.1) → x.2.first ≤ (bnd D x.1).first ∧ (bnd D x.1).last ≤ x.2.last ∧
      (bnd D x.1).first < (bnd D x.1).last := by
    intro x hx hm
    have hb := bnd_mem hm
    have h1 := hr.inside _ hb x.2 hx
    exact ⟨h1.1, h1.2, hr.nonempty _ hb⟩
  have hub : ∀ x ∈ D, x.2.ub = .ok (x.2.last - 1) := by
    intro x hx
    refine isub_ok ?_
    by_cases hx' : ∃ g, (x.1, g) ∈ geo
    · obtain ⟨g, hgm⟩ := hx'
      have h1 := hr.inside x hx g hgm
      have h2 := hg.int _ hgm
      have h3 := hr.nonempty x hx
      unfold InInt at *
      simp only at h2
      omega
    · exfalso
      -- every requested dimension is a storage dimension: counting
      apply hx'
      have hsub : (geo.take D.length).map (·.1) ⊆ D.map (·.1) := by
        intro d hd
        obtain ⟨y, hy, rfl⟩ := List.mem_map.1 hd
        exact hlead y hy
      have hnd : ((geo.take D.length).map (·.1)).Nodup := by
        rw [List.map_take]; exact hg.nodup.sublist (List.take_sublist _ _)
      have hperm : ((geo.take D.length).map (·.1)).Perm (D.map (·.1)) :=
        List.Subperm.perm_of_length_le (List.subperm_of_subset hnd hsub) (by simp; omega)
      have hm := hperm.mem_iff.2 (List.mem_map_of_mem (f := (·.1)) hx)
      obtain ⟨y, hy, hye⟩ := List.mem_map.1 hm
      exact ⟨y.2, by rw [← hye]; exact List.mem_of_mem_take hy⟩
  have hmem : ∀ x ∈ geo, x ∈ geo.take D.length ∨ x ∈ geo.drop D.length := by
    intro x hx
    rw [← List.mem_append, List.take_append_drop]; exact hx
  unfold callHelper
  rw [if_neg (by omega)]
  dsimp only
  have hO : ∀ {f : Bounds → Int}, (geo.map (·.1)).mapM (fun d => get (D.map (fun x : DB => f x.2) ++
      List.replicate (geo.length - D.length) 0) ((D.map (·.1)).idxOf d)) =
      .ok (geo.map fun x => if x.1 ∈ D.map (·.1) then f (bnd D x.1) else 0) := by
    intro f
    rw [mapM_ok (g := fun d => if d ∈ D.map (·.1) then f (bnd D d) else 0), List.map_map]
    · rfl
    · intro d hd
      obtain ⟨x, hx, rfl⟩ := List.mem_map.1 hd
      exact get_table hlen (hdim x hx)
  have hru : (geo.drop D.length).mapM (fun x : DB => x.2.ub) = .ok ((geo.drop D.length).map fun x => x.2.last - 1) :=
    mapM_ok fun x hx => isub_ok (by
      have h1 := hg.int x (List.mem_of_mem_drop hx)
      have h2 := hg.nonempty x (List.mem_of_mem_drop hx)
      unfold InInt at *; omega)
  rw [mapM_ok (g := fun x : DB => x.2.last - 1) hub, M.ok_bind, hO (f := Bounds.lb), M.ok_bind, hO (f := fun b => b.last - 1),
    M.ok_bind, hO (f := Bounds.stride), M.ok_bind,
    hru, M.ok_bind]
  have hjoin : ∀ {F G : DB → Int}, (geo.map fun x => if x.1 ∈ D.map (·.1) then F x else 0).take D.length ++
      (geo.drop D.length).map G = geo.map fun x => if x.1 ∈ D.map (·.1) then F x else G x := by
    intro F G
    conv_rhs => rw [← List.take_append_drop D.length geo, List.map_append]
    rw [← List.map_take]
    congr 1
    · refine List.map_congr_left fun x hx => ?_
      rw [if_pos (hlead x hx), if_pos (hlead x hx)]
    · refine List.map_congr_left fun x hx => ?_
      rw [if_neg (hrest x hx)]
  rw [hjoin, hjoin, hjoin]
  rw [zip_map_self, zip_map_self]
  have hsz : ∀ x ∈ geo, x.2.last - x.2.first ≤ 2147483647 := by
    intro x hx
    have := mem_le_prod hg.pos (x.2.last - x.2.first) (List.mem_map_of_mem (f := fun x : DB => x.2.last - x.2.first) hx)
    have := hg.fits
    omega
  rw [mapM_ok (g := fun y : Int × DB => y.1 - y.2.2.first), M.ok_bind]
  · rw [mapM_ok (g := fun y : Int × DB => y.1 - y.2.2.first), M.ok_bind]
    · rw [mapM_ok (g := fun x : DB => x.2.last - x.2.first) (l := geo) (fun x hx => size_unit (hg.unit x hx) (hg.nonempty x hx) (hsz x hx)),
        M.ok_bind]
      rw [List.map_map (l := geo), List.map_map (l := geo)]
      congr 1
      · refine List.map_congr_left fun x hx => ?_
        simp only [Function.comp, Bounds.lb]
        split <;> simp
      · refine List.map_congr_left fun x hx => ?_
        simp only [Function.comp]
        split <;> simp
    · intro y hy
      obtain ⟨x, hx, rfl⟩ := List.mem_map.1 hy
      refine isub_ok ?_
      have h1 := hsz x hx
      have h2 := hg.nonempty x hx
      simp only [Bounds.lb]
      split
      · rename_i hm
        have h3 := hbI x hx hm
        unfold InInt; omega
      · unfold InInt; omega
  · intro y hy
    obtain ⟨x, hx, rfl⟩ := List.mem_map.1 hy
    refine isub_ok ?_
    have h1 := hsz x hx
    have h2 := hg.nonempty x hx
    simp only [Bounds.lb]
    split
    · rename_i hm
      have h3 := hbI x hx hm
      unfold InInt; omega
    · unfold InInt; omega

theorem ReqOK.len {geo D : List DB} (h : ReqOK geo D) : D.length ≤ geo.length := by
  have := h.lead.length_eq
  simp at this; omega

theorem ReqOK.leadMem {geo D : List DB} (h : ReqOK geo D) : ∀ x ∈ geo.take D.length, x.1 ∈ D.map (·.1) :=
  fun _ hx => h.lead.mem_iff.1 (List.mem_map_of_mem hx)

theorem ReqOK.restMem {geo D : List DB} (hg : GeoOK geo) (h : ReqOK geo D) : ∀ x ∈ geo.drop D.length, x.1 ∉ D.map (·.1) := by
  intro x hx hm
  have hm := h.lead.mem_iff.2 hm
  have := hg.nodup
  rw [← List.take_append_drop D.length geo, List.map_append, List.nodup_append] at this
  exact this.2.2 _ hm _ (List.mem_map_of_mem hx) rfl

theorem ReqOK.mem_geo {geo D : List DB} (h : ReqOK geo D) {x : DB} (hx : x ∈ D) : ∃ g, (x.1, g) ∈ geo := by
  have hm := h.lead.mem_iff.2 (List.mem_map_of_mem (f := (·.1)) hx)
  obtain ⟨y, hy, e⟩ := List.mem_map.1 hm
  exact ⟨y.2, by rw [← e]; exact List.mem_of_mem_take hy⟩

theorem idxOf_geo {geo : List DB} (hd : (geo.map (·.1)).Nodup) {x : DB} (hx : x ∈ geo) :
    ∃ h : (geo.map (·.1)).idxOf x.1 < geo.length, geo[(geo.map (·.1)).idxOf x.1] = x := by
  have h := List.idxOf_lt_length_of_mem (List.mem_map_of_mem (f := (·.1)) hx)
  simp only [List.length_map] at h
  refine ⟨h, ?_⟩
  obtain ⟨j, hj, rfl⟩ := List.getElem_of_mem hx
  have : (geo.map (·.1)).idxOf (geo[j].1) = j := by
    have := hd.idxOf_getElem (xs := geo.map (·.1)) j (by simpa using hj)
    simpa using this
  simp only [this]

theorem getD_geo {geo : List DB} (hd : (geo.map (·.1)).Nodup) {x : DB} (hx : x ∈ geo) (F : DB → Int) :
    (geo.map F).getD ((geo.map (·.1)).idxOf x.1) 0 = F x := by
  obtain ⟨h, e⟩ := idxOf_geo hd hx
  rw [List.getD_eq_getElem?_getD, List.getElem?_eq_getElem (by simpa using h)]
  simp [e]

/-- element `k` of the iterator a span returns for a request -/
theorem call_ok {geo D : List DB} {it : Ptr} (hg : GeoOK geo) (hr : ReqOK geo D) :
    ∃ v, callHelper it geo D = .ok v ∧ v.IsBegin ∧ v.n = extents D ∧
      v.stride = (D.map fun x => weight (lengths geo) ((geo.map (·.1)).idxOf x.1) * x.2.stride) ∧
      ∀ k, 0 ≤ k → k < npts D → ∀ p : Pt, (∀ x ∈ D, p x.1 = pt D k x.1) → (∀ x ∈ geo.drop D.length, p x.1 = x.2.first) →
        (v.at_ k).addr = .ok (it.add (storeOff geo p)) ∧ Inside geo p := by
  rw [callHelper_tables hg hr hr.len hr.leadMem (hr.restMem hg)]
  set lb := geo.map fun x => if x.1 ∈ D.map (·.1) then (bnd D x.1).first - x.2.first else 0 with hlb
  set ub := geo.map fun x => if x.1 ∈ D.map (·.1) then (bnd D x.1).last - 1 - x.2.first else x.2.last - 1 - x.2.first with hub
  set stm := geo.map fun x => if x.1 ∈ D.map (·.1) then (bnd D x.1).stride else x.2.stride with hstm
  set seq := (D.map (·.1)).map fun d => (geo.map (·.1)).idxOf d with hseqd
  have hmem : ∀ x ∈ geo, x.1 ∈ D.map (·.1) → (x.1, bnd D x.1) ∈ D := fun x _ h => bnd_mem h
  -- one dimension of the request
  have hone : ∀ x ∈ D, ∃ g, (x.1, g) ∈ geo ∧ lb.getD ((geo.map (·.1)).idxOf x.1) 0 = x.2.first - g.first ∧
      ub.getD ((geo.map (·.1)).idxOf x.1) 0 = x.2.last - 1 - g.first ∧ stm.getD ((geo.map (·.1)).idxOf x.1) 0 = x.2.stride ∧
      (lengths geo).getD ((geo.map (·.1)).idxOf x.1) 0 = g.last - g.first := by
    intro x hx
    obtain ⟨g, hgm⟩ := hr.mem_geo hx
    have hxm : x.1 ∈ D.map (·.1) := List.mem_map_of_mem hx
    refine ⟨g, hgm, ?_, ?_, ?_, ?_⟩
    · have := getD_geo hg.nodup hgm (fun x : DB => if x.1 ∈ D.map (·.1) then (bnd D x.1).first - x.2.first else 0)
      simp only [if_pos hxm, bnd_eq hr.nodup hx] at this
      exact this
    · have := getD_geo hg.nodup hgm (fun x : DB => if x.1 ∈ D.map (·.1) then (bnd D x.1).last - 1 - x.2.first else x.2.last - 1 - x.2.first)
      simp only [if_pos hxm, bnd_eq hr.nodup hx] at this
      exact this
    · have := getD_geo hg.nodup hgm (fun x : DB => if x.1 ∈ D.map (·.1) then (bnd D x.1).stride else x.2.stride)
      simp only [if_pos hxm, bnd_eq hr.nodup hx] at this
      exact this
    · exact getD_geo hg.nodup hgm (fun x : DB => x.2.last - x.2.first)
  have hlen : (lengths geo).length = geo.length := by simp [lengths]
  have hdim : ∀ x ∈ D, (geo.map (·.1)).idxOf x.1 < (lengths geo).length ∧ DimOK (lengths geo) lb ub stm ((geo.map (·.1)).idxOf x.1) := by
    intro x hx
    obtain ⟨g, hgm, e1, e2, e3, e4⟩ := hone x hx
    obtain ⟨hi, -⟩ := idxOf_geo hg.nodup hgm
    have h1 := hr.inside x hx g hgm
    have h2 := hr.nonempty x hx
    have h3 := hr.stride x hx
    have h4 := hr.fit x hx
    have h5 := hr.fit' x hx
    refine ⟨by rw [hlen]; exact hi, ?_, ?_, ?_, ?_, ?_, ?_⟩
    · rw [e1]; omega
    · rw [e1, e2]; omega
    · rw [e2, e4]; omega
    · rw [e3]; exact h3
    · rw [e1, e2, e3]; omega
    · rw [e3]; exact h5
  have hseq : ∀ i ∈ seq, i < (lengths geo).length ∧ DimOK (lengths geo) lb ub stm i := by
    intro i hi
    rw [hseqd, List.map_map] at hi
    obtain ⟨x, hx, rfl⟩ := List.mem_map.1 hi
    exact hdim x hx
  have hlbin : InBox (lengths geo) lb := by
    rw [hlb, lengths, InBox_map]
    intro x hx
    have h1 := hg.nonempty x hx
    split
    · rename_i hm
      have h2 := hr.inside _ (hmem x hx hm) x.2 hx
      have h3 := hr.nonempty _ (hmem x hx hm)
      simp only at h2 h3
      omega
    · omega
  have hne : (lengths geo) ≠ [] := by simpa [lengths] using hg.ne
  have hsne : seq ≠ [] := by simpa [hseqd] using hr.ne
  have hinj : ∀ x ∈ D, ∀ y ∈ D, (geo.map (·.1)).idxOf x.1 = (geo.map (·.1)).idxOf y.1 → x.1 = y.1 := by
    intro x hx y hy e
    obtain ⟨g, hgx⟩ := hr.mem_geo hx
    obtain ⟨g', hgy⟩ := hr.mem_geo hy
    obtain ⟨h1, e1⟩ := idxOf_geo hg.nodup hgx
    obtain ⟨h2, e2⟩ := idxOf_geo hg.nodup hgy
    simp only at e1 e2 e
    have : (x.1, g) = (y.1, g') := by rw [← e1, ← e2]; simp only [e]
    exact (Prod.mk.inj this).1
  have hsd : seq.Nodup := by
    rw [hseqd]
    refine (List.nodup_map_iff_inj_on hr.nodup).2 ?_
    intro d hd d' hd' e
    obtain ⟨x, hx, rfl⟩ := List.mem_map.1 hd
    obtain ⟨y, hy, rfl⟩ := List.mem_map.1 hd'
    exact hinj x hx y hy e
  have hn : (seq.map fun i => cnt (lb.getD i 0) (ub.getD i 0) (stm.getD i 0)) = extents D := by
    rw [hseqd, List.map_map, List.map_map, extents]
    refine List.map_congr_left fun x hx => ?_
    obtain ⟨g, hgm, e1, e2, e3, e4⟩ := hone x hx
    simp only [Function.comp_apply, e1, e2, e3, cnt, count]
    rw [show x.2.last - 1 - g.first - (x.2.first - g.first) = x.2.last - 1 - x.2.first by omega]
  rw [submatrixHelper_ok hne hg.pos hg.fits (by simp [lengths, hlb]) (by simp [lengths, hub]) (by simp [lengths, hstm]) hlbin hseq]
  have hst : (seq.map fun i => weight (lengths geo) i * stm.getD i 0) =
      D.map fun x => weight (lengths geo) ((geo.map (·.1)).idxOf x.1) * x.2.stride := by
    rw [hseqd, List.map_map, List.map_map]
    refine List.map_congr_left fun x hx => ?_
    obtain ⟨g, hgm, e1, e2, e3, e4⟩ := hone x hx
    simp only [Function.comp_apply, e3]
  refine ⟨_, rfl, submatrix_begin hsne hsd hg.pos hg.fits (by simp) hseq, hn, hst, ?_⟩
  intro k h0 h1 p hp hp'
  have h1' : k < (seq.map fun i => cnt (lb.getD i 0) (ub.getD i 0) (stm.getD i 0)).prod := by rw [hn]; exact h1
  obtain ⟨-, e2, e3⟩ := submatrix_at (it := it) hsne hsd hg.pos hg.fits hlbin hseq h0 h1'
  have hemb : embed seq lb stm (fun i => (coords (seq.map fun i => cnt (lb.getD i 0) (ub.getD i 0) (stm.getD i 0)) k).getD
      (seq.idxOf i) 0) (lengths geo).length = geo.map fun x => p x.1 - x.2.first := by
    apply List.ext_getElem
    · simp [embed, lengths]
    · intro i hi1 hi2
      have hi : i < geo.length := by simpa using hi2
      have hgi : geo[i] ∈ geo := List.getElem_mem hi
      have hix : (geo.map (·.1)).idxOf (geo[i].1) = i := by
        have := hg.nodup.idxOf_getElem (xs := geo.map (·.1)) i (by simpa using hi)
        simpa using this
      simp only [embed, List.getElem_map, List.getElem_range]
      by_cases hm : geo[i].1 ∈ D.map (·.1)
      · have hx := hmem _ hgi hm
        have his : i ∈ seq := by
          rw [hseqd]; exact List.mem_map.2 ⟨_, hm, hix⟩
        obtain ⟨g, hgm, f1, f2, f3, f4⟩ := hone _ hx
        simp only [hix] at f1 f3
        have hgg : g = geo[i].2 := by
          obtain ⟨h, e⟩ := idxOf_geo hg.nodup hgm
          simp only [hix] at e
          rw [e]
        have hj : seq.idxOf i = (D.map (·.1)).idxOf geo[i].1 := by
          have hjl := List.idxOf_lt_length_of_mem hm
          have : seq[(D.map (·.1)).idxOf geo[i].1]'(by simpa [hseqd] using hjl) = i := by
            simp only [hseqd, List.getElem_map]
            have := List.getElem_idxOf hjl
            simp only [List.getElem_map] at this
            rw [this, hix]
          conv_lhs => rw [← this]
          exact hsd.idxOf_getElem (xs := seq) _ _
        rw [if_pos his, f1, f3, hj, hn, hp _ hx, pt_eq hr.nodup hx, hgg]
        simp only
        ring
      · have his : i ∉ seq := by
          intro h
          rw [hseqd] at h
          obtain ⟨d, hd, e⟩ := List.mem_map.1 h
          obtain ⟨x, hx, rfl⟩ := List.mem_map.1 hd
          obtain ⟨g, hgm⟩ := hr.mem_geo hx
          obtain ⟨h', e'⟩ := idxOf_geo hg.nodup hgm
          simp only [e] at e'
          apply hm
          rw [e']; exact hd
        have hl0 : lb.getD i 0 = 0 := by
          have := getD_geo hg.nodup hgi (fun x : DB => if x.1 ∈ D.map (·.1) then (bnd D x.1).first - x.2.first else 0)
          simp only [if_neg hm, hix] at this
          exact this
        have hd : geo[i] ∈ geo.drop D.length := by
          have : geo[i] ∈ geo.take D.length ++ geo.drop D.length := by rw [List.take_append_drop]; exact hgi
          rcases List.mem_append.1 this with h | h
          · exact absurd (hr.leadMem _ h) hm
          · exact h
        rw [if_neg his, hl0, hp' _ hd]
        omega
  rw [hemb] at e2
  refine ⟨e2, ?_⟩
  have hb := embed_inBox hlbin hseq e3
  rw [hemb, lengths, InBox_map] at hb
  intro x hx
  have := hb x hx
  unfold InRange
  omega

/-! ### the points of a domain -/

/-- nonempty bounds with positive strides -/
def DomOK (D : List DB) : Prop := (D.map (·.1)).Nodup ∧ ∀ x ∈ D, x.2.first < x.2.last ∧ 1 ≤ x.2.stride

theorem count_pos {b : Bounds} (h : b.first < b.last) (hs : 1 ≤ b.stride) : 1 ≤ count b := by
  have := Int.ediv_nonneg (a := b.last - 1 - b.first) (b := b.stride) (by omega) (by omega)
  unfold count; omega

theorem DomOK.tail {x : DB} {D : List DB} (h : DomOK (x :: D)) : DomOK D :=
  ⟨(List.nodup_cons.1 h.1).2, fun y hy => h.2 y (List.mem_cons_of_mem _ hy)⟩

theorem DomOK.head_ne {d : Dim} {b : Bounds} {D : List DB} (h : DomOK ((d, b) :: D)) {x : DB} (hx : x ∈ D) : x.1 ≠ d := by
  intro e
  have : x.1 ∈ D.map (·.1) := List.mem_map_of_mem hx
  rw [e] at this
  exact (List.nodup_cons.1 h.1).1 this

theorem DomOK.extents_pos {D : List DB} (h : DomOK D) : Pos (extents D) := by
  intro s hs
  obtain ⟨x, hx, rfl⟩ := List.mem_map.1 hs
  exact count_pos (h.2 x hx).1 (h.2 x hx).2

theorem DomOK.npts_pos {D : List DB} (h : DomOK D) : 1 ≤ npts D := h.extents_pos.prod_pos

theorem npts_cons {x : DB} {D : List DB} : npts (x :: D) = count x.2 * npts D := by simp [npts, extents]

theorem isPoint_step {b : Bounds} {j : Int} (hs : 1 ≤ b.stride) (h0 : 0 ≤ j) (h1 : j < count b) :
    IsPoint b (b.first + b.stride * j) := by
  have h2 := Int.mul_ediv_self_le (x := b.last - 1 - b.first) (k := b.stride) (by omega)
  have h3 : b.stride * j ≤ b.stride * ((b.last - 1 - b.first) / b.stride) :=
    mul_le_mul_of_nonneg_left (by unfold count at h1; omega) (by omega)
  have h4 : 0 ≤ b.stride * j := mul_nonneg (by omega) h0
  exact ⟨⟨by omega, by omega⟩, ⟨j, by omega⟩⟩

/-- the points listed belong to the domain -/
theorem pt_inDom : ∀ {D : List DB} {k : Int}, DomOK D → 0 ≤ k → k < npts D → InDom D (pt D k)
  | [], _, _, _, _ => by intro x hx; cases hx
  | (d, b) :: D, k, h, h0, h1 => by
    have hN := h.tail.npts_pos
    rw [npts_cons] at h1
    intro x hx
    rcases List.mem_cons.1 hx with rfl | hx'
    · have h2 := h.2 _ hx
      simp only [pt, if_true]
      exact isPoint_step h2.2 (Int.ediv_nonneg h0 (by omega)) (Int.ediv_lt_of_lt_mul (by omega) h1)
    · have hne : x.1 ≠ d := h.head_ne hx'
      simp only [pt, if_neg hne]
      exact pt_inDom h.tail (Int.emod_nonneg _ (by omega)) (Int.emod_lt_of_pos _ (by omega)) x hx'

/-- every point of the domain is listed -/
theorem pt_surj : ∀ {D : List DB} {p : Pt}, DomOK D → InDom D p → ∃ k, 0 ≤ k ∧ k < npts D ∧ ∀ x ∈ D, pt D k x.1 = p x.1
  | [], p, _, _ => ⟨0, le_refl _, by simp [npts, extents], by intro x hx; cases hx⟩
  | (d, b) :: D, p, h, hp => by
    obtain ⟨k, h0, h1, hk⟩ := pt_surj h.tail (fun x hx => hp x (List.mem_cons_of_mem _ hx))
    obtain ⟨⟨g1, g2⟩, j, hj⟩ := hp (d, b) List.mem_cons_self
    have hb := h.2 (d, b) List.mem_cons_self
    simp only at g1 g2 hj hb
    have hj0 : 0 ≤ j := by
      by_contra hc
      have : b.stride * j < 0 := mul_neg_of_pos_of_neg (by omega) (by omega)
      omega
    have hj1 : j < count b := by
      have : j ≤ (b.last - 1 - b.first) / b.stride := by
        rw [Int.le_ediv_iff_mul_le (by omega)]
        rw [mul_comm] at hj; omega
      unfold count; omega
    have hN := h.tail.npts_pos
    refine ⟨j * npts D + k, by positivity, ?_, ?_⟩
    · rw [npts_cons]; simp only; nlinarith
    · have hdiv : (j * npts D + k) / npts D = j := by
        rw [mul_comm, Int.mul_add_ediv_left _ _ (by omega), Int.ediv_eq_zero_of_lt h0 h1, add_zero]
      have hmod : (j * npts D + k) % npts D = k := by
        rw [mul_comm, Int.mul_add_emod_self_left, Int.emod_eq_of_lt h0 h1]
      intro x hx
      rcases List.mem_cons.1 hx with rfl | hx
      · simp only [pt, if_true, hdiv]; omega
      · have hne : x.1 ≠ d := h.head_ne hx
        simp only [pt, if_neg hne, hmod]
        exact hk x hx

/-- no point is listed twice -/
theorem pt_inj : ∀ {D : List DB} {k k' : Int}, DomOK D → 0 ≤ k → k < npts D → 0 ≤ k' → k' < npts D →
    (∀ x ∈ D, pt D k x.1 = pt D k' x.1) → k = k'
  | [], k, k', _, h0, h1, h0', h1', _ => by simp [npts, extents] at h1 h1'; omega
  | (d, b) :: D, k, k', h, h0, h1, h0', h1', he => by
    have hb := h.2 (d, b) List.mem_cons_self
    have hN := h.tail.npts_pos
    have e1 := he (d, b) List.mem_cons_self
    simp only [pt, if_true] at e1
    have e2 : k / npts D = k' / npts D := by
      have : b.stride * (k / npts D) = b.stride * (k' / npts D) := by omega
      have hb2 : b.stride ≠ 0 := by simp only at hb; omega
      exact (mul_right_inj' hb2).1 this
    have e3 : k % npts D = k' % npts D := by
      refine pt_inj h.tail (Int.emod_nonneg _ (by omega)) (Int.emod_lt_of_pos _ (by omega))
        (Int.emod_nonneg _ (by omega)) (Int.emod_lt_of_pos _ (by omega)) ?_
      intro x hx
      have hne : x.1 ≠ d := h.head_ne hx
      have := he x (List.mem_cons_of_mem _ hx)
      simp only [pt, if_neg hne] at this
      exact this
    rw [← Int.mul_ediv_add_emod k (npts D), ← Int.mul_ediv_add_emod k' (npts D), e2, e3]

theorem ReqOK.dom {geo D : List DB} (h : ReqOK geo D) : DomOK D := ⟨h.nodup, fun x hx => ⟨h.nonempty x hx, h.stride x hx⟩⟩

/-- different points of an array are kept at different places -/
theorem storeOff_inj {geo : List DB} {p q : Pt} (hp : Inside geo p) (hq : Inside geo q)
    (h : storeOff geo p = storeOff geo q) : ∀ x ∈ geo, p x.1 = q x.1 := by
  have b1 : ∀ {r : Pt}, Inside geo r → InBox (lengths geo) (geo.map fun x => r x.1 - x.2.first) := by
    intro r hr
    rw [lengths, InBox_map]
    intro x hx
    have := hr x hx
    unfold InRange at this; omega
  have e := rowMajor_inj (b1 hp) (b1 hq) h
  intro x hx
  have := List.map_inj_left.1 e x hx
  omega

theorem storeOff_range {geo : List DB} {p : Pt} (hp : Inside geo p) : 0 ≤ storeOff geo p ∧ storeOff geo p < (lengths geo).prod := by
  have b1 : InBox (lengths geo) (geo.map fun x => p x.1 - x.2.first) := by
    rw [lengths, InBox_map]
    intro x hx
    have := hp x hx
    unfold InRange at this; omega
  exact ⟨rowMajor_nonneg b1, rowMajor_lt b1⟩

end Verif
