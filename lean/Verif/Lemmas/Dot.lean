import Verif.Lemmas.Expr

namespace Verif
open Spec

variable {T : Type}

/-! ### sums over dimensions -/

theorem rowMajor_add {α : Type} {f g h : α → Int} : ∀ {l : List α},
    rowMajor (l.map f) (l.map fun x => g x + h x) = rowMajor (l.map f) (l.map g) + rowMajor (l.map f) (l.map h)
  | [] => by simp [rowMajor]
  | a :: l => by
    simp only [List.map_cons, rowMajor, rowMajor_add (l := l)]
    ring

/-- row-major position as a sum over the dimensions, each weighing the product of the later lengths -/
theorem rowMajor_sum_idx {geo : List DB} (hd : (geo.map (·.1)).Nodup) (h : DB → Int) :
    rowMajor (lengths geo) (geo.map h) = (geo.map fun x => weight (lengths geo) ((geo.map (·.1)).idxOf x.1) * h x).sum := by
  rw [rowMajor_eq_sum (by simp [lengths])]
  have hl : (lengths geo).length = geo.length := by simp [lengths]
  rw [hl]
  congr 1
  apply List.ext_getElem
  · simp
  · intro i h1 h2
    have hi : i < geo.length := by simpa using h1
    have hix : (geo.map (·.1)).idxOf (geo[i].1) = i := by
      have := hd.idxOf_getElem (xs := geo.map (·.1)) i (by simpa using hi)
      simpa using this
    simp [hi, hix]

theorem rowMajor_last : ∀ {ss cs : List Int} {s a b : Int}, ss.length = cs.length →
    rowMajor (ss ++ [s]) (cs ++ [a + b]) = rowMajor (ss ++ [s]) (cs ++ [a]) + b
  | [], [], s, a, b, _ => by simp [rowMajor]
  | _ :: ss, _ :: cs, s, a, b, h => by
    have := rowMajor_last (ss := ss) (cs := cs) (s := s) (a := a) (b := b) (by simpa using h)
    simp only [List.cons_append, rowMajor, this]; ring

/-- moving along the last stored dimension moves by single cells -/
theorem storeOff_last {gi : List DB} {w : Dim} {b : Bounds} {p : Pt} {a i : Int} (hw : w ∉ gi.map (·.1)) :
    storeOff (gi ++ [(w, b)]) (setPt p w (a + i)) = storeOff (gi ++ [(w, b)]) (setPt p w a) + i := by
  unfold storeOff lengths
  simp only [List.map_append, List.map_cons, List.map_nil]
  have e : ∀ c, (gi.map fun x => setPt p w c x.1 - x.2.first) = gi.map fun x => p x.1 - x.2.first := by
    intro c
    refine List.map_congr_left fun x hx => ?_
    have : x.1 ≠ w := fun e => hw (e ▸ List.mem_map_of_mem hx)
    simp [setPt, this]
  rw [e, e]
  simp only [setPt, if_true]
  rw [show a + i - b.first = (a - b.first) + i by omega]
  exact rowMajor_last (by simp)

/-! ### the offset loop -/

theorem offLoopI_ok {m : Mem T} {o : Ptr} {base : Int} {W f : DB → Int} : ∀ {L : List DB} {j acc : Int},
    (∀ t : Nat, t < L.length → InInt (base + (j + t)) ) →
    (∀ (t : Nat) (ht : t < L.length), m.ints (o.add (base + (j + t))) = some (f L[t])) →
    (∀ x ∈ L, InInt (W x * f x)) → (-9223372036854775808 ≤ acc - 2147483648 * L.length ∧ acc + 2147483648 * L.length ≤ 9223372036854775807) →
    offLoopI m o base j (L.map W) acc = .ok (acc + (L.map fun x => W x * f x).sum)
  | [], j, acc, _, _, _, _ => by simp [offLoopI]
  | x :: L, j, acc, h1, h2, h3, h4 => by
    have i1 := h1 0 (by simp)
    have i2 := h2 0 (by simp)
    have i3 := h3 x List.mem_cons_self
    simp only [Nat.cast_zero, add_zero, List.getElem_cons_zero] at i1 i2
    simp only [List.length_cons] at h4
    push_cast at h4
    have i4 : InDiff (acc + W x * f x) := by unfold InDiff; unfold InInt at i3; omega
    simp only [List.map_cons, offLoopI]
    rw [iadd_ok i1, M.ok_bind]
    unfold Mem.loadInt
    rw [i2]
    simp only []
    rw [M.ok_bind, imul_ok i3, M.ok_bind, dadd_ok i4, M.ok_bind, offLoopI_ok (f := f)]
    · simp [add_assoc]
    · intro t ht
      have := h1 (t + 1) (by simpa using ht)
      push_cast at this
      rwa [show base + (j + 1 + (t : Int)) = base + (j + ((t : Int) + 1)) by omega]
    · intro t ht
      have := h2 (t + 1) (by simpa using ht)
      push_cast at this
      rw [show base + (j + 1 + (t : Int)) = base + (j + ((t : Int) + 1)) by omega, this]
      simp
    · exact fun y hy => h3 y (List.mem_cons_of_mem _ hy)
    · unfold InInt at i3; constructor <;> omega

/-! ### the accumulation loop -/

theorem dotSum_err {acc : T → T → T → T} {f g : Nat → M T} {z : T} {e : UB} {n : Nat} (h : dotSum acc f g n z = .error e) :
    ∀ k, dotSum acc f g (n + k) z = .error e
  | 0 => h
  | k + 1 => by
    rw [← Nat.add_assoc]
    simp only [dotSum]
    rw [dotSum_err h k]; rfl

theorem dotLoop_eq {m : Mem T} {acc : T → T → T → T} {st it o : Ptr} {stride : List Int} {q : Nat → Ptr} {z : T} {n : Nat}
    (hq : ∀ i : Nat, i < n → offAddr m it stride o i = .ok (q i)) :
    ∀ (fuel i : Nat) (res : T), i + fuel = n →
      dotSum acc (fun i : Nat => m.load (st.add i)) (fun i => m.load (q i)) i z = .ok res →
      dotLoop m acc st it stride o fuel i res = dotSum acc (fun i : Nat => m.load (st.add i)) (fun i => m.load (q i)) n z
  | 0, i, res, hn, hr => by
    simp only [dotLoop]
    rw [← hr, show i = n by omega]
  | fuel + 1, i, res, hn, hr => by
    simp only [dotLoop]
    rw [hq i (by omega)]
    have hs : dotSum acc (fun i : Nat => m.load (st.add i)) (fun i => m.load (q i)) (i + 1) z = (do
        let a ← m.load (st.add i)
        let b ← m.load (q i)
        .ok (acc res a b)) := by
      simp only [dotSum]; rw [hr]; rfl
    cases ha : m.load (st.add i) with
    | error e =>
      rw [ha] at hs
      have := dotSum_err hs fuel
      rw [show i + 1 + fuel = n by omega] at this
      rw [this]; rfl
    | ok a =>
      cases hb : m.load (q i) with
      | error e =>
        rw [ha, hb] at hs
        have := dotSum_err hs fuel
        rw [show i + 1 + fuel = n by omega] at this
        rw [this]
        simp only [M.ok_bind, hb]; rfl
      | ok b =>
        rw [ha, hb] at hs
        simp only [M.ok_bind, hb]
        exact dotLoop_eq hq fuel (i + 1) (acc res a b) (by omega) hs

/-- dot product of the window array `u` with `v` at offsets: one entry per window index, every offset stays inside `v` -/
structure DotOK (tab : Ptr → Option Int) (u v : Span) (o : Ptr) (D : List DB) : Prop where
  ugeo : GeoOK u.geo
  ureq : ReqOK u.geo D
  ulen : u.geo.length = D.length + 1
  vgeo : GeoOK v.geo
  vreq : ReqOK v.geo D
  vlen : D.length = v.geo.length
  unit : ∀ x ∈ D, x.2.stride = 1
  table : ∀ w b, u.geo.getLast? = some (w, b) → ∀ i : Nat, (i : Int) < b.last - b.first →
    (∀ j : Nat, j < D.length → ∃ z, tab (o.add (i * D.length + j)) = some z) ∧
    (∀ k, 0 ≤ k → k < npts D → Inside v.geo (offPt tab o (D.map (·.1)) i (pt D k))) ∧
    ((i : Int) + 1) * D.length ≤ 2147483647

theorem offAddr_ok {m : Mem T} {v : Span} {D : List DB} {o : Ptr} {i : Nat} {k : Int} {it : Ptr}
    (hg : GeoOK v.geo) (hr : ReqOK v.geo D) (hl : D.length = v.geo.length) (hu : ∀ x ∈ D, x.2.stride = 1)
    (ht : ∀ j : Nat, j < D.length → ∃ z, m.ints (o.add (i * D.length + j)) = some z)
    (hin : Inside v.geo (offPt m.ints o (D.map (·.1)) i (pt D k))) (hp : Inside v.geo (pt D k))
    (hN : ((i : Int) + 1) * D.length ≤ 2147483647)
    (hit : it = cell v (pt D k)) :
    offAddr m it (D.map fun x => weight (lengths v.geo) ((v.geo.map (·.1)).idxOf x.1) * x.2.stride).reverse o i =
      .ok (cell v (offPt m.ints o (D.map (·.1)) i (pt D k))) := by
  set W : DB → Int := fun x => weight (lengths v.geo) ((v.geo.map (·.1)).idxOf x.1) with hW
  set δ : Dim → Int := fun d => (m.ints (o.add (i * D.length + (D.map (·.1)).reverse.idxOf d))).getD 0 with hδ
  have hDl : 1 ≤ D.length := by
    have := List.length_pos_iff.2 hr.ne; omega
  have hiN : ((i : Int) + 1) * D.length = i * D.length + D.length := by ring
  have hi0 : (0 : Int) ≤ i * D.length := by positivity
  have hstr : (D.map fun x => weight (lengths v.geo) ((v.geo.map (·.1)).idxOf x.1) * x.2.stride).reverse = D.reverse.map W := by
    rw [← List.map_reverse]
    refine List.map_congr_left fun x hx => ?_
    rw [hu x (List.mem_reverse.1 hx), mul_one]
  have hlen : ((D.reverse.map W).length : Int) = D.length := by simp
  -- each dimension's displacement is less than the array is long
  have hmem : ∀ x ∈ D, ∃ g, (x.1, g) ∈ v.geo := fun x hx => hr.mem_geo hx
  have hterm : ∀ x ∈ D, InInt (W x * δ x.1) := by
    intro x hx
    obtain ⟨g, hgm⟩ := hmem x hx
    have a := hp _ hgm
    have b := hin _ hgm
    have hxm : x.1 ∈ D.map (·.1) := List.mem_map_of_mem hx
    simp only [offPt, if_pos hxm, List.length_map] at b
    change InRange g (pt D k x.1 + δ x.1) at b
    unfold InRange at a b
    simp only at a
    have hw := weight_pos hg.pos ((v.geo.map (·.1)).idxOf x.1)
    obtain ⟨hi, e⟩ := idxOf_geo hg.nodup hgm
    have hmw := getD_mul_weight hg.pos (i := (v.geo.map (·.1)).idxOf x.1) (by simpa [lengths] using hi)
    have hge : (lengths v.geo).getD ((v.geo.map (·.1)).idxOf x.1) 0 = g.last - g.first :=
      getD_geo hg.nodup hgm (fun y : DB => y.2.last - y.2.first)
    rw [hge] at hmw
    have hf := hg.fits
    have h1 : W x * (g.last - g.first) ≤ 2147483647 := by rw [mul_comm]; exact hmw.trans hf
    have hw' : 1 ≤ W x := hw
    have h2 : W x * δ x.1 ≤ W x * (g.last - g.first) := mul_le_mul_of_nonneg_left (by omega) (by omega)
    have h3 : W x * -(g.last - g.first) ≤ W x * δ x.1 := mul_le_mul_of_nonneg_left (by omega) (by omega)
    rw [mul_neg] at h3
    unfold InInt; omega
  have hcol : ∀ (t : Nat) (htl : t < D.reverse.length), m.ints (o.add ((i : Int) * D.length + (0 + (t : Int)))) =
      some (δ (D.reverse[t]).1) := by
    intro t htl
    have hidx : (D.map (·.1)).reverse.idxOf (D.reverse[t]).1 = t := by
      have hnd : (D.map (·.1)).reverse.Nodup := List.nodup_reverse.2 hr.nodup
      have := hnd.idxOf_getElem (xs := (D.map (·.1)).reverse) t (by simpa using htl)
      simpa using this
    obtain ⟨z, hz⟩ := ht t (by simpa using htl)
    rw [zero_add, hδ]
    simp only [hidx, hz, Option.getD_some]
  unfold offAddr
  rw [hstr, hlen, imul_ok (by unfold InInt; omega), M.ok_bind]
  rw [offLoopI_ok (W := W) (f := fun x => δ x.1) (L := D.reverse) (j := 0) (acc := 0)]
  · rw [M.ok_bind, hit]
    simp only [cell, Ptr.add, Except.ok.injEq, Ptr.mk.injEq, true_and]
    have hsum : (D.reverse.map fun x => W x * δ x.1).sum = (v.geo.map fun x => W x * δ x.1).sum := by
      have hp1 : (D.reverse.map fun x => W x * δ x.1).Perm (D.map fun x => W x * δ x.1) := (List.reverse_perm D).map _
      rw [hp1.sum_eq]
      have hp2 := (perm_of_full hr hl).map fun d => weight (lengths v.geo) ((v.geo.map (·.1)).idxOf d) * δ d
      have := hp2.sum_eq
      rw [List.map_map, List.map_map] at this
      exact this.symm
    have hrow : storeOff v.geo (offPt m.ints o (D.map (·.1)) i (pt D k)) = storeOff v.geo (pt D k) +
        (v.geo.map fun x => W x * δ x.1).sum := by
      rw [← rowMajor_sum_idx hg.nodup (fun x => δ x.1)]
      unfold storeOff
      rw [show (v.geo.map fun x => offPt m.ints o (D.map (·.1)) i (pt D k) x.1 - x.2.first) =
        v.geo.map fun x => (pt D k x.1 - x.2.first) + δ x.1 from ?_]
      · exact rowMajor_add
      · refine List.map_congr_left fun x hx => ?_
        have hxm : x.1 ∈ D.map (·.1) := (perm_of_full hr hl).mem_iff.1 (List.mem_map_of_mem hx)
        simp only [offPt, if_pos hxm, List.length_map]
        change pt D k x.1 + δ x.1 - x.2.first = _
        omega
    rw [hsum, hrow]; omega
  · intro t htl
    have : t < D.length := by simpa using htl
    unfold InInt; omega
  · exact hcol
  · exact fun x hx => hterm x (List.mem_reverse.1 hx)
  · simp only [List.length_reverse]
    constructor <;> omega

theorem leads_dot {tab : Ptr → Option Int} {zero : T} {acc : T → T → T → T} {u v : Span} {o : Ptr} {D : List DB}
    (h : DotOK tab u v o D) : Leads tab (.dot zero acc u v o) D := by
  obtain ⟨ug, ur, ul, vg, vr, vl, hu, ht⟩ := h
  obtain ⟨a, ha, hab, han, -, haat⟩ := call_ok (it := u.ptr) ug ur
  obtain ⟨b, hb, hbb, hbn, hbs, hbat⟩ := call_ok (it := v.ptr) vg vr
  have wa := hab.fwalk
  have wb := hbb.fwalk
  rw [han] at wa
  rw [hbn] at wb
  -- the window dimension
  obtain ⟨gi, w, bw, hgi⟩ : ∃ gi w bw, u.geo = gi ++ [(w, bw)] := by
    obtain ⟨gi, x, hx⟩ := List.eq_nil_or_concat' u.geo |>.resolve_left ug.ne
    exact ⟨gi, x.1, x.2, hx⟩
  have hgl : gi.length = D.length := by rw [hgi] at ul; simpa using ul
  have hlast : u.geo.getLast? = some (w, bw) := by rw [hgi]; simp
  have hdrop : u.geo.drop D.length = [(w, bw)] := by rw [hgi, ← hgl]; simp
  have hget : u.geo[D.length]? = some (w, bw) := by rw [hgi, ← hgl]; simp
  have hwm : (w, bw) ∈ u.geo := by rw [hgi]; simp
  have hwD : w ∉ D.map (·.1) := ur.restMem ug (w, bw) (by rw [hdrop]; simp)
  have hwg : w ∉ gi.map (·.1) := by
    have := ug.nodup
    rw [hgi, List.map_append, List.nodup_append] at this
    intro hm
    exact this.2.2 _ hm w (by simp) rfl
  have hsz : bw.size = .ok (bw.last - bw.first) := by
    refine size_unit (ug.unit _ hwm) (ug.nonempty _ hwm) ?_
    have := mem_le_prod ug.pos (bw.last - bw.first) (List.mem_map.2 ⟨(w, bw), hwm, rfl⟩)
    have := ug.fits
    omega
  set S := b.stride.reverse with hS
  refine ⟨fun k => .dot zero acc (a.at_ k) (b.at_ k) S o (bw.last - bw.first), ?_,
    ⟨fun {k} h0 h1 => ?_, fun {k d} h0 h1 h2 => ?_⟩, fun m k hm h0 h1 => ?_⟩
  · simp only [Expr.call, Expr.callDot]
    rw [if_neg (by omega)]
    show (callHelper u.ptr u.geo D >>= _) = _
    rw [ha, M.ok_bind]
    unfold Span.callAll
    rw [if_pos vl]
    show (callHelper v.ptr v.geo D >>= _) = _
    rw [hb, M.ok_bind, hget]
    dsimp only
    rw [hsz, M.ok_bind, ← hab.eq_at, ← hbb.eq_at]
  · show It.inc _ = _
    simp only [It.inc]
    rw [show MT.inc (a.at_ k) = _ from wa.inc h0 h1, M.ok_bind, show MT.inc (b.at_ k) = _ from wb.inc h0 h1]; rfl
  · show It.adv _ _ = _
    simp only [It.adv]
    rw [show MT.adv (a.at_ k) d = _ from wa.adv h0 h1 h2, M.ok_bind, show MT.adv (b.at_ k) d = _ from wb.adv h0 h1 h2]; rfl
  · have hpa := (haat k h0 h1 (setPt (pt D k) w bw.first) (by
        intro x hx
        have : x.1 ≠ w := fun e => hwD (e ▸ List.mem_map_of_mem hx)
        simp [setPt, this]) (by
        rw [hdrop]
        intro x hx
        rw [List.mem_singleton] at hx
        subst hx; simp [setPt])).1
    obtain ⟨hpb, hpin⟩ := hbat k h0 h1 (pt D k) (fun _ _ => rfl) (by
        rw [List.drop_eq_nil_of_le (by omega)]; intro x hx; cases hx)
    simp only [It.deref, den]
    rw [hpa, M.ok_bind, hpb, M.ok_bind, hlast]
    dsimp only
    have hu' : ∀ i : Nat, (u.ptr.add (storeOff u.geo (setPt (pt D k) w bw.first))).add i =
        cell u (setPt (pt D k) w (bw.first + i)) := by
      intro i
      simp only [cell, hgi, storeOff_last hwg]
      simp only [Ptr.add, Ptr.mk.injEq, true_and]; omega
    have hq : ∀ i : Nat, i < (bw.last - bw.first).toNat → offAddr m (v.ptr.add (storeOff v.geo (pt D k))) S o i =
        .ok (cell v (offPt m.ints o (D.map (·.1)) i (pt D k))) := by
      intro i hi
      obtain ⟨t1, t2, t3⟩ := ht w bw hlast i (by omega)
      rw [hS, hbs]
      subst hm
      exact offAddr_ok vg vr vl hu t1 (t2 k h0 h1) hpin t3 rfl
    have hloop := dotLoop_eq (acc := acc) (z := zero) (st := u.ptr.add (storeOff u.geo (setPt (pt D k) w bw.first)))
      (q := fun i => cell v (offPt m.ints o (D.map (·.1)) i (pt D k))) hq (bw.last - bw.first).toNat 0 zero (by omega) rfl
    simp only [hu'] at hloop
    rw [show ((0 : Nat) : Int) = 0 from rfl] at hloop
    rw [hloop]

end Verif
