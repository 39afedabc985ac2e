import Verif.Lemmas.Access
import Verif.Lemmas.Assign

/-
What a successful call of a span tells, without assuming that the bounds are nonempty.
-/

namespace Verif
open Spec

theorem bind_inv {α β : Type} {x : M α} {f : α → M β} {r : β} (h : (x >>= f) = .ok r) : ∃ a, x = .ok a ∧ f a = .ok r := by
  cases x with
  | error e => cases h
  | ok a => exact ⟨a, rfl, h⟩

theorem chk_inv {a r : Int} (h : chk a = .ok r) : r = a := by
  unfold chk at h
  split at h
  · cases h; rfl
  · cases h

theorem mapM_inv {α β : Type} {f : α → M β} : ∀ {l : List α} {r : List β}, l.mapM f = .ok r →
    ∀ i : Nat, (∀ a, l[i]? = some a → ∃ b, r[i]? = some b ∧ f a = .ok b) ∧ (∀ b, r[i]? = some b → ∃ a, l[i]? = some a ∧ f a = .ok b)
  | [], r, h, i => by
    cases h
    simp
  | a :: l, r, h, i => by
    rw [List.mapM_cons] at h
    obtain ⟨b, hb, h⟩ := bind_inv h
    obtain ⟨bs, hbs, h⟩ := bind_inv h
    cases h
    cases i with
    | zero => simp [hb]
    | succ i => simpa using mapM_inv hbs i

theorem get_inv {l : List Int} {i : Nat} {r : Int} (h : get l i = .ok r) : l[i]? = some r := by
  unfold get at h
  split at h
  · rename_i e; cases h; exact e
  · cases h

theorem prodLoop_inv : ∀ {l : List Int} {t r : Int}, prodLoop t l = .ok r → r = t * l.prod
  | [], t, r, h => by cases h; simp
  | a :: l, t, r, h => by
    obtain ⟨u, hu, h⟩ := bind_inv h
    rw [prodLoop_inv h, chk_inv hu, List.prod_cons, mul_assoc]

/-- the extents the code computes, whatever the bounds are -/
def rawExtent (b : Bounds) : Int := (b.last - 1 - b.first + b.stride).tdiv b.stride

theorem zip_inv {α β : Type} {l : List α} {k : List β} {i : Nat} {x : α × β} (h : (l.zip k)[i]? = some x) :
    l[i]? = some x.1 ∧ k[i]? = some x.2 := by
  rw [List.getElem?_zip_eq_some] at h
  exact h

theorem idx_getElem {D : List DB} {x : DB} (hd : (D.map (·.1)).Nodup) (hx : x ∈ D) : D[(D.map (·.1)).idxOf x.1]? = some x := by
  obtain ⟨i, hi, rfl⟩ := List.getElem_of_mem hx
  have : (D.map (·.1)).idxOf D[i].1 = i := by
    have := List.Nodup.idxOf_getElem (xs := D.map (·.1)) hd i (by simpa using hi)
    simpa using this
  rw [this, List.getElem?_eq_getElem hi]

theorem callHelper_inv {it : Ptr} {geo D : List DB} {v : MT} (h : callHelper it geo D = .ok v) (hd : (D.map (·.1)).Nodup)
    (hl : D.length = geo.length) (hm : ∀ x ∈ D, x.1 ∈ geo.map (·.1)) : v.n = D.map fun x => rawExtent x.2 := by
  unfold callHelper at h
  rw [if_neg (by omega)] at h
  dsimp only at h
  obtain ⟨ubs, hubs, h⟩ := bind_inv h
  obtain ⟨lb0, hlb0, h⟩ := bind_inv h
  obtain ⟨ub0, hub0, h⟩ := bind_inv h
  obtain ⟨stm0, hstm0, h⟩ := bind_inv h
  obtain ⟨rub, hrub, h⟩ := bind_inv h
  obtain ⟨lb, hlb, h⟩ := bind_inv h
  obtain ⟨ub, hub, h⟩ := bind_inv h
  obtain ⟨sz, hsz, h⟩ := bind_inv h
  unfold submatrixHelper at h
  obtain ⟨n, hn, h⟩ := bind_inv h
  obtain ⟨st, hst, h⟩ := bind_inv h
  obtain ⟨r, hr, h⟩ := bind_inv h
  cases h
  have hdrop : geo.drop D.length = [] := List.drop_eq_nil_of_le (by omega)
  rw [hdrop] at hlb hrub hn
  cases hrub
  have hgeo : ∀ x ∈ D, ∃ g, geo[(geo.map (·.1)).idxOf x.1]? = some g ∧ g.1 = x.1 := by
    intro x hx
    have h1 := List.idxOf_lt_length_of_mem (hm x hx)
    have h2 := List.getElem_idxOf h1
    rw [List.length_map] at h1
    refine ⟨geo[(geo.map (·.1)).idxOf x.1], List.getElem?_eq_getElem h1, ?_⟩
    rw [List.getElem_map] at h2
    exact h2
  have hlook : ∀ {l l0 : List Int}, (geo.map (·.1)).mapM (fun d => get l ((D.map (·.1)).idxOf d)) = .ok l0 → ∀ x ∈ D,
      l0[(geo.map (·.1)).idxOf x.1]? = l[(D.map (·.1)).idxOf x.1]? := by
    intro l l0 h0 x hx
    obtain ⟨g, hg, e⟩ := hgeo x hx
    obtain ⟨b, h1, h2⟩ := (mapM_inv h0 ((geo.map (·.1)).idxOf x.1)).1 g.1 (by rw [List.getElem?_map, hg]; rfl)
    rw [h1, ← get_inv h2, e]
  have hpos : ∀ {f : DB → Int} {pad : List Int}, ∀ x ∈ D, (D.map f ++ pad)[(D.map (·.1)).idxOf x.1]? = some (f x) := by
    intro f pad x hx
    have h1 := idx_getElem hd hx
    have h2 : (D.map (·.1)).idxOf x.1 < D.length := by
      by_contra hc
      rw [List.getElem?_eq_none (by omega)] at h1
      cases h1
    rw [List.getElem?_append_left (by simpa using h2), List.getElem?_map, h1]; rfl
  have hubs' : ubs = D.map fun x => x.2.last - 1 := by
    refine List.ext_getElem? fun i => ?_
    have h0 := mapM_inv hubs i
    cases hi : D[i]? with
    | none =>
      rw [List.getElem?_map, hi]
      cases hu : ubs[i]? with
      | none => rfl
      | some b => obtain ⟨a, ha, -⟩ := h0.2 b hu; rw [hi] at ha; cases ha
    | some a =>
      obtain ⟨b, hb, hf⟩ := h0.1 a hi
      rw [hb, List.getElem?_map, hi]
      simp only [Option.map_some, Option.some.injEq]
      exact chk_inv hf
  have htake : ∀ {l0 l : List Int}, (geo.map (·.1)).mapM (fun d => get l ((D.map (·.1)).idxOf d)) = .ok l0 → l0.take D.length = l0 := by
    intro l0 l h0
    refine List.take_of_length_le ?_
    by_contra hc
    obtain ⟨a, ha, -⟩ := (mapM_inv h0 geo.length).2 l0[geo.length] (List.getElem?_eq_getElem (by omega))
    rw [List.getElem?_eq_none (by simp)] at ha
    cases ha
  simp only [List.map_nil, List.reverse_nil, List.append_nil, htake hlb0, htake hub0, htake hstm0] at hlb hub hn
  refine List.ext_getElem? fun i => ?_
  have h0 := mapM_inv hn i
  rw [List.map_map, ] at h0
  cases hi : D[i]? with
  | none =>
    rw [List.getElem?_map, hi]
    show n[i]? = _
    cases hu : n[i]? with
    | none => rfl
    | some b => obtain ⟨a, ha, -⟩ := h0.2 b hu; rw [List.getElem?_map, hi] at ha; cases ha
  | some x =>
    have hx := List.mem_of_getElem? hi
    obtain ⟨b, hb, hf⟩ := h0.1 _ (by rw [List.getElem?_map, hi]; rfl)
    show n[i]? = _
    rw [hb, List.getElem?_map, hi, Option.map_some, Option.some.injEq]
    simp only [Function.comp] at hf
    unfold subExtent at hf
    obtain ⟨u, hu, hf⟩ := bind_inv hf
    obtain ⟨l, hl', hf⟩ := bind_inv hf
    obtain ⟨s, hs, hf⟩ := bind_inv hf
    obtain ⟨d, hdd, hf⟩ := bind_inv hf
    obtain ⟨e, he, hf⟩ := bind_inv hf
    have e1 : s = x.2.stride := by
      have := get_inv hs
      rw [hlook hstm0 x hx, hpos x hx] at this
      simpa using this.symm
    obtain ⟨y, hy, hy'⟩ := (mapM_inv hlb _).2 l (get_inv hl')
    obtain ⟨z, hz, hz'⟩ := (mapM_inv hub _).2 u (get_inv hu)
    obtain ⟨y1, y2⟩ := zip_inv hy
    obtain ⟨z1, z2⟩ := zip_inv hz
    rw [hlook hlb0 x hx, hpos x hx] at y1
    rw [hlook hub0 x hx, hubs', hpos x hx] at z1
    rw [y2, Option.some.injEq] at z2
    simp only [Option.some.injEq] at y1 z1
    have e2 := chk_inv hy'
    have e3 := chk_inv hz'
    have e4 := chk_inv hdd
    have e5 := chk_inv he
    unfold idiv at hf
    split at hf
    · cases hf
    · rw [chk_inv hf, e5, e4, e3, e2, e1, ← y1, ← z1, z2]
      unfold rawExtent Bounds.lb
      congr 1
      ring

theorem rawExtent_pos {b : Bounds} (hs : 1 ≤ b.stride) (h : b.first < b.last) : 0 < rawExtent b := by
  unfold rawExtent
  rw [tdiv_eq_ediv (by omega)]
  have := Int.ediv_le_ediv (c := b.stride) (by omega) (show b.stride ≤ b.last - 1 - b.first + b.stride by omega)
  rw [Int.ediv_self (by omega)] at this
  omega

theorem rawExtent_empty {b : Bounds} (hs : 1 ≤ b.stride) (h : b.last ≤ b.first) : rawExtent b ≤ 0 := by
  unfold rawExtent
  by_cases h0 : 0 ≤ b.last - 1 - b.first + b.stride
  · rw [tdiv_eq_ediv h0, Int.ediv_eq_zero_of_lt h0 (by omega)]
  · have : (b.last - 1 - b.first + b.stride).tdiv b.stride = -((-(b.last - 1 - b.first + b.stride)).tdiv b.stride) := by
      rw [Int.neg_tdiv, neg_neg]
    rw [this, tdiv_eq_ediv (by omega)]
    have := Int.ediv_nonneg (show 0 ≤ -(b.last - 1 - b.first + b.stride) by omega) (show 0 ≤ b.stride by omega)
    omega

theorem rawExtent_one {b : Bounds} (h : b.last ≤ b.first) (h' : b.first < b.last + b.stride) : rawExtent b = 0 := by
  unfold rawExtent
  rw [tdiv_eq_ediv (by omega), Int.ediv_eq_zero_of_lt (by omega) (by omega)]

theorem prod_pos' : ∀ {D : List DB}, (∀ x ∈ D, 0 < rawExtent x.2) → 0 < (D.map fun x => rawExtent x.2).prod
  | [], _ => by simp
  | x :: D, h => by
    rw [List.map_cons, List.prod_cons]
    exact mul_pos (h x List.mem_cons_self) (prod_pos' fun y hy => h y (List.mem_cons_of_mem _ hy))

theorem prod_one_neg : ∀ {D : List DB} {x : DB}, (D.map (·.1)).Nodup → x ∈ D → rawExtent x.2 ≤ 0 →
    (∀ y ∈ D, y.1 ≠ x.1 → 0 < rawExtent y.2) → (D.map fun x => rawExtent x.2).prod ≤ 0
  | y :: D, x, hd, hx, h0, h => by
    rw [List.map_cons, List.prod_cons]
    rw [List.map_cons, List.nodup_cons] at hd
    rcases List.mem_cons.1 hx with rfl | hx'
    · exact mul_nonpos_of_nonpos_of_nonneg h0 (le_of_lt (prod_pos' fun z hz => h z (List.mem_cons_of_mem _ hz) fun e =>
        hd.1 (e ▸ List.mem_map_of_mem hz)))
    · exact mul_nonpos_of_nonneg_of_nonpos (le_of_lt (h y List.mem_cons_self fun e => hd.1 (e ▸ List.mem_map_of_mem hx')))
        (prod_one_neg hd.2 hx' h0 fun z hz => h z (List.mem_cons_of_mem _ hz))

theorem prod_zero {D : List DB} {x : DB} (hx : x ∈ D) (h0 : rawExtent x.2 = 0) : (D.map fun x => rawExtent x.2).prod = 0 :=
  List.prod_eq_zero (List.mem_map.2 ⟨x, hx, h0⟩)

/-- with no elements to handle nothing is done -/
theorem exec_none {T : Type} {a : Assign T} {D : List DB} {β : Backend} {m m' : Mem T} (hβ : ValidBackend β)
    (h : ∀ v n, a.lhs.call D = .ok v → v.size = .ok n → n ≤ 0) (he : a.exec D β m = .ok m') : m' = m := by
  have hp : ∀ {n : Int} {th : Int → List (Micro T)}, n ≤ 0 → parallel th (β n 2).trace m = .ok m' → m' = m := by
    intro n th hn hp
    have htr : (β n 2).trace = [] := by
      rw [List.eq_nil_iff_forall_not_mem]
      intro k hk
      have h1 := (hβ n 2).once k
      rw [if_neg (by omega)] at h1
      exact absurd (List.count_pos_iff.2 hk) (by omega)
    rw [htr] at hp
    cases hp; rfl
  unfold Assign.exec at he
  obtain ⟨v, hv, he⟩ := bind_inv he
  obtain ⟨n, hn, he⟩ := bind_inv he
  have := h v n hv hn
  dsimp only at he
  cases hr : a.rhs with
  | num t => rw [hr] at he; exact hp this he
  | expr e =>
    rw [hr] at he
    obtain ⟨i, -, he⟩ := bind_inv he
    exact hp this he

end Verif
