import Verif.Spec.Segment
import Verif.Lemmas.Rename
import Verif.Lemmas.Kernel
import Verif.Model.Tests.Driver
import Verif.Model.Kernels.Common
import Verif.Props.DeviceVector
import Mathlib.Data.List.GetD

/-
Test cases that call a Fortran routine on host copies and a kernel on device copies, and compare.
-/

namespace Verif
open Spec

/-- bounds of an array that fit an int, as does the number of its elements -/
structure F.Fits (dims : List (Int × Int)) : Prop where
  fits : (dims.map fun d => d.2 - d.1 + 1).prod ≤ 2147483647
  int : ∀ d ∈ dims, InInt d.1 ∧ InInt (d.2 + 1)

namespace Test

variable {T : Type}

/-- both copies are the same, the flag is set, and there are `n` elements -/
structure Ready (v : DevVec T) (n : Int) : Prop where
  same : v.h = v.d
  sync : v.sync = true
  len : (v.d.length : Int) = n

theorem Ready.fill {v : DevVec T} {n : Int} {xs : Nat → T} (h : Ready v n) : Ready (v.fill xs) n where
  same := rfl
  sync := rfl
  len := by
    unfold DevVec.fill
    simp only [List.length_mapIdx]
    rw [h.same]; exact h.len

theorem Ready.copy {v : DevVec T} {n : Int} (h : Ready v n) : copyOfHost v = v := by
  obtain ⟨a, b, c⟩ := h
  unfold copyOfHost DevVec.host
  rw [if_pos b]
  cases v
  simp_all

theorem Ready.host {v : DevVec T} {n : Int} (h : Ready v n) : v.host = v := by
  unfold DevVec.host
  rw [if_pos h.sync]

theorem fits_of {dims : List (Int × Int)} (h : (dims.map fun d => d.2 - d.1 + 1).prod ≤ 2147483647 ∧ ∀ d ∈ dims,
    (-2147483648 ≤ d.1 ∧ d.1 ≤ 2147483647) ∧ -2147483648 ≤ d.2 + 1 ∧ d.2 + 1 ≤ 2147483647) : F.Fits dims := ⟨h.1, h.2⟩

/-! ### renaming by a list of numbers -/

def perm (L : List Nat) (k : Nat) : Nat := L.getD k k

theorem perm_inv {L : List Nat} (h : ∀ k, k < L.length → perm L (perm L k) = k) : ∀ k, perm L (perm L k) = k := by
  intro k
  by_cases hk : k < L.length
  · exact h k hk
  · have : perm L k = k := by
      unfold perm
      rw [List.getD_eq_default _ _ (by omega)]
    rw [this, this]

theorem blocks_ren {L : List Nat} {vs : List (List T)} (hl : vs.length = L.length) (h : (L.map fun k => vs[k]?) = vs.map some) : (blocks vs).ren (perm L) = blocks vs := by
  have key : ∀ k, vs[perm L k]? = vs[k]? := by
    intro k
    by_cases hk : k < L.length
    · have h1 := congrArg (fun l => l[k]?) h
      simp only [List.getElem?_map, List.getElem?_eq_getElem hk, Option.map_some] at h1
      have : perm L k = L[k] := by
        unfold perm
        rw [List.getD_eq_getElem _ _ hk]
      rw [this]
      rw [List.getElem?_eq_getElem (by omega : k < vs.length)] at h1 ⊢
      simpa using h1
    · have : perm L k = k := by
        unfold perm
        rw [List.getD_eq_default _ _ (by omega)]
      rw [this]
  unfold Mem.ren blocks Ptr.ren
  simp only [key]

/-! ### comparing -/

theorem std_toStd {v : DevVec T} : v.toStd.1.toStd.2 = v.toStd.2 := by
  unfold DevVec.toStd
  dsimp only
  split <;> simp_all

/-- what conversions to `std::vector` yield -/
def views (vs : List (DevVec T)) : List (List T) := vs.map fun v => v.toStd.2

theorem std_ok {vs : List (DevVec T)} {k : Nat} {l : List T} (h : (views vs)[k]? = some l) : ∃ vs', std k vs = .ok (l, vs') ∧ views vs' = views vs := by
  unfold views at h
  rw [List.getElem?_map, Option.map_eq_some_iff] at h
  obtain ⟨v, h1, rfl⟩ := h
  refine ⟨vs.set k v.toStd.1, by unfold std; rw [h1], ?_⟩
  unfold views
  rw [List.map_set, std_toStd]
  obtain ⟨hk, rfl⟩ := List.getElem?_eq_some_iff.1 h1
  refine List.ext_getElem (by simp) fun i _ _ => ?_
  rw [List.getElem_set]
  split
  · subst_vars; simp
  · rfl

theorem compareAll_ok [DecidableEq T] : ∀ {ps : List (Nat × Nat)} {vs : List (DevVec T)},
    (∀ p ∈ ps, ∃ l, (views vs)[p.1]? = some l ∧ (views vs)[p.2]? = some l) → compareAll ps vs = .ok true
  | [], _, _ => rfl
  | p :: ps, vs, h => by
    obtain ⟨l, h1, h2⟩ := h p List.mem_cons_self
    obtain ⟨vs1, a1, b1⟩ := std_ok h1
    obtain ⟨vs2, a2, b2⟩ := std_ok (vs := vs1) (by rw [b1]; exact h2)
    have := compareAll_ok (ps := ps) (vs := vs2) fun q hq => by
      rw [b2, b1]; exact h q (List.mem_cons_of_mem _ hq)
    simp only [compareAll, compare, a1, a2, M.ok_bind, this, decide_true, Bool.true_and]

/-! ### the test cases -/

theorem hostMem_eq {vs : List (DevVec T)} (h : ∀ v ∈ vs, v.h = v.d) : hostMem vs = devMem vs := by
  unfold hostMem devMem
  rw [List.map_congr_left h]

theorem newBlock_ren {m : Mem T} {s : Nat → Nat} {k : Nat} {l : List T} : newBlock (m.ren s) k l = newBlock m (s k) l := rfl

/-- A routine on the host copies and a kernel on the device copies that leave the same up to the names of the blocks: the comparisons of vector with
partner succeed. -/
theorem compare_ok [DecidableEq T] {vs : List (DevVec T)} {L : List Nat} {args : List Nat} {ps : List (Nat × Nat)} {c c' : F.Cmd T}
    {g : Mem T → M (Mem T)} (hr : ∀ v ∈ vs, v.h = v.d ∧ v.sync = true) (hl : vs.length = L.length) (hL : (L.map fun k => vs[k]?) = vs.map some)
    (hren : F.Ren (perm L) c c') (hg : ∃ m', g (devMem vs) = .ok m' ∧ c' (devMem vs) = .ok m')
    (hps : ∀ p ∈ ps, p.1 < L.length ∧ p.2 < L.length ∧ perm L p.2 = p.1 ∧ p.1 ∉ args ∧ p.2 ∈ args) :
    (do let vs ← onHost c vs
        let vs ← onDevice args g vs
        compareAll ps vs) = .ok true := by
  obtain ⟨m', hg1, hg2⟩ := hg
  have e := hren (devMem vs)
  have hb : (devMem vs).ren (perm L) = devMem vs := by
    refine blocks_ren (by simpa using hl) ?_
    have := congrArg (List.map (Option.map fun v : DevVec T => v.d)) hL
    rw [List.map_map, List.map_map] at this
    rw [List.map_map]
    refine Eq.trans ?_ (this.trans ?_)
    · exact List.map_congr_left fun k _ => by simp
    · exact List.map_congr_left fun k _ => by simp
  rw [hb, hg2] at e
  cases hc : c (devMem vs) with
  | error x => rw [hc] at e; cases e
  | ok m =>
    rw [hc] at e
    simp only [Except.map, Except.ok.injEq] at e
    subst e
    unfold onHost onDevice
    rw [hostMem_eq fun v hv => (hr v hv).1, hc]
    simp only [M.ok_bind]
    have hd : devMem (vs.mapIdx fun k v => { v with h := newBlock m k v.h }) = devMem vs := by
      unfold devMem
      congr 1
      exact List.ext_getElem (by simp) (by simp)
    rw [hd, hg1]
    simp only [M.ok_bind]
    refine compareAll_ok fun p hp => ?_
    obtain ⟨h1, h2, h3, h4, h5⟩ := hps p hp
    have q1 : p.1 < vs.length := by omega
    have q2 : p.2 < vs.length := by omega
    have e12 : vs[p.2] = vs[p.1] := by
      have h1 := congrArg (fun l => l[p.2]?) hL
      simp only [List.getElem?_map, List.getElem?_eq_getElem h2, List.getElem?_eq_getElem q2, Option.map_some] at h1
      have : perm L p.2 = L[p.2] := by
        unfold perm
        rw [List.getD_eq_getElem _ _ h2]
      rw [← this, h3, List.getElem?_eq_getElem q1] at h1
      simpa using h1.symm
    obtain ⟨r1, r2⟩ := hr vs[p.1] (List.getElem_mem q1)
    refine ⟨newBlock m p.1 vs[p.1].h, ?_, ?_⟩
    · unfold views
      simp only [List.getElem?_map, List.getElem?_mapIdx, List.getElem?_eq_getElem q1, Option.map_some, Option.some.injEq, if_neg h4]
      unfold DevVec.toStd
      simp only [r2, if_true]
    · unfold views
      simp only [List.getElem?_map, List.getElem?_mapIdx, List.getElem?_eq_getElem q2, Option.map_some, Option.some.injEq, if_pos h5]
      unfold DevVec.toStd DevVec.data
      simp only [newBlock_ren, h3, e12, r1]
      rfl

/-! ### vectors and arrays -/

theorem blocks_arr {ls : List (List T)} {k : Nat} {l : List T} {dims : List (Int × Int)} (hk : ls[k]? = some l)
    (hn : (dims.map fun d => d.2 - d.1 + 1).prod ≤ (l.length : Int)) (hf : F.Fits dims) : F.ArrOK (blocks ls) ⟨at_ k, dims⟩ where
  fits := hf.fits
  int := hf.int
  alloc := by
    have key : ∀ (ds : List (Int × Int)) (is : List Int), F.InBounds ds is → 0 ≤ F.colMajor ds is ∧ F.colMajor ds is < (ds.map fun d => d.2 - d.1 + 1).prod := by
      intro ds
      induction ds with
      | nil =>
        intro is h
        cases is with
        | nil => simp [F.colMajor]
        | cons => exact h.elim
      | cons d ds ih =>
        intro is h
        cases is with
        | nil => exact h.elim
        | cons i is =>
          obtain ⟨⟨a, b⟩, h⟩ := h
          obtain ⟨c, e⟩ := ih is h
          simp only [F.colMajor, List.map_cons, List.prod_cons]
          have hw : 0 ≤ d.2 - d.1 + 1 := by omega
          constructor
          · have := mul_nonneg hw c
            omega
          · have : (d.2 - d.1 + 1) * (F.colMajor ds is + 1) ≤ (d.2 - d.1 + 1) * (ds.map fun d => d.2 - d.1 + 1).prod := mul_le_mul_of_nonneg_left (by omega) hw
            rw [mul_add, mul_one] at this
            omega
    intro is his
    obtain ⟨a, b⟩ := key dims is his
    have hb : (F.colMajor dims is).toNat < l.length := by omega
    refine ⟨l[(F.colMajor dims is).toNat], ?_⟩
    simp only [blocks, at_, Ptr.add, zero_add, if_pos a, hk, Option.bind_some]
    exact List.getElem?_eq_getElem hb

theorem arr_apart {k l : Nat} {a b : List (Int × Int)} (h : k ≠ l) : F.Apart ⟨at_ k, a⟩ ⟨at_ l, b⟩ := by
  intro is js _ _ e
  unfold at_ Ptr.add at e
  simp only [Ptr.mk.injEq] at e
  exact h e.1

/-- bounds as `mkB` makes them -/
def bounds (ds : List (Dim × Int × Int)) : List DB := ds.map fun x => (x.1, ⟨x.2.1, x.2.2 + 1, 1⟩)

/-- the declared bounds of the Fortran array with ghost cells on such bounds, leftmost varying fastest -/
def shape (g : Int) (ds : List (Dim × Int × Int)) : List (Int × Int) :=
  (ds.map fun x => if x.1 = Dim.W then x.2 else (x.2.1 - g, x.2.2 + g)).reverse

theorem grown_bounds {g : Int} {ds : List (Dim × Int × Int)} :
    grown g (bounds ds) = ds.map fun x => (x.1, if x.1 = Dim.W then ⟨x.2.1, x.2.2 + 1, 1⟩ else ⟨x.2.1 - g, x.2.2 + 1 + g, 1⟩) := by
  unfold grown bounds
  rw [List.map_map]
  rfl

theorem grown_lengths {g : Int} {ds : List (Dim × Int × Int)} : (lengths (grown g (bounds ds))).prod = ((shape g ds).map fun d => d.2 - d.1 + 1).prod := by
  rw [grown_bounds]
  unfold lengths shape
  rw [List.map_reverse, List.prod_reverse, List.map_map, List.map_map]
  congr 1
  refine List.map_congr_left fun x _ => ?_
  simp only [Function.comp_apply]
  split
  · ring
  · ring

/-- vectors made from bounds with ghost cells -/
theorem offset_ok [Zero T] {g : Int} {ds : List (Dim × Int × Int)} (hne : ds ≠ []) (hnd : (ds.map (·.1)).Nodup) (hg : 0 ≤ g) (hd : ∀ x ∈ ds, x.2.1 ≤ x.2.2)
    (hf : F.Fits (shape g ds)) : ∃ v : DevVec T, DevVec.makeVecOffset 0 g (bounds ds) = .ok v ∧ Ready v ((shape g ds).map fun d => d.2 - d.1 + 1).prod := by
  have geo : GeoOK (grown g (bounds ds)) := by
    rw [grown_bounds]
    refine ⟨by simpa using hne, by rw [List.map_map]; exact hnd, ?_, ?_, ?_, ?_⟩
    · intro y hy
      obtain ⟨x, hx, rfl⟩ := List.mem_map.1 hy
      dsimp only
      split <;> rfl
    · intro y hy
      obtain ⟨x, hx, rfl⟩ := List.mem_map.1 hy
      have := hd x hx
      dsimp only
      split <;> dsimp only <;> omega
    · rw [← grown_bounds, grown_lengths]
      exact hf.fits
    · intro y hy
      obtain ⟨x, hx, rfl⟩ := List.mem_map.1 hy
      have := hf.int _ (List.mem_reverse.2 (List.mem_map_of_mem hx))
      dsimp only
      split
      · rename_i h
        rw [if_pos h] at this
        exact this
      · rename_i h
        rw [if_neg h] at this
        refine ⟨this.1, ?_⟩
        have := this.2
        dsimp only at this ⊢
        rwa [show x.2.2 + 1 + g = x.2.2 + g + 1 by ring]
  obtain ⟨v, h1, -, h3⟩ := make_unit (zero := (0 : T)) geo
  refine ⟨v, ?_, ?_⟩
  · unfold DevVec.makeVecOffset
    rw [expand_grown geo.int, M.ok_bind]
    exact h1
  · unfold DevVec.size at h3
    unfold DevVec.make at h1
    obtain ⟨n, -, h1⟩ := bind_inv h1
    split at h1
    · cases h1
    · injection h1 with h1
      subst h1
      refine ⟨rfl, rfl, ?_⟩
      rw [← grown_lengths, ← h3]

/-- vectors made from bounds -/
theorem vec_ok [Zero T] {ds : List (Dim × Int × Int)} (hne : ds ≠ []) (hnd : (ds.map (·.1)).Nodup) (hd : ∀ x ∈ ds, x.2.1 ≤ x.2.2)
    (hf : F.Fits (shape 0 ds)) : ∃ v : DevVec T, DevVec.makeVec 0 (bounds ds) = .ok v ∧ Ready v ((shape 0 ds).map fun d => d.2 - d.1 + 1).prod := by
  obtain ⟨v, h1, h2⟩ := offset_ok (T := T) hne hnd (le_refl 0) hd hf
  refine ⟨v, ?_, h2⟩
  unfold DevVec.makeVecOffset at h1
  obtain ⟨gr, h3, h4⟩ := bind_inv h1
  rw [expand_grown] at h3
  · injection h3 with h3
    subst h3
    rw [grown_bounds] at h4
    unfold DevVec.makeVec bounds
    rw [← h4]
    congr 1
    refine List.map_congr_left fun x _ => ?_
    simp
  · intro y hy
    rw [grown_bounds] at hy
    obtain ⟨x, hx, rfl⟩ := List.mem_map.1 hy
    have := hf.int _ (List.mem_reverse.2 (List.mem_map_of_mem hx))
    dsimp only
    split
    · rename_i h
      rw [if_pos h] at this
      exact this
    · rename_i h
      rw [if_neg h] at this
      refine ⟨this.1, ?_⟩
      have := this.2
      dsimp only at this ⊢
      rwa [show x.2.2 + 1 + 0 = x.2.2 + 0 + 1 by ring]

theorem arr_ok_of {vs : List (DevVec T)} {k : Nat} {v : DevVec T} {dims : List (Int × Int)} (hk : vs[k]? = some v)
    (hn : Ready v (dims.map fun d => d.2 - d.1 + 1).prod) (hf : F.Fits dims) : F.ArrOK (devMem vs) ⟨at_ k, dims⟩ :=
  blocks_arr (l := v.d) (by rw [List.getElem?_map, hk]; rfl) hn.len.ge hf

/-- an array that fills only part of its vector -/
theorem arr_ok_le {vs : List (DevVec T)} {k : Nat} {v : DevVec T} {dims : List (Int × Int)} {n : Int} (hk : vs[k]? = some v)
    (hn : Ready v n) (hle : (dims.map fun d => d.2 - d.1 + 1).prod ≤ n) (hf : F.Fits dims) : F.ArrOK (devMem vs) ⟨at_ k, dims⟩ :=
  blocks_arr (l := v.d) (by rw [List.getElem?_map, hk]; rfl) (by rw [hn.len]; exact hle) hf

end Test
end Verif

/-- for the numbers of a test case: conditions on the box, the ghost cells and the segment -/
macro "told" : tactic => `(tactic|
  (try constructor
   all_goals intros
   all_goals try simp only [Verif.Spec.Reach, Verif.Spec.OnFaces, Verif.Spec.Part, Verif.Spec.Meets, Verif.Spec.dir0, Verif.Spec.dir1, Verif.InInt]
   all_goals try split_ifs
   all_goals omega))
