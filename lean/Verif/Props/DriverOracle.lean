import Verif.Lemmas.Driver
import Mathlib.Algebra.Order.Ring.Rat

/-
C107: what a passing comparison means.  The test cases of src/cd_*.t.cpp and src/coarse_to_fine.t.cpp end in `compare` after a Fortran routine has worked on
the host copies and a kernel on the device copies; here the routine and the kernel are arbitrary.
-/

namespace Verif

open Spec Test

variable {T : Type} [DecidableEq T]

theorem compareAll_eq : ∀ {ps : List (Nat × Nat)} {vs : List (DevVec T)}, (∀ p ∈ ps, p.1 < vs.length ∧ p.2 < vs.length) →
    compareAll ps vs = .ok (decide (∀ p ∈ ps, (views vs)[p.1]? = (views vs)[p.2]?))
  | [], _, _ => by simp [compareAll]
  | p :: ps, vs, h => by
    obtain ⟨q1, q2⟩ := h p List.mem_cons_self
    have l1 : p.1 < (views vs).length := by simpa [views] using q1
    have l2 : p.2 < (views vs).length := by simpa [views] using q2
    obtain ⟨vs1, a1, b1⟩ := std_ok (List.getElem?_eq_getElem l1)
    obtain ⟨vs2, a2, b2⟩ := std_ok (vs := vs1) (k := p.2) (l := (views vs)[p.2]) (by rw [b1]; exact List.getElem?_eq_getElem l2)
    have hlen : vs2.length = vs.length := by
      have := congrArg List.length (b2.trans b1)
      simpa [views] using this
    have ih := compareAll_eq (ps := ps) (vs := vs2) fun q hq => by rw [hlen]; exact h q (List.mem_cons_of_mem _ hq)
    rw [b2, b1] at ih
    simp only [compareAll, Test.compare, a1, a2, M.ok_bind, ih, List.forall_mem_cons, List.getElem?_eq_getElem l1, List.getElem?_eq_getElem l2,
      Option.some.injEq, Bool.decide_and]

omit [DecidableEq T] in
theorem newBlock_eq {m m' : Mem T} {k k' : Nat} {l l' : List T} (h : ∀ i : Nat, i < l.length → (m.val ⟨k, (i : Int)⟩).isSome = true)
    (h' : ∀ i : Nat, i < l'.length → (m'.val ⟨k', (i : Int)⟩).isSome = true) :
    newBlock m k l = newBlock m' k' l' ↔ l.length = l'.length ∧ ∀ i : Nat, i < l.length → m.val ⟨k, (i : Int)⟩ = m'.val ⟨k', (i : Int)⟩ := by
  unfold newBlock
  constructor
  · intro e
    have hl : l.length = l'.length := by simpa using congrArg List.length e
    refine ⟨hl, fun i hi => ?_⟩
    have e := congrArg (fun l => l[i]?) e
    simp only [List.getElem?_mapIdx, List.getElem?_eq_getElem hi, List.getElem?_eq_getElem (hl ▸ hi : i < l'.length), Option.map_some, Option.some.injEq] at e
    obtain ⟨x, hx⟩ := Option.isSome_iff_exists.1 (h i hi)
    obtain ⟨y, hy⟩ := Option.isSome_iff_exists.1 (h' i (hl ▸ hi))
    rw [hx, hy] at e ⊢
    simpa using e
  · rintro ⟨hl, e⟩
    refine List.ext_getElem (by simpa using hl) fun i h1 h2 => ?_
    have hi : i < l.length := by simpa using h1
    obtain ⟨x, hx⟩ := Option.isSome_iff_exists.1 (h i hi)
    simp only [List.getElem_mapIdx]
    rw [← e i hi, hx]
    rfl

/-- For vectors both of whose copies are the same at the start, whatever the routine and the kernel do to allocated elements: the comparisons say yes if
and only if each vector on the host has as many elements as its partner on the device, and after the calls the same elements. -/
theorem C107_compare {vs : List (DevVec T)} {args : List Nat} {ps : List (Nat × Nat)} {c g : Mem T → M (Mem T)} {mh md : Mem T}
    (hr : ∀ v ∈ vs, v.h = v.d ∧ v.sync = true) (hc : c (hostMem vs) = .ok mh) (hg : g (devMem vs) = .ok md)
    (ha : ∀ q, (mh.val q).isSome = ((hostMem vs).val q).isSome) (hb : ∀ q, (md.val q).isSome = ((devMem vs).val q).isSome)
    (hps : ∀ p ∈ ps, p.1 < vs.length ∧ p.2 < vs.length ∧ p.1 ∉ args ∧ p.2 ∈ args) :
    ∃ b, (do let vs ← onHost c vs
             let vs ← onDevice args g vs
             compareAll ps vs) = .ok b ∧
      (b = true ↔ ∀ p ∈ ps, ∀ v w, vs[p.1]? = some v → vs[p.2]? = some w →
        v.h.length = w.d.length ∧ ∀ i : Nat, i < v.h.length → mh.val ⟨p.1, (i : Int)⟩ = md.val ⟨p.2, (i : Int)⟩) := by
  unfold onHost onDevice
  rw [hc]
  simp only [M.ok_bind]
  have hd : devMem (vs.mapIdx fun k v => { v with h := newBlock mh k v.h }) = devMem vs := by
    unfold devMem
    congr 1
    exact List.ext_getElem (by simp) (by simp)
  rw [hd, hg]
  simp only [M.ok_bind]
  refine ⟨_, compareAll_eq fun p hp => by simpa using ⟨(hps p hp).1, (hps p hp).2.1⟩, ?_⟩
  rw [decide_eq_true_iff]
  refine forall_congr' fun p => forall_congr' fun hp => ?_
  obtain ⟨q1, q2, n1, n2⟩ := hps p hp
  obtain ⟨s1, s2⟩ := hr vs[p.1] (List.getElem_mem q1)
  obtain ⟨t1, t2⟩ := hr vs[p.2] (List.getElem_mem q2)
  have alloc : ∀ (ls : List (List T)) (k : Nat) (l : List T), ls[k]? = some l → ∀ i : Nat, i < l.length → ((blocks ls).val ⟨k, (i : Int)⟩).isSome = true := by
    intro ls k l hk i hi
    simp [blocks, hk, List.getElem?_eq_getElem hi]
  have v1 : (views (List.mapIdx (fun k v => { (if k ∈ args then v.data else v) with d := newBlock md k v.d })
      (vs.mapIdx fun k v => { v with h := newBlock mh k v.h })))[p.1]? = some (newBlock mh p.1 vs[p.1].h) := by
    unfold views
    simp only [List.getElem?_map, List.getElem?_mapIdx, List.getElem?_eq_getElem q1, Option.map_some, if_neg n1]
    unfold DevVec.toStd
    simp only [s2, if_true]
  have v2 : (views (List.mapIdx (fun k v => { (if k ∈ args then v.data else v) with d := newBlock md k v.d })
      (vs.mapIdx fun k v => { v with h := newBlock mh k v.h })))[p.2]? = some (newBlock md p.2 vs[p.2].d) := by
    unfold views
    simp only [List.getElem?_map, List.getElem?_mapIdx, List.getElem?_eq_getElem q2, Option.map_some, if_pos n2]
    unfold DevVec.toStd DevVec.data
    rfl
  rw [v1, v2]
  simp only [Option.some.injEq, List.getElem?_eq_getElem q1, List.getElem?_eq_getElem q2]
  refine Iff.trans ?_ ⟨fun h v w hv hw => hv ▸ hw ▸ h, fun h => h _ _ rfl rfl⟩
  refine newBlock_eq (fun i hi => ?_) (fun i hi => ?_)
  · rw [ha]
    exact alloc _ _ _ (by simp [List.getElem?_eq_getElem q1]) i hi
  · rw [hb]
    exact alloc _ _ _ (by simp [List.getElem?_eq_getElem q2]) i hi

/-- two vectors of two elements; the routine leaves them as they are, the kernel overwrites the second element of the second vector -/
example (x : ℚ) : ∃ b, (do let vs ← onHost (.ok ·) [⟨[1, 2], [1, 2], [], true, 0⟩, ⟨[1, 2], [1, 2], [], true, 0⟩]
                           let vs ← onDevice [1] (fun m => m.store ⟨1, 1⟩ x) vs
                           compareAll [(0, 1)] vs) = .ok b ∧ (b = true ↔ x = 2) := by
  obtain ⟨b, h1, h2⟩ := C107_compare (T := ℚ) (vs := [⟨[1, 2], [1, 2], [], true, 0⟩, ⟨[1, 2], [1, 2], [], true, 0⟩]) (args := [1]) (ps := [(0, 1)]) (c := (.ok ·))
    (g := fun m => m.store ⟨1, 1⟩ x) (by simp) rfl rfl (fun _ => rfl) (fun q => by
      by_cases h : q = ⟨1, 1⟩
      · subst h; simp [devMem, blocks]
      · simp [h]) (by simp)
  refine ⟨b, h1, h2.trans ?_⟩
  constructor
  · intro h
    have := (h (0, 1) (by simp) _ _ rfl rfl).2 1 (by simp)
    simpa [hostMem, devMem, blocks, eq_comm] using this
  · rintro rfl p hp v w hv hw
    simp only [List.mem_singleton] at hp
    subst hp
    cases hv
    cases hw
    refine ⟨rfl, fun i hi => ?_⟩
    match i with
    | 0 => simp [hostMem, devMem, blocks]
    | 1 => simp [hostMem, devMem, blocks]

end Verif
