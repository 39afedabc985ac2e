import Verif.Lemmas.Host
import Verif.Model.Tests.Window

/-
What a round of each loop in the window tests does.
-/

namespace Verif

open Spec Test

variable {T : Type} [Field T]

omit [Field T] in
theorem below5 {body : Int → List T → M (List T)} {l0 l1 l2 l3 l4 l5 : List T} (h0 : body 0 l0 = .ok l1) (h1 : body 1 l1 = .ok l2) (h2 : body 2 l2 = .ok l3)
    (h3 : body 3 l3 = .ok l4) (h4 : body 4 l4 = .ok l5) : forBelow 5 body l0 = .ok l5 := by
  have a0 : iadd 0 1 = .ok 1 := rfl
  have a1 : iadd 1 1 = .ok 2 := rfl
  have a2 : iadd 2 1 = .ok 3 := rfl
  have a3 : iadd 3 1 = .ok 4 := rfl
  have a4 : iadd 4 1 = .ok 5 := rfl
  unfold forBelow forTo
  rw [show (5 - 1 - 0 + 1 : Int).toNat = 5 from rfl]
  simp [rounds, h0, h1, h2, h3, h4, a0, a1, a2, a3, a4]

omit [Field T] in
theorem cells_of {vs : List (DevVec T)} {k : Nat} {v : DevVec T} {n : Int} (h : vs[k]? = some v) (hn : (v.d.length : Int) = n) (i : Int) (h0 : 0 ≤ i) (h1 : i < n) :
    ∃ x, (devMem vs).val ((at_ k).add i) = some x := by
  obtain ⟨q, rfl⟩ := Int.eq_ofNat_of_zero_le h0
  have e : (at_ k).add (q : Int) = ⟨k, (q : Int)⟩ := by simp [at_, Ptr.add]
  have e' : (devMem vs).val ((at_ k).add (q : Int)) = v.d[q]? := by rw [e]; exact devMem_val h q
  rw [e', List.getElem?_eq_getElem (by omega)]
  exact ⟨_, rfl⟩

omit [Field T] in
theorem fill_of (x : Nat → T) {h d : List T} {geo : List DB} {n : Nat} {l : List T} (hn : h.length = n) (hl : (List.range n).map x = l) :
    DevVec.fill x ⟨h, d, geo, true, 0⟩ = ⟨l, l, geo, true, 0⟩ := by
  subst hn hl
  have e : h.mapIdx (fun i _ => x i) = (List.range h.length).map x := List.ext_getElem (by simp) fun i h1 h2 => by simp
  simp [DevVec.fill, e]

omit [Field T] in
theorem std_one {u : DevVec T} {m' : Mem T} : std 0 [after m' 0 u] = .ok (newBlock m' 0 u.d, [(after m' 0 u).toStd.1]) := rfl

omit [Field T] in
theorem std0_after {u b : DevVec T} {m' : Mem T} : std 0 [after m' 0 u, b] = .ok (newBlock m' 0 u.d, [(after m' 0 u).toStd.1, b]) := rfl

omit [Field T] in
theorem host1_after {a u : DevVec T} {m' : Mem T} : hostOf 1 [a, after m' 1 u] = .ok (newBlock m' 1 u.d, [a, (after m' 1 u).host]) := rfl

omit [Field T] in
theorem std2_after {a b u : DevVec T} {m' : Mem T} : std 2 [a, b, after m' 2 u] = .ok (newBlock m' 2 u.d, [a, b, (after m' 2 u).toStd.1]) := rfl

omit [Field T] in
theorem host0_three {u b c : DevVec T} {m' : Mem T} : hostOf 0 [after m' 0 u, b, c] = .ok (newBlock m' 0 u.d, [(after m' 0 u).host, b, c]) := rfl

omit [Field T] in
theorem host1_three {a u c : DevVec T} {m' : Mem T} : hostOf 1 [a, after m' 1 u, c] = .ok (newBlock m' 1 u.d, [a, (after m' 1 u).host, c]) := rfl

theorem round2_run {v u : List T} {i : Int} {a b : T} (hi : 0 ≤ i) (h5 : i < 5) (ha : v[(i * 3 + 1).toNat]? = some a) (hb : v[(i * 3 + 2).toNat]? = some b)
    (hu : u.length = 15) : round2 v i u = .ok (((u.set (i * 3 + 1).toNat a).set (i * 3 + 2).toNat b).set (i * 3).toNat (-(a + b) + 3)) := by
  unfold round2
  rw [imul_ok (by unfold InInt; omega), M.ok_bind, iadd_ok (by unfold InInt; omega), M.ok_bind, iadd_ok (by unfold InInt; omega), M.ok_bind]
  rw [vget_ok (by omega) ha, M.ok_bind]
  unfold vset
  rw [if_pos (by omega), M.ok_bind, vget_ok (by omega) hb, M.ok_bind, if_pos (by rw [List.length_set]; omega), M.ok_bind]
  rw [vget_ok (x := a) (by omega) (by rw [List.getElem?_set_ne (by omega), List.getElem?_set_self (by omega)]), M.ok_bind]
  rw [vget_ok (x := b) (by omega) (by rw [List.getElem?_set_self (by rw [List.length_set]; omega)]), M.ok_bind]
  rw [if_pos (by rw [List.length_set, List.length_set]; omega)]

theorem round3_run {v x u : List T} {i : Int} {a b c : T} (hi : 0 ≤ i) (h5 : i < 5) (ha : v[(i * 3 + 1).toNat]? = some a) (hb : v[(i * 3 + 2).toNat]? = some b)
    (hc : x[i.toNat]? = some c) (hu : u.length = 15) :
    round3 v x i u = .ok (((u.set (i * 3 + 1).toNat a).set (i * 3 + 2).toNat b).set (i * 3).toNat (-(a + b) + 3 * c)) := by
  unfold round3
  rw [imul_ok (by unfold InInt; omega), M.ok_bind, iadd_ok (by unfold InInt; omega), M.ok_bind, iadd_ok (by unfold InInt; omega), M.ok_bind]
  rw [vget_ok (by omega) ha, M.ok_bind]
  unfold vset
  rw [if_pos (by omega), M.ok_bind, vget_ok (by omega) hb, M.ok_bind, if_pos (by rw [List.length_set]; omega), M.ok_bind]
  rw [vget_ok (x := a) (by omega) (by rw [List.getElem?_set_ne (by omega), List.getElem?_set_self (by omega)]), M.ok_bind]
  rw [vget_ok (x := b) (by omega) (by rw [List.getElem?_set_self (by rw [List.length_set]; omega)]), M.ok_bind]
  rw [vget_ok (by omega) hc, M.ok_bind, if_pos (by rw [List.length_set, List.length_set]; omega)]

theorem round4_run {v x u : List T} {i : Int} {a b c : T} (hi : 0 ≤ i) (h5 : i < 5) (ha : v[(i * 4 + 2).toNat]? = some a) (hb : v[(i * 4 + 3).toNat]? = some b)
    (hc : x[i.toNat]? = some c) (hu : u.length = 20) :
    round4 v x i u = .ok ((((u.set (i * 4).toNat (-(a + b) - 3 * c)).set (i * 4 + 1).toNat (6 * c)).set (i * 4 + 2).toNat a).set (i * 4 + 3).toNat b) := by
  unfold round4
  rw [imul_ok (by unfold InInt; omega), M.ok_bind, iadd_ok (by unfold InInt; omega), M.ok_bind, iadd_ok (by unfold InInt; omega), M.ok_bind,
    iadd_ok (by unfold InInt; omega), M.ok_bind]
  rw [vget_ok (by omega) ha, M.ok_bind, vget_ok (by omega) hb, M.ok_bind, vget_ok (by omega) hc, M.ok_bind]
  unfold vset
  rw [if_pos (by omega), M.ok_bind, if_pos (by rw [List.length_set]; omega), M.ok_bind, if_pos (by rw [List.length_set, List.length_set]; omega), M.ok_bind,
    if_pos (by rw [List.length_set, List.length_set, List.length_set]; omega)]

theorem roundRhs_run {v x u : List T} {i : Int} {r a b : T} (hi : 0 ≤ i) (h5 : i < 5) (hr : u[i.toNat]? = some r) (ha : v[(i * 4 + 1).toNat]? = some a)
    (hb : x[i.toNat]? = some b) (hu : u.length = 5) : roundRhs v x i u = .ok (u.set i.toNat (r - a * b)) := by
  unfold roundRhs
  rw [imul_ok (by unfold InInt; omega), M.ok_bind, iadd_ok (by unfold InInt; omega), M.ok_bind]
  rw [vget_ok (by omega) hr, M.ok_bind, vget_ok (by omega) ha, M.ok_bind, vget_ok (by omega) hb, M.ok_bind]
  unfold vset
  rw [if_pos (by omega)]

end Verif
