import Verif.Spec.Moves
import Verif.Lemmas.Walk
import Verif.Lemmas.BoxList

namespace Verif
open Spec

/-- a traversal iterator as `make_submatrix` / `make_transpose` build it: coordinates all zero -/
structure MT.IsBegin (it : MT) : Prop extends it.WF where
  start : it.current = it.n.map fun _ => 0

theorem MT.IsBegin.eq_at {it : MT} (h : it.IsBegin) : it = it.at_ 0 := by
  have hp := h.pos.prod_pos
  have e : ∀ n : List Int, n.map (fun _ => (0 : Int)) = zeros n := by
    intro n; induction n with
    | nil => rfl
    | cons a as ih => simp [zeros, ih]
  unfold MT.at_
  rw [posCoord_of_lt (by omega), coords_zero, ← e, ← h.start]

theorem net_cons (m : Move) (ms : List Move) : net (m :: ms) = delta m + net ms := by simp [net]

theorem Stays.head {T p : Int} : ∀ {ms : List Move}, Stays T p ms → 0 ≤ p ∧ p ≤ T
  | [], h => h
  | _ :: _, h => h.1

theorem Stays.last {T : Int} : ∀ {ms : List Move} {p : Int}, Stays T p ms → 0 ≤ p + net ms ∧ p + net ms ≤ T
  | [], p, h => by simp only [net, List.map_nil, List.sum_nil, add_zero]; exact h
  | m :: ms, p, h => by
    have := Stays.last h.2
    rw [net_cons]; omega

theorem Walk.run {β : Type} [Step β] {T : Int} {st : Int → β} (w : RAWalk T st) (hT : T ≤ 2147483647) :
    ∀ {ms : List Move} {p : Int}, Stays T p ms → runMoves ms (st p) = .ok (st (p + net ms))
  | [], p, h => by simp [runMoves, net]
  | m :: ms, p, h => by
    obtain ⟨⟨h0, h1⟩, hs⟩ := h
    obtain ⟨g0, g1⟩ := Stays.head hs
    have hm : m.run (st p) = .ok (st (p + delta m)) := by
      cases m with
      | inc => exact w.inc h0 (by simp only [delta] at g1; omega)
      | dec =>
        have e : p = p + delta .dec + 1 := by simp only [delta]; omega
        simp only [Move.run]
        conv_lhs => rw [e]
        exact w.dec g0 (by simp only [delta] at g1 ⊢; omega)
      | add k => exact w.adv h0 h1 g0 g1
      | sub k =>
        simp only [Move.run, delta] at *
        rw [dsub_ok (by unfold InDiff; omega), M.ok_bind, zero_sub]
        exact w.adv h0 h1 g0 g1
    simp only [runMoves]
    rw [hm, M.ok_bind, w.run hT hs, net_cons]
    congr 2; omega


theorem MT.IsBegin.adv {it : MT} (hb : it.IsBegin) {k : Int} (h0 : 0 ≤ k) (h1 : k ≤ it.n.prod) :
    it.adv k = .ok (it.at_ k) := by
  have hp := hb.pos.prod_pos
  have := MT.adv_at hb.toWF (k := 0) (d := k) (le_refl _) (by omega) (by omega) (by omega)
  rwa [← hb.eq_at, zero_add] at this

theorem MT.IsBegin.distTo {it : MT} (hb : it.IsBegin) {k : Int} (h0 : 0 ≤ k) (h1 : k ≤ it.n.prod) :
    it.distTo (it.at_ k) = .ok k := by
  have hp := hb.pos.prod_pos
  have := MT.distTo_at hb.toWF (j := 0) (k := k) (le_refl _) (by omega) (by omega) (by omega)
  rwa [← hb.eq_at, sub_zero] at this

theorem MT.visit_from {it : MT} (h : it.WF) : ∀ (m fuel : Nat) (k : Int), 0 ≤ k → k + m = it.n.prod → m < fuel →
    visitLoop MT.equal (it.at_ it.n.prod) fuel (it.at_ k) = .ok ((List.range m).map fun j : Nat => it.at_ (k + (j : Int)))
  | 0, fuel + 1, k, h0, hk, _ => by
    have := (MT.equal_at h h0 (by omega) (by omega) (le_refl it.n.prod)).2 (by simpa using hk)
    simp [visitLoop, this]
  | m + 1, fuel + 1, k, h0, hk, hf => by
    have hne : ¬ (it.at_ k).equal (it.at_ it.n.prod) = true := fun e => by
      have := (MT.equal_at h h0 (by omega) (by omega) (le_refl it.n.prod)).1 e
      push_cast at hk; omega
    rw [visitLoop, if_neg hne]
    show (MT.inc (it.at_ k) >>= _) = _
    rw [MT.inc_at h h0 (by omega), M.ok_bind, MT.visit_from h m fuel (k + 1) (by omega) (by push_cast at hk; omega) (by omega),
      M.ok_bind, List.range_succ_eq_map]
    simp only [List.map_cons, List.map_map, Nat.cast_zero, add_zero]
    congr 2
    refine List.map_congr_left fun j _ => ?_
    simp only [Function.comp]
    congr 1; push_cast; omega

end Verif
