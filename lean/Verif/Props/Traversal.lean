import Verif.Lemmas.Moves

/-
C01 - C04: index arithmetic and the traversal iterator.
-/

namespace Verif
open Spec

/-! ### C01 -/

/-- a coordinate of the box goes to an index of the array and back -/
theorem C01_ravel_unravel {n c : List Int} (hne : n ≠ []) (hN : n.prod ≤ 2147483647) (hc : InBox n c) :
    ∃ i, ravel n c = .ok i ∧ 0 ≤ i ∧ i < n.prod ∧ unravel n i = .ok c := by
  have h0 := rowMajor_nonneg hc
  have h1 := rowMajor_lt hc
  refine ⟨rowMajor n c, ravel_ok hne hc.pos hc.nonneg hc.length_eq.symm (by omega), h0, h1, ?_⟩
  rw [unravel_ok hne hc.pos hN h0 (by omega), posCoord_of_lt h1, coords_rowMajor hc]

example : ([2, 3, 4] : List Int) ≠ [] ∧ ([2, 3, 4] : List Int).prod ≤ 2147483647 ∧ InBox [2, 3, 4] [1, 2, 3] := by
  simp [InBox]
example : ravel [2, 3, 4] [1, 2, 3] = .ok 23 ∧ unravel [2, 3, 4] 23 = .ok [1, 2, 3] := by decide

/-- the index is the row-major position -/
theorem C01_ravel_rowMajor {n c : List Int} (hne : n ≠ []) (hN : n.prod ≤ 2147483647) (hc : InBox n c) :
    ravel n c = .ok (rowMajor n c) :=
  ravel_ok hne hc.pos hc.nonneg hc.length_eq.symm (by have := rowMajor_lt hc; omega)

example : InBox [2, 3, 4, 5] [1, 0, 3, 2] ∧ ravel [2, 3, 4, 5] [1, 0, 3, 2] = .ok 77 := by
  constructor
  · simp [InBox]
  · decide

/-- an index of the array goes to a coordinate of the box and back; the end index goes to the end coordinate and back -/
theorem C01_unravel_ravel {n : List Int} {k : Int} (hne : n ≠ []) (hp : Pos n) (hN : n.prod ≤ 2147483647)
    (h0 : 0 ≤ k) (h1 : k ≤ n.prod) :
    ∃ c, unravel n k = .ok c ∧ ravel n c = .ok k ∧ (k < n.prod → InBox n c) ∧ (k = n.prod → c = endCoord n) := by
  refine ⟨posCoord n k, unravel_ok hne hp hN h0 h1, ravel_posCoord hne hp hN h0 h1, fun h => ?_, fun h => ?_⟩
  · rw [posCoord_of_lt h]; exact coords_inBox hp h0 h
  · unfold posCoord; rw [if_pos h]

example : Pos [2, 3, 4, 5] ∧ ([2, 3, 4, 5] : List Int).prod = 120 ∧ unravel [2, 3, 4, 5] 120 = .ok [1, 2, 3, 5] ∧
    ravel [2, 3, 4, 5] [1, 2, 3, 5] = .ok 120 := by
  refine ⟨by simp [Pos], by simp, by decide, by decide⟩

/-! ### C02 -/

/-- any history of moves inside `[begin, end]` ends in the state reached by one jump over its net distance, whose
coordinate is the one at that row-major position -/
theorem C02_net_distance {it : MT} (hb : it.IsBegin) {ms : List Move} (h : Stays it.n.prod 0 ms) :
    ∃ r, runMoves ms it = .ok r ∧ it.adv (net ms) = .ok r ∧ r = { it with current := posCoord it.n (net ms) } := by
  have hl := Stays.last h
  have hp := hb.pos.prod_pos
  refine ⟨it.at_ (net ms), ?_, ?_, rfl⟩
  · conv_lhs => rw [hb.eq_at]
    rw [(MT.walk hb.toWF).run hb.lt h, zero_add]
  · exact hb.adv (by omega) (by omega)

/-- two histories with the same net distance are indistinguishable -/
theorem C02_same_net {it : MT} (hb : it.IsBegin) {ms ms' : List Move} (h : Stays it.n.prod 0 ms)
    (h' : Stays it.n.prod 0 ms') (e : net ms = net ms') : runMoves ms it = runMoves ms' it := by
  obtain ⟨r, h1, h2, _⟩ := C02_net_distance hb h
  obtain ⟨r', h1', h2', _⟩ := C02_net_distance hb h'
  rw [h1, h1', ← h2, ← h2', e]

/-- a 2 by 3 view of a 4 by 5 array -/
def exMT : MT := ⟨⟨0, 6⟩, [5, 1], [0, 0], [2, 3]⟩

theorem exMT_begin : exMT.IsBegin :=
  ⟨⟨by decide, by simp [exMT, Pos], by simp [exMT], by simp [exMT]⟩, rfl⟩

example : exMT.IsBegin ∧ Stays exMT.n.prod 0 [.inc, .add 5, .dec, .sub 3, .inc] :=
  ⟨exMT_begin, by simp [exMT, Stays, delta]⟩
example : runMoves [.inc, .add 5, .dec, .sub 3, .inc] exMT = exMT.adv 3 := by decide

/-! ### C03 -/

/-- `a` is reached from `it` by a history of moves inside the view, of net distance `p` -/
def MT.Reached (it : MT) (p : Int) (a : MT) : Prop :=
  ∃ ms, Stays it.n.prod 0 ms ∧ net ms = p ∧ runMoves ms it = .ok a

theorem MT.Reached.eq {it a : MT} {p : Int} (hb : it.IsBegin) (h : it.Reached p a) :
    a = it.at_ p ∧ 0 ≤ p ∧ p ≤ it.n.prod := by
  obtain ⟨ms, hs, rfl, hr⟩ := h
  obtain ⟨r, h1, _, h3⟩ := C02_net_distance hb hs
  have := Stays.last hs
  rw [h1] at hr
  refine ⟨?_, by omega, by omega⟩
  rw [← Except.ok.inj hr, h3]; rfl

/-- `b - a` is the distance that carries `a` to `b`; `a == b` exactly when it is zero, which is exactly when the two
iterators are the same state -/
theorem C03_distance {it a b : MT} {p q : Int} (hb : it.IsBegin) (ha : it.Reached p a) (hb' : it.Reached q b) :
    ∃ d, a.distTo b = .ok d ∧ d = q - p ∧ a.adv d = .ok b ∧ (a.equal b = true ↔ d = 0) ∧ (a.equal b = true ↔ a = b) := by
  obtain ⟨rfl, p0, p1⟩ := ha.eq hb
  obtain ⟨rfl, q0, q1⟩ := hb'.eq hb
  refine ⟨q - p, MT.distTo_at hb.toWF p0 p1 q0 q1, rfl, ?_, ?_, ?_⟩
  · rw [MT.adv_at hb.toWF p0 p1 (by omega) (by omega)]; congr 2; omega
  · rw [MT.equal_at hb.toWF p0 p1 q0 q1]; omega
  · rw [MT.equal_at hb.toWF p0 p1 q0 q1]
    constructor
    · rintro rfl; rfl
    · intro e
      have : (it.at_ p).equal (it.at_ q) = true := by rw [e]; simp [MT.equal]
      exact (MT.equal_at hb.toWF p0 p1 q0 q1).1 this

/-- `size()` is the number of elements and the distance from begin to end -/
theorem C03_size {it : MT} (hb : it.IsBegin) :
    ∃ sz e, it.size = .ok sz ∧ it.adv sz = .ok e ∧ it.distTo e = .ok sz ∧ sz = (boxList it.n).length := by
  have hp := hb.pos.prod_pos
  refine ⟨it.n.prod, it.at_ it.n.prod, MT.size_ok hb.toWF, ?_, ?_, ?_⟩
  · exact hb.adv (by omega) (by omega)
  · exact hb.distTo (by omega) (by omega)
  · rw [boxList_eq hb.pos, List.length_map, ints_length]; omega

example : exMT.IsBegin ∧ exMT.Reached 4 { exMT with current := [1, 1] } ∧ exMT.Reached 6 { exMT with current := [1, 3] } :=
  ⟨exMT_begin, ⟨[.add 5, .dec], by simp [exMT, Stays, delta], by simp [net, delta], by decide⟩,
    ⟨[.add 5, .inc], by simp [exMT, Stays, delta], by simp [net, delta], by decide⟩⟩
example : exMT.size = .ok 6 := by decide

/-! ### C04 -/

/-- the loop `for (it = begin; it != begin + size; ++it)` visits exactly the coordinates of the box, in row-major order
(`boxList` lists them); it terminates after as many steps as there are elements -/
theorem C04_visits {it : MT} (hb : it.IsBegin) :
    ∃ sz last vs, it.size = .ok sz ∧ it.adv sz = .ok last ∧
      visitLoop MT.equal last (sz.toNat + 1) it = .ok vs ∧
      vs.map MT.current = boxList it.n ∧ ∀ v ∈ vs, v.first = it.first ∧ v.stride = it.stride ∧ v.n = it.n := by
  have hp := hb.pos.prod_pos
  refine ⟨it.n.prod, it.at_ it.n.prod, (List.range it.n.prod.toNat).map fun j : Nat => it.at_ (0 + (j : Int)),
    MT.size_ok hb.toWF, ?_, ?_, ?_, ?_⟩
  · exact hb.adv (by omega) (by omega)
  · have := MT.visit_from hb.toWF it.n.prod.toNat (it.n.prod.toNat + 1) 0 (by omega) (by omega) (by omega)
    rw [← hb.eq_at] at this
    exact this
  · rw [boxList_eq hb.pos, ints, List.map_map, List.map_map]
    refine List.map_congr_left fun j hj => ?_
    have hj := List.mem_range.1 hj
    simp only [Function.comp, MT.at_, zero_add]
    rw [posCoord_of_lt (by omega)]; rfl
  · intro v hv
    obtain ⟨j, _, rfl⟩ := List.mem_map.1 hv
    exact ⟨rfl, rfl, rfl⟩

/-- `boxList` holds each coordinate of the box once and nothing else -/
theorem C04_boxList (n : List Int) : (boxList n).Nodup ∧ ∀ c, c ∈ boxList n ↔ InBox n c :=
  ⟨boxList_nodup, fun _ => mem_boxList⟩

example : exMT.IsBegin := exMT_begin
example : boxList exMT.n = [[0, 0], [0, 1], [0, 2], [1, 0], [1, 1], [1, 2]] := by decide

end Verif
