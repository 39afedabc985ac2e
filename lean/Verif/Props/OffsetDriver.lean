import Verif.Lemmas.IterDriver
import Verif.Lemmas.Host
import Verif.Model.Tests.Offset
import Verif.Props.FineTest
import Verif.Props.OffsetTest
import Mathlib.Algebra.Field.Rat
import Mathlib.Tactic.IntervalCases

/-
C116: the tests of the refinement view and of the offset iterator pass.
-/

namespace Verif

open Spec Test

variable {T : Type} [Field T] [DecidableEq T]

/-- src/coarse_to_fine_iterator.t.cpp:27-60 -/
theorem C116_fine {β : Nat → Backend} (hβ : ∀ n, ValidBackend (β n)) : Test.fineInit (T := T) β = .ok true := by
  have A0 : F.ArrOK (blocks [[-1, -1, -1, -1, -1], [1, 2, (3 : T)]]) (F.cell1d (at_ 0) 2 6 0) := blocks_arr rfl (by simp) ⟨by simp, by simp [InInt]⟩
  have A1 : F.ArrOK (blocks [[-1, -1, -1, -1, -1], [1, 2, (3 : T)]]) (F.cell1d (at_ 1) 1 3 0) := blocks_arr rfl (by simp) ⟨by simp, by simp [InInt]⟩
  obtain ⟨m', run, vals, ch⟩ := C96_fine (β := β) (m := blocks [[-1, -1, -1, -1, -1], [1, 2, (3 : T)]]) hβ (ratio := 2) (fi0 := 2) (fi1 := 6) (ci0 := 1) (ci1 := 3) (c := at_ 1) (f := at_ 0)
    (by decide) (by decide) (by decide) (by decide) ⟨by
      simp only [List.cons_append, List.nil_append, List.forall_mem_cons]
      exact ⟨A1, A0, by simp⟩, by simpa [F.cell1d] using arr_apart (by decide)⟩
  have el : ∀ i k x, 2 ≤ i → i ≤ 6 → k * 2 ≤ i → i < (k + 1) * 2 → F.rd (blocks [[-1, -1, -1, -1, -1], [1, 2, (3 : T)]]) (F.cell1d (at_ 1) 1 3 0) [k] = x →
      m'.val ⟨0, i - 2⟩ = some x := fun i k x h1 h2 h3 h4 hx => by
    have := (vals i k h1 h2 h3 h4).2
    rw [hx] at this
    rw [← this]
    simp [F.cell1d, F.colMajor, at_, Ptr.add]
  have e0 := el 2 1 1 (by decide) (by decide) (by decide) (by decide) rfl
  have e1 := el 3 1 1 (by decide) (by decide) (by decide) (by decide) rfl
  have e2 := el 4 2 2 (by decide) (by decide) (by decide) (by decide) rfl
  have e3 := el 5 2 2 (by decide) (by decide) (by decide) (by decide) rfl
  have e4 := el 6 3 3 (by decide) (by decide) (by decide) (by decide) rfl
  have nb : newBlock m' 0 [-1, -1, -1, -1, (-1 : T)] = [1, 1, 2, 2, 3] := by
    simp only [newBlock, List.mapIdx_cons, List.mapIdx_nil]
    simp only [Int.reduceSub] at e0 e1 e2 e3 e4
    simp [e0, e1, e2, e3, e4]
  unfold Test.fineInit Test.fineInitOf
  rw [isub_ok (by decide), M.ok_bind, iadd_ok (by decide), M.ok_bind, newVec_ok (by decide), M.ok_bind, newVec_ok (by decide), M.ok_bind]
  have v3 : vset (List.replicate (3 : Int).toNat (0 : T)) 0 1 = .ok [1, 0, 0] := rfl
  have v4 : vset ([1, 0, 0] : List T) 1 2 = .ok [1, 2, 0] := rfl
  have v5 : vset ([1, 2, 0] : List T) 2 3 = .ok [1, 2, 3] := rfl
  rw [v3, M.ok_bind, v4, M.ok_bind, v5, M.ok_bind]
  have rl : List.replicate (6 - 2 + 1 : Int).toNat (-1 : T) = [-1, -1, -1, -1, -1] := rfl
  rw [rl]
  unfold onVecs
  rw [run, M.ok_bind, M.ok_bind]
  have vv : vec 0 (List.mapIdx (fun k l => newBlock m' k l) [[-1, -1, -1, -1, (-1 : T)], [1, 2, 3]]) = .ok (newBlock m' 0 [-1, -1, -1, -1, (-1 : T)]) := rfl
  rw [vv, M.ok_bind, nb]
  simp

example : Test.fineInit (T := ℚ) (fun _ => revBackend) = .ok true := C116_fine fun _ => revBackend_ok

omit [Field T] [DecidableEq T] in
theorem off_tab {t : List Int} {m : Mem T} {dims : List Int} {n : Nat} {off : Nat → List Int} (hb : ∀ i, i < n → InBox dims (off i))
    (h : ∀ i, i < n → ∀ j, j < dims.length → t[i * dims.length + j]? = some ((off i).getD j 0)) : OffTable (tabled 1 t m) (at_ 1) dims n off := by
  intro i hi
  refine ⟨hb i hi, fun j hj => ?_⟩
  simp only [tabled, at_, Ptr.add]
  rw [if_pos ⟨trivial, by positivity⟩, ← h i hi j hj]
  congr 1
  omega


omit [DecidableEq T] in
/-- what the tests find after `init` -/
theorem off_run {dims : List Int} {t : List Int} {N : Nat} {u : DevVec T} {off : Nat → List Int} (hne : dims ≠ []) (hp : Pos dims) (hN : dims.prod = N) (hN' : (N : Int) ≤ 2147483647)
    (hl : (dims.length : Int) ≤ 100) (hu : u.d = List.replicate N 0) (hb : ∀ i, i < 3 → InBox dims (off i))
    (ht : ∀ i, i < 3 → ∀ j, j < dims.length → t[i * dims.length + j]? = some ((off i).getD j 0)) (hi : ∀ i j, i < 3 → j < 3 → off i = off j → i = j) :
    ∃ w v', onDevice [0] (fun m => Cuda.offsetInit (at_ 0) 3 (at_ 1) dims (tabled 1 t m)) [u] = .ok [v'] ∧ v'.geo = u.geo ∧ v'.toStd.2 = w ∧
      ∀ i, i < 3 → w[(rowMajor dims (off i)).toNat]? = some (((-1 - (i : Int) : Int)) : T) := by
  have hv : Cells (tabled 1 t (devMem [u])) (at_ 0) dims.prod := by
    have := blocks_cells (ls := [u.d]) (k := 0) (l := u.d) (n := dims.prod) rfl (by rw [hu, hN]; simp)
    exact this
  obtain ⟨m', run, vals, rest⟩ := C101_init (n := 3) hne hp (by omega) (by omega) (off_tab hb ht) hv
  refine ⟨newBlock m' 0 u.d, after m' 0 u, onDevice_one run, rfl, rfl, fun i h3 => ?_⟩
  have al : ∀ q : Nat, q < u.d.length → ∃ x, m'.val ⟨0, (q : Int)⟩ = some x := fun q hq => by
    rw [hu, List.length_replicate] at hq
    have hx := coords_inBox hp (k := (q : Int)) (by omega) (by omega)
    have e := vals _ hx
    rw [rowMajor_coords hp (by omega) (by omega)] at e
    simp only [at_, Ptr.add, zero_add] at e
    rw [e]
    split
    · exact ⟨_, rfl⟩
    · refine ⟨0, ?_⟩
      show (devMem [u]).val ⟨0, (q : Int)⟩ = _
      rw [devMem_val rfl, hu, List.getElem?_replicate, if_pos hq]
  have k0 := rowMajor_nonneg (hb i h3)
  have k1 := rowMajor_lt (hb i h3)
  rw [newBlock_get al _ (by rw [hu, List.length_replicate]; omega)]
  have e := vals _ (hb i h3)
  have fl : ((List.range 3).filter (off · == off i)).getLast? = some i := by
    have : (List.range 3).filter (off · == off i) = (List.range 3).filter (· == i) := List.filter_congr fun j hj => by
      rw [List.mem_range] at hj
      by_cases q : j = i
      · simp [q]
      · have := fun h => q (hi j i hj h3 h)
        simpa [q] using this
    rw [this]
    interval_cases i <;> rfl
  rw [fl] at e
  simp only [at_, Ptr.add, zero_add] at e
  rw [Int.toNat_of_nonneg k0]
  exact e

/-- src/offset_iterator.t.cpp:16-33 -/
theorem C116_offset_1d : Test.offset1d (T := T) = .ok true := by
  have t0 : offsetTable 3 1 (rowsOf 3 fun i => [i + 2]) = .ok ⟨[2, 3, 4], [2, 3, 4], [(.W, ⟨0, 3, 1⟩), (.I, ⟨0, 1, 1⟩)], true, 0⟩ := by rfl
  have u0 : DevVec.makeVec (0 : T) [(.I, ⟨1, 11, 1⟩)] = .ok ⟨List.replicate 10 0, List.replicate 10 0, [(.I, ⟨1, 11, 1⟩)], true, 0⟩ := by rfl
  have b0 : mkB .I 1 10 = .ok (.I, ⟨1, 11, 1⟩) := by rfl
  obtain ⟨w, v', run, -, hw, el⟩ := off_run (T := T) (dims := [10]) (t := [2, 3, 4]) (N := 10) (u := ⟨List.replicate 10 0, List.replicate 10 0, [(.I, ⟨1, 11, 1⟩)], true, 0⟩)
    (off := fun i => [(i : Int) + 2]) (by simp) (by simp [Pos]) rfl (by decide) (by decide) rfl (fun i hi => ⟨⟨by positivity, by omega⟩, trivial⟩)
    (fun i hi j hj => by simp at hj; subst hj; interval_cases i <;> rfl) (fun i j _ _ h => by simpa using h)
  have e0 : holds w 2 (-1) = .ok true := holds_ok (by decide) (el 0 (by decide))
  have e1 : holds w 3 (-2) = .ok true := holds_ok (by decide) (el 1 (by decide))
  have e2 : holds w 4 (-3) = .ok true := holds_ok (by decide) (el 2 (by decide))
  unfold Test.offset1d Test.offset1dOf
  rw [b0, M.ok_bind, u0, M.ok_bind, t0, M.ok_bind]
  dsimp only [DevVec.data]
  rw [run, M.ok_bind]
  have sd : std 0 [v'] = .ok (w, [v'.toStd.1]) := by rw [← hw]; rfl
  rw [sd, M.ok_bind]
  dsimp only
  rw [e0, M.ok_bind, e1, M.ok_bind, e2, M.ok_bind]
  rfl

example : Test.offset1d (T := ℚ) = .ok true := C116_offset_1d

/-- src/offset_iterator.t.cpp:35-52 -/
theorem C116_offset_2d : Test.offset2d (T := T) = .ok true := by
  have t0 : offsetTable 3 2 (rowsOf 3 fun i => [i + 3, i + 2]) = .ok ⟨[3, 2, 4, 3, 5, 4], [3, 2, 4, 3, 5, 4], [(.W, ⟨0, 3, 1⟩), (.I, ⟨0, 2, 1⟩)], true, 0⟩ := by rfl
  have u0 : DevVec.makeVec (0 : T) [(.J, ⟨0, 7, 1⟩), (.I, ⟨0, 10, 1⟩)] = .ok ⟨List.replicate 70 0, List.replicate 70 0, [(.J, ⟨0, 7, 1⟩), (.I, ⟨0, 10, 1⟩)], true, 0⟩ := by rfl
  have b0 : mkB .I 0 9 = .ok (.I, ⟨0, 10, 1⟩) := by rfl
  have b1 : mkB .J 0 6 = .ok (.J, ⟨0, 7, 1⟩) := by rfl
  obtain ⟨w, v', run, hg, hw, el⟩ := off_run (T := T) (dims := [7, 10]) (t := [3, 2, 4, 3, 5, 4]) (N := 70) (u := ⟨List.replicate 70 0, List.replicate 70 0, [(.J, ⟨0, 7, 1⟩), (.I, ⟨0, 10, 1⟩)], true, 0⟩)
    (off := fun i => [(i : Int) + 3, (i : Int) + 2]) (by simp) (by simp [Pos]) rfl (by decide) (by decide) rfl (fun i hi => ⟨⟨by positivity, by omega⟩, ⟨by positivity, by omega⟩, trivial⟩)
    (fun i hi j hj => by simp at hj; interval_cases j <;> interval_cases i <;> rfl) (fun i j _ _ h => by simpa using h)
  have e0 : holds w 32 (-1) = .ok true := holds_ok (by decide) (el 0 (by decide))
  have e1 : holds w 43 (-2) = .ok true := holds_ok (by decide) (el 1 (by decide))
  have e2 : holds w 54 (-3) = .ok true := holds_ok (by decide) (el 2 (by decide))
  have ix : ∀ x, indexOf 0 [v'.toStd.1] x = (⟨[], [], [(.J, ⟨0, 7, 1⟩), (.I, ⟨0, 10, 1⟩)], true, 0⟩ : DevVec T).index x := fun x => index_geo (by
    unfold DevVec.toStd
    split <;> exact hg)
  unfold Test.offset2d Test.offset2dOf holdsAt
  rw [b0, b1, M.ok_bind, M.ok_bind, u0, M.ok_bind, t0, M.ok_bind]
  dsimp only [DevVec.data]
  rw [run, M.ok_bind]
  have sd : std 0 [v'] = .ok (w, [v'.toStd.1]) := by rw [← hw]; rfl
  rw [sd, M.ok_bind]
  dsimp only
  have i0 : indexOf 0 [v'.toStd.1] [3, 2] = .ok 32 := (ix _).trans rfl
  have i1 : indexOf 0 [v'.toStd.1] [4, 3] = .ok 43 := (ix _).trans rfl
  have i2 : indexOf 0 [v'.toStd.1] [5, 4] = .ok 54 := (ix _).trans rfl
  rw [i0, M.ok_bind, e0, M.ok_bind, i1, M.ok_bind, e1, M.ok_bind, i2, M.ok_bind, e2, M.ok_bind]
  rfl

example : Test.offset2d (T := ℚ) = .ok true := C116_offset_2d

/-- src/offset_iterator.t.cpp:54-71 -/
theorem C116_offset_3d : Test.offset3d (T := T) = .ok true := by
  have t0 : offsetTable 3 3 (rowsOf 3 fun i => [i + 3, i + 2, i + 1]) = .ok ⟨[3, 2, 1, 4, 3, 2, 5, 4, 3], [3, 2, 1, 4, 3, 2, 5, 4, 3], [(.W, ⟨0, 3, 1⟩), (.I, ⟨0, 3, 1⟩)], true, 0⟩ := by rfl
  have u0 : DevVec.makeVec (0 : T) [(.K, ⟨0, 11, 1⟩), (.J, ⟨0, 7, 1⟩), (.I, ⟨0, 10, 1⟩)] = .ok ⟨List.replicate 770 0, List.replicate 770 0, [(.K, ⟨0, 11, 1⟩), (.J, ⟨0, 7, 1⟩), (.I, ⟨0, 10, 1⟩)], true, 0⟩ := by rfl
  have b0 : mkB .I 0 9 = .ok (.I, ⟨0, 10, 1⟩) := by rfl
  have b1 : mkB .J 0 6 = .ok (.J, ⟨0, 7, 1⟩) := by rfl
  have b2 : mkB .K 0 10 = .ok (.K, ⟨0, 11, 1⟩) := by rfl
  obtain ⟨w, v', run, hg, hw, el⟩ := off_run (T := T) (dims := [11, 7, 10]) (t := [3, 2, 1, 4, 3, 2, 5, 4, 3]) (N := 770)
    (u := ⟨List.replicate 770 0, List.replicate 770 0, [(.K, ⟨0, 11, 1⟩), (.J, ⟨0, 7, 1⟩), (.I, ⟨0, 10, 1⟩)], true, 0⟩)
    (off := fun i => [(i : Int) + 3, (i : Int) + 2, (i : Int) + 1]) (by simp) (by simp [Pos]) rfl (by decide) (by decide) rfl
    (fun i hi => ⟨⟨by positivity, by omega⟩, ⟨by positivity, by omega⟩, ⟨by positivity, by omega⟩, trivial⟩)
    (fun i hi j hj => by simp at hj; interval_cases j <;> interval_cases i <;> rfl) (fun i j _ _ h => by simpa using h)
  have e0 : holds w 231 (-1) = .ok true := holds_ok (by decide) (el 0 (by decide))
  have e1 : holds w 312 (-2) = .ok true := holds_ok (by decide) (el 1 (by decide))
  have e2 : holds w 393 (-3) = .ok true := holds_ok (by decide) (el 2 (by decide))
  have ix : ∀ x, indexOf 0 [v'.toStd.1] x = (⟨[], [], [(.K, ⟨0, 11, 1⟩), (.J, ⟨0, 7, 1⟩), (.I, ⟨0, 10, 1⟩)], true, 0⟩ : DevVec T).index x := fun x => index_geo (by
    unfold DevVec.toStd
    split <;> exact hg)
  unfold Test.offset3d Test.offset3dOf holdsAt
  rw [b0, b1, b2, M.ok_bind, M.ok_bind, M.ok_bind, u0, M.ok_bind, t0, M.ok_bind]
  dsimp only [DevVec.data]
  rw [run, M.ok_bind]
  have sd : std 0 [v'] = .ok (w, [v'.toStd.1]) := by rw [← hw]; rfl
  rw [sd, M.ok_bind]
  dsimp only
  have i0 : indexOf 0 [v'.toStd.1] [3, 2, 1] = .ok 231 := (ix _).trans rfl
  have i1 : indexOf 0 [v'.toStd.1] [4, 3, 2] = .ok 312 := (ix _).trans rfl
  have i2 : indexOf 0 [v'.toStd.1] [5, 4, 3] = .ok 393 := (ix _).trans rfl
  rw [i0, M.ok_bind, e0, M.ok_bind, i1, M.ok_bind, e1, M.ok_bind, i2, M.ok_bind, e2, M.ok_bind]
  rfl

example : Test.offset3d (T := ℚ) = .ok true := C116_offset_3d

end Verif
