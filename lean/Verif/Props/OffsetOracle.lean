import Verif.Props.OffsetDriver

/-
C121: what a passing test of the offset iterator means.  The function under test is arbitrary here.
-/

namespace Verif

open Spec Test

variable {T : Type} [Field T] [DecidableEq T]

/-- what the test hands to the function: `n` zeros, and the table of coordinates -/
def offGiven (n : Nat) (t : List Int) : Mem T := tabled 1 t (blocks [List.replicate n 0])

omit [Field T] in
theorem holds_iff [IntCast T] {w : List T} {p z : Int} {a : T} (h0 : 0 ≤ p) (h : w[p.toNat]? = some a) : holds w p z = .ok (decide (a = (z : T))) := by
  unfold holds
  rw [vget_ok h0 h, M.ok_bind]

omit [DecidableEq T] in
theorem off_after {n : Nat} {t : List Int} {u : DevVec T} {K : Mem T → M (Mem T)} {mK : Mem T} (hu : u.d = List.replicate n 0) (run : K (offGiven n t) = .ok mK)
    (al : ∀ q : Nat, q < n → ∃ x, mK.val ⟨0, (q : Int)⟩ = some x) :
    ∃ w v', onDevice [0] (fun m => K (tabled 1 t m)) [u] = .ok [v'] ∧ v'.geo = u.geo ∧ v'.toStd.2 = w ∧ ∀ q : Nat, q < n → w[q]? = mK.val ⟨0, (q : Int)⟩ := by
  have r : K (tabled 1 t (devMem [u])) = .ok mK := by
    rw [← run, offGiven, devMem, List.map_cons, List.map_nil, hu]
  refine ⟨newBlock mK 0 u.d, after mK 0 u, onDevice_one (c := fun m => K (tabled 1 t m)) r, rfl, rfl, fun q hq => ?_⟩
  exact newBlock_get (fun q' h' => al q' (by rw [hu, List.length_replicate] at h'; exact h')) q (by rw [hu, List.length_replicate]; exact hq)

/-- src/offset_iterator.t.cpp:16-33: the test passes exactly if the function leaves -1, -2 and -3 at the three listed coordinates.  Full statement: it passes only if nothing else is changed; that is
false, see below -/
theorem C121_offset_1d_partial {K : Mem T → M (Mem T)} {mK : Mem T} (run : K (offGiven 10 [2, 3, 4]) = .ok mK) (al : ∀ q : Nat, q < 10 → ∃ x, mK.val ⟨0, (q : Int)⟩ = some x) :
    ∃ b, Test.offset1dOf K = .ok b ∧ (b = true ↔ mK.val ⟨0, 2⟩ = some (-1) ∧ mK.val ⟨0, 3⟩ = some (-2) ∧ mK.val ⟨0, 4⟩ = some (-3)) := by
  have t0 : offsetTable 3 1 (rowsOf 3 fun i => [i + 2]) = .ok ⟨[2, 3, 4], [2, 3, 4], [(.W, ⟨0, 3, 1⟩), (.I, ⟨0, 1, 1⟩)], true, 0⟩ := by rfl
  have u0 : DevVec.makeVec (0 : T) [(.I, ⟨1, 11, 1⟩)] = .ok ⟨List.replicate 10 0, List.replicate 10 0, [(.I, ⟨1, 11, 1⟩)], true, 0⟩ := by rfl
  have b0 : mkB .I 1 10 = .ok (.I, ⟨1, 11, 1⟩) := by rfl
  obtain ⟨w, v', run, hg, hw, el⟩ := off_after (T := T) (n := 10) (t := [2, 3, 4]) (u := ⟨List.replicate 10 0, List.replicate 10 0, [(.I, ⟨1, 11, 1⟩)], true, 0⟩) rfl run al
  obtain ⟨x0, h0⟩ := al 2 (by decide)
  have e0 : holds w 2 (-1) = .ok (decide (x0 = ((-1 : Int) : T))) := holds_iff (by decide) ((el 2 (by decide)).trans h0)
  obtain ⟨x1, h1⟩ := al 3 (by decide)
  have e1 : holds w 3 (-2) = .ok (decide (x1 = ((-2 : Int) : T))) := holds_iff (by decide) ((el 3 (by decide)).trans h1)
  obtain ⟨x2, h2⟩ := al 4 (by decide)
  have e2 : holds w 4 (-3) = .ok (decide (x2 = ((-3 : Int) : T))) := holds_iff (by decide) ((el 4 (by decide)).trans h2)
  unfold Test.offset1dOf
  rw [b0, M.ok_bind, u0, M.ok_bind, t0, M.ok_bind]
  dsimp only [DevVec.data]
  rw [run, M.ok_bind]
  have sd : std 0 [v'] = .ok (w, [v'.toStd.1]) := by rw [← hw]; rfl
  rw [sd, M.ok_bind]
  dsimp only
  rw [e0, M.ok_bind, e1, M.ok_bind, e2, M.ok_bind]
  refine ⟨_, rfl, ?_⟩
  rw [show mK.val ⟨0, 2⟩ = some x0 from h0, show mK.val ⟨0, 3⟩ = some x1 from h1, show mK.val ⟨0, 4⟩ = some x2 from h2]
  simp [and_assoc]

/-- the function that writes nothing: the test fails -/
example : ∃ b, Test.offset1dOf (T := ℚ) .ok = .ok b ∧ b = false := by
  obtain ⟨b, h1, h2⟩ := C121_offset_1d_partial (T := ℚ) (K := .ok) rfl fun q hq => ⟨0, by
    simp only [offGiven, tabled, blocks, List.getElem?_cons_zero, Option.bind_some, Int.natCast_nonneg, if_true, Int.toNat_natCast, List.getElem?_replicate, if_pos hq]⟩
  refine ⟨b, h1, Bool.eq_false_iff.2 fun hb => ?_⟩
  have e : some (0 : ℚ) = some (-1) := (h2.1 hb).1
  norm_num at e

/-- a function that does what the kernel does and overwrites the first element: the test does not notice -/
def clobber1 (m : Mem T) : M (Mem T) := do
  let m ← m.store ⟨0, 2⟩ (-1)
  let m ← m.store ⟨0, 3⟩ (-2)
  let m ← m.store ⟨0, 4⟩ (-3)
  m.store ⟨0, 0⟩ 5

theorem C121_unnoticed_1d : Test.offset1dOf (T := T) clobber1 = .ok true ∧ ∃ m : Mem T, clobber1 (offGiven 10 [2, 3, 4]) = .ok m ∧ m.val ⟨0, 0⟩ = some 5 := by
  have run : ∃ m : Mem T, clobber1 (offGiven 10 [2, 3, 4]) = .ok m ∧ (∀ q : Nat, q < 10 → ∃ x, m.val ⟨0, (q : Int)⟩ = some x) ∧ m.val ⟨0, 0⟩ = some 5 ∧
      m.val ⟨0, 2⟩ = some (-1) ∧ m.val ⟨0, 3⟩ = some (-2) ∧ m.val ⟨0, 4⟩ = some (-3) := by
    refine ⟨_, rfl, fun q hq => ?_, rfl, rfl, rfl, rfl⟩
    simp only []
    repeat' split
    all_goals first | exact ⟨_, rfl⟩ | skip
    exact ⟨0, by simp only [offGiven, tabled, blocks, List.getElem?_cons_zero, Option.bind_some, Int.natCast_nonneg, if_true, Int.toNat_natCast, List.getElem?_replicate, if_pos hq]⟩
  obtain ⟨m, r, al, h5, e0, e1, e2⟩ := run
  obtain ⟨b, h1, h2⟩ := C121_offset_1d_partial r al
  exact ⟨by rw [h1, h2.2 ⟨e0, e1, e2⟩], m, r, h5⟩

example : Test.offset1dOf (T := ℚ) clobber1 = .ok true := C121_unnoticed_1d.1

/-- src/offset_iterator.t.cpp:35-52: the test passes exactly if the function leaves -1, -2 and -3 at the three listed coordinates.  Full statement: it passes only if nothing else is changed; that is
false, see below -/
theorem C121_offset_2d_partial {K : Mem T → M (Mem T)} {mK : Mem T} (run : K (offGiven 70 [3, 2, 4, 3, 5, 4]) = .ok mK) (al : ∀ q : Nat, q < 70 → ∃ x, mK.val ⟨0, (q : Int)⟩ = some x) :
    ∃ b, Test.offset2dOf K = .ok b ∧ (b = true ↔ mK.val ⟨0, 32⟩ = some (-1) ∧ mK.val ⟨0, 43⟩ = some (-2) ∧ mK.val ⟨0, 54⟩ = some (-3)) := by
  have t0 : offsetTable 3 2 (rowsOf 3 fun i => [i + 3, i + 2]) = .ok ⟨[3, 2, 4, 3, 5, 4], [3, 2, 4, 3, 5, 4], [(.W, ⟨0, 3, 1⟩), (.I, ⟨0, 2, 1⟩)], true, 0⟩ := by rfl
  have u0 : DevVec.makeVec (0 : T) [(.J, ⟨0, 7, 1⟩), (.I, ⟨0, 10, 1⟩)] = .ok ⟨List.replicate 70 0, List.replicate 70 0, [(.J, ⟨0, 7, 1⟩), (.I, ⟨0, 10, 1⟩)], true, 0⟩ := by rfl
  have b0 : mkB .I 0 9 = .ok (.I, ⟨0, 10, 1⟩) := by rfl
  have b1 : mkB .J 0 6 = .ok (.J, ⟨0, 7, 1⟩) := by rfl
  obtain ⟨w, v', run, hg, hw, el⟩ := off_after (T := T) (n := 70) (t := [3, 2, 4, 3, 5, 4]) (u := ⟨List.replicate 70 0, List.replicate 70 0, [(.J, ⟨0, 7, 1⟩), (.I, ⟨0, 10, 1⟩)], true, 0⟩) rfl run al
  obtain ⟨x0, h0⟩ := al 32 (by decide)
  have e0 : holds w 32 (-1) = .ok (decide (x0 = ((-1 : Int) : T))) := holds_iff (by decide) ((el 32 (by decide)).trans h0)
  obtain ⟨x1, h1⟩ := al 43 (by decide)
  have e1 : holds w 43 (-2) = .ok (decide (x1 = ((-2 : Int) : T))) := holds_iff (by decide) ((el 43 (by decide)).trans h1)
  obtain ⟨x2, h2⟩ := al 54 (by decide)
  have e2 : holds w 54 (-3) = .ok (decide (x2 = ((-3 : Int) : T))) := holds_iff (by decide) ((el 54 (by decide)).trans h2)
  have ix : ∀ x, indexOf 0 [v'.toStd.1] x = (⟨[], [], [(.J, ⟨0, 7, 1⟩), (.I, ⟨0, 10, 1⟩)], true, 0⟩ : DevVec T).index x := fun x => index_geo (by
    unfold DevVec.toStd
    split <;> exact hg)
  unfold Test.offset2dOf holdsAt
  rw [b0, b1, M.ok_bind, M.ok_bind, u0, M.ok_bind, t0, M.ok_bind]
  dsimp only [DevVec.data]
  rw [run, M.ok_bind]
  have sd : std 0 [v'] = .ok (w, [v'.toStd.1]) := by rw [← hw]; rfl
  rw [sd, M.ok_bind]
  dsimp only
  have i0 : indexOf 0 [v'.toStd.1] [3, 2] = .ok 32 := (ix _).trans rfl
  have i1 : indexOf 0 [v'.toStd.1] [4, 3] = .ok 43 := (ix _).trans rfl
  have i2 : indexOf 0 [v'.toStd.1] [5, 4] = .ok 54 := (ix _).trans rfl
  rw [i0, M.ok_bind, e0, M.ok_bind, i1, M.ok_bind, e1, M.ok_bind, i2, M.ok_bind, e2, M.ok_bind]
  refine ⟨_, rfl, ?_⟩
  rw [show mK.val ⟨0, 32⟩ = some x0 from h0, show mK.val ⟨0, 43⟩ = some x1 from h1, show mK.val ⟨0, 54⟩ = some x2 from h2]
  simp [and_assoc]

/-- the function that writes nothing: the test fails -/
example : ∃ b, Test.offset2dOf (T := ℚ) .ok = .ok b ∧ b = false := by
  obtain ⟨b, h1, h2⟩ := C121_offset_2d_partial (T := ℚ) (K := .ok) rfl fun q hq => ⟨0, by
    simp only [offGiven, tabled, blocks, List.getElem?_cons_zero, Option.bind_some, Int.natCast_nonneg, if_true, Int.toNat_natCast, List.getElem?_replicate, if_pos hq]⟩
  refine ⟨b, h1, Bool.eq_false_iff.2 fun hb => ?_⟩
  have e : some (0 : ℚ) = some (-1) := (h2.1 hb).1
  norm_num at e

/-- a function that does what the kernel does and overwrites the first element: the test does not notice -/
def clobber2 (m : Mem T) : M (Mem T) := do
  let m ← m.store ⟨0, 32⟩ (-1)
  let m ← m.store ⟨0, 43⟩ (-2)
  let m ← m.store ⟨0, 54⟩ (-3)
  m.store ⟨0, 0⟩ 5

theorem C121_unnoticed_2d : Test.offset2dOf (T := T) clobber2 = .ok true ∧ ∃ m : Mem T, clobber2 (offGiven 70 [3, 2, 4, 3, 5, 4]) = .ok m ∧ m.val ⟨0, 0⟩ = some 5 := by
  have run : ∃ m : Mem T, clobber2 (offGiven 70 [3, 2, 4, 3, 5, 4]) = .ok m ∧ (∀ q : Nat, q < 70 → ∃ x, m.val ⟨0, (q : Int)⟩ = some x) ∧ m.val ⟨0, 0⟩ = some 5 ∧
      m.val ⟨0, 32⟩ = some (-1) ∧ m.val ⟨0, 43⟩ = some (-2) ∧ m.val ⟨0, 54⟩ = some (-3) := by
    refine ⟨_, rfl, fun q hq => ?_, rfl, rfl, rfl, rfl⟩
    simp only []
    repeat' split
    all_goals first | exact ⟨_, rfl⟩ | skip
    exact ⟨0, by simp only [offGiven, tabled, blocks, List.getElem?_cons_zero, Option.bind_some, Int.natCast_nonneg, if_true, Int.toNat_natCast, List.getElem?_replicate, if_pos hq]⟩
  obtain ⟨m, r, al, h5, e0, e1, e2⟩ := run
  obtain ⟨b, h1, h2⟩ := C121_offset_2d_partial r al
  exact ⟨by rw [h1, h2.2 ⟨e0, e1, e2⟩], m, r, h5⟩

example : Test.offset2dOf (T := ℚ) clobber2 = .ok true := C121_unnoticed_2d.1

/-- src/offset_iterator.t.cpp:54-71: the test passes exactly if the function leaves -1, -2 and -3 at the three listed coordinates.  Full statement: it passes only if nothing else is changed; that is
false, see below -/
theorem C121_offset_3d_partial {K : Mem T → M (Mem T)} {mK : Mem T} (run : K (offGiven 770 [3, 2, 1, 4, 3, 2, 5, 4, 3]) = .ok mK) (al : ∀ q : Nat, q < 770 → ∃ x, mK.val ⟨0, (q : Int)⟩ = some x) :
    ∃ b, Test.offset3dOf K = .ok b ∧ (b = true ↔ mK.val ⟨0, 231⟩ = some (-1) ∧ mK.val ⟨0, 312⟩ = some (-2) ∧ mK.val ⟨0, 393⟩ = some (-3)) := by
  have t0 : offsetTable 3 3 (rowsOf 3 fun i => [i + 3, i + 2, i + 1]) = .ok ⟨[3, 2, 1, 4, 3, 2, 5, 4, 3], [3, 2, 1, 4, 3, 2, 5, 4, 3], [(.W, ⟨0, 3, 1⟩), (.I, ⟨0, 3, 1⟩)], true, 0⟩ := by rfl
  have u0 : DevVec.makeVec (0 : T) [(.K, ⟨0, 11, 1⟩), (.J, ⟨0, 7, 1⟩), (.I, ⟨0, 10, 1⟩)] = .ok ⟨List.replicate 770 0, List.replicate 770 0, [(.K, ⟨0, 11, 1⟩), (.J, ⟨0, 7, 1⟩), (.I, ⟨0, 10, 1⟩)], true, 0⟩ := by rfl
  have b0 : mkB .I 0 9 = .ok (.I, ⟨0, 10, 1⟩) := by rfl
  have b1 : mkB .J 0 6 = .ok (.J, ⟨0, 7, 1⟩) := by rfl
  have b2 : mkB .K 0 10 = .ok (.K, ⟨0, 11, 1⟩) := by rfl
  obtain ⟨w, v', run, hg, hw, el⟩ := off_after (T := T) (n := 770) (t := [3, 2, 1, 4, 3, 2, 5, 4, 3]) (u := ⟨List.replicate 770 0, List.replicate 770 0, [(.K, ⟨0, 11, 1⟩), (.J, ⟨0, 7, 1⟩), (.I, ⟨0, 10, 1⟩)], true, 0⟩) rfl run al
  obtain ⟨x0, h0⟩ := al 231 (by decide)
  have e0 : holds w 231 (-1) = .ok (decide (x0 = ((-1 : Int) : T))) := holds_iff (by decide) ((el 231 (by decide)).trans h0)
  obtain ⟨x1, h1⟩ := al 312 (by decide)
  have e1 : holds w 312 (-2) = .ok (decide (x1 = ((-2 : Int) : T))) := holds_iff (by decide) ((el 312 (by decide)).trans h1)
  obtain ⟨x2, h2⟩ := al 393 (by decide)
  have e2 : holds w 393 (-3) = .ok (decide (x2 = ((-3 : Int) : T))) := holds_iff (by decide) ((el 393 (by decide)).trans h2)
  have ix : ∀ x, indexOf 0 [v'.toStd.1] x = (⟨[], [], [(.K, ⟨0, 11, 1⟩), (.J, ⟨0, 7, 1⟩), (.I, ⟨0, 10, 1⟩)], true, 0⟩ : DevVec T).index x := fun x => index_geo (by
    unfold DevVec.toStd
    split <;> exact hg)
  unfold Test.offset3dOf holdsAt
  rw [b0, b1, b2, M.ok_bind, M.ok_bind, M.ok_bind, u0, M.ok_bind, t0, M.ok_bind]
  dsimp only [DevVec.data]
  rw [run, M.ok_bind]
  have sd : std 0 [v'] = .ok (w, [v'.toStd.1]) := by rw [← hw]; rfl
  rw [sd, M.ok_bind]
  dsimp only
  have i0 : indexOf 0 [v'.toStd.1] [3, 2, 1] = .ok 231 := (ix _).trans rfl
  have i1 : indexOf 0 [v'.toStd.1] [4, 3, 2] = .ok 312 := (ix _).trans rfl
  have i2 : indexOf 0 [v'.toStd.1] [5, 4, 3] = .ok 393 := (ix _).trans rfl
  rw [i0, M.ok_bind, e0, M.ok_bind, i1, M.ok_bind, e1, M.ok_bind, i2, M.ok_bind, e2, M.ok_bind]
  refine ⟨_, rfl, ?_⟩
  rw [show mK.val ⟨0, 231⟩ = some x0 from h0, show mK.val ⟨0, 312⟩ = some x1 from h1, show mK.val ⟨0, 393⟩ = some x2 from h2]
  simp [and_assoc]

/-- the function that writes nothing: the test fails -/
example : ∃ b, Test.offset3dOf (T := ℚ) .ok = .ok b ∧ b = false := by
  obtain ⟨b, h1, h2⟩ := C121_offset_3d_partial (T := ℚ) (K := .ok) rfl fun q hq => ⟨0, by
    simp only [offGiven, tabled, blocks, List.getElem?_cons_zero, Option.bind_some, Int.natCast_nonneg, if_true, Int.toNat_natCast, List.getElem?_replicate, if_pos hq]⟩
  refine ⟨b, h1, Bool.eq_false_iff.2 fun hb => ?_⟩
  have e : some (0 : ℚ) = some (-1) := (h2.1 hb).1
  norm_num at e

/-- a function that does what the kernel does and overwrites the first element: the test does not notice -/
def clobber3 (m : Mem T) : M (Mem T) := do
  let m ← m.store ⟨0, 231⟩ (-1)
  let m ← m.store ⟨0, 312⟩ (-2)
  let m ← m.store ⟨0, 393⟩ (-3)
  m.store ⟨0, 0⟩ 5

theorem C121_unnoticed_3d : Test.offset3dOf (T := T) clobber3 = .ok true ∧ ∃ m : Mem T, clobber3 (offGiven 770 [3, 2, 1, 4, 3, 2, 5, 4, 3]) = .ok m ∧ m.val ⟨0, 0⟩ = some 5 := by
  have run : ∃ m : Mem T, clobber3 (offGiven 770 [3, 2, 1, 4, 3, 2, 5, 4, 3]) = .ok m ∧ (∀ q : Nat, q < 770 → ∃ x, m.val ⟨0, (q : Int)⟩ = some x) ∧ m.val ⟨0, 0⟩ = some 5 ∧
      m.val ⟨0, 231⟩ = some (-1) ∧ m.val ⟨0, 312⟩ = some (-2) ∧ m.val ⟨0, 393⟩ = some (-3) := by
    refine ⟨_, rfl, fun q hq => ?_, rfl, rfl, rfl, rfl⟩
    simp only []
    repeat' split
    all_goals first | exact ⟨_, rfl⟩ | skip
    exact ⟨0, by simp only [offGiven, tabled, blocks, List.getElem?_cons_zero, Option.bind_some, Int.natCast_nonneg, if_true, Int.toNat_natCast, List.getElem?_replicate, if_pos hq]⟩
  obtain ⟨m, r, al, h5, e0, e1, e2⟩ := run
  obtain ⟨b, h1, h2⟩ := C121_offset_3d_partial r al
  exact ⟨by rw [h1, h2.2 ⟨e0, e1, e2⟩], m, r, h5⟩

example : Test.offset3dOf (T := ℚ) clobber3 = .ok true := C121_unnoticed_3d.1

/-- what the test of the coarse to fine iterator hands to the function: five fine elements and three coarse ones -/
def fineGiven : Mem T := blocks [[-1, -1, -1, -1, -1], [1, 2, 3]]

/-- src/coarse_to_fine_iterator.t.cpp:27-60: the test passes exactly if the function leaves in every fine element the number of the coarse element around it.  Full statement: it passes only if
nothing else is changed; that is false, see below -/
theorem C121_fine_partial {K : Mem T → M (Mem T)} {mK : Mem T} (run : K fineGiven = .ok mK) (al : ∀ q : Nat, q < 5 → ∃ x, mK.val ⟨0, (q : Int)⟩ = some x) :
    ∃ b, Test.fineInitOf K = .ok b ∧ (b = true ↔ ∀ i : Int, 2 ≤ i → i ≤ 6 → mK.val ⟨0, i - 2⟩ = some ((i / 2 : Int) : T)) := by
  obtain ⟨x0, h0⟩ := al 0 (by decide)
  obtain ⟨x1, h1⟩ := al 1 (by decide)
  obtain ⟨x2, h2⟩ := al 2 (by decide)
  obtain ⟨x3, h3⟩ := al 3 (by decide)
  obtain ⟨x4, h4⟩ := al 4 (by decide)
  norm_cast at h0 h1 h2 h3 h4
  have nb : newBlock mK 0 [-1, -1, -1, -1, (-1 : T)] = [x0, x1, x2, x3, x4] := by
    simp only [newBlock, List.mapIdx_cons, List.mapIdx_nil]
    simp [h0, h1, h2, h3, h4]
  unfold Test.fineInitOf
  rw [isub_ok (by decide), M.ok_bind, iadd_ok (by decide), M.ok_bind, newVec_ok (by decide), M.ok_bind, newVec_ok (by decide), M.ok_bind]
  have v3 : vset (List.replicate (3 : Int).toNat (0 : T)) 0 1 = .ok [1, 0, 0] := rfl
  have v4 : vset ([1, 0, 0] : List T) 1 2 = .ok [1, 2, 0] := rfl
  have v5 : vset ([1, 2, 0] : List T) 2 3 = .ok [1, 2, 3] := rfl
  rw [v3, M.ok_bind, v4, M.ok_bind, v5, M.ok_bind]
  have rl : List.replicate (6 - 2 + 1 : Int).toNat (-1 : T) = [-1, -1, -1, -1, -1] := rfl
  rw [rl]
  unfold onVecs
  rw [show K (blocks [[-1, -1, -1, -1, -1], [1, 2, 3]]) = .ok mK from run, M.ok_bind, M.ok_bind]
  have vv : vec 0 (List.mapIdx (fun k l => newBlock mK k l) [[-1, -1, -1, -1, (-1 : T)], [1, 2, 3]]) = .ok (newBlock mK 0 [-1, -1, -1, -1, (-1 : T)]) := rfl
  rw [vv, M.ok_bind, nb]
  refine ⟨_, rfl, ?_⟩
  have e : (∀ i : Int, 2 ≤ i → i ≤ 6 → mK.val ⟨0, i - 2⟩ = some ((i / 2 : Int) : T)) ↔ x0 = 1 ∧ x1 = 1 ∧ x2 = 2 ∧ x3 = 2 ∧ x4 = 3 := by
    constructor
    · intro h
      have a0 := h0.symm.trans (h 2 (by decide) (by decide))
      have a1 := h1.symm.trans (h 3 (by decide) (by decide))
      have a2 := h2.symm.trans (h 4 (by decide) (by decide))
      have a3 := h3.symm.trans (h 5 (by decide) (by decide))
      have a4 := h4.symm.trans (h 6 (by decide) (by decide))
      norm_num at a0 a1 a2 a3 a4
      exact ⟨a0, a1, a2, a3, a4⟩
    · rintro ⟨rfl, rfl, rfl, rfl, rfl⟩ i l u
      obtain rfl | rfl | rfl | rfl | rfl : i = 2 ∨ i = 3 ∨ i = 4 ∨ i = 5 ∨ i = 6 := by omega
      · exact h0.trans (by norm_num)
      · exact h1.trans (by norm_num)
      · exact h2.trans (by norm_num)
      · exact h3.trans (by norm_num)
      · exact h4.trans (by norm_num)
  rw [e]
  simp

/-- the function that writes nothing: the test fails -/
example : ∃ b, Test.fineInitOf (T := ℚ) .ok = .ok b ∧ b = false := by
  obtain ⟨b, h1, h2⟩ := C121_fine_partial (T := ℚ) (K := .ok) rfl fun q hq => ⟨-1, by
    obtain rfl | rfl | rfl | rfl | rfl : q = 0 ∨ q = 1 ∨ q = 2 ∨ q = 3 ∨ q = 4 := by omega
    all_goals rfl⟩
  refine ⟨b, h1, Bool.eq_false_iff.2 fun hb => ?_⟩
  have e : some (-1 : ℚ) = some ((2 / 2 : Int) : ℚ) := h2.1 hb 2 (by decide) (by decide)
  norm_num at e

/-- a function that leaves the right fine elements and overwrites a coarse one: the test does not notice -/
def clobberFine (m : Mem T) : M (Mem T) := do
  let m ← m.store ⟨0, 0⟩ 1
  let m ← m.store ⟨0, 1⟩ 1
  let m ← m.store ⟨0, 2⟩ 2
  let m ← m.store ⟨0, 3⟩ 2
  let m ← m.store ⟨0, 4⟩ 3
  m.store ⟨1, 0⟩ 5

theorem C121_unnoticed_fine : Test.fineInitOf (T := T) clobberFine = .ok true ∧ ∃ m : Mem T, clobberFine fineGiven = .ok m ∧ m.val ⟨1, 0⟩ = some 5 := by
  have run : ∃ m : Mem T, clobberFine fineGiven = .ok m ∧ m.val ⟨1, 0⟩ = some 5 ∧ m.val ⟨0, 0⟩ = some 1 ∧ m.val ⟨0, 1⟩ = some 1 ∧ m.val ⟨0, 2⟩ = some 2 ∧ m.val ⟨0, 3⟩ = some 2 ∧ m.val ⟨0, 4⟩ = some 3 :=
    ⟨_, rfl, rfl, rfl, rfl, rfl, rfl, rfl⟩
  obtain ⟨m, r, c, h0, h1, h2, h3, h4⟩ := run
  obtain ⟨b, t, hb⟩ := C121_fine_partial r fun q hq => by
    obtain rfl | rfl | rfl | rfl | rfl : q = 0 ∨ q = 1 ∨ q = 2 ∨ q = 3 ∨ q = 4 := by omega
    · exact ⟨_, h0⟩
    · exact ⟨_, h1⟩
    · exact ⟨_, h2⟩
    · exact ⟨_, h3⟩
    · exact ⟨_, h4⟩
  refine ⟨?_, m, r, c⟩
  rw [t, hb.2 fun i l u => ?_]
  obtain rfl | rfl | rfl | rfl | rfl : i = 2 ∨ i = 3 ∨ i = 4 ∨ i = 5 ∨ i = 6 := by omega
  · exact h0.trans (by norm_num)
  · exact h1.trans (by norm_num)
  · exact h2.trans (by norm_num)
  · exact h3.trans (by norm_num)
  · exact h4.trans (by norm_num)

end Verif
