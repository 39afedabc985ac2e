import Verif.Lemmas.Host
import Verif.Lemmas.WindowRounds
import Verif.Props.WindowTest
import Mathlib.Tactic.IntervalCases
import Mathlib.Tactic.LinearCombination
import Mathlib.Algebra.Field.Rat

/-
C113: the window tests pass, whatever numbers they pick.  Each example has other numbers.
-/

namespace Verif

open Spec Test

variable {T : Type} [Field T] [DecidableEq T]

/-- src/window_iterator.t.cpp:31-44 -/
theorem C113_init : Test.windowInit (T := T) = .ok true := by
  obtain ⟨m', run, a0, a1, a5, a6, -⟩ := C97_init (v := at_ 0) (m := devMem [⟨List.replicate 10 (0 : T), List.replicate 10 0, [(Dim.I, ⟨1, 11, 1⟩)], true, 0⟩])
    (fun k h0 h1 => by interval_cases k <;> exact ⟨_, rfl⟩)
  have b0 : m'.val ⟨0, 0⟩ = some 1 := a0
  have b1 : m'.val ⟨0, 1⟩ = some 2 := a1
  have b5 : m'.val ⟨0, 5⟩ = some 3 := a5
  have b6 : m'.val ⟨0, 6⟩ = some 4 := a6
  have f : newBlock m' 0 (List.replicate 10 (0 : T)) = [1, 2, (m'.val ⟨0, 2⟩).getD 0, (m'.val ⟨0, 3⟩).getD 0, (m'.val ⟨0, 4⟩).getD 0, 3, 4, (m'.val ⟨0, 7⟩).getD 0,
      (m'.val ⟨0, 8⟩).getD 0, (m'.val ⟨0, 9⟩).getD 0] := by
    simp [newBlock, List.replicate, b0, b1, b5, b6]
  unfold Test.windowInit Test.windowInitOf
  rw [show mkB .I 1 10 = .ok (Dim.I, ⟨1, 11, 1⟩) from rfl, M.ok_bind,
    show DevVec.makeVec (0 : T) [(Dim.I, ⟨1, 11, 1⟩)] = .ok ⟨List.replicate 10 0, List.replicate 10 0, [(Dim.I, ⟨1, 11, 1⟩)], true, 0⟩ from rfl, M.ok_bind]
  try dsimp only
  rw [show sizeOfVec 0 [(⟨List.replicate 10 0, List.replicate 10 0, [(Dim.I, ⟨1, 11, 1⟩)], true, 0⟩ : DevVec T)] = .ok 10 from rfl, M.ok_bind]
  rw [onDevice_one run, M.ok_bind]
  try dsimp only
  rw [show hostOf 0 [after m' 0 (⟨List.replicate 10 0, List.replicate 10 0, [(Dim.I, ⟨1, 11, 1⟩)], true, 0⟩ : DevVec T)] =
    .ok (newBlock m' 0 (List.replicate 10 0), [(after m' 0 (⟨List.replicate 10 0, List.replicate 10 0, [(Dim.I, ⟨1, 11, 1⟩)], true, 0⟩ : DevVec T)).host]) from rfl, f]
  simp [vget]

example : Test.windowInit (T := ℚ) = .ok true := C113_init

/-- src/window_iterator.t.cpp:46-56 -/
theorem C113_transform {β : Nat → Backend} (hβ : ∀ n, ValidBackend (β n)) : Test.windowTransform (T := T) β = .ok true := by
  obtain ⟨m', run, vals, -⟩ := C97_transform (v := at_ 0) (m := devMem [⟨List.replicate 10 (0 : T), List.replicate 10 0, [(Dim.I, ⟨1, 11, 1⟩)], true, 0⟩]) hβ
    (fun k h0 h1 => by interval_cases k <;> exact ⟨_, rfl⟩)
  have a0 : m'.val ⟨0, 0⟩ = some 1 := (vals 0 0 (by decide) (by decide) rfl).1
  have a1 : m'.val ⟨0, 1⟩ = some (0 + 2) := (vals 0 0 (by decide) (by decide) rfl).2
  have a2 : m'.val ⟨0, 2⟩ = some 1 := (vals 1 0 (by decide) (by decide) rfl).1
  have a3 : m'.val ⟨0, 3⟩ = some (0 + 2) := (vals 1 0 (by decide) (by decide) rfl).2
  have a4 : m'.val ⟨0, 4⟩ = some 1 := (vals 2 0 (by decide) (by decide) rfl).1
  have a5 : m'.val ⟨0, 5⟩ = some (0 + 2) := (vals 2 0 (by decide) (by decide) rfl).2
  have a6 : m'.val ⟨0, 6⟩ = some 1 := (vals 3 0 (by decide) (by decide) rfl).1
  have a7 : m'.val ⟨0, 7⟩ = some (0 + 2) := (vals 3 0 (by decide) (by decide) rfl).2
  have a8 : m'.val ⟨0, 8⟩ = some 1 := (vals 4 0 (by decide) (by decide) rfl).1
  have a9 : m'.val ⟨0, 9⟩ = some (0 + 2) := (vals 4 0 (by decide) (by decide) rfl).2
  have f : newBlock m' 0 (List.replicate 10 (0 : T)) = [1, 2, 1, 2, 1, 2, 1, 2, 1, 2] := by
    simp [newBlock, List.replicate, a0, a1, a2, a3, a4, a5, a6, a7, a8, a9]
  unfold Test.windowTransform Test.windowTransformOf
  rw [show mkB .I 1 10 = .ok (Dim.I, ⟨1, 11, 1⟩) from rfl, M.ok_bind,
    show DevVec.makeVec (0 : T) [(Dim.I, ⟨1, 11, 1⟩)] = .ok ⟨List.replicate 10 0, List.replicate 10 0, [(Dim.I, ⟨1, 11, 1⟩)], true, 0⟩ from rfl, M.ok_bind]
  try dsimp only
  rw [show sizeOfVec 0 [(⟨List.replicate 10 0, List.replicate 10 0, [(Dim.I, ⟨1, 11, 1⟩)], true, 0⟩ : DevVec T)] = .ok 10 from rfl, M.ok_bind]
  rw [onDevice_one run, M.ok_bind]
  try dsimp only
  rw [show std 0 [after m' 0 (⟨List.replicate 10 0, List.replicate 10 0, [(Dim.I, ⟨1, 11, 1⟩)], true, 0⟩ : DevVec T)] =
    .ok (newBlock m' 0 (List.replicate 10 0), [(after m' 0 (⟨List.replicate 10 0, List.replicate 10 0, [(Dim.I, ⟨1, 11, 1⟩)], true, 0⟩ : DevVec T)).toStd.1]) from rfl, f]
  simp

example : Test.windowTransform (T := ℚ) (fun _ => revBackend) = .ok true := C113_transform fun _ => revBackend_ok

/-- src/window_iterator.t.cpp:58-81 -/
theorem C113_transform2 {xv : Nat → T} {β : Nat → Backend} (hβ : ∀ n, ValidBackend (β n)) : Test.windowTransform2 xv β = .ok true := by
  obtain ⟨m', run, vals, rest⟩ := C97_transform2 (v := at_ 0) (m := devMem [(⟨[xv 0, xv 1, xv 2, xv 3, xv 4, xv 5, xv 6, xv 7, xv 8, xv 9, xv 10, xv 11, xv 12, xv 13, xv 14], [xv 0, xv 1, xv 2, xv 3, xv 4, xv 5, xv 6, xv 7, xv 8, xv 9, xv 10, xv 11, xv 12, xv 13, xv 14], [(Dim.I, ⟨1, 6, 1⟩), (Dim.W, ⟨1, 4, 1⟩)], true, 0⟩ : DevVec T)]) hβ
    (cells_of rfl rfl)
  have a0 : m'.val ⟨0, 0⟩ = some (-(xv 1 + xv 2) + 4 - 1) := vals 0 _ _ (by decide) (by decide) rfl rfl
  have a1 : m'.val ⟨0, 1⟩ = some (xv 1) := (rest ⟨0, 1⟩ (fun k h0 h5 e => by simp [at_, Ptr.add] at e; omega)).trans rfl
  have a2 : m'.val ⟨0, 2⟩ = some (xv 2) := (rest ⟨0, 2⟩ (fun k h0 h5 e => by simp [at_, Ptr.add] at e; omega)).trans rfl
  have a3 : m'.val ⟨0, 3⟩ = some (-(xv 4 + xv 5) + 4 - 1) := vals 1 _ _ (by decide) (by decide) rfl rfl
  have a4 : m'.val ⟨0, 4⟩ = some (xv 4) := (rest ⟨0, 4⟩ (fun k h0 h5 e => by simp [at_, Ptr.add] at e; omega)).trans rfl
  have a5 : m'.val ⟨0, 5⟩ = some (xv 5) := (rest ⟨0, 5⟩ (fun k h0 h5 e => by simp [at_, Ptr.add] at e; omega)).trans rfl
  have a6 : m'.val ⟨0, 6⟩ = some (-(xv 7 + xv 8) + 4 - 1) := vals 2 _ _ (by decide) (by decide) rfl rfl
  have a7 : m'.val ⟨0, 7⟩ = some (xv 7) := (rest ⟨0, 7⟩ (fun k h0 h5 e => by simp [at_, Ptr.add] at e; omega)).trans rfl
  have a8 : m'.val ⟨0, 8⟩ = some (xv 8) := (rest ⟨0, 8⟩ (fun k h0 h5 e => by simp [at_, Ptr.add] at e; omega)).trans rfl
  have a9 : m'.val ⟨0, 9⟩ = some (-(xv 10 + xv 11) + 4 - 1) := vals 3 _ _ (by decide) (by decide) rfl rfl
  have a10 : m'.val ⟨0, 10⟩ = some (xv 10) := (rest ⟨0, 10⟩ (fun k h0 h5 e => by simp [at_, Ptr.add] at e; omega)).trans rfl
  have a11 : m'.val ⟨0, 11⟩ = some (xv 11) := (rest ⟨0, 11⟩ (fun k h0 h5 e => by simp [at_, Ptr.add] at e; omega)).trans rfl
  have a12 : m'.val ⟨0, 12⟩ = some (-(xv 13 + xv 14) + 4 - 1) := vals 4 _ _ (by decide) (by decide) rfl rfl
  have a13 : m'.val ⟨0, 13⟩ = some (xv 13) := (rest ⟨0, 13⟩ (fun k h0 h5 e => by simp [at_, Ptr.add] at e; omega)).trans rfl
  have a14 : m'.val ⟨0, 14⟩ = some (xv 14) := (rest ⟨0, 14⟩ (fun k h0 h5 e => by simp [at_, Ptr.add] at e; omega)).trans rfl
  have f : newBlock m' 0 [xv 0, xv 1, xv 2, xv 3, xv 4, xv 5, xv 6, xv 7, xv 8, xv 9, xv 10, xv 11, xv 12, xv 13, xv 14] = [-(xv 1 + xv 2) + 4 - 1, xv 1, xv 2, -(xv 4 + xv 5) + 4 - 1, xv 4, xv 5, -(xv 7 + xv 8) + 4 - 1, xv 7, xv 8, -(xv 10 + xv 11) + 4 - 1, xv 10, xv 11, -(xv 13 + xv 14) + 4 - 1, xv 13, xv 14] := by
    simp [newBlock, a0, a1, a2, a3, a4, a5, a6, a7, a8, a9, a10, a11, a12, a13, a14]
  unfold Test.windowTransform2 Test.windowTransform2Of
  rw [show mkB .I 1 5 = .ok (Dim.I, ⟨1, 6, 1⟩) from rfl, M.ok_bind, show mkB .W 1 3 = .ok (Dim.W, ⟨1, 4, 1⟩) from rfl, M.ok_bind,
    show DevVec.makeVec (0 : T) [(Dim.I, ⟨1, 6, 1⟩), (Dim.W, ⟨1, 4, 1⟩)] = .ok ⟨List.replicate 15 0, List.replicate 15 0, [(Dim.I, ⟨1, 6, 1⟩), (Dim.W, ⟨1, 4, 1⟩)], true, 0⟩ from rfl, M.ok_bind]
  simp only [show DevVec.fill xv (⟨List.replicate 15 0, List.replicate 15 0, [(Dim.I, ⟨1, 6, 1⟩), (Dim.W, ⟨1, 4, 1⟩)], true, 0⟩ : DevVec T) = (⟨[xv 0, xv 1, xv 2, xv 3, xv 4, xv 5, xv 6, xv 7, xv 8, xv 9, xv 10, xv 11, xv 12, xv 13, xv 14], [xv 0, xv 1, xv 2, xv 3, xv 4, xv 5, xv 6, xv 7, xv 8, xv 9, xv 10, xv 11, xv 12, xv 13, xv 14], [(Dim.I, ⟨1, 6, 1⟩), (Dim.W, ⟨1, 4, 1⟩)], true, 0⟩ : DevVec T) from fill_of xv (n := 15) rfl rfl]
  try dsimp only
  rw [show sizeOfVec 0 [(⟨[xv 0, xv 1, xv 2, xv 3, xv 4, xv 5, xv 6, xv 7, xv 8, xv 9, xv 10, xv 11, xv 12, xv 13, xv 14], [xv 0, xv 1, xv 2, xv 3, xv 4, xv 5, xv 6, xv 7, xv 8, xv 9, xv 10, xv 11, xv 12, xv 13, xv 14], [(Dim.I, ⟨1, 6, 1⟩), (Dim.W, ⟨1, 4, 1⟩)], true, 0⟩ : DevVec T)] = .ok 15 from rfl, M.ok_bind]
  rw [onDevice_one run, M.ok_bind]
  rw [std_one, M.ok_bind]
  dsimp only
  rw [f]
  have g0 : round2 [-(xv 1 + xv 2) + 4 - 1, xv 1, xv 2, -(xv 4 + xv 5) + 4 - 1, xv 4, xv 5, -(xv 7 + xv 8) + 4 - 1, xv 7, xv 8, -(xv 10 + xv 11) + 4 - 1, xv 10, xv 11, -(xv 13 + xv 14) + 4 - 1, xv 13, xv 14] 0 (List.replicate 15 0) = .ok [-(xv 1 + xv 2) + 3, xv 1, xv 2, 0, 0, 0, 0, 0, 0, 0, 0, 0, 0, 0, 0] :=
    round2_run (a := xv 1) (b := xv 2) (by decide) (by decide) rfl rfl rfl
  have g1 : round2 [-(xv 1 + xv 2) + 4 - 1, xv 1, xv 2, -(xv 4 + xv 5) + 4 - 1, xv 4, xv 5, -(xv 7 + xv 8) + 4 - 1, xv 7, xv 8, -(xv 10 + xv 11) + 4 - 1, xv 10, xv 11, -(xv 13 + xv 14) + 4 - 1, xv 13, xv 14] 1 [-(xv 1 + xv 2) + 3, xv 1, xv 2, 0, 0, 0, 0, 0, 0, 0, 0, 0, 0, 0, 0] = .ok [-(xv 1 + xv 2) + 3, xv 1, xv 2, -(xv 4 + xv 5) + 3, xv 4, xv 5, 0, 0, 0, 0, 0, 0, 0, 0, 0] :=
    round2_run (a := xv 4) (b := xv 5) (by decide) (by decide) rfl rfl rfl
  have g2 : round2 [-(xv 1 + xv 2) + 4 - 1, xv 1, xv 2, -(xv 4 + xv 5) + 4 - 1, xv 4, xv 5, -(xv 7 + xv 8) + 4 - 1, xv 7, xv 8, -(xv 10 + xv 11) + 4 - 1, xv 10, xv 11, -(xv 13 + xv 14) + 4 - 1, xv 13, xv 14] 2 [-(xv 1 + xv 2) + 3, xv 1, xv 2, -(xv 4 + xv 5) + 3, xv 4, xv 5, 0, 0, 0, 0, 0, 0, 0, 0, 0] = .ok [-(xv 1 + xv 2) + 3, xv 1, xv 2, -(xv 4 + xv 5) + 3, xv 4, xv 5, -(xv 7 + xv 8) + 3, xv 7, xv 8, 0, 0, 0, 0, 0, 0] :=
    round2_run (a := xv 7) (b := xv 8) (by decide) (by decide) rfl rfl rfl
  have g3 : round2 [-(xv 1 + xv 2) + 4 - 1, xv 1, xv 2, -(xv 4 + xv 5) + 4 - 1, xv 4, xv 5, -(xv 7 + xv 8) + 4 - 1, xv 7, xv 8, -(xv 10 + xv 11) + 4 - 1, xv 10, xv 11, -(xv 13 + xv 14) + 4 - 1, xv 13, xv 14] 3 [-(xv 1 + xv 2) + 3, xv 1, xv 2, -(xv 4 + xv 5) + 3, xv 4, xv 5, -(xv 7 + xv 8) + 3, xv 7, xv 8, 0, 0, 0, 0, 0, 0] = .ok [-(xv 1 + xv 2) + 3, xv 1, xv 2, -(xv 4 + xv 5) + 3, xv 4, xv 5, -(xv 7 + xv 8) + 3, xv 7, xv 8, -(xv 10 + xv 11) + 3, xv 10, xv 11, 0, 0, 0] :=
    round2_run (a := xv 10) (b := xv 11) (by decide) (by decide) rfl rfl rfl
  have g4 : round2 [-(xv 1 + xv 2) + 4 - 1, xv 1, xv 2, -(xv 4 + xv 5) + 4 - 1, xv 4, xv 5, -(xv 7 + xv 8) + 4 - 1, xv 7, xv 8, -(xv 10 + xv 11) + 4 - 1, xv 10, xv 11, -(xv 13 + xv 14) + 4 - 1, xv 13, xv 14] 4 [-(xv 1 + xv 2) + 3, xv 1, xv 2, -(xv 4 + xv 5) + 3, xv 4, xv 5, -(xv 7 + xv 8) + 3, xv 7, xv 8, -(xv 10 + xv 11) + 3, xv 10, xv 11, 0, 0, 0] = .ok [-(xv 1 + xv 2) + 3, xv 1, xv 2, -(xv 4 + xv 5) + 3, xv 4, xv 5, -(xv 7 + xv 8) + 3, xv 7, xv 8, -(xv 10 + xv 11) + 3, xv 10, xv 11, -(xv 13 + xv 14) + 3, xv 13, xv 14] :=
    round2_run (a := xv 13) (b := xv 14) (by decide) (by decide) rfl rfl rfl
  have g := below5 g0 g1 g2 g3 g4
  try dsimp only
  rw [show ([-(xv 1 + xv 2) + 4 - 1, xv 1, xv 2, -(xv 4 + xv 5) + 4 - 1, xv 4, xv 5, -(xv 7 + xv 8) + 4 - 1, xv 7, xv 8, -(xv 10 + xv 11) + 4 - 1, xv 10, xv 11, -(xv 13 + xv 14) + 4 - 1, xv 13, xv 14]).length = 15 from rfl, g, M.ok_bind]
  refine congrArg Except.ok (decide_eq_true ?_)
  simp only [List.cons.injEq, and_true, true_and]
  refine ⟨?_, ?_, ?_, ?_, ?_⟩ <;> ring

example : Test.windowTransform2 (T := ℚ) (fun n => 3 * n + 1) (fun _ => revBackend) = .ok true := C113_transform2 fun _ => revBackend_ok

/-- src/window_iterator.t.cpp:83-110 -/
theorem C113_transform3 {xv xx : Nat → T} {β : Nat → Backend} (hβ : ∀ n, ValidBackend (β n)) : Test.windowTransform3 xv xx β = .ok true := by
  obtain ⟨m', run, vals, rest⟩ := C97_transform3 (v := at_ 0) (u := at_ 1) (m := devMem [(⟨[xv 0, xv 1, xv 2, xv 3, xv 4, xv 5, xv 6, xv 7, xv 8, xv 9, xv 10, xv 11, xv 12, xv 13, xv 14], [xv 0, xv 1, xv 2, xv 3, xv 4, xv 5, xv 6, xv 7, xv 8, xv 9, xv 10, xv 11, xv 12, xv 13, xv 14], [(Dim.I, ⟨1, 6, 1⟩), (Dim.W, ⟨1, 4, 1⟩)], true, 0⟩ : DevVec T), (⟨[xx 0, xx 1, xx 2, xx 3, xx 4], [xx 0, xx 1, xx 2, xx 3, xx 4], [(Dim.I, ⟨1, 6, 1⟩)], true, 0⟩ : DevVec T)]) hβ
    (cells_of rfl rfl) ⟨cells_of rfl rfl, fun k l _ _ _ _ e => by simp [at_, Ptr.add] at e⟩
  have a0 : m'.val ⟨0, 0⟩ = some (-(xv 1 + xv 2) + 3 * xx 0) := vals 0 _ _ _ (by decide) (by decide) rfl rfl rfl
  have a1 : m'.val ⟨0, 1⟩ = some (xv 1) := (rest ⟨0, 1⟩ (fun k h0 h5 e => by simp [at_, Ptr.add] at e; omega)).trans rfl
  have a2 : m'.val ⟨0, 2⟩ = some (xv 2) := (rest ⟨0, 2⟩ (fun k h0 h5 e => by simp [at_, Ptr.add] at e; omega)).trans rfl
  have a3 : m'.val ⟨0, 3⟩ = some (-(xv 4 + xv 5) + 3 * xx 1) := vals 1 _ _ _ (by decide) (by decide) rfl rfl rfl
  have a4 : m'.val ⟨0, 4⟩ = some (xv 4) := (rest ⟨0, 4⟩ (fun k h0 h5 e => by simp [at_, Ptr.add] at e; omega)).trans rfl
  have a5 : m'.val ⟨0, 5⟩ = some (xv 5) := (rest ⟨0, 5⟩ (fun k h0 h5 e => by simp [at_, Ptr.add] at e; omega)).trans rfl
  have a6 : m'.val ⟨0, 6⟩ = some (-(xv 7 + xv 8) + 3 * xx 2) := vals 2 _ _ _ (by decide) (by decide) rfl rfl rfl
  have a7 : m'.val ⟨0, 7⟩ = some (xv 7) := (rest ⟨0, 7⟩ (fun k h0 h5 e => by simp [at_, Ptr.add] at e; omega)).trans rfl
  have a8 : m'.val ⟨0, 8⟩ = some (xv 8) := (rest ⟨0, 8⟩ (fun k h0 h5 e => by simp [at_, Ptr.add] at e; omega)).trans rfl
  have a9 : m'.val ⟨0, 9⟩ = some (-(xv 10 + xv 11) + 3 * xx 3) := vals 3 _ _ _ (by decide) (by decide) rfl rfl rfl
  have a10 : m'.val ⟨0, 10⟩ = some (xv 10) := (rest ⟨0, 10⟩ (fun k h0 h5 e => by simp [at_, Ptr.add] at e; omega)).trans rfl
  have a11 : m'.val ⟨0, 11⟩ = some (xv 11) := (rest ⟨0, 11⟩ (fun k h0 h5 e => by simp [at_, Ptr.add] at e; omega)).trans rfl
  have a12 : m'.val ⟨0, 12⟩ = some (-(xv 13 + xv 14) + 3 * xx 4) := vals 4 _ _ _ (by decide) (by decide) rfl rfl rfl
  have a13 : m'.val ⟨0, 13⟩ = some (xv 13) := (rest ⟨0, 13⟩ (fun k h0 h5 e => by simp [at_, Ptr.add] at e; omega)).trans rfl
  have a14 : m'.val ⟨0, 14⟩ = some (xv 14) := (rest ⟨0, 14⟩ (fun k h0 h5 e => by simp [at_, Ptr.add] at e; omega)).trans rfl
  have f : newBlock m' 0 [xv 0, xv 1, xv 2, xv 3, xv 4, xv 5, xv 6, xv 7, xv 8, xv 9, xv 10, xv 11, xv 12, xv 13, xv 14] = [-(xv 1 + xv 2) + 3 * xx 0, xv 1, xv 2, -(xv 4 + xv 5) + 3 * xx 1, xv 4, xv 5, -(xv 7 + xv 8) + 3 * xx 2, xv 7, xv 8, -(xv 10 + xv 11) + 3 * xx 3, xv 10, xv 11, -(xv 13 + xv 14) + 3 * xx 4, xv 13, xv 14] := by
    simp [newBlock, a0, a1, a2, a3, a4, a5, a6, a7, a8, a9, a10, a11, a12, a13, a14]
  have x0 : m'.val ⟨1, 0⟩ = some (xx 0) := (rest ⟨1, 0⟩ (by simp [at_, Ptr.add])).trans rfl
  have x1 : m'.val ⟨1, 1⟩ = some (xx 1) := (rest ⟨1, 1⟩ (by simp [at_, Ptr.add])).trans rfl
  have x2 : m'.val ⟨1, 2⟩ = some (xx 2) := (rest ⟨1, 2⟩ (by simp [at_, Ptr.add])).trans rfl
  have x3 : m'.val ⟨1, 3⟩ = some (xx 3) := (rest ⟨1, 3⟩ (by simp [at_, Ptr.add])).trans rfl
  have x4 : m'.val ⟨1, 4⟩ = some (xx 4) := (rest ⟨1, 4⟩ (by simp [at_, Ptr.add])).trans rfl
  have fx : newBlock m' 1 [xx 0, xx 1, xx 2, xx 3, xx 4] = [xx 0, xx 1, xx 2, xx 3, xx 4] := by
    simp [newBlock, x0, x1, x2, x3, x4]
  unfold Test.windowTransform3 Test.windowTransform3Of
  rw [show mkB .I 1 5 = .ok (Dim.I, ⟨1, 6, 1⟩) from rfl, M.ok_bind, show mkB .W 1 3 = .ok (Dim.W, ⟨1, 4, 1⟩) from rfl, M.ok_bind,
    show DevVec.makeVec (0 : T) [(Dim.I, ⟨1, 6, 1⟩), (Dim.W, ⟨1, 4, 1⟩)] = .ok ⟨List.replicate 15 0, List.replicate 15 0, [(Dim.I, ⟨1, 6, 1⟩), (Dim.W, ⟨1, 4, 1⟩)], true, 0⟩ from rfl, M.ok_bind]
  try dsimp only
  rw [show DevVec.makeVec (0 : T) [(Dim.I, ⟨1, 6, 1⟩)] = .ok ⟨List.replicate 5 0, List.replicate 5 0, [(Dim.I, ⟨1, 6, 1⟩)], true, 0⟩ from rfl, M.ok_bind]
  simp only [show DevVec.fill xv (⟨List.replicate 15 0, List.replicate 15 0, [(Dim.I, ⟨1, 6, 1⟩), (Dim.W, ⟨1, 4, 1⟩)], true, 0⟩ : DevVec T) = (⟨[xv 0, xv 1, xv 2, xv 3, xv 4, xv 5, xv 6, xv 7, xv 8, xv 9, xv 10, xv 11, xv 12, xv 13, xv 14], [xv 0, xv 1, xv 2, xv 3, xv 4, xv 5, xv 6, xv 7, xv 8, xv 9, xv 10, xv 11, xv 12, xv 13, xv 14], [(Dim.I, ⟨1, 6, 1⟩), (Dim.W, ⟨1, 4, 1⟩)], true, 0⟩ : DevVec T) from fill_of xv (n := 15) rfl rfl]
  simp only [show DevVec.fill xx (⟨List.replicate 5 0, List.replicate 5 0, [(Dim.I, ⟨1, 6, 1⟩)], true, 0⟩ : DevVec T) = (⟨[xx 0, xx 1, xx 2, xx 3, xx 4], [xx 0, xx 1, xx 2, xx 3, xx 4], [(Dim.I, ⟨1, 6, 1⟩)], true, 0⟩ : DevVec T) from fill_of xx (n := 5) rfl rfl]
  try dsimp only
  rw [show sizeOfVec 0 [(⟨[xv 0, xv 1, xv 2, xv 3, xv 4, xv 5, xv 6, xv 7, xv 8, xv 9, xv 10, xv 11, xv 12, xv 13, xv 14], [xv 0, xv 1, xv 2, xv 3, xv 4, xv 5, xv 6, xv 7, xv 8, xv 9, xv 10, xv 11, xv 12, xv 13, xv 14], [(Dim.I, ⟨1, 6, 1⟩), (Dim.W, ⟨1, 4, 1⟩)], true, 0⟩ : DevVec T), (⟨[xx 0, xx 1, xx 2, xx 3, xx 4], [xx 0, xx 1, xx 2, xx 3, xx 4], [(Dim.I, ⟨1, 6, 1⟩)], true, 0⟩ : DevVec T)] = .ok 15 from rfl, M.ok_bind]
  rw [onDevice_two run, M.ok_bind]
  rw [std0_after, M.ok_bind]
  dsimp only
  rw [f]
  rw [host1_after, M.ok_bind]
  dsimp only
  rw [fx]
  have g0 : round3 [-(xv 1 + xv 2) + 3 * xx 0, xv 1, xv 2, -(xv 4 + xv 5) + 3 * xx 1, xv 4, xv 5, -(xv 7 + xv 8) + 3 * xx 2, xv 7, xv 8, -(xv 10 + xv 11) + 3 * xx 3, xv 10, xv 11, -(xv 13 + xv 14) + 3 * xx 4, xv 13, xv 14] [xx 0, xx 1, xx 2, xx 3, xx 4] 0 (List.replicate 15 0) = .ok [-(xv 1 + xv 2) + 3 * xx 0, xv 1, xv 2, 0, 0, 0, 0, 0, 0, 0, 0, 0, 0, 0, 0] :=
    round3_run (a := xv 1) (b := xv 2) (c := xx 0) (by decide) (by decide) rfl rfl rfl rfl
  have g1 : round3 [-(xv 1 + xv 2) + 3 * xx 0, xv 1, xv 2, -(xv 4 + xv 5) + 3 * xx 1, xv 4, xv 5, -(xv 7 + xv 8) + 3 * xx 2, xv 7, xv 8, -(xv 10 + xv 11) + 3 * xx 3, xv 10, xv 11, -(xv 13 + xv 14) + 3 * xx 4, xv 13, xv 14] [xx 0, xx 1, xx 2, xx 3, xx 4] 1 [-(xv 1 + xv 2) + 3 * xx 0, xv 1, xv 2, 0, 0, 0, 0, 0, 0, 0, 0, 0, 0, 0, 0] = .ok [-(xv 1 + xv 2) + 3 * xx 0, xv 1, xv 2, -(xv 4 + xv 5) + 3 * xx 1, xv 4, xv 5, 0, 0, 0, 0, 0, 0, 0, 0, 0] :=
    round3_run (a := xv 4) (b := xv 5) (c := xx 1) (by decide) (by decide) rfl rfl rfl rfl
  have g2 : round3 [-(xv 1 + xv 2) + 3 * xx 0, xv 1, xv 2, -(xv 4 + xv 5) + 3 * xx 1, xv 4, xv 5, -(xv 7 + xv 8) + 3 * xx 2, xv 7, xv 8, -(xv 10 + xv 11) + 3 * xx 3, xv 10, xv 11, -(xv 13 + xv 14) + 3 * xx 4, xv 13, xv 14] [xx 0, xx 1, xx 2, xx 3, xx 4] 2 [-(xv 1 + xv 2) + 3 * xx 0, xv 1, xv 2, -(xv 4 + xv 5) + 3 * xx 1, xv 4, xv 5, 0, 0, 0, 0, 0, 0, 0, 0, 0] = .ok [-(xv 1 + xv 2) + 3 * xx 0, xv 1, xv 2, -(xv 4 + xv 5) + 3 * xx 1, xv 4, xv 5, -(xv 7 + xv 8) + 3 * xx 2, xv 7, xv 8, 0, 0, 0, 0, 0, 0] :=
    round3_run (a := xv 7) (b := xv 8) (c := xx 2) (by decide) (by decide) rfl rfl rfl rfl
  have g3 : round3 [-(xv 1 + xv 2) + 3 * xx 0, xv 1, xv 2, -(xv 4 + xv 5) + 3 * xx 1, xv 4, xv 5, -(xv 7 + xv 8) + 3 * xx 2, xv 7, xv 8, -(xv 10 + xv 11) + 3 * xx 3, xv 10, xv 11, -(xv 13 + xv 14) + 3 * xx 4, xv 13, xv 14] [xx 0, xx 1, xx 2, xx 3, xx 4] 3 [-(xv 1 + xv 2) + 3 * xx 0, xv 1, xv 2, -(xv 4 + xv 5) + 3 * xx 1, xv 4, xv 5, -(xv 7 + xv 8) + 3 * xx 2, xv 7, xv 8, 0, 0, 0, 0, 0, 0] = .ok [-(xv 1 + xv 2) + 3 * xx 0, xv 1, xv 2, -(xv 4 + xv 5) + 3 * xx 1, xv 4, xv 5, -(xv 7 + xv 8) + 3 * xx 2, xv 7, xv 8, -(xv 10 + xv 11) + 3 * xx 3, xv 10, xv 11, 0, 0, 0] :=
    round3_run (a := xv 10) (b := xv 11) (c := xx 3) (by decide) (by decide) rfl rfl rfl rfl
  have g4 : round3 [-(xv 1 + xv 2) + 3 * xx 0, xv 1, xv 2, -(xv 4 + xv 5) + 3 * xx 1, xv 4, xv 5, -(xv 7 + xv 8) + 3 * xx 2, xv 7, xv 8, -(xv 10 + xv 11) + 3 * xx 3, xv 10, xv 11, -(xv 13 + xv 14) + 3 * xx 4, xv 13, xv 14] [xx 0, xx 1, xx 2, xx 3, xx 4] 4 [-(xv 1 + xv 2) + 3 * xx 0, xv 1, xv 2, -(xv 4 + xv 5) + 3 * xx 1, xv 4, xv 5, -(xv 7 + xv 8) + 3 * xx 2, xv 7, xv 8, -(xv 10 + xv 11) + 3 * xx 3, xv 10, xv 11, 0, 0, 0] = .ok [-(xv 1 + xv 2) + 3 * xx 0, xv 1, xv 2, -(xv 4 + xv 5) + 3 * xx 1, xv 4, xv 5, -(xv 7 + xv 8) + 3 * xx 2, xv 7, xv 8, -(xv 10 + xv 11) + 3 * xx 3, xv 10, xv 11, -(xv 13 + xv 14) + 3 * xx 4, xv 13, xv 14] :=
    round3_run (a := xv 13) (b := xv 14) (c := xx 4) (by decide) (by decide) rfl rfl rfl rfl
  have g := below5 g0 g1 g2 g3 g4
  try dsimp only
  rw [show ([-(xv 1 + xv 2) + 3 * xx 0, xv 1, xv 2, -(xv 4 + xv 5) + 3 * xx 1, xv 4, xv 5, -(xv 7 + xv 8) + 3 * xx 2, xv 7, xv 8, -(xv 10 + xv 11) + 3 * xx 3, xv 10, xv 11, -(xv 13 + xv 14) + 3 * xx 4, xv 13, xv 14]).length = 15 from rfl, g, M.ok_bind]
  refine congrArg Except.ok (decide_eq_true ?_)
  rfl

example : Test.windowTransform3 (T := ℚ) (fun n => 3 * n + 1) (fun n => n / 2) (fun _ => revBackend) = .ok true := C113_transform3 fun _ => revBackend_ok

/-- src/window_iterator.t.cpp:112-140 -/
theorem C113_transform4 {xv xx : Nat → T} {β : Nat → Backend} (hβ : ∀ n, ValidBackend (β n)) : Test.windowTransform4 xv xx β = .ok true := by
  obtain ⟨m', run, vals, rest⟩ := C97_transform4 (v := at_ 0) (u := at_ 1) (m := devMem [(⟨[xv 0, xv 1, xv 2, xv 3, xv 4, xv 5, xv 6, xv 7, xv 8, xv 9, xv 10, xv 11, xv 12, xv 13, xv 14, xv 15, xv 16, xv 17, xv 18, xv 19], [xv 0, xv 1, xv 2, xv 3, xv 4, xv 5, xv 6, xv 7, xv 8, xv 9, xv 10, xv 11, xv 12, xv 13, xv 14, xv 15, xv 16, xv 17, xv 18, xv 19], [(Dim.I, ⟨1, 6, 1⟩), (Dim.W, ⟨1, 5, 1⟩)], true, 0⟩ : DevVec T), (⟨[xx 0, xx 1, xx 2, xx 3, xx 4], [xx 0, xx 1, xx 2, xx 3, xx 4], [(Dim.I, ⟨1, 6, 1⟩)], true, 0⟩ : DevVec T)]) hβ
    (cells_of rfl rfl) ⟨cells_of rfl rfl, fun k l _ _ _ _ e => by simp [at_, Ptr.add] at e⟩
  have a0 : m'.val ⟨0, 0⟩ = some (-(xv 2 + xv 3) - 3 * xx 0) := (vals 0 _ _ _ (by decide) (by decide) rfl rfl rfl).1
  have a1 : m'.val ⟨0, 1⟩ = some (2 * (3 * xx 0)) := (vals 0 _ _ _ (by decide) (by decide) rfl rfl rfl).2
  have a2 : m'.val ⟨0, 2⟩ = some (xv 2) := (rest ⟨0, 2⟩ (fun k h0 h5 => ⟨fun e => by simp [at_, Ptr.add] at e; omega, fun e => by simp [at_, Ptr.add] at e; omega⟩)).trans rfl
  have a3 : m'.val ⟨0, 3⟩ = some (xv 3) := (rest ⟨0, 3⟩ (fun k h0 h5 => ⟨fun e => by simp [at_, Ptr.add] at e; omega, fun e => by simp [at_, Ptr.add] at e; omega⟩)).trans rfl
  have a4 : m'.val ⟨0, 4⟩ = some (-(xv 6 + xv 7) - 3 * xx 1) := (vals 1 _ _ _ (by decide) (by decide) rfl rfl rfl).1
  have a5 : m'.val ⟨0, 5⟩ = some (2 * (3 * xx 1)) := (vals 1 _ _ _ (by decide) (by decide) rfl rfl rfl).2
  have a6 : m'.val ⟨0, 6⟩ = some (xv 6) := (rest ⟨0, 6⟩ (fun k h0 h5 => ⟨fun e => by simp [at_, Ptr.add] at e; omega, fun e => by simp [at_, Ptr.add] at e; omega⟩)).trans rfl
  have a7 : m'.val ⟨0, 7⟩ = some (xv 7) := (rest ⟨0, 7⟩ (fun k h0 h5 => ⟨fun e => by simp [at_, Ptr.add] at e; omega, fun e => by simp [at_, Ptr.add] at e; omega⟩)).trans rfl
  have a8 : m'.val ⟨0, 8⟩ = some (-(xv 10 + xv 11) - 3 * xx 2) := (vals 2 _ _ _ (by decide) (by decide) rfl rfl rfl).1
  have a9 : m'.val ⟨0, 9⟩ = some (2 * (3 * xx 2)) := (vals 2 _ _ _ (by decide) (by decide) rfl rfl rfl).2
  have a10 : m'.val ⟨0, 10⟩ = some (xv 10) := (rest ⟨0, 10⟩ (fun k h0 h5 => ⟨fun e => by simp [at_, Ptr.add] at e; omega, fun e => by simp [at_, Ptr.add] at e; omega⟩)).trans rfl
  have a11 : m'.val ⟨0, 11⟩ = some (xv 11) := (rest ⟨0, 11⟩ (fun k h0 h5 => ⟨fun e => by simp [at_, Ptr.add] at e; omega, fun e => by simp [at_, Ptr.add] at e; omega⟩)).trans rfl
  have a12 : m'.val ⟨0, 12⟩ = some (-(xv 14 + xv 15) - 3 * xx 3) := (vals 3 _ _ _ (by decide) (by decide) rfl rfl rfl).1
  have a13 : m'.val ⟨0, 13⟩ = some (2 * (3 * xx 3)) := (vals 3 _ _ _ (by decide) (by decide) rfl rfl rfl).2
  have a14 : m'.val ⟨0, 14⟩ = some (xv 14) := (rest ⟨0, 14⟩ (fun k h0 h5 => ⟨fun e => by simp [at_, Ptr.add] at e; omega, fun e => by simp [at_, Ptr.add] at e; omega⟩)).trans rfl
  have a15 : m'.val ⟨0, 15⟩ = some (xv 15) := (rest ⟨0, 15⟩ (fun k h0 h5 => ⟨fun e => by simp [at_, Ptr.add] at e; omega, fun e => by simp [at_, Ptr.add] at e; omega⟩)).trans rfl
  have a16 : m'.val ⟨0, 16⟩ = some (-(xv 18 + xv 19) - 3 * xx 4) := (vals 4 _ _ _ (by decide) (by decide) rfl rfl rfl).1
  have a17 : m'.val ⟨0, 17⟩ = some (2 * (3 * xx 4)) := (vals 4 _ _ _ (by decide) (by decide) rfl rfl rfl).2
  have a18 : m'.val ⟨0, 18⟩ = some (xv 18) := (rest ⟨0, 18⟩ (fun k h0 h5 => ⟨fun e => by simp [at_, Ptr.add] at e; omega, fun e => by simp [at_, Ptr.add] at e; omega⟩)).trans rfl
  have a19 : m'.val ⟨0, 19⟩ = some (xv 19) := (rest ⟨0, 19⟩ (fun k h0 h5 => ⟨fun e => by simp [at_, Ptr.add] at e; omega, fun e => by simp [at_, Ptr.add] at e; omega⟩)).trans rfl
  have f : newBlock m' 0 [xv 0, xv 1, xv 2, xv 3, xv 4, xv 5, xv 6, xv 7, xv 8, xv 9, xv 10, xv 11, xv 12, xv 13, xv 14, xv 15, xv 16, xv 17, xv 18, xv 19] = [-(xv 2 + xv 3) - 3 * xx 0, 2 * (3 * xx 0), xv 2, xv 3, -(xv 6 + xv 7) - 3 * xx 1, 2 * (3 * xx 1), xv 6, xv 7, -(xv 10 + xv 11) - 3 * xx 2, 2 * (3 * xx 2), xv 10, xv 11, -(xv 14 + xv 15) - 3 * xx 3, 2 * (3 * xx 3), xv 14, xv 15, -(xv 18 + xv 19) - 3 * xx 4, 2 * (3 * xx 4), xv 18, xv 19] := by
    simp [newBlock, a0, a1, a2, a3, a4, a5, a6, a7, a8, a9, a10, a11, a12, a13, a14, a15, a16, a17, a18, a19]
  have x0 : m'.val ⟨1, 0⟩ = some (xx 0) := (rest ⟨1, 0⟩ (by simp [at_, Ptr.add])).trans rfl
  have x1 : m'.val ⟨1, 1⟩ = some (xx 1) := (rest ⟨1, 1⟩ (by simp [at_, Ptr.add])).trans rfl
  have x2 : m'.val ⟨1, 2⟩ = some (xx 2) := (rest ⟨1, 2⟩ (by simp [at_, Ptr.add])).trans rfl
  have x3 : m'.val ⟨1, 3⟩ = some (xx 3) := (rest ⟨1, 3⟩ (by simp [at_, Ptr.add])).trans rfl
  have x4 : m'.val ⟨1, 4⟩ = some (xx 4) := (rest ⟨1, 4⟩ (by simp [at_, Ptr.add])).trans rfl
  have fx : newBlock m' 1 [xx 0, xx 1, xx 2, xx 3, xx 4] = [xx 0, xx 1, xx 2, xx 3, xx 4] := by
    simp [newBlock, x0, x1, x2, x3, x4]
  unfold Test.windowTransform4 Test.windowTransform4Of
  rw [show mkB .I 1 5 = .ok (Dim.I, ⟨1, 6, 1⟩) from rfl, M.ok_bind, show mkB .W 1 4 = .ok (Dim.W, ⟨1, 5, 1⟩) from rfl, M.ok_bind,
    show DevVec.makeVec (0 : T) [(Dim.I, ⟨1, 6, 1⟩), (Dim.W, ⟨1, 5, 1⟩)] = .ok ⟨List.replicate 20 0, List.replicate 20 0, [(Dim.I, ⟨1, 6, 1⟩), (Dim.W, ⟨1, 5, 1⟩)], true, 0⟩ from rfl, M.ok_bind]
  try dsimp only
  rw [show DevVec.makeVec (0 : T) [(Dim.I, ⟨1, 6, 1⟩)] = .ok ⟨List.replicate 5 0, List.replicate 5 0, [(Dim.I, ⟨1, 6, 1⟩)], true, 0⟩ from rfl, M.ok_bind]
  simp only [show DevVec.fill xv (⟨List.replicate 20 0, List.replicate 20 0, [(Dim.I, ⟨1, 6, 1⟩), (Dim.W, ⟨1, 5, 1⟩)], true, 0⟩ : DevVec T) = (⟨[xv 0, xv 1, xv 2, xv 3, xv 4, xv 5, xv 6, xv 7, xv 8, xv 9, xv 10, xv 11, xv 12, xv 13, xv 14, xv 15, xv 16, xv 17, xv 18, xv 19], [xv 0, xv 1, xv 2, xv 3, xv 4, xv 5, xv 6, xv 7, xv 8, xv 9, xv 10, xv 11, xv 12, xv 13, xv 14, xv 15, xv 16, xv 17, xv 18, xv 19], [(Dim.I, ⟨1, 6, 1⟩), (Dim.W, ⟨1, 5, 1⟩)], true, 0⟩ : DevVec T) from fill_of xv (n := 20) rfl rfl]
  simp only [show DevVec.fill xx (⟨List.replicate 5 0, List.replicate 5 0, [(Dim.I, ⟨1, 6, 1⟩)], true, 0⟩ : DevVec T) = (⟨[xx 0, xx 1, xx 2, xx 3, xx 4], [xx 0, xx 1, xx 2, xx 3, xx 4], [(Dim.I, ⟨1, 6, 1⟩)], true, 0⟩ : DevVec T) from fill_of xx (n := 5) rfl rfl]
  try dsimp only
  rw [show sizeOfVec 0 [(⟨[xv 0, xv 1, xv 2, xv 3, xv 4, xv 5, xv 6, xv 7, xv 8, xv 9, xv 10, xv 11, xv 12, xv 13, xv 14, xv 15, xv 16, xv 17, xv 18, xv 19], [xv 0, xv 1, xv 2, xv 3, xv 4, xv 5, xv 6, xv 7, xv 8, xv 9, xv 10, xv 11, xv 12, xv 13, xv 14, xv 15, xv 16, xv 17, xv 18, xv 19], [(Dim.I, ⟨1, 6, 1⟩), (Dim.W, ⟨1, 5, 1⟩)], true, 0⟩ : DevVec T), (⟨[xx 0, xx 1, xx 2, xx 3, xx 4], [xx 0, xx 1, xx 2, xx 3, xx 4], [(Dim.I, ⟨1, 6, 1⟩)], true, 0⟩ : DevVec T)] = .ok 20 from rfl, M.ok_bind]
  rw [onDevice_two run, M.ok_bind]
  rw [std0_after, M.ok_bind]
  dsimp only
  rw [f]
  rw [host1_after, M.ok_bind]
  dsimp only
  rw [fx]
  have g0 : round4 [-(xv 2 + xv 3) - 3 * xx 0, 2 * (3 * xx 0), xv 2, xv 3, -(xv 6 + xv 7) - 3 * xx 1, 2 * (3 * xx 1), xv 6, xv 7, -(xv 10 + xv 11) - 3 * xx 2, 2 * (3 * xx 2), xv 10, xv 11, -(xv 14 + xv 15) - 3 * xx 3, 2 * (3 * xx 3), xv 14, xv 15, -(xv 18 + xv 19) - 3 * xx 4, 2 * (3 * xx 4), xv 18, xv 19] [xx 0, xx 1, xx 2, xx 3, xx 4] 0 (List.replicate 20 0) = .ok [-(xv 2 + xv 3) - 3 * xx 0, 6 * xx 0, xv 2, xv 3, 0, 0, 0, 0, 0, 0, 0, 0, 0, 0, 0, 0, 0, 0, 0, 0] :=
    round4_run (a := xv 2) (b := xv 3) (c := xx 0) (by decide) (by decide) rfl rfl rfl rfl
  have g1 : round4 [-(xv 2 + xv 3) - 3 * xx 0, 2 * (3 * xx 0), xv 2, xv 3, -(xv 6 + xv 7) - 3 * xx 1, 2 * (3 * xx 1), xv 6, xv 7, -(xv 10 + xv 11) - 3 * xx 2, 2 * (3 * xx 2), xv 10, xv 11, -(xv 14 + xv 15) - 3 * xx 3, 2 * (3 * xx 3), xv 14, xv 15, -(xv 18 + xv 19) - 3 * xx 4, 2 * (3 * xx 4), xv 18, xv 19] [xx 0, xx 1, xx 2, xx 3, xx 4] 1 [-(xv 2 + xv 3) - 3 * xx 0, 6 * xx 0, xv 2, xv 3, 0, 0, 0, 0, 0, 0, 0, 0, 0, 0, 0, 0, 0, 0, 0, 0] = .ok [-(xv 2 + xv 3) - 3 * xx 0, 6 * xx 0, xv 2, xv 3, -(xv 6 + xv 7) - 3 * xx 1, 6 * xx 1, xv 6, xv 7, 0, 0, 0, 0, 0, 0, 0, 0, 0, 0, 0, 0] :=
    round4_run (a := xv 6) (b := xv 7) (c := xx 1) (by decide) (by decide) rfl rfl rfl rfl
  have g2 : round4 [-(xv 2 + xv 3) - 3 * xx 0, 2 * (3 * xx 0), xv 2, xv 3, -(xv 6 + xv 7) - 3 * xx 1, 2 * (3 * xx 1), xv 6, xv 7, -(xv 10 + xv 11) - 3 * xx 2, 2 * (3 * xx 2), xv 10, xv 11, -(xv 14 + xv 15) - 3 * xx 3, 2 * (3 * xx 3), xv 14, xv 15, -(xv 18 + xv 19) - 3 * xx 4, 2 * (3 * xx 4), xv 18, xv 19] [xx 0, xx 1, xx 2, xx 3, xx 4] 2 [-(xv 2 + xv 3) - 3 * xx 0, 6 * xx 0, xv 2, xv 3, -(xv 6 + xv 7) - 3 * xx 1, 6 * xx 1, xv 6, xv 7, 0, 0, 0, 0, 0, 0, 0, 0, 0, 0, 0, 0] = .ok [-(xv 2 + xv 3) - 3 * xx 0, 6 * xx 0, xv 2, xv 3, -(xv 6 + xv 7) - 3 * xx 1, 6 * xx 1, xv 6, xv 7, -(xv 10 + xv 11) - 3 * xx 2, 6 * xx 2, xv 10, xv 11, 0, 0, 0, 0, 0, 0, 0, 0] :=
    round4_run (a := xv 10) (b := xv 11) (c := xx 2) (by decide) (by decide) rfl rfl rfl rfl
  have g3 : round4 [-(xv 2 + xv 3) - 3 * xx 0, 2 * (3 * xx 0), xv 2, xv 3, -(xv 6 + xv 7) - 3 * xx 1, 2 * (3 * xx 1), xv 6, xv 7, -(xv 10 + xv 11) - 3 * xx 2, 2 * (3 * xx 2), xv 10, xv 11, -(xv 14 + xv 15) - 3 * xx 3, 2 * (3 * xx 3), xv 14, xv 15, -(xv 18 + xv 19) - 3 * xx 4, 2 * (3 * xx 4), xv 18, xv 19] [xx 0, xx 1, xx 2, xx 3, xx 4] 3 [-(xv 2 + xv 3) - 3 * xx 0, 6 * xx 0, xv 2, xv 3, -(xv 6 + xv 7) - 3 * xx 1, 6 * xx 1, xv 6, xv 7, -(xv 10 + xv 11) - 3 * xx 2, 6 * xx 2, xv 10, xv 11, 0, 0, 0, 0, 0, 0, 0, 0] = .ok [-(xv 2 + xv 3) - 3 * xx 0, 6 * xx 0, xv 2, xv 3, -(xv 6 + xv 7) - 3 * xx 1, 6 * xx 1, xv 6, xv 7, -(xv 10 + xv 11) - 3 * xx 2, 6 * xx 2, xv 10, xv 11, -(xv 14 + xv 15) - 3 * xx 3, 6 * xx 3, xv 14, xv 15, 0, 0, 0, 0] :=
    round4_run (a := xv 14) (b := xv 15) (c := xx 3) (by decide) (by decide) rfl rfl rfl rfl
  have g4 : round4 [-(xv 2 + xv 3) - 3 * xx 0, 2 * (3 * xx 0), xv 2, xv 3, -(xv 6 + xv 7) - 3 * xx 1, 2 * (3 * xx 1), xv 6, xv 7, -(xv 10 + xv 11) - 3 * xx 2, 2 * (3 * xx 2), xv 10, xv 11, -(xv 14 + xv 15) - 3 * xx 3, 2 * (3 * xx 3), xv 14, xv 15, -(xv 18 + xv 19) - 3 * xx 4, 2 * (3 * xx 4), xv 18, xv 19] [xx 0, xx 1, xx 2, xx 3, xx 4] 4 [-(xv 2 + xv 3) - 3 * xx 0, 6 * xx 0, xv 2, xv 3, -(xv 6 + xv 7) - 3 * xx 1, 6 * xx 1, xv 6, xv 7, -(xv 10 + xv 11) - 3 * xx 2, 6 * xx 2, xv 10, xv 11, -(xv 14 + xv 15) - 3 * xx 3, 6 * xx 3, xv 14, xv 15, 0, 0, 0, 0] = .ok [-(xv 2 + xv 3) - 3 * xx 0, 6 * xx 0, xv 2, xv 3, -(xv 6 + xv 7) - 3 * xx 1, 6 * xx 1, xv 6, xv 7, -(xv 10 + xv 11) - 3 * xx 2, 6 * xx 2, xv 10, xv 11, -(xv 14 + xv 15) - 3 * xx 3, 6 * xx 3, xv 14, xv 15, -(xv 18 + xv 19) - 3 * xx 4, 6 * xx 4, xv 18, xv 19] :=
    round4_run (a := xv 18) (b := xv 19) (c := xx 4) (by decide) (by decide) rfl rfl rfl rfl
  have g := below5 g0 g1 g2 g3 g4
  try dsimp only
  rw [show ([-(xv 2 + xv 3) - 3 * xx 0, 2 * (3 * xx 0), xv 2, xv 3, -(xv 6 + xv 7) - 3 * xx 1, 2 * (3 * xx 1), xv 6, xv 7, -(xv 10 + xv 11) - 3 * xx 2, 2 * (3 * xx 2), xv 10, xv 11, -(xv 14 + xv 15) - 3 * xx 3, 2 * (3 * xx 3), xv 14, xv 15, -(xv 18 + xv 19) - 3 * xx 4, 2 * (3 * xx 4), xv 18, xv 19]).length = 20 from rfl, g, M.ok_bind]
  refine congrArg Except.ok (decide_eq_true ?_)
  simp only [List.cons.injEq, and_true, true_and]
  refine ⟨?_, ?_, ?_, ?_, ?_⟩ <;> ring

example : Test.windowTransform4 (T := ℚ) (fun n => 3 * n + 1) (fun n => n / 2) (fun _ => revBackend) = .ok true := C113_transform4 fun _ => revBackend_ok

/-- src/window_iterator.t.cpp:142-171 -/
theorem C113_rhs {xv xx xr : Nat → T} {β : Nat → Backend} (hβ : ∀ n, ValidBackend (β n)) : Test.windowRhs xv xx xr β = .ok true := by
  obtain ⟨m', run, vals, rest⟩ := C97_rhs (r := at_ 2) (v := at_ 0) (u := at_ 1) (m := devMem [(⟨[xv 0, xv 1, xv 2, xv 3, xv 4, xv 5, xv 6, xv 7, xv 8, xv 9, xv 10, xv 11, xv 12, xv 13, xv 14, xv 15, xv 16, xv 17, xv 18, xv 19], [xv 0, xv 1, xv 2, xv 3, xv 4, xv 5, xv 6, xv 7, xv 8, xv 9, xv 10, xv 11, xv 12, xv 13, xv 14, xv 15, xv 16, xv 17, xv 18, xv 19], [(Dim.I, ⟨1, 6, 1⟩), (Dim.W, ⟨1, 5, 1⟩)], true, 0⟩ : DevVec T), (⟨[xx 0, xx 1, xx 2, xx 3, xx 4], [xx 0, xx 1, xx 2, xx 3, xx 4], [(Dim.I, ⟨1, 6, 1⟩)], true, 0⟩ : DevVec T), (⟨[xr 0, xr 1, xr 2, xr 3, xr 4], [xr 0, xr 1, xr 2, xr 3, xr 4], [(Dim.I, ⟨1, 6, 1⟩)], true, 0⟩ : DevVec T)]) hβ
    (cells_of rfl rfl) (cells_of rfl rfl) ⟨cells_of rfl rfl, fun k l _ _ _ _ e => by simp [at_, Ptr.add] at e⟩ ⟨cells_of rfl rfl, fun k l _ _ _ _ e => by simp [at_, Ptr.add] at e⟩
  have a0 : m'.val ⟨0, 0⟩ = some (xv 0) := (rest ⟨0, 0⟩ (by simp [at_, Ptr.add])).trans rfl
  have a1 : m'.val ⟨0, 1⟩ = some (xv 1) := (rest ⟨0, 1⟩ (by simp [at_, Ptr.add])).trans rfl
  have a2 : m'.val ⟨0, 2⟩ = some (xv 2) := (rest ⟨0, 2⟩ (by simp [at_, Ptr.add])).trans rfl
  have a3 : m'.val ⟨0, 3⟩ = some (xv 3) := (rest ⟨0, 3⟩ (by simp [at_, Ptr.add])).trans rfl
  have a4 : m'.val ⟨0, 4⟩ = some (xv 4) := (rest ⟨0, 4⟩ (by simp [at_, Ptr.add])).trans rfl
  have a5 : m'.val ⟨0, 5⟩ = some (xv 5) := (rest ⟨0, 5⟩ (by simp [at_, Ptr.add])).trans rfl
  have a6 : m'.val ⟨0, 6⟩ = some (xv 6) := (rest ⟨0, 6⟩ (by simp [at_, Ptr.add])).trans rfl
  have a7 : m'.val ⟨0, 7⟩ = some (xv 7) := (rest ⟨0, 7⟩ (by simp [at_, Ptr.add])).trans rfl
  have a8 : m'.val ⟨0, 8⟩ = some (xv 8) := (rest ⟨0, 8⟩ (by simp [at_, Ptr.add])).trans rfl
  have a9 : m'.val ⟨0, 9⟩ = some (xv 9) := (rest ⟨0, 9⟩ (by simp [at_, Ptr.add])).trans rfl
  have a10 : m'.val ⟨0, 10⟩ = some (xv 10) := (rest ⟨0, 10⟩ (by simp [at_, Ptr.add])).trans rfl
  have a11 : m'.val ⟨0, 11⟩ = some (xv 11) := (rest ⟨0, 11⟩ (by simp [at_, Ptr.add])).trans rfl
  have a12 : m'.val ⟨0, 12⟩ = some (xv 12) := (rest ⟨0, 12⟩ (by simp [at_, Ptr.add])).trans rfl
  have a13 : m'.val ⟨0, 13⟩ = some (xv 13) := (rest ⟨0, 13⟩ (by simp [at_, Ptr.add])).trans rfl
  have a14 : m'.val ⟨0, 14⟩ = some (xv 14) := (rest ⟨0, 14⟩ (by simp [at_, Ptr.add])).trans rfl
  have a15 : m'.val ⟨0, 15⟩ = some (xv 15) := (rest ⟨0, 15⟩ (by simp [at_, Ptr.add])).trans rfl
  have a16 : m'.val ⟨0, 16⟩ = some (xv 16) := (rest ⟨0, 16⟩ (by simp [at_, Ptr.add])).trans rfl
  have a17 : m'.val ⟨0, 17⟩ = some (xv 17) := (rest ⟨0, 17⟩ (by simp [at_, Ptr.add])).trans rfl
  have a18 : m'.val ⟨0, 18⟩ = some (xv 18) := (rest ⟨0, 18⟩ (by simp [at_, Ptr.add])).trans rfl
  have a19 : m'.val ⟨0, 19⟩ = some (xv 19) := (rest ⟨0, 19⟩ (by simp [at_, Ptr.add])).trans rfl
  have x0 : m'.val ⟨1, 0⟩ = some (xx 0) := (rest ⟨1, 0⟩ (by simp [at_, Ptr.add])).trans rfl
  have x1 : m'.val ⟨1, 1⟩ = some (xx 1) := (rest ⟨1, 1⟩ (by simp [at_, Ptr.add])).trans rfl
  have x2 : m'.val ⟨1, 2⟩ = some (xx 2) := (rest ⟨1, 2⟩ (by simp [at_, Ptr.add])).trans rfl
  have x3 : m'.val ⟨1, 3⟩ = some (xx 3) := (rest ⟨1, 3⟩ (by simp [at_, Ptr.add])).trans rfl
  have x4 : m'.val ⟨1, 4⟩ = some (xx 4) := (rest ⟨1, 4⟩ (by simp [at_, Ptr.add])).trans rfl
  have r0 : m'.val ⟨2, 0⟩ = some (xr 0 - xv 1 * xx 0) := vals 0 _ _ _ (by decide) (by decide) rfl rfl rfl
  have r1 : m'.val ⟨2, 1⟩ = some (xr 1 - xv 5 * xx 1) := vals 1 _ _ _ (by decide) (by decide) rfl rfl rfl
  have r2 : m'.val ⟨2, 2⟩ = some (xr 2 - xv 9 * xx 2) := vals 2 _ _ _ (by decide) (by decide) rfl rfl rfl
  have r3 : m'.val ⟨2, 3⟩ = some (xr 3 - xv 13 * xx 3) := vals 3 _ _ _ (by decide) (by decide) rfl rfl rfl
  have r4 : m'.val ⟨2, 4⟩ = some (xr 4 - xv 17 * xx 4) := vals 4 _ _ _ (by decide) (by decide) rfl rfl rfl
  have f : newBlock m' 0 [xv 0, xv 1, xv 2, xv 3, xv 4, xv 5, xv 6, xv 7, xv 8, xv 9, xv 10, xv 11, xv 12, xv 13, xv 14, xv 15, xv 16, xv 17, xv 18, xv 19] = [xv 0, xv 1, xv 2, xv 3, xv 4, xv 5, xv 6, xv 7, xv 8, xv 9, xv 10, xv 11, xv 12, xv 13, xv 14, xv 15, xv 16, xv 17, xv 18, xv 19] := by
    simp [newBlock, a0, a1, a2, a3, a4, a5, a6, a7, a8, a9, a10, a11, a12, a13, a14, a15, a16, a17, a18, a19]
  have fx : newBlock m' 1 [xx 0, xx 1, xx 2, xx 3, xx 4] = [xx 0, xx 1, xx 2, xx 3, xx 4] := by
    simp [newBlock, x0, x1, x2, x3, x4]
  have fr : newBlock m' 2 [xr 0, xr 1, xr 2, xr 3, xr 4] = [xr 0 - xv 1 * xx 0, xr 1 - xv 5 * xx 1, xr 2 - xv 9 * xx 2, xr 3 - xv 13 * xx 3, xr 4 - xv 17 * xx 4] := by
    simp [newBlock, r0, r1, r2, r3, r4]
  unfold Test.windowRhs Test.windowRhsOf
  rw [show mkB .I 1 5 = .ok (Dim.I, ⟨1, 6, 1⟩) from rfl, M.ok_bind, show mkB .W 1 4 = .ok (Dim.W, ⟨1, 5, 1⟩) from rfl, M.ok_bind,
    show DevVec.makeVec (0 : T) [(Dim.I, ⟨1, 6, 1⟩), (Dim.W, ⟨1, 5, 1⟩)] = .ok ⟨List.replicate 20 0, List.replicate 20 0, [(Dim.I, ⟨1, 6, 1⟩), (Dim.W, ⟨1, 5, 1⟩)], true, 0⟩ from rfl, M.ok_bind]
  try dsimp only
  rw [show DevVec.makeVec (0 : T) [(Dim.I, ⟨1, 6, 1⟩)] = .ok ⟨List.replicate 5 0, List.replicate 5 0, [(Dim.I, ⟨1, 6, 1⟩)], true, 0⟩ from rfl, M.ok_bind, M.ok_bind]
  simp only [show DevVec.fill xv (⟨List.replicate 20 0, List.replicate 20 0, [(Dim.I, ⟨1, 6, 1⟩), (Dim.W, ⟨1, 5, 1⟩)], true, 0⟩ : DevVec T) = (⟨[xv 0, xv 1, xv 2, xv 3, xv 4, xv 5, xv 6, xv 7, xv 8, xv 9, xv 10, xv 11, xv 12, xv 13, xv 14, xv 15, xv 16, xv 17, xv 18, xv 19], [xv 0, xv 1, xv 2, xv 3, xv 4, xv 5, xv 6, xv 7, xv 8, xv 9, xv 10, xv 11, xv 12, xv 13, xv 14, xv 15, xv 16, xv 17, xv 18, xv 19], [(Dim.I, ⟨1, 6, 1⟩), (Dim.W, ⟨1, 5, 1⟩)], true, 0⟩ : DevVec T) from fill_of xv (n := 20) rfl rfl]
  simp only [show DevVec.fill xx (⟨List.replicate 5 0, List.replicate 5 0, [(Dim.I, ⟨1, 6, 1⟩)], true, 0⟩ : DevVec T) = (⟨[xx 0, xx 1, xx 2, xx 3, xx 4], [xx 0, xx 1, xx 2, xx 3, xx 4], [(Dim.I, ⟨1, 6, 1⟩)], true, 0⟩ : DevVec T) from fill_of xx (n := 5) rfl rfl]
  simp only [show DevVec.fill xr (⟨List.replicate 5 0, List.replicate 5 0, [(Dim.I, ⟨1, 6, 1⟩)], true, 0⟩ : DevVec T) = (⟨[xr 0, xr 1, xr 2, xr 3, xr 4], [xr 0, xr 1, xr 2, xr 3, xr 4], [(Dim.I, ⟨1, 6, 1⟩)], true, 0⟩ : DevVec T) from fill_of xr (n := 5) rfl rfl]
  try dsimp only
  rw [show std 2 [(⟨[xv 0, xv 1, xv 2, xv 3, xv 4, xv 5, xv 6, xv 7, xv 8, xv 9, xv 10, xv 11, xv 12, xv 13, xv 14, xv 15, xv 16, xv 17, xv 18, xv 19], [xv 0, xv 1, xv 2, xv 3, xv 4, xv 5, xv 6, xv 7, xv 8, xv 9, xv 10, xv 11, xv 12, xv 13, xv 14, xv 15, xv 16, xv 17, xv 18, xv 19], [(Dim.I, ⟨1, 6, 1⟩), (Dim.W, ⟨1, 5, 1⟩)], true, 0⟩ : DevVec T), (⟨[xx 0, xx 1, xx 2, xx 3, xx 4], [xx 0, xx 1, xx 2, xx 3, xx 4], [(Dim.I, ⟨1, 6, 1⟩)], true, 0⟩ : DevVec T), (⟨[xr 0, xr 1, xr 2, xr 3, xr 4], [xr 0, xr 1, xr 2, xr 3, xr 4], [(Dim.I, ⟨1, 6, 1⟩)], true, 0⟩ : DevVec T)] = .ok ([xr 0, xr 1, xr 2, xr 3, xr 4], [(⟨[xv 0, xv 1, xv 2, xv 3, xv 4, xv 5, xv 6, xv 7, xv 8, xv 9, xv 10, xv 11, xv 12, xv 13, xv 14, xv 15, xv 16, xv 17, xv 18, xv 19], [xv 0, xv 1, xv 2, xv 3, xv 4, xv 5, xv 6, xv 7, xv 8, xv 9, xv 10, xv 11, xv 12, xv 13, xv 14, xv 15, xv 16, xv 17, xv 18, xv 19], [(Dim.I, ⟨1, 6, 1⟩), (Dim.W, ⟨1, 5, 1⟩)], true, 0⟩ : DevVec T), (⟨[xx 0, xx 1, xx 2, xx 3, xx 4], [xx 0, xx 1, xx 2, xx 3, xx 4], [(Dim.I, ⟨1, 6, 1⟩)], true, 0⟩ : DevVec T), (⟨[xr 0, xr 1, xr 2, xr 3, xr 4], [xr 0, xr 1, xr 2, xr 3, xr 4], [(Dim.I, ⟨1, 6, 1⟩)], true, 0⟩ : DevVec T)]) from rfl, M.ok_bind]
  dsimp only
  try dsimp only
  rw [show sizeOfVec 0 [(⟨[xv 0, xv 1, xv 2, xv 3, xv 4, xv 5, xv 6, xv 7, xv 8, xv 9, xv 10, xv 11, xv 12, xv 13, xv 14, xv 15, xv 16, xv 17, xv 18, xv 19], [xv 0, xv 1, xv 2, xv 3, xv 4, xv 5, xv 6, xv 7, xv 8, xv 9, xv 10, xv 11, xv 12, xv 13, xv 14, xv 15, xv 16, xv 17, xv 18, xv 19], [(Dim.I, ⟨1, 6, 1⟩), (Dim.W, ⟨1, 5, 1⟩)], true, 0⟩ : DevVec T), (⟨[xx 0, xx 1, xx 2, xx 3, xx 4], [xx 0, xx 1, xx 2, xx 3, xx 4], [(Dim.I, ⟨1, 6, 1⟩)], true, 0⟩ : DevVec T), (⟨[xr 0, xr 1, xr 2, xr 3, xr 4], [xr 0, xr 1, xr 2, xr 3, xr 4], [(Dim.I, ⟨1, 6, 1⟩)], true, 0⟩ : DevVec T)] = .ok 20 from rfl, M.ok_bind, onDevice_three run, M.ok_bind]
  rw [std2_after, M.ok_bind]
  dsimp only
  rw [fr]
  rw [host0_three, M.ok_bind]
  dsimp only
  rw [f]
  rw [host1_three, M.ok_bind]
  dsimp only
  rw [fx]
  have g : forBelow 5 (roundRhs [xv 0, xv 1, xv 2, xv 3, xv 4, xv 5, xv 6, xv 7, xv 8, xv 9, xv 10, xv 11, xv 12, xv 13, xv 14, xv 15, xv 16, xv 17, xv 18, xv 19] [xx 0, xx 1, xx 2, xx 3, xx 4]) [xr 0, xr 1, xr 2, xr 3, xr 4] = .ok [xr 0 - xv 1 * xx 0, xr 1 - xv 5 * xx 1, xr 2 - xv 9 * xx 2, xr 3 - xv 13 * xx 3, xr 4 - xv 17 * xx 4] :=
    below5 (roundRhs_run (by decide) (by decide) rfl rfl rfl rfl) (roundRhs_run (by decide) (by decide) rfl rfl rfl rfl) (roundRhs_run (by decide) (by decide) rfl rfl rfl rfl) (roundRhs_run (by decide) (by decide) rfl rfl rfl rfl) (roundRhs_run (by decide) (by decide) rfl rfl rfl rfl)
  try dsimp only
  rw [g, M.ok_bind]
  simp

example : Test.windowRhs (T := ℚ) (fun n => 3 * n + 1) (fun n => n / 2) (fun n => 7 - n) (fun _ => revBackend) = .ok true := C113_rhs fun _ => revBackend_ok

end Verif
