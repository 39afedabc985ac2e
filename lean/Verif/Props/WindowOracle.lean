import Verif.Props.WindowDriver

/-
C125: what a passing test of the window iterator means.  The function under test is arbitrary here; `y`, `z` and `r` are the values it leaves in the vectors.
-/

namespace Verif

open Spec Test

variable {T : Type} [Field T] [DecidableEq T]

/-- src/window_iterator.t.cpp:31-44: the test passes exactly if four elements are right.  Full statement: it passes only if the other six are unchanged; that is false, see below -/
theorem C125_init_partial {K : Int → Mem T → M (Mem T)} {m' : Mem T} {y : Nat → T} (run : K 10 (blocks [List.replicate 10 0]) = .ok m') (hy : ∀ q : Nat, q < 10 → m'.val ⟨0, (q : Int)⟩ = some (y q)) :
    ∃ b, Test.windowInitOf K = .ok b ∧ (b = true ↔ y 0 = 1 ∧ y 1 = 2 ∧ y 5 = 3 ∧ y 6 = 4) := by
  have a0 : m'.val ⟨0, 0⟩ = some (y 0) := hy 0 (by decide)
  have a1 : m'.val ⟨0, 1⟩ = some (y 1) := hy 1 (by decide)
  have a2 : m'.val ⟨0, 2⟩ = some (y 2) := hy 2 (by decide)
  have a3 : m'.val ⟨0, 3⟩ = some (y 3) := hy 3 (by decide)
  have a4 : m'.val ⟨0, 4⟩ = some (y 4) := hy 4 (by decide)
  have a5 : m'.val ⟨0, 5⟩ = some (y 5) := hy 5 (by decide)
  have a6 : m'.val ⟨0, 6⟩ = some (y 6) := hy 6 (by decide)
  have a7 : m'.val ⟨0, 7⟩ = some (y 7) := hy 7 (by decide)
  have a8 : m'.val ⟨0, 8⟩ = some (y 8) := hy 8 (by decide)
  have a9 : m'.val ⟨0, 9⟩ = some (y 9) := hy 9 (by decide)
  have f : newBlock m' 0 (List.replicate 10 (0 : T)) = [y 0, y 1, y 2, y 3, y 4, y 5, y 6, y 7, y 8, y 9] := by
    simp [newBlock, List.replicate, a0, a1, a2, a3, a4, a5, a6, a7, a8, a9]
  have run' : K 10 (devMem [(⟨List.replicate 10 0, List.replicate 10 0, [(Dim.I, ⟨1, 11, 1⟩)], true, 0⟩ : DevVec T)]) = .ok m' := run
  unfold Test.windowInitOf
  rw [show mkB .I 1 10 = .ok (Dim.I, ⟨1, 11, 1⟩) from rfl, M.ok_bind,
    show DevVec.makeVec (0 : T) [(Dim.I, ⟨1, 11, 1⟩)] = .ok ⟨List.replicate 10 0, List.replicate 10 0, [(Dim.I, ⟨1, 11, 1⟩)], true, 0⟩ from rfl, M.ok_bind]
  try dsimp only
  rw [show sizeOfVec 0 [(⟨List.replicate 10 0, List.replicate 10 0, [(Dim.I, ⟨1, 11, 1⟩)], true, 0⟩ : DevVec T)] = .ok 10 from rfl, M.ok_bind]
  rw [onDevice_one run', M.ok_bind]
  try dsimp only
  rw [show hostOf 0 [after m' 0 (⟨List.replicate 10 0, List.replicate 10 0, [(Dim.I, ⟨1, 11, 1⟩)], true, 0⟩ : DevVec T)] =
    .ok (newBlock m' 0 (List.replicate 10 0), [(after m' 0 (⟨List.replicate 10 0, List.replicate 10 0, [(Dim.I, ⟨1, 11, 1⟩)], true, 0⟩ : DevVec T)).host]) from rfl, f]
  refine ⟨_, rfl, ?_⟩
  simp [and_assoc]

/-- all elements overwritten -/
def flood : Int → Mem T → M (Mem T) := fun _ m => .ok { m with val := fun p => if p.blk = 0 then some (if p.off = 0 then 1 else if p.off = 1 then 2 else if p.off = 5 then 3 else 4) else m.val p }

theorem C125_unnoticed_init : Test.windowInitOf (T := T) flood = .ok true ∧ ∃ m' : Mem T, flood 10 (blocks [List.replicate 10 0]) = .ok m' ∧ m'.val ⟨0, 2⟩ = some 4 := by
  obtain ⟨b, h1, h2⟩ := C125_init_partial (T := T) (K := flood) (y := fun q => if q = 0 then 1 else if q = 1 then 2 else if q = 5 then 3 else 4) rfl fun q hq => by
    interval_cases q <;> rfl
  exact ⟨by rw [h1, h2.2 ⟨rfl, rfl, rfl, rfl⟩], _, rfl, rfl⟩

example : Test.windowInitOf (T := ℚ) flood = .ok true := C125_unnoticed_init.1

/-- src/window_iterator.t.cpp:46-56: the test passes exactly if 1 and 2 take turns in the vector -/
theorem C125_transform {K : Int → Mem T → M (Mem T)} {m' : Mem T} {y : Nat → T} (run : K 10 (blocks [List.replicate 10 0]) = .ok m') (hy : ∀ q : Nat, q < 10 → m'.val ⟨0, (q : Int)⟩ = some (y q)) :
    ∃ b, Test.windowTransformOf K = .ok b ∧ (b = true ↔ ∀ i : Nat, i < 5 → y (2 * i) = 1 ∧ y (2 * i + 1) = 2) := by
  have a0 : m'.val ⟨0, 0⟩ = some (y 0) := hy 0 (by decide)
  have a1 : m'.val ⟨0, 1⟩ = some (y 1) := hy 1 (by decide)
  have a2 : m'.val ⟨0, 2⟩ = some (y 2) := hy 2 (by decide)
  have a3 : m'.val ⟨0, 3⟩ = some (y 3) := hy 3 (by decide)
  have a4 : m'.val ⟨0, 4⟩ = some (y 4) := hy 4 (by decide)
  have a5 : m'.val ⟨0, 5⟩ = some (y 5) := hy 5 (by decide)
  have a6 : m'.val ⟨0, 6⟩ = some (y 6) := hy 6 (by decide)
  have a7 : m'.val ⟨0, 7⟩ = some (y 7) := hy 7 (by decide)
  have a8 : m'.val ⟨0, 8⟩ = some (y 8) := hy 8 (by decide)
  have a9 : m'.val ⟨0, 9⟩ = some (y 9) := hy 9 (by decide)
  have f : newBlock m' 0 (List.replicate 10 (0 : T)) = [y 0, y 1, y 2, y 3, y 4, y 5, y 6, y 7, y 8, y 9] := by
    simp [newBlock, List.replicate, a0, a1, a2, a3, a4, a5, a6, a7, a8, a9]
  have run' : K 10 (devMem [(⟨List.replicate 10 0, List.replicate 10 0, [(Dim.I, ⟨1, 11, 1⟩)], true, 0⟩ : DevVec T)]) = .ok m' := run
  unfold Test.windowTransformOf
  rw [show mkB .I 1 10 = .ok (Dim.I, ⟨1, 11, 1⟩) from rfl, M.ok_bind,
    show DevVec.makeVec (0 : T) [(Dim.I, ⟨1, 11, 1⟩)] = .ok ⟨List.replicate 10 0, List.replicate 10 0, [(Dim.I, ⟨1, 11, 1⟩)], true, 0⟩ from rfl, M.ok_bind]
  try dsimp only
  rw [show sizeOfVec 0 [(⟨List.replicate 10 0, List.replicate 10 0, [(Dim.I, ⟨1, 11, 1⟩)], true, 0⟩ : DevVec T)] = .ok 10 from rfl, M.ok_bind]
  rw [onDevice_one run', M.ok_bind]
  try dsimp only
  rw [show std 0 [after m' 0 (⟨List.replicate 10 0, List.replicate 10 0, [(Dim.I, ⟨1, 11, 1⟩)], true, 0⟩ : DevVec T)] =
    .ok (newBlock m' 0 (List.replicate 10 0), [(after m' 0 (⟨List.replicate 10 0, List.replicate 10 0, [(Dim.I, ⟨1, 11, 1⟩)], true, 0⟩ : DevVec T)).toStd.1]) from rfl, f]
  refine ⟨_, rfl, ?_⟩
  rw [decide_eq_true_eq]
  simp only [List.cons.injEq, and_true]
  constructor
  · rintro ⟨h0, h1, h2, h3, h4, h5, h6, h7, h8, h9⟩ i hi
    interval_cases i
    exacts [⟨h0, h1⟩, ⟨h2, h3⟩, ⟨h4, h5⟩, ⟨h6, h7⟩, ⟨h8, h9⟩]
  · intro h
    exact ⟨(h 0 (by decide)).1, (h 0 (by decide)).2, (h 1 (by decide)).1, (h 1 (by decide)).2, (h 2 (by decide)).1, (h 2 (by decide)).2, (h 3 (by decide)).1, (h 3 (by decide)).2,
      (h 4 (by decide)).1, (h 4 (by decide)).2⟩

/-- the function that writes nothing: the test fails -/
example : ∃ b, Test.windowTransformOf (T := ℚ) (fun _ => .ok) = .ok b ∧ b = false := by
  obtain ⟨b, h1, h2⟩ := C125_transform (T := ℚ) (K := fun _ => .ok) (y := fun _ => 0) rfl fun q hq => by interval_cases q <;> rfl
  exact ⟨b, h1, Bool.eq_false_iff.2 fun hb => by simpa using (h2.1 hb 0 (by decide)).1⟩

/-- src/window_iterator.t.cpp:58-81: the test passes exactly if the first value in each window fits the other two values left in it.  Full statement: it passes only if the values are those computed from what the vectors held before the call; that is false, see below -/
theorem C125_transform2_partial {xv : Nat → T} {K : Int → Mem T → M (Mem T)} {m' : Mem T} {y : Nat → T} (run : K 15 (blocks [((List.range 15).map xv)]) = .ok m')
    (hy : ∀ q : Nat, q < 15 → m'.val ⟨0, (q : Int)⟩ = some (y q)) :
    ∃ b, Test.windowTransform2Of xv K = .ok b ∧ (b = true ↔ ∀ i : Nat, i < 5 → y (3 * i) = -(y (3 * i + 1) + y (3 * i + 2)) + 3) := by
  have a0 : m'.val ⟨0, 0⟩ = some (y 0) := hy 0 (by decide)
  have a1 : m'.val ⟨0, 1⟩ = some (y 1) := hy 1 (by decide)
  have a2 : m'.val ⟨0, 2⟩ = some (y 2) := hy 2 (by decide)
  have a3 : m'.val ⟨0, 3⟩ = some (y 3) := hy 3 (by decide)
  have a4 : m'.val ⟨0, 4⟩ = some (y 4) := hy 4 (by decide)
  have a5 : m'.val ⟨0, 5⟩ = some (y 5) := hy 5 (by decide)
  have a6 : m'.val ⟨0, 6⟩ = some (y 6) := hy 6 (by decide)
  have a7 : m'.val ⟨0, 7⟩ = some (y 7) := hy 7 (by decide)
  have a8 : m'.val ⟨0, 8⟩ = some (y 8) := hy 8 (by decide)
  have a9 : m'.val ⟨0, 9⟩ = some (y 9) := hy 9 (by decide)
  have a10 : m'.val ⟨0, 10⟩ = some (y 10) := hy 10 (by decide)
  have a11 : m'.val ⟨0, 11⟩ = some (y 11) := hy 11 (by decide)
  have a12 : m'.val ⟨0, 12⟩ = some (y 12) := hy 12 (by decide)
  have a13 : m'.val ⟨0, 13⟩ = some (y 13) := hy 13 (by decide)
  have a14 : m'.val ⟨0, 14⟩ = some (y 14) := hy 14 (by decide)
  have f : newBlock m' 0 [xv 0, xv 1, xv 2, xv 3, xv 4, xv 5, xv 6, xv 7, xv 8, xv 9, xv 10, xv 11, xv 12, xv 13, xv 14] = [y 0, y 1, y 2, y 3, y 4, y 5, y 6, y 7, y 8, y 9, y 10, y 11, y 12, y 13, y 14] := by
    simp [newBlock, a0, a1, a2, a3, a4, a5, a6, a7, a8, a9, a10, a11, a12, a13, a14]
  have run' : K 15 (devMem [(⟨[xv 0, xv 1, xv 2, xv 3, xv 4, xv 5, xv 6, xv 7, xv 8, xv 9, xv 10, xv 11, xv 12, xv 13, xv 14], [xv 0, xv 1, xv 2, xv 3, xv 4, xv 5, xv 6, xv 7, xv 8, xv 9, xv 10, xv 11, xv 12, xv 13, xv 14], [(Dim.I, ⟨1, 6, 1⟩), (Dim.W, ⟨1, 4, 1⟩)], true, 0⟩ : DevVec T)]) = .ok m' := run
  unfold Test.windowTransform2Of
  rw [show mkB .I 1 5 = .ok (Dim.I, ⟨1, 6, 1⟩) from rfl, M.ok_bind, show mkB .W 1 3 = .ok (Dim.W, ⟨1, 4, 1⟩) from rfl, M.ok_bind,
    show DevVec.makeVec (0 : T) [(Dim.I, ⟨1, 6, 1⟩), (Dim.W, ⟨1, 4, 1⟩)] = .ok ⟨List.replicate 15 0, List.replicate 15 0, [(Dim.I, ⟨1, 6, 1⟩), (Dim.W, ⟨1, 4, 1⟩)], true, 0⟩ from rfl, M.ok_bind]
  simp only [show DevVec.fill xv (⟨List.replicate 15 0, List.replicate 15 0, [(Dim.I, ⟨1, 6, 1⟩), (Dim.W, ⟨1, 4, 1⟩)], true, 0⟩ : DevVec T) = (⟨[xv 0, xv 1, xv 2, xv 3, xv 4, xv 5, xv 6, xv 7, xv 8, xv 9, xv 10, xv 11, xv 12, xv 13, xv 14], [xv 0, xv 1, xv 2, xv 3, xv 4, xv 5, xv 6, xv 7, xv 8, xv 9, xv 10, xv 11, xv 12, xv 13, xv 14], [(Dim.I, ⟨1, 6, 1⟩), (Dim.W, ⟨1, 4, 1⟩)], true, 0⟩ : DevVec T) from fill_of xv (n := 15) rfl rfl]
  try dsimp only
  rw [show sizeOfVec 0 [(⟨[xv 0, xv 1, xv 2, xv 3, xv 4, xv 5, xv 6, xv 7, xv 8, xv 9, xv 10, xv 11, xv 12, xv 13, xv 14], [xv 0, xv 1, xv 2, xv 3, xv 4, xv 5, xv 6, xv 7, xv 8, xv 9, xv 10, xv 11, xv 12, xv 13, xv 14], [(Dim.I, ⟨1, 6, 1⟩), (Dim.W, ⟨1, 4, 1⟩)], true, 0⟩ : DevVec T)] = .ok 15 from rfl, M.ok_bind]
  rw [onDevice_one run', M.ok_bind]
  rw [std_one, M.ok_bind]
  dsimp only
  rw [f]
  have g0 : round2 [y 0, y 1, y 2, y 3, y 4, y 5, y 6, y 7, y 8, y 9, y 10, y 11, y 12, y 13, y 14] 0 (List.replicate 15 0) = .ok [-(y 1 + y 2) + 3, y 1, y 2, 0, 0, 0, 0, 0, 0, 0, 0, 0, 0, 0, 0] :=
    round2_run (a := y 1) (b := y 2) (by decide) (by decide) rfl rfl rfl
  have g1 : round2 [y 0, y 1, y 2, y 3, y 4, y 5, y 6, y 7, y 8, y 9, y 10, y 11, y 12, y 13, y 14] 1 [-(y 1 + y 2) + 3, y 1, y 2, 0, 0, 0, 0, 0, 0, 0, 0, 0, 0, 0, 0] = .ok [-(y 1 + y 2) + 3, y 1, y 2, -(y 4 + y 5) + 3, y 4, y 5, 0, 0, 0, 0, 0, 0, 0, 0, 0] :=
    round2_run (a := y 4) (b := y 5) (by decide) (by decide) rfl rfl rfl
  have g2 : round2 [y 0, y 1, y 2, y 3, y 4, y 5, y 6, y 7, y 8, y 9, y 10, y 11, y 12, y 13, y 14] 2 [-(y 1 + y 2) + 3, y 1, y 2, -(y 4 + y 5) + 3, y 4, y 5, 0, 0, 0, 0, 0, 0, 0, 0, 0] = .ok [-(y 1 + y 2) + 3, y 1, y 2, -(y 4 + y 5) + 3, y 4, y 5, -(y 7 + y 8) + 3, y 7, y 8, 0, 0, 0, 0, 0, 0] :=
    round2_run (a := y 7) (b := y 8) (by decide) (by decide) rfl rfl rfl
  have g3 : round2 [y 0, y 1, y 2, y 3, y 4, y 5, y 6, y 7, y 8, y 9, y 10, y 11, y 12, y 13, y 14] 3 [-(y 1 + y 2) + 3, y 1, y 2, -(y 4 + y 5) + 3, y 4, y 5, -(y 7 + y 8) + 3, y 7, y 8, 0, 0, 0, 0, 0, 0] = .ok [-(y 1 + y 2) + 3, y 1, y 2, -(y 4 + y 5) + 3, y 4, y 5, -(y 7 + y 8) + 3, y 7, y 8, -(y 10 + y 11) + 3, y 10, y 11, 0, 0, 0] :=
    round2_run (a := y 10) (b := y 11) (by decide) (by decide) rfl rfl rfl
  have g4 : round2 [y 0, y 1, y 2, y 3, y 4, y 5, y 6, y 7, y 8, y 9, y 10, y 11, y 12, y 13, y 14] 4 [-(y 1 + y 2) + 3, y 1, y 2, -(y 4 + y 5) + 3, y 4, y 5, -(y 7 + y 8) + 3, y 7, y 8, -(y 10 + y 11) + 3, y 10, y 11, 0, 0, 0] = .ok [-(y 1 + y 2) + 3, y 1, y 2, -(y 4 + y 5) + 3, y 4, y 5, -(y 7 + y 8) + 3, y 7, y 8, -(y 10 + y 11) + 3, y 10, y 11, -(y 13 + y 14) + 3, y 13, y 14] :=
    round2_run (a := y 13) (b := y 14) (by decide) (by decide) rfl rfl rfl
  have g := below5 g0 g1 g2 g3 g4
  try dsimp only
  rw [show ([y 0, y 1, y 2, y 3, y 4, y 5, y 6, y 7, y 8, y 9, y 10, y 11, y 12, y 13, y 14]).length = 15 from rfl, g, M.ok_bind]
  refine ⟨_, rfl, ?_⟩
  rw [decide_eq_true_eq]
  simp only [List.cons.injEq, and_true, true_and]
  constructor
  · rintro ⟨h0, h1, h2, h3, h4⟩ i hi
    interval_cases i
    exacts [h0, h1, h2, h3, h4]
  · intro h
    exact ⟨h 0 (by decide), h 1 (by decide), h 2 (by decide), h 3 (by decide), h 4 (by decide)⟩

/-- a function that reads nothing: 3, 0, 0 in every window -/
def forget2 : Int → Mem T → M (Mem T) := fun _ m => .ok { m with val := fun p => if p.blk = 0 then some (if p.off % 3 = 0 then 3 else 0) else m.val p }

theorem C125_unnoticed_transform2 {xv : Nat → T} : Test.windowTransform2Of xv forget2 = .ok true ∧ ∃ m' : Mem T, forget2 15 (blocks [((List.range 15).map xv)]) = .ok m' ∧ m'.val ⟨0, 1⟩ = some 0 := by
  obtain ⟨b, h1, h2⟩ := C125_transform2_partial (T := T) (xv := xv) (K := forget2) (y := fun q => if q % 3 = 0 then 3 else 0) rfl (fun q hq => by interval_cases q <;> rfl)
  refine ⟨?_, _, rfl, rfl⟩
  rw [h1, h2.2]
  intro i hi
  interval_cases i <;> simp

example : Test.windowTransform2Of (T := ℚ) (fun n => 3 * n + 1) forget2 = .ok true := C125_unnoticed_transform2.1

/-- src/window_iterator.t.cpp:83-110: the test passes exactly if the first value in each window fits the values left in it and in the other vector.  Full statement: it passes only if the values are those computed from what the vectors held before the call; that is false, see below -/
theorem C125_transform3_partial {xv xx : Nat → T} {K : Int → Mem T → M (Mem T)} {m' : Mem T} {y z : Nat → T} (run : K 15 (blocks [((List.range 15).map xv), ((List.range 5).map xx)]) = .ok m')
    (hy : ∀ q : Nat, q < 15 → m'.val ⟨0, (q : Int)⟩ = some (y q)) (hz : ∀ q : Nat, q < 5 → m'.val ⟨1, (q : Int)⟩ = some (z q)) :
    ∃ b, Test.windowTransform3Of xv xx K = .ok b ∧ (b = true ↔ ∀ i : Nat, i < 5 → y (3 * i) = -(y (3 * i + 1) + y (3 * i + 2)) + 3 * z i) := by
  have a0 : m'.val ⟨0, 0⟩ = some (y 0) := hy 0 (by decide)
  have a1 : m'.val ⟨0, 1⟩ = some (y 1) := hy 1 (by decide)
  have a2 : m'.val ⟨0, 2⟩ = some (y 2) := hy 2 (by decide)
  have a3 : m'.val ⟨0, 3⟩ = some (y 3) := hy 3 (by decide)
  have a4 : m'.val ⟨0, 4⟩ = some (y 4) := hy 4 (by decide)
  have a5 : m'.val ⟨0, 5⟩ = some (y 5) := hy 5 (by decide)
  have a6 : m'.val ⟨0, 6⟩ = some (y 6) := hy 6 (by decide)
  have a7 : m'.val ⟨0, 7⟩ = some (y 7) := hy 7 (by decide)
  have a8 : m'.val ⟨0, 8⟩ = some (y 8) := hy 8 (by decide)
  have a9 : m'.val ⟨0, 9⟩ = some (y 9) := hy 9 (by decide)
  have a10 : m'.val ⟨0, 10⟩ = some (y 10) := hy 10 (by decide)
  have a11 : m'.val ⟨0, 11⟩ = some (y 11) := hy 11 (by decide)
  have a12 : m'.val ⟨0, 12⟩ = some (y 12) := hy 12 (by decide)
  have a13 : m'.val ⟨0, 13⟩ = some (y 13) := hy 13 (by decide)
  have a14 : m'.val ⟨0, 14⟩ = some (y 14) := hy 14 (by decide)
  have b0 : m'.val ⟨1, 0⟩ = some (z 0) := hz 0 (by decide)
  have b1 : m'.val ⟨1, 1⟩ = some (z 1) := hz 1 (by decide)
  have b2 : m'.val ⟨1, 2⟩ = some (z 2) := hz 2 (by decide)
  have b3 : m'.val ⟨1, 3⟩ = some (z 3) := hz 3 (by decide)
  have b4 : m'.val ⟨1, 4⟩ = some (z 4) := hz 4 (by decide)
  have f : newBlock m' 0 [xv 0, xv 1, xv 2, xv 3, xv 4, xv 5, xv 6, xv 7, xv 8, xv 9, xv 10, xv 11, xv 12, xv 13, xv 14] = [y 0, y 1, y 2, y 3, y 4, y 5, y 6, y 7, y 8, y 9, y 10, y 11, y 12, y 13, y 14] := by
    simp [newBlock, a0, a1, a2, a3, a4, a5, a6, a7, a8, a9, a10, a11, a12, a13, a14]
  have fx : newBlock m' 1 [xx 0, xx 1, xx 2, xx 3, xx 4] = [z 0, z 1, z 2, z 3, z 4] := by
    simp [newBlock, b0, b1, b2, b3, b4]
  have run' : K 15 (devMem [(⟨[xv 0, xv 1, xv 2, xv 3, xv 4, xv 5, xv 6, xv 7, xv 8, xv 9, xv 10, xv 11, xv 12, xv 13, xv 14], [xv 0, xv 1, xv 2, xv 3, xv 4, xv 5, xv 6, xv 7, xv 8, xv 9, xv 10, xv 11, xv 12, xv 13, xv 14], [(Dim.I, ⟨1, 6, 1⟩), (Dim.W, ⟨1, 4, 1⟩)], true, 0⟩ : DevVec T), (⟨[xx 0, xx 1, xx 2, xx 3, xx 4], [xx 0, xx 1, xx 2, xx 3, xx 4], [(Dim.I, ⟨1, 6, 1⟩)], true, 0⟩ : DevVec T)]) = .ok m' := run
  unfold Test.windowTransform3Of
  rw [show mkB .I 1 5 = .ok (Dim.I, ⟨1, 6, 1⟩) from rfl, M.ok_bind, show mkB .W 1 3 = .ok (Dim.W, ⟨1, 4, 1⟩) from rfl, M.ok_bind,
    show DevVec.makeVec (0 : T) [(Dim.I, ⟨1, 6, 1⟩), (Dim.W, ⟨1, 4, 1⟩)] = .ok ⟨List.replicate 15 0, List.replicate 15 0, [(Dim.I, ⟨1, 6, 1⟩), (Dim.W, ⟨1, 4, 1⟩)], true, 0⟩ from rfl, M.ok_bind]
  try dsimp only
  rw [show DevVec.makeVec (0 : T) [(Dim.I, ⟨1, 6, 1⟩)] = .ok ⟨List.replicate 5 0, List.replicate 5 0, [(Dim.I, ⟨1, 6, 1⟩)], true, 0⟩ from rfl, M.ok_bind]
  simp only [show DevVec.fill xv (⟨List.replicate 15 0, List.replicate 15 0, [(Dim.I, ⟨1, 6, 1⟩), (Dim.W, ⟨1, 4, 1⟩)], true, 0⟩ : DevVec T) = (⟨[xv 0, xv 1, xv 2, xv 3, xv 4, xv 5, xv 6, xv 7, xv 8, xv 9, xv 10, xv 11, xv 12, xv 13, xv 14], [xv 0, xv 1, xv 2, xv 3, xv 4, xv 5, xv 6, xv 7, xv 8, xv 9, xv 10, xv 11, xv 12, xv 13, xv 14], [(Dim.I, ⟨1, 6, 1⟩), (Dim.W, ⟨1, 4, 1⟩)], true, 0⟩ : DevVec T) from fill_of xv (n := 15) rfl rfl]
  simp only [show DevVec.fill xx (⟨List.replicate 5 0, List.replicate 5 0, [(Dim.I, ⟨1, 6, 1⟩)], true, 0⟩ : DevVec T) = (⟨[xx 0, xx 1, xx 2, xx 3, xx 4], [xx 0, xx 1, xx 2, xx 3, xx 4], [(Dim.I, ⟨1, 6, 1⟩)], true, 0⟩ : DevVec T) from fill_of xx (n := 5) rfl rfl]
  try dsimp only
  rw [show sizeOfVec 0 [(⟨[xv 0, xv 1, xv 2, xv 3, xv 4, xv 5, xv 6, xv 7, xv 8, xv 9, xv 10, xv 11, xv 12, xv 13, xv 14], [xv 0, xv 1, xv 2, xv 3, xv 4, xv 5, xv 6, xv 7, xv 8, xv 9, xv 10, xv 11, xv 12, xv 13, xv 14], [(Dim.I, ⟨1, 6, 1⟩), (Dim.W, ⟨1, 4, 1⟩)], true, 0⟩ : DevVec T), (⟨[xx 0, xx 1, xx 2, xx 3, xx 4], [xx 0, xx 1, xx 2, xx 3, xx 4], [(Dim.I, ⟨1, 6, 1⟩)], true, 0⟩ : DevVec T)] = .ok 15 from rfl, M.ok_bind]
  rw [onDevice_two run', M.ok_bind]
  rw [std0_after, M.ok_bind]
  dsimp only
  rw [f]
  rw [host1_after, M.ok_bind]
  dsimp only
  rw [fx]
  have g0 : round3 [y 0, y 1, y 2, y 3, y 4, y 5, y 6, y 7, y 8, y 9, y 10, y 11, y 12, y 13, y 14] [z 0, z 1, z 2, z 3, z 4] 0 (List.replicate 15 0) = .ok [-(y 1 + y 2) + 3 * z 0, y 1, y 2, 0, 0, 0, 0, 0, 0, 0, 0, 0, 0, 0, 0] :=
    round3_run (a := y 1) (b := y 2) (c := z 0) (by decide) (by decide) rfl rfl rfl rfl
  have g1 : round3 [y 0, y 1, y 2, y 3, y 4, y 5, y 6, y 7, y 8, y 9, y 10, y 11, y 12, y 13, y 14] [z 0, z 1, z 2, z 3, z 4] 1 [-(y 1 + y 2) + 3 * z 0, y 1, y 2, 0, 0, 0, 0, 0, 0, 0, 0, 0, 0, 0, 0] = .ok [-(y 1 + y 2) + 3 * z 0, y 1, y 2, -(y 4 + y 5) + 3 * z 1, y 4, y 5, 0, 0, 0, 0, 0, 0, 0, 0, 0] :=
    round3_run (a := y 4) (b := y 5) (c := z 1) (by decide) (by decide) rfl rfl rfl rfl
  have g2 : round3 [y 0, y 1, y 2, y 3, y 4, y 5, y 6, y 7, y 8, y 9, y 10, y 11, y 12, y 13, y 14] [z 0, z 1, z 2, z 3, z 4] 2 [-(y 1 + y 2) + 3 * z 0, y 1, y 2, -(y 4 + y 5) + 3 * z 1, y 4, y 5, 0, 0, 0, 0, 0, 0, 0, 0, 0] = .ok [-(y 1 + y 2) + 3 * z 0, y 1, y 2, -(y 4 + y 5) + 3 * z 1, y 4, y 5, -(y 7 + y 8) + 3 * z 2, y 7, y 8, 0, 0, 0, 0, 0, 0] :=
    round3_run (a := y 7) (b := y 8) (c := z 2) (by decide) (by decide) rfl rfl rfl rfl
  have g3 : round3 [y 0, y 1, y 2, y 3, y 4, y 5, y 6, y 7, y 8, y 9, y 10, y 11, y 12, y 13, y 14] [z 0, z 1, z 2, z 3, z 4] 3 [-(y 1 + y 2) + 3 * z 0, y 1, y 2, -(y 4 + y 5) + 3 * z 1, y 4, y 5, -(y 7 + y 8) + 3 * z 2, y 7, y 8, 0, 0, 0, 0, 0, 0] = .ok [-(y 1 + y 2) + 3 * z 0, y 1, y 2, -(y 4 + y 5) + 3 * z 1, y 4, y 5, -(y 7 + y 8) + 3 * z 2, y 7, y 8, -(y 10 + y 11) + 3 * z 3, y 10, y 11, 0, 0, 0] :=
    round3_run (a := y 10) (b := y 11) (c := z 3) (by decide) (by decide) rfl rfl rfl rfl
  have g4 : round3 [y 0, y 1, y 2, y 3, y 4, y 5, y 6, y 7, y 8, y 9, y 10, y 11, y 12, y 13, y 14] [z 0, z 1, z 2, z 3, z 4] 4 [-(y 1 + y 2) + 3 * z 0, y 1, y 2, -(y 4 + y 5) + 3 * z 1, y 4, y 5, -(y 7 + y 8) + 3 * z 2, y 7, y 8, -(y 10 + y 11) + 3 * z 3, y 10, y 11, 0, 0, 0] = .ok [-(y 1 + y 2) + 3 * z 0, y 1, y 2, -(y 4 + y 5) + 3 * z 1, y 4, y 5, -(y 7 + y 8) + 3 * z 2, y 7, y 8, -(y 10 + y 11) + 3 * z 3, y 10, y 11, -(y 13 + y 14) + 3 * z 4, y 13, y 14] :=
    round3_run (a := y 13) (b := y 14) (c := z 4) (by decide) (by decide) rfl rfl rfl rfl
  have g := below5 g0 g1 g2 g3 g4
  try dsimp only
  rw [show ([y 0, y 1, y 2, y 3, y 4, y 5, y 6, y 7, y 8, y 9, y 10, y 11, y 12, y 13, y 14]).length = 15 from rfl, g, M.ok_bind]
  refine ⟨_, rfl, ?_⟩
  rw [decide_eq_true_eq]
  simp only [List.cons.injEq, and_true, true_and]
  constructor
  · rintro ⟨h0, h1, h2, h3, h4⟩ i hi
    interval_cases i
    exacts [h0, h1, h2, h3, h4]
  · intro h
    exact ⟨h 0 (by decide), h 1 (by decide), h 2 (by decide), h 3 (by decide), h 4 (by decide)⟩

/-- a function that does not read the windows -/
def forget3 : Int → Mem T → M (Mem T) := fun _ m => .ok { m with val := fun p => if p.blk = 0 then some (if p.off % 3 = 0 then 3 * (m.val ⟨1, p.off / 3⟩).getD 0 else 0) else m.val p }

theorem C125_unnoticed_transform3 {xv xx : Nat → T} : Test.windowTransform3Of xv xx forget3 = .ok true ∧ ∃ m' : Mem T, forget3 15 (blocks [((List.range 15).map xv), ((List.range 5).map xx)]) = .ok m' ∧ m'.val ⟨0, 1⟩ = some 0 := by
  obtain ⟨b, h1, h2⟩ := C125_transform3_partial (T := T) (xv := xv) (xx := xx) (K := forget3) (y := fun q => if q % 3 = 0 then 3 * xx (q / 3) else 0) (z := xx) rfl (fun q hq => by interval_cases q <;> rfl) (fun q hq => by interval_cases q <;> rfl)
  refine ⟨?_, _, rfl, rfl⟩
  rw [h1, h2.2]
  intro i hi
  interval_cases i <;> simp

example : Test.windowTransform3Of (T := ℚ) (fun n => 3 * n + 1) (fun n => n / 2) forget3 = .ok true := C125_unnoticed_transform3.1

/-- src/window_iterator.t.cpp:112-140: the test passes exactly if the first two values in each window fit the values left in it and in the other vector.  Full statement: it passes only if the values are those computed from what the vectors held before the call; that is false, see below -/
theorem C125_transform4_partial {xv xx : Nat → T} {K : Int → Mem T → M (Mem T)} {m' : Mem T} {y z : Nat → T} (run : K 20 (blocks [((List.range 20).map xv), ((List.range 5).map xx)]) = .ok m')
    (hy : ∀ q : Nat, q < 20 → m'.val ⟨0, (q : Int)⟩ = some (y q)) (hz : ∀ q : Nat, q < 5 → m'.val ⟨1, (q : Int)⟩ = some (z q)) :
    ∃ b, Test.windowTransform4Of xv xx K = .ok b ∧ (b = true ↔ ∀ i : Nat, i < 5 → y (4 * i) = -(y (4 * i + 2) + y (4 * i + 3)) - 3 * z i ∧ y (4 * i + 1) = 6 * z i) := by
  have a0 : m'.val ⟨0, 0⟩ = some (y 0) := hy 0 (by decide)
  have a1 : m'.val ⟨0, 1⟩ = some (y 1) := hy 1 (by decide)
  have a2 : m'.val ⟨0, 2⟩ = some (y 2) := hy 2 (by decide)
  have a3 : m'.val ⟨0, 3⟩ = some (y 3) := hy 3 (by decide)
  have a4 : m'.val ⟨0, 4⟩ = some (y 4) := hy 4 (by decide)
  have a5 : m'.val ⟨0, 5⟩ = some (y 5) := hy 5 (by decide)
  have a6 : m'.val ⟨0, 6⟩ = some (y 6) := hy 6 (by decide)
  have a7 : m'.val ⟨0, 7⟩ = some (y 7) := hy 7 (by decide)
  have a8 : m'.val ⟨0, 8⟩ = some (y 8) := hy 8 (by decide)
  have a9 : m'.val ⟨0, 9⟩ = some (y 9) := hy 9 (by decide)
  have a10 : m'.val ⟨0, 10⟩ = some (y 10) := hy 10 (by decide)
  have a11 : m'.val ⟨0, 11⟩ = some (y 11) := hy 11 (by decide)
  have a12 : m'.val ⟨0, 12⟩ = some (y 12) := hy 12 (by decide)
  have a13 : m'.val ⟨0, 13⟩ = some (y 13) := hy 13 (by decide)
  have a14 : m'.val ⟨0, 14⟩ = some (y 14) := hy 14 (by decide)
  have a15 : m'.val ⟨0, 15⟩ = some (y 15) := hy 15 (by decide)
  have a16 : m'.val ⟨0, 16⟩ = some (y 16) := hy 16 (by decide)
  have a17 : m'.val ⟨0, 17⟩ = some (y 17) := hy 17 (by decide)
  have a18 : m'.val ⟨0, 18⟩ = some (y 18) := hy 18 (by decide)
  have a19 : m'.val ⟨0, 19⟩ = some (y 19) := hy 19 (by decide)
  have b0 : m'.val ⟨1, 0⟩ = some (z 0) := hz 0 (by decide)
  have b1 : m'.val ⟨1, 1⟩ = some (z 1) := hz 1 (by decide)
  have b2 : m'.val ⟨1, 2⟩ = some (z 2) := hz 2 (by decide)
  have b3 : m'.val ⟨1, 3⟩ = some (z 3) := hz 3 (by decide)
  have b4 : m'.val ⟨1, 4⟩ = some (z 4) := hz 4 (by decide)
  have f : newBlock m' 0 [xv 0, xv 1, xv 2, xv 3, xv 4, xv 5, xv 6, xv 7, xv 8, xv 9, xv 10, xv 11, xv 12, xv 13, xv 14, xv 15, xv 16, xv 17, xv 18, xv 19] = [y 0, y 1, y 2, y 3, y 4, y 5, y 6, y 7, y 8, y 9, y 10, y 11, y 12, y 13, y 14, y 15, y 16, y 17, y 18, y 19] := by
    simp [newBlock, a0, a1, a2, a3, a4, a5, a6, a7, a8, a9, a10, a11, a12, a13, a14, a15, a16, a17, a18, a19]
  have fx : newBlock m' 1 [xx 0, xx 1, xx 2, xx 3, xx 4] = [z 0, z 1, z 2, z 3, z 4] := by
    simp [newBlock, b0, b1, b2, b3, b4]
  have run' : K 20 (devMem [(⟨[xv 0, xv 1, xv 2, xv 3, xv 4, xv 5, xv 6, xv 7, xv 8, xv 9, xv 10, xv 11, xv 12, xv 13, xv 14, xv 15, xv 16, xv 17, xv 18, xv 19], [xv 0, xv 1, xv 2, xv 3, xv 4, xv 5, xv 6, xv 7, xv 8, xv 9, xv 10, xv 11, xv 12, xv 13, xv 14, xv 15, xv 16, xv 17, xv 18, xv 19], [(Dim.I, ⟨1, 6, 1⟩), (Dim.W, ⟨1, 5, 1⟩)], true, 0⟩ : DevVec T), (⟨[xx 0, xx 1, xx 2, xx 3, xx 4], [xx 0, xx 1, xx 2, xx 3, xx 4], [(Dim.I, ⟨1, 6, 1⟩)], true, 0⟩ : DevVec T)]) = .ok m' := run
  unfold Test.windowTransform4Of
  rw [show mkB .I 1 5 = .ok (Dim.I, ⟨1, 6, 1⟩) from rfl, M.ok_bind, show mkB .W 1 4 = .ok (Dim.W, ⟨1, 5, 1⟩) from rfl, M.ok_bind,
    show DevVec.makeVec (0 : T) [(Dim.I, ⟨1, 6, 1⟩), (Dim.W, ⟨1, 5, 1⟩)] = .ok ⟨List.replicate 20 0, List.replicate 20 0, [(Dim.I, ⟨1, 6, 1⟩), (Dim.W, ⟨1, 5, 1⟩)], true, 0⟩ from rfl, M.ok_bind]
  try dsimp only
  rw [show DevVec.makeVec (0 : T) [(Dim.I, ⟨1, 6, 1⟩)] = .ok ⟨List.replicate 5 0, List.replicate 5 0, [(Dim.I, ⟨1, 6, 1⟩)], true, 0⟩ from rfl, M.ok_bind]
  simp only [show DevVec.fill xv (⟨List.replicate 20 0, List.replicate 20 0, [(Dim.I, ⟨1, 6, 1⟩), (Dim.W, ⟨1, 5, 1⟩)], true, 0⟩ : DevVec T) = (⟨[xv 0, xv 1, xv 2, xv 3, xv 4, xv 5, xv 6, xv 7, xv 8, xv 9, xv 10, xv 11, xv 12, xv 13, xv 14, xv 15, xv 16, xv 17, xv 18, xv 19], [xv 0, xv 1, xv 2, xv 3, xv 4, xv 5, xv 6, xv 7, xv 8, xv 9, xv 10, xv 11, xv 12, xv 13, xv 14, xv 15, xv 16, xv 17, xv 18, xv 19], [(Dim.I, ⟨1, 6, 1⟩), (Dim.W, ⟨1, 5, 1⟩)], true, 0⟩ : DevVec T) from fill_of xv (n := 20) rfl rfl]
  simp only [show DevVec.fill xx (⟨List.replicate 5 0, List.replicate 5 0, [(Dim.I, ⟨1, 6, 1⟩)], true, 0⟩ : DevVec T) = (⟨[xx 0, xx 1, xx 2, xx 3, xx 4], [xx 0, xx 1, xx 2, xx 3, xx 4], [(Dim.I, ⟨1, 6, 1⟩)], true, 0⟩ : DevVec T) from fill_of xx (n := 5) rfl rfl]
  try dsimp only
  rw [show sizeOfVec 0 [(⟨[xv 0, xv 1, xv 2, xv 3, xv 4, xv 5, xv 6, xv 7, xv 8, xv 9, xv 10, xv 11, xv 12, xv 13, xv 14, xv 15, xv 16, xv 17, xv 18, xv 19], [xv 0, xv 1, xv 2, xv 3, xv 4, xv 5, xv 6, xv 7, xv 8, xv 9, xv 10, xv 11, xv 12, xv 13, xv 14, xv 15, xv 16, xv 17, xv 18, xv 19], [(Dim.I, ⟨1, 6, 1⟩), (Dim.W, ⟨1, 5, 1⟩)], true, 0⟩ : DevVec T), (⟨[xx 0, xx 1, xx 2, xx 3, xx 4], [xx 0, xx 1, xx 2, xx 3, xx 4], [(Dim.I, ⟨1, 6, 1⟩)], true, 0⟩ : DevVec T)] = .ok 20 from rfl, M.ok_bind]
  rw [onDevice_two run', M.ok_bind]
  rw [std0_after, M.ok_bind]
  dsimp only
  rw [f]
  rw [host1_after, M.ok_bind]
  dsimp only
  rw [fx]
  have g0 : round4 [y 0, y 1, y 2, y 3, y 4, y 5, y 6, y 7, y 8, y 9, y 10, y 11, y 12, y 13, y 14, y 15, y 16, y 17, y 18, y 19] [z 0, z 1, z 2, z 3, z 4] 0 (List.replicate 20 0) = .ok [-(y 2 + y 3) - 3 * z 0, 6 * z 0, y 2, y 3, 0, 0, 0, 0, 0, 0, 0, 0, 0, 0, 0, 0, 0, 0, 0, 0] :=
    round4_run (a := y 2) (b := y 3) (c := z 0) (by decide) (by decide) rfl rfl rfl rfl
  have g1 : round4 [y 0, y 1, y 2, y 3, y 4, y 5, y 6, y 7, y 8, y 9, y 10, y 11, y 12, y 13, y 14, y 15, y 16, y 17, y 18, y 19] [z 0, z 1, z 2, z 3, z 4] 1 [-(y 2 + y 3) - 3 * z 0, 6 * z 0, y 2, y 3, 0, 0, 0, 0, 0, 0, 0, 0, 0, 0, 0, 0, 0, 0, 0, 0] = .ok [-(y 2 + y 3) - 3 * z 0, 6 * z 0, y 2, y 3, -(y 6 + y 7) - 3 * z 1, 6 * z 1, y 6, y 7, 0, 0, 0, 0, 0, 0, 0, 0, 0, 0, 0, 0] :=
    round4_run (a := y 6) (b := y 7) (c := z 1) (by decide) (by decide) rfl rfl rfl rfl
  have g2 : round4 [y 0, y 1, y 2, y 3, y 4, y 5, y 6, y 7, y 8, y 9, y 10, y 11, y 12, y 13, y 14, y 15, y 16, y 17, y 18, y 19] [z 0, z 1, z 2, z 3, z 4] 2 [-(y 2 + y 3) - 3 * z 0, 6 * z 0, y 2, y 3, -(y 6 + y 7) - 3 * z 1, 6 * z 1, y 6, y 7, 0, 0, 0, 0, 0, 0, 0, 0, 0, 0, 0, 0] = .ok [-(y 2 + y 3) - 3 * z 0, 6 * z 0, y 2, y 3, -(y 6 + y 7) - 3 * z 1, 6 * z 1, y 6, y 7, -(y 10 + y 11) - 3 * z 2, 6 * z 2, y 10, y 11, 0, 0, 0, 0, 0, 0, 0, 0] :=
    round4_run (a := y 10) (b := y 11) (c := z 2) (by decide) (by decide) rfl rfl rfl rfl
  have g3 : round4 [y 0, y 1, y 2, y 3, y 4, y 5, y 6, y 7, y 8, y 9, y 10, y 11, y 12, y 13, y 14, y 15, y 16, y 17, y 18, y 19] [z 0, z 1, z 2, z 3, z 4] 3 [-(y 2 + y 3) - 3 * z 0, 6 * z 0, y 2, y 3, -(y 6 + y 7) - 3 * z 1, 6 * z 1, y 6, y 7, -(y 10 + y 11) - 3 * z 2, 6 * z 2, y 10, y 11, 0, 0, 0, 0, 0, 0, 0, 0] = .ok [-(y 2 + y 3) - 3 * z 0, 6 * z 0, y 2, y 3, -(y 6 + y 7) - 3 * z 1, 6 * z 1, y 6, y 7, -(y 10 + y 11) - 3 * z 2, 6 * z 2, y 10, y 11, -(y 14 + y 15) - 3 * z 3, 6 * z 3, y 14, y 15, 0, 0, 0, 0] :=
    round4_run (a := y 14) (b := y 15) (c := z 3) (by decide) (by decide) rfl rfl rfl rfl
  have g4 : round4 [y 0, y 1, y 2, y 3, y 4, y 5, y 6, y 7, y 8, y 9, y 10, y 11, y 12, y 13, y 14, y 15, y 16, y 17, y 18, y 19] [z 0, z 1, z 2, z 3, z 4] 4 [-(y 2 + y 3) - 3 * z 0, 6 * z 0, y 2, y 3, -(y 6 + y 7) - 3 * z 1, 6 * z 1, y 6, y 7, -(y 10 + y 11) - 3 * z 2, 6 * z 2, y 10, y 11, -(y 14 + y 15) - 3 * z 3, 6 * z 3, y 14, y 15, 0, 0, 0, 0] = .ok [-(y 2 + y 3) - 3 * z 0, 6 * z 0, y 2, y 3, -(y 6 + y 7) - 3 * z 1, 6 * z 1, y 6, y 7, -(y 10 + y 11) - 3 * z 2, 6 * z 2, y 10, y 11, -(y 14 + y 15) - 3 * z 3, 6 * z 3, y 14, y 15, -(y 18 + y 19) - 3 * z 4, 6 * z 4, y 18, y 19] :=
    round4_run (a := y 18) (b := y 19) (c := z 4) (by decide) (by decide) rfl rfl rfl rfl
  have g := below5 g0 g1 g2 g3 g4
  try dsimp only
  rw [show ([y 0, y 1, y 2, y 3, y 4, y 5, y 6, y 7, y 8, y 9, y 10, y 11, y 12, y 13, y 14, y 15, y 16, y 17, y 18, y 19]).length = 20 from rfl, g, M.ok_bind]
  refine ⟨_, rfl, ?_⟩
  rw [decide_eq_true_eq]
  simp only [List.cons.injEq, and_true, true_and]
  constructor
  · rintro ⟨h0, k0, h1, k1, h2, k2, h3, k3, h4, k4⟩ i hi
    interval_cases i
    exacts [⟨h0, k0⟩, ⟨h1, k1⟩, ⟨h2, k2⟩, ⟨h3, k3⟩, ⟨h4, k4⟩]
  · intro h
    exact ⟨(h 0 (by decide)).1, (h 0 (by decide)).2, (h 1 (by decide)).1, (h 1 (by decide)).2, (h 2 (by decide)).1, (h 2 (by decide)).2, (h 3 (by decide)).1, (h 3 (by decide)).2,
      (h 4 (by decide)).1, (h 4 (by decide)).2⟩

/-- a function that does not read the windows -/
def forget4 : Int → Mem T → M (Mem T) := fun _ m => .ok { m with val := fun p => if p.blk = 0 then some (if p.off % 4 = 0 then 0 - 3 * (m.val ⟨1, p.off / 4⟩).getD 0 else if p.off % 4 = 1 then 6 * (m.val ⟨1, p.off / 4⟩).getD 0 else 0) else m.val p }

theorem C125_unnoticed_transform4 {xv xx : Nat → T} : Test.windowTransform4Of xv xx forget4 = .ok true ∧ ∃ m' : Mem T, forget4 20 (blocks [((List.range 20).map xv), ((List.range 5).map xx)]) = .ok m' ∧ m'.val ⟨0, 2⟩ = some 0 := by
  obtain ⟨b, h1, h2⟩ := C125_transform4_partial (T := T) (xv := xv) (xx := xx) (K := forget4) (y := fun q => if q % 4 = 0 then 0 - 3 * xx (q / 4) else if q % 4 = 1 then 6 * xx (q / 4) else 0) (z := xx) rfl (fun q hq => by interval_cases q <;> rfl) (fun q hq => by interval_cases q <;> rfl)
  refine ⟨?_, _, rfl, rfl⟩
  rw [h1, h2.2]
  intro i hi
  interval_cases i <;> simp

example : Test.windowTransform4Of (T := ℚ) (fun n => 3 * n + 1) (fun n => n / 2) forget4 = .ok true := C125_unnoticed_transform4.1

/-- src/window_iterator.t.cpp:142-171: the test passes exactly if the right side fits the values left in the other two vectors.  Full statement: it passes only if the values are those computed from what the vectors held before the call; that is false, see below -/
theorem C125_rhs_partial {xv xx xr : Nat → T} {K : Int → Mem T → M (Mem T)} {m' : Mem T} {y z r : Nat → T} (run : K 20 (blocks [((List.range 20).map xv), ((List.range 5).map xx), ((List.range 5).map xr)]) = .ok m')
    (hy : ∀ q : Nat, q < 20 → m'.val ⟨0, (q : Int)⟩ = some (y q)) (hz : ∀ q : Nat, q < 5 → m'.val ⟨1, (q : Int)⟩ = some (z q)) (hr : ∀ q : Nat, q < 5 → m'.val ⟨2, (q : Int)⟩ = some (r q)) :
    ∃ b, Test.windowRhsOf xv xx xr K = .ok b ∧ (b = true ↔ ∀ i : Nat, i < 5 → r i = xr i - y (4 * i + 1) * z i) := by
  have a0 : m'.val ⟨0, 0⟩ = some (y 0) := hy 0 (by decide)
  have a1 : m'.val ⟨0, 1⟩ = some (y 1) := hy 1 (by decide)
  have a2 : m'.val ⟨0, 2⟩ = some (y 2) := hy 2 (by decide)
  have a3 : m'.val ⟨0, 3⟩ = some (y 3) := hy 3 (by decide)
  have a4 : m'.val ⟨0, 4⟩ = some (y 4) := hy 4 (by decide)
  have a5 : m'.val ⟨0, 5⟩ = some (y 5) := hy 5 (by decide)
  have a6 : m'.val ⟨0, 6⟩ = some (y 6) := hy 6 (by decide)
  have a7 : m'.val ⟨0, 7⟩ = some (y 7) := hy 7 (by decide)
  have a8 : m'.val ⟨0, 8⟩ = some (y 8) := hy 8 (by decide)
  have a9 : m'.val ⟨0, 9⟩ = some (y 9) := hy 9 (by decide)
  have a10 : m'.val ⟨0, 10⟩ = some (y 10) := hy 10 (by decide)
  have a11 : m'.val ⟨0, 11⟩ = some (y 11) := hy 11 (by decide)
  have a12 : m'.val ⟨0, 12⟩ = some (y 12) := hy 12 (by decide)
  have a13 : m'.val ⟨0, 13⟩ = some (y 13) := hy 13 (by decide)
  have a14 : m'.val ⟨0, 14⟩ = some (y 14) := hy 14 (by decide)
  have a15 : m'.val ⟨0, 15⟩ = some (y 15) := hy 15 (by decide)
  have a16 : m'.val ⟨0, 16⟩ = some (y 16) := hy 16 (by decide)
  have a17 : m'.val ⟨0, 17⟩ = some (y 17) := hy 17 (by decide)
  have a18 : m'.val ⟨0, 18⟩ = some (y 18) := hy 18 (by decide)
  have a19 : m'.val ⟨0, 19⟩ = some (y 19) := hy 19 (by decide)
  have b0 : m'.val ⟨1, 0⟩ = some (z 0) := hz 0 (by decide)
  have b1 : m'.val ⟨1, 1⟩ = some (z 1) := hz 1 (by decide)
  have b2 : m'.val ⟨1, 2⟩ = some (z 2) := hz 2 (by decide)
  have b3 : m'.val ⟨1, 3⟩ = some (z 3) := hz 3 (by decide)
  have b4 : m'.val ⟨1, 4⟩ = some (z 4) := hz 4 (by decide)
  have c0 : m'.val ⟨2, 0⟩ = some (r 0) := hr 0 (by decide)
  have c1 : m'.val ⟨2, 1⟩ = some (r 1) := hr 1 (by decide)
  have c2 : m'.val ⟨2, 2⟩ = some (r 2) := hr 2 (by decide)
  have c3 : m'.val ⟨2, 3⟩ = some (r 3) := hr 3 (by decide)
  have c4 : m'.val ⟨2, 4⟩ = some (r 4) := hr 4 (by decide)
  have f : newBlock m' 0 [xv 0, xv 1, xv 2, xv 3, xv 4, xv 5, xv 6, xv 7, xv 8, xv 9, xv 10, xv 11, xv 12, xv 13, xv 14, xv 15, xv 16, xv 17, xv 18, xv 19] = [y 0, y 1, y 2, y 3, y 4, y 5, y 6, y 7, y 8, y 9, y 10, y 11, y 12, y 13, y 14, y 15, y 16, y 17, y 18, y 19] := by
    simp [newBlock, a0, a1, a2, a3, a4, a5, a6, a7, a8, a9, a10, a11, a12, a13, a14, a15, a16, a17, a18, a19]
  have fx : newBlock m' 1 [xx 0, xx 1, xx 2, xx 3, xx 4] = [z 0, z 1, z 2, z 3, z 4] := by
    simp [newBlock, b0, b1, b2, b3, b4]
  have fr : newBlock m' 2 [xr 0, xr 1, xr 2, xr 3, xr 4] = [r 0, r 1, r 2, r 3, r 4] := by
    simp [newBlock, c0, c1, c2, c3, c4]
  have run' : K 20 (devMem [(⟨[xv 0, xv 1, xv 2, xv 3, xv 4, xv 5, xv 6, xv 7, xv 8, xv 9, xv 10, xv 11, xv 12, xv 13, xv 14, xv 15, xv 16, xv 17, xv 18, xv 19], [xv 0, xv 1, xv 2, xv 3, xv 4, xv 5, xv 6, xv 7, xv 8, xv 9, xv 10, xv 11, xv 12, xv 13, xv 14, xv 15, xv 16, xv 17, xv 18, xv 19], [(Dim.I, ⟨1, 6, 1⟩), (Dim.W, ⟨1, 5, 1⟩)], true, 0⟩ : DevVec T), (⟨[xx 0, xx 1, xx 2, xx 3, xx 4], [xx 0, xx 1, xx 2, xx 3, xx 4], [(Dim.I, ⟨1, 6, 1⟩)], true, 0⟩ : DevVec T), (⟨[xr 0, xr 1, xr 2, xr 3, xr 4], [xr 0, xr 1, xr 2, xr 3, xr 4], [(Dim.I, ⟨1, 6, 1⟩)], true, 0⟩ : DevVec T)]) = .ok m' := run
  unfold Test.windowRhsOf
  rw [show mkB .I 1 5 = .ok (Dim.I, ⟨1, 6, 1⟩) from rfl, M.ok_bind, show mkB .W 1 4 = .ok (Dim.W, ⟨1, 5, 1⟩) from rfl, M.ok_bind,
    show DevVec.makeVec (0 : T) [(Dim.I, ⟨1, 6, 1⟩), (Dim.W, ⟨1, 5, 1⟩)] = .ok ⟨List.replicate 20 0, List.replicate 20 0, [(Dim.I, ⟨1, 6, 1⟩), (Dim.W, ⟨1, 5, 1⟩)], true, 0⟩ from rfl, M.ok_bind]
  try dsimp only
  rw [show DevVec.makeVec (0 : T) [(Dim.I, ⟨1, 6, 1⟩)] = .ok ⟨List.replicate 5 0, List.replicate 5 0, [(Dim.I, ⟨1, 6, 1⟩)], true, 0⟩ from rfl, M.ok_bind, M.ok_bind]
  simp only [show DevVec.fill xv (⟨List.replicate 20 0, List.replicate 20 0, [(Dim.I, ⟨1, 6, 1⟩), (Dim.W, ⟨1, 5, 1⟩)], true, 0⟩ : DevVec T) = (⟨[xv 0, xv 1, xv 2, xv 3, xv 4, xv 5, xv 6, xv 7, xv 8, xv 9, xv 10, xv 11, xv 12, xv 13, xv 14, xv 15, xv 16, xv 17, xv 18, xv 19], [xv 0, xv 1, xv 2, xv 3, xv 4, xv 5, xv 6, xv 7, xv 8, xv 9, xv 10, xv 11, xv 12, xv 13, xv 14, xv 15, xv 16, xv 17, xv 18, xv 19], [(Dim.I, ⟨1, 6, 1⟩), (Dim.W, ⟨1, 5, 1⟩)], true, 0⟩ : DevVec T) from fill_of xv (n := 20) rfl rfl]
  simp only [show DevVec.fill xx (⟨List.replicate 5 0, List.replicate 5 0, [(Dim.I, ⟨1, 6, 1⟩)], true, 0⟩ : DevVec T) = (⟨[xx 0, xx 1, xx 2, xx 3, xx 4], [xx 0, xx 1, xx 2, xx 3, xx 4], [(Dim.I, ⟨1, 6, 1⟩)], true, 0⟩ : DevVec T) from fill_of xx (n := 5) rfl rfl]
  simp only [show DevVec.fill xr (⟨List.replicate 5 0, List.replicate 5 0, [(Dim.I, ⟨1, 6, 1⟩)], true, 0⟩ : DevVec T) = (⟨[xr 0, xr 1, xr 2, xr 3, xr 4], [xr 0, xr 1, xr 2, xr 3, xr 4], [(Dim.I, ⟨1, 6, 1⟩)], true, 0⟩ : DevVec T) from fill_of xr (n := 5) rfl rfl]
  try dsimp only
  rw [show std 2 [(⟨[xv 0, xv 1, xv 2, xv 3, xv 4, xv 5, xv 6, xv 7, xv 8, xv 9, xv 10, xv 11, xv 12, xv 13, xv 14, xv 15, xv 16, xv 17, xv 18, xv 19], [xv 0, xv 1, xv 2, xv 3, xv 4, xv 5, xv 6, xv 7, xv 8, xv 9, xv 10, xv 11, xv 12, xv 13, xv 14, xv 15, xv 16, xv 17, xv 18, xv 19], [(Dim.I, ⟨1, 6, 1⟩), (Dim.W, ⟨1, 5, 1⟩)], true, 0⟩ : DevVec T), (⟨[xx 0, xx 1, xx 2, xx 3, xx 4], [xx 0, xx 1, xx 2, xx 3, xx 4], [(Dim.I, ⟨1, 6, 1⟩)], true, 0⟩ : DevVec T), (⟨[xr 0, xr 1, xr 2, xr 3, xr 4], [xr 0, xr 1, xr 2, xr 3, xr 4], [(Dim.I, ⟨1, 6, 1⟩)], true, 0⟩ : DevVec T)] = .ok ([xr 0, xr 1, xr 2, xr 3, xr 4], [(⟨[xv 0, xv 1, xv 2, xv 3, xv 4, xv 5, xv 6, xv 7, xv 8, xv 9, xv 10, xv 11, xv 12, xv 13, xv 14, xv 15, xv 16, xv 17, xv 18, xv 19], [xv 0, xv 1, xv 2, xv 3, xv 4, xv 5, xv 6, xv 7, xv 8, xv 9, xv 10, xv 11, xv 12, xv 13, xv 14, xv 15, xv 16, xv 17, xv 18, xv 19], [(Dim.I, ⟨1, 6, 1⟩), (Dim.W, ⟨1, 5, 1⟩)], true, 0⟩ : DevVec T), (⟨[xx 0, xx 1, xx 2, xx 3, xx 4], [xx 0, xx 1, xx 2, xx 3, xx 4], [(Dim.I, ⟨1, 6, 1⟩)], true, 0⟩ : DevVec T), (⟨[xr 0, xr 1, xr 2, xr 3, xr 4], [xr 0, xr 1, xr 2, xr 3, xr 4], [(Dim.I, ⟨1, 6, 1⟩)], true, 0⟩ : DevVec T)]) from rfl, M.ok_bind]
  dsimp only
  try dsimp only
  rw [show sizeOfVec 0 [(⟨[xv 0, xv 1, xv 2, xv 3, xv 4, xv 5, xv 6, xv 7, xv 8, xv 9, xv 10, xv 11, xv 12, xv 13, xv 14, xv 15, xv 16, xv 17, xv 18, xv 19], [xv 0, xv 1, xv 2, xv 3, xv 4, xv 5, xv 6, xv 7, xv 8, xv 9, xv 10, xv 11, xv 12, xv 13, xv 14, xv 15, xv 16, xv 17, xv 18, xv 19], [(Dim.I, ⟨1, 6, 1⟩), (Dim.W, ⟨1, 5, 1⟩)], true, 0⟩ : DevVec T), (⟨[xx 0, xx 1, xx 2, xx 3, xx 4], [xx 0, xx 1, xx 2, xx 3, xx 4], [(Dim.I, ⟨1, 6, 1⟩)], true, 0⟩ : DevVec T), (⟨[xr 0, xr 1, xr 2, xr 3, xr 4], [xr 0, xr 1, xr 2, xr 3, xr 4], [(Dim.I, ⟨1, 6, 1⟩)], true, 0⟩ : DevVec T)] = .ok 20 from rfl, M.ok_bind, onDevice_three run', M.ok_bind]
  rw [std2_after, M.ok_bind]
  dsimp only
  rw [fr]
  rw [host0_three, M.ok_bind]
  dsimp only
  rw [f]
  rw [host1_three, M.ok_bind]
  dsimp only
  rw [fx]
  have g : forBelow 5 (roundRhs [y 0, y 1, y 2, y 3, y 4, y 5, y 6, y 7, y 8, y 9, y 10, y 11, y 12, y 13, y 14, y 15, y 16, y 17, y 18, y 19] [z 0, z 1, z 2, z 3, z 4]) [xr 0, xr 1, xr 2, xr 3, xr 4] = .ok [xr 0 - y 1 * z 0, xr 1 - y 5 * z 1, xr 2 - y 9 * z 2, xr 3 - y 13 * z 3, xr 4 - y 17 * z 4] :=
    below5 (roundRhs_run (by decide) (by decide) rfl rfl rfl rfl) (roundRhs_run (by decide) (by decide) rfl rfl rfl rfl) (roundRhs_run (by decide) (by decide) rfl rfl rfl rfl) (roundRhs_run (by decide) (by decide) rfl rfl rfl rfl) (roundRhs_run (by decide) (by decide) rfl rfl rfl rfl)
  try dsimp only
  rw [g, M.ok_bind]
  refine ⟨_, rfl, ?_⟩
  rw [decide_eq_true_eq]
  simp only [List.cons.injEq, and_true]
  constructor
  · rintro ⟨h0, h1, h2, h3, h4⟩ i hi
    interval_cases i
    exacts [h0, h1, h2, h3, h4]
  · intro h
    exact ⟨h 0 (by decide), h 1 (by decide), h 2 (by decide), h 3 (by decide), h 4 (by decide)⟩

/-- a function that clears the windows and leaves the right side as it is -/
def forget5 : Int → Mem T → M (Mem T) := fun _ m => .ok { m with val := fun p => if p.blk = 0 then some (0) else m.val p }

theorem C125_unnoticed_rhs {xv xx xr : Nat → T} : Test.windowRhsOf xv xx xr forget5 = .ok true ∧ ∃ m' : Mem T, forget5 20 (blocks [((List.range 20).map xv), ((List.range 5).map xx), ((List.range 5).map xr)]) = .ok m' ∧ m'.val ⟨0, 1⟩ = some 0 ∧ m'.val ⟨2, 0⟩ = some (xr 0) := by
  obtain ⟨b, h1, h2⟩ := C125_rhs_partial (T := T) (xv := xv) (xx := xx) (xr := xr) (K := forget5) (y := fun _ => 0) (z := xx) (r := xr) rfl (fun q hq => by interval_cases q <;> rfl) (fun q hq => by interval_cases q <;> rfl) (fun q hq => by interval_cases q <;> rfl)
  refine ⟨?_, _, rfl, rfl, rfl⟩
  rw [h1, h2.2]
  intro i hi
  simp

example : Test.windowRhsOf (T := ℚ) (fun n => 3 * n + 1) (fun n => n / 2) (fun n => 7 - n) forget5 = .ok true := C125_unnoticed_rhs.1

end Verif
