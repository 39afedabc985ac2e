import Mathlib.Algebra.Order.Ring.Rat
import Mathlib.Tactic.IntervalCases
import Mathlib.Tactic.NormNum
import Verif.Lemmas.SmoothRun

/-
Data for the examples and witnesses of the smoothers.
-/

namespace Verif

/-- rows of displacement tables: 3 points in one dimension, 5 and 9 in two, 7 in three -/
def rows1 : List (List Int) := [[0], [-1], [1]]
def rows2 : List (List Int) := [[0, 0], [-1, 0], [1, 0], [0, -1], [0, 1]]
def rows3 : List (List Int) := [[0, 0, 0], [-1, 0, 0], [1, 0, 0], [0, -1, 0], [0, 1, 0], [0, 0, -1], [0, 0, 1]]

def rows9 : List (List Int) := [[0, 0], [-1, 0], [1, 0], [0, -1], [0, 1], [-1, -1], [1, -1], [-1, 1], [1, 1]]

/-- every cell contains a positive number; blocks 21, 22, 23, 24 contain the tables -/
def exSm : Mem Rat where
  val q := some (1 + q.blk + (q.off % 7 : Int))
  ints q := (if q.blk = 21 then rows1 else if q.blk = 22 then rows2 else if q.blk = 23 then rows3 else rows9).flatten[q.off.toNat]?

def exO (rows : List (List Int)) (s : Int) : List Int := rows[s.toNat]?.getD []
def exO1 := exO rows1
def exO2 := exO rows2
def exO3 := exO rows3

/-- contents of an array -/
def exC (a : F.Arr) (is : List Int) : Rat := 1 + (a.addrT is).blk + ((a.addrT is).off % 7 : Int)

theorem ex_holds (a : F.Arr) : F.Holds exSm a (exC a) := fun _ hi => ⟨hi, rfl⟩

theorem ex_apart {a b : F.Arr} (h : a.ptr.blk ≠ b.ptr.blk) : F.Apart a b := fun _ _ _ _ e => h (by
  have := congrArg Ptr.blk e
  exact this)

theorem exC_pos {a : F.Arr} {is : List Int} (h : 0 ≤ a.ptr.blk) : exC a is ≠ 0 := by
  unfold exC
  have h1 : (0 : Rat) ≤ ((a.addrT is).blk : Rat) := by
    have : (a.addrT is).blk = a.ptr.blk := rfl
    rw [this]
    exact_mod_cast h
  have h2 : (0 : Rat) ≤ (((a.addrT is).off % 7 : Int) : Rat) := by exact_mod_cast Int.emod_nonneg _ (by decide)
  have : (0 : Rat) < 1 + (a.addrT is).blk + ((a.addrT is).off % 7 : Int) := by linarith
  exact ne_of_gt this

theorem ex_table {N n : Nat} {rows : List (List Int)} {o : Ptr} {s : Int} (h0 : 0 ≤ s) (h1 : s < n)
    (h : ∀ s : Fin n, (exO rows s).length = N ∧ ∀ c : Fin N, ∃ z, (exO rows s)[c.val]? = some z ∧ F.IntEl exSm (F.offset0 o N n) [(c.val : Int), (s.val : Int)] z) :
    (exO rows s).length = N ∧ ∀ c : Nat, ∀ z, (exO rows s)[c]? = some z → F.IntEl exSm (F.offset0 o N n) [(c : Int), s] z := by
  obtain ⟨k, rfl⟩ := Int.eq_ofNat_of_zero_le h0
  obtain ⟨a, b⟩ := h ⟨k, by omega⟩
  refine ⟨a, fun c z hz => ?_⟩
  have hc : c < N := by
    rw [← a]
    exact (List.getElem?_eq_some_iff.1 hz).1
  obtain ⟨z', e, g⟩ := b ⟨c, hc⟩
  simp only at e
  rw [e] at hz
  injection hz with hz
  rw [← hz]
  exact g

def exT1 := F.sm1d ⟨1, 0⟩ 3 0 6
def exT2 := F.sm2d ⟨1, 0⟩ 5 0 0 6 7
def exT3 := F.sm3d ⟨1, 0⟩ 7 0 0 0 6 7 5
def exS1 := exC exT1
def exS2 := exC exT2
def exS3 := exC exT3
def exF1 := exC (F.box1d ⟨2, 0⟩ 0 6)
def exF2 := exC (F.box2d ⟨2, 0⟩ 0 0 6 7)
def exF3 := exC (F.box3d ⟨2, 0⟩ 0 0 0 6 7 5)
def exV1 := exC (F.box1d ⟨3, 0⟩ 0 6)
def exV2 := exC (F.box2d ⟨3, 0⟩ 0 0 6 7)
def exV3 := exC (F.box3d ⟨3, 0⟩ 0 0 0 6 7 5)

theorem ex_problem1 : F.Problem exSm [(1, 5)] 3 (F.offset0 ⟨21, 0⟩ 1 3) (F.sm1d ⟨1, 0⟩ 3 0 6) (F.box1d ⟨2, 0⟩ 0 6) (F.box1d ⟨3, 0⟩ 0 6)
    exO1 exS1 exF1 exV1 where
  size := by decide
  table := fun s h0 h1 => ex_table (N := 1) (n := 3) h0 h1 (by unfold F.IntEl; decide)
  holdsSt := ex_holds _
  holdsF := ex_holds _
  holdsU := ex_holds _
  inSt := fun p hp s h0 h1 => by
    rw [F.inBounds1] at hp
    obtain ⟨i, rfl, h⟩ := hp
    simp [F.sm1d, F.InBounds]; omega
  inF := fun p hp => by
    rw [F.inBounds1] at hp
    obtain ⟨i, rfl, h⟩ := hp
    simp [F.box1d, F.InBounds]; omega
  inU := fun p hp => by
    rw [F.inBounds1] at hp
    obtain ⟨i, rfl, h⟩ := hp
    simp [F.box1d, F.InBounds]; omega
  near := fun p hp s h0 h1 => by
    rw [F.inBounds1] at hp
    obtain ⟨i, rfl, h⟩ := hp
    interval_cases s <;> simp [F.box1d, F.InBounds, F.shift, exO1, exO, rows1] <;> omega
  apartSt := ex_apart (by decide)
  apartF := ex_apart (by decide)

theorem ex_problem2 : F.Problem exSm [(1, 5), (2, 6)] 5 (F.offset0 ⟨22, 0⟩ 2 5) (F.sm2d ⟨1, 0⟩ 5 0 0 6 7) (F.box2d ⟨2, 0⟩ 0 0 6 7) (F.box2d ⟨3, 0⟩ 0 0 6 7)
    exO2 exS2 exF2 exV2 where
  size := by decide
  table := fun s h0 h1 => ex_table (N := 2) (n := 5) h0 h1 (by unfold F.IntEl; decide)
  holdsSt := ex_holds _
  holdsF := ex_holds _
  holdsU := ex_holds _
  inSt := fun p hp s h0 h1 => by
    rw [F.inBounds2] at hp
    obtain ⟨i, j, rfl, h⟩ := hp
    simp [F.sm2d, F.InBounds]; omega
  inF := fun p hp => by
    rw [F.inBounds2] at hp
    obtain ⟨i, j, rfl, h⟩ := hp
    simp [F.box2d, F.InBounds]; omega
  inU := fun p hp => by
    rw [F.inBounds2] at hp
    obtain ⟨i, j, rfl, h⟩ := hp
    simp [F.box2d, F.InBounds]; omega
  near := fun p hp s h0 h1 => by
    rw [F.inBounds2] at hp
    obtain ⟨i, j, rfl, h⟩ := hp
    interval_cases s <;> simp [F.box2d, F.InBounds, F.shift, exO2, exO, rows2] <;> omega
  apartSt := ex_apart (by decide)
  apartF := ex_apart (by decide)

theorem ex_problem3 : F.Problem exSm [(1, 5), (2, 6), (1, 4)] 7 (F.offset0 ⟨23, 0⟩ 3 7) (F.sm3d ⟨1, 0⟩ 7 0 0 0 6 7 5) (F.box3d ⟨2, 0⟩ 0 0 0 6 7 5)
    (F.box3d ⟨3, 0⟩ 0 0 0 6 7 5) exO3 exS3 exF3 exV3 where
  size := by decide
  table := fun s h0 h1 => ex_table (N := 3) (n := 7) h0 h1 (by unfold F.IntEl; decide)
  holdsSt := ex_holds _
  holdsF := ex_holds _
  holdsU := ex_holds _
  inSt := fun p hp s h0 h1 => by
    rw [F.inBounds3] at hp
    obtain ⟨i, j, k, rfl, h⟩ := hp
    simp [F.sm3d, F.InBounds]; omega
  inF := fun p hp => by
    rw [F.inBounds3] at hp
    obtain ⟨i, j, k, rfl, h⟩ := hp
    simp [F.box3d, F.InBounds]; omega
  inU := fun p hp => by
    rw [F.inBounds3] at hp
    obtain ⟨i, j, k, rfl, h⟩ := hp
    simp [F.box3d, F.InBounds]; omega
  near := fun p hp s h0 h1 => by
    rw [F.inBounds3] at hp
    obtain ⟨i, j, k, rfl, h⟩ := hp
    interval_cases s <;> simp [F.box3d, F.InBounds, F.shift, exO3, exO, rows3] <;> omega
  apartSt := ex_apart (by decide)
  apartF := ex_apart (by decide)

theorem ex_nonzero {a : F.Arr} {is : List Int} : exC a is ≠ 0 := exC_pos (Nat.zero_le _)

theorem ex_odd1 : F.OddSteps 3 exO1 := fun s h1 h2 => by interval_cases s <;> decide
theorem ex_odd2 : F.OddSteps 5 exO2 := fun s h1 h2 => by interval_cases s <;> decide
theorem ex_odd3 : F.OddSteps 7 exO3 := fun s h1 h2 => by interval_cases s <;> decide

/-- contents of a cell after a run -/
def valOf (x : M (Mem Rat)) (q : Ptr) : Option Rat :=
  match x with
  | .ok m => m.val q
  | .error _ => none

theorem run_val {x : M (Mem Rat)} {m' : Mem Rat} {q : Ptr} {v : Option Rat} (h : x = .ok m') (hv : valOf x q = v) : m'.val q = v := by
  rw [h] at hv
  exact hv

/-- one-point stencil, `f` with a bound of its own -/
theorem ex_problem_f : F.Problem exSm [(1, 2)] 1 (F.offset0 ⟨21, 0⟩ 1 1) (F.sm1d ⟨1, 0⟩ 1 1 2) (F.box1d ⟨2, 0⟩ 0 3) (F.box1d ⟨3, 0⟩ 1 2)
    exO1 (exC (F.sm1d ⟨1, 0⟩ 1 1 2)) (exC (F.box1d ⟨2, 0⟩ 0 3)) (exC (F.box1d ⟨3, 0⟩ 1 2)) where
  size := by decide
  table := fun s h0 h1 => ex_table (N := 1) (n := 1) h0 h1 (by unfold F.IntEl; decide)
  holdsSt := ex_holds _
  holdsF := ex_holds _
  holdsU := ex_holds _
  inSt := fun p hp s h0 h1 => by
    rw [F.inBounds1] at hp
    obtain ⟨i, rfl, h⟩ := hp
    simp [F.sm1d, F.InBounds]; omega
  inF := fun p hp => by
    rw [F.inBounds1] at hp
    obtain ⟨i, rfl, h⟩ := hp
    simp [F.box1d, F.InBounds]; omega
  inU := fun p hp => by
    rw [F.inBounds1] at hp
    obtain ⟨i, rfl, h⟩ := hp
    simp [F.box1d, F.InBounds]; omega
  near := fun p hp s h0 h1 => by
    rw [F.inBounds1] at hp
    obtain ⟨i, rfl, h⟩ := hp
    interval_cases s <;> simp [F.box1d, F.InBounds, F.shift, exO1, exO, rows1] <;> omega
  apartSt := ex_apart (by decide)
  apartF := ex_apart (by decide)

/-- one-point stencil, a row with negative index -/
theorem ex_problem_n : F.Problem exSm [(0, 1), (-1, -1)] 1 (F.offset0 ⟨22, 0⟩ 2 1) (F.sm2d ⟨1, 0⟩ 1 (-2) (-3) 3 1) (F.box2d ⟨2, 0⟩ (-2) (-3) 3 1)
    (F.box2d ⟨3, 0⟩ (-2) (-3) 3 1) exO2 (exC (F.sm2d ⟨1, 0⟩ 1 (-2) (-3) 3 1)) (exC (F.box2d ⟨2, 0⟩ (-2) (-3) 3 1)) (exC (F.box2d ⟨3, 0⟩ (-2) (-3) 3 1)) where
  size := by decide
  table := fun s h0 h1 => ex_table (N := 2) (n := 1) h0 h1 (by unfold F.IntEl; decide)
  holdsSt := ex_holds _
  holdsF := ex_holds _
  holdsU := ex_holds _
  inSt := fun p hp s h0 h1 => by
    rw [F.inBounds2] at hp
    obtain ⟨i, j, rfl, h⟩ := hp
    simp [F.sm2d, F.InBounds]; omega
  inF := fun p hp => by
    rw [F.inBounds2] at hp
    obtain ⟨i, j, rfl, h⟩ := hp
    simp [F.box2d, F.InBounds]; omega
  inU := fun p hp => by
    rw [F.inBounds2] at hp
    obtain ⟨i, j, rfl, h⟩ := hp
    simp [F.box2d, F.InBounds]; omega
  near := fun p hp s h0 h1 => by
    rw [F.inBounds2] at hp
    obtain ⟨i, j, rfl, h⟩ := hp
    interval_cases s <;> simp [F.box2d, F.InBounds, F.shift, exO2, exO, rows2] <;> omega
  apartSt := ex_apart (by decide)
  apartF := ex_apart (by decide)

/-- nine points -/
theorem ex_problem9 : F.Problem exSm [(1, 2), (1, 2)] 9 (F.offset0 ⟨24, 0⟩ 2 9) (F.sm2d ⟨1, 0⟩ 9 0 0 3 3) (F.box2d ⟨2, 0⟩ 0 0 3 3)
    (F.box2d ⟨3, 0⟩ 0 0 3 3) (exO rows9) (exC (F.sm2d ⟨1, 0⟩ 9 0 0 3 3)) (exC (F.box2d ⟨2, 0⟩ 0 0 3 3)) (exC (F.box2d ⟨3, 0⟩ 0 0 3 3)) where
  size := by decide
  table := fun s h0 h1 => ex_table (N := 2) (n := 9) h0 h1 (by unfold F.IntEl; decide)
  holdsSt := ex_holds _
  holdsF := ex_holds _
  holdsU := ex_holds _
  inSt := fun p hp s h0 h1 => by
    rw [F.inBounds2] at hp
    obtain ⟨i, j, rfl, h⟩ := hp
    simp [F.sm2d, F.InBounds]; omega
  inF := fun p hp => by
    rw [F.inBounds2] at hp
    obtain ⟨i, j, rfl, h⟩ := hp
    simp [F.box2d, F.InBounds]; omega
  inU := fun p hp => by
    rw [F.inBounds2] at hp
    obtain ⟨i, j, rfl, h⟩ := hp
    simp [F.box2d, F.InBounds]; omega
  near := fun p hp s h0 h1 => by
    rw [F.inBounds2] at hp
    obtain ⟨i, j, rfl, h⟩ := hp
    interval_cases s <;> simp [F.box2d, F.InBounds, F.shift, exO, rows9] <;> omega
  apartSt := ex_apart (by decide)
  apartF := ex_apart (by decide)

end Verif
