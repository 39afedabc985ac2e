import Verif.Lemmas.LapackSmooth
import Mathlib.LinearAlgebra.FiniteDimensional.Basic
import Mathlib.LinearAlgebra.Matrix.ToLin
import Mathlib.Tactic.Linarith

/-
A solver that keeps LAPACK's promise exists, and memories for the examples.
-/

namespace Verif.F

section
variable {T : Type} [Field T]

theorem sum_one_fin {N : Nat} {g : Int → T} : sum 1 (N : Int) g = ∑ i : Fin N, g ((i : Nat) + 1) := by
  induction N with
  | zero => simp [sum, irange]
  | succ N ih =>
    rw [Fin.sum_univ_castSucc]
    push_cast
    rw [sum_upto (hi := (N : Int)) (by omega), ih]
    rfl

theorem exists_solution {d : Int} {A : Int → Int → T} (h : Regular d A) (b : Int → T) : ∃ x, Solution d A b x := by
  by_cases hd : 0 ≤ d
  · obtain ⟨N, rfl⟩ := Int.eq_ofNat_of_zero_le hd
    let L : (Fin N → T) →ₗ[T] (Fin N → T) := Matrix.mulVecLin (Matrix.of fun i j : Fin N => A ((i : Nat) + 1) ((j : Nat) + 1))
    let ext : (Fin N → T) → Int → T := fun y c => if h : 1 ≤ c ∧ c ≤ N then y ⟨(c - 1).toNat, by omega⟩ else 0
    have ext_at : ∀ (y : Fin N → T) (i : Fin N), ext y ((i : Nat) + 1) = y i := by
      intro y i
      have hi := i.2
      simp only [ext]
      rw [dif_pos (by omega)]
      congr 1
      ext
      simp
    have row : ∀ (y : Fin N → T) (i : Fin N), sum 1 (N : Int) (fun c => A ((i : Nat) + 1) c * ext y c) = L y i := by
      intro y i
      rw [sum_one_fin]
      simp only [L, Matrix.mulVecLin_apply, Matrix.mulVec, dotProduct, Matrix.of_apply, ext_at]
    have at_ : ∀ a : Int, 1 ≤ a → a ≤ N → ∃ i : Fin N, a = (i : Nat) + 1 := fun a h1 h2 => ⟨⟨(a - 1).toNat, by omega⟩, by simp; omega⟩
    have inj : Function.Injective L := by
      rw [injective_iff_map_eq_zero]
      intro y hy
      funext i
      have := h (ext y) (fun a h1 h2 => by
        obtain ⟨i, rfl⟩ := at_ a h1 h2
        rw [row, hy]
        rfl) ((i : Nat) + 1) (by omega) (by have := i.2; omega)
      rw [ext_at] at this
      exact this
    obtain ⟨y, hy⟩ := LinearMap.injective_iff_surjective.1 inj fun i => b ((i : Nat) + 1)
    refine ⟨ext y, fun a h1 h2 => ?_⟩
    obtain ⟨i, rfl⟩ := at_ a h1 h2
    rw [row, hy]
  · exact ⟨0, fun a h1 h2 => by omega⟩

/-- a solver -/
noncomputable def aSolver : Lapack T := by
  classical
  exact fun d A b => if h : ∃ x, Solution d A b x then h.choose else 0

theorem aSolver_ok : Solves (aSolver (T := T)) := fun d A b h => by
  unfold aSolver
  rw [dif_pos (exists_solution h b)]
  exact (exists_solution h b).choose_spec

end

/-- a memory with blocks `3 1 1 3` in array 0, and the table `0 0 0, 1 0 0` -/
def exBlk : Mem Rat := ⟨fun q => some (if q.blk = 0 then (if q.off % 8 = 0 ∨ q.off % 8 = 6 then 3 else 1) else q.off), fun q => some (if q.off = 3 then 1 else 0)⟩

/-- a memory of ones, and a table of zeros -/
def exOne : Mem Rat := ⟨fun _ => some 1, fun _ => some 0⟩

/-- contents of an array of the first memory -/
def exBlkV (a : Arr) (is : List Int) : Rat :=
  let q := a.ptr.add (colMajor a.dims is)
  if q.blk = 0 then (if q.off % 8 = 0 ∨ q.off % 8 = 6 then 3 else 1) else q.off

theorem exBlk_holds {a : Arr} : Holds exBlk a (exBlkV a) := fun _ hi => ⟨hi, rfl⟩

/-- the table -/
def exBlkO (s : Int) : List Int := if s = 2 then [1, 0, 0] else [0, 0, 0]

theorem apart_blk' {a b : Arr} (h : a.ptr.blk ≠ b.ptr.blk) : Apart a b := fun _ _ _ _ e => h (by simpa [Ptr.add] using congrArg Ptr.blk e)

theorem exBlk_problem : BlockProblem exBlk [(0, 1), (0, 2), (0, 1)] 2 2 (offsets ⟨7, 0⟩ 3 2) (dofst3d ⟨0, 0⟩ 2 2 0 0 0 1 2 1) (dof3d ⟨1, 0⟩ 2 0 0 0 1 2 1 0)
    (dof3d ⟨2, 0⟩ 2 0 0 0 1 2 1 1) (dof3d ⟨3, 0⟩ 2 0 0 0 1 2 1 0) exBlkO (exBlkV (dofst3d ⟨0, 0⟩ 2 2 0 0 0 1 2 1)) (exBlkV (dof3d ⟨1, 0⟩ 2 0 0 0 1 2 1 0))
    (exBlkV (dof3d ⟨2, 0⟩ 2 0 0 0 1 2 1 1)) where
  size := by decide
  dof := by decide
  table := fun s h1 h2 => by
    have : s = 1 ∨ s = 2 := by omega
    rcases this with rfl | rfl
    all_goals
      refine ⟨rfl, fun c z hz => ?_⟩
      match c, hz with
      | 0, hz => simp [exBlkO] at hz; subst hz; exact ⟨by decide, rfl⟩
      | 1, hz => simp [exBlkO] at hz; subst hz; exact ⟨by decide, rfl⟩
      | 2, hz => simp [exBlkO] at hz; subst hz; exact ⟨by decide, rfl⟩
  holdsSt := exBlk_holds
  holdsB := exBlk_holds
  holdsU := exBlk_holds
  holdsR := ⟨_, exBlk_holds⟩
  inSt := fun p hp s a b h1 h2 h3 h4 h5 h6 => by
    rw [inBounds3] at hp
    obtain ⟨i, j, k, rfl, ⟨q1, q2⟩, ⟨q3, q4⟩, q5, q6⟩ := hp
    simp only [dofst3d, InBounds, and_true]
    omega
  inF := fun p hp a h1 h2 => by
    rw [inBounds3] at hp
    obtain ⟨i, j, k, rfl, ⟨q1, q2⟩, ⟨q3, q4⟩, q5, q6⟩ := hp
    simp only [dof3d, InBounds, and_true]
    omega
  inU := fun p hp a h1 h2 => by
    rw [inBounds3] at hp
    obtain ⟨i, j, k, rfl, ⟨q1, q2⟩, ⟨q3, q4⟩, q5, q6⟩ := hp
    simp only [dof3d, InBounds, and_true]
    omega
  inR := fun p hp a h1 h2 => by
    rw [inBounds3] at hp
    obtain ⟨i, j, k, rfl, ⟨q1, q2⟩, ⟨q3, q4⟩, q5, q6⟩ := hp
    simp only [dof3d, InBounds, and_true]
    omega
  near := fun p hp s a h1 h2 h3 h4 => by
    rw [inBounds3] at hp
    obtain ⟨i, j, k, rfl, ⟨q1, q2⟩, ⟨q3, q4⟩, q5, q6⟩ := hp
    have : s = 2 := by omega
    subst this
    simp only [dof3d, InBounds, and_true, exBlkO, shift, if_true, List.zipWith_cons_cons, List.zipWith_nil_left]
    omega
  apartSt := fun a ha => by
    simp only [List.mem_cons, List.not_mem_nil, or_false] at ha
    rcases ha with rfl | rfl <;> exact apart_blk' (by decide)
  apartF := fun a ha => by
    simp only [List.mem_cons, List.not_mem_nil, or_false] at ha
    rcases ha with rfl | rfl <;> exact apart_blk' (by decide)
  apartU := apart_blk' (by decide)

theorem exBlk_regular : ∀ p, InBounds [(0, 1), (0, 2), (0, 1)] p → Regular 2 (coup 2 (exBlkV (dofst3d ⟨0, 0⟩ 2 2 0 0 0 1 2 1)) 1 p) := by
  intro p hp x hx
  rw [inBounds3] at hp
  obtain ⟨i, j, k, rfl, ⟨q1, q2⟩, ⟨q3, q4⟩, q5, q6⟩ := hp
  have c : ∀ a b : Int, coup 2 (exBlkV (dofst3d ⟨0, 0⟩ 2 2 0 0 0 1 2 1)) 1 [i, j, k] a b =
      if (2 * ((b - 1) * 2 + a - 1) + 8 * (i + 2 * j + 6 * k)) % 8 = 0 ∨ (2 * ((b - 1) * 2 + a - 1) + 8 * (i + 2 * j + 6 * k)) % 8 = 6 then 3 else 1 := by
    intro a b
    simp only [coup, exBlkV, dofst3d, colMajor, Ptr.add, if_true]
    congr 2
    · congr 1; ring
    · congr 1; ring
  have e1 := hx 1 (by decide) (by decide)
  have e2 := hx 2 (by decide) (by decide)
  have s2 : ∀ g : Int → Rat, sum 1 2 g = g 1 + g 2 := fun g => by simp [sum, irange, List.range_succ]
  rw [s2] at e1 e2
  rw [c, c, if_pos (by omega), if_neg (by omega)] at e1
  rw [c, c, if_neg (by omega), if_pos (by omega)] at e2
  intro a h1 h2
  have : a = 1 ∨ a = 2 := by omega
  rcases this with rfl | rfl <;> linarith

/-- one cell, one unknown, the equation `1 x = 1` with `x = 1` -/
theorem exOne_problem : BlockProblem exOne [(0, 0), (0, 0), (0, 0)] 1 1 (offsets ⟨7, 0⟩ 3 1) (dofst3d ⟨0, 0⟩ 1 1 0 0 0 0 0 0) (dof3d ⟨1, 0⟩ 1 0 0 0 0 0 0 0)
    (dof3d ⟨2, 0⟩ 1 0 0 0 0 0 0 0) (dof3d ⟨3, 0⟩ 1 0 0 0 0 0 0 0) (fun _ => [0, 0, 0]) (fun _ => 1) (fun _ => 1) (fun _ => 1) where
  size := by decide
  dof := by decide
  table := fun s h1 h2 => by
    have : s = 1 := by omega
    subst this
    refine ⟨rfl, fun c z hz => ?_⟩
    match c, hz with
    | 0, hz => simp at hz; subst hz; exact ⟨by decide, rfl⟩
    | 1, hz => simp at hz; subst hz; exact ⟨by decide, rfl⟩
    | 2, hz => simp at hz; subst hz; exact ⟨by decide, rfl⟩
  holdsSt := fun _ hi => ⟨hi, rfl⟩
  holdsB := fun _ hi => ⟨hi, rfl⟩
  holdsU := fun _ hi => ⟨hi, rfl⟩
  holdsR := ⟨fun _ => 1, fun _ hi => ⟨hi, rfl⟩⟩
  inSt := fun p hp s a b h1 h2 h3 h4 h5 h6 => by
    rw [inBounds3] at hp
    obtain ⟨i, j, k, rfl, ⟨q1, q2⟩, ⟨q3, q4⟩, q5, q6⟩ := hp
    simp only [dofst3d, InBounds, and_true]
    omega
  inF := fun p hp a h1 h2 => by
    rw [inBounds3] at hp
    obtain ⟨i, j, k, rfl, ⟨q1, q2⟩, ⟨q3, q4⟩, q5, q6⟩ := hp
    simp only [dof3d, InBounds, and_true]
    omega
  inU := fun p hp a h1 h2 => by
    rw [inBounds3] at hp
    obtain ⟨i, j, k, rfl, ⟨q1, q2⟩, ⟨q3, q4⟩, q5, q6⟩ := hp
    simp only [dof3d, InBounds, and_true]
    omega
  inR := fun p hp a h1 h2 => by
    rw [inBounds3] at hp
    obtain ⟨i, j, k, rfl, ⟨q1, q2⟩, ⟨q3, q4⟩, q5, q6⟩ := hp
    simp only [dof3d, InBounds, and_true]
    omega
  near := fun p hp s a h1 h2 h3 h4 => by omega
  apartSt := fun a ha => by
    simp only [List.mem_cons, List.not_mem_nil, or_false] at ha
    rcases ha with rfl | rfl <;> exact apart_blk' (by decide)
  apartF := fun a ha => by
    simp only [List.mem_cons, List.not_mem_nil, or_false] at ha
    rcases ha with rfl | rfl <;> exact apart_blk' (by decide)
  apartU := apart_blk' (by decide)

theorem sum_single {g : Int → Rat} : sum 1 1 g = g 1 := by simp [sum, irange]

theorem exOne_regular (p : List Int) : Regular 1 (coup 1 (fun _ => (1 : Rat)) 1 p) := fun x hx a h1 h2 => by
  have := hx 1 (by decide) (by decide)
  rw [sum_single] at this
  have e : a = 1 := by omega
  subst e
  simpa [coup] using this

theorem exOne_solves (p : List Int) : BlockEqn 1 1 (fun _ => [0, 0, 0]) (fun _ => (1 : Rat)) (fun _ => 1) (fun _ => 1) p := fun a _ _ => by
  rw [sum_single, coupled, sum_single]
  simp [coup]

end Verif.F
