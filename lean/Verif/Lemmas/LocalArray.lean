import Verif.Lemmas.AdjustRhs

/-
The local array of the right hand side routines.
-/

namespace Verif.F

set_option linter.unusedVariables false

variable {T : Type}

/-- the local array set to 0 -/
theorem zeros1 [Zero T] (ul0 : List Int → T) : ∃ ul, doSt (-1) 1 (fun i ul => locSet [(-1, 1)] ul [i] 0) ul0 = .ok ul ∧ ∀ is, InBounds [(-1, 1)] is → ul is = 0 := by
  refine ⟨_, doSt_fill (P := fun i is => is = [i]) (h := fun _ => 0) (fun i i1 i2 ul => locSet_fill (by simp only [InBounds, and_true]; omega) rfl) ul0, fun is hi => ?_⟩
  refine fillP_pos (h := fun _ => (0 : T)) ?_
  rw [inBounds1] at hi
  obtain ⟨i, rfl, h1⟩ := hi
  exact ⟨i, h1, rfl⟩

theorem face1_0 {e : Int} (he : -1 ≤ e ∧ e ≤ 1) (is : List Int) : (is = [e]) ↔ InBounds [(-1, 1)] is ∧ is[0]? = some e := by
  rw [inBounds1]
  constructor
  · rintro rfl
    exact ⟨⟨e, rfl, he⟩, rfl⟩
  · rintro ⟨⟨i, rfl, h1⟩, h⟩
    have h : i = e := by simpa using h
    subst h
    exact rfl

/-- the local array set to 0 -/
theorem zeros2 [Zero T] (ul0 : List Int → T) : ∃ ul, doSt (-1) 1 (fun i => doSt (-1) 1 (fun j ul => locSet [(-1, 1), (-1, 1)] ul [i, j] 0)) ul0 = .ok ul ∧ ∀ is, InBounds [(-1, 1), (-1, 1)] is → ul is = 0 := by
  refine ⟨_, doSt_fill (P := fun i is => ∃ j, (-1 ≤ j ∧ j ≤ 1) ∧ is = [i, j]) (h := fun _ => 0) (fun i i1 i2 ul => doSt_fill (P := fun j is => is = [i, j]) (h := fun _ => 0) (fun j j1 j2 ul => locSet_fill (by simp only [InBounds, and_true]; omega) rfl) ul) ul0, fun is hi => ?_⟩
  refine fillP_pos (h := fun _ => (0 : T)) ?_
  rw [inBounds2] at hi
  obtain ⟨i, j, rfl, h2, h1⟩ := hi
  exact ⟨i, h1, j, h2, rfl⟩

theorem face2_0 {e : Int} (he : -1 ≤ e ∧ e ≤ 1) (is : List Int) : (∃ j, (-1 ≤ j ∧ j ≤ 1) ∧ is = [e, j]) ↔ InBounds [(-1, 1), (-1, 1)] is ∧ is[0]? = some e := by
  rw [inBounds2]
  constructor
  · rintro ⟨j, h2, rfl⟩
    exact ⟨⟨e, j, rfl, h2, he⟩, rfl⟩
  · rintro ⟨⟨i, j, rfl, h2, h1⟩, h⟩
    have h : i = e := by simpa using h
    subst h
    exact ⟨j, h2, rfl⟩

theorem face2_1 {e : Int} (he : -1 ≤ e ∧ e ≤ 1) (is : List Int) : (∃ i, (-1 ≤ i ∧ i ≤ 1) ∧ is = [i, e]) ↔ InBounds [(-1, 1), (-1, 1)] is ∧ is[1]? = some e := by
  rw [inBounds2]
  constructor
  · rintro ⟨i, h1, rfl⟩
    exact ⟨⟨i, e, rfl, he, h1⟩, rfl⟩
  · rintro ⟨⟨i, j, rfl, h2, h1⟩, h⟩
    have h : j = e := by simpa using h
    subst h
    exact ⟨i, h1, rfl⟩

/-- the local array set to 0 -/
theorem zeros3 [Zero T] (ul0 : List Int → T) : ∃ ul, doSt (-1) 1 (fun k => doSt (-1) 1 (fun j => doSt (-1) 1 (fun i ul => locSet [(-1, 1), (-1, 1), (-1, 1)] ul [i, j, k] 0))) ul0 = .ok ul ∧ ∀ is, InBounds [(-1, 1), (-1, 1), (-1, 1)] is → ul is = 0 := by
  refine ⟨_, doSt_fill (P := fun k is => ∃ j, (-1 ≤ j ∧ j ≤ 1) ∧ ∃ i, (-1 ≤ i ∧ i ≤ 1) ∧ is = [i, j, k]) (h := fun _ => 0) (fun k k1 k2 ul => doSt_fill (P := fun j is => ∃ i, (-1 ≤ i ∧ i ≤ 1) ∧ is = [i, j, k]) (h := fun _ => 0) (fun j j1 j2 ul => doSt_fill (P := fun i is => is = [i, j, k]) (h := fun _ => 0) (fun i i1 i2 ul => locSet_fill (by simp only [InBounds, and_true]; omega) rfl) ul) ul) ul0, fun is hi => ?_⟩
  refine fillP_pos (h := fun _ => (0 : T)) ?_
  rw [inBounds3] at hi
  obtain ⟨i, j, k, rfl, h3, h2, h1⟩ := hi
  exact ⟨k, h3, j, h2, i, h1, rfl⟩

theorem face3_0 {e : Int} (he : -1 ≤ e ∧ e ≤ 1) (is : List Int) : (∃ k, (-1 ≤ k ∧ k ≤ 1) ∧ ∃ j, (-1 ≤ j ∧ j ≤ 1) ∧ is = [e, j, k]) ↔ InBounds [(-1, 1), (-1, 1), (-1, 1)] is ∧ is[0]? = some e := by
  rw [inBounds3]
  constructor
  · rintro ⟨k, h3, j, h2, rfl⟩
    exact ⟨⟨e, j, k, rfl, h3, h2, he⟩, rfl⟩
  · rintro ⟨⟨i, j, k, rfl, h3, h2, h1⟩, h⟩
    have h : i = e := by simpa using h
    subst h
    exact ⟨k, h3, j, h2, rfl⟩

theorem face3_1 {e : Int} (he : -1 ≤ e ∧ e ≤ 1) (is : List Int) : (∃ k, (-1 ≤ k ∧ k ≤ 1) ∧ ∃ i, (-1 ≤ i ∧ i ≤ 1) ∧ is = [i, e, k]) ↔ InBounds [(-1, 1), (-1, 1), (-1, 1)] is ∧ is[1]? = some e := by
  rw [inBounds3]
  constructor
  · rintro ⟨k, h3, i, h1, rfl⟩
    exact ⟨⟨i, e, k, rfl, h3, he, h1⟩, rfl⟩
  · rintro ⟨⟨i, j, k, rfl, h3, h2, h1⟩, h⟩
    have h : j = e := by simpa using h
    subst h
    exact ⟨k, h3, i, h1, rfl⟩

theorem face3_2 {e : Int} (he : -1 ≤ e ∧ e ≤ 1) (is : List Int) : (∃ j, (-1 ≤ j ∧ j ≤ 1) ∧ ∃ i, (-1 ≤ i ∧ i ≤ 1) ∧ is = [i, j, e]) ↔ InBounds [(-1, 1), (-1, 1), (-1, 1)] is ∧ is[2]? = some e := by
  rw [inBounds3]
  constructor
  · rintro ⟨j, h2, i, h1, rfl⟩
    exact ⟨⟨i, j, e, rfl, he, h2, h1⟩, rfl⟩
  · rintro ⟨⟨i, j, k, rfl, h3, h2, h1⟩, h⟩
    have h : k = e := by simpa using h
    subst h
    exact ⟨j, h2, i, h1, rfl⟩

end Verif.F
