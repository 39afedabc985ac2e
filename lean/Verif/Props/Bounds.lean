import Verif.Lemmas.Bounds

/-
C10, C11: bounds.
-/

namespace Verif
open Spec

/-! ### C10 -/

/-- a constructed bound covers exactly `f, ..., l` (inclusive) or `f, ..., l-1` (exclusive), with the given stride -/
theorem C10_make {f l s : Int} {incl : Bool} (h : InInt (l + 1)) (h' : InInt l) :
    ∃ b, Bounds.make f l s incl = .ok b ∧ b.stride = s ∧
      ∀ x, InRange b x ↔ f ≤ x ∧ (if incl then x ≤ l else x < l) := by
  cases incl
  · refine ⟨_, by simp only [Bounds.make]; rw [iadd_ok (by simpa using h'), M.ok_bind], rfl, fun x => ?_⟩
    simp [InRange]
  · refine ⟨_, by simp only [Bounds.make]; rw [iadd_ok (by simpa using h), M.ok_bind], rfl, fun x => ?_⟩
    simp [InRange]; omega

/-- `b + x`: for `x ≥ 0` the `x` indices above the top join the range, for `x < 0` the `-x` indices below the bottom join it -/
theorem C10_add {b : Bounds} {x : Int} (hne : b.first ≤ b.last) (hu : x ≥ 0 → InInt (b.last + x))
    (hl : x < 0 → InInt (-x) ∧ InInt (b.first + x)) :
    ∃ b', b.add x = .ok b' ∧ b'.stride = b.stride ∧
      ∀ y, InRange b' y ↔ InRange b y ∨ (x ≥ 0 ∧ b.last ≤ y ∧ y < b.last + x) ∨ (x < 0 ∧ b.first + x ≤ y ∧ y < b.first) := by
  by_cases hx : x ≥ 0
  · refine ⟨⟨b.first, b.last + x, b.stride⟩, by simp only [Bounds.add, Bounds.addEq]; rw [if_pos hx, iadd_ok (hu hx), M.ok_bind], rfl, fun y => ?_⟩
    simp only [InRange]; omega
  · obtain ⟨h1, h2⟩ := hl (by omega)
    refine ⟨⟨b.first - (0 - x), b.last, b.stride⟩, by
      simp only [Bounds.add, Bounds.subEq]
      rw [if_neg hx, isub_ok (by simpa using h1), M.ok_bind, isub_ok (by simpa using h2), M.ok_bind], rfl, fun y => ?_⟩
    simp only [InRange]; omega

/-- `b - x` adds the `x` indices below the bottom (and, for negative `x`, drops `-x` of them) -/
theorem C10_sub {b : Bounds} {x : Int} (h : InInt (b.first - x)) :
    ∃ b', b.sub x = .ok b' ∧ b'.stride = b.stride ∧ ∀ y, InRange b' y ↔ b.first - x ≤ y ∧ y < b.last :=
  ⟨⟨b.first - x, b.last, b.stride⟩, by simp only [Bounds.sub, Bounds.subEq]; rw [isub_ok h, M.ok_bind], rfl, fun _ => Iff.rfl⟩

/-- `expand(x)` adds `x` indices at both ends -/
theorem C10_expand {b : Bounds} {x : Int} (h : InInt (b.first - x)) (h' : InInt (b.last + x)) :
    ∃ b', b.expand x = .ok b' ∧ b'.stride = b.stride ∧ ∀ y, InRange b' y ↔ b.first - x ≤ y ∧ y < b.last + x :=
  ⟨⟨b.first - x, b.last + x, b.stride⟩, by simp only [Bounds.expand, Bounds.subEq, Bounds.addEq]; rw [isub_ok h, M.ok_bind, M.ok_bind, iadd_ok h', M.ok_bind],
    rfl, fun _ => Iff.rfl⟩

/-- `shift(x)` translates the range and the strided points by `x` -/
theorem C10_shift {b : Bounds} {x : Int} (h : InInt (b.first + x)) (h' : InInt (b.last + x)) :
    ∃ b', b.shift x = .ok b' ∧ (∀ y, InRange b' y ↔ InRange b (y - x)) ∧ ∀ y, IsPoint b' y ↔ IsPoint b (y - x) := by
  refine ⟨_, by simp only [Bounds.shift]; rw [iadd_ok h, M.ok_bind, iadd_ok h', M.ok_bind], fun y => ?_, fun y => ?_⟩
  · simp only [InRange]; omega
  · simp only [IsPoint, InRange]
    have : y - (b.first + x) = y - x - b.first := by omega
    rw [this]
    constructor
    · rintro ⟨h1, h2⟩; exact ⟨by omega, h2⟩
    · rintro ⟨h1, h2⟩; exact ⟨by omega, h2⟩

/-- a ghost width never widens a window dimension, and widens every other one at both ends -/
theorem C10_expand_bounds {b : Bounds} {x : Int} {d : Dim} (h : InInt (b.first - x)) (h' : InInt (b.last + x)) :
    ∃ b', expandBounds x d b = .ok b' ∧ b'.stride = b.stride ∧
      (d = Dim.W → b' = b) ∧ (d ≠ Dim.W → ∀ y, InRange b' y ↔ b.first - x ≤ y ∧ y < b.last + x) := by
  by_cases hd : d = Dim.W
  · exact ⟨b, by simp [expandBounds, hd], rfl, fun _ => rfl, fun h => absurd hd h⟩
  · obtain ⟨b', e, s, r⟩ := C10_expand h h'
    exact ⟨b', by simp only [expandBounds]; rw [if_neg hd, e], s, fun h => absurd h hd, fun _ => r⟩

/-- `unit_stride` keeps the end points and makes every index of the range a point -/
theorem C10_unit_stride (b : Bounds) :
    (∀ y, InRange b.unitStride y ↔ InRange b y) ∧ ∀ y, IsPoint b.unitStride y ↔ InRange b y :=
  ⟨fun _ => Iff.rfl, fun _ => ⟨fun h => h.1, fun h => ⟨h, one_dvd _⟩⟩⟩

/-- `lb()` and `ub()` are the least and greatest index -/
theorem C10_lb_ub {b : Bounds} (h : InInt (b.last - 1)) (hne : b.first < b.last) :
    ∃ u, b.ub = .ok u ∧ InRange b b.lb ∧ InRange b u ∧ ∀ y, InRange b y → b.lb ≤ y ∧ y ≤ u := by
  refine ⟨b.last - 1, isub_ok h, ?_, ?_, fun y hy => ?_⟩ <;> simp only [InRange, Bounds.lb] at * <;> omega

example : (⟨3, 8, 1⟩ : Bounds).first ≤ 8 ∧ InInt (8 + 2) ∧ InInt (-(-2)) ∧ InInt (3 + -2) := by decide
example : (⟨3, 8, 1⟩ : Bounds).add (-2) = .ok ⟨1, 8, 1⟩ ∧ (⟨3, 8, 1⟩ : Bounds).add 2 = .ok ⟨3, 10, 1⟩ := by decide

/-! ### C11 -/

/-- the extent of the iterator made from a bound (`(ub - lb + stride) / stride`) is the number of points, for every positive
stride -/
theorem C11_iterator_extent {b : Bounds} (hs : 1 ≤ b.stride) (h : b.first < b.last) (hl : InInt b.first) (hl' : InInt b.last)
    (hfit : b.last - 1 - b.first + b.stride ≤ 2147483647) :
    ∃ u, b.ub = .ok u ∧ subExtent [b.lb] [u] [b.stride] 0 = .ok ((pointList b).length : Int) := by
  unfold InInt at hl hl'
  refine ⟨b.last - 1, isub_ok (by unfold InInt; omega), ?_⟩
  rw [pointList_length hs h]
  have e := Int.add_mul_ediv_right (b.last - 1 - b.first) 1 (show b.stride ≠ 0 by omega)
  rw [one_mul] at e
  simp only [subExtent, get, List.getElem?_cons_zero, M.ok_bind, Bounds.lb]
  rw [isub_ok (by unfold InInt; omega), M.ok_bind, iadd_ok (by unfold InInt; omega), M.ok_bind,
    idiv_ok (by omega) (by omega) (by unfold InInt; omega), e]

example : 1 ≤ (⟨-3, 5, 2⟩ : Bounds).stride ∧ (⟨-3, 5, 2⟩ : Bounds).ub = .ok 4 ∧ subExtent [-3] [4] [2] 0 = .ok 4 := by decide

/-- `size()` counts the points exactly when the stride divides the length of the range -/
theorem C11_size_iff {b : Bounds} (hs : 1 ≤ b.stride) (h : b.first < b.last) (hfit : b.last - b.first ≤ 2147483647) :
    ∃ n, b.size = .ok n ∧ (n = ((pointList b).length : Int) ↔ b.stride ∣ b.last - b.first) := by
  refine ⟨(b.last - b.first) / b.stride, ?_, ?_⟩
  · unfold Bounds.size
    rw [isub_ok (by unfold InInt; omega), M.ok_bind, idiv_ok (by omega) (by omega) (by unfold InInt; omega)]
  · rw [pointList_length hs h]
    have e1 := Int.mul_ediv_add_emod (b.last - b.first) b.stride
    have e2 := Int.mul_ediv_add_emod (b.last - 1 - b.first) b.stride
    have m0 := Int.emod_nonneg (b.last - b.first) (show b.stride ≠ 0 by omega)
    have m1 := Int.emod_lt_of_pos (b.last - b.first) (show 0 < b.stride by omega)
    have m2 := Int.emod_nonneg (b.last - 1 - b.first) (show b.stride ≠ 0 by omega)
    have m3 := Int.emod_lt_of_pos (b.last - 1 - b.first) (show 0 < b.stride by omega)
    constructor
    · intro e
      rw [e, mul_add] at e1
      exact Int.dvd_of_emod_eq_zero (by omega)
    · rintro ⟨q, hq⟩
      have hq1 : b.last - 1 - b.first = (b.stride - 1) + b.stride * (q - 1) := by rw [mul_sub]; omega
      rw [hq, hq1, Int.mul_ediv_cancel_left _ (by omega), Int.add_mul_ediv_left _ _ (by omega),
        Int.ediv_eq_zero_of_lt (by omega) (by omega)]
      omega

/-- C11 as stated is false: points 0, 2, 4 but size() = 2 -/
theorem C11_size_false : ¬ ∀ b : Bounds, 1 ≤ b.stride → b.first < b.last → b.last ≤ 2147483647 → 0 ≤ b.first →
    b.size = .ok ((pointList b).length : Int) := by
  intro h
  have := h ⟨0, 5, 2⟩ (by decide) (by decide) (by decide) (by decide)
  revert this
  decide

/-- Full statement: `size()` is the number of points for every positive stride.  Proved for strides that divide the range,
in particular stride 1.  Missing (and false): other strides. -/
theorem C11_size_partial {b : Bounds} (hs : 1 ≤ b.stride) (h : b.first < b.last) (hfit : b.last - b.first ≤ 2147483647)
    (hd : b.stride ∣ b.last - b.first) : b.size = .ok ((pointList b).length : Int) := by
  obtain ⟨n, e, hn⟩ := C11_size_iff hs h hfit
  rw [e, hn.2 hd]

example : (⟨0, 6, 2⟩ : Bounds).size = .ok 3 ∧ pointList ⟨0, 6, 2⟩ = [0, 2, 4] ∧ pointList ⟨0, 5, 2⟩ = [0, 2, 4] := by decide

end Verif
