import Verif.Lemmas.SmoothEx

/-
C50, C51, C52: the smoothers of m4/cellsmooth1d.m4, m4/cellsmooth2d.m4, m4/cellsmooth3d.m4.
-/

set_option linter.unusedVariables false

namespace Verif

/-! ### damped Jacobi -/

/-- Damped Jacobi, one dimension: every cell of the box gets its old value plus the factor times the scaled residual of the old values, whatever the
order, the box, the bounds of the arrays, the table and the arithmetic.  The work array is left with the scaled residuals; nothing else changes. -/
theorem C50_jacobi_1d {T : Type} [NatCast T] [Add T] [Sub T] [Mul T] [Div T] [Neg T] {lo0 hi0 slo0 shi0 flo0 fhi0 ulo0 uhi0 n : Int} {o st f u : Ptr} {r : Ptr}
    {O : Int → List Int} {S B U : List Int → T} {m : Mem T} {R : List Int → T}
    (h : F.Problem m [(lo0, hi0)] n (F.offset0 o 1 n) (F.sm1d st n slo0 shi0) (F.box1d f flo0 fhi0)
      (F.box1d u ulo0 uhi0) O S B U)
    (hr : F.Holds m (F.box1d r lo0 hi0) R) (ru : F.Apart (F.box1d r lo0 hi0) (F.box1d u ulo0 uhi0)) (rs : F.Apart (F.box1d r lo0 hi0) (F.sm1d st n slo0 shi0)) (rf : F.Apart (F.box1d r lo0 hi0) (F.box1d f flo0 fhi0)) :
    ∃ m' U', F.celljacobi1d lo0 hi0 n o slo0 shi0 st flo0 fhi0 f ulo0 uhi0 u r m = .ok m' ∧
      F.Holds m' (F.box1d u ulo0 uhi0) U' ∧ F.Only [(F.box1d u ulo0 uhi0), (F.box1d r lo0 hi0)] m m' ∧ (∀ p, ¬ F.InBounds [(lo0, hi0)] p → U' p = U p) ∧
      (∀ p, F.InBounds [(lo0, hi0)] p → U' p = U p + ((2 : Nat) / (3 : Nat) : T) * F.scaled n O S B U p) ∧ F.Holds m' (F.box1d r lo0 hi0) (F.scaled n O S B U) := by
  obtain ⟨m', U', g1, g2, g3, g4, g5, g6⟩ := F.jacobi_run (w := ((2 : Nat) / (3 : Nat) : T)) (l := F.pts1 (F.irange lo0 hi0))
    (c := F.at1 (fun i => F.block [
    F.assign (F.box1d r lo0 hi0) [i] ((F.box1d f flo0 fhi0).el [i]),
    F.doLoop 0 (n - 1) fun s m => do
      let io ← F.intRef (F.offset0 o 1 n) [0, s] m
      F.assign (F.box1d r lo0 hi0) [i] ((F.box1d r lo0 hi0).el [i] - (F.sm1d st n slo0 shi0).el [s, i] * (F.box1d u ulo0 uhi0).el [i + io]) m,
    F.assign (F.box1d r lo0 hi0) [i] ((F.box1d r lo0 hi0).el [i] / (F.sm1d st n slo0 shi0).el [0, i])])) (d := F.at1 (fun i => F.assign (F.box1d u ulo0 uhi0) [i] ((F.box1d u ulo0 uhi0).el [i] + F.Expr.const ((2 : Nat) / (3 : Nat) : T) * (F.box1d r lo0 hi0).el [i]))) h (fun p hp => hp) hr ru (fun p => F.all1) (F.pts1_before F.irange_lt)
    (fun p hp m1 R1 hR1 ho => by
      rw [F.all1] at hp
      have hp' := hp
      rw [F.inBounds1] at hp'
      obtain ⟨i, rfl, h1, h2⟩ := hp'
      refine F.jacobi_cell h hp hp hR1 ho ru rs rf fun s h0 h1 m2 hm2 => ?_
      obtain ⟨a, e, g⟩ := h.tab1 (s := s) h0 h1
      have g1 := g m2 hm2
      rw [g1, M.ok_bind, e]
      rfl)
    (fun p hp m1 => by
      rw [F.all1, F.inBounds1] at hp
      obtain ⟨i, rfl, h1, h2⟩ := hp
      rfl)
  refine ⟨m', U', ?_, g2, g3, g4, g5, g6⟩
  rw [← g1]
  exact F.block2.trans (congrArg₂ (· >>= ·)
    (F.run1 (c := (fun i => F.block [
    F.assign (F.box1d r lo0 hi0) [i] ((F.box1d f flo0 fhi0).el [i]),
    F.doLoop 0 (n - 1) fun s m => do
      let io ← F.intRef (F.offset0 o 1 n) [0, s] m
      F.assign (F.box1d r lo0 hi0) [i] ((F.box1d r lo0 hi0).el [i] - (F.sm1d st n slo0 shi0).el [s, i] * (F.box1d u ulo0 uhi0).el [i + io]) m,
    F.assign (F.box1d r lo0 hi0) [i] ((F.box1d r lo0 hi0).el [i] / (F.sm1d st n slo0 shi0).el [0, i])])) (fun _ _ => rfl))
    (funext fun m1 => F.run1 (c := (fun i => F.assign (F.box1d u ulo0 uhi0) [i] ((F.box1d u ulo0 uhi0).el [i] + F.Expr.const ((2 : Nat) / (3 : Nat) : T) * (F.box1d r lo0 hi0).el [i]))) (fun _ _ => rfl)))

example := C50_jacobi_1d (r := ⟨4, 0⟩) ex_problem1 (ex_holds _) (ex_apart (by decide)) (ex_apart (by decide)) (ex_apart (by decide))

/-- Damped Jacobi leaves `u` as it is exactly when every cell of the box satisfies its equation. -/
theorem C50_fixed_1d {T : Type} [Field T] [CharZero T] {lo0 hi0 slo0 shi0 flo0 fhi0 ulo0 uhi0 n : Int} {o st f u : Ptr} {r : Ptr}
    {O : Int → List Int} {S B U : List Int → T} {m : Mem T} {R : List Int → T}
    (h : F.Problem m [(lo0, hi0)] n (F.offset0 o 1 n) (F.sm1d st n slo0 shi0) (F.box1d f flo0 fhi0)
      (F.box1d u ulo0 uhi0) O S B U)
    (hr : F.Holds m (F.box1d r lo0 hi0) R) (ru : F.Apart (F.box1d r lo0 hi0) (F.box1d u ulo0 uhi0)) (rs : F.Apart (F.box1d r lo0 hi0) (F.sm1d st n slo0 shi0)) (rf : F.Apart (F.box1d r lo0 hi0) (F.box1d f flo0 fhi0))
    (h0 : ∀ p, F.InBounds [(lo0, hi0)] p → S (0 :: p) ≠ 0) :
    ∃ m', F.celljacobi1d lo0 hi0 n o slo0 shi0 st flo0 fhi0 f ulo0 uhi0 u r m = .ok m' ∧
      (F.Holds m' (F.box1d u ulo0 uhi0) U ↔ ∀ p, F.InBounds [(lo0, hi0)] p → F.Eqn n O S B U p) := by
  obtain ⟨m', U', g1, g2, -, g4, g5, -⟩ := C50_jacobi_1d h hr ru rs rf
  refine ⟨m', g1, fun hU p hp => ?_, fun he => g2.congr fun p _ => ?_⟩
  · have e := (g2 p (h.inU p hp)).inj (hU p (h.inU p hp))
    rw [g5 p hp] at e
    have e2 := add_eq_left.1 e
    rw [mul_eq_zero] at e2
    exact (F.scaled_iff (h0 p hp)).1 (e2.resolve_left (by norm_num))
  · by_cases hp : F.InBounds [(lo0, hi0)] p
    · rw [g5 p hp, (F.scaled_iff (h0 p hp)).2 (he p hp), mul_zero, add_zero]
    · exact g4 p hp

example := C50_fixed_1d (r := ⟨4, 0⟩) ex_problem1 (ex_holds _) (ex_apart (by decide)) (ex_apart (by decide)) (ex_apart (by decide))
  fun p _ => ex_nonzero

/-- Damped Jacobi, two dimensions: every cell of the box gets its old value plus the factor times the scaled residual of the old values, whatever the
order, the box, the bounds of the arrays, the table and the arithmetic; the factor is the single precision constant `0.8`, not 4/5.  The work array is left with the scaled residuals; nothing else changes. -/
theorem C50_jacobi_2d {T : Type} [NatCast T] [Add T] [Sub T] [Mul T] [Div T] [Neg T] {lo0 hi0 lo1 hi1 slo0 shi0 slo1 shi1 flo0 fhi0 flo1 fhi1 ulo0 uhi0 ulo1 uhi1 n : Int} {o st f u : Ptr} {r : Ptr}
    {O : Int → List Int} {S B U : List Int → T} {m : Mem T} {R : List Int → T}
    (h : F.Problem m [(lo0, hi0), (lo1, hi1)] n (F.offset0 o 2 n) (F.sm2d st n slo0 slo1 shi0 shi1) (F.box2d f flo0 flo1 fhi0 fhi1)
      (F.box2d u ulo0 ulo1 uhi0 uhi1) O S B U)
    (hr : F.Holds m (F.box2d r lo0 lo1 hi0 hi1) R) (ru : F.Apart (F.box2d r lo0 lo1 hi0 hi1) (F.box2d u ulo0 ulo1 uhi0 uhi1)) (rs : F.Apart (F.box2d r lo0 lo1 hi0 hi1) (F.sm2d st n slo0 slo1 shi0 shi1)) (rf : F.Apart (F.box2d r lo0 lo1 hi0 hi1) (F.box2d f flo0 flo1 fhi0 fhi1)) :
    ∃ m' U', F.celljacobi2d lo0 hi0 lo1 hi1 n o slo0 shi0 slo1 shi1 st flo0 fhi0 flo1 fhi1 f ulo0 uhi0 ulo1 uhi1 u r m = .ok m' ∧
      F.Holds m' (F.box2d u ulo0 ulo1 uhi0 uhi1) U' ∧ F.Only [(F.box2d u ulo0 ulo1 uhi0 uhi1), (F.box2d r lo0 lo1 hi0 hi1)] m m' ∧ (∀ p, ¬ F.InBounds [(lo0, hi0), (lo1, hi1)] p → U' p = U p) ∧
      (∀ p, F.InBounds [(lo0, hi0), (lo1, hi1)] p → U' p = U p + ((13421773 : Nat) / (16777216 : Nat) : T) * F.scaled n O S B U p) ∧ F.Holds m' (F.box2d r lo0 lo1 hi0 hi1) (F.scaled n O S B U) := by
  obtain ⟨m', U', g1, g2, g3, g4, g5, g6⟩ := F.jacobi_run (w := ((13421773 : Nat) / (16777216 : Nat) : T)) (l := F.pts2 (F.irange lo1 hi1) (fun _ => F.irange lo0 hi0))
    (c := F.at2 (fun j i => F.block [
    F.assign (F.box2d r lo0 lo1 hi0 hi1) [i, j] ((F.box2d f flo0 flo1 fhi0 fhi1).el [i, j]),
    F.doLoop 0 (n - 1) fun s m => do
      let io ← F.intRef (F.offset0 o 2 n) [0, s] m
      let jo ← F.intRef (F.offset0 o 2 n) [1, s] m
      F.assign (F.box2d r lo0 lo1 hi0 hi1) [i, j] ((F.box2d r lo0 lo1 hi0 hi1).el [i, j] - (F.sm2d st n slo0 slo1 shi0 shi1).el [s, i, j] * (F.box2d u ulo0 ulo1 uhi0 uhi1).el [i + io, j + jo]) m,
    F.assign (F.box2d r lo0 lo1 hi0 hi1) [i, j] ((F.box2d r lo0 lo1 hi0 hi1).el [i, j] / (F.sm2d st n slo0 slo1 shi0 shi1).el [0, i, j])])) (d := F.at2 (fun j i => F.assign (F.box2d u ulo0 ulo1 uhi0 uhi1) [i, j] ((F.box2d u ulo0 ulo1 uhi0 uhi1).el [i, j] + F.Expr.const ((13421773 : Nat) / (16777216 : Nat) : T) * (F.box2d r lo0 lo1 hi0 hi1).el [i, j]))) h (fun p hp => hp) hr ru (fun p => F.all2) (F.pts2_before F.irange_lt fun _ => F.irange_lt)
    (fun p hp m1 R1 hR1 ho => by
      rw [F.all2] at hp
      have hp' := hp
      rw [F.inBounds2] at hp'
      obtain ⟨i, j, rfl, ⟨h1, h2⟩, h3, h4⟩ := hp'
      refine F.jacobi_cell h hp hp hR1 ho ru rs rf fun s h0 h1 m2 hm2 => ?_
      obtain ⟨a, b, e, g⟩ := h.tab2 (s := s) h0 h1
      obtain ⟨g1, g2⟩ := g m2 hm2
      rw [g1, M.ok_bind, g2, M.ok_bind, e]
      rfl)
    (fun p hp m1 => by
      rw [F.all2, F.inBounds2] at hp
      obtain ⟨i, j, rfl, ⟨h1, h2⟩, h3, h4⟩ := hp
      rfl)
  refine ⟨m', U', ?_, g2, g3, g4, g5, g6⟩
  rw [← g1]
  exact F.block2.trans (congrArg₂ (· >>= ·)
    (F.run2 (c := (fun j i => F.block [
    F.assign (F.box2d r lo0 lo1 hi0 hi1) [i, j] ((F.box2d f flo0 flo1 fhi0 fhi1).el [i, j]),
    F.doLoop 0 (n - 1) fun s m => do
      let io ← F.intRef (F.offset0 o 2 n) [0, s] m
      let jo ← F.intRef (F.offset0 o 2 n) [1, s] m
      F.assign (F.box2d r lo0 lo1 hi0 hi1) [i, j] ((F.box2d r lo0 lo1 hi0 hi1).el [i, j] - (F.sm2d st n slo0 slo1 shi0 shi1).el [s, i, j] * (F.box2d u ulo0 ulo1 uhi0 uhi1).el [i + io, j + jo]) m,
    F.assign (F.box2d r lo0 lo1 hi0 hi1) [i, j] ((F.box2d r lo0 lo1 hi0 hi1).el [i, j] / (F.sm2d st n slo0 slo1 shi0 shi1).el [0, i, j])])) (fun _ _ _ _ => rfl))
    (funext fun m1 => F.run2 (c := (fun j i => F.assign (F.box2d u ulo0 ulo1 uhi0 uhi1) [i, j] ((F.box2d u ulo0 ulo1 uhi0 uhi1).el [i, j] + F.Expr.const ((13421773 : Nat) / (16777216 : Nat) : T) * (F.box2d r lo0 lo1 hi0 hi1).el [i, j]))) (fun _ _ _ _ => rfl)))

example := C50_jacobi_2d (r := ⟨4, 0⟩) ex_problem2 (ex_holds _) (ex_apart (by decide)) (ex_apart (by decide)) (ex_apart (by decide))

/-- Damped Jacobi leaves `u` as it is exactly when every cell of the box satisfies its equation. -/
theorem C50_fixed_2d {T : Type} [Field T] [CharZero T] {lo0 hi0 lo1 hi1 slo0 shi0 slo1 shi1 flo0 fhi0 flo1 fhi1 ulo0 uhi0 ulo1 uhi1 n : Int} {o st f u : Ptr} {r : Ptr}
    {O : Int → List Int} {S B U : List Int → T} {m : Mem T} {R : List Int → T}
    (h : F.Problem m [(lo0, hi0), (lo1, hi1)] n (F.offset0 o 2 n) (F.sm2d st n slo0 slo1 shi0 shi1) (F.box2d f flo0 flo1 fhi0 fhi1)
      (F.box2d u ulo0 ulo1 uhi0 uhi1) O S B U)
    (hr : F.Holds m (F.box2d r lo0 lo1 hi0 hi1) R) (ru : F.Apart (F.box2d r lo0 lo1 hi0 hi1) (F.box2d u ulo0 ulo1 uhi0 uhi1)) (rs : F.Apart (F.box2d r lo0 lo1 hi0 hi1) (F.sm2d st n slo0 slo1 shi0 shi1)) (rf : F.Apart (F.box2d r lo0 lo1 hi0 hi1) (F.box2d f flo0 flo1 fhi0 fhi1))
    (h0 : ∀ p, F.InBounds [(lo0, hi0), (lo1, hi1)] p → S (0 :: p) ≠ 0) :
    ∃ m', F.celljacobi2d lo0 hi0 lo1 hi1 n o slo0 shi0 slo1 shi1 st flo0 fhi0 flo1 fhi1 f ulo0 uhi0 ulo1 uhi1 u r m = .ok m' ∧
      (F.Holds m' (F.box2d u ulo0 ulo1 uhi0 uhi1) U ↔ ∀ p, F.InBounds [(lo0, hi0), (lo1, hi1)] p → F.Eqn n O S B U p) := by
  obtain ⟨m', U', g1, g2, -, g4, g5, -⟩ := C50_jacobi_2d h hr ru rs rf
  refine ⟨m', g1, fun hU p hp => ?_, fun he => g2.congr fun p _ => ?_⟩
  · have e := (g2 p (h.inU p hp)).inj (hU p (h.inU p hp))
    rw [g5 p hp] at e
    have e2 := add_eq_left.1 e
    rw [mul_eq_zero] at e2
    exact (F.scaled_iff (h0 p hp)).1 (e2.resolve_left (by norm_num))
  · by_cases hp : F.InBounds [(lo0, hi0), (lo1, hi1)] p
    · rw [g5 p hp, (F.scaled_iff (h0 p hp)).2 (he p hp), mul_zero, add_zero]
    · exact g4 p hp

example := C50_fixed_2d (r := ⟨4, 0⟩) ex_problem2 (ex_holds _) (ex_apart (by decide)) (ex_apart (by decide)) (ex_apart (by decide))
  fun p _ => ex_nonzero

/-- Damped Jacobi, three dimensions: every cell of the box gets its old value plus the factor times the scaled residual of the old values, whatever the
order, the box, the bounds of the arrays, the table and the arithmetic.  The work array is left with the scaled residuals; nothing else changes. -/
theorem C50_jacobi_3d {T : Type} [NatCast T] [Add T] [Sub T] [Mul T] [Div T] [Neg T] {lo0 hi0 lo1 hi1 lo2 hi2 slo0 shi0 slo1 shi1 slo2 shi2 flo0 fhi0 flo1 fhi1 flo2 fhi2 ulo0 uhi0 ulo1 uhi1 ulo2 uhi2 n : Int} {o st f u : Ptr} {r : Ptr}
    {O : Int → List Int} {S B U : List Int → T} {m : Mem T} {R : List Int → T}
    (h : F.Problem m [(lo0, hi0), (lo1, hi1), (lo2, hi2)] n (F.offset0 o 3 n) (F.sm3d st n slo0 slo1 slo2 shi0 shi1 shi2) (F.box3d f flo0 flo1 flo2 fhi0 fhi1 fhi2)
      (F.box3d u ulo0 ulo1 ulo2 uhi0 uhi1 uhi2) O S B U)
    (hr : F.Holds m (F.box3d r lo0 lo1 lo2 hi0 hi1 hi2) R) (ru : F.Apart (F.box3d r lo0 lo1 lo2 hi0 hi1 hi2) (F.box3d u ulo0 ulo1 ulo2 uhi0 uhi1 uhi2)) (rs : F.Apart (F.box3d r lo0 lo1 lo2 hi0 hi1 hi2) (F.sm3d st n slo0 slo1 slo2 shi0 shi1 shi2)) (rf : F.Apart (F.box3d r lo0 lo1 lo2 hi0 hi1 hi2) (F.box3d f flo0 flo1 flo2 fhi0 fhi1 fhi2)) :
    ∃ m' U', F.celljacobi3d lo0 hi0 lo1 hi1 lo2 hi2 n o slo0 shi0 slo1 shi1 slo2 shi2 st flo0 fhi0 flo1 fhi1 flo2 fhi2 f ulo0 uhi0 ulo1 uhi1 ulo2 uhi2 u r m = .ok m' ∧
      F.Holds m' (F.box3d u ulo0 ulo1 ulo2 uhi0 uhi1 uhi2) U' ∧ F.Only [(F.box3d u ulo0 ulo1 ulo2 uhi0 uhi1 uhi2), (F.box3d r lo0 lo1 lo2 hi0 hi1 hi2)] m m' ∧ (∀ p, ¬ F.InBounds [(lo0, hi0), (lo1, hi1), (lo2, hi2)] p → U' p = U p) ∧
      (∀ p, F.InBounds [(lo0, hi0), (lo1, hi1), (lo2, hi2)] p → U' p = U p + ((8 : Nat) / (10 : Nat) : T) * F.scaled n O S B U p) ∧ F.Holds m' (F.box3d r lo0 lo1 lo2 hi0 hi1 hi2) (F.scaled n O S B U) := by
  obtain ⟨m', U', g1, g2, g3, g4, g5, g6⟩ := F.jacobi_run (w := ((8 : Nat) / (10 : Nat) : T)) (l := F.pts3 (F.irange lo2 hi2) (F.irange lo1 hi1) (fun _ _ => F.irange lo0 hi0))
    (c := F.at3 (fun k j i => F.block [
    F.assign (F.box3d r lo0 lo1 lo2 hi0 hi1 hi2) [i, j, k] ((F.box3d f flo0 flo1 flo2 fhi0 fhi1 fhi2).el [i, j, k]),
    F.doLoop 0 (n - 1) fun s m => do
      let io ← F.intRef (F.offset0 o 3 n) [0, s] m
      let jo ← F.intRef (F.offset0 o 3 n) [1, s] m
      let ko ← F.intRef (F.offset0 o 3 n) [2, s] m
      F.assign (F.box3d r lo0 lo1 lo2 hi0 hi1 hi2) [i, j, k] ((F.box3d r lo0 lo1 lo2 hi0 hi1 hi2).el [i, j, k] - (F.sm3d st n slo0 slo1 slo2 shi0 shi1 shi2).el [s, i, j, k] * (F.box3d u ulo0 ulo1 ulo2 uhi0 uhi1 uhi2).el [i + io, j + jo, k + ko]) m,
    F.assign (F.box3d r lo0 lo1 lo2 hi0 hi1 hi2) [i, j, k] ((F.box3d r lo0 lo1 lo2 hi0 hi1 hi2).el [i, j, k] / (F.sm3d st n slo0 slo1 slo2 shi0 shi1 shi2).el [0, i, j, k])])) (d := F.at3 (fun k j i => F.assign (F.box3d u ulo0 ulo1 ulo2 uhi0 uhi1 uhi2) [i, j, k] ((F.box3d u ulo0 ulo1 ulo2 uhi0 uhi1 uhi2).el [i, j, k] + F.Expr.const ((8 : Nat) / (10 : Nat) : T) * (F.box3d r lo0 lo1 lo2 hi0 hi1 hi2).el [i, j, k]))) h (fun p hp => hp) hr ru (fun p => F.all3) (F.pts3_before F.irange_lt F.irange_lt fun _ _ => F.irange_lt)
    (fun p hp m1 R1 hR1 ho => by
      rw [F.all3] at hp
      have hp' := hp
      rw [F.inBounds3] at hp'
      obtain ⟨i, j, k, rfl, ⟨h1, h2⟩, ⟨h3, h4⟩, h5, h6⟩ := hp'
      refine F.jacobi_cell h hp hp hR1 ho ru rs rf fun s h0 h1 m2 hm2 => ?_
      obtain ⟨a, b, c, e, g⟩ := h.tab3 (s := s) h0 h1
      obtain ⟨g1, g2, g3⟩ := g m2 hm2
      rw [g1, M.ok_bind, g2, M.ok_bind, g3, M.ok_bind, e]
      rfl)
    (fun p hp m1 => by
      rw [F.all3, F.inBounds3] at hp
      obtain ⟨i, j, k, rfl, ⟨h1, h2⟩, ⟨h3, h4⟩, h5, h6⟩ := hp
      rfl)
  refine ⟨m', U', ?_, g2, g3, g4, g5, g6⟩
  rw [← g1]
  exact F.block2.trans (congrArg₂ (· >>= ·)
    (F.run3 (c := (fun k j i => F.block [
    F.assign (F.box3d r lo0 lo1 lo2 hi0 hi1 hi2) [i, j, k] ((F.box3d f flo0 flo1 flo2 fhi0 fhi1 fhi2).el [i, j, k]),
    F.doLoop 0 (n - 1) fun s m => do
      let io ← F.intRef (F.offset0 o 3 n) [0, s] m
      let jo ← F.intRef (F.offset0 o 3 n) [1, s] m
      let ko ← F.intRef (F.offset0 o 3 n) [2, s] m
      F.assign (F.box3d r lo0 lo1 lo2 hi0 hi1 hi2) [i, j, k] ((F.box3d r lo0 lo1 lo2 hi0 hi1 hi2).el [i, j, k] - (F.sm3d st n slo0 slo1 slo2 shi0 shi1 shi2).el [s, i, j, k] * (F.box3d u ulo0 ulo1 ulo2 uhi0 uhi1 uhi2).el [i + io, j + jo, k + ko]) m,
    F.assign (F.box3d r lo0 lo1 lo2 hi0 hi1 hi2) [i, j, k] ((F.box3d r lo0 lo1 lo2 hi0 hi1 hi2).el [i, j, k] / (F.sm3d st n slo0 slo1 slo2 shi0 shi1 shi2).el [0, i, j, k])])) (fun _ _ _ _ _ _ => rfl))
    (funext fun m1 => F.run3 (c := (fun k j i => F.assign (F.box3d u ulo0 ulo1 ulo2 uhi0 uhi1 uhi2) [i, j, k] ((F.box3d u ulo0 ulo1 ulo2 uhi0 uhi1 uhi2).el [i, j, k] + F.Expr.const ((8 : Nat) / (10 : Nat) : T) * (F.box3d r lo0 lo1 lo2 hi0 hi1 hi2).el [i, j, k]))) (fun _ _ _ _ _ _ => rfl)))

example := C50_jacobi_3d (r := ⟨4, 0⟩) ex_problem3 (ex_holds _) (ex_apart (by decide)) (ex_apart (by decide)) (ex_apart (by decide))

/-- Damped Jacobi leaves `u` as it is exactly when every cell of the box satisfies its equation. -/
theorem C50_fixed_3d {T : Type} [Field T] [CharZero T] {lo0 hi0 lo1 hi1 lo2 hi2 slo0 shi0 slo1 shi1 slo2 shi2 flo0 fhi0 flo1 fhi1 flo2 fhi2 ulo0 uhi0 ulo1 uhi1 ulo2 uhi2 n : Int} {o st f u : Ptr} {r : Ptr}
    {O : Int → List Int} {S B U : List Int → T} {m : Mem T} {R : List Int → T}
    (h : F.Problem m [(lo0, hi0), (lo1, hi1), (lo2, hi2)] n (F.offset0 o 3 n) (F.sm3d st n slo0 slo1 slo2 shi0 shi1 shi2) (F.box3d f flo0 flo1 flo2 fhi0 fhi1 fhi2)
      (F.box3d u ulo0 ulo1 ulo2 uhi0 uhi1 uhi2) O S B U)
    (hr : F.Holds m (F.box3d r lo0 lo1 lo2 hi0 hi1 hi2) R) (ru : F.Apart (F.box3d r lo0 lo1 lo2 hi0 hi1 hi2) (F.box3d u ulo0 ulo1 ulo2 uhi0 uhi1 uhi2)) (rs : F.Apart (F.box3d r lo0 lo1 lo2 hi0 hi1 hi2) (F.sm3d st n slo0 slo1 slo2 shi0 shi1 shi2)) (rf : F.Apart (F.box3d r lo0 lo1 lo2 hi0 hi1 hi2) (F.box3d f flo0 flo1 flo2 fhi0 fhi1 fhi2))
    (h0 : ∀ p, F.InBounds [(lo0, hi0), (lo1, hi1), (lo2, hi2)] p → S (0 :: p) ≠ 0) :
    ∃ m', F.celljacobi3d lo0 hi0 lo1 hi1 lo2 hi2 n o slo0 shi0 slo1 shi1 slo2 shi2 st flo0 fhi0 flo1 fhi1 flo2 fhi2 f ulo0 uhi0 ulo1 uhi1 ulo2 uhi2 u r m = .ok m' ∧
      (F.Holds m' (F.box3d u ulo0 ulo1 ulo2 uhi0 uhi1 uhi2) U ↔ ∀ p, F.InBounds [(lo0, hi0), (lo1, hi1), (lo2, hi2)] p → F.Eqn n O S B U p) := by
  obtain ⟨m', U', g1, g2, -, g4, g5, -⟩ := C50_jacobi_3d h hr ru rs rf
  refine ⟨m', g1, fun hU p hp => ?_, fun he => g2.congr fun p _ => ?_⟩
  · have e := (g2 p (h.inU p hp)).inj (hU p (h.inU p hp))
    rw [g5 p hp] at e
    have e2 := add_eq_left.1 e
    rw [mul_eq_zero] at e2
    exact (F.scaled_iff (h0 p hp)).1 (e2.resolve_left (by norm_num))
  · by_cases hp : F.InBounds [(lo0, hi0), (lo1, hi1), (lo2, hi2)] p
    · rw [g5 p hp, (F.scaled_iff (h0 p hp)).2 (he p hp), mul_zero, add_zero]
    · exact g4 p hp

example := C50_fixed_3d (r := ⟨4, 0⟩) ex_problem3 (ex_holds _) (ex_apart (by decide)) (ex_apart (by decide)) (ex_apart (by decide))
  fun p _ => ex_nonzero

/-! ### Gauss-Seidel -/

/-- Gauss-Seidel, one dimension: the cells of the box in the order of the loops, each solved for with the values then current, for every box, bounds, table
and arithmetic; nothing but those cells changes. (The routine declares `f` with the bounds of `u`; the full statement has no hypothesis `hf` and fails, see `C51_gs_1d_false`.) -/
theorem C51_gs_1d_partial {T : Type} [NatCast T] [Add T] [Sub T] [Mul T] [Div T] [Neg T] {lo0 hi0 slo0 shi0 flo0 fhi0 ulo0 uhi0 n : Int} {o st f u : Ptr}
    {O : Int → List Int} {S B U : List Int → T} {m : Mem T} (hf : flo0 = ulo0)
    (h : F.Problem m [(lo0, hi0)] n (F.offset0 o 1 n) (F.sm1d st n slo0 shi0) (F.box1d f flo0 fhi0)
      (F.box1d u ulo0 uhi0) O S B U) :
    ∃ m' U', F.cellgs1d lo0 hi0 n o slo0 shi0 st flo0 fhi0 f ulo0 uhi0 u m = .ok m' ∧ F.Holds m' (F.box1d u ulo0 uhi0) U' ∧ F.Only [(F.box1d u ulo0 uhi0)] m m' ∧
      F.Swept (F.InBounds [(lo0, hi0)]) n O S B U U' := by
  obtain ⟨m', U', g1, g2⟩ := F.gs_swept (l := F.pts1 (F.irange lo0 hi0)) (c := F.at1 (F.body1 (F.offset0 o 1 n) (F.sm1d st n slo0 shi0) (F.box1d f ulo0 uhi0) (F.box1d u ulo0 uhi0) n)) h (fun p => F.all1) (fun p hp => hp)
    (F.pts1_before F.irange_lt) (fun p hp m1 V hV ho => by
      have hp' := hp
      rw [F.inBounds1] at hp'
      obtain ⟨i, rfl, h1, h2⟩ := hp'
      exact F.body1_ok (i := i) h hp hV ho (by
        have := h.rhs hp ho
        subst hf
        have hb := h.inU _ hp
        simp only [F.Expr.eval, F.Arr.addr] at this ⊢
        rw [if_pos (h.inF _ hp)] at this
        rw [if_pos (show F.InBounds (F.box1d f flo0 uhi0).dims [i] from hb)]
        simp only [F.box1d, F.colMajor, mul_zero] at this ⊢
        exact this))
  refine ⟨m', U', ?_, g2⟩
  rw [← g1]
  exact F.run1 (c := (F.body1 (F.offset0 o 1 n) (F.sm1d st n slo0 shi0) (F.box1d f ulo0 uhi0) (F.box1d u ulo0 uhi0) n)) (fun _ _ => rfl)

example := C51_gs_1d_partial rfl ex_problem1

/-- Gauss-Seidel changes nothing exactly when every cell of the box satisfies its equation. -/
theorem C51_fixed_1d_partial {T : Type} [Field T] {lo0 hi0 slo0 shi0 flo0 fhi0 ulo0 uhi0 n : Int} {o st f u : Ptr}
    {O : Int → List Int} {S B U : List Int → T} {m : Mem T} (hf : flo0 = ulo0)
    (h : F.Problem m [(lo0, hi0)] n (F.offset0 o 1 n) (F.sm1d st n slo0 shi0) (F.box1d f flo0 fhi0)
      (F.box1d u ulo0 uhi0) O S B U)
    (hd : F.Diag 1 O) (h0 : ∀ p, F.InBounds [(lo0, hi0)] p → S (0 :: p) ≠ 0) :
    ∃ m', F.cellgs1d lo0 hi0 n o slo0 shi0 st flo0 fhi0 f ulo0 uhi0 u m = .ok m' ∧ (m' = m ↔ ∀ p, F.InBounds [(lo0, hi0)] p → F.Eqn n O S B U p) := by
  obtain ⟨m', U', g1, g2, g3, g4⟩ := C51_gs_1d_partial hf h
  exact ⟨m', g1, (h.same_iff (fun _ hp => hp) g2 g3 g4).trans (F.swept_fixed h.size (fun p hp => F.shift_diag hp rfl hd) h0 (l := F.pts1 (F.irange lo0 hi0))
    (fun p => F.all1) (F.pts1_before F.irange_lt) g4)⟩

example := C51_fixed_1d_partial rfl ex_problem1 rfl fun p _ => ex_nonzero

/-- What a sweep is said to leave determines every value. -/
theorem C51_determined_1d {T : Type} [Sub T] [Mul T] [Div T] {lo0 hi0 n : Int} {O : Int → List Int} {S B U U1 U2 : List Int → T}
    (h1 : F.Swept (F.InBounds [(lo0, hi0)]) n O S B U U1) (h2 : F.Swept (F.InBounds [(lo0, hi0)]) n O S B U U2) : U1 = U2 :=
  F.swept_unique (l := F.pts1 (F.irange lo0 hi0)) (fun p => F.all1) (F.pts1_before F.irange_lt) h1 h2

example : ∃ U', F.Swept (F.InBounds [(1, 5)]) 3 exO1 exS1 exF1 exV1 U' := by
  obtain ⟨_, U', -, -, -, h⟩ := C51_gs_1d_partial rfl ex_problem1
  exact ⟨U', h⟩

/-- Gauss-Seidel, two dimensions: the cells of the box in the order of the loops, each solved for with the values then current, for every box, bounds, table
and arithmetic; nothing but those cells changes. -/
theorem C51_gs_2d {T : Type} [NatCast T] [Add T] [Sub T] [Mul T] [Div T] [Neg T] {lo0 hi0 lo1 hi1 slo0 shi0 slo1 shi1 flo0 fhi0 flo1 fhi1 ulo0 uhi0 ulo1 uhi1 n : Int} {o st f u : Ptr}
    {O : Int → List Int} {S B U : List Int → T} {m : Mem T}
    (h : F.Problem m [(lo0, hi0), (lo1, hi1)] n (F.offset0 o 2 n) (F.sm2d st n slo0 slo1 shi0 shi1) (F.box2d f flo0 flo1 fhi0 fhi1)
      (F.box2d u ulo0 ulo1 uhi0 uhi1) O S B U) :
    ∃ m' U', F.cellgs2d lo0 hi0 lo1 hi1 n o slo0 shi0 slo1 shi1 st flo0 fhi0 flo1 fhi1 f ulo0 uhi0 ulo1 uhi1 u m = .ok m' ∧ F.Holds m' (F.box2d u ulo0 ulo1 uhi0 uhi1) U' ∧ F.Only [(F.box2d u ulo0 ulo1 uhi0 uhi1)] m m' ∧
      F.Swept (F.InBounds [(lo0, hi0), (lo1, hi1)]) n O S B U U' := by
  obtain ⟨m', U', g1, g2⟩ := F.gs_swept (l := F.pts2 (F.irange lo1 hi1) (fun _ => F.irange lo0 hi0)) (c := F.at2 (F.body2 (F.offset0 o 2 n) (F.sm2d st n slo0 slo1 shi0 shi1) (F.box2d f flo0 flo1 fhi0 fhi1) (F.box2d u ulo0 ulo1 uhi0 uhi1) n)) h (fun p => F.all2) (fun p hp => hp)
    (F.pts2_before F.irange_lt fun _ => F.irange_lt) (fun p hp m1 V hV ho => by
      have hp' := hp
      rw [F.inBounds2] at hp'
      obtain ⟨i, j, rfl, ⟨h1, h2⟩, h3, h4⟩ := hp'
      exact F.body2_ok h hp hV ho)
  refine ⟨m', U', ?_, g2⟩
  rw [← g1]
  exact F.run2 (c := (F.body2 (F.offset0 o 2 n) (F.sm2d st n slo0 slo1 shi0 shi1) (F.box2d f flo0 flo1 fhi0 fhi1) (F.box2d u ulo0 ulo1 uhi0 uhi1) n)) (fun _ _ _ _ => rfl)

example := C51_gs_2d ex_problem2

/-- Gauss-Seidel changes nothing exactly when every cell of the box satisfies its equation. -/
theorem C51_fixed_2d {T : Type} [Field T] {lo0 hi0 lo1 hi1 slo0 shi0 slo1 shi1 flo0 fhi0 flo1 fhi1 ulo0 uhi0 ulo1 uhi1 n : Int} {o st f u : Ptr}
    {O : Int → List Int} {S B U : List Int → T} {m : Mem T}
    (h : F.Problem m [(lo0, hi0), (lo1, hi1)] n (F.offset0 o 2 n) (F.sm2d st n slo0 slo1 shi0 shi1) (F.box2d f flo0 flo1 fhi0 fhi1)
      (F.box2d u ulo0 ulo1 uhi0 uhi1) O S B U)
    (hd : F.Diag 2 O) (h0 : ∀ p, F.InBounds [(lo0, hi0), (lo1, hi1)] p → S (0 :: p) ≠ 0) :
    ∃ m', F.cellgs2d lo0 hi0 lo1 hi1 n o slo0 shi0 slo1 shi1 st flo0 fhi0 flo1 fhi1 f ulo0 uhi0 ulo1 uhi1 u m = .ok m' ∧ (m' = m ↔ ∀ p, F.InBounds [(lo0, hi0), (lo1, hi1)] p → F.Eqn n O S B U p) := by
  obtain ⟨m', U', g1, g2, g3, g4⟩ := C51_gs_2d h
  exact ⟨m', g1, (h.same_iff (fun _ hp => hp) g2 g3 g4).trans (F.swept_fixed h.size (fun p hp => F.shift_diag hp rfl hd) h0 (l := F.pts2 (F.irange lo1 hi1) (fun _ => F.irange lo0 hi0))
    (fun p => F.all2) (F.pts2_before F.irange_lt fun _ => F.irange_lt) g4)⟩

example := C51_fixed_2d ex_problem2 rfl fun p _ => ex_nonzero

/-- What a sweep is said to leave determines every value. -/
theorem C51_determined_2d {T : Type} [Sub T] [Mul T] [Div T] {lo0 hi0 lo1 hi1 n : Int} {O : Int → List Int} {S B U U1 U2 : List Int → T}
    (h1 : F.Swept (F.InBounds [(lo0, hi0), (lo1, hi1)]) n O S B U U1) (h2 : F.Swept (F.InBounds [(lo0, hi0), (lo1, hi1)]) n O S B U U2) : U1 = U2 :=
  F.swept_unique (l := F.pts2 (F.irange lo1 hi1) (fun _ => F.irange lo0 hi0)) (fun p => F.all2) (F.pts2_before F.irange_lt fun _ => F.irange_lt) h1 h2

example : ∃ U', F.Swept (F.InBounds [(1, 5), (2, 6)]) 5 exO2 exS2 exF2 exV2 U' := by
  obtain ⟨_, U', -, -, -, h⟩ := C51_gs_2d ex_problem2
  exact ⟨U', h⟩

/-- Gauss-Seidel, three dimensions: the cells of the box in the order of the loops, each solved for with the values then current, for every box, bounds, table
and arithmetic; nothing but those cells changes. -/
theorem C51_gs_3d {T : Type} [NatCast T] [Add T] [Sub T] [Mul T] [Div T] [Neg T] {lo0 hi0 lo1 hi1 lo2 hi2 slo0 shi0 slo1 shi1 slo2 shi2 flo0 fhi0 flo1 fhi1 flo2 fhi2 ulo0 uhi0 ulo1 uhi1 ulo2 uhi2 n : Int} {o st f u : Ptr}
    {O : Int → List Int} {S B U : List Int → T} {m : Mem T}
    (h : F.Problem m [(lo0, hi0), (lo1, hi1), (lo2, hi2)] n (F.offset0 o 3 n) (F.sm3d st n slo0 slo1 slo2 shi0 shi1 shi2) (F.box3d f flo0 flo1 flo2 fhi0 fhi1 fhi2)
      (F.box3d u ulo0 ulo1 ulo2 uhi0 uhi1 uhi2) O S B U) :
    ∃ m' U', F.cellgs3d lo0 hi0 lo1 hi1 lo2 hi2 n o slo0 shi0 slo1 shi1 slo2 shi2 st flo0 fhi0 flo1 fhi1 flo2 fhi2 f ulo0 uhi0 ulo1 uhi1 ulo2 uhi2 u m = .ok m' ∧ F.Holds m' (F.box3d u ulo0 ulo1 ulo2 uhi0 uhi1 uhi2) U' ∧ F.Only [(F.box3d u ulo0 ulo1 ulo2 uhi0 uhi1 uhi2)] m m' ∧
      F.Swept (F.InBounds [(lo0, hi0), (lo1, hi1), (lo2, hi2)]) n O S B U U' := by
  obtain ⟨m', U', g1, g2⟩ := F.gs_swept (l := F.pts3 (F.irange lo2 hi2) (F.irange lo1 hi1) (fun _ _ => F.irange lo0 hi0)) (c := F.at3 (F.body3 (F.offset0 o 3 n) (F.sm3d st n slo0 slo1 slo2 shi0 shi1 shi2) (F.box3d f flo0 flo1 flo2 fhi0 fhi1 fhi2) (F.box3d u ulo0 ulo1 ulo2 uhi0 uhi1 uhi2) n)) h (fun p => F.all3) (fun p hp => hp)
    (F.pts3_before F.irange_lt F.irange_lt fun _ _ => F.irange_lt) (fun p hp m1 V hV ho => by
      have hp' := hp
      rw [F.inBounds3] at hp'
      obtain ⟨i, j, k, rfl, ⟨h1, h2⟩, ⟨h3, h4⟩, h5, h6⟩ := hp'
      exact F.body3_ok h hp hV ho)
  refine ⟨m', U', ?_, g2⟩
  rw [← g1]
  exact F.run3 (c := (F.body3 (F.offset0 o 3 n) (F.sm3d st n slo0 slo1 slo2 shi0 shi1 shi2) (F.box3d f flo0 flo1 flo2 fhi0 fhi1 fhi2) (F.box3d u ulo0 ulo1 ulo2 uhi0 uhi1 uhi2) n)) (fun _ _ _ _ _ _ => rfl)

example := C51_gs_3d ex_problem3

/-- Gauss-Seidel changes nothing exactly when every cell of the box satisfies its equation. -/
theorem C51_fixed_3d {T : Type} [Field T] {lo0 hi0 lo1 hi1 lo2 hi2 slo0 shi0 slo1 shi1 slo2 shi2 flo0 fhi0 flo1 fhi1 flo2 fhi2 ulo0 uhi0 ulo1 uhi1 ulo2 uhi2 n : Int} {o st f u : Ptr}
    {O : Int → List Int} {S B U : List Int → T} {m : Mem T}
    (h : F.Problem m [(lo0, hi0), (lo1, hi1), (lo2, hi2)] n (F.offset0 o 3 n) (F.sm3d st n slo0 slo1 slo2 shi0 shi1 shi2) (F.box3d f flo0 flo1 flo2 fhi0 fhi1 fhi2)
      (F.box3d u ulo0 ulo1 ulo2 uhi0 uhi1 uhi2) O S B U)
    (hd : F.Diag 3 O) (h0 : ∀ p, F.InBounds [(lo0, hi0), (lo1, hi1), (lo2, hi2)] p → S (0 :: p) ≠ 0) :
    ∃ m', F.cellgs3d lo0 hi0 lo1 hi1 lo2 hi2 n o slo0 shi0 slo1 shi1 slo2 shi2 st flo0 fhi0 flo1 fhi1 flo2 fhi2 f ulo0 uhi0 ulo1 uhi1 ulo2 uhi2 u m = .ok m' ∧ (m' = m ↔ ∀ p, F.InBounds [(lo0, hi0), (lo1, hi1), (lo2, hi2)] p → F.Eqn n O S B U p) := by
  obtain ⟨m', U', g1, g2, g3, g4⟩ := C51_gs_3d h
  exact ⟨m', g1, (h.same_iff (fun _ hp => hp) g2 g3 g4).trans (F.swept_fixed h.size (fun p hp => F.shift_diag hp rfl hd) h0 (l := F.pts3 (F.irange lo2 hi2) (F.irange lo1 hi1) (fun _ _ => F.irange lo0 hi0))
    (fun p => F.all3) (F.pts3_before F.irange_lt F.irange_lt fun _ _ => F.irange_lt) g4)⟩

example := C51_fixed_3d ex_problem3 rfl fun p _ => ex_nonzero

/-- What a sweep is said to leave determines every value. -/
theorem C51_determined_3d {T : Type} [Sub T] [Mul T] [Div T] {lo0 hi0 lo1 hi1 lo2 hi2 n : Int} {O : Int → List Int} {S B U U1 U2 : List Int → T}
    (h1 : F.Swept (F.InBounds [(lo0, hi0), (lo1, hi1), (lo2, hi2)]) n O S B U U1) (h2 : F.Swept (F.InBounds [(lo0, hi0), (lo1, hi1), (lo2, hi2)]) n O S B U U2) : U1 = U2 :=
  F.swept_unique (l := F.pts3 (F.irange lo2 hi2) (F.irange lo1 hi1) (fun _ _ => F.irange lo0 hi0)) (fun p => F.all3) (F.pts3_before F.irange_lt F.irange_lt fun _ _ => F.irange_lt) h1 h2

example : ∃ U', F.Swept (F.InBounds [(1, 5), (2, 6), (1, 4)]) 7 exO3 exS3 exF3 exV3 U' := by
  obtain ⟨_, U', -, -, -, h⟩ := C51_gs_3d ex_problem3
  exact ⟨U', h⟩

/-! ### red-black Gauss-Seidel -/

/-- Red-black Gauss-Seidel, one dimension: one call solves, in the order of the loops, for exactly the cells of the box that have the given colour, with the
values then current, for every box, bounds, table and arithmetic. -/
theorem C52_sweep_1d {T : Type} [NatCast T] [Add T] [Sub T] [Mul T] [Div T] [Neg T] {lo0 hi0 slo0 shi0 flo0 fhi0 ulo0 uhi0 n color : Int} {o st f u : Ptr}
    {O : Int → List Int} {S B U : List Int → T} {m : Mem T} (hc : 0 ≤ color)
    (h : F.Problem m [(lo0, hi0)] n (F.offset0 o 1 n) (F.sm1d st n slo0 shi0) (F.box1d f flo0 fhi0)
      (F.box1d u ulo0 uhi0) O S B U) :
    ∃ m' U', F.cellrbgs1d lo0 hi0 color n o slo0 shi0 st flo0 fhi0 f ulo0 uhi0 u m = .ok m' ∧ F.Holds m' (F.box1d u ulo0 uhi0) U' ∧ F.Only [(F.box1d u ulo0 uhi0)] m m' ∧
      F.Swept (fun p => F.InBounds [(lo0, hi0)] p ∧ F.Colour lo0 color p) n O S B U U' := by
  obtain ⟨m', U', g1, g2⟩ := F.gs_swept (l := F.pts1 (F.srange (lo0 + color.tmod 2) hi0 2)) (c := F.at1 (F.body1 (F.offset0 o 1 n) (F.sm1d st n slo0 shi0) (F.box1d f flo0 fhi0) (F.box1d u ulo0 uhi0) n))
    (P := (fun p => F.InBounds [(lo0, hi0)] p ∧ F.Colour lo0 color p)) h (fun p => F.colour1 hc) (fun p hp => hp.1)
    (F.pts1_before F.srange_lt) (fun p hp m1 V hV ho => by
      have hp := hp.1
      have hp' := hp
      rw [F.inBounds1] at hp'
      obtain ⟨i, rfl, h1, h2⟩ := hp'
      exact F.body1_ok h hp hV ho (h.rhs hp ho))
  refine ⟨m', U', ?_, g2⟩
  rw [← g1]
  exact F.run1 (c := (F.body1 (F.offset0 o 1 n) (F.sm1d st n slo0 shi0) (F.box1d f flo0 fhi0) (F.box1d u ulo0 uhi0) n)) (fun _ _ => rfl)

example := C52_sweep_1d (color := 1) (by decide) ex_problem1

/-- When every displacement leads to the other colour, the order of the cells does not matter: after the call every cell of the colour satisfies its
equation, and its value is the one solved for with the old values. -/
theorem C52_equation_1d {T : Type} [Field T] {lo0 hi0 slo0 shi0 flo0 fhi0 ulo0 uhi0 n color : Int} {o st f u : Ptr}
    {O : Int → List Int} {S B U : List Int → T} {m : Mem T} (hc : 0 ≤ color)
    (h : F.Problem m [(lo0, hi0)] n (F.offset0 o 1 n) (F.sm1d st n slo0 shi0) (F.box1d f flo0 fhi0)
      (F.box1d u ulo0 uhi0) O S B U)
    (hd : F.Diag 1 O) (ho : F.OddSteps n O) (h0 : ∀ p, F.InBounds [(lo0, hi0)] p → S (0 :: p) ≠ 0) :
    ∃ m' U', F.cellrbgs1d lo0 hi0 color n o slo0 shi0 st flo0 fhi0 f ulo0 uhi0 u m = .ok m' ∧ F.Holds m' (F.box1d u ulo0 uhi0) U' ∧ F.Only [(F.box1d u ulo0 uhi0)] m m' ∧
      (∀ p, ¬ (F.InBounds [(lo0, hi0)] p ∧ F.Colour lo0 color p) → U' p = U p) ∧
      ∀ p, F.InBounds [(lo0, hi0)] p → F.Colour lo0 color p → U' p = F.solve n O S B U p ∧ F.Eqn n O S B U' p := by
  obtain ⟨m', U', g1, g2, g3, g4⟩ := C52_sweep_1d (color := color) hc h
  obtain ⟨k1, k2⟩ := g4.independent fun p hp s h1 h2 hq => F.colour_shift (by
    rw [(h.table s (by omega) h2).1, inBounds_length hp.1]) (ho s h1 h2) hp.2 hq.2
  exact ⟨m', U', g1, g2, g3, g4.other, fun p hp hcol => ⟨k1 p ⟨hp, hcol⟩,
    (F.solve_iff h.size (F.shift_diag hp rfl hd) (h0 p hp)).1 (k2 p ⟨hp, hcol⟩).symm⟩⟩

example := C52_equation_1d (color := 1) (by decide) ex_problem1 rfl ex_odd1 fun p _ => ex_nonzero

/-- One call for each colour: together they change nothing exactly when every cell of the box satisfies its equation. -/
theorem C52_both_1d {T : Type} [Field T] {lo0 hi0 slo0 shi0 flo0 fhi0 ulo0 uhi0 n color : Int} {o st f u : Ptr} {color2 : Int}
    {O : Int → List Int} {S B U : List Int → T} {m : Mem T} (hc : 0 ≤ color) (hc2 : 0 ≤ color2) (hcc : (color2 - color) % 2 = 1)
    (h : F.Problem m [(lo0, hi0)] n (F.offset0 o 1 n) (F.sm1d st n slo0 shi0) (F.box1d f flo0 fhi0)
      (F.box1d u ulo0 uhi0) O S B U)
    (hd : F.Diag 1 O) (h0 : ∀ p, F.InBounds [(lo0, hi0)] p → S (0 :: p) ≠ 0) :
    ∃ m1 m2, F.cellrbgs1d lo0 hi0 color n o slo0 shi0 st flo0 fhi0 f ulo0 uhi0 u m = .ok m1 ∧
      F.cellrbgs1d lo0 hi0 color2 n o slo0 shi0 st flo0 fhi0 f ulo0 uhi0 u m1 = .ok m2 ∧
      (m2 = m ↔ ∀ p, F.InBounds [(lo0, hi0)] p → F.Eqn n O S B U p) := by
  obtain ⟨m1, U1, g1, g2, g3, g4⟩ := C52_sweep_1d (color := color) hc h
  obtain ⟨m2, U2, k1, k2, k3, k4⟩ := C52_sweep_1d (color := color2) hc2 (h.after g2 g3)
  refine ⟨m1, m2, g1, k1, F.both_fixed h (fun p hp => hp.1) (fun p hp => hp.1) (fun p hp hp' => F.colour_other hcc hp.2 hp'.2)
    (fun p hp => (F.colour_cover hcc (p := p) (by rw [F.inBounds1] at hp; obtain ⟨i, rfl, h1, h2⟩ := hp; simp)).imp (fun h => ⟨hp, h⟩) fun h => ⟨hp, h⟩)
    (fun p hp => F.shift_diag hp rfl hd) h0
    (l := F.pts1 (F.srange (lo0 + color.tmod 2) hi0 2))
    (l2 := F.pts1 (F.srange (lo0 + color2.tmod 2) hi0 2)) (fun p => F.colour1 hc) (fun p => F.colour1 hc2)
    (F.pts1_before F.srange_lt) (F.pts1_before F.srange_lt) g3 g4 k2 k3 k4⟩

example := C52_both_1d (color := 0) (color2 := 1) (by decide) (by decide) (by decide) ex_problem1 rfl fun p _ => ex_nonzero

/-- Red-black Gauss-Seidel, two dimensions: one call solves, in the order of the loops, for exactly the cells of the box that have the given colour, with the
values then current, for every box, bounds, table and arithmetic. (Partial: rows with `j + color` negative are excluded; the full statement has no hypothesis `hc` and fails, see `C52_sweep_2d_false`.) -/
theorem C52_sweep_2d_partial {T : Type} [NatCast T] [Add T] [Sub T] [Mul T] [Div T] [Neg T] {lo0 hi0 lo1 hi1 slo0 shi0 slo1 shi1 flo0 fhi0 flo1 fhi1 ulo0 uhi0 ulo1 uhi1 n color : Int} {o st f u : Ptr}
    {O : Int → List Int} {S B U : List Int → T} {m : Mem T} (hc : 0 ≤ lo1 + color)
    (h : F.Problem m [(lo0, hi0), (lo1, hi1)] n (F.offset0 o 2 n) (F.sm2d st n slo0 slo1 shi0 shi1) (F.box2d f flo0 flo1 fhi0 fhi1)
      (F.box2d u ulo0 ulo1 uhi0 uhi1) O S B U) :
    ∃ m' U', F.cellrbgs2d lo0 hi0 lo1 hi1 color n o slo0 shi0 slo1 shi1 st flo0 fhi0 flo1 fhi1 f ulo0 uhi0 ulo1 uhi1 u m = .ok m' ∧ F.Holds m' (F.box2d u ulo0 ulo1 uhi0 uhi1) U' ∧ F.Only [(F.box2d u ulo0 ulo1 uhi0 uhi1)] m m' ∧
      F.Swept (fun p => F.InBounds [(lo0, hi0), (lo1, hi1)] p ∧ F.Colour lo0 color p) n O S B U U' := by
  obtain ⟨m', U', g1, g2⟩ := F.gs_swept (l := F.pts2 (F.irange lo1 hi1) (fun j => F.srange (lo0 + (j + color).tmod 2) hi0 2)) (c := F.at2 (F.body2 (F.offset0 o 2 n) (F.sm2d st n slo0 slo1 shi0 shi1) (F.box2d f flo0 flo1 fhi0 fhi1) (F.box2d u ulo0 ulo1 uhi0 uhi1) n))
    (P := (fun p => F.InBounds [(lo0, hi0), (lo1, hi1)] p ∧ F.Colour lo0 color p)) h (fun p => F.colour2 hc) (fun p hp => hp.1)
    (F.pts2_before F.irange_lt fun _ => F.srange_lt) (fun p hp m1 V hV ho => by
      have hp := hp.1
      have hp' := hp
      rw [F.inBounds2] at hp'
      obtain ⟨i, j, rfl, ⟨h1, h2⟩, h3, h4⟩ := hp'
      exact F.body2_ok h hp hV ho)
  refine ⟨m', U', ?_, g2⟩
  rw [← g1]
  exact F.run2 (c := (F.body2 (F.offset0 o 2 n) (F.sm2d st n slo0 slo1 shi0 shi1) (F.box2d f flo0 flo1 fhi0 fhi1) (F.box2d u ulo0 ulo1 uhi0 uhi1) n)) (fun _ _ _ _ => rfl)

example := C52_sweep_2d_partial (color := 1) (by decide) ex_problem2

/-- When every displacement leads to the other colour, the order of the cells does not matter: after the call every cell of the colour satisfies its
equation, and its value is the one solved for with the old values. -/
theorem C52_equation_2d_partial {T : Type} [Field T] {lo0 hi0 lo1 hi1 slo0 shi0 slo1 shi1 flo0 fhi0 flo1 fhi1 ulo0 uhi0 ulo1 uhi1 n color : Int} {o st f u : Ptr}
    {O : Int → List Int} {S B U : List Int → T} {m : Mem T} (hc : 0 ≤ lo1 + color)
    (h : F.Problem m [(lo0, hi0), (lo1, hi1)] n (F.offset0 o 2 n) (F.sm2d st n slo0 slo1 shi0 shi1) (F.box2d f flo0 flo1 fhi0 fhi1)
      (F.box2d u ulo0 ulo1 uhi0 uhi1) O S B U)
    (hd : F.Diag 2 O) (ho : F.OddSteps n O) (h0 : ∀ p, F.InBounds [(lo0, hi0), (lo1, hi1)] p → S (0 :: p) ≠ 0) :
    ∃ m' U', F.cellrbgs2d lo0 hi0 lo1 hi1 color n o slo0 shi0 slo1 shi1 st flo0 fhi0 flo1 fhi1 f ulo0 uhi0 ulo1 uhi1 u m = .ok m' ∧ F.Holds m' (F.box2d u ulo0 ulo1 uhi0 uhi1) U' ∧ F.Only [(F.box2d u ulo0 ulo1 uhi0 uhi1)] m m' ∧
      (∀ p, ¬ (F.InBounds [(lo0, hi0), (lo1, hi1)] p ∧ F.Colour lo0 color p) → U' p = U p) ∧
      ∀ p, F.InBounds [(lo0, hi0), (lo1, hi1)] p → F.Colour lo0 color p → U' p = F.solve n O S B U p ∧ F.Eqn n O S B U' p := by
  obtain ⟨m', U', g1, g2, g3, g4⟩ := C52_sweep_2d_partial (color := color) hc h
  obtain ⟨k1, k2⟩ := g4.independent fun p hp s h1 h2 hq => F.colour_shift (by
    rw [(h.table s (by omega) h2).1, inBounds_length hp.1]) (ho s h1 h2) hp.2 hq.2
  exact ⟨m', U', g1, g2, g3, g4.other, fun p hp hcol => ⟨k1 p ⟨hp, hcol⟩,
    (F.solve_iff h.size (F.shift_diag hp rfl hd) (h0 p hp)).1 (k2 p ⟨hp, hcol⟩).symm⟩⟩

example := C52_equation_2d_partial (color := 1) (by decide) ex_problem2 rfl ex_odd2 fun p _ => ex_nonzero

/-- One call for each colour: together they change nothing exactly when every cell of the box satisfies its equation. -/
theorem C52_both_2d_partial {T : Type} [Field T] {lo0 hi0 lo1 hi1 slo0 shi0 slo1 shi1 flo0 fhi0 flo1 fhi1 ulo0 uhi0 ulo1 uhi1 n color : Int} {o st f u : Ptr} {color2 : Int}
    {O : Int → List Int} {S B U : List Int → T} {m : Mem T} (hc : 0 ≤ lo1 + color) (hc2 : 0 ≤ lo1 + color2) (hcc : (color2 - color) % 2 = 1)
    (h : F.Problem m [(lo0, hi0), (lo1, hi1)] n (F.offset0 o 2 n) (F.sm2d st n slo0 slo1 shi0 shi1) (F.box2d f flo0 flo1 fhi0 fhi1)
      (F.box2d u ulo0 ulo1 uhi0 uhi1) O S B U)
    (hd : F.Diag 2 O) (h0 : ∀ p, F.InBounds [(lo0, hi0), (lo1, hi1)] p → S (0 :: p) ≠ 0) :
    ∃ m1 m2, F.cellrbgs2d lo0 hi0 lo1 hi1 color n o slo0 shi0 slo1 shi1 st flo0 fhi0 flo1 fhi1 f ulo0 uhi0 ulo1 uhi1 u m = .ok m1 ∧
      F.cellrbgs2d lo0 hi0 lo1 hi1 color2 n o slo0 shi0 slo1 shi1 st flo0 fhi0 flo1 fhi1 f ulo0 uhi0 ulo1 uhi1 u m1 = .ok m2 ∧
      (m2 = m ↔ ∀ p, F.InBounds [(lo0, hi0), (lo1, hi1)] p → F.Eqn n O S B U p) := by
  obtain ⟨m1, U1, g1, g2, g3, g4⟩ := C52_sweep_2d_partial (color := color) hc h
  obtain ⟨m2, U2, k1, k2, k3, k4⟩ := C52_sweep_2d_partial (color := color2) hc2 (h.after g2 g3)
  refine ⟨m1, m2, g1, k1, F.both_fixed h (fun p hp => hp.1) (fun p hp => hp.1) (fun p hp hp' => F.colour_other hcc hp.2 hp'.2)
    (fun p hp => (F.colour_cover hcc (p := p) (by rw [F.inBounds2] at hp; obtain ⟨i, j, rfl, ⟨h1, h2⟩, h3, h4⟩ := hp; simp)).imp (fun h => ⟨hp, h⟩) fun h => ⟨hp, h⟩)
    (fun p hp => F.shift_diag hp rfl hd) h0
    (l := F.pts2 (F.irange lo1 hi1) (fun j => F.srange (lo0 + (j + color).tmod 2) hi0 2))
    (l2 := F.pts2 (F.irange lo1 hi1) (fun j => F.srange (lo0 + (j + color2).tmod 2) hi0 2)) (fun p => F.colour2 hc) (fun p => F.colour2 hc2)
    (F.pts2_before F.irange_lt fun _ => F.srange_lt) (F.pts2_before F.irange_lt fun _ => F.srange_lt) g3 g4 k2 k3 k4⟩

example := C52_both_2d_partial (color := 0) (color2 := 1) (by decide) (by decide) (by decide) ex_problem2 rfl fun p _ => ex_nonzero

/-- Red-black Gauss-Seidel, three dimensions: one call solves, in the order of the loops, for exactly the cells of the box that have the given colour, with the
values then current, for every box, bounds, table and arithmetic. -/
theorem C52_sweep_3d {T : Type} [NatCast T] [Add T] [Sub T] [Mul T] [Div T] [Neg T] {lo0 hi0 lo1 hi1 lo2 hi2 slo0 shi0 slo1 shi1 slo2 shi2 flo0 fhi0 flo1 fhi1 flo2 fhi2 ulo0 uhi0 ulo1 uhi1 ulo2 uhi2 n color : Int} {o st f u : Ptr}
    {O : Int → List Int} {S B U : List Int → T} {m : Mem T} (hc : 0 ≤ color)
    (h : F.Problem m [(lo0, hi0), (lo1, hi1), (lo2, hi2)] n (F.offset0 o 3 n) (F.sm3d st n slo0 slo1 slo2 shi0 shi1 shi2) (F.box3d f flo0 flo1 flo2 fhi0 fhi1 fhi2)
      (F.box3d u ulo0 ulo1 ulo2 uhi0 uhi1 uhi2) O S B U) :
    ∃ m' U', F.cellrbgs3d lo0 hi0 lo1 hi1 lo2 hi2 color n o slo0 shi0 slo1 shi1 slo2 shi2 st flo0 fhi0 flo1 fhi1 flo2 fhi2 f ulo0 uhi0 ulo1 uhi1 ulo2 uhi2 u m = .ok m' ∧ F.Holds m' (F.box3d u ulo0 ulo1 ulo2 uhi0 uhi1 uhi2) U' ∧ F.Only [(F.box3d u ulo0 ulo1 ulo2 uhi0 uhi1 uhi2)] m m' ∧
      F.Swept (fun p => F.InBounds [(lo0, hi0), (lo1, hi1), (lo2, hi2)] p ∧ F.Colour lo0 color p) n O S B U U' := by
  obtain ⟨m', U', g1, g2⟩ := F.gs_swept (l := F.pts3 (F.irange lo2 hi2) (F.irange lo1 hi1) (fun j k => F.srange (lo0 + (((j + k).natAbs : Int) + color).tmod 2) hi0 2)) (c := F.at3 (F.body3 (F.offset0 o 3 n) (F.sm3d st n slo0 slo1 slo2 shi0 shi1 shi2) (F.box3d f flo0 flo1 flo2 fhi0 fhi1 fhi2) (F.box3d u ulo0 ulo1 ulo2 uhi0 uhi1 uhi2) n))
    (P := (fun p => F.InBounds [(lo0, hi0), (lo1, hi1), (lo2, hi2)] p ∧ F.Colour lo0 color p)) h (fun p => F.colour3 hc) (fun p hp => hp.1)
    (F.pts3_before F.irange_lt F.irange_lt fun _ _ => F.srange_lt) (fun p hp m1 V hV ho => by
      have hp := hp.1
      have hp' := hp
      rw [F.inBounds3] at hp'
      obtain ⟨i, j, k, rfl, ⟨h1, h2⟩, ⟨h3, h4⟩, h5, h6⟩ := hp'
      exact F.body3_ok h hp hV ho)
  refine ⟨m', U', ?_, g2⟩
  rw [← g1]
  exact F.run3 (c := (F.body3 (F.offset0 o 3 n) (F.sm3d st n slo0 slo1 slo2 shi0 shi1 shi2) (F.box3d f flo0 flo1 flo2 fhi0 fhi1 fhi2) (F.box3d u ulo0 ulo1 ulo2 uhi0 uhi1 uhi2) n)) (fun _ _ _ _ _ _ => rfl)

example := C52_sweep_3d (color := 1) (by decide) ex_problem3

/-- When every displacement leads to the other colour, the order of the cells does not matter: after the call every cell of the colour satisfies its
equation, and its value is the one solved for with the old values. -/
theorem C52_equation_3d {T : Type} [Field T] {lo0 hi0 lo1 hi1 lo2 hi2 slo0 shi0 slo1 shi1 slo2 shi2 flo0 fhi0 flo1 fhi1 flo2 fhi2 ulo0 uhi0 ulo1 uhi1 ulo2 uhi2 n color : Int} {o st f u : Ptr}
    {O : Int → List Int} {S B U : List Int → T} {m : Mem T} (hc : 0 ≤ color)
    (h : F.Problem m [(lo0, hi0), (lo1, hi1), (lo2, hi2)] n (F.offset0 o 3 n) (F.sm3d st n slo0 slo1 slo2 shi0 shi1 shi2) (F.box3d f flo0 flo1 flo2 fhi0 fhi1 fhi2)
      (F.box3d u ulo0 ulo1 ulo2 uhi0 uhi1 uhi2) O S B U)
    (hd : F.Diag 3 O) (ho : F.OddSteps n O) (h0 : ∀ p, F.InBounds [(lo0, hi0), (lo1, hi1), (lo2, hi2)] p → S (0 :: p) ≠ 0) :
    ∃ m' U', F.cellrbgs3d lo0 hi0 lo1 hi1 lo2 hi2 color n o slo0 shi0 slo1 shi1 slo2 shi2 st flo0 fhi0 flo1 fhi1 flo2 fhi2 f ulo0 uhi0 ulo1 uhi1 ulo2 uhi2 u m = .ok m' ∧ F.Holds m' (F.box3d u ulo0 ulo1 ulo2 uhi0 uhi1 uhi2) U' ∧ F.Only [(F.box3d u ulo0 ulo1 ulo2 uhi0 uhi1 uhi2)] m m' ∧
      (∀ p, ¬ (F.InBounds [(lo0, hi0), (lo1, hi1), (lo2, hi2)] p ∧ F.Colour lo0 color p) → U' p = U p) ∧
      ∀ p, F.InBounds [(lo0, hi0), (lo1, hi1), (lo2, hi2)] p → F.Colour lo0 color p → U' p = F.solve n O S B U p ∧ F.Eqn n O S B U' p := by
  obtain ⟨m', U', g1, g2, g3, g4⟩ := C52_sweep_3d (color := color) hc h
  obtain ⟨k1, k2⟩ := g4.independent fun p hp s h1 h2 hq => F.colour_shift (by
    rw [(h.table s (by omega) h2).1, inBounds_length hp.1]) (ho s h1 h2) hp.2 hq.2
  exact ⟨m', U', g1, g2, g3, g4.other, fun p hp hcol => ⟨k1 p ⟨hp, hcol⟩,
    (F.solve_iff h.size (F.shift_diag hp rfl hd) (h0 p hp)).1 (k2 p ⟨hp, hcol⟩).symm⟩⟩

example := C52_equation_3d (color := 1) (by decide) ex_problem3 rfl ex_odd3 fun p _ => ex_nonzero

/-- One call for each colour: together they change nothing exactly when every cell of the box satisfies its equation. -/
theorem C52_both_3d {T : Type} [Field T] {lo0 hi0 lo1 hi1 lo2 hi2 slo0 shi0 slo1 shi1 slo2 shi2 flo0 fhi0 flo1 fhi1 flo2 fhi2 ulo0 uhi0 ulo1 uhi1 ulo2 uhi2 n color : Int} {o st f u : Ptr} {color2 : Int}
    {O : Int → List Int} {S B U : List Int → T} {m : Mem T} (hc : 0 ≤ color) (hc2 : 0 ≤ color2) (hcc : (color2 - color) % 2 = 1)
    (h : F.Problem m [(lo0, hi0), (lo1, hi1), (lo2, hi2)] n (F.offset0 o 3 n) (F.sm3d st n slo0 slo1 slo2 shi0 shi1 shi2) (F.box3d f flo0 flo1 flo2 fhi0 fhi1 fhi2)
      (F.box3d u ulo0 ulo1 ulo2 uhi0 uhi1 uhi2) O S B U)
    (hd : F.Diag 3 O) (h0 : ∀ p, F.InBounds [(lo0, hi0), (lo1, hi1), (lo2, hi2)] p → S (0 :: p) ≠ 0) :
    ∃ m1 m2, F.cellrbgs3d lo0 hi0 lo1 hi1 lo2 hi2 color n o slo0 shi0 slo1 shi1 slo2 shi2 st flo0 fhi0 flo1 fhi1 flo2 fhi2 f ulo0 uhi0 ulo1 uhi1 ulo2 uhi2 u m = .ok m1 ∧
      F.cellrbgs3d lo0 hi0 lo1 hi1 lo2 hi2 color2 n o slo0 shi0 slo1 shi1 slo2 shi2 st flo0 fhi0 flo1 fhi1 flo2 fhi2 f ulo0 uhi0 ulo1 uhi1 ulo2 uhi2 u m1 = .ok m2 ∧
      (m2 = m ↔ ∀ p, F.InBounds [(lo0, hi0), (lo1, hi1), (lo2, hi2)] p → F.Eqn n O S B U p) := by
  obtain ⟨m1, U1, g1, g2, g3, g4⟩ := C52_sweep_3d (color := color) hc h
  obtain ⟨m2, U2, k1, k2, k3, k4⟩ := C52_sweep_3d (color := color2) hc2 (h.after g2 g3)
  refine ⟨m1, m2, g1, k1, F.both_fixed h (fun p hp => hp.1) (fun p hp => hp.1) (fun p hp hp' => F.colour_other hcc hp.2 hp'.2)
    (fun p hp => (F.colour_cover hcc (p := p) (by rw [F.inBounds3] at hp; obtain ⟨i, j, k, rfl, ⟨h1, h2⟩, ⟨h3, h4⟩, h5, h6⟩ := hp; simp)).imp (fun h => ⟨hp, h⟩) fun h => ⟨hp, h⟩)
    (fun p hp => F.shift_diag hp rfl hd) h0
    (l := F.pts3 (F.irange lo2 hi2) (F.irange lo1 hi1) (fun j k => F.srange (lo0 + (((j + k).natAbs : Int) + color).tmod 2) hi0 2))
    (l2 := F.pts3 (F.irange lo2 hi2) (F.irange lo1 hi1) (fun j k => F.srange (lo0 + (((j + k).natAbs : Int) + color2).tmod 2) hi0 2)) (fun p => F.colour3 hc) (fun p => F.colour3 hc2)
    (F.pts3_before F.irange_lt F.irange_lt fun _ _ => F.srange_lt) (F.pts3_before F.irange_lt F.irange_lt fun _ _ => F.srange_lt) g3 g4 k2 k3 k4⟩

example := C52_both_3d (color := 0) (color2 := 1) (by decide) (by decide) (by decide) ex_problem3 rfl fun p _ => ex_nonzero

/-! ### where the routines fall short -/

/-- The factor of the two-dimensional Jacobi routine is not 0.8: on the example below the new values are not the old ones plus 0.8 times the scaled
residual. -/
theorem C50_factor_2d_false : ¬ ∀ {lo0 hi0 lo1 hi1 slo0 shi0 slo1 shi1 flo0 fhi0 flo1 fhi1 ulo0 uhi0 ulo1 uhi1 n : Int} {o st f u r : Ptr} {O : Int → List Int} {S B U R : List Int → Rat} {m : Mem Rat},
    F.Problem m [(lo0, hi0), (lo1, hi1)] n (F.offset0 o 2 n) (F.sm2d st n slo0 slo1 shi0 shi1) (F.box2d f flo0 flo1 fhi0 fhi1)
      (F.box2d u ulo0 ulo1 uhi0 uhi1) O S B U →
    F.Holds m (F.box2d r lo0 lo1 hi0 hi1) R → F.Apart (F.box2d r lo0 lo1 hi0 hi1) (F.box2d u ulo0 ulo1 uhi0 uhi1) →
    F.Apart (F.box2d r lo0 lo1 hi0 hi1) (F.sm2d st n slo0 slo1 shi0 shi1) → F.Apart (F.box2d r lo0 lo1 hi0 hi1) (F.box2d f flo0 flo1 fhi0 fhi1) →
    ∃ m' U', F.celljacobi2d lo0 hi0 lo1 hi1 n o slo0 shi0 slo1 shi1 st flo0 fhi0 flo1 fhi1 f ulo0 uhi0 ulo1 uhi1 u r m = .ok m' ∧ F.Holds m' (F.box2d u ulo0 ulo1 uhi0 uhi1) U' ∧
      ∀ p, F.InBounds [(lo0, hi0), (lo1, hi1)] p → U' p = U p + (8 / 10) * F.scaled n O S B U p := by
  intro h
  obtain ⟨m', U', h1, h2, h3⟩ := h ex_problem2 (ex_holds (F.box2d ⟨4, 0⟩ 1 2 5 6)) (ex_apart (by decide)) (ex_apart (by decide)) (ex_apart (by decide))
  have a := (h2 [1, 2] (by decide)).2
  have b := run_val (q := (F.box2d ⟨3, 0⟩ 0 0 6 7).addrT [1, 2]) h1 rfl
  have c : (F.box2d ⟨3, 0⟩ 0 0 6 7).ptr.add (F.colMajor (F.box2d ⟨3, 0⟩ 0 0 6 7).dims [1, 2]) = (F.box2d ⟨3, 0⟩ 0 0 6 7).addrT [1, 2] := rfl
  rw [c, b, h3 [1, 2] (by decide)] at a
  revert a
  decide +kernel

/-- `cellgs1d` with bounds of `f` that are not those of `u`: the right hand side of another cell is used. -/
theorem C51_gs_1d_false : ¬ ∀ {lo0 hi0 slo0 shi0 flo0 fhi0 ulo0 uhi0 n : Int} {o st f u : Ptr} {O : Int → List Int} {S B U : List Int → Rat} {m : Mem Rat},
    F.Problem m [(lo0, hi0)] n (F.offset0 o 1 n) (F.sm1d st n slo0 shi0) (F.box1d f flo0 fhi0)
      (F.box1d u ulo0 uhi0) O S B U →
    ∃ m' U', F.cellgs1d lo0 hi0 n o slo0 shi0 st flo0 fhi0 f ulo0 uhi0 u m = .ok m' ∧ F.Holds m' (F.box1d u ulo0 uhi0) U' ∧ F.Only [(F.box1d u ulo0 uhi0)] m m' ∧
      F.Swept (F.InBounds [(lo0, hi0)]) n O S B U U' := by
  intro h
  obtain ⟨m', U', h1, h2, -, h3⟩ := h ex_problem_f
  have a := (h2 [1] (by decide)).2
  have b := run_val (q := (F.box1d ⟨3, 0⟩ 1 2).addrT [1]) h1 rfl
  have c : (F.box1d ⟨3, 0⟩ 1 2).ptr.add (F.colMajor (F.box1d ⟨3, 0⟩ 1 2).dims [1]) = (F.box1d ⟨3, 0⟩ 1 2).addrT [1] := rfl
  have e : U' [1] = exC (F.box1d ⟨2, 0⟩ 0 3) [1] / exC (F.sm1d ⟨1, 0⟩ 1 1 2) [0, 1] := h3.cell [1] (by decide)
  rw [c, b, e] at a
  revert a
  decide +kernel

/-- `cellrbgs2d` on a row with `j + color` negative and odd: Fortran's `mod` is negative, and a cell outside the box is changed. -/
theorem C52_sweep_2d_false : ¬ ∀ {lo0 hi0 lo1 hi1 slo0 shi0 slo1 shi1 flo0 fhi0 flo1 fhi1 ulo0 uhi0 ulo1 uhi1 n color : Int} {o st f u : Ptr} {O : Int → List Int} {S B U : List Int → Rat} {m : Mem Rat},
    F.Problem m [(lo0, hi0), (lo1, hi1)] n (F.offset0 o 2 n) (F.sm2d st n slo0 slo1 shi0 shi1) (F.box2d f flo0 flo1 fhi0 fhi1)
      (F.box2d u ulo0 ulo1 uhi0 uhi1) O S B U →
    ∃ m' U', F.cellrbgs2d lo0 hi0 lo1 hi1 color n o slo0 shi0 slo1 shi1 st flo0 fhi0 flo1 fhi1 f ulo0 uhi0 ulo1 uhi1 u m = .ok m' ∧ F.Holds m' (F.box2d u ulo0 ulo1 uhi0 uhi1) U' ∧
      F.Only [(F.box2d u ulo0 ulo1 uhi0 uhi1)] m m' ∧ F.Swept (fun p => F.InBounds [(lo0, hi0), (lo1, hi1)] p ∧ F.Colour lo0 color p) n O S B U U' := by
  intro h
  obtain ⟨m', U', h1, h2, -, h3⟩ := h (color := 0) ex_problem_n
  have a := (h2 [-1, -1] (by decide)).2
  have b := run_val (q := (F.box2d ⟨3, 0⟩ (-2) (-3) 3 1).addrT [-1, -1]) h1 rfl
  have c : (F.box2d ⟨3, 0⟩ (-2) (-3) 3 1).ptr.add (F.colMajor (F.box2d ⟨3, 0⟩ (-2) (-3) 3 1).dims [-1, -1]) =
    (F.box2d ⟨3, 0⟩ (-2) (-3) 3 1).addrT [-1, -1] := rfl
  rw [c, b, h3.other [-1, -1] (by decide)] at a
  revert a
  decide +kernel

/-- `cells9rbgs2d`: diagonal neighbours have the same colour, so a cell solved for first no longer satisfies its equation when the call ends. -/
theorem C52_nine_false : ¬ ∀ {lo0 hi0 lo1 hi1 slo0 shi0 slo1 shi1 flo0 fhi0 flo1 fhi1 ulo0 uhi0 ulo1 uhi1 color : Int} {o st f u : Ptr} {S B U : List Int → Rat} {m : Mem Rat},
    0 ≤ lo1 + color → F.Problem m [(lo0, hi0), (lo1, hi1)] 9 (F.offset0 o 2 9) (F.sm2d st 9 slo0 slo1 shi0 shi1) (F.box2d f flo0 flo1 fhi0 fhi1)
      (F.box2d u ulo0 ulo1 uhi0 uhi1) (exO rows9) S B U → (∀ p, F.InBounds [(lo0, hi0), (lo1, hi1)] p → S (0 :: p) ≠ 0) →
    ∃ m' U', F.cells9rbgs2d lo0 hi0 lo1 hi1 color slo0 shi0 slo1 shi1 st flo0 fhi0 flo1 fhi1 f ulo0 uhi0 ulo1 uhi1 u m = .ok m' ∧ F.Holds m' (F.box2d u ulo0 ulo1 uhi0 uhi1) U' ∧
      ∀ p, F.InBounds [(lo0, hi0), (lo1, hi1)] p → F.Colour lo0 color p → F.Eqn 9 (exO rows9) S B U' p := by
  intro h
  obtain ⟨m', U', h1, h2, h3⟩ := h (color := 0) (by decide) ex_problem9 fun p _ => ex_nonzero
  have v : ∀ p, F.InBounds (F.box2d ⟨3, 0⟩ 0 0 3 3).dims p → U' p = (valOf (F.cells9rbgs2d 1 2 1 2 0 0 3 0 3 ⟨1, 0⟩ 0 3 0 3 ⟨2, 0⟩ 0 3 0 3 ⟨3, 0⟩ exSm)
      ((F.box2d ⟨3, 0⟩ 0 0 3 3).addrT p)).getD 0 := fun p hp => by
    have a := (h2 p hp).2
    have b := run_val (q := (F.box2d ⟨3, 0⟩ 0 0 3 3).addrT p) h1 rfl
    have c : (F.box2d ⟨3, 0⟩ 0 0 3 3).ptr.add (F.colMajor (F.box2d ⟨3, 0⟩ 0 0 3 3).dims p) = (F.box2d ⟨3, 0⟩ 0 0 3 3).addrT p := rfl
    rw [c, b] at a
    rw [a]; rfl
  have e := h3 [2, 1] (by decide) (by decide)
  have g : F.sum 0 (9 - 1) (fun s => exC (F.sm2d ⟨1, 0⟩ 9 0 0 3 3) (s :: [2, 1]) * U' (F.shift [2, 1] (exO rows9 s))) =
      F.sum 0 (9 - 1) (fun s => exC (F.sm2d ⟨1, 0⟩ 9 0 0 3 3) (s :: [2, 1]) *
        (valOf (F.cells9rbgs2d 1 2 1 2 0 0 3 0 3 ⟨1, 0⟩ 0 3 0 3 ⟨2, 0⟩ 0 3 0 3 ⟨3, 0⟩ exSm) ((F.box2d ⟨3, 0⟩ 0 0 3 3).addrT (F.shift [2, 1] (exO rows9 s)))).getD 0) := by
    unfold F.sum
    refine congrArg List.sum (List.map_congr_left fun s hs => ?_)
    have hs := F.mem_irange.1 hs
    rw [v _ (ex_problem9.near [2, 1] (by decide) s (by omega) (by omega))]
  have e2 := g.symm.trans e
  revert e2
  decide +kernel

end Verif
