import Verif.Lemmas.RoundSmoothEx
import Verif.Props.Smooth
import Verif.Props.SmoothConv

/-
C83: in 53 bit arithmetic the smoothers converge until the error is of the size of the rounding errors of one sweep.
-/

set_option linter.unusedVariables false

namespace Verif
open Spec

/-- Damped Jacobi in 53 bit arithmetic, one dimension: after `k` sweeps the unknowns are off the exact solution of the stored equations by at most the
error at the start times the `k`th power of a rate, plus an amount of the order of the rounding errors of one sweep. -/
theorem C83_jacobi_1d {lo0 hi0 slo0 shi0 flo0 fhi0 ulo0 uhi0 n : Int} {o st f u : Ptr} {r : Ptr}
    {O : Int → List Int} {S B U : List Int → B64} {X w : List Int → Rat} {q E Z : Rat} {m : Mem B64} {R : List Int → B64}
    (h : F.Problem m [(lo0, hi0)] n (F.offset0 o 1 n) (F.sm1d st n slo0 shi0) (F.box1d f flo0 fhi0)
      (F.box1d u ulo0 uhi0) O S B U)
    (hr : F.Holds m (F.box1d r lo0 hi0) R) (ru : F.Apart (F.box1d r lo0 hi0) (F.box1d u ulo0 uhi0)) (rs : F.Apart (F.box1d r lo0 hi0) (F.sm1d st n slo0 shi0)) (rf : F.Apart (F.box1d r lo0 hi0) (F.box1d f flo0 fhi0))
    (hd : F.Diag 1 O) (hq : F.Dominant [(lo0, hi0)] n O q w (F.vals S)) (hZ : F.Sized [(lo0, hi0)] n O (F.vals S) (F.vals B) X w Z)
    (h1 : F.jrate (F.drift (n.toNat + 4)) ((2 : Nat) / (3 : Nat) : B64).v q < 1) (hX : ∀ p, F.InBounds [(lo0, hi0)] p → F.Eqn n O (F.vals S) (F.vals B) X p)
    (hU : ∀ p, ¬ F.InBounds [(lo0, hi0)] p → (U p).v = X p) (hE : ∀ p, F.InBounds [(lo0, hi0)] p → |(U p).v - X p| ≤ E * w p) (k : Nat) :
    ∃ m' U', F.times (F.celljacobi1d lo0 hi0 n o slo0 shi0 st flo0 fhi0 f ulo0 uhi0 u r) k m = .ok m' ∧
      F.Holds m' (F.box1d u ulo0 uhi0) U' ∧ F.Only [(F.box1d u ulo0 uhi0), (F.box1d r lo0 hi0)] m m' ∧
      (∀ p, ¬ F.InBounds [(lo0, hi0)] p → (U' p).v = X p) ∧ ∀ p, F.InBounds [(lo0, hi0)] p → |(U' p).v - X p| ≤
        (F.jrate (F.drift (n.toNat + 4)) ((2 : Nat) / (3 : Nat) : B64).v q ^ k * E + F.drift (n.toNat + 4) * (1 + ((2 : Nat) / (3 : Nat) : B64).v) * Z / (1 - F.jrate (F.drift (n.toNat + 4)) ((2 : Nat) / (3 : Nat) : B64).v q)) * w p :=
  F.jacobi_round (d := ((2 : Nat) / (3 : Nat) : B64)) (by decide +kernel) (by decide +kernel) (box := [(lo0, hi0)]) (fun p hp => by exact F.shift_diag hp rfl hd) hq hZ h1 hX ⟨hU, hE⟩ rs rf h hr
    (fun m1 U1 R1 hp1 hr1 => C50_jacobi_1d hp1 hr1 ru rs rf) k

example (k : Nat) := C83_jacobi_1d (r := ⟨4, 0⟩) (toB_problem ex_conv1) (R := fun _ => 0) (fun _ hi => ⟨hi, rfl⟩) (ex_apart (by decide)) (ex_apart (by decide)) (ex_apart (by decide))
  rfl ex_domB1 ex_sized1 (by ex_rate) ex_eqnB1 ex_outB1 ex_errB1 k

/-- Gauss-Seidel in 53 bit arithmetic, one dimension: after `k` sweeps the unknowns are off the exact solution of the stored equations by at most
`((1 + g) q)^k E + g Z / (1 - (1 + g) q)`, where `g` is what `n + 1` roundings can do. (Partial: the bounds of `f` must be those of `u`, see `C51_gs_1d_false`.) -/
theorem C83_gs_1d_partial {lo0 hi0 slo0 shi0 flo0 fhi0 ulo0 uhi0 n : Int} {o st f u : Ptr}
    {O : Int → List Int} {S B U : List Int → B64} {X w : List Int → Rat} {q E Z : Rat} {m : Mem B64} (hf : flo0 = ulo0)
    (h : F.Problem m [(lo0, hi0)] n (F.offset0 o 1 n) (F.sm1d st n slo0 shi0) (F.box1d f flo0 fhi0)
      (F.box1d u ulo0 uhi0) O S B U)
    (hd : F.Diag 1 O) (hq : F.Dominant [(lo0, hi0)] n O q w (F.vals S)) (hZ : F.Sized [(lo0, hi0)] n O (F.vals S) (F.vals B) X w Z)
    (h1 : (1 + F.drift (n.toNat + 1)) * q < 1) (hX : ∀ p, F.InBounds [(lo0, hi0)] p → F.Eqn n O (F.vals S) (F.vals B) X p)
    (hU : ∀ p, ¬ F.InBounds [(lo0, hi0)] p → (U p).v = X p) (hE : ∀ p, F.InBounds [(lo0, hi0)] p → |(U p).v - X p| ≤ E * w p) (k : Nat) :
    ∃ m' U', F.times (F.cellgs1d lo0 hi0 n o slo0 shi0 st flo0 fhi0 f ulo0 uhi0 u) k m = .ok m' ∧
      F.Holds m' (F.box1d u ulo0 uhi0) U' ∧ F.Only [(F.box1d u ulo0 uhi0)] m m' ∧
      (∀ p, ¬ F.InBounds [(lo0, hi0)] p → (U' p).v = X p) ∧ ∀ p, F.InBounds [(lo0, hi0)] p → |(U' p).v - X p| ≤
        (((1 + F.drift (n.toNat + 1)) * q) ^ k * E + F.drift (n.toNat + 1) * Z / (1 - (1 + F.drift (n.toNat + 1)) * q)) * w p :=
  F.gs_round (box := [(lo0, hi0)]) (fun p hp => by exact F.shift_diag hp rfl hd) hq hZ h1 hX ⟨hU, hE⟩ (l := F.pts1 (F.irange lo0 hi0)) (fun p => F.all1) (F.pts1_before F.irange_lt) h
    (fun m1 U1 hp1 => C51_gs_1d_partial hf hp1) k

example (k : Nat) := C83_gs_1d_partial rfl (toB_problem ex_conv1) rfl ex_domB1 ex_sized1 (by ex_rate) ex_eqnB1 ex_outB1 ex_errB1 k

/-- Red-black Gauss-Seidel in 53 bit arithmetic, one dimension: after `k` sweeps the unknowns are off the exact solution of the stored equations by at most
`((1 + g) q)^k E + g Z / (1 - (1 + g) q)`, where `g` is what `n + 1` roundings can do. -/
theorem C83_rbgs_1d {lo0 hi0 slo0 shi0 flo0 fhi0 ulo0 uhi0 n color : Int} {o st f u : Ptr} {color2 : Int}
    {O : Int → List Int} {S B U : List Int → B64} {X w : List Int → Rat} {q E Z : Rat} {m : Mem B64} (hc : 0 ≤ color) (hc2 : 0 ≤ color2) (hcc : (color2 - color) % 2 = 1)
    (h : F.Problem m [(lo0, hi0)] n (F.offset0 o 1 n) (F.sm1d st n slo0 shi0) (F.box1d f flo0 fhi0)
      (F.box1d u ulo0 uhi0) O S B U)
    (hd : F.Diag 1 O) (hq : F.Dominant [(lo0, hi0)] n O q w (F.vals S)) (hZ : F.Sized [(lo0, hi0)] n O (F.vals S) (F.vals B) X w Z)
    (h1 : (1 + F.drift (n.toNat + 1)) * q < 1) (hX : ∀ p, F.InBounds [(lo0, hi0)] p → F.Eqn n O (F.vals S) (F.vals B) X p)
    (hU : ∀ p, ¬ F.InBounds [(lo0, hi0)] p → (U p).v = X p) (hE : ∀ p, F.InBounds [(lo0, hi0)] p → |(U p).v - X p| ≤ E * w p) (k : Nat) :
    ∃ m' U', F.times (fun m => F.cellrbgs1d lo0 hi0 color n o slo0 shi0 st flo0 fhi0 f ulo0 uhi0 u m >>=
        F.cellrbgs1d lo0 hi0 color2 n o slo0 shi0 st flo0 fhi0 f ulo0 uhi0 u) k m = .ok m' ∧
      F.Holds m' (F.box1d u ulo0 uhi0) U' ∧ F.Only [(F.box1d u ulo0 uhi0)] m m' ∧
      (∀ p, ¬ F.InBounds [(lo0, hi0)] p → (U' p).v = X p) ∧ ∀ p, F.InBounds [(lo0, hi0)] p → |(U' p).v - X p| ≤
        (((1 + F.drift (n.toNat + 1)) * q) ^ k * E + F.drift (n.toNat + 1) * Z / (1 - (1 + F.drift (n.toNat + 1)) * q)) * w p :=
  F.both_round (P := fun p => F.InBounds [(lo0, hi0)] p ∧ F.Colour lo0 color p) (Q := fun p => F.InBounds [(lo0, hi0)] p ∧ F.Colour lo0 color2 p)
    (box := [(lo0, hi0)]) (fun p hp => by exact F.shift_diag hp rfl hd) hq hZ h1 (fun p hp => hp.1) (fun p hp => hp.1)
    (fun p hp => (F.colour_cover hcc (p := p) (by rw [F.inBounds1] at hp; obtain ⟨i, rfl, h1, h2⟩ := hp; simp)).imp (fun h => ⟨hp, h⟩) fun h => ⟨hp, h⟩)
    (fun p hp hp' => F.colour_other hcc hp.2 hp'.2) hX ⟨hU, hE⟩
    (l := F.pts1 (F.srange (lo0 + color.tmod 2) hi0 2))
    (l2 := F.pts1 (F.srange (lo0 + color2.tmod 2) hi0 2)) (fun p => F.colour1 hc)
    (F.pts1_before F.srange_lt) (fun p => F.colour1 hc2) (F.pts1_before F.srange_lt) h
    (fun m1 U1 hp1 => by
      obtain ⟨m2, U2, g1, g2, g3, g4⟩ := C52_sweep_1d (color := color) hc hp1
      obtain ⟨m3, U3, k1, k2, k3, k4⟩ := C52_sweep_1d (color := color2) hc2 (hp1.after g2 g3)
      exact ⟨m3, U2, U3, by rw [g1, M.ok_bind, k1], k2, g3.trans k3, g4, k4⟩) k

example (k : Nat) := C83_rbgs_1d (color := 0) (color2 := 1) (by decide) (by decide) (by decide) (toB_problem ex_conv1) rfl ex_domB1 ex_sized1 (by ex_rate) ex_eqnB1 ex_outB1 ex_errB1 k

/-- Damped Jacobi in 53 bit arithmetic, two dimensions: after `k` sweeps the unknowns are off the exact solution of the stored equations by at most the
error at the start times the `k`th power of a rate, plus an amount of the order of the rounding errors of one sweep. -/
theorem C83_jacobi_2d {lo0 hi0 lo1 hi1 slo0 shi0 slo1 shi1 flo0 fhi0 flo1 fhi1 ulo0 uhi0 ulo1 uhi1 n : Int} {o st f u : Ptr} {r : Ptr}
    {O : Int → List Int} {S B U : List Int → B64} {X w : List Int → Rat} {q E Z : Rat} {m : Mem B64} {R : List Int → B64}
    (h : F.Problem m [(lo0, hi0), (lo1, hi1)] n (F.offset0 o 2 n) (F.sm2d st n slo0 slo1 shi0 shi1) (F.box2d f flo0 flo1 fhi0 fhi1)
      (F.box2d u ulo0 ulo1 uhi0 uhi1) O S B U)
    (hr : F.Holds m (F.box2d r lo0 lo1 hi0 hi1) R) (ru : F.Apart (F.box2d r lo0 lo1 hi0 hi1) (F.box2d u ulo0 ulo1 uhi0 uhi1)) (rs : F.Apart (F.box2d r lo0 lo1 hi0 hi1) (F.sm2d st n slo0 slo1 shi0 shi1)) (rf : F.Apart (F.box2d r lo0 lo1 hi0 hi1) (F.box2d f flo0 flo1 fhi0 fhi1))
    (hd : F.Diag 2 O) (hq : F.Dominant [(lo0, hi0), (lo1, hi1)] n O q w (F.vals S)) (hZ : F.Sized [(lo0, hi0), (lo1, hi1)] n O (F.vals S) (F.vals B) X w Z)
    (h1 : F.jrate (F.drift (n.toNat + 4)) ((13421773 : Nat) / (16777216 : Nat) : B64).v q < 1) (hX : ∀ p, F.InBounds [(lo0, hi0), (lo1, hi1)] p → F.Eqn n O (F.vals S) (F.vals B) X p)
    (hU : ∀ p, ¬ F.InBounds [(lo0, hi0), (lo1, hi1)] p → (U p).v = X p) (hE : ∀ p, F.InBounds [(lo0, hi0), (lo1, hi1)] p → |(U p).v - X p| ≤ E * w p) (k : Nat) :
    ∃ m' U', F.times (F.celljacobi2d lo0 hi0 lo1 hi1 n o slo0 shi0 slo1 shi1 st flo0 fhi0 flo1 fhi1 f ulo0 uhi0 ulo1 uhi1 u r) k m = .ok m' ∧
      F.Holds m' (F.box2d u ulo0 ulo1 uhi0 uhi1) U' ∧ F.Only [(F.box2d u ulo0 ulo1 uhi0 uhi1), (F.box2d r lo0 lo1 hi0 hi1)] m m' ∧
      (∀ p, ¬ F.InBounds [(lo0, hi0), (lo1, hi1)] p → (U' p).v = X p) ∧ ∀ p, F.InBounds [(lo0, hi0), (lo1, hi1)] p → |(U' p).v - X p| ≤
        (F.jrate (F.drift (n.toNat + 4)) ((13421773 : Nat) / (16777216 : Nat) : B64).v q ^ k * E + F.drift (n.toNat + 4) * (1 + ((13421773 : Nat) / (16777216 : Nat) : B64).v) * Z / (1 - F.jrate (F.drift (n.toNat + 4)) ((13421773 : Nat) / (16777216 : Nat) : B64).v q)) * w p :=
  F.jacobi_round (d := ((13421773 : Nat) / (16777216 : Nat) : B64)) (by decide +kernel) (by decide +kernel) (box := [(lo0, hi0), (lo1, hi1)]) (fun p hp => by exact F.shift_diag hp rfl hd) hq hZ h1 hX ⟨hU, hE⟩ rs rf h hr
    (fun m1 U1 R1 hp1 hr1 => C50_jacobi_2d hp1 hr1 ru rs rf) k

example (k : Nat) := C83_jacobi_2d (r := ⟨4, 0⟩) (toB_problem ex_conv2) (R := fun _ => 0) (fun _ hi => ⟨hi, rfl⟩) (ex_apart (by decide)) (ex_apart (by decide)) (ex_apart (by decide))
  rfl ex_domB2 ex_sized2 (by ex_rate) ex_eqnB2 ex_outB2 ex_errB2 k

/-- Gauss-Seidel in 53 bit arithmetic, two dimensions: after `k` sweeps the unknowns are off the exact solution of the stored equations by at most
`((1 + g) q)^k E + g Z / (1 - (1 + g) q)`, where `g` is what `n + 1` roundings can do. -/
theorem C83_gs_2d {lo0 hi0 lo1 hi1 slo0 shi0 slo1 shi1 flo0 fhi0 flo1 fhi1 ulo0 uhi0 ulo1 uhi1 n : Int} {o st f u : Ptr}
    {O : Int → List Int} {S B U : List Int → B64} {X w : List Int → Rat} {q E Z : Rat} {m : Mem B64}
    (h : F.Problem m [(lo0, hi0), (lo1, hi1)] n (F.offset0 o 2 n) (F.sm2d st n slo0 slo1 shi0 shi1) (F.box2d f flo0 flo1 fhi0 fhi1)
      (F.box2d u ulo0 ulo1 uhi0 uhi1) O S B U)
    (hd : F.Diag 2 O) (hq : F.Dominant [(lo0, hi0), (lo1, hi1)] n O q w (F.vals S)) (hZ : F.Sized [(lo0, hi0), (lo1, hi1)] n O (F.vals S) (F.vals B) X w Z)
    (h1 : (1 + F.drift (n.toNat + 1)) * q < 1) (hX : ∀ p, F.InBounds [(lo0, hi0), (lo1, hi1)] p → F.Eqn n O (F.vals S) (F.vals B) X p)
    (hU : ∀ p, ¬ F.InBounds [(lo0, hi0), (lo1, hi1)] p → (U p).v = X p) (hE : ∀ p, F.InBounds [(lo0, hi0), (lo1, hi1)] p → |(U p).v - X p| ≤ E * w p) (k : Nat) :
    ∃ m' U', F.times (F.cellgs2d lo0 hi0 lo1 hi1 n o slo0 shi0 slo1 shi1 st flo0 fhi0 flo1 fhi1 f ulo0 uhi0 ulo1 uhi1 u) k m = .ok m' ∧
      F.Holds m' (F.box2d u ulo0 ulo1 uhi0 uhi1) U' ∧ F.Only [(F.box2d u ulo0 ulo1 uhi0 uhi1)] m m' ∧
      (∀ p, ¬ F.InBounds [(lo0, hi0), (lo1, hi1)] p → (U' p).v = X p) ∧ ∀ p, F.InBounds [(lo0, hi0), (lo1, hi1)] p → |(U' p).v - X p| ≤
        (((1 + F.drift (n.toNat + 1)) * q) ^ k * E + F.drift (n.toNat + 1) * Z / (1 - (1 + F.drift (n.toNat + 1)) * q)) * w p :=
  F.gs_round (box := [(lo0, hi0), (lo1, hi1)]) (fun p hp => by exact F.shift_diag hp rfl hd) hq hZ h1 hX ⟨hU, hE⟩ (l := F.pts2 (F.irange lo1 hi1) (fun _ => F.irange lo0 hi0)) (fun p => F.all2) (F.pts2_before F.irange_lt fun _ => F.irange_lt) h
    (fun m1 U1 hp1 => C51_gs_2d hp1) k

example (k : Nat) := C83_gs_2d (toB_problem ex_conv2) rfl ex_domB2 ex_sized2 (by ex_rate) ex_eqnB2 ex_outB2 ex_errB2 k

/-- Red-black Gauss-Seidel in 53 bit arithmetic, two dimensions: after `k` sweeps the unknowns are off the exact solution of the stored equations by at most
`((1 + g) q)^k E + g Z / (1 - (1 + g) q)`, where `g` is what `n + 1` roundings can do. (Partial: rows with `j + color` negative are excluded, see `C52_sweep_2d_false`.) -/
theorem C83_rbgs_2d_partial {lo0 hi0 lo1 hi1 slo0 shi0 slo1 shi1 flo0 fhi0 flo1 fhi1 ulo0 uhi0 ulo1 uhi1 n color : Int} {o st f u : Ptr} {color2 : Int}
    {O : Int → List Int} {S B U : List Int → B64} {X w : List Int → Rat} {q E Z : Rat} {m : Mem B64} (hc : 0 ≤ lo1 + color) (hc2 : 0 ≤ lo1 + color2) (hcc : (color2 - color) % 2 = 1)
    (h : F.Problem m [(lo0, hi0), (lo1, hi1)] n (F.offset0 o 2 n) (F.sm2d st n slo0 slo1 shi0 shi1) (F.box2d f flo0 flo1 fhi0 fhi1)
      (F.box2d u ulo0 ulo1 uhi0 uhi1) O S B U)
    (hd : F.Diag 2 O) (hq : F.Dominant [(lo0, hi0), (lo1, hi1)] n O q w (F.vals S)) (hZ : F.Sized [(lo0, hi0), (lo1, hi1)] n O (F.vals S) (F.vals B) X w Z)
    (h1 : (1 + F.drift (n.toNat + 1)) * q < 1) (hX : ∀ p, F.InBounds [(lo0, hi0), (lo1, hi1)] p → F.Eqn n O (F.vals S) (F.vals B) X p)
    (hU : ∀ p, ¬ F.InBounds [(lo0, hi0), (lo1, hi1)] p → (U p).v = X p) (hE : ∀ p, F.InBounds [(lo0, hi0), (lo1, hi1)] p → |(U p).v - X p| ≤ E * w p) (k : Nat) :
    ∃ m' U', F.times (fun m => F.cellrbgs2d lo0 hi0 lo1 hi1 color n o slo0 shi0 slo1 shi1 st flo0 fhi0 flo1 fhi1 f ulo0 uhi0 ulo1 uhi1 u m >>=
        F.cellrbgs2d lo0 hi0 lo1 hi1 color2 n o slo0 shi0 slo1 shi1 st flo0 fhi0 flo1 fhi1 f ulo0 uhi0 ulo1 uhi1 u) k m = .ok m' ∧
      F.Holds m' (F.box2d u ulo0 ulo1 uhi0 uhi1) U' ∧ F.Only [(F.box2d u ulo0 ulo1 uhi0 uhi1)] m m' ∧
      (∀ p, ¬ F.InBounds [(lo0, hi0), (lo1, hi1)] p → (U' p).v = X p) ∧ ∀ p, F.InBounds [(lo0, hi0), (lo1, hi1)] p → |(U' p).v - X p| ≤
        (((1 + F.drift (n.toNat + 1)) * q) ^ k * E + F.drift (n.toNat + 1) * Z / (1 - (1 + F.drift (n.toNat + 1)) * q)) * w p :=
  F.both_round (P := fun p => F.InBounds [(lo0, hi0), (lo1, hi1)] p ∧ F.Colour lo0 color p) (Q := fun p => F.InBounds [(lo0, hi0), (lo1, hi1)] p ∧ F.Colour lo0 color2 p)
    (box := [(lo0, hi0), (lo1, hi1)]) (fun p hp => by exact F.shift_diag hp rfl hd) hq hZ h1 (fun p hp => hp.1) (fun p hp => hp.1)
    (fun p hp => (F.colour_cover hcc (p := p) (by rw [F.inBounds2] at hp; obtain ⟨i, j, rfl, ⟨h1, h2⟩, h3, h4⟩ := hp; simp)).imp (fun h => ⟨hp, h⟩) fun h => ⟨hp, h⟩)
    (fun p hp hp' => F.colour_other hcc hp.2 hp'.2) hX ⟨hU, hE⟩
    (l := F.pts2 (F.irange lo1 hi1) (fun j => F.srange (lo0 + (j + color).tmod 2) hi0 2))
    (l2 := F.pts2 (F.irange lo1 hi1) (fun j => F.srange (lo0 + (j + color2).tmod 2) hi0 2)) (fun p => F.colour2 hc)
    (F.pts2_before F.irange_lt fun _ => F.srange_lt) (fun p => F.colour2 hc2) (F.pts2_before F.irange_lt fun _ => F.srange_lt) h
    (fun m1 U1 hp1 => by
      obtain ⟨m2, U2, g1, g2, g3, g4⟩ := C52_sweep_2d_partial (color := color) hc hp1
      obtain ⟨m3, U3, k1, k2, k3, k4⟩ := C52_sweep_2d_partial (color := color2) hc2 (hp1.after g2 g3)
      exact ⟨m3, U2, U3, by rw [g1, M.ok_bind, k1], k2, g3.trans k3, g4, k4⟩) k

example (k : Nat) := C83_rbgs_2d_partial (color := 0) (color2 := 1) (by decide) (by decide) (by decide) (toB_problem ex_conv2) rfl ex_domB2 ex_sized2 (by ex_rate) ex_eqnB2 ex_outB2 ex_errB2 k

/-- Damped Jacobi in 53 bit arithmetic, three dimensions: after `k` sweeps the unknowns are off the exact solution of the stored equations by at most the
error at the start times the `k`th power of a rate, plus an amount of the order of the rounding errors of one sweep. -/
theorem C83_jacobi_3d {lo0 hi0 lo1 hi1 lo2 hi2 slo0 shi0 slo1 shi1 slo2 shi2 flo0 fhi0 flo1 fhi1 flo2 fhi2 ulo0 uhi0 ulo1 uhi1 ulo2 uhi2 n : Int} {o st f u : Ptr} {r : Ptr}
    {O : Int → List Int} {S B U : List Int → B64} {X w : List Int → Rat} {q E Z : Rat} {m : Mem B64} {R : List Int → B64}
    (h : F.Problem m [(lo0, hi0), (lo1, hi1), (lo2, hi2)] n (F.offset0 o 3 n) (F.sm3d st n slo0 slo1 slo2 shi0 shi1 shi2) (F.box3d f flo0 flo1 flo2 fhi0 fhi1 fhi2)
      (F.box3d u ulo0 ulo1 ulo2 uhi0 uhi1 uhi2) O S B U)
    (hr : F.Holds m (F.box3d r lo0 lo1 lo2 hi0 hi1 hi2) R) (ru : F.Apart (F.box3d r lo0 lo1 lo2 hi0 hi1 hi2) (F.box3d u ulo0 ulo1 ulo2 uhi0 uhi1 uhi2)) (rs : F.Apart (F.box3d r lo0 lo1 lo2 hi0 hi1 hi2) (F.sm3d st n slo0 slo1 slo2 shi0 shi1 shi2)) (rf : F.Apart (F.box3d r lo0 lo1 lo2 hi0 hi1 hi2) (F.box3d f flo0 flo1 flo2 fhi0 fhi1 fhi2))
    (hd : F.Diag 3 O) (hq : F.Dominant [(lo0, hi0), (lo1, hi1), (lo2, hi2)] n O q w (F.vals S)) (hZ : F.Sized [(lo0, hi0), (lo1, hi1), (lo2, hi2)] n O (F.vals S) (F.vals B) X w Z)
    (h1 : F.jrate (F.drift (n.toNat + 4)) ((8 : Nat) / (10 : Nat) : B64).v q < 1) (hX : ∀ p, F.InBounds [(lo0, hi0), (lo1, hi1), (lo2, hi2)] p → F.Eqn n O (F.vals S) (F.vals B) X p)
    (hU : ∀ p, ¬ F.InBounds [(lo0, hi0), (lo1, hi1), (lo2, hi2)] p → (U p).v = X p) (hE : ∀ p, F.InBounds [(lo0, hi0), (lo1, hi1), (lo2, hi2)] p → |(U p).v - X p| ≤ E * w p) (k : Nat) :
    ∃ m' U', F.times (F.celljacobi3d lo0 hi0 lo1 hi1 lo2 hi2 n o slo0 shi0 slo1 shi1 slo2 shi2 st flo0 fhi0 flo1 fhi1 flo2 fhi2 f ulo0 uhi0 ulo1 uhi1 ulo2 uhi2 u r) k m = .ok m' ∧
      F.Holds m' (F.box3d u ulo0 ulo1 ulo2 uhi0 uhi1 uhi2) U' ∧ F.Only [(F.box3d u ulo0 ulo1 ulo2 uhi0 uhi1 uhi2), (F.box3d r lo0 lo1 lo2 hi0 hi1 hi2)] m m' ∧
      (∀ p, ¬ F.InBounds [(lo0, hi0), (lo1, hi1), (lo2, hi2)] p → (U' p).v = X p) ∧ ∀ p, F.InBounds [(lo0, hi0), (lo1, hi1), (lo2, hi2)] p → |(U' p).v - X p| ≤
        (F.jrate (F.drift (n.toNat + 4)) ((8 : Nat) / (10 : Nat) : B64).v q ^ k * E + F.drift (n.toNat + 4) * (1 + ((8 : Nat) / (10 : Nat) : B64).v) * Z / (1 - F.jrate (F.drift (n.toNat + 4)) ((8 : Nat) / (10 : Nat) : B64).v q)) * w p :=
  F.jacobi_round (d := ((8 : Nat) / (10 : Nat) : B64)) (by decide +kernel) (by decide +kernel) (box := [(lo0, hi0), (lo1, hi1), (lo2, hi2)]) (fun p hp => by exact F.shift_diag hp rfl hd) hq hZ h1 hX ⟨hU, hE⟩ rs rf h hr
    (fun m1 U1 R1 hp1 hr1 => C50_jacobi_3d hp1 hr1 ru rs rf) k

example (k : Nat) := C83_jacobi_3d (r := ⟨4, 0⟩) (toB_problem ex_conv3) (R := fun _ => 0) (fun _ hi => ⟨hi, rfl⟩) (ex_apart (by decide)) (ex_apart (by decide)) (ex_apart (by decide))
  rfl ex_domB3 ex_sized3 (by ex_rate) ex_eqnB3 ex_outB3 ex_errB3 k

/-- Gauss-Seidel in 53 bit arithmetic, three dimensions: after `k` sweeps the unknowns are off the exact solution of the stored equations by at most
`((1 + g) q)^k E + g Z / (1 - (1 + g) q)`, where `g` is what `n + 1` roundings can do. -/
theorem C83_gs_3d {lo0 hi0 lo1 hi1 lo2 hi2 slo0 shi0 slo1 shi1 slo2 shi2 flo0 fhi0 flo1 fhi1 flo2 fhi2 ulo0 uhi0 ulo1 uhi1 ulo2 uhi2 n : Int} {o st f u : Ptr}
    {O : Int → List Int} {S B U : List Int → B64} {X w : List Int → Rat} {q E Z : Rat} {m : Mem B64}
    (h : F.Problem m [(lo0, hi0), (lo1, hi1), (lo2, hi2)] n (F.offset0 o 3 n) (F.sm3d st n slo0 slo1 slo2 shi0 shi1 shi2) (F.box3d f flo0 flo1 flo2 fhi0 fhi1 fhi2)
      (F.box3d u ulo0 ulo1 ulo2 uhi0 uhi1 uhi2) O S B U)
    (hd : F.Diag 3 O) (hq : F.Dominant [(lo0, hi0), (lo1, hi1), (lo2, hi2)] n O q w (F.vals S)) (hZ : F.Sized [(lo0, hi0), (lo1, hi1), (lo2, hi2)] n O (F.vals S) (F.vals B) X w Z)
    (h1 : (1 + F.drift (n.toNat + 1)) * q < 1) (hX : ∀ p, F.InBounds [(lo0, hi0), (lo1, hi1), (lo2, hi2)] p → F.Eqn n O (F.vals S) (F.vals B) X p)
    (hU : ∀ p, ¬ F.InBounds [(lo0, hi0), (lo1, hi1), (lo2, hi2)] p → (U p).v = X p) (hE : ∀ p, F.InBounds [(lo0, hi0), (lo1, hi1), (lo2, hi2)] p → |(U p).v - X p| ≤ E * w p) (k : Nat) :
    ∃ m' U', F.times (F.cellgs3d lo0 hi0 lo1 hi1 lo2 hi2 n o slo0 shi0 slo1 shi1 slo2 shi2 st flo0 fhi0 flo1 fhi1 flo2 fhi2 f ulo0 uhi0 ulo1 uhi1 ulo2 uhi2 u) k m = .ok m' ∧
      F.Holds m' (F.box3d u ulo0 ulo1 ulo2 uhi0 uhi1 uhi2) U' ∧ F.Only [(F.box3d u ulo0 ulo1 ulo2 uhi0 uhi1 uhi2)] m m' ∧
      (∀ p, ¬ F.InBounds [(lo0, hi0), (lo1, hi1), (lo2, hi2)] p → (U' p).v = X p) ∧ ∀ p, F.InBounds [(lo0, hi0), (lo1, hi1), (lo2, hi2)] p → |(U' p).v - X p| ≤
        (((1 + F.drift (n.toNat + 1)) * q) ^ k * E + F.drift (n.toNat + 1) * Z / (1 - (1 + F.drift (n.toNat + 1)) * q)) * w p :=
  F.gs_round (box := [(lo0, hi0), (lo1, hi1), (lo2, hi2)]) (fun p hp => by exact F.shift_diag hp rfl hd) hq hZ h1 hX ⟨hU, hE⟩ (l := F.pts3 (F.irange lo2 hi2) (F.irange lo1 hi1) (fun _ _ => F.irange lo0 hi0)) (fun p => F.all3) (F.pts3_before F.irange_lt F.irange_lt fun _ _ => F.irange_lt) h
    (fun m1 U1 hp1 => C51_gs_3d hp1) k

example (k : Nat) := C83_gs_3d (toB_problem ex_conv3) rfl ex_domB3 ex_sized3 (by ex_rate) ex_eqnB3 ex_outB3 ex_errB3 k

/-- Red-black Gauss-Seidel in 53 bit arithmetic, three dimensions: after `k` sweeps the unknowns are off the exact solution of the stored equations by at most
`((1 + g) q)^k E + g Z / (1 - (1 + g) q)`, where `g` is what `n + 1` roundings can do. -/
theorem C83_rbgs_3d {lo0 hi0 lo1 hi1 lo2 hi2 slo0 shi0 slo1 shi1 slo2 shi2 flo0 fhi0 flo1 fhi1 flo2 fhi2 ulo0 uhi0 ulo1 uhi1 ulo2 uhi2 n color : Int} {o st f u : Ptr} {color2 : Int}
    {O : Int → List Int} {S B U : List Int → B64} {X w : List Int → Rat} {q E Z : Rat} {m : Mem B64} (hc : 0 ≤ color) (hc2 : 0 ≤ color2) (hcc : (color2 - color) % 2 = 1)
    (h : F.Problem m [(lo0, hi0), (lo1, hi1), (lo2, hi2)] n (F.offset0 o 3 n) (F.sm3d st n slo0 slo1 slo2 shi0 shi1 shi2) (F.box3d f flo0 flo1 flo2 fhi0 fhi1 fhi2)
      (F.box3d u ulo0 ulo1 ulo2 uhi0 uhi1 uhi2) O S B U)
    (hd : F.Diag 3 O) (hq : F.Dominant [(lo0, hi0), (lo1, hi1), (lo2, hi2)] n O q w (F.vals S)) (hZ : F.Sized [(lo0, hi0), (lo1, hi1), (lo2, hi2)] n O (F.vals S) (F.vals B) X w Z)
    (h1 : (1 + F.drift (n.toNat + 1)) * q < 1) (hX : ∀ p, F.InBounds [(lo0, hi0), (lo1, hi1), (lo2, hi2)] p → F.Eqn n O (F.vals S) (F.vals B) X p)
    (hU : ∀ p, ¬ F.InBounds [(lo0, hi0), (lo1, hi1), (lo2, hi2)] p → (U p).v = X p) (hE : ∀ p, F.InBounds [(lo0, hi0), (lo1, hi1), (lo2, hi2)] p → |(U p).v - X p| ≤ E * w p) (k : Nat) :
    ∃ m' U', F.times (fun m => F.cellrbgs3d lo0 hi0 lo1 hi1 lo2 hi2 color n o slo0 shi0 slo1 shi1 slo2 shi2 st flo0 fhi0 flo1 fhi1 flo2 fhi2 f ulo0 uhi0 ulo1 uhi1 ulo2 uhi2 u m >>=
        F.cellrbgs3d lo0 hi0 lo1 hi1 lo2 hi2 color2 n o slo0 shi0 slo1 shi1 slo2 shi2 st flo0 fhi0 flo1 fhi1 flo2 fhi2 f ulo0 uhi0 ulo1 uhi1 ulo2 uhi2 u) k m = .ok m' ∧
      F.Holds m' (F.box3d u ulo0 ulo1 ulo2 uhi0 uhi1 uhi2) U' ∧ F.Only [(F.box3d u ulo0 ulo1 ulo2 uhi0 uhi1 uhi2)] m m' ∧
      (∀ p, ¬ F.InBounds [(lo0, hi0), (lo1, hi1), (lo2, hi2)] p → (U' p).v = X p) ∧ ∀ p, F.InBounds [(lo0, hi0), (lo1, hi1), (lo2, hi2)] p → |(U' p).v - X p| ≤
        (((1 + F.drift (n.toNat + 1)) * q) ^ k * E + F.drift (n.toNat + 1) * Z / (1 - (1 + F.drift (n.toNat + 1)) * q)) * w p :=
  F.both_round (P := fun p => F.InBounds [(lo0, hi0), (lo1, hi1), (lo2, hi2)] p ∧ F.Colour lo0 color p) (Q := fun p => F.InBounds [(lo0, hi0), (lo1, hi1), (lo2, hi2)] p ∧ F.Colour lo0 color2 p)
    (box := [(lo0, hi0), (lo1, hi1), (lo2, hi2)]) (fun p hp => by exact F.shift_diag hp rfl hd) hq hZ h1 (fun p hp => hp.1) (fun p hp => hp.1)
    (fun p hp => (F.colour_cover hcc (p := p) (by rw [F.inBounds3] at hp; obtain ⟨i, j, k, rfl, ⟨h1, h2⟩, ⟨h3, h4⟩, h5, h6⟩ := hp; simp)).imp (fun h => ⟨hp, h⟩) fun h => ⟨hp, h⟩)
    (fun p hp hp' => F.colour_other hcc hp.2 hp'.2) hX ⟨hU, hE⟩
    (l := F.pts3 (F.irange lo2 hi2) (F.irange lo1 hi1) (fun j k => F.srange (lo0 + (((j + k).natAbs : Int) + color).tmod 2) hi0 2))
    (l2 := F.pts3 (F.irange lo2 hi2) (F.irange lo1 hi1) (fun j k => F.srange (lo0 + (((j + k).natAbs : Int) + color2).tmod 2) hi0 2)) (fun p => F.colour3 hc)
    (F.pts3_before F.irange_lt F.irange_lt fun _ _ => F.srange_lt) (fun p => F.colour3 hc2) (F.pts3_before F.irange_lt F.irange_lt fun _ _ => F.srange_lt) h
    (fun m1 U1 hp1 => by
      obtain ⟨m2, U2, g1, g2, g3, g4⟩ := C52_sweep_3d (color := color) hc hp1
      obtain ⟨m3, U3, k1, k2, k3, k4⟩ := C52_sweep_3d (color := color2) hc2 (hp1.after g2 g3)
      exact ⟨m3, U2, U3, by rw [g1, M.ok_bind, k1], k2, g3.trans k3, g4, k4⟩) k

example (k : Nat) := C83_rbgs_3d (color := 0) (color2 := 1) (by decide) (by decide) (by decide) (toB_problem ex_conv3) rfl ex_domB3 ex_sized3 (by ex_rate) ex_eqnB3 ex_outB3 ex_errB3 k

end Verif
