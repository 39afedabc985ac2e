import Verif.Lemmas.SmoothConvEx
import Verif.Props.Smooth

/-
C59 and C60: the smoothers converge on diagonally dominant equations, and solve them.
-/

set_option linter.unusedVariables false

namespace Verif

/-! ### convergence -/

/-- Damped Jacobi, one dimension: `k` sweeps bring the unknowns from at most `E w` to at most `(1 - d + d q)^k E w` from the solution, `d` the factor of
the routine, when the coefficients are dominant with weights `w` and ratio `q`. -/
theorem C59_jacobi_1d {T : Type} [Field T] [LinearOrder T] [IsStrictOrderedRing T] {lo0 hi0 slo0 shi0 flo0 fhi0 ulo0 uhi0 n : Int} {o st f u : Ptr} {r : Ptr}
    {O : Int → List Int} {S B U X w : List Int → T} {q E : T} {m : Mem T} {R : List Int → T}
    (h : F.Problem m [(lo0, hi0)] n (F.offset0 o 1 n) (F.sm1d st n slo0 shi0) (F.box1d f flo0 fhi0)
      (F.box1d u ulo0 uhi0) O S B U)
    (hr : F.Holds m (F.box1d r lo0 hi0) R) (ru : F.Apart (F.box1d r lo0 hi0) (F.box1d u ulo0 uhi0)) (rs : F.Apart (F.box1d r lo0 hi0) (F.sm1d st n slo0 shi0)) (rf : F.Apart (F.box1d r lo0 hi0) (F.box1d f flo0 fhi0))
    (hd : F.Diag 1 O) (hq : F.Dominant [(lo0, hi0)] n O q w S) (hX : ∀ p, F.InBounds [(lo0, hi0)] p → F.Eqn n O S B X p)
    (hU : ∀ p, ¬ F.InBounds [(lo0, hi0)] p → U p = X p) (hE : ∀ p, F.InBounds [(lo0, hi0)] p → |U p - X p| ≤ E * w p) (k : Nat) :
    ∃ m' U', F.times (F.celljacobi1d lo0 hi0 n o slo0 shi0 st flo0 fhi0 f ulo0 uhi0 u r) k m = .ok m' ∧
      F.Holds m' (F.box1d u ulo0 uhi0) U' ∧ F.Only [(F.box1d u ulo0 uhi0), (F.box1d r lo0 hi0)] m m' ∧
      (∀ p, ¬ F.InBounds [(lo0, hi0)] p → U' p = X p) ∧ ∀ p, F.InBounds [(lo0, hi0)] p → |U' p - X p| ≤ (1 - ((2 : Nat) / (3 : Nat) : T) + ((2 : Nat) / (3 : Nat) : T) * q) ^ k * E * w p :=
  F.jacobi_times (d := ((2 : Nat) / (3 : Nat) : T)) (by positivity) (by norm_num) (box := [(lo0, hi0)]) (fun p hp => by exact F.shift_diag hp rfl hd) hq hX ⟨hU, hE⟩ rs rf h hr
    (fun m1 U1 R1 hp1 hr1 => C50_jacobi_1d hp1 hr1 ru rs rf) k

example (k : Nat) := C59_jacobi_1d (r := ⟨4, 0⟩) ex_conv1 (R := fun _ => 0) (fun _ hi => ⟨hi, rfl⟩) (ex_apart (by decide)) (ex_apart (by decide)) (ex_apart (by decide))
  rfl ex_dom1 ex_eqn1 ex_out1 ex_err1 k

/-- Gauss-Seidel, one dimension: `k` sweeps bring the unknowns from at most `E w` to at most `q^k E w` from the solution. (Partial: the bounds of `f` must be those of `u`, see `C51_gs_1d_false`.) -/
theorem C59_gs_1d_partial {T : Type} [Field T] [LinearOrder T] [IsStrictOrderedRing T] {lo0 hi0 slo0 shi0 flo0 fhi0 ulo0 uhi0 n : Int} {o st f u : Ptr}
    {O : Int → List Int} {S B U X w : List Int → T} {q E : T} {m : Mem T} (hf : flo0 = ulo0)
    (h : F.Problem m [(lo0, hi0)] n (F.offset0 o 1 n) (F.sm1d st n slo0 shi0) (F.box1d f flo0 fhi0)
      (F.box1d u ulo0 uhi0) O S B U)
    (hd : F.Diag 1 O) (hq : F.Dominant [(lo0, hi0)] n O q w S) (h1 : q ≤ 1) (hX : ∀ p, F.InBounds [(lo0, hi0)] p → F.Eqn n O S B X p)
    (hU : ∀ p, ¬ F.InBounds [(lo0, hi0)] p → U p = X p) (hE : ∀ p, F.InBounds [(lo0, hi0)] p → |U p - X p| ≤ E * w p) (k : Nat) :
    ∃ m' U', F.times (F.cellgs1d lo0 hi0 n o slo0 shi0 st flo0 fhi0 f ulo0 uhi0 u) k m = .ok m' ∧
      F.Holds m' (F.box1d u ulo0 uhi0) U' ∧ F.Only [(F.box1d u ulo0 uhi0)] m m' ∧
      (∀ p, ¬ F.InBounds [(lo0, hi0)] p → U' p = X p) ∧ ∀ p, F.InBounds [(lo0, hi0)] p → |U' p - X p| ≤ q ^ k * E * w p :=
  F.gs_times (box := [(lo0, hi0)]) (fun p hp => by exact F.shift_diag hp rfl hd) hq h1 hX ⟨hU, hE⟩ (l := F.pts1 (F.irange lo0 hi0)) (fun p => F.all1) (F.pts1_before F.irange_lt) h
    (fun m1 U1 hp1 => C51_gs_1d_partial hf hp1) k

example (k : Nat) := C59_gs_1d_partial rfl ex_conv1 rfl ex_dom1 (by norm_num) ex_eqn1 ex_out1 ex_err1 k

/-- Red-black Gauss-Seidel, one dimension: `k` times one call for each colour. -/
theorem C59_rbgs_1d {T : Type} [Field T] [LinearOrder T] [IsStrictOrderedRing T] {lo0 hi0 slo0 shi0 flo0 fhi0 ulo0 uhi0 n color : Int} {o st f u : Ptr} {color2 : Int}
    {O : Int → List Int} {S B U X w : List Int → T} {q E : T} {m : Mem T} (hc : 0 ≤ color) (hc2 : 0 ≤ color2) (hcc : (color2 - color) % 2 = 1)
    (h : F.Problem m [(lo0, hi0)] n (F.offset0 o 1 n) (F.sm1d st n slo0 shi0) (F.box1d f flo0 fhi0)
      (F.box1d u ulo0 uhi0) O S B U)
    (hd : F.Diag 1 O) (hq : F.Dominant [(lo0, hi0)] n O q w S) (h1 : q ≤ 1) (hX : ∀ p, F.InBounds [(lo0, hi0)] p → F.Eqn n O S B X p)
    (hU : ∀ p, ¬ F.InBounds [(lo0, hi0)] p → U p = X p) (hE : ∀ p, F.InBounds [(lo0, hi0)] p → |U p - X p| ≤ E * w p) (k : Nat) :
    ∃ m' U', F.times (fun m => F.cellrbgs1d lo0 hi0 color n o slo0 shi0 st flo0 fhi0 f ulo0 uhi0 u m >>=
        F.cellrbgs1d lo0 hi0 color2 n o slo0 shi0 st flo0 fhi0 f ulo0 uhi0 u) k m = .ok m' ∧
      F.Holds m' (F.box1d u ulo0 uhi0) U' ∧ F.Only [(F.box1d u ulo0 uhi0)] m m' ∧
      (∀ p, ¬ F.InBounds [(lo0, hi0)] p → U' p = X p) ∧ ∀ p, F.InBounds [(lo0, hi0)] p → |U' p - X p| ≤ q ^ k * E * w p :=
  F.both_times (P := fun p => F.InBounds [(lo0, hi0)] p ∧ F.Colour lo0 color p) (Q := fun p => F.InBounds [(lo0, hi0)] p ∧ F.Colour lo0 color2 p)
    (box := [(lo0, hi0)]) (fun p hp => by exact F.shift_diag hp rfl hd) hq h1 (fun p hp => hp.1) (fun p hp => hp.1)
    (fun p hp => (F.colour_cover hcc (p := p) (by rw [F.inBounds1] at hp; obtain ⟨i, rfl, h1, h2⟩ := hp; simp)).imp (fun h => ⟨hp, h⟩) fun h => ⟨hp, h⟩)
    (fun p hp hp' => F.colour_other hcc hp.2 hp'.2) hX ⟨hU, hE⟩
    (l := F.pts1 (F.srange (lo0 + color.tmod 2) hi0 2))
    (l2 := F.pts1 (F.srange (lo0 + color2.tmod 2) hi0 2)) (fun p => F.colour1 hc)
    (F.pts1_before F.srange_lt) (fun p => F.colour1 hc2) (F.pts1_before F.srange_lt) h
    (fun m1 U1 hp1 => by
      obtain ⟨m2, U2, g1, g2, g3, g4⟩ := C52_sweep_1d (color := color) hc hp1
      obtain ⟨m3, U3, k1, k2, k3, k4⟩ := C52_sweep_1d (color := color2) hc2 (hp1.after g2 g3)
      exact ⟨m3, U2, U3, by rw [g1, M.ok_bind, k1], k2, g3.trans k3, g4, k4⟩) k

example (k : Nat) := C59_rbgs_1d (color := 0) (color2 := 1) (by decide) (by decide) (by decide) ex_conv1 rfl ex_dom1 (by norm_num) ex_eqn1 ex_out1 ex_err1 k

/-- Damped Jacobi, two dimensions: `k` sweeps bring the unknowns from at most `E w` to at most `(1 - d + d q)^k E w` from the solution, `d` the factor of
the routine, when the coefficients are dominant with weights `w` and ratio `q`. -/
theorem C59_jacobi_2d {T : Type} [Field T] [LinearOrder T] [IsStrictOrderedRing T] {lo0 hi0 lo1 hi1 slo0 shi0 slo1 shi1 flo0 fhi0 flo1 fhi1 ulo0 uhi0 ulo1 uhi1 n : Int} {o st f u : Ptr} {r : Ptr}
    {O : Int → List Int} {S B U X w : List Int → T} {q E : T} {m : Mem T} {R : List Int → T}
    (h : F.Problem m [(lo0, hi0), (lo1, hi1)] n (F.offset0 o 2 n) (F.sm2d st n slo0 slo1 shi0 shi1) (F.box2d f flo0 flo1 fhi0 fhi1)
      (F.box2d u ulo0 ulo1 uhi0 uhi1) O S B U)
    (hr : F.Holds m (F.box2d r lo0 lo1 hi0 hi1) R) (ru : F.Apart (F.box2d r lo0 lo1 hi0 hi1) (F.box2d u ulo0 ulo1 uhi0 uhi1)) (rs : F.Apart (F.box2d r lo0 lo1 hi0 hi1) (F.sm2d st n slo0 slo1 shi0 shi1)) (rf : F.Apart (F.box2d r lo0 lo1 hi0 hi1) (F.box2d f flo0 flo1 fhi0 fhi1))
    (hd : F.Diag 2 O) (hq : F.Dominant [(lo0, hi0), (lo1, hi1)] n O q w S) (hX : ∀ p, F.InBounds [(lo0, hi0), (lo1, hi1)] p → F.Eqn n O S B X p)
    (hU : ∀ p, ¬ F.InBounds [(lo0, hi0), (lo1, hi1)] p → U p = X p) (hE : ∀ p, F.InBounds [(lo0, hi0), (lo1, hi1)] p → |U p - X p| ≤ E * w p) (k : Nat) :
    ∃ m' U', F.times (F.celljacobi2d lo0 hi0 lo1 hi1 n o slo0 shi0 slo1 shi1 st flo0 fhi0 flo1 fhi1 f ulo0 uhi0 ulo1 uhi1 u r) k m = .ok m' ∧
      F.Holds m' (F.box2d u ulo0 ulo1 uhi0 uhi1) U' ∧ F.Only [(F.box2d u ulo0 ulo1 uhi0 uhi1), (F.box2d r lo0 lo1 hi0 hi1)] m m' ∧
      (∀ p, ¬ F.InBounds [(lo0, hi0), (lo1, hi1)] p → U' p = X p) ∧ ∀ p, F.InBounds [(lo0, hi0), (lo1, hi1)] p → |U' p - X p| ≤ (1 - ((13421773 : Nat) / (16777216 : Nat) : T) + ((13421773 : Nat) / (16777216 : Nat) : T) * q) ^ k * E * w p :=
  F.jacobi_times (d := ((13421773 : Nat) / (16777216 : Nat) : T)) (by positivity) (by norm_num) (box := [(lo0, hi0), (lo1, hi1)]) (fun p hp => by exact F.shift_diag hp rfl hd) hq hX ⟨hU, hE⟩ rs rf h hr
    (fun m1 U1 R1 hp1 hr1 => C50_jacobi_2d hp1 hr1 ru rs rf) k

example (k : Nat) := C59_jacobi_2d (r := ⟨4, 0⟩) ex_conv2 (R := fun _ => 0) (fun _ hi => ⟨hi, rfl⟩) (ex_apart (by decide)) (ex_apart (by decide)) (ex_apart (by decide))
  rfl ex_dom2 ex_eqn2 ex_out2 ex_err2 k

/-- Gauss-Seidel, two dimensions: `k` sweeps bring the unknowns from at most `E w` to at most `q^k E w` from the solution. -/
theorem C59_gs_2d {T : Type} [Field T] [LinearOrder T] [IsStrictOrderedRing T] {lo0 hi0 lo1 hi1 slo0 shi0 slo1 shi1 flo0 fhi0 flo1 fhi1 ulo0 uhi0 ulo1 uhi1 n : Int} {o st f u : Ptr}
    {O : Int → List Int} {S B U X w : List Int → T} {q E : T} {m : Mem T}
    (h : F.Problem m [(lo0, hi0), (lo1, hi1)] n (F.offset0 o 2 n) (F.sm2d st n slo0 slo1 shi0 shi1) (F.box2d f flo0 flo1 fhi0 fhi1)
      (F.box2d u ulo0 ulo1 uhi0 uhi1) O S B U)
    (hd : F.Diag 2 O) (hq : F.Dominant [(lo0, hi0), (lo1, hi1)] n O q w S) (h1 : q ≤ 1) (hX : ∀ p, F.InBounds [(lo0, hi0), (lo1, hi1)] p → F.Eqn n O S B X p)
    (hU : ∀ p, ¬ F.InBounds [(lo0, hi0), (lo1, hi1)] p → U p = X p) (hE : ∀ p, F.InBounds [(lo0, hi0), (lo1, hi1)] p → |U p - X p| ≤ E * w p) (k : Nat) :
    ∃ m' U', F.times (F.cellgs2d lo0 hi0 lo1 hi1 n o slo0 shi0 slo1 shi1 st flo0 fhi0 flo1 fhi1 f ulo0 uhi0 ulo1 uhi1 u) k m = .ok m' ∧
      F.Holds m' (F.box2d u ulo0 ulo1 uhi0 uhi1) U' ∧ F.Only [(F.box2d u ulo0 ulo1 uhi0 uhi1)] m m' ∧
      (∀ p, ¬ F.InBounds [(lo0, hi0), (lo1, hi1)] p → U' p = X p) ∧ ∀ p, F.InBounds [(lo0, hi0), (lo1, hi1)] p → |U' p - X p| ≤ q ^ k * E * w p :=
  F.gs_times (box := [(lo0, hi0), (lo1, hi1)]) (fun p hp => by exact F.shift_diag hp rfl hd) hq h1 hX ⟨hU, hE⟩ (l := F.pts2 (F.irange lo1 hi1) (fun _ => F.irange lo0 hi0)) (fun p => F.all2) (F.pts2_before F.irange_lt fun _ => F.irange_lt) h
    (fun m1 U1 hp1 => C51_gs_2d hp1) k

example (k : Nat) := C59_gs_2d ex_conv2 rfl ex_dom2 (by norm_num) ex_eqn2 ex_out2 ex_err2 k

/-- Red-black Gauss-Seidel, two dimensions: `k` times one call for each colour. (Partial: rows with `j + color` negative are excluded, see `C52_sweep_2d_false`.) -/
theorem C59_rbgs_2d_partial {T : Type} [Field T] [LinearOrder T] [IsStrictOrderedRing T] {lo0 hi0 lo1 hi1 slo0 shi0 slo1 shi1 flo0 fhi0 flo1 fhi1 ulo0 uhi0 ulo1 uhi1 n color : Int} {o st f u : Ptr} {color2 : Int}
    {O : Int → List Int} {S B U X w : List Int → T} {q E : T} {m : Mem T} (hc : 0 ≤ lo1 + color) (hc2 : 0 ≤ lo1 + color2) (hcc : (color2 - color) % 2 = 1)
    (h : F.Problem m [(lo0, hi0), (lo1, hi1)] n (F.offset0 o 2 n) (F.sm2d st n slo0 slo1 shi0 shi1) (F.box2d f flo0 flo1 fhi0 fhi1)
      (F.box2d u ulo0 ulo1 uhi0 uhi1) O S B U)
    (hd : F.Diag 2 O) (hq : F.Dominant [(lo0, hi0), (lo1, hi1)] n O q w S) (h1 : q ≤ 1) (hX : ∀ p, F.InBounds [(lo0, hi0), (lo1, hi1)] p → F.Eqn n O S B X p)
    (hU : ∀ p, ¬ F.InBounds [(lo0, hi0), (lo1, hi1)] p → U p = X p) (hE : ∀ p, F.InBounds [(lo0, hi0), (lo1, hi1)] p → |U p - X p| ≤ E * w p) (k : Nat) :
    ∃ m' U', F.times (fun m => F.cellrbgs2d lo0 hi0 lo1 hi1 color n o slo0 shi0 slo1 shi1 st flo0 fhi0 flo1 fhi1 f ulo0 uhi0 ulo1 uhi1 u m >>=
        F.cellrbgs2d lo0 hi0 lo1 hi1 color2 n o slo0 shi0 slo1 shi1 st flo0 fhi0 flo1 fhi1 f ulo0 uhi0 ulo1 uhi1 u) k m = .ok m' ∧
      F.Holds m' (F.box2d u ulo0 ulo1 uhi0 uhi1) U' ∧ F.Only [(F.box2d u ulo0 ulo1 uhi0 uhi1)] m m' ∧
      (∀ p, ¬ F.InBounds [(lo0, hi0), (lo1, hi1)] p → U' p = X p) ∧ ∀ p, F.InBounds [(lo0, hi0), (lo1, hi1)] p → |U' p - X p| ≤ q ^ k * E * w p :=
  F.both_times (P := fun p => F.InBounds [(lo0, hi0), (lo1, hi1)] p ∧ F.Colour lo0 color p) (Q := fun p => F.InBounds [(lo0, hi0), (lo1, hi1)] p ∧ F.Colour lo0 color2 p)
    (box := [(lo0, hi0), (lo1, hi1)]) (fun p hp => by exact F.shift_diag hp rfl hd) hq h1 (fun p hp => hp.1) (fun p hp => hp.1)
    (fun p hp => (F.colour_cover hcc (p := p) (by rw [F.inBounds2] at hp; obtain ⟨i, j, rfl, ⟨h1, h2⟩, h3, h4⟩ := hp; simp)).imp (fun h => ⟨hp, h⟩) fun h => ⟨hp, h⟩)
    (fun p hp hp' => F.colour_other hcc hp.2 hp'.2) hX ⟨hU, hE⟩
    (l := F.pts2 (F.irange lo1 hi1) (fun j => F.srange (lo0 + (j + color).tmod 2) hi0 2))
    (l2 := F.pts2 (F.irange lo1 hi1) (fun j => F.srange (lo0 + (j + color2).tmod 2) hi0 2)) (fun p => F.colour2 hc)
    (F.pts2_before F.irange_lt fun _ => F.srange_lt) (fun p => F.colour2 hc2) (F.pts2_before F.irange_lt fun _ => F.srange_lt) h
    (fun m1 U1 hp1 => by
      obtain ⟨m2, U2, g1, g2, g3, g4⟩ := C52_sweep_2d_partial (color := color) hc hp1
      obtain ⟨m3, U3, k1, k2, k3, k4⟩ := C52_sweep_2d_partial (color := color2) hc2 (hp1.after g2 g3)
      exact ⟨m3, U2, U3, by rw [g1, M.ok_bind, k1], k2, g3.trans k3, g4, k4⟩) k

example (k : Nat) := C59_rbgs_2d_partial (color := 0) (color2 := 1) (by decide) (by decide) (by decide) ex_conv2 rfl ex_dom2 (by norm_num) ex_eqn2 ex_out2 ex_err2 k

/-- Damped Jacobi, three dimensions: `k` sweeps bring the unknowns from at most `E w` to at most `(1 - d + d q)^k E w` from the solution, `d` the factor of
the routine, when the coefficients are dominant with weights `w` and ratio `q`. -/
theorem C59_jacobi_3d {T : Type} [Field T] [LinearOrder T] [IsStrictOrderedRing T] {lo0 hi0 lo1 hi1 lo2 hi2 slo0 shi0 slo1 shi1 slo2 shi2 flo0 fhi0 flo1 fhi1 flo2 fhi2 ulo0 uhi0 ulo1 uhi1 ulo2 uhi2 n : Int} {o st f u : Ptr} {r : Ptr}
    {O : Int → List Int} {S B U X w : List Int → T} {q E : T} {m : Mem T} {R : List Int → T}
    (h : F.Problem m [(lo0, hi0), (lo1, hi1), (lo2, hi2)] n (F.offset0 o 3 n) (F.sm3d st n slo0 slo1 slo2 shi0 shi1 shi2) (F.box3d f flo0 flo1 flo2 fhi0 fhi1 fhi2)
      (F.box3d u ulo0 ulo1 ulo2 uhi0 uhi1 uhi2) O S B U)
    (hr : F.Holds m (F.box3d r lo0 lo1 lo2 hi0 hi1 hi2) R) (ru : F.Apart (F.box3d r lo0 lo1 lo2 hi0 hi1 hi2) (F.box3d u ulo0 ulo1 ulo2 uhi0 uhi1 uhi2)) (rs : F.Apart (F.box3d r lo0 lo1 lo2 hi0 hi1 hi2) (F.sm3d st n slo0 slo1 slo2 shi0 shi1 shi2)) (rf : F.Apart (F.box3d r lo0 lo1 lo2 hi0 hi1 hi2) (F.box3d f flo0 flo1 flo2 fhi0 fhi1 fhi2))
    (hd : F.Diag 3 O) (hq : F.Dominant [(lo0, hi0), (lo1, hi1), (lo2, hi2)] n O q w S) (hX : ∀ p, F.InBounds [(lo0, hi0), (lo1, hi1), (lo2, hi2)] p → F.Eqn n O S B X p)
    (hU : ∀ p, ¬ F.InBounds [(lo0, hi0), (lo1, hi1), (lo2, hi2)] p → U p = X p) (hE : ∀ p, F.InBounds [(lo0, hi0), (lo1, hi1), (lo2, hi2)] p → |U p - X p| ≤ E * w p) (k : Nat) :
    ∃ m' U', F.times (F.celljacobi3d lo0 hi0 lo1 hi1 lo2 hi2 n o slo0 shi0 slo1 shi1 slo2 shi2 st flo0 fhi0 flo1 fhi1 flo2 fhi2 f ulo0 uhi0 ulo1 uhi1 ulo2 uhi2 u r) k m = .ok m' ∧
      F.Holds m' (F.box3d u ulo0 ulo1 ulo2 uhi0 uhi1 uhi2) U' ∧ F.Only [(F.box3d u ulo0 ulo1 ulo2 uhi0 uhi1 uhi2), (F.box3d r lo0 lo1 lo2 hi0 hi1 hi2)] m m' ∧
      (∀ p, ¬ F.InBounds [(lo0, hi0), (lo1, hi1), (lo2, hi2)] p → U' p = X p) ∧ ∀ p, F.InBounds [(lo0, hi0), (lo1, hi1), (lo2, hi2)] p → |U' p - X p| ≤ (1 - ((8 : Nat) / (10 : Nat) : T) + ((8 : Nat) / (10 : Nat) : T) * q) ^ k * E * w p :=
  F.jacobi_times (d := ((8 : Nat) / (10 : Nat) : T)) (by positivity) (by norm_num) (box := [(lo0, hi0), (lo1, hi1), (lo2, hi2)]) (fun p hp => by exact F.shift_diag hp rfl hd) hq hX ⟨hU, hE⟩ rs rf h hr
    (fun m1 U1 R1 hp1 hr1 => C50_jacobi_3d hp1 hr1 ru rs rf) k

example (k : Nat) := C59_jacobi_3d (r := ⟨4, 0⟩) ex_conv3 (R := fun _ => 0) (fun _ hi => ⟨hi, rfl⟩) (ex_apart (by decide)) (ex_apart (by decide)) (ex_apart (by decide))
  rfl ex_dom3 ex_eqn3 ex_out3 ex_err3 k

/-- Gauss-Seidel, three dimensions: `k` sweeps bring the unknowns from at most `E w` to at most `q^k E w` from the solution. -/
theorem C59_gs_3d {T : Type} [Field T] [LinearOrder T] [IsStrictOrderedRing T] {lo0 hi0 lo1 hi1 lo2 hi2 slo0 shi0 slo1 shi1 slo2 shi2 flo0 fhi0 flo1 fhi1 flo2 fhi2 ulo0 uhi0 ulo1 uhi1 ulo2 uhi2 n : Int} {o st f u : Ptr}
    {O : Int → List Int} {S B U X w : List Int → T} {q E : T} {m : Mem T}
    (h : F.Problem m [(lo0, hi0), (lo1, hi1), (lo2, hi2)] n (F.offset0 o 3 n) (F.sm3d st n slo0 slo1 slo2 shi0 shi1 shi2) (F.box3d f flo0 flo1 flo2 fhi0 fhi1 fhi2)
      (F.box3d u ulo0 ulo1 ulo2 uhi0 uhi1 uhi2) O S B U)
    (hd : F.Diag 3 O) (hq : F.Dominant [(lo0, hi0), (lo1, hi1), (lo2, hi2)] n O q w S) (h1 : q ≤ 1) (hX : ∀ p, F.InBounds [(lo0, hi0), (lo1, hi1), (lo2, hi2)] p → F.Eqn n O S B X p)
    (hU : ∀ p, ¬ F.InBounds [(lo0, hi0), (lo1, hi1), (lo2, hi2)] p → U p = X p) (hE : ∀ p, F.InBounds [(lo0, hi0), (lo1, hi1), (lo2, hi2)] p → |U p - X p| ≤ E * w p) (k : Nat) :
    ∃ m' U', F.times (F.cellgs3d lo0 hi0 lo1 hi1 lo2 hi2 n o slo0 shi0 slo1 shi1 slo2 shi2 st flo0 fhi0 flo1 fhi1 flo2 fhi2 f ulo0 uhi0 ulo1 uhi1 ulo2 uhi2 u) k m = .ok m' ∧
      F.Holds m' (F.box3d u ulo0 ulo1 ulo2 uhi0 uhi1 uhi2) U' ∧ F.Only [(F.box3d u ulo0 ulo1 ulo2 uhi0 uhi1 uhi2)] m m' ∧
      (∀ p, ¬ F.InBounds [(lo0, hi0), (lo1, hi1), (lo2, hi2)] p → U' p = X p) ∧ ∀ p, F.InBounds [(lo0, hi0), (lo1, hi1), (lo2, hi2)] p → |U' p - X p| ≤ q ^ k * E * w p :=
  F.gs_times (box := [(lo0, hi0), (lo1, hi1), (lo2, hi2)]) (fun p hp => by exact F.shift_diag hp rfl hd) hq h1 hX ⟨hU, hE⟩ (l := F.pts3 (F.irange lo2 hi2) (F.irange lo1 hi1) (fun _ _ => F.irange lo0 hi0)) (fun p => F.all3) (F.pts3_before F.irange_lt F.irange_lt fun _ _ => F.irange_lt) h
    (fun m1 U1 hp1 => C51_gs_3d hp1) k

example (k : Nat) := C59_gs_3d ex_conv3 rfl ex_dom3 (by norm_num) ex_eqn3 ex_out3 ex_err3 k

/-- Red-black Gauss-Seidel, three dimensions: `k` times one call for each colour. -/
theorem C59_rbgs_3d {T : Type} [Field T] [LinearOrder T] [IsStrictOrderedRing T] {lo0 hi0 lo1 hi1 lo2 hi2 slo0 shi0 slo1 shi1 slo2 shi2 flo0 fhi0 flo1 fhi1 flo2 fhi2 ulo0 uhi0 ulo1 uhi1 ulo2 uhi2 n color : Int} {o st f u : Ptr} {color2 : Int}
    {O : Int → List Int} {S B U X w : List Int → T} {q E : T} {m : Mem T} (hc : 0 ≤ color) (hc2 : 0 ≤ color2) (hcc : (color2 - color) % 2 = 1)
    (h : F.Problem m [(lo0, hi0), (lo1, hi1), (lo2, hi2)] n (F.offset0 o 3 n) (F.sm3d st n slo0 slo1 slo2 shi0 shi1 shi2) (F.box3d f flo0 flo1 flo2 fhi0 fhi1 fhi2)
      (F.box3d u ulo0 ulo1 ulo2 uhi0 uhi1 uhi2) O S B U)
    (hd : F.Diag 3 O) (hq : F.Dominant [(lo0, hi0), (lo1, hi1), (lo2, hi2)] n O q w S) (h1 : q ≤ 1) (hX : ∀ p, F.InBounds [(lo0, hi0), (lo1, hi1), (lo2, hi2)] p → F.Eqn n O S B X p)
    (hU : ∀ p, ¬ F.InBounds [(lo0, hi0), (lo1, hi1), (lo2, hi2)] p → U p = X p) (hE : ∀ p, F.InBounds [(lo0, hi0), (lo1, hi1), (lo2, hi2)] p → |U p - X p| ≤ E * w p) (k : Nat) :
    ∃ m' U', F.times (fun m => F.cellrbgs3d lo0 hi0 lo1 hi1 lo2 hi2 color n o slo0 shi0 slo1 shi1 slo2 shi2 st flo0 fhi0 flo1 fhi1 flo2 fhi2 f ulo0 uhi0 ulo1 uhi1 ulo2 uhi2 u m >>=
        F.cellrbgs3d lo0 hi0 lo1 hi1 lo2 hi2 color2 n o slo0 shi0 slo1 shi1 slo2 shi2 st flo0 fhi0 flo1 fhi1 flo2 fhi2 f ulo0 uhi0 ulo1 uhi1 ulo2 uhi2 u) k m = .ok m' ∧
      F.Holds m' (F.box3d u ulo0 ulo1 ulo2 uhi0 uhi1 uhi2) U' ∧ F.Only [(F.box3d u ulo0 ulo1 ulo2 uhi0 uhi1 uhi2)] m m' ∧
      (∀ p, ¬ F.InBounds [(lo0, hi0), (lo1, hi1), (lo2, hi2)] p → U' p = X p) ∧ ∀ p, F.InBounds [(lo0, hi0), (lo1, hi1), (lo2, hi2)] p → |U' p - X p| ≤ q ^ k * E * w p :=
  F.both_times (P := fun p => F.InBounds [(lo0, hi0), (lo1, hi1), (lo2, hi2)] p ∧ F.Colour lo0 color p) (Q := fun p => F.InBounds [(lo0, hi0), (lo1, hi1), (lo2, hi2)] p ∧ F.Colour lo0 color2 p)
    (box := [(lo0, hi0), (lo1, hi1), (lo2, hi2)]) (fun p hp => by exact F.shift_diag hp rfl hd) hq h1 (fun p hp => hp.1) (fun p hp => hp.1)
    (fun p hp => (F.colour_cover hcc (p := p) (by rw [F.inBounds3] at hp; obtain ⟨i, j, k, rfl, ⟨h1, h2⟩, ⟨h3, h4⟩, h5, h6⟩ := hp; simp)).imp (fun h => ⟨hp, h⟩) fun h => ⟨hp, h⟩)
    (fun p hp hp' => F.colour_other hcc hp.2 hp'.2) hX ⟨hU, hE⟩
    (l := F.pts3 (F.irange lo2 hi2) (F.irange lo1 hi1) (fun j k => F.srange (lo0 + (((j + k).natAbs : Int) + color).tmod 2) hi0 2))
    (l2 := F.pts3 (F.irange lo2 hi2) (F.irange lo1 hi1) (fun j k => F.srange (lo0 + (((j + k).natAbs : Int) + color2).tmod 2) hi0 2)) (fun p => F.colour3 hc)
    (F.pts3_before F.irange_lt F.irange_lt fun _ _ => F.srange_lt) (fun p => F.colour3 hc2) (F.pts3_before F.irange_lt F.irange_lt fun _ _ => F.srange_lt) h
    (fun m1 U1 hp1 => by
      obtain ⟨m2, U2, g1, g2, g3, g4⟩ := C52_sweep_3d (color := color) hc hp1
      obtain ⟨m3, U3, k1, k2, k3, k4⟩ := C52_sweep_3d (color := color2) hc2 (hp1.after g2 g3)
      exact ⟨m3, U2, U3, by rw [g1, M.ok_bind, k1], k2, g3.trans k3, g4, k4⟩) k

example (k : Nat) := C59_rbgs_3d (color := 0) (color2 := 1) (by decide) (by decide) (by decide) ex_conv3 rfl ex_dom3 (by norm_num) ex_eqn3 ex_out3 ex_err3 k

/-! ### what is left unchanged is the solution -/

/-- Damped Jacobi, one dimension: two sets of unknowns that a sweep with the same coefficients and right hand side leaves as they are agree if they agree
outside the box. -/
theorem C60_jacobi_1d {T : Type} [Field T] [LinearOrder T] [IsStrictOrderedRing T] {lo0 hi0 slo0 shi0 flo0 fhi0 ulo0 uhi0 n : Int} {o st f u : Ptr} {r : Ptr}
    {O : Int → List Int} {S B U V w : List Int → T} {q : T} {m m2 : Mem T} {R R2 : List Int → T}
    (h : F.Problem m [(lo0, hi0)] n (F.offset0 o 1 n) (F.sm1d st n slo0 shi0) (F.box1d f flo0 fhi0)
      (F.box1d u ulo0 uhi0) O S B U)
    (h2 : F.Problem m2 [(lo0, hi0)] n (F.offset0 o 1 n) (F.sm1d st n slo0 shi0) (F.box1d f flo0 fhi0)
      (F.box1d u ulo0 uhi0) O S B V)
    (hr : F.Holds m (F.box1d r lo0 hi0) R) (hr2 : F.Holds m2 (F.box1d r lo0 hi0) R2)
    (ru : F.Apart (F.box1d r lo0 hi0) (F.box1d u ulo0 uhi0)) (rs : F.Apart (F.box1d r lo0 hi0) (F.sm1d st n slo0 shi0)) (rf : F.Apart (F.box1d r lo0 hi0) (F.box1d f flo0 fhi0))
    (hd : F.Diag 1 O) (hq : F.Dominant [(lo0, hi0)] n O q w S) (h1 : q < 1) (hUV : ∀ p, ¬ F.InBounds [(lo0, hi0)] p → U p = V p) :
    ∃ m' m2', F.celljacobi1d lo0 hi0 n o slo0 shi0 st flo0 fhi0 f ulo0 uhi0 u r m = .ok m' ∧
      F.celljacobi1d lo0 hi0 n o slo0 shi0 st flo0 fhi0 f ulo0 uhi0 u r m2 = .ok m2' ∧
      (F.Holds m' (F.box1d u ulo0 uhi0) U → F.Holds m2' (F.box1d u ulo0 uhi0) V → U = V) := by
  obtain ⟨m', g1, g2⟩ := C50_fixed_1d h hr ru rs rf hq.diag
  obtain ⟨m2', k1, k2⟩ := C50_fixed_1d h2 hr2 ru rs rf hq.diag
  refine ⟨m', m2', g1, k1, fun a b => ?_⟩
  have e1 := g2.1 a
  have e2 := k2.1 b
  exact F.eqn_unique h.size (box := [(lo0, hi0)]) (fun p hp => by exact F.shift_diag hp rfl hd) hq h1 e1 e2 hUV (l := F.pts1 (F.irange lo0 hi0)) fun p => F.all1

example := C60_jacobi_1d (r := ⟨4, 0⟩) ex_sol1 ex_sol1 (R := fun _ => 0) (R2 := fun _ => 0) (fun _ hi => ⟨hi, rfl⟩) (fun _ hi => ⟨hi, rfl⟩)
  (ex_apart (by decide)) (ex_apart (by decide)) (ex_apart (by decide)) rfl ex_dom1 (by norm_num) fun _ _ => rfl

/-- Gauss-Seidel, one dimension: as `C60_jacobi_1d`. -/
theorem C60_gs_1d_partial {T : Type} [Field T] [LinearOrder T] [IsStrictOrderedRing T] {lo0 hi0 slo0 shi0 flo0 fhi0 ulo0 uhi0 n : Int} {o st f u : Ptr}
    {O : Int → List Int} {S B U V w : List Int → T} {q : T} {m m2 : Mem T} (hf : flo0 = ulo0)
    (h : F.Problem m [(lo0, hi0)] n (F.offset0 o 1 n) (F.sm1d st n slo0 shi0) (F.box1d f flo0 fhi0)
      (F.box1d u ulo0 uhi0) O S B U)
    (h2 : F.Problem m2 [(lo0, hi0)] n (F.offset0 o 1 n) (F.sm1d st n slo0 shi0) (F.box1d f flo0 fhi0)
      (F.box1d u ulo0 uhi0) O S B V)
    (hd : F.Diag 1 O) (hq : F.Dominant [(lo0, hi0)] n O q w S) (h1 : q < 1) (hUV : ∀ p, ¬ F.InBounds [(lo0, hi0)] p → U p = V p)
    (g1 : F.cellgs1d lo0 hi0 n o slo0 shi0 st flo0 fhi0 f ulo0 uhi0 u m = .ok m) (g2 : F.cellgs1d lo0 hi0 n o slo0 shi0 st flo0 fhi0 f ulo0 uhi0 u m2 = .ok m2) : U = V := by
  obtain ⟨m', k1, k2⟩ := C51_fixed_1d_partial hf h hd hq.diag
  obtain ⟨m2', k3, k4⟩ := C51_fixed_1d_partial hf h2 hd hq.diag
  have e1 := k2.1 (by rw [g1] at k1; injection k1 with e; exact e.symm)
  have e2 := k4.1 (by rw [g2] at k3; injection k3 with e; exact e.symm)
  exact F.eqn_unique h.size (box := [(lo0, hi0)]) (fun p hp => by exact F.shift_diag hp rfl hd) hq h1 e1 e2 hUV (l := F.pts1 (F.irange lo0 hi0)) fun p => F.all1

example : exX = exX := by
  obtain ⟨m', k1, k2⟩ := C51_fixed_1d_partial rfl ex_sol1 rfl ex_dom1.diag
  have e := k2.2 ex_eqn1
  subst e
  exact C60_gs_1d_partial rfl ex_sol1 ex_sol1 rfl ex_dom1 (by norm_num) (fun _ _ => rfl) k1 k1

/-- Damped Jacobi, two dimensions: two sets of unknowns that a sweep with the same coefficients and right hand side leaves as they are agree if they agree
outside the box. -/
theorem C60_jacobi_2d {T : Type} [Field T] [LinearOrder T] [IsStrictOrderedRing T] {lo0 hi0 lo1 hi1 slo0 shi0 slo1 shi1 flo0 fhi0 flo1 fhi1 ulo0 uhi0 ulo1 uhi1 n : Int} {o st f u : Ptr} {r : Ptr}
    {O : Int → List Int} {S B U V w : List Int → T} {q : T} {m m2 : Mem T} {R R2 : List Int → T}
    (h : F.Problem m [(lo0, hi0), (lo1, hi1)] n (F.offset0 o 2 n) (F.sm2d st n slo0 slo1 shi0 shi1) (F.box2d f flo0 flo1 fhi0 fhi1)
      (F.box2d u ulo0 ulo1 uhi0 uhi1) O S B U)
    (h2 : F.Problem m2 [(lo0, hi0), (lo1, hi1)] n (F.offset0 o 2 n) (F.sm2d st n slo0 slo1 shi0 shi1) (F.box2d f flo0 flo1 fhi0 fhi1)
      (F.box2d u ulo0 ulo1 uhi0 uhi1) O S B V)
    (hr : F.Holds m (F.box2d r lo0 lo1 hi0 hi1) R) (hr2 : F.Holds m2 (F.box2d r lo0 lo1 hi0 hi1) R2)
    (ru : F.Apart (F.box2d r lo0 lo1 hi0 hi1) (F.box2d u ulo0 ulo1 uhi0 uhi1)) (rs : F.Apart (F.box2d r lo0 lo1 hi0 hi1) (F.sm2d st n slo0 slo1 shi0 shi1)) (rf : F.Apart (F.box2d r lo0 lo1 hi0 hi1) (F.box2d f flo0 flo1 fhi0 fhi1))
    (hd : F.Diag 2 O) (hq : F.Dominant [(lo0, hi0), (lo1, hi1)] n O q w S) (h1 : q < 1) (hUV : ∀ p, ¬ F.InBounds [(lo0, hi0), (lo1, hi1)] p → U p = V p) :
    ∃ m' m2', F.celljacobi2d lo0 hi0 lo1 hi1 n o slo0 shi0 slo1 shi1 st flo0 fhi0 flo1 fhi1 f ulo0 uhi0 ulo1 uhi1 u r m = .ok m' ∧
      F.celljacobi2d lo0 hi0 lo1 hi1 n o slo0 shi0 slo1 shi1 st flo0 fhi0 flo1 fhi1 f ulo0 uhi0 ulo1 uhi1 u r m2 = .ok m2' ∧
      (F.Holds m' (F.box2d u ulo0 ulo1 uhi0 uhi1) U → F.Holds m2' (F.box2d u ulo0 ulo1 uhi0 uhi1) V → U = V) := by
  obtain ⟨m', g1, g2⟩ := C50_fixed_2d h hr ru rs rf hq.diag
  obtain ⟨m2', k1, k2⟩ := C50_fixed_2d h2 hr2 ru rs rf hq.diag
  refine ⟨m', m2', g1, k1, fun a b => ?_⟩
  have e1 := g2.1 a
  have e2 := k2.1 b
  exact F.eqn_unique h.size (box := [(lo0, hi0), (lo1, hi1)]) (fun p hp => by exact F.shift_diag hp rfl hd) hq h1 e1 e2 hUV (l := F.pts2 (F.irange lo1 hi1) (fun _ => F.irange lo0 hi0)) fun p => F.all2

example := C60_jacobi_2d (r := ⟨4, 0⟩) ex_sol2 ex_sol2 (R := fun _ => 0) (R2 := fun _ => 0) (fun _ hi => ⟨hi, rfl⟩) (fun _ hi => ⟨hi, rfl⟩)
  (ex_apart (by decide)) (ex_apart (by decide)) (ex_apart (by decide)) rfl ex_dom2 (by norm_num) fun _ _ => rfl

/-- Gauss-Seidel, two dimensions: as `C60_jacobi_2d`. -/
theorem C60_gs_2d {T : Type} [Field T] [LinearOrder T] [IsStrictOrderedRing T] {lo0 hi0 lo1 hi1 slo0 shi0 slo1 shi1 flo0 fhi0 flo1 fhi1 ulo0 uhi0 ulo1 uhi1 n : Int} {o st f u : Ptr}
    {O : Int → List Int} {S B U V w : List Int → T} {q : T} {m m2 : Mem T}
    (h : F.Problem m [(lo0, hi0), (lo1, hi1)] n (F.offset0 o 2 n) (F.sm2d st n slo0 slo1 shi0 shi1) (F.box2d f flo0 flo1 fhi0 fhi1)
      (F.box2d u ulo0 ulo1 uhi0 uhi1) O S B U)
    (h2 : F.Problem m2 [(lo0, hi0), (lo1, hi1)] n (F.offset0 o 2 n) (F.sm2d st n slo0 slo1 shi0 shi1) (F.box2d f flo0 flo1 fhi0 fhi1)
      (F.box2d u ulo0 ulo1 uhi0 uhi1) O S B V)
    (hd : F.Diag 2 O) (hq : F.Dominant [(lo0, hi0), (lo1, hi1)] n O q w S) (h1 : q < 1) (hUV : ∀ p, ¬ F.InBounds [(lo0, hi0), (lo1, hi1)] p → U p = V p)
    (g1 : F.cellgs2d lo0 hi0 lo1 hi1 n o slo0 shi0 slo1 shi1 st flo0 fhi0 flo1 fhi1 f ulo0 uhi0 ulo1 uhi1 u m = .ok m) (g2 : F.cellgs2d lo0 hi0 lo1 hi1 n o slo0 shi0 slo1 shi1 st flo0 fhi0 flo1 fhi1 f ulo0 uhi0 ulo1 uhi1 u m2 = .ok m2) : U = V := by
  obtain ⟨m', k1, k2⟩ := C51_fixed_2d h hd hq.diag
  obtain ⟨m2', k3, k4⟩ := C51_fixed_2d h2 hd hq.diag
  have e1 := k2.1 (by rw [g1] at k1; injection k1 with e; exact e.symm)
  have e2 := k4.1 (by rw [g2] at k3; injection k3 with e; exact e.symm)
  exact F.eqn_unique h.size (box := [(lo0, hi0), (lo1, hi1)]) (fun p hp => by exact F.shift_diag hp rfl hd) hq h1 e1 e2 hUV (l := F.pts2 (F.irange lo1 hi1) (fun _ => F.irange lo0 hi0)) fun p => F.all2

example : exX = exX := by
  obtain ⟨m', k1, k2⟩ := C51_fixed_2d ex_sol2 rfl ex_dom2.diag
  have e := k2.2 ex_eqn2
  subst e
  exact C60_gs_2d ex_sol2 ex_sol2 rfl ex_dom2 (by norm_num) (fun _ _ => rfl) k1 k1

/-- Damped Jacobi, three dimensions: two sets of unknowns that a sweep with the same coefficients and right hand side leaves as they are agree if they agree
outside the box. -/
theorem C60_jacobi_3d {T : Type} [Field T] [LinearOrder T] [IsStrictOrderedRing T] {lo0 hi0 lo1 hi1 lo2 hi2 slo0 shi0 slo1 shi1 slo2 shi2 flo0 fhi0 flo1 fhi1 flo2 fhi2 ulo0 uhi0 ulo1 uhi1 ulo2 uhi2 n : Int} {o st f u : Ptr} {r : Ptr}
    {O : Int → List Int} {S B U V w : List Int → T} {q : T} {m m2 : Mem T} {R R2 : List Int → T}
    (h : F.Problem m [(lo0, hi0), (lo1, hi1), (lo2, hi2)] n (F.offset0 o 3 n) (F.sm3d st n slo0 slo1 slo2 shi0 shi1 shi2) (F.box3d f flo0 flo1 flo2 fhi0 fhi1 fhi2)
      (F.box3d u ulo0 ulo1 ulo2 uhi0 uhi1 uhi2) O S B U)
    (h2 : F.Problem m2 [(lo0, hi0), (lo1, hi1), (lo2, hi2)] n (F.offset0 o 3 n) (F.sm3d st n slo0 slo1 slo2 shi0 shi1 shi2) (F.box3d f flo0 flo1 flo2 fhi0 fhi1 fhi2)
      (F.box3d u ulo0 ulo1 ulo2 uhi0 uhi1 uhi2) O S B V)
    (hr : F.Holds m (F.box3d r lo0 lo1 lo2 hi0 hi1 hi2) R) (hr2 : F.Holds m2 (F.box3d r lo0 lo1 lo2 hi0 hi1 hi2) R2)
    (ru : F.Apart (F.box3d r lo0 lo1 lo2 hi0 hi1 hi2) (F.box3d u ulo0 ulo1 ulo2 uhi0 uhi1 uhi2)) (rs : F.Apart (F.box3d r lo0 lo1 lo2 hi0 hi1 hi2) (F.sm3d st n slo0 slo1 slo2 shi0 shi1 shi2)) (rf : F.Apart (F.box3d r lo0 lo1 lo2 hi0 hi1 hi2) (F.box3d f flo0 flo1 flo2 fhi0 fhi1 fhi2))
    (hd : F.Diag 3 O) (hq : F.Dominant [(lo0, hi0), (lo1, hi1), (lo2, hi2)] n O q w S) (h1 : q < 1) (hUV : ∀ p, ¬ F.InBounds [(lo0, hi0), (lo1, hi1), (lo2, hi2)] p → U p = V p) :
    ∃ m' m2', F.celljacobi3d lo0 hi0 lo1 hi1 lo2 hi2 n o slo0 shi0 slo1 shi1 slo2 shi2 st flo0 fhi0 flo1 fhi1 flo2 fhi2 f ulo0 uhi0 ulo1 uhi1 ulo2 uhi2 u r m = .ok m' ∧
      F.celljacobi3d lo0 hi0 lo1 hi1 lo2 hi2 n o slo0 shi0 slo1 shi1 slo2 shi2 st flo0 fhi0 flo1 fhi1 flo2 fhi2 f ulo0 uhi0 ulo1 uhi1 ulo2 uhi2 u r m2 = .ok m2' ∧
      (F.Holds m' (F.box3d u ulo0 ulo1 ulo2 uhi0 uhi1 uhi2) U → F.Holds m2' (F.box3d u ulo0 ulo1 ulo2 uhi0 uhi1 uhi2) V → U = V) := by
  obtain ⟨m', g1, g2⟩ := C50_fixed_3d h hr ru rs rf hq.diag
  obtain ⟨m2', k1, k2⟩ := C50_fixed_3d h2 hr2 ru rs rf hq.diag
  refine ⟨m', m2', g1, k1, fun a b => ?_⟩
  have e1 := g2.1 a
  have e2 := k2.1 b
  exact F.eqn_unique h.size (box := [(lo0, hi0), (lo1, hi1), (lo2, hi2)]) (fun p hp => by exact F.shift_diag hp rfl hd) hq h1 e1 e2 hUV (l := F.pts3 (F.irange lo2 hi2) (F.irange lo1 hi1) (fun _ _ => F.irange lo0 hi0)) fun p => F.all3

example := C60_jacobi_3d (r := ⟨4, 0⟩) ex_sol3 ex_sol3 (R := fun _ => 0) (R2 := fun _ => 0) (fun _ hi => ⟨hi, rfl⟩) (fun _ hi => ⟨hi, rfl⟩)
  (ex_apart (by decide)) (ex_apart (by decide)) (ex_apart (by decide)) rfl ex_dom3 (by norm_num) fun _ _ => rfl

/-- Gauss-Seidel, three dimensions: as `C60_jacobi_3d`. -/
theorem C60_gs_3d {T : Type} [Field T] [LinearOrder T] [IsStrictOrderedRing T] {lo0 hi0 lo1 hi1 lo2 hi2 slo0 shi0 slo1 shi1 slo2 shi2 flo0 fhi0 flo1 fhi1 flo2 fhi2 ulo0 uhi0 ulo1 uhi1 ulo2 uhi2 n : Int} {o st f u : Ptr}
    {O : Int → List Int} {S B U V w : List Int → T} {q : T} {m m2 : Mem T}
    (h : F.Problem m [(lo0, hi0), (lo1, hi1), (lo2, hi2)] n (F.offset0 o 3 n) (F.sm3d st n slo0 slo1 slo2 shi0 shi1 shi2) (F.box3d f flo0 flo1 flo2 fhi0 fhi1 fhi2)
      (F.box3d u ulo0 ulo1 ulo2 uhi0 uhi1 uhi2) O S B U)
    (h2 : F.Problem m2 [(lo0, hi0), (lo1, hi1), (lo2, hi2)] n (F.offset0 o 3 n) (F.sm3d st n slo0 slo1 slo2 shi0 shi1 shi2) (F.box3d f flo0 flo1 flo2 fhi0 fhi1 fhi2)
      (F.box3d u ulo0 ulo1 ulo2 uhi0 uhi1 uhi2) O S B V)
    (hd : F.Diag 3 O) (hq : F.Dominant [(lo0, hi0), (lo1, hi1), (lo2, hi2)] n O q w S) (h1 : q < 1) (hUV : ∀ p, ¬ F.InBounds [(lo0, hi0), (lo1, hi1), (lo2, hi2)] p → U p = V p)
    (g1 : F.cellgs3d lo0 hi0 lo1 hi1 lo2 hi2 n o slo0 shi0 slo1 shi1 slo2 shi2 st flo0 fhi0 flo1 fhi1 flo2 fhi2 f ulo0 uhi0 ulo1 uhi1 ulo2 uhi2 u m = .ok m) (g2 : F.cellgs3d lo0 hi0 lo1 hi1 lo2 hi2 n o slo0 shi0 slo1 shi1 slo2 shi2 st flo0 fhi0 flo1 fhi1 flo2 fhi2 f ulo0 uhi0 ulo1 uhi1 ulo2 uhi2 u m2 = .ok m2) : U = V := by
  obtain ⟨m', k1, k2⟩ := C51_fixed_3d h hd hq.diag
  obtain ⟨m2', k3, k4⟩ := C51_fixed_3d h2 hd hq.diag
  have e1 := k2.1 (by rw [g1] at k1; injection k1 with e; exact e.symm)
  have e2 := k4.1 (by rw [g2] at k3; injection k3 with e; exact e.symm)
  exact F.eqn_unique h.size (box := [(lo0, hi0), (lo1, hi1), (lo2, hi2)]) (fun p hp => by exact F.shift_diag hp rfl hd) hq h1 e1 e2 hUV (l := F.pts3 (F.irange lo2 hi2) (F.irange lo1 hi1) (fun _ _ => F.irange lo0 hi0)) fun p => F.all3

example : exX = exX := by
  obtain ⟨m', k1, k2⟩ := C51_fixed_3d ex_sol3 rfl ex_dom3.diag
  have e := k2.2 ex_eqn3
  subst e
  exact C60_gs_3d ex_sol3 ex_sol3 rfl ex_dom3 (by norm_num) (fun _ _ => rfl) k1 k1

/-- Red-black Gauss-Seidel, one dimension: two sets of unknowns that the two calls for the two colours together leave as they are agree if they agree
outside the box. -/
theorem C60_rbgs_1d {T : Type} [Field T] [LinearOrder T] [IsStrictOrderedRing T] {lo0 hi0 slo0 shi0 flo0 fhi0 ulo0 uhi0 n color color2 : Int} {o st f u : Ptr}
    {O : Int → List Int} {S B U V w : List Int → T} {q : T} {m m1 m2 m3 : Mem T}
    (hc : 0 ≤ color) (hc2 : 0 ≤ color2) (hcc : (color2 - color) % 2 = 1)
    (h : F.Problem m [(lo0, hi0)] n (F.offset0 o 1 n) (F.sm1d st n slo0 shi0) (F.box1d f flo0 fhi0)
      (F.box1d u ulo0 uhi0) O S B U)
    (h2 : F.Problem m2 [(lo0, hi0)] n (F.offset0 o 1 n) (F.sm1d st n slo0 shi0) (F.box1d f flo0 fhi0)
      (F.box1d u ulo0 uhi0) O S B V)
    (hd : F.Diag 1 O) (hq : F.Dominant [(lo0, hi0)] n O q w S) (h1 : q < 1) (hUV : ∀ p, ¬ F.InBounds [(lo0, hi0)] p → U p = V p)
    (g1 : F.cellrbgs1d lo0 hi0 color n o slo0 shi0 st flo0 fhi0 f ulo0 uhi0 u m = .ok m1) (g2 : F.cellrbgs1d lo0 hi0 color2 n o slo0 shi0 st flo0 fhi0 f ulo0 uhi0 u m1 = .ok m)
    (g3 : F.cellrbgs1d lo0 hi0 color n o slo0 shi0 st flo0 fhi0 f ulo0 uhi0 u m2 = .ok m3) (g4 : F.cellrbgs1d lo0 hi0 color2 n o slo0 shi0 st flo0 fhi0 f ulo0 uhi0 u m3 = .ok m2) : U = V := by
  obtain ⟨x1, x2, k1, k2, k3⟩ := C52_both_1d hc hc2 hcc h hd hq.diag
  obtain ⟨y1, y2, l1, l2, l3⟩ := C52_both_1d hc hc2 hcc h2 hd hq.diag
  obtain rfl : m1 = x1 := Except.ok.inj (g1.symm.trans k1)
  obtain rfl : m3 = y1 := Except.ok.inj (g3.symm.trans l1)
  have e1 := k3.1 (Except.ok.inj (k2.symm.trans g2))
  have e2 := l3.1 (Except.ok.inj (l2.symm.trans g4))
  exact F.eqn_unique h.size (box := [(lo0, hi0)]) (fun p hp => by exact F.shift_diag hp rfl hd) hq h1 e1 e2 hUV (l := F.pts1 (F.irange lo0 hi0)) fun p => F.all1

example : exX = exX := by
  obtain ⟨x1, x2, k1, k2, k3⟩ := C52_both_1d (color := 0) (color2 := 1) (by decide) (by decide) (by decide) ex_sol1 rfl ex_dom1.diag
  have e := k3.2 ex_eqn1
  subst e
  exact C60_rbgs_1d (by decide) (by decide) (by decide) ex_sol1 ex_sol1 rfl ex_dom1 (by norm_num) (fun _ _ => rfl) k1 k2 k1 k2

/-- Red-black Gauss-Seidel, two dimensions: two sets of unknowns that the two calls for the two colours together leave as they are agree if they agree
outside the box. (Partial: rows with `j + color` negative are excluded, see `C52_sweep_2d_false`; the full statement has no hypotheses `hc`, `hc2`.) -/
theorem C60_rbgs_2d_partial {T : Type} [Field T] [LinearOrder T] [IsStrictOrderedRing T] {lo0 hi0 lo1 hi1 slo0 shi0 slo1 shi1 flo0 fhi0 flo1 fhi1 ulo0 uhi0 ulo1 uhi1 n color color2 : Int} {o st f u : Ptr}
    {O : Int → List Int} {S B U V w : List Int → T} {q : T} {m m1 m2 m3 : Mem T}
    (hc : 0 ≤ lo1 + color) (hc2 : 0 ≤ lo1 + color2) (hcc : (color2 - color) % 2 = 1)
    (h : F.Problem m [(lo0, hi0), (lo1, hi1)] n (F.offset0 o 2 n) (F.sm2d st n slo0 slo1 shi0 shi1) (F.box2d f flo0 flo1 fhi0 fhi1)
      (F.box2d u ulo0 ulo1 uhi0 uhi1) O S B U)
    (h2 : F.Problem m2 [(lo0, hi0), (lo1, hi1)] n (F.offset0 o 2 n) (F.sm2d st n slo0 slo1 shi0 shi1) (F.box2d f flo0 flo1 fhi0 fhi1)
      (F.box2d u ulo0 ulo1 uhi0 uhi1) O S B V)
    (hd : F.Diag 2 O) (hq : F.Dominant [(lo0, hi0), (lo1, hi1)] n O q w S) (h1 : q < 1) (hUV : ∀ p, ¬ F.InBounds [(lo0, hi0), (lo1, hi1)] p → U p = V p)
    (g1 : F.cellrbgs2d lo0 hi0 lo1 hi1 color n o slo0 shi0 slo1 shi1 st flo0 fhi0 flo1 fhi1 f ulo0 uhi0 ulo1 uhi1 u m = .ok m1) (g2 : F.cellrbgs2d lo0 hi0 lo1 hi1 color2 n o slo0 shi0 slo1 shi1 st flo0 fhi0 flo1 fhi1 f ulo0 uhi0 ulo1 uhi1 u m1 = .ok m)
    (g3 : F.cellrbgs2d lo0 hi0 lo1 hi1 color n o slo0 shi0 slo1 shi1 st flo0 fhi0 flo1 fhi1 f ulo0 uhi0 ulo1 uhi1 u m2 = .ok m3) (g4 : F.cellrbgs2d lo0 hi0 lo1 hi1 color2 n o slo0 shi0 slo1 shi1 st flo0 fhi0 flo1 fhi1 f ulo0 uhi0 ulo1 uhi1 u m3 = .ok m2) : U = V := by
  obtain ⟨x1, x2, k1, k2, k3⟩ := C52_both_2d_partial hc hc2 hcc h hd hq.diag
  obtain ⟨y1, y2, l1, l2, l3⟩ := C52_both_2d_partial hc hc2 hcc h2 hd hq.diag
  obtain rfl : m1 = x1 := Except.ok.inj (g1.symm.trans k1)
  obtain rfl : m3 = y1 := Except.ok.inj (g3.symm.trans l1)
  have e1 := k3.1 (Except.ok.inj (k2.symm.trans g2))
  have e2 := l3.1 (Except.ok.inj (l2.symm.trans g4))
  exact F.eqn_unique h.size (box := [(lo0, hi0), (lo1, hi1)]) (fun p hp => by exact F.shift_diag hp rfl hd) hq h1 e1 e2 hUV (l := F.pts2 (F.irange lo1 hi1) (fun _ => F.irange lo0 hi0)) fun p => F.all2

example : exX = exX := by
  obtain ⟨x1, x2, k1, k2, k3⟩ := C52_both_2d_partial (color := 0) (color2 := 1) (by decide) (by decide) (by decide) ex_sol2 rfl ex_dom2.diag
  have e := k3.2 ex_eqn2
  subst e
  exact C60_rbgs_2d_partial (by decide) (by decide) (by decide) ex_sol2 ex_sol2 rfl ex_dom2 (by norm_num) (fun _ _ => rfl) k1 k2 k1 k2

/-- Red-black Gauss-Seidel, three dimensions: two sets of unknowns that the two calls for the two colours together leave as they are agree if they agree
outside the box. -/
theorem C60_rbgs_3d {T : Type} [Field T] [LinearOrder T] [IsStrictOrderedRing T] {lo0 hi0 lo1 hi1 lo2 hi2 slo0 shi0 slo1 shi1 slo2 shi2 flo0 fhi0 flo1 fhi1 flo2 fhi2 ulo0 uhi0 ulo1 uhi1 ulo2 uhi2 n color color2 : Int} {o st f u : Ptr}
    {O : Int → List Int} {S B U V w : List Int → T} {q : T} {m m1 m2 m3 : Mem T}
    (hc : 0 ≤ color) (hc2 : 0 ≤ color2) (hcc : (color2 - color) % 2 = 1)
    (h : F.Problem m [(lo0, hi0), (lo1, hi1), (lo2, hi2)] n (F.offset0 o 3 n) (F.sm3d st n slo0 slo1 slo2 shi0 shi1 shi2) (F.box3d f flo0 flo1 flo2 fhi0 fhi1 fhi2)
      (F.box3d u ulo0 ulo1 ulo2 uhi0 uhi1 uhi2) O S B U)
    (h2 : F.Problem m2 [(lo0, hi0), (lo1, hi1), (lo2, hi2)] n (F.offset0 o 3 n) (F.sm3d st n slo0 slo1 slo2 shi0 shi1 shi2) (F.box3d f flo0 flo1 flo2 fhi0 fhi1 fhi2)
      (F.box3d u ulo0 ulo1 ulo2 uhi0 uhi1 uhi2) O S B V)
    (hd : F.Diag 3 O) (hq : F.Dominant [(lo0, hi0), (lo1, hi1), (lo2, hi2)] n O q w S) (h1 : q < 1) (hUV : ∀ p, ¬ F.InBounds [(lo0, hi0), (lo1, hi1), (lo2, hi2)] p → U p = V p)
    (g1 : F.cellrbgs3d lo0 hi0 lo1 hi1 lo2 hi2 color n o slo0 shi0 slo1 shi1 slo2 shi2 st flo0 fhi0 flo1 fhi1 flo2 fhi2 f ulo0 uhi0 ulo1 uhi1 ulo2 uhi2 u m = .ok m1) (g2 : F.cellrbgs3d lo0 hi0 lo1 hi1 lo2 hi2 color2 n o slo0 shi0 slo1 shi1 slo2 shi2 st flo0 fhi0 flo1 fhi1 flo2 fhi2 f ulo0 uhi0 ulo1 uhi1 ulo2 uhi2 u m1 = .ok m)
    (g3 : F.cellrbgs3d lo0 hi0 lo1 hi1 lo2 hi2 color n o slo0 shi0 slo1 shi1 slo2 shi2 st flo0 fhi0 flo1 fhi1 flo2 fhi2 f ulo0 uhi0 ulo1 uhi1 ulo2 uhi2 u m2 = .ok m3) (g4 : F.cellrbgs3d lo0 hi0 lo1 hi1 lo2 hi2 color2 n o slo0 shi0 slo1 shi1 slo2 shi2 st flo0 fhi0 flo1 fhi1 flo2 fhi2 f ulo0 uhi0 ulo1 uhi1 ulo2 uhi2 u m3 = .ok m2) : U = V := by
  obtain ⟨x1, x2, k1, k2, k3⟩ := C52_both_3d hc hc2 hcc h hd hq.diag
  obtain ⟨y1, y2, l1, l2, l3⟩ := C52_both_3d hc hc2 hcc h2 hd hq.diag
  obtain rfl : m1 = x1 := Except.ok.inj (g1.symm.trans k1)
  obtain rfl : m3 = y1 := Except.ok.inj (g3.symm.trans l1)
  have e1 := k3.1 (Except.ok.inj (k2.symm.trans g2))
  have e2 := l3.1 (Except.ok.inj (l2.symm.trans g4))
  exact F.eqn_unique h.size (box := [(lo0, hi0), (lo1, hi1), (lo2, hi2)]) (fun p hp => by exact F.shift_diag hp rfl hd) hq h1 e1 e2 hUV (l := F.pts3 (F.irange lo2 hi2) (F.irange lo1 hi1) (fun _ _ => F.irange lo0 hi0)) fun p => F.all3

example : exX = exX := by
  obtain ⟨x1, x2, k1, k2, k3⟩ := C52_both_3d (color := 0) (color2 := 1) (by decide) (by decide) (by decide) ex_sol3 rfl ex_dom3.diag
  have e := k3.2 ex_eqn3
  subst e
  exact C60_rbgs_3d (by decide) (by decide) (by decide) ex_sol3 ex_sol3 rfl ex_dom3 (by norm_num) (fun _ _ => rfl) k1 k2 k1 k2

end Verif
