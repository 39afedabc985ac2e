import Verif.Lemmas.ErrorEnergySym
import Verif.Lemmas.AssembleEx
import Verif.Props.Smooth

/-
C81: sweeps do not increase the energy of the error.
-/

set_option linter.unusedVariables false

namespace Verif
open Spec

/-! ### sweeps -/

/-- Damped Jacobi, one dimension: for symmetric equations with positive diagonal and weak row dominance a sweep does not increase the energy of the error, and keeps it
only if the equations of all cells held already. -/
theorem C81_jacobi_1d {T : Type} [Field T] [LinearOrder T] [IsStrictOrderedRing T] {lo0 hi0 slo0 shi0 flo0 fhi0 ulo0 uhi0 n : Int} {o st f u : Ptr} {r : Ptr}
    {O : Int → List Int} {S B U X : List Int → T} {m : Mem T} {R : List Int → T}
    (h : F.Problem m [(lo0, hi0)] n (F.offset0 o 1 n) (F.sm1d st n slo0 shi0) (F.box1d f flo0 fhi0)
      (F.box1d u ulo0 uhi0) O S B U)
    (hr : F.Holds m (F.box1d r lo0 hi0) R) (ru : F.Apart (F.box1d r lo0 hi0) (F.box1d u ulo0 uhi0)) (rs : F.Apart (F.box1d r lo0 hi0) (F.sm1d st n slo0 shi0)) (rf : F.Apart (F.box1d r lo0 hi0) (F.box1d f flo0 fhi0))
    (hd : F.Diag 1 O) (ha : F.Alone 1 n O) (hs : F.Symmetric [(lo0, hi0)] n O S) (h0 : ∀ p, F.InBounds [(lo0, hi0)] p → 0 < S (0 :: p)) (hr1 : ∀ p, F.InBounds [(lo0, hi0)] p → F.sum 1 (n - 1) (fun s => |S (s :: p)|) ≤ S (0 :: p)) (hX : F.Solved [(lo0, hi0)] n O S B X U) :
    ∃ m' U', F.celljacobi1d lo0 hi0 n o slo0 shi0 st flo0 fhi0 f ulo0 uhi0 u r m = .ok m' ∧
      F.Holds m' (F.box1d u ulo0 uhi0) U' ∧ F.Only [(F.box1d u ulo0 uhi0), (F.box1d r lo0 hi0)] m m' ∧
      F.energy [(lo0, hi0)] n O S (fun p => U' p - X p) ≤ F.energy [(lo0, hi0)] n O S (fun p => U p - X p) ∧
      (F.energy [(lo0, hi0)] n O S (fun p => U' p - X p) = F.energy [(lo0, hi0)] n O S (fun p => U p - X p) ↔ ∀ p, F.InBounds [(lo0, hi0)] p → F.Eqn n O S B U p) := by
  obtain ⟨m', U', g1, g2, g3, g4, g5, _⟩ := C50_jacobi_1d h hr ru rs rf
  exact ⟨m', U', g1, g2, g3, F.jacobi_energy (w := ((2 : Nat) / (3 : Nat) : T)) (by positivity) (by norm_num) hs h.size h0 hr1 hX g4 g5⟩

example := C81_jacobi_1d (r := ⟨4, 0⟩) ex_conv1 (R := fun _ => 0) (fun _ hi => ⟨hi, rfl⟩) (ex_apart (by decide)) (ex_apart (by decide)) (ex_apart (by decide))
  rfl ex_alone1 ex_sym1 ex_pos1 ex_weak1 ex_solved1

/-- Gauss-Seidel, one dimension: for symmetric equations with positive diagonal a sweep does not increase the energy of the error, and keeps it only if the equations of
all cells held already. (Partial: the bounds of `f` must be those of `u`, see `C51_gs_1d_false`.) -/
theorem C81_gs_1d_partial {T : Type} [Field T] [LinearOrder T] [IsStrictOrderedRing T] {lo0 hi0 slo0 shi0 flo0 fhi0 ulo0 uhi0 n : Int} {o st f u : Ptr}
    {O : Int → List Int} {S B U X : List Int → T} {m : Mem T} (hf : flo0 = ulo0)
    (h : F.Problem m [(lo0, hi0)] n (F.offset0 o 1 n) (F.sm1d st n slo0 shi0) (F.box1d f flo0 fhi0)
      (F.box1d u ulo0 uhi0) O S B U)
    (hd : F.Diag 1 O) (ha : F.Alone 1 n O) (hs : F.Symmetric [(lo0, hi0)] n O S) (h0 : ∀ p, F.InBounds [(lo0, hi0)] p → 0 < S (0 :: p)) (hX : F.Solved [(lo0, hi0)] n O S B X U) :
    ∃ m' U', F.cellgs1d lo0 hi0 n o slo0 shi0 st flo0 fhi0 f ulo0 uhi0 u m = .ok m' ∧ F.Holds m' (F.box1d u ulo0 uhi0) U' ∧ F.Only [(F.box1d u ulo0 uhi0)] m m' ∧
      F.energy [(lo0, hi0)] n O S (fun p => U' p - X p) ≤ F.energy [(lo0, hi0)] n O S (fun p => U p - X p) ∧
      (F.energy [(lo0, hi0)] n O S (fun p => U' p - X p) = F.energy [(lo0, hi0)] n O S (fun p => U p - X p) ↔ ∀ p, F.InBounds [(lo0, hi0)] p → F.Eqn n O S B U p) := by
  obtain ⟨m', U', g1, g2, g3, g4⟩ := C51_gs_1d_partial hf h
  have e := F.swept_energy (l := F.pts1 (F.irange lo0 hi0)) (fun p => F.all1) (F.pts1_before F.irange_lt) (fun _ hp => hp) hs h.size (fun p hp => by exact F.shift_diag hp rfl hd) (fun p hp s h1 h2 => by exact h.alone rfl ha hp h1 h2) h0 hX g4
  exact ⟨m', U', g1, g2, g3, e⟩

example := C81_gs_1d_partial rfl ex_conv1 rfl ex_alone1 ex_sym1 ex_pos1 ex_solved1

/-- Red-black Gauss-Seidel, one dimension: the same for the sweep of one colour, and the equations of the cells of that colour. -/
theorem C81_rbgs_1d {T : Type} [Field T] [LinearOrder T] [IsStrictOrderedRing T] {lo0 hi0 slo0 shi0 flo0 fhi0 ulo0 uhi0 n color : Int} {o st f u : Ptr}
    {O : Int → List Int} {S B U X : List Int → T} {m : Mem T} (hc : 0 ≤ color)
    (h : F.Problem m [(lo0, hi0)] n (F.offset0 o 1 n) (F.sm1d st n slo0 shi0) (F.box1d f flo0 fhi0)
      (F.box1d u ulo0 uhi0) O S B U)
    (hd : F.Diag 1 O) (ha : F.Alone 1 n O) (hs : F.Symmetric [(lo0, hi0)] n O S) (h0 : ∀ p, F.InBounds [(lo0, hi0)] p → 0 < S (0 :: p)) (hX : F.Solved [(lo0, hi0)] n O S B X U) :
    ∃ m' U', F.cellrbgs1d lo0 hi0 color n o slo0 shi0 st flo0 fhi0 f ulo0 uhi0 u m = .ok m' ∧ F.Holds m' (F.box1d u ulo0 uhi0) U' ∧ F.Only [(F.box1d u ulo0 uhi0)] m m' ∧
      F.energy [(lo0, hi0)] n O S (fun p => U' p - X p) ≤ F.energy [(lo0, hi0)] n O S (fun p => U p - X p) ∧
      (F.energy [(lo0, hi0)] n O S (fun p => U' p - X p) = F.energy [(lo0, hi0)] n O S (fun p => U p - X p) ↔ ∀ p, F.InBounds [(lo0, hi0)] p → F.Colour lo0 color p → F.Eqn n O S B U p) := by
  obtain ⟨m', U', g1, g2, g3, g4⟩ := C52_sweep_1d (color := color) hc h
  have e := F.swept_energy (l := F.pts1 (F.srange (lo0 + color.tmod 2) hi0 2)) (fun p => F.colour1 hc) (F.pts1_before F.srange_lt) (fun _ hp => hp.1) hs h.size (fun p hp => by exact F.shift_diag hp rfl hd) (fun p hp s h1 h2 => by exact h.alone rfl ha hp h1 h2) h0 hX g4
  exact ⟨m', U', g1, g2, g3, e.1, e.2.trans ⟨fun k p hp hc => k p ⟨hp, hc⟩, fun k p hp => k p hp.1 hp.2⟩⟩

example := C81_rbgs_1d (color := 0) (by decide) ex_conv1 rfl ex_alone1 ex_sym1 ex_pos1 ex_solved1

/-- Damped Jacobi, two dimensions: for symmetric equations with positive diagonal and weak row dominance a sweep does not increase the energy of the error, and keeps it
only if the equations of all cells held already. -/
theorem C81_jacobi_2d {T : Type} [Field T] [LinearOrder T] [IsStrictOrderedRing T] {lo0 hi0 lo1 hi1 slo0 shi0 slo1 shi1 flo0 fhi0 flo1 fhi1 ulo0 uhi0 ulo1 uhi1 n : Int} {o st f u : Ptr} {r : Ptr}
    {O : Int → List Int} {S B U X : List Int → T} {m : Mem T} {R : List Int → T}
    (h : F.Problem m [(lo0, hi0), (lo1, hi1)] n (F.offset0 o 2 n) (F.sm2d st n slo0 slo1 shi0 shi1) (F.box2d f flo0 flo1 fhi0 fhi1)
      (F.box2d u ulo0 ulo1 uhi0 uhi1) O S B U)
    (hr : F.Holds m (F.box2d r lo0 lo1 hi0 hi1) R) (ru : F.Apart (F.box2d r lo0 lo1 hi0 hi1) (F.box2d u ulo0 ulo1 uhi0 uhi1)) (rs : F.Apart (F.box2d r lo0 lo1 hi0 hi1) (F.sm2d st n slo0 slo1 shi0 shi1)) (rf : F.Apart (F.box2d r lo0 lo1 hi0 hi1) (F.box2d f flo0 flo1 fhi0 fhi1))
    (hd : F.Diag 2 O) (ha : F.Alone 2 n O) (hs : F.Symmetric [(lo0, hi0), (lo1, hi1)] n O S) (h0 : ∀ p, F.InBounds [(lo0, hi0), (lo1, hi1)] p → 0 < S (0 :: p)) (hr1 : ∀ p, F.InBounds [(lo0, hi0), (lo1, hi1)] p → F.sum 1 (n - 1) (fun s => |S (s :: p)|) ≤ S (0 :: p)) (hX : F.Solved [(lo0, hi0), (lo1, hi1)] n O S B X U) :
    ∃ m' U', F.celljacobi2d lo0 hi0 lo1 hi1 n o slo0 shi0 slo1 shi1 st flo0 fhi0 flo1 fhi1 f ulo0 uhi0 ulo1 uhi1 u r m = .ok m' ∧
      F.Holds m' (F.box2d u ulo0 ulo1 uhi0 uhi1) U' ∧ F.Only [(F.box2d u ulo0 ulo1 uhi0 uhi1), (F.box2d r lo0 lo1 hi0 hi1)] m m' ∧
      F.energy [(lo0, hi0), (lo1, hi1)] n O S (fun p => U' p - X p) ≤ F.energy [(lo0, hi0), (lo1, hi1)] n O S (fun p => U p - X p) ∧
      (F.energy [(lo0, hi0), (lo1, hi1)] n O S (fun p => U' p - X p) = F.energy [(lo0, hi0), (lo1, hi1)] n O S (fun p => U p - X p) ↔ ∀ p, F.InBounds [(lo0, hi0), (lo1, hi1)] p → F.Eqn n O S B U p) := by
  obtain ⟨m', U', g1, g2, g3, g4, g5, _⟩ := C50_jacobi_2d h hr ru rs rf
  exact ⟨m', U', g1, g2, g3, F.jacobi_energy (w := ((13421773 : Nat) / (16777216 : Nat) : T)) (by positivity) (by norm_num) hs h.size h0 hr1 hX g4 g5⟩

example := C81_jacobi_2d (r := ⟨4, 0⟩) ex_conv2 (R := fun _ => 0) (fun _ hi => ⟨hi, rfl⟩) (ex_apart (by decide)) (ex_apart (by decide)) (ex_apart (by decide))
  rfl ex_alone2 ex_sym2 ex_pos2 ex_weak2 ex_solved2

/-- Gauss-Seidel, two dimensions: for symmetric equations with positive diagonal a sweep does not increase the energy of the error, and keeps it only if the equations of
all cells held already. -/
theorem C81_gs_2d {T : Type} [Field T] [LinearOrder T] [IsStrictOrderedRing T] {lo0 hi0 lo1 hi1 slo0 shi0 slo1 shi1 flo0 fhi0 flo1 fhi1 ulo0 uhi0 ulo1 uhi1 n : Int} {o st f u : Ptr}
    {O : Int → List Int} {S B U X : List Int → T} {m : Mem T}
    (h : F.Problem m [(lo0, hi0), (lo1, hi1)] n (F.offset0 o 2 n) (F.sm2d st n slo0 slo1 shi0 shi1) (F.box2d f flo0 flo1 fhi0 fhi1)
      (F.box2d u ulo0 ulo1 uhi0 uhi1) O S B U)
    (hd : F.Diag 2 O) (ha : F.Alone 2 n O) (hs : F.Symmetric [(lo0, hi0), (lo1, hi1)] n O S) (h0 : ∀ p, F.InBounds [(lo0, hi0), (lo1, hi1)] p → 0 < S (0 :: p)) (hX : F.Solved [(lo0, hi0), (lo1, hi1)] n O S B X U) :
    ∃ m' U', F.cellgs2d lo0 hi0 lo1 hi1 n o slo0 shi0 slo1 shi1 st flo0 fhi0 flo1 fhi1 f ulo0 uhi0 ulo1 uhi1 u m = .ok m' ∧ F.Holds m' (F.box2d u ulo0 ulo1 uhi0 uhi1) U' ∧ F.Only [(F.box2d u ulo0 ulo1 uhi0 uhi1)] m m' ∧
      F.energy [(lo0, hi0), (lo1, hi1)] n O S (fun p => U' p - X p) ≤ F.energy [(lo0, hi0), (lo1, hi1)] n O S (fun p => U p - X p) ∧
      (F.energy [(lo0, hi0), (lo1, hi1)] n O S (fun p => U' p - X p) = F.energy [(lo0, hi0), (lo1, hi1)] n O S (fun p => U p - X p) ↔ ∀ p, F.InBounds [(lo0, hi0), (lo1, hi1)] p → F.Eqn n O S B U p) := by
  obtain ⟨m', U', g1, g2, g3, g4⟩ := C51_gs_2d h
  have e := F.swept_energy (l := F.pts2 (F.irange lo1 hi1) (fun _ => F.irange lo0 hi0)) (fun p => F.all2) (F.pts2_before F.irange_lt fun _ => F.irange_lt) (fun _ hp => hp) hs h.size (fun p hp => by exact F.shift_diag hp rfl hd) (fun p hp s h1 h2 => by exact h.alone rfl ha hp h1 h2) h0 hX g4
  exact ⟨m', U', g1, g2, g3, e⟩

example := C81_gs_2d ex_conv2 rfl ex_alone2 ex_sym2 ex_pos2 ex_solved2

/-- Red-black Gauss-Seidel, two dimensions: the same for the sweep of one colour, and the equations of the cells of that colour. (Partial: not for rows and colours with a negative sum, see `C52_sweep_2d_false`.) -/
theorem C81_rbgs_2d_partial {T : Type} [Field T] [LinearOrder T] [IsStrictOrderedRing T] {lo0 hi0 lo1 hi1 slo0 shi0 slo1 shi1 flo0 fhi0 flo1 fhi1 ulo0 uhi0 ulo1 uhi1 n color : Int} {o st f u : Ptr}
    {O : Int → List Int} {S B U X : List Int → T} {m : Mem T} (hc : 0 ≤ lo1 + color)
    (h : F.Problem m [(lo0, hi0), (lo1, hi1)] n (F.offset0 o 2 n) (F.sm2d st n slo0 slo1 shi0 shi1) (F.box2d f flo0 flo1 fhi0 fhi1)
      (F.box2d u ulo0 ulo1 uhi0 uhi1) O S B U)
    (hd : F.Diag 2 O) (ha : F.Alone 2 n O) (hs : F.Symmetric [(lo0, hi0), (lo1, hi1)] n O S) (h0 : ∀ p, F.InBounds [(lo0, hi0), (lo1, hi1)] p → 0 < S (0 :: p)) (hX : F.Solved [(lo0, hi0), (lo1, hi1)] n O S B X U) :
    ∃ m' U', F.cellrbgs2d lo0 hi0 lo1 hi1 color n o slo0 shi0 slo1 shi1 st flo0 fhi0 flo1 fhi1 f ulo0 uhi0 ulo1 uhi1 u m = .ok m' ∧ F.Holds m' (F.box2d u ulo0 ulo1 uhi0 uhi1) U' ∧ F.Only [(F.box2d u ulo0 ulo1 uhi0 uhi1)] m m' ∧
      F.energy [(lo0, hi0), (lo1, hi1)] n O S (fun p => U' p - X p) ≤ F.energy [(lo0, hi0), (lo1, hi1)] n O S (fun p => U p - X p) ∧
      (F.energy [(lo0, hi0), (lo1, hi1)] n O S (fun p => U' p - X p) = F.energy [(lo0, hi0), (lo1, hi1)] n O S (fun p => U p - X p) ↔ ∀ p, F.InBounds [(lo0, hi0), (lo1, hi1)] p → F.Colour lo0 color p → F.Eqn n O S B U p) := by
  obtain ⟨m', U', g1, g2, g3, g4⟩ := C52_sweep_2d_partial (color := color) hc h
  have e := F.swept_energy (l := F.pts2 (F.irange lo1 hi1) (fun j => F.srange (lo0 + (j + color).tmod 2) hi0 2)) (fun p => F.colour2 hc) (F.pts2_before F.irange_lt fun _ => F.srange_lt) (fun _ hp => hp.1) hs h.size (fun p hp => by exact F.shift_diag hp rfl hd) (fun p hp s h1 h2 => by exact h.alone rfl ha hp h1 h2) h0 hX g4
  exact ⟨m', U', g1, g2, g3, e.1, e.2.trans ⟨fun k p hp hc => k p ⟨hp, hc⟩, fun k p hp => k p hp.1 hp.2⟩⟩

example := C81_rbgs_2d_partial (color := 0) (by decide) ex_conv2 rfl ex_alone2 ex_sym2 ex_pos2 ex_solved2

/-- Damped Jacobi, three dimensions: for symmetric equations with positive diagonal and weak row dominance a sweep does not increase the energy of the error, and keeps it
only if the equations of all cells held already. -/
theorem C81_jacobi_3d {T : Type} [Field T] [LinearOrder T] [IsStrictOrderedRing T] {lo0 hi0 lo1 hi1 lo2 hi2 slo0 shi0 slo1 shi1 slo2 shi2 flo0 fhi0 flo1 fhi1 flo2 fhi2 ulo0 uhi0 ulo1 uhi1 ulo2 uhi2 n : Int} {o st f u : Ptr} {r : Ptr}
    {O : Int → List Int} {S B U X : List Int → T} {m : Mem T} {R : List Int → T}
    (h : F.Problem m [(lo0, hi0), (lo1, hi1), (lo2, hi2)] n (F.offset0 o 3 n) (F.sm3d st n slo0 slo1 slo2 shi0 shi1 shi2) (F.box3d f flo0 flo1 flo2 fhi0 fhi1 fhi2)
      (F.box3d u ulo0 ulo1 ulo2 uhi0 uhi1 uhi2) O S B U)
    (hr : F.Holds m (F.box3d r lo0 lo1 lo2 hi0 hi1 hi2) R) (ru : F.Apart (F.box3d r lo0 lo1 lo2 hi0 hi1 hi2) (F.box3d u ulo0 ulo1 ulo2 uhi0 uhi1 uhi2)) (rs : F.Apart (F.box3d r lo0 lo1 lo2 hi0 hi1 hi2) (F.sm3d st n slo0 slo1 slo2 shi0 shi1 shi2)) (rf : F.Apart (F.box3d r lo0 lo1 lo2 hi0 hi1 hi2) (F.box3d f flo0 flo1 flo2 fhi0 fhi1 fhi2))
    (hd : F.Diag 3 O) (ha : F.Alone 3 n O) (hs : F.Symmetric [(lo0, hi0), (lo1, hi1), (lo2, hi2)] n O S) (h0 : ∀ p, F.InBounds [(lo0, hi0), (lo1, hi1), (lo2, hi2)] p → 0 < S (0 :: p)) (hr1 : ∀ p, F.InBounds [(lo0, hi0), (lo1, hi1), (lo2, hi2)] p → F.sum 1 (n - 1) (fun s => |S (s :: p)|) ≤ S (0 :: p)) (hX : F.Solved [(lo0, hi0), (lo1, hi1), (lo2, hi2)] n O S B X U) :
    ∃ m' U', F.celljacobi3d lo0 hi0 lo1 hi1 lo2 hi2 n o slo0 shi0 slo1 shi1 slo2 shi2 st flo0 fhi0 flo1 fhi1 flo2 fhi2 f ulo0 uhi0 ulo1 uhi1 ulo2 uhi2 u r m = .ok m' ∧
      F.Holds m' (F.box3d u ulo0 ulo1 ulo2 uhi0 uhi1 uhi2) U' ∧ F.Only [(F.box3d u ulo0 ulo1 ulo2 uhi0 uhi1 uhi2), (F.box3d r lo0 lo1 lo2 hi0 hi1 hi2)] m m' ∧
      F.energy [(lo0, hi0), (lo1, hi1), (lo2, hi2)] n O S (fun p => U' p - X p) ≤ F.energy [(lo0, hi0), (lo1, hi1), (lo2, hi2)] n O S (fun p => U p - X p) ∧
      (F.energy [(lo0, hi0), (lo1, hi1), (lo2, hi2)] n O S (fun p => U' p - X p) = F.energy [(lo0, hi0), (lo1, hi1), (lo2, hi2)] n O S (fun p => U p - X p) ↔ ∀ p, F.InBounds [(lo0, hi0), (lo1, hi1), (lo2, hi2)] p → F.Eqn n O S B U p) := by
  obtain ⟨m', U', g1, g2, g3, g4, g5, _⟩ := C50_jacobi_3d h hr ru rs rf
  exact ⟨m', U', g1, g2, g3, F.jacobi_energy (w := ((8 : Nat) / (10 : Nat) : T)) (by positivity) (by norm_num) hs h.size h0 hr1 hX g4 g5⟩

example := C81_jacobi_3d (r := ⟨4, 0⟩) ex_conv3 (R := fun _ => 0) (fun _ hi => ⟨hi, rfl⟩) (ex_apart (by decide)) (ex_apart (by decide)) (ex_apart (by decide))
  rfl ex_alone3 ex_sym3 ex_pos3 ex_weak3 ex_solved3

/-- Gauss-Seidel, three dimensions: for symmetric equations with positive diagonal a sweep does not increase the energy of the error, and keeps it only if the equations of
all cells held already. -/
theorem C81_gs_3d {T : Type} [Field T] [LinearOrder T] [IsStrictOrderedRing T] {lo0 hi0 lo1 hi1 lo2 hi2 slo0 shi0 slo1 shi1 slo2 shi2 flo0 fhi0 flo1 fhi1 flo2 fhi2 ulo0 uhi0 ulo1 uhi1 ulo2 uhi2 n : Int} {o st f u : Ptr}
    {O : Int → List Int} {S B U X : List Int → T} {m : Mem T}
    (h : F.Problem m [(lo0, hi0), (lo1, hi1), (lo2, hi2)] n (F.offset0 o 3 n) (F.sm3d st n slo0 slo1 slo2 shi0 shi1 shi2) (F.box3d f flo0 flo1 flo2 fhi0 fhi1 fhi2)
      (F.box3d u ulo0 ulo1 ulo2 uhi0 uhi1 uhi2) O S B U)
    (hd : F.Diag 3 O) (ha : F.Alone 3 n O) (hs : F.Symmetric [(lo0, hi0), (lo1, hi1), (lo2, hi2)] n O S) (h0 : ∀ p, F.InBounds [(lo0, hi0), (lo1, hi1), (lo2, hi2)] p → 0 < S (0 :: p)) (hX : F.Solved [(lo0, hi0), (lo1, hi1), (lo2, hi2)] n O S B X U) :
    ∃ m' U', F.cellgs3d lo0 hi0 lo1 hi1 lo2 hi2 n o slo0 shi0 slo1 shi1 slo2 shi2 st flo0 fhi0 flo1 fhi1 flo2 fhi2 f ulo0 uhi0 ulo1 uhi1 ulo2 uhi2 u m = .ok m' ∧ F.Holds m' (F.box3d u ulo0 ulo1 ulo2 uhi0 uhi1 uhi2) U' ∧ F.Only [(F.box3d u ulo0 ulo1 ulo2 uhi0 uhi1 uhi2)] m m' ∧
      F.energy [(lo0, hi0), (lo1, hi1), (lo2, hi2)] n O S (fun p => U' p - X p) ≤ F.energy [(lo0, hi0), (lo1, hi1), (lo2, hi2)] n O S (fun p => U p - X p) ∧
      (F.energy [(lo0, hi0), (lo1, hi1), (lo2, hi2)] n O S (fun p => U' p - X p) = F.energy [(lo0, hi0), (lo1, hi1), (lo2, hi2)] n O S (fun p => U p - X p) ↔ ∀ p, F.InBounds [(lo0, hi0), (lo1, hi1), (lo2, hi2)] p → F.Eqn n O S B U p) := by
  obtain ⟨m', U', g1, g2, g3, g4⟩ := C51_gs_3d h
  have e := F.swept_energy (l := F.pts3 (F.irange lo2 hi2) (F.irange lo1 hi1) (fun _ _ => F.irange lo0 hi0)) (fun p => F.all3) (F.pts3_before F.irange_lt F.irange_lt fun _ _ => F.irange_lt) (fun _ hp => hp) hs h.size (fun p hp => by exact F.shift_diag hp rfl hd) (fun p hp s h1 h2 => by exact h.alone rfl ha hp h1 h2) h0 hX g4
  exact ⟨m', U', g1, g2, g3, e⟩

example := C81_gs_3d ex_conv3 rfl ex_alone3 ex_sym3 ex_pos3 ex_solved3

/-- Red-black Gauss-Seidel, three dimensions: the same for the sweep of one colour, and the equations of the cells of that colour. -/
theorem C81_rbgs_3d {T : Type} [Field T] [LinearOrder T] [IsStrictOrderedRing T] {lo0 hi0 lo1 hi1 lo2 hi2 slo0 shi0 slo1 shi1 slo2 shi2 flo0 fhi0 flo1 fhi1 flo2 fhi2 ulo0 uhi0 ulo1 uhi1 ulo2 uhi2 n color : Int} {o st f u : Ptr}
    {O : Int → List Int} {S B U X : List Int → T} {m : Mem T} (hc : 0 ≤ color)
    (h : F.Problem m [(lo0, hi0), (lo1, hi1), (lo2, hi2)] n (F.offset0 o 3 n) (F.sm3d st n slo0 slo1 slo2 shi0 shi1 shi2) (F.box3d f flo0 flo1 flo2 fhi0 fhi1 fhi2)
      (F.box3d u ulo0 ulo1 ulo2 uhi0 uhi1 uhi2) O S B U)
    (hd : F.Diag 3 O) (ha : F.Alone 3 n O) (hs : F.Symmetric [(lo0, hi0), (lo1, hi1), (lo2, hi2)] n O S) (h0 : ∀ p, F.InBounds [(lo0, hi0), (lo1, hi1), (lo2, hi2)] p → 0 < S (0 :: p)) (hX : F.Solved [(lo0, hi0), (lo1, hi1), (lo2, hi2)] n O S B X U) :
    ∃ m' U', F.cellrbgs3d lo0 hi0 lo1 hi1 lo2 hi2 color n o slo0 shi0 slo1 shi1 slo2 shi2 st flo0 fhi0 flo1 fhi1 flo2 fhi2 f ulo0 uhi0 ulo1 uhi1 ulo2 uhi2 u m = .ok m' ∧ F.Holds m' (F.box3d u ulo0 ulo1 ulo2 uhi0 uhi1 uhi2) U' ∧ F.Only [(F.box3d u ulo0 ulo1 ulo2 uhi0 uhi1 uhi2)] m m' ∧
      F.energy [(lo0, hi0), (lo1, hi1), (lo2, hi2)] n O S (fun p => U' p - X p) ≤ F.energy [(lo0, hi0), (lo1, hi1), (lo2, hi2)] n O S (fun p => U p - X p) ∧
      (F.energy [(lo0, hi0), (lo1, hi1), (lo2, hi2)] n O S (fun p => U' p - X p) = F.energy [(lo0, hi0), (lo1, hi1), (lo2, hi2)] n O S (fun p => U p - X p) ↔ ∀ p, F.InBounds [(lo0, hi0), (lo1, hi1), (lo2, hi2)] p → F.Colour lo0 color p → F.Eqn n O S B U p) := by
  obtain ⟨m', U', g1, g2, g3, g4⟩ := C52_sweep_3d (color := color) hc h
  have e := F.swept_energy (l := F.pts3 (F.irange lo2 hi2) (F.irange lo1 hi1) (fun j k => F.srange (lo0 + (((j + k).natAbs : Int) + color).tmod 2) hi0 2)) (fun p => F.colour3 hc) (F.pts3_before F.irange_lt F.irange_lt fun _ _ => F.srange_lt) (fun _ hp => hp.1) hs h.size (fun p hp => by exact F.shift_diag hp rfl hd) (fun p hp s h1 h2 => by exact h.alone rfl ha hp h1 h2) h0 hX g4
  exact ⟨m', U', g1, g2, g3, e.1, e.2.trans ⟨fun k p hp hc => k p ⟨hp, hc⟩, fun k p hp => k p hp.1 hp.2⟩⟩

example := C81_rbgs_3d (color := 0) (by decide) ex_conv3 rfl ex_alone3 ex_sym3 ex_pos3 ex_solved3

/-- The energy is not negative: for symmetric equations with positive diagonal and weak row dominance, and errors that vanish outside the box. -/
theorem C81_nonneg {T : Type} [Field T] [LinearOrder T] [IsStrictOrderedRing T] {N : Nat} {box : List (Int × Int)} {n : Int} {O : Int → List Int} {S E : List Int → T}
    (hN : box.length = N) (hn : 1 ≤ n) (hl : ∀ s, 0 ≤ s → s < n → (O s).length = N) (hd : F.Diag N O) (ha : F.Alone N n O) (hs : F.Symmetric box n O S)
    (h0 : ∀ p, F.InBounds box p → 0 < S (0 :: p)) (hr : ∀ p, F.InBounds box p → F.sum 1 (n - 1) (fun s => |S (s :: p)|) ≤ S (0 :: p))
    (hE : ∀ p, ¬ F.InBounds box p → E p = 0) : 0 ≤ F.energy box n O S E :=
  F.energy_nonneg hs hn (fun p hp => F.shift_diag hp hN hd)
    (fun p hp s h1 h2 e => ha s h1 h2 (F.shift_alone ((F.inBounds_length hp).trans hN) (hl s (by omega) h2) e)) h0 hr hE

example : 0 ≤ F.energy [(1, 5), (2, 6)] 5 exO2 exSC (fun p => exUC [(1, 5), (2, 6)] p - exX p) :=
  C81_nonneg (N := 2) rfl (by decide) (fun s h0 h1 => by interval_cases s <;> rfl) rfl ex_alone2 ex_sym2 ex_pos2 ex_weak2 (fun p hp => by rw [ex_out2 p hp, sub_self])

example : F.energy [(1, 5)] 3 exO1 exSC (fun p => exUC [(1, 5)] p - exX p) = 378 := by decide +kernel

/-! ### the assembled equations -/

variable {T : Type} [Field T] [LinearOrder T] [IsStrictOrderedRing T]

/-- 1D: the coefficients which the off-diagonal and the diagonal kernel of the diffusion operator with cell coefficients leave in the table are symmetric, with positive diagonal and weak row dominance. -/
theorem C81_assembled_v1_1d {i0 i1 agcw sgcw : Int} {alpha beta : T} {dx : Nat → T} {a b0 st : Ptr} {β3 β4 : Backend} {m : Mem T} {A B0 : List Int → T} 
    (hβ3 : ValidBackend β3) (hβ4 : ValidBackend β4) (hi : i0 ≤ i1) (hagcw : 0 ≤ agcw) (hs : 0 ≤ sgcw)
    (h : F.Args m [(F.cell1d a i0 i1 agcw), (F.face1d b0 i0 i1 0)] [(F.st1d st i0 i1 sgcw)]) (hA : F.Holds m (F.cell1d a i0 i1 agcw) A) (hB0 : F.Holds m (F.face1d b0 i0 i1 0) B0) (he : F.Elliptic1 i0 i1 alpha beta dx A B0) :
    ∃ s1 s2, ∃ S : List Int → T, Cuda.offdiag1d i0 i1 i0 i1 dx beta b0 sgcw st β3 m = .ok s1 ∧ Cuda.v1diag1d i0 i1 (i0 - agcw) (i1 + agcw) alpha a sgcw st β4 s1 = .ok s2 ∧ F.Only [(F.st1d st i0 i1 sgcw)] m s2 ∧
      F.Holds s2 (F.st1d st i0 i1 sgcw) S ∧
      F.Symmetric [(i0, i1)] 3 (F.row F.points1) S ∧ (∀ p, F.InBounds [(i0, i1)] p → 0 < S (0 :: p)) ∧
      ∀ p, F.InBounds [(i0, i1)] p → F.sum 1 (3 - 1) (fun s => |S (s :: p)|) ≤ S (0 :: p) := by
  obtain ⟨s1, s2, S, c1, c2, ho, hS, hc⟩ := asm_v1_1 (alpha := alpha) (beta := beta) (dx := dx) hβ3 hβ4 hi hagcw hs h hA hB0
  exact ⟨s1, s2, S, c1, c2, ho, hS, F.coef_sym1 hc, F.coef_pos1 he hc⟩

example := C81_assembled_v1_1d (T := Rat) (m := exSolve 1) (st := ⟨9, 0⟩) (sgcw := 1) (a := ⟨0, 0⟩) (agcw := 1) (b0 := ⟨2, 0⟩) revBackend_ok seqBackend_ok (by decide) (by decide) (by decide) (exSolve_args (by ex_args)) (exSolve_rd (by decide) (exRat_ok rfl (by decide) (by decide))) (exSolve_rd (by decide) (exRat_ok rfl (by decide) (by decide))) exEll_v1_1

/-- 1D: the coefficients which the off-diagonal and the diagonal kernel of the diffusion operator with one coefficient leave in the table are symmetric, with positive diagonal and weak row dominance. -/
theorem C81_assembled_v2_1d {i0 i1 sgcw : Int} {alpha beta : T} {dx : Nat → T} {b0 st : Ptr} {β3 β4 : Backend} {m : Mem T} {B0 : List Int → T} 
    (hβ3 : ValidBackend β3) (hβ4 : ValidBackend β4) (hi : i0 ≤ i1) (hs : 0 ≤ sgcw)
    (h : F.Args m [(F.face1d b0 i0 i1 0)] [(F.st1d st i0 i1 sgcw)]) (hB0 : F.Holds m (F.face1d b0 i0 i1 0) B0) (he : F.Elliptic1 i0 i1 alpha beta dx (fun _ => 1) B0) :
    ∃ s1 s2, ∃ S : List Int → T, Cuda.offdiag1d i0 i1 i0 i1 dx beta b0 sgcw st β3 m = .ok s1 ∧ Cuda.v2diag1d i0 i1 alpha sgcw st β4 s1 = .ok s2 ∧ F.Only [(F.st1d st i0 i1 sgcw)] m s2 ∧
      F.Holds s2 (F.st1d st i0 i1 sgcw) S ∧
      F.Symmetric [(i0, i1)] 3 (F.row F.points1) S ∧ (∀ p, F.InBounds [(i0, i1)] p → 0 < S (0 :: p)) ∧
      ∀ p, F.InBounds [(i0, i1)] p → F.sum 1 (3 - 1) (fun s => |S (s :: p)|) ≤ S (0 :: p) := by
  obtain ⟨s1, s2, S, c1, c2, ho, hS, hc⟩ := asm_v2_1 (alpha := alpha) (beta := beta) (dx := dx) hβ3 hβ4 hi hs h hB0
  exact ⟨s1, s2, S, c1, c2, ho, hS, F.coef_sym1 hc, F.coef_pos1 he hc⟩

example := C81_assembled_v2_1d (T := Rat) (m := exSolve 1) (st := ⟨9, 0⟩) (sgcw := 1) (b0 := ⟨2, 0⟩) revBackend_ok seqBackend_ok (by decide) (by decide) (exSolve_args (by ex_args)) (exSolve_rd (by decide) (exRat_ok rfl (by decide) (by decide))) exEll_v2_1

/-- 1D: the coefficients which the off-diagonal and the diagonal kernel of the Poisson operator leave in the table are symmetric, with positive diagonal and weak row dominance. -/
theorem C81_assembled_poisson_1d {i0 i1 sgcw : Int} {beta : T} {dx : Nat → T} {st : Ptr} {β3 β4 : Backend} {m : Mem T} 
    (hβ3 : ValidBackend β3) (hβ4 : ValidBackend β4) (hi : i0 ≤ i1) (hs : 0 ≤ sgcw)
    (h : F.Args m [] [(F.st1d st i0 i1 sgcw)]) (he : F.Elliptic1 i0 i1 0 beta dx (fun _ => 1) (fun _ => 1)) :
    ∃ s1 s2, ∃ S : List Int → T, Cuda.poissonOffdiag1d i0 i1 dx beta sgcw st β3 m = .ok s1 ∧ Cuda.poissonDiag1d i0 i1 sgcw st β4 s1 = .ok s2 ∧ F.Only [(F.st1d st i0 i1 sgcw)] m s2 ∧
      F.Holds s2 (F.st1d st i0 i1 sgcw) S ∧
      F.Symmetric [(i0, i1)] 3 (F.row F.points1) S ∧ (∀ p, F.InBounds [(i0, i1)] p → 0 < S (0 :: p)) ∧
      ∀ p, F.InBounds [(i0, i1)] p → F.sum 1 (3 - 1) (fun s => |S (s :: p)|) ≤ S (0 :: p) := by
  obtain ⟨s1, s2, S, c1, c2, ho, hS, hc⟩ := asm_p_1 (beta := beta) (dx := dx) hβ3 hβ4 hi hs h
  exact ⟨s1, s2, S, c1, c2, ho, hS, F.coef_sym1 hc, F.coef_pos1 he hc⟩

example := C81_assembled_poisson_1d (T := Rat) (m := exSolve 1) (st := ⟨9, 0⟩) (sgcw := 1) revBackend_ok seqBackend_ok (by decide) (by decide) (exSolve_args (by ex_args)) exEll_p_1

/-- 2D: the coefficients which the off-diagonal and the diagonal kernel of the diffusion operator with cell coefficients leave in the table are symmetric, with positive diagonal and weak row dominance. -/
theorem C81_assembled_v1_2d {i0 j0 i1 j1 agcw sgcw : Int} {alpha beta : T} {dx : Nat → T} {a b0 b1 st : Ptr} {β3 β4 : Backend} {m : Mem T} {A B0 B1 : List Int → T} 
    (hβ3 : ValidBackend β3) (hβ4 : ValidBackend β4) (hi : i0 ≤ i1) (hj : j0 ≤ j1) (hagcw : 0 ≤ agcw) (hs : 0 ≤ sgcw)
    (h : F.Args m [(F.cell2d a i0 j0 i1 j1 agcw), (F.face2d0 b0 i0 j0 i1 j1 0), (F.face2d1 b1 i0 j0 i1 j1 0)] [(F.st2d st i0 j0 i1 j1 sgcw)]) (hA : F.Holds m (F.cell2d a i0 j0 i1 j1 agcw) A) (hB0 : F.Holds m (F.face2d0 b0 i0 j0 i1 j1 0) B0) (hB1 : F.Holds m (F.face2d1 b1 i0 j0 i1 j1 0) B1) (he : F.Elliptic2 i0 j0 i1 j1 alpha beta dx A B0 B1) :
    ∃ s1 s2, ∃ S : List Int → T, Cuda.offdiag2d i0 j0 i1 j1 i0 j0 i1 j1 dx beta b0 b1 sgcw st β3 m = .ok s1 ∧ Cuda.v1diag2d i0 j0 i1 j1 (i0 - agcw) (j0 - agcw) (i1 + agcw) (j1 + agcw) alpha a sgcw st β4 s1 = .ok s2 ∧ F.Only [(F.st2d st i0 j0 i1 j1 sgcw)] m s2 ∧
      F.Holds s2 (F.st2d st i0 j0 i1 j1 sgcw) S ∧
      F.Symmetric [(i0, i1), (j0, j1)] 5 (F.row F.points2) S ∧ (∀ p, F.InBounds [(i0, i1), (j0, j1)] p → 0 < S (0 :: p)) ∧
      ∀ p, F.InBounds [(i0, i1), (j0, j1)] p → F.sum 1 (5 - 1) (fun s => |S (s :: p)|) ≤ S (0 :: p) := by
  obtain ⟨s1, s2, S, c1, c2, ho, hS, hc⟩ := asm_v1_2 (alpha := alpha) (beta := beta) (dx := dx) hβ3 hβ4 hi hj hagcw hs h hA hB0 hB1
  exact ⟨s1, s2, S, c1, c2, ho, hS, F.coef_sym2 hc, F.coef_pos2 he hc⟩

example := C81_assembled_v1_2d (T := Rat) (m := exSolve 2) (st := ⟨9, 0⟩) (sgcw := 1) (a := ⟨0, 0⟩) (agcw := 1) (b0 := ⟨2, 0⟩) (b1 := ⟨3, 0⟩) revBackend_ok seqBackend_ok (by decide) (by decide) (by decide) (by decide) (exSolve_args (by ex_args)) (exSolve_rd (by decide) (exRat_ok rfl (by decide) (by decide))) (exSolve_rd (by decide) (exRat_ok rfl (by decide) (by decide))) (exSolve_rd (by decide) (exRat_ok rfl (by decide) (by decide))) exEll_v1_2

/-- 2D: the coefficients which the off-diagonal and the diagonal kernel of the diffusion operator with one coefficient leave in the table are symmetric, with positive diagonal and weak row dominance. -/
theorem C81_assembled_v2_2d {i0 j0 i1 j1 sgcw : Int} {alpha beta : T} {dx : Nat → T} {b0 b1 st : Ptr} {β3 β4 : Backend} {m : Mem T} {B0 B1 : List Int → T} 
    (hβ3 : ValidBackend β3) (hβ4 : ValidBackend β4) (hi : i0 ≤ i1) (hj : j0 ≤ j1) (hs : 0 ≤ sgcw)
    (h : F.Args m [(F.face2d0 b0 i0 j0 i1 j1 0), (F.face2d1 b1 i0 j0 i1 j1 0)] [(F.st2d st i0 j0 i1 j1 sgcw)]) (hB0 : F.Holds m (F.face2d0 b0 i0 j0 i1 j1 0) B0) (hB1 : F.Holds m (F.face2d1 b1 i0 j0 i1 j1 0) B1) (he : F.Elliptic2 i0 j0 i1 j1 alpha beta dx (fun _ => 1) B0 B1) :
    ∃ s1 s2, ∃ S : List Int → T, Cuda.offdiag2d i0 j0 i1 j1 i0 j0 i1 j1 dx beta b0 b1 sgcw st β3 m = .ok s1 ∧ Cuda.v2diag2d i0 j0 i1 j1 alpha sgcw st β4 s1 = .ok s2 ∧ F.Only [(F.st2d st i0 j0 i1 j1 sgcw)] m s2 ∧
      F.Holds s2 (F.st2d st i0 j0 i1 j1 sgcw) S ∧
      F.Symmetric [(i0, i1), (j0, j1)] 5 (F.row F.points2) S ∧ (∀ p, F.InBounds [(i0, i1), (j0, j1)] p → 0 < S (0 :: p)) ∧
      ∀ p, F.InBounds [(i0, i1), (j0, j1)] p → F.sum 1 (5 - 1) (fun s => |S (s :: p)|) ≤ S (0 :: p) := by
  obtain ⟨s1, s2, S, c1, c2, ho, hS, hc⟩ := asm_v2_2 (alpha := alpha) (beta := beta) (dx := dx) hβ3 hβ4 hi hj hs h hB0 hB1
  exact ⟨s1, s2, S, c1, c2, ho, hS, F.coef_sym2 hc, F.coef_pos2 he hc⟩

example := C81_assembled_v2_2d (T := Rat) (m := exSolve 2) (st := ⟨9, 0⟩) (sgcw := 1) (b0 := ⟨2, 0⟩) (b1 := ⟨3, 0⟩) revBackend_ok seqBackend_ok (by decide) (by decide) (by decide) (exSolve_args (by ex_args)) (exSolve_rd (by decide) (exRat_ok rfl (by decide) (by decide))) (exSolve_rd (by decide) (exRat_ok rfl (by decide) (by decide))) exEll_v2_2

/-- 2D: the coefficients which the off-diagonal and the diagonal kernel of the Poisson operator leave in the table are symmetric, with positive diagonal and weak row dominance. -/
theorem C81_assembled_poisson_2d {i0 j0 i1 j1 sgcw : Int} {beta : T} {dx : Nat → T} {st : Ptr} {β3 β4 : Backend} {m : Mem T} 
    (hβ3 : ValidBackend β3) (hβ4 : ValidBackend β4) (hi : i0 ≤ i1) (hj : j0 ≤ j1) (hs : 0 ≤ sgcw)
    (h : F.Args m [] [(F.st2d st i0 j0 i1 j1 sgcw)]) (he : F.Elliptic2 i0 j0 i1 j1 0 beta dx (fun _ => 1) (fun _ => 1) (fun _ => 1)) :
    ∃ s1 s2, ∃ S : List Int → T, Cuda.poissonOffdiag2d i0 j0 i1 j1 dx beta sgcw st β3 m = .ok s1 ∧ Cuda.poissonDiag2d i0 j0 i1 j1 sgcw st β4 s1 = .ok s2 ∧ F.Only [(F.st2d st i0 j0 i1 j1 sgcw)] m s2 ∧
      F.Holds s2 (F.st2d st i0 j0 i1 j1 sgcw) S ∧
      F.Symmetric [(i0, i1), (j0, j1)] 5 (F.row F.points2) S ∧ (∀ p, F.InBounds [(i0, i1), (j0, j1)] p → 0 < S (0 :: p)) ∧
      ∀ p, F.InBounds [(i0, i1), (j0, j1)] p → F.sum 1 (5 - 1) (fun s => |S (s :: p)|) ≤ S (0 :: p) := by
  obtain ⟨s1, s2, S, c1, c2, ho, hS, hc⟩ := asm_p_2 (beta := beta) (dx := dx) hβ3 hβ4 hi hj hs h
  exact ⟨s1, s2, S, c1, c2, ho, hS, F.coef_sym2 hc, F.coef_pos2 he hc⟩

example := C81_assembled_poisson_2d (T := Rat) (m := exSolve 2) (st := ⟨9, 0⟩) (sgcw := 1) revBackend_ok seqBackend_ok (by decide) (by decide) (by decide) (exSolve_args (by ex_args)) exEll_p_2

/-- 3D: the coefficients which the off-diagonal and the diagonal kernel of the diffusion operator with cell coefficients leave in the table are symmetric, with positive diagonal and weak row dominance. -/
theorem C81_assembled_v1_3d {i0 j0 k0 i1 j1 k1 agcw sgcw : Int} {alpha beta : T} {dx : Nat → T} {a b0 b1 b2 st : Ptr} {β3 β4 : Backend} {m : Mem T} {A B0 B1 B2 : List Int → T} 
    (hβ3 : ValidBackend β3) (hβ4 : ValidBackend β4) (hi : i0 ≤ i1) (hj : j0 ≤ j1) (hk : k0 ≤ k1) (hagcw : 0 ≤ agcw) (hs : 0 ≤ sgcw)
    (h : F.Args m [(F.cell3d a i0 j0 k0 i1 j1 k1 agcw), (F.face3d0 b0 i0 j0 k0 i1 j1 k1 0), (F.face3d1 b1 i0 j0 k0 i1 j1 k1 0), (F.face3d2 b2 i0 j0 k0 i1 j1 k1 0)] [(F.st3d st i0 j0 k0 i1 j1 k1 sgcw)]) (hA : F.Holds m (F.cell3d a i0 j0 k0 i1 j1 k1 agcw) A) (hB0 : F.Holds m (F.face3d0 b0 i0 j0 k0 i1 j1 k1 0) B0) (hB1 : F.Holds m (F.face3d1 b1 i0 j0 k0 i1 j1 k1 0) B1) (hB2 : F.Holds m (F.face3d2 b2 i0 j0 k0 i1 j1 k1 0) B2) (he : F.Elliptic3 i0 j0 k0 i1 j1 k1 alpha beta dx A B0 B1 B2) :
    ∃ s1 s2, ∃ S : List Int → T, Cuda.offdiag3d i0 j0 k0 i1 j1 k1 i0 j0 k0 i1 j1 k1 dx beta b0 b1 b2 sgcw st β3 m = .ok s1 ∧ Cuda.v1diag3d i0 j0 k0 i1 j1 k1 (i0 - agcw) (j0 - agcw) (k0 - agcw) (i1 + agcw) (j1 + agcw) (k1 + agcw) alpha a sgcw st β4 s1 = .ok s2 ∧ F.Only [(F.st3d st i0 j0 k0 i1 j1 k1 sgcw)] m s2 ∧
      F.Holds s2 (F.st3d st i0 j0 k0 i1 j1 k1 sgcw) S ∧
      F.Symmetric [(i0, i1), (j0, j1), (k0, k1)] 7 (F.row F.points3) S ∧ (∀ p, F.InBounds [(i0, i1), (j0, j1), (k0, k1)] p → 0 < S (0 :: p)) ∧
      ∀ p, F.InBounds [(i0, i1), (j0, j1), (k0, k1)] p → F.sum 1 (7 - 1) (fun s => |S (s :: p)|) ≤ S (0 :: p) := by
  obtain ⟨s1, s2, S, c1, c2, ho, hS, hc⟩ := asm_v1_3 (alpha := alpha) (beta := beta) (dx := dx) hβ3 hβ4 hi hj hk hagcw hs h hA hB0 hB1 hB2
  exact ⟨s1, s2, S, c1, c2, ho, hS, F.coef_sym3 hc, F.coef_pos3 he hc⟩

example := C81_assembled_v1_3d (T := Rat) (m := exSolve 3) (st := ⟨9, 0⟩) (sgcw := 1) (a := ⟨0, 0⟩) (agcw := 1) (b0 := ⟨2, 0⟩) (b1 := ⟨3, 0⟩) (b2 := ⟨4, 0⟩) revBackend_ok seqBackend_ok (by decide) (by decide) (by decide) (by decide) (by decide) (exSolve_args (by ex_args)) (exSolve_rd (by decide) (exRat_ok rfl (by decide) (by decide))) (exSolve_rd (by decide) (exRat_ok rfl (by decide) (by decide))) (exSolve_rd (by decide) (exRat_ok rfl (by decide) (by decide))) (exSolve_rd (by decide) (exRat_ok rfl (by decide) (by decide))) exEll_v1_3

/-- 3D: the coefficients which the off-diagonal and the diagonal kernel of the diffusion operator with one coefficient leave in the table are symmetric, with positive diagonal and weak row dominance. -/
theorem C81_assembled_v2_3d {i0 j0 k0 i1 j1 k1 sgcw : Int} {alpha beta : T} {dx : Nat → T} {b0 b1 b2 st : Ptr} {β3 β4 : Backend} {m : Mem T} {B0 B1 B2 : List Int → T} 
    (hβ3 : ValidBackend β3) (hβ4 : ValidBackend β4) (hi : i0 ≤ i1) (hj : j0 ≤ j1) (hk : k0 ≤ k1) (hs : 0 ≤ sgcw)
    (h : F.Args m [(F.face3d0 b0 i0 j0 k0 i1 j1 k1 0), (F.face3d1 b1 i0 j0 k0 i1 j1 k1 0), (F.face3d2 b2 i0 j0 k0 i1 j1 k1 0)] [(F.st3d st i0 j0 k0 i1 j1 k1 sgcw)]) (hB0 : F.Holds m (F.face3d0 b0 i0 j0 k0 i1 j1 k1 0) B0) (hB1 : F.Holds m (F.face3d1 b1 i0 j0 k0 i1 j1 k1 0) B1) (hB2 : F.Holds m (F.face3d2 b2 i0 j0 k0 i1 j1 k1 0) B2) (he : F.Elliptic3 i0 j0 k0 i1 j1 k1 alpha beta dx (fun _ => 1) B0 B1 B2) :
    ∃ s1 s2, ∃ S : List Int → T, Cuda.offdiag3d i0 j0 k0 i1 j1 k1 i0 j0 k0 i1 j1 k1 dx beta b0 b1 b2 sgcw st β3 m = .ok s1 ∧ Cuda.v2diag3d i0 j0 k0 i1 j1 k1 alpha sgcw st β4 s1 = .ok s2 ∧ F.Only [(F.st3d st i0 j0 k0 i1 j1 k1 sgcw)] m s2 ∧
      F.Holds s2 (F.st3d st i0 j0 k0 i1 j1 k1 sgcw) S ∧
      F.Symmetric [(i0, i1), (j0, j1), (k0, k1)] 7 (F.row F.points3) S ∧ (∀ p, F.InBounds [(i0, i1), (j0, j1), (k0, k1)] p → 0 < S (0 :: p)) ∧
      ∀ p, F.InBounds [(i0, i1), (j0, j1), (k0, k1)] p → F.sum 1 (7 - 1) (fun s => |S (s :: p)|) ≤ S (0 :: p) := by
  obtain ⟨s1, s2, S, c1, c2, ho, hS, hc⟩ := asm_v2_3 (alpha := alpha) (beta := beta) (dx := dx) hβ3 hβ4 hi hj hk hs h hB0 hB1 hB2
  exact ⟨s1, s2, S, c1, c2, ho, hS, F.coef_sym3 hc, F.coef_pos3 he hc⟩

example := C81_assembled_v2_3d (T := Rat) (m := exSolve 3) (st := ⟨9, 0⟩) (sgcw := 1) (b0 := ⟨2, 0⟩) (b1 := ⟨3, 0⟩) (b2 := ⟨4, 0⟩) revBackend_ok seqBackend_ok (by decide) (by decide) (by decide) (by decide) (exSolve_args (by ex_args)) (exSolve_rd (by decide) (exRat_ok rfl (by decide) (by decide))) (exSolve_rd (by decide) (exRat_ok rfl (by decide) (by decide))) (exSolve_rd (by decide) (exRat_ok rfl (by decide) (by decide))) exEll_v2_3

/-- 3D: the coefficients which the off-diagonal and the diagonal kernel of the Poisson operator leave in the table are symmetric, with positive diagonal and weak row dominance. -/
theorem C81_assembled_poisson_3d {i0 j0 k0 i1 j1 k1 sgcw : Int} {beta : T} {dx : Nat → T} {st : Ptr} {β3 β4 : Backend} {m : Mem T} 
    (hβ3 : ValidBackend β3) (hβ4 : ValidBackend β4) (hi : i0 ≤ i1) (hj : j0 ≤ j1) (hk : k0 ≤ k1) (hs : 0 ≤ sgcw)
    (h : F.Args m [] [(F.st3d st i0 j0 k0 i1 j1 k1 sgcw)]) (he : F.Elliptic3 i0 j0 k0 i1 j1 k1 0 beta dx (fun _ => 1) (fun _ => 1) (fun _ => 1) (fun _ => 1)) :
    ∃ s1 s2, ∃ S : List Int → T, Cuda.poissonOffdiag3d i0 j0 k0 i1 j1 k1 dx beta sgcw st β3 m = .ok s1 ∧ Cuda.poissonDiag3d i0 j0 k0 i1 j1 k1 sgcw st β4 s1 = .ok s2 ∧ F.Only [(F.st3d st i0 j0 k0 i1 j1 k1 sgcw)] m s2 ∧
      F.Holds s2 (F.st3d st i0 j0 k0 i1 j1 k1 sgcw) S ∧
      F.Symmetric [(i0, i1), (j0, j1), (k0, k1)] 7 (F.row F.points3) S ∧ (∀ p, F.InBounds [(i0, i1), (j0, j1), (k0, k1)] p → 0 < S (0 :: p)) ∧
      ∀ p, F.InBounds [(i0, i1), (j0, j1), (k0, k1)] p → F.sum 1 (7 - 1) (fun s => |S (s :: p)|) ≤ S (0 :: p) := by
  obtain ⟨s1, s2, S, c1, c2, ho, hS, hc⟩ := asm_p_3 (beta := beta) (dx := dx) hβ3 hβ4 hi hj hk hs h
  exact ⟨s1, s2, S, c1, c2, ho, hS, F.coef_sym3 hc, F.coef_pos3 he hc⟩

example := C81_assembled_poisson_3d (T := Rat) (m := exSolve 3) (st := ⟨9, 0⟩) (sgcw := 1) revBackend_ok seqBackend_ok (by decide) (by decide) (by decide) (by decide) (exSolve_args (by ex_args)) exEll_p_3

end Verif
