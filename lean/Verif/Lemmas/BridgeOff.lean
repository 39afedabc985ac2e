import Verif.Lemmas.BridgeRun
import Verif.Lemmas.RowExamples

/-
The off-diagonal kernels, and witnesses.
-/

set_option linter.unusedVariables false
set_option linter.unusedSimpArgs false

namespace Verif
open Spec

variable {T : Type} [Field T]

theorem off_u1 {i0 i1 side sgcw : Int} {dx : Nat → T} {beta : T} {b0_ st_ : Ptr} {β : Backend} {m : Mem T}
    (hβ : ValidBackend β) (hi : i0 ≤ i1) (hg : 0 ≤ sgcw) (hs : side = 0 ∨ side = 1) (h : F.Args m [(F.face1d b0_ i0 i1 0)] [(F.st1d st_ i0 i1 sgcw)]) :
    ∃ m', Cuda.offdiag1d i0 i1 i0 i1 dx beta b0_ sgcw st_ β m = .ok m' ∧ F.Kept [(F.st1d st_ i0 i1 sgcw)] m m' ∧ ∀ c, F.InBounds [(i0, i1)] c → F.rd m' (F.st1d st_ i0 i1 sgcw) ((1 + side) :: c) = -(beta / (dx 0 * dx 0)) * F.onFace1 (F.rd m (F.face1d b0_ i0 i1 0)) side c := by
  obtain ⟨m', q, -, K, S⟩ := offdiag1_run (dx := dx) (beta := beta) hi hg ⟨le_rfl, le_rfl⟩ h
  obtain ⟨m1, d, e⟩ := C36_offdiag_1d (dx := dx) (beta := beta) hβ hi ⟨le_rfl, le_rfl⟩ hg h
  obtain rfl : m' = m1 := Except.ok.inj (q.symm.trans e)
  refine ⟨m', d, K, fun c hc => ?_⟩
  obtain ⟨i, rfl, h0, h1⟩ := F.inBounds1.1 hc
  obtain ⟨e1, e2⟩ := S i h0 h1
  rcases hs with rfl | rfl
  · simpa [F.onFace1] using e1.rd
  · simpa [F.onFace1] using e2.rd

theorem poff_u1 {i0 i1 side sgcw : Int} {dx : Nat → T} {beta : T} {st_ : Ptr} {β : Backend} {m : Mem T}
    (hβ : ValidBackend β) (hi : i0 ≤ i1) (hg : 0 ≤ sgcw) (hs : side = 0 ∨ side = 1) (h : F.Args m [] [(F.st1d st_ i0 i1 sgcw)]) :
    ∃ m', Cuda.poissonOffdiag1d i0 i1 dx beta sgcw st_ β m = .ok m' ∧ F.Kept [(F.st1d st_ i0 i1 sgcw)] m m' ∧ ∀ c, F.InBounds [(i0, i1)] c → F.rd m' (F.st1d st_ i0 i1 sgcw) ((1 + side) :: c) = -(beta / (dx 0 * dx 0)) := by
  obtain ⟨m', q, -, K, S⟩ := poffdiag1_run (dx := dx) (beta := beta) hi hg h
  obtain ⟨m1, d, e⟩ := C36_poisson_offdiag_1d (dx := dx) (beta := beta) hβ hi hg h
  obtain rfl : m' = m1 := Except.ok.inj (q.symm.trans e)
  refine ⟨m', d, K, fun c hc => ?_⟩
  obtain ⟨i, rfl, h0, h1⟩ := F.inBounds1.1 hc
  obtain ⟨e1, e2⟩ := S i h0 h1
  rcases hs with rfl | rfl
  · simpa [F.onFace1] using e1.rd
  · simpa [F.onFace1] using e2.rd

theorem off_u2 {i0 j0 i1 j1 dir side sgcw : Int} {dx : Nat → T} {beta : T} {b0_ b1_ st_ : Ptr} {β : Backend} {m : Mem T}
    (hβ : ValidBackend β) (hi : i0 ≤ i1) (hj : j0 ≤ j1) (hg : 0 ≤ sgcw) (hd : 0 ≤ dir ∧ dir < 2) (hs : side = 0 ∨ side = 1) (h : F.Args m [(F.face2d0 b0_ i0 j0 i1 j1 0), (F.face2d1 b1_ i0 j0 i1 j1 0)] [(F.st2d st_ i0 j0 i1 j1 sgcw)]) :
    ∃ m', Cuda.offdiag2d i0 j0 i1 j1 i0 j0 i1 j1 dx beta b0_ b1_ sgcw st_ β m = .ok m' ∧ F.Kept [(F.st2d st_ i0 j0 i1 j1 sgcw)] m m' ∧ ∀ c, F.InBounds [(i0, i1), (j0, j1)] c → F.rd m' (F.st2d st_ i0 j0 i1 j1 sgcw) ((2 * dir + 1 + side) :: c) = -(beta / (dx dir.toNat * dx dir.toNat)) * F.onFace2 (F.rd m (F.face2d0 b0_ i0 j0 i1 j1 0)) (F.rd m (F.face2d1 b1_ i0 j0 i1 j1 0)) dir side c := by
  obtain ⟨m', q, -, K, S⟩ := offdiag2_run (dx := dx) (beta := beta) hi hj hg ⟨le_rfl, le_rfl⟩ ⟨le_rfl, le_rfl⟩ h
  obtain ⟨m1, d, e⟩ := C36_offdiag_2d (dx := dx) (beta := beta) hβ hi hj ⟨le_rfl, le_rfl⟩ ⟨le_rfl, le_rfl⟩ hg h
  obtain rfl : m' = m1 := Except.ok.inj (q.symm.trans e)
  refine ⟨m', d, K, fun c hc => ?_⟩
  obtain ⟨i, j, rfl, ⟨h2, h3⟩, h0, h1⟩ := F.inBounds2.1 hc
  obtain ⟨e1, e2, e3, e4⟩ := S i j h0 h1 h2 h3
  have hd : dir = 0 ∨ dir = 1 := by omega
  rcases hd with rfl | rfl <;> rcases hs with rfl | rfl
  · simpa [F.onFace2] using e1.rd
  · simpa [F.onFace2] using e2.rd
  · simpa [F.onFace2] using e3.rd
  · simpa [F.onFace2] using e4.rd

theorem poff_u2 {i0 j0 i1 j1 dir side sgcw : Int} {dx : Nat → T} {beta : T} {st_ : Ptr} {β : Backend} {m : Mem T}
    (hβ : ValidBackend β) (hi : i0 ≤ i1) (hj : j0 ≤ j1) (hg : 0 ≤ sgcw) (hd : 0 ≤ dir ∧ dir < 2) (hs : side = 0 ∨ side = 1) (h : F.Args m [] [(F.st2d st_ i0 j0 i1 j1 sgcw)]) :
    ∃ m', Cuda.poissonOffdiag2d i0 j0 i1 j1 dx beta sgcw st_ β m = .ok m' ∧ F.Kept [(F.st2d st_ i0 j0 i1 j1 sgcw)] m m' ∧ ∀ c, F.InBounds [(i0, i1), (j0, j1)] c → F.rd m' (F.st2d st_ i0 j0 i1 j1 sgcw) ((2 * dir + 1 + side) :: c) = -(beta / (dx dir.toNat * dx dir.toNat)) := by
  obtain ⟨m', q, -, K, S⟩ := poffdiag2_run (dx := dx) (beta := beta) hi hj hg h
  obtain ⟨m1, d, e⟩ := C36_poisson_offdiag_2d (dx := dx) (beta := beta) hβ hi hj hg h
  obtain rfl : m' = m1 := Except.ok.inj (q.symm.trans e)
  refine ⟨m', d, K, fun c hc => ?_⟩
  obtain ⟨i, j, rfl, ⟨h2, h3⟩, h0, h1⟩ := F.inBounds2.1 hc
  obtain ⟨e1, e2, e3, e4⟩ := S i j h0 h1 h2 h3
  have hd : dir = 0 ∨ dir = 1 := by omega
  rcases hd with rfl | rfl <;> rcases hs with rfl | rfl
  · simpa [F.onFace2] using e1.rd
  · simpa [F.onFace2] using e2.rd
  · simpa [F.onFace2] using e3.rd
  · simpa [F.onFace2] using e4.rd

theorem off_u3 {i0 j0 k0 i1 j1 k1 dir side sgcw : Int} {dx : Nat → T} {beta : T} {b0_ b1_ b2_ st_ : Ptr} {β : Backend} {m : Mem T}
    (hβ : ValidBackend β) (hi : i0 ≤ i1) (hj : j0 ≤ j1) (hk : k0 ≤ k1) (hg : 0 ≤ sgcw) (hd : 0 ≤ dir ∧ dir < 3) (hs : side = 0 ∨ side = 1) (h : F.Args m [(F.face3d0 b0_ i0 j0 k0 i1 j1 k1 0), (F.face3d1 b1_ i0 j0 k0 i1 j1 k1 0), (F.face3d2 b2_ i0 j0 k0 i1 j1 k1 0)] [(F.st3d st_ i0 j0 k0 i1 j1 k1 sgcw)]) :
    ∃ m', Cuda.offdiag3d i0 j0 k0 i1 j1 k1 i0 j0 k0 i1 j1 k1 dx beta b0_ b1_ b2_ sgcw st_ β m = .ok m' ∧ F.Kept [(F.st3d st_ i0 j0 k0 i1 j1 k1 sgcw)] m m' ∧ ∀ c, F.InBounds [(i0, i1), (j0, j1), (k0, k1)] c → F.rd m' (F.st3d st_ i0 j0 k0 i1 j1 k1 sgcw) ((2 * dir + 1 + side) :: c) = -(beta / (dx dir.toNat * dx dir.toNat)) * F.onFace3 (F.rd m (F.face3d0 b0_ i0 j0 k0 i1 j1 k1 0)) (F.rd m (F.face3d1 b1_ i0 j0 k0 i1 j1 k1 0)) (F.rd m (F.face3d2 b2_ i0 j0 k0 i1 j1 k1 0)) dir side c := by
  obtain ⟨m', q, -, K, S⟩ := offdiag3_run (dx := dx) (beta := beta) hi hj hk hg ⟨le_rfl, le_rfl⟩ ⟨le_rfl, le_rfl⟩ ⟨le_rfl, le_rfl⟩ h
  obtain ⟨m1, d, e⟩ := C36_offdiag_3d (dx := dx) (beta := beta) hβ hi hj hk ⟨le_rfl, le_rfl⟩ ⟨le_rfl, le_rfl⟩ ⟨le_rfl, le_rfl⟩ hg h
  obtain rfl : m' = m1 := Except.ok.inj (q.symm.trans e)
  refine ⟨m', d, K, fun c hc => ?_⟩
  obtain ⟨i, j, k, rfl, ⟨h4, h5⟩, ⟨h2, h3⟩, h0, h1⟩ := F.inBounds3.1 hc
  obtain ⟨e1, e2, e3, e4, e5, e6⟩ := S i j k h0 h1 h2 h3 h4 h5
  have hd : dir = 0 ∨ dir = 1 ∨ dir = 2 := by omega
  rcases hd with rfl | rfl | rfl <;> rcases hs with rfl | rfl
  · simpa [F.onFace3] using e1.rd
  · simpa [F.onFace3] using e2.rd
  · simpa [F.onFace3] using e3.rd
  · simpa [F.onFace3] using e4.rd
  · simpa [F.onFace3] using e5.rd
  · simpa [F.onFace3] using e6.rd

theorem poff_u3 {i0 j0 k0 i1 j1 k1 dir side sgcw : Int} {dx : Nat → T} {beta : T} {st_ : Ptr} {β : Backend} {m : Mem T}
    (hβ : ValidBackend β) (hi : i0 ≤ i1) (hj : j0 ≤ j1) (hk : k0 ≤ k1) (hg : 0 ≤ sgcw) (hd : 0 ≤ dir ∧ dir < 3) (hs : side = 0 ∨ side = 1) (h : F.Args m [] [(F.st3d st_ i0 j0 k0 i1 j1 k1 sgcw)]) :
    ∃ m', Cuda.poissonOffdiag3d i0 j0 k0 i1 j1 k1 dx beta sgcw st_ β m = .ok m' ∧ F.Kept [(F.st3d st_ i0 j0 k0 i1 j1 k1 sgcw)] m m' ∧ ∀ c, F.InBounds [(i0, i1), (j0, j1), (k0, k1)] c → F.rd m' (F.st3d st_ i0 j0 k0 i1 j1 k1 sgcw) ((2 * dir + 1 + side) :: c) = -(beta / (dx dir.toNat * dx dir.toNat)) := by
  obtain ⟨m', q, -, K, S⟩ := poffdiag3_run (dx := dx) (beta := beta) hi hj hk hg h
  obtain ⟨m1, d, e⟩ := C36_poisson_offdiag_3d (dx := dx) (beta := beta) hβ hi hj hk hg h
  obtain rfl : m' = m1 := Except.ok.inj (q.symm.trans e)
  refine ⟨m', d, K, fun c hc => ?_⟩
  obtain ⟨i, j, k, rfl, ⟨h4, h5⟩, ⟨h2, h3⟩, h0, h1⟩ := F.inBounds3.1 hc
  obtain ⟨e1, e2, e3, e4, e5, e6⟩ := S i j k h0 h1 h2 h3 h4 h5
  have hd : dir = 0 ∨ dir = 1 ∨ dir = 2 := by omega
  rcases hd with rfl | rfl | rfl <;> rcases hs with rfl | rfl
  · simpa [F.onFace3] using e1.rd
  · simpa [F.onFace3] using e2.rd
  · simpa [F.onFace3] using e3.rd
  · simpa [F.onFace3] using e4.rd
  · simpa [F.onFace3] using e5.rd
  · simpa [F.onFace3] using e6.rd

open Polynomial in
/-- the line `x` as witness: 1 is added to the diagonal for every 3 taken from the ghost cell, but the coarse cell is not where that is right -/
theorem not_bridge {N : Int} {c : List Int} {S S' : List Int → Rat} {u v r : Int} {h : Rat} (y : Rat)
    (hne : F.rowOf N S' c (fun e => if e = u then -((r : Rat) / 2) * h else if e = 0 then 1 / 2 * h else y) ≠
      F.rowOf N S c (fun e => if e = u then -(1 / 2) * h else if e = 0 then 1 / 2 * h else y)) (hu : u ≠ 0) : ¬ F.Bridges N S S' c u v r 1 h := fun H => by
  have := H X (fun e => if e = 0 then 1 / 2 * h else y) (by simp) (by simp) (by simp)
  simp only [eval_X] at this
  exact hne this

end Verif
