import Verif.Lemmas.BcGhosts
import Verif.Lemmas.ExWith
import Verif.Props.Ghost

/-
C88: the boundary condition kernels in two and three dimensions act on each line across the boundary as the kernel in one dimension.
-/

namespace Verif
open Spec

set_option linter.unusedVariables false
set_option linter.unusedSectionVars false

variable {T : Type} [Field T]

/-- orders for which all kernels store a ghost value -/
def Stored (btype exOrder : Int) : Prop := (btype = 0 ∧ (exOrder = 1 ∨ exOrder = 2)) ∨ btype = 1 ∨ (btype = 4 ∧ (exOrder = 1 ∨ exOrder = 2))

theorem Stored.ghost {btype exOrder : Int} (h : Stored btype exOrder) (z z' : Bool) {alpha beta w b x1 x2 : T} :
    ∃ v, Verif.ghost z btype exOrder alpha beta w b x1 x2 = some v ∧ Verif.ghost z' btype exOrder alpha beta w b x1 x2 = some v := by
  rcases h with ⟨rfl, rfl | rfl⟩ | rfl | ⟨rfl, rfl | rfl⟩ <;> simp [Verif.ghost]

/-- `cd_correct_bc_2d_cuda::set_bc`, lower side of direction 0: each ghost value is the one that `cd_correct_bc_1d_cuda::set_bc` stores for the line through it.
Not for Dirichlet conditions of order 0, where the kernel in 1D stores nothing. -/
theorem C88_2d_i_lower_partial {j i0 i1 j0 j1 g dg exOrder btype : Int} {dx dx' : Nat → T} {d0 d1 d' u u' : Ptr} {bLo bHi bLo' bHi' : Nat → Int} {alpha beta : T} {β β' : Nat → Backend} {m m' : Mem T} {U D : List Int → T}
    (hβ : ∀ n, ValidBackend (β n)) (hβ' : ∀ n, ValidBackend (β' n)) (hi : i0 ≤ i1) (hj : j0 ≤ j1) (hg : 0 ≤ g) (hdg : 0 ≤ dg)
    (hs : ∀ n < 2, InInt (bLo n + 1) ∧ InInt (bHi n + 1)) (hs' : InInt (bLo' 0 + 1) ∧ InInt (bHi' 0 + 1)) (hb : bLo' 0 = bLo 0) (hx : dx' 0 = dx 0)
    (hf : Reach i0 i1 g (bLo 0) 2 ∧ OnFaces i0 i1 dg (bLo 0 + 1) ∧ Meets j0 j1 (bLo 1) (bHi 1))
    (ho : Stored btype exOrder)
    (h : F.Args m [F.face2d0 d0 i0 j0 i1 j1 dg, F.face2d1 d1 i0 j0 i1 j1 dg] [F.cell2d u i0 j0 i1 j1 g]) (h' : F.Args m' [F.face1d d' i0 i1 dg] [F.cell1d u' i0 i1 g])
    (hU : F.Holds m (F.cell2d u i0 j0 i1 j1 g) U) (hD : F.Holds m (F.face2d0 d0 i0 j0 i1 j1 dg) D) (ja : max j0 (bLo 1) ≤ j) (jb : j ≤ min j1 (bHi 1))
    (hU' : F.Holds m' (F.cell1d u' i0 i1 g) (fun p => U [p.getD 0 0, j])) (hD' : F.Holds m' (F.face1d d' i0 i1 dg) (fun p => D [p.getD 0 0, j])) :
    ∃ m1 m1' v, Cuda.setBc2d i0 i1 j0 j1 dx dg d0 d1 g u bLo bHi exOrder 0 1 btype alpha beta β m = .ok m1 ∧
      Cuda.setBc1d i0 i1 dx' dg d' g u' bLo' bHi' exOrder 0 btype alpha beta β' m' = .ok m1' ∧
      F.El m1 (F.cell2d u i0 j0 i1 j1 g) [bLo 0, j] v ∧ F.El m1' (F.cell1d u' i0 i1 g) [bLo' 0] v := by
  obtain ⟨m1, c1, q1⟩ := ghosts_2d (dx := dx) (exOrder := exOrder) (face := 0) (btype := btype) (alpha := alpha) (beta := beta) hβ hi hj hg hdg hs (fun _ => hf) (fun e => absurd e (by decide)) (fun e => absurd e (by decide)) (fun e => absurd e (by decide)) h
  have hs1 : ∀ n < 1, InInt (bLo' n + 1) ∧ InInt (bHi' n + 1) := fun n hn => by
    obtain rfl : n = 0 := by omega
    exact hs'
  obtain ⟨m1', c1', q1'⟩ := ghosts_1d (dx := dx') (exOrder := exOrder) (face := 0) (btype := btype) (alpha := alpha) (beta := beta) (bLo := bLo') (bHi := bHi') hβ' hi hg hdg hs1 (fun _ => by rw [hb]; exact ⟨hf.1, hf.2.1⟩) (fun e => absurd e (by decide)) h'
  have r := hf.1
  have rb : ∀ x, i0 - g ≤ x → x ≤ i1 + g → F.InBounds (F.cell2d u i0 j0 i1 j1 g).dims [x, j] := fun x xa xb => F.inBounds2.2 ⟨x, j, rfl, by simp only [max_le_iff, le_min_iff] at *; omega⟩
  have rb' : ∀ x, i0 - g ≤ x → x ≤ i1 + g → F.InBounds (F.cell1d u' i0 i1 g).dims [x] := fun x xa xb => F.inBounds1.2 ⟨x, rfl, by omega⟩
  unfold Reach at r
  have e : ∀ x, i0 - g ≤ x → x ≤ i1 + g → F.rd m (F.cell2d u i0 j0 i1 j1 g) [x, j] = F.rd m' (F.cell1d u' i0 i1 g) [x] := fun x xa xb => by
    rw [(hU _ (rb x xa xb)).rd, (hU' _ (rb' x xa xb)).rd]
    rfl
  have o := hf.2.1
  unfold OnFaces at o
  have eb : F.rd m (F.face2d0 d0 i0 j0 i1 j1 dg) [bLo 0 + 1, j] = F.rd m' (F.face1d d' i0 i1 dg) [bLo 0 + 1] := by
    rw [(hD _ (F.inBounds2.2 ⟨bLo 0 + 1, j, rfl, by simp only [max_le_iff, le_min_iff] at *; omega⟩)).rd, (hD' _ (F.inBounds1.2 ⟨bLo 0 + 1, rfl, by omega⟩)).rd]
    rfl
  obtain ⟨v, g1, g2⟩ := ho.ghost (alpha := alpha) (beta := beta) (w := dx 0) (b := (F.rd m (F.face2d0 d0 i0 j0 i1 j1 dg) [bLo 0 + 1, j])) (x1 := F.rd m (F.cell2d u i0 j0 i1 j1 g) [bLo 0 + 1, j]) (x2 := F.rd m (F.cell2d u i0 j0 i1 j1 g) [bLo 0 + 2, j]) true false
  refine ⟨m1, m1', v, c1, c1', ?_, ?_⟩
  · have t := q1.1 rfl j ja jb v g1
    simpa using t
  · have t := q1'.1 rfl v (by rw [hb, hx, ← eb, ← e (bLo 0 + 1) (by omega) (by omega), ← e (bLo 0 + 2) (by omega) (by omega)]; exact g2)
    simpa using t

example := C88_2d_i_lower_partial (T := Rat) (j := 1) (i0 := 0) (i1 := 3) (j0 := 0) (j1 := 3) (g := 1) (dg := 1) (exOrder := 2) (btype := 4) (dx := exDx) (dx' := fun _ => exDx 0) (u := ⟨9, 0⟩) (u' := ⟨9, 0⟩) (d0 := ⟨0, 0⟩) (d1 := ⟨1, 0⟩) (d' := ⟨0, 0⟩)
  (bLo := fun n => if n = 0 then -1 else 1) (bHi := fun n => if n = 0 then 4 else 2) (bLo' := fun _ => -1) (bHi' := fun _ => 4) (alpha := 3) (beta := 5) (β := fun _ => revBackend) (β' := fun _ => seqBackend)
  (m := exWith [((F.cell2d ⟨9, 0⟩ 0 0 3 3 1), exRd (F.cell2d ⟨9, 0⟩ 0 0 3 3 1)), ((F.face2d0 ⟨0, 0⟩ 0 0 3 3 1), exRd (F.face2d0 ⟨0, 0⟩ 0 0 3 3 1))])
  (m' := exWith [((F.cell1d ⟨9, 0⟩ 0 3 1), fun p => exRd (F.cell2d ⟨9, 0⟩ 0 0 3 3 1) [p.getD 0 0, 1]), ((F.face1d ⟨0, 0⟩ 0 3 1), fun p => exRd (F.face2d0 ⟨0, 0⟩ 0 0 3 3 1) [p.getD 0 0, 1])])
  (fun _ => revBackend_ok) (fun _ => seqBackend_ok) (by decide) (by decide) (by decide) (by decide) (by ex_seg) (by ex_seg) rfl rfl (by ex_seg) (.inr (.inr ⟨rfl, .inr rfl⟩)) (exWith_args (by ex_args)) (exWith_args (by ex_args))
  (exWith_rd (exRat_ok rfl (by decide) (by decide)) rfl rfl) (exWith_rd (exRat_ok rfl (by decide) (by decide)) rfl rfl) (by decide) (by decide) (exWith_rd (exRat_ok rfl (by decide) (by decide)) rfl rfl) (exWith_rd (exRat_ok rfl (by decide) (by decide)) rfl rfl) 

/-- `cd_correct_bc_2d_cuda::set_bc`, upper side of direction 0: each ghost value is the one that `cd_correct_bc_1d_cuda::set_bc` stores for the line through it.
Not for Dirichlet conditions of order 0, where the kernel in 1D stores nothing. -/
theorem C88_2d_i_upper_partial {j i0 i1 j0 j1 g dg exOrder btype : Int} {dx dx' : Nat → T} {d0 d1 d' u u' : Ptr} {bLo bHi bLo' bHi' : Nat → Int} {alpha beta : T} {β β' : Nat → Backend} {m m' : Mem T} {U D : List Int → T}
    (hβ : ∀ n, ValidBackend (β n)) (hβ' : ∀ n, ValidBackend (β' n)) (hi : i0 ≤ i1) (hj : j0 ≤ j1) (hg : 0 ≤ g) (hdg : 0 ≤ dg)
    (hs : ∀ n < 2, InInt (bLo n + 1) ∧ InInt (bHi n + 1)) (hs' : InInt (bLo' 0 + 1) ∧ InInt (bHi' 0 + 1)) (hb : bHi' 0 = bHi 0) (hx : dx' 0 = dx 0)
    (hf : Reach i0 i1 g (bHi 0) (-2) ∧ OnFaces i0 i1 dg (bHi 0) ∧ Meets j0 j1 (bLo 1) (bHi 1))
    (ho : Stored btype exOrder)
    (h : F.Args m [F.face2d0 d0 i0 j0 i1 j1 dg, F.face2d1 d1 i0 j0 i1 j1 dg] [F.cell2d u i0 j0 i1 j1 g]) (h' : F.Args m' [F.face1d d' i0 i1 dg] [F.cell1d u' i0 i1 g])
    (hU : F.Holds m (F.cell2d u i0 j0 i1 j1 g) U) (hD : F.Holds m (F.face2d0 d0 i0 j0 i1 j1 dg) D) (ja : max j0 (bLo 1) ≤ j) (jb : j ≤ min j1 (bHi 1))
    (hU' : F.Holds m' (F.cell1d u' i0 i1 g) (fun p => U [p.getD 0 0, j])) (hD' : F.Holds m' (F.face1d d' i0 i1 dg) (fun p => D [p.getD 0 0, j])) :
    ∃ m1 m1' v, Cuda.setBc2d i0 i1 j0 j1 dx dg d0 d1 g u bLo bHi exOrder 1 1 btype alpha beta β m = .ok m1 ∧
      Cuda.setBc1d i0 i1 dx' dg d' g u' bLo' bHi' exOrder 1 btype alpha beta β' m' = .ok m1' ∧
      F.El m1 (F.cell2d u i0 j0 i1 j1 g) [bHi 0, j] v ∧ F.El m1' (F.cell1d u' i0 i1 g) [bHi' 0] v := by
  obtain ⟨m1, c1, q1⟩ := ghosts_2d (dx := dx) (exOrder := exOrder) (face := 1) (btype := btype) (alpha := alpha) (beta := beta) hβ hi hj hg hdg hs (fun e => absurd e (by decide)) (fun _ => hf) (fun e => absurd e (by decide)) (fun e => absurd e (by decide)) h
  have hs1 : ∀ n < 1, InInt (bLo' n + 1) ∧ InInt (bHi' n + 1) := fun n hn => by
    obtain rfl : n = 0 := by omega
    exact hs'
  obtain ⟨m1', c1', q1'⟩ := ghosts_1d (dx := dx') (exOrder := exOrder) (face := 1) (btype := btype) (alpha := alpha) (beta := beta) (bLo := bLo') (bHi := bHi') hβ' hi hg hdg hs1 (fun e => absurd e (by decide)) (fun _ => by rw [hb]; exact ⟨hf.1, hf.2.1⟩) h'
  have r := hf.1
  have rb : ∀ x, i0 - g ≤ x → x ≤ i1 + g → F.InBounds (F.cell2d u i0 j0 i1 j1 g).dims [x, j] := fun x xa xb => F.inBounds2.2 ⟨x, j, rfl, by simp only [max_le_iff, le_min_iff] at *; omega⟩
  have rb' : ∀ x, i0 - g ≤ x → x ≤ i1 + g → F.InBounds (F.cell1d u' i0 i1 g).dims [x] := fun x xa xb => F.inBounds1.2 ⟨x, rfl, by omega⟩
  unfold Reach at r
  have e : ∀ x, i0 - g ≤ x → x ≤ i1 + g → F.rd m (F.cell2d u i0 j0 i1 j1 g) [x, j] = F.rd m' (F.cell1d u' i0 i1 g) [x] := fun x xa xb => by
    rw [(hU _ (rb x xa xb)).rd, (hU' _ (rb' x xa xb)).rd]
    rfl
  have o := hf.2.1
  unfold OnFaces at o
  have eb : F.rd m (F.face2d0 d0 i0 j0 i1 j1 dg) [bHi 0, j] = F.rd m' (F.face1d d' i0 i1 dg) [bHi 0] := by
    rw [(hD _ (F.inBounds2.2 ⟨bHi 0, j, rfl, by simp only [max_le_iff, le_min_iff] at *; omega⟩)).rd, (hD' _ (F.inBounds1.2 ⟨bHi 0, rfl, by omega⟩)).rd]
    rfl
  obtain ⟨v, g1, g2⟩ := ho.ghost (alpha := alpha) (beta := beta) (w := dx 0) (b := (F.rd m (F.face2d0 d0 i0 j0 i1 j1 dg) [bHi 0, j])) (x1 := F.rd m (F.cell2d u i0 j0 i1 j1 g) [bHi 0 - 1, j]) (x2 := F.rd m (F.cell2d u i0 j0 i1 j1 g) [bHi 0 - 2, j]) true false
  refine ⟨m1, m1', v, c1, c1', ?_, ?_⟩
  · have t := q1.2.1 rfl j ja jb v g1
    simpa using t
  · have t := q1'.2 rfl v (by rw [hb, hx, ← eb, ← e (bHi 0 - 1) (by omega) (by omega), ← e (bHi 0 - 2) (by omega) (by omega)]; exact g2)
    simpa using t

example := C88_2d_i_upper_partial (T := Rat) (j := 1) (i0 := 0) (i1 := 3) (j0 := 0) (j1 := 3) (g := 1) (dg := 1) (exOrder := 2) (btype := 4) (dx := exDx) (dx' := fun _ => exDx 0) (u := ⟨9, 0⟩) (u' := ⟨9, 0⟩) (d0 := ⟨0, 0⟩) (d1 := ⟨1, 0⟩) (d' := ⟨0, 0⟩)
  (bLo := fun n => if n = 0 then -1 else 1) (bHi := fun n => if n = 0 then 4 else 2) (bLo' := fun _ => -1) (bHi' := fun _ => 4) (alpha := 3) (beta := 5) (β := fun _ => revBackend) (β' := fun _ => seqBackend)
  (m := exWith [((F.cell2d ⟨9, 0⟩ 0 0 3 3 1), exRd (F.cell2d ⟨9, 0⟩ 0 0 3 3 1)), ((F.face2d0 ⟨0, 0⟩ 0 0 3 3 1), exRd (F.face2d0 ⟨0, 0⟩ 0 0 3 3 1))])
  (m' := exWith [((F.cell1d ⟨9, 0⟩ 0 3 1), fun p => exRd (F.cell2d ⟨9, 0⟩ 0 0 3 3 1) [p.getD 0 0, 1]), ((F.face1d ⟨0, 0⟩ 0 3 1), fun p => exRd (F.face2d0 ⟨0, 0⟩ 0 0 3 3 1) [p.getD 0 0, 1])])
  (fun _ => revBackend_ok) (fun _ => seqBackend_ok) (by decide) (by decide) (by decide) (by decide) (by ex_seg) (by ex_seg) rfl rfl (by ex_seg) (.inr (.inr ⟨rfl, .inr rfl⟩)) (exWith_args (by ex_args)) (exWith_args (by ex_args))
  (exWith_rd (exRat_ok rfl (by decide) (by decide)) rfl rfl) (exWith_rd (exRat_ok rfl (by decide) (by decide)) rfl rfl) (by decide) (by decide) (exWith_rd (exRat_ok rfl (by decide) (by decide)) rfl rfl) (exWith_rd (exRat_ok rfl (by decide) (by decide)) rfl rfl) 

/-- `cd_correct_bc_2d_cuda::set_bc`, lower side of direction 1: each ghost value is the one that `cd_correct_bc_1d_cuda::set_bc` stores for the line through it.
Not for Dirichlet conditions of order 0, where the kernel in 1D stores nothing. -/
theorem C88_2d_j_lower_partial {i i0 i1 j0 j1 g dg exOrder btype : Int} {dx dx' : Nat → T} {d0 d1 d' u u' : Ptr} {bLo bHi bLo' bHi' : Nat → Int} {alpha beta : T} {β β' : Nat → Backend} {m m' : Mem T} {U D : List Int → T}
    (hβ : ∀ n, ValidBackend (β n)) (hβ' : ∀ n, ValidBackend (β' n)) (hi : i0 ≤ i1) (hj : j0 ≤ j1) (hg : 0 ≤ g) (hdg : 0 ≤ dg)
    (hs : ∀ n < 2, InInt (bLo n + 1) ∧ InInt (bHi n + 1)) (hs' : InInt (bLo' 0 + 1) ∧ InInt (bHi' 0 + 1)) (hb : bLo' 0 = bLo 1) (hx : dx' 0 = dx 1)
    (hf : Reach j0 j1 g (bLo 1) 2 ∧ OnFaces j0 j1 dg (bLo 1 + 1) ∧ Meets i0 i1 (bLo 0) (bHi 0))
    (ho : Stored btype exOrder)
    (h : F.Args m [F.face2d0 d0 i0 j0 i1 j1 dg, F.face2d1 d1 i0 j0 i1 j1 dg] [F.cell2d u i0 j0 i1 j1 g]) (h' : F.Args m' [F.face1d d' j0 j1 dg] [F.cell1d u' j0 j1 g])
    (hU : F.Holds m (F.cell2d u i0 j0 i1 j1 g) U) (hD : F.Holds m (F.face2d1 d1 i0 j0 i1 j1 dg) D) (ia : max i0 (bLo 0) ≤ i) (ib : i ≤ min i1 (bHi 0))
    (hU' : F.Holds m' (F.cell1d u' j0 j1 g) (fun p => U [i, p.getD 0 0])) (hD' : F.Holds m' (F.face1d d' j0 j1 dg) (fun p => D [p.getD 0 0, i])) :
    ∃ m1 m1' v, Cuda.setBc2d i0 i1 j0 j1 dx dg d0 d1 g u bLo bHi exOrder 2 1 btype alpha beta β m = .ok m1 ∧
      Cuda.setBc1d j0 j1 dx' dg d' g u' bLo' bHi' exOrder 0 btype alpha beta β' m' = .ok m1' ∧
      F.El m1 (F.cell2d u i0 j0 i1 j1 g) [i, bLo 1] v ∧ F.El m1' (F.cell1d u' j0 j1 g) [bLo' 0] v := by
  obtain ⟨m1, c1, q1⟩ := ghosts_2d (dx := dx) (exOrder := exOrder) (face := 2) (btype := btype) (alpha := alpha) (beta := beta) hβ hi hj hg hdg hs (fun e => absurd e (by decide)) (fun e => absurd e (by decide)) (fun _ => hf) (fun e => absurd e (by decide)) h
  have hs1 : ∀ n < 1, InInt (bLo' n + 1) ∧ InInt (bHi' n + 1) := fun n hn => by
    obtain rfl : n = 0 := by omega
    exact hs'
  obtain ⟨m1', c1', q1'⟩ := ghosts_1d (dx := dx') (exOrder := exOrder) (face := 0) (btype := btype) (alpha := alpha) (beta := beta) (bLo := bLo') (bHi := bHi') hβ' hj hg hdg hs1 (fun _ => by rw [hb]; exact ⟨hf.1, hf.2.1⟩) (fun e => absurd e (by decide)) h'
  have r := hf.1
  have rb : ∀ x, j0 - g ≤ x → x ≤ j1 + g → F.InBounds (F.cell2d u i0 j0 i1 j1 g).dims [i, x] := fun x xa xb => F.inBounds2.2 ⟨i, x, rfl, by simp only [max_le_iff, le_min_iff] at *; omega⟩
  have rb' : ∀ x, j0 - g ≤ x → x ≤ j1 + g → F.InBounds (F.cell1d u' j0 j1 g).dims [x] := fun x xa xb => F.inBounds1.2 ⟨x, rfl, by omega⟩
  unfold Reach at r
  have e : ∀ x, j0 - g ≤ x → x ≤ j1 + g → F.rd m (F.cell2d u i0 j0 i1 j1 g) [i, x] = F.rd m' (F.cell1d u' j0 j1 g) [x] := fun x xa xb => by
    rw [(hU _ (rb x xa xb)).rd, (hU' _ (rb' x xa xb)).rd]
    rfl
  have o := hf.2.1
  unfold OnFaces at o
  have eb : F.rd m (F.face2d1 d1 i0 j0 i1 j1 dg) [bLo 1 + 1, i] = F.rd m' (F.face1d d' j0 j1 dg) [bLo 1 + 1] := by
    rw [(hD _ (F.inBounds2.2 ⟨bLo 1 + 1, i, rfl, by simp only [max_le_iff, le_min_iff] at *; omega⟩)).rd, (hD' _ (F.inBounds1.2 ⟨bLo 1 + 1, rfl, by omega⟩)).rd]
    rfl
  obtain ⟨v, g1, g2⟩ := ho.ghost (alpha := alpha) (beta := beta) (w := dx 1) (b := (F.rd m (F.face2d1 d1 i0 j0 i1 j1 dg) [bLo 1 + 1, i])) (x1 := F.rd m (F.cell2d u i0 j0 i1 j1 g) [i, bLo 1 + 1]) (x2 := F.rd m (F.cell2d u i0 j0 i1 j1 g) [i, bLo 1 + 2]) true false
  refine ⟨m1, m1', v, c1, c1', ?_, ?_⟩
  · have t := q1.2.2.1 rfl i ia ib v g1
    simpa using t
  · have t := q1'.1 rfl v (by rw [hb, hx, ← eb, ← e (bLo 1 + 1) (by omega) (by omega), ← e (bLo 1 + 2) (by omega) (by omega)]; exact g2)
    simpa using t

example := C88_2d_j_lower_partial (T := Rat) (i := 1) (i0 := 0) (i1 := 3) (j0 := 0) (j1 := 3) (g := 1) (dg := 1) (exOrder := 2) (btype := 4) (dx := exDx) (dx' := fun _ => exDx 1) (u := ⟨9, 0⟩) (u' := ⟨9, 0⟩) (d0 := ⟨0, 0⟩) (d1 := ⟨1, 0⟩) (d' := ⟨0, 0⟩)
  (bLo := fun n => if n = 1 then -1 else 1) (bHi := fun n => if n = 1 then 4 else 2) (bLo' := fun _ => -1) (bHi' := fun _ => 4) (alpha := 3) (beta := 5) (β := fun _ => revBackend) (β' := fun _ => seqBackend)
  (m := exWith [((F.cell2d ⟨9, 0⟩ 0 0 3 3 1), exRd (F.cell2d ⟨9, 0⟩ 0 0 3 3 1)), ((F.face2d1 ⟨1, 0⟩ 0 0 3 3 1), exRd (F.face2d1 ⟨1, 0⟩ 0 0 3 3 1))])
  (m' := exWith [((F.cell1d ⟨9, 0⟩ 0 3 1), fun p => exRd (F.cell2d ⟨9, 0⟩ 0 0 3 3 1) [1, p.getD 0 0]), ((F.face1d ⟨0, 0⟩ 0 3 1), fun p => exRd (F.face2d1 ⟨1, 0⟩ 0 0 3 3 1) [p.getD 0 0, 1])])
  (fun _ => revBackend_ok) (fun _ => seqBackend_ok) (by decide) (by decide) (by decide) (by decide) (by ex_seg) (by ex_seg) rfl rfl (by ex_seg) (.inr (.inr ⟨rfl, .inr rfl⟩)) (exWith_args (by ex_args)) (exWith_args (by ex_args))
  (exWith_rd (exRat_ok rfl (by decide) (by decide)) rfl rfl) (exWith_rd (exRat_ok rfl (by decide) (by decide)) rfl rfl) (by decide) (by decide) (exWith_rd (exRat_ok rfl (by decide) (by decide)) rfl rfl) (exWith_rd (exRat_ok rfl (by decide) (by decide)) rfl rfl) 

/-- `cd_correct_bc_2d_cuda::set_bc`, upper side of direction 1: each ghost value is the one that `cd_correct_bc_1d_cuda::set_bc` stores for the line through it.
Not for Dirichlet conditions of order 0, where the kernel in 1D stores nothing. -/
theorem C88_2d_j_upper_partial {i i0 i1 j0 j1 g dg exOrder btype : Int} {dx dx' : Nat → T} {d0 d1 d' u u' : Ptr} {bLo bHi bLo' bHi' : Nat → Int} {alpha beta : T} {β β' : Nat → Backend} {m m' : Mem T} {U D : List Int → T}
    (hβ : ∀ n, ValidBackend (β n)) (hβ' : ∀ n, ValidBackend (β' n)) (hi : i0 ≤ i1) (hj : j0 ≤ j1) (hg : 0 ≤ g) (hdg : 0 ≤ dg)
    (hs : ∀ n < 2, InInt (bLo n + 1) ∧ InInt (bHi n + 1)) (hs' : InInt (bLo' 0 + 1) ∧ InInt (bHi' 0 + 1)) (hb : bHi' 0 = bHi 1) (hx : dx' 0 = dx 1)
    (hf : Reach j0 j1 g (bHi 1) (-2) ∧ OnFaces j0 j1 dg (bHi 1) ∧ Meets i0 i1 (bLo 0) (bHi 0))
    (ho : Stored btype exOrder)
    (h : F.Args m [F.face2d0 d0 i0 j0 i1 j1 dg, F.face2d1 d1 i0 j0 i1 j1 dg] [F.cell2d u i0 j0 i1 j1 g]) (h' : F.Args m' [F.face1d d' j0 j1 dg] [F.cell1d u' j0 j1 g])
    (hU : F.Holds m (F.cell2d u i0 j0 i1 j1 g) U) (hD : F.Holds m (F.face2d1 d1 i0 j0 i1 j1 dg) D) (ia : max i0 (bLo 0) ≤ i) (ib : i ≤ min i1 (bHi 0))
    (hU' : F.Holds m' (F.cell1d u' j0 j1 g) (fun p => U [i, p.getD 0 0])) (hD' : F.Holds m' (F.face1d d' j0 j1 dg) (fun p => D [p.getD 0 0, i])) :
    ∃ m1 m1' v, Cuda.setBc2d i0 i1 j0 j1 dx dg d0 d1 g u bLo bHi exOrder 3 1 btype alpha beta β m = .ok m1 ∧
      Cuda.setBc1d j0 j1 dx' dg d' g u' bLo' bHi' exOrder 1 btype alpha beta β' m' = .ok m1' ∧
      F.El m1 (F.cell2d u i0 j0 i1 j1 g) [i, bHi 1] v ∧ F.El m1' (F.cell1d u' j0 j1 g) [bHi' 0] v := by
  obtain ⟨m1, c1, q1⟩ := ghosts_2d (dx := dx) (exOrder := exOrder) (face := 3) (btype := btype) (alpha := alpha) (beta := beta) hβ hi hj hg hdg hs (fun e => absurd e (by decide)) (fun e => absurd e (by decide)) (fun e => absurd e (by decide)) (fun _ => hf) h
  have hs1 : ∀ n < 1, InInt (bLo' n + 1) ∧ InInt (bHi' n + 1) := fun n hn => by
    obtain rfl : n = 0 := by omega
    exact hs'
  obtain ⟨m1', c1', q1'⟩ := ghosts_1d (dx := dx') (exOrder := exOrder) (face := 1) (btype := btype) (alpha := alpha) (beta := beta) (bLo := bLo') (bHi := bHi') hβ' hj hg hdg hs1 (fun e => absurd e (by decide)) (fun _ => by rw [hb]; exact ⟨hf.1, hf.2.1⟩) h'
  have r := hf.1
  have rb : ∀ x, j0 - g ≤ x → x ≤ j1 + g → F.InBounds (F.cell2d u i0 j0 i1 j1 g).dims [i, x] := fun x xa xb => F.inBounds2.2 ⟨i, x, rfl, by simp only [max_le_iff, le_min_iff] at *; omega⟩
  have rb' : ∀ x, j0 - g ≤ x → x ≤ j1 + g → F.InBounds (F.cell1d u' j0 j1 g).dims [x] := fun x xa xb => F.inBounds1.2 ⟨x, rfl, by omega⟩
  unfold Reach at r
  have e : ∀ x, j0 - g ≤ x → x ≤ j1 + g → F.rd m (F.cell2d u i0 j0 i1 j1 g) [i, x] = F.rd m' (F.cell1d u' j0 j1 g) [x] := fun x xa xb => by
    rw [(hU _ (rb x xa xb)).rd, (hU' _ (rb' x xa xb)).rd]
    rfl
  have o := hf.2.1
  unfold OnFaces at o
  have eb : F.rd m (F.face2d1 d1 i0 j0 i1 j1 dg) [bHi 1, i] = F.rd m' (F.face1d d' j0 j1 dg) [bHi 1] := by
    rw [(hD _ (F.inBounds2.2 ⟨bHi 1, i, rfl, by simp only [max_le_iff, le_min_iff] at *; omega⟩)).rd, (hD' _ (F.inBounds1.2 ⟨bHi 1, rfl, by omega⟩)).rd]
    rfl
  obtain ⟨v, g1, g2⟩ := ho.ghost (alpha := alpha) (beta := beta) (w := dx 1) (b := (F.rd m (F.face2d1 d1 i0 j0 i1 j1 dg) [bHi 1, i])) (x1 := F.rd m (F.cell2d u i0 j0 i1 j1 g) [i, bHi 1 - 1]) (x2 := F.rd m (F.cell2d u i0 j0 i1 j1 g) [i, bHi 1 - 2]) true false
  refine ⟨m1, m1', v, c1, c1', ?_, ?_⟩
  · have t := q1.2.2.2 rfl i ia ib v g1
    simpa using t
  · have t := q1'.2 rfl v (by rw [hb, hx, ← eb, ← e (bHi 1 - 1) (by omega) (by omega), ← e (bHi 1 - 2) (by omega) (by omega)]; exact g2)
    simpa using t

example := C88_2d_j_upper_partial (T := Rat) (i := 1) (i0 := 0) (i1 := 3) (j0 := 0) (j1 := 3) (g := 1) (dg := 1) (exOrder := 2) (btype := 4) (dx := exDx) (dx' := fun _ => exDx 1) (u := ⟨9, 0⟩) (u' := ⟨9, 0⟩) (d0 := ⟨0, 0⟩) (d1 := ⟨1, 0⟩) (d' := ⟨0, 0⟩)
  (bLo := fun n => if n = 1 then -1 else 1) (bHi := fun n => if n = 1 then 4 else 2) (bLo' := fun _ => -1) (bHi' := fun _ => 4) (alpha := 3) (beta := 5) (β := fun _ => revBackend) (β' := fun _ => seqBackend)
  (m := exWith [((F.cell2d ⟨9, 0⟩ 0 0 3 3 1), exRd (F.cell2d ⟨9, 0⟩ 0 0 3 3 1)), ((F.face2d1 ⟨1, 0⟩ 0 0 3 3 1), exRd (F.face2d1 ⟨1, 0⟩ 0 0 3 3 1))])
  (m' := exWith [((F.cell1d ⟨9, 0⟩ 0 3 1), fun p => exRd (F.cell2d ⟨9, 0⟩ 0 0 3 3 1) [1, p.getD 0 0]), ((F.face1d ⟨0, 0⟩ 0 3 1), fun p => exRd (F.face2d1 ⟨1, 0⟩ 0 0 3 3 1) [p.getD 0 0, 1])])
  (fun _ => revBackend_ok) (fun _ => seqBackend_ok) (by decide) (by decide) (by decide) (by decide) (by ex_seg) (by ex_seg) rfl rfl (by ex_seg) (.inr (.inr ⟨rfl, .inr rfl⟩)) (exWith_args (by ex_args)) (exWith_args (by ex_args))
  (exWith_rd (exRat_ok rfl (by decide) (by decide)) rfl rfl) (exWith_rd (exRat_ok rfl (by decide) (by decide)) rfl rfl) (by decide) (by decide) (exWith_rd (exRat_ok rfl (by decide) (by decide)) rfl rfl) (exWith_rd (exRat_ok rfl (by decide) (by decide)) rfl rfl) 

/-- `cd_correct_bc_2d_cuda::set_poisson_bc`, lower side of direction 0: each ghost value is the one that `cd_correct_bc_1d_cuda::set_poisson_bc` stores for the line through it.
Not for Dirichlet conditions of order 0, where nothing is stored; the Poisson kernel in 1D has fixed coefficients in Robin conditions, so these must be the same here. -/
theorem C88_poisson_2d_i_lower_partial {j i0 i1 j0 j1 g exOrder btype : Int} {dx dx' : Nat → T} {u u' : Ptr} {bLo bHi bLo' bHi' : Nat → Int} {alpha beta alpha' beta' : T} {β β' : Nat → Backend} {m m' : Mem T} {U : List Int → T}
    (hβ : ∀ n, ValidBackend (β n)) (hβ' : ∀ n, ValidBackend (β' n)) (hi : i0 ≤ i1) (hj : j0 ≤ j1) (hg : 0 ≤ g)
    (hs : ∀ n < 2, InInt (bLo n + 1) ∧ InInt (bHi n + 1)) (hs' : InInt (bLo' 0 + 1) ∧ InInt (bHi' 0 + 1)) (hb : bLo' 0 = bLo 0) (hx : dx' 0 = dx 0)
    (hf : Reach i0 i1 g (bLo 0) 2 ∧ Meets j0 j1 (bLo 1) (bHi 1))
    (ht : btype = 4 → alpha = 2 ∧ beta = 1) (ho : Stored btype exOrder)
    (h : F.Args m [] [F.cell2d u i0 j0 i1 j1 g]) (h' : F.Args m' [] [F.cell1d u' i0 i1 g])
    (hU : F.Holds m (F.cell2d u i0 j0 i1 j1 g) U) (ja : max j0 (bLo 1) ≤ j) (jb : j ≤ min j1 (bHi 1))
    (hU' : F.Holds m' (F.cell1d u' i0 i1 g) (fun p => U [p.getD 0 0, j])) :
    ∃ m1 m1' v, Cuda.setPoissonBc2d i0 i1 j0 j1 dx g u bLo bHi exOrder 0 1 btype alpha beta β m = .ok m1 ∧
      Cuda.setPoissonBc1d i0 i1 dx' g u' bLo' bHi' exOrder 0 btype alpha' beta' β' m' = .ok m1' ∧
      F.El m1 (F.cell2d u i0 j0 i1 j1 g) [bLo 0, j] v ∧ F.El m1' (F.cell1d u' i0 i1 g) [bLo' 0] v := by
  obtain ⟨m1, c1, q1⟩ := ghosts_p2d (dx := dx) (exOrder := exOrder) (face := 0) (btype := btype) (alpha := alpha) (beta := beta) hβ hi hj hg hs (fun _ => hf) (fun e => absurd e (by decide)) (fun e => absurd e (by decide)) (fun e => absurd e (by decide)) h
  have hs1 : ∀ n < 1, InInt (bLo' n + 1) ∧ InInt (bHi' n + 1) := fun n hn => by
    obtain rfl : n = 0 := by omega
    exact hs'
  obtain ⟨m1', c1', q1'⟩ := ghosts_p1d (dx := dx') (exOrder := exOrder) (face := 0) (btype := btype) (alpha := alpha') (beta := beta') (bLo := bLo') (bHi := bHi') hβ' hi hg hs1 (fun _ => by rw [hb]; exact hf.1) (fun e => absurd e (by decide)) h'
  have r := hf.1
  have rb : ∀ x, i0 - g ≤ x → x ≤ i1 + g → F.InBounds (F.cell2d u i0 j0 i1 j1 g).dims [x, j] := fun x xa xb => F.inBounds2.2 ⟨x, j, rfl, by simp only [max_le_iff, le_min_iff] at *; omega⟩
  have rb' : ∀ x, i0 - g ≤ x → x ≤ i1 + g → F.InBounds (F.cell1d u' i0 i1 g).dims [x] := fun x xa xb => F.inBounds1.2 ⟨x, rfl, by omega⟩
  unfold Reach at r
  have e : ∀ x, i0 - g ≤ x → x ≤ i1 + g → F.rd m (F.cell2d u i0 j0 i1 j1 g) [x, j] = F.rd m' (F.cell1d u' i0 i1 g) [x] := fun x xa xb => by
    rw [(hU _ (rb x xa xb)).rd, (hU' _ (rb' x xa xb)).rd]
    rfl
  obtain ⟨v, g1, g2⟩ := ho.ghost (alpha := 2) (beta := 1) (w := dx 0) (b := 1) (x1 := F.rd m (F.cell2d u i0 j0 i1 j1 g) [bLo 0 + 1, j]) (x2 := F.rd m (F.cell2d u i0 j0 i1 j1 g) [bLo 0 + 2, j]) false false
  refine ⟨m1, m1', v, c1, c1', ?_, ?_⟩
  · have g3 : ghost false btype exOrder alpha beta (dx 0) 1 (F.rd m (F.cell2d u i0 j0 i1 j1 g) [bLo 0 + 1, j]) (F.rd m (F.cell2d u i0 j0 i1 j1 g) [bLo 0 + 2, j]) = some v := by
      by_cases h4 : btype = 4
      · rw [(ht h4).1, (ht h4).2]; exact g1
      · rw [← g1]; simp only [ghost, h4, if_false]
    have t := q1.1 rfl j ja jb v g3
    simpa using t
  · have t := q1'.1 rfl v (by rw [hb, hx, ← e (bLo 0 + 1) (by omega) (by omega), ← e (bLo 0 + 2) (by omega) (by omega)]; exact g2)
    simpa using t

example := C88_poisson_2d_i_lower_partial (T := Rat) (j := 1) (i0 := 0) (i1 := 3) (j0 := 0) (j1 := 3) (g := 1) (exOrder := 2) (btype := 4) (dx := exDx) (dx' := fun _ => exDx 0) (u := ⟨9, 0⟩) (u' := ⟨9, 0⟩) 
  (bLo := fun n => if n = 0 then -1 else 1) (bHi := fun n => if n = 0 then 4 else 2) (bLo' := fun _ => -1) (bHi' := fun _ => 4) (alpha := 2) (beta := 1) (alpha' := 3) (beta' := 5) (β := fun _ => revBackend) (β' := fun _ => seqBackend)
  (m := exWith [((F.cell2d ⟨9, 0⟩ 0 0 3 3 1), exRd (F.cell2d ⟨9, 0⟩ 0 0 3 3 1))])
  (m' := exWith [((F.cell1d ⟨9, 0⟩ 0 3 1), fun p => exRd (F.cell2d ⟨9, 0⟩ 0 0 3 3 1) [p.getD 0 0, 1])])
  (fun _ => revBackend_ok) (fun _ => seqBackend_ok) (by decide) (by decide) (by decide) (by ex_seg) (by ex_seg) rfl rfl (by ex_seg) (fun _ => ⟨rfl, rfl⟩) (.inr (.inr ⟨rfl, .inr rfl⟩)) (exWith_args (by ex_args)) (exWith_args (by ex_args))
  (exWith_rd (exRat_ok rfl (by decide) (by decide)) rfl rfl) (by decide) (by decide) (exWith_rd (exRat_ok rfl (by decide) (by decide)) rfl rfl) 

/-- `cd_correct_bc_2d_cuda::set_poisson_bc`, upper side of direction 0: each ghost value is the one that `cd_correct_bc_1d_cuda::set_poisson_bc` stores for the line through it.
Not for Dirichlet conditions of order 0, where nothing is stored; the Poisson kernel in 1D has fixed coefficients in Robin conditions, so these must be the same here. -/
theorem C88_poisson_2d_i_upper_partial {j i0 i1 j0 j1 g exOrder btype : Int} {dx dx' : Nat → T} {u u' : Ptr} {bLo bHi bLo' bHi' : Nat → Int} {alpha beta alpha' beta' : T} {β β' : Nat → Backend} {m m' : Mem T} {U : List Int → T}
    (hβ : ∀ n, ValidBackend (β n)) (hβ' : ∀ n, ValidBackend (β' n)) (hi : i0 ≤ i1) (hj : j0 ≤ j1) (hg : 0 ≤ g)
    (hs : ∀ n < 2, InInt (bLo n + 1) ∧ InInt (bHi n + 1)) (hs' : InInt (bLo' 0 + 1) ∧ InInt (bHi' 0 + 1)) (hb : bHi' 0 = bHi 0) (hx : dx' 0 = dx 0)
    (hf : Reach i0 i1 g (bHi 0) (-2) ∧ Meets j0 j1 (bLo 1) (bHi 1))
    (ht : btype = 4 → alpha = 2 ∧ beta = 1) (ho : Stored btype exOrder)
    (h : F.Args m [] [F.cell2d u i0 j0 i1 j1 g]) (h' : F.Args m' [] [F.cell1d u' i0 i1 g])
    (hU : F.Holds m (F.cell2d u i0 j0 i1 j1 g) U) (ja : max j0 (bLo 1) ≤ j) (jb : j ≤ min j1 (bHi 1))
    (hU' : F.Holds m' (F.cell1d u' i0 i1 g) (fun p => U [p.getD 0 0, j])) :
    ∃ m1 m1' v, Cuda.setPoissonBc2d i0 i1 j0 j1 dx g u bLo bHi exOrder 1 1 btype alpha beta β m = .ok m1 ∧
      Cuda.setPoissonBc1d i0 i1 dx' g u' bLo' bHi' exOrder 1 btype alpha' beta' β' m' = .ok m1' ∧
      F.El m1 (F.cell2d u i0 j0 i1 j1 g) [bHi 0, j] v ∧ F.El m1' (F.cell1d u' i0 i1 g) [bHi' 0] v := by
  obtain ⟨m1, c1, q1⟩ := ghosts_p2d (dx := dx) (exOrder := exOrder) (face := 1) (btype := btype) (alpha := alpha) (beta := beta) hβ hi hj hg hs (fun e => absurd e (by decide)) (fun _ => hf) (fun e => absurd e (by decide)) (fun e => absurd e (by decide)) h
  have hs1 : ∀ n < 1, InInt (bLo' n + 1) ∧ InInt (bHi' n + 1) := fun n hn => by
    obtain rfl : n = 0 := by omega
    exact hs'
  obtain ⟨m1', c1', q1'⟩ := ghosts_p1d (dx := dx') (exOrder := exOrder) (face := 1) (btype := btype) (alpha := alpha') (beta := beta') (bLo := bLo') (bHi := bHi') hβ' hi hg hs1 (fun e => absurd e (by decide)) (fun _ => by rw [hb]; exact hf.1) h'
  have r := hf.1
  have rb : ∀ x, i0 - g ≤ x → x ≤ i1 + g → F.InBounds (F.cell2d u i0 j0 i1 j1 g).dims [x, j] := fun x xa xb => F.inBounds2.2 ⟨x, j, rfl, by simp only [max_le_iff, le_min_iff] at *; omega⟩
  have rb' : ∀ x, i0 - g ≤ x → x ≤ i1 + g → F.InBounds (F.cell1d u' i0 i1 g).dims [x] := fun x xa xb => F.inBounds1.2 ⟨x, rfl, by omega⟩
  unfold Reach at r
  have e : ∀ x, i0 - g ≤ x → x ≤ i1 + g → F.rd m (F.cell2d u i0 j0 i1 j1 g) [x, j] = F.rd m' (F.cell1d u' i0 i1 g) [x] := fun x xa xb => by
    rw [(hU _ (rb x xa xb)).rd, (hU' _ (rb' x xa xb)).rd]
    rfl
  obtain ⟨v, g1, g2⟩ := ho.ghost (alpha := 2) (beta := 1) (w := dx 0) (b := 1) (x1 := F.rd m (F.cell2d u i0 j0 i1 j1 g) [bHi 0 - 1, j]) (x2 := F.rd m (F.cell2d u i0 j0 i1 j1 g) [bHi 0 - 2, j]) false false
  refine ⟨m1, m1', v, c1, c1', ?_, ?_⟩
  · have g3 : ghost false btype exOrder alpha beta (dx 0) 1 (F.rd m (F.cell2d u i0 j0 i1 j1 g) [bHi 0 - 1, j]) (F.rd m (F.cell2d u i0 j0 i1 j1 g) [bHi 0 - 2, j]) = some v := by
      by_cases h4 : btype = 4
      · rw [(ht h4).1, (ht h4).2]; exact g1
      · rw [← g1]; simp only [ghost, h4, if_false]
    have t := q1.2.1 rfl j ja jb v g3
    simpa using t
  · have t := q1'.2 rfl v (by rw [hb, hx, ← e (bHi 0 - 1) (by omega) (by omega), ← e (bHi 0 - 2) (by omega) (by omega)]; exact g2)
    simpa using t

example := C88_poisson_2d_i_upper_partial (T := Rat) (j := 1) (i0 := 0) (i1 := 3) (j0 := 0) (j1 := 3) (g := 1) (exOrder := 2) (btype := 4) (dx := exDx) (dx' := fun _ => exDx 0) (u := ⟨9, 0⟩) (u' := ⟨9, 0⟩) 
  (bLo := fun n => if n = 0 then -1 else 1) (bHi := fun n => if n = 0 then 4 else 2) (bLo' := fun _ => -1) (bHi' := fun _ => 4) (alpha := 2) (beta := 1) (alpha' := 3) (beta' := 5) (β := fun _ => revBackend) (β' := fun _ => seqBackend)
  (m := exWith [((F.cell2d ⟨9, 0⟩ 0 0 3 3 1), exRd (F.cell2d ⟨9, 0⟩ 0 0 3 3 1))])
  (m' := exWith [((F.cell1d ⟨9, 0⟩ 0 3 1), fun p => exRd (F.cell2d ⟨9, 0⟩ 0 0 3 3 1) [p.getD 0 0, 1])])
  (fun _ => revBackend_ok) (fun _ => seqBackend_ok) (by decide) (by decide) (by decide) (by ex_seg) (by ex_seg) rfl rfl (by ex_seg) (fun _ => ⟨rfl, rfl⟩) (.inr (.inr ⟨rfl, .inr rfl⟩)) (exWith_args (by ex_args)) (exWith_args (by ex_args))
  (exWith_rd (exRat_ok rfl (by decide) (by decide)) rfl rfl) (by decide) (by decide) (exWith_rd (exRat_ok rfl (by decide) (by decide)) rfl rfl) 

/-- `cd_correct_bc_2d_cuda::set_poisson_bc`, lower side of direction 1: each ghost value is the one that `cd_correct_bc_1d_cuda::set_poisson_bc` stores for the line through it.
Not for Dirichlet conditions of order 0, where nothing is stored; Robin conditions of this side are treated like C46 says, not as in 1D. -/
theorem C88_poisson_2d_j_lower_partial {i i0 i1 j0 j1 g exOrder btype : Int} {dx dx' : Nat → T} {u u' : Ptr} {bLo bHi bLo' bHi' : Nat → Int} {alpha beta alpha' beta' : T} {β β' : Nat → Backend} {m m' : Mem T} {U : List Int → T}
    (hβ : ∀ n, ValidBackend (β n)) (hβ' : ∀ n, ValidBackend (β' n)) (hi : i0 ≤ i1) (hj : j0 ≤ j1) (hg : 0 ≤ g)
    (hs : ∀ n < 2, InInt (bLo n + 1) ∧ InInt (bHi n + 1)) (hs' : InInt (bLo' 0 + 1) ∧ InInt (bHi' 0 + 1)) (hb : bLo' 0 = bLo 1) (hx : dx' 0 = dx 1)
    (hf : Reach j0 j1 g (bLo 1) 2 ∧ Meets i0 i1 (bLo 0) (bHi 0))
    (ht : btype ≠ 4) (ho : Stored btype exOrder)
    (h : F.Args m [] [F.cell2d u i0 j0 i1 j1 g]) (h' : F.Args m' [] [F.cell1d u' j0 j1 g])
    (hU : F.Holds m (F.cell2d u i0 j0 i1 j1 g) U) (ia : max i0 (bLo 0) ≤ i) (ib : i ≤ min i1 (bHi 0))
    (hU' : F.Holds m' (F.cell1d u' j0 j1 g) (fun p => U [i, p.getD 0 0])) :
    ∃ m1 m1' v, Cuda.setPoissonBc2d i0 i1 j0 j1 dx g u bLo bHi exOrder 2 1 btype alpha beta β m = .ok m1 ∧
      Cuda.setPoissonBc1d j0 j1 dx' g u' bLo' bHi' exOrder 0 btype alpha' beta' β' m' = .ok m1' ∧
      F.El m1 (F.cell2d u i0 j0 i1 j1 g) [i, bLo 1] v ∧ F.El m1' (F.cell1d u' j0 j1 g) [bLo' 0] v := by
  obtain ⟨m1, c1, q1⟩ := ghosts_p2d (dx := dx) (exOrder := exOrder) (face := 2) (btype := btype) (alpha := alpha) (beta := beta) hβ hi hj hg hs (fun e => absurd e (by decide)) (fun e => absurd e (by decide)) (fun _ => hf) (fun e => absurd e (by decide)) h
  have hs1 : ∀ n < 1, InInt (bLo' n + 1) ∧ InInt (bHi' n + 1) := fun n hn => by
    obtain rfl : n = 0 := by omega
    exact hs'
  obtain ⟨m1', c1', q1'⟩ := ghosts_p1d (dx := dx') (exOrder := exOrder) (face := 0) (btype := btype) (alpha := alpha') (beta := beta') (bLo := bLo') (bHi := bHi') hβ' hj hg hs1 (fun _ => by rw [hb]; exact hf.1) (fun e => absurd e (by decide)) h'
  have r := hf.1
  have rb : ∀ x, j0 - g ≤ x → x ≤ j1 + g → F.InBounds (F.cell2d u i0 j0 i1 j1 g).dims [i, x] := fun x xa xb => F.inBounds2.2 ⟨i, x, rfl, by simp only [max_le_iff, le_min_iff] at *; omega⟩
  have rb' : ∀ x, j0 - g ≤ x → x ≤ j1 + g → F.InBounds (F.cell1d u' j0 j1 g).dims [x] := fun x xa xb => F.inBounds1.2 ⟨x, rfl, by omega⟩
  unfold Reach at r
  have e : ∀ x, j0 - g ≤ x → x ≤ j1 + g → F.rd m (F.cell2d u i0 j0 i1 j1 g) [i, x] = F.rd m' (F.cell1d u' j0 j1 g) [x] := fun x xa xb => by
    rw [(hU _ (rb x xa xb)).rd, (hU' _ (rb' x xa xb)).rd]
    rfl
  obtain ⟨v, g1, g2⟩ := ho.ghost (alpha := alpha) (beta := beta) (w := dx 1) (b := 1) (x1 := F.rd m (F.cell2d u i0 j0 i1 j1 g) [i, bLo 1 + 1]) (x2 := F.rd m (F.cell2d u i0 j0 i1 j1 g) [i, bLo 1 + 2]) false false
  refine ⟨m1, m1', v, c1, c1', ?_, ?_⟩
  · have t := q1.2.2.1 rfl ht i ia ib v g1
    simpa using t
  · have g3 : ghost false btype exOrder 2 1 (dx 1) 1 (F.rd m (F.cell2d u i0 j0 i1 j1 g) [i, bLo 1 + 1]) (F.rd m (F.cell2d u i0 j0 i1 j1 g) [i, bLo 1 + 2]) = some v := by
      rw [← g2]; simp only [ghost, ht, if_false]
    have t := q1'.1 rfl v (by rw [hb, hx, ← e (bLo 1 + 1) (by omega) (by omega), ← e (bLo 1 + 2) (by omega) (by omega)]; exact g3)
    simpa using t

example := C88_poisson_2d_j_lower_partial (T := Rat) (i := 1) (i0 := 0) (i1 := 3) (j0 := 0) (j1 := 3) (g := 1) (exOrder := 2) (btype := 0) (dx := exDx) (dx' := fun _ => exDx 1) (u := ⟨9, 0⟩) (u' := ⟨9, 0⟩) 
  (bLo := fun n => if n = 1 then -1 else 1) (bHi := fun n => if n = 1 then 4 else 2) (bLo' := fun _ => -1) (bHi' := fun _ => 4) (alpha := 2) (beta := 1) (alpha' := 3) (beta' := 5) (β := fun _ => revBackend) (β' := fun _ => seqBackend)
  (m := exWith [((F.cell2d ⟨9, 0⟩ 0 0 3 3 1), exRd (F.cell2d ⟨9, 0⟩ 0 0 3 3 1))])
  (m' := exWith [((F.cell1d ⟨9, 0⟩ 0 3 1), fun p => exRd (F.cell2d ⟨9, 0⟩ 0 0 3 3 1) [1, p.getD 0 0])])
  (fun _ => revBackend_ok) (fun _ => seqBackend_ok) (by decide) (by decide) (by decide) (by ex_seg) (by ex_seg) rfl rfl (by ex_seg) (by decide) (.inl ⟨rfl, .inr rfl⟩) (exWith_args (by ex_args)) (exWith_args (by ex_args))
  (exWith_rd (exRat_ok rfl (by decide) (by decide)) rfl rfl) (by decide) (by decide) (exWith_rd (exRat_ok rfl (by decide) (by decide)) rfl rfl) 

/-- `cd_correct_bc_2d_cuda::set_poisson_bc`, upper side of direction 1: each ghost value is the one that `cd_correct_bc_1d_cuda::set_poisson_bc` stores for the line through it.
Not for Dirichlet conditions of order 0, where nothing is stored; Robin conditions of this side are treated like C46 says, not as in 1D. -/
theorem C88_poisson_2d_j_upper_partial {i i0 i1 j0 j1 g exOrder btype : Int} {dx dx' : Nat → T} {u u' : Ptr} {bLo bHi bLo' bHi' : Nat → Int} {alpha beta alpha' beta' : T} {β β' : Nat → Backend} {m m' : Mem T} {U : List Int → T}
    (hβ : ∀ n, ValidBackend (β n)) (hβ' : ∀ n, ValidBackend (β' n)) (hi : i0 ≤ i1) (hj : j0 ≤ j1) (hg : 0 ≤ g)
    (hs : ∀ n < 2, InInt (bLo n + 1) ∧ InInt (bHi n + 1)) (hs' : InInt (bLo' 0 + 1) ∧ InInt (bHi' 0 + 1)) (hb : bHi' 0 = bHi 1) (hx : dx' 0 = dx 1)
    (hf : Reach j0 j1 g (bHi 1) (-2) ∧ Meets i0 i1 (bLo 0) (bHi 0))
    (ht : btype ≠ 4) (ho : Stored btype exOrder)
    (h : F.Args m [] [F.cell2d u i0 j0 i1 j1 g]) (h' : F.Args m' [] [F.cell1d u' j0 j1 g])
    (hU : F.Holds m (F.cell2d u i0 j0 i1 j1 g) U) (ia : max i0 (bLo 0) ≤ i) (ib : i ≤ min i1 (bHi 0))
    (hU' : F.Holds m' (F.cell1d u' j0 j1 g) (fun p => U [i, p.getD 0 0])) :
    ∃ m1 m1' v, Cuda.setPoissonBc2d i0 i1 j0 j1 dx g u bLo bHi exOrder 3 1 btype alpha beta β m = .ok m1 ∧
      Cuda.setPoissonBc1d j0 j1 dx' g u' bLo' bHi' exOrder 1 btype alpha' beta' β' m' = .ok m1' ∧
      F.El m1 (F.cell2d u i0 j0 i1 j1 g) [i, bHi 1] v ∧ F.El m1' (F.cell1d u' j0 j1 g) [bHi' 0] v := by
  obtain ⟨m1, c1, q1⟩ := ghosts_p2d (dx := dx) (exOrder := exOrder) (face := 3) (btype := btype) (alpha := alpha) (beta := beta) hβ hi hj hg hs (fun e => absurd e (by decide)) (fun e => absurd e (by decide)) (fun e => absurd e (by decide)) (fun _ => hf) h
  have hs1 : ∀ n < 1, InInt (bLo' n + 1) ∧ InInt (bHi' n + 1) := fun n hn => by
    obtain rfl : n = 0 := by omega
    exact hs'
  obtain ⟨m1', c1', q1'⟩ := ghosts_p1d (dx := dx') (exOrder := exOrder) (face := 1) (btype := btype) (alpha := alpha') (beta := beta') (bLo := bLo') (bHi := bHi') hβ' hj hg hs1 (fun e => absurd e (by decide)) (fun _ => by rw [hb]; exact hf.1) h'
  have r := hf.1
  have rb : ∀ x, j0 - g ≤ x → x ≤ j1 + g → F.InBounds (F.cell2d u i0 j0 i1 j1 g).dims [i, x] := fun x xa xb => F.inBounds2.2 ⟨i, x, rfl, by simp only [max_le_iff, le_min_iff] at *; omega⟩
  have rb' : ∀ x, j0 - g ≤ x → x ≤ j1 + g → F.InBounds (F.cell1d u' j0 j1 g).dims [x] := fun x xa xb => F.inBounds1.2 ⟨x, rfl, by omega⟩
  unfold Reach at r
  have e : ∀ x, j0 - g ≤ x → x ≤ j1 + g → F.rd m (F.cell2d u i0 j0 i1 j1 g) [i, x] = F.rd m' (F.cell1d u' j0 j1 g) [x] := fun x xa xb => by
    rw [(hU _ (rb x xa xb)).rd, (hU' _ (rb' x xa xb)).rd]
    rfl
  obtain ⟨v, g1, g2⟩ := ho.ghost (alpha := alpha) (beta := beta) (w := dx 1) (b := 1) (x1 := F.rd m (F.cell2d u i0 j0 i1 j1 g) [i, bHi 1 - 1]) (x2 := F.rd m (F.cell2d u i0 j0 i1 j1 g) [i, bHi 1 - 2]) false false
  refine ⟨m1, m1', v, c1, c1', ?_, ?_⟩
  · have t := q1.2.2.2 rfl ht i ia ib v g1
    simpa using t
  · have g3 : ghost false btype exOrder 2 1 (dx 1) 1 (F.rd m (F.cell2d u i0 j0 i1 j1 g) [i, bHi 1 - 1]) (F.rd m (F.cell2d u i0 j0 i1 j1 g) [i, bHi 1 - 2]) = some v := by
      rw [← g2]; simp only [ghost, ht, if_false]
    have t := q1'.2 rfl v (by rw [hb, hx, ← e (bHi 1 - 1) (by omega) (by omega), ← e (bHi 1 - 2) (by omega) (by omega)]; exact g3)
    simpa using t

example := C88_poisson_2d_j_upper_partial (T := Rat) (i := 1) (i0 := 0) (i1 := 3) (j0 := 0) (j1 := 3) (g := 1) (exOrder := 2) (btype := 0) (dx := exDx) (dx' := fun _ => exDx 1) (u := ⟨9, 0⟩) (u' := ⟨9, 0⟩) 
  (bLo := fun n => if n = 1 then -1 else 1) (bHi := fun n => if n = 1 then 4 else 2) (bLo' := fun _ => -1) (bHi' := fun _ => 4) (alpha := 2) (beta := 1) (alpha' := 3) (beta' := 5) (β := fun _ => revBackend) (β' := fun _ => seqBackend)
  (m := exWith [((F.cell2d ⟨9, 0⟩ 0 0 3 3 1), exRd (F.cell2d ⟨9, 0⟩ 0 0 3 3 1))])
  (m' := exWith [((F.cell1d ⟨9, 0⟩ 0 3 1), fun p => exRd (F.cell2d ⟨9, 0⟩ 0 0 3 3 1) [1, p.getD 0 0])])
  (fun _ => revBackend_ok) (fun _ => seqBackend_ok) (by decide) (by decide) (by decide) (by ex_seg) (by ex_seg) rfl rfl (by ex_seg) (by decide) (.inl ⟨rfl, .inr rfl⟩) (exWith_args (by ex_args)) (exWith_args (by ex_args))
  (exWith_rd (exRat_ok rfl (by decide) (by decide)) rfl rfl) (by decide) (by decide) (exWith_rd (exRat_ok rfl (by decide) (by decide)) rfl rfl) 

/-- `cd_correct_bc_3d_cuda::set_bc`, lower side of direction 0: each ghost value is the one that `cd_correct_bc_1d_cuda::set_bc` stores for the line through it.
Not for Dirichlet conditions of order 0, where nothing is stored. -/
theorem C88_3d_i_lower_partial {j k i0 i1 j0 j1 k0 k1 g dg exOrder btype : Int} {dx dx' : Nat → T} {d0 d1 d2 d' u u' : Ptr} {bLo bHi bLo' bHi' : Nat → Int} {alpha beta : T} {β β' : Nat → Backend} {m m' : Mem T} {U D : List Int → T}
    (hβ : ∀ n, ValidBackend (β n)) (hβ' : ∀ n, ValidBackend (β' n)) (hi : i0 ≤ i1) (hj : j0 ≤ j1) (hk : k0 ≤ k1) (hg : 0 ≤ g) (hdg : 0 ≤ dg)
    (hs : ∀ n < 3, InInt (bLo n + 1) ∧ InInt (bHi n + 1)) (hs' : InInt (bLo' 0 + 1) ∧ InInt (bHi' 0 + 1)) (hb : bLo' 0 = bLo 0) (hx : dx' 0 = dx 0)
    (hf : Reach i0 i1 g (bLo 0) 2 ∧ OnFaces i0 i1 dg (bLo 0 + 1) ∧ Meets j0 j1 (bLo 1) (bHi 1) ∧ Meets k0 k1 (bLo 2) (bHi 2))
    (ho : Stored btype exOrder)
    (h : F.Args m [F.face3d0 d0 i0 j0 k0 i1 j1 k1 dg, F.face3d1 d1 i0 j0 k0 i1 j1 k1 dg, F.face3d2 d2 i0 j0 k0 i1 j1 k1 dg] [F.cell3d u i0 j0 k0 i1 j1 k1 g]) (h' : F.Args m' [F.face1d d' i0 i1 dg] [F.cell1d u' i0 i1 g])
    (hU : F.Holds m (F.cell3d u i0 j0 k0 i1 j1 k1 g) U) (hD : F.Holds m (F.face3d0 d0 i0 j0 k0 i1 j1 k1 dg) D) (ja : max j0 (bLo 1) ≤ j) (jb : j ≤ min j1 (bHi 1)) (ka : max k0 (bLo 2) ≤ k) (kb : k ≤ min k1 (bHi 2))
    (hU' : F.Holds m' (F.cell1d u' i0 i1 g) (fun p => U [p.getD 0 0, j, k])) (hD' : F.Holds m' (F.face1d d' i0 i1 dg) (fun p => D [p.getD 0 0, j, k])) :
    ∃ m1 m1' v, Cuda.setBc3d i0 i1 j0 j1 k0 k1 dx dg d0 d1 d2 g u bLo bHi exOrder 0 1 btype alpha beta β m = .ok m1 ∧
      Cuda.setBc1d i0 i1 dx' dg d' g u' bLo' bHi' exOrder 0 btype alpha beta β' m' = .ok m1' ∧
      F.El m1 (F.cell3d u i0 j0 k0 i1 j1 k1 g) [bLo 0, j, k] v ∧ F.El m1' (F.cell1d u' i0 i1 g) [bLo' 0] v := by
  obtain ⟨m1, c1, q1⟩ := ghosts_3d (dx := dx) (exOrder := exOrder) (face := 0) (btype := btype) (alpha := alpha) (beta := beta) hβ hi hj hk hg hdg hs (fun _ => hf) (fun e => absurd e (by decide)) (fun e => absurd e (by decide)) (fun e => absurd e (by decide)) (fun e => absurd e (by decide)) (fun e => absurd e (by decide)) h
  have hs1 : ∀ n < 1, InInt (bLo' n + 1) ∧ InInt (bHi' n + 1) := fun n hn => by
    obtain rfl : n = 0 := by omega
    exact hs'
  obtain ⟨m1', c1', q1'⟩ := ghosts_1d (dx := dx') (exOrder := exOrder) (face := 0) (btype := btype) (alpha := alpha) (beta := beta) (bLo := bLo') (bHi := bHi') hβ' hi hg hdg hs1 (fun _ => by rw [hb]; exact ⟨hf.1, hf.2.1⟩) (fun e => absurd e (by decide)) h'
  have r := hf.1
  have rb : ∀ x, i0 - g ≤ x → x ≤ i1 + g → F.InBounds (F.cell3d u i0 j0 k0 i1 j1 k1 g).dims [x, j, k] := fun x xa xb => F.inBounds3.2 ⟨x, j, k, rfl, by simp only [max_le_iff, le_min_iff] at *; omega⟩
  have rb' : ∀ x, i0 - g ≤ x → x ≤ i1 + g → F.InBounds (F.cell1d u' i0 i1 g).dims [x] := fun x xa xb => F.inBounds1.2 ⟨x, rfl, by omega⟩
  unfold Reach at r
  have e : ∀ x, i0 - g ≤ x → x ≤ i1 + g → F.rd m (F.cell3d u i0 j0 k0 i1 j1 k1 g) [x, j, k] = F.rd m' (F.cell1d u' i0 i1 g) [x] := fun x xa xb => by
    rw [(hU _ (rb x xa xb)).rd, (hU' _ (rb' x xa xb)).rd]
    rfl
  have o := hf.2.1
  unfold OnFaces at o
  have eb : F.rd m (F.face3d0 d0 i0 j0 k0 i1 j1 k1 dg) [bLo 0 + 1, j, k] = F.rd m' (F.face1d d' i0 i1 dg) [bLo 0 + 1] := by
    rw [(hD _ (F.inBounds3.2 ⟨bLo 0 + 1, j, k, rfl, by simp only [max_le_iff, le_min_iff] at *; omega⟩)).rd, (hD' _ (F.inBounds1.2 ⟨bLo 0 + 1, rfl, by omega⟩)).rd]
    rfl
  obtain ⟨v, g1, g2⟩ := ho.ghost (alpha := alpha) (beta := beta) (w := dx 0) (b := (F.rd m (F.face3d0 d0 i0 j0 k0 i1 j1 k1 dg) [bLo 0 + 1, j, k])) (x1 := F.rd m (F.cell3d u i0 j0 k0 i1 j1 k1 g) [bLo 0 + 1, j, k]) (x2 := F.rd m (F.cell3d u i0 j0 k0 i1 j1 k1 g) [bLo 0 + 2, j, k]) false false
  refine ⟨m1, m1', v, c1, c1', ?_, ?_⟩
  · have t := q1.1 rfl j ja jb k ka kb v g1
    simpa using t
  · have t := q1'.1 rfl v (by rw [hb, hx, ← eb, ← e (bLo 0 + 1) (by omega) (by omega), ← e (bLo 0 + 2) (by omega) (by omega)]; exact g2)
    simpa using t

example := C88_3d_i_lower_partial (T := Rat) (j := 1) (k := 2) (i0 := 0) (i1 := 3) (j0 := 0) (j1 := 3) (k0 := 0) (k1 := 3) (g := 1) (dg := 1) (exOrder := 2) (btype := 4) (dx := exDx) (dx' := fun _ => exDx 0) (u := ⟨9, 0⟩) (u' := ⟨9, 0⟩) (d0 := ⟨0, 0⟩) (d1 := ⟨1, 0⟩) (d2 := ⟨2, 0⟩) (d' := ⟨0, 0⟩)
  (bLo := fun n => if n = 0 then -1 else 1) (bHi := fun n => if n = 0 then 4 else 2) (bLo' := fun _ => -1) (bHi' := fun _ => 4) (alpha := 3) (beta := 5) (β := fun _ => revBackend) (β' := fun _ => seqBackend)
  (m := exWith [((F.cell3d ⟨9, 0⟩ 0 0 0 3 3 3 1), exRd (F.cell3d ⟨9, 0⟩ 0 0 0 3 3 3 1)), ((F.face3d0 ⟨0, 0⟩ 0 0 0 3 3 3 1), exRd (F.face3d0 ⟨0, 0⟩ 0 0 0 3 3 3 1))])
  (m' := exWith [((F.cell1d ⟨9, 0⟩ 0 3 1), fun p => exRd (F.cell3d ⟨9, 0⟩ 0 0 0 3 3 3 1) [p.getD 0 0, 1, 2]), ((F.face1d ⟨0, 0⟩ 0 3 1), fun p => exRd (F.face3d0 ⟨0, 0⟩ 0 0 0 3 3 3 1) [p.getD 0 0, 1, 2])])
  (fun _ => revBackend_ok) (fun _ => seqBackend_ok) (by decide) (by decide) (by decide) (by decide) (by decide) (by ex_seg) (by ex_seg) rfl rfl (by ex_seg) (.inr (.inr ⟨rfl, .inr rfl⟩)) (exWith_args (by ex_args)) (exWith_args (by ex_args))
  (exWith_rd (exRat_ok rfl (by decide) (by decide)) rfl rfl) (exWith_rd (exRat_ok rfl (by decide) (by decide)) rfl rfl) (by decide) (by decide) (by decide) (by decide) (exWith_rd (exRat_ok rfl (by decide) (by decide)) rfl rfl) (exWith_rd (exRat_ok rfl (by decide) (by decide)) rfl rfl) 

/-- `cd_correct_bc_3d_cuda::set_bc`, upper side of direction 0: each ghost value is the one that `cd_correct_bc_1d_cuda::set_bc` stores for the line through it.
Not for Dirichlet conditions of order 0, where nothing is stored. -/
theorem C88_3d_i_upper_partial {j k i0 i1 j0 j1 k0 k1 g dg exOrder btype : Int} {dx dx' : Nat → T} {d0 d1 d2 d' u u' : Ptr} {bLo bHi bLo' bHi' : Nat → Int} {alpha beta : T} {β β' : Nat → Backend} {m m' : Mem T} {U D : List Int → T}
    (hβ : ∀ n, ValidBackend (β n)) (hβ' : ∀ n, ValidBackend (β' n)) (hi : i0 ≤ i1) (hj : j0 ≤ j1) (hk : k0 ≤ k1) (hg : 0 ≤ g) (hdg : 0 ≤ dg)
    (hs : ∀ n < 3, InInt (bLo n + 1) ∧ InInt (bHi n + 1)) (hs' : InInt (bLo' 0 + 1) ∧ InInt (bHi' 0 + 1)) (hb : bHi' 0 = bHi 0) (hx : dx' 0 = dx 0)
    (hf : Reach i0 i1 g (bHi 0) (-2) ∧ OnFaces i0 i1 dg (bHi 0) ∧ Meets j0 j1 (bLo 1) (bHi 1) ∧ Meets k0 k1 (bLo 2) (bHi 2))
    (ho : Stored btype exOrder)
    (h : F.Args m [F.face3d0 d0 i0 j0 k0 i1 j1 k1 dg, F.face3d1 d1 i0 j0 k0 i1 j1 k1 dg, F.face3d2 d2 i0 j0 k0 i1 j1 k1 dg] [F.cell3d u i0 j0 k0 i1 j1 k1 g]) (h' : F.Args m' [F.face1d d' i0 i1 dg] [F.cell1d u' i0 i1 g])
    (hU : F.Holds m (F.cell3d u i0 j0 k0 i1 j1 k1 g) U) (hD : F.Holds m (F.face3d0 d0 i0 j0 k0 i1 j1 k1 dg) D) (ja : max j0 (bLo 1) ≤ j) (jb : j ≤ min j1 (bHi 1)) (ka : max k0 (bLo 2) ≤ k) (kb : k ≤ min k1 (bHi 2))
    (hU' : F.Holds m' (F.cell1d u' i0 i1 g) (fun p => U [p.getD 0 0, j, k])) (hD' : F.Holds m' (F.face1d d' i0 i1 dg) (fun p => D [p.getD 0 0, j, k])) :
    ∃ m1 m1' v, Cuda.setBc3d i0 i1 j0 j1 k0 k1 dx dg d0 d1 d2 g u bLo bHi exOrder 1 1 btype alpha beta β m = .ok m1 ∧
      Cuda.setBc1d i0 i1 dx' dg d' g u' bLo' bHi' exOrder 1 btype alpha beta β' m' = .ok m1' ∧
      F.El m1 (F.cell3d u i0 j0 k0 i1 j1 k1 g) [bHi 0, j, k] v ∧ F.El m1' (F.cell1d u' i0 i1 g) [bHi' 0] v := by
  obtain ⟨m1, c1, q1⟩ := ghosts_3d (dx := dx) (exOrder := exOrder) (face := 1) (btype := btype) (alpha := alpha) (beta := beta) hβ hi hj hk hg hdg hs (fun e => absurd e (by decide)) (fun _ => hf) (fun e => absurd e (by decide)) (fun e => absurd e (by decide)) (fun e => absurd e (by decide)) (fun e => absurd e (by decide)) h
  have hs1 : ∀ n < 1, InInt (bLo' n + 1) ∧ InInt (bHi' n + 1) := fun n hn => by
    obtain rfl : n = 0 := by omega
    exact hs'
  obtain ⟨m1', c1', q1'⟩ := ghosts_1d (dx := dx') (exOrder := exOrder) (face := 1) (btype := btype) (alpha := alpha) (beta := beta) (bLo := bLo') (bHi := bHi') hβ' hi hg hdg hs1 (fun e => absurd e (by decide)) (fun _ => by rw [hb]; exact ⟨hf.1, hf.2.1⟩) h'
  have r := hf.1
  have rb : ∀ x, i0 - g ≤ x → x ≤ i1 + g → F.InBounds (F.cell3d u i0 j0 k0 i1 j1 k1 g).dims [x, j, k] := fun x xa xb => F.inBounds3.2 ⟨x, j, k, rfl, by simp only [max_le_iff, le_min_iff] at *; omega⟩
  have rb' : ∀ x, i0 - g ≤ x → x ≤ i1 + g → F.InBounds (F.cell1d u' i0 i1 g).dims [x] := fun x xa xb => F.inBounds1.2 ⟨x, rfl, by omega⟩
  unfold Reach at r
  have e : ∀ x, i0 - g ≤ x → x ≤ i1 + g → F.rd m (F.cell3d u i0 j0 k0 i1 j1 k1 g) [x, j, k] = F.rd m' (F.cell1d u' i0 i1 g) [x] := fun x xa xb => by
    rw [(hU _ (rb x xa xb)).rd, (hU' _ (rb' x xa xb)).rd]
    rfl
  have o := hf.2.1
  unfold OnFaces at o
  have eb : F.rd m (F.face3d0 d0 i0 j0 k0 i1 j1 k1 dg) [bHi 0, j, k] = F.rd m' (F.face1d d' i0 i1 dg) [bHi 0] := by
    rw [(hD _ (F.inBounds3.2 ⟨bHi 0, j, k, rfl, by simp only [max_le_iff, le_min_iff] at *; omega⟩)).rd, (hD' _ (F.inBounds1.2 ⟨bHi 0, rfl, by omega⟩)).rd]
    rfl
  obtain ⟨v, g1, g2⟩ := ho.ghost (alpha := alpha) (beta := beta) (w := dx 0) (b := (F.rd m (F.face3d0 d0 i0 j0 k0 i1 j1 k1 dg) [bHi 0, j, k])) (x1 := F.rd m (F.cell3d u i0 j0 k0 i1 j1 k1 g) [bHi 0 - 1, j, k]) (x2 := F.rd m (F.cell3d u i0 j0 k0 i1 j1 k1 g) [bHi 0 - 2, j, k]) false false
  refine ⟨m1, m1', v, c1, c1', ?_, ?_⟩
  · have t := q1.2.1 rfl j ja jb k ka kb v g1
    simpa using t
  · have t := q1'.2 rfl v (by rw [hb, hx, ← eb, ← e (bHi 0 - 1) (by omega) (by omega), ← e (bHi 0 - 2) (by omega) (by omega)]; exact g2)
    simpa using t

example := C88_3d_i_upper_partial (T := Rat) (j := 1) (k := 2) (i0 := 0) (i1 := 3) (j0 := 0) (j1 := 3) (k0 := 0) (k1 := 3) (g := 1) (dg := 1) (exOrder := 2) (btype := 4) (dx := exDx) (dx' := fun _ => exDx 0) (u := ⟨9, 0⟩) (u' := ⟨9, 0⟩) (d0 := ⟨0, 0⟩) (d1 := ⟨1, 0⟩) (d2 := ⟨2, 0⟩) (d' := ⟨0, 0⟩)
  (bLo := fun n => if n = 0 then -1 else 1) (bHi := fun n => if n = 0 then 4 else 2) (bLo' := fun _ => -1) (bHi' := fun _ => 4) (alpha := 3) (beta := 5) (β := fun _ => revBackend) (β' := fun _ => seqBackend)
  (m := exWith [((F.cell3d ⟨9, 0⟩ 0 0 0 3 3 3 1), exRd (F.cell3d ⟨9, 0⟩ 0 0 0 3 3 3 1)), ((F.face3d0 ⟨0, 0⟩ 0 0 0 3 3 3 1), exRd (F.face3d0 ⟨0, 0⟩ 0 0 0 3 3 3 1))])
  (m' := exWith [((F.cell1d ⟨9, 0⟩ 0 3 1), fun p => exRd (F.cell3d ⟨9, 0⟩ 0 0 0 3 3 3 1) [p.getD 0 0, 1, 2]), ((F.face1d ⟨0, 0⟩ 0 3 1), fun p => exRd (F.face3d0 ⟨0, 0⟩ 0 0 0 3 3 3 1) [p.getD 0 0, 1, 2])])
  (fun _ => revBackend_ok) (fun _ => seqBackend_ok) (by decide) (by decide) (by decide) (by decide) (by decide) (by ex_seg) (by ex_seg) rfl rfl (by ex_seg) (.inr (.inr ⟨rfl, .inr rfl⟩)) (exWith_args (by ex_args)) (exWith_args (by ex_args))
  (exWith_rd (exRat_ok rfl (by decide) (by decide)) rfl rfl) (exWith_rd (exRat_ok rfl (by decide) (by decide)) rfl rfl) (by decide) (by decide) (by decide) (by decide) (exWith_rd (exRat_ok rfl (by decide) (by decide)) rfl rfl) (exWith_rd (exRat_ok rfl (by decide) (by decide)) rfl rfl) 

/-- `cd_correct_bc_3d_cuda::set_bc`, lower side of direction 1: each ghost value is the one that `cd_correct_bc_1d_cuda::set_bc` stores for the line through it.
Not for Dirichlet conditions of order 0, where nothing is stored. -/
theorem C88_3d_j_lower_partial {i k i0 i1 j0 j1 k0 k1 g dg exOrder btype : Int} {dx dx' : Nat → T} {d0 d1 d2 d' u u' : Ptr} {bLo bHi bLo' bHi' : Nat → Int} {alpha beta : T} {β β' : Nat → Backend} {m m' : Mem T} {U D : List Int → T}
    (hβ : ∀ n, ValidBackend (β n)) (hβ' : ∀ n, ValidBackend (β' n)) (hi : i0 ≤ i1) (hj : j0 ≤ j1) (hk : k0 ≤ k1) (hg : 0 ≤ g) (hdg : 0 ≤ dg)
    (hs : ∀ n < 3, InInt (bLo n + 1) ∧ InInt (bHi n + 1)) (hs' : InInt (bLo' 0 + 1) ∧ InInt (bHi' 0 + 1)) (hb : bLo' 0 = bLo 1) (hx : dx' 0 = dx 1)
    (hf : Reach j0 j1 g (bLo 1) 2 ∧ OnFaces j0 j1 dg (bLo 1 + 1) ∧ Meets i0 i1 (bLo 0) (bHi 0) ∧ Meets k0 k1 (bLo 2) (bHi 2))
    (ho : Stored btype exOrder)
    (h : F.Args m [F.face3d0 d0 i0 j0 k0 i1 j1 k1 dg, F.face3d1 d1 i0 j0 k0 i1 j1 k1 dg, F.face3d2 d2 i0 j0 k0 i1 j1 k1 dg] [F.cell3d u i0 j0 k0 i1 j1 k1 g]) (h' : F.Args m' [F.face1d d' j0 j1 dg] [F.cell1d u' j0 j1 g])
    (hU : F.Holds m (F.cell3d u i0 j0 k0 i1 j1 k1 g) U) (hD : F.Holds m (F.face3d1 d1 i0 j0 k0 i1 j1 k1 dg) D) (ia : max i0 (bLo 0) ≤ i) (ib : i ≤ min i1 (bHi 0)) (ka : max k0 (bLo 2) ≤ k) (kb : k ≤ min k1 (bHi 2))
    (hU' : F.Holds m' (F.cell1d u' j0 j1 g) (fun p => U [i, p.getD 0 0, k])) (hD' : F.Holds m' (F.face1d d' j0 j1 dg) (fun p => D [p.getD 0 0, k, i])) :
    ∃ m1 m1' v, Cuda.setBc3d i0 i1 j0 j1 k0 k1 dx dg d0 d1 d2 g u bLo bHi exOrder 2 1 btype alpha beta β m = .ok m1 ∧
      Cuda.setBc1d j0 j1 dx' dg d' g u' bLo' bHi' exOrder 0 btype alpha beta β' m' = .ok m1' ∧
      F.El m1 (F.cell3d u i0 j0 k0 i1 j1 k1 g) [i, bLo 1, k] v ∧ F.El m1' (F.cell1d u' j0 j1 g) [bLo' 0] v := by
  obtain ⟨m1, c1, q1⟩ := ghosts_3d (dx := dx) (exOrder := exOrder) (face := 2) (btype := btype) (alpha := alpha) (beta := beta) hβ hi hj hk hg hdg hs (fun e => absurd e (by decide)) (fun e => absurd e (by decide)) (fun _ => hf) (fun e => absurd e (by decide)) (fun e => absurd e (by decide)) (fun e => absurd e (by decide)) h
  have hs1 : ∀ n < 1, InInt (bLo' n + 1) ∧ InInt (bHi' n + 1) := fun n hn => by
    obtain rfl : n = 0 := by omega
    exact hs'
  obtain ⟨m1', c1', q1'⟩ := ghosts_1d (dx := dx') (exOrder := exOrder) (face := 0) (btype := btype) (alpha := alpha) (beta := beta) (bLo := bLo') (bHi := bHi') hβ' hj hg hdg hs1 (fun _ => by rw [hb]; exact ⟨hf.1, hf.2.1⟩) (fun e => absurd e (by decide)) h'
  have r := hf.1
  have rb : ∀ x, j0 - g ≤ x → x ≤ j1 + g → F.InBounds (F.cell3d u i0 j0 k0 i1 j1 k1 g).dims [i, x, k] := fun x xa xb => F.inBounds3.2 ⟨i, x, k, rfl, by simp only [max_le_iff, le_min_iff] at *; omega⟩
  have rb' : ∀ x, j0 - g ≤ x → x ≤ j1 + g → F.InBounds (F.cell1d u' j0 j1 g).dims [x] := fun x xa xb => F.inBounds1.2 ⟨x, rfl, by omega⟩
  unfold Reach at r
  have e : ∀ x, j0 - g ≤ x → x ≤ j1 + g → F.rd m (F.cell3d u i0 j0 k0 i1 j1 k1 g) [i, x, k] = F.rd m' (F.cell1d u' j0 j1 g) [x] := fun x xa xb => by
    rw [(hU _ (rb x xa xb)).rd, (hU' _ (rb' x xa xb)).rd]
    rfl
  have o := hf.2.1
  unfold OnFaces at o
  have eb : F.rd m (F.face3d1 d1 i0 j0 k0 i1 j1 k1 dg) [bLo 1 + 1, k, i] = F.rd m' (F.face1d d' j0 j1 dg) [bLo 1 + 1] := by
    rw [(hD _ (F.inBounds3.2 ⟨bLo 1 + 1, k, i, rfl, by simp only [max_le_iff, le_min_iff] at *; omega⟩)).rd, (hD' _ (F.inBounds1.2 ⟨bLo 1 + 1, rfl, by omega⟩)).rd]
    rfl
  obtain ⟨v, g1, g2⟩ := ho.ghost (alpha := alpha) (beta := beta) (w := dx 1) (b := (F.rd m (F.face3d1 d1 i0 j0 k0 i1 j1 k1 dg) [bLo 1 + 1, k, i])) (x1 := F.rd m (F.cell3d u i0 j0 k0 i1 j1 k1 g) [i, bLo 1 + 1, k]) (x2 := F.rd m (F.cell3d u i0 j0 k0 i1 j1 k1 g) [i, bLo 1 + 2, k]) false false
  refine ⟨m1, m1', v, c1, c1', ?_, ?_⟩
  · have t := q1.2.2.1 rfl i ia ib k ka kb v g1
    simpa using t
  · have t := q1'.1 rfl v (by rw [hb, hx, ← eb, ← e (bLo 1 + 1) (by omega) (by omega), ← e (bLo 1 + 2) (by omega) (by omega)]; exact g2)
    simpa using t

example := C88_3d_j_lower_partial (T := Rat) (i := 1) (k := 2) (i0 := 0) (i1 := 3) (j0 := 0) (j1 := 3) (k0 := 0) (k1 := 3) (g := 1) (dg := 1) (exOrder := 2) (btype := 4) (dx := exDx) (dx' := fun _ => exDx 1) (u := ⟨9, 0⟩) (u' := ⟨9, 0⟩) (d0 := ⟨0, 0⟩) (d1 := ⟨1, 0⟩) (d2 := ⟨2, 0⟩) (d' := ⟨0, 0⟩)
  (bLo := fun n => if n = 1 then -1 else 1) (bHi := fun n => if n = 1 then 4 else 2) (bLo' := fun _ => -1) (bHi' := fun _ => 4) (alpha := 3) (beta := 5) (β := fun _ => revBackend) (β' := fun _ => seqBackend)
  (m := exWith [((F.cell3d ⟨9, 0⟩ 0 0 0 3 3 3 1), exRd (F.cell3d ⟨9, 0⟩ 0 0 0 3 3 3 1)), ((F.face3d1 ⟨1, 0⟩ 0 0 0 3 3 3 1), exRd (F.face3d1 ⟨1, 0⟩ 0 0 0 3 3 3 1))])
  (m' := exWith [((F.cell1d ⟨9, 0⟩ 0 3 1), fun p => exRd (F.cell3d ⟨9, 0⟩ 0 0 0 3 3 3 1) [1, p.getD 0 0, 2]), ((F.face1d ⟨0, 0⟩ 0 3 1), fun p => exRd (F.face3d1 ⟨1, 0⟩ 0 0 0 3 3 3 1) [p.getD 0 0, 2, 1])])
  (fun _ => revBackend_ok) (fun _ => seqBackend_ok) (by decide) (by decide) (by decide) (by decide) (by decide) (by ex_seg) (by ex_seg) rfl rfl (by ex_seg) (.inr (.inr ⟨rfl, .inr rfl⟩)) (exWith_args (by ex_args)) (exWith_args (by ex_args))
  (exWith_rd (exRat_ok rfl (by decide) (by decide)) rfl rfl) (exWith_rd (exRat_ok rfl (by decide) (by decide)) rfl rfl) (by decide) (by decide) (by decide) (by decide) (exWith_rd (exRat_ok rfl (by decide) (by decide)) rfl rfl) (exWith_rd (exRat_ok rfl (by decide) (by decide)) rfl rfl) 

/-- `cd_correct_bc_3d_cuda::set_bc`, upper side of direction 1: each ghost value is the one that `cd_correct_bc_1d_cuda::set_bc` stores for the line through it.
Not for Dirichlet conditions of order 0, where nothing is stored. -/
theorem C88_3d_j_upper_partial {i k i0 i1 j0 j1 k0 k1 g dg exOrder btype : Int} {dx dx' : Nat → T} {d0 d1 d2 d' u u' : Ptr} {bLo bHi bLo' bHi' : Nat → Int} {alpha beta : T} {β β' : Nat → Backend} {m m' : Mem T} {U D : List Int → T}
    (hβ : ∀ n, ValidBackend (β n)) (hβ' : ∀ n, ValidBackend (β' n)) (hi : i0 ≤ i1) (hj : j0 ≤ j1) (hk : k0 ≤ k1) (hg : 0 ≤ g) (hdg : 0 ≤ dg)
    (hs : ∀ n < 3, InInt (bLo n + 1) ∧ InInt (bHi n + 1)) (hs' : InInt (bLo' 0 + 1) ∧ InInt (bHi' 0 + 1)) (hb : bHi' 0 = bHi 1) (hx : dx' 0 = dx 1)
    (hf : Reach j0 j1 g (bHi 1) (-2) ∧ OnFaces j0 j1 dg (bHi 1) ∧ Meets i0 i1 (bLo 0) (bHi 0) ∧ Meets k0 k1 (bLo 2) (bHi 2))
    (ho : Stored btype exOrder)
    (h : F.Args m [F.face3d0 d0 i0 j0 k0 i1 j1 k1 dg, F.face3d1 d1 i0 j0 k0 i1 j1 k1 dg, F.face3d2 d2 i0 j0 k0 i1 j1 k1 dg] [F.cell3d u i0 j0 k0 i1 j1 k1 g]) (h' : F.Args m' [F.face1d d' j0 j1 dg] [F.cell1d u' j0 j1 g])
    (hU : F.Holds m (F.cell3d u i0 j0 k0 i1 j1 k1 g) U) (hD : F.Holds m (F.face3d1 d1 i0 j0 k0 i1 j1 k1 dg) D) (ia : max i0 (bLo 0) ≤ i) (ib : i ≤ min i1 (bHi 0)) (ka : max k0 (bLo 2) ≤ k) (kb : k ≤ min k1 (bHi 2))
    (hU' : F.Holds m' (F.cell1d u' j0 j1 g) (fun p => U [i, p.getD 0 0, k])) (hD' : F.Holds m' (F.face1d d' j0 j1 dg) (fun p => D [p.getD 0 0, k, i])) :
    ∃ m1 m1' v, Cuda.setBc3d i0 i1 j0 j1 k0 k1 dx dg d0 d1 d2 g u bLo bHi exOrder 3 1 btype alpha beta β m = .ok m1 ∧
      Cuda.setBc1d j0 j1 dx' dg d' g u' bLo' bHi' exOrder 1 btype alpha beta β' m' = .ok m1' ∧
      F.El m1 (F.cell3d u i0 j0 k0 i1 j1 k1 g) [i, bHi 1, k] v ∧ F.El m1' (F.cell1d u' j0 j1 g) [bHi' 0] v := by
  obtain ⟨m1, c1, q1⟩ := ghosts_3d (dx := dx) (exOrder := exOrder) (face := 3) (btype := btype) (alpha := alpha) (beta := beta) hβ hi hj hk hg hdg hs (fun e => absurd e (by decide)) (fun e => absurd e (by decide)) (fun e => absurd e (by decide)) (fun _ => hf) (fun e => absurd e (by decide)) (fun e => absurd e (by decide)) h
  have hs1 : ∀ n < 1, InInt (bLo' n + 1) ∧ InInt (bHi' n + 1) := fun n hn => by
    obtain rfl : n = 0 := by omega
    exact hs'
  obtain ⟨m1', c1', q1'⟩ := ghosts_1d (dx := dx') (exOrder := exOrder) (face := 1) (btype := btype) (alpha := alpha) (beta := beta) (bLo := bLo') (bHi := bHi') hβ' hj hg hdg hs1 (fun e => absurd e (by decide)) (fun _ => by rw [hb]; exact ⟨hf.1, hf.2.1⟩) h'
  have r := hf.1
  have rb : ∀ x, j0 - g ≤ x → x ≤ j1 + g → F.InBounds (F.cell3d u i0 j0 k0 i1 j1 k1 g).dims [i, x, k] := fun x xa xb => F.inBounds3.2 ⟨i, x, k, rfl, by simp only [max_le_iff, le_min_iff] at *; omega⟩
  have rb' : ∀ x, j0 - g ≤ x → x ≤ j1 + g → F.InBounds (F.cell1d u' j0 j1 g).dims [x] := fun x xa xb => F.inBounds1.2 ⟨x, rfl, by omega⟩
  unfold Reach at r
  have e : ∀ x, j0 - g ≤ x → x ≤ j1 + g → F.rd m (F.cell3d u i0 j0 k0 i1 j1 k1 g) [i, x, k] = F.rd m' (F.cell1d u' j0 j1 g) [x] := fun x xa xb => by
    rw [(hU _ (rb x xa xb)).rd, (hU' _ (rb' x xa xb)).rd]
    rfl
  have o := hf.2.1
  unfold OnFaces at o
  have eb : F.rd m (F.face3d1 d1 i0 j0 k0 i1 j1 k1 dg) [bHi 1, k, i] = F.rd m' (F.face1d d' j0 j1 dg) [bHi 1] := by
    rw [(hD _ (F.inBounds3.2 ⟨bHi 1, k, i, rfl, by simp only [max_le_iff, le_min_iff] at *; omega⟩)).rd, (hD' _ (F.inBounds1.2 ⟨bHi 1, rfl, by omega⟩)).rd]
    rfl
  obtain ⟨v, g1, g2⟩ := ho.ghost (alpha := alpha) (beta := beta) (w := dx 1) (b := (F.rd m (F.face3d1 d1 i0 j0 k0 i1 j1 k1 dg) [bHi 1, k, i])) (x1 := F.rd m (F.cell3d u i0 j0 k0 i1 j1 k1 g) [i, bHi 1 - 1, k]) (x2 := F.rd m (F.cell3d u i0 j0 k0 i1 j1 k1 g) [i, bHi 1 - 2, k]) false false
  refine ⟨m1, m1', v, c1, c1', ?_, ?_⟩
  · have t := q1.2.2.2.1 rfl i ia ib k ka kb v g1
    simpa using t
  · have t := q1'.2 rfl v (by rw [hb, hx, ← eb, ← e (bHi 1 - 1) (by omega) (by omega), ← e (bHi 1 - 2) (by omega) (by omega)]; exact g2)
    simpa using t

example := C88_3d_j_upper_partial (T := Rat) (i := 1) (k := 2) (i0 := 0) (i1 := 3) (j0 := 0) (j1 := 3) (k0 := 0) (k1 := 3) (g := 1) (dg := 1) (exOrder := 2) (btype := 4) (dx := exDx) (dx' := fun _ => exDx 1) (u := ⟨9, 0⟩) (u' := ⟨9, 0⟩) (d0 := ⟨0, 0⟩) (d1 := ⟨1, 0⟩) (d2 := ⟨2, 0⟩) (d' := ⟨0, 0⟩)
  (bLo := fun n => if n = 1 then -1 else 1) (bHi := fun n => if n = 1 then 4 else 2) (bLo' := fun _ => -1) (bHi' := fun _ => 4) (alpha := 3) (beta := 5) (β := fun _ => revBackend) (β' := fun _ => seqBackend)
  (m := exWith [((F.cell3d ⟨9, 0⟩ 0 0 0 3 3 3 1), exRd (F.cell3d ⟨9, 0⟩ 0 0 0 3 3 3 1)), ((F.face3d1 ⟨1, 0⟩ 0 0 0 3 3 3 1), exRd (F.face3d1 ⟨1, 0⟩ 0 0 0 3 3 3 1))])
  (m' := exWith [((F.cell1d ⟨9, 0⟩ 0 3 1), fun p => exRd (F.cell3d ⟨9, 0⟩ 0 0 0 3 3 3 1) [1, p.getD 0 0, 2]), ((F.face1d ⟨0, 0⟩ 0 3 1), fun p => exRd (F.face3d1 ⟨1, 0⟩ 0 0 0 3 3 3 1) [p.getD 0 0, 2, 1])])
  (fun _ => revBackend_ok) (fun _ => seqBackend_ok) (by decide) (by decide) (by decide) (by decide) (by decide) (by ex_seg) (by ex_seg) rfl rfl (by ex_seg) (.inr (.inr ⟨rfl, .inr rfl⟩)) (exWith_args (by ex_args)) (exWith_args (by ex_args))
  (exWith_rd (exRat_ok rfl (by decide) (by decide)) rfl rfl) (exWith_rd (exRat_ok rfl (by decide) (by decide)) rfl rfl) (by decide) (by decide) (by decide) (by decide) (exWith_rd (exRat_ok rfl (by decide) (by decide)) rfl rfl) (exWith_rd (exRat_ok rfl (by decide) (by decide)) rfl rfl) 

/-- `cd_correct_bc_3d_cuda::set_bc`, lower side of direction 2: each ghost value is the one that `cd_correct_bc_1d_cuda::set_bc` stores for the line through it.
Not for Dirichlet conditions of order 0, where nothing is stored. -/
theorem C88_3d_k_lower_partial {i j i0 i1 j0 j1 k0 k1 g dg exOrder btype : Int} {dx dx' : Nat → T} {d0 d1 d2 d' u u' : Ptr} {bLo bHi bLo' bHi' : Nat → Int} {alpha beta : T} {β β' : Nat → Backend} {m m' : Mem T} {U D : List Int → T}
    (hβ : ∀ n, ValidBackend (β n)) (hβ' : ∀ n, ValidBackend (β' n)) (hi : i0 ≤ i1) (hj : j0 ≤ j1) (hk : k0 ≤ k1) (hg : 0 ≤ g) (hdg : 0 ≤ dg)
    (hs : ∀ n < 3, InInt (bLo n + 1) ∧ InInt (bHi n + 1)) (hs' : InInt (bLo' 0 + 1) ∧ InInt (bHi' 0 + 1)) (hb : bLo' 0 = bLo 2) (hx : dx' 0 = dx 2)
    (hf : Reach k0 k1 g (bLo 2) 2 ∧ OnFaces k0 k1 dg (bLo 2 + 1) ∧ Meets i0 i1 (bLo 0) (bHi 0) ∧ Meets j0 j1 (bLo 1) (bHi 1))
    (ho : Stored btype exOrder)
    (h : F.Args m [F.face3d0 d0 i0 j0 k0 i1 j1 k1 dg, F.face3d1 d1 i0 j0 k0 i1 j1 k1 dg, F.face3d2 d2 i0 j0 k0 i1 j1 k1 dg] [F.cell3d u i0 j0 k0 i1 j1 k1 g]) (h' : F.Args m' [F.face1d d' k0 k1 dg] [F.cell1d u' k0 k1 g])
    (hU : F.Holds m (F.cell3d u i0 j0 k0 i1 j1 k1 g) U) (hD : F.Holds m (F.face3d2 d2 i0 j0 k0 i1 j1 k1 dg) D) (ia : max i0 (bLo 0) ≤ i) (ib : i ≤ min i1 (bHi 0)) (ja : max j0 (bLo 1) ≤ j) (jb : j ≤ min j1 (bHi 1))
    (hU' : F.Holds m' (F.cell1d u' k0 k1 g) (fun p => U [i, j, p.getD 0 0])) (hD' : F.Holds m' (F.face1d d' k0 k1 dg) (fun p => D [p.getD 0 0, i, j])) :
    ∃ m1 m1' v, Cuda.setBc3d i0 i1 j0 j1 k0 k1 dx dg d0 d1 d2 g u bLo bHi exOrder 4 1 btype alpha beta β m = .ok m1 ∧
      Cuda.setBc1d k0 k1 dx' dg d' g u' bLo' bHi' exOrder 0 btype alpha beta β' m' = .ok m1' ∧
      F.El m1 (F.cell3d u i0 j0 k0 i1 j1 k1 g) [i, j, bLo 2] v ∧ F.El m1' (F.cell1d u' k0 k1 g) [bLo' 0] v := by
  obtain ⟨m1, c1, q1⟩ := ghosts_3d (dx := dx) (exOrder := exOrder) (face := 4) (btype := btype) (alpha := alpha) (beta := beta) hβ hi hj hk hg hdg hs (fun e => absurd e (by decide)) (fun e => absurd e (by decide)) (fun e => absurd e (by decide)) (fun e => absurd e (by decide)) (fun _ => hf) (fun e => absurd e (by decide)) h
  have hs1 : ∀ n < 1, InInt (bLo' n + 1) ∧ InInt (bHi' n + 1) := fun n hn => by
    obtain rfl : n = 0 := by omega
    exact hs'
  obtain ⟨m1', c1', q1'⟩ := ghosts_1d (dx := dx') (exOrder := exOrder) (face := 0) (btype := btype) (alpha := alpha) (beta := beta) (bLo := bLo') (bHi := bHi') hβ' hk hg hdg hs1 (fun _ => by rw [hb]; exact ⟨hf.1, hf.2.1⟩) (fun e => absurd e (by decide)) h'
  have r := hf.1
  have rb : ∀ x, k0 - g ≤ x → x ≤ k1 + g → F.InBounds (F.cell3d u i0 j0 k0 i1 j1 k1 g).dims [i, j, x] := fun x xa xb => F.inBounds3.2 ⟨i, j, x, rfl, by simp only [max_le_iff, le_min_iff] at *; omega⟩
  have rb' : ∀ x, k0 - g ≤ x → x ≤ k1 + g → F.InBounds (F.cell1d u' k0 k1 g).dims [x] := fun x xa xb => F.inBounds1.2 ⟨x, rfl, by omega⟩
  unfold Reach at r
  have e : ∀ x, k0 - g ≤ x → x ≤ k1 + g → F.rd m (F.cell3d u i0 j0 k0 i1 j1 k1 g) [i, j, x] = F.rd m' (F.cell1d u' k0 k1 g) [x] := fun x xa xb => by
    rw [(hU _ (rb x xa xb)).rd, (hU' _ (rb' x xa xb)).rd]
    rfl
  have o := hf.2.1
  unfold OnFaces at o
  have eb : F.rd m (F.face3d2 d2 i0 j0 k0 i1 j1 k1 dg) [bLo 2 + 1, i, j] = F.rd m' (F.face1d d' k0 k1 dg) [bLo 2 + 1] := by
    rw [(hD _ (F.inBounds3.2 ⟨bLo 2 + 1, i, j, rfl, by simp only [max_le_iff, le_min_iff] at *; omega⟩)).rd, (hD' _ (F.inBounds1.2 ⟨bLo 2 + 1, rfl, by omega⟩)).rd]
    rfl
  obtain ⟨v, g1, g2⟩ := ho.ghost (alpha := alpha) (beta := beta) (w := dx 2) (b := (F.rd m (F.face3d2 d2 i0 j0 k0 i1 j1 k1 dg) [bLo 2 + 1, i, j])) (x1 := F.rd m (F.cell3d u i0 j0 k0 i1 j1 k1 g) [i, j, bLo 2 + 1]) (x2 := F.rd m (F.cell3d u i0 j0 k0 i1 j1 k1 g) [i, j, bLo 2 + 2]) false false
  refine ⟨m1, m1', v, c1, c1', ?_, ?_⟩
  · have t := q1.2.2.2.2.1 rfl i ia ib j ja jb v g1
    simpa using t
  · have t := q1'.1 rfl v (by rw [hb, hx, ← eb, ← e (bLo 2 + 1) (by omega) (by omega), ← e (bLo 2 + 2) (by omega) (by omega)]; exact g2)
    simpa using t

example := C88_3d_k_lower_partial (T := Rat) (i := 1) (j := 2) (i0 := 0) (i1 := 3) (j0 := 0) (j1 := 3) (k0 := 0) (k1 := 3) (g := 1) (dg := 1) (exOrder := 2) (btype := 4) (dx := exDx) (dx' := fun _ => exDx 2) (u := ⟨9, 0⟩) (u' := ⟨9, 0⟩) (d0 := ⟨0, 0⟩) (d1 := ⟨1, 0⟩) (d2 := ⟨2, 0⟩) (d' := ⟨0, 0⟩)
  (bLo := fun n => if n = 2 then -1 else 1) (bHi := fun n => if n = 2 then 4 else 2) (bLo' := fun _ => -1) (bHi' := fun _ => 4) (alpha := 3) (beta := 5) (β := fun _ => revBackend) (β' := fun _ => seqBackend)
  (m := exWith [((F.cell3d ⟨9, 0⟩ 0 0 0 3 3 3 1), exRd (F.cell3d ⟨9, 0⟩ 0 0 0 3 3 3 1)), ((F.face3d2 ⟨2, 0⟩ 0 0 0 3 3 3 1), exRd (F.face3d2 ⟨2, 0⟩ 0 0 0 3 3 3 1))])
  (m' := exWith [((F.cell1d ⟨9, 0⟩ 0 3 1), fun p => exRd (F.cell3d ⟨9, 0⟩ 0 0 0 3 3 3 1) [1, 2, p.getD 0 0]), ((F.face1d ⟨0, 0⟩ 0 3 1), fun p => exRd (F.face3d2 ⟨2, 0⟩ 0 0 0 3 3 3 1) [p.getD 0 0, 1, 2])])
  (fun _ => revBackend_ok) (fun _ => seqBackend_ok) (by decide) (by decide) (by decide) (by decide) (by decide) (by ex_seg) (by ex_seg) rfl rfl (by ex_seg) (.inr (.inr ⟨rfl, .inr rfl⟩)) (exWith_args (by ex_args)) (exWith_args (by ex_args))
  (exWith_rd (exRat_ok rfl (by decide) (by decide)) rfl rfl) (exWith_rd (exRat_ok rfl (by decide) (by decide)) rfl rfl) (by decide) (by decide) (by decide) (by decide) (exWith_rd (exRat_ok rfl (by decide) (by decide)) rfl rfl) (exWith_rd (exRat_ok rfl (by decide) (by decide)) rfl rfl) 

/-- `cd_correct_bc_3d_cuda::set_bc`, upper side of direction 2: each ghost value is the one that `cd_correct_bc_1d_cuda::set_bc` stores for the line through it.
Not for Dirichlet conditions of order 0, where nothing is stored. -/
theorem C88_3d_k_upper_partial {i j i0 i1 j0 j1 k0 k1 g dg exOrder btype : Int} {dx dx' : Nat → T} {d0 d1 d2 d' u u' : Ptr} {bLo bHi bLo' bHi' : Nat → Int} {alpha beta : T} {β β' : Nat → Backend} {m m' : Mem T} {U D : List Int → T}
    (hβ : ∀ n, ValidBackend (β n)) (hβ' : ∀ n, ValidBackend (β' n)) (hi : i0 ≤ i1) (hj : j0 ≤ j1) (hk : k0 ≤ k1) (hg : 0 ≤ g) (hdg : 0 ≤ dg)
    (hs : ∀ n < 3, InInt (bLo n + 1) ∧ InInt (bHi n + 1)) (hs' : InInt (bLo' 0 + 1) ∧ InInt (bHi' 0 + 1)) (hb : bHi' 0 = bHi 2) (hx : dx' 0 = dx 2)
    (hf : Reach k0 k1 g (bHi 2) (-2) ∧ OnFaces k0 k1 dg (bHi 2) ∧ Meets i0 i1 (bLo 0) (bHi 0) ∧ Meets j0 j1 (bLo 1) (bHi 1))
    (ho : Stored btype exOrder)
    (h : F.Args m [F.face3d0 d0 i0 j0 k0 i1 j1 k1 dg, F.face3d1 d1 i0 j0 k0 i1 j1 k1 dg, F.face3d2 d2 i0 j0 k0 i1 j1 k1 dg] [F.cell3d u i0 j0 k0 i1 j1 k1 g]) (h' : F.Args m' [F.face1d d' k0 k1 dg] [F.cell1d u' k0 k1 g])
    (hU : F.Holds m (F.cell3d u i0 j0 k0 i1 j1 k1 g) U) (hD : F.Holds m (F.face3d2 d2 i0 j0 k0 i1 j1 k1 dg) D) (ia : max i0 (bLo 0) ≤ i) (ib : i ≤ min i1 (bHi 0)) (ja : max j0 (bLo 1) ≤ j) (jb : j ≤ min j1 (bHi 1))
    (hU' : F.Holds m' (F.cell1d u' k0 k1 g) (fun p => U [i, j, p.getD 0 0])) (hD' : F.Holds m' (F.face1d d' k0 k1 dg) (fun p => D [p.getD 0 0, i, j])) :
    ∃ m1 m1' v, Cuda.setBc3d i0 i1 j0 j1 k0 k1 dx dg d0 d1 d2 g u bLo bHi exOrder 5 1 btype alpha beta β m = .ok m1 ∧
      Cuda.setBc1d k0 k1 dx' dg d' g u' bLo' bHi' exOrder 1 btype alpha beta β' m' = .ok m1' ∧
      F.El m1 (F.cell3d u i0 j0 k0 i1 j1 k1 g) [i, j, bHi 2] v ∧ F.El m1' (F.cell1d u' k0 k1 g) [bHi' 0] v := by
  obtain ⟨m1, c1, q1⟩ := ghosts_3d (dx := dx) (exOrder := exOrder) (face := 5) (btype := btype) (alpha := alpha) (beta := beta) hβ hi hj hk hg hdg hs (fun e => absurd e (by decide)) (fun e => absurd e (by decide)) (fun e => absurd e (by decide)) (fun e => absurd e (by decide)) (fun e => absurd e (by decide)) (fun _ => hf) h
  have hs1 : ∀ n < 1, InInt (bLo' n + 1) ∧ InInt (bHi' n + 1) := fun n hn => by
    obtain rfl : n = 0 := by omega
    exact hs'
  obtain ⟨m1', c1', q1'⟩ := ghosts_1d (dx := dx') (exOrder := exOrder) (face := 1) (btype := btype) (alpha := alpha) (beta := beta) (bLo := bLo') (bHi := bHi') hβ' hk hg hdg hs1 (fun e => absurd e (by decide)) (fun _ => by rw [hb]; exact ⟨hf.1, hf.2.1⟩) h'
  have r := hf.1
  have rb : ∀ x, k0 - g ≤ x → x ≤ k1 + g → F.InBounds (F.cell3d u i0 j0 k0 i1 j1 k1 g).dims [i, j, x] := fun x xa xb => F.inBounds3.2 ⟨i, j, x, rfl, by simp only [max_le_iff, le_min_iff] at *; omega⟩
  have rb' : ∀ x, k0 - g ≤ x → x ≤ k1 + g → F.InBounds (F.cell1d u' k0 k1 g).dims [x] := fun x xa xb => F.inBounds1.2 ⟨x, rfl, by omega⟩
  unfold Reach at r
  have e : ∀ x, k0 - g ≤ x → x ≤ k1 + g → F.rd m (F.cell3d u i0 j0 k0 i1 j1 k1 g) [i, j, x] = F.rd m' (F.cell1d u' k0 k1 g) [x] := fun x xa xb => by
    rw [(hU _ (rb x xa xb)).rd, (hU' _ (rb' x xa xb)).rd]
    rfl
  have o := hf.2.1
  unfold OnFaces at o
  have eb : F.rd m (F.face3d2 d2 i0 j0 k0 i1 j1 k1 dg) [bHi 2, i, j] = F.rd m' (F.face1d d' k0 k1 dg) [bHi 2] := by
    rw [(hD _ (F.inBounds3.2 ⟨bHi 2, i, j, rfl, by simp only [max_le_iff, le_min_iff] at *; omega⟩)).rd, (hD' _ (F.inBounds1.2 ⟨bHi 2, rfl, by omega⟩)).rd]
    rfl
  obtain ⟨v, g1, g2⟩ := ho.ghost (alpha := alpha) (beta := beta) (w := dx 2) (b := (F.rd m (F.face3d2 d2 i0 j0 k0 i1 j1 k1 dg) [bHi 2, i, j])) (x1 := F.rd m (F.cell3d u i0 j0 k0 i1 j1 k1 g) [i, j, bHi 2 - 1]) (x2 := F.rd m (F.cell3d u i0 j0 k0 i1 j1 k1 g) [i, j, bHi 2 - 2]) false false
  refine ⟨m1, m1', v, c1, c1', ?_, ?_⟩
  · have t := q1.2.2.2.2.2 rfl i ia ib j ja jb v g1
    simpa using t
  · have t := q1'.2 rfl v (by rw [hb, hx, ← eb, ← e (bHi 2 - 1) (by omega) (by omega), ← e (bHi 2 - 2) (by omega) (by omega)]; exact g2)
    simpa using t

example := C88_3d_k_upper_partial (T := Rat) (i := 1) (j := 2) (i0 := 0) (i1 := 3) (j0 := 0) (j1 := 3) (k0 := 0) (k1 := 3) (g := 1) (dg := 1) (exOrder := 2) (btype := 4) (dx := exDx) (dx' := fun _ => exDx 2) (u := ⟨9, 0⟩) (u' := ⟨9, 0⟩) (d0 := ⟨0, 0⟩) (d1 := ⟨1, 0⟩) (d2 := ⟨2, 0⟩) (d' := ⟨0, 0⟩)
  (bLo := fun n => if n = 2 then -1 else 1) (bHi := fun n => if n = 2 then 4 else 2) (bLo' := fun _ => -1) (bHi' := fun _ => 4) (alpha := 3) (beta := 5) (β := fun _ => revBackend) (β' := fun _ => seqBackend)
  (m := exWith [((F.cell3d ⟨9, 0⟩ 0 0 0 3 3 3 1), exRd (F.cell3d ⟨9, 0⟩ 0 0 0 3 3 3 1)), ((F.face3d2 ⟨2, 0⟩ 0 0 0 3 3 3 1), exRd (F.face3d2 ⟨2, 0⟩ 0 0 0 3 3 3 1))])
  (m' := exWith [((F.cell1d ⟨9, 0⟩ 0 3 1), fun p => exRd (F.cell3d ⟨9, 0⟩ 0 0 0 3 3 3 1) [1, 2, p.getD 0 0]), ((F.face1d ⟨0, 0⟩ 0 3 1), fun p => exRd (F.face3d2 ⟨2, 0⟩ 0 0 0 3 3 3 1) [p.getD 0 0, 1, 2])])
  (fun _ => revBackend_ok) (fun _ => seqBackend_ok) (by decide) (by decide) (by decide) (by decide) (by decide) (by ex_seg) (by ex_seg) rfl rfl (by ex_seg) (.inr (.inr ⟨rfl, .inr rfl⟩)) (exWith_args (by ex_args)) (exWith_args (by ex_args))
  (exWith_rd (exRat_ok rfl (by decide) (by decide)) rfl rfl) (exWith_rd (exRat_ok rfl (by decide) (by decide)) rfl rfl) (by decide) (by decide) (by decide) (by decide) (exWith_rd (exRat_ok rfl (by decide) (by decide)) rfl rfl) (exWith_rd (exRat_ok rfl (by decide) (by decide)) rfl rfl) 

/-- `cd_correct_bc_3d_cuda::set_poisson_bc`, lower side of direction 0: each ghost value is the one that `cd_correct_bc_1d_cuda::set_poisson_bc` stores for the line through it.
Not for Dirichlet conditions of order 0, where nothing is stored; the Poisson kernel in 1D has fixed coefficients in Robin conditions, so these must be the same here. -/
theorem C88_poisson_3d_i_lower_partial {j k i0 i1 j0 j1 k0 k1 g exOrder btype : Int} {dx dx' : Nat → T} {u u' : Ptr} {bLo bHi bLo' bHi' : Nat → Int} {alpha beta alpha' beta' : T} {β β' : Nat → Backend} {m m' : Mem T} {U : List Int → T}
    (hβ : ∀ n, ValidBackend (β n)) (hβ' : ∀ n, ValidBackend (β' n)) (hi : i0 ≤ i1) (hj : j0 ≤ j1) (hk : k0 ≤ k1) (hg : 0 ≤ g)
    (hs : ∀ n < 3, InInt (bLo n + 1) ∧ InInt (bHi n + 1)) (hs' : InInt (bLo' 0 + 1) ∧ InInt (bHi' 0 + 1)) (hb : bLo' 0 = bLo 0) (hx : dx' 0 = dx 0)
    (hf : Reach i0 i1 g (bLo 0) 2 ∧ Meets j0 j1 (bLo 1) (bHi 1) ∧ Meets k0 k1 (bLo 2) (bHi 2))
    (ht : btype = 4 → alpha = 2 ∧ beta = 1) (ho : Stored btype exOrder)
    (h : F.Args m [] [F.cell3d u i0 j0 k0 i1 j1 k1 g]) (h' : F.Args m' [] [F.cell1d u' i0 i1 g])
    (hU : F.Holds m (F.cell3d u i0 j0 k0 i1 j1 k1 g) U) (ja : max j0 (bLo 1) ≤ j) (jb : j ≤ min j1 (bHi 1)) (ka : max k0 (bLo 2) ≤ k) (kb : k ≤ min k1 (bHi 2))
    (hU' : F.Holds m' (F.cell1d u' i0 i1 g) (fun p => U [p.getD 0 0, j, k])) :
    ∃ m1 m1' v, Cuda.setPoissonBc3d i0 i1 j0 j1 k0 k1 dx g u bLo bHi exOrder 0 1 btype alpha beta β m = .ok m1 ∧
      Cuda.setPoissonBc1d i0 i1 dx' g u' bLo' bHi' exOrder 0 btype alpha' beta' β' m' = .ok m1' ∧
      F.El m1 (F.cell3d u i0 j0 k0 i1 j1 k1 g) [bLo 0, j, k] v ∧ F.El m1' (F.cell1d u' i0 i1 g) [bLo' 0] v := by
  obtain ⟨m1, c1, q1⟩ := ghosts_p3d (dx := dx) (exOrder := exOrder) (face := 0) (btype := btype) (alpha := alpha) (beta := beta) hβ hi hj hk hg hs (fun _ => hf) (fun e => absurd e (by decide)) (fun e => absurd e (by decide)) (fun e => absurd e (by decide)) (fun e => absurd e (by decide)) (fun e => absurd e (by decide)) h
  have hs1 : ∀ n < 1, InInt (bLo' n + 1) ∧ InInt (bHi' n + 1) := fun n hn => by
    obtain rfl : n = 0 := by omega
    exact hs'
  obtain ⟨m1', c1', q1'⟩ := ghosts_p1d (dx := dx') (exOrder := exOrder) (face := 0) (btype := btype) (alpha := alpha') (beta := beta') (bLo := bLo') (bHi := bHi') hβ' hi hg hs1 (fun _ => by rw [hb]; exact hf.1) (fun e => absurd e (by decide)) h'
  have r := hf.1
  have rb : ∀ x, i0 - g ≤ x → x ≤ i1 + g → F.InBounds (F.cell3d u i0 j0 k0 i1 j1 k1 g).dims [x, j, k] := fun x xa xb => F.inBounds3.2 ⟨x, j, k, rfl, by simp only [max_le_iff, le_min_iff] at *; omega⟩
  have rb' : ∀ x, i0 - g ≤ x → x ≤ i1 + g → F.InBounds (F.cell1d u' i0 i1 g).dims [x] := fun x xa xb => F.inBounds1.2 ⟨x, rfl, by omega⟩
  unfold Reach at r
  have e : ∀ x, i0 - g ≤ x → x ≤ i1 + g → F.rd m (F.cell3d u i0 j0 k0 i1 j1 k1 g) [x, j, k] = F.rd m' (F.cell1d u' i0 i1 g) [x] := fun x xa xb => by
    rw [(hU _ (rb x xa xb)).rd, (hU' _ (rb' x xa xb)).rd]
    rfl
  obtain ⟨v, g1, g2⟩ := ho.ghost (alpha := 2) (beta := 1) (w := dx 0) (b := 1) (x1 := F.rd m (F.cell3d u i0 j0 k0 i1 j1 k1 g) [bLo 0 + 1, j, k]) (x2 := F.rd m (F.cell3d u i0 j0 k0 i1 j1 k1 g) [bLo 0 + 2, j, k]) false false
  refine ⟨m1, m1', v, c1, c1', ?_, ?_⟩
  · have g3 : ghost false btype exOrder alpha beta (dx 0) 1 (F.rd m (F.cell3d u i0 j0 k0 i1 j1 k1 g) [bLo 0 + 1, j, k]) (F.rd m (F.cell3d u i0 j0 k0 i1 j1 k1 g) [bLo 0 + 2, j, k]) = some v := by
      by_cases h4 : btype = 4
      · rw [(ht h4).1, (ht h4).2]; exact g1
      · rw [← g1]; simp only [ghost, h4, if_false]
    have t := q1.1 rfl j ja jb k ka kb v g3
    simpa using t
  · have t := q1'.1 rfl v (by rw [hb, hx, ← e (bLo 0 + 1) (by omega) (by omega), ← e (bLo 0 + 2) (by omega) (by omega)]; exact g2)
    simpa using t

example := C88_poisson_3d_i_lower_partial (T := Rat) (j := 1) (k := 2) (i0 := 0) (i1 := 3) (j0 := 0) (j1 := 3) (k0 := 0) (k1 := 3) (g := 1) (exOrder := 2) (btype := 4) (dx := exDx) (dx' := fun _ => exDx 0) (u := ⟨9, 0⟩) (u' := ⟨9, 0⟩) 
  (bLo := fun n => if n = 0 then -1 else 1) (bHi := fun n => if n = 0 then 4 else 2) (bLo' := fun _ => -1) (bHi' := fun _ => 4) (alpha := 2) (beta := 1) (alpha' := 3) (beta' := 5) (β := fun _ => revBackend) (β' := fun _ => seqBackend)
  (m := exWith [((F.cell3d ⟨9, 0⟩ 0 0 0 3 3 3 1), exRd (F.cell3d ⟨9, 0⟩ 0 0 0 3 3 3 1))])
  (m' := exWith [((F.cell1d ⟨9, 0⟩ 0 3 1), fun p => exRd (F.cell3d ⟨9, 0⟩ 0 0 0 3 3 3 1) [p.getD 0 0, 1, 2])])
  (fun _ => revBackend_ok) (fun _ => seqBackend_ok) (by decide) (by decide) (by decide) (by decide) (by ex_seg) (by ex_seg) rfl rfl (by ex_seg) (fun _ => ⟨rfl, rfl⟩) (.inr (.inr ⟨rfl, .inr rfl⟩)) (exWith_args (by ex_args)) (exWith_args (by ex_args))
  (exWith_rd (exRat_ok rfl (by decide) (by decide)) rfl rfl) (by decide) (by decide) (by decide) (by decide) (exWith_rd (exRat_ok rfl (by decide) (by decide)) rfl rfl) 

/-- `cd_correct_bc_3d_cuda::set_poisson_bc`, upper side of direction 0: each ghost value is the one that `cd_correct_bc_1d_cuda::set_poisson_bc` stores for the line through it.
Not for Dirichlet conditions of order 0, where nothing is stored; the Poisson kernel in 1D has fixed coefficients in Robin conditions, so these must be the same here. -/
theorem C88_poisson_3d_i_upper_partial {j k i0 i1 j0 j1 k0 k1 g exOrder btype : Int} {dx dx' : Nat → T} {u u' : Ptr} {bLo bHi bLo' bHi' : Nat → Int} {alpha beta alpha' beta' : T} {β β' : Nat → Backend} {m m' : Mem T} {U : List Int → T}
    (hβ : ∀ n, ValidBackend (β n)) (hβ' : ∀ n, ValidBackend (β' n)) (hi : i0 ≤ i1) (hj : j0 ≤ j1) (hk : k0 ≤ k1) (hg : 0 ≤ g)
    (hs : ∀ n < 3, InInt (bLo n + 1) ∧ InInt (bHi n + 1)) (hs' : InInt (bLo' 0 + 1) ∧ InInt (bHi' 0 + 1)) (hb : bHi' 0 = bHi 0) (hx : dx' 0 = dx 0)
    (hf : Reach i0 i1 g (bHi 0) (-2) ∧ Meets j0 j1 (bLo 1) (bHi 1) ∧ Meets k0 k1 (bLo 2) (bHi 2))
    (ht : btype = 4 → alpha = 2 ∧ beta = 1) (ho : Stored btype exOrder)
    (h : F.Args m [] [F.cell3d u i0 j0 k0 i1 j1 k1 g]) (h' : F.Args m' [] [F.cell1d u' i0 i1 g])
    (hU : F.Holds m (F.cell3d u i0 j0 k0 i1 j1 k1 g) U) (ja : max j0 (bLo 1) ≤ j) (jb : j ≤ min j1 (bHi 1)) (ka : max k0 (bLo 2) ≤ k) (kb : k ≤ min k1 (bHi 2))
    (hU' : F.Holds m' (F.cell1d u' i0 i1 g) (fun p => U [p.getD 0 0, j, k])) :
    ∃ m1 m1' v, Cuda.setPoissonBc3d i0 i1 j0 j1 k0 k1 dx g u bLo bHi exOrder 1 1 btype alpha beta β m = .ok m1 ∧
      Cuda.setPoissonBc1d i0 i1 dx' g u' bLo' bHi' exOrder 1 btype alpha' beta' β' m' = .ok m1' ∧
      F.El m1 (F.cell3d u i0 j0 k0 i1 j1 k1 g) [bHi 0, j, k] v ∧ F.El m1' (F.cell1d u' i0 i1 g) [bHi' 0] v := by
  obtain ⟨m1, c1, q1⟩ := ghosts_p3d (dx := dx) (exOrder := exOrder) (face := 1) (btype := btype) (alpha := alpha) (beta := beta) hβ hi hj hk hg hs (fun e => absurd e (by decide)) (fun _ => hf) (fun e => absurd e (by decide)) (fun e => absurd e (by decide)) (fun e => absurd e (by decide)) (fun e => absurd e (by decide)) h
  have hs1 : ∀ n < 1, InInt (bLo' n + 1) ∧ InInt (bHi' n + 1) := fun n hn => by
    obtain rfl : n = 0 := by omega
    exact hs'
  obtain ⟨m1', c1', q1'⟩ := ghosts_p1d (dx := dx') (exOrder := exOrder) (face := 1) (btype := btype) (alpha := alpha') (beta := beta') (bLo := bLo') (bHi := bHi') hβ' hi hg hs1 (fun e => absurd e (by decide)) (fun _ => by rw [hb]; exact hf.1) h'
  have r := hf.1
  have rb : ∀ x, i0 - g ≤ x → x ≤ i1 + g → F.InBounds (F.cell3d u i0 j0 k0 i1 j1 k1 g).dims [x, j, k] := fun x xa xb => F.inBounds3.2 ⟨x, j, k, rfl, by simp only [max_le_iff, le_min_iff] at *; omega⟩
  have rb' : ∀ x, i0 - g ≤ x → x ≤ i1 + g → F.InBounds (F.cell1d u' i0 i1 g).dims [x] := fun x xa xb => F.inBounds1.2 ⟨x, rfl, by omega⟩
  unfold Reach at r
  have e : ∀ x, i0 - g ≤ x → x ≤ i1 + g → F.rd m (F.cell3d u i0 j0 k0 i1 j1 k1 g) [x, j, k] = F.rd m' (F.cell1d u' i0 i1 g) [x] := fun x xa xb => by
    rw [(hU _ (rb x xa xb)).rd, (hU' _ (rb' x xa xb)).rd]
    rfl
  obtain ⟨v, g1, g2⟩ := ho.ghost (alpha := 2) (beta := 1) (w := dx 0) (b := 1) (x1 := F.rd m (F.cell3d u i0 j0 k0 i1 j1 k1 g) [bHi 0 - 1, j, k]) (x2 := F.rd m (F.cell3d u i0 j0 k0 i1 j1 k1 g) [bHi 0 - 2, j, k]) false false
  refine ⟨m1, m1', v, c1, c1', ?_, ?_⟩
  · have g3 : ghost false btype exOrder alpha beta (dx 0) 1 (F.rd m (F.cell3d u i0 j0 k0 i1 j1 k1 g) [bHi 0 - 1, j, k]) (F.rd m (F.cell3d u i0 j0 k0 i1 j1 k1 g) [bHi 0 - 2, j, k]) = some v := by
      by_cases h4 : btype = 4
      · rw [(ht h4).1, (ht h4).2]; exact g1
      · rw [← g1]; simp only [ghost, h4, if_false]
    have t := q1.2.1 rfl j ja jb k ka kb v g3
    simpa using t
  · have t := q1'.2 rfl v (by rw [hb, hx, ← e (bHi 0 - 1) (by omega) (by omega), ← e (bHi 0 - 2) (by omega) (by omega)]; exact g2)
    simpa using t

example := C88_poisson_3d_i_upper_partial (T := Rat) (j := 1) (k := 2) (i0 := 0) (i1 := 3) (j0 := 0) (j1 := 3) (k0 := 0) (k1 := 3) (g := 1) (exOrder := 2) (btype := 4) (dx := exDx) (dx' := fun _ => exDx 0) (u := ⟨9, 0⟩) (u' := ⟨9, 0⟩) 
  (bLo := fun n => if n = 0 then -1 else 1) (bHi := fun n => if n = 0 then 4 else 2) (bLo' := fun _ => -1) (bHi' := fun _ => 4) (alpha := 2) (beta := 1) (alpha' := 3) (beta' := 5) (β := fun _ => revBackend) (β' := fun _ => seqBackend)
  (m := exWith [((F.cell3d ⟨9, 0⟩ 0 0 0 3 3 3 1), exRd (F.cell3d ⟨9, 0⟩ 0 0 0 3 3 3 1))])
  (m' := exWith [((F.cell1d ⟨9, 0⟩ 0 3 1), fun p => exRd (F.cell3d ⟨9, 0⟩ 0 0 0 3 3 3 1) [p.getD 0 0, 1, 2])])
  (fun _ => revBackend_ok) (fun _ => seqBackend_ok) (by decide) (by decide) (by decide) (by decide) (by ex_seg) (by ex_seg) rfl rfl (by ex_seg) (fun _ => ⟨rfl, rfl⟩) (.inr (.inr ⟨rfl, .inr rfl⟩)) (exWith_args (by ex_args)) (exWith_args (by ex_args))
  (exWith_rd (exRat_ok rfl (by decide) (by decide)) rfl rfl) (by decide) (by decide) (by decide) (by decide) (exWith_rd (exRat_ok rfl (by decide) (by decide)) rfl rfl) 

/-- `cd_correct_bc_3d_cuda::set_poisson_bc`, lower side of direction 1: each ghost value is the one that `cd_correct_bc_1d_cuda::set_poisson_bc` stores for the line through it.
Not for Dirichlet conditions of order 0, where nothing is stored; the Poisson kernel in 1D has fixed coefficients in Robin conditions, so these must be the same here. -/
theorem C88_poisson_3d_j_lower_partial {i k i0 i1 j0 j1 k0 k1 g exOrder btype : Int} {dx dx' : Nat → T} {u u' : Ptr} {bLo bHi bLo' bHi' : Nat → Int} {alpha beta alpha' beta' : T} {β β' : Nat → Backend} {m m' : Mem T} {U : List Int → T}
    (hβ : ∀ n, ValidBackend (β n)) (hβ' : ∀ n, ValidBackend (β' n)) (hi : i0 ≤ i1) (hj : j0 ≤ j1) (hk : k0 ≤ k1) (hg : 0 ≤ g)
    (hs : ∀ n < 3, InInt (bLo n + 1) ∧ InInt (bHi n + 1)) (hs' : InInt (bLo' 0 + 1) ∧ InInt (bHi' 0 + 1)) (hb : bLo' 0 = bLo 1) (hx : dx' 0 = dx 1)
    (hf : Reach j0 j1 g (bLo 1) 2 ∧ Meets i0 i1 (bLo 0) (bHi 0) ∧ Meets k0 k1 (bLo 2) (bHi 2))
    (ht : btype = 4 → alpha = 2 ∧ beta = 1) (ho : Stored btype exOrder)
    (h : F.Args m [] [F.cell3d u i0 j0 k0 i1 j1 k1 g]) (h' : F.Args m' [] [F.cell1d u' j0 j1 g])
    (hU : F.Holds m (F.cell3d u i0 j0 k0 i1 j1 k1 g) U) (ia : max i0 (bLo 0) ≤ i) (ib : i ≤ min i1 (bHi 0)) (ka : max k0 (bLo 2) ≤ k) (kb : k ≤ min k1 (bHi 2))
    (hU' : F.Holds m' (F.cell1d u' j0 j1 g) (fun p => U [i, p.getD 0 0, k])) :
    ∃ m1 m1' v, Cuda.setPoissonBc3d i0 i1 j0 j1 k0 k1 dx g u bLo bHi exOrder 2 1 btype alpha beta β m = .ok m1 ∧
      Cuda.setPoissonBc1d j0 j1 dx' g u' bLo' bHi' exOrder 0 btype alpha' beta' β' m' = .ok m1' ∧
      F.El m1 (F.cell3d u i0 j0 k0 i1 j1 k1 g) [i, bLo 1, k] v ∧ F.El m1' (F.cell1d u' j0 j1 g) [bLo' 0] v := by
  obtain ⟨m1, c1, q1⟩ := ghosts_p3d (dx := dx) (exOrder := exOrder) (face := 2) (btype := btype) (alpha := alpha) (beta := beta) hβ hi hj hk hg hs (fun e => absurd e (by decide)) (fun e => absurd e (by decide)) (fun _ => hf) (fun e => absurd e (by decide)) (fun e => absurd e (by decide)) (fun e => absurd e (by decide)) h
  have hs1 : ∀ n < 1, InInt (bLo' n + 1) ∧ InInt (bHi' n + 1) := fun n hn => by
    obtain rfl : n = 0 := by omega
    exact hs'
  obtain ⟨m1', c1', q1'⟩ := ghosts_p1d (dx := dx') (exOrder := exOrder) (face := 0) (btype := btype) (alpha := alpha') (beta := beta') (bLo := bLo') (bHi := bHi') hβ' hj hg hs1 (fun _ => by rw [hb]; exact hf.1) (fun e => absurd e (by decide)) h'
  have r := hf.1
  have rb : ∀ x, j0 - g ≤ x → x ≤ j1 + g → F.InBounds (F.cell3d u i0 j0 k0 i1 j1 k1 g).dims [i, x, k] := fun x xa xb => F.inBounds3.2 ⟨i, x, k, rfl, by simp only [max_le_iff, le_min_iff] at *; omega⟩
  have rb' : ∀ x, j0 - g ≤ x → x ≤ j1 + g → F.InBounds (F.cell1d u' j0 j1 g).dims [x] := fun x xa xb => F.inBounds1.2 ⟨x, rfl, by omega⟩
  unfold Reach at r
  have e : ∀ x, j0 - g ≤ x → x ≤ j1 + g → F.rd m (F.cell3d u i0 j0 k0 i1 j1 k1 g) [i, x, k] = F.rd m' (F.cell1d u' j0 j1 g) [x] := fun x xa xb => by
    rw [(hU _ (rb x xa xb)).rd, (hU' _ (rb' x xa xb)).rd]
    rfl
  obtain ⟨v, g1, g2⟩ := ho.ghost (alpha := 2) (beta := 1) (w := dx 1) (b := 1) (x1 := F.rd m (F.cell3d u i0 j0 k0 i1 j1 k1 g) [i, bLo 1 + 1, k]) (x2 := F.rd m (F.cell3d u i0 j0 k0 i1 j1 k1 g) [i, bLo 1 + 2, k]) false false
  refine ⟨m1, m1', v, c1, c1', ?_, ?_⟩
  · have g3 : ghost false btype exOrder alpha beta (dx 1) 1 (F.rd m (F.cell3d u i0 j0 k0 i1 j1 k1 g) [i, bLo 1 + 1, k]) (F.rd m (F.cell3d u i0 j0 k0 i1 j1 k1 g) [i, bLo 1 + 2, k]) = some v := by
      by_cases h4 : btype = 4
      · rw [(ht h4).1, (ht h4).2]; exact g1
      · rw [← g1]; simp only [ghost, h4, if_false]
    have t := q1.2.2.1 rfl i ia ib k ka kb v g3
    simpa using t
  · have t := q1'.1 rfl v (by rw [hb, hx, ← e (bLo 1 + 1) (by omega) (by omega), ← e (bLo 1 + 2) (by omega) (by omega)]; exact g2)
    simpa using t

example := C88_poisson_3d_j_lower_partial (T := Rat) (i := 1) (k := 2) (i0 := 0) (i1 := 3) (j0 := 0) (j1 := 3) (k0 := 0) (k1 := 3) (g := 1) (exOrder := 2) (btype := 4) (dx := exDx) (dx' := fun _ => exDx 1) (u := ⟨9, 0⟩) (u' := ⟨9, 0⟩) 
  (bLo := fun n => if n = 1 then -1 else 1) (bHi := fun n => if n = 1 then 4 else 2) (bLo' := fun _ => -1) (bHi' := fun _ => 4) (alpha := 2) (beta := 1) (alpha' := 3) (beta' := 5) (β := fun _ => revBackend) (β' := fun _ => seqBackend)
  (m := exWith [((F.cell3d ⟨9, 0⟩ 0 0 0 3 3 3 1), exRd (F.cell3d ⟨9, 0⟩ 0 0 0 3 3 3 1))])
  (m' := exWith [((F.cell1d ⟨9, 0⟩ 0 3 1), fun p => exRd (F.cell3d ⟨9, 0⟩ 0 0 0 3 3 3 1) [1, p.getD 0 0, 2])])
  (fun _ => revBackend_ok) (fun _ => seqBackend_ok) (by decide) (by decide) (by decide) (by decide) (by ex_seg) (by ex_seg) rfl rfl (by ex_seg) (fun _ => ⟨rfl, rfl⟩) (.inr (.inr ⟨rfl, .inr rfl⟩)) (exWith_args (by ex_args)) (exWith_args (by ex_args))
  (exWith_rd (exRat_ok rfl (by decide) (by decide)) rfl rfl) (by decide) (by decide) (by decide) (by decide) (exWith_rd (exRat_ok rfl (by decide) (by decide)) rfl rfl) 

/-- `cd_correct_bc_3d_cuda::set_poisson_bc`, upper side of direction 1: each ghost value is the one that `cd_correct_bc_1d_cuda::set_poisson_bc` stores for the line through it.
Not for Dirichlet conditions of order 0, where nothing is stored; the Poisson kernel in 1D has fixed coefficients in Robin conditions, so these must be the same here. -/
theorem C88_poisson_3d_j_upper_partial {i k i0 i1 j0 j1 k0 k1 g exOrder btype : Int} {dx dx' : Nat → T} {u u' : Ptr} {bLo bHi bLo' bHi' : Nat → Int} {alpha beta alpha' beta' : T} {β β' : Nat → Backend} {m m' : Mem T} {U : List Int → T}
    (hβ : ∀ n, ValidBackend (β n)) (hβ' : ∀ n, ValidBackend (β' n)) (hi : i0 ≤ i1) (hj : j0 ≤ j1) (hk : k0 ≤ k1) (hg : 0 ≤ g)
    (hs : ∀ n < 3, InInt (bLo n + 1) ∧ InInt (bHi n + 1)) (hs' : InInt (bLo' 0 + 1) ∧ InInt (bHi' 0 + 1)) (hb : bHi' 0 = bHi 1) (hx : dx' 0 = dx 1)
    (hf : Reach j0 j1 g (bHi 1) (-2) ∧ Meets i0 i1 (bLo 0) (bHi 0) ∧ Meets k0 k1 (bLo 2) (bHi 2))
    (ht : btype = 4 → alpha = 2 ∧ beta = 1) (ho : Stored btype exOrder)
    (h : F.Args m [] [F.cell3d u i0 j0 k0 i1 j1 k1 g]) (h' : F.Args m' [] [F.cell1d u' j0 j1 g])
    (hU : F.Holds m (F.cell3d u i0 j0 k0 i1 j1 k1 g) U) (ia : max i0 (bLo 0) ≤ i) (ib : i ≤ min i1 (bHi 0)) (ka : max k0 (bLo 2) ≤ k) (kb : k ≤ min k1 (bHi 2))
    (hU' : F.Holds m' (F.cell1d u' j0 j1 g) (fun p => U [i, p.getD 0 0, k])) :
    ∃ m1 m1' v, Cuda.setPoissonBc3d i0 i1 j0 j1 k0 k1 dx g u bLo bHi exOrder 3 1 btype alpha beta β m = .ok m1 ∧
      Cuda.setPoissonBc1d j0 j1 dx' g u' bLo' bHi' exOrder 1 btype alpha' beta' β' m' = .ok m1' ∧
      F.El m1 (F.cell3d u i0 j0 k0 i1 j1 k1 g) [i, bHi 1, k] v ∧ F.El m1' (F.cell1d u' j0 j1 g) [bHi' 0] v := by
  obtain ⟨m1, c1, q1⟩ := ghosts_p3d (dx := dx) (exOrder := exOrder) (face := 3) (btype := btype) (alpha := alpha) (beta := beta) hβ hi hj hk hg hs (fun e => absurd e (by decide)) (fun e => absurd e (by decide)) (fun e => absurd e (by decide)) (fun _ => hf) (fun e => absurd e (by decide)) (fun e => absurd e (by decide)) h
  have hs1 : ∀ n < 1, InInt (bLo' n + 1) ∧ InInt (bHi' n + 1) := fun n hn => by
    obtain rfl : n = 0 := by omega
    exact hs'
  obtain ⟨m1', c1', q1'⟩ := ghosts_p1d (dx := dx') (exOrder := exOrder) (face := 1) (btype := btype) (alpha := alpha') (beta := beta') (bLo := bLo') (bHi := bHi') hβ' hj hg hs1 (fun e => absurd e (by decide)) (fun _ => by rw [hb]; exact hf.1) h'
  have r := hf.1
  have rb : ∀ x, j0 - g ≤ x → x ≤ j1 + g → F.InBounds (F.cell3d u i0 j0 k0 i1 j1 k1 g).dims [i, x, k] := fun x xa xb => F.inBounds3.2 ⟨i, x, k, rfl, by simp only [max_le_iff, le_min_iff] at *; omega⟩
  have rb' : ∀ x, j0 - g ≤ x → x ≤ j1 + g → F.InBounds (F.cell1d u' j0 j1 g).dims [x] := fun x xa xb => F.inBounds1.2 ⟨x, rfl, by omega⟩
  unfold Reach at r
  have e : ∀ x, j0 - g ≤ x → x ≤ j1 + g → F.rd m (F.cell3d u i0 j0 k0 i1 j1 k1 g) [i, x, k] = F.rd m' (F.cell1d u' j0 j1 g) [x] := fun x xa xb => by
    rw [(hU _ (rb x xa xb)).rd, (hU' _ (rb' x xa xb)).rd]
    rfl
  obtain ⟨v, g1, g2⟩ := ho.ghost (alpha := 2) (beta := 1) (w := dx 1) (b := 1) (x1 := F.rd m (F.cell3d u i0 j0 k0 i1 j1 k1 g) [i, bHi 1 - 1, k]) (x2 := F.rd m (F.cell3d u i0 j0 k0 i1 j1 k1 g) [i, bHi 1 - 2, k]) false false
  refine ⟨m1, m1', v, c1, c1', ?_, ?_⟩
  · have g3 : ghost false btype exOrder alpha beta (dx 1) 1 (F.rd m (F.cell3d u i0 j0 k0 i1 j1 k1 g) [i, bHi 1 - 1, k]) (F.rd m (F.cell3d u i0 j0 k0 i1 j1 k1 g) [i, bHi 1 - 2, k]) = some v := by
      by_cases h4 : btype = 4
      · rw [(ht h4).1, (ht h4).2]; exact g1
      · rw [← g1]; simp only [ghost, h4, if_false]
    have t := q1.2.2.2.1 rfl i ia ib k ka kb v g3
    simpa using t
  · have t := q1'.2 rfl v (by rw [hb, hx, ← e (bHi 1 - 1) (by omega) (by omega), ← e (bHi 1 - 2) (by omega) (by omega)]; exact g2)
    simpa using t

example := C88_poisson_3d_j_upper_partial (T := Rat) (i := 1) (k := 2) (i0 := 0) (i1 := 3) (j0 := 0) (j1 := 3) (k0 := 0) (k1 := 3) (g := 1) (exOrder := 2) (btype := 4) (dx := exDx) (dx' := fun _ => exDx 1) (u := ⟨9, 0⟩) (u' := ⟨9, 0⟩) 
  (bLo := fun n => if n = 1 then -1 else 1) (bHi := fun n => if n = 1 then 4 else 2) (bLo' := fun _ => -1) (bHi' := fun _ => 4) (alpha := 2) (beta := 1) (alpha' := 3) (beta' := 5) (β := fun _ => revBackend) (β' := fun _ => seqBackend)
  (m := exWith [((F.cell3d ⟨9, 0⟩ 0 0 0 3 3 3 1), exRd (F.cell3d ⟨9, 0⟩ 0 0 0 3 3 3 1))])
  (m' := exWith [((F.cell1d ⟨9, 0⟩ 0 3 1), fun p => exRd (F.cell3d ⟨9, 0⟩ 0 0 0 3 3 3 1) [1, p.getD 0 0, 2])])
  (fun _ => revBackend_ok) (fun _ => seqBackend_ok) (by decide) (by decide) (by decide) (by decide) (by ex_seg) (by ex_seg) rfl rfl (by ex_seg) (fun _ => ⟨rfl, rfl⟩) (.inr (.inr ⟨rfl, .inr rfl⟩)) (exWith_args (by ex_args)) (exWith_args (by ex_args))
  (exWith_rd (exRat_ok rfl (by decide) (by decide)) rfl rfl) (by decide) (by decide) (by decide) (by decide) (exWith_rd (exRat_ok rfl (by decide) (by decide)) rfl rfl) 

/-- `cd_correct_bc_3d_cuda::set_poisson_bc`, lower side of direction 2: each ghost value is the one that `cd_correct_bc_1d_cuda::set_poisson_bc` stores for the line through it.
Not for Dirichlet conditions of order 0, where nothing is stored; the Poisson kernel in 1D has fixed coefficients in Robin conditions, so these must be the same here. -/
theorem C88_poisson_3d_k_lower_partial {i j i0 i1 j0 j1 k0 k1 g exOrder btype : Int} {dx dx' : Nat → T} {u u' : Ptr} {bLo bHi bLo' bHi' : Nat → Int} {alpha beta alpha' beta' : T} {β β' : Nat → Backend} {m m' : Mem T} {U : List Int → T}
    (hβ : ∀ n, ValidBackend (β n)) (hβ' : ∀ n, ValidBackend (β' n)) (hi : i0 ≤ i1) (hj : j0 ≤ j1) (hk : k0 ≤ k1) (hg : 0 ≤ g)
    (hs : ∀ n < 3, InInt (bLo n + 1) ∧ InInt (bHi n + 1)) (hs' : InInt (bLo' 0 + 1) ∧ InInt (bHi' 0 + 1)) (hb : bLo' 0 = bLo 2) (hx : dx' 0 = dx 2)
    (hf : Reach k0 k1 g (bLo 2) 2 ∧ Meets i0 i1 (bLo 0) (bHi 0) ∧ Meets j0 j1 (bLo 1) (bHi 1))
    (ht : btype = 4 → alpha = 2 ∧ beta = 1) (ho : Stored btype exOrder)
    (h : F.Args m [] [F.cell3d u i0 j0 k0 i1 j1 k1 g]) (h' : F.Args m' [] [F.cell1d u' k0 k1 g])
    (hU : F.Holds m (F.cell3d u i0 j0 k0 i1 j1 k1 g) U) (ia : max i0 (bLo 0) ≤ i) (ib : i ≤ min i1 (bHi 0)) (ja : max j0 (bLo 1) ≤ j) (jb : j ≤ min j1 (bHi 1))
    (hU' : F.Holds m' (F.cell1d u' k0 k1 g) (fun p => U [i, j, p.getD 0 0])) :
    ∃ m1 m1' v, Cuda.setPoissonBc3d i0 i1 j0 j1 k0 k1 dx g u bLo bHi exOrder 4 1 btype alpha beta β m = .ok m1 ∧
      Cuda.setPoissonBc1d k0 k1 dx' g u' bLo' bHi' exOrder 0 btype alpha' beta' β' m' = .ok m1' ∧
      F.El m1 (F.cell3d u i0 j0 k0 i1 j1 k1 g) [i, j, bLo 2] v ∧ F.El m1' (F.cell1d u' k0 k1 g) [bLo' 0] v := by
  obtain ⟨m1, c1, q1⟩ := ghosts_p3d (dx := dx) (exOrder := exOrder) (face := 4) (btype := btype) (alpha := alpha) (beta := beta) hβ hi hj hk hg hs (fun e => absurd e (by decide)) (fun e => absurd e (by decide)) (fun e => absurd e (by decide)) (fun e => absurd e (by decide)) (fun _ => hf) (fun e => absurd e (by decide)) h
  have hs1 : ∀ n < 1, InInt (bLo' n + 1) ∧ InInt (bHi' n + 1) := fun n hn => by
    obtain rfl : n = 0 := by omega
    exact hs'
  obtain ⟨m1', c1', q1'⟩ := ghosts_p1d (dx := dx') (exOrder := exOrder) (face := 0) (btype := btype) (alpha := alpha') (beta := beta') (bLo := bLo') (bHi := bHi') hβ' hk hg hs1 (fun _ => by rw [hb]; exact hf.1) (fun e => absurd e (by decide)) h'
  have r := hf.1
  have rb : ∀ x, k0 - g ≤ x → x ≤ k1 + g → F.InBounds (F.cell3d u i0 j0 k0 i1 j1 k1 g).dims [i, j, x] := fun x xa xb => F.inBounds3.2 ⟨i, j, x, rfl, by simp only [max_le_iff, le_min_iff] at *; omega⟩
  have rb' : ∀ x, k0 - g ≤ x → x ≤ k1 + g → F.InBounds (F.cell1d u' k0 k1 g).dims [x] := fun x xa xb => F.inBounds1.2 ⟨x, rfl, by omega⟩
  unfold Reach at r
  have e : ∀ x, k0 - g ≤ x → x ≤ k1 + g → F.rd m (F.cell3d u i0 j0 k0 i1 j1 k1 g) [i, j, x] = F.rd m' (F.cell1d u' k0 k1 g) [x] := fun x xa xb => by
    rw [(hU _ (rb x xa xb)).rd, (hU' _ (rb' x xa xb)).rd]
    rfl
  obtain ⟨v, g1, g2⟩ := ho.ghost (alpha := 2) (beta := 1) (w := dx 2) (b := 1) (x1 := F.rd m (F.cell3d u i0 j0 k0 i1 j1 k1 g) [i, j, bLo 2 + 1]) (x2 := F.rd m (F.cell3d u i0 j0 k0 i1 j1 k1 g) [i, j, bLo 2 + 2]) false false
  refine ⟨m1, m1', v, c1, c1', ?_, ?_⟩
  · have g3 : ghost false btype exOrder alpha beta (dx 2) 1 (F.rd m (F.cell3d u i0 j0 k0 i1 j1 k1 g) [i, j, bLo 2 + 1]) (F.rd m (F.cell3d u i0 j0 k0 i1 j1 k1 g) [i, j, bLo 2 + 2]) = some v := by
      by_cases h4 : btype = 4
      · rw [(ht h4).1, (ht h4).2]; exact g1
      · rw [← g1]; simp only [ghost, h4, if_false]
    have t := q1.2.2.2.2.1 rfl i ia ib j ja jb v g3
    simpa using t
  · have t := q1'.1 rfl v (by rw [hb, hx, ← e (bLo 2 + 1) (by omega) (by omega), ← e (bLo 2 + 2) (by omega) (by omega)]; exact g2)
    simpa using t

example := C88_poisson_3d_k_lower_partial (T := Rat) (i := 1) (j := 2) (i0 := 0) (i1 := 3) (j0 := 0) (j1 := 3) (k0 := 0) (k1 := 3) (g := 1) (exOrder := 2) (btype := 4) (dx := exDx) (dx' := fun _ => exDx 2) (u := ⟨9, 0⟩) (u' := ⟨9, 0⟩) 
  (bLo := fun n => if n = 2 then -1 else 1) (bHi := fun n => if n = 2 then 4 else 2) (bLo' := fun _ => -1) (bHi' := fun _ => 4) (alpha := 2) (beta := 1) (alpha' := 3) (beta' := 5) (β := fun _ => revBackend) (β' := fun _ => seqBackend)
  (m := exWith [((F.cell3d ⟨9, 0⟩ 0 0 0 3 3 3 1), exRd (F.cell3d ⟨9, 0⟩ 0 0 0 3 3 3 1))])
  (m' := exWith [((F.cell1d ⟨9, 0⟩ 0 3 1), fun p => exRd (F.cell3d ⟨9, 0⟩ 0 0 0 3 3 3 1) [1, 2, p.getD 0 0])])
  (fun _ => revBackend_ok) (fun _ => seqBackend_ok) (by decide) (by decide) (by decide) (by decide) (by ex_seg) (by ex_seg) rfl rfl (by ex_seg) (fun _ => ⟨rfl, rfl⟩) (.inr (.inr ⟨rfl, .inr rfl⟩)) (exWith_args (by ex_args)) (exWith_args (by ex_args))
  (exWith_rd (exRat_ok rfl (by decide) (by decide)) rfl rfl) (by decide) (by decide) (by decide) (by decide) (exWith_rd (exRat_ok rfl (by decide) (by decide)) rfl rfl) 

/-- `cd_correct_bc_3d_cuda::set_poisson_bc`, upper side of direction 2: each ghost value is the one that `cd_correct_bc_1d_cuda::set_poisson_bc` stores for the line through it.
Not for Dirichlet conditions of order 0, where nothing is stored; the Poisson kernel in 1D has fixed coefficients in Robin conditions, so these must be the same here. -/
theorem C88_poisson_3d_k_upper_partial {i j i0 i1 j0 j1 k0 k1 g exOrder btype : Int} {dx dx' : Nat → T} {u u' : Ptr} {bLo bHi bLo' bHi' : Nat → Int} {alpha beta alpha' beta' : T} {β β' : Nat → Backend} {m m' : Mem T} {U : List Int → T}
    (hβ : ∀ n, ValidBackend (β n)) (hβ' : ∀ n, ValidBackend (β' n)) (hi : i0 ≤ i1) (hj : j0 ≤ j1) (hk : k0 ≤ k1) (hg : 0 ≤ g)
    (hs : ∀ n < 3, InInt (bLo n + 1) ∧ InInt (bHi n + 1)) (hs' : InInt (bLo' 0 + 1) ∧ InInt (bHi' 0 + 1)) (hb : bHi' 0 = bHi 2) (hx : dx' 0 = dx 2)
    (hf : Reach k0 k1 g (bHi 2) (-2) ∧ Meets i0 i1 (bLo 0) (bHi 0) ∧ Meets j0 j1 (bLo 1) (bHi 1))
    (ht : btype = 4 → alpha = 2 ∧ beta = 1) (ho : Stored btype exOrder)
    (h : F.Args m [] [F.cell3d u i0 j0 k0 i1 j1 k1 g]) (h' : F.Args m' [] [F.cell1d u' k0 k1 g])
    (hU : F.Holds m (F.cell3d u i0 j0 k0 i1 j1 k1 g) U) (ia : max i0 (bLo 0) ≤ i) (ib : i ≤ min i1 (bHi 0)) (ja : max j0 (bLo 1) ≤ j) (jb : j ≤ min j1 (bHi 1))
    (hU' : F.Holds m' (F.cell1d u' k0 k1 g) (fun p => U [i, j, p.getD 0 0])) :
    ∃ m1 m1' v, Cuda.setPoissonBc3d i0 i1 j0 j1 k0 k1 dx g u bLo bHi exOrder 5 1 btype alpha beta β m = .ok m1 ∧
      Cuda.setPoissonBc1d k0 k1 dx' g u' bLo' bHi' exOrder 1 btype alpha' beta' β' m' = .ok m1' ∧
      F.El m1 (F.cell3d u i0 j0 k0 i1 j1 k1 g) [i, j, bHi 2] v ∧ F.El m1' (F.cell1d u' k0 k1 g) [bHi' 0] v := by
  obtain ⟨m1, c1, q1⟩ := ghosts_p3d (dx := dx) (exOrder := exOrder) (face := 5) (btype := btype) (alpha := alpha) (beta := beta) hβ hi hj hk hg hs (fun e => absurd e (by decide)) (fun e => absurd e (by decide)) (fun e => absurd e (by decide)) (fun e => absurd e (by decide)) (fun e => absurd e (by decide)) (fun _ => hf) h
  have hs1 : ∀ n < 1, InInt (bLo' n + 1) ∧ InInt (bHi' n + 1) := fun n hn => by
    obtain rfl : n = 0 := by omega
    exact hs'
  obtain ⟨m1', c1', q1'⟩ := ghosts_p1d (dx := dx') (exOrder := exOrder) (face := 1) (btype := btype) (alpha := alpha') (beta := beta') (bLo := bLo') (bHi := bHi') hβ' hk hg hs1 (fun e => absurd e (by decide)) (fun _ => by rw [hb]; exact hf.1) h'
  have r := hf.1
  have rb : ∀ x, k0 - g ≤ x → x ≤ k1 + g → F.InBounds (F.cell3d u i0 j0 k0 i1 j1 k1 g).dims [i, j, x] := fun x xa xb => F.inBounds3.2 ⟨i, j, x, rfl, by simp only [max_le_iff, le_min_iff] at *; omega⟩
  have rb' : ∀ x, k0 - g ≤ x → x ≤ k1 + g → F.InBounds (F.cell1d u' k0 k1 g).dims [x] := fun x xa xb => F.inBounds1.2 ⟨x, rfl, by omega⟩
  unfold Reach at r
  have e : ∀ x, k0 - g ≤ x → x ≤ k1 + g → F.rd m (F.cell3d u i0 j0 k0 i1 j1 k1 g) [i, j, x] = F.rd m' (F.cell1d u' k0 k1 g) [x] := fun x xa xb => by
    rw [(hU _ (rb x xa xb)).rd, (hU' _ (rb' x xa xb)).rd]
    rfl
  obtain ⟨v, g1, g2⟩ := ho.ghost (alpha := 2) (beta := 1) (w := dx 2) (b := 1) (x1 := F.rd m (F.cell3d u i0 j0 k0 i1 j1 k1 g) [i, j, bHi 2 - 1]) (x2 := F.rd m (F.cell3d u i0 j0 k0 i1 j1 k1 g) [i, j, bHi 2 - 2]) false false
  refine ⟨m1, m1', v, c1, c1', ?_, ?_⟩
  · have g3 : ghost false btype exOrder alpha beta (dx 2) 1 (F.rd m (F.cell3d u i0 j0 k0 i1 j1 k1 g) [i, j, bHi 2 - 1]) (F.rd m (F.cell3d u i0 j0 k0 i1 j1 k1 g) [i, j, bHi 2 - 2]) = some v := by
      by_cases h4 : btype = 4
      · rw [(ht h4).1, (ht h4).2]; exact g1
      · rw [← g1]; simp only [ghost, h4, if_false]
    have t := q1.2.2.2.2.2 rfl i ia ib j ja jb v g3
    simpa using t
  · have t := q1'.2 rfl v (by rw [hb, hx, ← e (bHi 2 - 1) (by omega) (by omega), ← e (bHi 2 - 2) (by omega) (by omega)]; exact g2)
    simpa using t

example := C88_poisson_3d_k_upper_partial (T := Rat) (i := 1) (j := 2) (i0 := 0) (i1 := 3) (j0 := 0) (j1 := 3) (k0 := 0) (k1 := 3) (g := 1) (exOrder := 2) (btype := 4) (dx := exDx) (dx' := fun _ => exDx 2) (u := ⟨9, 0⟩) (u' := ⟨9, 0⟩) 
  (bLo := fun n => if n = 2 then -1 else 1) (bHi := fun n => if n = 2 then 4 else 2) (bLo' := fun _ => -1) (bHi' := fun _ => 4) (alpha := 2) (beta := 1) (alpha' := 3) (beta' := 5) (β := fun _ => revBackend) (β' := fun _ => seqBackend)
  (m := exWith [((F.cell3d ⟨9, 0⟩ 0 0 0 3 3 3 1), exRd (F.cell3d ⟨9, 0⟩ 0 0 0 3 3 3 1))])
  (m' := exWith [((F.cell1d ⟨9, 0⟩ 0 3 1), fun p => exRd (F.cell3d ⟨9, 0⟩ 0 0 0 3 3 3 1) [1, 2, p.getD 0 0])])
  (fun _ => revBackend_ok) (fun _ => seqBackend_ok) (by decide) (by decide) (by decide) (by decide) (by ex_seg) (by ex_seg) rfl rfl (by ex_seg) (fun _ => ⟨rfl, rfl⟩) (.inr (.inr ⟨rfl, .inr rfl⟩)) (exWith_args (by ex_args)) (exWith_args (by ex_args))
  (exWith_rd (exRat_ok rfl (by decide) (by decide)) rfl rfl) (by decide) (by decide) (by decide) (by decide) (exWith_rd (exRat_ok rfl (by decide) (by decide)) rfl rfl) 


/-- ones everywhere -/
def exOnes : Mem Rat := ⟨fun _ => some 1, fun _ => none⟩

/-- `cd_correct_bc_2d_cuda::set_bc`, Dirichlet conditions of order 0: the kernel stores 0 (src/cuda/cd_correct_bc_2d_cuda.cpp:56-58), the one in 1D leaves the ghost cell as it was. -/
theorem C88_2d_order0_false : ∃ m1 m1', Cuda.setBc2d 0 7 0 7 (fun _ => (1 / 2 : Rat)) 1 ⟨0, 0⟩ ⟨1, 0⟩ 1 ⟨9, 0⟩ (exSeg (-1) 0 0) (exSeg (-1) 7 0) 0 0 1 0 2 1 (fun _ => seqBackend) exOnes = .ok m1 ∧
    Cuda.setBc1d 0 7 (fun _ => (1 / 2 : Rat)) 1 ⟨0, 0⟩ 1 ⟨9, 0⟩ (exSeg (-1) 0 0) (exSeg (-1) 0 0) 0 0 0 2 1 (fun _ => seqBackend) exOnes = .ok m1' ∧
    F.El m1 (F.cell2d ⟨9, 0⟩ 0 0 7 7 1) [-1, 0] (0) ∧ F.El m1' (F.cell1d ⟨9, 0⟩ 0 7 1) [-1] (1) := by
  have h : leaves (Cuda.setBc2d 0 7 0 7 (fun _ => (1 / 2 : Rat)) 1 ⟨0, 0⟩ ⟨1, 0⟩ 1 ⟨9, 0⟩ (exSeg (-1) 0 0) (exSeg (-1) 7 0) 0 0 1 0 2 1 (fun _ => seqBackend) exOnes) ⟨9, 10⟩ = some (some (0)) := by decide +kernel
  have h' : leaves (Cuda.setBc1d 0 7 (fun _ => (1 / 2 : Rat)) 1 ⟨0, 0⟩ 1 ⟨9, 0⟩ (exSeg (-1) 0 0) (exSeg (-1) 0 0) 0 0 0 2 1 (fun _ => seqBackend) exOnes) ⟨9, 0⟩ = some (some (1)) := by decide +kernel
  obtain ⟨m1, h, hv⟩ := leaves_eq h
  obtain ⟨m1', h', hv'⟩ := leaves_eq h'
  exact ⟨m1, m1', h, h', ⟨by decide, hv⟩, ⟨by decide, hv'⟩⟩

/-- `cd_correct_bc_2d_cuda::set_poisson_bc`, Robin conditions across the second direction: the kernel leaves the ghost cells as they were, the one in 1D does not. -/
theorem C88_poisson_2d_robin_false : ∃ m1 m1', Cuda.setPoissonBc2d 0 7 0 7 (fun _ => (1 / 2 : Rat)) 1 ⟨9, 0⟩ (exSeg 0 (-1) 0) (exSeg 7 (-1) 0) 1 2 1 4 2 1 (fun _ => seqBackend) exOnes = .ok m1 ∧
    Cuda.setPoissonBc1d 0 7 (fun _ => (1 / 2 : Rat)) 1 ⟨9, 0⟩ (exSeg (-1) 0 0) (exSeg (-1) 0 0) 1 0 4 2 1 (fun _ => seqBackend) exOnes = .ok m1' ∧
    F.El m1 (F.cell2d ⟨9, 0⟩ 0 0 7 7 1) [0, -1] (1) ∧ F.El m1' (F.cell1d ⟨9, 0⟩ 0 7 1) [-1] (7 / 9) := by
  have h : leaves (Cuda.setPoissonBc2d 0 7 0 7 (fun _ => (1 / 2 : Rat)) 1 ⟨9, 0⟩ (exSeg 0 (-1) 0) (exSeg 7 (-1) 0) 1 2 1 4 2 1 (fun _ => seqBackend) exOnes) ⟨9, 1⟩ = some (some (1)) := by decide +kernel
  have h' : leaves (Cuda.setPoissonBc1d 0 7 (fun _ => (1 / 2 : Rat)) 1 ⟨9, 0⟩ (exSeg (-1) 0 0) (exSeg (-1) 0 0) 1 0 4 2 1 (fun _ => seqBackend) exOnes) ⟨9, 0⟩ = some (some (7 / 9)) := by decide +kernel
  obtain ⟨m1, h, hv⟩ := leaves_eq h
  obtain ⟨m1', h', hv'⟩ := leaves_eq h'
  exact ⟨m1, m1', h, h', ⟨by decide, hv⟩, ⟨by decide, hv'⟩⟩

/-- `cd_correct_bc_1d_cuda::set_poisson_bc`, Robin conditions: the arguments `alpha` and `beta` are not used, in 2D they are. -/
theorem C88_poisson_1d_robin_false : ∃ m1 m1', Cuda.setPoissonBc2d 0 7 0 7 (fun _ => (1 / 2 : Rat)) 1 ⟨9, 0⟩ (exSeg (-1) 0 0) (exSeg (-1) 7 0) 1 0 1 4 1 2 (fun _ => seqBackend) exOnes = .ok m1 ∧
    Cuda.setPoissonBc1d 0 7 (fun _ => (1 / 2 : Rat)) 1 ⟨9, 0⟩ (exSeg (-1) 0 0) (exSeg (-1) 0 0) 1 0 4 1 2 (fun _ => seqBackend) exOnes = .ok m1' ∧
    F.El m1 (F.cell2d ⟨9, 0⟩ 0 0 7 7 1) [-1, 0] (1 / 3) ∧ F.El m1' (F.cell1d ⟨9, 0⟩ 0 7 1) [-1] (7 / 9) := by
  have h : leaves (Cuda.setPoissonBc2d 0 7 0 7 (fun _ => (1 / 2 : Rat)) 1 ⟨9, 0⟩ (exSeg (-1) 0 0) (exSeg (-1) 7 0) 1 0 1 4 1 2 (fun _ => seqBackend) exOnes) ⟨9, 10⟩ = some (some (1 / 3)) := by decide +kernel
  have h' : leaves (Cuda.setPoissonBc1d 0 7 (fun _ => (1 / 2 : Rat)) 1 ⟨9, 0⟩ (exSeg (-1) 0 0) (exSeg (-1) 0 0) 1 0 4 1 2 (fun _ => seqBackend) exOnes) ⟨9, 0⟩ = some (some (7 / 9)) := by decide +kernel
  obtain ⟨m1, h, hv⟩ := leaves_eq h
  obtain ⟨m1', h', hv'⟩ := leaves_eq h'
  exact ⟨m1, m1', h, h', ⟨by decide, hv⟩, ⟨by decide, hv'⟩⟩

end Verif
