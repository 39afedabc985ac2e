import Verif.Lemmas.FineNest
import Verif.Props.Span
import Verif.Model.Kernels.CoarseFine

/-
C37: the coarse to fine copies leave the memory the Fortran routines leave.
-/

namespace Verif
open Spec

variable {T : Type} [Zero T] [Add T] [Sub T] [Mul T] [Div T] [Neg T]

/-! ### the three directions

The fine line lies in the fine array and its coarse cells in the coarse array.  Bounds that the axis does not use are built
as well and must not overflow.
-/

/-- `coarse_to_fine::copy` along x and `copycoarsetofine3d` with `axis = 0` leave the same memory, for every schedule. -/
theorem C37_copy_x {ci0 ci1 cj0 cj1 ck0 ck1 fi0 fi1 fj0 fj1 fk0 fk1 cbi0 cbi1 cbj0 cbj1 cbk0 cbk1 fbi0 fbi1 fbj0 fbj1 fbk0 fbk1 gcw : Int}
    {ratio : Nat → Int} {c f : Ptr} {β : Nat → Backend} {m : Mem T} (hβ : ∀ n, ValidBackend (β n)) (hr : 1 ≤ ratio 0) (hl : fi0 ≤ fi1)
    (hcb : cbi0 ≤ cbi1 ∧ cbj0 ≤ cbj1 ∧ cbk0 ≤ cbk1) (hfb : fbi0 ≤ fbi1 ∧ fbj0 ≤ fbj1 ∧ fbk0 ≤ fbk1) (hg : 0 ≤ gcw)
    (hfine : fbi0 - gcw ≤ fi0 ∧ fi1 ≤ fbi1 + gcw ∧ fbk0 - gcw ≤ fk0 ∧ fk0 ≤ fbk1 + gcw ∧ fbj0 - gcw ≤ fj0 ∧ fj0 ≤ fbj1 + gcw)
    (hcoarse : cbi0 - gcw ≤ fi0 / ratio 0 ∧ fi1 / ratio 0 ≤ cbi1 + gcw ∧ cbk0 - gcw ≤ ck0 ∧ ck0 ≤ cbk1 + gcw ∧ cbj0 - gcw ≤ cj0 ∧ cj0 ≤ cbj1 + gcw)
    (hint : InInt (ci0 + 1) ∧ InInt (fi0 + 1) ∧ InInt (fi1 + 1) ∧ InInt (cj0 + 1) ∧ InInt (fj0 + 1) ∧ InInt (fj1 + 1) ∧
      InInt (ck0 + 1) ∧ InInt (fk0 + 1) ∧ InInt (fk1 + 1))
    (h : F.Args m [F.cell3d c cbi0 cbj0 cbk0 cbi1 cbj1 cbk1 gcw] [F.cell3d f fbi0 fbj0 fbk0 fbi1 fbj1 fbk1 gcw]) :
    ∃ m', Cuda.c2fCopy ci0 ci1 cj0 cj1 ck0 ck1 fi0 fi1 fj0 fj1 fk0 fk1 0 cbi0 cbi1 cbj0 cbj1 cbk0 cbk1 fbi0 fbi1 fbj0 fbj1 fbk0 fbk1 gcw ratio c f β m = .ok m' ∧
      F.copycoarsetofine3d ci0 ci1 cj0 cj1 ck0 ck1 fi0 fi1 fj0 fj1 fk0 fk1 0 cbi0 cbi1 cbj0 cbj1 cbk0 cbk1 fbi0 fbi1 fbj0 fbj1 fbk0 fbk1 gcw ratio c f m = .ok m' := by
  have hc := h.ok (F.cell3d c cbi0 cbj0 cbk0 cbi1 cbj1 cbk1 gcw) (by simp)
  have hf := h.ok (F.cell3d f fbi0 fbj0 fbk0 fbi1 fbj1 fbk1 gcw) (by simp)
  have Ic := hc.int
  have If := hf.int
  simp only [F.cell3d, List.mem_cons, List.not_mem_nil, or_false, forall_eq_or_imp, forall_eq, InInt] at Ic If
  have mcK := mkB_ok (d := .K) (lo := cbk0) (hi := cbk1) (by list_omega)
  have mcJ := mkB_ok (d := .J) (lo := cbj0) (hi := cbj1) (by list_omega)
  have mcI := mkB_ok (d := .I) (lo := cbi0) (hi := cbi1) (by list_omega)
  have mfK := mkB_ok (d := .K) (lo := fbk0) (hi := fbk1) (by list_omega)
  have mfJ := mkB_ok (d := .J) (lo := fbj0) (hi := fbj1) (by list_omega)
  have mfI := mkB_ok (d := .I) (lo := fbi0) (hi := fbi1) (by list_omega)
  have spc : makeSpanOffset c gcw [(.K, ⟨cbk0, cbk1 + 1, 1⟩), (.J, ⟨cbj0, cbj1 + 1, 1⟩), (.I, ⟨cbi0, cbi1 + 1, 1⟩)] =
      .ok (sCell3 c cbi0 cbj0 cbk0 cbi1 cbj1 cbk1 gcw) := makeSpanOffset_ok (by simp) (by list_omega)
  have spf : makeSpanOffset f gcw [(.K, ⟨fbk0, fbk1 + 1, 1⟩), (.J, ⟨fbj0, fbj1 + 1, 1⟩), (.I, ⟨fbi0, fbi1 + 1, 1⟩)] =
      .ok (sCell3 f fbi0 fbj0 fbk0 fbi1 fbj1 fbk1 gcw) := makeSpanOffset_ok (by simp) (by list_omega)
  have m1 := mkB_ok (d := .I) (lo := ci0) (hi := ci0) hint.1
  have m2 := mkB_ok (d := .I) (lo := fi0) (hi := fi0) hint.2.1
  have m3 := mkB_ok (d := .I) (lo := fi0) (hi := fi1) hint.2.2.1
  have m4 := mkB_ok (d := .J) (lo := cj0) (hi := cj0) hint.2.2.2.1
  have m5 := mkB_ok (d := .J) (lo := fj0) (hi := fj0) hint.2.2.2.2.1
  have m6 := mkB_ok (d := .J) (lo := fj0) (hi := fj1) hint.2.2.2.2.2.1
  have m7 := mkB_ok (d := .K) (lo := ck0) (hi := ck0) hint.2.2.2.2.2.2.1
  have m8 := mkB_ok (d := .K) (lo := fk0) (hi := fk0) hint.2.2.2.2.2.2.2.1
  have m9 := mkB_ok (d := .K) (lo := fk0) (hi := fk1) hint.2.2.2.2.2.2.2.2
  have Ac : ArrOK m (sCell3 c cbi0 cbj0 cbk0 cbi1 cbj1 cbk1 gcw) := by arr_ok hc
  have Af : ArrOK m (sCell3 f fbi0 fbj0 fbk0 fbi1 fbj1 fbk1 gcw) := by arr_ok hf
  have P : Apart (sCell3 f fbi0 fbj0 fbk0 fbi1 fbj1 fbk1 gcw) (sCell3 c cbi0 cbj0 cbk0 cbi1 cbj1 cbk1 gcw) := by apart_ok (h.apart _ (by simp) _ (by simp))
  have hdiv : ∀ i, fi0 ≤ i → i ≤ fi1 → fi0 / ratio 0 ≤ i / ratio 0 ∧ i / ratio 0 ≤ fi1 / ratio 0 := fun i h0 h1 =>
    ⟨Int.ediv_le_ediv (by omega) h0, Int.ediv_le_ediv (by omega) h1⟩
  have hD : UnitDom [(Dim.K, ⟨fk0, fk0 + 1, 1⟩), (Dim.J, ⟨fj0, fj0 + 1, 1⟩), (Dim.I, ⟨fi0, fi1 + 1, 1⟩)] := by unit_dom
  have hin : ∀ p, InDom [(Dim.K, ⟨fk0, fk0 + 1, 1⟩), (Dim.J, ⟨fj0, fj0 + 1, 1⟩), (Dim.I, ⟨fi0, fi1 + 1, 1⟩)] p →
      Inside (sCell3 c cbi0 cbj0 cbk0 cbi1 cbj1 cbk1 gcw).geo (finePt (ratio 0) [(.K, ⟨ck0, ck0 + 1, 1⟩), (.J, ⟨cj0, cj0 + 1, 1⟩)] p) := by
    intro p hp
    have hp' := hp (.I, ⟨fi0, fi1 + 1, 1⟩) (by simp)
    simp only [IsPoint, InRange] at hp'
    have := hdiv (p .I) (by omega) (by omega)
    intro x hx
    simp only [sCell3, List.mem_cons, List.not_mem_nil, or_false] at hx
    rcases hx with rfl | rfl | rfl <;> simp [InRange, finePt, bnd] <;> omega
  obtain ⟨m', e1, e2⟩ := fine_nest (lhs := sCell3 f fbi0 fbj0 fbk0 fbi1 fbj1 fbk1 gcw) (c := sCell3 c cbi0 cbj0 cbk0 cbi1 cbj1 cbk1 gcw)
    (r := ratio 0) (cb := [(.K, ⟨ck0, ck0 + 1, 1⟩), (.J, ⟨cj0, cj0 + 1, 1⟩)]) (D := [(.K, ⟨fk0, fk0 + 1, 1⟩), (.J, ⟨fj0, fj0 + 1, 1⟩), (.I, ⟨fi0, fi1 + 1, 1⟩)]) (rr := [(.K, fk0, fk0), (.J, fj0, fj0), (.I, fi0, fi1)]) (p0 := fun _ => 0)
    (stmt := fun p => F.assign (F.cell3d f fbi0 fbj0 fbk0 fbi1 fbj1 fbk1 gcw) [p .I, p .J, p .K] (.ref (F.cell3d c cbi0 cbj0 cbk0 cbi1 cbj1 cbk1 gcw) [F.coarse (p .I) (ratio 0), cj0, ck0]))
    (hβ 0) hD Af (by within) Ac P
    { ratio := hr
      geo := Ac.geo
      nodup := hD.nodup
      cnodup := by simp
      len := rfl
      glen := rfl
      line := ⟨.I, ⟨fi0, fi1 + 1, 1⟩, by simp, by simp, by simp [sCell3], rfl, by dsimp only; omega, by simp [count], by simp [sCell3]⟩
      inside := fun k h0 h1 => hin _ (pt_inDom ⟨hD.nodup, fun x hx => ⟨(hD.bnds x hx).2, (hD.bnds x hx).1.ge⟩⟩ h0 h1) }
    hin (by dims) (by same_dims) (by intro p; list_omega) (by
      intro p hp
      refine ⟨_, _, by rw [farr_cell3, farr_cell3], by simp [sCell3], ?_⟩
      simp [sCell3, finePt, bnd, coarse_floor hr])
  refine ⟨m', ?_, ?_⟩
  · unfold Cuda.c2fCopy
    exact bind_step mcK <| bind_step mcJ <| bind_step mcI <| bind_step spc <| bind_step mfK <| bind_step mfJ <| bind_step mfI <| bind_step spf <| bind_step m1 <| bind_step m2 <| bind_step m3 <| bind_step m4 <| bind_step m5 <| bind_step m6 <| bind_step m7 <| bind_step m8 <| bind_step m9 <| bind_step e1 rfl
  · rw [← e2]
    simp only [F.copycoarsetofine3d, F.nest, doLoop_one]
    rfl

example : ∃ m', Cuda.c2fCopy (-2) 1 1 1 2 2 (-3) 3 2 2 5 5 0 (-2) 2 0 2 0 3 (-4) 4 1 3 4 6 1 (fun n => n + 2) ⟨0, 0⟩ ⟨1, 0⟩ (fun _ => revBackend) exRat = .ok m' ∧
    F.copycoarsetofine3d (-2) 1 1 1 2 2 (-3) 3 2 2 5 5 0 (-2) 2 0 2 0 3 (-4) 4 1 3 4 6 1 (fun n => n + 2) ⟨0, 0⟩ ⟨1, 0⟩ exRat = .ok m' :=
  C37_copy_x (fun _ => revBackend_ok) (by decide) (by decide) (by decide) (by decide) (by decide) (by decide) (by decide) (by unfold InInt; decide) (by ex_args)

/-- `coarse_to_fine::copy` along y and `copycoarsetofine3d` with `axis = 1` leave the same memory, for every schedule. -/
theorem C37_copy_y {ci0 ci1 cj0 cj1 ck0 ck1 fi0 fi1 fj0 fj1 fk0 fk1 cbi0 cbi1 cbj0 cbj1 cbk0 cbk1 fbi0 fbi1 fbj0 fbj1 fbk0 fbk1 gcw : Int}
    {ratio : Nat → Int} {c f : Ptr} {β : Nat → Backend} {m : Mem T} (hβ : ∀ n, ValidBackend (β n)) (hr : 1 ≤ ratio 1) (hl : fj0 ≤ fj1)
    (hcb : cbi0 ≤ cbi1 ∧ cbj0 ≤ cbj1 ∧ cbk0 ≤ cbk1) (hfb : fbi0 ≤ fbi1 ∧ fbj0 ≤ fbj1 ∧ fbk0 ≤ fbk1) (hg : 0 ≤ gcw)
    (hfine : fbj0 - gcw ≤ fj0 ∧ fj1 ≤ fbj1 + gcw ∧ fbk0 - gcw ≤ fk0 ∧ fk0 ≤ fbk1 + gcw ∧ fbi0 - gcw ≤ fi0 ∧ fi0 ≤ fbi1 + gcw)
    (hcoarse : cbj0 - gcw ≤ fj0 / ratio 1 ∧ fj1 / ratio 1 ≤ cbj1 + gcw ∧ cbk0 - gcw ≤ ck0 ∧ ck0 ≤ cbk1 + gcw ∧ cbi0 - gcw ≤ ci0 ∧ ci0 ≤ cbi1 + gcw)
    (hint : InInt (ci0 + 1) ∧ InInt (fi0 + 1) ∧ InInt (fi1 + 1) ∧ InInt (cj0 + 1) ∧ InInt (fj0 + 1) ∧ InInt (fj1 + 1) ∧
      InInt (ck0 + 1) ∧ InInt (fk0 + 1) ∧ InInt (fk1 + 1))
    (h : F.Args m [F.cell3d c cbi0 cbj0 cbk0 cbi1 cbj1 cbk1 gcw] [F.cell3d f fbi0 fbj0 fbk0 fbi1 fbj1 fbk1 gcw]) :
    ∃ m', Cuda.c2fCopy ci0 ci1 cj0 cj1 ck0 ck1 fi0 fi1 fj0 fj1 fk0 fk1 1 cbi0 cbi1 cbj0 cbj1 cbk0 cbk1 fbi0 fbi1 fbj0 fbj1 fbk0 fbk1 gcw ratio c f β m = .ok m' ∧
      F.copycoarsetofine3d ci0 ci1 cj0 cj1 ck0 ck1 fi0 fi1 fj0 fj1 fk0 fk1 1 cbi0 cbi1 cbj0 cbj1 cbk0 cbk1 fbi0 fbi1 fbj0 fbj1 fbk0 fbk1 gcw ratio c f m = .ok m' := by
  have hc := h.ok (F.cell3d c cbi0 cbj0 cbk0 cbi1 cbj1 cbk1 gcw) (by simp)
  have hf := h.ok (F.cell3d f fbi0 fbj0 fbk0 fbi1 fbj1 fbk1 gcw) (by simp)
  have Ic := hc.int
  have If := hf.int
  simp only [F.cell3d, List.mem_cons, List.not_mem_nil, or_false, forall_eq_or_imp, forall_eq, InInt] at Ic If
  have mcK := mkB_ok (d := .K) (lo := cbk0) (hi := cbk1) (by list_omega)
  have mcJ := mkB_ok (d := .J) (lo := cbj0) (hi := cbj1) (by list_omega)
  have mcI := mkB_ok (d := .I) (lo := cbi0) (hi := cbi1) (by list_omega)
  have mfK := mkB_ok (d := .K) (lo := fbk0) (hi := fbk1) (by list_omega)
  have mfJ := mkB_ok (d := .J) (lo := fbj0) (hi := fbj1) (by list_omega)
  have mfI := mkB_ok (d := .I) (lo := fbi0) (hi := fbi1) (by list_omega)
  have spc : makeSpanOffset c gcw [(.K, ⟨cbk0, cbk1 + 1, 1⟩), (.J, ⟨cbj0, cbj1 + 1, 1⟩), (.I, ⟨cbi0, cbi1 + 1, 1⟩)] =
      .ok (sCell3 c cbi0 cbj0 cbk0 cbi1 cbj1 cbk1 gcw) := makeSpanOffset_ok (by simp) (by list_omega)
  have spf : makeSpanOffset f gcw [(.K, ⟨fbk0, fbk1 + 1, 1⟩), (.J, ⟨fbj0, fbj1 + 1, 1⟩), (.I, ⟨fbi0, fbi1 + 1, 1⟩)] =
      .ok (sCell3 f fbi0 fbj0 fbk0 fbi1 fbj1 fbk1 gcw) := makeSpanOffset_ok (by simp) (by list_omega)
  have m1 := mkB_ok (d := .I) (lo := ci0) (hi := ci0) hint.1
  have m2 := mkB_ok (d := .I) (lo := fi0) (hi := fi0) hint.2.1
  have m3 := mkB_ok (d := .I) (lo := fi0) (hi := fi1) hint.2.2.1
  have m4 := mkB_ok (d := .J) (lo := cj0) (hi := cj0) hint.2.2.2.1
  have m5 := mkB_ok (d := .J) (lo := fj0) (hi := fj0) hint.2.2.2.2.1
  have m6 := mkB_ok (d := .J) (lo := fj0) (hi := fj1) hint.2.2.2.2.2.1
  have m7 := mkB_ok (d := .K) (lo := ck0) (hi := ck0) hint.2.2.2.2.2.2.1
  have m8 := mkB_ok (d := .K) (lo := fk0) (hi := fk0) hint.2.2.2.2.2.2.2.1
  have m9 := mkB_ok (d := .K) (lo := fk0) (hi := fk1) hint.2.2.2.2.2.2.2.2
  have Ac : ArrOK m (sCell3 c cbi0 cbj0 cbk0 cbi1 cbj1 cbk1 gcw) := by arr_ok hc
  have Af : ArrOK m (sCell3 f fbi0 fbj0 fbk0 fbi1 fbj1 fbk1 gcw) := by arr_ok hf
  have P : Apart (sCell3 f fbi0 fbj0 fbk0 fbi1 fbj1 fbk1 gcw) (sCell3 c cbi0 cbj0 cbk0 cbi1 cbj1 cbk1 gcw) := by apart_ok (h.apart _ (by simp) _ (by simp))
  have hdiv : ∀ i, fj0 ≤ i → i ≤ fj1 → fj0 / ratio 1 ≤ i / ratio 1 ∧ i / ratio 1 ≤ fj1 / ratio 1 := fun i h0 h1 =>
    ⟨Int.ediv_le_ediv (by omega) h0, Int.ediv_le_ediv (by omega) h1⟩
  have hD : UnitDom [(Dim.K, ⟨fk0, fk0 + 1, 1⟩), (Dim.J, ⟨fj0, fj1 + 1, 1⟩), (Dim.I, ⟨fi0, fi0 + 1, 1⟩)] := by unit_dom
  have hin : ∀ p, InDom [(Dim.K, ⟨fk0, fk0 + 1, 1⟩), (Dim.J, ⟨fj0, fj1 + 1, 1⟩), (Dim.I, ⟨fi0, fi0 + 1, 1⟩)] p →
      Inside (sCell3 c cbi0 cbj0 cbk0 cbi1 cbj1 cbk1 gcw).geo (finePt (ratio 1) [(.K, ⟨ck0, ck0 + 1, 1⟩), (.I, ⟨ci0, ci0 + 1, 1⟩)] p) := by
    intro p hp
    have hp' := hp (.J, ⟨fj0, fj1 + 1, 1⟩) (by simp)
    simp only [IsPoint, InRange] at hp'
    have := hdiv (p .J) (by omega) (by omega)
    intro x hx
    simp only [sCell3, List.mem_cons, List.not_mem_nil, or_false] at hx
    rcases hx with rfl | rfl | rfl <;> simp [InRange, finePt, bnd] <;> omega
  obtain ⟨m', e1, e2⟩ := fine_nest (lhs := sCell3 f fbi0 fbj0 fbk0 fbi1 fbj1 fbk1 gcw) (c := sCell3 c cbi0 cbj0 cbk0 cbi1 cbj1 cbk1 gcw)
    (r := ratio 1) (cb := [(.K, ⟨ck0, ck0 + 1, 1⟩), (.I, ⟨ci0, ci0 + 1, 1⟩)]) (D := [(.K, ⟨fk0, fk0 + 1, 1⟩), (.J, ⟨fj0, fj1 + 1, 1⟩), (.I, ⟨fi0, fi0 + 1, 1⟩)]) (rr := [(.K, fk0, fk0), (.J, fj0, fj1), (.I, fi0, fi0)]) (p0 := fun _ => 0)
    (stmt := fun p => F.assign (F.cell3d f fbi0 fbj0 fbk0 fbi1 fbj1 fbk1 gcw) [p .I, p .J, p .K] (.ref (F.cell3d c cbi0 cbj0 cbk0 cbi1 cbj1 cbk1 gcw) [ci0, F.coarse (p .J) (ratio 1), ck0]))
    (hβ 0) hD Af (by within) Ac P
    { ratio := hr
      geo := Ac.geo
      nodup := hD.nodup
      cnodup := by simp
      len := rfl
      glen := rfl
      line := ⟨.J, ⟨fj0, fj1 + 1, 1⟩, by simp, by simp, by simp [sCell3], rfl, by dsimp only; omega, by simp [count], by simp [sCell3]⟩
      inside := fun k h0 h1 => hin _ (pt_inDom ⟨hD.nodup, fun x hx => ⟨(hD.bnds x hx).2, (hD.bnds x hx).1.ge⟩⟩ h0 h1) }
    hin (by dims) (by same_dims) (by intro p; list_omega) (by
      intro p hp
      refine ⟨_, _, by rw [farr_cell3, farr_cell3], by simp [sCell3], ?_⟩
      simp [sCell3, finePt, bnd, coarse_floor hr])
  refine ⟨m', ?_, ?_⟩
  · unfold Cuda.c2fCopy
    exact bind_step mcK <| bind_step mcJ <| bind_step mcI <| bind_step spc <| bind_step mfK <| bind_step mfJ <| bind_step mfI <| bind_step spf <| bind_step m1 <| bind_step m2 <| bind_step m3 <| bind_step m4 <| bind_step m5 <| bind_step m6 <| bind_step m7 <| bind_step m8 <| bind_step m9 <| bind_step e1 rfl
  · rw [← e2]
    simp only [F.copycoarsetofine3d, F.nest, doLoop_one]
    rfl

example : ∃ m', Cuda.c2fCopy 1 1 (-2) 1 2 2 2 2 (-4) 4 5 5 1 0 2 (-2) 2 0 3 1 3 (-4) 4 4 6 1 (fun n => n + 2) ⟨0, 0⟩ ⟨1, 0⟩ (fun _ => revBackend) exRat = .ok m' ∧
    F.copycoarsetofine3d 1 1 (-2) 1 2 2 2 2 (-4) 4 5 5 1 0 2 (-2) 2 0 3 1 3 (-4) 4 4 6 1 (fun n => n + 2) ⟨0, 0⟩ ⟨1, 0⟩ exRat = .ok m' :=
  C37_copy_y (fun _ => revBackend_ok) (by decide) (by decide) (by decide) (by decide) (by decide) (by decide) (by decide) (by unfold InInt; decide) (by ex_args)

/-- `coarse_to_fine::copy` along z and `copycoarsetofine3d` with `axis = 2` leave the same memory, for every schedule. -/
theorem C37_copy_z {ci0 ci1 cj0 cj1 ck0 ck1 fi0 fi1 fj0 fj1 fk0 fk1 cbi0 cbi1 cbj0 cbj1 cbk0 cbk1 fbi0 fbi1 fbj0 fbj1 fbk0 fbk1 gcw : Int}
    {ratio : Nat → Int} {c f : Ptr} {β : Nat → Backend} {m : Mem T} (hβ : ∀ n, ValidBackend (β n)) (hr : 1 ≤ ratio 2) (hl : fk0 ≤ fk1)
    (hcb : cbi0 ≤ cbi1 ∧ cbj0 ≤ cbj1 ∧ cbk0 ≤ cbk1) (hfb : fbi0 ≤ fbi1 ∧ fbj0 ≤ fbj1 ∧ fbk0 ≤ fbk1) (hg : 0 ≤ gcw)
    (hfine : fbk0 - gcw ≤ fk0 ∧ fk1 ≤ fbk1 + gcw ∧ fbj0 - gcw ≤ fj0 ∧ fj0 ≤ fbj1 + gcw ∧ fbi0 - gcw ≤ fi0 ∧ fi0 ≤ fbi1 + gcw)
    (hcoarse : cbk0 - gcw ≤ fk0 / ratio 2 ∧ fk1 / ratio 2 ≤ cbk1 + gcw ∧ cbj0 - gcw ≤ cj0 ∧ cj0 ≤ cbj1 + gcw ∧ cbi0 - gcw ≤ ci0 ∧ ci0 ≤ cbi1 + gcw)
    (hint : InInt (ci0 + 1) ∧ InInt (fi0 + 1) ∧ InInt (fi1 + 1) ∧ InInt (cj0 + 1) ∧ InInt (fj0 + 1) ∧ InInt (fj1 + 1) ∧
      InInt (ck0 + 1) ∧ InInt (fk0 + 1) ∧ InInt (fk1 + 1))
    (h : F.Args m [F.cell3d c cbi0 cbj0 cbk0 cbi1 cbj1 cbk1 gcw] [F.cell3d f fbi0 fbj0 fbk0 fbi1 fbj1 fbk1 gcw]) :
    ∃ m', Cuda.c2fCopy ci0 ci1 cj0 cj1 ck0 ck1 fi0 fi1 fj0 fj1 fk0 fk1 2 cbi0 cbi1 cbj0 cbj1 cbk0 cbk1 fbi0 fbi1 fbj0 fbj1 fbk0 fbk1 gcw ratio c f β m = .ok m' ∧
      F.copycoarsetofine3d ci0 ci1 cj0 cj1 ck0 ck1 fi0 fi1 fj0 fj1 fk0 fk1 2 cbi0 cbi1 cbj0 cbj1 cbk0 cbk1 fbi0 fbi1 fbj0 fbj1 fbk0 fbk1 gcw ratio c f m = .ok m' := by
  have hc := h.ok (F.cell3d c cbi0 cbj0 cbk0 cbi1 cbj1 cbk1 gcw) (by simp)
  have hf := h.ok (F.cell3d f fbi0 fbj0 fbk0 fbi1 fbj1 fbk1 gcw) (by simp)
  have Ic := hc.int
  have If := hf.int
  simp only [F.cell3d, List.mem_cons, List.not_mem_nil, or_false, forall_eq_or_imp, forall_eq, InInt] at Ic If
  have mcK := mkB_ok (d := .K) (lo := cbk0) (hi := cbk1) (by list_omega)
  have mcJ := mkB_ok (d := .J) (lo := cbj0) (hi := cbj1) (by list_omega)
  have mcI := mkB_ok (d := .I) (lo := cbi0) (hi := cbi1) (by list_omega)
  have mfK := mkB_ok (d := .K) (lo := fbk0) (hi := fbk1) (by list_omega)
  have mfJ := mkB_ok (d := .J) (lo := fbj0) (hi := fbj1) (by list_omega)
  have mfI := mkB_ok (d := .I) (lo := fbi0) (hi := fbi1) (by list_omega)
  have spc : makeSpanOffset c gcw [(.K, ⟨cbk0, cbk1 + 1, 1⟩), (.J, ⟨cbj0, cbj1 + 1, 1⟩), (.I, ⟨cbi0, cbi1 + 1, 1⟩)] =
      .ok (sCell3 c cbi0 cbj0 cbk0 cbi1 cbj1 cbk1 gcw) := makeSpanOffset_ok (by simp) (by list_omega)
  have spf : makeSpanOffset f gcw [(.K, ⟨fbk0, fbk1 + 1, 1⟩), (.J, ⟨fbj0, fbj1 + 1, 1⟩), (.I, ⟨fbi0, fbi1 + 1, 1⟩)] =
      .ok (sCell3 f fbi0 fbj0 fbk0 fbi1 fbj1 fbk1 gcw) := makeSpanOffset_ok (by simp) (by list_omega)
  have m1 := mkB_ok (d := .I) (lo := ci0) (hi := ci0) hint.1
  have m2 := mkB_ok (d := .I) (lo := fi0) (hi := fi0) hint.2.1
  have m3 := mkB_ok (d := .I) (lo := fi0) (hi := fi1) hint.2.2.1
  have m4 := mkB_ok (d := .J) (lo := cj0) (hi := cj0) hint.2.2.2.1
  have m5 := mkB_ok (d := .J) (lo := fj0) (hi := fj0) hint.2.2.2.2.1
  have m6 := mkB_ok (d := .J) (lo := fj0) (hi := fj1) hint.2.2.2.2.2.1
  have m7 := mkB_ok (d := .K) (lo := ck0) (hi := ck0) hint.2.2.2.2.2.2.1
  have m8 := mkB_ok (d := .K) (lo := fk0) (hi := fk0) hint.2.2.2.2.2.2.2.1
  have m9 := mkB_ok (d := .K) (lo := fk0) (hi := fk1) hint.2.2.2.2.2.2.2.2
  have Ac : ArrOK m (sCell3 c cbi0 cbj0 cbk0 cbi1 cbj1 cbk1 gcw) := by arr_ok hc
  have Af : ArrOK m (sCell3 f fbi0 fbj0 fbk0 fbi1 fbj1 fbk1 gcw) := by arr_ok hf
  have P : Apart (sCell3 f fbi0 fbj0 fbk0 fbi1 fbj1 fbk1 gcw) (sCell3 c cbi0 cbj0 cbk0 cbi1 cbj1 cbk1 gcw) := by apart_ok (h.apart _ (by simp) _ (by simp))
  have hdiv : ∀ i, fk0 ≤ i → i ≤ fk1 → fk0 / ratio 2 ≤ i / ratio 2 ∧ i / ratio 2 ≤ fk1 / ratio 2 := fun i h0 h1 =>
    ⟨Int.ediv_le_ediv (by omega) h0, Int.ediv_le_ediv (by omega) h1⟩
  have hD : UnitDom [(Dim.K, ⟨fk0, fk1 + 1, 1⟩), (Dim.J, ⟨fj0, fj0 + 1, 1⟩), (Dim.I, ⟨fi0, fi0 + 1, 1⟩)] := by unit_dom
  have hin : ∀ p, InDom [(Dim.K, ⟨fk0, fk1 + 1, 1⟩), (Dim.J, ⟨fj0, fj0 + 1, 1⟩), (Dim.I, ⟨fi0, fi0 + 1, 1⟩)] p →
      Inside (sCell3 c cbi0 cbj0 cbk0 cbi1 cbj1 cbk1 gcw).geo (finePt (ratio 2) [(.J, ⟨cj0, cj0 + 1, 1⟩), (.I, ⟨ci0, ci0 + 1, 1⟩)] p) := by
    intro p hp
    have hp' := hp (.K, ⟨fk0, fk1 + 1, 1⟩) (by simp)
    simp only [IsPoint, InRange] at hp'
    have := hdiv (p .K) (by omega) (by omega)
    intro x hx
    simp only [sCell3, List.mem_cons, List.not_mem_nil, or_false] at hx
    rcases hx with rfl | rfl | rfl <;> simp [InRange, finePt, bnd] <;> omega
  obtain ⟨m', e1, e2⟩ := fine_nest (lhs := sCell3 f fbi0 fbj0 fbk0 fbi1 fbj1 fbk1 gcw) (c := sCell3 c cbi0 cbj0 cbk0 cbi1 cbj1 cbk1 gcw)
    (r := ratio 2) (cb := [(.J, ⟨cj0, cj0 + 1, 1⟩), (.I, ⟨ci0, ci0 + 1, 1⟩)]) (D := [(.K, ⟨fk0, fk1 + 1, 1⟩), (.J, ⟨fj0, fj0 + 1, 1⟩), (.I, ⟨fi0, fi0 + 1, 1⟩)]) (rr := [(.K, fk0, fk1), (.J, fj0, fj0), (.I, fi0, fi0)]) (p0 := fun _ => 0)
    (stmt := fun p => F.assign (F.cell3d f fbi0 fbj0 fbk0 fbi1 fbj1 fbk1 gcw) [p .I, p .J, p .K] (.ref (F.cell3d c cbi0 cbj0 cbk0 cbi1 cbj1 cbk1 gcw) [ci0, cj0, F.coarse (p .K) (ratio 2)]))
    (hβ 0) hD Af (by within) Ac P
    { ratio := hr
      geo := Ac.geo
      nodup := hD.nodup
      cnodup := by simp
      len := rfl
      glen := rfl
      line := ⟨.K, ⟨fk0, fk1 + 1, 1⟩, by simp, by simp, by simp [sCell3], rfl, by dsimp only; omega, by simp [count], by simp [sCell3]⟩
      inside := fun k h0 h1 => hin _ (pt_inDom ⟨hD.nodup, fun x hx => ⟨(hD.bnds x hx).2, (hD.bnds x hx).1.ge⟩⟩ h0 h1) }
    hin (by dims) (by same_dims) (by intro p; list_omega) (by
      intro p hp
      refine ⟨_, _, by rw [farr_cell3, farr_cell3], by simp [sCell3], ?_⟩
      simp [sCell3, finePt, bnd, coarse_floor hr])
  refine ⟨m', ?_, ?_⟩
  · unfold Cuda.c2fCopy
    exact bind_step mcK <| bind_step mcJ <| bind_step mcI <| bind_step spc <| bind_step mfK <| bind_step mfJ <| bind_step mfI <| bind_step spf <| bind_step m1 <| bind_step m2 <| bind_step m3 <| bind_step m4 <| bind_step m5 <| bind_step m6 <| bind_step m7 <| bind_step m8 <| bind_step m9 <| bind_step e1 rfl
  · rw [← e2]
    simp only [F.copycoarsetofine3d, F.nest, doLoop_one]
    rfl

example : ∃ m', Cuda.c2fCopy 1 1 2 2 (-2) 1 2 2 5 5 (-5) 4 2 0 2 0 3 (-2) 2 1 3 4 6 (-4) 4 1 (fun n => n + 2) ⟨0, 0⟩ ⟨1, 0⟩ (fun _ => revBackend) exRat = .ok m' ∧
    F.copycoarsetofine3d 1 1 2 2 (-2) 1 2 2 5 5 (-5) 4 2 0 2 0 3 (-2) 2 1 3 4 6 (-4) 4 1 (fun n => n + 2) ⟨0, 0⟩ ⟨1, 0⟩ exRat = .ok m' :=
  C37_copy_z (fun _ => revBackend_ok) (by decide) (by decide) (by decide) (by decide) (by decide) (by decide) (by decide) (by unfold InInt; decide) (by ex_args)

omit [Zero T] in
/-- With any other axis both leave the memory as it is. -/
theorem C37_copy_other {ci0 ci1 cj0 cj1 ck0 ck1 fi0 fi1 fj0 fj1 fk0 fk1 axis cbi0 cbi1 cbj0 cbj1 cbk0 cbk1 fbi0 fbi1 fbj0 fbj1 fbk0 fbk1 gcw : Int}
    {ratio : Nat → Int} {c f : Ptr} {β : Nat → Backend} {m : Mem T} (ha : axis ≠ 0 ∧ axis ≠ 1 ∧ axis ≠ 2)
    (hcb : cbi0 ≤ cbi1 ∧ cbj0 ≤ cbj1 ∧ cbk0 ≤ cbk1) (hfb : fbi0 ≤ fbi1 ∧ fbj0 ≤ fbj1 ∧ fbk0 ≤ fbk1) (hg : 0 ≤ gcw)
    (hint : InInt (ci0 + 1) ∧ InInt (fi0 + 1) ∧ InInt (fi1 + 1) ∧ InInt (cj0 + 1) ∧ InInt (fj0 + 1) ∧ InInt (fj1 + 1) ∧
      InInt (ck0 + 1) ∧ InInt (fk0 + 1) ∧ InInt (fk1 + 1))
    (h : F.Args m [F.cell3d c cbi0 cbj0 cbk0 cbi1 cbj1 cbk1 gcw] [F.cell3d f fbi0 fbj0 fbk0 fbi1 fbj1 fbk1 gcw]) :
    Cuda.c2fCopy ci0 ci1 cj0 cj1 ck0 ck1 fi0 fi1 fj0 fj1 fk0 fk1 axis cbi0 cbi1 cbj0 cbj1 cbk0 cbk1 fbi0 fbi1 fbj0 fbj1 fbk0 fbk1 gcw ratio c f β m = .ok m ∧
      F.copycoarsetofine3d ci0 ci1 cj0 cj1 ck0 ck1 fi0 fi1 fj0 fj1 fk0 fk1 axis cbi0 cbi1 cbj0 cbj1 cbk0 cbk1 fbi0 fbi1 fbj0 fbj1 fbk0 fbk1 gcw ratio c f m = .ok m := by
  have hc := h.ok (F.cell3d c cbi0 cbj0 cbk0 cbi1 cbj1 cbk1 gcw) (by simp)
  have hf := h.ok (F.cell3d f fbi0 fbj0 fbk0 fbi1 fbj1 fbk1 gcw) (by simp)
  have Ic := hc.int
  have If := hf.int
  simp only [F.cell3d, List.mem_cons, List.not_mem_nil, or_false, forall_eq_or_imp, forall_eq, InInt] at Ic If
  have mcK := mkB_ok (d := .K) (lo := cbk0) (hi := cbk1) (by list_omega)
  have mcJ := mkB_ok (d := .J) (lo := cbj0) (hi := cbj1) (by list_omega)
  have mcI := mkB_ok (d := .I) (lo := cbi0) (hi := cbi1) (by list_omega)
  have mfK := mkB_ok (d := .K) (lo := fbk0) (hi := fbk1) (by list_omega)
  have mfJ := mkB_ok (d := .J) (lo := fbj0) (hi := fbj1) (by list_omega)
  have mfI := mkB_ok (d := .I) (lo := fbi0) (hi := fbi1) (by list_omega)
  have spc : makeSpanOffset c gcw [(.K, ⟨cbk0, cbk1 + 1, 1⟩), (.J, ⟨cbj0, cbj1 + 1, 1⟩), (.I, ⟨cbi0, cbi1 + 1, 1⟩)] =
      .ok (sCell3 c cbi0 cbj0 cbk0 cbi1 cbj1 cbk1 gcw) := makeSpanOffset_ok (by simp) (by list_omega)
  have spf : makeSpanOffset f gcw [(.K, ⟨fbk0, fbk1 + 1, 1⟩), (.J, ⟨fbj0, fbj1 + 1, 1⟩), (.I, ⟨fbi0, fbi1 + 1, 1⟩)] =
      .ok (sCell3 f fbi0 fbj0 fbk0 fbi1 fbj1 fbk1 gcw) := makeSpanOffset_ok (by simp) (by list_omega)
  have m1 := mkB_ok (d := .I) (lo := ci0) (hi := ci0) hint.1
  have m2 := mkB_ok (d := .I) (lo := fi0) (hi := fi0) hint.2.1
  have m3 := mkB_ok (d := .I) (lo := fi0) (hi := fi1) hint.2.2.1
  have m4 := mkB_ok (d := .J) (lo := cj0) (hi := cj0) hint.2.2.2.1
  have m5 := mkB_ok (d := .J) (lo := fj0) (hi := fj0) hint.2.2.2.2.1
  have m6 := mkB_ok (d := .J) (lo := fj0) (hi := fj1) hint.2.2.2.2.2.1
  have m7 := mkB_ok (d := .K) (lo := ck0) (hi := ck0) hint.2.2.2.2.2.2.1
  have m8 := mkB_ok (d := .K) (lo := fk0) (hi := fk0) hint.2.2.2.2.2.2.2.1
  have m9 := mkB_ok (d := .K) (lo := fk0) (hi := fk1) hint.2.2.2.2.2.2.2.2
  refine ⟨?_, ?_⟩
  · unfold Cuda.c2fCopy
    refine bind_step mcK <| bind_step mcJ <| bind_step mcI <| bind_step spc <| bind_step mfK <| bind_step mfJ <| bind_step mfI <| bind_step spf <| bind_step m1 <| bind_step m2 <| bind_step m3 <| bind_step m4 <| bind_step m5 <| bind_step m6 <| bind_step m7 <| bind_step m8 <| bind_step m9 <| ?_
    rw [if_neg ha.1, if_neg ha.2.1, if_neg ha.2.2]
  · simp only [F.copycoarsetofine3d, if_neg ha.1, if_neg ha.2.1, if_neg ha.2.2]
    rfl

example : Cuda.c2fCopy (-2) 1 1 1 2 2 (-3) 3 2 2 5 5 3 (-2) 2 0 2 0 3 (-4) 4 1 3 4 6 1 (fun n => n + 2) ⟨0, 0⟩ ⟨1, 0⟩ (fun _ => revBackend) exRat = .ok exRat ∧
    F.copycoarsetofine3d (-2) 1 1 1 2 2 (-3) 3 2 2 5 5 3 (-2) 2 0 2 0 3 (-4) 4 1 3 4 6 1 (fun n => n + 2) ⟨0, 0⟩ ⟨1, 0⟩ exRat = .ok exRat :=
  C37_copy_other (by decide) (by decide) (by decide) (by decide) (by unfold InInt; decide) (by ex_args)

omit [Zero T] in
/-- `coarse_to_fine::copy_corner` and `copycoarsetofinecorner3d` leave the same memory: one fine cell, the fine corner, gets the value of the
coarse corner. -/
theorem C37_corner {ci0 ci1 cj0 cj1 ck0 ck1 fi0 fi1 fj0 fj1 fk0 fk1 cbi0 cbi1 cbj0 cbj1 cbk0 cbk1 fbi0 fbi1 fbj0 fbj1 fbk0 fbk1 gcw : Int}
    {c f : Ptr} {m : Mem T}
    (hcb : cbi0 ≤ cbi1 ∧ cbj0 ≤ cbj1 ∧ cbk0 ≤ cbk1) (hfb : fbi0 ≤ fbi1 ∧ fbj0 ≤ fbj1 ∧ fbk0 ≤ fbk1) (hg : 0 ≤ gcw)
    (hfine : fbi0 - gcw ≤ fi0 ∧ fi0 ≤ fbi1 + gcw ∧ fbj0 - gcw ≤ fj0 ∧ fj0 ≤ fbj1 + gcw ∧ fbk0 - gcw ≤ fk0 ∧ fk0 ≤ fbk1 + gcw)
    (hcoarse : cbi0 - gcw ≤ ci0 ∧ ci0 ≤ cbi1 + gcw ∧ cbj0 - gcw ≤ cj0 ∧ cj0 ≤ cbj1 + gcw ∧ cbk0 - gcw ≤ ck0 ∧ ck0 ≤ cbk1 + gcw)
    (h : F.Args m [F.cell3d c cbi0 cbj0 cbk0 cbi1 cbj1 cbk1 gcw] [F.cell3d f fbi0 fbj0 fbk0 fbi1 fbj1 fbk1 gcw]) :
    ∃ m', Cuda.c2fCorner ci0 ci1 cj0 cj1 ck0 ck1 fi0 fi1 fj0 fj1 fk0 fk1 cbi0 cbi1 cbj0 cbj1 cbk0 cbk1 fbi0 fbi1 fbj0 fbj1 fbk0 fbk1 gcw c f m = .ok m' ∧
      F.copycoarsetofinecorner3d ci0 ci1 cj0 cj1 ck0 ck1 fi0 fi1 fj0 fj1 fk0 fk1 cbi0 cbi1 cbj0 cbj1 cbk0 cbk1 fbi0 fbi1 fbj0 fbj1 fbk0 fbk1 gcw c f m = .ok m' := by
  have hc := h.ok (F.cell3d c cbi0 cbj0 cbk0 cbi1 cbj1 cbk1 gcw) (by simp)
  have hf := h.ok (F.cell3d f fbi0 fbj0 fbk0 fbi1 fbj1 fbk1 gcw) (by simp)
  have Ic := hc.int
  have If := hf.int
  simp only [F.cell3d, List.mem_cons, List.not_mem_nil, or_false, forall_eq_or_imp, forall_eq, InInt] at Ic If
  have mcK := mkB_ok (d := .K) (lo := cbk0) (hi := cbk1) (by list_omega)
  have mcJ := mkB_ok (d := .J) (lo := cbj0) (hi := cbj1) (by list_omega)
  have mcI := mkB_ok (d := .I) (lo := cbi0) (hi := cbi1) (by list_omega)
  have mfK := mkB_ok (d := .K) (lo := fbk0) (hi := fbk1) (by list_omega)
  have mfJ := mkB_ok (d := .J) (lo := fbj0) (hi := fbj1) (by list_omega)
  have mfI := mkB_ok (d := .I) (lo := fbi0) (hi := fbi1) (by list_omega)
  have spc : makeSpanOffset c gcw [(.K, ⟨cbk0, cbk1 + 1, 1⟩), (.J, ⟨cbj0, cbj1 + 1, 1⟩), (.I, ⟨cbi0, cbi1 + 1, 1⟩)] =
      .ok (sCell3 c cbi0 cbj0 cbk0 cbi1 cbj1 cbk1 gcw) := makeSpanOffset_ok (by simp) (by list_omega)
  have spf : makeSpanOffset f gcw [(.K, ⟨fbk0, fbk1 + 1, 1⟩), (.J, ⟨fbj0, fbj1 + 1, 1⟩), (.I, ⟨fbi0, fbi1 + 1, 1⟩)] =
      .ok (sCell3 f fbi0 fbj0 fbk0 fbi1 fbj1 fbk1 gcw) := makeSpanOffset_ok (by simp) (by list_omega)
  have Ac : ArrOK m (sCell3 c cbi0 cbj0 cbk0 cbi1 cbj1 cbk1 gcw) := by arr_ok hc
  have Af : ArrOK m (sCell3 f fbi0 fbj0 fbk0 fbi1 fbj1 fbk1 gcw) := by arr_ok hf
  have P : Apart (sCell3 f fbi0 fbj0 fbk0 fbi1 fbj1 fbk1 gcw) (sCell3 c cbi0 cbj0 cbk0 cbi1 cbj1 cbk1 gcw) := by apart_ok (h.apart _ (by simp) _ (by simp))
  set pc : Pt := fun d => if d = .K then ck0 else if d = .J then cj0 else ci0 with hpc
  set pf : Pt := fun d => if d = .K then fk0 else if d = .J then fj0 else fi0 with hpf
  have ic : Inside (sCell3 c cbi0 cbj0 cbk0 cbi1 cbj1 cbk1 gcw).geo pc := by
    intro x hx
    simp only [sCell3, List.mem_cons, List.not_mem_nil, or_false] at hx
    rcases hx with rfl | rfl | rfl <;> simp [InRange, hpc] <;> omega
  have i_f : Inside (sCell3 f fbi0 fbj0 fbk0 fbi1 fbj1 fbk1 gcw).geo pf := by
    intro x hx
    simp only [sCell3, List.mem_cons, List.not_mem_nil, or_false] at hx
    rcases hx with rfl | rfl | rfl <;> simp [InRange, hpf] <;> omega
  have ac : (sCell3 c cbi0 cbj0 cbk0 cbi1 cbj1 cbk1 gcw).at_ [ck0, cj0, ci0] = .ok (cell (sCell3 c cbi0 cbj0 cbk0 cbi1 cbj1 cbk1 gcw) pc) := by
    have := at_ok Ac.geo ic
    simpa [sCell3, hpc, cell] using this
  have af : (sCell3 f fbi0 fbj0 fbk0 fbi1 fbj1 fbk1 gcw).at_ [fk0, fj0, fi0] = .ok (cell (sCell3 f fbi0 fbj0 fbk0 fbi1 fbj1 fbk1 gcw) pf) := by
    have := at_ok Af.geo i_f
    simpa [sCell3, hpf, cell] using this
  obtain ⟨v, hv⟩ := Ac.alloc _ ic
  obtain ⟨w, hw⟩ := Af.alloc _ i_f
  have ld : m.load (cell (sCell3 c cbi0 cbj0 cbk0 cbi1 cbj1 cbk1 gcw) pc) = .ok v := by unfold Mem.load; rw [hv]
  have jc := inside_addr ic
  have jf := inside_addr i_f
  rw [farr_cell3] at jc jf
  obtain ⟨m', st⟩ : ∃ m', m.store (cell (sCell3 f fbi0 fbj0 fbk0 fbi1 fbj1 fbk1 gcw) pf) v = .ok m' := by unfold Mem.store; rw [hw]; exact ⟨_, rfl⟩
  refine ⟨m', ?_, ?_⟩
  · unfold Cuda.c2fCorner
    exact bind_step mcK <| bind_step mcJ <| bind_step mcI <| bind_step spc <| bind_step mfK <| bind_step mfJ <| bind_step mfI <| bind_step spf <| bind_step ac <| bind_step ld <| bind_step af st
  · have e1 : (F.cell3d c cbi0 cbj0 cbk0 cbi1 cbj1 cbk1 gcw).addr [ci0, cj0, ck0] = .ok (cell (sCell3 c cbi0 cbj0 cbk0 cbi1 cbj1 cbk1 gcw) pc) := by
      rw [← jc.2]
      have := jc.1
      simp [sCell3, hpc] at this ⊢
      rw [F.Arr.addr, if_pos this]; rfl
    have e2 : (F.cell3d f fbi0 fbj0 fbk0 fbi1 fbj1 fbk1 gcw).addr [fi0, fj0, fk0] = .ok (cell (sCell3 f fbi0 fbj0 fbk0 fbi1 fbj1 fbk1 gcw) pf) := by
      rw [← jf.2]
      have := jf.1
      simp [sCell3, hpf] at this ⊢
      rw [F.Arr.addr, if_pos this]; rfl
    unfold F.copycoarsetofinecorner3d F.assign
    simp only [F.Expr.eval, e1, e2, M.ok_bind, ld]
    exact st

example : ∃ m', Cuda.c2fCorner (-2) 1 1 1 2 2 (-3) 3 2 2 5 5 (-2) 2 0 2 0 3 (-4) 4 1 3 4 6 1 ⟨0, 0⟩ ⟨1, 0⟩ exRat = .ok m' ∧
    F.copycoarsetofinecorner3d (-2) 1 1 1 2 2 (-3) 3 2 2 5 5 (-2) 2 0 2 0 3 (-4) 4 1 3 4 6 1 ⟨0, 0⟩ ⟨1, 0⟩ exRat = .ok m' :=
  C37_corner (by decide) (by decide) (by decide) (by decide) (by decide) (by ex_args)

end Verif
