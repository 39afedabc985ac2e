import Verif.Lemmas.DotKernel
import Verif.Lemmas.KernelValues

/-
The dot product kernels: what the statement leaves, and which Fortran loops leave the same.
-/

set_option linter.unusedVariables false
set_option linter.unusedSimpArgs false
set_option linter.unnecessarySeqFocus false

namespace Verif
open Spec

theorem dot_core_1d {T : Type} [Zero T] [Add T] [Mul T] {st u v o : Ptr} {sgcw ugcw vgcw i0 i1 w1 : Int} {β : Backend} {m : Mem T} (hβ : ValidBackend β)
    (hi : i0 ≤ i1) (hw : 1 ≤ w1) (hs : 0 ≤ sgcw) (hv : 0 ≤ vgcw)
    (h : F.Args m [F.coef1d st w1 i0 i1 sgcw, F.cell1d u i0 i1 ugcw]
      [F.cell1d v i0 i1 vgcw])
    (ht : F.Reach m o 1 w1 ugcw) (hn : w1 * 1 ≤ 2147483647) :
    ∃ m', Cuda.dotOffset1d st sgcw u ugcw v vgcw o i0 i1 w1 β m = .ok m' ∧
      Left [(.I, ⟨i0, i1 + 1, 1⟩)] (sCell1 v i0 i1 vgcw) (dotVal m (sCoef1 st w1 i0 i1 sgcw) (sCell1 u i0 i1 ugcw) o [(.I, ⟨i0, i1 + 1, 1⟩)] .W ⟨0, w1, 1⟩) m m' ∧
      ∀ (r : List (Dim × Int × Int)) (p0 : Pt) (stmt : Pt → F.Cmd T), (r.map (·.1)).Nodup →
        (∀ d, d ∈ ([(.I, ⟨i0, i1 + 1, 1⟩)] : List DB).map (·.1) ↔ d ∈ r.map (·.1)) →
        (∀ p, InDom [(.I, ⟨i0, i1 + 1, 1⟩)] p ↔ ∀ x ∈ r, x.2.1 ≤ p x.1 ∧ p x.1 ≤ x.2.2) →
        (∀ p, InDom [(.I, ⟨i0, i1 + 1, 1⟩)] p → ∀ m1 : Mem T, m1.ints = m.ints →
          (∀ q, ¬ (Writes [(.I, ⟨i0, i1 + 1, 1⟩)] (sCell1 v i0 i1 vgcw) q ∧ q ≠ cell (sCell1 v i0 i1 vgcw) p) → m1.val q = m.val q) →
          stmt p m1 = .ok { m1 with val := fun q => if q = cell (sCell1 v i0 i1 vgcw) p then some (dotVal m (sCoef1 st w1 i0 i1 sgcw) (sCell1 u i0 i1 ugcw) o [(.I, ⟨i0, i1 + 1, 1⟩)] .W ⟨0, w1, 1⟩ p) else m1.val q }) →
        F.nest stmt r p0 m = .ok m' := by
  have hS := h.ok (F.coef1d st w1 i0 i1 sgcw) (by simp)
  have hU := h.ok (F.cell1d u i0 i1 ugcw) (by simp)
  have hV := h.ok (F.cell1d v i0 i1 vgcw) (by simp)
  have hT : F.Reach m o ((1 : Nat) : Int) w1 ugcw := ht
  have IS := hS.int
  have IU := hU.int
  have IV := hV.int
  obtain ⟨z, -, z1, z2⟩ := ht 1 1 (by omega) hw (by omega) (by omega)
  simp only [F.coef1d, F.cell1d, List.mem_cons, List.not_mem_nil, or_false, forall_eq_or_imp, forall_eq, InInt] at IS IU IV
  have mkI := mkB_ok (d := .I) (lo := i0) (hi := i1) (by list_omega)
  have sb : isub w1 1 = .ok (w1 - 1) := isub_ok (by unfold InInt; omega)
  have mkW := mkB_ok (d := .W) (lo := 0) (hi := w1 - 1) (by unfold InInt; omega)
  rw [show w1 - 1 + 1 = w1 by omega] at mkW
  have spS : makeSpanOffset st sgcw [(.I, ⟨i0, i1 + 1, 1⟩), (.W, ⟨0, w1, 1⟩)] = .ok (sCoef1 st w1 i0 i1 sgcw) :=
    makeSpanOffset_win (bnds := [(.I, ⟨i0, i1 + 1, 1⟩)]) (b := ⟨0, w1, 1⟩) (by simp) (by list_omega)
  have spU : makeSpanOffset u ugcw [(.I, ⟨i0, i1 + 1, 1⟩)] = .ok (sCell1 u i0 i1 ugcw) := makeSpanOffset_ok (by simp) (by list_omega)
  have spV : makeSpanOffset v vgcw [(.I, ⟨i0, i1 + 1, 1⟩)] = .ok (sCell1 v i0 i1 vgcw) := makeSpanOffset_ok (by simp) (by list_omega)
  have AS : ArrOK m (sCoef1 st w1 i0 i1 sgcw) := arrOK_farr (by rw [farr_coef1]; exact hS) (by simp [sCoef1]) (by simp [sCoef1]) (by simp [sCoef1] <;> omega)
  have AU : ArrOK m (sCell1 u i0 i1 ugcw) := by arr_ok hU
  have AV : ArrOK m (sCell1 v i0 i1 vgcw) := by arr_ok hV
  have PS : Apart (sCell1 v i0 i1 vgcw) (sCoef1 st w1 i0 i1 sgcw) := apart_farr (by rw [farr_coef1, farr_cell1]; exact h.apart _ (by simp) _ (by simp))
  have PU : Apart (sCell1 v i0 i1 vgcw) (sCell1 u i0 i1 ugcw) := by apart_ok (h.apart _ (by simp) _ (by simp))
  have hD : UnitDom [(.I, ⟨i0, i1 + 1, 1⟩)] := by unit_dom
  have dk : DotOK m.ints (sCoef1 st w1 i0 i1 sgcw) (sCell1 u i0 i1 ugcw) o [(.I, ⟨i0, i1 + 1, 1⟩)] := dotOK_of (G := [(.I, ⟨i0 - sgcw, i1 + 1 + sgcw, 1⟩)]) (w := .W) (b := ⟨0, w1, 1⟩) hD AS.geo rfl
    (by within) AU.geo (by within) (fun t hk => by
      have hk' : (t : Int) < w1 := by simpa using hk
      refine ⟨fun j hj => tb_some hT hk' hj, fun p hp => ?_, ?_⟩
      · simp only [InDom, IsPoint, List.mem_cons, List.not_mem_nil, or_false, forall_eq_or_imp, forall_eq, InRange] at hp
        have eI := offPt_tb (m := m) (o := o) (dims := ([(.I, ⟨i0, i1 + 1, 1⟩)] : List DB).map (·.1)) (i := t) (p := p) (d := Dim.I) 1 0 (by simp) rfl rfl
        have t0 := (hT.tb (k := t) (c := 0) hk' (by omega)).2
        simp only [Inside, sCell1, List.mem_cons, List.not_mem_nil, or_false, forall_eq_or_imp, forall_eq, InRange]
        rw [eI]
        omega
      · simp only [List.length_cons, List.length_nil]
        push_cast
        omega)
  obtain ⟨m', g1, g2, g3⟩ := dot_nest (lhs := sCell1 v i0 i1 vgcw) (w := .W) (b := ⟨0, w1, 1⟩) hβ hD AV (by within) dk rfl AS.alloc AU.alloc PS PU
  refine ⟨m', ?_, g2, g3⟩
  unfold Cuda.dotOffset1d
  refine bind_step mkI <| bind_step sb <| bind_step mkW <| bind_step spS <| bind_step spU <| bind_step spV ?_
  unfold withDomain
  rw [g1]; rfl

theorem dot_core_2d {T : Type} [Zero T] [Add T] [Mul T] {st u v o : Ptr} {sgcw ugcw vgcw i0 i1 j0 j1 w1 : Int} {β : Backend} {m : Mem T} (hβ : ValidBackend β)
    (hi : i0 ≤ i1) (hj : j0 ≤ j1) (hw : 1 ≤ w1) (hs : 0 ≤ sgcw) (hv : 0 ≤ vgcw)
    (h : F.Args m [F.coef2d st w1 i0 j0 i1 j1 sgcw, F.cell2d u i0 j0 i1 j1 ugcw]
      [F.cell2d v i0 j0 i1 j1 vgcw])
    (ht : F.Reach m o 2 w1 ugcw) (hn : w1 * 2 ≤ 2147483647) :
    ∃ m', Cuda.dotOffset2d st sgcw u ugcw v vgcw o i0 i1 j0 j1 w1 β m = .ok m' ∧
      Left [(.J, ⟨j0, j1 + 1, 1⟩), (.I, ⟨i0, i1 + 1, 1⟩)] (sCell2 v i0 j0 i1 j1 vgcw) (dotVal m (sCoef2 st w1 i0 j0 i1 j1 sgcw) (sCell2 u i0 j0 i1 j1 ugcw) o [(.J, ⟨j0, j1 + 1, 1⟩), (.I, ⟨i0, i1 + 1, 1⟩)] .W ⟨0, w1, 1⟩) m m' ∧
      ∀ (r : List (Dim × Int × Int)) (p0 : Pt) (stmt : Pt → F.Cmd T), (r.map (·.1)).Nodup →
        (∀ d, d ∈ ([(.J, ⟨j0, j1 + 1, 1⟩), (.I, ⟨i0, i1 + 1, 1⟩)] : List DB).map (·.1) ↔ d ∈ r.map (·.1)) →
        (∀ p, InDom [(.J, ⟨j0, j1 + 1, 1⟩), (.I, ⟨i0, i1 + 1, 1⟩)] p ↔ ∀ x ∈ r, x.2.1 ≤ p x.1 ∧ p x.1 ≤ x.2.2) →
        (∀ p, InDom [(.J, ⟨j0, j1 + 1, 1⟩), (.I, ⟨i0, i1 + 1, 1⟩)] p → ∀ m1 : Mem T, m1.ints = m.ints →
          (∀ q, ¬ (Writes [(.J, ⟨j0, j1 + 1, 1⟩), (.I, ⟨i0, i1 + 1, 1⟩)] (sCell2 v i0 j0 i1 j1 vgcw) q ∧ q ≠ cell (sCell2 v i0 j0 i1 j1 vgcw) p) → m1.val q = m.val q) →
          stmt p m1 = .ok { m1 with val := fun q => if q = cell (sCell2 v i0 j0 i1 j1 vgcw) p then some (dotVal m (sCoef2 st w1 i0 j0 i1 j1 sgcw) (sCell2 u i0 j0 i1 j1 ugcw) o [(.J, ⟨j0, j1 + 1, 1⟩), (.I, ⟨i0, i1 + 1, 1⟩)] .W ⟨0, w1, 1⟩ p) else m1.val q }) →
        F.nest stmt r p0 m = .ok m' := by
  have hS := h.ok (F.coef2d st w1 i0 j0 i1 j1 sgcw) (by simp)
  have hU := h.ok (F.cell2d u i0 j0 i1 j1 ugcw) (by simp)
  have hV := h.ok (F.cell2d v i0 j0 i1 j1 vgcw) (by simp)
  have hT : F.Reach m o ((2 : Nat) : Int) w1 ugcw := ht
  have IS := hS.int
  have IU := hU.int
  have IV := hV.int
  obtain ⟨z, -, z1, z2⟩ := ht 1 1 (by omega) hw (by omega) (by omega)
  simp only [F.coef2d, F.cell2d, List.mem_cons, List.not_mem_nil, or_false, forall_eq_or_imp, forall_eq, InInt] at IS IU IV
  have mkI := mkB_ok (d := .I) (lo := i0) (hi := i1) (by list_omega)
  have mkJ := mkB_ok (d := .J) (lo := j0) (hi := j1) (by list_omega)
  have sb : isub w1 1 = .ok (w1 - 1) := isub_ok (by unfold InInt; omega)
  have mkW := mkB_ok (d := .W) (lo := 0) (hi := w1 - 1) (by unfold InInt; omega)
  rw [show w1 - 1 + 1 = w1 by omega] at mkW
  have spS : makeSpanOffset st sgcw [(.J, ⟨j0, j1 + 1, 1⟩), (.I, ⟨i0, i1 + 1, 1⟩), (.W, ⟨0, w1, 1⟩)] = .ok (sCoef2 st w1 i0 j0 i1 j1 sgcw) :=
    makeSpanOffset_win (bnds := [(.J, ⟨j0, j1 + 1, 1⟩), (.I, ⟨i0, i1 + 1, 1⟩)]) (b := ⟨0, w1, 1⟩) (by simp) (by list_omega)
  have spU : makeSpanOffset u ugcw [(.J, ⟨j0, j1 + 1, 1⟩), (.I, ⟨i0, i1 + 1, 1⟩)] = .ok (sCell2 u i0 j0 i1 j1 ugcw) := makeSpanOffset_ok (by simp) (by list_omega)
  have spV : makeSpanOffset v vgcw [(.J, ⟨j0, j1 + 1, 1⟩), (.I, ⟨i0, i1 + 1, 1⟩)] = .ok (sCell2 v i0 j0 i1 j1 vgcw) := makeSpanOffset_ok (by simp) (by list_omega)
  have AS : ArrOK m (sCoef2 st w1 i0 j0 i1 j1 sgcw) := arrOK_farr (by rw [farr_coef2]; exact hS) (by simp [sCoef2]) (by simp [sCoef2]) (by simp [sCoef2] <;> omega)
  have AU : ArrOK m (sCell2 u i0 j0 i1 j1 ugcw) := by arr_ok hU
  have AV : ArrOK m (sCell2 v i0 j0 i1 j1 vgcw) := by arr_ok hV
  have PS : Apart (sCell2 v i0 j0 i1 j1 vgcw) (sCoef2 st w1 i0 j0 i1 j1 sgcw) := apart_farr (by rw [farr_coef2, farr_cell2]; exact h.apart _ (by simp) _ (by simp))
  have PU : Apart (sCell2 v i0 j0 i1 j1 vgcw) (sCell2 u i0 j0 i1 j1 ugcw) := by apart_ok (h.apart _ (by simp) _ (by simp))
  have hD : UnitDom [(.J, ⟨j0, j1 + 1, 1⟩), (.I, ⟨i0, i1 + 1, 1⟩)] := by unit_dom
  have dk : DotOK m.ints (sCoef2 st w1 i0 j0 i1 j1 sgcw) (sCell2 u i0 j0 i1 j1 ugcw) o [(.J, ⟨j0, j1 + 1, 1⟩), (.I, ⟨i0, i1 + 1, 1⟩)] := dotOK_of (G := [(.J, ⟨j0 - sgcw, j1 + 1 + sgcw, 1⟩), (.I, ⟨i0 - sgcw, i1 + 1 + sgcw, 1⟩)]) (w := .W) (b := ⟨0, w1, 1⟩) hD AS.geo rfl
    (by within) AU.geo (by within) (fun t hk => by
      have hk' : (t : Int) < w1 := by simpa using hk
      refine ⟨fun j hj => tb_some hT hk' hj, fun p hp => ?_, ?_⟩
      · simp only [InDom, IsPoint, List.mem_cons, List.not_mem_nil, or_false, forall_eq_or_imp, forall_eq, InRange] at hp
        have eI := offPt_tb (m := m) (o := o) (dims := ([(.J, ⟨j0, j1 + 1, 1⟩), (.I, ⟨i0, i1 + 1, 1⟩)] : List DB).map (·.1)) (i := t) (p := p) (d := Dim.I) 2 0 (by simp) rfl rfl
        have eJ := offPt_tb (m := m) (o := o) (dims := ([(.J, ⟨j0, j1 + 1, 1⟩), (.I, ⟨i0, i1 + 1, 1⟩)] : List DB).map (·.1)) (i := t) (p := p) (d := Dim.J) 2 1 (by simp) rfl rfl
        have t0 := (hT.tb (k := t) (c := 0) hk' (by omega)).2
        have t1 := (hT.tb (k := t) (c := 1) hk' (by omega)).2
        simp only [Inside, sCell2, List.mem_cons, List.not_mem_nil, or_false, forall_eq_or_imp, forall_eq, InRange]
        rw [eJ, eI]
        omega
      · simp only [List.length_cons, List.length_nil]
        push_cast
        omega)
  obtain ⟨m', g1, g2, g3⟩ := dot_nest (lhs := sCell2 v i0 j0 i1 j1 vgcw) (w := .W) (b := ⟨0, w1, 1⟩) hβ hD AV (by within) dk rfl AS.alloc AU.alloc PS PU
  refine ⟨m', ?_, g2, g3⟩
  unfold Cuda.dotOffset2d
  refine bind_step mkI <| bind_step mkJ <| bind_step sb <| bind_step mkW <| bind_step spS <| bind_step spU <| bind_step spV ?_
  unfold withDomain
  rw [g1]; rfl

theorem dot_core_3d {T : Type} [Zero T] [Add T] [Mul T] {st u v o : Ptr} {sgcw ugcw vgcw i0 i1 j0 j1 k0 k1 w1 : Int} {β : Backend} {m : Mem T} (hβ : ValidBackend β)
    (hi : i0 ≤ i1) (hj : j0 ≤ j1) (hk : k0 ≤ k1) (hw : 1 ≤ w1) (hs : 0 ≤ sgcw) (hv : 0 ≤ vgcw)
    (h : F.Args m [F.coef3d st w1 i0 j0 k0 i1 j1 k1 sgcw, F.cell3d u i0 j0 k0 i1 j1 k1 ugcw]
      [F.cell3d v i0 j0 k0 i1 j1 k1 vgcw])
    (ht : F.Reach m o 3 w1 ugcw) (hn : w1 * 3 ≤ 2147483647) :
    ∃ m', Cuda.dotOffset3d st sgcw u ugcw v vgcw o i0 i1 j0 j1 k0 k1 w1 β m = .ok m' ∧
      Left [(.K, ⟨k0, k1 + 1, 1⟩), (.J, ⟨j0, j1 + 1, 1⟩), (.I, ⟨i0, i1 + 1, 1⟩)] (sCell3 v i0 j0 k0 i1 j1 k1 vgcw) (dotVal m (sCoef3 st w1 i0 j0 k0 i1 j1 k1 sgcw) (sCell3 u i0 j0 k0 i1 j1 k1 ugcw) o [(.K, ⟨k0, k1 + 1, 1⟩), (.J, ⟨j0, j1 + 1, 1⟩), (.I, ⟨i0, i1 + 1, 1⟩)] .W ⟨0, w1, 1⟩) m m' ∧
      ∀ (r : List (Dim × Int × Int)) (p0 : Pt) (stmt : Pt → F.Cmd T), (r.map (·.1)).Nodup →
        (∀ d, d ∈ ([(.K, ⟨k0, k1 + 1, 1⟩), (.J, ⟨j0, j1 + 1, 1⟩), (.I, ⟨i0, i1 + 1, 1⟩)] : List DB).map (·.1) ↔ d ∈ r.map (·.1)) →
        (∀ p, InDom [(.K, ⟨k0, k1 + 1, 1⟩), (.J, ⟨j0, j1 + 1, 1⟩), (.I, ⟨i0, i1 + 1, 1⟩)] p ↔ ∀ x ∈ r, x.2.1 ≤ p x.1 ∧ p x.1 ≤ x.2.2) →
        (∀ p, InDom [(.K, ⟨k0, k1 + 1, 1⟩), (.J, ⟨j0, j1 + 1, 1⟩), (.I, ⟨i0, i1 + 1, 1⟩)] p → ∀ m1 : Mem T, m1.ints = m.ints →
          (∀ q, ¬ (Writes [(.K, ⟨k0, k1 + 1, 1⟩), (.J, ⟨j0, j1 + 1, 1⟩), (.I, ⟨i0, i1 + 1, 1⟩)] (sCell3 v i0 j0 k0 i1 j1 k1 vgcw) q ∧ q ≠ cell (sCell3 v i0 j0 k0 i1 j1 k1 vgcw) p) → m1.val q = m.val q) →
          stmt p m1 = .ok { m1 with val := fun q => if q = cell (sCell3 v i0 j0 k0 i1 j1 k1 vgcw) p then some (dotVal m (sCoef3 st w1 i0 j0 k0 i1 j1 k1 sgcw) (sCell3 u i0 j0 k0 i1 j1 k1 ugcw) o [(.K, ⟨k0, k1 + 1, 1⟩), (.J, ⟨j0, j1 + 1, 1⟩), (.I, ⟨i0, i1 + 1, 1⟩)] .W ⟨0, w1, 1⟩ p) else m1.val q }) →
        F.nest stmt r p0 m = .ok m' := by
  have hS := h.ok (F.coef3d st w1 i0 j0 k0 i1 j1 k1 sgcw) (by simp)
  have hU := h.ok (F.cell3d u i0 j0 k0 i1 j1 k1 ugcw) (by simp)
  have hV := h.ok (F.cell3d v i0 j0 k0 i1 j1 k1 vgcw) (by simp)
  have hT : F.Reach m o ((3 : Nat) : Int) w1 ugcw := ht
  have IS := hS.int
  have IU := hU.int
  have IV := hV.int
  obtain ⟨z, -, z1, z2⟩ := ht 1 1 (by omega) hw (by omega) (by omega)
  simp only [F.coef3d, F.cell3d, List.mem_cons, List.not_mem_nil, or_false, forall_eq_or_imp, forall_eq, InInt] at IS IU IV
  have mkI := mkB_ok (d := .I) (lo := i0) (hi := i1) (by list_omega)
  have mkJ := mkB_ok (d := .J) (lo := j0) (hi := j1) (by list_omega)
  have mkK := mkB_ok (d := .K) (lo := k0) (hi := k1) (by list_omega)
  have sb : isub w1 1 = .ok (w1 - 1) := isub_ok (by unfold InInt; omega)
  have mkW := mkB_ok (d := .W) (lo := 0) (hi := w1 - 1) (by unfold InInt; omega)
  rw [show w1 - 1 + 1 = w1 by omega] at mkW
  have spS : makeSpanOffset st sgcw [(.K, ⟨k0, k1 + 1, 1⟩), (.J, ⟨j0, j1 + 1, 1⟩), (.I, ⟨i0, i1 + 1, 1⟩), (.W, ⟨0, w1, 1⟩)] = .ok (sCoef3 st w1 i0 j0 k0 i1 j1 k1 sgcw) :=
    makeSpanOffset_win (bnds := [(.K, ⟨k0, k1 + 1, 1⟩), (.J, ⟨j0, j1 + 1, 1⟩), (.I, ⟨i0, i1 + 1, 1⟩)]) (b := ⟨0, w1, 1⟩) (by simp) (by list_omega)
  have spU : makeSpanOffset u ugcw [(.K, ⟨k0, k1 + 1, 1⟩), (.J, ⟨j0, j1 + 1, 1⟩), (.I, ⟨i0, i1 + 1, 1⟩)] = .ok (sCell3 u i0 j0 k0 i1 j1 k1 ugcw) := makeSpanOffset_ok (by simp) (by list_omega)
  have spV : makeSpanOffset v vgcw [(.K, ⟨k0, k1 + 1, 1⟩), (.J, ⟨j0, j1 + 1, 1⟩), (.I, ⟨i0, i1 + 1, 1⟩)] = .ok (sCell3 v i0 j0 k0 i1 j1 k1 vgcw) := makeSpanOffset_ok (by simp) (by list_omega)
  have AS : ArrOK m (sCoef3 st w1 i0 j0 k0 i1 j1 k1 sgcw) := arrOK_farr (by rw [farr_coef3]; exact hS) (by simp [sCoef3]) (by simp [sCoef3]) (by simp [sCoef3] <;> omega)
  have AU : ArrOK m (sCell3 u i0 j0 k0 i1 j1 k1 ugcw) := by arr_ok hU
  have AV : ArrOK m (sCell3 v i0 j0 k0 i1 j1 k1 vgcw) := by arr_ok hV
  have PS : Apart (sCell3 v i0 j0 k0 i1 j1 k1 vgcw) (sCoef3 st w1 i0 j0 k0 i1 j1 k1 sgcw) := apart_farr (by rw [farr_coef3, farr_cell3]; exact h.apart _ (by simp) _ (by simp))
  have PU : Apart (sCell3 v i0 j0 k0 i1 j1 k1 vgcw) (sCell3 u i0 j0 k0 i1 j1 k1 ugcw) := by apart_ok (h.apart _ (by simp) _ (by simp))
  have hD : UnitDom [(.K, ⟨k0, k1 + 1, 1⟩), (.J, ⟨j0, j1 + 1, 1⟩), (.I, ⟨i0, i1 + 1, 1⟩)] := by unit_dom
  have dk : DotOK m.ints (sCoef3 st w1 i0 j0 k0 i1 j1 k1 sgcw) (sCell3 u i0 j0 k0 i1 j1 k1 ugcw) o [(.K, ⟨k0, k1 + 1, 1⟩), (.J, ⟨j0, j1 + 1, 1⟩), (.I, ⟨i0, i1 + 1, 1⟩)] := dotOK_of (G := [(.K, ⟨k0 - sgcw, k1 + 1 + sgcw, 1⟩), (.J, ⟨j0 - sgcw, j1 + 1 + sgcw, 1⟩), (.I, ⟨i0 - sgcw, i1 + 1 + sgcw, 1⟩)]) (w := .W) (b := ⟨0, w1, 1⟩) hD AS.geo rfl
    (by within) AU.geo (by within) (fun t hk => by
      have hk' : (t : Int) < w1 := by simpa using hk
      refine ⟨fun j hj => tb_some hT hk' hj, fun p hp => ?_, ?_⟩
      · simp only [InDom, IsPoint, List.mem_cons, List.not_mem_nil, or_false, forall_eq_or_imp, forall_eq, InRange] at hp
        have eI := offPt_tb (m := m) (o := o) (dims := ([(.K, ⟨k0, k1 + 1, 1⟩), (.J, ⟨j0, j1 + 1, 1⟩), (.I, ⟨i0, i1 + 1, 1⟩)] : List DB).map (·.1)) (i := t) (p := p) (d := Dim.I) 3 0 (by simp) rfl rfl
        have eJ := offPt_tb (m := m) (o := o) (dims := ([(.K, ⟨k0, k1 + 1, 1⟩), (.J, ⟨j0, j1 + 1, 1⟩), (.I, ⟨i0, i1 + 1, 1⟩)] : List DB).map (·.1)) (i := t) (p := p) (d := Dim.J) 3 1 (by simp) rfl rfl
        have eK := offPt_tb (m := m) (o := o) (dims := ([(.K, ⟨k0, k1 + 1, 1⟩), (.J, ⟨j0, j1 + 1, 1⟩), (.I, ⟨i0, i1 + 1, 1⟩)] : List DB).map (·.1)) (i := t) (p := p) (d := Dim.K) 3 2 (by simp) rfl rfl
        have t0 := (hT.tb (k := t) (c := 0) hk' (by omega)).2
        have t1 := (hT.tb (k := t) (c := 1) hk' (by omega)).2
        have t2 := (hT.tb (k := t) (c := 2) hk' (by omega)).2
        simp only [Inside, sCell3, List.mem_cons, List.not_mem_nil, or_false, forall_eq_or_imp, forall_eq, InRange]
        rw [eK, eJ, eI]
        omega
      · simp only [List.length_cons, List.length_nil]
        push_cast
        omega)
  obtain ⟨m', g1, g2, g3⟩ := dot_nest (lhs := sCell3 v i0 j0 k0 i1 j1 k1 vgcw) (w := .W) (b := ⟨0, w1, 1⟩) hβ hD AV (by within) dk rfl AS.alloc AU.alloc PS PU
  refine ⟨m', ?_, g2, g3⟩
  unfold Cuda.dotOffset3d
  refine bind_step mkI <| bind_step mkJ <| bind_step mkK <| bind_step sb <| bind_step mkW <| bind_step spS <| bind_step spU <| bind_step spV ?_
  unfold withDomain
  rw [g1]; rfl

end Verif
