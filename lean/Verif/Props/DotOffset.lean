import Verif.Lemmas.DotOffset

/-
C48: the dot product kernels form, cell by cell, the sum over the rows of the displacement table, and leave the memory the Fortran stencil
routines leave.
-/

set_option linter.unusedVariables false
set_option linter.unusedSimpArgs false
set_option linter.unnecessarySeqFocus false

namespace Verif
open Spec

/-- The dot product kernel, one dimension: every cell of the box gets the coefficients of the cell times the entries of `u` displaced by the
rows of the table, added up in the order of the rows, for every box, ghost width, table and schedule; nothing else changes. -/
theorem C48_value_1d {T : Type} [Zero T] [Add T] [Mul T] {st u v o : Ptr} {sgcw ugcw vgcw i0 i1 w1 : Int} {β : Backend} {m : Mem T} (hβ : ValidBackend β)
    (hi : i0 ≤ i1) (hw : 1 ≤ w1) (hs : 0 ≤ sgcw) (hv : 0 ≤ vgcw)
    (h : F.Args m [F.coef1d st w1 i0 i1 sgcw, F.cell1d u i0 i1 ugcw]
      [F.cell1d v i0 i1 vgcw])
    (ht : F.Reach m o 1 w1 ugcw) (hn : w1 * 1 ≤ 2147483647) :
    ∃ m', Cuda.dotOffset1d st sgcw u ugcw v vgcw o i0 i1 w1 β m = .ok m' ∧
      (∀ i, i0 ≤ i → i ≤ i1 → ∀ c x : Int → T,
        (∀ s, 0 ≤ s → s < w1 → F.El m (F.coef1d st w1 i0 i1 sgcw) [s, i] (c s) ∧ ∃ io,
          F.IntEl m (F.offsets o 1 w1) [1, s + 1] io ∧
          F.El m (F.cell1d u i0 i1 ugcw) [i + io] (x s)) →
        F.El m' (F.cell1d v i0 i1 vgcw) [i] ((F.irange 0 (w1 - 1)).foldl (fun r s => r + c s * x s) 0)) ∧
      (∀ q, (∀ i, i0 ≤ i → i ≤ i1 → (F.cell1d v i0 i1 vgcw).ptr.add (F.colMajor (F.cell1d v i0 i1 vgcw).dims [i]) ≠ q) → m'.val q = m.val q) ∧ m'.ints = m.ints := by
  obtain ⟨m', g1, g2, -⟩ := dot_core_1d hβ hi hw hs hv h ht hn
  refine ⟨m', g1, fun i ia ib c x hc => ?_, fun q hq => g2.frame q ?_, g2.ints⟩
  · let p : Pt := fun d => if d = .I then i else 0
    have hp : InDom [(.I, ⟨i0, i1 + 1, 1⟩)] p := by
      simp [InDom, IsPoint, InRange, p] <;> omega
    have hat := g2.at_ p hp
    rw [cell_cell1] at hat
    refine ⟨by simp [F.cell1d, F.InBounds] <;> omega, ?_⟩
    refine hat.trans (congrArg some ?_)
    unfold dotVal F.irange
    rw [List.foldl_map]
    refine (foldl_range_congr rfl fun r t hk => ?_).trans (by rw [show (w1 - 1 - 0 + 1).toNat = (w1 - 0).toNat by omega])
    have hk' : (t : Int) < w1 := by
      simp only at hk; omega
    obtain ⟨c1, io, q0, x1⟩ := hc (0 + t) (by omega) (by omega)
    have eI := offPt_tb (m := m) (o := o) (dims := ([(.I, ⟨i0, i1 + 1, 1⟩)] : List DB).map (·.1)) (i := t) (p := p) (d := Dim.I) 1 0 (by simp) rfl rfl
    have v0 : tb m o 1 t 0 = io := by
      have a := (q0).get
      unfold tb
      rw [show (0 + (t : Int) + 1 - 1) * 1 + (1 - 1) = (t : Int) * ((1 : Nat) : Int) + ((0 : Nat) : Int) by push_cast; ring] at a
      rw [a]; rfl
    have r1 : ld m (cell (sCoef1 st w1 i0 i1 sgcw) (setPt p .W (0 + (t : Int)))) = c (0 + t) := by
      rw [cell_coef1]
      exact c1.ld
    have r2 : ld m (cell (sCell1 u i0 i1 ugcw) (offPt m.ints o (([(.I, ⟨i0, i1 + 1, 1⟩)] : List DB).map (·.1)) t p)) = x (0 + t) := by
      rw [cell_cell1, eI, v0]
      exact x1.ld
    rw [r1, r2]
  · rintro ⟨p, hp, e⟩
    simp only [InDom, IsPoint, List.mem_cons, List.not_mem_nil, or_false, forall_eq_or_imp, forall_eq, InRange] at hp
    refine hq (p .I) (by omega) (by omega) ?_
    rw [cell_cell1] at e
    exact e

example : ∃ m', Cuda.dotOffset1d ⟨0, 0⟩ 1 ⟨1, 0⟩ 2 ⟨2, 0⟩ 1 ⟨20, 0⟩ 0 3 3 revBackend exDot = .ok m' ∧ m'.ints = exDot.ints :=
  have ⟨m', h1, _, _, h2⟩ := C48_value_1d revBackend_ok (by decide) (by decide) (by decide) (by decide) (exDot_args (by ex_args :
    F.Args exRat [F.coef1d ⟨0, 0⟩ 3 0 3 1, F.cell1d ⟨1, 0⟩ 0 3 2] [F.cell1d ⟨2, 0⟩ 0 3 1]))
    (exDot_reach (by decide) (by decide)) (by decide)
  ⟨m', h1, h2⟩

/-- The dot product kernel, two dimensions: every cell of the box gets the coefficients of the cell times the entries of `u` displaced by the
rows of the table, added up in the order of the rows, for every box, ghost width, table and schedule; nothing else changes. -/
theorem C48_value_2d {T : Type} [Zero T] [Add T] [Mul T] {st u v o : Ptr} {sgcw ugcw vgcw i0 i1 j0 j1 w1 : Int} {β : Backend} {m : Mem T} (hβ : ValidBackend β)
    (hi : i0 ≤ i1) (hj : j0 ≤ j1) (hw : 1 ≤ w1) (hs : 0 ≤ sgcw) (hv : 0 ≤ vgcw)
    (h : F.Args m [F.coef2d st w1 i0 j0 i1 j1 sgcw, F.cell2d u i0 j0 i1 j1 ugcw]
      [F.cell2d v i0 j0 i1 j1 vgcw])
    (ht : F.Reach m o 2 w1 ugcw) (hn : w1 * 2 ≤ 2147483647) :
    ∃ m', Cuda.dotOffset2d st sgcw u ugcw v vgcw o i0 i1 j0 j1 w1 β m = .ok m' ∧
      (∀ i j, i0 ≤ i → i ≤ i1 → j0 ≤ j → j ≤ j1 → ∀ c x : Int → T,
        (∀ s, 0 ≤ s → s < w1 → F.El m (F.coef2d st w1 i0 j0 i1 j1 sgcw) [s, i, j] (c s) ∧ ∃ io jo,
          F.IntEl m (F.offsets o 2 w1) [1, s + 1] io ∧ F.IntEl m (F.offsets o 2 w1) [2, s + 1] jo ∧
          F.El m (F.cell2d u i0 j0 i1 j1 ugcw) [i + io, j + jo] (x s)) →
        F.El m' (F.cell2d v i0 j0 i1 j1 vgcw) [i, j] ((F.irange 0 (w1 - 1)).foldl (fun r s => r + c s * x s) 0)) ∧
      (∀ q, (∀ i j, i0 ≤ i → i ≤ i1 → j0 ≤ j → j ≤ j1 → (F.cell2d v i0 j0 i1 j1 vgcw).ptr.add (F.colMajor (F.cell2d v i0 j0 i1 j1 vgcw).dims [i, j]) ≠ q) → m'.val q = m.val q) ∧ m'.ints = m.ints := by
  obtain ⟨m', g1, g2, -⟩ := dot_core_2d hβ hi hj hw hs hv h ht hn
  refine ⟨m', g1, fun i j ia ib ja jb c x hc => ?_, fun q hq => g2.frame q ?_, g2.ints⟩
  · let p : Pt := fun d => if d = .I then i else if d = .J then j else 0
    have hp : InDom [(.J, ⟨j0, j1 + 1, 1⟩), (.I, ⟨i0, i1 + 1, 1⟩)] p := by
      simp [InDom, IsPoint, InRange, p] <;> omega
    have hat := g2.at_ p hp
    rw [cell_cell2] at hat
    refine ⟨by simp [F.cell2d, F.InBounds] <;> omega, ?_⟩
    refine hat.trans (congrArg some ?_)
    unfold dotVal F.irange
    rw [List.foldl_map]
    refine (foldl_range_congr rfl fun r t hk => ?_).trans (by rw [show (w1 - 1 - 0 + 1).toNat = (w1 - 0).toNat by omega])
    have hk' : (t : Int) < w1 := by
      simp only at hk; omega
    obtain ⟨c1, io, jo, q0, q1, x1⟩ := hc (0 + t) (by omega) (by omega)
    have eI := offPt_tb (m := m) (o := o) (dims := ([(.J, ⟨j0, j1 + 1, 1⟩), (.I, ⟨i0, i1 + 1, 1⟩)] : List DB).map (·.1)) (i := t) (p := p) (d := Dim.I) 2 0 (by simp) rfl rfl
    have eJ := offPt_tb (m := m) (o := o) (dims := ([(.J, ⟨j0, j1 + 1, 1⟩), (.I, ⟨i0, i1 + 1, 1⟩)] : List DB).map (·.1)) (i := t) (p := p) (d := Dim.J) 2 1 (by simp) rfl rfl
    have v0 : tb m o 2 t 0 = io := by
      have a := (q0).get
      unfold tb
      rw [show (0 + (t : Int) + 1 - 1) * 2 + (1 - 1) = (t : Int) * ((2 : Nat) : Int) + ((0 : Nat) : Int) by push_cast; ring] at a
      rw [a]; rfl
    have v1 : tb m o 2 t 1 = jo := by
      have a := (q1).get
      unfold tb
      rw [show (0 + (t : Int) + 1 - 1) * 2 + (2 - 1) = (t : Int) * ((2 : Nat) : Int) + ((1 : Nat) : Int) by push_cast; ring] at a
      rw [a]; rfl
    have r1 : ld m (cell (sCoef2 st w1 i0 j0 i1 j1 sgcw) (setPt p .W (0 + (t : Int)))) = c (0 + t) := by
      rw [cell_coef2]
      exact c1.ld
    have r2 : ld m (cell (sCell2 u i0 j0 i1 j1 ugcw) (offPt m.ints o (([(.J, ⟨j0, j1 + 1, 1⟩), (.I, ⟨i0, i1 + 1, 1⟩)] : List DB).map (·.1)) t p)) = x (0 + t) := by
      rw [cell_cell2, eI, eJ, v0, v1]
      exact x1.ld
    rw [r1, r2]
  · rintro ⟨p, hp, e⟩
    simp only [InDom, IsPoint, List.mem_cons, List.not_mem_nil, or_false, forall_eq_or_imp, forall_eq, InRange] at hp
    refine hq (p .I) (p .J) (by omega) (by omega) (by omega) (by omega) ?_
    rw [cell_cell2] at e
    exact e

example : ∃ m', Cuda.dotOffset2d ⟨0, 0⟩ 1 ⟨1, 0⟩ 2 ⟨2, 0⟩ 1 ⟨20, 0⟩ 0 3 0 2 4 revBackend exDot = .ok m' ∧ m'.ints = exDot.ints :=
  have ⟨m', h1, _, _, h2⟩ := C48_value_2d revBackend_ok (by decide) (by decide) (by decide) (by decide) (by decide) (exDot_args (by ex_args :
    F.Args exRat [F.coef2d ⟨0, 0⟩ 4 0 0 3 2 1, F.cell2d ⟨1, 0⟩ 0 0 3 2 2] [F.cell2d ⟨2, 0⟩ 0 0 3 2 1]))
    (exDot_reach (by decide) (by decide)) (by decide)
  ⟨m', h1, h2⟩

/-- The dot product kernel, three dimensions: every cell of the box gets the coefficients of the cell times the entries of `u` displaced by the
rows of the table, added up in the order of the rows, for every box, ghost width, table and schedule; nothing else changes. -/
theorem C48_value_3d {T : Type} [Zero T] [Add T] [Mul T] {st u v o : Ptr} {sgcw ugcw vgcw i0 i1 j0 j1 k0 k1 w1 : Int} {β : Backend} {m : Mem T} (hβ : ValidBackend β)
    (hi : i0 ≤ i1) (hj : j0 ≤ j1) (hk : k0 ≤ k1) (hw : 1 ≤ w1) (hs : 0 ≤ sgcw) (hv : 0 ≤ vgcw)
    (h : F.Args m [F.coef3d st w1 i0 j0 k0 i1 j1 k1 sgcw, F.cell3d u i0 j0 k0 i1 j1 k1 ugcw]
      [F.cell3d v i0 j0 k0 i1 j1 k1 vgcw])
    (ht : F.Reach m o 3 w1 ugcw) (hn : w1 * 3 ≤ 2147483647) :
    ∃ m', Cuda.dotOffset3d st sgcw u ugcw v vgcw o i0 i1 j0 j1 k0 k1 w1 β m = .ok m' ∧
      (∀ i j k, i0 ≤ i → i ≤ i1 → j0 ≤ j → j ≤ j1 → k0 ≤ k → k ≤ k1 → ∀ c x : Int → T,
        (∀ s, 0 ≤ s → s < w1 → F.El m (F.coef3d st w1 i0 j0 k0 i1 j1 k1 sgcw) [s, i, j, k] (c s) ∧ ∃ io jo ko,
          F.IntEl m (F.offsets o 3 w1) [1, s + 1] io ∧ F.IntEl m (F.offsets o 3 w1) [2, s + 1] jo ∧ F.IntEl m (F.offsets o 3 w1) [3, s + 1] ko ∧
          F.El m (F.cell3d u i0 j0 k0 i1 j1 k1 ugcw) [i + io, j + jo, k + ko] (x s)) →
        F.El m' (F.cell3d v i0 j0 k0 i1 j1 k1 vgcw) [i, j, k] ((F.irange 0 (w1 - 1)).foldl (fun r s => r + c s * x s) 0)) ∧
      (∀ q, (∀ i j k, i0 ≤ i → i ≤ i1 → j0 ≤ j → j ≤ j1 → k0 ≤ k → k ≤ k1 → (F.cell3d v i0 j0 k0 i1 j1 k1 vgcw).ptr.add (F.colMajor (F.cell3d v i0 j0 k0 i1 j1 k1 vgcw).dims [i, j, k]) ≠ q) → m'.val q = m.val q) ∧ m'.ints = m.ints := by
  obtain ⟨m', g1, g2, -⟩ := dot_core_3d hβ hi hj hk hw hs hv h ht hn
  refine ⟨m', g1, fun i j k ia ib ja jb ka kb c x hc => ?_, fun q hq => g2.frame q ?_, g2.ints⟩
  · let p : Pt := fun d => if d = .I then i else if d = .J then j else if d = .K then k else 0
    have hp : InDom [(.K, ⟨k0, k1 + 1, 1⟩), (.J, ⟨j0, j1 + 1, 1⟩), (.I, ⟨i0, i1 + 1, 1⟩)] p := by
      simp [InDom, IsPoint, InRange, p] <;> omega
    have hat := g2.at_ p hp
    rw [cell_cell3] at hat
    refine ⟨by simp [F.cell3d, F.InBounds] <;> omega, ?_⟩
    refine hat.trans (congrArg some ?_)
    unfold dotVal F.irange
    rw [List.foldl_map]
    refine (foldl_range_congr rfl fun r t hk => ?_).trans (by rw [show (w1 - 1 - 0 + 1).toNat = (w1 - 0).toNat by omega])
    have hk' : (t : Int) < w1 := by
      simp only at hk; omega
    obtain ⟨c1, io, jo, ko, q0, q1, q2, x1⟩ := hc (0 + t) (by omega) (by omega)
    have eI := offPt_tb (m := m) (o := o) (dims := ([(.K, ⟨k0, k1 + 1, 1⟩), (.J, ⟨j0, j1 + 1, 1⟩), (.I, ⟨i0, i1 + 1, 1⟩)] : List DB).map (·.1)) (i := t) (p := p) (d := Dim.I) 3 0 (by simp) rfl rfl
    have eJ := offPt_tb (m := m) (o := o) (dims := ([(.K, ⟨k0, k1 + 1, 1⟩), (.J, ⟨j0, j1 + 1, 1⟩), (.I, ⟨i0, i1 + 1, 1⟩)] : List DB).map (·.1)) (i := t) (p := p) (d := Dim.J) 3 1 (by simp) rfl rfl
    have eK := offPt_tb (m := m) (o := o) (dims := ([(.K, ⟨k0, k1 + 1, 1⟩), (.J, ⟨j0, j1 + 1, 1⟩), (.I, ⟨i0, i1 + 1, 1⟩)] : List DB).map (·.1)) (i := t) (p := p) (d := Dim.K) 3 2 (by simp) rfl rfl
    have v0 : tb m o 3 t 0 = io := by
      have a := (q0).get
      unfold tb
      rw [show (0 + (t : Int) + 1 - 1) * 3 + (1 - 1) = (t : Int) * ((3 : Nat) : Int) + ((0 : Nat) : Int) by push_cast; ring] at a
      rw [a]; rfl
    have v1 : tb m o 3 t 1 = jo := by
      have a := (q1).get
      unfold tb
      rw [show (0 + (t : Int) + 1 - 1) * 3 + (2 - 1) = (t : Int) * ((3 : Nat) : Int) + ((1 : Nat) : Int) by push_cast; ring] at a
      rw [a]; rfl
    have v2 : tb m o 3 t 2 = ko := by
      have a := (q2).get
      unfold tb
      rw [show (0 + (t : Int) + 1 - 1) * 3 + (3 - 1) = (t : Int) * ((3 : Nat) : Int) + ((2 : Nat) : Int) by push_cast; ring] at a
      rw [a]; rfl
    have r1 : ld m (cell (sCoef3 st w1 i0 j0 k0 i1 j1 k1 sgcw) (setPt p .W (0 + (t : Int)))) = c (0 + t) := by
      rw [cell_coef3]
      exact c1.ld
    have r2 : ld m (cell (sCell3 u i0 j0 k0 i1 j1 k1 ugcw) (offPt m.ints o (([(.K, ⟨k0, k1 + 1, 1⟩), (.J, ⟨j0, j1 + 1, 1⟩), (.I, ⟨i0, i1 + 1, 1⟩)] : List DB).map (·.1)) t p)) = x (0 + t) := by
      rw [cell_cell3, eI, eJ, eK, v0, v1, v2]
      exact x1.ld
    rw [r1, r2]
  · rintro ⟨p, hp, e⟩
    simp only [InDom, IsPoint, List.mem_cons, List.not_mem_nil, or_false, forall_eq_or_imp, forall_eq, InRange] at hp
    refine hq (p .I) (p .J) (p .K) (by omega) (by omega) (by omega) (by omega) (by omega) (by omega) ?_
    rw [cell_cell3] at e
    exact e

example : ∃ m', Cuda.dotOffset3d ⟨0, 0⟩ 1 ⟨1, 0⟩ 2 ⟨2, 0⟩ 1 ⟨20, 0⟩ 0 3 0 2 0 1 5 revBackend exDot = .ok m' ∧ m'.ints = exDot.ints :=
  have ⟨m', h1, _, _, h2⟩ := C48_value_3d revBackend_ok (by decide) (by decide) (by decide) (by decide) (by decide) (by decide) (exDot_args (by ex_args :
    F.Args exRat [F.coef3d ⟨0, 0⟩ 5 0 0 0 3 2 1 1, F.cell3d ⟨1, 0⟩ 0 0 0 3 2 1 2] [F.cell3d ⟨2, 0⟩ 0 0 0 3 2 1 1]))
    (exDot_reach (by decide) (by decide)) (by decide)
  ⟨m', h1, h2⟩

/-- The dot product kernel, one dimension, leaves the memory that `applystencilatpoint1d` with factors 1 and 0 leaves when it is called for every cell of the box. -/
theorem C48_point_1d {T : Type} [Field T] {st u v f o : Ptr} {ugcw vgcw fgcw i0 i1 w1 : Int} {β : Backend} {m : Mem T} (hβ : ValidBackend β)
    (hi : i0 ≤ i1) (hw : 1 ≤ w1) (hv : 0 ≤ vgcw) (hf : 0 ≤ fgcw)
    (h : F.Args m [F.stn1d st w1 i0 i1, F.cell1d u i0 i1 ugcw, F.cell1d f i0 i1 fgcw]
      [F.cell1d v i0 i1 vgcw])
    (ht : F.Reach m o 1 w1 ugcw) (hn : w1 * 1 ≤ 2147483647) :
    ∃ m', Cuda.dotOffset1d st 0 u ugcw v vgcw o i0 i1 w1 β m = .ok m' ∧
      F.doLoop i0 i1 (fun i => F.applystencilatpoint1d i0 i1 i w1 o st 1 0 fgcw f ugcw u vgcw v) m = .ok m' := by
  obtain ⟨n, rfl⟩ : ∃ n : Nat, w1 = n := ⟨w1.toNat, by omega⟩
  have hT : F.Reach m o ((1 : Nat) : Int) n ugcw := ht
  have hS := h.ok (F.stn1d st n i0 i1) (by simp)
  have hU := h.ok (F.cell1d u i0 i1 ugcw) (by simp)
  have hF := h.ok (F.cell1d f i0 i1 fgcw) (by simp)
  have hV := h.ok (F.cell1d v i0 i1 vgcw) (by simp)
  have eC : F.coef1d st n i0 i1 0 = ⟨st, (0, (n : Int) - 1) :: [(i0, i1)]⟩ := by simp [F.coef1d]
  have aS := h.apart (F.cell1d v i0 i1 vgcw) (by simp) (F.stn1d st n i0 i1) (by simp)
  have aU := h.apart (F.cell1d v i0 i1 vgcw) (by simp) (F.cell1d u i0 i1 ugcw) (by simp)
  have aF := h.apart (F.cell1d v i0 i1 vgcw) (by simp) (F.cell1d f i0 i1 fgcw) (by simp)
  have h' : F.Args m [F.coef1d st n i0 i1 0, F.cell1d u i0 i1 ugcw] [F.cell1d v i0 i1 vgcw] := by
    refine ⟨fun a ha => ?_, fun b hb a ha => ?_⟩
    · simp only [List.cons_append, List.nil_append, List.mem_cons, List.not_mem_nil, or_false] at ha
      rcases ha with rfl | rfl | rfl
      · rw [eC]; exact F.arrOK_one (by omega) hS
      · exact hU
      · exact hV
    · simp only [List.mem_cons, List.not_mem_nil, or_false] at ha hb
      subst hb
      rcases ha with rfl | rfl
      · rw [eC]; exact F.apart_one aS
      · exact aU
  obtain ⟨m', g1, -, g3⟩ := dot_core_1d hβ hi hw (le_refl 0) hv h' ht hn
  refine ⟨m', g1, ?_⟩
  have B := g3 [(.I, i0, i1)] (fun _ => 0) (fun p => F.applystencilatpoint1d i0 i1 (p .I) n o st 1 0 fgcw f ugcw u vgcw v)
    (by dims) (by same_dims) (by intro p; list_omega) (fun p hp m1 hi hag => ?_)
  · simp only [F.nest] at B
    exact B
  simp only [InDom, IsPoint, List.mem_cons, List.not_mem_nil, or_false, forall_eq_or_imp, forall_eq, InRange] at hp
  have bV : F.InBounds (F.cell1d v i0 i1 vgcw).dims [p .I] := by simp [F.cell1d, F.InBounds] <;> omega
  have bF : F.InBounds (F.cell1d f i0 i1 fgcw).dims [p .I] := by simp [F.cell1d, F.InBounds] <;> omega
  have keep : ∀ q, (∀ is, F.InBounds (F.cell1d v i0 i1 vgcw).dims is → (F.cell1d v i0 i1 vgcw).addrT is ≠ q) → m1.val q = m.val q := fun q hq => hag q fun x => by
    obtain ⟨⟨p', hp', e⟩, -⟩ := x
    simp only [InDom, IsPoint, List.mem_cons, List.not_mem_nil, or_false, forall_eq_or_imp, forall_eq, InRange] at hp'
    rw [cell_cell1] at e
    exact hq _ (by simp [F.cell1d, F.InBounds] <;> omega) e
  have self : m1.val ((F.cell1d v i0 i1 vgcw).addrT [p .I]) = m.val ((F.cell1d v i0 i1 vgcw).addrT [p .I]) := hag _ fun x => by
    refine x.2 ?_
    rw [cell_cell1]
  have cstn : ∀ t : Nat, (F.stn1d st n i0 i1).addrT [1 + (t : Int), p .I] = (F.coef1d st n i0 i1 0).addrT [0 + (t : Int), p .I] := fun t => by
    rw [eC]
    refine (F.addrT_one (t := st) (n := n) (s := 1 + (t : Int)) (ds := [(i0, i1)]) (is := [p .I])).trans ?_
    rw [show 1 + (t : Int) - 1 = 0 + t by omega]
  have A := F.at_point (r := F.cell1d v i0 i1 vgcw) (f := F.cell1d f i0 i1 fgcw) (st := F.stn1d st n i0 i1) (u := F.cell1d u i0 i1 ugcw) (is := [p .I]) (N := n) (js := fun t => [p .I + tb m o 1 t 0]) (a := (1 : T)) (b := 0)
    (fv := ld m ((F.cell1d f i0 i1 fgcw).addrT [p .I])) (cs := fun t => ld m ((F.stn1d st n i0 i1).addrT [1 + (t : Int), p .I])) (us := fun t => ld m ((F.cell1d u i0 i1 ugcw).addrT [p .I + tb m o 1 t 0])) (m := m1)
    (body := fun s m => do
      let io ← F.intRef (F.offsets o 1 n) [1, s] m
      F.assign (F.cell1d v i0 i1 vgcw) [p .I] ((F.cell1d v i0 i1 vgcw).el [p .I] + .const 1 * (F.stn1d st n i0 i1).el [s, p .I] * (F.cell1d u i0 i1 ugcw).el [p .I + io]) m)
    (fun t hk m2 h2 => by
      have i0 := F.intRef_ok (m1 := m2) (hT.tb (k := t) (c := 0) (by omega) (by omega)).1 (h2.trans hi)
      replace i0 : F.intRef (F.offsets o 1 n) [1, 1 + (t : Int)] m2 = .ok (tb m o 1 t 0) := i0
      rw [i0, M.ok_bind])
    bV (by rw [self]; exact hV.alloc _ bV) bF ((keep _ fun is b e => aF _ _ b bF e).trans (ld_some (hF.alloc _ bF)))
    (fun t hk => by
      have b1 : F.InBounds (F.stn1d st n i0 i1).dims [1 + (t : Int), p .I] := by simp [F.stn1d, F.InBounds] <;> omega
      exact ⟨b1, (keep _ fun is b e => aS _ _ b b1 e).trans (ld_some (hS.alloc _ b1)), fun e => aS _ _ bV b1 e.symm⟩)
    (fun t hk => by
      have t0 := (hT.tb (k := t) (c := 0) (by omega) (by omega)).2
      have b1 : F.InBounds (F.cell1d u i0 i1 ugcw).dims [p .I + tb m o 1 t 0] := by simp [F.cell1d, F.InBounds] <;> omega
      exact ⟨b1, (keep _ fun is b e => aU _ _ b b1 e).trans (ld_some (hU.alloc _ b1)), fun e => aU _ _ bV b1 e.symm⟩)
  refine Eq.trans A ?_
  rw [cell_cell1]
  congr 2
  funext q
  split
  · congr 1
    unfold dotVal
    rw [show ((n : Int) - 0).toNat = n by omega]
    refine foldl_range_congr (zero_mul _) fun r t hk => ?_
    have eI := offPt_tb (m := m) (o := o) (dims := ([(.I, ⟨i0, i1 + 1, 1⟩)] : List DB).map (·.1)) (i := t) (p := p) (d := Dim.I) 1 0 (by simp) rfl rfl
    rw [cell_coef1, cell_cell1, eI, one_mul, cstn]
    rfl
  · rfl

example : ∃ m', Cuda.dotOffset1d ⟨0, 0⟩ 0 ⟨1, 0⟩ 2 ⟨2, 0⟩ 1 ⟨20, 0⟩ 0 3 3 revBackend exDot = .ok m' ∧
    F.doLoop 0 3 (fun i => F.applystencilatpoint1d 0 3 i 3 ⟨20, 0⟩ ⟨0, 0⟩ 1 0 0 ⟨3, 0⟩ 2 ⟨1, 0⟩ 1 ⟨2, 0⟩) exDot = .ok m' :=
  C48_point_1d revBackend_ok (by decide) (by decide) (by decide) (by decide) (exDot_args (by ex_args :
    F.Args exRat [F.stn1d ⟨0, 0⟩ 3 0 3, F.cell1d ⟨1, 0⟩ 0 3 2, F.cell1d ⟨3, 0⟩ 0 3 0] [F.cell1d ⟨2, 0⟩ 0 3 1]))
    (exDot_reach (by decide) (by decide)) (by decide)

/-- The dot product kernel, one dimension, and `applystencilonpatch1d` with factors 1 and 0 leave the same memory. -/
theorem C48_patch_1d {T : Type} [Field T] {st u v f o : Ptr} {ugcw vgcw fgcw i0 i1 w1 : Int} {β : Backend} {m : Mem T} (hβ : ValidBackend β)
    (hi : i0 ≤ i1) (hw : 1 ≤ w1) (hv : 0 ≤ vgcw) (hf : 0 ≤ fgcw)
    (h : F.Args m [F.stn1d st w1 i0 i1, F.cell1d u i0 i1 ugcw, F.cell1d f i0 i1 fgcw]
      [F.cell1d v i0 i1 vgcw])
    (ht : F.Reach m o 1 w1 ugcw) (hn : w1 * 1 ≤ 2147483647) :
    ∃ m', Cuda.dotOffset1d st 0 u ugcw v vgcw o i0 i1 w1 β m = .ok m' ∧
      F.applystencilonpatch1d i0 i1 w1 o st 1 0 fgcw f ugcw u vgcw v m = .ok m' :=
  C48_point_1d hβ hi hw hv hf h ht hn

example : ∃ m', Cuda.dotOffset1d ⟨0, 0⟩ 0 ⟨1, 0⟩ 2 ⟨2, 0⟩ 1 ⟨20, 0⟩ 0 3 3 revBackend exDot = .ok m' ∧
    F.applystencilonpatch1d 0 3 3 ⟨20, 0⟩ ⟨0, 0⟩ 1 0 0 ⟨3, 0⟩ 2 ⟨1, 0⟩ 1 ⟨2, 0⟩ exDot = .ok m' :=
  C48_patch_1d revBackend_ok (by decide) (by decide) (by decide) (by decide) (exDot_args (by ex_args :
    F.Args exRat [F.stn1d ⟨0, 0⟩ 3 0 3, F.cell1d ⟨1, 0⟩ 0 3 2, F.cell1d ⟨3, 0⟩ 0 3 0] [F.cell1d ⟨2, 0⟩ 0 3 1]))
    (exDot_reach (by decide) (by decide)) (by decide)

/-- The dot product kernel, two dimensions, leaves the memory that `applystencilatpoint2d` with factors 1 and 0 leaves when it is called for every cell of the box. -/
theorem C48_point_2d {T : Type} [Field T] {st u v f o : Ptr} {ugcw vgcw fgcw i0 i1 j0 j1 w1 : Int} {β : Backend} {m : Mem T} (hβ : ValidBackend β)
    (hi : i0 ≤ i1) (hj : j0 ≤ j1) (hw : 1 ≤ w1) (hv : 0 ≤ vgcw) (hf : 0 ≤ fgcw)
    (h : F.Args m [F.stn2d st w1 i0 j0 i1 j1, F.cell2d u i0 j0 i1 j1 ugcw, F.cell2d f i0 j0 i1 j1 fgcw]
      [F.cell2d v i0 j0 i1 j1 vgcw])
    (ht : F.Reach m o 2 w1 ugcw) (hn : w1 * 2 ≤ 2147483647) :
    ∃ m', Cuda.dotOffset2d st 0 u ugcw v vgcw o i0 i1 j0 j1 w1 β m = .ok m' ∧
      F.doLoop j0 j1 (fun j => F.doLoop i0 i1 (fun i => F.applystencilatpoint2d i0 i1 j0 j1 i j w1 o st 1 0 fgcw f ugcw u vgcw v)) m = .ok m' := by
  obtain ⟨n, rfl⟩ : ∃ n : Nat, w1 = n := ⟨w1.toNat, by omega⟩
  have hT : F.Reach m o ((2 : Nat) : Int) n ugcw := ht
  have hS := h.ok (F.stn2d st n i0 j0 i1 j1) (by simp)
  have hU := h.ok (F.cell2d u i0 j0 i1 j1 ugcw) (by simp)
  have hF := h.ok (F.cell2d f i0 j0 i1 j1 fgcw) (by simp)
  have hV := h.ok (F.cell2d v i0 j0 i1 j1 vgcw) (by simp)
  have eC : F.coef2d st n i0 j0 i1 j1 0 = ⟨st, (0, (n : Int) - 1) :: [(i0, i1), (j0, j1)]⟩ := by simp [F.coef2d]
  have aS := h.apart (F.cell2d v i0 j0 i1 j1 vgcw) (by simp) (F.stn2d st n i0 j0 i1 j1) (by simp)
  have aU := h.apart (F.cell2d v i0 j0 i1 j1 vgcw) (by simp) (F.cell2d u i0 j0 i1 j1 ugcw) (by simp)
  have aF := h.apart (F.cell2d v i0 j0 i1 j1 vgcw) (by simp) (F.cell2d f i0 j0 i1 j1 fgcw) (by simp)
  have h' : F.Args m [F.coef2d st n i0 j0 i1 j1 0, F.cell2d u i0 j0 i1 j1 ugcw] [F.cell2d v i0 j0 i1 j1 vgcw] := by
    refine ⟨fun a ha => ?_, fun b hb a ha => ?_⟩
    · simp only [List.cons_append, List.nil_append, List.mem_cons, List.not_mem_nil, or_false] at ha
      rcases ha with rfl | rfl | rfl
      · rw [eC]; exact F.arrOK_one (by omega) hS
      · exact hU
      · exact hV
    · simp only [List.mem_cons, List.not_mem_nil, or_false] at ha hb
      subst hb
      rcases ha with rfl | rfl
      · rw [eC]; exact F.apart_one aS
      · exact aU
  obtain ⟨m', g1, -, g3⟩ := dot_core_2d hβ hi hj hw (le_refl 0) hv h' ht hn
  refine ⟨m', g1, ?_⟩
  have B := g3 [(.J, j0, j1), (.I, i0, i1)] (fun _ => 0) (fun p => F.applystencilatpoint2d i0 i1 j0 j1 (p .I) (p .J) n o st 1 0 fgcw f ugcw u vgcw v)
    (by dims) (by same_dims) (by intro p; list_omega) (fun p hp m1 hi hag => ?_)
  · simp only [F.nest] at B
    exact B
  simp only [InDom, IsPoint, List.mem_cons, List.not_mem_nil, or_false, forall_eq_or_imp, forall_eq, InRange] at hp
  have bV : F.InBounds (F.cell2d v i0 j0 i1 j1 vgcw).dims [p .I, p .J] := by simp [F.cell2d, F.InBounds] <;> omega
  have bF : F.InBounds (F.cell2d f i0 j0 i1 j1 fgcw).dims [p .I, p .J] := by simp [F.cell2d, F.InBounds] <;> omega
  have keep : ∀ q, (∀ is, F.InBounds (F.cell2d v i0 j0 i1 j1 vgcw).dims is → (F.cell2d v i0 j0 i1 j1 vgcw).addrT is ≠ q) → m1.val q = m.val q := fun q hq => hag q fun x => by
    obtain ⟨⟨p', hp', e⟩, -⟩ := x
    simp only [InDom, IsPoint, List.mem_cons, List.not_mem_nil, or_false, forall_eq_or_imp, forall_eq, InRange] at hp'
    rw [cell_cell2] at e
    exact hq _ (by simp [F.cell2d, F.InBounds] <;> omega) e
  have self : m1.val ((F.cell2d v i0 j0 i1 j1 vgcw).addrT [p .I, p .J]) = m.val ((F.cell2d v i0 j0 i1 j1 vgcw).addrT [p .I, p .J]) := hag _ fun x => by
    refine x.2 ?_
    rw [cell_cell2]
  have cstn : ∀ t : Nat, (F.stn2d st n i0 j0 i1 j1).addrT [1 + (t : Int), p .I, p .J] = (F.coef2d st n i0 j0 i1 j1 0).addrT [0 + (t : Int), p .I, p .J] := fun t => by
    rw [eC]
    refine (F.addrT_one (t := st) (n := n) (s := 1 + (t : Int)) (ds := [(i0, i1), (j0, j1)]) (is := [p .I, p .J])).trans ?_
    rw [show 1 + (t : Int) - 1 = 0 + t by omega]
  have A := F.at_point (r := F.cell2d v i0 j0 i1 j1 vgcw) (f := F.cell2d f i0 j0 i1 j1 fgcw) (st := F.stn2d st n i0 j0 i1 j1) (u := F.cell2d u i0 j0 i1 j1 ugcw) (is := [p .I, p .J]) (N := n) (js := fun t => [p .I + tb m o 2 t 0, p .J + tb m o 2 t 1]) (a := (1 : T)) (b := 0)
    (fv := ld m ((F.cell2d f i0 j0 i1 j1 fgcw).addrT [p .I, p .J])) (cs := fun t => ld m ((F.stn2d st n i0 j0 i1 j1).addrT [1 + (t : Int), p .I, p .J])) (us := fun t => ld m ((F.cell2d u i0 j0 i1 j1 ugcw).addrT [p .I + tb m o 2 t 0, p .J + tb m o 2 t 1])) (m := m1)
    (body := fun s m => do
      let io ← F.intRef (F.offsets o 2 n) [1, s] m
      let jo ← F.intRef (F.offsets o 2 n) [2, s] m
      F.assign (F.cell2d v i0 j0 i1 j1 vgcw) [p .I, p .J] ((F.cell2d v i0 j0 i1 j1 vgcw).el [p .I, p .J] + .const 1 * (F.stn2d st n i0 j0 i1 j1).el [s, p .I, p .J] * (F.cell2d u i0 j0 i1 j1 ugcw).el [p .I + io, p .J + jo]) m)
    (fun t hk m2 h2 => by
      have i0 := F.intRef_ok (m1 := m2) (hT.tb (k := t) (c := 0) (by omega) (by omega)).1 (h2.trans hi)
      have i1 := F.intRef_ok (m1 := m2) (hT.tb (k := t) (c := 1) (by omega) (by omega)).1 (h2.trans hi)
      replace i0 : F.intRef (F.offsets o 2 n) [1, 1 + (t : Int)] m2 = .ok (tb m o 2 t 0) := i0
      replace i1 : F.intRef (F.offsets o 2 n) [2, 1 + (t : Int)] m2 = .ok (tb m o 2 t 1) := i1
      rw [i0, M.ok_bind, i1, M.ok_bind])
    bV (by rw [self]; exact hV.alloc _ bV) bF ((keep _ fun is b e => aF _ _ b bF e).trans (ld_some (hF.alloc _ bF)))
    (fun t hk => by
      have b1 : F.InBounds (F.stn2d st n i0 j0 i1 j1).dims [1 + (t : Int), p .I, p .J] := by simp [F.stn2d, F.InBounds] <;> omega
      exact ⟨b1, (keep _ fun is b e => aS _ _ b b1 e).trans (ld_some (hS.alloc _ b1)), fun e => aS _ _ bV b1 e.symm⟩)
    (fun t hk => by
      have t0 := (hT.tb (k := t) (c := 0) (by omega) (by omega)).2
      have t1 := (hT.tb (k := t) (c := 1) (by omega) (by omega)).2
      have b1 : F.InBounds (F.cell2d u i0 j0 i1 j1 ugcw).dims [p .I + tb m o 2 t 0, p .J + tb m o 2 t 1] := by simp [F.cell2d, F.InBounds] <;> omega
      exact ⟨b1, (keep _ fun is b e => aU _ _ b b1 e).trans (ld_some (hU.alloc _ b1)), fun e => aU _ _ bV b1 e.symm⟩)
  refine Eq.trans A ?_
  rw [cell_cell2]
  congr 2
  funext q
  split
  · congr 1
    unfold dotVal
    rw [show ((n : Int) - 0).toNat = n by omega]
    refine foldl_range_congr (zero_mul _) fun r t hk => ?_
    have eI := offPt_tb (m := m) (o := o) (dims := ([(.J, ⟨j0, j1 + 1, 1⟩), (.I, ⟨i0, i1 + 1, 1⟩)] : List DB).map (·.1)) (i := t) (p := p) (d := Dim.I) 2 0 (by simp) rfl rfl
    have eJ := offPt_tb (m := m) (o := o) (dims := ([(.J, ⟨j0, j1 + 1, 1⟩), (.I, ⟨i0, i1 + 1, 1⟩)] : List DB).map (·.1)) (i := t) (p := p) (d := Dim.J) 2 1 (by simp) rfl rfl
    rw [cell_coef2, cell_cell2, eI, eJ, one_mul, cstn]
    rfl
  · rfl

example : ∃ m', Cuda.dotOffset2d ⟨0, 0⟩ 0 ⟨1, 0⟩ 2 ⟨2, 0⟩ 1 ⟨20, 0⟩ 0 3 0 2 4 revBackend exDot = .ok m' ∧
    F.doLoop 0 2 (fun j => F.doLoop 0 3 (fun i => F.applystencilatpoint2d 0 3 0 2 i j 4 ⟨20, 0⟩ ⟨0, 0⟩ 1 0 0 ⟨3, 0⟩ 2 ⟨1, 0⟩ 1 ⟨2, 0⟩)) exDot = .ok m' :=
  C48_point_2d revBackend_ok (by decide) (by decide) (by decide) (by decide) (by decide) (exDot_args (by ex_args :
    F.Args exRat [F.stn2d ⟨0, 0⟩ 4 0 0 3 2, F.cell2d ⟨1, 0⟩ 0 0 3 2 2, F.cell2d ⟨3, 0⟩ 0 0 3 2 0] [F.cell2d ⟨2, 0⟩ 0 0 3 2 1]))
    (exDot_reach (by decide) (by decide)) (by decide)

/-- The full statement, that the kernel and `applystencilonpatch2d` leave the same memory, holds when the box has the same bounds in both dimensions; missing
are all other boxes (`C48_patch_2d_false`), because the routine's loops use the bounds of the other dimension. -/
theorem C48_patch_2d_partial {T : Type} [Field T] {st u v f o : Ptr} {ugcw vgcw fgcw i0 i1 w1 : Int} {β : Backend} {m : Mem T} (hβ : ValidBackend β)
    (hi : i0 ≤ i1) (hw : 1 ≤ w1) (hv : 0 ≤ vgcw) (hf : 0 ≤ fgcw)
    (h : F.Args m [F.stn2d st w1 i0 i0 i1 i1, F.cell2d u i0 i0 i1 i1 ugcw, F.cell2d f i0 i0 i1 i1 fgcw]
      [F.cell2d v i0 i0 i1 i1 vgcw])
    (ht : F.Reach m o 2 w1 ugcw) (hn : w1 * 2 ≤ 2147483647) :
    ∃ m', Cuda.dotOffset2d st 0 u ugcw v vgcw o i0 i1 i0 i1 w1 β m = .ok m' ∧
      F.applystencilonpatch2d i0 i1 i0 i1 w1 o st 1 0 fgcw f ugcw u vgcw v m = .ok m' :=
  C48_point_2d hβ hi hi hw hv hf h ht hn

example : ∃ m', Cuda.dotOffset2d ⟨0, 0⟩ 0 ⟨1, 0⟩ 2 ⟨2, 0⟩ 1 ⟨20, 0⟩ 0 3 0 3 4 revBackend exDot = .ok m' ∧
    F.applystencilonpatch2d 0 3 0 3 4 ⟨20, 0⟩ ⟨0, 0⟩ 1 0 0 ⟨3, 0⟩ 2 ⟨1, 0⟩ 1 ⟨2, 0⟩ exDot = .ok m' :=
  C48_patch_2d_partial revBackend_ok (by decide) (by decide) (by decide) (by decide) (exDot_args (by ex_args :
    F.Args exRat [F.stn2d ⟨0, 0⟩ 4 0 0 3 3, F.cell2d ⟨1, 0⟩ 0 0 3 3 2, F.cell2d ⟨3, 0⟩ 0 0 3 3 0] [F.cell2d ⟨2, 0⟩ 0 0 3 3 1]))
    (exDot_reach (by decide) (by decide)) (by decide)

/-- On every other box `applystencilonpatch2d` goes outside its arrays, where the kernel does not. -/
theorem C48_patch_2d_false {T : Type} [Field T] {st u v f o : Ptr} {ugcw vgcw fgcw i0 i1 j0 j1 w1 : Int} {β : Backend} {m : Mem T} (hβ : ValidBackend β)
    (hi : i0 ≤ i1) (hj : j0 ≤ j1) (hw : 1 ≤ w1) (hv : 0 ≤ vgcw) (hf : 0 ≤ fgcw)
    (h : F.Args m [F.stn2d st w1 i0 j0 i1 j1, F.cell2d u i0 j0 i1 j1 ugcw, F.cell2d f i0 j0 i1 j1 fgcw]
      [F.cell2d v i0 j0 i1 j1 vgcw])
    (ht : F.Reach m o 2 w1 ugcw) (hn : w1 * 2 ≤ 2147483647) (hne : ¬ (i0 = j0 ∧ i1 = j1)) :
    (∃ m', Cuda.dotOffset2d st 0 u ugcw v vgcw o i0 i1 j0 j1 w1 β m = .ok m') ∧
      ∀ m', F.applystencilonpatch2d i0 i1 j0 j1 w1 o st 1 0 fgcw f ugcw u vgcw v m ≠ .ok m' := by
  refine ⟨(C48_point_2d hβ hi hj hw hv hf h ht hn).imp fun _ => And.left, fun m' hm => ?_⟩
  have bad : ∃ i j, (i0 ≤ j ∧ j ≤ i1) ∧ (j0 ≤ i ∧ i ≤ j1) ∧ ¬ ((i0 ≤ i ∧ i ≤ i1) ∧ (j0 ≤ j ∧ j ≤ j1)) := by
    by_cases a : j0 < i0
    · exact ⟨j0, i0, by omega⟩
    · by_cases b : i1 < j1
      · exact ⟨j1, i0, by omega⟩
      · by_cases c : i0 < j0
        · exact ⟨j0, i0, by omega⟩
        · exact ⟨j0, i1, by omega⟩
  obtain ⟨i, j, b1, b2, b3⟩ := bad
  obtain ⟨m1, m2, e1⟩ := F.doLoop_mem hm b1.1 b1.2
  obtain ⟨m3, m4, e2⟩ := F.doLoop_mem e1 b2.1 b2.2
  simp only [F.block] at e2
  obtain ⟨m5, -, e2⟩ := bind_inv e2
  obtain ⟨m6, e3, -⟩ := bind_inv e2
  obtain ⟨m7, m8, e4⟩ := F.doLoop_mem e3 (le_refl 1) hw
  obtain ⟨io, -, e4⟩ := bind_inv e4
  obtain ⟨jo, -, e4⟩ := bind_inv e4
  unfold F.assign at e4
  obtain ⟨x, e5, -⟩ := bind_inv e4
  obtain ⟨y, e6⟩ := (F.add_inv e5).2
  obtain ⟨z, e7⟩ := (F.mul_inv e6).1
  obtain ⟨z', e8⟩ := (F.mul_inv e7).2
  have := F.ref_inv e8
  simp only [F.stn2d, F.InBounds] at this
  omega

example : (∃ m', Cuda.dotOffset2d ⟨0, 0⟩ 0 ⟨1, 0⟩ 2 ⟨2, 0⟩ 1 ⟨20, 0⟩ 0 3 0 2 4 revBackend exDot = .ok m') ∧
    ∀ m', F.applystencilonpatch2d 0 3 0 2 4 ⟨20, 0⟩ ⟨0, 0⟩ 1 0 0 ⟨3, 0⟩ 2 ⟨1, 0⟩ 1 ⟨2, 0⟩ exDot ≠ .ok m' :=
  C48_patch_2d_false revBackend_ok (by decide) (by decide) (by decide) (by decide) (by decide) (exDot_args (by ex_args :
    F.Args exRat [F.stn2d ⟨0, 0⟩ 4 0 0 3 2, F.cell2d ⟨1, 0⟩ 0 0 3 2 2, F.cell2d ⟨3, 0⟩ 0 0 3 2 0] [F.cell2d ⟨2, 0⟩ 0 0 3 2 1]))
    (exDot_reach (by decide) (by decide)) (by decide) (by decide)

/-- The dot product kernel, three dimensions, leaves the memory that `applystencilatpoint3d` with factors 1 and 0 leaves when it is called for every cell of the box. -/
theorem C48_point_3d {T : Type} [Field T] {st u v f o : Ptr} {ugcw vgcw fgcw i0 i1 j0 j1 k0 k1 w1 : Int} {β : Backend} {m : Mem T} (hβ : ValidBackend β)
    (hi : i0 ≤ i1) (hj : j0 ≤ j1) (hk : k0 ≤ k1) (hw : 1 ≤ w1) (hv : 0 ≤ vgcw) (hf : 0 ≤ fgcw)
    (h : F.Args m [F.stn3d st w1 i0 j0 k0 i1 j1 k1, F.cell3d u i0 j0 k0 i1 j1 k1 ugcw, F.cell3d f i0 j0 k0 i1 j1 k1 fgcw]
      [F.cell3d v i0 j0 k0 i1 j1 k1 vgcw])
    (ht : F.Reach m o 3 w1 ugcw) (hn : w1 * 3 ≤ 2147483647) :
    ∃ m', Cuda.dotOffset3d st 0 u ugcw v vgcw o i0 i1 j0 j1 k0 k1 w1 β m = .ok m' ∧
      F.doLoop k0 k1 (fun k => F.doLoop j0 j1 (fun j => F.doLoop i0 i1 (fun i => F.applystencilatpoint3d i0 i1 j0 j1 k0 k1 i j k w1 o st 1 0 fgcw f ugcw u vgcw v))) m = .ok m' := by
  obtain ⟨n, rfl⟩ : ∃ n : Nat, w1 = n := ⟨w1.toNat, by omega⟩
  have hT : F.Reach m o ((3 : Nat) : Int) n ugcw := ht
  have hS := h.ok (F.stn3d st n i0 j0 k0 i1 j1 k1) (by simp)
  have hU := h.ok (F.cell3d u i0 j0 k0 i1 j1 k1 ugcw) (by simp)
  have hF := h.ok (F.cell3d f i0 j0 k0 i1 j1 k1 fgcw) (by simp)
  have hV := h.ok (F.cell3d v i0 j0 k0 i1 j1 k1 vgcw) (by simp)
  have eC : F.coef3d st n i0 j0 k0 i1 j1 k1 0 = ⟨st, (0, (n : Int) - 1) :: [(i0, i1), (j0, j1), (k0, k1)]⟩ := by simp [F.coef3d]
  have aS := h.apart (F.cell3d v i0 j0 k0 i1 j1 k1 vgcw) (by simp) (F.stn3d st n i0 j0 k0 i1 j1 k1) (by simp)
  have aU := h.apart (F.cell3d v i0 j0 k0 i1 j1 k1 vgcw) (by simp) (F.cell3d u i0 j0 k0 i1 j1 k1 ugcw) (by simp)
  have aF := h.apart (F.cell3d v i0 j0 k0 i1 j1 k1 vgcw) (by simp) (F.cell3d f i0 j0 k0 i1 j1 k1 fgcw) (by simp)
  have h' : F.Args m [F.coef3d st n i0 j0 k0 i1 j1 k1 0, F.cell3d u i0 j0 k0 i1 j1 k1 ugcw] [F.cell3d v i0 j0 k0 i1 j1 k1 vgcw] := by
    refine ⟨fun a ha => ?_, fun b hb a ha => ?_⟩
    · simp only [List.cons_append, List.nil_append, List.mem_cons, List.not_mem_nil, or_false] at ha
      rcases ha with rfl | rfl | rfl
      · rw [eC]; exact F.arrOK_one (by omega) hS
      · exact hU
      · exact hV
    · simp only [List.mem_cons, List.not_mem_nil, or_false] at ha hb
      subst hb
      rcases ha with rfl | rfl
      · rw [eC]; exact F.apart_one aS
      · exact aU
  obtain ⟨m', g1, -, g3⟩ := dot_core_3d hβ hi hj hk hw (le_refl 0) hv h' ht hn
  refine ⟨m', g1, ?_⟩
  have B := g3 [(.K, k0, k1), (.J, j0, j1), (.I, i0, i1)] (fun _ => 0) (fun p => F.applystencilatpoint3d i0 i1 j0 j1 k0 k1 (p .I) (p .J) (p .K) n o st 1 0 fgcw f ugcw u vgcw v)
    (by dims) (by same_dims) (by intro p; list_omega) (fun p hp m1 hi hag => ?_)
  · simp only [F.nest] at B
    exact B
  simp only [InDom, IsPoint, List.mem_cons, List.not_mem_nil, or_false, forall_eq_or_imp, forall_eq, InRange] at hp
  have bV : F.InBounds (F.cell3d v i0 j0 k0 i1 j1 k1 vgcw).dims [p .I, p .J, p .K] := by simp [F.cell3d, F.InBounds] <;> omega
  have bF : F.InBounds (F.cell3d f i0 j0 k0 i1 j1 k1 fgcw).dims [p .I, p .J, p .K] := by simp [F.cell3d, F.InBounds] <;> omega
  have keep : ∀ q, (∀ is, F.InBounds (F.cell3d v i0 j0 k0 i1 j1 k1 vgcw).dims is → (F.cell3d v i0 j0 k0 i1 j1 k1 vgcw).addrT is ≠ q) → m1.val q = m.val q := fun q hq => hag q fun x => by
    obtain ⟨⟨p', hp', e⟩, -⟩ := x
    simp only [InDom, IsPoint, List.mem_cons, List.not_mem_nil, or_false, forall_eq_or_imp, forall_eq, InRange] at hp'
    rw [cell_cell3] at e
    exact hq _ (by simp [F.cell3d, F.InBounds] <;> omega) e
  have self : m1.val ((F.cell3d v i0 j0 k0 i1 j1 k1 vgcw).addrT [p .I, p .J, p .K]) = m.val ((F.cell3d v i0 j0 k0 i1 j1 k1 vgcw).addrT [p .I, p .J, p .K]) := hag _ fun x => by
    refine x.2 ?_
    rw [cell_cell3]
  have cstn : ∀ t : Nat, (F.stn3d st n i0 j0 k0 i1 j1 k1).addrT [1 + (t : Int), p .I, p .J, p .K] = (F.coef3d st n i0 j0 k0 i1 j1 k1 0).addrT [0 + (t : Int), p .I, p .J, p .K] := fun t => by
    rw [eC]
    refine (F.addrT_one (t := st) (n := n) (s := 1 + (t : Int)) (ds := [(i0, i1), (j0, j1), (k0, k1)]) (is := [p .I, p .J, p .K])).trans ?_
    rw [show 1 + (t : Int) - 1 = 0 + t by omega]
  have A := F.at_point (r := F.cell3d v i0 j0 k0 i1 j1 k1 vgcw) (f := F.cell3d f i0 j0 k0 i1 j1 k1 fgcw) (st := F.stn3d st n i0 j0 k0 i1 j1 k1) (u := F.cell3d u i0 j0 k0 i1 j1 k1 ugcw) (is := [p .I, p .J, p .K]) (N := n) (js := fun t => [p .I + tb m o 3 t 0, p .J + tb m o 3 t 1, p .K + tb m o 3 t 2]) (a := (1 : T)) (b := 0)
    (fv := ld m ((F.cell3d f i0 j0 k0 i1 j1 k1 fgcw).addrT [p .I, p .J, p .K])) (cs := fun t => ld m ((F.stn3d st n i0 j0 k0 i1 j1 k1).addrT [1 + (t : Int), p .I, p .J, p .K])) (us := fun t => ld m ((F.cell3d u i0 j0 k0 i1 j1 k1 ugcw).addrT [p .I + tb m o 3 t 0, p .J + tb m o 3 t 1, p .K + tb m o 3 t 2])) (m := m1)
    (body := fun s m => do
      let io ← F.intRef (F.offsets o 3 n) [1, s] m
      let jo ← F.intRef (F.offsets o 3 n) [2, s] m
      let ko ← F.intRef (F.offsets o 3 n) [3, s] m
      F.assign (F.cell3d v i0 j0 k0 i1 j1 k1 vgcw) [p .I, p .J, p .K] ((F.cell3d v i0 j0 k0 i1 j1 k1 vgcw).el [p .I, p .J, p .K] + .const 1 * (F.stn3d st n i0 j0 k0 i1 j1 k1).el [s, p .I, p .J, p .K] * (F.cell3d u i0 j0 k0 i1 j1 k1 ugcw).el [p .I + io, p .J + jo, p .K + ko]) m)
    (fun t hk m2 h2 => by
      have i0 := F.intRef_ok (m1 := m2) (hT.tb (k := t) (c := 0) (by omega) (by omega)).1 (h2.trans hi)
      have i1 := F.intRef_ok (m1 := m2) (hT.tb (k := t) (c := 1) (by omega) (by omega)).1 (h2.trans hi)
      have i2 := F.intRef_ok (m1 := m2) (hT.tb (k := t) (c := 2) (by omega) (by omega)).1 (h2.trans hi)
      replace i0 : F.intRef (F.offsets o 3 n) [1, 1 + (t : Int)] m2 = .ok (tb m o 3 t 0) := i0
      replace i1 : F.intRef (F.offsets o 3 n) [2, 1 + (t : Int)] m2 = .ok (tb m o 3 t 1) := i1
      replace i2 : F.intRef (F.offsets o 3 n) [3, 1 + (t : Int)] m2 = .ok (tb m o 3 t 2) := i2
      rw [i0, M.ok_bind, i1, M.ok_bind, i2, M.ok_bind])
    bV (by rw [self]; exact hV.alloc _ bV) bF ((keep _ fun is b e => aF _ _ b bF e).trans (ld_some (hF.alloc _ bF)))
    (fun t hk => by
      have b1 : F.InBounds (F.stn3d st n i0 j0 k0 i1 j1 k1).dims [1 + (t : Int), p .I, p .J, p .K] := by simp [F.stn3d, F.InBounds] <;> omega
      exact ⟨b1, (keep _ fun is b e => aS _ _ b b1 e).trans (ld_some (hS.alloc _ b1)), fun e => aS _ _ bV b1 e.symm⟩)
    (fun t hk => by
      have t0 := (hT.tb (k := t) (c := 0) (by omega) (by omega)).2
      have t1 := (hT.tb (k := t) (c := 1) (by omega) (by omega)).2
      have t2 := (hT.tb (k := t) (c := 2) (by omega) (by omega)).2
      have b1 : F.InBounds (F.cell3d u i0 j0 k0 i1 j1 k1 ugcw).dims [p .I + tb m o 3 t 0, p .J + tb m o 3 t 1, p .K + tb m o 3 t 2] := by simp [F.cell3d, F.InBounds] <;> omega
      exact ⟨b1, (keep _ fun is b e => aU _ _ b b1 e).trans (ld_some (hU.alloc _ b1)), fun e => aU _ _ bV b1 e.symm⟩)
  refine Eq.trans A ?_
  rw [cell_cell3]
  congr 2
  funext q
  split
  · congr 1
    unfold dotVal
    rw [show ((n : Int) - 0).toNat = n by omega]
    refine foldl_range_congr (zero_mul _) fun r t hk => ?_
    have eI := offPt_tb (m := m) (o := o) (dims := ([(.K, ⟨k0, k1 + 1, 1⟩), (.J, ⟨j0, j1 + 1, 1⟩), (.I, ⟨i0, i1 + 1, 1⟩)] : List DB).map (·.1)) (i := t) (p := p) (d := Dim.I) 3 0 (by simp) rfl rfl
    have eJ := offPt_tb (m := m) (o := o) (dims := ([(.K, ⟨k0, k1 + 1, 1⟩), (.J, ⟨j0, j1 + 1, 1⟩), (.I, ⟨i0, i1 + 1, 1⟩)] : List DB).map (·.1)) (i := t) (p := p) (d := Dim.J) 3 1 (by simp) rfl rfl
    have eK := offPt_tb (m := m) (o := o) (dims := ([(.K, ⟨k0, k1 + 1, 1⟩), (.J, ⟨j0, j1 + 1, 1⟩), (.I, ⟨i0, i1 + 1, 1⟩)] : List DB).map (·.1)) (i := t) (p := p) (d := Dim.K) 3 2 (by simp) rfl rfl
    rw [cell_coef3, cell_cell3, eI, eJ, eK, one_mul, cstn]
    rfl
  · rfl

example : ∃ m', Cuda.dotOffset3d ⟨0, 0⟩ 0 ⟨1, 0⟩ 2 ⟨2, 0⟩ 1 ⟨20, 0⟩ 0 3 0 2 0 1 5 revBackend exDot = .ok m' ∧
    F.doLoop 0 1 (fun k => F.doLoop 0 2 (fun j => F.doLoop 0 3 (fun i => F.applystencilatpoint3d 0 3 0 2 0 1 i j k 5 ⟨20, 0⟩ ⟨0, 0⟩ 1 0 0 ⟨3, 0⟩ 2 ⟨1, 0⟩ 1 ⟨2, 0⟩))) exDot = .ok m' :=
  C48_point_3d revBackend_ok (by decide) (by decide) (by decide) (by decide) (by decide) (by decide) (exDot_args (by ex_args :
    F.Args exRat [F.stn3d ⟨0, 0⟩ 5 0 0 0 3 2 1, F.cell3d ⟨1, 0⟩ 0 0 0 3 2 1 2, F.cell3d ⟨3, 0⟩ 0 0 0 3 2 1 0] [F.cell3d ⟨2, 0⟩ 0 0 0 3 2 1 1]))
    (exDot_reach (by decide) (by decide)) (by decide)

/-- The dot product kernel, three dimensions, and `applystencilonpatch3d` with factors 1 and 0 leave the same memory. -/
theorem C48_patch_3d {T : Type} [Field T] {st u v f o : Ptr} {ugcw vgcw fgcw i0 i1 j0 j1 k0 k1 w1 : Int} {β : Backend} {m : Mem T} (hβ : ValidBackend β)
    (hi : i0 ≤ i1) (hj : j0 ≤ j1) (hk : k0 ≤ k1) (hw : 1 ≤ w1) (hv : 0 ≤ vgcw) (hf : 0 ≤ fgcw)
    (h : F.Args m [F.stn3d st w1 i0 j0 k0 i1 j1 k1, F.cell3d u i0 j0 k0 i1 j1 k1 ugcw, F.cell3d f i0 j0 k0 i1 j1 k1 fgcw]
      [F.cell3d v i0 j0 k0 i1 j1 k1 vgcw])
    (ht : F.Reach m o 3 w1 ugcw) (hn : w1 * 3 ≤ 2147483647) :
    ∃ m', Cuda.dotOffset3d st 0 u ugcw v vgcw o i0 i1 j0 j1 k0 k1 w1 β m = .ok m' ∧
      F.applystencilonpatch3d i0 i1 j0 j1 k0 k1 w1 o st 1 0 fgcw f ugcw u vgcw v m = .ok m' :=
  C48_point_3d hβ hi hj hk hw hv hf h ht hn

example : ∃ m', Cuda.dotOffset3d ⟨0, 0⟩ 0 ⟨1, 0⟩ 2 ⟨2, 0⟩ 1 ⟨20, 0⟩ 0 3 0 2 0 1 5 revBackend exDot = .ok m' ∧
    F.applystencilonpatch3d 0 3 0 2 0 1 5 ⟨20, 0⟩ ⟨0, 0⟩ 1 0 0 ⟨3, 0⟩ 2 ⟨1, 0⟩ 1 ⟨2, 0⟩ exDot = .ok m' :=
  C48_patch_3d revBackend_ok (by decide) (by decide) (by decide) (by decide) (by decide) (by decide) (exDot_args (by ex_args :
    F.Args exRat [F.stn3d ⟨0, 0⟩ 5 0 0 0 3 2 1, F.cell3d ⟨1, 0⟩ 0 0 0 3 2 1 2, F.cell3d ⟨3, 0⟩ 0 0 0 3 2 1 0] [F.cell3d ⟨2, 0⟩ 0 0 0 3 2 1 1]))
    (exDot_reach (by decide) (by decide)) (by decide)

end Verif
