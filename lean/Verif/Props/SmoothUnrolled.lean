import Verif.Lemmas.SmoothUnrolled
import Verif.Lemmas.SmoothEx

/-
C53: the red-black smoothers written out for five, nine and seven points are the general ones with the corresponding table of displacements.
-/

namespace Verif

variable {T : Type} [Add T] [Sub T] [Mul T] [Div T] [Neg T]

/-- the table of the five-point stencil -/
abbrev fivePoints : List (List Int) := [[0, 0], [-1, 0], [1, 0], [0, -1], [0, 1]]
/-- the table of the nine-point stencil -/
abbrev ninePoints : List (List Int) := [[0, 0], [-1, 0], [1, 0], [0, -1], [0, 1], [-1, -1], [1, -1], [-1, 1], [1, 1]]
/-- the table of the seven-point stencil -/
abbrev sevenPoints : List (List Int) := [[0, 0, 0], [-1, 0, 0], [1, 0, 0], [0, -1, 0], [0, 1, 0], [0, 0, -1], [0, 0, 1]]

/-- `cells5rbgs2d` has the same outcome as `cellrbgs2d` with the five-point table: for every memory, all bounds, every aliasing, every arithmetic,
calls that read outside an array included. -/
theorem C53_five {lo0 hi0 lo1 hi1 color slo0 shi0 slo1 shi1 flo0 fhi0 flo1 fhi1 ulo0 uhi0 ulo1 uhi1 : Int} {o st f u : Ptr} {m : Mem T}
    (ht : F.Rows m (F.offset0 o 2 5) fivePoints) :
    F.cells5rbgs2d lo0 hi0 lo1 hi1 color slo0 shi0 slo1 shi1 st flo0 fhi0 flo1 fhi1 f ulo0 uhi0 ulo1 uhi1 u m =
      F.cellrbgs2d lo0 hi0 lo1 hi1 color 5 o slo0 shi0 slo1 shi1 st flo0 fhi0 flo1 fhi1 f ulo0 uhi0 ulo1 uhi1 u m := by
  unfold F.cells5rbgs2d F.cellrbgs2d F.doLoop F.doStep
  refine (F.foldlM_same (m0 := m) (fun j m1 h1 => (F.foldlM_same (m0 := m) (fun i m2 h2 => ?_) (fun i m2 m3 h2 h3 => ?_) h1).1)
    (fun j m1 m2 h1 h2 => (F.foldlM_same (m0 := m) (fun i m2 h2 => rfl) (fun i m2 m3 h2 h3 => ?_) h1).2 _ h2) rfl).1
  · have t : ∀ (s c : Nat) row z, fivePoints[s]? = some row → row[c]? = some z → F.intRef (F.offset0 o 2 5) [(c : Int), (s : Int)] m2 = .ok z :=
      fun s c row z a b => F.intRef_ok (ht s c row z a b) h2
    have a1 := t 1 0 _ _ rfl rfl
    have b1 := t 1 1 _ _ rfl rfl
    have a2 := t 2 0 _ _ rfl rfl
    have b2 := t 2 1 _ _ rfl rfl
    have a3 := t 3 0 _ _ rfl rfl
    have b3 := t 3 1 _ _ rfl rfl
    have a4 := t 4 0 _ _ rfl rfl
    have b4 := t 4 1 _ _ rfl rfl
    simp only [Nat.cast_zero, Nat.cast_one, Nat.cast_ofNat] at a1 b1 a2 b2 a3 b3 a4 b4
    have hr : F.irange 1 (5 - 1) = [1, 2, 3, 4] := rfl
    unfold F.doLocal
    rw [F.div_assign, F.sub_bind, F.sub_bind, F.sub_bind, F.sub_bind, hr]
    simp only [List.foldlM_cons, List.foldlM_nil, a1, b1, a2, b2, a3, b3, a4, b4, F.mok, bind_assoc, Int.add_zero, ← Int.sub_eq_add_neg, bind_pure]
  all_goals
    obtain ⟨r1, h4⟩ := F.bind_inv h3
    obtain ⟨r2, h5⟩ := F.bind_inv h4
    exact (F.assign_ints h5).trans h2

/-- `cells9rbgs2d` has the same outcome as `cellrbgs2d` with the nine-point table. -/
theorem C53_nine {lo0 hi0 lo1 hi1 color slo0 shi0 slo1 shi1 flo0 fhi0 flo1 fhi1 ulo0 uhi0 ulo1 uhi1 : Int} {o st f u : Ptr} {m : Mem T}
    (ht : F.Rows m (F.offset0 o 2 9) ninePoints) :
    F.cells9rbgs2d lo0 hi0 lo1 hi1 color slo0 shi0 slo1 shi1 st flo0 fhi0 flo1 fhi1 f ulo0 uhi0 ulo1 uhi1 u m =
      F.cellrbgs2d lo0 hi0 lo1 hi1 color 9 o slo0 shi0 slo1 shi1 st flo0 fhi0 flo1 fhi1 f ulo0 uhi0 ulo1 uhi1 u m := by
  unfold F.cells9rbgs2d F.cellrbgs2d F.doLoop F.doStep
  refine (F.foldlM_same (m0 := m) (fun j m1 h1 => (F.foldlM_same (m0 := m) (fun i m2 h2 => ?_) (fun i m2 m3 h2 h3 => ?_) h1).1)
    (fun j m1 m2 h1 h2 => (F.foldlM_same (m0 := m) (fun i m2 h2 => rfl) (fun i m2 m3 h2 h3 => ?_) h1).2 _ h2) rfl).1
  · have t : ∀ (s c : Nat) row z, ninePoints[s]? = some row → row[c]? = some z → F.intRef (F.offset0 o 2 9) [(c : Int), (s : Int)] m2 = .ok z :=
      fun s c row z a b => F.intRef_ok (ht s c row z a b) h2
    have a1 := t 1 0 _ _ rfl rfl
    have b1 := t 1 1 _ _ rfl rfl
    have a2 := t 2 0 _ _ rfl rfl
    have b2 := t 2 1 _ _ rfl rfl
    have a3 := t 3 0 _ _ rfl rfl
    have b3 := t 3 1 _ _ rfl rfl
    have a4 := t 4 0 _ _ rfl rfl
    have b4 := t 4 1 _ _ rfl rfl
    have a5 := t 5 0 _ _ rfl rfl
    have b5 := t 5 1 _ _ rfl rfl
    have a6 := t 6 0 _ _ rfl rfl
    have b6 := t 6 1 _ _ rfl rfl
    have a7 := t 7 0 _ _ rfl rfl
    have b7 := t 7 1 _ _ rfl rfl
    have a8 := t 8 0 _ _ rfl rfl
    have b8 := t 8 1 _ _ rfl rfl
    simp only [Nat.cast_zero, Nat.cast_one, Nat.cast_ofNat] at a1 b1 a2 b2 a3 b3 a4 b4 a5 b5 a6 b6 a7 b7 a8 b8
    have hr : F.irange 1 (9 - 1) = [1, 2, 3, 4, 5, 6, 7, 8] := rfl
    unfold F.doLocal
    rw [F.div_assign, F.sub_bind, F.sub_bind, F.sub_bind, F.sub_bind, F.sub_bind, F.sub_bind, F.sub_bind, F.sub_bind, hr]
    simp only [List.foldlM_cons, List.foldlM_nil, a1, b1, a2, b2, a3, b3, a4, b4, a5, b5, a6, b6, a7, b7, a8, b8, F.mok, bind_assoc, Int.add_zero, ← Int.sub_eq_add_neg, bind_pure]
  all_goals
    obtain ⟨r1, h4⟩ := F.bind_inv h3
    obtain ⟨r2, h5⟩ := F.bind_inv h4
    exact (F.assign_ints h5).trans h2

/-- `cells7rbgs3d`, which stores the numerator in `u` before it divides, has the same outcome as `cellrbgs3d` with the seven-point table, if `u` and
the coefficients share no element: for every memory, all bounds, every arithmetic, calls that read outside an array included. -/
theorem C53_seven {lo0 hi0 lo1 hi1 lo2 hi2 color slo0 shi0 slo1 shi1 slo2 shi2 flo0 fhi0 flo1 fhi1 flo2 fhi2 ulo0 uhi0 ulo1 uhi1 ulo2 uhi2 : Int} {o st f u : Ptr} {m : Mem T}
    (ht : F.Rows m (F.offset0 o 3 7) sevenPoints) (hu : F.Apart (F.box3d u ulo0 ulo1 ulo2 uhi0 uhi1 uhi2) (F.sm3d st 7 slo0 slo1 slo2 shi0 shi1 shi2)) :
    F.cells7rbgs3d lo0 hi0 lo1 hi1 lo2 hi2 color slo0 shi0 slo1 shi1 slo2 shi2 st flo0 fhi0 flo1 fhi1 flo2 fhi2 f ulo0 uhi0 ulo1 uhi1 ulo2 uhi2 u m =
      F.cellrbgs3d lo0 hi0 lo1 hi1 lo2 hi2 color 7 o slo0 shi0 slo1 shi1 slo2 shi2 st flo0 fhi0 flo1 fhi1 flo2 fhi2 f ulo0 uhi0 ulo1 uhi1 ulo2 uhi2 u m := by
  unfold F.cells7rbgs3d F.cellrbgs3d F.doLoop F.doStep
  refine (F.foldlM_same (m0 := m) (fun k m0 h0 => (F.foldlM_same (m0 := m) (fun j m1 h1 =>
        (F.foldlM_same (m0 := m) (fun i m2 h2 => ?_) (fun i m2 m3 h2 h3 => ?_) h1).1)
      (fun j m1 m2 h1 h2 => (F.foldlM_same (m0 := m) (fun i m2 h2 => rfl) (fun i m2 m3 h2 h3 => ?_) h1).2 _ h2) h0).1)
    (fun k m1 m2 h1 h2 => (F.foldlM_same (m0 := m) (fun i m2 h2 => rfl)
      (fun j m1 m2 h1 h2 => (F.foldlM_same (m0 := m) (fun i m2 h2 => rfl) (fun i m2 m3 h2 h3 => ?_) h1).2 _ h2) h1).2 _ h2) rfl).1
  · have t : ∀ (s c : Nat) row z, sevenPoints[s]? = some row → row[c]? = some z → F.intRef (F.offset0 o 3 7) [(c : Int), (s : Int)] m2 = .ok z :=
      fun s c row z a b => F.intRef_ok (ht s c row z a b) h2
    have a1 := t 1 0 _ _ rfl rfl
    have b1 := t 1 1 _ _ rfl rfl
    have c1 := t 1 2 _ _ rfl rfl
    have a2 := t 2 0 _ _ rfl rfl
    have b2 := t 2 1 _ _ rfl rfl
    have c2 := t 2 2 _ _ rfl rfl
    have a3 := t 3 0 _ _ rfl rfl
    have b3 := t 3 1 _ _ rfl rfl
    have c3 := t 3 2 _ _ rfl rfl
    have a4 := t 4 0 _ _ rfl rfl
    have b4 := t 4 1 _ _ rfl rfl
    have c4 := t 4 2 _ _ rfl rfl
    have a5 := t 5 0 _ _ rfl rfl
    have b5 := t 5 1 _ _ rfl rfl
    have c5 := t 5 2 _ _ rfl rfl
    have a6 := t 6 0 _ _ rfl rfl
    have b6 := t 6 1 _ _ rfl rfl
    have c6 := t 6 2 _ _ rfl rfl
    simp only [Nat.cast_zero, Nat.cast_one, Nat.cast_ofNat] at a1 b1 c1 a2 b2 c2 a3 b3 c3 a4 b4 c4 a5 b5 c5 a6 b6 c6
    have hr : F.irange 1 (7 - 1) = [1, 2, 3, 4, 5, 6] := rfl
    unfold F.doLocal
    rw [F.divide_in_place hu, F.sub_bind, F.sub_bind, F.sub_bind, F.sub_bind, F.sub_bind, F.sub_bind, hr]
    simp only [List.foldlM_cons, List.foldlM_nil, a1, b1, c1, a2, b2, c2, a3, b3, c3, a4, b4, c4, a5, b5, c5, a6, b6, c6, F.mok, bind_assoc, Int.add_zero, ← Int.sub_eq_add_neg, bind_pure]
  all_goals
    obtain ⟨r1, h4⟩ := F.bind_inv h3
    obtain ⟨r2, h5⟩ := F.bind_inv h4
    exact (F.assign_ints h5).trans h2

/-- the memory of the examples with the three tables -/
def exTables : Mem Rat :=
  { exSm with ints := fun q => if q.blk = 1 then (fivePoints.flatten[q.off.toNat]?) else if q.blk = 2 then (ninePoints.flatten[q.off.toNat]?)
      else if q.blk = 3 then (sevenPoints.flatten[q.off.toNat]?) else none }

theorem exTables_of {b : Nat} {N : Nat} {rows : List (List Int)}
    (h : ∀ s < rows.length, ∀ c < N, rows[s]?.bind (·[c]?) ≠ none ∧ ∀ z ∈ rows[s]?.bind (·[c]?), F.IntEl exTables (F.offset0 ⟨b, 0⟩ N rows.length) [(c : Int), (s : Int)] z)
    (hl : ∀ row ∈ rows, row.length = N) : F.Rows exTables (F.offset0 ⟨b, 0⟩ N rows.length) rows := by
  intro s c row z h1 h2
  have hs : s < rows.length := (List.getElem?_eq_some_iff.1 h1).1
  have hc : c < N := by
    have := (List.getElem?_eq_some_iff.1 h2).1
    rwa [hl row (List.mem_of_getElem? h1)] at this
  exact (h s hs c hc).2 z (by rw [h1]; exact h2)

example : F.Rows exTables (F.offset0 ⟨1, 0⟩ 2 5) fivePoints :=
  exTables_of (N := 2) (rows := fivePoints) (by unfold F.IntEl; decide) (by decide)
example : F.Rows exTables (F.offset0 ⟨2, 0⟩ 2 9) ninePoints :=
  exTables_of (N := 2) (rows := ninePoints) (by unfold F.IntEl; decide) (by decide)
example : F.Rows exTables (F.offset0 ⟨3, 0⟩ 3 7) sevenPoints :=
  exTables_of (N := 3) (rows := sevenPoints) (by unfold F.IntEl; decide) (by decide)

/-- the common outcome is a proper one: the routine succeeds and changes a coloured cell, on a call meeting the hypotheses of the theorem -/
example : valOf (F.cells5rbgs2d 1 2 1 2 0 0 3 0 3 ⟨1, 0⟩ 0 3 0 3 ⟨2, 0⟩ 0 3 0 3 ⟨3, 0⟩ exTables) ((F.box2d ⟨3, 0⟩ 0 0 3 3).addrT [2, 1]) ≠
    exTables.val ((F.box2d ⟨3, 0⟩ 0 0 3 3).addrT [2, 1]) := by decide +kernel

example : F.cells9rbgs2d 1 2 1 2 0 0 3 0 3 ⟨1, 0⟩ 0 3 0 3 ⟨2, 0⟩ 0 3 0 3 ⟨3, 0⟩ exTables =
    F.cellrbgs2d 1 2 1 2 0 9 ⟨2, 0⟩ 0 3 0 3 ⟨1, 0⟩ 0 3 0 3 ⟨2, 0⟩ 0 3 0 3 ⟨3, 0⟩ exTables :=
  C53_nine (exTables_of (N := 2) (rows := ninePoints) (by unfold F.IntEl; decide) (by decide))

example : F.cells7rbgs3d 1 2 1 2 1 2 0 0 3 0 3 0 3 ⟨1, 0⟩ 0 3 0 3 0 3 ⟨2, 0⟩ 0 3 0 3 0 3 ⟨3, 0⟩ exTables =
    F.cellrbgs3d 1 2 1 2 1 2 0 7 ⟨3, 0⟩ 0 3 0 3 0 3 ⟨1, 0⟩ 0 3 0 3 0 3 ⟨2, 0⟩ 0 3 0 3 0 3 ⟨3, 0⟩ exTables :=
  C53_seven (exTables_of (N := 3) (rows := sevenPoints) (by unfold F.IntEl; decide) (by decide)) (ex_apart (by decide))

end Verif
