import Verif.Lemmas.Fortran
import Verif.Spec.Touched
import Verif.Spec.Kernels.Bc

/-
What the Fortran boundary condition routines may change.
-/

namespace Verif

set_option linter.unusedTactic false
set_option linter.unreachableTactic false

variable {T : Type}

/-- a command changes only elements of `a` at indices that satisfy `P` -/
def Touches (a : F.Arr) (P : List Int → Prop) (c : F.Cmd T) : Prop := ∀ m m', c m = .ok m' → F.Changes a P m m'

variable {a : F.Arr} {P : List Int → Prop}

theorem F.Changes.refl (m : Mem T) : F.Changes a P m m := ⟨rfl, fun _ _ => rfl, fun _ h => h⟩

theorem F.Changes.trans {m m' m'' : Mem T} (h : F.Changes a P m m') (h' : F.Changes a P m' m'') : F.Changes a P m m'' :=
  ⟨h'.ints.trans h.ints, fun q hq => (h'.val q hq).trans (h.val q hq), fun q hq => h'.alloc q (h.alloc q hq)⟩

theorem touches_skip : Touches a P (F.skip : F.Cmd T) := fun m m' h => by
  cases h; exact .refl _

theorem touches_assign [Add T] [Sub T] [Mul T] [Div T] [Neg T] {is : List Int} {e : F.Expr T} (h : P is) : Touches a P (F.assign a is e) := by
  intro m m' hr
  unfold F.assign at hr
  rcases he : e.eval m with x | v
  · rw [he] at hr; cases hr
  rw [he] at hr
  unfold F.Arr.addr at hr
  by_cases hb : F.InBounds a.dims is
  · simp only [hb, M.ok_bind, if_true] at hr
    unfold Mem.store at hr
    split at hr
    · cases hr
      rename_i w hw
      refine ⟨rfl, fun q hq => ?_, fun q hq => ?_⟩
      · have := hq is hb h
        simp [this]
      · by_cases hqq : q = a.ptr.add (F.colMajor a.dims is)
        · simp [hqq]
        · simpa [hqq] using hq
    · cases hr
  · simp only [hb, M.ok_bind, if_false] at hr
    cases hr

theorem touches_loop {lo hi : Int} {f : Int → F.Cmd T} (h : ∀ i, lo ≤ i → i ≤ hi → Touches a P (f i)) : Touches a P (F.doLoop lo hi f) := by
  have key : ∀ (l : List Int), (∀ i ∈ l, Touches a P (f i)) → ∀ m m', l.foldlM (fun m i => f i m) m = .ok m' → F.Changes a P m m' := by
    intro l
    induction l with
    | nil => intro _ m m' h; cases h; exact .refl _
    | cons x xs ih =>
      intro hl m m' hr
      rw [List.foldlM_cons] at hr
      rcases hx : f x m with e | s
      · rw [hx] at hr; cases hr
      · rw [hx] at hr
        exact (hl x (by simp) m s hx).trans (ih (fun i hi => hl i (by simp [hi])) s m' hr)
  refine key _ fun i hi => ?_
  unfold F.irange at hi
  simp only [List.mem_map, List.mem_range] at hi
  obtain ⟨k, hk, rfl⟩ := hi
  exact h _ (by omega) (by omega)

theorem touches_ite {p : Prop} [Decidable p] {c c' : F.Cmd T} (h : p → Touches a P c) (h' : Touches a P c') : Touches a P (if p then c else c') := by
  split
  · exact h ‹_›
  · exact h'

theorem touches_nil : Touches a P (F.block ([] : List (F.Cmd T))) := touches_skip

theorem touches_cons {c : F.Cmd T} {cs : List (F.Cmd T)} (h : Touches a P c) (h' : Touches a P (F.block cs)) : Touches a P (F.block (c :: cs)) := by
  intro m m' hr
  unfold F.block at hr
  rcases hx : c m with e | s
  · rw [hx] at hr; cases hr
  · rw [hx] at hr
    exact (h m s hx).trans (h' s m' hr)

variable [Field T]

theorem touches_coeff {o i : Int} {c : T → F.Cmd T} (h : ∀ x, Touches a P (c x)) : Touches a P (F.withCoeff o i c) := by
  intro m m' hr
  unfold F.withCoeff at hr
  split at hr
  · exact h _ m m' hr
  · cases hr

/-- a routine made of conditionals, loops and assignments -/
macro "touch" : tactic => `(tactic| (
  repeat' first
    | with_reducible refine touches_ite (fun _ => ?_) ?_
    | with_reducible exact touches_skip
    | with_reducible exact touches_nil
    | with_reducible refine touches_assign ?_
    | with_reducible refine touches_loop fun _ _ _ => ?_
    | with_reducible refine touches_cons ?_ ?_
    | with_reducible refine touches_coeff fun _ => ?_))

theorem touches_bc1 {i0 i1 g dg exOrder face btype : Int} {dx : Nat → T} {d0 u : Ptr} {bLo bHi : Nat → Int} {alpha beta : T} :
    Touches (F.cell1d u i0 i1 g) (F.onSeg1 bLo bHi face) (F.cellsetcorrectionbc1d i0 i1 dx dg d0 g u bLo bHi exOrder face btype alpha beta) := by
  unfold F.cellsetcorrectionbc1d
  simp only []
  touch
  all_goals
    simp only [F.onSeg1, List.cons.injEq, and_true]
    omega

theorem touches_bc2 {i0 j0 i1 j1 g dg exOrder face type btype : Int} {dx : Nat → T} {d0 d1 u : Ptr} {bLo bHi : Nat → Int} {alpha beta : T} :
    Touches (F.cell2d u i0 j0 i1 j1 g) (F.onSeg2 bLo bHi type face) (F.cellsetcorrectionbc2d i0 i1 j0 j1 dx dg d0 d1 g u bLo bHi exOrder face type btype alpha beta) := by
  unfold F.cellsetcorrectionbc2d
  simp only []
  touch
  all_goals
    refine ⟨_, _, rfl, ?_⟩
    first | (simp [*]; done) | (simp [*]; omega)

theorem touches_bc3 {i0 j0 k0 i1 j1 k1 g dg exOrder face type btype : Int} {dx : Nat → T} {d0 d1 d2 u : Ptr} {bLo bHi : Nat → Int} {alpha beta : T} :
    Touches (F.cell3d u i0 j0 k0 i1 j1 k1 g) (F.onSeg3 bLo bHi type face) (F.cellsetcorrectionbc3d i0 i1 j0 j1 k0 k1 dx dg d0 d1 d2 g u bLo bHi exOrder face type btype alpha beta) := by
  unfold F.cellsetcorrectionbc3d
  simp only []
  touch
  all_goals
    refine ⟨_, _, _, rfl, ?_⟩
    first | (simp [*]; done) | (simp [*]; omega)

theorem touches_pbc1 {i0 i1 g exOrder face btype : Int} {dx : Nat → T} {u : Ptr} {bLo bHi : Nat → Int} {alpha beta : T} :
    Touches (F.cell1d u i0 i1 g) (F.onSeg1 bLo bHi face) (F.cellsetpoissoncorrectionbc1d i0 i1 dx g u bLo bHi exOrder face btype alpha beta) := by
  unfold F.cellsetpoissoncorrectionbc1d
  simp only []
  touch
  all_goals
    simp only [F.onSeg1, List.cons.injEq, and_true]
    omega

theorem touches_pbc2 {i0 j0 i1 j1 g exOrder face type btype : Int} {dx : Nat → T} {u : Ptr} {bLo bHi : Nat → Int} {alpha beta : T} :
    Touches (F.cell2d u i0 j0 i1 j1 g) (F.onSeg2 bLo bHi type face) (F.cellsetpoissoncorrectionbc2d i0 i1 j0 j1 dx g u bLo bHi exOrder face type btype alpha beta) := by
  unfold F.cellsetpoissoncorrectionbc2d
  simp only []
  touch
  all_goals
    refine ⟨_, _, rfl, ?_⟩
    first | (simp [*]; done) | (simp [*]; omega)

theorem touches_pbc3 {i0 j0 k0 i1 j1 k1 g exOrder face type btype : Int} {dx : Nat → T} {u : Ptr} {bLo bHi : Nat → Int} {alpha beta : T} :
    Touches (F.cell3d u i0 j0 k0 i1 j1 k1 g) (F.onSeg3 bLo bHi type face) (F.cellsetpoissoncorrectionbc3d i0 i1 j0 j1 k0 k1 dx g u bLo bHi exOrder face type btype alpha beta) := by
  unfold F.cellsetpoissoncorrectionbc3d
  simp only []
  touch
  all_goals
    refine ⟨_, _, _, rfl, ?_⟩
    first | (simp [*]; done) | (simp [*]; omega)

theorem touches_corner2 {i0 j0 i1 j1 g exOrder face type btype : Int} {dx : Nat → T} {d0 d1 u : Ptr} {bLo bHi : Nat → Int} :
    Touches (F.cell2d u i0 j0 i1 j1 g) (F.onSeg2 bLo bHi 2 face) (F.cellsetinteriorcornerbc2d i0 i1 j0 j1 g dx d0 d1 u bLo bHi exOrder face type btype) := by
  unfold F.cellsetinteriorcornerbc2d
  simp only []
  touch
  all_goals
    refine ⟨_, _, rfl, ?_⟩
    first | (simp [*]; done) | (simp [*]; omega)

theorem touches_hom2 {i0 j0 i1 j1 exOrder face : Int} {u : Ptr} {bLo bHi : Nat → Int} :
    Touches (F.cell2d u i0 j0 i1 j1 1) (F.beside2 i0 j0 i1 j1 bLo bHi face) (F.cellsethomogenousbc2d (T := T) i0 j0 i1 j1 face bLo bHi exOrder u) := by
  unfold F.cellsethomogenousbc2d
  simp only []
  touch
  all_goals
    refine ⟨_, _, rfl, ?_⟩
    first | (simp [*]; done) | (simp [*]; omega)

end Verif
