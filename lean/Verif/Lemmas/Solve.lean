import Verif.Spec.Solve
import Verif.Lemmas.Stability
import Mathlib.LinearAlgebra.FiniteDimensional.Basic
import Mathlib.LinearAlgebra.FiniteDimensional.Lemmas
import Mathlib.LinearAlgebra.Dimension.Constructions
import Mathlib.Data.Set.Finite.Lattice
import Mathlib.Order.Interval.Finset.Basic
import Mathlib.Data.Int.Interval

/-
The equations of the operator have exactly one solution.
-/

namespace Verif.F

theorem finite_inBounds : ∀ ds : List (Int × Int), {p | InBounds ds p}.Finite
  | [] => (Set.finite_singleton []).subset fun p hp => by
    cases p with
    | nil => rfl
    | cons _ _ => exact hp.elim
  | (l, u) :: ds => ((Set.finite_Icc l u).image2 List.cons (finite_inBounds ds)).subset fun p hp => by
    cases p with
    | nil => exact hp.elim
    | cons i is => exact ⟨i, hp.1, is, hp.2, rfl⟩

/-- a linear operator on the fields on a box that takes only 0 to 0 takes every value -/
theorem solvable {T : Type} [Field T] {box : List (Int × Int)} (L : (List Int → T) → List Int → T) (hadd : ∀ U V p, L (fun q => U q + V q) p = L U p + L V p)
    (hmul : ∀ (c : T) U p, L (fun q => c * U q) p = c * L U p) (hinj : ∀ U, (∀ p, ¬ InBounds box p → U p = 0) → (∀ p, InBounds box p → L U p = 0) → ∀ p, InBounds box p → U p = 0)
    (U0 G : List Int → T) : ∃ U, (∀ p, ¬ InBounds box p → U p = U0 p) ∧ ∀ p, InBounds box p → L U p = G p := by
  let S := {p // InBounds box p}
  haveI : Finite S := finite_inBounds box
  let ext : (S → T) → List Int → T := fun v p => if h : InBounds box p then v ⟨p, h⟩ else 0
  let f : (S → T) →ₗ[T] (S → T) :=
    { toFun := fun v p => L (ext v) p.1
      map_add' := fun v w => by
        funext p
        show L (ext (v + w)) p.1 = L (ext v) p.1 + L (ext w) p.1
        rw [← hadd]
        congr 1
        funext q
        simp only [ext]
        split
        · rfl
        · exact (add_zero _).symm
      map_smul' := fun c v => by
        funext p
        show L (ext (c • v)) p.1 = c * L (ext v) p.1
        rw [← hmul]
        congr 1
        funext q
        simp only [ext]
        split
        · rfl
        · exact (mul_zero _).symm }
  have inj : Function.Injective f := by
    rw [← LinearMap.ker_eq_bot, LinearMap.ker_eq_bot']
    intro v hv
    funext p
    have := hinj (ext v) (fun q hq => dif_neg hq) (fun q hq => congrFun hv ⟨q, hq⟩) p.1 p.2
    simp only [ext, dif_pos p.2] at this
    exact this
  obtain ⟨v, hv⟩ := LinearMap.injective_iff_surjective.1 inj (fun p => G p.1 - L (fun q => if InBounds box q then 0 else U0 q) p.1)
  refine ⟨fun q => ext v q + if InBounds box q then 0 else U0 q, fun p hp => ?_, fun p hp => ?_⟩
  · simp only [ext, dif_neg hp, if_neg hp, zero_add]
  · rw [hadd]
    have := congrFun hv ⟨p, hp⟩
    simp only [f, LinearMap.coe_mk, AddHom.coe_mk] at this
    rw [this, sub_add_cancel]

theorem Within.ok {T : Type} {m m' : Mem T} {a b : Arr} {box : List (Int × Int)} (h : Within a box m m') (hb : ∀ p, InBounds box p → InBounds a.dims p) (ha : ArrOK m' a) (hm : ArrOK m b) : ArrOK m' b := by
  refine ⟨fun is hi => ?_, hm.fits, hm.int⟩
  by_cases c : ∀ p, InBounds box p → a.ptr.add (colMajor a.dims p) ≠ b.ptr.add (colMajor b.dims is)
  · rw [h.val _ c]
    exact hm.alloc is hi
  · push Not at c
    obtain ⟨p, hp, e⟩ := c
    rw [← e]
    exact ha.alloc p (hb p hp)

theorem Within.args {T : Type} {m m' : Mem T} {a : Arr} {box : List (Int × Int)} {ins outs : List Arr} (h : Within a box m m') (hb : ∀ p, InBounds box p → InBounds a.dims p) (ha : ArrOK m' a)
    (hm : Args m ins outs) : Args m' ins outs := ⟨fun b hb' => h.ok hb ha (hm.ok b hb'), hm.apart⟩

theorem Within.holds {T : Type} {m m' : Mem T} {a b : Arr} {box : List (Int × Int)} {V : List Int → T} (h : Within a box m m') (hb : ∀ p, InBounds box p → InBounds a.dims p) (hab : Apart a b)
    (hV : Holds m b V) : Holds m' b V := fun is hi => ⟨hi, by
  rw [h.val _ fun p hp => hab p is (hb p hp) hi]
  exact (hV is hi).2⟩

/-- exactly one choice of the contents of the box gives the results `G` -/
theorem one_field {T : Type} [Field T] {m : Mem T} {u : Arr} {box : List (Int × Int)} (hu : ArrOK m u) (hb : ∀ p, InBounds box p → InBounds u.dims p) (L : (List Int → T) → List Int → T)
    (hadd : ∀ U V p, L (fun q => U q + V q) p = L U p + L V p) (hmul : ∀ (c : T) U p, L (fun q => c * U q) p = c * L U p)
    (hinj : ∀ U, (∀ p, InBounds u.dims p → ¬ InBounds box p → U p = 0) → (∀ p, InBounds box p → L U p = 0) → ∀ p, InBounds box p → U p = 0)
    (G : List Int → T) {Run : Mem T → Prop} (hrun : ∀ m' U, Within u box m m' → ArrOK m' u → Holds m' u U → (Run m' ↔ ∀ p, InBounds box p → L U p = G p)) :
    ∃! m', Within u box m m' ∧ ArrOK m' u ∧ Run m' := by
  classical
  obtain ⟨U, hU, hG⟩ := solvable L hadd hmul (fun U h => hinj U fun p _ hp => h p hp) (rd m u) G
  let m' : Mem T := ⟨fun q => if c : ∃ p, InBounds box p ∧ u.ptr.add (colMajor u.dims p) = q then some (U c.choose) else m.val q, m.ints⟩
  have hw : Within u box m m' := ⟨fun q hq => dif_neg fun ⟨p, hp, e⟩ => hq p hp e, rfl⟩
  have add_inj : ∀ {p : Ptr} {x y : Int}, p.add x = p.add y → x = y := fun {p x y} e => by
    have := congrArg Ptr.off e
    simp only [Ptr.add] at this
    omega
  have hv : ∀ p, InBounds box p → m'.val (u.ptr.add (colMajor u.dims p)) = some (U p) := fun p hp => by
    have c : ∃ p', InBounds box p' ∧ u.ptr.add (colMajor u.dims p') = u.ptr.add (colMajor u.dims p) := ⟨p, hp, rfl⟩
    show dite _ _ _ = _
    rw [dif_pos c]
    have := c.choose_spec
    rw [colMajor_inj (hb _ this.1) (hb _ hp) (add_inj this.2)]
  have hh : Holds m' u U := fun p hp => by
    refine ⟨hp, ?_⟩
    by_cases c : InBounds box p
    · exact hv p c
    · rw [hw.val _ fun p' hp' e => c (colMajor_inj (hb _ hp') hp (add_inj e) ▸ hp'), hU p c]
      exact (hu.rd hp).2
  have hok : ArrOK m' u := ⟨fun is hi => ⟨_, (hh is hi).2⟩, hu.fits, hu.int⟩
  refine ⟨m', ⟨hw, hok, (hrun m' U hw hok hh).2 hG⟩, ?_⟩
  intro m'' h
  obtain ⟨hw', hok', hr'⟩ := h
  have hh' : Holds m'' u (rd m'' u) := fun p hp => hok'.rd hp
  have hG' := (hrun m'' _ hw' hok' hh').1 hr'
  have e : ∀ p, InBounds box p → rd m'' u p = U p := fun p hp => by
    have := hinj (fun q => rd m'' u q + (-1) * U q) (fun p hp c => ?_) (fun p hp => ?_) p hp
    · linear_combination this
    · have a := (hh p hp).2
      have b := (hh' p hp).2
      have c' : ∀ p', InBounds box p' → u.ptr.add (colMajor u.dims p') ≠ u.ptr.add (colMajor u.dims p) := fun p' hp' e => c (colMajor_inj (hb _ hp') hp (add_inj e) ▸ hp')
      rw [hw.val _ c'] at a
      rw [hw'.val _ c', a] at b
      have b := Option.some.inj b
      linear_combination -b
    · rw [hadd, hmul, hG' p hp, hG p hp]
      ring
  have ev : m''.val = m'.val := by
    funext q
    by_cases c : ∀ p, InBounds box p → u.ptr.add (colMajor u.dims p) ≠ q
    · rw [hw.val q c, hw'.val q c]
    · push Not at c
      obtain ⟨p, hp, rfl⟩ := c
      rw [hv p hp, (hh' p (hb p hp)).2, e p hp]
  have ei : m''.ints = m'.ints := hw'.ints
  cases m''
  cases hm : m'
  rw [hm] at ev ei
  cases ev
  cases ei
  rfl

variable {T : Type} [Field T] [LinearOrder T] [IsStrictOrderedRing T]

theorem Elliptic1.only {i0 i1 : Int} {alpha beta : T} {dx : Nat → T} {A B0 U : List Int → T} (hi : i0 ≤ i1) (he : Elliptic1 i0 i1 alpha beta dx A B0)
    (ho : ∀ p, InBounds [(i0 - 1, i1 + 1)] p → ¬ InBounds [(i0, i1)] p → U p = 0) (hq : ∀ i, i0 ≤ i → i ≤ i1 → op1 alpha beta dx A B0 U i = 0) : ∀ p, InBounds [(i0, i1)] p → U p = 0 := fun p hp => by
  have a := he.compare hi (fun p hw hb => (ho p hw hb).le) (fun i h0 h1 => (hq i h0 h1).le) p hp
  have b := he.compare (U := fun p => -U p) hi (fun p hw hb => by rw [ho p hw hb, neg_zero]) (fun i h0 h1 => by
    have := hq i h0 h1
    unfold op1 at this ⊢
    refine le_of_eq ?_
    rw [← neg_eq_zero] at this
    rw [← this]
    ring) p hp
  linarith

theorem Elliptic2.only {i0 j0 i1 j1 : Int} {alpha beta : T} {dx : Nat → T} {A B0 B1 U : List Int → T} (hi : i0 ≤ i1) (hj : j0 ≤ j1) (he : Elliptic2 i0 j0 i1 j1 alpha beta dx A B0 B1)
    (ho : ∀ p, InBounds [(i0 - 1, i1 + 1), (j0 - 1, j1 + 1)] p → ¬ InBounds [(i0, i1), (j0, j1)] p → U p = 0) (hq : ∀ i j, i0 ≤ i → i ≤ i1 → j0 ≤ j → j ≤ j1 → op2 alpha beta dx A B0 B1 U i j = 0) : ∀ p, InBounds [(i0, i1), (j0, j1)] p → U p = 0 := fun p hp => by
  have a := he.compare hi hj (fun p hw hb => (ho p hw hb).le) (fun i j h0 h1 h2 h3 => (hq i j h0 h1 h2 h3).le) p hp
  have b := he.compare (U := fun p => -U p) hi hj (fun p hw hb => by rw [ho p hw hb, neg_zero]) (fun i j h0 h1 h2 h3 => by
    have := hq i j h0 h1 h2 h3
    unfold op2 at this ⊢
    refine le_of_eq ?_
    rw [← neg_eq_zero] at this
    rw [← this]
    ring) p hp
  linarith

theorem Elliptic3.only {i0 j0 k0 i1 j1 k1 : Int} {alpha beta : T} {dx : Nat → T} {A B0 B1 B2 U : List Int → T} (hi : i0 ≤ i1) (hj : j0 ≤ j1) (hk : k0 ≤ k1) (he : Elliptic3 i0 j0 k0 i1 j1 k1 alpha beta dx A B0 B1 B2)
    (ho : ∀ p, InBounds [(i0 - 1, i1 + 1), (j0 - 1, j1 + 1), (k0 - 1, k1 + 1)] p → ¬ InBounds [(i0, i1), (j0, j1), (k0, k1)] p → U p = 0) (hq : ∀ i j k, i0 ≤ i → i ≤ i1 → j0 ≤ j → j ≤ j1 → k0 ≤ k → k ≤ k1 → op3 alpha beta dx A B0 B1 B2 U i j k = 0) : ∀ p, InBounds [(i0, i1), (j0, j1), (k0, k1)] p → U p = 0 := fun p hp => by
  have a := he.compare hi hj hk (fun p hw hb => (ho p hw hb).le) (fun i j k h0 h1 h2 h3 h4 h5 => (hq i j k h0 h1 h2 h3 h4 h5).le) p hp
  have b := he.compare (U := fun p => -U p) hi hj hk (fun p hw hb => by rw [ho p hw hb, neg_zero]) (fun i j k h0 h1 h2 h3 h4 h5 => by
    have := hq i j k h0 h1 h2 h3 h4 h5
    unfold op3 at this ⊢
    refine le_of_eq ?_
    rw [← neg_eq_zero] at this
    rw [← this]
    ring) p hp
  linarith

end Verif.F
