import Verif.Spec.MatrixFree
import Verif.Lemmas.MatrixFree
import Verif.Lemmas.FillEx

/-
The pieces of the boundary that are filled and those for which coefficients are adjusted.
-/

set_option linter.unusedVariables false
set_option linter.unusedSimpArgs false
set_option linter.unusedSectionVars false

namespace Verif
open Spec Polynomial

variable {T : Type} [Field T]

/-- the conditions on pieces with the same cells, ghost cells, types, orders and widths, and the same coefficients for Robin conditions -/
theorem fulfils_of {C : Type} {l : List C} {f g : C → F.Piece T} {box : List (Int × Int)} {n : Int} {O : Int → List Int} {D X : List Int → T} (h : F.Fulfils box n O (l.map f) D X)
    (hfg : ∀ c ∈ l, (∀ p, (f c).cells p ↔ (g c).cells p) ∧ (f c).ghost = (g c).ghost ∧ (f c).btype = (g c).btype ∧ (f c).order = (g c).order ∧ (f c).width = (g c).width ∧
      ((f c).btype = 4 → ∀ p, (f c).cells p → (f c).coef p = (g c).coef p)) : F.Fulfils box n O (l.map g) D X := by
  refine ⟨fun k hk p hp => ?_, fun p hp e e0 e1 hn hk => h.free p hp e e0 e1 hn fun k hkm => ?_⟩
  · obtain ⟨c, hc, rfl⟩ := List.mem_map.1 hk
    obtain ⟨h1, h2, h3, h4, h5, h6⟩ := hfg c hc
    obtain ⟨y, y1, y2, y3⟩ := h.given _ (List.mem_map_of_mem hc) p ((h1 p).2 hp)
    rw [← h2, ← h3, ← h4, ← h5]
    exact ⟨y, meets_coef y1 fun e => h6 e p ((h1 p).2 hp), y2, y3⟩
  · obtain ⟨c, hc, rfl⟩ := List.mem_map.1 hkm
    obtain ⟨h1, h2, -⟩ := hfg c hc
    intro hp'
    rw [h2]
    exact hk _ (List.mem_map_of_mem hc) ((h1 p).1 hp')

theorem apart_separate {C : Type} {seg : C → List Int → Prop} {l : List C} (h : NoCommon seg l) : ∀ c ∈ l, ∀ d ∈ l, Separate seg c d := by
  induction l with
  | nil => simp
  | cons a l ih =>
    obtain ⟨h1, h2⟩ := List.pairwise_cons.1 h
    intro c hc d hd
    rcases List.mem_cons.1 hc with rfl | hcl <;> rcases List.mem_cons.1 hd with rfl | hdl
    · exact .inl rfl
    · exact .inr (h1 d hdl)
    · exact .inr fun p hp hq => h1 c hcl p hq hp
    · exact ih h2 c hcl d hdl

theorem apart_disjoint {C : Type} {seg : C → List Int → Prop} {l : List C} {f : C → F.Piece T} {O : Int → List Int} (h : NoCommon seg l)
    (hf : ∀ c ∈ l, ∀ p, (f c).cells p → seg c (F.shift p (O (f c).ghost))) : F.Disjoint (l.map f) := by
  unfold F.Disjoint
  rw [List.pairwise_map]
  refine List.Pairwise.imp_of_mem (fun {a b} ha hb hab hg p hp hq => ?_) h
  have h1 := hf a ha p hp
  have h2 := hf b hb p hq
  rw [← hg] at h2
  exact hab _ h1 h2

/-- the values of a field in the cells that are not filled -/
theorem changes_same {a : F.Arr} {P : List Int → Prop} {m m' : Mem T} {V V' : List Int → T} (h : F.Changes a P m m') (hV : F.Holds m a V) (hV' : F.Holds m' a V') {p : List Int}
    (hp : F.InBounds a.dims p) (hn : ¬ P p) : V' p = V p := by
  rw [← (hV' p hp).rd, h.rd hp hn, (hV p hp).rd]

theorem thin1_layer {i0 i1 : Int} {c : BcCall T} (hi : i0 ≤ i1) (ht : c.Thin1 i0 i1) (hu : c.Usable 1) : Layer1 i0 i1 0 c.side1.i0 c.side1.i1 c.side1.side := by
  obtain ⟨ht, hint⟩ := ht
  obtain ⟨hu, -⟩ := hu
  obtain ⟨p0, q0⟩ := hint 0 (by omega)
  obtain ⟨-, r0⟩ := hu 0 (by omega)
  rcases ht with ht | ht <;> obtain ⟨hf, h1, h2⟩ := ht <;> refine ⟨?_, ?_, ⟨⟨p0, q0⟩, r0⟩⟩ <;> simp only [BcCall.side1] <;> omega

theorem thin1_out {i0 i1 : Int} {c : BcCall T} (ht : c.Thin1 i0 i1) : c.side1.Outside i0 i1 := by
  obtain ⟨ht, -⟩ := ht
  rcases ht with ht | ht <;> simp [F.Side1.Outside, BcCall.side1, ht.1, ht.2.1]

theorem thin1_along {i0 i1 : Int} {c : BcCall T} (ht : c.Thin1 i0 i1) : c.Along1 i0 i1 := by
  obtain ⟨ht, -⟩ := ht
  rcases ht with ht | ht <;> simp [BcCall.Along1, ht.1, ht.2.1, ht.2.2]

theorem thin1_cells {i0 i1 : Int} {c : BcCall T} {dx : Nat → T} {B0 : List Int → T} (hi : i0 ≤ i1) (ht : c.Thin1 i0 i1) (p : List Int) : (c.piece1 i0 i1 dx B0).cells p ↔ (c.side1.piece dx B0).cells p := by
  obtain ⟨ht, -⟩ := ht
  constructor
  · rintro ⟨h1, h2⟩
    obtain ⟨i, rfl, hp⟩ := F.inBounds1.1 h1
    rcases ht with ht | ht
    · simp only [F.onSeg1, ht.1, zero_add, F.shift1_1, List.cons.injEq, and_true, true_and] at h2
      simp only [F.Side1.piece, F.layer1, BcCall.side1, ht.1, List.cons.injEq, and_true]
      omega
    · simp only [F.onSeg1, ht.1, one_add_one_eq_two, F.shift1_2, List.cons.injEq, and_true, true_and] at h2
      simp only [F.Side1.piece, F.layer1, BcCall.side1, ht.1, List.cons.injEq, and_true]
      omega
  · intro h
    simp only [F.Side1.piece, F.layer1, BcCall.side1] at h
    subst h
    rcases ht with ht | ht
    · refine ⟨F.inBounds1.2 ⟨_, rfl, by omega⟩, ?_⟩
      simp only [F.onSeg1, ht.1, zero_add, F.shift1_1, List.cons.injEq, and_true, true_and]
      omega
    · refine ⟨F.inBounds1.2 ⟨_, rfl, by omega⟩, ?_⟩
      simp only [F.onSeg1, ht.1, one_add_one_eq_two, F.shift1_2, List.cons.injEq, and_true, true_and]
      omega

theorem thin1_same [CharZero T] {i0 i1 : Int} {c : BcCall T} {dx : Nat → T} {B0 : List Int → T} (hi : i0 ≤ i1) (ht : c.Thin1 i0 i1) (hr : c.btype = 4 → c.alpha = 2 * c.beta) (hb : c.btype = 4 → c.beta ≠ 0) :
    (∀ p, (c.piece1 i0 i1 dx B0).cells p ↔ (c.side1.piece dx B0).cells p) ∧ (c.piece1 i0 i1 dx B0).ghost = (c.side1.piece dx B0).ghost ∧
      (c.piece1 i0 i1 dx B0).btype = (c.side1.piece dx B0).btype ∧ (c.piece1 i0 i1 dx B0).order = (c.side1.piece dx B0).order ∧
      (c.piece1 i0 i1 dx B0).width = (c.side1.piece dx B0).width ∧
      ((c.piece1 i0 i1 dx B0).btype = 4 → ∀ p, (c.piece1 i0 i1 dx B0).cells p → (c.piece1 i0 i1 dx B0).coef p = (c.side1.piece dx B0).coef p) := by
  refine ⟨thin1_cells hi ht, ?_, rfl, rfl, rfl, fun h4 p hp => ?_⟩
  · show c.face + 1 = 1 + c.face
    omega
  · have h4 : c.btype = 4 := h4
    have hb' : (2 * c.beta) ≠ 0 := mul_ne_zero two_ne_zero (hb h4)
    show c.alpha / (2 * c.beta) * _ = _
    rw [hr h4, div_self hb', one_mul]
    rfl

theorem thin2_layer {i0 j0 i1 j1 : Int} {c : BcCall T} (hi : i0 ≤ i1) (hj : j0 ≤ j1) (ht : c.Thin2 i0 j0 i1 j1) (hu : c.Usable 2) : Layer2 i0 j0 i1 j1 0 c.side2.i0 c.side2.j0 c.side2.i1 c.side2.j1 c.side2.dir c.side2.side := by
  obtain ⟨ht, hint⟩ := ht
  obtain ⟨hu, -⟩ := hu
  obtain ⟨p0, q0⟩ := hint 0 (by omega)
  obtain ⟨-, r0⟩ := hu 0 (by omega)
  obtain ⟨p1, q1⟩ := hint 1 (by omega)
  obtain ⟨-, r1⟩ := hu 1 (by omega)
  unfold Spec.Part at ht
  rcases ht with ht | ht | ht | ht <;> unfold BcCall.side2 <;> obtain ⟨hf, h1, h2, h3⟩ := ht <;> simp only [hf, h1, h2] at * <;>
    refine ⟨by omega, by omega, ?_, ?_, ⟨⟨p0, q0⟩, r0⟩, ⟨⟨p1, q1⟩, r1⟩⟩ <;> (intro hd; omega)

theorem thin2_out {i0 j0 i1 j1 : Int} {c : BcCall T} (ht : c.Thin2 i0 j0 i1 j1) : c.side2.Outside i0 j0 i1 j1 := by
  obtain ⟨ht, -⟩ := ht
  rcases ht with ht | ht | ht | ht <;> simp [F.Side2.Outside, BcCall.side2, ht.1, ht.2.1]

theorem thin2_along {i0 j0 i1 j1 : Int} {c : BcCall T} (ht : c.Thin2 i0 j0 i1 j1) : c.Along2 1 i0 j0 i1 j1 := by
  obtain ⟨ht, -⟩ := ht
  rcases ht with ht | ht | ht | ht <;> simp [BcCall.Along2, ht.1, ht.2.1, ht.2.2.1, ht.2.2.2]

theorem thin2_cells {i0 j0 i1 j1 : Int} {c : BcCall T} {dx : Nat → T} {B0 B1 : List Int → T} (hi : i0 ≤ i1) (hj : j0 ≤ j1) (ht : c.Thin2 i0 j0 i1 j1) (p : List Int) : (c.piece2 i0 j0 i1 j1 dx B0 B1).cells p ↔ (c.side2.piece dx B0 B1).cells p := by
  obtain ⟨ht, -⟩ := ht
  unfold Spec.Part at ht
  constructor
  · rintro ⟨h1, h2⟩
    obtain ⟨i, j, rfl, hp⟩ := F.inBounds2.1 h1
    have h3 := side2 h2
    refine ⟨i, j, rfl, ?_⟩
    simp only [BcCall.side2]
    rcases ht with ht | ht | ht | ht <;> obtain ⟨hf, ht⟩ := ht <;> rw [hf] at h3 ⊢ <;> simp at h3 ⊢ <;> omega
  · rintro ⟨i, j, rfl, h⟩
    simp only [BcCall.side2] at h
    rcases ht with ht | ht | ht | ht <;> obtain ⟨hf, ht⟩ := ht <;> rw [hf] at h <;> simp at h
    · refine ⟨F.inBounds2.2 ⟨i, j, rfl, by omega⟩, ?_⟩
      show F.onSeg2 c.lo c.hi 1 c.face (F.shift _ (F.row F.points2 (c.face + 1)))
      rw [hf, show (0 : Int) + 1 = 1 from rfl, F.shift2_1]
      exact ⟨i - 1, j, rfl, by omega⟩
    · refine ⟨F.inBounds2.2 ⟨i, j, rfl, by omega⟩, ?_⟩
      show F.onSeg2 c.lo c.hi 1 c.face (F.shift _ (F.row F.points2 (c.face + 1)))
      rw [hf, show (1 : Int) + 1 = 2 from rfl, F.shift2_2]
      exact ⟨i + 1, j, rfl, by omega⟩
    · refine ⟨F.inBounds2.2 ⟨i, j, rfl, by omega⟩, ?_⟩
      show F.onSeg2 c.lo c.hi 1 c.face (F.shift _ (F.row F.points2 (c.face + 1)))
      rw [hf, show (2 : Int) + 1 = 3 from rfl, F.shift2_3]
      exact ⟨i, j - 1, rfl, by omega⟩
    · refine ⟨F.inBounds2.2 ⟨i, j, rfl, by omega⟩, ?_⟩
      show F.onSeg2 c.lo c.hi 1 c.face (F.shift _ (F.row F.points2 (c.face + 1)))
      rw [hf, show (3 : Int) + 1 = 4 from rfl, F.shift2_4]
      exact ⟨i, j + 1, rfl, by omega⟩

theorem thin2_same [CharZero T] {i0 j0 i1 j1 : Int} {c : BcCall T} {dx : Nat → T} {B0 B1 : List Int → T} (hi : i0 ≤ i1) (hj : j0 ≤ j1) (ht : c.Thin2 i0 j0 i1 j1) (hr : c.btype = 4 → c.alpha = 2 * c.beta) (hb : c.btype = 4 → c.beta ≠ 0) :
    (∀ p, (c.piece2 i0 j0 i1 j1 dx B0 B1).cells p ↔ (c.side2.piece dx B0 B1).cells p) ∧ (c.piece2 i0 j0 i1 j1 dx B0 B1).ghost = (c.side2.piece dx B0 B1).ghost ∧
      (c.piece2 i0 j0 i1 j1 dx B0 B1).btype = (c.side2.piece dx B0 B1).btype ∧ (c.piece2 i0 j0 i1 j1 dx B0 B1).order = (c.side2.piece dx B0 B1).order ∧
      (c.piece2 i0 j0 i1 j1 dx B0 B1).width = (c.side2.piece dx B0 B1).width ∧
      ((c.piece2 i0 j0 i1 j1 dx B0 B1).btype = 4 → ∀ p, (c.piece2 i0 j0 i1 j1 dx B0 B1).cells p → (c.piece2 i0 j0 i1 j1 dx B0 B1).coef p = (c.side2.piece dx B0 B1).coef p) := by
  refine ⟨thin2_cells hi hj ht, ?_, rfl, rfl, rfl, fun h4 p hp => ?_⟩
  · show c.face + 1 = 2 * (c.face / 2) + 1 + c.face % 2
    omega
  · have h4 : c.btype = 4 := h4
    have hb' : (2 * c.beta) ≠ 0 := mul_ne_zero two_ne_zero (hb h4)
    show c.alpha / (2 * c.beta) * _ = _
    rw [hr h4, div_self hb', one_mul]
    rfl

theorem thin3_layer {i0 j0 k0 i1 j1 k1 : Int} {c : BcCall T} (hi : i0 ≤ i1) (hj : j0 ≤ j1) (hk : k0 ≤ k1) (ht : c.Thin3 i0 j0 k0 i1 j1 k1) (hu : c.Usable 3) : Layer3 i0 j0 k0 i1 j1 k1 0 c.side3.i0 c.side3.j0 c.side3.k0 c.side3.i1 c.side3.j1 c.side3.k1 c.side3.dir c.side3.side := by
  obtain ⟨ht, hint⟩ := ht
  obtain ⟨hu, -⟩ := hu
  obtain ⟨p0, q0⟩ := hint 0 (by omega)
  obtain ⟨-, r0⟩ := hu 0 (by omega)
  obtain ⟨p1, q1⟩ := hint 1 (by omega)
  obtain ⟨-, r1⟩ := hu 1 (by omega)
  obtain ⟨p2, q2⟩ := hint 2 (by omega)
  obtain ⟨-, r2⟩ := hu 2 (by omega)
  unfold Spec.Part at ht
  rcases ht with ht | ht | ht | ht | ht | ht <;> unfold BcCall.side3 <;> obtain ⟨hf, h1, h2, h3⟩ := ht <;> simp only [hf, h1, h2] at * <;>
    refine ⟨by omega, by omega, ?_, ?_, ?_, ⟨⟨p0, q0⟩, r0⟩, ⟨⟨p1, q1⟩, r1⟩, ⟨⟨p2, q2⟩, r2⟩⟩ <;> (intro hd; omega)

theorem thin3_out {i0 j0 k0 i1 j1 k1 : Int} {c : BcCall T} (ht : c.Thin3 i0 j0 k0 i1 j1 k1) : c.side3.Outside i0 j0 k0 i1 j1 k1 := by
  obtain ⟨ht, -⟩ := ht
  rcases ht with ht | ht | ht | ht | ht | ht <;> simp [F.Side3.Outside, BcCall.side3, ht.1, ht.2.1]

theorem thin3_along {i0 j0 k0 i1 j1 k1 : Int} {c : BcCall T} (ht : c.Thin3 i0 j0 k0 i1 j1 k1) : c.Along3 1 i0 j0 k0 i1 j1 k1 := by
  obtain ⟨ht, -⟩ := ht
  rcases ht with ht | ht | ht | ht | ht | ht <;> simp [BcCall.Along3, ht.1, ht.2.1, ht.2.2.1, ht.2.2.2]

theorem thin3_cells {i0 j0 k0 i1 j1 k1 : Int} {c : BcCall T} {dx : Nat → T} {B0 B1 B2 : List Int → T} (hi : i0 ≤ i1) (hj : j0 ≤ j1) (hk : k0 ≤ k1) (ht : c.Thin3 i0 j0 k0 i1 j1 k1) (p : List Int) : (c.piece3 i0 j0 k0 i1 j1 k1 dx B0 B1 B2).cells p ↔ (c.side3.piece dx B0 B1 B2).cells p := by
  obtain ⟨ht, -⟩ := ht
  unfold Spec.Part at ht
  constructor
  · rintro ⟨h1, h2⟩
    obtain ⟨i, j, k, rfl, hp⟩ := F.inBounds3.1 h1
    have h3 := side3 h2
    refine ⟨i, j, k, rfl, ?_⟩
    simp only [BcCall.side3]
    rcases ht with ht | ht | ht | ht | ht | ht <;> obtain ⟨hf, ht⟩ := ht <;> rw [hf] at h3 ⊢ <;> simp at h3 ⊢ <;> (clear h2 h1; omega)
  · rintro ⟨i, j, k, rfl, h⟩
    simp only [BcCall.side3] at h
    rcases ht with ht | ht | ht | ht | ht | ht <;> obtain ⟨hf, ht⟩ := ht <;> rw [hf] at h <;> simp at h
    · refine ⟨F.inBounds3.2 ⟨i, j, k, rfl, by omega⟩, ?_⟩
      show F.onSeg3 c.lo c.hi 1 c.face (F.shift _ (F.row F.points3 (c.face + 1)))
      rw [hf, show (0 : Int) + 1 = 1 from rfl, F.shift3_1]
      exact ⟨i - 1, j, k, rfl, .inl ⟨rfl, by omega, by omega, by omega, by omega, .inl ⟨rfl, by omega⟩⟩⟩
    · refine ⟨F.inBounds3.2 ⟨i, j, k, rfl, by omega⟩, ?_⟩
      show F.onSeg3 c.lo c.hi 1 c.face (F.shift _ (F.row F.points3 (c.face + 1)))
      rw [hf, show (1 : Int) + 1 = 2 from rfl, F.shift3_2]
      exact ⟨i + 1, j, k, rfl, .inl ⟨rfl, by omega, by omega, by omega, by omega, .inr ⟨rfl, by omega⟩⟩⟩
    · refine ⟨F.inBounds3.2 ⟨i, j, k, rfl, by omega⟩, ?_⟩
      show F.onSeg3 c.lo c.hi 1 c.face (F.shift _ (F.row F.points3 (c.face + 1)))
      rw [hf, show (2 : Int) + 1 = 3 from rfl, F.shift3_3]
      exact ⟨i, j - 1, k, rfl, .inr (.inl ⟨rfl, by omega, by omega, by omega, by omega, .inl ⟨rfl, by omega⟩⟩)⟩
    · refine ⟨F.inBounds3.2 ⟨i, j, k, rfl, by omega⟩, ?_⟩
      show F.onSeg3 c.lo c.hi 1 c.face (F.shift _ (F.row F.points3 (c.face + 1)))
      rw [hf, show (3 : Int) + 1 = 4 from rfl, F.shift3_4]
      exact ⟨i, j + 1, k, rfl, .inr (.inl ⟨rfl, by omega, by omega, by omega, by omega, .inr ⟨rfl, by omega⟩⟩)⟩
    · refine ⟨F.inBounds3.2 ⟨i, j, k, rfl, by omega⟩, ?_⟩
      show F.onSeg3 c.lo c.hi 1 c.face (F.shift _ (F.row F.points3 (c.face + 1)))
      rw [hf, show (4 : Int) + 1 = 5 from rfl, F.shift3_5]
      exact ⟨i, j, k - 1, rfl, .inr (.inr (.inl ⟨rfl, by omega, by omega, by omega, by omega, .inl ⟨rfl, by omega⟩⟩))⟩
    · refine ⟨F.inBounds3.2 ⟨i, j, k, rfl, by omega⟩, ?_⟩
      show F.onSeg3 c.lo c.hi 1 c.face (F.shift _ (F.row F.points3 (c.face + 1)))
      rw [hf, show (5 : Int) + 1 = 6 from rfl, F.shift3_6]
      exact ⟨i, j, k + 1, rfl, .inr (.inr (.inl ⟨rfl, by omega, by omega, by omega, by omega, .inr ⟨rfl, by omega⟩⟩))⟩

theorem thin3_same [CharZero T] {i0 j0 k0 i1 j1 k1 : Int} {c : BcCall T} {dx : Nat → T} {B0 B1 B2 : List Int → T} (hi : i0 ≤ i1) (hj : j0 ≤ j1) (hk : k0 ≤ k1) (ht : c.Thin3 i0 j0 k0 i1 j1 k1) (hr : c.btype = 4 → c.alpha = 2 * c.beta) (hb : c.btype = 4 → c.beta ≠ 0) :
    (∀ p, (c.piece3 i0 j0 k0 i1 j1 k1 dx B0 B1 B2).cells p ↔ (c.side3.piece dx B0 B1 B2).cells p) ∧ (c.piece3 i0 j0 k0 i1 j1 k1 dx B0 B1 B2).ghost = (c.side3.piece dx B0 B1 B2).ghost ∧
      (c.piece3 i0 j0 k0 i1 j1 k1 dx B0 B1 B2).btype = (c.side3.piece dx B0 B1 B2).btype ∧ (c.piece3 i0 j0 k0 i1 j1 k1 dx B0 B1 B2).order = (c.side3.piece dx B0 B1 B2).order ∧
      (c.piece3 i0 j0 k0 i1 j1 k1 dx B0 B1 B2).width = (c.side3.piece dx B0 B1 B2).width ∧
      ((c.piece3 i0 j0 k0 i1 j1 k1 dx B0 B1 B2).btype = 4 → ∀ p, (c.piece3 i0 j0 k0 i1 j1 k1 dx B0 B1 B2).cells p → (c.piece3 i0 j0 k0 i1 j1 k1 dx B0 B1 B2).coef p = (c.side3.piece dx B0 B1 B2).coef p) := by
  refine ⟨thin3_cells hi hj hk ht, ?_, rfl, rfl, rfl, fun h4 p hp => ?_⟩
  · show c.face + 1 = 2 * (c.face / 2) + 1 + c.face % 2
    omega
  · have h4 : c.btype = 4 := h4
    have hb' : (2 * c.beta) ≠ 0 := mul_ne_zero two_ne_zero (hb h4)
    show c.alpha / (2 * c.beta) * _ = _
    rw [hr h4, div_self hb', one_mul]
    rfl

end Verif
