import Verif.Lemmas.BoundaryOne

/-
Boundary value problems of the operators in one, two and three dimensions have exactly one solution.
-/

set_option linter.unusedSectionVars false
set_option linter.unusedSimpArgs false

namespace Verif.F
open Spec

variable {T : Type} [Field T] [LinearOrder T] [IsStrictOrderedRing T]

theorem line {a b x y : Int} (P : Int → Prop) (up : ∀ x, a ≤ x → x + 1 ≤ b → P x → P (x + 1)) (dn : ∀ x, a ≤ x - 1 → x ≤ b → P x → P (x - 1))
    (ha : a ≤ x) (hb : x ≤ b) (ha' : a ≤ y) (hb' : y ≤ b) (h : P x) : P y := by
  have key : ∀ k : Nat, ∀ x y : Int, a ≤ x → x ≤ b → a ≤ y → y ≤ b → (y - x).natAbs = k → P x → P y := by
    intro k
    induction k with
    | zero => exact fun x y _ _ _ _ hk h => by obtain rfl : x = y := by omega
                                               exact h
    | succ k ih =>
      intro x y h0 h1 h2 h3 hk h
      rcases lt_or_gt_of_ne (show x ≠ y by omega) with hlt | hgt
      · exact ih (x + 1) y (by omega) (by omega) h2 h3 (by omega) (up x h0 (by omega) h)
      · exact ih (x - 1) y (by omega) (by omega) h2 h3 (by omega) (dn x (by omega) h1 h)
  exact key _ x y ha hb ha' hb' rfl h

/-- the coefficients of the operator, 1D -/
def coefs1 (alpha beta : T) (dx : Nat → T) (A B0 : List Int → T) : List Int → T
  | [e, i] => if e = 1 then -(beta / (dx 0 * dx 0)) * B0 [i] else if e = 2 then -(beta / (dx 0 * dx 0)) * B0 [i + 1]
    else -(-(beta / (dx 0 * dx 0)) * B0 [i] + -(beta / (dx 0 * dx 0)) * B0 [i + 1]) + alpha * A [i]
  | _ => 0

theorem coefs1_coef {alpha beta : T} {dx : Nat → T} {A B0 : List Int → T} {i : Int} : Coef1 alpha beta dx A B0 (coefs1 alpha beta dx A B0) i := by
  constructor <;> simp [coefs1]

theorem conn1 {i0 i1 : Int} (P : List Int → Prop)
    (h : ∀ c, InBounds [(i0, i1)] c → P c → ∀ e, 1 ≤ e → e ≤ 3 - 1 → InBounds [(i0, i1)] (shift c (row points1 e)) → P (shift c (row points1 e))) :
    ∀ c c', InBounds [(i0, i1)] c → InBounds [(i0, i1)] c' → P c → P c' := by
  have u0 : ∀ i : Int, i0 ≤ i → i ≤ i1 → i + 1 ≤ i1 → P [i] → P [i + 1] := fun i ia ib hh hP => by
    have := h [i] (inBounds1.2 ⟨i, rfl, by omega⟩) hP 2 (by decide) (by decide)
    rw [shift1_2] at this
    exact this (inBounds1.2 ⟨i + 1, rfl, by omega⟩)
  have d0 : ∀ i : Int, i0 ≤ i → i ≤ i1 → i0 ≤ i - 1 → P [i] → P [i - 1] := fun i ia ib hh hP => by
    have := h [i] (inBounds1.2 ⟨i, rfl, by omega⟩) hP 1 (by decide) (by decide)
    rw [shift1_1] at this
    exact this (inBounds1.2 ⟨i - 1, rfl, by omega⟩)
  have l0 : ∀ i i' : Int, i0 ≤ i → i ≤ i1 → i0 ≤ i' → i' ≤ i1 → P [i] → P [i'] := fun i i' ia ib ha hb hP =>
    line (fun i => P [i]) (fun x h0 h1 h2 => u0 x h0 (by omega) h1 h2) (fun x h0 h1 h2 => d0 x (by omega) h1 h0 h2) ia ib ha hb hP
  intro c c' hc hc' hP
  obtain ⟨i, rfl, hc⟩ := inBounds1.1 hc
  obtain ⟨i', rfl, hc'⟩ := inBounds1.1 hc'
  exact l0 i i' (by omega) (by omega) (by omega) (by omega) hP

theorem ghost_one1 {i0 i1 : Int} : ∀ c c', InBounds [(i0, i1)] c → InBounds [(i0, i1)] c' → ∀ e e', 1 ≤ e → e ≤ 3 - 1 → 1 ≤ e' → e' ≤ 3 - 1 → ¬ InBounds [(i0, i1)] (shift c (row points1 e)) →
      shift c (row points1 e) = shift c' (row points1 e') → c = c' ∧ e = e' := by
  intro c c' hc hc' e e' h0 h1 h0' h1' ho he
  obtain ⟨i, rfl, hc⟩ := inBounds1.1 hc
  obtain ⟨i', rfl, hc'⟩ := inBounds1.1 hc'
  have a : e = 1 ∨ e = 2 := by omega
  have a' : e' = 1 ∨ e' = 2 := by omega
  rcases a with rfl | rfl <;> rcases a' with rfl | rfl <;>
    simp only [shift1_1, shift1_2, List.cons.injEq, and_true, true_and, InBounds, not_and] at he ho ⊢ <;> omega

/-- exactly one field solves the boundary value problem of the operator, 1D -/
theorem bvone_1 {i0 i1 : Int} {alpha beta : T} {dx : Nat → T} {A B0 : List Int → T} {ps : List (Piece T)} (he : Elliptic1 i0 i1 alpha beta dx A B0)
    (hd : Disjoint ps) (hc : Pieces [(i0, i1)] 3 (row points1) ps) (ht : Tied [(i0, i1)] 3 (row points1) ps (fun c => alpha * A c)) (G D : List Int → T) :
    ∃ X, Fulfils [(i0, i1)] 3 (row points1) ps D X ∧ (∀ i, i0 ≤ i → i ≤ i1 → op1 alpha beta dx A B0 X i = G [i]) ∧
      ∀ X', Fulfils [(i0, i1)] 3 (row points1) ps D X' → (∀ i, i0 ≤ i → i ≤ i1 → op1 alpha beta dx A B0 X' i = G [i]) → ∀ p, InBounds [(i0, i1)] p → X' p = X p := by
  obtain ⟨X, h1, h2, h3⟩ := bv_one (S := coefs1 alpha beta dx A B0) (k := fun c => alpha * A c) (by decide)
    (fun p hp => by
      obtain ⟨i, rfl, hp⟩ := inBounds1.1 hp
      exact shift1_0)
    (fun p hp => by
      obtain ⟨i, rfl, hp⟩ := inBounds1.1 hp
      rw [ring1]
      exact coefs1_coef.c0)
    (fun p hp e h0 h1 => by
      obtain ⟨i, rfl, hp⟩ := inBounds1.1 hp
      obtain ⟨-, g1, g2⟩ := (coefs1_coef (alpha := alpha) (beta := beta) (dx := dx) (A := A) (B0 := B0)).sign he (i := i) (by omega) (by omega)
      have : e = 1 ∨ e = 2 := by omega
      rcases this with rfl | rfl
      · exact g1
      · exact g2)
    (fun p hp => by
      obtain ⟨i, rfl, hp⟩ := inBounds1.1 hp
      exact he.cell i (by omega) (by omega))
    hd (fun q hq => ⟨hc.first q hq, hc.width q hq, fun c h => ⟨hc.inside q hq c h, hc.outside q hq c h, hc.coef q hq c h⟩⟩) hc.ghost conn1 ghost_one1 ht G D
  refine ⟨X, h1, fun i ia ib => ?_, fun X' hF hG => h3 X' hF fun p hp => ?_⟩
  · exact (eqn1 coefs1_coef).1 (h2 [i] (inBounds1.2 ⟨i, rfl, by omega⟩))
  · obtain ⟨i, rfl, hp⟩ := inBounds1.1 hp
    exact (eqn1 coefs1_coef).2 (hG i (by omega) (by omega))

/-- the coefficients of the operator, 2D -/
def coefs2 (alpha beta : T) (dx : Nat → T) (A B0 B1 : List Int → T) : List Int → T
  | [e, i, j] => if e = 1 then -(beta / (dx 0 * dx 0)) * B0 [i, j] else if e = 2 then -(beta / (dx 0 * dx 0)) * B0 [i + 1, j] else if e = 3 then -(beta / (dx 1 * dx 1)) * B1 [j, i] else if e = 4 then -(beta / (dx 1 * dx 1)) * B1 [j + 1, i]
    else -(-(beta / (dx 0 * dx 0)) * B0 [i, j] + -(beta / (dx 0 * dx 0)) * B0 [i + 1, j] + -(beta / (dx 1 * dx 1)) * B1 [j, i] + -(beta / (dx 1 * dx 1)) * B1 [j + 1, i]) + alpha * A [i, j]
  | _ => 0

theorem coefs2_coef {alpha beta : T} {dx : Nat → T} {A B0 B1 : List Int → T} {i j : Int} : Coef2 alpha beta dx A B0 B1 (coefs2 alpha beta dx A B0 B1) i j := by
  constructor <;> simp [coefs2]

theorem conn2 {i0 j0 i1 j1 : Int} (P : List Int → Prop)
    (h : ∀ c, InBounds [(i0, i1), (j0, j1)] c → P c → ∀ e, 1 ≤ e → e ≤ 5 - 1 → InBounds [(i0, i1), (j0, j1)] (shift c (row points2 e)) → P (shift c (row points2 e))) :
    ∀ c c', InBounds [(i0, i1), (j0, j1)] c → InBounds [(i0, i1), (j0, j1)] c' → P c → P c' := by
  have u0 : ∀ i j : Int, i0 ≤ i → i ≤ i1 → j0 ≤ j → j ≤ j1 → i + 1 ≤ i1 → P [i, j] → P [i + 1, j] := fun i j ia ib ja jb hh hP => by
    have := h [i, j] (inBounds2.2 ⟨i, j, rfl, by omega⟩) hP 2 (by decide) (by decide)
    rw [shift2_2] at this
    exact this (inBounds2.2 ⟨i + 1, j, rfl, by omega⟩)
  have d0 : ∀ i j : Int, i0 ≤ i → i ≤ i1 → j0 ≤ j → j ≤ j1 → i0 ≤ i - 1 → P [i, j] → P [i - 1, j] := fun i j ia ib ja jb hh hP => by
    have := h [i, j] (inBounds2.2 ⟨i, j, rfl, by omega⟩) hP 1 (by decide) (by decide)
    rw [shift2_1] at this
    exact this (inBounds2.2 ⟨i - 1, j, rfl, by omega⟩)
  have l0 : ∀ i j i' : Int, i0 ≤ i → i ≤ i1 → j0 ≤ j → j ≤ j1 → i0 ≤ i' → i' ≤ i1 → P [i, j] → P [i', j] := fun i j i' ia ib ja jb ha hb hP =>
    line (fun i => P [i, j]) (fun x h0 h1 h2 => u0 x j h0 (by omega) ja jb h1 h2) (fun x h0 h1 h2 => d0 x j (by omega) h1 ja jb h0 h2) ia ib ha hb hP
  have u1 : ∀ i j : Int, i0 ≤ i → i ≤ i1 → j0 ≤ j → j ≤ j1 → j + 1 ≤ j1 → P [i, j] → P [i, j + 1] := fun i j ia ib ja jb hh hP => by
    have := h [i, j] (inBounds2.2 ⟨i, j, rfl, by omega⟩) hP 4 (by decide) (by decide)
    rw [shift2_4] at this
    exact this (inBounds2.2 ⟨i, j + 1, rfl, by omega⟩)
  have d1 : ∀ i j : Int, i0 ≤ i → i ≤ i1 → j0 ≤ j → j ≤ j1 → j0 ≤ j - 1 → P [i, j] → P [i, j - 1] := fun i j ia ib ja jb hh hP => by
    have := h [i, j] (inBounds2.2 ⟨i, j, rfl, by omega⟩) hP 3 (by decide) (by decide)
    rw [shift2_3] at this
    exact this (inBounds2.2 ⟨i, j - 1, rfl, by omega⟩)
  have l1 : ∀ i j j' : Int, i0 ≤ i → i ≤ i1 → j0 ≤ j → j ≤ j1 → j0 ≤ j' → j' ≤ j1 → P [i, j] → P [i, j'] := fun i j j' ia ib ja jb ha hb hP =>
    line (fun j => P [i, j]) (fun x h0 h1 h2 => u1 i x ia ib h0 (by omega) h1 h2) (fun x h0 h1 h2 => d1 i x ia ib (by omega) h1 h0 h2) ja jb ha hb hP
  intro c c' hc hc' hP
  obtain ⟨i, j, rfl, hc⟩ := inBounds2.1 hc
  obtain ⟨i', j', rfl, hc'⟩ := inBounds2.1 hc'
  exact l1 i' j j' (by omega) (by omega) (by omega) (by omega) (by omega) (by omega) (l0 i j i' (by omega) (by omega) (by omega) (by omega) (by omega) (by omega) hP)

theorem ghost_one2 {i0 j0 i1 j1 : Int} : ∀ c c', InBounds [(i0, i1), (j0, j1)] c → InBounds [(i0, i1), (j0, j1)] c' → ∀ e e', 1 ≤ e → e ≤ 5 - 1 → 1 ≤ e' → e' ≤ 5 - 1 → ¬ InBounds [(i0, i1), (j0, j1)] (shift c (row points2 e)) →
      shift c (row points2 e) = shift c' (row points2 e') → c = c' ∧ e = e' := by
  intro c c' hc hc' e e' h0 h1 h0' h1' ho he
  obtain ⟨i, j, rfl, hc⟩ := inBounds2.1 hc
  obtain ⟨i', j', rfl, hc'⟩ := inBounds2.1 hc'
  have a : e = 1 ∨ e = 2 ∨ e = 3 ∨ e = 4 := by omega
  have a' : e' = 1 ∨ e' = 2 ∨ e' = 3 ∨ e' = 4 := by omega
  rcases a with rfl | rfl | rfl | rfl <;> rcases a' with rfl | rfl | rfl | rfl <;>
    simp only [shift2_1, shift2_2, shift2_3, shift2_4, List.cons.injEq, and_true, true_and, InBounds, not_and] at he ho ⊢ <;> omega

/-- exactly one field solves the boundary value problem of the operator, 2D -/
theorem bvone_2 {i0 j0 i1 j1 : Int} {alpha beta : T} {dx : Nat → T} {A B0 B1 : List Int → T} {ps : List (Piece T)} (he : Elliptic2 i0 j0 i1 j1 alpha beta dx A B0 B1)
    (hd : Disjoint ps) (hc : Pieces [(i0, i1), (j0, j1)] 5 (row points2) ps) (ht : Tied [(i0, i1), (j0, j1)] 5 (row points2) ps (fun c => alpha * A c)) (G D : List Int → T) :
    ∃ X, Fulfils [(i0, i1), (j0, j1)] 5 (row points2) ps D X ∧ (∀ i j, i0 ≤ i → i ≤ i1 → j0 ≤ j → j ≤ j1 → op2 alpha beta dx A B0 B1 X i j = G [i, j]) ∧
      ∀ X', Fulfils [(i0, i1), (j0, j1)] 5 (row points2) ps D X' → (∀ i j, i0 ≤ i → i ≤ i1 → j0 ≤ j → j ≤ j1 → op2 alpha beta dx A B0 B1 X' i j = G [i, j]) → ∀ p, InBounds [(i0, i1), (j0, j1)] p → X' p = X p := by
  obtain ⟨X, h1, h2, h3⟩ := bv_one (S := coefs2 alpha beta dx A B0 B1) (k := fun c => alpha * A c) (by decide)
    (fun p hp => by
      obtain ⟨i, j, rfl, hp⟩ := inBounds2.1 hp
      exact shift2_0)
    (fun p hp => by
      obtain ⟨i, j, rfl, hp⟩ := inBounds2.1 hp
      rw [ring2]
      exact coefs2_coef.c0)
    (fun p hp e h0 h1 => by
      obtain ⟨i, j, rfl, hp⟩ := inBounds2.1 hp
      obtain ⟨-, g1, g2, g3, g4⟩ := (coefs2_coef (alpha := alpha) (beta := beta) (dx := dx) (A := A) (B0 := B0) (B1 := B1)).sign he (i := i) (j := j) (by omega) (by omega) (by omega) (by omega)
      have : e = 1 ∨ e = 2 ∨ e = 3 ∨ e = 4 := by omega
      rcases this with rfl | rfl | rfl | rfl
      · exact g1
      · exact g2
      · exact g3
      · exact g4)
    (fun p hp => by
      obtain ⟨i, j, rfl, hp⟩ := inBounds2.1 hp
      exact he.cell i j (by omega) (by omega) (by omega) (by omega))
    hd (fun q hq => ⟨hc.first q hq, hc.width q hq, fun c h => ⟨hc.inside q hq c h, hc.outside q hq c h, hc.coef q hq c h⟩⟩) hc.ghost conn2 ghost_one2 ht G D
  refine ⟨X, h1, fun i j ia ib ja jb => ?_, fun X' hF hG => h3 X' hF fun p hp => ?_⟩
  · exact (eqn2 coefs2_coef).1 (h2 [i, j] (inBounds2.2 ⟨i, j, rfl, by omega⟩))
  · obtain ⟨i, j, rfl, hp⟩ := inBounds2.1 hp
    exact (eqn2 coefs2_coef).2 (hG i j (by omega) (by omega) (by omega) (by omega))

/-- the coefficients of the operator, 3D -/
def coefs3 (alpha beta : T) (dx : Nat → T) (A B0 B1 B2 : List Int → T) : List Int → T
  | [e, i, j, k] => if e = 1 then -(beta / (dx 0 * dx 0)) * B0 [i, j, k] else if e = 2 then -(beta / (dx 0 * dx 0)) * B0 [i + 1, j, k] else if e = 3 then -(beta / (dx 1 * dx 1)) * B1 [j, k, i] else if e = 4 then -(beta / (dx 1 * dx 1)) * B1 [j + 1, k, i] else if e = 5 then -(beta / (dx 2 * dx 2)) * B2 [k, i, j] else if e = 6 then -(beta / (dx 2 * dx 2)) * B2 [k + 1, i, j]
    else -(-(beta / (dx 0 * dx 0)) * B0 [i, j, k] + -(beta / (dx 0 * dx 0)) * B0 [i + 1, j, k] + -(beta / (dx 1 * dx 1)) * B1 [j, k, i] + -(beta / (dx 1 * dx 1)) * B1 [j + 1, k, i] + -(beta / (dx 2 * dx 2)) * B2 [k, i, j] + -(beta / (dx 2 * dx 2)) * B2 [k + 1, i, j]) + alpha * A [i, j, k]
  | _ => 0

theorem coefs3_coef {alpha beta : T} {dx : Nat → T} {A B0 B1 B2 : List Int → T} {i j k : Int} : Coef3 alpha beta dx A B0 B1 B2 (coefs3 alpha beta dx A B0 B1 B2) i j k := by
  constructor <;> simp [coefs3]

theorem conn3 {i0 j0 k0 i1 j1 k1 : Int} (P : List Int → Prop)
    (h : ∀ c, InBounds [(i0, i1), (j0, j1), (k0, k1)] c → P c → ∀ e, 1 ≤ e → e ≤ 7 - 1 → InBounds [(i0, i1), (j0, j1), (k0, k1)] (shift c (row points3 e)) → P (shift c (row points3 e))) :
    ∀ c c', InBounds [(i0, i1), (j0, j1), (k0, k1)] c → InBounds [(i0, i1), (j0, j1), (k0, k1)] c' → P c → P c' := by
  have u0 : ∀ i j k : Int, i0 ≤ i → i ≤ i1 → j0 ≤ j → j ≤ j1 → k0 ≤ k → k ≤ k1 → i + 1 ≤ i1 → P [i, j, k] → P [i + 1, j, k] := fun i j k ia ib ja jb ka kb hh hP => by
    have := h [i, j, k] (inBounds3.2 ⟨i, j, k, rfl, by omega⟩) hP 2 (by decide) (by decide)
    rw [shift3_2] at this
    exact this (inBounds3.2 ⟨i + 1, j, k, rfl, by omega⟩)
  have d0 : ∀ i j k : Int, i0 ≤ i → i ≤ i1 → j0 ≤ j → j ≤ j1 → k0 ≤ k → k ≤ k1 → i0 ≤ i - 1 → P [i, j, k] → P [i - 1, j, k] := fun i j k ia ib ja jb ka kb hh hP => by
    have := h [i, j, k] (inBounds3.2 ⟨i, j, k, rfl, by omega⟩) hP 1 (by decide) (by decide)
    rw [shift3_1] at this
    exact this (inBounds3.2 ⟨i - 1, j, k, rfl, by omega⟩)
  have l0 : ∀ i j k i' : Int, i0 ≤ i → i ≤ i1 → j0 ≤ j → j ≤ j1 → k0 ≤ k → k ≤ k1 → i0 ≤ i' → i' ≤ i1 → P [i, j, k] → P [i', j, k] := fun i j k i' ia ib ja jb ka kb ha hb hP =>
    line (fun i => P [i, j, k]) (fun x h0 h1 h2 => u0 x j k h0 (by omega) ja jb ka kb h1 h2) (fun x h0 h1 h2 => d0 x j k (by omega) h1 ja jb ka kb h0 h2) ia ib ha hb hP
  have u1 : ∀ i j k : Int, i0 ≤ i → i ≤ i1 → j0 ≤ j → j ≤ j1 → k0 ≤ k → k ≤ k1 → j + 1 ≤ j1 → P [i, j, k] → P [i, j + 1, k] := fun i j k ia ib ja jb ka kb hh hP => by
    have := h [i, j, k] (inBounds3.2 ⟨i, j, k, rfl, by omega⟩) hP 4 (by decide) (by decide)
    rw [shift3_4] at this
    exact this (inBounds3.2 ⟨i, j + 1, k, rfl, by omega⟩)
  have d1 : ∀ i j k : Int, i0 ≤ i → i ≤ i1 → j0 ≤ j → j ≤ j1 → k0 ≤ k → k ≤ k1 → j0 ≤ j - 1 → P [i, j, k] → P [i, j - 1, k] := fun i j k ia ib ja jb ka kb hh hP => by
    have := h [i, j, k] (inBounds3.2 ⟨i, j, k, rfl, by omega⟩) hP 3 (by decide) (by decide)
    rw [shift3_3] at this
    exact this (inBounds3.2 ⟨i, j - 1, k, rfl, by omega⟩)
  have l1 : ∀ i j k j' : Int, i0 ≤ i → i ≤ i1 → j0 ≤ j → j ≤ j1 → k0 ≤ k → k ≤ k1 → j0 ≤ j' → j' ≤ j1 → P [i, j, k] → P [i, j', k] := fun i j k j' ia ib ja jb ka kb ha hb hP =>
    line (fun j => P [i, j, k]) (fun x h0 h1 h2 => u1 i x k ia ib h0 (by omega) ka kb h1 h2) (fun x h0 h1 h2 => d1 i x k ia ib (by omega) h1 ka kb h0 h2) ja jb ha hb hP
  have u2 : ∀ i j k : Int, i0 ≤ i → i ≤ i1 → j0 ≤ j → j ≤ j1 → k0 ≤ k → k ≤ k1 → k + 1 ≤ k1 → P [i, j, k] → P [i, j, k + 1] := fun i j k ia ib ja jb ka kb hh hP => by
    have := h [i, j, k] (inBounds3.2 ⟨i, j, k, rfl, by omega⟩) hP 6 (by decide) (by decide)
    rw [shift3_6] at this
    exact this (inBounds3.2 ⟨i, j, k + 1, rfl, by omega⟩)
  have d2 : ∀ i j k : Int, i0 ≤ i → i ≤ i1 → j0 ≤ j → j ≤ j1 → k0 ≤ k → k ≤ k1 → k0 ≤ k - 1 → P [i, j, k] → P [i, j, k - 1] := fun i j k ia ib ja jb ka kb hh hP => by
    have := h [i, j, k] (inBounds3.2 ⟨i, j, k, rfl, by omega⟩) hP 5 (by decide) (by decide)
    rw [shift3_5] at this
    exact this (inBounds3.2 ⟨i, j, k - 1, rfl, by omega⟩)
  have l2 : ∀ i j k k' : Int, i0 ≤ i → i ≤ i1 → j0 ≤ j → j ≤ j1 → k0 ≤ k → k ≤ k1 → k0 ≤ k' → k' ≤ k1 → P [i, j, k] → P [i, j, k'] := fun i j k k' ia ib ja jb ka kb ha hb hP =>
    line (fun k => P [i, j, k]) (fun x h0 h1 h2 => u2 i j x ia ib ja jb h0 (by omega) h1 h2) (fun x h0 h1 h2 => d2 i j x ia ib ja jb (by omega) h1 h0 h2) ka kb ha hb hP
  intro c c' hc hc' hP
  obtain ⟨i, j, k, rfl, hc⟩ := inBounds3.1 hc
  obtain ⟨i', j', k', rfl, hc'⟩ := inBounds3.1 hc'
  exact l2 i' j' k k' (by omega) (by omega) (by omega) (by omega) (by omega) (by omega) (by omega) (by omega) (l1 i' j k j' (by omega) (by omega) (by omega) (by omega) (by omega) (by omega) (by omega) (by omega) (l0 i j k i' (by omega) (by omega) (by omega) (by omega) (by omega) (by omega) (by omega) (by omega) hP))

theorem ghost_one3 {i0 j0 k0 i1 j1 k1 : Int} : ∀ c c', InBounds [(i0, i1), (j0, j1), (k0, k1)] c → InBounds [(i0, i1), (j0, j1), (k0, k1)] c' → ∀ e e', 1 ≤ e → e ≤ 7 - 1 → 1 ≤ e' → e' ≤ 7 - 1 → ¬ InBounds [(i0, i1), (j0, j1), (k0, k1)] (shift c (row points3 e)) →
      shift c (row points3 e) = shift c' (row points3 e') → c = c' ∧ e = e' := by
  intro c c' hc hc' e e' h0 h1 h0' h1' ho he
  obtain ⟨i, j, k, rfl, hc⟩ := inBounds3.1 hc
  obtain ⟨i', j', k', rfl, hc'⟩ := inBounds3.1 hc'
  have a : e = 1 ∨ e = 2 ∨ e = 3 ∨ e = 4 ∨ e = 5 ∨ e = 6 := by omega
  have a' : e' = 1 ∨ e' = 2 ∨ e' = 3 ∨ e' = 4 ∨ e' = 5 ∨ e' = 6 := by omega
  rcases a with rfl | rfl | rfl | rfl | rfl | rfl <;> rcases a' with rfl | rfl | rfl | rfl | rfl | rfl <;>
    simp only [shift3_1, shift3_2, shift3_3, shift3_4, shift3_5, shift3_6, List.cons.injEq, and_true, true_and, InBounds, not_and] at he ho ⊢ <;> omega

/-- exactly one field solves the boundary value problem of the operator, 3D -/
theorem bvone_3 {i0 j0 k0 i1 j1 k1 : Int} {alpha beta : T} {dx : Nat → T} {A B0 B1 B2 : List Int → T} {ps : List (Piece T)} (he : Elliptic3 i0 j0 k0 i1 j1 k1 alpha beta dx A B0 B1 B2)
    (hd : Disjoint ps) (hc : Pieces [(i0, i1), (j0, j1), (k0, k1)] 7 (row points3) ps) (ht : Tied [(i0, i1), (j0, j1), (k0, k1)] 7 (row points3) ps (fun c => alpha * A c)) (G D : List Int → T) :
    ∃ X, Fulfils [(i0, i1), (j0, j1), (k0, k1)] 7 (row points3) ps D X ∧ (∀ i j k, i0 ≤ i → i ≤ i1 → j0 ≤ j → j ≤ j1 → k0 ≤ k → k ≤ k1 → op3 alpha beta dx A B0 B1 B2 X i j k = G [i, j, k]) ∧
      ∀ X', Fulfils [(i0, i1), (j0, j1), (k0, k1)] 7 (row points3) ps D X' → (∀ i j k, i0 ≤ i → i ≤ i1 → j0 ≤ j → j ≤ j1 → k0 ≤ k → k ≤ k1 → op3 alpha beta dx A B0 B1 B2 X' i j k = G [i, j, k]) → ∀ p, InBounds [(i0, i1), (j0, j1), (k0, k1)] p → X' p = X p := by
  obtain ⟨X, h1, h2, h3⟩ := bv_one (S := coefs3 alpha beta dx A B0 B1 B2) (k := fun c => alpha * A c) (by decide)
    (fun p hp => by
      obtain ⟨i, j, k, rfl, hp⟩ := inBounds3.1 hp
      exact shift3_0)
    (fun p hp => by
      obtain ⟨i, j, k, rfl, hp⟩ := inBounds3.1 hp
      rw [ring3]
      exact coefs3_coef.c0)
    (fun p hp e h0 h1 => by
      obtain ⟨i, j, k, rfl, hp⟩ := inBounds3.1 hp
      obtain ⟨-, g1, g2, g3, g4, g5, g6⟩ := (coefs3_coef (alpha := alpha) (beta := beta) (dx := dx) (A := A) (B0 := B0) (B1 := B1) (B2 := B2)).sign he (i := i) (j := j) (k := k) (by omega) (by omega) (by omega) (by omega) (by omega) (by omega)
      have : e = 1 ∨ e = 2 ∨ e = 3 ∨ e = 4 ∨ e = 5 ∨ e = 6 := by omega
      rcases this with rfl | rfl | rfl | rfl | rfl | rfl
      · exact g1
      · exact g2
      · exact g3
      · exact g4
      · exact g5
      · exact g6)
    (fun p hp => by
      obtain ⟨i, j, k, rfl, hp⟩ := inBounds3.1 hp
      exact he.cell i j k (by omega) (by omega) (by omega) (by omega) (by omega) (by omega))
    hd (fun q hq => ⟨hc.first q hq, hc.width q hq, fun c h => ⟨hc.inside q hq c h, hc.outside q hq c h, hc.coef q hq c h⟩⟩) hc.ghost conn3 ghost_one3 ht G D
  refine ⟨X, h1, fun i j k ia ib ja jb ka kb => ?_, fun X' hF hG => h3 X' hF fun p hp => ?_⟩
  · exact (eqn3 coefs3_coef).1 (h2 [i, j, k] (inBounds3.2 ⟨i, j, k, rfl, by omega⟩))
  · obtain ⟨i, j, k, rfl, hp⟩ := inBounds3.1 hp
    exact (eqn3 coefs3_coef).2 (hG i j k (by omega) (by omega) (by omega) (by omega) (by omega) (by omega))

end Verif.F
