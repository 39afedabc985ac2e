import Verif.Lemmas.ErrorEnergy
import Verif.Lemmas.Assemble
import Verif.Lemmas.SmoothConvEx

/-
Equations whose assembled coefficients are symmetric.
-/

set_option linter.unusedVariables false

namespace Verif.F

variable {T : Type} [Field T]

theorem shift_alone : ∀ {p o : List Int} {N : Nat}, p.length = N → o.length = N → shift p o = p → o = List.replicate N 0
  | [], [], 0, _, _, _ => rfl
  | i :: p, z :: o, N + 1, hp, ho, h => by
    simp only [shift, List.zipWith_cons_cons, List.cons.injEq] at h
    simp only [List.length_cons, Nat.add_right_cancel_iff] at hp ho
    have : o = List.replicate N 0 := shift_alone hp ho h.2
    rw [List.replicate_succ, ← this, show z = 0 by omega]

theorem inBounds_length : ∀ {b : List (Int × Int)} {p : List Int}, InBounds b p → p.length = b.length
  | [], [], _ => rfl
  | b :: bs, i :: is, h => by
    simp only [List.length_cons]
    rw [inBounds_length h.2]

theorem Problem.alone {m : Mem T} {box : List (Int × Int)} {n : Int} {tab st f u : Arr} {O : Int → List Int} {S F U : List Int → T} {N : Nat}
    (h : Problem m box n tab st f u O S F U) (hN : box.length = N) (ha : Alone N n O) {p : List Int} (hp : InBounds box p) {s : Int} (h1 : 1 ≤ s) (h2 : s < n) :
    shift p (O s) ≠ p := fun e =>
  ha s h1 h2 (shift_alone ((inBounds_length hp).trans hN) ((h.table s (by omega) h2).1.trans hN) e)

theorem opposite {a b : Prop} [Decidable a] [Decidable b] {x y : T} (h : a ↔ b) (e : a → x = y) : (if a then x else 0) = if b then y else 0 := by
  by_cases c : a
  · rw [if_pos c, if_pos (h.1 c), e c]
  · rw [if_neg c, if_neg fun d => c (h.2 d)]

theorem sym1 {i0 i1 : Int} {S : List Int → T} (h0 : ∀ i, i0 ≤ i → i + 1 ≤ i1 → S [2, i] = S [1, i + 1]) :
    Symmetric [(i0, i1)] 3 (row points1) S := by
  intro p q hp hq
  rw [inBounds1] at hp hq
  obtain ⟨i, rfl, hp⟩ := hp
  obtain ⟨z0, rfl, hq⟩ := hq
  unfold coupling
  rw [star1, star1]
  rw [shift1_0, shift1_1, shift1_2, shift1_0, shift1_1, shift1_2]
  have e0 : (if [i] = [z0] then S [0, i] else 0) = if [z0] = [i] then S [0, z0] else 0 := opposite eq_comm fun e => by
    simp only [List.cons.injEq, and_true] at e
    obtain rfl := e
    rfl
  have e1 : (if [i - 1] = [z0] then S [1, i] else 0) = if [z0 + 1] = [i] then S [2, z0] else 0 := by
    refine opposite ?_ fun e => ?_
    · simp only [List.cons.injEq, and_true]
      omega
    · simp only [List.cons.injEq, and_true] at e
      obtain rfl : z0 = i - 1 := by omega
      have := h0 (i - 1) (by omega) (by omega)
      rw [sub_add_cancel] at this
      exact this.symm
  have e2 : (if [i + 1] = [z0] then S [2, i] else 0) = if [z0 - 1] = [i] then S [1, z0] else 0 := by
    refine opposite ?_ fun e => ?_
    · simp only [List.cons.injEq, and_true]
      omega
    · simp only [List.cons.injEq, and_true] at e
      obtain rfl : z0 = i + 1 := by omega
      exact h0 i (by omega) (by omega)
  rw [e0, e1, e2]
  ring

theorem sym2 {i0 j0 i1 j1 : Int} {S : List Int → T} (h0 : ∀ i j, i0 ≤ i → i + 1 ≤ i1 → j0 ≤ j → j ≤ j1 → S [2, i, j] = S [1, i + 1, j]) (h1 : ∀ i j, i0 ≤ i → i ≤ i1 → j0 ≤ j → j + 1 ≤ j1 → S [4, i, j] = S [3, i, j + 1]) :
    Symmetric [(i0, i1), (j0, j1)] 5 (row points2) S := by
  intro p q hp hq
  rw [inBounds2] at hp hq
  obtain ⟨i, j, rfl, hp⟩ := hp
  obtain ⟨z0, z1, rfl, hq⟩ := hq
  unfold coupling
  rw [star2, star2]
  rw [shift2_0, shift2_1, shift2_2, shift2_3, shift2_4, shift2_0, shift2_1, shift2_2, shift2_3, shift2_4]
  have e0 : (if [i, j] = [z0, z1] then S [0, i, j] else 0) = if [z0, z1] = [i, j] then S [0, z0, z1] else 0 := opposite eq_comm fun e => by
    simp only [List.cons.injEq, and_true] at e
    obtain ⟨rfl, rfl⟩ := e
    rfl
  have e1 : (if [i - 1, j] = [z0, z1] then S [1, i, j] else 0) = if [z0 + 1, z1] = [i, j] then S [2, z0, z1] else 0 := by
    refine opposite ?_ fun e => ?_
    · simp only [List.cons.injEq, and_true]
      omega
    · simp only [List.cons.injEq, and_true] at e
      obtain rfl : z0 = i - 1 := by omega
      obtain rfl : j = z1 := by omega
      have := h0 (i - 1) j (by omega) (by omega) (by omega) (by omega)
      rw [sub_add_cancel] at this
      exact this.symm
  have e2 : (if [i + 1, j] = [z0, z1] then S [2, i, j] else 0) = if [z0 - 1, z1] = [i, j] then S [1, z0, z1] else 0 := by
    refine opposite ?_ fun e => ?_
    · simp only [List.cons.injEq, and_true]
      omega
    · simp only [List.cons.injEq, and_true] at e
      obtain rfl : z0 = i + 1 := by omega
      obtain rfl : j = z1 := by omega
      exact h0 i j (by omega) (by omega) (by omega) (by omega)
  have e3 : (if [i, j - 1] = [z0, z1] then S [3, i, j] else 0) = if [z0, z1 + 1] = [i, j] then S [4, z0, z1] else 0 := by
    refine opposite ?_ fun e => ?_
    · simp only [List.cons.injEq, and_true]
      omega
    · simp only [List.cons.injEq, and_true] at e
      obtain rfl : i = z0 := by omega
      obtain rfl : z1 = j - 1 := by omega
      have := h1 i (j - 1) (by omega) (by omega) (by omega) (by omega)
      rw [sub_add_cancel] at this
      exact this.symm
  have e4 : (if [i, j + 1] = [z0, z1] then S [4, i, j] else 0) = if [z0, z1 - 1] = [i, j] then S [3, z0, z1] else 0 := by
    refine opposite ?_ fun e => ?_
    · simp only [List.cons.injEq, and_true]
      omega
    · simp only [List.cons.injEq, and_true] at e
      obtain rfl : i = z0 := by omega
      obtain rfl : z1 = j + 1 := by omega
      exact h1 i j (by omega) (by omega) (by omega) (by omega)
  rw [e0, e1, e2, e3, e4]
  ring

theorem sym3 {i0 j0 k0 i1 j1 k1 : Int} {S : List Int → T} (h0 : ∀ i j k, i0 ≤ i → i + 1 ≤ i1 → j0 ≤ j → j ≤ j1 → k0 ≤ k → k ≤ k1 → S [2, i, j, k] = S [1, i + 1, j, k]) (h1 : ∀ i j k, i0 ≤ i → i ≤ i1 → j0 ≤ j → j + 1 ≤ j1 → k0 ≤ k → k ≤ k1 → S [4, i, j, k] = S [3, i, j + 1, k]) (h2 : ∀ i j k, i0 ≤ i → i ≤ i1 → j0 ≤ j → j ≤ j1 → k0 ≤ k → k + 1 ≤ k1 → S [6, i, j, k] = S [5, i, j, k + 1]) :
    Symmetric [(i0, i1), (j0, j1), (k0, k1)] 7 (row points3) S := by
  intro p q hp hq
  rw [inBounds3] at hp hq
  obtain ⟨i, j, k, rfl, hp⟩ := hp
  obtain ⟨z0, z1, z2, rfl, hq⟩ := hq
  unfold coupling
  rw [star3, star3]
  rw [shift3_0, shift3_1, shift3_2, shift3_3, shift3_4, shift3_5, shift3_6, shift3_0, shift3_1, shift3_2, shift3_3, shift3_4, shift3_5, shift3_6]
  have e0 : (if [i, j, k] = [z0, z1, z2] then S [0, i, j, k] else 0) = if [z0, z1, z2] = [i, j, k] then S [0, z0, z1, z2] else 0 := opposite eq_comm fun e => by
    simp only [List.cons.injEq, and_true] at e
    obtain ⟨rfl, rfl, rfl⟩ := e
    rfl
  have e1 : (if [i - 1, j, k] = [z0, z1, z2] then S [1, i, j, k] else 0) = if [z0 + 1, z1, z2] = [i, j, k] then S [2, z0, z1, z2] else 0 := by
    refine opposite ?_ fun e => ?_
    · simp only [List.cons.injEq, and_true]
      omega
    · simp only [List.cons.injEq, and_true] at e
      obtain rfl : z0 = i - 1 := by omega
      obtain rfl : j = z1 := by omega
      obtain rfl : k = z2 := by omega
      have := h0 (i - 1) j k (by omega) (by omega) (by omega) (by omega) (by omega) (by omega)
      rw [sub_add_cancel] at this
      exact this.symm
  have e2 : (if [i + 1, j, k] = [z0, z1, z2] then S [2, i, j, k] else 0) = if [z0 - 1, z1, z2] = [i, j, k] then S [1, z0, z1, z2] else 0 := by
    refine opposite ?_ fun e => ?_
    · simp only [List.cons.injEq, and_true]
      omega
    · simp only [List.cons.injEq, and_true] at e
      obtain rfl : z0 = i + 1 := by omega
      obtain rfl : j = z1 := by omega
      obtain rfl : k = z2 := by omega
      exact h0 i j k (by omega) (by omega) (by omega) (by omega) (by omega) (by omega)
  have e3 : (if [i, j - 1, k] = [z0, z1, z2] then S [3, i, j, k] else 0) = if [z0, z1 + 1, z2] = [i, j, k] then S [4, z0, z1, z2] else 0 := by
    refine opposite ?_ fun e => ?_
    · simp only [List.cons.injEq, and_true]
      omega
    · simp only [List.cons.injEq, and_true] at e
      obtain rfl : i = z0 := by omega
      obtain rfl : z1 = j - 1 := by omega
      obtain rfl : k = z2 := by omega
      have := h1 i (j - 1) k (by omega) (by omega) (by omega) (by omega) (by omega) (by omega)
      rw [sub_add_cancel] at this
      exact this.symm
  have e4 : (if [i, j + 1, k] = [z0, z1, z2] then S [4, i, j, k] else 0) = if [z0, z1 - 1, z2] = [i, j, k] then S [3, z0, z1, z2] else 0 := by
    refine opposite ?_ fun e => ?_
    · simp only [List.cons.injEq, and_true]
      omega
    · simp only [List.cons.injEq, and_true] at e
      obtain rfl : i = z0 := by omega
      obtain rfl : z1 = j + 1 := by omega
      obtain rfl : k = z2 := by omega
      exact h1 i j k (by omega) (by omega) (by omega) (by omega) (by omega) (by omega)
  have e5 : (if [i, j, k - 1] = [z0, z1, z2] then S [5, i, j, k] else 0) = if [z0, z1, z2 + 1] = [i, j, k] then S [6, z0, z1, z2] else 0 := by
    refine opposite ?_ fun e => ?_
    · simp only [List.cons.injEq, and_true]
      omega
    · simp only [List.cons.injEq, and_true] at e
      obtain rfl : i = z0 := by omega
      obtain rfl : j = z1 := by omega
      obtain rfl : z2 = k - 1 := by omega
      have := h2 i j (k - 1) (by omega) (by omega) (by omega) (by omega) (by omega) (by omega)
      rw [sub_add_cancel] at this
      exact this.symm
  have e6 : (if [i, j, k + 1] = [z0, z1, z2] then S [6, i, j, k] else 0) = if [z0, z1, z2 - 1] = [i, j, k] then S [5, z0, z1, z2] else 0 := by
    refine opposite ?_ fun e => ?_
    · simp only [List.cons.injEq, and_true]
      omega
    · simp only [List.cons.injEq, and_true] at e
      obtain rfl : i = z0 := by omega
      obtain rfl : j = z1 := by omega
      obtain rfl : z2 = k + 1 := by omega
      exact h2 i j k (by omega) (by omega) (by omega) (by omega) (by omega) (by omega)
  rw [e0, e1, e2, e3, e4, e5, e6]
  ring

variable [LinearOrder T] [IsStrictOrderedRing T]

theorem coef_sym1 {i0 i1 : Int} {alpha beta : T} {dx : Nat → T} {A B0 S : List Int → T}
    (h : ∀ i, i0 ≤ i → i ≤ i1 → Coef1 alpha beta dx A B0 S i) : Symmetric [(i0, i1)] 3 (row points1) S :=
  sym1 (fun i g0 g1 => by rw [(h i (by omega) (by omega)).c2, (h (i + 1) (by omega) (by omega)).c1])

theorem coef_pos1 {i0 i1 : Int} {alpha beta : T} {dx : Nat → T} {A B0 S : List Int → T} (he : Elliptic1 i0 i1 alpha beta dx A B0)
    (h : ∀ i, i0 ≤ i → i ≤ i1 → Coef1 alpha beta dx A B0 S i) :
    (∀ p, InBounds [(i0, i1)] p → 0 < S (0 :: p)) ∧ ∀ p, InBounds [(i0, i1)] p → sum 1 (3 - 1) (fun s => |S (s :: p)|) ≤ S (0 :: p) := by
  refine ⟨fun p hp => ?_, fun p hp => ?_⟩ <;> (rw [inBounds1] at hp; obtain ⟨i, rfl, hp⟩ := hp)
  · exact ((h i (by omega) (by omega)).sign he (by omega) (by omega)).1
  · obtain ⟨g0, g1, g2⟩ := (h i (by omega) (by omega)).sign he (by omega) (by omega)
    rw [ring1, abs_of_neg g1, abs_of_neg g2]
    have a := he.cell i (by omega) (by omega)
    have c := (h i (by omega) (by omega)).c0
    linarith

theorem coef_sym2 {i0 j0 i1 j1 : Int} {alpha beta : T} {dx : Nat → T} {A B0 B1 S : List Int → T}
    (h : ∀ i j, i0 ≤ i → i ≤ i1 → j0 ≤ j → j ≤ j1 → Coef2 alpha beta dx A B0 B1 S i j) : Symmetric [(i0, i1), (j0, j1)] 5 (row points2) S :=
  sym2 (fun i j g0 g1 g2 g3 => by rw [(h i j (by omega) (by omega) (by omega) (by omega)).c2, (h (i + 1) j (by omega) (by omega) (by omega) (by omega)).c1]) (fun i j g0 g1 g2 g3 => by rw [(h i j (by omega) (by omega) (by omega) (by omega)).c4, (h i (j + 1) (by omega) (by omega) (by omega) (by omega)).c3])

theorem coef_pos2 {i0 j0 i1 j1 : Int} {alpha beta : T} {dx : Nat → T} {A B0 B1 S : List Int → T} (he : Elliptic2 i0 j0 i1 j1 alpha beta dx A B0 B1)
    (h : ∀ i j, i0 ≤ i → i ≤ i1 → j0 ≤ j → j ≤ j1 → Coef2 alpha beta dx A B0 B1 S i j) :
    (∀ p, InBounds [(i0, i1), (j0, j1)] p → 0 < S (0 :: p)) ∧ ∀ p, InBounds [(i0, i1), (j0, j1)] p → sum 1 (5 - 1) (fun s => |S (s :: p)|) ≤ S (0 :: p) := by
  refine ⟨fun p hp => ?_, fun p hp => ?_⟩ <;> (rw [inBounds2] at hp; obtain ⟨i, j, rfl, hp⟩ := hp)
  · exact ((h i j (by omega) (by omega) (by omega) (by omega)).sign he (by omega) (by omega) (by omega) (by omega)).1
  · obtain ⟨g0, g1, g2, g3, g4⟩ := (h i j (by omega) (by omega) (by omega) (by omega)).sign he (by omega) (by omega) (by omega) (by omega)
    rw [ring2, abs_of_neg g1, abs_of_neg g2, abs_of_neg g3, abs_of_neg g4]
    have a := he.cell i j (by omega) (by omega) (by omega) (by omega)
    have c := (h i j (by omega) (by omega) (by omega) (by omega)).c0
    linarith

theorem coef_sym3 {i0 j0 k0 i1 j1 k1 : Int} {alpha beta : T} {dx : Nat → T} {A B0 B1 B2 S : List Int → T}
    (h : ∀ i j k, i0 ≤ i → i ≤ i1 → j0 ≤ j → j ≤ j1 → k0 ≤ k → k ≤ k1 → Coef3 alpha beta dx A B0 B1 B2 S i j k) : Symmetric [(i0, i1), (j0, j1), (k0, k1)] 7 (row points3) S :=
  sym3 (fun i j k g0 g1 g2 g3 g4 g5 => by rw [(h i j k (by omega) (by omega) (by omega) (by omega) (by omega) (by omega)).c2, (h (i + 1) j k (by omega) (by omega) (by omega) (by omega) (by omega) (by omega)).c1]) (fun i j k g0 g1 g2 g3 g4 g5 => by rw [(h i j k (by omega) (by omega) (by omega) (by omega) (by omega) (by omega)).c4, (h i (j + 1) k (by omega) (by omega) (by omega) (by omega) (by omega) (by omega)).c3]) (fun i j k g0 g1 g2 g3 g4 g5 => by rw [(h i j k (by omega) (by omega) (by omega) (by omega) (by omega) (by omega)).c6, (h i j (k + 1) (by omega) (by omega) (by omega) (by omega) (by omega) (by omega)).c5])

theorem coef_pos3 {i0 j0 k0 i1 j1 k1 : Int} {alpha beta : T} {dx : Nat → T} {A B0 B1 B2 S : List Int → T} (he : Elliptic3 i0 j0 k0 i1 j1 k1 alpha beta dx A B0 B1 B2)
    (h : ∀ i j k, i0 ≤ i → i ≤ i1 → j0 ≤ j → j ≤ j1 → k0 ≤ k → k ≤ k1 → Coef3 alpha beta dx A B0 B1 B2 S i j k) :
    (∀ p, InBounds [(i0, i1), (j0, j1), (k0, k1)] p → 0 < S (0 :: p)) ∧ ∀ p, InBounds [(i0, i1), (j0, j1), (k0, k1)] p → sum 1 (7 - 1) (fun s => |S (s :: p)|) ≤ S (0 :: p) := by
  refine ⟨fun p hp => ?_, fun p hp => ?_⟩ <;> (rw [inBounds3] at hp; obtain ⟨i, j, k, rfl, hp⟩ := hp)
  · exact ((h i j k (by omega) (by omega) (by omega) (by omega) (by omega) (by omega)).sign he (by omega) (by omega) (by omega) (by omega) (by omega) (by omega)).1
  · obtain ⟨g0, g1, g2, g3, g4, g5, g6⟩ := (h i j k (by omega) (by omega) (by omega) (by omega) (by omega) (by omega)).sign he (by omega) (by omega) (by omega) (by omega) (by omega) (by omega)
    rw [ring3, abs_of_neg g1, abs_of_neg g2, abs_of_neg g3, abs_of_neg g4, abs_of_neg g5, abs_of_neg g6]
    have a := he.cell i j k (by omega) (by omega) (by omega) (by omega) (by omega) (by omega)
    have c := (h i j k (by omega) (by omega) (by omega) (by omega) (by omega) (by omega)).c0
    linarith

end Verif.F

namespace Verif

theorem ex_sym1 : F.Symmetric [(1, 5)] 3 exO1 exSC := by
  have h : F.Symmetric [(1, 5)] 3 (F.row F.points1) exSC := F.sym1 (by simp [exSC])
  exact h

theorem ex_alone1 : F.Alone 1 3 exO1 := fun s h1 h2 => by
  interval_cases s <;> decide

theorem ex_pos1 : ∀ p, F.InBounds [(1, 5)] p → 0 < exSC (0 :: p) := fun p _ => by norm_num [exSC]

theorem ex_weak1 : ∀ p, F.InBounds [(1, 5)] p → F.sum 1 (3 - 1) (fun s => |exSC (s :: p)|) ≤ exSC (0 :: p) := fun p hp => by
  change F.sum 1 (3 - 1) (fun s => |if s = 0 then (10 : Rat) else -1|) ≤ 10
  decide +kernel

theorem ex_solved1 : F.Solved [(1, 5)] 3 exO1 exSC (fun _ => 8) exX (exUC [(1, 5)]) := ⟨ex_eqn1, ex_out1⟩

theorem ex_sym2 : F.Symmetric [(1, 5), (2, 6)] 5 exO2 exSC := by
  have h : F.Symmetric [(1, 5), (2, 6)] 5 (F.row F.points2) exSC := F.sym2 (by simp [exSC]) (by simp [exSC])
  exact h

theorem ex_alone2 : F.Alone 2 5 exO2 := fun s h1 h2 => by
  interval_cases s <;> decide

theorem ex_pos2 : ∀ p, F.InBounds [(1, 5), (2, 6)] p → 0 < exSC (0 :: p) := fun p _ => by norm_num [exSC]

theorem ex_weak2 : ∀ p, F.InBounds [(1, 5), (2, 6)] p → F.sum 1 (5 - 1) (fun s => |exSC (s :: p)|) ≤ exSC (0 :: p) := fun p hp => by
  change F.sum 1 (5 - 1) (fun s => |if s = 0 then (10 : Rat) else -1|) ≤ 10
  decide +kernel

theorem ex_solved2 : F.Solved [(1, 5), (2, 6)] 5 exO2 exSC (fun _ => 6) exX (exUC [(1, 5), (2, 6)]) := ⟨ex_eqn2, ex_out2⟩

theorem ex_sym3 : F.Symmetric [(1, 5), (2, 6), (1, 4)] 7 exO3 exSC := by
  have h : F.Symmetric [(1, 5), (2, 6), (1, 4)] 7 (F.row F.points3) exSC := F.sym3 (by simp [exSC]) (by simp [exSC]) (by simp [exSC])
  exact h

theorem ex_alone3 : F.Alone 3 7 exO3 := fun s h1 h2 => by
  interval_cases s <;> decide

theorem ex_pos3 : ∀ p, F.InBounds [(1, 5), (2, 6), (1, 4)] p → 0 < exSC (0 :: p) := fun p _ => by norm_num [exSC]

theorem ex_weak3 : ∀ p, F.InBounds [(1, 5), (2, 6), (1, 4)] p → F.sum 1 (7 - 1) (fun s => |exSC (s :: p)|) ≤ exSC (0 :: p) := fun p hp => by
  change F.sum 1 (7 - 1) (fun s => |if s = 0 then (10 : Rat) else -1|) ≤ 10
  decide +kernel

theorem ex_solved3 : F.Solved [(1, 5), (2, 6), (1, 4)] 7 exO3 exSC (fun _ => 4) exX (exUC [(1, 5), (2, 6), (1, 4)]) := ⟨ex_eqn3, ex_out3⟩

end Verif
