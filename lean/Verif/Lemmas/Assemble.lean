import Verif.Lemmas.EnergyRun
import Verif.Lemmas.SmoothConv
import Verif.Props.Stencil
import Mathlib.Tactic.LinearCombination

/-
The coefficients assembled by the stencil kernels, as coefficients for the smoothers.
-/

set_option linter.unusedVariables false
set_option linter.unusedSectionVars false
set_option linter.unusedSimpArgs false
set_option linter.unusedTactic false
set_option linter.unreachableTactic false

namespace Verif.F

section
variable {T : Type} [Field T]

theorem Kept.only {outs : List Arr} {m m' : Mem T} (h : Kept outs m m') : Only outs m m' where
  ints := h.ints
  val q hq := by
    obtain ⟨qb, qo⟩ := q
    have := h.el ⟨⟨qb, qo⟩, []⟩ (fun o ho is js hi _ e => hq o ho is hi (by simpa [colMajor, Ptr.add, Arr.addr] using e)) [] trivial
    simpa [Arr.addrT, colMajor, Ptr.add] using this

theorem rows_table {m : Mem T} {tab : Arr} {rows : List (List Int)} {N : Nat} {n s : Int} (h : Rows m tab rows) (hn : n = rows.length) (hl : ∀ r ∈ rows, r.length = N)
    (h0 : 0 ≤ s) (h1 : s < n) : (row rows s).length = N ∧ ∀ c : Nat, ∀ z, (row rows s)[c]? = some z → IntEl m tab [(c : Int), s] z := by
  obtain ⟨k, rfl⟩ := Int.eq_ofNat_of_zero_le h0
  have hk : k < rows.length := by omega
  have e : row rows (k : Int) = rows[k] := by simp [row, hk]
  rw [e]
  exact ⟨hl _ (List.getElem_mem hk), fun c z hz => h k c _ z (List.getElem?_eq_getElem hk) hz⟩

theorem Rows.only {m m1 : Mem T} {tab : Arr} {rows : List (List Int)} {as : List Arr} (h : Rows m tab rows) (ho : Only as m m1) : Rows m1 tab rows :=
  fun s c r z h1 h2 => ⟨(h s c r z h1 h2).1, by rw [ho.ints]; exact (h s c r z h1 h2).2⟩

/-- the coefficients of the operator in a cell, 1D -/
structure Coef1 (alpha beta : T) (dx : Nat → T) (A B0 S : List Int → T) (i : Int) : Prop where
  c0 : S [0, i] = -(S [1, i] + S [2, i]) + alpha * A [i]
  c1 : S [1, i] = -(beta / (dx 0 * dx 0)) * B0 [i]
  c2 : S [2, i] = -(beta / (dx 0 * dx 0)) * B0 [i + 1]

/-- the coefficients of the operator in a cell, 2D -/
structure Coef2 (alpha beta : T) (dx : Nat → T) (A B0 B1 S : List Int → T) (i j : Int) : Prop where
  c0 : S [0, i, j] = -(S [1, i, j] + S [2, i, j] + S [3, i, j] + S [4, i, j]) + alpha * A [i, j]
  c1 : S [1, i, j] = -(beta / (dx 0 * dx 0)) * B0 [i, j]
  c2 : S [2, i, j] = -(beta / (dx 0 * dx 0)) * B0 [i + 1, j]
  c3 : S [3, i, j] = -(beta / (dx 1 * dx 1)) * B1 [j, i]
  c4 : S [4, i, j] = -(beta / (dx 1 * dx 1)) * B1 [j + 1, i]

/-- the coefficients of the operator in a cell, 3D -/
structure Coef3 (alpha beta : T) (dx : Nat → T) (A B0 B1 B2 S : List Int → T) (i j k : Int) : Prop where
  c0 : S [0, i, j, k] = -(S [1, i, j, k] + S [2, i, j, k] + S [3, i, j, k] + S [4, i, j, k] + S [5, i, j, k] + S [6, i, j, k]) + alpha * A [i, j, k]
  c1 : S [1, i, j, k] = -(beta / (dx 0 * dx 0)) * B0 [i, j, k]
  c2 : S [2, i, j, k] = -(beta / (dx 0 * dx 0)) * B0 [i + 1, j, k]
  c3 : S [3, i, j, k] = -(beta / (dx 1 * dx 1)) * B1 [j, k, i]
  c4 : S [4, i, j, k] = -(beta / (dx 1 * dx 1)) * B1 [j + 1, k, i]
  c5 : S [5, i, j, k] = -(beta / (dx 2 * dx 2)) * B2 [k, i, j]
  c6 : S [6, i, j, k] = -(beta / (dx 2 * dx 2)) * B2 [k + 1, i, j]

theorem star1 {f : Int → T} : sum 0 (3 - 1) f = f 0 + f 1 + f 2 := by
  have : irange 0 (3 - 1) = [0, 1, 2] := rfl
  unfold sum
  rw [this]
  simp only [List.map_cons, List.map_nil, List.sum_cons, List.sum_nil]
  ring

theorem ring1 {f : Int → T} : sum 1 (3 - 1) f = f 1 + f 2 := by
  have : irange 1 (3 - 1) = [1, 2] := rfl
  unfold sum
  rw [this]
  simp only [List.map_cons, List.map_nil, List.sum_cons, List.sum_nil]
  ring

theorem shift1_0 {i : Int} : shift [i] (row points1 0) = [i] := by
  simp [shift, row, points1, Int.sub_eq_add_neg]

theorem shift1_1 {i : Int} : shift [i] (row points1 1) = [i - 1] := by
  simp [shift, row, points1, Int.sub_eq_add_neg]

theorem shift1_2 {i : Int} : shift [i] (row points1 2) = [i + 1] := by
  simp [shift, row, points1, Int.sub_eq_add_neg]

theorem eqn1 {alpha beta : T} {dx : Nat → T} {A B0 S G X : List Int → T} {i : Int} (h : Coef1 alpha beta dx A B0 S i) :
    Eqn 3 (row points1) S G X [i] ↔ op1 alpha beta dx A B0 X i = G [i] := by
  unfold Eqn
  rw [star1, shift1_0, shift1_1, shift1_2, h.c0, h.c1, h.c2]
  unfold op1
  have e : ∀ a b c : T, a = b → (a = c ↔ b = c) := fun a b c h => by rw [h]
  refine e _ _ _ ?_
  simp only [div_eq_mul_inv, mul_inv]
  ring

theorem star2 {f : Int → T} : sum 0 (5 - 1) f = f 0 + f 1 + f 2 + f 3 + f 4 := by
  have : irange 0 (5 - 1) = [0, 1, 2, 3, 4] := rfl
  unfold sum
  rw [this]
  simp only [List.map_cons, List.map_nil, List.sum_cons, List.sum_nil]
  ring

theorem ring2 {f : Int → T} : sum 1 (5 - 1) f = f 1 + f 2 + f 3 + f 4 := by
  have : irange 1 (5 - 1) = [1, 2, 3, 4] := rfl
  unfold sum
  rw [this]
  simp only [List.map_cons, List.map_nil, List.sum_cons, List.sum_nil]
  ring

theorem shift2_0 {i j : Int} : shift [i, j] (row points2 0) = [i, j] := by
  simp [shift, row, points2, Int.sub_eq_add_neg]

theorem shift2_1 {i j : Int} : shift [i, j] (row points2 1) = [i - 1, j] := by
  simp [shift, row, points2, Int.sub_eq_add_neg]

theorem shift2_2 {i j : Int} : shift [i, j] (row points2 2) = [i + 1, j] := by
  simp [shift, row, points2, Int.sub_eq_add_neg]

theorem shift2_3 {i j : Int} : shift [i, j] (row points2 3) = [i, j - 1] := by
  simp [shift, row, points2, Int.sub_eq_add_neg]

theorem shift2_4 {i j : Int} : shift [i, j] (row points2 4) = [i, j + 1] := by
  simp [shift, row, points2, Int.sub_eq_add_neg]

theorem eqn2 {alpha beta : T} {dx : Nat → T} {A B0 B1 S G X : List Int → T} {i j : Int} (h : Coef2 alpha beta dx A B0 B1 S i j) :
    Eqn 5 (row points2) S G X [i, j] ↔ op2 alpha beta dx A B0 B1 X i j = G [i, j] := by
  unfold Eqn
  rw [star2, shift2_0, shift2_1, shift2_2, shift2_3, shift2_4, h.c0, h.c1, h.c2, h.c3, h.c4]
  unfold op2
  have e : ∀ a b c : T, a = b → (a = c ↔ b = c) := fun a b c h => by rw [h]
  refine e _ _ _ ?_
  simp only [div_eq_mul_inv, mul_inv]
  ring

theorem star3 {f : Int → T} : sum 0 (7 - 1) f = f 0 + f 1 + f 2 + f 3 + f 4 + f 5 + f 6 := by
  have : irange 0 (7 - 1) = [0, 1, 2, 3, 4, 5, 6] := rfl
  unfold sum
  rw [this]
  simp only [List.map_cons, List.map_nil, List.sum_cons, List.sum_nil]
  ring

theorem ring3 {f : Int → T} : sum 1 (7 - 1) f = f 1 + f 2 + f 3 + f 4 + f 5 + f 6 := by
  have : irange 1 (7 - 1) = [1, 2, 3, 4, 5, 6] := rfl
  unfold sum
  rw [this]
  simp only [List.map_cons, List.map_nil, List.sum_cons, List.sum_nil]
  ring

theorem shift3_0 {i j k : Int} : shift [i, j, k] (row points3 0) = [i, j, k] := by
  simp [shift, row, points3, Int.sub_eq_add_neg]

theorem shift3_1 {i j k : Int} : shift [i, j, k] (row points3 1) = [i - 1, j, k] := by
  simp [shift, row, points3, Int.sub_eq_add_neg]

theorem shift3_2 {i j k : Int} : shift [i, j, k] (row points3 2) = [i + 1, j, k] := by
  simp [shift, row, points3, Int.sub_eq_add_neg]

theorem shift3_3 {i j k : Int} : shift [i, j, k] (row points3 3) = [i, j - 1, k] := by
  simp [shift, row, points3, Int.sub_eq_add_neg]

theorem shift3_4 {i j k : Int} : shift [i, j, k] (row points3 4) = [i, j + 1, k] := by
  simp [shift, row, points3, Int.sub_eq_add_neg]

theorem shift3_5 {i j k : Int} : shift [i, j, k] (row points3 5) = [i, j, k - 1] := by
  simp [shift, row, points3, Int.sub_eq_add_neg]

theorem shift3_6 {i j k : Int} : shift [i, j, k] (row points3 6) = [i, j, k + 1] := by
  simp [shift, row, points3, Int.sub_eq_add_neg]

theorem eqn3 {alpha beta : T} {dx : Nat → T} {A B0 B1 B2 S G X : List Int → T} {i j k : Int} (h : Coef3 alpha beta dx A B0 B1 B2 S i j k) :
    Eqn 7 (row points3) S G X [i, j, k] ↔ op3 alpha beta dx A B0 B1 B2 X i j k = G [i, j, k] := by
  unfold Eqn
  rw [star3, shift3_0, shift3_1, shift3_2, shift3_3, shift3_4, shift3_5, shift3_6, h.c0, h.c1, h.c2, h.c3, h.c4, h.c5, h.c6]
  unfold op3
  have e : ∀ a b c : T, a = b → (a = c ↔ b = c) := fun a b c h => by rw [h]
  refine e _ _ _ ?_
  simp only [div_eq_mul_inv, mul_inv]
  ring

end

section
variable {T : Type} [Field T] [LinearOrder T] [IsStrictOrderedRing T]

theorem Coef1.sign {i0 i1 : Int} {alpha beta : T} {dx : Nat → T} {A B0 S : List Int → T} (he : Elliptic1 i0 i1 alpha beta dx A B0) {i : Int}
    (h0 : i0 ≤ i) (h1 : i ≤ i1) (h : Coef1 alpha beta dx A B0 S i) :
    0 < S [0, i] ∧ S [1, i] < 0 ∧ S [2, i] < 0 := by
  have d0 : 0 < beta / (dx 0 * dx 0) := div_pos he.beta (mul_self_pos.2 he.dx0)
  have p1 : S [1, i] < 0 := by
    rw [h.c1, neg_mul]
    exact neg_lt_zero.2 (mul_pos d0 (he.face0 i (by omega) (by omega)))
  have p2 : S [2, i] < 0 := by
    rw [h.c2, neg_mul]
    exact neg_lt_zero.2 (mul_pos d0 (he.face0 (i + 1) (by omega) (by omega)))
  have a := he.cell i h0 h1
  exact ⟨by rw [h.c0]; linarith, p1, p2⟩

theorem dom1 {i0 i1 : Int} {alpha beta q : T} {dx : Nat → T} {A B0 S : List Int → T} (he : Elliptic1 i0 i1 alpha beta dx A B0)
    (h : ∀ i, i0 ≤ i → i ≤ i1 → Coef1 alpha beta dx A B0 S i)
    (hq : ∀ i, i0 ≤ i → i ≤ i1 → (1 - q) * (beta / (dx 0 * dx 0) * (B0 [i] + B0 [i + 1]) + alpha * A [i]) ≤ alpha * A [i]) :
    Dominant [(i0, i1)] 3 (row points1) q (fun _ => 1) S := by
  have sg : ∀ i, i0 ≤ i → i ≤ i1 → _ := fun i h0 h1 => (h i h0 h1).sign he h0 h1
  refine ⟨fun p hp => ?_, fun _ _ => one_pos, fun _ => zero_le_one, fun p hp => ?_⟩
  · rw [inBounds1] at hp
    obtain ⟨i, rfl, hp⟩ := hp
    exact (sg i (by omega) (by omega)).1.ne'
  · rw [inBounds1] at hp
    obtain ⟨i, rfl, hp⟩ := hp
    obtain ⟨g0, g1, g2⟩ := sg i (by omega) (by omega)
    have c := h i (by omega) (by omega)
    have kq := hq i (by omega) (by omega)
    simp only [mul_one]
    rw [ring1, abs_of_pos g0, abs_of_neg g1, abs_of_neg g2]
    have e0 : S [0, i] = beta / (dx 0 * dx 0) * (B0 [i] + B0 [i + 1]) + alpha * A [i] := by
      rw [c.c0, c.c1, c.c2]
      ring
    rw [← e0] at kq
    have e1 := c.c0
    linarith

/-- weights for the Poisson operator, 1D -/
def hill1 (i0 i1 : Int) : List Int → Int
  | [i] => max ((i - i0 + 1) * (i1 + 1 - i)) 0
  | _ => 0

theorem hill1_in {i0 i1 i : Int} (h0 : i0 - 1 ≤ i) (h1 : i ≤ i1 + 1) : hill1 i0 i1 [i] = (i - i0 + 1) * (i1 + 1 - i) := by
  refine max_eq_left ?_
  have m0 : 0 ≤ (i - i0 + 1) * (i1 + 1 - i) := mul_nonneg (by omega) (by omega)
  omega

theorem hill1_ge {i0 i1 i : Int} (h0 : i0 ≤ i) (h1 : i ≤ i1) : 1 ≤ hill1 i0 i1 [i] := by
  rw [hill1_in (by omega) (by omega)]
  have m0 : 0 < (i - i0 + 1) * (i1 + 1 - i) := mul_pos (by omega) (by omega)
  omega

theorem hill1_le {i0 i1 i : Int} (h0 : i0 ≤ i) (h1 : i ≤ i1) : 4 * hill1 i0 i1 [i] ≤ (i1 - i0 + 2) * (i1 - i0 + 2) := by
  rw [hill1_in (by omega) (by omega)]
  have m0 := mul_self_nonneg ((i - i0 + 1) - (i1 + 1 - i))
  nlinarith

theorem domp1 {i0 i1 : Int} {beta : T} {dx : Nat → T} {S : List Int → T} (he : Elliptic1 i0 i1 0 beta dx (fun _ => 1) (fun _ => 1))
    (h : ∀ i, i0 ≤ i → i ≤ i1 → Coef1 0 beta dx (fun _ => 1) (fun _ => 1) S i) (hi : i0 ≤ i1) :
    Dominant [(i0, i1)] 3 (row points1) (1 - 4 / (((i1 - i0 + 2) * (i1 - i0 + 2) : Int) : T)) (fun p => (hill1 i0 i1 p : T)) S := by
  have sg : ∀ i, i0 ≤ i → i ≤ i1 → _ := fun i h0 h1 => (h i h0 h1).sign he h0 h1
  refine ⟨fun p hp => ?_, fun p hp => ?_, fun p => ?_, fun p hp => ?_⟩
  · rw [inBounds1] at hp
    obtain ⟨i, rfl, hp⟩ := hp
    exact (sg i (by omega) (by omega)).1.ne'
  · rw [inBounds1] at hp
    obtain ⟨i, rfl, hp⟩ := hp
    exact_mod_cast lt_of_lt_of_le one_pos (hill1_ge (i0 := i0) (by omega) (by omega))
  · have : 0 ≤ hill1 i0 i1 p := by
      unfold hill1
      split
      · exact le_max_right _ _
      · exact le_rfl
    exact_mod_cast this
  · rw [inBounds1] at hp
    obtain ⟨i, rfl, hp⟩ := hp
    obtain ⟨g0, g1, g2⟩ := sg i (by omega) (by omega)
    have c := h i (by omega) (by omega)
    rw [ring1, abs_of_pos g0, abs_of_neg g1, abs_of_neg g2, shift1_1, shift1_2]
    have t1 := hill1_ge (i0 := i0) (i1 := i1) (i := i) (by omega) (by omega)
    have t2 := hill1_le (i0 := i0) (i1 := i1) (i := i) (by omega) (by omega)
    have w0 : hill1 i0 i1 [i - 1] + hill1 i0 i1 [i + 1] = 2 * hill1 i0 i1 [i] - 2 := by
      rw [hill1_in (by omega) (by omega), hill1_in (by omega) (by omega), hill1_in (by omega) (by omega)]
      ring
    have w0 : (hill1 i0 i1 [i - 1] : T) + hill1 i0 i1 [i + 1] = 2 * hill1 i0 i1 [i] - 2 := by exact_mod_cast w0
    generalize hK : ((i1 - i0 + 2) * (i1 - i0 + 2)) = K at t2 ⊢
    generalize hill1 i0 i1 [i] = t at *
    generalize (hill1 i0 i1 [i - 1] : T) = x1 at *
    generalize (hill1 i0 i1 [i + 1] : T) = x2 at *
    have k1 : (1 : T) ≤ t := by exact_mod_cast t1
    have k2 : 4 * (t : T) ≤ K := by exact_mod_cast t2
    have k3 : (0 : T) < K := by linarith
    have k4 : 4 / (K : T) * t ≤ 1 := by
      rw [div_mul_eq_mul_div, div_le_one k3]
      exact k2
    have e1 := c.c0
    have f1 := c.c1
    have f2 := c.c2
    simp only [mul_one, add_zero] at e1 f1 f2
    rw [e1, f1, f2]
    have y0 : 0 < beta / (dx 0 * dx 0) := div_pos he.beta (mul_self_pos.2 he.dx0)
    generalize beta / (dx 0 * dx 0) = z0 at *
    have l : - -z0 * x1 + - -z0 * x2 = (z0) * (2 * t - 2) := by
      linear_combination z0 * w0
    have r : (z0) * (2 * t - 2) ≤ (1 - 4 / (K : T)) * ((z0) * (2 * t)) := by
      have y : 0 < z0 := by linarith
      have := mul_le_mul_of_nonneg_left k4 y.le
      linarith
    refine le_trans (le_of_eq l) (le_trans r (le_of_eq ?_))
    ring

theorem Coef2.sign {i0 j0 i1 j1 : Int} {alpha beta : T} {dx : Nat → T} {A B0 B1 S : List Int → T} (he : Elliptic2 i0 j0 i1 j1 alpha beta dx A B0 B1) {i j : Int}
    (h0 : i0 ≤ i) (h1 : i ≤ i1) (h2 : j0 ≤ j) (h3 : j ≤ j1) (h : Coef2 alpha beta dx A B0 B1 S i j) :
    0 < S [0, i, j] ∧ S [1, i, j] < 0 ∧ S [2, i, j] < 0 ∧ S [3, i, j] < 0 ∧ S [4, i, j] < 0 := by
  have d0 : 0 < beta / (dx 0 * dx 0) := div_pos he.beta (mul_self_pos.2 he.dx0)
  have d1 : 0 < beta / (dx 1 * dx 1) := div_pos he.beta (mul_self_pos.2 he.dx1)
  have p1 : S [1, i, j] < 0 := by
    rw [h.c1, neg_mul]
    exact neg_lt_zero.2 (mul_pos d0 (he.face0 i j (by omega) (by omega) (by omega) (by omega)))
  have p2 : S [2, i, j] < 0 := by
    rw [h.c2, neg_mul]
    exact neg_lt_zero.2 (mul_pos d0 (he.face0 (i + 1) j (by omega) (by omega) (by omega) (by omega)))
  have p3 : S [3, i, j] < 0 := by
    rw [h.c3, neg_mul]
    exact neg_lt_zero.2 (mul_pos d1 (he.face1 i j (by omega) (by omega) (by omega) (by omega)))
  have p4 : S [4, i, j] < 0 := by
    rw [h.c4, neg_mul]
    exact neg_lt_zero.2 (mul_pos d1 (he.face1 i (j + 1) (by omega) (by omega) (by omega) (by omega)))
  have a := he.cell i j h0 h1 h2 h3
  exact ⟨by rw [h.c0]; linarith, p1, p2, p3, p4⟩

theorem dom2 {i0 j0 i1 j1 : Int} {alpha beta q : T} {dx : Nat → T} {A B0 B1 S : List Int → T} (he : Elliptic2 i0 j0 i1 j1 alpha beta dx A B0 B1)
    (h : ∀ i j, i0 ≤ i → i ≤ i1 → j0 ≤ j → j ≤ j1 → Coef2 alpha beta dx A B0 B1 S i j)
    (hq : ∀ i j, i0 ≤ i → i ≤ i1 → j0 ≤ j → j ≤ j1 → (1 - q) * (beta / (dx 0 * dx 0) * (B0 [i, j] + B0 [i + 1, j]) + beta / (dx 1 * dx 1) * (B1 [j, i] + B1 [j + 1, i]) + alpha * A [i, j]) ≤ alpha * A [i, j]) :
    Dominant [(i0, i1), (j0, j1)] 5 (row points2) q (fun _ => 1) S := by
  have sg : ∀ i j, i0 ≤ i → i ≤ i1 → j0 ≤ j → j ≤ j1 → _ := fun i j h0 h1 h2 h3 => (h i j h0 h1 h2 h3).sign he h0 h1 h2 h3
  refine ⟨fun p hp => ?_, fun _ _ => one_pos, fun _ => zero_le_one, fun p hp => ?_⟩
  · rw [inBounds2] at hp
    obtain ⟨i, j, rfl, hp⟩ := hp
    exact (sg i j (by omega) (by omega) (by omega) (by omega)).1.ne'
  · rw [inBounds2] at hp
    obtain ⟨i, j, rfl, hp⟩ := hp
    obtain ⟨g0, g1, g2, g3, g4⟩ := sg i j (by omega) (by omega) (by omega) (by omega)
    have c := h i j (by omega) (by omega) (by omega) (by omega)
    have kq := hq i j (by omega) (by omega) (by omega) (by omega)
    simp only [mul_one]
    rw [ring2, abs_of_pos g0, abs_of_neg g1, abs_of_neg g2, abs_of_neg g3, abs_of_neg g4]
    have e0 : S [0, i, j] = beta / (dx 0 * dx 0) * (B0 [i, j] + B0 [i + 1, j]) + beta / (dx 1 * dx 1) * (B1 [j, i] + B1 [j + 1, i]) + alpha * A [i, j] := by
      rw [c.c0, c.c1, c.c2, c.c3, c.c4]
      ring
    rw [← e0] at kq
    have e1 := c.c0
    linarith

/-- weights for the Poisson operator, 2D -/
def hill2 (i0 j0 i1 j1 : Int) : List Int → Int
  | [i, j] => max ((i - i0 + 1) * (i1 + 1 - i) + (j - j0 + 1) * (j1 + 1 - j)) 0
  | _ => 0

theorem hill2_in {i0 j0 i1 j1 i j : Int} (h0 : i0 - 1 ≤ i) (h1 : i ≤ i1 + 1) (h2 : j0 - 1 ≤ j) (h3 : j ≤ j1 + 1) : hill2 i0 j0 i1 j1 [i, j] = (i - i0 + 1) * (i1 + 1 - i) + (j - j0 + 1) * (j1 + 1 - j) := by
  refine max_eq_left ?_
  have m0 : 0 ≤ (i - i0 + 1) * (i1 + 1 - i) := mul_nonneg (by omega) (by omega)
  have m1 : 0 ≤ (j - j0 + 1) * (j1 + 1 - j) := mul_nonneg (by omega) (by omega)
  omega

theorem hill2_ge {i0 j0 i1 j1 i j : Int} (h0 : i0 ≤ i) (h1 : i ≤ i1) (h2 : j0 ≤ j) (h3 : j ≤ j1) : 1 ≤ hill2 i0 j0 i1 j1 [i, j] := by
  rw [hill2_in (by omega) (by omega) (by omega) (by omega)]
  have m0 : 0 < (i - i0 + 1) * (i1 + 1 - i) := mul_pos (by omega) (by omega)
  have m1 : 0 < (j - j0 + 1) * (j1 + 1 - j) := mul_pos (by omega) (by omega)
  omega

theorem hill2_le {i0 j0 i1 j1 i j : Int} (h0 : i0 ≤ i) (h1 : i ≤ i1) (h2 : j0 ≤ j) (h3 : j ≤ j1) : 4 * hill2 i0 j0 i1 j1 [i, j] ≤ (i1 - i0 + 2) * (i1 - i0 + 2) + (j1 - j0 + 2) * (j1 - j0 + 2) := by
  rw [hill2_in (by omega) (by omega) (by omega) (by omega)]
  have m0 := mul_self_nonneg ((i - i0 + 1) - (i1 + 1 - i))
  have m1 := mul_self_nonneg ((j - j0 + 1) - (j1 + 1 - j))
  nlinarith

theorem domp2 {i0 j0 i1 j1 : Int} {beta : T} {dx : Nat → T} {S : List Int → T} (he : Elliptic2 i0 j0 i1 j1 0 beta dx (fun _ => 1) (fun _ => 1) (fun _ => 1))
    (h : ∀ i j, i0 ≤ i → i ≤ i1 → j0 ≤ j → j ≤ j1 → Coef2 0 beta dx (fun _ => 1) (fun _ => 1) (fun _ => 1) S i j) (hi : i0 ≤ i1) (hj : j0 ≤ j1) :
    Dominant [(i0, i1), (j0, j1)] 5 (row points2) (1 - 4 / (((i1 - i0 + 2) * (i1 - i0 + 2) + (j1 - j0 + 2) * (j1 - j0 + 2) : Int) : T)) (fun p => (hill2 i0 j0 i1 j1 p : T)) S := by
  have sg : ∀ i j, i0 ≤ i → i ≤ i1 → j0 ≤ j → j ≤ j1 → _ := fun i j h0 h1 h2 h3 => (h i j h0 h1 h2 h3).sign he h0 h1 h2 h3
  refine ⟨fun p hp => ?_, fun p hp => ?_, fun p => ?_, fun p hp => ?_⟩
  · rw [inBounds2] at hp
    obtain ⟨i, j, rfl, hp⟩ := hp
    exact (sg i j (by omega) (by omega) (by omega) (by omega)).1.ne'
  · rw [inBounds2] at hp
    obtain ⟨i, j, rfl, hp⟩ := hp
    exact_mod_cast lt_of_lt_of_le one_pos (hill2_ge (i0 := i0) (by omega) (by omega) (by omega) (by omega))
  · have : 0 ≤ hill2 i0 j0 i1 j1 p := by
      unfold hill2
      split
      · exact le_max_right _ _
      · exact le_rfl
    exact_mod_cast this
  · rw [inBounds2] at hp
    obtain ⟨i, j, rfl, hp⟩ := hp
    obtain ⟨g0, g1, g2, g3, g4⟩ := sg i j (by omega) (by omega) (by omega) (by omega)
    have c := h i j (by omega) (by omega) (by omega) (by omega)
    rw [ring2, abs_of_pos g0, abs_of_neg g1, abs_of_neg g2, abs_of_neg g3, abs_of_neg g4, shift2_1, shift2_2, shift2_3, shift2_4]
    have t1 := hill2_ge (i0 := i0) (j0 := j0) (i1 := i1) (j1 := j1) (i := i) (j := j) (by omega) (by omega) (by omega) (by omega)
    have t2 := hill2_le (i0 := i0) (j0 := j0) (i1 := i1) (j1 := j1) (i := i) (j := j) (by omega) (by omega) (by omega) (by omega)
    have w0 : hill2 i0 j0 i1 j1 [i - 1, j] + hill2 i0 j0 i1 j1 [i + 1, j] = 2 * hill2 i0 j0 i1 j1 [i, j] - 2 := by
      rw [hill2_in (by omega) (by omega) (by omega) (by omega), hill2_in (by omega) (by omega) (by omega) (by omega), hill2_in (by omega) (by omega) (by omega) (by omega)]
      ring
    have w0 : (hill2 i0 j0 i1 j1 [i - 1, j] : T) + hill2 i0 j0 i1 j1 [i + 1, j] = 2 * hill2 i0 j0 i1 j1 [i, j] - 2 := by exact_mod_cast w0
    have w1 : hill2 i0 j0 i1 j1 [i, j - 1] + hill2 i0 j0 i1 j1 [i, j + 1] = 2 * hill2 i0 j0 i1 j1 [i, j] - 2 := by
      rw [hill2_in (by omega) (by omega) (by omega) (by omega), hill2_in (by omega) (by omega) (by omega) (by omega), hill2_in (by omega) (by omega) (by omega) (by omega)]
      ring
    have w1 : (hill2 i0 j0 i1 j1 [i, j - 1] : T) + hill2 i0 j0 i1 j1 [i, j + 1] = 2 * hill2 i0 j0 i1 j1 [i, j] - 2 := by exact_mod_cast w1
    generalize hK : ((i1 - i0 + 2) * (i1 - i0 + 2) + (j1 - j0 + 2) * (j1 - j0 + 2)) = K at t2 ⊢
    generalize hill2 i0 j0 i1 j1 [i, j] = t at *
    generalize (hill2 i0 j0 i1 j1 [i - 1, j] : T) = x1 at *
    generalize (hill2 i0 j0 i1 j1 [i + 1, j] : T) = x2 at *
    generalize (hill2 i0 j0 i1 j1 [i, j - 1] : T) = x3 at *
    generalize (hill2 i0 j0 i1 j1 [i, j + 1] : T) = x4 at *
    have k1 : (1 : T) ≤ t := by exact_mod_cast t1
    have k2 : 4 * (t : T) ≤ K := by exact_mod_cast t2
    have k3 : (0 : T) < K := by linarith
    have k4 : 4 / (K : T) * t ≤ 1 := by
      rw [div_mul_eq_mul_div, div_le_one k3]
      exact k2
    have e1 := c.c0
    have f1 := c.c1
    have f2 := c.c2
    have f3 := c.c3
    have f4 := c.c4
    simp only [mul_one, add_zero] at e1 f1 f2 f3 f4
    rw [e1, f1, f2, f3, f4]
    have y0 : 0 < beta / (dx 0 * dx 0) := div_pos he.beta (mul_self_pos.2 he.dx0)
    generalize beta / (dx 0 * dx 0) = z0 at *
    have y1 : 0 < beta / (dx 1 * dx 1) := div_pos he.beta (mul_self_pos.2 he.dx1)
    generalize beta / (dx 1 * dx 1) = z1 at *
    have l : - -z0 * x1 + - -z0 * x2 + - -z1 * x3 + - -z1 * x4 = (z0 + z1) * (2 * t - 2) := by
      linear_combination z0 * w0 + z1 * w1
    have r : (z0 + z1) * (2 * t - 2) ≤ (1 - 4 / (K : T)) * ((z0 + z1) * (2 * t)) := by
      have y : 0 < z0 + z1 := by linarith
      have := mul_le_mul_of_nonneg_left k4 y.le
      linarith
    refine le_trans (le_of_eq l) (le_trans r (le_of_eq ?_))
    ring

theorem Coef3.sign {i0 j0 k0 i1 j1 k1 : Int} {alpha beta : T} {dx : Nat → T} {A B0 B1 B2 S : List Int → T} (he : Elliptic3 i0 j0 k0 i1 j1 k1 alpha beta dx A B0 B1 B2) {i j k : Int}
    (h0 : i0 ≤ i) (h1 : i ≤ i1) (h2 : j0 ≤ j) (h3 : j ≤ j1) (h4 : k0 ≤ k) (h5 : k ≤ k1) (h : Coef3 alpha beta dx A B0 B1 B2 S i j k) :
    0 < S [0, i, j, k] ∧ S [1, i, j, k] < 0 ∧ S [2, i, j, k] < 0 ∧ S [3, i, j, k] < 0 ∧ S [4, i, j, k] < 0 ∧ S [5, i, j, k] < 0 ∧ S [6, i, j, k] < 0 := by
  have d0 : 0 < beta / (dx 0 * dx 0) := div_pos he.beta (mul_self_pos.2 he.dx0)
  have d1 : 0 < beta / (dx 1 * dx 1) := div_pos he.beta (mul_self_pos.2 he.dx1)
  have d2 : 0 < beta / (dx 2 * dx 2) := div_pos he.beta (mul_self_pos.2 he.dx2)
  have p1 : S [1, i, j, k] < 0 := by
    rw [h.c1, neg_mul]
    exact neg_lt_zero.2 (mul_pos d0 (he.face0 i j k (by omega) (by omega) (by omega) (by omega) (by omega) (by omega)))
  have p2 : S [2, i, j, k] < 0 := by
    rw [h.c2, neg_mul]
    exact neg_lt_zero.2 (mul_pos d0 (he.face0 (i + 1) j k (by omega) (by omega) (by omega) (by omega) (by omega) (by omega)))
  have p3 : S [3, i, j, k] < 0 := by
    rw [h.c3, neg_mul]
    exact neg_lt_zero.2 (mul_pos d1 (he.face1 i j k (by omega) (by omega) (by omega) (by omega) (by omega) (by omega)))
  have p4 : S [4, i, j, k] < 0 := by
    rw [h.c4, neg_mul]
    exact neg_lt_zero.2 (mul_pos d1 (he.face1 i (j + 1) k (by omega) (by omega) (by omega) (by omega) (by omega) (by omega)))
  have p5 : S [5, i, j, k] < 0 := by
    rw [h.c5, neg_mul]
    exact neg_lt_zero.2 (mul_pos d2 (he.face2 i j k (by omega) (by omega) (by omega) (by omega) (by omega) (by omega)))
  have p6 : S [6, i, j, k] < 0 := by
    rw [h.c6, neg_mul]
    exact neg_lt_zero.2 (mul_pos d2 (he.face2 i j (k + 1) (by omega) (by omega) (by omega) (by omega) (by omega) (by omega)))
  have a := he.cell i j k h0 h1 h2 h3 h4 h5
  exact ⟨by rw [h.c0]; linarith, p1, p2, p3, p4, p5, p6⟩

theorem dom3 {i0 j0 k0 i1 j1 k1 : Int} {alpha beta q : T} {dx : Nat → T} {A B0 B1 B2 S : List Int → T} (he : Elliptic3 i0 j0 k0 i1 j1 k1 alpha beta dx A B0 B1 B2)
    (h : ∀ i j k, i0 ≤ i → i ≤ i1 → j0 ≤ j → j ≤ j1 → k0 ≤ k → k ≤ k1 → Coef3 alpha beta dx A B0 B1 B2 S i j k)
    (hq : ∀ i j k, i0 ≤ i → i ≤ i1 → j0 ≤ j → j ≤ j1 → k0 ≤ k → k ≤ k1 → (1 - q) * (beta / (dx 0 * dx 0) * (B0 [i, j, k] + B0 [i + 1, j, k]) + beta / (dx 1 * dx 1) * (B1 [j, k, i] + B1 [j + 1, k, i]) + beta / (dx 2 * dx 2) * (B2 [k, i, j] + B2 [k + 1, i, j]) + alpha * A [i, j, k]) ≤ alpha * A [i, j, k]) :
    Dominant [(i0, i1), (j0, j1), (k0, k1)] 7 (row points3) q (fun _ => 1) S := by
  have sg : ∀ i j k, i0 ≤ i → i ≤ i1 → j0 ≤ j → j ≤ j1 → k0 ≤ k → k ≤ k1 → _ := fun i j k h0 h1 h2 h3 h4 h5 => (h i j k h0 h1 h2 h3 h4 h5).sign he h0 h1 h2 h3 h4 h5
  refine ⟨fun p hp => ?_, fun _ _ => one_pos, fun _ => zero_le_one, fun p hp => ?_⟩
  · rw [inBounds3] at hp
    obtain ⟨i, j, k, rfl, hp⟩ := hp
    exact (sg i j k (by omega) (by omega) (by omega) (by omega) (by omega) (by omega)).1.ne'
  · rw [inBounds3] at hp
    obtain ⟨i, j, k, rfl, hp⟩ := hp
    obtain ⟨g0, g1, g2, g3, g4, g5, g6⟩ := sg i j k (by omega) (by omega) (by omega) (by omega) (by omega) (by omega)
    have c := h i j k (by omega) (by omega) (by omega) (by omega) (by omega) (by omega)
    have kq := hq i j k (by omega) (by omega) (by omega) (by omega) (by omega) (by omega)
    simp only [mul_one]
    rw [ring3, abs_of_pos g0, abs_of_neg g1, abs_of_neg g2, abs_of_neg g3, abs_of_neg g4, abs_of_neg g5, abs_of_neg g6]
    have e0 : S [0, i, j, k] = beta / (dx 0 * dx 0) * (B0 [i, j, k] + B0 [i + 1, j, k]) + beta / (dx 1 * dx 1) * (B1 [j, k, i] + B1 [j + 1, k, i]) + beta / (dx 2 * dx 2) * (B2 [k, i, j] + B2 [k + 1, i, j]) + alpha * A [i, j, k] := by
      rw [c.c0, c.c1, c.c2, c.c3, c.c4, c.c5, c.c6]
      ring
    rw [← e0] at kq
    have e1 := c.c0
    linarith

/-- weights for the Poisson operator, 3D -/
def hill3 (i0 j0 k0 i1 j1 k1 : Int) : List Int → Int
  | [i, j, k] => max ((i - i0 + 1) * (i1 + 1 - i) + (j - j0 + 1) * (j1 + 1 - j) + (k - k0 + 1) * (k1 + 1 - k)) 0
  | _ => 0

theorem hill3_in {i0 j0 k0 i1 j1 k1 i j k : Int} (h0 : i0 - 1 ≤ i) (h1 : i ≤ i1 + 1) (h2 : j0 - 1 ≤ j) (h3 : j ≤ j1 + 1) (h4 : k0 - 1 ≤ k) (h5 : k ≤ k1 + 1) : hill3 i0 j0 k0 i1 j1 k1 [i, j, k] = (i - i0 + 1) * (i1 + 1 - i) + (j - j0 + 1) * (j1 + 1 - j) + (k - k0 + 1) * (k1 + 1 - k) := by
  refine max_eq_left ?_
  have m0 : 0 ≤ (i - i0 + 1) * (i1 + 1 - i) := mul_nonneg (by omega) (by omega)
  have m1 : 0 ≤ (j - j0 + 1) * (j1 + 1 - j) := mul_nonneg (by omega) (by omega)
  have m2 : 0 ≤ (k - k0 + 1) * (k1 + 1 - k) := mul_nonneg (by omega) (by omega)
  omega

theorem hill3_ge {i0 j0 k0 i1 j1 k1 i j k : Int} (h0 : i0 ≤ i) (h1 : i ≤ i1) (h2 : j0 ≤ j) (h3 : j ≤ j1) (h4 : k0 ≤ k) (h5 : k ≤ k1) : 1 ≤ hill3 i0 j0 k0 i1 j1 k1 [i, j, k] := by
  rw [hill3_in (by omega) (by omega) (by omega) (by omega) (by omega) (by omega)]
  have m0 : 0 < (i - i0 + 1) * (i1 + 1 - i) := mul_pos (by omega) (by omega)
  have m1 : 0 < (j - j0 + 1) * (j1 + 1 - j) := mul_pos (by omega) (by omega)
  have m2 : 0 < (k - k0 + 1) * (k1 + 1 - k) := mul_pos (by omega) (by omega)
  omega

theorem hill3_le {i0 j0 k0 i1 j1 k1 i j k : Int} (h0 : i0 ≤ i) (h1 : i ≤ i1) (h2 : j0 ≤ j) (h3 : j ≤ j1) (h4 : k0 ≤ k) (h5 : k ≤ k1) : 4 * hill3 i0 j0 k0 i1 j1 k1 [i, j, k] ≤ (i1 - i0 + 2) * (i1 - i0 + 2) + (j1 - j0 + 2) * (j1 - j0 + 2) + (k1 - k0 + 2) * (k1 - k0 + 2) := by
  rw [hill3_in (by omega) (by omega) (by omega) (by omega) (by omega) (by omega)]
  have m0 := mul_self_nonneg ((i - i0 + 1) - (i1 + 1 - i))
  have m1 := mul_self_nonneg ((j - j0 + 1) - (j1 + 1 - j))
  have m2 := mul_self_nonneg ((k - k0 + 1) - (k1 + 1 - k))
  nlinarith

theorem domp3 {i0 j0 k0 i1 j1 k1 : Int} {beta : T} {dx : Nat → T} {S : List Int → T} (he : Elliptic3 i0 j0 k0 i1 j1 k1 0 beta dx (fun _ => 1) (fun _ => 1) (fun _ => 1) (fun _ => 1))
    (h : ∀ i j k, i0 ≤ i → i ≤ i1 → j0 ≤ j → j ≤ j1 → k0 ≤ k → k ≤ k1 → Coef3 0 beta dx (fun _ => 1) (fun _ => 1) (fun _ => 1) (fun _ => 1) S i j k) (hi : i0 ≤ i1) (hj : j0 ≤ j1) (hk : k0 ≤ k1) :
    Dominant [(i0, i1), (j0, j1), (k0, k1)] 7 (row points3) (1 - 4 / (((i1 - i0 + 2) * (i1 - i0 + 2) + (j1 - j0 + 2) * (j1 - j0 + 2) + (k1 - k0 + 2) * (k1 - k0 + 2) : Int) : T)) (fun p => (hill3 i0 j0 k0 i1 j1 k1 p : T)) S := by
  have sg : ∀ i j k, i0 ≤ i → i ≤ i1 → j0 ≤ j → j ≤ j1 → k0 ≤ k → k ≤ k1 → _ := fun i j k h0 h1 h2 h3 h4 h5 => (h i j k h0 h1 h2 h3 h4 h5).sign he h0 h1 h2 h3 h4 h5
  refine ⟨fun p hp => ?_, fun p hp => ?_, fun p => ?_, fun p hp => ?_⟩
  · rw [inBounds3] at hp
    obtain ⟨i, j, k, rfl, hp⟩ := hp
    exact (sg i j k (by omega) (by omega) (by omega) (by omega) (by omega) (by omega)).1.ne'
  · rw [inBounds3] at hp
    obtain ⟨i, j, k, rfl, hp⟩ := hp
    exact_mod_cast lt_of_lt_of_le one_pos (hill3_ge (i0 := i0) (by omega) (by omega) (by omega) (by omega) (by omega) (by omega))
  · have : 0 ≤ hill3 i0 j0 k0 i1 j1 k1 p := by
      unfold hill3
      split
      · exact le_max_right _ _
      · exact le_rfl
    exact_mod_cast this
  · rw [inBounds3] at hp
    obtain ⟨i, j, k, rfl, hp⟩ := hp
    obtain ⟨g0, g1, g2, g3, g4, g5, g6⟩ := sg i j k (by omega) (by omega) (by omega) (by omega) (by omega) (by omega)
    have c := h i j k (by omega) (by omega) (by omega) (by omega) (by omega) (by omega)
    rw [ring3, abs_of_pos g0, abs_of_neg g1, abs_of_neg g2, abs_of_neg g3, abs_of_neg g4, abs_of_neg g5, abs_of_neg g6, shift3_1, shift3_2, shift3_3, shift3_4, shift3_5, shift3_6]
    have t1 := hill3_ge (i0 := i0) (j0 := j0) (k0 := k0) (i1 := i1) (j1 := j1) (k1 := k1) (i := i) (j := j) (k := k) (by omega) (by omega) (by omega) (by omega) (by omega) (by omega)
    have t2 := hill3_le (i0 := i0) (j0 := j0) (k0 := k0) (i1 := i1) (j1 := j1) (k1 := k1) (i := i) (j := j) (k := k) (by omega) (by omega) (by omega) (by omega) (by omega) (by omega)
    have w0 : hill3 i0 j0 k0 i1 j1 k1 [i - 1, j, k] + hill3 i0 j0 k0 i1 j1 k1 [i + 1, j, k] = 2 * hill3 i0 j0 k0 i1 j1 k1 [i, j, k] - 2 := by
      rw [hill3_in (by omega) (by omega) (by omega) (by omega) (by omega) (by omega), hill3_in (by omega) (by omega) (by omega) (by omega) (by omega) (by omega), hill3_in (by omega) (by omega) (by omega) (by omega) (by omega) (by omega)]
      ring
    have w0 : (hill3 i0 j0 k0 i1 j1 k1 [i - 1, j, k] : T) + hill3 i0 j0 k0 i1 j1 k1 [i + 1, j, k] = 2 * hill3 i0 j0 k0 i1 j1 k1 [i, j, k] - 2 := by exact_mod_cast w0
    have w1 : hill3 i0 j0 k0 i1 j1 k1 [i, j - 1, k] + hill3 i0 j0 k0 i1 j1 k1 [i, j + 1, k] = 2 * hill3 i0 j0 k0 i1 j1 k1 [i, j, k] - 2 := by
      rw [hill3_in (by omega) (by omega) (by omega) (by omega) (by omega) (by omega), hill3_in (by omega) (by omega) (by omega) (by omega) (by omega) (by omega), hill3_in (by omega) (by omega) (by omega) (by omega) (by omega) (by omega)]
      ring
    have w1 : (hill3 i0 j0 k0 i1 j1 k1 [i, j - 1, k] : T) + hill3 i0 j0 k0 i1 j1 k1 [i, j + 1, k] = 2 * hill3 i0 j0 k0 i1 j1 k1 [i, j, k] - 2 := by exact_mod_cast w1
    have w2 : hill3 i0 j0 k0 i1 j1 k1 [i, j, k - 1] + hill3 i0 j0 k0 i1 j1 k1 [i, j, k + 1] = 2 * hill3 i0 j0 k0 i1 j1 k1 [i, j, k] - 2 := by
      rw [hill3_in (by omega) (by omega) (by omega) (by omega) (by omega) (by omega), hill3_in (by omega) (by omega) (by omega) (by omega) (by omega) (by omega), hill3_in (by omega) (by omega) (by omega) (by omega) (by omega) (by omega)]
      ring
    have w2 : (hill3 i0 j0 k0 i1 j1 k1 [i, j, k - 1] : T) + hill3 i0 j0 k0 i1 j1 k1 [i, j, k + 1] = 2 * hill3 i0 j0 k0 i1 j1 k1 [i, j, k] - 2 := by exact_mod_cast w2
    generalize hK : ((i1 - i0 + 2) * (i1 - i0 + 2) + (j1 - j0 + 2) * (j1 - j0 + 2) + (k1 - k0 + 2) * (k1 - k0 + 2)) = K at t2 ⊢
    generalize hill3 i0 j0 k0 i1 j1 k1 [i, j, k] = t at *
    generalize (hill3 i0 j0 k0 i1 j1 k1 [i - 1, j, k] : T) = x1 at *
    generalize (hill3 i0 j0 k0 i1 j1 k1 [i + 1, j, k] : T) = x2 at *
    generalize (hill3 i0 j0 k0 i1 j1 k1 [i, j - 1, k] : T) = x3 at *
    generalize (hill3 i0 j0 k0 i1 j1 k1 [i, j + 1, k] : T) = x4 at *
    generalize (hill3 i0 j0 k0 i1 j1 k1 [i, j, k - 1] : T) = x5 at *
    generalize (hill3 i0 j0 k0 i1 j1 k1 [i, j, k + 1] : T) = x6 at *
    have k1 : (1 : T) ≤ t := by exact_mod_cast t1
    have k2 : 4 * (t : T) ≤ K := by exact_mod_cast t2
    have k3 : (0 : T) < K := by linarith
    have k4 : 4 / (K : T) * t ≤ 1 := by
      rw [div_mul_eq_mul_div, div_le_one k3]
      exact k2
    have e1 := c.c0
    have f1 := c.c1
    have f2 := c.c2
    have f3 := c.c3
    have f4 := c.c4
    have f5 := c.c5
    have f6 := c.c6
    simp only [mul_one, add_zero] at e1 f1 f2 f3 f4 f5 f6
    rw [e1, f1, f2, f3, f4, f5, f6]
    have y0 : 0 < beta / (dx 0 * dx 0) := div_pos he.beta (mul_self_pos.2 he.dx0)
    generalize beta / (dx 0 * dx 0) = z0 at *
    have y1 : 0 < beta / (dx 1 * dx 1) := div_pos he.beta (mul_self_pos.2 he.dx1)
    generalize beta / (dx 1 * dx 1) = z1 at *
    have y2 : 0 < beta / (dx 2 * dx 2) := div_pos he.beta (mul_self_pos.2 he.dx2)
    generalize beta / (dx 2 * dx 2) = z2 at *
    have l : - -z0 * x1 + - -z0 * x2 + - -z1 * x3 + - -z1 * x4 + - -z2 * x5 + - -z2 * x6 = (z0 + z1 + z2) * (2 * t - 2) := by
      linear_combination z0 * w0 + z1 * w1 + z2 * w2
    have r : (z0 + z1 + z2) * (2 * t - 2) ≤ (1 - 4 / (K : T)) * ((z0 + z1 + z2) * (2 * t)) := by
      have y : 0 < z0 + z1 + z2 := by linarith
      have := mul_le_mul_of_nonneg_left k4 y.le
      linarith
    refine le_trans (le_of_eq l) (le_trans r (le_of_eq ?_))
    ring

end

end Verif.F

namespace Verif
open Spec

variable {T : Type} [Field T]

theorem asm_v1_1 {i0 i1 agcw sgcw : Int} {alpha beta : T} {dx : Nat → T} {a b0 st : Ptr} {β3 β4 : Backend} {m : Mem T} {A B0 : List Int → T} 
    (hβ3 : ValidBackend β3) (hβ4 : ValidBackend β4) (hi : i0 ≤ i1) (hagcw : 0 ≤ agcw) (hs : 0 ≤ sgcw)
    (h : F.Args m [(F.cell1d a i0 i1 agcw), (F.face1d b0 i0 i1 0)] [(F.st1d st i0 i1 sgcw)]) (hA : F.Holds m (F.cell1d a i0 i1 agcw) A) (hB0 : F.Holds m (F.face1d b0 i0 i1 0) B0) :
    ∃ s1 s2, ∃ S : List Int → T, Cuda.offdiag1d i0 i1 i0 i1 dx beta b0 sgcw st β3 m = .ok s1 ∧ Cuda.v1diag1d i0 i1 (i0 - agcw) (i1 + agcw) alpha a sgcw st β4 s1 = .ok s2 ∧ F.Only [(F.st1d st i0 i1 sgcw)] m s2 ∧
      F.Holds s2 (F.st1d st i0 i1 sgcw) S ∧ ∀ i, i0 ≤ i → i ≤ i1 → F.Coef1 alpha beta dx A B0 S i := by
  have h3 : F.Args m [(F.face1d b0 i0 i1 0)] [(F.st1d st i0 i1 sgcw)] := h.sub (by intro x hx; simp only [List.mem_cons, List.not_mem_nil, or_false] at hx ⊢; tauto) (by intro x hx; simp only [List.mem_cons, List.not_mem_nil, or_false] at hx ⊢; tauto)
  obtain ⟨s1, q1, -, K1, S1⟩ := offdiag1_run (dx := dx) (beta := beta) hi hs ⟨le_rfl, le_rfl⟩ h3
  obtain ⟨s1', d1, e1⟩ := C36_offdiag_1d (dx := dx) (beta := beta) hβ3 hi ⟨le_rfl, le_rfl⟩ hs h3
  obtain rfl : s1 = s1' := Except.ok.inj (q1.symm.trans e1)
  have ea : (F.cell1d a (i0 - agcw) (i1 + agcw) 0) = (F.cell1d a i0 i1 agcw) := by simp [F.cell1d]
  have h4 : F.Args s1 [(F.cell1d a (i0 - agcw) (i1 + agcw) 0)] [(F.st1d st i0 i1 sgcw)] := by rw [ea]; exact K1.args (h.sub (by intro x hx; simp only [List.mem_cons, List.not_mem_nil, or_false] at hx ⊢; tauto) (by intro x hx; simp only [List.mem_cons, List.not_mem_nil, or_false] at hx ⊢; tauto))
  obtain ⟨s2, q2, -, K2, S2, S3⟩ := v1diag1_run (alpha := alpha) hi hs ⟨by omega, by omega⟩ h4
  obtain ⟨s2', d2, e2⟩ := C36_v1diag_1d (alpha := alpha) hβ4 hi ⟨by omega, by omega⟩ hs h4
  obtain rfl : s2 = s2' := Except.ok.inj (q2.symm.trans e2)
  have hst := K2.ok (K1.ok (h.ok (F.st1d st i0 i1 sgcw) (by simp)))
  refine ⟨s1, s2, F.rd s2 (F.st1d st i0 i1 sgcw), d1, d2, K1.only.trans K2.only, fun is hi => hst.rd hi, fun i h0 h1 => ?_⟩
  obtain ⟨t1, t2⟩ := S1 i h0 h1
  have t0 := (S2 i h0 h1).rd
  have r1 := S3 i 1 h0 h1 (by decide) (by decide)
  have r2 := S3 i 2 h0 h1 (by decide) (by decide)
  rw [← r1, ← r2] at t0
  rw [t1.rd] at r1
  rw [t2.rd] at r2
  have ra : F.rd s1 (F.cell1d a i0 i1 agcw) [i] = F.rd m (F.cell1d a i0 i1 agcw) [i] := K1.rd (by simp only [List.mem_cons, List.not_mem_nil, or_false, forall_eq]; exact h.apart _ (by simp) _ (by simp)) (by in_bounds)
  rw [ea, ra, (hA [i] (by in_bounds)).rd] at t0
  rw [(hB0 [i] (by in_bounds)).rd] at r1
  rw [(hB0 [i + 1] (by in_bounds)).rd] at r2
  exact ⟨t0, r1, r2⟩

theorem asm_v2_1 {i0 i1 sgcw : Int} {alpha beta : T} {dx : Nat → T} {b0 st : Ptr} {β3 β4 : Backend} {m : Mem T} {B0 : List Int → T} 
    (hβ3 : ValidBackend β3) (hβ4 : ValidBackend β4) (hi : i0 ≤ i1) (hs : 0 ≤ sgcw)
    (h : F.Args m [(F.face1d b0 i0 i1 0)] [(F.st1d st i0 i1 sgcw)]) (hB0 : F.Holds m (F.face1d b0 i0 i1 0) B0) :
    ∃ s1 s2, ∃ S : List Int → T, Cuda.offdiag1d i0 i1 i0 i1 dx beta b0 sgcw st β3 m = .ok s1 ∧ Cuda.v2diag1d i0 i1 alpha sgcw st β4 s1 = .ok s2 ∧ F.Only [(F.st1d st i0 i1 sgcw)] m s2 ∧
      F.Holds s2 (F.st1d st i0 i1 sgcw) S ∧ ∀ i, i0 ≤ i → i ≤ i1 → F.Coef1 alpha beta dx (fun _ => 1) B0 S i := by
  have h3 : F.Args m [(F.face1d b0 i0 i1 0)] [(F.st1d st i0 i1 sgcw)] := h.sub (by intro x hx; simp only [List.mem_cons, List.not_mem_nil, or_false] at hx ⊢; tauto) (by intro x hx; simp only [List.mem_cons, List.not_mem_nil, or_false] at hx ⊢; tauto)
  obtain ⟨s1, q1, -, K1, S1⟩ := offdiag1_run (dx := dx) (beta := beta) hi hs ⟨le_rfl, le_rfl⟩ h3
  obtain ⟨s1', d1, e1⟩ := C36_offdiag_1d (dx := dx) (beta := beta) hβ3 hi ⟨le_rfl, le_rfl⟩ hs h3
  obtain rfl : s1 = s1' := Except.ok.inj (q1.symm.trans e1)
  have h4 : F.Args s1 [] [(F.st1d st i0 i1 sgcw)] := K1.args (h.sub (by simp) (by intro x hx; simp only [List.mem_cons, List.not_mem_nil, or_false] at hx ⊢; tauto))
  obtain ⟨s2, q2, -, K2, S2, S3⟩ := v2diag1_run (alpha := alpha) hi hs h4
  obtain ⟨s2', d2, e2⟩ := C36_v2diag_1d (alpha := alpha) hβ4 hi hs h4
  obtain rfl : s2 = s2' := Except.ok.inj (q2.symm.trans e2)
  have hst := K2.ok (K1.ok (h.ok (F.st1d st i0 i1 sgcw) (by simp)))
  refine ⟨s1, s2, F.rd s2 (F.st1d st i0 i1 sgcw), d1, d2, K1.only.trans K2.only, fun is hi => hst.rd hi, fun i h0 h1 => ?_⟩
  obtain ⟨t1, t2⟩ := S1 i h0 h1
  have t0 := (S2 i h0 h1).rd
  have r1 := S3 i 1 h0 h1 (by decide) (by decide)
  have r2 := S3 i 2 h0 h1 (by decide) (by decide)
  rw [← r1, ← r2] at t0
  rw [t1.rd] at r1
  rw [t2.rd] at r2
  rw [(hB0 [i] (by in_bounds)).rd] at r1
  rw [(hB0 [i + 1] (by in_bounds)).rd] at r2
  exact ⟨(by rw [t0, mul_one]), r1, r2⟩

theorem asm_p_1 {i0 i1 sgcw : Int} {beta : T} {dx : Nat → T} {st : Ptr} {β3 β4 : Backend} {m : Mem T} 
    (hβ3 : ValidBackend β3) (hβ4 : ValidBackend β4) (hi : i0 ≤ i1) (hs : 0 ≤ sgcw)
    (h : F.Args m [] [(F.st1d st i0 i1 sgcw)])  :
    ∃ s1 s2, ∃ S : List Int → T, Cuda.poissonOffdiag1d i0 i1 dx beta sgcw st β3 m = .ok s1 ∧ Cuda.poissonDiag1d i0 i1 sgcw st β4 s1 = .ok s2 ∧ F.Only [(F.st1d st i0 i1 sgcw)] m s2 ∧
      F.Holds s2 (F.st1d st i0 i1 sgcw) S ∧ ∀ i, i0 ≤ i → i ≤ i1 → F.Coef1 0 beta dx (fun _ => 1) (fun _ => 1) S i := by
  have h3 : F.Args m [] [(F.st1d st i0 i1 sgcw)] := h.sub (by simp) (by intro x hx; simp only [List.mem_cons, List.not_mem_nil, or_false] at hx ⊢; tauto)
  obtain ⟨s1, q1, -, K1, S1⟩ := poffdiag1_run (dx := dx) (beta := beta) hi hs h3
  obtain ⟨s1', d1, e1⟩ := C36_poisson_offdiag_1d (dx := dx) (beta := beta) hβ3 hi hs h3
  obtain rfl : s1 = s1' := Except.ok.inj (q1.symm.trans e1)
  have h4 : F.Args s1 [] [(F.st1d st i0 i1 sgcw)] := K1.args (h.sub (by simp) (by intro x hx; simp only [List.mem_cons, List.not_mem_nil, or_false] at hx ⊢; tauto))
  obtain ⟨s2, q2, -, K2, S2, S3⟩ := pdiag1_run hi hs h4
  obtain ⟨s2', d2, e2⟩ := C36_poisson_diag_1d hβ4 hi hs h4
  obtain rfl : s2 = s2' := Except.ok.inj (q2.symm.trans e2)
  have hst := K2.ok (K1.ok (h.ok (F.st1d st i0 i1 sgcw) (by simp)))
  refine ⟨s1, s2, F.rd s2 (F.st1d st i0 i1 sgcw), d1, d2, K1.only.trans K2.only, fun is hi => hst.rd hi, fun i h0 h1 => ?_⟩
  obtain ⟨t1, t2⟩ := S1 i h0 h1
  have t0 := (S2 i h0 h1).rd
  have r1 := S3 i 1 h0 h1 (by decide) (by decide)
  have r2 := S3 i 2 h0 h1 (by decide) (by decide)
  rw [← r1, ← r2] at t0
  rw [t1.rd] at r1
  rw [t2.rd] at r2
  exact ⟨(by rw [t0, zero_mul, add_zero]), (by rw [r1, mul_one]), (by rw [r2, mul_one])⟩

theorem asm_v1_2 {i0 j0 i1 j1 agcw sgcw : Int} {alpha beta : T} {dx : Nat → T} {a b0 b1 st : Ptr} {β3 β4 : Backend} {m : Mem T} {A B0 B1 : List Int → T} 
    (hβ3 : ValidBackend β3) (hβ4 : ValidBackend β4) (hi : i0 ≤ i1) (hj : j0 ≤ j1) (hagcw : 0 ≤ agcw) (hs : 0 ≤ sgcw)
    (h : F.Args m [(F.cell2d a i0 j0 i1 j1 agcw), (F.face2d0 b0 i0 j0 i1 j1 0), (F.face2d1 b1 i0 j0 i1 j1 0)] [(F.st2d st i0 j0 i1 j1 sgcw)]) (hA : F.Holds m (F.cell2d a i0 j0 i1 j1 agcw) A) (hB0 : F.Holds m (F.face2d0 b0 i0 j0 i1 j1 0) B0) (hB1 : F.Holds m (F.face2d1 b1 i0 j0 i1 j1 0) B1) :
    ∃ s1 s2, ∃ S : List Int → T, Cuda.offdiag2d i0 j0 i1 j1 i0 j0 i1 j1 dx beta b0 b1 sgcw st β3 m = .ok s1 ∧ Cuda.v1diag2d i0 j0 i1 j1 (i0 - agcw) (j0 - agcw) (i1 + agcw) (j1 + agcw) alpha a sgcw st β4 s1 = .ok s2 ∧ F.Only [(F.st2d st i0 j0 i1 j1 sgcw)] m s2 ∧
      F.Holds s2 (F.st2d st i0 j0 i1 j1 sgcw) S ∧ ∀ i j, i0 ≤ i → i ≤ i1 → j0 ≤ j → j ≤ j1 → F.Coef2 alpha beta dx A B0 B1 S i j := by
  have h3 : F.Args m [(F.face2d0 b0 i0 j0 i1 j1 0), (F.face2d1 b1 i0 j0 i1 j1 0)] [(F.st2d st i0 j0 i1 j1 sgcw)] := h.sub (by intro x hx; simp only [List.mem_cons, List.not_mem_nil, or_false] at hx ⊢; tauto) (by intro x hx; simp only [List.mem_cons, List.not_mem_nil, or_false] at hx ⊢; tauto)
  obtain ⟨s1, q1, -, K1, S1⟩ := offdiag2_run (dx := dx) (beta := beta) hi hj hs ⟨le_rfl, le_rfl⟩ ⟨le_rfl, le_rfl⟩ h3
  obtain ⟨s1', d1, e1⟩ := C36_offdiag_2d (dx := dx) (beta := beta) hβ3 hi hj ⟨le_rfl, le_rfl⟩ ⟨le_rfl, le_rfl⟩ hs h3
  obtain rfl : s1 = s1' := Except.ok.inj (q1.symm.trans e1)
  have ea : (F.cell2d a (i0 - agcw) (j0 - agcw) (i1 + agcw) (j1 + agcw) 0) = (F.cell2d a i0 j0 i1 j1 agcw) := by simp [F.cell2d]
  have h4 : F.Args s1 [(F.cell2d a (i0 - agcw) (j0 - agcw) (i1 + agcw) (j1 + agcw) 0)] [(F.st2d st i0 j0 i1 j1 sgcw)] := by rw [ea]; exact K1.args (h.sub (by intro x hx; simp only [List.mem_cons, List.not_mem_nil, or_false] at hx ⊢; tauto) (by intro x hx; simp only [List.mem_cons, List.not_mem_nil, or_false] at hx ⊢; tauto))
  obtain ⟨s2, q2, -, K2, S2, S3⟩ := v1diag2_run (alpha := alpha) hi hj hs ⟨by omega, by omega⟩ ⟨by omega, by omega⟩ h4
  obtain ⟨s2', d2, e2⟩ := C36_v1diag_2d (alpha := alpha) hβ4 hi hj ⟨by omega, by omega⟩ ⟨by omega, by omega⟩ hs h4
  obtain rfl : s2 = s2' := Except.ok.inj (q2.symm.trans e2)
  have hst := K2.ok (K1.ok (h.ok (F.st2d st i0 j0 i1 j1 sgcw) (by simp)))
  refine ⟨s1, s2, F.rd s2 (F.st2d st i0 j0 i1 j1 sgcw), d1, d2, K1.only.trans K2.only, fun is hi => hst.rd hi, fun i j h0 h1 h2 h3 => ?_⟩
  obtain ⟨t1, t2, t3, t4⟩ := S1 i j h0 h1 h2 h3
  have t0 := (S2 i j h0 h1 h2 h3).rd
  have r1 := S3 i j 1 h0 h1 h2 h3 (by decide) (by decide)
  have r2 := S3 i j 2 h0 h1 h2 h3 (by decide) (by decide)
  have r3 := S3 i j 3 h0 h1 h2 h3 (by decide) (by decide)
  have r4 := S3 i j 4 h0 h1 h2 h3 (by decide) (by decide)
  rw [← r1, ← r2, ← r3, ← r4] at t0
  rw [t1.rd] at r1
  rw [t2.rd] at r2
  rw [t3.rd] at r3
  rw [t4.rd] at r4
  have ra : F.rd s1 (F.cell2d a i0 j0 i1 j1 agcw) [i, j] = F.rd m (F.cell2d a i0 j0 i1 j1 agcw) [i, j] := K1.rd (by simp only [List.mem_cons, List.not_mem_nil, or_false, forall_eq]; exact h.apart _ (by simp) _ (by simp)) (by in_bounds)
  rw [ea, ra, (hA [i, j] (by in_bounds)).rd] at t0
  rw [(hB0 [i, j] (by in_bounds)).rd] at r1
  rw [(hB0 [i + 1, j] (by in_bounds)).rd] at r2
  rw [(hB1 [j, i] (by in_bounds)).rd] at r3
  rw [(hB1 [j + 1, i] (by in_bounds)).rd] at r4
  exact ⟨t0, r1, r2, r3, r4⟩

theorem asm_v2_2 {i0 j0 i1 j1 sgcw : Int} {alpha beta : T} {dx : Nat → T} {b0 b1 st : Ptr} {β3 β4 : Backend} {m : Mem T} {B0 B1 : List Int → T} 
    (hβ3 : ValidBackend β3) (hβ4 : ValidBackend β4) (hi : i0 ≤ i1) (hj : j0 ≤ j1) (hs : 0 ≤ sgcw)
    (h : F.Args m [(F.face2d0 b0 i0 j0 i1 j1 0), (F.face2d1 b1 i0 j0 i1 j1 0)] [(F.st2d st i0 j0 i1 j1 sgcw)]) (hB0 : F.Holds m (F.face2d0 b0 i0 j0 i1 j1 0) B0) (hB1 : F.Holds m (F.face2d1 b1 i0 j0 i1 j1 0) B1) :
    ∃ s1 s2, ∃ S : List Int → T, Cuda.offdiag2d i0 j0 i1 j1 i0 j0 i1 j1 dx beta b0 b1 sgcw st β3 m = .ok s1 ∧ Cuda.v2diag2d i0 j0 i1 j1 alpha sgcw st β4 s1 = .ok s2 ∧ F.Only [(F.st2d st i0 j0 i1 j1 sgcw)] m s2 ∧
      F.Holds s2 (F.st2d st i0 j0 i1 j1 sgcw) S ∧ ∀ i j, i0 ≤ i → i ≤ i1 → j0 ≤ j → j ≤ j1 → F.Coef2 alpha beta dx (fun _ => 1) B0 B1 S i j := by
  have h3 : F.Args m [(F.face2d0 b0 i0 j0 i1 j1 0), (F.face2d1 b1 i0 j0 i1 j1 0)] [(F.st2d st i0 j0 i1 j1 sgcw)] := h.sub (by intro x hx; simp only [List.mem_cons, List.not_mem_nil, or_false] at hx ⊢; tauto) (by intro x hx; simp only [List.mem_cons, List.not_mem_nil, or_false] at hx ⊢; tauto)
  obtain ⟨s1, q1, -, K1, S1⟩ := offdiag2_run (dx := dx) (beta := beta) hi hj hs ⟨le_rfl, le_rfl⟩ ⟨le_rfl, le_rfl⟩ h3
  obtain ⟨s1', d1, e1⟩ := C36_offdiag_2d (dx := dx) (beta := beta) hβ3 hi hj ⟨le_rfl, le_rfl⟩ ⟨le_rfl, le_rfl⟩ hs h3
  obtain rfl : s1 = s1' := Except.ok.inj (q1.symm.trans e1)
  have h4 : F.Args s1 [] [(F.st2d st i0 j0 i1 j1 sgcw)] := K1.args (h.sub (by simp) (by intro x hx; simp only [List.mem_cons, List.not_mem_nil, or_false] at hx ⊢; tauto))
  obtain ⟨s2, q2, -, K2, S2, S3⟩ := v2diag2_run (alpha := alpha) hi hj hs h4
  obtain ⟨s2', d2, e2⟩ := C36_v2diag_2d (alpha := alpha) hβ4 hi hj hs h4
  obtain rfl : s2 = s2' := Except.ok.inj (q2.symm.trans e2)
  have hst := K2.ok (K1.ok (h.ok (F.st2d st i0 j0 i1 j1 sgcw) (by simp)))
  refine ⟨s1, s2, F.rd s2 (F.st2d st i0 j0 i1 j1 sgcw), d1, d2, K1.only.trans K2.only, fun is hi => hst.rd hi, fun i j h0 h1 h2 h3 => ?_⟩
  obtain ⟨t1, t2, t3, t4⟩ := S1 i j h0 h1 h2 h3
  have t0 := (S2 i j h0 h1 h2 h3).rd
  have r1 := S3 i j 1 h0 h1 h2 h3 (by decide) (by decide)
  have r2 := S3 i j 2 h0 h1 h2 h3 (by decide) (by decide)
  have r3 := S3 i j 3 h0 h1 h2 h3 (by decide) (by decide)
  have r4 := S3 i j 4 h0 h1 h2 h3 (by decide) (by decide)
  rw [← r1, ← r2, ← r3, ← r4] at t0
  rw [t1.rd] at r1
  rw [t2.rd] at r2
  rw [t3.rd] at r3
  rw [t4.rd] at r4
  rw [(hB0 [i, j] (by in_bounds)).rd] at r1
  rw [(hB0 [i + 1, j] (by in_bounds)).rd] at r2
  rw [(hB1 [j, i] (by in_bounds)).rd] at r3
  rw [(hB1 [j + 1, i] (by in_bounds)).rd] at r4
  exact ⟨(by rw [t0, mul_one]), r1, r2, r3, r4⟩

theorem asm_p_2 {i0 j0 i1 j1 sgcw : Int} {beta : T} {dx : Nat → T} {st : Ptr} {β3 β4 : Backend} {m : Mem T} 
    (hβ3 : ValidBackend β3) (hβ4 : ValidBackend β4) (hi : i0 ≤ i1) (hj : j0 ≤ j1) (hs : 0 ≤ sgcw)
    (h : F.Args m [] [(F.st2d st i0 j0 i1 j1 sgcw)])  :
    ∃ s1 s2, ∃ S : List Int → T, Cuda.poissonOffdiag2d i0 j0 i1 j1 dx beta sgcw st β3 m = .ok s1 ∧ Cuda.poissonDiag2d i0 j0 i1 j1 sgcw st β4 s1 = .ok s2 ∧ F.Only [(F.st2d st i0 j0 i1 j1 sgcw)] m s2 ∧
      F.Holds s2 (F.st2d st i0 j0 i1 j1 sgcw) S ∧ ∀ i j, i0 ≤ i → i ≤ i1 → j0 ≤ j → j ≤ j1 → F.Coef2 0 beta dx (fun _ => 1) (fun _ => 1) (fun _ => 1) S i j := by
  have h3 : F.Args m [] [(F.st2d st i0 j0 i1 j1 sgcw)] := h.sub (by simp) (by intro x hx; simp only [List.mem_cons, List.not_mem_nil, or_false] at hx ⊢; tauto)
  obtain ⟨s1, q1, -, K1, S1⟩ := poffdiag2_run (dx := dx) (beta := beta) hi hj hs h3
  obtain ⟨s1', d1, e1⟩ := C36_poisson_offdiag_2d (dx := dx) (beta := beta) hβ3 hi hj hs h3
  obtain rfl : s1 = s1' := Except.ok.inj (q1.symm.trans e1)
  have h4 : F.Args s1 [] [(F.st2d st i0 j0 i1 j1 sgcw)] := K1.args (h.sub (by simp) (by intro x hx; simp only [List.mem_cons, List.not_mem_nil, or_false] at hx ⊢; tauto))
  obtain ⟨s2, q2, -, K2, S2, S3⟩ := pdiag2_run hi hj hs h4
  obtain ⟨s2', d2, e2⟩ := C36_poisson_diag_2d hβ4 hi hj hs h4
  obtain rfl : s2 = s2' := Except.ok.inj (q2.symm.trans e2)
  have hst := K2.ok (K1.ok (h.ok (F.st2d st i0 j0 i1 j1 sgcw) (by simp)))
  refine ⟨s1, s2, F.rd s2 (F.st2d st i0 j0 i1 j1 sgcw), d1, d2, K1.only.trans K2.only, fun is hi => hst.rd hi, fun i j h0 h1 h2 h3 => ?_⟩
  obtain ⟨t1, t2, t3, t4⟩ := S1 i j h0 h1 h2 h3
  have t0 := (S2 i j h0 h1 h2 h3).rd
  have r1 := S3 i j 1 h0 h1 h2 h3 (by decide) (by decide)
  have r2 := S3 i j 2 h0 h1 h2 h3 (by decide) (by decide)
  have r3 := S3 i j 3 h0 h1 h2 h3 (by decide) (by decide)
  have r4 := S3 i j 4 h0 h1 h2 h3 (by decide) (by decide)
  rw [← r1, ← r2, ← r3, ← r4] at t0
  rw [t1.rd] at r1
  rw [t2.rd] at r2
  rw [t3.rd] at r3
  rw [t4.rd] at r4
  exact ⟨(by rw [t0, zero_mul, add_zero]), (by rw [r1, mul_one]), (by rw [r2, mul_one]), (by rw [r3, mul_one]), (by rw [r4, mul_one])⟩

theorem asm_v1_3 {i0 j0 k0 i1 j1 k1 agcw sgcw : Int} {alpha beta : T} {dx : Nat → T} {a b0 b1 b2 st : Ptr} {β3 β4 : Backend} {m : Mem T} {A B0 B1 B2 : List Int → T} 
    (hβ3 : ValidBackend β3) (hβ4 : ValidBackend β4) (hi : i0 ≤ i1) (hj : j0 ≤ j1) (hk : k0 ≤ k1) (hagcw : 0 ≤ agcw) (hs : 0 ≤ sgcw)
    (h : F.Args m [(F.cell3d a i0 j0 k0 i1 j1 k1 agcw), (F.face3d0 b0 i0 j0 k0 i1 j1 k1 0), (F.face3d1 b1 i0 j0 k0 i1 j1 k1 0), (F.face3d2 b2 i0 j0 k0 i1 j1 k1 0)] [(F.st3d st i0 j0 k0 i1 j1 k1 sgcw)]) (hA : F.Holds m (F.cell3d a i0 j0 k0 i1 j1 k1 agcw) A) (hB0 : F.Holds m (F.face3d0 b0 i0 j0 k0 i1 j1 k1 0) B0) (hB1 : F.Holds m (F.face3d1 b1 i0 j0 k0 i1 j1 k1 0) B1) (hB2 : F.Holds m (F.face3d2 b2 i0 j0 k0 i1 j1 k1 0) B2) :
    ∃ s1 s2, ∃ S : List Int → T, Cuda.offdiag3d i0 j0 k0 i1 j1 k1 i0 j0 k0 i1 j1 k1 dx beta b0 b1 b2 sgcw st β3 m = .ok s1 ∧ Cuda.v1diag3d i0 j0 k0 i1 j1 k1 (i0 - agcw) (j0 - agcw) (k0 - agcw) (i1 + agcw) (j1 + agcw) (k1 + agcw) alpha a sgcw st β4 s1 = .ok s2 ∧ F.Only [(F.st3d st i0 j0 k0 i1 j1 k1 sgcw)] m s2 ∧
      F.Holds s2 (F.st3d st i0 j0 k0 i1 j1 k1 sgcw) S ∧ ∀ i j k, i0 ≤ i → i ≤ i1 → j0 ≤ j → j ≤ j1 → k0 ≤ k → k ≤ k1 → F.Coef3 alpha beta dx A B0 B1 B2 S i j k := by
  have h3 : F.Args m [(F.face3d0 b0 i0 j0 k0 i1 j1 k1 0), (F.face3d1 b1 i0 j0 k0 i1 j1 k1 0), (F.face3d2 b2 i0 j0 k0 i1 j1 k1 0)] [(F.st3d st i0 j0 k0 i1 j1 k1 sgcw)] := h.sub (by intro x hx; simp only [List.mem_cons, List.not_mem_nil, or_false] at hx ⊢; tauto) (by intro x hx; simp only [List.mem_cons, List.not_mem_nil, or_false] at hx ⊢; tauto)
  obtain ⟨s1, q1, -, K1, S1⟩ := offdiag3_run (dx := dx) (beta := beta) hi hj hk hs ⟨le_rfl, le_rfl⟩ ⟨le_rfl, le_rfl⟩ ⟨le_rfl, le_rfl⟩ h3
  obtain ⟨s1', d1, e1⟩ := C36_offdiag_3d (dx := dx) (beta := beta) hβ3 hi hj hk ⟨le_rfl, le_rfl⟩ ⟨le_rfl, le_rfl⟩ ⟨le_rfl, le_rfl⟩ hs h3
  obtain rfl : s1 = s1' := Except.ok.inj (q1.symm.trans e1)
  have ea : (F.cell3d a (i0 - agcw) (j0 - agcw) (k0 - agcw) (i1 + agcw) (j1 + agcw) (k1 + agcw) 0) = (F.cell3d a i0 j0 k0 i1 j1 k1 agcw) := by simp [F.cell3d]
  have h4 : F.Args s1 [(F.cell3d a (i0 - agcw) (j0 - agcw) (k0 - agcw) (i1 + agcw) (j1 + agcw) (k1 + agcw) 0)] [(F.st3d st i0 j0 k0 i1 j1 k1 sgcw)] := by rw [ea]; exact K1.args (h.sub (by intro x hx; simp only [List.mem_cons, List.not_mem_nil, or_false] at hx ⊢; tauto) (by intro x hx; simp only [List.mem_cons, List.not_mem_nil, or_false] at hx ⊢; tauto))
  obtain ⟨s2, q2, -, K2, S2, S3⟩ := v1diag3_run (alpha := alpha) hi hj hk hs ⟨by omega, by omega⟩ ⟨by omega, by omega⟩ ⟨by omega, by omega⟩ h4
  obtain ⟨s2', d2, e2⟩ := C36_v1diag_3d (alpha := alpha) hβ4 hi hj hk ⟨by omega, by omega⟩ ⟨by omega, by omega⟩ ⟨by omega, by omega⟩ hs h4
  obtain rfl : s2 = s2' := Except.ok.inj (q2.symm.trans e2)
  have hst := K2.ok (K1.ok (h.ok (F.st3d st i0 j0 k0 i1 j1 k1 sgcw) (by simp)))
  refine ⟨s1, s2, F.rd s2 (F.st3d st i0 j0 k0 i1 j1 k1 sgcw), d1, d2, K1.only.trans K2.only, fun is hi => hst.rd hi, fun i j k h0 h1 h2 h3 h4 h5 => ?_⟩
  obtain ⟨t1, t2, t3, t4, t5, t6⟩ := S1 i j k h0 h1 h2 h3 h4 h5
  have t0 := (S2 i j k h0 h1 h2 h3 h4 h5).rd
  have r1 := S3 i j k 1 h0 h1 h2 h3 h4 h5 (by decide) (by decide)
  have r2 := S3 i j k 2 h0 h1 h2 h3 h4 h5 (by decide) (by decide)
  have r3 := S3 i j k 3 h0 h1 h2 h3 h4 h5 (by decide) (by decide)
  have r4 := S3 i j k 4 h0 h1 h2 h3 h4 h5 (by decide) (by decide)
  have r5 := S3 i j k 5 h0 h1 h2 h3 h4 h5 (by decide) (by decide)
  have r6 := S3 i j k 6 h0 h1 h2 h3 h4 h5 (by decide) (by decide)
  rw [← r1, ← r2, ← r3, ← r4, ← r5, ← r6] at t0
  rw [t1.rd] at r1
  rw [t2.rd] at r2
  rw [t3.rd] at r3
  rw [t4.rd] at r4
  rw [t5.rd] at r5
  rw [t6.rd] at r6
  have ra : F.rd s1 (F.cell3d a i0 j0 k0 i1 j1 k1 agcw) [i, j, k] = F.rd m (F.cell3d a i0 j0 k0 i1 j1 k1 agcw) [i, j, k] := K1.rd (by simp only [List.mem_cons, List.not_mem_nil, or_false, forall_eq]; exact h.apart _ (by simp) _ (by simp)) (by in_bounds)
  rw [ea, ra, (hA [i, j, k] (by in_bounds)).rd] at t0
  rw [(hB0 [i, j, k] (by in_bounds)).rd] at r1
  rw [(hB0 [i + 1, j, k] (by in_bounds)).rd] at r2
  rw [(hB1 [j, k, i] (by in_bounds)).rd] at r3
  rw [(hB1 [j + 1, k, i] (by in_bounds)).rd] at r4
  rw [(hB2 [k, i, j] (by in_bounds)).rd] at r5
  rw [(hB2 [k + 1, i, j] (by in_bounds)).rd] at r6
  exact ⟨t0, r1, r2, r3, r4, r5, r6⟩

theorem asm_v2_3 {i0 j0 k0 i1 j1 k1 sgcw : Int} {alpha beta : T} {dx : Nat → T} {b0 b1 b2 st : Ptr} {β3 β4 : Backend} {m : Mem T} {B0 B1 B2 : List Int → T} 
    (hβ3 : ValidBackend β3) (hβ4 : ValidBackend β4) (hi : i0 ≤ i1) (hj : j0 ≤ j1) (hk : k0 ≤ k1) (hs : 0 ≤ sgcw)
    (h : F.Args m [(F.face3d0 b0 i0 j0 k0 i1 j1 k1 0), (F.face3d1 b1 i0 j0 k0 i1 j1 k1 0), (F.face3d2 b2 i0 j0 k0 i1 j1 k1 0)] [(F.st3d st i0 j0 k0 i1 j1 k1 sgcw)]) (hB0 : F.Holds m (F.face3d0 b0 i0 j0 k0 i1 j1 k1 0) B0) (hB1 : F.Holds m (F.face3d1 b1 i0 j0 k0 i1 j1 k1 0) B1) (hB2 : F.Holds m (F.face3d2 b2 i0 j0 k0 i1 j1 k1 0) B2) :
    ∃ s1 s2, ∃ S : List Int → T, Cuda.offdiag3d i0 j0 k0 i1 j1 k1 i0 j0 k0 i1 j1 k1 dx beta b0 b1 b2 sgcw st β3 m = .ok s1 ∧ Cuda.v2diag3d i0 j0 k0 i1 j1 k1 alpha sgcw st β4 s1 = .ok s2 ∧ F.Only [(F.st3d st i0 j0 k0 i1 j1 k1 sgcw)] m s2 ∧
      F.Holds s2 (F.st3d st i0 j0 k0 i1 j1 k1 sgcw) S ∧ ∀ i j k, i0 ≤ i → i ≤ i1 → j0 ≤ j → j ≤ j1 → k0 ≤ k → k ≤ k1 → F.Coef3 alpha beta dx (fun _ => 1) B0 B1 B2 S i j k := by
  have h3 : F.Args m [(F.face3d0 b0 i0 j0 k0 i1 j1 k1 0), (F.face3d1 b1 i0 j0 k0 i1 j1 k1 0), (F.face3d2 b2 i0 j0 k0 i1 j1 k1 0)] [(F.st3d st i0 j0 k0 i1 j1 k1 sgcw)] := h.sub (by intro x hx; simp only [List.mem_cons, List.not_mem_nil, or_false] at hx ⊢; tauto) (by intro x hx; simp only [List.mem_cons, List.not_mem_nil, or_false] at hx ⊢; tauto)
  obtain ⟨s1, q1, -, K1, S1⟩ := offdiag3_run (dx := dx) (beta := beta) hi hj hk hs ⟨le_rfl, le_rfl⟩ ⟨le_rfl, le_rfl⟩ ⟨le_rfl, le_rfl⟩ h3
  obtain ⟨s1', d1, e1⟩ := C36_offdiag_3d (dx := dx) (beta := beta) hβ3 hi hj hk ⟨le_rfl, le_rfl⟩ ⟨le_rfl, le_rfl⟩ ⟨le_rfl, le_rfl⟩ hs h3
  obtain rfl : s1 = s1' := Except.ok.inj (q1.symm.trans e1)
  have h4 : F.Args s1 [] [(F.st3d st i0 j0 k0 i1 j1 k1 sgcw)] := K1.args (h.sub (by simp) (by intro x hx; simp only [List.mem_cons, List.not_mem_nil, or_false] at hx ⊢; tauto))
  obtain ⟨s2, q2, -, K2, S2, S3⟩ := v2diag3_run (alpha := alpha) hi hj hk hs h4
  obtain ⟨s2', d2, e2⟩ := C36_v2diag_3d (alpha := alpha) hβ4 hi hj hk hs h4
  obtain rfl : s2 = s2' := Except.ok.inj (q2.symm.trans e2)
  have hst := K2.ok (K1.ok (h.ok (F.st3d st i0 j0 k0 i1 j1 k1 sgcw) (by simp)))
  refine ⟨s1, s2, F.rd s2 (F.st3d st i0 j0 k0 i1 j1 k1 sgcw), d1, d2, K1.only.trans K2.only, fun is hi => hst.rd hi, fun i j k h0 h1 h2 h3 h4 h5 => ?_⟩
  obtain ⟨t1, t2, t3, t4, t5, t6⟩ := S1 i j k h0 h1 h2 h3 h4 h5
  have t0 := (S2 i j k h0 h1 h2 h3 h4 h5).rd
  have r1 := S3 i j k 1 h0 h1 h2 h3 h4 h5 (by decide) (by decide)
  have r2 := S3 i j k 2 h0 h1 h2 h3 h4 h5 (by decide) (by decide)
  have r3 := S3 i j k 3 h0 h1 h2 h3 h4 h5 (by decide) (by decide)
  have r4 := S3 i j k 4 h0 h1 h2 h3 h4 h5 (by decide) (by decide)
  have r5 := S3 i j k 5 h0 h1 h2 h3 h4 h5 (by decide) (by decide)
  have r6 := S3 i j k 6 h0 h1 h2 h3 h4 h5 (by decide) (by decide)
  rw [← r1, ← r2, ← r3, ← r4, ← r5, ← r6] at t0
  rw [t1.rd] at r1
  rw [t2.rd] at r2
  rw [t3.rd] at r3
  rw [t4.rd] at r4
  rw [t5.rd] at r5
  rw [t6.rd] at r6
  rw [(hB0 [i, j, k] (by in_bounds)).rd] at r1
  rw [(hB0 [i + 1, j, k] (by in_bounds)).rd] at r2
  rw [(hB1 [j, k, i] (by in_bounds)).rd] at r3
  rw [(hB1 [j + 1, k, i] (by in_bounds)).rd] at r4
  rw [(hB2 [k, i, j] (by in_bounds)).rd] at r5
  rw [(hB2 [k + 1, i, j] (by in_bounds)).rd] at r6
  exact ⟨(by rw [t0, mul_one]), r1, r2, r3, r4, r5, r6⟩

theorem asm_p_3 {i0 j0 k0 i1 j1 k1 sgcw : Int} {beta : T} {dx : Nat → T} {st : Ptr} {β3 β4 : Backend} {m : Mem T} 
    (hβ3 : ValidBackend β3) (hβ4 : ValidBackend β4) (hi : i0 ≤ i1) (hj : j0 ≤ j1) (hk : k0 ≤ k1) (hs : 0 ≤ sgcw)
    (h : F.Args m [] [(F.st3d st i0 j0 k0 i1 j1 k1 sgcw)])  :
    ∃ s1 s2, ∃ S : List Int → T, Cuda.poissonOffdiag3d i0 j0 k0 i1 j1 k1 dx beta sgcw st β3 m = .ok s1 ∧ Cuda.poissonDiag3d i0 j0 k0 i1 j1 k1 sgcw st β4 s1 = .ok s2 ∧ F.Only [(F.st3d st i0 j0 k0 i1 j1 k1 sgcw)] m s2 ∧
      F.Holds s2 (F.st3d st i0 j0 k0 i1 j1 k1 sgcw) S ∧ ∀ i j k, i0 ≤ i → i ≤ i1 → j0 ≤ j → j ≤ j1 → k0 ≤ k → k ≤ k1 → F.Coef3 0 beta dx (fun _ => 1) (fun _ => 1) (fun _ => 1) (fun _ => 1) S i j k := by
  have h3 : F.Args m [] [(F.st3d st i0 j0 k0 i1 j1 k1 sgcw)] := h.sub (by simp) (by intro x hx; simp only [List.mem_cons, List.not_mem_nil, or_false] at hx ⊢; tauto)
  obtain ⟨s1, q1, -, K1, S1⟩ := poffdiag3_run (dx := dx) (beta := beta) hi hj hk hs h3
  obtain ⟨s1', d1, e1⟩ := C36_poisson_offdiag_3d (dx := dx) (beta := beta) hβ3 hi hj hk hs h3
  obtain rfl : s1 = s1' := Except.ok.inj (q1.symm.trans e1)
  have h4 : F.Args s1 [] [(F.st3d st i0 j0 k0 i1 j1 k1 sgcw)] := K1.args (h.sub (by simp) (by intro x hx; simp only [List.mem_cons, List.not_mem_nil, or_false] at hx ⊢; tauto))
  obtain ⟨s2, q2, -, K2, S2, S3⟩ := pdiag3_run hi hj hk hs h4
  obtain ⟨s2', d2, e2⟩ := C36_poisson_diag_3d hβ4 hi hj hk hs h4
  obtain rfl : s2 = s2' := Except.ok.inj (q2.symm.trans e2)
  have hst := K2.ok (K1.ok (h.ok (F.st3d st i0 j0 k0 i1 j1 k1 sgcw) (by simp)))
  refine ⟨s1, s2, F.rd s2 (F.st3d st i0 j0 k0 i1 j1 k1 sgcw), d1, d2, K1.only.trans K2.only, fun is hi => hst.rd hi, fun i j k h0 h1 h2 h3 h4 h5 => ?_⟩
  obtain ⟨t1, t2, t3, t4, t5, t6⟩ := S1 i j k h0 h1 h2 h3 h4 h5
  have t0 := (S2 i j k h0 h1 h2 h3 h4 h5).rd
  have r1 := S3 i j k 1 h0 h1 h2 h3 h4 h5 (by decide) (by decide)
  have r2 := S3 i j k 2 h0 h1 h2 h3 h4 h5 (by decide) (by decide)
  have r3 := S3 i j k 3 h0 h1 h2 h3 h4 h5 (by decide) (by decide)
  have r4 := S3 i j k 4 h0 h1 h2 h3 h4 h5 (by decide) (by decide)
  have r5 := S3 i j k 5 h0 h1 h2 h3 h4 h5 (by decide) (by decide)
  have r6 := S3 i j k 6 h0 h1 h2 h3 h4 h5 (by decide) (by decide)
  rw [← r1, ← r2, ← r3, ← r4, ← r5, ← r6] at t0
  rw [t1.rd] at r1
  rw [t2.rd] at r2
  rw [t3.rd] at r3
  rw [t4.rd] at r4
  rw [t5.rd] at r5
  rw [t6.rd] at r6
  exact ⟨(by rw [t0, zero_mul, add_zero]), (by rw [r1, mul_one]), (by rw [r2, mul_one]), (by rw [r3, mul_one]), (by rw [r4, mul_one]), (by rw [r5, mul_one]), (by rw [r6, mul_one])⟩

theorem prob_v1_1 {i0 i1 agcw sgcw gcw fgcw : Int} {alpha beta : T} {dx : Nat → T} {a b0 st u rhs o : Ptr} {β3 β4 : Backend} {m : Mem T} {A B0 : List Int → T} {G U : List Int → T}
    (hβ3 : ValidBackend β3) (hβ4 : ValidBackend β4) (hi : i0 ≤ i1) (hagcw : 0 ≤ agcw) (hs : 0 ≤ sgcw) (hg : 1 ≤ gcw) (hfg : 0 ≤ fgcw)
    (h : F.Args m [(F.cell1d a i0 i1 agcw), (F.face1d b0 i0 i1 0), (F.cell1d u i0 i1 gcw), (F.cell1d rhs i0 i1 fgcw)] [(F.st1d st i0 i1 sgcw)]) (huf : F.Apart (F.cell1d u i0 i1 gcw) (F.cell1d rhs i0 i1 fgcw)) (hA : F.Holds m (F.cell1d a i0 i1 agcw) A) (hB0 : F.Holds m (F.face1d b0 i0 i1 0) B0)
    (hU : F.Holds m (F.cell1d u i0 i1 gcw) U) (hG : F.Holds m (F.cell1d rhs i0 i1 fgcw) G) (ht : F.Rows m (F.offset0 o 1 3) F.points1) :
    ∃ s1 s2, ∃ S : List Int → T, Cuda.offdiag1d i0 i1 i0 i1 dx beta b0 sgcw st β3 m = .ok s1 ∧ Cuda.v1diag1d i0 i1 (i0 - agcw) (i1 + agcw) alpha a sgcw st β4 s1 = .ok s2 ∧ F.Only [(F.st1d st i0 i1 sgcw)] m s2 ∧
      F.Problem s2 [(i0, i1)] 3 (F.offset0 o 1 3) (F.sm1d st 3 (i0 - sgcw) (i1 + sgcw)) (F.box1d rhs (i0 - fgcw) (i1 + fgcw)) (F.box1d u (i0 - gcw) (i1 + gcw)) (F.row F.points1) S G U ∧
      ∀ i, i0 ≤ i → i ≤ i1 → F.Coef1 alpha beta dx A B0 S i := by
  obtain ⟨s1, s2, S, c1, c2, ho, hS, hc⟩ := asm_v1_1 (alpha := alpha) (beta := beta) (dx := dx) hβ3 hβ4 hi hagcw hs (h.sub (by intro x hx; simp only [List.mem_cons, List.not_mem_nil, or_false] at hx ⊢; tauto) (fun _ e => e)) hA hB0
  refine ⟨s1, s2, S, c1, c2, ho, ?_, hc⟩
  exact {
    size := by decide
    table := fun s h0 h1 => F.rows_table (N := 1) (ht.only ho) rfl (by decide) h0 h1
    holdsSt := hS
    holdsF := hG.only ho (by simp only [List.mem_cons, List.not_mem_nil, or_false, forall_eq]; exact h.apart _ (by simp) _ (by simp))
    holdsU := hU.only ho (by simp only [List.mem_cons, List.not_mem_nil, or_false, forall_eq]; exact h.apart _ (by simp) _ (by simp))
    inSt := fun p hp s h0 h1 => by
      rw [F.inBounds1] at hp
      obtain ⟨i, rfl, hp⟩ := hp
      simp only [F.sm1d, F.InBounds, and_true]
      omega
    inF := fun p hp => by
      rw [F.inBounds1] at hp
      obtain ⟨i, rfl, hp⟩ := hp
      simp only [F.box1d, F.InBounds, and_true]
      omega
    inU := fun p hp => by
      rw [F.inBounds1] at hp
      obtain ⟨i, rfl, hp⟩ := hp
      simp only [F.box1d, F.InBounds, and_true]
      omega
    near := fun p hp s h0 h1 => by
      rw [F.inBounds1] at hp
      obtain ⟨i, rfl, hp⟩ := hp
      have : s = 0 ∨ s = 1 ∨ s = 2 := by omega
      rcases this with rfl | rfl | rfl
      · rw [F.shift1_0]; simp only [F.box1d, F.InBounds, and_true]; omega
      · rw [F.shift1_1]; simp only [F.box1d, F.InBounds, and_true]; omega
      · rw [F.shift1_2]; simp only [F.box1d, F.InBounds, and_true]; omega
    apartSt := F.apart_symm (h.apart (F.st1d st i0 i1 sgcw) (by simp) (F.cell1d u i0 i1 gcw) (by simp))
    apartF := huf }

theorem prob_v2_1 {i0 i1 sgcw gcw fgcw : Int} {alpha beta : T} {dx : Nat → T} {b0 st u rhs o : Ptr} {β3 β4 : Backend} {m : Mem T} {B0 : List Int → T} {G U : List Int → T}
    (hβ3 : ValidBackend β3) (hβ4 : ValidBackend β4) (hi : i0 ≤ i1) (hs : 0 ≤ sgcw) (hg : 1 ≤ gcw) (hfg : 0 ≤ fgcw)
    (h : F.Args m [(F.face1d b0 i0 i1 0), (F.cell1d u i0 i1 gcw), (F.cell1d rhs i0 i1 fgcw)] [(F.st1d st i0 i1 sgcw)]) (huf : F.Apart (F.cell1d u i0 i1 gcw) (F.cell1d rhs i0 i1 fgcw)) (hB0 : F.Holds m (F.face1d b0 i0 i1 0) B0)
    (hU : F.Holds m (F.cell1d u i0 i1 gcw) U) (hG : F.Holds m (F.cell1d rhs i0 i1 fgcw) G) (ht : F.Rows m (F.offset0 o 1 3) F.points1) :
    ∃ s1 s2, ∃ S : List Int → T, Cuda.offdiag1d i0 i1 i0 i1 dx beta b0 sgcw st β3 m = .ok s1 ∧ Cuda.v2diag1d i0 i1 alpha sgcw st β4 s1 = .ok s2 ∧ F.Only [(F.st1d st i0 i1 sgcw)] m s2 ∧
      F.Problem s2 [(i0, i1)] 3 (F.offset0 o 1 3) (F.sm1d st 3 (i0 - sgcw) (i1 + sgcw)) (F.box1d rhs (i0 - fgcw) (i1 + fgcw)) (F.box1d u (i0 - gcw) (i1 + gcw)) (F.row F.points1) S G U ∧
      ∀ i, i0 ≤ i → i ≤ i1 → F.Coef1 alpha beta dx (fun _ => 1) B0 S i := by
  obtain ⟨s1, s2, S, c1, c2, ho, hS, hc⟩ := asm_v2_1 (alpha := alpha) (beta := beta) (dx := dx) hβ3 hβ4 hi hs (h.sub (by intro x hx; simp only [List.mem_cons, List.not_mem_nil, or_false] at hx ⊢; tauto) (fun _ e => e)) hB0
  refine ⟨s1, s2, S, c1, c2, ho, ?_, hc⟩
  exact {
    size := by decide
    table := fun s h0 h1 => F.rows_table (N := 1) (ht.only ho) rfl (by decide) h0 h1
    holdsSt := hS
    holdsF := hG.only ho (by simp only [List.mem_cons, List.not_mem_nil, or_false, forall_eq]; exact h.apart _ (by simp) _ (by simp))
    holdsU := hU.only ho (by simp only [List.mem_cons, List.not_mem_nil, or_false, forall_eq]; exact h.apart _ (by simp) _ (by simp))
    inSt := fun p hp s h0 h1 => by
      rw [F.inBounds1] at hp
      obtain ⟨i, rfl, hp⟩ := hp
      simp only [F.sm1d, F.InBounds, and_true]
      omega
    inF := fun p hp => by
      rw [F.inBounds1] at hp
      obtain ⟨i, rfl, hp⟩ := hp
      simp only [F.box1d, F.InBounds, and_true]
      omega
    inU := fun p hp => by
      rw [F.inBounds1] at hp
      obtain ⟨i, rfl, hp⟩ := hp
      simp only [F.box1d, F.InBounds, and_true]
      omega
    near := fun p hp s h0 h1 => by
      rw [F.inBounds1] at hp
      obtain ⟨i, rfl, hp⟩ := hp
      have : s = 0 ∨ s = 1 ∨ s = 2 := by omega
      rcases this with rfl | rfl | rfl
      · rw [F.shift1_0]; simp only [F.box1d, F.InBounds, and_true]; omega
      · rw [F.shift1_1]; simp only [F.box1d, F.InBounds, and_true]; omega
      · rw [F.shift1_2]; simp only [F.box1d, F.InBounds, and_true]; omega
    apartSt := F.apart_symm (h.apart (F.st1d st i0 i1 sgcw) (by simp) (F.cell1d u i0 i1 gcw) (by simp))
    apartF := huf }

theorem prob_p_1 {i0 i1 sgcw gcw fgcw : Int} {beta : T} {dx : Nat → T} {st u rhs o : Ptr} {β3 β4 : Backend} {m : Mem T} {G U : List Int → T}
    (hβ3 : ValidBackend β3) (hβ4 : ValidBackend β4) (hi : i0 ≤ i1) (hs : 0 ≤ sgcw) (hg : 1 ≤ gcw) (hfg : 0 ≤ fgcw)
    (h : F.Args m [(F.cell1d u i0 i1 gcw), (F.cell1d rhs i0 i1 fgcw)] [(F.st1d st i0 i1 sgcw)]) (huf : F.Apart (F.cell1d u i0 i1 gcw) (F.cell1d rhs i0 i1 fgcw)) 
    (hU : F.Holds m (F.cell1d u i0 i1 gcw) U) (hG : F.Holds m (F.cell1d rhs i0 i1 fgcw) G) (ht : F.Rows m (F.offset0 o 1 3) F.points1) :
    ∃ s1 s2, ∃ S : List Int → T, Cuda.poissonOffdiag1d i0 i1 dx beta sgcw st β3 m = .ok s1 ∧ Cuda.poissonDiag1d i0 i1 sgcw st β4 s1 = .ok s2 ∧ F.Only [(F.st1d st i0 i1 sgcw)] m s2 ∧
      F.Problem s2 [(i0, i1)] 3 (F.offset0 o 1 3) (F.sm1d st 3 (i0 - sgcw) (i1 + sgcw)) (F.box1d rhs (i0 - fgcw) (i1 + fgcw)) (F.box1d u (i0 - gcw) (i1 + gcw)) (F.row F.points1) S G U ∧
      ∀ i, i0 ≤ i → i ≤ i1 → F.Coef1 0 beta dx (fun _ => 1) (fun _ => 1) S i := by
  obtain ⟨s1, s2, S, c1, c2, ho, hS, hc⟩ := asm_p_1 (beta := beta) (dx := dx) hβ3 hβ4 hi hs (h.sub (by simp) (fun _ e => e)) 
  refine ⟨s1, s2, S, c1, c2, ho, ?_, hc⟩
  exact {
    size := by decide
    table := fun s h0 h1 => F.rows_table (N := 1) (ht.only ho) rfl (by decide) h0 h1
    holdsSt := hS
    holdsF := hG.only ho (by simp only [List.mem_cons, List.not_mem_nil, or_false, forall_eq]; exact h.apart _ (by simp) _ (by simp))
    holdsU := hU.only ho (by simp only [List.mem_cons, List.not_mem_nil, or_false, forall_eq]; exact h.apart _ (by simp) _ (by simp))
    inSt := fun p hp s h0 h1 => by
      rw [F.inBounds1] at hp
      obtain ⟨i, rfl, hp⟩ := hp
      simp only [F.sm1d, F.InBounds, and_true]
      omega
    inF := fun p hp => by
      rw [F.inBounds1] at hp
      obtain ⟨i, rfl, hp⟩ := hp
      simp only [F.box1d, F.InBounds, and_true]
      omega
    inU := fun p hp => by
      rw [F.inBounds1] at hp
      obtain ⟨i, rfl, hp⟩ := hp
      simp only [F.box1d, F.InBounds, and_true]
      omega
    near := fun p hp s h0 h1 => by
      rw [F.inBounds1] at hp
      obtain ⟨i, rfl, hp⟩ := hp
      have : s = 0 ∨ s = 1 ∨ s = 2 := by omega
      rcases this with rfl | rfl | rfl
      · rw [F.shift1_0]; simp only [F.box1d, F.InBounds, and_true]; omega
      · rw [F.shift1_1]; simp only [F.box1d, F.InBounds, and_true]; omega
      · rw [F.shift1_2]; simp only [F.box1d, F.InBounds, and_true]; omega
    apartSt := F.apart_symm (h.apart (F.st1d st i0 i1 sgcw) (by simp) (F.cell1d u i0 i1 gcw) (by simp))
    apartF := huf }

theorem prob_v1_2 {i0 j0 i1 j1 agcw sgcw gcw fgcw : Int} {alpha beta : T} {dx : Nat → T} {a b0 b1 st u rhs o : Ptr} {β3 β4 : Backend} {m : Mem T} {A B0 B1 : List Int → T} {G U : List Int → T}
    (hβ3 : ValidBackend β3) (hβ4 : ValidBackend β4) (hi : i0 ≤ i1) (hj : j0 ≤ j1) (hagcw : 0 ≤ agcw) (hs : 0 ≤ sgcw) (hg : 1 ≤ gcw) (hfg : 0 ≤ fgcw)
    (h : F.Args m [(F.cell2d a i0 j0 i1 j1 agcw), (F.face2d0 b0 i0 j0 i1 j1 0), (F.face2d1 b1 i0 j0 i1 j1 0), (F.cell2d u i0 j0 i1 j1 gcw), (F.cell2d rhs i0 j0 i1 j1 fgcw)] [(F.st2d st i0 j0 i1 j1 sgcw)]) (huf : F.Apart (F.cell2d u i0 j0 i1 j1 gcw) (F.cell2d rhs i0 j0 i1 j1 fgcw)) (hA : F.Holds m (F.cell2d a i0 j0 i1 j1 agcw) A) (hB0 : F.Holds m (F.face2d0 b0 i0 j0 i1 j1 0) B0) (hB1 : F.Holds m (F.face2d1 b1 i0 j0 i1 j1 0) B1)
    (hU : F.Holds m (F.cell2d u i0 j0 i1 j1 gcw) U) (hG : F.Holds m (F.cell2d rhs i0 j0 i1 j1 fgcw) G) (ht : F.Rows m (F.offset0 o 2 5) F.points2) :
    ∃ s1 s2, ∃ S : List Int → T, Cuda.offdiag2d i0 j0 i1 j1 i0 j0 i1 j1 dx beta b0 b1 sgcw st β3 m = .ok s1 ∧ Cuda.v1diag2d i0 j0 i1 j1 (i0 - agcw) (j0 - agcw) (i1 + agcw) (j1 + agcw) alpha a sgcw st β4 s1 = .ok s2 ∧ F.Only [(F.st2d st i0 j0 i1 j1 sgcw)] m s2 ∧
      F.Problem s2 [(i0, i1), (j0, j1)] 5 (F.offset0 o 2 5) (F.sm2d st 5 (i0 - sgcw) (j0 - sgcw) (i1 + sgcw) (j1 + sgcw)) (F.box2d rhs (i0 - fgcw) (j0 - fgcw) (i1 + fgcw) (j1 + fgcw)) (F.box2d u (i0 - gcw) (j0 - gcw) (i1 + gcw) (j1 + gcw)) (F.row F.points2) S G U ∧
      ∀ i j, i0 ≤ i → i ≤ i1 → j0 ≤ j → j ≤ j1 → F.Coef2 alpha beta dx A B0 B1 S i j := by
  obtain ⟨s1, s2, S, c1, c2, ho, hS, hc⟩ := asm_v1_2 (alpha := alpha) (beta := beta) (dx := dx) hβ3 hβ4 hi hj hagcw hs (h.sub (by intro x hx; simp only [List.mem_cons, List.not_mem_nil, or_false] at hx ⊢; tauto) (fun _ e => e)) hA hB0 hB1
  refine ⟨s1, s2, S, c1, c2, ho, ?_, hc⟩
  exact {
    size := by decide
    table := fun s h0 h1 => F.rows_table (N := 2) (ht.only ho) rfl (by decide) h0 h1
    holdsSt := hS
    holdsF := hG.only ho (by simp only [List.mem_cons, List.not_mem_nil, or_false, forall_eq]; exact h.apart _ (by simp) _ (by simp))
    holdsU := hU.only ho (by simp only [List.mem_cons, List.not_mem_nil, or_false, forall_eq]; exact h.apart _ (by simp) _ (by simp))
    inSt := fun p hp s h0 h1 => by
      rw [F.inBounds2] at hp
      obtain ⟨i, j, rfl, hp⟩ := hp
      simp only [F.sm2d, F.InBounds, and_true]
      omega
    inF := fun p hp => by
      rw [F.inBounds2] at hp
      obtain ⟨i, j, rfl, hp⟩ := hp
      simp only [F.box2d, F.InBounds, and_true]
      omega
    inU := fun p hp => by
      rw [F.inBounds2] at hp
      obtain ⟨i, j, rfl, hp⟩ := hp
      simp only [F.box2d, F.InBounds, and_true]
      omega
    near := fun p hp s h0 h1 => by
      rw [F.inBounds2] at hp
      obtain ⟨i, j, rfl, hp⟩ := hp
      have : s = 0 ∨ s = 1 ∨ s = 2 ∨ s = 3 ∨ s = 4 := by omega
      rcases this with rfl | rfl | rfl | rfl | rfl
      · rw [F.shift2_0]; simp only [F.box2d, F.InBounds, and_true]; omega
      · rw [F.shift2_1]; simp only [F.box2d, F.InBounds, and_true]; omega
      · rw [F.shift2_2]; simp only [F.box2d, F.InBounds, and_true]; omega
      · rw [F.shift2_3]; simp only [F.box2d, F.InBounds, and_true]; omega
      · rw [F.shift2_4]; simp only [F.box2d, F.InBounds, and_true]; omega
    apartSt := F.apart_symm (h.apart (F.st2d st i0 j0 i1 j1 sgcw) (by simp) (F.cell2d u i0 j0 i1 j1 gcw) (by simp))
    apartF := huf }

theorem prob_v2_2 {i0 j0 i1 j1 sgcw gcw fgcw : Int} {alpha beta : T} {dx : Nat → T} {b0 b1 st u rhs o : Ptr} {β3 β4 : Backend} {m : Mem T} {B0 B1 : List Int → T} {G U : List Int → T}
    (hβ3 : ValidBackend β3) (hβ4 : ValidBackend β4) (hi : i0 ≤ i1) (hj : j0 ≤ j1) (hs : 0 ≤ sgcw) (hg : 1 ≤ gcw) (hfg : 0 ≤ fgcw)
    (h : F.Args m [(F.face2d0 b0 i0 j0 i1 j1 0), (F.face2d1 b1 i0 j0 i1 j1 0), (F.cell2d u i0 j0 i1 j1 gcw), (F.cell2d rhs i0 j0 i1 j1 fgcw)] [(F.st2d st i0 j0 i1 j1 sgcw)]) (huf : F.Apart (F.cell2d u i0 j0 i1 j1 gcw) (F.cell2d rhs i0 j0 i1 j1 fgcw)) (hB0 : F.Holds m (F.face2d0 b0 i0 j0 i1 j1 0) B0) (hB1 : F.Holds m (F.face2d1 b1 i0 j0 i1 j1 0) B1)
    (hU : F.Holds m (F.cell2d u i0 j0 i1 j1 gcw) U) (hG : F.Holds m (F.cell2d rhs i0 j0 i1 j1 fgcw) G) (ht : F.Rows m (F.offset0 o 2 5) F.points2) :
    ∃ s1 s2, ∃ S : List Int → T, Cuda.offdiag2d i0 j0 i1 j1 i0 j0 i1 j1 dx beta b0 b1 sgcw st β3 m = .ok s1 ∧ Cuda.v2diag2d i0 j0 i1 j1 alpha sgcw st β4 s1 = .ok s2 ∧ F.Only [(F.st2d st i0 j0 i1 j1 sgcw)] m s2 ∧
      F.Problem s2 [(i0, i1), (j0, j1)] 5 (F.offset0 o 2 5) (F.sm2d st 5 (i0 - sgcw) (j0 - sgcw) (i1 + sgcw) (j1 + sgcw)) (F.box2d rhs (i0 - fgcw) (j0 - fgcw) (i1 + fgcw) (j1 + fgcw)) (F.box2d u (i0 - gcw) (j0 - gcw) (i1 + gcw) (j1 + gcw)) (F.row F.points2) S G U ∧
      ∀ i j, i0 ≤ i → i ≤ i1 → j0 ≤ j → j ≤ j1 → F.Coef2 alpha beta dx (fun _ => 1) B0 B1 S i j := by
  obtain ⟨s1, s2, S, c1, c2, ho, hS, hc⟩ := asm_v2_2 (alpha := alpha) (beta := beta) (dx := dx) hβ3 hβ4 hi hj hs (h.sub (by intro x hx; simp only [List.mem_cons, List.not_mem_nil, or_false] at hx ⊢; tauto) (fun _ e => e)) hB0 hB1
  refine ⟨s1, s2, S, c1, c2, ho, ?_, hc⟩
  exact {
    size := by decide
    table := fun s h0 h1 => F.rows_table (N := 2) (ht.only ho) rfl (by decide) h0 h1
    holdsSt := hS
    holdsF := hG.only ho (by simp only [List.mem_cons, List.not_mem_nil, or_false, forall_eq]; exact h.apart _ (by simp) _ (by simp))
    holdsU := hU.only ho (by simp only [List.mem_cons, List.not_mem_nil, or_false, forall_eq]; exact h.apart _ (by simp) _ (by simp))
    inSt := fun p hp s h0 h1 => by
      rw [F.inBounds2] at hp
      obtain ⟨i, j, rfl, hp⟩ := hp
      simp only [F.sm2d, F.InBounds, and_true]
      omega
    inF := fun p hp => by
      rw [F.inBounds2] at hp
      obtain ⟨i, j, rfl, hp⟩ := hp
      simp only [F.box2d, F.InBounds, and_true]
      omega
    inU := fun p hp => by
      rw [F.inBounds2] at hp
      obtain ⟨i, j, rfl, hp⟩ := hp
      simp only [F.box2d, F.InBounds, and_true]
      omega
    near := fun p hp s h0 h1 => by
      rw [F.inBounds2] at hp
      obtain ⟨i, j, rfl, hp⟩ := hp
      have : s = 0 ∨ s = 1 ∨ s = 2 ∨ s = 3 ∨ s = 4 := by omega
      rcases this with rfl | rfl | rfl | rfl | rfl
      · rw [F.shift2_0]; simp only [F.box2d, F.InBounds, and_true]; omega
      · rw [F.shift2_1]; simp only [F.box2d, F.InBounds, and_true]; omega
      · rw [F.shift2_2]; simp only [F.box2d, F.InBounds, and_true]; omega
      · rw [F.shift2_3]; simp only [F.box2d, F.InBounds, and_true]; omega
      · rw [F.shift2_4]; simp only [F.box2d, F.InBounds, and_true]; omega
    apartSt := F.apart_symm (h.apart (F.st2d st i0 j0 i1 j1 sgcw) (by simp) (F.cell2d u i0 j0 i1 j1 gcw) (by simp))
    apartF := huf }

theorem prob_p_2 {i0 j0 i1 j1 sgcw gcw fgcw : Int} {beta : T} {dx : Nat → T} {st u rhs o : Ptr} {β3 β4 : Backend} {m : Mem T} {G U : List Int → T}
    (hβ3 : ValidBackend β3) (hβ4 : ValidBackend β4) (hi : i0 ≤ i1) (hj : j0 ≤ j1) (hs : 0 ≤ sgcw) (hg : 1 ≤ gcw) (hfg : 0 ≤ fgcw)
    (h : F.Args m [(F.cell2d u i0 j0 i1 j1 gcw), (F.cell2d rhs i0 j0 i1 j1 fgcw)] [(F.st2d st i0 j0 i1 j1 sgcw)]) (huf : F.Apart (F.cell2d u i0 j0 i1 j1 gcw) (F.cell2d rhs i0 j0 i1 j1 fgcw)) 
    (hU : F.Holds m (F.cell2d u i0 j0 i1 j1 gcw) U) (hG : F.Holds m (F.cell2d rhs i0 j0 i1 j1 fgcw) G) (ht : F.Rows m (F.offset0 o 2 5) F.points2) :
    ∃ s1 s2, ∃ S : List Int → T, Cuda.poissonOffdiag2d i0 j0 i1 j1 dx beta sgcw st β3 m = .ok s1 ∧ Cuda.poissonDiag2d i0 j0 i1 j1 sgcw st β4 s1 = .ok s2 ∧ F.Only [(F.st2d st i0 j0 i1 j1 sgcw)] m s2 ∧
      F.Problem s2 [(i0, i1), (j0, j1)] 5 (F.offset0 o 2 5) (F.sm2d st 5 (i0 - sgcw) (j0 - sgcw) (i1 + sgcw) (j1 + sgcw)) (F.box2d rhs (i0 - fgcw) (j0 - fgcw) (i1 + fgcw) (j1 + fgcw)) (F.box2d u (i0 - gcw) (j0 - gcw) (i1 + gcw) (j1 + gcw)) (F.row F.points2) S G U ∧
      ∀ i j, i0 ≤ i → i ≤ i1 → j0 ≤ j → j ≤ j1 → F.Coef2 0 beta dx (fun _ => 1) (fun _ => 1) (fun _ => 1) S i j := by
  obtain ⟨s1, s2, S, c1, c2, ho, hS, hc⟩ := asm_p_2 (beta := beta) (dx := dx) hβ3 hβ4 hi hj hs (h.sub (by simp) (fun _ e => e)) 
  refine ⟨s1, s2, S, c1, c2, ho, ?_, hc⟩
  exact {
    size := by decide
    table := fun s h0 h1 => F.rows_table (N := 2) (ht.only ho) rfl (by decide) h0 h1
    holdsSt := hS
    holdsF := hG.only ho (by simp only [List.mem_cons, List.not_mem_nil, or_false, forall_eq]; exact h.apart _ (by simp) _ (by simp))
    holdsU := hU.only ho (by simp only [List.mem_cons, List.not_mem_nil, or_false, forall_eq]; exact h.apart _ (by simp) _ (by simp))
    inSt := fun p hp s h0 h1 => by
      rw [F.inBounds2] at hp
      obtain ⟨i, j, rfl, hp⟩ := hp
      simp only [F.sm2d, F.InBounds, and_true]
      omega
    inF := fun p hp => by
      rw [F.inBounds2] at hp
      obtain ⟨i, j, rfl, hp⟩ := hp
      simp only [F.box2d, F.InBounds, and_true]
      omega
    inU := fun p hp => by
      rw [F.inBounds2] at hp
      obtain ⟨i, j, rfl, hp⟩ := hp
      simp only [F.box2d, F.InBounds, and_true]
      omega
    near := fun p hp s h0 h1 => by
      rw [F.inBounds2] at hp
      obtain ⟨i, j, rfl, hp⟩ := hp
      have : s = 0 ∨ s = 1 ∨ s = 2 ∨ s = 3 ∨ s = 4 := by omega
      rcases this with rfl | rfl | rfl | rfl | rfl
      · rw [F.shift2_0]; simp only [F.box2d, F.InBounds, and_true]; omega
      · rw [F.shift2_1]; simp only [F.box2d, F.InBounds, and_true]; omega
      · rw [F.shift2_2]; simp only [F.box2d, F.InBounds, and_true]; omega
      · rw [F.shift2_3]; simp only [F.box2d, F.InBounds, and_true]; omega
      · rw [F.shift2_4]; simp only [F.box2d, F.InBounds, and_true]; omega
    apartSt := F.apart_symm (h.apart (F.st2d st i0 j0 i1 j1 sgcw) (by simp) (F.cell2d u i0 j0 i1 j1 gcw) (by simp))
    apartF := huf }

theorem prob_v1_3 {i0 j0 k0 i1 j1 k1 agcw sgcw gcw fgcw : Int} {alpha beta : T} {dx : Nat → T} {a b0 b1 b2 st u rhs o : Ptr} {β3 β4 : Backend} {m : Mem T} {A B0 B1 B2 : List Int → T} {G U : List Int → T}
    (hβ3 : ValidBackend β3) (hβ4 : ValidBackend β4) (hi : i0 ≤ i1) (hj : j0 ≤ j1) (hk : k0 ≤ k1) (hagcw : 0 ≤ agcw) (hs : 0 ≤ sgcw) (hg : 1 ≤ gcw) (hfg : 0 ≤ fgcw)
    (h : F.Args m [(F.cell3d a i0 j0 k0 i1 j1 k1 agcw), (F.face3d0 b0 i0 j0 k0 i1 j1 k1 0), (F.face3d1 b1 i0 j0 k0 i1 j1 k1 0), (F.face3d2 b2 i0 j0 k0 i1 j1 k1 0), (F.cell3d u i0 j0 k0 i1 j1 k1 gcw), (F.cell3d rhs i0 j0 k0 i1 j1 k1 fgcw)] [(F.st3d st i0 j0 k0 i1 j1 k1 sgcw)]) (huf : F.Apart (F.cell3d u i0 j0 k0 i1 j1 k1 gcw) (F.cell3d rhs i0 j0 k0 i1 j1 k1 fgcw)) (hA : F.Holds m (F.cell3d a i0 j0 k0 i1 j1 k1 agcw) A) (hB0 : F.Holds m (F.face3d0 b0 i0 j0 k0 i1 j1 k1 0) B0) (hB1 : F.Holds m (F.face3d1 b1 i0 j0 k0 i1 j1 k1 0) B1) (hB2 : F.Holds m (F.face3d2 b2 i0 j0 k0 i1 j1 k1 0) B2)
    (hU : F.Holds m (F.cell3d u i0 j0 k0 i1 j1 k1 gcw) U) (hG : F.Holds m (F.cell3d rhs i0 j0 k0 i1 j1 k1 fgcw) G) (ht : F.Rows m (F.offset0 o 3 7) F.points3) :
    ∃ s1 s2, ∃ S : List Int → T, Cuda.offdiag3d i0 j0 k0 i1 j1 k1 i0 j0 k0 i1 j1 k1 dx beta b0 b1 b2 sgcw st β3 m = .ok s1 ∧ Cuda.v1diag3d i0 j0 k0 i1 j1 k1 (i0 - agcw) (j0 - agcw) (k0 - agcw) (i1 + agcw) (j1 + agcw) (k1 + agcw) alpha a sgcw st β4 s1 = .ok s2 ∧ F.Only [(F.st3d st i0 j0 k0 i1 j1 k1 sgcw)] m s2 ∧
      F.Problem s2 [(i0, i1), (j0, j1), (k0, k1)] 7 (F.offset0 o 3 7) (F.sm3d st 7 (i0 - sgcw) (j0 - sgcw) (k0 - sgcw) (i1 + sgcw) (j1 + sgcw) (k1 + sgcw)) (F.box3d rhs (i0 - fgcw) (j0 - fgcw) (k0 - fgcw) (i1 + fgcw) (j1 + fgcw) (k1 + fgcw)) (F.box3d u (i0 - gcw) (j0 - gcw) (k0 - gcw) (i1 + gcw) (j1 + gcw) (k1 + gcw)) (F.row F.points3) S G U ∧
      ∀ i j k, i0 ≤ i → i ≤ i1 → j0 ≤ j → j ≤ j1 → k0 ≤ k → k ≤ k1 → F.Coef3 alpha beta dx A B0 B1 B2 S i j k := by
  obtain ⟨s1, s2, S, c1, c2, ho, hS, hc⟩ := asm_v1_3 (alpha := alpha) (beta := beta) (dx := dx) hβ3 hβ4 hi hj hk hagcw hs (h.sub (by intro x hx; simp only [List.mem_cons, List.not_mem_nil, or_false] at hx ⊢; tauto) (fun _ e => e)) hA hB0 hB1 hB2
  refine ⟨s1, s2, S, c1, c2, ho, ?_, hc⟩
  exact {
    size := by decide
    table := fun s h0 h1 => F.rows_table (N := 3) (ht.only ho) rfl (by decide) h0 h1
    holdsSt := hS
    holdsF := hG.only ho (by simp only [List.mem_cons, List.not_mem_nil, or_false, forall_eq]; exact h.apart _ (by simp) _ (by simp))
    holdsU := hU.only ho (by simp only [List.mem_cons, List.not_mem_nil, or_false, forall_eq]; exact h.apart _ (by simp) _ (by simp))
    inSt := fun p hp s h0 h1 => by
      rw [F.inBounds3] at hp
      obtain ⟨i, j, k, rfl, hp⟩ := hp
      simp only [F.sm3d, F.InBounds, and_true]
      omega
    inF := fun p hp => by
      rw [F.inBounds3] at hp
      obtain ⟨i, j, k, rfl, hp⟩ := hp
      simp only [F.box3d, F.InBounds, and_true]
      omega
    inU := fun p hp => by
      rw [F.inBounds3] at hp
      obtain ⟨i, j, k, rfl, hp⟩ := hp
      simp only [F.box3d, F.InBounds, and_true]
      omega
    near := fun p hp s h0 h1 => by
      rw [F.inBounds3] at hp
      obtain ⟨i, j, k, rfl, hp⟩ := hp
      have : s = 0 ∨ s = 1 ∨ s = 2 ∨ s = 3 ∨ s = 4 ∨ s = 5 ∨ s = 6 := by omega
      rcases this with rfl | rfl | rfl | rfl | rfl | rfl | rfl
      · rw [F.shift3_0]; simp only [F.box3d, F.InBounds, and_true]; omega
      · rw [F.shift3_1]; simp only [F.box3d, F.InBounds, and_true]; omega
      · rw [F.shift3_2]; simp only [F.box3d, F.InBounds, and_true]; omega
      · rw [F.shift3_3]; simp only [F.box3d, F.InBounds, and_true]; omega
      · rw [F.shift3_4]; simp only [F.box3d, F.InBounds, and_true]; omega
      · rw [F.shift3_5]; simp only [F.box3d, F.InBounds, and_true]; omega
      · rw [F.shift3_6]; simp only [F.box3d, F.InBounds, and_true]; omega
    apartSt := F.apart_symm (h.apart (F.st3d st i0 j0 k0 i1 j1 k1 sgcw) (by simp) (F.cell3d u i0 j0 k0 i1 j1 k1 gcw) (by simp))
    apartF := huf }

theorem prob_v2_3 {i0 j0 k0 i1 j1 k1 sgcw gcw fgcw : Int} {alpha beta : T} {dx : Nat → T} {b0 b1 b2 st u rhs o : Ptr} {β3 β4 : Backend} {m : Mem T} {B0 B1 B2 : List Int → T} {G U : List Int → T}
    (hβ3 : ValidBackend β3) (hβ4 : ValidBackend β4) (hi : i0 ≤ i1) (hj : j0 ≤ j1) (hk : k0 ≤ k1) (hs : 0 ≤ sgcw) (hg : 1 ≤ gcw) (hfg : 0 ≤ fgcw)
    (h : F.Args m [(F.face3d0 b0 i0 j0 k0 i1 j1 k1 0), (F.face3d1 b1 i0 j0 k0 i1 j1 k1 0), (F.face3d2 b2 i0 j0 k0 i1 j1 k1 0), (F.cell3d u i0 j0 k0 i1 j1 k1 gcw), (F.cell3d rhs i0 j0 k0 i1 j1 k1 fgcw)] [(F.st3d st i0 j0 k0 i1 j1 k1 sgcw)]) (huf : F.Apart (F.cell3d u i0 j0 k0 i1 j1 k1 gcw) (F.cell3d rhs i0 j0 k0 i1 j1 k1 fgcw)) (hB0 : F.Holds m (F.face3d0 b0 i0 j0 k0 i1 j1 k1 0) B0) (hB1 : F.Holds m (F.face3d1 b1 i0 j0 k0 i1 j1 k1 0) B1) (hB2 : F.Holds m (F.face3d2 b2 i0 j0 k0 i1 j1 k1 0) B2)
    (hU : F.Holds m (F.cell3d u i0 j0 k0 i1 j1 k1 gcw) U) (hG : F.Holds m (F.cell3d rhs i0 j0 k0 i1 j1 k1 fgcw) G) (ht : F.Rows m (F.offset0 o 3 7) F.points3) :
    ∃ s1 s2, ∃ S : List Int → T, Cuda.offdiag3d i0 j0 k0 i1 j1 k1 i0 j0 k0 i1 j1 k1 dx beta b0 b1 b2 sgcw st β3 m = .ok s1 ∧ Cuda.v2diag3d i0 j0 k0 i1 j1 k1 alpha sgcw st β4 s1 = .ok s2 ∧ F.Only [(F.st3d st i0 j0 k0 i1 j1 k1 sgcw)] m s2 ∧
      F.Problem s2 [(i0, i1), (j0, j1), (k0, k1)] 7 (F.offset0 o 3 7) (F.sm3d st 7 (i0 - sgcw) (j0 - sgcw) (k0 - sgcw) (i1 + sgcw) (j1 + sgcw) (k1 + sgcw)) (F.box3d rhs (i0 - fgcw) (j0 - fgcw) (k0 - fgcw) (i1 + fgcw) (j1 + fgcw) (k1 + fgcw)) (F.box3d u (i0 - gcw) (j0 - gcw) (k0 - gcw) (i1 + gcw) (j1 + gcw) (k1 + gcw)) (F.row F.points3) S G U ∧
      ∀ i j k, i0 ≤ i → i ≤ i1 → j0 ≤ j → j ≤ j1 → k0 ≤ k → k ≤ k1 → F.Coef3 alpha beta dx (fun _ => 1) B0 B1 B2 S i j k := by
  obtain ⟨s1, s2, S, c1, c2, ho, hS, hc⟩ := asm_v2_3 (alpha := alpha) (beta := beta) (dx := dx) hβ3 hβ4 hi hj hk hs (h.sub (by intro x hx; simp only [List.mem_cons, List.not_mem_nil, or_false] at hx ⊢; tauto) (fun _ e => e)) hB0 hB1 hB2
  refine ⟨s1, s2, S, c1, c2, ho, ?_, hc⟩
  exact {
    size := by decide
    table := fun s h0 h1 => F.rows_table (N := 3) (ht.only ho) rfl (by decide) h0 h1
    holdsSt := hS
    holdsF := hG.only ho (by simp only [List.mem_cons, List.not_mem_nil, or_false, forall_eq]; exact h.apart _ (by simp) _ (by simp))
    holdsU := hU.only ho (by simp only [List.mem_cons, List.not_mem_nil, or_false, forall_eq]; exact h.apart _ (by simp) _ (by simp))
    inSt := fun p hp s h0 h1 => by
      rw [F.inBounds3] at hp
      obtain ⟨i, j, k, rfl, hp⟩ := hp
      simp only [F.sm3d, F.InBounds, and_true]
      omega
    inF := fun p hp => by
      rw [F.inBounds3] at hp
      obtain ⟨i, j, k, rfl, hp⟩ := hp
      simp only [F.box3d, F.InBounds, and_true]
      omega
    inU := fun p hp => by
      rw [F.inBounds3] at hp
      obtain ⟨i, j, k, rfl, hp⟩ := hp
      simp only [F.box3d, F.InBounds, and_true]
      omega
    near := fun p hp s h0 h1 => by
      rw [F.inBounds3] at hp
      obtain ⟨i, j, k, rfl, hp⟩ := hp
      have : s = 0 ∨ s = 1 ∨ s = 2 ∨ s = 3 ∨ s = 4 ∨ s = 5 ∨ s = 6 := by omega
      rcases this with rfl | rfl | rfl | rfl | rfl | rfl | rfl
      · rw [F.shift3_0]; simp only [F.box3d, F.InBounds, and_true]; omega
      · rw [F.shift3_1]; simp only [F.box3d, F.InBounds, and_true]; omega
      · rw [F.shift3_2]; simp only [F.box3d, F.InBounds, and_true]; omega
      · rw [F.shift3_3]; simp only [F.box3d, F.InBounds, and_true]; omega
      · rw [F.shift3_4]; simp only [F.box3d, F.InBounds, and_true]; omega
      · rw [F.shift3_5]; simp only [F.box3d, F.InBounds, and_true]; omega
      · rw [F.shift3_6]; simp only [F.box3d, F.InBounds, and_true]; omega
    apartSt := F.apart_symm (h.apart (F.st3d st i0 j0 k0 i1 j1 k1 sgcw) (by simp) (F.cell3d u i0 j0 k0 i1 j1 k1 gcw) (by simp))
    apartF := huf }

theorem prob_p_3 {i0 j0 k0 i1 j1 k1 sgcw gcw fgcw : Int} {beta : T} {dx : Nat → T} {st u rhs o : Ptr} {β3 β4 : Backend} {m : Mem T} {G U : List Int → T}
    (hβ3 : ValidBackend β3) (hβ4 : ValidBackend β4) (hi : i0 ≤ i1) (hj : j0 ≤ j1) (hk : k0 ≤ k1) (hs : 0 ≤ sgcw) (hg : 1 ≤ gcw) (hfg : 0 ≤ fgcw)
    (h : F.Args m [(F.cell3d u i0 j0 k0 i1 j1 k1 gcw), (F.cell3d rhs i0 j0 k0 i1 j1 k1 fgcw)] [(F.st3d st i0 j0 k0 i1 j1 k1 sgcw)]) (huf : F.Apart (F.cell3d u i0 j0 k0 i1 j1 k1 gcw) (F.cell3d rhs i0 j0 k0 i1 j1 k1 fgcw)) 
    (hU : F.Holds m (F.cell3d u i0 j0 k0 i1 j1 k1 gcw) U) (hG : F.Holds m (F.cell3d rhs i0 j0 k0 i1 j1 k1 fgcw) G) (ht : F.Rows m (F.offset0 o 3 7) F.points3) :
    ∃ s1 s2, ∃ S : List Int → T, Cuda.poissonOffdiag3d i0 j0 k0 i1 j1 k1 dx beta sgcw st β3 m = .ok s1 ∧ Cuda.poissonDiag3d i0 j0 k0 i1 j1 k1 sgcw st β4 s1 = .ok s2 ∧ F.Only [(F.st3d st i0 j0 k0 i1 j1 k1 sgcw)] m s2 ∧
      F.Problem s2 [(i0, i1), (j0, j1), (k0, k1)] 7 (F.offset0 o 3 7) (F.sm3d st 7 (i0 - sgcw) (j0 - sgcw) (k0 - sgcw) (i1 + sgcw) (j1 + sgcw) (k1 + sgcw)) (F.box3d rhs (i0 - fgcw) (j0 - fgcw) (k0 - fgcw) (i1 + fgcw) (j1 + fgcw) (k1 + fgcw)) (F.box3d u (i0 - gcw) (j0 - gcw) (k0 - gcw) (i1 + gcw) (j1 + gcw) (k1 + gcw)) (F.row F.points3) S G U ∧
      ∀ i j k, i0 ≤ i → i ≤ i1 → j0 ≤ j → j ≤ j1 → k0 ≤ k → k ≤ k1 → F.Coef3 0 beta dx (fun _ => 1) (fun _ => 1) (fun _ => 1) (fun _ => 1) S i j k := by
  obtain ⟨s1, s2, S, c1, c2, ho, hS, hc⟩ := asm_p_3 (beta := beta) (dx := dx) hβ3 hβ4 hi hj hk hs (h.sub (by simp) (fun _ e => e)) 
  refine ⟨s1, s2, S, c1, c2, ho, ?_, hc⟩
  exact {
    size := by decide
    table := fun s h0 h1 => F.rows_table (N := 3) (ht.only ho) rfl (by decide) h0 h1
    holdsSt := hS
    holdsF := hG.only ho (by simp only [List.mem_cons, List.not_mem_nil, or_false, forall_eq]; exact h.apart _ (by simp) _ (by simp))
    holdsU := hU.only ho (by simp only [List.mem_cons, List.not_mem_nil, or_false, forall_eq]; exact h.apart _ (by simp) _ (by simp))
    inSt := fun p hp s h0 h1 => by
      rw [F.inBounds3] at hp
      obtain ⟨i, j, k, rfl, hp⟩ := hp
      simp only [F.sm3d, F.InBounds, and_true]
      omega
    inF := fun p hp => by
      rw [F.inBounds3] at hp
      obtain ⟨i, j, k, rfl, hp⟩ := hp
      simp only [F.box3d, F.InBounds, and_true]
      omega
    inU := fun p hp => by
      rw [F.inBounds3] at hp
      obtain ⟨i, j, k, rfl, hp⟩ := hp
      simp only [F.box3d, F.InBounds, and_true]
      omega
    near := fun p hp s h0 h1 => by
      rw [F.inBounds3] at hp
      obtain ⟨i, j, k, rfl, hp⟩ := hp
      have : s = 0 ∨ s = 1 ∨ s = 2 ∨ s = 3 ∨ s = 4 ∨ s = 5 ∨ s = 6 := by omega
      rcases this with rfl | rfl | rfl | rfl | rfl | rfl | rfl
      · rw [F.shift3_0]; simp only [F.box3d, F.InBounds, and_true]; omega
      · rw [F.shift3_1]; simp only [F.box3d, F.InBounds, and_true]; omega
      · rw [F.shift3_2]; simp only [F.box3d, F.InBounds, and_true]; omega
      · rw [F.shift3_3]; simp only [F.box3d, F.InBounds, and_true]; omega
      · rw [F.shift3_4]; simp only [F.box3d, F.InBounds, and_true]; omega
      · rw [F.shift3_5]; simp only [F.box3d, F.InBounds, and_true]; omega
      · rw [F.shift3_6]; simp only [F.box3d, F.InBounds, and_true]; omega
    apartSt := F.apart_symm (h.apart (F.st3d st i0 j0 k0 i1 j1 k1 sgcw) (by simp) (F.cell3d u i0 j0 k0 i1 j1 k1 gcw) (by simp))
    apartF := huf }

end Verif
