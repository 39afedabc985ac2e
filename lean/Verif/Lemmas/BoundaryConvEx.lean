import Verif.Lemmas.BoundaryConvDim
import Verif.Lemmas.BoundaryOne3
import Verif.Lemmas.AccuracyEx

/-
Examples for second order convergence with boundary conditions.
-/

namespace Verif

set_option linter.unusedVariables false
set_option linter.unusedSimpArgs false

/-- second and third derivative of the functions of the examples -/
theorem exBends {φ : ℝ → ℝ} {c lo hi L : ℝ} (hφ : ∀ x, φ x = x ^ 4 + c) (hl : -L ≤ lo) (hr : hi ≤ L) : F.Bends φ lo hi (12 * L ^ 2) (24 * L) := fun x h0 h1 => by
  obtain rfl : φ = fun x => x ^ 4 + c := funext hφ
  have dm : ∀ (k : ℕ) (r : ℝ), deriv (fun x : ℝ => r * x ^ k) = fun x => r * (k * x ^ (k - 1)) := fun k r => funext fun x => ((hasDerivAt_pow k x).const_mul r).deriv
  have d1 : deriv (fun x : ℝ => x ^ 4 + c) = fun x => 4 * x ^ 3 := by
    funext x
    have := ((hasDerivAt_pow 4 x).add_const c).deriv
    rw [this]
    norm_num
  have d2 : deriv (fun x : ℝ => 4 * x ^ 3) = fun x => 12 * x ^ 2 := by rw [dm]; funext x; norm_num; ring
  have d3 : deriv (fun x : ℝ => 12 * x ^ 2) = fun x => 24 * x ^ 1 := by rw [dm]; funext x; norm_num; ring
  have ha : |x| ≤ L := abs_le.2 ⟨by linarith, by linarith⟩
  have h2 : x ^ 2 ≤ L ^ 2 := by rw [← sq_abs x]; exact pow_le_pow_left₀ (abs_nonneg x) ha 2
  have hn := sq_nonneg x
  simp only [iteratedDeriv_succ, iteratedDeriv_zero, d1, d2, d3]
  refine ⟨?_, ?_⟩
  · rw [abs_of_nonneg (by linarith)]; linarith
  · rw [abs_mul, pow_one, abs_of_pos (by norm_num : (0 : ℝ) < 24)]; linarith

/-- their coefficients -/
theorem exVaries {b : ℝ → ℝ} {lo hi L : ℝ} (hb : ∀ x, b x = 1 + x ^ 2) (hl : -L ≤ lo) (hr : hi ≤ L) : F.Varies b lo hi (1 + L ^ 2) (2 * L) := fun x h0 h1 => by
  obtain rfl : b = fun x => 1 + x ^ 2 := funext hb
  have b1 : deriv (fun x : ℝ => 1 + x ^ 2) = fun x => 2 * x := by
    funext x
    have := ((hasDerivAt_pow 2 x).const_add 1).deriv
    rw [this]
    norm_num
  have ha : |x| ≤ L := abs_le.2 ⟨by linarith, by linarith⟩
  have h2 : x ^ 2 ≤ L ^ 2 := by rw [← sq_abs x]; exact pow_le_pow_left₀ (abs_nonneg x) ha 2
  have hn := sq_nonneg x
  rw [b1]
  refine ⟨?_, ?_⟩
  · rw [abs_of_nonneg (by linarith)]; linarith
  · rw [abs_mul, abs_two]; linarith

/-- pieces of the boundary: Neumann in the lower side of direction 0, Robin in the upper side of direction 0 -/
noncomputable def exBc1v : List (F.Piece ℝ) := [
  ⟨fun p => F.InBounds [(0, 3)] p ∧ p.getD 0 0 = 0, 1, 1, 1, exW 0, fun _ => 1⟩,
  ⟨fun p => F.InBounds [(0, 3)] p ∧ p.getD 0 0 = 3, 2, 4, 1, exW 0, fun _ => 1⟩]

/-- their data, and in the other ghost cells values at distance 1 from the samples -/
noncomputable def exBd1v (p : List Int) : ℝ :=
  if p.getD 0 0 = -1 then 0
  else if p.getD 0 0 = 4 then 2 * 1 * -deriv (F.normal1 ex0 exW exφ1 2 [3]) 0 + F.normal1 ex0 exW exφ1 2 [3] 0
  else F.cells1 ex0 exW exφ1 p + 1

theorem exBc1v_ok : F.Pieces [(0, 3)] 3 (F.row F.points1) exBc1v where
  first := fun k hk => by
    simp only [exBc1v, List.mem_cons, List.not_mem_nil, or_false] at hk; rcases hk with rfl | rfl
    · exact Or.inr (Or.inl rfl)
    · exact Or.inr (Or.inr ⟨rfl, rfl⟩)
  ghost := fun k hk => by
    simp only [exBc1v, List.mem_cons, List.not_mem_nil, or_false] at hk; rcases hk with rfl | rfl <;> simp
  width := fun k hk => by
    simp only [exBc1v, List.mem_cons, List.not_mem_nil, or_false] at hk; rcases hk with rfl | rfl <;> exact exW_pos _
  inside := fun k hk c hc => by
    simp only [exBc1v, List.mem_cons, List.not_mem_nil, or_false] at hk; rcases hk with rfl | rfl <;> exact hc.1
  outside := fun k hk c hc => by
    simp only [exBc1v, List.mem_cons, List.not_mem_nil, or_false] at hk; rcases hk with rfl | rfl
    · obtain ⟨i, rfl, hb⟩ := F.inBounds1.1 hc.1
      have hq := hc.2
      simp only [List.getD_cons_zero, List.getD_cons_succ] at hq
      intro hx
      rw [F.shift1_1] at hx
      obtain ⟨i', hl, hx⟩ := F.inBounds1.1 hx
      simp only [List.cons.injEq, and_true] at hl
      omega
    · obtain ⟨i, rfl, hb⟩ := F.inBounds1.1 hc.1
      have hq := hc.2
      simp only [List.getD_cons_zero, List.getD_cons_succ] at hq
      intro hx
      rw [F.shift1_2] at hx
      obtain ⟨i', hl, hx⟩ := F.inBounds1.1 hx
      simp only [List.cons.injEq, and_true] at hl
      omega
  coef := fun k hk c hc => by
    simp only [exBc1v, List.mem_cons, List.not_mem_nil, or_false] at hk; rcases hk with rfl | rfl <;> simp

theorem exBc1v_exact : F.Exact exW (F.row F.points1) exBc1v exBd1v (F.normal1 ex0 exW exφ1) := fun k hk => by
  simp only [exBc1v, List.mem_cons, List.not_mem_nil, or_false] at hk
  rcases hk with rfl | rfl
  · refine ⟨rfl, fun p hp => ?_⟩
    obtain ⟨i, rfl, hb⟩ := F.inBounds1.1 hp.1
    have hq := hp.2
    simp only [List.getD_cons_zero, List.getD_cons_succ] at hq
    refine Or.inr (Or.inl ⟨rfl, ?_⟩)
    subst hq
    show deriv (F.normal1 ex0 exW exφ1 1 [0]) 0 = 0
    rw [show F.normal1 ex0 exW exφ1 1 [0] = fun s => s ^ 4 from funext fun s => by simp [F.normal1, F.face, F.centre, ex0, exφ1]]
    simp
  · refine ⟨rfl, fun p hp => ?_⟩
    obtain ⟨i, rfl, hb⟩ := F.inBounds1.1 hp.1
    have hq := hp.2
    simp only [List.getD_cons_zero, List.getD_cons_succ] at hq
    refine Or.inr (Or.inr ⟨rfl, ?_⟩)
    subst hq
    rw [F.shift1_2]
    simp only [exBd1v, List.getD_cons_zero, List.getD_cons_succ]
    rw [if_neg (by omega), if_pos (by omega)]

theorem exBd1v_near : ∀ p, F.InBounds [(0, 3)] p → ∀ e, 1 ≤ e → e ≤ 3 - 1 → ¬ F.InBounds [(0, 3)] (F.shift p (F.row F.points1 e)) → (∀ k ∈ exBc1v, k.cells p → k.ghost ≠ e) →
      |exBd1v (F.shift p (F.row F.points1 e)) - F.cells1 ex0 exW exφ1 (F.shift p (F.row F.points1 e))| ≤ 1 := fun p hp e h1 h2 hn hf => by
  have hp' := hp
  obtain ⟨i, rfl, hb⟩ := F.inBounds1.1 hp'
  obtain rfl | rfl : e = 1 ∨ e = 2 := by omega
  · rw [F.shift1_1] at hn ⊢
    have hq : i = 0 := by
      by_contra hx
      exact hn (F.inBounds1.2 ⟨i - 1, rfl, by omega⟩)
    exact absurd rfl (hf _ List.mem_cons_self ⟨hp, hq⟩)
  · rw [F.shift1_2] at hn ⊢
    have hq : i = 3 := by
      by_contra hx
      exact hn (F.inBounds1.2 ⟨i + 1, rfl, by omega⟩)
    exact absurd rfl (hf _ (List.mem_cons_of_mem _ List.mem_cons_self) ⟨hp, hq⟩)

theorem exBc1v_disjoint : F.Disjoint exBc1v := by
  simp [F.Disjoint, exBc1v]

/-- pieces of the boundary: Dirichlet in the lower side of direction 0 -/
noncomputable def exBc1p0 : List (F.Piece ℝ) := [
  ⟨fun p => F.InBounds [(0, 3)] p ∧ p.getD 0 0 = 0, 1, 0, 1, exW 0, fun _ => 1⟩]

/-- their data, and in the other ghost cells values at distance 1 from the samples -/
noncomputable def exBd1p0 (p : List Int) : ℝ :=
  if p.getD 0 0 = -1 then F.normal1 ex0 exW exφ1 1 [0] 0
  else F.cells1 ex0 exW exφ1 p + 1

theorem exBc1p0_ok : F.Pieces [(0, 3)] 3 (F.row F.points1) exBc1p0 where
  first := fun k hk => by
    simp only [exBc1p0, List.mem_cons, List.not_mem_nil, or_false] at hk; rcases hk with rfl
    · exact Or.inl ⟨rfl, rfl⟩
  ghost := fun k hk => by
    simp only [exBc1p0, List.mem_cons, List.not_mem_nil, or_false] at hk; rcases hk with rfl <;> simp
  width := fun k hk => by
    simp only [exBc1p0, List.mem_cons, List.not_mem_nil, or_false] at hk; rcases hk with rfl <;> exact exW_pos _
  inside := fun k hk c hc => by
    simp only [exBc1p0, List.mem_cons, List.not_mem_nil, or_false] at hk; rcases hk with rfl <;> exact hc.1
  outside := fun k hk c hc => by
    simp only [exBc1p0, List.mem_cons, List.not_mem_nil, or_false] at hk; rcases hk with rfl
    · obtain ⟨i, rfl, hb⟩ := F.inBounds1.1 hc.1
      have hq := hc.2
      simp only [List.getD_cons_zero, List.getD_cons_succ] at hq
      intro hx
      rw [F.shift1_1] at hx
      obtain ⟨i', hl, hx⟩ := F.inBounds1.1 hx
      simp only [List.cons.injEq, and_true] at hl
      omega
  coef := fun k hk c hc => by
    simp only [exBc1p0, List.mem_cons, List.not_mem_nil, or_false] at hk; rcases hk with rfl <;> simp

theorem exBc1p0_exact : F.Exact exW (F.row F.points1) exBc1p0 exBd1p0 (F.normal1 ex0 exW exφ1) := fun k hk => by
  simp only [exBc1p0, List.mem_cons, List.not_mem_nil, or_false] at hk
  rcases hk with rfl
  · refine ⟨rfl, fun p hp => ?_⟩
    obtain ⟨i, rfl, hb⟩ := F.inBounds1.1 hp.1
    have hq := hp.2
    simp only [List.getD_cons_zero, List.getD_cons_succ] at hq
    refine Or.inl ⟨rfl, ?_⟩
    subst hq
    rw [F.shift1_1]
    simp only [exBd1p0, List.getD_cons_zero, List.getD_cons_succ]
    rw [if_pos (by omega)]

theorem exBd1p0_near : ∀ p, F.InBounds [(0, 3)] p → ∀ e, 1 ≤ e → e ≤ 3 - 1 → ¬ F.InBounds [(0, 3)] (F.shift p (F.row F.points1 e)) → (∀ k ∈ exBc1p0, k.cells p → k.ghost ≠ e) →
      |exBd1p0 (F.shift p (F.row F.points1 e)) - F.cells1 ex0 exW exφ1 (F.shift p (F.row F.points1 e))| ≤ 1 := fun p hp e h1 h2 hn hf => by
  have hp' := hp
  obtain ⟨i, rfl, hb⟩ := F.inBounds1.1 hp'
  obtain rfl | rfl : e = 1 ∨ e = 2 := by omega
  · rw [F.shift1_1] at hn ⊢
    have hq : i = 0 := by
      by_contra hx
      exact hn (F.inBounds1.2 ⟨i - 1, rfl, by omega⟩)
    exact absurd rfl (hf _ List.mem_cons_self ⟨hp, hq⟩)
  · rw [F.shift1_2] at hn ⊢
    have hq : i = 3 := by
      by_contra hx
      exact hn (F.inBounds1.2 ⟨i + 1, rfl, by omega⟩)
    simp only [exBd1p0, List.getD_cons_zero, List.getD_cons_succ]
    rw [if_neg (by omega)]
    simp

theorem exBc1p0_disjoint : F.Disjoint exBc1p0 := by
  simp [F.Disjoint, exBc1p0]

theorem exBv1_v1 : ∃ X, F.Fulfils [(0, 3)] 3 (F.row F.points1) exBc1v exBd1v X :=
  (F.bvone_1 exAcc_v1_1 exBc1v_disjoint exBc1v_ok ⟨[0], F.inBounds1.2 ⟨0, rfl, by omega⟩, Or.inl (lt_of_lt_of_le (by norm_num) (exC1 _ (F.inBounds1.2 ⟨0, rfl, by omega⟩)))⟩ (fun _ => 0) _).imp fun _ h => h.1

theorem exBv1_v2 : ∃ X, F.Fulfils [(0, 3)] 3 (F.row F.points1) exBc1v exBd1v X :=
  (F.bvone_1 exAcc_v2_1 exBc1v_disjoint exBc1v_ok ⟨[0], F.inBounds1.2 ⟨0, rfl, by omega⟩, Or.inl (by norm_num)⟩ (fun _ => 0) _).imp fun _ h => h.1

theorem exBv1_p0 : ∃ X, F.Fulfils [(0, 3)] 3 (F.row F.points1) exBc1p0 exBd1p0 X := by
  refine (F.bvone_1 exAcc_p_1 exBc1p0_disjoint exBc1p0_ok ⟨[0], F.inBounds1.2 ⟨0, rfl, by omega⟩, Or.inr ⟨1, by omega, by omega, ?_, fun k hk _ he => ?_⟩⟩ (fun _ => 0) _).imp fun _ h => h.1
  · rw [F.shift1_1]
    simp [F.InBounds]
  · simp only [exBc1p0, List.mem_cons, List.not_mem_nil, or_false] at hk
    rcases hk with rfl
    · intro h; cases h

/-- pieces of the boundary: Neumann in the lower side of direction 0, Robin in the upper side of direction 0, Dirichlet in the lower side of direction 1 -/
noncomputable def exBc2v : List (F.Piece ℝ) := [
  ⟨fun p => F.InBounds [(0, 2), (1, 3)] p ∧ p.getD 0 0 = 0, 1, 1, 1, exW 0, fun _ => 1⟩,
  ⟨fun p => F.InBounds [(0, 2), (1, 3)] p ∧ p.getD 0 0 = 2, 2, 4, 1, exW 0, fun _ => 1⟩,
  ⟨fun p => F.InBounds [(0, 2), (1, 3)] p ∧ p.getD 1 0 = 1, 3, 0, 1, exW 1, fun _ => 1⟩]

/-- their data, and in the other ghost cells values at distance 1 from the samples -/
noncomputable def exBd2v (p : List Int) : ℝ :=
  if p.getD 0 0 = -1 then 0
  else if p.getD 0 0 = 3 then 2 * 1 * -deriv (F.normal2 ex0 exW exφ2 2 [2, p.getD 1 0]) 0 + F.normal2 ex0 exW exφ2 2 [2, p.getD 1 0] 0
  else if p.getD 1 0 = 0 then F.normal2 ex0 exW exφ2 3 [p.getD 0 0, 1] 0
  else F.cells2 ex0 exW exφ2 p + 1

theorem exBc2v_ok : F.Pieces [(0, 2), (1, 3)] 5 (F.row F.points2) exBc2v where
  first := fun k hk => by
    simp only [exBc2v, List.mem_cons, List.not_mem_nil, or_false] at hk; rcases hk with rfl | rfl | rfl
    · exact Or.inr (Or.inl rfl)
    · exact Or.inr (Or.inr ⟨rfl, rfl⟩)
    · exact Or.inl ⟨rfl, rfl⟩
  ghost := fun k hk => by
    simp only [exBc2v, List.mem_cons, List.not_mem_nil, or_false] at hk; rcases hk with rfl | rfl | rfl <;> simp
  width := fun k hk => by
    simp only [exBc2v, List.mem_cons, List.not_mem_nil, or_false] at hk; rcases hk with rfl | rfl | rfl <;> exact exW_pos _
  inside := fun k hk c hc => by
    simp only [exBc2v, List.mem_cons, List.not_mem_nil, or_false] at hk; rcases hk with rfl | rfl | rfl <;> exact hc.1
  outside := fun k hk c hc => by
    simp only [exBc2v, List.mem_cons, List.not_mem_nil, or_false] at hk; rcases hk with rfl | rfl | rfl
    · obtain ⟨i, j, rfl, hb⟩ := F.inBounds2.1 hc.1
      have hq := hc.2
      simp only [List.getD_cons_zero, List.getD_cons_succ] at hq
      intro hx
      rw [F.shift2_1] at hx
      obtain ⟨i', j', hl, hx⟩ := F.inBounds2.1 hx
      simp only [List.cons.injEq, and_true] at hl
      omega
    · obtain ⟨i, j, rfl, hb⟩ := F.inBounds2.1 hc.1
      have hq := hc.2
      simp only [List.getD_cons_zero, List.getD_cons_succ] at hq
      intro hx
      rw [F.shift2_2] at hx
      obtain ⟨i', j', hl, hx⟩ := F.inBounds2.1 hx
      simp only [List.cons.injEq, and_true] at hl
      omega
    · obtain ⟨i, j, rfl, hb⟩ := F.inBounds2.1 hc.1
      have hq := hc.2
      simp only [List.getD_cons_zero, List.getD_cons_succ] at hq
      intro hx
      rw [F.shift2_3] at hx
      obtain ⟨i', j', hl, hx⟩ := F.inBounds2.1 hx
      simp only [List.cons.injEq, and_true] at hl
      omega
  coef := fun k hk c hc => by
    simp only [exBc2v, List.mem_cons, List.not_mem_nil, or_false] at hk; rcases hk with rfl | rfl | rfl <;> simp

theorem exBc2v_exact : F.Exact exW (F.row F.points2) exBc2v exBd2v (F.normal2 ex0 exW exφ2) := fun k hk => by
  simp only [exBc2v, List.mem_cons, List.not_mem_nil, or_false] at hk
  rcases hk with rfl | rfl | rfl
  · refine ⟨rfl, fun p hp => ?_⟩
    obtain ⟨i, j, rfl, hb⟩ := F.inBounds2.1 hp.1
    have hq := hp.2
    simp only [List.getD_cons_zero, List.getD_cons_succ] at hq
    refine Or.inr (Or.inl ⟨rfl, ?_⟩)
    subst hq
    show deriv (F.normal2 ex0 exW exφ2 1 [0, j]) 0 = 0
    rw [show F.normal2 ex0 exW exφ2 1 [0, j] = fun s => s ^ 4 + (F.centre 0 (exW 1) j) ^ 4 from funext fun s => by simp [F.normal2, F.face, F.centre, ex0, exφ2]]
    simp
  · refine ⟨rfl, fun p hp => ?_⟩
    obtain ⟨i, j, rfl, hb⟩ := F.inBounds2.1 hp.1
    have hq := hp.2
    simp only [List.getD_cons_zero, List.getD_cons_succ] at hq
    refine Or.inr (Or.inr ⟨rfl, ?_⟩)
    subst hq
    rw [F.shift2_2]
    simp only [exBd2v, List.getD_cons_zero, List.getD_cons_succ]
    rw [if_neg (by omega), if_pos (by omega)]
  · refine ⟨rfl, fun p hp => ?_⟩
    obtain ⟨i, j, rfl, hb⟩ := F.inBounds2.1 hp.1
    have hq := hp.2
    simp only [List.getD_cons_zero, List.getD_cons_succ] at hq
    refine Or.inl ⟨rfl, ?_⟩
    subst hq
    rw [F.shift2_3]
    simp only [exBd2v, List.getD_cons_zero, List.getD_cons_succ]
    rw [if_neg (by omega), if_neg (by omega), if_pos (by omega)]

theorem exBd2v_near : ∀ p, F.InBounds [(0, 2), (1, 3)] p → ∀ e, 1 ≤ e → e ≤ 5 - 1 → ¬ F.InBounds [(0, 2), (1, 3)] (F.shift p (F.row F.points2 e)) → (∀ k ∈ exBc2v, k.cells p → k.ghost ≠ e) →
      |exBd2v (F.shift p (F.row F.points2 e)) - F.cells2 ex0 exW exφ2 (F.shift p (F.row F.points2 e))| ≤ 1 := fun p hp e h1 h2 hn hf => by
  have hp' := hp
  obtain ⟨i, j, rfl, hb⟩ := F.inBounds2.1 hp'
  obtain rfl | rfl | rfl | rfl : e = 1 ∨ e = 2 ∨ e = 3 ∨ e = 4 := by omega
  · rw [F.shift2_1] at hn ⊢
    have hq : i = 0 := by
      by_contra hx
      exact hn (F.inBounds2.2 ⟨i - 1, j, rfl, by omega⟩)
    exact absurd rfl (hf _ List.mem_cons_self ⟨hp, hq⟩)
  · rw [F.shift2_2] at hn ⊢
    have hq : i = 2 := by
      by_contra hx
      exact hn (F.inBounds2.2 ⟨i + 1, j, rfl, by omega⟩)
    exact absurd rfl (hf _ (List.mem_cons_of_mem _ List.mem_cons_self) ⟨hp, hq⟩)
  · rw [F.shift2_3] at hn ⊢
    have hq : j = 1 := by
      by_contra hx
      exact hn (F.inBounds2.2 ⟨i, j - 1, rfl, by omega⟩)
    exact absurd rfl (hf _ (List.mem_cons_of_mem _ (List.mem_cons_of_mem _ List.mem_cons_self)) ⟨hp, hq⟩)
  · rw [F.shift2_4] at hn ⊢
    have hq : j = 3 := by
      by_contra hx
      exact hn (F.inBounds2.2 ⟨i, j + 1, rfl, by omega⟩)
    simp only [exBd2v, List.getD_cons_zero, List.getD_cons_succ]
    rw [if_neg (by omega), if_neg (by omega), if_neg (by omega)]
    simp

theorem exBc2v_disjoint : F.Disjoint exBc2v := by
  simp [F.Disjoint, exBc2v]

/-- pieces of the boundary: Dirichlet in the lower side of direction 0, Robin in the lower side of direction 1, Robin in the upper side of direction 1 -/
noncomputable def exBc2p0 : List (F.Piece ℝ) := [
  ⟨fun p => F.InBounds [(0, 2), (1, 3)] p ∧ p.getD 0 0 = 0, 1, 0, 1, exW 0, fun _ => 1⟩,
  ⟨fun p => F.InBounds [(0, 2), (1, 3)] p ∧ p.getD 1 0 = 1, 3, 4, 1, exW 1, fun _ => 1⟩,
  ⟨fun p => F.InBounds [(0, 2), (1, 3)] p ∧ p.getD 1 0 = 3, 4, 4, 1, exW 1, fun _ => 1⟩]

/-- their data, and in the other ghost cells values at distance 1 from the samples -/
noncomputable def exBd2p0 (p : List Int) : ℝ :=
  if p.getD 0 0 = -1 then F.normal2 ex0 exW exφ2 1 [0, p.getD 1 0] 0
  else if p.getD 1 0 = 0 then 2 * 1 * -deriv (F.normal2 ex0 exW exφ2 3 [p.getD 0 0, 1]) 0 + F.normal2 ex0 exW exφ2 3 [p.getD 0 0, 1] 0
  else if p.getD 1 0 = 4 then 2 * 1 * -deriv (F.normal2 ex0 exW exφ2 4 [p.getD 0 0, 3]) 0 + F.normal2 ex0 exW exφ2 4 [p.getD 0 0, 3] 0
  else F.cells2 ex0 exW exφ2 p + 1

theorem exBc2p0_ok : F.Pieces [(0, 2), (1, 3)] 5 (F.row F.points2) exBc2p0 where
  first := fun k hk => by
    simp only [exBc2p0, List.mem_cons, List.not_mem_nil, or_false] at hk; rcases hk with rfl | rfl | rfl
    · exact Or.inl ⟨rfl, rfl⟩
    · exact Or.inr (Or.inr ⟨rfl, rfl⟩)
    · exact Or.inr (Or.inr ⟨rfl, rfl⟩)
  ghost := fun k hk => by
    simp only [exBc2p0, List.mem_cons, List.not_mem_nil, or_false] at hk; rcases hk with rfl | rfl | rfl <;> simp
  width := fun k hk => by
    simp only [exBc2p0, List.mem_cons, List.not_mem_nil, or_false] at hk; rcases hk with rfl | rfl | rfl <;> exact exW_pos _
  inside := fun k hk c hc => by
    simp only [exBc2p0, List.mem_cons, List.not_mem_nil, or_false] at hk; rcases hk with rfl | rfl | rfl <;> exact hc.1
  outside := fun k hk c hc => by
    simp only [exBc2p0, List.mem_cons, List.not_mem_nil, or_false] at hk; rcases hk with rfl | rfl | rfl
    · obtain ⟨i, j, rfl, hb⟩ := F.inBounds2.1 hc.1
      have hq := hc.2
      simp only [List.getD_cons_zero, List.getD_cons_succ] at hq
      intro hx
      rw [F.shift2_1] at hx
      obtain ⟨i', j', hl, hx⟩ := F.inBounds2.1 hx
      simp only [List.cons.injEq, and_true] at hl
      omega
    · obtain ⟨i, j, rfl, hb⟩ := F.inBounds2.1 hc.1
      have hq := hc.2
      simp only [List.getD_cons_zero, List.getD_cons_succ] at hq
      intro hx
      rw [F.shift2_3] at hx
      obtain ⟨i', j', hl, hx⟩ := F.inBounds2.1 hx
      simp only [List.cons.injEq, and_true] at hl
      omega
    · obtain ⟨i, j, rfl, hb⟩ := F.inBounds2.1 hc.1
      have hq := hc.2
      simp only [List.getD_cons_zero, List.getD_cons_succ] at hq
      intro hx
      rw [F.shift2_4] at hx
      obtain ⟨i', j', hl, hx⟩ := F.inBounds2.1 hx
      simp only [List.cons.injEq, and_true] at hl
      omega
  coef := fun k hk c hc => by
    simp only [exBc2p0, List.mem_cons, List.not_mem_nil, or_false] at hk; rcases hk with rfl | rfl | rfl <;> simp

theorem exBc2p0_exact : F.Exact exW (F.row F.points2) exBc2p0 exBd2p0 (F.normal2 ex0 exW exφ2) := fun k hk => by
  simp only [exBc2p0, List.mem_cons, List.not_mem_nil, or_false] at hk
  rcases hk with rfl | rfl | rfl
  · refine ⟨rfl, fun p hp => ?_⟩
    obtain ⟨i, j, rfl, hb⟩ := F.inBounds2.1 hp.1
    have hq := hp.2
    simp only [List.getD_cons_zero, List.getD_cons_succ] at hq
    refine Or.inl ⟨rfl, ?_⟩
    subst hq
    rw [F.shift2_1]
    simp only [exBd2p0, List.getD_cons_zero, List.getD_cons_succ]
    rw [if_pos (by omega)]
  · refine ⟨rfl, fun p hp => ?_⟩
    obtain ⟨i, j, rfl, hb⟩ := F.inBounds2.1 hp.1
    have hq := hp.2
    simp only [List.getD_cons_zero, List.getD_cons_succ] at hq
    refine Or.inr (Or.inr ⟨rfl, ?_⟩)
    subst hq
    rw [F.shift2_3]
    simp only [exBd2p0, List.getD_cons_zero, List.getD_cons_succ]
    rw [if_neg (by omega), if_pos (by omega)]
  · refine ⟨rfl, fun p hp => ?_⟩
    obtain ⟨i, j, rfl, hb⟩ := F.inBounds2.1 hp.1
    have hq := hp.2
    simp only [List.getD_cons_zero, List.getD_cons_succ] at hq
    refine Or.inr (Or.inr ⟨rfl, ?_⟩)
    subst hq
    rw [F.shift2_4]
    simp only [exBd2p0, List.getD_cons_zero, List.getD_cons_succ]
    rw [if_neg (by omega), if_neg (by omega), if_pos (by omega)]

theorem exBd2p0_near : ∀ p, F.InBounds [(0, 2), (1, 3)] p → ∀ e, 1 ≤ e → e ≤ 5 - 1 → ¬ F.InBounds [(0, 2), (1, 3)] (F.shift p (F.row F.points2 e)) → (∀ k ∈ exBc2p0, k.cells p → k.ghost ≠ e) →
      |exBd2p0 (F.shift p (F.row F.points2 e)) - F.cells2 ex0 exW exφ2 (F.shift p (F.row F.points2 e))| ≤ 1 := fun p hp e h1 h2 hn hf => by
  have hp' := hp
  obtain ⟨i, j, rfl, hb⟩ := F.inBounds2.1 hp'
  obtain rfl | rfl | rfl | rfl : e = 1 ∨ e = 2 ∨ e = 3 ∨ e = 4 := by omega
  · rw [F.shift2_1] at hn ⊢
    have hq : i = 0 := by
      by_contra hx
      exact hn (F.inBounds2.2 ⟨i - 1, j, rfl, by omega⟩)
    exact absurd rfl (hf _ List.mem_cons_self ⟨hp, hq⟩)
  · rw [F.shift2_2] at hn ⊢
    have hq : i = 2 := by
      by_contra hx
      exact hn (F.inBounds2.2 ⟨i + 1, j, rfl, by omega⟩)
    simp only [exBd2p0, List.getD_cons_zero, List.getD_cons_succ]
    rw [if_neg (by omega), if_neg (by omega), if_neg (by omega)]
    simp
  · rw [F.shift2_3] at hn ⊢
    have hq : j = 1 := by
      by_contra hx
      exact hn (F.inBounds2.2 ⟨i, j - 1, rfl, by omega⟩)
    exact absurd rfl (hf _ (List.mem_cons_of_mem _ List.mem_cons_self) ⟨hp, hq⟩)
  · rw [F.shift2_4] at hn ⊢
    have hq : j = 3 := by
      by_contra hx
      exact hn (F.inBounds2.2 ⟨i, j + 1, rfl, by omega⟩)
    exact absurd rfl (hf _ (List.mem_cons_of_mem _ (List.mem_cons_of_mem _ List.mem_cons_self)) ⟨hp, hq⟩)

theorem exBc2p0_disjoint : F.Disjoint exBc2p0 := by
  simp [F.Disjoint, exBc2p0]

/-- pieces of the boundary: Neumann in the lower side of direction 0, Robin in the upper side of direction 0, Dirichlet in the lower side of direction 1 -/
noncomputable def exBc2p1 : List (F.Piece ℝ) := [
  ⟨fun p => F.InBounds [(0, 2), (1, 3)] p ∧ p.getD 0 0 = 0, 1, 1, 1, exW 0, fun _ => 1⟩,
  ⟨fun p => F.InBounds [(0, 2), (1, 3)] p ∧ p.getD 0 0 = 2, 2, 4, 1, exW 0, fun _ => 1⟩,
  ⟨fun p => F.InBounds [(0, 2), (1, 3)] p ∧ p.getD 1 0 = 1, 3, 0, 1, exW 1, fun _ => 1⟩]

/-- their data, and in the other ghost cells values at distance 1 from the samples -/
noncomputable def exBd2p1 (p : List Int) : ℝ :=
  if p.getD 0 0 = -1 then 0
  else if p.getD 0 0 = 3 then 2 * 1 * -deriv (F.normal2 ex0 exW exφ2 2 [2, p.getD 1 0]) 0 + F.normal2 ex0 exW exφ2 2 [2, p.getD 1 0] 0
  else if p.getD 1 0 = 0 then F.normal2 ex0 exW exφ2 3 [p.getD 0 0, 1] 0
  else F.cells2 ex0 exW exφ2 p + 1

theorem exBc2p1_ok : F.Pieces [(0, 2), (1, 3)] 5 (F.row F.points2) exBc2p1 where
  first := fun k hk => by
    simp only [exBc2p1, List.mem_cons, List.not_mem_nil, or_false] at hk; rcases hk with rfl | rfl | rfl
    · exact Or.inr (Or.inl rfl)
    · exact Or.inr (Or.inr ⟨rfl, rfl⟩)
    · exact Or.inl ⟨rfl, rfl⟩
  ghost := fun k hk => by
    simp only [exBc2p1, List.mem_cons, List.not_mem_nil, or_false] at hk; rcases hk with rfl | rfl | rfl <;> simp
  width := fun k hk => by
    simp only [exBc2p1, List.mem_cons, List.not_mem_nil, or_false] at hk; rcases hk with rfl | rfl | rfl <;> exact exW_pos _
  inside := fun k hk c hc => by
    simp only [exBc2p1, List.mem_cons, List.not_mem_nil, or_false] at hk; rcases hk with rfl | rfl | rfl <;> exact hc.1
  outside := fun k hk c hc => by
    simp only [exBc2p1, List.mem_cons, List.not_mem_nil, or_false] at hk; rcases hk with rfl | rfl | rfl
    · obtain ⟨i, j, rfl, hb⟩ := F.inBounds2.1 hc.1
      have hq := hc.2
      simp only [List.getD_cons_zero, List.getD_cons_succ] at hq
      intro hx
      rw [F.shift2_1] at hx
      obtain ⟨i', j', hl, hx⟩ := F.inBounds2.1 hx
      simp only [List.cons.injEq, and_true] at hl
      omega
    · obtain ⟨i, j, rfl, hb⟩ := F.inBounds2.1 hc.1
      have hq := hc.2
      simp only [List.getD_cons_zero, List.getD_cons_succ] at hq
      intro hx
      rw [F.shift2_2] at hx
      obtain ⟨i', j', hl, hx⟩ := F.inBounds2.1 hx
      simp only [List.cons.injEq, and_true] at hl
      omega
    · obtain ⟨i, j, rfl, hb⟩ := F.inBounds2.1 hc.1
      have hq := hc.2
      simp only [List.getD_cons_zero, List.getD_cons_succ] at hq
      intro hx
      rw [F.shift2_3] at hx
      obtain ⟨i', j', hl, hx⟩ := F.inBounds2.1 hx
      simp only [List.cons.injEq, and_true] at hl
      omega
  coef := fun k hk c hc => by
    simp only [exBc2p1, List.mem_cons, List.not_mem_nil, or_false] at hk; rcases hk with rfl | rfl | rfl <;> simp

theorem exBc2p1_exact : F.Exact exW (F.row F.points2) exBc2p1 exBd2p1 (F.normal2 ex0 exW exφ2) := fun k hk => by
  simp only [exBc2p1, List.mem_cons, List.not_mem_nil, or_false] at hk
  rcases hk with rfl | rfl | rfl
  · refine ⟨rfl, fun p hp => ?_⟩
    obtain ⟨i, j, rfl, hb⟩ := F.inBounds2.1 hp.1
    have hq := hp.2
    simp only [List.getD_cons_zero, List.getD_cons_succ] at hq
    refine Or.inr (Or.inl ⟨rfl, ?_⟩)
    subst hq
    show deriv (F.normal2 ex0 exW exφ2 1 [0, j]) 0 = 0
    rw [show F.normal2 ex0 exW exφ2 1 [0, j] = fun s => s ^ 4 + (F.centre 0 (exW 1) j) ^ 4 from funext fun s => by simp [F.normal2, F.face, F.centre, ex0, exφ2]]
    simp
  · refine ⟨rfl, fun p hp => ?_⟩
    obtain ⟨i, j, rfl, hb⟩ := F.inBounds2.1 hp.1
    have hq := hp.2
    simp only [List.getD_cons_zero, List.getD_cons_succ] at hq
    refine Or.inr (Or.inr ⟨rfl, ?_⟩)
    subst hq
    rw [F.shift2_2]
    simp only [exBd2p1, List.getD_cons_zero, List.getD_cons_succ]
    rw [if_neg (by omega), if_pos (by omega)]
  · refine ⟨rfl, fun p hp => ?_⟩
    obtain ⟨i, j, rfl, hb⟩ := F.inBounds2.1 hp.1
    have hq := hp.2
    simp only [List.getD_cons_zero, List.getD_cons_succ] at hq
    refine Or.inl ⟨rfl, ?_⟩
    subst hq
    rw [F.shift2_3]
    simp only [exBd2p1, List.getD_cons_zero, List.getD_cons_succ]
    rw [if_neg (by omega), if_neg (by omega), if_pos (by omega)]

theorem exBd2p1_near : ∀ p, F.InBounds [(0, 2), (1, 3)] p → ∀ e, 1 ≤ e → e ≤ 5 - 1 → ¬ F.InBounds [(0, 2), (1, 3)] (F.shift p (F.row F.points2 e)) → (∀ k ∈ exBc2p1, k.cells p → k.ghost ≠ e) →
      |exBd2p1 (F.shift p (F.row F.points2 e)) - F.cells2 ex0 exW exφ2 (F.shift p (F.row F.points2 e))| ≤ 1 := fun p hp e h1 h2 hn hf => by
  have hp' := hp
  obtain ⟨i, j, rfl, hb⟩ := F.inBounds2.1 hp'
  obtain rfl | rfl | rfl | rfl : e = 1 ∨ e = 2 ∨ e = 3 ∨ e = 4 := by omega
  · rw [F.shift2_1] at hn ⊢
    have hq : i = 0 := by
      by_contra hx
      exact hn (F.inBounds2.2 ⟨i - 1, j, rfl, by omega⟩)
    exact absurd rfl (hf _ List.mem_cons_self ⟨hp, hq⟩)
  · rw [F.shift2_2] at hn ⊢
    have hq : i = 2 := by
      by_contra hx
      exact hn (F.inBounds2.2 ⟨i + 1, j, rfl, by omega⟩)
    exact absurd rfl (hf _ (List.mem_cons_of_mem _ List.mem_cons_self) ⟨hp, hq⟩)
  · rw [F.shift2_3] at hn ⊢
    have hq : j = 1 := by
      by_contra hx
      exact hn (F.inBounds2.2 ⟨i, j - 1, rfl, by omega⟩)
    exact absurd rfl (hf _ (List.mem_cons_of_mem _ (List.mem_cons_of_mem _ List.mem_cons_self)) ⟨hp, hq⟩)
  · rw [F.shift2_4] at hn ⊢
    have hq : j = 3 := by
      by_contra hx
      exact hn (F.inBounds2.2 ⟨i, j + 1, rfl, by omega⟩)
    simp only [exBd2p1, List.getD_cons_zero, List.getD_cons_succ]
    rw [if_neg (by omega), if_neg (by omega), if_neg (by omega)]
    simp

theorem exBc2p1_disjoint : F.Disjoint exBc2p1 := by
  simp [F.Disjoint, exBc2p1]

theorem exBv2_v1 : ∃ X, F.Fulfils [(0, 2), (1, 3)] 5 (F.row F.points2) exBc2v exBd2v X :=
  (F.bvone_2 exAcc_v1_2 exBc2v_disjoint exBc2v_ok ⟨[0, 1], F.inBounds2.2 ⟨0, 1, rfl, by omega⟩, Or.inl (lt_of_lt_of_le (by norm_num) (exC2 _ (F.inBounds2.2 ⟨0, 1, rfl, by omega⟩)))⟩ (fun _ => 0) _).imp fun _ h => h.1

theorem exBv2_v2 : ∃ X, F.Fulfils [(0, 2), (1, 3)] 5 (F.row F.points2) exBc2v exBd2v X :=
  (F.bvone_2 exAcc_v2_2 exBc2v_disjoint exBc2v_ok ⟨[0, 1], F.inBounds2.2 ⟨0, 1, rfl, by omega⟩, Or.inl (by norm_num)⟩ (fun _ => 0) _).imp fun _ h => h.1

theorem exBv2_p0 : ∃ X, F.Fulfils [(0, 2), (1, 3)] 5 (F.row F.points2) exBc2p0 exBd2p0 X := by
  refine (F.bvone_2 exAcc_p_2 exBc2p0_disjoint exBc2p0_ok ⟨[0, 1], F.inBounds2.2 ⟨0, 1, rfl, by omega⟩, Or.inr ⟨1, by omega, by omega, ?_, fun k hk _ he => ?_⟩⟩ (fun _ => 0) _).imp fun _ h => h.1
  · rw [F.shift2_1]
    simp [F.InBounds]
  · simp only [exBc2p0, List.mem_cons, List.not_mem_nil, or_false] at hk
    rcases hk with rfl | rfl | rfl
    · intro h; cases h
    · exact absurd he (by decide)
    · exact absurd he (by decide)

theorem exBv2_p1 : ∃ X, F.Fulfils [(0, 2), (1, 3)] 5 (F.row F.points2) exBc2p1 exBd2p1 X := by
  refine (F.bvone_2 exAcc_p_2 exBc2p1_disjoint exBc2p1_ok ⟨[0, 1], F.inBounds2.2 ⟨0, 1, rfl, by omega⟩, Or.inr ⟨3, by omega, by omega, ?_, fun k hk _ he => ?_⟩⟩ (fun _ => 0) _).imp fun _ h => h.1
  · rw [F.shift2_3]
    simp [F.InBounds]
  · simp only [exBc2p1, List.mem_cons, List.not_mem_nil, or_false] at hk
    rcases hk with rfl | rfl | rfl
    · exact absurd he (by decide)
    · exact absurd he (by decide)
    · intro h; cases h

/-- pieces of the boundary: Neumann in the lower side of direction 0, Robin in the upper side of direction 0, Dirichlet in the lower side of direction 1, Dirichlet in the lower side of direction 2 -/
noncomputable def exBc3v : List (F.Piece ℝ) := [
  ⟨fun p => F.InBounds [(0, 1), (1, 2), (2, 3)] p ∧ p.getD 0 0 = 0, 1, 1, 1, exW 0, fun _ => 1⟩,
  ⟨fun p => F.InBounds [(0, 1), (1, 2), (2, 3)] p ∧ p.getD 0 0 = 1, 2, 4, 1, exW 0, fun _ => 1⟩,
  ⟨fun p => F.InBounds [(0, 1), (1, 2), (2, 3)] p ∧ p.getD 1 0 = 1, 3, 0, 1, exW 1, fun _ => 1⟩,
  ⟨fun p => F.InBounds [(0, 1), (1, 2), (2, 3)] p ∧ p.getD 2 0 = 2, 5, 0, 1, exW 2, fun _ => 1⟩]

/-- their data, and in the other ghost cells values at distance 1 from the samples -/
noncomputable def exBd3v (p : List Int) : ℝ :=
  if p.getD 0 0 = -1 then 0
  else if p.getD 0 0 = 2 then 2 * 1 * -deriv (F.normal3 ex0 exW exφ3 2 [1, p.getD 1 0, p.getD 2 0]) 0 + F.normal3 ex0 exW exφ3 2 [1, p.getD 1 0, p.getD 2 0] 0
  else if p.getD 1 0 = 0 then F.normal3 ex0 exW exφ3 3 [p.getD 0 0, 1, p.getD 2 0] 0
  else if p.getD 2 0 = 1 then F.normal3 ex0 exW exφ3 5 [p.getD 0 0, p.getD 1 0, 2] 0
  else F.cells3 ex0 exW exφ3 p + 1

theorem exBc3v_ok : F.Pieces [(0, 1), (1, 2), (2, 3)] 7 (F.row F.points3) exBc3v where
  first := fun k hk => by
    simp only [exBc3v, List.mem_cons, List.not_mem_nil, or_false] at hk; rcases hk with rfl | rfl | rfl | rfl
    · exact Or.inr (Or.inl rfl)
    · exact Or.inr (Or.inr ⟨rfl, rfl⟩)
    · exact Or.inl ⟨rfl, rfl⟩
    · exact Or.inl ⟨rfl, rfl⟩
  ghost := fun k hk => by
    simp only [exBc3v, List.mem_cons, List.not_mem_nil, or_false] at hk; rcases hk with rfl | rfl | rfl | rfl <;> simp
  width := fun k hk => by
    simp only [exBc3v, List.mem_cons, List.not_mem_nil, or_false] at hk; rcases hk with rfl | rfl | rfl | rfl <;> exact exW_pos _
  inside := fun k hk c hc => by
    simp only [exBc3v, List.mem_cons, List.not_mem_nil, or_false] at hk; rcases hk with rfl | rfl | rfl | rfl <;> exact hc.1
  outside := fun k hk c hc => by
    simp only [exBc3v, List.mem_cons, List.not_mem_nil, or_false] at hk; rcases hk with rfl | rfl | rfl | rfl
    · obtain ⟨i, j, k, rfl, hb⟩ := F.inBounds3.1 hc.1
      have hq := hc.2
      simp only [List.getD_cons_zero, List.getD_cons_succ] at hq
      intro hx
      rw [F.shift3_1] at hx
      obtain ⟨i', j', k', hl, hx⟩ := F.inBounds3.1 hx
      simp only [List.cons.injEq, and_true] at hl
      omega
    · obtain ⟨i, j, k, rfl, hb⟩ := F.inBounds3.1 hc.1
      have hq := hc.2
      simp only [List.getD_cons_zero, List.getD_cons_succ] at hq
      intro hx
      rw [F.shift3_2] at hx
      obtain ⟨i', j', k', hl, hx⟩ := F.inBounds3.1 hx
      simp only [List.cons.injEq, and_true] at hl
      omega
    · obtain ⟨i, j, k, rfl, hb⟩ := F.inBounds3.1 hc.1
      have hq := hc.2
      simp only [List.getD_cons_zero, List.getD_cons_succ] at hq
      intro hx
      rw [F.shift3_3] at hx
      obtain ⟨i', j', k', hl, hx⟩ := F.inBounds3.1 hx
      simp only [List.cons.injEq, and_true] at hl
      omega
    · obtain ⟨i, j, k, rfl, hb⟩ := F.inBounds3.1 hc.1
      have hq := hc.2
      simp only [List.getD_cons_zero, List.getD_cons_succ] at hq
      intro hx
      rw [F.shift3_5] at hx
      obtain ⟨i', j', k', hl, hx⟩ := F.inBounds3.1 hx
      simp only [List.cons.injEq, and_true] at hl
      omega
  coef := fun k hk c hc => by
    simp only [exBc3v, List.mem_cons, List.not_mem_nil, or_false] at hk; rcases hk with rfl | rfl | rfl | rfl <;> simp

theorem exBc3v_exact : F.Exact exW (F.row F.points3) exBc3v exBd3v (F.normal3 ex0 exW exφ3) := fun k hk => by
  simp only [exBc3v, List.mem_cons, List.not_mem_nil, or_false] at hk
  rcases hk with rfl | rfl | rfl | rfl
  · refine ⟨rfl, fun p hp => ?_⟩
    obtain ⟨i, j, k, rfl, hb⟩ := F.inBounds3.1 hp.1
    have hq := hp.2
    simp only [List.getD_cons_zero, List.getD_cons_succ] at hq
    refine Or.inr (Or.inl ⟨rfl, ?_⟩)
    subst hq
    show deriv (F.normal3 ex0 exW exφ3 1 [0, j, k]) 0 = 0
    rw [show F.normal3 ex0 exW exφ3 1 [0, j, k] = fun s => s ^ 4 + (F.centre 0 (exW 1) j) ^ 4 + (F.centre 0 (exW 2) k) ^ 4 from funext fun s => by simp [F.normal3, F.face, F.centre, ex0, exφ3]]
    simp
  · refine ⟨rfl, fun p hp => ?_⟩
    obtain ⟨i, j, k, rfl, hb⟩ := F.inBounds3.1 hp.1
    have hq := hp.2
    simp only [List.getD_cons_zero, List.getD_cons_succ] at hq
    refine Or.inr (Or.inr ⟨rfl, ?_⟩)
    subst hq
    rw [F.shift3_2]
    simp only [exBd3v, List.getD_cons_zero, List.getD_cons_succ]
    rw [if_neg (by omega), if_pos (by omega)]
  · refine ⟨rfl, fun p hp => ?_⟩
    obtain ⟨i, j, k, rfl, hb⟩ := F.inBounds3.1 hp.1
    have hq := hp.2
    simp only [List.getD_cons_zero, List.getD_cons_succ] at hq
    refine Or.inl ⟨rfl, ?_⟩
    subst hq
    rw [F.shift3_3]
    simp only [exBd3v, List.getD_cons_zero, List.getD_cons_succ]
    rw [if_neg (by omega), if_neg (by omega), if_pos (by omega)]
  · refine ⟨rfl, fun p hp => ?_⟩
    obtain ⟨i, j, k, rfl, hb⟩ := F.inBounds3.1 hp.1
    have hq := hp.2
    simp only [List.getD_cons_zero, List.getD_cons_succ] at hq
    refine Or.inl ⟨rfl, ?_⟩
    subst hq
    rw [F.shift3_5]
    simp only [exBd3v, List.getD_cons_zero, List.getD_cons_succ]
    rw [if_neg (by omega), if_neg (by omega), if_neg (by omega), if_pos (by omega)]

theorem exBd3v_near : ∀ p, F.InBounds [(0, 1), (1, 2), (2, 3)] p → ∀ e, 1 ≤ e → e ≤ 7 - 1 → ¬ F.InBounds [(0, 1), (1, 2), (2, 3)] (F.shift p (F.row F.points3 e)) → (∀ k ∈ exBc3v, k.cells p → k.ghost ≠ e) →
      |exBd3v (F.shift p (F.row F.points3 e)) - F.cells3 ex0 exW exφ3 (F.shift p (F.row F.points3 e))| ≤ 1 := fun p hp e h1 h2 hn hf => by
  have hp' := hp
  obtain ⟨i, j, k, rfl, hb⟩ := F.inBounds3.1 hp'
  obtain rfl | rfl | rfl | rfl | rfl | rfl : e = 1 ∨ e = 2 ∨ e = 3 ∨ e = 4 ∨ e = 5 ∨ e = 6 := by omega
  · rw [F.shift3_1] at hn ⊢
    have hq : i = 0 := by
      by_contra hx
      exact hn (F.inBounds3.2 ⟨i - 1, j, k, rfl, by omega⟩)
    exact absurd rfl (hf _ List.mem_cons_self ⟨hp, hq⟩)
  · rw [F.shift3_2] at hn ⊢
    have hq : i = 1 := by
      by_contra hx
      exact hn (F.inBounds3.2 ⟨i + 1, j, k, rfl, by omega⟩)
    exact absurd rfl (hf _ (List.mem_cons_of_mem _ List.mem_cons_self) ⟨hp, hq⟩)
  · rw [F.shift3_3] at hn ⊢
    have hq : j = 1 := by
      by_contra hx
      exact hn (F.inBounds3.2 ⟨i, j - 1, k, rfl, by omega⟩)
    exact absurd rfl (hf _ (List.mem_cons_of_mem _ (List.mem_cons_of_mem _ List.mem_cons_self)) ⟨hp, hq⟩)
  · rw [F.shift3_4] at hn ⊢
    have hq : j = 2 := by
      by_contra hx
      exact hn (F.inBounds3.2 ⟨i, j + 1, k, rfl, by omega⟩)
    simp only [exBd3v, List.getD_cons_zero, List.getD_cons_succ]
    rw [if_neg (by omega), if_neg (by omega), if_neg (by omega), if_neg (by omega)]
    simp
  · rw [F.shift3_5] at hn ⊢
    have hq : k = 2 := by
      by_contra hx
      exact hn (F.inBounds3.2 ⟨i, j, k - 1, rfl, by omega⟩)
    exact absurd rfl (hf _ (List.mem_cons_of_mem _ (List.mem_cons_of_mem _ (List.mem_cons_of_mem _ List.mem_cons_self))) ⟨hp, hq⟩)
  · rw [F.shift3_6] at hn ⊢
    have hq : k = 3 := by
      by_contra hx
      exact hn (F.inBounds3.2 ⟨i, j, k + 1, rfl, by omega⟩)
    simp only [exBd3v, List.getD_cons_zero, List.getD_cons_succ]
    rw [if_neg (by omega), if_neg (by omega), if_neg (by omega), if_neg (by omega)]
    simp

theorem exBc3v_disjoint : F.Disjoint exBc3v := by
  simp [F.Disjoint, exBc3v]

/-- pieces of the boundary: Dirichlet in the lower side of direction 0, Robin in the lower side of direction 1, Robin in the upper side of direction 1, Robin in the lower side of direction 2, Robin in the upper side of direction 2 -/
noncomputable def exBc3p0 : List (F.Piece ℝ) := [
  ⟨fun p => F.InBounds [(0, 1), (1, 2), (2, 3)] p ∧ p.getD 0 0 = 0, 1, 0, 1, exW 0, fun _ => 1⟩,
  ⟨fun p => F.InBounds [(0, 1), (1, 2), (2, 3)] p ∧ p.getD 1 0 = 1, 3, 4, 1, exW 1, fun _ => 1⟩,
  ⟨fun p => F.InBounds [(0, 1), (1, 2), (2, 3)] p ∧ p.getD 1 0 = 2, 4, 4, 1, exW 1, fun _ => 1⟩,
  ⟨fun p => F.InBounds [(0, 1), (1, 2), (2, 3)] p ∧ p.getD 2 0 = 2, 5, 4, 1, exW 2, fun _ => 1⟩,
  ⟨fun p => F.InBounds [(0, 1), (1, 2), (2, 3)] p ∧ p.getD 2 0 = 3, 6, 4, 1, exW 2, fun _ => 1⟩]

/-- their data, and in the other ghost cells values at distance 1 from the samples -/
noncomputable def exBd3p0 (p : List Int) : ℝ :=
  if p.getD 0 0 = -1 then F.normal3 ex0 exW exφ3 1 [0, p.getD 1 0, p.getD 2 0] 0
  else if p.getD 1 0 = 0 then 2 * 1 * -deriv (F.normal3 ex0 exW exφ3 3 [p.getD 0 0, 1, p.getD 2 0]) 0 + F.normal3 ex0 exW exφ3 3 [p.getD 0 0, 1, p.getD 2 0] 0
  else if p.getD 1 0 = 3 then 2 * 1 * -deriv (F.normal3 ex0 exW exφ3 4 [p.getD 0 0, 2, p.getD 2 0]) 0 + F.normal3 ex0 exW exφ3 4 [p.getD 0 0, 2, p.getD 2 0] 0
  else if p.getD 2 0 = 1 then 2 * 1 * -deriv (F.normal3 ex0 exW exφ3 5 [p.getD 0 0, p.getD 1 0, 2]) 0 + F.normal3 ex0 exW exφ3 5 [p.getD 0 0, p.getD 1 0, 2] 0
  else if p.getD 2 0 = 4 then 2 * 1 * -deriv (F.normal3 ex0 exW exφ3 6 [p.getD 0 0, p.getD 1 0, 3]) 0 + F.normal3 ex0 exW exφ3 6 [p.getD 0 0, p.getD 1 0, 3] 0
  else F.cells3 ex0 exW exφ3 p + 1

theorem exBc3p0_ok : F.Pieces [(0, 1), (1, 2), (2, 3)] 7 (F.row F.points3) exBc3p0 where
  first := fun k hk => by
    simp only [exBc3p0, List.mem_cons, List.not_mem_nil, or_false] at hk; rcases hk with rfl | rfl | rfl | rfl | rfl
    · exact Or.inl ⟨rfl, rfl⟩
    · exact Or.inr (Or.inr ⟨rfl, rfl⟩)
    · exact Or.inr (Or.inr ⟨rfl, rfl⟩)
    · exact Or.inr (Or.inr ⟨rfl, rfl⟩)
    · exact Or.inr (Or.inr ⟨rfl, rfl⟩)
  ghost := fun k hk => by
    simp only [exBc3p0, List.mem_cons, List.not_mem_nil, or_false] at hk; rcases hk with rfl | rfl | rfl | rfl | rfl <;> simp
  width := fun k hk => by
    simp only [exBc3p0, List.mem_cons, List.not_mem_nil, or_false] at hk; rcases hk with rfl | rfl | rfl | rfl | rfl <;> exact exW_pos _
  inside := fun k hk c hc => by
    simp only [exBc3p0, List.mem_cons, List.not_mem_nil, or_false] at hk; rcases hk with rfl | rfl | rfl | rfl | rfl <;> exact hc.1
  outside := fun k hk c hc => by
    simp only [exBc3p0, List.mem_cons, List.not_mem_nil, or_false] at hk; rcases hk with rfl | rfl | rfl | rfl | rfl
    · obtain ⟨i, j, k, rfl, hb⟩ := F.inBounds3.1 hc.1
      have hq := hc.2
      simp only [List.getD_cons_zero, List.getD_cons_succ] at hq
      intro hx
      rw [F.shift3_1] at hx
      obtain ⟨i', j', k', hl, hx⟩ := F.inBounds3.1 hx
      simp only [List.cons.injEq, and_true] at hl
      omega
    · obtain ⟨i, j, k, rfl, hb⟩ := F.inBounds3.1 hc.1
      have hq := hc.2
      simp only [List.getD_cons_zero, List.getD_cons_succ] at hq
      intro hx
      rw [F.shift3_3] at hx
      obtain ⟨i', j', k', hl, hx⟩ := F.inBounds3.1 hx
      simp only [List.cons.injEq, and_true] at hl
      omega
    · obtain ⟨i, j, k, rfl, hb⟩ := F.inBounds3.1 hc.1
      have hq := hc.2
      simp only [List.getD_cons_zero, List.getD_cons_succ] at hq
      intro hx
      rw [F.shift3_4] at hx
      obtain ⟨i', j', k', hl, hx⟩ := F.inBounds3.1 hx
      simp only [List.cons.injEq, and_true] at hl
      omega
    · obtain ⟨i, j, k, rfl, hb⟩ := F.inBounds3.1 hc.1
      have hq := hc.2
      simp only [List.getD_cons_zero, List.getD_cons_succ] at hq
      intro hx
      rw [F.shift3_5] at hx
      obtain ⟨i', j', k', hl, hx⟩ := F.inBounds3.1 hx
      simp only [List.cons.injEq, and_true] at hl
      omega
    · obtain ⟨i, j, k, rfl, hb⟩ := F.inBounds3.1 hc.1
      have hq := hc.2
      simp only [List.getD_cons_zero, List.getD_cons_succ] at hq
      intro hx
      rw [F.shift3_6] at hx
      obtain ⟨i', j', k', hl, hx⟩ := F.inBounds3.1 hx
      simp only [List.cons.injEq, and_true] at hl
      omega
  coef := fun k hk c hc => by
    simp only [exBc3p0, List.mem_cons, List.not_mem_nil, or_false] at hk; rcases hk with rfl | rfl | rfl | rfl | rfl <;> simp

theorem exBc3p0_exact : F.Exact exW (F.row F.points3) exBc3p0 exBd3p0 (F.normal3 ex0 exW exφ3) := fun k hk => by
  simp only [exBc3p0, List.mem_cons, List.not_mem_nil, or_false] at hk
  rcases hk with rfl | rfl | rfl | rfl | rfl
  · refine ⟨rfl, fun p hp => ?_⟩
    obtain ⟨i, j, k, rfl, hb⟩ := F.inBounds3.1 hp.1
    have hq := hp.2
    simp only [List.getD_cons_zero, List.getD_cons_succ] at hq
    refine Or.inl ⟨rfl, ?_⟩
    subst hq
    rw [F.shift3_1]
    simp only [exBd3p0, List.getD_cons_zero, List.getD_cons_succ]
    rw [if_pos (by omega)]
  · refine ⟨rfl, fun p hp => ?_⟩
    obtain ⟨i, j, k, rfl, hb⟩ := F.inBounds3.1 hp.1
    have hq := hp.2
    simp only [List.getD_cons_zero, List.getD_cons_succ] at hq
    refine Or.inr (Or.inr ⟨rfl, ?_⟩)
    subst hq
    rw [F.shift3_3]
    simp only [exBd3p0, List.getD_cons_zero, List.getD_cons_succ]
    rw [if_neg (by omega), if_pos (by omega)]
  · refine ⟨rfl, fun p hp => ?_⟩
    obtain ⟨i, j, k, rfl, hb⟩ := F.inBounds3.1 hp.1
    have hq := hp.2
    simp only [List.getD_cons_zero, List.getD_cons_succ] at hq
    refine Or.inr (Or.inr ⟨rfl, ?_⟩)
    subst hq
    rw [F.shift3_4]
    simp only [exBd3p0, List.getD_cons_zero, List.getD_cons_succ]
    rw [if_neg (by omega), if_neg (by omega), if_pos (by omega)]
  · refine ⟨rfl, fun p hp => ?_⟩
    obtain ⟨i, j, k, rfl, hb⟩ := F.inBounds3.1 hp.1
    have hq := hp.2
    simp only [List.getD_cons_zero, List.getD_cons_succ] at hq
    refine Or.inr (Or.inr ⟨rfl, ?_⟩)
    subst hq
    rw [F.shift3_5]
    simp only [exBd3p0, List.getD_cons_zero, List.getD_cons_succ]
    rw [if_neg (by omega), if_neg (by omega), if_neg (by omega), if_pos (by omega)]
  · refine ⟨rfl, fun p hp => ?_⟩
    obtain ⟨i, j, k, rfl, hb⟩ := F.inBounds3.1 hp.1
    have hq := hp.2
    simp only [List.getD_cons_zero, List.getD_cons_succ] at hq
    refine Or.inr (Or.inr ⟨rfl, ?_⟩)
    subst hq
    rw [F.shift3_6]
    simp only [exBd3p0, List.getD_cons_zero, List.getD_cons_succ]
    rw [if_neg (by omega), if_neg (by omega), if_neg (by omega), if_neg (by omega), if_pos (by omega)]

theorem exBd3p0_near : ∀ p, F.InBounds [(0, 1), (1, 2), (2, 3)] p → ∀ e, 1 ≤ e → e ≤ 7 - 1 → ¬ F.InBounds [(0, 1), (1, 2), (2, 3)] (F.shift p (F.row F.points3 e)) → (∀ k ∈ exBc3p0, k.cells p → k.ghost ≠ e) →
      |exBd3p0 (F.shift p (F.row F.points3 e)) - F.cells3 ex0 exW exφ3 (F.shift p (F.row F.points3 e))| ≤ 1 := fun p hp e h1 h2 hn hf => by
  have hp' := hp
  obtain ⟨i, j, k, rfl, hb⟩ := F.inBounds3.1 hp'
  obtain rfl | rfl | rfl | rfl | rfl | rfl : e = 1 ∨ e = 2 ∨ e = 3 ∨ e = 4 ∨ e = 5 ∨ e = 6 := by omega
  · rw [F.shift3_1] at hn ⊢
    have hq : i = 0 := by
      by_contra hx
      exact hn (F.inBounds3.2 ⟨i - 1, j, k, rfl, by omega⟩)
    exact absurd rfl (hf _ List.mem_cons_self ⟨hp, hq⟩)
  · rw [F.shift3_2] at hn ⊢
    have hq : i = 1 := by
      by_contra hx
      exact hn (F.inBounds3.2 ⟨i + 1, j, k, rfl, by omega⟩)
    simp only [exBd3p0, List.getD_cons_zero, List.getD_cons_succ]
    rw [if_neg (by omega), if_neg (by omega), if_neg (by omega), if_neg (by omega), if_neg (by omega)]
    simp
  · rw [F.shift3_3] at hn ⊢
    have hq : j = 1 := by
      by_contra hx
      exact hn (F.inBounds3.2 ⟨i, j - 1, k, rfl, by omega⟩)
    exact absurd rfl (hf _ (List.mem_cons_of_mem _ List.mem_cons_self) ⟨hp, hq⟩)
  · rw [F.shift3_4] at hn ⊢
    have hq : j = 2 := by
      by_contra hx
      exact hn (F.inBounds3.2 ⟨i, j + 1, k, rfl, by omega⟩)
    exact absurd rfl (hf _ (List.mem_cons_of_mem _ (List.mem_cons_of_mem _ List.mem_cons_self)) ⟨hp, hq⟩)
  · rw [F.shift3_5] at hn ⊢
    have hq : k = 2 := by
      by_contra hx
      exact hn (F.inBounds3.2 ⟨i, j, k - 1, rfl, by omega⟩)
    exact absurd rfl (hf _ (List.mem_cons_of_mem _ (List.mem_cons_of_mem _ (List.mem_cons_of_mem _ List.mem_cons_self))) ⟨hp, hq⟩)
  · rw [F.shift3_6] at hn ⊢
    have hq : k = 3 := by
      by_contra hx
      exact hn (F.inBounds3.2 ⟨i, j, k + 1, rfl, by omega⟩)
    exact absurd rfl (hf _ (List.mem_cons_of_mem _ (List.mem_cons_of_mem _ (List.mem_cons_of_mem _ (List.mem_cons_of_mem _ List.mem_cons_self)))) ⟨hp, hq⟩)

theorem exBc3p0_disjoint : F.Disjoint exBc3p0 := by
  simp [F.Disjoint, exBc3p0]

/-- pieces of the boundary: Neumann in the lower side of direction 0, Robin in the upper side of direction 0, Dirichlet in the lower side of direction 1, Robin in the lower side of direction 2, Robin in the upper side of direction 2 -/
noncomputable def exBc3p1 : List (F.Piece ℝ) := [
  ⟨fun p => F.InBounds [(0, 1), (1, 2), (2, 3)] p ∧ p.getD 0 0 = 0, 1, 1, 1, exW 0, fun _ => 1⟩,
  ⟨fun p => F.InBounds [(0, 1), (1, 2), (2, 3)] p ∧ p.getD 0 0 = 1, 2, 4, 1, exW 0, fun _ => 1⟩,
  ⟨fun p => F.InBounds [(0, 1), (1, 2), (2, 3)] p ∧ p.getD 1 0 = 1, 3, 0, 1, exW 1, fun _ => 1⟩,
  ⟨fun p => F.InBounds [(0, 1), (1, 2), (2, 3)] p ∧ p.getD 2 0 = 2, 5, 4, 1, exW 2, fun _ => 1⟩,
  ⟨fun p => F.InBounds [(0, 1), (1, 2), (2, 3)] p ∧ p.getD 2 0 = 3, 6, 4, 1, exW 2, fun _ => 1⟩]

/-- their data, and in the other ghost cells values at distance 1 from the samples -/
noncomputable def exBd3p1 (p : List Int) : ℝ :=
  if p.getD 0 0 = -1 then 0
  else if p.getD 0 0 = 2 then 2 * 1 * -deriv (F.normal3 ex0 exW exφ3 2 [1, p.getD 1 0, p.getD 2 0]) 0 + F.normal3 ex0 exW exφ3 2 [1, p.getD 1 0, p.getD 2 0] 0
  else if p.getD 1 0 = 0 then F.normal3 ex0 exW exφ3 3 [p.getD 0 0, 1, p.getD 2 0] 0
  else if p.getD 2 0 = 1 then 2 * 1 * -deriv (F.normal3 ex0 exW exφ3 5 [p.getD 0 0, p.getD 1 0, 2]) 0 + F.normal3 ex0 exW exφ3 5 [p.getD 0 0, p.getD 1 0, 2] 0
  else if p.getD 2 0 = 4 then 2 * 1 * -deriv (F.normal3 ex0 exW exφ3 6 [p.getD 0 0, p.getD 1 0, 3]) 0 + F.normal3 ex0 exW exφ3 6 [p.getD 0 0, p.getD 1 0, 3] 0
  else F.cells3 ex0 exW exφ3 p + 1

theorem exBc3p1_ok : F.Pieces [(0, 1), (1, 2), (2, 3)] 7 (F.row F.points3) exBc3p1 where
  first := fun k hk => by
    simp only [exBc3p1, List.mem_cons, List.not_mem_nil, or_false] at hk; rcases hk with rfl | rfl | rfl | rfl | rfl
    · exact Or.inr (Or.inl rfl)
    · exact Or.inr (Or.inr ⟨rfl, rfl⟩)
    · exact Or.inl ⟨rfl, rfl⟩
    · exact Or.inr (Or.inr ⟨rfl, rfl⟩)
    · exact Or.inr (Or.inr ⟨rfl, rfl⟩)
  ghost := fun k hk => by
    simp only [exBc3p1, List.mem_cons, List.not_mem_nil, or_false] at hk; rcases hk with rfl | rfl | rfl | rfl | rfl <;> simp
  width := fun k hk => by
    simp only [exBc3p1, List.mem_cons, List.not_mem_nil, or_false] at hk; rcases hk with rfl | rfl | rfl | rfl | rfl <;> exact exW_pos _
  inside := fun k hk c hc => by
    simp only [exBc3p1, List.mem_cons, List.not_mem_nil, or_false] at hk; rcases hk with rfl | rfl | rfl | rfl | rfl <;> exact hc.1
  outside := fun k hk c hc => by
    simp only [exBc3p1, List.mem_cons, List.not_mem_nil, or_false] at hk; rcases hk with rfl | rfl | rfl | rfl | rfl
    · obtain ⟨i, j, k, rfl, hb⟩ := F.inBounds3.1 hc.1
      have hq := hc.2
      simp only [List.getD_cons_zero, List.getD_cons_succ] at hq
      intro hx
      rw [F.shift3_1] at hx
      obtain ⟨i', j', k', hl, hx⟩ := F.inBounds3.1 hx
      simp only [List.cons.injEq, and_true] at hl
      omega
    · obtain ⟨i, j, k, rfl, hb⟩ := F.inBounds3.1 hc.1
      have hq := hc.2
      simp only [List.getD_cons_zero, List.getD_cons_succ] at hq
      intro hx
      rw [F.shift3_2] at hx
      obtain ⟨i', j', k', hl, hx⟩ := F.inBounds3.1 hx
      simp only [List.cons.injEq, and_true] at hl
      omega
    · obtain ⟨i, j, k, rfl, hb⟩ := F.inBounds3.1 hc.1
      have hq := hc.2
      simp only [List.getD_cons_zero, List.getD_cons_succ] at hq
      intro hx
      rw [F.shift3_3] at hx
      obtain ⟨i', j', k', hl, hx⟩ := F.inBounds3.1 hx
      simp only [List.cons.injEq, and_true] at hl
      omega
    · obtain ⟨i, j, k, rfl, hb⟩ := F.inBounds3.1 hc.1
      have hq := hc.2
      simp only [List.getD_cons_zero, List.getD_cons_succ] at hq
      intro hx
      rw [F.shift3_5] at hx
      obtain ⟨i', j', k', hl, hx⟩ := F.inBounds3.1 hx
      simp only [List.cons.injEq, and_true] at hl
      omega
    · obtain ⟨i, j, k, rfl, hb⟩ := F.inBounds3.1 hc.1
      have hq := hc.2
      simp only [List.getD_cons_zero, List.getD_cons_succ] at hq
      intro hx
      rw [F.shift3_6] at hx
      obtain ⟨i', j', k', hl, hx⟩ := F.inBounds3.1 hx
      simp only [List.cons.injEq, and_true] at hl
      omega
  coef := fun k hk c hc => by
    simp only [exBc3p1, List.mem_cons, List.not_mem_nil, or_false] at hk; rcases hk with rfl | rfl | rfl | rfl | rfl <;> simp

theorem exBc3p1_exact : F.Exact exW (F.row F.points3) exBc3p1 exBd3p1 (F.normal3 ex0 exW exφ3) := fun k hk => by
  simp only [exBc3p1, List.mem_cons, List.not_mem_nil, or_false] at hk
  rcases hk with rfl | rfl | rfl | rfl | rfl
  · refine ⟨rfl, fun p hp => ?_⟩
    obtain ⟨i, j, k, rfl, hb⟩ := F.inBounds3.1 hp.1
    have hq := hp.2
    simp only [List.getD_cons_zero, List.getD_cons_succ] at hq
    refine Or.inr (Or.inl ⟨rfl, ?_⟩)
    subst hq
    show deriv (F.normal3 ex0 exW exφ3 1 [0, j, k]) 0 = 0
    rw [show F.normal3 ex0 exW exφ3 1 [0, j, k] = fun s => s ^ 4 + (F.centre 0 (exW 1) j) ^ 4 + (F.centre 0 (exW 2) k) ^ 4 from funext fun s => by simp [F.normal3, F.face, F.centre, ex0, exφ3]]
    simp
  · refine ⟨rfl, fun p hp => ?_⟩
    obtain ⟨i, j, k, rfl, hb⟩ := F.inBounds3.1 hp.1
    have hq := hp.2
    simp only [List.getD_cons_zero, List.getD_cons_succ] at hq
    refine Or.inr (Or.inr ⟨rfl, ?_⟩)
    subst hq
    rw [F.shift3_2]
    simp only [exBd3p1, List.getD_cons_zero, List.getD_cons_succ]
    rw [if_neg (by omega), if_pos (by omega)]
  · refine ⟨rfl, fun p hp => ?_⟩
    obtain ⟨i, j, k, rfl, hb⟩ := F.inBounds3.1 hp.1
    have hq := hp.2
    simp only [List.getD_cons_zero, List.getD_cons_succ] at hq
    refine Or.inl ⟨rfl, ?_⟩
    subst hq
    rw [F.shift3_3]
    simp only [exBd3p1, List.getD_cons_zero, List.getD_cons_succ]
    rw [if_neg (by omega), if_neg (by omega), if_pos (by omega)]
  · refine ⟨rfl, fun p hp => ?_⟩
    obtain ⟨i, j, k, rfl, hb⟩ := F.inBounds3.1 hp.1
    have hq := hp.2
    simp only [List.getD_cons_zero, List.getD_cons_succ] at hq
    refine Or.inr (Or.inr ⟨rfl, ?_⟩)
    subst hq
    rw [F.shift3_5]
    simp only [exBd3p1, List.getD_cons_zero, List.getD_cons_succ]
    rw [if_neg (by omega), if_neg (by omega), if_neg (by omega), if_pos (by omega)]
  · refine ⟨rfl, fun p hp => ?_⟩
    obtain ⟨i, j, k, rfl, hb⟩ := F.inBounds3.1 hp.1
    have hq := hp.2
    simp only [List.getD_cons_zero, List.getD_cons_succ] at hq
    refine Or.inr (Or.inr ⟨rfl, ?_⟩)
    subst hq
    rw [F.shift3_6]
    simp only [exBd3p1, List.getD_cons_zero, List.getD_cons_succ]
    rw [if_neg (by omega), if_neg (by omega), if_neg (by omega), if_neg (by omega), if_pos (by omega)]

theorem exBd3p1_near : ∀ p, F.InBounds [(0, 1), (1, 2), (2, 3)] p → ∀ e, 1 ≤ e → e ≤ 7 - 1 → ¬ F.InBounds [(0, 1), (1, 2), (2, 3)] (F.shift p (F.row F.points3 e)) → (∀ k ∈ exBc3p1, k.cells p → k.ghost ≠ e) →
      |exBd3p1 (F.shift p (F.row F.points3 e)) - F.cells3 ex0 exW exφ3 (F.shift p (F.row F.points3 e))| ≤ 1 := fun p hp e h1 h2 hn hf => by
  have hp' := hp
  obtain ⟨i, j, k, rfl, hb⟩ := F.inBounds3.1 hp'
  obtain rfl | rfl | rfl | rfl | rfl | rfl : e = 1 ∨ e = 2 ∨ e = 3 ∨ e = 4 ∨ e = 5 ∨ e = 6 := by omega
  · rw [F.shift3_1] at hn ⊢
    have hq : i = 0 := by
      by_contra hx
      exact hn (F.inBounds3.2 ⟨i - 1, j, k, rfl, by omega⟩)
    exact absurd rfl (hf _ List.mem_cons_self ⟨hp, hq⟩)
  · rw [F.shift3_2] at hn ⊢
    have hq : i = 1 := by
      by_contra hx
      exact hn (F.inBounds3.2 ⟨i + 1, j, k, rfl, by omega⟩)
    exact absurd rfl (hf _ (List.mem_cons_of_mem _ List.mem_cons_self) ⟨hp, hq⟩)
  · rw [F.shift3_3] at hn ⊢
    have hq : j = 1 := by
      by_contra hx
      exact hn (F.inBounds3.2 ⟨i, j - 1, k, rfl, by omega⟩)
    exact absurd rfl (hf _ (List.mem_cons_of_mem _ (List.mem_cons_of_mem _ List.mem_cons_self)) ⟨hp, hq⟩)
  · rw [F.shift3_4] at hn ⊢
    have hq : j = 2 := by
      by_contra hx
      exact hn (F.inBounds3.2 ⟨i, j + 1, k, rfl, by omega⟩)
    simp only [exBd3p1, List.getD_cons_zero, List.getD_cons_succ]
    rw [if_neg (by omega), if_neg (by omega), if_neg (by omega), if_neg (by omega), if_neg (by omega)]
    simp
  · rw [F.shift3_5] at hn ⊢
    have hq : k = 2 := by
      by_contra hx
      exact hn (F.inBounds3.2 ⟨i, j, k - 1, rfl, by omega⟩)
    exact absurd rfl (hf _ (List.mem_cons_of_mem _ (List.mem_cons_of_mem _ (List.mem_cons_of_mem _ List.mem_cons_self))) ⟨hp, hq⟩)
  · rw [F.shift3_6] at hn ⊢
    have hq : k = 3 := by
      by_contra hx
      exact hn (F.inBounds3.2 ⟨i, j, k + 1, rfl, by omega⟩)
    exact absurd rfl (hf _ (List.mem_cons_of_mem _ (List.mem_cons_of_mem _ (List.mem_cons_of_mem _ (List.mem_cons_of_mem _ List.mem_cons_self)))) ⟨hp, hq⟩)

theorem exBc3p1_disjoint : F.Disjoint exBc3p1 := by
  simp [F.Disjoint, exBc3p1]

/-- pieces of the boundary: Neumann in the lower side of direction 0, Robin in the upper side of direction 0, Robin in the lower side of direction 1, Robin in the upper side of direction 1, Dirichlet in the lower side of direction 2 -/
noncomputable def exBc3p2 : List (F.Piece ℝ) := [
  ⟨fun p => F.InBounds [(0, 1), (1, 2), (2, 3)] p ∧ p.getD 0 0 = 0, 1, 1, 1, exW 0, fun _ => 1⟩,
  ⟨fun p => F.InBounds [(0, 1), (1, 2), (2, 3)] p ∧ p.getD 0 0 = 1, 2, 4, 1, exW 0, fun _ => 1⟩,
  ⟨fun p => F.InBounds [(0, 1), (1, 2), (2, 3)] p ∧ p.getD 1 0 = 1, 3, 4, 1, exW 1, fun _ => 1⟩,
  ⟨fun p => F.InBounds [(0, 1), (1, 2), (2, 3)] p ∧ p.getD 1 0 = 2, 4, 4, 1, exW 1, fun _ => 1⟩,
  ⟨fun p => F.InBounds [(0, 1), (1, 2), (2, 3)] p ∧ p.getD 2 0 = 2, 5, 0, 1, exW 2, fun _ => 1⟩]

/-- their data, and in the other ghost cells values at distance 1 from the samples -/
noncomputable def exBd3p2 (p : List Int) : ℝ :=
  if p.getD 0 0 = -1 then 0
  else if p.getD 0 0 = 2 then 2 * 1 * -deriv (F.normal3 ex0 exW exφ3 2 [1, p.getD 1 0, p.getD 2 0]) 0 + F.normal3 ex0 exW exφ3 2 [1, p.getD 1 0, p.getD 2 0] 0
  else if p.getD 1 0 = 0 then 2 * 1 * -deriv (F.normal3 ex0 exW exφ3 3 [p.getD 0 0, 1, p.getD 2 0]) 0 + F.normal3 ex0 exW exφ3 3 [p.getD 0 0, 1, p.getD 2 0] 0
  else if p.getD 1 0 = 3 then 2 * 1 * -deriv (F.normal3 ex0 exW exφ3 4 [p.getD 0 0, 2, p.getD 2 0]) 0 + F.normal3 ex0 exW exφ3 4 [p.getD 0 0, 2, p.getD 2 0] 0
  else if p.getD 2 0 = 1 then F.normal3 ex0 exW exφ3 5 [p.getD 0 0, p.getD 1 0, 2] 0
  else F.cells3 ex0 exW exφ3 p + 1

theorem exBc3p2_ok : F.Pieces [(0, 1), (1, 2), (2, 3)] 7 (F.row F.points3) exBc3p2 where
  first := fun k hk => by
    simp only [exBc3p2, List.mem_cons, List.not_mem_nil, or_false] at hk; rcases hk with rfl | rfl | rfl | rfl | rfl
    · exact Or.inr (Or.inl rfl)
    · exact Or.inr (Or.inr ⟨rfl, rfl⟩)
    · exact Or.inr (Or.inr ⟨rfl, rfl⟩)
    · exact Or.inr (Or.inr ⟨rfl, rfl⟩)
    · exact Or.inl ⟨rfl, rfl⟩
  ghost := fun k hk => by
    simp only [exBc3p2, List.mem_cons, List.not_mem_nil, or_false] at hk; rcases hk with rfl | rfl | rfl | rfl | rfl <;> simp
  width := fun k hk => by
    simp only [exBc3p2, List.mem_cons, List.not_mem_nil, or_false] at hk; rcases hk with rfl | rfl | rfl | rfl | rfl <;> exact exW_pos _
  inside := fun k hk c hc => by
    simp only [exBc3p2, List.mem_cons, List.not_mem_nil, or_false] at hk; rcases hk with rfl | rfl | rfl | rfl | rfl <;> exact hc.1
  outside := fun k hk c hc => by
    simp only [exBc3p2, List.mem_cons, List.not_mem_nil, or_false] at hk; rcases hk with rfl | rfl | rfl | rfl | rfl
    · obtain ⟨i, j, k, rfl, hb⟩ := F.inBounds3.1 hc.1
      have hq := hc.2
      simp only [List.getD_cons_zero, List.getD_cons_succ] at hq
      intro hx
      rw [F.shift3_1] at hx
      obtain ⟨i', j', k', hl, hx⟩ := F.inBounds3.1 hx
      simp only [List.cons.injEq, and_true] at hl
      omega
    · obtain ⟨i, j, k, rfl, hb⟩ := F.inBounds3.1 hc.1
      have hq := hc.2
      simp only [List.getD_cons_zero, List.getD_cons_succ] at hq
      intro hx
      rw [F.shift3_2] at hx
      obtain ⟨i', j', k', hl, hx⟩ := F.inBounds3.1 hx
      simp only [List.cons.injEq, and_true] at hl
      omega
    · obtain ⟨i, j, k, rfl, hb⟩ := F.inBounds3.1 hc.1
      have hq := hc.2
      simp only [List.getD_cons_zero, List.getD_cons_succ] at hq
      intro hx
      rw [F.shift3_3] at hx
      obtain ⟨i', j', k', hl, hx⟩ := F.inBounds3.1 hx
      simp only [List.cons.injEq, and_true] at hl
      omega
    · obtain ⟨i, j, k, rfl, hb⟩ := F.inBounds3.1 hc.1
      have hq := hc.2
      simp only [List.getD_cons_zero, List.getD_cons_succ] at hq
      intro hx
      rw [F.shift3_4] at hx
      obtain ⟨i', j', k', hl, hx⟩ := F.inBounds3.1 hx
      simp only [List.cons.injEq, and_true] at hl
      omega
    · obtain ⟨i, j, k, rfl, hb⟩ := F.inBounds3.1 hc.1
      have hq := hc.2
      simp only [List.getD_cons_zero, List.getD_cons_succ] at hq
      intro hx
      rw [F.shift3_5] at hx
      obtain ⟨i', j', k', hl, hx⟩ := F.inBounds3.1 hx
      simp only [List.cons.injEq, and_true] at hl
      omega
  coef := fun k hk c hc => by
    simp only [exBc3p2, List.mem_cons, List.not_mem_nil, or_false] at hk; rcases hk with rfl | rfl | rfl | rfl | rfl <;> simp

theorem exBc3p2_exact : F.Exact exW (F.row F.points3) exBc3p2 exBd3p2 (F.normal3 ex0 exW exφ3) := fun k hk => by
  simp only [exBc3p2, List.mem_cons, List.not_mem_nil, or_false] at hk
  rcases hk with rfl | rfl | rfl | rfl | rfl
  · refine ⟨rfl, fun p hp => ?_⟩
    obtain ⟨i, j, k, rfl, hb⟩ := F.inBounds3.1 hp.1
    have hq := hp.2
    simp only [List.getD_cons_zero, List.getD_cons_succ] at hq
    refine Or.inr (Or.inl ⟨rfl, ?_⟩)
    subst hq
    show deriv (F.normal3 ex0 exW exφ3 1 [0, j, k]) 0 = 0
    rw [show F.normal3 ex0 exW exφ3 1 [0, j, k] = fun s => s ^ 4 + (F.centre 0 (exW 1) j) ^ 4 + (F.centre 0 (exW 2) k) ^ 4 from funext fun s => by simp [F.normal3, F.face, F.centre, ex0, exφ3]]
    simp
  · refine ⟨rfl, fun p hp => ?_⟩
    obtain ⟨i, j, k, rfl, hb⟩ := F.inBounds3.1 hp.1
    have hq := hp.2
    simp only [List.getD_cons_zero, List.getD_cons_succ] at hq
    refine Or.inr (Or.inr ⟨rfl, ?_⟩)
    subst hq
    rw [F.shift3_2]
    simp only [exBd3p2, List.getD_cons_zero, List.getD_cons_succ]
    rw [if_neg (by omega), if_pos (by omega)]
  · refine ⟨rfl, fun p hp => ?_⟩
    obtain ⟨i, j, k, rfl, hb⟩ := F.inBounds3.1 hp.1
    have hq := hp.2
    simp only [List.getD_cons_zero, List.getD_cons_succ] at hq
    refine Or.inr (Or.inr ⟨rfl, ?_⟩)
    subst hq
    rw [F.shift3_3]
    simp only [exBd3p2, List.getD_cons_zero, List.getD_cons_succ]
    rw [if_neg (by omega), if_neg (by omega), if_pos (by omega)]
  · refine ⟨rfl, fun p hp => ?_⟩
    obtain ⟨i, j, k, rfl, hb⟩ := F.inBounds3.1 hp.1
    have hq := hp.2
    simp only [List.getD_cons_zero, List.getD_cons_succ] at hq
    refine Or.inr (Or.inr ⟨rfl, ?_⟩)
    subst hq
    rw [F.shift3_4]
    simp only [exBd3p2, List.getD_cons_zero, List.getD_cons_succ]
    rw [if_neg (by omega), if_neg (by omega), if_neg (by omega), if_pos (by omega)]
  · refine ⟨rfl, fun p hp => ?_⟩
    obtain ⟨i, j, k, rfl, hb⟩ := F.inBounds3.1 hp.1
    have hq := hp.2
    simp only [List.getD_cons_zero, List.getD_cons_succ] at hq
    refine Or.inl ⟨rfl, ?_⟩
    subst hq
    rw [F.shift3_5]
    simp only [exBd3p2, List.getD_cons_zero, List.getD_cons_succ]
    rw [if_neg (by omega), if_neg (by omega), if_neg (by omega), if_neg (by omega), if_pos (by omega)]

theorem exBd3p2_near : ∀ p, F.InBounds [(0, 1), (1, 2), (2, 3)] p → ∀ e, 1 ≤ e → e ≤ 7 - 1 → ¬ F.InBounds [(0, 1), (1, 2), (2, 3)] (F.shift p (F.row F.points3 e)) → (∀ k ∈ exBc3p2, k.cells p → k.ghost ≠ e) →
      |exBd3p2 (F.shift p (F.row F.points3 e)) - F.cells3 ex0 exW exφ3 (F.shift p (F.row F.points3 e))| ≤ 1 := fun p hp e h1 h2 hn hf => by
  have hp' := hp
  obtain ⟨i, j, k, rfl, hb⟩ := F.inBounds3.1 hp'
  obtain rfl | rfl | rfl | rfl | rfl | rfl : e = 1 ∨ e = 2 ∨ e = 3 ∨ e = 4 ∨ e = 5 ∨ e = 6 := by omega
  · rw [F.shift3_1] at hn ⊢
    have hq : i = 0 := by
      by_contra hx
      exact hn (F.inBounds3.2 ⟨i - 1, j, k, rfl, by omega⟩)
    exact absurd rfl (hf _ List.mem_cons_self ⟨hp, hq⟩)
  · rw [F.shift3_2] at hn ⊢
    have hq : i = 1 := by
      by_contra hx
      exact hn (F.inBounds3.2 ⟨i + 1, j, k, rfl, by omega⟩)
    exact absurd rfl (hf _ (List.mem_cons_of_mem _ List.mem_cons_self) ⟨hp, hq⟩)
  · rw [F.shift3_3] at hn ⊢
    have hq : j = 1 := by
      by_contra hx
      exact hn (F.inBounds3.2 ⟨i, j - 1, k, rfl, by omega⟩)
    exact absurd rfl (hf _ (List.mem_cons_of_mem _ (List.mem_cons_of_mem _ List.mem_cons_self)) ⟨hp, hq⟩)
  · rw [F.shift3_4] at hn ⊢
    have hq : j = 2 := by
      by_contra hx
      exact hn (F.inBounds3.2 ⟨i, j + 1, k, rfl, by omega⟩)
    exact absurd rfl (hf _ (List.mem_cons_of_mem _ (List.mem_cons_of_mem _ (List.mem_cons_of_mem _ List.mem_cons_self))) ⟨hp, hq⟩)
  · rw [F.shift3_5] at hn ⊢
    have hq : k = 2 := by
      by_contra hx
      exact hn (F.inBounds3.2 ⟨i, j, k - 1, rfl, by omega⟩)
    exact absurd rfl (hf _ (List.mem_cons_of_mem _ (List.mem_cons_of_mem _ (List.mem_cons_of_mem _ (List.mem_cons_of_mem _ List.mem_cons_self)))) ⟨hp, hq⟩)
  · rw [F.shift3_6] at hn ⊢
    have hq : k = 3 := by
      by_contra hx
      exact hn (F.inBounds3.2 ⟨i, j, k + 1, rfl, by omega⟩)
    simp only [exBd3p2, List.getD_cons_zero, List.getD_cons_succ]
    rw [if_neg (by omega), if_neg (by omega), if_neg (by omega), if_neg (by omega), if_neg (by omega)]
    simp

theorem exBc3p2_disjoint : F.Disjoint exBc3p2 := by
  simp [F.Disjoint, exBc3p2]

theorem exBv3_v1 : ∃ X, F.Fulfils [(0, 1), (1, 2), (2, 3)] 7 (F.row F.points3) exBc3v exBd3v X :=
  (F.bvone_3 exAcc_v1_3 exBc3v_disjoint exBc3v_ok ⟨[0, 1, 2], F.inBounds3.2 ⟨0, 1, 2, rfl, by omega⟩, Or.inl (lt_of_lt_of_le (by norm_num) (exC3 _ (F.inBounds3.2 ⟨0, 1, 2, rfl, by omega⟩)))⟩ (fun _ => 0) _).imp fun _ h => h.1

theorem exBv3_v2 : ∃ X, F.Fulfils [(0, 1), (1, 2), (2, 3)] 7 (F.row F.points3) exBc3v exBd3v X :=
  (F.bvone_3 exAcc_v2_3 exBc3v_disjoint exBc3v_ok ⟨[0, 1, 2], F.inBounds3.2 ⟨0, 1, 2, rfl, by omega⟩, Or.inl (by norm_num)⟩ (fun _ => 0) _).imp fun _ h => h.1

theorem exBv3_p0 : ∃ X, F.Fulfils [(0, 1), (1, 2), (2, 3)] 7 (F.row F.points3) exBc3p0 exBd3p0 X := by
  refine (F.bvone_3 exAcc_p_3 exBc3p0_disjoint exBc3p0_ok ⟨[0, 1, 2], F.inBounds3.2 ⟨0, 1, 2, rfl, by omega⟩, Or.inr ⟨1, by omega, by omega, ?_, fun k hk _ he => ?_⟩⟩ (fun _ => 0) _).imp fun _ h => h.1
  · rw [F.shift3_1]
    simp [F.InBounds]
  · simp only [exBc3p0, List.mem_cons, List.not_mem_nil, or_false] at hk
    rcases hk with rfl | rfl | rfl | rfl | rfl
    · intro h; cases h
    · exact absurd he (by decide)
    · exact absurd he (by decide)
    · exact absurd he (by decide)
    · exact absurd he (by decide)

theorem exBv3_p1 : ∃ X, F.Fulfils [(0, 1), (1, 2), (2, 3)] 7 (F.row F.points3) exBc3p1 exBd3p1 X := by
  refine (F.bvone_3 exAcc_p_3 exBc3p1_disjoint exBc3p1_ok ⟨[0, 1, 2], F.inBounds3.2 ⟨0, 1, 2, rfl, by omega⟩, Or.inr ⟨3, by omega, by omega, ?_, fun k hk _ he => ?_⟩⟩ (fun _ => 0) _).imp fun _ h => h.1
  · rw [F.shift3_3]
    simp [F.InBounds]
  · simp only [exBc3p1, List.mem_cons, List.not_mem_nil, or_false] at hk
    rcases hk with rfl | rfl | rfl | rfl | rfl
    · exact absurd he (by decide)
    · exact absurd he (by decide)
    · intro h; cases h
    · exact absurd he (by decide)
    · exact absurd he (by decide)

theorem exBv3_p2 : ∃ X, F.Fulfils [(0, 1), (1, 2), (2, 3)] 7 (F.row F.points3) exBc3p2 exBd3p2 X := by
  refine (F.bvone_3 exAcc_p_3 exBc3p2_disjoint exBc3p2_ok ⟨[0, 1, 2], F.inBounds3.2 ⟨0, 1, 2, rfl, by omega⟩, Or.inr ⟨5, by omega, by omega, ?_, fun k hk _ he => ?_⟩⟩ (fun _ => 0) _).imp fun _ h => h.1
  · rw [F.shift3_5]
    simp [F.InBounds]
  · simp only [exBc3p2, List.mem_cons, List.not_mem_nil, or_false] at hk
    rcases hk with rfl | rfl | rfl | rfl | rfl
    · exact absurd he (by decide)
    · exact absurd he (by decide)
    · exact absurd he (by decide)
    · exact absurd he (by decide)
    · intro h; cases h

end Verif
