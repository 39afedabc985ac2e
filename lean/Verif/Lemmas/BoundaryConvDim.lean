import Verif.Lemmas.BoundaryConv

/-
Second order convergence with boundary conditions: the barriers in 1D, 2D and 3D.
-/

namespace Verif.F

set_option linter.unusedVariables false
set_option linter.unusedSimpArgs false

theorem deriv_lo (g : ℝ → ℝ) (x : ℝ) : deriv (fun s => g (x + s)) 0 = deriv g x := by
  rw [deriv_comp_const_add, add_zero]

theorem deriv_up (g : ℝ → ℝ) (x : ℝ) : deriv (fun s => g (x - s)) 0 = -deriv g x := by
  rw [deriv_comp_const_sub, sub_zero]

/-- at the lower face of a cell -/
theorem near_lo {g : ℝ → ℝ} {o h M2 M3 lo hi : ℝ} {i : Int} (hg : ContDiff ℝ 4 g) (hh : 0 < h) (hb : Bends g lo hi M2 M3) (h0 : lo ≤ centre o h (i - 1)) (h1 : centre o h i ≤ hi) :
    |g (centre o h i) + g (centre o h (i - 1)) - 2 * g (face o h i)| ≤ M2 * h ^ 2 / 4 ∧ |g (centre o h i) - g (centre o h (i - 1)) - h * deriv g (face o h i)| ≤ M3 * h ^ 3 / 24 := by
  have e1 : centre o h i = face o h i + h / 2 := by rw [face_dn]; ring
  have e2 : centre o h (i - 1) = face o h i - h / 2 := by rw [face_dn, centre_pred]; ring
  rw [e1] at h1 ⊢
  rw [e2] at h0 ⊢
  exact ⟨mean_near hg hh fun y a b => (hb y (h0.trans a) (b.trans h1)).1, slope_near hg hh fun y a b => (hb y (h0.trans a) (b.trans h1)).2⟩

/-- at the upper face of a cell -/
theorem near_up {g : ℝ → ℝ} {o h M2 M3 lo hi : ℝ} {i : Int} (hg : ContDiff ℝ 4 g) (hh : 0 < h) (hb : Bends g lo hi M2 M3) (h0 : lo ≤ centre o h i) (h1 : centre o h (i + 1) ≤ hi) :
    |g (centre o h i) + g (centre o h (i + 1)) - 2 * g (face o h (i + 1))| ≤ M2 * h ^ 2 / 4 ∧ |g (centre o h i) - g (centre o h (i + 1)) - h * -deriv g (face o h (i + 1))| ≤ M3 * h ^ 3 / 24 := by
  have e1 : i = i + 1 - 1 := by ring
  have t := near_lo (i := i + 1) hg hh hb (by rwa [← e1]) h1
  rw [← e1] at t
  refine ⟨by rw [add_comm (g (centre o h i))]; exact t.1, ?_⟩
  rw [show g (centre o h i) - g (centre o h (i + 1)) - h * -deriv g (face o h (i + 1)) = h * deriv g (face o h (i + 1)) - (g (centre o h (i + 1)) - g (centre o h i)) by ring]
  exact (abs_sub_comm _ _).trans_le t.2

/-- the middle of the cells `lo` to `hi` -/
noncomputable def middle (o h : ℝ) (lo hi : Int) : ℝ := (face o h lo + face o h (hi + 1)) / 2

/-- square of the distance from the middle -/
noncomputable def bowl (o h : ℝ) (lo hi i : Int) : ℝ := (centre o h i - middle o h lo hi) ^ 2

theorem bowl_nonneg {o h : ℝ} {lo hi i : Int} : 0 ≤ bowl o h lo hi i := sq_nonneg _

theorem bowl_lo {o h : ℝ} {lo hi : Int} : bowl o h lo hi (lo - 1) - bowl o h lo hi lo = h * extent h lo hi := by
  unfold bowl middle face centre extent
  push_cast
  ring

theorem bowl_up {o h : ℝ} {lo hi : Int} : bowl o h lo hi (hi + 1) - bowl o h lo hi hi = h * extent h lo hi := by
  unfold bowl middle face centre extent
  push_cast
  ring

theorem extent_pos {h : ℝ} {lo hi : Int} (hh : 0 < h) (hi' : lo ≤ hi) : 0 < extent h lo hi := by
  unfold extent
  have : (0 : ℝ) < ((hi + 1 - lo : Int) : ℝ) := by exact_mod_cast (by omega : (0 : Int) < hi + 1 - lo)
  positivity

/-- the highest value in the box -/
theorem bowl_le {o h : ℝ} {lo hi i : Int} (hh : 0 < h) (h0 : lo ≤ i) (h1 : i ≤ hi) : bowl o h lo hi i ≤ extent h lo hi ^ 2 / 4 := by
  have a : ((lo : Int) : ℝ) ≤ i := by exact_mod_cast h0
  have b : ((i : Int) : ℝ) ≤ hi := by exact_mod_cast h1
  have : |centre o h i - middle o h lo hi| ≤ extent h lo hi / 2 := by
    unfold middle face centre extent
    push_cast
    rw [abs_le]
    constructor <;> nlinarith
  unfold bowl
  calc _ = |centre o h i - middle o h lo hi| ^ 2 := (sq_abs _).symm
    _ ≤ (extent h lo hi / 2) ^ 2 := pow_le_pow_left₀ (abs_nonneg _) this 2
    _ = _ := by ring

/-- half the width of the box and the next cells, squared, is above the bowl there -/
theorem bowl_top {o h : ℝ} {lo hi i : Int} (hh : 0 < h) (h0 : lo - 1 ≤ i) (h1 : i ≤ hi + 1) : bowl o h lo hi i ≤ (extent h lo hi + h) ^ 2 / 4 := by
  have a : (((lo - 1 : Int)) : ℝ) ≤ i := by exact_mod_cast h0
  have b : ((i : Int) : ℝ) ≤ ((hi + 1 : Int) : ℝ) := by exact_mod_cast h1
  push_cast at a b
  have : |centre o h i - middle o h lo hi| ≤ (extent h lo hi + h) / 2 := by
    unfold middle face centre extent
    push_cast
    rw [abs_le]
    constructor <;> nlinarith
  unfold bowl
  calc _ = |centre o h i - middle o h lo hi| ^ 2 := (sq_abs _).symm
    _ ≤ ((extent h lo hi + h) / 2) ^ 2 := pow_le_pow_left₀ (abs_nonneg _) this 2
    _ = _ := by ring

/-- the difference quotients of the bowl along its axis -/
theorem bowl_axis {o h b0 b1 : ℝ} {lo hi i : Int} (hh : 0 < h) :
    (b1 * (bowl o h lo hi (i + 1) - bowl o h lo hi i) / h - b0 * (bowl o h lo hi i - bowl o h lo hi (i - 1)) / h) / h =
      2 * (b1 * (face o h (i + 1) - middle o h lo hi) - b0 * (face o h i - middle o h lo hi)) / h := by
  have e1 : bowl o h lo hi (i + 1) - bowl o h lo hi i = 2 * h * (face o h (i + 1) - middle o h lo hi) := by
    unfold bowl face centre
    push_cast
    ring
  have e0 : bowl o h lo hi i - bowl o h lo hi (i - 1) = 2 * h * (face o h i - middle o h lo hi) := by
    unfold bowl face centre
    push_cast
    ring
  rw [e1, e0]
  field_simp

/-- they are bounded by the coefficient and its derivative -/
theorem bowl_bound {κ : ℝ → ℝ} {o h k l : ℝ} {lo hi i : Int} (hh : 0 < h) (hκ : ContDiff ℝ 3 κ) (hv : Varies κ (centre o h (lo - 1)) (centre o h (hi + 1)) k l) (h0 : lo ≤ i) (h1 : i ≤ hi) :
    |2 * (κ (face o h (i + 1)) * (face o h (i + 1) - middle o h lo hi) - κ (face o h i) * (face o h i - middle o h lo hi)) / h| ≤ 2 * (k + l * extent h lo hi / 2) := by
  have d1 : ∀ y, HasDerivAt κ (iteratedDeriv 1 κ y) y := fun y => by simpa using hasDeriv_iter (k := 0) hκ (by norm_num) y
  have fa : centre o h (lo - 1) ≤ face o h i := by
    have := centre_mono (o := o) hh (show lo - 1 ≤ i - 1 by omega)
    rw [centre_pred o h i] at this
    rw [face_dn]; linarith
  have fb : face o h (i + 1) ≤ centre o h (hi + 1) := by
    have := centre_mono (o := o) hh (show i + 1 ≤ hi + 1 by omega)
    rw [centre_succ o h i] at this
    rw [face_up]; linarith
  have fs : face o h (i + 1) = face o h i + h := by rw [face_up, face_dn]; ring
  have g := grow (f := fun t => κ (face o h i + t) - κ (face o h i)) (f' := fun t => iteratedDeriv 1 κ (face o h i + t)) (c := l) (T := h) (n := 0)
    (fun t => (((d1 (face o h i + t)).comp t ((hasDerivAt_id t).const_add (face o h i))).congr_deriv (mul_one _)).sub_const _) (by simp)
    (fun t h0 h1 => by
      have := (hv (face o h i + t) (by linarith) (by linarith)).2
      rw [iteratedDeriv_one]
      simpa using this) h hh.le le_rfl
  norm_num at g
  rw [← fs] at g
  have kb := (hv (face o h i) fa (by linarith)).1
  have l0 : 0 ≤ l := (abs_nonneg _).trans (hv (face o h i) fa (by linarith)).2
  have mb : |face o h (i + 1) - middle o h lo hi| ≤ extent h lo hi / 2 := by
    have a : ((lo : Int) : ℝ) ≤ i := by exact_mod_cast h0
    have b : ((i : Int) : ℝ) ≤ hi := by exact_mod_cast h1
    unfold middle face extent
    push_cast
    rw [abs_le]
    constructor <;> nlinarith
  rw [show κ (face o h (i + 1)) * (face o h (i + 1) - middle o h lo hi) - κ (face o h i) * (face o h i - middle o h lo hi) =
    (κ (face o h (i + 1)) - κ (face o h i)) * (face o h (i + 1) - middle o h lo hi) + κ (face o h i) * h by rw [fs]; ring, abs_div, abs_of_pos hh, div_le_iff₀ hh, abs_mul, abs_two]
  have t1 : |(κ (face o h (i + 1)) - κ (face o h i)) * (face o h (i + 1) - middle o h lo hi)| ≤ l * h * (extent h lo hi / 2) := by
    rw [abs_mul]
    exact mul_le_mul g mb (abs_nonneg _) (by positivity)
  have t2 : |κ (face o h i) * h| ≤ k * h := by
    rw [abs_mul, abs_of_pos hh]
    exact mul_le_mul_of_nonneg_right kb hh.le
  have := abs_add_le ((κ (face o h (i + 1)) - κ (face o h i)) * (face o h (i + 1) - middle o h lo hi)) (κ (face o h i) * h)
  nlinarith

/-- without a coefficient -/
theorem bowl_one {o h : ℝ} {lo hi i : Int} (hh : 0 < h) :
    (1 * (bowl o h lo hi (i + 1) - bowl o h lo hi i) / h - 1 * (bowl o h lo hi i - bowl o h lo hi (i - 1)) / h) / h = 2 := by
  rw [bowl_axis hh, face_up, face_dn]
  field_simp
  ring

/-- neighbours above the cell in the middle -/
theorem axis_up {h b0 b1 x y z : ℝ} (hh : h ≠ 0) (h0 : 0 < b0) (h1 : 0 < b1) (xz : y ≤ x) (yz : y ≤ z) : 0 ≤ (b1 * (z - y) / h - b0 * (y - x) / h) / h := by
  have : (b1 * (z - y) / h - b0 * (y - x) / h) / h = (b1 * (z - y) + b0 * (x - y)) / (h * h) := by field_simp; ring
  rw [this]
  exact div_nonneg (add_nonneg (mul_nonneg h1.le (by linarith)) (mul_nonneg h0.le (by linarith))) (mul_self_nonneg h)

/-- comparison with 0 -/
theorem Elliptic1.above {i0 i1 : Int} {alpha beta : ℝ} {dx : Nat → ℝ} {A B0 v : List Int → ℝ} (he : Elliptic1 i0 i1 alpha beta dx A B0)
    (hq : ∀ i, i0 ≤ i → i ≤ i1 → v [i] < 0 → alpha * A [i] * v [i] < op1 alpha beta dx A B0 v i)
    (hb : ∀ p, InBounds [(i0, i1)] p → ∀ e, 1 ≤ e → e ≤ 3 - 1 → ¬ InBounds [(i0, i1)] (shift p (row points1 e)) → v p < 0 → v p ≤ v (shift p (row points1 e))) :
    ∀ p, InBounds [(i0, i1)] p → 0 ≤ v p := by
  intro p hp
  by_contra hn
  rw [not_le] at hn
  obtain ⟨q, hqb, hmin⟩ := exists_least v hp
  have hv : v q < 0 := (hmin p hp).trans_lt hn
  have nb : ∀ e, 1 ≤ e → e ≤ 3 - 1 → v q ≤ v (shift q (row points1 e)) := fun e e1 e2 => by
    by_cases h : InBounds [(i0, i1)] (shift q (row points1 e))
    · exact hmin _ h
    · exact hb q hqb e e1 e2 h hv
  obtain ⟨i, rfl, h⟩ := inBounds1.1 hqb
  have x := hq i (by omega) (by omega) hv
  have n1 := nb 1 (by decide) (by decide)
  rw [shift1_1] at n1
  have n2 := nb 2 (by decide) (by decide)
  rw [shift1_2] at n2
  have t0 := axis_up he.dx0 (he.face0 i (by omega) (by omega)) (he.face0 (i + 1) (by omega) (by omega)) n1 n2
  unfold op1 at x
  have := mul_nonneg he.beta.le (t0)
  linarith

/-- the samples around a face of the boundary -/
theorem normal1_near {i0 i1 : Int} {dx o : Nat → ℝ} {φ : ℝ → ℝ} {m0 M0 : ℝ} (hd0 : 0 < dx 0)
    (s0 : ContDiff ℝ 4 (fun s => φ s))
    (b0 : Bends (fun s => φ s) (centre (o 0) (dx 0) (i0 - 1)) (centre (o 0) (dx 0) (i1 + 1)) m0 M0) :
    ∀ p, InBounds [(i0, i1)] p → ∀ e, 1 ≤ e → e ≤ 3 - 1 → ¬ InBounds [(i0, i1)] (shift p (row points1 e)) →
      |cells1 o dx φ p + cells1 o dx φ (shift p (row points1 e)) - 2 * normal1 o dx φ e p 0| ≤ (fun e => m0) e * across dx e ^ 2 / 4 ∧
      |cells1 o dx φ p - cells1 o dx φ (shift p (row points1 e)) - across dx e * deriv (normal1 o dx φ e p) 0| ≤ (fun e => M0) e * across dx e ^ 3 / 24 := by
  intro p hp e e1 e2 _
  obtain ⟨i, rfl, h⟩ := inBounds1.1 hp
  have he : e = 1 ∨ e = 2 := by omega
  rcases he with rfl | rfl
  · have t := near_lo (o := o 0) (i := i) s0 hd0 b0 (centre_mono hd0 (show i0 - 1 ≤ i - 1 by omega)) (centre_mono hd0 (show i ≤ i1 + 1 by omega))
    have f : normal1 o dx φ 1 [i] = fun s => (fun s => φ s) (face (o 0) (dx 0) i + s) := by funext s; simp [normal1]
    rw [f, deriv_lo (fun s => φ s) (face (o 0) (dx 0) i), shift1_1]
    simpa [across, cells1] using t
  · have t := near_up (o := o 0) (i := i) s0 hd0 b0 (centre_mono hd0 (show i0 - 1 ≤ i by omega)) (centre_mono hd0 (show i + 1 ≤ i1 + 1 by omega))
    have f : normal1 o dx φ 2 [i] = fun s => (fun s => φ s) (face (o 0) (dx 0) (i + 1) - s) := by funext s; simp [normal1]
    rw [f, deriv_up (fun s => φ s) (face (o 0) (dx 0) (i + 1)), shift1_2]
    simpa [across, cells1] using t

/-- a barrier bounds the error -/
theorem Elliptic1.within {i0 i1 : Int} {alpha beta d τ : ℝ} {dx o : Nat → ℝ} {φ : ℝ → ℝ} {A B0 X D W : List Int → ℝ} {ps : List (Piece ℝ)} {m0 M0 : ℝ} (hd0 : 0 < dx 0)
    (he : Elliptic1 i0 i1 alpha beta dx A B0) (hp : Pieces [(i0, i1)] 3 (row points1) ps) (hX : Fulfils [(i0, i1)] 3 (row points1) ps D X)
    (hN : Exact dx (row points1) ps D (normal1 o dx φ)) (s0 : ContDiff ℝ 4 (fun s => φ s))
    (b0 : Bends (fun s => φ s) (centre (o 0) (dx 0) (i0 - 1)) (centre (o 0) (dx 0) (i1 + 1)) m0 M0)
    (hd : ∀ p, InBounds [(i0, i1)] p → ∀ e, 1 ≤ e → e ≤ 3 - 1 → ¬ InBounds [(i0, i1)] (shift p (row points1 e)) → (∀ k ∈ ps, k.cells p → k.ghost ≠ e) →
      |D (shift p (row points1 e)) - cells1 o dx φ (shift p (row points1 e))| ≤ d)
    (hw : ∀ i, i0 ≤ i → i ≤ i1 →
      (i = i0 → m0 * dx 0 ^ 2 / 4 ≤ W [i] + W [i - 1] ∧ d ≤ W [i - 1] ∧ ((∃ r ∈ ps, r.cells [i] ∧ r.ghost = 1 ∧ r.btype ≠ 0) → M0 * dx 0 ^ 3 / 24 ≤ W [i - 1] - W [i])) ∧
      (i = i1 → m0 * dx 0 ^ 2 / 4 ≤ W [i] + W [i + 1] ∧ d ≤ W [i + 1] ∧ ((∃ r ∈ ps, r.cells [i] ∧ r.ghost = 2 ∧ r.btype ≠ 0) → M0 * dx 0 ^ 3 / 24 ≤ W [i + 1] - W [i])))
    (hL : ∀ i, i0 ≤ i → i ≤ i1 → |op1 alpha beta dx A B0 X i - op1 alpha beta dx A B0 (cells1 o dx φ) i| ≤ τ)
    (hW : ∀ i, i0 ≤ i → i ≤ i1 → τ ≤ op1 alpha beta dx A B0 W i ∧ (0 < alpha * A [i] ∨ τ < op1 alpha beta dx A B0 W i)) :
    ∀ p, InBounds [(i0, i1)] p → |X p - cells1 o dx φ p| ≤ W p := by
  have nr := normal1_near (o := o) (φ := φ) hd0 s0 b0
  have fw : ∀ p, InBounds [(i0, i1)] p → ∀ e, 1 ≤ e → e ≤ 3 - 1 → ¬ InBounds [(i0, i1)] (shift p (row points1 e)) →
      (fun e => m0) e * across dx e ^ 2 / 4 ≤ W p + W (shift p (row points1 e)) ∧ d ≤ W (shift p (row points1 e)) ∧
      ((∃ k ∈ ps, k.cells p ∧ k.ghost = e ∧ k.btype ≠ 0) → (fun e => M0) e * across dx e ^ 3 / 24 ≤ W (shift p (row points1 e)) - W p) := by
    intro p hp e e1 e2 ho
    obtain ⟨i, rfl, h⟩ := inBounds1.1 hp
    have w := hw i (by omega) (by omega)
    have he : e = 1 ∨ e = 2 := by omega
    rcases he with rfl | rfl
    · rw [shift1_1] at ho ⊢
      have hx : i = i0 := by
        by_contra hne
        exact ho (inBounds1.2 ⟨i - 1, rfl, by omega⟩)
      simpa [across] using w.1 hx
    · rw [shift1_2] at ho ⊢
      have hx : i = i1 := by
        by_contra hne
        exact ho (inBounds1.2 ⟨i + 1, rfl, by omega⟩)
      simpa [across] using w.2 hx
  have up := boundary_up (M2 := (fun e => m0)) (M3 := (fun e => M0)) hp hX hN nr hd (fun p hp e e1 e2 ho => (fw p hp e e1 e2 ho).1) (fun p hp e e1 e2 ho => (fw p hp e e1 e2 ho).2.2) (fun p hp e e1 e2 ho => (fw p hp e e1 e2 ho).2.1)
  intro p hp
  have a := he.above (v := fun p => W p - (X p - cells1 o dx φ p)) (fun i hi0 hi1 hv => ?_) (fun p hp e e1 e2 ho => (up p hp e e1 e2 ho).1) p hp
  have b := he.above (v := fun p => W p + (X p - cells1 o dx φ p)) (fun i hi0 hi1 hv => ?_) (fun p hp e e1 e2 ho => (up p hp e e1 e2 ho).2) p hp
  · exact abs_le.2 ⟨by linarith, by linarith⟩
  · have l := abs_le.1 (hL i hi0 hi1)
    have e : op1 alpha beta dx A B0 (fun p => W p + (X p - cells1 o dx φ p)) i = op1 alpha beta dx A B0 W i + (op1 alpha beta dx A B0 X i - op1 alpha beta dx A B0 (cells1 o dx φ) i) := by
      unfold op1
      ring
    rw [e]
    rcases hW i hi0 hi1 with ⟨w1, w2 | w2⟩
    · have := mul_neg_of_pos_of_neg w2 hv
      linarith [l.1]
    · have := mul_nonpos_of_nonneg_of_nonpos (he.cell i hi0 hi1) hv.le
      linarith [l.1]
  · have l := abs_le.1 (hL i hi0 hi1)
    have e : op1 alpha beta dx A B0 (fun p => W p - (X p - cells1 o dx φ p)) i = op1 alpha beta dx A B0 W i - (op1 alpha beta dx A B0 X i - op1 alpha beta dx A B0 (cells1 o dx φ) i) := by
      unfold op1
      ring
    rw [e]
    rcases hW i hi0 hi1 with ⟨w1, w2 | w2⟩
    · have := mul_neg_of_pos_of_neg w2 hv
      linarith [l.2]
    · have := mul_nonpos_of_nonneg_of_nonpos (he.cell i hi0 hi1) hv.le
      linarith [l.2]

/-- the error with a reaction term -/
theorem Elliptic1.conv {i0 i1 : Int} {alpha beta d τ c E : ℝ} {dx o : Nat → ℝ} {φ κ0 : ℝ → ℝ} {A X D : List Int → ℝ} {ps : List (Piece ℝ)} {m0 M0 K0 L0 : ℝ} (hi : i0 ≤ i1) (hd0 : 0 < dx 0)
    (he : Elliptic1 i0 i1 alpha beta dx A (faces1 o dx κ0)) (hp : Pieces [(i0, i1)] 3 (row points1) ps) (hX : Fulfils [(i0, i1)] 3 (row points1) ps D X)
    (hN : Exact dx (row points1) ps D (normal1 o dx φ)) (s0 : ContDiff ℝ 4 (fun s => φ s))
    (b0 : Bends (fun s => φ s) (centre (o 0) (dx 0) (i0 - 1)) (centre (o 0) (dx 0) (i1 + 1)) m0 M0)
    (c0 : ContDiff ℝ 3 (fun s => κ0 s))
    (v0 : Varies (fun s => κ0 s) (centre (o 0) (dx 0) (i0 - 1)) (centre (o 0) (dx 0) (i1 + 1)) K0 L0)
    (hd : ∀ p, InBounds [(i0, i1)] p → ∀ e, 1 ≤ e → e ≤ 3 - 1 → ¬ InBounds [(i0, i1)] (shift p (row points1 e)) → (∀ k ∈ ps, k.cells p → k.ghost ≠ e) →
      |D (shift p (row points1 e)) - cells1 o dx φ (shift p (row points1 e))| ≤ d)
    (hL : ∀ i, i0 ≤ i → i ≤ i1 → |op1 alpha beta dx A (faces1 o dx κ0) X i - op1 alpha beta dx A (faces1 o dx κ0) (cells1 o dx φ) i| ≤ τ)
    (hc : 0 < c) (hca : ∀ i, i0 ≤ i → i ≤ i1 → c ≤ alpha * A [i]) (hdE : d ≤ E) (hm0 : m0 * dx 0 ^ 2 / 8 ≤ E)
    (hE : τ + beta * (2 * (K0 + L0 * extent (dx 0) i0 i1 / 2) * (M0 * dx 0 ^ 2 / (24 * extent (dx 0) i0 i1))) ≤ c * E) :
    ∀ p, InBounds [(i0, i1)] p → |X p - cells1 o dx φ p| ≤ E + (M0 * extent (dx 0) i0 i1 * dx 0 ^ 2 / 96) := by
  have x0 := extent_pos hd0 hi
  have p0 : 0 ≤ M0 := (abs_nonneg _).trans (b0 (centre (o 0) (dx 0) i0) (centre_mono hd0 (by omega)) (centre_mono hd0 (by omega))).2
  have q0 : 0 ≤ m0 := (abs_nonneg _).trans (b0 (centre (o 0) (dx 0) i0) (centre_mono hd0 (by omega)) (centre_mono hd0 (by omega))).1
  obtain ⟨S0, eS0⟩ : ∃ S, S = (M0 * dx 0 ^ 2 / (24 * extent (dx 0) i0 i1)) := ⟨_, rfl⟩
  have r0 : 0 ≤ S0 := by rw [eS0]; positivity
  have y0 : S0 * (dx 0 * extent (dx 0) i0 i1) = M0 * dx 0 ^ 3 / 24 := by rw [eS0]; field_simp
  have W0 : ∀ d' : ℝ, d' ≤ E → ∀ p : List Int, d' ≤ E + (S0 * bowl (o 0) (dx 0) i0 i1 (p.getD 0 0)) := fun d' hd' p => by
    have := mul_nonneg r0 (bowl_nonneg (o := o 0) (h := dx 0) (lo := i0) (hi := i1) (i := p.getD 0 0))
    linarith
  have B := he.within (o := o) (φ := φ) (X := X) (D := D) (d := d) (τ := τ) (W := fun p => E + (S0 * bowl (o 0) (dx 0) i0 i1 (p.getD 0 0)))
    hd0 hp hX hN s0 b0 hd (fun i hi0 hi1 => ?_) hL (fun i hi0 hi1 => ?_)
  · intro p hp
    refine (B p hp).trans ?_
    obtain ⟨i, rfl, h⟩ := inBounds1.1 hp
    simp only [List.getD_cons_zero, List.getD_cons_succ]
    have z0 : S0 * bowl (o 0) (dx 0) i0 i1 i ≤ M0 * extent (dx 0) i0 i1 * dx 0 ^ 2 / 96 := by
      refine (mul_le_mul_of_nonneg_left (bowl_le hd0 (by omega) (by omega)) r0).trans (le_of_eq ?_)
      rw [eS0]
      field_simp
      ring
    linarith
  · refine ⟨?_, ?_⟩
    · rintro rfl
      refine ⟨?_, W0 _ hdE _, fun _ => ?_⟩
      · have u := W0 _ hm0 [i]
        have v := W0 _ hm0 [i - 1]
        linarith
      · have g := bowl_lo (o := o 0) (h := dx 0) (lo := i) (hi := i1)
        have := congrArg (S0 * ·) g
        simp only [List.getD_cons_zero, List.getD_cons_succ] at this ⊢
        rw [y0] at this
        linarith
    · rintro rfl
      refine ⟨?_, W0 _ hdE _, fun _ => ?_⟩
      · have u := W0 _ hm0 [i]
        have v := W0 _ hm0 [i + 1]
        linarith
      · have g := bowl_up (o := o 0) (h := dx 0) (lo := i0) (hi := i)
        have := congrArg (S0 * ·) g
        simp only [List.getD_cons_zero, List.getD_cons_succ] at this ⊢
        rw [y0] at this
        linarith
  · have E0 : 0 ≤ E := le_trans (by positivity) hm0
    have w := W0 E le_rfl [i]
    simp only [List.getD_cons_zero, List.getD_cons_succ] at w
    have a := mul_le_mul (hca i hi0 hi1) w E0 (hc.le.trans (hca i hi0 hi1))
    have g0 := abs_le.1 (bowl_bound hd0 c0 v0 hi0 hi1)
    rw [← bowl_axis hd0] at g0
    have f0 := mul_le_mul_of_nonneg_left (mul_le_mul_of_nonneg_left g0.2 r0) he.beta.le
    have o : op1 alpha beta dx A (faces1 o dx κ0) (fun p => E + (S0 * bowl (o 0) (dx 0) i0 i1 (p.getD 0 0))) i = -(beta * (S0 * ((faces1 o dx κ0 [i + 1] * (bowl (o 0) (dx 0) i0 i1 (i + 1) - bowl (o 0) (dx 0) i0 i1 i) / dx 0 - faces1 o dx κ0 [i] * (bowl (o 0) (dx 0) i0 i1 i - bowl (o 0) (dx 0) i0 i1 (i - 1)) / dx 0) / dx 0))) +
        alpha * A [i] * (E + (S0 * bowl (o 0) (dx 0) i0 i1 i)) := by
      unfold op1
      simp only [List.getD_cons_zero, List.getD_cons_succ]
      ring
    rw [o]
    simp only [faces1, List.getD_cons_zero, List.getD_cons_succ] at o ⊢
    rw [← eS0] at hE
    refine ⟨by linarith, Or.inl (hc.trans_le (hca i hi0 hi1))⟩

/-- the error without a reaction term, given values across axis 0 -/
theorem Elliptic1.convp0 {i0 i1 : Int} {beta d τ E : ℝ} {dx o : Nat → ℝ} {φ : ℝ → ℝ} {X D : List Int → ℝ} {ps : List (Piece ℝ)} {m0 M0 : ℝ} (hi : i0 ≤ i1) (hd0 : 0 < dx 0)
    (he : Elliptic1 i0 i1 0 beta dx (fun _ => 1) (fun _ => 1)) (hp : Pieces [(i0, i1)] 3 (row points1) ps) (hX : Fulfils [(i0, i1)] 3 (row points1) ps D X)
    (hN : Exact dx (row points1) ps D (normal1 o dx φ)) (s0 : ContDiff ℝ 4 (fun s => φ s))
    (b0 : Bends (fun s => φ s) (centre (o 0) (dx 0) (i0 - 1)) (centre (o 0) (dx 0) (i1 + 1)) m0 M0)
    (hd : ∀ p, InBounds [(i0, i1)] p → ∀ e, 1 ≤ e → e ≤ 3 - 1 → ¬ InBounds [(i0, i1)] (shift p (row points1 e)) → (∀ k ∈ ps, k.cells p → k.ghost ≠ e) →
      |D (shift p (row points1 e)) - cells1 o dx φ (shift p (row points1 e))| ≤ d)
    (hL : ∀ i, i0 ≤ i → i ≤ i1 → |op1 0 beta dx (fun _ => 1) (fun _ => 1) X i - op1 0 beta dx (fun _ => 1) (fun _ => 1) (cells1 o dx φ) i| ≤ τ)
    (ha : ∀ r ∈ ps, r.ghost = 1 ∨ r.ghost = 2 → r.btype = 0) (hdE : d ≤ E) (hm0 : m0 * dx 0 ^ 2 / 8 ≤ E) :
    ∀ p, InBounds [(i0, i1)] p → |X p - cells1 o dx φ p| ≤ E + (0) + (τ / (2 * beta) + (0)) * ((extent (dx 0) i0 i1 + dx 0) ^ 2 / 4) := by
  have τ0 : 0 ≤ τ := (abs_nonneg _).trans (hL i0 le_rfl hi)
  have x0 := extent_pos hd0 hi
  have p0 : 0 ≤ M0 := (abs_nonneg _).trans (b0 (centre (o 0) (dx 0) i0) (centre_mono hd0 (by omega)) (centre_mono hd0 (by omega))).2
  obtain ⟨S0, eS0⟩ : ∃ S, S = (M0 * dx 0 ^ 2 / (24 * extent (dx 0) i0 i1)) := ⟨_, rfl⟩
  have r0 : 0 ≤ S0 := by rw [eS0]; positivity
  have y0 : S0 * (dx 0 * extent (dx 0) i0 i1) = M0 * dx 0 ^ 3 / 24 := by rw [eS0]; field_simp
  intro p hp'
  refine le_of_forall_pos_le_add fun ε hε => ?_
  have R0 : 0 < (extent (dx 0) i0 i1 + dx 0) ^ 2 / 4 := by positivity
  obtain ⟨K, eK⟩ : ∃ K, K = τ / (2 * beta) + (0) + ε / ((extent (dx 0) i0 i1 + dx 0) ^ 2 / 4) := ⟨_, rfl⟩
  have bp := he.beta
  have K0 : 0 ≤ K := by rw [eK]; positivity
  have W0 : ∀ d' : ℝ, d' ≤ E → ∀ p : List Int, i0 - 1 ≤ p.getD 0 0 → p.getD 0 0 ≤ i1 + 1 → d' ≤ E + (0) + K * ((extent (dx 0) i0 i1 + dx 0) ^ 2 / 4 - bowl (o 0) (dx 0) i0 i1 (p.getD 0 0)) := fun d' hd' p pa pb => by
    have t := mul_nonneg K0 (sub_nonneg.2 (bowl_top (o := o 0) hd0 pa pb))
    linarith
  have B := he.within (o := o) (φ := φ) (X := X) (D := D) (d := d) (τ := τ) (W := fun p => E + (0) + K * ((extent (dx 0) i0 i1 + dx 0) ^ 2 / 4 - bowl (o 0) (dx 0) i0 i1 (p.getD 0 0)))
    hd0 hp hX hN s0 b0 hd (fun i hi0 hi1 => ?_) hL (fun i hi0 hi1 => ?_)
  · refine (B p hp').trans ?_
    obtain ⟨i, rfl, h⟩ := inBounds1.1 hp'
    simp only [List.getD_cons_zero, List.getD_cons_succ]
    have zK : K * ((extent (dx 0) i0 i1 + dx 0) ^ 2 / 4 - bowl (o 0) (dx 0) i0 i1 i) ≤ (τ / (2 * beta) + (0)) * ((extent (dx 0) i0 i1 + dx 0) ^ 2 / 4) + ε := by
      refine (mul_le_mul_of_nonneg_left (sub_le_self _ bowl_nonneg) K0).trans (le_of_eq ?_)
      rw [eK, add_mul, div_mul_cancel₀ _ R0.ne']
    linarith
  · refine ⟨?_, ?_⟩
    · rintro rfl
      refine ⟨?_, W0 _ hdE _ (by simp only [List.getD_cons_zero, List.getD_cons_succ]; omega) (by simp only [List.getD_cons_zero, List.getD_cons_succ]; omega), fun ⟨r, rm, _, rg, rb⟩ => absurd (ha r rm (by omega)) rb⟩
      · have u := W0 _ hm0 [i] (by simp only [List.getD_cons_zero, List.getD_cons_succ]; omega) (by simp only [List.getD_cons_zero, List.getD_cons_succ]; omega)
        have v := W0 _ hm0 [i - 1] (by simp only [List.getD_cons_zero, List.getD_cons_succ]; omega) (by simp only [List.getD_cons_zero, List.getD_cons_succ]; omega)
        linarith
    · rintro rfl
      refine ⟨?_, W0 _ hdE _ (by simp only [List.getD_cons_zero, List.getD_cons_succ]; omega) (by simp only [List.getD_cons_zero, List.getD_cons_succ]; omega), fun ⟨r, rm, _, rg, rb⟩ => absurd (ha r rm (by omega)) rb⟩
      · have u := W0 _ hm0 [i] (by simp only [List.getD_cons_zero, List.getD_cons_succ]; omega) (by simp only [List.getD_cons_zero, List.getD_cons_succ]; omega)
        have v := W0 _ hm0 [i + 1] (by simp only [List.getD_cons_zero, List.getD_cons_succ]; omega) (by simp only [List.getD_cons_zero, List.getD_cons_succ]; omega)
        linarith
  · have e : op1 0 beta dx (fun _ => 1) (fun _ => 1) (fun p => E + (0) + K * ((extent (dx 0) i0 i1 + dx 0) ^ 2 / 4 - bowl (o 0) (dx 0) i0 i1 (p.getD 0 0))) i = 2 * beta * (K - (0)) := by
      have o : op1 0 beta dx (fun _ => 1) (fun _ => 1) (fun p => E + (0) + K * ((extent (dx 0) i0 i1 + dx 0) ^ 2 / 4 - bowl (o 0) (dx 0) i0 i1 (p.getD 0 0))) i = beta * (K * ((1 * (bowl (o 0) (dx 0) i0 i1 (i + 1) - bowl (o 0) (dx 0) i0 i1 i) / dx 0 - 1 * (bowl (o 0) (dx 0) i0 i1 i - bowl (o 0) (dx 0) i0 i1 (i - 1)) / dx 0) / dx 0)) - (0) := by
        unfold op1
        simp only [List.getD_cons_zero, List.getD_cons_succ]
        ring
      rw [o, bowl_one hd0]
      ring
    rw [e]
    have lt : τ < 2 * beta * (K - (0)) := by
      have : 0 < 2 * beta * (ε / ((extent (dx 0) i0 i1 + dx 0) ^ 2 / 4)) := by positivity
      rw [eK]
      have c : 2 * beta * (τ / (2 * beta)) = τ := by field_simp
      linarith
    exact ⟨lt.le, Or.inr lt⟩

/-- comparison with 0 -/
theorem Elliptic2.above {i0 j0 i1 j1 : Int} {alpha beta : ℝ} {dx : Nat → ℝ} {A B0 B1 v : List Int → ℝ} (he : Elliptic2 i0 j0 i1 j1 alpha beta dx A B0 B1)
    (hq : ∀ i j, i0 ≤ i → i ≤ i1 → j0 ≤ j → j ≤ j1 → v [i, j] < 0 → alpha * A [i, j] * v [i, j] < op2 alpha beta dx A B0 B1 v i j)
    (hb : ∀ p, InBounds [(i0, i1), (j0, j1)] p → ∀ e, 1 ≤ e → e ≤ 5 - 1 → ¬ InBounds [(i0, i1), (j0, j1)] (shift p (row points2 e)) → v p < 0 → v p ≤ v (shift p (row points2 e))) :
    ∀ p, InBounds [(i0, i1), (j0, j1)] p → 0 ≤ v p := by
  intro p hp
  by_contra hn
  rw [not_le] at hn
  obtain ⟨q, hqb, hmin⟩ := exists_least v hp
  have hv : v q < 0 := (hmin p hp).trans_lt hn
  have nb : ∀ e, 1 ≤ e → e ≤ 5 - 1 → v q ≤ v (shift q (row points2 e)) := fun e e1 e2 => by
    by_cases h : InBounds [(i0, i1), (j0, j1)] (shift q (row points2 e))
    · exact hmin _ h
    · exact hb q hqb e e1 e2 h hv
  obtain ⟨i, j, rfl, h⟩ := inBounds2.1 hqb
  have x := hq i j (by omega) (by omega) (by omega) (by omega) hv
  have n1 := nb 1 (by decide) (by decide)
  rw [shift2_1] at n1
  have n2 := nb 2 (by decide) (by decide)
  rw [shift2_2] at n2
  have n3 := nb 3 (by decide) (by decide)
  rw [shift2_3] at n3
  have n4 := nb 4 (by decide) (by decide)
  rw [shift2_4] at n4
  have t0 := axis_up he.dx0 (he.face0 i j (by omega) (by omega) (by omega) (by omega)) (he.face0 (i + 1) j (by omega) (by omega) (by omega) (by omega)) n1 n2
  have t1 := axis_up he.dx1 (he.face1 i j (by omega) (by omega) (by omega) (by omega)) (he.face1 i (j + 1) (by omega) (by omega) (by omega) (by omega)) n3 n4
  unfold op2 at x
  have := mul_nonneg he.beta.le (add_nonneg (t0) t1)
  linarith

/-- the samples around a face of the boundary -/
theorem normal2_near {i0 j0 i1 j1 : Int} {dx o : Nat → ℝ} {φ : ℝ → ℝ → ℝ} {m0 M0 m1 M1 : ℝ} (hd0 : 0 < dx 0) (hd1 : 0 < dx 1)
    (s0 : ∀ j, j0 ≤ j → j ≤ j1 → ContDiff ℝ 4 (fun s => φ s (centre (o 1) (dx 1) j))) (s1 : ∀ i, i0 ≤ i → i ≤ i1 → ContDiff ℝ 4 (fun s => φ (centre (o 0) (dx 0) i) s))
    (b0 : ∀ j, j0 ≤ j → j ≤ j1 → Bends (fun s => φ s (centre (o 1) (dx 1) j)) (centre (o 0) (dx 0) (i0 - 1)) (centre (o 0) (dx 0) (i1 + 1)) m0 M0) (b1 : ∀ i, i0 ≤ i → i ≤ i1 → Bends (fun s => φ (centre (o 0) (dx 0) i) s) (centre (o 1) (dx 1) (j0 - 1)) (centre (o 1) (dx 1) (j1 + 1)) m1 M1) :
    ∀ p, InBounds [(i0, i1), (j0, j1)] p → ∀ e, 1 ≤ e → e ≤ 5 - 1 → ¬ InBounds [(i0, i1), (j0, j1)] (shift p (row points2 e)) →
      |cells2 o dx φ p + cells2 o dx φ (shift p (row points2 e)) - 2 * normal2 o dx φ e p 0| ≤ (fun e => if e ≤ 2 then m0 else m1) e * across dx e ^ 2 / 4 ∧
      |cells2 o dx φ p - cells2 o dx φ (shift p (row points2 e)) - across dx e * deriv (normal2 o dx φ e p) 0| ≤ (fun e => if e ≤ 2 then M0 else M1) e * across dx e ^ 3 / 24 := by
  intro p hp e e1 e2 _
  obtain ⟨i, j, rfl, h⟩ := inBounds2.1 hp
  have he : e = 1 ∨ e = 2 ∨ e = 3 ∨ e = 4 := by omega
  rcases he with rfl | rfl | rfl | rfl
  · have t := near_lo (o := o 0) (i := i) (s0 j (by omega) (by omega)) hd0 (b0 j (by omega) (by omega)) (centre_mono hd0 (show i0 - 1 ≤ i - 1 by omega)) (centre_mono hd0 (show i ≤ i1 + 1 by omega))
    have f : normal2 o dx φ 1 [i, j] = fun s => (fun s => φ s (centre (o 1) (dx 1) j)) (face (o 0) (dx 0) i + s) := by funext s; simp [normal2]
    rw [f, deriv_lo (fun s => φ s (centre (o 1) (dx 1) j)) (face (o 0) (dx 0) i), shift2_1]
    simpa [across, cells2] using t
  · have t := near_up (o := o 0) (i := i) (s0 j (by omega) (by omega)) hd0 (b0 j (by omega) (by omega)) (centre_mono hd0 (show i0 - 1 ≤ i by omega)) (centre_mono hd0 (show i + 1 ≤ i1 + 1 by omega))
    have f : normal2 o dx φ 2 [i, j] = fun s => (fun s => φ s (centre (o 1) (dx 1) j)) (face (o 0) (dx 0) (i + 1) - s) := by funext s; simp [normal2]
    rw [f, deriv_up (fun s => φ s (centre (o 1) (dx 1) j)) (face (o 0) (dx 0) (i + 1)), shift2_2]
    simpa [across, cells2] using t
  · have t := near_lo (o := o 1) (i := j) (s1 i (by omega) (by omega)) hd1 (b1 i (by omega) (by omega)) (centre_mono hd1 (show j0 - 1 ≤ j - 1 by omega)) (centre_mono hd1 (show j ≤ j1 + 1 by omega))
    have f : normal2 o dx φ 3 [i, j] = fun s => (fun s => φ (centre (o 0) (dx 0) i) s) (face (o 1) (dx 1) j + s) := by funext s; simp [normal2]
    rw [f, deriv_lo (fun s => φ (centre (o 0) (dx 0) i) s) (face (o 1) (dx 1) j), shift2_3]
    simpa [across, cells2] using t
  · have t := near_up (o := o 1) (i := j) (s1 i (by omega) (by omega)) hd1 (b1 i (by omega) (by omega)) (centre_mono hd1 (show j0 - 1 ≤ j by omega)) (centre_mono hd1 (show j + 1 ≤ j1 + 1 by omega))
    have f : normal2 o dx φ 4 [i, j] = fun s => (fun s => φ (centre (o 0) (dx 0) i) s) (face (o 1) (dx 1) (j + 1) - s) := by funext s; simp [normal2]
    rw [f, deriv_up (fun s => φ (centre (o 0) (dx 0) i) s) (face (o 1) (dx 1) (j + 1)), shift2_4]
    simpa [across, cells2] using t

/-- a barrier bounds the error -/
theorem Elliptic2.within {i0 j0 i1 j1 : Int} {alpha beta d τ : ℝ} {dx o : Nat → ℝ} {φ : ℝ → ℝ → ℝ} {A B0 B1 X D W : List Int → ℝ} {ps : List (Piece ℝ)} {m0 M0 m1 M1 : ℝ} (hd0 : 0 < dx 0) (hd1 : 0 < dx 1)
    (he : Elliptic2 i0 j0 i1 j1 alpha beta dx A B0 B1) (hp : Pieces [(i0, i1), (j0, j1)] 5 (row points2) ps) (hX : Fulfils [(i0, i1), (j0, j1)] 5 (row points2) ps D X)
    (hN : Exact dx (row points2) ps D (normal2 o dx φ)) (s0 : ∀ j, j0 ≤ j → j ≤ j1 → ContDiff ℝ 4 (fun s => φ s (centre (o 1) (dx 1) j))) (s1 : ∀ i, i0 ≤ i → i ≤ i1 → ContDiff ℝ 4 (fun s => φ (centre (o 0) (dx 0) i) s))
    (b0 : ∀ j, j0 ≤ j → j ≤ j1 → Bends (fun s => φ s (centre (o 1) (dx 1) j)) (centre (o 0) (dx 0) (i0 - 1)) (centre (o 0) (dx 0) (i1 + 1)) m0 M0) (b1 : ∀ i, i0 ≤ i → i ≤ i1 → Bends (fun s => φ (centre (o 0) (dx 0) i) s) (centre (o 1) (dx 1) (j0 - 1)) (centre (o 1) (dx 1) (j1 + 1)) m1 M1)
    (hd : ∀ p, InBounds [(i0, i1), (j0, j1)] p → ∀ e, 1 ≤ e → e ≤ 5 - 1 → ¬ InBounds [(i0, i1), (j0, j1)] (shift p (row points2 e)) → (∀ k ∈ ps, k.cells p → k.ghost ≠ e) →
      |D (shift p (row points2 e)) - cells2 o dx φ (shift p (row points2 e))| ≤ d)
    (hw : ∀ i j, i0 ≤ i → i ≤ i1 → j0 ≤ j → j ≤ j1 →
      (i = i0 → m0 * dx 0 ^ 2 / 4 ≤ W [i, j] + W [i - 1, j] ∧ d ≤ W [i - 1, j] ∧ ((∃ r ∈ ps, r.cells [i, j] ∧ r.ghost = 1 ∧ r.btype ≠ 0) → M0 * dx 0 ^ 3 / 24 ≤ W [i - 1, j] - W [i, j])) ∧
      (i = i1 → m0 * dx 0 ^ 2 / 4 ≤ W [i, j] + W [i + 1, j] ∧ d ≤ W [i + 1, j] ∧ ((∃ r ∈ ps, r.cells [i, j] ∧ r.ghost = 2 ∧ r.btype ≠ 0) → M0 * dx 0 ^ 3 / 24 ≤ W [i + 1, j] - W [i, j])) ∧
      (j = j0 → m1 * dx 1 ^ 2 / 4 ≤ W [i, j] + W [i, j - 1] ∧ d ≤ W [i, j - 1] ∧ ((∃ r ∈ ps, r.cells [i, j] ∧ r.ghost = 3 ∧ r.btype ≠ 0) → M1 * dx 1 ^ 3 / 24 ≤ W [i, j - 1] - W [i, j])) ∧
      (j = j1 → m1 * dx 1 ^ 2 / 4 ≤ W [i, j] + W [i, j + 1] ∧ d ≤ W [i, j + 1] ∧ ((∃ r ∈ ps, r.cells [i, j] ∧ r.ghost = 4 ∧ r.btype ≠ 0) → M1 * dx 1 ^ 3 / 24 ≤ W [i, j + 1] - W [i, j])))
    (hL : ∀ i j, i0 ≤ i → i ≤ i1 → j0 ≤ j → j ≤ j1 → |op2 alpha beta dx A B0 B1 X i j - op2 alpha beta dx A B0 B1 (cells2 o dx φ) i j| ≤ τ)
    (hW : ∀ i j, i0 ≤ i → i ≤ i1 → j0 ≤ j → j ≤ j1 → τ ≤ op2 alpha beta dx A B0 B1 W i j ∧ (0 < alpha * A [i, j] ∨ τ < op2 alpha beta dx A B0 B1 W i j)) :
    ∀ p, InBounds [(i0, i1), (j0, j1)] p → |X p - cells2 o dx φ p| ≤ W p := by
  have nr := normal2_near (o := o) (φ := φ) hd0 hd1 s0 s1 b0 b1
  have fw : ∀ p, InBounds [(i0, i1), (j0, j1)] p → ∀ e, 1 ≤ e → e ≤ 5 - 1 → ¬ InBounds [(i0, i1), (j0, j1)] (shift p (row points2 e)) →
      (fun e => if e ≤ 2 then m0 else m1) e * across dx e ^ 2 / 4 ≤ W p + W (shift p (row points2 e)) ∧ d ≤ W (shift p (row points2 e)) ∧
      ((∃ k ∈ ps, k.cells p ∧ k.ghost = e ∧ k.btype ≠ 0) → (fun e => if e ≤ 2 then M0 else M1) e * across dx e ^ 3 / 24 ≤ W (shift p (row points2 e)) - W p) := by
    intro p hp e e1 e2 ho
    obtain ⟨i, j, rfl, h⟩ := inBounds2.1 hp
    have w := hw i j (by omega) (by omega) (by omega) (by omega)
    have he : e = 1 ∨ e = 2 ∨ e = 3 ∨ e = 4 := by omega
    rcases he with rfl | rfl | rfl | rfl
    · rw [shift2_1] at ho ⊢
      have hx : i = i0 := by
        by_contra hne
        exact ho (inBounds2.2 ⟨i - 1, j, rfl, by omega⟩)
      simpa [across] using w.1 hx
    · rw [shift2_2] at ho ⊢
      have hx : i = i1 := by
        by_contra hne
        exact ho (inBounds2.2 ⟨i + 1, j, rfl, by omega⟩)
      simpa [across] using w.2.1 hx
    · rw [shift2_3] at ho ⊢
      have hx : j = j0 := by
        by_contra hne
        exact ho (inBounds2.2 ⟨i, j - 1, rfl, by omega⟩)
      simpa [across] using w.2.2.1 hx
    · rw [shift2_4] at ho ⊢
      have hx : j = j1 := by
        by_contra hne
        exact ho (inBounds2.2 ⟨i, j + 1, rfl, by omega⟩)
      simpa [across] using w.2.2.2 hx
  have up := boundary_up (M2 := (fun e => if e ≤ 2 then m0 else m1)) (M3 := (fun e => if e ≤ 2 then M0 else M1)) hp hX hN nr hd (fun p hp e e1 e2 ho => (fw p hp e e1 e2 ho).1) (fun p hp e e1 e2 ho => (fw p hp e e1 e2 ho).2.2) (fun p hp e e1 e2 ho => (fw p hp e e1 e2 ho).2.1)
  intro p hp
  have a := he.above (v := fun p => W p - (X p - cells2 o dx φ p)) (fun i j hi0 hi1 hj0 hj1 hv => ?_) (fun p hp e e1 e2 ho => (up p hp e e1 e2 ho).1) p hp
  have b := he.above (v := fun p => W p + (X p - cells2 o dx φ p)) (fun i j hi0 hi1 hj0 hj1 hv => ?_) (fun p hp e e1 e2 ho => (up p hp e e1 e2 ho).2) p hp
  · exact abs_le.2 ⟨by linarith, by linarith⟩
  · have l := abs_le.1 (hL i j hi0 hi1 hj0 hj1)
    have e : op2 alpha beta dx A B0 B1 (fun p => W p + (X p - cells2 o dx φ p)) i j = op2 alpha beta dx A B0 B1 W i j + (op2 alpha beta dx A B0 B1 X i j - op2 alpha beta dx A B0 B1 (cells2 o dx φ) i j) := by
      unfold op2
      ring
    rw [e]
    rcases hW i j hi0 hi1 hj0 hj1 with ⟨w1, w2 | w2⟩
    · have := mul_neg_of_pos_of_neg w2 hv
      linarith [l.1]
    · have := mul_nonpos_of_nonneg_of_nonpos (he.cell i j hi0 hi1 hj0 hj1) hv.le
      linarith [l.1]
  · have l := abs_le.1 (hL i j hi0 hi1 hj0 hj1)
    have e : op2 alpha beta dx A B0 B1 (fun p => W p - (X p - cells2 o dx φ p)) i j = op2 alpha beta dx A B0 B1 W i j - (op2 alpha beta dx A B0 B1 X i j - op2 alpha beta dx A B0 B1 (cells2 o dx φ) i j) := by
      unfold op2
      ring
    rw [e]
    rcases hW i j hi0 hi1 hj0 hj1 with ⟨w1, w2 | w2⟩
    · have := mul_neg_of_pos_of_neg w2 hv
      linarith [l.2]
    · have := mul_nonpos_of_nonneg_of_nonpos (he.cell i j hi0 hi1 hj0 hj1) hv.le
      linarith [l.2]

/-- the error with a reaction term -/
theorem Elliptic2.conv {i0 j0 i1 j1 : Int} {alpha beta d τ c E : ℝ} {dx o : Nat → ℝ} {φ κ0 κ1 : ℝ → ℝ → ℝ} {A X D : List Int → ℝ} {ps : List (Piece ℝ)} {m0 M0 m1 M1 K0 L0 K1 L1 : ℝ} (hi : i0 ≤ i1) (hj : j0 ≤ j1) (hd0 : 0 < dx 0) (hd1 : 0 < dx 1)
    (he : Elliptic2 i0 j0 i1 j1 alpha beta dx A (faces20 o dx κ0) (faces21 o dx κ1)) (hp : Pieces [(i0, i1), (j0, j1)] 5 (row points2) ps) (hX : Fulfils [(i0, i1), (j0, j1)] 5 (row points2) ps D X)
    (hN : Exact dx (row points2) ps D (normal2 o dx φ)) (s0 : ∀ j, j0 ≤ j → j ≤ j1 → ContDiff ℝ 4 (fun s => φ s (centre (o 1) (dx 1) j))) (s1 : ∀ i, i0 ≤ i → i ≤ i1 → ContDiff ℝ 4 (fun s => φ (centre (o 0) (dx 0) i) s))
    (b0 : ∀ j, j0 ≤ j → j ≤ j1 → Bends (fun s => φ s (centre (o 1) (dx 1) j)) (centre (o 0) (dx 0) (i0 - 1)) (centre (o 0) (dx 0) (i1 + 1)) m0 M0) (b1 : ∀ i, i0 ≤ i → i ≤ i1 → Bends (fun s => φ (centre (o 0) (dx 0) i) s) (centre (o 1) (dx 1) (j0 - 1)) (centre (o 1) (dx 1) (j1 + 1)) m1 M1)
    (c0 : ∀ j, j0 ≤ j → j ≤ j1 → ContDiff ℝ 3 (fun s => κ0 s (centre (o 1) (dx 1) j))) (c1 : ∀ i, i0 ≤ i → i ≤ i1 → ContDiff ℝ 3 (fun s => κ1 (centre (o 0) (dx 0) i) s))
    (v0 : ∀ j, j0 ≤ j → j ≤ j1 → Varies (fun s => κ0 s (centre (o 1) (dx 1) j)) (centre (o 0) (dx 0) (i0 - 1)) (centre (o 0) (dx 0) (i1 + 1)) K0 L0) (v1 : ∀ i, i0 ≤ i → i ≤ i1 → Varies (fun s => κ1 (centre (o 0) (dx 0) i) s) (centre (o 1) (dx 1) (j0 - 1)) (centre (o 1) (dx 1) (j1 + 1)) K1 L1)
    (hd : ∀ p, InBounds [(i0, i1), (j0, j1)] p → ∀ e, 1 ≤ e → e ≤ 5 - 1 → ¬ InBounds [(i0, i1), (j0, j1)] (shift p (row points2 e)) → (∀ k ∈ ps, k.cells p → k.ghost ≠ e) →
      |D (shift p (row points2 e)) - cells2 o dx φ (shift p (row points2 e))| ≤ d)
    (hL : ∀ i j, i0 ≤ i → i ≤ i1 → j0 ≤ j → j ≤ j1 → |op2 alpha beta dx A (faces20 o dx κ0) (faces21 o dx κ1) X i j - op2 alpha beta dx A (faces20 o dx κ0) (faces21 o dx κ1) (cells2 o dx φ) i j| ≤ τ)
    (hc : 0 < c) (hca : ∀ i j, i0 ≤ i → i ≤ i1 → j0 ≤ j → j ≤ j1 → c ≤ alpha * A [i, j]) (hdE : d ≤ E) (hm0 : m0 * dx 0 ^ 2 / 8 ≤ E) (hm1 : m1 * dx 1 ^ 2 / 8 ≤ E)
    (hE : τ + beta * (2 * (K0 + L0 * extent (dx 0) i0 i1 / 2) * (M0 * dx 0 ^ 2 / (24 * extent (dx 0) i0 i1)) + 2 * (K1 + L1 * extent (dx 1) j0 j1 / 2) * (M1 * dx 1 ^ 2 / (24 * extent (dx 1) j0 j1))) ≤ c * E) :
    ∀ p, InBounds [(i0, i1), (j0, j1)] p → |X p - cells2 o dx φ p| ≤ E + (M0 * extent (dx 0) i0 i1 * dx 0 ^ 2 / 96 + M1 * extent (dx 1) j0 j1 * dx 1 ^ 2 / 96) := by
  have x0 := extent_pos hd0 hi
  have p0 : 0 ≤ M0 := (abs_nonneg _).trans (b0 j0 le_rfl hj (centre (o 0) (dx 0) i0) (centre_mono hd0 (by omega)) (centre_mono hd0 (by omega))).2
  have q0 : 0 ≤ m0 := (abs_nonneg _).trans (b0 j0 le_rfl hj (centre (o 0) (dx 0) i0) (centre_mono hd0 (by omega)) (centre_mono hd0 (by omega))).1
  obtain ⟨S0, eS0⟩ : ∃ S, S = (M0 * dx 0 ^ 2 / (24 * extent (dx 0) i0 i1)) := ⟨_, rfl⟩
  have r0 : 0 ≤ S0 := by rw [eS0]; positivity
  have y0 : S0 * (dx 0 * extent (dx 0) i0 i1) = M0 * dx 0 ^ 3 / 24 := by rw [eS0]; field_simp
  have x1 := extent_pos hd1 hj
  have p1 : 0 ≤ M1 := (abs_nonneg _).trans (b1 i0 le_rfl hi (centre (o 1) (dx 1) j0) (centre_mono hd1 (by omega)) (centre_mono hd1 (by omega))).2
  have q1 : 0 ≤ m1 := (abs_nonneg _).trans (b1 i0 le_rfl hi (centre (o 1) (dx 1) j0) (centre_mono hd1 (by omega)) (centre_mono hd1 (by omega))).1
  obtain ⟨S1, eS1⟩ : ∃ S, S = (M1 * dx 1 ^ 2 / (24 * extent (dx 1) j0 j1)) := ⟨_, rfl⟩
  have r1 : 0 ≤ S1 := by rw [eS1]; positivity
  have y1 : S1 * (dx 1 * extent (dx 1) j0 j1) = M1 * dx 1 ^ 3 / 24 := by rw [eS1]; field_simp
  have W0 : ∀ d' : ℝ, d' ≤ E → ∀ p : List Int, d' ≤ E + (S0 * bowl (o 0) (dx 0) i0 i1 (p.getD 0 0) + S1 * bowl (o 1) (dx 1) j0 j1 (p.getD 1 0)) := fun d' hd' p => by
    have := add_nonneg (mul_nonneg r0 (bowl_nonneg (o := o 0) (h := dx 0) (lo := i0) (hi := i1) (i := p.getD 0 0))) (mul_nonneg r1 (bowl_nonneg (o := o 1) (h := dx 1) (lo := j0) (hi := j1) (i := p.getD 1 0)))
    linarith
  have B := he.within (o := o) (φ := φ) (X := X) (D := D) (d := d) (τ := τ) (W := fun p => E + (S0 * bowl (o 0) (dx 0) i0 i1 (p.getD 0 0) + S1 * bowl (o 1) (dx 1) j0 j1 (p.getD 1 0)))
    hd0 hd1 hp hX hN s0 s1 b0 b1 hd (fun i j hi0 hi1 hj0 hj1 => ?_) hL (fun i j hi0 hi1 hj0 hj1 => ?_)
  · intro p hp
    refine (B p hp).trans ?_
    obtain ⟨i, j, rfl, h⟩ := inBounds2.1 hp
    simp only [List.getD_cons_zero, List.getD_cons_succ]
    have z0 : S0 * bowl (o 0) (dx 0) i0 i1 i ≤ M0 * extent (dx 0) i0 i1 * dx 0 ^ 2 / 96 := by
      refine (mul_le_mul_of_nonneg_left (bowl_le hd0 (by omega) (by omega)) r0).trans (le_of_eq ?_)
      rw [eS0]
      field_simp
      ring
    have z1 : S1 * bowl (o 1) (dx 1) j0 j1 j ≤ M1 * extent (dx 1) j0 j1 * dx 1 ^ 2 / 96 := by
      refine (mul_le_mul_of_nonneg_left (bowl_le hd1 (by omega) (by omega)) r1).trans (le_of_eq ?_)
      rw [eS1]
      field_simp
      ring
    linarith
  · refine ⟨?_, ?_, ?_, ?_⟩
    · rintro rfl
      refine ⟨?_, W0 _ hdE _, fun _ => ?_⟩
      · have u := W0 _ hm0 [i, j]
        have v := W0 _ hm0 [i - 1, j]
        linarith
      · have g := bowl_lo (o := o 0) (h := dx 0) (lo := i) (hi := i1)
        have := congrArg (S0 * ·) g
        simp only [List.getD_cons_zero, List.getD_cons_succ] at this ⊢
        rw [y0] at this
        linarith
    · rintro rfl
      refine ⟨?_, W0 _ hdE _, fun _ => ?_⟩
      · have u := W0 _ hm0 [i, j]
        have v := W0 _ hm0 [i + 1, j]
        linarith
      · have g := bowl_up (o := o 0) (h := dx 0) (lo := i0) (hi := i)
        have := congrArg (S0 * ·) g
        simp only [List.getD_cons_zero, List.getD_cons_succ] at this ⊢
        rw [y0] at this
        linarith
    · rintro rfl
      refine ⟨?_, W0 _ hdE _, fun _ => ?_⟩
      · have u := W0 _ hm1 [i, j]
        have v := W0 _ hm1 [i, j - 1]
        linarith
      · have g := bowl_lo (o := o 1) (h := dx 1) (lo := j) (hi := j1)
        have := congrArg (S1 * ·) g
        simp only [List.getD_cons_zero, List.getD_cons_succ] at this ⊢
        rw [y1] at this
        linarith
    · rintro rfl
      refine ⟨?_, W0 _ hdE _, fun _ => ?_⟩
      · have u := W0 _ hm1 [i, j]
        have v := W0 _ hm1 [i, j + 1]
        linarith
      · have g := bowl_up (o := o 1) (h := dx 1) (lo := j0) (hi := j)
        have := congrArg (S1 * ·) g
        simp only [List.getD_cons_zero, List.getD_cons_succ] at this ⊢
        rw [y1] at this
        linarith
  · have E0 : 0 ≤ E := le_trans (by positivity) hm0
    have w := W0 E le_rfl [i, j]
    simp only [List.getD_cons_zero, List.getD_cons_succ] at w
    have a := mul_le_mul (hca i j hi0 hi1 hj0 hj1) w E0 (hc.le.trans (hca i j hi0 hi1 hj0 hj1))
    have g0 := abs_le.1 (bowl_bound hd0 (c0 j hj0 hj1) (v0 j hj0 hj1) hi0 hi1)
    rw [← bowl_axis hd0] at g0
    have f0 := mul_le_mul_of_nonneg_left (mul_le_mul_of_nonneg_left g0.2 r0) he.beta.le
    have g1 := abs_le.1 (bowl_bound hd1 (c1 i hi0 hi1) (v1 i hi0 hi1) hj0 hj1)
    rw [← bowl_axis hd1] at g1
    have f1 := mul_le_mul_of_nonneg_left (mul_le_mul_of_nonneg_left g1.2 r1) he.beta.le
    have o : op2 alpha beta dx A (faces20 o dx κ0) (faces21 o dx κ1) (fun p => E + (S0 * bowl (o 0) (dx 0) i0 i1 (p.getD 0 0) + S1 * bowl (o 1) (dx 1) j0 j1 (p.getD 1 0))) i j = -(beta * (S0 * ((faces20 o dx κ0 [i + 1, j] * (bowl (o 0) (dx 0) i0 i1 (i + 1) - bowl (o 0) (dx 0) i0 i1 i) / dx 0 - faces20 o dx κ0 [i, j] * (bowl (o 0) (dx 0) i0 i1 i - bowl (o 0) (dx 0) i0 i1 (i - 1)) / dx 0) / dx 0)) + beta * (S1 * ((faces21 o dx κ1 [j + 1, i] * (bowl (o 1) (dx 1) j0 j1 (j + 1) - bowl (o 1) (dx 1) j0 j1 j) / dx 1 - faces21 o dx κ1 [j, i] * (bowl (o 1) (dx 1) j0 j1 j - bowl (o 1) (dx 1) j0 j1 (j - 1)) / dx 1) / dx 1))) +
        alpha * A [i, j] * (E + (S0 * bowl (o 0) (dx 0) i0 i1 i + S1 * bowl (o 1) (dx 1) j0 j1 j)) := by
      unfold op2
      simp only [List.getD_cons_zero, List.getD_cons_succ]
      ring
    rw [o]
    simp only [faces20, faces21, List.getD_cons_zero, List.getD_cons_succ] at o ⊢
    rw [← eS0, ← eS1] at hE
    refine ⟨by linarith, Or.inl (hc.trans_le (hca i j hi0 hi1 hj0 hj1))⟩

/-- the error without a reaction term, given values across axis 0 -/
theorem Elliptic2.convp0 {i0 j0 i1 j1 : Int} {beta d τ E : ℝ} {dx o : Nat → ℝ} {φ : ℝ → ℝ → ℝ} {X D : List Int → ℝ} {ps : List (Piece ℝ)} {m0 M0 m1 M1 : ℝ} (hi : i0 ≤ i1) (hj : j0 ≤ j1) (hd0 : 0 < dx 0) (hd1 : 0 < dx 1)
    (he : Elliptic2 i0 j0 i1 j1 0 beta dx (fun _ => 1) (fun _ => 1) (fun _ => 1)) (hp : Pieces [(i0, i1), (j0, j1)] 5 (row points2) ps) (hX : Fulfils [(i0, i1), (j0, j1)] 5 (row points2) ps D X)
    (hN : Exact dx (row points2) ps D (normal2 o dx φ)) (s0 : ∀ j, j0 ≤ j → j ≤ j1 → ContDiff ℝ 4 (fun s => φ s (centre (o 1) (dx 1) j))) (s1 : ∀ i, i0 ≤ i → i ≤ i1 → ContDiff ℝ 4 (fun s => φ (centre (o 0) (dx 0) i) s))
    (b0 : ∀ j, j0 ≤ j → j ≤ j1 → Bends (fun s => φ s (centre (o 1) (dx 1) j)) (centre (o 0) (dx 0) (i0 - 1)) (centre (o 0) (dx 0) (i1 + 1)) m0 M0) (b1 : ∀ i, i0 ≤ i → i ≤ i1 → Bends (fun s => φ (centre (o 0) (dx 0) i) s) (centre (o 1) (dx 1) (j0 - 1)) (centre (o 1) (dx 1) (j1 + 1)) m1 M1)
    (hd : ∀ p, InBounds [(i0, i1), (j0, j1)] p → ∀ e, 1 ≤ e → e ≤ 5 - 1 → ¬ InBounds [(i0, i1), (j0, j1)] (shift p (row points2 e)) → (∀ k ∈ ps, k.cells p → k.ghost ≠ e) →
      |D (shift p (row points2 e)) - cells2 o dx φ (shift p (row points2 e))| ≤ d)
    (hL : ∀ i j, i0 ≤ i → i ≤ i1 → j0 ≤ j → j ≤ j1 → |op2 0 beta dx (fun _ => 1) (fun _ => 1) (fun _ => 1) X i j - op2 0 beta dx (fun _ => 1) (fun _ => 1) (fun _ => 1) (cells2 o dx φ) i j| ≤ τ)
    (ha : ∀ r ∈ ps, r.ghost = 1 ∨ r.ghost = 2 → r.btype = 0) (hdE : d ≤ E) (hm0 : m0 * dx 0 ^ 2 / 8 ≤ E) (hm1 : m1 * dx 1 ^ 2 / 8 ≤ E) :
    ∀ p, InBounds [(i0, i1), (j0, j1)] p → |X p - cells2 o dx φ p| ≤ E + (M1 * extent (dx 1) j0 j1 * dx 1 ^ 2 / 96) + (τ / (2 * beta) + ((M1 * dx 1 ^ 2 / (24 * extent (dx 1) j0 j1)))) * ((extent (dx 0) i0 i1 + dx 0) ^ 2 / 4) := by
  have τ0 : 0 ≤ τ := (abs_nonneg _).trans (hL i0 j0 le_rfl hi le_rfl hj)
  have x0 := extent_pos hd0 hi
  have p0 : 0 ≤ M0 := (abs_nonneg _).trans (b0 j0 le_rfl hj (centre (o 0) (dx 0) i0) (centre_mono hd0 (by omega)) (centre_mono hd0 (by omega))).2
  obtain ⟨S0, eS0⟩ : ∃ S, S = (M0 * dx 0 ^ 2 / (24 * extent (dx 0) i0 i1)) := ⟨_, rfl⟩
  have r0 : 0 ≤ S0 := by rw [eS0]; positivity
  have y0 : S0 * (dx 0 * extent (dx 0) i0 i1) = M0 * dx 0 ^ 3 / 24 := by rw [eS0]; field_simp
  have x1 := extent_pos hd1 hj
  have p1 : 0 ≤ M1 := (abs_nonneg _).trans (b1 i0 le_rfl hi (centre (o 1) (dx 1) j0) (centre_mono hd1 (by omega)) (centre_mono hd1 (by omega))).2
  obtain ⟨S1, eS1⟩ : ∃ S, S = (M1 * dx 1 ^ 2 / (24 * extent (dx 1) j0 j1)) := ⟨_, rfl⟩
  have r1 : 0 ≤ S1 := by rw [eS1]; positivity
  have y1 : S1 * (dx 1 * extent (dx 1) j0 j1) = M1 * dx 1 ^ 3 / 24 := by rw [eS1]; field_simp
  intro p hp'
  refine le_of_forall_pos_le_add fun ε hε => ?_
  have R0 : 0 < (extent (dx 0) i0 i1 + dx 0) ^ 2 / 4 := by positivity
  obtain ⟨K, eK⟩ : ∃ K, K = τ / (2 * beta) + (S1) + ε / ((extent (dx 0) i0 i1 + dx 0) ^ 2 / 4) := ⟨_, rfl⟩
  have bp := he.beta
  have K0 : 0 ≤ K := by rw [eK]; positivity
  have W0 : ∀ d' : ℝ, d' ≤ E → ∀ p : List Int, i0 - 1 ≤ p.getD 0 0 → p.getD 0 0 ≤ i1 + 1 → d' ≤ E + (S1 * bowl (o 1) (dx 1) j0 j1 (p.getD 1 0)) + K * ((extent (dx 0) i0 i1 + dx 0) ^ 2 / 4 - bowl (o 0) (dx 0) i0 i1 (p.getD 0 0)) := fun d' hd' p pa pb => by
    have t := mul_nonneg K0 (sub_nonneg.2 (bowl_top (o := o 0) hd0 pa pb))
    have t1 := mul_nonneg r1 (bowl_nonneg (o := o 1) (h := dx 1) (lo := j0) (hi := j1) (i := p.getD 1 0))
    linarith
  have B := he.within (o := o) (φ := φ) (X := X) (D := D) (d := d) (τ := τ) (W := fun p => E + (S1 * bowl (o 1) (dx 1) j0 j1 (p.getD 1 0)) + K * ((extent (dx 0) i0 i1 + dx 0) ^ 2 / 4 - bowl (o 0) (dx 0) i0 i1 (p.getD 0 0)))
    hd0 hd1 hp hX hN s0 s1 b0 b1 hd (fun i j hi0 hi1 hj0 hj1 => ?_) hL (fun i j hi0 hi1 hj0 hj1 => ?_)
  · refine (B p hp').trans ?_
    obtain ⟨i, j, rfl, h⟩ := inBounds2.1 hp'
    simp only [List.getD_cons_zero, List.getD_cons_succ]
    have z1 : S1 * bowl (o 1) (dx 1) j0 j1 j ≤ M1 * extent (dx 1) j0 j1 * dx 1 ^ 2 / 96 := by
      refine (mul_le_mul_of_nonneg_left (bowl_le hd1 (by omega) (by omega)) r1).trans (le_of_eq ?_)
      rw [eS1]
      field_simp
      ring
    have zK : K * ((extent (dx 0) i0 i1 + dx 0) ^ 2 / 4 - bowl (o 0) (dx 0) i0 i1 i) ≤ (τ / (2 * beta) + ((M1 * dx 1 ^ 2 / (24 * extent (dx 1) j0 j1)))) * ((extent (dx 0) i0 i1 + dx 0) ^ 2 / 4) + ε := by
      refine (mul_le_mul_of_nonneg_left (sub_le_self _ bowl_nonneg) K0).trans (le_of_eq ?_)
      rw [eK, ← eS1, add_mul, div_mul_cancel₀ _ R0.ne']
    linarith
  · refine ⟨?_, ?_, ?_, ?_⟩
    · rintro rfl
      refine ⟨?_, W0 _ hdE _ (by simp only [List.getD_cons_zero, List.getD_cons_succ]; omega) (by simp only [List.getD_cons_zero, List.getD_cons_succ]; omega), fun ⟨r, rm, _, rg, rb⟩ => absurd (ha r rm (by omega)) rb⟩
      · have u := W0 _ hm0 [i, j] (by simp only [List.getD_cons_zero, List.getD_cons_succ]; omega) (by simp only [List.getD_cons_zero, List.getD_cons_succ]; omega)
        have v := W0 _ hm0 [i - 1, j] (by simp only [List.getD_cons_zero, List.getD_cons_succ]; omega) (by simp only [List.getD_cons_zero, List.getD_cons_succ]; omega)
        linarith
    · rintro rfl
      refine ⟨?_, W0 _ hdE _ (by simp only [List.getD_cons_zero, List.getD_cons_succ]; omega) (by simp only [List.getD_cons_zero, List.getD_cons_succ]; omega), fun ⟨r, rm, _, rg, rb⟩ => absurd (ha r rm (by omega)) rb⟩
      · have u := W0 _ hm0 [i, j] (by simp only [List.getD_cons_zero, List.getD_cons_succ]; omega) (by simp only [List.getD_cons_zero, List.getD_cons_succ]; omega)
        have v := W0 _ hm0 [i + 1, j] (by simp only [List.getD_cons_zero, List.getD_cons_succ]; omega) (by simp only [List.getD_cons_zero, List.getD_cons_succ]; omega)
        linarith
    · rintro rfl
      refine ⟨?_, W0 _ hdE _ (by simp only [List.getD_cons_zero, List.getD_cons_succ]; omega) (by simp only [List.getD_cons_zero, List.getD_cons_succ]; omega), fun _ => ?_⟩
      · have u := W0 _ hm1 [i, j] (by simp only [List.getD_cons_zero, List.getD_cons_succ]; omega) (by simp only [List.getD_cons_zero, List.getD_cons_succ]; omega)
        have v := W0 _ hm1 [i, j - 1] (by simp only [List.getD_cons_zero, List.getD_cons_succ]; omega) (by simp only [List.getD_cons_zero, List.getD_cons_succ]; omega)
        linarith
      · have g := bowl_lo (o := o 1) (h := dx 1) (lo := j) (hi := j1)
        have := congrArg (S1 * ·) g
        simp only [List.getD_cons_zero, List.getD_cons_succ] at this ⊢
        rw [y1] at this
        linarith
    · rintro rfl
      refine ⟨?_, W0 _ hdE _ (by simp only [List.getD_cons_zero, List.getD_cons_succ]; omega) (by simp only [List.getD_cons_zero, List.getD_cons_succ]; omega), fun _ => ?_⟩
      · have u := W0 _ hm1 [i, j] (by simp only [List.getD_cons_zero, List.getD_cons_succ]; omega) (by simp only [List.getD_cons_zero, List.getD_cons_succ]; omega)
        have v := W0 _ hm1 [i, j + 1] (by simp only [List.getD_cons_zero, List.getD_cons_succ]; omega) (by simp only [List.getD_cons_zero, List.getD_cons_succ]; omega)
        linarith
      · have g := bowl_up (o := o 1) (h := dx 1) (lo := j0) (hi := j)
        have := congrArg (S1 * ·) g
        simp only [List.getD_cons_zero, List.getD_cons_succ] at this ⊢
        rw [y1] at this
        linarith
  · have e : op2 0 beta dx (fun _ => 1) (fun _ => 1) (fun _ => 1) (fun p => E + (S1 * bowl (o 1) (dx 1) j0 j1 (p.getD 1 0)) + K * ((extent (dx 0) i0 i1 + dx 0) ^ 2 / 4 - bowl (o 0) (dx 0) i0 i1 (p.getD 0 0))) i j = 2 * beta * (K - (S1)) := by
      have o : op2 0 beta dx (fun _ => 1) (fun _ => 1) (fun _ => 1) (fun p => E + (S1 * bowl (o 1) (dx 1) j0 j1 (p.getD 1 0)) + K * ((extent (dx 0) i0 i1 + dx 0) ^ 2 / 4 - bowl (o 0) (dx 0) i0 i1 (p.getD 0 0))) i j = beta * (K * ((1 * (bowl (o 0) (dx 0) i0 i1 (i + 1) - bowl (o 0) (dx 0) i0 i1 i) / dx 0 - 1 * (bowl (o 0) (dx 0) i0 i1 i - bowl (o 0) (dx 0) i0 i1 (i - 1)) / dx 0) / dx 0)) - (beta * (S1 * ((1 * (bowl (o 1) (dx 1) j0 j1 (j + 1) - bowl (o 1) (dx 1) j0 j1 j) / dx 1 - 1 * (bowl (o 1) (dx 1) j0 j1 j - bowl (o 1) (dx 1) j0 j1 (j - 1)) / dx 1) / dx 1))) := by
        unfold op2
        simp only [List.getD_cons_zero, List.getD_cons_succ]
        ring
      rw [o, bowl_one hd0, bowl_one hd1]
      ring
    rw [e]
    have lt : τ < 2 * beta * (K - (S1)) := by
      have : 0 < 2 * beta * (ε / ((extent (dx 0) i0 i1 + dx 0) ^ 2 / 4)) := by positivity
      rw [eK]
      have c : 2 * beta * (τ / (2 * beta)) = τ := by field_simp
      linarith
    exact ⟨lt.le, Or.inr lt⟩

/-- the error without a reaction term, given values across axis 1 -/
theorem Elliptic2.convp1 {i0 j0 i1 j1 : Int} {beta d τ E : ℝ} {dx o : Nat → ℝ} {φ : ℝ → ℝ → ℝ} {X D : List Int → ℝ} {ps : List (Piece ℝ)} {m0 M0 m1 M1 : ℝ} (hi : i0 ≤ i1) (hj : j0 ≤ j1) (hd0 : 0 < dx 0) (hd1 : 0 < dx 1)
    (he : Elliptic2 i0 j0 i1 j1 0 beta dx (fun _ => 1) (fun _ => 1) (fun _ => 1)) (hp : Pieces [(i0, i1), (j0, j1)] 5 (row points2) ps) (hX : Fulfils [(i0, i1), (j0, j1)] 5 (row points2) ps D X)
    (hN : Exact dx (row points2) ps D (normal2 o dx φ)) (s0 : ∀ j, j0 ≤ j → j ≤ j1 → ContDiff ℝ 4 (fun s => φ s (centre (o 1) (dx 1) j))) (s1 : ∀ i, i0 ≤ i → i ≤ i1 → ContDiff ℝ 4 (fun s => φ (centre (o 0) (dx 0) i) s))
    (b0 : ∀ j, j0 ≤ j → j ≤ j1 → Bends (fun s => φ s (centre (o 1) (dx 1) j)) (centre (o 0) (dx 0) (i0 - 1)) (centre (o 0) (dx 0) (i1 + 1)) m0 M0) (b1 : ∀ i, i0 ≤ i → i ≤ i1 → Bends (fun s => φ (centre (o 0) (dx 0) i) s) (centre (o 1) (dx 1) (j0 - 1)) (centre (o 1) (dx 1) (j1 + 1)) m1 M1)
    (hd : ∀ p, InBounds [(i0, i1), (j0, j1)] p → ∀ e, 1 ≤ e → e ≤ 5 - 1 → ¬ InBounds [(i0, i1), (j0, j1)] (shift p (row points2 e)) → (∀ k ∈ ps, k.cells p → k.ghost ≠ e) →
      |D (shift p (row points2 e)) - cells2 o dx φ (shift p (row points2 e))| ≤ d)
    (hL : ∀ i j, i0 ≤ i → i ≤ i1 → j0 ≤ j → j ≤ j1 → |op2 0 beta dx (fun _ => 1) (fun _ => 1) (fun _ => 1) X i j - op2 0 beta dx (fun _ => 1) (fun _ => 1) (fun _ => 1) (cells2 o dx φ) i j| ≤ τ)
    (ha : ∀ r ∈ ps, r.ghost = 3 ∨ r.ghost = 4 → r.btype = 0) (hdE : d ≤ E) (hm0 : m0 * dx 0 ^ 2 / 8 ≤ E) (hm1 : m1 * dx 1 ^ 2 / 8 ≤ E) :
    ∀ p, InBounds [(i0, i1), (j0, j1)] p → |X p - cells2 o dx φ p| ≤ E + (M0 * extent (dx 0) i0 i1 * dx 0 ^ 2 / 96) + (τ / (2 * beta) + ((M0 * dx 0 ^ 2 / (24 * extent (dx 0) i0 i1)))) * ((extent (dx 1) j0 j1 + dx 1) ^ 2 / 4) := by
  have τ0 : 0 ≤ τ := (abs_nonneg _).trans (hL i0 j0 le_rfl hi le_rfl hj)
  have x0 := extent_pos hd0 hi
  have p0 : 0 ≤ M0 := (abs_nonneg _).trans (b0 j0 le_rfl hj (centre (o 0) (dx 0) i0) (centre_mono hd0 (by omega)) (centre_mono hd0 (by omega))).2
  obtain ⟨S0, eS0⟩ : ∃ S, S = (M0 * dx 0 ^ 2 / (24 * extent (dx 0) i0 i1)) := ⟨_, rfl⟩
  have r0 : 0 ≤ S0 := by rw [eS0]; positivity
  have y0 : S0 * (dx 0 * extent (dx 0) i0 i1) = M0 * dx 0 ^ 3 / 24 := by rw [eS0]; field_simp
  have x1 := extent_pos hd1 hj
  have p1 : 0 ≤ M1 := (abs_nonneg _).trans (b1 i0 le_rfl hi (centre (o 1) (dx 1) j0) (centre_mono hd1 (by omega)) (centre_mono hd1 (by omega))).2
  obtain ⟨S1, eS1⟩ : ∃ S, S = (M1 * dx 1 ^ 2 / (24 * extent (dx 1) j0 j1)) := ⟨_, rfl⟩
  have r1 : 0 ≤ S1 := by rw [eS1]; positivity
  have y1 : S1 * (dx 1 * extent (dx 1) j0 j1) = M1 * dx 1 ^ 3 / 24 := by rw [eS1]; field_simp
  intro p hp'
  refine le_of_forall_pos_le_add fun ε hε => ?_
  have R0 : 0 < (extent (dx 1) j0 j1 + dx 1) ^ 2 / 4 := by positivity
  obtain ⟨K, eK⟩ : ∃ K, K = τ / (2 * beta) + (S0) + ε / ((extent (dx 1) j0 j1 + dx 1) ^ 2 / 4) := ⟨_, rfl⟩
  have bp := he.beta
  have K0 : 0 ≤ K := by rw [eK]; positivity
  have W0 : ∀ d' : ℝ, d' ≤ E → ∀ p : List Int, j0 - 1 ≤ p.getD 1 0 → p.getD 1 0 ≤ j1 + 1 → d' ≤ E + (S0 * bowl (o 0) (dx 0) i0 i1 (p.getD 0 0)) + K * ((extent (dx 1) j0 j1 + dx 1) ^ 2 / 4 - bowl (o 1) (dx 1) j0 j1 (p.getD 1 0)) := fun d' hd' p pa pb => by
    have t := mul_nonneg K0 (sub_nonneg.2 (bowl_top (o := o 1) hd1 pa pb))
    have t0 := mul_nonneg r0 (bowl_nonneg (o := o 0) (h := dx 0) (lo := i0) (hi := i1) (i := p.getD 0 0))
    linarith
  have B := he.within (o := o) (φ := φ) (X := X) (D := D) (d := d) (τ := τ) (W := fun p => E + (S0 * bowl (o 0) (dx 0) i0 i1 (p.getD 0 0)) + K * ((extent (dx 1) j0 j1 + dx 1) ^ 2 / 4 - bowl (o 1) (dx 1) j0 j1 (p.getD 1 0)))
    hd0 hd1 hp hX hN s0 s1 b0 b1 hd (fun i j hi0 hi1 hj0 hj1 => ?_) hL (fun i j hi0 hi1 hj0 hj1 => ?_)
  · refine (B p hp').trans ?_
    obtain ⟨i, j, rfl, h⟩ := inBounds2.1 hp'
    simp only [List.getD_cons_zero, List.getD_cons_succ]
    have z0 : S0 * bowl (o 0) (dx 0) i0 i1 i ≤ M0 * extent (dx 0) i0 i1 * dx 0 ^ 2 / 96 := by
      refine (mul_le_mul_of_nonneg_left (bowl_le hd0 (by omega) (by omega)) r0).trans (le_of_eq ?_)
      rw [eS0]
      field_simp
      ring
    have zK : K * ((extent (dx 1) j0 j1 + dx 1) ^ 2 / 4 - bowl (o 1) (dx 1) j0 j1 j) ≤ (τ / (2 * beta) + ((M0 * dx 0 ^ 2 / (24 * extent (dx 0) i0 i1)))) * ((extent (dx 1) j0 j1 + dx 1) ^ 2 / 4) + ε := by
      refine (mul_le_mul_of_nonneg_left (sub_le_self _ bowl_nonneg) K0).trans (le_of_eq ?_)
      rw [eK, ← eS0, add_mul, div_mul_cancel₀ _ R0.ne']
    linarith
  · refine ⟨?_, ?_, ?_, ?_⟩
    · rintro rfl
      refine ⟨?_, W0 _ hdE _ (by simp only [List.getD_cons_zero, List.getD_cons_succ]; omega) (by simp only [List.getD_cons_zero, List.getD_cons_succ]; omega), fun _ => ?_⟩
      · have u := W0 _ hm0 [i, j] (by simp only [List.getD_cons_zero, List.getD_cons_succ]; omega) (by simp only [List.getD_cons_zero, List.getD_cons_succ]; omega)
        have v := W0 _ hm0 [i - 1, j] (by simp only [List.getD_cons_zero, List.getD_cons_succ]; omega) (by simp only [List.getD_cons_zero, List.getD_cons_succ]; omega)
        linarith
      · have g := bowl_lo (o := o 0) (h := dx 0) (lo := i) (hi := i1)
        have := congrArg (S0 * ·) g
        simp only [List.getD_cons_zero, List.getD_cons_succ] at this ⊢
        rw [y0] at this
        linarith
    · rintro rfl
      refine ⟨?_, W0 _ hdE _ (by simp only [List.getD_cons_zero, List.getD_cons_succ]; omega) (by simp only [List.getD_cons_zero, List.getD_cons_succ]; omega), fun _ => ?_⟩
      · have u := W0 _ hm0 [i, j] (by simp only [List.getD_cons_zero, List.getD_cons_succ]; omega) (by simp only [List.getD_cons_zero, List.getD_cons_succ]; omega)
        have v := W0 _ hm0 [i + 1, j] (by simp only [List.getD_cons_zero, List.getD_cons_succ]; omega) (by simp only [List.getD_cons_zero, List.getD_cons_succ]; omega)
        linarith
      · have g := bowl_up (o := o 0) (h := dx 0) (lo := i0) (hi := i)
        have := congrArg (S0 * ·) g
        simp only [List.getD_cons_zero, List.getD_cons_succ] at this ⊢
        rw [y0] at this
        linarith
    · rintro rfl
      refine ⟨?_, W0 _ hdE _ (by simp only [List.getD_cons_zero, List.getD_cons_succ]; omega) (by simp only [List.getD_cons_zero, List.getD_cons_succ]; omega), fun ⟨r, rm, _, rg, rb⟩ => absurd (ha r rm (by omega)) rb⟩
      · have u := W0 _ hm1 [i, j] (by simp only [List.getD_cons_zero, List.getD_cons_succ]; omega) (by simp only [List.getD_cons_zero, List.getD_cons_succ]; omega)
        have v := W0 _ hm1 [i, j - 1] (by simp only [List.getD_cons_zero, List.getD_cons_succ]; omega) (by simp only [List.getD_cons_zero, List.getD_cons_succ]; omega)
        linarith
    · rintro rfl
      refine ⟨?_, W0 _ hdE _ (by simp only [List.getD_cons_zero, List.getD_cons_succ]; omega) (by simp only [List.getD_cons_zero, List.getD_cons_succ]; omega), fun ⟨r, rm, _, rg, rb⟩ => absurd (ha r rm (by omega)) rb⟩
      · have u := W0 _ hm1 [i, j] (by simp only [List.getD_cons_zero, List.getD_cons_succ]; omega) (by simp only [List.getD_cons_zero, List.getD_cons_succ]; omega)
        have v := W0 _ hm1 [i, j + 1] (by simp only [List.getD_cons_zero, List.getD_cons_succ]; omega) (by simp only [List.getD_cons_zero, List.getD_cons_succ]; omega)
        linarith
  · have e : op2 0 beta dx (fun _ => 1) (fun _ => 1) (fun _ => 1) (fun p => E + (S0 * bowl (o 0) (dx 0) i0 i1 (p.getD 0 0)) + K * ((extent (dx 1) j0 j1 + dx 1) ^ 2 / 4 - bowl (o 1) (dx 1) j0 j1 (p.getD 1 0))) i j = 2 * beta * (K - (S0)) := by
      have o : op2 0 beta dx (fun _ => 1) (fun _ => 1) (fun _ => 1) (fun p => E + (S0 * bowl (o 0) (dx 0) i0 i1 (p.getD 0 0)) + K * ((extent (dx 1) j0 j1 + dx 1) ^ 2 / 4 - bowl (o 1) (dx 1) j0 j1 (p.getD 1 0))) i j = beta * (K * ((1 * (bowl (o 1) (dx 1) j0 j1 (j + 1) - bowl (o 1) (dx 1) j0 j1 j) / dx 1 - 1 * (bowl (o 1) (dx 1) j0 j1 j - bowl (o 1) (dx 1) j0 j1 (j - 1)) / dx 1) / dx 1)) - (beta * (S0 * ((1 * (bowl (o 0) (dx 0) i0 i1 (i + 1) - bowl (o 0) (dx 0) i0 i1 i) / dx 0 - 1 * (bowl (o 0) (dx 0) i0 i1 i - bowl (o 0) (dx 0) i0 i1 (i - 1)) / dx 0) / dx 0))) := by
        unfold op2
        simp only [List.getD_cons_zero, List.getD_cons_succ]
        ring
      rw [o, bowl_one hd1, bowl_one hd0]
      ring
    rw [e]
    have lt : τ < 2 * beta * (K - (S0)) := by
      have : 0 < 2 * beta * (ε / ((extent (dx 1) j0 j1 + dx 1) ^ 2 / 4)) := by positivity
      rw [eK]
      have c : 2 * beta * (τ / (2 * beta)) = τ := by field_simp
      linarith
    exact ⟨lt.le, Or.inr lt⟩

/-- comparison with 0 -/
theorem Elliptic3.above {i0 j0 k0 i1 j1 k1 : Int} {alpha beta : ℝ} {dx : Nat → ℝ} {A B0 B1 B2 v : List Int → ℝ} (he : Elliptic3 i0 j0 k0 i1 j1 k1 alpha beta dx A B0 B1 B2)
    (hq : ∀ i j k, i0 ≤ i → i ≤ i1 → j0 ≤ j → j ≤ j1 → k0 ≤ k → k ≤ k1 → v [i, j, k] < 0 → alpha * A [i, j, k] * v [i, j, k] < op3 alpha beta dx A B0 B1 B2 v i j k)
    (hb : ∀ p, InBounds [(i0, i1), (j0, j1), (k0, k1)] p → ∀ e, 1 ≤ e → e ≤ 7 - 1 → ¬ InBounds [(i0, i1), (j0, j1), (k0, k1)] (shift p (row points3 e)) → v p < 0 → v p ≤ v (shift p (row points3 e))) :
    ∀ p, InBounds [(i0, i1), (j0, j1), (k0, k1)] p → 0 ≤ v p := by
  intro p hp
  by_contra hn
  rw [not_le] at hn
  obtain ⟨q, hqb, hmin⟩ := exists_least v hp
  have hv : v q < 0 := (hmin p hp).trans_lt hn
  have nb : ∀ e, 1 ≤ e → e ≤ 7 - 1 → v q ≤ v (shift q (row points3 e)) := fun e e1 e2 => by
    by_cases h : InBounds [(i0, i1), (j0, j1), (k0, k1)] (shift q (row points3 e))
    · exact hmin _ h
    · exact hb q hqb e e1 e2 h hv
  obtain ⟨i, j, k, rfl, h⟩ := inBounds3.1 hqb
  have x := hq i j k (by omega) (by omega) (by omega) (by omega) (by omega) (by omega) hv
  have n1 := nb 1 (by decide) (by decide)
  rw [shift3_1] at n1
  have n2 := nb 2 (by decide) (by decide)
  rw [shift3_2] at n2
  have n3 := nb 3 (by decide) (by decide)
  rw [shift3_3] at n3
  have n4 := nb 4 (by decide) (by decide)
  rw [shift3_4] at n4
  have n5 := nb 5 (by decide) (by decide)
  rw [shift3_5] at n5
  have n6 := nb 6 (by decide) (by decide)
  rw [shift3_6] at n6
  have t0 := axis_up he.dx0 (he.face0 i j k (by omega) (by omega) (by omega) (by omega) (by omega) (by omega)) (he.face0 (i + 1) j k (by omega) (by omega) (by omega) (by omega) (by omega) (by omega)) n1 n2
  have t1 := axis_up he.dx1 (he.face1 i j k (by omega) (by omega) (by omega) (by omega) (by omega) (by omega)) (he.face1 i (j + 1) k (by omega) (by omega) (by omega) (by omega) (by omega) (by omega)) n3 n4
  have t2 := axis_up he.dx2 (he.face2 i j k (by omega) (by omega) (by omega) (by omega) (by omega) (by omega)) (he.face2 i j (k + 1) (by omega) (by omega) (by omega) (by omega) (by omega) (by omega)) n5 n6
  unfold op3 at x
  have := mul_nonneg he.beta.le (add_nonneg (add_nonneg (t0) t1) t2)
  linarith

/-- the samples around a face of the boundary -/
theorem normal3_near {i0 j0 k0 i1 j1 k1 : Int} {dx o : Nat → ℝ} {φ : ℝ → ℝ → ℝ → ℝ} {m0 M0 m1 M1 m2 M2 : ℝ} (hd0 : 0 < dx 0) (hd1 : 0 < dx 1) (hd2 : 0 < dx 2)
    (s0 : ∀ j, j0 ≤ j → j ≤ j1 → ∀ k, k0 ≤ k → k ≤ k1 → ContDiff ℝ 4 (fun s => φ s (centre (o 1) (dx 1) j) (centre (o 2) (dx 2) k))) (s1 : ∀ i, i0 ≤ i → i ≤ i1 → ∀ k, k0 ≤ k → k ≤ k1 → ContDiff ℝ 4 (fun s => φ (centre (o 0) (dx 0) i) s (centre (o 2) (dx 2) k))) (s2 : ∀ i, i0 ≤ i → i ≤ i1 → ∀ j, j0 ≤ j → j ≤ j1 → ContDiff ℝ 4 (fun s => φ (centre (o 0) (dx 0) i) (centre (o 1) (dx 1) j) s))
    (b0 : ∀ j, j0 ≤ j → j ≤ j1 → ∀ k, k0 ≤ k → k ≤ k1 → Bends (fun s => φ s (centre (o 1) (dx 1) j) (centre (o 2) (dx 2) k)) (centre (o 0) (dx 0) (i0 - 1)) (centre (o 0) (dx 0) (i1 + 1)) m0 M0) (b1 : ∀ i, i0 ≤ i → i ≤ i1 → ∀ k, k0 ≤ k → k ≤ k1 → Bends (fun s => φ (centre (o 0) (dx 0) i) s (centre (o 2) (dx 2) k)) (centre (o 1) (dx 1) (j0 - 1)) (centre (o 1) (dx 1) (j1 + 1)) m1 M1) (b2 : ∀ i, i0 ≤ i → i ≤ i1 → ∀ j, j0 ≤ j → j ≤ j1 → Bends (fun s => φ (centre (o 0) (dx 0) i) (centre (o 1) (dx 1) j) s) (centre (o 2) (dx 2) (k0 - 1)) (centre (o 2) (dx 2) (k1 + 1)) m2 M2) :
    ∀ p, InBounds [(i0, i1), (j0, j1), (k0, k1)] p → ∀ e, 1 ≤ e → e ≤ 7 - 1 → ¬ InBounds [(i0, i1), (j0, j1), (k0, k1)] (shift p (row points3 e)) →
      |cells3 o dx φ p + cells3 o dx φ (shift p (row points3 e)) - 2 * normal3 o dx φ e p 0| ≤ (fun e => if e ≤ 2 then m0 else if e ≤ 4 then m1 else m2) e * across dx e ^ 2 / 4 ∧
      |cells3 o dx φ p - cells3 o dx φ (shift p (row points3 e)) - across dx e * deriv (normal3 o dx φ e p) 0| ≤ (fun e => if e ≤ 2 then M0 else if e ≤ 4 then M1 else M2) e * across dx e ^ 3 / 24 := by
  intro p hp e e1 e2 _
  obtain ⟨i, j, k, rfl, h⟩ := inBounds3.1 hp
  have he : e = 1 ∨ e = 2 ∨ e = 3 ∨ e = 4 ∨ e = 5 ∨ e = 6 := by omega
  rcases he with rfl | rfl | rfl | rfl | rfl | rfl
  · have t := near_lo (o := o 0) (i := i) (s0 j (by omega) (by omega) k (by omega) (by omega)) hd0 (b0 j (by omega) (by omega) k (by omega) (by omega)) (centre_mono hd0 (show i0 - 1 ≤ i - 1 by omega)) (centre_mono hd0 (show i ≤ i1 + 1 by omega))
    have f : normal3 o dx φ 1 [i, j, k] = fun s => (fun s => φ s (centre (o 1) (dx 1) j) (centre (o 2) (dx 2) k)) (face (o 0) (dx 0) i + s) := by funext s; simp [normal3]
    rw [f, deriv_lo (fun s => φ s (centre (o 1) (dx 1) j) (centre (o 2) (dx 2) k)) (face (o 0) (dx 0) i), shift3_1]
    simpa [across, cells3] using t
  · have t := near_up (o := o 0) (i := i) (s0 j (by omega) (by omega) k (by omega) (by omega)) hd0 (b0 j (by omega) (by omega) k (by omega) (by omega)) (centre_mono hd0 (show i0 - 1 ≤ i by omega)) (centre_mono hd0 (show i + 1 ≤ i1 + 1 by omega))
    have f : normal3 o dx φ 2 [i, j, k] = fun s => (fun s => φ s (centre (o 1) (dx 1) j) (centre (o 2) (dx 2) k)) (face (o 0) (dx 0) (i + 1) - s) := by funext s; simp [normal3]
    rw [f, deriv_up (fun s => φ s (centre (o 1) (dx 1) j) (centre (o 2) (dx 2) k)) (face (o 0) (dx 0) (i + 1)), shift3_2]
    simpa [across, cells3] using t
  · have t := near_lo (o := o 1) (i := j) (s1 i (by omega) (by omega) k (by omega) (by omega)) hd1 (b1 i (by omega) (by omega) k (by omega) (by omega)) (centre_mono hd1 (show j0 - 1 ≤ j - 1 by omega)) (centre_mono hd1 (show j ≤ j1 + 1 by omega))
    have f : normal3 o dx φ 3 [i, j, k] = fun s => (fun s => φ (centre (o 0) (dx 0) i) s (centre (o 2) (dx 2) k)) (face (o 1) (dx 1) j + s) := by funext s; simp [normal3]
    rw [f, deriv_lo (fun s => φ (centre (o 0) (dx 0) i) s (centre (o 2) (dx 2) k)) (face (o 1) (dx 1) j), shift3_3]
    simpa [across, cells3] using t
  · have t := near_up (o := o 1) (i := j) (s1 i (by omega) (by omega) k (by omega) (by omega)) hd1 (b1 i (by omega) (by omega) k (by omega) (by omega)) (centre_mono hd1 (show j0 - 1 ≤ j by omega)) (centre_mono hd1 (show j + 1 ≤ j1 + 1 by omega))
    have f : normal3 o dx φ 4 [i, j, k] = fun s => (fun s => φ (centre (o 0) (dx 0) i) s (centre (o 2) (dx 2) k)) (face (o 1) (dx 1) (j + 1) - s) := by funext s; simp [normal3]
    rw [f, deriv_up (fun s => φ (centre (o 0) (dx 0) i) s (centre (o 2) (dx 2) k)) (face (o 1) (dx 1) (j + 1)), shift3_4]
    simpa [across, cells3] using t
  · have t := near_lo (o := o 2) (i := k) (s2 i (by omega) (by omega) j (by omega) (by omega)) hd2 (b2 i (by omega) (by omega) j (by omega) (by omega)) (centre_mono hd2 (show k0 - 1 ≤ k - 1 by omega)) (centre_mono hd2 (show k ≤ k1 + 1 by omega))
    have f : normal3 o dx φ 5 [i, j, k] = fun s => (fun s => φ (centre (o 0) (dx 0) i) (centre (o 1) (dx 1) j) s) (face (o 2) (dx 2) k + s) := by funext s; simp [normal3]
    rw [f, deriv_lo (fun s => φ (centre (o 0) (dx 0) i) (centre (o 1) (dx 1) j) s) (face (o 2) (dx 2) k), shift3_5]
    simpa [across, cells3] using t
  · have t := near_up (o := o 2) (i := k) (s2 i (by omega) (by omega) j (by omega) (by omega)) hd2 (b2 i (by omega) (by omega) j (by omega) (by omega)) (centre_mono hd2 (show k0 - 1 ≤ k by omega)) (centre_mono hd2 (show k + 1 ≤ k1 + 1 by omega))
    have f : normal3 o dx φ 6 [i, j, k] = fun s => (fun s => φ (centre (o 0) (dx 0) i) (centre (o 1) (dx 1) j) s) (face (o 2) (dx 2) (k + 1) - s) := by funext s; simp [normal3]
    rw [f, deriv_up (fun s => φ (centre (o 0) (dx 0) i) (centre (o 1) (dx 1) j) s) (face (o 2) (dx 2) (k + 1)), shift3_6]
    simpa [across, cells3] using t

/-- a barrier bounds the error -/
theorem Elliptic3.within {i0 j0 k0 i1 j1 k1 : Int} {alpha beta d τ : ℝ} {dx o : Nat → ℝ} {φ : ℝ → ℝ → ℝ → ℝ} {A B0 B1 B2 X D W : List Int → ℝ} {ps : List (Piece ℝ)} {m0 M0 m1 M1 m2 M2 : ℝ} (hd0 : 0 < dx 0) (hd1 : 0 < dx 1) (hd2 : 0 < dx 2)
    (he : Elliptic3 i0 j0 k0 i1 j1 k1 alpha beta dx A B0 B1 B2) (hp : Pieces [(i0, i1), (j0, j1), (k0, k1)] 7 (row points3) ps) (hX : Fulfils [(i0, i1), (j0, j1), (k0, k1)] 7 (row points3) ps D X)
    (hN : Exact dx (row points3) ps D (normal3 o dx φ)) (s0 : ∀ j, j0 ≤ j → j ≤ j1 → ∀ k, k0 ≤ k → k ≤ k1 → ContDiff ℝ 4 (fun s => φ s (centre (o 1) (dx 1) j) (centre (o 2) (dx 2) k))) (s1 : ∀ i, i0 ≤ i → i ≤ i1 → ∀ k, k0 ≤ k → k ≤ k1 → ContDiff ℝ 4 (fun s => φ (centre (o 0) (dx 0) i) s (centre (o 2) (dx 2) k))) (s2 : ∀ i, i0 ≤ i → i ≤ i1 → ∀ j, j0 ≤ j → j ≤ j1 → ContDiff ℝ 4 (fun s => φ (centre (o 0) (dx 0) i) (centre (o 1) (dx 1) j) s))
    (b0 : ∀ j, j0 ≤ j → j ≤ j1 → ∀ k, k0 ≤ k → k ≤ k1 → Bends (fun s => φ s (centre (o 1) (dx 1) j) (centre (o 2) (dx 2) k)) (centre (o 0) (dx 0) (i0 - 1)) (centre (o 0) (dx 0) (i1 + 1)) m0 M0) (b1 : ∀ i, i0 ≤ i → i ≤ i1 → ∀ k, k0 ≤ k → k ≤ k1 → Bends (fun s => φ (centre (o 0) (dx 0) i) s (centre (o 2) (dx 2) k)) (centre (o 1) (dx 1) (j0 - 1)) (centre (o 1) (dx 1) (j1 + 1)) m1 M1) (b2 : ∀ i, i0 ≤ i → i ≤ i1 → ∀ j, j0 ≤ j → j ≤ j1 → Bends (fun s => φ (centre (o 0) (dx 0) i) (centre (o 1) (dx 1) j) s) (centre (o 2) (dx 2) (k0 - 1)) (centre (o 2) (dx 2) (k1 + 1)) m2 M2)
    (hd : ∀ p, InBounds [(i0, i1), (j0, j1), (k0, k1)] p → ∀ e, 1 ≤ e → e ≤ 7 - 1 → ¬ InBounds [(i0, i1), (j0, j1), (k0, k1)] (shift p (row points3 e)) → (∀ k ∈ ps, k.cells p → k.ghost ≠ e) →
      |D (shift p (row points3 e)) - cells3 o dx φ (shift p (row points3 e))| ≤ d)
    (hw : ∀ i j k, i0 ≤ i → i ≤ i1 → j0 ≤ j → j ≤ j1 → k0 ≤ k → k ≤ k1 →
      (i = i0 → m0 * dx 0 ^ 2 / 4 ≤ W [i, j, k] + W [i - 1, j, k] ∧ d ≤ W [i - 1, j, k] ∧ ((∃ r ∈ ps, r.cells [i, j, k] ∧ r.ghost = 1 ∧ r.btype ≠ 0) → M0 * dx 0 ^ 3 / 24 ≤ W [i - 1, j, k] - W [i, j, k])) ∧
      (i = i1 → m0 * dx 0 ^ 2 / 4 ≤ W [i, j, k] + W [i + 1, j, k] ∧ d ≤ W [i + 1, j, k] ∧ ((∃ r ∈ ps, r.cells [i, j, k] ∧ r.ghost = 2 ∧ r.btype ≠ 0) → M0 * dx 0 ^ 3 / 24 ≤ W [i + 1, j, k] - W [i, j, k])) ∧
      (j = j0 → m1 * dx 1 ^ 2 / 4 ≤ W [i, j, k] + W [i, j - 1, k] ∧ d ≤ W [i, j - 1, k] ∧ ((∃ r ∈ ps, r.cells [i, j, k] ∧ r.ghost = 3 ∧ r.btype ≠ 0) → M1 * dx 1 ^ 3 / 24 ≤ W [i, j - 1, k] - W [i, j, k])) ∧
      (j = j1 → m1 * dx 1 ^ 2 / 4 ≤ W [i, j, k] + W [i, j + 1, k] ∧ d ≤ W [i, j + 1, k] ∧ ((∃ r ∈ ps, r.cells [i, j, k] ∧ r.ghost = 4 ∧ r.btype ≠ 0) → M1 * dx 1 ^ 3 / 24 ≤ W [i, j + 1, k] - W [i, j, k])) ∧
      (k = k0 → m2 * dx 2 ^ 2 / 4 ≤ W [i, j, k] + W [i, j, k - 1] ∧ d ≤ W [i, j, k - 1] ∧ ((∃ r ∈ ps, r.cells [i, j, k] ∧ r.ghost = 5 ∧ r.btype ≠ 0) → M2 * dx 2 ^ 3 / 24 ≤ W [i, j, k - 1] - W [i, j, k])) ∧
      (k = k1 → m2 * dx 2 ^ 2 / 4 ≤ W [i, j, k] + W [i, j, k + 1] ∧ d ≤ W [i, j, k + 1] ∧ ((∃ r ∈ ps, r.cells [i, j, k] ∧ r.ghost = 6 ∧ r.btype ≠ 0) → M2 * dx 2 ^ 3 / 24 ≤ W [i, j, k + 1] - W [i, j, k])))
    (hL : ∀ i j k, i0 ≤ i → i ≤ i1 → j0 ≤ j → j ≤ j1 → k0 ≤ k → k ≤ k1 → |op3 alpha beta dx A B0 B1 B2 X i j k - op3 alpha beta dx A B0 B1 B2 (cells3 o dx φ) i j k| ≤ τ)
    (hW : ∀ i j k, i0 ≤ i → i ≤ i1 → j0 ≤ j → j ≤ j1 → k0 ≤ k → k ≤ k1 → τ ≤ op3 alpha beta dx A B0 B1 B2 W i j k ∧ (0 < alpha * A [i, j, k] ∨ τ < op3 alpha beta dx A B0 B1 B2 W i j k)) :
    ∀ p, InBounds [(i0, i1), (j0, j1), (k0, k1)] p → |X p - cells3 o dx φ p| ≤ W p := by
  have nr := normal3_near (o := o) (φ := φ) hd0 hd1 hd2 s0 s1 s2 b0 b1 b2
  have fw : ∀ p, InBounds [(i0, i1), (j0, j1), (k0, k1)] p → ∀ e, 1 ≤ e → e ≤ 7 - 1 → ¬ InBounds [(i0, i1), (j0, j1), (k0, k1)] (shift p (row points3 e)) →
      (fun e => if e ≤ 2 then m0 else if e ≤ 4 then m1 else m2) e * across dx e ^ 2 / 4 ≤ W p + W (shift p (row points3 e)) ∧ d ≤ W (shift p (row points3 e)) ∧
      ((∃ k ∈ ps, k.cells p ∧ k.ghost = e ∧ k.btype ≠ 0) → (fun e => if e ≤ 2 then M0 else if e ≤ 4 then M1 else M2) e * across dx e ^ 3 / 24 ≤ W (shift p (row points3 e)) - W p) := by
    intro p hp e e1 e2 ho
    obtain ⟨i, j, k, rfl, h⟩ := inBounds3.1 hp
    have w := hw i j k (by omega) (by omega) (by omega) (by omega) (by omega) (by omega)
    have he : e = 1 ∨ e = 2 ∨ e = 3 ∨ e = 4 ∨ e = 5 ∨ e = 6 := by omega
    rcases he with rfl | rfl | rfl | rfl | rfl | rfl
    · rw [shift3_1] at ho ⊢
      have hx : i = i0 := by
        by_contra hne
        exact ho (inBounds3.2 ⟨i - 1, j, k, rfl, by omega⟩)
      simpa [across] using w.1 hx
    · rw [shift3_2] at ho ⊢
      have hx : i = i1 := by
        by_contra hne
        exact ho (inBounds3.2 ⟨i + 1, j, k, rfl, by omega⟩)
      simpa [across] using w.2.1 hx
    · rw [shift3_3] at ho ⊢
      have hx : j = j0 := by
        by_contra hne
        exact ho (inBounds3.2 ⟨i, j - 1, k, rfl, by omega⟩)
      simpa [across] using w.2.2.1 hx
    · rw [shift3_4] at ho ⊢
      have hx : j = j1 := by
        by_contra hne
        exact ho (inBounds3.2 ⟨i, j + 1, k, rfl, by omega⟩)
      simpa [across] using w.2.2.2.1 hx
    · rw [shift3_5] at ho ⊢
      have hx : k = k0 := by
        by_contra hne
        exact ho (inBounds3.2 ⟨i, j, k - 1, rfl, by omega⟩)
      simpa [across] using w.2.2.2.2.1 hx
    · rw [shift3_6] at ho ⊢
      have hx : k = k1 := by
        by_contra hne
        exact ho (inBounds3.2 ⟨i, j, k + 1, rfl, by omega⟩)
      simpa [across] using w.2.2.2.2.2 hx
  have up := boundary_up (M2 := (fun e => if e ≤ 2 then m0 else if e ≤ 4 then m1 else m2)) (M3 := (fun e => if e ≤ 2 then M0 else if e ≤ 4 then M1 else M2)) hp hX hN nr hd (fun p hp e e1 e2 ho => (fw p hp e e1 e2 ho).1) (fun p hp e e1 e2 ho => (fw p hp e e1 e2 ho).2.2) (fun p hp e e1 e2 ho => (fw p hp e e1 e2 ho).2.1)
  intro p hp
  have a := he.above (v := fun p => W p - (X p - cells3 o dx φ p)) (fun i j k hi0 hi1 hj0 hj1 hk0 hk1 hv => ?_) (fun p hp e e1 e2 ho => (up p hp e e1 e2 ho).1) p hp
  have b := he.above (v := fun p => W p + (X p - cells3 o dx φ p)) (fun i j k hi0 hi1 hj0 hj1 hk0 hk1 hv => ?_) (fun p hp e e1 e2 ho => (up p hp e e1 e2 ho).2) p hp
  · exact abs_le.2 ⟨by linarith, by linarith⟩
  · have l := abs_le.1 (hL i j k hi0 hi1 hj0 hj1 hk0 hk1)
    have e : op3 alpha beta dx A B0 B1 B2 (fun p => W p + (X p - cells3 o dx φ p)) i j k = op3 alpha beta dx A B0 B1 B2 W i j k + (op3 alpha beta dx A B0 B1 B2 X i j k - op3 alpha beta dx A B0 B1 B2 (cells3 o dx φ) i j k) := by
      unfold op3
      ring
    rw [e]
    rcases hW i j k hi0 hi1 hj0 hj1 hk0 hk1 with ⟨w1, w2 | w2⟩
    · have := mul_neg_of_pos_of_neg w2 hv
      linarith [l.1]
    · have := mul_nonpos_of_nonneg_of_nonpos (he.cell i j k hi0 hi1 hj0 hj1 hk0 hk1) hv.le
      linarith [l.1]
  · have l := abs_le.1 (hL i j k hi0 hi1 hj0 hj1 hk0 hk1)
    have e : op3 alpha beta dx A B0 B1 B2 (fun p => W p - (X p - cells3 o dx φ p)) i j k = op3 alpha beta dx A B0 B1 B2 W i j k - (op3 alpha beta dx A B0 B1 B2 X i j k - op3 alpha beta dx A B0 B1 B2 (cells3 o dx φ) i j k) := by
      unfold op3
      ring
    rw [e]
    rcases hW i j k hi0 hi1 hj0 hj1 hk0 hk1 with ⟨w1, w2 | w2⟩
    · have := mul_neg_of_pos_of_neg w2 hv
      linarith [l.2]
    · have := mul_nonpos_of_nonneg_of_nonpos (he.cell i j k hi0 hi1 hj0 hj1 hk0 hk1) hv.le
      linarith [l.2]

/-- the error with a reaction term -/
theorem Elliptic3.conv {i0 j0 k0 i1 j1 k1 : Int} {alpha beta d τ c E : ℝ} {dx o : Nat → ℝ} {φ κ0 κ1 κ2 : ℝ → ℝ → ℝ → ℝ} {A X D : List Int → ℝ} {ps : List (Piece ℝ)} {m0 M0 m1 M1 m2 M2 K0 L0 K1 L1 K2 L2 : ℝ} (hi : i0 ≤ i1) (hj : j0 ≤ j1) (hk : k0 ≤ k1) (hd0 : 0 < dx 0) (hd1 : 0 < dx 1) (hd2 : 0 < dx 2)
    (he : Elliptic3 i0 j0 k0 i1 j1 k1 alpha beta dx A (faces30 o dx κ0) (faces31 o dx κ1) (faces32 o dx κ2)) (hp : Pieces [(i0, i1), (j0, j1), (k0, k1)] 7 (row points3) ps) (hX : Fulfils [(i0, i1), (j0, j1), (k0, k1)] 7 (row points3) ps D X)
    (hN : Exact dx (row points3) ps D (normal3 o dx φ)) (s0 : ∀ j, j0 ≤ j → j ≤ j1 → ∀ k, k0 ≤ k → k ≤ k1 → ContDiff ℝ 4 (fun s => φ s (centre (o 1) (dx 1) j) (centre (o 2) (dx 2) k))) (s1 : ∀ i, i0 ≤ i → i ≤ i1 → ∀ k, k0 ≤ k → k ≤ k1 → ContDiff ℝ 4 (fun s => φ (centre (o 0) (dx 0) i) s (centre (o 2) (dx 2) k))) (s2 : ∀ i, i0 ≤ i → i ≤ i1 → ∀ j, j0 ≤ j → j ≤ j1 → ContDiff ℝ 4 (fun s => φ (centre (o 0) (dx 0) i) (centre (o 1) (dx 1) j) s))
    (b0 : ∀ j, j0 ≤ j → j ≤ j1 → ∀ k, k0 ≤ k → k ≤ k1 → Bends (fun s => φ s (centre (o 1) (dx 1) j) (centre (o 2) (dx 2) k)) (centre (o 0) (dx 0) (i0 - 1)) (centre (o 0) (dx 0) (i1 + 1)) m0 M0) (b1 : ∀ i, i0 ≤ i → i ≤ i1 → ∀ k, k0 ≤ k → k ≤ k1 → Bends (fun s => φ (centre (o 0) (dx 0) i) s (centre (o 2) (dx 2) k)) (centre (o 1) (dx 1) (j0 - 1)) (centre (o 1) (dx 1) (j1 + 1)) m1 M1) (b2 : ∀ i, i0 ≤ i → i ≤ i1 → ∀ j, j0 ≤ j → j ≤ j1 → Bends (fun s => φ (centre (o 0) (dx 0) i) (centre (o 1) (dx 1) j) s) (centre (o 2) (dx 2) (k0 - 1)) (centre (o 2) (dx 2) (k1 + 1)) m2 M2)
    (c0 : ∀ j, j0 ≤ j → j ≤ j1 → ∀ k, k0 ≤ k → k ≤ k1 → ContDiff ℝ 3 (fun s => κ0 s (centre (o 1) (dx 1) j) (centre (o 2) (dx 2) k))) (c1 : ∀ i, i0 ≤ i → i ≤ i1 → ∀ k, k0 ≤ k → k ≤ k1 → ContDiff ℝ 3 (fun s => κ1 (centre (o 0) (dx 0) i) s (centre (o 2) (dx 2) k))) (c2 : ∀ i, i0 ≤ i → i ≤ i1 → ∀ j, j0 ≤ j → j ≤ j1 → ContDiff ℝ 3 (fun s => κ2 (centre (o 0) (dx 0) i) (centre (o 1) (dx 1) j) s))
    (v0 : ∀ j, j0 ≤ j → j ≤ j1 → ∀ k, k0 ≤ k → k ≤ k1 → Varies (fun s => κ0 s (centre (o 1) (dx 1) j) (centre (o 2) (dx 2) k)) (centre (o 0) (dx 0) (i0 - 1)) (centre (o 0) (dx 0) (i1 + 1)) K0 L0) (v1 : ∀ i, i0 ≤ i → i ≤ i1 → ∀ k, k0 ≤ k → k ≤ k1 → Varies (fun s => κ1 (centre (o 0) (dx 0) i) s (centre (o 2) (dx 2) k)) (centre (o 1) (dx 1) (j0 - 1)) (centre (o 1) (dx 1) (j1 + 1)) K1 L1) (v2 : ∀ i, i0 ≤ i → i ≤ i1 → ∀ j, j0 ≤ j → j ≤ j1 → Varies (fun s => κ2 (centre (o 0) (dx 0) i) (centre (o 1) (dx 1) j) s) (centre (o 2) (dx 2) (k0 - 1)) (centre (o 2) (dx 2) (k1 + 1)) K2 L2)
    (hd : ∀ p, InBounds [(i0, i1), (j0, j1), (k0, k1)] p → ∀ e, 1 ≤ e → e ≤ 7 - 1 → ¬ InBounds [(i0, i1), (j0, j1), (k0, k1)] (shift p (row points3 e)) → (∀ k ∈ ps, k.cells p → k.ghost ≠ e) →
      |D (shift p (row points3 e)) - cells3 o dx φ (shift p (row points3 e))| ≤ d)
    (hL : ∀ i j k, i0 ≤ i → i ≤ i1 → j0 ≤ j → j ≤ j1 → k0 ≤ k → k ≤ k1 → |op3 alpha beta dx A (faces30 o dx κ0) (faces31 o dx κ1) (faces32 o dx κ2) X i j k - op3 alpha beta dx A (faces30 o dx κ0) (faces31 o dx κ1) (faces32 o dx κ2) (cells3 o dx φ) i j k| ≤ τ)
    (hc : 0 < c) (hca : ∀ i j k, i0 ≤ i → i ≤ i1 → j0 ≤ j → j ≤ j1 → k0 ≤ k → k ≤ k1 → c ≤ alpha * A [i, j, k]) (hdE : d ≤ E) (hm0 : m0 * dx 0 ^ 2 / 8 ≤ E) (hm1 : m1 * dx 1 ^ 2 / 8 ≤ E) (hm2 : m2 * dx 2 ^ 2 / 8 ≤ E)
    (hE : τ + beta * (2 * (K0 + L0 * extent (dx 0) i0 i1 / 2) * (M0 * dx 0 ^ 2 / (24 * extent (dx 0) i0 i1)) + 2 * (K1 + L1 * extent (dx 1) j0 j1 / 2) * (M1 * dx 1 ^ 2 / (24 * extent (dx 1) j0 j1)) + 2 * (K2 + L2 * extent (dx 2) k0 k1 / 2) * (M2 * dx 2 ^ 2 / (24 * extent (dx 2) k0 k1))) ≤ c * E) :
    ∀ p, InBounds [(i0, i1), (j0, j1), (k0, k1)] p → |X p - cells3 o dx φ p| ≤ E + (M0 * extent (dx 0) i0 i1 * dx 0 ^ 2 / 96 + M1 * extent (dx 1) j0 j1 * dx 1 ^ 2 / 96 + M2 * extent (dx 2) k0 k1 * dx 2 ^ 2 / 96) := by
  have x0 := extent_pos hd0 hi
  have p0 : 0 ≤ M0 := (abs_nonneg _).trans (b0 j0 le_rfl hj k0 le_rfl hk (centre (o 0) (dx 0) i0) (centre_mono hd0 (by omega)) (centre_mono hd0 (by omega))).2
  have q0 : 0 ≤ m0 := (abs_nonneg _).trans (b0 j0 le_rfl hj k0 le_rfl hk (centre (o 0) (dx 0) i0) (centre_mono hd0 (by omega)) (centre_mono hd0 (by omega))).1
  obtain ⟨S0, eS0⟩ : ∃ S, S = (M0 * dx 0 ^ 2 / (24 * extent (dx 0) i0 i1)) := ⟨_, rfl⟩
  have r0 : 0 ≤ S0 := by rw [eS0]; positivity
  have y0 : S0 * (dx 0 * extent (dx 0) i0 i1) = M0 * dx 0 ^ 3 / 24 := by rw [eS0]; field_simp
  have x1 := extent_pos hd1 hj
  have p1 : 0 ≤ M1 := (abs_nonneg _).trans (b1 i0 le_rfl hi k0 le_rfl hk (centre (o 1) (dx 1) j0) (centre_mono hd1 (by omega)) (centre_mono hd1 (by omega))).2
  have q1 : 0 ≤ m1 := (abs_nonneg _).trans (b1 i0 le_rfl hi k0 le_rfl hk (centre (o 1) (dx 1) j0) (centre_mono hd1 (by omega)) (centre_mono hd1 (by omega))).1
  obtain ⟨S1, eS1⟩ : ∃ S, S = (M1 * dx 1 ^ 2 / (24 * extent (dx 1) j0 j1)) := ⟨_, rfl⟩
  have r1 : 0 ≤ S1 := by rw [eS1]; positivity
  have y1 : S1 * (dx 1 * extent (dx 1) j0 j1) = M1 * dx 1 ^ 3 / 24 := by rw [eS1]; field_simp
  have x2 := extent_pos hd2 hk
  have p2 : 0 ≤ M2 := (abs_nonneg _).trans (b2 i0 le_rfl hi j0 le_rfl hj (centre (o 2) (dx 2) k0) (centre_mono hd2 (by omega)) (centre_mono hd2 (by omega))).2
  have q2 : 0 ≤ m2 := (abs_nonneg _).trans (b2 i0 le_rfl hi j0 le_rfl hj (centre (o 2) (dx 2) k0) (centre_mono hd2 (by omega)) (centre_mono hd2 (by omega))).1
  obtain ⟨S2, eS2⟩ : ∃ S, S = (M2 * dx 2 ^ 2 / (24 * extent (dx 2) k0 k1)) := ⟨_, rfl⟩
  have r2 : 0 ≤ S2 := by rw [eS2]; positivity
  have y2 : S2 * (dx 2 * extent (dx 2) k0 k1) = M2 * dx 2 ^ 3 / 24 := by rw [eS2]; field_simp
  have W0 : ∀ d' : ℝ, d' ≤ E → ∀ p : List Int, d' ≤ E + (S0 * bowl (o 0) (dx 0) i0 i1 (p.getD 0 0) + S1 * bowl (o 1) (dx 1) j0 j1 (p.getD 1 0) + S2 * bowl (o 2) (dx 2) k0 k1 (p.getD 2 0)) := fun d' hd' p => by
    have := add_nonneg (add_nonneg (mul_nonneg r0 (bowl_nonneg (o := o 0) (h := dx 0) (lo := i0) (hi := i1) (i := p.getD 0 0))) (mul_nonneg r1 (bowl_nonneg (o := o 1) (h := dx 1) (lo := j0) (hi := j1) (i := p.getD 1 0)))) (mul_nonneg r2 (bowl_nonneg (o := o 2) (h := dx 2) (lo := k0) (hi := k1) (i := p.getD 2 0)))
    linarith
  have B := he.within (o := o) (φ := φ) (X := X) (D := D) (d := d) (τ := τ) (W := fun p => E + (S0 * bowl (o 0) (dx 0) i0 i1 (p.getD 0 0) + S1 * bowl (o 1) (dx 1) j0 j1 (p.getD 1 0) + S2 * bowl (o 2) (dx 2) k0 k1 (p.getD 2 0)))
    hd0 hd1 hd2 hp hX hN s0 s1 s2 b0 b1 b2 hd (fun i j k hi0 hi1 hj0 hj1 hk0 hk1 => ?_) hL (fun i j k hi0 hi1 hj0 hj1 hk0 hk1 => ?_)
  · intro p hp
    refine (B p hp).trans ?_
    obtain ⟨i, j, k, rfl, h⟩ := inBounds3.1 hp
    simp only [List.getD_cons_zero, List.getD_cons_succ]
    have z0 : S0 * bowl (o 0) (dx 0) i0 i1 i ≤ M0 * extent (dx 0) i0 i1 * dx 0 ^ 2 / 96 := by
      refine (mul_le_mul_of_nonneg_left (bowl_le hd0 (by omega) (by omega)) r0).trans (le_of_eq ?_)
      rw [eS0]
      field_simp
      ring
    have z1 : S1 * bowl (o 1) (dx 1) j0 j1 j ≤ M1 * extent (dx 1) j0 j1 * dx 1 ^ 2 / 96 := by
      refine (mul_le_mul_of_nonneg_left (bowl_le hd1 (by omega) (by omega)) r1).trans (le_of_eq ?_)
      rw [eS1]
      field_simp
      ring
    have z2 : S2 * bowl (o 2) (dx 2) k0 k1 k ≤ M2 * extent (dx 2) k0 k1 * dx 2 ^ 2 / 96 := by
      refine (mul_le_mul_of_nonneg_left (bowl_le hd2 (by omega) (by omega)) r2).trans (le_of_eq ?_)
      rw [eS2]
      field_simp
      ring
    linarith
  · refine ⟨?_, ?_, ?_, ?_, ?_, ?_⟩
    · rintro rfl
      refine ⟨?_, W0 _ hdE _, fun _ => ?_⟩
      · have u := W0 _ hm0 [i, j, k]
        have v := W0 _ hm0 [i - 1, j, k]
        linarith
      · have g := bowl_lo (o := o 0) (h := dx 0) (lo := i) (hi := i1)
        have := congrArg (S0 * ·) g
        simp only [List.getD_cons_zero, List.getD_cons_succ] at this ⊢
        rw [y0] at this
        linarith
    · rintro rfl
      refine ⟨?_, W0 _ hdE _, fun _ => ?_⟩
      · have u := W0 _ hm0 [i, j, k]
        have v := W0 _ hm0 [i + 1, j, k]
        linarith
      · have g := bowl_up (o := o 0) (h := dx 0) (lo := i0) (hi := i)
        have := congrArg (S0 * ·) g
        simp only [List.getD_cons_zero, List.getD_cons_succ] at this ⊢
        rw [y0] at this
        linarith
    · rintro rfl
      refine ⟨?_, W0 _ hdE _, fun _ => ?_⟩
      · have u := W0 _ hm1 [i, j, k]
        have v := W0 _ hm1 [i, j - 1, k]
        linarith
      · have g := bowl_lo (o := o 1) (h := dx 1) (lo := j) (hi := j1)
        have := congrArg (S1 * ·) g
        simp only [List.getD_cons_zero, List.getD_cons_succ] at this ⊢
        rw [y1] at this
        linarith
    · rintro rfl
      refine ⟨?_, W0 _ hdE _, fun _ => ?_⟩
      · have u := W0 _ hm1 [i, j, k]
        have v := W0 _ hm1 [i, j + 1, k]
        linarith
      · have g := bowl_up (o := o 1) (h := dx 1) (lo := j0) (hi := j)
        have := congrArg (S1 * ·) g
        simp only [List.getD_cons_zero, List.getD_cons_succ] at this ⊢
        rw [y1] at this
        linarith
    · rintro rfl
      refine ⟨?_, W0 _ hdE _, fun _ => ?_⟩
      · have u := W0 _ hm2 [i, j, k]
        have v := W0 _ hm2 [i, j, k - 1]
        linarith
      · have g := bowl_lo (o := o 2) (h := dx 2) (lo := k) (hi := k1)
        have := congrArg (S2 * ·) g
        simp only [List.getD_cons_zero, List.getD_cons_succ] at this ⊢
        rw [y2] at this
        linarith
    · rintro rfl
      refine ⟨?_, W0 _ hdE _, fun _ => ?_⟩
      · have u := W0 _ hm2 [i, j, k]
        have v := W0 _ hm2 [i, j, k + 1]
        linarith
      · have g := bowl_up (o := o 2) (h := dx 2) (lo := k0) (hi := k)
        have := congrArg (S2 * ·) g
        simp only [List.getD_cons_zero, List.getD_cons_succ] at this ⊢
        rw [y2] at this
        linarith
  · have E0 : 0 ≤ E := le_trans (by positivity) hm0
    have w := W0 E le_rfl [i, j, k]
    simp only [List.getD_cons_zero, List.getD_cons_succ] at w
    have a := mul_le_mul (hca i j k hi0 hi1 hj0 hj1 hk0 hk1) w E0 (hc.le.trans (hca i j k hi0 hi1 hj0 hj1 hk0 hk1))
    have g0 := abs_le.1 (bowl_bound hd0 (c0 j hj0 hj1 k hk0 hk1) (v0 j hj0 hj1 k hk0 hk1) hi0 hi1)
    rw [← bowl_axis hd0] at g0
    have f0 := mul_le_mul_of_nonneg_left (mul_le_mul_of_nonneg_left g0.2 r0) he.beta.le
    have g1 := abs_le.1 (bowl_bound hd1 (c1 i hi0 hi1 k hk0 hk1) (v1 i hi0 hi1 k hk0 hk1) hj0 hj1)
    rw [← bowl_axis hd1] at g1
    have f1 := mul_le_mul_of_nonneg_left (mul_le_mul_of_nonneg_left g1.2 r1) he.beta.le
    have g2 := abs_le.1 (bowl_bound hd2 (c2 i hi0 hi1 j hj0 hj1) (v2 i hi0 hi1 j hj0 hj1) hk0 hk1)
    rw [← bowl_axis hd2] at g2
    have f2 := mul_le_mul_of_nonneg_left (mul_le_mul_of_nonneg_left g2.2 r2) he.beta.le
    have o : op3 alpha beta dx A (faces30 o dx κ0) (faces31 o dx κ1) (faces32 o dx κ2) (fun p => E + (S0 * bowl (o 0) (dx 0) i0 i1 (p.getD 0 0) + S1 * bowl (o 1) (dx 1) j0 j1 (p.getD 1 0) + S2 * bowl (o 2) (dx 2) k0 k1 (p.getD 2 0))) i j k = -(beta * (S0 * ((faces30 o dx κ0 [i + 1, j, k] * (bowl (o 0) (dx 0) i0 i1 (i + 1) - bowl (o 0) (dx 0) i0 i1 i) / dx 0 - faces30 o dx κ0 [i, j, k] * (bowl (o 0) (dx 0) i0 i1 i - bowl (o 0) (dx 0) i0 i1 (i - 1)) / dx 0) / dx 0)) + beta * (S1 * ((faces31 o dx κ1 [j + 1, k, i] * (bowl (o 1) (dx 1) j0 j1 (j + 1) - bowl (o 1) (dx 1) j0 j1 j) / dx 1 - faces31 o dx κ1 [j, k, i] * (bowl (o 1) (dx 1) j0 j1 j - bowl (o 1) (dx 1) j0 j1 (j - 1)) / dx 1) / dx 1)) + beta * (S2 * ((faces32 o dx κ2 [k + 1, i, j] * (bowl (o 2) (dx 2) k0 k1 (k + 1) - bowl (o 2) (dx 2) k0 k1 k) / dx 2 - faces32 o dx κ2 [k, i, j] * (bowl (o 2) (dx 2) k0 k1 k - bowl (o 2) (dx 2) k0 k1 (k - 1)) / dx 2) / dx 2))) +
        alpha * A [i, j, k] * (E + (S0 * bowl (o 0) (dx 0) i0 i1 i + S1 * bowl (o 1) (dx 1) j0 j1 j + S2 * bowl (o 2) (dx 2) k0 k1 k)) := by
      unfold op3
      simp only [List.getD_cons_zero, List.getD_cons_succ]
      ring
    rw [o]
    simp only [faces30, faces31, faces32, List.getD_cons_zero, List.getD_cons_succ] at o ⊢
    rw [← eS0, ← eS1, ← eS2] at hE
    refine ⟨by linarith, Or.inl (hc.trans_le (hca i j k hi0 hi1 hj0 hj1 hk0 hk1))⟩

/-- the error without a reaction term, given values across axis 0 -/
theorem Elliptic3.convp0 {i0 j0 k0 i1 j1 k1 : Int} {beta d τ E : ℝ} {dx o : Nat → ℝ} {φ : ℝ → ℝ → ℝ → ℝ} {X D : List Int → ℝ} {ps : List (Piece ℝ)} {m0 M0 m1 M1 m2 M2 : ℝ} (hi : i0 ≤ i1) (hj : j0 ≤ j1) (hk : k0 ≤ k1) (hd0 : 0 < dx 0) (hd1 : 0 < dx 1) (hd2 : 0 < dx 2)
    (he : Elliptic3 i0 j0 k0 i1 j1 k1 0 beta dx (fun _ => 1) (fun _ => 1) (fun _ => 1) (fun _ => 1)) (hp : Pieces [(i0, i1), (j0, j1), (k0, k1)] 7 (row points3) ps) (hX : Fulfils [(i0, i1), (j0, j1), (k0, k1)] 7 (row points3) ps D X)
    (hN : Exact dx (row points3) ps D (normal3 o dx φ)) (s0 : ∀ j, j0 ≤ j → j ≤ j1 → ∀ k, k0 ≤ k → k ≤ k1 → ContDiff ℝ 4 (fun s => φ s (centre (o 1) (dx 1) j) (centre (o 2) (dx 2) k))) (s1 : ∀ i, i0 ≤ i → i ≤ i1 → ∀ k, k0 ≤ k → k ≤ k1 → ContDiff ℝ 4 (fun s => φ (centre (o 0) (dx 0) i) s (centre (o 2) (dx 2) k))) (s2 : ∀ i, i0 ≤ i → i ≤ i1 → ∀ j, j0 ≤ j → j ≤ j1 → ContDiff ℝ 4 (fun s => φ (centre (o 0) (dx 0) i) (centre (o 1) (dx 1) j) s))
    (b0 : ∀ j, j0 ≤ j → j ≤ j1 → ∀ k, k0 ≤ k → k ≤ k1 → Bends (fun s => φ s (centre (o 1) (dx 1) j) (centre (o 2) (dx 2) k)) (centre (o 0) (dx 0) (i0 - 1)) (centre (o 0) (dx 0) (i1 + 1)) m0 M0) (b1 : ∀ i, i0 ≤ i → i ≤ i1 → ∀ k, k0 ≤ k → k ≤ k1 → Bends (fun s => φ (centre (o 0) (dx 0) i) s (centre (o 2) (dx 2) k)) (centre (o 1) (dx 1) (j0 - 1)) (centre (o 1) (dx 1) (j1 + 1)) m1 M1) (b2 : ∀ i, i0 ≤ i → i ≤ i1 → ∀ j, j0 ≤ j → j ≤ j1 → Bends (fun s => φ (centre (o 0) (dx 0) i) (centre (o 1) (dx 1) j) s) (centre (o 2) (dx 2) (k0 - 1)) (centre (o 2) (dx 2) (k1 + 1)) m2 M2)
    (hd : ∀ p, InBounds [(i0, i1), (j0, j1), (k0, k1)] p → ∀ e, 1 ≤ e → e ≤ 7 - 1 → ¬ InBounds [(i0, i1), (j0, j1), (k0, k1)] (shift p (row points3 e)) → (∀ k ∈ ps, k.cells p → k.ghost ≠ e) →
      |D (shift p (row points3 e)) - cells3 o dx φ (shift p (row points3 e))| ≤ d)
    (hL : ∀ i j k, i0 ≤ i → i ≤ i1 → j0 ≤ j → j ≤ j1 → k0 ≤ k → k ≤ k1 → |op3 0 beta dx (fun _ => 1) (fun _ => 1) (fun _ => 1) (fun _ => 1) X i j k - op3 0 beta dx (fun _ => 1) (fun _ => 1) (fun _ => 1) (fun _ => 1) (cells3 o dx φ) i j k| ≤ τ)
    (ha : ∀ r ∈ ps, r.ghost = 1 ∨ r.ghost = 2 → r.btype = 0) (hdE : d ≤ E) (hm0 : m0 * dx 0 ^ 2 / 8 ≤ E) (hm1 : m1 * dx 1 ^ 2 / 8 ≤ E) (hm2 : m2 * dx 2 ^ 2 / 8 ≤ E) :
    ∀ p, InBounds [(i0, i1), (j0, j1), (k0, k1)] p → |X p - cells3 o dx φ p| ≤ E + (M1 * extent (dx 1) j0 j1 * dx 1 ^ 2 / 96 + M2 * extent (dx 2) k0 k1 * dx 2 ^ 2 / 96) + (τ / (2 * beta) + ((M1 * dx 1 ^ 2 / (24 * extent (dx 1) j0 j1)) + (M2 * dx 2 ^ 2 / (24 * extent (dx 2) k0 k1)))) * ((extent (dx 0) i0 i1 + dx 0) ^ 2 / 4) := by
  have τ0 : 0 ≤ τ := (abs_nonneg _).trans (hL i0 j0 k0 le_rfl hi le_rfl hj le_rfl hk)
  have x0 := extent_pos hd0 hi
  have p0 : 0 ≤ M0 := (abs_nonneg _).trans (b0 j0 le_rfl hj k0 le_rfl hk (centre (o 0) (dx 0) i0) (centre_mono hd0 (by omega)) (centre_mono hd0 (by omega))).2
  obtain ⟨S0, eS0⟩ : ∃ S, S = (M0 * dx 0 ^ 2 / (24 * extent (dx 0) i0 i1)) := ⟨_, rfl⟩
  have r0 : 0 ≤ S0 := by rw [eS0]; positivity
  have y0 : S0 * (dx 0 * extent (dx 0) i0 i1) = M0 * dx 0 ^ 3 / 24 := by rw [eS0]; field_simp
  have x1 := extent_pos hd1 hj
  have p1 : 0 ≤ M1 := (abs_nonneg _).trans (b1 i0 le_rfl hi k0 le_rfl hk (centre (o 1) (dx 1) j0) (centre_mono hd1 (by omega)) (centre_mono hd1 (by omega))).2
  obtain ⟨S1, eS1⟩ : ∃ S, S = (M1 * dx 1 ^ 2 / (24 * extent (dx 1) j0 j1)) := ⟨_, rfl⟩
  have r1 : 0 ≤ S1 := by rw [eS1]; positivity
  have y1 : S1 * (dx 1 * extent (dx 1) j0 j1) = M1 * dx 1 ^ 3 / 24 := by rw [eS1]; field_simp
  have x2 := extent_pos hd2 hk
  have p2 : 0 ≤ M2 := (abs_nonneg _).trans (b2 i0 le_rfl hi j0 le_rfl hj (centre (o 2) (dx 2) k0) (centre_mono hd2 (by omega)) (centre_mono hd2 (by omega))).2
  obtain ⟨S2, eS2⟩ : ∃ S, S = (M2 * dx 2 ^ 2 / (24 * extent (dx 2) k0 k1)) := ⟨_, rfl⟩
  have r2 : 0 ≤ S2 := by rw [eS2]; positivity
  have y2 : S2 * (dx 2 * extent (dx 2) k0 k1) = M2 * dx 2 ^ 3 / 24 := by rw [eS2]; field_simp
  intro p hp'
  refine le_of_forall_pos_le_add fun ε hε => ?_
  have R0 : 0 < (extent (dx 0) i0 i1 + dx 0) ^ 2 / 4 := by positivity
  obtain ⟨K, eK⟩ : ∃ K, K = τ / (2 * beta) + (S1 + S2) + ε / ((extent (dx 0) i0 i1 + dx 0) ^ 2 / 4) := ⟨_, rfl⟩
  have bp := he.beta
  have K0 : 0 ≤ K := by rw [eK]; positivity
  have W0 : ∀ d' : ℝ, d' ≤ E → ∀ p : List Int, i0 - 1 ≤ p.getD 0 0 → p.getD 0 0 ≤ i1 + 1 → d' ≤ E + (S1 * bowl (o 1) (dx 1) j0 j1 (p.getD 1 0) + S2 * bowl (o 2) (dx 2) k0 k1 (p.getD 2 0)) + K * ((extent (dx 0) i0 i1 + dx 0) ^ 2 / 4 - bowl (o 0) (dx 0) i0 i1 (p.getD 0 0)) := fun d' hd' p pa pb => by
    have t := mul_nonneg K0 (sub_nonneg.2 (bowl_top (o := o 0) hd0 pa pb))
    have t1 := mul_nonneg r1 (bowl_nonneg (o := o 1) (h := dx 1) (lo := j0) (hi := j1) (i := p.getD 1 0))
    have t2 := mul_nonneg r2 (bowl_nonneg (o := o 2) (h := dx 2) (lo := k0) (hi := k1) (i := p.getD 2 0))
    linarith
  have B := he.within (o := o) (φ := φ) (X := X) (D := D) (d := d) (τ := τ) (W := fun p => E + (S1 * bowl (o 1) (dx 1) j0 j1 (p.getD 1 0) + S2 * bowl (o 2) (dx 2) k0 k1 (p.getD 2 0)) + K * ((extent (dx 0) i0 i1 + dx 0) ^ 2 / 4 - bowl (o 0) (dx 0) i0 i1 (p.getD 0 0)))
    hd0 hd1 hd2 hp hX hN s0 s1 s2 b0 b1 b2 hd (fun i j k hi0 hi1 hj0 hj1 hk0 hk1 => ?_) hL (fun i j k hi0 hi1 hj0 hj1 hk0 hk1 => ?_)
  · refine (B p hp').trans ?_
    obtain ⟨i, j, k, rfl, h⟩ := inBounds3.1 hp'
    simp only [List.getD_cons_zero, List.getD_cons_succ]
    have z1 : S1 * bowl (o 1) (dx 1) j0 j1 j ≤ M1 * extent (dx 1) j0 j1 * dx 1 ^ 2 / 96 := by
      refine (mul_le_mul_of_nonneg_left (bowl_le hd1 (by omega) (by omega)) r1).trans (le_of_eq ?_)
      rw [eS1]
      field_simp
      ring
    have z2 : S2 * bowl (o 2) (dx 2) k0 k1 k ≤ M2 * extent (dx 2) k0 k1 * dx 2 ^ 2 / 96 := by
      refine (mul_le_mul_of_nonneg_left (bowl_le hd2 (by omega) (by omega)) r2).trans (le_of_eq ?_)
      rw [eS2]
      field_simp
      ring
    have zK : K * ((extent (dx 0) i0 i1 + dx 0) ^ 2 / 4 - bowl (o 0) (dx 0) i0 i1 i) ≤ (τ / (2 * beta) + ((M1 * dx 1 ^ 2 / (24 * extent (dx 1) j0 j1)) + (M2 * dx 2 ^ 2 / (24 * extent (dx 2) k0 k1)))) * ((extent (dx 0) i0 i1 + dx 0) ^ 2 / 4) + ε := by
      refine (mul_le_mul_of_nonneg_left (sub_le_self _ bowl_nonneg) K0).trans (le_of_eq ?_)
      rw [eK, ← eS1, ← eS2, add_mul, div_mul_cancel₀ _ R0.ne']
    linarith
  · refine ⟨?_, ?_, ?_, ?_, ?_, ?_⟩
    · rintro rfl
      refine ⟨?_, W0 _ hdE _ (by simp only [List.getD_cons_zero, List.getD_cons_succ]; omega) (by simp only [List.getD_cons_zero, List.getD_cons_succ]; omega), fun ⟨r, rm, _, rg, rb⟩ => absurd (ha r rm (by omega)) rb⟩
      · have u := W0 _ hm0 [i, j, k] (by simp only [List.getD_cons_zero, List.getD_cons_succ]; omega) (by simp only [List.getD_cons_zero, List.getD_cons_succ]; omega)
        have v := W0 _ hm0 [i - 1, j, k] (by simp only [List.getD_cons_zero, List.getD_cons_succ]; omega) (by simp only [List.getD_cons_zero, List.getD_cons_succ]; omega)
        linarith
    · rintro rfl
      refine ⟨?_, W0 _ hdE _ (by simp only [List.getD_cons_zero, List.getD_cons_succ]; omega) (by simp only [List.getD_cons_zero, List.getD_cons_succ]; omega), fun ⟨r, rm, _, rg, rb⟩ => absurd (ha r rm (by omega)) rb⟩
      · have u := W0 _ hm0 [i, j, k] (by simp only [List.getD_cons_zero, List.getD_cons_succ]; omega) (by simp only [List.getD_cons_zero, List.getD_cons_succ]; omega)
        have v := W0 _ hm0 [i + 1, j, k] (by simp only [List.getD_cons_zero, List.getD_cons_succ]; omega) (by simp only [List.getD_cons_zero, List.getD_cons_succ]; omega)
        linarith
    · rintro rfl
      refine ⟨?_, W0 _ hdE _ (by simp only [List.getD_cons_zero, List.getD_cons_succ]; omega) (by simp only [List.getD_cons_zero, List.getD_cons_succ]; omega), fun _ => ?_⟩
      · have u := W0 _ hm1 [i, j, k] (by simp only [List.getD_cons_zero, List.getD_cons_succ]; omega) (by simp only [List.getD_cons_zero, List.getD_cons_succ]; omega)
        have v := W0 _ hm1 [i, j - 1, k] (by simp only [List.getD_cons_zero, List.getD_cons_succ]; omega) (by simp only [List.getD_cons_zero, List.getD_cons_succ]; omega)
        linarith
      · have g := bowl_lo (o := o 1) (h := dx 1) (lo := j) (hi := j1)
        have := congrArg (S1 * ·) g
        simp only [List.getD_cons_zero, List.getD_cons_succ] at this ⊢
        rw [y1] at this
        linarith
    · rintro rfl
      refine ⟨?_, W0 _ hdE _ (by simp only [List.getD_cons_zero, List.getD_cons_succ]; omega) (by simp only [List.getD_cons_zero, List.getD_cons_succ]; omega), fun _ => ?_⟩
      · have u := W0 _ hm1 [i, j, k] (by simp only [List.getD_cons_zero, List.getD_cons_succ]; omega) (by simp only [List.getD_cons_zero, List.getD_cons_succ]; omega)
        have v := W0 _ hm1 [i, j + 1, k] (by simp only [List.getD_cons_zero, List.getD_cons_succ]; omega) (by simp only [List.getD_cons_zero, List.getD_cons_succ]; omega)
        linarith
      · have g := bowl_up (o := o 1) (h := dx 1) (lo := j0) (hi := j)
        have := congrArg (S1 * ·) g
        simp only [List.getD_cons_zero, List.getD_cons_succ] at this ⊢
        rw [y1] at this
        linarith
    · rintro rfl
      refine ⟨?_, W0 _ hdE _ (by simp only [List.getD_cons_zero, List.getD_cons_succ]; omega) (by simp only [List.getD_cons_zero, List.getD_cons_succ]; omega), fun _ => ?_⟩
      · have u := W0 _ hm2 [i, j, k] (by simp only [List.getD_cons_zero, List.getD_cons_succ]; omega) (by simp only [List.getD_cons_zero, List.getD_cons_succ]; omega)
        have v := W0 _ hm2 [i, j, k - 1] (by simp only [List.getD_cons_zero, List.getD_cons_succ]; omega) (by simp only [List.getD_cons_zero, List.getD_cons_succ]; omega)
        linarith
      · have g := bowl_lo (o := o 2) (h := dx 2) (lo := k) (hi := k1)
        have := congrArg (S2 * ·) g
        simp only [List.getD_cons_zero, List.getD_cons_succ] at this ⊢
        rw [y2] at this
        linarith
    · rintro rfl
      refine ⟨?_, W0 _ hdE _ (by simp only [List.getD_cons_zero, List.getD_cons_succ]; omega) (by simp only [List.getD_cons_zero, List.getD_cons_succ]; omega), fun _ => ?_⟩
      · have u := W0 _ hm2 [i, j, k] (by simp only [List.getD_cons_zero, List.getD_cons_succ]; omega) (by simp only [List.getD_cons_zero, List.getD_cons_succ]; omega)
        have v := W0 _ hm2 [i, j, k + 1] (by simp only [List.getD_cons_zero, List.getD_cons_succ]; omega) (by simp only [List.getD_cons_zero, List.getD_cons_succ]; omega)
        linarith
      · have g := bowl_up (o := o 2) (h := dx 2) (lo := k0) (hi := k)
        have := congrArg (S2 * ·) g
        simp only [List.getD_cons_zero, List.getD_cons_succ] at this ⊢
        rw [y2] at this
        linarith
  · have e : op3 0 beta dx (fun _ => 1) (fun _ => 1) (fun _ => 1) (fun _ => 1) (fun p => E + (S1 * bowl (o 1) (dx 1) j0 j1 (p.getD 1 0) + S2 * bowl (o 2) (dx 2) k0 k1 (p.getD 2 0)) + K * ((extent (dx 0) i0 i1 + dx 0) ^ 2 / 4 - bowl (o 0) (dx 0) i0 i1 (p.getD 0 0))) i j k = 2 * beta * (K - (S1 + S2)) := by
      have o : op3 0 beta dx (fun _ => 1) (fun _ => 1) (fun _ => 1) (fun _ => 1) (fun p => E + (S1 * bowl (o 1) (dx 1) j0 j1 (p.getD 1 0) + S2 * bowl (o 2) (dx 2) k0 k1 (p.getD 2 0)) + K * ((extent (dx 0) i0 i1 + dx 0) ^ 2 / 4 - bowl (o 0) (dx 0) i0 i1 (p.getD 0 0))) i j k = beta * (K * ((1 * (bowl (o 0) (dx 0) i0 i1 (i + 1) - bowl (o 0) (dx 0) i0 i1 i) / dx 0 - 1 * (bowl (o 0) (dx 0) i0 i1 i - bowl (o 0) (dx 0) i0 i1 (i - 1)) / dx 0) / dx 0)) - (beta * (S1 * ((1 * (bowl (o 1) (dx 1) j0 j1 (j + 1) - bowl (o 1) (dx 1) j0 j1 j) / dx 1 - 1 * (bowl (o 1) (dx 1) j0 j1 j - bowl (o 1) (dx 1) j0 j1 (j - 1)) / dx 1) / dx 1)) + beta * (S2 * ((1 * (bowl (o 2) (dx 2) k0 k1 (k + 1) - bowl (o 2) (dx 2) k0 k1 k) / dx 2 - 1 * (bowl (o 2) (dx 2) k0 k1 k - bowl (o 2) (dx 2) k0 k1 (k - 1)) / dx 2) / dx 2))) := by
        unfold op3
        simp only [List.getD_cons_zero, List.getD_cons_succ]
        ring
      rw [o, bowl_one hd0, bowl_one hd1, bowl_one hd2]
      ring
    rw [e]
    have lt : τ < 2 * beta * (K - (S1 + S2)) := by
      have : 0 < 2 * beta * (ε / ((extent (dx 0) i0 i1 + dx 0) ^ 2 / 4)) := by positivity
      rw [eK]
      have c : 2 * beta * (τ / (2 * beta)) = τ := by field_simp
      linarith
    exact ⟨lt.le, Or.inr lt⟩

/-- the error without a reaction term, given values across axis 1 -/
theorem Elliptic3.convp1 {i0 j0 k0 i1 j1 k1 : Int} {beta d τ E : ℝ} {dx o : Nat → ℝ} {φ : ℝ → ℝ → ℝ → ℝ} {X D : List Int → ℝ} {ps : List (Piece ℝ)} {m0 M0 m1 M1 m2 M2 : ℝ} (hi : i0 ≤ i1) (hj : j0 ≤ j1) (hk : k0 ≤ k1) (hd0 : 0 < dx 0) (hd1 : 0 < dx 1) (hd2 : 0 < dx 2)
    (he : Elliptic3 i0 j0 k0 i1 j1 k1 0 beta dx (fun _ => 1) (fun _ => 1) (fun _ => 1) (fun _ => 1)) (hp : Pieces [(i0, i1), (j0, j1), (k0, k1)] 7 (row points3) ps) (hX : Fulfils [(i0, i1), (j0, j1), (k0, k1)] 7 (row points3) ps D X)
    (hN : Exact dx (row points3) ps D (normal3 o dx φ)) (s0 : ∀ j, j0 ≤ j → j ≤ j1 → ∀ k, k0 ≤ k → k ≤ k1 → ContDiff ℝ 4 (fun s => φ s (centre (o 1) (dx 1) j) (centre (o 2) (dx 2) k))) (s1 : ∀ i, i0 ≤ i → i ≤ i1 → ∀ k, k0 ≤ k → k ≤ k1 → ContDiff ℝ 4 (fun s => φ (centre (o 0) (dx 0) i) s (centre (o 2) (dx 2) k))) (s2 : ∀ i, i0 ≤ i → i ≤ i1 → ∀ j, j0 ≤ j → j ≤ j1 → ContDiff ℝ 4 (fun s => φ (centre (o 0) (dx 0) i) (centre (o 1) (dx 1) j) s))
    (b0 : ∀ j, j0 ≤ j → j ≤ j1 → ∀ k, k0 ≤ k → k ≤ k1 → Bends (fun s => φ s (centre (o 1) (dx 1) j) (centre (o 2) (dx 2) k)) (centre (o 0) (dx 0) (i0 - 1)) (centre (o 0) (dx 0) (i1 + 1)) m0 M0) (b1 : ∀ i, i0 ≤ i → i ≤ i1 → ∀ k, k0 ≤ k → k ≤ k1 → Bends (fun s => φ (centre (o 0) (dx 0) i) s (centre (o 2) (dx 2) k)) (centre (o 1) (dx 1) (j0 - 1)) (centre (o 1) (dx 1) (j1 + 1)) m1 M1) (b2 : ∀ i, i0 ≤ i → i ≤ i1 → ∀ j, j0 ≤ j → j ≤ j1 → Bends (fun s => φ (centre (o 0) (dx 0) i) (centre (o 1) (dx 1) j) s) (centre (o 2) (dx 2) (k0 - 1)) (centre (o 2) (dx 2) (k1 + 1)) m2 M2)
    (hd : ∀ p, InBounds [(i0, i1), (j0, j1), (k0, k1)] p → ∀ e, 1 ≤ e → e ≤ 7 - 1 → ¬ InBounds [(i0, i1), (j0, j1), (k0, k1)] (shift p (row points3 e)) → (∀ k ∈ ps, k.cells p → k.ghost ≠ e) →
      |D (shift p (row points3 e)) - cells3 o dx φ (shift p (row points3 e))| ≤ d)
    (hL : ∀ i j k, i0 ≤ i → i ≤ i1 → j0 ≤ j → j ≤ j1 → k0 ≤ k → k ≤ k1 → |op3 0 beta dx (fun _ => 1) (fun _ => 1) (fun _ => 1) (fun _ => 1) X i j k - op3 0 beta dx (fun _ => 1) (fun _ => 1) (fun _ => 1) (fun _ => 1) (cells3 o dx φ) i j k| ≤ τ)
    (ha : ∀ r ∈ ps, r.ghost = 3 ∨ r.ghost = 4 → r.btype = 0) (hdE : d ≤ E) (hm0 : m0 * dx 0 ^ 2 / 8 ≤ E) (hm1 : m1 * dx 1 ^ 2 / 8 ≤ E) (hm2 : m2 * dx 2 ^ 2 / 8 ≤ E) :
    ∀ p, InBounds [(i0, i1), (j0, j1), (k0, k1)] p → |X p - cells3 o dx φ p| ≤ E + (M0 * extent (dx 0) i0 i1 * dx 0 ^ 2 / 96 + M2 * extent (dx 2) k0 k1 * dx 2 ^ 2 / 96) + (τ / (2 * beta) + ((M0 * dx 0 ^ 2 / (24 * extent (dx 0) i0 i1)) + (M2 * dx 2 ^ 2 / (24 * extent (dx 2) k0 k1)))) * ((extent (dx 1) j0 j1 + dx 1) ^ 2 / 4) := by
  have τ0 : 0 ≤ τ := (abs_nonneg _).trans (hL i0 j0 k0 le_rfl hi le_rfl hj le_rfl hk)
  have x0 := extent_pos hd0 hi
  have p0 : 0 ≤ M0 := (abs_nonneg _).trans (b0 j0 le_rfl hj k0 le_rfl hk (centre (o 0) (dx 0) i0) (centre_mono hd0 (by omega)) (centre_mono hd0 (by omega))).2
  obtain ⟨S0, eS0⟩ : ∃ S, S = (M0 * dx 0 ^ 2 / (24 * extent (dx 0) i0 i1)) := ⟨_, rfl⟩
  have r0 : 0 ≤ S0 := by rw [eS0]; positivity
  have y0 : S0 * (dx 0 * extent (dx 0) i0 i1) = M0 * dx 0 ^ 3 / 24 := by rw [eS0]; field_simp
  have x1 := extent_pos hd1 hj
  have p1 : 0 ≤ M1 := (abs_nonneg _).trans (b1 i0 le_rfl hi k0 le_rfl hk (centre (o 1) (dx 1) j0) (centre_mono hd1 (by omega)) (centre_mono hd1 (by omega))).2
  obtain ⟨S1, eS1⟩ : ∃ S, S = (M1 * dx 1 ^ 2 / (24 * extent (dx 1) j0 j1)) := ⟨_, rfl⟩
  have r1 : 0 ≤ S1 := by rw [eS1]; positivity
  have y1 : S1 * (dx 1 * extent (dx 1) j0 j1) = M1 * dx 1 ^ 3 / 24 := by rw [eS1]; field_simp
  have x2 := extent_pos hd2 hk
  have p2 : 0 ≤ M2 := (abs_nonneg _).trans (b2 i0 le_rfl hi j0 le_rfl hj (centre (o 2) (dx 2) k0) (centre_mono hd2 (by omega)) (centre_mono hd2 (by omega))).2
  obtain ⟨S2, eS2⟩ : ∃ S, S = (M2 * dx 2 ^ 2 / (24 * extent (dx 2) k0 k1)) := ⟨_, rfl⟩
  have r2 : 0 ≤ S2 := by rw [eS2]; positivity
  have y2 : S2 * (dx 2 * extent (dx 2) k0 k1) = M2 * dx 2 ^ 3 / 24 := by rw [eS2]; field_simp
  intro p hp'
  refine le_of_forall_pos_le_add fun ε hε => ?_
  have R0 : 0 < (extent (dx 1) j0 j1 + dx 1) ^ 2 / 4 := by positivity
  obtain ⟨K, eK⟩ : ∃ K, K = τ / (2 * beta) + (S0 + S2) + ε / ((extent (dx 1) j0 j1 + dx 1) ^ 2 / 4) := ⟨_, rfl⟩
  have bp := he.beta
  have K0 : 0 ≤ K := by rw [eK]; positivity
  have W0 : ∀ d' : ℝ, d' ≤ E → ∀ p : List Int, j0 - 1 ≤ p.getD 1 0 → p.getD 1 0 ≤ j1 + 1 → d' ≤ E + (S0 * bowl (o 0) (dx 0) i0 i1 (p.getD 0 0) + S2 * bowl (o 2) (dx 2) k0 k1 (p.getD 2 0)) + K * ((extent (dx 1) j0 j1 + dx 1) ^ 2 / 4 - bowl (o 1) (dx 1) j0 j1 (p.getD 1 0)) := fun d' hd' p pa pb => by
    have t := mul_nonneg K0 (sub_nonneg.2 (bowl_top (o := o 1) hd1 pa pb))
    have t0 := mul_nonneg r0 (bowl_nonneg (o := o 0) (h := dx 0) (lo := i0) (hi := i1) (i := p.getD 0 0))
    have t2 := mul_nonneg r2 (bowl_nonneg (o := o 2) (h := dx 2) (lo := k0) (hi := k1) (i := p.getD 2 0))
    linarith
  have B := he.within (o := o) (φ := φ) (X := X) (D := D) (d := d) (τ := τ) (W := fun p => E + (S0 * bowl (o 0) (dx 0) i0 i1 (p.getD 0 0) + S2 * bowl (o 2) (dx 2) k0 k1 (p.getD 2 0)) + K * ((extent (dx 1) j0 j1 + dx 1) ^ 2 / 4 - bowl (o 1) (dx 1) j0 j1 (p.getD 1 0)))
    hd0 hd1 hd2 hp hX hN s0 s1 s2 b0 b1 b2 hd (fun i j k hi0 hi1 hj0 hj1 hk0 hk1 => ?_) hL (fun i j k hi0 hi1 hj0 hj1 hk0 hk1 => ?_)
  · refine (B p hp').trans ?_
    obtain ⟨i, j, k, rfl, h⟩ := inBounds3.1 hp'
    simp only [List.getD_cons_zero, List.getD_cons_succ]
    have z0 : S0 * bowl (o 0) (dx 0) i0 i1 i ≤ M0 * extent (dx 0) i0 i1 * dx 0 ^ 2 / 96 := by
      refine (mul_le_mul_of_nonneg_left (bowl_le hd0 (by omega) (by omega)) r0).trans (le_of_eq ?_)
      rw [eS0]
      field_simp
      ring
    have z2 : S2 * bowl (o 2) (dx 2) k0 k1 k ≤ M2 * extent (dx 2) k0 k1 * dx 2 ^ 2 / 96 := by
      refine (mul_le_mul_of_nonneg_left (bowl_le hd2 (by omega) (by omega)) r2).trans (le_of_eq ?_)
      rw [eS2]
      field_simp
      ring
    have zK : K * ((extent (dx 1) j0 j1 + dx 1) ^ 2 / 4 - bowl (o 1) (dx 1) j0 j1 j) ≤ (τ / (2 * beta) + ((M0 * dx 0 ^ 2 / (24 * extent (dx 0) i0 i1)) + (M2 * dx 2 ^ 2 / (24 * extent (dx 2) k0 k1)))) * ((extent (dx 1) j0 j1 + dx 1) ^ 2 / 4) + ε := by
      refine (mul_le_mul_of_nonneg_left (sub_le_self _ bowl_nonneg) K0).trans (le_of_eq ?_)
      rw [eK, ← eS0, ← eS2, add_mul, div_mul_cancel₀ _ R0.ne']
    linarith
  · refine ⟨?_, ?_, ?_, ?_, ?_, ?_⟩
    · rintro rfl
      refine ⟨?_, W0 _ hdE _ (by simp only [List.getD_cons_zero, List.getD_cons_succ]; omega) (by simp only [List.getD_cons_zero, List.getD_cons_succ]; omega), fun _ => ?_⟩
      · have u := W0 _ hm0 [i, j, k] (by simp only [List.getD_cons_zero, List.getD_cons_succ]; omega) (by simp only [List.getD_cons_zero, List.getD_cons_succ]; omega)
        have v := W0 _ hm0 [i - 1, j, k] (by simp only [List.getD_cons_zero, List.getD_cons_succ]; omega) (by simp only [List.getD_cons_zero, List.getD_cons_succ]; omega)
        linarith
      · have g := bowl_lo (o := o 0) (h := dx 0) (lo := i) (hi := i1)
        have := congrArg (S0 * ·) g
        simp only [List.getD_cons_zero, List.getD_cons_succ] at this ⊢
        rw [y0] at this
        linarith
    · rintro rfl
      refine ⟨?_, W0 _ hdE _ (by simp only [List.getD_cons_zero, List.getD_cons_succ]; omega) (by simp only [List.getD_cons_zero, List.getD_cons_succ]; omega), fun _ => ?_⟩
      · have u := W0 _ hm0 [i, j, k] (by simp only [List.getD_cons_zero, List.getD_cons_succ]; omega) (by simp only [List.getD_cons_zero, List.getD_cons_succ]; omega)
        have v := W0 _ hm0 [i + 1, j, k] (by simp only [List.getD_cons_zero, List.getD_cons_succ]; omega) (by simp only [List.getD_cons_zero, List.getD_cons_succ]; omega)
        linarith
      · have g := bowl_up (o := o 0) (h := dx 0) (lo := i0) (hi := i)
        have := congrArg (S0 * ·) g
        simp only [List.getD_cons_zero, List.getD_cons_succ] at this ⊢
        rw [y0] at this
        linarith
    · rintro rfl
      refine ⟨?_, W0 _ hdE _ (by simp only [List.getD_cons_zero, List.getD_cons_succ]; omega) (by simp only [List.getD_cons_zero, List.getD_cons_succ]; omega), fun ⟨r, rm, _, rg, rb⟩ => absurd (ha r rm (by omega)) rb⟩
      · have u := W0 _ hm1 [i, j, k] (by simp only [List.getD_cons_zero, List.getD_cons_succ]; omega) (by simp only [List.getD_cons_zero, List.getD_cons_succ]; omega)
        have v := W0 _ hm1 [i, j - 1, k] (by simp only [List.getD_cons_zero, List.getD_cons_succ]; omega) (by simp only [List.getD_cons_zero, List.getD_cons_succ]; omega)
        linarith
    · rintro rfl
      refine ⟨?_, W0 _ hdE _ (by simp only [List.getD_cons_zero, List.getD_cons_succ]; omega) (by simp only [List.getD_cons_zero, List.getD_cons_succ]; omega), fun ⟨r, rm, _, rg, rb⟩ => absurd (ha r rm (by omega)) rb⟩
      · have u := W0 _ hm1 [i, j, k] (by simp only [List.getD_cons_zero, List.getD_cons_succ]; omega) (by simp only [List.getD_cons_zero, List.getD_cons_succ]; omega)
        have v := W0 _ hm1 [i, j + 1, k] (by simp only [List.getD_cons_zero, List.getD_cons_succ]; omega) (by simp only [List.getD_cons_zero, List.getD_cons_succ]; omega)
        linarith
    · rintro rfl
      refine ⟨?_, W0 _ hdE _ (by simp only [List.getD_cons_zero, List.getD_cons_succ]; omega) (by simp only [List.getD_cons_zero, List.getD_cons_succ]; omega), fun _ => ?_⟩
      · have u := W0 _ hm2 [i, j, k] (by simp only [List.getD_cons_zero, List.getD_cons_succ]; omega) (by simp only [List.getD_cons_zero, List.getD_cons_succ]; omega)
        have v := W0 _ hm2 [i, j, k - 1] (by simp only [List.getD_cons_zero, List.getD_cons_succ]; omega) (by simp only [List.getD_cons_zero, List.getD_cons_succ]; omega)
        linarith
      · have g := bowl_lo (o := o 2) (h := dx 2) (lo := k) (hi := k1)
        have := congrArg (S2 * ·) g
        simp only [List.getD_cons_zero, List.getD_cons_succ] at this ⊢
        rw [y2] at this
        linarith
    · rintro rfl
      refine ⟨?_, W0 _ hdE _ (by simp only [List.getD_cons_zero, List.getD_cons_succ]; omega) (by simp only [List.getD_cons_zero, List.getD_cons_succ]; omega), fun _ => ?_⟩
      · have u := W0 _ hm2 [i, j, k] (by simp only [List.getD_cons_zero, List.getD_cons_succ]; omega) (by simp only [List.getD_cons_zero, List.getD_cons_succ]; omega)
        have v := W0 _ hm2 [i, j, k + 1] (by simp only [List.getD_cons_zero, List.getD_cons_succ]; omega) (by simp only [List.getD_cons_zero, List.getD_cons_succ]; omega)
        linarith
      · have g := bowl_up (o := o 2) (h := dx 2) (lo := k0) (hi := k)
        have := congrArg (S2 * ·) g
        simp only [List.getD_cons_zero, List.getD_cons_succ] at this ⊢
        rw [y2] at this
        linarith
  · have e : op3 0 beta dx (fun _ => 1) (fun _ => 1) (fun _ => 1) (fun _ => 1) (fun p => E + (S0 * bowl (o 0) (dx 0) i0 i1 (p.getD 0 0) + S2 * bowl (o 2) (dx 2) k0 k1 (p.getD 2 0)) + K * ((extent (dx 1) j0 j1 + dx 1) ^ 2 / 4 - bowl (o 1) (dx 1) j0 j1 (p.getD 1 0))) i j k = 2 * beta * (K - (S0 + S2)) := by
      have o : op3 0 beta dx (fun _ => 1) (fun _ => 1) (fun _ => 1) (fun _ => 1) (fun p => E + (S0 * bowl (o 0) (dx 0) i0 i1 (p.getD 0 0) + S2 * bowl (o 2) (dx 2) k0 k1 (p.getD 2 0)) + K * ((extent (dx 1) j0 j1 + dx 1) ^ 2 / 4 - bowl (o 1) (dx 1) j0 j1 (p.getD 1 0))) i j k = beta * (K * ((1 * (bowl (o 1) (dx 1) j0 j1 (j + 1) - bowl (o 1) (dx 1) j0 j1 j) / dx 1 - 1 * (bowl (o 1) (dx 1) j0 j1 j - bowl (o 1) (dx 1) j0 j1 (j - 1)) / dx 1) / dx 1)) - (beta * (S0 * ((1 * (bowl (o 0) (dx 0) i0 i1 (i + 1) - bowl (o 0) (dx 0) i0 i1 i) / dx 0 - 1 * (bowl (o 0) (dx 0) i0 i1 i - bowl (o 0) (dx 0) i0 i1 (i - 1)) / dx 0) / dx 0)) + beta * (S2 * ((1 * (bowl (o 2) (dx 2) k0 k1 (k + 1) - bowl (o 2) (dx 2) k0 k1 k) / dx 2 - 1 * (bowl (o 2) (dx 2) k0 k1 k - bowl (o 2) (dx 2) k0 k1 (k - 1)) / dx 2) / dx 2))) := by
        unfold op3
        simp only [List.getD_cons_zero, List.getD_cons_succ]
        ring
      rw [o, bowl_one hd1, bowl_one hd0, bowl_one hd2]
      ring
    rw [e]
    have lt : τ < 2 * beta * (K - (S0 + S2)) := by
      have : 0 < 2 * beta * (ε / ((extent (dx 1) j0 j1 + dx 1) ^ 2 / 4)) := by positivity
      rw [eK]
      have c : 2 * beta * (τ / (2 * beta)) = τ := by field_simp
      linarith
    exact ⟨lt.le, Or.inr lt⟩

/-- the error without a reaction term, given values across axis 2 -/
theorem Elliptic3.convp2 {i0 j0 k0 i1 j1 k1 : Int} {beta d τ E : ℝ} {dx o : Nat → ℝ} {φ : ℝ → ℝ → ℝ → ℝ} {X D : List Int → ℝ} {ps : List (Piece ℝ)} {m0 M0 m1 M1 m2 M2 : ℝ} (hi : i0 ≤ i1) (hj : j0 ≤ j1) (hk : k0 ≤ k1) (hd0 : 0 < dx 0) (hd1 : 0 < dx 1) (hd2 : 0 < dx 2)
    (he : Elliptic3 i0 j0 k0 i1 j1 k1 0 beta dx (fun _ => 1) (fun _ => 1) (fun _ => 1) (fun _ => 1)) (hp : Pieces [(i0, i1), (j0, j1), (k0, k1)] 7 (row points3) ps) (hX : Fulfils [(i0, i1), (j0, j1), (k0, k1)] 7 (row points3) ps D X)
    (hN : Exact dx (row points3) ps D (normal3 o dx φ)) (s0 : ∀ j, j0 ≤ j → j ≤ j1 → ∀ k, k0 ≤ k → k ≤ k1 → ContDiff ℝ 4 (fun s => φ s (centre (o 1) (dx 1) j) (centre (o 2) (dx 2) k))) (s1 : ∀ i, i0 ≤ i → i ≤ i1 → ∀ k, k0 ≤ k → k ≤ k1 → ContDiff ℝ 4 (fun s => φ (centre (o 0) (dx 0) i) s (centre (o 2) (dx 2) k))) (s2 : ∀ i, i0 ≤ i → i ≤ i1 → ∀ j, j0 ≤ j → j ≤ j1 → ContDiff ℝ 4 (fun s => φ (centre (o 0) (dx 0) i) (centre (o 1) (dx 1) j) s))
    (b0 : ∀ j, j0 ≤ j → j ≤ j1 → ∀ k, k0 ≤ k → k ≤ k1 → Bends (fun s => φ s (centre (o 1) (dx 1) j) (centre (o 2) (dx 2) k)) (centre (o 0) (dx 0) (i0 - 1)) (centre (o 0) (dx 0) (i1 + 1)) m0 M0) (b1 : ∀ i, i0 ≤ i → i ≤ i1 → ∀ k, k0 ≤ k → k ≤ k1 → Bends (fun s => φ (centre (o 0) (dx 0) i) s (centre (o 2) (dx 2) k)) (centre (o 1) (dx 1) (j0 - 1)) (centre (o 1) (dx 1) (j1 + 1)) m1 M1) (b2 : ∀ i, i0 ≤ i → i ≤ i1 → ∀ j, j0 ≤ j → j ≤ j1 → Bends (fun s => φ (centre (o 0) (dx 0) i) (centre (o 1) (dx 1) j) s) (centre (o 2) (dx 2) (k0 - 1)) (centre (o 2) (dx 2) (k1 + 1)) m2 M2)
    (hd : ∀ p, InBounds [(i0, i1), (j0, j1), (k0, k1)] p → ∀ e, 1 ≤ e → e ≤ 7 - 1 → ¬ InBounds [(i0, i1), (j0, j1), (k0, k1)] (shift p (row points3 e)) → (∀ k ∈ ps, k.cells p → k.ghost ≠ e) →
      |D (shift p (row points3 e)) - cells3 o dx φ (shift p (row points3 e))| ≤ d)
    (hL : ∀ i j k, i0 ≤ i → i ≤ i1 → j0 ≤ j → j ≤ j1 → k0 ≤ k → k ≤ k1 → |op3 0 beta dx (fun _ => 1) (fun _ => 1) (fun _ => 1) (fun _ => 1) X i j k - op3 0 beta dx (fun _ => 1) (fun _ => 1) (fun _ => 1) (fun _ => 1) (cells3 o dx φ) i j k| ≤ τ)
    (ha : ∀ r ∈ ps, r.ghost = 5 ∨ r.ghost = 6 → r.btype = 0) (hdE : d ≤ E) (hm0 : m0 * dx 0 ^ 2 / 8 ≤ E) (hm1 : m1 * dx 1 ^ 2 / 8 ≤ E) (hm2 : m2 * dx 2 ^ 2 / 8 ≤ E) :
    ∀ p, InBounds [(i0, i1), (j0, j1), (k0, k1)] p → |X p - cells3 o dx φ p| ≤ E + (M0 * extent (dx 0) i0 i1 * dx 0 ^ 2 / 96 + M1 * extent (dx 1) j0 j1 * dx 1 ^ 2 / 96) + (τ / (2 * beta) + ((M0 * dx 0 ^ 2 / (24 * extent (dx 0) i0 i1)) + (M1 * dx 1 ^ 2 / (24 * extent (dx 1) j0 j1)))) * ((extent (dx 2) k0 k1 + dx 2) ^ 2 / 4) := by
  have τ0 : 0 ≤ τ := (abs_nonneg _).trans (hL i0 j0 k0 le_rfl hi le_rfl hj le_rfl hk)
  have x0 := extent_pos hd0 hi
  have p0 : 0 ≤ M0 := (abs_nonneg _).trans (b0 j0 le_rfl hj k0 le_rfl hk (centre (o 0) (dx 0) i0) (centre_mono hd0 (by omega)) (centre_mono hd0 (by omega))).2
  obtain ⟨S0, eS0⟩ : ∃ S, S = (M0 * dx 0 ^ 2 / (24 * extent (dx 0) i0 i1)) := ⟨_, rfl⟩
  have r0 : 0 ≤ S0 := by rw [eS0]; positivity
  have y0 : S0 * (dx 0 * extent (dx 0) i0 i1) = M0 * dx 0 ^ 3 / 24 := by rw [eS0]; field_simp
  have x1 := extent_pos hd1 hj
  have p1 : 0 ≤ M1 := (abs_nonneg _).trans (b1 i0 le_rfl hi k0 le_rfl hk (centre (o 1) (dx 1) j0) (centre_mono hd1 (by omega)) (centre_mono hd1 (by omega))).2
  obtain ⟨S1, eS1⟩ : ∃ S, S = (M1 * dx 1 ^ 2 / (24 * extent (dx 1) j0 j1)) := ⟨_, rfl⟩
  have r1 : 0 ≤ S1 := by rw [eS1]; positivity
  have y1 : S1 * (dx 1 * extent (dx 1) j0 j1) = M1 * dx 1 ^ 3 / 24 := by rw [eS1]; field_simp
  have x2 := extent_pos hd2 hk
  have p2 : 0 ≤ M2 := (abs_nonneg _).trans (b2 i0 le_rfl hi j0 le_rfl hj (centre (o 2) (dx 2) k0) (centre_mono hd2 (by omega)) (centre_mono hd2 (by omega))).2
  obtain ⟨S2, eS2⟩ : ∃ S, S = (M2 * dx 2 ^ 2 / (24 * extent (dx 2) k0 k1)) := ⟨_, rfl⟩
  have r2 : 0 ≤ S2 := by rw [eS2]; positivity
  have y2 : S2 * (dx 2 * extent (dx 2) k0 k1) = M2 * dx 2 ^ 3 / 24 := by rw [eS2]; field_simp
  intro p hp'
  refine le_of_forall_pos_le_add fun ε hε => ?_
  have R0 : 0 < (extent (dx 2) k0 k1 + dx 2) ^ 2 / 4 := by positivity
  obtain ⟨K, eK⟩ : ∃ K, K = τ / (2 * beta) + (S0 + S1) + ε / ((extent (dx 2) k0 k1 + dx 2) ^ 2 / 4) := ⟨_, rfl⟩
  have bp := he.beta
  have K0 : 0 ≤ K := by rw [eK]; positivity
  have W0 : ∀ d' : ℝ, d' ≤ E → ∀ p : List Int, k0 - 1 ≤ p.getD 2 0 → p.getD 2 0 ≤ k1 + 1 → d' ≤ E + (S0 * bowl (o 0) (dx 0) i0 i1 (p.getD 0 0) + S1 * bowl (o 1) (dx 1) j0 j1 (p.getD 1 0)) + K * ((extent (dx 2) k0 k1 + dx 2) ^ 2 / 4 - bowl (o 2) (dx 2) k0 k1 (p.getD 2 0)) := fun d' hd' p pa pb => by
    have t := mul_nonneg K0 (sub_nonneg.2 (bowl_top (o := o 2) hd2 pa pb))
    have t0 := mul_nonneg r0 (bowl_nonneg (o := o 0) (h := dx 0) (lo := i0) (hi := i1) (i := p.getD 0 0))
    have t1 := mul_nonneg r1 (bowl_nonneg (o := o 1) (h := dx 1) (lo := j0) (hi := j1) (i := p.getD 1 0))
    linarith
  have B := he.within (o := o) (φ := φ) (X := X) (D := D) (d := d) (τ := τ) (W := fun p => E + (S0 * bowl (o 0) (dx 0) i0 i1 (p.getD 0 0) + S1 * bowl (o 1) (dx 1) j0 j1 (p.getD 1 0)) + K * ((extent (dx 2) k0 k1 + dx 2) ^ 2 / 4 - bowl (o 2) (dx 2) k0 k1 (p.getD 2 0)))
    hd0 hd1 hd2 hp hX hN s0 s1 s2 b0 b1 b2 hd (fun i j k hi0 hi1 hj0 hj1 hk0 hk1 => ?_) hL (fun i j k hi0 hi1 hj0 hj1 hk0 hk1 => ?_)
  · refine (B p hp').trans ?_
    obtain ⟨i, j, k, rfl, h⟩ := inBounds3.1 hp'
    simp only [List.getD_cons_zero, List.getD_cons_succ]
    have z0 : S0 * bowl (o 0) (dx 0) i0 i1 i ≤ M0 * extent (dx 0) i0 i1 * dx 0 ^ 2 / 96 := by
      refine (mul_le_mul_of_nonneg_left (bowl_le hd0 (by omega) (by omega)) r0).trans (le_of_eq ?_)
      rw [eS0]
      field_simp
      ring
    have z1 : S1 * bowl (o 1) (dx 1) j0 j1 j ≤ M1 * extent (dx 1) j0 j1 * dx 1 ^ 2 / 96 := by
      refine (mul_le_mul_of_nonneg_left (bowl_le hd1 (by omega) (by omega)) r1).trans (le_of_eq ?_)
      rw [eS1]
      field_simp
      ring
    have zK : K * ((extent (dx 2) k0 k1 + dx 2) ^ 2 / 4 - bowl (o 2) (dx 2) k0 k1 k) ≤ (τ / (2 * beta) + ((M0 * dx 0 ^ 2 / (24 * extent (dx 0) i0 i1)) + (M1 * dx 1 ^ 2 / (24 * extent (dx 1) j0 j1)))) * ((extent (dx 2) k0 k1 + dx 2) ^ 2 / 4) + ε := by
      refine (mul_le_mul_of_nonneg_left (sub_le_self _ bowl_nonneg) K0).trans (le_of_eq ?_)
      rw [eK, ← eS0, ← eS1, add_mul, div_mul_cancel₀ _ R0.ne']
    linarith
  · refine ⟨?_, ?_, ?_, ?_, ?_, ?_⟩
    · rintro rfl
      refine ⟨?_, W0 _ hdE _ (by simp only [List.getD_cons_zero, List.getD_cons_succ]; omega) (by simp only [List.getD_cons_zero, List.getD_cons_succ]; omega), fun _ => ?_⟩
      · have u := W0 _ hm0 [i, j, k] (by simp only [List.getD_cons_zero, List.getD_cons_succ]; omega) (by simp only [List.getD_cons_zero, List.getD_cons_succ]; omega)
        have v := W0 _ hm0 [i - 1, j, k] (by simp only [List.getD_cons_zero, List.getD_cons_succ]; omega) (by simp only [List.getD_cons_zero, List.getD_cons_succ]; omega)
        linarith
      · have g := bowl_lo (o := o 0) (h := dx 0) (lo := i) (hi := i1)
        have := congrArg (S0 * ·) g
        simp only [List.getD_cons_zero, List.getD_cons_succ] at this ⊢
        rw [y0] at this
        linarith
    · rintro rfl
      refine ⟨?_, W0 _ hdE _ (by simp only [List.getD_cons_zero, List.getD_cons_succ]; omega) (by simp only [List.getD_cons_zero, List.getD_cons_succ]; omega), fun _ => ?_⟩
      · have u := W0 _ hm0 [i, j, k] (by simp only [List.getD_cons_zero, List.getD_cons_succ]; omega) (by simp only [List.getD_cons_zero, List.getD_cons_succ]; omega)
        have v := W0 _ hm0 [i + 1, j, k] (by simp only [List.getD_cons_zero, List.getD_cons_succ]; omega) (by simp only [List.getD_cons_zero, List.getD_cons_succ]; omega)
        linarith
      · have g := bowl_up (o := o 0) (h := dx 0) (lo := i0) (hi := i)
        have := congrArg (S0 * ·) g
        simp only [List.getD_cons_zero, List.getD_cons_succ] at this ⊢
        rw [y0] at this
        linarith
    · rintro rfl
      refine ⟨?_, W0 _ hdE _ (by simp only [List.getD_cons_zero, List.getD_cons_succ]; omega) (by simp only [List.getD_cons_zero, List.getD_cons_succ]; omega), fun _ => ?_⟩
      · have u := W0 _ hm1 [i, j, k] (by simp only [List.getD_cons_zero, List.getD_cons_succ]; omega) (by simp only [List.getD_cons_zero, List.getD_cons_succ]; omega)
        have v := W0 _ hm1 [i, j - 1, k] (by simp only [List.getD_cons_zero, List.getD_cons_succ]; omega) (by simp only [List.getD_cons_zero, List.getD_cons_succ]; omega)
        linarith
      · have g := bowl_lo (o := o 1) (h := dx 1) (lo := j) (hi := j1)
        have := congrArg (S1 * ·) g
        simp only [List.getD_cons_zero, List.getD_cons_succ] at this ⊢
        rw [y1] at this
        linarith
    · rintro rfl
      refine ⟨?_, W0 _ hdE _ (by simp only [List.getD_cons_zero, List.getD_cons_succ]; omega) (by simp only [List.getD_cons_zero, List.getD_cons_succ]; omega), fun _ => ?_⟩
      · have u := W0 _ hm1 [i, j, k] (by simp only [List.getD_cons_zero, List.getD_cons_succ]; omega) (by simp only [List.getD_cons_zero, List.getD_cons_succ]; omega)
        have v := W0 _ hm1 [i, j + 1, k] (by simp only [List.getD_cons_zero, List.getD_cons_succ]; omega) (by simp only [List.getD_cons_zero, List.getD_cons_succ]; omega)
        linarith
      · have g := bowl_up (o := o 1) (h := dx 1) (lo := j0) (hi := j)
        have := congrArg (S1 * ·) g
        simp only [List.getD_cons_zero, List.getD_cons_succ] at this ⊢
        rw [y1] at this
        linarith
    · rintro rfl
      refine ⟨?_, W0 _ hdE _ (by simp only [List.getD_cons_zero, List.getD_cons_succ]; omega) (by simp only [List.getD_cons_zero, List.getD_cons_succ]; omega), fun ⟨r, rm, _, rg, rb⟩ => absurd (ha r rm (by omega)) rb⟩
      · have u := W0 _ hm2 [i, j, k] (by simp only [List.getD_cons_zero, List.getD_cons_succ]; omega) (by simp only [List.getD_cons_zero, List.getD_cons_succ]; omega)
        have v := W0 _ hm2 [i, j, k - 1] (by simp only [List.getD_cons_zero, List.getD_cons_succ]; omega) (by simp only [List.getD_cons_zero, List.getD_cons_succ]; omega)
        linarith
    · rintro rfl
      refine ⟨?_, W0 _ hdE _ (by simp only [List.getD_cons_zero, List.getD_cons_succ]; omega) (by simp only [List.getD_cons_zero, List.getD_cons_succ]; omega), fun ⟨r, rm, _, rg, rb⟩ => absurd (ha r rm (by omega)) rb⟩
      · have u := W0 _ hm2 [i, j, k] (by simp only [List.getD_cons_zero, List.getD_cons_succ]; omega) (by simp only [List.getD_cons_zero, List.getD_cons_succ]; omega)
        have v := W0 _ hm2 [i, j, k + 1] (by simp only [List.getD_cons_zero, List.getD_cons_succ]; omega) (by simp only [List.getD_cons_zero, List.getD_cons_succ]; omega)
        linarith
  · have e : op3 0 beta dx (fun _ => 1) (fun _ => 1) (fun _ => 1) (fun _ => 1) (fun p => E + (S0 * bowl (o 0) (dx 0) i0 i1 (p.getD 0 0) + S1 * bowl (o 1) (dx 1) j0 j1 (p.getD 1 0)) + K * ((extent (dx 2) k0 k1 + dx 2) ^ 2 / 4 - bowl (o 2) (dx 2) k0 k1 (p.getD 2 0))) i j k = 2 * beta * (K - (S0 + S1)) := by
      have o : op3 0 beta dx (fun _ => 1) (fun _ => 1) (fun _ => 1) (fun _ => 1) (fun p => E + (S0 * bowl (o 0) (dx 0) i0 i1 (p.getD 0 0) + S1 * bowl (o 1) (dx 1) j0 j1 (p.getD 1 0)) + K * ((extent (dx 2) k0 k1 + dx 2) ^ 2 / 4 - bowl (o 2) (dx 2) k0 k1 (p.getD 2 0))) i j k = beta * (K * ((1 * (bowl (o 2) (dx 2) k0 k1 (k + 1) - bowl (o 2) (dx 2) k0 k1 k) / dx 2 - 1 * (bowl (o 2) (dx 2) k0 k1 k - bowl (o 2) (dx 2) k0 k1 (k - 1)) / dx 2) / dx 2)) - (beta * (S0 * ((1 * (bowl (o 0) (dx 0) i0 i1 (i + 1) - bowl (o 0) (dx 0) i0 i1 i) / dx 0 - 1 * (bowl (o 0) (dx 0) i0 i1 i - bowl (o 0) (dx 0) i0 i1 (i - 1)) / dx 0) / dx 0)) + beta * (S1 * ((1 * (bowl (o 1) (dx 1) j0 j1 (j + 1) - bowl (o 1) (dx 1) j0 j1 j) / dx 1 - 1 * (bowl (o 1) (dx 1) j0 j1 j - bowl (o 1) (dx 1) j0 j1 (j - 1)) / dx 1) / dx 1))) := by
        unfold op3
        simp only [List.getD_cons_zero, List.getD_cons_succ]
        ring
      rw [o, bowl_one hd2, bowl_one hd0, bowl_one hd1]
      ring
    rw [e]
    have lt : τ < 2 * beta * (K - (S0 + S1)) := by
      have : 0 < 2 * beta * (ε / ((extent (dx 2) k0 k1 + dx 2) ^ 2 / 4)) := by positivity
      rw [eK]
      have c : 2 * beta * (τ / (2 * beta)) = τ := by field_simp
      linarith
    exact ⟨lt.le, Or.inr lt⟩

end Verif.F
