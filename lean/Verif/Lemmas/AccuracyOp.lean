import Verif.Lemmas.Accuracy
import Verif.Lemmas.Stability
import Mathlib.Data.Real.Basic

/-
The operator applied to samples of a smooth function.
-/

namespace Verif.F

theorem centre_succ (o h : ℝ) (i : Int) : centre o h (i + 1) = centre o h i + h := by unfold centre; push_cast; ring

theorem centre_pred (o h : ℝ) (i : Int) : centre o h (i - 1) = centre o h i - h := by unfold centre; push_cast; ring

theorem face_up (o h : ℝ) (i : Int) : face o h (i + 1) = centre o h i + h / 2 := by unfold face centre; push_cast; ring

theorem face_dn (o h : ℝ) (i : Int) : face o h i = centre o h i - h / 2 := by unfold face centre; ring

theorem centre_mono {o h : ℝ} (hh : 0 < h) {i j : Int} (hij : i ≤ j) : centre o h i ≤ centre o h j := by
  have : (i : ℝ) ≤ j := by exact_mod_cast hij
  unfold centre
  nlinarith

theorem near_diffusion1 {i0 i1 : Int} {alpha beta : ℝ} {dx o : Nat → ℝ} {φ q κ0 : ℝ → ℝ} {A U : List Int → ℝ} {C0 : ℝ}
    (hd0 : 0 < dx 0)
    (hU : ∀ p, InBounds [(i0 - 1, i1 + 1)] p → U p = cells1 o dx φ p) (hA : ∀ p, InBounds [(i0, i1)] p → A p = cells1 o dx q p)
    (s0 : SmoothFlux (fun s => φ s) (fun s => κ0 s) (centre (o 0) (dx 0) (i0 - 1)) (centre (o 0) (dx 0) (i1 + 1)) C0) :
    ∀ i, i0 ≤ i → i ≤ i1 → |op1 alpha beta dx A (faces1 o dx κ0) U i - diffusion1 alpha beta q κ0 φ (centre (o 0) (dx 0) i)| ≤ |beta| * (C0 * dx 0 ^ 2) / 24 := by
  intro i h0 h1
  have e0 := s0.axis (x := centre (o 0) (dx 0) i) hd0 (by rw [← centre_pred]; exact centre_mono hd0 (by omega)) (by rw [← centre_succ]; exact centre_mono hd0 (by omega))
  have u := hU [i] (inBounds1.2 ⟨i, rfl, by omega⟩)
  have p0 := hU [i + 1] (inBounds1.2 ⟨i + 1, rfl, by omega⟩)
  have m0 := hU [i - 1] (inBounds1.2 ⟨i - 1, rfl, by omega⟩)
  have a := hA [i] (inBounds1.2 ⟨i, rfl, by omega⟩)
  simp only [cells1, List.getD_cons_zero, List.getD_cons_succ, centre_succ, centre_pred] at u p0 m0 a
  simp only [op1, diffusion1, faces1, List.getD_cons_zero, List.getD_cons_succ, face_up, u, p0, m0, a]
  rw [face_dn (o 0) (dx 0) i]
  have key : ∀ {D0 L0 t0 r : ℝ}, |D0 - L0| ≤ t0 → |-(beta * (D0)) + r - (r - beta * (L0))| ≤ |beta| * (t0) := by
    intro D0 L0 t0 r g0
    rw [show -(beta * (D0)) + r - (r - beta * (L0)) = -(beta * ((D0 - L0))) by ring, abs_neg, abs_mul]
    refine mul_le_mul_of_nonneg_left ?_ (abs_nonneg _)
    exact g0
  refine (key e0).trans (le_of_eq ?_)
  ring

theorem near_laplace1 {i0 i1 : Int} {beta : ℝ} {dx o : Nat → ℝ} {φ : ℝ → ℝ} {U : List Int → ℝ} {C0 : ℝ}
    (hd0 : 0 < dx 0)
    (hU : ∀ p, InBounds [(i0 - 1, i1 + 1)] p → U p = cells1 o dx φ p)
    (s0 : SmoothField (fun s => φ s) (centre (o 0) (dx 0) (i0 - 1)) (centre (o 0) (dx 0) (i1 + 1)) C0) :
    ∀ i, i0 ≤ i → i ≤ i1 → |op1 0 beta dx (fun _ => 1) (fun _ => 1) U i - -(beta * iteratedDeriv 2 φ (centre (o 0) (dx 0) i))| ≤ |beta| * (C0 * dx 0 ^ 2) / 12 := by
  intro i h0 h1
  have e0 := s0.axis (x := centre (o 0) (dx 0) i) hd0 (by rw [← centre_pred]; exact centre_mono hd0 (by omega)) (by rw [← centre_succ]; exact centre_mono hd0 (by omega))
  have u := hU [i] (inBounds1.2 ⟨i, rfl, by omega⟩)
  have p0 := hU [i + 1] (inBounds1.2 ⟨i + 1, rfl, by omega⟩)
  have m0 := hU [i - 1] (inBounds1.2 ⟨i - 1, rfl, by omega⟩)
  simp only [cells1, List.getD_cons_zero, List.getD_cons_succ, centre_succ, centre_pred] at u p0 m0
  simp only [op1, u, p0, m0]
  have key : ∀ {D0 L0 t0 r : ℝ}, |D0 - L0| ≤ t0 → |-(beta * (D0)) + r - (r - beta * (L0))| ≤ |beta| * (t0) := by
    intro D0 L0 t0 r g0
    rw [show -(beta * (D0)) + r - (r - beta * (L0)) = -(beta * ((D0 - L0))) by ring, abs_neg, abs_mul]
    refine mul_le_mul_of_nonneg_left ?_ (abs_nonneg _)
    exact g0
  have e := key (r := 0) e0
  rw [zero_sub, add_zero] at e
  rw [mul_one, zero_mul, add_zero]
  refine e.trans (le_of_eq ?_)
  ring

theorem near_diffusion2 {i0 j0 i1 j1 : Int} {alpha beta : ℝ} {dx o : Nat → ℝ} {φ q κ0 κ1 : ℝ → ℝ → ℝ} {A U : List Int → ℝ} {C0 C1 : ℝ}
    (hd0 : 0 < dx 0) (hd1 : 0 < dx 1)
    (hU : ∀ p, InBounds [(i0 - 1, i1 + 1), (j0 - 1, j1 + 1)] p → U p = cells2 o dx φ p) (hA : ∀ p, InBounds [(i0, i1), (j0, j1)] p → A p = cells2 o dx q p)
    (s0 : ∀ j, j0 ≤ j → j ≤ j1 → SmoothFlux (fun s => φ s (centre (o 1) (dx 1) j)) (fun s => κ0 s (centre (o 1) (dx 1) j)) (centre (o 0) (dx 0) (i0 - 1)) (centre (o 0) (dx 0) (i1 + 1)) C0) (s1 : ∀ i, i0 ≤ i → i ≤ i1 → SmoothFlux (fun s => φ (centre (o 0) (dx 0) i) s) (fun s => κ1 (centre (o 0) (dx 0) i) s) (centre (o 1) (dx 1) (j0 - 1)) (centre (o 1) (dx 1) (j1 + 1)) C1) :
    ∀ i j, i0 ≤ i → i ≤ i1 → j0 ≤ j → j ≤ j1 → |op2 alpha beta dx A (faces20 o dx κ0) (faces21 o dx κ1) U i j - diffusion2 alpha beta q κ0 κ1 φ (centre (o 0) (dx 0) i) (centre (o 1) (dx 1) j)| ≤ |beta| * (C0 * dx 0 ^ 2 + C1 * dx 1 ^ 2) / 24 := by
  intro i j h0 h1 h2 h3
  have e0 := (s0 j h2 h3).axis (x := centre (o 0) (dx 0) i) hd0 (by rw [← centre_pred]; exact centre_mono hd0 (by omega)) (by rw [← centre_succ]; exact centre_mono hd0 (by omega))
  have e1 := (s1 i h0 h1).axis (x := centre (o 1) (dx 1) j) hd1 (by rw [← centre_pred]; exact centre_mono hd1 (by omega)) (by rw [← centre_succ]; exact centre_mono hd1 (by omega))
  have u := hU [i, j] (inBounds2.2 ⟨i, j, rfl, by omega⟩)
  have p0 := hU [i + 1, j] (inBounds2.2 ⟨i + 1, j, rfl, by omega⟩)
  have m0 := hU [i - 1, j] (inBounds2.2 ⟨i - 1, j, rfl, by omega⟩)
  have p1 := hU [i, j + 1] (inBounds2.2 ⟨i, j + 1, rfl, by omega⟩)
  have m1 := hU [i, j - 1] (inBounds2.2 ⟨i, j - 1, rfl, by omega⟩)
  have a := hA [i, j] (inBounds2.2 ⟨i, j, rfl, by omega⟩)
  simp only [cells2, List.getD_cons_zero, List.getD_cons_succ, centre_succ, centre_pred] at u p0 m0 p1 m1 a
  simp only [op2, diffusion2, faces20, faces21, List.getD_cons_zero, List.getD_cons_succ, face_up, u, p0, m0, p1, m1, a]
  rw [face_dn (o 0) (dx 0) i, face_dn (o 1) (dx 1) j]
  have key : ∀ {D0 D1 L0 t0 L1 t1 r : ℝ}, |D0 - L0| ≤ t0 → |D1 - L1| ≤ t1 → |-(beta * (D0 + D1)) + r - (r - beta * (L0 + L1))| ≤ |beta| * (t0 + t1) := by
    intro D0 D1 L0 t0 L1 t1 r g0 g1
    rw [show -(beta * (D0 + D1)) + r - (r - beta * (L0 + L1)) = -(beta * ((D0 - L0) + (D1 - L1))) by ring, abs_neg, abs_mul]
    refine mul_le_mul_of_nonneg_left ?_ (abs_nonneg _)
    exact (abs_add_le _ _).trans (add_le_add g0 g1)
  refine (key e0 e1).trans (le_of_eq ?_)
  ring

theorem near_laplace2 {i0 j0 i1 j1 : Int} {beta : ℝ} {dx o : Nat → ℝ} {φ : ℝ → ℝ → ℝ} {U : List Int → ℝ} {C0 C1 : ℝ}
    (hd0 : 0 < dx 0) (hd1 : 0 < dx 1)
    (hU : ∀ p, InBounds [(i0 - 1, i1 + 1), (j0 - 1, j1 + 1)] p → U p = cells2 o dx φ p)
    (s0 : ∀ j, j0 ≤ j → j ≤ j1 → SmoothField (fun s => φ s (centre (o 1) (dx 1) j)) (centre (o 0) (dx 0) (i0 - 1)) (centre (o 0) (dx 0) (i1 + 1)) C0) (s1 : ∀ i, i0 ≤ i → i ≤ i1 → SmoothField (fun s => φ (centre (o 0) (dx 0) i) s) (centre (o 1) (dx 1) (j0 - 1)) (centre (o 1) (dx 1) (j1 + 1)) C1) :
    ∀ i j, i0 ≤ i → i ≤ i1 → j0 ≤ j → j ≤ j1 → |op2 0 beta dx (fun _ => 1) (fun _ => 1) (fun _ => 1) U i j - -(beta * laplace2 φ (centre (o 0) (dx 0) i) (centre (o 1) (dx 1) j))| ≤ |beta| * (C0 * dx 0 ^ 2 + C1 * dx 1 ^ 2) / 12 := by
  intro i j h0 h1 h2 h3
  have e0 := (s0 j h2 h3).axis (x := centre (o 0) (dx 0) i) hd0 (by rw [← centre_pred]; exact centre_mono hd0 (by omega)) (by rw [← centre_succ]; exact centre_mono hd0 (by omega))
  have e1 := (s1 i h0 h1).axis (x := centre (o 1) (dx 1) j) hd1 (by rw [← centre_pred]; exact centre_mono hd1 (by omega)) (by rw [← centre_succ]; exact centre_mono hd1 (by omega))
  have u := hU [i, j] (inBounds2.2 ⟨i, j, rfl, by omega⟩)
  have p0 := hU [i + 1, j] (inBounds2.2 ⟨i + 1, j, rfl, by omega⟩)
  have m0 := hU [i - 1, j] (inBounds2.2 ⟨i - 1, j, rfl, by omega⟩)
  have p1 := hU [i, j + 1] (inBounds2.2 ⟨i, j + 1, rfl, by omega⟩)
  have m1 := hU [i, j - 1] (inBounds2.2 ⟨i, j - 1, rfl, by omega⟩)
  simp only [cells2, List.getD_cons_zero, List.getD_cons_succ, centre_succ, centre_pred] at u p0 m0 p1 m1
  simp only [op2, laplace2, u, p0, m0, p1, m1]
  have key : ∀ {D0 D1 L0 t0 L1 t1 r : ℝ}, |D0 - L0| ≤ t0 → |D1 - L1| ≤ t1 → |-(beta * (D0 + D1)) + r - (r - beta * (L0 + L1))| ≤ |beta| * (t0 + t1) := by
    intro D0 D1 L0 t0 L1 t1 r g0 g1
    rw [show -(beta * (D0 + D1)) + r - (r - beta * (L0 + L1)) = -(beta * ((D0 - L0) + (D1 - L1))) by ring, abs_neg, abs_mul]
    refine mul_le_mul_of_nonneg_left ?_ (abs_nonneg _)
    exact (abs_add_le _ _).trans (add_le_add g0 g1)
  have e := key (r := 0) e0 e1
  rw [zero_sub, add_zero] at e
  rw [mul_one, zero_mul, add_zero]
  refine e.trans (le_of_eq ?_)
  ring

theorem near_diffusion3 {i0 j0 k0 i1 j1 k1 : Int} {alpha beta : ℝ} {dx o : Nat → ℝ} {φ q κ0 κ1 κ2 : ℝ → ℝ → ℝ → ℝ} {A U : List Int → ℝ} {C0 C1 C2 : ℝ}
    (hd0 : 0 < dx 0) (hd1 : 0 < dx 1) (hd2 : 0 < dx 2)
    (hU : ∀ p, InBounds [(i0 - 1, i1 + 1), (j0 - 1, j1 + 1), (k0 - 1, k1 + 1)] p → U p = cells3 o dx φ p) (hA : ∀ p, InBounds [(i0, i1), (j0, j1), (k0, k1)] p → A p = cells3 o dx q p)
    (s0 : ∀ j k, j0 ≤ j → j ≤ j1 → k0 ≤ k → k ≤ k1 → SmoothFlux (fun s => φ s (centre (o 1) (dx 1) j) (centre (o 2) (dx 2) k)) (fun s => κ0 s (centre (o 1) (dx 1) j) (centre (o 2) (dx 2) k)) (centre (o 0) (dx 0) (i0 - 1)) (centre (o 0) (dx 0) (i1 + 1)) C0) (s1 : ∀ i k, i0 ≤ i → i ≤ i1 → k0 ≤ k → k ≤ k1 → SmoothFlux (fun s => φ (centre (o 0) (dx 0) i) s (centre (o 2) (dx 2) k)) (fun s => κ1 (centre (o 0) (dx 0) i) s (centre (o 2) (dx 2) k)) (centre (o 1) (dx 1) (j0 - 1)) (centre (o 1) (dx 1) (j1 + 1)) C1) (s2 : ∀ i j, i0 ≤ i → i ≤ i1 → j0 ≤ j → j ≤ j1 → SmoothFlux (fun s => φ (centre (o 0) (dx 0) i) (centre (o 1) (dx 1) j) s) (fun s => κ2 (centre (o 0) (dx 0) i) (centre (o 1) (dx 1) j) s) (centre (o 2) (dx 2) (k0 - 1)) (centre (o 2) (dx 2) (k1 + 1)) C2) :
    ∀ i j k, i0 ≤ i → i ≤ i1 → j0 ≤ j → j ≤ j1 → k0 ≤ k → k ≤ k1 → |op3 alpha beta dx A (faces30 o dx κ0) (faces31 o dx κ1) (faces32 o dx κ2) U i j k - diffusion3 alpha beta q κ0 κ1 κ2 φ (centre (o 0) (dx 0) i) (centre (o 1) (dx 1) j) (centre (o 2) (dx 2) k)| ≤ |beta| * (C0 * dx 0 ^ 2 + C1 * dx 1 ^ 2 + C2 * dx 2 ^ 2) / 24 := by
  intro i j k h0 h1 h2 h3 h4 h5
  have e0 := (s0 j k h2 h3 h4 h5).axis (x := centre (o 0) (dx 0) i) hd0 (by rw [← centre_pred]; exact centre_mono hd0 (by omega)) (by rw [← centre_succ]; exact centre_mono hd0 (by omega))
  have e1 := (s1 i k h0 h1 h4 h5).axis (x := centre (o 1) (dx 1) j) hd1 (by rw [← centre_pred]; exact centre_mono hd1 (by omega)) (by rw [← centre_succ]; exact centre_mono hd1 (by omega))
  have e2 := (s2 i j h0 h1 h2 h3).axis (x := centre (o 2) (dx 2) k) hd2 (by rw [← centre_pred]; exact centre_mono hd2 (by omega)) (by rw [← centre_succ]; exact centre_mono hd2 (by omega))
  have u := hU [i, j, k] (inBounds3.2 ⟨i, j, k, rfl, by omega⟩)
  have p0 := hU [i + 1, j, k] (inBounds3.2 ⟨i + 1, j, k, rfl, by omega⟩)
  have m0 := hU [i - 1, j, k] (inBounds3.2 ⟨i - 1, j, k, rfl, by omega⟩)
  have p1 := hU [i, j + 1, k] (inBounds3.2 ⟨i, j + 1, k, rfl, by omega⟩)
  have m1 := hU [i, j - 1, k] (inBounds3.2 ⟨i, j - 1, k, rfl, by omega⟩)
  have p2 := hU [i, j, k + 1] (inBounds3.2 ⟨i, j, k + 1, rfl, by omega⟩)
  have m2 := hU [i, j, k - 1] (inBounds3.2 ⟨i, j, k - 1, rfl, by omega⟩)
  have a := hA [i, j, k] (inBounds3.2 ⟨i, j, k, rfl, by omega⟩)
  simp only [cells3, List.getD_cons_zero, List.getD_cons_succ, centre_succ, centre_pred] at u p0 m0 p1 m1 p2 m2 a
  simp only [op3, diffusion3, faces30, faces31, faces32, List.getD_cons_zero, List.getD_cons_succ, face_up, u, p0, m0, p1, m1, p2, m2, a]
  rw [face_dn (o 0) (dx 0) i, face_dn (o 1) (dx 1) j, face_dn (o 2) (dx 2) k]
  have key : ∀ {D0 D1 D2 L0 t0 L1 t1 L2 t2 r : ℝ}, |D0 - L0| ≤ t0 → |D1 - L1| ≤ t1 → |D2 - L2| ≤ t2 → |-(beta * (D0 + D1 + D2)) + r - (r - beta * (L0 + L1 + L2))| ≤ |beta| * (t0 + t1 + t2) := by
    intro D0 D1 D2 L0 t0 L1 t1 L2 t2 r g0 g1 g2
    rw [show -(beta * (D0 + D1 + D2)) + r - (r - beta * (L0 + L1 + L2)) = -(beta * ((D0 - L0) + (D1 - L1) + (D2 - L2))) by ring, abs_neg, abs_mul]
    refine mul_le_mul_of_nonneg_left ?_ (abs_nonneg _)
    exact (abs_add_le _ _).trans (add_le_add ((abs_add_le _ _).trans (add_le_add g0 g1)) g2)
  refine (key e0 e1 e2).trans (le_of_eq ?_)
  ring

theorem near_laplace3 {i0 j0 k0 i1 j1 k1 : Int} {beta : ℝ} {dx o : Nat → ℝ} {φ : ℝ → ℝ → ℝ → ℝ} {U : List Int → ℝ} {C0 C1 C2 : ℝ}
    (hd0 : 0 < dx 0) (hd1 : 0 < dx 1) (hd2 : 0 < dx 2)
    (hU : ∀ p, InBounds [(i0 - 1, i1 + 1), (j0 - 1, j1 + 1), (k0 - 1, k1 + 1)] p → U p = cells3 o dx φ p)
    (s0 : ∀ j k, j0 ≤ j → j ≤ j1 → k0 ≤ k → k ≤ k1 → SmoothField (fun s => φ s (centre (o 1) (dx 1) j) (centre (o 2) (dx 2) k)) (centre (o 0) (dx 0) (i0 - 1)) (centre (o 0) (dx 0) (i1 + 1)) C0) (s1 : ∀ i k, i0 ≤ i → i ≤ i1 → k0 ≤ k → k ≤ k1 → SmoothField (fun s => φ (centre (o 0) (dx 0) i) s (centre (o 2) (dx 2) k)) (centre (o 1) (dx 1) (j0 - 1)) (centre (o 1) (dx 1) (j1 + 1)) C1) (s2 : ∀ i j, i0 ≤ i → i ≤ i1 → j0 ≤ j → j ≤ j1 → SmoothField (fun s => φ (centre (o 0) (dx 0) i) (centre (o 1) (dx 1) j) s) (centre (o 2) (dx 2) (k0 - 1)) (centre (o 2) (dx 2) (k1 + 1)) C2) :
    ∀ i j k, i0 ≤ i → i ≤ i1 → j0 ≤ j → j ≤ j1 → k0 ≤ k → k ≤ k1 → |op3 0 beta dx (fun _ => 1) (fun _ => 1) (fun _ => 1) (fun _ => 1) U i j k - -(beta * laplace3 φ (centre (o 0) (dx 0) i) (centre (o 1) (dx 1) j) (centre (o 2) (dx 2) k))| ≤ |beta| * (C0 * dx 0 ^ 2 + C1 * dx 1 ^ 2 + C2 * dx 2 ^ 2) / 12 := by
  intro i j k h0 h1 h2 h3 h4 h5
  have e0 := (s0 j k h2 h3 h4 h5).axis (x := centre (o 0) (dx 0) i) hd0 (by rw [← centre_pred]; exact centre_mono hd0 (by omega)) (by rw [← centre_succ]; exact centre_mono hd0 (by omega))
  have e1 := (s1 i k h0 h1 h4 h5).axis (x := centre (o 1) (dx 1) j) hd1 (by rw [← centre_pred]; exact centre_mono hd1 (by omega)) (by rw [← centre_succ]; exact centre_mono hd1 (by omega))
  have e2 := (s2 i j h0 h1 h2 h3).axis (x := centre (o 2) (dx 2) k) hd2 (by rw [← centre_pred]; exact centre_mono hd2 (by omega)) (by rw [← centre_succ]; exact centre_mono hd2 (by omega))
  have u := hU [i, j, k] (inBounds3.2 ⟨i, j, k, rfl, by omega⟩)
  have p0 := hU [i + 1, j, k] (inBounds3.2 ⟨i + 1, j, k, rfl, by omega⟩)
  have m0 := hU [i - 1, j, k] (inBounds3.2 ⟨i - 1, j, k, rfl, by omega⟩)
  have p1 := hU [i, j + 1, k] (inBounds3.2 ⟨i, j + 1, k, rfl, by omega⟩)
  have m1 := hU [i, j - 1, k] (inBounds3.2 ⟨i, j - 1, k, rfl, by omega⟩)
  have p2 := hU [i, j, k + 1] (inBounds3.2 ⟨i, j, k + 1, rfl, by omega⟩)
  have m2 := hU [i, j, k - 1] (inBounds3.2 ⟨i, j, k - 1, rfl, by omega⟩)
  simp only [cells3, List.getD_cons_zero, List.getD_cons_succ, centre_succ, centre_pred] at u p0 m0 p1 m1 p2 m2
  simp only [op3, laplace3, u, p0, m0, p1, m1, p2, m2]
  have key : ∀ {D0 D1 D2 L0 t0 L1 t1 L2 t2 r : ℝ}, |D0 - L0| ≤ t0 → |D1 - L1| ≤ t1 → |D2 - L2| ≤ t2 → |-(beta * (D0 + D1 + D2)) + r - (r - beta * (L0 + L1 + L2))| ≤ |beta| * (t0 + t1 + t2) := by
    intro D0 D1 D2 L0 t0 L1 t1 L2 t2 r g0 g1 g2
    rw [show -(beta * (D0 + D1 + D2)) + r - (r - beta * (L0 + L1 + L2)) = -(beta * ((D0 - L0) + (D1 - L1) + (D2 - L2))) by ring, abs_neg, abs_mul]
    refine mul_le_mul_of_nonneg_left ?_ (abs_nonneg _)
    exact (abs_add_le _ _).trans (add_le_add ((abs_add_le _ _).trans (add_le_add g0 g1)) g2)
  have e := key (r := 0) e0 e1 e2
  rw [zero_sub, add_zero] at e
  rw [mul_one, zero_mul, add_zero]
  refine e.trans (le_of_eq ?_)
  ring

end Verif.F
