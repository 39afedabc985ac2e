import Verif.Lemmas.AccuracyOp
import Verif.Lemmas.EnergyEx

/-
Data for the examples about the error of the operator: the field `x^4` (plus `y^4`, `z^4`), coefficients `1 + x^2`.
-/

namespace Verif
open Spec

/-- the index of the element at offset `o` -/
def unCol : List (Int × Int) → Int → List Int
  | [], _ => []
  | (l, u) :: ds, o => (l + o % (u - l + 1)) :: unCol ds (o / (u - l + 1))

theorem unCol_col : ∀ {ds : List (Int × Int)} {is : List Int}, F.InBounds ds is → unCol ds (F.colMajor ds is) = is
  | [], [], _ => rfl
  | (l, u) :: ds, i :: is, ⟨h1, h2⟩ => by
    have ih := unCol_col h2
    simp only [unCol, F.colMajor]
    have hn : (0 : Int) < u - l + 1 := by omega
    rw [Int.add_mul_emod_self_left, Int.emod_eq_of_lt (by omega) (by omega), Int.add_mul_ediv_left _ _ (by omega), Int.ediv_eq_zero_of_lt (by omega) (by omega), zero_add, ih]
    congr 1
    omega

/-- blocks of 1000 elements; block `n` contains an array with the bounds `(g n).1` and the values `(g n).2` -/
def exFun {T : Type} (g : Nat → List (Int × Int) × (List Int → T)) : Mem T :=
  ⟨fun q => if 0 ≤ q.off ∧ q.off < 1000 then some ((g q.blk).2 (unCol (g q.blk).1 q.off)) else none, fun _ => none⟩

theorem exFun_args {T : Type} {g : Nat → List (Int × Int) × (List Int → T)} {ins outs : List F.Arr} (h : F.Args exRat ins outs) : F.Args (exFun g) ins outs := by
  refine ⟨fun a ha => ⟨fun is hi => ?_, (h.ok a ha).fits, (h.ok a ha).int⟩, h.apart⟩
  obtain ⟨v, hv⟩ := (h.ok a ha).alloc is hi
  simp only [exRat] at hv
  split at hv
  · rename_i c
    exact ⟨_, if_pos c⟩
  · cases hv

theorem exFun_holds {T : Type} {g : Nat → List (Int × Int) × (List Int → T)} {a : F.Arr} (h : a.ptr.off = 0) (hd : (g a.ptr.blk).1 = a.dims) (ha : F.ArrOK exRat a) : F.Holds (exFun g) a (g a.ptr.blk).2 := fun is hi => by
  refine ⟨hi, ?_⟩
  obtain ⟨v, hv⟩ := ha.alloc is hi
  simp only [exRat, Ptr.add] at hv
  split at hv
  · rename_i c
    simp only [exFun, Ptr.add]
    rw [if_pos c, hd, h, zero_add, unCol_col hi]
  · cases hv

/-- mesh widths -/
noncomputable def exW (n : Nat) : ℝ := n + 1 / 2

theorem exW_pos (n : Nat) : 0 < exW n := by unfold exW; positivity

theorem exSmooth {φ b : ℝ → ℝ} {c lo hi L : ℝ} (hφ : ∀ x, φ x = x ^ 4 + c) (hb : ∀ x, b x = 1 + x ^ 2) (hl : -L ≤ lo) (hr : hi ≤ L) : F.SmoothFlux φ b lo hi (48 + 312 * L ^ 2) := by
  obtain rfl : φ = fun x => x ^ 4 + c := funext hφ
  obtain rfl : b = fun x => 1 + x ^ 2 := funext hb
  have p : ∀ (k : ℕ) (r x : ℝ), HasDerivAt (fun x : ℝ => r * x ^ k) (r * (k * x ^ (k - 1))) x := fun k r x => (hasDerivAt_pow k x).const_mul r
  have d1 : deriv (fun x : ℝ => x ^ 4 + c) = fun x => 4 * x ^ 3 := by
    funext x
    have := ((hasDerivAt_pow 4 x).add_const c).deriv
    rw [this]
    norm_num
  have dm : ∀ (k : ℕ) (r : ℝ), deriv (fun x : ℝ => r * x ^ k) = fun x => r * (k * x ^ (k - 1)) := fun k r => funext fun x => (p k r x).deriv
  have d2 : deriv (fun x : ℝ => 4 * x ^ 3) = fun x => 12 * x ^ 2 := by rw [dm]; funext x; norm_num; ring
  have d3 : deriv (fun x : ℝ => 12 * x ^ 2) = fun x => 24 * x ^ 1 := by rw [dm]; funext x; norm_num; ring
  have d4 : deriv (fun x : ℝ => 24 * x ^ 1) = fun x => 24 := by rw [dm]; funext x; norm_num
  have w1 : deriv (fun x : ℝ => (1 + x ^ 2) * (4 * x ^ 3)) = fun x => 12 * x ^ 2 + 20 * x ^ 4 := by
    funext x
    have := ((p 3 4 x).add (p 5 4 x)).deriv
    rw [show (fun x : ℝ => (1 + x ^ 2) * (4 * x ^ 3)) = (fun x : ℝ => 4 * x ^ 3) + (fun x => 4 * x ^ 5) by funext x; simp only [Pi.add_apply]; ring, this]
    norm_num; ring
  have w2 : deriv (fun x : ℝ => 12 * x ^ 2 + 20 * x ^ 4) = fun x => 24 * x ^ 1 + 80 * x ^ 3 := by
    funext x
    have := ((p 2 12 x).add (p 4 20 x)).deriv
    rw [show (fun x : ℝ => 12 * x ^ 2 + 20 * x ^ 4) = (fun x : ℝ => 12 * x ^ 2) + (fun x => 20 * x ^ 4) from rfl, this]
    norm_num; ring
  have w3 : deriv (fun x : ℝ => 24 * x ^ 1 + 80 * x ^ 3) = fun x => 24 + 240 * x ^ 2 := by
    funext x
    have := ((p 1 24 x).add (p 3 80 x)).deriv
    rw [show (fun x : ℝ => 24 * x ^ 1 + 80 * x ^ 3) = (fun x : ℝ => 24 * x ^ 1) + (fun x => 80 * x ^ 3) from rfl, this]
    norm_num; ring
  have b1 : deriv (fun x : ℝ => 1 + x ^ 2) = fun x => 2 * x := by
    funext x
    have := ((hasDerivAt_pow 2 x).const_add 1).deriv
    rw [this]
    norm_num
  refine ⟨(contDiff_id.pow 4).add contDiff_const, contDiff_const.add (contDiff_id.pow 2), 24 + 240 * L ^ 2, 1 + L ^ 2, 2 * L, 24 * L, 24, by linarith, fun x h0 h1 => ?_⟩
  have ha : |x| ≤ L := abs_le.2 ⟨by linarith, by linarith⟩
  have h2 : x ^ 2 ≤ L ^ 2 := by rw [← sq_abs x]; exact pow_le_pow_left₀ (abs_nonneg x) ha 2
  have hn := sq_nonneg x
  simp only [iteratedDeriv_succ, iteratedDeriv_zero, d1, d2, d3, d4, w1, w2, w3, b1]
  refine ⟨?_, ?_, ?_, ?_, ?_⟩
  · rw [abs_of_nonneg (by linarith)]; linarith
  · rw [abs_of_nonneg (by linarith)]; linarith
  · rw [abs_mul, abs_two]; linarith
  · rw [abs_mul, pow_one, abs_of_pos (by norm_num : (0 : ℝ) < 24)]; linarith
  · norm_num

theorem exSmoothF {φ : ℝ → ℝ} {c lo hi : ℝ} (hφ : ∀ x, φ x = x ^ 4 + c) : F.SmoothField φ lo hi 24 := by
  have s := exSmooth (lo := lo) (hi := hi) (L := max (-lo) hi) hφ (b := fun x => 1 + x ^ 2) (fun _ => rfl) (by have := le_max_left (-lo) hi; linarith) (le_max_right _ _)
  refine ⟨s.field, fun x _ _ => ?_⟩
  obtain rfl : φ = fun x => x ^ 4 + c := funext hφ
  have dm : ∀ (k : ℕ) (r : ℝ), deriv (fun x : ℝ => r * x ^ k) = fun x => r * (k * x ^ (k - 1)) := fun k r => funext fun x => ((hasDerivAt_pow k x).const_mul r).deriv
  have d1 : deriv (fun x : ℝ => x ^ 4 + c) = fun x => 4 * x ^ 3 := by
    funext x
    have := ((hasDerivAt_pow 4 x).add_const c).deriv
    rw [this]
    norm_num
  have d2 : deriv (fun x : ℝ => 4 * x ^ 3) = fun x => 12 * x ^ 2 := by rw [dm]; funext x; norm_num; ring
  have d3 : deriv (fun x : ℝ => 12 * x ^ 2) = fun x => 24 * x ^ 1 := by rw [dm]; funext x; norm_num; ring
  have d4 : deriv (fun x : ℝ => 24 * x ^ 1) = fun x => 24 := by rw [dm]; funext x; norm_num
  simp only [iteratedDeriv_succ, iteratedDeriv_zero, d1, d2, d3, d4]
  norm_num

/-- the origin of the examples -/
def ex0 (_ : Nat) : ℝ := 0

def exφ1 (x : ℝ) : ℝ := x ^ 4

def exq1 (x : ℝ) : ℝ := 1 + x ^ 2

def exk10 (x : ℝ) : ℝ := 1 + x ^ 2

/-- arrays of the examples -/
noncomputable def exG1 (U : List Int → ℝ) : Nat → List (Int × Int) × (List Int → ℝ)
  | 0 => ((F.cell1d ⟨0, 0⟩ 0 3 1).dims, F.cells1 ex0 exW exq1)
  | 1 => ((F.cell1d ⟨1, 0⟩ 0 3 2).dims, U)
  | 2 => ((F.face1d ⟨2, 0⟩ 0 3 0).dims, F.faces1 ex0 exW exk10)
  | _ => ([], fun _ => 0)

/-- the field of the examples, at distance 1 from the samples -/
noncomputable def exU1 (p : List Int) : ℝ := F.cells1 ex0 exW exφ1 p + 1

theorem exC1 : ∀ p, F.InBounds [(0, 3)] p → (3 : ℝ) ≤ 3 * F.cells1 ex0 exW exq1 p := fun p _ => by
  simp only [F.cells1, exq1]
  nlinarith [sq_nonneg (F.centre (ex0 0) (exW 0) (p.getD 0 0))]

theorem exAcc_v1_1 : F.Elliptic1 (T := ℝ) 0 3 3 2 exW (F.cells1 ex0 exW exq1) (F.faces1 ex0 exW exk10) where
  beta := by norm_num
  dx0 := (exW_pos 0).ne'
  face0 := fun _ _ _ => by simp only [F.faces1, exk10]; positivity
  cell := fun _ _ _ => by simp only [F.cells1, exq1]; positivity

theorem exAcc_v2_1 : F.Elliptic1 (T := ℝ) 0 3 3 2 exW (fun _ => 1) (F.faces1 ex0 exW exk10) where
  beta := by norm_num
  dx0 := (exW_pos 0).ne'
  face0 := fun _ _ _ => by simp only [F.faces1, exk10]; positivity
  cell := fun _ _ _ => by norm_num

theorem exAcc_p_1 : F.Elliptic1 (T := ℝ) 0 3 0 2 exW (fun _ => 1) (fun _ => 1) where
  beta := by norm_num
  dx0 := (exW_pos 0).ne'
  face0 := fun _ _ _ => by norm_num
  cell := fun _ _ _ => by norm_num

def exφ2 (x y : ℝ) : ℝ := x ^ 4 + y ^ 4

def exq2 (x y : ℝ) : ℝ := 1 + x ^ 2

def exk20 (x y : ℝ) : ℝ := 1 + x ^ 2

def exk21 (x y : ℝ) : ℝ := 1 + y ^ 2

/-- arrays of the examples -/
noncomputable def exG2 (U : List Int → ℝ) : Nat → List (Int × Int) × (List Int → ℝ)
  | 0 => ((F.cell2d ⟨0, 0⟩ 0 1 2 3 1).dims, F.cells2 ex0 exW exq2)
  | 1 => ((F.cell2d ⟨1, 0⟩ 0 1 2 3 2).dims, U)
  | 2 => ((F.face2d0 ⟨2, 0⟩ 0 1 2 3 0).dims, F.faces20 ex0 exW exk20)
  | 3 => ((F.face2d1 ⟨3, 0⟩ 0 1 2 3 0).dims, F.faces21 ex0 exW exk21)
  | _ => ([], fun _ => 0)

/-- the field of the examples, at distance 1 from the samples -/
noncomputable def exU2 (p : List Int) : ℝ := F.cells2 ex0 exW exφ2 p + 1

theorem exC2 : ∀ p, F.InBounds [(0, 2), (1, 3)] p → (3 : ℝ) ≤ 3 * F.cells2 ex0 exW exq2 p := fun p _ => by
  simp only [F.cells2, exq2]
  nlinarith [sq_nonneg (F.centre (ex0 0) (exW 0) (p.getD 0 0))]

theorem exAcc_v1_2 : F.Elliptic2 (T := ℝ) 0 1 2 3 3 2 exW (F.cells2 ex0 exW exq2) (F.faces20 ex0 exW exk20) (F.faces21 ex0 exW exk21) where
  beta := by norm_num
  dx0 := (exW_pos 0).ne'
  dx1 := (exW_pos 1).ne'
  face0 := fun _ _ _ _ _ _ => by simp only [F.faces20, exk20]; positivity
  face1 := fun _ _ _ _ _ _ => by simp only [F.faces21, exk21]; positivity
  cell := fun _ _ _ _ _ _ => by simp only [F.cells2, exq2]; positivity

theorem exAcc_v2_2 : F.Elliptic2 (T := ℝ) 0 1 2 3 3 2 exW (fun _ => 1) (F.faces20 ex0 exW exk20) (F.faces21 ex0 exW exk21) where
  beta := by norm_num
  dx0 := (exW_pos 0).ne'
  dx1 := (exW_pos 1).ne'
  face0 := fun _ _ _ _ _ _ => by simp only [F.faces20, exk20]; positivity
  face1 := fun _ _ _ _ _ _ => by simp only [F.faces21, exk21]; positivity
  cell := fun _ _ _ _ _ _ => by norm_num

theorem exAcc_p_2 : F.Elliptic2 (T := ℝ) 0 1 2 3 0 2 exW (fun _ => 1) (fun _ => 1) (fun _ => 1) where
  beta := by norm_num
  dx0 := (exW_pos 0).ne'
  dx1 := (exW_pos 1).ne'
  face0 := fun _ _ _ _ _ _ => by norm_num
  face1 := fun _ _ _ _ _ _ => by norm_num
  cell := fun _ _ _ _ _ _ => by norm_num

def exφ3 (x y z : ℝ) : ℝ := x ^ 4 + y ^ 4 + z ^ 4

def exq3 (x y z : ℝ) : ℝ := 1 + x ^ 2

def exk30 (x y z : ℝ) : ℝ := 1 + x ^ 2

def exk31 (x y z : ℝ) : ℝ := 1 + y ^ 2

def exk32 (x y z : ℝ) : ℝ := 1 + z ^ 2

/-- arrays of the examples -/
noncomputable def exG3 (U : List Int → ℝ) : Nat → List (Int × Int) × (List Int → ℝ)
  | 0 => ((F.cell3d ⟨0, 0⟩ 0 1 2 1 2 3 1).dims, F.cells3 ex0 exW exq3)
  | 1 => ((F.cell3d ⟨1, 0⟩ 0 1 2 1 2 3 2).dims, U)
  | 2 => ((F.face3d0 ⟨2, 0⟩ 0 1 2 1 2 3 0).dims, F.faces30 ex0 exW exk30)
  | 3 => ((F.face3d1 ⟨3, 0⟩ 0 1 2 1 2 3 0).dims, F.faces31 ex0 exW exk31)
  | 4 => ((F.face3d2 ⟨4, 0⟩ 0 1 2 1 2 3 0).dims, F.faces32 ex0 exW exk32)
  | _ => ([], fun _ => 0)

/-- the field of the examples, at distance 1 from the samples -/
noncomputable def exU3 (p : List Int) : ℝ := F.cells3 ex0 exW exφ3 p + 1

theorem exC3 : ∀ p, F.InBounds [(0, 1), (1, 2), (2, 3)] p → (3 : ℝ) ≤ 3 * F.cells3 ex0 exW exq3 p := fun p _ => by
  simp only [F.cells3, exq3]
  nlinarith [sq_nonneg (F.centre (ex0 0) (exW 0) (p.getD 0 0))]

theorem exAcc_v1_3 : F.Elliptic3 (T := ℝ) 0 1 2 1 2 3 3 2 exW (F.cells3 ex0 exW exq3) (F.faces30 ex0 exW exk30) (F.faces31 ex0 exW exk31) (F.faces32 ex0 exW exk32) where
  beta := by norm_num
  dx0 := (exW_pos 0).ne'
  dx1 := (exW_pos 1).ne'
  dx2 := (exW_pos 2).ne'
  face0 := fun _ _ _ _ _ _ _ _ _ => by simp only [F.faces30, exk30]; positivity
  face1 := fun _ _ _ _ _ _ _ _ _ => by simp only [F.faces31, exk31]; positivity
  face2 := fun _ _ _ _ _ _ _ _ _ => by simp only [F.faces32, exk32]; positivity
  cell := fun _ _ _ _ _ _ _ _ _ => by simp only [F.cells3, exq3]; positivity

theorem exAcc_v2_3 : F.Elliptic3 (T := ℝ) 0 1 2 1 2 3 3 2 exW (fun _ => 1) (F.faces30 ex0 exW exk30) (F.faces31 ex0 exW exk31) (F.faces32 ex0 exW exk32) where
  beta := by norm_num
  dx0 := (exW_pos 0).ne'
  dx1 := (exW_pos 1).ne'
  dx2 := (exW_pos 2).ne'
  face0 := fun _ _ _ _ _ _ _ _ _ => by simp only [F.faces30, exk30]; positivity
  face1 := fun _ _ _ _ _ _ _ _ _ => by simp only [F.faces31, exk31]; positivity
  face2 := fun _ _ _ _ _ _ _ _ _ => by simp only [F.faces32, exk32]; positivity
  cell := fun _ _ _ _ _ _ _ _ _ => by norm_num

theorem exAcc_p_3 : F.Elliptic3 (T := ℝ) 0 1 2 1 2 3 0 2 exW (fun _ => 1) (fun _ => 1) (fun _ => 1) (fun _ => 1) where
  beta := by norm_num
  dx0 := (exW_pos 0).ne'
  dx1 := (exW_pos 1).ne'
  dx2 := (exW_pos 2).ne'
  face0 := fun _ _ _ _ _ _ _ _ _ => by norm_num
  face1 := fun _ _ _ _ _ _ _ _ _ => by norm_num
  face2 := fun _ _ _ _ _ _ _ _ _ => by norm_num
  cell := fun _ _ _ _ _ _ _ _ _ => by norm_num

/-- sections of the field of the examples -/
macro "ex_field" : tactic => `(tactic| (simp only [exφ1, exφ2, exφ3] <;> ring))

end Verif
