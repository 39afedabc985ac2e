import Verif.Spec.ErrorEnergy
import Verif.Lemmas.SmoothConv
import Mathlib.Algebra.BigOperators.Group.Finset.Basic
import Mathlib.Algebra.BigOperators.Ring.Finset
import Mathlib.Algebra.BigOperators.Field
import Mathlib.Algebra.Order.BigOperators.Group.Finset
import Mathlib.Tactic.Linarith
import Mathlib.Tactic.FieldSimp
import Mathlib.Tactic.Ring

/-
Sweeps and the energy of the error.
-/

namespace Verif.F

/-! ### cells of a box -/

theorem mem_cells : ∀ {box : List (Int × Int)} {p : List Int}, p ∈ cells box ↔ InBounds box p
  | [], [] => by simp [cells, InBounds]
  | [], _ :: _ => by simp [cells, InBounds]
  | b :: bs, [] => by simp [cells, InBounds]
  | b :: bs, i :: is => by
    simp only [cells, List.mem_flatMap, List.mem_map, List.cons.injEq, InBounds]
    constructor
    · rintro ⟨js, hj, k, hk, rfl, rfl⟩
      exact ⟨mem_irange.1 hk, mem_cells.1 hj⟩
    · rintro ⟨hk, hj⟩
      exact ⟨is, mem_cells.2 hj, i, mem_irange.2 hk, rfl, rfl⟩

theorem nodup_cells : ∀ {box : List (Int × Int)}, (cells box).Nodup
  | [] => by simp [cells]
  | b :: bs => by
    rw [cells, List.nodup_flatMap]
    refine ⟨fun is _ => ?_, ?_⟩
    · have h : (irange b.1 b.2).Nodup := irange_lt.imp fun h => ne_of_lt h
      exact h.map fun x y h => by simpa using h
    · refine (nodup_cells (box := bs)).imp ?_
      intro is js hn
      simp only [Function.onFun, List.disjoint_left, List.mem_map]
      rintro x ⟨i, _, rfl⟩ ⟨j, _, e⟩
      simp only [List.cons.injEq] at e
      exact hn e.2.symm

/-! ### quadratic forms -/

section
open Finset
variable {ι T : Type} [DecidableEq ι] [Field T]

theorem quad_add {L : Finset ι} {a : ι → ι → T} (hs : ∀ x ∈ L, ∀ y ∈ L, a x y = a y x) (e z : ι → T) :
    ∑ x ∈ L, (e x + z x) * ∑ y ∈ L, a x y * (e y + z y) =
      ∑ x ∈ L, e x * (∑ y ∈ L, a x y * e y) + 2 * ∑ x ∈ L, z x * (∑ y ∈ L, a x y * e y) + ∑ x ∈ L, z x * ∑ y ∈ L, a x y * z y := by
  have sw : ∑ x ∈ L, e x * (∑ y ∈ L, a x y * z y) = ∑ x ∈ L, z x * (∑ y ∈ L, a x y * e y) := by
    simp only [Finset.mul_sum]
    rw [Finset.sum_comm]
    refine Finset.sum_congr rfl fun x hx => Finset.sum_congr rfl fun y hy => ?_
    rw [hs y hy x hx]; ring
  have ex : ∀ x, (e x + z x) * ∑ y ∈ L, a x y * (e y + z y) =
      e x * (∑ y ∈ L, a x y * e y) + e x * (∑ y ∈ L, a x y * z y) + z x * (∑ y ∈ L, a x y * e y) + z x * ∑ y ∈ L, a x y * z y := by
    intro x
    have : ∑ y ∈ L, a x y * (e y + z y) = ∑ y ∈ L, a x y * e y + ∑ y ∈ L, a x y * z y := by
      rw [← Finset.sum_add_distrib]; exact Finset.sum_congr rfl fun y _ => by ring
    rw [this]; ring
  rw [Finset.sum_congr rfl fun x _ => ex x]
  simp only [Finset.sum_add_distrib]
  rw [sw]; ring

variable [LinearOrder T] [IsStrictOrderedRing T]

theorem quad_le {L : Finset ι} {a : ι → ι → T} {d z : ι → T} (hs : ∀ x ∈ L, ∀ y ∈ L, a x y = a y x) (hd : ∀ x ∈ L, ∑ y ∈ L, |a x y| ≤ 2 * d x) :
    ∑ x ∈ L, z x * ∑ y ∈ L, a x y * z y ≤ 2 * ∑ x ∈ L, d x * (z x * z x) := by
  have h1 : ∑ x ∈ L, z x * ∑ y ∈ L, a x y * z y ≤ ∑ x ∈ L, ∑ y ∈ L, (|a x y| * (z x * z x) / 2 + |a x y| * (z y * z y) / 2) := by
    refine Finset.sum_le_sum fun x _ => ?_
    rw [Finset.mul_sum]
    refine Finset.sum_le_sum fun y _ => ?_
    have h2 : z x * (a x y * z y) ≤ |a x y| * |z x * z y| := by
      rw [← abs_mul]; refine (le_abs_self _).trans (le_of_eq ?_); congr 1; ring
    have h3 : |z x * z y| ≤ (z x * z x + z y * z y) / 2 := by
      rw [abs_le]
      constructor
      · nlinarith [mul_self_nonneg (z x + z y)]
      · nlinarith [mul_self_nonneg (z x - z y)]
    have h4 := mul_le_mul_of_nonneg_left h3 (abs_nonneg (a x y))
    linarith
  have h5 : ∑ x ∈ L, ∑ y ∈ L, |a x y| * (z y * z y) / 2 = ∑ x ∈ L, ∑ y ∈ L, |a x y| * (z x * z x) / 2 := by
    rw [Finset.sum_comm]
    exact Finset.sum_congr rfl fun x hx => Finset.sum_congr rfl fun y hy => by rw [hs y hy x hx]
  have h6 : ∑ x ∈ L, ∑ y ∈ L, |a x y| * (z x * z x) / 2 ≤ ∑ x ∈ L, d x * (z x * z x) := by
    refine Finset.sum_le_sum fun x hx => ?_
    have e : ∑ y ∈ L, |a x y| * (z x * z x) / 2 = (∑ y ∈ L, |a x y|) * (z x * z x) / 2 := by
      rw [Finset.sum_mul, Finset.sum_div]
    rw [e]
    have := mul_le_mul_of_nonneg_right (hd x hx) (mul_self_nonneg (z x))
    linarith
  simp only [Finset.sum_add_distrib] at h1
  rw [h5] at h1
  linarith

end

/-! ### the energy as a quadratic form -/

section
variable {T : Type} [Field T] {box : List (Int × Int)} {n : Int} {O : Int → List Int} {S E : List Int → T}

theorem sum_list {ι : Type} {l : List ι} {lo hi : Int} {f : Int → ι → T} : (l.map fun x => sum lo hi fun s => f s x).sum = sum lo hi fun s => (l.map (f s)).sum := by
  induction l with
  | nil => simp [sum]
  | cons x xs ih =>
    simp only [List.map_cons, List.sum_cons, ih]
    rw [← sum_add]

theorem lhs_coupling (hE : ∀ q, ¬ InBounds box q → E q = 0) (p : List Int) :
    sum 0 (n - 1) (fun s => S (s :: p) * E (shift p (O s))) = ∑ q ∈ (cells box).toFinset, coupling n O S p q * E q := by
  rw [List.sum_toFinset _ nodup_cells]
  have e : (cells box).map (fun q => coupling n O S p q * E q) = (cells box).map fun q => sum 0 (n - 1) fun s => (if shift p (O s) = q then S (s :: p) else 0) * E q :=
    List.map_congr_left fun q _ => by rw [coupling, sum_mul]
  rw [e, sum_list]
  refine sum_congr fun s _ _ => ?_
  rw [← List.sum_toFinset _ nodup_cells]
  simp only [ite_mul, zero_mul, Finset.sum_ite_eq, List.mem_toFinset, mem_cells]
  split
  · rfl
  · rw [hE _ ‹_›, mul_zero]

theorem energy_eq (hE : ∀ q, ¬ InBounds box q → E q = 0) :
    energy box n O S E = ∑ p ∈ (cells box).toFinset, E p * ∑ q ∈ (cells box).toFinset, coupling n O S p q * E q := by
  rw [energy, ← List.sum_toFinset _ nodup_cells]
  exact Finset.sum_congr rfl fun p _ => by rw [lhs_coupling hE]

theorem symm_cells (hs : Symmetric box n O S) : ∀ x ∈ (cells box).toFinset, ∀ y ∈ (cells box).toFinset, coupling n O S x y = coupling n O S y x := by
  intro x hx y hy
  rw [List.mem_toFinset, mem_cells] at hx hy
  exact hs x y hx hy

theorem coupling_diag {p : List Int} (hn : 1 ≤ n) (hd : shift p (O 0) = p) (ha : ∀ s, 1 ≤ s → s < n → shift p (O s) ≠ p) : coupling n O S p p = S (0 :: p) := by
  unfold coupling sum
  rw [irange_zero hn, List.map_cons, List.sum_cons, if_pos hd]
  have : ((irange 1 (n - 1)).map fun s => if shift p (O s) = p then S (s :: p) else 0).sum = sum 1 (n - 1) fun _ => (0 : T) := by
    refine sum_congr fun s h1 h2 => ?_
    rw [if_neg (ha s h1 (by omega))]
  rw [this]
  simp [sum]

variable {F X W : List Int → T} {p : List Int}

theorem scaled_sum : scaled n O S F W p = (F p - sum 0 (n - 1) fun s => S (s :: p) * W (shift p (O s))) / S (0 :: p) := by
  unfold scaled
  rw [foldl_sub]
  rfl

theorem row_error (he : Eqn n O S F X p) (h0 : S (0 :: p) ≠ 0) :
    sum 0 (n - 1) (fun s => S (s :: p) * (W (shift p (O s)) - X (shift p (O s)))) = - (S (0 :: p) * scaled n O S F W p) := by
  rw [scaled_sum, mul_div_cancel₀ _ h0, ← he, neg_sub, ← sum_sub]
  exact sum_congr fun s _ _ => by ring

variable [LinearOrder T] [IsStrictOrderedRing T]

/-- one cell solved for -/
theorem step_energy (hs : Symmetric box n O S) (hn : 1 ≤ n) (hp : InBounds box p) (hd : shift p (O 0) = p) (ha : ∀ s, 1 ≤ s → s < n → shift p (O s) ≠ p)
    (h0 : S (0 :: p) ≠ 0) (hX : Eqn n O S F X p) (hW : ∀ q, ¬ InBounds box q → W q = X q) :
    energy box n O S (fun q => upd W p (solve n O S F W p) q - X q) =
      energy box n O S (fun q => W q - X q) - S (0 :: p) * ((solve n O S F W p - W p) * (solve n O S F W p - W p)) := by
  have hp' : p ∈ (cells box).toFinset := by rwa [List.mem_toFinset, mem_cells]
  have z1 : ∀ q, ¬ InBounds box q → W q - X q = 0 := fun q hq => by rw [hW q hq, sub_self]
  have z2 : ∀ q, ¬ InBounds box q → upd W p (solve n O S F W p) q - X q = 0 := fun q hq => by
    rw [upd, if_neg (show ¬ q = p from fun e => hq (by rw [e]; exact hp)), hW q hq, sub_self]
  have e : ∀ q, upd W p (solve n O S F W p) q - X q = (W q - X q) + if q = p then scaled n O S F W p else 0 := by
    intro q
    rw [upd, scaled_solve hn hd h0]
    split
    · rename_i h; rw [h]; ring
    · ring
  rw [energy_eq z1, energy_eq z2]
  simp only [e]
  rw [quad_add (symm_cells hs), ← scaled_solve hn hd h0]
  simp only [ite_mul, zero_mul, mul_ite, mul_zero, Finset.sum_ite_eq', hp', if_true]
  rw [← lhs_coupling (E := fun q => W q - X q) z1, row_error hX h0, coupling_diag hn hd ha]
  ring

end

section
variable {T : Type} [Field T] [LinearOrder T] [IsStrictOrderedRing T] {box : List (Int × Int)} {n : Int} {O : Int → List Int} {S F X : List Int → T}

theorem swp_energy (hs : Symmetric box n O S) (hn : 1 ≤ n) (hd : ∀ p, InBounds box p → shift p (O 0) = p)
    (ha : ∀ p, InBounds box p → ∀ s, 1 ≤ s → s < n → shift p (O s) ≠ p) (h0 : ∀ p, InBounds box p → 0 < S (0 :: p))
    (hX : ∀ p, InBounds box p → Eqn n O S F X p) : ∀ (l : List (List Int)) (W : List Int → T), (∀ p ∈ l, InBounds box p) → (∀ q, ¬ InBounds box q → W q = X q) →
    energy box n O S (fun q => swp (fun p W => solve n O S F W p) l W q - X q) ≤ energy box n O S (fun q => W q - X q) ∧
      (energy box n O S (fun q => swp (fun p W => solve n O S F W p) l W q - X q) = energy box n O S (fun q => W q - X q) →
        swp (fun p W => solve n O S F W p) l W = W)
  | [], W, _, _ => ⟨le_rfl, fun _ => rfl⟩
  | p :: l, W, hl, hW => by
    have hp := hl p (by simp)
    have st := step_energy hs hn hp (hd p hp) (ha p hp) (h0 p hp).ne' (hX p hp) hW
    obtain ⟨i1, i2⟩ := swp_energy hs hn hd ha h0 hX l (upd W p (solve n O S F W p)) (fun q hq => hl q (by simp [hq])) (fun q hq => by
      rw [upd, if_neg (show ¬ q = p from fun e => hq (by rw [e]; exact hp)), hW q hq])
    have hq : 0 ≤ S (0 :: p) * ((solve n O S F W p - W p) * (solve n O S F W p - W p)) := mul_nonneg (h0 p hp).le (mul_self_nonneg _)
    rw [swp]
    refine ⟨by linarith, fun e => ?_⟩
    have hz : S (0 :: p) * ((solve n O S F W p - W p) * (solve n O S F W p - W p)) = 0 := by linarith
    have hv : solve n O S F W p = W p := by
      rcases mul_eq_zero.1 hz with h | h
      · exact absurd h (h0 p hp).ne'
      · exact sub_eq_zero.1 (mul_self_eq_zero.1 h)
    have hu : upd W p (solve n O S F W p) = W := by
      funext q
      rw [upd]
      split
      · rename_i h; rw [h, hv]
      · rfl
    rw [i2 (by linarith), hu]

theorem swp_swept {l : List (List Int)} {P : List Int → Prop} [DecidablePred P] {U : List Int → T} (hP : ∀ p, p ∈ l ↔ P p) (hl : l.Pairwise Before) :
    Swept P n O S F U (swp (fun p W => solve n O S F W p) l U) where
  other p hp := swp_not_mem fun h => hp ((hP p).1 h)
  cell p hp := by
    obtain ⟨V, e, h1, h2⟩ := swp_mem (G := fun p W => solve n O S F W p) (W := U) hl before_asymm ((hP p).2 hp)
    rw [e]
    congr 1
    funext q
    split
    · rename_i h; exact h1 q ((hP q).2 h.1) h.2
    · rename_i h; exact h2 q fun h' => h ⟨(hP q).1 h'.1, h'.2⟩

/-- a sweep over some cells -/
theorem swept_energy {l : List (List Int)} {P : List Int → Prop} [DecidablePred P] {U U' : List Int → T} (hP : ∀ p, p ∈ l ↔ P p) (hl : l.Pairwise Before)
    (hb : ∀ p, P p → InBounds box p) (hs : Symmetric box n O S) (hn : 1 ≤ n) (hd : ∀ p, InBounds box p → shift p (O 0) = p)
    (ha : ∀ p, InBounds box p → ∀ s, 1 ≤ s → s < n → shift p (O s) ≠ p) (h0 : ∀ p, InBounds box p → 0 < S (0 :: p))
    (hX : Solved box n O S F X U) (h : Swept P n O S F U U') :
    energy box n O S (fun q => U' q - X q) ≤ energy box n O S (fun q => U q - X q) ∧
      (energy box n O S (fun q => U' q - X q) = energy box n O S (fun q => U q - X q) ↔ ∀ p, P p → Eqn n O S F U p) := by
  obtain rfl := swept_unique hP hl h (swp_swept hP hl)
  obtain ⟨i1, i2⟩ := swp_energy hs hn hd ha h0 hX.eqn l U (fun p hp => hb p ((hP p).1 hp)) hX.outside
  have f := swept_fixed hn (fun p hp => hd p (hb p hp)) (fun p hp => (h0 p (hb p hp)).ne') hP hl h
  exact ⟨i1, fun e => f.1 (i2 e), fun e => by rw [f.2 e]⟩

theorem row_sum (hn : 1 ≤ n) (h0 : ∀ p, InBounds box p → 0 < S (0 :: p))
    (hr : ∀ p, InBounds box p → sum 1 (n - 1) (fun s => |S (s :: p)|) ≤ S (0 :: p)) :
    ∀ x ∈ (cells box).toFinset, ∑ y ∈ (cells box).toFinset, |coupling n O S x y| ≤ 2 * S (0 :: x) := by
  intro x hx
  rw [List.mem_toFinset, mem_cells] at hx
  have h1 : ∑ y ∈ (cells box).toFinset, |coupling n O S x y| ≤ ∑ y ∈ (cells box).toFinset, sum 0 (n - 1) fun s => if shift x (O s) = y then |S (s :: x)| else 0 := by
    refine Finset.sum_le_sum fun y _ => ?_
    refine sum_abs.trans (le_of_eq (sum_congr fun s _ _ => ?_))
    split <;> simp
  refine h1.trans ?_
  rw [List.sum_toFinset _ nodup_cells, sum_list]
  have h2 : (sum 0 (n - 1) fun s => ((cells box).map fun y => if shift x (O s) = y then |S (s :: x)| else 0).sum) ≤ sum 0 (n - 1) fun s => |S (s :: x)| := by
    refine sum_mono fun s _ _ => ?_
    rw [← List.sum_toFinset _ nodup_cells, Finset.sum_ite_eq]
    split
    · exact le_rfl
    · exact abs_nonneg _
  refine h2.trans ?_
  have h3 : sum 0 (n - 1) (fun s => |S (s :: x)|) = |S (0 :: x)| + sum 1 (n - 1) fun s => |S (s :: x)| := by
    unfold sum
    rw [irange_zero hn, List.map_cons, List.sum_cons]
  rw [h3, abs_of_pos (h0 x hx)]
  linarith [hr x hx]

theorem energy_nonneg (hs : Symmetric box n O S) (hn : 1 ≤ n) (hd : ∀ p, InBounds box p → shift p (O 0) = p)
    (ha : ∀ p, InBounds box p → ∀ s, 1 ≤ s → s < n → shift p (O s) ≠ p) (h0 : ∀ p, InBounds box p → 0 < S (0 :: p))
    (hr : ∀ p, InBounds box p → sum 1 (n - 1) (fun s => |S (s :: p)|) ≤ S (0 :: p)) (hE : ∀ q, ¬ InBounds box q → E q = 0) : 0 ≤ energy box n O S E := by
  rw [energy_eq hE]
  have dg : ∀ x ∈ (cells box).toFinset, coupling n O S x x = S (0 :: x) := fun x hx => by
    rw [List.mem_toFinset, mem_cells] at hx
    exact coupling_diag hn (hd x hx) (ha x hx)
  have q := quad_le (L := (cells box).toFinset) (a := fun x y => (if x = y then 2 * S (0 :: x) else 0) - coupling n O S x y) (d := fun x => S (0 :: x)) (z := E)
    (fun x hx y hy => by
      rw [symm_cells hs x hx y hy]
      by_cases c : x = y
      · subst c; rfl
      · rw [if_neg c, if_neg (Ne.symm c)])
    (fun x hx => by
      refine le_trans (le_of_eq (Finset.sum_congr rfl fun y hy => ?_)) (row_sum (O := O) hn h0 hr x hx)
      by_cases c : x = y
      · subst c
        rw [if_pos rfl, dg x hx]; congr 1; ring
      · rw [if_neg c, zero_sub, abs_neg])
  have e : ∑ x ∈ (cells box).toFinset, E x * ∑ y ∈ (cells box).toFinset, ((if x = y then 2 * S (0 :: x) else 0) - coupling n O S x y) * E y =
      2 * ∑ x ∈ (cells box).toFinset, S (0 :: x) * (E x * E x) - ∑ x ∈ (cells box).toFinset, E x * ∑ y ∈ (cells box).toFinset, coupling n O S x y * E y := by
    rw [Finset.mul_sum, ← Finset.sum_sub_distrib]
    refine Finset.sum_congr rfl fun x hx => ?_
    simp only [sub_mul, Finset.sum_sub_distrib, ite_mul, zero_mul, Finset.sum_ite_eq, if_pos hx]
    ring
  rw [e] at q
  linarith

/-- damped Jacobi -/
theorem jacobi_energy {U U' : List Int → T} {w : T} (w0 : 0 < w) (w1 : w < 1) (hs : Symmetric box n O S) (hn : 1 ≤ n) (h0 : ∀ p, InBounds box p → 0 < S (0 :: p))
    (hr : ∀ p, InBounds box p → sum 1 (n - 1) (fun s => |S (s :: p)|) ≤ S (0 :: p)) (hX : Solved box n O S F X U)
    (ho : ∀ p, ¬ InBounds box p → U' p = U p) (hc : ∀ p, InBounds box p → U' p = U p + w * scaled n O S F U p) :
    energy box n O S (fun q => U' q - X q) ≤ energy box n O S (fun q => U q - X q) ∧
      (energy box n O S (fun q => U' q - X q) = energy box n O S (fun q => U q - X q) ↔ ∀ p, InBounds box p → Eqn n O S F U p) := by
  have z1 : ∀ q, ¬ InBounds box q → U q - X q = 0 := fun q hq => by rw [hX.outside q hq, sub_self]
  have z2 : ∀ q, ¬ InBounds box q → U' q - X q = 0 := fun q hq => by rw [ho q hq]; exact z1 q hq
  let z : List Int → T := fun q => U' q - U q
  have e : ∀ q, U' q - X q = (U q - X q) + z q := by intro q; simp only [z]; ring
  have row := row_sum (O := O) hn h0 hr
  have main : energy box n O S (fun q => U' q - X q) ≤
      energy box n O S (fun q => U q - X q) - 2 * (w * (1 - w)) * ∑ x ∈ (cells box).toFinset, S (0 :: x) * (scaled n O S F U x * scaled n O S F U x) := by
    rw [energy_eq z1, energy_eq z2]
    simp only [e]
    rw [quad_add (symm_cells hs)]
    have q1 := quad_le (z := z) (symm_cells hs) row
    have q2 : ∑ x ∈ (cells box).toFinset, z x * ∑ y ∈ (cells box).toFinset, coupling n O S x y * (U y - X y) =
        ∑ x ∈ (cells box).toFinset, -(w * (S (0 :: x) * (scaled n O S F U x * scaled n O S F U x))) := by
      refine Finset.sum_congr rfl fun x hx => ?_
      rw [List.mem_toFinset, mem_cells] at hx
      rw [← lhs_coupling (E := fun q => U q - X q) z1, row_error (hX.eqn x hx) (h0 x hx).ne']
      simp only [z]
      rw [hc x hx]; ring
    have q3 : ∑ x ∈ (cells box).toFinset, S (0 :: x) * (z x * z x) =
        ∑ x ∈ (cells box).toFinset, w * w * (S (0 :: x) * (scaled n O S F U x * scaled n O S F U x)) := by
      refine Finset.sum_congr rfl fun x hx => ?_
      rw [List.mem_toFinset, mem_cells] at hx
      simp only [z]
      rw [hc x hx]; ring
    rw [Finset.sum_neg_distrib, ← Finset.mul_sum] at q2
    rw [q3, ← Finset.mul_sum] at q1
    rw [q2]
    linarith
  have nn : ∀ x ∈ (cells box).toFinset, 0 ≤ S (0 :: x) * (scaled n O S F U x * scaled n O S F U x) := by
    intro x hx
    rw [List.mem_toFinset, mem_cells] at hx
    exact mul_nonneg (h0 x hx).le (mul_self_nonneg _)
  have ww : 0 < 2 * (w * (1 - w)) := by nlinarith [mul_pos w0 (sub_pos.2 w1)]
  have sn := Finset.sum_nonneg nn
  have es : ∀ p, InBounds box p → (Eqn n O S F U p ↔ scaled n O S F U p = 0) := by
    intro p hp
    rw [scaled_sum, div_eq_zero_iff, or_iff_left (h0 p hp).ne', sub_eq_zero]
    exact ⟨fun h => h.symm, fun h => h.symm⟩
  refine ⟨by linarith [mul_nonneg ww.le sn], fun h => ?_, fun h => ?_⟩
  · intro p hp
    rw [es p hp]
    have hz : ∑ x ∈ (cells box).toFinset, S (0 :: x) * (scaled n O S F U x * scaled n O S F U x) = 0 := by
      by_contra hne
      have := mul_pos ww (lt_of_le_of_ne sn (Ne.symm hne))
      linarith
    have := (Finset.sum_eq_zero_iff_of_nonneg nn).1 hz p (by rwa [List.mem_toFinset, mem_cells])
    rcases mul_eq_zero.1 this with h | h
    · exact absurd h (h0 p hp).ne'
    · exact mul_self_eq_zero.1 h
  · congr 1
    funext q
    by_cases hq : InBounds box q
    · rw [hc q hq, (es q hq).1 (h q hq), mul_zero, add_zero]
    · rw [ho q hq]

end

end Verif.F
