import Verif.Lemmas.BoundarySolve
import Verif.Lemmas.Solve
import Mathlib.Tactic.ComputeDegree
import Mathlib.Algebra.Polynomial.Eval.Degree

/-
Boundary value problems for the difference equations have exactly one solution, unless nothing ties the level of the field: a largest value spreads
over the box.
-/

set_option linter.unusedSectionVars false
set_option linter.unusedSimpArgs false

namespace Verif
open Spec

namespace F
variable {T : Type} [Field T] [LinearOrder T] [IsStrictOrderedRing T]
variable {box : List (Int × Int)} {n : Int} {O : Int → List Int} {S X D G k : List Int → T} {ps : List (Piece T)}

open Classical in
/-- the rows `S` with the factors of the pieces, and the diagonal that goes with them -/
noncomputable def withFactors (n : Int) (ps : List (Piece T)) (S k : List Int → T) : List Int → T
  | e :: c => if e = 0 then -sum 1 (n - 1) (fun e => factor ps c e * S (e :: c)) + k c else factor ps c e * S (e :: c)
  | [] => 0

theorem withFactors_pos {e : Int} {c : List Int} (h : 1 ≤ e) : withFactors n ps S k (e :: c) = factor ps c e * S (e :: c) :=
  if_neg (by omega)

theorem withFactors_zero {c : List Int} : withFactors n ps S k (0 :: c) = -sum 1 (n - 1) (fun e => withFactors n ps S k (e :: c)) + k c := by
  rw [sum_congr (g := fun e => factor ps c e * S (e :: c)) fun e h0 _ => withFactors_pos h0]
  simp only [withFactors, if_true]

/-- a sum of terms that are not positive and that is not negative has zero terms -/
theorem sum_zero_of {a b : Int} {f : Int → T} (hf : ∀ e, a ≤ e → e ≤ b → f e ≤ 0) (h : 0 ≤ sum a b f) : ∀ e, a ≤ e → e ≤ b → f e = 0 := by
  intro e h0 h1
  unfold sum at h
  have hr : ∀ l : List Int, (∀ x ∈ l, f x ≤ 0) → (l.map f).sum ≤ 0 := by
    intro l
    induction l with
    | nil => simp
    | cons z l ih =>
      intro h
      rw [List.map_cons, List.sum_cons]
      linarith [h z (by simp), ih fun x hx => h x (List.mem_cons_of_mem _ hx)]
  have key : ∀ l : List Int, (∀ x ∈ l, f x ≤ 0) → 0 ≤ (l.map f).sum → ∀ x ∈ l, f x = 0 := by
    intro l
    induction l with
    | nil => simp
    | cons y l ih =>
      intro hl hs x hx
      rw [List.map_cons, List.sum_cons] at hs
      have hy := hl y (by simp)
      have hr := hr l fun a ha => hl a (List.mem_cons_of_mem _ ha)
      rcases List.mem_cons.1 hx with rfl | hx
      · linarith
      · exact ih (fun a ha => hl a (List.mem_cons_of_mem _ ha)) (by linarith) x hx
  exact key _ (fun x hx => hf x (mem_irange.1 hx).1 (mem_irange.1 hx).2) h e (mem_irange.2 ⟨h0, h1⟩)

/-- rows with zero sum but for `k`, entries off the diagonal not positive: a field that is zero outside and meets the homogeneous equations is zero -/
theorem tied_zero (hn : 1 ≤ n) (hO : ∀ p, InBounds box p → shift p (O 0) = p)
    (hs : ∀ c, InBounds box c → ∀ e, 1 ≤ e → e ≤ n - 1 → S (e :: c) < 0) (hk : ∀ c, InBounds box c → 0 ≤ k c)
    (hf : ∀ c e, 0 ≤ factor ps c e) (hin : ∀ c, InBounds box c → ∀ e, 1 ≤ e → e ≤ n - 1 → InBounds box (shift c (O e)) → 0 < factor ps c e)
    (ho : ∀ c, InBounds box c → ∀ e, 1 ≤ e → e ≤ n - 1 → (∀ q ∈ ps, q.cells c → q.ghost = e → q.btype ≠ 1) → 0 < factor ps c e)
    (conn : ∀ P : List Int → Prop, (∀ c, InBounds box c → P c → ∀ e, 1 ≤ e → e ≤ n - 1 → InBounds box (shift c (O e)) → P (shift c (O e))) →
      ∀ c c', InBounds box c → InBounds box c' → P c → P c')
    (ht : Tied box n O ps k) {U : List Int → T} (hU : ∀ p, ¬ InBounds box p → U p = 0)
    (hL : ∀ p, InBounds box p → sum 0 (n - 1) (fun e => withFactors n ps S k (e :: p) * U (shift p (O e))) = 0) :
    ∀ p, InBounds box p → U p = 0 := by
  have fin := finite_inBounds box
  obtain ⟨E, g1, g2⟩ := exists_largest (fun p => |U p|) fin.toFinset.toList
  have mem : ∀ p, p ∈ fin.toFinset.toList ↔ InBounds box p := fun p => by simp
  obtain ⟨c, hc, htc⟩ := ht
  rcases g2 with h | ⟨p, hp, e⟩
  · exact absurd ((mem c).2 hc) (by rw [h]; simp)
  rw [mem] at hp
  have all : ∀ q, |U q| ≤ E := fun q => by
    by_cases hq : InBounds box q
    · exact g1 q ((mem q).2 hq)
    · rw [hU q hq, abs_zero, ← e]; exact abs_nonneg _
  have e0 : 0 ≤ E := e ▸ abs_nonneg _
  by_contra hne
  have epos : 0 < E := lt_of_le_of_ne e0 fun h => hne fun q _ => abs_nonpos_iff.1 (h ▸ all q)
  -- at a cell with the largest value all terms agree
  have step : ∀ c, InBounds box c → |U c| = E → k c = 0 ∧ ∀ e, 1 ≤ e → e ≤ n - 1 → 0 < factor ps c e → |U (shift c (O e))| = E := by
    intro c hc hE
    have hl := hL c hc
    rw [sum0_cons hn, hO c hc, withFactors_zero] at hl
    have W : ∀ e, 1 ≤ e → e ≤ n - 1 → withFactors n ps S k (e :: c) ≤ 0 := fun e h0 h1 => by
      rw [withFactors_pos h0]
      exact mul_nonpos_of_nonneg_of_nonpos (hf c e) (hs c hc e h0 h1).le
    -- multiply with the sign of `U c`
    obtain ⟨σ, hσ, hσ'⟩ : ∃ σ : T, |σ| = 1 ∧ σ * U c = E := by
      rcases le_total 0 (U c) with h | h
      · exact ⟨1, abs_one, by rw [one_mul, ← hE, abs_of_nonneg h]⟩
      · exact ⟨-1, by simp, by rw [neg_one_mul, ← hE, abs_of_nonpos h]⟩
    have hle : ∀ q, σ * U q ≤ E := fun q => (le_abs_self _).trans (by rw [abs_mul, hσ, one_mul]; exact all q)
    have t : sum 1 (n - 1) (fun e => withFactors n ps S k (e :: c) * (E - σ * U (shift c (O e)))) = k c * E := by
      have h1 : sum 1 (n - 1) (fun e => withFactors n ps S k (e :: c) * (E - σ * U (shift c (O e)))) =
          sum 1 (n - 1) (fun e => withFactors n ps S k (e :: c)) * E - sum 1 (n - 1) (fun e => withFactors n ps S k (e :: c) * U (shift c (O e))) * σ := by
        rw [← sum_mul, ← sum_mul, ← sum_sub]
        exact sum_congr fun e _ _ => by ring
      rw [h1, ← hσ']
      linear_combination -σ * hl
    have np : ∀ e, 1 ≤ e → e ≤ n - 1 → withFactors n ps S k (e :: c) * (E - σ * U (shift c (O e))) ≤ 0 := fun e h0 h1 =>
      mul_nonpos_of_nonpos_of_nonneg (W e h0 h1) (sub_nonneg.2 (hle _))
    have z := sum_zero_of np (t ▸ mul_nonneg (hk c hc) e0)
    have sz : sum 1 (n - 1) (fun e => withFactors n ps S k (e :: c) * (E - σ * U (shift c (O e)))) = 0 := by
      rw [sum_congr (g := fun _ => (0 : T)) z]
      unfold sum
      simp
    refine ⟨?_, fun e h0 h1 hp => ?_⟩
    · rw [sz] at t
      exact (mul_eq_zero.1 t.symm).resolve_right epos.ne'
    · have w : withFactors n ps S k (e :: c) < 0 := by
        rw [withFactors_pos h0]
        exact mul_neg_of_pos_of_neg hp (hs c hc e h0 h1)
      have h2 := (mul_eq_zero.1 (z e h0 h1)).resolve_left w.ne
      have h3 : σ * U (shift c (O e)) = E := by linarith
      have h4 := congrArg abs h3
      rw [abs_mul, hσ, one_mul, abs_of_pos epos] at h4
      exact h4
  have top : |U c| = E := conn (fun q => |U q| = E) (fun q hq hE e h0 h1 hi => (step q hq hE).2 e h0 h1 (hin q hq e h0 h1 hi)) p c hp hc e
  rcases htc with h | ⟨e', h0, h1, hout, hb⟩
  · rw [(step c hc top).1] at h
    exact lt_irrefl _ h
  · have := (step c hc top).2 e' h0 h1 (ho c hc e' h0 h1 hb)
    rw [hU _ hout, abs_zero] at this
    exact epos.ne this

/-- a polynomial that meets a condition of first order and has a given value in the cell -/
theorem meets_exists {btype order : Int} {h b g x : T} (hf : First btype order) (hh : 0 < h) (hb : 0 ≤ b) :
    ∃ y : Polynomial T, Meets btype order b g y ∧ x = y.eval (1 / 2 * h) := by
  rcases hf with ⟨rfl, rfl⟩ | rfl | ⟨rfl, rfl⟩
  · refine ⟨Polynomial.C g + Polynomial.C (2 * (x - g) / h) * Polynomial.X, Or.inl ⟨rfl, rfl, by compute_degree, by simp⟩, ?_⟩
    simp only [Polynomial.eval_add, Polynomial.eval_mul, Polynomial.eval_C, Polynomial.eval_X]
    field_simp
    ring
  · exact ⟨Polynomial.C x, Or.inr (.inr (.inl ⟨rfl, by rw [Polynomial.natDegree_C]; omega, by simp⟩)), by simp⟩
  · have hp : 4 * b + h ≠ 0 := by linarith
    refine ⟨Polynomial.C (g + 2 * b * (2 * (x - g) / (4 * b + h))) + Polynomial.C (2 * (x - g) / (4 * b + h)) * Polynomial.X,
      Or.inr (.inr (.inr (.inl ⟨rfl, rfl, by compute_degree, ?_⟩))), ?_⟩
    · simp
    · simp only [Polynomial.eval_add, Polynomial.eval_mul, Polynomial.eval_C, Polynomial.eval_X]
      field_simp
      ring

theorem factor_pos {c : List Int} {e : Int} (hd : Disjoint ps) (hq : ∀ q ∈ ps, First q.btype q.order ∧ 0 < q.width ∧ ∀ c, q.cells c → 0 ≤ q.coef c)
    (h : ∀ q ∈ ps, q.cells c → q.ghost = e → q.btype ≠ 1) : 0 < factor ps c e := by
  by_cases hk : ∃ q ∈ ps, q.cells c ∧ q.ghost = e
  · obtain ⟨q, hk, hc, rfl⟩ := hk
    rw [factor_at hd hk hc]
    obtain ⟨h1, h2, h3⟩ := hq q hk
    have h4 := h q hk hc rfl
    have h5 := h3 c hc
    unfold Piece.fac facU
    rcases h1 with ⟨a, b⟩ | a | ⟨a, b⟩
    · simp [a, b]
    · exact absurd a h4
    · simp only [a, show ¬ (4 : Int) = 0 by decide, show ¬ (4 : Int) = 1 by decide, if_false]
      exact div_pos (by linarith) (by linarith)
  · rw [factor_one fun q hq' hc he => hk ⟨q, hq', hc, he⟩]
    exact one_pos

/-- exactly one field solves the boundary value problem -/
theorem bv_one (hn : 1 ≤ n) (hO : ∀ p, InBounds box p → shift p (O 0) = p)
    (hS : ∀ c, InBounds box c → S (0 :: c) = -sum 1 (n - 1) (fun e => S (e :: c)) + k c)
    (hs : ∀ c, InBounds box c → ∀ e, 1 ≤ e → e ≤ n - 1 → S (e :: c) < 0) (hk : ∀ c, InBounds box c → 0 ≤ k c)
    (hd : Disjoint ps) (hc : ∀ q ∈ ps, First q.btype q.order ∧ 0 < q.width ∧ ∀ c, q.cells c → InBounds box c ∧ ¬ InBounds box (shift c (O q.ghost)) ∧ 0 ≤ q.coef c)
    (hg : ∀ q ∈ ps, 1 ≤ q.ghost ∧ q.ghost ≤ n - 1)
    (conn : ∀ P : List Int → Prop, (∀ c, InBounds box c → P c → ∀ e, 1 ≤ e → e ≤ n - 1 → InBounds box (shift c (O e)) → P (shift c (O e))) →
      ∀ c c', InBounds box c → InBounds box c' → P c → P c')
    (uniq : ∀ c c', InBounds box c → InBounds box c' → ∀ e e', 1 ≤ e → e ≤ n - 1 → 1 ≤ e' → e' ≤ n - 1 → ¬ InBounds box (shift c (O e)) →
      shift c (O e) = shift c' (O e') → c = c' ∧ e = e')
    (ht : Tied box n O ps k) (G D : List Int → T) :
    ∃ X, Fulfils box n O ps D X ∧ (∀ p, InBounds box p → Eqn n O S G X p) ∧
      ∀ X', Fulfils box n O ps D X' → (∀ p, InBounds box p → Eqn n O S G X' p) → ∀ p, InBounds box p → X' p = X p := by
  classical
  have hc2 : ∀ q ∈ ps, First q.btype q.order ∧ 0 < q.width ∧ ∀ c, q.cells c → 0 ≤ q.coef c := fun q hq => ⟨(hc q hq).1, (hc q hq).2.1, fun c h => ((hc q hq).2.2 c h).2.2⟩
  have hc3 : ∀ q ∈ ps, First q.btype q.order ∧ ∀ c, q.cells c → InBounds box c ∧ ¬ InBounds box (shift c (O q.ghost)) ∧ (q.btype = 4 → 4 * q.coef c + q.width ≠ 0) :=
    fun q hq => ⟨(hc q hq).1, fun c h => by
      obtain ⟨a, b, d⟩ := (hc q hq).2.2 c h
      exact ⟨a, b, fun _ => by have := (hc q hq).2.1; linarith⟩⟩
  have hf : ∀ c e, 0 ≤ factor ps c e := fun c e => (factor_bounds hd fun q hq hqc => facU_bounds (hc q hq).1 (hc q hq).2.1 ((hc q hq).2.2 c hqc).2.2).1
  have zero := fun U => tied_zero (S := S) (U := U) hn hO hs hk hf
    (fun c hc' e h0 h1 hi => factor_pos hd hc2 fun q hq hqc he => absurd (he ▸ hi) ((hc q hq).2.2 c hqc).2.1)
    (fun c hc' e h0 h1 hb => factor_pos hd hc2 hb) conn ht
  have iff := fun (X Y : List Int → T) (hF : Fulfils box n O ps D X) (hY : ∀ p, InBounds box p → Y p = X p) (hD : ∀ p, ¬ InBounds box p → Y p = D p) p hp =>
    bv_eqn (S' := withFactors n ps S k) (G := G) (p := p) hn hO hS (fun _ _ => withFactors_zero) (fun c _ e h0 _ => withFactors_pos h0) hd hF hc3 hY hD hp
  obtain ⟨Y, hYD, hYG⟩ := solvable (box := box) (fun U p => sum 0 (n - 1) fun e => withFactors n ps S k (e :: p) * U (shift p (O e)))
    (fun U V p => by rw [← sum_add]; exact sum_congr fun e _ _ => by ring)
    (fun c U p => by rw [mul_comm c, ← sum_mul]; exact sum_congr fun e _ _ => by ring) (fun U h1 h2 => zero U h1 h2) D G
  -- ghost values
  let X : List Int → T := fun z => if InBounds box z then Y z else
    if h : ∃ q : Piece T × List Int, q.1 ∈ ps ∧ q.1.cells q.2 ∧ shift q.2 (O q.1.ghost) = z then h.choose.1.fac h.choose.2 * D z + (1 - h.choose.1.fac h.choose.2) * Y h.choose.2 else D z
  have hX : ∀ p, InBounds box p → Y p = X p := fun p hp => (if_pos hp).symm
  have hF : Fulfils box n O ps D X := by
    refine ⟨fun q hq p hp => ?_, fun p hp e h0 h1 ho hno => ?_⟩
    · obtain ⟨c1, c2, c3⟩ := (hc q hq).2.2 p hp
      obtain ⟨y, hm, hy⟩ := meets_exists (g := D (shift p (O q.ghost))) (x := X p) (hc q hq).1 (hc q hq).2.1 c3
      refine ⟨y, hm, hy, ?_⟩
      have hfi := (hc q hq).1
      have hv : (facV q.btype q.order : T) = 0 := by
        unfold facV
        rcases hfi with ⟨h, h'⟩ | h | ⟨h, h'⟩ <;> simp [h, *]
      rw [weights hm (by rintro ⟨h4, h2⟩; rcases hfi with h | h | h <;> omega) (((hc3 q hq).2 p hp).2.2), hv, ← hy]
      have hex : ∃ q' : Piece T × List Int, q'.1 ∈ ps ∧ q'.1.cells q'.2 ∧ shift q'.2 (O q'.1.ghost) = shift p (O q.ghost) := ⟨(q, p), hq, hp, rfl⟩
      have e1 : X (shift p (O q.ghost)) = hex.choose.1.fac hex.choose.2 * D (shift p (O q.ghost)) + (1 - hex.choose.1.fac hex.choose.2) * Y hex.choose.2 := by
        show ite _ _ _ = _
        rw [if_neg c2, dif_pos hex]
      obtain ⟨s1, s2, s3⟩ := hex.choose_spec
      obtain ⟨u1, u2⟩ := uniq _ _ c1 ((hc _ s1).2.2 _ s2).1 q.ghost hex.choose.1.ghost (hg q hq).1 (hg q hq).2 (hg _ s1).1 (hg _ s1).2 c2 s3.symm
      have e2 : hex.choose.1.fac hex.choose.2 = q.fac p := by
        rw [← factor_at hd s1 s2, ← factor_at hd hq hp, ← u2, ← u1]
      rw [e1, e2, ← u1, hX p c1]
      unfold Piece.fac
      ring
    · show ite _ _ _ = _
      rw [if_neg ho, dif_neg]
      rintro ⟨⟨q, c⟩, s1, s2, s3⟩
      obtain ⟨u1, u2⟩ := uniq _ _ hp ((hc _ s1).2.2 _ s2).1 e q.ghost h0 h1 (hg _ s1).1 (hg _ s1).2 ho s3.symm
      subst u1
      exact hno q s1 s2 u2.symm
  refine ⟨X, hF, fun p hp => (iff X Y hF hX hYD p hp).1 (hYG p hp), fun X' hF' hE' => ?_⟩
  have d := zero (fun p => (if InBounds box p then X' p else D p) - Y p) (fun p hp => by simp only [if_neg hp, hYD p hp, sub_self]) fun p hp => by
    have h1 := (iff X' (fun p => if InBounds box p then X' p else D p) hF' (fun p hp => if_pos hp) (fun p hp => if_neg hp) p hp).2 (hE' p hp)
    unfold Eqn at h1
    rw [sum_congr (g := fun e => withFactors n ps S k (e :: p) * (if InBounds box (shift p (O e)) then X' (shift p (O e)) else D (shift p (O e))) -
      withFactors n ps S k (e :: p) * Y (shift p (O e))) fun e _ _ => by ring, sum_sub, h1, hYG p hp, sub_self]
  intro p hp
  have := d p hp
  simp only [if_pos hp] at this
  rw [← hX p hp]
  exact sub_eq_zero.1 this

end F
end Verif
