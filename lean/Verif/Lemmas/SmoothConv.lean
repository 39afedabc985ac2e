import Verif.Spec.Converge
import Verif.Lemmas.SmoothRun
import Verif.Lemmas.Energy
import Mathlib.Algebra.Order.Field.Basic
import Mathlib.Algebra.Order.AbsoluteValue.Basic

/-
Error bounds for sweeps under diagonal dominance.
-/

set_option linter.unusedSectionVars false

namespace Verif.F

variable {T : Type}

theorem times_inv {c : Cmd T} {m : Mem T} {I : Nat → Mem T → Prop} (h0 : I 0 m) (hc : ∀ k m1, I k m1 → ∃ m2, c m1 = .ok m2 ∧ I (k + 1) m2) :
    ∀ k, ∃ m', times c k m = .ok m' ∧ I k m'
  | 0 => ⟨m, rfl, h0⟩
  | k + 1 => by
    obtain ⟨m1, e, h⟩ := times_inv h0 hc k
    obtain ⟨m2, e', h'⟩ := hc k m1 h
    exact ⟨m2, by rw [times, e, M.ok_bind, e'], h'⟩

section
variable [Field T] [LinearOrder T] [IsStrictOrderedRing T] {w : List Int → T} {n : Int} {O : Int → List Int} {S F U W X : List Int → T} {p : List Int} {q E : T}

theorem sum_abs {lo hi : Int} {f : Int → T} : |sum lo hi f| ≤ sum lo hi fun i => |f i| := by
  unfold sum
  induction irange lo hi with
  | nil => simp
  | cons a l ih =>
    simp only [List.map_cons, List.sum_cons]
    exact (abs_add_le _ _).trans (add_le_add le_rfl ih)

theorem solve_sum : solve n O S F W p = (F p - sum 1 (n - 1) fun s => S (s :: p) * W (shift p (O s))) / S (0 :: p) := by
  unfold solve
  rw [foldl_sub]
  rfl

theorem scaled_solve (hn : 1 ≤ n) (hd : shift p (O 0) = p) (h0 : S (0 :: p) ≠ 0) : scaled n O S F W p = solve n O S F W p - W p := by
  unfold scaled solve
  rw [foldl_sub, foldl_sub, irange_zero hn, List.map_cons, List.sum_cons, hd]
  field_simp
  ring

/-- the new value of a cell, from values with error at most `E w` -/
theorem solve_bound (hn : 1 ≤ n) (hd : shift p (O 0) = p) (h0 : S (0 :: p) ≠ 0)
    (hq : sum 1 (n - 1) (fun s => |S (s :: p)| * w (shift p (O s))) ≤ q * (|S (0 :: p)| * w p))
    (hX : Eqn n O S F X p) (hE : 0 ≤ E) (hW : ∀ s, 1 ≤ s → s < n → |W (shift p (O s)) - X (shift p (O s))| ≤ E * w (shift p (O s))) :
    |solve n O S F W p - X p| ≤ q * E * w p := by
  rw [← (solve_iff hn hd h0).2 hX, solve_sum, solve_sum, div_sub_div_same, abs_div, div_le_iff₀ (abs_pos.2 h0)]
  have e : F p - sum 1 (n - 1) (fun s => S (s :: p) * W (shift p (O s))) - (F p - sum 1 (n - 1) fun s => S (s :: p) * X (shift p (O s))) =
      -sum 1 (n - 1) fun s => S (s :: p) * (W (shift p (O s)) - X (shift p (O s))) := by
    rw [sum_congr (f := fun s => S (s :: p) * (W (shift p (O s)) - X (shift p (O s)))) (g := fun s => S (s :: p) * W (shift p (O s)) - S (s :: p) * X (shift p (O s)))
      fun s _ _ => by ring, sum_sub]
    ring
  rw [e, abs_neg]
  calc _ ≤ sum 1 (n - 1) (fun s => |S (s :: p) * (W (shift p (O s)) - X (shift p (O s)))|) := sum_abs
    _ ≤ sum 1 (n - 1) (fun s => |S (s :: p)| * w (shift p (O s)) * E) := sum_mono fun s h1 h2 => by
        rw [abs_mul, mul_assoc, mul_comm (w _)]
        exact mul_le_mul_of_nonneg_left (hW s h1 (by omega)) (abs_nonneg _)
    _ = sum 1 (n - 1) (fun s => |S (s :: p)| * w (shift p (O s))) * E := sum_mul
    _ ≤ q * (|S (0 :: p)| * w p) * E := mul_le_mul_of_nonneg_right hq hE
    _ = _ := by ring

/-- a sweep over some cells of the box -/
theorem swept_bound {box : List (Int × Int)} {P : List Int → Prop} [DecidablePred P] (hn : 1 ≤ n) (hd : ∀ p, P p → shift p (O 0) = p)
    (hb : ∀ p, P p → InBounds box p) (hq : Dominant box n O q w S) (h1 : q ≤ 1) (hX : ∀ p, P p → Eqn n O S F X p) (hE : 0 ≤ E)
    (hU : ∀ p, |U p - X p| ≤ E * w p) {l : List (List Int)} (hP : ∀ p, p ∈ l ↔ P p) (hl : l.Pairwise Before) {U' : List Int → T}
    (h : Swept P n O S F U U') : ∀ p, P p → |U' p - X p| ≤ q * E * w p := by
  have key : ∀ l1 l2 : List (List Int), l = l1 ++ l2 → ∀ p ∈ l1, |U' p - X p| ≤ q * E * w p := by
    intro l1
    induction l1 using List.reverseRecOn with
    | nil => intro _ _ p hp; cases hp
    | append_singleton l1 a ih =>
      intro l2 e p hp
      have ih := ih (a :: l2) (by simpa using e)
      rcases List.mem_append.1 hp with hp | hp
      · exact ih p hp
      · rw [List.mem_singleton] at hp
        subst hp
        have hp : P p := (hP p).1 (by rw [e]; simp)
        rw [h.cell p hp]
        refine solve_bound hn (hd p hp) (hq.diag p (hb p hp)) (hq.row p (hb p hp)) (hX p hp) hE fun s _ _ => ?_
        split
        · rename_i hs
          refine (ih _ ?_).trans (mul_le_mul_of_nonneg_right (mul_le_of_le_one_left hE h1) (hq.nonneg _))
          have hm := (hP _).2 hs.1
          rw [e] at hm hl
          rw [List.append_assoc, List.singleton_append, List.pairwise_append, List.pairwise_cons] at hl
          rw [List.append_assoc, List.singleton_append, List.mem_append, List.mem_cons] at hm
          rcases hm with hm | hm | hm
          · exact hm
          · rw [hm] at hs; exact absurd hs.2 (before_asymm _ _ hs.2)
          · exact absurd hs.2 (before_asymm _ _ (hl.2.1.1 _ hm))
        · exact hU _
  exact fun p hp => key l [] (by simp) p ((hP p).2 hp)

/-- a largest value -/
theorem exists_largest (f : List Int → T) : ∀ l : List (List Int), ∃ E, (∀ p ∈ l, f p ≤ E) ∧ (l = [] ∨ ∃ p ∈ l, f p = E)
  | [] => ⟨0, by simp, Or.inl rfl⟩
  | a :: l => by
    obtain ⟨E, h1, h2⟩ := exists_largest f l
    rcases le_total E (f a) with h | h
    · exact ⟨f a, fun p hp => by
        rcases List.mem_cons.1 hp with rfl | hp
        · exact le_rfl
        · exact (h1 p hp).trans h, Or.inr ⟨a, by simp, rfl⟩⟩
    · rcases h2 with rfl | ⟨p, hp, e⟩
      · exact ⟨f a, by simp, Or.inr ⟨a, by simp, rfl⟩⟩
      · exact ⟨E, fun p hp => by
          rcases List.mem_cons.1 hp with rfl | hp
          · exact h
          · exact h1 p hp, Or.inr ⟨p, by simp [hp], e⟩⟩

/-- the equations have at most one solution with given values outside the box -/
theorem eqn_unique {box : List (Int × Int)} {X Y : List Int → T} (hn : 1 ≤ n) (hd : ∀ p, InBounds box p → shift p (O 0) = p) (hq : Dominant box n O q w S)
    (h1 : q < 1) (hX : ∀ p, InBounds box p → Eqn n O S F X p) (hY : ∀ p, InBounds box p → Eqn n O S F Y p) (hb : ∀ p, ¬ InBounds box p → X p = Y p)
    {l : List (List Int)} (hl : ∀ p, p ∈ l ↔ InBounds box p) : X = Y := by
  obtain ⟨E, g1, g2⟩ := exists_largest (fun p => |X p - Y p| / w p) l
  rcases g2 with rfl | ⟨p, hp, e⟩
  · funext p
    by_cases hp : InBounds box p
    · exact absurd ((hl p).2 hp) (by simp)
    · exact hb p hp
  · have hE : 0 ≤ E := e ▸ div_nonneg (abs_nonneg _) (hq.nonneg p)
    have hp' := (hl p).1 hp
    have hall : ∀ p, |X p - Y p| ≤ E * w p := fun p => by
      by_cases hp : InBounds box p
      · exact (div_le_iff₀ (hq.pos p hp)).1 (g1 p ((hl p).2 hp))
      · rw [hb p hp, sub_self, abs_zero]; exact mul_nonneg hE (hq.nonneg p)
    have := solve_bound (W := X) hn (hd p hp') (hq.diag p hp') (hq.row p hp') (hY p hp') hE fun s _ _ => hall _
    rw [(solve_iff hn (hd p hp') (hq.diag p hp')).2 (hX p hp'), ← div_le_iff₀ (hq.pos p hp')] at this
    change |X p - Y p| / w p = E at e
    rw [e] at this
    have h0 : E ≤ 0 := by nlinarith
    funext r
    have := (hall r).trans (mul_nonpos_of_nonpos_of_nonneg h0 (hq.nonneg r))
    exact sub_eq_zero.1 (abs_nonpos_iff.1 this)

variable {m m1 : Mem T} {box : List (Int × Int)} {tab st f u r : Arr}

theorem Problem.after2 {U1 : List Int → T} (h : Problem m box n tab st f u O S F U) (hU : Holds m1 u U1) (ho : Only [u, r] m m1) (rs : Apart r st) (rf : Apart r f) :
    Problem m1 box n tab st f u O S F U1 where
  size := h.size
  table := fun s h0 h1 => ⟨(h.table s h0 h1).1, fun c z hz => by
    have := (h.table s h0 h1).2 c z hz
    exact ⟨this.1, by rw [ho.ints]; exact this.2⟩⟩
  holdsSt := h.holdsSt.only ho (by simpa using ⟨h.apartSt, rs⟩)
  holdsF := h.holdsF.only ho (by simpa using ⟨h.apartF, rf⟩)
  holdsU := hU
  inSt := h.inSt
  inF := h.inF
  inU := h.inU
  near := h.near
  apartSt := h.apartSt
  apartF := h.apartF

/-- equal to `X` outside the box, at most `e w` from it inside -/
def Close (box : List (Int × Int)) (w X : List Int → T) (U : List Int → T) (e : T) : Prop :=
  (∀ p, ¬ InBounds box p → U p = X p) ∧ ∀ p, InBounds box p → |U p - X p| ≤ e * w p

theorem Close.bound {e : T} (h : Close box w X U e) (hq : Dominant box n O q w S) (hp : InBounds box p) : 0 ≤ e :=
  nonneg_of_mul_nonneg_left ((abs_nonneg _).trans (h.2 p hp)) (hq.pos p hp)

theorem Close.all {e : T} (h : Close box w X U e) (hq : Dominant box n O q w S) (he : 0 ≤ e) (p : List Int) : |U p - X p| ≤ e * w p := by
  by_cases hp : InBounds box p
  · exact h.2 p hp
  · rw [h.1 p hp, sub_self, abs_zero]; exact mul_nonneg he (hq.nonneg p)

/-- repeated sweeps over the box -/
theorem gs_times {c : Cmd T} (hd : ∀ p, InBounds box p → shift p (O 0) = p) (hq : Dominant box n O q w S) (h1 : q ≤ 1)
    (hX : ∀ p, InBounds box p → Eqn n O S F X p) (hU : Close box w X U E) {l : List (List Int)} (hl : ∀ p, p ∈ l ↔ InBounds box p) (hb : l.Pairwise Before)
    (h : Problem m box n tab st f u O S F U)
    (hc : ∀ m U, Problem m box n tab st f u O S F U → ∃ m' U', c m = .ok m' ∧ Holds m' u U' ∧ Only [u] m m' ∧ Swept (InBounds box) n O S F U U') (k : Nat) :
    ∃ m' U', times c k m = .ok m' ∧ Holds m' u U' ∧ Only [u] m m' ∧ Close box w X U' (q ^ k * E) := by
  obtain ⟨m', g1, U', g2, g3, g4⟩ := times_inv (c := c) (m := m)
    (I := fun k m' => ∃ U', Problem m' box n tab st f u O S F U' ∧ Only [u] m m' ∧ Close box w X U' (q ^ k * E))
    ⟨U, h, Only.refl, by simpa using hU⟩ (fun k m1 ⟨U1, i1, i2, i3⟩ => by
      obtain ⟨m2, U2, j1, j2, j3, j4⟩ := hc m1 U1 i1
      refine ⟨m2, j1, U2, i1.after j2 j3, i2.trans j3, fun p hp => by rw [j4.other p hp, i3.1 p hp], fun p hp => ?_⟩
      have he : 0 ≤ q ^ k * E := i3.bound hq hp
      have := swept_bound (box := box) h.size hd (fun _ hp => hp) hq h1 hX he (i3.all hq he) hl hb j4 p hp
      calc _ ≤ _ := this
        _ = _ := by ring) k
  exact ⟨m', U', g1, g2.holdsU, g3, g4⟩

/-- repeated pairs of sweeps over two sets of cells that make up the box -/
theorem both_times {c : Cmd T} {P Q : List Int → Prop} [DecidablePred P] [DecidablePred Q] (hd : ∀ p, InBounds box p → shift p (O 0) = p)
    (hq : Dominant box n O q w S) (h1 : q ≤ 1) (hP : ∀ p, P p → InBounds box p) (hQ : ∀ p, Q p → InBounds box p) (hPQ : ∀ p, InBounds box p → P p ∨ Q p)
    (hdis : ∀ p, P p → Q p → False)
    (hX : ∀ p, InBounds box p → Eqn n O S F X p) (hU : Close box w X U E) {l l2 : List (List Int)} (hl : ∀ p, p ∈ l ↔ P p) (hb : l.Pairwise Before)
    (hl2 : ∀ p, p ∈ l2 ↔ Q p) (hb2 : l2.Pairwise Before)
    (h : Problem m box n tab st f u O S F U)
    (hc : ∀ m U, Problem m box n tab st f u O S F U → ∃ m' U1 U', c m = .ok m' ∧ Holds m' u U' ∧ Only [u] m m' ∧ Swept P n O S F U U1 ∧
      Swept Q n O S F U1 U') (k : Nat) :
    ∃ m' U', times c k m = .ok m' ∧ Holds m' u U' ∧ Only [u] m m' ∧ Close box w X U' (q ^ k * E) := by
  obtain ⟨m', g1, U', g2, g3, g4⟩ := times_inv (c := c) (m := m)
    (I := fun k m' => ∃ U', Problem m' box n tab st f u O S F U' ∧ Only [u] m m' ∧ Close box w X U' (q ^ k * E))
    ⟨U, h, Only.refl, by simpa using hU⟩ (fun k m1 ⟨U1, i1, i2, i3⟩ => by
      obtain ⟨m2, U2, U3, j1, j2, j3, j4, j5⟩ := hc m1 U1 i1
      refine ⟨m2, j1, U3, i1.after j2 j3, i2.trans j3, fun p hp => by
        rw [j5.other p fun h => hp (hQ p h), j4.other p fun h => hp (hP p h), i3.1 p hp], fun p hp => ?_⟩
      have he : 0 ≤ q ^ k * E := i3.bound hq hp
      have s1 := swept_bound (box := box) h.size (fun p h => hd p (hP p h)) hP hq h1 (fun p h => hX p (hP p h)) he (i3.all hq he) hl hb j4
      have a1 : ∀ p, |U2 p - X p| ≤ q ^ k * E * w p := fun p => by
        by_cases hp : P p
        · exact (s1 p hp).trans (mul_le_mul_of_nonneg_right (mul_le_of_le_one_left he h1) (hq.nonneg p))
        · rw [j4.other p hp]; exact i3.all hq he p
      have s2 := swept_bound (box := box) h.size (fun p h => hd p (hQ p h)) hQ hq h1 (fun p h => hX p (hQ p h)) he a1 hl2 hb2 j5
      have : |U3 p - X p| ≤ q * (q ^ k * E) * w p := by
        rcases hPQ p hp with hp | hp
        · rw [j5.other p fun h => hdis p hp h]; exact s1 p hp
        · exact s2 p hp
      calc _ ≤ _ := this
        _ = _ := by ring) k
  exact ⟨m', U', g1, g2.holdsU, g3, g4⟩

/-- repeated Jacobi sweeps -/
theorem jacobi_times {c : Cmd T} {d : T} {R : List Int → T} (d0 : 0 ≤ d) (d1 : d ≤ 1) (hd : ∀ p, InBounds box p → shift p (O 0) = p)
    (hq : Dominant box n O q w S) (hX : ∀ p, InBounds box p → Eqn n O S F X p) (hU : Close box w X U E)
    (rs : Apart r st) (rf : Apart r f) (h : Problem m box n tab st f u O S F U) (hr : Holds m r R)
    (hc : ∀ m U R, Problem m box n tab st f u O S F U → Holds m r R → ∃ m' U', c m = .ok m' ∧ Holds m' u U' ∧ Only [u, r] m m' ∧
      (∀ p, ¬ InBounds box p → U' p = U p) ∧ (∀ p, InBounds box p → U' p = U p + d * scaled n O S F U p) ∧ Holds m' r (scaled n O S F U)) (k : Nat) :
    ∃ m' U', times c k m = .ok m' ∧ Holds m' u U' ∧ Only [u, r] m m' ∧ Close box w X U' ((1 - d + d * q) ^ k * E) := by
  obtain ⟨m', g1, U', _, g2, -, g3, g4⟩ := times_inv (c := c) (m := m)
    (I := fun k m' => ∃ U' R', Problem m' box n tab st f u O S F U' ∧ Holds m' r R' ∧ Only [u, r] m m' ∧ Close box w X U' ((1 - d + d * q) ^ k * E))
    ⟨U, R, h, hr, Only.refl, by simpa using hU⟩ (fun k m1 ⟨U1, R1, i1, ir, i2, i3⟩ => by
      obtain ⟨m2, U2, j1, j2, j3, j4, j5, j6⟩ := hc m1 U1 R1 i1 ir
      refine ⟨m2, j1, U2, _, i1.after2 j2 j3 rs rf, j6, i2.trans j3, fun p hp => by rw [j4 p hp, i3.1 p hp], fun p hp => ?_⟩
      have he := i3.bound hq hp
      have s := solve_bound (W := U1) h.size (hd p hp) (hq.diag p hp) (hq.row p hp) (hX p hp) he fun s _ _ => i3.all hq he _
      rw [j5 p hp, scaled_solve h.size (hd p hp) (hq.diag p hp)]
      have e : U1 p + d * (solve n O S F U1 p - U1 p) - X p = (1 - d) * (U1 p - X p) + d * (solve n O S F U1 p - X p) := by ring
      rw [e]
      calc _ ≤ |(1 - d) * (U1 p - X p)| + |d * (solve n O S F U1 p - X p)| := abs_add_le _ _
        _ = (1 - d) * |U1 p - X p| + d * |solve n O S F U1 p - X p| := by rw [abs_mul, abs_mul, abs_of_nonneg (sub_nonneg.2 d1), abs_of_nonneg d0]
        _ ≤ (1 - d) * ((1 - d + d * q) ^ k * E * w p) + d * (q * ((1 - d + d * q) ^ k * E) * w p) :=
          add_le_add (mul_le_mul_of_nonneg_left (i3.2 p hp) (sub_nonneg.2 d1)) (mul_le_mul_of_nonneg_left s d0)
        _ = _ := by ring) k
  exact ⟨m', U', g1, g2.holdsU, g3, g4⟩

end

end Verif.F
