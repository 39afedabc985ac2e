import Verif.Spec.RoundSmooth
import Verif.Lemmas.Near
import Verif.Lemmas.SmoothConv

/-
Error bounds for sweeps in 53 bit arithmetic under diagonal dominance.
-/

set_option linter.unusedSectionVars false

namespace Verif.F
open Spec

variable {w X : List Int → Rat} {n : Int} {O : Int → List Int} {S B U W : List Int → B64} {p : List Int} {q E Z : Rat} {box : List (Int × Int)}

theorem drift_nonneg (k : Nat) : 0 ≤ drift k := by
  have := one_le_pow_ulp k
  unfold drift ulp at *
  linarith

theorem fold_near {A C : Int → B64} : ∀ (L : List Int) {k : Nat} {r : B64} {x z : Rat}, 1 ≤ k → Near k r x z →
    Near (k + L.length) (L.foldl (fun r s => r - A s * C s) r) (L.foldl (fun x s => x - (A s).v * (C s).v) x) (z + (L.map fun s => |(A s).v| * |(C s).v|).sum)
  | [], k, r, x, z, _, h => by simpa using h
  | s :: L, k, r, x, z, hk, h => by
    have t := h.sub ((Near.datum (A s)).mul (Near.datum (C s)))
    rw [Nat.max_eq_left (by omega)] at t
    have := fold_near (A := A) (C := C) L (by omega) t
    rw [List.foldl_cons, List.foldl_cons, List.map_cons, List.sum_cons, List.length_cons, show k + (L.length + 1) = k + 1 + L.length by omega, ← add_assoc]
    exact this

theorem irange_length {lo hi : Int} : (irange lo hi).length = (hi - lo + 1).toNat := by simp [irange]

theorem solve_near (hn : 1 ≤ n) (h0 : (S (0 :: p)).v ≠ 0) : Near (n.toNat + 1) (solve n O S B W p) (solve n O (vals S) (vals B) (vals W) p)
    ((|vals B p| + sum 1 (n - 1) fun s => |vals S (s :: p)| * |vals W (shift p (O s))|) / |vals S (0 :: p)|) := by
  have f := (fold_near (A := fun s => S (s :: p)) (C := fun s => W (shift p (O s))) (irange 1 (n - 1)) (le_refl 1) ((Near.datum (B p)).mono (Nat.zero_le 1))).div h0
  rw [irange_length] at f
  exact f.mono (by omega)

theorem scaled_near (hn : 1 ≤ n) (h0 : (S (0 :: p)).v ≠ 0) : Near (n.toNat + 2) (scaled n O S B W p) (scaled n O (vals S) (vals B) (vals W) p)
    ((|vals B p| + sum 0 (n - 1) fun s => |vals S (s :: p)| * |vals W (shift p (O s))|) / |vals S (0 :: p)|) := by
  have f := (fold_near (A := fun s => S (s :: p)) (C := fun s => W (shift p (O s))) (irange 0 (n - 1)) (le_refl 1) ((Near.datum (B p)).mono (Nat.zero_le 1))).div h0
  rw [irange_length] at f
  exact f.mono (by omega)

theorem sum_zero_cons {g : Int → Rat} (hn : 1 ≤ n) : sum 0 (n - 1) g = g 0 + sum 1 (n - 1) g := by
  unfold sum
  rw [irange_zero hn, List.map_cons, List.sum_cons]

theorem abs_near {x y e : Rat} (h : |x - y| ≤ e) : |x| ≤ |y| + e := by
  have := abs_add_le (x - y) y
  rw [sub_add_cancel] at this
  linarith

/-- the sizes of the terms at values with error at most `E w` -/
theorem size_bound {V : List Int → Rat} {lo hi : Int} {A : Int → Rat} (hW : ∀ s, lo ≤ s → s ≤ hi → |V (shift p (O s)) - X (shift p (O s))| ≤ E * w (shift p (O s))) :
    sum lo hi (fun s => |A s| * |V (shift p (O s))|) ≤ sum lo hi (fun s => |A s| * |X (shift p (O s))|) + sum lo hi (fun s => |A s| * w (shift p (O s))) * E := by
  rw [← sum_mul, ← sum_add]
  refine sum_mono fun s h0 h1 => ?_
  have := mul_le_mul_of_nonneg_left (abs_near (hW s h0 h1)) (abs_nonneg (A s))
  linarith

/-- the new value of a cell, rounded, from values with error at most `E w` -/
theorem round_bound (hn : 1 ≤ n) (hd : shift p (O 0) = p) (hb : InBounds box p) (hq : Dominant box n O q w (vals S)) (hZ : Sized box n O (vals S) (vals B) X w Z)
    (hX : Eqn n O (vals S) (vals B) X p) (hE : 0 ≤ E) (hW : ∀ s, 1 ≤ s → s < n → |vals W (shift p (O s)) - X (shift p (O s))| ≤ E * w (shift p (O s))) :
    |(solve n O S B W p).v - X p| ≤ ((1 + drift (n.toNat + 1)) * q * E + drift (n.toNat + 1) * Z) * w p := by
  have h0 := hq.diag p hb
  have ex := solve_bound (S := vals S) (F := vals B) (W := vals W) (X := X) (w := w) hn hd h0 (hq.row p hb) hX hE hW
  have nr := (solve_near (B := B) (W := W) (O := O) hn h0).err
  have hp := abs_pos.2 h0
  have z := hZ p hb
  rw [sum_zero_cons hn] at z
  have s := size_bound (p := p) (O := O) (X := X) (E := E) (w := w) (V := vals W) (A := fun s => vals S (s :: p)) (lo := 1) (hi := n - 1) fun s h0 h1 => hW s h0 (by omega)
  have r := mul_le_mul_of_nonneg_right (hq.row p hb) hE
  have x0 : 0 ≤ |vals S (0 :: p)| * |X (shift p (O 0))| := by positivity
  have tot : (|vals B p| + sum 1 (n - 1) fun s => |vals S (s :: p)| * |vals W (shift p (O s))|) / |vals S (0 :: p)| ≤ (Z + q * E) * w p := by
    rw [div_le_iff₀ hp]
    linarith
  have m := mul_le_mul_of_nonneg_left tot (drift_nonneg (n.toNat + 1))
  have t : |(solve n O S B W p).v - X p| ≤ |(solve n O S B W p).v - solve n O (vals S) (vals B) (vals W) p| + |solve n O (vals S) (vals B) (vals W) p - X p| := by
    have := abs_add_le ((solve n O S B W p).v - solve n O (vals S) (vals B) (vals W) p) (solve n O (vals S) (vals B) (vals W) p - X p)
    rwa [sub_add_sub_cancel] at this
  have nr' : |(solve n O S B W p).v - solve n O (vals S) (vals B) (vals W) p| ≤ drift (n.toNat + 1) * ((Z + q * E) * w p) := nr.trans m
  linarith

/-- a rounded sweep over some cells of the box -/
theorem round_swept {P : List Int → Prop} [DecidablePred P] (hn : 1 ≤ n) (hd : ∀ p, P p → shift p (O 0) = p)
    (hb : ∀ p, P p → InBounds box p) (hq : Dominant box n O q w (vals S)) (hZ : Sized box n O (vals S) (vals B) X w Z) (hX : ∀ p, P p → Eqn n O (vals S) (vals B) X p)
    (hE : 0 ≤ E) (h1 : (1 + drift (n.toNat + 1)) * q * E + drift (n.toNat + 1) * Z ≤ E)
    (hU : ∀ p, |vals U p - X p| ≤ E * w p) {l : List (List Int)} (hP : ∀ p, p ∈ l ↔ P p) (hl : l.Pairwise Before) {U' : List Int → B64}
    (h : Swept P n O S B U U') : ∀ p, P p → |vals U' p - X p| ≤ ((1 + drift (n.toNat + 1)) * q * E + drift (n.toNat + 1) * Z) * w p := by
  have key : ∀ l1 l2 : List (List Int), l = l1 ++ l2 → ∀ p ∈ l1, |vals U' p - X p| ≤ ((1 + drift (n.toNat + 1)) * q * E + drift (n.toNat + 1) * Z) * w p := by
    intro l1
    induction l1 using List.reverseRecOn with
    | nil => intro _ _ p hp; cases hp
    | append_singleton l1 a ih =>
      intro l2 e p hp
      have ih := ih (a :: l2) (by simpa using e)
      rcases List.mem_append.1 hp with hp | hp
      · exact ih p hp
      · rw [List.mem_singleton] at hp
        subst hp
        have hp : P p := (hP p).1 (by rw [e]; simp)
        unfold vals
        rw [h.cell p hp]
        refine round_bound hn (hd p hp) (hb p hp) hq hZ (hX p hp) hE fun s _ _ => ?_
        dsimp only [vals]
        split
        · rename_i hs
          refine (ih _ ?_).trans (mul_le_mul_of_nonneg_right h1 (hq.nonneg _))
          have hm := (hP _).2 hs.1
          rw [e] at hm hl
          rw [List.append_assoc, List.singleton_append, List.pairwise_append, List.pairwise_cons] at hl
          rw [List.append_assoc, List.singleton_append, List.mem_append, List.mem_cons] at hm
          rcases hm with hm | hm | hm
          · exact hm
          · rw [hm] at hs; exact absurd hs.2 (before_asymm _ _ hs.2)
          · exact absurd hs.2 (before_asymm _ _ (hl.2.1.1 _ hm))
        · exact hU _
  exact fun p hp => key l [] (by simp) p ((hP p).2 hp)

theorem level {r c E : Rat} (h1 : r < 1) (k : Nat) : r * (r ^ k * E + c / (1 - r)) + c = r ^ (k + 1) * E + c / (1 - r) := by
  have : 1 - r ≠ 0 := by linarith
  field_simp
  ring

theorem level_le {r c E : Rat} (h0 : 0 ≤ r) (h1 : r < 1) (hE : 0 ≤ E) (k : Nat) : r ^ (k + 1) * E + c / (1 - r) ≤ r ^ k * E + c / (1 - r) := by
  have := mul_le_mul_of_nonneg_right (pow_le_pow_of_le_one h0 h1.le (Nat.le_succ k)) hE
  simpa using this

theorem Dominant.ratio {S : List Int → Rat} (hq : Dominant box n O q w S) (hp : InBounds box p) : 0 ≤ q := by
  have a : 0 < |S (0 :: p)| * w p := mul_pos (abs_pos.2 (hq.diag p hp)) (hq.pos p hp)
  have b : 0 ≤ sum 1 (n - 1) (fun s => |S (s :: p)| * w (shift p (O s))) := sum_nonneg fun s _ _ => mul_nonneg (abs_nonneg _) (hq.nonneg _)
  exact nonneg_of_mul_nonneg_left (b.trans (hq.row p hp)) a

theorem Sized.nonneg {S B : List Int → Rat} (hZ : Sized box n O S B X w Z) (hq : Dominant box n O q w S) (hp : InBounds box p) : 0 ≤ Z := by
  have a : 0 < |S (0 :: p)| * w p := mul_pos (abs_pos.2 (hq.diag p hp)) (hq.pos p hp)
  have b : 0 ≤ sum 0 (n - 1) (fun s => |S (s :: p)| * |X (shift p (O s))|) := sum_nonneg fun s _ _ => by positivity
  exact nonneg_of_mul_nonneg_left ((add_nonneg (abs_nonneg _) b).trans (hZ p hp)) a

variable {m m1 : Mem B64} {tab st f u r : Arr}

theorem Problem.afterB {U1 : List Int → B64} (h : Problem m box n tab st f u O S B U) (hU : Holds m1 u U1) (ho : Only [u, r] m m1) (rs : Apart r st) (rf : Apart r f) :
    Problem m1 box n tab st f u O S B U1 where
  size := h.size
  table := fun s h0 h1 => ⟨(h.table s h0 h1).1, fun c z hz => by
    have := (h.table s h0 h1).2 c z hz
    exact ⟨this.1, by rw [ho.ints]; exact this.2⟩⟩
  holdsSt := h.holdsSt.only ho (by simpa using ⟨h.apartSt, rs⟩)
  holdsF := h.holdsF.only ho (by simpa using ⟨h.apartF, rf⟩)
  holdsU := hU
  inSt := h.inSt
  inF := h.inF
  inU := h.inU
  near := h.near
  apartSt := h.apartSt
  apartF := h.apartF

/-- repeated rounded sweeps over the box -/
theorem gs_round {c : Cmd B64} (hd : ∀ p, InBounds box p → shift p (O 0) = p) (hq : Dominant box n O q w (vals S))
    (hZ : Sized box n O (vals S) (vals B) X w Z) (h1 : (1 + drift (n.toNat + 1)) * q < 1)
    (hX : ∀ p, InBounds box p → Eqn n O (vals S) (vals B) X p) (hU : Close box w X (vals U) E) {l : List (List Int)} (hl : ∀ p, p ∈ l ↔ InBounds box p) (hb : l.Pairwise Before)
    (h : Problem m box n tab st f u O S B U)
    (hc : ∀ m U, Problem m box n tab st f u O S B U → ∃ m' U', c m = .ok m' ∧ Holds m' u U' ∧ Only [u] m m' ∧ Swept (InBounds box) n O S B U U') (k : Nat) :
    ∃ m' U', times c k m = .ok m' ∧ Holds m' u U' ∧ Only [u] m m' ∧
      Close box w X (vals U') (((1 + drift (n.toNat + 1)) * q) ^ k * E + drift (n.toNat + 1) * Z / (1 - (1 + drift (n.toNat + 1)) * q)) := by
  have g0 := drift_nonneg (n.toNat + 1)
  obtain ⟨m', g1, U', g2, g3, g4⟩ := times_inv (c := c) (m := m)
    (I := fun k m' => ∃ U', Problem m' box n tab st f u O S B U' ∧ Only [u] m m' ∧
      Close box w X (vals U') (((1 + drift (n.toNat + 1)) * q) ^ k * E + drift (n.toNat + 1) * Z / (1 - (1 + drift (n.toNat + 1)) * q)))
    ⟨U, h, Only.refl, hU.1, fun p hp => by
      refine (hU.2 p hp).trans (mul_le_mul_of_nonneg_right ?_ (hq.nonneg p))
      have := div_nonneg (mul_nonneg g0 (hZ.nonneg hq hp)) (sub_nonneg.2 h1.le)
      linarith⟩ (fun k m1 ⟨U1, i1, i2, i3⟩ => by
      obtain ⟨m2, U2, j1, j2, j3, j4⟩ := hc m1 U1 i1
      refine ⟨m2, j1, U2, i1.after j2 j3, i2.trans j3, fun p hp => by unfold vals; rw [j4.other p hp]; exact i3.1 p hp, fun p hp => ?_⟩
      have he := i3.bound hq hp
      have hq0 : 0 ≤ (1 + drift (n.toNat + 1)) * q := mul_nonneg (by linarith) (hq.ratio hp)
      have hE : 0 ≤ E := hU.bound hq hp
      have := round_swept (box := box) h.size hd (fun _ hp => hp) hq hZ hX he (by rw [level h1]; exact level_le hq0 h1 hE k) (i3.all hq he) hl hb j4 p hp
      rw [level h1] at this
      exact this) k
  exact ⟨m', U', g1, g2.holdsU, g3, g4⟩

/-- repeated pairs of rounded sweeps over two sets of cells that make up the box -/
theorem both_round {c : Cmd B64} {P Q : List Int → Prop} [DecidablePred P] [DecidablePred Q] (hd : ∀ p, InBounds box p → shift p (O 0) = p)
    (hq : Dominant box n O q w (vals S)) (hZ : Sized box n O (vals S) (vals B) X w Z) (h1 : (1 + drift (n.toNat + 1)) * q < 1)
    (hP : ∀ p, P p → InBounds box p) (hQ : ∀ p, Q p → InBounds box p) (hPQ : ∀ p, InBounds box p → P p ∨ Q p)
    (hdis : ∀ p, P p → Q p → False)
    (hX : ∀ p, InBounds box p → Eqn n O (vals S) (vals B) X p) (hU : Close box w X (vals U) E) {l l2 : List (List Int)} (hl : ∀ p, p ∈ l ↔ P p) (hb : l.Pairwise Before)
    (hl2 : ∀ p, p ∈ l2 ↔ Q p) (hb2 : l2.Pairwise Before)
    (h : Problem m box n tab st f u O S B U)
    (hc : ∀ m U, Problem m box n tab st f u O S B U → ∃ m' U1 U', c m = .ok m' ∧ Holds m' u U' ∧ Only [u] m m' ∧ Swept P n O S B U U1 ∧
      Swept Q n O S B U1 U') (k : Nat) :
    ∃ m' U', times c k m = .ok m' ∧ Holds m' u U' ∧ Only [u] m m' ∧
      Close box w X (vals U') (((1 + drift (n.toNat + 1)) * q) ^ k * E + drift (n.toNat + 1) * Z / (1 - (1 + drift (n.toNat + 1)) * q)) := by
  have g0 := drift_nonneg (n.toNat + 1)
  obtain ⟨m', g1, U', g2, g3, g4⟩ := times_inv (c := c) (m := m)
    (I := fun k m' => ∃ U', Problem m' box n tab st f u O S B U' ∧ Only [u] m m' ∧
      Close box w X (vals U') (((1 + drift (n.toNat + 1)) * q) ^ k * E + drift (n.toNat + 1) * Z / (1 - (1 + drift (n.toNat + 1)) * q)))
    ⟨U, h, Only.refl, hU.1, fun p hp => by
      refine (hU.2 p hp).trans (mul_le_mul_of_nonneg_right ?_ (hq.nonneg p))
      have := div_nonneg (mul_nonneg g0 (hZ.nonneg hq hp)) (sub_nonneg.2 h1.le)
      linarith⟩ (fun k m1 ⟨U1, i1, i2, i3⟩ => by
      obtain ⟨m2, U2, U3, j1, j2, j3, j4, j5⟩ := hc m1 U1 i1
      refine ⟨m2, j1, U3, i1.after j2 j3, i2.trans j3, fun p hp => by
        unfold vals
        rw [j5.other p fun h => hp (hQ p h), j4.other p fun h => hp (hP p h)]; exact i3.1 p hp, fun p hp => ?_⟩
      have he := i3.bound hq hp
      have hq0 : 0 ≤ (1 + drift (n.toNat + 1)) * q := mul_nonneg (by linarith) (hq.ratio hp)
      have hE : 0 ≤ E := hU.bound hq hp
      have le := level_le (c := drift (n.toNat + 1) * Z) hq0 h1 hE k
      have s1 := round_swept (box := box) h.size (fun p h => hd p (hP p h)) hP hq hZ (fun p h => hX p (hP p h)) he (by rw [level h1]; exact le) (i3.all hq he) hl hb j4
      rw [level h1] at s1
      have a1 := fun p => show |vals U2 p - X p| ≤ (((1 + drift (n.toNat + 1)) * q) ^ k * E + drift (n.toNat + 1) * Z / (1 - (1 + drift (n.toNat + 1)) * q)) * w p from by
        by_cases hp : P p
        · exact (s1 p hp).trans (mul_le_mul_of_nonneg_right le (hq.nonneg p))
        · unfold vals; rw [j4.other p hp]; exact i3.all hq he p
      have s2 := round_swept (box := box) h.size (fun p h => hd p (hQ p h)) hQ hq hZ (fun p h => hX p (hQ p h)) he (by rw [level h1]; exact le) a1 hl2 hb2 j5
      rw [level h1] at s2
      rcases hPQ p hp with hp | hp
      · unfold vals; rw [j5.other p fun h => hdis p hp h]; exact s1 p hp
      · exact s2 p hp) k
  exact ⟨m', U', g1, g2.holdsU, g3, g4⟩

theorem jacobi_cell_bound {d : B64} (d0 : 0 ≤ d.v) (d1 : d.v ≤ 1) (hn : 1 ≤ n) (hd : shift p (O 0) = p) (hb : InBounds box p) (hq : Dominant box n O q w (vals S))
    (hZ : Sized box n O (vals S) (vals B) X w Z) (hX : Eqn n O (vals S) (vals B) X p) (hE : 0 ≤ E) (hU : ∀ p, |vals U p - X p| ≤ E * w p) :
    |(U p + d * scaled n O S B U p).v - X p| ≤ (jrate (drift (n.toNat + 4)) d.v q * E + drift (n.toNat + 4) * (1 + d.v) * Z) * w p := by
  have h0 := hq.diag p hb
  have hp := abs_pos.2 h0
  have ex := solve_bound (S := vals S) (F := vals B) (W := vals U) (X := X) (w := w) hn hd h0 (hq.row p hb) hX hE fun s _ _ => hU _
  have nr := ((Near.datum (U p)).add ((Near.datum d).mul (scaled_near (B := B) (W := U) (O := O) hn h0))).mono (l := n.toNat + 4) (by omega)
  have nr := nr.err
  have z := hZ p hb
  have s := size_bound (p := p) (O := O) (X := X) (E := E) (w := w) (V := vals U) (A := fun s => vals S (s :: p)) (lo := 0) (hi := n - 1) fun s h0 h1 => hU _
  rw [sum_zero_cons (g := fun s => |vals S (s :: p)| * w (shift p (O s))) hn, hd] at s
  have r := mul_le_mul_of_nonneg_right (hq.row p hb) hE
  have tot : (|vals B p| + sum 0 (n - 1) fun s => |vals S (s :: p)| * |vals U (shift p (O s))|) / |vals S (0 :: p)| ≤ (Z + (1 + q) * E) * w p := by
    rw [div_le_iff₀ hp]
    linarith
  have xz : |X p| ≤ Z * w p := by
    rw [sum_zero_cons hn, hd] at z
    have nn : 0 ≤ sum 1 (n - 1) (fun s => |vals S (s :: p)| * |X (shift p (O s))|) := sum_nonneg fun s _ _ => by positivity
    have : |vals S (0 :: p)| * |X p| ≤ |vals S (0 :: p)| * (Z * w p) := by
      have := abs_nonneg (vals B p)
      linarith
    exact le_of_mul_le_mul_left this hp
  have uz := abs_near (hU p)
  have sz : |(U p).v| + |d.v| * ((|vals B p| + sum 0 (n - 1) fun s => |vals S (s :: p)| * |vals U (shift p (O s))|) / |vals S (0 :: p)|) ≤
      (Z + E + d.v * (Z + (1 + q) * E)) * w p := by
    rw [abs_of_nonneg d0]
    have := mul_le_mul_of_nonneg_left tot d0
    have uz' : |(U p).v| ≤ |X p| + E * w p := uz
    linarith
  have m := nr.trans (mul_le_mul_of_nonneg_left sz (drift_nonneg (n.toNat + 4)))
  have sc : scaled n O (vals S) (vals B) (vals U) p = _ := scaled_solve hn hd h0
  rw [sc] at m
  have e : (U p).v + d.v * (solve n O (vals S) (vals B) (vals U) p - vals U p) - X p =
      (1 - d.v) * (vals U p - X p) + d.v * (solve n O (vals S) (vals B) (vals U) p - X p) := by
    show vals U p + _ - _ = _
    ring
  have b1 : |(U p).v + d.v * (solve n O (vals S) (vals B) (vals U) p - vals U p) - X p| ≤ (1 - d.v + d.v * q) * E * w p := by
    rw [e]
    calc _ ≤ |(1 - d.v) * (vals U p - X p)| + |d.v * (solve n O (vals S) (vals B) (vals U) p - X p)| := abs_add_le _ _
      _ = (1 - d.v) * |vals U p - X p| + d.v * |solve n O (vals S) (vals B) (vals U) p - X p| := by
        rw [abs_mul, abs_mul, abs_of_nonneg (sub_nonneg.2 d1), abs_of_nonneg d0]
      _ ≤ (1 - d.v) * (E * w p) + d.v * (q * E * w p) :=
        add_le_add (mul_le_mul_of_nonneg_left (hU p) (sub_nonneg.2 d1)) (mul_le_mul_of_nonneg_left ex d0)
      _ = _ := by ring
  have t := abs_add_le ((U p + d * scaled n O S B U p).v - ((U p).v + d.v * (solve n O (vals S) (vals B) (vals U) p - vals U p)))
    ((U p).v + d.v * (solve n O (vals S) (vals B) (vals U) p - vals U p) - X p)
  rw [sub_add_sub_cancel] at t
  refine t.trans ((add_le_add m b1).trans (le_of_eq ?_))
  show drift (n.toNat + 4) * _ + _ = _
  unfold jrate
  ring

/-- repeated rounded Jacobi sweeps -/
theorem jacobi_round {c : Cmd B64} {d : B64} {R : List Int → B64} (d0 : 0 ≤ d.v) (d1 : d.v ≤ 1) (hd : ∀ p, InBounds box p → shift p (O 0) = p)
    (hq : Dominant box n O q w (vals S)) (hZ : Sized box n O (vals S) (vals B) X w Z) (h1 : jrate (drift (n.toNat + 4)) d.v q < 1)
    (hX : ∀ p, InBounds box p → Eqn n O (vals S) (vals B) X p) (hU : Close box w X (vals U) E)
    (rs : Apart r st) (rf : Apart r f) (h : Problem m box n tab st f u O S B U) (hr : Holds m r R)
    (hc : ∀ m U R, Problem m box n tab st f u O S B U → Holds m r R → ∃ m' U', c m = .ok m' ∧ Holds m' u U' ∧ Only [u, r] m m' ∧
      (∀ p, ¬ InBounds box p → U' p = U p) ∧ (∀ p, InBounds box p → U' p = U p + d * scaled n O S B U p) ∧ Holds m' r (scaled n O S B U)) (k : Nat) :
    ∃ m' U', times c k m = .ok m' ∧ Holds m' u U' ∧ Only [u, r] m m' ∧
      Close box w X (vals U') (jrate (drift (n.toNat + 4)) d.v q ^ k * E + drift (n.toNat + 4) * (1 + d.v) * Z / (1 - jrate (drift (n.toNat + 4)) d.v q)) := by
  have g0 := drift_nonneg (n.toNat + 4)
  obtain ⟨m', g1, U', _, g2, -, g3, g4⟩ := times_inv (c := c) (m := m)
    (I := fun k m' => ∃ U' R', Problem m' box n tab st f u O S B U' ∧ Holds m' r R' ∧ Only [u, r] m m' ∧
      Close box w X (vals U') (jrate (drift (n.toNat + 4)) d.v q ^ k * E + drift (n.toNat + 4) * (1 + d.v) * Z / (1 - jrate (drift (n.toNat + 4)) d.v q)))
    ⟨U, R, h, hr, Only.refl, hU.1, fun p hp => by
      refine (hU.2 p hp).trans (mul_le_mul_of_nonneg_right ?_ (hq.nonneg p))
      have := div_nonneg (mul_nonneg (mul_nonneg g0 (by linarith : 0 ≤ 1 + d.v)) (hZ.nonneg hq hp)) (sub_nonneg.2 h1.le)
      linarith⟩ (fun k m1 ⟨U1, R1, i1, ir, i2, i3⟩ => by
      obtain ⟨m2, U2, j1, j2, j3, j4, j5, j6⟩ := hc m1 U1 R1 i1 ir
      refine ⟨m2, j1, U2, _, i1.afterB j2 j3 rs rf, j6, i2.trans j3, fun p hp => by unfold vals; rw [j4 p hp]; exact i3.1 p hp, fun p hp => ?_⟩
      have he := i3.bound hq hp
      have := jacobi_cell_bound d0 d1 h.size (hd p hp) hp hq hZ (hX p hp) he (i3.all hq he)
      rw [level h1] at this
      unfold vals
      rw [j5 p hp]
      exact this) k
  exact ⟨m', U', g1, g2.holdsU, g3, g4⟩

end Verif.F
