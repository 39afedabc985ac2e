import Verif.Lemmas.RoundOp

/-
What the Fortran residual routines leave in 53 bit arithmetic, and how far two orders of summation are apart.
-/

namespace Verif
open Spec

set_option linter.unusedVariables false
set_option linter.unusedSimpArgs false
set_option linter.unusedTactic false
set_option linter.unreachableTactic false

theorem close_sum {k : Nat} {g y z : B64} {Y Z sy sz : Rat} (hy : Near k y Y sy) (hz : Near k z Z sz) (hk : 2 * ((1 + ulp) ^ 2 - 1) * (1 + ulp) ^ k ≤ 5 * ulp) :
    F.Within 5 (g + y - z) (g - (-y + z)).v (|g.v| + sy + sz) := by
  have a := (((Near.datum g).add (Near.datum y)).sub (Near.datum z)).err
  have b := ((Near.datum g).sub ((Near.datum y).neg.add (Near.datum z))).err
  have e : g.v - (-y.v + z.v) = g.v + y.v - z.v := by ring
  rw [e] at b
  have ya := hy.abs_le
  have za := hz.abs_le
  have o := one_le_pow_ulp k
  have g0 := abs_nonneg g.v
  have q : 0 ≤ (1 + ulp) ^ 2 - 1 := by have := one_le_pow_ulp 2; linarith
  have t : |g.v| + |y.v| + |z.v| ≤ (1 + ulp) ^ k * (|g.v| + sy + sz) := by nlinarith
  have s0 : 0 ≤ |g.v| + sy + sz := by have := hy.nonneg; have := hz.nonneg; linarith
  have r := mul_le_mul_of_nonneg_left t q
  have d : |(g + y - z).v - (g - (-y + z)).v| ≤ |(g + y - z).v - (g.v + y.v - z.v)| + |(g - (-y + z)).v - (g.v + y.v - z.v)| := by
    rw [← abs_neg ((g - (-y + z)).v - _)]
    refine le_trans (le_of_eq ?_) (abs_add_le _ _)
    congr 1
    ring
  have f := mul_le_mul_of_nonneg_right hk s0
  simp only [Nat.max_self, Nat.max_zero, Nat.zero_max, Nat.reduceAdd] at a b
  unfold F.Within
  have u : (5 : Nat) * (|g.v| + sy + sz) / 2 ^ 53 = 5 * ulp * (|g.v| + sy + sz) := by unfold ulp; push_cast; ring
  rw [u]
  nlinarith

theorem close_face {b x0 x1 d : B64} (hd : d.v ≠ 0) : F.Within 5 (b * ((x1 - x0) / d)) (b * (x1 - x0) / d).v |F.face b.v x0.v x1.v d.v| := by
  have a := ((Near.datum b).mul ((Near.datum (x1 - x0)).div hd)).err
  have c := (((Near.datum b).mul (Near.datum (x1 - x0))).div hd).err
  rw [mul_div_assoc, mul_div_assoc] at c
  have x := (Near.diff x1 x0).abs_le
  have s : |b.v| * (|(x1 - x0).v| / |d.v|) ≤ (1 + ulp) ^ 1 * |F.face b.v x0.v x1.v d.v| := by
    unfold F.face
    rw [abs_mul, abs_div]
    have := mul_le_mul_of_nonneg_left (div_le_div_of_nonneg_right x (abs_nonneg d.v)) (abs_nonneg b.v)
    refine this.trans (le_of_eq ?_)
    ring
  have q : 0 ≤ (1 + ulp) ^ 2 - 1 := by have := one_le_pow_ulp 2; linarith
  have r := mul_le_mul_of_nonneg_left s q
  have k : 2 * ((1 + ulp) ^ 2 - 1) * (1 + ulp) ^ 1 ≤ 5 * ulp := by ulps
  have f := mul_le_mul_of_nonneg_right k (abs_nonneg (F.face b.v x0.v x1.v d.v))
  have t := abs_sub_le (b * ((x1 - x0) / d)).v (b.v * ((x1 - x0).v / d.v)) (b * (x1 - x0) / d).v
  rw [abs_sub_comm (b.v * ((x1 - x0).v / d.v))] at t
  simp only [Nat.zero_add, Nat.reduceAdd] at a c
  unfold F.Within
  have u : (5 : Nat) * |F.face b.v x0.v x1.v d.v| / 2 ^ 53 = 5 * ulp * |F.face b.v x0.v x1.v d.v| := by unfold ulp; push_cast; ring
  rw [u]
  nlinarith

theorem fres_v1_1 {i0 i1 agcw ugcw fgcw rgcw : Int} {alpha beta : B64} {dx : Nat → B64} {a u f f0 res : Ptr} {m : Mem B64}
    (hi : i0 ≤ i1) (hagcw : 0 ≤ agcw) (hugcw : 0 ≤ ugcw) (hfgcw : 0 ≤ fgcw) (hrgcw : 0 ≤ rgcw)
    (h : F.Args m [F.cell1d a i0 i1 agcw, F.cell1d u i0 i1 ugcw, F.cell1d f i0 i1 fgcw, F.face1d f0 i0 i1 0] [F.cell1d res i0 i1 rgcw]) :
    ∃ m', F.celldiffusionv1res1d i0 i1 alpha beta dx agcw a ugcw u fgcw f f0 rgcw res m = .ok m' ∧ F.Kept [F.cell1d res i0 i1 rgcw] m m' ∧
      (∀ i, i0 ≤ i → i ≤ i1 → F.El m' (F.cell1d res i0 i1 rgcw) [i] (F.rd m (F.cell1d f i0 i1 fgcw) [i] - (-(beta * ((F.rd m (F.face1d f0 i0 i1 0) [i + 1] - F.rd m (F.face1d f0 i0 i1 0) [i]) / dx 0)) + alpha * F.rd m (F.cell1d a i0 i1 agcw) [i] * F.rd m (F.cell1d u i0 i1 ugcw) [i]))) := by
  have P0 : F.Part (T := B64) [F.cell1d a i0 i1 agcw, F.cell1d u i0 i1 ugcw, F.cell1d f i0 i1 fgcw, F.face1d f0 i0 i1 0] [F.cell1d res i0 i1 rgcw] (F.nestL [(.I, i0, i1)] (fun _ => 0) fun p => [((F.cell1d res i0 i1 rgcw), [p .I], F.Expr.ref (F.cell1d f i0 i1 fgcw) [p .I] - (-(F.Expr.const beta * ((F.Expr.ref (F.face1d f0 i0 i1 0) [p .I + 1] - F.Expr.ref (F.face1d f0 i0 i1 0) [p .I]) / F.Expr.const (dx 0))) + F.Expr.const alpha * F.Expr.ref (F.cell1d a i0 i1 agcw) [p .I] * F.Expr.ref (F.cell1d u i0 i1 ugcw) [p .I]))]) := by part_tac
  obtain ⟨m', g1, -, g3, g4⟩ := P0.run (c := F.celldiffusionv1res1d i0 i1 alpha beta dx agcw a ugcw u fgcw f f0 rgcw res) (by rw [← F.nest_seqn1]; rfl) h
  exact ⟨m', g1, g3, fun i h0 h1 => g4 _ (F.mem_nestL (p := (pt1 i)) (by nodups) (by in_nest) (by pt_else) List.mem_cons_self)⟩

theorem fres_v2_1 {i0 i1 ugcw fgcw rgcw : Int} {alpha beta : B64} {dx : Nat → B64} {u f f0 res : Ptr} {m : Mem B64}
    (hi : i0 ≤ i1) (hugcw : 0 ≤ ugcw) (hfgcw : 0 ≤ fgcw) (hrgcw : 0 ≤ rgcw)
    (h : F.Args m [F.cell1d u i0 i1 ugcw, F.cell1d f i0 i1 fgcw, F.face1d f0 i0 i1 0] [F.cell1d res i0 i1 rgcw]) :
    ∃ m', F.celldiffusionv2res1d i0 i1 alpha beta dx ugcw u fgcw f f0 rgcw res m = .ok m' ∧ F.Kept [F.cell1d res i0 i1 rgcw] m m' ∧
      (∀ i, i0 ≤ i → i ≤ i1 → F.El m' (F.cell1d res i0 i1 rgcw) [i] (F.rd m (F.cell1d f i0 i1 fgcw) [i] - (-(beta * ((F.rd m (F.face1d f0 i0 i1 0) [i + 1] - F.rd m (F.face1d f0 i0 i1 0) [i]) / dx 0)) + alpha * F.rd m (F.cell1d u i0 i1 ugcw) [i]))) := by
  have P0 : F.Part (T := B64) [F.cell1d u i0 i1 ugcw, F.cell1d f i0 i1 fgcw, F.face1d f0 i0 i1 0] [F.cell1d res i0 i1 rgcw] (F.nestL [(.I, i0, i1)] (fun _ => 0) fun p => [((F.cell1d res i0 i1 rgcw), [p .I], F.Expr.ref (F.cell1d f i0 i1 fgcw) [p .I] - (-(F.Expr.const beta * ((F.Expr.ref (F.face1d f0 i0 i1 0) [p .I + 1] - F.Expr.ref (F.face1d f0 i0 i1 0) [p .I]) / F.Expr.const (dx 0))) + F.Expr.const alpha * F.Expr.ref (F.cell1d u i0 i1 ugcw) [p .I]))]) := by part_tac
  obtain ⟨m', g1, -, g3, g4⟩ := P0.run (c := F.celldiffusionv2res1d i0 i1 alpha beta dx ugcw u fgcw f f0 rgcw res) (by rw [← F.nest_seqn1]; rfl) h
  exact ⟨m', g1, g3, fun i h0 h1 => g4 _ (F.mem_nestL (p := (pt1 i)) (by nodups) (by in_nest) (by pt_else) List.mem_cons_self)⟩

theorem fres_v1_2 {i0 i1 j0 j1 agcw ugcw fgcw rgcw : Int} {alpha beta : B64} {dx : Nat → B64} {a u f f0 f1 res : Ptr} {m : Mem B64}
    (hi : i0 ≤ i1) (hj : j0 ≤ j1) (hagcw : 0 ≤ agcw) (hugcw : 0 ≤ ugcw) (hfgcw : 0 ≤ fgcw) (hrgcw : 0 ≤ rgcw)
    (h : F.Args m [F.cell2d a i0 j0 i1 j1 agcw, F.cell2d u i0 j0 i1 j1 ugcw, F.cell2d f i0 j0 i1 j1 fgcw, F.face2d0 f0 i0 j0 i1 j1 0, F.face2d1 f1 i0 j0 i1 j1 0] [F.cell2d res i0 j0 i1 j1 rgcw]) :
    ∃ m', F.celldiffusionv1res2d i0 i1 j0 j1 alpha beta dx agcw a ugcw u fgcw f f0 f1 rgcw res m = .ok m' ∧ F.Kept [F.cell2d res i0 j0 i1 j1 rgcw] m m' ∧
      (∀ i j, i0 ≤ i → i ≤ i1 → j0 ≤ j → j ≤ j1 → F.El m' (F.cell2d res i0 j0 i1 j1 rgcw) [i, j] (F.rd m (F.cell2d f i0 j0 i1 j1 fgcw) [i, j] - (-(beta * ((F.rd m (F.face2d0 f0 i0 j0 i1 j1 0) [i + 1, j] - F.rd m (F.face2d0 f0 i0 j0 i1 j1 0) [i, j]) / dx 0 + (F.rd m (F.face2d1 f1 i0 j0 i1 j1 0) [j + 1, i] - F.rd m (F.face2d1 f1 i0 j0 i1 j1 0) [j, i]) / dx 1)) + alpha * F.rd m (F.cell2d a i0 j0 i1 j1 agcw) [i, j] * F.rd m (F.cell2d u i0 j0 i1 j1 ugcw) [i, j]))) := by
  have P0 : F.Part (T := B64) [F.cell2d a i0 j0 i1 j1 agcw, F.cell2d u i0 j0 i1 j1 ugcw, F.cell2d f i0 j0 i1 j1 fgcw, F.face2d0 f0 i0 j0 i1 j1 0, F.face2d1 f1 i0 j0 i1 j1 0] [F.cell2d res i0 j0 i1 j1 rgcw] (F.nestL [(.J, j0, j1), (.I, i0, i1)] (fun _ => 0) fun p => [((F.cell2d res i0 j0 i1 j1 rgcw), [p .I, p .J], F.Expr.ref (F.cell2d f i0 j0 i1 j1 fgcw) [p .I, p .J] - (-(F.Expr.const beta * ((F.Expr.ref (F.face2d0 f0 i0 j0 i1 j1 0) [p .I + 1, p .J] - F.Expr.ref (F.face2d0 f0 i0 j0 i1 j1 0) [p .I, p .J]) / F.Expr.const (dx 0) + (F.Expr.ref (F.face2d1 f1 i0 j0 i1 j1 0) [p .J + 1, p .I] - F.Expr.ref (F.face2d1 f1 i0 j0 i1 j1 0) [p .J, p .I]) / F.Expr.const (dx 1))) + F.Expr.const alpha * F.Expr.ref (F.cell2d a i0 j0 i1 j1 agcw) [p .I, p .J] * F.Expr.ref (F.cell2d u i0 j0 i1 j1 ugcw) [p .I, p .J]))]) := by part_tac
  obtain ⟨m', g1, -, g3, g4⟩ := P0.run (c := F.celldiffusionv1res2d i0 i1 j0 j1 alpha beta dx agcw a ugcw u fgcw f f0 f1 rgcw res) (by rw [← F.nest_seqn1]; rfl) h
  exact ⟨m', g1, g3, fun i j h0 h1 h2 h3 => g4 _ (F.mem_nestL (p := (pt2 i j)) (by nodups) (by in_nest) (by pt_else) List.mem_cons_self)⟩

theorem fres_v2_2 {i0 i1 j0 j1 ugcw fgcw rgcw : Int} {alpha beta : B64} {dx : Nat → B64} {u f f0 f1 res : Ptr} {m : Mem B64}
    (hi : i0 ≤ i1) (hj : j0 ≤ j1) (hugcw : 0 ≤ ugcw) (hfgcw : 0 ≤ fgcw) (hrgcw : 0 ≤ rgcw)
    (h : F.Args m [F.cell2d u i0 j0 i1 j1 ugcw, F.cell2d f i0 j0 i1 j1 fgcw, F.face2d0 f0 i0 j0 i1 j1 0, F.face2d1 f1 i0 j0 i1 j1 0] [F.cell2d res i0 j0 i1 j1 rgcw]) :
    ∃ m', F.celldiffusionv2res2d i0 i1 j0 j1 alpha beta dx ugcw u fgcw f f0 f1 rgcw res m = .ok m' ∧ F.Kept [F.cell2d res i0 j0 i1 j1 rgcw] m m' ∧
      (∀ i j, i0 ≤ i → i ≤ i1 → j0 ≤ j → j ≤ j1 → F.El m' (F.cell2d res i0 j0 i1 j1 rgcw) [i, j] (F.rd m (F.cell2d f i0 j0 i1 j1 fgcw) [i, j] - (-(beta * ((F.rd m (F.face2d0 f0 i0 j0 i1 j1 0) [i + 1, j] - F.rd m (F.face2d0 f0 i0 j0 i1 j1 0) [i, j]) / dx 0 + (F.rd m (F.face2d1 f1 i0 j0 i1 j1 0) [j + 1, i] - F.rd m (F.face2d1 f1 i0 j0 i1 j1 0) [j, i]) / dx 1)) + alpha * F.rd m (F.cell2d u i0 j0 i1 j1 ugcw) [i, j]))) := by
  have P0 : F.Part (T := B64) [F.cell2d u i0 j0 i1 j1 ugcw, F.cell2d f i0 j0 i1 j1 fgcw, F.face2d0 f0 i0 j0 i1 j1 0, F.face2d1 f1 i0 j0 i1 j1 0] [F.cell2d res i0 j0 i1 j1 rgcw] (F.nestL [(.J, j0, j1), (.I, i0, i1)] (fun _ => 0) fun p => [((F.cell2d res i0 j0 i1 j1 rgcw), [p .I, p .J], F.Expr.ref (F.cell2d f i0 j0 i1 j1 fgcw) [p .I, p .J] - (-(F.Expr.const beta * ((F.Expr.ref (F.face2d0 f0 i0 j0 i1 j1 0) [p .I + 1, p .J] - F.Expr.ref (F.face2d0 f0 i0 j0 i1 j1 0) [p .I, p .J]) / F.Expr.const (dx 0) + (F.Expr.ref (F.face2d1 f1 i0 j0 i1 j1 0) [p .J + 1, p .I] - F.Expr.ref (F.face2d1 f1 i0 j0 i1 j1 0) [p .J, p .I]) / F.Expr.const (dx 1))) + F.Expr.const alpha * F.Expr.ref (F.cell2d u i0 j0 i1 j1 ugcw) [p .I, p .J]))]) := by part_tac
  obtain ⟨m', g1, -, g3, g4⟩ := P0.run (c := F.celldiffusionv2res2d i0 i1 j0 j1 alpha beta dx ugcw u fgcw f f0 f1 rgcw res) (by rw [← F.nest_seqn1]; rfl) h
  exact ⟨m', g1, g3, fun i j h0 h1 h2 h3 => g4 _ (F.mem_nestL (p := (pt2 i j)) (by nodups) (by in_nest) (by pt_else) List.mem_cons_self)⟩

theorem fres_v1_3 {i0 i1 j0 j1 k0 k1 agcw ugcw fgcw rgcw : Int} {alpha beta : B64} {dx : Nat → B64} {a u f f0 f1 f2 res : Ptr} {m : Mem B64}
    (hi : i0 ≤ i1) (hj : j0 ≤ j1) (hk : k0 ≤ k1) (hagcw : 0 ≤ agcw) (hugcw : 0 ≤ ugcw) (hfgcw : 0 ≤ fgcw) (hrgcw : 0 ≤ rgcw)
    (h : F.Args m [F.cell3d a i0 j0 k0 i1 j1 k1 agcw, F.cell3d u i0 j0 k0 i1 j1 k1 ugcw, F.cell3d f i0 j0 k0 i1 j1 k1 fgcw, F.face3d0 f0 i0 j0 k0 i1 j1 k1 0, F.face3d1 f1 i0 j0 k0 i1 j1 k1 0, F.face3d2 f2 i0 j0 k0 i1 j1 k1 0] [F.cell3d res i0 j0 k0 i1 j1 k1 rgcw]) :
    ∃ m', F.celldiffusionv1res3d i0 i1 j0 j1 k0 k1 alpha beta dx agcw a ugcw u fgcw f f0 f1 f2 rgcw res m = .ok m' ∧ F.Kept [F.cell3d res i0 j0 k0 i1 j1 k1 rgcw] m m' ∧
      (∀ i j k, i0 ≤ i → i ≤ i1 → j0 ≤ j → j ≤ j1 → k0 ≤ k → k ≤ k1 → F.El m' (F.cell3d res i0 j0 k0 i1 j1 k1 rgcw) [i, j, k] (F.rd m (F.cell3d f i0 j0 k0 i1 j1 k1 fgcw) [i, j, k] - (-(beta * ((F.rd m (F.face3d0 f0 i0 j0 k0 i1 j1 k1 0) [i + 1, j, k] - F.rd m (F.face3d0 f0 i0 j0 k0 i1 j1 k1 0) [i, j, k]) / dx 0 + (F.rd m (F.face3d1 f1 i0 j0 k0 i1 j1 k1 0) [j + 1, k, i] - F.rd m (F.face3d1 f1 i0 j0 k0 i1 j1 k1 0) [j, k, i]) / dx 1 + (F.rd m (F.face3d2 f2 i0 j0 k0 i1 j1 k1 0) [k + 1, i, j] - F.rd m (F.face3d2 f2 i0 j0 k0 i1 j1 k1 0) [k, i, j]) / dx 2)) + alpha * F.rd m (F.cell3d a i0 j0 k0 i1 j1 k1 agcw) [i, j, k] * F.rd m (F.cell3d u i0 j0 k0 i1 j1 k1 ugcw) [i, j, k]))) := by
  have P0 : F.Part (T := B64) [F.cell3d a i0 j0 k0 i1 j1 k1 agcw, F.cell3d u i0 j0 k0 i1 j1 k1 ugcw, F.cell3d f i0 j0 k0 i1 j1 k1 fgcw, F.face3d0 f0 i0 j0 k0 i1 j1 k1 0, F.face3d1 f1 i0 j0 k0 i1 j1 k1 0, F.face3d2 f2 i0 j0 k0 i1 j1 k1 0] [F.cell3d res i0 j0 k0 i1 j1 k1 rgcw] (F.nestL [(.K, k0, k1), (.J, j0, j1), (.I, i0, i1)] (fun _ => 0) fun p => [((F.cell3d res i0 j0 k0 i1 j1 k1 rgcw), [p .I, p .J, p .K], F.Expr.ref (F.cell3d f i0 j0 k0 i1 j1 k1 fgcw) [p .I, p .J, p .K] - (-(F.Expr.const beta * ((F.Expr.ref (F.face3d0 f0 i0 j0 k0 i1 j1 k1 0) [p .I + 1, p .J, p .K] - F.Expr.ref (F.face3d0 f0 i0 j0 k0 i1 j1 k1 0) [p .I, p .J, p .K]) / F.Expr.const (dx 0) + (F.Expr.ref (F.face3d1 f1 i0 j0 k0 i1 j1 k1 0) [p .J + 1, p .K, p .I] - F.Expr.ref (F.face3d1 f1 i0 j0 k0 i1 j1 k1 0) [p .J, p .K, p .I]) / F.Expr.const (dx 1) + (F.Expr.ref (F.face3d2 f2 i0 j0 k0 i1 j1 k1 0) [p .K + 1, p .I, p .J] - F.Expr.ref (F.face3d2 f2 i0 j0 k0 i1 j1 k1 0) [p .K, p .I, p .J]) / F.Expr.const (dx 2))) + F.Expr.const alpha * F.Expr.ref (F.cell3d a i0 j0 k0 i1 j1 k1 agcw) [p .I, p .J, p .K] * F.Expr.ref (F.cell3d u i0 j0 k0 i1 j1 k1 ugcw) [p .I, p .J, p .K]))]) := by part_tac
  obtain ⟨m', g1, -, g3, g4⟩ := P0.run (c := F.celldiffusionv1res3d i0 i1 j0 j1 k0 k1 alpha beta dx agcw a ugcw u fgcw f f0 f1 f2 rgcw res) (by rw [← F.nest_seqn1]; rfl) h
  exact ⟨m', g1, g3, fun i j k h0 h1 h2 h3 h4 h5 => g4 _ (F.mem_nestL (p := (pt3 i j k)) (by nodups) (by in_nest) (by pt_else) List.mem_cons_self)⟩

theorem fres_v2_3 {i0 i1 j0 j1 k0 k1 ugcw fgcw rgcw : Int} {alpha beta : B64} {dx : Nat → B64} {u f f0 f1 f2 res : Ptr} {m : Mem B64}
    (hi : i0 ≤ i1) (hj : j0 ≤ j1) (hk : k0 ≤ k1) (hugcw : 0 ≤ ugcw) (hfgcw : 0 ≤ fgcw) (hrgcw : 0 ≤ rgcw)
    (h : F.Args m [F.cell3d u i0 j0 k0 i1 j1 k1 ugcw, F.cell3d f i0 j0 k0 i1 j1 k1 fgcw, F.face3d0 f0 i0 j0 k0 i1 j1 k1 0, F.face3d1 f1 i0 j0 k0 i1 j1 k1 0, F.face3d2 f2 i0 j0 k0 i1 j1 k1 0] [F.cell3d res i0 j0 k0 i1 j1 k1 rgcw]) :
    ∃ m', F.celldiffusionv2res3d i0 i1 j0 j1 k0 k1 alpha beta dx ugcw u fgcw f f0 f1 f2 rgcw res m = .ok m' ∧ F.Kept [F.cell3d res i0 j0 k0 i1 j1 k1 rgcw] m m' ∧
      (∀ i j k, i0 ≤ i → i ≤ i1 → j0 ≤ j → j ≤ j1 → k0 ≤ k → k ≤ k1 → F.El m' (F.cell3d res i0 j0 k0 i1 j1 k1 rgcw) [i, j, k] (F.rd m (F.cell3d f i0 j0 k0 i1 j1 k1 fgcw) [i, j, k] - (-(beta * ((F.rd m (F.face3d0 f0 i0 j0 k0 i1 j1 k1 0) [i + 1, j, k] - F.rd m (F.face3d0 f0 i0 j0 k0 i1 j1 k1 0) [i, j, k]) / dx 0 + (F.rd m (F.face3d1 f1 i0 j0 k0 i1 j1 k1 0) [j + 1, k, i] - F.rd m (F.face3d1 f1 i0 j0 k0 i1 j1 k1 0) [j, k, i]) / dx 1 + (F.rd m (F.face3d2 f2 i0 j0 k0 i1 j1 k1 0) [k + 1, i, j] - F.rd m (F.face3d2 f2 i0 j0 k0 i1 j1 k1 0) [k, i, j]) / dx 2)) + alpha * F.rd m (F.cell3d u i0 j0 k0 i1 j1 k1 ugcw) [i, j, k]))) := by
  have P0 : F.Part (T := B64) [F.cell3d u i0 j0 k0 i1 j1 k1 ugcw, F.cell3d f i0 j0 k0 i1 j1 k1 fgcw, F.face3d0 f0 i0 j0 k0 i1 j1 k1 0, F.face3d1 f1 i0 j0 k0 i1 j1 k1 0, F.face3d2 f2 i0 j0 k0 i1 j1 k1 0] [F.cell3d res i0 j0 k0 i1 j1 k1 rgcw] (F.nestL [(.K, k0, k1), (.J, j0, j1), (.I, i0, i1)] (fun _ => 0) fun p => [((F.cell3d res i0 j0 k0 i1 j1 k1 rgcw), [p .I, p .J, p .K], F.Expr.ref (F.cell3d f i0 j0 k0 i1 j1 k1 fgcw) [p .I, p .J, p .K] - (-(F.Expr.const beta * ((F.Expr.ref (F.face3d0 f0 i0 j0 k0 i1 j1 k1 0) [p .I + 1, p .J, p .K] - F.Expr.ref (F.face3d0 f0 i0 j0 k0 i1 j1 k1 0) [p .I, p .J, p .K]) / F.Expr.const (dx 0) + (F.Expr.ref (F.face3d1 f1 i0 j0 k0 i1 j1 k1 0) [p .J + 1, p .K, p .I] - F.Expr.ref (F.face3d1 f1 i0 j0 k0 i1 j1 k1 0) [p .J, p .K, p .I]) / F.Expr.const (dx 1) + (F.Expr.ref (F.face3d2 f2 i0 j0 k0 i1 j1 k1 0) [p .K + 1, p .I, p .J] - F.Expr.ref (F.face3d2 f2 i0 j0 k0 i1 j1 k1 0) [p .K, p .I, p .J]) / F.Expr.const (dx 2))) + F.Expr.const alpha * F.Expr.ref (F.cell3d u i0 j0 k0 i1 j1 k1 ugcw) [p .I, p .J, p .K]))]) := by part_tac
  obtain ⟨m', g1, -, g3, g4⟩ := P0.run (c := F.celldiffusionv2res3d i0 i1 j0 j1 k0 k1 alpha beta dx ugcw u fgcw f f0 f1 f2 rgcw res) (by rw [← F.nest_seqn1]; rfl) h
  exact ⟨m', g1, g3, fun i j k h0 h1 h2 h3 h4 h5 => g4 _ (F.mem_nestL (p := (pt3 i j k)) (by nodups) (by in_nest) (by pt_else) List.mem_cons_self)⟩

end Verif
