import Verif.Props.Touched
import Verif.Lemmas.BcGhosts
import Verif.Lemmas.EliminateRun
import Verif.Lemmas.Assemble
import Mathlib.Tactic.FieldSimp
import Mathlib.Tactic.ComputeDegree
import Mathlib.Tactic.IntervalCases

/-
The ghost values of the boundary condition kernels continue a polynomial whatever the cells of the box contain, and the other cells keep their contents.
-/

set_option linter.unusedVariables false
set_option linter.unusedSimpArgs false
set_option linter.unusedTactic false
set_option linter.unreachableTactic false

namespace Verif
open Spec Polynomial

variable {T : Type}

theorem F.Changes.rd [Zero T] {a : F.Arr} {P : List Int → Prop} {m m' : Mem T} (h : F.Changes a P m m') {is : List Int} (hi : F.InBounds a.dims is) (hn : ¬ P is) :
    F.rd m' a is = F.rd m a is := by
  unfold F.rd ld
  rw [h.val _ fun js hj hP e => hn (by rw [F.addrT_inj hi hj e]; exact hP)]

theorem F.Changes.only {a : F.Arr} {P : List Int → Prop} {m m' : Mem T} (h : F.Changes a P m m') : F.Only [a] m m' :=
  ⟨fun q hq => h.val q fun is hi _ e => hq a (by simp) is hi e.symm, h.ints⟩

theorem F.Changes.ok {a b : F.Arr} {P : List Int → Prop} {m m' : Mem T} (h : F.Changes a P m m') (hb : F.ArrOK m b) : F.ArrOK m' b :=
  ⟨fun is hi => h.alloc _ (hb.alloc is hi), hb.fits, hb.int⟩

theorem F.Changes.args {a : F.Arr} {P : List Int → Prop} {m m' : Mem T} (h : F.Changes a P m m') {ins outs : List F.Arr} (ha : F.Args m ins outs) : F.Args m' ins outs :=
  ⟨fun b hb => h.ok (ha.ok b hb), ha.apart⟩

variable [Field T]

/-- there is a polynomial that meets the condition through any values of the cells next to the boundary, and the ghost value is on it -/
theorem fit_poly [CharZero T] {btype exOrder : Int} {h b x1 x2 : T} {zero : Bool} (hh : h ≠ 0)
    (hq : (btype = 0 ∧ exOrder = 1) ∨ (btype = 0 ∧ exOrder = 2) ∨ btype = 1 ∨ (btype = 4 ∧ exOrder = 1)) (hb : btype = 4 → 4 * b + h ≠ 0) :
    ∃ p : T[X], F.Meets btype exOrder b 0 p ∧ x1 = p.eval (1 / 2 * h) ∧ (btype ≠ 1 → exOrder = 2 → x2 = p.eval (3 / 2 * h)) ∧
      ghost zero btype exOrder 2 1 h b x1 x2 = some (p.eval (-(1 / 2) * h)) := by
  rcases hq with ⟨rfl, rfl⟩ | ⟨rfl, rfl⟩ | rfl | ⟨rfl, rfl⟩
  · refine ⟨C (2 * x1 / h) * X, .inl ⟨rfl, rfl, ?_, by simp⟩, ?_, fun _ e => absurd e (by decide), ?_⟩
    · compute_degree
    · simp; field_simp
    · simp [ghost]; field_simp
  · refine ⟨C ((9 * x1 - x2) / (3 * h)) * X + C ((x2 - 3 * x1) * 2 / (3 * h ^ 2)) * X ^ 2, .inr (.inl ⟨rfl, rfl, ?_, by simp⟩), ?_, fun _ _ => ?_, ?_⟩
    · compute_degree
    · simp; field_simp; ring
    · simp; field_simp; ring
    · simp [ghost]; field_simp; ring
  · refine ⟨C x1, .inr (.inr (.inl ⟨rfl, by simp, by simp⟩)), by simp, fun e => absurd rfl e, by simp [ghost]⟩
  · have hb := hb rfl
    refine ⟨C (2 * b * (2 * x1 / (4 * b + h))) + C (2 * x1 / (4 * b + h)) * X, .inr (.inr (.inr (.inl ⟨rfl, rfl, ?_, ?_⟩))), ?_, fun _ e => absurd e (by decide), ?_⟩
    · compute_degree
    · simp
    · have hx : 2 * x1 / (4 * b + h) * (4 * b + h) = 2 * x1 := div_mul_cancel₀ _ hb
      simp only [eval_add, eval_mul, eval_C, eval_X]
      linear_combination (-(1 / 2)) * hx
    · have e1 : 2 * 2 * b + h = 4 * b + h := by ring
      simp only [ghost, reduceIte, Int.reduceEq, mul_one, e1]
      congr 1
      simp only [eval_add, eval_mul, eval_C, eval_X]
      field_simp
      ring


set_option maxHeartbeats 3000000 in
theorem fill1 [CharZero T] {i0 i1 pi0 pi1 side btype exOrder g : Int} {dx : Nat → T} {b0_ u_ : Ptr} {bLo bHi : Nat → Int} {β : Nat → Backend} {m : Mem T} {B0 : List Int → T} 
    (hβ : ∀ n, ValidBackend (β n)) (hi : i0 ≤ i1) (hg : 1 ≤ g) (hl : Layer1 i0 i1 0 pi0 pi1 side) (hseg : bLo 0 = pi0 ∧ bHi 0 = pi1) (hthin : pi1 = pi0)
    (hq : (btype = 0 ∧ exOrder = 1) ∨ (btype = 0 ∧ exOrder = 2) ∨ btype = 1 ∨ (btype = 4 ∧ exOrder = 1)) (hh : dx 0 ≠ 0) (h : F.Args m [(F.face1d b0_ i0 i1 0)] [(F.cell1d u_ i0 i1 g)])
    (hB0 : F.Holds m (F.face1d b0_ i0 i1 0) B0) (hb : btype = 4 → ∀ c, F.layer1 pi0 side c → 4 * F.onFace1 B0 side c + dx 0 ≠ 0) :
    ∃ m1, Cuda.setBc1d i0 i1 dx 0 b0_ g u_ bLo bHi exOrder side btype 2 1 β m = .ok m1 ∧ F.Changes (F.cell1d u_ i0 i1 g) (F.onSeg1 bLo bHi side) m m1 ∧
      ∀ c, F.layer1 pi0 side c → ∃ p : T[X], F.Meets btype exOrder (F.onFace1 B0 side c) 0 p ∧ F.rd m (F.cell1d u_ i0 i1 g) (F.shift c (F.row F.points1 0)) = p.eval (1 / 2 * dx 0) ∧
        (btype ≠ 1 → exOrder = 2 → F.rd m (F.cell1d u_ i0 i1 g) (F.shift c (F.row F.points1 (2 - side))) = p.eval (3 / 2 * dx 0)) ∧
        ∀ e, 0 ≤ e → e ≤ 2 → F.rd m1 (F.cell1d u_ i0 i1 g) (F.shift c (F.row F.points1 e)) =
          if e = (1 + side) then p.eval (-(1 / 2) * dx 0) else F.rd m (F.cell1d u_ i0 i1 g) (F.shift c (F.row F.points1 e)) := by
  obtain ⟨hl0, hh0⟩ := hseg
  have hside := hl.hside
  have hIi := hl.intI
  have hx0 := hl.x
  have hs : ∀ q < 1, InInt (bLo q + 1) ∧ InInt (bHi q + 1) := by
    intro q hq'
    unfold InInt at *
    have hq3 : q = 0 := by omega
    subst hq3
    omega
  have hf0 : side = 0 → Reach i0 i1 g (bLo 0) 2 ∧ OnFaces i0 i1 0 (bLo 0 + 1) := by
    intro hfe
    unfold Reach OnFaces
    omega
  have hf1 : side = 1 → Reach i0 i1 g (bHi 0) (-2) ∧ OnFaces i0 i1 0 (bHi 0) := by
    intro hfe
    unfold Reach OnFaces
    omega
  obtain ⟨m1, r1, H⟩ := C76_1d (dx := dx) (exOrder := exOrder) (btype := btype) (face := side) (alpha := 2) (beta := 1) hβ hi (by omega) (by omega) hs hf0 hf1 h
  obtain ⟨m2, r2, G⟩ := ghosts_1d (dx := dx) (exOrder := exOrder) (btype := btype) (face := side) (alpha := 2) (beta := 1) hβ hi (by omega) (by omega) hs hf0 hf1 h
  obtain rfl : m1 = m2 := by rw [r1] at r2; injection r2
  clear hf0 hf1
  have hq4 : (btype = 0 ∧ exOrder = 1) ∨ (btype = 0 ∧ exOrder = 2) ∨ btype = 1 ∨ (btype = 4 ∧ exOrder = 1) := by
    clear hx0
    omega
  refine ⟨m1, r1, H, fun c hc => ?_⟩
  unfold F.layer1 at hc
  subst hc
  rcases hside with rfl | rfl
  · have hc : F.layer1 pi0 0 [pi0 - 2 * 0 + 1] := rfl
    obtain ⟨p, M, e1, e2, e3⟩ := fit_poly (zero := false) (x1 := F.rd m (F.cell1d u_ i0 i1 g) [bLo 0 + 1]) (x2 := F.rd m (F.cell1d u_ i0 i1 g) [bLo 0 + 2]) (b := F.onFace1 B0 0 [pi0 - 2 * 0 + 1]) (btype := btype) (exOrder := exOrder) (h := dx 0) hh hq4 (fun e => hb e _ hc)
    have eb : F.rd m (F.face1d b0_ i0 i1 0) [bLo 0 + 1] = F.onFace1 B0 0 [pi0 - 2 * 0 + 1] := by
      refine (F.El.rd (hB0 _ ?_)).trans ?_
      · simp only [F.face1d, F.InBounds, and_true]
        omega
      · simp only [F.onFace1, hl0, hh0, reduceIte, Int.reduceEq]
        congr 2
        omega
    have E := G.1 (by omega) _ (by rw [eb]; exact e3)
    clear G hq4
    have c0 : [bLo 0 + 0] = [pi0 - 2 * 0 + 1 - 1] := by simp only [List.cons.injEq, and_true, true_and]; omega
    have c1 : [bLo 0 + 1] = [pi0 - 2 * 0 + 1] := by simp only [List.cons.injEq, and_true, true_and]; omega
    have c2 : [bLo 0 + 2] = [pi0 - 2 * 0 + 1 + 1] := by simp only [List.cons.injEq, and_true, true_and]; omega
    rw [c1] at e1
    rw [c2] at e2
    rw [c0] at E
    refine ⟨p, M, by rw [F.shift1_0]; exact e1, fun h1 h2 => ?_, fun e h0 h1 => ?_⟩
    · rw [show (2 - 0 : Int) = 2 by decide, F.shift1_2]
      exact e2 h1 h2
    · rw [show (1 + 0 : Int) = 1 by decide]
      have he : e = 0 ∨ e = 1 ∨ e = 2 := by omega
      rcases he with rfl | rfl | rfl
      · rw [if_neg (by decide), F.shift1_0]
        refine H.rd ?_ ?_
        · simp only [F.cell1d, F.InBounds, and_true]
          omega
        · simp only [F.onSeg1, List.cons.injEq, and_true]
          omega
      · rw [if_pos rfl, F.shift1_1]
        exact E.rd
      · rw [if_neg (by decide), F.shift1_2]
        refine H.rd ?_ ?_
        · simp only [F.cell1d, F.InBounds, and_true]
          omega
        · simp only [F.onSeg1, List.cons.injEq, and_true]
          omega
  · have hc : F.layer1 pi0 1 [pi0 - 2 * 1 + 1] := rfl
    obtain ⟨p, M, e1, e2, e3⟩ := fit_poly (zero := false) (x1 := F.rd m (F.cell1d u_ i0 i1 g) [bHi 0 - 1]) (x2 := F.rd m (F.cell1d u_ i0 i1 g) [bHi 0 - 2]) (b := F.onFace1 B0 1 [pi0 - 2 * 1 + 1]) (btype := btype) (exOrder := exOrder) (h := dx 0) hh hq4 (fun e => hb e _ hc)
    have eb : F.rd m (F.face1d b0_ i0 i1 0) [bHi 0] = F.onFace1 B0 1 [pi0 - 2 * 1 + 1] := by
      refine (F.El.rd (hB0 _ ?_)).trans ?_
      · simp only [F.face1d, F.InBounds, and_true]
        omega
      · simp only [F.onFace1, hl0, hh0, reduceIte, Int.reduceEq]
        congr 2
        omega
    have E := G.2 (by omega) _ (by rw [eb]; exact e3)
    clear G hq4
    have c0 : [bHi 0 - 0] = [pi0 - 2 * 1 + 1 + 1] := by simp only [List.cons.injEq, and_true, true_and]; omega
    have c1 : [bHi 0 - 1] = [pi0 - 2 * 1 + 1] := by simp only [List.cons.injEq, and_true, true_and]; omega
    have c2 : [bHi 0 - 2] = [pi0 - 2 * 1 + 1 - 1] := by simp only [List.cons.injEq, and_true, true_and]; omega
    rw [c1] at e1
    rw [c2] at e2
    rw [c0] at E
    refine ⟨p, M, by rw [F.shift1_0]; exact e1, fun h1 h2 => ?_, fun e h0 h1 => ?_⟩
    · rw [show (2 - 1 : Int) = 1 by decide, F.shift1_1]
      exact e2 h1 h2
    · rw [show (1 + 1 : Int) = 2 by decide]
      have he : e = 0 ∨ e = 1 ∨ e = 2 := by omega
      rcases he with rfl | rfl | rfl
      · rw [if_neg (by decide), F.shift1_0]
        refine H.rd ?_ ?_
        · simp only [F.cell1d, F.InBounds, and_true]
          omega
        · simp only [F.onSeg1, List.cons.injEq, and_true]
          omega
      · rw [if_neg (by decide), F.shift1_1]
        refine H.rd ?_ ?_
        · simp only [F.cell1d, F.InBounds, and_true]
          omega
        · simp only [F.onSeg1, List.cons.injEq, and_true]
          omega
      · rw [if_pos rfl, F.shift1_2]
        exact E.rd


set_option maxHeartbeats 3000000 in
theorem pfill1 [CharZero T] {i0 i1 pi0 pi1 side btype exOrder g : Int} {dx : Nat → T} {u_ : Ptr} {bLo bHi : Nat → Int} {alpha' beta' : T} {β : Nat → Backend} {m : Mem T} 
    (hβ : ∀ n, ValidBackend (β n)) (hi : i0 ≤ i1) (hg : 1 ≤ g) (hl : Layer1 i0 i1 0 pi0 pi1 side) (hseg : bLo 0 = pi0 ∧ bHi 0 = pi1) (hthin : pi1 = pi0)
    (hq : (btype = 0 ∧ exOrder = 1) ∨ (btype = 0 ∧ exOrder = 2) ∨ btype = 1 ∨ (btype = 4 ∧ exOrder = 1)) (hh : dx 0 ≠ 0) (h : F.Args m [] [(F.cell1d u_ i0 i1 g)])
     (hb : btype = 4 → 4 + dx 0 ≠ 0) :
    ∃ m1, Cuda.setPoissonBc1d i0 i1 dx g u_ bLo bHi exOrder side btype alpha' beta' β m = .ok m1 ∧ F.Changes (F.cell1d u_ i0 i1 g) (F.onSeg1 bLo bHi side) m m1 ∧
      ∀ c, F.layer1 pi0 side c → ∃ p : T[X], F.Meets btype exOrder 1 0 p ∧ F.rd m (F.cell1d u_ i0 i1 g) (F.shift c (F.row F.points1 0)) = p.eval (1 / 2 * dx 0) ∧
        (btype ≠ 1 → exOrder = 2 → F.rd m (F.cell1d u_ i0 i1 g) (F.shift c (F.row F.points1 (2 - side))) = p.eval (3 / 2 * dx 0)) ∧
        ∀ e, 0 ≤ e → e ≤ 2 → F.rd m1 (F.cell1d u_ i0 i1 g) (F.shift c (F.row F.points1 e)) =
          if e = (1 + side) then p.eval (-(1 / 2) * dx 0) else F.rd m (F.cell1d u_ i0 i1 g) (F.shift c (F.row F.points1 e)) := by
  obtain ⟨hl0, hh0⟩ := hseg
  have hside := hl.hside
  have hIi := hl.intI
  have hx0 := hl.x
  have hs : ∀ q < 1, InInt (bLo q + 1) ∧ InInt (bHi q + 1) := by
    intro q hq'
    unfold InInt at *
    have hq3 : q = 0 := by omega
    subst hq3
    omega
  have hf0 : side = 0 → Reach i0 i1 g (bLo 0) 2 := by
    intro hfe
    unfold Reach
    omega
  have hf1 : side = 1 → Reach i0 i1 g (bHi 0) (-2) := by
    intro hfe
    unfold Reach
    omega
  obtain ⟨m1, r1, H⟩ := C76_poisson_1d (dx := dx) (exOrder := exOrder) (btype := btype) (face := side) (alpha := alpha') (beta := beta') hβ hi (by omega) hs hf0 hf1 h
  obtain ⟨m2, r2, G⟩ := ghosts_p1d (dx := dx) (exOrder := exOrder) (btype := btype) (face := side) (alpha := alpha') (beta := beta') hβ hi (by omega) hs hf0 hf1 h
  obtain rfl : m1 = m2 := by rw [r1] at r2; injection r2
  clear hf0 hf1
  have hq4 : (btype = 0 ∧ exOrder = 1) ∨ (btype = 0 ∧ exOrder = 2) ∨ btype = 1 ∨ (btype = 4 ∧ exOrder = 1) := by
    clear hx0
    omega
  refine ⟨m1, r1, H, fun c hc => ?_⟩
  unfold F.layer1 at hc
  subst hc
  rcases hside with rfl | rfl
  · have hc : F.layer1 pi0 0 [pi0 - 2 * 0 + 1] := rfl
    obtain ⟨p, M, e1, e2, e3⟩ := fit_poly (zero := false) (x1 := F.rd m (F.cell1d u_ i0 i1 g) [bLo 0 + 1]) (x2 := F.rd m (F.cell1d u_ i0 i1 g) [bLo 0 + 2]) (b := 1) (btype := btype) (exOrder := exOrder) (h := dx 0) hh hq4 (fun e => by rw [mul_one]; exact hb e)
    have E := G.1 (by omega) _ e3
    clear G hq4
    have c0 : [bLo 0 + 0] = [pi0 - 2 * 0 + 1 - 1] := by simp only [List.cons.injEq, and_true, true_and]; omega
    have c1 : [bLo 0 + 1] = [pi0 - 2 * 0 + 1] := by simp only [List.cons.injEq, and_true, true_and]; omega
    have c2 : [bLo 0 + 2] = [pi0 - 2 * 0 + 1 + 1] := by simp only [List.cons.injEq, and_true, true_and]; omega
    rw [c1] at e1
    rw [c2] at e2
    rw [c0] at E
    refine ⟨p, M, by rw [F.shift1_0]; exact e1, fun h1 h2 => ?_, fun e h0 h1 => ?_⟩
    · rw [show (2 - 0 : Int) = 2 by decide, F.shift1_2]
      exact e2 h1 h2
    · rw [show (1 + 0 : Int) = 1 by decide]
      have he : e = 0 ∨ e = 1 ∨ e = 2 := by omega
      rcases he with rfl | rfl | rfl
      · rw [if_neg (by decide), F.shift1_0]
        refine H.rd ?_ ?_
        · simp only [F.cell1d, F.InBounds, and_true]
          omega
        · simp only [F.onSeg1, List.cons.injEq, and_true]
          omega
      · rw [if_pos rfl, F.shift1_1]
        exact E.rd
      · rw [if_neg (by decide), F.shift1_2]
        refine H.rd ?_ ?_
        · simp only [F.cell1d, F.InBounds, and_true]
          omega
        · simp only [F.onSeg1, List.cons.injEq, and_true]
          omega
  · have hc : F.layer1 pi0 1 [pi0 - 2 * 1 + 1] := rfl
    obtain ⟨p, M, e1, e2, e3⟩ := fit_poly (zero := false) (x1 := F.rd m (F.cell1d u_ i0 i1 g) [bHi 0 - 1]) (x2 := F.rd m (F.cell1d u_ i0 i1 g) [bHi 0 - 2]) (b := 1) (btype := btype) (exOrder := exOrder) (h := dx 0) hh hq4 (fun e => by rw [mul_one]; exact hb e)
    have E := G.2 (by omega) _ e3
    clear G hq4
    have c0 : [bHi 0 - 0] = [pi0 - 2 * 1 + 1 + 1] := by simp only [List.cons.injEq, and_true, true_and]; omega
    have c1 : [bHi 0 - 1] = [pi0 - 2 * 1 + 1] := by simp only [List.cons.injEq, and_true, true_and]; omega
    have c2 : [bHi 0 - 2] = [pi0 - 2 * 1 + 1 - 1] := by simp only [List.cons.injEq, and_true, true_and]; omega
    rw [c1] at e1
    rw [c2] at e2
    rw [c0] at E
    refine ⟨p, M, by rw [F.shift1_0]; exact e1, fun h1 h2 => ?_, fun e h0 h1 => ?_⟩
    · rw [show (2 - 1 : Int) = 1 by decide, F.shift1_1]
      exact e2 h1 h2
    · rw [show (1 + 1 : Int) = 2 by decide]
      have he : e = 0 ∨ e = 1 ∨ e = 2 := by omega
      rcases he with rfl | rfl | rfl
      · rw [if_neg (by decide), F.shift1_0]
        refine H.rd ?_ ?_
        · simp only [F.cell1d, F.InBounds, and_true]
          omega
        · simp only [F.onSeg1, List.cons.injEq, and_true]
          omega
      · rw [if_neg (by decide), F.shift1_1]
        refine H.rd ?_ ?_
        · simp only [F.cell1d, F.InBounds, and_true]
          omega
        · simp only [F.onSeg1, List.cons.injEq, and_true]
          omega
      · rw [if_pos rfl, F.shift1_2]
        exact E.rd


set_option maxHeartbeats 3000000 in
theorem fill2 [CharZero T] {i0 j0 i1 j1 pi0 pj0 pi1 pj1 dir side btype exOrder g : Int} {dx : Nat → T} {b0_ b1_ u_ : Ptr} {bLo bHi : Nat → Int} {β : Nat → Backend} {m : Mem T} {B0 B1 : List Int → T} 
    (hβ : ∀ n, ValidBackend (β n)) (hi : i0 ≤ i1) (hj : j0 ≤ j1) (hg : 1 ≤ g) (hl : Layer2 i0 j0 i1 j1 0 pi0 pj0 pi1 pj1 dir side) (hseg : bLo 0 = pi0 ∧ bHi 0 = pi1 ∧ bLo 1 = pj0 ∧ bHi 1 = pj1) (hthin : (dir = 0 → pi1 = pi0) ∧ (dir = 1 → pj1 = pj0))
    (hq : (btype = 0 ∧ exOrder = 1) ∨ (btype = 0 ∧ exOrder = 2) ∨ btype = 1 ∨ (btype = 4 ∧ exOrder = 1 ∧ dir = 0)) (hh : dx dir.toNat ≠ 0) (h : F.Args m [(F.face2d0 b0_ i0 j0 i1 j1 0), (F.face2d1 b1_ i0 j0 i1 j1 0)] [(F.cell2d u_ i0 j0 i1 j1 g)])
    (hB0 : F.Holds m (F.face2d0 b0_ i0 j0 i1 j1 0) B0) (hB1 : F.Holds m (F.face2d1 b1_ i0 j0 i1 j1 0) B1) (hb : btype = 4 → ∀ c, F.layer2 pi0 pj0 pi1 pj1 dir side c → 4 * F.onFace2 B0 B1 dir side c + dx dir.toNat ≠ 0) :
    ∃ m1, Cuda.setBc2d i0 i1 j0 j1 dx 0 b0_ b1_ g u_ bLo bHi exOrder (2 * dir + side) 1 btype 2 1 β m = .ok m1 ∧ F.Changes (F.cell2d u_ i0 j0 i1 j1 g) (F.onSeg2 bLo bHi 1 (2 * dir + side)) m m1 ∧
      ∀ c, F.layer2 pi0 pj0 pi1 pj1 dir side c → ∃ p : T[X], F.Meets btype exOrder (F.onFace2 B0 B1 dir side c) 0 p ∧ F.rd m (F.cell2d u_ i0 j0 i1 j1 g) (F.shift c (F.row F.points2 0)) = p.eval (1 / 2 * dx dir.toNat) ∧
        (btype ≠ 1 → exOrder = 2 → F.rd m (F.cell2d u_ i0 j0 i1 j1 g) (F.shift c (F.row F.points2 (2 * dir + 2 - side))) = p.eval (3 / 2 * dx dir.toNat)) ∧
        ∀ e, 0 ≤ e → e ≤ 4 → F.rd m1 (F.cell2d u_ i0 j0 i1 j1 g) (F.shift c (F.row F.points2 e)) =
          if e = (2 * dir + 1 + side) then p.eval (-(1 / 2) * dx dir.toNat) else F.rd m (F.cell2d u_ i0 j0 i1 j1 g) (F.shift c (F.row F.points2 e)) := by
  obtain ⟨hl0, hh0, hl1, hh1⟩ := hseg
  have hside := hl.hside
  have hdir := hl.hdir
  obtain ⟨ht0, ht1⟩ := hthin
  have hIi := hl.intI
  have hIj := hl.intJ
  have hx0 := hl.x
  have hx1 := hl.y
  have hs : ∀ q < 2, InInt (bLo q + 1) ∧ InInt (bHi q + 1) := by
    intro q hq'
    unfold InInt at *
    have hq3 : q = 0 ∨ q = 1 := by omega
    rcases hq3 with rfl | rfl
    · omega
    · omega
  have hf0 : (2 * dir + side) = 0 → Reach i0 i1 g (bLo 0) 2 ∧ OnFaces i0 i1 0 (bLo 0 + 1) ∧ Spec.Part j0 j1 (bLo 1) (bHi 1) := by
    intro hfe
    unfold Reach OnFaces Spec.Part
    have hd : dir = 0 := by clear hq hx0 ht0 hx1 ht1; omega
    have a1 := hx0 hd
    have a2 := ht0 hd
    clear hq hx0 ht0 hx1 ht1
    omega
  have hm0 : (2 * dir + side) = 0 → Reach i0 i1 g (bLo 0) 2 ∧ OnFaces i0 i1 0 (bLo 0 + 1) ∧ Meets j0 j1 (bLo 1) (bHi 1) := by
    intro hfe
    have := hf0 hfe
    unfold Spec.Part Reach OnFaces at this
    unfold Meets Reach OnFaces
    clear hq hx0 ht0 hx1 ht1
    omega
  have hf1 : (2 * dir + side) = 1 → Reach i0 i1 g (bHi 0) (-2) ∧ OnFaces i0 i1 0 (bHi 0) ∧ Spec.Part j0 j1 (bLo 1) (bHi 1) := by
    intro hfe
    unfold Reach OnFaces Spec.Part
    have hd : dir = 0 := by clear hq hx0 ht0 hx1 ht1; omega
    have a1 := hx0 hd
    have a2 := ht0 hd
    clear hq hx0 ht0 hx1 ht1
    omega
  have hm1 : (2 * dir + side) = 1 → Reach i0 i1 g (bHi 0) (-2) ∧ OnFaces i0 i1 0 (bHi 0) ∧ Meets j0 j1 (bLo 1) (bHi 1) := by
    intro hfe
    have := hf1 hfe
    unfold Spec.Part Reach OnFaces at this
    unfold Meets Reach OnFaces
    clear hq hx0 ht0 hx1 ht1
    omega
  have hf2 : (2 * dir + side) = 2 → Reach j0 j1 g (bLo 1) 2 ∧ OnFaces j0 j1 0 (bLo 1 + 1) ∧ Spec.Part i0 i1 (bLo 0) (bHi 0) := by
    intro hfe
    unfold Reach OnFaces Spec.Part
    have hd : dir = 1 := by clear hq hx0 ht0 hx1 ht1; omega
    have a1 := hx1 hd
    have a2 := ht1 hd
    clear hq hx0 ht0 hx1 ht1
    omega
  have hm2 : (2 * dir + side) = 2 → Reach j0 j1 g (bLo 1) 2 ∧ OnFaces j0 j1 0 (bLo 1 + 1) ∧ Meets i0 i1 (bLo 0) (bHi 0) := by
    intro hfe
    have := hf2 hfe
    unfold Spec.Part Reach OnFaces at this
    unfold Meets Reach OnFaces
    clear hq hx0 ht0 hx1 ht1
    omega
  have hf3 : (2 * dir + side) = 3 → Reach j0 j1 g (bHi 1) (-2) ∧ OnFaces j0 j1 0 (bHi 1) ∧ Spec.Part i0 i1 (bLo 0) (bHi 0) := by
    intro hfe
    unfold Reach OnFaces Spec.Part
    have hd : dir = 1 := by clear hq hx0 ht0 hx1 ht1; omega
    have a1 := hx1 hd
    have a2 := ht1 hd
    clear hq hx0 ht0 hx1 ht1
    omega
  have hm3 : (2 * dir + side) = 3 → Reach j0 j1 g (bHi 1) (-2) ∧ OnFaces j0 j1 0 (bHi 1) ∧ Meets i0 i1 (bLo 0) (bHi 0) := by
    intro hfe
    have := hf3 hfe
    unfold Spec.Part Reach OnFaces at this
    unfold Meets Reach OnFaces
    clear hq hx0 ht0 hx1 ht1
    omega
  obtain ⟨m1, r1, H⟩ := C76_2d (dx := dx) (exOrder := exOrder) (btype := btype) (face := (2 * dir + side)) (alpha := 2) (beta := 1) (type := 1) hβ hi hj (by omega) (by omega) hs (fun _ e => hf0 e) (fun _ e => hf1 e) (fun _ e => hf2 e) (fun _ e => hf3 e) (fun e => absurd e (by decide)) h
  obtain ⟨m2, r2, G⟩ := ghosts_2d (dx := dx) (exOrder := exOrder) (btype := btype) (face := (2 * dir + side)) (alpha := 2) (beta := 1) hβ hi hj (by omega) (by omega) hs hm0 hm1 hm2 hm3 h
  obtain rfl : m1 = m2 := by rw [r1] at r2; injection r2
  clear hf0 hm0 hf1 hm1 hf2 hm2 hf3 hm3
  have hq4 : (btype = 0 ∧ exOrder = 1) ∨ (btype = 0 ∧ exOrder = 2) ∨ btype = 1 ∨ (btype = 4 ∧ exOrder = 1) := by
    clear hx0 ht0 hx1 ht1
    omega
  refine ⟨m1, r1, H, fun c hc => ?_⟩
  obtain ⟨i, j, rfl, hc⟩ := hc
  rcases hc with ⟨rfl, rfl, r0, r1⟩ | ⟨rfl, rfl, r0, r1⟩
  · rcases hside with rfl | rfl
    · have hx := hx0 rfl
      have ht := ht0 rfl
      clear hx0 ht0 hx1 ht1
      clear hq
      have hc : F.layer2 pi0 pj0 pi1 pj1 0 0 [pi0 - 2 * 0 + 1, j] := ⟨pi0 - 2 * 0 + 1, j, rfl, by omega⟩
      obtain ⟨p, M, e1, e2, e3⟩ := fit_poly (zero := true) (x1 := F.rd m (F.cell2d u_ i0 j0 i1 j1 g) [bLo 0 + 1, j]) (x2 := F.rd m (F.cell2d u_ i0 j0 i1 j1 g) [bLo 0 + 2, j]) (b := F.onFace2 B0 B1 0 0 [pi0 - 2 * 0 + 1, j]) (btype := btype) (exOrder := exOrder) (h := dx ((0 : Int).toNat)) hh hq4 (fun e => hb e _ hc)
      have eb : F.rd m (F.face2d0 b0_ i0 j0 i1 j1 0) [bLo 0 + 1, j] = F.onFace2 B0 B1 0 0 [pi0 - 2 * 0 + 1, j] := by
        refine (F.El.rd (hB0 _ ?_)).trans ?_
        · simp only [F.face2d0, F.InBounds, and_true]
          omega
        · simp only [F.onFace2, hl0, hh0, reduceIte, Int.reduceEq]
          congr 2
          omega
      have E := G.1 (by omega) j (by omega) (by omega) _ (by rw [eb]; exact e3)
      clear G hq4
      have c0 : [bLo 0 + 0, j] = [pi0 - 2 * 0 + 1 - 1, j] := by simp only [List.cons.injEq, and_true, true_and]; omega
      have c1 : [bLo 0 + 1, j] = [pi0 - 2 * 0 + 1, j] := by simp only [List.cons.injEq, and_true, true_and]; omega
      have c2 : [bLo 0 + 2, j] = [pi0 - 2 * 0 + 1 + 1, j] := by simp only [List.cons.injEq, and_true, true_and]; omega
      rw [c1] at e1
      rw [c2] at e2
      rw [c0] at E
      refine ⟨p, M, by rw [F.shift2_0]; exact e1, fun h1 h2 => ?_, fun e h0 h1 => ?_⟩
      · rw [show (2 * 0 + 2 - 0 : Int) = 2 by decide, F.shift2_2]
        exact e2 h1 h2
      · rw [show (2 * 0 + 1 + 0 : Int) = 1 by decide]
        have he : e = 0 ∨ e = 1 ∨ e = 2 ∨ e = 3 ∨ e = 4 := by omega
        rcases he with rfl | rfl | rfl | rfl | rfl
        · rw [if_neg (by decide), F.shift2_0]
          refine H.rd ?_ ?_
          · simp only [F.cell2d, F.InBounds, and_true]
            omega
          · rintro ⟨i', j', hcc, hP⟩
            simp only [List.cons.injEq, and_true] at hcc
            omega
        · rw [if_pos rfl, F.shift2_1]
          exact E.rd
        · rw [if_neg (by decide), F.shift2_2]
          refine H.rd ?_ ?_
          · simp only [F.cell2d, F.InBounds, and_true]
            omega
          · rintro ⟨i', j', hcc, hP⟩
            simp only [List.cons.injEq, and_true] at hcc
            omega
        · rw [if_neg (by decide), F.shift2_3]
          refine H.rd ?_ ?_
          · simp only [F.cell2d, F.InBounds, and_true]
            omega
          · rintro ⟨i', j', hcc, hP⟩
            simp only [List.cons.injEq, and_true] at hcc
            omega
        · rw [if_neg (by decide), F.shift2_4]
          refine H.rd ?_ ?_
          · simp only [F.cell2d, F.InBounds, and_true]
            omega
          · rintro ⟨i', j', hcc, hP⟩
            simp only [List.cons.injEq, and_true] at hcc
            omega
    · have hx := hx0 rfl
      have ht := ht0 rfl
      clear hx0 ht0 hx1 ht1
      clear hq
      have hc : F.layer2 pi0 pj0 pi1 pj1 0 1 [pi0 - 2 * 1 + 1, j] := ⟨pi0 - 2 * 1 + 1, j, rfl, by omega⟩
      obtain ⟨p, M, e1, e2, e3⟩ := fit_poly (zero := true) (x1 := F.rd m (F.cell2d u_ i0 j0 i1 j1 g) [bHi 0 - 1, j]) (x2 := F.rd m (F.cell2d u_ i0 j0 i1 j1 g) [bHi 0 - 2, j]) (b := F.onFace2 B0 B1 0 1 [pi0 - 2 * 1 + 1, j]) (btype := btype) (exOrder := exOrder) (h := dx ((0 : Int).toNat)) hh hq4 (fun e => hb e _ hc)
      have eb : F.rd m (F.face2d0 b0_ i0 j0 i1 j1 0) [bHi 0, j] = F.onFace2 B0 B1 0 1 [pi0 - 2 * 1 + 1, j] := by
        refine (F.El.rd (hB0 _ ?_)).trans ?_
        · simp only [F.face2d0, F.InBounds, and_true]
          omega
        · simp only [F.onFace2, hl0, hh0, reduceIte, Int.reduceEq]
          congr 2
          omega
      have E := G.2.1 (by omega) j (by omega) (by omega) _ (by rw [eb]; exact e3)
      clear G hq4
      have c0 : [bHi 0 - 0, j] = [pi0 - 2 * 1 + 1 + 1, j] := by simp only [List.cons.injEq, and_true, true_and]; omega
      have c1 : [bHi 0 - 1, j] = [pi0 - 2 * 1 + 1, j] := by simp only [List.cons.injEq, and_true, true_and]; omega
      have c2 : [bHi 0 - 2, j] = [pi0 - 2 * 1 + 1 - 1, j] := by simp only [List.cons.injEq, and_true, true_and]; omega
      rw [c1] at e1
      rw [c2] at e2
      rw [c0] at E
      refine ⟨p, M, by rw [F.shift2_0]; exact e1, fun h1 h2 => ?_, fun e h0 h1 => ?_⟩
      · rw [show (2 * 0 + 2 - 1 : Int) = 1 by decide, F.shift2_1]
        exact e2 h1 h2
      · rw [show (2 * 0 + 1 + 1 : Int) = 2 by decide]
        have he : e = 0 ∨ e = 1 ∨ e = 2 ∨ e = 3 ∨ e = 4 := by omega
        rcases he with rfl | rfl | rfl | rfl | rfl
        · rw [if_neg (by decide), F.shift2_0]
          refine H.rd ?_ ?_
          · simp only [F.cell2d, F.InBounds, and_true]
            omega
          · rintro ⟨i', j', hcc, hP⟩
            simp only [List.cons.injEq, and_true] at hcc
            omega
        · rw [if_neg (by decide), F.shift2_1]
          refine H.rd ?_ ?_
          · simp only [F.cell2d, F.InBounds, and_true]
            omega
          · rintro ⟨i', j', hcc, hP⟩
            simp only [List.cons.injEq, and_true] at hcc
            omega
        · rw [if_pos rfl, F.shift2_2]
          exact E.rd
        · rw [if_neg (by decide), F.shift2_3]
          refine H.rd ?_ ?_
          · simp only [F.cell2d, F.InBounds, and_true]
            omega
          · rintro ⟨i', j', hcc, hP⟩
            simp only [List.cons.injEq, and_true] at hcc
            omega
        · rw [if_neg (by decide), F.shift2_4]
          refine H.rd ?_ ?_
          · simp only [F.cell2d, F.InBounds, and_true]
            omega
          · rintro ⟨i', j', hcc, hP⟩
            simp only [List.cons.injEq, and_true] at hcc
            omega
  · rcases hside with rfl | rfl
    · have hx := hx1 rfl
      have ht := ht1 rfl
      clear hx0 ht0 hx1 ht1
      clear hq
      have hc : F.layer2 pi0 pj0 pi1 pj1 1 0 [i, pj0 - 2 * 0 + 1] := ⟨i, pj0 - 2 * 0 + 1, rfl, by omega⟩
      obtain ⟨p, M, e1, e2, e3⟩ := fit_poly (zero := true) (x1 := F.rd m (F.cell2d u_ i0 j0 i1 j1 g) [i, bLo 1 + 1]) (x2 := F.rd m (F.cell2d u_ i0 j0 i1 j1 g) [i, bLo 1 + 2]) (b := F.onFace2 B0 B1 1 0 [i, pj0 - 2 * 0 + 1]) (btype := btype) (exOrder := exOrder) (h := dx ((1 : Int).toNat)) hh hq4 (fun e => hb e _ hc)
      have eb : F.rd m (F.face2d1 b1_ i0 j0 i1 j1 0) [bLo 1 + 1, i] = F.onFace2 B0 B1 1 0 [i, pj0 - 2 * 0 + 1] := by
        refine (F.El.rd (hB1 _ ?_)).trans ?_
        · simp only [F.face2d1, F.InBounds, and_true]
          omega
        · simp only [F.onFace2, hl1, hh1, reduceIte, Int.reduceEq]
          congr 2
          omega
      have E := G.2.2.1 (by omega) i (by omega) (by omega) _ (by rw [eb]; exact e3)
      clear G hq4
      have c0 : [i, bLo 1 + 0] = [i, pj0 - 2 * 0 + 1 - 1] := by simp only [List.cons.injEq, and_true, true_and]; omega
      have c1 : [i, bLo 1 + 1] = [i, pj0 - 2 * 0 + 1] := by simp only [List.cons.injEq, and_true, true_and]; omega
      have c2 : [i, bLo 1 + 2] = [i, pj0 - 2 * 0 + 1 + 1] := by simp only [List.cons.injEq, and_true, true_and]; omega
      rw [c1] at e1
      rw [c2] at e2
      rw [c0] at E
      refine ⟨p, M, by rw [F.shift2_0]; exact e1, fun h1 h2 => ?_, fun e h0 h1 => ?_⟩
      · rw [show (2 * 1 + 2 - 0 : Int) = 4 by decide, F.shift2_4]
        exact e2 h1 h2
      · rw [show (2 * 1 + 1 + 0 : Int) = 3 by decide]
        have he : e = 0 ∨ e = 1 ∨ e = 2 ∨ e = 3 ∨ e = 4 := by omega
        rcases he with rfl | rfl | rfl | rfl | rfl
        · rw [if_neg (by decide), F.shift2_0]
          refine H.rd ?_ ?_
          · simp only [F.cell2d, F.InBounds, and_true]
            omega
          · rintro ⟨i', j', hcc, hP⟩
            simp only [List.cons.injEq, and_true] at hcc
            omega
        · rw [if_neg (by decide), F.shift2_1]
          refine H.rd ?_ ?_
          · simp only [F.cell2d, F.InBounds, and_true]
            omega
          · rintro ⟨i', j', hcc, hP⟩
            simp only [List.cons.injEq, and_true] at hcc
            omega
        · rw [if_neg (by decide), F.shift2_2]
          refine H.rd ?_ ?_
          · simp only [F.cell2d, F.InBounds, and_true]
            omega
          · rintro ⟨i', j', hcc, hP⟩
            simp only [List.cons.injEq, and_true] at hcc
            omega
        · rw [if_pos rfl, F.shift2_3]
          exact E.rd
        · rw [if_neg (by decide), F.shift2_4]
          refine H.rd ?_ ?_
          · simp only [F.cell2d, F.InBounds, and_true]
            omega
          · rintro ⟨i', j', hcc, hP⟩
            simp only [List.cons.injEq, and_true] at hcc
            omega
    · have hx := hx1 rfl
      have ht := ht1 rfl
      clear hx0 ht0 hx1 ht1
      clear hq
      have hc : F.layer2 pi0 pj0 pi1 pj1 1 1 [i, pj0 - 2 * 1 + 1] := ⟨i, pj0 - 2 * 1 + 1, rfl, by omega⟩
      obtain ⟨p, M, e1, e2, e3⟩ := fit_poly (zero := true) (x1 := F.rd m (F.cell2d u_ i0 j0 i1 j1 g) [i, bHi 1 - 1]) (x2 := F.rd m (F.cell2d u_ i0 j0 i1 j1 g) [i, bHi 1 - 2]) (b := F.onFace2 B0 B1 1 1 [i, pj0 - 2 * 1 + 1]) (btype := btype) (exOrder := exOrder) (h := dx ((1 : Int).toNat)) hh hq4 (fun e => hb e _ hc)
      have eb : F.rd m (F.face2d1 b1_ i0 j0 i1 j1 0) [bHi 1, i] = F.onFace2 B0 B1 1 1 [i, pj0 - 2 * 1 + 1] := by
        refine (F.El.rd (hB1 _ ?_)).trans ?_
        · simp only [F.face2d1, F.InBounds, and_true]
          omega
        · simp only [F.onFace2, hl1, hh1, reduceIte, Int.reduceEq]
          congr 2
          omega
      have E := G.2.2.2 (by omega) i (by omega) (by omega) _ (by rw [eb]; exact e3)
      clear G hq4
      have c0 : [i, bHi 1 - 0] = [i, pj0 - 2 * 1 + 1 + 1] := by simp only [List.cons.injEq, and_true, true_and]; omega
      have c1 : [i, bHi 1 - 1] = [i, pj0 - 2 * 1 + 1] := by simp only [List.cons.injEq, and_true, true_and]; omega
      have c2 : [i, bHi 1 - 2] = [i, pj0 - 2 * 1 + 1 - 1] := by simp only [List.cons.injEq, and_true, true_and]; omega
      rw [c1] at e1
      rw [c2] at e2
      rw [c0] at E
      refine ⟨p, M, by rw [F.shift2_0]; exact e1, fun h1 h2 => ?_, fun e h0 h1 => ?_⟩
      · rw [show (2 * 1 + 2 - 1 : Int) = 3 by decide, F.shift2_3]
        exact e2 h1 h2
      · rw [show (2 * 1 + 1 + 1 : Int) = 4 by decide]
        have he : e = 0 ∨ e = 1 ∨ e = 2 ∨ e = 3 ∨ e = 4 := by omega
        rcases he with rfl | rfl | rfl | rfl | rfl
        · rw [if_neg (by decide), F.shift2_0]
          refine H.rd ?_ ?_
          · simp only [F.cell2d, F.InBounds, and_true]
            omega
          · rintro ⟨i', j', hcc, hP⟩
            simp only [List.cons.injEq, and_true] at hcc
            omega
        · rw [if_neg (by decide), F.shift2_1]
          refine H.rd ?_ ?_
          · simp only [F.cell2d, F.InBounds, and_true]
            omega
          · rintro ⟨i', j', hcc, hP⟩
            simp only [List.cons.injEq, and_true] at hcc
            omega
        · rw [if_neg (by decide), F.shift2_2]
          refine H.rd ?_ ?_
          · simp only [F.cell2d, F.InBounds, and_true]
            omega
          · rintro ⟨i', j', hcc, hP⟩
            simp only [List.cons.injEq, and_true] at hcc
            omega
        · rw [if_neg (by decide), F.shift2_3]
          refine H.rd ?_ ?_
          · simp only [F.cell2d, F.InBounds, and_true]
            omega
          · rintro ⟨i', j', hcc, hP⟩
            simp only [List.cons.injEq, and_true] at hcc
            omega
        · rw [if_pos rfl, F.shift2_4]
          exact E.rd


set_option maxHeartbeats 3000000 in
theorem pfill2 [CharZero T] {i0 j0 i1 j1 pi0 pj0 pi1 pj1 dir side btype exOrder g : Int} {dx : Nat → T} {u_ : Ptr} {bLo bHi : Nat → Int} {β : Nat → Backend} {m : Mem T} 
    (hβ : ∀ n, ValidBackend (β n)) (hi : i0 ≤ i1) (hj : j0 ≤ j1) (hg : 1 ≤ g) (hl : Layer2 i0 j0 i1 j1 0 pi0 pj0 pi1 pj1 dir side) (hseg : bLo 0 = pi0 ∧ bHi 0 = pi1 ∧ bLo 1 = pj0 ∧ bHi 1 = pj1) (hthin : (dir = 0 → pi1 = pi0) ∧ (dir = 1 → pj1 = pj0))
    (hq : (btype = 0 ∧ exOrder = 1) ∨ (btype = 0 ∧ exOrder = 2) ∨ btype = 1 ∨ (btype = 4 ∧ exOrder = 1 ∧ dir = 0)) (hh : dx dir.toNat ≠ 0) (h : F.Args m [] [(F.cell2d u_ i0 j0 i1 j1 g)])
     (hb : btype = 4 → 4 + dx dir.toNat ≠ 0) :
    ∃ m1, Cuda.setPoissonBc2d i0 i1 j0 j1 dx g u_ bLo bHi exOrder (2 * dir + side) 1 btype 2 1 β m = .ok m1 ∧ F.Changes (F.cell2d u_ i0 j0 i1 j1 g) (F.onSeg2 bLo bHi 1 (2 * dir + side)) m m1 ∧
      ∀ c, F.layer2 pi0 pj0 pi1 pj1 dir side c → ∃ p : T[X], F.Meets btype exOrder 1 0 p ∧ F.rd m (F.cell2d u_ i0 j0 i1 j1 g) (F.shift c (F.row F.points2 0)) = p.eval (1 / 2 * dx dir.toNat) ∧
        (btype ≠ 1 → exOrder = 2 → F.rd m (F.cell2d u_ i0 j0 i1 j1 g) (F.shift c (F.row F.points2 (2 * dir + 2 - side))) = p.eval (3 / 2 * dx dir.toNat)) ∧
        ∀ e, 0 ≤ e → e ≤ 4 → F.rd m1 (F.cell2d u_ i0 j0 i1 j1 g) (F.shift c (F.row F.points2 e)) =
          if e = (2 * dir + 1 + side) then p.eval (-(1 / 2) * dx dir.toNat) else F.rd m (F.cell2d u_ i0 j0 i1 j1 g) (F.shift c (F.row F.points2 e)) := by
  obtain ⟨hl0, hh0, hl1, hh1⟩ := hseg
  have hside := hl.hside
  have hdir := hl.hdir
  obtain ⟨ht0, ht1⟩ := hthin
  have hIi := hl.intI
  have hIj := hl.intJ
  have hx0 := hl.x
  have hx1 := hl.y
  have hs : ∀ q < 2, InInt (bLo q + 1) ∧ InInt (bHi q + 1) := by
    intro q hq'
    unfold InInt at *
    have hq3 : q = 0 ∨ q = 1 := by omega
    rcases hq3 with rfl | rfl
    · omega
    · omega
  have hf0 : (2 * dir + side) = 0 → Reach i0 i1 g (bLo 0) 2 ∧ Spec.Part j0 j1 (bLo 1) (bHi 1) := by
    intro hfe
    unfold Reach Spec.Part
    have hd : dir = 0 := by clear hq hx0 ht0 hx1 ht1; omega
    have a1 := hx0 hd
    have a2 := ht0 hd
    clear hq hx0 ht0 hx1 ht1
    omega
  have hm0 : (2 * dir + side) = 0 → Reach i0 i1 g (bLo 0) 2 ∧ Meets j0 j1 (bLo 1) (bHi 1) := by
    intro hfe
    have := hf0 hfe
    unfold Spec.Part Reach at this
    unfold Meets Reach
    clear hq hx0 ht0 hx1 ht1
    omega
  have hf1 : (2 * dir + side) = 1 → Reach i0 i1 g (bHi 0) (-2) ∧ Spec.Part j0 j1 (bLo 1) (bHi 1) := by
    intro hfe
    unfold Reach Spec.Part
    have hd : dir = 0 := by clear hq hx0 ht0 hx1 ht1; omega
    have a1 := hx0 hd
    have a2 := ht0 hd
    clear hq hx0 ht0 hx1 ht1
    omega
  have hm1 : (2 * dir + side) = 1 → Reach i0 i1 g (bHi 0) (-2) ∧ Meets j0 j1 (bLo 1) (bHi 1) := by
    intro hfe
    have := hf1 hfe
    unfold Spec.Part Reach at this
    unfold Meets Reach
    clear hq hx0 ht0 hx1 ht1
    omega
  have hf2 : (2 * dir + side) = 2 → Reach j0 j1 g (bLo 1) 2 ∧ Spec.Part i0 i1 (bLo 0) (bHi 0) := by
    intro hfe
    unfold Reach Spec.Part
    have hd : dir = 1 := by clear hq hx0 ht0 hx1 ht1; omega
    have a1 := hx1 hd
    have a2 := ht1 hd
    clear hq hx0 ht0 hx1 ht1
    omega
  have hm2 : (2 * dir + side) = 2 → Reach j0 j1 g (bLo 1) 2 ∧ Meets i0 i1 (bLo 0) (bHi 0) := by
    intro hfe
    have := hf2 hfe
    unfold Spec.Part Reach at this
    unfold Meets Reach
    clear hq hx0 ht0 hx1 ht1
    omega
  have hf3 : (2 * dir + side) = 3 → Reach j0 j1 g (bHi 1) (-2) ∧ Spec.Part i0 i1 (bLo 0) (bHi 0) := by
    intro hfe
    unfold Reach Spec.Part
    have hd : dir = 1 := by clear hq hx0 ht0 hx1 ht1; omega
    have a1 := hx1 hd
    have a2 := ht1 hd
    clear hq hx0 ht0 hx1 ht1
    omega
  have hm3 : (2 * dir + side) = 3 → Reach j0 j1 g (bHi 1) (-2) ∧ Meets i0 i1 (bLo 0) (bHi 0) := by
    intro hfe
    have := hf3 hfe
    unfold Spec.Part Reach at this
    unfold Meets Reach
    clear hq hx0 ht0 hx1 ht1
    omega
  obtain ⟨m1, r1, H⟩ := C76_poisson_2d (dx := dx) (exOrder := exOrder) (btype := btype) (face := (2 * dir + side)) (alpha := 2) (beta := 1) (type := 1) hβ hi hj (by omega) hs (fun _ e => hf0 e) (fun _ e => hf1 e) (fun _ e => hf2 e) (fun _ e => hf3 e) (fun e => absurd e (by decide)) h
  obtain ⟨m2, r2, G⟩ := ghosts_p2d (dx := dx) (exOrder := exOrder) (btype := btype) (face := (2 * dir + side)) (alpha := 2) (beta := 1) hβ hi hj (by omega) hs hm0 hm1 hm2 hm3 h
  obtain rfl : m1 = m2 := by rw [r1] at r2; injection r2
  clear hf0 hm0 hf1 hm1 hf2 hm2 hf3 hm3
  have hq4 : (btype = 0 ∧ exOrder = 1) ∨ (btype = 0 ∧ exOrder = 2) ∨ btype = 1 ∨ (btype = 4 ∧ exOrder = 1) := by
    clear hx0 ht0 hx1 ht1
    omega
  refine ⟨m1, r1, H, fun c hc => ?_⟩
  obtain ⟨i, j, rfl, hc⟩ := hc
  rcases hc with ⟨rfl, rfl, r0, r1⟩ | ⟨rfl, rfl, r0, r1⟩
  · rcases hside with rfl | rfl
    · have hx := hx0 rfl
      have ht := ht0 rfl
      clear hx0 ht0 hx1 ht1
      clear hq
      have hc : F.layer2 pi0 pj0 pi1 pj1 0 0 [pi0 - 2 * 0 + 1, j] := ⟨pi0 - 2 * 0 + 1, j, rfl, by omega⟩
      obtain ⟨p, M, e1, e2, e3⟩ := fit_poly (zero := false) (x1 := F.rd m (F.cell2d u_ i0 j0 i1 j1 g) [bLo 0 + 1, j]) (x2 := F.rd m (F.cell2d u_ i0 j0 i1 j1 g) [bLo 0 + 2, j]) (b := 1) (btype := btype) (exOrder := exOrder) (h := dx ((0 : Int).toNat)) hh hq4 (fun e => by rw [mul_one]; exact hb e)
      have E := G.1 (by omega) j (by omega) (by omega) _ e3
      clear G hq4
      have c0 : [bLo 0 + 0, j] = [pi0 - 2 * 0 + 1 - 1, j] := by simp only [List.cons.injEq, and_true, true_and]; omega
      have c1 : [bLo 0 + 1, j] = [pi0 - 2 * 0 + 1, j] := by simp only [List.cons.injEq, and_true, true_and]; omega
      have c2 : [bLo 0 + 2, j] = [pi0 - 2 * 0 + 1 + 1, j] := by simp only [List.cons.injEq, and_true, true_and]; omega
      rw [c1] at e1
      rw [c2] at e2
      rw [c0] at E
      refine ⟨p, M, by rw [F.shift2_0]; exact e1, fun h1 h2 => ?_, fun e h0 h1 => ?_⟩
      · rw [show (2 * 0 + 2 - 0 : Int) = 2 by decide, F.shift2_2]
        exact e2 h1 h2
      · rw [show (2 * 0 + 1 + 0 : Int) = 1 by decide]
        have he : e = 0 ∨ e = 1 ∨ e = 2 ∨ e = 3 ∨ e = 4 := by omega
        rcases he with rfl | rfl | rfl | rfl | rfl
        · rw [if_neg (by decide), F.shift2_0]
          refine H.rd ?_ ?_
          · simp only [F.cell2d, F.InBounds, and_true]
            omega
          · rintro ⟨i', j', hcc, hP⟩
            simp only [List.cons.injEq, and_true] at hcc
            omega
        · rw [if_pos rfl, F.shift2_1]
          exact E.rd
        · rw [if_neg (by decide), F.shift2_2]
          refine H.rd ?_ ?_
          · simp only [F.cell2d, F.InBounds, and_true]
            omega
          · rintro ⟨i', j', hcc, hP⟩
            simp only [List.cons.injEq, and_true] at hcc
            omega
        · rw [if_neg (by decide), F.shift2_3]
          refine H.rd ?_ ?_
          · simp only [F.cell2d, F.InBounds, and_true]
            omega
          · rintro ⟨i', j', hcc, hP⟩
            simp only [List.cons.injEq, and_true] at hcc
            omega
        · rw [if_neg (by decide), F.shift2_4]
          refine H.rd ?_ ?_
          · simp only [F.cell2d, F.InBounds, and_true]
            omega
          · rintro ⟨i', j', hcc, hP⟩
            simp only [List.cons.injEq, and_true] at hcc
            omega
    · have hx := hx0 rfl
      have ht := ht0 rfl
      clear hx0 ht0 hx1 ht1
      clear hq
      have hc : F.layer2 pi0 pj0 pi1 pj1 0 1 [pi0 - 2 * 1 + 1, j] := ⟨pi0 - 2 * 1 + 1, j, rfl, by omega⟩
      obtain ⟨p, M, e1, e2, e3⟩ := fit_poly (zero := false) (x1 := F.rd m (F.cell2d u_ i0 j0 i1 j1 g) [bHi 0 - 1, j]) (x2 := F.rd m (F.cell2d u_ i0 j0 i1 j1 g) [bHi 0 - 2, j]) (b := 1) (btype := btype) (exOrder := exOrder) (h := dx ((0 : Int).toNat)) hh hq4 (fun e => by rw [mul_one]; exact hb e)
      have E := G.2.1 (by omega) j (by omega) (by omega) _ e3
      clear G hq4
      have c0 : [bHi 0 - 0, j] = [pi0 - 2 * 1 + 1 + 1, j] := by simp only [List.cons.injEq, and_true, true_and]; omega
      have c1 : [bHi 0 - 1, j] = [pi0 - 2 * 1 + 1, j] := by simp only [List.cons.injEq, and_true, true_and]; omega
      have c2 : [bHi 0 - 2, j] = [pi0 - 2 * 1 + 1 - 1, j] := by simp only [List.cons.injEq, and_true, true_and]; omega
      rw [c1] at e1
      rw [c2] at e2
      rw [c0] at E
      refine ⟨p, M, by rw [F.shift2_0]; exact e1, fun h1 h2 => ?_, fun e h0 h1 => ?_⟩
      · rw [show (2 * 0 + 2 - 1 : Int) = 1 by decide, F.shift2_1]
        exact e2 h1 h2
      · rw [show (2 * 0 + 1 + 1 : Int) = 2 by decide]
        have he : e = 0 ∨ e = 1 ∨ e = 2 ∨ e = 3 ∨ e = 4 := by omega
        rcases he with rfl | rfl | rfl | rfl | rfl
        · rw [if_neg (by decide), F.shift2_0]
          refine H.rd ?_ ?_
          · simp only [F.cell2d, F.InBounds, and_true]
            omega
          · rintro ⟨i', j', hcc, hP⟩
            simp only [List.cons.injEq, and_true] at hcc
            omega
        · rw [if_neg (by decide), F.shift2_1]
          refine H.rd ?_ ?_
          · simp only [F.cell2d, F.InBounds, and_true]
            omega
          · rintro ⟨i', j', hcc, hP⟩
            simp only [List.cons.injEq, and_true] at hcc
            omega
        · rw [if_pos rfl, F.shift2_2]
          exact E.rd
        · rw [if_neg (by decide), F.shift2_3]
          refine H.rd ?_ ?_
          · simp only [F.cell2d, F.InBounds, and_true]
            omega
          · rintro ⟨i', j', hcc, hP⟩
            simp only [List.cons.injEq, and_true] at hcc
            omega
        · rw [if_neg (by decide), F.shift2_4]
          refine H.rd ?_ ?_
          · simp only [F.cell2d, F.InBounds, and_true]
            omega
          · rintro ⟨i', j', hcc, hP⟩
            simp only [List.cons.injEq, and_true] at hcc
            omega
  · rcases hside with rfl | rfl
    · have hx := hx1 rfl
      have ht := ht1 rfl
      have hne : btype ≠ 4 := by clear hx0 hx1 ht0 ht1; omega
      clear hx0 ht0 hx1 ht1
      clear hq
      have hc : F.layer2 pi0 pj0 pi1 pj1 1 0 [i, pj0 - 2 * 0 + 1] := ⟨i, pj0 - 2 * 0 + 1, rfl, by omega⟩
      obtain ⟨p, M, e1, e2, e3⟩ := fit_poly (zero := false) (x1 := F.rd m (F.cell2d u_ i0 j0 i1 j1 g) [i, bLo 1 + 1]) (x2 := F.rd m (F.cell2d u_ i0 j0 i1 j1 g) [i, bLo 1 + 2]) (b := 1) (btype := btype) (exOrder := exOrder) (h := dx ((1 : Int).toNat)) hh hq4 (fun e => by rw [mul_one]; exact hb e)
      have E := G.2.2.1 (by omega) hne i (by omega) (by omega) _ e3
      clear G hq4
      have c0 : [i, bLo 1 + 0] = [i, pj0 - 2 * 0 + 1 - 1] := by simp only [List.cons.injEq, and_true, true_and]; omega
      have c1 : [i, bLo 1 + 1] = [i, pj0 - 2 * 0 + 1] := by simp only [List.cons.injEq, and_true, true_and]; omega
      have c2 : [i, bLo 1 + 2] = [i, pj0 - 2 * 0 + 1 + 1] := by simp only [List.cons.injEq, and_true, true_and]; omega
      rw [c1] at e1
      rw [c2] at e2
      rw [c0] at E
      refine ⟨p, M, by rw [F.shift2_0]; exact e1, fun h1 h2 => ?_, fun e h0 h1 => ?_⟩
      · rw [show (2 * 1 + 2 - 0 : Int) = 4 by decide, F.shift2_4]
        exact e2 h1 h2
      · rw [show (2 * 1 + 1 + 0 : Int) = 3 by decide]
        have he : e = 0 ∨ e = 1 ∨ e = 2 ∨ e = 3 ∨ e = 4 := by omega
        rcases he with rfl | rfl | rfl | rfl | rfl
        · rw [if_neg (by decide), F.shift2_0]
          refine H.rd ?_ ?_
          · simp only [F.cell2d, F.InBounds, and_true]
            omega
          · rintro ⟨i', j', hcc, hP⟩
            simp only [List.cons.injEq, and_true] at hcc
            omega
        · rw [if_neg (by decide), F.shift2_1]
          refine H.rd ?_ ?_
          · simp only [F.cell2d, F.InBounds, and_true]
            omega
          · rintro ⟨i', j', hcc, hP⟩
            simp only [List.cons.injEq, and_true] at hcc
            omega
        · rw [if_neg (by decide), F.shift2_2]
          refine H.rd ?_ ?_
          · simp only [F.cell2d, F.InBounds, and_true]
            omega
          · rintro ⟨i', j', hcc, hP⟩
            simp only [List.cons.injEq, and_true] at hcc
            omega
        · rw [if_pos rfl, F.shift2_3]
          exact E.rd
        · rw [if_neg (by decide), F.shift2_4]
          refine H.rd ?_ ?_
          · simp only [F.cell2d, F.InBounds, and_true]
            omega
          · rintro ⟨i', j', hcc, hP⟩
            simp only [List.cons.injEq, and_true] at hcc
            omega
    · have hx := hx1 rfl
      have ht := ht1 rfl
      have hne : btype ≠ 4 := by clear hx0 hx1 ht0 ht1; omega
      clear hx0 ht0 hx1 ht1
      clear hq
      have hc : F.layer2 pi0 pj0 pi1 pj1 1 1 [i, pj0 - 2 * 1 + 1] := ⟨i, pj0 - 2 * 1 + 1, rfl, by omega⟩
      obtain ⟨p, M, e1, e2, e3⟩ := fit_poly (zero := false) (x1 := F.rd m (F.cell2d u_ i0 j0 i1 j1 g) [i, bHi 1 - 1]) (x2 := F.rd m (F.cell2d u_ i0 j0 i1 j1 g) [i, bHi 1 - 2]) (b := 1) (btype := btype) (exOrder := exOrder) (h := dx ((1 : Int).toNat)) hh hq4 (fun e => by rw [mul_one]; exact hb e)
      have E := G.2.2.2 (by omega) hne i (by omega) (by omega) _ e3
      clear G hq4
      have c0 : [i, bHi 1 - 0] = [i, pj0 - 2 * 1 + 1 + 1] := by simp only [List.cons.injEq, and_true, true_and]; omega
      have c1 : [i, bHi 1 - 1] = [i, pj0 - 2 * 1 + 1] := by simp only [List.cons.injEq, and_true, true_and]; omega
      have c2 : [i, bHi 1 - 2] = [i, pj0 - 2 * 1 + 1 - 1] := by simp only [List.cons.injEq, and_true, true_and]; omega
      rw [c1] at e1
      rw [c2] at e2
      rw [c0] at E
      refine ⟨p, M, by rw [F.shift2_0]; exact e1, fun h1 h2 => ?_, fun e h0 h1 => ?_⟩
      · rw [show (2 * 1 + 2 - 1 : Int) = 3 by decide, F.shift2_3]
        exact e2 h1 h2
      · rw [show (2 * 1 + 1 + 1 : Int) = 4 by decide]
        have he : e = 0 ∨ e = 1 ∨ e = 2 ∨ e = 3 ∨ e = 4 := by omega
        rcases he with rfl | rfl | rfl | rfl | rfl
        · rw [if_neg (by decide), F.shift2_0]
          refine H.rd ?_ ?_
          · simp only [F.cell2d, F.InBounds, and_true]
            omega
          · rintro ⟨i', j', hcc, hP⟩
            simp only [List.cons.injEq, and_true] at hcc
            omega
        · rw [if_neg (by decide), F.shift2_1]
          refine H.rd ?_ ?_
          · simp only [F.cell2d, F.InBounds, and_true]
            omega
          · rintro ⟨i', j', hcc, hP⟩
            simp only [List.cons.injEq, and_true] at hcc
            omega
        · rw [if_neg (by decide), F.shift2_2]
          refine H.rd ?_ ?_
          · simp only [F.cell2d, F.InBounds, and_true]
            omega
          · rintro ⟨i', j', hcc, hP⟩
            simp only [List.cons.injEq, and_true] at hcc
            omega
        · rw [if_neg (by decide), F.shift2_3]
          refine H.rd ?_ ?_
          · simp only [F.cell2d, F.InBounds, and_true]
            omega
          · rintro ⟨i', j', hcc, hP⟩
            simp only [List.cons.injEq, and_true] at hcc
            omega
        · rw [if_pos rfl, F.shift2_4]
          exact E.rd


set_option maxHeartbeats 3000000 in
theorem fill3 [CharZero T] {i0 j0 k0 i1 j1 k1 pi0 pj0 pk0 pi1 pj1 pk1 dir side btype exOrder g : Int} {dx : Nat → T} {b0_ b1_ b2_ u_ : Ptr} {bLo bHi : Nat → Int} {β : Nat → Backend} {m : Mem T} {B0 B1 B2 : List Int → T} 
    (hβ : ∀ n, ValidBackend (β n)) (hi : i0 ≤ i1) (hj : j0 ≤ j1) (hk : k0 ≤ k1) (hg : 1 ≤ g) (hl : Layer3 i0 j0 k0 i1 j1 k1 0 pi0 pj0 pk0 pi1 pj1 pk1 dir side) (hseg : bLo 0 = pi0 ∧ bHi 0 = pi1 ∧ bLo 1 = pj0 ∧ bHi 1 = pj1 ∧ bLo 2 = pk0 ∧ bHi 2 = pk1) (hthin : (dir = 0 → pi1 = pi0) ∧ (dir = 1 → pj1 = pj0) ∧ (dir = 2 → pk1 = pk0))
    (hq : (btype = 0 ∧ exOrder = 1) ∨ (btype = 0 ∧ exOrder = 2) ∨ btype = 1 ∨ (btype = 4 ∧ exOrder = 1)) (hh : dx dir.toNat ≠ 0) (h : F.Args m [(F.face3d0 b0_ i0 j0 k0 i1 j1 k1 0), (F.face3d1 b1_ i0 j0 k0 i1 j1 k1 0), (F.face3d2 b2_ i0 j0 k0 i1 j1 k1 0)] [(F.cell3d u_ i0 j0 k0 i1 j1 k1 g)])
    (hB0 : F.Holds m (F.face3d0 b0_ i0 j0 k0 i1 j1 k1 0) B0) (hB1 : F.Holds m (F.face3d1 b1_ i0 j0 k0 i1 j1 k1 0) B1) (hB2 : F.Holds m (F.face3d2 b2_ i0 j0 k0 i1 j1 k1 0) B2) (hb : btype = 4 → ∀ c, F.layer3 pi0 pj0 pk0 pi1 pj1 pk1 dir side c → 4 * F.onFace3 B0 B1 B2 dir side c + dx dir.toNat ≠ 0) :
    ∃ m1, Cuda.setBc3d i0 i1 j0 j1 k0 k1 dx 0 b0_ b1_ b2_ g u_ bLo bHi exOrder (2 * dir + side) 1 btype 2 1 β m = .ok m1 ∧ F.Changes (F.cell3d u_ i0 j0 k0 i1 j1 k1 g) (F.onSeg3 bLo bHi 1 (2 * dir + side)) m m1 ∧
      ∀ c, F.layer3 pi0 pj0 pk0 pi1 pj1 pk1 dir side c → ∃ p : T[X], F.Meets btype exOrder (F.onFace3 B0 B1 B2 dir side c) 0 p ∧ F.rd m (F.cell3d u_ i0 j0 k0 i1 j1 k1 g) (F.shift c (F.row F.points3 0)) = p.eval (1 / 2 * dx dir.toNat) ∧
        (btype ≠ 1 → exOrder = 2 → F.rd m (F.cell3d u_ i0 j0 k0 i1 j1 k1 g) (F.shift c (F.row F.points3 (2 * dir + 2 - side))) = p.eval (3 / 2 * dx dir.toNat)) ∧
        ∀ e, 0 ≤ e → e ≤ 6 → F.rd m1 (F.cell3d u_ i0 j0 k0 i1 j1 k1 g) (F.shift c (F.row F.points3 e)) =
          if e = (2 * dir + 1 + side) then p.eval (-(1 / 2) * dx dir.toNat) else F.rd m (F.cell3d u_ i0 j0 k0 i1 j1 k1 g) (F.shift c (F.row F.points3 e)) := by
  obtain ⟨hl0, hh0, hl1, hh1, hl2, hh2⟩ := hseg
  have hside := hl.hside
  have hdir := hl.hdir
  obtain ⟨ht0, ht1, ht2⟩ := hthin
  have hIi := hl.intI
  have hIj := hl.intJ
  have hIk := hl.intK
  have hx0 := hl.x
  have hx1 := hl.y
  have hx2 := hl.z
  have hs : ∀ q < 3, InInt (bLo q + 1) ∧ InInt (bHi q + 1) := by
    intro q hq'
    unfold InInt at *
    have hq3 : q = 0 ∨ q = 1 ∨ q = 2 := by omega
    rcases hq3 with rfl | rfl | rfl
    · omega
    · omega
    · omega
  have hf0 : (2 * dir + side) = 0 → Reach i0 i1 g (bLo 0) 2 ∧ OnFaces i0 i1 0 (bLo 0 + 1) ∧ Spec.Part j0 j1 (bLo 1) (bHi 1) ∧ Spec.Part k0 k1 (bLo 2) (bHi 2) := by
    intro hfe
    unfold Reach OnFaces Spec.Part
    have hd : dir = 0 := by clear hq hx0 ht0 hx1 ht1 hx2 ht2; omega
    have a1 := hx0 hd
    have a2 := ht0 hd
    clear hq hx0 ht0 hx1 ht1 hx2 ht2
    omega
  have hm0 : (2 * dir + side) = 0 → Reach i0 i1 g (bLo 0) 2 ∧ OnFaces i0 i1 0 (bLo 0 + 1) ∧ Meets j0 j1 (bLo 1) (bHi 1) ∧ Meets k0 k1 (bLo 2) (bHi 2) := by
    intro hfe
    have := hf0 hfe
    unfold Spec.Part Reach OnFaces at this
    unfold Meets Reach OnFaces
    clear hq hx0 ht0 hx1 ht1 hx2 ht2
    omega
  have hf1 : (2 * dir + side) = 1 → Reach i0 i1 g (bHi 0) (-2) ∧ OnFaces i0 i1 0 (bHi 0) ∧ Spec.Part j0 j1 (bLo 1) (bHi 1) ∧ Spec.Part k0 k1 (bLo 2) (bHi 2) := by
    intro hfe
    unfold Reach OnFaces Spec.Part
    have hd : dir = 0 := by clear hq hx0 ht0 hx1 ht1 hx2 ht2; omega
    have a1 := hx0 hd
    have a2 := ht0 hd
    clear hq hx0 ht0 hx1 ht1 hx2 ht2
    omega
  have hm1 : (2 * dir + side) = 1 → Reach i0 i1 g (bHi 0) (-2) ∧ OnFaces i0 i1 0 (bHi 0) ∧ Meets j0 j1 (bLo 1) (bHi 1) ∧ Meets k0 k1 (bLo 2) (bHi 2) := by
    intro hfe
    have := hf1 hfe
    unfold Spec.Part Reach OnFaces at this
    unfold Meets Reach OnFaces
    clear hq hx0 ht0 hx1 ht1 hx2 ht2
    omega
  have hf2 : (2 * dir + side) = 2 → Reach j0 j1 g (bLo 1) 2 ∧ OnFaces j0 j1 0 (bLo 1 + 1) ∧ Spec.Part i0 i1 (bLo 0) (bHi 0) ∧ Spec.Part k0 k1 (bLo 2) (bHi 2) := by
    intro hfe
    unfold Reach OnFaces Spec.Part
    have hd : dir = 1 := by clear hq hx0 ht0 hx1 ht1 hx2 ht2; omega
    have a1 := hx1 hd
    have a2 := ht1 hd
    clear hq hx0 ht0 hx1 ht1 hx2 ht2
    omega
  have hm2 : (2 * dir + side) = 2 → Reach j0 j1 g (bLo 1) 2 ∧ OnFaces j0 j1 0 (bLo 1 + 1) ∧ Meets i0 i1 (bLo 0) (bHi 0) ∧ Meets k0 k1 (bLo 2) (bHi 2) := by
    intro hfe
    have := hf2 hfe
    unfold Spec.Part Reach OnFaces at this
    unfold Meets Reach OnFaces
    clear hq hx0 ht0 hx1 ht1 hx2 ht2
    omega
  have hf3 : (2 * dir + side) = 3 → Reach j0 j1 g (bHi 1) (-2) ∧ OnFaces j0 j1 0 (bHi 1) ∧ Spec.Part i0 i1 (bLo 0) (bHi 0) ∧ Spec.Part k0 k1 (bLo 2) (bHi 2) := by
    intro hfe
    unfold Reach OnFaces Spec.Part
    have hd : dir = 1 := by clear hq hx0 ht0 hx1 ht1 hx2 ht2; omega
    have a1 := hx1 hd
    have a2 := ht1 hd
    clear hq hx0 ht0 hx1 ht1 hx2 ht2
    omega
  have hm3 : (2 * dir + side) = 3 → Reach j0 j1 g (bHi 1) (-2) ∧ OnFaces j0 j1 0 (bHi 1) ∧ Meets i0 i1 (bLo 0) (bHi 0) ∧ Meets k0 k1 (bLo 2) (bHi 2) := by
    intro hfe
    have := hf3 hfe
    unfold Spec.Part Reach OnFaces at this
    unfold Meets Reach OnFaces
    clear hq hx0 ht0 hx1 ht1 hx2 ht2
    omega
  have hf4 : (2 * dir + side) = 4 → Reach k0 k1 g (bLo 2) 2 ∧ OnFaces k0 k1 0 (bLo 2 + 1) ∧ Spec.Part i0 i1 (bLo 0) (bHi 0) ∧ Spec.Part j0 j1 (bLo 1) (bHi 1) := by
    intro hfe
    unfold Reach OnFaces Spec.Part
    have hd : dir = 2 := by clear hq hx0 ht0 hx1 ht1 hx2 ht2; omega
    have a1 := hx2 hd
    have a2 := ht2 hd
    clear hq hx0 ht0 hx1 ht1 hx2 ht2
    omega
  have hm4 : (2 * dir + side) = 4 → Reach k0 k1 g (bLo 2) 2 ∧ OnFaces k0 k1 0 (bLo 2 + 1) ∧ Meets i0 i1 (bLo 0) (bHi 0) ∧ Meets j0 j1 (bLo 1) (bHi 1) := by
    intro hfe
    have := hf4 hfe
    unfold Spec.Part Reach OnFaces at this
    unfold Meets Reach OnFaces
    clear hq hx0 ht0 hx1 ht1 hx2 ht2
    omega
  have hf5 : (2 * dir + side) = 5 → Reach k0 k1 g (bHi 2) (-2) ∧ OnFaces k0 k1 0 (bHi 2) ∧ Spec.Part i0 i1 (bLo 0) (bHi 0) ∧ Spec.Part j0 j1 (bLo 1) (bHi 1) := by
    intro hfe
    unfold Reach OnFaces Spec.Part
    have hd : dir = 2 := by clear hq hx0 ht0 hx1 ht1 hx2 ht2; omega
    have a1 := hx2 hd
    have a2 := ht2 hd
    clear hq hx0 ht0 hx1 ht1 hx2 ht2
    omega
  have hm5 : (2 * dir + side) = 5 → Reach k0 k1 g (bHi 2) (-2) ∧ OnFaces k0 k1 0 (bHi 2) ∧ Meets i0 i1 (bLo 0) (bHi 0) ∧ Meets j0 j1 (bLo 1) (bHi 1) := by
    intro hfe
    have := hf5 hfe
    unfold Spec.Part Reach OnFaces at this
    unfold Meets Reach OnFaces
    clear hq hx0 ht0 hx1 ht1 hx2 ht2
    omega
  obtain ⟨m1, r1, H⟩ := C76_3d (dx := dx) (exOrder := exOrder) (btype := btype) (face := (2 * dir + side)) (alpha := 2) (beta := 1) (type := 1) hβ hi hj hk (by omega) (by omega) hs (fun _ e => hm0 e) (fun _ e => hm1 e) (fun _ e => hm2 e) (fun _ e => hm3 e) (fun _ e => hm4 e) (fun _ e => hm5 e) (fun e => absurd e (by decide)) (fun e => absurd e (by decide)) (fun e => absurd e (by decide)) (fun e => absurd e (by decide)) h
  obtain ⟨m2, r2, G⟩ := ghosts_3d (dx := dx) (exOrder := exOrder) (btype := btype) (face := (2 * dir + side)) (alpha := 2) (beta := 1) hβ hi hj hk (by omega) (by omega) hs hm0 hm1 hm2 hm3 hm4 hm5 h
  obtain rfl : m1 = m2 := by rw [r1] at r2; injection r2
  clear hf0 hm0 hf1 hm1 hf2 hm2 hf3 hm3 hf4 hm4 hf5 hm5
  have hq4 : (btype = 0 ∧ exOrder = 1) ∨ (btype = 0 ∧ exOrder = 2) ∨ btype = 1 ∨ (btype = 4 ∧ exOrder = 1) := by
    clear hx0 ht0 hx1 ht1 hx2 ht2
    omega
  refine ⟨m1, r1, H, fun c hc => ?_⟩
  obtain ⟨i, j, k, rfl, hc⟩ := hc
  rcases hc with ⟨rfl, rfl, r0, r1, r2, r3⟩ | ⟨rfl, rfl, r0, r1, r2, r3⟩ | ⟨rfl, rfl, r0, r1, r2, r3⟩
  · rcases hside with rfl | rfl
    · have hx := hx0 rfl
      have ht := ht0 rfl
      clear hx0 ht0 hx1 ht1 hx2 ht2
      clear hq
      have hc : F.layer3 pi0 pj0 pk0 pi1 pj1 pk1 0 0 [pi0 - 2 * 0 + 1, j, k] := ⟨pi0 - 2 * 0 + 1, j, k, rfl, by omega⟩
      obtain ⟨p, M, e1, e2, e3⟩ := fit_poly (zero := false) (x1 := F.rd m (F.cell3d u_ i0 j0 k0 i1 j1 k1 g) [bLo 0 + 1, j, k]) (x2 := F.rd m (F.cell3d u_ i0 j0 k0 i1 j1 k1 g) [bLo 0 + 2, j, k]) (b := F.onFace3 B0 B1 B2 0 0 [pi0 - 2 * 0 + 1, j, k]) (btype := btype) (exOrder := exOrder) (h := dx ((0 : Int).toNat)) hh hq4 (fun e => hb e _ hc)
      have eb : F.rd m (F.face3d0 b0_ i0 j0 k0 i1 j1 k1 0) [bLo 0 + 1, j, k] = F.onFace3 B0 B1 B2 0 0 [pi0 - 2 * 0 + 1, j, k] := by
        refine (F.El.rd (hB0 _ ?_)).trans ?_
        · simp only [F.face3d0, F.InBounds, and_true]
          omega
        · simp only [F.onFace3, hl0, hh0, reduceIte, Int.reduceEq]
          congr 2
          omega
      have E := G.1 (by omega) j (by omega) (by omega) k (by omega) (by omega) _ (by rw [eb]; exact e3)
      clear G hq4
      have c0 : [bLo 0 + 0, j, k] = [pi0 - 2 * 0 + 1 - 1, j, k] := by simp only [List.cons.injEq, and_true, true_and]; omega
      have c1 : [bLo 0 + 1, j, k] = [pi0 - 2 * 0 + 1, j, k] := by simp only [List.cons.injEq, and_true, true_and]; omega
      have c2 : [bLo 0 + 2, j, k] = [pi0 - 2 * 0 + 1 + 1, j, k] := by simp only [List.cons.injEq, and_true, true_and]; omega
      rw [c1] at e1
      rw [c2] at e2
      rw [c0] at E
      refine ⟨p, M, by rw [F.shift3_0]; exact e1, fun h1 h2 => ?_, fun e h0 h1 => ?_⟩
      · rw [show (2 * 0 + 2 - 0 : Int) = 2 by decide, F.shift3_2]
        exact e2 h1 h2
      · rw [show (2 * 0 + 1 + 0 : Int) = 1 by decide]
        have he : e = 0 ∨ e = 1 ∨ e = 2 ∨ e = 3 ∨ e = 4 ∨ e = 5 ∨ e = 6 := by omega
        rcases he with rfl | rfl | rfl | rfl | rfl | rfl | rfl
        · rw [if_neg (by decide), F.shift3_0]
          refine H.rd ?_ ?_
          · simp only [F.cell3d, F.InBounds, and_true]
            omega
          · rintro ⟨i', j', k', hcc, hP⟩
            simp only [List.cons.injEq, and_true] at hcc
            omega
        · rw [if_pos rfl, F.shift3_1]
          exact E.rd
        · rw [if_neg (by decide), F.shift3_2]
          refine H.rd ?_ ?_
          · simp only [F.cell3d, F.InBounds, and_true]
            omega
          · rintro ⟨i', j', k', hcc, hP⟩
            simp only [List.cons.injEq, and_true] at hcc
            omega
        · rw [if_neg (by decide), F.shift3_3]
          refine H.rd ?_ ?_
          · simp only [F.cell3d, F.InBounds, and_true]
            omega
          · rintro ⟨i', j', k', hcc, hP⟩
            simp only [List.cons.injEq, and_true] at hcc
            omega
        · rw [if_neg (by decide), F.shift3_4]
          refine H.rd ?_ ?_
          · simp only [F.cell3d, F.InBounds, and_true]
            omega
          · rintro ⟨i', j', k', hcc, hP⟩
            simp only [List.cons.injEq, and_true] at hcc
            omega
        · rw [if_neg (by decide), F.shift3_5]
          refine H.rd ?_ ?_
          · simp only [F.cell3d, F.InBounds, and_true]
            omega
          · rintro ⟨i', j', k', hcc, hP⟩
            simp only [List.cons.injEq, and_true] at hcc
            omega
        · rw [if_neg (by decide), F.shift3_6]
          refine H.rd ?_ ?_
          · simp only [F.cell3d, F.InBounds, and_true]
            omega
          · rintro ⟨i', j', k', hcc, hP⟩
            simp only [List.cons.injEq, and_true] at hcc
            omega
    · have hx := hx0 rfl
      have ht := ht0 rfl
      clear hx0 ht0 hx1 ht1 hx2 ht2
      clear hq
      have hc : F.layer3 pi0 pj0 pk0 pi1 pj1 pk1 0 1 [pi0 - 2 * 1 + 1, j, k] := ⟨pi0 - 2 * 1 + 1, j, k, rfl, by omega⟩
      obtain ⟨p, M, e1, e2, e3⟩ := fit_poly (zero := false) (x1 := F.rd m (F.cell3d u_ i0 j0 k0 i1 j1 k1 g) [bHi 0 - 1, j, k]) (x2 := F.rd m (F.cell3d u_ i0 j0 k0 i1 j1 k1 g) [bHi 0 - 2, j, k]) (b := F.onFace3 B0 B1 B2 0 1 [pi0 - 2 * 1 + 1, j, k]) (btype := btype) (exOrder := exOrder) (h := dx ((0 : Int).toNat)) hh hq4 (fun e => hb e _ hc)
      have eb : F.rd m (F.face3d0 b0_ i0 j0 k0 i1 j1 k1 0) [bHi 0, j, k] = F.onFace3 B0 B1 B2 0 1 [pi0 - 2 * 1 + 1, j, k] := by
        refine (F.El.rd (hB0 _ ?_)).trans ?_
        · simp only [F.face3d0, F.InBounds, and_true]
          omega
        · simp only [F.onFace3, hl0, hh0, reduceIte, Int.reduceEq]
          congr 2
          omega
      have E := G.2.1 (by omega) j (by omega) (by omega) k (by omega) (by omega) _ (by rw [eb]; exact e3)
      clear G hq4
      have c0 : [bHi 0 - 0, j, k] = [pi0 - 2 * 1 + 1 + 1, j, k] := by simp only [List.cons.injEq, and_true, true_and]; omega
      have c1 : [bHi 0 - 1, j, k] = [pi0 - 2 * 1 + 1, j, k] := by simp only [List.cons.injEq, and_true, true_and]; omega
      have c2 : [bHi 0 - 2, j, k] = [pi0 - 2 * 1 + 1 - 1, j, k] := by simp only [List.cons.injEq, and_true, true_and]; omega
      rw [c1] at e1
      rw [c2] at e2
      rw [c0] at E
      refine ⟨p, M, by rw [F.shift3_0]; exact e1, fun h1 h2 => ?_, fun e h0 h1 => ?_⟩
      · rw [show (2 * 0 + 2 - 1 : Int) = 1 by decide, F.shift3_1]
        exact e2 h1 h2
      · rw [show (2 * 0 + 1 + 1 : Int) = 2 by decide]
        have he : e = 0 ∨ e = 1 ∨ e = 2 ∨ e = 3 ∨ e = 4 ∨ e = 5 ∨ e = 6 := by omega
        rcases he with rfl | rfl | rfl | rfl | rfl | rfl | rfl
        · rw [if_neg (by decide), F.shift3_0]
          refine H.rd ?_ ?_
          · simp only [F.cell3d, F.InBounds, and_true]
            omega
          · rintro ⟨i', j', k', hcc, hP⟩
            simp only [List.cons.injEq, and_true] at hcc
            omega
        · rw [if_neg (by decide), F.shift3_1]
          refine H.rd ?_ ?_
          · simp only [F.cell3d, F.InBounds, and_true]
            omega
          · rintro ⟨i', j', k', hcc, hP⟩
            simp only [List.cons.injEq, and_true] at hcc
            omega
        · rw [if_pos rfl, F.shift3_2]
          exact E.rd
        · rw [if_neg (by decide), F.shift3_3]
          refine H.rd ?_ ?_
          · simp only [F.cell3d, F.InBounds, and_true]
            omega
          · rintro ⟨i', j', k', hcc, hP⟩
            simp only [List.cons.injEq, and_true] at hcc
            omega
        · rw [if_neg (by decide), F.shift3_4]
          refine H.rd ?_ ?_
          · simp only [F.cell3d, F.InBounds, and_true]
            omega
          · rintro ⟨i', j', k', hcc, hP⟩
            simp only [List.cons.injEq, and_true] at hcc
            omega
        · rw [if_neg (by decide), F.shift3_5]
          refine H.rd ?_ ?_
          · simp only [F.cell3d, F.InBounds, and_true]
            omega
          · rintro ⟨i', j', k', hcc, hP⟩
            simp only [List.cons.injEq, and_true] at hcc
            omega
        · rw [if_neg (by decide), F.shift3_6]
          refine H.rd ?_ ?_
          · simp only [F.cell3d, F.InBounds, and_true]
            omega
          · rintro ⟨i', j', k', hcc, hP⟩
            simp only [List.cons.injEq, and_true] at hcc
            omega
  · rcases hside with rfl | rfl
    · have hx := hx1 rfl
      have ht := ht1 rfl
      clear hx0 ht0 hx1 ht1 hx2 ht2
      clear hq
      have hc : F.layer3 pi0 pj0 pk0 pi1 pj1 pk1 1 0 [i, pj0 - 2 * 0 + 1, k] := ⟨i, pj0 - 2 * 0 + 1, k, rfl, by omega⟩
      obtain ⟨p, M, e1, e2, e3⟩ := fit_poly (zero := false) (x1 := F.rd m (F.cell3d u_ i0 j0 k0 i1 j1 k1 g) [i, bLo 1 + 1, k]) (x2 := F.rd m (F.cell3d u_ i0 j0 k0 i1 j1 k1 g) [i, bLo 1 + 2, k]) (b := F.onFace3 B0 B1 B2 1 0 [i, pj0 - 2 * 0 + 1, k]) (btype := btype) (exOrder := exOrder) (h := dx ((1 : Int).toNat)) hh hq4 (fun e => hb e _ hc)
      have eb : F.rd m (F.face3d1 b1_ i0 j0 k0 i1 j1 k1 0) [bLo 1 + 1, k, i] = F.onFace3 B0 B1 B2 1 0 [i, pj0 - 2 * 0 + 1, k] := by
        refine (F.El.rd (hB1 _ ?_)).trans ?_
        · simp only [F.face3d1, F.InBounds, and_true]
          omega
        · simp only [F.onFace3, hl1, hh1, reduceIte, Int.reduceEq]
          congr 2
          omega
      have E := G.2.2.1 (by omega) i (by omega) (by omega) k (by omega) (by omega) _ (by rw [eb]; exact e3)
      clear G hq4
      have c0 : [i, bLo 1 + 0, k] = [i, pj0 - 2 * 0 + 1 - 1, k] := by simp only [List.cons.injEq, and_true, true_and]; omega
      have c1 : [i, bLo 1 + 1, k] = [i, pj0 - 2 * 0 + 1, k] := by simp only [List.cons.injEq, and_true, true_and]; omega
      have c2 : [i, bLo 1 + 2, k] = [i, pj0 - 2 * 0 + 1 + 1, k] := by simp only [List.cons.injEq, and_true, true_and]; omega
      rw [c1] at e1
      rw [c2] at e2
      rw [c0] at E
      refine ⟨p, M, by rw [F.shift3_0]; exact e1, fun h1 h2 => ?_, fun e h0 h1 => ?_⟩
      · rw [show (2 * 1 + 2 - 0 : Int) = 4 by decide, F.shift3_4]
        exact e2 h1 h2
      · rw [show (2 * 1 + 1 + 0 : Int) = 3 by decide]
        have he : e = 0 ∨ e = 1 ∨ e = 2 ∨ e = 3 ∨ e = 4 ∨ e = 5 ∨ e = 6 := by omega
        rcases he with rfl | rfl | rfl | rfl | rfl | rfl | rfl
        · rw [if_neg (by decide), F.shift3_0]
          refine H.rd ?_ ?_
          · simp only [F.cell3d, F.InBounds, and_true]
            omega
          · rintro ⟨i', j', k', hcc, hP⟩
            simp only [List.cons.injEq, and_true] at hcc
            omega
        · rw [if_neg (by decide), F.shift3_1]
          refine H.rd ?_ ?_
          · simp only [F.cell3d, F.InBounds, and_true]
            omega
          · rintro ⟨i', j', k', hcc, hP⟩
            simp only [List.cons.injEq, and_true] at hcc
            omega
        · rw [if_neg (by decide), F.shift3_2]
          refine H.rd ?_ ?_
          · simp only [F.cell3d, F.InBounds, and_true]
            omega
          · rintro ⟨i', j', k', hcc, hP⟩
            simp only [List.cons.injEq, and_true] at hcc
            omega
        · rw [if_pos rfl, F.shift3_3]
          exact E.rd
        · rw [if_neg (by decide), F.shift3_4]
          refine H.rd ?_ ?_
          · simp only [F.cell3d, F.InBounds, and_true]
            omega
          · rintro ⟨i', j', k', hcc, hP⟩
            simp only [List.cons.injEq, and_true] at hcc
            omega
        · rw [if_neg (by decide), F.shift3_5]
          refine H.rd ?_ ?_
          · simp only [F.cell3d, F.InBounds, and_true]
            omega
          · rintro ⟨i', j', k', hcc, hP⟩
            simp only [List.cons.injEq, and_true] at hcc
            omega
        · rw [if_neg (by decide), F.shift3_6]
          refine H.rd ?_ ?_
          · simp only [F.cell3d, F.InBounds, and_true]
            omega
          · rintro ⟨i', j', k', hcc, hP⟩
            simp only [List.cons.injEq, and_true] at hcc
            omega
    · have hx := hx1 rfl
      have ht := ht1 rfl
      clear hx0 ht0 hx1 ht1 hx2 ht2
      clear hq
      have hc : F.layer3 pi0 pj0 pk0 pi1 pj1 pk1 1 1 [i, pj0 - 2 * 1 + 1, k] := ⟨i, pj0 - 2 * 1 + 1, k, rfl, by omega⟩
      obtain ⟨p, M, e1, e2, e3⟩ := fit_poly (zero := false) (x1 := F.rd m (F.cell3d u_ i0 j0 k0 i1 j1 k1 g) [i, bHi 1 - 1, k]) (x2 := F.rd m (F.cell3d u_ i0 j0 k0 i1 j1 k1 g) [i, bHi 1 - 2, k]) (b := F.onFace3 B0 B1 B2 1 1 [i, pj0 - 2 * 1 + 1, k]) (btype := btype) (exOrder := exOrder) (h := dx ((1 : Int).toNat)) hh hq4 (fun e => hb e _ hc)
      have eb : F.rd m (F.face3d1 b1_ i0 j0 k0 i1 j1 k1 0) [bHi 1, k, i] = F.onFace3 B0 B1 B2 1 1 [i, pj0 - 2 * 1 + 1, k] := by
        refine (F.El.rd (hB1 _ ?_)).trans ?_
        · simp only [F.face3d1, F.InBounds, and_true]
          omega
        · simp only [F.onFace3, hl1, hh1, reduceIte, Int.reduceEq]
          congr 2
          omega
      have E := G.2.2.2.1 (by omega) i (by omega) (by omega) k (by omega) (by omega) _ (by rw [eb]; exact e3)
      clear G hq4
      have c0 : [i, bHi 1 - 0, k] = [i, pj0 - 2 * 1 + 1 + 1, k] := by simp only [List.cons.injEq, and_true, true_and]; omega
      have c1 : [i, bHi 1 - 1, k] = [i, pj0 - 2 * 1 + 1, k] := by simp only [List.cons.injEq, and_true, true_and]; omega
      have c2 : [i, bHi 1 - 2, k] = [i, pj0 - 2 * 1 + 1 - 1, k] := by simp only [List.cons.injEq, and_true, true_and]; omega
      rw [c1] at e1
      rw [c2] at e2
      rw [c0] at E
      refine ⟨p, M, by rw [F.shift3_0]; exact e1, fun h1 h2 => ?_, fun e h0 h1 => ?_⟩
      · rw [show (2 * 1 + 2 - 1 : Int) = 3 by decide, F.shift3_3]
        exact e2 h1 h2
      · rw [show (2 * 1 + 1 + 1 : Int) = 4 by decide]
        have he : e = 0 ∨ e = 1 ∨ e = 2 ∨ e = 3 ∨ e = 4 ∨ e = 5 ∨ e = 6 := by omega
        rcases he with rfl | rfl | rfl | rfl | rfl | rfl | rfl
        · rw [if_neg (by decide), F.shift3_0]
          refine H.rd ?_ ?_
          · simp only [F.cell3d, F.InBounds, and_true]
            omega
          · rintro ⟨i', j', k', hcc, hP⟩
            simp only [List.cons.injEq, and_true] at hcc
            omega
        · rw [if_neg (by decide), F.shift3_1]
          refine H.rd ?_ ?_
          · simp only [F.cell3d, F.InBounds, and_true]
            omega
          · rintro ⟨i', j', k', hcc, hP⟩
            simp only [List.cons.injEq, and_true] at hcc
            omega
        · rw [if_neg (by decide), F.shift3_2]
          refine H.rd ?_ ?_
          · simp only [F.cell3d, F.InBounds, and_true]
            omega
          · rintro ⟨i', j', k', hcc, hP⟩
            simp only [List.cons.injEq, and_true] at hcc
            omega
        · rw [if_neg (by decide), F.shift3_3]
          refine H.rd ?_ ?_
          · simp only [F.cell3d, F.InBounds, and_true]
            omega
          · rintro ⟨i', j', k', hcc, hP⟩
            simp only [List.cons.injEq, and_true] at hcc
            omega
        · rw [if_pos rfl, F.shift3_4]
          exact E.rd
        · rw [if_neg (by decide), F.shift3_5]
          refine H.rd ?_ ?_
          · simp only [F.cell3d, F.InBounds, and_true]
            omega
          · rintro ⟨i', j', k', hcc, hP⟩
            simp only [List.cons.injEq, and_true] at hcc
            omega
        · rw [if_neg (by decide), F.shift3_6]
          refine H.rd ?_ ?_
          · simp only [F.cell3d, F.InBounds, and_true]
            omega
          · rintro ⟨i', j', k', hcc, hP⟩
            simp only [List.cons.injEq, and_true] at hcc
            omega
  · rcases hside with rfl | rfl
    · have hx := hx2 rfl
      have ht := ht2 rfl
      clear hx0 ht0 hx1 ht1 hx2 ht2
      clear hq
      have hc : F.layer3 pi0 pj0 pk0 pi1 pj1 pk1 2 0 [i, j, pk0 - 2 * 0 + 1] := ⟨i, j, pk0 - 2 * 0 + 1, rfl, by omega⟩
      obtain ⟨p, M, e1, e2, e3⟩ := fit_poly (zero := false) (x1 := F.rd m (F.cell3d u_ i0 j0 k0 i1 j1 k1 g) [i, j, bLo 2 + 1]) (x2 := F.rd m (F.cell3d u_ i0 j0 k0 i1 j1 k1 g) [i, j, bLo 2 + 2]) (b := F.onFace3 B0 B1 B2 2 0 [i, j, pk0 - 2 * 0 + 1]) (btype := btype) (exOrder := exOrder) (h := dx ((2 : Int).toNat)) hh hq4 (fun e => hb e _ hc)
      have eb : F.rd m (F.face3d2 b2_ i0 j0 k0 i1 j1 k1 0) [bLo 2 + 1, i, j] = F.onFace3 B0 B1 B2 2 0 [i, j, pk0 - 2 * 0 + 1] := by
        refine (F.El.rd (hB2 _ ?_)).trans ?_
        · simp only [F.face3d2, F.InBounds, and_true]
          omega
        · simp only [F.onFace3, hl2, hh2, reduceIte, Int.reduceEq]
          congr 2
          omega
      have E := G.2.2.2.2.1 (by omega) i (by omega) (by omega) j (by omega) (by omega) _ (by rw [eb]; exact e3)
      clear G hq4
      have c0 : [i, j, bLo 2 + 0] = [i, j, pk0 - 2 * 0 + 1 - 1] := by simp only [List.cons.injEq, and_true, true_and]; omega
      have c1 : [i, j, bLo 2 + 1] = [i, j, pk0 - 2 * 0 + 1] := by simp only [List.cons.injEq, and_true, true_and]; omega
      have c2 : [i, j, bLo 2 + 2] = [i, j, pk0 - 2 * 0 + 1 + 1] := by simp only [List.cons.injEq, and_true, true_and]; omega
      rw [c1] at e1
      rw [c2] at e2
      rw [c0] at E
      refine ⟨p, M, by rw [F.shift3_0]; exact e1, fun h1 h2 => ?_, fun e h0 h1 => ?_⟩
      · rw [show (2 * 2 + 2 - 0 : Int) = 6 by decide, F.shift3_6]
        exact e2 h1 h2
      · rw [show (2 * 2 + 1 + 0 : Int) = 5 by decide]
        have he : e = 0 ∨ e = 1 ∨ e = 2 ∨ e = 3 ∨ e = 4 ∨ e = 5 ∨ e = 6 := by omega
        rcases he with rfl | rfl | rfl | rfl | rfl | rfl | rfl
        · rw [if_neg (by decide), F.shift3_0]
          refine H.rd ?_ ?_
          · simp only [F.cell3d, F.InBounds, and_true]
            omega
          · rintro ⟨i', j', k', hcc, hP⟩
            simp only [List.cons.injEq, and_true] at hcc
            omega
        · rw [if_neg (by decide), F.shift3_1]
          refine H.rd ?_ ?_
          · simp only [F.cell3d, F.InBounds, and_true]
            omega
          · rintro ⟨i', j', k', hcc, hP⟩
            simp only [List.cons.injEq, and_true] at hcc
            omega
        · rw [if_neg (by decide), F.shift3_2]
          refine H.rd ?_ ?_
          · simp only [F.cell3d, F.InBounds, and_true]
            omega
          · rintro ⟨i', j', k', hcc, hP⟩
            simp only [List.cons.injEq, and_true] at hcc
            omega
        · rw [if_neg (by decide), F.shift3_3]
          refine H.rd ?_ ?_
          · simp only [F.cell3d, F.InBounds, and_true]
            omega
          · rintro ⟨i', j', k', hcc, hP⟩
            simp only [List.cons.injEq, and_true] at hcc
            omega
        · rw [if_neg (by decide), F.shift3_4]
          refine H.rd ?_ ?_
          · simp only [F.cell3d, F.InBounds, and_true]
            omega
          · rintro ⟨i', j', k', hcc, hP⟩
            simp only [List.cons.injEq, and_true] at hcc
            omega
        · rw [if_pos rfl, F.shift3_5]
          exact E.rd
        · rw [if_neg (by decide), F.shift3_6]
          refine H.rd ?_ ?_
          · simp only [F.cell3d, F.InBounds, and_true]
            omega
          · rintro ⟨i', j', k', hcc, hP⟩
            simp only [List.cons.injEq, and_true] at hcc
            omega
    · have hx := hx2 rfl
      have ht := ht2 rfl
      clear hx0 ht0 hx1 ht1 hx2 ht2
      clear hq
      have hc : F.layer3 pi0 pj0 pk0 pi1 pj1 pk1 2 1 [i, j, pk0 - 2 * 1 + 1] := ⟨i, j, pk0 - 2 * 1 + 1, rfl, by omega⟩
      obtain ⟨p, M, e1, e2, e3⟩ := fit_poly (zero := false) (x1 := F.rd m (F.cell3d u_ i0 j0 k0 i1 j1 k1 g) [i, j, bHi 2 - 1]) (x2 := F.rd m (F.cell3d u_ i0 j0 k0 i1 j1 k1 g) [i, j, bHi 2 - 2]) (b := F.onFace3 B0 B1 B2 2 1 [i, j, pk0 - 2 * 1 + 1]) (btype := btype) (exOrder := exOrder) (h := dx ((2 : Int).toNat)) hh hq4 (fun e => hb e _ hc)
      have eb : F.rd m (F.face3d2 b2_ i0 j0 k0 i1 j1 k1 0) [bHi 2, i, j] = F.onFace3 B0 B1 B2 2 1 [i, j, pk0 - 2 * 1 + 1] := by
        refine (F.El.rd (hB2 _ ?_)).trans ?_
        · simp only [F.face3d2, F.InBounds, and_true]
          omega
        · simp only [F.onFace3, hl2, hh2, reduceIte, Int.reduceEq]
          congr 2
          omega
      have E := G.2.2.2.2.2 (by omega) i (by omega) (by omega) j (by omega) (by omega) _ (by rw [eb]; exact e3)
      clear G hq4
      have c0 : [i, j, bHi 2 - 0] = [i, j, pk0 - 2 * 1 + 1 + 1] := by simp only [List.cons.injEq, and_true, true_and]; omega
      have c1 : [i, j, bHi 2 - 1] = [i, j, pk0 - 2 * 1 + 1] := by simp only [List.cons.injEq, and_true, true_and]; omega
      have c2 : [i, j, bHi 2 - 2] = [i, j, pk0 - 2 * 1 + 1 - 1] := by simp only [List.cons.injEq, and_true, true_and]; omega
      rw [c1] at e1
      rw [c2] at e2
      rw [c0] at E
      refine ⟨p, M, by rw [F.shift3_0]; exact e1, fun h1 h2 => ?_, fun e h0 h1 => ?_⟩
      · rw [show (2 * 2 + 2 - 1 : Int) = 5 by decide, F.shift3_5]
        exact e2 h1 h2
      · rw [show (2 * 2 + 1 + 1 : Int) = 6 by decide]
        have he : e = 0 ∨ e = 1 ∨ e = 2 ∨ e = 3 ∨ e = 4 ∨ e = 5 ∨ e = 6 := by omega
        rcases he with rfl | rfl | rfl | rfl | rfl | rfl | rfl
        · rw [if_neg (by decide), F.shift3_0]
          refine H.rd ?_ ?_
          · simp only [F.cell3d, F.InBounds, and_true]
            omega
          · rintro ⟨i', j', k', hcc, hP⟩
            simp only [List.cons.injEq, and_true] at hcc
            omega
        · rw [if_neg (by decide), F.shift3_1]
          refine H.rd ?_ ?_
          · simp only [F.cell3d, F.InBounds, and_true]
            omega
          · rintro ⟨i', j', k', hcc, hP⟩
            simp only [List.cons.injEq, and_true] at hcc
            omega
        · rw [if_neg (by decide), F.shift3_2]
          refine H.rd ?_ ?_
          · simp only [F.cell3d, F.InBounds, and_true]
            omega
          · rintro ⟨i', j', k', hcc, hP⟩
            simp only [List.cons.injEq, and_true] at hcc
            omega
        · rw [if_neg (by decide), F.shift3_3]
          refine H.rd ?_ ?_
          · simp only [F.cell3d, F.InBounds, and_true]
            omega
          · rintro ⟨i', j', k', hcc, hP⟩
            simp only [List.cons.injEq, and_true] at hcc
            omega
        · rw [if_neg (by decide), F.shift3_4]
          refine H.rd ?_ ?_
          · simp only [F.cell3d, F.InBounds, and_true]
            omega
          · rintro ⟨i', j', k', hcc, hP⟩
            simp only [List.cons.injEq, and_true] at hcc
            omega
        · rw [if_neg (by decide), F.shift3_5]
          refine H.rd ?_ ?_
          · simp only [F.cell3d, F.InBounds, and_true]
            omega
          · rintro ⟨i', j', k', hcc, hP⟩
            simp only [List.cons.injEq, and_true] at hcc
            omega
        · rw [if_pos rfl, F.shift3_6]
          exact E.rd


set_option maxHeartbeats 3000000 in
theorem pfill3 [CharZero T] {i0 j0 k0 i1 j1 k1 pi0 pj0 pk0 pi1 pj1 pk1 dir side btype exOrder g : Int} {dx : Nat → T} {u_ : Ptr} {bLo bHi : Nat → Int} {β : Nat → Backend} {m : Mem T} 
    (hβ : ∀ n, ValidBackend (β n)) (hi : i0 ≤ i1) (hj : j0 ≤ j1) (hk : k0 ≤ k1) (hg : 1 ≤ g) (hl : Layer3 i0 j0 k0 i1 j1 k1 0 pi0 pj0 pk0 pi1 pj1 pk1 dir side) (hseg : bLo 0 = pi0 ∧ bHi 0 = pi1 ∧ bLo 1 = pj0 ∧ bHi 1 = pj1 ∧ bLo 2 = pk0 ∧ bHi 2 = pk1) (hthin : (dir = 0 → pi1 = pi0) ∧ (dir = 1 → pj1 = pj0) ∧ (dir = 2 → pk1 = pk0))
    (hq : (btype = 0 ∧ exOrder = 1) ∨ (btype = 0 ∧ exOrder = 2) ∨ btype = 1 ∨ (btype = 4 ∧ exOrder = 1)) (hh : dx dir.toNat ≠ 0) (h : F.Args m [] [(F.cell3d u_ i0 j0 k0 i1 j1 k1 g)])
     (hb : btype = 4 → 4 + dx dir.toNat ≠ 0) :
    ∃ m1, Cuda.setPoissonBc3d i0 i1 j0 j1 k0 k1 dx g u_ bLo bHi exOrder (2 * dir + side) 1 btype 2 1 β m = .ok m1 ∧ F.Changes (F.cell3d u_ i0 j0 k0 i1 j1 k1 g) (F.onSeg3 bLo bHi 1 (2 * dir + side)) m m1 ∧
      ∀ c, F.layer3 pi0 pj0 pk0 pi1 pj1 pk1 dir side c → ∃ p : T[X], F.Meets btype exOrder 1 0 p ∧ F.rd m (F.cell3d u_ i0 j0 k0 i1 j1 k1 g) (F.shift c (F.row F.points3 0)) = p.eval (1 / 2 * dx dir.toNat) ∧
        (btype ≠ 1 → exOrder = 2 → F.rd m (F.cell3d u_ i0 j0 k0 i1 j1 k1 g) (F.shift c (F.row F.points3 (2 * dir + 2 - side))) = p.eval (3 / 2 * dx dir.toNat)) ∧
        ∀ e, 0 ≤ e → e ≤ 6 → F.rd m1 (F.cell3d u_ i0 j0 k0 i1 j1 k1 g) (F.shift c (F.row F.points3 e)) =
          if e = (2 * dir + 1 + side) then p.eval (-(1 / 2) * dx dir.toNat) else F.rd m (F.cell3d u_ i0 j0 k0 i1 j1 k1 g) (F.shift c (F.row F.points3 e)) := by
  obtain ⟨hl0, hh0, hl1, hh1, hl2, hh2⟩ := hseg
  have hside := hl.hside
  have hdir := hl.hdir
  obtain ⟨ht0, ht1, ht2⟩ := hthin
  have hIi := hl.intI
  have hIj := hl.intJ
  have hIk := hl.intK
  have hx0 := hl.x
  have hx1 := hl.y
  have hx2 := hl.z
  have hs : ∀ q < 3, InInt (bLo q + 1) ∧ InInt (bHi q + 1) := by
    intro q hq'
    unfold InInt at *
    have hq3 : q = 0 ∨ q = 1 ∨ q = 2 := by omega
    rcases hq3 with rfl | rfl | rfl
    · omega
    · omega
    · omega
  have hf0 : (2 * dir + side) = 0 → Reach i0 i1 g (bLo 0) 2 ∧ Spec.Part j0 j1 (bLo 1) (bHi 1) ∧ Spec.Part k0 k1 (bLo 2) (bHi 2) := by
    intro hfe
    unfold Reach Spec.Part
    have hd : dir = 0 := by clear hq hx0 ht0 hx1 ht1 hx2 ht2; omega
    have a1 := hx0 hd
    have a2 := ht0 hd
    clear hq hx0 ht0 hx1 ht1 hx2 ht2
    omega
  have hm0 : (2 * dir + side) = 0 → Reach i0 i1 g (bLo 0) 2 ∧ Meets j0 j1 (bLo 1) (bHi 1) ∧ Meets k0 k1 (bLo 2) (bHi 2) := by
    intro hfe
    have := hf0 hfe
    unfold Spec.Part Reach at this
    unfold Meets Reach
    clear hq hx0 ht0 hx1 ht1 hx2 ht2
    omega
  have hf1 : (2 * dir + side) = 1 → Reach i0 i1 g (bHi 0) (-2) ∧ Spec.Part j0 j1 (bLo 1) (bHi 1) ∧ Spec.Part k0 k1 (bLo 2) (bHi 2) := by
    intro hfe
    unfold Reach Spec.Part
    have hd : dir = 0 := by clear hq hx0 ht0 hx1 ht1 hx2 ht2; omega
    have a1 := hx0 hd
    have a2 := ht0 hd
    clear hq hx0 ht0 hx1 ht1 hx2 ht2
    omega
  have hm1 : (2 * dir + side) = 1 → Reach i0 i1 g (bHi 0) (-2) ∧ Meets j0 j1 (bLo 1) (bHi 1) ∧ Meets k0 k1 (bLo 2) (bHi 2) := by
    intro hfe
    have := hf1 hfe
    unfold Spec.Part Reach at this
    unfold Meets Reach
    clear hq hx0 ht0 hx1 ht1 hx2 ht2
    omega
  have hf2 : (2 * dir + side) = 2 → Reach j0 j1 g (bLo 1) 2 ∧ Spec.Part i0 i1 (bLo 0) (bHi 0) ∧ Spec.Part k0 k1 (bLo 2) (bHi 2) := by
    intro hfe
    unfold Reach Spec.Part
    have hd : dir = 1 := by clear hq hx0 ht0 hx1 ht1 hx2 ht2; omega
    have a1 := hx1 hd
    have a2 := ht1 hd
    clear hq hx0 ht0 hx1 ht1 hx2 ht2
    omega
  have hm2 : (2 * dir + side) = 2 → Reach j0 j1 g (bLo 1) 2 ∧ Meets i0 i1 (bLo 0) (bHi 0) ∧ Meets k0 k1 (bLo 2) (bHi 2) := by
    intro hfe
    have := hf2 hfe
    unfold Spec.Part Reach at this
    unfold Meets Reach
    clear hq hx0 ht0 hx1 ht1 hx2 ht2
    omega
  have hf3 : (2 * dir + side) = 3 → Reach j0 j1 g (bHi 1) (-2) ∧ Spec.Part i0 i1 (bLo 0) (bHi 0) ∧ Spec.Part k0 k1 (bLo 2) (bHi 2) := by
    intro hfe
    unfold Reach Spec.Part
    have hd : dir = 1 := by clear hq hx0 ht0 hx1 ht1 hx2 ht2; omega
    have a1 := hx1 hd
    have a2 := ht1 hd
    clear hq hx0 ht0 hx1 ht1 hx2 ht2
    omega
  have hm3 : (2 * dir + side) = 3 → Reach j0 j1 g (bHi 1) (-2) ∧ Meets i0 i1 (bLo 0) (bHi 0) ∧ Meets k0 k1 (bLo 2) (bHi 2) := by
    intro hfe
    have := hf3 hfe
    unfold Spec.Part Reach at this
    unfold Meets Reach
    clear hq hx0 ht0 hx1 ht1 hx2 ht2
    omega
  have hf4 : (2 * dir + side) = 4 → Reach k0 k1 g (bLo 2) 2 ∧ Spec.Part i0 i1 (bLo 0) (bHi 0) ∧ Spec.Part j0 j1 (bLo 1) (bHi 1) := by
    intro hfe
    unfold Reach Spec.Part
    have hd : dir = 2 := by clear hq hx0 ht0 hx1 ht1 hx2 ht2; omega
    have a1 := hx2 hd
    have a2 := ht2 hd
    clear hq hx0 ht0 hx1 ht1 hx2 ht2
    omega
  have hm4 : (2 * dir + side) = 4 → Reach k0 k1 g (bLo 2) 2 ∧ Meets i0 i1 (bLo 0) (bHi 0) ∧ Meets j0 j1 (bLo 1) (bHi 1) := by
    intro hfe
    have := hf4 hfe
    unfold Spec.Part Reach at this
    unfold Meets Reach
    clear hq hx0 ht0 hx1 ht1 hx2 ht2
    omega
  have hf5 : (2 * dir + side) = 5 → Reach k0 k1 g (bHi 2) (-2) ∧ Spec.Part i0 i1 (bLo 0) (bHi 0) ∧ Spec.Part j0 j1 (bLo 1) (bHi 1) := by
    intro hfe
    unfold Reach Spec.Part
    have hd : dir = 2 := by clear hq hx0 ht0 hx1 ht1 hx2 ht2; omega
    have a1 := hx2 hd
    have a2 := ht2 hd
    clear hq hx0 ht0 hx1 ht1 hx2 ht2
    omega
  have hm5 : (2 * dir + side) = 5 → Reach k0 k1 g (bHi 2) (-2) ∧ Meets i0 i1 (bLo 0) (bHi 0) ∧ Meets j0 j1 (bLo 1) (bHi 1) := by
    intro hfe
    have := hf5 hfe
    unfold Spec.Part Reach at this
    unfold Meets Reach
    clear hq hx0 ht0 hx1 ht1 hx2 ht2
    omega
  obtain ⟨m1, r1, H⟩ := C76_poisson_3d (dx := dx) (exOrder := exOrder) (btype := btype) (face := (2 * dir + side)) (alpha := 2) (beta := 1) (type := 1) hβ hi hj hk (by omega) hs (fun _ e => hf0 e) (fun _ e => hf1 e) (fun _ e => hf2 e) (fun _ e => hf3 e) (fun _ e => hf4 e) (fun _ e => hf5 e) (fun e => absurd e (by decide)) (fun e => absurd e (by decide)) (fun e => absurd e (by decide)) (fun e => absurd e (by decide)) h
  obtain ⟨m2, r2, G⟩ := ghosts_p3d (dx := dx) (exOrder := exOrder) (btype := btype) (face := (2 * dir + side)) (alpha := 2) (beta := 1) hβ hi hj hk (by omega) hs hm0 hm1 hm2 hm3 hm4 hm5 h
  obtain rfl : m1 = m2 := by rw [r1] at r2; injection r2
  clear hf0 hm0 hf1 hm1 hf2 hm2 hf3 hm3 hf4 hm4 hf5 hm5
  have hq4 : (btype = 0 ∧ exOrder = 1) ∨ (btype = 0 ∧ exOrder = 2) ∨ btype = 1 ∨ (btype = 4 ∧ exOrder = 1) := by
    clear hx0 ht0 hx1 ht1 hx2 ht2
    omega
  refine ⟨m1, r1, H, fun c hc => ?_⟩
  obtain ⟨i, j, k, rfl, hc⟩ := hc
  rcases hc with ⟨rfl, rfl, r0, r1, r2, r3⟩ | ⟨rfl, rfl, r0, r1, r2, r3⟩ | ⟨rfl, rfl, r0, r1, r2, r3⟩
  · rcases hside with rfl | rfl
    · have hx := hx0 rfl
      have ht := ht0 rfl
      clear hx0 ht0 hx1 ht1 hx2 ht2
      clear hq
      have hc : F.layer3 pi0 pj0 pk0 pi1 pj1 pk1 0 0 [pi0 - 2 * 0 + 1, j, k] := ⟨pi0 - 2 * 0 + 1, j, k, rfl, by omega⟩
      obtain ⟨p, M, e1, e2, e3⟩ := fit_poly (zero := false) (x1 := F.rd m (F.cell3d u_ i0 j0 k0 i1 j1 k1 g) [bLo 0 + 1, j, k]) (x2 := F.rd m (F.cell3d u_ i0 j0 k0 i1 j1 k1 g) [bLo 0 + 2, j, k]) (b := 1) (btype := btype) (exOrder := exOrder) (h := dx ((0 : Int).toNat)) hh hq4 (fun e => by rw [mul_one]; exact hb e)
      have E := G.1 (by omega) j (by omega) (by omega) k (by omega) (by omega) _ e3
      clear G hq4
      have c0 : [bLo 0 + 0, j, k] = [pi0 - 2 * 0 + 1 - 1, j, k] := by simp only [List.cons.injEq, and_true, true_and]; omega
      have c1 : [bLo 0 + 1, j, k] = [pi0 - 2 * 0 + 1, j, k] := by simp only [List.cons.injEq, and_true, true_and]; omega
      have c2 : [bLo 0 + 2, j, k] = [pi0 - 2 * 0 + 1 + 1, j, k] := by simp only [List.cons.injEq, and_true, true_and]; omega
      rw [c1] at e1
      rw [c2] at e2
      rw [c0] at E
      refine ⟨p, M, by rw [F.shift3_0]; exact e1, fun h1 h2 => ?_, fun e h0 h1 => ?_⟩
      · rw [show (2 * 0 + 2 - 0 : Int) = 2 by decide, F.shift3_2]
        exact e2 h1 h2
      · rw [show (2 * 0 + 1 + 0 : Int) = 1 by decide]
        have he : e = 0 ∨ e = 1 ∨ e = 2 ∨ e = 3 ∨ e = 4 ∨ e = 5 ∨ e = 6 := by omega
        rcases he with rfl | rfl | rfl | rfl | rfl | rfl | rfl
        · rw [if_neg (by decide), F.shift3_0]
          refine H.rd ?_ ?_
          · simp only [F.cell3d, F.InBounds, and_true]
            omega
          · rintro ⟨i', j', k', hcc, hP⟩
            simp only [List.cons.injEq, and_true] at hcc
            omega
        · rw [if_pos rfl, F.shift3_1]
          exact E.rd
        · rw [if_neg (by decide), F.shift3_2]
          refine H.rd ?_ ?_
          · simp only [F.cell3d, F.InBounds, and_true]
            omega
          · rintro ⟨i', j', k', hcc, hP⟩
            simp only [List.cons.injEq, and_true] at hcc
            omega
        · rw [if_neg (by decide), F.shift3_3]
          refine H.rd ?_ ?_
          · simp only [F.cell3d, F.InBounds, and_true]
            omega
          · rintro ⟨i', j', k', hcc, hP⟩
            simp only [List.cons.injEq, and_true] at hcc
            omega
        · rw [if_neg (by decide), F.shift3_4]
          refine H.rd ?_ ?_
          · simp only [F.cell3d, F.InBounds, and_true]
            omega
          · rintro ⟨i', j', k', hcc, hP⟩
            simp only [List.cons.injEq, and_true] at hcc
            omega
        · rw [if_neg (by decide), F.shift3_5]
          refine H.rd ?_ ?_
          · simp only [F.cell3d, F.InBounds, and_true]
            omega
          · rintro ⟨i', j', k', hcc, hP⟩
            simp only [List.cons.injEq, and_true] at hcc
            omega
        · rw [if_neg (by decide), F.shift3_6]
          refine H.rd ?_ ?_
          · simp only [F.cell3d, F.InBounds, and_true]
            omega
          · rintro ⟨i', j', k', hcc, hP⟩
            simp only [List.cons.injEq, and_true] at hcc
            omega
    · have hx := hx0 rfl
      have ht := ht0 rfl
      clear hx0 ht0 hx1 ht1 hx2 ht2
      clear hq
      have hc : F.layer3 pi0 pj0 pk0 pi1 pj1 pk1 0 1 [pi0 - 2 * 1 + 1, j, k] := ⟨pi0 - 2 * 1 + 1, j, k, rfl, by omega⟩
      obtain ⟨p, M, e1, e2, e3⟩ := fit_poly (zero := false) (x1 := F.rd m (F.cell3d u_ i0 j0 k0 i1 j1 k1 g) [bHi 0 - 1, j, k]) (x2 := F.rd m (F.cell3d u_ i0 j0 k0 i1 j1 k1 g) [bHi 0 - 2, j, k]) (b := 1) (btype := btype) (exOrder := exOrder) (h := dx ((0 : Int).toNat)) hh hq4 (fun e => by rw [mul_one]; exact hb e)
      have E := G.2.1 (by omega) j (by omega) (by omega) k (by omega) (by omega) _ e3
      clear G hq4
      have c0 : [bHi 0 - 0, j, k] = [pi0 - 2 * 1 + 1 + 1, j, k] := by simp only [List.cons.injEq, and_true, true_and]; omega
      have c1 : [bHi 0 - 1, j, k] = [pi0 - 2 * 1 + 1, j, k] := by simp only [List.cons.injEq, and_true, true_and]; omega
      have c2 : [bHi 0 - 2, j, k] = [pi0 - 2 * 1 + 1 - 1, j, k] := by simp only [List.cons.injEq, and_true, true_and]; omega
      rw [c1] at e1
      rw [c2] at e2
      rw [c0] at E
      refine ⟨p, M, by rw [F.shift3_0]; exact e1, fun h1 h2 => ?_, fun e h0 h1 => ?_⟩
      · rw [show (2 * 0 + 2 - 1 : Int) = 1 by decide, F.shift3_1]
        exact e2 h1 h2
      · rw [show (2 * 0 + 1 + 1 : Int) = 2 by decide]
        have he : e = 0 ∨ e = 1 ∨ e = 2 ∨ e = 3 ∨ e = 4 ∨ e = 5 ∨ e = 6 := by omega
        rcases he with rfl | rfl | rfl | rfl | rfl | rfl | rfl
        · rw [if_neg (by decide), F.shift3_0]
          refine H.rd ?_ ?_
          · simp only [F.cell3d, F.InBounds, and_true]
            omega
          · rintro ⟨i', j', k', hcc, hP⟩
            simp only [List.cons.injEq, and_true] at hcc
            omega
        · rw [if_neg (by decide), F.shift3_1]
          refine H.rd ?_ ?_
          · simp only [F.cell3d, F.InBounds, and_true]
            omega
          · rintro ⟨i', j', k', hcc, hP⟩
            simp only [List.cons.injEq, and_true] at hcc
            omega
        · rw [if_pos rfl, F.shift3_2]
          exact E.rd
        · rw [if_neg (by decide), F.shift3_3]
          refine H.rd ?_ ?_
          · simp only [F.cell3d, F.InBounds, and_true]
            omega
          · rintro ⟨i', j', k', hcc, hP⟩
            simp only [List.cons.injEq, and_true] at hcc
            omega
        · rw [if_neg (by decide), F.shift3_4]
          refine H.rd ?_ ?_
          · simp only [F.cell3d, F.InBounds, and_true]
            omega
          · rintro ⟨i', j', k', hcc, hP⟩
            simp only [List.cons.injEq, and_true] at hcc
            omega
        · rw [if_neg (by decide), F.shift3_5]
          refine H.rd ?_ ?_
          · simp only [F.cell3d, F.InBounds, and_true]
            omega
          · rintro ⟨i', j', k', hcc, hP⟩
            simp only [List.cons.injEq, and_true] at hcc
            omega
        · rw [if_neg (by decide), F.shift3_6]
          refine H.rd ?_ ?_
          · simp only [F.cell3d, F.InBounds, and_true]
            omega
          · rintro ⟨i', j', k', hcc, hP⟩
            simp only [List.cons.injEq, and_true] at hcc
            omega
  · rcases hside with rfl | rfl
    · have hx := hx1 rfl
      have ht := ht1 rfl
      clear hx0 ht0 hx1 ht1 hx2 ht2
      clear hq
      have hc : F.layer3 pi0 pj0 pk0 pi1 pj1 pk1 1 0 [i, pj0 - 2 * 0 + 1, k] := ⟨i, pj0 - 2 * 0 + 1, k, rfl, by omega⟩
      obtain ⟨p, M, e1, e2, e3⟩ := fit_poly (zero := false) (x1 := F.rd m (F.cell3d u_ i0 j0 k0 i1 j1 k1 g) [i, bLo 1 + 1, k]) (x2 := F.rd m (F.cell3d u_ i0 j0 k0 i1 j1 k1 g) [i, bLo 1 + 2, k]) (b := 1) (btype := btype) (exOrder := exOrder) (h := dx ((1 : Int).toNat)) hh hq4 (fun e => by rw [mul_one]; exact hb e)
      have E := G.2.2.1 (by omega) i (by omega) (by omega) k (by omega) (by omega) _ e3
      clear G hq4
      have c0 : [i, bLo 1 + 0, k] = [i, pj0 - 2 * 0 + 1 - 1, k] := by simp only [List.cons.injEq, and_true, true_and]; omega
      have c1 : [i, bLo 1 + 1, k] = [i, pj0 - 2 * 0 + 1, k] := by simp only [List.cons.injEq, and_true, true_and]; omega
      have c2 : [i, bLo 1 + 2, k] = [i, pj0 - 2 * 0 + 1 + 1, k] := by simp only [List.cons.injEq, and_true, true_and]; omega
      rw [c1] at e1
      rw [c2] at e2
      rw [c0] at E
      refine ⟨p, M, by rw [F.shift3_0]; exact e1, fun h1 h2 => ?_, fun e h0 h1 => ?_⟩
      · rw [show (2 * 1 + 2 - 0 : Int) = 4 by decide, F.shift3_4]
        exact e2 h1 h2
      · rw [show (2 * 1 + 1 + 0 : Int) = 3 by decide]
        have he : e = 0 ∨ e = 1 ∨ e = 2 ∨ e = 3 ∨ e = 4 ∨ e = 5 ∨ e = 6 := by omega
        rcases he with rfl | rfl | rfl | rfl | rfl | rfl | rfl
        · rw [if_neg (by decide), F.shift3_0]
          refine H.rd ?_ ?_
          · simp only [F.cell3d, F.InBounds, and_true]
            omega
          · rintro ⟨i', j', k', hcc, hP⟩
            simp only [List.cons.injEq, and_true] at hcc
            omega
        · rw [if_neg (by decide), F.shift3_1]
          refine H.rd ?_ ?_
          · simp only [F.cell3d, F.InBounds, and_true]
            omega
          · rintro ⟨i', j', k', hcc, hP⟩
            simp only [List.cons.injEq, and_true] at hcc
            omega
        · rw [if_neg (by decide), F.shift3_2]
          refine H.rd ?_ ?_
          · simp only [F.cell3d, F.InBounds, and_true]
            omega
          · rintro ⟨i', j', k', hcc, hP⟩
            simp only [List.cons.injEq, and_true] at hcc
            omega
        · rw [if_pos rfl, F.shift3_3]
          exact E.rd
        · rw [if_neg (by decide), F.shift3_4]
          refine H.rd ?_ ?_
          · simp only [F.cell3d, F.InBounds, and_true]
            omega
          · rintro ⟨i', j', k', hcc, hP⟩
            simp only [List.cons.injEq, and_true] at hcc
            omega
        · rw [if_neg (by decide), F.shift3_5]
          refine H.rd ?_ ?_
          · simp only [F.cell3d, F.InBounds, and_true]
            omega
          · rintro ⟨i', j', k', hcc, hP⟩
            simp only [List.cons.injEq, and_true] at hcc
            omega
        · rw [if_neg (by decide), F.shift3_6]
          refine H.rd ?_ ?_
          · simp only [F.cell3d, F.InBounds, and_true]
            omega
          · rintro ⟨i', j', k', hcc, hP⟩
            simp only [List.cons.injEq, and_true] at hcc
            omega
    · have hx := hx1 rfl
      have ht := ht1 rfl
      clear hx0 ht0 hx1 ht1 hx2 ht2
      clear hq
      have hc : F.layer3 pi0 pj0 pk0 pi1 pj1 pk1 1 1 [i, pj0 - 2 * 1 + 1, k] := ⟨i, pj0 - 2 * 1 + 1, k, rfl, by omega⟩
      obtain ⟨p, M, e1, e2, e3⟩ := fit_poly (zero := false) (x1 := F.rd m (F.cell3d u_ i0 j0 k0 i1 j1 k1 g) [i, bHi 1 - 1, k]) (x2 := F.rd m (F.cell3d u_ i0 j0 k0 i1 j1 k1 g) [i, bHi 1 - 2, k]) (b := 1) (btype := btype) (exOrder := exOrder) (h := dx ((1 : Int).toNat)) hh hq4 (fun e => by rw [mul_one]; exact hb e)
      have E := G.2.2.2.1 (by omega) i (by omega) (by omega) k (by omega) (by omega) _ e3
      clear G hq4
      have c0 : [i, bHi 1 - 0, k] = [i, pj0 - 2 * 1 + 1 + 1, k] := by simp only [List.cons.injEq, and_true, true_and]; omega
      have c1 : [i, bHi 1 - 1, k] = [i, pj0 - 2 * 1 + 1, k] := by simp only [List.cons.injEq, and_true, true_and]; omega
      have c2 : [i, bHi 1 - 2, k] = [i, pj0 - 2 * 1 + 1 - 1, k] := by simp only [List.cons.injEq, and_true, true_and]; omega
      rw [c1] at e1
      rw [c2] at e2
      rw [c0] at E
      refine ⟨p, M, by rw [F.shift3_0]; exact e1, fun h1 h2 => ?_, fun e h0 h1 => ?_⟩
      · rw [show (2 * 1 + 2 - 1 : Int) = 3 by decide, F.shift3_3]
        exact e2 h1 h2
      · rw [show (2 * 1 + 1 + 1 : Int) = 4 by decide]
        have he : e = 0 ∨ e = 1 ∨ e = 2 ∨ e = 3 ∨ e = 4 ∨ e = 5 ∨ e = 6 := by omega
        rcases he with rfl | rfl | rfl | rfl | rfl | rfl | rfl
        · rw [if_neg (by decide), F.shift3_0]
          refine H.rd ?_ ?_
          · simp only [F.cell3d, F.InBounds, and_true]
            omega
          · rintro ⟨i', j', k', hcc, hP⟩
            simp only [List.cons.injEq, and_true] at hcc
            omega
        · rw [if_neg (by decide), F.shift3_1]
          refine H.rd ?_ ?_
          · simp only [F.cell3d, F.InBounds, and_true]
            omega
          · rintro ⟨i', j', k', hcc, hP⟩
            simp only [List.cons.injEq, and_true] at hcc
            omega
        · rw [if_neg (by decide), F.shift3_2]
          refine H.rd ?_ ?_
          · simp only [F.cell3d, F.InBounds, and_true]
            omega
          · rintro ⟨i', j', k', hcc, hP⟩
            simp only [List.cons.injEq, and_true] at hcc
            omega
        · rw [if_neg (by decide), F.shift3_3]
          refine H.rd ?_ ?_
          · simp only [F.cell3d, F.InBounds, and_true]
            omega
          · rintro ⟨i', j', k', hcc, hP⟩
            simp only [List.cons.injEq, and_true] at hcc
            omega
        · rw [if_pos rfl, F.shift3_4]
          exact E.rd
        · rw [if_neg (by decide), F.shift3_5]
          refine H.rd ?_ ?_
          · simp only [F.cell3d, F.InBounds, and_true]
            omega
          · rintro ⟨i', j', k', hcc, hP⟩
            simp only [List.cons.injEq, and_true] at hcc
            omega
        · rw [if_neg (by decide), F.shift3_6]
          refine H.rd ?_ ?_
          · simp only [F.cell3d, F.InBounds, and_true]
            omega
          · rintro ⟨i', j', k', hcc, hP⟩
            simp only [List.cons.injEq, and_true] at hcc
            omega
  · rcases hside with rfl | rfl
    · have hx := hx2 rfl
      have ht := ht2 rfl
      clear hx0 ht0 hx1 ht1 hx2 ht2
      clear hq
      have hc : F.layer3 pi0 pj0 pk0 pi1 pj1 pk1 2 0 [i, j, pk0 - 2 * 0 + 1] := ⟨i, j, pk0 - 2 * 0 + 1, rfl, by omega⟩
      obtain ⟨p, M, e1, e2, e3⟩ := fit_poly (zero := false) (x1 := F.rd m (F.cell3d u_ i0 j0 k0 i1 j1 k1 g) [i, j, bLo 2 + 1]) (x2 := F.rd m (F.cell3d u_ i0 j0 k0 i1 j1 k1 g) [i, j, bLo 2 + 2]) (b := 1) (btype := btype) (exOrder := exOrder) (h := dx ((2 : Int).toNat)) hh hq4 (fun e => by rw [mul_one]; exact hb e)
      have E := G.2.2.2.2.1 (by omega) i (by omega) (by omega) j (by omega) (by omega) _ e3
      clear G hq4
      have c0 : [i, j, bLo 2 + 0] = [i, j, pk0 - 2 * 0 + 1 - 1] := by simp only [List.cons.injEq, and_true, true_and]; omega
      have c1 : [i, j, bLo 2 + 1] = [i, j, pk0 - 2 * 0 + 1] := by simp only [List.cons.injEq, and_true, true_and]; omega
      have c2 : [i, j, bLo 2 + 2] = [i, j, pk0 - 2 * 0 + 1 + 1] := by simp only [List.cons.injEq, and_true, true_and]; omega
      rw [c1] at e1
      rw [c2] at e2
      rw [c0] at E
      refine ⟨p, M, by rw [F.shift3_0]; exact e1, fun h1 h2 => ?_, fun e h0 h1 => ?_⟩
      · rw [show (2 * 2 + 2 - 0 : Int) = 6 by decide, F.shift3_6]
        exact e2 h1 h2
      · rw [show (2 * 2 + 1 + 0 : Int) = 5 by decide]
        have he : e = 0 ∨ e = 1 ∨ e = 2 ∨ e = 3 ∨ e = 4 ∨ e = 5 ∨ e = 6 := by omega
        rcases he with rfl | rfl | rfl | rfl | rfl | rfl | rfl
        · rw [if_neg (by decide), F.shift3_0]
          refine H.rd ?_ ?_
          · simp only [F.cell3d, F.InBounds, and_true]
            omega
          · rintro ⟨i', j', k', hcc, hP⟩
            simp only [List.cons.injEq, and_true] at hcc
            omega
        · rw [if_neg (by decide), F.shift3_1]
          refine H.rd ?_ ?_
          · simp only [F.cell3d, F.InBounds, and_true]
            omega
          · rintro ⟨i', j', k', hcc, hP⟩
            simp only [List.cons.injEq, and_true] at hcc
            omega
        · rw [if_neg (by decide), F.shift3_2]
          refine H.rd ?_ ?_
          · simp only [F.cell3d, F.InBounds, and_true]
            omega
          · rintro ⟨i', j', k', hcc, hP⟩
            simp only [List.cons.injEq, and_true] at hcc
            omega
        · rw [if_neg (by decide), F.shift3_3]
          refine H.rd ?_ ?_
          · simp only [F.cell3d, F.InBounds, and_true]
            omega
          · rintro ⟨i', j', k', hcc, hP⟩
            simp only [List.cons.injEq, and_true] at hcc
            omega
        · rw [if_neg (by decide), F.shift3_4]
          refine H.rd ?_ ?_
          · simp only [F.cell3d, F.InBounds, and_true]
            omega
          · rintro ⟨i', j', k', hcc, hP⟩
            simp only [List.cons.injEq, and_true] at hcc
            omega
        · rw [if_pos rfl, F.shift3_5]
          exact E.rd
        · rw [if_neg (by decide), F.shift3_6]
          refine H.rd ?_ ?_
          · simp only [F.cell3d, F.InBounds, and_true]
            omega
          · rintro ⟨i', j', k', hcc, hP⟩
            simp only [List.cons.injEq, and_true] at hcc
            omega
    · have hx := hx2 rfl
      have ht := ht2 rfl
      clear hx0 ht0 hx1 ht1 hx2 ht2
      clear hq
      have hc : F.layer3 pi0 pj0 pk0 pi1 pj1 pk1 2 1 [i, j, pk0 - 2 * 1 + 1] := ⟨i, j, pk0 - 2 * 1 + 1, rfl, by omega⟩
      obtain ⟨p, M, e1, e2, e3⟩ := fit_poly (zero := false) (x1 := F.rd m (F.cell3d u_ i0 j0 k0 i1 j1 k1 g) [i, j, bHi 2 - 1]) (x2 := F.rd m (F.cell3d u_ i0 j0 k0 i1 j1 k1 g) [i, j, bHi 2 - 2]) (b := 1) (btype := btype) (exOrder := exOrder) (h := dx ((2 : Int).toNat)) hh hq4 (fun e => by rw [mul_one]; exact hb e)
      have E := G.2.2.2.2.2 (by omega) i (by omega) (by omega) j (by omega) (by omega) _ e3
      clear G hq4
      have c0 : [i, j, bHi 2 - 0] = [i, j, pk0 - 2 * 1 + 1 + 1] := by simp only [List.cons.injEq, and_true, true_and]; omega
      have c1 : [i, j, bHi 2 - 1] = [i, j, pk0 - 2 * 1 + 1] := by simp only [List.cons.injEq, and_true, true_and]; omega
      have c2 : [i, j, bHi 2 - 2] = [i, j, pk0 - 2 * 1 + 1 - 1] := by simp only [List.cons.injEq, and_true, true_and]; omega
      rw [c1] at e1
      rw [c2] at e2
      rw [c0] at E
      refine ⟨p, M, by rw [F.shift3_0]; exact e1, fun h1 h2 => ?_, fun e h0 h1 => ?_⟩
      · rw [show (2 * 2 + 2 - 1 : Int) = 5 by decide, F.shift3_5]
        exact e2 h1 h2
      · rw [show (2 * 2 + 1 + 1 : Int) = 6 by decide]
        have he : e = 0 ∨ e = 1 ∨ e = 2 ∨ e = 3 ∨ e = 4 ∨ e = 5 ∨ e = 6 := by omega
        rcases he with rfl | rfl | rfl | rfl | rfl | rfl | rfl
        · rw [if_neg (by decide), F.shift3_0]
          refine H.rd ?_ ?_
          · simp only [F.cell3d, F.InBounds, and_true]
            omega
          · rintro ⟨i', j', k', hcc, hP⟩
            simp only [List.cons.injEq, and_true] at hcc
            omega
        · rw [if_neg (by decide), F.shift3_1]
          refine H.rd ?_ ?_
          · simp only [F.cell3d, F.InBounds, and_true]
            omega
          · rintro ⟨i', j', k', hcc, hP⟩
            simp only [List.cons.injEq, and_true] at hcc
            omega
        · rw [if_neg (by decide), F.shift3_2]
          refine H.rd ?_ ?_
          · simp only [F.cell3d, F.InBounds, and_true]
            omega
          · rintro ⟨i', j', k', hcc, hP⟩
            simp only [List.cons.injEq, and_true] at hcc
            omega
        · rw [if_neg (by decide), F.shift3_3]
          refine H.rd ?_ ?_
          · simp only [F.cell3d, F.InBounds, and_true]
            omega
          · rintro ⟨i', j', k', hcc, hP⟩
            simp only [List.cons.injEq, and_true] at hcc
            omega
        · rw [if_neg (by decide), F.shift3_4]
          refine H.rd ?_ ?_
          · simp only [F.cell3d, F.InBounds, and_true]
            omega
          · rintro ⟨i', j', k', hcc, hP⟩
            simp only [List.cons.injEq, and_true] at hcc
            omega
        · rw [if_neg (by decide), F.shift3_5]
          refine H.rd ?_ ?_
          · simp only [F.cell3d, F.InBounds, and_true]
            omega
          · rintro ⟨i', j', k', hcc, hP⟩
            simp only [List.cons.injEq, and_true] at hcc
            omega
        · rw [if_pos rfl, F.shift3_6]
          exact E.rd

end Verif
