import Verif.Lemmas.EliminateRun
import Mathlib.Tactic.Linarith
import Mathlib.Tactic.IntervalCases

/-
Examples for the rows of the operator.
-/

set_option linter.unusedSimpArgs false

namespace Verif
open Spec

theorem exRat_nonneg {a : F.Arr} {is : List Int} : 0 ≤ F.rd exRat a is := by
  have h : ∀ q, 0 ≤ ld exRat q := fun q => by
    unfold ld exRat
    dsimp only
    split
    · have h1 : (0 : Rat) ≤ (q.blk : Rat) := Nat.cast_nonneg _
      have h2 : (0 : Rat) ≤ (q.off : Rat) * q.off := mul_self_nonneg _
      simp only [Option.getD_some]
      linarith
    · simp
  exact h _

theorem exDx_pos {n : Nat} : 0 < exDx n := by
  have h1 : (0 : Rat) ≤ (n : Rat) := Nat.cast_nonneg _
  unfold exDx
  linarith

theorem ex_face1 {a : F.Arr} {side : Int} {c : List Int} {n : Nat} : 4 * F.onFace1 (F.rd exRat a) side c + exDx n ≠ 0 := by
  have h : 0 ≤ F.onFace1 (F.rd exRat a) side c := by
    unfold F.onFace1
    split
    · exact exRat_nonneg
    · exact le_rfl
  have := exDx_pos (n := n)
  intro e
  linarith

theorem ex_face2 {a b : F.Arr} {dir side : Int} {c : List Int} {n : Nat} : 4 * F.onFace2 (F.rd exRat a) (F.rd exRat b) dir side c + exDx n ≠ 0 := by
  have h : 0 ≤ F.onFace2 (F.rd exRat a) (F.rd exRat b) dir side c := by
    unfold F.onFace2
    split
    · split <;> exact exRat_nonneg
    · exact le_rfl
  have := exDx_pos (n := n)
  intro e
  linarith

theorem ex_face3 {a b d : F.Arr} {dir side : Int} {c : List Int} {n : Nat} :
    4 * F.onFace3 (F.rd exRat a) (F.rd exRat b) (F.rd exRat d) dir side c + exDx n ≠ 0 := by
  have h : 0 ≤ F.onFace3 (F.rd exRat a) (F.rd exRat b) (F.rd exRat d) dir side c := by
    unfold F.onFace3
    split
    · split
      · exact exRat_nonneg
      · split <;> exact exRat_nonneg
    · exact le_rfl
  have := exDx_pos (n := n)
  intro e
  linarith

theorem ex_four {n : Nat} : (4 : Rat) + exDx n ≠ 0 := by
  have := exDx_pos (n := n)
  intro e
  linarith

/-- face coefficients 1 in the blocks below `n`, rows with the off-diagonal coefficients of the operator in block `n`, for `beta = 1` and mesh width 1 -/
def exUnit (n : Nat) : Mem Rat := ⟨fun q => if 0 ≤ q.off ∧ q.off < 1000 then some (if q.blk = n then -1 else 1) else none, fun _ => none⟩

theorem exUnit_args {n : Nat} {ins outs : List F.Arr} (h : F.Args exRat ins outs) : F.Args (exUnit n) ins outs := by
  refine ⟨fun a ha => ⟨fun is hi => ?_, (h.ok a ha).fits, (h.ok a ha).int⟩, h.apart⟩
  obtain ⟨v, hv⟩ := (h.ok a ha).alloc is hi
  simp only [exRat] at hv
  split at hv
  · rename_i c
    exact ⟨_, if_pos c⟩
  · cases hv

theorem exUnit_holds {n : Nat} {a : F.Arr} (hb : a.ptr.blk ≠ n) (h : F.ArrOK exRat a) : F.Holds (exUnit n) a fun _ => 1 := fun is hi => by
  obtain ⟨v, hv⟩ := h.alloc is hi
  simp only [exRat] at hv
  split at hv
  · rename_i c
    refine ⟨hi, ?_⟩
    simp only [exUnit]
    rw [if_pos c, if_neg (by exact hb)]
  · cases hv

/-- the row of cell `c` -/
def rowAt (a : F.Arr) (N : Nat) (c : List Int) (m : Mem Rat) : List (Option Rat) := (List.range (N + 1)).map fun e : Nat => m.val (a.addrT ((e : Int) :: c))

theorem row_run {x : M (Mem Rat)} {a : F.Arr} {N : Nat} {c : List Int} {l : List (Option Rat)} (h : x.toOption.map (rowAt a N c) = some l) :
    ∃ s, x = .ok s ∧ rowAt a N c s = l := by
  cases x with
  | error e => cases h
  | ok s => exact ⟨s, rfl, Option.some.inj h⟩

theorem row_bind {x : M (Mem Rat)} {g : Mem Rat → M (Mem Rat)} {s : Mem Rat} (h : (x >>= g) = .ok s) : ∃ t, x = .ok t ∧ g t = .ok s := by
  cases x with
  | error e => cases h
  | ok t => exact ⟨t, rfl, h⟩

/-- the row with the entries `l`, in every cell -/
def tab (l : List Rat) : List Int → Rat
  | e :: _ => l.getD e.toNat 0
  | [] => 0

theorem row_el {m : Mem Rat} {a : F.Arr} {N : Nat} {c : List Int} {l : List Rat} {K : Int} (hK : K = N) (h : rowAt a N c m = l.map some)
    (hb : ∀ e : Int, 0 ≤ e → e ≤ K → F.InBounds a.dims (e :: c)) (e : Int) (h0 : 0 ≤ e) (h1 : e ≤ K) : F.El m a (e :: c) (tab l (e :: c)) := by
  refine ⟨hb e h0 h1, ?_⟩
  obtain ⟨k, rfl⟩ := Int.eq_ofNat_of_zero_le h0
  have hk : k < N + 1 := by omega
  have e1 : (rowAt a N c m)[k]? = some (m.val (a.addrT ((k : Int) :: c))) := by simp [rowAt, hk]
  have hl : l.length = N + 1 := by
    have := congrArg List.length h
    simpa [rowAt] using this.symm
  rw [h] at e1
  have hk' : k < l.length := by omega
  rw [List.getElem?_map, List.getElem?_eq_getElem hk', Option.map_some, Option.some.injEq] at e1
  show m.val (a.addrT ((k : Int) :: c)) = _
  rw [← e1]
  simp [tab, hk']

open Polynomial in
/-- the constant 1 as witness: the entries of the rows have different sums -/
theorem not_const {N : Int} {c : List Int} {S S' : List Int → Rat} {u v btype exOrder : Int} {h b : Rat} (hq : (btype = 0 ∧ exOrder = 2) ∨ (btype = 4 ∧ exOrder = 2))
    (hne : F.sum 0 N (fun e => S' (e :: c)) ≠ F.sum 0 N fun e => S (e :: c)) : ¬ F.Eliminates N S S' c u v btype exOrder h b := fun H => by
  have := H (C 1) 1 (fun _ => 1) (by
    rcases hq with ⟨rfl, rfl⟩ | ⟨rfl, rfl⟩
    · exact .inr (.inl ⟨rfl, rfl, by simp, by simp⟩)
    · exact .inr (.inr (.inr (.inr ⟨rfl, rfl, by simp, by simp⟩)))) (by simp) (by simp)
  simp only [eval_C, ite_self, F.rowOf, mul_one] at this
  exact hne this

open Polynomial in
/-- the line `x` as witness: the row is not changed -/
theorem not_line {c : List Int} {S : List Int → Rat} {h : Rat} (h4 : h ≠ 4) (hS : S (3 :: c) ≠ 0) : ¬ F.Eliminates 4 S S c 3 4 4 1 h 1 := fun H => by
  have := H X (-2) (fun e => if e = 0 then 1 / 2 * h else 3 / 2 * h) (.inr (.inr (.inr (.inl ⟨rfl, rfl, by simp, by simp⟩)))) (by simp) (by simp)
  have e : ∀ f : Int → Rat, F.sum 0 4 f = f 0 + f 1 + f 2 + f 3 + f 4 := fun f => F.star2
  simp only [F.rowOf, e, Int.reduceEq, reduceIte, eval_X] at this
  have e2 : S (3 :: c) * (h - 4) = 0 := by linear_combination 2 * this
  rcases mul_eq_zero.1 e2 with e3 | e3
  · exact hS e3
  · exact h4 (by linarith)

end Verif
