import Verif.Lemmas.RoundSmooth
import Verif.Lemmas.SmoothConvEx

/-
Examples for the rounded smoothers.
-/

namespace Verif
open Spec

/-- a memory with every number rounded -/
def toB (m : Mem Rat) : Mem B64 := ⟨fun q => (m.val q).map B64.near, m.ints⟩

theorem toB_holds {m : Mem Rat} {a : F.Arr} {V : List Int → Rat} (h : F.Holds m a V) : F.Holds (toB m) a (fun p => B64.near (V p)) := fun is hi =>
  ⟨hi, by show Option.map _ _ = _; rw [(h is hi).2]; rfl⟩

theorem toB_problem {m : Mem Rat} {box : List (Int × Int)} {n : Int} {tab st f u : F.Arr} {O : Int → List Int} {S B U : List Int → Rat}
    (h : F.Problem m box n tab st f u O S B U) :
    F.Problem (toB m) box n tab st f u O (fun p => B64.near (S p)) (fun p => B64.near (B p)) (fun p => B64.near (U p)) where
  size := h.size
  table := h.table
  holdsSt := toB_holds h.holdsSt
  holdsF := toB_holds h.holdsF
  holdsU := toB_holds h.holdsU
  inSt := h.inSt
  inF := h.inF
  inU := h.inU
  near := h.near
  apartSt := h.apartSt
  apartF := h.apartF

theorem exSC_exact : (F.vals fun p => B64.near (exSC p)) = exSC := by
  funext l
  match l with
  | [] => show rnd 0 = 0; decide +kernel
  | s :: _ =>
    show rnd (if s = 0 then 10 else -1) = if s = 0 then 10 else -1
    split <;> decide +kernel

theorem exUC_exact {box : List (Int × Int)} {p : List Int} : (B64.near (exUC box p)).v = exUC box p := by
  show rnd (exUC box p) = exUC box p
  unfold exUC
  split <;> decide +kernel

macro "ex_rate" : tactic => `(tactic| (show _ < (1 : Rat); decide +kernel))

theorem ex_domB1 : F.Dominant [(1, 5)] 3 exO1 (2/10) (fun _ => 1) (F.vals fun p => B64.near (exSC p)) := by
  rw [exSC_exact, show ((2/10 : Rat)) = 1/5 by norm_num]
  exact ex_dom1

theorem ex_sized1 : F.Sized [(1, 5)] 3 exO1 (F.vals fun p => B64.near (exSC p)) (F.vals fun _ => B64.near 8) exX (fun _ => 1) 2 := fun p _ => by
  rw [exSC_exact]
  show |rnd 8| + F.sum 0 (3 - 1) (fun s => |(if s = 0 then (10 : Rat) else -1)| * |(1 : Rat)|) ≤ 2 * (|(if (0 : Int) = 0 then (10 : Rat) else -1)| * 1)
  decide +kernel

theorem ex_eqnB1 : ∀ p, F.InBounds [(1, 5)] p → F.Eqn 3 exO1 (F.vals fun p => B64.near (exSC p)) (F.vals fun _ => B64.near 8) exX p := by
  rw [exSC_exact, show (F.vals fun _ => B64.near 8) = fun _ => 8 from funext fun _ => show rnd 8 = 8 by decide +kernel]
  exact ex_eqn1

theorem ex_outB1 : ∀ p, ¬ F.InBounds [(1, 5)] p → (B64.near (exUC [(1, 5)] p)).v = exX p := fun p hp => by
  rw [exUC_exact]
  exact ex_out1 p hp

theorem ex_errB1 : ∀ p, F.InBounds [(1, 5)] p → |(B64.near (exUC [(1, 5)] p)).v - exX p| ≤ 3 * (fun _ => 1) p := fun p hp => by
  rw [exUC_exact]
  exact ex_err1 p hp

theorem ex_domB2 : F.Dominant [(1, 5), (2, 6)] 5 exO2 (4/10) (fun _ => 1) (F.vals fun p => B64.near (exSC p)) := by
  rw [exSC_exact, show ((4/10 : Rat)) = 2/5 by norm_num]
  exact ex_dom2

theorem ex_sized2 : F.Sized [(1, 5), (2, 6)] 5 exO2 (F.vals fun p => B64.near (exSC p)) (F.vals fun _ => B64.near 6) exX (fun _ => 1) 2 := fun p _ => by
  rw [exSC_exact]
  show |rnd 6| + F.sum 0 (5 - 1) (fun s => |(if s = 0 then (10 : Rat) else -1)| * |(1 : Rat)|) ≤ 2 * (|(if (0 : Int) = 0 then (10 : Rat) else -1)| * 1)
  decide +kernel

theorem ex_eqnB2 : ∀ p, F.InBounds [(1, 5), (2, 6)] p → F.Eqn 5 exO2 (F.vals fun p => B64.near (exSC p)) (F.vals fun _ => B64.near 6) exX p := by
  rw [exSC_exact, show (F.vals fun _ => B64.near 6) = fun _ => 6 from funext fun _ => show rnd 6 = 6 by decide +kernel]
  exact ex_eqn2

theorem ex_outB2 : ∀ p, ¬ F.InBounds [(1, 5), (2, 6)] p → (B64.near (exUC [(1, 5), (2, 6)] p)).v = exX p := fun p hp => by
  rw [exUC_exact]
  exact ex_out2 p hp

theorem ex_errB2 : ∀ p, F.InBounds [(1, 5), (2, 6)] p → |(B64.near (exUC [(1, 5), (2, 6)] p)).v - exX p| ≤ 3 * (fun _ => 1) p := fun p hp => by
  rw [exUC_exact]
  exact ex_err2 p hp

theorem ex_domB3 : F.Dominant [(1, 5), (2, 6), (1, 4)] 7 exO3 (6/10) (fun _ => 1) (F.vals fun p => B64.near (exSC p)) := by
  rw [exSC_exact, show ((6/10 : Rat)) = 3/5 by norm_num]
  exact ex_dom3

theorem ex_sized3 : F.Sized [(1, 5), (2, 6), (1, 4)] 7 exO3 (F.vals fun p => B64.near (exSC p)) (F.vals fun _ => B64.near 4) exX (fun _ => 1) 2 := fun p _ => by
  rw [exSC_exact]
  show |rnd 4| + F.sum 0 (7 - 1) (fun s => |(if s = 0 then (10 : Rat) else -1)| * |(1 : Rat)|) ≤ 2 * (|(if (0 : Int) = 0 then (10 : Rat) else -1)| * 1)
  decide +kernel

theorem ex_eqnB3 : ∀ p, F.InBounds [(1, 5), (2, 6), (1, 4)] p → F.Eqn 7 exO3 (F.vals fun p => B64.near (exSC p)) (F.vals fun _ => B64.near 4) exX p := by
  rw [exSC_exact, show (F.vals fun _ => B64.near 4) = fun _ => 4 from funext fun _ => show rnd 4 = 4 by decide +kernel]
  exact ex_eqn3

theorem ex_outB3 : ∀ p, ¬ F.InBounds [(1, 5), (2, 6), (1, 4)] p → (B64.near (exUC [(1, 5), (2, 6), (1, 4)] p)).v = exX p := fun p hp => by
  rw [exUC_exact]
  exact ex_out3 p hp

theorem ex_errB3 : ∀ p, F.InBounds [(1, 5), (2, 6), (1, 4)] p → |(B64.near (exUC [(1, 5), (2, 6), (1, 4)] p)).v - exX p| ≤ 3 * (fun _ => 1) p := fun p hp => by
  rw [exUC_exact]
  exact ex_err3 p hp

end Verif
