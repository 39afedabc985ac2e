import Verif.Spec.Approx
import Verif.Lemmas.RoundClose

/-
Relative comparisons.
-/

namespace Verif
open Spec

theorem approx_face {eps : Rat} {b x0 x1 d : B64} (he : 6 / 2 ^ 53 ≤ eps) (hd : d.v ≠ 0) :
    F.Approx eps (b * ((x1 - x0) / d)) (b * (x1 - x0) / d) ∧ F.Approx eps (b * (x1 - x0) / d) (b * ((x1 - x0) / d)) := by
  have n : F.Within 4 (b * ((x1 - x0) / d)) (F.face b.v x0.v x1.v d.v) |F.face b.v x0.v x1.v d.v| := (near_face hd).within (by ulps)
  have c := close_face (b := b) (x0 := x0) (x1 := x1) hd
  unfold F.Within at n c
  unfold F.Approx
  generalize (b * ((x1 - x0) / d)).v = A at *
  generalize (b * (x1 - x0) / d).v = B at *
  generalize F.face b.v x0.v x1.v d.v = E at *
  have e0 := abs_nonneg E
  have a1 : |E| - |A| ≤ |A - E| := by rw [abs_sub_comm]; exact abs_sub_abs_le_abs_sub E A
  have b1 : |A| - |B| ≤ |A - B| := abs_sub_abs_le_abs_sub A B
  have a0 := abs_nonneg A
  have b0 := abs_nonneg B
  have pa := mul_le_mul_of_nonneg_right he a0
  have pb := mul_le_mul_of_nonneg_right he b0
  rw [abs_sub_comm B A]
  push_cast at n c
  norm_num at n c pa pb ⊢
  constructor <;> linarith

theorem approx_zero {eps : Rat} {v w : B64} (hv : v.v = 0) (hw : w.v ≠ 0) (he : eps < 1) : ¬ F.Approx eps v w ∧ ¬ F.Approx eps w v := by
  have p := abs_pos.mpr hw
  unfold F.Approx
  rw [hv]
  simp only [zero_sub, abs_neg, sub_zero, abs_zero, mul_zero, not_le]
  exact ⟨by nlinarith, p⟩

/-- data in `[0, 1)`: a coefficient, values, a right hand side, fluxes growing by `2^-10`, further fluxes that do not change, and the residual -/
def wU (h : B64) : Mem B64 := ⟨fun q => if 0 ≤ q.off ∧ q.off < 1000 then some (match q.blk with
  | 0 => .near (1 / 2)
  | 1 => .near (1 / 1024) / h
  | 2 => .near (1 / 2 ^ 80)
  | 3 => .near ((q.off : Rat) / 1024)
  | 6 => 0
  | _ => .near (1 / 2)) else none, fun _ => none⟩

theorem wU_ok {h : B64} {a : F.Arr} (ha : F.ArrOK exRat a) : F.ArrOK (wU h) a where
  alloc is hi := by
    obtain ⟨v, hv⟩ := ha.alloc is hi
    simp only [exRat] at hv
    split at hv
    · rename_i h
      exact ⟨_, if_pos h⟩
    · simp at hv
  fits := ha.fits
  int := ha.int

theorem wU_args {h : B64} {i o : List F.Arr} (ha : F.Args exRat i o) : F.Args (wU h) i o := ⟨fun a hm => wU_ok (ha.ok a hm), ha.apart⟩

macro "wu_args" : tactic => `(tactic| (refine wU_args ?_; ex_args))

theorem wU_small : ∀ n : Fin 1000, 0 ≤ (B64.near (((n : Nat) : Int) / 1024 : Rat)).v ∧ (B64.near (((n : Nat) : Int) / 1024 : Rat)).v < 1 := by decide +kernel

theorem wU_range {h : B64} (hh : 0 ≤ (B64.near (1 / 1024) / h).v ∧ (B64.near (1 / 1024) / h).v < 1) (q : Ptr) (x : B64) (hx : (wU h).val q = some x) : 0 ≤ x.v ∧ x.v < 1 := by
  simp only [wU] at hx
  split at hx
  · rename_i r
    have hx := Option.some.inj hx
    subst hx
    split
    · decide +kernel
    · exact hh
    · decide +kernel
    · have := wU_small ⟨q.off.toNat, by omega⟩
      simpa [Int.toNat_of_nonneg r.1] using this
    · decide +kernel
    · decide +kernel
  · simp at hx

end Verif
