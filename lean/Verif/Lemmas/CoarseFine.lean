import Verif.Model.CoarseFine
import Verif.Lemmas.Span

namespace Verif
open Spec

theorem tdiv_neg_floor {a r : Int} (ha : a < 0) (hr : 1 ≤ r) : (a + 1).tdiv r - 1 = a / r := by
  have h1 : (a + 1).tdiv r = -((-(a + 1)) / r) := by
    have : a + 1 = -(-(a + 1)) := by omega
    rw [this, Int.neg_tdiv, Int.tdiv_eq_ediv_of_nonneg (by omega), neg_neg]
  rw [h1]
  have h2 := Int.mul_ediv_add_emod (-(a + 1)) r
  have h3 := Int.emod_nonneg (-(a + 1)) (show r ≠ 0 by omega)
  have h4 := Int.emod_lt_of_pos (-(a + 1)) (show 0 < r by omega)
  set q := (-(a + 1)) / r
  set t := (-(a + 1)) % r
  have h5 : a = (r - 1 - t) + r * (-q - 1) := by
    have : r * (-q - 1) = -(r * q) - r := by ring
    omega
  conv_rhs => rw [h5]
  rw [Int.add_mul_ediv_left _ _ (by omega), Int.ediv_eq_zero_of_lt (by omega) (by omega)]
  omega

theorem ediv_inInt {a r : Int} (hr : 1 ≤ r) (h : InInt a) : InInt (a / r) := by
  unfold InInt at *
  have h2 := Int.mul_ediv_add_emod a r
  have h3 := Int.emod_nonneg a (show r ≠ 0 by omega)
  have h4 := Int.emod_lt_of_pos a (show 0 < r by omega)
  constructor
  · rw [Int.le_ediv_iff_mul_le (by omega)]; nlinarith
  · have : a / r < 2147483648 := by
      rw [Int.ediv_lt_iff_lt_mul (by omega)]; nlinarith
    omega

theorem tdiv_inInt {a r : Int} (hr : 1 ≤ r) (h : InInt a) : InInt (a.tdiv r) := by
  unfold InInt at *
  by_cases ha : 0 ≤ a
  · rw [Int.tdiv_eq_ediv_of_nonneg ha]
    exact ediv_inInt hr h
  · have h1 : a.tdiv r = -((-a) / r) := by
      have : a = -(-a) := by omega
      conv_lhs => rw [this]
      rw [Int.neg_tdiv, Int.tdiv_eq_ediv_of_nonneg (by omega)]
    rw [h1]
    have h2 : (-a) / r ≤ -a := Int.ediv_le_self _ (by omega)
    have h3 : 0 ≤ (-a) / r := Int.ediv_nonneg (by omega) (by omega)
    omega

/-- the branch-free computation is division rounding down -/
theorem coarseIndex_ok {r fi : Int} (hr : 1 ≤ r) (h : InInt fi) (hM : fi < 2147483647) : coarseIndex r fi = .ok (fi / r) := by
  have h1 : idiv fi r = .ok (fi.tdiv r) := by
    unfold idiv; rw [if_neg (by omega), chk_ok (tdiv_inInt hr h)]
  have h2 : InInt (fi + 1) := by unfold InInt at *; omega
  have h3 : idiv (fi + 1) r = .ok ((fi + 1).tdiv r) := by
    unfold idiv; rw [if_neg (by omega), chk_ok (tdiv_inInt hr h2)]
  have h4 := tdiv_inInt hr h
  have h6 := tdiv_inInt hr h2
  unfold coarseIndex
  dsimp only
  by_cases hn : fi < 0
  · have e := tdiv_neg_floor hn hr
    have h5 := ediv_inInt hr h
    rw [← e] at h5
    rw [if_pos hn, h1, M.ok_bind, sub_self, imul_ok (by simp [InInt]), M.ok_bind, iadd_ok h2, M.ok_bind, h3, M.ok_bind,
      isub_ok h5, M.ok_bind, imul_ok (by simpa using h5), M.ok_bind, iadd_ok (by simpa using h5), e]
    simp
  · have h5 : InInt ((fi + 1).tdiv r - 1) := by
      have : 0 ≤ (fi + 1).tdiv r := Int.tdiv_nonneg (by omega) (by omega)
      unfold InInt at *; omega
    rw [if_neg hn, h1, M.ok_bind, sub_zero, imul_ok (by simpa using h4), M.ok_bind, iadd_ok h2, M.ok_bind, h3, M.ok_bind,
      isub_ok h5, M.ok_bind, imul_ok (by simp [InInt]), M.ok_bind, iadd_ok (by simpa using h4)]
    rw [Int.tdiv_eq_ediv_of_nonneg (by omega)]
    simp

namespace C2F

/-- iterator at fine index `fi + k` -/
def at_ (c : C2F) (k : Int) : C2F := { c with fi := c.fi + k }

theorem inc_ok {c : C2F} {k : Int} (h : InInt (c.fi + k + 1)) : (c.at_ k).inc = .ok (c.at_ (k + 1)) := by
  simp only [inc, at_]
  rw [iadd_ok h, M.ok_bind, add_assoc]

theorem dec_ok {c : C2F} {k : Int} (h : InInt (c.fi + k - 1)) : (c.at_ k).dec = .ok (c.at_ (k - 1)) := by
  simp only [dec, at_]
  rw [isub_ok h, M.ok_bind]
  congr 2; omega

theorem adv_ok {c : C2F} {k d : Int} (h : InInt (c.fi + k + d)) : (c.at_ k).adv d = .ok (c.at_ (k + d)) := by
  simp only [adv, at_]
  rw [dadd_ok h.diff, M.ok_bind, narrow_ok h, M.ok_bind, add_assoc]

end C2F
end Verif
