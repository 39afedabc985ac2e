import Verif.Spec.Domain
import Verif.Lemmas.BoxList
import Verif.Lemmas.Submatrix

namespace Verif
open Spec

theorem pointList_mem {b : Bounds} {x : Int} : x ∈ pointList b ↔ IsPoint b x := by
  simp only [pointList, List.mem_filterMap, mem_ints, IsPoint, InRange]
  constructor
  · rintro ⟨d, ⟨h0, h1⟩, h⟩
    split at h
    · rename_i hd
      obtain rfl := Option.some.inj h
      exact ⟨by omega, by rwa [show b.first + d - b.first = d by omega]⟩
    · simp at h
  · rintro ⟨h, hd⟩
    exact ⟨x - b.first, by omega, by rw [if_pos hd]; congr 1; omega⟩

theorem filter_dvd_length (s : Nat) (hs : 0 < s) : ∀ n : Nat, ((List.range n).filter fun d => decide (s ∣ d)).length = (n + s - 1) / s
  | 0 => by simp only [List.range_zero, List.filter_nil, List.length_nil]; rw [Nat.div_eq_of_lt (by omega)]
  | n + 1 => by
    rw [List.range_succ, List.filter_append, List.length_append, filter_dvd_length s hs n]
    by_cases h : s ∣ n
    · obtain ⟨q, rfl⟩ := h
      simp only [List.filter_cons, dvd_mul_right, decide_true, if_true, List.filter_nil, List.length_singleton]
      have h1 : s * q + 1 + s - 1 = s + s * q := by omega
      have h2 : s * q + s - 1 = (s - 1) + s * q := by omega
      rw [h1, h2, Nat.add_mul_div_left _ _ hs, Nat.add_mul_div_left _ _ hs, Nat.div_self hs, Nat.div_eq_of_lt (by omega)]
      omega
    · have h0 : n % s ≠ 0 := fun h' => h (Nat.dvd_of_mod_eq_zero h')
      have hlt := Nat.mod_lt n hs
      have e := Nat.div_add_mod n s
      have h1 : n + 1 + s - 1 = n % s + s * (n / s + 1) := by rw [Nat.mul_add]; omega
      have h2 : n + s - 1 = (n % s - 1) + s * (n / s + 1) := by rw [Nat.mul_add]; omega
      rw [h1, h2, Nat.add_mul_div_left _ _ hs, Nat.add_mul_div_left _ _ hs, Nat.div_eq_of_lt hlt, Nat.div_eq_of_lt (by omega)]
      simp [h]

/-- how many points a bound has -/
theorem pointList_length {b : Bounds} (hs : 1 ≤ b.stride) (h : b.first < b.last) :
    ((pointList b).length : Int) = (b.last - 1 - b.first) / b.stride + 1 := by
  obtain ⟨s, hs'⟩ := Int.eq_ofNat_of_zero_le (show 0 ≤ b.stride by omega)
  obtain ⟨n, hn⟩ := Int.eq_ofNat_of_zero_le (show 0 ≤ b.last - b.first by omega)
  have h1 : (pointList b).length = ((List.range n).filter fun d => decide (s ∣ d)).length := by
    simp only [pointList, ints, hn, hs', Int.toNat_natCast, List.filterMap_map]
    generalize List.range n = l
    induction l with
    | nil => rfl
    | cons a as ih =>
      by_cases hd : s ∣ a
      · have : (s : Int) ∣ (a : Int) := Int.natCast_dvd_natCast.2 hd
        simp only [List.filterMap_cons, Function.comp, Int.ofNat_eq_natCast, this, if_true, List.length_cons, hd,
          decide_true, List.filter_cons]
        simpa [Function.comp_def] using ih
      · have : ¬ (s : Int) ∣ (a : Int) := fun h => hd (Int.natCast_dvd_natCast.1 h)
        simp only [List.filterMap_cons, Function.comp, Int.ofNat_eq_natCast, this, if_false, hd, decide_false, List.filter_cons]
        simpa [Function.comp_def] using ih
  rw [h1, filter_dvd_length s (by omega), hs']
  have h2 : b.last - 1 - b.first = ((n - 1 : Nat) : Int) := by omega
  rw [h2]
  have h3 : n + s - 1 = (n - 1) + s := by omega
  rw [h3, Nat.add_div_right _ (by omega)]
  push_cast
  rfl

end Verif
