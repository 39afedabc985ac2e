import Mathlib.Data.Rat.Defs
import Mathlib.Algebra.Order.Field.Rat
import Mathlib.Algebra.Order.Field.Power
import Mathlib.Tactic.Linarith
import Mathlib.Tactic.FieldSimp
import Mathlib.Tactic.Ring
import Mathlib.Tactic.Positivity

/-
Arithmetic rounded to 53 bits: the significand of the C++ `double` and of the Fortran `double precision` of the kernels.
Every operation gives the rational result rounded to the nearest number with a 53 bit significand, ties to the even one.
`rnd_error` bounds the error by half a unit in the last place, `rnd_rnd` says that rounding twice is rounding once.
Simplifications: the exponent is unbounded (no overflow, no subnormal numbers), there is one zero, and no operation is fused with another.
-/

namespace Verif.Spec

/-- the exponent `e` with `2^e ≤ n/d < 2^(e+1)` -/
def expo (n d : Nat) : Int :=
  let e : Int := (n.log2 : Int) - d.log2
  if 0 ≤ e then (if n < d * 2 ^ e.toNat then e - 1 else e)
  else if n * 2 ^ (-e).toNat < d then e - 1 else e

/-- `n / d` to the nearest integer, ties to even -/
def nearest (n d : Nat) : Nat :=
  let q := n / d
  let r := n % d
  if 2 * r < d then q else if d < 2 * r then q + 1 else if q % 2 = 0 then q else q + 1

/-- `n/d` rounded to 53 significant bits -/
def round53 (n d : Nat) : Rat :=
  let s := expo n d - 52
  if 0 ≤ s then (nearest n (d * 2 ^ s.toNat) : Rat) * 2 ^ s.toNat
  else (nearest (n * 2 ^ (-s).toNat) d : Rat) / 2 ^ (-s).toNat

def rnd (x : Rat) : Rat :=
  if x.num = 0 then 0 else if 0 < x.num then round53 x.num.natAbs x.den else -round53 x.num.natAbs x.den

/- the doubles nearest to 0.1 and 0.3, and 0.1 + 0.2 -/
example : rnd (1 / 10) = 3602879701896397 / 2 ^ 55 := by decide +kernel
example : rnd (3 / 10) = 5404319552844595 / 2 ^ 54 := by decide +kernel
example : rnd (rnd (1 / 10) + rnd (2 / 10)) = 5404319552844596 / 2 ^ 54 := by decide +kernel
example : rnd (2 ^ 53 + 1) = 2 ^ 53 := by decide +kernel
example : rnd (2 ^ 53 + 3) = 2 ^ 53 + 4 := by decide +kernel
example : rnd (-(1 / 3)) = -6004799503160661 / 2 ^ 54 := by decide +kernel

theorem rnd_neg (x : Rat) : rnd (-x) = -rnd x := by
  unfold rnd
  rw [Rat.neg_num, Rat.neg_den, Int.natAbs_neg]
  rcases lt_trichotomy x.num 0 with h | h | h
  · rw [if_neg (by omega), if_pos (by omega), if_neg (by omega), if_neg (by omega), neg_neg]
  · rw [if_pos (by omega), if_pos h, neg_zero]
  · rw [if_neg (by omega), if_neg (by omega), if_neg (by omega), if_pos h]

theorem nearest_exact {k d : Nat} (hd : 0 < d) : nearest (k * d) d = k := by
  unfold nearest
  simp [Nat.mul_div_cancel _ hd, hd]

theorem nearest_le {n d k : Nat} (hd : 0 < d) (h : n ≤ k * d) : nearest n d ≤ k := by
  unfold nearest
  have e := Nat.div_add_mod n d
  have hr := Nat.mod_lt n hd
  generalize n / d = q at *
  generalize n % d = r at *
  simp only
  rcases Nat.lt_or_ge q k with hq | hq
  · split <;> (try split) <;> (try split) <;> omega
  · have : q = k := by nlinarith
    subst this
    have : r = 0 := by nlinarith
    subst this
    simp [hd]

theorem le_nearest {n d k : Nat} (hd : 0 < d) (h : k * d ≤ n) : k ≤ nearest n d := by
  unfold nearest
  have : k ≤ n / d := (Nat.le_div_iff_mul_le hd).2 h
  simp only
  split <;> (try split) <;> (try split) <;> omega

theorem expo_spec {n d : Nat} (hn : 0 < n) (hd : 0 < d) : (2 : Rat) ^ expo n d ≤ n / d ∧ (n : Rat) / d < 2 ^ (expo n d + 1) := by
  have n1 : 2 ^ n.log2 ≤ n := Nat.log2_self_le (by omega)
  have n2 : n < 2 ^ (n.log2 + 1) := Nat.lt_log2_self
  have d1 : 2 ^ d.log2 ≤ d := Nat.log2_self_le (by omega)
  have d2 : d < 2 ^ (d.log2 + 1) := Nat.lt_log2_self
  have hd' : (0 : Rat) < d := by exact_mod_cast hd
  rw [le_div_iff₀ hd', div_lt_iff₀ hd']
  unfold expo
  generalize n.log2 = a at *
  generalize d.log2 = b at *
  simp only
  split
  · rename_i he
    obtain ⟨c, rfl⟩ : ∃ c, a = b + c := ⟨a - b, by omega⟩
    have hc : ((b + c : Nat) : Int) - b = c := by omega
    rw [hc, Int.toNat_natCast]
    split
    · rename_i hlt
      constructor
      · have h2 : d * 2 ^ c ≤ 2 * n := by
          have : d * 2 ^ c ≤ 2 ^ (b + 1) * 2 ^ c := Nat.mul_le_mul_right _ d2.le
          have h3 : 2 ^ (b + 1) * 2 ^ c = 2 * 2 ^ (b + c) := by rw [← pow_add, ← pow_succ']; congr 1; omega
          omega
        have : (d : Rat) * 2 ^ c ≤ 2 * n := by exact_mod_cast h2
        rw [zpow_sub₀ (by norm_num), zpow_natCast, zpow_one]
        linarith
      · have : (n : Rat) < d * 2 ^ c := by exact_mod_cast hlt
        rw [sub_add_cancel, zpow_natCast]
        linarith
    · rename_i hlt
      have hge : d * 2 ^ c ≤ n := by omega
      constructor
      · have : (d : Rat) * 2 ^ c ≤ n := by exact_mod_cast hge
        rw [zpow_natCast]; linarith
      · have h2 : n < 2 ^ (c + 1) * d := by
          calc n < 2 ^ (b + c + 1) := n2
            _ = 2 ^ (c + 1) * 2 ^ b := by rw [← pow_add]; congr 1; omega
            _ ≤ _ := Nat.mul_le_mul_left _ d1
        have : (n : Rat) < 2 ^ (c + 1) * d := by exact_mod_cast h2
        exact_mod_cast this
  · rename_i he
    obtain ⟨c, rfl⟩ : ∃ c, b = a + c := ⟨b - a, by omega⟩
    have hc : (a : Int) - ((a + c : Nat) : Int) = -c := by omega
    rw [hc, neg_neg, Int.toNat_natCast]
    have p2 : (0 : Rat) < 2 ^ c := by positivity
    split
    · rename_i hlt
      constructor
      · have h2 : d ≤ 2 ^ (c + 1) * n := by
          calc d ≤ 2 ^ (a + c + 1) := d2.le
            _ = 2 ^ (c + 1) * 2 ^ a := by rw [← pow_add]; congr 1; omega
            _ ≤ _ := Nat.mul_le_mul_left _ n1
        have h3 : (d : Rat) ≤ 2 ^ (c + 1) * n := by exact_mod_cast h2
        have : (2 : Rat) ^ (-(c : Int) - 1) = (2 ^ (c + 1))⁻¹ := by
          rw [show -(c : Int) - 1 = -((c + 1 : Nat) : Int) by omega, zpow_neg, zpow_natCast]
        rw [this, inv_mul_le_iff₀ (by positivity)]
        exact h3
      · have : (n : Rat) * 2 ^ c < d := by exact_mod_cast hlt
        rw [sub_add_cancel, zpow_neg, zpow_natCast, lt_inv_mul_iff₀ p2]
        linarith
    · rename_i hlt
      have hge : d ≤ n * 2 ^ c := by omega
      constructor
      · have : (d : Rat) ≤ n * 2 ^ c := by exact_mod_cast hge
        rw [zpow_neg, zpow_natCast, inv_mul_le_iff₀ p2]
        linarith
      · have h2 : n * 2 ^ c < 2 * d := by
          calc n * 2 ^ c < 2 ^ (a + 1) * 2 ^ c := Nat.mul_lt_mul_of_pos_right n2 (by positivity)
            _ = 2 * 2 ^ (a + c) := by rw [← pow_add, ← pow_succ']; congr 1; omega
            _ ≤ _ := Nat.mul_le_mul_left _ d1
        have : (n : Rat) * 2 ^ c < 2 * d := by exact_mod_cast h2
        rw [zpow_add₀ (by norm_num), zpow_neg, zpow_natCast, zpow_one, mul_assoc, lt_inv_mul_iff₀ p2]
        linarith

/-- the significand before the scaling -/
theorem round53_eq {n d : Nat} (hd : 0 < d) (s : Int) (hs : s = expo n d - 52) : ∃ a b : Nat, 0 < b ∧ (a : Rat) / b = n / d / 2 ^ s ∧
    round53 n d = nearest a b * (2 : Rat) ^ s := by
  subst hs
  have hd' : (d : Rat) ≠ 0 := by exact_mod_cast hd.ne'
  unfold round53
  simp only
  split
  · rename_i h
    obtain ⟨c, hc⟩ := Int.eq_ofNat_of_zero_le h
    refine ⟨n, d * 2 ^ c, by positivity, ?_, ?_⟩
    · rw [hc]; push_cast; rw [zpow_natCast]; field_simp
    · rw [hc]; rw [Int.toNat_natCast, zpow_natCast]
  · rename_i h
    obtain ⟨c, hc⟩ := Int.eq_ofNat_of_zero_le (a := -(expo n d - 52)) (by omega)
    have hc' : expo n d - 52 = -c := by omega
    refine ⟨n * 2 ^ c, d, hd, ?_, ?_⟩
    · rw [hc']; push_cast; rw [zpow_neg, zpow_natCast]; field_simp
    · rw [hc', neg_neg, Int.toNat_natCast, zpow_neg, zpow_natCast, div_eq_mul_inv]

theorem expo_unique {n d : Nat} (hn : 0 < n) (hd : 0 < d) {e : Int} (h1 : (2 : Rat) ^ e ≤ n / d) (h2 : (n : Rat) / d < 2 ^ (e + 1)) : expo n d = e := by
  have ⟨k1, k2⟩ := expo_spec hn hd
  have a := (zpow_lt_zpow_iff_right₀ (by norm_num : (1 : Rat) < 2)).1 (lt_of_le_of_lt h1 k2)
  have b := (zpow_lt_zpow_iff_right₀ (by norm_num : (1 : Rat) < 2)).1 (lt_of_le_of_lt k1 h2)
  omega

/-- rounding a number with 53 bits changes nothing -/
theorem round53_exact {n d k : Nat} {s : Int} (hd : 0 < d) (h : (n : Rat) / d = k * 2 ^ s) (h1 : 2 ^ 52 ≤ k) (h2 : k ≤ 2 ^ 53) : round53 n d = n / d := by
  have hd' : (0 : Rat) < d := by exact_mod_cast hd
  have p : (0 : Rat) < 2 ^ s := by positivity
  have hk : (0 : Rat) < k := by have : 0 < k := by omega
                                exact_mod_cast this
  have hn : 0 < n := by
    rcases Nat.eq_zero_or_pos n with rfl | h'
    · rw [Nat.cast_zero, zero_div] at h
      have : (0 : Rat) < k * 2 ^ s := by positivity
      linarith
    · exact h'
  have key : ∀ (k : Nat) (s : Int), (n : Rat) / d = k * 2 ^ s → 2 ^ 52 ≤ k → k < 2 ^ 53 → round53 n d = n / d := by
    intro k s h h1 h2
    have p : (0 : Rat) < 2 ^ s := by positivity
    have e : expo n d = s + 52 := by
      refine expo_unique hn hd ?_ ?_
      · rw [h, zpow_add₀ (by norm_num), mul_comm]
        have : ((2 ^ 52 : Nat) : Rat) ≤ k := by exact_mod_cast h1
        push_cast at this
        exact mul_le_mul_of_nonneg_right (by exact_mod_cast this) p.le
      · rw [h, add_assoc, zpow_add₀ (by norm_num), mul_comm (2 ^ s : Rat)]
        have : (k : Rat) < ((2 ^ 53 : Nat) : Rat) := by exact_mod_cast h2
        push_cast at this
        exact mul_lt_mul_of_pos_right (by norm_num at this ⊢; exact this) p
    obtain ⟨a, b, hb, ab, r⟩ := round53_eq (n := n) hd s (by omega)
    have hb' : (b : Rat) ≠ 0 := by exact_mod_cast hb.ne'
    rw [h, mul_div_assoc, div_self p.ne', mul_one, div_eq_iff hb'] at ab
    have : a = k * b := by exact_mod_cast ab
    rw [r, this, nearest_exact hb, h]
  rcases Nat.lt_or_ge k (2 ^ 53) with hlt | hge
  · exact key k s h h1 hlt
  · have : k = 2 ^ 53 := by omega
    subst this
    refine key (2 ^ 52) (s + 1) ?_ (by norm_num) (by norm_num)
    rw [h, zpow_add₀ (by norm_num)]
    push_cast
    ring

theorem round53_form {n d : Nat} (hn : 0 < n) (hd : 0 < d) : ∃ (k : Nat) (s : Int), 2 ^ 52 ≤ k ∧ k ≤ 2 ^ 53 ∧ round53 n d = k * 2 ^ s := by
  obtain ⟨a, b, hb, ab, r⟩ := round53_eq (n := n) hd _ rfl
  have ⟨k1, k2⟩ := expo_spec hn hd
  have hb' : (0 : Rat) < b := by exact_mod_cast hb
  have p : (0 : Rat) < 2 ^ (expo n d - 52) := by positivity
  refine ⟨_, _, ?_, ?_, r⟩
  · refine le_nearest hb ?_
    have : ((2 ^ 52 : Nat) : Rat) ≤ a / b := by
      rw [ab, le_div_iff₀ p, show ((2 ^ 52 : Nat) : Rat) = 2 ^ (52 : Int) by norm_num, ← zpow_add₀ (by norm_num)]
      simpa using k1
    rw [le_div_iff₀ hb'] at this
    exact_mod_cast this
  · refine nearest_le hb ?_
    have : (a : Rat) / b ≤ ((2 ^ 53 : Nat) : Rat) := by
      rw [ab, div_le_iff₀ p, show ((2 ^ 53 : Nat) : Rat) = 2 ^ (53 : Int) by norm_num, ← zpow_add₀ (by norm_num)]
      refine k2.le.trans (le_of_eq ?_)
      congr 1; omega
    rw [div_le_iff₀ hb'] at this
    exact_mod_cast this

theorem rnd_exact {x : Rat} {k : Nat} {s : Int} (h : x = k * 2 ^ s) (h1 : 2 ^ 52 ≤ k) (h2 : k ≤ 2 ^ 53) : rnd x = x := by
  have hx : 0 < x := by
    rw [h]
    have : (0 : Rat) < k := by have : 0 < k := by omega
                               exact_mod_cast this
    positivity
  have hnum := Rat.num_pos.2 hx
  unfold rnd
  rw [if_neg (by omega), if_pos hnum]
  have e : ((x.num.natAbs : Nat) : Rat) / x.den = x := by
    have : ((x.num.natAbs : Nat) : Rat) = x.num := by
      rw [← Int.cast_natCast, Int.natAbs_of_nonneg hnum.le]
    rw [this, Rat.num_div_den]
  have := round53_exact (k := k) (s := s) x.den_pos (e.trans h) h1 h2
  rw [this, e]

theorem rnd_rnd (x : Rat) : rnd (rnd x) = rnd x := by
  have pos : ∀ x : Rat, 0 < x → rnd (rnd x) = rnd x := by
    intro x hx
    have hnum := Rat.num_pos.2 hx
    obtain ⟨k, s, h1, h2, h3⟩ := round53_form (n := x.num.natAbs) (d := x.den) (by omega) x.den_pos
    have : rnd x = k * 2 ^ s := by
      unfold rnd
      rw [if_neg (by omega), if_pos hnum, h3]
    exact rnd_exact this h1 h2
  rcases lt_trichotomy x 0 with h | h | h
  · have := pos (-x) (by linarith)
    rw [rnd_neg, rnd_neg] at this
    linarith
  · subst h; decide +kernel
  · exact pos x h


theorem nearest_error {n d : Nat} (hd : 0 < d) : |(nearest n d : Rat) - n / d| ≤ 1 / 2 := by
  have hd' : (0 : Rat) < d := by exact_mod_cast hd
  have e := Nat.div_add_mod n d
  have hr := Nat.mod_lt n hd
  have hn : (n : Rat) / d = (n / d : Nat) + (n % d : Nat) / (d : Rat) := by
    rw [div_eq_iff hd'.ne', add_mul, div_mul_cancel₀ _ hd'.ne']
    have : n = n / d * d + n % d := by rw [mul_comm]; exact e.symm
    exact_mod_cast this
  rw [hn]
  unfold nearest
  generalize n / d = q at *
  generalize n % d = r at *
  have hr0 : (0 : Rat) ≤ r / d := by positivity
  simp only
  have low : 2 * r ≤ d → (r : Rat) / d ≤ 1 / 2 := fun h => by
    rw [div_le_iff₀ hd']
    have : (2 : Rat) * r ≤ d := by exact_mod_cast h
    linarith
  have high : d ≤ 2 * r → 1 / 2 ≤ (r : Rat) / d := fun h => by
    rw [le_div_iff₀ hd']
    have : (d : Rat) ≤ 2 * r := by exact_mod_cast h
    linarith
  have top : (r : Rat) / d ≤ 1 := by
    rw [div_le_iff₀ hd']
    have : (r : Rat) ≤ d := by exact_mod_cast hr.le
    linarith
  have dn : 2 * r ≤ d → |(q : Rat) - (q + r / d)| ≤ 1 / 2 := fun h => by
    rw [abs_le]; have := low h; constructor <;> linarith
  have up : d ≤ 2 * r → |((q + 1 : Nat) : Rat) - (q + r / d)| ≤ 1 / 2 := fun h => by
    rw [abs_le]; have := high h; push_cast; constructor <;> linarith
  split
  · exact dn (by omega)
  split
  · exact up (by omega)
  split
  · exact dn (by omega)
  · exact up (by omega)

/-- rounding is off by at most half a unit in the last of 53 places -/
theorem rnd_error (x : Rat) : |rnd x - x| ≤ |x| / 2 ^ 53 := by
  have pos : ∀ x : Rat, 0 < x → |rnd x - x| ≤ |x| / 2 ^ 53 := by
    intro x hx
    have hnum := Rat.num_pos.2 hx
    have e : ((x.num.natAbs : Nat) : Rat) / x.den = x := by
      have : ((x.num.natAbs : Nat) : Rat) = x.num := by
        rw [← Int.cast_natCast, Int.natAbs_of_nonneg hnum.le]
      rw [this, Rat.num_div_den]
    obtain ⟨k1, -⟩ := expo_spec (n := x.num.natAbs) (d := x.den) (by omega) x.den_pos
    obtain ⟨a, b, hb, ab, r⟩ := round53_eq (n := x.num.natAbs) x.den_pos _ rfl
    have hr : rnd x = round53 x.num.natAbs x.den := by
      unfold rnd
      rw [if_neg (by omega), if_pos hnum]
    generalize expo x.num.natAbs x.den = ex at *
    have p : (0 : Rat) < 2 ^ (ex - 52) := by positivity
    rw [e] at ab k1
    have hx' : x = a / b * 2 ^ (ex - 52) := by rw [ab, div_mul_cancel₀ _ p.ne']
    have h2 : (2 : Rat) ^ ex = 2 ^ (ex - 52) * 2 ^ 52 := by
      rw [← zpow_natCast, ← zpow_add₀ (by norm_num)]; congr 1; push_cast; omega
    rw [hr, r, abs_of_pos hx]
    calc |(nearest a b : Rat) * 2 ^ (ex - 52) - x| = |(nearest a b : Rat) - a / b| * 2 ^ (ex - 52) := by
            conv_lhs => rw [hx', ← sub_mul, abs_mul, abs_of_pos p]
      _ ≤ 1 / 2 * 2 ^ (ex - 52) := mul_le_mul_of_nonneg_right (nearest_error hb) p.le
      _ = 2 ^ ex / 2 ^ 53 := by rw [h2]; norm_num; ring
      _ ≤ x / 2 ^ 53 := by gcongr
  rcases lt_trichotomy x 0 with h | h | h
  · have := pos (-x) (by linarith)
    rw [rnd_neg, abs_neg, ← neg_add', abs_neg] at this
    convert this using 2
    ring
  · subst h; decide +kernel
  · exact pos x h

/-- numbers with a 53 bit significand -/
structure B64 where
  v : Rat
  ok : rnd v = v
deriving DecidableEq

namespace B64
/-- the nearest such number -/
def near (x : Rat) : B64 := ⟨rnd x, rnd_rnd x⟩

instance (n : Nat) : OfNat B64 n := ⟨near n⟩
instance : Zero B64 := ⟨near 0⟩
instance : One B64 := ⟨near 1⟩
instance : NatCast B64 := ⟨fun n => near n⟩
instance : IntCast B64 := ⟨fun n => near n⟩
instance : Add B64 := ⟨fun a b => near (a.v + b.v)⟩
instance : Sub B64 := ⟨fun a b => near (a.v - b.v)⟩
instance : Mul B64 := ⟨fun a b => near (a.v * b.v)⟩
instance : Div B64 := ⟨fun a b => near (a.v / b.v)⟩
instance : Neg B64 := ⟨fun a => ⟨-a.v, by rw [rnd_neg, a.ok]⟩⟩
/-- repeated multiplication -/
instance : Pow B64 Nat := ⟨fun a n => Nat.rec (motive := fun _ => B64) 1 (fun k r => if k = 0 then a else r * a) n⟩
end B64

/-- a power of two, such as the mesh widths of a unit box halved again and again -/
def PowTwo (h : B64) : Prop := ∃ k : Int, h.v = 2 ^ k

end Verif.Spec
