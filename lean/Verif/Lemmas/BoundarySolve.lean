import Verif.Spec.Boundary
import Verif.Lemmas.EliminateRun
import Verif.Lemmas.SmoothConv
import Verif.Lemmas.Assemble

/-
Rows adjusted for several pieces of the boundary: what the factors do to equations and to dominance.
-/

set_option linter.unusedSectionVars false

namespace Verif
open Spec

namespace F
variable {T : Type} [Field T]

/-- the factor of a piece -/
def Piece.fac (k : Piece T) (c : List Int) : T := facU k.btype k.order k.width (k.coef c)

open Classical in
/-- what the adjustments for all pieces multiply entry `e` of row `c` with -/
noncomputable def factor : List (Piece T) → List Int → Int → T
  | [], _, _ => 1
  | k :: ps, c, e => factor ps c e * if k.cells c ∧ e = k.ghost then k.fac c else 1

theorem factor_one {ps : List (Piece T)} {c : List Int} {e : Int} (h : ∀ k ∈ ps, k.cells c → k.ghost ≠ e) : factor ps c e = 1 := by
  induction ps with
  | nil => rfl
  | cons k ps ih =>
    rw [factor, ih fun k hk => h k (List.mem_cons_of_mem _ hk), one_mul, if_neg fun hc => h k (by simp) hc.1 hc.2.symm]

theorem factor_at {ps : List (Piece T)} {c : List Int} {k : Piece T} (hd : Disjoint ps) (hk : k ∈ ps) (hc : k.cells c) : factor ps c k.ghost = k.fac c := by
  induction ps with
  | nil => simp at hk
  | cons k' ps ih =>
    obtain ⟨h1, h2⟩ := List.pairwise_cons.1 hd
    rw [factor]
    rcases List.mem_cons.1 hk with rfl | hk
    · rw [factor_one fun k'' hk'' hc'' he => h1 k'' hk'' he.symm c hc hc'', one_mul, if_pos ⟨hc, rfl⟩]
    · rw [ih h2 hk, if_neg fun h => h1 k hk h.2.symm c h.1 hc, mul_one]

/-- the adjustments for a list of pieces, one after the other -/
theorem fold_adj {κ : Type} {run : κ → Mem T → M (Mem T)} {pc : κ → Piece T} {a : Arr} (hd : a.dims ≠ []) {Good : Mem T → Prop} {l : List κ}
    (step : ∀ k ∈ l, ∀ m, Good m → ∃ v, Adjusts (run k m) m a (pc k).cells (pc k).ghost v (pc k).fac (fun _ => 0))
    (good : ∀ m m' L u v A B, Adj m m' a L u v A B → Good m → Good m') :
    ∀ m, Good m → ∃ m', l.foldlM (fun m k => run k m) m = .ok m' ∧ Only [a] m m' ∧ Good m' ∧
      ∀ c e, InBounds a.dims (e :: c) → rd m' a (e :: c) = factor (l.map pc) c e * rd m a (e :: c) := by
  induction l with
  | nil => exact fun m hm => ⟨m, rfl, Only.refl, hm, fun c e _ => by simp [factor]⟩
  | cons k l ih =>
    intro m hm
    obtain ⟨v, m1, h1, A1⟩ := step k (by simp) m hm
    obtain ⟨m2, h2, o2, g2, v2⟩ := ih (fun k hk => step k (List.mem_cons_of_mem _ hk)) m1 (good _ _ _ _ _ _ _ A1 hm)
    refine ⟨m2, ?_, A1.only.trans o2, g2, fun c e hb => ?_⟩
    · rw [List.foldlM_cons, h1]
      exact h2
    · rw [v2 c e hb, List.map_cons, factor, mul_assoc]
      congr 1
      split
      · rename_i hc
        rw [hc.2, (A1.atU c hc.1).rd]
      · rename_i hc
        rw [one_mul]
        by_cases h : (pc k).cells c ∧ e = v
        · rw [h.2, (A1.atV c h.1).rd, zero_mul, add_zero]
        · exact A1.rdRest hb fun hh => hh.2.elim (fun he => hc ⟨hh.1, he⟩) fun he => h ⟨hh.1, he⟩

variable {box : List (Int × Int)} {n : Int} {O : Int → List Int} {S S' X D G k : List Int → T} {ps : List (Piece T)}

theorem sum0_cons {g : Int → T} (hn : 1 ≤ n) : sum 0 (n - 1) g = g 0 + sum 1 (n - 1) g := by
  unfold sum
  rw [irange_zero hn, List.map_cons, List.sum_cons]

/-- the rows with the factors, on the data in the ghost cells, say what the rows without say on the ghost values -/
theorem bv_eqn [CharZero T] (hn : 1 ≤ n) (hO : ∀ p, InBounds box p → shift p (O 0) = p)
    (hS : ∀ c, InBounds box c → S (0 :: c) = -sum 1 (n - 1) (fun e => S (e :: c)) + k c)
    (hS' : ∀ c, InBounds box c → S' (0 :: c) = -sum 1 (n - 1) (fun e => S' (e :: c)) + k c)
    (hf : ∀ c, InBounds box c → ∀ e, 1 ≤ e → e ≤ n - 1 → S' (e :: c) = factor ps c e * S (e :: c))
    (hd : Disjoint ps) (hF : Fulfils box n O ps D X) (hc : ∀ k ∈ ps, First k.btype k.order ∧ ∀ c, k.cells c → InBounds box c ∧ ¬ InBounds box (shift c (O k.ghost)) ∧ (k.btype = 4 → 4 * k.coef c + k.width ≠ 0))
    {Y : List Int → T} (hY : ∀ p, InBounds box p → Y p = X p) (hD : ∀ p, ¬ InBounds box p → Y p = D p) {p : List Int} (hp : InBounds box p) :
    Eqn n O S' G Y p ↔ Eqn n O S G X p := by
  unfold Eqn
  rw [sum0_cons hn, sum0_cons hn, hO p hp, hY p hp, hS p hp, hS' p hp]
  have e : sum 1 (n - 1) (fun e => S' (e :: p) * Y (shift p (O e))) - sum 1 (n - 1) (fun e => S' (e :: p)) * X p =
      sum 1 (n - 1) (fun e => S (e :: p) * X (shift p (O e))) - sum 1 (n - 1) (fun e => S (e :: p)) * X p := by
    rw [← sum_mul, ← sum_mul, ← sum_sub, ← sum_sub]
    refine sum_congr fun e h0 h1 => ?_
    rw [hf p hp e h0 h1]
    by_cases h : ∃ k ∈ ps, k.cells p ∧ k.ghost = e
    · obtain ⟨k, hk, hkc, rfl⟩ := h
      obtain ⟨y, hm, e1, e2⟩ := hF.given k hk p hkc
      obtain ⟨hfi, hcc⟩ := hc k hk
      obtain ⟨-, ho, hb⟩ := hcc p hkc
      rw [factor_at hd hk hkc, hD _ ho, e2, e1, weights hm (by rintro ⟨h4, h2⟩; rcases hfi with h | h | h <;> omega) hb]
      have hv : (facV k.btype k.order : T) = 0 := by
        unfold facV
        rcases hfi with ⟨h, h'⟩ | h | ⟨h, h'⟩ <;> simp [h, *]
      rw [hv]
      unfold Piece.fac
      ring
    · have hn : ∀ k ∈ ps, k.cells p → k.ghost ≠ e := fun k hk hkc he => h ⟨k, hk, hkc, he⟩
      rw [factor_one hn, one_mul]
      by_cases hi : InBounds box (shift p (O e))
      · rw [hY _ hi]
      · rw [hD _ hi, hF.free p hp e h0 h1 hi hn]
  constructor
  · intro h
    rw [← h]
    linear_combination -e
  · intro h
    rw [← h]
    linear_combination e

end F

namespace F
variable {T : Type} [Field T] [LinearOrder T] [IsStrictOrderedRing T]

theorem facU_bounds {btype order : Int} {h b : T} (hf : First btype order) (hh : 0 < h) (hb : 0 ≤ b) : 0 ≤ facU btype order h b ∧ facU btype order h b ≤ 2 := by
  unfold facU
  rcases hf with ⟨rfl, rfl⟩ | rfl | ⟨rfl, rfl⟩
  · norm_num
  · norm_num
  · have hp : 0 < 4 * b + h := by linarith
    simp only [show ¬ (4 : Int) = 0 by decide, show ¬ (4 : Int) = 1 by decide, if_false]
    refine ⟨div_nonneg (by linarith) hp.le, ?_⟩
    rw [div_le_iff₀ hp]
    linarith

theorem factor_bounds {ps : List (Piece T)} {c : List Int} {e : Int} (hd : Disjoint ps) (h : ∀ k ∈ ps, k.cells c → 0 ≤ k.fac c ∧ k.fac c ≤ 2) :
    0 ≤ factor ps c e ∧ factor ps c e ≤ 2 := by
  by_cases hk : ∃ k ∈ ps, k.cells c ∧ k.ghost = e
  · obtain ⟨k, hk, hc, rfl⟩ := hk
    rw [factor_at hd hk hc]
    exact h k hk hc
  · rw [factor_one fun k hk' hc he => hk ⟨k, hk', hc, he⟩]
    norm_num

variable {box : List (Int × Int)} {n : Int} {O : Int → List Int} {S S' k : List Int → T} {ps : List (Piece T)} {q : T}

/-- rows with the factors are dominant if the rows without are, with twice the coefficients -/
theorem bv_dom (hS' : ∀ c, InBounds box c → S' (0 :: c) = -sum 1 (n - 1) (fun e => S' (e :: c)) + k c)
    (hf : ∀ c, InBounds box c → ∀ e, 1 ≤ e → e ≤ n - 1 → S' (e :: c) = factor ps c e * S (e :: c))
    (hb : ∀ c, InBounds box c → ∀ e, 0 ≤ factor ps c e ∧ factor ps c e ≤ 2)
    (hs : ∀ c, InBounds box c → ∀ e, 1 ≤ e → e ≤ n - 1 → S (e :: c) ≤ 0) (hk : ∀ c, InBounds box c → 0 < k c)
    (hq : ∀ c, InBounds box c → (1 - q) * (2 * -sum 1 (n - 1) (fun e => S (e :: c)) + k c) ≤ k c) :
    Dominant box n O q (fun _ => 1) S' := by
  have ab : ∀ c, InBounds box c → sum 1 (n - 1) (fun s => |S' (s :: c)|) = -sum 1 (n - 1) (fun e => S' (e :: c)) := fun c hc => by
    rw [← sum_neg]
    refine sum_congr fun e h0 h1 => ?_
    rw [abs_of_nonpos]
    rw [hf c hc e h0 h1]
    exact mul_nonpos_of_nonneg_of_nonpos (hb c hc e).1 (hs c hc e h0 h1)
  have n1 : ∀ c, InBounds box c → 0 ≤ -sum 1 (n - 1) (fun e => S' (e :: c)) := fun c hc => by
    rw [← ab c hc]
    exact sum_nonneg fun _ _ _ => abs_nonneg _
  have n2 : ∀ c, InBounds box c → -sum 1 (n - 1) (fun e => S' (e :: c)) ≤ 2 * -sum 1 (n - 1) (fun e => S (e :: c)) := fun c hc => by
    have : sum 1 (n - 1) (fun e => S (e :: c) * 2) ≤ sum 1 (n - 1) (fun e => S' (e :: c)) := sum_mono fun e h0 h1 => by
      rw [hf c hc e h0 h1]
      nlinarith [hb c hc e, hs c hc e h0 h1]
    rw [sum_mul] at this
    linarith
  have d : ∀ c, InBounds box c → 0 < S' (0 :: c) := fun c hc => by
    rw [hS' c hc]
    linarith [n1 c hc, hk c hc]
  refine ⟨fun c hc => (d c hc).ne', fun _ _ => one_pos, fun _ => zero_le_one, fun c hc => ?_⟩
  simp only [mul_one]
  rw [ab c hc, abs_of_pos (d c hc), hS' c hc]
  by_cases h1 : q ≤ 1
  · nlinarith [n2 c hc, hq c hc, mul_le_mul_of_nonneg_left (add_le_add_left (n2 c hc) (k c)) (sub_nonneg.2 h1)]
  · nlinarith [n1 c hc, hk c hc]

/-- the adjusted rows, from the rows assembled without adjustment: they are the equations of the boundary value problem, and dominant -/
theorem bvp_core {m s1 s2u s2 s3 : Mem T} {tab a fA uA : Arr} {G U X Y : List Int → T} (hP : Problem s2u box n tab a fA uA O S G U)
    (o1 : Only [a] m s2u) (o3 : Only [a] m s3) (hok : ArrOK s3 a) (hap : Apart a fA ∧ Apart a uA)
    (D1 : Diagonal s1 s2u a (n - 1) (InBounds box) k) (D3 : Diagonal s2 s3 a (n - 1) (InBounds box) k)
    (hv : ∀ c e, InBounds a.dims (e :: c) → rd s2 a (e :: c) = factor ps c e * rd s1 a (e :: c))
    (hO : ∀ p, InBounds box p → shift p (O 0) = p) (hX : ∀ p, InBounds box p → Eqn n O S G X p)
    (hs : ∀ c, InBounds box c → ∀ e, 1 ≤ e → e ≤ n - 1 → S (e :: c) ≤ 0) (hk : ∀ c, InBounds box c → 0 < k c)
    (hq : ∀ c, InBounds box c → (1 - q) * (2 * -sum 1 (n - 1) (fun e => S (e :: c)) + k c) ≤ k c)
    (hd : Disjoint ps) (hF : Fulfils box n O ps U X)
    (hc : ∀ k ∈ ps, First k.btype k.order ∧ 0 < k.width ∧ ∀ c, k.cells c → InBounds box c ∧ ¬ InBounds box (shift c (O k.ghost)) ∧ 0 ≤ k.coef c)
    (hY : ∀ p, InBounds box p → Y p = X p) (hD : ∀ p, ¬ InBounds box p → Y p = U p) :
    Problem s3 box n tab a fA uA O (rd s3 a) G U ∧ Dominant box n O q (fun _ => 1) (rd s3 a) ∧ ∀ p, InBounds box p → Eqn n O (rd s3 a) G Y p := by
  have back : Only [a] s2u m := ⟨fun q hq => (o1.val q hq).symm, o1.ints.symm⟩
  have o := back.trans o3
  have rS : ∀ c, InBounds box c → ∀ e, 0 ≤ e → e ≤ n - 1 → rd s2u a (e :: c) = S (e :: c) := fun c hc e h0 h1 =>
    (hP.holdsSt _ (hP.inSt c hc e h0 (by omega))).rd
  have e2 : ∀ c, InBounds box c → ∀ e, 1 ≤ e → e ≤ n - 1 → rd s1 a (e :: c) = S (e :: c) := fun c hc e h0 h1 => by
    rw [← rS c hc e (by omega) h1, D1.other c hc e h0 h1]
  have hS : ∀ c, InBounds box c → S (0 :: c) = -sum 1 (n - 1) (fun e => S (e :: c)) + k c := fun c hc => by
    rw [← rS c hc 0 le_rfl (by have := hP.size; omega), D1.zero c hc, sum_congr fun e h0 h1 => e2 c hc e h0 h1]
  have hf : ∀ c, InBounds box c → ∀ e, 1 ≤ e → e ≤ n - 1 → rd s3 a (e :: c) = factor ps c e * S (e :: c) := fun c hc e h0 h1 => by
    rw [D3.other c hc e h0 h1, hv c e (hP.inSt c hc e (by omega) (by omega)), e2 c hc e h0 h1]
  have hS' : ∀ c, InBounds box c → rd s3 a (0 :: c) = -sum 1 (n - 1) (fun e => rd s3 a (e :: c)) + k c := fun c hc => by
    rw [D3.zero c hc, sum_congr fun e h0 h1 => (D3.other c hc e h0 h1).symm]
  refine ⟨?_, ?_, fun p hp => ?_⟩
  · exact { hP with
      table := fun s h0 h1 => ⟨(hP.table s h0 h1).1, fun c z hz => ⟨((hP.table s h0 h1).2 c z hz).1, by rw [o.ints]; exact ((hP.table s h0 h1).2 c z hz).2⟩⟩
      holdsSt := fun is hi => hok.rd hi
      holdsF := hP.holdsF.only o (by simp only [List.mem_singleton, forall_eq]; exact hap.1)
      holdsU := hP.holdsU.only o (by simp only [List.mem_singleton, forall_eq]; exact hap.2) }
  · exact bv_dom hS' hf (fun c hc' e => factor_bounds hd fun k hk hkc =>
      facU_bounds (hc k hk).1 (hc k hk).2.1 ((hc k hk).2.2 c hkc).2.2) hs hk hq
  · refine (bv_eqn hP.size hO hS hS' hf hd hF (fun k hk => ⟨(hc k hk).1, fun c hkc => ?_⟩) hY hD hp).2 (hX p hp)
    obtain ⟨c1, c2, c3⟩ := (hc k hk).2.2 c hkc
    exact ⟨c1, c2, fun _ => by have := (hc k hk).2.1; linarith⟩

end F

section Out
variable {T : Type} [Field T]

theorem piece_out1 {i0 i1 : Int} {s : F.Side1} {dx : Nat → T} {B0 : List Int → T} {c : List Int} (hll : Layer1 i0 i1 0 s.i0 s.i1 s.side) (hoo : s.Outside i0 i1) (hc : (s.piece dx B0).cells c) :
    ¬ F.InBounds [(i0, i1)] (F.shift c (F.row F.points1 (s.piece dx B0).ghost)) := by
  obtain hsd := hll.hside
  unfold F.Side1.Outside at hoo
  obtain rfl : c = [s.i0 - 2 * s.side + 1] := hc
  rcases hsd with e | e
  · show ¬ F.InBounds _ (F.shift _ (F.row F.points1 (1 + s.side)))
    rw [e] at hoo ⊢
    rw [show (1 : Int) + 0 = 1 from rfl, F.shift1_1, F.inBounds1]
    rintro ⟨i, hi', hb1⟩
    simp at hi' hoo
    omega
  · show ¬ F.InBounds _ (F.shift _ (F.row F.points1 (1 + s.side)))
    rw [e] at hoo ⊢
    rw [show (1 : Int) + 1 = 2 from rfl, F.shift1_2, F.inBounds1]
    rintro ⟨i, hi', hb1⟩
    simp at hi' hoo
    omega

theorem piece_out2 {i0 j0 i1 j1 : Int} {s : F.Side2} {dx : Nat → T} {B0 B1 : List Int → T} {c : List Int} (hll : Layer2 i0 j0 i1 j1 0 s.i0 s.j0 s.i1 s.j1 s.dir s.side) (hoo : s.Outside i0 j0 i1 j1) (hc : (s.piece dx B0 B1).cells c) :
    ¬ F.InBounds [(i0, i1), (j0, j1)] (F.shift c (F.row F.points2 (s.piece dx B0 B1).ghost)) := by
  obtain hsd := hll.hside
  unfold F.Side2.Outside at hoo
  obtain ⟨i, j, rfl, hc⟩ := hc
  show ¬ F.InBounds _ (F.shift _ (F.row F.points2 (2 * s.dir + 1 + s.side)))
  have hdd : s.dir = 0 ∨ s.dir = 1 := by have := hll.hdir; omega
  rcases hdd with e' | e' <;> rcases hsd with e | e <;> rw [e, e'] at hoo ⊢ <;> rw [e'] at hc <;> simp at hoo hc
  · rw [show (2 : Int) * 0 + 1 + 0 = 1 from rfl, F.shift2_1, F.inBounds2]
    rintro ⟨i', j', hi', hb1⟩
    simp at hi'
    omega
  · rw [show (2 : Int) * 0 + 1 + 1 = 2 from rfl, F.shift2_2, F.inBounds2]
    rintro ⟨i', j', hi', hb1⟩
    simp at hi'
    omega
  · rw [show (2 : Int) * 1 + 1 + 0 = 3 from rfl, F.shift2_3, F.inBounds2]
    rintro ⟨i', j', hi', hb1⟩
    simp at hi'
    omega
  · rw [show (2 : Int) * 1 + 1 + 1 = 4 from rfl, F.shift2_4, F.inBounds2]
    rintro ⟨i', j', hi', hb1⟩
    simp at hi'
    omega

theorem piece_out3 {i0 j0 k0 i1 j1 k1 : Int} {s : F.Side3} {dx : Nat → T} {B0 B1 B2 : List Int → T} {c : List Int} (hll : Layer3 i0 j0 k0 i1 j1 k1 0 s.i0 s.j0 s.k0 s.i1 s.j1 s.k1 s.dir s.side) (hoo : s.Outside i0 j0 k0 i1 j1 k1) (hc : (s.piece dx B0 B1 B2).cells c) :
    ¬ F.InBounds [(i0, i1), (j0, j1), (k0, k1)] (F.shift c (F.row F.points3 (s.piece dx B0 B1 B2).ghost)) := by
  obtain hsd := hll.hside
  unfold F.Side3.Outside at hoo
  obtain ⟨i, j, k, rfl, hc⟩ := hc
  show ¬ F.InBounds _ (F.shift _ (F.row F.points3 (2 * s.dir + 1 + s.side)))
  have hdd : s.dir = 0 ∨ s.dir = 1 ∨ s.dir = 2 := by have := hll.hdir; omega
  rcases hdd with e' | e' | e' <;> rcases hsd with e | e <;> rw [e, e'] at hoo ⊢ <;> rw [e'] at hc <;> simp at hoo hc
  · rw [show (2 : Int) * 0 + 1 + 0 = 1 from rfl, F.shift3_1, F.inBounds3]
    rintro ⟨i', j', k', hi', hb1⟩
    simp at hi'
    omega
  · rw [show (2 : Int) * 0 + 1 + 1 = 2 from rfl, F.shift3_2, F.inBounds3]
    rintro ⟨i', j', k', hi', hb1⟩
    simp at hi'
    omega
  · rw [show (2 : Int) * 1 + 1 + 0 = 3 from rfl, F.shift3_3, F.inBounds3]
    rintro ⟨i', j', k', hi', hb1⟩
    simp at hi'
    omega
  · rw [show (2 : Int) * 1 + 1 + 1 = 4 from rfl, F.shift3_4, F.inBounds3]
    rintro ⟨i', j', k', hi', hb1⟩
    simp at hi'
    omega
  · rw [show (2 : Int) * 2 + 1 + 0 = 5 from rfl, F.shift3_5, F.inBounds3]
    rintro ⟨i', j', k', hi', hb1⟩
    simp at hi'
    omega
  · rw [show (2 : Int) * 2 + 1 + 1 = 6 from rfl, F.shift3_6, F.inBounds3]
    rintro ⟨i', j', k', hi', hb1⟩
    simp at hi'
    omega

end Out
end Verif
