import Verif.Props.DotDriver

/-
When a vector left by any function agrees with the one the kernel of src/cuda/dot_offset_test.cpp leaves.
-/

namespace Verif

open Spec Test

variable {T : Type}

theorem colMajor_onto : ∀ {ds : List (Int × Int)} {q : Int}, (∀ d ∈ ds, d.1 ≤ d.2) → 0 ≤ q → q < (ds.map fun d => d.2 - d.1 + 1).prod → ∃ is, F.InBounds ds is ∧ F.colMajor ds is = q
  | [], q, _, h0, h1 => ⟨[], trivial, by simp at h1; simp [F.colMajor]; omega⟩
  | (l, u) :: ds, q, hd, h0, h1 => by
    have hlu : l ≤ u := hd _ (List.mem_cons_self ..)
    have hn : 0 < u - l + 1 := by omega
    rw [List.map_cons, List.prod_cons] at h1
    have hq := Int.ediv_lt_of_lt_mul hn (by rw [mul_comm] at h1; exact h1)
    obtain ⟨is, b, e⟩ := colMajor_onto (ds := ds) (q := q / (u - l + 1)) (fun d h => hd d (List.mem_cons_of_mem _ h)) (Int.ediv_nonneg h0 hn.le) hq
    have m0 := Int.emod_nonneg q hn.ne'
    have m1 := Int.emod_lt_of_pos q hn
    refine ⟨(q % (u - l + 1) + l) :: is, ⟨⟨by omega, by omega⟩, b⟩, ?_⟩
    simp only [F.colMajor, e]
    have := Int.emod_add_mul_ediv q (u - l + 1)
    omega

/-- a function that leaves vectors 0 and 1 as they are and keeps what is allocated -/
structure LeavesInputs (m m' : Mem T) : Prop where
  keeps : ∀ q : Ptr, q.blk ≠ 2 → m'.val q = m.val q
  there : ∀ (q : Ptr) (v : T), m.val q = some v → ∃ w, m'.val q = some w

namespace Test

theorem holds_fill {vs : List (DevVec T)} {k : Nat} {v : DevVec T} {xs : Nat → T} {dims : List (Int × Int)} (hk : vs[k]? = some (v.fill xs))
    (hv : Ready v (dims.map fun d => d.2 - d.1 + 1).prod) : F.Holds (devMem vs) ⟨at_ k, dims⟩ fun p => xs (F.colMajor dims p).toNat := fun is hi => by
  refine ⟨hi, ?_⟩
  obtain ⟨c0, c1⟩ := Verif.colMajor_range hi
  have hl := hv.len
  dsimp only at c0 c1
  have e : (at_ k).add (F.colMajor dims is) = ⟨k, ((F.colMajor dims is).toNat : Int)⟩ := by
    simp only [at_, Ptr.add, zero_add]
    rw [Int.toNat_of_nonneg c0]
  show (devMem vs).val ((at_ k).add (F.colMajor dims is)) = _
  rw [e, devMem_val hk]
  simp only [DevVec.fill, List.getElem?_mapIdx]
  rw [hv.same, List.getElem?_eq_getElem (by omega)]
  rfl

theorem holds_zero [Zero T] {vs : List (DevVec T)} {k : Nat} {v : DevVec T} {dims : List (Int × Int)} (hk : vs[k]? = some v)
    (hv : Ready v (dims.map fun d => d.2 - d.1 + 1).prod) (hz : ∀ x ∈ v.d, x = 0) : F.Holds (devMem vs) ⟨at_ k, dims⟩ fun _ => 0 := fun is hi => by
  refine ⟨hi, ?_⟩
  obtain ⟨c0, c1⟩ := Verif.colMajor_range hi
  have hl := hv.len
  dsimp only at c0 c1
  have e : (at_ k).add (F.colMajor dims is) = ⟨k, ((F.colMajor dims is).toNat : Int)⟩ := by
    simp only [at_, Ptr.add, zero_add]
    rw [Int.toNat_of_nonneg c0]
  show (devMem vs).val ((at_ k).add (F.colMajor dims is)) = _
  rw [e, devMem_val hk, List.getElem?_eq_getElem (by omega), hz _ (List.getElem_mem _)]

/-- the vector a function leaves is the one the kernel leaves exactly if it has the sums in the box and zeros around it -/
theorem judge [Zero T] {s u r : DevVec T} {t : List Int} {dims : List (Int × Int)} {P : List Int → Prop} {f g : List Int → T} {m' mK : Mem T} (R : Ran3 s u r dims P f m')
    (hr : Ready r (dims.map fun d => d.2 - d.1 + 1).prod) (hd : ∀ d ∈ dims, d.1 ≤ d.2) (hg : ∀ is, P is → g is = f is)
    (hg0 : ∀ is, F.InBounds dims is → ¬ P is → g is = 0) (hK : LeavesInputs (tabled 3 t (devMem [s, u, r])) mK) :
    newBlock mK 2 r.d = newBlock m' 2 r.d ↔ ∀ is, F.InBounds dims is → F.El mK ⟨Test.at_ 2, dims⟩ is (g is) := by
  have hl := hr.len
  have al : ∀ q : Nat, q < r.d.length → ∃ x, mK.val ⟨2, (q : Int)⟩ = some x := fun q hq => by
    refine hK.there ⟨2, (q : Int)⟩ r.d[q] ?_
    show (devMem [s, u, r]).val ⟨2, (q : Int)⟩ = _
    rw [devMem_val (v := r) rfl, List.getElem?_eq_getElem hq]
  have ref : ∀ is, F.InBounds dims is → (newBlock m' 2 r.d)[(F.colMajor dims is).toNat]? = some (g is) := fun is hi => by
    obtain ⟨c0, c1⟩ := Verif.colMajor_range hi
    by_cases h : P is
    · rw [R.at_ is h, hg is h]
    · rw [hg0 is hi h]
      refine R.rest _ (by rw [hr.same]; omega) fun js hj hb e => h ?_
      rw [Int.toNat_of_nonneg c0] at e
      rw [F.colMajor_inj hi hb e]
      exact hj
  have got : ∀ is, F.InBounds dims is → (newBlock mK 2 r.d)[(F.colMajor dims is).toNat]? = mK.val ((Test.at_ 2).add (F.colMajor dims is)) := fun is hi => by
    obtain ⟨c0, c1⟩ := Verif.colMajor_range hi
    rw [newBlock_get al _ (by omega)]
    simp only [Test.at_, Ptr.add, zero_add]
    rw [Int.toNat_of_nonneg c0]
  constructor
  · intro e is hi
    exact ⟨hi, by rw [← got is hi, e, ref is hi]⟩
  · intro h
    refine List.ext_getElem? fun q => ?_
    by_cases hq : q < r.d.length
    · obtain ⟨is, hi, e⟩ := colMajor_onto (ds := dims) (q := (q : Int)) hd (by omega) (by omega)
      have e' : q = (F.colMajor dims is).toNat := by omega
      rw [e', ref is hi, got is hi]
      exact (h is hi).2
    · rw [List.getElem?_eq_none (by rw [newBlock_length]; omega), List.getElem?_eq_none (by rw [newBlock_length]; omega)]

theorem foldl_range [AddCommMonoid T] {n : Nat} {t : Int → T} (a : T) : (F.irange 0 ((n : Int) - 1)).foldl (fun r s => r + t s) a = a + ((List.range n).map fun s : Nat => t s).sum := by
  unfold F.irange
  rw [show ((n : Int) - 1 - 0 + 1).toNat = n by omega, List.foldl_map]
  induction n with
  | zero => simp
  | succ n ih =>
    rw [List.range_succ, List.foldl_append, ih, List.map_append, List.sum_append]
    simp [add_assoc]

end Test
end Verif
