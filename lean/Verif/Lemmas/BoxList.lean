import Verif.Lemmas.Box
import Mathlib.Data.List.Range

namespace Verif
open Spec

theorem mem_ints {s x : Int} : x ∈ ints s ↔ 0 ≤ x ∧ x < s := by
  unfold ints
  simp only [List.mem_map, List.mem_range]
  constructor
  · rintro ⟨a, ha, rfl⟩; exact ⟨Int.natCast_nonneg a, by have : Int.ofNat a = (a : Int) := rfl; omega⟩
  · rintro ⟨h0, h1⟩; exact ⟨x.toNat, by omega, by have : Int.ofNat x.toNat = (x.toNat : Int) := rfl; omega⟩

theorem ints_length (s : Int) : (ints s).length = s.toNat := by simp [ints]

theorem ints_nodup (s : Int) : (ints s).Nodup :=
  List.Nodup.map (fun _ _ h => Int.ofNat.inj h) List.nodup_range

theorem range_mul (a b : Nat) : List.range (a * b) = (List.range a).flatMap fun i => (List.range b).map (i * b + ·) := by
  induction a with
  | zero => simp
  | succ a ih => rw [Nat.succ_mul, List.range_add, ih, List.range_succ, List.flatMap_append]; simp

theorem ints_mul {a b : Int} (ha : 0 ≤ a) (hb : 0 ≤ b) :
    ints (a * b) = (ints a).flatMap fun i => (ints b).map (i * b + ·) := by
  obtain ⟨a, rfl⟩ := Int.eq_ofNat_of_zero_le ha
  obtain ⟨b, rfl⟩ := Int.eq_ofNat_of_zero_le hb
  unfold ints
  have : ((a : Int) * (b : Int)).toNat = a * b := by rw [← Int.natCast_mul, Int.toNat_natCast]
  rw [this, range_mul, List.map_flatMap, List.flatMap_map]
  simp only [Int.toNat_natCast, List.map_map]
  congr 1

theorem boxList_eq : ∀ {n : List Int}, Pos n → boxList n = (ints n.prod).map (coords n)
  | [], _ => rfl
  | s :: ss, h => by
    have hs := h.head
    have hP := h.tail.prod_pos
    rw [List.prod_cons, ints_mul (by omega) (by omega), List.map_flatMap]
    simp only [boxList]
    refine List.flatMap_congr fun i hi => ?_
    rw [boxList_eq h.tail, List.map_map, List.map_map]
    refine List.map_congr_left fun x hx => ?_
    obtain ⟨x0, x1⟩ := mem_ints.1 hx
    simp only [Function.comp, coords]
    have e : i * ss.prod + x = x + ss.prod * i := by ring
    rw [e, Int.add_mul_ediv_left _ _ (by omega), Int.ediv_eq_zero_of_lt x0 x1, Int.add_mul_emod_self_left,
      Int.emod_eq_of_lt x0 x1, zero_add]

theorem mem_boxList : ∀ {n c : List Int}, c ∈ boxList n ↔ InBox n c
  | [], c => by cases c <;> simp [boxList, InBox]
  | s :: ss, c => by
    cases c with
    | nil => simp [boxList, InBox]
    | cons c cs => simp [boxList, InBox, mem_boxList, mem_ints]

theorem boxList_nodup : ∀ {n : List Int}, (boxList n).Nodup
  | [] => by simp [boxList]
  | s :: ss => by
    rw [boxList, List.nodup_flatMap]
    refine ⟨fun i _ => (boxList_nodup (n := ss)).map (fun _ _ h => (List.cons.inj h).2), ?_⟩
    refine List.Pairwise.imp ?_ (ints_nodup s)
    intro a b hab x hxa hxb
    simp only [List.mem_map] at hxa hxb
    obtain ⟨_, _, rfl⟩ := hxa
    obtain ⟨_, _, h⟩ := hxb
    exact hab (List.cons.inj h).1.symm

end Verif
