import Verif.Lemmas.FsTest
import Verif.Props.IterTest
import Verif.Props.Assign

/-
C98: the assertions in the test of the forward stencil iterator.
-/

namespace Verif
open Spec

variable {T : Type}

theorem fs_dist {s t : FS Ptr} {d : Int} (h : s.distanceToLast - t.distanceToLast = d) (hd : InDiff d) : s.distTo t = .ok d := by
  rw [FS.distTo, dsub_ok (by rwa [h]), h]

theorem check_self {α : Type} [BEq α] [ReflBEq α] {a : α} : check (a == a) = .ok () := by simp [check]

/-- `init` passes all its assertions and leaves the memory as it was, if there are at least two pairs and, off the first direction, the
block length is at least two and neither it nor the one below equals the number of pairs. -/
theorem C98_init_partial {dims : List Int} {i : Nat} {v : Ptr} {b : Nat} {m : Mem T} (hp : Pos dims) (hN : dims.prod ≤ 2147483647)
    (hi : i < dims.length) (h2 : 2 ≤ dims.getD i 0) (hv : Cells m v dims.prod) (hb : Unused m b) (hsz : 2 ≤ (shorten dims i).prod)
    (hr : i ≠ 0 → 3 ≤ (dims.drop i).prod ∧ (dims.drop i).prod - 1 ≠ (shorten dims i).prod ∧ (dims.drop i).prod - 2 ≠ (shorten dims i).prod) :
    Cuda.fsInit dims i v b m = .ok m := by
  have hs := shorten_pos hp h2
  have hw := weight_pos hp i
  have hd : (dims.drop i).prod = dims.getD i 0 * weight dims i := by
    have : dims.drop i = dims.getD i 0 :: dims.drop (i + 1) := by
      rw [List.drop_eq_getElem_cons hi]; simp [List.getD_eq_getElem?_getD, hi]
    rw [this, List.prod_cons]; rfl
  have hle : (shorten dims i).prod ≤ dims.prod := by
    rw [shorten_prod hi, prod_split hi]
    have := (MT.Pos.take hp i).prod_pos
    have : (dims.getD i 0 - 1) * weight dims i ≤ dims.getD i 0 * weight dims i := by nlinarith
    nlinarith
  have hdle := drop_prod_le i hp
  have hdl : 2 ≤ (dims.drop i).prod := by rw [hd]; nlinarith
  have hwle := drop_prod_le (i + 1) hp
  have hw' : (dims.drop (i + 1)).prod = weight dims i := rfl
  set S := weight dims i
  set L := (dims.drop i).prod - 1
  set N := (shorten dims i).prod
  have sm : ∀ p, 0 ≤ p → p ≤ 2147483648 → Small S L N p := fun p h0 h1 => ⟨by omega, by omega, by omega, h0, h1⟩
  obtain ⟨m1, e1, i1, c1, f1⟩ := fromHost_ok (b := b) hv
  have k1 : strideDim dims 0 = .ok dims.prod := by rw [strideDim_ok 0 hp hN, List.drop_zero]
  have k2 : strideDim dims i = .ok (dims.drop i).prod := strideDim_ok i hp hN
  have k3 : isub (dims.drop i).prod 1 = .ok L := isub_ok (by unfold InInt; omega)
  have k4 : strideDim dims (i + 1) = .ok S := strideDim_ok (i + 1) hp hN
  have k5 : shrink dims i = .ok (shorten dims i) := shrink_ok hp hN
  have k6 : prodLoop 1 (shorten dims i) = .ok N := by rw [prodLoop_ok (by omega) hs (by omega), one_mul]
  have k7 : FS.make (⟨b, 0⟩ : Ptr) S L N = fsAt ⟨b, 0⟩ S L N 0 := by simp [FS.make, fsAt, Ptr.add]
  have dist : ∀ p q, 0 ≤ p → p ≤ 2147483648 → 0 ≤ q → q ≤ 2147483648 → (fsAt ⟨b, 0⟩ S L N p).distTo (fsAt ⟨b, 0⟩ S L N q) = .ok (q - p) :=
    fun p q _ _ _ _ => fs_dist (by simp only [fsAt]; omega) (by unfold InDiff; omega)
  have jump : ∀ p d, 0 ≤ p → 0 ≤ d → p + d ≤ 2147483648 → p + d ≠ N → (fsAt ⟨b, 0⟩ S L N p).adv d = .ok (fsAt ⟨b, 0⟩ S L N (p + d)) := by
    intro p d h0 h1 h3 h4
    obtain ⟨r, g1, -, g3⟩ := fsAt_adv (b := ⟨b, 0⟩) (sm p h0 (by omega)) (sm (p + d) (by omega) h3) h1
    rw [g1, g3 h4]
  have last : m1.free b = m := by
    have e : (m1.free b).val = m.val := funext fun q => Mem.free_unused hb fun hq => f1 q hq
    have e' : (m1.free b).ints = m.ints := i1
    cases h : m1.free b; cases m
    rw [h] at e e'
    cases e; cases e'; rfl
  have a1 := jump 0 1 (by omega) (by omega) (by omega) (by omega)
  have a2 := fsAt_dec (b := ⟨b, 0⟩) (sm 0 (by omega) (by omega))
  have a3 := fsAt_inc (b := ⟨b, 0⟩) (sm 0 (by omega) (by omega)) (by omega)
  have a4 := jump 0 (N - 1) (by omega) (by omega) (by omega) (by omega)
  obtain ⟨r, a5, a6⟩ := fsAt_inc_end (b := ⟨b, 0⟩) (sm (N - 1) (by omega) (by omega)) (by omega)
  obtain ⟨t, a7, a8, -⟩ := fsAt_adv (b := ⟨b, 0⟩) (sm 0 (by omega) (by omega)) (sm (0 + N) (by omega) (by omega)) (by omega)
  have loop : ∀ l : List Nat, (∀ k ∈ l, (k : Int) < N) → ∃ xs, (l.mapM fun (k : Nat) => do
      let t ← (fsAt ⟨b, 0⟩ S L N 0).adv k
      check ((← (fsAt ⟨b, 0⟩ S L N 0).distTo t) == k)) = .ok xs := by
    intro l
    induction l with
    | nil => exact fun _ => ⟨[], rfl⟩
    | cons a l ih =>
      intro h
      obtain ⟨xs, e⟩ := ih fun k hk => h k (List.mem_cons_of_mem _ hk)
      have ha := h a List.mem_cons_self
      refine ⟨() :: xs, ?_⟩
      rw [List.mapM_cons, e]
      simp only [jump 0 a (by omega) (by omega) (by omega) (by omega), dist 0 a (by omega) (by omega) (by omega) (by omega), zero_add, sub_zero, M.ok_bind, check_self]
      rfl
  obtain ⟨xs, e2⟩ := loop (List.range N.toNat) fun k hk => by have := List.mem_range.1 hk; omega
  have d1 : (fsAt ⟨b, 0⟩ S L N 0).distTo r = .ok N := fs_dist (by rw [a6]; simp [fsAt]) (by unfold InDiff; omega)
  have d2 : (fsAt ⟨b, 0⟩ S L N 0).distTo t = .ok N := fs_dist (by rw [a8]; simp [fsAt]) (by unfold InDiff; omega)
  rw [zero_add] at a1 a2 a3 a4
  simp only [Cuda.fsInit, k1, k2, k3, k4, k5, k6, k7, e1, M.ok_bind, a1, a2, a3, a4, a5, a7, e2, d1, d2, dist 0 1 (by omega) (by omega) (by omega) (by omega),
    dist 0 0 (by omega) (by omega) (by omega) (by omega), dist 0 (N - 1) (by omega) (by omega) (by omega) (by omega), sub_zero, check_self]
  by_cases h0 : i = 0
  · simp [h0, last]
  · obtain ⟨r1, r2, r3⟩ := hr h0
    have b1 := jump 0 L (by omega) (by omega) (by omega) (by omega)
    have b2 := fsAt_back (b := ⟨b, 0⟩) (sm (L - 1) (by omega) (by omega)) (by omega) (by omega)
    have b3 := fsAt_inc (b := ⟨b, 0⟩) (sm (L - 1) (by omega) (by omega)) (by omega)
    have b4 := fsAt_dec (b := ⟨b, 0⟩) (sm (L - 1) (by omega) (by omega))
    have b5 := jump (L - 1) 1 (by omega) (by omega) (by omega) (by omega)
    rw [zero_add] at b1
    rw [show L - 1 + 1 = L by omega] at b2 b3 b4 b5
    obtain ⟨w, b6, b7⟩ : ∃ w, (fsAt ⟨b, 0⟩ S L N L).inc = .ok w ∧ w.distanceToLast = N - (L + 1) := by
      by_cases hL : L + 1 = N
      · obtain ⟨w, g1, g2⟩ := fsAt_inc_end (b := ⟨b, 0⟩) (sm L (by omega) (by omega)) hL
        exact ⟨w, g1, by omega⟩
      · exact ⟨_, fsAt_inc (b := ⟨b, 0⟩) (sm L (by omega) (by omega)) hL, rfl⟩
    have d3 : (fsAt ⟨b, 0⟩ S L N 0).distTo w = .ok (L + 1) := fs_dist (by rw [b7]; simp only [fsAt]; omega) (by unfold InDiff; omega)
    have d4 : w.distTo (fsAt ⟨b, 0⟩ S L N 0) = .ok (-L - 1) := fs_dist (by rw [b7]; simp only [fsAt]; omega) (by unfold InDiff; omega)
    have d5 := dist (L - 1) 0 (by omega) (by omega) (by omega) (by omega)
    have d6 := dist L 0 (by omega) (by omega) (by omega) (by omega)
    rw [show 0 - (L - 1) = 1 - L by omega] at d5
    rw [zero_sub] at d6
    simp only [bne_iff_ne, ne_eq, h0, not_false_eq_true, ↓reduceIte, b1, b2, b3, b4, b5, b6, M.ok_bind, d3, d4, d5, d6, dist 0 L (by omega) (by omega) (by omega) (by omega),
      dist 0 (L - 1) (by omega) (by omega) (by omega) (by omega), sub_zero, check_self, last]

/-- block 0 holds 0, 1, 2, ..., 29 -/
def exThirty : Mem Int := ⟨fun q => if q.blk = 0 ∧ 0 ≤ q.off ∧ q.off < 30 then some q.off else none, fun _ => none⟩

theorem exThirty_cells {n : Int} (h : n ≤ 30) : Cells exThirty ⟨0, 0⟩ n := by
  intro k h0 h1
  simp only [exThirty, Ptr.add, zero_add]
  rw [if_pos ⟨trivial, h0, by omega⟩]
  exact ⟨_, rfl⟩

theorem exThirty_unused {b : Nat} (h : b ≠ 0) : Unused exThirty b := by
  intro k
  simp [exThirty, h]

example : Cuda.fsInit [2, 3, 4] 1 ⟨0, 0⟩ 1 exThirty = .ok exThirty :=
  C98_init_partial (by unfold Pos; decide) (by decide) (by decide) (by decide) (exThirty_cells (by decide)) (exThirty_unused (by decide)) (by decide) (by decide)

/-- differences along the middle one of three dimensions: neighbours are 4 apart -/
example : ∃ m', Cuda.fsTransform [2, 3, 4] 1 ⟨0, 0⟩ ⟨0, 0⟩ 1 2 revBackend exThirty = .ok m' ∧ m'.val ⟨0, 9⟩ = some 4 := by
  obtain ⟨m', h1, h2, -⟩ := C98_transform revBackend_ok (dims := [2, 3, 4]) (i := 1) (v := ⟨0, 0⟩) (u := ⟨0, 0⟩) (bx := 1) (bY := 2) (m := exThirty)
    (by unfold Pos; decide) (by decide) (by decide) (by decide) (exThirty_cells (by decide)) (exThirty_cells (by decide)) (by decide)
    (exThirty_unused (by decide)) (exThirty_unused (by decide))
  exact ⟨m', h1, h2 [1, 0, 1] 13 17 (by simp [InBox, shorten]) (by decide) (by decide)⟩

/-- An assertion of `init` fails for some arrays with at least two pairs: with two elements along the last dimension, because a jump back over
a block of one lands elsewhere; and with a single row, because the jump to the end differs from the step to the end. -/
theorem C98_init_false : (Pos [3, 2] ∧ 2 ≤ (shorten [3, 2] 1).prod ∧ Cuda.fsInit [3, 2] 1 ⟨0, 0⟩ 1 exThirty = .error .illFormed) ∧
    Pos [1, 5] ∧ 2 ≤ (shorten [1, 5] 1).prod ∧ Cuda.fsInit [1, 5] 1 ⟨0, 0⟩ 1 exThirty = .error .illFormed :=
  ⟨⟨by unfold Pos; decide, by decide, by rfl⟩, by unfold Pos; decide, by decide, by rfl⟩

end Verif
