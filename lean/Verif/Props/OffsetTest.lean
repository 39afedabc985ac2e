import Verif.Props.SubTest
import Verif.Lemmas.Moves

/-
C101: the offset iterator and its test kernel.
-/

namespace Verif
open Spec

variable {T : Type}

/-- table of `n` offsets at `o`: offset `i` are the coordinates `off i`, inside the array -/
def OffTable (m : Mem T) (o : Ptr) (dims : List Int) (n : Nat) (off : Nat → List Int) : Prop :=
  ∀ i, i < n → InBox dims (off i) ∧ ∀ j, j < dims.length → m.ints (o.add (i * dims.length + j)) = some ((off i).getD j 0)

/-- `stride_from_size`: the strides are the products of the extents to the right -/
theorem strideFromSize_ok : ∀ {dims : List Int}, dims ≠ [] → Pos dims → dims.prod ≤ 2147483647 →
    strideFromSize dims = .ok ((List.range dims.length).map fun i => weight dims i)
  | [], h, _, _ => (h rfl).elim
  | [s], _, _, _ => by simp [strideFromSize, weight]
  | s :: t :: rest, _, hp, hN => by
    have h1 := hp.head
    have h2 := hp.tail.prod_pos
    have h3 : (t :: rest).prod ≤ 2147483647 := by rw [List.prod_cons] at hN; nlinarith
    have h4 := hp.tail.head
    have h5 := hp.tail.tail.prod_pos
    rw [strideFromSize, strideFromSize_ok (List.cons_ne_nil _ _) hp.tail h3, M.ok_bind]
    have e : ((List.range (t :: rest).length).map fun i => weight (t :: rest) i).headD 1 = rest.prod := by
      simp [List.range_succ_eq_map, weight]
    rw [e, imul_ok (by unfold InInt; rw [List.prod_cons] at h3; constructor <;> nlinarith), M.ok_bind]
    congr 1
    rw [List.length_cons (a := s), List.range_succ_eq_map, List.map_cons, List.map_map]
    congr 1
    simp [weight, mul_comm]

theorem offLoop_rowMajor {m : Mem T} {o : Ptr} {base : Int} : ∀ {dims c : List Int} {j acc : Int}, Pos dims → dims.prod ≤ 2147483647 → InBox dims c →
    (∀ t : Nat, t < dims.length → InInt (base + (j + t)) ∧ m.ints (o.add (base + (j + t))) = some (c.getD t 0)) → 0 ≤ acc → acc + dims.prod ≤ 9223372036854775807 →
    offLoopI m o base j ((List.range dims.length).map fun i => weight dims i) acc = .ok (acc + rowMajor dims c)
  | [], [], j, acc, _, _, _, _, _, _ => by simp [offLoopI, rowMajor]
  | s :: ss, x :: xs, j, acc, hp, hN, hc, h, h0, h1 => by
    have p1 := hp.head
    have p2 := hp.tail.prod_pos
    rw [List.prod_cons] at hN h1
    obtain ⟨⟨c0, c1⟩, hcs⟩ := hc
    have hs : ss.prod ≤ s * ss.prod := by nlinarith
    have hx : x * ss.prod + ss.prod ≤ s * ss.prod := by nlinarith
    have hx0 : 0 ≤ x * ss.prod := by nlinarith
    obtain ⟨i1, i2⟩ := h 0 (by simp)
    simp only [Nat.cast_zero, add_zero] at i1 i2
    rw [List.length_cons, List.range_succ_eq_map, List.map_cons, List.map_map, offLoopI, iadd_ok i1, M.ok_bind]
    have e0 : weight (s :: ss) 0 = ss.prod := rfl
    simp only [Mem.loadInt, i2, M.ok_bind, e0]
    rw [show (x :: xs).getD 0 0 = x from rfl, imul_ok (by unfold InInt; rw [mul_comm]; omega), M.ok_bind, mul_comm, dadd_ok (by unfold InDiff; omega), M.ok_bind]
    have := offLoop_rowMajor (m := m) (o := o) (base := base) (dims := ss) (c := xs) (j := j + 1) (acc := acc + x * ss.prod) hp.tail (by omega) hcs
      (fun t ht => by
        have := h (t + 1) (by simpa using ht)
        push_cast at this
        rw [show base + (j + 1 + (t : Int)) = base + (j + ((t : Int) + 1)) by omega]
        simpa using this) (by omega) (by omega)
    rw [show ((fun i => weight (s :: ss) i) ∘ Nat.succ) = fun i => weight ss i from rfl, this, rowMajor]
    congr 1
    ring

/-- the iterator after `k` steps -/
def OffIt.at_ (a : OffIt) (k : Int) : OffIt := { a with idx := a.idx + k }

theorem OffIt.walk {a : OffIt} {n : Int} (h0 : -2147483648 ≤ a.idx) (h1 : a.idx + n ≤ 2147483647) : RAWalk n a.at_ := by
  refine ⟨fun {k} k0 k1 => ?_, fun {k} k0 k1 => ?_, fun {k d} k0 k1 k2 k3 => ?_⟩
  · show (a.at_ k).inc = _
    simp only [OffIt.inc, OffIt.at_]
    rw [iadd_ok (by unfold InInt; omega), M.ok_bind, add_assoc]
  · show (a.at_ (k + 1)).dec = _
    simp only [OffIt.dec, OffIt.at_]
    rw [isub_ok (by unfold InInt; omega), M.ok_bind]
    congr 2
    omega
  · show (a.at_ k).adv d = _
    simp only [OffIt.adv, OffIt.at_]
    rw [dadd_ok (by unfold InDiff; omega), M.ok_bind, narrow_ok (by unfold InInt; omega), M.ok_bind, add_assoc]

/-- Any history of `++`, `--`, `+=`, `-=` inside the table ends in the state one jump over its net distance gives; distances are differences of positions, and
iterators compare equal exactly if their distance is zero. -/
theorem C101_moves {it : Ptr} {stride : List Int} {o : Ptr} {n : Int} (hn : n ≤ 2147483647) {ms ms' : List Move} (h : Stays n 0 ms) (h' : Stays n 0 ms') :
    ∃ r r', runMoves ms (OffIt.make it stride o) = .ok r ∧ runMoves ms' (OffIt.make it stride o) = .ok r' ∧
      (OffIt.make it stride o).adv (net ms) = .ok r ∧ r.distTo r' = .ok (net ms' - net ms) ∧ (r.equal r' = true ↔ net ms = net ms') := by
  have w := OffIt.walk (a := OffIt.make it stride o) (n := n) (by simp [OffIt.make]) (by simp [OffIt.make]; omega)
  have e0 : OffIt.make it stride o = (OffIt.make it stride o).at_ 0 := by simp [OffIt.at_]
  have l := Stays.last h
  have l' := Stays.last h'
  refine ⟨(OffIt.make it stride o).at_ (net ms), (OffIt.make it stride o).at_ (net ms'), ?_, ?_, ?_, ?_, ?_⟩
  · conv_lhs => rw [e0]
    rw [w.run hn h, zero_add]
  · conv_lhs => rw [e0]
    rw [w.run hn h', zero_add]
  · conv_lhs => rw [e0]
    have := w.adv (k := 0) (d := net ms) (le_refl _) (by omega) (by omega) (by omega)
    rwa [zero_add] at this
  · simp only [OffIt.distTo, OffIt.at_, OffIt.make, zero_add]
    exact isub_ok (by unfold InInt; omega)
  · simp only [OffIt.equal, OffIt.at_, OffIt.make, zero_add, beq_iff_eq]
    exact eq_comm

/-- Element `i` of the offset iterator is the array element at the coordinates in row `i` of the table. -/
theorem C101_address {dims : List Int} {stride : List Int} {it o : Ptr} {n : Nat} {off : Nat → List Int} {m : Mem T} (hne : dims ≠ []) (hp : Pos dims)
    (hN : dims.prod ≤ 2147483647) (hn : (n : Int) * dims.length ≤ 2147483647) (ht : OffTable m o dims n off) (hs : strideFromSize dims = .ok stride)
    {i : Nat} (hi : i < n) :
    ∃ r, (OffIt.make it stride o).adv i = .ok r ∧ r.addr m = .ok (it.add (rowMajor dims (off i))) := by
  have hl : 1 ≤ dims.length := List.length_pos_iff.2 hne
  have hnl : (n : Int) ≤ n * dims.length := by nlinarith
  rw [strideFromSize_ok hne hp hN] at hs
  injection hs with hs
  have w := OffIt.walk (a := OffIt.make it stride o) (n := n) (by simp [OffIt.make]) (by simp [OffIt.make]; omega)
  have e := w.adv (k := 0) (d := i) (le_refl _) (by omega) (by omega) (by omega)
  have e0 : OffIt.make it stride o = (OffIt.make it stride o).at_ 0 := by simp [OffIt.at_]
  refine ⟨(OffIt.make it stride o).at_ i, ?_, ?_⟩
  · conv_lhs => rw [e0]
    rwa [zero_add] at e
  · obtain ⟨hc, ho⟩ := ht i hi
    have hil : (i : Int) * dims.length + dims.length ≤ n * dims.length := by
      have : (i : Int) + 1 ≤ n := by omega
      nlinarith
    have hi0 : (0 : Int) ≤ (i : Int) * dims.length := by positivity
    simp only [OffIt.addr, OffIt.at_, OffIt.make, zero_add, offAddr]
    rw [← hs, List.length_map, List.length_range, imul_ok (by unfold InInt; omega), M.ok_bind,
      offLoop_rowMajor hp hN hc (fun t ht => ⟨by unfold InInt; omega, by rw [zero_add]; exact ho t ht⟩) (le_refl _) (by omega), M.ok_bind, zero_add]

/-- `init`: no assertion fails; the array element at coordinates `x` gets `-1 - i` for the last `i` whose offset is `x`; elements at no offset, and everything else,
are as before. -/
theorem C101_init [IntCast T] {dims : List Int} {v o : Ptr} {n : Nat} {off : Nat → List Int} {m : Mem T} (hne : dims ≠ []) (hp : Pos dims)
    (hN : dims.prod ≤ 2147483647) (hn : (n : Int) * dims.length ≤ 2147483647) (ht : OffTable m o dims n off) (hv : Cells m v dims.prod) :
    ∃ m', Cuda.offsetInit v n o dims m = .ok m' ∧
      (∀ x, InBox dims x → m'.val (v.add (rowMajor dims x)) = match ((List.range n).filter (off · == x)).getLast? with
        | some i => some ((-1 - (i : Int) : Int) : T)
        | none => m.val (v.add (rowMajor dims x))) ∧
      ∀ q, (∀ x, InBox dims x → q ≠ v.add (rowMajor dims x)) → m'.val q = m.val q := by
  have hl : 1 ≤ dims.length := List.length_pos_iff.2 hne
  have hnl : (n : Int) ≤ n * dims.length := by nlinarith
  have hs := strideFromSize_ok hne hp hN
  set stride := (List.range dims.length).map fun i => weight dims i
  have step : ∀ (k : Nat), k ≤ n → ∃ m', (List.range k).foldlM (fun m (i : Nat) => do
        let t ← (OffIt.make v stride o).adv i
        let p ← t.addr m
        let y ← isub (-1) i
        m.store p (y : T)) m = .ok m' ∧ m'.ints = m.ints ∧
      (∀ x, InBox dims x → m'.val (v.add (rowMajor dims x)) = match ((List.range k).filter (off · == x)).getLast? with
        | some i => some ((-1 - (i : Int) : Int) : T)
        | none => m.val (v.add (rowMajor dims x))) ∧
      ∀ q, (∀ x, InBox dims x → q ≠ v.add (rowMajor dims x)) → m'.val q = m.val q := by
    intro k
    induction k with
    | zero => exact fun _ => ⟨m, rfl, rfl, fun _ _ => rfl, fun _ _ => rfl⟩
    | succ k ih =>
      intro hk
      obtain ⟨m1, e1, i1, c1, f1⟩ := ih (by omega)
      have ht1 : OffTable m1 o dims n off := fun i hi => ⟨(ht i hi).1, by rw [i1]; exact (ht i hi).2⟩
      obtain ⟨r, er, ea⟩ := C101_address (it := v) hne hp hN hn ht1 hs (i := k) (by omega)
      obtain ⟨hc, -⟩ := ht k (by omega)
      have al : ∃ a, m1.val (v.add (rowMajor dims (off k))) = some a := by
        rw [c1 _ hc]
        split
        · exact ⟨_, rfl⟩
        · exact hv _ (rowMajor_nonneg hc) (rowMajor_lt hc)
      refine ⟨m1.setAt (v.add (rowMajor dims (off k))) ((-1 - (k : Int) : Int) : T), ?_, i1, fun x hx => ?_, fun q hq => ?_⟩
      · rw [List.range_succ, List.foldlM_append, e1, M.ok_bind]
        simp only [List.foldlM_cons, List.foldlM_nil, er, ea, M.ok_bind]
        rw [isub_ok (by unfold InInt; omega), M.ok_bind, Mem.store_setAt al]
        rfl
      · rw [List.range_succ, List.filter_append]
        by_cases e : off k = x
        · subst e
          simp [Mem.setAt]
        · have ne : v.add (rowMajor dims x) ≠ v.add (rowMajor dims (off k)) := fun e' => e (rowMajor_inj hx hc (ptr_add_eq.1 e')).symm
          have : (off k == x) = false := by simpa using e
          simp only [Mem.setAt, ne, if_false, c1 x hx, List.filter_cons, this, List.filter_nil, List.append_nil, Bool.false_eq_true]
      · rw [← f1 q hq]
        simp [Mem.setAt, hq _ hc]
  obtain ⟨m', e, -, c, f⟩ := step n (le_refl _)
  refine ⟨m', ?_, c, f⟩
  have w := OffIt.walk (a := OffIt.make v stride o) (n := 1) (by simp [OffIt.make]) (by simp [OffIt.make])
  have a1 : (OffIt.make v stride o).adv 1 = .ok ⟨v, stride, o, 1⟩ := by rfl
  have a2 : (OffIt.make v stride o).inc = .ok ⟨v, stride, o, 1⟩ := by rfl
  have a3 : (⟨v, stride, o, 1⟩ : OffIt).dec = .ok (OffIt.make v stride o) := by rfl
  have d1 : (OffIt.make v stride o).distTo ⟨v, stride, o, 1⟩ = .ok 1 := by rfl
  have d0 : (OffIt.make v stride o).distTo (OffIt.make v stride o) = .ok 0 := by rfl
  have q0 : (OffIt.make v stride o).equal (OffIt.make v stride o) = true := by rfl
  simp only [Cuda.offsetInit, hs, M.ok_bind, a1, d1, a2, a3, d0, q0, check_self, Int.toNat_natCast]
  simpa [check] using e

/-! ### examples -/

example : Stays 4 0 [.add 3, .dec, .inc, .sub 2] ∧ runMoves [.add 3, .dec, .inc, .sub 2] (OffIt.make ⟨0, 0⟩ [6, 1] ⟨1, 0⟩) = (OffIt.make ⟨0, 0⟩ [6, 1] ⟨1, 0⟩).adv 1 := by
  refine ⟨by decide, by rfl⟩

/-- thirty elements and, in block 1, the offsets (1, 2), (3, 4), (1, 2) -/
def exOffs : Mem Int := ⟨exThirty.val, fun q => if q.blk = 1 ∧ 0 ≤ q.off then [1, 2, 3, 4, 1, 2][q.off.toNat]? else none⟩

theorem exOffs_table : OffTable exOffs ⟨1, 0⟩ [5, 6] 3 fun i => ([[1, 2], [3, 4], [1, 2]] : List (List Int)).getD i [] := by
  intro i hi
  have : i = 0 ∨ i = 1 ∨ i = 2 := by omega
  rcases this with rfl | rfl | rfl <;> refine ⟨by simp [InBox], fun j hj => ?_⟩ <;> simp at hj <;> (have : j = 0 ∨ j = 1 := by omega) <;>
    rcases this with rfl | rfl <;> decide

example : ∃ r, (OffIt.make ⟨0, 0⟩ [6, 1] ⟨1, 0⟩).adv 1 = .ok r ∧ r.addr exOffs = .ok ⟨0, 22⟩ :=
  C101_address (it := ⟨0, 0⟩) (by simp) (by simp [Pos]) (by decide) (by decide) exOffs_table (by rfl) (i := 1) (by decide)

example : ∃ m', Cuda.offsetInit ⟨0, 0⟩ 3 ⟨1, 0⟩ [5, 6] exOffs = .ok m' ∧ m'.val ⟨0, 8⟩ = some (-3) ∧ m'.val ⟨0, 22⟩ = some (-2) ∧ m'.val ⟨0, 9⟩ = some 9 := by
  obtain ⟨m', h, h1, -⟩ := C101_init (v := ⟨0, 0⟩) (by simp) (by simp [Pos]) (by decide) (by decide) exOffs_table (exThirty_cells (by decide))
  exact ⟨m', h, h1 [1, 2] (by simp [InBox]), h1 [3, 4] (by simp [InBox]), h1 [1, 3] (by simp [InBox])⟩

end Verif
