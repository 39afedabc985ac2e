import Verif.Model.DeviceVector
import Verif.Props.Span
import Verif.Lemmas.Empty
import Verif.Lemmas.Window

/-
C42, C43, C45: device vectors.
-/

namespace Verif
open Spec

variable {T : Type}

/-! ### C42 -/

/-- what a program does with a vector that asks for the device pointer before each kernel launch -/
inductive Call (T : Type) where
  | launch (f : List T → Nat → Option T)
  | host
  | toStd
  | fill (xs : Nat → T)
  | setOffset (n : Int) (args : List T)

/-- as operations -/
def Call.ops : Call T → List (VecOp T)
  | .launch f => [.data, .kernel f]
  | .host => [.host]
  | .toStd => [.toStd]
  | .fill xs => [.fill xs]
  | .setOffset n args => [.setOffset n args]

theorem runOps_append {os ps : List (VecOp T)} {v : DevVec T} : runOps (os ++ ps) v = (runOps os v >>= runOps ps) := by
  induction os generalizing v with
  | nil => rfl
  | cons o os ih =>
    simp only [List.cons_append, runOps]
    cases o.run v with
    | error e => rfl
    | ok w => simp only [M.ok_bind]; exact ih

theorem setOffset_inv {v w : DevVec T} {n : Int} {args : List T} (h : v.setOffset n args = .ok w) :
    ∃ x, DevVec.offsetLoop n args.length 0 args v.h = .ok x ∧ w = { v with h := x, d := x } := by
  unfold DevVec.setOffset at h
  cases hl : v.geo.getLast? with
  | none => rw [hl] at h; cases h
  | some y =>
    rw [hl] at h
    obtain ⟨s, -, h⟩ := bind_inv h
    split at h
    · cases h
    · obtain ⟨x, h1, h⟩ := bind_inv h
      injection h with h
      exact ⟨x, h1, h.symm⟩

/-- when the flag is set the copies agree -/
def Synced (v : DevVec T) : Prop := v.sync = true → v.h = v.d

theorem Synced.call {v w : DevVec T} (hv : Synced v) {c : Call T} (h : runOps c.ops v = .ok w) : Synced w := by
  cases c with
  | launch f =>
    simp only [Call.ops, runOps, VecOp.run, M.ok_bind, Except.ok.injEq] at h
    subst h; intro hs; cases hs
  | host =>
    simp only [Call.ops, runOps, VecOp.run, M.ok_bind, Except.ok.injEq] at h
    subst h
    unfold DevVec.host
    split
    · exact hv
    · intro _; rfl
  | toStd =>
    simp only [Call.ops, runOps, VecOp.run, M.ok_bind, Except.ok.injEq] at h
    subst h
    unfold DevVec.toStd
    dsimp only
    split
    · exact hv
    · intro _; rfl
  | fill xs =>
    simp only [Call.ops, runOps, VecOp.run, M.ok_bind, Except.ok.injEq] at h
    subst h; intro _; rfl
  | setOffset n args =>
    simp only [Call.ops, runOps, VecOp.run] at h
    obtain ⟨x, h1, h2⟩ := bind_inv h
    injection h2 with h2
    subst h2
    obtain ⟨y, -, rfl⟩ := setOffset_inv h1
    intro _; rfl

theorem Synced.calls : ∀ {cs : List (Call T)} {v w : DevVec T}, Synced v → runOps (cs.flatMap Call.ops) v = .ok w → Synced w
  | [], v, w, hv, h => by
    simp only [List.flatMap_nil, runOps, Except.ok.injEq] at h
    subst h; exact hv
  | c :: cs, v, w, hv, h => by
    rw [List.flatMap_cons, runOps_append] at h
    obtain ⟨x, h1, h2⟩ := bind_inv h
    exact Synced.calls (hv.call h1) h2

theorem host_of_synced {v : DevVec T} (hv : Synced v) : v.host.h = v.d ∧ v.host.d = v.d ∧ v.toStd.2 = v.d ∧ v.toStd.1.d = v.d := by
  unfold DevVec.host DevVec.toStd
  dsimp only
  split
  · rename_i hs; exact ⟨hv hs, rfl, hv hs, rfl⟩
  · exact ⟨rfl, rfl, rfl, rfl⟩

/-- After any history of launches (each with a pointer asked for at that time), host views, random fills and offset entries, a
host view shows the device contents and leaves them alone. -/
theorem C42_host_current {zero : T} {bnds : List DB} {cs : List (Call T)} {v0 v : DevVec T} (h0 : DevVec.make zero bnds = .ok v0)
    (h : runOps (cs.flatMap Call.ops) v0 = .ok v) : v.host.h = v.d ∧ v.host.d = v.d ∧ v.toStd.2 = v.d ∧ v.toStd.1.d = v.d := by
  refine host_of_synced (Synced.calls ?_ h)
  unfold DevVec.make at h0
  obtain ⟨n, -, h0⟩ := bind_inv h0
  split at h0
  · cases h0
  · injection h0 with h0
    subst h0; intro _; rfl

/-- Further views without a launch in between copy nothing and show the same. -/
theorem C42_no_second_copy {v : DevVec T} : ∀ {os : List (VecOp T)}, (∀ o ∈ os, o = .host ∨ o = .toStd) → runOps os v.host = .ok v.host := by
  have hs : v.host.sync = true := by unfold DevVec.host; split <;> simp_all
  intro os hos
  induction os with
  | nil => rfl
  | cons o os ih =>
    have : o.run v.host = .ok v.host := by
      rcases hos o List.mem_cons_self with rfl | rfl
      · simp only [VecOp.run]; congr 1; unfold DevVec.host at hs ⊢; split at hs <;> simp_all
      · simp only [VecOp.run, DevVec.toStd, hs, if_true]
    simp only [runOps, this, M.ok_bind]
    exact ih fun o ho => hos o (List.mem_cons_of_mem _ ho)

/-- Whatever happened before (pointers kept, stores through host pointers): after `data()` and any number of kernels, a host view shows
the device contents. -/
theorem C42_after_data {os : List (VecOp T)} {fs : List (List T → Nat → Option T)} {v w : DevVec T}
    (h : runOps (os ++ .data :: fs.map .kernel) v = .ok w) : w.host.h = w.d ∧ w.host.d = w.d := by
  rw [runOps_append] at h
  obtain ⟨x, -, h⟩ := bind_inv h
  simp only [runOps, VecOp.run, M.ok_bind] at h
  have hs : w.sync = false := by
    have : ∀ (fs : List (List T → Nat → Option T)) (y : DevVec T), y.sync = false → runOps (fs.map .kernel) y = .ok w → w.sync = false := by
      intro fs
      induction fs with
      | nil => intro y hy h; simp only [List.map_nil, runOps, Except.ok.injEq] at h; subst h; exact hy
      | cons f fs ih => intro y hy h; simp only [List.map_cons, runOps, VecOp.run, M.ok_bind] at h; exact ih (y.kernel f) hy h
    exact this fs _ rfl h
  unfold DevVec.host
  rw [hs]
  exact ⟨rfl, rfl⟩

/-- A kernel launched with a pointer kept from before a host view is not seen by later views. -/
theorem C42_kept_pointer_false : ∃ v0 v, DevVec.make (0 : Int) [(Dim.I, ⟨0, 3, 1⟩)] = .ok v0 ∧
    runOps [.data, .host, .kernel fun _ _ => some 7] v0 = .ok v ∧ v.d = [7, 7, 7] ∧ v.host.h = [0, 0, 0] :=
  ⟨_, _, rfl, rfl, rfl, rfl⟩

/-- a 2 by 2 vector, a launch, a view, an offset entry, a second launch -/
def exCalls : List (Call Int) :=
  [.launch fun d i => some (d.length * i), .host, .setOffset 1 [5, 6], .launch fun d _ => d[3]?]

example : ∃ v0 v, DevVec.make (0 : Int) [(Dim.J, ⟨0, 2, 1⟩), (Dim.I, ⟨0, 2, 1⟩)] = .ok v0 ∧
    runOps (exCalls.flatMap Call.ops) v0 = .ok v ∧ v.d = [6, 6, 6, 6] ∧ v.host.h = [6, 6, 6, 6] := by
  refine ⟨_, _, rfl, rfl, rfl, ?_⟩
  rw [(C42_host_current (T := Int) (zero := 0) (bnds := [(Dim.J, ⟨0, 2, 1⟩), (Dim.I, ⟨0, 2, 1⟩)]) (cs := exCalls) rfl rfl).1]
  rfl

/-! ### C43 -/

theorem offsetLoop_spec {n sz : Int} : ∀ {xs : List T} {i : Int} {h h' : List T}, 0 ≤ n * sz + i → DevVec.offsetLoop n sz i xs h = .ok h' →
    h'.length = h.length ∧ ∀ k : Nat, h'[k]? = if n * sz + i ≤ k ∧ (k : Int) < n * sz + i + xs.length then xs[(k - (n * sz + i)).toNat]? else h[k]?
  | [], i, h, h', _, e => by
    simp only [DevVec.offsetLoop, Except.ok.injEq] at e
    subst e
    refine ⟨rfl, fun k => ?_⟩
    rw [if_neg (by simp only [List.length_nil]; omega)]
  | x :: xs, i, h, h', h0, e => by
    simp only [DevVec.offsetLoop] at e
    obtain ⟨a, ha, e⟩ := bind_inv e
    obtain ⟨b, hb, e⟩ := bind_inv e
    have ha' : a = n * sz := by
      unfold imul chk at ha
      split at ha
      · injection ha with ha; exact ha.symm
      · cases ha
    have hb' : b = n * sz + i := by
      unfold iadd chk at hb
      split at hb
      · injection hb with hb; rw [← hb, ha']
      · cases hb
    split at e
    · rename_i hk
      obtain ⟨g1, g2⟩ := offsetLoop_spec (xs := xs) (i := i + 1) (by omega) e
      rw [List.length_set] at g1
      refine ⟨g1, fun k => ?_⟩
      rw [g2 k, List.length_cons]
      by_cases hkk : n * sz + i = k
      · rw [if_neg (by omega), if_pos ⟨by omega, by push_cast; omega⟩, hb', hkk, Int.sub_self, Int.toNat_zero, List.getElem?_cons_zero,
          Int.toNat_natCast, List.getElem?_set_self (by omega)]
      · by_cases hlt : n * sz + (i + 1) ≤ k ∧ (k : Int) < n * sz + (i + 1) + xs.length
        · rw [if_pos hlt, if_pos ⟨by omega, by push_cast; omega⟩,
            show ((k : Int) - (n * sz + i)).toNat = ((k : Int) - (n * sz + (i + 1))).toNat + 1 by omega, List.getElem?_cons_succ]
        · rw [if_neg hlt, if_neg (by push_cast; omega), List.getElem?_set_ne (by omega)]
    · cases e

/-- What `set_offset` does in any state: both copies become the host copy with the entry replaced. -/
theorem C43_general {v w : DevVec T} {n : Int} {args : List T} (hn : 0 ≤ n) (h : v.setOffset n args = .ok w) :
    w.d = w.h ∧ w.h.length = v.h.length ∧
    ∀ k : Nat, w.h[k]? = if n * args.length ≤ k ∧ (k : Int) < n * args.length + args.length then args[(k - n * args.length).toNat]? else v.h[k]? := by
  obtain ⟨x, h1, rfl⟩ := setOffset_inv h
  obtain ⟨h2, h3⟩ := offsetLoop_spec (i := 0) (by rw [add_zero]; exact mul_nonneg hn (by omega)) h1
  simp only [add_zero] at h3
  exact ⟨rfl, h2, h3⟩

/-- The part that holds: from a state where the two copies agree (after a host view, a random fill, or construction) the entry is
replaced in both and everything else is as it was. -/
theorem C43_synced_partial {v w : DevVec T} {n : Int} {args : List T} (hn : 0 ≤ n) (hs : v.h = v.d) (h : v.setOffset n args = .ok w) :
    w.h = w.d ∧
    ∀ k : Nat, w.d[k]? = if n * args.length ≤ k ∧ (k : Int) < n * args.length + args.length then args[(k - n * args.length).toNat]? else v.d[k]? := by
  obtain ⟨h1, -, h3⟩ := C43_general hn h
  refine ⟨h1.symm, fun k => ?_⟩
  rw [h1, h3 k, hs]

/-- in particular directly after a host view, in any history that asks for the pointer before each launch -/
theorem C43_after_host_partial {zero : T} {bnds : List DB} {cs : List (Call T)} {v0 v w : DevVec T} {n : Int} {args : List T}
    (h0 : DevVec.make zero bnds = .ok v0) (h : runOps (cs.flatMap Call.ops) v0 = .ok v) (hn : 0 ≤ n) (hw : v.host.setOffset n args = .ok w) :
    ∀ k : Nat, w.d[k]? = if n * args.length ≤ k ∧ (k : Int) < n * args.length + args.length then args[(k - n * args.length).toNat]? else v.d[k]? := by
  obtain ⟨h1, h2, -, -⟩ := C42_host_current h0 h
  intro k
  rw [(C43_synced_partial hn (h1.trans h2.symm) hw).2 k, h2]

/-- Exactly when device results survive: the copies agree outside the entry. -/
theorem C43_iff {v w : DevVec T} {n : Int} {args : List T} (hn : 0 ≤ n) (h : v.setOffset n args = .ok w) :
    (∀ k : Nat, ¬ (n * args.length ≤ k ∧ (k : Int) < n * args.length + args.length) → w.d[k]? = v.d[k]?) ↔
      ∀ k : Nat, ¬ (n * args.length ≤ k ∧ (k : Int) < n * args.length + args.length) → v.h[k]? = v.d[k]? := by
  obtain ⟨h1, -, h3⟩ := C43_general hn h
  have key : ∀ k : Nat, ¬ (n * args.length ≤ k ∧ (k : Int) < n * args.length + args.length) → w.d[k]? = v.h[k]? := fun k hk => by
    rw [h1, h3 k, if_neg hk]
  exact ⟨fun H k hk => by rw [← key k hk, H k hk], fun H k hk => by rw [key k hk, H k hk]⟩

/-- After a kernel has written the table, setting one entry brings the old values of all others back on the device. -/
theorem C43_lost_false : ∃ v0 v, makeOffsetVec 2 2 = .ok v0 ∧
    runOps [.data, .kernel fun _ _ => some 7, .setOffset 0 [1, -1]] v0 = .ok v ∧ v.d = [1, -1, 0, 0] ∧ v.host.h = [1, -1, 0, 0] :=
  ⟨_, _, rfl, rfl, rfl, rfl⟩

/-- Setting the rows of a table one after the other, in any order and starting from any contents, leaves each row set on the device. -/
theorem C43_table {v w : DevVec T} {rows : List (Int × List T)} (hr : rows ≠ []) {sz : Nat} (hsz : ∀ r ∈ rows, r.2.length = sz) (hn : ∀ r ∈ rows, 0 ≤ r.1)
    (hnd : (rows.map (·.1)).Nodup) (h : runOps (rows.map fun r => .setOffset r.1 r.2) v = .ok w) :
    w.d = w.h ∧ ∀ r ∈ rows, ∀ j : Nat, j < sz → w.d[r.1.toNat * sz + j]? = r.2[j]? := by
  have key : ∀ (rows : List (Int × List T)) (v : DevVec T), (∀ r ∈ rows, r.2.length = sz) → (∀ r ∈ rows, 0 ≤ r.1) → (rows.map (·.1)).Nodup →
      runOps (rows.map fun r => .setOffset r.1 r.2) v = .ok w →
      (∀ k : Nat, (∀ r ∈ rows, ¬ (r.1 * sz ≤ k ∧ (k : Int) < r.1 * sz + sz)) → w.h[k]? = v.h[k]?) ∧ (rows ≠ [] ∨ v.d = v.h → w.d = w.h) ∧
        ∀ r ∈ rows, ∀ j : Nat, j < sz → w.h[r.1.toNat * sz + j]? = r.2[j]? := by
    intro rows
    induction rows with
    | nil =>
      intro v _ _ _ h
      simp only [List.map_nil, runOps, Except.ok.injEq] at h
      subst h
      exact ⟨fun _ _ => rfl, fun h => h.elim (fun h => absurd rfl h) id, fun r hr => by cases hr⟩
    | cons r rows ih =>
      intro v hsz hn hnd h
      simp only [List.map_cons, runOps, VecOp.run] at h
      obtain ⟨x, h1, h2⟩ := bind_inv h
      have hl := hsz r List.mem_cons_self
      obtain ⟨g1, -, g3⟩ := C43_general (hn r List.mem_cons_self) h1
      rw [hl] at g3
      rw [List.map_cons, List.nodup_cons] at hnd
      obtain ⟨i1, i2, i3⟩ := ih x (fun s hs => hsz s (List.mem_cons_of_mem _ hs)) (fun s hs => hn s (List.mem_cons_of_mem _ hs)) hnd.2 h2
      refine ⟨fun k hk => ?_, fun _ => i2 (.inr g1), fun s hs j hj => ?_⟩
      · rw [i1 k fun s hs => hk s (List.mem_cons_of_mem _ hs), g3 k, if_neg (hk r List.mem_cons_self)]
      · rcases List.mem_cons.1 hs with rfl | hs
        · have hn0 := hn s List.mem_cons_self
          have e : ((s.1.toNat * sz + j : Nat) : Int) = s.1 * sz + j := by push_cast; rw [Int.toNat_of_nonneg hn0]
          rw [i1, g3, e, if_pos ⟨by omega, by omega⟩, show s.1 * (sz : Int) + j - s.1 * sz = j by omega, Int.toNat_natCast]
          intro t ht hc
          rw [e] at hc
          have hne : t.1 ≠ s.1 := fun e => hnd.1 (e ▸ List.mem_map_of_mem ht)
          rcases lt_or_gt_of_ne hne with hlt | hgt
          · have : (t.1 + 1) * (sz : Int) ≤ s.1 * sz := mul_le_mul_of_nonneg_right (by omega) (by omega)
            rw [add_mul, one_mul] at this
            omega
          · have : (s.1 + 1) * (sz : Int) ≤ t.1 * sz := mul_le_mul_of_nonneg_right (by omega) (by omega)
            rw [add_mul, one_mul] at this
            omega
        · exact i3 s hs j hj
  obtain ⟨-, h2, h3⟩ := key rows v hsz hn hnd h
  have h2 := h2 (.inl hr)
  exact ⟨h2, fun r hr j hj => by rw [h2]; exact h3 r hr j hj⟩

/-- the table (0, 0), (-1, 0), (0, 1), rows set out of order -/
def exRows : List (Int × List Int) := [(2, [0, 1]), (0, [0, 0]), (1, [-1, 0])]

example : ∃ v0 v, makeOffsetVec 3 2 = .ok v0 ∧ runOps (exRows.map fun r => .setOffset r.1 r.2) v0 = .ok v ∧
    v.d = [0, 0, -1, 0, 0, 1] ∧ v.d[1 * 2 + 0]? = some (-1) := by
  refine ⟨_, _, rfl, rfl, rfl, ?_⟩
  exact (C43_table (rows := exRows) (sz := 2) (by simp [exRows]) (by decide) (by decide) (by decide)
    (v := ⟨[0, 0, 0, 0, 0, 0], [0, 0, 0, 0, 0, 0], [(Dim.W, ⟨0, 3, 1⟩), (Dim.I, ⟨0, 2, 1⟩)], true, 0⟩) rfl).2 (1, [-1, 0]) (by decide) 0 (by decide)

/-! ### C45 -/

theorem at_index {v : DevVec T} {t : Ptr} {is : List Int} : (Span.mk t v.geo).at_ is = (v.index is).map t.add := by
  unfold Span.at_ DevVec.index
  dsimp only
  split
  · rfl
  · cases (is.zip v.geo).mapM fun x => isub x.1 x.2.2.lb with
    | error e => rfl
    | ok c =>
      cases v.geo.mapM (·.2.size) with
      | error e => rfl
      | ok sz => cases ravel sz c <;> rfl

theorem makeSpan_unit {t : Ptr} {bnds : List DB} (hu : ∀ x ∈ bnds, x.2.stride = 1) : makeSpan t bnds = ⟨t, bnds⟩ := by
  unfold makeSpan
  congr 1
  rw [List.map_congr_left (g := id), List.map_id]
  rintro ⟨d, f, l, s⟩ hx
  have := hu _ hx
  simp only at this
  subst this; rfl

theorem make_unit {zero : T} {bnds : List DB} (hg : GeoOK bnds) :
    ∃ v, DevVec.make zero bnds = .ok v ∧ v.geo = bnds ∧ v.size = (lengths bnds).prod := by
  have hsz : ∀ x ∈ bnds, x.2.last - x.2.first ≤ 2147483647 := by
    intro x hx
    have := mem_le_prod hg.pos (x.2.last - x.2.first) (List.mem_map_of_mem (f := fun x : DB => x.2.last - x.2.first) hx)
    have := hg.fits
    omega
  have hn : npts bnds = (lengths bnds).prod := by
    unfold npts extents lengths
    congr 1
    refine List.map_congr_left fun x hx => ?_
    rw [count, hg.unit x hx, Int.ediv_one]
    omega
  have hd : ∀ x ∈ bnds, x.2.first < x.2.last ∧ 1 ≤ x.2.stride := fun x hx => ⟨hg.nonempty x hx, by rw [hg.unit x hx]⟩
  have hf := foldSize_ok hg.ne hd hsz (by rw [hn]; exact hg.fits)
  have hp := (floors_le hd).2.2
  have hfl : (floors bnds).prod = (lengths bnds).prod := by
    rw [floors_eq hd fun x hx => by rw [hg.unit x hx]; exact one_dvd _, hn]
  rw [hn] at hp
  rw [hfl] at hf
  refine ⟨⟨List.replicate (lengths bnds).prod.toNat zero, List.replicate (lengths bnds).prod.toNat zero, bnds, true, 0⟩, ?_, rfl, ?_⟩
  · unfold DevVec.make
    rw [hf, M.ok_bind, if_neg (by omega)]
  · simp only [DevVec.size, List.length_replicate]
    omega

/-- A vector made from unit-stride bounds has exactly one element per point of the box, `index` accepts exactly the points of the box and
is the place where a span with the same bounds keeps that element. -/
theorem C45_unit_partial {zero : T} {bnds : List DB} (hg : GeoOK bnds) :
    ∃ v, DevVec.makeVec zero bnds = .ok v ∧ v.size = (lengths bnds).prod ∧
      ∀ p, Inside bnds p → v.index (bnds.map fun x => p x.1) = .ok (storeOff bnds p) ∧ 0 ≤ storeOff bnds p ∧ storeOff bnds p < v.size ∧
        ∀ t, (makeSpan t bnds).at_ (bnds.map fun x => p x.1) = .ok (t.add (storeOff bnds p)) := by
  obtain ⟨v, h1, h2, h3⟩ := make_unit (zero := zero) hg
  refine ⟨v, h1, h3, fun p hp => ?_⟩
  have hat : ∀ t, (makeSpan t bnds).at_ (bnds.map fun x => p x.1) = .ok (t.add (storeOff bnds p)) := fun t => by
    rw [makeSpan_unit hg.unit]
    exact at_ok (s := ⟨t, bnds⟩) hg hp
  have hi : v.index (bnds.map fun x => p x.1) = .ok (storeOff bnds p) := by
    have := hat ⟨0, 0⟩
    rw [makeSpan_unit hg.unit, ← h2, at_index, h2] at this
    cases hv : v.index (bnds.map fun x => p x.1) with
    | error e => rw [hv] at this; cases this
    | ok r =>
      rw [hv] at this
      simp only [Except.map, Except.ok.injEq, Ptr.add, Ptr.mk.injEq, zero_add, true_and] at this
      rw [this]
  exact ⟨hi, (storeOff_range hp).1, by rw [h3]; exact (storeOff_range hp).2, hat⟩

/-- bounds with g ghost cells on each side in the space dimensions -/
def grown (g : Int) (bnds : List DB) : List DB :=
  bnds.map fun x => (x.1, if x.1 = Dim.W then x.2 else ⟨x.2.first - g, x.2.last + g, x.2.stride⟩)

theorem expand_grown {g : Int} {bnds : List DB} (hi : ∀ x ∈ grown g bnds, InInt x.2.first ∧ InInt x.2.last) :
    (bnds.mapM fun x => do let b ← expandBounds g x.1 x.2; .ok (x.1, b) : M (List DB)) = .ok (grown g bnds) := by
  induction bnds with
  | nil => rfl
  | cons x xs ih =>
    have ih := ih fun y hy => hi y (List.mem_cons_of_mem _ hy)
    have hx := hi _ (List.mem_cons_self (l := grown g xs))
    have he : (do let b ← expandBounds g x.1 x.2; .ok (x.1, b) : M DB) = .ok (x.1, if x.1 = Dim.W then x.2 else ⟨x.2.first - g, x.2.last + g, x.2.stride⟩) := by
      unfold expandBounds
      split
      · rfl
      · rename_i hw
        dsimp only at hx
        rw [if_neg hw] at hx
        simp only [Bounds.expand, Bounds.subEq, Bounds.addEq, isub, iadd, chk_ok hx.1, chk_ok hx.2, M.ok_bind]
    rw [List.mapM_cons, he, M.ok_bind, ih]
    rfl

/-- The same with ghost cells: `make_md_vec(g, bnds...)` and `make_md_span(t, g, bnds...)`. -/
theorem C45_ghost_partial {zero : T} {g : Int} {bnds : List DB} (hu : ∀ x ∈ bnds, x.2.stride = 1) (hg : GeoOK (grown g bnds)) :
    ∃ v, DevVec.makeVecOffset zero g bnds = .ok v ∧ v.size = (lengths (grown g bnds)).prod ∧
      ∀ p, Inside (grown g bnds) p → v.index (bnds.map fun x => p x.1) = .ok (storeOff (grown g bnds) p) ∧
        0 ≤ storeOff (grown g bnds) p ∧ storeOff (grown g bnds) p < v.size ∧
        ∀ t, ∃ s, makeSpanOffset t g bnds = .ok s ∧ s.at_ (bnds.map fun x => p x.1) = .ok (t.add (storeOff (grown g bnds) p)) := by
  obtain ⟨v, h1, h2, h3⟩ := C45_unit_partial (zero := zero) hg
  have hmap : ∀ p : Pt, (grown g bnds).map (fun x => p x.1) = bnds.map fun x => p x.1 := fun p => by
    unfold grown; rw [List.map_map]; rfl
  refine ⟨v, ?_, h2, fun p hp => ?_⟩
  · unfold DevVec.makeVecOffset
    rw [expand_grown hg.int, M.ok_bind]
    exact h1
  · obtain ⟨i1, i2, i3, i4⟩ := h3 p hp
    rw [hmap] at i1
    refine ⟨i1, i2, i3, fun t => ⟨⟨t, grown g bnds⟩, ?_, ?_⟩⟩
    · unfold makeSpanOffset
      have key : ∀ {l : List DB} {f f' : DB → M DB}, (∀ x ∈ l, f x = f' x) → l.mapM f = l.mapM f' := fun {l f f'} h => by
        induction l with
        | nil => rfl
        | cons x l ih => rw [List.mapM_cons, List.mapM_cons, h x List.mem_cons_self, ih fun y hy => h y (List.mem_cons_of_mem _ hy)]
      have : ∀ x ∈ bnds, (do let b ← expandBounds g x.1 x.2.unitStride; .ok (x.1, b) : M DB) = (do let b ← expandBounds g x.1 x.2; .ok (x.1, b) : M DB) := by
        rintro ⟨d, f, l, s⟩ hx
        have := hu _ hx
        simp only at this
        subst this; rfl
      rw [show (bnds.mapM fun x => do let b ← expandBounds g x.1 x.2.unitStride; .ok (x.1, b) : M (List DB)) = .ok (grown g bnds) from
        (key this).trans (expand_grown hg.int)]
      rfl
    · have := i4 t
      rw [makeSpan_unit hg.unit, hmap] at this
      exact this

/-- a plane of 2 by 3 cells with one ghost cell -/
example : ∃ v, DevVec.makeVecOffset (0 : Int) 1 [(Dim.J, ⟨0, 2, 1⟩), (Dim.I, ⟨0, 3, 1⟩)] = .ok v ∧ v.size = 20 ∧ v.index [-1, 3] = .ok 4 := by
  obtain ⟨v, h1, h2, h3⟩ := C45_ghost_partial (zero := (0 : Int)) (g := 1) (bnds := [(Dim.J, ⟨0, 2, 1⟩), (Dim.I, ⟨0, 3, 1⟩)]) (by decide)
    ⟨by decide, by decide, by decide, by decide, by decide, by unfold InInt; decide⟩
  have := (h3 (fun d => if d = Dim.J then -1 else 3) (by unfold Inside InRange; decide)).1
  exact ⟨v, h1, h2, this⟩

/-- Bounds with a stride: the vector holds fewer elements than the span over it addresses. -/
theorem C45_stride_false : ∃ v : DevVec Int, DevVec.makeVec 0 [(Dim.I, ⟨0, 5, 2⟩)] = .ok v ∧ v.size = 2 ∧
    ∀ t, (makeSpan t [(Dim.I, ⟨0, 5, 2⟩)]).at_ [4] = .ok (t.add 4) :=
  ⟨_, rfl, rfl, fun _ => rfl⟩

end Verif
