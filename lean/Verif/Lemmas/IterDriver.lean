import Verif.Lemmas.Host
import Verif.Model.Tests.Iter
import Verif.Props.IterTest
import Verif.Props.SubTest
import Verif.Props.FsTest

/-
The host side of the iterator tests: vectors passed by pointer, loops that go through the results with an iterator.
-/

namespace Verif

open Spec Test

variable {T : Type}

theorem blocks_val {ls : List (List T)} {k : Nat} {l : List T} (h : ls[k]? = some l) (q : Nat) : (blocks ls).val ⟨k, (q : Int)⟩ = l[q]? := by
  simp [blocks, h]

theorem blocks_at {ls : List (List T)} {k : Nat} {l : List T} (h : ls[k]? = some l) {q : Int} (hq : 0 ≤ q) : (blocks ls).val ((at_ k).add q) = l[q.toNat]? := by
  have e : (at_ k).add q = ⟨k, ((q.toNat : Nat) : Int)⟩ := by simp [at_, Ptr.add, hq]
  rw [e, blocks_val h]

theorem blocks_cells {ls : List (List T)} {k : Nat} {l : List T} {n : Int} (h : ls[k]? = some l) (hn : (l.length : Int) = n) : Cells (blocks ls) (at_ k) n := by
  intro q h0 h1
  rw [blocks_at h h0, List.getElem?_eq_getElem (by omega)]
  exact ⟨_, rfl⟩

theorem blocks_unused {ls : List (List T)} {b : Nat} (h : ls.length ≤ b) : Unused (blocks ls) b := by
  intro k
  simp [blocks, List.getElem?_eq_none h]

theorem newVec_ok {n : Int} {a : T} (h : 0 ≤ n) : newVec n a = .ok (List.replicate n.toNat a) := if_pos h

theorem generate_eq {x : Nat → T} {l : List T} : generate x l = (List.range l.length).map x :=
  List.ext_getElem (by simp [generate]) fun i h1 h2 => by simp [generate]

/-- a loop keeps what each of its rounds keeps -/
theorem rep_inv {σ : Type} {hi : Int} {body : Int → σ → M σ} {I : Int → σ → Prop} (hhi : hi ≤ 2147483647) :
    ∀ (n : Nat) (i : Int) (s : σ), -2147483648 ≤ i → i ≤ hi → (hi - i).toNat ≤ n → I i s →
      (∀ j s, i ≤ j → j < hi → I j s → ∃ s', body j s = .ok s' ∧ I (j + 1) s') → ∃ s', rep hi body n i s = .ok s' ∧ I hi s'
  | 0, i, s, _, h1, hn, hI, _ => by
    have e : i = hi := by omega
    subst e
    exact ⟨s, by simp [rep], hI⟩
  | n + 1, i, s, h0, h1, hn, hI, hb => by
    by_cases h : i < hi
    · obtain ⟨s1, r1, I1⟩ := hb i s (le_refl _) h hI
      obtain ⟨s', r', I'⟩ := rep_inv hhi n (i + 1) s1 (by omega) (by omega) (by omega) I1 fun j s hj => hb j s (by omega)
      refine ⟨s', ?_, I'⟩
      unfold rep
      rw [if_pos h, r1, M.ok_bind, iadd_ok (by unfold InInt; omega), M.ok_bind, r']
    · have e : i = hi := by omega
      subst e
      exact ⟨s, by unfold rep; rw [if_neg (lt_irrefl _)], hI⟩

theorem forLt_inv {σ : Type} {lo hi : Int} {body : Int → σ → M σ} {s : σ} (I : Int → σ → Prop) (hlo : -2147483648 ≤ lo) (hle : lo ≤ hi) (hhi : hi ≤ 2147483647)
    (h0 : I lo s) (hb : ∀ j s, lo ≤ j → j < hi → I j s → ∃ s', body j s = .ok s' ∧ I (j + 1) s') : ∃ s', forLt lo hi body s = .ok s' ∧ I hi s' :=
  rep_inv hhi _ lo s hlo hle (le_refl _) h0 hb

/-- the first `p` results are written, `r` is behind them -/
def Upto [Zero T] (E : List T) (p : Int) (s : List T × Int) : Prop := s = (E.take p.toNat ++ List.replicate (E.length - p.toNat) 0, p)

theorem upto_put [Zero T] {E : List T} {p : Int} {s : List T × Int} {a : T} (h : Upto E p s) (hp : 0 ≤ p) (ha : E[p.toNat]? = some a) :
    ∃ s', putNext a s = .ok s' ∧ Upto E (p + 1) s' := by
  obtain ⟨hlt, hE⟩ := List.getElem?_eq_some_iff.1 ha
  unfold Upto at h
  subst h
  refine ⟨_, ?_, rfl⟩
  unfold putNext vset
  dsimp only
  rw [if_pos (by simp; omega), M.ok_bind]
  congr 2
  rw [List.set_append_right _ _ (by simp), List.length_take, Nat.min_eq_left (by omega), Nat.sub_self]
  rw [show E.length - p.toNat = (E.length - (p + 1).toNat) + 1 by omega, List.replicate_succ, List.set_cons_zero]
  rw [show (p + 1).toNat = p.toNat + 1 by omega, List.take_add_one, ha]
  simp

theorem upto_zero [Zero T] {E : List T} {n : Nat} (h : E.length = n) : Upto E 0 (List.replicate n 0, 0) := by
  subst h
  simp [Upto]

theorem upto_all [Zero T] {E : List T} {p : Int} {s : List T × Int} (h : Upto E p s) (hp : p.toNat = E.length) : s.1 = E := by
  unfold Upto at h
  subst h
  simp [hp]

theorem diff_ok [Sub T] {v : List T} {k l : Int} {a b : T} (hk : 0 ≤ k) (hl : 0 ≤ l) (ha : v[k.toNat]? = some a) (hb : v[l.toNat]? = some b) :
    diff v k l = .ok (a - b) := by
  unfold diff
  rw [vget_ok hk ha, M.ok_bind, vget_ok hl hb, M.ok_bind]

theorem onVecs_out {c : Mem T → M (Mem T)} {v u : List T} {m' : Mem T} (run : c (blocks [v, u]) = .ok m') (h0 : ∀ k, m'.val ⟨0, k⟩ = (blocks [v, u]).val ⟨0, k⟩)
    (h1 : ∀ q : Nat, q < u.length → ∃ x, m'.val ⟨1, (q : Int)⟩ = some x) :
    onVecs c [v, u] = .ok [v, newBlock m' 1 u] ∧ (newBlock m' 1 u).length = u.length ∧ ∀ q : Nat, q < u.length → (newBlock m' 1 u)[q]? = m'.val ⟨1, (q : Int)⟩ := by
  refine ⟨?_, newBlock_length, newBlock_get h1⟩
  unfold onVecs
  rw [run, M.ok_bind]
  have e : newBlock m' 0 v = v := newBlock_same fun q _ => by rw [h0, blocks_val (l := v) rfl]
  simp [List.mapIdx, List.mapIdx.go, e]

theorem inBox_map {seq : List Nat} {f g : Nat → Int} (h : ∀ i ∈ seq, 0 ≤ g i ∧ g i < f i) : InBox (seq.map f) (seq.map g) := by
  induction seq with
  | nil => trivial
  | cons a l ih => exact ⟨h a (by simp), ih fun i hi => h i (by simp [hi])⟩

theorem inBox_getD : ∀ {sz x : List Int}, InBox sz x → ∀ i, i < sz.length → 0 ≤ x.getD i 0 ∧ x.getD i 0 < sz.getD i 0
  | [], _, _, i, hi => absurd hi (Nat.not_lt_zero i)
  | s :: ss, c :: cs, h, 0, _ => by simpa using h.1
  | s :: ss, c :: cs, h, i + 1, hi => by simpa using inBox_getD h.2 i (by simpa using hi)

/-- what a call of the transpose test leaves in its vectors -/
theorem transposed {seq : List Nat} {sz : List Int} {v u : List T} {β : Backend} (hβ : ValidBackend β) (hne : sz ≠ []) (hp : Pos sz) (hN : sz.prod ≤ 2147483647)
    (hperm : IsPerm seq sz.length) (hv : (v.length : Int) = sz.prod) (hu : (u.length : Int) = sz.prod) :
    ∃ u', onVecs (Cuda.transposeInit seq sz (at_ 0) (at_ 1) 2 β) [v, u] = .ok [v, u'] ∧ u'.length = u.length ∧
      ∀ x, InBox sz x → u'[(rowMajor (seq.map fun i => sz.getD i 0) (seq.map fun i => x.getD i 0)).toNat]? = v[(rowMajor sz x).toNat]? := by
  obtain ⟨m', run, vals, rest⟩ := C100_transpose (m := blocks [v, u]) (v := at_ 0) (u := at_ 1) (b := 2) hβ hne hp hN hperm (blocks_cells (l := v) rfl hv)
    (blocks_cells (l := u) rfl hu) (blocks_unused (by simp))
  obtain ⟨w, -, -, hwn, hprod, -⟩ := C06_transpose (it := at_ 0) hne hp hN hperm
  rw [hwn] at hprod
  have inb : ∀ x, InBox sz x → InBox (seq.map fun i => sz.getD i 0) (seq.map fun i => x.getD i 0) := fun x hx =>
    inBox_map fun i hi => inBox_getD hx i ((hperm.2 i).1 hi)
  have some_v : ∀ x, InBox sz x → ∃ a, v[(rowMajor sz x).toNat]? = some a := fun x hx => by
    have := rowMajor_nonneg hx
    have := rowMajor_lt hx
    exact ⟨_, List.getElem?_eq_getElem (by omega)⟩
  obtain ⟨r, l, g⟩ := onVecs_out run (fun k => rest _ fun x _ e => by simp [at_, Ptr.add] at e) (fun q hq => by
    by_cases h : ∃ x, InBox sz x ∧ (q : Int) = rowMajor (seq.map fun i => sz.getD i 0) (seq.map fun i => x.getD i 0)
    · obtain ⟨x, hx, e⟩ := h
      obtain ⟨a, ha⟩ := some_v x hx
      refine ⟨a, ?_⟩
      have := vals x hx
      rw [blocks_at (l := v) rfl (rowMajor_nonneg hx), ha, ← e] at this
      simpa [at_, Ptr.add] using this
    · rw [rest ⟨1, q⟩ fun x hx e => h ⟨x, hx, by simpa [at_, Ptr.add] using e⟩, blocks_val (l := u) rfl, List.getElem?_eq_getElem hq]
      exact ⟨_, rfl⟩)
  refine ⟨_, r, l, fun x hx => ?_⟩
  have p0 := rowMajor_nonneg (inb x hx)
  have p1 := rowMajor_lt (inb x hx)
  rw [hprod] at p1
  rw [g _ (by omega), Int.toNat_of_nonneg p0]
  have := vals x hx
  rw [blocks_at (l := v) rfl (rowMajor_nonneg hx)] at this
  rw [← this]
  simp [at_, Ptr.add]

theorem inBox_of_shorten : ∀ {n c : List Int} {i : Nat}, InBox (shorten n i) c → InBox n c
  | [], [], _, _ => trivial
  | [], _ :: _, _, h => h.elim
  | s :: ss, [], 0, h => by simp [shorten, InBox] at h
  | s :: ss, [], i + 1, h => by simp [shorten, InBox] at h
  | s :: ss, c :: cs, 0, h => ⟨⟨h.1.1, by have := h.1.2; omega⟩, h.2⟩
  | s :: ss, c :: cs, i + 1, h => ⟨h.1, inBox_of_shorten h.2⟩

/-- what a call of `transform` leaves in its vectors -/
theorem differences [Sub T] {dims : List Int} {i : Nat} {v u : List T} {β : Backend} (hβ : ValidBackend β) (hp : Pos dims) (hN : dims.prod ≤ 2147483647)
    (hi : i < dims.length) (h2 : 2 ≤ dims.getD i 0) (hv : (v.length : Int) = dims.prod) (hu : (u.length : Int) = (shorten dims i).prod) :
    ∃ u', onVecs (Cuda.fsTransform dims i (at_ 0) (at_ 1) 2 3 β) [v, u] = .ok [v, u'] ∧ u'.length = u.length ∧
      ∀ c a b, InBox (shorten dims i) c → v[(rowMajor dims c).toNat]? = some a →
        v[(rowMajor dims (bump c i)).toNat]? = some b → u'[(rowMajor (shorten dims i) c).toNat]? = some (b - a) := by
  obtain ⟨m', run, vals, rest⟩ := C98_transform (m := blocks [v, u]) (v := at_ 0) (u := at_ 1) (bx := 2) (bY := 3) hβ hp hN hi h2 (blocks_cells (l := v) rfl hv)
    (blocks_cells (l := u) rfl hu) (by decide) (blocks_unused (by simp)) (blocks_unused (by simp))
  have some_v : ∀ x, InBox dims x → ∃ a, v[(rowMajor dims x).toNat]? = some a := fun x hx => by
    have := rowMajor_nonneg hx
    have := rowMajor_lt hx
    exact ⟨_, List.getElem?_eq_getElem (by omega)⟩
  have val : ∀ c a b, InBox (shorten dims i) c → v[(rowMajor dims c).toNat]? = some a → v[(rowMajor dims (bump c i)).toNat]? = some b →
      m'.val ((at_ 1).add (rowMajor (shorten dims i) c)) = some (b - a) := fun c a b hc ha hb =>
    vals c a b hc (by rw [blocks_at (l := v) rfl (rowMajor_nonneg (inBox_of_shorten hc)), ha]) (by rw [blocks_at (l := v) rfl (rowMajor_nonneg (bump_inBox hp hc)), hb])
  have hs : ∀ q : Nat, q < u.length → ∃ x, m'.val ⟨1, (q : Int)⟩ = some x := fun q hq => by
    have sp := shorten_pos hp h2
    have hc : InBox (shorten dims i) (coords (shorten dims i) q) := coords_inBox sp (by omega) (by omega)
    obtain ⟨a, ha⟩ := some_v _ (inBox_of_shorten hc)
    obtain ⟨b, hb⟩ := some_v _ (bump_inBox hp hc)
    refine ⟨b - a, ?_⟩
    have := val _ a b hc ha hb
    rw [rowMajor_coords sp (by omega) (by omega)] at this
    simpa [at_, Ptr.add] using this
  obtain ⟨r, l, g⟩ := onVecs_out run (fun k => rest _ fun x _ e => by simp [at_, Ptr.add] at e) hs
  refine ⟨_, r, l, fun c a b hc ha hb => ?_⟩
  have p0 := rowMajor_nonneg hc
  have p1 := rowMajor_lt hc
  rw [g _ (by omega), Int.toNat_of_nonneg p0, ← val c a b hc ha hb]
  simp [at_, Ptr.add]

theorem upto_set [Zero T] {E l : List T} {p : Int} {a : T} (h : Upto E p (l, p)) (hp : 0 ≤ p) (ha : E[p.toNat]? = some a) :
    ∃ l', vset l p a = .ok l' ∧ Upto E (p + 1) (l', p + 1) := by
  obtain ⟨s', r, h'⟩ := upto_put h hp ha
  unfold putNext at r
  dsimp only at r
  cases e : vset l p a with
  | error => rw [e] at r; cases r
  | ok l' =>
    rw [e, M.ok_bind] at r
    cases r
    exact ⟨l', rfl, h'⟩

/-- the element the host computes from two neighbours is the element the device computed -/
theorem neighbours [Sub T] {dims : List Int} {i : Nat} {v u : List T} {β : Backend} (hβ : ValidBackend β) (hp : Pos dims) (hN : dims.prod ≤ 2147483647)
    (hi : i < dims.length) (h2 : 2 ≤ dims.getD i 0) (hv : (v.length : Int) = dims.prod) (hu : (u.length : Int) = (shorten dims i).prod) :
    ∃ u', onVecs (Cuda.fsTransform dims i (at_ 0) (at_ 1) 2 3 β) [v, u] = .ok [v, u'] ∧ (u'.length : Int) = (shorten dims i).prod ∧
      ∀ c k l p, InBox (shorten dims i) c → rowMajor dims (bump c i) = k → rowMajor dims c = l → rowMajor (shorten dims i) c = p →
        (0 ≤ l ∧ l < dims.prod ∧ 0 ≤ k ∧ k < dims.prod ∧ 0 ≤ p) ∧ ∃ d, diff v k l = .ok d ∧ u'[p.toNat]? = some d := by
  obtain ⟨u', r, l, e⟩ := differences (u := u) hβ hp hN hi h2 hv hu
  refine ⟨u', r, by rw [l, hu], ?_⟩
  rintro c k l p hc rfl rfl rfl
  have a0 := rowMajor_nonneg (inBox_of_shorten hc)
  have a1 := rowMajor_lt (inBox_of_shorten hc)
  have b0 := rowMajor_nonneg (bump_inBox hp hc)
  have b1 := rowMajor_lt (bump_inBox hp hc)
  refine ⟨⟨a0, a1, b0, b1, rowMajor_nonneg hc⟩, _, diff_ok b0 a0 (List.getElem?_eq_getElem (by omega)) (List.getElem?_eq_getElem (by omega)), ?_⟩
  exact e c _ _ hc (List.getElem?_eq_getElem (by omega)) (List.getElem?_eq_getElem (by omega))

theorem onVecs_one {c : Mem T → M (Mem T)} {v : List T} {m' : Mem T} (run : c (blocks [v]) = .ok m') (h : ∀ q : Nat, q < v.length → ∃ x, m'.val ⟨0, (q : Int)⟩ = some x) :
    onVecs c [v] = .ok [newBlock m' 0 v] ∧ (newBlock m' 0 v).length = v.length ∧ ∀ q : Nat, q < v.length → (newBlock m' 0 v)[q]? = m'.val ⟨0, (q : Int)⟩ := by
  refine ⟨?_, newBlock_length, newBlock_get h⟩
  unfold onVecs
  rw [run, M.ok_bind]
  rfl

/-- the coordinates `x` lie between the bounds -/
def Between (lb ub x : List Int) (n : Nat) : Prop := ∀ i, i < n → lb.getD i 0 ≤ x.getD i 0 ∧ x.getD i 0 ≤ ub.getD i 0

/-- a call that writes to elements of a box only leaves the other elements as they were -/
theorem in_box_only {c : Mem T → M (Mem T)} {sz lb ub : List Int} {v : List T} {m' : Mem T} {f : List Int → Option T} (hp : Pos sz) (hv : (v.length : Int) = sz.prod)
    (run : c (blocks [v]) = .ok m') (vals : ∀ x, InBox sz x → Between lb ub x sz.length → m'.val ((at_ 0).add (rowMajor sz x)) = f x) (hf : ∀ x, InBox sz x → ∃ a, f x = some a)
    (rest : ∀ q, (∀ x, InBox sz x → Between lb ub x sz.length → q ≠ (at_ 0).add (rowMajor sz x)) → m'.val q = (blocks [v]).val q) :
    ∃ v', onVecs c [v] = .ok [v'] ∧ v'.length = v.length ∧ (∀ x, InBox sz x → Between lb ub x sz.length → v'[(rowMajor sz x).toNat]? = f x) ∧
      ∀ x, InBox sz x → ¬Between lb ub x sz.length → v'[(rowMajor sz x).toNat]? = v[(rowMajor sz x).toNat]? := by
  have other : ∀ x, InBox sz x → ¬Between lb ub x sz.length → m'.val ((at_ 0).add (rowMajor sz x)) = v[(rowMajor sz x).toNat]? := fun x hx hb => by
    rw [rest _ fun y hy hby e => hb (by
      have : rowMajor sz x = rowMajor sz y := by simpa [at_, Ptr.add] using e
      rwa [rowMajor_inj hx hy this]), blocks_at (l := v) rfl (rowMajor_nonneg hx)]
  have at0 : ∀ k : Int, (at_ 0).add k = ⟨0, k⟩ := fun k => by simp [at_, Ptr.add]
  obtain ⟨r, l, g⟩ := onVecs_one run fun q hq => by
    have hx := coords_inBox hp (k := (q : Int)) (by omega) (by omega)
    have e : (⟨0, (q : Int)⟩ : Ptr) = (at_ 0).add (rowMajor sz (coords sz q)) := by rw [rowMajor_coords hp (by omega) (by omega), at0]
    rw [e]
    by_cases hb : Between lb ub (coords sz q) sz.length
    · rw [vals _ hx hb]
      exact hf _ hx
    · rw [other _ hx hb, List.getElem?_eq_getElem (by have := rowMajor_lt hx; have := rowMajor_nonneg hx; omega)]
      exact ⟨_, rfl⟩
  refine ⟨_, r, l, fun x hx hb => ?_, fun x hx hb => ?_⟩
  · have h0 := rowMajor_nonneg hx
    have h1 := rowMajor_lt hx
    rw [g _ (by omega), Int.toNat_of_nonneg h0, ← at0, vals x hx hb]
  · have h0 := rowMajor_nonneg hx
    have h1 := rowMajor_lt hx
    rw [g _ (by omega), Int.toNat_of_nonneg h0, ← at0, other x hx hb]

theorem tabulated [Field T] {sz lb ub : List Int} {v : List T} {β : Backend} (hβ : ValidBackend β) (h : SubBox sz lb ub (sz.map fun _ => 1)) (hv : (v.length : Int) = sz.prod) :
    ∃ v', onVecs (Cuda.subTabulate sz lb ub (at_ 0) 1 β) [v] = .ok [v'] ∧ v'.length = v.length ∧
      (∀ x, InBox sz x → Between lb ub x sz.length →
        v'[(rowMajor sz x).toNat]? = some (-((rowMajor (List.zipWith (fun l u => u - l + 1) lb ub) (List.zipWith (· - ·) x lb) : Int) : T))) ∧
      ∀ x, InBox sz x → ¬Between lb ub x sz.length → v'[(rowMajor sz x).toNat]? = v[(rowMajor sz x).toNat]? := by
  obtain ⟨m', run, vals, rest⟩ := C99_tabulate (m := blocks [v]) (v := at_ 0) (b := 1) hβ h (blocks_cells (l := v) rfl hv) (blocks_unused (by simp))
  exact in_box_only h.pos hv run vals (fun x _ => ⟨_, rfl⟩) rest

/-- the number written last to element `r` of the box -/
theorem last_cons {a : Int × Int} {l : List (Int × Int)} {r : Int} :
    ((a :: l).filter (·.1 == r)).getLast? = ((l.filter (·.1 == r)).getLast?).or (if a.1 = r then some a else none) := by
  rw [List.filter_cons]
  by_cases h : a.1 = r
  · rw [if_pos (by simpa using h), if_pos h, List.getLast?_cons]
    cases (l.filter (·.1 == r)).getLast? <;> rfl
  · rw [if_neg (by simpa using h), if_neg h, Option.or_none]

theorem inited [Field T] [DecidableEq T] {sz lb ub : List Int} {v : List T} (h : SubBox sz lb ub (sz.map fun _ => 1)) (hd : sz.length = 2 ∨ sz.length = 3)
    (h0 : lb.getD 0 0 < ub.getD 0 0) (hv : (v.length : Int) = sz.prod) :
    ∃ v', onVecs (Cuda.subInit sz lb ub (at_ 0) 1) [v] = .ok [v'] ∧ v'.length = v.length ∧
      ∀ x w, InBox sz x → Between lb ub x sz.length → ((initWrites (List.zipWith (fun l u => u - l + 1) lb ub)).filter
            (·.1 == rowMajor (List.zipWith (fun l u => u - l + 1) lb ub) (List.zipWith (· - ·) x lb))).getLast? = some w →
        v'[(rowMajor sz x).toNat]? = some ((w.2 : Int) : T) := by
  obtain ⟨m', run, vals, rest⟩ := C99_init (m := blocks [v]) (v := at_ 0) (b := 1) h hd h0 (blocks_cells (l := v) rfl hv) (blocks_unused (by simp))
  obtain ⟨v', r, l, e, -⟩ := in_box_only h.pos hv run vals (fun x hx => by
    split
    · exact ⟨_, rfl⟩
    · rw [blocks_at (l := v) rfl (rowMajor_nonneg hx), List.getElem?_eq_getElem (by have := rowMajor_lt hx; have := rowMajor_nonneg hx; omega)]
      exact ⟨_, rfl⟩) rest
  refine ⟨v', r, l, fun x w hx hb hw => ?_⟩
  rw [e x hx hb, hw]

theorem holds_ok [IntCast T] [DecidableEq T] {v : List T} {p z : Int} (hp : 0 ≤ p) (h : v[p.toNat]? = some (z : T)) : holds v p z = .ok true := by
  unfold holds
  rw [vget_ok hp h, M.ok_bind]
  simp

end Verif
