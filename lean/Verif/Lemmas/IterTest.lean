import Verif.Model.Kernels.IterTest
import Verif.Lemmas.Parallel
import Verif.Lemmas.StencilGeo
import Verif.Lemmas.Expr

namespace Verif
open Spec

variable {T : Type}

/-- `n` consecutive elements -/
def Cells (m : Mem T) (v : Ptr) (n : Int) : Prop := ∀ k, 0 ≤ k → k < n → ∃ a, m.val (v.add k) = some a

theorem ptr_add_eq {v : Ptr} {k l : Int} : v.add k = v.add l ↔ k = l := by simp [Ptr.add]

theorem mapM_load {m : Mem T} {f : Nat → Ptr} : ∀ {l : List Nat}, (∀ k ∈ l, ∃ a, m.val (f k) = some a) →
    ∃ xs, l.mapM (fun k => m.load (f k)) = .ok xs ∧ xs.length = l.length ∧ ∀ (i : Nat) k, l[i]? = some k → xs[i]? = m.val (f k)
  | [], _ => ⟨[], rfl, rfl, fun i k h => by simp at h⟩
  | a :: l, h => by
    obtain ⟨xs, e, hl, hx⟩ := mapM_load (m := m) (f := f) (l := l) fun k hk => h k (List.mem_cons_of_mem _ hk)
    obtain ⟨x, ex⟩ := h a List.mem_cons_self
    refine ⟨x :: xs, ?_, by simp [hl], fun i k hi => ?_⟩
    · rw [List.mapM_cons, e]
      simp only [Mem.load, ex]
      rfl
    · cases i with
      | zero => simp only [List.getElem?_cons_zero, Option.some.injEq] at hi ⊢; rw [← hi, ex]
      | succ i => simpa using hx i k (by simpa using hi)

/-- the vector holds a copy -/
theorem fromHost_ok {m : Mem T} {src : Ptr} {n : Int} {b : Nat} (h : Cells m src n) :
    ∃ m', m.fromHost src n b = .ok m' ∧ m'.ints = m.ints ∧ (∀ k, 0 ≤ k → k < n → m'.val ⟨b, k⟩ = m.val (src.add k)) ∧
      (∀ q, q.blk ≠ b → m'.val q = m.val q) := by
  obtain ⟨xs, e, hl, hx⟩ := mapM_load (m := m) (f := fun k : Nat => src.add k) (l := List.range n.toNat) fun k hk =>
    h k (by omega) (by have := List.mem_range.1 hk; omega)
  refine ⟨⟨fun q => if q.blk = b then (if 0 ≤ q.off then xs[q.off.toNat]? else none) else m.val q, m.ints⟩, by rw [Mem.fromHost, e]; rfl, rfl, fun k h0 h1 => ?_, fun q hq => by simp [hq]⟩
  have := hx k.toNat k.toNat (by rw [List.getElem?_range]; omega)
  simp only [↓reduceIte, h0]
  rw [this]
  congr 2
  omega

theorem toHost_loop {b : Nat} {dst : Ptr} (hb : dst.blk ≠ b) : ∀ {l : List Nat} {m : Mem T}, l.Nodup →
    (∀ k ∈ l, (∃ a, m.val ⟨b, (k : Int)⟩ = some a) ∧ ∃ a, m.val (dst.add k) = some a) →
    ∃ m', l.foldlM (fun m (k : Nat) => do
      let x ← m.load ⟨b, k⟩
      m.store (dst.add k) x) m = .ok m' ∧ m'.ints = m.ints ∧ (∀ k ∈ l, m'.val (dst.add k) = m.val ⟨b, (k : Int)⟩) ∧
      ∀ q, (∀ k ∈ l, q ≠ dst.add k) → m'.val q = m.val q
  | [], m, _, _ => ⟨m, rfl, rfl, by simp, fun _ _ => rfl⟩
  | a :: l, m, hn, h => by
    obtain ⟨⟨x, hx⟩, y, hy⟩ := h a List.mem_cons_self
    obtain ⟨ha, hn⟩ := List.nodup_cons.1 hn
    have hs : ∀ k : Int, (⟨b, k⟩ : Ptr) ≠ dst.add a := fun k e => hb (by rw [Ptr.add] at e; injection e with e _; exact e.symm)
    obtain ⟨m', e, hi, h1, h2⟩ := toHost_loop hb (l := l) (m := ⟨fun q => if q = dst.add a then some x else m.val q, m.ints⟩) hn
      (fun k hk => by
        obtain ⟨p, q⟩ := h k (List.mem_cons_of_mem _ hk)
        refine ⟨by simpa [hs] using p, ?_⟩
        have : (k : Int) ≠ a := fun e => ha (by have : k = a := by omega
                                                rwa [← this])
        simpa [ptr_add_eq, this] using q)
    refine ⟨m', ?_, hi, fun k hk => ?_, fun q hq => ?_⟩
    · rw [List.foldlM_cons]
      simp only [Mem.load, hx, M.ok_bind, Mem.store, hy]
      exact e
    · rcases List.mem_cons.1 hk with rfl | hk
      · rw [h2 _ fun j hj e => ha (by rw [ptr_add_eq] at e; have : k = j := by omega
                                      rwa [this])]
        simp [hx]
      · rw [h1 k hk]
        simp [hs]
    · rw [h2 q fun k hk => hq k (List.mem_cons_of_mem _ hk)]
      simp [hq a List.mem_cons_self]

/-- the copy back -/
theorem toHost_ok {m : Mem T} {b : Nat} {n : Int} {dst : Ptr} (hb : dst.blk ≠ b) (h : Cells m ⟨b, 0⟩ n) (hd : Cells m dst n) :
    ∃ m', m.toHost b n dst = .ok m' ∧ m'.ints = m.ints ∧ (∀ k, 0 ≤ k → k < n → m'.val (dst.add k) = m.val ⟨b, k⟩) ∧
      ∀ q, (∀ k, 0 ≤ k → k < n → q ≠ dst.add k) → m'.val q = m.val q := by
  obtain ⟨m', e, hi, h1, h2⟩ := toHost_loop hb (l := List.range n.toNat) (m := m) List.nodup_range fun k hk => by
    have hk := List.mem_range.1 hk
    have := h k (by omega) (by omega)
    simp only [Ptr.add, zero_add] at this
    exact ⟨this, hd k (by omega) (by omega)⟩
  refine ⟨m', e, hi, fun k h0 h3 => ?_, fun q hq => h2 q fun k hk => hq k (by omega) (by have := List.mem_range.1 hk; omega)⟩
  have := h1 k.toNat (List.mem_range.2 (by omega))
  rwa [show ((k.toNat : Nat) : Int) = k by omega] at this

/-- a thrust algorithm that stores `x k` in element `k`: whatever the schedule -/
theorem walk_run {ι : Type} [RA ι] {n : Int} {out : Int → ι} {adr : Int → Ptr} {σ : Sched} {m : Mem T} {rd : Int → Mem T → M T} {x : Int → T}
    {R : Int → Ptr → Prop} (hn : n ≤ 2147483647) (hσ : ValidSched n 2 σ) (hw : FWalk n out)
    (hadr : ∀ k, 0 ≤ k → k < n → RA.addr (out k) = .ok (adr k)) (hinj : ∀ k l, 0 ≤ k → k < n → 0 ≤ l → l < n → adr k = adr l → k = l)
    (hal : ∀ k, 0 ≤ k → k < n → ∃ a, m.val (adr k) = some a) (hrd : ∀ k, 0 ≤ k → k < n → rd k m = .ok (x k))
    (hloc : ∀ k, 0 ≤ k → k < n → ∀ m1 m2 : Mem T, m1.ints = m.ints → m2.ints = m.ints → (∀ q, R k q → m1.val q = m2.val q) → rd k m1 = rd k m2)
    (hR : ∀ k l, 0 ≤ k → k < n → 0 ≤ l → l < n → ¬ R k (adr l)) :
    ∃ m', parallel (walkThread rd (out 0) σ) σ.trace m = .ok m' ∧ m'.ints = m.ints ∧ (∀ k, 0 ≤ k → k < n → m'.val (adr k) = some (x k)) ∧
      ∀ q, (∀ k, 0 ≤ k → k < n → q ≠ adr k) → m'.val q = m.val q := by
  have hwr : ∀ {k}, 0 ≤ k → k < n → (do
      let o ← runMoves (σ.whist k) (out 0)
      RA.addr o) = .ok (adr k) := by
    intro k h0 h1
    obtain ⟨w1, w2⟩ := hσ.whist k h0 h1
    rw [hw.run hn w1, zero_add, w2, M.ok_bind, hadr k h0 h1]
  obtain ⟨m', h1, h2, h3, h4⟩ := parallel_ok (n := n) (c := 2) (threads := walkThread rd (out 0) σ) (m := m) (R := R) (W := fun k q => q = adr k)
    (fin := fun k => ([.val (.num (x k))], { m with val := fun q => if q = adr k then some (x k) else m.val q })) (trace := σ.trace)
    (fun _ _ _ => rfl) (by
      intro k k0 k1
      obtain ⟨a, ha⟩ := hal k k0 k1
      refine ⟨fun m1 m2 hi1 hag => ?_, ([.val (.num (x k))], m), ?_, ⟨_, hwr k0 k1, rfl⟩,
        ([.val (.num (x k))], { m with val := fun q => if q = adr k then some (x k) else m.val q }), ?_, rfl⟩
      · dsimp only
        rw [hloc k k0 k1 m1 m2 hi1 (hag.1.symm.trans hi1) fun q hq => hag.2 q (Or.inl hq)]
      · simp only [Micro.run]
        rw [hrd k k0 k1]
        rfl
      · simp only [Micro.run]
        rw [hwr k0 k1]
        simp [Mem.store, ha])
    (by
      intro k l k0 k1 l0 l1 hkl q hq
      subst hq
      exact ⟨hR l k l0 l1 k0 k1, fun e => hkl (hinj k l k0 k1 l0 l1 e)⟩)
    (fun k => hσ.once k)
  refine ⟨m', h1, h2, fun k k0 k1 => ?_, fun q hq => h4 q fun k k0 k1 => hq k k0 k1⟩
  rw [h3 k k0 k1 _ rfl]
  simp

/-- one element set -/
def Mem.setAt (m : Mem T) (p : Ptr) (x : T) : Mem T := { m with val := fun q => if q = p then some x else m.val q }

theorem Mem.store_setAt {m : Mem T} {p : Ptr} {x : T} (h : ∃ a, m.val p = some a) : m.store p x = .ok (m.setAt p x) := by
  obtain ⟨a, ha⟩ := h
  simp [Mem.store, ha, Mem.setAt]

theorem Mem.load_setAt {m : Mem T} {p : Ptr} {x : T} : (m.setAt p x).load p = .ok x := by simp [Mem.load, Mem.setAt]

theorem Mem.load_setAt_ne {m : Mem T} {p q : Ptr} {x : T} (h : q ≠ p) : (m.setAt p x).load q = m.load q := by simp [Mem.load, Mem.setAt, h]

theorem Mem.setAt_alloc {m : Mem T} {p q : Ptr} {x : T} (h : ∃ a, m.val q = some a) : ∃ a, (m.setAt p x).val q = some a := by
  by_cases e : q = p
  · exact ⟨x, by simp [Mem.setAt, e]⟩
  · simpa [Mem.setAt, e] using h

end Verif
