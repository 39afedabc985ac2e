import Verif.Lemmas.IterTest
import Verif.Props.Views

/-
C98: the test kernels of the forward stencil iterator.
C99: the test kernels of the submatrix iterator.
C100: the test kernel of the transpose iterator.
C101: the offset iterator and its test kernel.
-/

namespace Verif
open Spec

variable {T : Type}

/-- nothing is kept in block `b` -/
def Unused (m : Mem T) (b : Nat) : Prop := ∀ k, m.val ⟨b, k⟩ = none

theorem Unused.ne {m : Mem T} {b : Nat} {v : Ptr} {n : Int} (h : Unused m b) (hn : 0 < n) (hv : Cells m v n) : v.blk ≠ b := by
  intro e
  obtain ⟨a, ha⟩ := hv 0 (le_refl _) hn
  rw [show v.add 0 = ⟨b, v.off + 0⟩ by rw [← e]; rfl, h] at ha
  cases ha

theorem Mem.free_unused {m m' : Mem T} {b : Nat} (hb : Unused m b) {q : Ptr} (h : q.blk ≠ b → m'.val q = m.val q) : (m'.free b).val q = m.val q := by
  simp only [Mem.free]
  split
  · rename_i e; rw [← hb q.off, ← e]
  · rename_i e; exact h e

/-- `transform`: for arrays of any number of dimensions and any direction, `u` gets the forward differences of `v` along the direction, one for each
pair of neighbours, in row-major order; `u` may overlap `v`. -/
theorem C98_transform [Sub T] {dims : List Int} {i : Nat} {v u : Ptr} {bx bY : Nat} {β : Backend} {m : Mem T} (hβ : ValidBackend β)
    (hp : Pos dims) (hN : dims.prod ≤ 2147483647) (hi : i < dims.length) (h2 : 2 ≤ dims.getD i 0) (hv : Cells m v dims.prod)
    (hu : Cells m u (shorten dims i).prod) (hbb : bx ≠ bY) (hx : Unused m bx) (hy : Unused m bY) :
    ∃ m', Cuda.fsTransform dims i v u bx bY β m = .ok m' ∧
      (∀ c a b, InBox (shorten dims i) c → m.val (v.add (rowMajor dims c)) = some a → m.val (v.add (rowMajor dims (bump c i))) = some b →
        m'.val (u.add (rowMajor (shorten dims i) c)) = some (b - a)) ∧
      ∀ q, (∀ c, InBox (shorten dims i) c → q ≠ u.add (rowMajor (shorten dims i) c)) → m'.val q = m.val q := by
  have hs := shorten_pos hp h2
  have hps := hs.prod_pos
  have hw := weight_pos hp i
  have hub : u.blk ≠ bx ∧ u.blk ≠ bY := ⟨hx.ne (by omega) hu, hy.ne (by omega) hu⟩
  have hT : Nonempty T := by
    obtain ⟨a, -⟩ := hu 0 (le_refl _) (by omega)
    exact ⟨a⟩
  let S := weight dims i
  let L := (dims.getD i 0 - 1) * weight dims i
  let B := (dims.take i).prod
  have hBL : B * L = (shorten dims i).prod := (shorten_prod hi).symm
  have geo : FS.Geo S L B dims.prod := by
    refine ⟨hw, by show 1 ≤ (dims.getD i 0 - 1) * weight dims i; nlinarith, (MT.Pos.take hp i).prod_pos, ?_, hN⟩
    rw [prod_split hi]
    apply le_of_eq
    show (dims.take i).prod * ((dims.getD i 0 - 1) * weight dims i + weight dims i) = _
    ring
  have hle : (shorten dims i).prod ≤ 2147483647 := by have := geo.L_le; omega
  let st : Int → Ptr := fun k => (⟨bx, 0⟩ : Ptr).add k
  have wk : RAWalk dims.prod st := Ptr.walk _ _
  have fw : FWalk (shorten dims i).prod (FS.at_ st S L B) := by
    refine ⟨fun h0 h1 => FS.inc_at geo wk h0 (by omega), fun {k d} h0 hd h1 => FS.adv_at geo wk h0 (by omega) (by omega) (by omega) (.inl ?_)⟩
    have := Int.emod_nonneg k (show L ≠ 0 by have := geo.hL; omega)
    omega
  have begin_ : FS.make (⟨bx, 0⟩ : Ptr) S L (shorten dims i).prod = FS.at_ st S L B 0 := by
    simp [FS.make, FS.at_, hBL, st, Ptr.add]
  have pos : ∀ k, 0 ≤ k → k < (shorten dims i).prod → (FS.at_ st S L B k).addrs =
      .ok (⟨bx, rowMajor dims (coords (shorten dims i) k)⟩, ⟨bx, rowMajor dims (bump (coords (shorten dims i) k) i)⟩) := by
    intro k h0 h1
    have hc := coords_inBox hs h0 h1
    obtain ⟨e, -⟩ := rowMajor_shorten hi hp hc h2
    rw [rowMajor_coords hs h0 h1] at e
    rw [rowMajor_bump hi (by rw [coords_length, shorten_length]), e]
    simp [FS.addrs, FS.at_, RA.addr, Step.adv, st, Ptr.add, S, L]
  have vals : ∀ c, InBox (shorten dims i) c → (∃ a, m.val (v.add (rowMajor dims c)) = some a) ∧ ∃ b, m.val (v.add (rowMajor dims (bump c i))) = some b := by
    intro c hc
    have l := (rowMajor_shorten hi hp hc h2).2
    have hb := bump_inBox hp hc
    exact ⟨hv _ (rowMajor_nonneg l) (rowMajor_lt l), hv _ (rowMajor_nonneg hb) (rowMajor_lt hb)⟩
  obtain ⟨m1, e1, i1, c1, f1⟩ := fromHost_ok (b := bx) hv
  obtain ⟨m2, e2, i2, c2, f2⟩ := fromHost_ok (b := bY) (m := m1) (src := u) (n := (shorten dims i).prod)
    fun k h0 h1 => by rw [f1 (u.add k) hub.1]; exact hu k h0 h1
  have x2 : ∀ k, 0 ≤ k → k < dims.prod → m2.val ⟨bx, k⟩ = m.val (v.add k) := fun k h0 h1 => by rw [f2 _ hbb, c1 k h0 h1]
  have inb : ∀ k, 0 ≤ k → k < (shorten dims i).prod → InBox dims (coords (shorten dims i) k) ∧ InBox dims (bump (coords (shorten dims i) k) i) :=
    fun k h0 h1 => ⟨(rowMajor_shorten hi hp (coords_inBox hs h0 h1) h2).2, bump_inBox hp (coords_inBox hs h0 h1)⟩
  choose! A hA using fun c hc => (vals c hc).1
  choose! Bb hB using fun c hc => (vals c hc).2
  have σ := hβ (shorten dims i).prod 2
  obtain ⟨m3, e3, i3, c3, f3⟩ := walk_run (m := m2) (out := fun k => (⟨bY, 0⟩ : Ptr).add k) (adr := fun k => (⟨bY, 0⟩ : Ptr).add k)
    (rd := fun k m => do
      let t ← runMoves ((β (shorten dims i).prod 2).rhist k) (FS.at_ st S L B 0)
      let p ← t.addrs
      let a ← m.load p.1
      let b ← m.load p.2
      .ok (b - a)) (x := fun k => Bb (coords (shorten dims i) k) - A (coords (shorten dims i) k))
    (R := fun _ q => q.blk = bx) hle σ ⟨fun h0 h1 => (Ptr.walk ⟨bY, 0⟩ (shorten dims i).prod).inc h0 (by omega),
      fun h0 h1 h3 => (Ptr.walk ⟨bY, 0⟩ (shorten dims i).prod).adv h0 (by omega) (by omega) (by omega)⟩
    (fun _ _ _ => rfl) (fun k l _ _ _ _ e => ptr_add_eq.1 e)
    (fun k h0 h1 => by
      have := hu k h0 h1
      simp only [Ptr.add, zero_add]
      rw [c2 k h0 h1, f1 (u.add k) hub.1]
      exact this)
    (fun k h0 h1 => by
      obtain ⟨w1, w2⟩ := σ.rhist k h0 h1
      have hc := coords_inBox hs h0 h1
      obtain ⟨n1, n2⟩ := inb k h0 h1
      simp only [fw.run hle w1, zero_add, w2, M.ok_bind, pos k h0 h1, Mem.load, x2 _ (rowMajor_nonneg n1) (rowMajor_lt n1),
        x2 _ (rowMajor_nonneg n2) (rowMajor_lt n2), hA _ hc, hB _ hc])
    (fun k h0 h1 a b _ _ hab => by
      obtain ⟨w1, w2⟩ := σ.rhist k h0 h1
      simp only [fw.run hle w1, zero_add, w2, M.ok_bind, pos k h0 h1, Mem.load]
      rw [hab _ rfl, hab _ rfl])
    (fun k l _ _ _ _ e => hbb e.symm)
  obtain ⟨m4, e4, i4, c4, f4⟩ := toHost_ok (m := m3) (b := bY) (n := (shorten dims i).prod) (dst := u) hub.2
    (fun k h0 h1 => ⟨_, c3 k h0 h1⟩)
    (fun k h0 h1 => by
      rw [f3 _ fun l _ _ e => hub.2 (by have := congrArg Ptr.blk e; simpa [Ptr.add] using this), f2 (u.add k) hub.2, f1 (u.add k) hub.1]
      exact hu k h0 h1)
  have fin : ∀ q, (∀ k, 0 ≤ k → k < (shorten dims i).prod → q ≠ u.add k) → q.blk ≠ bx → q.blk ≠ bY → m4.val q = m.val q := by
    intro q hq hqx hqy
    rw [f4 q hq, f3 q fun l _ _ e => hqy (by rw [e]; rfl), f2 q hqy, f1 q hqx]
  refine ⟨(m4.free bx).free bY, ?_, fun c a b hc ha hb => ?_, fun q hq => ?_⟩
  · have k1 : strideDim dims 0 = .ok dims.prod := by rw [strideDim_ok 0 hp hN, List.drop_zero]
    have k2 : shrink dims i = .ok (shorten dims i) := shrink_ok hp hN
    have k3 : strideDim (shorten dims i) i = .ok L := by rw [strideDim_ok i hs hle, shorten_drop_prod hi]
    have k4 : strideDim dims (i + 1) = .ok S := by rw [strideDim_ok (i + 1) hp hN]; rfl
    have k5 : strideDim (shorten dims i) 0 = .ok (shorten dims i).prod := by rw [strideDim_ok 0 hs hle, List.drop_zero]
    have k6 := FS.adv_to_end geo wk (p := 0) (le_refl _) (by omega)
    rw [sub_zero, hBL] at k6
    have k7 : dsub ((FS.at_ st S L B 0).distanceToLast) 0 = .ok (shorten dims i).prod := by
      simp only [FS.at_, sub_zero, hBL, dsub, chk64, InDiff]
      rw [if_pos (by omega)]
    have p0 := pos 0 (le_refl _) (by omega)
    have hc0 := coords_inBox hs (le_refl 0) (by omega : (0 : Int) < (shorten dims i).prod)
    obtain ⟨n1, n2⟩ := inb 0 (le_refl _) (by omega)
    have keep : ∀ k, 0 ≤ k → k < dims.prod → m4.val ⟨bx, k⟩ = m.val (v.add k) := by
      intro k h0 h1
      rw [f4 _ fun l _ _ e => hub.1 (by have := congrArg Ptr.blk e; simpa [Ptr.add] using this.symm), f3 _ fun l _ _ e => hbb (by have := congrArg Ptr.blk e; simpa [Ptr.add] using this), x2 k h0 h1]
    have l1 : m4.load ⟨bx, rowMajor dims (coords (shorten dims i) 0)⟩ = .ok (A (coords (shorten dims i) 0)) := by
      simp only [Mem.load, keep _ (rowMajor_nonneg n1) (rowMajor_lt n1), hA _ hc0]
    have l2 : m4.load ⟨bx, rowMajor dims (bump (coords (shorten dims i) 0) i)⟩ = .ok (Bb (coords (shorten dims i) 0)) := by
      simp only [Mem.load, keep _ (rowMajor_nonneg n2) (rowMajor_lt n2), hB _ hc0]
    have a0 : (⟨bY, 0⟩ : Ptr).add 0 = ⟨bY, 0⟩ := by simp [Ptr.add]
    rw [a0] at e3
    simp only [Cuda.fsTransform, k1, k2, k3, k4, k5, M.ok_bind, e1, e2, begin_, k6, FS.distTo, k7, check, BEq.rfl, ↓reduceIte, e3, e4, p0, l1, l2]
  · have r0 := rowMajor_nonneg hc
    have r1 := rowMajor_lt hc
    have e := c3 _ r0 r1
    rw [coords_rowMajor hc] at e
    simp only [Ptr.add, zero_add] at e
    have a' := hA c hc
    have b' := hB c hc
    rw [ha, Option.some.injEq] at a'
    rw [hb, Option.some.injEq] at b'
    have n1 : (u.add (rowMajor (shorten dims i) c)).blk ≠ bx := hub.1
    have n2 : (u.add (rowMajor (shorten dims i) c)).blk ≠ bY := hub.2
    simp only [Mem.free, n1, n2, ↓reduceIte]
    rw [c4 _ r0 r1, e, a', b']
  · refine Mem.free_unused hy fun q2 => Mem.free_unused hx fun q1 => fin q (fun k h0 h1 => ?_) q1 q2
    have := hq _ (coords_inBox hs h0 h1)
    rwa [rowMajor_coords hs h0 h1] at this

end Verif
