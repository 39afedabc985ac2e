import Verif.Lemmas.Driver
import Verif.Lemmas.Values
import Verif.Lemmas.Shapes
import Verif.Lemmas.SmoothRun
import Verif.Spec.SpanTest
import Verif.Model.Tests.Host

/-
Loops on the host that fill a vector of zeros.
-/

namespace Verif
open Spec

namespace Test

variable {T : Type}

/-- as long as `G`, and each element is that of `G` or still zero -/
structure Good [Zero T] (G l : List T) : Prop where
  len : l.length = G.length
  or : ∀ q : Nat, q < G.length → l[q]? = G[q]? ∨ l[q]? = some 0

/-- the loop `b` puts elements of `G` where they belong, among them all those at `K` -/
def Settles [Zero T] (G : List T) (b : List T → M (List T)) (K : Int → Prop) : Prop :=
  ∀ l, Good G l → ∃ l', b l = .ok l' ∧ Good G l' ∧ (∀ q : Nat, l[q]? = G[q]? → l'[q]? = G[q]?) ∧ ∀ q : Nat, K q → l'[q]? = G[q]?

theorem vget_ok {l : List T} {k : Int} {x : T} (h0 : 0 ≤ k) (h : l[k.toNat]? = some x) : vget l k = .ok x := by
  unfold vget
  rw [if_pos h0, h]

theorem settles_set [Zero T] {G : List T} {k : Int} {x : T} (h0 : 0 ≤ k) (h : G[k.toNat]? = some x) : Settles G (fun l => vset l k x) (· = k) := by
  intro l hl
  have hk : k.toNat < G.length := by
    by_contra hc
    rw [List.getElem?_eq_none (by omega)] at h
    cases h
  have hk' : k < (l.length : Int) := by
    rw [hl.len]
    omega
  refine ⟨l.set k.toNat x, ?_, ⟨?_, ?_⟩, ?_, ?_⟩
  · dsimp only [vset]
    rw [if_pos ⟨h0, hk'⟩]
  · rw [List.length_set, hl.len]
  · intro q hq
    by_cases e : k.toNat = q
    · left
      rw [List.getElem?_set, if_pos e, if_pos (by omega), ← e, h]
    · rw [List.getElem?_set, if_neg e]
      exact hl.or q hq
  · intro q hq
    by_cases e : k.toNat = q
    · rw [List.getElem?_set, if_pos e, if_pos (by omega), ← e, h]
    · rw [List.getElem?_set, if_neg e, hq]
  · intro q e
    have e : k.toNat = q := by omega
    rw [List.getElem?_set, if_pos e, if_pos (by omega), ← e, h]

theorem settles_by [Zero T] {G : List T} {b : List T → M (List T)} {k : Int} {x : T} (he : ∀ l, b l = vset l k x) (h0 : 0 ≤ k) (h : G[k.toNat]? = some x) :
    Settles G b (· = k) := by
  rw [show b = fun l => vset l k x from funext he]
  exact settles_set h0 h

theorem Settles.weaken [Zero T] {G : List T} {b : List T → M (List T)} {K K' : Int → Prop} (h : Settles G b K) (hk : ∀ q, K' q → K q) : Settles G b K' := by
  intro l hl
  obtain ⟨l', a1, a2, a3, a4⟩ := h l hl
  exact ⟨l', a1, a2, a3, fun q hq => a4 q (hk q hq)⟩

theorem settles_rounds [Zero T] {G : List T} {hi s : Int} {body : Int → List T → M (List T)} {K : Int → Int → Prop} (hs : 1 ≤ s) (hf : hi + s ≤ 2147483647) :
    ∀ (n : Nat) (lo : Int), -2147483648 ≤ lo → hi - lo + 1 ≤ n → (∀ i, F.OnStride lo hi s i → Settles G (body i) (K i)) →
      Settles G (rounds hi s body n lo) (fun q => ∃ i, F.OnStride lo hi s i ∧ K i q) := by
  intro n
  induction n with
  | zero =>
    intro lo hm hn h l hl
    refine ⟨l, ?_, hl, fun q hq => hq, ?_⟩
    · unfold rounds
      rw [if_neg (by omega)]
    · rintro q ⟨i, ⟨h1, h2, -⟩, -⟩
      omega
  | succ n ih =>
    intro lo hm hn h l hl
    by_cases hlo : lo ≤ hi
    · obtain ⟨l1, a1, a2, a3, a4⟩ := h lo ⟨le_refl lo, hlo, 0, by simp⟩ l hl
      obtain ⟨l2, b1, b2, b3, b4⟩ := ih (lo + s) (by omega) (by omega) (fun i hi => h i (by
        obtain ⟨h1, h2, k, rfl⟩ := hi
        refine ⟨by omega, h2, k + 1, ?_⟩
        push_cast
        ring)) l1 a2
      refine ⟨l2, ?_, b2, fun q hq => b3 q (a3 q hq), ?_⟩
      · unfold rounds
        rw [if_pos hlo, a1, M.ok_bind, iadd_ok (by unfold InInt; omega), M.ok_bind]
        exact b1
      · rintro q ⟨i, ⟨h1, h2, k, rfl⟩, hq⟩
        cases k with
        | zero =>
          refine b3 q (a4 q ?_)
          simpa using hq
        | succ k =>
          refine b4 q ⟨_, ⟨?_, h2, k, ?_⟩, hq⟩
          · have : 0 ≤ s * (k : Int) := by positivity
            push_cast
            nlinarith
          · push_cast
            ring
    · refine ⟨l, ?_, hl, fun q hq => hq, ?_⟩
      · unfold rounds
        rw [if_neg hlo]
      · rintro q ⟨i, ⟨h1, h2, -⟩, -⟩
        omega

theorem settles_for [Zero T] {G : List T} {lo hi s : Int} {body : Int → List T → M (List T)} {K : Int → Int → Prop} (hs : 1 ≤ s) (hf : hi + s ≤ 2147483647)
    (hm : -2147483648 ≤ lo) (h : ∀ i, F.OnStride lo hi s i → Settles G (body i) (K i)) :
    Settles G (forTo lo hi s body) (fun q => ∃ i, F.OnStride lo hi s i ∧ K i q) :=
  settles_rounds hs hf _ lo hm (by omega) h

theorem settled [Zero T] {G : List T} {b : List T → M (List T)} {K : Int → Prop} {n : Nat} (h : Settles G b K) (hn : n = G.length)
    (h0 : ∀ q : Nat, q < G.length → ¬ K q → G[q]? = some 0) : b (List.replicate n 0) = .ok G := by
  subst hn
  have rep : ∀ q, q < G.length → (List.replicate G.length (0 : T))[q]? = some 0 := fun q hq => by
    rw [List.getElem?_replicate, if_pos hq]
  obtain ⟨l', a1, a2, -, a4⟩ := h (List.replicate G.length 0) ⟨by simp, fun q hq => .inr (rep q hq)⟩
  rw [a1]
  congr 1
  refine List.ext_getElem? fun q => ?_
  by_cases hq : q < G.length
  · by_cases hk : K q
    · exact a4 q hk
    · rcases a2.or q hq with e | e
      · exact e
      · rw [e, h0 q hq hk]
  · rw [List.getElem?_eq_none (by rw [a2.len]; omega), List.getElem?_eq_none (by omega)]

theorem onStride_one {lo hi i : Int} : F.OnStride lo hi 1 i ↔ lo ≤ i ∧ i ≤ hi :=
  ⟨fun h => ⟨h.1, h.2.1⟩, fun h => ⟨h.1, h.2, (i - lo).toNat, by omega⟩⟩

theorem made_zero [Zero T] {g : Int} {b : List DB} {v : DevVec T} (h : DevVec.makeVecOffset 0 g b = .ok v) : ∀ x ∈ v.d, x = 0 := by
  unfold DevVec.makeVecOffset at h
  obtain ⟨gr, -, h4⟩ := bind_inv h
  unfold DevVec.make at h4
  obtain ⟨n, -, h4⟩ := bind_inv h4
  split at h4
  · cases h4
  · injection h4 with h4
    subst h4
    exact fun x hx => List.eq_of_mem_replicate hx

/-! ### a test with one vector read and one vector written on the device -/

theorem devMem_val {vs : List (DevVec T)} {k : Nat} {v : DevVec T} (h : vs[k]? = some v) (q : Nat) : (devMem vs).val ⟨k, (q : Int)⟩ = v.d[q]? := by
  simp [devMem, blocks, h]

theorem newBlock_get {m' : Mem T} {k : Nat} {l : List T} (hm : ∀ q : Nat, q < l.length → ∃ x, m'.val ⟨k, (q : Int)⟩ = some x) (q : Nat) (hq : q < l.length) :
    (newBlock m' k l)[q]? = m'.val ⟨k, (q : Int)⟩ := by
  obtain ⟨x, hx⟩ := hm q hq
  unfold newBlock
  rw [List.getElem?_mapIdx, List.getElem?_eq_getElem hq]
  simp [hx]

theorem newBlock_length {m : Mem T} {k : Nat} {l : List T} : (newBlock m k l).length = l.length := by
  unfold newBlock
  rw [List.length_mapIdx]

theorem newBlock_same {m' : Mem T} {k : Nat} {l : List T} (hm : ∀ q : Nat, q < l.length → m'.val ⟨k, (q : Int)⟩ = l[q]?) : newBlock m' k l = l := by
  refine List.ext_getElem? fun q => ?_
  by_cases hq : q < l.length
  · rw [newBlock_get (fun q hq => ⟨l[q], by rw [hm q hq, List.getElem?_eq_getElem hq]⟩) q hq, hm q hq]
  · rw [List.getElem?_eq_none (by rw [newBlock_length]; omega), List.getElem?_eq_none (by omega)]

/-- what the run leaves in vector 0 and in vector 1 -/
structure Ran [Zero T] (u r : DevVec T) (dims : List (Int × Int)) (P : List Int → Prop) (f : List Int → T) (m' : Mem T) : Prop where
  read : newBlock m' 0 u.d = u.d
  len : (newBlock m' 1 r.d).length = r.h.length
  at_ : ∀ is, P is → (newBlock m' 1 r.d)[(F.colMajor dims is).toNat]? = some (f is)
  rest : ∀ q : Nat, q < r.h.length → (∀ is, P is → F.InBounds dims is → (q : Int) ≠ F.colMajor dims is) → (newBlock m' 1 r.d)[q]? = some 0

theorem ran [Zero T] {u r : DevVec T} {nr : Int} {dims : List (Int × Int)} {P : List Int → Prop} {f : List Int → T} {m' : Mem T} (hr : Ready r nr) (hz : ∀ x ∈ r.d, x = 0) (hn : (dims.map fun d => d.2 - d.1 + 1).prod = nr) (h : F.Sets ⟨Test.at_ 1, dims⟩ P f (devMem [u, r]) m') :
    Ran u r dims P f m' := by
  have al : ∀ q : Nat, q < r.d.length → ∃ x, m'.val ⟨1, (q : Int)⟩ = some x := fun q hq => by
    refine h.rest.alloc _ ⟨r.d[q], ?_⟩
    rw [devMem_val (v := r) rfl, List.getElem?_eq_getElem hq]
  refine ⟨newBlock_same fun q hq => ?_, by rw [newBlock_length, hr.same], fun is his => ?_, fun q hq hno => ?_⟩
  · rw [h.rest.val _ (fun is _ _ e => by simp [Test.at_, Ptr.add] at e), devMem_val (v := u) rfl]
  · obtain ⟨hb, hv⟩ := h.at_ is his
    obtain ⟨c0, c1⟩ := Verif.colMajor_range hb
    have hl := hr.len
    have hq : (F.colMajor dims is).toNat < r.d.length := by
      dsimp only at c0 c1
      omega
    rw [newBlock_get al _ hq, ← hv]
    simp only [Test.at_, Ptr.add, zero_add]
    congr 2
    exact Int.toNat_of_nonneg c0
  · rw [hr.same] at hq
    rw [newBlock_get al q hq, h.rest.val, devMem_val (v := r) rfl, List.getElem?_eq_getElem hq]
    · rw [hz _ (List.getElem_mem hq)]
    · intro is hb hp e
      simp only [Test.at_, Ptr.add, zero_add, Ptr.mk.injEq, true_and] at e
      exact hno is hp hb e

/-! ### reading elements on the host -/

theorem vget_rd [Zero T] {vs : List (DevVec T)} {k : Nat} {v : DevVec T} {dims : List (Int × Int)} {is : List Int} {q : Int} (hk : vs[k]? = some v)
    (hok : F.ArrOK (devMem vs) ⟨Test.at_ k, dims⟩) (hb : F.InBounds dims is) (hq : q = F.colMajor dims is) :
    vget v.d q = .ok (F.rd (devMem vs) ⟨Test.at_ k, dims⟩ is) := by
  subst hq
  obtain ⟨c0, -⟩ := Verif.colMajor_range hb
  refine vget_ok c0 ?_
  rw [← (hok.rd (is := is) hb).2, ← devMem_val hk]
  simp only [Test.at_, Ptr.add, zero_add]
  congr 2
  exact Int.toNat_of_nonneg c0

theorem grown_geo {g : Int} {ds : List (Dim × Int × Int)} (hne : ds ≠ []) (hnd : (ds.map (·.1)).Nodup) (hg : 0 ≤ g) (hd : ∀ x ∈ ds, x.2.1 ≤ x.2.2)
    (hf : F.Fits (shape g ds)) : GeoOK (grown g (bounds ds)) := by
  rw [grown_bounds]
  refine ⟨by simpa using hne, by rw [List.map_map]; exact hnd, ?_, ?_, ?_, ?_⟩
  · intro y hy
    obtain ⟨x, hx, rfl⟩ := List.mem_map.1 hy
    dsimp only
    split <;> rfl
  · intro y hy
    obtain ⟨x, hx, rfl⟩ := List.mem_map.1 hy
    have := hd x hx
    dsimp only
    split <;> dsimp only <;> omega
  · rw [← grown_bounds, grown_lengths]
    exact hf.fits
  · intro y hy
    obtain ⟨x, hx, rfl⟩ := List.mem_map.1 hy
    have := hf.int _ (List.mem_reverse.2 (List.mem_map_of_mem hx))
    dsimp only
    split
    · rename_i h
      rw [if_pos h] at this
      exact this
    · rename_i h
      rw [if_neg h] at this
      refine ⟨this.1, ?_⟩
      have := this.2
      dsimp only at this ⊢
      rwa [show x.2.2 + 1 + g = x.2.2 + g + 1 by ring]

theorem index_geo {v w : DevVec T} {args : List Int} (h : v.geo = w.geo) : v.index args = w.index args := by
  unfold DevVec.index
  rw [h]

theorem shape_grown {g : Int} {ds : List (Dim × Int × Int)} : shape g ds = ((grown g (bounds ds)).map fun x => (x.2.first, x.2.last - 1)).reverse := by
  rw [grown_bounds, List.map_map]
  unfold shape
  congr 1
  refine List.map_congr_left fun x _ => ?_
  simp only [Function.comp_apply]
  split
  · simp
  · rw [show x.2.2 + 1 + g - 1 = x.2.2 + g by ring]

theorem index_ok [Zero T] {g : Int} {ds : List (Dim × Int × Int)} {v : DevVec T} {p : Pt} (hne : ds ≠ []) (hnd : (ds.map (·.1)).Nodup) (hg : 0 ≤ g)
    (hd : ∀ x ∈ ds, x.2.1 ≤ x.2.2) (hf : F.Fits (shape g ds)) (hv : DevVec.makeVecOffset 0 g (bounds ds) = .ok v)
    (hp : ∀ x ∈ ds, (if x.1 = Dim.W then x.2.1 else x.2.1 - g) ≤ p x.1 ∧ p x.1 ≤ if x.1 = Dim.W then x.2.2 else x.2.2 + g) :
    v.index (ds.map fun x => p x.1) = .ok (F.colMajor (shape g ds) (ds.map fun x => p x.1).reverse) := by
  obtain ⟨w, h1, -, h3⟩ := C45_ghost_partial (zero := (0 : T)) (g := g) (bnds := bounds ds) (by
    intro x hx
    obtain ⟨y, -, rfl⟩ := List.mem_map.1 hx
    rfl) (grown_geo hne hnd hg hd hf)
  rw [hv] at h1
  injection h1 with h1
  subst h1
  have hin : Inside (grown g (bounds ds)) p := by
    rw [grown_bounds]
    intro y hy
    obtain ⟨x, hx, rfl⟩ := List.mem_map.1 hy
    have := hp x hx
    dsimp only
    split
    · rename_i h
      rw [if_pos h, if_pos h] at this
      exact ⟨this.1, by dsimp only; omega⟩
    · rename_i h
      rw [if_neg h, if_neg h] at this
      exact ⟨this.1, by dsimp only; omega⟩
  have e1 : ((bounds ds).map fun x => p x.1) = ds.map fun x => p x.1 := by
    unfold bounds
    rw [List.map_map]
    rfl
  have e2 : ((grown g (bounds ds)).map fun x => p x.1) = ds.map fun x => p x.1 := by
    rw [grown_bounds, List.map_map]
    rfl
  rw [← e1, (h3 p hin).1, e1, shape_grown, ← e2, colMajor_reverse (by simp)]
  unfold storeOff
  congr 2
  rw [List.zipWith_map_left, List.zipWith_self]

/-! ### after a kernel that was given both vectors -/

def after (m' : Mem T) (k : Nat) (v : DevVec T) : DevVec T := { v with sync := false, d := newBlock m' k v.d }

theorem onDevice_two {c : Mem T → M (Mem T)} {u r : DevVec T} {m' : Mem T} (h : c (devMem [u, r]) = .ok m') :
    onDevice [0, 1] c [u, r] = .ok [after m' 0 u, after m' 1 r] := by
  unfold onDevice
  rw [h]
  rfl

theorem onDevice_one {c : Mem T → M (Mem T)} {u : DevVec T} {m' : Mem T} (h : c (devMem [u]) = .ok m') :
    onDevice [0] c [u] = .ok [after m' 0 u] := by
  unfold onDevice
  rw [h]
  rfl

theorem onDevice_three {c : Mem T → M (Mem T)} {u v w : DevVec T} {m' : Mem T} (h : c (devMem [u, v, w]) = .ok m') :
    onDevice [2, 0, 1] c [u, v, w] = .ok [after m' 0 u, after m' 1 v, after m' 2 w] := by
  unfold onDevice
  rw [h]
  rfl

theorem zeros_after [Zero T] {a r : DevVec T} {m' : Mem T} : zeros 1 [a, after m' 1 r] = .ok (List.replicate r.h.length 0) := rfl

theorem hostOf_after {u b : DevVec T} {m' : Mem T} : hostOf 0 [after m' 0 u, b] = .ok (newBlock m' 0 u.d, [(after m' 0 u).host, b]) := rfl

theorem std_after {a r : DevVec T} {m' : Mem T} : std 1 [a, after m' 1 r] = .ok (newBlock m' 1 r.d, [a, (after m' 1 r).toStd.1]) := rfl

end Test
end Verif
