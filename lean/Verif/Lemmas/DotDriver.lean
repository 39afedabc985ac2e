import Verif.Lemmas.Host
import Verif.Lemmas.IterDriver
import Verif.Model.Tests.Offset
import Verif.Spec.Kernels.ApplyStencil

/-
The loops of src/dot_offset.t.cpp, the table of displacements, and what the kernel leaves in the vectors.
-/

namespace Verif
namespace Test

open Spec

variable {T : Type}

theorem irange_succ {j : Int} (hj : 0 ≤ j) : F.irange 0 j = F.irange 0 (j - 1) ++ [j] := by
  unfold F.irange
  rw [show (j - 0 + 1).toNat = (j - 1 - 0 + 1).toNat + 1 by omega, List.range_succ, List.map_append]
  congr 1
  simp
  omega

/-- a loop that adds to one element -/
theorem accumulate [Zero T] [Add T] {k n : Int} {t : Int → T} {body : Int → List T → M (List T)} (hn : 0 ≤ n) (hn' : n ≤ 2147483647)
    (hb : ∀ j e s, 0 ≤ j → j < n → 0 ≤ k → k < (e.length : Int) → e[k.toNat]? = some s → body j e = .ok (e.set k.toNat (s + t j))) (l : List T) :
    (do
      let e ← vset l k 0
      forLt 0 n body e) = vset l k ((F.irange 0 (n - 1)).foldl (fun r s => r + t s) 0) := by
  by_cases hk : 0 ≤ k ∧ k < (l.length : Int)
  · dsimp only [vset]
    rw [if_pos hk, if_pos hk, M.ok_bind]
    obtain ⟨s', r, e⟩ := forLt_inv (lo := 0) (hi := n) (body := body) (s := l.set k.toNat 0) (fun j e => e = l.set k.toNat ((F.irange 0 (j - 1)).foldl (fun r s => r + t s) 0))
      (by decide) hn hn' rfl fun j e h0 h1 he => by
        subst he
        refine ⟨_, hb j _ _ h0 h1 hk.1 (by rw [List.length_set]; exact hk.2) (List.getElem?_set_self (by omega)), ?_⟩
        rw [List.set_set, add_sub_cancel_right, irange_succ h0, List.foldl_append]
        rfl
    rw [r, e]
  · dsimp only [vset]
    rw [if_neg hk, if_neg hk]
    rfl

theorem addProd_ok [Add T] [Mul T] {vi ui si : Int} {uvec stvec e : List T} {a b c : T} (ha : vget uvec ui = .ok a) (hb : vget stvec si = .ok b) (h0 : 0 ≤ vi) (h1 : vi < (e.length : Int))
    (hc : e[vi.toNat]? = some c) : addProd vi uvec ui stvec si e = .ok (e.set vi.toNat (c + a * b)) := by
  unfold addProd
  rw [ha, M.ok_bind, hb, M.ok_bind, vget_ok h0 hc, M.ok_bind]
  dsimp only [vset]
  rw [if_pos ⟨h0, h1⟩]

/-- displacement `s` in direction `c` -/
def disp (o : DevVec Int) (N s c : Int) : Int := o.d.getD (s * N + c).toNat 0

/-- a table of `n` displacements of `N` numbers, by one cell at most -/
structure TableOK (o : DevVec Int) (N n : Int) : Prop where
  pos : 1 ≤ N
  npos : 1 ≤ n
  fits : n * N ≤ 1000
  geo : o.geo = [(.W, ⟨0, n, 1⟩), (.I, ⟨0, N, 1⟩)]
  len : (o.d.length : Int) = n * N
  near : ∀ z ∈ o.d, -1 ≤ z ∧ z ≤ 1

theorem table_place {N n s c : Int} (hs : 0 ≤ s) (hs' : s < n) (hc : 0 ≤ c) (hc' : c < N) : 0 ≤ s * N + c ∧ s * N + c < n * N := by
  have h1 : s * N + N ≤ n * N := by
    have := mul_le_mul_of_nonneg_right (show s + 1 ≤ n by omega) (show 0 ≤ N by omega)
    rw [add_mul, one_mul] at this
    exact this
  have h2 : 0 ≤ s * N := mul_nonneg hs (by omega)
  omega

theorem TableOK.get {o : DevVec Int} {N n s c : Int} (h : TableOK o N n) (hs : 0 ≤ s) (hs' : s < n) (hc : 0 ≤ c) (hc' : c < N) :
    o.d[(s * N + c).toNat]? = some (disp o N s c) := by
  obtain ⟨p0, p1⟩ := table_place hs hs' hc hc'
  have := h.len
  unfold disp
  rw [List.getD_eq_getElem?_getD, List.getElem?_eq_getElem (by omega)]
  rfl

theorem TableOK.disp_near {o : DevVec Int} {N n s c : Int} (h : TableOK o N n) (hs : 0 ≤ s) (hs' : s < n) (hc : 0 ≤ c) (hc' : c < N) : -1 ≤ disp o N s c ∧ disp o N s c ≤ 1 :=
  h.near _ (List.mem_of_getElem? (h.get hs hs' hc hc'))

theorem TableOK.offAt {o : DevVec Int} {N n s c : Int} (h : TableOK o N n) (hs : 0 ≤ s) (hs' : s < n) (hc : 0 ≤ c) (hc' : c < N) : offAt o s c = .ok (disp o N s c) := by
  obtain ⟨p0, p1⟩ := table_place hs hs' hc hc'
  have hf := h.fits
  have hN := h.pos
  have hn := h.npos
  have q0 : n ≤ n * N := le_mul_of_one_le_right (by omega) hN
  have q1 : N ≤ n * N := le_mul_of_one_le_left (by omega) hn
  have e : rowMajor [n, N] [s, c] = s * N + c := by simp [rowMajor]
  have ix : o.data.toStd.1.index [s, c] = .ok (s * N + c) := by
    unfold DevVec.index
    have g : o.data.toStd.1.geo = [(.W, ⟨0, n, 1⟩), (.I, ⟨0, N, 1⟩)] := h.geo
    rw [g]
    have l0 : (⟨0, n, 1⟩ : Bounds).lb = 0 := rfl
    have l1 : (⟨0, N, 1⟩ : Bounds).lb = 0 := rfl
    have s0 : (⟨0, n, 1⟩ : Bounds).size = .ok n := by
      unfold Bounds.size
      rw [isub_ok (by unfold InInt; dsimp only; omega), M.ok_bind, idiv_ok (by dsimp only; omega) (by dsimp only; omega) (by unfold InInt; dsimp only; omega)]
      simp
    have s1 : (⟨0, N, 1⟩ : Bounds).size = .ok N := by
      unfold Bounds.size
      rw [isub_ok (by unfold InInt; dsimp only; omega), M.ok_bind, idiv_ok (by dsimp only; omega) (by dsimp only; omega) (by unfold InInt; dsimp only; omega)]
      simp
    simp only [List.length_cons, List.length_nil, ne_eq, not_true_eq_false, if_false, List.zip_cons_cons, List.zip_nil_left, List.mapM_cons, List.mapM_nil, l0, l1, s0, s1]
    rw [isub_ok (by unfold InInt; omega), isub_ok (by unfold InInt; omega)]
    have := ravel_ok (n := [n, N]) (c := [s, c]) (by simp) (by simp [Pos]; omega) (by simp [NonNeg]; omega) rfl (by rw [e]; omega)
    rw [e] at this
    simpa using this
  unfold Test.offAt
  rw [ix, M.ok_bind]
  exact vget_ok p0 (h.get hs hs' hc hc')

theorem TableOK.intEl {o : DevVec Int} {N n s c : Int} {m : Mem T} (h : TableOK o N n) (hs : 0 ≤ s) (hs' : s < n) (hc : 0 ≤ c) (hc' : c < N) :
    F.IntEl (tabled 3 o.d m) (F.offsets (at_ 3) N n) [c + 1, s + 1] (disp o N s c) := by
  obtain ⟨p0, p1⟩ := table_place hs hs' hc hc'
  refine ⟨F.inBounds2.2 ⟨c + 1, s + 1, rfl, by omega⟩, ?_⟩
  have e : F.colMajor [(1, N), (1, n)] [c + 1, s + 1] = s * N + c := by simp [F.colMajor]; ring
  unfold F.offsets
  rw [e]
  simp only [tabled, at_, Ptr.add, zero_add]
  rw [if_pos ⟨trivial, p0⟩]
  exact h.get hs hs' hc hc'

theorem TableOK.reach {o : DevVec Int} {N n g : Int} {m : Mem T} (h : TableOK o N n) (hg : 1 ≤ g) : F.Reach (tabled 3 o.d m) (at_ 3) N n g := by
  intro s c h1 h2 h3 h4
  have e := h.intEl (m := m) (s := s - 1) (c := c - 1) (by omega) (by omega) (by omega) (by omega)
  have b := h.disp_near (s := s - 1) (c := c - 1) (by omega) (by omega) (by omega) (by omega)
  rw [sub_add_cancel, sub_add_cancel] at e
  exact ⟨_, e, by omega, by omega⟩

/-- what the kernel leaves in the vectors `st`, `u` and `v` -/
structure Ran3 [Zero T] (s u r : DevVec T) (dims : List (Int × Int)) (P : List Int → Prop) (f : List Int → T) (m' : Mem T) : Prop where
  read0 : newBlock m' 0 s.d = s.d
  read1 : newBlock m' 1 u.d = u.d
  len : (newBlock m' 2 r.d).length = r.h.length
  at_ : ∀ is, P is → (newBlock m' 2 r.d)[(F.colMajor dims is).toNat]? = some (f is)
  rest : ∀ q : Nat, q < r.h.length → (∀ is, P is → F.InBounds dims is → (q : Int) ≠ F.colMajor dims is) → (newBlock m' 2 r.d)[q]? = some 0

theorem ran3 [Zero T] {s u r : DevVec T} {nr : Int} {t : List Int} {dims : List (Int × Int)} {P : List Int → Prop} {f : List Int → T} {m' : Mem T} (hr : Ready r nr) (hz : ∀ x ∈ r.d, x = 0)
    (hn : (dims.map fun d => d.2 - d.1 + 1).prod = nr) (el : ∀ is, P is → F.El m' ⟨Test.at_ 2, dims⟩ is (f is))
    (fr : ∀ q, (∀ is, P is → (Test.at_ 2).add (F.colMajor dims is) ≠ q) → m'.val q = (tabled 3 t (devMem [s, u, r])).val q) : Ran3 s u r dims P f m' := by
  have al : ∀ q : Nat, q < r.d.length → ∃ x, m'.val ⟨2, (q : Int)⟩ = some x := fun q hq => by
    by_cases h : ∃ is, P is ∧ (Test.at_ 2).add (F.colMajor dims is) = ⟨2, (q : Int)⟩
    · obtain ⟨is, h1, h2⟩ := h
      exact ⟨_, by rw [← h2]; exact (el is h1).2⟩
    · refine ⟨r.d[q], ?_⟩
      rw [fr _ fun is h1 h2 => h ⟨is, h1, h2⟩]
      show (devMem [s, u, r]).val ⟨2, (q : Int)⟩ = _
      rw [devMem_val (v := r) rfl, List.getElem?_eq_getElem hq]
  refine ⟨newBlock_same fun q hq => ?_, newBlock_same fun q hq => ?_, by rw [newBlock_length, hr.same], fun is his => ?_, fun q hq hno => ?_⟩
  · rw [fr _ (fun is _ e => by simp [Test.at_, Ptr.add] at e)]
    exact devMem_val (vs := [s, u, r]) (k := 0) rfl q
  · rw [fr _ (fun is _ e => by simp [Test.at_, Ptr.add] at e)]
    exact devMem_val (vs := [s, u, r]) (k := 1) rfl q
  · obtain ⟨hb, hv⟩ := el is his
    obtain ⟨c0, c1⟩ := Verif.colMajor_range hb
    have hl := hr.len
    have hq : (F.colMajor dims is).toNat < r.d.length := by
      dsimp only at c0 c1
      omega
    rw [newBlock_get al _ hq, ← hv]
    simp only [Test.at_, Ptr.add, zero_add]
    congr 2
    exact Int.toNat_of_nonneg c0
  · rw [hr.same] at hq
    rw [newBlock_get al q hq, fr]
    · show (devMem [s, u, r]).val ⟨2, (q : Int)⟩ = _
      rw [devMem_val (v := r) rfl, List.getElem?_eq_getElem hq, hz _ (List.getElem_mem hq)]
    · intro is hp e
      simp only [Test.at_, Ptr.add, zero_add, Ptr.mk.injEq, true_and] at e
      exact hno is hp (el is hp).1 e.symm

/-- a usable array stays usable beside a table -/
theorem arr_tabled {m : Mem T} {a : F.Arr} {b : Nat} {t : List Int} (h : F.ArrOK m a) : F.ArrOK (tabled b t m) a := ⟨h.alloc, h.fits, h.int⟩

end Test
end Verif
