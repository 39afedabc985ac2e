import Verif.Lemmas.DotOracle
import Verif.Props.SpanDriver

/-
When a vector left by any function agrees with the one a kernel of src/md_device_span_test.cpp leaves.
-/

namespace Verif

open Spec Test

variable {T : Type}

/-- a function that leaves every vector but number 1 as it is and keeps what is allocated -/
structure LeavesFirst (m m' : Mem T) : Prop where
  keeps : ∀ q : Ptr, q.blk ≠ 1 → m'.val q = m.val q
  there : ∀ (q : Ptr) (v : T), m.val q = some v → ∃ w, m'.val q = some w

namespace Test

theorem Ran.congr [Zero T] {u r : DevVec T} {dims : List (Int × Int)} {P : List Int → Prop} {f g : List Int → T} {m' : Mem T} (R : Ran u r dims P f m')
    (h : ∀ is, P is → f is = g is) : Ran u r dims P g m' :=
  ⟨R.read, R.len, fun is hi => by rw [R.at_ is hi, h is hi], R.rest⟩

/-- the vector a function leaves is the one the kernel leaves exactly if it has the kernel's values where the kernel writes and zeros elsewhere -/
theorem judge2 [Zero T] {u r : DevVec T} {dims : List (Int × Int)} {P : List Int → Prop} {f : List Int → T} {m' mK : Mem T} (R : Ran u r dims P f m')
    (hr : Ready r (dims.map fun d => d.2 - d.1 + 1).prod) (hd : ∀ d ∈ dims, d.1 ≤ d.2) (hP : ∀ is, P is → F.InBounds dims is) (hK : LeavesFirst (devMem [u, r]) mK) :
    newBlock mK 1 r.d = newBlock m' 1 r.d ↔
      (∀ is, P is → F.El mK ⟨Test.at_ 1, dims⟩ is (f is)) ∧ ∀ is, F.InBounds dims is → ¬ P is → F.El mK ⟨Test.at_ 1, dims⟩ is 0 := by
  have hl := hr.len
  have al : ∀ q : Nat, q < r.d.length → ∃ x, mK.val ⟨1, (q : Int)⟩ = some x := fun q hq => by
    refine hK.there ⟨1, (q : Int)⟩ r.d[q] ?_
    rw [devMem_val (v := r) rfl, List.getElem?_eq_getElem hq]
  have rest : ∀ is, F.InBounds dims is → ¬ P is → (newBlock m' 1 r.d)[(F.colMajor dims is).toNat]? = some 0 := fun is hi h => by
    obtain ⟨c0, c1⟩ := Verif.colMajor_range hi
    refine R.rest _ (by rw [hr.same]; omega) fun js hj hb e => h ?_
    rw [Int.toNat_of_nonneg c0] at e
    rw [F.colMajor_inj hi hb e]
    exact hj
  have got : ∀ is, F.InBounds dims is → (newBlock mK 1 r.d)[(F.colMajor dims is).toNat]? = mK.val ((Test.at_ 1).add (F.colMajor dims is)) := fun is hi => by
    obtain ⟨c0, c1⟩ := Verif.colMajor_range hi
    rw [newBlock_get al _ (by omega)]
    simp only [Test.at_, Ptr.add, zero_add]
    rw [Int.toNat_of_nonneg c0]
  constructor
  · intro e
    exact ⟨fun is hp => ⟨hP is hp, by rw [← got is (hP is hp), e, R.at_ is hp]⟩, fun is hi hn => ⟨hi, by rw [← got is hi, e, rest is hi hn]⟩⟩
  · rintro ⟨h1, h2⟩
    refine List.ext_getElem? fun q => ?_
    by_cases hq : q < r.d.length
    · obtain ⟨is, hi, e⟩ := colMajor_onto (ds := dims) (q := (q : Int)) hd (by omega) (by omega)
      have e' : q = (F.colMajor dims is).toNat := by omega
      rw [e', got is hi]
      by_cases hp : P is
      · rw [R.at_ is hp]
        exact (h1 is hp).2
      · rw [rest is hi hp]
        exact (h2 is hi hp).2
    · rw [List.getElem?_eq_none (by rw [newBlock_length]; omega), List.getElem?_eq_none (by rw [newBlock_length]; omega)]

end Test
end Verif
