import Verif.Lemmas.SpectralEx

/-
What a change of one cell does to the operator, and memories for the examples that differ in one cell.
-/

namespace Verif
open Spec

set_option linter.unusedVariables false
set_option linter.unusedSectionVars false

namespace F
variable {T : Type} [Field T] [LinearOrder T] [IsStrictOrderedRing T]

theorem op1_bump {i0 i1 i : Int} {alpha beta t : T} {dx : Nat → T} {A B0 U V : List Int → T}
    (hia : i0 ≤ i) (hib : i ≤ i1)
    (hUV : ∀ p, InBounds [(i0 - 1, i1 + 1)] p → p ≠ [i] → U p = V p) (hlt : U [i] < V [i])
    (hs : 1 < t * (alpha * A [i] + beta * ((B0 [i] + B0 [i + 1]) / (dx 0 * dx 0)))) :
    V [i] - t * op1 alpha beta dx A B0 V i < U [i] - t * op1 alpha beta dx A B0 U i := by
  have hip := hUV [i + 1] (inBounds1.2 ⟨i + 1, rfl, by omega⟩) (fun e => by simp at e)
  have him := hUV [i - 1] (inBounds1.2 ⟨i - 1, rfl, by omega⟩) (fun e => by simp at e)
  have e : op1 alpha beta dx A B0 V i - op1 alpha beta dx A B0 U i = (alpha * A [i] + beta * ((B0 [i] + B0 [i + 1]) / (dx 0 * dx 0))) * (V [i] - U [i]) := by
    simp only [op1, hip, him]
    ring
  have h1 := mul_lt_mul_of_pos_right hs (sub_pos.2 hlt)
  rw [mul_assoc, ← e] at h1
  linarith

theorem op2_bump {i0 j0 i1 j1 i j : Int} {alpha beta t : T} {dx : Nat → T} {A B0 B1 U V : List Int → T}
    (hia : i0 ≤ i) (hib : i ≤ i1) (hja : j0 ≤ j) (hjb : j ≤ j1)
    (hUV : ∀ p, InBounds [(i0 - 1, i1 + 1), (j0 - 1, j1 + 1)] p → p ≠ [i, j] → U p = V p) (hlt : U [i, j] < V [i, j])
    (hs : 1 < t * (alpha * A [i, j] + beta * ((B0 [i, j] + B0 [i + 1, j]) / (dx 0 * dx 0) + (B1 [j, i] + B1 [j + 1, i]) / (dx 1 * dx 1)))) :
    V [i, j] - t * op2 alpha beta dx A B0 B1 V i j < U [i, j] - t * op2 alpha beta dx A B0 B1 U i j := by
  have hip := hUV [i + 1, j] (inBounds2.2 ⟨i + 1, j, rfl, by omega⟩) (fun e => by simp at e)
  have him := hUV [i - 1, j] (inBounds2.2 ⟨i - 1, j, rfl, by omega⟩) (fun e => by simp at e)
  have hjp := hUV [i, j + 1] (inBounds2.2 ⟨i, j + 1, rfl, by omega⟩) (fun e => by simp at e)
  have hjm := hUV [i, j - 1] (inBounds2.2 ⟨i, j - 1, rfl, by omega⟩) (fun e => by simp at e)
  have e : op2 alpha beta dx A B0 B1 V i j - op2 alpha beta dx A B0 B1 U i j = (alpha * A [i, j] + beta * ((B0 [i, j] + B0 [i + 1, j]) / (dx 0 * dx 0) + (B1 [j, i] + B1 [j + 1, i]) / (dx 1 * dx 1))) * (V [i, j] - U [i, j]) := by
    simp only [op2, hip, him, hjp, hjm]
    ring
  have h1 := mul_lt_mul_of_pos_right hs (sub_pos.2 hlt)
  rw [mul_assoc, ← e] at h1
  linarith

theorem op3_bump {i0 j0 k0 i1 j1 k1 i j k : Int} {alpha beta t : T} {dx : Nat → T} {A B0 B1 B2 U V : List Int → T}
    (hia : i0 ≤ i) (hib : i ≤ i1) (hja : j0 ≤ j) (hjb : j ≤ j1) (hka : k0 ≤ k) (hkb : k ≤ k1)
    (hUV : ∀ p, InBounds [(i0 - 1, i1 + 1), (j0 - 1, j1 + 1), (k0 - 1, k1 + 1)] p → p ≠ [i, j, k] → U p = V p) (hlt : U [i, j, k] < V [i, j, k])
    (hs : 1 < t * (alpha * A [i, j, k] + beta * ((B0 [i, j, k] + B0 [i + 1, j, k]) / (dx 0 * dx 0) + (B1 [j, k, i] + B1 [j + 1, k, i]) / (dx 1 * dx 1) + (B2 [k, i, j] + B2 [k + 1, i, j]) / (dx 2 * dx 2)))) :
    V [i, j, k] - t * op3 alpha beta dx A B0 B1 B2 V i j k < U [i, j, k] - t * op3 alpha beta dx A B0 B1 B2 U i j k := by
  have hip := hUV [i + 1, j, k] (inBounds3.2 ⟨i + 1, j, k, rfl, by omega⟩) (fun e => by simp at e)
  have him := hUV [i - 1, j, k] (inBounds3.2 ⟨i - 1, j, k, rfl, by omega⟩) (fun e => by simp at e)
  have hjp := hUV [i, j + 1, k] (inBounds3.2 ⟨i, j + 1, k, rfl, by omega⟩) (fun e => by simp at e)
  have hjm := hUV [i, j - 1, k] (inBounds3.2 ⟨i, j - 1, k, rfl, by omega⟩) (fun e => by simp at e)
  have hkp := hUV [i, j, k + 1] (inBounds3.2 ⟨i, j, k + 1, rfl, by omega⟩) (fun e => by simp at e)
  have hkm := hUV [i, j, k - 1] (inBounds3.2 ⟨i, j, k - 1, rfl, by omega⟩) (fun e => by simp at e)
  have e : op3 alpha beta dx A B0 B1 B2 V i j k - op3 alpha beta dx A B0 B1 B2 U i j k = (alpha * A [i, j, k] + beta * ((B0 [i, j, k] + B0 [i + 1, j, k]) / (dx 0 * dx 0) + (B1 [j, k, i] + B1 [j + 1, k, i]) / (dx 1 * dx 1) + (B2 [k, i, j] + B2 [k + 1, i, j]) / (dx 2 * dx 2))) * (V [i, j, k] - U [i, j, k]) := by
    simp only [op3, hip, him, hjp, hjm, hkp, hkm]
    ring
  have h1 := mul_lt_mul_of_pos_right hs (sub_pos.2 hlt)
  rw [mul_assoc, ← e] at h1
  linarith

end F

/-- the memory with `x` at `q` -/
def exAt (m : Mem Rat) (q : Ptr) (x : Rat) : Mem Rat where
  val r := if r = q then some x else m.val r
  ints := m.ints

/-- the function with `x` at `c` -/
def exUp (f : List Int → Rat) (c : List Int) (x : Rat) (p : List Int) : Rat := if p = c then x else f p

theorem exAt_args {m : Mem Rat} {q : Ptr} {x : Rat} {ins outs : List F.Arr} (h : F.Args m ins outs) : F.Args (exAt m q x) ins outs := by
  refine ⟨fun a ha => ⟨fun is hi => ?_, (h.ok a ha).fits, (h.ok a ha).int⟩, h.apart⟩
  obtain ⟨v, hv⟩ := (h.ok a ha).alloc is hi
  simp only [exAt]
  split
  · exact ⟨_, rfl⟩
  · exact ⟨v, hv⟩

theorem exAt_rd {m : Mem Rat} {q : Ptr} {x : Rat} {a : F.Arr} {f : List Int → Rat} (hb : a.ptr.blk ≠ q.blk) (h : F.Holds m a f) : F.Holds (exAt m q x) a f := fun is hi => by
  refine ⟨hi, ?_⟩
  show (if _ = q then some x else _) = _
  rw [if_neg (fun e => hb (by rw [← e]; rfl))]
  exact (h is hi).2

theorem exAt_up {m : Mem Rat} {x : Rat} {a : F.Arr} {f : List Int → Rat} {c : List Int} (hc : F.InBounds a.dims c) (h : F.Holds m a f) : F.Holds (exAt m (a.ptr.add (F.colMajor a.dims c)) x) a (exUp f c x) := fun is hi => by
  refine ⟨hi, ?_⟩
  show (if _ = _ then some x else _) = some (if is = c then x else f is)
  by_cases e : is = c
  · subst e
    rw [if_pos rfl, if_pos rfl]
  · rw [if_neg e, if_neg]
    · exact (h is hi).2
    · intro h1
      refine e (F.colMajor_inj hi hc ?_)
      have := congrArg Ptr.off h1
      simp only [Ptr.add] at this
      omega

end Verif
