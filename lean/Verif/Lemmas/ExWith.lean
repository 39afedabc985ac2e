import Verif.Lemmas.EnergyEx

/-
Memories for the examples that hold given functions in given arrays.
-/

namespace Verif
open Spec

/-- the indices of the element at a place of an array in column-major order -/
def unMajor : List (Int × Int) → Int → List Int
  | [], _ => []
  | (l, u) :: ds, k => (k % (u - l + 1) + l) :: unMajor ds (k / (u - l + 1))

theorem unMajor_colMajor : ∀ {ds : List (Int × Int)} {p : List Int}, F.InBounds ds p → unMajor ds (F.colMajor ds p) = p
  | [], [], _ => rfl
  | (l, u) :: ds, i :: p, ⟨h1, h2⟩ => by
    have hp : (0 : Int) < u - l + 1 := by omega
    have e : (i - l) % (u - l + 1) = i - l := Int.emod_eq_of_lt (by omega) (by omega)
    have d : (i - l) / (u - l + 1) = 0 := Int.ediv_eq_zero_of_lt (by omega) (by omega)
    simp only [unMajor, F.colMajor, Int.add_mul_emod_self_left, Int.add_mul_ediv_left _ _ hp.ne', e, d, zero_add, unMajor_colMajor h2, sub_add_cancel]

/-- the memory of the examples with the given functions in the given arrays, which start their blocks -/
def exWith (l : List (F.Arr × (List Int → Rat))) : Mem Rat where
  val q := Option.map (fun x => match l.find? (fun b => b.1.ptr.blk == q.blk) with
    | some b => b.2 (unMajor b.1.dims q.off)
    | none => x) (exRat.val q)
  ints := exRat.ints

theorem exWith_args {l : List (F.Arr × (List Int → Rat))} {ins outs : List F.Arr} (h : F.Args exRat ins outs) : F.Args (exWith l) ins outs := by
  refine ⟨fun a ha => ⟨fun is hi => ?_, (h.ok a ha).fits, (h.ok a ha).int⟩, h.apart⟩
  obtain ⟨v, hv⟩ := (h.ok a ha).alloc is hi
  simp only [exWith, hv]
  exact ⟨_, rfl⟩

theorem exWith_rd {l : List (F.Arr × (List Int → Rat))} {a : F.Arr} {f : List Int → Rat} (ha : F.ArrOK exRat a) (h0 : a.ptr.off = 0)
    (hf : l.find? (fun b => b.1.ptr.blk == a.ptr.blk) = some (a, f)) : F.Holds (exWith l) a f := fun p hp => by
  refine ⟨hp, ?_⟩
  obtain ⟨v, hv⟩ := ha.alloc p hp
  simp only [Ptr.add, h0, zero_add] at hv
  simp only [exWith, hv, Ptr.add, hf, h0, zero_add, unMajor_colMajor hp, Option.map_some]

end Verif
