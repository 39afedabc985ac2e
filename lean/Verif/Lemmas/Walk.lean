import Verif.Model.ForwardStencil
import Verif.Lemmas.Traversal

namespace Verif

/-- `st k` is the iterator at position `k` of a range of `T` elements: single steps and jumps move between them -/
structure Walk {β : Type} (inc dec : β → M β) (adv : β → Int → M β) (T : Int) (st : Int → β) : Prop where
  inc : ∀ {k}, 0 ≤ k → k < T → inc (st k) = .ok (st (k + 1))
  dec : ∀ {k}, 0 ≤ k → k < T → dec (st (k + 1)) = .ok (st k)
  adv : ∀ {k d}, 0 ≤ k → k ≤ T → 0 ≤ k + d → k + d ≤ T → adv (st k) d = .ok (st (k + d))

/-- a random access base iterator as a walk -/
abbrev RAWalk {β : Type} [Step β] (T : Int) (st : Int → β) : Prop := Walk (Step.inc (β := β)) Step.dec Step.adv T st

theorem MT.walk {it : MT} (h : it.WF) : RAWalk it.n.prod it.at_ :=
  ⟨fun h0 h1 => MT.inc_at h h0 h1, fun h0 h1 => MT.dec_at h h0 h1, fun h0 h1 h2 h3 => MT.adv_at h h0 h1 h2 h3⟩

theorem Ptr.walk (p : Ptr) (T : Int) : RAWalk T (fun k => p.add k) := by
  refine ⟨?_, ?_, ?_⟩ <;> intros <;> simp only [Step.inc, Step.dec, Step.adv, Ptr.add, Except.ok.injEq, Ptr.mk.injEq, true_and] <;> omega

theorem Walk.iter_inc {β : Type} {inc dec : β → M β} {adv : β → Int → M β} {T : Int} {st : Int → β}
    (w : Walk inc dec adv T st) : ∀ (m : Nat) {k : Int}, 0 ≤ k → k + m ≤ T → iterM inc m (st k) = .ok (st (k + m))
  | 0, k, _, _ => by simp [iterM]
  | m + 1, k, h0, h1 => by
    simp only [iterM]
    rw [w.inc h0 (by push_cast at h1; omega), M.ok_bind, w.iter_inc m (by omega) (by push_cast at h1; omega)]
    congr 2; push_cast; omega

end Verif
