import Verif.Lemmas.BlindBc

/-
Calls that are each equal to a routine which does not look at what it changes can be made in any order.
-/

namespace Verif
open Spec

variable {T : Type} {C : Type}

theorem args_changes {m m' : Mem T} {ins outs : List F.Arr} {a : F.Arr} {P : List Int → Prop} (h : F.Args m ins outs) (c : F.Changes a P m m') : F.Args m' ins outs :=
  ⟨fun b hb => ⟨fun is hi => c.alloc _ ((h.ok b hb).alloc is hi), (h.ok b hb).fits, (h.ok b hb).int⟩, h.apart⟩

theorem sides_of {call : C → Mem T → M (Mem T)} {cmd : C → F.Cmd T} {seg : C → List Int → Prop} {R : List Int → Prop} {a : F.Arr} {ins : List F.Arr} {l : List C}
    {m : Mem T} (hsep : ∀ c ∈ l, ∀ d ∈ l, Separate seg c d) (heq : ∀ c ∈ l, ∀ m, F.Args m ins [a] → ∃ m', call c m = .ok m' ∧ cmd c m = .ok m')
    (ht : ∀ c ∈ l, Touches a (seg c) (cmd c)) (hb : ∀ c ∈ l, Blind (elems a R) (cmd c)) (ho : ∀ c ∈ l, ∀ p, seg c p → R p) (h : F.Args m ins [a]) :
    AnyOrder call l m := by
  have run : ∀ c ∈ l, ∀ m m1, F.Args m ins [a] → call c m = .ok m1 → cmd c m = .ok m1 ∧ F.Args m1 ins [a] := by
    intro c hc m m1 hm e
    obtain ⟨m', e1, e2⟩ := heq c hc m hm
    rw [e] at e1; cases e1
    exact ⟨e2, args_changes hm (ht c hc _ _ e2)⟩
  refine anyOrder_of (Inv := fun m => F.Args m ins [a]) ?_ ?_ ?_ h
  · intro c hc m hm
    obtain ⟨m', e1, e2⟩ := heq c hc m hm
    exact ⟨m', e1, (run c hc m m' hm e1).2⟩
  · intro c hc d hd m m1 m2 n1 n2 hm h1 h2 g1 g2
    rcases hsep c hc d hd with rfl | hn
    · rw [h1] at g1; cases g1
      rw [h2] at g2; cases g2; rfl
    · obtain ⟨a1, i1⟩ := run c hc _ _ hm h1
      obtain ⟨a2, _⟩ := run d hd _ _ i1 h2
      obtain ⟨b1, k1⟩ := run d hd _ _ hm g1
      obtain ⟨b2, _⟩ := run c hc _ _ k1 g2
      exact swap_of (ht c hc) (ht d hd) (hb c hc) (hb d hd) (ho c hc) (ho d hd) hn a1 a2 b1 b2
  · intro c hc m m1 m2 hm h1 h2
    obtain ⟨a1, i1⟩ := run c hc _ _ hm h1
    obtain ⟨a2, _⟩ := run c hc _ _ i1 h2
    exact repeat_of (ht c hc) (hb c hc) (ho c hc) a1 a2

end Verif
