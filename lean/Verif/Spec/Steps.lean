import Verif.Model.Steps
import Verif.Spec.Parallel

/-
Executions in which every load and every store is a step of its own.
-/

namespace Verif.Spec

variable {T : Type}

/-- for each of n elements, a way to it by increments and forward jumps -/
def Reaches (n : Int) (h : Int → List Move) : Prop := ∀ k, 0 ≤ k → k < n → Fwd n 0 (h k) ∧ net (h k) = k

/-- what can be said of all executions from a state: each element `k` makes at most `c k` accesses; whatever has been done so
far, every element that is not finished can go on, and when all are finished the memory is `m'` -/
structure Settles (s : FState T) (m' : Mem T) : Prop where
  bound : ∃ c : Int → Nat, ∀ tr s', runFine tr s = .ok s' → ∀ k, tr.count k ≤ c k
  goes : ∀ tr s', runFine tr s = .ok s' → ∀ k, s'.prog k = .done ∨ ∃ s'', s'.step k = .ok s''
  ends : ∀ tr s', runFine tr s = .ok s' → (∀ k, s'.prog k = .done) → s'.mem = m'
  some : ∃ tr s', runFine tr s = .ok s' ∧ ∀ k, s'.prog k = .done

end Verif.Spec
