import Verif.Spec.Expr
import Verif.Model.Parallel

/-
What a backend may do: handle each element exactly once, in any order and interleaving, and reach it by forward moves.
-/

namespace Verif.Spec

/-- each of the elements 0 .. n-1 performs its c steps, no other element does anything; the iterator gets to element k by
any combination of increments and forward jumps that stays on the elements -/
structure ValidSched (n : Int) (c : Nat) (σ : Sched) : Prop where
  once : ∀ k, σ.trace.count k = if 0 ≤ k ∧ k < n then c else 0
  rhist : ∀ k, 0 ≤ k → k < n → Fwd n 0 (σ.rhist k) ∧ net (σ.rhist k) = k
  whist : ∀ k, 0 ≤ k → k < n → Fwd n 0 (σ.whist k) ∧ net (σ.whist k) = k

/-- a backend that makes legal choices for every call -/
def ValidBackend (β : Backend) : Prop := ∀ n c, ValidSched n c (β n c)

end Verif.Spec
