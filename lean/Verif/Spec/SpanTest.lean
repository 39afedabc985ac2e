import Verif.Spec.Touched
import Verif.Spec.Elements

/-
What a loop over some elements of one array does.
-/

namespace Verif.F

variable {T : Type}

/-- the elements of `a` whose indices satisfy `P` get the values `f`, and nothing else changes -/
structure Sets (a : Arr) (P : List Int → Prop) (f : List Int → T) (m m' : Mem T) : Prop where
  at_ : ∀ is, P is → El m' a is (f is)
  rest : Changes a P m m'

/-- `i` is one of `lo, lo + s, lo + 2 s, ...` up to `hi` -/
def OnStride (lo hi s i : Int) : Prop := lo ≤ i ∧ i ≤ hi ∧ ∃ k : Nat, i = lo + s * k

end Verif.F
