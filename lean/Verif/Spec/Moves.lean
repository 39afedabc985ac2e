import Verif.Model.Iter

/- Specification of histories of moves: the distance each move stands for. -/

namespace Verif.Spec

/-- signed distance of a move -/
def delta : Move → Int
  | .inc => 1
  | .dec => -1
  | .add k => k
  | .sub k => -k

/-- net distance of a history -/
def net (ms : List Move) : Int := (ms.map delta).sum

/-- starting at position `p`, no move of the history leaves `[0, T]` -/
def Stays (T : Int) : Int → List Move → Prop
  | p, [] => 0 ≤ p ∧ p ≤ T
  | p, m :: ms => (0 ≤ p ∧ p ≤ T) ∧ Stays T (p + delta m) ms

instance (T : Int) : ∀ (p : Int) (ms : List Move), Decidable (Stays T p ms)
  | p, [] => inferInstanceAs (Decidable (0 ≤ p ∧ p ≤ T))
  | p, m :: ms =>
    have := instDecidableStays T (p + delta m) ms
    inferInstanceAs (Decidable ((0 ≤ p ∧ p ≤ T) ∧ Stays T (p + delta m) ms))

end Verif.Spec
