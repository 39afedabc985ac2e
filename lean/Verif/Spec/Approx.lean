import Verif.Spec.RoundError

/-
The comparison of the tests.
-/

namespace Verif.Spec.F
open Verif.Spec

/-- `REQUIRE_THAT(v, Approx(w))` for one element (for instance src/cd_apply_1d.t.cpp:97): the distance is at most `eps` times the size of one of the two elements, here
of `w`.  The tolerance, and of which of the two the size is taken, belong to Catch2, not to this project; the tolerance is left open here and the theorems are about both orders. -/
def Approx (eps : Rat) (v w : B64) : Prop := |v.v - w.v| ≤ eps * |w.v|

end Verif.Spec.F
