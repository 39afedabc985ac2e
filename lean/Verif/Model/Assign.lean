import Verif.Model.Expr
import Verif.Model.Parallel

/-
Transcription of assignment statements: `operator=` of md_device_span, `assign_proxy` and `with_domain`
(src/cuda/md_device_span.hpp:62-84, 266-285, 324-328, 347-351).
-/

namespace Verif

/-- right hand side of an assignment: a number (`is_number_v`) or an expression -/
inductive Rhs (T : Type) where
  | num (t : T)
  | expr (e : Expr T)

/-- `assign_proxy<U, V>` (src/cuda/md_device_span.hpp:68-71) -/
structure Assign (T : Type) where
  lhs : Span
  rhs : Rhs T

/-- a dereferenced value assigned to an element of type T; a pair cannot be -/
def Val.toNum {T : Type} : Val T → M T
  | .num a => .ok a
  | .pair _ _ => .error .illFormed

/-- the two steps for element k: evaluate the right hand side, store the value -/
def assignThread {T : Type} (rd : Int → Mem T → M T) (out : MT) (σ : Sched) (k : Int) : List (Micro T) :=
  [.rd (fun _ m => do
    let x ← rd k m
    .ok (.val (.num x))), .wr (do
    let o ← runMoves (σ.whist k) out
    o.addr)]

/-- `assign_proxy::operator()(bnds...)`: `fill_n(out, out.size(), v)` or `copy_n(v(bnds...), out.size(), out)`
(src/cuda/md_device_span.hpp:73-83) -/
def Assign.exec {T : Type} (a : Assign T) (D : List DB) (β : Backend) (m : Mem T) : M (Mem T) := do
  let out ← a.lhs.call D
  let n ← out.size
  let σ := β n 2
  match a.rhs with
  | .num t => parallel (assignThread (fun _ _ => .ok t) out σ) σ.trace m
  | .expr e => do
    let v ← e.call D
    parallel (assignThread (fun k m => do
      let i ← runMoves (σ.rhist k) v
      let x ← i.deref m
      x.toNum) out σ) σ.trace m

/-- `with_domain(ps...)(assign_proxys...)` with at least one bound: the statements one after the other
(src/cuda/md_device_span.hpp:283-284) -/
def withDomain {T : Type} (D : List DB) : List (Assign T × Backend) → Mem T → M (Mem T)
  | [], m => .ok m
  | (a, β) :: as, m => do
    let m' ← a.exec D β m
    withDomain D as m'

/-- `with_domain()(assign_proxy)` and `with_lhs_domain` (src/cuda/md_device_span.hpp:277-282, 324-328) -/
def withLhsDomain {T : Type} (a : Assign T) (β : Backend) (m : Mem T) : M (Mem T) := a.exec a.lhs.dirBounds β m

end Verif
