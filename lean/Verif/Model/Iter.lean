import Verif.Model.Traversal

/-
What `thrust::iterator_facade` / `iterator_adaptor` offer on top of the core operations of an iterator: the public
operators `++ -- += -=`, and histories of such moves.
-/

namespace Verif

/-- the movement core of a random access iterator: `increment`, `decrement`, `advance` -/
class Step (β : Type) where
  inc : β → M β
  dec : β → M β
  adv : β → Int → M β

/-- an iterator that refers to one address -/
class RA (β : Type) extends Step β where
  addr : β → M Ptr

instance : RA MT := { inc := MT.inc, dec := MT.dec, adv := MT.adv, addr := MT.addr }

/-- a plain device pointer as iterator -/
instance : RA Ptr :=
  { inc := fun p => .ok (p.add 1), dec := fun p => .ok (p.add (-1)), adv := fun p d => .ok (p.add d), addr := .ok }

/-- one use of a public movement operator -/
inductive Move where
  | inc
  | dec
  | add (k : Int)
  | sub (k : Int)
deriving DecidableEq, Repr

/-- `++it`, `--it`, `it += k` (`advance(k)`), `it -= k` (`advance(-k)`), as `thrust::iterator_facade` maps them -/
def Move.run {β : Type} [Step β] : Move → β → M β
  | .inc, it => Step.inc it
  | .dec, it => Step.dec it
  | .add k, it => Step.adv it k
  | .sub k, it => do
    let d ← dsub 0 k
    Step.adv it d

/-- a history of moves -/
def runMoves {β : Type} [Step β] : List Move → β → M β
  | [], it => .ok it
  | m :: ms, it => do
    let it' ← m.run it
    runMoves ms it'

/-- the loop `for (; it != last; ++it)` collecting the states visited; `eq` is the iterator's equality.  `fuel` bounds
the number of iterations, running out of it is an error. -/
def visitLoop {β : Type} [Step β] (eq : β → β → Bool) (last : β) : Nat → β → M (List β)
  | 0, _ => .error .illFormed
  | fuel + 1, it =>
    if eq it last then .ok []
    else do
      let it' ← Step.inc it
      let rest ← visitLoop eq last fuel it'
      .ok (it :: rest)

end Verif
