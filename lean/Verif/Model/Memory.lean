import Verif.Model.Traversal

/-
Device memory.  Cells of type T (the arrays the kernels work on) and cells of type int (offset tables) live in separate
stores; a pointer outside every allocation has no cell.
-/

namespace Verif

/-- contents of device memory -/
structure Mem (T : Type) where
  val : Ptr → Option T
  ints : Ptr → Option Int

namespace Mem

variable {T : Type}

/-- read a cell; outside every allocation this is undefined behaviour -/
def load (m : Mem T) (p : Ptr) : M T :=
  match m.val p with
  | some v => .ok v
  | none => .error .oob

/-- read a cell of an offset table -/
def loadInt (m : Mem T) (p : Ptr) : M Int :=
  match m.ints p with
  | some v => .ok v
  | none => .error .oob

/-- overwrite a cell -/
def store (m : Mem T) (p : Ptr) (v : T) : M (Mem T) :=
  match m.val p with
  | some _ => .ok { m with val := fun q => if q = p then some v else m.val q }
  | none => .error .oob

end Mem
end Verif
