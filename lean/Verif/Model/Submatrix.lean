import Verif.Model.Iter

/-
Transcription of src/cuda/submatrix_iterator.hpp and src/cuda/transpose_iterator.hpp.
The parameter packs `I...` are lists of dimension indices.
-/

namespace Verif

/-- array access `a[i]`; an index outside the array is an ill-formed instantiation (the indices are constants) -/
def get (a : List Int) (i : Nat) : M Int :=
  match a[i]? with
  | some x => .ok x
  | none => .error .illFormed

/-- `(ub[I] - lb[I] + stm[I]) / stm[I]` (src/cuda/submatrix_iterator.hpp:35) -/
def subExtent (lb ub stm : List Int) (i : Nat) : M Int := do
  let u ← get ub i
  let l ← get lb i
  let s ← get stm i
  let d ← isub u l
  let e ← iadd d s
  idiv e s

/-- `make_submatrix_helper<N>(index_sequence<I...>, it, sz, lb, ub, stm)` (src/cuda/submatrix_iterator.hpp:23-50).  The
branches differ only in what dereferencing returns (value or iterator), the state is the same. -/
def submatrixHelper (seq : List Nat) (it : Ptr) (sz lb ub stm : List Int) : M MT := do
  let n ← seq.mapM (subExtent lb ub stm)
  let stride ← seq.mapM (strideDimStm sz stm)
  let r ← ravel sz lb
  .ok ⟨it.add r, stride, seq.map fun _ => 0, n⟩

/-- `make_submatrix` (src/cuda/submatrix_iterator.hpp:54-63) -/
def makeSubmatrix (it : Ptr) (sz lb ub stm : List Int) : M MT :=
  submatrixHelper (List.range sz.length) it sz lb ub stm

/-- `make_transpose<I...>(it, sz)` (src/cuda/transpose_iterator.hpp:27-40) -/
def makeTranspose (seq : List Nat) (it : Ptr) (sz : List Int) : M MT := do
  let stride ← seq.mapM fun i => strideDim sz (i + 1)
  let n ← seq.mapM (get sz)
  .ok ⟨it, stride, seq.map fun _ => 0, n⟩

end Verif
