import Verif.Model.CInt

/-
Transcription of src/cuda/matrix_utils.hpp.  C++ arrays `int[N]` are lists of length N.
-/

namespace Verif

/-- the loop `for (i = I + 1; i < N; i++) t *= sz[i]` over the entries that remain
(src/cuda/matrix_utils.hpp:34-36) -/
def prodLoop : Int → List Int → M Int
  | t, [] => .ok t
  | t, s :: ss => do
    let u ← imul t s
    prodLoop u ss

/-- `stride_dim<I, N>(sz)` and the run-time variant `stride_dim<N>(sz, I)`
(src/cuda/matrix_utils.hpp:31-37, 48-54).  `j` is `I + 1`, the first index the loop visits, so `I = -1` is
`j = 0`. -/
def strideDim (sz : List Int) (j : Nat) : M Int := prodLoop 1 (sz.drop j)

/-- `stride_dim<I, N>(sz, stm)` (src/cuda/matrix_utils.hpp:39-45) -/
def strideDimStm (sz stm : List Int) (i : Nat) : M Int := do
  let t ← prodLoop 1 (sz.drop (i + 1))
  match stm[i]? with
  | some s => imul t s
  | none => .error .illFormed

/-- the loop of `ravel`, entered with accumulator `t`; the head of the size list is the extent of the dimension
whose coordinate is the head of the coordinate list (src/cuda/matrix_utils.hpp:62-64) -/
def ravelLoop : Int → List Int → List Int → M Int
  | t, [_], [c] => iadd t c
  | t, _ :: s :: ss, c :: cs => do
    let u ← iadd t c
    let v ← imul u s
    ravelLoop v (s :: ss) cs
  | _, _, _ => .error .illFormed

/-- `ravel<N>(size, coord)` (src/cuda/matrix_utils.hpp:59-65) -/
def ravel (size coord : List Int) : M Int := ravelLoop 0 size coord

/-- general branch of `unravel` (src/cuda/matrix_utils.hpp:83-89): `sz` is the product of the later extents,
computed starting from `size[i+1]` -/
def unravelLoop : List Int → Int → M (List Int)
  | [_], index => .ok [index]
  | _ :: s :: ss, index => do
    let sz ← prodLoop s ss
    let q ← idiv index sz
    let r ← imod index sz
    let cs ← unravelLoop (s :: ss) r
    .ok (q :: cs)
  | [], _ => .error .illFormed

/-- `coord[i] += f * (size[i] - 1)` for all but the last entry and `coord[N-1] += f * size[N-1]`; shared shape of
src/cuda/matrix_utils.hpp:96-97 and src/cuda/matrix_traversal_iterator.hpp:145-146 -/
def lastAdj (f : Int) : List Int → List Int → M (List Int)
  | [s], [c] => do
    let g ← imul f s
    let c' ← iadd c g
    .ok [c']
  | s :: s' :: ss, c :: cs => do
    let m ← isub s 1
    let g ← imul f m
    let c' ← iadd c g
    let cs' ← lastAdj f (s' :: ss) cs
    .ok (c' :: cs')
  | _, _ => .error .illFormed

/-- adjustment for the "last" position at the end of `unravel`, N > 1 (src/cuda/matrix_utils.hpp:92-98) -/
def unravelAdj : List Int → List Int → M (List Int)
  | s0 :: ss, c0 :: cs => do
    let d ← isub s0 c0
    let f := lnot d
    let c0' ← isub c0 f
    let cs' ← lastAdj f ss cs
    .ok (c0' :: cs')
  | _, _ => .error .illFormed

/-- `unravel<N>(size, index, coord)` (src/cuda/matrix_utils.hpp:68-99) with its `if constexpr` cases -/
def unravel (size : List Int) (index : Int) : M (List Int) :=
  match size with
  | [] => .error .illFormed
  | [_] => .ok [index]
  | [s0, s1] => do
    let q ← idiv index s1
    let r ← imod index s1
    unravelAdj [s0, s1] [q, r]
  | [s0, s1, s2] => do
    let p ← imul s1 s2
    let c0 ← idiv index p
    let p' ← imul s1 s2
    let index' ← imod index p'
    let c1 ← idiv index' s2
    let c2 ← imod index' s2
    unravelAdj [s0, s1, s2] [c0, c1, c2]
  | size => do
    let cs ← unravelLoop size index
    unravelAdj size cs

end Verif
