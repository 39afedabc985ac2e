import Verif.Lemmas.Stencil

import Verif.Lemmas.Rounded

/-
C49: stencil coefficient kernels and Fortran routines in arithmetic without laws, such as rounded arithmetic.
-/

namespace Verif
open Spec

set_option linter.unusedVariables false
set_option linter.unusedSimpArgs false
set_option linter.unusedTactic false
set_option linter.unreachableTactic false

variable {T : Type} [Zero T] [One T] [NatCast T] [IntCast T] [Add T] [Sub T] [Mul T] [Div T] [Neg T] [Pow T Nat]

/-- What the adjusting kernels are called with in one dimension.  `pi0 .. pi1` is a box of ghost cells on the low (`side = 0`) or high
(`side = 1`) side; the cell next to it, `pi0 - 2 * side + 1`, is in the box widened by `g`.  The index arithmetic of the C++ code fits in
`int`. -/
structure Layer1 (i0 i1 g pi0 pi1 side : Int) : Prop where
  hside : side = 0 ∨ side = 1
  x : i0 - g ≤ pi0 - 2 * side + 1 ∧ pi0 - 2 * side + 1 ≤ i1 + g
  intI : (InInt (pi0 - 2) ∧ InInt (pi0 + 2)) ∧ InInt (pi1 + 1)

/-- The same in two dimensions: the layer of cells next to the box `p` in direction `dir` is not empty, and in the box widened by `g`. -/
structure Layer2 (i0 j0 i1 j1 g pi0 pj0 pi1 pj1 dir side : Int) : Prop where
  hdir : 0 ≤ dir ∧ dir < 2
  hside : side = 0 ∨ side = 1
  x : dir = 0 → (i0 - g ≤ pi0 - 2 * side + 1 ∧ pi0 - 2 * side + 1 ≤ i1 + g) ∧ (j0 - g ≤ pj0 ∧ pj0 ≤ pj1 ∧ pj1 ≤ j1 + g)
  y : dir = 1 → (j0 - g ≤ pj0 - 2 * side + 1 ∧ pj0 - 2 * side + 1 ≤ j1 + g) ∧ (i0 - g ≤ pi0 ∧ pi0 ≤ pi1 ∧ pi1 ≤ i1 + g)
  intI : (InInt (pi0 - 2) ∧ InInt (pi0 + 2)) ∧ InInt (pi1 + 1)
  intJ : (InInt (pj0 - 2) ∧ InInt (pj0 + 2)) ∧ InInt (pj1 + 1)

/-- The same in three dimensions. -/
structure Layer3 (i0 j0 k0 i1 j1 k1 g pi0 pj0 pk0 pi1 pj1 pk1 dir side : Int) : Prop where
  hdir : 0 ≤ dir ∧ dir < 3
  hside : side = 0 ∨ side = 1
  x : dir = 0 → (i0 - g ≤ pi0 - 2 * side + 1 ∧ pi0 - 2 * side + 1 ≤ i1 + g) ∧ (j0 - g ≤ pj0 ∧ pj0 ≤ pj1 ∧ pj1 ≤ j1 + g) ∧
    (k0 - g ≤ pk0 ∧ pk0 ≤ pk1 ∧ pk1 ≤ k1 + g)
  y : dir = 1 → (j0 - g ≤ pj0 - 2 * side + 1 ∧ pj0 - 2 * side + 1 ≤ j1 + g) ∧ (i0 - g ≤ pi0 ∧ pi0 ≤ pi1 ∧ pi1 ≤ i1 + g) ∧
    (k0 - g ≤ pk0 ∧ pk0 ≤ pk1 ∧ pk1 ≤ k1 + g)
  z : dir = 2 → (k0 - g ≤ pk0 - 2 * side + 1 ∧ pk0 - 2 * side + 1 ≤ k1 + g) ∧ (i0 - g ≤ pi0 ∧ pi0 ≤ pi1 ∧ pi1 ≤ i1 + g) ∧
    (j0 - g ≤ pj0 ∧ pj0 ≤ pj1 ∧ pj1 ≤ j1 + g)
  intI : (InInt (pi0 - 2) ∧ InInt (pi0 + 2)) ∧ InInt (pi1 + 1)
  intJ : (InInt (pj0 - 2) ∧ InInt (pj0 + 2)) ∧ InInt (pj1 + 1)
  intK : (InInt (pk0 - 2) ∧ InInt (pk0 + 2)) ∧ InInt (pk1 + 1)

/-- arithmetic on bounds -/
macro "rng" : tactic => `(tactic| (simp only [InInt] at *; omega))

/-- `cd_stencil_1d_cuda::offdiag` and `celldiffusionoffdiag1d` leave the same memory in every arithmetic where the sign of a numerator is the sign of the quotient, for every schedule. -/
theorem C49_offdiag_1d {i0 i1 bi0 bi1 sgcw : Int} {dx : Nat → T} {beta : T} {b0_ st_ : Ptr} {β : Backend} {m : Mem T}
    (hβ : ValidBackend β) (hs : ∀ x y : T, -x / y = -(x / y)) (hi : i0 ≤ i1) (hbi : bi0 ≤ i0 ∧ i1 ≤ bi1) (hg : 0 ≤ sgcw)
    (h : F.Args m [F.face1d b0_ bi0 bi1 0] [F.st1d st_ i0 i1 sgcw]) :
    ∃ m', Cuda.offdiag1d i0 i1 bi0 bi1 dx beta b0_ sgcw st_ β m = .ok m' ∧ F.celldiffusionoffdiag1d i0 i1 bi0 bi1 dx beta b0_ sgcw st_ m = .ok m' := by
  have hst := h.ok (F.st1d st_ i0 i1 sgcw) (by simp)
  obtain ⟨Ast, spst, Ii⟩ := st1_setup hst hi hg
  have hb0 := h.ok (F.face1d b0_ bi0 bi1 0) (by simp)
  obtain ⟨Ab0, plI, J0⟩ := face1_setup hb0 (by omega)
  have Pb0 : Apart (sSt1 st_ i0 i1 sgcw) (sFace1 b0_ bi0 bi1) := apart_of farr_st1 farr_face1 (h.apart _ (by simp) _ (by simp))
  have mkI := mkB_near (d := .I) (lo := i0) (hi := i1) (by rng)
  have mkW := mkB_near (d := .W) (lo := 0) (hi := 2) (by rng)
  have mkBI := mkB_near (d := .I) (lo := bi0) (hi := bi1) (by rng)
  have S := seg1_box Ast hi hg
  show Both (Cuda.offdiag1d i0 i1 bi0 bi1 dx beta b0_ sgcw st_ β m) (F.celldiffusionoffdiag1d i0 i1 bi0 bi1 dx beta b0_ sgcw st_) m
  unfold Cuda.offdiag1d F.celldiffusionoffdiag1d
  refine Both.bind mkI <| Both.bind mkBI <| Both.bind mkW <| Both.bind plI <| Both.bind spst <| ?_
  simp only [hs, ← farr_st1]
  refine (S.pairs hβ [⟨1, 2, -(beta / (dx 0 * dx 0)), .I, sFace1 b0_ bi0 bi1, F.face1d b0_ bi0 bi1 0, fun p => [p .I], fun p => [p .I + 1]⟩] ?_).both
  simp only [List.forall_mem_cons, List.not_mem_nil, false_implies, implies_true, and_true]
  exact ⟨by omega, by omega, edge1 Ab0 Pb0 (by omega)⟩

example : ∃ m', Cuda.offdiag1d 0 3 0 3 exDxB 2 ⟨0, 0⟩ 1 ⟨1, 0⟩ revBackend exB64 = .ok m' ∧
    F.celldiffusionoffdiag1d 0 3 0 3 exDxB 2 ⟨0, 0⟩ 1 ⟨1, 0⟩ exB64 = .ok m' :=
  C49_offdiag_1d revBackend_ok B64.neg_div (by decide) (by decide) (by decide) (by ex_argsB)

/-- `cd_stencil_1d_cuda::poisson_offdiag` and `cellpoissonoffdiag1d` leave the same memory in every arithmetic where the sign of a numerator is the sign of the quotient, for every schedule. -/
theorem C49_poisson_offdiag_1d {i0 i1 sgcw : Int} {dx : Nat → T} {beta : T} {st_ : Ptr} {β : Backend} {m : Mem T}
    (hβ : ValidBackend β) (hs : ∀ x y : T, -x / y = -(x / y)) (hi : i0 ≤ i1) (hg : 0 ≤ sgcw) (h : F.Args m [] [F.st1d st_ i0 i1 sgcw]) :
    ∃ m', Cuda.poissonOffdiag1d i0 i1 dx beta sgcw st_ β m = .ok m' ∧ F.cellpoissonoffdiag1d i0 i1 dx beta sgcw st_ m = .ok m' := by
  have hst := h.ok (F.st1d st_ i0 i1 sgcw) (by simp)
  obtain ⟨Ast, spst, Ii⟩ := st1_setup hst hi hg
  have mkI := mkB_near (d := .I) (lo := i0) (hi := i1) (by rng)
  have mkW := mkB_near (d := .W) (lo := 0) (hi := 2) (by rng)
  have S := seg1_box Ast hi hg
  show Both (Cuda.poissonOffdiag1d i0 i1 dx beta sgcw st_ β m) (F.cellpoissonoffdiag1d i0 i1 dx beta sgcw st_) m
  unfold Cuda.poissonOffdiag1d F.cellpoissonoffdiag1d
  refine Both.bind mkI <| Both.bind mkW <| Both.bind spst <| ?_
  simp only [hs, ← farr_st1]
  exact (S.nums hβ [(1, -(beta / (dx 0 * dx 0))), (2, -(beta / (dx 0 * dx 0)))] (by simp) (by rfl) (by simp) (by simp [stmtEntries]) (fun p => rfl)).both

example : ∃ m', Cuda.poissonOffdiag1d 0 3 exDxB 2 1 ⟨1, 0⟩ revBackend exB64 = .ok m' ∧
    F.cellpoissonoffdiag1d 0 3 exDxB 2 1 ⟨1, 0⟩ exB64 = .ok m' :=
  C49_poisson_offdiag_1d revBackend_ok B64.neg_div (by decide) (by decide) (by ex_argsB)

/-- `cd_stencil_1d_cuda::v1diag` and `celldiffusionv1diag1d` leave the same memory in every arithmetic where multiplying by -1 changes the sign, for every schedule. -/
theorem C49_v1diag_1d {i0 i1 ai0 ai1 sgcw : Int} {alpha : T} {a_ st_ : Ptr} {β : Backend} {m : Mem T}
    (hβ : ValidBackend β) (hs : ∀ x : T, -1 * x = -x) (hi : i0 ≤ i1) (hai : ai0 ≤ i0 ∧ i1 ≤ ai1) (hg : 0 ≤ sgcw) (h : F.Args m [F.cell1d a_ ai0 ai1 0] [F.st1d st_ i0 i1 sgcw]) :
    ∃ m', Cuda.v1diag1d i0 i1 ai0 ai1 alpha a_ sgcw st_ β m = .ok m' ∧ F.celldiffusionv1diag1d i0 i1 ai0 ai1 alpha a_ sgcw st_ m = .ok m' := by
  have hst := h.ok (F.st1d st_ i0 i1 sgcw) (by simp)
  obtain ⟨Ast, spst, Ii⟩ := st1_setup hst hi hg
  have mkI := mkB_near (d := .I) (lo := i0) (hi := i1) (by rng)
  have mkW := mkB_near (d := .W) (lo := 0) (hi := 2) (by rng)
  have ha := h.ok (F.cell1d a_ ai0 ai1 0) (by simp)
  obtain ⟨Aa, -, Ki⟩ := cell1_setup ha (by omega) le_rfl
  have Pa : Apart (sSt1 st_ i0 i1 sgcw) (sCell1 a_ ai0 ai1 0) := apart_of farr_st1 farr_cell1 (h.apart _ (by simp) _ (by simp))
  have mkAI := mkB_near (d := .I) (lo := ai0) (hi := ai1) (by rng)
  have S := seg1_box Ast hi hg
  show Both (Cuda.v1diag1d i0 i1 ai0 ai1 alpha a_ sgcw st_ β m) (F.celldiffusionv1diag1d i0 i1 ai0 ai1 alpha a_ sgcw st_) m
  unfold Cuda.v1diag1d F.celldiffusionv1diag1d
  refine Both.bind mkI <| Both.bind mkAI <| Both.bind mkW <| Both.bind spst <| ?_
  simp only [← farr_st1, makeSpan_cell1]
  exact (S.negArr hβ hs (u := 0) (e := 1) (L := [2]) (by omega) (by simp) (cell_box1 Aa Pa (by omega))).both

example : ∃ m', Cuda.v1diag1d 0 3 0 3 3 ⟨0, 0⟩ 1 ⟨1, 0⟩ revBackend exB64 = .ok m' ∧
    F.celldiffusionv1diag1d 0 3 0 3 3 ⟨0, 0⟩ 1 ⟨1, 0⟩ exB64 = .ok m' :=
  C49_v1diag_1d revBackend_ok B64.neg_one_mul (by decide) (by decide) (by decide) (by ex_argsB)

/-- `cd_stencil_1d_cuda::v2diag` and `celldiffusionv2diag1d` leave the same memory in every arithmetic where multiplying by -1 changes the sign, for every schedule. -/
theorem C49_v2diag_1d {i0 i1 sgcw : Int} {alpha : T} {st_ : Ptr} {β : Backend} {m : Mem T}
    (hβ : ValidBackend β) (hs : ∀ x : T, -1 * x = -x) (hi : i0 ≤ i1) (hg : 0 ≤ sgcw) (h : F.Args m [] [F.st1d st_ i0 i1 sgcw]) :
    ∃ m', Cuda.v2diag1d i0 i1 alpha sgcw st_ β m = .ok m' ∧ F.celldiffusionv2diag1d i0 i1 alpha sgcw st_ m = .ok m' := by
  have hst := h.ok (F.st1d st_ i0 i1 sgcw) (by simp)
  obtain ⟨Ast, spst, Ii⟩ := st1_setup hst hi hg
  have mkI := mkB_near (d := .I) (lo := i0) (hi := i1) (by rng)
  have mkW := mkB_near (d := .W) (lo := 0) (hi := 2) (by rng)
  have S := seg1_box Ast hi hg
  show Both (Cuda.v2diag1d i0 i1 alpha sgcw st_ β m) (F.celldiffusionv2diag1d i0 i1 alpha sgcw st_) m
  unfold Cuda.v2diag1d F.celldiffusionv2diag1d
  refine Both.bind mkI <| Both.bind mkW <| Both.bind spst <| ?_
  simp only [← farr_st1]
  exact (S.negNum hβ hs (u := 0) (e := 1) (L := [2]) (by omega) (by simp)).both

example : ∃ m', Cuda.v2diag1d 0 3 3 1 ⟨1, 0⟩ revBackend exB64 = .ok m' ∧
    F.celldiffusionv2diag1d 0 3 3 1 ⟨1, 0⟩ exB64 = .ok m' :=
  C49_v2diag_1d revBackend_ok B64.neg_one_mul (by decide) (by decide) (by ex_argsB)

/-- `cd_stencil_1d_cuda::poisson_diag` and `cellpoissondiag1d` leave the same memory in every arithmetic where multiplying by -1 changes the sign, for every schedule. -/
theorem C49_poisson_diag_1d {i0 i1 sgcw : Int} {st_ : Ptr} {β : Backend} {m : Mem T}
    (hβ : ValidBackend β) (hs : ∀ x : T, -1 * x = -x) (hi : i0 ≤ i1) (hg : 0 ≤ sgcw) (h : F.Args m [] [F.st1d st_ i0 i1 sgcw]) :
    ∃ m', Cuda.poissonDiag1d i0 i1 sgcw st_ β m = .ok m' ∧ F.cellpoissondiag1d i0 i1 sgcw st_ m = .ok m' := by
  have hst := h.ok (F.st1d st_ i0 i1 sgcw) (by simp)
  obtain ⟨Ast, spst, Ii⟩ := st1_setup hst hi hg
  have mkI := mkB_near (d := .I) (lo := i0) (hi := i1) (by rng)
  have mkW := mkB_near (d := .W) (lo := 0) (hi := 2) (by rng)
  have S := seg1_box Ast hi hg
  show Both (Cuda.poissonDiag1d i0 i1 sgcw st_ β m) (F.cellpoissondiag1d i0 i1 sgcw st_) m
  unfold Cuda.poissonDiag1d F.cellpoissondiag1d
  refine Both.bind mkI <| Both.bind mkW <| Both.bind spst <| ?_
  simp only [← farr_st1]
  exact (S.neg hβ hs (u := 0) (e := 1) (L := [2]) (by omega) (by simp)).both

example : ∃ m', Cuda.poissonDiag1d 0 3 1 ⟨1, 0⟩ revBackend exB64 = .ok m' ∧
    F.cellpoissondiag1d 0 3 1 ⟨1, 0⟩ exB64 = .ok m' :=
  C49_poisson_diag_1d revBackend_ok B64.neg_one_mul (by decide) (by decide) (by ex_argsB)

/-- `cd_stencil_2d_cuda::offdiag` and `celldiffusionoffdiag2d` leave the same memory in every arithmetic where the sign of a numerator is the sign of the quotient, for every schedule. -/
theorem C49_offdiag_2d {i0 j0 i1 j1 bi0 bj0 bi1 bj1 sgcw : Int} {dx : Nat → T} {beta : T} {b0_ b1_ st_ : Ptr} {β : Backend} {m : Mem T}
    (hβ : ValidBackend β) (hs : ∀ x y : T, -x / y = -(x / y)) (hi : i0 ≤ i1) (hj : j0 ≤ j1) (hbi : bi0 ≤ i0 ∧ i1 ≤ bi1) (hbj : bj0 ≤ j0 ∧ j1 ≤ bj1) (hg : 0 ≤ sgcw)
    (h : F.Args m [F.face2d0 b0_ bi0 bj0 bi1 bj1 0, F.face2d1 b1_ bi0 bj0 bi1 bj1 0] [F.st2d st_ i0 j0 i1 j1 sgcw]) :
    ∃ m', Cuda.offdiag2d i0 j0 i1 j1 bi0 bj0 bi1 bj1 dx beta b0_ b1_ sgcw st_ β m = .ok m' ∧ F.celldiffusionoffdiag2d i0 j0 i1 j1 bi0 bj0 bi1 bj1 dx beta b0_ b1_ sgcw st_ m = .ok m' := by
  have hst := h.ok (F.st2d st_ i0 j0 i1 j1 sgcw) (by simp)
  obtain ⟨Ast, spst, Ii, Ij⟩ := st2_setup hst hi hj hg
  have hb0 := h.ok (F.face2d0 b0_ bi0 bj0 bi1 bj1 0) (by simp)
  obtain ⟨Ab0, plI, J0⟩ := face20_setup hb0 (by omega) (by omega)
  have Pb0 : Apart (sSt2 st_ i0 j0 i1 j1 sgcw) (sFace20 b0_ bi0 bj0 bi1 bj1) := apart_of farr_st2 farr_face20 (h.apart _ (by simp) _ (by simp))
  have hb1 := h.ok (F.face2d1 b1_ bi0 bj0 bi1 bj1 0) (by simp)
  obtain ⟨Ab1, plJ, J1⟩ := face21_setup hb1 (by omega) (by omega)
  have Pb1 : Apart (sSt2 st_ i0 j0 i1 j1 sgcw) (sFace21 b1_ bi0 bj0 bi1 bj1) := apart_of farr_st2 farr_face21 (h.apart _ (by simp) _ (by simp))
  have mkI := mkB_near (d := .I) (lo := i0) (hi := i1) (by rng)
  have mkJ := mkB_near (d := .J) (lo := j0) (hi := j1) (by rng)
  have mkW := mkB_near (d := .W) (lo := 0) (hi := 4) (by rng)
  have mkBI := mkB_near (d := .I) (lo := bi0) (hi := bi1) (by rng)
  have mkBJ := mkB_near (d := .J) (lo := bj0) (hi := bj1) (by rng)
  have S := seg2_box Ast hi hj hg
  show Both (Cuda.offdiag2d i0 j0 i1 j1 bi0 bj0 bi1 bj1 dx beta b0_ b1_ sgcw st_ β m) (F.celldiffusionoffdiag2d i0 j0 i1 j1 bi0 bj0 bi1 bj1 dx beta b0_ b1_ sgcw st_) m
  unfold Cuda.offdiag2d F.celldiffusionoffdiag2d
  refine Both.bind mkI <| Both.bind mkBI <| Both.bind mkJ <| Both.bind mkBJ <| Both.bind mkW <| Both.bind spst <| Both.bind plI <| Both.bind plJ <| ?_
  simp only [hs, ← farr_st2]
  refine (S.pairs hβ [⟨1, 2, -(beta / (dx 0 * dx 0)), .I, sFace20 b0_ bi0 bj0 bi1 bj1, F.face2d0 b0_ bi0 bj0 bi1 bj1 0, fun p => [p .I, p .J], fun p => [p .I + 1, p .J]⟩,
    ⟨3, 4, -(beta / (dx 1 * dx 1)), .J, sFace21 b1_ bi0 bj0 bi1 bj1, F.face2d1 b1_ bi0 bj0 bi1 bj1 0, fun p => [p .J, p .I], fun p => [p .J + 1, p .I]⟩] ?_).both
  simp only [List.forall_mem_cons, List.not_mem_nil, false_implies, implies_true, and_true]
  exact ⟨⟨by omega, by omega, edge20 Ab0 Pb0 (by omega) (by omega)⟩, ⟨by omega, by omega, edge21 Ab1 Pb1 (by omega) (by omega)⟩⟩

example : ∃ m', Cuda.offdiag2d 0 0 3 2 0 0 3 2 exDxB 2 ⟨0, 0⟩ ⟨1, 0⟩ 1 ⟨2, 0⟩ revBackend exB64 = .ok m' ∧
    F.celldiffusionoffdiag2d 0 0 3 2 0 0 3 2 exDxB 2 ⟨0, 0⟩ ⟨1, 0⟩ 1 ⟨2, 0⟩ exB64 = .ok m' :=
  C49_offdiag_2d revBackend_ok B64.neg_div (by decide) (by decide) (by decide) (by decide) (by decide) (by ex_argsB)

/-- `cd_stencil_2d_cuda::poisson_offdiag` and `cellpoissonoffdiag2d` leave the same memory in every arithmetic where the sign of a numerator is the sign of the quotient, for every schedule. -/
theorem C49_poisson_offdiag_2d {i0 j0 i1 j1 sgcw : Int} {dx : Nat → T} {beta : T} {st_ : Ptr} {β : Backend} {m : Mem T}
    (hβ : ValidBackend β) (hs : ∀ x y : T, -x / y = -(x / y)) (hi : i0 ≤ i1) (hj : j0 ≤ j1) (hg : 0 ≤ sgcw) (h : F.Args m [] [F.st2d st_ i0 j0 i1 j1 sgcw]) :
    ∃ m', Cuda.poissonOffdiag2d i0 j0 i1 j1 dx beta sgcw st_ β m = .ok m' ∧ F.cellpoissonoffdiag2d i0 j0 i1 j1 dx beta sgcw st_ m = .ok m' := by
  have hst := h.ok (F.st2d st_ i0 j0 i1 j1 sgcw) (by simp)
  obtain ⟨Ast, spst, Ii, Ij⟩ := st2_setup hst hi hj hg
  have mkI := mkB_near (d := .I) (lo := i0) (hi := i1) (by rng)
  have mkJ := mkB_near (d := .J) (lo := j0) (hi := j1) (by rng)
  have mkW := mkB_near (d := .W) (lo := 0) (hi := 4) (by rng)
  have S := seg2_box Ast hi hj hg
  show Both (Cuda.poissonOffdiag2d i0 j0 i1 j1 dx beta sgcw st_ β m) (F.cellpoissonoffdiag2d i0 j0 i1 j1 dx beta sgcw st_) m
  unfold Cuda.poissonOffdiag2d F.cellpoissonoffdiag2d
  refine Both.bind mkI <| Both.bind mkJ <| Both.bind mkW <| Both.bind spst <| ?_
  simp only [hs, ← farr_st2]
  exact (S.nums hβ [(1, -(beta / (dx 0 * dx 0))), (2, -(beta / (dx 0 * dx 0))), (3, -(beta / (dx 1 * dx 1))), (4, -(beta / (dx 1 * dx 1)))] (by simp) (by rfl) (by simp) (by simp [stmtEntries]) (fun p => rfl)).both

example : ∃ m', Cuda.poissonOffdiag2d 0 0 3 2 exDxB 2 1 ⟨1, 0⟩ revBackend exB64 = .ok m' ∧
    F.cellpoissonoffdiag2d 0 0 3 2 exDxB 2 1 ⟨1, 0⟩ exB64 = .ok m' :=
  C49_poisson_offdiag_2d revBackend_ok B64.neg_div (by decide) (by decide) (by decide) (by ex_argsB)

/-- `cd_stencil_2d_cuda::v1diag` and `celldiffusionv1diag2d` leave the same memory in every arithmetic where multiplying by -1 changes the sign, for every schedule. -/
theorem C49_v1diag_2d {i0 j0 i1 j1 ai0 aj0 ai1 aj1 sgcw : Int} {alpha : T} {a_ st_ : Ptr} {β : Backend} {m : Mem T}
    (hβ : ValidBackend β) (hs : ∀ x : T, -1 * x = -x) (hi : i0 ≤ i1) (hj : j0 ≤ j1) (hai : ai0 ≤ i0 ∧ i1 ≤ ai1) (haj : aj0 ≤ j0 ∧ j1 ≤ aj1) (hg : 0 ≤ sgcw) (h : F.Args m [F.cell2d a_ ai0 aj0 ai1 aj1 0] [F.st2d st_ i0 j0 i1 j1 sgcw]) :
    ∃ m', Cuda.v1diag2d i0 j0 i1 j1 ai0 aj0 ai1 aj1 alpha a_ sgcw st_ β m = .ok m' ∧ F.celldiffusionv1diag2d i0 j0 i1 j1 ai0 aj0 ai1 aj1 alpha a_ sgcw st_ m = .ok m' := by
  have hst := h.ok (F.st2d st_ i0 j0 i1 j1 sgcw) (by simp)
  obtain ⟨Ast, spst, Ii, Ij⟩ := st2_setup hst hi hj hg
  have mkI := mkB_near (d := .I) (lo := i0) (hi := i1) (by rng)
  have mkJ := mkB_near (d := .J) (lo := j0) (hi := j1) (by rng)
  have mkW := mkB_near (d := .W) (lo := 0) (hi := 4) (by rng)
  have ha := h.ok (F.cell2d a_ ai0 aj0 ai1 aj1 0) (by simp)
  obtain ⟨Aa, -, Ki, Kj⟩ := cell2_setup ha (by omega) (by omega) le_rfl
  have Pa : Apart (sSt2 st_ i0 j0 i1 j1 sgcw) (sCell2 a_ ai0 aj0 ai1 aj1 0) := apart_of farr_st2 farr_cell2 (h.apart _ (by simp) _ (by simp))
  have mkAI := mkB_near (d := .I) (lo := ai0) (hi := ai1) (by rng)
  have mkAJ := mkB_near (d := .J) (lo := aj0) (hi := aj1) (by rng)
  have S := seg2_box Ast hi hj hg
  show Both (Cuda.v1diag2d i0 j0 i1 j1 ai0 aj0 ai1 aj1 alpha a_ sgcw st_ β m) (F.celldiffusionv1diag2d i0 j0 i1 j1 ai0 aj0 ai1 aj1 alpha a_ sgcw st_) m
  unfold Cuda.v1diag2d F.celldiffusionv1diag2d
  refine Both.bind mkI <| Both.bind mkAI <| Both.bind mkJ <| Both.bind mkAJ <| Both.bind mkW <| Both.bind spst <| ?_
  simp only [← farr_st2, makeSpan_cell2]
  exact (S.negArr hβ hs (u := 0) (e := 1) (L := [2, 3, 4]) (by omega) (by simp) (cell_box2 Aa Pa (by omega) (by omega))).both

example : ∃ m', Cuda.v1diag2d 0 0 3 2 0 0 3 2 3 ⟨0, 0⟩ 1 ⟨1, 0⟩ revBackend exB64 = .ok m' ∧
    F.celldiffusionv1diag2d 0 0 3 2 0 0 3 2 3 ⟨0, 0⟩ 1 ⟨1, 0⟩ exB64 = .ok m' :=
  C49_v1diag_2d revBackend_ok B64.neg_one_mul (by decide) (by decide) (by decide) (by decide) (by decide) (by ex_argsB)

/-- `cd_stencil_2d_cuda::v2diag` and `celldiffusionv2diag2d` leave the same memory in every arithmetic where multiplying by -1 changes the sign, for every schedule. -/
theorem C49_v2diag_2d {i0 j0 i1 j1 sgcw : Int} {alpha : T} {st_ : Ptr} {β : Backend} {m : Mem T}
    (hβ : ValidBackend β) (hs : ∀ x : T, -1 * x = -x) (hi : i0 ≤ i1) (hj : j0 ≤ j1) (hg : 0 ≤ sgcw) (h : F.Args m [] [F.st2d st_ i0 j0 i1 j1 sgcw]) :
    ∃ m', Cuda.v2diag2d i0 j0 i1 j1 alpha sgcw st_ β m = .ok m' ∧ F.celldiffusionv2diag2d i0 j0 i1 j1 alpha sgcw st_ m = .ok m' := by
  have hst := h.ok (F.st2d st_ i0 j0 i1 j1 sgcw) (by simp)
  obtain ⟨Ast, spst, Ii, Ij⟩ := st2_setup hst hi hj hg
  have mkI := mkB_near (d := .I) (lo := i0) (hi := i1) (by rng)
  have mkJ := mkB_near (d := .J) (lo := j0) (hi := j1) (by rng)
  have mkW := mkB_near (d := .W) (lo := 0) (hi := 4) (by rng)
  have S := seg2_box Ast hi hj hg
  show Both (Cuda.v2diag2d i0 j0 i1 j1 alpha sgcw st_ β m) (F.celldiffusionv2diag2d i0 j0 i1 j1 alpha sgcw st_) m
  unfold Cuda.v2diag2d F.celldiffusionv2diag2d
  refine Both.bind mkI <| Both.bind mkJ <| Both.bind mkW <| Both.bind spst <| ?_
  simp only [← farr_st2]
  exact (S.negNum hβ hs (u := 0) (e := 1) (L := [2, 3, 4]) (by omega) (by simp)).both

example : ∃ m', Cuda.v2diag2d 0 0 3 2 3 1 ⟨1, 0⟩ revBackend exB64 = .ok m' ∧
    F.celldiffusionv2diag2d 0 0 3 2 3 1 ⟨1, 0⟩ exB64 = .ok m' :=
  C49_v2diag_2d revBackend_ok B64.neg_one_mul (by decide) (by decide) (by decide) (by ex_argsB)

/-- `cd_stencil_2d_cuda::poisson_diag` and `cellpoissondiag2d` leave the same memory in every arithmetic where multiplying by -1 changes the sign, for every schedule. -/
theorem C49_poisson_diag_2d {i0 j0 i1 j1 sgcw : Int} {st_ : Ptr} {β : Backend} {m : Mem T}
    (hβ : ValidBackend β) (hs : ∀ x : T, -1 * x = -x) (hi : i0 ≤ i1) (hj : j0 ≤ j1) (hg : 0 ≤ sgcw) (h : F.Args m [] [F.st2d st_ i0 j0 i1 j1 sgcw]) :
    ∃ m', Cuda.poissonDiag2d i0 j0 i1 j1 sgcw st_ β m = .ok m' ∧ F.cellpoissondiag2d i0 j0 i1 j1 sgcw st_ m = .ok m' := by
  have hst := h.ok (F.st2d st_ i0 j0 i1 j1 sgcw) (by simp)
  obtain ⟨Ast, spst, Ii, Ij⟩ := st2_setup hst hi hj hg
  have mkI := mkB_near (d := .I) (lo := i0) (hi := i1) (by rng)
  have mkJ := mkB_near (d := .J) (lo := j0) (hi := j1) (by rng)
  have mkW := mkB_near (d := .W) (lo := 0) (hi := 4) (by rng)
  have S := seg2_box Ast hi hj hg
  show Both (Cuda.poissonDiag2d i0 j0 i1 j1 sgcw st_ β m) (F.cellpoissondiag2d i0 j0 i1 j1 sgcw st_) m
  unfold Cuda.poissonDiag2d F.cellpoissondiag2d
  refine Both.bind mkI <| Both.bind mkJ <| Both.bind mkW <| Both.bind spst <| ?_
  simp only [← farr_st2]
  exact (S.neg hβ hs (u := 0) (e := 1) (L := [2, 3, 4]) (by omega) (by simp)).both

example : ∃ m', Cuda.poissonDiag2d 0 0 3 2 1 ⟨1, 0⟩ revBackend exB64 = .ok m' ∧
    F.cellpoissondiag2d 0 0 3 2 1 ⟨1, 0⟩ exB64 = .ok m' :=
  C49_poisson_diag_2d revBackend_ok B64.neg_one_mul (by decide) (by decide) (by decide) (by ex_argsB)

/-- `cd_stencil_3d_cuda::offdiag` and `celldiffusionoffdiag3d` leave the same memory in every arithmetic where the sign of a numerator is the sign of the quotient, for every schedule. -/
theorem C49_offdiag_3d {i0 j0 k0 i1 j1 k1 bi0 bj0 bk0 bi1 bj1 bk1 sgcw : Int} {dx : Nat → T} {beta : T} {b0_ b1_ b2_ st_ : Ptr} {β : Backend} {m : Mem T}
    (hβ : ValidBackend β) (hs : ∀ x y : T, -x / y = -(x / y)) (hi : i0 ≤ i1) (hj : j0 ≤ j1) (hk : k0 ≤ k1) (hbi : bi0 ≤ i0 ∧ i1 ≤ bi1) (hbj : bj0 ≤ j0 ∧ j1 ≤ bj1) (hbk : bk0 ≤ k0 ∧ k1 ≤ bk1) (hg : 0 ≤ sgcw)
    (h : F.Args m [F.face3d0 b0_ bi0 bj0 bk0 bi1 bj1 bk1 0, F.face3d1 b1_ bi0 bj0 bk0 bi1 bj1 bk1 0, F.face3d2 b2_ bi0 bj0 bk0 bi1 bj1 bk1 0] [F.st3d st_ i0 j0 k0 i1 j1 k1 sgcw]) :
    ∃ m', Cuda.offdiag3d i0 j0 k0 i1 j1 k1 bi0 bj0 bk0 bi1 bj1 bk1 dx beta b0_ b1_ b2_ sgcw st_ β m = .ok m' ∧ F.celldiffusionoffdiag3d i0 j0 k0 i1 j1 k1 bi0 bj0 bk0 bi1 bj1 bk1 dx beta b0_ b1_ b2_ sgcw st_ m = .ok m' := by
  have hst := h.ok (F.st3d st_ i0 j0 k0 i1 j1 k1 sgcw) (by simp)
  obtain ⟨Ast, spst, Ii, Ij, Ik⟩ := st3_setup hst hi hj hk hg
  have hb0 := h.ok (F.face3d0 b0_ bi0 bj0 bk0 bi1 bj1 bk1 0) (by simp)
  obtain ⟨Ab0, plI, J0⟩ := face30_setup hb0 (by omega) (by omega) (by omega)
  have Pb0 : Apart (sSt3 st_ i0 j0 k0 i1 j1 k1 sgcw) (sFace30 b0_ bi0 bj0 bk0 bi1 bj1 bk1) := apart_of farr_st3 farr_face30 (h.apart _ (by simp) _ (by simp))
  have hb1 := h.ok (F.face3d1 b1_ bi0 bj0 bk0 bi1 bj1 bk1 0) (by simp)
  obtain ⟨Ab1, plJ, J1⟩ := face31_setup hb1 (by omega) (by omega) (by omega)
  have Pb1 : Apart (sSt3 st_ i0 j0 k0 i1 j1 k1 sgcw) (sFace31 b1_ bi0 bj0 bk0 bi1 bj1 bk1) := apart_of farr_st3 farr_face31 (h.apart _ (by simp) _ (by simp))
  have hb2 := h.ok (F.face3d2 b2_ bi0 bj0 bk0 bi1 bj1 bk1 0) (by simp)
  obtain ⟨Ab2, plK, J2⟩ := face32_setup hb2 (by omega) (by omega) (by omega)
  have Pb2 : Apart (sSt3 st_ i0 j0 k0 i1 j1 k1 sgcw) (sFace32 b2_ bi0 bj0 bk0 bi1 bj1 bk1) := apart_of farr_st3 farr_face32 (h.apart _ (by simp) _ (by simp))
  have mkI := mkB_near (d := .I) (lo := i0) (hi := i1) (by rng)
  have mkJ := mkB_near (d := .J) (lo := j0) (hi := j1) (by rng)
  have mkK := mkB_near (d := .K) (lo := k0) (hi := k1) (by rng)
  have mkW := mkB_near (d := .W) (lo := 0) (hi := 6) (by rng)
  have mkBI := mkB_near (d := .I) (lo := bi0) (hi := bi1) (by rng)
  have mkBJ := mkB_near (d := .J) (lo := bj0) (hi := bj1) (by rng)
  have mkBK := mkB_near (d := .K) (lo := bk0) (hi := bk1) (by rng)
  have S := seg3_box Ast hi hj hk hg
  show Both (Cuda.offdiag3d i0 j0 k0 i1 j1 k1 bi0 bj0 bk0 bi1 bj1 bk1 dx beta b0_ b1_ b2_ sgcw st_ β m) (F.celldiffusionoffdiag3d i0 j0 k0 i1 j1 k1 bi0 bj0 bk0 bi1 bj1 bk1 dx beta b0_ b1_ b2_ sgcw st_) m
  unfold Cuda.offdiag3d F.celldiffusionoffdiag3d
  refine Both.bind mkI <| Both.bind mkBI <| Both.bind mkJ <| Both.bind mkBJ <| Both.bind mkK <| Both.bind mkBK <| Both.bind mkW <| Both.bind spst <| Both.bind plI <| Both.bind plJ <| Both.bind plK <| ?_
  simp only [hs, ← farr_st3]
  refine (S.pairs hβ [⟨1, 2, -(beta / (dx 0 * dx 0)), .I, sFace30 b0_ bi0 bj0 bk0 bi1 bj1 bk1, F.face3d0 b0_ bi0 bj0 bk0 bi1 bj1 bk1 0, fun p => [p .I, p .J, p .K], fun p => [p .I + 1, p .J, p .K]⟩,
    ⟨3, 4, -(beta / (dx 1 * dx 1)), .J, sFace31 b1_ bi0 bj0 bk0 bi1 bj1 bk1, F.face3d1 b1_ bi0 bj0 bk0 bi1 bj1 bk1 0, fun p => [p .J, p .K, p .I], fun p => [p .J + 1, p .K, p .I]⟩,
    ⟨5, 6, -(beta / (dx 2 * dx 2)), .K, sFace32 b2_ bi0 bj0 bk0 bi1 bj1 bk1, F.face3d2 b2_ bi0 bj0 bk0 bi1 bj1 bk1 0, fun p => [p .K, p .I, p .J], fun p => [p .K + 1, p .I, p .J]⟩] ?_).both
  simp only [List.forall_mem_cons, List.not_mem_nil, false_implies, implies_true, and_true]
  exact ⟨⟨by omega, by omega, edge30 Ab0 Pb0 (by omega) (by omega) (by omega)⟩, ⟨by omega, by omega, edge31 Ab1 Pb1 (by omega) (by omega) (by omega)⟩, ⟨by omega, by omega, edge32 Ab2 Pb2 (by omega) (by omega) (by omega)⟩⟩

example : ∃ m', Cuda.offdiag3d 0 0 0 3 2 1 0 0 0 3 2 1 exDxB 2 ⟨0, 0⟩ ⟨1, 0⟩ ⟨2, 0⟩ 1 ⟨3, 0⟩ revBackend exB64 = .ok m' ∧
    F.celldiffusionoffdiag3d 0 0 0 3 2 1 0 0 0 3 2 1 exDxB 2 ⟨0, 0⟩ ⟨1, 0⟩ ⟨2, 0⟩ 1 ⟨3, 0⟩ exB64 = .ok m' :=
  C49_offdiag_3d revBackend_ok B64.neg_div (by decide) (by decide) (by decide) (by decide) (by decide) (by decide) (by decide) (by ex_argsB)

/-- `cd_stencil_3d_cuda::poisson_offdiag` and `cellpoissonoffdiag3d` leave the same memory in every arithmetic where the sign of a numerator is the sign of the quotient, for every schedule. -/
theorem C49_poisson_offdiag_3d {i0 j0 k0 i1 j1 k1 sgcw : Int} {dx : Nat → T} {beta : T} {st_ : Ptr} {β : Backend} {m : Mem T}
    (hβ : ValidBackend β) (hs : ∀ x y : T, -x / y = -(x / y)) (hi : i0 ≤ i1) (hj : j0 ≤ j1) (hk : k0 ≤ k1) (hg : 0 ≤ sgcw) (h : F.Args m [] [F.st3d st_ i0 j0 k0 i1 j1 k1 sgcw]) :
    ∃ m', Cuda.poissonOffdiag3d i0 j0 k0 i1 j1 k1 dx beta sgcw st_ β m = .ok m' ∧ F.cellpoissonoffdiag3d i0 j0 k0 i1 j1 k1 dx beta sgcw st_ m = .ok m' := by
  have hst := h.ok (F.st3d st_ i0 j0 k0 i1 j1 k1 sgcw) (by simp)
  obtain ⟨Ast, spst, Ii, Ij, Ik⟩ := st3_setup hst hi hj hk hg
  have mkI := mkB_near (d := .I) (lo := i0) (hi := i1) (by rng)
  have mkJ := mkB_near (d := .J) (lo := j0) (hi := j1) (by rng)
  have mkK := mkB_near (d := .K) (lo := k0) (hi := k1) (by rng)
  have mkW := mkB_near (d := .W) (lo := 0) (hi := 6) (by rng)
  have S := seg3_box Ast hi hj hk hg
  show Both (Cuda.poissonOffdiag3d i0 j0 k0 i1 j1 k1 dx beta sgcw st_ β m) (F.cellpoissonoffdiag3d i0 j0 k0 i1 j1 k1 dx beta sgcw st_) m
  unfold Cuda.poissonOffdiag3d F.cellpoissonoffdiag3d
  refine Both.bind mkI <| Both.bind mkJ <| Both.bind mkK <| Both.bind mkW <| Both.bind spst <| ?_
  simp only [hs, ← farr_st3]
  exact (S.nums hβ [(1, -(beta / (dx 0 * dx 0))), (2, -(beta / (dx 0 * dx 0))), (3, -(beta / (dx 1 * dx 1))), (4, -(beta / (dx 1 * dx 1))), (5, -(beta / (dx 2 * dx 2))), (6, -(beta / (dx 2 * dx 2)))] (by simp) (by rfl) (by simp) (by simp [stmtEntries]) (fun p => rfl)).both

example : ∃ m', Cuda.poissonOffdiag3d 0 0 0 3 2 1 exDxB 2 1 ⟨1, 0⟩ revBackend exB64 = .ok m' ∧
    F.cellpoissonoffdiag3d 0 0 0 3 2 1 exDxB 2 1 ⟨1, 0⟩ exB64 = .ok m' :=
  C49_poisson_offdiag_3d revBackend_ok B64.neg_div (by decide) (by decide) (by decide) (by decide) (by ex_argsB)

/-- `cd_stencil_3d_cuda::v1diag` and `celldiffusionv1diag3d` leave the same memory in every arithmetic where multiplying by -1 changes the sign, for every schedule. -/
theorem C49_v1diag_3d {i0 j0 k0 i1 j1 k1 ai0 aj0 ak0 ai1 aj1 ak1 sgcw : Int} {alpha : T} {a_ st_ : Ptr} {β : Backend} {m : Mem T}
    (hβ : ValidBackend β) (hs : ∀ x : T, -1 * x = -x) (hi : i0 ≤ i1) (hj : j0 ≤ j1) (hk : k0 ≤ k1) (hai : ai0 ≤ i0 ∧ i1 ≤ ai1) (haj : aj0 ≤ j0 ∧ j1 ≤ aj1) (hak : ak0 ≤ k0 ∧ k1 ≤ ak1) (hg : 0 ≤ sgcw) (h : F.Args m [F.cell3d a_ ai0 aj0 ak0 ai1 aj1 ak1 0] [F.st3d st_ i0 j0 k0 i1 j1 k1 sgcw]) :
    ∃ m', Cuda.v1diag3d i0 j0 k0 i1 j1 k1 ai0 aj0 ak0 ai1 aj1 ak1 alpha a_ sgcw st_ β m = .ok m' ∧ F.celldiffusionv1diag3d i0 j0 k0 i1 j1 k1 ai0 aj0 ak0 ai1 aj1 ak1 alpha a_ sgcw st_ m = .ok m' := by
  have hst := h.ok (F.st3d st_ i0 j0 k0 i1 j1 k1 sgcw) (by simp)
  obtain ⟨Ast, spst, Ii, Ij, Ik⟩ := st3_setup hst hi hj hk hg
  have mkI := mkB_near (d := .I) (lo := i0) (hi := i1) (by rng)
  have mkJ := mkB_near (d := .J) (lo := j0) (hi := j1) (by rng)
  have mkK := mkB_near (d := .K) (lo := k0) (hi := k1) (by rng)
  have mkW := mkB_near (d := .W) (lo := 0) (hi := 6) (by rng)
  have ha := h.ok (F.cell3d a_ ai0 aj0 ak0 ai1 aj1 ak1 0) (by simp)
  obtain ⟨Aa, -, Ki, Kj, Kk⟩ := cell3_setup ha (by omega) (by omega) (by omega) le_rfl
  have Pa : Apart (sSt3 st_ i0 j0 k0 i1 j1 k1 sgcw) (sCell3 a_ ai0 aj0 ak0 ai1 aj1 ak1 0) := apart_of farr_st3 farr_cell3 (h.apart _ (by simp) _ (by simp))
  have mkAI := mkB_near (d := .I) (lo := ai0) (hi := ai1) (by rng)
  have mkAJ := mkB_near (d := .J) (lo := aj0) (hi := aj1) (by rng)
  have mkAK := mkB_near (d := .K) (lo := ak0) (hi := ak1) (by rng)
  have S := seg3_box Ast hi hj hk hg
  show Both (Cuda.v1diag3d i0 j0 k0 i1 j1 k1 ai0 aj0 ak0 ai1 aj1 ak1 alpha a_ sgcw st_ β m) (F.celldiffusionv1diag3d i0 j0 k0 i1 j1 k1 ai0 aj0 ak0 ai1 aj1 ak1 alpha a_ sgcw st_) m
  unfold Cuda.v1diag3d F.celldiffusionv1diag3d
  refine Both.bind mkI <| Both.bind mkAI <| Both.bind mkJ <| Both.bind mkAJ <| Both.bind mkK <| Both.bind mkAK <| Both.bind mkW <| Both.bind spst <| ?_
  simp only [← farr_st3, makeSpan_cell3]
  exact (S.negArr hβ hs (u := 0) (e := 1) (L := [2, 3, 4, 5, 6]) (by omega) (by simp) (cell_box3 Aa Pa (by omega) (by omega) (by omega))).both

example : ∃ m', Cuda.v1diag3d 0 0 0 3 2 1 0 0 0 3 2 1 3 ⟨0, 0⟩ 1 ⟨1, 0⟩ revBackend exB64 = .ok m' ∧
    F.celldiffusionv1diag3d 0 0 0 3 2 1 0 0 0 3 2 1 3 ⟨0, 0⟩ 1 ⟨1, 0⟩ exB64 = .ok m' :=
  C49_v1diag_3d revBackend_ok B64.neg_one_mul (by decide) (by decide) (by decide) (by decide) (by decide) (by decide) (by decide) (by ex_argsB)

/-- `cd_stencil_3d_cuda::v2diag` and `celldiffusionv2diag3d` leave the same memory in every arithmetic where multiplying by -1 changes the sign, for every schedule. -/
theorem C49_v2diag_3d {i0 j0 k0 i1 j1 k1 sgcw : Int} {alpha : T} {st_ : Ptr} {β : Backend} {m : Mem T}
    (hβ : ValidBackend β) (hs : ∀ x : T, -1 * x = -x) (hi : i0 ≤ i1) (hj : j0 ≤ j1) (hk : k0 ≤ k1) (hg : 0 ≤ sgcw) (h : F.Args m [] [F.st3d st_ i0 j0 k0 i1 j1 k1 sgcw]) :
    ∃ m', Cuda.v2diag3d i0 j0 k0 i1 j1 k1 alpha sgcw st_ β m = .ok m' ∧ F.celldiffusionv2diag3d i0 j0 k0 i1 j1 k1 alpha sgcw st_ m = .ok m' := by
  have hst := h.ok (F.st3d st_ i0 j0 k0 i1 j1 k1 sgcw) (by simp)
  obtain ⟨Ast, spst, Ii, Ij, Ik⟩ := st3_setup hst hi hj hk hg
  have mkI := mkB_near (d := .I) (lo := i0) (hi := i1) (by rng)
  have mkJ := mkB_near (d := .J) (lo := j0) (hi := j1) (by rng)
  have mkK := mkB_near (d := .K) (lo := k0) (hi := k1) (by rng)
  have mkW := mkB_near (d := .W) (lo := 0) (hi := 6) (by rng)
  have S := seg3_box Ast hi hj hk hg
  show Both (Cuda.v2diag3d i0 j0 k0 i1 j1 k1 alpha sgcw st_ β m) (F.celldiffusionv2diag3d i0 j0 k0 i1 j1 k1 alpha sgcw st_) m
  unfold Cuda.v2diag3d F.celldiffusionv2diag3d
  refine Both.bind mkI <| Both.bind mkJ <| Both.bind mkK <| Both.bind mkW <| Both.bind spst <| ?_
  simp only [← farr_st3]
  exact (S.negNum hβ hs (u := 0) (e := 1) (L := [2, 3, 4, 5, 6]) (by omega) (by simp)).both

example : ∃ m', Cuda.v2diag3d 0 0 0 3 2 1 3 1 ⟨1, 0⟩ revBackend exB64 = .ok m' ∧
    F.celldiffusionv2diag3d 0 0 0 3 2 1 3 1 ⟨1, 0⟩ exB64 = .ok m' :=
  C49_v2diag_3d revBackend_ok B64.neg_one_mul (by decide) (by decide) (by decide) (by decide) (by ex_argsB)

/-- `cd_stencil_3d_cuda::poisson_diag` and `cellpoissondiag3d` leave the same memory in every arithmetic where multiplying by -1 changes the sign, for every schedule. -/
theorem C49_poisson_diag_3d {i0 j0 k0 i1 j1 k1 sgcw : Int} {st_ : Ptr} {β : Backend} {m : Mem T}
    (hβ : ValidBackend β) (hs : ∀ x : T, -1 * x = -x) (hi : i0 ≤ i1) (hj : j0 ≤ j1) (hk : k0 ≤ k1) (hg : 0 ≤ sgcw) (h : F.Args m [] [F.st3d st_ i0 j0 k0 i1 j1 k1 sgcw]) :
    ∃ m', Cuda.poissonDiag3d i0 j0 k0 i1 j1 k1 sgcw st_ β m = .ok m' ∧ F.cellpoissondiag3d i0 j0 k0 i1 j1 k1 sgcw st_ m = .ok m' := by
  have hst := h.ok (F.st3d st_ i0 j0 k0 i1 j1 k1 sgcw) (by simp)
  obtain ⟨Ast, spst, Ii, Ij, Ik⟩ := st3_setup hst hi hj hk hg
  have mkI := mkB_near (d := .I) (lo := i0) (hi := i1) (by rng)
  have mkJ := mkB_near (d := .J) (lo := j0) (hi := j1) (by rng)
  have mkK := mkB_near (d := .K) (lo := k0) (hi := k1) (by rng)
  have mkW := mkB_near (d := .W) (lo := 0) (hi := 6) (by rng)
  have S := seg3_box Ast hi hj hk hg
  show Both (Cuda.poissonDiag3d i0 j0 k0 i1 j1 k1 sgcw st_ β m) (F.cellpoissondiag3d i0 j0 k0 i1 j1 k1 sgcw st_) m
  unfold Cuda.poissonDiag3d F.cellpoissondiag3d
  refine Both.bind mkI <| Both.bind mkJ <| Both.bind mkK <| Both.bind mkW <| Both.bind spst <| ?_
  simp only [← farr_st3]
  exact (S.neg hβ hs (u := 0) (e := 1) (L := [2, 3, 4, 5, 6]) (by omega) (by simp)).both

example : ∃ m', Cuda.poissonDiag3d 0 0 0 3 2 1 1 ⟨1, 0⟩ revBackend exB64 = .ok m' ∧
    F.cellpoissondiag3d 0 0 0 3 2 1 1 ⟨1, 0⟩ exB64 = .ok m' :=
  C49_poisson_diag_3d revBackend_ok B64.neg_one_mul (by decide) (by decide) (by decide) (by decide) (by ex_argsB)

/-- `cd_stencil_1d_cuda::readj_offdiag` and `readjcelldiffusionoffdiag1d` leave the same memory, for every schedule, whatever the arithmetic. -/
theorem C49_readj_offdiag_1d {i0 i1 pi0 pi1 side sgcw : Int} {st_ : Ptr} {β : Backend} {m : Mem T}
    (hβ : ValidBackend β) (hi : i0 ≤ i1) (hg : 0 ≤ sgcw) (hl : Layer1 i0 i1 sgcw pi0 pi1 side)
    (h : F.Args m [] [F.st1d st_ i0 i1 sgcw]) :
    ∃ m', Cuda.readjOffdiag1d i0 i1 pi0 pi1 side sgcw st_ β m = .ok m' ∧ F.readjcelldiffusionoffdiag1d i0 i1 pi0 pi1 side sgcw st_ m = .ok m' := by
  have hst := h.ok (F.st1d st_ i0 i1 sgcw) (by simp)
  obtain ⟨Ast, spst, Ii⟩ := st1_setup hst hi hg
  have mkI := mkB_near (d := .I) (lo := i0) (hi := i1) (by rng)
  have mkW := mkB_near (d := .W) (lo := 0) (hi := 2) (by rng)
  obtain ⟨hs, hx, nI⟩ := hl
  show Both (Cuda.readjOffdiag1d i0 i1 pi0 pi1 side sgcw st_ β m) (F.readjcelldiffusionoffdiag1d i0 i1 pi0 pi1 side sgcw st_) m
  unfold Cuda.readjOffdiag1d F.readjcelldiffusionoffdiag1d
  rcases hs with rfl | rfl
  · refine Both.bind mkI <| Both.bind (localize_ok (l := pi0 - 2 * 0 + 1) (by omega) nI.1 rfl) <| Both.bind mkW <| Both.bind spst <| Both.bind (a := (1 : Int)) rfl <| ?_
    simp only [↓reduceIte, Int.reduceEq, F.doLoop_skip, ← farr_st1]
    exact off1 (seg1 Ast (by omega) (by omega)) hβ (by omega)
  · refine Both.bind mkI <| Both.bind (localize_ok (l := pi0 - 2 * 1 + 1) (by omega) nI.1 rfl) <| Both.bind mkW <| Both.bind spst <| Both.bind (a := (2 : Int)) rfl <| ?_
    simp only [↓reduceIte, Int.reduceEq, F.doLoop_skip, ← farr_st1]
    exact off1 (seg1 Ast (by omega) (by omega)) hβ (by omega)

example : ∃ m', Cuda.readjOffdiag1d 0 3 4 4 1 1 ⟨0, 0⟩ revBackend exB64 = .ok m' ∧
    F.readjcelldiffusionoffdiag1d 0 3 4 4 1 1 ⟨0, 0⟩ exB64 = .ok m' :=
  C49_readj_offdiag_1d revBackend_ok (by decide) (by decide) (by constructor <;> (try simp only [InInt]) <;> decide) (by ex_argsB)

/-- `cd_stencil_1d_cuda::adj_cf_bdryrhs` and `adjcelldiffusioncfbdryrhs1d` leave the same memory in every arithmetic where adding the opposite is subtracting, for every schedule. -/
theorem C49_adj_cf_bdryrhs_1d {i0 i1 pi0 pi1 side sgcw gcw : Int} {st_ u_ rhs_ : Ptr} {β : Backend} {m : Mem T}
    (hβ : ValidBackend β) (hs : ∀ x y : T, x - y = -1 * y + x) (hi : i0 ≤ i1) (hg : 0 ≤ sgcw) (hu : 1 ≤ gcw) (hl : Layer1 i0 i1 0 pi0 pi1 side)
    (h : F.Args m [F.cell1d u_ i0 i1 gcw, F.st1d st_ i0 i1 sgcw] [F.cell1d rhs_ i0 i1 0]) :
    ∃ m', Cuda.adjCfBdryrhs1d i0 i1 pi0 pi1 side sgcw st_ gcw u_ rhs_ β m = .ok m' ∧ F.adjcelldiffusioncfbdryrhs1d i0 i1 pi0 pi1 side sgcw st_ gcw u_ rhs_ m = .ok m' := by
  have hst := h.ok (F.st1d st_ i0 i1 sgcw) (by simp)
  obtain ⟨Ast, spst, Ii⟩ := st1_setup hst hi hg
  have mkI := mkB_near (d := .I) (lo := i0) (hi := i1) (by rng)
  have mkW := mkB_near (d := .W) (lo := 0) (hi := 2) (by rng)
  have hu_ := h.ok (F.cell1d u_ i0 i1 gcw) (by simp)
  obtain ⟨Au, spu, -⟩ := cell1_setup hu_ hi (by omega)
  have hr := h.ok (F.cell1d rhs_ i0 i1 0) (by simp)
  obtain ⟨Ar, -, -⟩ := cell1_setup hr hi le_rfl
  have Pr : Apart (sCell1 rhs_ i0 i1 0) (sSt1 st_ i0 i1 sgcw) := apart_of farr_cell1 farr_st1 (h.apart _ (by simp) _ (by simp))
  have Pu : Apart (sCell1 rhs_ i0 i1 0) (sCell1 u_ i0 i1 gcw) := apart_of farr_cell1 farr_cell1 (h.apart _ (by simp) _ (by simp))
  obtain ⟨hs, hx, nI⟩ := hl
  show Both (Cuda.adjCfBdryrhs1d i0 i1 pi0 pi1 side sgcw st_ gcw u_ rhs_ β m) (F.adjcelldiffusioncfbdryrhs1d i0 i1 pi0 pi1 side sgcw st_ gcw u_ rhs_) m
  unfold Cuda.adjCfBdryrhs1d F.adjcelldiffusioncfbdryrhs1d
  rcases hs with rfl | rfl
  · refine Both.bind mkI <| Both.bind (localize_ok (l := pi0 - 2 * 0 + 1) (by omega) nI.1 rfl) <| Both.bind mkW <| Both.bind spst <| Both.bind spu <| Both.bind (a := (1 : Int)) rfl <| Both.bind (a := (-1 : Int)) rfl <| ?_
    simp only [↓reduceIte, Int.reduceEq, F.doLoop_skip, ← farr_st1, makeSpan_cell1]
    exact (Seg.sub (seg1 Ast (by omega) (by omega)) hβ hs (by omega) Ar (cell_on1 (t := rhs_) (i0 := i0) (i1 := i1)  (l := pi0 - 2 * 0 + 1) (e := pi0 + 1 - 2 * 0) (by omega) (by omega)).1 Pr.symm farr_cell1 (cell_on1 (t := rhs_) (i0 := i0) (i1 := i1)  (l := pi0 - 2 * 0 + 1) (e := pi0 + 1 - 2 * 0) (by omega) (by omega)).2 (cell_at1 Au Pu (by omega) hu (by omega) (by omega))).both
  · refine Both.bind mkI <| Both.bind (localize_ok (l := pi0 - 2 * 1 + 1) (by omega) nI.1 rfl) <| Both.bind mkW <| Both.bind spst <| Both.bind spu <| Both.bind (a := (2 : Int)) rfl <| Both.bind (a := (1 : Int)) rfl <| ?_
    simp only [↓reduceIte, Int.reduceEq, F.doLoop_skip, ← farr_st1, makeSpan_cell1]
    exact (Seg.sub (seg1 Ast (by omega) (by omega)) hβ hs (by omega) Ar (cell_on1 (t := rhs_) (i0 := i0) (i1 := i1)  (l := pi0 - 2 * 1 + 1) (e := pi0 + 1 - 2 * 1) (by omega) (by omega)).1 Pr.symm farr_cell1 (cell_on1 (t := rhs_) (i0 := i0) (i1 := i1)  (l := pi0 - 2 * 1 + 1) (e := pi0 + 1 - 2 * 1) (by omega) (by omega)).2 (cell_at1 Au Pu (by omega) hu (by omega) (by omega))).both

example : ∃ m', Cuda.adjCfBdryrhs1d 0 3 4 4 1 1 ⟨0, 0⟩ 1 ⟨1, 0⟩ ⟨2, 0⟩ revBackend exB64 = .ok m' ∧
    F.adjcelldiffusioncfbdryrhs1d 0 3 4 4 1 1 ⟨0, 0⟩ 1 ⟨1, 0⟩ ⟨2, 0⟩ exB64 = .ok m' :=
  C49_adj_cf_bdryrhs_1d revBackend_ok B64.sub_eq (by decide) (by decide) (by decide) (by constructor <;> (try simp only [InInt]) <;> decide) (by ex_argsB)

/-- `cd_stencil_2d_cuda::readj_offdiag` and `readjcelldiffusionoffdiag2d` leave the same memory, for every schedule, whatever the arithmetic. -/
theorem C49_readj_offdiag_2d {i0 j0 i1 j1 pi0 pj0 pi1 pj1 dir side sgcw : Int} {st_ : Ptr} {β : Backend} {m : Mem T}
    (hβ : ValidBackend β) (hi : i0 ≤ i1) (hj : j0 ≤ j1) (hg : 0 ≤ sgcw) (hl : Layer2 i0 j0 i1 j1 sgcw pi0 pj0 pi1 pj1 dir side)
    (h : F.Args m [] [F.st2d st_ i0 j0 i1 j1 sgcw]) :
    ∃ m', Cuda.readjOffdiag2d i0 j0 i1 j1 pi0 pj0 pi1 pj1 dir side sgcw st_ β m = .ok m' ∧ F.readjcelldiffusionoffdiag2d i0 j0 i1 j1 pi0 pj0 pi1 pj1 dir side sgcw st_ m = .ok m' := by
  have hst := h.ok (F.st2d st_ i0 j0 i1 j1 sgcw) (by simp)
  obtain ⟨Ast, spst, Ii, Ij⟩ := st2_setup hst hi hj hg
  have mkI := mkB_near (d := .I) (lo := i0) (hi := i1) (by rng)
  have mkJ := mkB_near (d := .J) (lo := j0) (hi := j1) (by rng)
  have mkW := mkB_near (d := .W) (lo := 0) (hi := 4) (by rng)
  obtain ⟨hd, hs, hx, hy, nI, nJ⟩ := hl
  have mkPI := mkB_near (d := .I) (lo := pi0) nI.2
  have mkPJ := mkB_near (d := .J) (lo := pj0) nJ.2
  have hd : dir = 0 ∨ dir = 1 := by omega
  show Both (Cuda.readjOffdiag2d i0 j0 i1 j1 pi0 pj0 pi1 pj1 dir side sgcw st_ β m) (F.readjcelldiffusionoffdiag2d i0 j0 i1 j1 pi0 pj0 pi1 pj1 dir side sgcw st_) m
  unfold Cuda.readjOffdiag2d F.readjcelldiffusionoffdiag2d
  rcases hd with rfl | rfl <;> rcases hs with rfl | rfl
  · replace hx := hx rfl
    refine Both.bind mkI <| Both.bind mkPI <| Both.bind mkJ <| Both.bind mkPJ <| Both.bind mkW <| Both.bind spst <| Both.bind (a := (1 : Int)) rfl <| Both.bind (localize_ok (l := pi0 - 2 * 0 + 1) (by omega) nI.1 rfl) <| Both.bind (localize_ok (l := pj0 - 2 * 0 + 1) (by omega) nJ.1 rfl) <| ?_
    simp only [↓reduceIte, Int.reduceEq, F.doLoop_skip, ← farr_st2]
    exact off1 (seg2_0 Ast (by omega) (by omega) (by omega)) hβ (by omega)
  · replace hx := hx rfl
    refine Both.bind mkI <| Both.bind mkPI <| Both.bind mkJ <| Both.bind mkPJ <| Both.bind mkW <| Both.bind spst <| Both.bind (a := (2 : Int)) rfl <| Both.bind (localize_ok (l := pi0 - 2 * 1 + 1) (by omega) nI.1 rfl) <| Both.bind (localize_ok (l := pj0 - 2 * 1 + 1) (by omega) nJ.1 rfl) <| ?_
    simp only [↓reduceIte, Int.reduceEq, F.doLoop_skip, ← farr_st2]
    exact off1 (seg2_0 Ast (by omega) (by omega) (by omega)) hβ (by omega)
  · replace hy := hy rfl
    refine Both.bind mkI <| Both.bind mkPI <| Both.bind mkJ <| Both.bind mkPJ <| Both.bind mkW <| Both.bind spst <| Both.bind (a := (3 : Int)) rfl <| Both.bind (localize_ok (l := pi0 - 2 * 0 + 1) (by omega) nI.1 rfl) <| Both.bind (localize_ok (l := pj0 - 2 * 0 + 1) (by omega) nJ.1 rfl) <| ?_
    simp only [↓reduceIte, Int.reduceEq, F.doLoop_skip, ← farr_st2]
    exact off1 (seg2_1 Ast (by omega) (by omega) (by omega)) hβ (by omega)
  · replace hy := hy rfl
    refine Both.bind mkI <| Both.bind mkPI <| Both.bind mkJ <| Both.bind mkPJ <| Both.bind mkW <| Both.bind spst <| Both.bind (a := (4 : Int)) rfl <| Both.bind (localize_ok (l := pi0 - 2 * 1 + 1) (by omega) nI.1 rfl) <| Both.bind (localize_ok (l := pj0 - 2 * 1 + 1) (by omega) nJ.1 rfl) <| ?_
    simp only [↓reduceIte, Int.reduceEq, F.doLoop_skip, ← farr_st2]
    exact off1 (seg2_1 Ast (by omega) (by omega) (by omega)) hβ (by omega)

example : ∃ m', Cuda.readjOffdiag2d 0 0 3 2 4 0 4 2 0 1 1 ⟨0, 0⟩ revBackend exB64 = .ok m' ∧
    F.readjcelldiffusionoffdiag2d 0 0 3 2 4 0 4 2 0 1 1 ⟨0, 0⟩ exB64 = .ok m' :=
  C49_readj_offdiag_2d revBackend_ok (by decide) (by decide) (by decide) (by constructor <;> (try simp only [InInt]) <;> decide) (by ex_argsB)

/-- `cd_stencil_2d_cuda::adj_cf_bdryrhs` and `adjcelldiffusioncfbdryrhs2d` leave the same memory in every arithmetic where adding the opposite is subtracting, for every schedule. -/
theorem C49_adj_cf_bdryrhs_2d {i0 j0 i1 j1 pi0 pj0 pi1 pj1 dir side sgcw gcw : Int} {st_ u_ rhs_ : Ptr} {β : Backend} {m : Mem T}
    (hβ : ValidBackend β) (hs : ∀ x y : T, x - y = -1 * y + x) (hi : i0 ≤ i1) (hj : j0 ≤ j1) (hg : 0 ≤ sgcw) (hu : 1 ≤ gcw) (hl : Layer2 i0 j0 i1 j1 0 pi0 pj0 pi1 pj1 dir side)
    (h : F.Args m [F.cell2d u_ i0 j0 i1 j1 gcw, F.st2d st_ i0 j0 i1 j1 sgcw] [F.cell2d rhs_ i0 j0 i1 j1 0]) :
    ∃ m', Cuda.adjCfBdryrhs2d i0 j0 i1 j1 pi0 pj0 pi1 pj1 dir side sgcw st_ gcw u_ rhs_ β m = .ok m' ∧ F.adjcelldiffusioncfbdryrhs2d i0 j0 i1 j1 pi0 pj0 pi1 pj1 dir side sgcw st_ gcw u_ rhs_ m = .ok m' := by
  have hst := h.ok (F.st2d st_ i0 j0 i1 j1 sgcw) (by simp)
  obtain ⟨Ast, spst, Ii, Ij⟩ := st2_setup hst hi hj hg
  have mkI := mkB_near (d := .I) (lo := i0) (hi := i1) (by rng)
  have mkJ := mkB_near (d := .J) (lo := j0) (hi := j1) (by rng)
  have mkW := mkB_near (d := .W) (lo := 0) (hi := 4) (by rng)
  have hu_ := h.ok (F.cell2d u_ i0 j0 i1 j1 gcw) (by simp)
  obtain ⟨Au, spu, -⟩ := cell2_setup hu_ hi hj (by omega)
  have hr := h.ok (F.cell2d rhs_ i0 j0 i1 j1 0) (by simp)
  obtain ⟨Ar, -, -⟩ := cell2_setup hr hi hj le_rfl
  have Pr : Apart (sCell2 rhs_ i0 j0 i1 j1 0) (sSt2 st_ i0 j0 i1 j1 sgcw) := apart_of farr_cell2 farr_st2 (h.apart _ (by simp) _ (by simp))
  have Pu : Apart (sCell2 rhs_ i0 j0 i1 j1 0) (sCell2 u_ i0 j0 i1 j1 gcw) := apart_of farr_cell2 farr_cell2 (h.apart _ (by simp) _ (by simp))
  obtain ⟨hd, hs, hx, hy, nI, nJ⟩ := hl
  have mkPI := mkB_near (d := .I) (lo := pi0) nI.2
  have mkPJ := mkB_near (d := .J) (lo := pj0) nJ.2
  have hd : dir = 0 ∨ dir = 1 := by omega
  show Both (Cuda.adjCfBdryrhs2d i0 j0 i1 j1 pi0 pj0 pi1 pj1 dir side sgcw st_ gcw u_ rhs_ β m) (F.adjcelldiffusioncfbdryrhs2d i0 j0 i1 j1 pi0 pj0 pi1 pj1 dir side sgcw st_ gcw u_ rhs_) m
  unfold Cuda.adjCfBdryrhs2d F.adjcelldiffusioncfbdryrhs2d
  rcases hd with rfl | rfl <;> rcases hs with rfl | rfl
  · replace hx := hx rfl
    refine Both.bind mkI <| Both.bind mkPI <| Both.bind mkJ <| Both.bind mkPJ <| Both.bind mkW <| Both.bind spst <| Both.bind spu <| Both.bind (a := (1 : Int)) rfl <| Both.bind (a := (-1 : Int)) rfl <| Both.bind (localize_ok (l := pi0 - 2 * 0 + 1) (by omega) nI.1 rfl) <| Both.bind (localize_ok (l := pj0 - 2 * 0 + 1) (by omega) nJ.1 rfl) <| ?_
    simp only [↓reduceIte, Int.reduceEq, F.doLoop_skip, ← farr_st2, makeSpan_cell2]
    exact (Seg.sub (seg2_0 Ast (by omega) (by omega) (by omega)) hβ hs (by omega) Ar (cell_on20 (t := rhs_) (i0 := i0) (i1 := i1) (j0 := j0) (j1 := j1) (pj0 := pj0) (pj1 := pj1) (l := pi0 - 2 * 0 + 1) (e := pi0 + 1 - 2 * 0) (by omega) (by omega) (by omega)).1 Pr.symm farr_cell2 (cell_on20 (t := rhs_) (i0 := i0) (i1 := i1) (j0 := j0) (j1 := j1) (pj0 := pj0) (pj1 := pj1) (l := pi0 - 2 * 0 + 1) (e := pi0 + 1 - 2 * 0) (by omega) (by omega) (by omega)).2 (cell_at20 Au Pu (by omega) (by omega) hu (by omega) (by omega))).both
  · replace hx := hx rfl
    refine Both.bind mkI <| Both.bind mkPI <| Both.bind mkJ <| Both.bind mkPJ <| Both.bind mkW <| Both.bind spst <| Both.bind spu <| Both.bind (a := (2 : Int)) rfl <| Both.bind (a := (1 : Int)) rfl <| Both.bind (localize_ok (l := pi0 - 2 * 1 + 1) (by omega) nI.1 rfl) <| Both.bind (localize_ok (l := pj0 - 2 * 1 + 1) (by omega) nJ.1 rfl) <| ?_
    simp only [↓reduceIte, Int.reduceEq, F.doLoop_skip, ← farr_st2, makeSpan_cell2]
    exact (Seg.sub (seg2_0 Ast (by omega) (by omega) (by omega)) hβ hs (by omega) Ar (cell_on20 (t := rhs_) (i0 := i0) (i1 := i1) (j0 := j0) (j1 := j1) (pj0 := pj0) (pj1 := pj1) (l := pi0 - 2 * 1 + 1) (e := pi0 + 1 - 2 * 1) (by omega) (by omega) (by omega)).1 Pr.symm farr_cell2 (cell_on20 (t := rhs_) (i0 := i0) (i1 := i1) (j0 := j0) (j1 := j1) (pj0 := pj0) (pj1 := pj1) (l := pi0 - 2 * 1 + 1) (e := pi0 + 1 - 2 * 1) (by omega) (by omega) (by omega)).2 (cell_at20 Au Pu (by omega) (by omega) hu (by omega) (by omega))).both
  · replace hy := hy rfl
    refine Both.bind mkI <| Both.bind mkPI <| Both.bind mkJ <| Both.bind mkPJ <| Both.bind mkW <| Both.bind spst <| Both.bind spu <| Both.bind (a := (3 : Int)) rfl <| Both.bind (a := (-1 : Int)) rfl <| Both.bind (localize_ok (l := pi0 - 2 * 0 + 1) (by omega) nI.1 rfl) <| Both.bind (localize_ok (l := pj0 - 2 * 0 + 1) (by omega) nJ.1 rfl) <| ?_
    simp only [↓reduceIte, Int.reduceEq, F.doLoop_skip, ← farr_st2, makeSpan_cell2]
    exact (Seg.sub (seg2_1 Ast (by omega) (by omega) (by omega)) hβ hs (by omega) Ar (cell_on21 (t := rhs_) (i0 := i0) (i1 := i1) (j0 := j0) (j1 := j1) (pi0 := pi0) (pi1 := pi1) (l := pj0 - 2 * 0 + 1) (e := pj0 + 1 - 2 * 0) (by omega) (by omega) (by omega)).1 Pr.symm farr_cell2 (cell_on21 (t := rhs_) (i0 := i0) (i1 := i1) (j0 := j0) (j1 := j1) (pi0 := pi0) (pi1 := pi1) (l := pj0 - 2 * 0 + 1) (e := pj0 + 1 - 2 * 0) (by omega) (by omega) (by omega)).2 (cell_at21 Au Pu (by omega) (by omega) hu (by omega) (by omega))).both
  · replace hy := hy rfl
    refine Both.bind mkI <| Both.bind mkPI <| Both.bind mkJ <| Both.bind mkPJ <| Both.bind mkW <| Both.bind spst <| Both.bind spu <| Both.bind (a := (4 : Int)) rfl <| Both.bind (a := (1 : Int)) rfl <| Both.bind (localize_ok (l := pi0 - 2 * 1 + 1) (by omega) nI.1 rfl) <| Both.bind (localize_ok (l := pj0 - 2 * 1 + 1) (by omega) nJ.1 rfl) <| ?_
    simp only [↓reduceIte, Int.reduceEq, F.doLoop_skip, ← farr_st2, makeSpan_cell2]
    exact (Seg.sub (seg2_1 Ast (by omega) (by omega) (by omega)) hβ hs (by omega) Ar (cell_on21 (t := rhs_) (i0 := i0) (i1 := i1) (j0 := j0) (j1 := j1) (pi0 := pi0) (pi1 := pi1) (l := pj0 - 2 * 1 + 1) (e := pj0 + 1 - 2 * 1) (by omega) (by omega) (by omega)).1 Pr.symm farr_cell2 (cell_on21 (t := rhs_) (i0 := i0) (i1 := i1) (j0 := j0) (j1 := j1) (pi0 := pi0) (pi1 := pi1) (l := pj0 - 2 * 1 + 1) (e := pj0 + 1 - 2 * 1) (by omega) (by omega) (by omega)).2 (cell_at21 Au Pu (by omega) (by omega) hu (by omega) (by omega))).both

example : ∃ m', Cuda.adjCfBdryrhs2d 0 0 3 2 4 0 4 2 0 1 1 ⟨0, 0⟩ 1 ⟨1, 0⟩ ⟨2, 0⟩ revBackend exB64 = .ok m' ∧
    F.adjcelldiffusioncfbdryrhs2d 0 0 3 2 4 0 4 2 0 1 1 ⟨0, 0⟩ 1 ⟨1, 0⟩ ⟨2, 0⟩ exB64 = .ok m' :=
  C49_adj_cf_bdryrhs_2d revBackend_ok B64.sub_eq (by decide) (by decide) (by decide) (by decide) (by constructor <;> (try simp only [InInt]) <;> decide) (by ex_argsB)

/-- `cd_stencil_3d_cuda::readj_offdiag` and `readjcelldiffusionoffdiag3d` leave the same memory, for every schedule, whatever the arithmetic. -/
theorem C49_readj_offdiag_3d {i0 j0 k0 i1 j1 k1 pi0 pj0 pk0 pi1 pj1 pk1 dir side sgcw : Int} {st_ : Ptr} {β : Backend} {m : Mem T}
    (hβ : ValidBackend β) (hi : i0 ≤ i1) (hj : j0 ≤ j1) (hk : k0 ≤ k1) (hg : 0 ≤ sgcw) (hl : Layer3 i0 j0 k0 i1 j1 k1 sgcw pi0 pj0 pk0 pi1 pj1 pk1 dir side)
    (h : F.Args m [] [F.st3d st_ i0 j0 k0 i1 j1 k1 sgcw]) :
    ∃ m', Cuda.readjOffdiag3d i0 j0 k0 i1 j1 k1 pi0 pj0 pk0 pi1 pj1 pk1 dir side sgcw st_ β m = .ok m' ∧ F.readjcelldiffusionoffdiag3d i0 j0 k0 i1 j1 k1 pi0 pj0 pk0 pi1 pj1 pk1 dir side sgcw st_ m = .ok m' := by
  have hst := h.ok (F.st3d st_ i0 j0 k0 i1 j1 k1 sgcw) (by simp)
  obtain ⟨Ast, spst, Ii, Ij, Ik⟩ := st3_setup hst hi hj hk hg
  have mkI := mkB_near (d := .I) (lo := i0) (hi := i1) (by rng)
  have mkJ := mkB_near (d := .J) (lo := j0) (hi := j1) (by rng)
  have mkK := mkB_near (d := .K) (lo := k0) (hi := k1) (by rng)
  have mkW := mkB_near (d := .W) (lo := 0) (hi := 6) (by rng)
  obtain ⟨hd, hs, hx, hy, hz, nI, nJ, nK⟩ := hl
  have mkPI := mkB_near (d := .I) (lo := pi0) nI.2
  have mkPJ := mkB_near (d := .J) (lo := pj0) nJ.2
  have mkPK := mkB_near (d := .K) (lo := pk0) nK.2
  have hd : dir = 0 ∨ dir = 1 ∨ dir = 2 := by omega
  show Both (Cuda.readjOffdiag3d i0 j0 k0 i1 j1 k1 pi0 pj0 pk0 pi1 pj1 pk1 dir side sgcw st_ β m) (F.readjcelldiffusionoffdiag3d i0 j0 k0 i1 j1 k1 pi0 pj0 pk0 pi1 pj1 pk1 dir side sgcw st_) m
  unfold Cuda.readjOffdiag3d F.readjcelldiffusionoffdiag3d
  rcases hd with rfl | rfl | rfl <;> rcases hs with rfl | rfl
  · replace hx := hx rfl
    refine Both.bind mkI <| Both.bind mkPI <| Both.bind mkJ <| Both.bind mkPJ <| Both.bind mkK <| Both.bind mkPK <| Both.bind mkW <| Both.bind spst <| Both.bind (a := (1 : Int)) rfl <| Both.bind (localize_ok (l := pi0 - 2 * 0 + 1) (by omega) nI.1 rfl) <| Both.bind (localize_ok (l := pj0 - 2 * 0 + 1) (by omega) nJ.1 rfl) <| Both.bind (localize_ok (l := pk0 - 2 * 0 + 1) (by omega) nK.1 rfl) <| ?_
    simp only [↓reduceIte, Int.reduceEq, F.doLoop_skip, ← farr_st3]
    exact off1 (seg3_0 Ast (by omega) (by omega) (by omega) (by omega)) hβ (by omega)
  · replace hx := hx rfl
    refine Both.bind mkI <| Both.bind mkPI <| Both.bind mkJ <| Both.bind mkPJ <| Both.bind mkK <| Both.bind mkPK <| Both.bind mkW <| Both.bind spst <| Both.bind (a := (2 : Int)) rfl <| Both.bind (localize_ok (l := pi0 - 2 * 1 + 1) (by omega) nI.1 rfl) <| Both.bind (localize_ok (l := pj0 - 2 * 1 + 1) (by omega) nJ.1 rfl) <| Both.bind (localize_ok (l := pk0 - 2 * 1 + 1) (by omega) nK.1 rfl) <| ?_
    simp only [↓reduceIte, Int.reduceEq, F.doLoop_skip, ← farr_st3]
    exact off1 (seg3_0 Ast (by omega) (by omega) (by omega) (by omega)) hβ (by omega)
  · replace hy := hy rfl
    refine Both.bind mkI <| Both.bind mkPI <| Both.bind mkJ <| Both.bind mkPJ <| Both.bind mkK <| Both.bind mkPK <| Both.bind mkW <| Both.bind spst <| Both.bind (a := (3 : Int)) rfl <| Both.bind (localize_ok (l := pi0 - 2 * 0 + 1) (by omega) nI.1 rfl) <| Both.bind (localize_ok (l := pj0 - 2 * 0 + 1) (by omega) nJ.1 rfl) <| Both.bind (localize_ok (l := pk0 - 2 * 0 + 1) (by omega) nK.1 rfl) <| ?_
    simp only [↓reduceIte, Int.reduceEq, F.doLoop_skip, ← farr_st3]
    exact off1 (seg3_1 Ast (by omega) (by omega) (by omega) (by omega)) hβ (by omega)
  · replace hy := hy rfl
    refine Both.bind mkI <| Both.bind mkPI <| Both.bind mkJ <| Both.bind mkPJ <| Both.bind mkK <| Both.bind mkPK <| Both.bind mkW <| Both.bind spst <| Both.bind (a := (4 : Int)) rfl <| Both.bind (localize_ok (l := pi0 - 2 * 1 + 1) (by omega) nI.1 rfl) <| Both.bind (localize_ok (l := pj0 - 2 * 1 + 1) (by omega) nJ.1 rfl) <| Both.bind (localize_ok (l := pk0 - 2 * 1 + 1) (by omega) nK.1 rfl) <| ?_
    simp only [↓reduceIte, Int.reduceEq, F.doLoop_skip, ← farr_st3]
    exact off1 (seg3_1 Ast (by omega) (by omega) (by omega) (by omega)) hβ (by omega)
  · replace hz := hz rfl
    refine Both.bind mkI <| Both.bind mkPI <| Both.bind mkJ <| Both.bind mkPJ <| Both.bind mkK <| Both.bind mkPK <| Both.bind mkW <| Both.bind spst <| Both.bind (a := (5 : Int)) rfl <| Both.bind (localize_ok (l := pi0 - 2 * 0 + 1) (by omega) nI.1 rfl) <| Both.bind (localize_ok (l := pj0 - 2 * 0 + 1) (by omega) nJ.1 rfl) <| Both.bind (localize_ok (l := pk0 - 2 * 0 + 1) (by omega) nK.1 rfl) <| ?_
    simp only [↓reduceIte, Int.reduceEq, F.doLoop_skip, ← farr_st3]
    exact off1 (seg3_2 Ast (by omega) (by omega) (by omega) (by omega)) hβ (by omega)
  · replace hz := hz rfl
    refine Both.bind mkI <| Both.bind mkPI <| Both.bind mkJ <| Both.bind mkPJ <| Both.bind mkK <| Both.bind mkPK <| Both.bind mkW <| Both.bind spst <| Both.bind (a := (6 : Int)) rfl <| Both.bind (localize_ok (l := pi0 - 2 * 1 + 1) (by omega) nI.1 rfl) <| Both.bind (localize_ok (l := pj0 - 2 * 1 + 1) (by omega) nJ.1 rfl) <| Both.bind (localize_ok (l := pk0 - 2 * 1 + 1) (by omega) nK.1 rfl) <| ?_
    simp only [↓reduceIte, Int.reduceEq, F.doLoop_skip, ← farr_st3]
    exact off1 (seg3_2 Ast (by omega) (by omega) (by omega) (by omega)) hβ (by omega)

example : ∃ m', Cuda.readjOffdiag3d 0 0 0 3 2 1 0 0 2 3 2 2 2 1 1 ⟨0, 0⟩ revBackend exB64 = .ok m' ∧
    F.readjcelldiffusionoffdiag3d 0 0 0 3 2 1 0 0 2 3 2 2 2 1 1 ⟨0, 0⟩ exB64 = .ok m' :=
  C49_readj_offdiag_3d revBackend_ok (by decide) (by decide) (by decide) (by decide) (by constructor <;> (try simp only [InInt]) <;> decide) (by ex_argsB)

/-- `cd_stencil_3d_cuda::adj_cf_bdryrhs` and `adjcelldiffusioncfbdryrhs3d` leave the same memory in every arithmetic where adding the opposite is subtracting, for every schedule. -/
theorem C49_adj_cf_bdryrhs_3d {i0 j0 k0 i1 j1 k1 pi0 pj0 pk0 pi1 pj1 pk1 dir side sgcw gcw : Int} {st_ u_ rhs_ : Ptr} {β : Backend} {m : Mem T}
    (hβ : ValidBackend β) (hs : ∀ x y : T, x - y = -1 * y + x) (hi : i0 ≤ i1) (hj : j0 ≤ j1) (hk : k0 ≤ k1) (hg : 0 ≤ sgcw) (hu : 1 ≤ gcw) (hl : Layer3 i0 j0 k0 i1 j1 k1 0 pi0 pj0 pk0 pi1 pj1 pk1 dir side)
    (h : F.Args m [F.cell3d u_ i0 j0 k0 i1 j1 k1 gcw, F.st3d st_ i0 j0 k0 i1 j1 k1 sgcw] [F.cell3d rhs_ i0 j0 k0 i1 j1 k1 0]) :
    ∃ m', Cuda.adjCfBdryrhs3d i0 j0 k0 i1 j1 k1 pi0 pj0 pk0 pi1 pj1 pk1 dir side sgcw st_ gcw u_ rhs_ β m = .ok m' ∧ F.adjcelldiffusioncfbdryrhs3d i0 j0 k0 i1 j1 k1 pi0 pj0 pk0 pi1 pj1 pk1 dir side sgcw st_ gcw u_ rhs_ m = .ok m' := by
  have hst := h.ok (F.st3d st_ i0 j0 k0 i1 j1 k1 sgcw) (by simp)
  obtain ⟨Ast, spst, Ii, Ij, Ik⟩ := st3_setup hst hi hj hk hg
  have mkI := mkB_near (d := .I) (lo := i0) (hi := i1) (by rng)
  have mkJ := mkB_near (d := .J) (lo := j0) (hi := j1) (by rng)
  have mkK := mkB_near (d := .K) (lo := k0) (hi := k1) (by rng)
  have mkW := mkB_near (d := .W) (lo := 0) (hi := 6) (by rng)
  have hu_ := h.ok (F.cell3d u_ i0 j0 k0 i1 j1 k1 gcw) (by simp)
  obtain ⟨Au, spu, -⟩ := cell3_setup hu_ hi hj hk (by omega)
  have hr := h.ok (F.cell3d rhs_ i0 j0 k0 i1 j1 k1 0) (by simp)
  obtain ⟨Ar, -, -⟩ := cell3_setup hr hi hj hk le_rfl
  have Pr : Apart (sCell3 rhs_ i0 j0 k0 i1 j1 k1 0) (sSt3 st_ i0 j0 k0 i1 j1 k1 sgcw) := apart_of farr_cell3 farr_st3 (h.apart _ (by simp) _ (by simp))
  have Pu : Apart (sCell3 rhs_ i0 j0 k0 i1 j1 k1 0) (sCell3 u_ i0 j0 k0 i1 j1 k1 gcw) := apart_of farr_cell3 farr_cell3 (h.apart _ (by simp) _ (by simp))
  obtain ⟨hd, hs, hx, hy, hz, nI, nJ, nK⟩ := hl
  have mkPI := mkB_near (d := .I) (lo := pi0) nI.2
  have mkPJ := mkB_near (d := .J) (lo := pj0) nJ.2
  have mkPK := mkB_near (d := .K) (lo := pk0) nK.2
  have hd : dir = 0 ∨ dir = 1 ∨ dir = 2 := by omega
  show Both (Cuda.adjCfBdryrhs3d i0 j0 k0 i1 j1 k1 pi0 pj0 pk0 pi1 pj1 pk1 dir side sgcw st_ gcw u_ rhs_ β m) (F.adjcelldiffusioncfbdryrhs3d i0 j0 k0 i1 j1 k1 pi0 pj0 pk0 pi1 pj1 pk1 dir side sgcw st_ gcw u_ rhs_) m
  unfold Cuda.adjCfBdryrhs3d F.adjcelldiffusioncfbdryrhs3d
  rcases hd with rfl | rfl | rfl <;> rcases hs with rfl | rfl
  · replace hx := hx rfl
    refine Both.bind mkI <| Both.bind mkPI <| Both.bind mkJ <| Both.bind mkPJ <| Both.bind mkK <| Both.bind mkPK <| Both.bind mkW <| Both.bind spst <| Both.bind spu <| Both.bind (a := (1 : Int)) rfl <| Both.bind (a := (-1 : Int)) rfl <| Both.bind (localize_ok (l := pi0 - 2 * 0 + 1) (by omega) nI.1 rfl) <| Both.bind (localize_ok (l := pj0 - 2 * 0 + 1) (by omega) nJ.1 rfl) <| Both.bind (localize_ok (l := pk0 - 2 * 0 + 1) (by omega) nK.1 rfl) <| ?_
    simp only [↓reduceIte, Int.reduceEq, F.doLoop_skip, ← farr_st3, makeSpan_cell3]
    exact (Seg.sub (seg3_0 Ast (by omega) (by omega) (by omega) (by omega)) hβ hs (by omega) Ar (cell_on30 (t := rhs_) (i0 := i0) (i1 := i1) (j0 := j0) (j1 := j1) (k0 := k0) (k1 := k1) (pj0 := pj0) (pj1 := pj1) (pk0 := pk0) (pk1 := pk1) (l := pi0 - 2 * 0 + 1) (e := pi0 + 1 - 2 * 0) (by omega) (by omega) (by omega) (by omega)).1 Pr.symm farr_cell3 (cell_on30 (t := rhs_) (i0 := i0) (i1 := i1) (j0 := j0) (j1 := j1) (k0 := k0) (k1 := k1) (pj0 := pj0) (pj1 := pj1) (pk0 := pk0) (pk1 := pk1) (l := pi0 - 2 * 0 + 1) (e := pi0 + 1 - 2 * 0) (by omega) (by omega) (by omega) (by omega)).2 (cell_at30 Au Pu (by omega) (by omega) (by omega) hu (by omega) (by omega))).both
  · replace hx := hx rfl
    refine Both.bind mkI <| Both.bind mkPI <| Both.bind mkJ <| Both.bind mkPJ <| Both.bind mkK <| Both.bind mkPK <| Both.bind mkW <| Both.bind spst <| Both.bind spu <| Both.bind (a := (2 : Int)) rfl <| Both.bind (a := (1 : Int)) rfl <| Both.bind (localize_ok (l := pi0 - 2 * 1 + 1) (by omega) nI.1 rfl) <| Both.bind (localize_ok (l := pj0 - 2 * 1 + 1) (by omega) nJ.1 rfl) <| Both.bind (localize_ok (l := pk0 - 2 * 1 + 1) (by omega) nK.1 rfl) <| ?_
    simp only [↓reduceIte, Int.reduceEq, F.doLoop_skip, ← farr_st3, makeSpan_cell3]
    exact (Seg.sub (seg3_0 Ast (by omega) (by omega) (by omega) (by omega)) hβ hs (by omega) Ar (cell_on30 (t := rhs_) (i0 := i0) (i1 := i1) (j0 := j0) (j1 := j1) (k0 := k0) (k1 := k1) (pj0 := pj0) (pj1 := pj1) (pk0 := pk0) (pk1 := pk1) (l := pi0 - 2 * 1 + 1) (e := pi0 + 1 - 2 * 1) (by omega) (by omega) (by omega) (by omega)).1 Pr.symm farr_cell3 (cell_on30 (t := rhs_) (i0 := i0) (i1 := i1) (j0 := j0) (j1 := j1) (k0 := k0) (k1 := k1) (pj0 := pj0) (pj1 := pj1) (pk0 := pk0) (pk1 := pk1) (l := pi0 - 2 * 1 + 1) (e := pi0 + 1 - 2 * 1) (by omega) (by omega) (by omega) (by omega)).2 (cell_at30 Au Pu (by omega) (by omega) (by omega) hu (by omega) (by omega))).both
  · replace hy := hy rfl
    refine Both.bind mkI <| Both.bind mkPI <| Both.bind mkJ <| Both.bind mkPJ <| Both.bind mkK <| Both.bind mkPK <| Both.bind mkW <| Both.bind spst <| Both.bind spu <| Both.bind (a := (3 : Int)) rfl <| Both.bind (a := (-1 : Int)) rfl <| Both.bind (localize_ok (l := pi0 - 2 * 0 + 1) (by omega) nI.1 rfl) <| Both.bind (localize_ok (l := pj0 - 2 * 0 + 1) (by omega) nJ.1 rfl) <| Both.bind (localize_ok (l := pk0 - 2 * 0 + 1) (by omega) nK.1 rfl) <| ?_
    simp only [↓reduceIte, Int.reduceEq, F.doLoop_skip, ← farr_st3, makeSpan_cell3]
    exact (Seg.sub (seg3_1 Ast (by omega) (by omega) (by omega) (by omega)) hβ hs (by omega) Ar (cell_on31 (t := rhs_) (i0 := i0) (i1 := i1) (j0 := j0) (j1 := j1) (k0 := k0) (k1 := k1) (pi0 := pi0) (pi1 := pi1) (pk0 := pk0) (pk1 := pk1) (l := pj0 - 2 * 0 + 1) (e := pj0 + 1 - 2 * 0) (by omega) (by omega) (by omega) (by omega)).1 Pr.symm farr_cell3 (cell_on31 (t := rhs_) (i0 := i0) (i1 := i1) (j0 := j0) (j1 := j1) (k0 := k0) (k1 := k1) (pi0 := pi0) (pi1 := pi1) (pk0 := pk0) (pk1 := pk1) (l := pj0 - 2 * 0 + 1) (e := pj0 + 1 - 2 * 0) (by omega) (by omega) (by omega) (by omega)).2 (cell_at31 Au Pu (by omega) (by omega) (by omega) hu (by omega) (by omega))).both
  · replace hy := hy rfl
    refine Both.bind mkI <| Both.bind mkPI <| Both.bind mkJ <| Both.bind mkPJ <| Both.bind mkK <| Both.bind mkPK <| Both.bind mkW <| Both.bind spst <| Both.bind spu <| Both.bind (a := (4 : Int)) rfl <| Both.bind (a := (1 : Int)) rfl <| Both.bind (localize_ok (l := pi0 - 2 * 1 + 1) (by omega) nI.1 rfl) <| Both.bind (localize_ok (l := pj0 - 2 * 1 + 1) (by omega) nJ.1 rfl) <| Both.bind (localize_ok (l := pk0 - 2 * 1 + 1) (by omega) nK.1 rfl) <| ?_
    simp only [↓reduceIte, Int.reduceEq, F.doLoop_skip, ← farr_st3, makeSpan_cell3]
    exact (Seg.sub (seg3_1 Ast (by omega) (by omega) (by omega) (by omega)) hβ hs (by omega) Ar (cell_on31 (t := rhs_) (i0 := i0) (i1 := i1) (j0 := j0) (j1 := j1) (k0 := k0) (k1 := k1) (pi0 := pi0) (pi1 := pi1) (pk0 := pk0) (pk1 := pk1) (l := pj0 - 2 * 1 + 1) (e := pj0 + 1 - 2 * 1) (by omega) (by omega) (by omega) (by omega)).1 Pr.symm farr_cell3 (cell_on31 (t := rhs_) (i0 := i0) (i1 := i1) (j0 := j0) (j1 := j1) (k0 := k0) (k1 := k1) (pi0 := pi0) (pi1 := pi1) (pk0 := pk0) (pk1 := pk1) (l := pj0 - 2 * 1 + 1) (e := pj0 + 1 - 2 * 1) (by omega) (by omega) (by omega) (by omega)).2 (cell_at31 Au Pu (by omega) (by omega) (by omega) hu (by omega) (by omega))).both
  · replace hz := hz rfl
    refine Both.bind mkI <| Both.bind mkPI <| Both.bind mkJ <| Both.bind mkPJ <| Both.bind mkK <| Both.bind mkPK <| Both.bind mkW <| Both.bind spst <| Both.bind spu <| Both.bind (a := (5 : Int)) rfl <| Both.bind (a := (-1 : Int)) rfl <| Both.bind (localize_ok (l := pi0 - 2 * 0 + 1) (by omega) nI.1 rfl) <| Both.bind (localize_ok (l := pj0 - 2 * 0 + 1) (by omega) nJ.1 rfl) <| Both.bind (localize_ok (l := pk0 - 2 * 0 + 1) (by omega) nK.1 rfl) <| ?_
    simp only [↓reduceIte, Int.reduceEq, F.doLoop_skip, ← farr_st3, makeSpan_cell3]
    exact (Seg.sub (seg3_2 Ast (by omega) (by omega) (by omega) (by omega)) hβ hs (by omega) Ar (cell_on32 (t := rhs_) (i0 := i0) (i1 := i1) (j0 := j0) (j1 := j1) (k0 := k0) (k1 := k1) (pi0 := pi0) (pi1 := pi1) (pj0 := pj0) (pj1 := pj1) (l := pk0 - 2 * 0 + 1) (e := pk0 + 1 - 2 * 0) (by omega) (by omega) (by omega) (by omega)).1 Pr.symm farr_cell3 (cell_on32 (t := rhs_) (i0 := i0) (i1 := i1) (j0 := j0) (j1 := j1) (k0 := k0) (k1 := k1) (pi0 := pi0) (pi1 := pi1) (pj0 := pj0) (pj1 := pj1) (l := pk0 - 2 * 0 + 1) (e := pk0 + 1 - 2 * 0) (by omega) (by omega) (by omega) (by omega)).2 (cell_at32 Au Pu (by omega) (by omega) (by omega) hu (by omega) (by omega))).both
  · replace hz := hz rfl
    refine Both.bind mkI <| Both.bind mkPI <| Both.bind mkJ <| Both.bind mkPJ <| Both.bind mkK <| Both.bind mkPK <| Both.bind mkW <| Both.bind spst <| Both.bind spu <| Both.bind (a := (6 : Int)) rfl <| Both.bind (a := (1 : Int)) rfl <| Both.bind (localize_ok (l := pi0 - 2 * 1 + 1) (by omega) nI.1 rfl) <| Both.bind (localize_ok (l := pj0 - 2 * 1 + 1) (by omega) nJ.1 rfl) <| Both.bind (localize_ok (l := pk0 - 2 * 1 + 1) (by omega) nK.1 rfl) <| ?_
    simp only [↓reduceIte, Int.reduceEq, F.doLoop_skip, ← farr_st3, makeSpan_cell3]
    exact (Seg.sub (seg3_2 Ast (by omega) (by omega) (by omega) (by omega)) hβ hs (by omega) Ar (cell_on32 (t := rhs_) (i0 := i0) (i1 := i1) (j0 := j0) (j1 := j1) (k0 := k0) (k1 := k1) (pi0 := pi0) (pi1 := pi1) (pj0 := pj0) (pj1 := pj1) (l := pk0 - 2 * 1 + 1) (e := pk0 + 1 - 2 * 1) (by omega) (by omega) (by omega) (by omega)).1 Pr.symm farr_cell3 (cell_on32 (t := rhs_) (i0 := i0) (i1 := i1) (j0 := j0) (j1 := j1) (k0 := k0) (k1 := k1) (pi0 := pi0) (pi1 := pi1) (pj0 := pj0) (pj1 := pj1) (l := pk0 - 2 * 1 + 1) (e := pk0 + 1 - 2 * 1) (by omega) (by omega) (by omega) (by omega)).2 (cell_at32 Au Pu (by omega) (by omega) (by omega) hu (by omega) (by omega))).both

example : ∃ m', Cuda.adjCfBdryrhs3d 0 0 0 3 2 1 0 0 2 3 2 2 2 1 1 ⟨0, 0⟩ 1 ⟨1, 0⟩ ⟨2, 0⟩ revBackend exB64 = .ok m' ∧
    F.adjcelldiffusioncfbdryrhs3d 0 0 0 3 2 1 0 0 2 3 2 2 2 1 1 ⟨0, 0⟩ 1 ⟨1, 0⟩ ⟨2, 0⟩ exB64 = .ok m' :=
  C49_adj_cf_bdryrhs_3d revBackend_ok B64.sub_eq (by decide) (by decide) (by decide) (by decide) (by decide) (by constructor <;> (try simp only [InInt]) <;> decide) (by ex_argsB)

end Verif
