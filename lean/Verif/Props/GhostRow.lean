import Verif.Lemmas.GhostRow
import Verif.Props.Eliminate
import Verif.Spec.Folded

/-
C77: filling the ghost cells and applying the rows gives, next to the boundary, what the adjusted rows give without the ghost cells.
-/

set_option linter.unusedVariables false

namespace Verif
open Spec

variable {T : Type} [Field T] [CharZero T]

/-- contents of the ghost cell as found by `fill` -/
theorem folded_of {N : Int} {S S' U U' : List Int → T} {P L : List Int → Prop} {O : Int → List Int} {u v btype exOrder : Int} {h : T} {b : List Int → T}
    (E : F.Eliminated N S S' P L u v btype exOrder h b)
    (G : ∀ c, L c → ∃ p : Polynomial T, F.Meets btype exOrder (b c) 0 p ∧ U (F.shift c (O 0)) = p.eval (1 / 2 * h) ∧
      (btype ≠ 1 → exOrder = 2 → U (F.shift c (O v)) = p.eval (3 / 2 * h)) ∧
      ∀ e, 0 ≤ e → e ≤ N → U' (F.shift c (O e)) = if e = u then p.eval (-(1 / 2) * h) else U (F.shift c (O e))) :
    F.Folded N O S S' U U' L u := by
  intro c hc
  obtain ⟨p, M, e1, e2, e3⟩ := G c hc
  rw [E.1 c hc p 0 (fun e => U (F.shift c (O e))) M e1 e2]
  exact F.sum_congr fun e h0 h1 => by
    show _ * U' _ = _ * _
    rw [e3 e h0 h1]


/-- 1D, diffusion operator with cell coefficients, for every contents of the array: fill the ghost cells next to a boundary without a value, with the kernel for Dirichlet of order 1 or 2, Neumann, or Robin of order 1 (the coefficients of the condition are 2 and 1 in the call); then the rows assembled without adjustment, applied to the cells and the ghost cells, give in the cells next to the boundary what the adjusted rows give with 0 in the place of the ghost cells. The rows of the other cells are the same. Missing: Robin of second order, where the adjusted rows are wrong. -/
theorem C77_v1_1d_partial {i0 i1 ai0 ai1 pi0 pi1 side btype exOrder g sgcw : Int} {dx : Nat → T} {alpha dir_factor neu_factor beta : T} {a_ b0_ st_ u_ : Ptr} {bLo bHi : Nat → Int} {β : Nat → Backend} {β₁ β₂ β₃ : Backend} {m : Mem T} {B0 : List Int → T}
    (hβ : ∀ n, ValidBackend (β n)) (hβ₁ : ValidBackend β₁) (hβ₂ : ValidBackend β₂) (hβ₃ : ValidBackend β₃) (hi : i0 ≤ i1) (hg : 1 ≤ g) (hsg : 0 ≤ sgcw) (hai : ai0 ≤ i0 ∧ i1 ≤ ai1) 
    (hl : Layer1 i0 i1 0 pi0 pi1 side) (hseg : bLo 0 = pi0 ∧ bHi 0 = pi1) (hthin : pi1 = pi0)
    (hq : (btype = 0 ∧ exOrder = 1 ∧ dir_factor = 2) ∨ (btype = 0 ∧ exOrder = 2) ∨ btype = 1 ∨ (btype = 4 ∧ exOrder = 1)) (hh : dx 0 ≠ 0)
    (h : F.Args m [(F.cell1d a_ ai0 ai1 0), (F.face1d b0_ i0 i1 0)] [(F.st1d st_ i0 i1 sgcw), (F.cell1d u_ i0 i1 g)]) (hx : F.Apart (F.st1d st_ i0 i1 sgcw) (F.cell1d u_ i0 i1 g))
    (hB0 : F.Holds m (F.face1d b0_ i0 i1 0) B0) (hb : btype = 4 → ∀ c, F.layer1 pi0 side c → 4 * F.onFace1 B0 side c + dx 0 ≠ 0) :
    ∃ m1 s t t', ∃ S S' U U' : List Int → T, Cuda.setBc1d i0 i1 dx 0 b0_ g u_ bLo bHi exOrder side btype 2 1 β m = .ok m1 ∧ Cuda.v1diag1d i0 i1 ai0 ai1 alpha a_ sgcw st_ β₁ m1 = .ok s ∧
      Cuda.adjOffdiag1d i0 i1 pi0 pi1 side btype exOrder dx dir_factor neu_factor beta b0_ sgcw st_ β₂ m1 = .ok t ∧ Cuda.v1diag1d i0 i1 ai0 ai1 alpha a_ sgcw st_ β₃ t = .ok t' ∧
      F.Holds m (F.cell1d u_ i0 i1 g) U ∧ F.Holds s (F.cell1d u_ i0 i1 g) U' ∧ F.Holds s (F.st1d st_ i0 i1 sgcw) S ∧ F.Holds t' (F.st1d st_ i0 i1 sgcw) S' ∧
      F.Folded 2 (F.row F.points1) S S' U U' (F.layer1 pi0 side) (1 + side) ∧
      ∀ c, F.InBounds [(i0, i1)] c → ¬ F.layer1 pi0 side c → ∀ e, 0 ≤ e → e ≤ 2 → S' (e :: c) = S (e :: c) := by
  have hu : F.Args m [(F.face1d b0_ i0 i1 0)] [(F.cell1d u_ i0 i1 g)] := h.sub (by simp) (by simp)
  have hs : F.Args m [(F.cell1d a_ ai0 ai1 0), (F.face1d b0_ i0 i1 0)] [(F.st1d st_ i0 i1 sgcw)] := h.sub (by simp) (by simp)
  obtain ⟨m1, r1, H, G⟩ := fill1 (dx := dx) (btype := btype) (exOrder := exOrder) hβ hi hg hl hseg hthin (by omega) hh hu hB0 hb
  have hB0' : F.Holds m1 (F.face1d b0_ i0 i1 0) B0 := hB0.only H.only (by simpa using hu.apart _ (by simp) (F.face1d b0_ i0 i1 0) (by simp))
  obtain ⟨s, t, t', S, S', d1, d2, d3, -, O1, O2, HS, HS', E⟩ := C74_v1_1d_partial (β₄ := β₃) (alpha := alpha) (beta := beta) (neu_factor := neu_factor) hβ₁ hβ₂ hβ₃ hi hsg hai hl hq (H.args hs) hB0' hb
  exact ⟨m1, s, t, t', S, S', F.rd m (F.cell1d u_ i0 i1 g), F.rd m1 (F.cell1d u_ i0 i1 g), r1, d1, d2, d3, fun is hi => (h.ok _ (by simp)).rd hi,
    F.Holds.only (fun is hi => (H.ok (h.ok _ (by simp))).rd hi) O1 (by simpa using hx), HS, HS', folded_of E G, E.2⟩

example : ∃ m1 s t t', ∃ S S' U U' : List Int → Rat, Cuda.setBc1d 0 3 exDx 0 ⟨1, 0⟩ 1 ⟨3, 0⟩ (exSeg 4 0 0) (exSeg 4 0 0) 1 1 4 2 1 (fun _ => revBackend) exRat = .ok m1 ∧ Cuda.v1diag1d 0 3 0 3 3 ⟨0, 0⟩ 1 ⟨2, 0⟩ revBackend m1 = .ok s ∧
      Cuda.adjOffdiag1d 0 3 4 4 1 4 1 exDx 2 3 4 ⟨1, 0⟩ 1 ⟨2, 0⟩ seqBackend m1 = .ok t ∧ Cuda.v1diag1d 0 3 0 3 3 ⟨0, 0⟩ 1 ⟨2, 0⟩ revBackend t = .ok t' ∧
      F.Holds exRat (F.cell1d ⟨3, 0⟩ 0 3 1) U ∧ F.Holds s (F.cell1d ⟨3, 0⟩ 0 3 1) U' ∧ F.Holds s (F.st1d ⟨2, 0⟩ 0 3 1) S ∧ F.Holds t' (F.st1d ⟨2, 0⟩ 0 3 1) S' ∧
      F.Folded 2 (F.row F.points1) S S' U U' (F.layer1 4 1) (1 + 1) ∧
      ∀ c, F.InBounds [(0, 3)] c → ¬ F.layer1 4 1 c → ∀ e, 0 ≤ e → e ≤ 2 → S' (e :: c) = S (e :: c) :=
  C77_v1_1d_partial (fun _ => revBackend_ok) revBackend_ok seqBackend_ok revBackend_ok (by decide) (by decide) (by decide) (by decide) (by constructor <;> (try simp only [InInt]) <;> decide)
    ⟨rfl, rfl⟩ rfl (.inr (.inr (.inr ⟨rfl, rfl⟩))) (by simp only [exDx]; decide +kernel) (by ex_args) (apart_blk (by decide)) (fun is hi => (exRat_ok rfl (by decide) (by unfold InInt; decide)).rd hi) (fun _ _ _ => ex_face1)


/-- 1D, diffusion operator with constant reaction, for every contents of the array: fill the ghost cells next to a boundary without a value, with the kernel for Dirichlet of order 1 or 2, Neumann, or Robin of order 1 (the coefficients of the condition are 2 and 1 in the call); then the rows assembled without adjustment, applied to the cells and the ghost cells, give in the cells next to the boundary what the adjusted rows give with 0 in the place of the ghost cells. The rows of the other cells are the same. Missing: Robin of second order, where the adjusted rows are wrong. -/
theorem C77_v2_1d_partial {i0 i1 pi0 pi1 side btype exOrder g sgcw : Int} {dx : Nat → T} {alpha dir_factor neu_factor beta : T} {b0_ st_ u_ : Ptr} {bLo bHi : Nat → Int} {β : Nat → Backend} {β₁ β₂ β₃ : Backend} {m : Mem T} {B0 : List Int → T}
    (hβ : ∀ n, ValidBackend (β n)) (hβ₁ : ValidBackend β₁) (hβ₂ : ValidBackend β₂) (hβ₃ : ValidBackend β₃) (hi : i0 ≤ i1) (hg : 1 ≤ g) (hsg : 0 ≤ sgcw) 
    (hl : Layer1 i0 i1 0 pi0 pi1 side) (hseg : bLo 0 = pi0 ∧ bHi 0 = pi1) (hthin : pi1 = pi0)
    (hq : (btype = 0 ∧ exOrder = 1 ∧ dir_factor = 2) ∨ (btype = 0 ∧ exOrder = 2) ∨ btype = 1 ∨ (btype = 4 ∧ exOrder = 1)) (hh : dx 0 ≠ 0)
    (h : F.Args m [(F.face1d b0_ i0 i1 0)] [(F.st1d st_ i0 i1 sgcw), (F.cell1d u_ i0 i1 g)]) (hx : F.Apart (F.st1d st_ i0 i1 sgcw) (F.cell1d u_ i0 i1 g))
    (hB0 : F.Holds m (F.face1d b0_ i0 i1 0) B0) (hb : btype = 4 → ∀ c, F.layer1 pi0 side c → 4 * F.onFace1 B0 side c + dx 0 ≠ 0) :
    ∃ m1 s t t', ∃ S S' U U' : List Int → T, Cuda.setBc1d i0 i1 dx 0 b0_ g u_ bLo bHi exOrder side btype 2 1 β m = .ok m1 ∧ Cuda.v2diag1d i0 i1 alpha sgcw st_ β₁ m1 = .ok s ∧
      Cuda.adjOffdiag1d i0 i1 pi0 pi1 side btype exOrder dx dir_factor neu_factor beta b0_ sgcw st_ β₂ m1 = .ok t ∧ Cuda.v2diag1d i0 i1 alpha sgcw st_ β₃ t = .ok t' ∧
      F.Holds m (F.cell1d u_ i0 i1 g) U ∧ F.Holds s (F.cell1d u_ i0 i1 g) U' ∧ F.Holds s (F.st1d st_ i0 i1 sgcw) S ∧ F.Holds t' (F.st1d st_ i0 i1 sgcw) S' ∧
      F.Folded 2 (F.row F.points1) S S' U U' (F.layer1 pi0 side) (1 + side) ∧
      ∀ c, F.InBounds [(i0, i1)] c → ¬ F.layer1 pi0 side c → ∀ e, 0 ≤ e → e ≤ 2 → S' (e :: c) = S (e :: c) := by
  have hu : F.Args m [(F.face1d b0_ i0 i1 0)] [(F.cell1d u_ i0 i1 g)] := h.sub (by simp) (by simp)
  have hs : F.Args m [(F.face1d b0_ i0 i1 0)] [(F.st1d st_ i0 i1 sgcw)] := h.sub (by simp) (by simp)
  obtain ⟨m1, r1, H, G⟩ := fill1 (dx := dx) (btype := btype) (exOrder := exOrder) hβ hi hg hl hseg hthin (by omega) hh hu hB0 hb
  have hB0' : F.Holds m1 (F.face1d b0_ i0 i1 0) B0 := hB0.only H.only (by simpa using hu.apart _ (by simp) (F.face1d b0_ i0 i1 0) (by simp))
  obtain ⟨s, t, t', S, S', d1, d2, d3, -, O1, O2, HS, HS', E⟩ := C74_v2_1d_partial (β₄ := β₃) (alpha := alpha) (beta := beta) (neu_factor := neu_factor) hβ₁ hβ₂ hβ₃ hi hsg hl hq (H.args hs) hB0' hb
  exact ⟨m1, s, t, t', S, S', F.rd m (F.cell1d u_ i0 i1 g), F.rd m1 (F.cell1d u_ i0 i1 g), r1, d1, d2, d3, fun is hi => (h.ok _ (by simp)).rd hi,
    F.Holds.only (fun is hi => (H.ok (h.ok _ (by simp))).rd hi) O1 (by simpa using hx), HS, HS', folded_of E G, E.2⟩

example : ∃ m1 s t t', ∃ S S' U U' : List Int → Rat, Cuda.setBc1d 0 3 exDx 0 ⟨0, 0⟩ 1 ⟨2, 0⟩ (exSeg 4 0 0) (exSeg 4 0 0) 1 1 4 2 1 (fun _ => revBackend) exRat = .ok m1 ∧ Cuda.v2diag1d 0 3 3 1 ⟨1, 0⟩ revBackend m1 = .ok s ∧
      Cuda.adjOffdiag1d 0 3 4 4 1 4 1 exDx 2 3 4 ⟨0, 0⟩ 1 ⟨1, 0⟩ seqBackend m1 = .ok t ∧ Cuda.v2diag1d 0 3 3 1 ⟨1, 0⟩ revBackend t = .ok t' ∧
      F.Holds exRat (F.cell1d ⟨2, 0⟩ 0 3 1) U ∧ F.Holds s (F.cell1d ⟨2, 0⟩ 0 3 1) U' ∧ F.Holds s (F.st1d ⟨1, 0⟩ 0 3 1) S ∧ F.Holds t' (F.st1d ⟨1, 0⟩ 0 3 1) S' ∧
      F.Folded 2 (F.row F.points1) S S' U U' (F.layer1 4 1) (1 + 1) ∧
      ∀ c, F.InBounds [(0, 3)] c → ¬ F.layer1 4 1 c → ∀ e, 0 ≤ e → e ≤ 2 → S' (e :: c) = S (e :: c) :=
  C77_v2_1d_partial (fun _ => revBackend_ok) revBackend_ok seqBackend_ok revBackend_ok (by decide) (by decide) (by decide) (by constructor <;> (try simp only [InInt]) <;> decide)
    ⟨rfl, rfl⟩ rfl (.inr (.inr (.inr ⟨rfl, rfl⟩))) (by simp only [exDx]; decide +kernel) (by ex_args) (apart_blk (by decide)) (fun is hi => (exRat_ok rfl (by decide) (by unfold InInt; decide)).rd hi) (fun _ _ _ => ex_face1)


/-- 1D, Poisson operator, for every contents of the array: fill the ghost cells next to a boundary without a value, with the kernel for Dirichlet of order 1 or 2, Neumann, or Robin of order 1; then the rows assembled without adjustment, applied to the cells and the ghost cells, give in the cells next to the boundary what the adjusted rows give with 0 in the place of the ghost cells. The rows of the other cells are the same. Missing: Robin of second order, where the adjusted rows are wrong. -/
theorem C77_poisson_1d_partial {i0 i1 pi0 pi1 side btype exOrder g sgcw : Int} {dx : Nat → T} {dir_factor neu_factor beta alpha' beta' : T} {st_ u_ : Ptr} {bLo bHi : Nat → Int} {β : Nat → Backend} {β₁ β₂ β₃ : Backend} {m : Mem T}
    (hβ : ∀ n, ValidBackend (β n)) (hβ₁ : ValidBackend β₁) (hβ₂ : ValidBackend β₂) (hβ₃ : ValidBackend β₃) (hi : i0 ≤ i1) (hg : 1 ≤ g) (hsg : 0 ≤ sgcw) 
    (hl : Layer1 i0 i1 0 pi0 pi1 side) (hseg : bLo 0 = pi0 ∧ bHi 0 = pi1) (hthin : pi1 = pi0)
    (hq : (btype = 0 ∧ exOrder = 1 ∧ dir_factor = 2) ∨ (btype = 0 ∧ exOrder = 2) ∨ btype = 1 ∨ (btype = 4 ∧ exOrder = 1)) (hh : dx 0 ≠ 0)
    (h : F.Args m [] [(F.st1d st_ i0 i1 sgcw), (F.cell1d u_ i0 i1 g)]) (hx : F.Apart (F.st1d st_ i0 i1 sgcw) (F.cell1d u_ i0 i1 g)) (hb : btype = 4 → 4 + dx 0 ≠ 0) :
    ∃ m1 s t t', ∃ S S' U U' : List Int → T, Cuda.setPoissonBc1d i0 i1 dx g u_ bLo bHi exOrder side btype alpha' beta' β m = .ok m1 ∧ Cuda.poissonDiag1d i0 i1 sgcw st_ β₁ m1 = .ok s ∧
      Cuda.adjPoissonOffdiag1d i0 i1 pi0 pi1 side btype exOrder dx dir_factor neu_factor beta sgcw st_ β₂ m1 = .ok t ∧ Cuda.poissonDiag1d i0 i1 sgcw st_ β₃ t = .ok t' ∧
      F.Holds m (F.cell1d u_ i0 i1 g) U ∧ F.Holds s (F.cell1d u_ i0 i1 g) U' ∧ F.Holds s (F.st1d st_ i0 i1 sgcw) S ∧ F.Holds t' (F.st1d st_ i0 i1 sgcw) S' ∧
      F.Folded 2 (F.row F.points1) S S' U U' (F.layer1 pi0 side) (1 + side) ∧
      ∀ c, F.InBounds [(i0, i1)] c → ¬ F.layer1 pi0 side c → ∀ e, 0 ≤ e → e ≤ 2 → S' (e :: c) = S (e :: c) := by
  have hu : F.Args m [] [(F.cell1d u_ i0 i1 g)] := h.sub (by simp) (by simp)
  have hs : F.Args m [] [(F.st1d st_ i0 i1 sgcw)] := h.sub (by simp) (by simp)
  obtain ⟨m1, r1, H, G⟩ := pfill1 (dx := dx) (btype := btype) (exOrder := exOrder) (alpha' := alpha') (beta' := beta') hβ hi hg hl hseg hthin (by omega) hh hu  hb
  obtain ⟨s, t, t', S, S', d1, d2, d3, -, O1, O2, HS, HS', E⟩ := C74_poisson_1d_partial (β₄ := β₃) (beta := beta) (neu_factor := neu_factor) hβ₁ hβ₂ hβ₃ hi hsg hl hq (H.args hs)  hb
  exact ⟨m1, s, t, t', S, S', F.rd m (F.cell1d u_ i0 i1 g), F.rd m1 (F.cell1d u_ i0 i1 g), r1, d1, d2, d3, fun is hi => (h.ok _ (by simp)).rd hi,
    F.Holds.only (fun is hi => (H.ok (h.ok _ (by simp))).rd hi) O1 (by simpa using hx), HS, HS', folded_of E G, E.2⟩

example : ∃ m1 s t t', ∃ S S' U U' : List Int → Rat, Cuda.setPoissonBc1d 0 3 exDx 1 ⟨1, 0⟩ (exSeg 4 0 0) (exSeg 4 0 0) 1 1 4 2 1 (fun _ => revBackend) exRat = .ok m1 ∧ Cuda.poissonDiag1d 0 3 1 ⟨0, 0⟩ revBackend m1 = .ok s ∧
      Cuda.adjPoissonOffdiag1d 0 3 4 4 1 4 1 exDx 2 3 4 1 ⟨0, 0⟩ seqBackend m1 = .ok t ∧ Cuda.poissonDiag1d 0 3 1 ⟨0, 0⟩ revBackend t = .ok t' ∧
      F.Holds exRat (F.cell1d ⟨1, 0⟩ 0 3 1) U ∧ F.Holds s (F.cell1d ⟨1, 0⟩ 0 3 1) U' ∧ F.Holds s (F.st1d ⟨0, 0⟩ 0 3 1) S ∧ F.Holds t' (F.st1d ⟨0, 0⟩ 0 3 1) S' ∧
      F.Folded 2 (F.row F.points1) S S' U U' (F.layer1 4 1) (1 + 1) ∧
      ∀ c, F.InBounds [(0, 3)] c → ¬ F.layer1 4 1 c → ∀ e, 0 ≤ e → e ≤ 2 → S' (e :: c) = S (e :: c) :=
  C77_poisson_1d_partial (fun _ => revBackend_ok) revBackend_ok seqBackend_ok revBackend_ok (by decide) (by decide) (by decide) (by constructor <;> (try simp only [InInt]) <;> decide)
    ⟨rfl, rfl⟩ rfl (.inr (.inr (.inr ⟨rfl, rfl⟩))) (by simp only [exDx]; decide +kernel) (by ex_args) (apart_blk (by decide))  (fun _ => ex_four)


/-- 2D, diffusion operator with cell coefficients, for every contents of the array: fill the ghost cells next to a boundary without a value, with the kernel for Dirichlet of order 1 or 2, Neumann, or Robin of order 1 (the coefficients of the condition are 2 and 1 in the call); then the rows assembled without adjustment, applied to the cells and the ghost cells, give in the cells next to the boundary what the adjusted rows give with 0 in the place of the ghost cells. The rows of the other cells are the same. Missing: Robin of second order, and Robin in direction 1, where the adjusted rows are wrong. -/
theorem C77_v1_2d_partial {i0 j0 i1 j1 ai0 aj0 ai1 aj1 pi0 pj0 pi1 pj1 dir side btype exOrder g sgcw : Int} {dx : Nat → T} {alpha dir_factor neu_factor beta : T} {a_ b0_ b1_ st_ u_ : Ptr} {bLo bHi : Nat → Int} {β : Nat → Backend} {β₁ β₂ β₃ : Backend} {m : Mem T} {B0 B1 : List Int → T}
    (hβ : ∀ n, ValidBackend (β n)) (hβ₁ : ValidBackend β₁) (hβ₂ : ValidBackend β₂) (hβ₃ : ValidBackend β₃) (hi : i0 ≤ i1) (hj : j0 ≤ j1) (hg : 1 ≤ g) (hsg : 0 ≤ sgcw) (hai : ai0 ≤ i0 ∧ i1 ≤ ai1) (haj : aj0 ≤ j0 ∧ j1 ≤ aj1) 
    (hl : Layer2 i0 j0 i1 j1 0 pi0 pj0 pi1 pj1 dir side) (hseg : bLo 0 = pi0 ∧ bHi 0 = pi1 ∧ bLo 1 = pj0 ∧ bHi 1 = pj1) (hthin : (dir = 0 → pi1 = pi0) ∧ (dir = 1 → pj1 = pj0))
    (hq : (btype = 0 ∧ exOrder = 1 ∧ dir_factor = 2) ∨ (btype = 0 ∧ exOrder = 2) ∨ btype = 1 ∨ (btype = 4 ∧ exOrder = 1 ∧ dir = 0)) (hh : dx dir.toNat ≠ 0)
    (h : F.Args m [(F.cell2d a_ ai0 aj0 ai1 aj1 0), (F.face2d0 b0_ i0 j0 i1 j1 0), (F.face2d1 b1_ i0 j0 i1 j1 0)] [(F.st2d st_ i0 j0 i1 j1 sgcw), (F.cell2d u_ i0 j0 i1 j1 g)]) (hx : F.Apart (F.st2d st_ i0 j0 i1 j1 sgcw) (F.cell2d u_ i0 j0 i1 j1 g))
    (hB0 : F.Holds m (F.face2d0 b0_ i0 j0 i1 j1 0) B0) (hB1 : F.Holds m (F.face2d1 b1_ i0 j0 i1 j1 0) B1) (hb : btype = 4 → ∀ c, F.layer2 pi0 pj0 pi1 pj1 dir side c → 4 * F.onFace2 B0 B1 dir side c + dx dir.toNat ≠ 0) :
    ∃ m1 s t t', ∃ S S' U U' : List Int → T, Cuda.setBc2d i0 i1 j0 j1 dx 0 b0_ b1_ g u_ bLo bHi exOrder (2 * dir + side) 1 btype 2 1 β m = .ok m1 ∧ Cuda.v1diag2d i0 j0 i1 j1 ai0 aj0 ai1 aj1 alpha a_ sgcw st_ β₁ m1 = .ok s ∧
      Cuda.adjOffdiag2d i0 j0 i1 j1 pi0 pj0 pi1 pj1 dir side btype exOrder dx dir_factor neu_factor beta b0_ b1_ sgcw st_ β₂ m1 = .ok t ∧ Cuda.v1diag2d i0 j0 i1 j1 ai0 aj0 ai1 aj1 alpha a_ sgcw st_ β₃ t = .ok t' ∧
      F.Holds m (F.cell2d u_ i0 j0 i1 j1 g) U ∧ F.Holds s (F.cell2d u_ i0 j0 i1 j1 g) U' ∧ F.Holds s (F.st2d st_ i0 j0 i1 j1 sgcw) S ∧ F.Holds t' (F.st2d st_ i0 j0 i1 j1 sgcw) S' ∧
      F.Folded 4 (F.row F.points2) S S' U U' (F.layer2 pi0 pj0 pi1 pj1 dir side) (2 * dir + 1 + side) ∧
      ∀ c, F.InBounds [(i0, i1), (j0, j1)] c → ¬ F.layer2 pi0 pj0 pi1 pj1 dir side c → ∀ e, 0 ≤ e → e ≤ 4 → S' (e :: c) = S (e :: c) := by
  have hu : F.Args m [(F.face2d0 b0_ i0 j0 i1 j1 0), (F.face2d1 b1_ i0 j0 i1 j1 0)] [(F.cell2d u_ i0 j0 i1 j1 g)] := h.sub (by simp) (by simp)
  have hs : F.Args m [(F.cell2d a_ ai0 aj0 ai1 aj1 0), (F.face2d0 b0_ i0 j0 i1 j1 0), (F.face2d1 b1_ i0 j0 i1 j1 0)] [(F.st2d st_ i0 j0 i1 j1 sgcw)] := h.sub (by simp) (by simp)
  obtain ⟨m1, r1, H, G⟩ := fill2 (dx := dx) (btype := btype) (exOrder := exOrder) hβ hi hj hg hl hseg hthin (by omega) hh hu hB0 hB1 hb
  have hB0' : F.Holds m1 (F.face2d0 b0_ i0 j0 i1 j1 0) B0 := hB0.only H.only (by simpa using hu.apart _ (by simp) (F.face2d0 b0_ i0 j0 i1 j1 0) (by simp))
  have hB1' : F.Holds m1 (F.face2d1 b1_ i0 j0 i1 j1 0) B1 := hB1.only H.only (by simpa using hu.apart _ (by simp) (F.face2d1 b1_ i0 j0 i1 j1 0) (by simp))
  obtain ⟨s, t, t', S, S', d1, d2, d3, -, O1, O2, HS, HS', E⟩ := C74_v1_2d_partial (β₄ := β₃) (alpha := alpha) (beta := beta) (neu_factor := neu_factor) hβ₁ hβ₂ hβ₃ hi hj hsg hai haj hl hq (H.args hs) hB0' hB1' hb
  exact ⟨m1, s, t, t', S, S', F.rd m (F.cell2d u_ i0 j0 i1 j1 g), F.rd m1 (F.cell2d u_ i0 j0 i1 j1 g), r1, d1, d2, d3, fun is hi => (h.ok _ (by simp)).rd hi,
    F.Holds.only (fun is hi => (H.ok (h.ok _ (by simp))).rd hi) O1 (by simpa using hx), HS, HS', folded_of E G, E.2⟩

example : ∃ m1 s t t', ∃ S S' U U' : List Int → Rat, Cuda.setBc2d 0 3 0 2 exDx 0 ⟨1, 0⟩ ⟨2, 0⟩ 1 ⟨4, 0⟩ (exSeg 4 0 0) (exSeg 4 2 0) 1 (2 * 0 + 1) 1 4 2 1 (fun _ => revBackend) exRat = .ok m1 ∧ Cuda.v1diag2d 0 0 3 2 0 0 3 2 3 ⟨0, 0⟩ 1 ⟨3, 0⟩ revBackend m1 = .ok s ∧
      Cuda.adjOffdiag2d 0 0 3 2 4 0 4 2 0 1 4 1 exDx 2 3 4 ⟨1, 0⟩ ⟨2, 0⟩ 1 ⟨3, 0⟩ seqBackend m1 = .ok t ∧ Cuda.v1diag2d 0 0 3 2 0 0 3 2 3 ⟨0, 0⟩ 1 ⟨3, 0⟩ revBackend t = .ok t' ∧
      F.Holds exRat (F.cell2d ⟨4, 0⟩ 0 0 3 2 1) U ∧ F.Holds s (F.cell2d ⟨4, 0⟩ 0 0 3 2 1) U' ∧ F.Holds s (F.st2d ⟨3, 0⟩ 0 0 3 2 1) S ∧ F.Holds t' (F.st2d ⟨3, 0⟩ 0 0 3 2 1) S' ∧
      F.Folded 4 (F.row F.points2) S S' U U' (F.layer2 4 0 4 2 0 1) (2 * 0 + 1 + 1) ∧
      ∀ c, F.InBounds [(0, 3), (0, 2)] c → ¬ F.layer2 4 0 4 2 0 1 c → ∀ e, 0 ≤ e → e ≤ 4 → S' (e :: c) = S (e :: c) :=
  C77_v1_2d_partial (fun _ => revBackend_ok) revBackend_ok seqBackend_ok revBackend_ok (by decide) (by decide) (by decide) (by decide) (by decide) (by decide) (by constructor <;> (try simp only [InInt]) <;> decide)
    ⟨rfl, rfl, rfl, rfl⟩ ⟨by decide, by decide⟩ (.inr (.inr (.inr ⟨rfl, rfl, rfl⟩))) (by simp only [exDx]; decide +kernel) (by ex_args) (apart_blk (by decide)) (fun is hi => (exRat_ok rfl (by decide) (by unfold InInt; decide)).rd hi) (fun is hi => (exRat_ok rfl (by decide) (by unfold InInt; decide)).rd hi) (fun _ _ _ => ex_face2)


/-- 2D, diffusion operator with constant reaction, for every contents of the array: fill the ghost cells next to a boundary without a value, with the kernel for Dirichlet of order 1 or 2, Neumann, or Robin of order 1 (the coefficients of the condition are 2 and 1 in the call); then the rows assembled without adjustment, applied to the cells and the ghost cells, give in the cells next to the boundary what the adjusted rows give with 0 in the place of the ghost cells. The rows of the other cells are the same. Missing: Robin of second order, and Robin in direction 1, where the adjusted rows are wrong. -/
theorem C77_v2_2d_partial {i0 j0 i1 j1 pi0 pj0 pi1 pj1 dir side btype exOrder g sgcw : Int} {dx : Nat → T} {alpha dir_factor neu_factor beta : T} {b0_ b1_ st_ u_ : Ptr} {bLo bHi : Nat → Int} {β : Nat → Backend} {β₁ β₂ β₃ : Backend} {m : Mem T} {B0 B1 : List Int → T}
    (hβ : ∀ n, ValidBackend (β n)) (hβ₁ : ValidBackend β₁) (hβ₂ : ValidBackend β₂) (hβ₃ : ValidBackend β₃) (hi : i0 ≤ i1) (hj : j0 ≤ j1) (hg : 1 ≤ g) (hsg : 0 ≤ sgcw) 
    (hl : Layer2 i0 j0 i1 j1 0 pi0 pj0 pi1 pj1 dir side) (hseg : bLo 0 = pi0 ∧ bHi 0 = pi1 ∧ bLo 1 = pj0 ∧ bHi 1 = pj1) (hthin : (dir = 0 → pi1 = pi0) ∧ (dir = 1 → pj1 = pj0))
    (hq : (btype = 0 ∧ exOrder = 1 ∧ dir_factor = 2) ∨ (btype = 0 ∧ exOrder = 2) ∨ btype = 1 ∨ (btype = 4 ∧ exOrder = 1 ∧ dir = 0)) (hh : dx dir.toNat ≠ 0)
    (h : F.Args m [(F.face2d0 b0_ i0 j0 i1 j1 0), (F.face2d1 b1_ i0 j0 i1 j1 0)] [(F.st2d st_ i0 j0 i1 j1 sgcw), (F.cell2d u_ i0 j0 i1 j1 g)]) (hx : F.Apart (F.st2d st_ i0 j0 i1 j1 sgcw) (F.cell2d u_ i0 j0 i1 j1 g))
    (hB0 : F.Holds m (F.face2d0 b0_ i0 j0 i1 j1 0) B0) (hB1 : F.Holds m (F.face2d1 b1_ i0 j0 i1 j1 0) B1) (hb : btype = 4 → ∀ c, F.layer2 pi0 pj0 pi1 pj1 dir side c → 4 * F.onFace2 B0 B1 dir side c + dx dir.toNat ≠ 0) :
    ∃ m1 s t t', ∃ S S' U U' : List Int → T, Cuda.setBc2d i0 i1 j0 j1 dx 0 b0_ b1_ g u_ bLo bHi exOrder (2 * dir + side) 1 btype 2 1 β m = .ok m1 ∧ Cuda.v2diag2d i0 j0 i1 j1 alpha sgcw st_ β₁ m1 = .ok s ∧
      Cuda.adjOffdiag2d i0 j0 i1 j1 pi0 pj0 pi1 pj1 dir side btype exOrder dx dir_factor neu_factor beta b0_ b1_ sgcw st_ β₂ m1 = .ok t ∧ Cuda.v2diag2d i0 j0 i1 j1 alpha sgcw st_ β₃ t = .ok t' ∧
      F.Holds m (F.cell2d u_ i0 j0 i1 j1 g) U ∧ F.Holds s (F.cell2d u_ i0 j0 i1 j1 g) U' ∧ F.Holds s (F.st2d st_ i0 j0 i1 j1 sgcw) S ∧ F.Holds t' (F.st2d st_ i0 j0 i1 j1 sgcw) S' ∧
      F.Folded 4 (F.row F.points2) S S' U U' (F.layer2 pi0 pj0 pi1 pj1 dir side) (2 * dir + 1 + side) ∧
      ∀ c, F.InBounds [(i0, i1), (j0, j1)] c → ¬ F.layer2 pi0 pj0 pi1 pj1 dir side c → ∀ e, 0 ≤ e → e ≤ 4 → S' (e :: c) = S (e :: c) := by
  have hu : F.Args m [(F.face2d0 b0_ i0 j0 i1 j1 0), (F.face2d1 b1_ i0 j0 i1 j1 0)] [(F.cell2d u_ i0 j0 i1 j1 g)] := h.sub (by simp) (by simp)
  have hs : F.Args m [(F.face2d0 b0_ i0 j0 i1 j1 0), (F.face2d1 b1_ i0 j0 i1 j1 0)] [(F.st2d st_ i0 j0 i1 j1 sgcw)] := h.sub (by simp) (by simp)
  obtain ⟨m1, r1, H, G⟩ := fill2 (dx := dx) (btype := btype) (exOrder := exOrder) hβ hi hj hg hl hseg hthin (by omega) hh hu hB0 hB1 hb
  have hB0' : F.Holds m1 (F.face2d0 b0_ i0 j0 i1 j1 0) B0 := hB0.only H.only (by simpa using hu.apart _ (by simp) (F.face2d0 b0_ i0 j0 i1 j1 0) (by simp))
  have hB1' : F.Holds m1 (F.face2d1 b1_ i0 j0 i1 j1 0) B1 := hB1.only H.only (by simpa using hu.apart _ (by simp) (F.face2d1 b1_ i0 j0 i1 j1 0) (by simp))
  obtain ⟨s, t, t', S, S', d1, d2, d3, -, O1, O2, HS, HS', E⟩ := C74_v2_2d_partial (β₄ := β₃) (alpha := alpha) (beta := beta) (neu_factor := neu_factor) hβ₁ hβ₂ hβ₃ hi hj hsg hl hq (H.args hs) hB0' hB1' hb
  exact ⟨m1, s, t, t', S, S', F.rd m (F.cell2d u_ i0 j0 i1 j1 g), F.rd m1 (F.cell2d u_ i0 j0 i1 j1 g), r1, d1, d2, d3, fun is hi => (h.ok _ (by simp)).rd hi,
    F.Holds.only (fun is hi => (H.ok (h.ok _ (by simp))).rd hi) O1 (by simpa using hx), HS, HS', folded_of E G, E.2⟩

example : ∃ m1 s t t', ∃ S S' U U' : List Int → Rat, Cuda.setBc2d 0 3 0 2 exDx 0 ⟨0, 0⟩ ⟨1, 0⟩ 1 ⟨3, 0⟩ (exSeg 4 0 0) (exSeg 4 2 0) 1 (2 * 0 + 1) 1 4 2 1 (fun _ => revBackend) exRat = .ok m1 ∧ Cuda.v2diag2d 0 0 3 2 3 1 ⟨2, 0⟩ revBackend m1 = .ok s ∧
      Cuda.adjOffdiag2d 0 0 3 2 4 0 4 2 0 1 4 1 exDx 2 3 4 ⟨0, 0⟩ ⟨1, 0⟩ 1 ⟨2, 0⟩ seqBackend m1 = .ok t ∧ Cuda.v2diag2d 0 0 3 2 3 1 ⟨2, 0⟩ revBackend t = .ok t' ∧
      F.Holds exRat (F.cell2d ⟨3, 0⟩ 0 0 3 2 1) U ∧ F.Holds s (F.cell2d ⟨3, 0⟩ 0 0 3 2 1) U' ∧ F.Holds s (F.st2d ⟨2, 0⟩ 0 0 3 2 1) S ∧ F.Holds t' (F.st2d ⟨2, 0⟩ 0 0 3 2 1) S' ∧
      F.Folded 4 (F.row F.points2) S S' U U' (F.layer2 4 0 4 2 0 1) (2 * 0 + 1 + 1) ∧
      ∀ c, F.InBounds [(0, 3), (0, 2)] c → ¬ F.layer2 4 0 4 2 0 1 c → ∀ e, 0 ≤ e → e ≤ 4 → S' (e :: c) = S (e :: c) :=
  C77_v2_2d_partial (fun _ => revBackend_ok) revBackend_ok seqBackend_ok revBackend_ok (by decide) (by decide) (by decide) (by decide) (by constructor <;> (try simp only [InInt]) <;> decide)
    ⟨rfl, rfl, rfl, rfl⟩ ⟨by decide, by decide⟩ (.inr (.inr (.inr ⟨rfl, rfl, rfl⟩))) (by simp only [exDx]; decide +kernel) (by ex_args) (apart_blk (by decide)) (fun is hi => (exRat_ok rfl (by decide) (by unfold InInt; decide)).rd hi) (fun is hi => (exRat_ok rfl (by decide) (by unfold InInt; decide)).rd hi) (fun _ _ _ => ex_face2)


/-- 2D, Poisson operator, for every contents of the array: fill the ghost cells next to a boundary without a value, with the kernel for Dirichlet of order 1 or 2, Neumann, or Robin of order 1 (the coefficients of the condition are 2 and 1 in the call); then the rows assembled without adjustment, applied to the cells and the ghost cells, give in the cells next to the boundary what the adjusted rows give with 0 in the place of the ghost cells. The rows of the other cells are the same. Missing: Robin of second order, and Robin in direction 1, where the adjusted rows are wrong. -/
theorem C77_poisson_2d_partial {i0 j0 i1 j1 pi0 pj0 pi1 pj1 dir side btype exOrder g sgcw : Int} {dx : Nat → T} {dir_factor neu_factor beta : T} {st_ u_ : Ptr} {bLo bHi : Nat → Int} {β : Nat → Backend} {β₁ β₂ β₃ : Backend} {m : Mem T}
    (hβ : ∀ n, ValidBackend (β n)) (hβ₁ : ValidBackend β₁) (hβ₂ : ValidBackend β₂) (hβ₃ : ValidBackend β₃) (hi : i0 ≤ i1) (hj : j0 ≤ j1) (hg : 1 ≤ g) (hsg : 0 ≤ sgcw) 
    (hl : Layer2 i0 j0 i1 j1 0 pi0 pj0 pi1 pj1 dir side) (hseg : bLo 0 = pi0 ∧ bHi 0 = pi1 ∧ bLo 1 = pj0 ∧ bHi 1 = pj1) (hthin : (dir = 0 → pi1 = pi0) ∧ (dir = 1 → pj1 = pj0))
    (hq : (btype = 0 ∧ exOrder = 1 ∧ dir_factor = 2) ∨ (btype = 0 ∧ exOrder = 2) ∨ btype = 1 ∨ (btype = 4 ∧ exOrder = 1 ∧ dir = 0)) (hh : dx dir.toNat ≠ 0)
    (h : F.Args m [] [(F.st2d st_ i0 j0 i1 j1 sgcw), (F.cell2d u_ i0 j0 i1 j1 g)]) (hx : F.Apart (F.st2d st_ i0 j0 i1 j1 sgcw) (F.cell2d u_ i0 j0 i1 j1 g)) (hb : btype = 4 → 4 + dx dir.toNat ≠ 0) :
    ∃ m1 s t t', ∃ S S' U U' : List Int → T, Cuda.setPoissonBc2d i0 i1 j0 j1 dx g u_ bLo bHi exOrder (2 * dir + side) 1 btype 2 1 β m = .ok m1 ∧ Cuda.poissonDiag2d i0 j0 i1 j1 sgcw st_ β₁ m1 = .ok s ∧
      Cuda.adjPoissonOffdiag2d i0 j0 i1 j1 pi0 pj0 pi1 pj1 dir side btype exOrder dx dir_factor neu_factor beta sgcw st_ β₂ m1 = .ok t ∧ Cuda.poissonDiag2d i0 j0 i1 j1 sgcw st_ β₃ t = .ok t' ∧
      F.Holds m (F.cell2d u_ i0 j0 i1 j1 g) U ∧ F.Holds s (F.cell2d u_ i0 j0 i1 j1 g) U' ∧ F.Holds s (F.st2d st_ i0 j0 i1 j1 sgcw) S ∧ F.Holds t' (F.st2d st_ i0 j0 i1 j1 sgcw) S' ∧
      F.Folded 4 (F.row F.points2) S S' U U' (F.layer2 pi0 pj0 pi1 pj1 dir side) (2 * dir + 1 + side) ∧
      ∀ c, F.InBounds [(i0, i1), (j0, j1)] c → ¬ F.layer2 pi0 pj0 pi1 pj1 dir side c → ∀ e, 0 ≤ e → e ≤ 4 → S' (e :: c) = S (e :: c) := by
  have hu : F.Args m [] [(F.cell2d u_ i0 j0 i1 j1 g)] := h.sub (by simp) (by simp)
  have hs : F.Args m [] [(F.st2d st_ i0 j0 i1 j1 sgcw)] := h.sub (by simp) (by simp)
  obtain ⟨m1, r1, H, G⟩ := pfill2 (dx := dx) (btype := btype) (exOrder := exOrder) hβ hi hj hg hl hseg hthin (by omega) hh hu  hb
  obtain ⟨s, t, t', S, S', d1, d2, d3, -, O1, O2, HS, HS', E⟩ := C74_poisson_2d_partial (β₄ := β₃) (beta := beta) (neu_factor := neu_factor) hβ₁ hβ₂ hβ₃ hi hj hsg hl hq (H.args hs)  hb
  exact ⟨m1, s, t, t', S, S', F.rd m (F.cell2d u_ i0 j0 i1 j1 g), F.rd m1 (F.cell2d u_ i0 j0 i1 j1 g), r1, d1, d2, d3, fun is hi => (h.ok _ (by simp)).rd hi,
    F.Holds.only (fun is hi => (H.ok (h.ok _ (by simp))).rd hi) O1 (by simpa using hx), HS, HS', folded_of E G, E.2⟩

example : ∃ m1 s t t', ∃ S S' U U' : List Int → Rat, Cuda.setPoissonBc2d 0 3 0 2 exDx 1 ⟨1, 0⟩ (exSeg 4 0 0) (exSeg 4 2 0) 1 (2 * 0 + 1) 1 4 2 1 (fun _ => revBackend) exRat = .ok m1 ∧ Cuda.poissonDiag2d 0 0 3 2 1 ⟨0, 0⟩ revBackend m1 = .ok s ∧
      Cuda.adjPoissonOffdiag2d 0 0 3 2 4 0 4 2 0 1 4 1 exDx 2 3 4 1 ⟨0, 0⟩ seqBackend m1 = .ok t ∧ Cuda.poissonDiag2d 0 0 3 2 1 ⟨0, 0⟩ revBackend t = .ok t' ∧
      F.Holds exRat (F.cell2d ⟨1, 0⟩ 0 0 3 2 1) U ∧ F.Holds s (F.cell2d ⟨1, 0⟩ 0 0 3 2 1) U' ∧ F.Holds s (F.st2d ⟨0, 0⟩ 0 0 3 2 1) S ∧ F.Holds t' (F.st2d ⟨0, 0⟩ 0 0 3 2 1) S' ∧
      F.Folded 4 (F.row F.points2) S S' U U' (F.layer2 4 0 4 2 0 1) (2 * 0 + 1 + 1) ∧
      ∀ c, F.InBounds [(0, 3), (0, 2)] c → ¬ F.layer2 4 0 4 2 0 1 c → ∀ e, 0 ≤ e → e ≤ 4 → S' (e :: c) = S (e :: c) :=
  C77_poisson_2d_partial (fun _ => revBackend_ok) revBackend_ok seqBackend_ok revBackend_ok (by decide) (by decide) (by decide) (by decide) (by constructor <;> (try simp only [InInt]) <;> decide)
    ⟨rfl, rfl, rfl, rfl⟩ ⟨by decide, by decide⟩ (.inr (.inr (.inr ⟨rfl, rfl, rfl⟩))) (by simp only [exDx]; decide +kernel) (by ex_args) (apart_blk (by decide))  (fun _ => ex_four)


/-- 3D, diffusion operator with cell coefficients, for every contents of the array: fill the ghost cells next to a boundary without a value, with the kernel for Dirichlet of order 1 or 2, Neumann, or Robin of order 1 (the coefficients of the condition are 2 and 1 in the call); then the rows assembled without adjustment, applied to the cells and the ghost cells, give in the cells next to the boundary what the adjusted rows give with 0 in the place of the ghost cells. The rows of the other cells are the same. Missing: Robin of second order, where the adjusted rows are wrong. -/
theorem C77_v1_3d_partial {i0 j0 k0 i1 j1 k1 ai0 aj0 ak0 ai1 aj1 ak1 pi0 pj0 pk0 pi1 pj1 pk1 dir side btype exOrder g sgcw : Int} {dx : Nat → T} {alpha dir_factor neu_factor beta : T} {a_ b0_ b1_ b2_ st_ u_ : Ptr} {bLo bHi : Nat → Int} {β : Nat → Backend} {β₁ β₂ β₃ : Backend} {m : Mem T} {B0 B1 B2 : List Int → T}
    (hβ : ∀ n, ValidBackend (β n)) (hβ₁ : ValidBackend β₁) (hβ₂ : ValidBackend β₂) (hβ₃ : ValidBackend β₃) (hi : i0 ≤ i1) (hj : j0 ≤ j1) (hk : k0 ≤ k1) (hg : 1 ≤ g) (hsg : 0 ≤ sgcw) (hai : ai0 ≤ i0 ∧ i1 ≤ ai1) (haj : aj0 ≤ j0 ∧ j1 ≤ aj1) (hak : ak0 ≤ k0 ∧ k1 ≤ ak1) 
    (hl : Layer3 i0 j0 k0 i1 j1 k1 0 pi0 pj0 pk0 pi1 pj1 pk1 dir side) (hseg : bLo 0 = pi0 ∧ bHi 0 = pi1 ∧ bLo 1 = pj0 ∧ bHi 1 = pj1 ∧ bLo 2 = pk0 ∧ bHi 2 = pk1) (hthin : (dir = 0 → pi1 = pi0) ∧ (dir = 1 → pj1 = pj0) ∧ (dir = 2 → pk1 = pk0))
    (hq : (btype = 0 ∧ exOrder = 1 ∧ dir_factor = 2) ∨ (btype = 0 ∧ exOrder = 2) ∨ btype = 1 ∨ (btype = 4 ∧ exOrder = 1)) (hh : dx dir.toNat ≠ 0)
    (h : F.Args m [(F.cell3d a_ ai0 aj0 ak0 ai1 aj1 ak1 0), (F.face3d0 b0_ i0 j0 k0 i1 j1 k1 0), (F.face3d1 b1_ i0 j0 k0 i1 j1 k1 0), (F.face3d2 b2_ i0 j0 k0 i1 j1 k1 0)] [(F.st3d st_ i0 j0 k0 i1 j1 k1 sgcw), (F.cell3d u_ i0 j0 k0 i1 j1 k1 g)]) (hx : F.Apart (F.st3d st_ i0 j0 k0 i1 j1 k1 sgcw) (F.cell3d u_ i0 j0 k0 i1 j1 k1 g))
    (hB0 : F.Holds m (F.face3d0 b0_ i0 j0 k0 i1 j1 k1 0) B0) (hB1 : F.Holds m (F.face3d1 b1_ i0 j0 k0 i1 j1 k1 0) B1) (hB2 : F.Holds m (F.face3d2 b2_ i0 j0 k0 i1 j1 k1 0) B2) (hb : btype = 4 → ∀ c, F.layer3 pi0 pj0 pk0 pi1 pj1 pk1 dir side c → 4 * F.onFace3 B0 B1 B2 dir side c + dx dir.toNat ≠ 0) :
    ∃ m1 s t t', ∃ S S' U U' : List Int → T, Cuda.setBc3d i0 i1 j0 j1 k0 k1 dx 0 b0_ b1_ b2_ g u_ bLo bHi exOrder (2 * dir + side) 1 btype 2 1 β m = .ok m1 ∧ Cuda.v1diag3d i0 j0 k0 i1 j1 k1 ai0 aj0 ak0 ai1 aj1 ak1 alpha a_ sgcw st_ β₁ m1 = .ok s ∧
      Cuda.adjOffdiag3d i0 j0 k0 i1 j1 k1 pi0 pj0 pk0 pi1 pj1 pk1 dir side btype exOrder dx dir_factor neu_factor beta b0_ b1_ b2_ sgcw st_ β₂ m1 = .ok t ∧ Cuda.v1diag3d i0 j0 k0 i1 j1 k1 ai0 aj0 ak0 ai1 aj1 ak1 alpha a_ sgcw st_ β₃ t = .ok t' ∧
      F.Holds m (F.cell3d u_ i0 j0 k0 i1 j1 k1 g) U ∧ F.Holds s (F.cell3d u_ i0 j0 k0 i1 j1 k1 g) U' ∧ F.Holds s (F.st3d st_ i0 j0 k0 i1 j1 k1 sgcw) S ∧ F.Holds t' (F.st3d st_ i0 j0 k0 i1 j1 k1 sgcw) S' ∧
      F.Folded 6 (F.row F.points3) S S' U U' (F.layer3 pi0 pj0 pk0 pi1 pj1 pk1 dir side) (2 * dir + 1 + side) ∧
      ∀ c, F.InBounds [(i0, i1), (j0, j1), (k0, k1)] c → ¬ F.layer3 pi0 pj0 pk0 pi1 pj1 pk1 dir side c → ∀ e, 0 ≤ e → e ≤ 6 → S' (e :: c) = S (e :: c) := by
  have hu : F.Args m [(F.face3d0 b0_ i0 j0 k0 i1 j1 k1 0), (F.face3d1 b1_ i0 j0 k0 i1 j1 k1 0), (F.face3d2 b2_ i0 j0 k0 i1 j1 k1 0)] [(F.cell3d u_ i0 j0 k0 i1 j1 k1 g)] := h.sub (by simp) (by simp)
  have hs : F.Args m [(F.cell3d a_ ai0 aj0 ak0 ai1 aj1 ak1 0), (F.face3d0 b0_ i0 j0 k0 i1 j1 k1 0), (F.face3d1 b1_ i0 j0 k0 i1 j1 k1 0), (F.face3d2 b2_ i0 j0 k0 i1 j1 k1 0)] [(F.st3d st_ i0 j0 k0 i1 j1 k1 sgcw)] := h.sub (by simp) (by simp)
  obtain ⟨m1, r1, H, G⟩ := fill3 (dx := dx) (btype := btype) (exOrder := exOrder) hβ hi hj hk hg hl hseg hthin (by omega) hh hu hB0 hB1 hB2 hb
  have hB0' : F.Holds m1 (F.face3d0 b0_ i0 j0 k0 i1 j1 k1 0) B0 := hB0.only H.only (by simpa using hu.apart _ (by simp) (F.face3d0 b0_ i0 j0 k0 i1 j1 k1 0) (by simp))
  have hB1' : F.Holds m1 (F.face3d1 b1_ i0 j0 k0 i1 j1 k1 0) B1 := hB1.only H.only (by simpa using hu.apart _ (by simp) (F.face3d1 b1_ i0 j0 k0 i1 j1 k1 0) (by simp))
  have hB2' : F.Holds m1 (F.face3d2 b2_ i0 j0 k0 i1 j1 k1 0) B2 := hB2.only H.only (by simpa using hu.apart _ (by simp) (F.face3d2 b2_ i0 j0 k0 i1 j1 k1 0) (by simp))
  obtain ⟨s, t, t', S, S', d1, d2, d3, -, O1, O2, HS, HS', E⟩ := C74_v1_3d_partial (β₄ := β₃) (alpha := alpha) (beta := beta) (neu_factor := neu_factor) hβ₁ hβ₂ hβ₃ hi hj hk hsg hai haj hak hl hq (H.args hs) hB0' hB1' hB2' hb
  exact ⟨m1, s, t, t', S, S', F.rd m (F.cell3d u_ i0 j0 k0 i1 j1 k1 g), F.rd m1 (F.cell3d u_ i0 j0 k0 i1 j1 k1 g), r1, d1, d2, d3, fun is hi => (h.ok _ (by simp)).rd hi,
    F.Holds.only (fun is hi => (H.ok (h.ok _ (by simp))).rd hi) O1 (by simpa using hx), HS, HS', folded_of E G, E.2⟩

example : ∃ m1 s t t', ∃ S S' U U' : List Int → Rat, Cuda.setBc3d 0 3 0 2 0 1 exDx 0 ⟨1, 0⟩ ⟨2, 0⟩ ⟨3, 0⟩ 1 ⟨5, 0⟩ (exSeg 0 0 2) (exSeg 3 2 2) 1 (2 * 2 + 1) 1 4 2 1 (fun _ => revBackend) exRat = .ok m1 ∧ Cuda.v1diag3d 0 0 0 3 2 1 0 0 0 3 2 1 3 ⟨0, 0⟩ 1 ⟨4, 0⟩ revBackend m1 = .ok s ∧
      Cuda.adjOffdiag3d 0 0 0 3 2 1 0 0 2 3 2 2 2 1 4 1 exDx 2 3 4 ⟨1, 0⟩ ⟨2, 0⟩ ⟨3, 0⟩ 1 ⟨4, 0⟩ seqBackend m1 = .ok t ∧ Cuda.v1diag3d 0 0 0 3 2 1 0 0 0 3 2 1 3 ⟨0, 0⟩ 1 ⟨4, 0⟩ revBackend t = .ok t' ∧
      F.Holds exRat (F.cell3d ⟨5, 0⟩ 0 0 0 3 2 1 1) U ∧ F.Holds s (F.cell3d ⟨5, 0⟩ 0 0 0 3 2 1 1) U' ∧ F.Holds s (F.st3d ⟨4, 0⟩ 0 0 0 3 2 1 1) S ∧ F.Holds t' (F.st3d ⟨4, 0⟩ 0 0 0 3 2 1 1) S' ∧
      F.Folded 6 (F.row F.points3) S S' U U' (F.layer3 0 0 2 3 2 2 2 1) (2 * 2 + 1 + 1) ∧
      ∀ c, F.InBounds [(0, 3), (0, 2), (0, 1)] c → ¬ F.layer3 0 0 2 3 2 2 2 1 c → ∀ e, 0 ≤ e → e ≤ 6 → S' (e :: c) = S (e :: c) :=
  C77_v1_3d_partial (fun _ => revBackend_ok) revBackend_ok seqBackend_ok revBackend_ok (by decide) (by decide) (by decide) (by decide) (by decide) (by decide) (by decide) (by decide) (by constructor <;> (try simp only [InInt]) <;> decide)
    ⟨rfl, rfl, rfl, rfl, rfl, rfl⟩ ⟨by decide, by decide, by decide⟩ (.inr (.inr (.inr ⟨rfl, rfl⟩))) (by simp only [exDx]; decide +kernel) (by ex_args) (apart_blk (by decide)) (fun is hi => (exRat_ok rfl (by decide) (by unfold InInt; decide)).rd hi) (fun is hi => (exRat_ok rfl (by decide) (by unfold InInt; decide)).rd hi) (fun is hi => (exRat_ok rfl (by decide) (by unfold InInt; decide)).rd hi) (fun _ _ _ => ex_face3)


/-- 3D, diffusion operator with constant reaction, for every contents of the array: fill the ghost cells next to a boundary without a value, with the kernel for Dirichlet of order 1 or 2, Neumann, or Robin of order 1 (the coefficients of the condition are 2 and 1 in the call); then the rows assembled without adjustment, applied to the cells and the ghost cells, give in the cells next to the boundary what the adjusted rows give with 0 in the place of the ghost cells. The rows of the other cells are the same. Missing: Robin of second order, where the adjusted rows are wrong. -/
theorem C77_v2_3d_partial {i0 j0 k0 i1 j1 k1 pi0 pj0 pk0 pi1 pj1 pk1 dir side btype exOrder g sgcw : Int} {dx : Nat → T} {alpha dir_factor neu_factor beta : T} {b0_ b1_ b2_ st_ u_ : Ptr} {bLo bHi : Nat → Int} {β : Nat → Backend} {β₁ β₂ β₃ : Backend} {m : Mem T} {B0 B1 B2 : List Int → T}
    (hβ : ∀ n, ValidBackend (β n)) (hβ₁ : ValidBackend β₁) (hβ₂ : ValidBackend β₂) (hβ₃ : ValidBackend β₃) (hi : i0 ≤ i1) (hj : j0 ≤ j1) (hk : k0 ≤ k1) (hg : 1 ≤ g) (hsg : 0 ≤ sgcw) 
    (hl : Layer3 i0 j0 k0 i1 j1 k1 0 pi0 pj0 pk0 pi1 pj1 pk1 dir side) (hseg : bLo 0 = pi0 ∧ bHi 0 = pi1 ∧ bLo 1 = pj0 ∧ bHi 1 = pj1 ∧ bLo 2 = pk0 ∧ bHi 2 = pk1) (hthin : (dir = 0 → pi1 = pi0) ∧ (dir = 1 → pj1 = pj0) ∧ (dir = 2 → pk1 = pk0))
    (hq : (btype = 0 ∧ exOrder = 1 ∧ dir_factor = 2) ∨ (btype = 0 ∧ exOrder = 2) ∨ btype = 1 ∨ (btype = 4 ∧ exOrder = 1)) (hh : dx dir.toNat ≠ 0)
    (h : F.Args m [(F.face3d0 b0_ i0 j0 k0 i1 j1 k1 0), (F.face3d1 b1_ i0 j0 k0 i1 j1 k1 0), (F.face3d2 b2_ i0 j0 k0 i1 j1 k1 0)] [(F.st3d st_ i0 j0 k0 i1 j1 k1 sgcw), (F.cell3d u_ i0 j0 k0 i1 j1 k1 g)]) (hx : F.Apart (F.st3d st_ i0 j0 k0 i1 j1 k1 sgcw) (F.cell3d u_ i0 j0 k0 i1 j1 k1 g))
    (hB0 : F.Holds m (F.face3d0 b0_ i0 j0 k0 i1 j1 k1 0) B0) (hB1 : F.Holds m (F.face3d1 b1_ i0 j0 k0 i1 j1 k1 0) B1) (hB2 : F.Holds m (F.face3d2 b2_ i0 j0 k0 i1 j1 k1 0) B2) (hb : btype = 4 → ∀ c, F.layer3 pi0 pj0 pk0 pi1 pj1 pk1 dir side c → 4 * F.onFace3 B0 B1 B2 dir side c + dx dir.toNat ≠ 0) :
    ∃ m1 s t t', ∃ S S' U U' : List Int → T, Cuda.setBc3d i0 i1 j0 j1 k0 k1 dx 0 b0_ b1_ b2_ g u_ bLo bHi exOrder (2 * dir + side) 1 btype 2 1 β m = .ok m1 ∧ Cuda.v2diag3d i0 j0 k0 i1 j1 k1 alpha sgcw st_ β₁ m1 = .ok s ∧
      Cuda.adjOffdiag3d i0 j0 k0 i1 j1 k1 pi0 pj0 pk0 pi1 pj1 pk1 dir side btype exOrder dx dir_factor neu_factor beta b0_ b1_ b2_ sgcw st_ β₂ m1 = .ok t ∧ Cuda.v2diag3d i0 j0 k0 i1 j1 k1 alpha sgcw st_ β₃ t = .ok t' ∧
      F.Holds m (F.cell3d u_ i0 j0 k0 i1 j1 k1 g) U ∧ F.Holds s (F.cell3d u_ i0 j0 k0 i1 j1 k1 g) U' ∧ F.Holds s (F.st3d st_ i0 j0 k0 i1 j1 k1 sgcw) S ∧ F.Holds t' (F.st3d st_ i0 j0 k0 i1 j1 k1 sgcw) S' ∧
      F.Folded 6 (F.row F.points3) S S' U U' (F.layer3 pi0 pj0 pk0 pi1 pj1 pk1 dir side) (2 * dir + 1 + side) ∧
      ∀ c, F.InBounds [(i0, i1), (j0, j1), (k0, k1)] c → ¬ F.layer3 pi0 pj0 pk0 pi1 pj1 pk1 dir side c → ∀ e, 0 ≤ e → e ≤ 6 → S' (e :: c) = S (e :: c) := by
  have hu : F.Args m [(F.face3d0 b0_ i0 j0 k0 i1 j1 k1 0), (F.face3d1 b1_ i0 j0 k0 i1 j1 k1 0), (F.face3d2 b2_ i0 j0 k0 i1 j1 k1 0)] [(F.cell3d u_ i0 j0 k0 i1 j1 k1 g)] := h.sub (by simp) (by simp)
  have hs : F.Args m [(F.face3d0 b0_ i0 j0 k0 i1 j1 k1 0), (F.face3d1 b1_ i0 j0 k0 i1 j1 k1 0), (F.face3d2 b2_ i0 j0 k0 i1 j1 k1 0)] [(F.st3d st_ i0 j0 k0 i1 j1 k1 sgcw)] := h.sub (by simp) (by simp)
  obtain ⟨m1, r1, H, G⟩ := fill3 (dx := dx) (btype := btype) (exOrder := exOrder) hβ hi hj hk hg hl hseg hthin (by omega) hh hu hB0 hB1 hB2 hb
  have hB0' : F.Holds m1 (F.face3d0 b0_ i0 j0 k0 i1 j1 k1 0) B0 := hB0.only H.only (by simpa using hu.apart _ (by simp) (F.face3d0 b0_ i0 j0 k0 i1 j1 k1 0) (by simp))
  have hB1' : F.Holds m1 (F.face3d1 b1_ i0 j0 k0 i1 j1 k1 0) B1 := hB1.only H.only (by simpa using hu.apart _ (by simp) (F.face3d1 b1_ i0 j0 k0 i1 j1 k1 0) (by simp))
  have hB2' : F.Holds m1 (F.face3d2 b2_ i0 j0 k0 i1 j1 k1 0) B2 := hB2.only H.only (by simpa using hu.apart _ (by simp) (F.face3d2 b2_ i0 j0 k0 i1 j1 k1 0) (by simp))
  obtain ⟨s, t, t', S, S', d1, d2, d3, -, O1, O2, HS, HS', E⟩ := C74_v2_3d_partial (β₄ := β₃) (alpha := alpha) (beta := beta) (neu_factor := neu_factor) hβ₁ hβ₂ hβ₃ hi hj hk hsg hl hq (H.args hs) hB0' hB1' hB2' hb
  exact ⟨m1, s, t, t', S, S', F.rd m (F.cell3d u_ i0 j0 k0 i1 j1 k1 g), F.rd m1 (F.cell3d u_ i0 j0 k0 i1 j1 k1 g), r1, d1, d2, d3, fun is hi => (h.ok _ (by simp)).rd hi,
    F.Holds.only (fun is hi => (H.ok (h.ok _ (by simp))).rd hi) O1 (by simpa using hx), HS, HS', folded_of E G, E.2⟩

example : ∃ m1 s t t', ∃ S S' U U' : List Int → Rat, Cuda.setBc3d 0 3 0 2 0 1 exDx 0 ⟨0, 0⟩ ⟨1, 0⟩ ⟨2, 0⟩ 1 ⟨4, 0⟩ (exSeg 0 0 2) (exSeg 3 2 2) 1 (2 * 2 + 1) 1 4 2 1 (fun _ => revBackend) exRat = .ok m1 ∧ Cuda.v2diag3d 0 0 0 3 2 1 3 1 ⟨3, 0⟩ revBackend m1 = .ok s ∧
      Cuda.adjOffdiag3d 0 0 0 3 2 1 0 0 2 3 2 2 2 1 4 1 exDx 2 3 4 ⟨0, 0⟩ ⟨1, 0⟩ ⟨2, 0⟩ 1 ⟨3, 0⟩ seqBackend m1 = .ok t ∧ Cuda.v2diag3d 0 0 0 3 2 1 3 1 ⟨3, 0⟩ revBackend t = .ok t' ∧
      F.Holds exRat (F.cell3d ⟨4, 0⟩ 0 0 0 3 2 1 1) U ∧ F.Holds s (F.cell3d ⟨4, 0⟩ 0 0 0 3 2 1 1) U' ∧ F.Holds s (F.st3d ⟨3, 0⟩ 0 0 0 3 2 1 1) S ∧ F.Holds t' (F.st3d ⟨3, 0⟩ 0 0 0 3 2 1 1) S' ∧
      F.Folded 6 (F.row F.points3) S S' U U' (F.layer3 0 0 2 3 2 2 2 1) (2 * 2 + 1 + 1) ∧
      ∀ c, F.InBounds [(0, 3), (0, 2), (0, 1)] c → ¬ F.layer3 0 0 2 3 2 2 2 1 c → ∀ e, 0 ≤ e → e ≤ 6 → S' (e :: c) = S (e :: c) :=
  C77_v2_3d_partial (fun _ => revBackend_ok) revBackend_ok seqBackend_ok revBackend_ok (by decide) (by decide) (by decide) (by decide) (by decide) (by constructor <;> (try simp only [InInt]) <;> decide)
    ⟨rfl, rfl, rfl, rfl, rfl, rfl⟩ ⟨by decide, by decide, by decide⟩ (.inr (.inr (.inr ⟨rfl, rfl⟩))) (by simp only [exDx]; decide +kernel) (by ex_args) (apart_blk (by decide)) (fun is hi => (exRat_ok rfl (by decide) (by unfold InInt; decide)).rd hi) (fun is hi => (exRat_ok rfl (by decide) (by unfold InInt; decide)).rd hi) (fun is hi => (exRat_ok rfl (by decide) (by unfold InInt; decide)).rd hi) (fun _ _ _ => ex_face3)


/-- 3D, Poisson operator, for every contents of the array: fill the ghost cells next to a boundary without a value, with the kernel for Dirichlet of order 1 or 2, Neumann, or Robin of order 1 (the coefficients of the condition are 2 and 1 in the call); then the rows assembled without adjustment, applied to the cells and the ghost cells, give in the cells next to the boundary what the adjusted rows give with 0 in the place of the ghost cells. The rows of the other cells are the same. Missing: Robin of second order, where the adjusted rows are wrong. -/
theorem C77_poisson_3d_partial {i0 j0 k0 i1 j1 k1 pi0 pj0 pk0 pi1 pj1 pk1 dir side btype exOrder g sgcw : Int} {dx : Nat → T} {dir_factor neu_factor beta : T} {st_ u_ : Ptr} {bLo bHi : Nat → Int} {β : Nat → Backend} {β₁ β₂ β₃ : Backend} {m : Mem T}
    (hβ : ∀ n, ValidBackend (β n)) (hβ₁ : ValidBackend β₁) (hβ₂ : ValidBackend β₂) (hβ₃ : ValidBackend β₃) (hi : i0 ≤ i1) (hj : j0 ≤ j1) (hk : k0 ≤ k1) (hg : 1 ≤ g) (hsg : 0 ≤ sgcw) 
    (hl : Layer3 i0 j0 k0 i1 j1 k1 0 pi0 pj0 pk0 pi1 pj1 pk1 dir side) (hseg : bLo 0 = pi0 ∧ bHi 0 = pi1 ∧ bLo 1 = pj0 ∧ bHi 1 = pj1 ∧ bLo 2 = pk0 ∧ bHi 2 = pk1) (hthin : (dir = 0 → pi1 = pi0) ∧ (dir = 1 → pj1 = pj0) ∧ (dir = 2 → pk1 = pk0))
    (hq : (btype = 0 ∧ exOrder = 1 ∧ dir_factor = 2) ∨ (btype = 0 ∧ exOrder = 2) ∨ btype = 1 ∨ (btype = 4 ∧ exOrder = 1)) (hh : dx dir.toNat ≠ 0)
    (h : F.Args m [] [(F.st3d st_ i0 j0 k0 i1 j1 k1 sgcw), (F.cell3d u_ i0 j0 k0 i1 j1 k1 g)]) (hx : F.Apart (F.st3d st_ i0 j0 k0 i1 j1 k1 sgcw) (F.cell3d u_ i0 j0 k0 i1 j1 k1 g)) (hb : btype = 4 → 4 + dx dir.toNat ≠ 0) :
    ∃ m1 s t t', ∃ S S' U U' : List Int → T, Cuda.setPoissonBc3d i0 i1 j0 j1 k0 k1 dx g u_ bLo bHi exOrder (2 * dir + side) 1 btype 2 1 β m = .ok m1 ∧ Cuda.poissonDiag3d i0 j0 k0 i1 j1 k1 sgcw st_ β₁ m1 = .ok s ∧
      Cuda.adjPoissonOffdiag3d i0 j0 k0 i1 j1 k1 pi0 pj0 pk0 pi1 pj1 pk1 dir side btype exOrder dx dir_factor neu_factor beta sgcw st_ β₂ m1 = .ok t ∧ Cuda.poissonDiag3d i0 j0 k0 i1 j1 k1 sgcw st_ β₃ t = .ok t' ∧
      F.Holds m (F.cell3d u_ i0 j0 k0 i1 j1 k1 g) U ∧ F.Holds s (F.cell3d u_ i0 j0 k0 i1 j1 k1 g) U' ∧ F.Holds s (F.st3d st_ i0 j0 k0 i1 j1 k1 sgcw) S ∧ F.Holds t' (F.st3d st_ i0 j0 k0 i1 j1 k1 sgcw) S' ∧
      F.Folded 6 (F.row F.points3) S S' U U' (F.layer3 pi0 pj0 pk0 pi1 pj1 pk1 dir side) (2 * dir + 1 + side) ∧
      ∀ c, F.InBounds [(i0, i1), (j0, j1), (k0, k1)] c → ¬ F.layer3 pi0 pj0 pk0 pi1 pj1 pk1 dir side c → ∀ e, 0 ≤ e → e ≤ 6 → S' (e :: c) = S (e :: c) := by
  have hu : F.Args m [] [(F.cell3d u_ i0 j0 k0 i1 j1 k1 g)] := h.sub (by simp) (by simp)
  have hs : F.Args m [] [(F.st3d st_ i0 j0 k0 i1 j1 k1 sgcw)] := h.sub (by simp) (by simp)
  obtain ⟨m1, r1, H, G⟩ := pfill3 (dx := dx) (btype := btype) (exOrder := exOrder) hβ hi hj hk hg hl hseg hthin (by omega) hh hu  hb
  obtain ⟨s, t, t', S, S', d1, d2, d3, -, O1, O2, HS, HS', E⟩ := C74_poisson_3d_partial (β₄ := β₃) (beta := beta) (neu_factor := neu_factor) hβ₁ hβ₂ hβ₃ hi hj hk hsg hl hq (H.args hs)  hb
  exact ⟨m1, s, t, t', S, S', F.rd m (F.cell3d u_ i0 j0 k0 i1 j1 k1 g), F.rd m1 (F.cell3d u_ i0 j0 k0 i1 j1 k1 g), r1, d1, d2, d3, fun is hi => (h.ok _ (by simp)).rd hi,
    F.Holds.only (fun is hi => (H.ok (h.ok _ (by simp))).rd hi) O1 (by simpa using hx), HS, HS', folded_of E G, E.2⟩

example : ∃ m1 s t t', ∃ S S' U U' : List Int → Rat, Cuda.setPoissonBc3d 0 3 0 2 0 1 exDx 1 ⟨1, 0⟩ (exSeg 0 0 2) (exSeg 3 2 2) 1 (2 * 2 + 1) 1 4 2 1 (fun _ => revBackend) exRat = .ok m1 ∧ Cuda.poissonDiag3d 0 0 0 3 2 1 1 ⟨0, 0⟩ revBackend m1 = .ok s ∧
      Cuda.adjPoissonOffdiag3d 0 0 0 3 2 1 0 0 2 3 2 2 2 1 4 1 exDx 2 3 4 1 ⟨0, 0⟩ seqBackend m1 = .ok t ∧ Cuda.poissonDiag3d 0 0 0 3 2 1 1 ⟨0, 0⟩ revBackend t = .ok t' ∧
      F.Holds exRat (F.cell3d ⟨1, 0⟩ 0 0 0 3 2 1 1) U ∧ F.Holds s (F.cell3d ⟨1, 0⟩ 0 0 0 3 2 1 1) U' ∧ F.Holds s (F.st3d ⟨0, 0⟩ 0 0 0 3 2 1 1) S ∧ F.Holds t' (F.st3d ⟨0, 0⟩ 0 0 0 3 2 1 1) S' ∧
      F.Folded 6 (F.row F.points3) S S' U U' (F.layer3 0 0 2 3 2 2 2 1) (2 * 2 + 1 + 1) ∧
      ∀ c, F.InBounds [(0, 3), (0, 2), (0, 1)] c → ¬ F.layer3 0 0 2 3 2 2 2 1 c → ∀ e, 0 ≤ e → e ≤ 6 → S' (e :: c) = S (e :: c) :=
  C77_poisson_3d_partial (fun _ => revBackend_ok) revBackend_ok seqBackend_ok revBackend_ok (by decide) (by decide) (by decide) (by decide) (by decide) (by constructor <;> (try simp only [InInt]) <;> decide)
    ⟨rfl, rfl, rfl, rfl, rfl, rfl⟩ ⟨by decide, by decide, by decide⟩ (.inr (.inr (.inr ⟨rfl, rfl⟩))) (by simp only [exDx]; decide +kernel) (by ex_args) (apart_blk (by decide))  (fun _ => ex_four)


end Verif
