import Verif.Lemmas.BcGhosts
import Verif.Props.Bc
import Mathlib.Tactic.ComputeDegree

/-
C41, C46: the ghost values continue the polynomials that meet the boundary condition.
-/

namespace Verif
open Spec Polynomial

variable {T : Type} [Field T]

/-- an element of the sample memory -/
macro "ex_el" : tactic => `(tactic| (constructor <;> decide +kernel))

/-- `cd_correct_bc_1d_cuda::set_bc`, Dirichlet: the ghost values of order n continue every polynomial of degree at most n that is zero on the face. -/
theorem C41_1d [CharZero T] {i0 i1 g dg exOrder face : Int} {dx : Nat → T} {d0 u : Ptr} {bLo bHi : Nat → Int} {alpha beta : T} {n : Nat} {w : T}
    {β : Nat → Backend} {m : Mem T} (hβ : ∀ n, ValidBackend (β n)) (hn : exOrder = n) (h1 : 1 ≤ n) (h2 : n ≤ 2)
    (hi : i0 ≤ i1) (hg : 0 ≤ g) (hdg : 0 ≤ dg)
    (hs : ∀ n < 1, InInt (bLo n + 1) ∧ InInt (bHi n + 1))
    (hf0 : face = 0 → Reach i0 i1 g (bLo 0) 2 ∧ OnFaces i0 i1 dg (bLo 0 + 1))
    (hf1 : face = 1 → Reach i0 i1 g (bHi 0) (-2) ∧ OnFaces i0 i1 dg (bHi 0))
    (h : F.Args m [F.face1d d0 i0 i1 dg] [F.cell1d u i0 i1 g]) :
    ∃ m', Cuda.setBc1d i0 i1 dx dg d0 g u bLo bHi exOrder face 0 alpha beta β m = .ok m' ∧
      (face = 0 → Continues m m' (F.cell1d u i0 i1 g) (fun x => [bLo 0 + x]) w n n Dirichlet) ∧
      (face = 1 → Continues m m' (F.cell1d u i0 i1 g) (fun x => [bHi 0 - x]) w n n Dirichlet) := by
  obtain ⟨m', hm, hq⟩ := ghosts_1d (dx := dx) (exOrder := exOrder) (btype := 0) (alpha := alpha) (beta := beta) hβ hi hg hdg hs hf0 hf1 h
  exact ⟨m', hm, fun e p hp h0 hS => hq.1 e _ (dirichlet_poly (c := fun x => [bLo 0 + x]) hn (Or.inr h1) h2 hp h0 hS),
    fun e p hp h0 hS => hq.2 e _ (dirichlet_poly (c := fun x => [bHi 0 - x]) hn (Or.inr h1) h2 hp h0 hS)⟩

example : ∃ m', Cuda.setBc1d 0 7 exDx 1 ⟨0, 0⟩ 1 ⟨9, 0⟩ exLo exHi 2 0 0 3 5 (fun _ => revBackend) exRat = .ok m' ∧
    Continues exRat m' (F.cell1d ⟨9, 0⟩ 0 7 1) (fun x => [exLo 0 + x]) 3 2 2 Dirichlet := by
  obtain ⟨m', hm, hq⟩ := C41_1d (i0 := 0) (i1 := 7) (g := 1) (dg := 1) (d0 := ⟨0, 0⟩) (u := ⟨9, 0⟩) (m := exRat) (β := fun _ => revBackend) (dx := exDx) (exOrder := 2) (face := 0) (bLo := exLo) (bHi := exHi) (alpha := 3) (beta := 5) (n := 2) (w := 3) (fun _ => revBackend_ok) rfl (by decide) (by decide) (by decide) (by decide) (by decide) (by ex_seg) (by ex_seg) (by ex_seg) (by ex_args)
  exact ⟨m', hm, hq.1 rfl⟩

/-- `cd_correct_bc_1d_cuda::set_poisson_bc`, Dirichlet: the ghost values of order n continue every polynomial of degree at most n that is zero on the face. -/
theorem C41_poisson_1d [CharZero T] {i0 i1 g exOrder face : Int} {dx : Nat → T} { u : Ptr} {bLo bHi : Nat → Int} {alpha beta : T} {n : Nat} {w : T}
    {β : Nat → Backend} {m : Mem T} (hβ : ∀ n, ValidBackend (β n)) (hn : exOrder = n) (h1 : 1 ≤ n) (h2 : n ≤ 2)
    (hi : i0 ≤ i1) (hg : 0 ≤ g)
    (hs : ∀ n < 1, InInt (bLo n + 1) ∧ InInt (bHi n + 1))
    (hf0 : face = 0 → Reach i0 i1 g (bLo 0) 2)
    (hf1 : face = 1 → Reach i0 i1 g (bHi 0) (-2))
    (h : F.Args m [] [F.cell1d u i0 i1 g]) :
    ∃ m', Cuda.setPoissonBc1d i0 i1 dx g u bLo bHi exOrder face 0 alpha beta β m = .ok m' ∧
      (face = 0 → Continues m m' (F.cell1d u i0 i1 g) (fun x => [bLo 0 + x]) w n n Dirichlet) ∧
      (face = 1 → Continues m m' (F.cell1d u i0 i1 g) (fun x => [bHi 0 - x]) w n n Dirichlet) := by
  obtain ⟨m', hm, hq⟩ := ghosts_p1d (dx := dx) (exOrder := exOrder) (btype := 0) (alpha := alpha) (beta := beta) hβ hi hg hs hf0 hf1 h
  exact ⟨m', hm, fun e p hp h0 hS => hq.1 e _ (dirichlet_poly (c := fun x => [bLo 0 + x]) hn (Or.inr h1) h2 hp h0 hS),
    fun e p hp h0 hS => hq.2 e _ (dirichlet_poly (c := fun x => [bHi 0 - x]) hn (Or.inr h1) h2 hp h0 hS)⟩

example : ∃ m', Cuda.setPoissonBc1d 0 7 exDx 1 ⟨9, 0⟩ exLo exHi 2 0 0 3 5 (fun _ => revBackend) exRat = .ok m' ∧
    Continues exRat m' (F.cell1d ⟨9, 0⟩ 0 7 1) (fun x => [exLo 0 + x]) 3 2 2 Dirichlet := by
  obtain ⟨m', hm, hq⟩ := C41_poisson_1d (i0 := 0) (i1 := 7) (g := 1) (u := ⟨9, 0⟩) (m := exRat) (β := fun _ => revBackend) (dx := exDx) (exOrder := 2) (face := 0) (bLo := exLo) (bHi := exHi) (alpha := 3) (beta := 5) (n := 2) (w := 3) (fun _ => revBackend_ok) rfl (by decide) (by decide) (by decide) (by decide) (by ex_seg) (by ex_seg) (by ex_seg) (by ex_args)
  exact ⟨m', hm, hq.1 rfl⟩

/-- `cd_correct_bc_2d_cuda::set_bc`, Dirichlet: the ghost values of order n continue every polynomial of degree at most n that is zero on the face. -/
theorem C41_2d [CharZero T] {i0 j0 i1 j1 g dg exOrder face : Int} {dx : Nat → T} {d0 d1 u : Ptr} {bLo bHi : Nat → Int} {alpha beta : T} {n : Nat} {w : T}
    {β : Nat → Backend} {m : Mem T} (hβ : ∀ n, ValidBackend (β n)) (hn : exOrder = n) (h2 : n ≤ 2)
    (hi : i0 ≤ i1) (hj : j0 ≤ j1) (hg : 0 ≤ g) (hdg : 0 ≤ dg)
    (hs : ∀ n < 2, InInt (bLo n + 1) ∧ InInt (bHi n + 1))
    (hf0 : face = 0 → Reach i0 i1 g (bLo 0) 2 ∧ OnFaces i0 i1 dg (bLo 0 + 1) ∧ Meets j0 j1 (bLo 1) (bHi 1))
    (hf1 : face = 1 → Reach i0 i1 g (bHi 0) (-2) ∧ OnFaces i0 i1 dg (bHi 0) ∧ Meets j0 j1 (bLo 1) (bHi 1))
    (hf2 : face = 2 → Reach j0 j1 g (bLo 1) 2 ∧ OnFaces j0 j1 dg (bLo 1 + 1) ∧ Meets i0 i1 (bLo 0) (bHi 0))
    (hf3 : face = 3 → Reach j0 j1 g (bHi 1) (-2) ∧ OnFaces j0 j1 dg (bHi 1) ∧ Meets i0 i1 (bLo 0) (bHi 0))
    (h : F.Args m [F.face2d0 d0 i0 j0 i1 j1 dg, F.face2d1 d1 i0 j0 i1 j1 dg] [F.cell2d u i0 j0 i1 j1 g]) :
    ∃ m', Cuda.setBc2d i0 i1 j0 j1 dx dg d0 d1 g u bLo bHi exOrder face 1 0 alpha beta β m = .ok m' ∧
      (face = 0 → ∀ j, max j0 (bLo 1) ≤ j → j ≤ min j1 (bHi 1) → Continues m m' (F.cell2d u i0 j0 i1 j1 g) (fun x => [bLo 0 + x, j]) w n n Dirichlet) ∧
      (face = 1 → ∀ j, max j0 (bLo 1) ≤ j → j ≤ min j1 (bHi 1) → Continues m m' (F.cell2d u i0 j0 i1 j1 g) (fun x => [bHi 0 - x, j]) w n n Dirichlet) ∧
      (face = 2 → ∀ i, max i0 (bLo 0) ≤ i → i ≤ min i1 (bHi 0) → Continues m m' (F.cell2d u i0 j0 i1 j1 g) (fun x => [i, bLo 1 + x]) w n n Dirichlet) ∧
      (face = 3 → ∀ i, max i0 (bLo 0) ≤ i → i ≤ min i1 (bHi 0) → Continues m m' (F.cell2d u i0 j0 i1 j1 g) (fun x => [i, bHi 1 - x]) w n n Dirichlet) := by
  obtain ⟨m', hm, hq⟩ := ghosts_2d (dx := dx) (exOrder := exOrder) (btype := 0) (alpha := alpha) (beta := beta) hβ hi hj hg hdg hs hf0 hf1 hf2 hf3 h
  exact ⟨m', hm, fun e j ja jb p hp h0 hS => hq.1 e j ja jb _ (dirichlet_poly (c := fun x => [bLo 0 + x, j]) hn (Or.inl rfl) h2 hp h0 hS),
    fun e j ja jb p hp h0 hS => hq.2.1 e j ja jb _ (dirichlet_poly (c := fun x => [bHi 0 - x, j]) hn (Or.inl rfl) h2 hp h0 hS),
    fun e i ia ib p hp h0 hS => hq.2.2.1 e i ia ib _ (dirichlet_poly (c := fun x => [i, bLo 1 + x]) hn (Or.inl rfl) h2 hp h0 hS),
    fun e i ia ib p hp h0 hS => hq.2.2.2 e i ia ib _ (dirichlet_poly (c := fun x => [i, bHi 1 - x]) hn (Or.inl rfl) h2 hp h0 hS)⟩

example : ∃ m', Cuda.setBc2d 0 7 0 7 exDx 1 ⟨0, 0⟩ ⟨1, 0⟩ 1 ⟨9, 0⟩ exLo exHi 2 0 1 0 3 5 (fun _ => revBackend) exRat = .ok m' ∧
    Continues exRat m' (F.cell2d ⟨9, 0⟩ 0 0 7 7 1) (fun x => [exLo 0 + x, 1]) 3 2 2 Dirichlet := by
  obtain ⟨m', hm, hq⟩ := C41_2d (i0 := 0) (j0 := 0) (i1 := 7) (j1 := 7) (g := 1) (dg := 1) (d0 := ⟨0, 0⟩) (d1 := ⟨1, 0⟩) (u := ⟨9, 0⟩) (m := exRat) (β := fun _ => revBackend) (dx := exDx) (exOrder := 2) (face := 0) (bLo := exLo) (bHi := exHi) (alpha := 3) (beta := 5) (n := 2) (w := 3) (fun _ => revBackend_ok) rfl (by decide) (by decide) (by decide) (by decide) (by decide) (by ex_seg) (by ex_seg) (by ex_seg) (by ex_seg) (by ex_seg) (by ex_args)
  exact ⟨m', hm, hq.1 rfl 1 (by decide) (by decide)⟩

/-- `cd_correct_bc_2d_cuda::set_poisson_bc`, Dirichlet: the ghost values of order n continue every polynomial of degree at most n that is zero on the face. -/
theorem C41_poisson_2d [CharZero T] {i0 j0 i1 j1 g exOrder face : Int} {dx : Nat → T} { u : Ptr} {bLo bHi : Nat → Int} {alpha beta : T} {n : Nat} {w : T}
    {β : Nat → Backend} {m : Mem T} (hβ : ∀ n, ValidBackend (β n)) (hn : exOrder = n) (h1 : 1 ≤ n) (h2 : n ≤ 2)
    (hi : i0 ≤ i1) (hj : j0 ≤ j1) (hg : 0 ≤ g)
    (hs : ∀ n < 2, InInt (bLo n + 1) ∧ InInt (bHi n + 1))
    (hf0 : face = 0 → Reach i0 i1 g (bLo 0) 2 ∧ Meets j0 j1 (bLo 1) (bHi 1))
    (hf1 : face = 1 → Reach i0 i1 g (bHi 0) (-2) ∧ Meets j0 j1 (bLo 1) (bHi 1))
    (hf2 : face = 2 → Reach j0 j1 g (bLo 1) 2 ∧ Meets i0 i1 (bLo 0) (bHi 0))
    (hf3 : face = 3 → Reach j0 j1 g (bHi 1) (-2) ∧ Meets i0 i1 (bLo 0) (bHi 0))
    (h : F.Args m [] [F.cell2d u i0 j0 i1 j1 g]) :
    ∃ m', Cuda.setPoissonBc2d i0 i1 j0 j1 dx g u bLo bHi exOrder face 1 0 alpha beta β m = .ok m' ∧
      (face = 0 → ∀ j, max j0 (bLo 1) ≤ j → j ≤ min j1 (bHi 1) → Continues m m' (F.cell2d u i0 j0 i1 j1 g) (fun x => [bLo 0 + x, j]) w n n Dirichlet) ∧
      (face = 1 → ∀ j, max j0 (bLo 1) ≤ j → j ≤ min j1 (bHi 1) → Continues m m' (F.cell2d u i0 j0 i1 j1 g) (fun x => [bHi 0 - x, j]) w n n Dirichlet) ∧
      (face = 2 → ∀ i, max i0 (bLo 0) ≤ i → i ≤ min i1 (bHi 0) → Continues m m' (F.cell2d u i0 j0 i1 j1 g) (fun x => [i, bLo 1 + x]) w n n Dirichlet) ∧
      (face = 3 → ∀ i, max i0 (bLo 0) ≤ i → i ≤ min i1 (bHi 0) → Continues m m' (F.cell2d u i0 j0 i1 j1 g) (fun x => [i, bHi 1 - x]) w n n Dirichlet) := by
  obtain ⟨m', hm, hq⟩ := ghosts_p2d (dx := dx) (exOrder := exOrder) (btype := 0) (alpha := alpha) (beta := beta) hβ hi hj hg hs hf0 hf1 hf2 hf3 h
  exact ⟨m', hm, fun e j ja jb p hp h0 hS => hq.1 e j ja jb _ (dirichlet_poly (c := fun x => [bLo 0 + x, j]) hn (Or.inr h1) h2 hp h0 hS),
    fun e j ja jb p hp h0 hS => hq.2.1 e j ja jb _ (dirichlet_poly (c := fun x => [bHi 0 - x, j]) hn (Or.inr h1) h2 hp h0 hS),
    fun e i ia ib p hp h0 hS => hq.2.2.1 e (by decide) i ia ib _ (dirichlet_poly (c := fun x => [i, bLo 1 + x]) hn (Or.inr h1) h2 hp h0 hS),
    fun e i ia ib p hp h0 hS => hq.2.2.2 e (by decide) i ia ib _ (dirichlet_poly (c := fun x => [i, bHi 1 - x]) hn (Or.inr h1) h2 hp h0 hS)⟩

example : ∃ m', Cuda.setPoissonBc2d 0 7 0 7 exDx 1 ⟨9, 0⟩ exLo exHi 2 0 1 0 3 5 (fun _ => revBackend) exRat = .ok m' ∧
    Continues exRat m' (F.cell2d ⟨9, 0⟩ 0 0 7 7 1) (fun x => [exLo 0 + x, 1]) 3 2 2 Dirichlet := by
  obtain ⟨m', hm, hq⟩ := C41_poisson_2d (i0 := 0) (j0 := 0) (i1 := 7) (j1 := 7) (g := 1) (u := ⟨9, 0⟩) (m := exRat) (β := fun _ => revBackend) (dx := exDx) (exOrder := 2) (face := 0) (bLo := exLo) (bHi := exHi) (alpha := 3) (beta := 5) (n := 2) (w := 3) (fun _ => revBackend_ok) rfl (by decide) (by decide) (by decide) (by decide) (by decide) (by ex_seg) (by ex_seg) (by ex_seg) (by ex_seg) (by ex_seg) (by ex_args)
  exact ⟨m', hm, hq.1 rfl 1 (by decide) (by decide)⟩

/-- `cd_correct_bc_3d_cuda::set_bc`, Dirichlet: the ghost values of order n continue every polynomial of degree at most n that is zero on the face. -/
theorem C41_3d [CharZero T] {i0 j0 k0 i1 j1 k1 g dg exOrder face : Int} {dx : Nat → T} {d0 d1 d2 u : Ptr} {bLo bHi : Nat → Int} {alpha beta : T} {n : Nat} {w : T}
    {β : Nat → Backend} {m : Mem T} (hβ : ∀ n, ValidBackend (β n)) (hn : exOrder = n) (h1 : 1 ≤ n) (h2 : n ≤ 2)
    (hi : i0 ≤ i1) (hj : j0 ≤ j1) (hk : k0 ≤ k1) (hg : 0 ≤ g) (hdg : 0 ≤ dg)
    (hs : ∀ n < 3, InInt (bLo n + 1) ∧ InInt (bHi n + 1))
    (hf0 : face = 0 → Reach i0 i1 g (bLo 0) 2 ∧ OnFaces i0 i1 dg (bLo 0 + 1) ∧ Meets j0 j1 (bLo 1) (bHi 1) ∧ Meets k0 k1 (bLo 2) (bHi 2))
    (hf1 : face = 1 → Reach i0 i1 g (bHi 0) (-2) ∧ OnFaces i0 i1 dg (bHi 0) ∧ Meets j0 j1 (bLo 1) (bHi 1) ∧ Meets k0 k1 (bLo 2) (bHi 2))
    (hf2 : face = 2 → Reach j0 j1 g (bLo 1) 2 ∧ OnFaces j0 j1 dg (bLo 1 + 1) ∧ Meets i0 i1 (bLo 0) (bHi 0) ∧ Meets k0 k1 (bLo 2) (bHi 2))
    (hf3 : face = 3 → Reach j0 j1 g (bHi 1) (-2) ∧ OnFaces j0 j1 dg (bHi 1) ∧ Meets i0 i1 (bLo 0) (bHi 0) ∧ Meets k0 k1 (bLo 2) (bHi 2))
    (hf4 : face = 4 → Reach k0 k1 g (bLo 2) 2 ∧ OnFaces k0 k1 dg (bLo 2 + 1) ∧ Meets i0 i1 (bLo 0) (bHi 0) ∧ Meets j0 j1 (bLo 1) (bHi 1))
    (hf5 : face = 5 → Reach k0 k1 g (bHi 2) (-2) ∧ OnFaces k0 k1 dg (bHi 2) ∧ Meets i0 i1 (bLo 0) (bHi 0) ∧ Meets j0 j1 (bLo 1) (bHi 1))
    (h : F.Args m [F.face3d0 d0 i0 j0 k0 i1 j1 k1 dg, F.face3d1 d1 i0 j0 k0 i1 j1 k1 dg, F.face3d2 d2 i0 j0 k0 i1 j1 k1 dg] [F.cell3d u i0 j0 k0 i1 j1 k1 g]) :
    ∃ m', Cuda.setBc3d i0 i1 j0 j1 k0 k1 dx dg d0 d1 d2 g u bLo bHi exOrder face 1 0 alpha beta β m = .ok m' ∧
      (face = 0 → ∀ j, max j0 (bLo 1) ≤ j → j ≤ min j1 (bHi 1) → ∀ k, max k0 (bLo 2) ≤ k → k ≤ min k1 (bHi 2) → Continues m m' (F.cell3d u i0 j0 k0 i1 j1 k1 g) (fun x => [bLo 0 + x, j, k]) w n n Dirichlet) ∧
      (face = 1 → ∀ j, max j0 (bLo 1) ≤ j → j ≤ min j1 (bHi 1) → ∀ k, max k0 (bLo 2) ≤ k → k ≤ min k1 (bHi 2) → Continues m m' (F.cell3d u i0 j0 k0 i1 j1 k1 g) (fun x => [bHi 0 - x, j, k]) w n n Dirichlet) ∧
      (face = 2 → ∀ i, max i0 (bLo 0) ≤ i → i ≤ min i1 (bHi 0) → ∀ k, max k0 (bLo 2) ≤ k → k ≤ min k1 (bHi 2) → Continues m m' (F.cell3d u i0 j0 k0 i1 j1 k1 g) (fun x => [i, bLo 1 + x, k]) w n n Dirichlet) ∧
      (face = 3 → ∀ i, max i0 (bLo 0) ≤ i → i ≤ min i1 (bHi 0) → ∀ k, max k0 (bLo 2) ≤ k → k ≤ min k1 (bHi 2) → Continues m m' (F.cell3d u i0 j0 k0 i1 j1 k1 g) (fun x => [i, bHi 1 - x, k]) w n n Dirichlet) ∧
      (face = 4 → ∀ i, max i0 (bLo 0) ≤ i → i ≤ min i1 (bHi 0) → ∀ j, max j0 (bLo 1) ≤ j → j ≤ min j1 (bHi 1) → Continues m m' (F.cell3d u i0 j0 k0 i1 j1 k1 g) (fun x => [i, j, bLo 2 + x]) w n n Dirichlet) ∧
      (face = 5 → ∀ i, max i0 (bLo 0) ≤ i → i ≤ min i1 (bHi 0) → ∀ j, max j0 (bLo 1) ≤ j → j ≤ min j1 (bHi 1) → Continues m m' (F.cell3d u i0 j0 k0 i1 j1 k1 g) (fun x => [i, j, bHi 2 - x]) w n n Dirichlet) := by
  obtain ⟨m', hm, hq⟩ := ghosts_3d (dx := dx) (exOrder := exOrder) (btype := 0) (alpha := alpha) (beta := beta) hβ hi hj hk hg hdg hs hf0 hf1 hf2 hf3 hf4 hf5 h
  exact ⟨m', hm, fun e j ja jb k ka kb p hp h0 hS => hq.1 e j ja jb k ka kb _ (dirichlet_poly (c := fun x => [bLo 0 + x, j, k]) hn (Or.inr h1) h2 hp h0 hS),
    fun e j ja jb k ka kb p hp h0 hS => hq.2.1 e j ja jb k ka kb _ (dirichlet_poly (c := fun x => [bHi 0 - x, j, k]) hn (Or.inr h1) h2 hp h0 hS),
    fun e i ia ib k ka kb p hp h0 hS => hq.2.2.1 e i ia ib k ka kb _ (dirichlet_poly (c := fun x => [i, bLo 1 + x, k]) hn (Or.inr h1) h2 hp h0 hS),
    fun e i ia ib k ka kb p hp h0 hS => hq.2.2.2.1 e i ia ib k ka kb _ (dirichlet_poly (c := fun x => [i, bHi 1 - x, k]) hn (Or.inr h1) h2 hp h0 hS),
    fun e i ia ib j ja jb p hp h0 hS => hq.2.2.2.2.1 e i ia ib j ja jb _ (dirichlet_poly (c := fun x => [i, j, bLo 2 + x]) hn (Or.inr h1) h2 hp h0 hS),
    fun e i ia ib j ja jb p hp h0 hS => hq.2.2.2.2.2 e i ia ib j ja jb _ (dirichlet_poly (c := fun x => [i, j, bHi 2 - x]) hn (Or.inr h1) h2 hp h0 hS)⟩

example : ∃ m', Cuda.setBc3d 0 7 0 6 0 5 exDx 1 ⟨0, 0⟩ ⟨1, 0⟩ ⟨2, 0⟩ 1 ⟨9, 0⟩ exLo exHi 2 0 1 0 3 5 (fun _ => revBackend) exRat = .ok m' ∧
    Continues exRat m' (F.cell3d ⟨9, 0⟩ 0 0 0 7 6 5 1) (fun x => [exLo 0 + x, 1, 2]) 3 2 2 Dirichlet := by
  obtain ⟨m', hm, hq⟩ := C41_3d (i0 := 0) (j0 := 0) (k0 := 0) (i1 := 7) (j1 := 6) (k1 := 5) (g := 1) (dg := 1) (d0 := ⟨0, 0⟩) (d1 := ⟨1, 0⟩) (d2 := ⟨2, 0⟩) (u := ⟨9, 0⟩) (m := exRat) (β := fun _ => revBackend) (dx := exDx) (exOrder := 2) (face := 0) (bLo := exLo) (bHi := exHi) (alpha := 3) (beta := 5) (n := 2) (w := 3) (fun _ => revBackend_ok) rfl (by decide) (by decide) (by decide) (by decide) (by decide) (by decide) (by decide) (by ex_seg) (by ex_seg) (by ex_seg) (by ex_seg) (by ex_seg) (by ex_seg) (by ex_seg) (by ex_args)
  exact ⟨m', hm, hq.1 rfl 1 (by decide) (by decide) 2 (by decide) (by decide)⟩

/-- `cd_correct_bc_3d_cuda::set_poisson_bc`, Dirichlet: the ghost values of order n continue every polynomial of degree at most n that is zero on the face. -/
theorem C41_poisson_3d [CharZero T] {i0 j0 k0 i1 j1 k1 g exOrder face : Int} {dx : Nat → T} { u : Ptr} {bLo bHi : Nat → Int} {alpha beta : T} {n : Nat} {w : T}
    {β : Nat → Backend} {m : Mem T} (hβ : ∀ n, ValidBackend (β n)) (hn : exOrder = n) (h1 : 1 ≤ n) (h2 : n ≤ 2)
    (hi : i0 ≤ i1) (hj : j0 ≤ j1) (hk : k0 ≤ k1) (hg : 0 ≤ g)
    (hs : ∀ n < 3, InInt (bLo n + 1) ∧ InInt (bHi n + 1))
    (hf0 : face = 0 → Reach i0 i1 g (bLo 0) 2 ∧ Meets j0 j1 (bLo 1) (bHi 1) ∧ Meets k0 k1 (bLo 2) (bHi 2))
    (hf1 : face = 1 → Reach i0 i1 g (bHi 0) (-2) ∧ Meets j0 j1 (bLo 1) (bHi 1) ∧ Meets k0 k1 (bLo 2) (bHi 2))
    (hf2 : face = 2 → Reach j0 j1 g (bLo 1) 2 ∧ Meets i0 i1 (bLo 0) (bHi 0) ∧ Meets k0 k1 (bLo 2) (bHi 2))
    (hf3 : face = 3 → Reach j0 j1 g (bHi 1) (-2) ∧ Meets i0 i1 (bLo 0) (bHi 0) ∧ Meets k0 k1 (bLo 2) (bHi 2))
    (hf4 : face = 4 → Reach k0 k1 g (bLo 2) 2 ∧ Meets i0 i1 (bLo 0) (bHi 0) ∧ Meets j0 j1 (bLo 1) (bHi 1))
    (hf5 : face = 5 → Reach k0 k1 g (bHi 2) (-2) ∧ Meets i0 i1 (bLo 0) (bHi 0) ∧ Meets j0 j1 (bLo 1) (bHi 1))
    (h : F.Args m [] [F.cell3d u i0 j0 k0 i1 j1 k1 g]) :
    ∃ m', Cuda.setPoissonBc3d i0 i1 j0 j1 k0 k1 dx g u bLo bHi exOrder face 1 0 alpha beta β m = .ok m' ∧
      (face = 0 → ∀ j, max j0 (bLo 1) ≤ j → j ≤ min j1 (bHi 1) → ∀ k, max k0 (bLo 2) ≤ k → k ≤ min k1 (bHi 2) → Continues m m' (F.cell3d u i0 j0 k0 i1 j1 k1 g) (fun x => [bLo 0 + x, j, k]) w n n Dirichlet) ∧
      (face = 1 → ∀ j, max j0 (bLo 1) ≤ j → j ≤ min j1 (bHi 1) → ∀ k, max k0 (bLo 2) ≤ k → k ≤ min k1 (bHi 2) → Continues m m' (F.cell3d u i0 j0 k0 i1 j1 k1 g) (fun x => [bHi 0 - x, j, k]) w n n Dirichlet) ∧
      (face = 2 → ∀ i, max i0 (bLo 0) ≤ i → i ≤ min i1 (bHi 0) → ∀ k, max k0 (bLo 2) ≤ k → k ≤ min k1 (bHi 2) → Continues m m' (F.cell3d u i0 j0 k0 i1 j1 k1 g) (fun x => [i, bLo 1 + x, k]) w n n Dirichlet) ∧
      (face = 3 → ∀ i, max i0 (bLo 0) ≤ i → i ≤ min i1 (bHi 0) → ∀ k, max k0 (bLo 2) ≤ k → k ≤ min k1 (bHi 2) → Continues m m' (F.cell3d u i0 j0 k0 i1 j1 k1 g) (fun x => [i, bHi 1 - x, k]) w n n Dirichlet) ∧
      (face = 4 → ∀ i, max i0 (bLo 0) ≤ i → i ≤ min i1 (bHi 0) → ∀ j, max j0 (bLo 1) ≤ j → j ≤ min j1 (bHi 1) → Continues m m' (F.cell3d u i0 j0 k0 i1 j1 k1 g) (fun x => [i, j, bLo 2 + x]) w n n Dirichlet) ∧
      (face = 5 → ∀ i, max i0 (bLo 0) ≤ i → i ≤ min i1 (bHi 0) → ∀ j, max j0 (bLo 1) ≤ j → j ≤ min j1 (bHi 1) → Continues m m' (F.cell3d u i0 j0 k0 i1 j1 k1 g) (fun x => [i, j, bHi 2 - x]) w n n Dirichlet) := by
  obtain ⟨m', hm, hq⟩ := ghosts_p3d (dx := dx) (exOrder := exOrder) (btype := 0) (alpha := alpha) (beta := beta) hβ hi hj hk hg hs hf0 hf1 hf2 hf3 hf4 hf5 h
  exact ⟨m', hm, fun e j ja jb k ka kb p hp h0 hS => hq.1 e j ja jb k ka kb _ (dirichlet_poly (c := fun x => [bLo 0 + x, j, k]) hn (Or.inr h1) h2 hp h0 hS),
    fun e j ja jb k ka kb p hp h0 hS => hq.2.1 e j ja jb k ka kb _ (dirichlet_poly (c := fun x => [bHi 0 - x, j, k]) hn (Or.inr h1) h2 hp h0 hS),
    fun e i ia ib k ka kb p hp h0 hS => hq.2.2.1 e i ia ib k ka kb _ (dirichlet_poly (c := fun x => [i, bLo 1 + x, k]) hn (Or.inr h1) h2 hp h0 hS),
    fun e i ia ib k ka kb p hp h0 hS => hq.2.2.2.1 e i ia ib k ka kb _ (dirichlet_poly (c := fun x => [i, bHi 1 - x, k]) hn (Or.inr h1) h2 hp h0 hS),
    fun e i ia ib j ja jb p hp h0 hS => hq.2.2.2.2.1 e i ia ib j ja jb _ (dirichlet_poly (c := fun x => [i, j, bLo 2 + x]) hn (Or.inr h1) h2 hp h0 hS),
    fun e i ia ib j ja jb p hp h0 hS => hq.2.2.2.2.2 e i ia ib j ja jb _ (dirichlet_poly (c := fun x => [i, j, bHi 2 - x]) hn (Or.inr h1) h2 hp h0 hS)⟩

example : ∃ m', Cuda.setPoissonBc3d 0 7 0 6 0 5 exDx 1 ⟨9, 0⟩ exLo exHi 2 0 1 0 3 5 (fun _ => revBackend) exRat = .ok m' ∧
    Continues exRat m' (F.cell3d ⟨9, 0⟩ 0 0 0 7 6 5 1) (fun x => [exLo 0 + x, 1, 2]) 3 2 2 Dirichlet := by
  obtain ⟨m', hm, hq⟩ := C41_poisson_3d (i0 := 0) (j0 := 0) (k0 := 0) (i1 := 7) (j1 := 6) (k1 := 5) (g := 1) (u := ⟨9, 0⟩) (m := exRat) (β := fun _ => revBackend) (dx := exDx) (exOrder := 2) (face := 0) (bLo := exLo) (bHi := exHi) (alpha := 3) (beta := 5) (n := 2) (w := 3) (fun _ => revBackend_ok) rfl (by decide) (by decide) (by decide) (by decide) (by decide) (by decide) (by ex_seg) (by ex_seg) (by ex_seg) (by ex_seg) (by ex_seg) (by ex_seg) (by ex_seg) (by ex_args)
  exact ⟨m', hm, hq.1 rfl 1 (by decide) (by decide) 2 (by decide) (by decide)⟩

/-- `cd_correct_bc_1d_cuda::set_bc`, Neumann: the ghost values continue every polynomial of degree at most 2 without slope on the face. -/
theorem C46_neumann_1d [CharZero T] {i0 i1 g dg exOrder face : Int} {dx : Nat → T} {d0 u : Ptr} {bLo bHi : Nat → Int} {alpha beta : T} {w : T}
    {β : Nat → Backend} {m : Mem T} (hβ : ∀ n, ValidBackend (β n))
    (hi : i0 ≤ i1) (hg : 0 ≤ g) (hdg : 0 ≤ dg)
    (hs : ∀ n < 1, InInt (bLo n + 1) ∧ InInt (bHi n + 1))
    (hf0 : face = 0 → Reach i0 i1 g (bLo 0) 2 ∧ OnFaces i0 i1 dg (bLo 0 + 1))
    (hf1 : face = 1 → Reach i0 i1 g (bHi 0) (-2) ∧ OnFaces i0 i1 dg (bHi 0))
    (h : F.Args m [F.face1d d0 i0 i1 dg] [F.cell1d u i0 i1 g]) :
    ∃ m', Cuda.setBc1d i0 i1 dx dg d0 g u bLo bHi exOrder face 1 alpha beta β m = .ok m' ∧
      (face = 0 → Continues m m' (F.cell1d u i0 i1 g) (fun x => [bLo 0 + x]) w 1 2 Neumann) ∧
      (face = 1 → Continues m m' (F.cell1d u i0 i1 g) (fun x => [bHi 0 - x]) w 1 2 Neumann) := by
  obtain ⟨m', hm, hq⟩ := ghosts_1d (dx := dx) (exOrder := exOrder) (btype := 1) (alpha := alpha) (beta := beta) hβ hi hg hdg hs hf0 hf1 h
  exact ⟨m', hm, fun e p hp h0 hS => hq.1 e _ (neumann_poly (c := fun x => [bLo 0 + x]) hp h0 hS),
    fun e p hp h0 hS => hq.2 e _ (neumann_poly (c := fun x => [bHi 0 - x]) hp h0 hS)⟩

example : ∃ m', Cuda.setBc1d 0 7 exDx 1 ⟨0, 0⟩ 1 ⟨9, 0⟩ exLo exHi 2 0 1 3 5 (fun _ => revBackend) exRat = .ok m' ∧
    Continues exRat m' (F.cell1d ⟨9, 0⟩ 0 7 1) (fun x => [exLo 0 + x]) 3 1 2 Neumann := by
  obtain ⟨m', hm, hq⟩ := C46_neumann_1d (i0 := 0) (i1 := 7) (g := 1) (dg := 1) (d0 := ⟨0, 0⟩) (u := ⟨9, 0⟩) (m := exRat) (β := fun _ => revBackend) (dx := exDx) (exOrder := 2) (face := 0) (bLo := exLo) (bHi := exHi) (alpha := 3) (beta := 5) (w := 3) (fun _ => revBackend_ok) (by decide) (by decide) (by decide) (by ex_seg) (by ex_seg) (by ex_seg) (by ex_args)
  exact ⟨m', hm, hq.1 rfl⟩

/-- `cd_correct_bc_1d_cuda::set_poisson_bc`, Neumann: the ghost values continue every polynomial of degree at most 2 without slope on the face. -/
theorem C46_neumann_poisson_1d [CharZero T] {i0 i1 g exOrder face : Int} {dx : Nat → T} { u : Ptr} {bLo bHi : Nat → Int} {alpha beta : T} {w : T}
    {β : Nat → Backend} {m : Mem T} (hβ : ∀ n, ValidBackend (β n))
    (hi : i0 ≤ i1) (hg : 0 ≤ g)
    (hs : ∀ n < 1, InInt (bLo n + 1) ∧ InInt (bHi n + 1))
    (hf0 : face = 0 → Reach i0 i1 g (bLo 0) 2)
    (hf1 : face = 1 → Reach i0 i1 g (bHi 0) (-2))
    (h : F.Args m [] [F.cell1d u i0 i1 g]) :
    ∃ m', Cuda.setPoissonBc1d i0 i1 dx g u bLo bHi exOrder face 1 alpha beta β m = .ok m' ∧
      (face = 0 → Continues m m' (F.cell1d u i0 i1 g) (fun x => [bLo 0 + x]) w 1 2 Neumann) ∧
      (face = 1 → Continues m m' (F.cell1d u i0 i1 g) (fun x => [bHi 0 - x]) w 1 2 Neumann) := by
  obtain ⟨m', hm, hq⟩ := ghosts_p1d (dx := dx) (exOrder := exOrder) (btype := 1) (alpha := alpha) (beta := beta) hβ hi hg hs hf0 hf1 h
  exact ⟨m', hm, fun e p hp h0 hS => hq.1 e _ (neumann_poly (c := fun x => [bLo 0 + x]) hp h0 hS),
    fun e p hp h0 hS => hq.2 e _ (neumann_poly (c := fun x => [bHi 0 - x]) hp h0 hS)⟩

example : ∃ m', Cuda.setPoissonBc1d 0 7 exDx 1 ⟨9, 0⟩ exLo exHi 2 0 1 3 5 (fun _ => revBackend) exRat = .ok m' ∧
    Continues exRat m' (F.cell1d ⟨9, 0⟩ 0 7 1) (fun x => [exLo 0 + x]) 3 1 2 Neumann := by
  obtain ⟨m', hm, hq⟩ := C46_neumann_poisson_1d (i0 := 0) (i1 := 7) (g := 1) (u := ⟨9, 0⟩) (m := exRat) (β := fun _ => revBackend) (dx := exDx) (exOrder := 2) (face := 0) (bLo := exLo) (bHi := exHi) (alpha := 3) (beta := 5) (w := 3) (fun _ => revBackend_ok) (by decide) (by decide) (by ex_seg) (by ex_seg) (by ex_seg) (by ex_args)
  exact ⟨m', hm, hq.1 rfl⟩

/-- `cd_correct_bc_2d_cuda::set_bc`, Neumann: the ghost values continue every polynomial of degree at most 2 without slope on the face. -/
theorem C46_neumann_2d [CharZero T] {i0 j0 i1 j1 g dg exOrder face : Int} {dx : Nat → T} {d0 d1 u : Ptr} {bLo bHi : Nat → Int} {alpha beta : T} {w : T}
    {β : Nat → Backend} {m : Mem T} (hβ : ∀ n, ValidBackend (β n))
    (hi : i0 ≤ i1) (hj : j0 ≤ j1) (hg : 0 ≤ g) (hdg : 0 ≤ dg)
    (hs : ∀ n < 2, InInt (bLo n + 1) ∧ InInt (bHi n + 1))
    (hf0 : face = 0 → Reach i0 i1 g (bLo 0) 2 ∧ OnFaces i0 i1 dg (bLo 0 + 1) ∧ Meets j0 j1 (bLo 1) (bHi 1))
    (hf1 : face = 1 → Reach i0 i1 g (bHi 0) (-2) ∧ OnFaces i0 i1 dg (bHi 0) ∧ Meets j0 j1 (bLo 1) (bHi 1))
    (hf2 : face = 2 → Reach j0 j1 g (bLo 1) 2 ∧ OnFaces j0 j1 dg (bLo 1 + 1) ∧ Meets i0 i1 (bLo 0) (bHi 0))
    (hf3 : face = 3 → Reach j0 j1 g (bHi 1) (-2) ∧ OnFaces j0 j1 dg (bHi 1) ∧ Meets i0 i1 (bLo 0) (bHi 0))
    (h : F.Args m [F.face2d0 d0 i0 j0 i1 j1 dg, F.face2d1 d1 i0 j0 i1 j1 dg] [F.cell2d u i0 j0 i1 j1 g]) :
    ∃ m', Cuda.setBc2d i0 i1 j0 j1 dx dg d0 d1 g u bLo bHi exOrder face 1 1 alpha beta β m = .ok m' ∧
      (face = 0 → ∀ j, max j0 (bLo 1) ≤ j → j ≤ min j1 (bHi 1) → Continues m m' (F.cell2d u i0 j0 i1 j1 g) (fun x => [bLo 0 + x, j]) w 1 2 Neumann) ∧
      (face = 1 → ∀ j, max j0 (bLo 1) ≤ j → j ≤ min j1 (bHi 1) → Continues m m' (F.cell2d u i0 j0 i1 j1 g) (fun x => [bHi 0 - x, j]) w 1 2 Neumann) ∧
      (face = 2 → ∀ i, max i0 (bLo 0) ≤ i → i ≤ min i1 (bHi 0) → Continues m m' (F.cell2d u i0 j0 i1 j1 g) (fun x => [i, bLo 1 + x]) w 1 2 Neumann) ∧
      (face = 3 → ∀ i, max i0 (bLo 0) ≤ i → i ≤ min i1 (bHi 0) → Continues m m' (F.cell2d u i0 j0 i1 j1 g) (fun x => [i, bHi 1 - x]) w 1 2 Neumann) := by
  obtain ⟨m', hm, hq⟩ := ghosts_2d (dx := dx) (exOrder := exOrder) (btype := 1) (alpha := alpha) (beta := beta) hβ hi hj hg hdg hs hf0 hf1 hf2 hf3 h
  exact ⟨m', hm, fun e j ja jb p hp h0 hS => hq.1 e j ja jb _ (neumann_poly (c := fun x => [bLo 0 + x, j]) hp h0 hS),
    fun e j ja jb p hp h0 hS => hq.2.1 e j ja jb _ (neumann_poly (c := fun x => [bHi 0 - x, j]) hp h0 hS),
    fun e i ia ib p hp h0 hS => hq.2.2.1 e i ia ib _ (neumann_poly (c := fun x => [i, bLo 1 + x]) hp h0 hS),
    fun e i ia ib p hp h0 hS => hq.2.2.2 e i ia ib _ (neumann_poly (c := fun x => [i, bHi 1 - x]) hp h0 hS)⟩

example : ∃ m', Cuda.setBc2d 0 7 0 7 exDx 1 ⟨0, 0⟩ ⟨1, 0⟩ 1 ⟨9, 0⟩ exLo exHi 2 0 1 1 3 5 (fun _ => revBackend) exRat = .ok m' ∧
    Continues exRat m' (F.cell2d ⟨9, 0⟩ 0 0 7 7 1) (fun x => [exLo 0 + x, 1]) 3 1 2 Neumann := by
  obtain ⟨m', hm, hq⟩ := C46_neumann_2d (i0 := 0) (j0 := 0) (i1 := 7) (j1 := 7) (g := 1) (dg := 1) (d0 := ⟨0, 0⟩) (d1 := ⟨1, 0⟩) (u := ⟨9, 0⟩) (m := exRat) (β := fun _ => revBackend) (dx := exDx) (exOrder := 2) (face := 0) (bLo := exLo) (bHi := exHi) (alpha := 3) (beta := 5) (w := 3) (fun _ => revBackend_ok) (by decide) (by decide) (by decide) (by decide) (by ex_seg) (by ex_seg) (by ex_seg) (by ex_seg) (by ex_seg) (by ex_args)
  exact ⟨m', hm, hq.1 rfl 1 (by decide) (by decide)⟩

/-- `cd_correct_bc_2d_cuda::set_poisson_bc`, Neumann: the ghost values continue every polynomial of degree at most 2 without slope on the face. -/
theorem C46_neumann_poisson_2d [CharZero T] {i0 j0 i1 j1 g exOrder face : Int} {dx : Nat → T} { u : Ptr} {bLo bHi : Nat → Int} {alpha beta : T} {w : T}
    {β : Nat → Backend} {m : Mem T} (hβ : ∀ n, ValidBackend (β n))
    (hi : i0 ≤ i1) (hj : j0 ≤ j1) (hg : 0 ≤ g)
    (hs : ∀ n < 2, InInt (bLo n + 1) ∧ InInt (bHi n + 1))
    (hf0 : face = 0 → Reach i0 i1 g (bLo 0) 2 ∧ Meets j0 j1 (bLo 1) (bHi 1))
    (hf1 : face = 1 → Reach i0 i1 g (bHi 0) (-2) ∧ Meets j0 j1 (bLo 1) (bHi 1))
    (hf2 : face = 2 → Reach j0 j1 g (bLo 1) 2 ∧ Meets i0 i1 (bLo 0) (bHi 0))
    (hf3 : face = 3 → Reach j0 j1 g (bHi 1) (-2) ∧ Meets i0 i1 (bLo 0) (bHi 0))
    (h : F.Args m [] [F.cell2d u i0 j0 i1 j1 g]) :
    ∃ m', Cuda.setPoissonBc2d i0 i1 j0 j1 dx g u bLo bHi exOrder face 1 1 alpha beta β m = .ok m' ∧
      (face = 0 → ∀ j, max j0 (bLo 1) ≤ j → j ≤ min j1 (bHi 1) → Continues m m' (F.cell2d u i0 j0 i1 j1 g) (fun x => [bLo 0 + x, j]) w 1 2 Neumann) ∧
      (face = 1 → ∀ j, max j0 (bLo 1) ≤ j → j ≤ min j1 (bHi 1) → Continues m m' (F.cell2d u i0 j0 i1 j1 g) (fun x => [bHi 0 - x, j]) w 1 2 Neumann) ∧
      (face = 2 → ∀ i, max i0 (bLo 0) ≤ i → i ≤ min i1 (bHi 0) → Continues m m' (F.cell2d u i0 j0 i1 j1 g) (fun x => [i, bLo 1 + x]) w 1 2 Neumann) ∧
      (face = 3 → ∀ i, max i0 (bLo 0) ≤ i → i ≤ min i1 (bHi 0) → Continues m m' (F.cell2d u i0 j0 i1 j1 g) (fun x => [i, bHi 1 - x]) w 1 2 Neumann) := by
  obtain ⟨m', hm, hq⟩ := ghosts_p2d (dx := dx) (exOrder := exOrder) (btype := 1) (alpha := alpha) (beta := beta) hβ hi hj hg hs hf0 hf1 hf2 hf3 h
  exact ⟨m', hm, fun e j ja jb p hp h0 hS => hq.1 e j ja jb _ (neumann_poly (c := fun x => [bLo 0 + x, j]) hp h0 hS),
    fun e j ja jb p hp h0 hS => hq.2.1 e j ja jb _ (neumann_poly (c := fun x => [bHi 0 - x, j]) hp h0 hS),
    fun e i ia ib p hp h0 hS => hq.2.2.1 e (by decide) i ia ib _ (neumann_poly (c := fun x => [i, bLo 1 + x]) hp h0 hS),
    fun e i ia ib p hp h0 hS => hq.2.2.2 e (by decide) i ia ib _ (neumann_poly (c := fun x => [i, bHi 1 - x]) hp h0 hS)⟩

example : ∃ m', Cuda.setPoissonBc2d 0 7 0 7 exDx 1 ⟨9, 0⟩ exLo exHi 2 0 1 1 3 5 (fun _ => revBackend) exRat = .ok m' ∧
    Continues exRat m' (F.cell2d ⟨9, 0⟩ 0 0 7 7 1) (fun x => [exLo 0 + x, 1]) 3 1 2 Neumann := by
  obtain ⟨m', hm, hq⟩ := C46_neumann_poisson_2d (i0 := 0) (j0 := 0) (i1 := 7) (j1 := 7) (g := 1) (u := ⟨9, 0⟩) (m := exRat) (β := fun _ => revBackend) (dx := exDx) (exOrder := 2) (face := 0) (bLo := exLo) (bHi := exHi) (alpha := 3) (beta := 5) (w := 3) (fun _ => revBackend_ok) (by decide) (by decide) (by decide) (by ex_seg) (by ex_seg) (by ex_seg) (by ex_seg) (by ex_seg) (by ex_args)
  exact ⟨m', hm, hq.1 rfl 1 (by decide) (by decide)⟩

/-- `cd_correct_bc_3d_cuda::set_bc`, Neumann: the ghost values continue every polynomial of degree at most 2 without slope on the face. -/
theorem C46_neumann_3d [CharZero T] {i0 j0 k0 i1 j1 k1 g dg exOrder face : Int} {dx : Nat → T} {d0 d1 d2 u : Ptr} {bLo bHi : Nat → Int} {alpha beta : T} {w : T}
    {β : Nat → Backend} {m : Mem T} (hβ : ∀ n, ValidBackend (β n))
    (hi : i0 ≤ i1) (hj : j0 ≤ j1) (hk : k0 ≤ k1) (hg : 0 ≤ g) (hdg : 0 ≤ dg)
    (hs : ∀ n < 3, InInt (bLo n + 1) ∧ InInt (bHi n + 1))
    (hf0 : face = 0 → Reach i0 i1 g (bLo 0) 2 ∧ OnFaces i0 i1 dg (bLo 0 + 1) ∧ Meets j0 j1 (bLo 1) (bHi 1) ∧ Meets k0 k1 (bLo 2) (bHi 2))
    (hf1 : face = 1 → Reach i0 i1 g (bHi 0) (-2) ∧ OnFaces i0 i1 dg (bHi 0) ∧ Meets j0 j1 (bLo 1) (bHi 1) ∧ Meets k0 k1 (bLo 2) (bHi 2))
    (hf2 : face = 2 → Reach j0 j1 g (bLo 1) 2 ∧ OnFaces j0 j1 dg (bLo 1 + 1) ∧ Meets i0 i1 (bLo 0) (bHi 0) ∧ Meets k0 k1 (bLo 2) (bHi 2))
    (hf3 : face = 3 → Reach j0 j1 g (bHi 1) (-2) ∧ OnFaces j0 j1 dg (bHi 1) ∧ Meets i0 i1 (bLo 0) (bHi 0) ∧ Meets k0 k1 (bLo 2) (bHi 2))
    (hf4 : face = 4 → Reach k0 k1 g (bLo 2) 2 ∧ OnFaces k0 k1 dg (bLo 2 + 1) ∧ Meets i0 i1 (bLo 0) (bHi 0) ∧ Meets j0 j1 (bLo 1) (bHi 1))
    (hf5 : face = 5 → Reach k0 k1 g (bHi 2) (-2) ∧ OnFaces k0 k1 dg (bHi 2) ∧ Meets i0 i1 (bLo 0) (bHi 0) ∧ Meets j0 j1 (bLo 1) (bHi 1))
    (h : F.Args m [F.face3d0 d0 i0 j0 k0 i1 j1 k1 dg, F.face3d1 d1 i0 j0 k0 i1 j1 k1 dg, F.face3d2 d2 i0 j0 k0 i1 j1 k1 dg] [F.cell3d u i0 j0 k0 i1 j1 k1 g]) :
    ∃ m', Cuda.setBc3d i0 i1 j0 j1 k0 k1 dx dg d0 d1 d2 g u bLo bHi exOrder face 1 1 alpha beta β m = .ok m' ∧
      (face = 0 → ∀ j, max j0 (bLo 1) ≤ j → j ≤ min j1 (bHi 1) → ∀ k, max k0 (bLo 2) ≤ k → k ≤ min k1 (bHi 2) → Continues m m' (F.cell3d u i0 j0 k0 i1 j1 k1 g) (fun x => [bLo 0 + x, j, k]) w 1 2 Neumann) ∧
      (face = 1 → ∀ j, max j0 (bLo 1) ≤ j → j ≤ min j1 (bHi 1) → ∀ k, max k0 (bLo 2) ≤ k → k ≤ min k1 (bHi 2) → Continues m m' (F.cell3d u i0 j0 k0 i1 j1 k1 g) (fun x => [bHi 0 - x, j, k]) w 1 2 Neumann) ∧
      (face = 2 → ∀ i, max i0 (bLo 0) ≤ i → i ≤ min i1 (bHi 0) → ∀ k, max k0 (bLo 2) ≤ k → k ≤ min k1 (bHi 2) → Continues m m' (F.cell3d u i0 j0 k0 i1 j1 k1 g) (fun x => [i, bLo 1 + x, k]) w 1 2 Neumann) ∧
      (face = 3 → ∀ i, max i0 (bLo 0) ≤ i → i ≤ min i1 (bHi 0) → ∀ k, max k0 (bLo 2) ≤ k → k ≤ min k1 (bHi 2) → Continues m m' (F.cell3d u i0 j0 k0 i1 j1 k1 g) (fun x => [i, bHi 1 - x, k]) w 1 2 Neumann) ∧
      (face = 4 → ∀ i, max i0 (bLo 0) ≤ i → i ≤ min i1 (bHi 0) → ∀ j, max j0 (bLo 1) ≤ j → j ≤ min j1 (bHi 1) → Continues m m' (F.cell3d u i0 j0 k0 i1 j1 k1 g) (fun x => [i, j, bLo 2 + x]) w 1 2 Neumann) ∧
      (face = 5 → ∀ i, max i0 (bLo 0) ≤ i → i ≤ min i1 (bHi 0) → ∀ j, max j0 (bLo 1) ≤ j → j ≤ min j1 (bHi 1) → Continues m m' (F.cell3d u i0 j0 k0 i1 j1 k1 g) (fun x => [i, j, bHi 2 - x]) w 1 2 Neumann) := by
  obtain ⟨m', hm, hq⟩ := ghosts_3d (dx := dx) (exOrder := exOrder) (btype := 1) (alpha := alpha) (beta := beta) hβ hi hj hk hg hdg hs hf0 hf1 hf2 hf3 hf4 hf5 h
  exact ⟨m', hm, fun e j ja jb k ka kb p hp h0 hS => hq.1 e j ja jb k ka kb _ (neumann_poly (c := fun x => [bLo 0 + x, j, k]) hp h0 hS),
    fun e j ja jb k ka kb p hp h0 hS => hq.2.1 e j ja jb k ka kb _ (neumann_poly (c := fun x => [bHi 0 - x, j, k]) hp h0 hS),
    fun e i ia ib k ka kb p hp h0 hS => hq.2.2.1 e i ia ib k ka kb _ (neumann_poly (c := fun x => [i, bLo 1 + x, k]) hp h0 hS),
    fun e i ia ib k ka kb p hp h0 hS => hq.2.2.2.1 e i ia ib k ka kb _ (neumann_poly (c := fun x => [i, bHi 1 - x, k]) hp h0 hS),
    fun e i ia ib j ja jb p hp h0 hS => hq.2.2.2.2.1 e i ia ib j ja jb _ (neumann_poly (c := fun x => [i, j, bLo 2 + x]) hp h0 hS),
    fun e i ia ib j ja jb p hp h0 hS => hq.2.2.2.2.2 e i ia ib j ja jb _ (neumann_poly (c := fun x => [i, j, bHi 2 - x]) hp h0 hS)⟩

example : ∃ m', Cuda.setBc3d 0 7 0 6 0 5 exDx 1 ⟨0, 0⟩ ⟨1, 0⟩ ⟨2, 0⟩ 1 ⟨9, 0⟩ exLo exHi 2 0 1 1 3 5 (fun _ => revBackend) exRat = .ok m' ∧
    Continues exRat m' (F.cell3d ⟨9, 0⟩ 0 0 0 7 6 5 1) (fun x => [exLo 0 + x, 1, 2]) 3 1 2 Neumann := by
  obtain ⟨m', hm, hq⟩ := C46_neumann_3d (i0 := 0) (j0 := 0) (k0 := 0) (i1 := 7) (j1 := 6) (k1 := 5) (g := 1) (dg := 1) (d0 := ⟨0, 0⟩) (d1 := ⟨1, 0⟩) (d2 := ⟨2, 0⟩) (u := ⟨9, 0⟩) (m := exRat) (β := fun _ => revBackend) (dx := exDx) (exOrder := 2) (face := 0) (bLo := exLo) (bHi := exHi) (alpha := 3) (beta := 5) (w := 3) (fun _ => revBackend_ok) (by decide) (by decide) (by decide) (by decide) (by decide) (by ex_seg) (by ex_seg) (by ex_seg) (by ex_seg) (by ex_seg) (by ex_seg) (by ex_seg) (by ex_args)
  exact ⟨m', hm, hq.1 rfl 1 (by decide) (by decide) 2 (by decide) (by decide)⟩

/-- `cd_correct_bc_3d_cuda::set_poisson_bc`, Neumann: the ghost values continue every polynomial of degree at most 2 without slope on the face. -/
theorem C46_neumann_poisson_3d [CharZero T] {i0 j0 k0 i1 j1 k1 g exOrder face : Int} {dx : Nat → T} { u : Ptr} {bLo bHi : Nat → Int} {alpha beta : T} {w : T}
    {β : Nat → Backend} {m : Mem T} (hβ : ∀ n, ValidBackend (β n))
    (hi : i0 ≤ i1) (hj : j0 ≤ j1) (hk : k0 ≤ k1) (hg : 0 ≤ g)
    (hs : ∀ n < 3, InInt (bLo n + 1) ∧ InInt (bHi n + 1))
    (hf0 : face = 0 → Reach i0 i1 g (bLo 0) 2 ∧ Meets j0 j1 (bLo 1) (bHi 1) ∧ Meets k0 k1 (bLo 2) (bHi 2))
    (hf1 : face = 1 → Reach i0 i1 g (bHi 0) (-2) ∧ Meets j0 j1 (bLo 1) (bHi 1) ∧ Meets k0 k1 (bLo 2) (bHi 2))
    (hf2 : face = 2 → Reach j0 j1 g (bLo 1) 2 ∧ Meets i0 i1 (bLo 0) (bHi 0) ∧ Meets k0 k1 (bLo 2) (bHi 2))
    (hf3 : face = 3 → Reach j0 j1 g (bHi 1) (-2) ∧ Meets i0 i1 (bLo 0) (bHi 0) ∧ Meets k0 k1 (bLo 2) (bHi 2))
    (hf4 : face = 4 → Reach k0 k1 g (bLo 2) 2 ∧ Meets i0 i1 (bLo 0) (bHi 0) ∧ Meets j0 j1 (bLo 1) (bHi 1))
    (hf5 : face = 5 → Reach k0 k1 g (bHi 2) (-2) ∧ Meets i0 i1 (bLo 0) (bHi 0) ∧ Meets j0 j1 (bLo 1) (bHi 1))
    (h : F.Args m [] [F.cell3d u i0 j0 k0 i1 j1 k1 g]) :
    ∃ m', Cuda.setPoissonBc3d i0 i1 j0 j1 k0 k1 dx g u bLo bHi exOrder face 1 1 alpha beta β m = .ok m' ∧
      (face = 0 → ∀ j, max j0 (bLo 1) ≤ j → j ≤ min j1 (bHi 1) → ∀ k, max k0 (bLo 2) ≤ k → k ≤ min k1 (bHi 2) → Continues m m' (F.cell3d u i0 j0 k0 i1 j1 k1 g) (fun x => [bLo 0 + x, j, k]) w 1 2 Neumann) ∧
      (face = 1 → ∀ j, max j0 (bLo 1) ≤ j → j ≤ min j1 (bHi 1) → ∀ k, max k0 (bLo 2) ≤ k → k ≤ min k1 (bHi 2) → Continues m m' (F.cell3d u i0 j0 k0 i1 j1 k1 g) (fun x => [bHi 0 - x, j, k]) w 1 2 Neumann) ∧
      (face = 2 → ∀ i, max i0 (bLo 0) ≤ i → i ≤ min i1 (bHi 0) → ∀ k, max k0 (bLo 2) ≤ k → k ≤ min k1 (bHi 2) → Continues m m' (F.cell3d u i0 j0 k0 i1 j1 k1 g) (fun x => [i, bLo 1 + x, k]) w 1 2 Neumann) ∧
      (face = 3 → ∀ i, max i0 (bLo 0) ≤ i → i ≤ min i1 (bHi 0) → ∀ k, max k0 (bLo 2) ≤ k → k ≤ min k1 (bHi 2) → Continues m m' (F.cell3d u i0 j0 k0 i1 j1 k1 g) (fun x => [i, bHi 1 - x, k]) w 1 2 Neumann) ∧
      (face = 4 → ∀ i, max i0 (bLo 0) ≤ i → i ≤ min i1 (bHi 0) → ∀ j, max j0 (bLo 1) ≤ j → j ≤ min j1 (bHi 1) → Continues m m' (F.cell3d u i0 j0 k0 i1 j1 k1 g) (fun x => [i, j, bLo 2 + x]) w 1 2 Neumann) ∧
      (face = 5 → ∀ i, max i0 (bLo 0) ≤ i → i ≤ min i1 (bHi 0) → ∀ j, max j0 (bLo 1) ≤ j → j ≤ min j1 (bHi 1) → Continues m m' (F.cell3d u i0 j0 k0 i1 j1 k1 g) (fun x => [i, j, bHi 2 - x]) w 1 2 Neumann) := by
  obtain ⟨m', hm, hq⟩ := ghosts_p3d (dx := dx) (exOrder := exOrder) (btype := 1) (alpha := alpha) (beta := beta) hβ hi hj hk hg hs hf0 hf1 hf2 hf3 hf4 hf5 h
  exact ⟨m', hm, fun e j ja jb k ka kb p hp h0 hS => hq.1 e j ja jb k ka kb _ (neumann_poly (c := fun x => [bLo 0 + x, j, k]) hp h0 hS),
    fun e j ja jb k ka kb p hp h0 hS => hq.2.1 e j ja jb k ka kb _ (neumann_poly (c := fun x => [bHi 0 - x, j, k]) hp h0 hS),
    fun e i ia ib k ka kb p hp h0 hS => hq.2.2.1 e i ia ib k ka kb _ (neumann_poly (c := fun x => [i, bLo 1 + x, k]) hp h0 hS),
    fun e i ia ib k ka kb p hp h0 hS => hq.2.2.2.1 e i ia ib k ka kb _ (neumann_poly (c := fun x => [i, bHi 1 - x, k]) hp h0 hS),
    fun e i ia ib j ja jb p hp h0 hS => hq.2.2.2.2.1 e i ia ib j ja jb _ (neumann_poly (c := fun x => [i, j, bLo 2 + x]) hp h0 hS),
    fun e i ia ib j ja jb p hp h0 hS => hq.2.2.2.2.2 e i ia ib j ja jb _ (neumann_poly (c := fun x => [i, j, bHi 2 - x]) hp h0 hS)⟩

example : ∃ m', Cuda.setPoissonBc3d 0 7 0 6 0 5 exDx 1 ⟨9, 0⟩ exLo exHi 2 0 1 1 3 5 (fun _ => revBackend) exRat = .ok m' ∧
    Continues exRat m' (F.cell3d ⟨9, 0⟩ 0 0 0 7 6 5 1) (fun x => [exLo 0 + x, 1, 2]) 3 1 2 Neumann := by
  obtain ⟨m', hm, hq⟩ := C46_neumann_poisson_3d (i0 := 0) (j0 := 0) (k0 := 0) (i1 := 7) (j1 := 6) (k1 := 5) (g := 1) (u := ⟨9, 0⟩) (m := exRat) (β := fun _ => revBackend) (dx := exDx) (exOrder := 2) (face := 0) (bLo := exLo) (bHi := exHi) (alpha := 3) (beta := 5) (w := 3) (fun _ => revBackend_ok) (by decide) (by decide) (by decide) (by decide) (by ex_seg) (by ex_seg) (by ex_seg) (by ex_seg) (by ex_seg) (by ex_seg) (by ex_seg) (by ex_args)
  exact ⟨m', hm, hq.1 rfl 1 (by decide) (by decide) 2 (by decide) (by decide)⟩

/-- `cd_correct_bc_1d_cuda::set_bc`, Robin, order 1: the ghost values continue every linear polynomial that meets the condition. -/
theorem C46_robin1_1d [CharZero T] {i0 i1 g dg face : Int} {dx : Nat → T} {d0 u : Ptr} {bLo bHi : Nat → Int} {alpha beta : T}
    {β : Nat → Backend} {m : Mem T} (hβ : ∀ n, ValidBackend (β n))
    (hi : i0 ≤ i1) (hg : 0 ≤ g) (hdg : 0 ≤ dg)
    (hs : ∀ n < 1, InInt (bLo n + 1) ∧ InInt (bHi n + 1))
    (hf0 : face = 0 → Reach i0 i1 g (bLo 0) 2 ∧ OnFaces i0 i1 dg (bLo 0 + 1))
    (hf1 : face = 1 → Reach i0 i1 g (bHi 0) (-2) ∧ OnFaces i0 i1 dg (bHi 0))
    (h : F.Args m [F.face1d d0 i0 i1 dg] [F.cell1d u i0 i1 g]) :
    ∃ m', Cuda.setBc1d i0 i1 dx dg d0 g u bLo bHi 1 face 4 alpha beta β m = .ok m' ∧
      (face = 0 → ∀ b, F.El m (F.face1d d0 i0 i1 dg) [bLo 0 + 1] b → 2 * alpha * b + dx 0 * beta ≠ 0 →
        Continues m m' (F.cell1d u i0 i1 g) (fun x => [bLo 0 + x]) (dx 0) 1 1 (Robin alpha b beta)) ∧
      (face = 1 → ∀ b, F.El m (F.face1d d0 i0 i1 dg) [bHi 0] b → 2 * alpha * b + dx 0 * beta ≠ 0 →
        Continues m m' (F.cell1d u i0 i1 g) (fun x => [bHi 0 - x]) (dx 0) 1 1 (Robin alpha b beta)) := by
  obtain ⟨m', hm, hq⟩ := ghosts_1d (dx := dx) (exOrder := 1) (btype := 4) (alpha := alpha) (beta := beta) hβ hi hg hdg hs hf0 hf1 h
  exact ⟨m', hm, fun e b hb hne p hp h0 hS => hq.1 e _ (by rw [hb.rd]; exact robin1_poly (c := fun x => [bLo 0 + x]) hp h0 hS hne),
    fun e b hb hne p hp h0 hS => hq.2 e _ (by rw [hb.rd]; exact robin1_poly (c := fun x => [bHi 0 - x]) hp h0 hS hne)⟩

example : ∃ m', Cuda.setBc1d 0 7 exDx 1 ⟨0, 0⟩ 1 ⟨9, 0⟩ exLo exHi 1 0 4 3 5 (fun _ => revBackend) exRat = .ok m' ∧
    Continues exRat m' (F.cell1d ⟨9, 0⟩ 0 7 1) (fun x => [exLo 0 + x]) (1 / 2) 1 1 (Robin 3 1 5) := by
  obtain ⟨m', hm, hq⟩ := C46_robin1_1d (i0 := 0) (i1 := 7) (g := 1) (dg := 1) (d0 := ⟨0, 0⟩) (u := ⟨9, 0⟩) (m := exRat) (β := fun _ => revBackend) (dx := exDx) (face := 0) (bLo := exLo) (bHi := exHi) (alpha := 3) (beta := 5) (fun _ => revBackend_ok) (by decide) (by decide) (by decide) (by ex_seg) (by ex_seg) (by ex_seg) (by ex_args)
  exact ⟨m', hm, by simpa [exDx] using hq.1 rfl 1 (by ex_el) (by norm_num [exDx])⟩

/-- `cd_correct_bc_1d_cuda::set_poisson_bc`, Robin, order 1: the arguments `alpha` and `beta` are not used (`C46_robin_poisson_1d_false`); the ghost values are those of
`alpha = 2`, `beta = 1`. -/
theorem C46_robin1_poisson_1d_partial [CharZero T] {i0 i1 g face : Int} {dx : Nat → T} { u : Ptr} {bLo bHi : Nat → Int} {alpha beta : T}
    {β : Nat → Backend} {m : Mem T} (hβ : ∀ n, ValidBackend (β n))
    (hi : i0 ≤ i1) (hg : 0 ≤ g)
    (hs : ∀ n < 1, InInt (bLo n + 1) ∧ InInt (bHi n + 1))
    (hf0 : face = 0 → Reach i0 i1 g (bLo 0) 2)
    (hf1 : face = 1 → Reach i0 i1 g (bHi 0) (-2))
    (h : F.Args m [] [F.cell1d u i0 i1 g]) :
    ∃ m', Cuda.setPoissonBc1d i0 i1 dx g u bLo bHi 1 face 4 alpha beta β m = .ok m' ∧
      (face = 0 → 2 * 2 * 1 + dx 0 * 1 ≠ 0 → Continues m m' (F.cell1d u i0 i1 g) (fun x => [bLo 0 + x]) (dx 0) 1 1 (Robin 2 1 1)) ∧
      (face = 1 → 2 * 2 * 1 + dx 0 * 1 ≠ 0 → Continues m m' (F.cell1d u i0 i1 g) (fun x => [bHi 0 - x]) (dx 0) 1 1 (Robin 2 1 1)) := by
  obtain ⟨m', hm, hq⟩ := ghosts_p1d (dx := dx) (exOrder := 1) (btype := 4) (alpha := alpha) (beta := beta) hβ hi hg hs hf0 hf1 h
  exact ⟨m', hm, fun e hne p hp h0 hS => hq.1 e _ (robin1_poly (c := fun x => [bLo 0 + x]) hp h0 hS hne),
    fun e hne p hp h0 hS => hq.2 e _ (robin1_poly (c := fun x => [bHi 0 - x]) hp h0 hS hne)⟩

example : ∃ m', Cuda.setPoissonBc1d 0 7 exDx 1 ⟨9, 0⟩ exLo exHi 1 0 4 3 5 (fun _ => revBackend) exRat = .ok m' ∧
    Continues exRat m' (F.cell1d ⟨9, 0⟩ 0 7 1) (fun x => [exLo 0 + x]) (1 / 2) 1 1 (Robin 2 1 1) := by
  obtain ⟨m', hm, hq⟩ := C46_robin1_poisson_1d_partial (i0 := 0) (i1 := 7) (g := 1) (u := ⟨9, 0⟩) (m := exRat) (β := fun _ => revBackend) (dx := exDx) (face := 0) (bLo := exLo) (bHi := exHi) (alpha := 3) (beta := 5) (fun _ => revBackend_ok) (by decide) (by decide) (by ex_seg) (by ex_seg) (by ex_seg) (by ex_args)
  exact ⟨m', hm, by simpa [exDx] using hq.1 rfl (by norm_num [exDx])⟩

/-- `cd_correct_bc_2d_cuda::set_bc`, Robin, order 1: the ghost values continue every linear polynomial that meets the condition. -/
theorem C46_robin1_2d [CharZero T] {i0 j0 i1 j1 g dg face : Int} {dx : Nat → T} {d0 d1 u : Ptr} {bLo bHi : Nat → Int} {alpha beta : T}
    {β : Nat → Backend} {m : Mem T} (hβ : ∀ n, ValidBackend (β n))
    (hi : i0 ≤ i1) (hj : j0 ≤ j1) (hg : 0 ≤ g) (hdg : 0 ≤ dg)
    (hs : ∀ n < 2, InInt (bLo n + 1) ∧ InInt (bHi n + 1))
    (hf0 : face = 0 → Reach i0 i1 g (bLo 0) 2 ∧ OnFaces i0 i1 dg (bLo 0 + 1) ∧ Meets j0 j1 (bLo 1) (bHi 1))
    (hf1 : face = 1 → Reach i0 i1 g (bHi 0) (-2) ∧ OnFaces i0 i1 dg (bHi 0) ∧ Meets j0 j1 (bLo 1) (bHi 1))
    (hf2 : face = 2 → Reach j0 j1 g (bLo 1) 2 ∧ OnFaces j0 j1 dg (bLo 1 + 1) ∧ Meets i0 i1 (bLo 0) (bHi 0))
    (hf3 : face = 3 → Reach j0 j1 g (bHi 1) (-2) ∧ OnFaces j0 j1 dg (bHi 1) ∧ Meets i0 i1 (bLo 0) (bHi 0))
    (h : F.Args m [F.face2d0 d0 i0 j0 i1 j1 dg, F.face2d1 d1 i0 j0 i1 j1 dg] [F.cell2d u i0 j0 i1 j1 g]) :
    ∃ m', Cuda.setBc2d i0 i1 j0 j1 dx dg d0 d1 g u bLo bHi 1 face 1 4 alpha beta β m = .ok m' ∧
      (face = 0 → ∀ j, max j0 (bLo 1) ≤ j → j ≤ min j1 (bHi 1) → ∀ b, F.El m (F.face2d0 d0 i0 j0 i1 j1 dg) [bLo 0 + 1, j] b → 2 * alpha * b + dx 0 * beta ≠ 0 →
        Continues m m' (F.cell2d u i0 j0 i1 j1 g) (fun x => [bLo 0 + x, j]) (dx 0) 1 1 (Robin alpha b beta)) ∧
      (face = 1 → ∀ j, max j0 (bLo 1) ≤ j → j ≤ min j1 (bHi 1) → ∀ b, F.El m (F.face2d0 d0 i0 j0 i1 j1 dg) [bHi 0, j] b → 2 * alpha * b + dx 0 * beta ≠ 0 →
        Continues m m' (F.cell2d u i0 j0 i1 j1 g) (fun x => [bHi 0 - x, j]) (dx 0) 1 1 (Robin alpha b beta)) ∧
      (face = 2 → ∀ i, max i0 (bLo 0) ≤ i → i ≤ min i1 (bHi 0) → ∀ b, F.El m (F.face2d1 d1 i0 j0 i1 j1 dg) [bLo 1 + 1, i] b → 2 * alpha * b + dx 1 * beta ≠ 0 →
        Continues m m' (F.cell2d u i0 j0 i1 j1 g) (fun x => [i, bLo 1 + x]) (dx 1) 1 1 (Robin alpha b beta)) ∧
      (face = 3 → ∀ i, max i0 (bLo 0) ≤ i → i ≤ min i1 (bHi 0) → ∀ b, F.El m (F.face2d1 d1 i0 j0 i1 j1 dg) [bHi 1, i] b → 2 * alpha * b + dx 1 * beta ≠ 0 →
        Continues m m' (F.cell2d u i0 j0 i1 j1 g) (fun x => [i, bHi 1 - x]) (dx 1) 1 1 (Robin alpha b beta)) := by
  obtain ⟨m', hm, hq⟩ := ghosts_2d (dx := dx) (exOrder := 1) (btype := 4) (alpha := alpha) (beta := beta) hβ hi hj hg hdg hs hf0 hf1 hf2 hf3 h
  exact ⟨m', hm, fun e j ja jb b hb hne p hp h0 hS => hq.1 e j ja jb _ (by rw [hb.rd]; exact robin1_poly (c := fun x => [bLo 0 + x, j]) hp h0 hS hne),
    fun e j ja jb b hb hne p hp h0 hS => hq.2.1 e j ja jb _ (by rw [hb.rd]; exact robin1_poly (c := fun x => [bHi 0 - x, j]) hp h0 hS hne),
    fun e i ia ib b hb hne p hp h0 hS => hq.2.2.1 e i ia ib _ (by rw [hb.rd]; exact robin1_poly (c := fun x => [i, bLo 1 + x]) hp h0 hS hne),
    fun e i ia ib b hb hne p hp h0 hS => hq.2.2.2 e i ia ib _ (by rw [hb.rd]; exact robin1_poly (c := fun x => [i, bHi 1 - x]) hp h0 hS hne)⟩

example : ∃ m', Cuda.setBc2d 0 7 0 7 exDx 1 ⟨0, 0⟩ ⟨1, 0⟩ 1 ⟨9, 0⟩ exLo exHi 1 0 1 4 3 5 (fun _ => revBackend) exRat = .ok m' ∧
    Continues exRat m' (F.cell2d ⟨9, 0⟩ 0 0 7 7 1) (fun x => [exLo 0 + x, 1]) (1 / 2) 1 1 (Robin 3 529 5) := by
  obtain ⟨m', hm, hq⟩ := C46_robin1_2d (i0 := 0) (j0 := 0) (i1 := 7) (j1 := 7) (g := 1) (dg := 1) (d0 := ⟨0, 0⟩) (d1 := ⟨1, 0⟩) (u := ⟨9, 0⟩) (m := exRat) (β := fun _ => revBackend) (dx := exDx) (face := 0) (bLo := exLo) (bHi := exHi) (alpha := 3) (beta := 5) (fun _ => revBackend_ok) (by decide) (by decide) (by decide) (by decide) (by ex_seg) (by ex_seg) (by ex_seg) (by ex_seg) (by ex_seg) (by ex_args)
  exact ⟨m', hm, by simpa [exDx] using hq.1 rfl 1 (by decide) (by decide) 529 (by ex_el) (by norm_num [exDx])⟩

/-- `cd_correct_bc_2d_cuda::set_poisson_bc`, Robin, order 1: the ghost values continue every linear polynomial that meets the condition.
Faces across the first axis only: across the second the kernel leaves the ghost cells alone (`C46_robin_poisson_2d_false`). -/
theorem C46_robin1_poisson_2d_partial [CharZero T] {i0 j0 i1 j1 g face : Int} {dx : Nat → T} { u : Ptr} {bLo bHi : Nat → Int} {alpha beta : T}
    {β : Nat → Backend} {m : Mem T} (hβ : ∀ n, ValidBackend (β n))
    (hi : i0 ≤ i1) (hj : j0 ≤ j1) (hg : 0 ≤ g)
    (hs : ∀ n < 2, InInt (bLo n + 1) ∧ InInt (bHi n + 1))
    (hf0 : face = 0 → Reach i0 i1 g (bLo 0) 2 ∧ Meets j0 j1 (bLo 1) (bHi 1))
    (hf1 : face = 1 → Reach i0 i1 g (bHi 0) (-2) ∧ Meets j0 j1 (bLo 1) (bHi 1))
    (hf2 : face = 2 → Reach j0 j1 g (bLo 1) 2 ∧ Meets i0 i1 (bLo 0) (bHi 0))
    (hf3 : face = 3 → Reach j0 j1 g (bHi 1) (-2) ∧ Meets i0 i1 (bLo 0) (bHi 0))
    (h : F.Args m [] [F.cell2d u i0 j0 i1 j1 g]) :
    ∃ m', Cuda.setPoissonBc2d i0 i1 j0 j1 dx g u bLo bHi 1 face 1 4 alpha beta β m = .ok m' ∧
      (face = 0 → ∀ j, max j0 (bLo 1) ≤ j → j ≤ min j1 (bHi 1) → 2 * alpha * 1 + dx 0 * beta ≠ 0 → Continues m m' (F.cell2d u i0 j0 i1 j1 g) (fun x => [bLo 0 + x, j]) (dx 0) 1 1 (Robin alpha 1 beta)) ∧
      (face = 1 → ∀ j, max j0 (bLo 1) ≤ j → j ≤ min j1 (bHi 1) → 2 * alpha * 1 + dx 0 * beta ≠ 0 → Continues m m' (F.cell2d u i0 j0 i1 j1 g) (fun x => [bHi 0 - x, j]) (dx 0) 1 1 (Robin alpha 1 beta)) := by
  obtain ⟨m', hm, hq⟩ := ghosts_p2d (dx := dx) (exOrder := 1) (btype := 4) (alpha := alpha) (beta := beta) hβ hi hj hg hs hf0 hf1 hf2 hf3 h
  exact ⟨m', hm, fun e j ja jb hne p hp h0 hS => hq.1 e j ja jb _ (robin1_poly (c := fun x => [bLo 0 + x, j]) hp h0 hS hne),
    fun e j ja jb hne p hp h0 hS => hq.2.1 e j ja jb _ (robin1_poly (c := fun x => [bHi 0 - x, j]) hp h0 hS hne)⟩

example : ∃ m', Cuda.setPoissonBc2d 0 7 0 7 exDx 1 ⟨9, 0⟩ exLo exHi 1 0 1 4 3 5 (fun _ => revBackend) exRat = .ok m' ∧
    Continues exRat m' (F.cell2d ⟨9, 0⟩ 0 0 7 7 1) (fun x => [exLo 0 + x, 1]) (1 / 2) 1 1 (Robin 3 1 5) := by
  obtain ⟨m', hm, hq⟩ := C46_robin1_poisson_2d_partial (i0 := 0) (j0 := 0) (i1 := 7) (j1 := 7) (g := 1) (u := ⟨9, 0⟩) (m := exRat) (β := fun _ => revBackend) (dx := exDx) (face := 0) (bLo := exLo) (bHi := exHi) (alpha := 3) (beta := 5) (fun _ => revBackend_ok) (by decide) (by decide) (by decide) (by ex_seg) (by ex_seg) (by ex_seg) (by ex_seg) (by ex_seg) (by ex_args)
  exact ⟨m', hm, by simpa [exDx] using hq.1 rfl 1 (by decide) (by decide) (by norm_num [exDx])⟩

/-- `cd_correct_bc_3d_cuda::set_bc`, Robin, order 1: the ghost values continue every linear polynomial that meets the condition. -/
theorem C46_robin1_3d [CharZero T] {i0 j0 k0 i1 j1 k1 g dg face : Int} {dx : Nat → T} {d0 d1 d2 u : Ptr} {bLo bHi : Nat → Int} {alpha beta : T}
    {β : Nat → Backend} {m : Mem T} (hβ : ∀ n, ValidBackend (β n))
    (hi : i0 ≤ i1) (hj : j0 ≤ j1) (hk : k0 ≤ k1) (hg : 0 ≤ g) (hdg : 0 ≤ dg)
    (hs : ∀ n < 3, InInt (bLo n + 1) ∧ InInt (bHi n + 1))
    (hf0 : face = 0 → Reach i0 i1 g (bLo 0) 2 ∧ OnFaces i0 i1 dg (bLo 0 + 1) ∧ Meets j0 j1 (bLo 1) (bHi 1) ∧ Meets k0 k1 (bLo 2) (bHi 2))
    (hf1 : face = 1 → Reach i0 i1 g (bHi 0) (-2) ∧ OnFaces i0 i1 dg (bHi 0) ∧ Meets j0 j1 (bLo 1) (bHi 1) ∧ Meets k0 k1 (bLo 2) (bHi 2))
    (hf2 : face = 2 → Reach j0 j1 g (bLo 1) 2 ∧ OnFaces j0 j1 dg (bLo 1 + 1) ∧ Meets i0 i1 (bLo 0) (bHi 0) ∧ Meets k0 k1 (bLo 2) (bHi 2))
    (hf3 : face = 3 → Reach j0 j1 g (bHi 1) (-2) ∧ OnFaces j0 j1 dg (bHi 1) ∧ Meets i0 i1 (bLo 0) (bHi 0) ∧ Meets k0 k1 (bLo 2) (bHi 2))
    (hf4 : face = 4 → Reach k0 k1 g (bLo 2) 2 ∧ OnFaces k0 k1 dg (bLo 2 + 1) ∧ Meets i0 i1 (bLo 0) (bHi 0) ∧ Meets j0 j1 (bLo 1) (bHi 1))
    (hf5 : face = 5 → Reach k0 k1 g (bHi 2) (-2) ∧ OnFaces k0 k1 dg (bHi 2) ∧ Meets i0 i1 (bLo 0) (bHi 0) ∧ Meets j0 j1 (bLo 1) (bHi 1))
    (h : F.Args m [F.face3d0 d0 i0 j0 k0 i1 j1 k1 dg, F.face3d1 d1 i0 j0 k0 i1 j1 k1 dg, F.face3d2 d2 i0 j0 k0 i1 j1 k1 dg] [F.cell3d u i0 j0 k0 i1 j1 k1 g]) :
    ∃ m', Cuda.setBc3d i0 i1 j0 j1 k0 k1 dx dg d0 d1 d2 g u bLo bHi 1 face 1 4 alpha beta β m = .ok m' ∧
      (face = 0 → ∀ j, max j0 (bLo 1) ≤ j → j ≤ min j1 (bHi 1) → ∀ k, max k0 (bLo 2) ≤ k → k ≤ min k1 (bHi 2) → ∀ b, F.El m (F.face3d0 d0 i0 j0 k0 i1 j1 k1 dg) [bLo 0 + 1, j, k] b → 2 * alpha * b + dx 0 * beta ≠ 0 →
        Continues m m' (F.cell3d u i0 j0 k0 i1 j1 k1 g) (fun x => [bLo 0 + x, j, k]) (dx 0) 1 1 (Robin alpha b beta)) ∧
      (face = 1 → ∀ j, max j0 (bLo 1) ≤ j → j ≤ min j1 (bHi 1) → ∀ k, max k0 (bLo 2) ≤ k → k ≤ min k1 (bHi 2) → ∀ b, F.El m (F.face3d0 d0 i0 j0 k0 i1 j1 k1 dg) [bHi 0, j, k] b → 2 * alpha * b + dx 0 * beta ≠ 0 →
        Continues m m' (F.cell3d u i0 j0 k0 i1 j1 k1 g) (fun x => [bHi 0 - x, j, k]) (dx 0) 1 1 (Robin alpha b beta)) ∧
      (face = 2 → ∀ i, max i0 (bLo 0) ≤ i → i ≤ min i1 (bHi 0) → ∀ k, max k0 (bLo 2) ≤ k → k ≤ min k1 (bHi 2) → ∀ b, F.El m (F.face3d1 d1 i0 j0 k0 i1 j1 k1 dg) [bLo 1 + 1, k, i] b → 2 * alpha * b + dx 1 * beta ≠ 0 →
        Continues m m' (F.cell3d u i0 j0 k0 i1 j1 k1 g) (fun x => [i, bLo 1 + x, k]) (dx 1) 1 1 (Robin alpha b beta)) ∧
      (face = 3 → ∀ i, max i0 (bLo 0) ≤ i → i ≤ min i1 (bHi 0) → ∀ k, max k0 (bLo 2) ≤ k → k ≤ min k1 (bHi 2) → ∀ b, F.El m (F.face3d1 d1 i0 j0 k0 i1 j1 k1 dg) [bHi 1, k, i] b → 2 * alpha * b + dx 1 * beta ≠ 0 →
        Continues m m' (F.cell3d u i0 j0 k0 i1 j1 k1 g) (fun x => [i, bHi 1 - x, k]) (dx 1) 1 1 (Robin alpha b beta)) ∧
      (face = 4 → ∀ i, max i0 (bLo 0) ≤ i → i ≤ min i1 (bHi 0) → ∀ j, max j0 (bLo 1) ≤ j → j ≤ min j1 (bHi 1) → ∀ b, F.El m (F.face3d2 d2 i0 j0 k0 i1 j1 k1 dg) [bLo 2 + 1, i, j] b → 2 * alpha * b + dx 2 * beta ≠ 0 →
        Continues m m' (F.cell3d u i0 j0 k0 i1 j1 k1 g) (fun x => [i, j, bLo 2 + x]) (dx 2) 1 1 (Robin alpha b beta)) ∧
      (face = 5 → ∀ i, max i0 (bLo 0) ≤ i → i ≤ min i1 (bHi 0) → ∀ j, max j0 (bLo 1) ≤ j → j ≤ min j1 (bHi 1) → ∀ b, F.El m (F.face3d2 d2 i0 j0 k0 i1 j1 k1 dg) [bHi 2, i, j] b → 2 * alpha * b + dx 2 * beta ≠ 0 →
        Continues m m' (F.cell3d u i0 j0 k0 i1 j1 k1 g) (fun x => [i, j, bHi 2 - x]) (dx 2) 1 1 (Robin alpha b beta)) := by
  obtain ⟨m', hm, hq⟩ := ghosts_3d (dx := dx) (exOrder := 1) (btype := 4) (alpha := alpha) (beta := beta) hβ hi hj hk hg hdg hs hf0 hf1 hf2 hf3 hf4 hf5 h
  exact ⟨m', hm, fun e j ja jb k ka kb b hb hne p hp h0 hS => hq.1 e j ja jb k ka kb _ (by rw [hb.rd]; exact robin1_poly (c := fun x => [bLo 0 + x, j, k]) hp h0 hS hne),
    fun e j ja jb k ka kb b hb hne p hp h0 hS => hq.2.1 e j ja jb k ka kb _ (by rw [hb.rd]; exact robin1_poly (c := fun x => [bHi 0 - x, j, k]) hp h0 hS hne),
    fun e i ia ib k ka kb b hb hne p hp h0 hS => hq.2.2.1 e i ia ib k ka kb _ (by rw [hb.rd]; exact robin1_poly (c := fun x => [i, bLo 1 + x, k]) hp h0 hS hne),
    fun e i ia ib k ka kb b hb hne p hp h0 hS => hq.2.2.2.1 e i ia ib k ka kb _ (by rw [hb.rd]; exact robin1_poly (c := fun x => [i, bHi 1 - x, k]) hp h0 hS hne),
    fun e i ia ib j ja jb b hb hne p hp h0 hS => hq.2.2.2.2.1 e i ia ib j ja jb _ (by rw [hb.rd]; exact robin1_poly (c := fun x => [i, j, bLo 2 + x]) hp h0 hS hne),
    fun e i ia ib j ja jb b hb hne p hp h0 hS => hq.2.2.2.2.2 e i ia ib j ja jb _ (by rw [hb.rd]; exact robin1_poly (c := fun x => [i, j, bHi 2 - x]) hp h0 hS hne)⟩

example : ∃ m', Cuda.setBc3d 0 7 0 6 0 5 exDx 1 ⟨0, 0⟩ ⟨1, 0⟩ ⟨2, 0⟩ 1 ⟨9, 0⟩ exLo exHi 1 0 1 4 3 5 (fun _ => revBackend) exRat = .ok m' ∧
    Continues exRat m' (F.cell3d ⟨9, 0⟩ 0 0 0 7 6 5 1) (fun x => [exLo 0 + x, 1, 2]) (1 / 2) 1 1 (Robin 3 102400 5) := by
  obtain ⟨m', hm, hq⟩ := C46_robin1_3d (i0 := 0) (j0 := 0) (k0 := 0) (i1 := 7) (j1 := 6) (k1 := 5) (g := 1) (dg := 1) (d0 := ⟨0, 0⟩) (d1 := ⟨1, 0⟩) (d2 := ⟨2, 0⟩) (u := ⟨9, 0⟩) (m := exRat) (β := fun _ => revBackend) (dx := exDx) (face := 0) (bLo := exLo) (bHi := exHi) (alpha := 3) (beta := 5) (fun _ => revBackend_ok) (by decide) (by decide) (by decide) (by decide) (by decide) (by ex_seg) (by ex_seg) (by ex_seg) (by ex_seg) (by ex_seg) (by ex_seg) (by ex_seg) (by ex_args)
  exact ⟨m', hm, by simpa [exDx] using hq.1 rfl 1 (by decide) (by decide) 2 (by decide) (by decide) 102400 (by ex_el) (by norm_num [exDx])⟩

/-- `cd_correct_bc_3d_cuda::set_poisson_bc`, Robin, order 1: the ghost values continue every linear polynomial that meets the condition. -/
theorem C46_robin1_poisson_3d [CharZero T] {i0 j0 k0 i1 j1 k1 g face : Int} {dx : Nat → T} { u : Ptr} {bLo bHi : Nat → Int} {alpha beta : T}
    {β : Nat → Backend} {m : Mem T} (hβ : ∀ n, ValidBackend (β n))
    (hi : i0 ≤ i1) (hj : j0 ≤ j1) (hk : k0 ≤ k1) (hg : 0 ≤ g)
    (hs : ∀ n < 3, InInt (bLo n + 1) ∧ InInt (bHi n + 1))
    (hf0 : face = 0 → Reach i0 i1 g (bLo 0) 2 ∧ Meets j0 j1 (bLo 1) (bHi 1) ∧ Meets k0 k1 (bLo 2) (bHi 2))
    (hf1 : face = 1 → Reach i0 i1 g (bHi 0) (-2) ∧ Meets j0 j1 (bLo 1) (bHi 1) ∧ Meets k0 k1 (bLo 2) (bHi 2))
    (hf2 : face = 2 → Reach j0 j1 g (bLo 1) 2 ∧ Meets i0 i1 (bLo 0) (bHi 0) ∧ Meets k0 k1 (bLo 2) (bHi 2))
    (hf3 : face = 3 → Reach j0 j1 g (bHi 1) (-2) ∧ Meets i0 i1 (bLo 0) (bHi 0) ∧ Meets k0 k1 (bLo 2) (bHi 2))
    (hf4 : face = 4 → Reach k0 k1 g (bLo 2) 2 ∧ Meets i0 i1 (bLo 0) (bHi 0) ∧ Meets j0 j1 (bLo 1) (bHi 1))
    (hf5 : face = 5 → Reach k0 k1 g (bHi 2) (-2) ∧ Meets i0 i1 (bLo 0) (bHi 0) ∧ Meets j0 j1 (bLo 1) (bHi 1))
    (h : F.Args m [] [F.cell3d u i0 j0 k0 i1 j1 k1 g]) :
    ∃ m', Cuda.setPoissonBc3d i0 i1 j0 j1 k0 k1 dx g u bLo bHi 1 face 1 4 alpha beta β m = .ok m' ∧
      (face = 0 → ∀ j, max j0 (bLo 1) ≤ j → j ≤ min j1 (bHi 1) → ∀ k, max k0 (bLo 2) ≤ k → k ≤ min k1 (bHi 2) → 2 * alpha * 1 + dx 0 * beta ≠ 0 → Continues m m' (F.cell3d u i0 j0 k0 i1 j1 k1 g) (fun x => [bLo 0 + x, j, k]) (dx 0) 1 1 (Robin alpha 1 beta)) ∧
      (face = 1 → ∀ j, max j0 (bLo 1) ≤ j → j ≤ min j1 (bHi 1) → ∀ k, max k0 (bLo 2) ≤ k → k ≤ min k1 (bHi 2) → 2 * alpha * 1 + dx 0 * beta ≠ 0 → Continues m m' (F.cell3d u i0 j0 k0 i1 j1 k1 g) (fun x => [bHi 0 - x, j, k]) (dx 0) 1 1 (Robin alpha 1 beta)) ∧
      (face = 2 → ∀ i, max i0 (bLo 0) ≤ i → i ≤ min i1 (bHi 0) → ∀ k, max k0 (bLo 2) ≤ k → k ≤ min k1 (bHi 2) → 2 * alpha * 1 + dx 1 * beta ≠ 0 → Continues m m' (F.cell3d u i0 j0 k0 i1 j1 k1 g) (fun x => [i, bLo 1 + x, k]) (dx 1) 1 1 (Robin alpha 1 beta)) ∧
      (face = 3 → ∀ i, max i0 (bLo 0) ≤ i → i ≤ min i1 (bHi 0) → ∀ k, max k0 (bLo 2) ≤ k → k ≤ min k1 (bHi 2) → 2 * alpha * 1 + dx 1 * beta ≠ 0 → Continues m m' (F.cell3d u i0 j0 k0 i1 j1 k1 g) (fun x => [i, bHi 1 - x, k]) (dx 1) 1 1 (Robin alpha 1 beta)) ∧
      (face = 4 → ∀ i, max i0 (bLo 0) ≤ i → i ≤ min i1 (bHi 0) → ∀ j, max j0 (bLo 1) ≤ j → j ≤ min j1 (bHi 1) → 2 * alpha * 1 + dx 2 * beta ≠ 0 → Continues m m' (F.cell3d u i0 j0 k0 i1 j1 k1 g) (fun x => [i, j, bLo 2 + x]) (dx 2) 1 1 (Robin alpha 1 beta)) ∧
      (face = 5 → ∀ i, max i0 (bLo 0) ≤ i → i ≤ min i1 (bHi 0) → ∀ j, max j0 (bLo 1) ≤ j → j ≤ min j1 (bHi 1) → 2 * alpha * 1 + dx 2 * beta ≠ 0 → Continues m m' (F.cell3d u i0 j0 k0 i1 j1 k1 g) (fun x => [i, j, bHi 2 - x]) (dx 2) 1 1 (Robin alpha 1 beta)) := by
  obtain ⟨m', hm, hq⟩ := ghosts_p3d (dx := dx) (exOrder := 1) (btype := 4) (alpha := alpha) (beta := beta) hβ hi hj hk hg hs hf0 hf1 hf2 hf3 hf4 hf5 h
  exact ⟨m', hm, fun e j ja jb k ka kb hne p hp h0 hS => hq.1 e j ja jb k ka kb _ (robin1_poly (c := fun x => [bLo 0 + x, j, k]) hp h0 hS hne),
    fun e j ja jb k ka kb hne p hp h0 hS => hq.2.1 e j ja jb k ka kb _ (robin1_poly (c := fun x => [bHi 0 - x, j, k]) hp h0 hS hne),
    fun e i ia ib k ka kb hne p hp h0 hS => hq.2.2.1 e i ia ib k ka kb _ (robin1_poly (c := fun x => [i, bLo 1 + x, k]) hp h0 hS hne),
    fun e i ia ib k ka kb hne p hp h0 hS => hq.2.2.2.1 e i ia ib k ka kb _ (robin1_poly (c := fun x => [i, bHi 1 - x, k]) hp h0 hS hne),
    fun e i ia ib j ja jb hne p hp h0 hS => hq.2.2.2.2.1 e i ia ib j ja jb _ (robin1_poly (c := fun x => [i, j, bLo 2 + x]) hp h0 hS hne),
    fun e i ia ib j ja jb hne p hp h0 hS => hq.2.2.2.2.2 e i ia ib j ja jb _ (robin1_poly (c := fun x => [i, j, bHi 2 - x]) hp h0 hS hne)⟩

example : ∃ m', Cuda.setPoissonBc3d 0 7 0 6 0 5 exDx 1 ⟨9, 0⟩ exLo exHi 1 0 1 4 3 5 (fun _ => revBackend) exRat = .ok m' ∧
    Continues exRat m' (F.cell3d ⟨9, 0⟩ 0 0 0 7 6 5 1) (fun x => [exLo 0 + x, 1, 2]) (1 / 2) 1 1 (Robin 3 1 5) := by
  obtain ⟨m', hm, hq⟩ := C46_robin1_poisson_3d (i0 := 0) (j0 := 0) (k0 := 0) (i1 := 7) (j1 := 6) (k1 := 5) (g := 1) (u := ⟨9, 0⟩) (m := exRat) (β := fun _ => revBackend) (dx := exDx) (face := 0) (bLo := exLo) (bHi := exHi) (alpha := 3) (beta := 5) (fun _ => revBackend_ok) (by decide) (by decide) (by decide) (by decide) (by ex_seg) (by ex_seg) (by ex_seg) (by ex_seg) (by ex_seg) (by ex_seg) (by ex_seg) (by ex_args)
  exact ⟨m', hm, by simpa [exDx] using hq.1 rfl 1 (by decide) (by decide) 2 (by decide) (by decide) (by norm_num [exDx])⟩

/-- `cd_correct_bc_1d_cuda::set_bc`, Robin, order 2: the ghost values continue every quadratic polynomial that meets the condition, when `beta` is 1;
for another `beta` they do not, see `C46_robin2_false`. -/
theorem C46_robin2_1d_partial [CharZero T] {i0 i1 g dg face : Int} {dx : Nat → T} {d0 u : Ptr} {bLo bHi : Nat → Int} {alpha : T}
    {β : Nat → Backend} {m : Mem T} (hβ : ∀ n, ValidBackend (β n))
    (hi : i0 ≤ i1) (hg : 0 ≤ g) (hdg : 0 ≤ dg)
    (hs : ∀ n < 1, InInt (bLo n + 1) ∧ InInt (bHi n + 1))
    (hf0 : face = 0 → Reach i0 i1 g (bLo 0) 2 ∧ OnFaces i0 i1 dg (bLo 0 + 1))
    (hf1 : face = 1 → Reach i0 i1 g (bHi 0) (-2) ∧ OnFaces i0 i1 dg (bHi 0))
    (h : F.Args m [F.face1d d0 i0 i1 dg] [F.cell1d u i0 i1 g]) :
    ∃ m', Cuda.setBc1d i0 i1 dx dg d0 g u bLo bHi 2 face 4 alpha 1 β m = .ok m' ∧
      (face = 0 → ∀ b, F.El m (F.face1d d0 i0 i1 dg) [bLo 0 + 1] b → 8 * alpha * b + 3 * 1 * dx 0 ≠ 0 →
        Continues m m' (F.cell1d u i0 i1 g) (fun x => [bLo 0 + x]) (dx 0) 2 2 (Robin alpha b 1)) ∧
      (face = 1 → ∀ b, F.El m (F.face1d d0 i0 i1 dg) [bHi 0] b → 8 * alpha * b + 3 * 1 * dx 0 ≠ 0 →
        Continues m m' (F.cell1d u i0 i1 g) (fun x => [bHi 0 - x]) (dx 0) 2 2 (Robin alpha b 1)) := by
  obtain ⟨m', hm, hq⟩ := ghosts_1d (dx := dx) (exOrder := 2) (btype := 4) (alpha := alpha) (beta := 1) hβ hi hg hdg hs hf0 hf1 h
  exact ⟨m', hm, fun e b hb hne p hp h0 hS => hq.1 e _ (by rw [hb.rd]; exact robin2_poly (c := fun x => [bLo 0 + x]) hp h0 hS hne),
    fun e b hb hne p hp h0 hS => hq.2 e _ (by rw [hb.rd]; exact robin2_poly (c := fun x => [bHi 0 - x]) hp h0 hS hne)⟩

example : ∃ m', Cuda.setBc1d 0 7 exDx 1 ⟨0, 0⟩ 1 ⟨9, 0⟩ exLo exHi 2 0 4 3 1 (fun _ => revBackend) exRat = .ok m' ∧
    Continues exRat m' (F.cell1d ⟨9, 0⟩ 0 7 1) (fun x => [exLo 0 + x]) (1 / 2) 2 2 (Robin 3 1 1) := by
  obtain ⟨m', hm, hq⟩ := C46_robin2_1d_partial (i0 := 0) (i1 := 7) (g := 1) (dg := 1) (d0 := ⟨0, 0⟩) (u := ⟨9, 0⟩) (m := exRat) (β := fun _ => revBackend) (dx := exDx) (face := 0) (bLo := exLo) (bHi := exHi) (alpha := 3) (fun _ => revBackend_ok) (by decide) (by decide) (by decide) (by ex_seg) (by ex_seg) (by ex_seg) (by ex_args)
  exact ⟨m', hm, by simpa [exDx] using hq.1 rfl 1 (by ex_el) (by norm_num [exDx])⟩

/-- `cd_correct_bc_1d_cuda::set_poisson_bc`, Robin, order 2: the arguments `alpha` and `beta` are not used (`C46_robin_poisson_1d_false`); the ghost values are those of
`alpha = 2`, `beta = 1`. -/
theorem C46_robin2_poisson_1d_partial [CharZero T] {i0 i1 g face : Int} {dx : Nat → T} { u : Ptr} {bLo bHi : Nat → Int} {alpha beta : T}
    {β : Nat → Backend} {m : Mem T} (hβ : ∀ n, ValidBackend (β n))
    (hi : i0 ≤ i1) (hg : 0 ≤ g)
    (hs : ∀ n < 1, InInt (bLo n + 1) ∧ InInt (bHi n + 1))
    (hf0 : face = 0 → Reach i0 i1 g (bLo 0) 2)
    (hf1 : face = 1 → Reach i0 i1 g (bHi 0) (-2))
    (h : F.Args m [] [F.cell1d u i0 i1 g]) :
    ∃ m', Cuda.setPoissonBc1d i0 i1 dx g u bLo bHi 2 face 4 alpha beta β m = .ok m' ∧
      (face = 0 → 8 * 2 * 1 + 3 * 1 * dx 0 ≠ 0 → Continues m m' (F.cell1d u i0 i1 g) (fun x => [bLo 0 + x]) (dx 0) 2 2 (Robin 2 1 1)) ∧
      (face = 1 → 8 * 2 * 1 + 3 * 1 * dx 0 ≠ 0 → Continues m m' (F.cell1d u i0 i1 g) (fun x => [bHi 0 - x]) (dx 0) 2 2 (Robin 2 1 1)) := by
  obtain ⟨m', hm, hq⟩ := ghosts_p1d (dx := dx) (exOrder := 2) (btype := 4) (alpha := alpha) (beta := beta) hβ hi hg hs hf0 hf1 h
  exact ⟨m', hm, fun e hne p hp h0 hS => hq.1 e _ (robin2_poly (c := fun x => [bLo 0 + x]) hp h0 hS hne),
    fun e hne p hp h0 hS => hq.2 e _ (robin2_poly (c := fun x => [bHi 0 - x]) hp h0 hS hne)⟩

example : ∃ m', Cuda.setPoissonBc1d 0 7 exDx 1 ⟨9, 0⟩ exLo exHi 2 0 4 3 5 (fun _ => revBackend) exRat = .ok m' ∧
    Continues exRat m' (F.cell1d ⟨9, 0⟩ 0 7 1) (fun x => [exLo 0 + x]) (1 / 2) 2 2 (Robin 2 1 1) := by
  obtain ⟨m', hm, hq⟩ := C46_robin2_poisson_1d_partial (i0 := 0) (i1 := 7) (g := 1) (u := ⟨9, 0⟩) (m := exRat) (β := fun _ => revBackend) (dx := exDx) (face := 0) (bLo := exLo) (bHi := exHi) (alpha := 3) (beta := 5) (fun _ => revBackend_ok) (by decide) (by decide) (by ex_seg) (by ex_seg) (by ex_seg) (by ex_args)
  exact ⟨m', hm, by simpa [exDx] using hq.1 rfl (by norm_num [exDx])⟩

/-- `cd_correct_bc_2d_cuda::set_bc`, Robin, order 2: the ghost values continue every quadratic polynomial that meets the condition, when `beta` is 1;
for another `beta` they do not, see `C46_robin2_false`. -/
theorem C46_robin2_2d_partial [CharZero T] {i0 j0 i1 j1 g dg face : Int} {dx : Nat → T} {d0 d1 u : Ptr} {bLo bHi : Nat → Int} {alpha : T}
    {β : Nat → Backend} {m : Mem T} (hβ : ∀ n, ValidBackend (β n))
    (hi : i0 ≤ i1) (hj : j0 ≤ j1) (hg : 0 ≤ g) (hdg : 0 ≤ dg)
    (hs : ∀ n < 2, InInt (bLo n + 1) ∧ InInt (bHi n + 1))
    (hf0 : face = 0 → Reach i0 i1 g (bLo 0) 2 ∧ OnFaces i0 i1 dg (bLo 0 + 1) ∧ Meets j0 j1 (bLo 1) (bHi 1))
    (hf1 : face = 1 → Reach i0 i1 g (bHi 0) (-2) ∧ OnFaces i0 i1 dg (bHi 0) ∧ Meets j0 j1 (bLo 1) (bHi 1))
    (hf2 : face = 2 → Reach j0 j1 g (bLo 1) 2 ∧ OnFaces j0 j1 dg (bLo 1 + 1) ∧ Meets i0 i1 (bLo 0) (bHi 0))
    (hf3 : face = 3 → Reach j0 j1 g (bHi 1) (-2) ∧ OnFaces j0 j1 dg (bHi 1) ∧ Meets i0 i1 (bLo 0) (bHi 0))
    (h : F.Args m [F.face2d0 d0 i0 j0 i1 j1 dg, F.face2d1 d1 i0 j0 i1 j1 dg] [F.cell2d u i0 j0 i1 j1 g]) :
    ∃ m', Cuda.setBc2d i0 i1 j0 j1 dx dg d0 d1 g u bLo bHi 2 face 1 4 alpha 1 β m = .ok m' ∧
      (face = 0 → ∀ j, max j0 (bLo 1) ≤ j → j ≤ min j1 (bHi 1) → ∀ b, F.El m (F.face2d0 d0 i0 j0 i1 j1 dg) [bLo 0 + 1, j] b → 8 * alpha * b + 3 * 1 * dx 0 ≠ 0 →
        Continues m m' (F.cell2d u i0 j0 i1 j1 g) (fun x => [bLo 0 + x, j]) (dx 0) 2 2 (Robin alpha b 1)) ∧
      (face = 1 → ∀ j, max j0 (bLo 1) ≤ j → j ≤ min j1 (bHi 1) → ∀ b, F.El m (F.face2d0 d0 i0 j0 i1 j1 dg) [bHi 0, j] b → 8 * alpha * b + 3 * 1 * dx 0 ≠ 0 →
        Continues m m' (F.cell2d u i0 j0 i1 j1 g) (fun x => [bHi 0 - x, j]) (dx 0) 2 2 (Robin alpha b 1)) ∧
      (face = 2 → ∀ i, max i0 (bLo 0) ≤ i → i ≤ min i1 (bHi 0) → ∀ b, F.El m (F.face2d1 d1 i0 j0 i1 j1 dg) [bLo 1 + 1, i] b → 8 * alpha * b + 3 * 1 * dx 1 ≠ 0 →
        Continues m m' (F.cell2d u i0 j0 i1 j1 g) (fun x => [i, bLo 1 + x]) (dx 1) 2 2 (Robin alpha b 1)) ∧
      (face = 3 → ∀ i, max i0 (bLo 0) ≤ i → i ≤ min i1 (bHi 0) → ∀ b, F.El m (F.face2d1 d1 i0 j0 i1 j1 dg) [bHi 1, i] b → 8 * alpha * b + 3 * 1 * dx 1 ≠ 0 →
        Continues m m' (F.cell2d u i0 j0 i1 j1 g) (fun x => [i, bHi 1 - x]) (dx 1) 2 2 (Robin alpha b 1)) := by
  obtain ⟨m', hm, hq⟩ := ghosts_2d (dx := dx) (exOrder := 2) (btype := 4) (alpha := alpha) (beta := 1) hβ hi hj hg hdg hs hf0 hf1 hf2 hf3 h
  exact ⟨m', hm, fun e j ja jb b hb hne p hp h0 hS => hq.1 e j ja jb _ (by rw [hb.rd]; exact robin2_poly (c := fun x => [bLo 0 + x, j]) hp h0 hS hne),
    fun e j ja jb b hb hne p hp h0 hS => hq.2.1 e j ja jb _ (by rw [hb.rd]; exact robin2_poly (c := fun x => [bHi 0 - x, j]) hp h0 hS hne),
    fun e i ia ib b hb hne p hp h0 hS => hq.2.2.1 e i ia ib _ (by rw [hb.rd]; exact robin2_poly (c := fun x => [i, bLo 1 + x]) hp h0 hS hne),
    fun e i ia ib b hb hne p hp h0 hS => hq.2.2.2 e i ia ib _ (by rw [hb.rd]; exact robin2_poly (c := fun x => [i, bHi 1 - x]) hp h0 hS hne)⟩

example : ∃ m', Cuda.setBc2d 0 7 0 7 exDx 1 ⟨0, 0⟩ ⟨1, 0⟩ 1 ⟨9, 0⟩ exLo exHi 2 0 1 4 3 1 (fun _ => revBackend) exRat = .ok m' ∧
    Continues exRat m' (F.cell2d ⟨9, 0⟩ 0 0 7 7 1) (fun x => [exLo 0 + x, 1]) (1 / 2) 2 2 (Robin 3 529 1) := by
  obtain ⟨m', hm, hq⟩ := C46_robin2_2d_partial (i0 := 0) (j0 := 0) (i1 := 7) (j1 := 7) (g := 1) (dg := 1) (d0 := ⟨0, 0⟩) (d1 := ⟨1, 0⟩) (u := ⟨9, 0⟩) (m := exRat) (β := fun _ => revBackend) (dx := exDx) (face := 0) (bLo := exLo) (bHi := exHi) (alpha := 3) (fun _ => revBackend_ok) (by decide) (by decide) (by decide) (by decide) (by ex_seg) (by ex_seg) (by ex_seg) (by ex_seg) (by ex_seg) (by ex_args)
  exact ⟨m', hm, by simpa [exDx] using hq.1 rfl 1 (by decide) (by decide) 529 (by ex_el) (by norm_num [exDx])⟩

/-- `cd_correct_bc_2d_cuda::set_poisson_bc`, Robin, order 2: the ghost values continue every quadratic polynomial that meets the condition, when `beta` is 1;
for another `beta` they do not, see `C46_robin2_false`.
Faces across the first axis only: across the second the kernel leaves the ghost cells alone (`C46_robin_poisson_2d_false`). -/
theorem C46_robin2_poisson_2d_partial [CharZero T] {i0 j0 i1 j1 g face : Int} {dx : Nat → T} { u : Ptr} {bLo bHi : Nat → Int} {alpha : T}
    {β : Nat → Backend} {m : Mem T} (hβ : ∀ n, ValidBackend (β n))
    (hi : i0 ≤ i1) (hj : j0 ≤ j1) (hg : 0 ≤ g)
    (hs : ∀ n < 2, InInt (bLo n + 1) ∧ InInt (bHi n + 1))
    (hf0 : face = 0 → Reach i0 i1 g (bLo 0) 2 ∧ Meets j0 j1 (bLo 1) (bHi 1))
    (hf1 : face = 1 → Reach i0 i1 g (bHi 0) (-2) ∧ Meets j0 j1 (bLo 1) (bHi 1))
    (hf2 : face = 2 → Reach j0 j1 g (bLo 1) 2 ∧ Meets i0 i1 (bLo 0) (bHi 0))
    (hf3 : face = 3 → Reach j0 j1 g (bHi 1) (-2) ∧ Meets i0 i1 (bLo 0) (bHi 0))
    (h : F.Args m [] [F.cell2d u i0 j0 i1 j1 g]) :
    ∃ m', Cuda.setPoissonBc2d i0 i1 j0 j1 dx g u bLo bHi 2 face 1 4 alpha 1 β m = .ok m' ∧
      (face = 0 → ∀ j, max j0 (bLo 1) ≤ j → j ≤ min j1 (bHi 1) → 8 * alpha * 1 + 3 * 1 * dx 0 ≠ 0 → Continues m m' (F.cell2d u i0 j0 i1 j1 g) (fun x => [bLo 0 + x, j]) (dx 0) 2 2 (Robin alpha 1 1)) ∧
      (face = 1 → ∀ j, max j0 (bLo 1) ≤ j → j ≤ min j1 (bHi 1) → 8 * alpha * 1 + 3 * 1 * dx 0 ≠ 0 → Continues m m' (F.cell2d u i0 j0 i1 j1 g) (fun x => [bHi 0 - x, j]) (dx 0) 2 2 (Robin alpha 1 1)) := by
  obtain ⟨m', hm, hq⟩ := ghosts_p2d (dx := dx) (exOrder := 2) (btype := 4) (alpha := alpha) (beta := 1) hβ hi hj hg hs hf0 hf1 hf2 hf3 h
  exact ⟨m', hm, fun e j ja jb hne p hp h0 hS => hq.1 e j ja jb _ (robin2_poly (c := fun x => [bLo 0 + x, j]) hp h0 hS hne),
    fun e j ja jb hne p hp h0 hS => hq.2.1 e j ja jb _ (robin2_poly (c := fun x => [bHi 0 - x, j]) hp h0 hS hne)⟩

example : ∃ m', Cuda.setPoissonBc2d 0 7 0 7 exDx 1 ⟨9, 0⟩ exLo exHi 2 0 1 4 3 1 (fun _ => revBackend) exRat = .ok m' ∧
    Continues exRat m' (F.cell2d ⟨9, 0⟩ 0 0 7 7 1) (fun x => [exLo 0 + x, 1]) (1 / 2) 2 2 (Robin 3 1 1) := by
  obtain ⟨m', hm, hq⟩ := C46_robin2_poisson_2d_partial (i0 := 0) (j0 := 0) (i1 := 7) (j1 := 7) (g := 1) (u := ⟨9, 0⟩) (m := exRat) (β := fun _ => revBackend) (dx := exDx) (face := 0) (bLo := exLo) (bHi := exHi) (alpha := 3) (fun _ => revBackend_ok) (by decide) (by decide) (by decide) (by ex_seg) (by ex_seg) (by ex_seg) (by ex_seg) (by ex_seg) (by ex_args)
  exact ⟨m', hm, by simpa [exDx] using hq.1 rfl 1 (by decide) (by decide) (by norm_num [exDx])⟩

/-- `cd_correct_bc_3d_cuda::set_bc`, Robin, order 2: the ghost values continue every quadratic polynomial that meets the condition, when `beta` is 1;
for another `beta` they do not, see `C46_robin2_false`. -/
theorem C46_robin2_3d_partial [CharZero T] {i0 j0 k0 i1 j1 k1 g dg face : Int} {dx : Nat → T} {d0 d1 d2 u : Ptr} {bLo bHi : Nat → Int} {alpha : T}
    {β : Nat → Backend} {m : Mem T} (hβ : ∀ n, ValidBackend (β n))
    (hi : i0 ≤ i1) (hj : j0 ≤ j1) (hk : k0 ≤ k1) (hg : 0 ≤ g) (hdg : 0 ≤ dg)
    (hs : ∀ n < 3, InInt (bLo n + 1) ∧ InInt (bHi n + 1))
    (hf0 : face = 0 → Reach i0 i1 g (bLo 0) 2 ∧ OnFaces i0 i1 dg (bLo 0 + 1) ∧ Meets j0 j1 (bLo 1) (bHi 1) ∧ Meets k0 k1 (bLo 2) (bHi 2))
    (hf1 : face = 1 → Reach i0 i1 g (bHi 0) (-2) ∧ OnFaces i0 i1 dg (bHi 0) ∧ Meets j0 j1 (bLo 1) (bHi 1) ∧ Meets k0 k1 (bLo 2) (bHi 2))
    (hf2 : face = 2 → Reach j0 j1 g (bLo 1) 2 ∧ OnFaces j0 j1 dg (bLo 1 + 1) ∧ Meets i0 i1 (bLo 0) (bHi 0) ∧ Meets k0 k1 (bLo 2) (bHi 2))
    (hf3 : face = 3 → Reach j0 j1 g (bHi 1) (-2) ∧ OnFaces j0 j1 dg (bHi 1) ∧ Meets i0 i1 (bLo 0) (bHi 0) ∧ Meets k0 k1 (bLo 2) (bHi 2))
    (hf4 : face = 4 → Reach k0 k1 g (bLo 2) 2 ∧ OnFaces k0 k1 dg (bLo 2 + 1) ∧ Meets i0 i1 (bLo 0) (bHi 0) ∧ Meets j0 j1 (bLo 1) (bHi 1))
    (hf5 : face = 5 → Reach k0 k1 g (bHi 2) (-2) ∧ OnFaces k0 k1 dg (bHi 2) ∧ Meets i0 i1 (bLo 0) (bHi 0) ∧ Meets j0 j1 (bLo 1) (bHi 1))
    (h : F.Args m [F.face3d0 d0 i0 j0 k0 i1 j1 k1 dg, F.face3d1 d1 i0 j0 k0 i1 j1 k1 dg, F.face3d2 d2 i0 j0 k0 i1 j1 k1 dg] [F.cell3d u i0 j0 k0 i1 j1 k1 g]) :
    ∃ m', Cuda.setBc3d i0 i1 j0 j1 k0 k1 dx dg d0 d1 d2 g u bLo bHi 2 face 1 4 alpha 1 β m = .ok m' ∧
      (face = 0 → ∀ j, max j0 (bLo 1) ≤ j → j ≤ min j1 (bHi 1) → ∀ k, max k0 (bLo 2) ≤ k → k ≤ min k1 (bHi 2) → ∀ b, F.El m (F.face3d0 d0 i0 j0 k0 i1 j1 k1 dg) [bLo 0 + 1, j, k] b → 8 * alpha * b + 3 * 1 * dx 0 ≠ 0 →
        Continues m m' (F.cell3d u i0 j0 k0 i1 j1 k1 g) (fun x => [bLo 0 + x, j, k]) (dx 0) 2 2 (Robin alpha b 1)) ∧
      (face = 1 → ∀ j, max j0 (bLo 1) ≤ j → j ≤ min j1 (bHi 1) → ∀ k, max k0 (bLo 2) ≤ k → k ≤ min k1 (bHi 2) → ∀ b, F.El m (F.face3d0 d0 i0 j0 k0 i1 j1 k1 dg) [bHi 0, j, k] b → 8 * alpha * b + 3 * 1 * dx 0 ≠ 0 →
        Continues m m' (F.cell3d u i0 j0 k0 i1 j1 k1 g) (fun x => [bHi 0 - x, j, k]) (dx 0) 2 2 (Robin alpha b 1)) ∧
      (face = 2 → ∀ i, max i0 (bLo 0) ≤ i → i ≤ min i1 (bHi 0) → ∀ k, max k0 (bLo 2) ≤ k → k ≤ min k1 (bHi 2) → ∀ b, F.El m (F.face3d1 d1 i0 j0 k0 i1 j1 k1 dg) [bLo 1 + 1, k, i] b → 8 * alpha * b + 3 * 1 * dx 1 ≠ 0 →
        Continues m m' (F.cell3d u i0 j0 k0 i1 j1 k1 g) (fun x => [i, bLo 1 + x, k]) (dx 1) 2 2 (Robin alpha b 1)) ∧
      (face = 3 → ∀ i, max i0 (bLo 0) ≤ i → i ≤ min i1 (bHi 0) → ∀ k, max k0 (bLo 2) ≤ k → k ≤ min k1 (bHi 2) → ∀ b, F.El m (F.face3d1 d1 i0 j0 k0 i1 j1 k1 dg) [bHi 1, k, i] b → 8 * alpha * b + 3 * 1 * dx 1 ≠ 0 →
        Continues m m' (F.cell3d u i0 j0 k0 i1 j1 k1 g) (fun x => [i, bHi 1 - x, k]) (dx 1) 2 2 (Robin alpha b 1)) ∧
      (face = 4 → ∀ i, max i0 (bLo 0) ≤ i → i ≤ min i1 (bHi 0) → ∀ j, max j0 (bLo 1) ≤ j → j ≤ min j1 (bHi 1) → ∀ b, F.El m (F.face3d2 d2 i0 j0 k0 i1 j1 k1 dg) [bLo 2 + 1, i, j] b → 8 * alpha * b + 3 * 1 * dx 2 ≠ 0 →
        Continues m m' (F.cell3d u i0 j0 k0 i1 j1 k1 g) (fun x => [i, j, bLo 2 + x]) (dx 2) 2 2 (Robin alpha b 1)) ∧
      (face = 5 → ∀ i, max i0 (bLo 0) ≤ i → i ≤ min i1 (bHi 0) → ∀ j, max j0 (bLo 1) ≤ j → j ≤ min j1 (bHi 1) → ∀ b, F.El m (F.face3d2 d2 i0 j0 k0 i1 j1 k1 dg) [bHi 2, i, j] b → 8 * alpha * b + 3 * 1 * dx 2 ≠ 0 →
        Continues m m' (F.cell3d u i0 j0 k0 i1 j1 k1 g) (fun x => [i, j, bHi 2 - x]) (dx 2) 2 2 (Robin alpha b 1)) := by
  obtain ⟨m', hm, hq⟩ := ghosts_3d (dx := dx) (exOrder := 2) (btype := 4) (alpha := alpha) (beta := 1) hβ hi hj hk hg hdg hs hf0 hf1 hf2 hf3 hf4 hf5 h
  exact ⟨m', hm, fun e j ja jb k ka kb b hb hne p hp h0 hS => hq.1 e j ja jb k ka kb _ (by rw [hb.rd]; exact robin2_poly (c := fun x => [bLo 0 + x, j, k]) hp h0 hS hne),
    fun e j ja jb k ka kb b hb hne p hp h0 hS => hq.2.1 e j ja jb k ka kb _ (by rw [hb.rd]; exact robin2_poly (c := fun x => [bHi 0 - x, j, k]) hp h0 hS hne),
    fun e i ia ib k ka kb b hb hne p hp h0 hS => hq.2.2.1 e i ia ib k ka kb _ (by rw [hb.rd]; exact robin2_poly (c := fun x => [i, bLo 1 + x, k]) hp h0 hS hne),
    fun e i ia ib k ka kb b hb hne p hp h0 hS => hq.2.2.2.1 e i ia ib k ka kb _ (by rw [hb.rd]; exact robin2_poly (c := fun x => [i, bHi 1 - x, k]) hp h0 hS hne),
    fun e i ia ib j ja jb b hb hne p hp h0 hS => hq.2.2.2.2.1 e i ia ib j ja jb _ (by rw [hb.rd]; exact robin2_poly (c := fun x => [i, j, bLo 2 + x]) hp h0 hS hne),
    fun e i ia ib j ja jb b hb hne p hp h0 hS => hq.2.2.2.2.2 e i ia ib j ja jb _ (by rw [hb.rd]; exact robin2_poly (c := fun x => [i, j, bHi 2 - x]) hp h0 hS hne)⟩

example : ∃ m', Cuda.setBc3d 0 7 0 6 0 5 exDx 1 ⟨0, 0⟩ ⟨1, 0⟩ ⟨2, 0⟩ 1 ⟨9, 0⟩ exLo exHi 2 0 1 4 3 1 (fun _ => revBackend) exRat = .ok m' ∧
    Continues exRat m' (F.cell3d ⟨9, 0⟩ 0 0 0 7 6 5 1) (fun x => [exLo 0 + x, 1, 2]) (1 / 2) 2 2 (Robin 3 102400 1) := by
  obtain ⟨m', hm, hq⟩ := C46_robin2_3d_partial (i0 := 0) (j0 := 0) (k0 := 0) (i1 := 7) (j1 := 6) (k1 := 5) (g := 1) (dg := 1) (d0 := ⟨0, 0⟩) (d1 := ⟨1, 0⟩) (d2 := ⟨2, 0⟩) (u := ⟨9, 0⟩) (m := exRat) (β := fun _ => revBackend) (dx := exDx) (face := 0) (bLo := exLo) (bHi := exHi) (alpha := 3) (fun _ => revBackend_ok) (by decide) (by decide) (by decide) (by decide) (by decide) (by ex_seg) (by ex_seg) (by ex_seg) (by ex_seg) (by ex_seg) (by ex_seg) (by ex_seg) (by ex_args)
  exact ⟨m', hm, by simpa [exDx] using hq.1 rfl 1 (by decide) (by decide) 2 (by decide) (by decide) 102400 (by ex_el) (by norm_num [exDx])⟩

/-- `cd_correct_bc_3d_cuda::set_poisson_bc`, Robin, order 2: the ghost values continue every quadratic polynomial that meets the condition, when `beta` is 1;
for another `beta` they do not, see `C46_robin2_false`. -/
theorem C46_robin2_poisson_3d_partial [CharZero T] {i0 j0 k0 i1 j1 k1 g face : Int} {dx : Nat → T} { u : Ptr} {bLo bHi : Nat → Int} {alpha : T}
    {β : Nat → Backend} {m : Mem T} (hβ : ∀ n, ValidBackend (β n))
    (hi : i0 ≤ i1) (hj : j0 ≤ j1) (hk : k0 ≤ k1) (hg : 0 ≤ g)
    (hs : ∀ n < 3, InInt (bLo n + 1) ∧ InInt (bHi n + 1))
    (hf0 : face = 0 → Reach i0 i1 g (bLo 0) 2 ∧ Meets j0 j1 (bLo 1) (bHi 1) ∧ Meets k0 k1 (bLo 2) (bHi 2))
    (hf1 : face = 1 → Reach i0 i1 g (bHi 0) (-2) ∧ Meets j0 j1 (bLo 1) (bHi 1) ∧ Meets k0 k1 (bLo 2) (bHi 2))
    (hf2 : face = 2 → Reach j0 j1 g (bLo 1) 2 ∧ Meets i0 i1 (bLo 0) (bHi 0) ∧ Meets k0 k1 (bLo 2) (bHi 2))
    (hf3 : face = 3 → Reach j0 j1 g (bHi 1) (-2) ∧ Meets i0 i1 (bLo 0) (bHi 0) ∧ Meets k0 k1 (bLo 2) (bHi 2))
    (hf4 : face = 4 → Reach k0 k1 g (bLo 2) 2 ∧ Meets i0 i1 (bLo 0) (bHi 0) ∧ Meets j0 j1 (bLo 1) (bHi 1))
    (hf5 : face = 5 → Reach k0 k1 g (bHi 2) (-2) ∧ Meets i0 i1 (bLo 0) (bHi 0) ∧ Meets j0 j1 (bLo 1) (bHi 1))
    (h : F.Args m [] [F.cell3d u i0 j0 k0 i1 j1 k1 g]) :
    ∃ m', Cuda.setPoissonBc3d i0 i1 j0 j1 k0 k1 dx g u bLo bHi 2 face 1 4 alpha 1 β m = .ok m' ∧
      (face = 0 → ∀ j, max j0 (bLo 1) ≤ j → j ≤ min j1 (bHi 1) → ∀ k, max k0 (bLo 2) ≤ k → k ≤ min k1 (bHi 2) → 8 * alpha * 1 + 3 * 1 * dx 0 ≠ 0 → Continues m m' (F.cell3d u i0 j0 k0 i1 j1 k1 g) (fun x => [bLo 0 + x, j, k]) (dx 0) 2 2 (Robin alpha 1 1)) ∧
      (face = 1 → ∀ j, max j0 (bLo 1) ≤ j → j ≤ min j1 (bHi 1) → ∀ k, max k0 (bLo 2) ≤ k → k ≤ min k1 (bHi 2) → 8 * alpha * 1 + 3 * 1 * dx 0 ≠ 0 → Continues m m' (F.cell3d u i0 j0 k0 i1 j1 k1 g) (fun x => [bHi 0 - x, j, k]) (dx 0) 2 2 (Robin alpha 1 1)) ∧
      (face = 2 → ∀ i, max i0 (bLo 0) ≤ i → i ≤ min i1 (bHi 0) → ∀ k, max k0 (bLo 2) ≤ k → k ≤ min k1 (bHi 2) → 8 * alpha * 1 + 3 * 1 * dx 1 ≠ 0 → Continues m m' (F.cell3d u i0 j0 k0 i1 j1 k1 g) (fun x => [i, bLo 1 + x, k]) (dx 1) 2 2 (Robin alpha 1 1)) ∧
      (face = 3 → ∀ i, max i0 (bLo 0) ≤ i → i ≤ min i1 (bHi 0) → ∀ k, max k0 (bLo 2) ≤ k → k ≤ min k1 (bHi 2) → 8 * alpha * 1 + 3 * 1 * dx 1 ≠ 0 → Continues m m' (F.cell3d u i0 j0 k0 i1 j1 k1 g) (fun x => [i, bHi 1 - x, k]) (dx 1) 2 2 (Robin alpha 1 1)) ∧
      (face = 4 → ∀ i, max i0 (bLo 0) ≤ i → i ≤ min i1 (bHi 0) → ∀ j, max j0 (bLo 1) ≤ j → j ≤ min j1 (bHi 1) → 8 * alpha * 1 + 3 * 1 * dx 2 ≠ 0 → Continues m m' (F.cell3d u i0 j0 k0 i1 j1 k1 g) (fun x => [i, j, bLo 2 + x]) (dx 2) 2 2 (Robin alpha 1 1)) ∧
      (face = 5 → ∀ i, max i0 (bLo 0) ≤ i → i ≤ min i1 (bHi 0) → ∀ j, max j0 (bLo 1) ≤ j → j ≤ min j1 (bHi 1) → 8 * alpha * 1 + 3 * 1 * dx 2 ≠ 0 → Continues m m' (F.cell3d u i0 j0 k0 i1 j1 k1 g) (fun x => [i, j, bHi 2 - x]) (dx 2) 2 2 (Robin alpha 1 1)) := by
  obtain ⟨m', hm, hq⟩ := ghosts_p3d (dx := dx) (exOrder := 2) (btype := 4) (alpha := alpha) (beta := 1) hβ hi hj hk hg hs hf0 hf1 hf2 hf3 hf4 hf5 h
  exact ⟨m', hm, fun e j ja jb k ka kb hne p hp h0 hS => hq.1 e j ja jb k ka kb _ (robin2_poly (c := fun x => [bLo 0 + x, j, k]) hp h0 hS hne),
    fun e j ja jb k ka kb hne p hp h0 hS => hq.2.1 e j ja jb k ka kb _ (robin2_poly (c := fun x => [bHi 0 - x, j, k]) hp h0 hS hne),
    fun e i ia ib k ka kb hne p hp h0 hS => hq.2.2.1 e i ia ib k ka kb _ (robin2_poly (c := fun x => [i, bLo 1 + x, k]) hp h0 hS hne),
    fun e i ia ib k ka kb hne p hp h0 hS => hq.2.2.2.1 e i ia ib k ka kb _ (robin2_poly (c := fun x => [i, bHi 1 - x, k]) hp h0 hS hne),
    fun e i ia ib j ja jb hne p hp h0 hS => hq.2.2.2.2.1 e i ia ib j ja jb _ (robin2_poly (c := fun x => [i, j, bLo 2 + x]) hp h0 hS hne),
    fun e i ia ib j ja jb hne p hp h0 hS => hq.2.2.2.2.2 e i ia ib j ja jb _ (robin2_poly (c := fun x => [i, j, bHi 2 - x]) hp h0 hS hne)⟩

example : ∃ m', Cuda.setPoissonBc3d 0 7 0 6 0 5 exDx 1 ⟨9, 0⟩ exLo exHi 2 0 1 4 3 1 (fun _ => revBackend) exRat = .ok m' ∧
    Continues exRat m' (F.cell3d ⟨9, 0⟩ 0 0 0 7 6 5 1) (fun x => [exLo 0 + x, 1, 2]) (1 / 2) 2 2 (Robin 3 1 1) := by
  obtain ⟨m', hm, hq⟩ := C46_robin2_poisson_3d_partial (i0 := 0) (j0 := 0) (k0 := 0) (i1 := 7) (j1 := 6) (k1 := 5) (g := 1) (u := ⟨9, 0⟩) (m := exRat) (β := fun _ => revBackend) (dx := exDx) (face := 0) (bLo := exLo) (bHi := exHi) (alpha := 3) (fun _ => revBackend_ok) (by decide) (by decide) (by decide) (by decide) (by ex_seg) (by ex_seg) (by ex_seg) (by ex_seg) (by ex_seg) (by ex_seg) (by ex_seg) (by ex_args)
  exact ⟨m', hm, by simpa [exDx] using hq.1 rfl 1 (by decide) (by decide) 2 (by decide) (by decide) (by norm_num [exDx])⟩

/-- `cd_correct_bc_2d_cuda::set_homogenous_bc`, orders 1, 2, 3, 4: the ghost values of order n continue every polynomial of degree at most n
that is zero on the face. -/
theorem C41_homogenous_2d [CharZero T] {i0 j0 i1 j1 exOrder face : Int} {u : Ptr} {bLo bHi : Nat → Int} {n : Nat} {w : T}
    {β : Nat → Backend} {m : Mem T} (hβ : ∀ n, ValidBackend (β n)) (hi : i0 ≤ i1) (hj : j0 ≤ j1)
    (hs : ∀ n < 2, InInt (bLo n + 1) ∧ InInt (bHi n + 1)) (hn : exOrder = n) (h1 : 1 ≤ n) (h4 : n ≤ 4)
    (hx : face = 0 ∨ face = 1 → Reach i0 i1 1 (i0 - 1) exOrder ∧ Meets j0 j1 (bLo 1) (bHi 1))
    (hy : face = 2 ∨ face = 3 → Reach j0 j1 1 (j0 - 1) exOrder ∧ Meets i0 i1 (bLo 0) (bHi 0))
    (h : F.Args m [] [F.cell2d u i0 j0 i1 j1 1]) :
    ∃ m', Cuda.setHomogenousBc2d i0 j0 i1 j1 face bLo bHi exOrder u β m = .ok m' ∧
      (face = 0 → ∀ j, max j0 (bLo 1) ≤ j → j ≤ min j1 (bHi 1) → Continues m m' (F.cell2d u i0 j0 i1 j1 1) (fun x => [i0 - 1 + x, j]) w n n Dirichlet) ∧
      (face = 1 → ∀ j, max j0 (bLo 1) ≤ j → j ≤ min j1 (bHi 1) → Continues m m' (F.cell2d u i0 j0 i1 j1 1) (fun x => [i1 + 1 - x, j]) w n n Dirichlet) ∧
      (face = 2 → ∀ i, max i0 (bLo 0) ≤ i → i ≤ min i1 (bHi 0) → Continues m m' (F.cell2d u i0 j0 i1 j1 1) (fun x => [i, j0 - 1 + x]) w n n Dirichlet) ∧
      (face = 3 → ∀ i, max i0 (bLo 0) ≤ i → i ≤ min i1 (bHi 0) → Continues m m' (F.cell2d u i0 j0 i1 j1 1) (fun x => [i, j1 + 1 - x]) w n n Dirichlet) := by
  show Ends _ fun m' => _
  obtain ⟨Au, spu, Iu⟩ := cell2_setup (h.ok (F.cell2d u i0 j0 i1 j1 1) (by simp)) hi hj (by decide)
  have hs0 := hs 0 (by decide)
  have hs1 := hs 1 (by decide)
  have ho : 1 ≤ exOrder ∧ exOrder ≤ 4 := by omega
  unfold InInt at Iu hs0 hs1
  have mkI := mkB_ok (d := .I) (lo := i0) (hi := i1) (by unfold InInt; omega)
  have mkJ := mkB_ok (d := .J) (lo := j0) (hi := j1) (by unfold InInt; omega)
  have mkIb := mkB_ok (d := .I) (lo := max i0 (bLo 0)) (hi := min i1 (bHi 0)) (by unfold InInt; omega)
  have mkJb := mkB_ok (d := .J) (lo := max j0 (bLo 1)) (hi := min j1 (bHi 1)) (by unfold InInt; omega)
  have sI : isub i0 1 = .ok (i0 - 1) := isub_ok (by unfold InInt; omega)
  have aI : iadd i1 1 = .ok (i1 + 1) := iadd_ok (by unfold InInt; omega)
  have sJ : isub j0 1 = .ok (j0 - 1) := isub_ok (by unfold InInt; omega)
  have aJ : iadd j1 1 = .ok (j1 + 1) := iadd_ok (by unfold InInt; omega)
  have mkIl := mkB_ok (d := .I) (lo := i0 - 1) (hi := i0 - 1) (by unfold InInt; omega)
  have mkIh := mkB_ok (d := .I) (lo := i1 + 1) (hi := i1 + 1) (by unfold InInt; omega)
  have mkJl := mkB_ok (d := .J) (lo := j0 - 1) (hi := j0 - 1) (by unfold InInt; omega)
  have mkJh := mkB_ok (d := .J) (lo := j1 + 1) (hi := j1 + 1) (by unfold InInt; omega)
  unfold Cuda.setHomogenousBc2d
  refine Ends.bind mkI <| Ends.bind mkJ <| Ends.bind spu <| Ends.bind mkIb <| Ends.bind mkJb <| Ends.bind sI <| Ends.bind mkIl <| Ends.bind aI <|
    Ends.bind mkIh <| Ends.bind sJ <| Ends.bind mkJl <| Ends.bind aJ <| Ends.bind mkJh <| ?_
  by_cases e0 : face = 0
  · rw [if_pos e0]
    obtain ⟨hr, hm⟩ := hx (by omega)
    simp only [Reach, Meets] at hr hm
    have S := site2I (li := i0 - 1) (xi := i0 - 1 + 0) (aj := max j0 (bLo 1)) (bj := min j1 (bHi 1)) Au (by omega) (by omega) (by simp)
    have A1 := at2I_I (ki := 1) (yi := i0 - 1 + 1) S (by omega) (by omega) (by decide) (by omega)
    have A2 := fun h2 : 2 ≤ exOrder => at2I_I (ki := 2) (yi := i0 - 1 + 2) S (by omega) (by omega) (by decide) (by omega)
    have A3 := fun h3 : 3 ≤ exOrder => at2I_I (ki := 3) (yi := i0 - 1 + 3) S (by omega) (by omega) (by decide) (by omega)
    have A4 := fun h4 : 4 ≤ exOrder => at2I_I (ki := 4) (yi := i0 - 1 + 4) S (by omega) (by omega) (by decide) (by omega)
    have B := S.hom_ends (jx := fun io p => [i0 - 1 + io, p .J]) (hβ 0) ho A1 A2 A3 A4
    refine B.seq fun m1 L1 => ?_
    have S0 := site2IJ (lj := j0 - 1) (li := i0 - 1) (xj := j0 - 1) (xi := i0 - 1) (Au.mono L1.alloc) (by omega) (by omega) rfl rfl
    have C0 := S0.copy_ends (hβ 1) (at2IJ_IJ (ki := 1) (kj := 1) (yi := i0) (yj := j0) S0 (by omega) (by decide) (by omega) (by omega) (by decide) (by omega))
    refine C0.seq fun m2 L2 => ?_
    have S1 := site2IJ (lj := j1 + 1) (li := i0 - 1) (xj := j1 + 1) (xi := i0 - 1) ((Au.mono L1.alloc).mono L2.alloc) (by omega) (by omega) rfl rfl
    have C1 := S1.copy_ends (hβ 2) (at2IJ_IJ (ki := 1) (kj := -1) (yi := i0) (yj := j1) S1 (by omega) (by decide) (by omega) (by omega) (by decide) (by omega))
    refine C1.mono fun m' L3 => ⟨fun _ j ja jb p hp h0 hS => ?_, fun e => absurd (e0.symm.trans e) (by decide), fun e => absurd (e0.symm.trans e) (by decide), fun e => absurd (e0.symm.trans e) (by decide)⟩
    have el := L1.el (facePt (i0 - 1) j 0 0) (by site_mem)
    rw [← hom_poly (c := fun x => [i0 - 1 + x, j]) hn h1 h4 hp h0 hS]
    refine L3.keep S1 (L2.keep S0 el fun p hp e => ?_) fun p hp e => ?_ <;> (simp [facePt] at e; omega)
  by_cases e1 : face = 1
  · rw [if_neg e0, if_pos e1]
    obtain ⟨hr, hm⟩ := hx (by omega)
    simp only [Reach, Meets] at hr hm
    have S := site2I (li := i1 + 1) (xi := i1 + 1 - 0) (aj := max j0 (bLo 1)) (bj := min j1 (bHi 1)) Au (by omega) (by omega) (by simp)
    have A1 := at2I_I (ki := -1) (yi := i1 + 1 - 1) S (by omega) (by omega) (by decide) (by omega)
    have A2 := fun h2 : 2 ≤ exOrder => at2I_I (ki := -2) (yi := i1 + 1 - 2) S (by omega) (by omega) (by decide) (by omega)
    have A3 := fun h3 : 3 ≤ exOrder => at2I_I (ki := -3) (yi := i1 + 1 - 3) S (by omega) (by omega) (by decide) (by omega)
    have A4 := fun h4 : 4 ≤ exOrder => at2I_I (ki := -4) (yi := i1 + 1 - 4) S (by omega) (by omega) (by decide) (by omega)
    have B := S.hom_ends (jx := fun io p => [i1 + 1 - io, p .J]) (hβ 0) ho A1 A2 A3 A4
    refine B.seq fun m1 L1 => ?_
    have S0 := site2IJ (lj := j0 - 1) (li := i1 + 1) (xj := j0 - 1) (xi := i1 + 1) (Au.mono L1.alloc) (by omega) (by omega) rfl rfl
    have C0 := S0.copy_ends (hβ 1) (at2IJ_IJ (ki := -1) (kj := 1) (yi := i1) (yj := j0) S0 (by omega) (by decide) (by omega) (by omega) (by decide) (by omega))
    refine C0.seq fun m2 L2 => ?_
    have S1 := site2IJ (lj := j1 + 1) (li := i1 + 1) (xj := j1 + 1) (xi := i1 + 1) ((Au.mono L1.alloc).mono L2.alloc) (by omega) (by omega) rfl rfl
    have C1 := S1.copy_ends (hβ 2) (at2IJ_IJ (ki := -1) (kj := -1) (yi := i1) (yj := j1) S1 (by omega) (by decide) (by omega) (by omega) (by decide) (by omega))
    refine C1.mono fun m' L3 => ⟨fun e => absurd (e1.symm.trans e) (by decide), fun _ j ja jb p hp h0 hS => ?_, fun e => absurd (e1.symm.trans e) (by decide), fun e => absurd (e1.symm.trans e) (by decide)⟩
    have el := L1.el (facePt (i1 + 1) j 0 0) (by site_mem)
    rw [← hom_poly (c := fun x => [i1 + 1 - x, j]) hn h1 h4 hp h0 hS]
    refine L3.keep S1 (L2.keep S0 el fun p hp e => ?_) fun p hp e => ?_ <;> (simp [facePt] at e; omega)
  by_cases e2 : face = 2
  · rw [if_neg e0, if_neg e1, if_pos e2]
    obtain ⟨hr, hm⟩ := hy (by omega)
    simp only [Reach, Meets] at hr hm
    have S := site2J (lj := j0 - 1) (xj := j0 - 1 + 0) (ai := max i0 (bLo 0)) (bi := min i1 (bHi 0)) Au (by omega) (by omega) (by simp)
    have A1 := at2J_J (kj := 1) (yj := j0 - 1 + 1) S (by omega) (by omega) (by decide) (by omega)
    have A2 := fun h2 : 2 ≤ exOrder => at2J_J (kj := 2) (yj := j0 - 1 + 2) S (by omega) (by omega) (by decide) (by omega)
    have A3 := fun h3 : 3 ≤ exOrder => at2J_J (kj := 3) (yj := j0 - 1 + 3) S (by omega) (by omega) (by decide) (by omega)
    have A4 := fun h4 : 4 ≤ exOrder => at2J_J (kj := 4) (yj := j0 - 1 + 4) S (by omega) (by omega) (by decide) (by omega)
    have B := S.hom_ends (jx := fun io p => [p .I, j0 - 1 + io]) (hβ 0) ho A1 A2 A3 A4
    refine B.seq fun m1 L1 => ?_
    have S0 := site2IJ (lj := j0 - 1) (li := i0 - 1) (xj := j0 - 1) (xi := i0 - 1) (Au.mono L1.alloc) (by omega) (by omega) rfl rfl
    have C0 := S0.copy_ends (hβ 1) (at2IJ_IJ (ki := 1) (kj := 1) (yi := i0) (yj := j0) S0 (by omega) (by decide) (by omega) (by omega) (by decide) (by omega))
    refine C0.seq fun m2 L2 => ?_
    have S1 := site2IJ (lj := j0 - 1) (li := i1 + 1) (xj := j0 - 1) (xi := i1 + 1) ((Au.mono L1.alloc).mono L2.alloc) (by omega) (by omega) rfl rfl
    have C1 := S1.copy_ends (hβ 2) (at2IJ_IJ (ki := -1) (kj := 1) (yi := i1) (yj := j0) S1 (by omega) (by decide) (by omega) (by omega) (by decide) (by omega))
    refine C1.mono fun m' L3 => ⟨fun e => absurd (e2.symm.trans e) (by decide), fun e => absurd (e2.symm.trans e) (by decide), fun _ i ia ib p hp h0 hS => ?_, fun e => absurd (e2.symm.trans e) (by decide)⟩
    have el := L1.el (facePt i (j0 - 1) 0 0) (by site_mem)
    rw [← hom_poly (c := fun x => [i, j0 - 1 + x]) hn h1 h4 hp h0 hS]
    refine L3.keep S1 (L2.keep S0 el fun p hp e => ?_) fun p hp e => ?_ <;> (simp [facePt] at e; omega)
  by_cases e3 : face = 3
  · rw [if_neg e0, if_neg e1, if_neg e2, if_pos e3]
    obtain ⟨hr, hm⟩ := hy (by omega)
    simp only [Reach, Meets] at hr hm
    have S := site2J (lj := j1 + 1) (xj := j1 + 1 - 0) (ai := max i0 (bLo 0)) (bi := min i1 (bHi 0)) Au (by omega) (by omega) (by simp)
    have A1 := at2J_J (kj := -1) (yj := j1 + 1 - 1) S (by omega) (by omega) (by decide) (by omega)
    have A2 := fun h2 : 2 ≤ exOrder => at2J_J (kj := -2) (yj := j1 + 1 - 2) S (by omega) (by omega) (by decide) (by omega)
    have A3 := fun h3 : 3 ≤ exOrder => at2J_J (kj := -3) (yj := j1 + 1 - 3) S (by omega) (by omega) (by decide) (by omega)
    have A4 := fun h4 : 4 ≤ exOrder => at2J_J (kj := -4) (yj := j1 + 1 - 4) S (by omega) (by omega) (by decide) (by omega)
    have B := S.hom_ends (jx := fun io p => [p .I, j1 + 1 - io]) (hβ 0) ho A1 A2 A3 A4
    refine B.seq fun m1 L1 => ?_
    have S0 := site2IJ (lj := j1 + 1) (li := i0 - 1) (xj := j1 + 1) (xi := i0 - 1) (Au.mono L1.alloc) (by omega) (by omega) rfl rfl
    have C0 := S0.copy_ends (hβ 1) (at2IJ_IJ (ki := 1) (kj := -1) (yi := i0) (yj := j1) S0 (by omega) (by decide) (by omega) (by omega) (by decide) (by omega))
    refine C0.seq fun m2 L2 => ?_
    have S1 := site2IJ (lj := j1 + 1) (li := i1 + 1) (xj := j1 + 1) (xi := i1 + 1) ((Au.mono L1.alloc).mono L2.alloc) (by omega) (by omega) rfl rfl
    have C1 := S1.copy_ends (hβ 2) (at2IJ_IJ (ki := -1) (kj := -1) (yi := i1) (yj := j1) S1 (by omega) (by decide) (by omega) (by omega) (by decide) (by omega))
    refine C1.mono fun m' L3 => ⟨fun e => absurd (e3.symm.trans e) (by decide), fun e => absurd (e3.symm.trans e) (by decide), fun e => absurd (e3.symm.trans e) (by decide), fun _ i ia ib p hp h0 hS => ?_⟩
    have el := L1.el (facePt i (j1 + 1) 0 0) (by site_mem)
    rw [← hom_poly (c := fun x => [i, j1 + 1 - x]) hn h1 h4 hp h0 hS]
    refine L3.keep S1 (L2.keep S0 el fun p hp e => ?_) fun p hp e => ?_ <;> (simp [facePt] at e; omega)
  rw [if_neg e0, if_neg e1, if_neg e2, if_neg e3]
  exact ⟨m, rfl, fun e => absurd e e0, fun e => absurd e e1, fun e => absurd e e2, fun e => absurd e e3⟩

example : ∃ m', Cuda.setHomogenousBc2d 0 0 7 7 2 exLo exHi 3 ⟨9, 0⟩ (fun _ => revBackend) exRat = .ok m' ∧
    Continues exRat m' (F.cell2d ⟨9, 0⟩ 0 0 7 7 1) (fun x => [4, 0 - 1 + x]) 5 3 3 Dirichlet := by
  obtain ⟨m', hm, hq⟩ := C41_homogenous_2d (i0 := 0) (j0 := 0) (i1 := 7) (j1 := 7) (face := 2) (u := ⟨9, 0⟩) (bLo := exLo) (bHi := exHi) (n := 3) (w := 5) (m := exRat)
    (β := fun _ => revBackend) (fun _ => revBackend_ok) (by decide) (by decide) (by ex_seg) rfl (by decide) (by decide) (by ex_seg) (by ex_seg) (by ex_args)
  exact ⟨m', hm, hq.2.2.1 rfl 4 (by decide) (by decide)⟩

/-! ### Where they do not -/

/-- diffusivity 1, and `u` holding `1 + 2 x` at the first two cell centres 1/4, 3/4 inside the face; the ghost cell contains 0 -/
def lineMem : Mem Rat :=
  ⟨fun q => if q.blk = 0 then some 1 else if q.off = 1 then some (3 / 2) else if q.off = 2 then some (5 / 2) else some 0, fun _ => none⟩

/-- `1 + 2 x` meets the Robin condition with `alpha = 1`, `b = 1`, `beta = 2` -/
theorem line_robin : Robin (1 : Rat) 1 2 (C 1 + C 2 * X) := by
  simp [Robin]

theorem line_degree : (C (1 : Rat) + C 2 * X).natDegree ≤ 1 := by
  compute_degree

/-- the ghost value of `1 + 2 x` is `1/2` -/
theorem line_not {m m' : Mem Rat} {u : F.Arr} {c : Int → List Int} {n : Nat} {q : Ptr} {v : Rat} (hn : 1 ≤ n) (hn2 : n ≤ 2)
    (h1 : F.El m u (c 1) (3 / 2)) (h2 : F.El m u (c 2) (5 / 2))
    (hq : u.ptr.add (F.colMajor u.dims (c 0)) = q) (hv : m'.val q = some v) (hne : v ≠ 1 / 2) :
    ¬ Continues m m' u c (1 / 2) n n (Robin 1 1 2) := by
  intro hC
  have := hC (C 1 + C 2 * X) (line_degree.trans hn) line_robin (fun k hk1 hk2 => by
    have : k = 1 ∨ k = 2 := by omega
    rcases this with rfl | rfl
    · norm_num; exact h1
    · norm_num; exact h2)
  have e := this.2
  rw [hq, hv] at e
  norm_num at e
  exact hne (by rw [e])

/-- `cd_correct_bc_1d_cuda::set_bc`, Robin, order 2, `beta = 2`: the samples of the line `1 + 2 x`, which meets the condition
`-u' + 2 u = 0`, are not continued. The kernel weighs the second sample by `h` where the quadratic through the samples has `beta * h`
(src/cuda/cd_correct_bc_1d_cuda.cpp:67-70, the same in the Fortran routine). -/
theorem C46_robin2_false :
    ∃ m', Cuda.setBc1d 0 7 exDx 1 ⟨0, 0⟩ 1 ⟨9, 0⟩ (exSeg (-1) 0 0) (exSeg 1 0 0) 2 0 4 1 2 (fun _ => seqBackend) lineMem = .ok m' ∧
      F.El lineMem (F.face1d ⟨0, 0⟩ 0 7 1) [-1 + 1] 1 ∧
      ¬ Continues lineMem m' (F.cell1d ⟨9, 0⟩ 0 7 1) (fun x => [-1 + x]) (1 / 2) 2 2 (Robin 1 1 2) := by
  have h : leaves (Cuda.setBc1d 0 7 exDx 1 ⟨0, 0⟩ 1 ⟨9, 0⟩ (exSeg (-1) 0 0) (exSeg 1 0 0) 2 0 4 1 2 (fun _ => seqBackend) lineMem) ⟨9, 0⟩ =
      some (some (17 / 44)) := by decide +kernel
  obtain ⟨m', h, hv⟩ := leaves_eq h
  exact ⟨m', h, by ex_el, line_not (by decide) (by decide) (by ex_el) (by ex_el) (by decide) hv (by norm_num)⟩

/-- `cd_correct_bc_1d_cuda::set_poisson_bc`, Robin, order 1, `alpha = 1`, `beta = 2`: the arguments are not used
(src/cuda/cd_correct_bc_1d_cuda.cpp:127-136). -/
theorem C46_robin_poisson_1d_false :
    ∃ m', Cuda.setPoissonBc1d 0 7 exDx 1 ⟨9, 0⟩ (exSeg (-1) 0 0) (exSeg 1 0 0) 1 0 4 1 2 (fun _ => seqBackend) lineMem = .ok m' ∧
      ¬ Continues lineMem m' (F.cell1d ⟨9, 0⟩ 0 7 1) (fun x => [-1 + x]) (1 / 2) 1 1 (Robin 1 1 2) := by
  have h : leaves (Cuda.setPoissonBc1d 0 7 exDx 1 ⟨9, 0⟩ (exSeg (-1) 0 0) (exSeg 1 0 0) 1 0 4 1 2 (fun _ => seqBackend) lineMem) ⟨9, 0⟩ =
      some (some (7 / 6)) := by decide +kernel
  obtain ⟨m', h, hv⟩ := leaves_eq h
  exact ⟨m', h, line_not (by decide) (by decide) (by ex_el) (by ex_el) (by decide) hv (by norm_num)⟩

/-- the same along the second axis of a box with eight cells and one ghost cell a side -/
def lineMem2 : Mem Rat := ⟨fun q => if q.off = 11 then some (3 / 2) else if q.off = 21 then some (5 / 2) else some 0, fun _ => none⟩

/-- `cd_correct_bc_2d_cuda::set_poisson_bc`, Robin, a face across the second axis: the kernel leaves the ghost cells as they were
(src/cuda/cd_correct_bc_2d_cuda.cpp:203-208). -/
theorem C46_robin_poisson_2d_false :
    ∃ m', Cuda.setPoissonBc2d 0 7 0 7 (fun _ => (1 / 2 : Rat)) 1 ⟨9, 0⟩ (exSeg 0 (-1) 0) (exSeg 7 (-1) 0) 1 2 1 4 1 2 (fun _ => seqBackend) lineMem2 = .ok m' ∧
      ¬ Continues lineMem2 m' (F.cell2d ⟨9, 0⟩ 0 0 7 7 1) (fun x => [0, -1 + x]) (1 / 2) 1 1 (Robin 1 1 2) := by
  have h : leaves (Cuda.setPoissonBc2d 0 7 0 7 (fun _ => (1 / 2 : Rat)) 1 ⟨9, 0⟩ (exSeg 0 (-1) 0) (exSeg 7 (-1) 0) 1 2 1 4 1 2 (fun _ => seqBackend) lineMem2) ⟨9, 1⟩ =
      some (some 0) := by decide +kernel
  obtain ⟨m', h, hv⟩ := leaves_eq h
  exact ⟨m', h, line_not (by decide) (by decide) (by ex_el) (by ex_el) (by decide) hv (by norm_num)⟩

end Verif
