import Verif.Props.Bc
import Verif.Lemmas.Touched

/-
C76: the boundary condition kernels change only cells of the boundary segment they are called for.
-/

namespace Verif
open Spec

variable {T : Type} [Field T]

/-- `cd_correct_bc_1d_cuda::set_bc` ends, and changes nothing but the cells of the segment it is called for, for every boundary type, order, schedule and contents. -/
theorem C76_1d {i0 i1 g dg exOrder face btype : Int} {dx : Nat → T} {d0 u : Ptr} {bLo bHi : Nat → Int} {alpha beta : T}
    {β : Nat → Backend} {m : Mem T} (hβ : ∀ n, ValidBackend (β n))
    (hi : i0 ≤ i1) (hg : 0 ≤ g) (hdg : 0 ≤ dg)
    (hs : ∀ n < 1, InInt (bLo n + 1) ∧ InInt (bHi n + 1))
    (hf0 : face = 0 → Reach i0 i1 g (bLo 0) 2 ∧ OnFaces i0 i1 dg (bLo 0 + 1))
    (hf1 : face = 1 → Reach i0 i1 g (bHi 0) (-2) ∧ OnFaces i0 i1 dg (bHi 0))
    (h : F.Args m [F.face1d d0 i0 i1 dg] [F.cell1d u i0 i1 g]) :
    ∃ m', Cuda.setBc1d i0 i1 dx dg d0 g u bLo bHi exOrder face btype alpha beta β m = .ok m' ∧ F.Changes (F.cell1d u i0 i1 g) (F.onSeg1 bLo bHi face) m m' := by
  obtain ⟨m', h1, h2⟩ := C35_1d hβ hi hg hdg hs hf0 hf1 h
  exact ⟨m', h1, touches_bc1 _ _ h2⟩

set_option maxHeartbeats 1000000 in
example : ∃ m', Cuda.setBc1d 0 7 exDx 1 ⟨0, 0⟩ 1 ⟨1, 0⟩ exLo exHi 2 0 1 3 5 (fun _ => revBackend) exRat = .ok m' ∧ F.Changes (F.cell1d ⟨1, 0⟩ 0 7 1) (F.onSeg1 exLo exHi 0) exRat m' :=
  C76_1d (fun _ => revBackend_ok) (by decide) (by decide) (by decide) (by ex_seg) (by ex_seg) (by ex_seg) (by ex_args)

/-- `cd_correct_bc_1d_cuda::set_poisson_bc` ends, and changes nothing but the cells of the segment it is called for, for every boundary type, order, schedule and contents. -/
theorem C76_poisson_1d {i0 i1 g exOrder face btype : Int} {dx : Nat → T} { u : Ptr} {bLo bHi : Nat → Int} {alpha beta : T}
    {β : Nat → Backend} {m : Mem T} (hβ : ∀ n, ValidBackend (β n))
    (hi : i0 ≤ i1) (hg : 0 ≤ g)
    (hs : ∀ n < 1, InInt (bLo n + 1) ∧ InInt (bHi n + 1))
    (hf0 : face = 0 → Reach i0 i1 g (bLo 0) 2)
    (hf1 : face = 1 → Reach i0 i1 g (bHi 0) (-2))
    (h : F.Args m [] [F.cell1d u i0 i1 g]) :
    ∃ m', Cuda.setPoissonBc1d i0 i1 dx g u bLo bHi exOrder face btype alpha beta β m = .ok m' ∧ F.Changes (F.cell1d u i0 i1 g) (F.onSeg1 bLo bHi face) m m' := by
  obtain ⟨m', h1, h2⟩ := C35_poisson_1d hβ hi hg hs hf0 hf1 h
  exact ⟨m', h1, touches_pbc1 _ _ h2⟩

set_option maxHeartbeats 1000000 in
example : ∃ m', Cuda.setPoissonBc1d 0 7 exDx 1 ⟨1, 0⟩ exLo exHi 2 1 1 3 5 (fun _ => revBackend) exRat = .ok m' ∧ F.Changes (F.cell1d ⟨1, 0⟩ 0 7 1) (F.onSeg1 exLo exHi 1) exRat m' :=
  C76_poisson_1d (fun _ => revBackend_ok) (by decide) (by decide) (by ex_seg) (by ex_seg) (by ex_seg) (by ex_args)

/-- `cd_correct_bc_2d_cuda::set_bc` ends, and changes nothing but the cells of the segment it is called for, for every boundary type, order, schedule and contents. -/
theorem C76_2d {i0 j0 i1 j1 g dg exOrder face type btype : Int} {dx : Nat → T} {d0 d1 u : Ptr} {bLo bHi : Nat → Int} {alpha beta : T}
    {β : Nat → Backend} {m : Mem T} (hβ : ∀ n, ValidBackend (β n))
    (hi : i0 ≤ i1) (hj : j0 ≤ j1) (hg : 0 ≤ g) (hdg : 0 ≤ dg)
    (hs : ∀ n < 2, InInt (bLo n + 1) ∧ InInt (bHi n + 1))
    (hf0 : type = 1 → face = 0 → Reach i0 i1 g (bLo 0) 2 ∧ OnFaces i0 i1 dg (bLo 0 + 1) ∧ Part j0 j1 (bLo 1) (bHi 1))
    (hf1 : type = 1 → face = 1 → Reach i0 i1 g (bHi 0) (-2) ∧ OnFaces i0 i1 dg (bHi 0) ∧ Part j0 j1 (bLo 1) (bHi 1))
    (hf2 : type = 1 → face = 2 → Reach j0 j1 g (bLo 1) 2 ∧ OnFaces j0 j1 dg (bLo 1 + 1) ∧ Part i0 i1 (bLo 0) (bHi 0))
    (hf3 : type = 1 → face = 3 → Reach j0 j1 g (bHi 1) (-2) ∧ OnFaces j0 j1 dg (bHi 1) ∧ Part i0 i1 (bLo 0) (bHi 0))
    (hn : type = 2 → 0 ≤ face → face < 4 → Reach i0 i1 g (if face % 2 = 0 then bLo 0 else bHi 0) (dir0 face) ∧
      Reach j0 j1 g (if face < 2 then bLo 1 else bHi 1) (dir1 face))
    (h : F.Args m [F.face2d0 d0 i0 j0 i1 j1 dg, F.face2d1 d1 i0 j0 i1 j1 dg] [F.cell2d u i0 j0 i1 j1 g]) :
    ∃ m', Cuda.setBc2d i0 i1 j0 j1 dx dg d0 d1 g u bLo bHi exOrder face type btype alpha beta β m = .ok m' ∧ F.Changes (F.cell2d u i0 j0 i1 j1 g) (F.onSeg2 bLo bHi type face) m m' := by
  obtain ⟨m', h1, h2⟩ := C35_2d_partial hβ hi hj hg hdg hs hf0 hf1 hf2 hf3 hn h
  exact ⟨m', h1, touches_bc2 _ _ h2⟩

set_option maxHeartbeats 1000000 in
example : ∃ m', Cuda.setBc2d 0 7 0 7 exDx 1 ⟨0, 0⟩ ⟨1, 0⟩ 1 ⟨9, 0⟩ exLo exHi 2 0 1 1 3 5 (fun _ => revBackend) exRat = .ok m' ∧ F.Changes (F.cell2d ⟨9, 0⟩ 0 0 7 7 1) (F.onSeg2 exLo exHi 1 0) exRat m' :=
  C76_2d (fun _ => revBackend_ok) (by decide) (by decide) (by decide) (by decide) (by ex_seg) (by ex_seg) (by ex_seg) (by ex_seg) (by ex_seg) (by ex_seg) (by ex_args)

example : ∃ m', Cuda.setBc2d 0 7 0 7 exDx 1 ⟨0, 0⟩ ⟨1, 0⟩ 1 ⟨9, 0⟩ exLo exHi 2 3 2 1 3 5 (fun _ => revBackend) exRat = .ok m' ∧ F.Changes (F.cell2d ⟨9, 0⟩ 0 0 7 7 1) (F.onSeg2 exLo exHi 2 3) exRat m' :=
  C76_2d (fun _ => revBackend_ok) (by decide) (by decide) (by decide) (by decide) (by ex_seg) (by ex_seg) (by ex_seg) (by ex_seg) (by ex_seg) (by ex_seg) (by ex_args)

/-- `cd_correct_bc_2d_cuda::set_poisson_bc` ends, and changes nothing but the cells of the segment it is called for, for every boundary type, order, schedule and contents. -/
theorem C76_poisson_2d {i0 j0 i1 j1 g exOrder face type btype : Int} {dx : Nat → T} { u : Ptr} {bLo bHi : Nat → Int} {alpha beta : T}
    {β : Nat → Backend} {m : Mem T} (hβ : ∀ n, ValidBackend (β n))
    (hi : i0 ≤ i1) (hj : j0 ≤ j1) (hg : 0 ≤ g)
    (hs : ∀ n < 2, InInt (bLo n + 1) ∧ InInt (bHi n + 1))
    (hf0 : type = 1 → face = 0 → Reach i0 i1 g (bLo 0) 2 ∧ Part j0 j1 (bLo 1) (bHi 1))
    (hf1 : type = 1 → face = 1 → Reach i0 i1 g (bHi 0) (-2) ∧ Part j0 j1 (bLo 1) (bHi 1))
    (hf2 : type = 1 → face = 2 → Reach j0 j1 g (bLo 1) 2 ∧ Part i0 i1 (bLo 0) (bHi 0))
    (hf3 : type = 1 → face = 3 → Reach j0 j1 g (bHi 1) (-2) ∧ Part i0 i1 (bLo 0) (bHi 0))
    (hn : type = 2 → 0 ≤ face → face < 4 → Reach i0 i1 g (if face % 2 = 0 then bLo 0 else bHi 0) (dir0 face) ∧
      Reach j0 j1 g (if face < 2 then bLo 1 else bHi 1) (dir1 face))
    (h : F.Args m [] [F.cell2d u i0 j0 i1 j1 g]) :
    ∃ m', Cuda.setPoissonBc2d i0 i1 j0 j1 dx g u bLo bHi exOrder face type btype alpha beta β m = .ok m' ∧ F.Changes (F.cell2d u i0 j0 i1 j1 g) (F.onSeg2 bLo bHi type face) m m' := by
  obtain ⟨m', h1, h2⟩ := C35_poisson_2d_partial hβ hi hj hg hs hf0 hf1 hf2 hf3 hn h
  exact ⟨m', h1, touches_pbc2 _ _ h2⟩

set_option maxHeartbeats 1000000 in
example : ∃ m', Cuda.setPoissonBc2d 0 7 0 7 exDx 1 ⟨9, 0⟩ exLo exHi 2 0 1 1 3 5 (fun _ => revBackend) exRat = .ok m' ∧ F.Changes (F.cell2d ⟨9, 0⟩ 0 0 7 7 1) (F.onSeg2 exLo exHi 1 0) exRat m' :=
  C76_poisson_2d (fun _ => revBackend_ok) (by decide) (by decide) (by decide) (by ex_seg) (by ex_seg) (by ex_seg) (by ex_seg) (by ex_seg) (by ex_seg) (by ex_args)

example : ∃ m', Cuda.setPoissonBc2d 0 7 0 7 exDx 1 ⟨9, 0⟩ exLo exHi 2 3 2 1 3 5 (fun _ => revBackend) exRat = .ok m' ∧ F.Changes (F.cell2d ⟨9, 0⟩ 0 0 7 7 1) (F.onSeg2 exLo exHi 2 3) exRat m' :=
  C76_poisson_2d (fun _ => revBackend_ok) (by decide) (by decide) (by decide) (by ex_seg) (by ex_seg) (by ex_seg) (by ex_seg) (by ex_seg) (by ex_seg) (by ex_args)

/-- `cd_correct_bc_3d_cuda::set_bc` ends, and changes nothing but the cells of the segment it is called for, for every boundary type, order, schedule and contents. -/
theorem C76_3d {i0 j0 k0 i1 j1 k1 g dg exOrder face type btype : Int} {dx : Nat → T} {d0 d1 d2 u : Ptr} {bLo bHi : Nat → Int} {alpha beta : T}
    {β : Nat → Backend} {m : Mem T} (hβ : ∀ n, ValidBackend (β n))
    (hi : i0 ≤ i1) (hj : j0 ≤ j1) (hk : k0 ≤ k1) (hg : 0 ≤ g) (hdg : 0 ≤ dg)
    (hs : ∀ n < 3, InInt (bLo n + 1) ∧ InInt (bHi n + 1))
    (hf0 : type = 1 → face = 0 → Reach i0 i1 g (bLo 0) 2 ∧ OnFaces i0 i1 dg (bLo 0 + 1) ∧ Meets j0 j1 (bLo 1) (bHi 1) ∧ Meets k0 k1 (bLo 2) (bHi 2))
    (hf1 : type = 1 → face = 1 → Reach i0 i1 g (bHi 0) (-2) ∧ OnFaces i0 i1 dg (bHi 0) ∧ Meets j0 j1 (bLo 1) (bHi 1) ∧ Meets k0 k1 (bLo 2) (bHi 2))
    (hf2 : type = 1 → face = 2 → Reach j0 j1 g (bLo 1) 2 ∧ OnFaces j0 j1 dg (bLo 1 + 1) ∧ Meets i0 i1 (bLo 0) (bHi 0) ∧ Meets k0 k1 (bLo 2) (bHi 2))
    (hf3 : type = 1 → face = 3 → Reach j0 j1 g (bHi 1) (-2) ∧ OnFaces j0 j1 dg (bHi 1) ∧ Meets i0 i1 (bLo 0) (bHi 0) ∧ Meets k0 k1 (bLo 2) (bHi 2))
    (hf4 : type = 1 → face = 4 → Reach k0 k1 g (bLo 2) 2 ∧ OnFaces k0 k1 dg (bLo 2 + 1) ∧ Meets i0 i1 (bLo 0) (bHi 0) ∧ Meets j0 j1 (bLo 1) (bHi 1))
    (hf5 : type = 1 → face = 5 → Reach k0 k1 g (bHi 2) (-2) ∧ OnFaces k0 k1 dg (bHi 2) ∧ Meets i0 i1 (bLo 0) (bHi 0) ∧ Meets j0 j1 (bLo 1) (bHi 1))
    (he0 : type = 2 → 0 ≤ face → face < 4 → Reach i0 i1 g (bLo 0) (dir0 face) ∧ Reach j0 j1 g (bLo 1) (dir1 face) ∧
      Part k0 k1 (bLo 2) (bHi 2))
    (he1 : type = 2 → 4 ≤ face → face < 8 → Reach i0 i1 g (bLo 0) (dir0 face) ∧ Reach k0 k1 g (bLo 2) (dir1 face) ∧
      Part j0 j1 (bLo 1) (bHi 1))
    (he2 : type = 2 → 8 ≤ face → face < 12 → Reach j0 j1 g (bLo 1) (dir0 face) ∧ Reach k0 k1 g (bLo 2) (dir1 face) ∧
      Part i0 i1 (bLo 0) (bHi 0))
    (hn : type = 3 → 0 ≤ face → face < 8 → Reach i0 i1 g (bLo 0) (dir0 face) ∧ Reach j0 j1 g (bLo 1) (dir1 face) ∧ Reach k0 k1 g (bLo 2) 0)
    (h : F.Args m [F.face3d0 d0 i0 j0 k0 i1 j1 k1 dg, F.face3d1 d1 i0 j0 k0 i1 j1 k1 dg, F.face3d2 d2 i0 j0 k0 i1 j1 k1 dg] [F.cell3d u i0 j0 k0 i1 j1 k1 g]) :
    ∃ m', Cuda.setBc3d i0 i1 j0 j1 k0 k1 dx dg d0 d1 d2 g u bLo bHi exOrder face type btype alpha beta β m = .ok m' ∧ F.Changes (F.cell3d u i0 j0 k0 i1 j1 k1 g) (F.onSeg3 bLo bHi type face) m m' := by
  obtain ⟨m', h1, h2⟩ := C35_3d_partial hβ hi hj hk hg hdg hs hf0 hf1 hf2 hf3 hf4 hf5 he0 he1 he2 hn h
  exact ⟨m', h1, touches_bc3 _ _ h2⟩

set_option maxHeartbeats 1000000 in
example : ∃ m', Cuda.setBc3d 0 7 0 6 0 5 exDx 1 ⟨0, 0⟩ ⟨1, 0⟩ ⟨2, 0⟩ 1 ⟨9, 0⟩ exLo exHi 2 0 1 1 3 5 (fun _ => revBackend) exRat = .ok m' ∧ F.Changes (F.cell3d ⟨9, 0⟩ 0 0 0 7 6 5 1) (F.onSeg3 exLo exHi 1 0) exRat m' :=
  C76_3d (fun _ => revBackend_ok) (by decide) (by decide) (by decide) (by decide) (by decide) (by ex_seg) (by ex_seg) (by ex_seg) (by ex_seg) (by ex_seg) (by ex_seg) (by ex_seg) (by ex_seg) (by ex_seg) (by ex_seg) (by ex_seg) (by ex_args)

example : ∃ m', Cuda.setBc3d 0 7 0 6 0 5 exDx 1 ⟨0, 0⟩ ⟨1, 0⟩ ⟨2, 0⟩ 1 ⟨9, 0⟩ exLo exHi 2 0 2 1 3 5 (fun _ => revBackend) exRat = .ok m' ∧ F.Changes (F.cell3d ⟨9, 0⟩ 0 0 0 7 6 5 1) (F.onSeg3 exLo exHi 2 0) exRat m' :=
  C76_3d (fun _ => revBackend_ok) (by decide) (by decide) (by decide) (by decide) (by decide) (by ex_seg) (by ex_seg) (by ex_seg) (by ex_seg) (by ex_seg) (by ex_seg) (by ex_seg) (by ex_seg) (by ex_seg) (by ex_seg) (by ex_seg) (by ex_args)

example : ∃ m', Cuda.setBc3d 0 7 0 6 0 5 exDx 1 ⟨0, 0⟩ ⟨1, 0⟩ ⟨2, 0⟩ 1 ⟨9, 0⟩ exLo exHi 2 4 3 1 3 5 (fun _ => revBackend) exRat = .ok m' ∧ F.Changes (F.cell3d ⟨9, 0⟩ 0 0 0 7 6 5 1) (F.onSeg3 exLo exHi 3 4) exRat m' :=
  C76_3d (fun _ => revBackend_ok) (by decide) (by decide) (by decide) (by decide) (by decide) (by ex_seg) (by ex_seg) (by ex_seg) (by ex_seg) (by ex_seg) (by ex_seg) (by ex_seg) (by ex_seg) (by ex_seg) (by ex_seg) (by ex_seg) (by ex_args)

/-- `cd_correct_bc_3d_cuda::set_poisson_bc` ends, and changes nothing but the cells of the segment it is called for, for every boundary type, order, schedule and contents. -/
theorem C76_poisson_3d {i0 j0 k0 i1 j1 k1 g exOrder face type btype : Int} {dx : Nat → T} { u : Ptr} {bLo bHi : Nat → Int} {alpha beta : T}
    {β : Nat → Backend} {m : Mem T} (hβ : ∀ n, ValidBackend (β n))
    (hi : i0 ≤ i1) (hj : j0 ≤ j1) (hk : k0 ≤ k1) (hg : 0 ≤ g)
    (hs : ∀ n < 3, InInt (bLo n + 1) ∧ InInt (bHi n + 1))
    (hf0 : type = 1 → face = 0 → Reach i0 i1 g (bLo 0) 2 ∧ Part j0 j1 (bLo 1) (bHi 1) ∧ Part k0 k1 (bLo 2) (bHi 2))
    (hf1 : type = 1 → face = 1 → Reach i0 i1 g (bHi 0) (-2) ∧ Part j0 j1 (bLo 1) (bHi 1) ∧ Part k0 k1 (bLo 2) (bHi 2))
    (hf2 : type = 1 → face = 2 → Reach j0 j1 g (bLo 1) 2 ∧ Part i0 i1 (bLo 0) (bHi 0) ∧ Part k0 k1 (bLo 2) (bHi 2))
    (hf3 : type = 1 → face = 3 → Reach j0 j1 g (bHi 1) (-2) ∧ Part i0 i1 (bLo 0) (bHi 0) ∧ Part k0 k1 (bLo 2) (bHi 2))
    (hf4 : type = 1 → face = 4 → Reach k0 k1 g (bLo 2) 2 ∧ Part i0 i1 (bLo 0) (bHi 0) ∧ Part j0 j1 (bLo 1) (bHi 1))
    (hf5 : type = 1 → face = 5 → Reach k0 k1 g (bHi 2) (-2) ∧ Part i0 i1 (bLo 0) (bHi 0) ∧ Part j0 j1 (bLo 1) (bHi 1))
    (he0 : type = 2 → 0 ≤ face → face < 4 → Reach i0 i1 g (bLo 0) (dir0 face) ∧ Reach j0 j1 g (bLo 1) (dir1 face) ∧
      Part k0 k1 (bLo 2) (bHi 2))
    (he1 : type = 2 → 4 ≤ face → face < 8 → Reach i0 i1 g (bLo 0) (dir0 face) ∧ Reach k0 k1 g (bLo 2) (dir1 face) ∧
      Part j0 j1 (bLo 1) (bHi 1))
    (he2 : type = 2 → 8 ≤ face → face < 12 → Reach j0 j1 g (bLo 1) (dir0 face) ∧ Reach k0 k1 g (bLo 2) (dir1 face) ∧
      Part i0 i1 (bLo 0) (bHi 0))
    (hn : type = 3 → 0 ≤ face → face < 8 → Reach i0 i1 g (bLo 0) (dir0 face) ∧ Reach j0 j1 g (bLo 1) (dir1 face) ∧ Reach k0 k1 g (bLo 2) 0)
    (h : F.Args m [] [F.cell3d u i0 j0 k0 i1 j1 k1 g]) :
    ∃ m', Cuda.setPoissonBc3d i0 i1 j0 j1 k0 k1 dx g u bLo bHi exOrder face type btype alpha beta β m = .ok m' ∧ F.Changes (F.cell3d u i0 j0 k0 i1 j1 k1 g) (F.onSeg3 bLo bHi type face) m m' := by
  obtain ⟨m', h1, h2⟩ := C35_poisson_3d_partial hβ hi hj hk hg hs hf0 hf1 hf2 hf3 hf4 hf5 he0 he1 he2 hn h
  exact ⟨m', h1, touches_pbc3 _ _ h2⟩

set_option maxHeartbeats 1000000 in
example : ∃ m', Cuda.setPoissonBc3d 0 7 0 6 0 5 exDx 1 ⟨9, 0⟩ exLo exHi 2 0 1 1 3 5 (fun _ => revBackend) exRat = .ok m' ∧ F.Changes (F.cell3d ⟨9, 0⟩ 0 0 0 7 6 5 1) (F.onSeg3 exLo exHi 1 0) exRat m' :=
  C76_poisson_3d (fun _ => revBackend_ok) (by decide) (by decide) (by decide) (by decide) (by ex_seg) (by ex_seg) (by ex_seg) (by ex_seg) (by ex_seg) (by ex_seg) (by ex_seg) (by ex_seg) (by ex_seg) (by ex_seg) (by ex_seg) (by ex_args)

example : ∃ m', Cuda.setPoissonBc3d 0 7 0 6 0 5 exDx 1 ⟨9, 0⟩ exLo exHi 2 0 2 1 3 5 (fun _ => revBackend) exRat = .ok m' ∧ F.Changes (F.cell3d ⟨9, 0⟩ 0 0 0 7 6 5 1) (F.onSeg3 exLo exHi 2 0) exRat m' :=
  C76_poisson_3d (fun _ => revBackend_ok) (by decide) (by decide) (by decide) (by decide) (by ex_seg) (by ex_seg) (by ex_seg) (by ex_seg) (by ex_seg) (by ex_seg) (by ex_seg) (by ex_seg) (by ex_seg) (by ex_seg) (by ex_seg) (by ex_args)

example : ∃ m', Cuda.setPoissonBc3d 0 7 0 6 0 5 exDx 1 ⟨9, 0⟩ exLo exHi 2 4 3 1 3 5 (fun _ => revBackend) exRat = .ok m' ∧ F.Changes (F.cell3d ⟨9, 0⟩ 0 0 0 7 6 5 1) (F.onSeg3 exLo exHi 3 4) exRat m' :=
  C76_poisson_3d (fun _ => revBackend_ok) (by decide) (by decide) (by decide) (by decide) (by ex_seg) (by ex_seg) (by ex_seg) (by ex_seg) (by ex_seg) (by ex_seg) (by ex_seg) (by ex_seg) (by ex_seg) (by ex_seg) (by ex_seg) (by ex_args)

/-- `cd_correct_bc_2d_cuda::set_corner_bc` ends, and changes nothing but the cells of the segment it is called for, for every boundary type, order, schedule and contents. -/
theorem C76_corner_2d {i0 j0 i1 j1 g exOrder face type btype : Int} {dx : Nat → T} {d0 d1 u : Ptr} {bLo bHi : Nat → Int}
    {β : Nat → Backend} {m : Mem T} (hβ : ∀ n, ValidBackend (β n)) (hi : i0 ≤ i1) (hj : j0 ≤ j1) (hg : 0 ≤ g)
    (hs : ∀ n < 2, InInt (bLo n + 1) ∧ InInt (bHi n + 1))
    (hn : 0 ≤ face → face < 4 → Reach i0 i1 g (if face % 2 = 0 then bLo 0 else bHi 0) (dir0 face) ∧
      Reach j0 j1 g (if face < 2 then bLo 1 else bHi 1) (dir1 face))
    (h : F.Args m [] [F.cell2d u i0 j0 i1 j1 g]) :
    ∃ m', Cuda.setCornerBc2d i0 i1 j0 j1 g dx d0 d1 u bLo bHi exOrder face type btype β m = .ok m' ∧ F.Changes (F.cell2d u i0 j0 i1 j1 g) (F.onSeg2 bLo bHi 2 face) m m' := by
  obtain ⟨m', h1, h2⟩ := C35_corner_2d hβ hi hj hg hs hn h
  exact ⟨m', h1, touches_corner2 _ _ h2⟩

set_option maxHeartbeats 1000000 in
example : ∃ m', Cuda.setCornerBc2d 0 7 0 7 1 exDx ⟨0, 0⟩ ⟨1, 0⟩ ⟨9, 0⟩ exLo exHi 2 1 2 1 (fun _ => revBackend) exRat = .ok m' ∧ F.Changes (F.cell2d ⟨9, 0⟩ 0 0 7 7 1) (F.onSeg2 exLo exHi 2 1) exRat m' :=
  C76_corner_2d (fun _ => revBackend_ok) (by decide) (by decide) (by decide) (by ex_seg) (by ex_seg) (by ex_args)

/-- `cd_correct_bc_2d_cuda::set_homogenous_bc` ends, and changes nothing but the cells of the array outside the box next to the side it is called for (those of the segment, and the two corners), for every boundary type, order, schedule and contents. -/
theorem C76_homogenous_2d {i0 j0 i1 j1 exOrder face : Int} {u : Ptr} {bLo bHi : Nat → Int}
    {β : Nat → Backend} {m : Mem T} (hβ : ∀ n, ValidBackend (β n)) (hi : i0 ≤ i1) (hj : j0 ≤ j1)
    (hs : ∀ n < 2, InInt (bLo n + 1) ∧ InInt (bHi n + 1)) (ho : 1 ≤ exOrder ∧ exOrder ≤ 4)
    (hx : face = 0 ∨ face = 1 → Reach i0 i1 1 (i0 - 1) exOrder ∧ Meets j0 j1 (bLo 1) (bHi 1))
    (hy : face = 2 ∨ face = 3 → Reach j0 j1 1 (j0 - 1) exOrder ∧ Meets i0 i1 (bLo 0) (bHi 0))
    (h : F.Args m [] [F.cell2d u i0 j0 i1 j1 1]) :
    ∃ m', Cuda.setHomogenousBc2d i0 j0 i1 j1 face bLo bHi exOrder u β m = .ok m' ∧ F.Changes (F.cell2d u i0 j0 i1 j1 1) (F.beside2 i0 j0 i1 j1 bLo bHi face) m m' := by
  obtain ⟨m', h1, h2⟩ := C35_homogenous_2d_partial hβ hi hj hs ho hx hy h
  exact ⟨m', h1, touches_hom2 _ _ h2⟩

example : ∃ m', Cuda.setHomogenousBc2d 0 0 7 7 2 exLo exHi 3 ⟨9, 0⟩ (fun _ => revBackend) exRat = .ok m' ∧ F.Changes (F.cell2d ⟨9, 0⟩ 0 0 7 7 1) (F.beside2 0 0 7 7 exLo exHi 2) exRat m' :=
  C76_homogenous_2d (fun _ => revBackend_ok) (by decide) (by decide) (by ex_seg) (by decide) (by ex_seg) (by ex_seg) (by ex_args)

end Verif
