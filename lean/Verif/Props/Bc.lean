import Verif.Props.RoundBc

/-
C35: the boundary condition kernels leave the memory the Fortran routines leave.
-/

namespace Verif
open Spec

variable {T : Type} [Field T]

/-- `cd_correct_bc_1d_cuda::set_bc` and `cellsetcorrectionbc1d` leave the same memory, for every face, boundary type, order and schedule. -/
theorem C35_1d {i0 i1 g dg exOrder face btype : Int} {dx : Nat → T} {d0 u : Ptr} {bLo bHi : Nat → Int} {alpha beta : T}
    {β : Nat → Backend} {m : Mem T} (hβ : ∀ n, ValidBackend (β n))
    (hi : i0 ≤ i1) (hg : 0 ≤ g) (hdg : 0 ≤ dg)
    (hs : ∀ n < 1, InInt (bLo n + 1) ∧ InInt (bHi n + 1))
    (hf0 : face = 0 → Reach i0 i1 g (bLo 0) 2 ∧ OnFaces i0 i1 dg (bLo 0 + 1))
    (hf1 : face = 1 → Reach i0 i1 g (bHi 0) (-2) ∧ OnFaces i0 i1 dg (bHi 0))
    (h : F.Args m [F.face1d d0 i0 i1 dg] [F.cell1d u i0 i1 g]) :
    ∃ m', Cuda.setBc1d i0 i1 dx dg d0 g u bLo bHi exOrder face btype alpha beta β m = .ok m' ∧
      F.cellsetcorrectionbc1d i0 i1 dx dg d0 g u bLo bHi exOrder face btype alpha beta m = .ok m' :=
  C49_bc_1d hβ Rounding.ofField hi hg hdg hs hf0 hf1 h

set_option maxHeartbeats 1000000 in
example : ∃ m', Cuda.setBc1d 0 7 exDx 1 ⟨0, 0⟩ 1 ⟨1, 0⟩ exLo exHi 2 0 1 3 5 (fun _ => revBackend) exRat = .ok m' ∧
    F.cellsetcorrectionbc1d 0 7 exDx 1 ⟨0, 0⟩ 1 ⟨1, 0⟩ exLo exHi 2 0 1 3 5 exRat = .ok m' :=
  C35_1d (fun _ => revBackend_ok) (by decide) (by decide) (by decide) (by ex_seg) (by ex_seg) (by ex_seg) (by ex_args)

/-- `cd_correct_bc_1d_cuda::set_poisson_bc` and `cellsetpoissoncorrectionbc1d` leave the same memory, for every face, boundary type, order and schedule. -/
theorem C35_poisson_1d {i0 i1 g exOrder face btype : Int} {dx : Nat → T} { u : Ptr} {bLo bHi : Nat → Int} {alpha beta : T}
    {β : Nat → Backend} {m : Mem T} (hβ : ∀ n, ValidBackend (β n))
    (hi : i0 ≤ i1) (hg : 0 ≤ g)
    (hs : ∀ n < 1, InInt (bLo n + 1) ∧ InInt (bHi n + 1))
    (hf0 : face = 0 → Reach i0 i1 g (bLo 0) 2)
    (hf1 : face = 1 → Reach i0 i1 g (bHi 0) (-2))
    (h : F.Args m [] [F.cell1d u i0 i1 g]) :
    ∃ m', Cuda.setPoissonBc1d i0 i1 dx g u bLo bHi exOrder face btype alpha beta β m = .ok m' ∧
      F.cellsetpoissoncorrectionbc1d i0 i1 dx g u bLo bHi exOrder face btype alpha beta m = .ok m' :=
  C49_poisson_bc_1d hβ Rounding.ofField hi hg hs hf0 hf1 h

set_option maxHeartbeats 1000000 in
example : ∃ m', Cuda.setPoissonBc1d 0 7 exDx 1 ⟨1, 0⟩ exLo exHi 2 1 1 3 5 (fun _ => revBackend) exRat = .ok m' ∧
    F.cellsetpoissoncorrectionbc1d 0 7 exDx 1 ⟨1, 0⟩ exLo exHi 2 1 1 3 5 exRat = .ok m' :=
  C35_poisson_1d (fun _ => revBackend_ok) (by decide) (by decide) (by ex_seg) (by ex_seg) (by ex_seg) (by ex_args)

/-- `cd_correct_bc_2d_cuda::set_bc` and `cellsetcorrectionbc2d` leave the same memory, for every type, face, boundary type, order and schedule, when the segment
lies along the box; `C35_2d_segment_false` is the case where it does not. -/
theorem C35_2d_partial {i0 j0 i1 j1 g dg exOrder face type btype : Int} {dx : Nat → T} {d0 d1 u : Ptr} {bLo bHi : Nat → Int} {alpha beta : T}
    {β : Nat → Backend} {m : Mem T} (hβ : ∀ n, ValidBackend (β n))
    (hi : i0 ≤ i1) (hj : j0 ≤ j1) (hg : 0 ≤ g) (hdg : 0 ≤ dg)
    (hs : ∀ n < 2, InInt (bLo n + 1) ∧ InInt (bHi n + 1))
    (hf0 : type = 1 → face = 0 → Reach i0 i1 g (bLo 0) 2 ∧ OnFaces i0 i1 dg (bLo 0 + 1) ∧ Part j0 j1 (bLo 1) (bHi 1))
    (hf1 : type = 1 → face = 1 → Reach i0 i1 g (bHi 0) (-2) ∧ OnFaces i0 i1 dg (bHi 0) ∧ Part j0 j1 (bLo 1) (bHi 1))
    (hf2 : type = 1 → face = 2 → Reach j0 j1 g (bLo 1) 2 ∧ OnFaces j0 j1 dg (bLo 1 + 1) ∧ Part i0 i1 (bLo 0) (bHi 0))
    (hf3 : type = 1 → face = 3 → Reach j0 j1 g (bHi 1) (-2) ∧ OnFaces j0 j1 dg (bHi 1) ∧ Part i0 i1 (bLo 0) (bHi 0))
    (hn : type = 2 → 0 ≤ face → face < 4 → Reach i0 i1 g (if face % 2 = 0 then bLo 0 else bHi 0) (dir0 face) ∧
      Reach j0 j1 g (if face < 2 then bLo 1 else bHi 1) (dir1 face))
    (h : F.Args m [F.face2d0 d0 i0 j0 i1 j1 dg, F.face2d1 d1 i0 j0 i1 j1 dg] [F.cell2d u i0 j0 i1 j1 g]) :
    ∃ m', Cuda.setBc2d i0 i1 j0 j1 dx dg d0 d1 g u bLo bHi exOrder face type btype alpha beta β m = .ok m' ∧
      F.cellsetcorrectionbc2d i0 i1 j0 j1 dx dg d0 d1 g u bLo bHi exOrder face type btype alpha beta m = .ok m' :=
  C49_bc_2d_partial hβ Rounding.ofField (fun _ _ _ _ => by ring) hi hj hg hdg hs hf0 hf1 hf2 hf3 hn h

set_option maxHeartbeats 1000000 in
example : ∃ m', Cuda.setBc2d 0 7 0 7 exDx 1 ⟨0, 0⟩ ⟨1, 0⟩ 1 ⟨9, 0⟩ exLo exHi 2 0 1 1 3 5 (fun _ => revBackend) exRat = .ok m' ∧
    F.cellsetcorrectionbc2d 0 7 0 7 exDx 1 ⟨0, 0⟩ ⟨1, 0⟩ 1 ⟨9, 0⟩ exLo exHi 2 0 1 1 3 5 exRat = .ok m' :=
  C35_2d_partial (fun _ => revBackend_ok) (by decide) (by decide) (by decide) (by decide) (by ex_seg) (by ex_seg) (by ex_seg) (by ex_seg) (by ex_seg) (by ex_seg) (by ex_args)

example : ∃ m', Cuda.setBc2d 0 7 0 7 exDx 1 ⟨0, 0⟩ ⟨1, 0⟩ 1 ⟨9, 0⟩ exLo exHi 2 3 2 1 3 5 (fun _ => revBackend) exRat = .ok m' ∧
    F.cellsetcorrectionbc2d 0 7 0 7 exDx 1 ⟨0, 0⟩ ⟨1, 0⟩ 1 ⟨9, 0⟩ exLo exHi 2 3 2 1 3 5 exRat = .ok m' :=
  C35_2d_partial (fun _ => revBackend_ok) (by decide) (by decide) (by decide) (by decide) (by ex_seg) (by ex_seg) (by ex_seg) (by ex_seg) (by ex_seg) (by ex_seg) (by ex_args)

/-- `cd_correct_bc_2d_cuda::set_poisson_bc` and `cellsetpoissoncorrectionbc2d` leave the same memory, for every type, face, boundary type, order and schedule,
when the segment lies along the box. -/
theorem C35_poisson_2d_partial {i0 j0 i1 j1 g exOrder face type btype : Int} {dx : Nat → T} { u : Ptr} {bLo bHi : Nat → Int} {alpha beta : T}
    {β : Nat → Backend} {m : Mem T} (hβ : ∀ n, ValidBackend (β n))
    (hi : i0 ≤ i1) (hj : j0 ≤ j1) (hg : 0 ≤ g)
    (hs : ∀ n < 2, InInt (bLo n + 1) ∧ InInt (bHi n + 1))
    (hf0 : type = 1 → face = 0 → Reach i0 i1 g (bLo 0) 2 ∧ Part j0 j1 (bLo 1) (bHi 1))
    (hf1 : type = 1 → face = 1 → Reach i0 i1 g (bHi 0) (-2) ∧ Part j0 j1 (bLo 1) (bHi 1))
    (hf2 : type = 1 → face = 2 → Reach j0 j1 g (bLo 1) 2 ∧ Part i0 i1 (bLo 0) (bHi 0))
    (hf3 : type = 1 → face = 3 → Reach j0 j1 g (bHi 1) (-2) ∧ Part i0 i1 (bLo 0) (bHi 0))
    (hn : type = 2 → 0 ≤ face → face < 4 → Reach i0 i1 g (if face % 2 = 0 then bLo 0 else bHi 0) (dir0 face) ∧
      Reach j0 j1 g (if face < 2 then bLo 1 else bHi 1) (dir1 face))
    (h : F.Args m [] [F.cell2d u i0 j0 i1 j1 g]) :
    ∃ m', Cuda.setPoissonBc2d i0 i1 j0 j1 dx g u bLo bHi exOrder face type btype alpha beta β m = .ok m' ∧
      F.cellsetpoissoncorrectionbc2d i0 i1 j0 j1 dx g u bLo bHi exOrder face type btype alpha beta m = .ok m' :=
  C49_poisson_bc_2d_partial hβ Rounding.ofField (fun _ _ _ _ => by ring) hi hj hg hs hf0 hf1 hf2 hf3 hn h

set_option maxHeartbeats 1000000 in
example : ∃ m', Cuda.setPoissonBc2d 0 7 0 7 exDx 1 ⟨9, 0⟩ exLo exHi 2 0 1 1 3 5 (fun _ => revBackend) exRat = .ok m' ∧
    F.cellsetpoissoncorrectionbc2d 0 7 0 7 exDx 1 ⟨9, 0⟩ exLo exHi 2 0 1 1 3 5 exRat = .ok m' :=
  C35_poisson_2d_partial (fun _ => revBackend_ok) (by decide) (by decide) (by decide) (by ex_seg) (by ex_seg) (by ex_seg) (by ex_seg) (by ex_seg) (by ex_seg) (by ex_args)

example : ∃ m', Cuda.setPoissonBc2d 0 7 0 7 exDx 1 ⟨9, 0⟩ exLo exHi 2 3 2 1 3 5 (fun _ => revBackend) exRat = .ok m' ∧
    F.cellsetpoissoncorrectionbc2d 0 7 0 7 exDx 1 ⟨9, 0⟩ exLo exHi 2 3 2 1 3 5 exRat = .ok m' :=
  C35_poisson_2d_partial (fun _ => revBackend_ok) (by decide) (by decide) (by decide) (by ex_seg) (by ex_seg) (by ex_seg) (by ex_seg) (by ex_seg) (by ex_seg) (by ex_args)

/-- `cd_correct_bc_3d_cuda::set_bc` and `cellsetcorrectionbc3d` leave the same memory, for every type, face, boundary type, order and schedule; both clip a
face segment to the box, an edge segment has to lie along it. -/
theorem C35_3d_partial {i0 j0 k0 i1 j1 k1 g dg exOrder face type btype : Int} {dx : Nat → T} {d0 d1 d2 u : Ptr} {bLo bHi : Nat → Int} {alpha beta : T}
    {β : Nat → Backend} {m : Mem T} (hβ : ∀ n, ValidBackend (β n))
    (hi : i0 ≤ i1) (hj : j0 ≤ j1) (hk : k0 ≤ k1) (hg : 0 ≤ g) (hdg : 0 ≤ dg)
    (hs : ∀ n < 3, InInt (bLo n + 1) ∧ InInt (bHi n + 1))
    (hf0 : type = 1 → face = 0 → Reach i0 i1 g (bLo 0) 2 ∧ OnFaces i0 i1 dg (bLo 0 + 1) ∧ Meets j0 j1 (bLo 1) (bHi 1) ∧ Meets k0 k1 (bLo 2) (bHi 2))
    (hf1 : type = 1 → face = 1 → Reach i0 i1 g (bHi 0) (-2) ∧ OnFaces i0 i1 dg (bHi 0) ∧ Meets j0 j1 (bLo 1) (bHi 1) ∧ Meets k0 k1 (bLo 2) (bHi 2))
    (hf2 : type = 1 → face = 2 → Reach j0 j1 g (bLo 1) 2 ∧ OnFaces j0 j1 dg (bLo 1 + 1) ∧ Meets i0 i1 (bLo 0) (bHi 0) ∧ Meets k0 k1 (bLo 2) (bHi 2))
    (hf3 : type = 1 → face = 3 → Reach j0 j1 g (bHi 1) (-2) ∧ OnFaces j0 j1 dg (bHi 1) ∧ Meets i0 i1 (bLo 0) (bHi 0) ∧ Meets k0 k1 (bLo 2) (bHi 2))
    (hf4 : type = 1 → face = 4 → Reach k0 k1 g (bLo 2) 2 ∧ OnFaces k0 k1 dg (bLo 2 + 1) ∧ Meets i0 i1 (bLo 0) (bHi 0) ∧ Meets j0 j1 (bLo 1) (bHi 1))
    (hf5 : type = 1 → face = 5 → Reach k0 k1 g (bHi 2) (-2) ∧ OnFaces k0 k1 dg (bHi 2) ∧ Meets i0 i1 (bLo 0) (bHi 0) ∧ Meets j0 j1 (bLo 1) (bHi 1))
    (he0 : type = 2 → 0 ≤ face → face < 4 → Reach i0 i1 g (bLo 0) (dir0 face) ∧ Reach j0 j1 g (bLo 1) (dir1 face) ∧
      Part k0 k1 (bLo 2) (bHi 2))
    (he1 : type = 2 → 4 ≤ face → face < 8 → Reach i0 i1 g (bLo 0) (dir0 face) ∧ Reach k0 k1 g (bLo 2) (dir1 face) ∧
      Part j0 j1 (bLo 1) (bHi 1))
    (he2 : type = 2 → 8 ≤ face → face < 12 → Reach j0 j1 g (bLo 1) (dir0 face) ∧ Reach k0 k1 g (bLo 2) (dir1 face) ∧
      Part i0 i1 (bLo 0) (bHi 0))
    (hn : type = 3 → 0 ≤ face → face < 8 → Reach i0 i1 g (bLo 0) (dir0 face) ∧ Reach j0 j1 g (bLo 1) (dir1 face) ∧ Reach k0 k1 g (bLo 2) 0)
    (h : F.Args m [F.face3d0 d0 i0 j0 k0 i1 j1 k1 dg, F.face3d1 d1 i0 j0 k0 i1 j1 k1 dg, F.face3d2 d2 i0 j0 k0 i1 j1 k1 dg] [F.cell3d u i0 j0 k0 i1 j1 k1 g]) :
    ∃ m', Cuda.setBc3d i0 i1 j0 j1 k0 k1 dx dg d0 d1 d2 g u bLo bHi exOrder face type btype alpha beta β m = .ok m' ∧
      F.cellsetcorrectionbc3d i0 i1 j0 j1 k0 k1 dx dg d0 d1 d2 g u bLo bHi exOrder face type btype alpha beta m = .ok m' :=
  C49_bc_3d_partial hβ Rounding.ofField (fun _ _ _ _ => by ring) hi hj hk hg hdg hs hf0 hf1 hf2 hf3 hf4 hf5 he0 he1 he2 hn h

set_option maxHeartbeats 1000000 in
example : ∃ m', Cuda.setBc3d 0 7 0 6 0 5 exDx 1 ⟨0, 0⟩ ⟨1, 0⟩ ⟨2, 0⟩ 1 ⟨9, 0⟩ exLo exHi 2 0 1 1 3 5 (fun _ => revBackend) exRat = .ok m' ∧
    F.cellsetcorrectionbc3d 0 7 0 6 0 5 exDx 1 ⟨0, 0⟩ ⟨1, 0⟩ ⟨2, 0⟩ 1 ⟨9, 0⟩ exLo exHi 2 0 1 1 3 5 exRat = .ok m' :=
  C35_3d_partial (fun _ => revBackend_ok) (by decide) (by decide) (by decide) (by decide) (by decide) (by ex_seg) (by ex_seg) (by ex_seg) (by ex_seg) (by ex_seg) (by ex_seg) (by ex_seg) (by ex_seg) (by ex_seg) (by ex_seg) (by ex_seg) (by ex_args)

example : ∃ m', Cuda.setBc3d 0 7 0 6 0 5 exDx 1 ⟨0, 0⟩ ⟨1, 0⟩ ⟨2, 0⟩ 1 ⟨9, 0⟩ exLo exHi 2 0 2 1 3 5 (fun _ => revBackend) exRat = .ok m' ∧
    F.cellsetcorrectionbc3d 0 7 0 6 0 5 exDx 1 ⟨0, 0⟩ ⟨1, 0⟩ ⟨2, 0⟩ 1 ⟨9, 0⟩ exLo exHi 2 0 2 1 3 5 exRat = .ok m' :=
  C35_3d_partial (fun _ => revBackend_ok) (by decide) (by decide) (by decide) (by decide) (by decide) (by ex_seg) (by ex_seg) (by ex_seg) (by ex_seg) (by ex_seg) (by ex_seg) (by ex_seg) (by ex_seg) (by ex_seg) (by ex_seg) (by ex_seg) (by ex_args)

example : ∃ m', Cuda.setBc3d 0 7 0 6 0 5 exDx 1 ⟨0, 0⟩ ⟨1, 0⟩ ⟨2, 0⟩ 1 ⟨9, 0⟩ exLo exHi 2 4 3 1 3 5 (fun _ => revBackend) exRat = .ok m' ∧
    F.cellsetcorrectionbc3d 0 7 0 6 0 5 exDx 1 ⟨0, 0⟩ ⟨1, 0⟩ ⟨2, 0⟩ 1 ⟨9, 0⟩ exLo exHi 2 4 3 1 3 5 exRat = .ok m' :=
  C35_3d_partial (fun _ => revBackend_ok) (by decide) (by decide) (by decide) (by decide) (by decide) (by ex_seg) (by ex_seg) (by ex_seg) (by ex_seg) (by ex_seg) (by ex_seg) (by ex_seg) (by ex_seg) (by ex_seg) (by ex_seg) (by ex_seg) (by ex_args)

/-- `cd_correct_bc_3d_cuda::set_poisson_bc` and `cellsetpoissoncorrectionbc3d` leave the same memory, for every type, face, boundary type, order and schedule,
when the segment lies along the box. -/
theorem C35_poisson_3d_partial {i0 j0 k0 i1 j1 k1 g exOrder face type btype : Int} {dx : Nat → T} { u : Ptr} {bLo bHi : Nat → Int} {alpha beta : T}
    {β : Nat → Backend} {m : Mem T} (hβ : ∀ n, ValidBackend (β n))
    (hi : i0 ≤ i1) (hj : j0 ≤ j1) (hk : k0 ≤ k1) (hg : 0 ≤ g)
    (hs : ∀ n < 3, InInt (bLo n + 1) ∧ InInt (bHi n + 1))
    (hf0 : type = 1 → face = 0 → Reach i0 i1 g (bLo 0) 2 ∧ Part j0 j1 (bLo 1) (bHi 1) ∧ Part k0 k1 (bLo 2) (bHi 2))
    (hf1 : type = 1 → face = 1 → Reach i0 i1 g (bHi 0) (-2) ∧ Part j0 j1 (bLo 1) (bHi 1) ∧ Part k0 k1 (bLo 2) (bHi 2))
    (hf2 : type = 1 → face = 2 → Reach j0 j1 g (bLo 1) 2 ∧ Part i0 i1 (bLo 0) (bHi 0) ∧ Part k0 k1 (bLo 2) (bHi 2))
    (hf3 : type = 1 → face = 3 → Reach j0 j1 g (bHi 1) (-2) ∧ Part i0 i1 (bLo 0) (bHi 0) ∧ Part k0 k1 (bLo 2) (bHi 2))
    (hf4 : type = 1 → face = 4 → Reach k0 k1 g (bLo 2) 2 ∧ Part i0 i1 (bLo 0) (bHi 0) ∧ Part j0 j1 (bLo 1) (bHi 1))
    (hf5 : type = 1 → face = 5 → Reach k0 k1 g (bHi 2) (-2) ∧ Part i0 i1 (bLo 0) (bHi 0) ∧ Part j0 j1 (bLo 1) (bHi 1))
    (he0 : type = 2 → 0 ≤ face → face < 4 → Reach i0 i1 g (bLo 0) (dir0 face) ∧ Reach j0 j1 g (bLo 1) (dir1 face) ∧
      Part k0 k1 (bLo 2) (bHi 2))
    (he1 : type = 2 → 4 ≤ face → face < 8 → Reach i0 i1 g (bLo 0) (dir0 face) ∧ Reach k0 k1 g (bLo 2) (dir1 face) ∧
      Part j0 j1 (bLo 1) (bHi 1))
    (he2 : type = 2 → 8 ≤ face → face < 12 → Reach j0 j1 g (bLo 1) (dir0 face) ∧ Reach k0 k1 g (bLo 2) (dir1 face) ∧
      Part i0 i1 (bLo 0) (bHi 0))
    (hn : type = 3 → 0 ≤ face → face < 8 → Reach i0 i1 g (bLo 0) (dir0 face) ∧ Reach j0 j1 g (bLo 1) (dir1 face) ∧ Reach k0 k1 g (bLo 2) 0)
    (h : F.Args m [] [F.cell3d u i0 j0 k0 i1 j1 k1 g]) :
    ∃ m', Cuda.setPoissonBc3d i0 i1 j0 j1 k0 k1 dx g u bLo bHi exOrder face type btype alpha beta β m = .ok m' ∧
      F.cellsetpoissoncorrectionbc3d i0 i1 j0 j1 k0 k1 dx g u bLo bHi exOrder face type btype alpha beta m = .ok m' :=
  C49_poisson_bc_3d_partial hβ Rounding.ofField (fun _ _ _ _ => by ring) hi hj hk hg hs hf0 hf1 hf2 hf3 hf4 hf5 he0 he1 he2 hn h

set_option maxHeartbeats 1000000 in
example : ∃ m', Cuda.setPoissonBc3d 0 7 0 6 0 5 exDx 1 ⟨9, 0⟩ exLo exHi 2 0 1 1 3 5 (fun _ => revBackend) exRat = .ok m' ∧
    F.cellsetpoissoncorrectionbc3d 0 7 0 6 0 5 exDx 1 ⟨9, 0⟩ exLo exHi 2 0 1 1 3 5 exRat = .ok m' :=
  C35_poisson_3d_partial (fun _ => revBackend_ok) (by decide) (by decide) (by decide) (by decide) (by ex_seg) (by ex_seg) (by ex_seg) (by ex_seg) (by ex_seg) (by ex_seg) (by ex_seg) (by ex_seg) (by ex_seg) (by ex_seg) (by ex_seg) (by ex_args)

example : ∃ m', Cuda.setPoissonBc3d 0 7 0 6 0 5 exDx 1 ⟨9, 0⟩ exLo exHi 2 0 2 1 3 5 (fun _ => revBackend) exRat = .ok m' ∧
    F.cellsetpoissoncorrectionbc3d 0 7 0 6 0 5 exDx 1 ⟨9, 0⟩ exLo exHi 2 0 2 1 3 5 exRat = .ok m' :=
  C35_poisson_3d_partial (fun _ => revBackend_ok) (by decide) (by decide) (by decide) (by decide) (by ex_seg) (by ex_seg) (by ex_seg) (by ex_seg) (by ex_seg) (by ex_seg) (by ex_seg) (by ex_seg) (by ex_seg) (by ex_seg) (by ex_seg) (by ex_args)

example : ∃ m', Cuda.setPoissonBc3d 0 7 0 6 0 5 exDx 1 ⟨9, 0⟩ exLo exHi 2 4 3 1 3 5 (fun _ => revBackend) exRat = .ok m' ∧
    F.cellsetpoissoncorrectionbc3d 0 7 0 6 0 5 exDx 1 ⟨9, 0⟩ exLo exHi 2 4 3 1 3 5 exRat = .ok m' :=
  C35_poisson_3d_partial (fun _ => revBackend_ok) (by decide) (by decide) (by decide) (by decide) (by ex_seg) (by ex_seg) (by ex_seg) (by ex_seg) (by ex_seg) (by ex_seg) (by ex_seg) (by ex_seg) (by ex_seg) (by ex_seg) (by ex_seg) (by ex_args)

/-- `cd_correct_bc_2d_cuda::set_corner_bc` and `cellsetinteriorcornerbc2d` leave the same memory, for every face and schedule. -/
theorem C35_corner_2d {i0 j0 i1 j1 g exOrder face type btype : Int} {dx : Nat → T} {d0 d1 u : Ptr} {bLo bHi : Nat → Int}
    {β : Nat → Backend} {m : Mem T} (hβ : ∀ n, ValidBackend (β n)) (hi : i0 ≤ i1) (hj : j0 ≤ j1) (hg : 0 ≤ g)
    (hs : ∀ n < 2, InInt (bLo n + 1) ∧ InInt (bHi n + 1))
    (hn : 0 ≤ face → face < 4 → Reach i0 i1 g (if face % 2 = 0 then bLo 0 else bHi 0) (dir0 face) ∧
      Reach j0 j1 g (if face < 2 then bLo 1 else bHi 1) (dir1 face))
    (h : F.Args m [] [F.cell2d u i0 j0 i1 j1 g]) :
    ∃ m', Cuda.setCornerBc2d i0 i1 j0 j1 g dx d0 d1 u bLo bHi exOrder face type btype β m = .ok m' ∧
      F.cellsetinteriorcornerbc2d i0 i1 j0 j1 g dx d0 d1 u bLo bHi exOrder face type btype m = .ok m' :=
  C49_corner_bc_2d hβ Rounding.ofField hi hj hg hs hn h

set_option maxHeartbeats 1000000 in
example : ∃ m', Cuda.setCornerBc2d 0 7 0 7 1 exDx ⟨0, 0⟩ ⟨1, 0⟩ ⟨9, 0⟩ exLo exHi 2 1 2 1 (fun _ => revBackend) exRat = .ok m' ∧
    F.cellsetinteriorcornerbc2d 0 7 0 7 1 exDx ⟨0, 0⟩ ⟨1, 0⟩ ⟨9, 0⟩ exLo exHi 2 1 2 1 exRat = .ok m' :=
  C35_corner_2d (fun _ => revBackend_ok) (by decide) (by decide) (by decide) (by ex_seg) (by ex_seg) (by ex_args)

/-- `cd_correct_bc_2d_cuda::set_homogenous_bc` and `cellsethomogenousbc2d` leave the same memory, for every face and schedule, when the order is one of
1, 2, 3, 4 and the segment meets the box; `C35_homogenous_2d_false` has order 0. -/
theorem C35_homogenous_2d_partial {i0 j0 i1 j1 exOrder face : Int} {u : Ptr} {bLo bHi : Nat → Int}
    {β : Nat → Backend} {m : Mem T} (hβ : ∀ n, ValidBackend (β n)) (hi : i0 ≤ i1) (hj : j0 ≤ j1)
    (hs : ∀ n < 2, InInt (bLo n + 1) ∧ InInt (bHi n + 1)) (ho : 1 ≤ exOrder ∧ exOrder ≤ 4)
    (hx : face = 0 ∨ face = 1 → Reach i0 i1 1 (i0 - 1) exOrder ∧ Meets j0 j1 (bLo 1) (bHi 1))
    (hy : face = 2 ∨ face = 3 → Reach j0 j1 1 (j0 - 1) exOrder ∧ Meets i0 i1 (bLo 0) (bHi 0))
    (h : F.Args m [] [F.cell2d u i0 j0 i1 j1 1]) :
    ∃ m', Cuda.setHomogenousBc2d i0 j0 i1 j1 face bLo bHi exOrder u β m = .ok m' ∧
      F.cellsethomogenousbc2d i0 j0 i1 j1 face bLo bHi exOrder u m = .ok m' :=
  C49_homogenous_bc_2d_partial hβ Rounding.ofField hi hj hs ho hx hy h

example : ∃ m', Cuda.setHomogenousBc2d 0 0 7 7 2 exLo exHi 3 ⟨9, 0⟩ (fun _ => revBackend) exRat = .ok m' ∧
    F.cellsethomogenousbc2d 0 0 7 7 2 exLo exHi 3 ⟨9, 0⟩ exRat = .ok m' :=
  C35_homogenous_2d_partial (fun _ => revBackend_ok) (by decide) (by decide) (by ex_seg) (by decide) (by ex_seg) (by ex_seg) (by ex_args)

/-- value a run leaves at an address, if it ends -/
def leaves (c : M (Mem Rat)) (q : Ptr) : Option (Option Rat) :=
  match c with
  | .ok m => some (m.val q)
  | .error _ => none

theorem leaves_eq {c : M (Mem Rat)} {q : Ptr} {v : Option Rat} (h : leaves c q = some v) : ∃ m, c = .ok m ∧ m.val q = v := by
  cases c with
  | ok m => exact ⟨m, rfl, by simpa [leaves] using h⟩
  | error e => simp [leaves] at h

/-- the error a run ends with -/
def fails (c : M (Mem Rat)) : Option UB :=
  match c with
  | .ok _ => none
  | .error e => some e

theorem fails_eq {c : M (Mem Rat)} {e : UB} (h : fails c = some e) : c = .error e := by
  cases c with
  | ok m => simp [fails] at h
  | error e' => simpa [fails] using h

/-- a box `a..b` by coordinates -/
def exSeg (a b c : Int) : Nat → Int
  | 0 => a
  | 1 => b
  | _ => c

/-- `c` and `d` both end, and differ at `q` -/
def Differ (c d : M (Mem Rat)) (q : Ptr) : Prop := ∃ m1 m2, c = .ok m1 ∧ d = .ok m2 ∧ m1.val q ≠ m2.val q

theorem differ_of {c d : M (Mem Rat)} {q : Ptr} {v w : Option Rat} (hc : leaves c q = some v) (hd : leaves d q = some w) (h : v ≠ w) :
    Differ c d q := by
  obtain ⟨m1, h1, e1⟩ := leaves_eq hc
  obtain ⟨m2, h2, e2⟩ := leaves_eq hd
  exact ⟨m1, m2, h1, h2, by rw [e1, e2]; exact h⟩

/-- A segment longer than the box: `cellsetcorrectionbc2d` sets the ghost cells beside the corner as well, the kernel clips the
segment (src/cuda/cd_correct_bc_2d_cuda.cpp) and leaves them. -/
theorem C35_2d_segment_false :
    Differ (Cuda.setBc2d 0 1 0 1 exDx 1 ⟨0, 0⟩ ⟨1, 0⟩ 1 ⟨9, 0⟩ (exSeg (-1) (-1) 0) (exSeg (-1) 1 1) 1 0 1 0 1 1 (fun _ => seqBackend) exRat)
      (F.cellsetcorrectionbc2d 0 1 0 1 exDx 1 ⟨0, 0⟩ ⟨1, 0⟩ 1 ⟨9, 0⟩ (exSeg (-1) (-1) 0) (exSeg (-1) 1 1) 1 0 1 0 1 1 exRat) ⟨9, 0⟩ :=
  differ_of (v := some 63) (w := some (-64)) (by decide +kernel) (by decide +kernel) (by decide)

/-- The same for the Poisson form. -/
theorem C35_poisson_2d_segment_false :
    Differ (Cuda.setPoissonBc2d 0 1 0 1 exDx 1 ⟨9, 0⟩ (exSeg (-1) (-1) 0) (exSeg (-1) 1 1) 1 0 1 0 1 1 (fun _ => seqBackend) exRat)
      (F.cellsetpoissoncorrectionbc2d 0 1 0 1 exDx 1 ⟨9, 0⟩ (exSeg (-1) (-1) 0) (exSeg (-1) 1 1) 1 0 1 0 1 1 exRat) ⟨9, 0⟩ :=
  differ_of (v := some 63) (w := some (-64)) (by decide +kernel) (by decide +kernel) (by decide)

/-- The faces of the 3D Poisson form: the kernel clips, `cellsetpoissoncorrectionbc3d` does not. -/
theorem C35_poisson_3d_segment_false :
    Differ (Cuda.setPoissonBc3d 0 1 0 1 0 1 exDx 1 ⟨9, 0⟩ (exSeg (-1) (-1) 0) (exSeg (-1) 1 1) 1 0 1 0 1 1 (fun _ => seqBackend) exRat)
      (F.cellsetpoissoncorrectionbc3d 0 1 0 1 0 1 exDx 1 ⟨9, 0⟩ (exSeg (-1) (-1) 0) (exSeg (-1) 1 1) 1 0 1 0 1 1 exRat) ⟨9, 16⟩ :=
  differ_of (v := some 319) (w := some (-352)) (by decide +kernel) (by decide +kernel) (by decide)

/-- The edges of the 3D form: the kernel clips, `cellsetcorrectionbc3d` does not. -/
theorem C35_3d_edge_false :
    Differ (Cuda.setBc3d 0 1 0 1 0 1 exDx 1 ⟨0, 0⟩ ⟨1, 0⟩ ⟨2, 0⟩ 1 ⟨9, 0⟩ (exSeg (-1) (-1) (-1)) (exSeg (-1) 2 1) 1 0 2 0 1 1 (fun _ => seqBackend) exRat)
      (F.cellsetcorrectionbc3d 0 1 0 1 0 1 exDx 1 ⟨0, 0⟩ ⟨1, 0⟩ ⟨2, 0⟩ 1 ⟨9, 0⟩ (exSeg (-1) (-1) (-1)) (exSeg (-1) 2 1) 1 0 2 0 1 1 exRat) ⟨9, 0⟩ :=
  differ_of (v := some 63) (w := some 55) (by decide +kernel) (by decide +kernel) (by decide)

/-- A face segment that misses the box along both of its axes: both programs clip it to ranges that end two before they begin.
The Fortran loops run zero times; the kernel multiplies the two negative extents to a positive number of points and stores at them. -/
theorem C35_3d_missed_false :
    Differ (Cuda.setBc3d 0 3 0 3 0 3 exDx 1 ⟨0, 0⟩ ⟨1, 0⟩ ⟨2, 0⟩ 1 ⟨9, 0⟩ (exSeg (-1) (-4) (-4)) (exSeg (-1) (-3) (-3)) 1 0 1 0 1 1 (fun _ => seqBackend) exRat)
      (F.cellsetcorrectionbc3d 0 3 0 3 0 3 exDx 1 ⟨0, 0⟩ ⟨1, 0⟩ ⟨2, 0⟩ 1 ⟨9, 0⟩ (exSeg (-1) (-4) (-4)) (exSeg (-1) (-3) (-3)) 1 0 1 0 1 1 exRat) ⟨9, 6⟩ :=
  differ_of (v := some (-112)) (w := some 99) (by decide +kernel) (by decide +kernel) (by decide)

/-- Order 0: `cellsethomogenousbc2d` stores the empty sum 0 on the face, the kernel leaves the face as it was. -/
theorem C35_homogenous_2d_false :
    Differ (Cuda.setHomogenousBc2d 0 0 1 1 0 (exSeg 0 0 0) (exSeg 1 1 1) 0 ⟨9, 0⟩ (fun _ => seqBackend) exRat)
      (F.cellsethomogenousbc2d 0 0 1 1 0 (exSeg 0 0 0) (exSeg 1 1 1) 0 ⟨9, 0⟩ exRat) ⟨9, 4⟩ :=
  differ_of (v := some 79) (w := some 0) (by decide +kernel) (by decide +kernel) (by decide)

/-- Order 5: `cellsethomogenousbc2d` reads its array `coeff` past the end, the kernel leaves the face as it was, sets the corners and ends. -/
theorem C35_homogenous_2d_order_false :
    (∃ m, Cuda.setHomogenousBc2d 0 0 7 7 0 (exSeg 0 0 0) (exSeg 1 1 1) 5 ⟨9, 0⟩ (fun _ => seqBackend) exRat = .ok m) ∧
      F.cellsethomogenousbc2d 0 0 7 7 0 (exSeg 0 0 0) (exSeg 1 1 1) 5 ⟨9, 0⟩ exRat = .error .oob := by
  constructor
  · have h : leaves (Cuda.setHomogenousBc2d 0 0 7 7 0 (exSeg 0 0 0) (exSeg 1 1 1) 5 ⟨9, 0⟩ (fun _ => seqBackend) exRat) ⟨9, 0⟩ =
        some (some 184) := by decide +kernel
    obtain ⟨m, h, -⟩ := leaves_eq h
    exact ⟨m, h⟩
  · exact fails_eq (by decide +kernel)

end Verif
