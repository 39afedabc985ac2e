import Verif.Props.RoundAdjust
import Verif.Props.RoundFlux
import Verif.Lemmas.Dyadic

/-
C49: mesh widths that are powers of two.
-/

namespace Verif
open Spec

/-- the mesh widths of the examples -/
def exDxP (n : Nat) : B64 := ⟨2 ^ n / 8, by
  have h := rnd_scale (2 ^ n) (-3)
  have h2 := rnd_exact (x := 2 ^ n) (k := 2 ^ 52) (s := n - 52) (by
    rw [zpow_sub₀ (by norm_num), zpow_natCast]
    norm_num
    ring) (by norm_num) (by norm_num)
  rw [h2, show (2 : Rat) ^ (-3 : Int) = 1 / 8 by norm_num, mul_one_div] at h
  exact h⟩

theorem exDxP_pow (n : Nat) : PowTwo (exDxP n) := ⟨n - 3, by
  show (2 : Rat) ^ n / 8 = _
  rw [zpow_sub₀ (by norm_num), zpow_natCast]
  norm_num⟩

/-- With mesh widths that are powers of two the diffusion flux kernel and the Fortran routine leave the same bits. -/
theorem C49_flux_1d_dyadic {i0 i1 gcw : Int} {dx : Nat → B64} {b0 u f0 : Ptr} {β : Nat → Backend} {m : Mem B64} (hβ : ∀ n, ValidBackend (β n)) (hd : ∀ n, PowTwo (dx n))
    (hi : i0 ≤ i1) (hg : 1 ≤ gcw)
    (h : F.Args m [F.cell1d u i0 i1 gcw, F.face1d b0 i0 i1 0]
      [F.face1d f0 i0 i1 0]) :
    ∃ m', Cuda.flux1d i0 i1 dx b0 gcw u f0 β m = .ok m' ∧ F.celldiffusionflux1d i0 i1 dx b0 gcw u f0 m = .ok m' :=
  C49_flux_1d hβ (fun b x y n => (hd n).mul_div b (x - y)) hi hg h

example : ∃ m', Cuda.flux1d 0 3 exDxP ⟨0, 0⟩ 2 ⟨9, 0⟩ ⟨10, 0⟩ (fun _ => revBackend) exB64 = .ok m' ∧
    F.celldiffusionflux1d 0 3 exDxP ⟨0, 0⟩ 2 ⟨9, 0⟩ ⟨10, 0⟩ exB64 = .ok m' :=
  C49_flux_1d_dyadic (fun _ => revBackend_ok) exDxP_pow (by decide) (by decide) (by ex_argsB)

/-- With mesh widths that are powers of two the diffusion flux kernel and the Fortran routine leave the same bits. -/
theorem C49_flux_2d_dyadic {i0 j0 i1 j1 gcw : Int} {dx : Nat → B64} {b0 b1 u f0 f1 : Ptr} {β : Nat → Backend} {m : Mem B64} (hβ : ∀ n, ValidBackend (β n)) (hd : ∀ n, PowTwo (dx n))
    (hi : i0 ≤ i1) (hj : j0 ≤ j1) (hg : 1 ≤ gcw)
    (h : F.Args m [F.cell2d u i0 j0 i1 j1 gcw, F.face2d0 b0 i0 j0 i1 j1 0, F.face2d1 b1 i0 j0 i1 j1 0]
      [F.face2d0 f0 i0 j0 i1 j1 0, F.face2d1 f1 i0 j0 i1 j1 0]) :
    ∃ m', Cuda.flux2d i0 j0 i1 j1 dx b0 b1 gcw u f0 f1 β m = .ok m' ∧ F.celldiffusionflux2d i0 j0 i1 j1 dx b0 b1 gcw u f0 f1 m = .ok m' :=
  C49_flux_2d hβ (fun b x y n => (hd n).mul_div b (x - y)) hi hj hg h

example : ∃ m', Cuda.flux2d 0 1 2 3 exDxP ⟨0, 0⟩ ⟨1, 0⟩ 2 ⟨9, 0⟩ ⟨10, 0⟩ ⟨11, 0⟩ (fun _ => revBackend) exB64 = .ok m' ∧
    F.celldiffusionflux2d 0 1 2 3 exDxP ⟨0, 0⟩ ⟨1, 0⟩ 2 ⟨9, 0⟩ ⟨10, 0⟩ ⟨11, 0⟩ exB64 = .ok m' :=
  C49_flux_2d_dyadic (fun _ => revBackend_ok) exDxP_pow (by decide) (by decide) (by decide) (by ex_argsB)

/-- With mesh widths that are powers of two the diffusion flux kernel and the Fortran routine leave the same bits. -/
theorem C49_flux_3d_dyadic {i0 j0 k0 i1 j1 k1 gcw : Int} {dx : Nat → B64} {b0 b1 b2 u f0 f1 f2 : Ptr} {β : Nat → Backend} {m : Mem B64} (hβ : ∀ n, ValidBackend (β n)) (hd : ∀ n, PowTwo (dx n))
    (hi : i0 ≤ i1) (hj : j0 ≤ j1) (hk : k0 ≤ k1) (hg : 1 ≤ gcw)
    (h : F.Args m [F.cell3d u i0 j0 k0 i1 j1 k1 gcw, F.face3d0 b0 i0 j0 k0 i1 j1 k1 0, F.face3d1 b1 i0 j0 k0 i1 j1 k1 0, F.face3d2 b2 i0 j0 k0 i1 j1 k1 0]
      [F.face3d0 f0 i0 j0 k0 i1 j1 k1 0, F.face3d1 f1 i0 j0 k0 i1 j1 k1 0, F.face3d2 f2 i0 j0 k0 i1 j1 k1 0]) :
    ∃ m', Cuda.flux3d i0 j0 k0 i1 j1 k1 dx b0 b1 b2 gcw u f0 f1 f2 β m = .ok m' ∧ F.celldiffusionflux3d i0 j0 k0 i1 j1 k1 dx b0 b1 b2 gcw u f0 f1 f2 m = .ok m' :=
  C49_flux_3d hβ (fun b x y n => (hd n).mul_div b (x - y)) hi hj hk hg h

example : ∃ m', Cuda.flux3d 0 1 2 2 3 3 exDxP ⟨0, 0⟩ ⟨1, 0⟩ ⟨2, 0⟩ 2 ⟨9, 0⟩ ⟨10, 0⟩ ⟨11, 0⟩ ⟨12, 0⟩ (fun _ => revBackend) exB64 = .ok m' ∧
    F.celldiffusionflux3d 0 1 2 2 3 3 exDxP ⟨0, 0⟩ ⟨1, 0⟩ ⟨2, 0⟩ 2 ⟨9, 0⟩ ⟨10, 0⟩ ⟨11, 0⟩ ⟨12, 0⟩ exB64 = .ok m' :=
  C49_flux_3d_dyadic (fun _ => revBackend_ok) exDxP_pow (by decide) (by decide) (by decide) (by decide) (by ex_argsB)

/-- With mesh widths that are powers of two the diagonal adjustment and the Fortran routine leave the same bits. -/
theorem C49_adj_diag_1d_dyadic {i0 i1 pi0 pi1 side btype exOrder sgcw : Int} {dx : Nat → B64} {beta : B64} {b0_ st_ : Ptr} {β : Backend} {m : Mem B64}
    (hβ : ValidBackend β) (hd : ∀ n, PowTwo (dx n))
    (hi : i0 ≤ i1) (hg : 0 ≤ sgcw) (hl : Layer1 i0 i1 0 pi0 pi1 side)
    (h : F.Args m [F.face1d b0_ i0 i1 0] [F.st1d st_ i0 i1 sgcw]) :
    ∃ m', Cuda.adjDiag1d i0 i1 pi0 pi1 side btype exOrder dx beta b0_ sgcw st_ β m = .ok m' ∧ F.adjcelldiffusiondiag1d i0 i1 pi0 pi1 side btype exOrder dx beta b0_ sgcw st_ m = .ok m' :=
  C49_adj_diag_1d hβ (fun _ _ b => (hd _).div_mul beta b) hi hg hl h

example : ∃ m', Cuda.adjDiag1d 0 3 4 4 1 4 2 exDxP 2 ⟨0, 0⟩ 1 ⟨1, 0⟩ revBackend exB64 = .ok m' ∧
    F.adjcelldiffusiondiag1d 0 3 4 4 1 4 2 exDxP 2 ⟨0, 0⟩ 1 ⟨1, 0⟩ exB64 = .ok m' :=
  C49_adj_diag_1d_dyadic revBackend_ok exDxP_pow (by decide) (by decide) (by constructor <;> (try simp only [InInt]) <;> decide) (by ex_argsB)

/-- With mesh widths that are powers of two the diagonal adjustment and the Fortran routine leave the same bits, except at boundary type 0 and order 2 (`C49_adj_diag_2d_type0_false` has mesh width 1). -/
theorem C49_adj_diag_2d_dyadic_partial {i0 j0 i1 j1 pi0 pj0 pi1 pj1 dir side btype exOrder sgcw : Int} {dx : Nat → B64} {beta : B64} {b0_ b1_ st_ : Ptr} {β : Backend} {m : Mem B64}
    (hβ : ValidBackend β) (hd : ∀ n, PowTwo (dx n)) (hx : ¬(btype = 0 ∧ exOrder = 2))
    (hi : i0 ≤ i1) (hj : j0 ≤ j1) (hg : 0 ≤ sgcw) (hs1 : btype = 0 → side = 1 → 1 ≤ sgcw) (hl : Layer2 i0 j0 i1 j1 0 pi0 pj0 pi1 pj1 dir side)
    (h : F.Args m [F.face2d0 b0_ i0 j0 i1 j1 0, F.face2d1 b1_ i0 j0 i1 j1 0] [F.st2d st_ i0 j0 i1 j1 sgcw]) :
    ∃ m', Cuda.adjDiag2d i0 j0 i1 j1 pi0 pj0 pi1 pj1 dir side btype exOrder dx beta b0_ b1_ sgcw st_ β m = .ok m' ∧ F.adjcelldiffusiondiag2d i0 j0 i1 j1 pi0 pj0 pi1 pj1 dir side btype exOrder dx beta b0_ b1_ sgcw st_ m = .ok m' :=
  C49_adj_diag_2d hβ (fun _ _ b => (hd _).div_mul beta b) (fun e e2 => absurd ⟨e, e2⟩ hx) hi hj hg hs1 hl h

example : ∃ m', Cuda.adjDiag2d 0 0 3 2 4 0 4 2 0 1 4 2 exDxP 2 ⟨0, 0⟩ ⟨1, 0⟩ 1 ⟨2, 0⟩ revBackend exB64 = .ok m' ∧
    F.adjcelldiffusiondiag2d 0 0 3 2 4 0 4 2 0 1 4 2 exDxP 2 ⟨0, 0⟩ ⟨1, 0⟩ 1 ⟨2, 0⟩ exB64 = .ok m' :=
  C49_adj_diag_2d_dyadic_partial revBackend_ok exDxP_pow (by decide) (by decide) (by decide) (by decide) (by decide) (by constructor <;> (try simp only [InInt]) <;> decide) (by ex_argsB)

/-- With mesh widths that are powers of two the diagonal adjustment and the Fortran routine leave the same bits, except at boundary type 0 and order 2 (`C49_adj_diag_3d_type0_false` has mesh width 1). -/
theorem C49_adj_diag_3d_dyadic_partial {i0 j0 k0 i1 j1 k1 pi0 pj0 pk0 pi1 pj1 pk1 dir side btype exOrder sgcw : Int} {dx : Nat → B64} {beta : B64} {b0_ b1_ b2_ st_ : Ptr} {β : Backend} {m : Mem B64}
    (hβ : ValidBackend β) (hd : ∀ n, PowTwo (dx n)) (hx : ¬(btype = 0 ∧ exOrder = 2))
    (hi : i0 ≤ i1) (hj : j0 ≤ j1) (hk : k0 ≤ k1) (hg : 0 ≤ sgcw) (hl : Layer3 i0 j0 k0 i1 j1 k1 0 pi0 pj0 pk0 pi1 pj1 pk1 dir side)
    (h : F.Args m [F.face3d0 b0_ i0 j0 k0 i1 j1 k1 0, F.face3d1 b1_ i0 j0 k0 i1 j1 k1 0, F.face3d2 b2_ i0 j0 k0 i1 j1 k1 0] [F.st3d st_ i0 j0 k0 i1 j1 k1 sgcw]) :
    ∃ m', Cuda.adjDiag3d i0 j0 k0 i1 j1 k1 pi0 pj0 pk0 pi1 pj1 pk1 dir side btype exOrder dx beta b0_ b1_ b2_ sgcw st_ β m = .ok m' ∧ F.adjcelldiffusiondiag3d i0 j0 k0 i1 j1 k1 pi0 pj0 pk0 pi1 pj1 pk1 dir side btype exOrder dx beta b0_ b1_ b2_ sgcw st_ m = .ok m' :=
  C49_adj_diag_3d hβ (fun _ _ b => (hd _).div_mul beta b) (fun e e2 => absurd ⟨e, e2⟩ hx) hi hj hk hg hl h

example : ∃ m', Cuda.adjDiag3d 0 0 0 3 2 1 0 0 2 3 2 2 2 1 4 2 exDxP 2 ⟨0, 0⟩ ⟨1, 0⟩ ⟨2, 0⟩ 1 ⟨3, 0⟩ revBackend exB64 = .ok m' ∧
    F.adjcelldiffusiondiag3d 0 0 0 3 2 1 0 0 2 3 2 2 2 1 4 2 exDxP 2 ⟨0, 0⟩ ⟨1, 0⟩ ⟨2, 0⟩ 1 ⟨3, 0⟩ exB64 = .ok m' :=
  C49_adj_diag_3d_dyadic_partial revBackend_ok exDxP_pow (by decide) (by decide) (by decide) (by decide) (by decide) (by constructor <;> (try simp only [InInt]) <;> decide) (by ex_argsB)

/-- With mesh widths that are powers of two the Poisson diagonal adjustment and the Fortran routine leave the same bits. -/
theorem C49_adj_poisson_diag_3d_dyadic {i0 j0 k0 i1 j1 k1 pi0 pj0 pk0 pi1 pj1 pk1 dir side btype exOrder sgcw : Int} {dx : Nat → B64} {beta : B64} {st_ : Ptr} {β : Backend} {m : Mem B64}
    (hβ : ValidBackend β) (hd : ∀ n, PowTwo (dx n))
    (hi : i0 ≤ i1) (hj : j0 ≤ j1) (hk : k0 ≤ k1) (hg : 0 ≤ sgcw) (hl : Layer3 i0 j0 k0 i1 j1 k1 sgcw pi0 pj0 pk0 pi1 pj1 pk1 dir side)
    (h : F.Args m [] [F.st3d st_ i0 j0 k0 i1 j1 k1 sgcw]) :
    ∃ m', Cuda.adjPoissonDiag3d i0 j0 k0 i1 j1 k1 pi0 pj0 pk0 pi1 pj1 pk1 dir side btype exOrder dx beta sgcw st_ β m = .ok m' ∧ F.adjcellpoissondiag3d i0 j0 k0 i1 j1 k1 pi0 pj0 pk0 pi1 pj1 pk1 dir side btype exOrder dx beta sgcw st_ m = .ok m' :=
  C49_adj_poisson_diag_3d hβ (fun _ _ => by rw [B64.sq, (hd _).mul_mul]) hi hj hk hg hl h

example : ∃ m', Cuda.adjPoissonDiag3d 0 0 0 3 2 1 0 0 2 3 2 2 2 1 4 2 exDxP 2 1 ⟨3, 0⟩ revBackend exB64 = .ok m' ∧
    F.adjcellpoissondiag3d 0 0 0 3 2 1 0 0 2 3 2 2 2 1 4 2 exDxP 2 1 ⟨3, 0⟩ exB64 = .ok m' :=
  C49_adj_poisson_diag_3d_dyadic revBackend_ok exDxP_pow (by decide) (by decide) (by decide) (by decide) (by constructor <;> (try simp only [InInt]) <;> decide) (by ex_argsB)

/-- With mesh widths that are powers of two the coarse-fine diagonal adjustment and the Fortran routine leave the same bits, except at order 1 (`C49_adj_cf_diag_1d_order1_false` has mesh width 1). -/
theorem C49_adj_cf_diag_1d_dyadic_partial {i0 i1 pi0 pi1 r side intOrder sgcw : Int} {dx : Nat → B64} {beta : B64} {b0_ st_ : Ptr} {β : Backend} {m : Mem B64}
    (hβ : ValidBackend β) (hd : ∀ n, PowTwo (dx n)) (hx : intOrder ≠ 1)
    (hi : i0 ≤ i1) (hg : 0 ≤ sgcw) (hl : Layer1 i0 i1 0 pi0 pi1 side)
    (h : F.Args m [F.face1d b0_ i0 i1 0] [F.st1d st_ i0 i1 sgcw]) :
    ∃ m', Cuda.adjCfDiag1d i0 i1 pi0 pi1 r side intOrder dx beta b0_ sgcw st_ β m = .ok m' ∧ F.adjcelldiffusioncfdiag1d i0 i1 pi0 pi1 r side intOrder dx beta b0_ sgcw st_ m = .ok m' :=
  C49_adj_cf_diag_1d hβ (fun e => absurd e hx) (fun _ b => by rw [((hd _).mul (hd _)).div_mul, ((hd _).mul (hd _)).div_mul, B64.sq, B64.mul_comm beta]) hi hg hl h

example : ∃ m', Cuda.adjCfDiag1d 0 3 4 4 2 1 2 exDxP 2 ⟨0, 0⟩ 1 ⟨1, 0⟩ revBackend exB64 = .ok m' ∧
    F.adjcelldiffusioncfdiag1d 0 3 4 4 2 1 2 exDxP 2 ⟨0, 0⟩ 1 ⟨1, 0⟩ exB64 = .ok m' :=
  C49_adj_cf_diag_1d_dyadic_partial revBackend_ok exDxP_pow (by decide) (by decide) (by decide) (by constructor <;> (try simp only [InInt]) <;> decide) (by ex_argsB)

/-- With mesh widths that are powers of two the coarse-fine diagonal adjustment and the Fortran routine leave the same bits, except at order 1 (`C49_adj_cf_diag_2d_order1_false` has mesh width 1). -/
theorem C49_adj_cf_diag_2d_dyadic_partial {i0 j0 i1 j1 pi0 pj0 pi1 pj1 r dir side intOrder sgcw : Int} {dx : Nat → B64} {beta : B64} {b0_ b1_ st_ : Ptr} {β : Backend} {m : Mem B64}
    (hβ : ValidBackend β) (hd : ∀ n, PowTwo (dx n)) (hx : intOrder ≠ 1)
    (hi : i0 ≤ i1) (hj : j0 ≤ j1) (hg : 0 ≤ sgcw) (hl : Layer2 i0 j0 i1 j1 0 pi0 pj0 pi1 pj1 dir side)
    (h : F.Args m [F.face2d0 b0_ i0 j0 i1 j1 0, F.face2d1 b1_ i0 j0 i1 j1 0] [F.st2d st_ i0 j0 i1 j1 sgcw]) :
    ∃ m', Cuda.adjCfDiag2d i0 j0 i1 j1 pi0 pj0 pi1 pj1 r dir side intOrder dx beta b0_ b1_ sgcw st_ β m = .ok m' ∧ F.adjcelldiffusioncfdiag2d i0 j0 i1 j1 pi0 pj0 pi1 pj1 r dir side intOrder dx beta b0_ b1_ sgcw st_ m = .ok m' :=
  C49_adj_cf_diag_2d hβ (fun e => absurd e hx) (fun _ b => by rw [((hd _).mul (hd _)).div_mul, ((hd _).mul (hd _)).div_mul, B64.sq, B64.mul_comm beta]) hi hj hg hl h

example : ∃ m', Cuda.adjCfDiag2d 0 0 3 2 4 0 4 2 2 0 1 2 exDxP 2 ⟨0, 0⟩ ⟨1, 0⟩ 1 ⟨2, 0⟩ revBackend exB64 = .ok m' ∧
    F.adjcelldiffusioncfdiag2d 0 0 3 2 4 0 4 2 2 0 1 2 exDxP 2 ⟨0, 0⟩ ⟨1, 0⟩ 1 ⟨2, 0⟩ exB64 = .ok m' :=
  C49_adj_cf_diag_2d_dyadic_partial revBackend_ok exDxP_pow (by decide) (by decide) (by decide) (by decide) (by constructor <;> (try simp only [InInt]) <;> decide) (by ex_argsB)

/-- With mesh widths that are powers of two the coarse-fine diagonal adjustment and the Fortran routine leave the same bits, except at order 1 (`C49_adj_cf_diag_3d_order1_false` has mesh width 1). -/
theorem C49_adj_cf_diag_3d_dyadic_partial {i0 j0 k0 i1 j1 k1 pi0 pj0 pk0 pi1 pj1 pk1 r dir side intOrder sgcw : Int} {dx : Nat → B64} {beta : B64} {b0_ b1_ b2_ st_ : Ptr} {β : Backend} {m : Mem B64}
    (hβ : ValidBackend β) (hd : ∀ n, PowTwo (dx n)) (hx : intOrder ≠ 1)
    (hi : i0 ≤ i1) (hj : j0 ≤ j1) (hk : k0 ≤ k1) (hg : 0 ≤ sgcw) (hl : Layer3 i0 j0 k0 i1 j1 k1 0 pi0 pj0 pk0 pi1 pj1 pk1 dir side)
    (h : F.Args m [F.face3d0 b0_ i0 j0 k0 i1 j1 k1 0, F.face3d1 b1_ i0 j0 k0 i1 j1 k1 0, F.face3d2 b2_ i0 j0 k0 i1 j1 k1 0] [F.st3d st_ i0 j0 k0 i1 j1 k1 sgcw]) :
    ∃ m', Cuda.adjCfDiag3d i0 j0 k0 i1 j1 k1 pi0 pj0 pk0 pi1 pj1 pk1 r dir side intOrder dx beta b0_ b1_ b2_ sgcw st_ β m = .ok m' ∧ F.adjcelldiffusioncfdiag3d i0 j0 k0 i1 j1 k1 pi0 pj0 pk0 pi1 pj1 pk1 r dir side intOrder dx beta b0_ b1_ b2_ sgcw st_ m = .ok m' :=
  C49_adj_cf_diag_3d hβ (fun e => absurd e hx) (fun _ b => by rw [((hd _).mul (hd _)).div_mul, ((hd _).mul (hd _)).div_mul, B64.sq, B64.mul_comm beta]) hi hj hk hg hl h

example : ∃ m', Cuda.adjCfDiag3d 0 0 0 3 2 1 0 0 2 3 2 2 2 2 1 2 exDxP 2 ⟨0, 0⟩ ⟨1, 0⟩ ⟨2, 0⟩ 1 ⟨3, 0⟩ revBackend exB64 = .ok m' ∧
    F.adjcelldiffusioncfdiag3d 0 0 0 3 2 1 0 0 2 3 2 2 2 2 1 2 exDxP 2 ⟨0, 0⟩ ⟨1, 0⟩ ⟨2, 0⟩ 1 ⟨3, 0⟩ exB64 = .ok m' :=
  C49_adj_cf_diag_3d_dyadic_partial revBackend_ok exDxP_pow (by decide) (by decide) (by decide) (by decide) (by decide) (by constructor <;> (try simp only [InInt]) <;> decide) (by ex_argsB)

/-- With mesh widths that are powers of two the Poisson coarse-fine diagonal adjustment and the Fortran routine leave the same bits. -/
theorem C49_adj_poisson_cf_diag_1d_dyadic {i0 i1 pi0 pi1 r side intOrder sgcw : Int} {dx : Nat → B64} {beta : B64} {st_ : Ptr} {β : Backend} {m : Mem B64}
    (hβ : ValidBackend β) (hd : ∀ n, PowTwo (dx n))
    (hi : i0 ≤ i1) (hg : 0 ≤ sgcw) (hl : Layer1 i0 i1 sgcw pi0 pi1 side)
    (h : F.Args m [] [F.st1d st_ i0 i1 sgcw]) :
    ∃ m', Cuda.adjPoissonCfDiag1d i0 i1 pi0 pi1 r side intOrder dx beta sgcw st_ β m = .ok m' ∧ F.adjcellpoissoncfdiag1d i0 i1 pi0 pi1 r side intOrder dx beta sgcw st_ m = .ok m' :=
  C49_adj_poisson_cf_diag_1d hβ (fun _ => by rw [((hd _).mul (hd _)).div_div, B64.sq]) (fun _ => by rw [((hd _).mul (hd _)).div_mul, B64.sq, B64.mul_comm beta]) hi hg hl h

example : ∃ m', Cuda.adjPoissonCfDiag1d 0 3 4 4 2 1 2 exDxP 2 1 ⟨1, 0⟩ revBackend exB64 = .ok m' ∧
    F.adjcellpoissoncfdiag1d 0 3 4 4 2 1 2 exDxP 2 1 ⟨1, 0⟩ exB64 = .ok m' :=
  C49_adj_poisson_cf_diag_1d_dyadic revBackend_ok exDxP_pow (by decide) (by decide) (by constructor <;> (try simp only [InInt]) <;> decide) (by ex_argsB)

/-- With mesh widths that are powers of two the Poisson coarse-fine diagonal adjustment and the Fortran routine leave the same bits. -/
theorem C49_adj_poisson_cf_diag_2d_dyadic {i0 j0 i1 j1 pi0 pj0 pi1 pj1 r dir side intOrder sgcw : Int} {dx : Nat → B64} {beta : B64} {st_ : Ptr} {β : Backend} {m : Mem B64}
    (hβ : ValidBackend β) (hd : ∀ n, PowTwo (dx n))
    (hi : i0 ≤ i1) (hj : j0 ≤ j1) (hg : 0 ≤ sgcw) (hl : Layer2 i0 j0 i1 j1 sgcw pi0 pj0 pi1 pj1 dir side)
    (h : F.Args m [] [F.st2d st_ i0 j0 i1 j1 sgcw]) :
    ∃ m', Cuda.adjPoissonCfDiag2d i0 j0 i1 j1 pi0 pj0 pi1 pj1 r dir side intOrder dx beta sgcw st_ β m = .ok m' ∧ F.adjcellpoissoncfdiag2d i0 j0 i1 j1 pi0 pj0 pi1 pj1 r dir side intOrder dx beta sgcw st_ m = .ok m' :=
  C49_adj_poisson_cf_diag_2d hβ (fun _ => by rw [((hd _).mul (hd _)).div_div, B64.sq]) (fun _ => by rw [((hd _).mul (hd _)).div_mul, B64.sq, B64.mul_comm beta]) hi hj hg hl h

example : ∃ m', Cuda.adjPoissonCfDiag2d 0 0 3 2 4 0 4 2 2 0 1 2 exDxP 2 1 ⟨2, 0⟩ revBackend exB64 = .ok m' ∧
    F.adjcellpoissoncfdiag2d 0 0 3 2 4 0 4 2 2 0 1 2 exDxP 2 1 ⟨2, 0⟩ exB64 = .ok m' :=
  C49_adj_poisson_cf_diag_2d_dyadic revBackend_ok exDxP_pow (by decide) (by decide) (by decide) (by constructor <;> (try simp only [InInt]) <;> decide) (by ex_argsB)

/-- With mesh widths that are powers of two the Poisson coarse-fine diagonal adjustment and the Fortran routine leave the same bits. -/
theorem C49_adj_poisson_cf_diag_3d_dyadic {i0 j0 k0 i1 j1 k1 pi0 pj0 pk0 pi1 pj1 pk1 r dir side intOrder sgcw : Int} {dx : Nat → B64} {beta : B64} {st_ : Ptr} {β : Backend} {m : Mem B64}
    (hβ : ValidBackend β) (hd : ∀ n, PowTwo (dx n))
    (hi : i0 ≤ i1) (hj : j0 ≤ j1) (hk : k0 ≤ k1) (hg : 0 ≤ sgcw) (hl : Layer3 i0 j0 k0 i1 j1 k1 sgcw pi0 pj0 pk0 pi1 pj1 pk1 dir side)
    (h : F.Args m [] [F.st3d st_ i0 j0 k0 i1 j1 k1 sgcw]) :
    ∃ m', Cuda.adjPoissonCfDiag3d i0 j0 k0 i1 j1 k1 pi0 pj0 pk0 pi1 pj1 pk1 r dir side intOrder dx beta sgcw st_ β m = .ok m' ∧ F.adjcellpoissoncfdiag3d i0 j0 k0 i1 j1 k1 pi0 pj0 pk0 pi1 pj1 pk1 r dir side intOrder dx beta sgcw st_ m = .ok m' :=
  C49_adj_poisson_cf_diag_3d hβ (fun _ => by rw [((hd _).mul (hd _)).div_div, B64.sq]) (fun _ => by rw [((hd _).mul (hd _)).div_mul, B64.sq, B64.mul_comm beta]) hi hj hk hg hl h

example : ∃ m', Cuda.adjPoissonCfDiag3d 0 0 0 3 2 1 0 0 2 3 2 2 2 2 1 2 exDxP 2 1 ⟨3, 0⟩ revBackend exB64 = .ok m' ∧
    F.adjcellpoissoncfdiag3d 0 0 0 3 2 1 0 0 2 3 2 2 2 2 1 2 exDxP 2 1 ⟨3, 0⟩ exB64 = .ok m' :=
  C49_adj_poisson_cf_diag_3d_dyadic revBackend_ok exDxP_pow (by decide) (by decide) (by decide) (by decide) (by constructor <;> (try simp only [InInt]) <;> decide) (by ex_argsB)

end Verif
