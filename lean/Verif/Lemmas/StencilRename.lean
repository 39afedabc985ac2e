import Verif.Lemmas.Rename
import Verif.Spec.Kernels.Stencil

/-
The Fortran routines of the coefficient tests do not care about the numbers of the blocks their arrays lie in.
-/

namespace Verif.F

variable {T : Type} [Zero T] [One T] [NatCast T] [IntCast T] [Add T] [Sub T] [Mul T] [Div T] [Neg T] [Pow T Nat] {s : Nat → Nat}

theorem ren_celldiffusionoffdiag1d (hs : ∀ k, s (s k) = k) {ifirst0 ilast0 bilo0 bihi0 : Int} {dx : Nat → T} {beta : T} {b0_ : Ptr} {sgcw : Int}
    {stencil_ : Ptr} : Ren s (celldiffusionoffdiag1d (T := T) ifirst0 ilast0 bilo0 bihi0 dx beta b0_ sgcw stencil_)
    (celldiffusionoffdiag1d ifirst0 ilast0 bilo0 bihi0 dx beta (b0_.ren s) sgcw (stencil_.ren s)) := by
  unfold celldiffusionoffdiag1d
  renames hs

theorem ren_cellpoissonoffdiag1d (hs : ∀ k, s (s k) = k) {ifirst0 ilast0 : Int} {dx : Nat → T} {beta : T} {sgcw : Int} {stencil_ : Ptr} : Ren s
    (cellpoissonoffdiag1d (T := T) ifirst0 ilast0 dx beta sgcw stencil_) (cellpoissonoffdiag1d ifirst0 ilast0 dx beta sgcw (stencil_.ren s)) := by
  unfold cellpoissonoffdiag1d
  renames hs

theorem ren_celldiffusionv1diag1d (hs : ∀ k, s (s k) = k) {ifirst0 ilast0 ailo0 aihi0 : Int} {alpha : T} {a_ : Ptr} {sgcw : Int} {stencil_ : Ptr} :
    Ren s (celldiffusionv1diag1d (T := T) ifirst0 ilast0 ailo0 aihi0 alpha a_ sgcw stencil_)
    (celldiffusionv1diag1d ifirst0 ilast0 ailo0 aihi0 alpha (a_.ren s) sgcw (stencil_.ren s)) := by
  unfold celldiffusionv1diag1d
  renames hs

theorem ren_celldiffusionv2diag1d (hs : ∀ k, s (s k) = k) {ifirst0 ilast0 : Int} {alpha : T} {sgcw : Int} {stencil_ : Ptr} : Ren s
    (celldiffusionv2diag1d (T := T) ifirst0 ilast0 alpha sgcw stencil_) (celldiffusionv2diag1d ifirst0 ilast0 alpha sgcw (stencil_.ren s)) := by
  unfold celldiffusionv2diag1d
  renames hs

theorem ren_cellpoissondiag1d (hs : ∀ k, s (s k) = k) {ifirst0 ilast0 sgcw : Int} {stencil_ : Ptr} : Ren s
    (cellpoissondiag1d (T := T) ifirst0 ilast0 sgcw stencil_) (cellpoissondiag1d ifirst0 ilast0 sgcw (stencil_.ren s)) := by
  unfold cellpoissondiag1d
  renames hs

theorem ren_adjcelldiffusiondiag1d (hs : ∀ k, s (s k) = k) {ifirst0 ilast0 pfirst0 plast0 side bdrytype extrapOrder : Int} {dx : Nat → T} {beta : T}
    {b0_ : Ptr} {sgcw : Int} {stencil_ : Ptr} : Ren s
    (adjcelldiffusiondiag1d (T := T) ifirst0 ilast0 pfirst0 plast0 side bdrytype extrapOrder dx beta b0_ sgcw stencil_)
    (adjcelldiffusiondiag1d ifirst0 ilast0 pfirst0 plast0 side bdrytype extrapOrder dx beta (b0_.ren s) sgcw (stencil_.ren s)) := by
  unfold adjcelldiffusiondiag1d
  renames hs

theorem ren_adjcellpoissondiag1d (hs : ∀ k, s (s k) = k) {ifirst0 ilast0 pfirst0 plast0 side bdrytype extrapOrder : Int} {dx : Nat → T} {beta : T}
    {sgcw : Int} {stencil_ : Ptr} : Ren s
    (adjcellpoissondiag1d (T := T) ifirst0 ilast0 pfirst0 plast0 side bdrytype extrapOrder dx beta sgcw stencil_)
    (adjcellpoissondiag1d ifirst0 ilast0 pfirst0 plast0 side bdrytype extrapOrder dx beta sgcw (stencil_.ren s)) := by
  unfold adjcellpoissondiag1d
  renames hs

theorem ren_adjcelldiffusioncfdiag1d (hs : ∀ k, s (s k) = k) {ifirst0 ilast0 pfirst0 plast0 r side interporder : Int} {dx : Nat → T} {beta : T}
    {b0_ : Ptr} {sgcw : Int} {stencil_ : Ptr} : Ren s
    (adjcelldiffusioncfdiag1d (T := T) ifirst0 ilast0 pfirst0 plast0 r side interporder dx beta b0_ sgcw stencil_)
    (adjcelldiffusioncfdiag1d ifirst0 ilast0 pfirst0 plast0 r side interporder dx beta (b0_.ren s) sgcw (stencil_.ren s)) := by
  unfold adjcelldiffusioncfdiag1d
  renames hs

theorem ren_adjcellpoissoncfdiag1d (hs : ∀ k, s (s k) = k) {ifirst0 ilast0 pfirst0 plast0 r side interporder : Int} {dx : Nat → T} {beta : T}
    {sgcw : Int} {stencil_ : Ptr} : Ren s (adjcellpoissoncfdiag1d (T := T) ifirst0 ilast0 pfirst0 plast0 r side interporder dx beta sgcw stencil_)
    (adjcellpoissoncfdiag1d ifirst0 ilast0 pfirst0 plast0 r side interporder dx beta sgcw (stencil_.ren s)) := by
  unfold adjcellpoissoncfdiag1d
  renames hs

theorem ren_adjcelldiffusionoffdiag1d (hs : ∀ k, s (s k) = k) {ifirst0 ilast0 pfirst0 plast0 side bdrytype extrapOrder : Int} {dx : Nat → T}
    {dirfactor neufactor beta : T} {b0_ : Ptr} {sgcw : Int} {stencil_ : Ptr} : Ren s
    (adjcelldiffusionoffdiag1d (T := T) ifirst0 ilast0 pfirst0 plast0 side bdrytype extrapOrder dx dirfactor neufactor beta b0_ sgcw stencil_)
    (adjcelldiffusionoffdiag1d ifirst0 ilast0 pfirst0 plast0 side bdrytype extrapOrder dx dirfactor neufactor beta (b0_.ren s) sgcw (stencil_.ren
    s)) := by
  unfold adjcelldiffusionoffdiag1d
  renames hs

theorem ren_adjcellpoissonoffdiag1d (hs : ∀ k, s (s k) = k) {ifirst0 ilast0 pfirst0 plast0 side bdrytype extrapOrder : Int} {dx : Nat → T}
    {dirfactor neufactor beta : T} {sgcw : Int} {stencil_ : Ptr} : Ren s
    (adjcellpoissonoffdiag1d (T := T) ifirst0 ilast0 pfirst0 plast0 side bdrytype extrapOrder dx dirfactor neufactor beta sgcw stencil_)
    (adjcellpoissonoffdiag1d ifirst0 ilast0 pfirst0 plast0 side bdrytype extrapOrder dx dirfactor neufactor beta sgcw (stencil_.ren s)) := by
  unfold adjcellpoissonoffdiag1d
  renames hs

theorem ren_adjcelldiffusioncfoffdiag1d (hs : ∀ k, s (s k) = k) {ifirst0 ilast0 cfirst0 clast0 r side interporder sgcw : Int} {stencil_ : Ptr} : Ren
    s (adjcelldiffusioncfoffdiag1d (T := T) ifirst0 ilast0 cfirst0 clast0 r side interporder sgcw stencil_)
    (adjcelldiffusioncfoffdiag1d ifirst0 ilast0 cfirst0 clast0 r side interporder sgcw (stencil_.ren s)) := by
  unfold adjcelldiffusioncfoffdiag1d
  renames hs

theorem ren_readjcelldiffusionoffdiag1d (hs : ∀ k, s (s k) = k) {ifirst0 ilast0 pfirst0 plast0 side sgcw : Int} {stencil_ : Ptr} : Ren s
    (readjcelldiffusionoffdiag1d (T := T) ifirst0 ilast0 pfirst0 plast0 side sgcw stencil_)
    (readjcelldiffusionoffdiag1d ifirst0 ilast0 pfirst0 plast0 side sgcw (stencil_.ren s)) := by
  unfold readjcelldiffusionoffdiag1d
  renames hs

theorem ren_adjcelldiffusioncfbdryrhs1d (hs : ∀ k, s (s k) = k) {ifirst0 ilast0 pfirst0 plast0 side sgcw : Int} {stencil_ : Ptr} {gcw : Int}
    {u_ rhs_ : Ptr} : Ren s (adjcelldiffusioncfbdryrhs1d (T := T) ifirst0 ilast0 pfirst0 plast0 side sgcw stencil_ gcw u_ rhs_)
    (adjcelldiffusioncfbdryrhs1d ifirst0 ilast0 pfirst0 plast0 side sgcw (stencil_.ren s) gcw (u_.ren s) (rhs_.ren s)) := by
  unfold adjcelldiffusioncfbdryrhs1d
  renames hs

theorem ren_celldiffusionoffdiag2d (hs : ∀ k, s (s k) = k) {ifirst0 ifirst1 ilast0 ilast1 bilo0 bilo1 bihi0 bihi1 : Int} {dx : Nat → T} {beta : T}
    {b0_ b1_ : Ptr} {sgcw : Int} {stencil_ : Ptr} : Ren s
    (celldiffusionoffdiag2d (T := T) ifirst0 ifirst1 ilast0 ilast1 bilo0 bilo1 bihi0 bihi1 dx beta b0_ b1_ sgcw stencil_)
    (celldiffusionoffdiag2d ifirst0 ifirst1 ilast0 ilast1 bilo0 bilo1 bihi0 bihi1 dx beta (b0_.ren s) (b1_.ren s) sgcw (stencil_.ren s)) := by
  unfold celldiffusionoffdiag2d
  renames hs

theorem ren_cellpoissonoffdiag2d (hs : ∀ k, s (s k) = k) {ifirst0 ifirst1 ilast0 ilast1 : Int} {dx : Nat → T} {beta : T} {sgcw : Int}
    {stencil_ : Ptr} : Ren s (cellpoissonoffdiag2d (T := T) ifirst0 ifirst1 ilast0 ilast1 dx beta sgcw stencil_)
    (cellpoissonoffdiag2d ifirst0 ifirst1 ilast0 ilast1 dx beta sgcw (stencil_.ren s)) := by
  unfold cellpoissonoffdiag2d
  renames hs

theorem ren_celldiffusionv1diag2d (hs : ∀ k, s (s k) = k) {ifirst0 ifirst1 ilast0 ilast1 ailo0 ailo1 aihi0 aihi1 : Int} {alpha : T} {a_ : Ptr}
    {sgcw : Int} {stencil_ : Ptr} : Ren s
    (celldiffusionv1diag2d (T := T) ifirst0 ifirst1 ilast0 ilast1 ailo0 ailo1 aihi0 aihi1 alpha a_ sgcw stencil_)
    (celldiffusionv1diag2d ifirst0 ifirst1 ilast0 ilast1 ailo0 ailo1 aihi0 aihi1 alpha (a_.ren s) sgcw (stencil_.ren s)) := by
  unfold celldiffusionv1diag2d
  renames hs

theorem ren_celldiffusionv2diag2d (hs : ∀ k, s (s k) = k) {ifirst0 ifirst1 ilast0 ilast1 : Int} {alpha : T} {sgcw : Int} {stencil_ : Ptr} : Ren s
    (celldiffusionv2diag2d (T := T) ifirst0 ifirst1 ilast0 ilast1 alpha sgcw stencil_)
    (celldiffusionv2diag2d ifirst0 ifirst1 ilast0 ilast1 alpha sgcw (stencil_.ren s)) := by
  unfold celldiffusionv2diag2d
  renames hs

theorem ren_cellpoissondiag2d (hs : ∀ k, s (s k) = k) {ifirst0 ifirst1 ilast0 ilast1 sgcw : Int} {stencil_ : Ptr} : Ren s
    (cellpoissondiag2d (T := T) ifirst0 ifirst1 ilast0 ilast1 sgcw stencil_) (cellpoissondiag2d ifirst0 ifirst1 ilast0 ilast1 sgcw (stencil_.ren s))
    := by
  unfold cellpoissondiag2d
  renames hs

theorem ren_adjcelldiffusiondiag2d (hs : ∀ k, s (s k) = k)
    {ifirst0 ifirst1 ilast0 ilast1 pfirst0 pfirst1 plast0 plast1 direction side bdrytype extrapOrder : Int} {dx : Nat → T} {beta : T}
    {b0_ b1_ : Ptr} {sgcw : Int} {stencil_ : Ptr} : Ren s (adjcelldiffusiondiag2d (T := T) ifirst0 ifirst1 ilast0 ilast1 pfirst0 pfirst1 plast0
    plast1 direction side bdrytype extrapOrder dx beta b0_ b1_ sgcw stencil_) (adjcelldiffusiondiag2d ifirst0 ifirst1 ilast0 ilast1 pfirst0 pfirst1
    plast0 plast1 direction side bdrytype extrapOrder dx beta (b0_.ren s) (b1_.ren s) sgcw (stencil_.ren s)) := by
  unfold adjcelldiffusiondiag2d
  renames hs

theorem ren_adjcellpoissondiag2d (hs : ∀ k, s (s k) = k)
    {ifirst0 ifirst1 ilast0 ilast1 pfirst0 pfirst1 plast0 plast1 direction side bdrytype extrapOrder : Int} {dx : Nat → T} {beta : T} {sgcw : Int}
    {stencil_ : Ptr} : Ren s (adjcellpoissondiag2d (T := T) ifirst0 ifirst1 ilast0 ilast1 pfirst0 pfirst1 plast0 plast1 direction side bdrytype
    extrapOrder dx beta sgcw stencil_) (adjcellpoissondiag2d ifirst0 ifirst1 ilast0 ilast1 pfirst0 pfirst1 plast0 plast1 direction side bdrytype
    extrapOrder dx beta sgcw (stencil_.ren s)) := by
  unfold adjcellpoissondiag2d
  renames hs

theorem ren_adjcelldiffusioncfdiag2d (hs : ∀ k, s (s k) = k)
    {ifirst0 ifirst1 ilast0 ilast1 pfirst0 pfirst1 plast0 plast1 r direction side interporder : Int} {dx : Nat → T} {beta : T} {b0_ b1_ : Ptr}
    {sgcw : Int} {stencil_ : Ptr} : Ren s (adjcelldiffusioncfdiag2d (T := T) ifirst0 ifirst1 ilast0 ilast1 pfirst0 pfirst1 plast0 plast1 r direction
    side interporder dx beta b0_ b1_ sgcw stencil_) (adjcelldiffusioncfdiag2d ifirst0 ifirst1 ilast0 ilast1 pfirst0 pfirst1 plast0 plast1 r
    direction side interporder dx beta (b0_.ren s) (b1_.ren s) sgcw (stencil_.ren s)) := by
  unfold adjcelldiffusioncfdiag2d
  renames hs

theorem ren_adjcellpoissoncfdiag2d (hs : ∀ k, s (s k) = k)
    {ifirst0 ifirst1 ilast0 ilast1 pfirst0 pfirst1 plast0 plast1 r direction side interporder : Int} {dx : Nat → T} {beta : T} {sgcw : Int}
    {stencil_ : Ptr} : Ren s
    (adjcellpoissoncfdiag2d (T := T) ifirst0 ifirst1 ilast0 ilast1 pfirst0 pfirst1 plast0 plast1 r direction side interporder dx beta sgcw stencil_)
    (adjcellpoissoncfdiag2d ifirst0 ifirst1 ilast0 ilast1 pfirst0 pfirst1 plast0 plast1 r direction side interporder dx beta sgcw (stencil_.ren s))
    := by
  unfold adjcellpoissoncfdiag2d
  renames hs

theorem ren_adjcelldiffusionoffdiag2d (hs : ∀ k, s (s k) = k)
    {ifirst0 ifirst1 ilast0 ilast1 pfirst0 pfirst1 plast0 plast1 direction side bdrytype extrapOrder : Int} {dx : Nat → T}
    {dirfactor neufactor beta : T} {b0_ b1_ : Ptr} {sgcw : Int} {stencil_ : Ptr} : Ren s (adjcelldiffusionoffdiag2d (T := T) ifirst0 ifirst1 ilast0
    ilast1 pfirst0 pfirst1 plast0 plast1 direction side bdrytype extrapOrder dx dirfactor neufactor beta b0_ b1_ sgcw stencil_)
    (adjcelldiffusionoffdiag2d ifirst0 ifirst1 ilast0 ilast1 pfirst0 pfirst1 plast0 plast1 direction side bdrytype extrapOrder dx dirfactor
    neufactor beta (b0_.ren s) (b1_.ren s) sgcw (stencil_.ren s)) := by
  unfold adjcelldiffusionoffdiag2d
  renames hs

theorem ren_adjcellpoissonoffdiag2d (hs : ∀ k, s (s k) = k)
    {ifirst0 ifirst1 ilast0 ilast1 pfirst0 pfirst1 plast0 plast1 direction side bdrytype extrapOrder : Int} {dx : Nat → T}
    {dirfactor neufactor beta : T} {sgcw : Int} {stencil_ : Ptr} : Ren s (adjcellpoissonoffdiag2d (T := T) ifirst0 ifirst1 ilast0 ilast1 pfirst0
    pfirst1 plast0 plast1 direction side bdrytype extrapOrder dx dirfactor neufactor beta sgcw stencil_) (adjcellpoissonoffdiag2d ifirst0 ifirst1
    ilast0 ilast1 pfirst0 pfirst1 plast0 plast1 direction side bdrytype extrapOrder dx dirfactor neufactor beta sgcw (stencil_.ren s)) := by
  unfold adjcellpoissonoffdiag2d
  renames hs

theorem ren_adjcelldiffusioncfoffdiag2d (hs : ∀ k, s (s k) = k)
    {ifirst0 ifirst1 ilast0 ilast1 cfirst0 cfirst1 clast0 clast1 r direction side interporder sgcw : Int} {stencil_ : Ptr} : Ren s
    (adjcelldiffusioncfoffdiag2d (T := T) ifirst0 ifirst1 ilast0 ilast1 cfirst0 cfirst1 clast0 clast1 r direction side interporder sgcw stencil_)
    (adjcelldiffusioncfoffdiag2d ifirst0 ifirst1 ilast0 ilast1 cfirst0 cfirst1 clast0 clast1 r direction side interporder sgcw (stencil_.ren s)) :=
    by
  unfold adjcelldiffusioncfoffdiag2d
  renames hs

theorem ren_readjcelldiffusionoffdiag2d (hs : ∀ k, s (s k) = k)
    {ifirst0 ifirst1 ilast0 ilast1 pfirst0 pfirst1 plast0 plast1 direction side sgcw : Int} {stencil_ : Ptr} : Ren s
    (readjcelldiffusionoffdiag2d (T := T) ifirst0 ifirst1 ilast0 ilast1 pfirst0 pfirst1 plast0 plast1 direction side sgcw stencil_)
    (readjcelldiffusionoffdiag2d ifirst0 ifirst1 ilast0 ilast1 pfirst0 pfirst1 plast0 plast1 direction side sgcw (stencil_.ren s)) := by
  unfold readjcelldiffusionoffdiag2d
  renames hs

theorem ren_adjcelldiffusioncfbdryrhs2d (hs : ∀ k, s (s k) = k)
    {ifirst0 ifirst1 ilast0 ilast1 pfirst0 pfirst1 plast0 plast1 direction side sgcw : Int} {stencil_ : Ptr} {gcw : Int} {u_ rhs_ : Ptr} : Ren s
    (adjcelldiffusioncfbdryrhs2d (T := T) ifirst0 ifirst1 ilast0 ilast1 pfirst0 pfirst1 plast0 plast1 direction side sgcw stencil_ gcw u_ rhs_)
    (adjcelldiffusioncfbdryrhs2d ifirst0 ifirst1 ilast0 ilast1 pfirst0 pfirst1 plast0 plast1 direction side sgcw (stencil_.ren s) gcw (u_.ren s)
    (rhs_.ren s)) := by
  unfold adjcelldiffusioncfbdryrhs2d
  renames hs

theorem ren_celldiffusionoffdiag3d (hs : ∀ k, s (s k) = k) {ifirst0 ifirst1 ifirst2 ilast0 ilast1 ilast2 bilo0 bilo1 bilo2 bihi0 bihi1 bihi2 : Int}
    {dx : Nat → T} {beta : T} {b0_ b1_ b2_ : Ptr} {sgcw : Int} {stencil_ : Ptr} : Ren s (celldiffusionoffdiag3d (T := T) ifirst0 ifirst1 ifirst2
    ilast0 ilast1 ilast2 bilo0 bilo1 bilo2 bihi0 bihi1 bihi2 dx beta b0_ b1_ b2_ sgcw stencil_) (celldiffusionoffdiag3d ifirst0 ifirst1 ifirst2
    ilast0 ilast1 ilast2 bilo0 bilo1 bilo2 bihi0 bihi1 bihi2 dx beta (b0_.ren s) (b1_.ren s) (b2_.ren s) sgcw (stencil_.ren s)) := by
  unfold celldiffusionoffdiag3d
  renames hs

theorem ren_cellpoissonoffdiag3d (hs : ∀ k, s (s k) = k) {ifirst0 ifirst1 ifirst2 ilast0 ilast1 ilast2 : Int} {dx : Nat → T} {beta : T} {sgcw : Int}
    {stencil_ : Ptr} : Ren s (cellpoissonoffdiag3d (T := T) ifirst0 ifirst1 ifirst2 ilast0 ilast1 ilast2 dx beta sgcw stencil_)
    (cellpoissonoffdiag3d ifirst0 ifirst1 ifirst2 ilast0 ilast1 ilast2 dx beta sgcw (stencil_.ren s)) := by
  unfold cellpoissonoffdiag3d
  renames hs

theorem ren_celldiffusionv1diag3d (hs : ∀ k, s (s k) = k) {ifirst0 ifirst1 ifirst2 ilast0 ilast1 ilast2 ailo0 ailo1 ailo2 aihi0 aihi1 aihi2 : Int}
    {alpha : T} {a_ : Ptr} {sgcw : Int} {stencil_ : Ptr} : Ren s
    (celldiffusionv1diag3d (T := T) ifirst0 ifirst1 ifirst2 ilast0 ilast1 ilast2 ailo0 ailo1 ailo2 aihi0 aihi1 aihi2 alpha a_ sgcw stencil_)
    (celldiffusionv1diag3d ifirst0 ifirst1 ifirst2 ilast0 ilast1 ilast2 ailo0 ailo1 ailo2 aihi0 aihi1 aihi2 alpha (a_.ren s) sgcw (stencil_.ren s))
    := by
  unfold celldiffusionv1diag3d
  renames hs

theorem ren_celldiffusionv2diag3d (hs : ∀ k, s (s k) = k) {ifirst0 ifirst1 ifirst2 ilast0 ilast1 ilast2 : Int} {alpha : T} {sgcw : Int}
    {stencil_ : Ptr} : Ren s (celldiffusionv2diag3d (T := T) ifirst0 ifirst1 ifirst2 ilast0 ilast1 ilast2 alpha sgcw stencil_)
    (celldiffusionv2diag3d ifirst0 ifirst1 ifirst2 ilast0 ilast1 ilast2 alpha sgcw (stencil_.ren s)) := by
  unfold celldiffusionv2diag3d
  renames hs

theorem ren_cellpoissondiag3d (hs : ∀ k, s (s k) = k) {ifirst0 ifirst1 ifirst2 ilast0 ilast1 ilast2 sgcw : Int} {stencil_ : Ptr} : Ren s
    (cellpoissondiag3d (T := T) ifirst0 ifirst1 ifirst2 ilast0 ilast1 ilast2 sgcw stencil_)
    (cellpoissondiag3d ifirst0 ifirst1 ifirst2 ilast0 ilast1 ilast2 sgcw (stencil_.ren s)) := by
  unfold cellpoissondiag3d
  renames hs

theorem ren_adjcelldiffusiondiag3d (hs : ∀ k, s (s k) = k)
    {ifirst0 ifirst1 ifirst2 ilast0 ilast1 ilast2 pfirst0 pfirst1 pfirst2 plast0 plast1 plast2 direction side bdrytype extrapOrder : Int}
    {dx : Nat → T} {beta : T} {b0_ b1_ b2_ : Ptr} {sgcw : Int} {stencil_ : Ptr} : Ren s (adjcelldiffusiondiag3d (T := T) ifirst0 ifirst1 ifirst2
    ilast0 ilast1 ilast2 pfirst0 pfirst1 pfirst2 plast0 plast1 plast2 direction side bdrytype extrapOrder dx beta b0_ b1_ b2_ sgcw stencil_)
    (adjcelldiffusiondiag3d ifirst0 ifirst1 ifirst2 ilast0 ilast1 ilast2 pfirst0 pfirst1 pfirst2 plast0 plast1 plast2 direction side bdrytype
    extrapOrder dx beta (b0_.ren s) (b1_.ren s) (b2_.ren s) sgcw (stencil_.ren s)) := by
  unfold adjcelldiffusiondiag3d
  renames hs

theorem ren_adjcellpoissondiag3d (hs : ∀ k, s (s k) = k)
    {ifirst0 ifirst1 ifirst2 ilast0 ilast1 ilast2 pfirst0 pfirst1 pfirst2 plast0 plast1 plast2 direction side bdrytype extrapOrder : Int}
    {dx : Nat → T} {beta : T} {sgcw : Int} {stencil_ : Ptr} : Ren s (adjcellpoissondiag3d (T := T) ifirst0 ifirst1 ifirst2 ilast0 ilast1 ilast2
    pfirst0 pfirst1 pfirst2 plast0 plast1 plast2 direction side bdrytype extrapOrder dx beta sgcw stencil_) (adjcellpoissondiag3d ifirst0 ifirst1
    ifirst2 ilast0 ilast1 ilast2 pfirst0 pfirst1 pfirst2 plast0 plast1 plast2 direction side bdrytype extrapOrder dx beta sgcw (stencil_.ren s)) :=
    by
  unfold adjcellpoissondiag3d
  renames hs

theorem ren_adjcelldiffusioncfdiag3d (hs : ∀ k, s (s k) = k)
    {ifirst0 ifirst1 ifirst2 ilast0 ilast1 ilast2 pfirst0 pfirst1 pfirst2 plast0 plast1 plast2 r direction side interporder : Int} {dx : Nat → T}
    {beta : T} {b0_ b1_ b2_ : Ptr} {sgcw : Int} {stencil_ : Ptr} : Ren s (adjcelldiffusioncfdiag3d (T := T) ifirst0 ifirst1 ifirst2 ilast0 ilast1
    ilast2 pfirst0 pfirst1 pfirst2 plast0 plast1 plast2 r direction side interporder dx beta b0_ b1_ b2_ sgcw stencil_) (adjcelldiffusioncfdiag3d
    ifirst0 ifirst1 ifirst2 ilast0 ilast1 ilast2 pfirst0 pfirst1 pfirst2 plast0 plast1 plast2 r direction side interporder dx beta (b0_.ren s)
    (b1_.ren s) (b2_.ren s) sgcw (stencil_.ren s)) := by
  unfold adjcelldiffusioncfdiag3d
  renames hs

theorem ren_adjcellpoissoncfdiag3d (hs : ∀ k, s (s k) = k)
    {ifirst0 ifirst1 ifirst2 ilast0 ilast1 ilast2 pfirst0 pfirst1 pfirst2 plast0 plast1 plast2 r direction side interporder : Int} {dx : Nat → T}
    {beta : T} {sgcw : Int} {stencil_ : Ptr} : Ren s (adjcellpoissoncfdiag3d (T := T) ifirst0 ifirst1 ifirst2 ilast0 ilast1 ilast2 pfirst0 pfirst1
    pfirst2 plast0 plast1 plast2 r direction side interporder dx beta sgcw stencil_) (adjcellpoissoncfdiag3d ifirst0 ifirst1 ifirst2 ilast0 ilast1
    ilast2 pfirst0 pfirst1 pfirst2 plast0 plast1 plast2 r direction side interporder dx beta sgcw (stencil_.ren s)) := by
  unfold adjcellpoissoncfdiag3d
  renames hs

theorem ren_adjcelldiffusionoffdiag3d (hs : ∀ k, s (s k) = k)
    {ifirst0 ifirst1 ifirst2 ilast0 ilast1 ilast2 pfirst0 pfirst1 pfirst2 plast0 plast1 plast2 direction side bdrytype extrapOrder : Int}
    {dx : Nat → T} {dirfactor neufactor beta : T} {b0_ b1_ b2_ : Ptr} {sgcw : Int} {stencil_ : Ptr} : Ren s (adjcelldiffusionoffdiag3d (T := T)
    ifirst0 ifirst1 ifirst2 ilast0 ilast1 ilast2 pfirst0 pfirst1 pfirst2 plast0 plast1 plast2 direction side bdrytype extrapOrder dx dirfactor
    neufactor beta b0_ b1_ b2_ sgcw stencil_) (adjcelldiffusionoffdiag3d ifirst0 ifirst1 ifirst2 ilast0 ilast1 ilast2 pfirst0 pfirst1 pfirst2 plast0
    plast1 plast2 direction side bdrytype extrapOrder dx dirfactor neufactor beta (b0_.ren s) (b1_.ren s) (b2_.ren s) sgcw (stencil_.ren s)) := by
  unfold adjcelldiffusionoffdiag3d
  renames hs

theorem ren_adjcellpoissonoffdiag3d (hs : ∀ k, s (s k) = k)
    {ifirst0 ifirst1 ifirst2 ilast0 ilast1 ilast2 pfirst0 pfirst1 pfirst2 plast0 plast1 plast2 direction side bdrytype extrapOrder : Int}
    {dx : Nat → T} {dirfactor neufactor beta : T} {sgcw : Int} {stencil_ : Ptr} : Ren s (adjcellpoissonoffdiag3d (T := T) ifirst0 ifirst1 ifirst2
    ilast0 ilast1 ilast2 pfirst0 pfirst1 pfirst2 plast0 plast1 plast2 direction side bdrytype extrapOrder dx dirfactor neufactor beta sgcw stencil_)
    (adjcellpoissonoffdiag3d ifirst0 ifirst1 ifirst2 ilast0 ilast1 ilast2 pfirst0 pfirst1 pfirst2 plast0 plast1 plast2 direction side bdrytype
    extrapOrder dx dirfactor neufactor beta sgcw (stencil_.ren s)) := by
  unfold adjcellpoissonoffdiag3d
  renames hs

theorem ren_adjcelldiffusioncfoffdiag3d (hs : ∀ k, s (s k) = k)
    {ifirst0 ifirst1 ifirst2 ilast0 ilast1 ilast2 cfirst0 cfirst1 cfirst2 clast0 clast1 clast2 r direction side interporder sgcw : Int}
    {stencil_ : Ptr} : Ren s (adjcelldiffusioncfoffdiag3d (T := T) ifirst0 ifirst1 ifirst2 ilast0 ilast1 ilast2 cfirst0 cfirst1 cfirst2 clast0
    clast1 clast2 r direction side interporder sgcw stencil_) (adjcelldiffusioncfoffdiag3d ifirst0 ifirst1 ifirst2 ilast0 ilast1 ilast2 cfirst0
    cfirst1 cfirst2 clast0 clast1 clast2 r direction side interporder sgcw (stencil_.ren s)) := by
  unfold adjcelldiffusioncfoffdiag3d
  renames hs

theorem ren_readjcelldiffusionoffdiag3d (hs : ∀ k, s (s k) = k)
    {ifirst0 ifirst1 ifirst2 ilast0 ilast1 ilast2 pfirst0 pfirst1 pfirst2 plast0 plast1 plast2 direction side sgcw : Int} {stencil_ : Ptr} : Ren s
    (readjcelldiffusionoffdiag3d (T := T) ifirst0 ifirst1 ifirst2 ilast0 ilast1 ilast2 pfirst0 pfirst1 pfirst2 plast0 plast1 plast2 direction side
    sgcw stencil_) (readjcelldiffusionoffdiag3d ifirst0 ifirst1 ifirst2 ilast0 ilast1 ilast2 pfirst0 pfirst1 pfirst2 plast0 plast1 plast2 direction
    side sgcw (stencil_.ren s)) := by
  unfold readjcelldiffusionoffdiag3d
  renames hs

theorem ren_adjcelldiffusioncfbdryrhs3d (hs : ∀ k, s (s k) = k)
    {ifirst0 ifirst1 ifirst2 ilast0 ilast1 ilast2 pfirst0 pfirst1 pfirst2 plast0 plast1 plast2 direction side sgcw : Int} {stencil_ : Ptr}
    {gcw : Int} {u_ rhs_ : Ptr} : Ren s (adjcelldiffusioncfbdryrhs3d (T := T) ifirst0 ifirst1 ifirst2 ilast0 ilast1 ilast2 pfirst0 pfirst1 pfirst2
    plast0 plast1 plast2 direction side sgcw stencil_ gcw u_ rhs_) (adjcelldiffusioncfbdryrhs3d ifirst0 ifirst1 ifirst2 ilast0 ilast1 ilast2 pfirst0
    pfirst1 pfirst2 plast0 plast1 plast2 direction side sgcw (stencil_.ren s) gcw (u_.ren s) (rhs_.ren s)) := by
  unfold adjcelldiffusioncfbdryrhs3d
  renames hs

end Verif.F
