import Verif.Lemmas.Rename
import Verif.Spec.Kernels.Bc

/-
The Fortran routines of the boundary condition tests do not care about the numbers of the blocks their arrays lie in.
-/

namespace Verif.F

variable {T : Type} [Zero T] [One T] [NatCast T] [Add T] [Sub T] [Mul T] [Div T] [Neg T] {s : Nat → Nat}

theorem ren_withCoeff {e i : Int} {c c' : T → Cmd T} (h : ∀ x, Ren s (c x) (c' x)) : Ren s (withCoeff e i c) (withCoeff e i c') := by
  intro m
  unfold withCoeff
  cases homCoeff (T := T) e i with
  | none => rfl
  | some x => exact h x m

theorem ren_cellsetcorrectionbc1d (hs : ∀ k, s (s k) = k) {lo0 hi0 : Int} {dx : Nat → T} {dgcw : Int} {d0_ : Ptr} {ugcw : Int} {u_ : Ptr}
    {bdrySegLo bdrySegHi : Nat → Int} {extrapOrder face bdryType : Int} {alpha beta : T} : Ren s
    (cellsetcorrectionbc1d (T := T) lo0 hi0 dx dgcw d0_ ugcw u_ bdrySegLo bdrySegHi extrapOrder face bdryType alpha beta)
    (cellsetcorrectionbc1d lo0 hi0 dx dgcw (d0_.ren s) ugcw (u_.ren s) bdrySegLo bdrySegHi extrapOrder face bdryType alpha beta) := by
  unfold cellsetcorrectionbc1d
  renames hs

theorem ren_cellsetpoissoncorrectionbc1d (hs : ∀ k, s (s k) = k) {lo0 hi0 : Int} {dx : Nat → T} {ugcw : Int} {u_ : Ptr}
    {bdrySegLo bdrySegHi : Nat → Int} {extrapOrder face bdryType : Int} {alpha beta : T} : Ren s
    (cellsetpoissoncorrectionbc1d (T := T) lo0 hi0 dx ugcw u_ bdrySegLo bdrySegHi extrapOrder face bdryType alpha beta)
    (cellsetpoissoncorrectionbc1d lo0 hi0 dx ugcw (u_.ren s) bdrySegLo bdrySegHi extrapOrder face bdryType alpha beta) := by
  unfold cellsetpoissoncorrectionbc1d
  renames hs

theorem ren_cellsetcorrectionbc2d (hs : ∀ k, s (s k) = k) {lo0 hi0 lo1 hi1 : Int} {dx : Nat → T} {dgcw : Int} {d0_ d1_ : Ptr} {ugcw : Int}
    {u_ : Ptr} {bdrySegLo bdrySegHi : Nat → Int} {extrapOrder face type bdryType : Int} {alpha beta : T} : Ren s
    (cellsetcorrectionbc2d (T := T) lo0 hi0 lo1 hi1 dx dgcw d0_ d1_ ugcw u_ bdrySegLo bdrySegHi extrapOrder face type bdryType alpha beta)
    (cellsetcorrectionbc2d lo0 hi0 lo1 hi1 dx dgcw (d0_.ren s) (d1_.ren s) ugcw (u_.ren s) bdrySegLo bdrySegHi extrapOrder face type bdryType alpha
    beta) := by
  unfold cellsetcorrectionbc2d
  renames hs

theorem ren_cellsetpoissoncorrectionbc2d (hs : ∀ k, s (s k) = k) {lo0 hi0 lo1 hi1 : Int} {dx : Nat → T} {ugcw : Int} {u_ : Ptr}
    {bdrySegLo bdrySegHi : Nat → Int} {extrapOrder face type bdryType : Int} {alpha beta : T} : Ren s
    (cellsetpoissoncorrectionbc2d (T := T) lo0 hi0 lo1 hi1 dx ugcw u_ bdrySegLo bdrySegHi extrapOrder face type bdryType alpha beta)
    (cellsetpoissoncorrectionbc2d lo0 hi0 lo1 hi1 dx ugcw (u_.ren s) bdrySegLo bdrySegHi extrapOrder face type bdryType alpha beta) := by
  unfold cellsetpoissoncorrectionbc2d
  renames hs

theorem ren_cellsetinteriorcornerbc2d (hs : ∀ k, s (s k) = k) {lo0 hi0 lo1 hi1 gcw : Int} {dx : Nat → T} {d0_ d1_ u_ : Ptr}
    {bdrySegLo bdrySegHi : Nat → Int} {extrapOrder face type bdryType : Int} : Ren s
    (cellsetinteriorcornerbc2d (T := T) lo0 hi0 lo1 hi1 gcw dx d0_ d1_ u_ bdrySegLo bdrySegHi extrapOrder face type bdryType)
    (cellsetinteriorcornerbc2d lo0 hi0 lo1 hi1 gcw dx (d0_.ren s) (d1_.ren s) (u_.ren s) bdrySegLo bdrySegHi extrapOrder face type bdryType) := by
  unfold cellsetinteriorcornerbc2d
  renames hs

theorem ren_cellsethomogenousbc2d (hs : ∀ k, s (s k) = k) {lo0 lo1 hi0 hi1 face : Int} {segLo segHi : Nat → Int} {extrapOrder : Int} {var_ : Ptr} :
    Ren s (cellsethomogenousbc2d (T := T) lo0 lo1 hi0 hi1 face segLo segHi extrapOrder var_)
    (cellsethomogenousbc2d lo0 lo1 hi0 hi1 face segLo segHi extrapOrder (var_.ren s)) := by
  unfold cellsethomogenousbc2d
  renames hs
  all_goals exact ren_withCoeff fun _ => ren_assign hs rfl rfl

theorem ren_cellsetcorrectionbc3d (hs : ∀ k, s (s k) = k) {lo0 hi0 lo1 hi1 lo2 hi2 : Int} {dx : Nat → T} {dgcw : Int} {d0_ d1_ d2_ : Ptr}
    {ugcw : Int} {u_ : Ptr} {bdrySegLo bdrySegHi : Nat → Int} {extrapOrder face type bdryType : Int} {alpha beta : T} : Ren s (cellsetcorrectionbc3d
    (T := T) lo0 hi0 lo1 hi1 lo2 hi2 dx dgcw d0_ d1_ d2_ ugcw u_ bdrySegLo bdrySegHi extrapOrder face type bdryType alpha beta)
    (cellsetcorrectionbc3d lo0 hi0 lo1 hi1 lo2 hi2 dx dgcw (d0_.ren s) (d1_.ren s) (d2_.ren s) ugcw (u_.ren s) bdrySegLo bdrySegHi extrapOrder face
    type bdryType alpha beta) := by
  unfold cellsetcorrectionbc3d
  renames hs

theorem ren_cellsetpoissoncorrectionbc3d (hs : ∀ k, s (s k) = k) {lo0 hi0 lo1 hi1 lo2 hi2 : Int} {dx : Nat → T} {ugcw : Int} {u_ : Ptr}
    {bdrySegLo bdrySegHi : Nat → Int} {extrapOrder face type bdryType : Int} {alpha beta : T} : Ren s
    (cellsetpoissoncorrectionbc3d (T := T) lo0 hi0 lo1 hi1 lo2 hi2 dx ugcw u_ bdrySegLo bdrySegHi extrapOrder face type bdryType alpha beta)
    (cellsetpoissoncorrectionbc3d lo0 hi0 lo1 hi1 lo2 hi2 dx ugcw (u_.ren s) bdrySegLo bdrySegHi extrapOrder face type bdryType alpha beta) := by
  unfold cellsetpoissoncorrectionbc3d
  renames hs

end Verif.F
