import Verif.Lemmas.Shapes
import Verif.Spec.Kernels.Stencil
import Verif.Spec.Kernels.NodeStencil

/-
The three-dimensional node routines against the cell routines without ghost layer, where the two texts differ.
-/

namespace Verif

/-- Two nested conditionals with the same conditions: equal if every reachable leaf is. -/
macro "leaves" : tactic => `(tactic| repeat' first
  | with_reducible rfl
  | with_reducible refine ite_congr rfl (fun _ => ?_) (fun _ => ?_)
  | (exfalso; omega))

variable {T : Type} [Zero T] [One T] [NatCast T] [IntCast T] [Add T] [Sub T] [Mul T] [Div T] [Neg T] [Pow T Nat]

theorem adjnodediffusiondiag3d_eq {i0 j0 k0 i1 j1 k1 pi0 pj0 pk0 pi1 pj1 pk1 dir side btype exOrder : Int} {dx : Nat → T} {beta : T} {b0_ b1_ b2_ st_ : Ptr} (hs : side = 0 ∨ side = 1) (hx : ¬ (btype = 0 ∧ side = 1)) :
    F.adjnodediffusiondiag3d i0 j0 k0 i1 j1 k1 pi0 pj0 pk0 pi1 pj1 pk1 dir side btype exOrder dx beta b0_ b1_ b2_ st_ (T := T) = F.adjcelldiffusiondiag3d i0 j0 k0 i1 j1 k1 pi0 pj0 pk0 pi1 pj1 pk1 dir side btype exOrder dx beta b0_ b1_ b2_ 0 st_ := by
  have e : ∀ p : Int, p - 2 * 1 + 1 + 1 = p - 1 + 1 := fun p => by omega
  unfold F.adjnodediffusiondiag3d F.adjcelldiffusiondiag3d
  rcases hs with rfl | rfl
  · simp only [Int.mul_zero, Int.sub_zero, if_true]
  · simp only [e]
    leaves

theorem adjnodepoissondiag3d_eq {i0 j0 k0 i1 j1 k1 pi0 pj0 pk0 pi1 pj1 pk1 dir side btype exOrder : Int} {dx : Nat → T} {beta : T} {st_ : Ptr} (hs : side = 0 ∨ side = 1) (hx : ¬ (btype = 0 ∧ side = 1)) :
    F.adjnodepoissondiag3d i0 j0 k0 i1 j1 k1 pi0 pj0 pk0 pi1 pj1 pk1 dir side btype exOrder dx beta st_ (T := T) = F.adjcellpoissondiag3d i0 j0 k0 i1 j1 k1 pi0 pj0 pk0 pi1 pj1 pk1 dir side btype exOrder dx beta 0 st_ := by
  unfold F.adjnodepoissondiag3d F.adjcellpoissondiag3d
  rcases hs with rfl | rfl
  · simp only [Int.mul_zero, Int.sub_zero]
  · dsimp only
    leaves

theorem adjnodediffusioncfdiag3d_eq {i0 j0 k0 i1 j1 k1 pi0 pj0 pk0 pi1 pj1 pk1 r dir side intOrder : Int} {dx : Nat → T} {beta : T} {b0_ b1_ b2_ st_ : Ptr} (hx : ¬ (dir = 2 ∧ intOrder = 2)) :
    F.adjnodediffusioncfdiag3d i0 j0 k0 i1 j1 k1 pi0 pj0 pk0 pi1 pj1 pk1 r dir side intOrder dx beta b0_ b1_ b2_ st_ (T := T) = F.adjcelldiffusioncfdiag3d i0 j0 k0 i1 j1 k1 pi0 pj0 pk0 pi1 pj1 pk1 r dir side intOrder dx beta b0_ b1_ b2_ 0 st_ := by
  unfold F.adjnodediffusioncfdiag3d F.adjcelldiffusioncfdiag3d
  dsimp only
  leaves

theorem adjnodediffusionoffdiag3d_eq {i0 j0 k0 i1 j1 k1 pi0 pj0 pk0 pi1 pj1 pk1 dir side btype exOrder : Int} {dx : Nat → T} {dir_factor neu_factor beta : T} {b0_ b1_ b2_ st_ : Ptr} (hs : side = 0 ∨ side = 1) (hx : ¬ (btype = 4 ∧ exOrder = 2 ∧ side = 1 ∧ dir ≠ 0)) :
    F.adjnodediffusionoffdiag3d i0 j0 k0 i1 j1 k1 pi0 pj0 pk0 pi1 pj1 pk1 dir side btype exOrder dx dir_factor neu_factor beta b0_ b1_ b2_ st_ (T := T) = F.adjcelldiffusionoffdiag3d i0 j0 k0 i1 j1 k1 pi0 pj0 pk0 pi1 pj1 pk1 dir side btype exOrder dx dir_factor neu_factor beta b0_ b1_ b2_ 0 st_ := by
  unfold F.adjnodediffusionoffdiag3d F.adjcelldiffusionoffdiag3d
  dsimp only
  leaves

theorem adjnodepoissonoffdiag3d_eq {i0 j0 k0 i1 j1 k1 pi0 pj0 pk0 pi1 pj1 pk1 dir side btype exOrder : Int} {dx : Nat → T} {dir_factor neu_factor beta : T} {st_ : Ptr} (hs : side = 0 ∨ side = 1) (hx : ¬ (btype = 4 ∧ exOrder = 2 ∧ side = 1 ∧ dir ≠ 0)) :
    F.adjnodepoissonoffdiag3d i0 j0 k0 i1 j1 k1 pi0 pj0 pk0 pi1 pj1 pk1 dir side btype exOrder dx dir_factor neu_factor beta st_ (T := T) = F.adjcellpoissonoffdiag3d i0 j0 k0 i1 j1 k1 pi0 pj0 pk0 pi1 pj1 pk1 dir side btype exOrder dx dir_factor neu_factor beta 0 st_ := by
  unfold F.adjnodepoissonoffdiag3d F.adjcellpoissonoffdiag3d
  dsimp only
  leaves

theorem readjnodediffusionoffdiag3d_eq {i0 j0 k0 i1 j1 k1 pi0 pj0 pk0 pi1 pj1 pk1 dir side : Int} {st_ : Ptr} (hx : dir = 2 → pj0 = pk0) :
    F.readjnodediffusionoffdiag3d i0 j0 k0 i1 j1 k1 pi0 pj0 pk0 pi1 pj1 pk1 dir side st_ (T := T) = F.readjcelldiffusionoffdiag3d i0 j0 k0 i1 j1 k1 pi0 pj0 pk0 pi1 pj1 pk1 dir side 0 st_ := by
  unfold F.readjnodediffusionoffdiag3d F.readjcelldiffusionoffdiag3d
  refine ite_congr rfl (fun _ => rfl) (fun _ => ite_congr rfl (fun _ => rfl) (fun _ => ite_congr rfl (fun h => ?_) (fun _ => rfl)))
  rw [hx h]

/-! ### witnesses -/

/-- every block has 20 elements: exactly the coefficients of a box of four cells in two dimensions -/
def exTight : Mem Rat := ⟨fun q => if 0 ≤ q.off ∧ q.off < 20 then some (q.blk * 7 + q.off * q.off) else none, fun _ => none⟩

theorem exTight_ok {a : F.Arr} (hp : a.ptr.off = 0) (hn : (a.dims.map fun d => d.2 - d.1 + 1).prod ≤ 20) (hi : ∀ d ∈ a.dims, InInt d.1 ∧ InInt (d.2 + 1)) :
    F.ArrOK exTight a where
  alloc is h := by
    have := colMajor_range h
    refine ⟨_, if_pos ?_⟩
    simp only [Ptr.add, hp]
    omega
  fits := by omega
  int := hi

macro "tight_args" : tactic => `(tactic| (
  refine ⟨?_, ?_⟩
  · intro a ha
    have : a.ptr.off = 0 ∧ (a.dims.map fun d => d.2 - d.1 + 1).prod ≤ 20 ∧ ∀ d ∈ a.dims, InInt d.1 ∧ InInt (d.2 + 1) := by
      revert a
      unfold InInt
      decide
    exact exTight_ok this.1 this.2.1 this.2.2
  · intro o ho a ha
    refine apart_blk ?_
    revert o a
    decide))

/-- two runs end, in memories that differ at `q` -/
def differRat (q : Ptr) (a b : M (Mem Rat)) : Bool :=
  match a, b with
  | .ok m1, .ok m2 => decide (m1.val q ≠ m2.val q)
  | _, _ => false

theorem differ_rat {q : Ptr} {a b : M (Mem Rat)} (h : differRat q a b = true) : ∃ m1 m2, a = .ok m1 ∧ b = .ok m2 ∧ m1 ≠ m2 := by
  unfold differRat at h
  split at h
  · refine ⟨_, _, rfl, rfl, fun e => ?_⟩
    rw [e] at h
    simp at h
  · simp at h

/-- the run ends -/
def endsRat (a : M (Mem Rat)) : Bool :=
  match a with
  | .ok _ => true
  | _ => false

theorem ends_rat {a : M (Mem Rat)} (h : endsRat a = true) : ∃ m1, a = .ok m1 := by
  unfold endsRat at h
  split at h
  · exact ⟨_, rfl⟩
  · simp at h

/-- the run leaves an array -/
def stopsRat (a : M (Mem Rat)) : Bool :=
  match a with
  | .error .oob => true
  | _ => false

theorem stops_rat {a : M (Mem Rat)} (h : stopsRat a = true) : a = .error .oob := by
  unfold stopsRat at h
  split at h
  · rfl
  · simp at h

end Verif
