import Verif.Lemmas.LapackResidual
import Verif.Lemmas.SmoothEx
import Verif.Props.LapackSmooth

/-
C79: what a call of the block smoother with a dense solve does when it has no block to relax.
-/

namespace Verif

variable {T : Type} [NatCast T] [Zero T] [Add T] [Sub T] [Mul T] [Div T] [Neg T]

/-- `cellblockjacobi3d` ends if the displacements in the third direction leave it no block; the work array then has the residuals of the box, the terms subtracted
in the order of the table, and nothing else changes.  Full statement: it ends whatever the blocks are and adds the damped solution of its equations to the unknowns
of each block; that is false, see `C79_cellblockjacobi_false`. -/
theorem C79_residual_partial {lapack : F.Lapack T} {lo0 hi0 lo1 hi1 lo2 hi2 n : Int} {o st : Ptr} {flo0 fhi0 flo1 fhi1 flo2 fhi2 : Int} {f : Ptr}
    {ulo0 uhi0 ulo1 uhi1 ulo2 uhi2 : Int} {u dx dy dz r : Ptr} {nx bx ny bY nz bz z0 z1 : Int} {O : Int → List Int} {S B U R : List Int → T} {m : Mem T}
    (h : F.Problem m [(lo0, hi0), (lo1, hi1), (lo2, hi2)] n (F.offset0 o 3 n) (F.sm3d st n lo0 lo1 lo2 hi0 hi1 hi2) (F.box3d f flo0 flo1 flo2 fhi0 fhi1 fhi2)
      (F.box3d u ulo0 ulo1 ulo2 uhi0 uhi1 uhi2) O S B U)
    (hr : F.Holds m (F.box3d r lo0 lo1 lo2 hi0 hi1 hi2) R) (ru : F.Apart (F.box3d r lo0 lo1 lo2 hi0 hi1 hi2) (F.box3d u ulo0 ulo1 ulo2 uhi0 uhi1 uhi2))
    (rs : F.Apart (F.box3d r lo0 lo1 lo2 hi0 hi1 hi2) (F.sm3d st n lo0 lo1 lo2 hi0 hi1 hi2))
    (rf : F.Apart (F.box3d r lo0 lo1 lo2 hi0 hi1 hi2) (F.box3d f flo0 flo1 flo2 fhi0 fhi1 fhi2)) (hz : 1 ≤ bz)
    (hz0 : F.IntEl m ⟨dz, [(0, nz - 1)]⟩ [0] z0) (hz1 : F.IntEl m ⟨dz, [(0, nz - 1)]⟩ [nz - 1] z1) (hzz : z1 < z0) :
    ∃ m', F.cellblockjacobi3d lapack lo0 hi0 lo1 hi1 lo2 hi2 n o st flo0 fhi0 flo1 fhi1 flo2 fhi2 f ulo0 uhi0 ulo1 uhi1 ulo2 uhi2 u dx nx bx dy ny bY dz nz bz r m = .ok m' ∧
      F.Holds m' (F.box3d r lo0 lo1 lo2 hi0 hi1 hi2) (fun p => (F.irange 0 (n - 1)).foldl (fun x s => x - S (s :: p) * U (F.shift p (O s))) (B p)) ∧
      F.Only [F.box3d r lo0 lo1 lo2 hi0 hi1 hi2] m m' := by
  obtain ⟨m', g1, g2, g3⟩ := F.sweep (u := F.box3d r lo0 lo1 lo2 hi0 hi1 hi2) (m0 := m) (l := F.pts3 (F.irange lo2 hi2) (F.irange lo1 hi1) (fun _ _ => F.irange lo0 hi0))
    (G := fun p _ => (F.irange 0 (n - 1)).foldl (fun x s => x - S (s :: p) * U (F.shift p (O s))) (B p))
    (c := F.at3 (fun k j i => F.block [
      F.assign (F.box3d r lo0 lo1 lo2 hi0 hi1 hi2) [i, j, k] ((F.box3d f flo0 flo1 flo2 fhi0 fhi1 fhi2).el [i, j, k]),
      F.doLoop 0 (n - 1) fun s m => do
        let io ← F.intRef (F.offset0 o 3 n) [0, s] m
        let jo ← F.intRef (F.offset0 o 3 n) [1, s] m
        let ko ← F.intRef (F.offset0 o 3 n) [2, s] m
        F.assign (F.box3d r lo0 lo1 lo2 hi0 hi1 hi2) [i, j, k] ((F.box3d r lo0 lo1 lo2 hi0 hi1 hi2).el [i, j, k] - (F.sm3d st n lo0 lo1 lo2 hi0 hi1 hi2).el [s, i, j, k] * (F.box3d u ulo0 ulo1 ulo2 uhi0 uhi1 uhi2).el [i + io, j + jo, k + ko]) m]))
    hr F.Only.refl (fun p hp => F.all3.1 hp) (fun p hp m1 R1 hR1 ho => by
      rw [F.all3] at hp
      have hp' := hp
      rw [F.inBounds3] at hp'
      obtain ⟨i, j, k, rfl, ⟨h1, h2⟩, ⟨h3, h4⟩, h5, h6⟩ := hp'
      refine F.residual_cell h hp hp hR1 ho ru rs rf fun s h0 h1 m2 hm2 => ?_
      obtain ⟨a, b, c, e, g⟩ := h.tab3 (s := s) h0 h1
      obtain ⟨g1, g2, g3⟩ := g m2 hm2
      rw [g1, M.ok_bind, g2, M.ok_bind, g3, M.ok_bind, e]
      rfl)
  refine ⟨m', ?_, fun p hp => ?_, g3⟩
  · unfold F.cellblockjacobi3d
    rw [F.block2]
    have run := (F.run3 (m := m) (c := (fun k j i => F.block [
      F.assign (F.box3d r lo0 lo1 lo2 hi0 hi1 hi2) [i, j, k] ((F.box3d f flo0 flo1 flo2 fhi0 fhi1 fhi2).el [i, j, k]),
      F.doLoop 0 (n - 1) fun s m => do
        let io ← F.intRef (F.offset0 o 3 n) [0, s] m
        let jo ← F.intRef (F.offset0 o 3 n) [1, s] m
        let ko ← F.intRef (F.offset0 o 3 n) [2, s] m
        F.assign (F.box3d r lo0 lo1 lo2 hi0 hi1 hi2) [i, j, k] ((F.box3d r lo0 lo1 lo2 hi0 hi1 hi2).el [i, j, k] - (F.sm3d st n lo0 lo1 lo2 hi0 hi1 hi2).el [s, i, j, k] * (F.box3d u ulo0 ulo1 ulo2 uhi0 uhi1 uhi2).el [i + io, j + jo, k + ko]) m])) (fun _ _ _ _ _ _ => rfl)).trans g1
    refine (congrArg (· >>= _) run).trans ?_
    have e := g3.ints
    show (do
      let z0 ← F.intRef _ [0] m'
      let z1 ← F.intRef _ [nz - 1] m'
      F.doStep (lo2 + z0) (lo2 + z1) bz _ m') = _
    rw [F.intRef_ok hz0 e, M.ok_bind, F.intRef_ok hz1 e, M.ok_bind]
    unfold F.doStep
    rw [F.srange_none hz (by omega)]
    rfl
  · obtain ⟨V, v1, -, -⟩ := F.swp_mem (G := fun p _ => (F.irange 0 (n - 1)).foldl (fun x s => x - S (s :: p) * U (F.shift p (O s))) (B p)) (W := R)
      (F.pts3_before F.irange_lt F.irange_lt fun _ _ => F.irange_lt) F.before_asymm (F.all3.2 hp)
    have := g2 p hp
    rw [v1] at this
    exact this

theorem ex_problem_block : F.Problem exSm [(1, 5), (2, 6), (1, 4)] 7 (F.offset0 ⟨23, 0⟩ 3 7) (F.sm3d ⟨1, 0⟩ 7 1 2 1 5 6 4) (F.box3d ⟨2, 0⟩ 0 0 0 6 7 5)
    (F.box3d ⟨3, 0⟩ 0 0 0 6 7 5) exO3 (exC (F.sm3d ⟨1, 0⟩ 7 1 2 1 5 6 4)) exF3 exV3 where
  size := by decide
  table := ex_problem3.table
  holdsSt := ex_holds _
  holdsF := ex_holds _
  holdsU := ex_holds _
  inSt := fun p hp s h0 h1 => by
    rw [F.inBounds3] at hp
    obtain ⟨i, j, k, rfl, h⟩ := hp
    simp [F.sm3d, F.InBounds]; omega
  inF := ex_problem3.inF
  inU := ex_problem3.inU
  near := ex_problem3.near
  apartSt := ex_apart (by decide)
  apartF := ex_apart (by decide)

example := C79_residual_partial (lapack := fun _ _ b => b) (r := ⟨4, 0⟩) (dx := ⟨5, 0⟩) (dy := ⟨6, 0⟩) (dz := ⟨21, 0⟩) (nx := 1) (bx := 2) (ny := 1) (bY := 2) (nz := 2) (bz := 2)
  (z0 := 0) (z1 := -1) ex_problem_block (ex_holds _) (ex_apart (by decide)) (ex_apart (by decide)) (ex_apart (by decide)) (by decide) ⟨by decide, rfl⟩ ⟨by decide, rfl⟩ (by decide)

end Verif
