import Verif.Lemmas.LapackEx
import Verif.Lemmas.Values
import Verif.Lemmas.OnlyOob

/-
C78: the block Jacobi routine for several unknowns per cell.  C79: the block smoother with a dense solve.
-/

namespace Verif

section
variable {T : Type} [Field T] {lo0 hi0 lo1 hi1 lo2 hi2 n d fg ug rg : Int} {o st f u r : Ptr} {O : Int → List Int} {S B U : List Int → T} {m : Mem T}
  {solve : F.Lapack T}

/-- `ccellblkjacobi3d` ends and changes nothing but `u` and `r`.  In every cell it adds a vector to the unknowns: the solution of the system with the diagonal
block, the right hand side being `f` less the terms of the other entries of the table, formed with the values then current. -/
theorem C78_added (hsolve : F.Solves solve)
    (h : F.BlockProblem m [(lo0, hi0), (lo1, hi1), (lo2, hi2)] n d (F.offsets o 3 n) (F.dofst3d st n d lo0 lo1 lo2 hi0 hi1 hi2)
      (F.dof3d f d lo0 lo1 lo2 hi0 hi1 hi2 fg) (F.dof3d u d lo0 lo1 lo2 hi0 hi1 hi2 ug) (F.dof3d r d lo0 lo1 lo2 hi0 hi1 hi2 rg) O S B U) :
    ∃ m' U', F.ccellblkjacobi3d solve lo0 hi0 lo1 hi1 lo2 hi2 n o st d fg f ug u rg r m = .ok m' ∧ F.Holds m' (F.dof3d u d lo0 lo1 lo2 hi0 hi1 hi2 ug) U' ∧
      F.Only [F.dof3d u d lo0 lo1 lo2 hi0 hi1 hi2 ug, F.dof3d r d lo0 lo1 lo2 hi0 hi1 hi2 rg] m m' ∧
      F.Added [(lo0, hi0), (lo1, hi1), (lo2, hi2)] n d O S B U U' := by
  obtain ⟨R, hR⟩ := h.holdsR
  have hU : F.Holds m (F.dof3d u d lo0 lo1 lo2 hi0 hi1 hi2 ug) (F.flat U (F.curry U)) := h.holdsU.congr fun is _ => by cases is <;> rfl
  obtain ⟨m', g1, g2, g3⟩ := F.sweepCol (l := F.pts3 (F.irange lo2 hi2) (F.irange lo1 hi1) (fun _ _ => F.irange lo0 hi0))
    (c := F.at3 fun k j i => F.ccellblk solve (F.offsets o 3 n) (F.dofst3d st n d lo0 lo1 lo2 hi0 hi1 hi2) (F.dof3d f d lo0 lo1 lo2 hi0 hi1 hi2 fg)
      (F.dof3d u d lo0 lo1 lo2 hi0 hi1 hi2 ug) (F.dof3d r d lo0 lo1 lo2 hi0 hi1 hi2 rg) n d i j k)
    (G := fun p V => F.blkInc solve n d O S B V p) (d := d) hU hR F.Only.refl fun p hp m1 V R1 hV ho hR1 => by
      have hp := F.all3.1 hp
      have hp' := hp
      rw [F.inBounds3] at hp'
      obtain ⟨i, j, k, rfl, ⟨h1, h2⟩, ⟨h3, h4⟩, h5, h6⟩ := hp'
      exact F.blk_cell h hp hV ho hR1
  refine ⟨m', _, ?_, g2, g3, F.blk_swept hsolve (fun p => F.all3) (F.pts3_before F.irange_lt F.irange_lt fun _ _ => F.irange_lt) rfl⟩
  rw [← g1]
  exact F.run3 (c := fun k j i => F.ccellblk solve (F.offsets o 3 n) (F.dofst3d st n d lo0 lo1 lo2 hi0 hi1 hi2) (F.dof3d f d lo0 lo1 lo2 hi0 hi1 hi2 fg)
    (F.dof3d u d lo0 lo1 lo2 hi0 hi1 hi2 ug) (F.dof3d r d lo0 lo1 lo2 hi0 hi1 hi2 rg) n d i j k) (fun _ _ _ _ _ _ => rfl)

example : ∃ m' U', F.ccellblkjacobi3d F.aSolver 0 1 0 2 0 1 2 ⟨7, 0⟩ ⟨0, 0⟩ 2 0 ⟨1, 0⟩ 1 ⟨2, 0⟩ 0 ⟨3, 0⟩ F.exBlk = .ok m' ∧
    F.Holds m' (F.dof3d ⟨2, 0⟩ 2 0 0 0 1 2 1 1) U' ∧ F.Only [F.dof3d ⟨2, 0⟩ 2 0 0 0 1 2 1 1, F.dof3d ⟨3, 0⟩ 2 0 0 0 1 2 1 0] F.exBlk m' ∧
    F.Added [(0, 1), (0, 2), (0, 1)] 2 2 F.exBlkO (F.exBlkV (F.dofst3d ⟨0, 0⟩ 2 2 0 0 0 1 2 1)) (F.exBlkV (F.dof3d ⟨1, 0⟩ 2 0 0 0 1 2 1 0))
      (F.exBlkV (F.dof3d ⟨2, 0⟩ 2 0 0 0 1 2 1 1)) U' :=
  C78_added F.aSolver_ok F.exBlk_problem

/-- The fields `ccellblkjacobi3d` leaves unchanged are those for which the terms of the table without the diagonal one add up to the right hand side. -/
theorem C78_unchanged_iff (hsolve : F.Solves solve)
    (h : F.BlockProblem m [(lo0, hi0), (lo1, hi1), (lo2, hi2)] n d (F.offsets o 3 n) (F.dofst3d st n d lo0 lo1 lo2 hi0 hi1 hi2)
      (F.dof3d f d lo0 lo1 lo2 hi0 hi1 hi2 fg) (F.dof3d u d lo0 lo1 lo2 hi0 hi1 hi2 ug) (F.dof3d r d lo0 lo1 lo2 hi0 hi1 hi2 rg) O S B U)
    (hreg : ∀ p, F.InBounds [(lo0, hi0), (lo1, hi1), (lo2, hi2)] p → F.Regular d (F.coup d S 1 p)) :
    ∃ m', F.ccellblkjacobi3d solve lo0 hi0 lo1 hi1 lo2 hi2 n o st d fg f ug u rg r m = .ok m' ∧ (F.Holds m' (F.dof3d u d lo0 lo1 lo2 hi0 hi1 hi2 ug) U ↔
      ∀ p, F.InBounds [(lo0, hi0), (lo1, hi1), (lo2, hi2)] p → ∀ a, 1 ≤ a → a ≤ d → F.sum 2 n (fun s => F.coupled d O S U s p a) = B (a :: p)) := by
  obtain ⟨m', U', g1, g2, -, g4⟩ := C78_added hsolve h
  refine ⟨m', g1, ?_⟩
  rw [← F.added_fixed hreg (fun p => F.all3) (F.pts3_before F.irange_lt F.irange_lt fun _ _ => F.irange_lt) g4]
  constructor
  · intro hu
    funext q
    by_cases hq : ∃ a p, q = a :: p ∧ 1 ≤ a ∧ a ≤ d ∧ F.InBounds [(lo0, hi0), (lo1, hi1), (lo2, hi2)] p
    · obtain ⟨a, p, rfl, h1, h2, hp⟩ := hq
      have hi := h.inU p hp a h1 h2
      exact (g2 _ hi).inj (hu _ hi)
    · exact g4.other q hq
  · rintro rfl
    exact g2

example := C78_unchanged_iff F.aSolver_ok F.exBlk_problem F.exBlk_regular

/-- A field that solves the equations of all cells is left unchanged by `ccellblkjacobi3d` only if it is 0 in all cells of the box: the routine adds to the
unknowns what it should replace them by. -/
theorem C78_solution_partial (hsolve : F.Solves solve)
    (h : F.BlockProblem m [(lo0, hi0), (lo1, hi1), (lo2, hi2)] n d (F.offsets o 3 n) (F.dofst3d st n d lo0 lo1 lo2 hi0 hi1 hi2)
      (F.dof3d f d lo0 lo1 lo2 hi0 hi1 hi2 fg) (F.dof3d u d lo0 lo1 lo2 hi0 hi1 hi2 ug) (F.dof3d r d lo0 lo1 lo2 hi0 hi1 hi2 rg) O S B U)
    (hd : O 1 = [0, 0, 0]) (hreg : ∀ p, F.InBounds [(lo0, hi0), (lo1, hi1), (lo2, hi2)] p → F.Regular d (F.coup d S 1 p))
    (heq : ∀ p, F.InBounds [(lo0, hi0), (lo1, hi1), (lo2, hi2)] p → F.BlockEqn n d O S B U p) :
    ∃ m', F.ccellblkjacobi3d solve lo0 hi0 lo1 hi1 lo2 hi2 n o st d fg f ug u rg r m = .ok m' ∧ (F.Holds m' (F.dof3d u d lo0 lo1 lo2 hi0 hi1 hi2 ug) U ↔
      ∀ p, F.InBounds [(lo0, hi0), (lo1, hi1), (lo2, hi2)] p → ∀ a, 1 ≤ a → a ≤ d → U (a :: p) = 0) := by
  obtain ⟨m', g1, g2⟩ := C78_unchanged_iff hsolve h hreg
  refine ⟨m', g1, g2.trans ?_⟩
  have hsh : ∀ p, F.InBounds [(lo0, hi0), (lo1, hi1), (lo2, hi2)] p → F.shift p (O 1) = p := fun p hp => by
    rw [F.inBounds3] at hp
    obtain ⟨i, j, k, rfl, -⟩ := hp
    simp [hd, F.shift]
  have split : ∀ p a, F.sum 1 n (fun s => F.coupled d O S U s p a) = F.coupled d O S U 1 p a + F.sum 2 n (fun s => F.coupled d O S U s p a) := fun p a => by
    have := h.size
    unfold F.sum F.irange
    obtain ⟨k, hk⟩ : ∃ k : Nat, n = k + 1 := ⟨(n - 1).toNat, by omega⟩
    rw [show (n - 1 + 1).toNat = k + 1 by omega, show (n - 2 + 1).toNat = k by omega, List.range_succ_eq_map]
    simp only [List.map_cons, List.map_map, List.sum_cons]
    congr 1
    congr 1
    apply List.map_congr_left
    intro x _
    simp only [Function.comp]
    congr 1
    push_cast
    ring
  constructor
  · intro hz p hp
    refine hreg p hp (fun a => U (a :: p)) fun a h1 h2 => ?_
    have e := heq p hp a h1 h2
    rw [split, hz p hp a h1 h2] at e
    have e := add_eq_right.1 e
    unfold F.coupled at e
    rwa [hsh p hp] at e
  · intro hz p hp a h1 h2
    have e := heq p hp a h1 h2
    rw [split] at e
    have : F.coupled d O S U 1 p a = 0 := by
      unfold F.coupled
      rw [hsh p hp, F.sum_congr (g := fun _ => (0 : T)) fun b h3 h4 => by rw [hz p hp b h3 h4, mul_zero]]
      simp [F.sum]
    rwa [this, zero_add] at e

example := C78_solution_partial F.aSolver_ok F.exOne_problem rfl (fun p _ => F.exOne_regular p) fun p _ => F.exOne_solves p

end

/-- It is false that `ccellblkjacobi3d` leaves unchanged the fields that solve the equations. -/
theorem C78_false : ¬ ∀ (solve : F.Lapack Rat), F.Solves solve → ∀ {lo0 hi0 lo1 hi1 lo2 hi2 n d fg ug rg : Int} {o st f u r : Ptr} {O : Int → List Int}
    {S B U : List Int → Rat} {m : Mem Rat},
    F.BlockProblem m [(lo0, hi0), (lo1, hi1), (lo2, hi2)] n d (F.offsets o 3 n) (F.dofst3d st n d lo0 lo1 lo2 hi0 hi1 hi2)
      (F.dof3d f d lo0 lo1 lo2 hi0 hi1 hi2 fg) (F.dof3d u d lo0 lo1 lo2 hi0 hi1 hi2 ug) (F.dof3d r d lo0 lo1 lo2 hi0 hi1 hi2 rg) O S B U →
    O 1 = [0, 0, 0] → (∀ p, F.InBounds [(lo0, hi0), (lo1, hi1), (lo2, hi2)] p → F.Regular d (F.coup d S 1 p)) →
    (∀ p, F.InBounds [(lo0, hi0), (lo1, hi1), (lo2, hi2)] p → F.BlockEqn n d O S B U p) →
    ∃ m', F.ccellblkjacobi3d solve lo0 hi0 lo1 hi1 lo2 hi2 n o st d fg f ug u rg r m = .ok m' ∧
      F.Holds m' (F.dof3d u d lo0 lo1 lo2 hi0 hi1 hi2 ug) U := by
  intro h
  obtain ⟨m1, r1, k1⟩ := h F.aSolver F.aSolver_ok F.exOne_problem rfl (fun p _ => F.exOne_regular p) fun p _ => F.exOne_solves p
  obtain ⟨m2, r2, k2⟩ := C78_solution_partial F.aSolver_ok F.exOne_problem rfl (fun p _ => F.exOne_regular p) fun p _ => F.exOne_solves p
  rw [r1] at r2
  cases r2
  exact absurd (k2.1 k1 [0, 0, 0] (by decide) 1 (by decide) (by decide)) (by decide)

/-! ### m4/cellblocksmooth3d.m4 -/

section
variable {T : Type} [Zero T] [NatCast T] [Add T] [Sub T] [Mul T] [Div T] [Neg T]

/-- `creatematrix` assembles no matrix: whatever the table, the coefficients and the size of the block, it reads an entry behind the end of the table. -/
theorem C79_creatematrix_false {A : Int → Int → T} {n bx bY bz : Int} {st : List Int → T} {o : Ptr} {m : Mem T} (hn : 1 ≤ n) (hx : 1 ≤ bx) (hy : 1 ≤ bY)
    (hz : 1 ≤ bz) : F.creatematrix A n st (F.offset0 o 3 n) bx bY bz m = .error .oob :=
  F.creatematrix_oob hn hx hy hz

example : F.creatematrix (fun _ _ => (0 : Rat)) 7 (fun _ => 1) (F.offset0 ⟨0, 0⟩ 3 7) 2 2 2 F.exOne = .error .oob :=
  C79_creatematrix_false (by decide) (by decide) (by decide) (by decide)

/-- `cellblockjacobi3d` relaxes no block: if there is a block, the call leaves an array, whatever the arguments. -/
theorem C79_cellblockjacobi_false {solve : F.Lapack T} {lo0 hi0 lo1 hi1 lo2 hi2 n : Int} {o st : Ptr} {flo0 fhi0 flo1 fhi1 flo2 fhi2 : Int} {f : Ptr}
    {ulo0 uhi0 ulo1 uhi1 ulo2 uhi2 : Int} {u dx dy dz r : Ptr} {nx bx ny bY nz bz x0 x1 y0 y1 z0 z1 : Int} {m : Mem T}
    (hn : 1 ≤ n) (hx : 1 ≤ bx) (hy : 1 ≤ bY) (hz : 1 ≤ bz)
    (hx0 : F.IntEl m ⟨dx, [(0, nx - 1)]⟩ [0] x0) (hx1 : F.IntEl m ⟨dx, [(0, nx - 1)]⟩ [nx - 1] x1) (hxx : x0 ≤ x1)
    (hy0 : F.IntEl m ⟨dy, [(0, ny - 1)]⟩ [0] y0) (hy1 : F.IntEl m ⟨dy, [(0, ny - 1)]⟩ [ny - 1] y1) (hyy : y0 ≤ y1)
    (hz0 : F.IntEl m ⟨dz, [(0, nz - 1)]⟩ [0] z0) (hz1 : F.IntEl m ⟨dz, [(0, nz - 1)]⟩ [nz - 1] z1) (hzz : z0 ≤ z1) :
    F.cellblockjacobi3d solve lo0 hi0 lo1 hi1 lo2 hi2 n o st flo0 fhi0 flo1 fhi1 flo2 fhi2 f ulo0 uhi0 ulo1 uhi1 ulo2 uhi2 u dx nx bx dy ny bY dz nz bz r m =
      .error .oob := by
  unfold F.cellblockjacobi3d
  rw [F.block2]
  generalize hres : F.doLoop lo2 hi2 (fun k => F.doLoop lo1 hi1 fun j => F.doLoop lo0 hi0 fun i => _) m = res
  have keep : ∀ m1, res = .ok m1 → m1.ints = m.ints := by
    rintro m1 rfl
    refine F.keeps_doLoop (fun k => F.keeps_doLoop fun j => F.keeps_doLoop fun i => F.keeps_block ?_) m m1 hres
    simp only [List.mem_cons, List.not_mem_nil, or_false, forall_eq_or_imp, forall_eq]
    exact ⟨F.keeps_assign, F.keeps_doLoop fun s => F.keeps_bind fun _ => F.keeps_bind fun _ => F.keeps_bind fun _ => F.keeps_assign⟩
  have some : F.OrOob res := by
    rw [← hres]
    refine F.orOob_doLoop fun k m => F.orOob_doLoop fun j m => F.orOob_doLoop fun i m => F.orOob_block ?_
    simp only [List.mem_cons, List.not_mem_nil, or_false, forall_eq_or_imp, forall_eq]
    exact ⟨fun _ => F.orOob_assign, fun _ => F.orOob_doLoop fun s m =>
      F.orOob_bind F.orOob_intRef fun _ => F.orOob_bind F.orOob_intRef fun _ => F.orOob_bind F.orOob_intRef fun _ => F.orOob_assign⟩
  rcases some with ⟨m1, rfl⟩ | rfl
  · have e := keep m1 rfl
    rw [M.ok_bind]
    simp only [F.intRef_ok hz0 e, F.intRef_ok hz1 e, M.ok_bind]
    rw [F.doStep_oob (by omega) hz]
    simp only [F.intRef_ok hy0 e, F.intRef_ok hy1 e, M.ok_bind]
    rw [F.doStep_oob (by omega) hy]
    simp only [F.intRef_ok hx0 e, F.intRef_ok hx1 e, M.ok_bind]
    rw [F.doStep_oob (by omega) hx]
    exact F.cellblock_oob hn hx hy hz
  · rfl

example : F.cellblockjacobi3d (fun _ _ b => b) 0 3 0 3 0 3 1 ⟨0, 0⟩ ⟨1, 0⟩ 0 3 0 3 0 3 ⟨2, 0⟩ 0 3 0 3 0 3 ⟨3, 0⟩ ⟨4, 0⟩ 1 4 ⟨5, 0⟩ 1 4 ⟨6, 0⟩ 1 4 ⟨7, 0⟩ F.exOne =
    .error .oob :=
  C79_cellblockjacobi_false (x0 := 0) (x1 := 0) (y0 := 0) (y1 := 0) (z0 := 0) (z1 := 0) (by decide) (by decide) (by decide) (by decide) ⟨by decide, rfl⟩
    ⟨by decide, rfl⟩ (by decide) ⟨by decide, rfl⟩ ⟨by decide, rfl⟩ (by decide) ⟨by decide, rfl⟩ ⟨by decide, rfl⟩ (by decide)

end

end Verif
