import Verif.Props.Expr

/-
C30 on a domain with a stride: the displacements of the table are multiplied by the stride of the domain.
-/

namespace Verif
open Spec

/-- a coefficient array with one window entry per cell, an array, and the table (1) -/
def exSt1 : Span := ⟨⟨3, 0⟩, [(Dim.I, ⟨0, 6, 1⟩), (Dim.W, ⟨0, 1, 1⟩)]⟩
def exRow : Span := ⟨⟨4, 0⟩, [(Dim.I, ⟨0, 6, 1⟩)]⟩
def exTab1 : Ptr → Option Int := fun q => if q = ⟨9, 0⟩ then some 1 else none

/-- coefficients 1, and i at index i of the array -/
def exMem1 : Mem Int :=
  { val := fun q => if 0 ≤ q.off ∧ q.off < 6 then (if q.blk = 3 then some 1 else if q.blk = 4 then some q.off else none) else none
    ints := exTab1 }

/-- On a domain with stride 2 the dot product is not the sum of coefficient times neighbour at the offset of the table: with the
one offset 1 and coefficient 1 it returns at the points 0 and 2 the elements 2 and 4 of the array instead of the elements 1 and 3.
Every argument is in order: the arrays hold all that the sum asks for and the points stay inside of both. -/
theorem C30_strided_false :
    ¬ ∀ (m : Mem Int) (u v : Span) (o : Ptr) (D : List DB) (w : Dim) (b : Bounds) (fu fv : Pt → Int),
      DomInt D → GeoOK u.geo → ReqOK u.geo D → GeoOK v.geo → ReqOK v.geo D → u.geo.length = D.length + 1 → D.length = v.geo.length →
      u.geo.getLast? = some (w, b) →
      (∀ i : Nat, (i : Int) < b.last - b.first → (∀ j : Nat, j < D.length → ∃ z, m.ints (o.add (i * D.length + j)) = some z) ∧
        ∀ k, 0 ≤ k → k < npts D → Inside v.geo (offPt m.ints o (D.map (·.1)) i (pt D k))) →
      (∀ p, Inside u.geo p → m.val (cell u p) = some (fu p)) → (∀ p, Inside v.geo p → m.val (cell v p) = some (fv p)) →
      ∃ it, (Expr.dot (0 : Int) (fun r a x => r + a * x) u v o).call D = .ok it ∧
        it.deref m = .ok (.num ((List.range (b.last - b.first).toNat).foldl (fun r (j : Nat) =>
          r + fu (setPt (pt D 0) w (b.first + j)) * fv (offPt m.ints o (D.map (·.1)) j (pt D 0))) 0)) := by
  intro h
  obtain ⟨it, h1, h2⟩ := h exMem1 exSt1 exRow ⟨9, 0⟩ [(Dim.I, ⟨0, 4, 2⟩)] Dim.W ⟨0, 1, 1⟩ (fun _ => 1) (fun p => p Dim.I)
    (by intro x hx; simp only [List.mem_singleton] at hx; subst hx; decide)
    { ne := by decide, nodup := by decide, unit := by decide, nonempty := by decide, fits := by decide, int := by decide }
    { ne := by decide, nodup := by decide, nonempty := by decide, stride := by decide, inside := inside_of (by decide),
      fit := by decide, fit' := by decide, lead := by decide }
    { ne := by decide, nodup := by decide, unit := by decide, nonempty := by decide, fits := by decide, int := by decide }
    { ne := by decide, nodup := by decide, nonempty := by decide, stride := by decide, inside := inside_of (by decide),
      fit := by decide, fit' := by decide, lead := by decide }
    rfl rfl rfl
    (by
      intro i hi
      have hi : i < 1 := by simp only at hi; omega
      obtain rfl : i = 0 := by omega
      refine ⟨?_, ?_⟩
      · intro j hj
        have hj : j < 1 := hj
        obtain rfl : j = 0 := by omega
        exact ⟨1, rfl⟩
      · intro k h0 h1
        have h1 : k < 2 := h1
        have hk : k = 0 ∨ k = 1 := by omega
        intro x hx
        simp only [exRow, List.mem_singleton] at hx
        subst hx
        rcases hk with rfl | rfl <;> exact ⟨by decide, by decide⟩)
    (by
      intro p hp
      have a := hp (Dim.I, ⟨0, 6, 1⟩) (by simp [exSt1])
      have c := hp (Dim.W, ⟨0, 1, 1⟩) (by simp [exSt1])
      unfold InRange at a c
      simp only at a c
      have e : storeOff exSt1.geo p = p Dim.I + p Dim.W := by
        simp [storeOff, exSt1, rowMajor, lengths]
      simp only [cell, Ptr.add, e, exMem1]
      simp only [exSt1]
      rw [if_pos (by omega)]; rfl)
    (by
      intro p hp
      have a := hp (Dim.I, ⟨0, 6, 1⟩) (by simp [exRow])
      unfold InRange at a
      simp only at a
      have e : storeOff exRow.geo p = p Dim.I := by
        simp [storeOff, exRow, rowMajor, lengths]
      simp only [cell, Ptr.add, e, exMem1]
      simp only [exRow]
      rw [if_pos (by omega)]
      simp)
  have h3 : (do let it ← (Expr.dot (0 : Int) (fun r a x => r + a * x) exSt1 exRow ⟨9, 0⟩).call [(Dim.I, ⟨0, 4, 2⟩)]; it.deref exMem1) =
      .ok (.num 2) := by rfl
  rw [h1, M.ok_bind, h2] at h3
  have h4 := congrArg (fun x : M (Val Int) => match x with | .ok (.num n) => n | _ => 0) h3
  revert h4
  decide

end Verif
