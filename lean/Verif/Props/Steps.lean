import Verif.Props.Window
import Verif.Lemmas.Steps

/-
C16, C24 again: schedules that interleave single loads and stores.
-/

namespace Verif
open Spec

variable {T : Type}

/-- a backend that moves as given when it has n elements -/
def moveBackend (n : Int) (rh wh : Int → List Move) : Backend := fun n' c =>
  if n' = n then ⟨(seqBackend n c).trace, rh, wh⟩ else seqBackend n' c

theorem moveBackend_ok {n : Int} {rh wh : Int → List Move} (hr : Reaches n rh) (hw : Reaches n wh) : ValidBackend (moveBackend n rh wh) := by
  intro n' c
  unfold moveBackend
  split
  · rename_i e
    subst e
    exact ⟨(seqBackend_ok n' c).once, hr, hw⟩
  · exact seqBackend_ok n' c

theorem RaceFree.of_micro {n : Int} {threads : Int → List (Fine T)} {threads' : Int → List (Micro T)} {m m' : Mem T}
    (h : RaceFree n threads' m m') (e : ∀ k, (threads k).map Fine.micro = threads' k) : Settles (startFine n threads m) m' := by
  have : (fun k => (threads k).map Fine.micro) = threads' := funext e
  exact RaceFree.settles (by rw [this]; exact h)

/-- One statement, every load and store a step of its own, the elements' accesses interleaved in any way, each iterator moved
to its element in any way: no execution gets stuck or fails, each element makes a bounded number of accesses, and every finished execution leaves the memory
that one-after-the-other execution leaves, the one described in C15. -/
theorem C16_loads {a : Assign T} {D : List DB} {rh wh : Int → List Move} {m : Mem T} (hr : Reaches (npts D) rh) (hw : Reaches (npts D) wh)
    (hD : DomInt D) (h : StmtOK m D a) :
    ∃ s m', a.start D rh wh m = .ok s ∧ Settles s m' ∧ Does D a m m' ∧ ∀ β, ValidBackend β → a.exec D β m = .ok m' := by
  have hv : ∀ p, ∃ v, InDom D p → rhsDen m (D.map (·.1)) a.rhs p = .ok v := by
    intro p
    by_cases hp : InDom D p
    · obtain ⟨v, hv⟩ := rhsDen_ok h.typed h.rhs h.ralloc hp
      exact ⟨v, fun _ => hv⟩
    · obtain ⟨v, -⟩ := h.lalloc (fun d => (bnd a.lhs.geo d).first) (by
        intro x hx
        have := h.lhs.geo.nonempty x hx
        show InRange x.2 (bnd a.lhs.geo x.1).first
        rw [bnd_eq h.lhs.geo.nodup hx]
        exact ⟨le_refl _, this⟩)
      exact ⟨v, fun hp' => absurd hp' hp⟩
  choose f hf using hv
  obtain ⟨m', h1, h2, v, hv, hn, hfree⟩ := assign_free (f := f) (moveBackend_ok hr hw) hD h.lhs h.rhs hf
    (fun p hp => h.lalloc p (h.lhs.inside hp)) h.noAlias
  have hdoes : Does D a m m' := ⟨fun p hp => ⟨f p, hf p hp, h2.at_ p hp⟩, h2.frame, h2.ints⟩
  have hall : ∀ β, ValidBackend β → a.exec D β m = .ok m' := by
    intro β hβ
    obtain ⟨m2, e1, e2⟩ := C15_assign hβ hD h
    rw [e1, e2.unique hdoes]
  have hm : moveBackend (npts D) rh wh (npts D) 2 = ⟨(seqBackend (npts D) 2).trace, rh, wh⟩ := if_pos rfl
  rw [hm] at hfree
  unfold Assign.start
  rw [hv, M.ok_bind, hn, M.ok_bind]
  cases hrhs : a.rhs with
  | num t =>
    rw [hrhs] at hfree
    refine ⟨_, m', rfl, hfree.of_micro fun k => ?_, hdoes, hall⟩
    exact assignFine_micro (rd' := fun _ _ => .ok t) (fun _ _ => rfl) v ⟨_, rh, wh⟩ k
  | expr e =>
    rw [hrhs] at hfree
    obtain ⟨i, hi, hfree⟩ := hfree
    dsimp only
    rw [hi, M.ok_bind]
    refine ⟨_, m', rfl, hfree.of_micro fun k => ?_, hdoes, hall⟩
    refine assignFine_micro (fun k m => ?_) v ⟨_, rh, wh⟩ k
    simp only [Comp.run_bind, Comp.run_lift, It.derefC_run]

theorem exReaches (n : Int) : Reaches n fun k => [.add k] := fun k h0 h1 => (seqBackend_ok n 1).rhist k h0 h1

example : ∃ s m', exStmt.start exD (fun k => [.add k]) (fun k => [.add k]) exMem = .ok s ∧ Settles s m' ∧ Does exD exStmt exMem m' := by
  obtain ⟨s, m', h1, h2, h3, -⟩ := C16_loads (exReaches _) (exReaches _) exD_int exStmt_ok
  exact ⟨s, m', h1, h2, h3⟩

/-- The same for window statements: the accesses of the statements of each point stay in program order, those of different
points are interleaved in any way. -/
theorem C24_loads {w : Span} {D : List DB} {ss : List (WStmt T)} {rh : Int → List Move} {m : Mem T} (hr : Reaches (floors D).prod rh)
    (hD : DomInt D) (h : WindowOK m w D ss) :
    ∃ s m', windowStart w D ss rh m = .ok s ∧ Settles s m' ∧ WindowDoes (Reached D) w (D.map (·.1)) ss m m' ∧
      ∀ β, ValidBackend β → windowExec w D ss β m = .ok m' := by
  obtain ⟨m', h1, h2, wi, ps, e1, e2, e3, hfree⟩ := window_run_free (moveBackend_ok hr hr) hD h
  refine ⟨startFine (floors D).prod (fun k => windowFine (rh k) wi ps) m, m', ?_, ?_, h2, fun β hβ => ?_⟩
  rotate_left
  · refine hfree.of_micro (threads := fun k => windowFine (rh k) wi ps) fun k => ?_
    rw [windowFine_micro]
    unfold moveBackend
    rw [if_pos rfl]
  · obtain ⟨m2, g1, g2⟩ := window_run hβ hD h
    rw [g1, g2.unique h2]
  · unfold windowStart
    rw [if_neg (by rw [h.accept]; have := h.len; simp only [Bool.true_eq_false, false_or]; omega), e1, M.ok_bind, e2, M.ok_bind, e3, M.ok_bind]

example : ∃ s m', windowStart exSt exInner exSets (fun k => [.add k]) exWinMem = .ok s ∧ Settles s m' := by
  obtain ⟨s, m', h1, h2, -⟩ := C24_loads (exReaches _) exInner_int exSets_ok.ok
  exact ⟨s, m', h1, h2⟩

end Verif
