import Verif.Lemmas.SpanTest
import Verif.Lemmas.IterTest
import Verif.Props.Window
import Verif.Props.Assign

/-
C97: the window test kernels.
-/

namespace Verif
open Spec

variable {T : Type}

/-- the windows of the test kernels: five, of `n` consecutive elements each -/
def tWin (v : Ptr) (n : Int) : Span := ⟨v, [(.I, ⟨1, 6, 1⟩), (.W, ⟨0, n, 1⟩)]⟩

/-- the line beside them: five elements -/
def tLine (u : Ptr) : Span := ⟨u, [(.I, ⟨1, 6, 1⟩)]⟩

/-- the points of the kernels -/
def tDom : List DB := [(.I, ⟨1, 6, 1⟩)]

/-- five elements `u`, none of them one of the `n` elements `v` -/
def Beside (m : Mem T) (v : Ptr) (n : Int) (u : Ptr) : Prop := Cells m u 5 ∧ ∀ k l, 0 ≤ k → k < n → 0 ≤ l → l < 5 → v.add k ≠ u.add l

theorem makeSpan_win {v : Ptr} {n : Int} : makeSpan v [(.I, ⟨1, 6, 1⟩), (.W, ⟨0, n, 1⟩)] = tWin v n := by
  simp [makeSpan, Bounds.unitStride, tWin]

theorem makeSpan_line {v : Ptr} : makeSpan v [(.I, ⟨1, 6, 1⟩)] = tLine v := by
  simp [makeSpan, Bounds.unitStride, tLine]

theorem tDom_int : DomInt tDom := by unfold DomInt tDom; list_omega

theorem tDom_div : Divides tDom := by unfold Divides tDom; decide

theorem tDom_mem {p : Pt} : InDom tDom p ↔ 1 ≤ p .I ∧ p .I ≤ 5 := by
  simp [InDom, tDom, IsPoint, InRange]; omega

theorem tEntry {v : Ptr} {n i : Int} {p : Pt} : entryCell (tWin v n) p i = v.add ((p .I - 1) * n + i) := by
  simp [entryCell, tWin, cell, storeOff, setPt, lengths, rowMajor]

theorem tLine_cell {u : Ptr} {p : Pt} : cell (tLine u) p = u.add (p .I - 1) := by
  simp [tLine, cell, storeOff, lengths, rowMajor]

theorem tWin_alloc {m : Mem T} {v : Ptr} {n : Int} (h : Cells m v (5 * n)) : Allocated m (tWin v n) := by
  intro p hp
  have h1 := hp (.I, ⟨1, 6, 1⟩) (by simp [tWin])
  have h2 := hp (.W, ⟨0, n, 1⟩) (by simp [tWin])
  simp only [InRange] at h1 h2
  have e : cell (tWin v n) p = v.add ((p .I - 1) * n + p .W) := by simp [tWin, cell, storeOff, lengths, rowMajor]
  rw [e]
  refine h _ ?_ ?_ <;> nlinarith

theorem tLine_alloc {m : Mem T} {u : Ptr} (h : Cells m u 5) : Allocated m (tLine u) := by
  intro p hp
  have h1 := hp (.I, ⟨1, 6, 1⟩) (by simp [tLine])
  simp only [InRange] at h1
  rw [tLine_cell]
  exact h _ (by omega) (by omega)

theorem tLine_acc {u : Ptr} : AccOK (.span (tLine u)) tDom := by
  refine ⟨⟨?_, ?_, ?_, ?_, ?_, ?_⟩, ⟨?_, ?_, ?_, ?_, ?_, ?_, ?_, ?_⟩, rfl⟩ <;> simp [tLine, tDom, lengths, InInt]

theorem tWin_geo {v : Ptr} {n : Int} (hn : 1 ≤ n ∧ n ≤ 4) : GeoOK (tWin v n).geo where
  ne := by simp [tWin]
  nodup := by simp [tWin]
  unit := by simp [tWin]
  nonempty := by simp [tWin]; omega
  fits := by simp [tWin, lengths]; omega
  int := by simp [tWin, InInt]; omega

theorem tWin_req {v : Ptr} {n : Int} (hn : 1 ≤ n ∧ n ≤ 4) : ReqOK (tWin v n).geo tDom where
  ne := by simp [tDom]
  nodup := by simp [tDom]
  nonempty := by simp [tDom]
  stride := by simp [tDom]
  inside := by simp [tDom, tWin]
  fit := by simp [tDom]
  fit' := by simp [tDom, tWin, lengths]; omega
  lead := by simp [tDom, tWin]

theorem tWin_set {m : Mem T} {v u : Ptr} {n : Int} {ss : List (WStmt T)} (hn : 1 ≤ n ∧ n ≤ 4) (hv : Cells m v (5 * n))
    (sets : ∀ s ∈ ss, s.isSelf = false)
    (accept : acceptable ss = true) (typed : ∀ s ∈ ss, StmtTyped s) (order : ∀ i x, WStmt.set1 i (.proxy x) ∈ ss → InOrder x)
    (entries : ∀ s ∈ ss, ∀ i ∈ stmtEntries s, 0 ≤ i ∧ i < n)
    (ops : ∀ s ∈ ss, ∀ e ∈ s.operands, ExprOK m.ints tDom e ∧ (∀ a ∈ arrays e, a = tLine u) ∧
      ∀ q, ∀ z ∈ reads m.ints (tDom.map (·.1)) e q, z = cell (tLine u) q) (hu : ∀ s ∈ ss, ∀ e ∈ s.operands, Beside m v (5 * n) u) : SetOK m (tWin v n) tDom ss where
  geo := tWin_geo hn
  req := tWin_req hn
  len := rfl
  accept := accept
  ops s hs e he := (ops s hs e he).1
  lhs l u hs := by have := sets _ hs; cases this
  order := order
  orderSelf l u hs := by have := sets _ hs; cases this
  sets := sets
  typed := typed
  walloc := tWin_alloc hv
  ralloc s hs e he a ha := by rw [(ops s hs e he).2.1 a ha]; exact tLine_alloc (hu s hs e he).1
  entries := by simpa [winLen, tWin] using entries
  apart p q hp hq s hs z hz hw := by
    obtain ⟨t, ht, i, -, hi, e⟩ := set_writes sets hw
    obtain ⟨x, hx, hz⟩ := List.mem_flatMap.1 hz
    have h1 := (ops s hs x hx).2.2 q z hz
    have h2 := entries t ht i hi
    rw [e, tEntry, tLine_cell] at h1
    rw [tDom_mem] at hp hq
    exact (hu s hs x hx).2 _ _ (by nlinarith) (by nlinarith) (by omega) (by omega) h1

theorem entryAt {v : Ptr} {n i k : Int} : entryCell (tWin v n) (fun _ => k + 1) i = v.add (n * k + i) := by
  rw [tEntry]; congr 1; ring

theorem tDom_at {k : Int} (h0 : 0 ≤ k) (h1 : k < 5) : InDom tDom fun _ => k + 1 := tDom_mem.2 ⟨by omega, by omega⟩

variable [Ring T]

/-- `init`: of ten elements, seen as two windows of five, the first two of the first window become 1 and 2, those of the second 3 and 4; all else is as before. -/
theorem C97_init {v : Ptr} {m : Mem T} (hv : Cells m v 10) :
    ∃ m', Cuda.windowInit v 10 m = .ok m' ∧ m'.val (v.add 0) = some 1 ∧ m'.val (v.add 1) = some 2 ∧ m'.val (v.add 5) = some 3 ∧ m'.val (v.add 6) = some 4 ∧
      ∀ z, z ≠ v.add 0 → z ≠ v.add 1 → z ≠ v.add 5 → z ≠ v.add 6 → m'.val z = m.val z := by
  obtain ⟨a0, h0⟩ := hv 0 (by omega) (by omega)
  obtain ⟨a1, h1⟩ := hv 1 (by omega) (by omega)
  obtain ⟨a5, h5⟩ := hv 5 (by omega) (by omega)
  obtain ⟨a6, h6⟩ := hv 6 (by omega) (by omega)
  have e1 : (makeSpan v [(.I, ⟨1, 3, 1⟩), (.W, ⟨0, 5, 1⟩)]).call [(.I, ⟨1, 3, 1⟩)] = .ok ⟨v.add 0, [5], [0], [2]⟩ := by rfl
  have e2 : (⟨v.add 0, [5], [0], [2]⟩ : MT).addr = .ok ((v.add 0).add 0) := by rfl
  have e3 : (⟨v.add 0, [5], [0], [2]⟩ : MT).inc = .ok ⟨v.add 0, [5], [1], [2]⟩ := by rfl
  have e4 : (⟨v.add 0, [5], [1], [2]⟩ : MT).addr = .ok ((v.add 0).add 5) := by rfl
  have b1 : mkB .I 1 2 = .ok (.I, ⟨1, 3, 1⟩) := by rfl
  have b2 : mkB .W 0 4 = .ok (.W, ⟨0, 5, 1⟩) := by rfl
  have p0 : ∀ k, (v.add 0).add k = v.add k := fun k => by simp [Ptr.add]
  have p1 : (v.add 0).add 1 = v.add 1 := p0 1
  have p6 : (v.add 5).add 1 = v.add 6 := by simp [Ptr.add]; ring
  have p5 : (v.add 5).add 0 = v.add 5 := by simp [Ptr.add]
  have run : ∀ (q : Ptr) (i : Int) (x : T) (m : Mem T), Cuda.stmtAt q (.set1 i (.num x)) m = m.store (q.add i) x := by
    intro q i x m
    simp only [Cuda.stmtAt, WStmt.steps, setStep, List.foldlM_cons, List.foldlM_nil, Micro.run, Val.toNum, M.ok_bind, winAddr, List.nil_append, List.getLast?_singleton]
    cases m.store (q.add i) x <;> rfl
  have s0 : m.store (v.add 0) 1 = .ok (m.setAt (v.add 0) 1) := Mem.store_setAt ⟨_, h0⟩
  have s1 : (m.setAt (v.add 0) 1).store (v.add 1) 2 = .ok ((m.setAt (v.add 0) 1).setAt (v.add 1) 2) := Mem.store_setAt (Mem.setAt_alloc ⟨_, h1⟩)
  have s5 := Mem.store_setAt (m := ((m.setAt (v.add 0) 1).setAt (v.add 1) 2)) (x := 3) (Mem.setAt_alloc (Mem.setAt_alloc ⟨_, h5⟩))
  have s6 := Mem.store_setAt (m := ((m.setAt (v.add 0) 1).setAt (v.add 1) 2).setAt (v.add 5) 3) (x := 4) (Mem.setAt_alloc (Mem.setAt_alloc (Mem.setAt_alloc ⟨_, h6⟩)))
  refine ⟨(((m.setAt (v.add 0) 1).setAt (v.add 1) 2).setAt (v.add 5) 3).setAt (v.add 6) 4, ?_, ?_, ?_, ?_, ?_, fun z z0 z1 z5 z6 => ?_⟩
  · have : check ((10 : Int) == 10) = .ok () := by rfl
    simp only [Cuda.windowInit, this, M.ok_bind, b1, b2, e1, e2, p0, s0, s1, e3, e4, run, p5, p6, s5, s6]
  all_goals simp [Mem.setAt, ptr_add_eq, *]

/-- `transform`: in each of the five windows of two the first element becomes 1, the second grows by 2. -/
theorem C97_transform {v : Ptr} {β : Nat → Backend} {m : Mem T} (hβ : ∀ n, ValidBackend (β n)) (hv : Cells m v 10) :
    ∃ m', Cuda.windowTransform v 10 β m = .ok m' ∧
      (∀ k a, 0 ≤ k → k < 5 → m.val (v.add (2 * k + 1)) = some a → m'.val (v.add (2 * k)) = some 1 ∧ m'.val (v.add (2 * k + 1)) = some (a + 2)) ∧
      ∀ z, (∀ k, 0 ≤ k → k < 10 → z ≠ v.add k) → m'.val z = m.val z := by
  have ok : SetOK m (tWin v 2) tDom [.set1 0 (.num (1 : T)), .set1 1 (.proxy (.pn (arith (· + ·)) (.entry 1) 2))] := by
    refine tWin_set (u := v) (by omega) hv ?_ rfl ?_ ?_ ?_ ?_ ?_
    · simp [WStmt.isSelf]
    · simp only [List.forall_mem_cons]
      exact ⟨trivial, .pn .entry opShape_arith_num, by simp⟩
    · simp [InOrder]
    · simp [stmtEntries, entries]
    · simp [WStmt.operands, Proxy.iters]
    · simp [WStmt.operands, Proxy.iters]
  obtain ⟨m', h1, h2, h3⟩ := C24_program_order (hβ 0) tDom_int tDom_div ok.ok
  refine ⟨m', ?_, fun k a h0 h5 ha => ?_, fun z hz => h3 z fun p hp hw => ?_⟩
  · have e1 := mkB_ok (d := .I) (lo := 1) (hi := 5) (by unfold InInt; omega)
    have e2 := mkB_ok (d := .W) (lo := 0) (hi := 1) (by unfold InInt; omega)
    simp only [Cuda.windowTransform, e1, e2]
    exact h1
  · obtain ⟨mp, h6, h7⟩ := h2 _ (tDom_at h0 h5)
    obtain ⟨b, hb⟩ := hv (2 * k) (by omega) (by omega)
    simp [doStmts, doStmt, proxyDen, entryAt, put, Mem.store, Mem.load, hb, ha, ptr_add_eq, arith] at h6
    rw [h7 _ ⟨_, List.mem_cons_self, by simp [stmtWrites, entryAt]⟩, h7 _ ⟨_, List.mem_cons_of_mem _ List.mem_cons_self, by simp [stmtWrites, entryAt]⟩, ← h6]
    simp [ptr_add_eq]
  · simp [allWrites, stmtWrites, tEntry] at hw
    rw [tDom_mem] at hp
    rcases hw with hw | hw
    · exact hz _ (by omega) (by omega) hw
    · exact hz _ (by omega) (by omega) hw

/-- `transform2`: in each of the five windows of three the first element becomes `-(b + c) + 4 - 1`, `b` and `c` being the other two, which stay. -/
theorem C97_transform2 {v : Ptr} {β : Nat → Backend} {m : Mem T} (hβ : ∀ n, ValidBackend (β n)) (hv : Cells m v 15) :
    ∃ m', Cuda.windowTransform2 v 15 β m = .ok m' ∧
      (∀ k b c, 0 ≤ k → k < 5 → m.val (v.add (3 * k + 1)) = some b → m.val (v.add (3 * k + 2)) = some c →
        m'.val (v.add (3 * k)) = some (-(b + c) + 4 - 1)) ∧
      ∀ z, (∀ k, 0 ≤ k → k < 5 → z ≠ v.add (3 * k)) → m'.val z = m.val z := by
  have ok : SetOK m (tWin v 3) tDom [.set1 0 (.proxy (.pn (arith (· - ·)) (.pn (arith (· + ·))
      (Proxy.neg (· * ·) (-1 : T) (.pp (arith (· + ·)) (.entry 1) (.entry 2))) 4) 1))] := by
    refine tWin_set (u := v) (by omega) hv ?_ rfl ?_ ?_ ?_ ?_ ?_
    · simp [WStmt.isSelf]
    · simp only [List.forall_mem_cons]
      exact ⟨.pn (.pn (.np (.pp .entry .entry opShape_arith_num) opShape_arith_num) opShape_arith_num) opShape_arith_num, by simp⟩
    · simp [InOrder, Proxy.neg, noArray]
    · simp [stmtEntries, entries, Proxy.neg]
    · simp [WStmt.operands, Proxy.iters, Proxy.neg]
    · simp [WStmt.operands, Proxy.iters, Proxy.neg]
  obtain ⟨m', h1, h2, h3⟩ := C24_program_order (hβ 0) tDom_int tDom_div ok.ok
  refine ⟨m', ?_, fun k b c h0 h5 hb hc => ?_, fun z hz => h3 z fun p hp hw => ?_⟩
  · have e1 := mkB_ok (d := .I) (lo := 1) (hi := 5) (by unfold InInt; omega)
    have e2 := mkB_ok (d := .W) (lo := 0) (hi := 2) (by unfold InInt; omega)
    simp only [Cuda.windowTransform2, e1, e2]
    exact h1
  · obtain ⟨mp, h6, h7⟩ := h2 _ (tDom_at h0 h5)
    obtain ⟨a, ha⟩ := hv (3 * k) (by omega) (by omega)
    simp [doStmts, doStmt, proxyDen, entryAt, put, Mem.store, Mem.load, ha, hb, hc, ptr_add_eq, arith, Proxy.neg] at h6
    rw [h7 _ ⟨_, List.mem_cons_self, by simp [stmtWrites, entryAt]⟩, ← h6]
    simp
  · simp [allWrites, stmtWrites, tEntry] at hw
    rw [tDom_mem] at hp
    exact hz (p .I - 1) (by omega) (by omega) (hw.trans (by rw [ptr_add_eq]; ring))

/-- `transform3`: in each of the five windows of three the first element becomes `-(b + c) + 3 x`, `b` and `c` being the other two and `x` the
element of `u` beside the window. -/
theorem C97_transform3 {v u : Ptr} {β : Nat → Backend} {m : Mem T} (hβ : ∀ n, ValidBackend (β n)) (hv : Cells m v 15) (hu : Beside m v 15 u) :
    ∃ m', Cuda.windowTransform3 v 15 u β m = .ok m' ∧
      (∀ k b c x, 0 ≤ k → k < 5 → m.val (v.add (3 * k + 1)) = some b → m.val (v.add (3 * k + 2)) = some c → m.val (u.add k) = some x →
        m'.val (v.add (3 * k)) = some (-(b + c) + 3 * x)) ∧
      ∀ z, (∀ k, 0 ≤ k → k < 5 → z ≠ v.add (3 * k)) → m'.val z = m.val z := by
  have ok : SetOK m (tWin v 3) tDom [.set1 0 (.proxy (.pe (arith (· + ·))
      (Proxy.neg (· * ·) (-1 : T) (.pp (arith (· + ·)) (.entry 1) (.entry 2))) (.right (arith (· * ·)) 3 (.acc (.span (tLine u))))))] := by
    refine tWin_set (u := u) (by omega) hv ?_ rfl ?_ ?_ ?_ ?_ ?_
    · simp [WStmt.isSelf]
    · simp only [List.forall_mem_cons]
      exact ⟨.pe (.np (.pp .entry .entry opShape_arith_num) opShape_arith_num) (.right .acc opShape_arith_num) opShape_arith_num, by simp⟩
    · simp [InOrder, Proxy.neg, noArray]
    · simp [stmtEntries, entries, Proxy.neg]
    · simp [WStmt.operands, Proxy.iters, Proxy.neg, ExprOK, tLine_acc, arrays, accArray, reads, accCell]
    · simp [WStmt.operands, Proxy.iters, Proxy.neg, hu]
  obtain ⟨m', h1, h2, h3⟩ := C24_program_order (hβ 0) tDom_int tDom_div ok.ok
  refine ⟨m', ?_, fun k b c x h0 h5 hb hc hx => ?_, fun z hz => h3 z fun p hp hw => ?_⟩
  · have e1 := mkB_ok (d := .I) (lo := 1) (hi := 5) (by unfold InInt; omega)
    have e2 := mkB_ok (d := .W) (lo := 0) (hi := 2) (by unfold InInt; omega)
    obtain ⟨x, hx⟩ := hu.1 0 (by omega) (by omega)
    obtain ⟨st, g1, -, g3⟩ := leads_expr (T := T) (tab := m.ints) tDom_int (e := .right (arith (· * ·)) 3 (.acc (.span (tLine u)))) tLine_acc
    have g4 := g3 m 0 rfl (le_refl _) (by decide)
    have g5 : pt tDom 0 .I = 1 := by decide
    simp [den, accCell, tLine_cell, g5, Mem.load, hx, arith] at g4
    simp only [Cuda.windowTransform3, e1, e2]
    show (([(.right (arith (· * ·)) 3 (.acc (.span (makeSpan u tDom))))] : List (Expr T)).mapM (·.call tDom) >>= fun its => its.mapM (·.deref m) >>= fun _ =>
      windowExec _ _ _ _ _) = _
    rw [tDom, makeSpan_line, ← tDom]
    simp only [List.mapM_cons, List.mapM_nil, g1, g4, M.ok_bind, pure_bind]
    exact h1
  · obtain ⟨mp, h6, h7⟩ := h2 _ (tDom_at h0 h5)
    obtain ⟨a, ha⟩ := hv (3 * k) (by omega) (by omega)
    simp [doStmts, doStmt, proxyDen, entryAt, put, Mem.store, Mem.load, ha, hb, hc, hx, ptr_add_eq, arith, Proxy.neg, den, accCell, tLine_cell] at h6
    rw [h7 _ ⟨_, List.mem_cons_self, by simp [stmtWrites, entryAt]⟩, ← h6]
    simp
  · simp [allWrites, stmtWrites, tEntry] at hw
    rw [tDom_mem] at hp
    exact hz (p .I - 1) (by omega) (by omega) (hw.trans (by rw [ptr_add_eq]; ring))

/-- `transform4`: in each of the five windows of four the first element becomes `-(c + d) - 3 x` and the second `2 (3 x)`, `c` and `d` being the
last two and `x` the element of `u` beside the window. -/
theorem C97_transform4 {v u : Ptr} {β : Nat → Backend} {m : Mem T} (hβ : ∀ n, ValidBackend (β n)) (hv : Cells m v 20) (hu : Beside m v 20 u) :
    ∃ m', Cuda.windowTransform4 v 20 u β m = .ok m' ∧
      (∀ k c d x, 0 ≤ k → k < 5 → m.val (v.add (4 * k + 2)) = some c → m.val (v.add (4 * k + 3)) = some d → m.val (u.add k) = some x →
        m'.val (v.add (4 * k)) = some (-(c + d) - 3 * x) ∧ m'.val (v.add (4 * k + 1)) = some (2 * (3 * x))) ∧
      ∀ z, (∀ k, 0 ≤ k → k < 5 → z ≠ v.add (4 * k) ∧ z ≠ v.add (4 * k + 1)) → m'.val z = m.val z := by
  have ok : SetOK m (tWin v 4) tDom [.set1 0 (.proxy (.pe (arith (· - ·))
      (Proxy.neg (· * ·) (-1 : T) (.pp (arith (· + ·)) (.entry 2) (.entry 3))) (.right (arith (· * ·)) 3 (.acc (.span (tLine u)))))),
      .set1 1 (.expr (.right (arith (· * ·)) 2 (.right (arith (· * ·)) 3 (.acc (.span (tLine u))))))] := by
    refine tWin_set (u := u) (by omega) hv ?_ rfl ?_ ?_ ?_ ?_ ?_
    · simp [WStmt.isSelf]
    · simp only [List.forall_mem_cons]
      exact ⟨.pe (.np (.pp .entry .entry opShape_arith_num) opShape_arith_num) (.right .acc opShape_arith_num) opShape_arith_num,
        .right (.right .acc opShape_arith_num) opShape_arith_num, by simp⟩
    · simp [InOrder, Proxy.neg, noArray]
    · simp [stmtEntries, entries, Proxy.neg]
    · simp [WStmt.operands, Proxy.iters, Proxy.neg, ExprOK, tLine_acc, arrays, accArray, reads, accCell]
    · simp [WStmt.operands, Proxy.iters, Proxy.neg, hu]
  obtain ⟨m', h1, h2, h3⟩ := C24_program_order (hβ 0) tDom_int tDom_div ok.ok
  refine ⟨m', ?_, fun k c d x h0 h5 hc hd hx => ?_, fun z hz => h3 z fun p hp hw => ?_⟩
  · have e1 : mkBS .I 1 5 1 = .ok (.I, ⟨1, 6, 1⟩) := mkBS_ok (by unfold InInt; omega)
    have e2 := mkB_ok (d := .W) (lo := 0) (hi := 3) (by unfold InInt; omega)
    simp only [Cuda.windowTransform4, e1, e2]
    exact h1
  · obtain ⟨mp, h6, h7⟩ := h2 _ (tDom_at h0 h5)
    obtain ⟨a, ha⟩ := hv (4 * k) (by omega) (by omega)
    obtain ⟨b, hb⟩ := hv (4 * k + 1) (by omega) (by omega)
    have hne := hu.2 (4 * k) k (by omega) (by omega) (by omega) (by omega)
    simp [doStmts, doStmt, proxyDen, entryAt, put, Mem.store, Mem.load, ha, hb, hc, hd, hx, ptr_add_eq, arith, Proxy.neg, den, accCell, tLine_cell, hne.symm] at h6
    rw [h7 _ ⟨_, List.mem_cons_self, by simp [stmtWrites, entryAt]⟩, h7 _ ⟨_, List.mem_cons_of_mem _ List.mem_cons_self, by simp [stmtWrites, entryAt]⟩, ← h6]
    simp [ptr_add_eq]
  · simp [allWrites, stmtWrites, tEntry] at hw
    rw [tDom_mem] at hp
    have := hz (p .I - 1) (by omega) (by omega)
    rcases hw with hw | hw
    · exact this.1 (hw.trans (by rw [ptr_add_eq]; ring))
    · exact this.2 (hw.trans (by rw [ptr_add_eq]; ring))

/-- `rhs`: each element of `rhs` loses the product of the second element of its window with the element of `u` beside it; nothing else changes. -/
theorem C97_rhs {r v u : Ptr} {β : Nat → Backend} {m : Mem T} (hβ : ∀ n, ValidBackend (β n)) (hv : Cells m v 20) (hu : Cells m u 5)
    (hr : Beside m v 20 r) (hur : Beside m u 5 r) :
    ∃ m', Cuda.windowRhs r v 20 u β m = .ok m' ∧
      (∀ k a b x, 0 ≤ k → k < 5 → m.val (r.add k) = some a → m.val (v.add (4 * k + 1)) = some b → m.val (u.add k) = some x →
        m'.val (r.add k) = some (a - b * x)) ∧
      ∀ z, (∀ k, 0 ≤ k → k < 5 → z ≠ r.add k) → m'.val z = m.val z := by
  have ok : SubOK m (tWin v 4) tDom (tLine r) (.pe (arith (· * ·)) (.entry 1) (.acc (.span (tLine u)))) := {
    geo := tWin_geo (by omega)
    req := tWin_req (by omega)
    len := rfl
    lhs := ⟨tLine_acc.1, tLine_acc.2.1, tLine_acc.2.2⟩
    ops := by simp [Proxy.iters, ExprOK, tLine_acc, arrays, accArray, tLine_alloc hu, Expr.isFine]
    order := trivial
    typed := .pe .entry .acc opShape_arith_num
    walloc := tWin_alloc hv
    lalloc := tLine_alloc hr.1
    entries := by simp [entries, winLen, tWin]
    apart := fun p q hp hq => by
      rw [tDom_mem] at hp hq
      refine ⟨fun e he hz => ?_, fun i hi e => ?_⟩
      · simp [Proxy.iters] at he
        subst he
        simp [reads, accCell, tLine_cell] at hz
        exact hur.2 _ _ (by omega) (by omega) (by omega) (by omega) hz.symm
      · simp [entries] at hi
        subst hi
        rw [tLine_cell, tEntry] at e
        exact hr.2 _ _ (by omega) (by omega) (by omega) (by omega) e.symm }
  obtain ⟨m', h1, h2, h3⟩ := C27_subtract (hβ 0) tDom_int tDom_div ok
  refine ⟨m', ?_, fun k a b x h0 h5 ha hb hx => ?_, fun z hz => h3 z fun p hp hw => ?_⟩
  · have e1 := mkB_ok (d := .I) (lo := 1) (hi := 5) (by unfold InInt; omega)
    have e2 := mkB_ok (d := .W) (lo := 0) (hi := 3) (by unfold InInt; omega)
    simp only [Cuda.windowRhs, e1, e2]
    exact h1
  · obtain ⟨a', y, g1, g2, g3⟩ := h2 _ (tDom_at h0 h5)
    simp [tLine_cell, ha] at g1
    simp [proxyDen, entryAt, Mem.load, hb, hx, arith, den, accCell, tLine_cell] at g2
    simp [tLine_cell] at g3
    rw [g3, ← g1, ← g2]
  · rw [tDom_mem] at hp
    rw [tLine_cell] at hw
    exact hz _ (by omega) (by omega) hw

/-! ### examples -/

/-- three blocks of thirty elements, each holding its offset -/
def exBlocks : Mem Int := ⟨fun q => if q.blk < 3 ∧ 0 ≤ q.off ∧ q.off < 30 then some q.off else none, fun _ => none⟩

theorem exBlocks_cells {b : Nat} {n : Int} (hb : b < 3) (h : n ≤ 30) : Cells exBlocks ⟨b, 0⟩ n := by
  intro k h0 h1
  simp only [exBlocks, Ptr.add, zero_add]
  rw [if_pos ⟨hb, h0, by omega⟩]
  exact ⟨_, rfl⟩

theorem exBlocks_beside {a b : Nat} {n : Int} (hb : b < 3) (h : a ≠ b) : Beside exBlocks ⟨a, 0⟩ n ⟨b, 0⟩ :=
  ⟨exBlocks_cells hb (by decide), fun k l _ _ _ _ e => h (by simpa [Ptr.add] using congrArg Ptr.blk e)⟩

example : ∃ m', Cuda.windowInit ⟨0, 0⟩ 10 exBlocks = .ok m' ∧ m'.val ⟨0, 6⟩ = some 4 ∧ m'.val ⟨0, 7⟩ = some 7 := by
  obtain ⟨m', h, -, -, -, h6, h7⟩ := C97_init (v := ⟨0, 0⟩) (exBlocks_cells (b := 0) (by decide) (by decide))
  exact ⟨m', h, h6, by rw [h7 _ (by decide) (by decide) (by decide) (by decide)]; decide⟩

example : ∃ m', Cuda.windowTransform ⟨0, 0⟩ 10 (fun _ => revBackend) exBlocks = .ok m' ∧ m'.val ⟨0, 7⟩ = some 9 := by
  obtain ⟨m', h, h1, -⟩ := C97_transform (v := ⟨0, 0⟩) (fun _ => revBackend_ok) (exBlocks_cells (b := 0) (by decide) (by decide))
  exact ⟨m', h, (h1 3 7 (by decide) (by decide) (by decide)).2⟩

example : ∃ m', Cuda.windowTransform2 ⟨0, 0⟩ 15 (fun _ => revBackend) exBlocks = .ok m' ∧ m'.val ⟨0, 9⟩ = some (-(10 + 11) + 4 - 1) := by
  obtain ⟨m', h, h1, -⟩ := C97_transform2 (v := ⟨0, 0⟩) (fun _ => revBackend_ok) (exBlocks_cells (b := 0) (by decide) (by decide))
  exact ⟨m', h, h1 3 10 11 (by decide) (by decide) (by decide) (by decide)⟩

example : ∃ m', Cuda.windowTransform3 ⟨0, 0⟩ 15 ⟨1, 0⟩ (fun _ => revBackend) exBlocks = .ok m' ∧ m'.val ⟨0, 9⟩ = some (-(10 + 11) + 3 * 3) := by
  obtain ⟨m', h, h1, -⟩ := C97_transform3 (v := ⟨0, 0⟩) (u := ⟨1, 0⟩) (fun _ => revBackend_ok) (exBlocks_cells (b := 0) (by decide) (by decide))
    (exBlocks_beside (by decide) (by decide))
  exact ⟨m', h, h1 3 10 11 3 (by decide) (by decide) (by decide) (by decide) (by decide)⟩

example : ∃ m', Cuda.windowTransform4 ⟨0, 0⟩ 20 ⟨1, 0⟩ (fun _ => revBackend) exBlocks = .ok m' ∧ m'.val ⟨0, 13⟩ = some (2 * (3 * 3)) := by
  obtain ⟨m', h, h1, -⟩ := C97_transform4 (v := ⟨0, 0⟩) (u := ⟨1, 0⟩) (fun _ => revBackend_ok) (exBlocks_cells (b := 0) (by decide) (by decide))
    (exBlocks_beside (by decide) (by decide))
  exact ⟨m', h, (h1 3 14 15 3 (by decide) (by decide) (by decide) (by decide) (by decide)).2⟩

example : ∃ m', Cuda.windowRhs ⟨2, 0⟩ ⟨0, 0⟩ 20 ⟨1, 0⟩ (fun _ => revBackend) exBlocks = .ok m' ∧ m'.val ⟨2, 3⟩ = some (3 - 13 * 3) := by
  obtain ⟨m', h, h1, -⟩ := C97_rhs (r := ⟨2, 0⟩) (v := ⟨0, 0⟩) (u := ⟨1, 0⟩) (fun _ => revBackend_ok) (exBlocks_cells (b := 0) (by decide) (by decide))
    (exBlocks_cells (b := 1) (by decide) (by decide)) (exBlocks_beside (by decide) (by decide)) (exBlocks_beside (by decide) (by decide))
  exact ⟨m', h, h1 3 3 13 3 (by decide) (by decide) (by decide) (by decide) (by decide)⟩

end Verif
