import Verif.Props.Assign
import Verif.Lemmas.Window
import Mathlib.Tactic.NoncommRing

/-
C23, C24, C25, C26, C27: statements on stencil windows.
-/

namespace Verif
open Spec

variable {T : Type}

/-! ### the general case -/

/-- what has to hold of window statements before they run: everything fits, the arrays are allocated, the entries named exist,
composite operands look at no cell written at the same point (they are read before the first statement), and no cell written
at one point is read or written at another -/
structure WindowOK (m : Mem T) (w : Span) (D : List DB) (ss : List (WStmt T)) : Prop extends WindowFit m.ints w D ss where
  typed : ∀ s ∈ ss, StmtTyped s
  walloc : Allocated m w
  lalloc : ∀ l u, WStmt.self l u ∈ ss → Allocated m l
  ralloc : ∀ s ∈ ss, ∀ e ∈ s.operands, ∀ a ∈ arrays e, Allocated m a
  entries : ∀ s ∈ ss, ∀ i ∈ stmtEntries s, 0 ≤ i ∧ i < winLen w
  before : ∀ p, InDom D p → ∀ s ∈ ss, ∀ e ∈ s.operands, (e.lazy = false ∨ ∃ i j r, s = .set2 i j r) →
    ∀ q ∈ reads m.ints (D.map (·.1)) e p, ¬ allWrites w p ss q
  sep : ∀ p q, InDom D p → InDom D q → (∃ x ∈ D, p x.1 ≠ q x.1) → ∀ z, allWrites w p ss z →
    ¬ allReads m.ints (D.map (·.1)) w q ss z ∧ ¬ allWrites w q ss z

/-- what window statements do: at each point of `S` the cells they assign hold what the statements, run one after the other at
this point, leave there; nothing else changes -/
structure WindowDoes (S : Pt → Prop) (w : Span) (dims : List Dim) (ss : List (WStmt T)) (m m' : Mem T) : Prop where
  at_ : ∀ p, S p → ∃ mp, doStmts dims w p ss m = .ok mp ∧ ∀ z, allWrites w p ss z → m'.val z = mp.val z
  frame : ∀ z, (∀ p, S p → ¬ allWrites w p ss z) → m'.val z = m.val z
  ints : m'.ints = m.ints

theorem WindowDoes.unique {S : Pt → Prop} {w : Span} {dims : List Dim} {ss : List (WStmt T)} {m m' m'' : Mem T}
    (h : WindowDoes S w dims ss m m') (h' : WindowDoes S w dims ss m m'') : m' = m'' := by
  have hval : m'.val = m''.val := by
    funext z
    by_cases hz : ∃ p, S p ∧ allWrites w p ss z
    · obtain ⟨p, hp, hz⟩ := hz
      obtain ⟨a, h1, h2⟩ := h.at_ p hp
      obtain ⟨b, h3, h4⟩ := h'.at_ p hp
      rw [h1, Except.ok.injEq] at h3
      rw [h2 z hz, h4 z hz, h3]
    · rw [h.frame z fun p hp e => hz ⟨p, hp, e⟩, h'.frame z fun p hp e => hz ⟨p, hp, e⟩]
  have hint : m'.ints = m''.ints := h.ints.trans h'.ints.symm
  cases m'; cases m''
  cases hval; cases hint; rfl

theorem WindowOK.runs {m : Mem T} {w : Span} {D : List DB} {ss : List (WStmt T)} (h : WindowOK m w D ss) {p : Pt} (hp : InDom D p) :
    ∃ m', doStmts (D.map (·.1)) w p ss m = .ok m' ∧ SameCells m m' := by
  refine doStmts_ok h.typed (fun s hs i hi => ?_) (fun l u hs => ?_) (fun s hs e he => ⟨h.ops s hs e he, fun q hq => ?_⟩)
  · obtain ⟨h0, h1⟩ := h.entries s hs i hi
    obtain ⟨d, b, -, -, e, hin⟩ := h.toWindowFit.entry_inside hp h0 h1
    rw [e]; exact h.walloc _ hin
  · exact h.lalloc l u hs p ((h.lhs l u hs).inside hp)
  · obtain ⟨a, ha, p', hp', rfl⟩ := reads_elements hp (h.ops s hs e he) q hq
    exact h.ralloc s hs e he a ha p' hp'

/-- Under any schedule the statements are carried out at the points reached. -/
theorem window_run_free {w : Span} {D : List DB} {ss : List (WStmt T)} {β : Backend} {m : Mem T} (hβ : ValidBackend β) (hD : DomInt D)
    (h : WindowOK m w D ss) : ∃ m', windowExec w D ss β m = .ok m' ∧ WindowDoes (Reached D) w (D.map (·.1)) ss m m' ∧
      ∃ wi ps, foldSize D = .ok (floors D).prod ∧ w.call D = .ok wi ∧ ss.mapM (·.prepare D) = .ok ps ∧
        RaceFree (floors D).prod (fun k => windowThread ((β (floors D).prod (windowThread [] wi ps).length).rhist k) wi ps) m m' := by
  have hdom := h.req.dom
  obtain ⟨-, f1, -⟩ := floors_le hdom.2
  have hin : ∀ k, 0 ≤ k → k < (floors D).prod → InDom D (pt D k) := fun k k0 k1 => pt_inDom hdom k0 (by omega)
  have hrun : ∀ k, ∃ m', 0 ≤ k → k < (floors D).prod → doStmts (D.map (·.1)) w (pt D k) ss m = .ok m' := by
    intro k
    by_cases hk : 0 ≤ k ∧ k < (floors D).prod
    · obtain ⟨m', h1, -⟩ := h.runs (hin k hk.1 hk.2)
      exact ⟨m', fun _ _ => h1⟩
    · exact ⟨m, fun a b => absurd ⟨a, b⟩ hk⟩
  choose mp hmp using hrun
  obtain ⟨m', h1, h2, h3, h4, hfree⟩ := window_free hβ hD h.toWindowFit rfl hmp
    (fun k k0 k1 s hs e he hl q hq => h.before _ (hin k k0 k1) s hs e he (.inl hl) q hq)
    (fun k k0 k1 i j e hs q hq => h.before _ (hin k k0 k1) _ hs e (by simp [WStmt.operands]) (.inr ⟨i, j, _, rfl⟩) q hq)
    (fun k k' k0 k1 k0' k1' hne q hq => by
      refine h.sep _ _ (hin k k0 k1) (hin k' k0' k1') ?_ q hq
      by_contra hc
      push Not at hc
      exact hne (pt_inj hdom k0 (by omega) k0' (by omega) hc))
  refine ⟨m', h1, ⟨fun p ⟨k, k0, k1, hk⟩ => ⟨mp k, ?_, fun z hz => ?_⟩, fun z hz => ?_, h2⟩, hfree⟩
  · rw [← hmp k k0 k1]
    exact h.toWindowFit.doStmts_pt (fun x hx => (hk x hx).symm) rfl fun _ hs => hs
  · exact h3 k k0 k1 z ((h.toWindowFit.writes_pt hk).2 hz)
  · exact h4 z fun k k0 k1 => hz _ ⟨k, k0, k1, fun _ _ => rfl⟩

theorem window_run {w : Span} {D : List DB} {ss : List (WStmt T)} {β : Backend} {m : Mem T} (hβ : ValidBackend β) (hD : DomInt D)
    (h : WindowOK m w D ss) : ∃ m', windowExec w D ss β m = .ok m' ∧ WindowDoes (Reached D) w (D.map (·.1)) ss m m' := by
  obtain ⟨m', h1, h2, -⟩ := window_run_free hβ hD h
  exact ⟨m', h1, h2⟩

/-- every stride divides the number of indices between the ends -/
def Divides (D : List DB) : Prop := ∀ x ∈ D, x.2.stride ∣ x.2.last - x.2.first

theorem reached_inDom {geo D : List DB} (hr : ReqOK geo D) {p : Pt} (hp : Reached D p) : InDom D p := by
  obtain ⟨k, k0, k1, hk⟩ := hp
  obtain ⟨-, f1, -⟩ := floors_le hr.dom.2
  have hin := pt_inDom hr.dom k0 (lt_of_lt_of_le k1 f1)
  intro x hx
  rw [← hk x hx]; exact hin x hx

theorem inDom_reached {geo D : List DB} (hr : ReqOK geo D) (hd : Divides D) {p : Pt} (hp : InDom D p) : Reached D p := by
  obtain ⟨k, k0, k1, hk⟩ := pt_surj hr.dom hp
  rw [← floors_eq hr.dom.2 hd] at k1
  exact ⟨k, k0, k1, hk⟩

theorem WindowDoes.congr {S S' : Pt → Prop} {w : Span} {dims : List Dim} {ss : List (WStmt T)} {m m' : Mem T}
    (h : WindowDoes S w dims ss m m') (hS : ∀ p, S' p ↔ S p) : WindowDoes S' w dims ss m m' :=
  ⟨fun p hp => h.at_ p ((hS p).1 hp), fun z hz => h.frame z fun p hp => hz p ((hS p).2 hp), h.ints⟩

theorem window_run_all {w : Span} {D : List DB} {ss : List (WStmt T)} {β : Backend} {m : Mem T} (hβ : ValidBackend β) (hD : DomInt D)
    (hd : Divides D) (h : WindowOK m w D ss) : ∃ m', windowExec w D ss β m = .ok m' ∧ WindowDoes (InDom D) w (D.map (·.1)) ss m m' := by
  obtain ⟨m', h1, h2⟩ := window_run hβ hD h
  exact ⟨m', h1, h2.congr fun p => ⟨inDom_reached h.req hd, reached_inDom h.req⟩⟩

/-! ### statements that assign entries -/

/-- conditions for lists of `st(..) = ..`: no array operand reads an entry that is assigned -/
structure SetOK (m : Mem T) (w : Span) (D : List DB) (ss : List (WStmt T)) : Prop extends WindowFit m.ints w D ss where
  sets : ∀ s ∈ ss, s.isSelf = false
  typed : ∀ s ∈ ss, StmtTyped s
  walloc : Allocated m w
  ralloc : ∀ s ∈ ss, ∀ e ∈ s.operands, ∀ a ∈ arrays e, Allocated m a
  entries : ∀ s ∈ ss, ∀ i ∈ stmtEntries s, 0 ≤ i ∧ i < winLen w
  apart : ∀ p q, InDom D p → InDom D q → ∀ s ∈ ss, ∀ z ∈ stmtArrayReads m.ints (D.map (·.1)) q s, ¬ allWrites w p ss z

theorem set_writes {ss : List (WStmt T)} (hs : ∀ s ∈ ss, s.isSelf = false) {w : Span} {p : Pt} {z : Ptr} (h : allWrites w p ss z) :
    ∃ s ∈ ss, ∃ i ∈ named s, i ∈ stmtEntries s ∧ z = entryCell w p i := by
  obtain ⟨s, hm, hz⟩ := h
  refine ⟨s, hm, ?_⟩
  have := hs s hm
  cases s with
  | set1 i r =>
    simp only [stmtWrites, List.mem_singleton] at hz
    exact ⟨i, by simp [named], by cases r <;> simp [stmtEntries], hz⟩
  | set2 i j r =>
    simp only [stmtWrites, List.mem_cons, List.not_mem_nil, or_false] at hz
    rcases hz with hz | hz
    · exact ⟨i, by simp [named], by cases r <;> simp [stmtEntries], hz⟩
    · exact ⟨j, by simp [named], by cases r <;> simp [stmtEntries], hz⟩
  | self l u => cases this

theorem entry_reads {w : Span} {p : Pt} {s : WStmt T} {z : Ptr} (h : z ∈ stmtEntryReads w p s) : ∃ i ∈ stmtEntries s, z = entryCell w p i := by
  cases s with
  | set1 i r =>
    cases r with
    | proxy u =>
      simp only [stmtEntryReads, List.mem_map] at h
      obtain ⟨i, hi, rfl⟩ := h
      exact ⟨i, by simp [stmtEntries, hi], rfl⟩
    | num t => cases h
    | expr e => cases h
  | set2 i j r =>
    cases r with
    | proxy u =>
      simp only [stmtEntryReads, List.mem_map] at h
      obtain ⟨i, hi, rfl⟩ := h
      exact ⟨i, by simp [stmtEntries, hi], rfl⟩
    | num t => cases h
    | expr e => cases h
  | self l u =>
    simp only [stmtEntryReads, List.mem_map] at h
    obtain ⟨i, hi, rfl⟩ := h
    exact ⟨i, by simp [stmtEntries, hi], rfl⟩

theorem SetOK.ok {m : Mem T} {w : Span} {D : List DB} {ss : List (WStmt T)} (h : SetOK m w D ss) : WindowOK m w D ss where
  toWindowFit := h.toWindowFit
  typed := h.typed
  walloc := h.walloc
  lalloc := fun l u hs => by have := h.sets _ hs; cases this
  ralloc := h.ralloc
  entries := h.entries
  before := fun p hp s hs e he _ q hq => h.apart p p hp hp s hs q (List.mem_flatMap.2 ⟨e, he, hq⟩)
  sep := by
    rintro p q hp hq ⟨x, hx, hne⟩ z hz
    obtain ⟨s, hs, i, -, hi, e⟩ := set_writes h.sets hz
    refine ⟨?_, fun hz' => ?_⟩
    · rintro ⟨t, ht, hz' | hz'⟩
      · obtain ⟨j, hj, e'⟩ := entry_reads hz'
        exact hne ((h.toWindowFit.entry_inj hp hq (h.entries s hs i hi) (h.entries t ht j hj) (e ▸ e')).1 x hx)
      · exact h.apart p q hp hq t ht z hz' hz
    · obtain ⟨t, ht, j, -, hj, e'⟩ := set_writes h.sets hz'
      exact hne ((h.toWindowFit.entry_inj hp hq (h.entries s hs i hi) (h.entries t ht j hj) (e ▸ e')).1 x hx)

theorem doStmts_one {dims : List Dim} {w : Span} {p : Pt} {s : WStmt T} {m : Mem T} : doStmts dims w p [s] m = doStmt dims w p s m := by
  simp only [doStmts]
  cases doStmt dims w p s m <;> rfl

/-! ### C23 -/

/-- Whatever the schedule: a cell that changes is an entry named on a left hand side, at a point of the domain. -/
theorem C23_frame {w : Span} {D : List DB} {ss : List (WStmt T)} {β : Backend} {m : Mem T} (hβ : ValidBackend β) (hD : DomInt D)
    (h : SetOK m w D ss) : ∃ m', windowExec w D ss β m = .ok m' ∧ m'.ints = m.ints ∧
      ∀ z, m'.val z ≠ m.val z → ∃ p, InDom D p ∧ ∃ s ∈ ss, ∃ i ∈ named s, z = entryCell w p i := by
  obtain ⟨m', h1, h2⟩ := window_run hβ hD h.ok
  refine ⟨m', h1, h2.ints, fun z hz => ?_⟩
  by_contra hc
  refine hz (h2.frame z fun p hp hw => hc ?_)
  obtain ⟨s, hs, i, hi, -, e⟩ := set_writes h.sets hw
  exact ⟨p, reached_inDom h.req hp, s, hs, i, hi, e⟩

/-- So the entries not named, the windows at points outside the domain, and all other blocks of memory keep their values. -/
theorem C23_kept {w : Span} {D : List DB} {ss : List (WStmt T)} {β : Backend} {m m' : Mem T} (hβ : ValidBackend β) (hD : DomInt D)
    (h : SetOK m w D ss) (hr : windowExec w D ss β m = .ok m') :
    (∀ p, InDom D p → ∀ j, 0 ≤ j → j < winLen w → (∀ s ∈ ss, j ∉ named s) → m'.val (entryCell w p j) = m.val (entryCell w p j)) ∧
    (∀ p, Inside w.geo p → ¬ InDom D p → m'.val (cell w p) = m.val (cell w p)) ∧
    (∀ z, z.blk ≠ w.ptr.blk → m'.val z = m.val z) := by
  obtain ⟨m1, h1, -, h3⟩ := C23_frame hβ hD h
  rw [hr, Except.ok.injEq] at h1
  subst h1
  have hent : ∀ s ∈ ss, ∀ i ∈ named s, 0 ≤ i ∧ i < winLen w := fun s hs i hi => h.entries s hs i (by
    have := h.sets s hs
    cases s with
    | set1 i r =>
      simp only [named, List.mem_singleton] at hi
      subst hi; cases r <;> simp [stmtEntries]
    | set2 i j r =>
      simp only [named, List.mem_cons, List.not_mem_nil, or_false] at hi
      rcases hi with rfl | rfl <;> cases r <;> simp [stmtEntries]
    | self l u => cases this)
  refine ⟨fun p hp j j0 j1 hj => ?_, fun p hp hn => ?_, fun z hz => ?_⟩
  · by_contra hc
    obtain ⟨q, hq, s, hs, i, hi, e⟩ := h3 _ hc
    obtain ⟨-, rfl⟩ := h.toWindowFit.entry_inj hp hq ⟨j0, j1⟩ (hent s hs i hi) e
    exact hj s hs hi
  · by_contra hc
    obtain ⟨q, hq, s, hs, i, hi, e⟩ := h3 _ hc
    obtain ⟨h0, h1⟩ := hent s hs i hi
    obtain ⟨d, b, -, hd, e', hin⟩ := h.toWindowFit.entry_inside hq h0 h1
    rw [e'] at e
    refine hn fun x hx => ?_
    obtain ⟨g, hg⟩ := h.req.mem_geo hx
    have : storeOff w.geo p = storeOff w.geo (setPt q d (b.first + i)) := by
      simp only [cell, Ptr.add, Ptr.mk.injEq] at e; omega
    have := storeOff_inj hp hin this (x.1, g) hg
    have hxd : x.1 ≠ d := fun e => hd (e ▸ List.mem_map_of_mem hx)
    simp only [setPt, if_neg hxd] at this
    rw [this]; exact hq x hx
  · by_contra hc
    obtain ⟨q, hq, s, hs, i, hi, e⟩ := h3 _ hc
    obtain ⟨h0, h1⟩ := hent s hs i hi
    obtain ⟨d, b, -, hd, e', hin⟩ := h.toWindowFit.entry_inside hq h0 h1
    rw [e, e'] at hz
    exact hz rfl

/-- 5 points with 3 entries each in block 3, a line in block 0, one in block 1; every cell holds ten times its block plus its place -/
def exWinMem : Mem Int := ⟨fun q => if 0 ≤ q.off ∧ q.off < 15 then some (10 * q.blk + q.off) else none, fun _ => none⟩
def exLine1 : Span := ⟨⟨1, 0⟩, [(Dim.I, ⟨0, 5, 1⟩)]⟩

theorem exWinMem_alloc {s : Span} (h0 : s.ptr.off = 0) (h : ∀ p, Inside s.geo p → 0 ≤ storeOff s.geo p ∧ storeOff s.geo p < 15) : Allocated exWinMem s := by
  intro p hp
  have := h p hp
  refine ⟨_, if_pos ?_⟩
  show 0 ≤ s.ptr.off + storeOff s.geo p ∧ s.ptr.off + storeOff s.geo p < 15
  omega

theorem exLine_alloc {b : Nat} : Allocated exWinMem ⟨⟨b, 0⟩, [(Dim.I, ⟨0, 5, 1⟩)]⟩ := exWinMem_alloc rfl fun p hp => by
  have h1 := hp (Dim.I, ⟨0, 5, 1⟩) (by simp)
  simp only [InRange] at h1
  simp only [storeOff, lengths, List.map_cons, List.map_nil, rowMajor, List.prod_nil]
  omega

theorem exSt_alloc : Allocated exWinMem exSt := exWinMem_alloc rfl fun p hp => by
  have h1 := hp (Dim.I, ⟨0, 5, 1⟩) (by simp [exSt])
  have h2 := hp (Dim.W, ⟨0, 3, 1⟩) (by simp [exSt])
  simp only [InRange] at h1 h2
  simp only [storeOff, exSt, lengths, List.map_cons, List.map_nil, rowMajor, List.prod_cons, List.prod_nil]
  omega

/-- `st(0) = 2 * a, st(1) = (st(1) + st(0)) * a` -/
def exSets : List (WStmt Int) :=
  [.set1 0 (.expr (.right (arith (· * ·)) 2 (.acc (.span exLine)))),
   .set1 1 (.proxy (.pe (arith (· * ·)) (.pp (arith (· + ·)) (.entry 1) (.entry 0)) (.acc (.span exLine))))]

theorem exLine_expr {tab : Ptr → Option Int} {b : Nat} : ExprOK (T := Int) tab exInner (.acc (.span ⟨⟨b, 0⟩, [(Dim.I, ⟨0, 5, 1⟩)]⟩)) :=
  ⟨exDot_ok.vgeo, exDot_ok.vreq, rfl⟩

theorem exInner_int : DomInt exInner := by
  intro x hx
  simp only [exInner, List.mem_singleton] at hx
  subst hx; decide

theorem exSets_ok : SetOK exWinMem exSt exInner exSets where
  geo := exDot_ok.ugeo
  req := exDot_ok.ureq
  len := rfl
  accept := rfl
  ops := by
    intro s hs e he
    simp only [exSets, List.mem_cons, List.not_mem_nil, or_false] at hs
    rcases hs with rfl | rfl <;>
      (simp only [WStmt.operands, Proxy.iters, List.nil_append, List.mem_singleton] at he; subst he; exact exLine_expr (tab := exWinMem.ints))
  lhs := by intro l u hs; simp [exSets] at hs
  order := by
    intro i u hs
    simp only [exSets, List.mem_cons, List.not_mem_nil, or_false, WStmt.set1.injEq, reduceCtorEq, and_false, false_or, WRhs.proxy.injEq] at hs
    rw [hs.2]; exact .inl ⟨trivial, trivial⟩
  orderSelf := by intro l u hs; simp [exSets] at hs
  sets := by decide
  typed := by
    intro s hs
    simp only [exSets, List.mem_cons, List.not_mem_nil, or_false] at hs
    rcases hs with rfl | rfl
    · exact .right .acc opShape_arith_num
    · exact .pe (.pp .entry .entry opShape_arith_num) .acc opShape_arith_num
  walloc := exSt_alloc
  ralloc := by
    intro s hs e he a ha
    simp only [exSets, List.mem_cons, List.not_mem_nil, or_false] at hs
    rcases hs with rfl | rfl <;>
      (simp only [WStmt.operands, Proxy.iters, List.nil_append, List.mem_singleton] at he; subst he
       simp only [arrays, accArray, List.mem_singleton] at ha; subst ha; exact exLine_alloc)
  entries := by decide
  apart := by
    intro p q hp hq s hs z hz hw
    obtain ⟨t, -, i, -, -, e⟩ := set_writes (by decide) hw
    have h0 : z.blk = 0 := by
      simp only [exSets, List.mem_cons, List.not_mem_nil, or_false] at hs
      rcases hs with rfl | rfl <;>
        (simp only [stmtArrayReads, WStmt.operands, Proxy.iters, List.nil_append, List.flatMap_cons, List.flatMap_nil, List.append_nil,
           reads, accCell, List.mem_singleton] at hz; subst hz; rfl)
    have h3 : z.blk = 3 := by rw [e]; rfl
    omega

example : ∃ m', windowExec exSt exInner exSets seqBackend exWinMem = .ok m' ∧ m'.val (entryCell exSt (fun _ => 2) 2) = some 38 := by
  obtain ⟨m', h1, -⟩ := C23_frame seqBackend_ok exInner_int exSets_ok
  refine ⟨m', h1, ?_⟩
  rw [(C23_kept seqBackend_ok exInner_int exSets_ok h1).1 (fun _ => 2) (by unfold InDom IsPoint InRange; decide) 2 (by decide) (by decide) (by decide)]
  rfl

/-! ### C24 -/

/-- Whatever the schedule: at each point the statements act as if run one after the other there, starting from the memory before. -/
theorem C24_program_order {w : Span} {D : List DB} {ss : List (WStmt T)} {β : Backend} {m : Mem T} (hβ : ValidBackend β) (hD : DomInt D)
    (hd : Divides D) (h : WindowOK m w D ss) :
    ∃ m', windowExec w D ss β m = .ok m' ∧
      (∀ p, InDom D p → ∃ mp, doStmts (D.map (·.1)) w p ss m = .ok mp ∧ ∀ z, allWrites w p ss z → m'.val z = mp.val z) ∧
      (∀ z, (∀ p, InDom D p → ¬ allWrites w p ss z) → m'.val z = m.val z) := by
  obtain ⟨m', h1, h2⟩ := window_run_all hβ hD hd h
  exact ⟨m', h1, h2.at_, h2.frame⟩

/-- So all schedules give the same memory. -/
theorem C24_schedule {w : Span} {D : List DB} {ss : List (WStmt T)} {β β' : Backend} {m : Mem T} (hβ : ValidBackend β) (hβ' : ValidBackend β')
    (hD : DomInt D) (h : WindowOK m w D ss) : ∃ m', windowExec w D ss β m = .ok m' ∧ windowExec w D ss β' m = .ok m' := by
  obtain ⟨m', h1, h2⟩ := window_run hβ hD h
  obtain ⟨m'', h3, h4⟩ := window_run hβ' hD h
  exact ⟨m', h1, by rw [h3, h2.unique h4]⟩

theorem acceptable_append {ss ts : List (WStmt T)} (h : acceptable (ss ++ ts) = true) : acceptable ss = true ∧ acceptable ts = true := by
  simp only [acceptable, List.all_append, Bool.and_eq_true, Bool.or_eq_true] at h ⊢
  tauto

theorem WindowFit.sub {tab : Ptr → Option Int} {w : Span} {D : List DB} {ss ts : List (WStmt T)} (h : WindowFit tab w D ss)
    (ha : acceptable ts = true) (hs : ∀ s ∈ ts, s ∈ ss) : WindowFit tab w D ts :=
  ⟨h.geo, h.req, h.len, ha, fun s hm => h.ops s (hs s hm), fun l u hm => h.lhs l u (hs _ hm), fun i u hm => h.order i u (hs _ hm),
    fun l u hm => h.orderSelf l u (hs _ hm)⟩

theorem allWrites.sub {w : Span} {p : Pt} {ss ts : List (WStmt T)} (hs : ∀ s ∈ ts, s ∈ ss) {z : Ptr} (h : allWrites w p ts z) : allWrites w p ss z := by
  obtain ⟨s, hm, hz⟩ := h; exact ⟨s, hs s hm, hz⟩

theorem allReads.sub {tab : Ptr → Option Int} {dims : List Dim} {w : Span} {p : Pt} {ss ts : List (WStmt T)} (hs : ∀ s ∈ ts, s ∈ ss) {z : Ptr}
    (h : allReads tab dims w p ts z) : allReads tab dims w p ss z := by
  obtain ⟨s, hm, hz⟩ := h; exact ⟨s, hs s hm, hz⟩

theorem WindowOK.sub {m m' : Mem T} {w : Span} {D : List DB} {ss ts : List (WStmt T)} (h : WindowOK m w D ss) (ha : acceptable ts = true)
    (hs : ∀ s ∈ ts, s ∈ ss) (hm : SameCells m m') : WindowOK m' w D ts where
  toWindowFit := by rw [hm.1]; exact h.toWindowFit.sub ha hs
  typed := fun s ht => h.typed s (hs s ht)
  walloc := fun p hp => hm.2 _ (h.walloc p hp)
  lalloc := fun l u ht p hp => hm.2 _ (h.lalloc l u (hs _ ht) p hp)
  ralloc := fun s ht e he a ha p hp => hm.2 _ (h.ralloc s (hs s ht) e he a ha p hp)
  entries := fun s ht => h.entries s (hs s ht)
  before := fun p hp s ht e he hc q hq hw => by
    rw [hm.1] at hq
    exact h.before p hp s (hs s ht) e he hc q hq (allWrites.sub hs hw)
  sep := fun p q hp hq hne z hz => by
    obtain ⟨h1, h2⟩ := h.sep p q hp hq hne z (allWrites.sub hs hz)
    rw [hm.1]
    exact ⟨fun hr => h1 (allReads.sub hs hr), fun hr => h2 (allWrites.sub hs hr)⟩

theorem WindowDoes.cells {w : Span} {D : List DB} {ss : List (WStmt T)} {m m' : Mem T} (h : WindowOK m w D ss)
    (hd : WindowDoes (Reached D) w (D.map (·.1)) ss m m') : SameCells m m' := by
  refine ⟨hd.ints, fun z hz => ?_⟩
  by_cases hw : ∃ p, Reached D p ∧ allWrites w p ss z
  · obtain ⟨p, hp, hw⟩ := hw
    obtain ⟨mp, h1, h2⟩ := hd.at_ p hp
    obtain ⟨m1, h3, h4⟩ := h.runs (reached_inDom h.req hp)
    rw [h1, Except.ok.injEq] at h3
    rw [h2 z hw, h3]
    exact h4.2 z hz
  · rw [hd.frame z fun p hp e => hw ⟨p, hp, e⟩]; exact hz

/-- Two groups of statements in one `with_domain` do what they do in two, one after the other, each under a schedule of its own. -/
theorem C24_split {w : Span} {D : List DB} {ss ts : List (WStmt T)} {β β' β'' : Backend} {m : Mem T} (hβ : ValidBackend β)
    (hβ' : ValidBackend β') (hβ'' : ValidBackend β'') (hD : DomInt D) (h : WindowOK m w D (ss ++ ts)) :
    ∃ m1 m2, windowExec w D ss β m = .ok m1 ∧ windowExec w D ts β' m1 = .ok m2 ∧ windowExec w D (ss ++ ts) β'' m = .ok m2 := by
  obtain ⟨ha1, ha2⟩ := acceptable_append h.accept
  have s1 : ∀ s ∈ ss, s ∈ ss ++ ts := fun s hs => List.mem_append_left _ hs
  have s2 : ∀ s ∈ ts, s ∈ ss ++ ts := fun s hs => List.mem_append_right _ hs
  have hss := h.sub ha1 s1 ⟨rfl, fun _ hq => hq⟩
  obtain ⟨m1, e1, d1⟩ := window_run hβ hD hss
  have hts := h.sub ha2 s2 (d1.cells hss)
  obtain ⟨m2, e2, d2⟩ := window_run hβ' hD hts
  obtain ⟨m3, e3, d3⟩ := window_run hβ'' hD h
  refine ⟨m1, m2, e1, e2, ?_⟩
  rw [e3, Except.ok.injEq]
  refine d3.unique ⟨fun p hp => ?_, fun z hz => ?_, d2.ints.trans d1.ints⟩
  · obtain ⟨mp, r1, -⟩ := d3.at_ p hp
    refine ⟨mp, r1, fun z hz => ?_⟩
    rw [doStmts_append] at r1
    obtain ⟨ma, r2, r3⟩ := bind_inv r1
    have hpD := reached_inDom h.req hp
    -- nothing that point p looks at changes at another point
    have other : ∀ z, (allWrites w p (ss ++ ts) z ∨ allReads m.ints (D.map (·.1)) w p (ss ++ ts) z) → ∀ q, Reached D q →
        allWrites w q (ss ++ ts) z → ∀ x ∈ D, q x.1 = p x.1 := by
      intro z hz q hq hw
      by_contra hc
      push Not at hc
      obtain ⟨x, hx, hne⟩ := hc
      obtain ⟨g1, g2⟩ := h.sep q p (reached_inDom h.req hq) hpD ⟨x, hx, hne⟩ z hw
      rcases hz with hz | hz
      · exact g2 hz
      · exact g1 hz
    have agree : ∀ z, (allWrites w p (ss ++ ts) z ∨ allReads m.ints (D.map (·.1)) w p (ss ++ ts) z) → ma.val z = m1.val z := by
      intro z hz
      by_cases hw : allWrites w p ss z
      · obtain ⟨ma', r4, r5⟩ := d1.at_ p hp
        rw [r2, Except.ok.injEq] at r4
        subst r4
        exact (r5 z hw).symm
      · rw [(doStmts_only r2).2 z hw, d1.frame z]
        intro q hq hwq
        exact hw ((hss.toWindowFit.writes_pt (other z hz q hq (allWrites.sub s1 hwq))).1 hwq)
    obtain ⟨r', r4, r5⟩ := doStmts_congr (F := fun z => allWrites w p (ss ++ ts) z ∨ allReads m.ints (D.map (·.1)) w p (ss ++ ts) z)
      (ss := ts) (m := ma) (m' := m1) (fun s hs => ⟨fun q hq => .inl ⟨s, s2 s hs, hq⟩, fun q hq => .inr ⟨s, s2 s hs, .inl hq⟩,
        fun q hq => .inr ⟨s, s2 s hs, .inr (by rw [(doStmts_only r2).1] at hq; exact hq)⟩⟩)
      ⟨(doStmts_only r2).1.trans d1.ints.symm, agree⟩ r3
    by_cases hw : allWrites w p ts z
    · obtain ⟨r'', r6, r7⟩ := d2.at_ p hp
      rw [r4, Except.ok.injEq] at r6
      subst r6
      rw [r7 z hw]
      exact (r5.2 z (.inl hz)).symm
    · rw [(doStmts_only r3).2 z hw, agree z (.inl hz), d2.frame z]
      intro q hq hwq
      exact hw ((hts.toWindowFit.writes_pt (other z (.inl hz) q hq (allWrites.sub s2 hwq))).1 hwq)
  · rw [d2.frame z fun p hp hw => hz p hp (allWrites.sub s2 hw), d1.frame z fun p hp hw => hz p hp (allWrites.sub s1 hw)]

/-- after `st(0) = 2 * a, st(1) = (st(1) + st(0)) * a` the second entry at point 2 is (37 + 2*2) * 2 -/
example : ∃ m', windowExec exSt exInner exSets revBackend exWinMem = .ok m' ∧ m'.val (entryCell exSt (fun _ => 2) 1) = some 82 := by
  obtain ⟨m', h1, h2, -⟩ := C24_program_order revBackend_ok exInner_int (by unfold Divides; decide) exSets_ok.ok
  refine ⟨m', h1, ?_⟩
  obtain ⟨mp, h3, h4⟩ := h2 (fun _ => 2) (by unfold InDom IsPoint InRange; decide)
  rw [h4 _ ⟨_, by simp only [exSets]; exact List.mem_cons_of_mem _ List.mem_cons_self, List.mem_singleton_self _⟩]
  injection h3 with h3
  rw [← h3]; rfl

example : ∃ m1 m2, windowExec exSt exInner [exSets[0]] seqBackend exWinMem = .ok m1 ∧ windowExec exSt exInner [exSets[1]] revBackend m1 = .ok m2 ∧
    windowExec exSt exInner exSets revBackend exWinMem = .ok m2 :=
  C24_split seqBackend_ok revBackend_ok revBackend_ok exInner_int (ss := [exSets[0]]) (ts := [exSets[1]]) exSets_ok.ok

/-! ### C25 -/

/-- a stencil expression with every array replaced by its own number, every operation by concatenation -/
def tag : Proxy T → Proxy (List Nat)
  | .entry i => .entry i
  | .pp _ u v => .pp (arith (· ++ ·)) (tag u) (tag v)
  | .pn _ u _ => .pn (arith (· ++ ·)) (tag u) []
  | .np _ _ v => .np (arith (· ++ ·)) [] (tag v)
  | .pe _ u _ => .pe (arith (· ++ ·)) (tag u) (.acc (.span ⟨⟨0, 0⟩, []⟩))
  | .ep _ _ v => .ep (arith (· ++ ·)) (.acc (.span ⟨⟨0, 0⟩, []⟩)) (tag v)

theorem tag_index : ∀ {u : Proxy T}, (tag u).index = u.index
  | .entry _ => rfl
  | .pp _ u v => by simp only [tag, Proxy.index, tag_index (u := u), tag_index (u := v)]
  | .pn _ u _ => tag_index (u := u)
  | .np _ _ v => tag_index (u := v)
  | .pe _ u _ => by simp only [tag, Proxy.index, tag_index (u := u)]
  | .ep _ _ v => by simp only [tag, Proxy.index, tag_index (u := v)]

theorem tag_eval : ∀ (u : Proxy T), ∃ l, (tag u).eval (fun _ => .ok (.num [])) (fun j => .ok (.num [j])) = .ok (.num l) ∧
    l.length = u.iters.length ∧ ∀ off, l = List.range' off u.iters.length ↔ Matched u off
  | .entry _ => ⟨[], rfl, rfl, fun off => ⟨fun _ => trivial, fun _ => rfl⟩⟩
  | .pp _ u v => by
    obtain ⟨l, a1, a2, a3⟩ := tag_eval u
    obtain ⟨k, b1, b2, b3⟩ := tag_eval v
    refine ⟨l ++ k, by simp only [tag, Proxy.eval]; rw [a1, b1]; rfl, by simp [Proxy.iters, a2, b2], fun off => ?_⟩
    simp only [Proxy.iters, List.length_append, Matched]
    rw [← a3 off, ← b3 (off + u.iters.length), ← List.range'_append_1]
    constructor
    · intro h
      exact List.append_inj h (by rw [a2, List.length_range'])
    · rintro ⟨h1, h2⟩; rw [← h1, ← h2]
  | .pn _ u _ => by
    obtain ⟨l, a1, a2, a3⟩ := tag_eval u
    exact ⟨l, by simp only [tag, Proxy.eval]; rw [a1]; simp [M.ok_bind, arith], a2, a3⟩
  | .np _ _ v => by
    obtain ⟨l, a1, a2, a3⟩ := tag_eval v
    exact ⟨l, by simp only [tag, Proxy.eval]; rw [a1]; simp [M.ok_bind, arith], a2, a3⟩
  | .pe _ u _ => by
    obtain ⟨l, a1, a2, a3⟩ := tag_eval u
    refine ⟨l ++ [u.index], by simp only [tag, Proxy.eval, Proxy.index, tag_index, Nat.add_sub_cancel]; rw [a1]; rfl, by simp [Proxy.iters, a2], fun off => ?_⟩
    simp only [Proxy.iters, List.length_append, List.length_singleton, Matched]
    rw [← a3 off, ← List.range'_append_1, List.range'_one]
    constructor
    · intro h
      obtain ⟨h1, h2⟩ := List.append_inj h (by rw [a2, List.length_range'])
      exact ⟨h1, by simpa using h2⟩
    · rintro ⟨h1, h2⟩; rw [← h1, h2]
  | .ep _ _ v => by
    obtain ⟨k, b1, b2, b3⟩ := tag_eval v
    refine ⟨v.index :: k, by simp only [tag, Proxy.eval, Proxy.index, tag_index, Nat.add_sub_cancel]; rw [b1]; rfl, by simp [Proxy.iters, b2], fun off => ?_⟩
    simp only [Proxy.iters, List.length_cons, Matched]
    rw [← b3 (off + 1), List.range'_succ, List.cons.injEq]

/-- Exactly which stencil expressions read their arrays in place: number the arrays of the expression from left to right, let
every operation be concatenation; the library evaluates the expression to 0, 1, 2, ... if and only if the arrays are `InOrder`. -/
theorem C25_exactly {u : Proxy T} :
    (tag u).eval (fun _ => .ok (.num [])) (fun j => .ok (.num [j])) = .ok (.num (List.range u.iters.length)) ↔ InOrder u := by
  obtain ⟨l, h1, -, h3⟩ := tag_eval u
  rw [h1, Except.ok.injEq, Val.num.injEq, List.range_eq_range', h3]
  constructor
  · intro h
    rcases matched_inv h with h | h
    · exact matched_inv.noArray_inOrder h
    · exact h.2
  · exact InOrder.matched

/-- The part that holds: `st(i) = u` with the arrays of `u` in order stores the value `u` has with every array where it is written. -/
theorem C25_partial {w : Span} {D : List DB} {i : Int} {u : Proxy T} {β : Backend} {m : Mem T} (hβ : ValidBackend β) (hD : DomInt D)
    (hd : Divides D) (h : SetOK m w D [.set1 i (.proxy u)]) :
    ∃ m', windowExec w D [.set1 i (.proxy u)] β m = .ok m' ∧
      ∀ p, InDom D p → ∃ x, proxyDen m (D.map (·.1)) w p u = .ok (.num x) ∧ m'.val (entryCell w p i) = some x := by
  obtain ⟨m', h1, h2, -⟩ := C24_program_order hβ hD hd h.ok
  refine ⟨m', h1, fun p hp => ?_⟩
  obtain ⟨mp, h3, h4⟩ := h2 p hp
  rw [doStmts_one] at h3
  simp only [doStmt] at h3
  obtain ⟨x, h6, h3⟩ := bind_inv h3
  obtain ⟨y, rfl, h3⟩ := put_inv h3
  obtain ⟨rfl, -⟩ := store_inv h3
  refine ⟨y, h6, ?_⟩
  rw [h4 _ ⟨_, List.mem_singleton_self _, List.mem_singleton_self _⟩]
  exact if_pos rfl

/-- `st(0) = a * (st(1) + b)`: the library computes b * (st(1) + a). At point 2, st(1) is 37, a is 2 and b is 12: the value
meant is 98, the value stored is 468. -/
theorem C25_swap_false : ∃ m', windowExec exSt exInner
      [.set1 0 (.proxy (.ep (arith (· * ·)) (.acc (.span exLine)) (.pe (arith (· + ·)) (.entry 1) (.acc (.span exLine1)))))] seqBackend exWinMem = .ok m' ∧
    m'.val (entryCell exSt (fun _ => 2) 0) = some 468 ∧
    proxyDen exWinMem [Dim.I] exSt (fun _ => 2) (.ep (arith (· * ·)) (.acc (.span exLine)) (.pe (arith (· + ·)) (.entry 1) (.acc (.span exLine1)))) =
      .ok (.num 98) :=
  ⟨_, rfl, rfl, rfl⟩

/-- `st(0) = (st(0) + a) + (st(1) + b)`: the library adds a twice. -/
theorem C25_clash_false : ∃ m', windowExec exSt exInner
      [.set1 0 (.proxy (.pp (arith (· + ·)) (.pe (arith (· + ·)) (.entry 0) (.acc (.span exLine))) (.pe (arith (· + ·)) (.entry 1) (.acc (.span exLine1)))))]
        seqBackend exWinMem = .ok m' ∧
    m'.val (entryCell exSt (fun _ => 2) 0) = some 77 ∧
    proxyDen exWinMem [Dim.I] exSt (fun _ => 2)
      (.pp (arith (· + ·)) (.pe (arith (· + ·)) (.entry 0) (.acc (.span exLine))) (.pe (arith (· + ·)) (.entry 1) (.acc (.span exLine1)))) = .ok (.num 87) :=
  ⟨_, rfl, rfl, rfl⟩

/-! ### C26 -/

/-- Over the points 0 and 2, given as 0..2 with stride two, `st(0) = 7` is carried out at point 0 only. -/
theorem C26_false : ∃ m', windowExec exSt [(Dim.I, ⟨0, 3, 2⟩)] [.set1 0 (.num 7)] seqBackend exWinMem = .ok m' ∧
    InDom [(Dim.I, ⟨0, 3, 2⟩)] (fun _ => 2) ∧
    m'.val (entryCell exSt (fun _ => 0) 0) = some 7 ∧ m'.val (entryCell exSt (fun _ => 2) 0) = some 36 :=
  ⟨_, rfl, by unfold InDom IsPoint InRange; decide, rfl, rfl⟩

/-- What happens in general: the statements are carried out at the first ⌊n₁/s₁⌋ · ⌊n₂/s₂⌋ · ... points of the domain, and
nothing else changes. -/
theorem C26_reached {w : Span} {D : List DB} {ss : List (WStmt T)} {β : Backend} {m : Mem T} (hβ : ValidBackend β) (hD : DomInt D)
    (h : WindowOK m w D ss) :
    ∃ m', windowExec w D ss β m = .ok m' ∧
      (∀ p, Reached D p → ∃ mp, doStmts (D.map (·.1)) w p ss m = .ok mp ∧ ∀ z, allWrites w p ss z → m'.val z = mp.val z) ∧
      (∀ p, InDom D p → ¬ Reached D p → ∀ z, allWrites w p ss z → m'.val z = m.val z) := by
  obtain ⟨m', h1, h2⟩ := window_run hβ hD h
  refine ⟨m', h1, h2.at_, fun p hp hn z hz => h2.frame z fun q hq hw => ?_⟩
  by_cases hc : ∃ x ∈ D, p x.1 ≠ q x.1
  · exact (h.sep p q hp (reached_inDom h.req hq) hc z hz).2 hw
  · push Not at hc
    obtain ⟨k, k0, k1, hk⟩ := hq
    exact hn ⟨k, k0, k1, fun x hx => (hk x hx).trans (hc x hx).symm⟩

/-- The part that holds: every point is covered when each stride divides the number of indices from end to end, in particular
for stride one. -/
theorem C26_partial {w : Span} {D : List DB} {ss : List (WStmt T)} {β : Backend} {m : Mem T} (hβ : ValidBackend β) (hD : DomInt D)
    (hd : ∀ x ∈ D, x.2.stride ∣ x.2.last - x.2.first) (h : WindowOK m w D ss) :
    ∃ m', windowExec w D ss β m = .ok m' ∧
      ∀ p, InDom D p → ∃ mp, doStmts (D.map (·.1)) w p ss m = .ok mp ∧ ∀ z, allWrites w p ss z → m'.val z = mp.val z := by
  obtain ⟨m', h1, h2, -⟩ := C24_program_order hβ hD hd h
  exact ⟨m', h1, h2⟩

/-! ### C27 -/

/-- what `rhs -= v` needs: the arrays fit and are allocated, and no cell of `rhs` in the domain is an entry of the window or
read through an array of `v` -/
structure SubOK (m : Mem T) (w : Span) (D : List DB) (l : Span) (v : Proxy T) : Prop where
  geo : GeoOK w.geo
  req : ReqOK w.geo D
  len : w.geo.length = D.length + 1
  lhs : LhsOK l D
  ops : ∀ e ∈ v.iters, ExprOK m.ints D e ∧ e.isFine = false ∧ ∀ a ∈ arrays e, Allocated m a
  order : InOrder v
  typed : ProxyShape v .num
  walloc : Allocated m w
  lalloc : Allocated m l
  entries : ∀ i ∈ entries v, 0 ≤ i ∧ i < winLen w
  apart : ∀ p q, InDom D p → InDom D q → (∀ e ∈ v.iters, cell l p ∉ reads m.ints (D.map (·.1)) e q) ∧
    ∀ i ∈ Spec.entries v, cell l p ≠ entryCell w q i

theorem SubOK.ok {m : Mem T} {w : Span} {D : List DB} {l : Span} {v : Proxy T} {mul add : T → T → T} {one : T} (h : SubOK m w D l v) :
    WindowOK m w D [.subEq mul add one l v] where
  geo := h.geo
  req := h.req
  len := h.len
  accept := by
    have : v.iters.all (fun e => !e.isFine) = true := List.all_eq_true.2 fun e he => by rw [(h.ops e he).2.1]; rfl
    simp only [acceptable, WStmt.subEq, WStmt.isSelf, List.all_cons, List.all_nil, WStmt.operands, Proxy.iters, Proxy.neg, List.all_append,
      Bool.and_true, Bool.or_true, Bool.true_or, Bool.true_and, this]
    rfl
  ops := by
    intro s hs e he
    rw [List.mem_singleton] at hs; subst hs
    simp only [WStmt.subEq, WStmt.operands, Proxy.iters, Proxy.neg, List.mem_append, List.mem_singleton] at he
    rcases he with he | rfl
    · exact (h.ops e he).1
    · exact ⟨h.lhs.geo, h.lhs.req, h.lhs.len⟩
  lhs := by
    intro l' u hs
    simp only [WStmt.subEq, List.mem_singleton, WStmt.self.injEq] at hs
    rw [hs.1]; exact h.lhs
  order := by intro i u hs; simp [WStmt.subEq] at hs
  orderSelf := by
    intro l' u hs
    simp only [WStmt.subEq, List.mem_singleton, WStmt.self.injEq] at hs
    rw [hs.2]; exact h.order
  typed := by
    intro s hs
    rw [List.mem_singleton] at hs; subst hs
    exact .pe (.np h.typed opShape_arith_num) .acc opShape_arith_num
  walloc := h.walloc
  lalloc := by
    intro l' u hs
    simp only [WStmt.subEq, List.mem_singleton, WStmt.self.injEq] at hs
    rw [hs.1]; exact h.lalloc
  ralloc := by
    intro s hs e he
    rw [List.mem_singleton] at hs; subst hs
    simp only [WStmt.subEq, WStmt.operands, Proxy.iters, Proxy.neg, List.mem_append, List.mem_singleton] at he
    rcases he with he | rfl
    · exact (h.ops e he).2.2
    · intro a ha
      simp only [arrays, accArray, List.mem_singleton] at ha
      rw [ha]; exact h.lalloc
  entries := by
    intro s hs i hi
    rw [List.mem_singleton] at hs; subst hs
    exact h.entries i hi
  before := by
    intro p hp s hs e he hc q hq hw
    rw [List.mem_singleton] at hs; subst hs
    obtain ⟨t, ht, hw⟩ := hw
    rw [List.mem_singleton] at ht; subst ht
    simp only [WStmt.subEq, stmtWrites, List.mem_singleton] at hw
    subst hw
    simp only [WStmt.subEq, WStmt.operands, Proxy.iters, Proxy.neg, List.mem_append, List.mem_singleton] at he
    rcases he with he | rfl
    · exact (h.apart p p hp hp).1 e he hq
    · rcases hc with hc | ⟨i, j, r, hc⟩
      · cases hc
      · cases hc
  sep := by
    rintro p q hp hq ⟨x, hx, hne⟩ z ⟨t, ht, hw⟩
    rw [List.mem_singleton] at ht; subst ht
    simp only [WStmt.subEq, stmtWrites, List.mem_singleton] at hw
    subst hw
    refine ⟨?_, ?_⟩
    · rintro ⟨s, hs, hz⟩
      rw [List.mem_singleton] at hs; subst hs
      rcases hz with hz | hz
      · simp only [WStmt.subEq, stmtEntryReads, Spec.entries, Proxy.neg, List.mem_map] at hz
        obtain ⟨i, hi, e⟩ := hz
        exact (h.apart p q hp hq).2 i hi e.symm
      · simp only [WStmt.subEq, stmtArrayReads, WStmt.operands, Proxy.iters, Proxy.neg, List.mem_flatMap, List.mem_append, List.mem_singleton] at hz
        obtain ⟨e, he | rfl, hz⟩ := hz
        · exact (h.apart p q hp hq).1 e he hz
        · simp only [reads, accCell, List.mem_singleton] at hz
          exact hne (h.lhs.cell_inj hp hq hz x hx)
    · rintro ⟨s, hs, hz⟩
      rw [List.mem_singleton] at hs; subst hs
      simp only [WStmt.subEq, stmtWrites, List.mem_singleton] at hz
      exact hne (h.lhs.cell_inj hp hq hz x hx)

/-- `rhs -= v` for any stencil expression v with its arrays in order: each element of rhs in the domain has the value of v there
subtracted, nothing else changes, whatever the schedule. -/
theorem C27_subtract [Ring T] {w : Span} {D : List DB} {l : Span} {v : Proxy T} {β : Backend} {m : Mem T} (hβ : ValidBackend β) (hD : DomInt D)
    (hd : Divides D) (h : SubOK m w D l v) :
    ∃ m', windowExec w D [.subEq (· * ·) (· + ·) (-1) l v] β m = .ok m' ∧
      (∀ p, InDom D p → ∃ r x, m.val (cell l p) = some r ∧ proxyDen m (D.map (·.1)) w p v = .ok (.num x) ∧ m'.val (cell l p) = some (r - x)) ∧
      (∀ z, (∀ p, InDom D p → z ≠ cell l p) → m'.val z = m.val z) := by
  obtain ⟨m', h1, h2, h3⟩ := C24_program_order hβ hD hd (h.ok (mul := (· * ·)) (add := (· + ·)) (one := -1))
  refine ⟨m', h1, fun p hp => ?_, fun z hz => h3 z fun p hp hw => ?_⟩
  · obtain ⟨mp, h4, h5⟩ := h2 p hp
    obtain ⟨x, hx, hs⟩ := proxyDen_ok (m := m) (tab := m.ints) (D := D) (w := w) (p := p) h.typed (fun i hi => by
        obtain ⟨d, b, -, -, e, hin⟩ := h.ok (mul := (· * ·)) (add := (· + ·)) (one := -1) |>.toWindowFit.entry_inside hp (h.entries i hi).1 (h.entries i hi).2
        rw [e]; exact h.walloc _ hin) (fun e he => ⟨(h.ops e he).1, fun q hq => by
        obtain ⟨a, ha, p', hp', rfl⟩ := reads_elements hp (h.ops e he).1 q hq
        exact (h.ops e he).2.2 a ha p' hp'⟩)
    obtain ⟨x, rfl⟩ : ∃ y, x = .num y := by
      cases x with
      | num y => exact ⟨y, rfl⟩
      | pair a b => cases hs
    obtain ⟨r, hr⟩ := h.lalloc p (h.lhs.inside hp)
    have hr' : m.load (cell l p) = .ok r := by unfold Mem.load; rw [hr]
    refine ⟨r, x, hr, hx, ?_⟩
    rw [doStmts_one] at h4
    simp only [WStmt.subEq, doStmt, proxyDen, Proxy.neg, den, accCell] at h4
    rw [hx, M.ok_bind, hr', M.ok_bind] at h4
    simp only [arith, M.ok_bind, put] at h4
    obtain ⟨rfl, -⟩ := store_inv h4
    rw [h5 _ ⟨_, List.mem_singleton_self _, List.mem_singleton_self _⟩]
    simp only [if_true, Option.some.injEq]
    noncomm_ring
  · obtain ⟨s, hs, hw⟩ := hw
    rw [List.mem_singleton] at hs; subst hs
    simp only [WStmt.subEq, stmtWrites, List.mem_singleton] at hw
    exact hz p hp hw

/-- `rhs -= st(i) * u` with an array or shifted array u: rhs(p) - st(i, p) * u(p + shift). -/
theorem C27_self_update [Ring T] {w : Span} {D : List DB} {l : Span} {i : Int} {a : Acc} {β : Backend} {m : Mem T} {c u r : Pt → T} (hβ : ValidBackend β)
    (hD : DomInt D) (hd : Divides D) (h : SubOK m w D l (.pe (arith (· * ·)) (.entry i) (.acc a)))
    (hc : ∀ p, InDom D p → m.val (entryCell w p i) = some (c p)) (hu : ∀ p, InDom D p → m.val (accCell a p) = some (u p))
    (hr : ∀ p, InDom D p → m.val (cell l p) = some (r p)) :
    ∃ m', windowExec w D [.subEq (· * ·) (· + ·) (-1) l (.pe (arith (· * ·)) (.entry i) (.acc a))] β m = .ok m' ∧
      (∀ p, InDom D p → m'.val (cell l p) = some (r p - c p * u p)) ∧
      (∀ z, (∀ p, InDom D p → z ≠ cell l p) → m'.val z = m.val z) := by
  obtain ⟨m', h1, h2, h3⟩ := C27_subtract hβ hD hd h
  refine ⟨m', h1, fun p hp => ?_, h3⟩
  obtain ⟨r', x, g1, g2, g3⟩ := h2 p hp
  rw [hr p hp, Option.some.injEq] at g1
  simp only [proxyDen, den, Mem.load, hc p hp, hu p hp, M.ok_bind, arith, Except.ok.injEq, Val.num.injEq] at g2
  rw [g3, ← g1, ← g2]

/-- `rhs -= st(2) * a` on the line in block 1 -/
theorem exSub_ok : SubOK exWinMem exSt exInner exLine1 (.pe (arith (· * ·)) (.entry 2) (.acc (.shift Dim.I 1 (.span exLine)))) where
  geo := exDot_ok.ugeo
  req := exDot_ok.ureq
  len := rfl
  lhs := ⟨exDot_ok.vgeo, exDot_ok.vreq, rfl⟩
  ops := by
    intro e he
    simp only [Proxy.iters, List.nil_append, List.mem_singleton] at he
    subst he
    refine ⟨⟨?_, exDot_ok.vgeo, ?_, rfl⟩, rfl, ?_⟩
    · decide
    · exact { ne := by decide, nodup := by decide, nonempty := by decide, stride := by decide, inside := inside_of (by decide),
              fit := by decide, fit' := by decide, lead := by decide }
    · intro a ha
      simp only [arrays, accArray, List.mem_singleton] at ha
      subst ha; exact exLine_alloc
  order := trivial
  typed := .pe .entry .acc opShape_arith_num
  walloc := exSt_alloc
  lalloc := exLine_alloc
  entries := by decide
  apart := by
    intro p q _ _
    refine ⟨fun e he hr => ?_, fun i _ e => ?_⟩
    · simp only [Proxy.iters, List.nil_append, List.mem_singleton] at he
      subst he
      simp only [reads, accCell, List.mem_singleton, cell, Ptr.add, exLine1, exLine, Ptr.mk.injEq] at hr
      exact absurd hr.1 (by decide)
    · have := congrArg Ptr.blk e
      exact absurd this (by simp only [entryCell, exSt, cell, Ptr.add, exLine1, List.getLast?_cons_cons, List.getLast?_singleton]; decide)

example : ∃ m', windowExec exSt exInner [.subEq (· * ·) (· + ·) (-1) exLine1 (.pe (arith (· * ·)) (.entry 2) (.acc (.shift Dim.I 1 (.span exLine))))] revBackend exWinMem = .ok m' ∧
    m'.val (cell exLine1 fun _ => 2) = some (12 - 38 * 3) := by
  obtain ⟨m', h1, h2, -⟩ := C27_subtract revBackend_ok exInner_int (by unfold Divides; decide) exSub_ok
  refine ⟨m', h1, ?_⟩
  obtain ⟨r, x, g1, g2, g3⟩ := h2 (fun _ => 2) (by unfold InDom IsPoint InRange; decide)
  rw [g3]
  injection g1 with g1
  injection g2 with g2
  injection g2 with g2
  rw [← g1, ← g2]; rfl

end Verif
