import Verif.Props.Expr
import Verif.Lemmas.Empty

/-
C15, C16, C17, C21, C22, C29, C31, C32: assignment statements.
-/

namespace Verif
open Spec

variable {T : Type}

/-! ### C15 -/

/-- what has to hold of a statement before it runs: the left hand side fits the domain, the operands fit, the arrays are allocated,
and no right hand side looks at a cell the statement writes at another point -/
structure StmtOK (m : Mem T) (D : List DB) (a : Assign T) : Prop where
  lhs : LhsOK a.lhs D
  rhs : RhsOK m.ints D a.rhs
  typed : RhsTyped a.rhs
  lalloc : Allocated m a.lhs
  ralloc : ∀ s ∈ rhsArrays a.rhs, Allocated m s
  noAlias : NoAlias m.ints a.lhs D a.rhs

/-- what a statement does: each element of the left hand side at a point of the domain gets the value the right hand side has
there in the memory before the statement; nothing else changes -/
structure Does (D : List DB) (a : Assign T) (m m' : Mem T) : Prop where
  at_ : ∀ p, InDom D p → ∃ v, rhsDen m (D.map (·.1)) a.rhs p = .ok v ∧ m'.val (cell a.lhs p) = some v
  frame : ∀ q, (∀ p, InDom D p → cell a.lhs p ≠ q) → m'.val q = m.val q
  ints : m'.ints = m.ints

theorem C15_assign {a : Assign T} {D : List DB} {β : Backend} {m : Mem T} (hβ : ValidBackend β) (hD : DomInt D) (h : StmtOK m D a) :
    ∃ m', a.exec D β m = .ok m' ∧ Does D a m m' := by
  have hv : ∀ p, ∃ v, InDom D p → rhsDen m (D.map (·.1)) a.rhs p = .ok v := by
    intro p
    by_cases hp : InDom D p
    · obtain ⟨v, hv⟩ := rhsDen_ok h.typed h.rhs h.ralloc hp
      exact ⟨v, fun _ => hv⟩
    · obtain ⟨v, -⟩ := h.lalloc (fun d => (bnd a.lhs.geo d).first) (by
        intro x hx
        have := h.lhs.geo.nonempty x hx
        show InRange x.2 (bnd a.lhs.geo x.1).first
        rw [bnd_eq h.lhs.geo.nodup hx]
        exact ⟨le_refl _, this⟩)
      exact ⟨v, fun hp' => absurd hp' hp⟩
  choose f hf using hv
  obtain ⟨m', h1, h2⟩ := assign_exec (f := f) hβ hD h.lhs h.rhs hf (fun p hp => h.lalloc p (h.lhs.inside hp)) h.noAlias
  exact ⟨m', h1, fun p hp => ⟨f p, hf p hp, h2.at_ p hp⟩, h2.frame, h2.ints⟩

/-- statements performed one after the other -/
inductive DoesAll (D : List DB) : List (Assign T) → Mem T → Mem T → Prop where
  | nil {m : Mem T} : DoesAll D [] m m
  | cons {a : Assign T} {as : List (Assign T)} {m m' m'' : Mem T} : Does D a m m' → DoesAll D as m' m'' → DoesAll D (a :: as) m m''

theorem Does.alloc {D : List DB} {a : Assign T} {m m' : Mem T} (h : Does D a m m') {s : Span} (hs : Allocated m s) : Allocated m' s := by
  intro p hp
  by_cases hq : ∃ q, InDom D q ∧ cell a.lhs q = cell s p
  · obtain ⟨q, hq, e⟩ := hq
    obtain ⟨v, -, hv⟩ := h.at_ q hq
    exact ⟨v, by rw [← e, hv]⟩
  · rw [h.frame _ fun q hq' e => hq ⟨q, hq', e⟩]
    exact hs p hp

theorem Does.stmt {D : List DB} {a b : Assign T} {m m' : Mem T} (h : Does D a m m') (hb : StmtOK m D b) : StmtOK m' D b where
  lhs := hb.lhs
  rhs := by rw [h.ints]; exact hb.rhs
  typed := hb.typed
  lalloc := h.alloc hb.lalloc
  ralloc := fun s hs => h.alloc (hb.ralloc s hs)
  noAlias := by rw [h.ints]; exact hb.noAlias

/-- `with_domain` with several statements: each sees what the previous ones stored. -/
theorem C15_statements {D : List DB} (hD : DomInt D) : ∀ {l : List (Assign T × Backend)} {m : Mem T},
    (∀ x ∈ l, ValidBackend x.2 ∧ StmtOK m D x.1) → ∃ m', withDomain D l m = .ok m' ∧ DoesAll D (l.map (·.1)) m m'
  | [], m, _ => ⟨m, rfl, .nil⟩
  | (a, β) :: l, m, h => by
    obtain ⟨hβ, ha⟩ := h (a, β) List.mem_cons_self
    obtain ⟨m1, h1, h2⟩ := C15_assign hβ hD ha
    obtain ⟨m2, h3, h4⟩ := C15_statements hD (l := l) (m := m1) fun x hx =>
      ⟨(h x (List.mem_cons_of_mem _ hx)).1, h2.stmt (h x (List.mem_cons_of_mem _ hx)).2⟩
    refine ⟨m2, ?_, .cons h2 h4⟩
    simp only [withDomain, h1, M.ok_bind, h3]

/-- A statement without explicit domain (or with an empty one) runs over all elements of its left hand side. -/
theorem C15_lhs_domain {a : Assign T} {β : Backend} {m : Mem T} (hβ : ValidBackend β) (hD : DomInt a.lhs.geo) (h : StmtOK m a.lhs.geo a) :
    ∃ m', withLhsDomain a β m = .ok m' ∧
      (∀ p, Inside a.lhs.geo p → ∃ v, rhsDen m (a.lhs.geo.map (·.1)) a.rhs p = .ok v ∧ m'.val (cell a.lhs p) = some v) ∧
      (∀ q, (∀ p, Inside a.lhs.geo p → cell a.lhs p ≠ q) → m'.val q = m.val q) := by
  obtain ⟨m', h1, h2⟩ := C15_assign hβ hD h
  have hin : ∀ p, InDom a.lhs.geo p ↔ Inside a.lhs.geo p := fun p =>
    ⟨fun h x hx => (h x hx).1, fun hp x hx => ⟨hp x hx, by rw [h.lhs.geo.unit x hx]; exact one_dvd _⟩⟩
  exact ⟨m', h1, fun p hp => h2.at_ p ((hin p).2 hp), fun q hq => h2.frame q fun p hp => hq p ((hin p).1 hp)⟩

/-- the array a of the examples, 12 elements in block 0 -/
def exLhs : Span := ⟨⟨0, 0⟩, [(Dim.J, ⟨0, 3, 1⟩), (Dim.I, ⟨0, 4, 1⟩)]⟩

theorem exLhs_alloc {s : Span} (h0 : s.ptr.off = 0) (h : ∀ p, Inside s.geo p → 0 ≤ storeOff s.geo p ∧ storeOff s.geo p < 12) : Allocated exMem s := by
  intro p hp
  have := h p hp
  refine ⟨_, if_pos ?_⟩
  show 0 ≤ s.ptr.off + storeOff s.geo p ∧ s.ptr.off + storeOff s.geo p < 12
  omega

theorem exOff {p : Pt} : (Inside exA.geo p → 0 ≤ storeOff exA.geo p ∧ storeOff exA.geo p < 12) ∧
    (Inside exB.geo p → 0 ≤ storeOff exB.geo p ∧ storeOff exB.geo p < 12) := by
  constructor
  · intro hp
    have h1 := hp (Dim.J, ⟨0, 3, 1⟩) (by simp [exA])
    have h2 := hp (Dim.I, ⟨0, 4, 1⟩) (by simp [exA])
    simp only [InRange] at h1 h2
    simp only [storeOff, exA, lengths, List.map_cons, List.map_nil, rowMajor, List.prod_cons, List.prod_nil]
    omega
  · intro hp
    have h1 := hp (Dim.J, ⟨0, 3, 1⟩) (by simp [exB])
    have h2 := hp (Dim.I, ⟨0, 4, 1⟩) (by simp [exB])
    simp only [InRange] at h1 h2
    simp only [storeOff, exB, lengths, List.map_cons, List.map_nil, rowMajor, List.prod_cons, List.prod_nil]
    omega

/-- `c = 2 * a + b.grad_x(5)` -/
def exStmt : Assign Int := ⟨exLhs, .expr exE⟩

theorem exStmt_ok : StmtOK exMem exD exStmt where
  lhs := ⟨exA_geo, exD_A, rfl⟩
  rhs := exE_ok _
  typed := .zip (.right .acc opShape_arith_num) (.right .stencil opShape_grad) opShape_arith_num
  lalloc := exLhs_alloc rfl fun p => exOff.1
  ralloc := by
    intro s hs
    simp only [rhsArrays, exStmt, arrays, exE, Expr.grad, accArray, List.mem_append, List.mem_singleton] at hs
    rcases hs with rfl | rfl
    · exact exLhs_alloc rfl fun p => exOff.1
    · exact exLhs_alloc rfl fun p => exOff.2
  noAlias := by
    intro p q _ _ hr
    exfalso
    simp only [rhsReads, exStmt, exE, Expr.grad, reads, accCell, List.mem_append, List.mem_cons, List.not_mem_nil, or_false] at hr
    simp [cell, exLhs, exA, exB, Ptr.add] at hr

example : ∃ m', exStmt.exec exD seqBackend exMem = .ok m' ∧ Does exD exStmt exMem m' := C15_assign seqBackend_ok exD_int exStmt_ok

/-! ### C16 -/

theorem Does.unique {D : List DB} {a : Assign T} {m m' m'' : Mem T} (h : Does D a m m') (h' : Does D a m m'') : m' = m'' := by
  have hval : m'.val = m''.val := by
    funext q
    by_cases hq : ∃ p, InDom D p ∧ cell a.lhs p = q
    · obtain ⟨p, hp, rfl⟩ := hq
      obtain ⟨v, h1, h2⟩ := h.at_ p hp
      obtain ⟨v', h3, h4⟩ := h'.at_ p hp
      rw [h1, Except.ok.injEq] at h3
      rw [h2, h4, h3]
    · rw [h.frame q fun p hp e => hq ⟨p, hp, e⟩, h'.frame q fun p hp e => hq ⟨p, hp, e⟩]
  have hint : m'.ints = m''.ints := h.ints.trans h'.ints.symm
  cases m'; cases m''
  cases hval; cases hint; rfl

/-- Whatever two backends do, the memory is the same afterwards. -/
theorem C16_schedule {a : Assign T} {D : List DB} {β β' : Backend} {m : Mem T} (hβ : ValidBackend β) (hβ' : ValidBackend β') (hD : DomInt D)
    (h : StmtOK m D a) : ∃ m', a.exec D β m = .ok m' ∧ a.exec D β' m = .ok m' := by
  obtain ⟨m1, h1, h2⟩ := C15_assign hβ hD h
  obtain ⟨m2, h3, h4⟩ := C15_assign hβ' hD h
  exact ⟨m1, h1, by rw [h3, h2.unique h4]⟩

/-- The same for a list of statements with a backend choosing anew for each. -/
theorem C16_statements {D : List DB} (hD : DomInt D) : ∀ {l l' : List (Assign T × Backend)} {m : Mem T},
    (∀ x ∈ l, ValidBackend x.2 ∧ StmtOK m D x.1) → (∀ x ∈ l', ValidBackend x.2) → l.map (·.1) = l'.map (·.1) →
    ∃ m', withDomain D l m = .ok m' ∧ withDomain D l' m = .ok m'
  | [], [], m, _, _, _ => ⟨m, rfl, rfl⟩
  | [], _ :: _, _, _, _, e => by cases e
  | _ :: _, [], _, _, _, e => by cases e
  | (a, β) :: l, (a', β') :: l', m, h, h', e => by
    simp only [List.map_cons, List.cons.injEq] at e
    obtain ⟨rfl, e⟩ := e
    obtain ⟨hβ, ha⟩ := h (a, β) List.mem_cons_self
    obtain ⟨m1, h1, h2⟩ := C15_assign hβ hD ha
    obtain ⟨m1', h1', h2'⟩ := C15_assign (h' (a, β') List.mem_cons_self) hD ha
    obtain ⟨m2, h3, h4⟩ := C16_statements hD (l := l) (l' := l') (m := m1)
      (fun x hx => ⟨(h x (List.mem_cons_of_mem _ hx)).1, h2.stmt (h x (List.mem_cons_of_mem _ hx)).2⟩)
      (fun x hx => h' x (List.mem_cons_of_mem _ hx)) e
    refine ⟨m2, ?_, ?_⟩
    · simp only [withDomain, h1, M.ok_bind, h3]
    · simp only [withDomain, h1', M.ok_bind, ← h2.unique h2', h4]

/-- the last element first, reached by single steps -/
def revBackend : Backend := fun n c =>
  ⟨(seqBackend n c).trace.reverse, fun k => List.replicate k.toNat .inc, fun k => List.replicate k.toNat .inc⟩

theorem fwd_incs {n : Int} : ∀ {j : Nat} {p : Int}, 0 ≤ p → p + j < n → Fwd n p (List.replicate j .inc) ∧ net (List.replicate j .inc) = j
  | 0, p, h0, h1 => ⟨⟨h0, by simpa using h1⟩, rfl⟩
  | j + 1, p, h0, h1 => by
    obtain ⟨h2, h3⟩ := fwd_incs (n := n) (j := j) (p := p + 1) (by omega) (by push_cast at h1; omega)
    refine ⟨⟨⟨h0, by push_cast at h1; omega⟩, by simp [delta], h2⟩, ?_⟩
    simp only [net, List.replicate_succ, List.map_cons, List.sum_cons, delta] at h3 ⊢
    rw [h3]; push_cast; omega

theorem revBackend_ok : ValidBackend revBackend := by
  intro n c
  refine ⟨fun k => ?_, fun k h0 h1 => ?_, fun k h0 h1 => ?_⟩
  · simp only [revBackend]
    rw [List.count_reverse]
    exact (seqBackend_ok n c).once k
  all_goals
    obtain ⟨h2, h3⟩ := fwd_incs (n := n) (j := k.toNat) (p := 0) (le_refl _) (by omega)
    exact ⟨h2, by show net (List.replicate k.toNat .inc) = k; omega⟩

example : ∃ m', exStmt.exec exD seqBackend exMem = .ok m' ∧ exStmt.exec exD revBackend exMem = .ok m' :=
  C16_schedule seqBackend_ok revBackend_ok exD_int exStmt_ok

/-! ### C17 -/

/-- `u = u.shift_x(1)` on a line of cells holding their own index -/
def exAlias : Assign Int := ⟨exLine, .expr (.acc (.shift Dim.I 1 (.span exLine)))⟩

/-- Two legal schedules with different results: everything fits, is allocated and type checks; only `NoAlias` is violated. -/
theorem C17_aliasing : ValidBackend seqBackend ∧ ValidBackend revBackend ∧
    (∃ m', exAlias.exec [(Dim.I, ⟨0, 3, 1⟩)] seqBackend exLineMem = .ok m' ∧ m'.val (cell exLine fun _ => 0) = some 1) ∧
    (∃ m', exAlias.exec [(Dim.I, ⟨0, 3, 1⟩)] revBackend exLineMem = .ok m' ∧ m'.val (cell exLine fun _ => 0) = some 3) :=
  ⟨seqBackend_ok, revBackend_ok, ⟨_, rfl, rfl⟩, ⟨_, rfl, rfl⟩⟩

/-- Conversely, a statement that meets the other conditions and gives two results reads a cell it writes elsewhere. -/
theorem C17_only_aliasing {a : Assign T} {D : List DB} {β β' : Backend} {m : Mem T} (hβ : ValidBackend β) (hβ' : ValidBackend β') (hD : DomInt D)
    (h1 : LhsOK a.lhs D) (h2 : RhsOK m.ints D a.rhs) (h3 : RhsTyped a.rhs) (h4 : Allocated m a.lhs) (h5 : ∀ s ∈ rhsArrays a.rhs, Allocated m s)
    (hne : a.exec D β m ≠ a.exec D β' m) :
    ∃ p q, InDom D p ∧ InDom D q ∧ cell a.lhs p ≠ cell a.lhs q ∧ cell a.lhs p ∈ rhsReads m.ints (D.map (·.1)) a.rhs q := by
  by_contra hc
  refine hne ?_
  obtain ⟨m', e1, e2⟩ := C16_schedule hβ hβ' hD (a := a) (m := m) ⟨h1, h2, h3, h4, h5, fun p q hp hq hr => by
    by_contra hd
    exact hc ⟨p, q, hp, hq, hd, hr⟩⟩
  rw [e1, e2]

/-! ### C21 -/

/-- The iterator over a strided domain visits each point `first, first + stride, ...` exactly once. -/
theorem C21_points {s : Span} {D : List DB} (h : LhsOK s D) : ∃ v, s.call D = .ok v ∧ v.size = .ok (npts D) ∧
    (∀ k, 0 ≤ k → k < npts D → ∃ r p, v.adv k = .ok r ∧ InDom D p ∧ r.addr = .ok (cell s p)) ∧
    ∀ p, InDom D p → ∃ k, 0 ≤ k ∧ k < npts D ∧ (∃ r, v.adv k = .ok r ∧ r.addr = .ok (cell s p)) ∧
      ∀ j, 0 ≤ j → j < npts D → (∃ r, v.adv j = .ok r ∧ r.addr = .ok (cell s p)) → j = k := by
  obtain ⟨v, hv, hb, hn, -, hat⟩ := call_ok (it := s.ptr) h.geo h.req
  have hdom := h.req.dom
  have hcell : ∀ {k}, 0 ≤ k → k < npts D → v.adv k = .ok (v.at_ k) ∧ (v.at_ k).addr = .ok (cell s (pt D k)) := by
    intro k h0 h1
    exact ⟨hb.adv h0 (by rw [hn]; exact le_of_lt h1), (hat k h0 h1 (pt D k) (fun _ _ => rfl) (by
      rw [List.drop_eq_nil_of_le (by have := h.len; omega)]; intro x hx; cases hx)).1⟩
  refine ⟨v, hv, by rw [MT.size_ok hb.toWF, hn]; rfl, fun k h0 h1 => ⟨_, pt D k, (hcell h0 h1).1, pt_inDom hdom h0 h1, (hcell h0 h1).2⟩, fun p hp => ?_⟩
  obtain ⟨k, k0, k1, hk⟩ := pt_surj hdom hp
  have e : cell s (pt D k) = cell s p := cell_congr (full_agree h.req h.len hk)
  refine ⟨k, k0, k1, ⟨_, (hcell k0 k1).1, by rw [(hcell k0 k1).2, e]⟩, ?_⟩
  rintro j j0 j1 ⟨r, h1, h2⟩
  rw [(hcell j0 j1).1, Except.ok.injEq] at h1
  rw [← h1, (hcell j0 j1).2, Except.ok.injEq] at h2
  exact pt_inj hdom j0 j1 k0 k1 (h.cell_inj (pt_inDom hdom j0 j1) (pt_inDom hdom k0 k1) (h2.trans e.symm))

/-- An assignment over a strided domain stores at these points and leaves the elements in between as they were. -/
theorem C21_between {a : Assign T} {D : List DB} {β : Backend} {m : Mem T} (hβ : ValidBackend β) (hD : DomInt D) (h : StmtOK m D a) :
    ∃ m', a.exec D β m = .ok m' ∧
      (∀ p, InDom D p → ∃ v, rhsDen m (D.map (·.1)) a.rhs p = .ok v ∧ m'.val (cell a.lhs p) = some v) ∧
      (∀ p, Inside a.lhs.geo p → ¬ InDom D p → m'.val (cell a.lhs p) = m.val (cell a.lhs p)) := by
  obtain ⟨m', h1, h2⟩ := C15_assign hβ hD h
  refine ⟨m', h1, h2.at_, fun p hp hnp => h2.frame _ fun q hq e => hnp ?_⟩
  have e' : storeOff a.lhs.geo q = storeOff a.lhs.geo p := by
    simp only [cell, Ptr.add, Ptr.mk.injEq] at e; omega
  have := storeOff_inj (h.lhs.inside hq) hp e'
  intro x hx
  obtain ⟨g, hg⟩ := h.lhs.req.mem_geo hx
  rw [← this (x.1, g) hg]
  exact hq x hx

/-- every second column of a, every second row -/
def exStrided : List DB := [(Dim.I, ⟨1, 4, 2⟩), (Dim.J, ⟨0, 3, 2⟩)]

theorem exStrided_ok : LhsOK exLhs exStrided := ⟨exA_geo, {
      ne := by decide
      nodup := by decide
      nonempty := by decide
      stride := by decide
      inside := inside_of (by decide)
      fit := by decide
      fit' := by decide
      lead := by decide }, rfl⟩

example : ∃ v, exLhs.call exStrided = .ok v ∧ v.size = .ok 4 := by
  obtain ⟨v, h1, h2, -⟩ := C21_points exStrided_ok
  exact ⟨v, h1, h2⟩

example : ∃ m', (⟨exLhs, .num 7⟩ : Assign Int).exec exStrided revBackend exMem = .ok m' ∧
    (∀ p, Inside exLhs.geo p → ¬ InDom exStrided p → m'.val (cell exLhs p) = exMem.val (cell exLhs p)) := by
  obtain ⟨m', h1, -, h2⟩ := C21_between (a := (⟨exLhs, .num 7⟩ : Assign Int)) (m := exMem) revBackend_ok (by
    intro x hx
    simp only [exStrided, List.mem_cons, List.not_mem_nil, or_false] at hx
    rcases hx with rfl | rfl <;> decide) ⟨exStrided_ok, trivial, trivial, exLhs_alloc rfl (fun p => exOff.1), fun s hs => (by cases hs), fun p q _ _ hr => (by cases hr)⟩
  exact ⟨m', h1, h2⟩

/-! ### C22 -/

/-- A domain with exactly one empty dimension, or with one that is empty by less than a stride (`last = first` in
particular): if the statement runs to its end the memory is unchanged.  Missing from the full statement: domains with two or more dimensions
whose upper bound lies further below the lower one, for which it is false. -/
theorem C22_empty_partial {a : Assign T} {D : List DB} {β : Backend} {m m' : Mem T} (hβ : ValidBackend β) (hd : (D.map (·.1)).Nodup)
    (hl : D.length = a.lhs.geo.length) (hm : ∀ x ∈ D, x.1 ∈ a.lhs.geo.map (·.1)) (hs : ∀ x ∈ D, 1 ≤ x.2.stride) {x : DB} (hx : x ∈ D)
    (he : x.2.last ≤ x.2.first)
    (h : x.2.first < x.2.last + x.2.stride ∨ ∀ y ∈ D, y.1 ≠ x.1 → y.2.first < y.2.last) (hex : a.exec D β m = .ok m') : m' = m := by
  refine exec_none hβ (fun v n hv hn => ?_) hex
  have h1 := callHelper_inv hv hd hl hm
  have h2 := prodLoop_inv hn
  rw [List.drop_zero, h1, one_mul] at h2
  rw [h2]
  rcases h with h | h
  · rw [prod_zero hx (rawExtent_one he h)]
  · exact prod_one_neg hd hx (rawExtent_empty (hs x hx) he) fun y hy e => rawExtent_pos (hs y hy) (h y hy e)

-- rows 2 .. 0 of the array
example : ∃ m', (⟨exLhs, .num 7⟩ : Assign Int).exec [(Dim.J, ⟨2, 1, 1⟩), (Dim.I, ⟨0, 4, 1⟩)] revBackend exMem = .ok m' ∧ m' = exMem := by
  refine ⟨_, rfl, C22_empty_partial (a := (⟨exLhs, .num 7⟩ : Assign Int)) (D := [(Dim.J, ⟨2, 1, 1⟩), (Dim.I, ⟨0, 4, 1⟩)]) revBackend_ok
    (by decide) rfl (by decide) (by decide) (x := (Dim.J, ⟨2, 1, 1⟩)) (by decide) (by decide) (.inr (by decide)) rfl⟩

/-- an 8 x 8 array -/
def exBig : Span := ⟨⟨0, 0⟩, [(Dim.J, ⟨0, 8, 1⟩), (Dim.I, ⟨0, 8, 1⟩)]⟩

/-- Rows 3 .. 0 and columns 3 .. 0 (no point at all): the extents -2 and -2 multiply to 4 and four elements are overwritten. -/
theorem C22_two_empty_false : (∀ p, ¬ InDom [(Dim.J, ⟨3, 1, 1⟩), (Dim.I, (⟨3, 1, 1⟩ : Bounds))] p) ∧
    ∃ m' : Mem Int, (⟨exBig, .num 7⟩ : Assign Int).exec [(Dim.J, ⟨3, 1, 1⟩), (Dim.I, ⟨3, 1, 1⟩)] revBackend
      ⟨fun q => if 0 ≤ q.off ∧ q.off < 64 then some 0 else none, fun _ => none⟩ = .ok m' ∧
      m'.val ⟨0, 27⟩ = some 7 ∧ m'.val ⟨0, 28⟩ = some 7 ∧ m'.val ⟨0, 29⟩ = some 7 ∧ m'.val ⟨0, 30⟩ = some 7 := by
  refine ⟨fun p hp => ?_, _, rfl, rfl, rfl, rfl, rfl⟩
  have := hp (Dim.J, ⟨3, 1, 1⟩) (by simp)
  simp only [IsPoint, InRange] at this
  omega

/-! ### C29 -/

/-- `f = c.fine(r, cb...)` over a line of fine cells: every fine cell gets the value of the coarse cell that contains it. -/
theorem C29_fine {f c : Span} {r : Int} {cb D : List DB} {β : Backend} {m : Mem T} (hβ : ValidBackend β) (hD : DomInt D) (hl : LhsOK f D)
    (hc : FineOK c r cb D) (hfa : Allocated m f) (hca : Allocated m c) (hne : f.ptr.blk ≠ c.ptr.blk) :
    ∃ m', (⟨f, .expr (.fine c r cb)⟩ : Assign T).exec D β m = .ok m' ∧
      (∀ p, InDom D p → ∃ v, m.val (cell c (finePt r cb p)) = some v ∧ m'.val (cell f p) = some v ∧ IsElement c (cell c (finePt r cb p))) ∧
      (∀ q, (∀ p, InDom D p → cell f p ≠ q) → m'.val q = m.val q) := by
  obtain ⟨m', h1, h2⟩ := C15_assign (a := ⟨f, .expr (.fine c r cb)⟩) hβ hD (m := m) ⟨hl, hc, .fine, hfa, by
    intro s hs
    simp only [rhsArrays, arrays, List.mem_singleton] at hs
    exact hs ▸ hca, by
    intro p q _ _ hr
    simp only [rhsReads, reads, List.mem_singleton] at hr
    have := congrArg Ptr.blk hr
    exact absurd this hne⟩
  refine ⟨m', h1, fun p hp => ?_, h2.frame⟩
  obtain ⟨v, h3, h4⟩ := h2.at_ p hp
  obtain ⟨s, hs, p', hp', e⟩ := reads_elements (T := T) (tab := m.ints) hp (e := .fine c r cb) hc _ (List.mem_singleton_self _)
  simp only [arrays, List.mem_singleton] at hs
  subst hs
  obtain ⟨w, hw⟩ := hca p' hp'
  have e' : cell s (finePt r cb p) = cell s p' := e
  refine ⟨v, ?_, h4, p', hp', e'⟩
  rw [e', hw]
  simp only [rhsDen, den, Mem.load] at h3
  have : m.val (cell s fun d => if d ∈ cb.map (·.1) then (bnd cb d).first else p d / r) = some w := by rw [← hw, ← e']; rfl
  rw [this] at h3
  simp only [M.ok_bind, Except.ok.injEq] at h3
  rw [h3]

/-- a coarse array with cells -2 .. 2 along I, and the fine cells -5 .. 5 with ratio 3 -/
def exCoarse : Span := ⟨⟨1, 0⟩, [(Dim.J, ⟨0, 2, 1⟩), (Dim.I, ⟨-2, 3, 1⟩)]⟩
def exFine : Span := ⟨⟨0, 0⟩, [(Dim.J, ⟨4, 5, 1⟩), (Dim.I, ⟨-6, 6, 1⟩)]⟩
def exFineD : List DB := [(Dim.J, ⟨4, 5, 1⟩), (Dim.I, ⟨-5, 6, 1⟩)]

theorem exFine_ok : FineOK exCoarse 3 [(Dim.J, ⟨1, 2, 1⟩)] exFineD where
  ratio := by decide
  geo := { ne := by decide, nodup := by decide, unit := by decide, nonempty := by decide, fits := by decide, int := by decide }
  nodup := by decide
  cnodup := by decide
  len := rfl
  glen := rfl
  line := ⟨Dim.I, ⟨-5, 6, 1⟩, by decide, by decide, by decide, rfl, by decide, by decide, by decide⟩
  inside := by
    intro k h0 h1 x hx
    have h1 : k < 11 := h1
    simp only [exCoarse, List.mem_cons, List.not_mem_nil, or_false] at hx
    rcases hx with rfl | rfl
    · simp only [InRange, finePt]
      rw [if_pos (by decide)]; decide
    · simp only [InRange, finePt]
      rw [if_neg (by decide)]
      have : pt exFineD k Dim.I = -5 + 1 * (k % 11 / 1) := rfl
      rw [this]; omega

example (m : Mem Int) (hf : Allocated m exFine) (hc : Allocated m exCoarse) : ∃ m', (⟨exFine, .expr (.fine exCoarse 3 [(Dim.J, ⟨1, 2, 1⟩)])⟩ : Assign Int).exec exFineD revBackend m = .ok m' := by
  obtain ⟨m', h, -⟩ := C29_fine (m := m) (f := exFine) (D := exFineD) revBackend_ok (by
    intro x hx
    simp only [exFineD, List.mem_cons, List.not_mem_nil, or_false] at hx
    rcases hx with rfl | rfl <;> decide) ⟨{ ne := by decide, nodup := by decide, unit := by decide, nonempty := by decide, fits := by decide, int := by decide },
      { ne := by decide, nodup := by decide, nonempty := by decide, stride := by decide, inside := inside_of (by decide), fit := by decide,
        fit' := by decide, lead := by decide }, rfl⟩ exFine_ok hf hc (by decide)
  exact ⟨m', h⟩

/-! ### C31 -/

/-- a request with unit strides inside an array of fewer than 2^31 elements needs no further condition -/
theorem unit_req {geo D : List DB} (hg : GeoOK geo) (hne : D ≠ []) (hd : (D.map (·.1)).Nodup) (h : ∀ x ∈ D, x.2.first < x.2.last ∧ x.2.stride = 1)
    (hin : ∀ x ∈ D, ∀ g, (x.1, g) ∈ geo → g.first ≤ x.2.first ∧ x.2.last ≤ g.last) (hp : (geo.map (·.1)).Perm (D.map (·.1))) : ReqOK geo D where
  ne := hne
  nodup := hd
  nonempty := fun x hx => (h x hx).1
  stride := fun x hx => by rw [(h x hx).2]
  inside := hin
  fit := by
    intro x hx
    obtain ⟨g, hgm⟩ : ∃ g, (x.1, g) ∈ geo := by
      obtain ⟨y, hy, e⟩ := List.mem_map.1 (hp.mem_iff.2 (List.mem_map_of_mem (f := fun x : DB => x.1) hx))
      exact ⟨y.2, by rw [← e]; exact hy⟩
    have h1 := hin x hx g hgm
    have h2 := mem_le_prod hg.pos (g.last - g.first) (List.mem_map.2 ⟨(x.1, g), hgm, rfl⟩)
    have h3 := hg.fits
    have := (h x hx).2
    omega
  fit' := by
    intro x hx
    rw [(h x hx).2, mul_one]
    exact le_trans (drop_prod_le _ hg.pos) hg.fits
  lead := by
    have hlen : D.length = geo.length := by have := hp.length_eq; simpa using this.symm
    rw [hlen, List.take_length]; exact hp

/-- With unit strides nothing more than the size of the array is needed: a domain inside an array of fewer than 2^31 elements can be
iterated over by any history that stays between begin and end, and every element addressed, without an overflow. -/
theorem C31_unit_partial {s : Span} {D : List DB} (hg : GeoOK s.geo) (hne : D ≠ []) (hd : (D.map (·.1)).Nodup)
    (h : ∀ x ∈ D, x.2.first < x.2.last ∧ x.2.stride = 1) (hin : ∀ x ∈ D, ∀ g, (x.1, g) ∈ s.geo → g.first ≤ x.2.first ∧ x.2.last ≤ g.last)
    (hp : (s.geo.map (·.1)).Perm (D.map (·.1))) : ∃ v, s.call D = .ok v ∧ v.size = .ok (npts D) ∧ ∀ ms, Stays (npts D) 0 ms →
      ∃ r, runMoves ms v = .ok r ∧ (net ms < npts D → ∃ q, r.addr = .ok q) := by
  have hr := unit_req hg hne hd h hin hp
  have hlen : D.length = s.geo.length := by have := hp.length_eq; simpa using this.symm
  obtain ⟨v, hv, hb, hn, -, hat⟩ := call_ok (it := s.ptr) hg hr
  have hnp : v.n.prod = npts D := by rw [hn]; rfl
  refine ⟨v, hv, by rw [MT.size_ok hb.toWF, hn]; rfl, fun ms hms => ?_⟩
  have hlast := Stays.last hms
  rw [zero_add] at hlast
  have hw := (MT.walk hb.toWF).run (by have := hb.toWF.lt; omega) (p := 0) (ms := ms) (by rw [hnp]; exact hms)
  rw [← hb.eq_at, zero_add] at hw
  refine ⟨_, hw, fun hlt => ⟨_, (hat _ hlast.1 hlt (pt D (net ms)) (fun _ _ => rfl) ?_).1⟩⟩
  rw [List.drop_eq_nil_of_le (by omega)]; intro x hx; cases hx

/-- The same for a whole statement, any strides: the products of stride and extent the code forms have to fit (`ReqOK.fit`,
`ReqOK.fit'`, contained in `StmtOK`). -/
theorem C31_statement_partial {a : Assign T} {D : List DB} {β : Backend} {m : Mem T} (hβ : ValidBackend β) (hD : DomInt D) (h : StmtOK m D a) :
    a.exec D β m ≠ .error .overflow := by
  obtain ⟨m', h1, -⟩ := C15_assign hβ hD h
  rw [h1]; intro h; cases h

/-- Strides can overflow although the array is small and the domain lies inside: `ub - lb + stride` for a stride of INT_MAX, and the
product of a row length with the stride for rows of 2^30 elements and a stride of two. -/
theorem C31_stride_false :
    (⟨⟨0, 0⟩, [(Dim.I, ⟨0, 10, 1⟩)]⟩ : Span).call [(Dim.I, ⟨0, 10, 2147483647⟩)] = .error .overflow ∧
    (⟨⟨0, 0⟩, [(Dim.J, ⟨0, 1, 1⟩), (Dim.I, ⟨0, 1073741824, 1⟩)]⟩ : Span).call [(Dim.J, ⟨0, 1, 2⟩), (Dim.I, ⟨0, 1073741824, 1⟩)] = .error .overflow := by
  decide

example : ∃ v, exBig.call [(Dim.I, ⟨2, 7, 1⟩), (Dim.J, ⟨0, 8, 1⟩)] = .ok v ∧ v.size = .ok 40 := by
  obtain ⟨v, h1, h2, -⟩ := C31_unit_partial (s := exBig) (D := [(Dim.I, ⟨2, 7, 1⟩), (Dim.J, ⟨0, 8, 1⟩)])
    { ne := by decide, nodup := by decide, unit := by decide, nonempty := by decide, fits := by decide, int := by decide }
    (by decide) (by decide) (by decide) (inside_of (by decide)) (by decide)
  exact ⟨v, h1, h2⟩

/-! ### C32 -/

/-- No element outside the arrays of the right hand side is looked at. -/
theorem C32_reads {tab : Ptr → Option Int} {D : List DB} {e : Expr T} {p : Pt} (hp : InDom D p) (h : ExprOK tab D e) :
    ∀ q ∈ reads tab (D.map (·.1)) e p, ∃ s ∈ arrays e, IsElement s q := reads_elements hp h

/-- A statement runs to its end in a memory in which nothing but the elements of its own arrays is allocated: any other access would
be an error. -/
theorem C32_exec {a : Assign T} {D : List DB} {β : Backend} {m : Mem T} (hβ : ValidBackend β) (hD : DomInt D) (h : StmtOK m D a)
    {only : Mem T} (ho : only.ints = m.ints)
    (hon : ∀ q, only.val q ≠ none → ∃ s ∈ a.lhs :: rhsArrays a.rhs, IsElement s q)
    (hin : ∀ s ∈ a.lhs :: rhsArrays a.rhs, ∀ q, IsElement s q → only.val q = m.val q) :
    ∃ m', a.exec D β only = .ok m' ∧ ∀ q, m'.val q ≠ none → ∃ s ∈ a.lhs :: rhsArrays a.rhs, IsElement s q := by
  have key : ∀ s ∈ a.lhs :: rhsArrays a.rhs, Allocated m s → Allocated only s := fun s hs hal p hp => by
    rw [hin s hs _ ⟨p, hp, rfl⟩]; exact hal p hp
  obtain ⟨m', h1, h2⟩ := C15_assign (m := only) hβ hD (a := a) ⟨h.lhs, by rw [ho]; exact h.rhs, h.typed, key _ List.mem_cons_self h.lalloc,
    fun s hs => key s (List.mem_cons_of_mem _ hs) (h.ralloc s hs), by rw [ho]; exact h.noAlias⟩
  refine ⟨m', h1, fun q hq => ?_⟩
  by_cases hd : ∃ p, InDom D p ∧ cell a.lhs p = q
  · obtain ⟨p, hp, rfl⟩ := hd
    exact ⟨a.lhs, List.mem_cons_self, p, h.lhs.inside hp, rfl⟩
  · rw [h2.frame q fun p hp e => hd ⟨p, hp, e⟩] at hq
    exact hon q hq

example : ∃ m', exStmt.exec exD revBackend exMem = .ok m' := by
  obtain ⟨m', h, -⟩ := C15_assign revBackend_ok exD_int exStmt_ok
  exact ⟨m', h⟩

end Verif
