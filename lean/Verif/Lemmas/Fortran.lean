import Verif.Spec.Fortran
import Verif.Props.Assign

/-
Comparing assignment statements of the library with Fortran loops: both leave the same memory.
-/

namespace Verif
open Spec

variable {T : Type}

/-! ### arrays by index lists -/

/-- the cell of the element with the given indices, in storage order (slowest first) -/
def cellAt (s : Span) (idx : List Int) : Ptr :=
  s.ptr.add (rowMajor (lengths s.geo) (List.zipWith (fun i (x : DB) => i - x.2.first) idx s.geo))

theorem zipWith_map_self {α β γ : Type} {f : β → α → γ} {g : α → β} : ∀ {l : List α}, List.zipWith f (l.map g) l = l.map fun x => f (g x) x
  | [] => rfl
  | x :: l => by simp [zipWith_map_self (l := l)]

theorem cell_eq {s : Span} {p : Pt} : cell s p = cellAt s (s.geo.map fun x => p x.1) := by
  unfold cell cellAt storeOff
  rw [zipWith_map_self]

/-- the same array declared in Fortran -/
def farr (s : Span) : F.Arr := ⟨s.ptr, (s.geo.map fun x => (x.2.first, x.2.last - 1)).reverse⟩

theorem colMajor_append : ∀ {ds es : List (Int × Int)} {is js : List Int}, ds.length = is.length →
    F.colMajor (ds ++ es) (is ++ js) = F.colMajor ds is + (ds.map fun d => d.2 - d.1 + 1).prod * F.colMajor es js
  | [], es, [], js, _ => by simp [F.colMajor]
  | d :: ds, es, i :: is, js, h => by
    simp only [List.length_cons, Nat.add_right_cancel_iff] at h
    simp only [List.cons_append, F.colMajor, colMajor_append h, List.map_cons, List.prod_cons]
    ring
  | [], _, _ :: _, _, h => by cases h
  | _ :: _, _, [], _, h => by cases h

theorem colMajor_reverse : ∀ {geo : List DB} {idx : List Int}, idx.length = geo.length →
    F.colMajor (geo.map fun x => (x.2.first, x.2.last - 1)).reverse idx.reverse =
      rowMajor (lengths geo) (List.zipWith (fun i (x : DB) => i - x.2.first) idx geo)
  | [], [], _ => rfl
  | x :: geo, i :: idx, h => by
    simp only [List.length_cons, Nat.add_right_cancel_iff] at h
    simp only [List.map_cons, List.reverse_cons, lengths, List.zipWith_cons_cons, rowMajor]
    rw [colMajor_append (by simp [h]), colMajor_reverse h]
    simp only [F.colMajor]
    have : (List.map (fun d : Int × Int => d.2 - d.1 + 1) (List.map (fun x : DB => (x.2.first, x.2.last - 1)) geo).reverse).prod
        = (geo.map fun x => x.2.last - x.2.first).prod := by
      rw [List.map_reverse, List.prod_reverse, List.map_map]
      congr 1
      refine List.map_congr_left fun x _ => ?_
      simp only [Function.comp_apply]
      omega
    rw [this]
    unfold lengths
    ring
  | [], _ :: _, h => by cases h
  | _ :: _, [], h => by cases h

/-- address without the bounds check -/
def F.Arr.addrT (a : F.Arr) (is : List Int) : Ptr := a.ptr.add (F.colMajor a.dims is)

theorem addrT_farr {s : Span} {is : List Int} (h : is.length = s.geo.length) : (farr s).addrT is = cellAt s is.reverse := by
  have := colMajor_reverse (geo := s.geo) (idx := is.reverse) (by simpa using h)
  rw [List.reverse_reverse] at this
  unfold F.Arr.addrT farr cellAt
  rw [this]

theorem inBounds_length : ∀ {ds : List (Int × Int)} {is : List Int}, F.InBounds ds is → is.length = ds.length
  | [], [], _ => rfl
  | _ :: _, _ :: _, h => by simp [inBounds_length h.2]

/-- an index list as a point -/
def idxPt (geo : List DB) (idx : List Int) : Pt := fun d => (idx[(geo.map (·.1)).idxOf d]?).getD 0

theorem idxPt_map {geo : List DB} {idx : List Int} (hn : (geo.map (·.1)).Nodup) (hl : idx.length = geo.length) :
    (geo.map fun x => idxPt geo idx x.1) = idx := by
  refine List.ext_getElem (by simp [hl]) fun k h1 h2 => ?_
  rw [List.getElem_map]
  unfold idxPt
  have hk : k < geo.length := by simpa using h1
  have : (geo.map (·.1)).idxOf geo[k].1 = k := by
    have := List.Nodup.idxOf_getElem hn k (by simpa using hk)
    rwa [List.getElem_map] at this
  rw [this, List.getElem?_eq_getElem h2]
  rfl

theorem inBounds_append : ∀ {ds es : List (Int × Int)} {is js : List Int}, ds.length = is.length →
    (F.InBounds (ds ++ es) (is ++ js) ↔ F.InBounds ds is ∧ F.InBounds es js)
  | [], es, [], js, _ => by simp [F.InBounds]
  | d :: ds, es, i :: is, js, h => by
    simp only [List.length_cons, Nat.add_right_cancel_iff] at h
    simp only [List.cons_append, F.InBounds, inBounds_append h, and_assoc]
  | [], _, _ :: _, _, h => by cases h
  | _ :: _, _, [], _, h => by cases h

theorem inBounds_reverse : ∀ {ds : List (Int × Int)} {is : List Int}, is.length = ds.length → (F.InBounds ds.reverse is.reverse ↔ F.InBounds ds is)
  | [], [], _ => Iff.rfl
  | d :: ds, i :: is, h => by
    simp only [List.length_cons, Nat.add_right_cancel_iff] at h
    rw [List.reverse_cons, List.reverse_cons, inBounds_append (by simp [h]), inBounds_reverse h, F.InBounds]
    simp only [F.InBounds, and_true]
    exact and_comm
  | [], _ :: _, h => by cases h
  | _ :: _, [], h => by cases h

theorem inBounds_inside : ∀ {geo : List DB} {p : Pt}, F.InBounds (geo.map fun x => (x.2.first, x.2.last - 1)) (geo.map fun x => p x.1) ↔ Inside geo p
  | [], p => by simp [F.InBounds, Inside]
  | x :: geo, p => by
    have := inBounds_inside (geo := geo) (p := p)
    simp only [List.map_cons, F.InBounds, this, Inside, List.mem_cons, forall_eq_or_imp, InRange]
    constructor
    · rintro ⟨h1, h2⟩; exact ⟨by omega, h2⟩
    · rintro ⟨h1, h2⟩; exact ⟨by omega, h2⟩

/-- an element of the Fortran array is an element of the span -/
theorem farr_inside {s : Span} {is : List Int} (hn : (s.geo.map (·.1)).Nodup) (h : F.InBounds (farr s).dims is) :
    ∃ p, Inside s.geo p ∧ (farr s).addrT is = cell s p ∧ s.geo.map (fun x => p x.1) = is.reverse := by
  have hl : is.length = s.geo.length := by have := inBounds_length h; simpa [farr] using this
  have hm := idxPt_map (idx := is.reverse) hn (by simpa using hl)
  refine ⟨idxPt s.geo is.reverse, ?_, ?_, hm⟩
  · rw [← inBounds_inside, hm, ← inBounds_reverse (by simp [hl]), List.reverse_reverse]
    exact h
  · rw [addrT_farr hl, cell_eq, hm]

/-! ### expressions as total functions -/

section
variable [Zero T]

/-- contents of a cell, zero outside every allocation -/
def ld (m : Mem T) (q : Ptr) : T := (m.val q).getD 0

def okOr (x : M (Val T)) : Val T :=
  match x with
  | .ok v => v
  | .error _ => .num 0

/-- value of an expression, disregarding errors -/
def denT (m : Mem T) (dims : List Dim) : Expr T → Pt → Val T
  | .acc a, p => .num (ld m (accCell a p))
  | .stencil S d s, p => .pair (ld m (cell s (lowPt S d p))) (ld m (cell s (shiftPt (lowPt S d p) d 1)))
  | .right op t e, p => okOr (op (.num t) (denT m dims e p))
  | .left op e t, p => okOr (op (denT m dims e p) (.num t))
  | .zip op e f, p => okOr (op (denT m dims e p) (denT m dims f p))
  | .dot z a u v o, p => okOr (den m dims (.dot z a u v o) p)
  | .fine s r cb, p => okOr (den m dims (.fine s r cb) p)

def Val.first : Val T → T
  | .num a => a
  | .pair a _ => a

def rhsT (m : Mem T) (dims : List Dim) : Rhs T → Pt → T
  | .num t, _ => t
  | .expr e, p => (denT m dims e p).first

theorem load_ld {m : Mem T} {q : Ptr} {v : T} (h : m.load q = .ok v) : ld m q = v := by
  unfold Mem.load at h
  unfold ld
  cases hq : m.val q with
  | none => rw [hq] at h; cases h
  | some w => rw [hq] at h; injection h with h

theorem ld_some {m : Mem T} {q : Ptr} (h : ∃ v, m.val q = some v) : m.val q = some (ld m q) := by
  obtain ⟨v, hv⟩ := h
  unfold ld
  rw [hv]; rfl

theorem denT_eq {m : Mem T} {dims : List Dim} {p : Pt} : ∀ {e : Expr T} {v : Val T}, den m dims e p = .ok v → denT m dims e p = v
  | .acc a, v, h => by
    simp only [den] at h
    obtain ⟨x, h1, h2⟩ := bind_inv h
    injection h2 with h2
    rw [denT, load_ld h1, h2]
  | .stencil S d s, v, h => by
    simp only [den] at h
    obtain ⟨x, h1, h⟩ := bind_inv h
    obtain ⟨y, h2, h3⟩ := bind_inv h
    injection h3 with h3
    rw [denT, load_ld h1, load_ld h2, h3]
  | .right op t e, v, h => by
    simp only [den] at h
    obtain ⟨x, h1, h2⟩ := bind_inv h
    rw [denT, denT_eq h1, h2]; rfl
  | .left op e t, v, h => by
    simp only [den] at h
    obtain ⟨x, h1, h2⟩ := bind_inv h
    rw [denT, denT_eq h1, h2]; rfl
  | .zip op e f, v, h => by
    simp only [den] at h
    obtain ⟨x, h1, h⟩ := bind_inv h
    obtain ⟨y, h2, h3⟩ := bind_inv h
    rw [denT, denT_eq h1, denT_eq h2, h3]; rfl
  | .dot z a u w o, v, h => by rw [denT, h]; rfl
  | .fine s r cb, v, h => by rw [denT, h]; rfl

theorem rhsT_eq {m : Mem T} {dims : List Dim} {r : Rhs T} {p : Pt} {v : T} (h : rhsDen m dims r p = .ok v) : rhsT m dims r p = v := by
  cases r with
  | num t => simp only [rhsDen, Except.ok.injEq] at h; exact h
  | expr e =>
    simp only [rhsDen] at h
    split at h
    · rename_i x hx
      injection h with h
      rw [rhsT, denT_eq hx, ← h]; rfl
    · cases h
    · cases h

end

namespace F
section
variable [Zero T] [Add T] [Sub T] [Mul T] [Div T] [Neg T]

/-- value of a Fortran expression, disregarding errors -/
def Expr.evalT (m : Mem T) : F.Expr T → T
  | .const t => t
  | .ref a is => ld m (a.addrT is)
  | .neg e => -e.evalT m
  | .add e f => e.evalT m + f.evalT m
  | .sub e f => e.evalT m - f.evalT m
  | .mul e f => e.evalT m * f.evalT m
  | .div e f => e.evalT m / f.evalT m

end

/-- the elements an expression refers to -/
def Expr.refs : F.Expr T → List (Arr × List Int)
  | .const _ => []
  | .ref a is => [(a, is)]
  | .neg e => e.refs
  | .add e f => e.refs ++ f.refs
  | .sub e f => e.refs ++ f.refs
  | .mul e f => e.refs ++ f.refs
  | .div e f => e.refs ++ f.refs

/-- a reference within bounds, to an allocated cell that is not in `A` -/
structure Good (m : Mem T) (A : Ptr → Prop) (r : Arr × List Int) : Prop where
  bounds : InBounds r.1.dims r.2
  alloc : ∃ v, m.val (r.1.addrT r.2) = some v
  other : ¬ A (r.1.addrT r.2)

section
variable [Zero T] [Add T] [Sub T] [Mul T] [Div T] [Neg T]

theorem eval_good {m m1 : Mem T} {A : Ptr → Prop} (hm : ∀ q, ¬ A q → m1.val q = m.val q) : ∀ {e : F.Expr T},
    (∀ r ∈ e.refs, Good m A r) → e.eval m1 = .ok (e.evalT m)
  | .const t, _ => rfl
  | .ref a is, h => by
    have h := h (a, is) (by simp [Expr.refs])
    have := ld_some h.alloc
    simp only [Expr.eval, Arr.addr, if_pos h.bounds, M.ok_bind, Expr.evalT]
    unfold Mem.load
    have e := hm _ h.other
    rw [this] at e
    simp only [Arr.addrT] at e
    rw [e]; rfl
  | .neg e, h => by simp only [Expr.eval, Expr.evalT]; rw [eval_good hm (e := e) h]; rfl
  | .add e f, h | .sub e f, h | .mul e f, h | .div e f, h => by
    simp only [Expr.refs, List.mem_append] at h
    simp only [Expr.eval, Expr.evalT]
    rw [eval_good hm (e := e) fun r hr => h r (.inl hr), eval_good hm (e := f) fun r hr => h r (.inr hr)]
    rfl

end

/-! ### loops as lists of points -/

/-- a statement for each point of a list -/
def runPts {P : Type} (L : List P) (stmt : P → Cmd T) : Cmd T := fun m => L.foldlM (fun m p => stmt p m) m

theorem mem_irange {lo hi i : Int} : i ∈ irange lo hi ↔ lo ≤ i ∧ i ≤ hi := by
  simp only [irange, List.mem_map, List.mem_range]
  constructor
  · rintro ⟨k, hk, rfl⟩; omega
  · intro h; exact ⟨(i - lo).toNat, by omega, by omega⟩

theorem foldlM_append' {P : Type} {f : Mem T → P → M (Mem T)} {l l' : List P} {m : Mem T} :
    (l ++ l').foldlM f m = (do let m' ← l.foldlM f m; l'.foldlM f m') := by
  induction l generalizing m with
  | nil => rfl
  | cons x l ih =>
    simp only [List.cons_append, List.foldlM_cons]
    cases f m x with
    | error e => rfl
    | ok m' => exact ih

theorem doLoop_pts {P : Type} {lo hi : Int} {body : Int → Cmd T} {L : Int → List P} {stmt : P → Cmd T}
    (h : ∀ i, lo ≤ i → i ≤ hi → body i = runPts (L i) stmt) : doLoop lo hi body = runPts ((irange lo hi).flatMap L) stmt := by
  funext m
  unfold doLoop
  have h' : ∀ i ∈ irange lo hi, body i = runPts (L i) stmt := fun i hi => h i (mem_irange.1 hi).1 (mem_irange.1 hi).2
  clear h
  revert h' m
  generalize irange lo hi = l
  induction l with
  | nil => intros; rfl
  | cons i is ih =>
    intro m h'
    have h1 := h' i List.mem_cons_self
    have ih := fun m => ih m fun j hj => h' j (List.mem_cons_of_mem _ hj)
    simp only [List.foldlM_cons, List.flatMap_cons, runPts, foldlM_append', h1]
    cases (L i).foldlM (fun m p => stmt p m) m with
    | error e => rfl
    | ok m' => exact ih m'

theorem runPts_single {P : Type} {p : P} {stmt : P → Cmd T} : runPts [p] stmt = stmt p := by
  funext m
  simp only [runPts, List.foldlM_cons, List.foldlM_nil]
  cases stmt p m <;> rfl

/-- nested loops, outermost first, around a statement that depends on the loop variables -/
def nest (stmt : Pt → Cmd T) : List (Dim × Int × Int) → Pt → Cmd T
  | [], p => stmt p
  | (d, lo, hi) :: r, p => doLoop lo hi fun i => nest stmt r (setPt p d i)

def nestPts : List (Dim × Int × Int) → Pt → List Pt
  | [], p => [p]
  | (d, lo, hi) :: r, p => (irange lo hi).flatMap fun i => nestPts r (setPt p d i)

theorem nest_eq {stmt : Pt → Cmd T} : ∀ {r : List (Dim × Int × Int)} {p : Pt}, nest stmt r p = runPts (nestPts r p) stmt
  | [], _ => runPts_single.symm
  | _ :: _, _ => doLoop_pts fun _ _ _ => nest_eq

theorem mem_nestPts : ∀ {r : List (Dim × Int × Int)} {p q : Pt}, (r.map (·.1)).Nodup →
    (q ∈ nestPts r p ↔ (∀ x ∈ r, x.2.1 ≤ q x.1 ∧ q x.1 ≤ x.2.2) ∧ ∀ d, d ∉ r.map (·.1) → q d = p d)
  | [], p, q, _ => by
    simp only [nestPts, List.mem_singleton, List.not_mem_nil, false_imp_iff, implies_true, List.map_nil, not_false_eq_true, true_and, forall_const]
    exact funext_iff
  | (d, lo, hi) :: r, p, q, hn => by
    simp only [List.map_cons, List.nodup_cons] at hn
    simp only [nestPts, List.mem_flatMap, mem_irange, mem_nestPts hn.2, List.mem_cons, forall_eq_or_imp, List.map_cons, not_or]
    constructor
    · rintro ⟨i, hi, h1, h2⟩
      have : q d = i := by rw [h2 d hn.1]; simp [setPt]
      refine ⟨⟨by omega, h1⟩, fun e he => ?_⟩
      rw [h2 e he.2]; simp [setPt, he.1]
    · rintro ⟨⟨h0, h1⟩, h2⟩
      refine ⟨q d, h0, h1, fun e he => ?_⟩
      by_cases h : e = d
      · subst h; simp [setPt]
      · rw [h2 e ⟨h, he⟩]; simp [setPt, h]

theorem nodup_irange {lo hi : Int} : (irange lo hi).Nodup :=
  List.Nodup.map (fun a b h => by simpa using h) List.nodup_range

theorem nodup_nestPts : ∀ {r : List (Dim × Int × Int)} {p : Pt}, (r.map (·.1)).Nodup → (nestPts r p).Nodup
  | [], p, _ => by simp [nestPts]
  | (d, lo, hi) :: r, p, hn => by
    simp only [List.map_cons, List.nodup_cons] at hn
    simp only [nestPts]
    rw [List.nodup_flatMap]
    refine ⟨fun i _ => nodup_nestPts hn.2, ?_⟩
    refine (nodup_irange (lo := lo) (hi := hi)).imp fun {i j} hij => ?_
    intro q h1 h2
    rw [mem_nestPts hn.2] at h1 h2
    have := h1.2 d hn.1
    rw [h2.2 d hn.1] at this
    simp [setPt] at this
    exact hij this.symm

end F

/-! ### statement against loop -/

/-- the cells a statement writes -/
def Writes (D : List DB) (s : Span) (q : Ptr) : Prop := ∃ p, InDom D p ∧ cell s p = q

section
variable [Zero T] [Add T] [Sub T] [Mul T] [Div T] [Neg T]

omit [Add T] [Sub T] [Mul T] [Div T] [Neg T] in
/-- A statement and a loop nest whose body, for each point of the domain, leaves the same value in the same cell and nothing else changed. -/
theorem loop_run {a : Assign T} {D : List DB} {β : Backend} {m : Mem T} (hβ : ValidBackend β) (hD : DomInt D) (h : StmtOK m D a)
    {r : List (Dim × Int × Int)} {p0 : Pt} {stmt : Pt → F.Cmd T} (hn : (r.map (·.1)).Nodup) (hr : ∀ d, d ∈ D.map (·.1) ↔ d ∈ r.map (·.1))
    (hb : ∀ p, InDom D p ↔ ∀ x ∈ r, x.2.1 ≤ p x.1 ∧ p x.1 ≤ x.2.2)
    (hs : ∀ p, InDom D p → ∀ m1 : Mem T, m1.ints = m.ints → (∀ q, ¬ (Writes D a.lhs q ∧ q ≠ cell a.lhs p) → m1.val q = m.val q) →
      stmt p m1 = .ok { m1 with val := fun q => if q = cell a.lhs p then some (rhsT m (D.map (·.1)) a.rhs p) else m1.val q }) :
    ∃ m', a.exec D β m = .ok m' ∧ F.nest stmt r p0 m = .ok m' ∧ Does D a m m' ∧
      ∀ p, InDom D p → m'.val (cell a.lhs p) = some (rhsT m (D.map (·.1)) a.rhs p) := by
  obtain ⟨m', h1, h2⟩ := C15_assign hβ hD h
  have hval : ∀ p, InDom D p → m'.val (cell a.lhs p) = some (rhsT m (D.map (·.1)) a.rhs p) := fun p hp => by
    obtain ⟨v, h3, h4⟩ := h2.at_ p hp
    rw [h4, rhsT_eq h3]
  -- distinct points of the loop have distinct cells
  have hcell : ∀ p q, p ∈ F.nestPts r p0 → q ∈ F.nestPts r p0 → cell a.lhs p = cell a.lhs q → p = q := fun p q hp hq e => by
    rw [F.mem_nestPts hn] at hp hq
    have := h.lhs.cell_inj ((hb p).2 hp.1) ((hb q).2 hq.1) e
    funext d
    by_cases hd : d ∈ r.map (·.1)
    · obtain ⟨x, hx, rfl⟩ := List.mem_map.1 ((hr d).2 hd)
      exact this x hx
    · rw [hp.2 d hd, hq.2 d hd]
  -- the loop: cells of the points done hold the new value, the others are as before
  have key : ∀ (L : List Pt), L.Nodup → (∀ p ∈ L, p ∈ F.nestPts r p0) →
      ∀ m1 : Mem T, m1.ints = m.ints → (∀ p ∈ L, m1.val (cell a.lhs p) = m.val (cell a.lhs p)) →
      (∀ q, m1.val q = m.val q ∨ (Writes D a.lhs q ∧ m1.val q = m'.val q)) →
      ∃ m2, F.runPts L stmt m1 = .ok m2 ∧ m2.ints = m.ints ∧ (∀ p ∈ L, m2.val (cell a.lhs p) = m'.val (cell a.lhs p)) ∧
        ∀ q, m2.val q = m1.val q ∨ (Writes D a.lhs q ∧ m2.val q = m'.val q) := by
    intro L
    induction L with
    | nil => intro _ _ m1 hi _ _; exact ⟨m1, rfl, hi, fun p hp => (by cases hp), fun q => .inl rfl⟩
    | cons p L ih =>
      intro hnd hL m1 hi hun hm
      rw [List.nodup_cons] at hnd
      have hpL := hL p List.mem_cons_self
      have hp : InDom D p := (hb p).2 ((F.mem_nestPts hn).1 hpL).1
      have hagree : ∀ q, ¬ (Writes D a.lhs q ∧ q ≠ cell a.lhs p) → m1.val q = m.val q := fun q hq => by
        by_cases he : q = cell a.lhs p
        · rw [he]; exact hun p List.mem_cons_self
        · exact (hm q).resolve_right fun x => hq ⟨x.1, he⟩
      have hstep := hs p hp m1 hi hagree
      obtain ⟨m2, g1, g2, g3, g4⟩ := ih hnd.2 (fun q hq => hL q (List.mem_cons_of_mem _ hq))
        { m1 with val := fun q => if q = cell a.lhs p then some (rhsT m (D.map (·.1)) a.rhs p) else m1.val q } hi (fun q hq => by
          dsimp only
          rw [if_neg, hun q (List.mem_cons_of_mem _ hq)]
          intro e
          have := hcell q p (hL q (List.mem_cons_of_mem _ hq)) hpL e
          subst this
          exact hnd.1 hq) (fun q => by
          dsimp only
          split
          · rename_i hq
            subst hq
            exact .inr ⟨⟨p, hp, rfl⟩, (hval p hp).symm⟩
          · exact hm q)
      refine ⟨m2, ?_, g2, fun q hq => ?_, fun q => ?_⟩
      · show (p :: L).foldlM (fun m p => stmt p m) m1 = _
        rw [List.foldlM_cons, hstep, M.ok_bind]
        exact g1
      · rcases List.mem_cons.1 hq with rfl | hq
        · rcases g4 (cell a.lhs q) with e | ⟨-, e⟩
          · rw [e]; dsimp only; rw [if_pos rfl, hval q hp]
          · exact e
        · exact g3 q hq
      · rcases g4 q with e | e
        · dsimp only at e
          split at e
          · rename_i hq
            subst hq
            exact .inr ⟨⟨p, hp, rfl⟩, by rw [e, hval p hp]⟩
          · exact .inl e
        · exact .inr e
  obtain ⟨m2, g1, g2, g3, g4⟩ := key _ (F.nodup_nestPts (p := p0) hn) (fun p hp => hp) m rfl (fun p _ => rfl) (fun q => .inl rfl)
  have : m2 = m' := by
    have hv : m2.val = m'.val := by
      funext q
      by_cases hq : Writes D a.lhs q
      · obtain ⟨p, hp, rfl⟩ := hq
        have hp' : (fun d => if d ∈ r.map (·.1) then p d else p0 d) ∈ F.nestPts r p0 := by
          rw [F.mem_nestPts hn]
          refine ⟨fun x hx => ?_, fun d hd => if_neg hd⟩
          rw [if_pos (List.mem_map_of_mem hx)]
          exact (hb p).1 hp x hx
        have : cell a.lhs p = cell a.lhs (fun d => if d ∈ r.map (·.1) then p d else p0 d) :=
          cell_congr (full_agree (p := p) (q := fun d => if d ∈ r.map (·.1) then p d else p0 d) h.lhs.req h.lhs.len fun x hx => by
            rw [if_pos ((hr x.1).1 (List.mem_map_of_mem hx))])
        rw [this, g3 _ hp']
      · rw [(g4 q).resolve_right fun x => hq x.1, h2.frame q fun p hp e => hq ⟨p, hp, e⟩]
    have hi : m2.ints = m'.ints := g2.trans h2.ints.symm
    cases m2; cases m'
    cases hv; cases hi; rfl
  subst this
  exact ⟨m2, h1, by rw [F.nest_eq]; exact g1, h2, hval⟩

/-- A statement and a loop nest that assigns, for each point of the domain, the same value to the same cell. -/
theorem loop_exec {a : Assign T} {D : List DB} {β : Backend} {m : Mem T} (hβ : ValidBackend β) (hD : DomInt D) (h : StmtOK m D a)
    {r : List (Dim × Int × Int)} {p0 : Pt} {stmt : Pt → F.Cmd T} (hn : (r.map (·.1)).Nodup) (hr : ∀ d, d ∈ D.map (·.1) ↔ d ∈ r.map (·.1))
    (hb : ∀ p, InDom D p ↔ ∀ x ∈ r, x.2.1 ≤ p x.1 ∧ p x.1 ≤ x.2.2)
    (hs : ∀ p, InDom D p → ∃ arr is e, stmt p = F.assign arr is e ∧ F.InBounds arr.dims is ∧ arr.addrT is = cell a.lhs p ∧
      (∀ r ∈ e.refs, F.Good m (fun q => Writes D a.lhs q ∧ q ≠ cell a.lhs p) r) ∧ e.evalT m = rhsT m (D.map (·.1)) a.rhs p) :
    ∃ m', a.exec D β m = .ok m' ∧ F.nest stmt r p0 m = .ok m' ∧ Does D a m m' ∧
      ∀ p, InDom D p → m'.val (cell a.lhs p) = some (rhsT m (D.map (·.1)) a.rhs p) := by
  refine loop_run hβ hD h hn hr hb fun p hp m1 hi hagree => ?_
  obtain ⟨arr, is, e, hst, hib, had, hg, hev⟩ := hs p hp
  obtain ⟨w, hw⟩ : ∃ w, m1.val (cell a.lhs p) = some w := by
    rw [hagree _ fun x => x.2 rfl]; exact h.lalloc p (h.lhs.inside hp)
  rw [hst]
  unfold F.assign
  rw [F.eval_good hagree hg, M.ok_bind, F.Arr.addr, if_pos hib, M.ok_bind]
  unfold F.Arr.addrT at had
  rw [had, Mem.store, hw, hev]

end

end Verif
