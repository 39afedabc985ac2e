import Verif.Lemmas.Access

/-
C14, C18, C19, C20, C28, C30: what lazy expressions evaluate to.
-/

namespace Verif
open Spec

variable {T : Type}

/-! ### C14 -/

/-- An expression over spans, shifts, neighbour pairs, gradients, dot products and numbers, called with a domain: after any forward history
leading to element k the iterator dereferences to the value of the same expression at the k-th point of the domain, whatever
the operations are and whatever the arrays hold. -/
theorem C14_pointwise {tab : Ptr → Option Int} {D : List DB} {e : Expr T} (hD : DomInt D) (h : ExprOK tab D e)
    (hn : npts D ≤ 2147483647) :
    ∃ it, e.call D = .ok it ∧ ∀ ms, Fwd (npts D) 0 ms → ∃ i, runMoves ms it = .ok i ∧
      ∀ m : Mem T, m.ints = tab → i.deref m = den m (D.map (·.1)) e (pt D (net ms)) := by
  obtain ⟨st, h1, h2, h3⟩ := leads_expr hD h
  refine ⟨st 0, h1, fun ms hms => ⟨st (net ms), ?_, fun m hm => ?_⟩⟩
  · have := h2.run hn hms
    rwa [zero_add] at this
  · have := Fwd.last hms
    rw [zero_add] at this
    exact h3 m _ hm this.1 this.2

/-- The value at a point does not depend on anything but the cells named by `reads`. -/
theorem C14_reads {tab : Ptr → Option Int} {dims : List Dim} {e : Expr T} {p : Pt} {m m' : Mem T} (hm : m.ints = tab)
    (hm' : m'.ints = tab) (h : ∀ q ∈ reads tab dims e p, m.val q = m'.val q) : den m dims e p = den m' dims e p := by
  refine den_congr (hm.trans hm'.symm) ?_
  rw [hm]; exact h

/-- An expression the compiler accepts, on allocated arrays, has a value at every point of the domain. -/
theorem C14_value {m : Mem T} {D : List DB} {e : Expr T} {a : Shape} (hs : HasShape e a) (h : ExprOK m.ints D e)
    (ha : ∀ s ∈ arrays e, Allocated m s) {p : Pt} (hp : InDom D p) : ∃ x, den m (D.map (·.1)) e p = .ok x ∧ shapeOf x = a :=
  den_ok hs (fun q hq => by
    obtain ⟨s, hs', p', hp', rfl⟩ := reads_elements hp h q hq
    exact ha s hs' p' hp') h

/-- the component of a value at the lower (false) or upper (true) point of a stencil; a number is the same at both -/
def component : Val T → Bool → T
  | .num a, _ => a
  | .pair a _, false => a
  | .pair _ b, true => b

/-- The arithmetic operators combine, in this order, the components of the left and the right operand, and give a number only for two
numbers.  They fail for two pairs and for nothing else. -/
theorem C14_components (f : T → T → T) (x y : Val T) :
    (∀ z, arith f x y = .ok z → (∀ i, component z i = f (component x i) (component y i)) ∧ (shapeOf z = .num ↔ shapeOf x = .num ∧ shapeOf y = .num)) ∧
    ((∃ z, arith f x y = .ok z) ↔ shapeOf x = .num ∨ shapeOf y = .num) := by
  cases x <;> cases y <;> simp [arith, component, shapeOf]

/-- The same for a whole expression: the components of `e op t`, `t op e` and `e op g` at a point are those of the operands, combined in the order written. -/
theorem C14_operators {m : Mem T} {dims : List Dim} {e g : Expr T} {p : Pt} {t : T} {f : T → T → T} {x y : Val T} (hx : den m dims e p = .ok x)
    (hy : den m dims g p = .ok y) :
    (∀ z, den m dims (.left (arith f) e t) p = .ok z → ∀ i, component z i = f (component x i) t) ∧
    (∀ z, den m dims (.right (arith f) t e) p = .ok z → ∀ i, component z i = f t (component x i)) ∧
    (∀ z, den m dims (.zip (arith f) e g) p = .ok z → ∀ i, component z i = f (component x i) (component y i)) := by
  simp only [den, hx, hy, M.ok_bind]
  refine ⟨fun z hz => (((C14_components f x (.num t)).1 z hz).1), fun z hz => (((C14_components f (.num t) x).1 z hz).1), fun z hz => ((C14_components f x y).1 z hz).1⟩

example : arith (· - ·) (.num (5 : Int)) (.pair 1 2) = .ok (.pair 4 3) ∧ shapeOf (.pair (4 : Int) 3) = .pair := ⟨rfl, rfl⟩

example :
    let m : Mem Int := ⟨fun q => some (q.off * q.off), fun _ => none⟩
    let s : Span := ⟨⟨0, 0⟩, [(.I, ⟨0, 9, 1⟩)]⟩
    den m [.I] (.acc (.span s)) (fun _ => 3) = .ok (.num 9) ∧ den m [.I] (.stencil 1 .I s) (fun _ => 3) = .ok (.pair 9 16) ∧
    den m [.I] (.zip (arith (· - ·)) (.acc (.span s)) (.stencil 1 .I s)) (fun _ => 3) = .ok (.pair 0 (-7)) := ⟨rfl, rfl, rfl⟩

/-- a 3 x 4 array stored by rows of dimension J and one stored by rows of dimension I -/
def exA : Span := ⟨⟨1, 0⟩, [(Dim.J, ⟨0, 3, 1⟩), (Dim.I, ⟨0, 4, 1⟩)]⟩
def exB : Span := ⟨⟨2, 0⟩, [(Dim.I, ⟨0, 4, 1⟩), (Dim.J, ⟨0, 3, 1⟩)]⟩
/-- the points J = 0..1, I = 0..2 -/
def exD : List DB := [(Dim.J, ⟨0, 2, 1⟩), (Dim.I, ⟨0, 3, 1⟩)]

theorem exA_geo : GeoOK exA.geo where
  ne := by decide
  nodup := by decide
  unit := by decide
  nonempty := by decide
  fits := by decide
  int := by decide

theorem exB_geo : GeoOK exB.geo where
  ne := by decide
  nodup := by decide
  unit := by decide
  nonempty := by decide
  fits := by decide
  int := by decide

/-- the bounds-inside condition of a request can be tested dimension by dimension -/
theorem inside_of {geo D : List DB} (h : ∀ x ∈ D, ∀ g ∈ geo, g.1 = x.1 → g.2.first ≤ x.2.first ∧ x.2.last ≤ g.2.last) :
    ∀ x ∈ D, ∀ g, (x.1, g) ∈ geo → g.first ≤ x.2.first ∧ x.2.last ≤ g.last :=
  fun x hx g hg => h x hx (x.1, g) hg rfl

theorem exD_A : ReqOK exA.geo exD where
  ne := by decide
  nodup := by decide
  nonempty := by decide
  stride := by decide
  inside := inside_of (by decide)
  fit := by decide
  fit' := by decide
  lead := by decide

theorem exD_B : ReqOK exB.geo exD where
  ne := by decide
  nodup := by decide
  nonempty := by decide
  stride := by decide
  inside := inside_of (by decide)
  fit := by decide
  fit' := by decide
  lead := by decide

theorem exD_Bx : StencilOK 1 Dim.I exB exD where
  dir := by decide
  mem := by decide
  nonempty := by decide
  unit := by decide
  geo := exB_geo
  req := {
    ne := by decide
    nodup := by decide
    nonempty := by decide
    stride := by decide
    inside := inside_of (by decide)
    fit := by decide
    fit' := by decide
    lead := by decide }
  len := rfl

theorem exD_int : DomInt exD := by
  intro x hx
  simp only [exD, List.mem_cons, List.not_mem_nil, or_false] at hx
  rcases hx with rfl | rfl <;> decide

/-- `2 * a + b.grad_x(5)` -/
def exE : Expr Int :=
  .zip (arith (· + ·)) (.right (arith (· * ·)) 2 (.acc (.span exA))) (Expr.grad (· - ·) (· / ·) 1 Dim.I exB 5)

theorem exE_ok (tab : Ptr → Option Int) : ExprOK tab exD exE := ⟨⟨exA_geo, exD_A, rfl⟩, exD_Bx⟩

example (tab : Ptr → Option Int) : ∃ it, exE.call exD = .ok it ∧ ∀ ms, Fwd 6 0 ms → ∃ i, runMoves ms it = .ok i ∧
    ∀ m : Mem Int, m.ints = tab → i.deref m = den m [Dim.J, Dim.I] exE (pt exD (net ms)) :=
  C14_pointwise exD_int (exE_ok tab) (by decide)

/-- a memory in which cell `o` of block `b` holds `100 b + o * o` -/
def exMem : Mem Int := ⟨fun q => if 0 ≤ q.off ∧ q.off < 12 then some (100 * q.blk + q.off * q.off) else none, fun _ => none⟩

-- element 4 is the point J = 1, I = 1: a is at offset 5, b at offset 4 and its right neighbour at offset 7
example : den exMem [Dim.J, Dim.I] exE (pt exD 4) = .ok (.num (2 * (100 + 25) + ((200 + 49) - (200 + 16)) / 5)) := by decide

/-! ### C18 -/

/-- `grad` with `up` at a point p is (u(p + 1) - u(p)) / h along the named axis, for every storage order of u and every order the
domain is given in; the other dimensions may be strided. -/
theorem C18_up {tab : Ptr → Option Int} {D : List DB} {d : Dim} {s : Span} {sub div : T → T → T} {h : T} {u : Pt → T} (hD : DomInt D)
    (hs : StencilOK 1 d s D) (hn : npts D ≤ 2147483647) :
    ∃ it, (Expr.grad sub div 1 d s h).call D = .ok it ∧ ∀ ms, Fwd (npts D) 0 ms → ∃ i, runMoves ms it = .ok i ∧
      ∀ m : Mem T, m.ints = tab → (∀ p, Inside s.geo p → m.val (cell s p) = some (u p)) →
        i.deref m = .ok (.num (div (sub (u (shiftPt (pt D (net ms)) d 1)) (u (pt D (net ms)))) h)) := by
  obtain ⟨it, h1, h2⟩ := C14_pointwise (e := Expr.grad sub div 1 d s h) (tab := tab) hD hs hn
  refine ⟨it, h1, fun ms hms => ?_⟩
  obtain ⟨i, h3, h4⟩ := h2 ms hms
  refine ⟨i, h3, fun m hm hu => ?_⟩
  have hl := Fwd.last hms
  rw [zero_add] at hl
  have hdom : DomOK D := ⟨by have := hs.req.nodup; rwa [extDom_fst] at this, fun x hx => ⟨hs.nonempty x hx, by
    have := hs.req.stride _ (extDom_mem 1 d hx)
    split at this
    · exact this
    · exact this⟩⟩
  obtain ⟨e1, e2⟩ := stencil_elements hs (pt_inDom hdom hl.1 hl.2)
  rw [h4 m hm]
  have g1 := hu _ e1
  have g2 := hu _ e2
  simp only [lowPt, if_neg (show ¬ (1 : Int) < 0 by omega)] at g1 g2
  simp only [Expr.grad, den, lowPt, if_neg (show ¬ (1 : Int) < 0 by omega), Mem.load, g1, g2, M.ok_bind, gradOp]

/-- `grad` with `down` is (u(p) - u(p - 1)) / h. -/
theorem C18_down {tab : Ptr → Option Int} {D : List DB} {d : Dim} {s : Span} {sub div : T → T → T} {h : T} {u : Pt → T} (hD : DomInt D)
    (hs : StencilOK (-1) d s D) (hn : npts D ≤ 2147483647) :
    ∃ it, (Expr.grad sub div (-1) d s h).call D = .ok it ∧ ∀ ms, Fwd (npts D) 0 ms → ∃ i, runMoves ms it = .ok i ∧
      ∀ m : Mem T, m.ints = tab → (∀ p, Inside s.geo p → m.val (cell s p) = some (u p)) →
        i.deref m = .ok (.num (div (sub (u (pt D (net ms))) (u (shiftPt (pt D (net ms)) d (-1)))) h)) := by
  obtain ⟨it, h1, h2⟩ := C14_pointwise (e := Expr.grad sub div (-1) d s h) (tab := tab) hD hs hn
  refine ⟨it, h1, fun ms hms => ?_⟩
  obtain ⟨i, h3, h4⟩ := h2 ms hms
  refine ⟨i, h3, fun m hm hu => ?_⟩
  have hl := Fwd.last hms
  rw [zero_add] at hl
  have hdom : DomOK D := ⟨by have := hs.req.nodup; rwa [extDom_fst] at this, fun x hx => ⟨hs.nonempty x hx, by
    have := hs.req.stride _ (extDom_mem (-1) d hx)
    split at this
    · exact this
    · exact this⟩⟩
  obtain ⟨e1, e2⟩ := stencil_elements hs (pt_inDom hdom hl.1 hl.2)
  rw [h4 m hm]
  have g1 := hu _ e1
  have g2 := hu _ e2
  have hb : ∀ p : Pt, shiftPt (shiftPt p d (-1)) d 1 = p := by
    intro p; funext e
    simp only [shiftPt]
    split <;> omega
  simp only [lowPt, if_pos (show (-1 : Int) < 0 by omega), hb] at g1 g2
  simp only [Expr.grad, den, lowPt, if_pos (show (-1 : Int) < 0 by omega), hb, Mem.load, g1, g2, M.ok_bind, gradOp]

/-- No element other than the two neighbours is looked at. -/
theorem C18_reads {tab : Ptr → Option Int} {dims : List Dim} {d : Dim} {s : Span} {sub div : T → T → T} {h : T} {p : Pt} {m m' : Mem T}
    (hm : m.ints = tab) (hm' : m'.ints = tab) {S : Int} (hS : S = 1 ∨ S = -1)
    (h0 : m.val (cell s p) = m'.val (cell s p)) (h1 : m.val (cell s (shiftPt p d S)) = m'.val (cell s (shiftPt p d S))) :
    den m dims (Expr.grad sub div S d s h) p = den m' dims (Expr.grad sub div S d s h) p := by
  refine C14_reads hm hm' fun q hq => ?_
  simp only [Expr.grad, reads, List.mem_cons, List.not_mem_nil, or_false] at hq
  have hb : shiftPt (shiftPt p d (-1)) d 1 = p := by
    funext e
    simp only [shiftPt]
    split <;> omega
  rcases hS with rfl | rfl
  · simp only [lowPt, if_neg (show ¬ (1 : Int) < 0 by omega)] at hq
    rcases hq with rfl | rfl
    · exact h0
    · exact h1
  · simp only [lowPt, if_pos (show (-1 : Int) < 0 by omega), hb] at hq
    rcases hq with rfl | rfl
    · exact h1
    · exact h0

example : ∃ it, (Expr.grad (T := Int) (· - ·) (· / ·) 1 Dim.I exB 5).call exD = .ok it ∧ ∀ ms, Fwd 6 0 ms → ∃ i, runMoves ms it = .ok i ∧
    ∀ m : Mem Int, m.ints = (fun _ => none) → (∀ p, Inside exB.geo p → m.val (cell exB p) = some (p Dim.I * p Dim.I)) →
      i.deref m = .ok (.num (((shiftPt (pt exD (net ms)) Dim.I 1) Dim.I * (shiftPt (pt exD (net ms)) Dim.I 1) Dim.I -
        pt exD (net ms) Dim.I * pt exD (net ms) Dim.I) / 5)) :=
  C18_up exD_int exD_Bx (by decide)

/-! ### C19 -/

/-- a line of five cells holding their own index -/
def exLine : Span := ⟨⟨0, 0⟩, [(Dim.I, ⟨0, 5, 1⟩)]⟩
def exLineMem : Mem Int := ⟨fun q => if 0 ≤ q.off ∧ q.off < 5 then some q.off else none, fun _ => none⟩

/-- Over the points 0 and 2 (stride two) the gradient at 0 is u(2) - u(0): the neighbour is taken one stride away. -/
theorem C19_neighbour_false : ∃ it, (Expr.grad (T := Int) (· - ·) (· / ·) 1 Dim.I exLine 1).call [(Dim.I, ⟨0, 4, 2⟩)] = .ok it ∧
    it.deref exLineMem = .ok (.num 2) ∧ exLineMem.val (cell exLine fun _ => 1) = some 1 ∧ exLineMem.val (cell exLine fun _ => 0) = some 0 :=
  ⟨_, rfl, rfl, rfl, rfl⟩

/-- Over the points 0 and 2 given as 0..2 with stride two the gradient has one element only: moving to the second one gives a
pair that starts at cell 2 and ends outside the extended domain. -/
theorem C19_count_false : ∃ it i, (Expr.stencil (T := Int) 1 Dim.I exLine).call [(Dim.I, ⟨0, 3, 2⟩)] = .ok it ∧
    npts [(Dim.I, (⟨0, 3, 2⟩ : Bounds))] = 2 ∧ runMoves [.inc] it = .ok i ∧ i.deref exLineMem ≠ .ok (.pair 2 3) :=
  ⟨_, _, rfl, by decide, rfl, by decide⟩

/-- The part that holds: a unit stride along the axis of the gradient suffices, the other dimensions may be strided. -/
theorem C19_partial {tab : Ptr → Option Int} {D : List DB} {d : Dim} {s : Span} {sub div : T → T → T} {h : T} {u : Pt → T} (hD : DomInt D)
    (hg : GeoOK s.geo) (hr : ReqOK s.geo (extDom D d 1)) (hl : D.length = s.geo.length) (hm : d ∈ D.map (·.1))
    (hne : ∀ x ∈ D, x.2.first < x.2.last) (hu : (bnd D d).stride = 1) (hn : npts D ≤ 2147483647) :
    ∃ it, (Expr.grad sub div 1 d s h).call D = .ok it ∧ ∀ ms, Fwd (npts D) 0 ms → ∃ i, runMoves ms it = .ok i ∧
      ∀ m : Mem T, m.ints = tab → (∀ p, Inside s.geo p → m.val (cell s p) = some (u p)) →
        i.deref m = .ok (.num (div (sub (u (shiftPt (pt D (net ms)) d 1)) (u (pt D (net ms)))) h)) :=
  C18_up hD ⟨.inl rfl, hm, hne, hu, hg, hr, hl⟩ hn

/-! ### C20 -/

/-- the array shifted along several axes, outermost shift first -/
def shiftAll : List (Dim × Int) → Span → Acc
  | [], s => .span s
  | (d, k) :: l, s => .shift d k (shiftAll l s)

/-- A shifted array refers at p to the element at p plus the sum of the shifts. -/
theorem C20_translate : ∀ {l : List (Dim × Int)} {s : Span} {p : Pt},
    accCell (shiftAll l s) p = cell s fun d => p d + (l.map fun x => if d = x.1 then x.2 else 0).sum
  | [], s, p => by simp [shiftAll, accCell]
  | (d, k) :: l, s, p => by
    simp only [shiftAll, accCell]
    rw [C20_translate]
    congr 1
    funext e
    simp only [shiftPt, List.map_cons, List.sum_cons]
    split <;> omega

/-- The iterator of a shifted array is, element by element, at the shifted point. -/
theorem C20_call {l : List (Dim × Int)} {s : Span} {D : List DB} (hD : DomInt D) (h : AccOK (shiftAll l s) D) :
    ∃ v, (shiftAll l s).call D = .ok v ∧ v.size = .ok (npts D) ∧ ∀ k, 0 ≤ k → k < npts D → ∃ r, v.adv k = .ok r ∧
      r.addr = .ok (cell s fun d => pt D k d + (l.map fun x => if d = x.1 then x.2 else 0).sum) := by
  obtain ⟨v, hv, hb, hn, hat⟩ := acc_call hD h
  refine ⟨v, hv, by rw [MT.size_ok hb.toWF, hn]; rfl, fun k h0 h1 => ⟨v.at_ k, hb.adv h0 (by rw [hn]; exact le_of_lt h1), ?_⟩⟩
  rw [hat k h0 h1, C20_translate]

/-- Shifts along the same axis add. -/
theorem C20_add {d : Dim} {j k : Int} {a : Acc} {D : List DB} (hD : DomInt D)
    (h1 : ∀ x ∈ D, x.1 = d → InInt (x.2.first + j) ∧ InInt (x.2.last + j))
    (h2 : ∀ x ∈ D, x.1 = d → InInt (x.2.first + (j + k)) ∧ InInt (x.2.last + (j + k))) :
    (Acc.shift d j (.shift d k a)).call D = (Acc.shift d (j + k) a).call D := by
  simp only [Acc.call]
  rw [shiftDom_call hD h1, M.ok_bind, shiftDom_call hD h2, M.ok_bind, shiftDom_call (shiftDom_int hD h1), M.ok_bind]
  · congr 1
    unfold shiftDom
    rw [List.map_map]
    refine List.map_congr_left fun x _ => ?_
    by_cases e : x.1 = d
    · simp [Function.comp, e, add_assoc]
    · simp [Function.comp, e]
  · intro x hx e
    obtain ⟨y, hy, rfl⟩ := List.mem_map.1 hx
    by_cases e' : y.1 = d
    · rw [if_pos e']
      have := h2 y hy e'
      simpa only [add_assoc] using this
    · rw [if_neg e'] at e; exact absurd e e'

/-- Shifts along different axes commute. -/
theorem C20_comm {d e : Dim} {j k : Int} {a : Acc} {D : List DB} (hde : d ≠ e) (hD : DomInt D)
    (h1 : ∀ x ∈ D, x.1 = d → InInt (x.2.first + j) ∧ InInt (x.2.last + j))
    (h2 : ∀ x ∈ D, x.1 = e → InInt (x.2.first + k) ∧ InInt (x.2.last + k)) :
    (Acc.shift d j (.shift e k a)).call D = (Acc.shift e k (.shift d j a)).call D := by
  have key : ∀ {d e : Dim} {j k : Int}, d ≠ e → (∀ x ∈ D, x.1 = e → InInt (x.2.first + k) ∧ InInt (x.2.last + k)) →
      ∀ x ∈ shiftDom D d j, x.1 = e → InInt (x.2.first + k) ∧ InInt (x.2.last + k) := by
    intro d e j k hde h x hx hxe
    obtain ⟨y, hy, rfl⟩ := List.mem_map.1 hx
    by_cases e' : y.1 = d
    · rw [if_pos e'] at hxe; exact absurd (e'.symm.trans hxe) hde
    · rw [if_neg e'] at hxe ⊢; exact h y hy hxe
  simp only [Acc.call]
  rw [shiftDom_call hD h1, M.ok_bind, shiftDom_call hD h2, M.ok_bind, shiftDom_call (shiftDom_int hD h1) (key hde h2), M.ok_bind,
    shiftDom_call (shiftDom_int hD h2) (key (Ne.symm hde) h1), M.ok_bind]
  congr 1
  unfold shiftDom
  rw [List.map_map, List.map_map]
  refine List.map_congr_left fun x _ => ?_
  by_cases e1 : x.1 = d
  · have e2 : x.1 ≠ e := fun e2 => hde (e1.symm.trans e2)
    simp [Function.comp, e1, hde]
  · by_cases e2 : x.1 = e
    · simp [Function.comp, e2, Ne.symm hde]
    · simp [Function.comp, e1, e2]

/-- A shift by zero is the identity. -/
theorem C20_zero {d : Dim} {a : Acc} {D : List DB} (hD : DomInt D) : (Acc.shift d 0 a).call D = a.call D := by
  simp only [Acc.call]
  rw [shiftDom_call hD (fun x hx _ => by simpa using hD x hx), M.ok_bind]
  congr 1
  unfold shiftDom
  conv_rhs => rw [← List.map_id D]
  refine List.map_congr_left fun x _ => ?_
  split <;> simp

theorem exD_shift : AccOK (shiftAll [(Dim.I, 1), (Dim.J, 1)] exB) exD :=
  ⟨by
    intro x hx e
    simp only [exD, List.mem_cons, List.not_mem_nil, or_false] at hx
    rcases hx with rfl | rfl <;> decide, by
    intro x hx e
    simp only [exD, shiftDom, List.map_cons, List.map_nil, List.mem_cons, List.not_mem_nil, or_false] at hx
    rcases hx with rfl | rfl <;> decide, exB_geo, {
      ne := by decide
      nodup := by decide
      nonempty := by decide
      stride := by decide
      inside := inside_of (by decide)
      fit := by decide
      fit' := by decide
      lead := by decide }, rfl⟩

example : ∃ v, (shiftAll [(Dim.I, 1), (Dim.J, 1)] exB).call exD = .ok v ∧ v.size = .ok 6 := by
  obtain ⟨v, h1, h2, -⟩ := C20_call exD_int exD_shift
  exact ⟨v, h1, h2⟩

/-! ### C28 -/

/-- For every fine index below INT_MAX, negative ones included, the computed coarse index is the one coarse cell that contains
the fine cell: coarse cell c owns the fine cells r c, ..., r c + r - 1. -/
theorem C28_floor_partial {r fi : Int} (hr : 1 ≤ r) (h : InInt fi) (hM : fi < 2147483647) :
    ∃ c, coarseIndex r fi = .ok c ∧ ∀ c', (r * c' ≤ fi ∧ fi < r * c' + r) ↔ c' = c := by
  refine ⟨fi / r, coarseIndex_ok hr h hM, fun c' => ?_⟩
  constructor
  · rintro ⟨h1, h2⟩
    have h3 : c' ≤ fi / r := by rw [Int.le_ediv_iff_mul_le (by omega), mul_comm]; exact h1
    have h4 : fi / r < c' + 1 := by
      rw [Int.ediv_lt_iff_lt_mul (by omega)]
      have : (c' + 1) * r = r * c' + r := by ring
      omega
    omega
  · rintro rfl
    have := Int.mul_ediv_add_emod fi r
    have := Int.emod_nonneg fi (show r ≠ 0 by omega)
    have := Int.emod_lt_of_pos fi (show 0 < r by omega)
    constructor <;> omega

/-- The largest int is not covered: `fi + 1` is computed although its value is not used. -/
theorem C28_int_max_false {r : Int} (hr : 1 ≤ r) : coarseIndex r 2147483647 = .error .overflow := by
  have h1 : idiv 2147483647 r = .ok (Int.tdiv 2147483647 r) := by
    unfold idiv; rw [if_neg (by omega), chk_ok (tdiv_inInt hr (by decide))]
  unfold coarseIndex
  dsimp only
  rw [h1, M.ok_bind, if_neg (by decide), imul_ok (by
    have := tdiv_inInt (a := 2147483647) hr (by decide)
    simpa using this), M.ok_bind]
  rfl

example : coarseIndex 4 (-1) = .ok (-1) ∧ coarseIndex 4 (-4) = .ok (-1) ∧ coarseIndex 4 (-5) = .ok (-2) ∧ coarseIndex 4 3 = .ok 0 := by decide

/-! ### C30 -/

/-- The dot product of a coefficient array with an array seen through an offset table: at p the coefficients st(p, w) times
u(p + offset_w), accumulated from the first to the last window index; column 0 of the table displaces the last dimension of the domain, column N-1 the
first. -/
theorem C30_dot_partial {tab : Ptr → Option Int} {D : List DB} {zero : T} {acc : T → T → T → T} {u v : Span} {o : Ptr} {w : Dim} {b : Bounds}
    {fu fv : Pt → T} (hD : DomInt D) (h : DotOK tab u v o D) (hw : u.geo.getLast? = some (w, b)) (hn : npts D ≤ 2147483647) :
    ∃ it, (Expr.dot zero acc u v o).call D = .ok it ∧ ∀ ms, Fwd (npts D) 0 ms → ∃ i, runMoves ms it = .ok i ∧
      ∀ m : Mem T, m.ints = tab → (∀ p, Inside u.geo p → m.val (cell u p) = some (fu p)) →
        (∀ p, Inside v.geo p → m.val (cell v p) = some (fv p)) →
        i.deref m = .ok (.num ((List.range (b.last - b.first).toNat).foldl (fun r (j : Nat) =>
          acc r (fu (setPt (pt D (net ms)) w (b.first + j))) (fv (offPt tab o (D.map (·.1)) j (pt D (net ms))))) zero)) := by
  obtain ⟨it, h1, h2⟩ := C14_pointwise (e := Expr.dot zero acc u v o) (tab := tab) hD h hn
  refine ⟨it, h1, fun ms hms => ?_⟩
  obtain ⟨i, h3, h4⟩ := h2 ms hms
  refine ⟨i, h3, fun m hm hfu hfv => ?_⟩
  have hl := Fwd.last hms
  rw [zero_add] at hl
  have hp := pt_inDom h.vreq.dom hl.1 hl.2
  rw [h4 m hm]
  simp only [den, hw]
  have key : ∀ n : Nat, n ≤ (b.last - b.first).toNat → dotSum acc (fun i : Nat => m.load (cell u (setPt (pt D (net ms)) w (b.first + i))))
      (fun i => m.load (cell v (offPt m.ints o (D.map (·.1)) i (pt D (net ms))))) n zero =
      .ok ((List.range n).foldl (fun r (j : Nat) => acc r (fu (setPt (pt D (net ms)) w (b.first + j)))
        (fv (offPt tab o (D.map (·.1)) j (pt D (net ms))))) zero) := by
    intro n
    induction n with
    | zero => intro _; rfl
    | succ n ih =>
      intro hle
      obtain ⟨e1, e2⟩ := dot_elements h hp hw (i := n) (by omega)
      simp only [dotSum]
      rw [ih (by omega), M.ok_bind]
      simp only [Mem.load, hfu _ e1, hm, hfv _ e2, M.ok_bind]
      rw [List.range_succ, List.foldl_append]
      rfl
  rw [key _ (le_refl _), M.ok_bind]

/-- a coefficient array with a window of three entries per cell, an array, and the table (0), (-1), (1) -/
def exSt : Span := ⟨⟨3, 0⟩, [(Dim.I, ⟨0, 5, 1⟩), (Dim.W, ⟨0, 3, 1⟩)]⟩
def exTab : Ptr → Option Int := fun q => if q.blk = 9 then (if q.off = 0 then some 0 else if q.off = 1 then some (-1) else if q.off = 2 then some 1 else none) else none
def exInner : List DB := [(Dim.I, ⟨1, 4, 1⟩)]

theorem exDot_ok : DotOK exTab exSt exLine ⟨9, 0⟩ exInner where
  ugeo := { ne := by decide, nodup := by decide, unit := by decide, nonempty := by decide, fits := by decide, int := by decide }
  ureq := { ne := by decide, nodup := by decide, nonempty := by decide, stride := by decide, inside := inside_of (by decide),
            fit := by decide, fit' := by decide, lead := by decide }
  ulen := rfl
  vgeo := { ne := by decide, nodup := by decide, unit := by decide, nonempty := by decide, fits := by decide, int := by decide }
  vreq := { ne := by decide, nodup := by decide, nonempty := by decide, stride := by decide, inside := inside_of (by decide),
            fit := by decide, fit' := by decide, lead := by decide }
  vlen := rfl
  unit := by decide
  table := by
    intro w b hw i hi
    simp only [exSt, List.getLast?_cons_cons, List.getLast?_singleton, Option.some.injEq, Prod.mk.injEq] at hw
    obtain ⟨rfl, rfl⟩ := hw
    have hi : i < 3 := by simp only at hi; omega
    refine ⟨?_, ?_, ?_⟩
    · intro j hj
      have hj : j < 1 := hj
      obtain rfl : j = 0 := by omega
      have : i = 0 ∨ i = 1 ∨ i = 2 := by omega
      rcases this with rfl | rfl | rfl
      · exact ⟨0, rfl⟩
      · exact ⟨-1, rfl⟩
      · exact ⟨1, rfl⟩
    · intro k h0 h1
      have h1 : k < 3 := h1
      have hi3 : i = 0 ∨ i = 1 ∨ i = 2 := by omega
      have hk3 : k = 0 ∨ k = 1 ∨ k = 2 := by omega
      intro x hx
      simp only [exLine, List.mem_singleton] at hx
      subst hx
      rcases hi3 with rfl | rfl | rfl <;> rcases hk3 with rfl | rfl | rfl <;> exact ⟨by decide, by decide⟩
    · simp only [exInner, List.length_singleton]; push_cast; omega

example : ∃ it, (Expr.dot (0 : Int) (fun r a x => r + a * x) exSt exLine ⟨9, 0⟩).call exInner = .ok it := by
  obtain ⟨it, h, -⟩ := C30_dot_partial (fu := fun p => p Dim.I) (fv := fun p => p Dim.I) (zero := (0 : Int)) (acc := fun r a x => r + a * x) (by
    intro x hx
    simp only [exInner, List.mem_singleton] at hx
    subst hx; decide) exDot_ok rfl (by decide)
  exact ⟨it, h⟩

end Verif
