import Verif.Lemmas.Fortran
import Verif.Model.Kernels.Common

/-
Side conditions of kernel statements, for domains with stride one.
-/

namespace Verif
open Spec

variable {T : Type}

/-- an allocated array with a nonempty geometry whose element count and bounds fit an int -/
structure ArrOK (m : Mem T) (s : Span) : Prop where
  geo : GeoOK s.geo
  alloc : Allocated m s

/-- the arrays share no element -/
def Apart (s t : Span) : Prop := ∀ p q, Inside s.geo p → Inside t.geo q → cell s p ≠ cell t q

theorem Apart.symm {s t : Span} (h : Apart s t) : Apart t s := fun p q hp hq e => h q p hq hp e.symm

theorem ArrOK.of_alloc {m m' : Mem T} {s : Span} (h : ArrOK m s) (hm : ∀ q, (∃ v, m.val q = some v) → ∃ v, m'.val q = some v) : ArrOK m' s :=
  ⟨h.geo, fun p hp => hm _ (h.alloc p hp)⟩

/-- distinct dimensions, stride one, nonempty -/
structure UnitDom (D : List DB) : Prop where
  ne : D ≠ []
  nodup : (D.map (·.1)).Nodup
  bnds : ∀ x ∈ D, x.2.stride = 1 ∧ x.2.first < x.2.last

/-- the same dimensions in any order, each bound inside -/
structure Within (geo D : List DB) : Prop where
  perm : (geo.map (·.1)).Perm (D.map (·.1))
  inside : ∀ x ∈ D, ∀ g ∈ geo, g.1 = x.1 → g.2.first ≤ x.2.first ∧ x.2.last ≤ g.2.last

theorem length_le_prod : ∀ {ss : List Int}, Pos ss → ∀ s ∈ ss, s ≤ ss.prod
  | x :: ss, h, s, hs => by
    have hx := h x List.mem_cons_self
    have hp : Pos ss := fun y hy => h y (List.mem_cons_of_mem _ hy)
    have h1 : 1 ≤ ss.prod := hp.prod_pos
    rw [List.prod_cons]
    rcases List.mem_cons.1 hs with rfl | hs
    · nlinarith
    · have := length_le_prod hp s hs
      nlinarith

theorem Within.len {geo D : List DB} (h : Within geo D) : D.length = geo.length := by
  have := h.perm.length_eq
  simpa using this.symm

theorem Within.req {geo D : List DB} (hg : GeoOK geo) (hD : UnitDom D) (h : Within geo D) : ReqOK geo D where
  ne := hD.ne
  nodup := hD.nodup
  nonempty x hx := (hD.bnds x hx).2
  stride x hx := by rw [(hD.bnds x hx).1]
  inside x hx g hgm := h.inside x hx _ hgm rfl
  fit x hx := by
    have hm : x.1 ∈ geo.map (·.1) := h.perm.mem_iff.2 (List.mem_map_of_mem hx)
    obtain ⟨g, hgm, hge⟩ := List.mem_map.1 hm
    have := h.inside x hx g hgm hge
    have hl : g.2.last - g.2.first ≤ (lengths geo).prod := length_le_prod hg.pos _ (List.mem_map.2 ⟨g, hgm, rfl⟩)
    have hf := hg.fits
    rw [(hD.bnds x hx).1]
    omega
  fit' x hx := by
    rw [(hD.bnds x hx).1, mul_one]
    exact (drop_prod_le _ hg.pos).trans hg.fits
  lead := by
    have : D.length = geo.length := h.len
    rw [this, List.take_length]
    exact h.perm

theorem Within.int {geo D : List DB} (hg : GeoOK geo) (hD : UnitDom D) (h : Within geo D) : DomInt D := by
  intro x hx
  have hm : x.1 ∈ geo.map (·.1) := h.perm.mem_iff.2 (List.mem_map_of_mem hx)
  obtain ⟨g, hgm, hge⟩ := List.mem_map.1 hm
  have h1 := h.inside x hx g hgm hge
  have h2 := hg.int g hgm
  have h3 := (hD.bnds x hx).2
  unfold InInt at h2 ⊢
  omega

theorem UnitDom.ext {D : List DB} {d : Dim} {S : Int} (h : UnitDom D) : UnitDom (extDom D d S) where
  ne e := h.ne (List.map_eq_nil_iff.1 e)
  nodup := by rw [extDom_fst]; exact h.nodup
  bnds x hx := by
    obtain ⟨y, hy, rfl⟩ := List.mem_map.1 hx
    have := h.bnds y hy
    split
    · split
      · exact ⟨this.1, by show y.2.first - 1 < y.2.last; omega⟩
      · exact ⟨this.1, by show y.2.first < y.2.last + 1; omega⟩
    · exact this

theorem UnitDom.shift {D : List DB} {d : Dim} {k : Int} (h : UnitDom D) : UnitDom (shiftDom D d k) where
  ne e := h.ne (List.map_eq_nil_iff.1 e)
  nodup := by
    have : (shiftDom D d k).map (·.1) = D.map (·.1) := by
      unfold shiftDom
      rw [List.map_map]
      refine List.map_congr_left fun x _ => ?_
      simp only [Function.comp_apply]
      split <;> rfl
    rw [this]; exact h.nodup
  bnds x hx := by
    obtain ⟨y, hy, rfl⟩ := List.mem_map.1 hx
    have := h.bnds y hy
    split
    · exact ⟨this.1, by show y.2.first + k < y.2.last + k; omega⟩
    · exact this

/-- a (shifted) array covers the domain -/
def AccFit : Acc → List DB → Prop
  | .span s, D => Within s.geo D
  | .shift d k a, D => (∀ x ∈ D, x.1 = d → InInt (x.2.first + k) ∧ InInt (x.2.last + k)) ∧ AccFit a (shiftDom D d k)

theorem accOK_of : ∀ {a : Acc} {D : List DB}, GeoOK (accArray a).geo → UnitDom D → AccFit a D → AccOK a D
  | .span _, _, hg, hD, h => ⟨hg, Within.req hg hD h, Within.len h⟩
  | .shift _ _ a, _, hg, hD, h => ⟨h.1, accOK_of (a := a) hg hD.shift h.2⟩

/-- the arrays of an expression cover what it needs over a domain -/
def Fit (D : List DB) : Expr T → Prop
  | .acc a => AccFit a D
  | .stencil S d s => (S = 1 ∨ S = -1) ∧ d ∈ D.map (·.1) ∧ Within s.geo (extDom D d S)
  | .right _ _ e => Fit D e
  | .left _ e _ => Fit D e
  | .zip _ e f => Fit D e ∧ Fit D f
  | .dot _ _ _ _ _ => False
  | .fine _ _ _ => False

theorem exprOK_of {tab : Ptr → Option Int} {D : List DB} (hD : UnitDom D) : ∀ {e : Expr T}, (∀ s ∈ arrays e, GeoOK s.geo) → Fit D e → ExprOK tab D e
  | .acc a, hg, h => accOK_of (hg _ (by simp [arrays])) hD h
  | .stencil S d s, hg, h =>
    have hs := hg s (by simp [arrays])
    ⟨h.1, h.2.1, fun x hx => (hD.bnds x hx).2, (hD.bnds _ (bnd_mem h.2.1)).1, hs, h.2.2.req hs hD.ext, by
      have := h.2.2.len; simpa [extDom] using this⟩
  | .right _ _ e, hg, h => exprOK_of hD (e := e) hg h
  | .left _ e _, hg, h => exprOK_of hD (e := e) hg h
  | .zip _ e f, hg, h => by
    simp only [arrays, List.mem_append] at hg
    exact ⟨exprOK_of hD (e := e) (fun s hs => hg s (.inl hs)) h.1, exprOK_of hD (e := f) (fun s hs => hg s (.inr hs)) h.2⟩

theorem Within.elem {s : Span} {D : List DB} {p : Pt} (hg : GeoOK s.geo) (hD : UnitDom D) (h : Within s.geo D) (hp : InDom D p) : Inside s.geo p :=
  inside_full hg (h.req hg hD) h.len hp

/-- a statement whose operands share no element with its left hand side -/
theorem stmtOK_of {m : Mem T} {D : List DB} {lhs : Span} {e : Expr T} (hD : UnitDom D) (hl : ArrOK m lhs) (hw : Within lhs.geo D)
    (hr : ∀ s ∈ arrays e, ArrOK m s ∧ Apart lhs s) (hf : Fit D e) (ht : HasShape e .num) : StmtOK m D ⟨lhs, .expr e⟩ where
  lhs := ⟨hl.geo, hw.req hl.geo hD, hw.len⟩
  rhs := exprOK_of hD (fun s hs => (hr s hs).1.geo) hf
  typed := ht
  lalloc := hl.alloc
  ralloc s hs := (hr s hs).1.alloc
  noAlias p q hp hq hm := by
    obtain ⟨s, hs, r, hr', he⟩ := reads_elements (tab := m.ints) hq (exprOK_of hD (fun s hs => (hr s hs).1.geo) hf) _ hm
    exact absurd he ((hr s hs).2 p r (hw.elem hl.geo hD hp) hr')

/-- a reference to an element of an array apart from the one written -/
theorem good_of {m : Mem T} {D : List DB} {lhs s : Span} {is : List Int} {c : Ptr} (hD : UnitDom D) (hl : ArrOK m lhs) (hw : Within lhs.geo D)
    (hs : ArrOK m s) (ha : Apart lhs s) (hb : F.InBounds (farr s).dims is) : F.Good m (fun q => Writes D lhs q ∧ q ≠ c) (farr s, is) := by
  obtain ⟨p, h1, h2, -⟩ := farr_inside hs.geo.nodup hb
  refine ⟨hb, ?_, ?_⟩
  · rw [h2]; exact hs.alloc p h1
  · rintro ⟨⟨r, hr, he⟩, -⟩
    exact ha r p (hw.elem hl.geo hD hr) h1 (he.trans h2)

/-! ### arrays as callers describe them -/

theorem arrOK_farr {m : Mem T} {s : Span} (h : F.ArrOK m (farr s)) (hne : s.geo ≠ []) (hd : (s.geo.map (·.1)).Nodup)
    (hn : ∀ x ∈ s.geo, x.2.stride = 1 ∧ x.2.first < x.2.last) : ArrOK m s where
  geo := {
    ne := hne
    nodup := hd
    unit := fun x hx => (hn x hx).1
    nonempty := fun x hx => (hn x hx).2
    fits := by
      have := h.fits
      simp only [farr, List.map_reverse, List.prod_reverse, List.map_map] at this
      refine le_trans (le_of_eq ?_) this
      unfold lengths
      congr 1
      refine List.map_congr_left fun x _ => ?_
      simp only [Function.comp_apply]; omega
    int := fun x hx => by
      have := h.int (x.2.first, x.2.last - 1) (List.mem_reverse.2 (List.mem_map.2 ⟨x, hx, rfl⟩))
      simpa using this }
  alloc p hp := by
    have hb := (inBounds_inside (geo := s.geo) (p := p)).2 hp
    rw [← inBounds_reverse (by simp)] at hb
    have := h.alloc _ hb
    rw [cell_eq]
    have e := addrT_farr (s := s) (is := (s.geo.map fun x => p x.1).reverse) (by simp)
    rw [List.reverse_reverse] at e
    rw [← e]
    exact this

theorem inside_addr {s : Span} {p : Pt} (hp : Inside s.geo p) :
    F.InBounds (farr s).dims (s.geo.map fun x => p x.1).reverse ∧ (farr s).addrT (s.geo.map fun x => p x.1).reverse = cell s p := by
  constructor
  · show F.InBounds (List.reverse _) _
    rw [inBounds_reverse (by simp), inBounds_inside]; exact hp
  · rw [addrT_farr (by simp), List.reverse_reverse, cell_eq]

theorem apart_farr {s t : Span} (h : F.Apart (farr s) (farr t)) : Apart s t := fun p q hp hq e => by
  have h1 := inside_addr hp
  have h2 := inside_addr hq
  exact h _ _ h1.1 h2.1 (h1.2.trans (e.trans h2.2.symm))

theorem F.ArrOK.mono {m m' : Mem T} {a : F.Arr} (h : F.ArrOK m a) (hm : ∀ q, (∃ v, m.val q = some v) → ∃ v, m'.val q = some v) : F.ArrOK m' a :=
  ⟨fun is hi => hm _ (h.alloc is hi), h.fits, h.int⟩

/-! ### a statement and its loop -/

/-- What a statement leaves: the values at the points of the domain, everything else as before. -/
structure Left (D : List DB) (lhs : Span) (f : Pt → T) (m m' : Mem T) : Prop where
  at_ : ∀ p, InDom D p → m'.val (cell lhs p) = some (f p)
  frame : ∀ q, ¬ Writes D lhs q → m'.val q = m.val q
  ints : m'.ints = m.ints

theorem Left.alloc {D : List DB} {lhs : Span} {f : Pt → T} {m m' : Mem T} (h : Left D lhs f m m') (q : Ptr) (hq : ∃ v, m.val q = some v) :
    ∃ v, m'.val q = some v := by
  by_cases hw : Writes D lhs q
  · obtain ⟨p, hp, rfl⟩ := hw
    exact ⟨_, h.at_ p hp⟩
  · rw [h.frame q hw]; exact hq

section
variable [Zero T] [Add T] [Sub T] [Mul T] [Div T] [Neg T]

theorem stmt_nest {lhs : Span} {e : Expr T} {D : List DB} {β : Backend} {m : Mem T} {r : List (Dim × Int × Int)} {p0 : Pt}
    {stmt : Pt → F.Cmd T} (hβ : ValidBackend β) (hD : UnitDom D) (hl : ArrOK m lhs) (hw : Within lhs.geo D)
    (hr : ∀ s ∈ arrays e, ArrOK m s ∧ Apart lhs s) (hf : Fit D e) (ht : HasShape e .num)
    (hn : (r.map (·.1)).Nodup) (hd : ∀ d, d ∈ D.map (·.1) ↔ d ∈ r.map (·.1))
    (hb : ∀ p, InDom D p ↔ ∀ x ∈ r, x.2.1 ≤ p x.1 ∧ p x.1 ≤ x.2.2)
    (hs : ∀ p, (∀ x ∈ r, x.2.1 ≤ p x.1 ∧ p x.1 ≤ x.2.2) → ∃ is fe, stmt p = F.assign (farr lhs) is fe ∧
      is.reverse = lhs.geo.map (fun x => p x.1) ∧ (∀ x ∈ fe.refs, ∃ s ∈ arrays e, farr s = x.1 ∧ F.InBounds x.1.dims x.2) ∧
      fe.evalT m = (denT m (D.map (·.1)) e p).first) :
    ∃ m', (lhs.set e).exec D β m = .ok m' ∧ F.nest stmt r p0 m = .ok m' ∧ Left D lhs (fun p => (denT m (D.map (·.1)) e p).first) m m' := by
  obtain ⟨m', h1, h2, h3, h4⟩ := loop_exec (p0 := p0) hβ (hw.int hl.geo hD) (stmtOK_of hD hl hw hr hf ht) hn hd hb fun p hp => by
    obtain ⟨is, fe, g1, g2, g3, g4⟩ := hs p ((hb p).1 hp)
    have hi := inside_addr (hw.elem hl.geo hD hp)
    rw [← g2, List.reverse_reverse] at hi
    refine ⟨_, is, fe, g1, hi.1, hi.2, fun x hx => ?_, g4⟩
    obtain ⟨s, k1, k2, k3⟩ := g3 x hx
    obtain ⟨a, b⟩ := x
    subst k2
    exact good_of hD hl hw (hr s k1).1 (hr s k1).2 k3
  exact ⟨m', h1, h2, h4, fun q hq => h3.frame q fun p hp e => hq ⟨p, hp, e⟩, h3.ints⟩

end

theorem bind_step {α β : Type} {x : M α} {a : α} {f : α → M β} {r : M β} (h : x = .ok a) (hf : f a = r) : (x >>= f) = r := by
  rw [h]; exact hf

/-! ### bounds and spans -/

theorem mkB_ok {d : Dim} {lo hi : Int} (h : InInt (hi + 1)) : mkB d lo hi = .ok (d, ⟨lo, hi + 1, 1⟩) := by
  unfold mkB Bounds.make
  rw [if_pos rfl, iadd_ok h]
  rfl

theorem plus_ok {d : Dim} {b : Bounds} {x : Int} (hx : 0 ≤ x) (h : InInt (b.last + x)) : DB.plus (d, b) x = .ok (d, ⟨b.first, b.last + x, b.stride⟩) := by
  unfold DB.plus Bounds.add Bounds.addEq
  dsimp only
  rw [if_pos hx, iadd_ok h]
  rfl

theorem makeSpanOffset_ok {t : Ptr} {g : Int} {bnds : List DB} (hW : ∀ x ∈ bnds, x.1 ≠ Dim.W)
    (h : ∀ x ∈ bnds, InInt (x.2.first - g) ∧ InInt (x.2.last + g)) :
    makeSpanOffset t g bnds = .ok ⟨t, bnds.map fun x => (x.1, ⟨x.2.first - g, x.2.last + g, 1⟩)⟩ := by
  unfold makeSpanOffset
  rw [mapM_ok (g := fun x : DB => ((x.1, ⟨x.2.first - g, x.2.last + g, 1⟩) : DB)) fun x hx => ?_]
  · rfl
  · have := h x hx
    unfold expandBounds Bounds.expand Bounds.subEq Bounds.addEq Bounds.unitStride
    rw [if_neg (hW x hx)]
    dsimp only
    rw [isub_ok this.1]
    simp only [M.ok_bind]
    rw [iadd_ok this.2]
    rfl

end Verif
