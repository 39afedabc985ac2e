import Verif.Lemmas.Nest
import Mathlib.Algebra.Field.Defs
import Mathlib.Tactic.Ring

/-
Window statements of the stencil kernels against Fortran loops, for any window and domain.
-/

namespace Verif
open Spec

variable {T : Type}

theorem F.block_one {c : F.Cmd T} : F.block [c] = c := by
  funext m
  simp only [F.block]
  cases c m <;> rfl

/-- a stencil array `w` with entries 0..n-1, a domain, the loops over it, and the indices of the cell in Fortran order -/
structure Seg (m : Mem T) (w : Span) (n : Int) (D : List DB) (r : List (Dim × Int × Int)) (p0 : Pt) (idx : Pt → List Int) : Prop where
  geo : ∃ g, w.geo = g ++ [(Dim.W, ⟨0, n, 1⟩)] ∧ Within g D ∧ ∀ p ∈ F.nestPts r p0, (g.map fun x => p x.1).reverse = idx p
  arr : ArrOK m w
  dom : UnitDom D
  loop : Loop D r p0

section
variable {m : Mem T} {w : Span} {n : Int} {D : List DB} {r : List (Dim × Int × Int)} {p0 : Pt} {idx : Pt → List Int}

theorem Seg.req (h : Seg m w n D r p0 idx) : ReqOK w.geo D := by
  obtain ⟨g, hg, hw, -⟩ := h.geo
  have hgeo := h.arr.geo
  have hnd := hgeo.nodup
  rw [hg, List.map_append, List.nodup_append] at hnd
  have hW : ∀ x ∈ D, x.1 ≠ Dim.W := fun x hx e =>
    hnd.2.2 x.1 (hw.perm.mem_iff.2 (List.mem_map_of_mem hx)) Dim.W (by simp) e
  refine ⟨h.dom.ne, h.dom.nodup, fun x hx => (h.dom.bnds x hx).2, fun x hx => by rw [(h.dom.bnds x hx).1], fun x hx b hb => ?_, fun x hx => ?_,
    fun x hx => ?_, ?_⟩
  · rw [hg] at hb
    rcases List.mem_append.1 hb with hb | hb
    · exact hw.inside x hx _ hb rfl
    · rw [List.mem_singleton] at hb
      exact absurd (congrArg Prod.fst hb) (hW x hx)
  · obtain ⟨y, hy, hye⟩ := List.mem_map.1 (hw.perm.mem_iff.2 (List.mem_map_of_mem (f := (·.1)) hx))
    have := hw.inside x hx y hy hye
    have hl : y.2.last - y.2.first ≤ (lengths w.geo).prod :=
      length_le_prod hgeo.pos _ (List.mem_map.2 ⟨y, by rw [hg]; exact List.mem_append_left _ hy, rfl⟩)
    have hf := hgeo.fits
    rw [(h.dom.bnds x hx).1]
    omega
  · rw [(h.dom.bnds x hx).1, mul_one]
    exact (drop_prod_le _ hgeo.pos).trans hgeo.fits
  · rw [hg, hw.len, List.take_left]
    exact hw.perm

theorem Seg.len (h : Seg m w n D r p0 idx) : w.geo.length = D.length + 1 := by
  obtain ⟨g, hg, hw, -⟩ := h.geo
  rw [hg, hw.len]; simp

theorem Seg.int (h : Seg m w n D r p0 idx) : DomInt D := by
  obtain ⟨g, hg, hw, -⟩ := h.geo
  intro x hx
  obtain ⟨y, hy, hye⟩ := List.mem_map.1 (hw.perm.mem_iff.2 (List.mem_map_of_mem (f := (·.1)) hx))
  have h1 := hw.inside x hx y hy hye
  have h2 := h.arr.geo.int y (by rw [hg]; exact List.mem_append_left _ hy)
  have h3 := (h.dom.bnds x hx).2
  unfold InInt at h2 ⊢
  omega

theorem Seg.divides (h : Seg m w n D r p0 idx) : Divides D := fun x hx => by rw [(h.dom.bnds x hx).1]; exact one_dvd _

theorem Seg.winLen (h : Seg m w n D r p0 idx) : winLen w = n := by
  obtain ⟨g, hg, -, -⟩ := h.geo
  unfold Spec.winLen
  rw [hg, List.getLast?_concat]; simp

theorem Seg.entryCell (h : Seg m w n D r p0 idx) (p : Pt) (e : Int) : Spec.entryCell w p e = cell w (setPt p Dim.W e) := by
  obtain ⟨g, hg, -, -⟩ := h.geo
  unfold Spec.entryCell
  rw [hg, List.getLast?_concat]; simp

theorem Seg.inside (h : Seg m w n D r p0 idx) {p : Pt} (hp : InDom D p) {e : Int} (he : 0 ≤ e ∧ e < n) : Inside w.geo (setPt p Dim.W e) := by
  obtain ⟨g, hg, hw, -⟩ := h.geo
  have hnd := h.arr.geo.nodup
  rw [hg, List.map_append, List.nodup_append] at hnd
  intro x hx
  have hr := h.req
  rw [hg] at hx
  rcases List.mem_append.1 hx with hx' | hx'
  · have hne : x.1 ≠ Dim.W := fun e' => hnd.2.2 x.1 (List.mem_map_of_mem hx') Dim.W (by simp) e'
    obtain ⟨y, hy, hye⟩ := List.mem_map.1 (hw.perm.mem_iff.1 (List.mem_map_of_mem (f := (·.1)) hx'))
    have h1 := hw.inside y hy x hx' hye.symm
    obtain ⟨⟨h2, h3⟩, -⟩ := hp y hy
    simp only [setPt, if_neg hne]
    rw [← hye]
    exact ⟨by omega, by omega⟩
  · rw [List.mem_singleton] at hx'
    subst hx'
    simp only [setPt, if_true]
    exact he

/-- entry `e` at a point, in C++ and Fortran -/
theorem Seg.entry (h : Seg m w n D r p0 idx) {p : Pt} (hp : p ∈ F.nestPts r p0) {e : Int} (he : 0 ≤ e ∧ e < n) :
    F.InBounds (farr w).dims (e :: idx p) ∧ (farr w).addrT (e :: idx p) = Spec.entryCell w p e := by
  have hin := inside_addr (h.inside (h.loop.inDom hp) he)
  rw [← h.entryCell] at hin
  obtain ⟨g, hg, hw, hi⟩ := h.geo
  have hnd := h.arr.geo.nodup
  rw [hg, List.map_append, List.nodup_append] at hnd
  have : (w.geo.map fun x => setPt p Dim.W e x.1).reverse = e :: idx p := by
    rw [hg, List.map_append, List.reverse_append, ← hi p hp]
    simp only [List.map_cons, List.map_nil, List.reverse_cons, List.reverse_nil, List.nil_append, setPt, if_true, List.cons_append, List.cons.injEq,
      true_and]
    congr 1
    refine List.map_congr_left fun x hx => ?_
    rw [if_neg fun e' => hnd.2.2 x.1 (List.mem_map_of_mem hx) Dim.W (by simp) e']
  rwa [this] at hin

/-- what a Fortran statement may refer to: entries at its own point, and elements of arrays apart from the stencil -/
def SegRef (m : Mem T) (w : Span) (n : Int) (idx : Pt → List Int) (p : Pt) (y : F.Arr × List Int) : Prop :=
  (∃ e, (0 ≤ e ∧ e < n) ∧ y = (farr w, e :: idx p)) ∨
    (F.InBounds y.1.dims y.2 ∧ ∃ s, Allocated m s ∧ Apart w s ∧ IsElement s (y.1.addrT y.2))

section
variable [Zero T] [Add T] [Sub T] [Mul T] [Div T] [Neg T]

/-- one store of the window statements and the Fortran assignment that makes it -/
structure SegStore (m : Mem T) (w : Span) (n : Int) (idx : Pt → List Int) (p : Pt) (c : Ptr × (Mem T → T)) (x : F.Arr × List Int × F.Expr T) : Prop where
  lhs : x.1 = farr w
  at_ : ∃ e, (0 ≤ e ∧ e < n) ∧ x.2.1 = e :: idx p ∧ c.1 = Spec.entryCell w p e
  refs : ∀ y ∈ x.2.2.refs, SegRef m w n idx p y
  val : ∀ m1, x.2.2.evalT m1 = c.2 m1

theorem Seg.run {ss : List (WStmt T)} {β : Backend} {stmt : Pt → F.Cmd T} (h : Seg m w n D r p0 idx) (hβ : ValidBackend β) (hacc : acceptable ss = true)
    (hset : ∀ s ∈ ss, s.isSelf = false) (hty : ∀ s ∈ ss, StmtTyped s) (hord : ∀ i u, WStmt.set1 i (.proxy u) ∈ ss → InOrder u)
    (hent : ∀ s ∈ ss, ∀ i ∈ stmtEntries s, 0 ≤ i ∧ i < n)
    (hops : ∀ s ∈ ss, ∀ e ∈ s.operands, ExprOK m.ints D e ∧ ∀ a ∈ arrays e, Allocated m a ∧ Apart w a)
    (hs : ∀ p ∈ F.nestPts r p0, ∃ fs : List (F.Arr × List Int × F.Expr T), stmt p = F.block (fs.map fun x => F.assign x.1 x.2.1 x.2.2) ∧
      List.Forall₂ (SegStore m w n idx p) (ss.flatMap (flatS (D.map (·.1)) w p)) fs) :
    ∃ m', windowExec w D ss β m = .ok m' ∧ F.nest stmt r p0 m = .ok m' ∧ WindowDoes (InDom D) w (D.map (·.1)) ss m m' := by
  have hfit : WindowFit m.ints w D ss := ⟨h.arr.geo, h.req, h.len, hacc, fun s hs e he => (hops s hs e he).1,
    fun l u hl => absurd (hset _ hl) (by simp [WStmt.isSelf]), hord, fun l u hl => absurd (hset _ hl) (by simp [WStmt.isSelf])⟩
  have hw : ∀ q, InDom D q → ∀ z, allWrites w q ss z → ∃ i, (0 ≤ i ∧ i < n) ∧ z = Spec.entryCell w q i := fun q hq z hz => by
    obtain ⟨s, hs, i, hi, hi', e⟩ := set_writes hset hz
    exact ⟨i, hent s hs i hi', e⟩
  have hok : SetOK m w D ss := ⟨hfit, hset, hty, h.arr.alloc, fun s hs e he a ha => ((hops s hs e he).2 a ha).1, fun s hs i hi => by
    rw [h.winLen]; exact hent s hs i hi, fun p q hp hq s hs z hz hwz => by
      obtain ⟨e, he, hz⟩ := List.mem_flatMap.1 hz
      obtain ⟨a, ha, p', hp', rfl⟩ := reads_elements hq (hops s hs e he).1 _ hz
      obtain ⟨i, hi, e'⟩ := hw p hp _ hwz
      rw [h.entryCell] at e'
      exact ((hops s hs e he).2 a ha).2 _ _ (h.inside hp hi) hp' e'.symm⟩
  refine win_nest hβ h.int h.divides hok.ok h.loop fun p hp => ?_
  obtain ⟨fs, e, hf⟩ := hs p hp
  refine ⟨fs, e, hf.imp fun c x hx => ?_⟩
  obtain ⟨ee, hee, hx2, hc⟩ := hx.at_
  have hen := h.entry hp hee
  have hpD := h.loop.inDom hp
  refine ⟨by rw [hx.lhs, hx2]; exact hen.1, by rw [hx.lhs, hx2, hc]; exact hen.2, fun y hy => ?_, hx.val⟩
  rcases hx.refs y hy with ⟨e1, he1, rfl⟩ | ⟨hb, s, hs1, hs2, p', hp', hpe⟩
  · have hen := h.entry hp he1
    refine ⟨hen.1, ?_, ?_⟩
    · show ∃ v, m.val ((farr w).addrT (e1 :: idx p)) = some v
      rw [hen.2, h.entryCell]; exact h.arr.alloc _ (h.inside hpD he1)
    · rintro ⟨q, hq, ⟨z, hz, hne⟩, hwq⟩
      obtain ⟨i, hi, e'⟩ := hw q hq _ hwq
      have e' : (farr w).addrT (e1 :: idx p) = _ := e'
      rw [hen.2] at e'
      exact hne ((hfit.entry_inj hpD hq (by rw [h.winLen]; exact he1) (by rw [h.winLen]; exact hi) e').1 z hz)
  · refine ⟨hb, by rw [hpe]; exact hs1 _ hp', ?_⟩
    rintro ⟨q, hq, -, hwq⟩
    obtain ⟨i, hi, e'⟩ := hw q hq _ hwq
    rw [h.entryCell, hpe] at e'
    exact hs2 _ _ (h.inside hq hi) hp' e'.symm

end

/-- an operand (an array or shifted array) apart from the stencil, and the Fortran element it is -/
structure Opnd (m : Mem T) (w : Span) (D : List DB) (r : List (Dim × Int × Int)) (p0 : Pt) (a : Acc) (arr : F.Arr) (bidx : Pt → List Int) : Prop where
  ok : AccOK a D
  alloc : Allocated m (accArray a)
  apart : Apart w (accArray a)
  at_ : ∀ p ∈ F.nestPts r p0, F.InBounds arr.dims (bidx p) ∧ arr.addrT (bidx p) = accCell a p

theorem Opnd.ref {a : Acc} {arr : F.Arr} {bidx : Pt → List Int} (h : Opnd m w D r p0 a arr bidx) (hL : Loop D r p0) {p : Pt} (hp : p ∈ F.nestPts r p0) :
    SegRef m w n idx p (arr, bidx p) := by
  refine .inr ⟨(h.at_ p hp).1, accArray a, h.alloc, h.apart, ?_⟩
  show IsElement _ (arr.addrT (bidx p))
  rw [(h.at_ p hp).2]
  exact acc_element h.ok (hL.inDom hp)

theorem SegRef.ent {e : Int} {p : Pt} (he : 0 ≤ e ∧ e < n) : SegRef m w n idx p (farr w, e :: idx p) := .inl ⟨e, he, rfl⟩

end

/-! ### the statements of the kernels -/

section
variable [Zero T] [Add T] [Sub T] [Mul T] [Div T] [Neg T] {m : Mem T} {w : Span} {n : Int} {D : List DB} {r : List (Dim × Int × Int)} {p0 : Pt} {idx : Pt → List Int} {β : Backend}

/-- outcome: both programs end with the same memory, the one described -/
def Same (w : Span) (D : List DB) (ss : List (WStmt T)) (β : Backend) (stmt : F.Cmd T) (m : Mem T) : Prop :=
  ∃ m', windowExec w D ss β m = .ok m' ∧ stmt m = .ok m' ∧ WindowDoes (InDom D) w (D.map (·.1)) ss m m'

/-- `st(u) = c` -/
theorem Seg.num (h : Seg m w n D r p0 idx) (hβ : ValidBackend β) {u : Int} (hu : 0 ≤ u ∧ u < n) {c c' : T} (hc : c' = c) :
    Same w D [.set1 u (.num c)] β (F.nest (fun p => F.assign (farr w) (u :: idx p) (.const c')) r p0) m := by
  subst hc
  refine h.run hβ rfl (by simp [WStmt.isSelf]) (by simp [StmtTyped]) (by simp) (by simpa [stmtEntries] using hu) (by simp [WStmt.operands])
    fun p hp => ⟨[(farr w, u :: idx p, .const c')], F.block_one.symm, ?_⟩
  exact .cons ⟨rfl, ⟨u, hu, rfl, rfl⟩, by simp [F.Expr.refs], fun _ => rfl⟩ .nil

/-- `st(u) = st(u) op c` -/
theorem Seg.pn (h : Seg m w n D r p0 idx) (hβ : ValidBackend β) {u : Int} (hu : 0 ≤ u ∧ u < n) {f : T → T → T} {c : T} {fe : F.Expr T → F.Expr T}
    (hr : ∀ x, (fe x).refs = x.refs) (hv : ∀ x m1, (fe x).evalT m1 = f (x.evalT m1) c) :
    Same w D [.set1 u (.proxy (.pn (arith f) (.entry u) c))] β
      (F.nest (fun p => F.assign (farr w) (u :: idx p) (fe (.ref (farr w) (u :: idx p)))) r p0) m := by
  refine h.run hβ rfl (by simp [WStmt.isSelf]) (fun s hs => ?_) (fun i v hs => ?_) (by simpa [stmtEntries, entries] using hu)
    (by simp [WStmt.operands, Proxy.iters]) fun p hp => ⟨[(farr w, u :: idx p, fe (.ref (farr w) (u :: idx p)))], F.block_one.symm, ?_⟩
  · rw [List.mem_singleton] at hs; subst hs
    exact .pn .entry opShape_arith_num
  · simp only [List.mem_singleton, WStmt.set1.injEq, WRhs.proxy.injEq] at hs
    rw [hs.2]; exact trivial
  · refine .cons ⟨rfl, ⟨u, hu, rfl, rfl⟩, ?_, fun m1 => ?_⟩ .nil
    · rw [hr]; intro y hy
      simp only [F.Expr.refs, List.mem_singleton] at hy
      rw [hy]; exact .ent hu
    · rw [hv, F.Expr.evalT, (h.entry hp hu).2]; rfl

/-- `st(u) = st(u) op e`, e an expression in one array -/
theorem Seg.pe (h : Seg m w n D r p0 idx) (hβ : ValidBackend β) {u : Int} (hu : 0 ≤ u ∧ u < n) {a : Acc} {arr : F.Arr} {bidx : Pt → List Int}
    (ho : Opnd m w D r p0 a arr bidx) {f : T → T → T} {e : Expr T} {g : T → T} {fe : F.Expr T → F.Expr T → F.Expr T}
    (he : ∀ {tab}, AccOK a D → ExprOK tab D e) (ha : ∀ s ∈ arrays e, s = accArray a) (ht : HasShape e .num) (hf : e.isFine = false)
    (hg : ∀ m1 p, denT m1 (D.map (·.1)) e p = .num (g (ld m1 (accCell a p))))
    (hr : ∀ x y, ∀ z ∈ (fe x y).refs, z ∈ x.refs ∨ z ∈ y.refs) (hv : ∀ x y m1, (fe x y).evalT m1 = f (x.evalT m1) (g (y.evalT m1))) :
    Same w D [.set1 u (.proxy (.pe (arith f) (.entry u) e))] β
      (F.nest (fun p => F.assign (farr w) (u :: idx p) (fe (.ref (farr w) (u :: idx p)) (.ref arr (bidx p)))) r p0) m := by
  refine h.run hβ (by simp [acceptable, WStmt.okZip, WStmt.operands, Proxy.iters, hf]) (by simp [WStmt.isSelf]) (fun s hs => ?_) (fun i v hs => ?_)
    (by simpa [stmtEntries, entries] using hu) (fun s hs x hx => ?_)
    fun p hp => ⟨[(farr w, u :: idx p, fe (.ref (farr w) (u :: idx p)) (.ref arr (bidx p)))], F.block_one.symm, ?_⟩
  · rw [List.mem_singleton] at hs; subst hs
    exact .pe .entry ht opShape_arith_num
  · simp only [List.mem_singleton, WStmt.set1.injEq, WRhs.proxy.injEq] at hs
    rw [hs.2]; exact trivial
  · rw [List.mem_singleton] at hs; subst hs
    simp only [WStmt.operands, Proxy.iters, List.nil_append, List.mem_singleton] at hx
    subst hx
    exact ⟨he ho.ok, fun s hs => by rw [ha s hs]; exact ⟨ho.alloc, ho.apart⟩⟩
  · refine .cons ⟨rfl, ⟨u, hu, rfl, rfl⟩, ?_, fun m1 => ?_⟩ .nil
    · intro y hy
      rcases hr _ _ y hy with hy | hy
      · simp only [F.Expr.refs, List.mem_singleton] at hy
        rw [hy]; exact .ent hu
      · simp only [F.Expr.refs, List.mem_singleton] at hy
        rw [hy]; exact ho.ref h.loop hp
    · rw [hv]
      simp only [F.Expr.evalT, (h.entry hp hu).2, (ho.at_ p hp).2, proxyT, hg, arith, okOr, Val.first]

/-- `st(v) = st(v) op st(u) op' c, st(u) = st(u) * d` -/
theorem Seg.two (h : Seg m w n D r p0 idx) (hβ : ValidBackend β) {u v : Int} (hu : 0 ≤ u ∧ u < n) (hv : 0 ≤ v ∧ v < n) {f g k : T → T → T} {c d : T}
    {fe : F.Expr T → F.Expr T → F.Expr T} {fe' : F.Expr T → F.Expr T}
    (hr : ∀ x y, ∀ z ∈ (fe x y).refs, z ∈ x.refs ∨ z ∈ y.refs) (hr' : ∀ x, (fe' x).refs = x.refs)
    (he : ∀ x y m1, (fe x y).evalT m1 = f (x.evalT m1) (g (y.evalT m1) c)) (he' : ∀ x m1, (fe' x).evalT m1 = k (x.evalT m1) d) :
    Same w D [.set1 v (.proxy (.pp (arith f) (.entry v) (.pn (arith g) (.entry u) c))), .set1 u (.proxy (.pn (arith k) (.entry u) d))] β
      (F.nest (fun p => F.block [F.assign (farr w) (v :: idx p) (fe (.ref (farr w) (v :: idx p)) (.ref (farr w) (u :: idx p))),
        F.assign (farr w) (u :: idx p) (fe' (.ref (farr w) (u :: idx p)))]) r p0) m := by
  refine h.run hβ rfl (by simp [WStmt.isSelf]) (fun s hs => ?_) (fun i x hs => ?_) (fun s hs => ?_)
    (by simp [WStmt.operands, Proxy.iters]) fun p hp => ⟨[(farr w, v :: idx p, fe (.ref (farr w) (v :: idx p)) (.ref (farr w) (u :: idx p))),
      (farr w, u :: idx p, fe' (.ref (farr w) (u :: idx p)))], rfl, ?_⟩
  · rcases List.mem_cons.1 hs with rfl | hs
    · exact .pp .entry (.pn .entry opShape_arith_num) opShape_arith_num
    · rw [List.mem_singleton] at hs; subst hs
      exact .pn .entry opShape_arith_num
  · simp only [List.mem_cons, List.not_mem_nil, or_false, WStmt.set1.injEq, WRhs.proxy.injEq] at hs
    rcases hs with hs | hs
    · rw [hs.2]; exact .inl ⟨trivial, trivial⟩
    · rw [hs.2]; exact trivial
  · simp only [List.mem_cons, List.not_mem_nil, or_false] at hs
    rcases hs with rfl | rfl <;> simp [stmtEntries, entries, hu, hv]
  · refine .cons ⟨rfl, ⟨v, hv, rfl, rfl⟩, ?_, fun m1 => ?_⟩ (.cons ⟨rfl, ⟨u, hu, rfl, rfl⟩, ?_, fun m1 => ?_⟩ .nil)
    · intro y hy
      rcases hr _ _ y hy with hy | hy <;> simp only [F.Expr.refs, List.mem_singleton] at hy <;> rw [hy]
      · exact .ent hv
      · exact .ent hu
    · rw [he]
      simp only [F.Expr.evalT, (h.entry hp hu).2, (h.entry hp hv).2, proxyT, arith, okOr, Val.first]
    · rw [hr']; intro y hy
      simp only [F.Expr.refs, List.mem_singleton] at hy
      rw [hy]; exact .ent hu
    · rw [he']
      simp only [F.Expr.evalT, (h.entry hp hu).2, proxyT, arith, okOr, Val.first]

/-- `st(u) = c, st(v) = st(v) op d` -/
theorem Seg.numTwo (h : Seg m w n D r p0 idx) (hβ : ValidBackend β) {u v : Int} (hu : 0 ≤ u ∧ u < n) (hv : 0 ≤ v ∧ v < n) {f : T → T → T} {c d : T}
    {ce : F.Expr T} {fe : F.Expr T → F.Expr T} (hcr : ce.refs = []) (hc : ∀ m1, ce.evalT m1 = c)
    (hr : ∀ x, (fe x).refs = x.refs) (he : ∀ x m1, (fe x).evalT m1 = f (x.evalT m1) d) :
    Same w D [.set1 u (.num c), .set1 v (.proxy (.pn (arith f) (.entry v) d))] β
      (F.nest (fun p => F.block [F.assign (farr w) (u :: idx p) ce, F.assign (farr w) (v :: idx p) (fe (.ref (farr w) (v :: idx p)))]) r p0) m := by
  refine h.run hβ rfl (by simp [WStmt.isSelf]) (fun s hs => ?_) (fun i x hs => ?_) (fun s hs => ?_)
    (by simp [WStmt.operands, Proxy.iters]) fun p hp => ⟨[(farr w, u :: idx p, ce), (farr w, v :: idx p, fe (.ref (farr w) (v :: idx p)))], rfl, ?_⟩
  · rcases List.mem_cons.1 hs with rfl | hs
    · exact trivial
    · rw [List.mem_singleton] at hs; subst hs
      exact .pn .entry opShape_arith_num
  · simp only [List.mem_cons, List.not_mem_nil, or_false, WStmt.set1.injEq, WRhs.proxy.injEq, reduceCtorEq, and_false, false_or] at hs
    rw [hs.2]; exact trivial
  · simp only [List.mem_cons, List.not_mem_nil, or_false] at hs
    rcases hs with rfl | rfl <;> simp [stmtEntries, entries, hu, hv]
  · refine .cons ⟨rfl, ⟨u, hu, rfl, rfl⟩, ?_, fun m1 => hc m1⟩ (.cons ⟨rfl, ⟨v, hv, rfl, rfl⟩, ?_, fun m1 => ?_⟩ .nil)
    · rw [hcr]; simp
    · rw [hr]; intro y hy
      simp only [F.Expr.refs, List.mem_singleton] at hy
      rw [hy]; exact .ent hv
    · rw [he]
      simp only [F.Expr.evalT, (h.entry hp hv).2, proxyT, arith, okOr, Val.first]

/-- `st(u) = e, st(v) = st(v) op e'`, e and e' expressions in one array -/
theorem Seg.exprTwo (h : Seg m w n D r p0 idx) (hβ : ValidBackend β) {u v : Int} (hu : 0 ≤ u ∧ u < n) (hv : 0 ≤ v ∧ v < n) {a : Acc} {arr : F.Arr}
    {bidx : Pt → List Int} (ho : Opnd m w D r p0 a arr bidx) {f : T → T → T} {e e' : Expr T} {g g' : T → T} {fe : F.Expr T → F.Expr T}
    {fe' : F.Expr T → F.Expr T → F.Expr T}
    (he : ∀ {tab}, AccOK a D → ExprOK tab D e ∧ ExprOK tab D e') (ha : ∀ s, s ∈ arrays e ∨ s ∈ arrays e' → s = accArray a)
    (ht : HasShape e .num ∧ HasShape e' .num) (hf : e.isFine = false ∧ e'.isFine = false)
    (hg : ∀ m1 p, denT m1 (D.map (·.1)) e p = .num (g (ld m1 (accCell a p))) ∧ denT m1 (D.map (·.1)) e' p = .num (g' (ld m1 (accCell a p))))
    (hr : ∀ y, ∀ z ∈ (fe y).refs, z ∈ y.refs) (hv' : ∀ y m1, (fe y).evalT m1 = g (y.evalT m1))
    (hr' : ∀ x y, ∀ z ∈ (fe' x y).refs, z ∈ x.refs ∨ z ∈ y.refs) (hv'' : ∀ x y m1, (fe' x y).evalT m1 = f (x.evalT m1) (g' (y.evalT m1))) :
    Same w D [.set1 u (.expr e), .set1 v (.proxy (.pe (arith f) (.entry v) e'))] β
      (F.nest (fun p => F.block [F.assign (farr w) (u :: idx p) (fe (.ref arr (bidx p))),
        F.assign (farr w) (v :: idx p) (fe' (.ref (farr w) (v :: idx p)) (.ref arr (bidx p)))]) r p0) m := by
  refine h.run hβ (by simp [acceptable, WStmt.okZip, WStmt.operands, Proxy.iters, hf]) (by simp [WStmt.isSelf]) (fun s hs => ?_) (fun i x hs => ?_)
    (fun s hs => ?_) (fun s hs x hx => ?_) fun p hp => ⟨[(farr w, u :: idx p, fe (.ref arr (bidx p))),
      (farr w, v :: idx p, fe' (.ref (farr w) (v :: idx p)) (.ref arr (bidx p)))], rfl, ?_⟩
  · rcases List.mem_cons.1 hs with rfl | hs
    · exact ht.1
    · rw [List.mem_singleton] at hs; subst hs
      exact .pe .entry ht.2 opShape_arith_num
  · simp only [List.mem_cons, List.not_mem_nil, or_false, WStmt.set1.injEq, WRhs.proxy.injEq, reduceCtorEq, and_false, false_or] at hs
    rw [hs.2]; exact trivial
  · simp only [List.mem_cons, List.not_mem_nil, or_false] at hs
    rcases hs with rfl | rfl <;> simp [stmtEntries, entries, hu, hv]
  · simp only [List.mem_cons, List.not_mem_nil, or_false] at hs
    rcases hs with rfl | rfl <;> simp only [WStmt.operands, Proxy.iters, List.nil_append, List.mem_singleton] at hx <;> subst hx
    · exact ⟨(he ho.ok).1, fun s hs => by rw [ha s (.inl hs)]; exact ⟨ho.alloc, ho.apart⟩⟩
    · exact ⟨(he ho.ok).2, fun s hs => by rw [ha s (.inr hs)]; exact ⟨ho.alloc, ho.apart⟩⟩
  · refine .cons ⟨rfl, ⟨u, hu, rfl, rfl⟩, ?_, fun m1 => ?_⟩ (.cons ⟨rfl, ⟨v, hv, rfl, rfl⟩, ?_, fun m1 => ?_⟩ .nil)
    · intro y hy
      have hy := hr _ y hy
      simp only [F.Expr.refs, List.mem_singleton] at hy
      rw [hy]; exact ho.ref h.loop hp
    · rw [hv']
      simp only [F.Expr.evalT, (ho.at_ p hp).2, (hg m1 p).1, Val.first]
    · intro y hy
      rcases hr' _ _ y hy with hy | hy <;> simp only [F.Expr.refs, List.mem_singleton] at hy <;> rw [hy]
      · exact .ent hv
      · exact ho.ref h.loop hp
    · rw [hv'']
      simp only [F.Expr.evalT, (h.entry hp hv).2, (ho.at_ p hp).2, proxyT, (hg m1 p).2, arith, okOr, Val.first]

end

end Verif
