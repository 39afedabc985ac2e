import Verif.Spec.Eliminate
import Verif.Lemmas.Stencil
import Verif.Lemmas.KernelValues
import Verif.Lemmas.BcValues
import Verif.Lemmas.Assemble
import Mathlib.Algebra.CharZero.Defs
import Mathlib.Tactic.FieldSimp
import Mathlib.Tactic.LinearCombination

/-
The adjustment kernels, cell by cell.
-/

set_option linter.unusedVariables false
set_option linter.unusedSectionVars false
set_option linter.unusedSimpArgs false

namespace Verif
open Spec

variable {T : Type}

/-- what an adjustment does: in the cells of `L` entry `u` is multiplied by `A`, and `B` times the old entry `u` is added to entry `v` -/
structure F.Adj [Zero T] [Add T] [Mul T] (m m' : Mem T) (a : F.Arr) (L : List Int → Prop) (u v : Int) (A B : List Int → T) : Prop where
  only : F.Only [a] m m'
  atU : ∀ c, L c → F.El m' a (u :: c) (A c * F.rd m a (u :: c))
  atV : ∀ c, L c → F.El m' a (v :: c) (F.rd m a (v :: c) + B c * F.rd m a (u :: c))
  rest : ∀ e c, F.InBounds a.dims (e :: c) → ¬ (L c ∧ (e = u ∨ e = v)) → m'.val (a.addrT (e :: c)) = m.val (a.addrT (e :: c))

section
variable {m m' : Mem T} {w : Span} {n : Int} {D : List DB} {r : List (Dim × Int × Int)} {p0 : Pt} {idx : Pt → List Int}

theorem Seg.fit (h : Seg m w n D r p0 idx) : WindowFit m.ints w D ([] : List (WStmt T)) :=
  ⟨h.arr.geo, h.req, h.len, rfl, by simp, by simp, by simp, by simp⟩

/-- the cells `p` assigns hold what the statements leave at `p`, and so do the other entries at `p` -/
theorem Seg.at_ {ss : List (WStmt T)} (h : Seg m w n D r p0 idx) (hd : WindowDoes (InDom D) w (D.map (·.1)) ss m m')
    (hset : ∀ s ∈ ss, s.isSelf = false) (hn : ∀ s ∈ ss, ∀ i ∈ named s, 0 ≤ i ∧ i < n) {p : Pt} (hp : p ∈ F.nestPts r p0) {e : Int} (he : 0 ≤ e ∧ e < n) :
    ∃ mp, doStmts (D.map (·.1)) w p ss m = .ok mp ∧ m'.val (Spec.entryCell w p e) = mp.val (Spec.entryCell w p e) := by
  have hpD := h.loop.inDom hp
  obtain ⟨mp, h1, h2⟩ := hd.at_ p hpD
  refine ⟨mp, h1, ?_⟩
  by_cases hz : allWrites w p ss (Spec.entryCell w p e)
  · exact h2 _ hz
  · rw [(doStmts_only h1).2 _ hz]
    refine hd.frame _ fun q hq hw => hz ?_
    obtain ⟨s, hs, i, hi, -, ez⟩ := set_writes hset hw
    obtain ⟨hpq, rfl⟩ := h.fit.entry_inj hpD hq (by rw [h.winLen]; exact he) (by rw [h.winLen]; exact hn s hs i hi) ez
    refine ⟨s, hs, ?_⟩
    cases s with
    | set1 j x => simp only [named, List.mem_singleton] at hi; subst hi; simp [stmtWrites]
    | set2 j k x =>
      simp only [named, List.mem_cons, List.not_mem_nil, or_false] at hi
      rcases hi with rfl | rfl <;> simp [stmtWrites]
    | self l x => exact absurd (hset _ hs) (by simp [WStmt.isSelf])

theorem Seg.adj [Zero T] [Add T] [Mul T] [Sub T] [Div T] [Neg T] {ss : List (WStmt T)} {u v : Int} {A B : List Int → T} (h : Seg m w n D r p0 idx) (hd : WindowDoes (InDom D) w (D.map (·.1)) ss m m')
    (hset : ∀ s ∈ ss, s.isSelf = false) (hn : ∀ s ∈ ss, ∀ i ∈ named s, i = u ∨ i = v) (hu : 0 ≤ u ∧ u < n) (hv : 0 ≤ v ∧ v < n)
    (hval : ∀ p ∈ F.nestPts r p0, ∀ mp xu xv, m.val (Spec.entryCell w p u) = some xu → m.val (Spec.entryCell w p v) = some xv →
      doStmts (D.map (·.1)) w p ss m = .ok mp → mp.val (Spec.entryCell w p u) = some (A (idx p) * xu) ∧ mp.val (Spec.entryCell w p v) = some (xv + B (idx p) * xu)) :
    F.Adj m m' (farr w) (fun c => ∃ p ∈ F.nestPts r p0, idx p = c) u v A B := by
  have hn' : ∀ s ∈ ss, ∀ i ∈ named s, 0 ≤ i ∧ i < n := fun s hs i hi => by rcases hn s hs i hi with rfl | rfl <;> assumption
  have hold : ∀ p ∈ F.nestPts r p0, ∀ e, 0 ≤ e ∧ e < n → m.val (Spec.entryCell w p e) = some (F.rd m (farr w) (e :: idx p)) := fun p hp e he => by
    obtain ⟨x, hx⟩ := h.arr.alloc _ (h.inside (h.loop.inDom hp) he)
    rw [← h.entryCell] at hx
    unfold F.rd
    rw [(h.entry hp he).2]; exact ld_some ⟨x, hx⟩
  have hnew : ∀ p ∈ F.nestPts r p0, m'.val (Spec.entryCell w p u) = some (A (idx p) * F.rd m (farr w) (u :: idx p)) ∧
      m'.val (Spec.entryCell w p v) = some (F.rd m (farr w) (v :: idx p) + B (idx p) * F.rd m (farr w) (u :: idx p)) := fun p hp => by
    obtain ⟨mp, h1, h2⟩ := h.at_ hd hset hn' hp hu
    obtain ⟨mq, h3, h4⟩ := h.at_ hd hset hn' hp hv
    rw [h1, Except.ok.injEq] at h3
    subst h3
    obtain ⟨h5, h6⟩ := hval p hp mp _ _ (hold p hp u hu) (hold p hp v hv) h1
    exact ⟨h2.trans h5, h4.trans h6⟩
  have hw : ∀ q, InDom D q → ∀ z, allWrites w q ss z → ∃ p ∈ F.nestPts r p0, ∃ i, (i = u ∨ i = v) ∧ z = Spec.entryCell w p i := fun q hq z hz => by
    obtain ⟨s, hs, i, hi, -, ez⟩ := set_writes hset hz
    obtain ⟨p, hp, hpq⟩ := h.loop.surj hq
    exact ⟨p, hp, i, hn s hs i hi, ez.trans (h.fit.entry_congr hpq i)⟩
  have hin : ∀ i, (i = u ∨ i = v) → 0 ≤ i ∧ i < n := fun i hi => by rcases hi with rfl | rfl <;> assumption
  constructor
  · refine ⟨fun q hq => hd.frame q fun p hp hz => ?_, hd.ints⟩
    obtain ⟨p', hp', i, hi, rfl⟩ := hw p hp q hz
    obtain ⟨b, e⟩ := h.entry hp' (hin i hi)
    exact hq (farr w) (by simp) _ b e
  · rintro c ⟨p, hp, rfl⟩
    refine ⟨(h.entry hp hu).1, ?_⟩
    have e := (h.entry hp hu).2
    unfold F.Arr.addrT at e
    rw [e]; exact (hnew p hp).1
  · rintro c ⟨p, hp, rfl⟩
    refine ⟨(h.entry hp hv).1, ?_⟩
    have e := (h.entry hp hv).2
    unfold F.Arr.addrT at e
    rw [e]; exact (hnew p hp).2
  · intro e c hb hne
    refine hd.frame _ fun p hp hz => ?_
    obtain ⟨p', hp', i, hi, ez⟩ := hw p hp _ hz
    rw [← (h.entry hp' (hin i hi)).2] at ez
    have := F.addrT_inj hb (h.entry hp' (hin i hi)).1 ez
    rw [List.cons.injEq] at this
    exact hne ⟨⟨p', hp', this.2.symm⟩, by rw [this.1]; exact hi⟩

end

section
variable [Field T] {m t : Mem T} {a : F.Arr} {L : List Int → Prop} {u v : Int} {A B : List Int → T}

theorem F.Adj.rdRest (h : F.Adj m t a L u v A B) {e : Int} {c : List Int} (hb : F.InBounds a.dims (e :: c)) (hn : ¬ (L c ∧ (e = u ∨ e = v))) :
    F.rd t a (e :: c) = F.rd m a (e :: c) := by
  unfold F.rd ld
  rw [h.rest e c hb hn]

theorem F.Adj.some (h : F.Adj m t a L u v A B) (hd : a.dims ≠ []) {q : Ptr} (hq : ∃ x, m.val q = .some x) : ∃ x, t.val q = .some x := by
  by_cases hh : ∃ is, F.InBounds a.dims is ∧ q = a.addrT is
  · obtain ⟨is, hb, rfl⟩ := hh
    match is, hb with
    | [], hb =>
      cases ha : a.dims with
      | nil => exact absurd ha hd
      | cons x y => rw [ha] at hb; simp [F.InBounds] at hb
    | e :: c, hb =>
      by_cases hl : L c ∧ (e = u ∨ e = v)
      · obtain ⟨hl, rfl | rfl⟩ := hl
        · exact ⟨_, (h.atU c hl).2⟩
        · exact ⟨_, (h.atV c hl).2⟩
      · rw [h.rest e c hb hl]; exact hq
  · rw [h.only.val q fun b hb is hi e => hh ⟨is, by simp at hb; subst hb; exact ⟨hi, e.symm⟩⟩]; exact hq

theorem F.Adj.ok (h : F.Adj m t a L u v A B) (hd : a.dims ≠ []) {b : F.Arr} (hb : F.ArrOK m b) : F.ArrOK t b :=
  ⟨fun is hi => h.some hd (hb.alloc is hi), hb.fits, hb.int⟩

theorem F.Adj.args (h : F.Adj m t a L u v A B) (hd : a.dims ≠ []) {ins outs : List F.Arr} (ha : F.Args m ins outs) : F.Args t ins outs :=
  ⟨fun b hb => h.ok hd (ha.ok b hb), ha.apart⟩

end

section
variable [Field T] {m : Mem T} {w : Span} {n : Int} {D : List DB} {r : List (Dim × Int × Int)} {p0 : Pt} {idx : Pt → List Int} {β : Backend}

/-- an adjustment ends and does what is said -/
def F.Adjusts (x : M (Mem T)) (m : Mem T) (a : F.Arr) (L : List Int → Prop) (u v : Int) (A B : List Int → T) : Prop :=
  ∃ m', x = .ok m' ∧ F.Adj m m' a L u v A B

theorem F.Adjusts.bind {α : Type} {x : M α} {y : α} {g : α → M (Mem T)} {m : Mem T} {a : F.Arr} {L : List Int → Prop} {u v : Int} {A B : List Int → T}
    (hx : x = .ok y) (h : F.Adjusts (g y) m a L u v A B) : F.Adjusts (x >>= g) m a L u v A B := by
  subst hx; exact h

theorem adj0_1 (h : Seg m w n D r p0 idx) (hβ : ValidBackend β) {u v : Int} (hu : 0 ≤ u ∧ u < n) (hv : 0 ≤ v ∧ v < n) (huv : u ≠ v) {c : T} :
    F.Adjusts (Cuda.adjOffdiagBt0 1 c u v w D β m) m (farr w) (fun c => ∃ p ∈ F.nestPts r p0, idx p = c) u v (fun _ => c) (fun _ => 0) := by
  obtain ⟨m', h1, -, h3⟩ := h.pn hβ hu (f := (· * ·)) (c := c) (fe := fun x => x * F.Expr.const c) (by leaf) (by leaf)
  refine ⟨m', h1, h.adj h3 (by simp [WStmt.isSelf]) (by simp [named]) hu hv fun p hp mp xu xv eu ev hs => ?_⟩
  have hne : Spec.entryCell w p v ≠ Spec.entryCell w p u := fun e => huv
    (h.fit.entry_inj (h.loop.inDom hp) (h.loop.inDom hp) (by rw [h.winLen]; exact hv) (by rw [h.winLen]; exact hu) e).2.symm
  simp only [doStmts, doStmt, proxyDen, Mem.load, eu, put, Mem.store, arith, bind, Except.bind, Except.ok.injEq] at hs
  subst hs
  simp [hne, ev, mul_comm]

theorem adj0_2 (h : Seg m w n D r p0 idx) (hβ : ValidBackend β) {u v : Int} (hu : 0 ≤ u ∧ u < n) (hv : 0 ≤ v ∧ v < n) (huv : u ≠ v) {c : T} :
    F.Adjusts (Cuda.adjOffdiagBt0 2 c u v w D β m) m (farr w) (fun c => ∃ p ∈ F.nestPts r p0, idx p = c) u v (fun _ => 8 / 3) (fun _ => 1 / 3) := by
  obtain ⟨m', h1, -, h3⟩ := h.two hβ hu hv (f := (· + ·)) (g := (· / ·)) (k := (· * ·)) (c := 3) (d := 8 / 3) (fe := fun x y => x + y / F.Expr.const 3)
    (fe' := fun x => x * F.Expr.const (8 / 3)) (by leaf) (by leaf) (by leaf) (by leaf)
  refine ⟨m', h1, h.adj h3 (by simp [WStmt.isSelf]) (by simp [named]) hu hv fun p hp mp xu xv eu ev hs => ?_⟩
  have hne : Spec.entryCell w p v ≠ Spec.entryCell w p u := fun e => huv
    (h.fit.entry_inj (h.loop.inDom hp) (h.loop.inDom hp) (by rw [h.winLen]; exact hv) (by rw [h.winLen]; exact hu) e).2.symm
  have hne' : Spec.entryCell w p u ≠ Spec.entryCell w p v := fun e => hne e.symm
  simp only [doStmts, doStmt, proxyDen, Mem.load, eu, ev, put, Mem.store, arith, bind, Except.bind, Except.ok.injEq, hne', if_false] at hs
  subst hs
  constructor <;> simp [hne, hne', eu, ev, mul_comm, div_eq_mul_inv]

theorem adj1 (h : Seg m w n D r p0 idx) (hβ : ValidBackend β) {u v : Int} (hu : 0 ≤ u ∧ u < n) (hv : 0 ≤ v ∧ v < n) (huv : u ≠ v) :
    F.Adjusts (Cuda.adjOffdiagBt1 u w D β m) m (farr w) (fun c => ∃ p ∈ F.nestPts r p0, idx p = c) u v (fun _ => 0) (fun _ => 0) := by
  obtain ⟨m', h1, -, h3⟩ := h.num hβ hu (c := (0 : T)) rfl
  refine ⟨m', h1, h.adj h3 (by simp [WStmt.isSelf]) (by simp [named]) hu hv fun p hp mp xu xv eu ev hs => ?_⟩
  have hne : Spec.entryCell w p v ≠ Spec.entryCell w p u := fun e => huv
    (h.fit.entry_inj (h.loop.inDom hp) (h.loop.inDom hp) (by rw [h.winLen]; exact hv) (by rw [h.winLen]; exact hu) e).2.symm
  have hne' : Spec.entryCell w p u ≠ Spec.entryCell w p v := fun e => hne e.symm
  simp only [doStmts, doStmt, proxyDen, Mem.load, eu, ev, put, Mem.store, arith, bind, Except.bind, Except.ok.injEq, hne', if_false] at hs
  subst hs
  constructor <;> simp [hne, hne', eu, ev, mul_comm, div_eq_mul_inv]

theorem adj4_1 (h : Seg m w n D r p0 idx) (hβ : ValidBackend β) {u v : Int} (hu : 0 ≤ u ∧ u < n) (hv : 0 ≤ v ∧ v < n) (huv : u ≠ v) {a : Acc} {arr : F.Arr}
    {bidx : Pt → List Int} (ho : Opnd m w D r p0 a arr bidx) {hh beta : T} {b : List Int → T} (hb : ∀ p ∈ F.nestPts r p0, F.rd m arr (bidx p) = b (idx p)) :
    F.Adjusts (Cuda.adjOffdiagBt4 1 hh beta u v w a D β m) m (farr w) (fun c => ∃ p ∈ F.nestPts r p0, idx p = c) u v
      (fun c => 2 * hh / (4 * b c + hh)) (fun _ => 0) := by
  obtain ⟨m', h1, -, h3⟩ := h.pe hβ hu ho (f := (· * ·)) (e := .right (arith (· / ·)) (2 * hh) (.left (arith (· + ·)) (.right (arith (· * ·)) (4) (.acc a)) hh)) (g := fun b => 2 * hh / (4 * b + hh))
    (fe := fun x y => x * (F.Expr.const (2 * hh) / (F.Expr.const 4 * y + F.Expr.const hh)))
    (fun h => h) (fun s hs => List.mem_singleton.1 hs) (.right (.left (.right .acc opShape_arith_num) opShape_arith_num) opShape_arith_num) rfl
    (fun m1 p => rfl) (by leaf) (by leaf)
  refine ⟨m', h1, h.adj h3 (by simp [WStmt.isSelf]) (by simp [named]) hu hv fun p hp mp xu xv eu ev hs => ?_⟩
  have hb' := hb p hp
  unfold F.rd at hb'
  rw [(ho.at_ p hp).2] at hb'
  have hl : m.load (accCell a p) = .ok (b (idx p)) := by
    have := ld_some (h := ho.alloc _ (acc_element ho.ok (h.loop.inDom hp)).choose_spec.1)
    rw [← (acc_element ho.ok (h.loop.inDom hp)).choose_spec.2, hb'] at this
    simp [Mem.load, this]
  have hne : Spec.entryCell w p v ≠ Spec.entryCell w p u := fun e => huv
    (h.fit.entry_inj (h.loop.inDom hp) (h.loop.inDom hp) (by rw [h.winLen]; exact hv) (by rw [h.winLen]; exact hu) e).2.symm
  have hl' : m.load (Spec.entryCell w p u) = .ok xu := by simp [Mem.load, eu]
  simp only [doStmts, doStmt, proxyDen, den, hl, hl', put, Mem.store, eu, arith, bind, Except.bind, Except.ok.injEq] at hs
  subst hs
  constructor <;> simp [hne, ev, mul_comm]

theorem padj4_1 (h : Seg m w n D r p0 idx) (hβ : ValidBackend β) {u v : Int} (hu : 0 ≤ u ∧ u < n) (hv : 0 ≤ v ∧ v < n) (huv : u ≠ v) {hh beta : T} :
    F.Adjusts (Cuda.adjPoissonOffdiagBt4 1 hh beta u v w D β m) m (farr w) (fun c => ∃ p ∈ F.nestPts r p0, idx p = c) u v
      (fun _ => 2 * hh / (4 + hh)) (fun _ => 0) := by
  obtain ⟨m', h1, -, h3⟩ := h.pn hβ hu (f := (· * ·)) (c := 2 * hh / (4 + hh)) (fe := fun x => x * F.Expr.const (2 * hh / (4 + hh))) (by leaf) (by leaf)
  refine ⟨m', h1, h.adj h3 (by simp [WStmt.isSelf]) (by simp [named]) hu hv fun p hp mp xu xv eu ev hs => ?_⟩
  have hne : Spec.entryCell w p v ≠ Spec.entryCell w p u := fun e => huv
    (h.fit.entry_inj (h.loop.inDom hp) (h.loop.inDom hp) (by rw [h.winLen]; exact hv) (by rw [h.winLen]; exact hu) e).2.symm
  have hne' : Spec.entryCell w p u ≠ Spec.entryCell w p v := fun e => hne e.symm
  simp only [doStmts, doStmt, proxyDen, Mem.load, eu, ev, put, Mem.store, arith, bind, Except.bind, Except.ok.injEq, hne', if_false] at hs
  subst hs
  constructor <;> simp [hne, hne', eu, ev, mul_comm, div_eq_mul_inv]

theorem F.Adjusts.congr {x : M (Mem T)} {a : F.Arr} {L L' : List Int → Prop} {u v : Int} {A B A' B' : List Int → T} (h : F.Adjusts x m a L u v A B)
    (hL : ∀ c, L c ↔ L' c) (hA : ∀ c, L' c → A c = A' c) (hB : ∀ c, L' c → B c = B' c) : F.Adjusts x m a L' u v A' B' := by
  obtain ⟨m', h1, h2⟩ := h
  refine ⟨m', h1, h2.only, fun c hc => ?_, fun c hc => ?_, fun e c hb hn => h2.rest e c hb fun hh => hn ⟨(hL c).1 hh.1, hh.2⟩⟩
  · rw [← hA c hc]; exact h2.atU c ((hL c).2 hc)
  · rw [← hB c hc]; exact h2.atV c ((hL c).2 hc)

end

/-! ### the row of a cell -/

section
variable [Field T]

/-- what the entry of the ghost cell is multiplied by -/
def facU (btype exOrder : Int) (h b : T) : T :=
  if btype = 0 then (if exOrder = 1 then 2 else 8 / 3) else if btype = 1 then 0 else 2 * h / (4 * b + h)

/-- what is added to the entry opposite, in terms of the entry of the ghost cell -/
def facV (btype exOrder : Int) : T := if btype = 0 then (if exOrder = 1 then 0 else 1 / 3) else 0

open Polynomial in
theorem weights [CharZero T] {btype exOrder : Int} {h b g : T} {p : T[X]} (hm : F.Meets btype exOrder b g p) (hr : ¬ (btype = 4 ∧ exOrder = 2))
    (hb : btype = 4 → 4 * b + h ≠ 0) :
    p.eval (-(1 / 2) * h) = facU btype exOrder h b * g + (1 - facU btype exOrder h b - facV btype exOrder) * p.eval (1 / 2 * h) +
      facV btype exOrder * p.eval (3 / 2 * h) := by
  rcases hm with ⟨rfl, rfl, hp, rfl⟩ | ⟨rfl, rfl, hp, rfl⟩ | ⟨rfl, hp, h0⟩ | ⟨rfl, rfl, hp, rfl⟩ | ⟨rfl, rfl, -⟩
  · have hp4 : p.natDegree ≤ 4 := by omega
    simp only [facU, facV, reduceIte, eval_le hp4, coeff_gt hp (show 1 < 2 by decide), coeff_gt hp (show 1 < 3 by decide), coeff_gt hp (show 1 < 4 by decide)]
    ring
  · have hp4 : p.natDegree ≤ 4 := by omega
    simp only [facU, facV, reduceIte, Int.reduceEq, eval_le hp4, coeff_gt hp (show 2 < 3 by decide), coeff_gt hp (show 2 < 4 by decide)]
    field_simp
    ring
  · have hp4 : p.natDegree ≤ 4 := by omega
    rw [← coeff_zero_eq_eval_zero, coeff_derivative] at h0
    simp only [zero_add, Nat.cast_zero, mul_one] at h0
    simp only [facU, facV, reduceIte, Int.reduceEq, eval_le hp4, h0, coeff_gt hp (show 2 < 3 by decide), coeff_gt hp (show 2 < 4 by decide)]
    ring
  · have hp4 : p.natDegree ≤ 4 := by omega
    have hb := hb rfl
    have e1 : p.derivative.eval 0 = p.coeff 1 := by rw [← coeff_zero_eq_eval_zero, coeff_derivative]; simp
    rw [e1]
    simp only [facU, facV, reduceIte, Int.reduceEq, eval_le hp4, coeff_gt hp (show 1 < 2 by decide), coeff_gt hp (show 1 < 3 by decide), coeff_gt hp (show 1 < 4 by decide)]
    field_simp
    ring
  · exact absurd ⟨rfl, rfl⟩ hr

/-- the diagonal kernels: minus the sum of the other entries, plus `k` -/
structure F.Diagonal (m m' : Mem T) (a : F.Arr) (N : Int) (P : List Int → Prop) (k : List Int → T) : Prop where
  zero : ∀ c, P c → F.rd m' a (0 :: c) = -F.sum 1 N (fun e => F.rd m a (e :: c)) + k c
  other : ∀ c, P c → ∀ e, 1 ≤ e → e ≤ N → F.rd m' a (e :: c) = F.rd m a (e :: c)

theorem elim_row1 [CharZero T] {m s t t' : Mem T} {a : F.Arr} {P L : List Int → Prop} {k A B : List Int → T} {u v btype exOrder : Int} {c : List Int} {h b : T}
    (hd : F.Diagonal m s a (3 - 1) P k) (hd' : F.Diagonal t t' a (3 - 1) P k) (ha : F.Adj m t a L u v A B) (hc : L c) (hP : P c)
    (hin : ∀ e : Int, 1 ≤ e → e ≤ 3 - 1 → F.InBounds a.dims (e :: c)) (huv : (u = 1 ∧ v = 2) ∨ (u = 2 ∧ v = 1))
    (hr : ¬ (btype = 4 ∧ exOrder = 2)) (hb : btype = 4 → 4 * b + h ≠ 0) (eA : A c = facU btype exOrder h b) (eB : B c = facV btype exOrder) :
    F.Eliminates (3 - 1) (F.rd s a) (F.rd t' a) c u v btype exOrder h b := by
  intro p g X hm h0 hv
  have hx : p.eval (-(1 / 2) * h) = A c * g + (1 - A c - B c) * X 0 + B c * X v := by
    rw [weights hm hr hb, h0, eA, eB]
    rcases hm with ⟨rfl, rfl, -⟩ | ⟨rfl, rfl, -⟩ | ⟨rfl, -⟩ | ⟨rfl, rfl, -⟩ | ⟨rfl, rfl, -⟩
    · simp [facV]
    · rw [hv (by decide) rfl]
    · simp [facV]
    · simp [facV]
    · simp [facV]
  have ru := (ha.atU c hc).rd
  have rv := (ha.atV c hc).rd
  have ro : ∀ e : Int, 1 ≤ e → e ≤ 3 - 1 → e ≠ u → e ≠ v → F.rd t a (e :: c) = F.rd m a (e :: c) := fun e h1 h2 h3 h4 =>
    ha.rdRest (hin e h1 h2) fun h => by rcases h.2 with h | h <;> contradiction
  unfold F.rowOf
  rw [F.star1, F.star1, hd.zero c hP, hd'.zero c hP, F.ring1, F.ring1]
  rw [hd.other c hP 1 (by decide) (by decide)]
  rw [hd.other c hP 2 (by decide) (by decide)]
  rw [hd'.other c hP 1 (by decide) (by decide)]
  rw [hd'.other c hP 2 (by decide) (by decide)]
  rcases huv with ⟨rfl, rfl⟩ | ⟨rfl, rfl⟩
  · rw [ru, rv]
    simp only [Int.reduceEq, reduceIte]
    linear_combination -F.rd m a (1 :: c) * hx
  · rw [ru, rv]
    simp only [Int.reduceEq, reduceIte]
    linear_combination -F.rd m a (2 :: c) * hx

theorem elim_row2 [CharZero T] {m s t t' : Mem T} {a : F.Arr} {P L : List Int → Prop} {k A B : List Int → T} {u v btype exOrder : Int} {c : List Int} {h b : T}
    (hd : F.Diagonal m s a (5 - 1) P k) (hd' : F.Diagonal t t' a (5 - 1) P k) (ha : F.Adj m t a L u v A B) (hc : L c) (hP : P c)
    (hin : ∀ e : Int, 1 ≤ e → e ≤ 5 - 1 → F.InBounds a.dims (e :: c)) (huv : (u = 1 ∧ v = 2) ∨ (u = 3 ∧ v = 4) ∨ (u = 2 ∧ v = 1) ∨ (u = 4 ∧ v = 3))
    (hr : ¬ (btype = 4 ∧ exOrder = 2)) (hb : btype = 4 → 4 * b + h ≠ 0) (eA : A c = facU btype exOrder h b) (eB : B c = facV btype exOrder) :
    F.Eliminates (5 - 1) (F.rd s a) (F.rd t' a) c u v btype exOrder h b := by
  intro p g X hm h0 hv
  have hx : p.eval (-(1 / 2) * h) = A c * g + (1 - A c - B c) * X 0 + B c * X v := by
    rw [weights hm hr hb, h0, eA, eB]
    rcases hm with ⟨rfl, rfl, -⟩ | ⟨rfl, rfl, -⟩ | ⟨rfl, -⟩ | ⟨rfl, rfl, -⟩ | ⟨rfl, rfl, -⟩
    · simp [facV]
    · rw [hv (by decide) rfl]
    · simp [facV]
    · simp [facV]
    · simp [facV]
  have ru := (ha.atU c hc).rd
  have rv := (ha.atV c hc).rd
  have ro : ∀ e : Int, 1 ≤ e → e ≤ 5 - 1 → e ≠ u → e ≠ v → F.rd t a (e :: c) = F.rd m a (e :: c) := fun e h1 h2 h3 h4 =>
    ha.rdRest (hin e h1 h2) fun h => by rcases h.2 with h | h <;> contradiction
  unfold F.rowOf
  rw [F.star2, F.star2, hd.zero c hP, hd'.zero c hP, F.ring2, F.ring2]
  rw [hd.other c hP 1 (by decide) (by decide)]
  rw [hd.other c hP 2 (by decide) (by decide)]
  rw [hd.other c hP 3 (by decide) (by decide)]
  rw [hd.other c hP 4 (by decide) (by decide)]
  rw [hd'.other c hP 1 (by decide) (by decide)]
  rw [hd'.other c hP 2 (by decide) (by decide)]
  rw [hd'.other c hP 3 (by decide) (by decide)]
  rw [hd'.other c hP 4 (by decide) (by decide)]
  rcases huv with ⟨rfl, rfl⟩ | ⟨rfl, rfl⟩ | ⟨rfl, rfl⟩ | ⟨rfl, rfl⟩
  · rw [ro 3 (by decide) (by decide) (by decide) (by decide), ro 4 (by decide) (by decide) (by decide) (by decide), ru, rv]
    simp only [Int.reduceEq, reduceIte]
    linear_combination -F.rd m a (1 :: c) * hx
  · rw [ro 1 (by decide) (by decide) (by decide) (by decide), ro 2 (by decide) (by decide) (by decide) (by decide), ru, rv]
    simp only [Int.reduceEq, reduceIte]
    linear_combination -F.rd m a (3 :: c) * hx
  · rw [ro 3 (by decide) (by decide) (by decide) (by decide), ro 4 (by decide) (by decide) (by decide) (by decide), ru, rv]
    simp only [Int.reduceEq, reduceIte]
    linear_combination -F.rd m a (2 :: c) * hx
  · rw [ro 1 (by decide) (by decide) (by decide) (by decide), ro 2 (by decide) (by decide) (by decide) (by decide), ru, rv]
    simp only [Int.reduceEq, reduceIte]
    linear_combination -F.rd m a (4 :: c) * hx

theorem elim_row3 [CharZero T] {m s t t' : Mem T} {a : F.Arr} {P L : List Int → Prop} {k A B : List Int → T} {u v btype exOrder : Int} {c : List Int} {h b : T}
    (hd : F.Diagonal m s a (7 - 1) P k) (hd' : F.Diagonal t t' a (7 - 1) P k) (ha : F.Adj m t a L u v A B) (hc : L c) (hP : P c)
    (hin : ∀ e : Int, 1 ≤ e → e ≤ 7 - 1 → F.InBounds a.dims (e :: c)) (huv : (u = 1 ∧ v = 2) ∨ (u = 3 ∧ v = 4) ∨ (u = 5 ∧ v = 6) ∨ (u = 2 ∧ v = 1) ∨ (u = 4 ∧ v = 3) ∨ (u = 6 ∧ v = 5))
    (hr : ¬ (btype = 4 ∧ exOrder = 2)) (hb : btype = 4 → 4 * b + h ≠ 0) (eA : A c = facU btype exOrder h b) (eB : B c = facV btype exOrder) :
    F.Eliminates (7 - 1) (F.rd s a) (F.rd t' a) c u v btype exOrder h b := by
  intro p g X hm h0 hv
  have hx : p.eval (-(1 / 2) * h) = A c * g + (1 - A c - B c) * X 0 + B c * X v := by
    rw [weights hm hr hb, h0, eA, eB]
    rcases hm with ⟨rfl, rfl, -⟩ | ⟨rfl, rfl, -⟩ | ⟨rfl, -⟩ | ⟨rfl, rfl, -⟩ | ⟨rfl, rfl, -⟩
    · simp [facV]
    · rw [hv (by decide) rfl]
    · simp [facV]
    · simp [facV]
    · simp [facV]
  have ru := (ha.atU c hc).rd
  have rv := (ha.atV c hc).rd
  have ro : ∀ e : Int, 1 ≤ e → e ≤ 7 - 1 → e ≠ u → e ≠ v → F.rd t a (e :: c) = F.rd m a (e :: c) := fun e h1 h2 h3 h4 =>
    ha.rdRest (hin e h1 h2) fun h => by rcases h.2 with h | h <;> contradiction
  unfold F.rowOf
  rw [F.star3, F.star3, hd.zero c hP, hd'.zero c hP, F.ring3, F.ring3]
  rw [hd.other c hP 1 (by decide) (by decide)]
  rw [hd.other c hP 2 (by decide) (by decide)]
  rw [hd.other c hP 3 (by decide) (by decide)]
  rw [hd.other c hP 4 (by decide) (by decide)]
  rw [hd.other c hP 5 (by decide) (by decide)]
  rw [hd.other c hP 6 (by decide) (by decide)]
  rw [hd'.other c hP 1 (by decide) (by decide)]
  rw [hd'.other c hP 2 (by decide) (by decide)]
  rw [hd'.other c hP 3 (by decide) (by decide)]
  rw [hd'.other c hP 4 (by decide) (by decide)]
  rw [hd'.other c hP 5 (by decide) (by decide)]
  rw [hd'.other c hP 6 (by decide) (by decide)]
  rcases huv with ⟨rfl, rfl⟩ | ⟨rfl, rfl⟩ | ⟨rfl, rfl⟩ | ⟨rfl, rfl⟩ | ⟨rfl, rfl⟩ | ⟨rfl, rfl⟩
  · rw [ro 3 (by decide) (by decide) (by decide) (by decide), ro 4 (by decide) (by decide) (by decide) (by decide), ro 5 (by decide) (by decide) (by decide) (by decide), ro 6 (by decide) (by decide) (by decide) (by decide), ru, rv]
    simp only [Int.reduceEq, reduceIte]
    linear_combination -F.rd m a (1 :: c) * hx
  · rw [ro 1 (by decide) (by decide) (by decide) (by decide), ro 2 (by decide) (by decide) (by decide) (by decide), ro 5 (by decide) (by decide) (by decide) (by decide), ro 6 (by decide) (by decide) (by decide) (by decide), ru, rv]
    simp only [Int.reduceEq, reduceIte]
    linear_combination -F.rd m a (3 :: c) * hx
  · rw [ro 1 (by decide) (by decide) (by decide) (by decide), ro 2 (by decide) (by decide) (by decide) (by decide), ro 3 (by decide) (by decide) (by decide) (by decide), ro 4 (by decide) (by decide) (by decide) (by decide), ru, rv]
    simp only [Int.reduceEq, reduceIte]
    linear_combination -F.rd m a (5 :: c) * hx
  · rw [ro 3 (by decide) (by decide) (by decide) (by decide), ro 4 (by decide) (by decide) (by decide) (by decide), ro 5 (by decide) (by decide) (by decide) (by decide), ro 6 (by decide) (by decide) (by decide) (by decide), ru, rv]
    simp only [Int.reduceEq, reduceIte]
    linear_combination -F.rd m a (2 :: c) * hx
  · rw [ro 1 (by decide) (by decide) (by decide) (by decide), ro 2 (by decide) (by decide) (by decide) (by decide), ro 5 (by decide) (by decide) (by decide) (by decide), ro 6 (by decide) (by decide) (by decide) (by decide), ru, rv]
    simp only [Int.reduceEq, reduceIte]
    linear_combination -F.rd m a (4 :: c) * hx
  · rw [ro 1 (by decide) (by decide) (by decide) (by decide), ro 2 (by decide) (by decide) (by decide) (by decide), ro 3 (by decide) (by decide) (by decide) (by decide), ro 4 (by decide) (by decide) (by decide) (by decide), ru, rv]
    simp only [Int.reduceEq, reduceIte]
    linear_combination -F.rd m a (6 :: c) * hx

theorem same_rows {m s t t' : Mem T} {a : F.Arr} {P L : List Int → Prop} {k A B : List Int → T} {u v N : Int} {c : List Int}
    (hd : F.Diagonal m s a N P k) (hd' : F.Diagonal t t' a N P k) (ha : F.Adj m t a L u v A B) (hc : ¬ L c) (hP : P c)
    (hin : ∀ e : Int, 1 ≤ e → e ≤ N → F.InBounds a.dims (e :: c)) {e : Int} (h0 : 0 ≤ e) (h1 : e ≤ N) : F.rd t' a (e :: c) = F.rd s a (e :: c) := by
  have ro : ∀ e : Int, 1 ≤ e → e ≤ N → F.rd t a (e :: c) = F.rd m a (e :: c) := fun e h1 h2 => ha.rdRest (hin e h1 h2) fun h => hc h.1
  by_cases he : e = 0
  · subst he
    rw [hd.zero c hP, hd'.zero c hP]
    congr 2
    unfold F.sum
    congr 1
    refine List.map_congr_left fun e he => ?_
    rw [F.mem_irange] at he
    exact ro e he.1 he.2
  · rw [hd.other c hP e (by omega) h1, hd'.other c hP e (by omega) h1, ro e (by omega) h1]

end

end Verif
