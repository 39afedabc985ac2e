import Verif.Spec.Bridge
import Verif.Lemmas.Eliminate

/-
The kernels that adjust coefficients next to a coarse-fine boundary, cell by cell.
-/

set_option linter.unusedVariables false
set_option linter.unusedSectionVars false
set_option linter.unusedSimpArgs false

namespace Verif
open Spec

variable {T : Type} [Field T]

/-- what the entry of the ghost cell is multiplied by -/
def cfU (T : Type) [Field T] (r k : Int) : T := if k = 1 then 2 / 3 else 8 / (((r : T) + 1) * ((r : T) + 3))

/-- what is added to the entry opposite, in terms of the entry of the ghost cell -/
def cfV (T : Type) [Field T] (r k : Int) : T := if k = 1 then 0 else -(((r : T) - 1) / ((r : T) + 3))

/-- what is added to the diagonal, in terms of the entry of the ghost cell -/
def cfD (T : Type) [Field T] (r k : Int) : T := if k = 1 then 1 / 3 else 2 * ((r : T) - 1) / ((r : T) + 1)

theorem cfSum [CharZero T] {r k : Int} (h1 : (r : T) + 1 ≠ 0) (h3 : (r : T) + 3 ≠ 0) : cfD T r k = 1 - cfU T r k - cfV T r k := by
  unfold cfD cfU cfV
  split
  · norm_num
  · field_simp
    ring

open Polynomial in
theorem cf_weights [CharZero T] {r k : Int} {h : T} {p : T[X]} (hk : (k = 1 ∧ r = 2 ∧ p.natDegree ≤ 1) ∨ (k = 2 ∧ p.natDegree ≤ 2)) (h1 : (r : T) + 1 ≠ 0)
    (h3 : (r : T) + 3 ≠ 0) :
    p.eval (-(1 / 2) * h) = cfU T r k * p.eval (-((r : T) / 2) * h) + (1 - cfU T r k - cfV T r k) * p.eval (1 / 2 * h) + cfV T r k * p.eval (3 / 2 * h) := by
  rcases hk with ⟨rfl, rfl, hp⟩ | ⟨rfl, hp⟩
  · have hp4 : p.natDegree ≤ 4 := by omega
    simp only [cfU, cfV, reduceIte, eval_le hp4, coeff_gt hp (show 1 < 2 by decide), coeff_gt hp (show 1 < 3 by decide), coeff_gt hp (show 1 < 4 by decide)]
    push_cast
    field_simp
    ring
  · have hp4 : p.natDegree ≤ 4 := by omega
    simp only [cfU, cfV, reduceIte, Int.reduceEq, eval_le hp4, coeff_gt hp (show 2 < 3 by decide), coeff_gt hp (show 2 < 4 by decide)]
    field_simp
    ring

section
variable {m : Mem T} {w : Span} {n : Int} {D : List DB} {r : List (Dim × Int × Int)} {p0 : Pt} {idx : Pt → List Int} {β : Backend}

theorem Seg.rd_some (h : Seg m w n D r p0 idx) {p : Pt} (hp : p ∈ F.nestPts r p0) {e : Int} (he : 0 ≤ e ∧ e < n) {x : T}
    (hx : m.val (Spec.entryCell w p e) = some x) : F.rd m (farr w) (e :: idx p) = x := by
  unfold F.rd ld
  rw [(h.entry hp he).2, hx]
  rfl

theorem cfd1 (h : Seg m w n D r p0 idx) (hβ : ValidBackend β) {u rr : Int} (hu : 0 ≤ u ∧ u < n) (hu0 : u ≠ 0) {a : Acc} {arr : F.Arr}
    {bidx : Pt → List Int} (ho : Opnd m w D r p0 a arr bidx) {f dr : T}
    (hx : ∀ p ∈ F.nestPts r p0, F.rd m (farr w) (u :: idx p) = -f * F.rd m arr (bidx p)) :
    F.Adjusts (Cuda.adjCfDiagFunc 1 w f dr a D β m) m (farr w) (fun c => ∃ p ∈ F.nestPts r p0, idx p = c) u 0 (fun _ => 1) (fun _ => cfD T rr 1) := by
  obtain ⟨m', h1, -, h3⟩ := h.pe hβ (u := 0) ⟨le_rfl, by omega⟩ ho (f := (· - ·)) (e := .right (arith (· * ·)) (f / 3) (.acc a)) (g := fun b => f / 3 * b)
    (fe := fun x y => x - F.Expr.const (f / 3) * y)
    (fun h => h) (fun s hs => List.mem_singleton.1 hs) (.right .acc opShape_arith_num) rfl (fun m1 p => rfl) (by leaf) (by leaf)
  refine ⟨m', h1, h.adj h3 (by simp [WStmt.isSelf]) (by simp [named]) hu ⟨le_rfl, by omega⟩ fun p hp mp xu xv eu ev hs => ?_⟩
  have hb := hx p hp
  rw [h.rd_some hp hu eu] at hb
  unfold F.rd at hb
  rw [(ho.at_ p hp).2] at hb
  have hl : m.load (accCell a p) = .ok (ld m (accCell a p)) := by
    have := ld_some (h := ho.alloc _ (acc_element ho.ok (h.loop.inDom hp)).choose_spec.1)
    rw [← (acc_element ho.ok (h.loop.inDom hp)).choose_spec.2] at this
    simp [Mem.load, this]
  have hne : Spec.entryCell w p u ≠ Spec.entryCell w p 0 := fun e => hu0
    (h.fit.entry_inj (h.loop.inDom hp) (h.loop.inDom hp) (by rw [h.winLen]; exact hu) (by rw [h.winLen]; exact ⟨le_rfl, by omega⟩) e).2
  have hl' : m.load (Spec.entryCell w p 0) = .ok xv := by simp [Mem.load, ev]
  simp only [doStmts, doStmt, proxyDen, den, hl, hl', put, Mem.store, ev, arith, bind, Except.bind, Except.ok.injEq] at hs
  subst hs
  constructor
  · simp [hne, eu]
  · simp only [if_true, hb, cfD, reduceIte, Int.reduceEq]
    rw [Option.some.injEq]
    ring

theorem pcfd1 (h : Seg m w n D r p0 idx) (hβ : ValidBackend β) {u rr : Int} (hu : 0 ≤ u ∧ u < n) (hu0 : u ≠ 0) {f dr : T}
    (hx : ∀ p ∈ F.nestPts r p0, F.rd m (farr w) (u :: idx p) = -f) :
    F.Adjusts (Cuda.adjPoissonCfDiagFunc 1 w f dr D β m) m (farr w) (fun c => ∃ p ∈ F.nestPts r p0, idx p = c) u 0 (fun _ => 1) (fun _ => cfD T rr 1) := by
  obtain ⟨m', h1, -, h3⟩ := h.pn hβ (u := 0) ⟨le_rfl, by omega⟩ (f := (· - ·)) (c := f / 3) (fe := fun x => x - F.Expr.const (f / 3)) (by leaf) (by leaf)
  refine ⟨m', h1, h.adj h3 (by simp [WStmt.isSelf]) (by simp [named]) hu ⟨le_rfl, by omega⟩ fun p hp mp xu xv eu ev hs => ?_⟩
  have hb := hx p hp
  rw [h.rd_some hp hu eu] at hb
  have hne : Spec.entryCell w p u ≠ Spec.entryCell w p 0 := fun e => hu0
    (h.fit.entry_inj (h.loop.inDom hp) (h.loop.inDom hp) (by rw [h.winLen]; exact hu) (by rw [h.winLen]; exact ⟨le_rfl, by omega⟩) e).2
  simp only [doStmts, doStmt, proxyDen, Mem.load, ev, put, Mem.store, arith, bind, Except.bind, Except.ok.injEq] at hs
  subst hs
  constructor
  · simp [hne, eu]
  · simp only [if_true, hb, cfD, reduceIte, Int.reduceEq]
    rw [Option.some.injEq]
    ring

theorem cfd2 (h : Seg m w n D r p0 idx) (hβ : ValidBackend β) {u rr : Int} (hu : 0 ≤ u ∧ u < n) (hu0 : u ≠ 0) {a : Acc} {arr : F.Arr}
    {bidx : Pt → List Int} (ho : Opnd m w D r p0 a arr bidx) {f dr : T} (hdr : dr = 2 * ((rr : T) - 1) / ((rr : T) + 1))
    (hx : ∀ p ∈ F.nestPts r p0, F.rd m (farr w) (u :: idx p) = -f * F.rd m arr (bidx p)) :
    F.Adjusts (Cuda.adjCfDiagFunc 2 w f dr a D β m) m (farr w) (fun c => ∃ p ∈ F.nestPts r p0, idx p = c) u 0 (fun _ => 1) (fun _ => cfD T rr 2) := by
  obtain ⟨m', h1, -, h3⟩ := h.pe hβ (u := 0) ⟨le_rfl, by omega⟩ ho (f := (· - ·)) (e := .right (arith (· * ·)) (f * dr) (.acc a)) (g := fun b => f * dr * b)
    (fe := fun x y => x - F.Expr.const (f * dr) * y)
    (fun h => h) (fun s hs => List.mem_singleton.1 hs) (.right .acc opShape_arith_num) rfl (fun m1 p => rfl) (by leaf) (by leaf)
  refine ⟨m', h1, h.adj h3 (by simp [WStmt.isSelf]) (by simp [named]) hu ⟨le_rfl, by omega⟩ fun p hp mp xu xv eu ev hs => ?_⟩
  have hb := hx p hp
  rw [h.rd_some hp hu eu] at hb
  unfold F.rd at hb
  rw [(ho.at_ p hp).2] at hb
  have hl : m.load (accCell a p) = .ok (ld m (accCell a p)) := by
    have := ld_some (h := ho.alloc _ (acc_element ho.ok (h.loop.inDom hp)).choose_spec.1)
    rw [← (acc_element ho.ok (h.loop.inDom hp)).choose_spec.2] at this
    simp [Mem.load, this]
  have hne : Spec.entryCell w p u ≠ Spec.entryCell w p 0 := fun e => hu0
    (h.fit.entry_inj (h.loop.inDom hp) (h.loop.inDom hp) (by rw [h.winLen]; exact hu) (by rw [h.winLen]; exact ⟨le_rfl, by omega⟩) e).2
  have hl' : m.load (Spec.entryCell w p 0) = .ok xv := by simp [Mem.load, ev]
  simp only [doStmts, doStmt, proxyDen, den, hl, hl', put, Mem.store, ev, arith, bind, Except.bind, Except.ok.injEq] at hs
  subst hs
  constructor
  · simp [hne, eu]
  · simp only [if_true, hb, cfD, reduceIte, Int.reduceEq, hdr]
    rw [Option.some.injEq]
    ring

theorem pcfd2 (h : Seg m w n D r p0 idx) (hβ : ValidBackend β) {u rr : Int} (hu : 0 ≤ u ∧ u < n) (hu0 : u ≠ 0) {f dr : T} (hdr : dr = 2 * ((rr : T) - 1) / ((rr : T) + 1))
    (hx : ∀ p ∈ F.nestPts r p0, F.rd m (farr w) (u :: idx p) = -f) :
    F.Adjusts (Cuda.adjPoissonCfDiagFunc 2 w f dr D β m) m (farr w) (fun c => ∃ p ∈ F.nestPts r p0, idx p = c) u 0 (fun _ => 1) (fun _ => cfD T rr 2) := by
  obtain ⟨m', h1, -, h3⟩ := h.pn hβ (u := 0) ⟨le_rfl, by omega⟩ (f := (· - ·)) (c := f * dr) (fe := fun x => x - F.Expr.const (f * dr)) (by leaf) (by leaf)
  refine ⟨m', h1, h.adj h3 (by simp [WStmt.isSelf]) (by simp [named]) hu ⟨le_rfl, by omega⟩ fun p hp mp xu xv eu ev hs => ?_⟩
  have hb := hx p hp
  rw [h.rd_some hp hu eu] at hb
  have hne : Spec.entryCell w p u ≠ Spec.entryCell w p 0 := fun e => hu0
    (h.fit.entry_inj (h.loop.inDom hp) (h.loop.inDom hp) (by rw [h.winLen]; exact hu) (by rw [h.winLen]; exact ⟨le_rfl, by omega⟩) e).2
  simp only [doStmts, doStmt, proxyDen, Mem.load, ev, put, Mem.store, arith, bind, Except.bind, Except.ok.injEq] at hs
  subst hs
  constructor
  · simp [hne, eu]
  · simp only [if_true, hb, cfD, reduceIte, Int.reduceEq, hdr]
    rw [Option.some.injEq]
    ring

theorem cfo_1 (h : Seg m w n D r p0 idx) (hβ : ValidBackend β) {u v rr : Int} (hu : 0 ≤ u ∧ u < n) (hv : 0 ≤ v ∧ v < n) (huv : u ≠ v) :
    F.Adjusts (Cuda.adjCfOffdiagFunc rr 1 u v w D β m) m (farr w) (fun c => ∃ p ∈ F.nestPts r p0, idx p = c) u v (fun _ => cfU T rr 1) (fun _ => cfV T rr 1) := by
  obtain ⟨m', h1, -, h3⟩ := h.pn hβ hu (f := (· * ·)) (c := 2 / 3) (fe := fun x => x * F.Expr.const (2 / 3)) (by leaf) (by leaf)
  refine ⟨m', h1, h.adj h3 (by simp [WStmt.isSelf]) (by simp [named]) hu hv fun p hp mp xu xv eu ev hs => ?_⟩
  have hne : Spec.entryCell w p v ≠ Spec.entryCell w p u := fun e => huv
    (h.fit.entry_inj (h.loop.inDom hp) (h.loop.inDom hp) (by rw [h.winLen]; exact hv) (by rw [h.winLen]; exact hu) e).2.symm
  simp only [doStmts, doStmt, proxyDen, Mem.load, eu, put, Mem.store, arith, bind, Except.bind, Except.ok.injEq] at hs
  subst hs
  simp [hne, ev, mul_comm, cfU, cfV]

theorem cfo_2 (h : Seg m w n D r p0 idx) (hβ : ValidBackend β) {u v rr : Int} (hu : 0 ≤ u ∧ u < n) (hv : 0 ≤ v ∧ v < n) (huv : u ≠ v) :
    F.Adjusts (Cuda.adjCfOffdiagFunc rr 2 u v w D β m) m (farr w) (fun c => ∃ p ∈ F.nestPts r p0, idx p = c) u v (fun _ => cfU T rr 2) (fun _ => cfV T rr 2) := by
  obtain ⟨m', h1, -, h3⟩ := h.two hβ hu hv (f := (· - ·)) (g := (· * ·)) (k := (· * ·)) (c := ((rr : T) - 1) / ((rr : T) + 3)) (d := 8 / (((rr : T) + 1) * ((rr : T) + 3)))
    (fe := fun x y => x - y * F.Expr.const (((rr : T) - 1) / ((rr : T) + 3))) (fe' := fun x => x * F.Expr.const (8 / (((rr : T) + 1) * ((rr : T) + 3)))) (by leaf) (by leaf) (by leaf) (by leaf)
  refine ⟨m', h1, h.adj h3 (by simp [WStmt.isSelf]) (by simp [named]) hu hv fun p hp mp xu xv eu ev hs => ?_⟩
  have hne : Spec.entryCell w p v ≠ Spec.entryCell w p u := fun e => huv
    (h.fit.entry_inj (h.loop.inDom hp) (h.loop.inDom hp) (by rw [h.winLen]; exact hv) (by rw [h.winLen]; exact hu) e).2.symm
  have hne' : Spec.entryCell w p u ≠ Spec.entryCell w p v := fun e => hne e.symm
  simp only [doStmts, doStmt, proxyDen, Mem.load, eu, ev, put, Mem.store, arith, bind, Except.bind, Except.ok.injEq, hne', if_false] at hs
  subst hs
  constructor
  · simp [hne', cfU, mul_comm]
  · simp only [hne, if_false, if_true, cfV, reduceIte, Int.reduceEq]
    rw [Option.some.injEq]
    ring

end

/-! ### the row of a cell -/

theorem bridge_row1 [CharZero T] {m s t : Mem T} {a : F.Arr} {L : List Int → Prop} {u v r : Int} {order : Nat} {c : List Int} {h : T}
    (hd : F.Adj m s a L u 0 (fun _ => 1) (fun _ => cfD T r order)) (ha : F.Adj s t a L u v (fun _ => cfU T r order) (fun _ => cfV T r order)) (hc : L c)
    (hin : ∀ e : Int, 0 ≤ e → e ≤ 3 - 1 → F.InBounds a.dims (e :: c)) (huv : (u = 1 ∧ v = 2) ∨ (u = 2 ∧ v = 1))
    (hk : (order = 1 ∧ r = 2) ∨ order = 2) (h1 : (r : T) + 1 ≠ 0) (h3 : (r : T) + 3 ≠ 0) : F.Bridges (3 - 1) (F.rd m a) (F.rd t a) c u v r order h := by
  intro p X hp h0 hv
  have hx : p.eval (-(1 / 2) * h) = cfU T r order * p.eval (-((r : T) / 2) * h) + cfD T r order * X 0 + cfV T r order * X v := by
    rw [cfSum h1 h3, h0]
    rcases hk with ⟨rfl, rfl⟩ | rfl
    · rw [cf_weights (k := (1 : Nat)) (.inl ⟨rfl, rfl, hp⟩) h1 h3]
      simp [cfV]
    · rw [cf_weights (k := (2 : Nat)) (.inr ⟨rfl, hp⟩) h1 h3, hv le_rfl]
  have su := (hd.atU c hc).rd
  have s0 := (hd.atV c hc).rd
  have so : ∀ e : Int, 1 ≤ e → e ≤ 3 - 1 → e ≠ u → F.rd s a (e :: c) = F.rd m a (e :: c) := fun e h1 h2 h3 =>
    hd.rdRest (hin e (by omega) h2) fun h => by rcases h.2 with h | h <;> omega
  have ru := (ha.atU c hc).rd
  have rv := (ha.atV c hc).rd
  have ro : ∀ e : Int, 0 ≤ e → e ≤ 3 - 1 → e ≠ u → e ≠ v → F.rd t a (e :: c) = F.rd s a (e :: c) := fun e h1 h2 h3 h4 =>
    ha.rdRest (hin e h1 h2) fun h => by rcases h.2 with h | h <;> contradiction
  unfold F.rowOf
  rw [F.star1, F.star1]
  rcases huv with ⟨rfl, rfl⟩ | ⟨rfl, rfl⟩
  · rw [ro 0 (by decide) (by decide) (by decide) (by decide), s0, ru, rv, su, so 2 (by decide) (by decide) (by decide)]
    simp only [Int.reduceEq, reduceIte]
    linear_combination -F.rd m a (1 :: c) * hx
  · rw [ro 0 (by decide) (by decide) (by decide) (by decide), s0, ru, rv, su, so 1 (by decide) (by decide) (by decide)]
    simp only [Int.reduceEq, reduceIte]
    linear_combination -F.rd m a (2 :: c) * hx

theorem bridge_row2 [CharZero T] {m s t : Mem T} {a : F.Arr} {L : List Int → Prop} {u v r : Int} {order : Nat} {c : List Int} {h : T}
    (hd : F.Adj m s a L u 0 (fun _ => 1) (fun _ => cfD T r order)) (ha : F.Adj s t a L u v (fun _ => cfU T r order) (fun _ => cfV T r order)) (hc : L c)
    (hin : ∀ e : Int, 0 ≤ e → e ≤ 5 - 1 → F.InBounds a.dims (e :: c)) (huv : (u = 1 ∧ v = 2) ∨ (u = 3 ∧ v = 4) ∨ (u = 2 ∧ v = 1) ∨ (u = 4 ∧ v = 3))
    (hk : (order = 1 ∧ r = 2) ∨ order = 2) (h1 : (r : T) + 1 ≠ 0) (h3 : (r : T) + 3 ≠ 0) : F.Bridges (5 - 1) (F.rd m a) (F.rd t a) c u v r order h := by
  intro p X hp h0 hv
  have hx : p.eval (-(1 / 2) * h) = cfU T r order * p.eval (-((r : T) / 2) * h) + cfD T r order * X 0 + cfV T r order * X v := by
    rw [cfSum h1 h3, h0]
    rcases hk with ⟨rfl, rfl⟩ | rfl
    · rw [cf_weights (k := (1 : Nat)) (.inl ⟨rfl, rfl, hp⟩) h1 h3]
      simp [cfV]
    · rw [cf_weights (k := (2 : Nat)) (.inr ⟨rfl, hp⟩) h1 h3, hv le_rfl]
  have su := (hd.atU c hc).rd
  have s0 := (hd.atV c hc).rd
  have so : ∀ e : Int, 1 ≤ e → e ≤ 5 - 1 → e ≠ u → F.rd s a (e :: c) = F.rd m a (e :: c) := fun e h1 h2 h3 =>
    hd.rdRest (hin e (by omega) h2) fun h => by rcases h.2 with h | h <;> omega
  have ru := (ha.atU c hc).rd
  have rv := (ha.atV c hc).rd
  have ro : ∀ e : Int, 0 ≤ e → e ≤ 5 - 1 → e ≠ u → e ≠ v → F.rd t a (e :: c) = F.rd s a (e :: c) := fun e h1 h2 h3 h4 =>
    ha.rdRest (hin e h1 h2) fun h => by rcases h.2 with h | h <;> contradiction
  unfold F.rowOf
  rw [F.star2, F.star2]
  rcases huv with ⟨rfl, rfl⟩ | ⟨rfl, rfl⟩ | ⟨rfl, rfl⟩ | ⟨rfl, rfl⟩
  · rw [ro 0 (by decide) (by decide) (by decide) (by decide), s0, ro 3 (by decide) (by decide) (by decide) (by decide), ro 4 (by decide) (by decide) (by decide) (by decide), so 3 (by decide) (by decide) (by decide), so 4 (by decide) (by decide) (by decide), ru, rv, su, so 2 (by decide) (by decide) (by decide)]
    simp only [Int.reduceEq, reduceIte]
    linear_combination -F.rd m a (1 :: c) * hx
  · rw [ro 0 (by decide) (by decide) (by decide) (by decide), s0, ro 1 (by decide) (by decide) (by decide) (by decide), ro 2 (by decide) (by decide) (by decide) (by decide), so 1 (by decide) (by decide) (by decide), so 2 (by decide) (by decide) (by decide), ru, rv, su, so 4 (by decide) (by decide) (by decide)]
    simp only [Int.reduceEq, reduceIte]
    linear_combination -F.rd m a (3 :: c) * hx
  · rw [ro 0 (by decide) (by decide) (by decide) (by decide), s0, ro 3 (by decide) (by decide) (by decide) (by decide), ro 4 (by decide) (by decide) (by decide) (by decide), so 3 (by decide) (by decide) (by decide), so 4 (by decide) (by decide) (by decide), ru, rv, su, so 1 (by decide) (by decide) (by decide)]
    simp only [Int.reduceEq, reduceIte]
    linear_combination -F.rd m a (2 :: c) * hx
  · rw [ro 0 (by decide) (by decide) (by decide) (by decide), s0, ro 1 (by decide) (by decide) (by decide) (by decide), ro 2 (by decide) (by decide) (by decide) (by decide), so 1 (by decide) (by decide) (by decide), so 2 (by decide) (by decide) (by decide), ru, rv, su, so 3 (by decide) (by decide) (by decide)]
    simp only [Int.reduceEq, reduceIte]
    linear_combination -F.rd m a (4 :: c) * hx

theorem bridge_row3 [CharZero T] {m s t : Mem T} {a : F.Arr} {L : List Int → Prop} {u v r : Int} {order : Nat} {c : List Int} {h : T}
    (hd : F.Adj m s a L u 0 (fun _ => 1) (fun _ => cfD T r order)) (ha : F.Adj s t a L u v (fun _ => cfU T r order) (fun _ => cfV T r order)) (hc : L c)
    (hin : ∀ e : Int, 0 ≤ e → e ≤ 7 - 1 → F.InBounds a.dims (e :: c)) (huv : (u = 1 ∧ v = 2) ∨ (u = 3 ∧ v = 4) ∨ (u = 5 ∧ v = 6) ∨ (u = 2 ∧ v = 1) ∨ (u = 4 ∧ v = 3) ∨ (u = 6 ∧ v = 5))
    (hk : (order = 1 ∧ r = 2) ∨ order = 2) (h1 : (r : T) + 1 ≠ 0) (h3 : (r : T) + 3 ≠ 0) : F.Bridges (7 - 1) (F.rd m a) (F.rd t a) c u v r order h := by
  intro p X hp h0 hv
  have hx : p.eval (-(1 / 2) * h) = cfU T r order * p.eval (-((r : T) / 2) * h) + cfD T r order * X 0 + cfV T r order * X v := by
    rw [cfSum h1 h3, h0]
    rcases hk with ⟨rfl, rfl⟩ | rfl
    · rw [cf_weights (k := (1 : Nat)) (.inl ⟨rfl, rfl, hp⟩) h1 h3]
      simp [cfV]
    · rw [cf_weights (k := (2 : Nat)) (.inr ⟨rfl, hp⟩) h1 h3, hv le_rfl]
  have su := (hd.atU c hc).rd
  have s0 := (hd.atV c hc).rd
  have so : ∀ e : Int, 1 ≤ e → e ≤ 7 - 1 → e ≠ u → F.rd s a (e :: c) = F.rd m a (e :: c) := fun e h1 h2 h3 =>
    hd.rdRest (hin e (by omega) h2) fun h => by rcases h.2 with h | h <;> omega
  have ru := (ha.atU c hc).rd
  have rv := (ha.atV c hc).rd
  have ro : ∀ e : Int, 0 ≤ e → e ≤ 7 - 1 → e ≠ u → e ≠ v → F.rd t a (e :: c) = F.rd s a (e :: c) := fun e h1 h2 h3 h4 =>
    ha.rdRest (hin e h1 h2) fun h => by rcases h.2 with h | h <;> contradiction
  unfold F.rowOf
  rw [F.star3, F.star3]
  rcases huv with ⟨rfl, rfl⟩ | ⟨rfl, rfl⟩ | ⟨rfl, rfl⟩ | ⟨rfl, rfl⟩ | ⟨rfl, rfl⟩ | ⟨rfl, rfl⟩
  · rw [ro 0 (by decide) (by decide) (by decide) (by decide), s0, ro 3 (by decide) (by decide) (by decide) (by decide), ro 4 (by decide) (by decide) (by decide) (by decide), ro 5 (by decide) (by decide) (by decide) (by decide), ro 6 (by decide) (by decide) (by decide) (by decide), so 3 (by decide) (by decide) (by decide), so 4 (by decide) (by decide) (by decide), so 5 (by decide) (by decide) (by decide), so 6 (by decide) (by decide) (by decide), ru, rv, su, so 2 (by decide) (by decide) (by decide)]
    simp only [Int.reduceEq, reduceIte]
    linear_combination -F.rd m a (1 :: c) * hx
  · rw [ro 0 (by decide) (by decide) (by decide) (by decide), s0, ro 1 (by decide) (by decide) (by decide) (by decide), ro 2 (by decide) (by decide) (by decide) (by decide), ro 5 (by decide) (by decide) (by decide) (by decide), ro 6 (by decide) (by decide) (by decide) (by decide), so 1 (by decide) (by decide) (by decide), so 2 (by decide) (by decide) (by decide), so 5 (by decide) (by decide) (by decide), so 6 (by decide) (by decide) (by decide), ru, rv, su, so 4 (by decide) (by decide) (by decide)]
    simp only [Int.reduceEq, reduceIte]
    linear_combination -F.rd m a (3 :: c) * hx
  · rw [ro 0 (by decide) (by decide) (by decide) (by decide), s0, ro 1 (by decide) (by decide) (by decide) (by decide), ro 2 (by decide) (by decide) (by decide) (by decide), ro 3 (by decide) (by decide) (by decide) (by decide), ro 4 (by decide) (by decide) (by decide) (by decide), so 1 (by decide) (by decide) (by decide), so 2 (by decide) (by decide) (by decide), so 3 (by decide) (by decide) (by decide), so 4 (by decide) (by decide) (by decide), ru, rv, su, so 6 (by decide) (by decide) (by decide)]
    simp only [Int.reduceEq, reduceIte]
    linear_combination -F.rd m a (5 :: c) * hx
  · rw [ro 0 (by decide) (by decide) (by decide) (by decide), s0, ro 3 (by decide) (by decide) (by decide) (by decide), ro 4 (by decide) (by decide) (by decide) (by decide), ro 5 (by decide) (by decide) (by decide) (by decide), ro 6 (by decide) (by decide) (by decide) (by decide), so 3 (by decide) (by decide) (by decide), so 4 (by decide) (by decide) (by decide), so 5 (by decide) (by decide) (by decide), so 6 (by decide) (by decide) (by decide), ru, rv, su, so 1 (by decide) (by decide) (by decide)]
    simp only [Int.reduceEq, reduceIte]
    linear_combination -F.rd m a (2 :: c) * hx
  · rw [ro 0 (by decide) (by decide) (by decide) (by decide), s0, ro 1 (by decide) (by decide) (by decide) (by decide), ro 2 (by decide) (by decide) (by decide) (by decide), ro 5 (by decide) (by decide) (by decide) (by decide), ro 6 (by decide) (by decide) (by decide) (by decide), so 1 (by decide) (by decide) (by decide), so 2 (by decide) (by decide) (by decide), so 5 (by decide) (by decide) (by decide), so 6 (by decide) (by decide) (by decide), ru, rv, su, so 3 (by decide) (by decide) (by decide)]
    simp only [Int.reduceEq, reduceIte]
    linear_combination -F.rd m a (4 :: c) * hx
  · rw [ro 0 (by decide) (by decide) (by decide) (by decide), s0, ro 1 (by decide) (by decide) (by decide) (by decide), ro 2 (by decide) (by decide) (by decide) (by decide), ro 3 (by decide) (by decide) (by decide) (by decide), ro 4 (by decide) (by decide) (by decide) (by decide), so 1 (by decide) (by decide) (by decide), so 2 (by decide) (by decide) (by decide), so 3 (by decide) (by decide) (by decide), so 4 (by decide) (by decide) (by decide), ru, rv, su, so 5 (by decide) (by decide) (by decide)]
    simp only [Int.reduceEq, reduceIte]
    linear_combination -F.rd m a (6 :: c) * hx

theorem bridge_same {m s t : Mem T} {a : F.Arr} {L : List Int → Prop} {u v : Int} {A B A' B' : List Int → T} {c : List Int} {e : Int}
    (hd : F.Adj m s a L u 0 A B) (ha : F.Adj s t a L u v A' B') (hc : ¬ L c) (hin : F.InBounds a.dims (e :: c)) : F.rd t a (e :: c) = F.rd m a (e :: c) := by
  rw [ha.rdRest hin fun h => hc h.1, hd.rdRest hin fun h => hc h.1]

end Verif
