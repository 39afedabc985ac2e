import Verif.Lemmas.BcSites
import Mathlib.Tactic.IntervalCases

/-
The homogeneous boundary condition: a sum accumulated in the ghost cell.
-/

namespace Verif
open Spec

variable {T : Type} [Zero T] [One T] [NatCast T] [Add T] [Sub T] [Mul T] [Div T] [Neg T]

section
variable {ua b : F.Arr} {is js : List Int} {m m1 : Mem T} {e : F.Expr T} {v w x y c : T}

theorem assign_put (hi : F.InBounds ua.dims is) (he : e.eval m = .ok v) (hw : m.val (ua.addrT is) = some w) :
    F.assign ua is e m = .ok (m.put (ua.addrT is) v) := by
  unfold F.assign
  rw [he, M.ok_bind, F.Arr.addr, if_pos hi, M.ok_bind]
  unfold F.Arr.addrT at hw
  rw [Mem.store, hw]
  rfl

theorem put_put {q : Ptr} : (m.put q x).put q y = m.put q y := by
  unfold Mem.put
  congr 1
  funext z
  dsimp only
  split <;> rfl

/-- one more term of the sum -/
theorem acc_put (hi : F.InBounds ua.dims is) (hj : F.InBounds b.dims js) (hy : m.val (b.addrT js) = some y) (hne : b.addrT js ≠ ua.addrT is) :
    F.assign ua is (ua.el is + F.Expr.const c * b.el js) (m.put (ua.addrT is) x) = .ok (m.put (ua.addrT is) (x + c * y)) := by
  have h1 : (m.put (ua.addrT is) x).val (ua.addrT is) = some x := if_pos rfl
  have h2 : (m.put (ua.addrT is) x).val (b.addrT js) = some y := by
    show (if b.addrT js = ua.addrT is then some x else m.val (b.addrT js)) = some y
    rw [if_neg hne]; exact hy
  rw [assign_put (v := x + c * y) hi ?_ h1, put_put]
  simp only [F.add_def, F.mul_def, F.Arr.el, F.Expr.eval, F.Arr.addr, if_pos hi, if_pos hj, M.ok_bind]
  unfold F.Arr.addrT at h1 h2
  unfold F.Arr.addrT
  simp only [Mem.load, h1, h2, M.ok_bind]

theorem doLoop_ok : ∀ {n : Nat} {f : Int → F.Cmd T} {ms : Nat → Mem T}, (∀ k < n, f (k + 1) (ms k) = .ok (ms (k + 1))) → F.doLoop 1 n f (ms 0) = .ok (ms n) := by
  intro n f ms h
  unfold F.doLoop F.irange
  rw [show ((n : Int) - 1 + 1).toNat = n by omega]
  induction n with
  | zero => rfl
  | succ n ih =>
    rw [List.range_succ, List.map_append, List.foldlM_append, ih fun k hk => h k (by omega), M.ok_bind]
    simp only [List.map_cons, List.map_nil, List.foldlM_cons, List.foldlM_nil]
    have := h n (by omega)
    rw [show (1 : Int) + n = n + 1 by omega, this]
    rfl

end

section
variable {m : Mem T} {u : Span} {ua : F.Arr} {D : List DB} {r : List (Dim × Int × Int)} {p0 : Pt} {ix : Pt → List Int} {β : Backend}

theorem Site.own (S : Site m u ua D r p0 ix) {p : Pt} (hp : p ∈ F.nestPts r p0) : F.InBounds ua.dims (ix p) ∧ ua.addrT (ix p) = cell u p := by
  have hin := inside_addr (S.fit.elem S.arr.geo S.dom (S.loop.inDom hp))
  rw [← S.idx p hp, List.reverse_reverse, S.name] at hin
  exact hin

theorem Site.target {e : Expr T} {stmt : Pt → F.Cmd T} (S : Site m u ua D r p0 ix) (hβ : ValidBackend β) (he : Okay m (Writes D u) D e)
    (ht : HasShape e .num)
    (hs : ∀ p ∈ F.nestPts r p0, ∀ m1 : Mem T, (∀ q, ¬ Writes D u q → m1.val q = m.val q) → (∃ v, m1.val (ua.addrT (ix p)) = some v) →
      stmt p m1 = .ok (m1.put (ua.addrT (ix p)) (denT m (D.map (·.1)) e p).first)) :
    Both (withDomain D [(u.set e, β)] m) (F.nest stmt r p0) m := by
  have hlo : LhsOK u D := ⟨S.arr.geo, S.fit.req S.arr.geo S.dom, S.fit.len⟩
  obtain ⟨m', h1, h2, -⟩ := stmt_target (a := ⟨u, .expr e⟩) (stmt := stmt) hβ (S.fit.int S.arr.geo S.dom)
    ⟨hlo, he.exprOK, ht, S.arr.alloc, he.alloc, fun p q hp hq hm => absurd ⟨p, hp, rfl⟩ (he.reads hq _ hm)⟩ S.loop (by
      intro p hp m1 h3 h4
      rw [← (S.own hp).2] at h4 ⊢
      exact hs p hp m1 h3 h4)
  refine ⟨m', ?_, h2⟩
  simp only [withDomain]
  show ((u.set e).exec D β m >>= fun m => Except.ok m) = _
  rw [show (u.set e) = (⟨u, .expr e⟩ : Assign T) from rfl, h1]
  rfl

/-- what the routine does in one ghost cell -/
def homBody (n : Int) (ua : F.Arr) (is : List Int) (b : F.Arr) (js : Int → List Int) : F.Cmd T :=
  F.block [F.assign ua is (F.Expr.const 0),
    F.doLoop 1 n fun io => F.withCoeff n io fun c => F.assign ua is (ua.el is + F.Expr.const c * b.el (js io))]

def homSum (c y : Nat → T) : Nat → T
  | 0 => 0
  | k + 1 => homSum c y k + c k * y k

theorem homBody_eq {n : Nat} {is : List Int} {b : F.Arr} {js : Int → List Int} {m1 : Mem T} {w v : T} {c y : Nat → T}
    (hi : F.InBounds ua.dims is) (hw : m1.val (ua.addrT is) = some w)
    (hc : ∀ k < n, F.homCoeff (n : Int) ((k : Int) + 1) = some (c k))
    (hj : ∀ k < n, F.InBounds b.dims (js ((k : Int) + 1)) ∧ m1.val (b.addrT (js ((k : Int) + 1))) = some (y k) ∧ b.addrT (js ((k : Int) + 1)) ≠ ua.addrT is)
    (hv : homSum c y n = v) :
    homBody n ua is b js m1 = .ok (m1.put (ua.addrT is) v) := by
  unfold homBody
  simp only [F.block]
  rw [assign_put (v := homSum c y 0) hi rfl hw, M.ok_bind]
  rw [doLoop_ok (ms := fun k => m1.put (ua.addrT is) (homSum c y k)) fun k hk => ?_]
  · rw [hv]; rfl
  · obtain ⟨a1, a2, a3⟩ := hj k hk
    show F.withCoeff _ _ _ _ = _
    unfold F.withCoeff
    rw [hc k hk]
    dsimp only
    rw [acc_put hi a1 a2 a3]
    rfl

variable {u1 u2 u3 u4 : Acc} {b : F.Arr} {jx : Int → Pt → List Int}

theorem At.read {a : Acc} {jx : Pt → List Int} (S : Site m u ua D r p0 ix) (h : At m u D r p0 a b jx) {p : Pt} (hp : p ∈ F.nestPts r p0) {m1 : Mem T}
    (hm : ∀ q, ¬ Writes D u q → m1.val q = m.val q) :
    F.InBounds b.dims (jx p) ∧ m1.val (b.addrT (jx p)) = some (ld m (accCell a p)) ∧ b.addrT (jx p) ≠ ua.addrT (ix p) := by
  have g := h.good S hp
  refine ⟨g.bounds, ?_, fun e => g.other ?_⟩
  · rw [hm _ g.other]
    obtain ⟨v, hv⟩ := g.alloc
    have hv' : m.val (b.addrT (jx p)) = some v := hv
    rw [hv', ← h.addr p hp]
    unfold ld
    rw [hv']
    rfl
  · show Writes D u (b.addrT (jx p))
    rw [e, (S.own hp).2]
    exact ⟨p, S.loop.inDom hp, rfl⟩

/-- the first elements of a list -/
def nth (x : List T) (k : Nat) : T := x.getD k 0

theorem Site.hom (S : Site m u ua D r p0 ix) (L : Rounding T) (hβ : ValidBackend β) {exOrder : Int} (ho : 1 ≤ exOrder ∧ exOrder ≤ 4) (A1 : At m u D r p0 u1 b (jx 1))
    (A2 : 2 ≤ exOrder → At m u D r p0 u2 b (jx 2)) (A3 : 3 ≤ exOrder → At m u D r p0 u3 b (jx 3)) (A4 : 4 ≤ exOrder → At m u D r p0 u4 b (jx 4)) :
    Both (Cuda.bcHom exOrder u u1 u2 u3 u4 D β m) (F.nest (fun p => homBody exOrder ua (ix p) b fun io => jx io p) r p0) m := by
  have hcases : exOrder = 1 ∨ exOrder = 2 ∨ exOrder = 3 ∨ exOrder = 4 := by omega
  rcases hcases with rfl | rfl | rfl | rfl
  · refine S.target hβ A1.okay (by bc_typed) fun p hp m1 hm ⟨w, hw⟩ => ?_
    refine homBody_eq (n := 1) (c := nth [-1]) (y := nth [ld m (accCell u1 p)]) (S.own hp).1 hw (fun k hk => ?_) (fun k hk => ?_) ?_
    · interval_cases k <;> rfl
    · interval_cases k
      · exact A1.read S hp hm
    · simp only [homSum, nth, List.getD_cons_zero, List.getD_cons_succ]
      bc_vals L
  · have A2 := A2 (by decide)
    refine S.target hβ ⟨A1.okay, A2.okay⟩ (by bc_typed) fun p hp m1 hm ⟨w, hw⟩ => ?_
    refine homBody_eq (n := 2) (c := nth [-2, 1 / 3]) (y := nth [ld m (accCell u1 p), ld m (accCell u2 p)]) (S.own hp).1 hw (fun k hk => ?_) (fun k hk => ?_) ?_
    · interval_cases k <;> rfl
    · interval_cases k
      · exact A1.read S hp hm
      · exact A2.read S hp hm
    · simp only [homSum, nth, List.getD_cons_zero, List.getD_cons_succ]
      bc_vals L
  · have A2 := A2 (by decide)
    have A3 := A3 (by decide)
    refine S.target hβ ⟨⟨A1.okay, A2.okay⟩, A3.okay⟩ (by bc_typed) fun p hp m1 hm ⟨w, hw⟩ => ?_
    refine homBody_eq (n := 3) (c := nth [-3, 1, -1 / 5]) (y := nth [ld m (accCell u1 p), ld m (accCell u2 p), ld m (accCell u3 p)]) (S.own hp).1 hw (fun k hk => ?_) (fun k hk => ?_) ?_
    · interval_cases k <;> rfl
    · interval_cases k
      · exact A1.read S hp hm
      · exact A2.read S hp hm
      · exact A3.read S hp hm
    · simp only [homSum, nth, List.getD_cons_zero, List.getD_cons_succ]
      bc_vals L
  · have A2 := A2 (by decide)
    have A3 := A3 (by decide)
    have A4 := A4 (by decide)
    refine S.target hβ ⟨⟨⟨A1.okay, A2.okay⟩, A3.okay⟩, A4.okay⟩ (by bc_typed) fun p hp m1 hm ⟨w, hw⟩ => ?_
    refine homBody_eq (n := 4) (c := nth [-4, 2, -4 / 5, 1 / 7]) (y := nth [ld m (accCell u1 p), ld m (accCell u2 p), ld m (accCell u3 p), ld m (accCell u4 p)]) (S.own hp).1 hw (fun k hk => ?_) (fun k hk => ?_) ?_
    · interval_cases k <;> rfl
    · interval_cases k
      · exact A1.read S hp hm
      · exact A2.read S hp hm
      · exact A3.read S hp hm
      · exact A4.read S hp hm
    · simp only [homSum, nth, List.getD_cons_zero, List.getD_cons_succ]
      bc_vals L

end

/-! ### one statement after another -/

/-- no command frees a cell -/
def Keeps (f : F.Cmd T) : Prop := ∀ m m', f m = .ok m' → ∀ q, (∃ v, m.val q = some v) → ∃ v, m'.val q = some v

theorem keeps_assign {a : F.Arr} {is : List Int} {e : F.Expr T} : Keeps (F.assign a is e) := by
  intro m m' h q hq
  unfold F.assign at h
  cases he : e.eval m with
  | error x => rw [he] at h; cases h
  | ok v =>
    rw [he, M.ok_bind] at h
    cases ha : a.addr is with
    | error x => rw [ha] at h; cases h
    | ok z =>
      rw [ha, M.ok_bind, Mem.store] at h
      cases hz : m.val z with
      | none => rw [hz] at h; cases h
      | some w =>
        rw [hz] at h
        injection h with h
        subst h
        dsimp only
        split
        · exact ⟨v, rfl⟩
        · exact hq

theorem keeps_fold {body : Int → F.Cmd T} (h : ∀ i, Keeps (body i)) : ∀ {l : List Int} {m m' : Mem T}, l.foldlM (fun m i => body i m) m = .ok m' →
    ∀ q, (∃ v, m.val q = some v) → ∃ v, m'.val q = some v
  | [], m, m', hl, q, hq => by
    injection hl with hl
    subst hl; exact hq
  | i :: l, m, m', hl, q, hq => by
    rw [List.foldlM_cons] at hl
    cases hb : body i m with
    | error x => rw [hb] at hl; cases hl
    | ok m1 =>
      rw [hb, M.ok_bind] at hl
      exact keeps_fold h hl q (h i m m1 hb q hq)

theorem keeps_loop {lo hi : Int} {body : Int → F.Cmd T} (h : ∀ i, Keeps (body i)) : Keeps (F.doLoop lo hi body) := fun _ _ hm => keeps_fold h hm

theorem keeps_block : ∀ {cs : List (F.Cmd T)}, (∀ c ∈ cs, Keeps c) → Keeps (F.block cs)
  | [], _ => by
    intro m m' h q hq
    injection h with h
    subst h; exact hq
  | c :: cs, h => by
    intro m m' hm q hq
    simp only [F.block] at hm
    cases hb : c m with
    | error x => rw [hb] at hm; cases hm
    | ok m1 =>
      rw [hb, M.ok_bind] at hm
      exact keeps_block (fun c' h' => h c' (List.mem_cons_of_mem _ h')) m1 m' hm q (h c (List.mem_cons_self ..) m m1 hb q hq)

theorem keeps_coeff {n io : Int} {c : T → F.Cmd T} (h : ∀ x, Keeps (c x)) : Keeps (F.withCoeff n io c) := by
  intro m m' hm
  unfold F.withCoeff at hm
  split at hm
  · exact h _ m m' hm
  · cases hm

theorem keeps_hom {n : Int} {ua b : F.Arr} {is : List Int} {js : Int → List Int} : Keeps (homBody (T := T) n ua is b js) :=
  keeps_block (by
    simp only [List.mem_cons, List.not_mem_nil, or_false, forall_eq_or_imp, forall_eq]
    exact ⟨keeps_assign, keeps_loop fun _ => keeps_coeff fun _ => keeps_assign⟩)

theorem Both.seq {c : M (Mem T)} {g : Mem T → M (Mem T)} {f : F.Cmd T} {fs : List (F.Cmd T)} {m : Mem T} (h1 : Both c f m) (hk : Keeps f)
    (h2 : ∀ m', (∀ q, (∃ v, m.val q = some v) → ∃ v, m'.val q = some v) → Both (g m') (F.block fs) m') : Both (c >>= g) (F.block (f :: fs)) m := by
  obtain ⟨m1, a1, a2⟩ := h1
  obtain ⟨m2, b1, b2⟩ := h2 m1 (hk m m1 a2)
  refine ⟨m2, ?_, ?_⟩
  · rw [a1]; exact b1
  · simp only [F.block]
    rw [a2]; exact b2

theorem Both.last {c : M (Mem T)} {f : F.Cmd T} {m : Mem T} (h : Both c f m) : Both c (F.block [f]) m := by
  obtain ⟨m1, a1, a2⟩ := h
  refine ⟨m1, a1, ?_⟩
  simp only [F.block]
  rw [a2]; rfl

theorem ArrOK.mono {m m' : Mem T} {s : Span} (h : ArrOK m s) (hm : ∀ q, (∃ v, m.val q = some v) → ∃ v, m'.val q = some v) : ArrOK m' s :=
  ⟨h.geo, fun p hp => hm _ (h.alloc p hp)⟩

end Verif
