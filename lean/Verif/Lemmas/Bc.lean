import Verif.Lemmas.Stencil
import Verif.Model.Kernels.Bc
import Verif.Spec.Kernels.Bc
import Verif.Spec.Rounding

/-
Statements whose operands are shifts of the array written, against loops over the same segment.
-/

namespace Verif
open Spec

variable {T : Type}

/-! ### a statement and a loop nest that writes each cell once -/

section
variable [Zero T] [Add T] [Sub T] [Mul T] [Div T] [Neg T]

/-- memory with one cell replaced -/
def Mem.put (m : Mem T) (q : Ptr) (v : T) : Mem T := { m with val := fun z => if z = q then some v else m.val z }

theorem stmt_target {a : Assign T} {D : List DB} {β : Backend} {m : Mem T} {r : List (Dim × Int × Int)} {p0 : Pt}
    {stmt : Pt → F.Cmd T} (hβ : ValidBackend β) (hD : DomInt D) (h : StmtOK m D a) (hL : Loop D r p0)
    (hs : ∀ p ∈ F.nestPts r p0, ∀ m1 : Mem T, (∀ q, ¬ Writes D a.lhs q → m1.val q = m.val q) → (∃ v, m1.val (cell a.lhs p) = some v) →
      stmt p m1 = .ok (m1.put (cell a.lhs p) (rhsT m (D.map (·.1)) a.rhs p))) :
    ∃ m', a.exec D β m = .ok m' ∧ F.nest stmt r p0 m = .ok m' ∧ Left D a.lhs (rhsT m (D.map (·.1)) a.rhs) m m' := by
  obtain ⟨m', h1, h2⟩ := C15_assign hβ hD h
  have hval : ∀ p, InDom D p → m'.val (cell a.lhs p) = some (rhsT m (D.map (·.1)) a.rhs p) := fun p hp => by
    obtain ⟨v, h3, h4⟩ := h2.at_ p hp
    rw [h4, rhsT_eq h3]
  refine ⟨m', h1, ?_, hval, fun q hq => h2.frame q fun p hp e => hq ⟨p, hp, e⟩, h2.ints⟩
  rw [F.nest_eq]
  refine F.runPts_target (W := fun p z => cell a.lhs p = z) (F.nodup_nestPts hL.nodup) (fun p hp m1 hi hv => ?_)
    (fun p hp p' hp' hne q e1 e2 => hne (hL.inj hp hp' (h.lhs.cell_inj (hL.inDom hp) (hL.inDom hp') (e1.trans e2.symm))))
    (fun q hq => h2.frame q fun p hp e => ?_) h2.ints
  · have hpD := hL.inDom hp
    obtain ⟨v, hvv⟩ := h.lalloc p (h.lhs.inside hpD)
    refine ⟨_, hs p hp m1 (fun q hq => hv q fun p' hp' _ e' => hq ⟨p', hL.inDom hp', e'⟩) ⟨v, ?_⟩, rfl, fun q hq => ?_, fun q hq => ?_⟩
    · rw [hv _ fun p' hp' hne e' => hne (hL.inj hp' hp (h.lhs.cell_inj (hL.inDom hp') hpD e'))]; exact hvv
    · dsimp only [Mem.put]
      rw [if_pos hq.symm, ← hq, hval p hpD]
    · dsimp only [Mem.put]
      rw [if_neg fun e' => hq e'.symm]
  · obtain ⟨p', hp', hx⟩ := hL.surj hp
    exact hq p' hp' (by rw [← e]; exact (cell_congr (full_agree h.lhs.req h.lhs.len hx)).symm)

/-! ### sites -/

/-- the cells of `u` a statement writes, as a domain and as loops over `ua(ix)` -/
structure Site (m : Mem T) (u : Span) (ua : F.Arr) (D : List DB) (r : List (Dim × Int × Int)) (p0 : Pt) (ix : Pt → List Int) : Prop where
  arr : ArrOK m u
  dom : UnitDom D
  fit : Within u.geo D
  loop : Loop D r p0
  name : farr u = ua
  idx : ∀ p ∈ F.nestPts r p0, (ix p).reverse = u.geo.map fun x => p x.1

/-- an operand of such a statement, as a shifted array and as `b(jx)`; it is never one of the cells written -/
structure At (m : Mem T) (u : Span) (D : List DB) (r : List (Dim × Int × Int)) (p0 : Pt) (a : Acc) (b : F.Arr) (jx : Pt → List Int) : Prop where
  fit : AccOK a D
  alloc : Allocated m (accArray a)
  free : ∀ p, InDom D p → ¬ Writes D u (accCell a p)
  bounds : ∀ p ∈ F.nestPts r p0, F.InBounds b.dims (jx p)
  addr : ∀ p ∈ F.nestPts r p0, b.addrT (jx p) = accCell a p

variable {m : Mem T} {u : Span} {ua : F.Arr} {D : List DB} {r : List (Dim × Int × Int)} {p0 : Pt} {ix : Pt → List Int}

omit [Zero T] [Add T] [Sub T] [Mul T] [Div T] [Neg T] in
theorem at_of {s : Span} {b : F.Arr} {a : Acc} {mv : Pt → Pt} {jx : Pt → List Int} (S : Site m u ua D r p0 ix) (hs : ArrOK m s) (hb : farr s = b)
    (ha : Apart u s ∨ s = u ∧ ∀ p, InDom D p → ∃ x ∈ D, ¬ IsPoint x.2 (mv p x.1))
    (harr : accArray a = s) (hf : AccFit a D) (hc : ∀ p, accCell a p = cell s (mv p)) (hin : ∀ p, InDom D p → Inside s.geo (mv p))
    (hj : ∀ p ∈ F.nestPts r p0, (jx p).reverse = s.geo.map fun x => mv p x.1) : At m u D r p0 a b jx where
  fit := accOK_of (by rw [harr]; exact hs.geo) S.dom hf
  alloc := by rw [harr]; exact hs.alloc
  free p hp := by
    rintro ⟨q, hq, e⟩
    rw [hc] at e
    rcases ha with ha | ⟨rfl, ha⟩
    · exact ha q _ (S.fit.elem S.arr.geo S.dom hq) (hin p hp) e
    · obtain ⟨x, hx, hn⟩ := ha p hp
      have hso : storeOff s.geo q = storeOff s.geo (mv p) := by
        simp only [cell, Ptr.add, Ptr.mk.injEq] at e; omega
      have := storeOff_inj (S.fit.elem S.arr.geo S.dom hq) (hin p hp) hso
      have hm : x.1 ∈ s.geo.map (·.1) := S.fit.perm.mem_iff.2 (List.mem_map_of_mem hx)
      obtain ⟨g, hg, hge⟩ := List.mem_map.1 hm
      have h2 := this g hg
      rw [hge] at h2
      exact hn (by rw [← h2]; exact hq x hx)
  bounds p hp := by
    have h1 := (inside_addr (hin p (S.loop.inDom hp))).1
    rw [← hj p hp, List.reverse_reverse, hb] at h1
    exact h1
  addr p hp := by
    have h1 := (inside_addr (hin p (S.loop.inDom hp))).2
    rw [← hj p hp, List.reverse_reverse, hb] at h1
    rw [h1, hc]

section
variable {a : Acc} {b : F.Arr} {jx : Pt → List Int}

omit [Zero T] [Add T] [Sub T] [Mul T] [Div T] [Neg T] in
theorem At.okay (h : At m u D r p0 a b jx) : Okay m (Writes D u) D (Expr.acc a) := ⟨h.fit, h.alloc, h.free⟩

omit [Zero T] [Add T] [Sub T] [Mul T] [Div T] [Neg T] in
theorem At.good (S : Site m u ua D r p0 ix) (h : At m u D r p0 a b jx) {p : Pt} (hp : p ∈ F.nestPts r p0) : F.Good m (Writes D u) (b, jx p) where
  bounds := h.bounds p hp
  alloc := by
    show ∃ v, m.val (b.addrT (jx p)) = some v
    rw [h.addr p hp]
    obtain ⟨q, hq, e⟩ := acc_element h.fit (S.loop.inDom hp)
    rw [e]; exact h.alloc q hq
  other := by
    show ¬ Writes D u (b.addrT (jx p))
    rw [h.addr p hp]
    exact h.free p (S.loop.inDom hp)

end

/-- one statement of the kernel and one of the routine -/
theorem Site.set {e : Expr T} {fe : Pt → F.Expr T} {β : Backend} (S : Site m u ua D r p0 ix) (hβ : ValidBackend β) (he : Okay m (Writes D u) D e)
    (ht : HasShape e .num) (hr : ∀ p ∈ F.nestPts r p0, ∀ x ∈ (fe p).refs, F.Good m (Writes D u) x)
    (hv : ∀ p ∈ F.nestPts r p0, (fe p).evalT m = (denT m (D.map (·.1)) e p).first) :
    Both (withDomain D [(u.set e, β)] m) (F.nest (fun p => F.assign ua (ix p) (fe p)) r p0) m := by
  obtain ⟨m', h1, h2, -⟩ := set_nest (stmt := fun p => F.assign ua (ix p) (fe p)) hβ S.dom S.arr S.fit he ht S.loop fun p hp =>
    ⟨ix p, fe p, by rw [S.name], S.idx p hp, hr p hp, hv p hp⟩
  refine ⟨m', ?_, h2⟩
  simp only [withDomain, h1, M.ok_bind]

theorem Site.num {t : T} {β : Backend} (S : Site m u ua D r p0 ix) (hβ : ValidBackend β) :
    Both (withDomain D [((⟨u, .num t⟩ : Assign T), β)] m) (F.nest (fun p => F.assign ua (ix p) (.const t)) r p0) m := by
  have hlo : LhsOK u D := ⟨S.arr.geo, S.fit.req S.arr.geo S.dom, S.fit.len⟩
  obtain ⟨m', h1, h2, -⟩ := stmt_target (a := ⟨u, .num t⟩) (stmt := fun p => F.assign ua (ix p) (.const t)) hβ (S.fit.int S.arr.geo S.dom)
    ⟨hlo, trivial, trivial, S.arr.alloc, by intro s hs; exact absurd hs (List.not_mem_nil), by intro p q hp hq hm; exact absurd hm (List.not_mem_nil)⟩ S.loop (by
      intro p hp m1 _ hv
      have hin := inside_addr (hlo.inside (S.loop.inDom hp))
      rw [← S.idx p hp, List.reverse_reverse, S.name] at hin
      obtain ⟨v, hv⟩ := hv
      unfold F.assign F.Expr.eval
      rw [M.ok_bind, F.Arr.addr, if_pos hin.1, M.ok_bind]
      have := hin.2
      unfold F.Arr.addrT at this
      rw [this, Mem.store, hv]
      rfl)
  refine ⟨m', ?_, h2⟩
  simp only [withDomain, h1, M.ok_bind]

end

/-! ### the formulas of the kernels -/

theorem Rounding.ofField {K : Type} [Field K] : Rounding K where
  neg_mul := neg_mul
  neg_div x y := neg_div y x
  sub_eq := sub_eq_add_neg
  zero_add := zero_add
  mul_one := mul_one
  one_mul := one_mul
  add_comm := add_comm
  mul_comm := mul_comm

section
variable {e f : Expr T} {t : T}
theorem addn_def [Add T] : e + t = .left (arith (· + ·)) e t := rfl
theorem subn_def [Sub T] : e - t = .left (arith (· - ·)) e t := rfl
theorem divn_def [Div T] : e / t = .left (arith (· / ·)) e t := rfl
theorem ndiv_def [Div T] : t / e = .right (arith (· / ·)) t e := rfl
theorem div_def [Div T] : e / f = .zip (arith (· / ·)) e f := rfl
end

theorem F.el_refs {b : F.Arr} {is : List Int} : (F.Arr.el (T := T) b is).refs = [(b, is)] := rfl

/-- the kernel's expression is a number -/
macro "bc_typed" : tactic => `(tactic| (
  simp only [mul_def, nmul_def, add_def, sub_def, addn_def, subn_def, divn_def, ndiv_def, div_def]
  repeat' (first
    | exact HasShape.acc | exact opShape_arith_num
    | refine HasShape.zip ?_ ?_ opShape_arith_num | refine HasShape.right ?_ opShape_arith_num | refine HasShape.left ?_ opShape_arith_num)))

/-- both expressions have the same value, by the laws that rounding keeps -/
macro "bc_vals" L:term : tactic => `(tactic| (
  simp only [mul_def, nmul_def, add_def, sub_def, addn_def, subn_def, divn_def, ndiv_def, div_def, F.mul_def, F.sub_def, F.div_def, F.add_def, F.neg_def,
    F.Expr.evalT, denT, arith, okOr, Val.first, Acc.e, *]
  try simp only [($L).neg_mul, ($L).neg_div, ($L).sub_eq, ($L).zero_add, ($L).mul_one, ($L).one_mul]))

/-- the values of both expressions -/
macro "bc_args" : tactic => `(tactic| (
  simp only [mul_def, nmul_def, add_def, sub_def, addn_def, subn_def, divn_def, ndiv_def, div_def, F.mul_def, F.sub_def, F.div_def, F.add_def, F.neg_def,
    F.Expr.evalT, denT, arith, okOr, Val.first, Acc.e, Cuda.bcT2, *]))

/-- the routine's operands -/
macro "bc_refs" : tactic => `(tactic| (
  simp only [F.mul_def, F.sub_def, F.div_def, F.add_def, F.neg_def, F.Expr.refs, F.el_refs, List.nil_append, List.cons_append, List.append_nil,
    List.mem_cons, List.not_mem_nil, or_false, forall_eq_or_imp, forall_eq]
  repeat' (first | assumption | apply And.intro)))

section
variable [Zero T] [One T] [NatCast T] [Add T] [Sub T] [Mul T] [Div T] [Neg T] {m : Mem T} {u : Span} {ua : F.Arr} {D : List DB} {r : List (Dim × Int × Int)} {p0 : Pt} {ix : Pt → List Int}
  {u1 u2 u3 u4 d : Acc} {b1 b2 b3 b4 bd : F.Arr} {j1 j2 j3 j4 jd : Pt → List Int} {β : Backend} {alpha beta h : T}

theorem Site.neg (S : Site m u ua D r p0 ix) (L : Rounding T) (hβ : ValidBackend β) (A1 : At m u D r p0 u1 b1 j1) :
    Both (withDomain D [(u.set ((-1 : T) * Acc.e T u1), β)] m) (F.nest (fun p => F.assign ua (ix p) (-b1.el (j1 p))) r p0) m :=
  S.set hβ A1.okay (by bc_typed) (fun p hp => by
    have := A1.good S hp
    bc_refs) (fun p hp => by
    have := A1.addr p hp
    bc_vals L)

theorem Site.quad (S : Site m u ua D r p0 ix) (L : Rounding T) (hβ : ValidBackend β) (A1 : At m u D r p0 u1 b1 j1) (A2 : At m u D r p0 u2 b2 j2) :
    Both (withDomain D [(u.set ((-2 : T) * Acc.e T u1 + Acc.e T u2 / (3 : T)), β)] m)
      (F.nest (fun p => F.assign ua (ix p) ((-(F.Expr.const 2 * b1.el (j1 p))) + b2.el (j2 p) / F.Expr.const 3)) r p0) m :=
  S.set hβ ⟨A1.okay, A2.okay⟩ (by bc_typed) (fun p hp => by
    have := A1.good S hp
    have := A2.good S hp
    bc_refs) (fun p hp => by
    have := A1.addr p hp
    have := A2.addr p hp
    bc_vals L)

theorem Site.copy (S : Site m u ua D r p0 ix) (L : Rounding T) (hβ : ValidBackend β) (A1 : At m u D r p0 u1 b1 j1) :
    Both (withDomain D [(u.set (Acc.e T u1), β)] m) (F.nest (fun p => F.assign ua (ix p) (b1.el (j1 p))) r p0) m :=
  S.set hβ A1.okay .acc (fun p hp => by
    have := A1.good S hp
    bc_refs) (fun p hp => by
    have := A1.addr p hp
    bc_vals L)

theorem Site.robin1 (S : Site m u ua D r p0 ix) (L : Rounding T) (hβ : ValidBackend β) (A1 : At m u D r p0 u1 b1 j1) (Ad : At m u D r p0 d bd jd) :
    Both (withDomain D [(u.set ((((2 * alpha) * Acc.e T d - h * beta) / ((2 * alpha) * Acc.e T d + h * beta)) * Acc.e T u1), β)] m)
      (F.nest (fun p => F.assign ua (ix p) ((F.Expr.const (2 * alpha) * bd.el (jd p) - F.Expr.const (h * beta)) /
        (F.Expr.const (2 * alpha) * bd.el (jd p) + F.Expr.const (h * beta)) * b1.el (j1 p))) r p0) m :=
  S.set hβ ⟨⟨Ad.okay, Ad.okay⟩, A1.okay⟩ (by bc_typed) (fun p hp => by
    have := A1.good S hp
    have := Ad.good S hp
    bc_refs) (fun p hp => by
    have := A1.addr p hp
    have := Ad.addr p hp
    bc_vals L)

theorem Site.robin2 (S : Site m u ua D r p0 ix) (L : Rounding T) (hβ : ValidBackend β) (A1 : At m u D r p0 u1 b1 j1) (A2 : At m u D r p0 u2 b2 j2)
    (Ad : At m u D r p0 d bd jd) :
    Both (withDomain D [(u.set ((((8 * alpha) * Acc.e T d - 6 * beta * h) / ((8 * alpha) * Acc.e T d + 3 * beta * h)) * Acc.e T u1 +
        h / ((8 * alpha) * Acc.e T d + 3 * beta * h) * Acc.e T u2), β)] m)
      (F.nest (fun p => F.assign ua (ix p) ((F.Expr.const (8 * alpha) * bd.el (jd p) - F.Expr.const (6 * beta * h)) /
        (F.Expr.const (8 * alpha) * bd.el (jd p) + F.Expr.const (3 * beta * h)) * b1.el (j1 p) +
        F.Expr.const h / (F.Expr.const (8 * alpha) * bd.el (jd p) + F.Expr.const (3 * beta * h)) * b2.el (j2 p))) r p0) m :=
  S.set hβ ⟨⟨⟨Ad.okay, Ad.okay⟩, A1.okay⟩, Ad.okay, A2.okay⟩ (by bc_typed) (fun p hp => by
    have := A1.good S hp
    have := A2.good S hp
    have := Ad.good S hp
    bc_refs) (fun p hp => by
    have := A1.addr p hp
    have := A2.addr p hp
    have := Ad.addr p hp
    bc_vals L)

/-- `u = x * u1` with a number -/
theorem Site.scale {x y : T} (S : Site m u ua D r p0 ix) (L : Rounding T) (hβ : ValidBackend β) (A1 : At m u D r p0 u1 b1 j1) (hx : x = y) :
    Both (withDomain D [(u.set (x * Acc.e T u1), β)] m) (F.nest (fun p => F.assign ua (ix p) (F.Expr.const y * b1.el (j1 p))) r p0) m :=
  S.set hβ A1.okay (by bc_typed) (fun p hp => by
    have := A1.good S hp
    bc_refs) (fun p hp => by
    have := A1.addr p hp
    bc_vals L)

/-- `u = x * u1 + y * u2` with numbers -/
theorem Site.comb {x y x' y' : T} (S : Site m u ua D r p0 ix) (L : Rounding T) (hβ : ValidBackend β) (A1 : At m u D r p0 u1 b1 j1) (A2 : At m u D r p0 u2 b2 j2)
    (hx : x = x') (hy : y = y') :
    Both (withDomain D [(u.set (x * Acc.e T u1 + y * Acc.e T u2), β)] m)
      (F.nest (fun p => F.assign ua (ix p) (F.Expr.const x' * b1.el (j1 p) + F.Expr.const y' * b2.el (j2 p))) r p0) m :=
  S.set hβ ⟨A1.okay, A2.okay⟩ (by bc_typed) (fun p hp => by
    have := A1.good S hp
    have := A2.good S hp
    bc_refs) (fun p hp => by
    have := A1.addr p hp
    have := A2.addr p hp
    bc_vals L)

/-- `t2` and its loop; the routine adds the two neighbours in either order -/
theorem Site.t2 (S : Site m u ua D r p0 ix) (L : ∀ x y z : T, y + z - x = -x + y + z) (hβ : ValidBackend β) (A1 : At m u D r p0 u1 b1 j1) (A2 : At m u D r p0 u2 b2 j2)
    (A3 : At m u D r p0 u3 b3 j3) :
    Both (Cuda.bcT2 u u1 u2 u3 D β m) (F.nest (fun p => F.assign ua (ix p) ((-b1.el (j1 p)) + b2.el (j2 p) + b3.el (j3 p))) r p0) m :=
  S.set hβ ⟨⟨A2.okay, A3.okay⟩, A1.okay⟩ (by bc_typed) (fun p hp => by
    have := A1.good S hp
    have := A2.good S hp
    have := A3.good S hp
    bc_refs) (fun p hp => by
    have := A1.addr p hp
    have := A2.addr p hp
    have := A3.addr p hp
    bc_args)

theorem Site.t2' (S : Site m u ua D r p0 ix) (L : ∀ x y z : T, y + z - x = -x + z + y) (hβ : ValidBackend β) (A1 : At m u D r p0 u1 b1 j1) (A2 : At m u D r p0 u2 b2 j2)
    (A3 : At m u D r p0 u3 b3 j3) :
    Both (Cuda.bcT2 u u1 u2 u3 D β m) (F.nest (fun p => F.assign ua (ix p) ((-b1.el (j1 p)) + b3.el (j3 p) + b2.el (j2 p))) r p0) m :=
  S.set hβ ⟨⟨A2.okay, A3.okay⟩, A1.okay⟩ (by bc_typed) (fun p hp => by
    have := A1.good S hp
    have := A2.good S hp
    have := A3.good S hp
    bc_refs) (fun p hp => by
    have := A1.addr p hp
    have := A2.addr p hp
    have := A3.addr p hp
    bc_args)

/-- the corner formula `-5 * u1` -/
theorem Site.corner (S : Site m u ua D r p0 ix) (L : Rounding T) (hβ : ValidBackend β) (A1 : At m u D r p0 u1 b1 j1) :
    Both (withDomain D [(u.set ((-5 : T) * Acc.e T u1), β)] m) (F.nest (fun p => F.assign ua (ix p) (-(F.Expr.const 5 * b1.el (j1 p)))) r p0) m :=
  S.set hβ A1.okay (by bc_typed) (fun p hp => by
    have := A1.good S hp
    bc_refs) (fun p hp => by
    have := A1.addr p hp
    bc_vals L)

theorem F.nest_skip : ∀ {r : List (Dim × Int × Int)} {p0 : Pt}, F.nest (fun _ => (F.skip : F.Cmd T)) r p0 = F.skip
  | [], _ => rfl
  | _ :: r, _ => by
    have : ∀ p, F.nest (fun _ => (F.skip : F.Cmd T)) r p = F.skip := fun p => F.nest_skip
    simp only [F.nest, this]
    exact F.doLoop_skip

/-- `t1` of a diffusion kernel when the routine tests the order outside the loops -/
theorem Site.t1 (S : Site m u ua D r p0 ix) (L : Rounding T) (hβ : ValidBackend β) (A1 : At m u D r p0 u1 b1 j1) (A2 : At m u D r p0 u2 b2 j2)
    (Ad : At m u D r p0 d bd jd) {btype exOrder : Int} :
    Both (Cuda.bcT1 false btype exOrder alpha beta u u1 u2 d h D β m)
      (if btype = 0 then
        if exOrder = 1 then F.nest (fun p => F.assign ua (ix p) (-b1.el (j1 p))) r p0
        else if exOrder = 2 then F.nest (fun p => F.assign ua (ix p) ((-(F.Expr.const 2 * b1.el (j1 p))) + b2.el (j2 p) / F.Expr.const 3)) r p0
        else F.skip
      else if btype = 1 then F.nest (fun p => F.assign ua (ix p) (b1.el (j1 p))) r p0
      else if btype = 4 then
        if exOrder = 1 then
          F.nest (fun p => F.assign ua (ix p) ((F.Expr.const (2 * alpha) * bd.el (jd p) - F.Expr.const (h * beta)) /
            (F.Expr.const (2 * alpha) * bd.el (jd p) + F.Expr.const (h * beta)) * b1.el (j1 p))) r p0
        else if exOrder = 2 then
          F.nest (fun p => F.assign ua (ix p) ((F.Expr.const (8 * alpha) * bd.el (jd p) - F.Expr.const (6 * beta * h)) /
            (F.Expr.const (8 * alpha) * bd.el (jd p) + F.Expr.const (3 * beta * h)) * b1.el (j1 p) +
            F.Expr.const h / (F.Expr.const (8 * alpha) * bd.el (jd p) + F.Expr.const (3 * beta * h)) * b2.el (j2 p))) r p0
        else F.skip
      else F.skip) m := by
  unfold Cuda.bcT1
  by_cases hb0 : btype = 0
  · rw [if_pos hb0, if_pos hb0]
    by_cases h1 : exOrder = 1
    · subst h1
      exact S.neg L hβ A1
    · rw [if_neg h1, if_neg h1]
      by_cases h2 : exOrder = 2
      · subst h2
        exact S.quad L hβ A1 A2
      · rw [if_neg h2, if_neg h2]
        simp only [Bool.false_eq_true, if_false, ite_self]
        exact Both.skip
  rw [if_neg hb0, if_neg hb0]
  by_cases hb1 : btype = 1
  · rw [if_pos hb1, if_pos hb1]
    exact S.copy L hβ A1
  rw [if_neg hb1, if_neg hb1]
  by_cases hb4 : btype = 4
  · rw [if_pos hb4, if_pos hb4]
    by_cases h1 : exOrder = 1
    · rw [if_pos h1, if_pos h1]
      exact S.robin1 L hβ A1 Ad
    · rw [if_neg h1, if_neg h1]
      by_cases h2 : exOrder = 2
      · rw [if_pos h2, if_pos h2]
        exact S.robin2 L hβ A1 A2 Ad
      · rw [if_neg h2, if_neg h2]
        exact Both.skip
  rw [if_neg hb4, if_neg hb4]
  exact Both.skip

/-- `t1` of the two dimensional diffusion kernel; the routine tests the order inside the loops -/
theorem Site.t1_in (S : Site m u ua D r p0 ix) (L : Rounding T) (hβ : ValidBackend β) (A1 : At m u D r p0 u1 b1 j1) (A2 : At m u D r p0 u2 b2 j2)
    (Ad : At m u D r p0 d bd jd) {btype exOrder : Int} :
    Both (Cuda.bcT1 true btype exOrder alpha beta u u1 u2 d h D β m)
      (if btype = 0 then
        F.nest (fun p =>
          if exOrder = 0 then F.assign ua (ix p) (F.Expr.const 0)
          else if exOrder = 1 then F.assign ua (ix p) (-b1.el (j1 p))
          else if exOrder = 2 then F.assign ua (ix p) ((-(F.Expr.const 2 * b1.el (j1 p))) + b2.el (j2 p) / F.Expr.const 3)
          else F.skip) r p0
      else if btype = 1 then F.nest (fun p => F.assign ua (ix p) (b1.el (j1 p))) r p0
      else if btype = 4 then
        F.nest (fun p =>
          if exOrder = 1 then F.assign ua (ix p) ((F.Expr.const (2 * alpha) * bd.el (jd p) - F.Expr.const (h * beta)) /
            (F.Expr.const (2 * alpha) * bd.el (jd p) + F.Expr.const (h * beta)) * b1.el (j1 p))
          else if exOrder = 2 then F.assign ua (ix p) ((F.Expr.const (8 * alpha) * bd.el (jd p) - F.Expr.const (6 * beta * h)) /
            (F.Expr.const (8 * alpha) * bd.el (jd p) + F.Expr.const (3 * beta * h)) * b1.el (j1 p) +
            F.Expr.const h / (F.Expr.const (8 * alpha) * bd.el (jd p) + F.Expr.const (3 * beta * h)) * b2.el (j2 p))
          else F.skip) r p0
      else F.skip) m := by
  unfold Cuda.bcT1
  by_cases hb0 : btype = 0
  · rw [if_pos hb0, if_pos hb0]
    by_cases h0 : exOrder = 0
    · subst h0
      exact S.num hβ
    by_cases h1 : exOrder = 1
    · subst h1
      exact S.neg L hβ A1
    by_cases h2 : exOrder = 2
    · subst h2
      exact S.quad L hβ A1 A2
    simp only [if_neg h0, if_neg h1, if_neg h2, F.nest_skip]
    exact Both.skip
  rw [if_neg hb0, if_neg hb0]
  by_cases hb1 : btype = 1
  · rw [if_pos hb1, if_pos hb1]
    exact S.copy L hβ A1
  rw [if_neg hb1, if_neg hb1]
  by_cases hb4 : btype = 4
  · rw [if_pos hb4, if_pos hb4]
    by_cases h1 : exOrder = 1
    · subst h1
      exact S.robin1 L hβ A1 Ad
    by_cases h2 : exOrder = 2
    · subst h2
      exact S.robin2 L hβ A1 A2 Ad
    simp only [if_neg h1, if_neg h2, F.nest_skip]
    exact Both.skip
  rw [if_neg hb4, if_neg hb4]
  exact Both.skip

/-- `t1` of a Poisson kernel when the routine tests the order outside the loops -/
theorem Site.p1 {c1 c2 c3 : T} (S : Site m u ua D r p0 ix) (L : Rounding T) (hβ : ValidBackend β) (A1 : At m u D r p0 u1 b1 j1) (A2 : At m u D r p0 u2 b2 j2)
    (hc1 : (2 * alpha - h * beta) / (2 * alpha + h * beta) = c1) (hc2 : (8 * alpha - 6 * beta * h) / (8 * alpha + 3 * beta * h) = c2)
    (hc3 : h / (8 * alpha + 3 * beta * h) = c3) {btype exOrder : Int} :
    Both (Cuda.bcPoissonT1 btype exOrder alpha beta u u1 u2 h D β m)
      (if btype = 0 then
        if exOrder = 1 then F.nest (fun p => F.assign ua (ix p) (-b1.el (j1 p))) r p0
        else if exOrder = 2 then F.nest (fun p => F.assign ua (ix p) ((-(F.Expr.const 2 * b1.el (j1 p))) + b2.el (j2 p) / F.Expr.const 3)) r p0
        else F.skip
      else if btype = 1 then F.nest (fun p => F.assign ua (ix p) (b1.el (j1 p))) r p0
      else if btype = 4 then
        if exOrder = 1 then F.nest (fun p => F.assign ua (ix p) (F.Expr.const c1 * b1.el (j1 p))) r p0
        else if exOrder = 2 then F.nest (fun p => F.assign ua (ix p) (F.Expr.const c2 * b1.el (j1 p) + F.Expr.const c3 * b2.el (j2 p))) r p0
        else F.skip
      else F.skip) m := by
  unfold Cuda.bcPoissonT1
  by_cases hb0 : btype = 0
  · rw [if_pos hb0, if_pos hb0]
    by_cases h1 : exOrder = 1
    · rw [if_pos h1, if_pos h1]
      exact S.neg L hβ A1
    · rw [if_neg h1, if_neg h1]
      by_cases h2 : exOrder = 2
      · rw [if_pos h2, if_pos h2]
        exact S.quad L hβ A1 A2
      · rw [if_neg h2, if_neg h2]
        exact Both.skip
  rw [if_neg hb0, if_neg hb0]
  by_cases hb1 : btype = 1
  · rw [if_pos hb1, if_pos hb1]
    exact S.copy L hβ A1
  rw [if_neg hb1, if_neg hb1]
  by_cases hb4 : btype = 4
  · rw [if_pos hb4, if_pos hb4]
    by_cases h1 : exOrder = 1
    · rw [if_pos h1, if_pos h1]
      exact S.scale L hβ A1 hc1
    · rw [if_neg h1, if_neg h1]
      by_cases h2 : exOrder = 2
      · rw [if_pos h2, if_pos h2]
        exact S.comb L hβ A1 A2 hc2 hc3
      · rw [if_neg h2, if_neg h2]
        exact Both.skip
  rw [if_neg hb4, if_neg hb4]
  exact Both.skip

/-- `t1` of the two dimensional Poisson kernel, left and right -/
theorem Site.p1_in {c1 c2 c3 : T} (S : Site m u ua D r p0 ix) (L : Rounding T) (hβ : ValidBackend β) (A1 : At m u D r p0 u1 b1 j1) (A2 : At m u D r p0 u2 b2 j2)
    (hc1 : (2 * alpha - h * beta) / (2 * alpha + h * beta) = c1) (hc2 : (8 * alpha - 6 * beta * h) / (8 * alpha + 3 * beta * h) = c2)
    (hc3 : h / (8 * alpha + 3 * beta * h) = c3) {btype exOrder : Int} :
    Both (Cuda.bcPoissonT1 btype exOrder alpha beta u u1 u2 h D β m)
      (if btype = 0 then
        F.nest (fun p =>
          if exOrder = 1 then F.assign ua (ix p) (-b1.el (j1 p))
          else if exOrder = 2 then F.assign ua (ix p) ((-(F.Expr.const 2 * b1.el (j1 p))) + b2.el (j2 p) / F.Expr.const 3)
          else F.skip) r p0
      else if btype = 1 then F.nest (fun p => F.assign ua (ix p) (b1.el (j1 p))) r p0
      else if btype = 4 then
        F.nest (fun p =>
          if exOrder = 1 then F.assign ua (ix p) (F.Expr.const c1 * b1.el (j1 p))
          else if exOrder = 2 then F.assign ua (ix p) (F.Expr.const c2 * b1.el (j1 p) + F.Expr.const c3 * b2.el (j2 p))
          else F.skip) r p0
      else F.skip) m := by
  unfold Cuda.bcPoissonT1
  by_cases hb0 : btype = 0
  · rw [if_pos hb0, if_pos hb0]
    by_cases h1 : exOrder = 1
    · subst h1
      exact S.neg L hβ A1
    by_cases h2 : exOrder = 2
    · subst h2
      exact S.quad L hβ A1 A2
    simp only [if_neg h1, if_neg h2, F.nest_skip]
    exact Both.skip
  rw [if_neg hb0, if_neg hb0]
  by_cases hb1 : btype = 1
  · rw [if_pos hb1, if_pos hb1]
    exact S.copy L hβ A1
  rw [if_neg hb1, if_neg hb1]
  by_cases hb4 : btype = 4
  · rw [if_pos hb4, if_pos hb4]
    by_cases h1 : exOrder = 1
    · subst h1
      exact S.scale L hβ A1 hc1
    by_cases h2 : exOrder = 2
    · subst h2
      exact S.comb L hβ A1 A2 hc2 hc3
    simp only [if_neg h1, if_neg h2, F.nest_skip]
    exact Both.skip
  rw [if_neg hb4, if_neg hb4]
  exact Both.skip

/-- `t1` of the two dimensional Poisson kernel, bottom and top: no Robin case -/
theorem Site.p1_dn (S : Site m u ua D r p0 ix) (L : Rounding T) (hβ : ValidBackend β) (A1 : At m u D r p0 u1 b1 j1) (A2 : At m u D r p0 u2 b2 j2) {btype exOrder : Int} :
    Both (if btype ≠ 4 then Cuda.bcPoissonT1 btype exOrder alpha beta u u1 u2 h D β m else .ok m)
      (if btype = 0 then
        F.nest (fun p =>
          if exOrder = 1 then F.assign ua (ix p) (-b1.el (j1 p))
          else if exOrder = 2 then F.assign ua (ix p) ((-(F.Expr.const 2 * b1.el (j1 p))) + b2.el (j2 p) / F.Expr.const 3)
          else F.skip) r p0
      else if btype = 1 then F.nest (fun p => F.assign ua (ix p) (b1.el (j1 p))) r p0
      else if btype = 4 then F.skip
      else F.skip) m := by
  by_cases hb4 : btype = 4
  · subst hb4
    exact Both.skip
  rw [if_pos hb4]
  have := S.p1_in (alpha := alpha) (beta := beta) (h := h) L hβ A1 A2 rfl rfl rfl (btype := btype) (exOrder := exOrder)
  rw [if_neg hb4] at this ⊢
  exact this

/-- `t1` of the one dimensional Poisson kernel -/
theorem Site.q1 {c1 c2 c3 : T} (S : Site m u ua D r p0 ix) (L : Rounding T) (hβ : ValidBackend β) (A1 : At m u D r p0 u1 b1 j1) (A2 : At m u D r p0 u2 b2 j2)
    (hc1 : (4 - h) / (4 + h) = c1) (hc2 : (16 - 6 * h) / (16 + 3 * h) = c2) (hc3 : h / (16 + 3 * h) = c3) {btype exOrder : Int} :
    Both (Cuda.bcPoisson1dT1 btype exOrder u u1 u2 h D β m)
      (if btype = 0 then
        if exOrder = 1 then F.nest (fun p => F.assign ua (ix p) (-b1.el (j1 p))) r p0
        else if exOrder = 2 then F.nest (fun p => F.assign ua (ix p) ((-(F.Expr.const 2 * b1.el (j1 p))) + b2.el (j2 p) / F.Expr.const 3)) r p0
        else F.skip
      else if btype = 1 then F.nest (fun p => F.assign ua (ix p) (b1.el (j1 p))) r p0
      else if btype = 4 then
        if exOrder = 1 then F.nest (fun p => F.assign ua (ix p) (F.Expr.const c1 * b1.el (j1 p))) r p0
        else if exOrder = 2 then F.nest (fun p => F.assign ua (ix p) (F.Expr.const c2 * b1.el (j1 p) + F.Expr.const c3 * b2.el (j2 p))) r p0
        else F.skip
      else F.skip) m := by
  unfold Cuda.bcPoisson1dT1
  by_cases hb0 : btype = 0
  · rw [if_pos hb0, if_pos hb0]
    by_cases h1 : exOrder = 1
    · rw [if_pos h1, if_pos h1]
      exact S.neg L hβ A1
    · rw [if_neg h1, if_neg h1]
      by_cases h2 : exOrder = 2
      · rw [if_pos h2, if_pos h2]
        exact S.quad L hβ A1 A2
      · rw [if_neg h2, if_neg h2]
        exact Both.skip
  rw [if_neg hb0, if_neg hb0]
  by_cases hb1 : btype = 1
  · rw [if_pos hb1, if_pos hb1]
    exact S.copy L hβ A1
  rw [if_neg hb1, if_neg hb1]
  by_cases hb4 : btype = 4
  · rw [if_pos hb4, if_pos hb4]
    by_cases h1 : exOrder = 1
    · rw [if_pos h1, if_pos h1]
      exact S.scale L hβ A1 hc1
    · rw [if_neg h1, if_neg h1]
      by_cases h2 : exOrder = 2
      · rw [if_pos h2, if_pos h2]
        exact S.comb L hβ A1 A2 hc2 hc3
      · rw [if_neg h2, if_neg h2]
        exact Both.skip
  rw [if_neg hb4, if_neg hb4]
  exact Both.skip

end

end Verif
