import Verif.Lemmas.BcHom
import Verif.Lemmas.Values
import Verif.Spec.Extrapolation
import Mathlib.Algebra.CharZero.Defs
import Mathlib.Tactic.FieldSimp
import Mathlib.Tactic.LinearCombination

/-
What the boundary condition kernels leave in the ghost cells.
-/

namespace Verif
open Spec

variable {T : Type} [Field T]

/-- a run that ends in a memory with property `Q` -/
def Ends (c : M (Mem T)) (Q : Mem T → Prop) : Prop := ∃ m', c = .ok m' ∧ Q m'

omit [Field T] in
theorem Ends.bind {α : Type} {x : M α} {a : α} {f : α → M (Mem T)} {Q : Mem T → Prop} (hx : x = .ok a) (h : Ends (f a) Q) : Ends (x >>= f) Q := by
  rw [hx]; exact h

omit [Field T] in
theorem Ends.mono {c : M (Mem T)} {Q R : Mem T → Prop} (h : Ends c Q) (hr : ∀ m, Q m → R m) : Ends c R := by
  obtain ⟨m, h1, h2⟩ := h
  exact ⟨m, h1, hr m h2⟩

omit [Field T] in
theorem Ends.seq {c : M (Mem T)} {f : Mem T → M (Mem T)} {Q R : Mem T → Prop} (h : Ends c Q) (hr : ∀ m, Q m → Ends (f m) R) : Ends (c >>= f) R := by
  obtain ⟨m, h1, h2⟩ := h
  rw [h1]
  exact hr m h2

section
variable {m : Mem T} {u : Span} {ua : F.Arr} {D : List DB} {r : List (Dim × Int × Int)} {p0 : Pt} {ix : Pt → List Int}
  {u1 u2 u3 u4 d : Acc} {b1 b2 b3 b4 bd : F.Arr} {j1 j2 j3 j4 jd : Pt → List Int} {β : Backend} {alpha beta h : T}

/-- a statement leaves the value of its right hand side in every cell and nothing elsewhere -/
structure Site.Left (m m' : Mem T) (u : Span) (ua : F.Arr) (D : List DB) (r : List (Dim × Int × Int)) (p0 : Pt) (ix : Pt → List Int) (f : Pt → T) : Prop where
  el : ∀ p ∈ F.nestPts r p0, F.El m' ua (ix p) (f p)
  frame : ∀ q, ¬ Writes D u q → m'.val q = m.val q
  alloc : ∀ q, (∃ v, m.val q = some v) → ∃ v, m'.val q = some v

theorem Site.ends {e : Expr T} {f : Pt → T} (S : Site m u ua D r p0 ix) (hβ : ValidBackend β) (he : Okay m (Writes D u) D e) (ht : HasShape e .num)
    (hv : ∀ p ∈ F.nestPts r p0, (denT m (D.map (·.1)) e p).first = f p) :
    Ends (withDomain D [(u.set e, β)] m) fun m' => Site.Left m m' u ua D r p0 ix f := by
  have hlo : LhsOK u D := ⟨S.arr.geo, S.fit.req S.arr.geo S.dom, S.fit.len⟩
  have hst : StmtOK m D (⟨u, .expr e⟩ : Assign T) :=
    ⟨hlo, he.exprOK, ht, S.arr.alloc, he.alloc, fun p q hp hq hm => absurd ⟨p, hp, rfl⟩ (he.reads hq _ hm)⟩
  obtain ⟨m', h1, h2⟩ := C15_assign hβ (S.fit.int S.arr.geo S.dom) hst
  refine ⟨m', ?_, ?_, ?_, ?_⟩
  · simp only [withDomain]
    show ((u.set e).exec D β m >>= fun m => Except.ok m) = _
    rw [show (u.set e) = (⟨u, .expr e⟩ : Assign T) from rfl, h1]
    rfl
  · intro p hp
    obtain ⟨v, h3, h4⟩ := h2.at_ p (S.loop.inDom hp)
    refine ⟨(S.own hp).1, ?_⟩
    have := (S.own hp).2
    unfold F.Arr.addrT at this
    rw [this]
    show m'.val (cell u p) = _
    have h5 := rhsT_eq h3
    rw [show m'.val (cell u p) = some v from h4, ← hv p hp, ← h5]
    rfl
  · exact fun q hq => h2.frame q fun p hp e => hq ⟨p, hp, e⟩
  · intro q hq
    by_cases hw : Writes D u q
    · obtain ⟨p, hp, rfl⟩ := hw
      obtain ⟨v, -, h4⟩ := h2.at_ p hp
      exact ⟨v, h4⟩
    · rw [h2.frame q fun p hp e => hw ⟨p, hp, e⟩]; exact hq

/-- an element at other indices keeps its value -/
theorem Site.Left.keep {m' : Mem T} {f : Pt → T} {is : List Int} {v : T} (L : Site.Left m m' u ua D r p0 ix f) (S : Site m u ua D r p0 ix)
    (h : F.El m ua is v) (hne : ∀ p ∈ F.nestPts r p0, is ≠ ix p) : F.El m' ua is v := by
  refine ⟨h.1, ?_⟩
  rw [L.frame _ ?_]
  · exact h.2
  · rintro ⟨p, hp, hq⟩
    obtain ⟨p', hp', hx⟩ := S.loop.surj hp
    rw [cell_congr (full_agree (S.fit.req S.arr.geo S.dom) S.fit.len hx), ← (S.own hp').2] at hq
    exact hne p' hp' (F.addrT_inj (S.own hp').1 h.1 hq).symm

theorem At.rd {a : Acc} {b : F.Arr} {jx : Pt → List Int} (A : At m u D r p0 a b jx) {p : Pt} (hp : p ∈ F.nestPts r p0) :
    ld m (accCell a p) = F.rd m b (jx p) := by
  unfold F.rd
  rw [A.addr p hp]

/-- the kernel's expression has this value -/
macro "bc_den" : tactic => `(tactic| (
  simp only [mul_def, nmul_def, add_def, sub_def, addn_def, subn_def, divn_def, ndiv_def, div_def, denT, arith, okOr, Val.first, Acc.e, *]))

/-- the ghost value of `t1`, if it stores one -/
def ghost (zero : Bool) (btype exOrder : Int) (alpha beta h b x1 x2 : T) : Option T :=
  if btype = 0 then
    if exOrder = 0 then (if zero then some 0 else none)
    else if exOrder = 1 then some (-1 * x1)
    else if exOrder = 2 then some (-2 * x1 + x2 / 3)
    else none
  else if btype = 1 then some x1
  else if btype = 4 then
    if exOrder = 1 then some (((2 * alpha * b - h * beta) / (2 * alpha * b + h * beta)) * x1)
    else if exOrder = 2 then
      some (((8 * alpha * b - 6 * beta * h) / (8 * alpha * b + 3 * beta * h)) * x1 + h / (8 * alpha * b + 3 * beta * h) * x2)
    else none
  else none

/-- the cells contain the ghost values, if any -/
def Ghosts (m' : Mem T) (ua : F.Arr) (r : List (Dim × Int × Int)) (p0 : Pt) (ix : Pt → List Int) (f : Pt → Option T) : Prop :=
  ∀ p ∈ F.nestPts r p0, ∀ v, f p = some v → F.El m' ua (ix p) v

theorem Site.ghosts {e : Expr T} {f : Pt → Option T} (S : Site m u ua D r p0 ix) (hβ : ValidBackend β) (he : Okay m (Writes D u) D e) (ht : HasShape e .num)
    (hv : ∀ p ∈ F.nestPts r p0, f p = some (denT m (D.map (·.1)) e p).first) :
    Ends (withDomain D [(u.set e, β)] m) fun m' => Ghosts m' ua r p0 ix f :=
  (S.ends hβ he ht fun _ _ => rfl).mono fun m' hl p hp v hf => by
    have := hl.el p hp
    rw [hv p hp] at hf
    injection hf with hf
    rw [← hf]; exact this

omit [Field T] in
theorem ghosts_none {f : Pt → Option T} (hf : ∀ p, f p = none) : Ends (.ok m) fun m' => Ghosts m' ua r p0 ix f :=
  ⟨m, rfl, fun p _ v h => by rw [hf] at h; cases h⟩

theorem Site.zero_ghosts {t : T} {f : Pt → Option T} (S : Site m u ua D r p0 ix) (hβ : ValidBackend β) (hf : ∀ p, f p = some t) :
    Ends (withDomain D [((⟨u, .num t⟩ : Assign T), β)] m) fun m' => Ghosts m' ua r p0 ix f := by
  have hlo : LhsOK u D := ⟨S.arr.geo, S.fit.req S.arr.geo S.dom, S.fit.len⟩
  obtain ⟨m', h1, h2⟩ := C15_assign (a := (⟨u, .num t⟩ : Assign T)) hβ (S.fit.int S.arr.geo S.dom)
    ⟨hlo, trivial, trivial, S.arr.alloc, by intro s hs; exact absurd hs (List.not_mem_nil), by intro p q hp hq hm; exact absurd hm (List.not_mem_nil)⟩
  refine ⟨m', by simp only [withDomain, h1, M.ok_bind], fun p hp v hv => ?_⟩
  obtain ⟨w, h3, h4⟩ := h2.at_ p (S.loop.inDom hp)
  refine ⟨(S.own hp).1, ?_⟩
  have := (S.own hp).2
  unfold F.Arr.addrT at this
  rw [this, show m'.val (cell u p) = some w from h4]
  rw [hf p] at hv
  injection hv with hv
  have h5 := rhsT_eq h3
  rw [← hv, ← h5]
  rfl

theorem Site.t1_ghosts {zero : Bool} {btype exOrder : Int} (S : Site m u ua D r p0 ix) (hβ : ValidBackend β) (A1 : At m u D r p0 u1 b1 j1)
    (A2 : At m u D r p0 u2 b2 j2) (Ad : At m u D r p0 d bd jd) :
    Ends (Cuda.bcT1 zero btype exOrder alpha beta u u1 u2 d h D β m) fun m' => Ghosts m' ua r p0 ix fun p =>
      ghost zero btype exOrder alpha beta h (F.rd m bd (jd p)) (F.rd m b1 (j1 p)) (F.rd m b2 (j2 p)) := by
  unfold Cuda.bcT1 ghost
  by_cases hb0 : btype = 0
  · simp only [if_pos hb0]
    by_cases h0 : exOrder = 0
    · simp only [if_pos h0]
      cases zero
      · exact ghosts_none fun _ => rfl
      · exact S.zero_ghosts hβ fun _ => rfl
    simp only [if_neg h0]
    by_cases h1 : exOrder = 1
    · simp only [if_pos h1]
      exact S.ghosts hβ A1.okay (by bc_typed) fun p hp => by rw [← A1.rd hp]; bc_den
    simp only [if_neg h1]
    by_cases h2 : exOrder = 2
    · simp only [if_pos h2]
      exact S.ghosts hβ ⟨A1.okay, A2.okay⟩ (by bc_typed) fun p hp => by rw [← A1.rd hp, ← A2.rd hp]; bc_den
    simp only [if_neg h2]
    exact ghosts_none fun _ => rfl
  simp only [if_neg hb0]
  by_cases hb1 : btype = 1
  · simp only [if_pos hb1]
    exact S.ghosts hβ A1.okay .acc fun p hp => by rw [← A1.rd hp]; bc_den
  simp only [if_neg hb1]
  by_cases hb4 : btype = 4
  · simp only [if_pos hb4]
    by_cases h1 : exOrder = 1
    · simp only [if_pos h1]
      exact S.ghosts hβ ⟨⟨Ad.okay, Ad.okay⟩, A1.okay⟩ (by bc_typed) fun p hp => by rw [← A1.rd hp, ← Ad.rd hp]; bc_den
    simp only [if_neg h1]
    by_cases h2 : exOrder = 2
    · simp only [if_pos h2]
      exact S.ghosts hβ ⟨⟨⟨Ad.okay, Ad.okay⟩, A1.okay⟩, Ad.okay, A2.okay⟩ (by bc_typed) fun p hp => by
        rw [← A1.rd hp, ← A2.rd hp, ← Ad.rd hp]; bc_den
    simp only [if_neg h2]
    exact ghosts_none fun _ => rfl
  simp only [if_neg hb4]
  exact ghosts_none fun _ => rfl

theorem Site.p1_ghosts {btype exOrder : Int} (S : Site m u ua D r p0 ix) (hβ : ValidBackend β) (A1 : At m u D r p0 u1 b1 j1)
    (A2 : At m u D r p0 u2 b2 j2) :
    Ends (Cuda.bcPoissonT1 btype exOrder alpha beta u u1 u2 h D β m) fun m' => Ghosts m' ua r p0 ix fun p =>
      ghost false btype exOrder alpha beta h 1 (F.rd m b1 (j1 p)) (F.rd m b2 (j2 p)) := by
  unfold Cuda.bcPoissonT1 ghost
  by_cases hb0 : btype = 0
  · simp only [if_pos hb0]
    by_cases h1 : exOrder = 1
    · have h0 : exOrder ≠ 0 := by omega
      simp only [if_pos h1, if_neg h0]
      exact S.ghosts hβ A1.okay (by bc_typed) fun p hp => by rw [← A1.rd hp]; bc_den
    simp only [if_neg h1]
    by_cases h2 : exOrder = 2
    · have h0 : exOrder ≠ 0 := by omega
      simp only [if_pos h2, if_neg h0]
      exact S.ghosts hβ ⟨A1.okay, A2.okay⟩ (by bc_typed) fun p hp => by rw [← A1.rd hp, ← A2.rd hp]; bc_den
    simp only [if_neg h2]
    exact ghosts_none fun _ => by simp
  simp only [if_neg hb0]
  by_cases hb1 : btype = 1
  · simp only [if_pos hb1]
    exact S.ghosts hβ A1.okay .acc fun p hp => by rw [← A1.rd hp]; bc_den
  simp only [if_neg hb1]
  by_cases hb4 : btype = 4
  · simp only [if_pos hb4]
    by_cases h1 : exOrder = 1
    · simp only [if_pos h1]
      exact S.ghosts hβ A1.okay (by bc_typed) fun p hp => by rw [← A1.rd hp]; bc_den; simp only [mul_one]
    simp only [if_neg h1]
    by_cases h2 : exOrder = 2
    · simp only [if_pos h2]
      exact S.ghosts hβ ⟨A1.okay, A2.okay⟩ (by bc_typed) fun p hp => by
        rw [← A1.rd hp, ← A2.rd hp]; bc_den; simp only [mul_one]
    simp only [if_neg h2]
    exact ghosts_none fun _ => rfl
  simp only [if_neg hb4]
  exact ghosts_none fun _ => rfl

theorem Site.q1_ghosts {btype exOrder : Int} (S : Site m u ua D r p0 ix) (hβ : ValidBackend β) (A1 : At m u D r p0 u1 b1 j1)
    (A2 : At m u D r p0 u2 b2 j2) :
    Ends (Cuda.bcPoisson1dT1 btype exOrder u u1 u2 h D β m) fun m' => Ghosts m' ua r p0 ix fun p =>
      ghost false btype exOrder 2 1 h 1 (F.rd m b1 (j1 p)) (F.rd m b2 (j2 p)) := by
  unfold Cuda.bcPoisson1dT1 ghost
  by_cases hb0 : btype = 0
  · simp only [if_pos hb0]
    by_cases h1 : exOrder = 1
    · have h0 : exOrder ≠ 0 := by omega
      simp only [if_pos h1, if_neg h0]
      exact S.ghosts hβ A1.okay (by bc_typed) fun p hp => by rw [← A1.rd hp]; bc_den
    simp only [if_neg h1]
    by_cases h2 : exOrder = 2
    · have h0 : exOrder ≠ 0 := by omega
      simp only [if_pos h2, if_neg h0]
      exact S.ghosts hβ ⟨A1.okay, A2.okay⟩ (by bc_typed) fun p hp => by rw [← A1.rd hp, ← A2.rd hp]; bc_den
    simp only [if_neg h2]
    exact ghosts_none fun _ => by simp
  simp only [if_neg hb0]
  by_cases hb1 : btype = 1
  · simp only [if_pos hb1]
    exact S.ghosts hβ A1.okay .acc fun p hp => by rw [← A1.rd hp]; bc_den
  simp only [if_neg hb1]
  by_cases hb4 : btype = 4
  · simp only [if_pos hb4]
    by_cases h1 : exOrder = 1
    · simp only [if_pos h1]
      exact S.ghosts hβ A1.okay (by bc_typed) fun p hp => by rw [← A1.rd hp]; bc_den; norm_num
    simp only [if_neg h1]
    by_cases h2 : exOrder = 2
    · simp only [if_pos h2]
      exact S.ghosts hβ ⟨A1.okay, A2.okay⟩ (by bc_typed) fun p hp => by
        rw [← A1.rd hp, ← A2.rd hp]; bc_den; norm_num
    simp only [if_neg h2]
    exact ghosts_none fun _ => rfl
  simp only [if_neg hb4]
  exact ghosts_none fun _ => rfl

/-- `t2` -/
theorem Site.t2_ends (S : Site m u ua D r p0 ix) (hβ : ValidBackend β) (A1 : At m u D r p0 u1 b1 j1) (A2 : At m u D r p0 u2 b2 j2)
    (A3 : At m u D r p0 u3 b3 j3) :
    Ends (Cuda.bcT2 u u1 u2 u3 D β m) fun m' => Site.Left m m' u ua D r p0 ix fun p => F.rd m b2 (j2 p) + F.rd m b3 (j3 p) - F.rd m b1 (j1 p) :=
  S.ends hβ ⟨⟨A2.okay, A3.okay⟩, A1.okay⟩ (by bc_typed) fun p hp => by
    rw [← A1.rd hp, ← A2.rd hp, ← A3.rd hp]; bc_den

theorem Site.copy_ends (S : Site m u ua D r p0 ix) (hβ : ValidBackend β) (A1 : At m u D r p0 u1 b1 j1) :
    Ends (withDomain D [(u.set (Acc.e T u1), β)] m) fun m' => Site.Left m m' u ua D r p0 ix fun p => F.rd m b1 (j1 p) :=
  S.ends hβ A1.okay .acc fun p hp => by
    rw [← A1.rd hp]; bc_den

/-- the ghost value of `set_homogenous_bc` -/
def homGhost (exOrder : Int) (x : Nat → T) : T :=
  if exOrder = 1 then -1 * x 1
  else if exOrder = 2 then -2 * x 1 + 1 / 3 * x 2
  else if exOrder = 3 then -3 * x 1 + x 2 - 1 / 5 * x 3
  else -4 * x 1 + 2 * x 2 - 4 / 5 * x 3 + 1 / 7 * x 4

theorem Site.hom_ends {exOrder : Int} {jx : Int → Pt → List Int} {b : F.Arr} (S : Site m u ua D r p0 ix) (hβ : ValidBackend β)
    (ho : 1 ≤ exOrder ∧ exOrder ≤ 4) (A1 : At m u D r p0 u1 b (jx 1))
    (A2 : 2 ≤ exOrder → At m u D r p0 u2 b (jx 2)) (A3 : 3 ≤ exOrder → At m u D r p0 u3 b (jx 3)) (A4 : 4 ≤ exOrder → At m u D r p0 u4 b (jx 4)) :
    Ends (Cuda.bcHom exOrder u u1 u2 u3 u4 D β m) fun m' => Site.Left m m' u ua D r p0 ix fun p => homGhost exOrder fun k => F.rd m b (jx k p) := by
  have hcases : exOrder = 1 ∨ exOrder = 2 ∨ exOrder = 3 ∨ exOrder = 4 := by omega
  rcases hcases with rfl | rfl | rfl | rfl
  · exact S.ends hβ A1.okay (by bc_typed) fun p hp => by
      have e1 := A1.rd hp
      simp only [homGhost, reduceIte, Nat.cast_one, Nat.cast_ofNat]
      rw [← e1]; bc_den
  · have A2 := A2 (by decide)
    exact S.ends hβ ⟨A1.okay, A2.okay⟩ (by bc_typed) fun p hp => by
      have e1 := A1.rd hp
      have e2 := A2.rd hp
      simp only [homGhost, reduceIte, Nat.cast_one, Nat.cast_ofNat, Int.reduceEq]
      rw [← e1, ← e2]; bc_den
  · have A2 := A2 (by decide)
    have A3 := A3 (by decide)
    exact S.ends hβ ⟨⟨A1.okay, A2.okay⟩, A3.okay⟩ (by bc_typed) fun p hp => by
      have e1 := A1.rd hp
      have e2 := A2.rd hp
      have e3 := A3.rd hp
      simp only [homGhost, reduceIte, Nat.cast_one, Nat.cast_ofNat, Int.reduceEq]
      rw [← e1, ← e2, ← e3]; bc_den
  · have A2 := A2 (by decide)
    have A3 := A3 (by decide)
    have A4 := A4 (by decide)
    exact S.ends hβ ⟨⟨⟨A1.okay, A2.okay⟩, A3.okay⟩, A4.okay⟩ (by bc_typed) fun p hp => by
      have e1 := A1.rd hp
      have e2 := A2.rd hp
      have e3 := A3.rd hp
      have e4 := A4.rd hp
      simp only [homGhost, reduceIte, Nat.cast_one, Nat.cast_ofNat, Int.reduceEq]
      rw [← e1, ← e2, ← e3, ← e4]; bc_den

end

/-- a point of a segment; `w` is the coordinate of the base point across the dimensions not used -/
def facePt (i j k w : Int) : Pt := fun d => if d = .I then i else if d = .J then j else if d = .K then k else w

/-- a point of the segment -/
macro "site_mem" : tactic => `(tactic| (
  refine (F.mem_nestPts (by simp)).2 ⟨?_, fun d hd => ?_⟩
  · simp [facePt]
    try omega
  · simp at hd
    simp [sitePt, facePt, hd]))

/-! ### polynomials -/

section
open Polynomial
variable [CharZero T]

omit [CharZero T] in
theorem eval_le {p : T[X]} (hp : p.natDegree ≤ 4) (x : T) :
    p.eval x = p.coeff 0 + p.coeff 1 * x + p.coeff 2 * x ^ 2 + p.coeff 3 * x ^ 3 + p.coeff 4 * x ^ 4 := by
  rw [eval_eq_sum_range' (Nat.lt_succ_of_le hp)]
  simp [Finset.sum_range_succ]

omit [CharZero T] in
theorem coeff_gt {p : T[X]} {n k : Nat} (hp : p.natDegree ≤ n) (hk : n < k) : p.coeff k = 0 := coeff_eq_zero_of_natDegree_lt (by omega)

omit [CharZero T] in
theorem slope_zero (p : T[X]) : p.derivative.eval 0 = p.coeff 1 := by
  rw [← coeff_zero_eq_eval_zero, coeff_derivative]; simp

variable {m m' : Mem T} {u : F.Arr} {c : Int → List Int} {h b x1 x2 alpha beta : T}

omit [CharZero T] in
theorem Spec.Samples.nth {n k : Nat} {p : T[X]} (hs : Samples m u c h n p) (h1 : 1 ≤ k) (hn : k ≤ n) : F.rd m u (c k) = p.eval ((k - 1 / 2) * h) :=
  (hs k h1 hn).rd

theorem hom_poly {exOrder : Int} {n : Nat} {p : T[X]} (hn : exOrder = n) (h1 : 1 ≤ n) (h4 : n ≤ 4) (hp : p.natDegree ≤ n) (h0 : Dirichlet p)
    (hs : Samples m u c h n p) : homGhost exOrder (fun k => F.rd m u (c k)) = p.eval (-(1 / 2) * h) := by
  have hp4 : p.natDegree ≤ 4 := by omega
  unfold Dirichlet at h0
  rw [← coeff_zero_eq_eval_zero] at h0
  have hcases : n = 1 ∨ n = 2 ∨ n = 3 ∨ n = 4 := by omega
  rcases hcases with rfl | rfl | rfl | rfl <;> subst hn
  · have e1 := hs.nth (k := 1) (by decide) (by decide)
    simp only [homGhost, Nat.cast_one, Nat.cast_ofNat, reduceIte] at e1 ⊢
    rw [e1]
    simp only [eval_le hp4, h0, coeff_gt hp (show 1 < 2 by decide), coeff_gt hp (show 1 < 3 by decide), coeff_gt hp (show 1 < 4 by decide)]
    field_simp; ring
  · have e1 := hs.nth (k := 1) (by decide) (by decide)
    have e2 := hs.nth (k := 2) (by decide) (by decide)
    simp only [homGhost, Nat.cast_one, Nat.cast_ofNat, reduceIte, Int.reduceEq] at e1 e2 ⊢
    rw [e1, e2]
    simp only [eval_le hp4, h0, coeff_gt hp (show 2 < 3 by decide), coeff_gt hp (show 2 < 4 by decide)]
    field_simp; ring
  · have e1 := hs.nth (k := 1) (by decide) (by decide)
    have e2 := hs.nth (k := 2) (by decide) (by decide)
    have e3 := hs.nth (k := 3) (by decide) (by decide)
    simp only [homGhost, Nat.cast_one, Nat.cast_ofNat, reduceIte, Int.reduceEq] at e1 e2 e3 ⊢
    rw [e1, e2, e3]
    simp only [eval_le hp4, h0, coeff_gt hp (show 3 < 4 by decide)]
    field_simp; ring
  · have e1 := hs.nth (k := 1) (by decide) (by decide)
    have e2 := hs.nth (k := 2) (by decide) (by decide)
    have e3 := hs.nth (k := 3) (by decide) (by decide)
    have e4 := hs.nth (k := 4) (by decide) (by decide)
    simp only [homGhost, Nat.cast_one, Nat.cast_ofNat, reduceIte, Int.reduceEq] at e1 e2 e3 e4 ⊢
    rw [e1, e2, e3, e4]
    simp only [eval_le hp4, h0]
    field_simp; ring

theorem dirichlet_poly {zero : Bool} {exOrder : Int} {n : Nat} {p : T[X]} (hn : exOrder = n) (h1 : zero = true ∨ 1 ≤ n) (h2 : n ≤ 2)
    (hp : p.natDegree ≤ n) (h0 : Dirichlet p) (hs : Samples m u c h n p) {h' : T} :
    ghost zero 0 exOrder alpha beta h' b (F.rd m u (c 1)) (F.rd m u (c 2)) = some (p.eval (-(1 / 2) * h)) := by
  by_cases hz : n = 0
  · subst hz
    have hz : zero = true := h1.resolve_right (by decide)
    subst hz hn
    have hp4 : p.natDegree ≤ 4 := by omega
    unfold Dirichlet at h0
    rw [← coeff_zero_eq_eval_zero] at h0
    simp only [ghost, eval_le hp4, h0, coeff_gt hp (show 0 < 1 by decide), coeff_gt hp (show 0 < 2 by decide), coeff_gt hp (show 0 < 3 by decide),
      coeff_gt hp (show 0 < 4 by decide)]
    simp
  have := hom_poly hn (by omega) (by omega) hp h0 hs
  rw [← this]
  have hcases : n = 1 ∨ n = 2 := by omega
  rcases hcases with rfl | rfl <;> subst hn
  · simp [ghost, homGhost]
  · simp [ghost, homGhost]
    ring

theorem neumann_poly {zero : Bool} {exOrder : Int} {p : T[X]} (hp : p.natDegree ≤ 2) (h0 : Neumann p) (hs : Samples m u c h 1 p) {h' : T} :
    ghost zero 1 exOrder alpha beta h' b (F.rd m u (c 1)) x2 = some (p.eval (-(1 / 2) * h)) := by
  have hp4 : p.natDegree ≤ 4 := by omega
  unfold Neumann at h0
  rw [slope_zero] at h0
  have e1 := hs.nth (k := 1) (by decide) (by decide)
  simp only [Nat.cast_one] at e1
  simp only [ghost, Int.reduceEq, reduceIte]
  rw [e1]
  simp only [eval_le hp4, h0, coeff_gt hp (show 2 < 3 by decide), coeff_gt hp (show 2 < 4 by decide)]
  congr 1
  field_simp; ring

theorem robin1_poly {zero : Bool} {p : T[X]} (hp : p.natDegree ≤ 1) (h0 : Robin alpha b beta p) (hs : Samples m u c h 1 p)
    (hne : 2 * alpha * b + h * beta ≠ 0) :
    ghost zero 4 1 alpha beta h b (F.rd m u (c 1)) x2 = some (p.eval (-(1 / 2) * h)) := by
  have hp4 : p.natDegree ≤ 4 := by omega
  unfold Robin at h0
  rw [slope_zero, ← coeff_zero_eq_eval_zero] at h0
  have e1 := hs.nth (k := 1) (by decide) (by decide)
  simp only [Nat.cast_one] at e1
  simp only [ghost, Int.reduceEq, reduceIte]
  rw [e1]
  simp only [eval_le hp4, coeff_gt hp (show 1 < 2 by decide), coeff_gt hp (show 1 < 3 by decide), coeff_gt hp (show 1 < 4 by decide)]
  congr 1
  field_simp
  linear_combination (-32 * h) * h0

theorem robin2_poly {zero : Bool} {p : T[X]} (hp : p.natDegree ≤ 2) (h0 : Robin alpha b 1 p) (hs : Samples m u c h 2 p)
    (hne : 8 * alpha * b + 3 * 1 * h ≠ 0) :
    ghost zero 4 2 alpha 1 h b (F.rd m u (c 1)) (F.rd m u (c 2)) = some (p.eval (-(1 / 2) * h)) := by
  have hp4 : p.natDegree ≤ 4 := by omega
  unfold Robin at h0
  rw [slope_zero, ← coeff_zero_eq_eval_zero] at h0
  have e1 := hs.nth (k := 1) (by decide) (by decide)
  have e2 := hs.nth (k := 2) (by decide) (by decide)
  simp only [Nat.cast_one, Nat.cast_ofNat] at e1 e2
  simp only [ghost, Int.reduceEq, reduceIte]
  rw [e1, e2]
  simp only [eval_le hp4, coeff_gt hp (show 2 < 3 by decide), coeff_gt hp (show 2 < 4 by decide)]
  congr 1
  have hne1 : 8 * alpha * b + 3 * h ≠ 0 := by simpa using hne
  simp only [mul_one]
  rw [div_mul_eq_mul_div, div_mul_eq_mul_div, ← add_div, div_eq_iff hne1]
  linear_combination (-8 * h) * h0

end

end Verif
