import Mathlib.Algebra.BigOperators.Group.List.Basic
import Mathlib.Algebra.Field.Basic
import Mathlib.Algebra.CharZero.Defs
import Mathlib.Tactic.FieldSimp
import Mathlib.Tactic.LinearCombination
import Verif.Lemmas.Smooth

/-
The bodies of the smoothers at one cell, and what whole sweeps leave behind.
-/

set_option linter.unusedSectionVars false

namespace Verif.F

variable {T : Type}

theorem foldlM_local {body : Int → T → M T} {g : T → Int → T} : ∀ {l : List Int} {r : T}, (∀ s ∈ l, ∀ r, body s r = .ok (g r s)) →
    l.foldlM (fun r s => body s r) r = .ok (l.foldl g r)
  | [], _, _ => rfl
  | s :: l, r, h => by
    rw [List.foldlM_cons, h s List.mem_cons_self, M.ok_bind, foldlM_local fun s hs => h s (List.mem_cons_of_mem _ hs)]
    rfl

section
variable [Add T] [Sub T] [Mul T] [Div T] [Neg T]

theorem sub_ok {e f : Expr T} {m : Mem T} {x y : T} (he : e.eval m = .ok x) (hf : f.eval m = .ok y) : (e - f).eval m = .ok (x - y) := by
  show (Expr.sub e f).eval m = _
  rw [Expr.eval, he, M.ok_bind, hf]; rfl

theorem div_ok {e f : Expr T} {m : Mem T} {x y : T} (he : e.eval m = .ok x) (hf : f.eval m = .ok y) : (e / f).eval m = .ok (x / y) := by
  show (Expr.div e f).eval m = _
  rw [Expr.eval, he, M.ok_bind, hf]; rfl

theorem mul_ok' {e f : Expr T} {m : Mem T} {x y : T} (he : e.eval m = .ok x) (hf : f.eval m = .ok y) : (e * f).eval m = .ok (x * y) := mul_ok he hf

theorem add_ok' {e f : Expr T} {m : Mem T} {x y : T} (he : e.eval m = .ok x) (hf : f.eval m = .ok y) : (e + f).eval m = .ok (x + y) := add_ok he hf

variable {m m1 : Mem T} {box : List (Int × Int)} {n : Int} {tab st f u : Arr} {O : Int → List Int} {S F U V : List Int → T} {p : List Int}

/-- one term of the sum at a cell -/
theorem Problem.term (h : Problem m box n tab st f u O S F U) (hp : InBounds box p) (hV : Holds m1 u V) (hs : Holds m1 st S) {s : Int} (h0 : 0 ≤ s)
    (h1 : s < n) {e : Expr T} {r : T} (he : e.eval m1 = .ok r) : (e - .ref st (s :: p) * .ref u (shift p (O s))).eval m1 =
      .ok (r - S (s :: p) * V (shift p (O s))) :=
  sub_ok he (mul_ok' (hs.ref (h.inSt p hp s h0 h1)) (hV.ref (h.near p hp s h0 h1)))

/-- the body of the Gauss-Seidel routines -/
theorem gs_cell (h : Problem m box n tab st f u O S F U) (hp : InBounds box p) (hV : Holds m1 u V) (ho : Only [u] m m1) {X : Int → T → M T}
    {fe : Expr T} (hfe : fe.eval m1 = .ok (F p))
    (hX : ∀ s r, 1 ≤ s → s < n → X s r = (.const r - .ref st (s :: p) * .ref u (shift p (O s)) : Expr T).eval m1) :
    (do
      let r ← fe.eval m1
      let r ← doLocal 1 (n - 1) r X
      assign u p (Expr.const r / st.el (0 :: p) : Expr T) m1) = .ok (put m1 u p (solve n O S F V p)) := by
  have hs : Holds m1 st S := h.holdsSt.only ho (by simpa using h.apartSt)
  have h0 := h.size
  rw [hfe, M.ok_bind]
  have : doLocal 1 (n - 1) (F p) X = .ok ((irange 1 (n - 1)).foldl (fun r s => r - S (s :: p) * V (shift p (O s))) (F p)) := by
    unfold doLocal
    refine foldlM_local fun s hs' r => ?_
    have := mem_irange.1 hs'
    rw [hX s r (by omega) (by omega)]
    exact h.term hp hV hs (by omega) (by omega) rfl
  rw [this, M.ok_bind]
  exact hV.assign (h.inU p hp) (div_ok rfl (hs.ref (h.inSt p hp 0 (by omega) (by omega))))

theorem Problem.rhs (h : Problem m box n tab st f u O S F U) (hp : InBounds box p) (ho : Only [u] m m1) : (f.el p : Expr T).eval m1 = .ok (F p) :=
  (h.holdsF.only ho (by simpa using h.apartF)).ref (h.inF p hp)

/-- a Gauss-Seidel sweep over the cells of a list -/
theorem gs_run (h : Problem m box n tab st f u O S F U) {l : List (List Int)} {c : List Int → Cmd T} (hb : ∀ p ∈ l, InBounds box p)
    (hl : l.Pairwise Before)
    (hc : ∀ p ∈ l, ∀ m1 V, Holds m1 u V → Only [u] m m1 → c p m1 = .ok (put m1 u p (solve n O S F V p))) :
    ∃ m' U', runPts l c m = .ok m' ∧ Holds m' u U' ∧ Only [u] m m' ∧ (∀ p, p ∉ l → U' p = U p) ∧
      (∀ p ∈ l, U' p = solve n O S F (fun q => if q ∈ l ∧ Before q p then U' q else U q) p) ∧
      ((∀ p ∈ l, solve n O S F U p = U p) → U' = U) := by
  obtain ⟨m', g1, g2, g3⟩ := sweep (G := fun p V => solve n O S F V p) h.holdsU Only.refl (fun p hp => h.inU p (hb p hp)) hc
  refine ⟨m', _, g1, g2, g3, fun p hp => swp_not_mem hp, fun p hp => ?_, fun hfix => ?_⟩
  · obtain ⟨V, v1, v2, v3⟩ := swp_mem (G := fun p V => solve n O S F V p) (W := U) hl before_asymm hp
    rw [v1]
    congr 1
    funext q
    split
    · rename_i hq; exact v2 q hq.1 hq.2
    · rename_i hq; exact v3 q hq
  · clear g1 g2 g3 hc hb hl
    induction l with
    | nil => rfl
    | cons p l ih =>
      rw [swp, hfix p List.mem_cons_self]
      have : upd U p (U p) = U := by
        funext q
        unfold upd
        split
        · rename_i e; rw [e]
        · rfl
      rw [this]
      exact ih fun q hq => hfix q (List.mem_cons_of_mem _ hq)

/-- only the displaced cells matter -/
theorem solve_congr {W : List Int → T} (h : ∀ s, 1 ≤ s → s < n → V (shift p (O s)) = W (shift p (O s))) : solve n O S F V p = solve n O S F W p := by
  unfold solve
  congr 1
  have : ∀ l : List Int, (∀ s ∈ l, V (shift p (O s)) = W (shift p (O s))) → ∀ r : T,
      l.foldl (fun r s => r - S (s :: p) * V (shift p (O s))) r = l.foldl (fun r s => r - S (s :: p) * W (shift p (O s))) r := by
    intro l
    induction l with
    | nil => intros; rfl
    | cons s l ih =>
      intro hl r
      simp only [List.foldl_cons]
      rw [hl s List.mem_cons_self]
      exact ih (fun s hs => hl s (List.mem_cons_of_mem _ hs)) _
  refine this _ (fun s hs => ?_) _
  have := mem_irange.1 hs
  exact h s (by omega) (by omega)

/-! ### the displacement table -/

theorem Problem.tab1 {o : Ptr} {b0 : Int × Int} (h : Problem m [b0] n (offset0 o 1 n) st f u O S F U) {s : Int} (h0 : 0 ≤ s) (h1 : s < n) :
    ∃ a, O s = [a] ∧ ∀ m1 : Mem T, m1.ints = m.ints → intRef (offset0 o 1 n) [0, s] m1 = .ok a := by
  obtain ⟨hl, ht⟩ := h.table s h0 h1
  match e : O s, hl with
  | [a], _ => exact ⟨a, rfl, fun m1 hm => intRef_ok (ht 0 a (by simp [e])) hm⟩

theorem Problem.tab2 {o : Ptr} {b0 b1 : Int × Int} (h : Problem m [b0, b1] n (offset0 o 2 n) st f u O S F U) {s : Int} (h0 : 0 ≤ s) (h1 : s < n) :
    ∃ a b, O s = [a, b] ∧ ∀ m1 : Mem T, m1.ints = m.ints → intRef (offset0 o 2 n) [0, s] m1 = .ok a ∧ intRef (offset0 o 2 n) [1, s] m1 = .ok b := by
  obtain ⟨hl, ht⟩ := h.table s h0 h1
  match e : O s, hl with
  | [a, b], _ => exact ⟨a, b, rfl, fun m1 hm => ⟨intRef_ok (ht 0 a (by simp [e])) hm, intRef_ok (ht 1 b (by simp [e])) hm⟩⟩

theorem Problem.tab3 {o : Ptr} {b0 b1 b2 : Int × Int} (h : Problem m [b0, b1, b2] n (offset0 o 3 n) st f u O S F U) {s : Int} (h0 : 0 ≤ s) (h1 : s < n) :
    ∃ a b c, O s = [a, b, c] ∧ ∀ m1 : Mem T, m1.ints = m.ints → intRef (offset0 o 3 n) [0, s] m1 = .ok a ∧ intRef (offset0 o 3 n) [1, s] m1 = .ok b ∧
      intRef (offset0 o 3 n) [2, s] m1 = .ok c := by
  obtain ⟨hl, ht⟩ := h.table s h0 h1
  match e : O s, hl with
  | [a, b, c], _ => exact ⟨a, b, c, rfl, fun m1 hm =>
      ⟨intRef_ok (ht 0 a (by simp [e])) hm, intRef_ok (ht 1 b (by simp [e])) hm, intRef_ok (ht 2 c (by simp [e])) hm⟩⟩

/-! ### the Gauss-Seidel bodies as the routines write them -/

/-- one dimension; `fd` is `f` as declared in the routine -/
def body1 (tab st fd u : Arr) (n i : Int) : Cmd T := fun m => do
  let r ← (fd.el [i] : Expr T).eval m
  let r ← doLocal 1 (n - 1) r fun s r => do
    let io ← intRef tab [0, s] m
    (.const r - st.el [s, i] * u.el [i + io] : Expr T).eval m
  assign u [i] (.const r / st.el [0, i]) m

def body2 (tab st fd u : Arr) (n j i : Int) : Cmd T := fun m => do
  let r ← (fd.el [i, j] : Expr T).eval m
  let r ← doLocal 1 (n - 1) r fun s r => do
    let io ← intRef tab [0, s] m
    let jo ← intRef tab [1, s] m
    (.const r - st.el [s, i, j] * u.el [i + io, j + jo] : Expr T).eval m
  assign u [i, j] (.const r / st.el [0, i, j]) m

def body3 (tab st fd u : Arr) (n k j i : Int) : Cmd T := fun m => do
  let r ← (fd.el [i, j, k] : Expr T).eval m
  let r ← doLocal 1 (n - 1) r fun s r => do
    let io ← intRef tab [0, s] m
    let jo ← intRef tab [1, s] m
    let ko ← intRef tab [2, s] m
    (.const r - st.el [s, i, j, k] * u.el [i + io, j + jo, k + ko] : Expr T).eval m
  assign u [i, j, k] (.const r / st.el [0, i, j, k]) m

theorem body1_ok {o : Ptr} {b0 : Int × Int} {fd : Arr} {i : Int} (h : Problem m [b0] n (offset0 o 1 n) st f u O S F U) (hp : InBounds [b0] [i])
    (hV : Holds m1 u V) (ho : Only [u] m m1) (hfe : (fd.el [i] : Expr T).eval m1 = .ok (F [i])) :
    body1 (offset0 o 1 n) st fd u n i m1 = .ok (put m1 u [i] (solve n O S F V [i])) := by
  refine gs_cell h hp hV ho hfe fun s r h0 h1 => ?_
  obtain ⟨a, e, g⟩ := h.tab1 (s := s) (by omega) h1
  rw [g m1 ho.ints, M.ok_bind, e]
  rfl

theorem body2_ok {o : Ptr} {b0 b1 : Int × Int} {i j : Int} (h : Problem m [b0, b1] n (offset0 o 2 n) st f u O S F U) (hp : InBounds [b0, b1] [i, j])
    (hV : Holds m1 u V) (ho : Only [u] m m1) :
    body2 (offset0 o 2 n) st f u n j i m1 = .ok (put m1 u [i, j] (solve n O S F V [i, j])) := by
  refine gs_cell h hp hV ho (h.rhs hp ho) fun s r h0 h1 => ?_
  obtain ⟨a, b, e, g⟩ := h.tab2 (s := s) (by omega) h1
  obtain ⟨g1, g2⟩ := g m1 ho.ints
  rw [g1, M.ok_bind, g2, M.ok_bind, e]
  rfl

theorem body3_ok {o : Ptr} {b0 b1 b2 : Int × Int} {i j k : Int} (h : Problem m [b0, b1, b2] n (offset0 o 3 n) st f u O S F U)
    (hp : InBounds [b0, b1, b2] [i, j, k]) (hV : Holds m1 u V) (ho : Only [u] m m1) :
    body3 (offset0 o 3 n) st f u n k j i m1 = .ok (put m1 u [i, j, k] (solve n O S F V [i, j, k])) := by
  refine gs_cell h hp hV ho (h.rhs hp ho) fun s r h0 h1 => ?_
  obtain ⟨a, b, c, e, g⟩ := h.tab3 (s := s) (by omega) h1
  obtain ⟨g1, g2, g3⟩ := g m1 ho.ints
  rw [g1, M.ok_bind, g2, M.ok_bind, g3, M.ok_bind, e]
  rfl

/-- the body at a cell given by its indices -/
def at1 (c : Int → Cmd T) (p : List Int) : Cmd T := c (p[0]?.getD 0)
def at2 (c : Int → Int → Cmd T) (p : List Int) : Cmd T := c (p[1]?.getD 0) (p[0]?.getD 0)
def at3 (c : Int → Int → Int → Cmd T) (p : List Int) : Cmd T := c (p[2]?.getD 0) (p[1]?.getD 0) (p[0]?.getD 0)

/-! ### the cells the loops visit -/

theorem mem_pts1 {r : List Int} {p : List Int} : p ∈ pts1 r ↔ ∃ i, p = [i] ∧ i ∈ r := by
  simp only [pts1, List.mem_map]
  constructor
  · rintro ⟨i, h, rfl⟩; exact ⟨i, rfl, h⟩
  · rintro ⟨i, rfl, h⟩; exact ⟨i, h, rfl⟩

theorem mem_pts2 {R : List Int} {r : Int → List Int} {p : List Int} : p ∈ pts2 R r ↔ ∃ i j, p = [i, j] ∧ j ∈ R ∧ i ∈ r j := by
  simp only [pts2, List.mem_flatMap, List.mem_map]
  constructor
  · rintro ⟨j, h, i, h', rfl⟩; exact ⟨i, j, rfl, h, h'⟩
  · rintro ⟨i, j, rfl, h, h'⟩; exact ⟨j, h, i, h', rfl⟩

theorem mem_pts3 {R3 R2 : List Int} {r : Int → Int → List Int} {p : List Int} :
    p ∈ pts3 R3 R2 r ↔ ∃ i j k, p = [i, j, k] ∧ k ∈ R3 ∧ j ∈ R2 ∧ i ∈ r j k := by
  simp only [pts3, List.mem_flatMap, List.mem_map]
  constructor
  · rintro ⟨k, h, j, h', i, h'', rfl⟩; exact ⟨i, j, k, rfl, h, h', h''⟩
  · rintro ⟨i, j, k, rfl, h, h', h''⟩; exact ⟨k, h, j, h', i, h'', rfl⟩

theorem inBounds1 {lo0 hi0 : Int} {p : List Int} : InBounds [(lo0, hi0)] p ↔ ∃ i, p = [i] ∧ lo0 ≤ i ∧ i ≤ hi0 := by
  match p with
  | [] => simp [InBounds]
  | [i] => simp [InBounds]
  | _ :: _ :: _ => simp [InBounds]

theorem inBounds2 {lo0 hi0 lo1 hi1 : Int} {p : List Int} :
    InBounds [(lo0, hi0), (lo1, hi1)] p ↔ ∃ i j, p = [i, j] ∧ (lo1 ≤ j ∧ j ≤ hi1) ∧ lo0 ≤ i ∧ i ≤ hi0 := by
  match p with
  | [] => simp [InBounds]
  | [_] => simp [InBounds]
  | [i, j] => simp [InBounds]; omega
  | _ :: _ :: _ :: _ => simp [InBounds]

theorem inBounds3 {lo0 hi0 lo1 hi1 lo2 hi2 : Int} {p : List Int} : InBounds [(lo0, hi0), (lo1, hi1), (lo2, hi2)] p ↔
    ∃ i j k, p = [i, j, k] ∧ (lo2 ≤ k ∧ k ≤ hi2) ∧ (lo1 ≤ j ∧ j ≤ hi1) ∧ lo0 ≤ i ∧ i ≤ hi0 := by
  match p with
  | [] => simp [InBounds]
  | [_] => simp [InBounds]
  | [_, _] => simp [InBounds]
  | [i, j, k] => simp [InBounds]; omega
  | _ :: _ :: _ :: _ :: _ => simp [InBounds]

theorem all1 {lo0 hi0 : Int} {p : List Int} : p ∈ pts1 (irange lo0 hi0) ↔ InBounds [(lo0, hi0)] p := by
  simp only [mem_pts1, inBounds1, mem_irange]

theorem all2 {lo0 hi0 lo1 hi1 : Int} {p : List Int} : p ∈ pts2 (irange lo1 hi1) (fun _ => irange lo0 hi0) ↔ InBounds [(lo0, hi0), (lo1, hi1)] p := by
  simp only [mem_pts2, inBounds2, mem_irange]

theorem all3 {lo0 hi0 lo1 hi1 lo2 hi2 : Int} {p : List Int} :
    p ∈ pts3 (irange lo2 hi2) (irange lo1 hi1) (fun _ _ => irange lo0 hi0) ↔ InBounds [(lo0, hi0), (lo1, hi1), (lo2, hi2)] p := by
  simp only [mem_pts3, inBounds3, mem_irange]

theorem tmod_two {x : Int} (h : 0 ≤ x) : x.tmod 2 = x % 2 := Int.tmod_eq_emod_of_nonneg h

theorem colour1 {lo0 hi0 color : Int} {p : List Int} (hc : 0 ≤ color) :
    p ∈ pts1 (srange (lo0 + color.tmod 2) hi0 2) ↔ InBounds [(lo0, hi0)] p ∧ Colour lo0 color p := by
  simp only [mem_pts1, inBounds1, mem_srange, tmod_two hc]
  constructor
  · rintro ⟨i, rfl, h⟩
    exact ⟨⟨i, rfl, by omega⟩, by simp only [Colour, List.sum_nil]; omega⟩
  · rintro ⟨⟨i, rfl, h⟩, h'⟩
    simp only [Colour, List.sum_nil] at h'
    exact ⟨i, rfl, by omega⟩

theorem colour2 {lo0 hi0 lo1 hi1 color : Int} {p : List Int} (hc : 0 ≤ lo1 + color) :
    p ∈ pts2 (irange lo1 hi1) (fun j => srange (lo0 + (j + color).tmod 2) hi0 2) ↔ InBounds [(lo0, hi0), (lo1, hi1)] p ∧ Colour lo0 color p := by
  simp only [mem_pts2, inBounds2, mem_srange, mem_irange]
  constructor
  · rintro ⟨i, j, rfl, h1, h2⟩
    rw [tmod_two (by omega)] at h2
    exact ⟨⟨i, j, rfl, h1, by omega⟩, by simp only [Colour, List.sum_cons, List.sum_nil]; omega⟩
  · rintro ⟨⟨i, j, rfl, h1, h2⟩, h'⟩
    simp only [Colour, List.sum_cons, List.sum_nil] at h'
    refine ⟨i, j, rfl, h1, ?_⟩
    rw [tmod_two (by omega)]
    omega

theorem colour3 {lo0 hi0 lo1 hi1 lo2 hi2 color : Int} {p : List Int} (hc : 0 ≤ color) :
    p ∈ pts3 (irange lo2 hi2) (irange lo1 hi1) (fun j k => srange (lo0 + (((j + k).natAbs : Int) + color).tmod 2) hi0 2) ↔
      InBounds [(lo0, hi0), (lo1, hi1), (lo2, hi2)] p ∧ Colour lo0 color p := by
  simp only [mem_pts3, inBounds3, mem_srange, mem_irange]
  constructor
  · rintro ⟨i, j, k, rfl, h1, h2, h3⟩
    rw [tmod_two (by omega)] at h3
    exact ⟨⟨i, j, k, rfl, h1, h2, by omega⟩, by simp only [Colour, List.sum_cons, List.sum_nil]; omega⟩
  · rintro ⟨⟨i, j, k, rfl, h1, h2, h3⟩, h'⟩
    simp only [Colour, List.sum_cons, List.sum_nil] at h'
    refine ⟨i, j, k, rfl, h1, h2, ?_⟩
    rw [tmod_two (by omega)]
    omega

/-- a displacement of odd length changes the colour -/
theorem colour_shift {lo0 color : Int} {p o : List Int} (hl : o.length = p.length) (ho : o.sum % 2 = 1) (h : Colour lo0 color p) :
    ¬ Colour lo0 color (shift p o) := by
  have key : ∀ {a b : List Int}, b.length = a.length → (shift a b).sum = a.sum + b.sum := by
    intro a
    induction a with
    | nil => intro b hb; cases b <;> simp_all [shift]
    | cons x a ih =>
      intro b hb
      match b, hb with
      | y :: b, hb =>
        have := ih (b := b) (by simpa using hb)
        simp only [shift, List.zipWith_cons_cons, List.sum_cons] at this ⊢
        omega
  match p, o, hl with
  | i :: is, y :: ys, hl =>
    have := key (a := is) (b := ys) (by simpa using hl)
    simp only [shift, List.zipWith_cons_cons, Colour, List.sum_cons] at *
    omega
  | [], _, _ => exact absurd h (by simp [Colour])

/-! ### whole sweeps -/

/-- after a sweep the call can be made again -/
theorem Problem.after {U1 : List Int → T} (h : Problem m box n tab st f u O S F U) (hU : Holds m1 u U1) (ho : Only [u] m m1) :
    Problem m1 box n tab st f u O S F U1 where
  size := h.size
  table := fun s h0 h1 => ⟨(h.table s h0 h1).1, fun c z hz => by
    have := (h.table s h0 h1).2 c z hz
    exact ⟨this.1, by rw [ho.ints]; exact this.2⟩⟩
  holdsSt := h.holdsSt.only ho (by simpa using h.apartSt)
  holdsF := h.holdsF.only ho (by simpa using h.apartF)
  holdsU := hU
  inSt := h.inSt
  inF := h.inF
  inU := h.inU
  near := h.near
  apartSt := h.apartSt
  apartF := h.apartF

theorem gs_swept (h : Problem m box n tab st f u O S F U) {l : List (List Int)} {c : List Int → Cmd T} {P : List Int → Prop} [DecidablePred P]
    (hP : ∀ p, p ∈ l ↔ P p) (hb : ∀ p, P p → InBounds box p) (hl : l.Pairwise Before)
    (hc : ∀ p, P p → ∀ m1 V, Holds m1 u V → Only [u] m m1 → c p m1 = .ok (put m1 u p (solve n O S F V p))) :
    ∃ m' U', runPts l c m = .ok m' ∧ Holds m' u U' ∧ Only [u] m m' ∧ Swept P n O S F U U' := by
  obtain ⟨m', U', g1, g2, g3, g4, g5, -⟩ := gs_run h (fun p hp => hb p ((hP p).1 hp)) hl (fun p hp => hc p ((hP p).1 hp))
  refine ⟨m', U', g1, g2, g3, fun p hp => g4 p fun h => hp ((hP p).1 h), fun p hp => ?_⟩
  rw [g5 p ((hP p).2 hp)]
  simp only [hP]

omit [Add T] [Neg T] in
/-- what a sweep leaves is determined -/
theorem swept_unique {l : List (List Int)} {P : List Int → Prop} [DecidablePred P] (hP : ∀ p, p ∈ l ↔ P p) (hl : l.Pairwise Before)
    {U1 U2 : List Int → T} (h1 : Swept P n O S F U U1) (h2 : Swept P n O S F U U2) : U1 = U2 := by
  have key : ∀ l1 l2 : List (List Int), l = l1 ++ l2 → ∀ p ∈ l1, U1 p = U2 p := by
    intro l1
    induction l1 using List.reverseRecOn with
    | nil => intro _ _ p hp; cases hp
    | append_singleton l1 a ih =>
      intro l2 e p hp
      have ih := ih (a :: l2) (by simpa using e)
      rcases List.mem_append.1 hp with hp | hp
      · exact ih p hp
      · rw [List.mem_singleton] at hp
        subst hp
        have hp : P p := (hP p).1 (by rw [e]; simp)
        rw [h1.cell p hp, h2.cell p hp]
        congr 1
        funext q
        split
        · rename_i hq
          refine ih q ?_
          have hm := (hP q).2 hq.1
          rw [e] at hm hl
          rw [List.append_assoc, List.singleton_append, List.pairwise_append, List.pairwise_cons] at hl
          rw [List.append_assoc, List.singleton_append, List.mem_append, List.mem_cons] at hm
          rcases hm with hm | rfl | hm
          · exact hm
          · exact absurd hq.2 (before_asymm _ _ hq.2)
          · exact absurd hq.2 (before_asymm _ _ (hl.2.1.1 q hm))
        · rfl
  funext p
  by_cases hp : P p
  · exact key l [] (by simp) p ((hP p).2 hp)
  · rw [h1.other p hp, h2.other p hp]

/-- no cell is a displaced cell of another -/
theorem Swept.independent {U' : List Int → T} {P : List Int → Prop} [DecidablePred P] (h : Swept P n O S F U U')
    (hsep : ∀ p, P p → ∀ s, 1 ≤ s → s < n → ¬ P (shift p (O s))) :
    (∀ p, P p → U' p = solve n O S F U p) ∧ ∀ p, P p → U' p = solve n O S F U' p := by
  have key : ∀ p, P p → U' p = solve n O S F U p := fun p hp => by
    rw [h.cell p hp]
    exact solve_congr fun s h1 h2 => if_neg fun hq => hsep p hp s h1 h2 hq.1
  refine ⟨key, fun p hp => ?_⟩
  rw [key p hp]
  exact solve_congr fun s h1 h2 => (h.other _ (hsep p hp s h1 h2)).symm

theorem colour_other {lo0 c c2 : Int} (h : (c2 - c) % 2 = 1) {p : List Int} (h1 : Colour lo0 c p) (h2 : Colour lo0 c2 p) : False := by
  match p with
  | [] => exact h1
  | i :: is => simp only [Colour] at h1 h2; omega

theorem colour_cover {lo0 c c2 : Int} (h : (c2 - c) % 2 = 1) {p : List Int} (hp : p ≠ []) : Colour lo0 c p ∨ Colour lo0 c2 p := by
  match p with
  | [] => exact absurd rfl hp
  | i :: is => simp only [Colour]; omega

/-! ### Jacobi -/

/-- the body of the first loop of the Jacobi routines -/
theorem jacobi_cell {r : Arr} {R : List Int → T} (h : Problem m box n tab st f u O S F U) (hp : InBounds box p) (hr : InBounds r.dims p)
    (hR : Holds m1 r R) (ho : Only [r] m m1) (ru : Apart r u) (rs : Apart r st) (rf : Apart r f) {X : Int → Cmd T}
    (hX : ∀ s, 0 ≤ s → s < n → ∀ m2 : Mem T, m2.ints = m.ints →
      X s m2 = assign r p (.ref r p - .ref st (s :: p) * .ref u (shift p (O s))) m2) :
    block [assign r p (f.el p), doLoop 0 (n - 1) X, assign r p (r.el p / st.el (0 :: p))] m1 = .ok (put m1 r p (scaled n O S F U p)) := by
  have h0 := h.size
  have op : ∀ v, Only [r] m (put m1 r p v) := fun v => ho.trans (only_put hr)
  have hs : ∀ v, Holds (put m1 r p v) st S := fun v => h.holdsSt.only (op v) (by simpa using rs)
  have hu : ∀ v, Holds (put m1 r p v) u U := fun v => h.holdsU.only (op v) (by simpa using ru)
  have hr' : ∀ v, (Expr.ref r p : Expr T).eval (put m1 r p v) = .ok v := fun v => by
    have := (holds_put (v := v) hr hR).ref hr
    rw [this, upd, if_pos rfl]
  have hput : ∀ v w, put (put m1 r p v) r p w = put m1 r p w := fun v w => by
    unfold put
    congr 1
    funext q
    dsimp only
    split <;> rfl
  have h1 : assign r p (f.el p) m1 = .ok (put m1 r p (F p)) := hR.assign hr ((h.holdsF.only ho (by simpa using rf)).ref (h.inF p hp))
  have h2 : ∀ (l : List Int), (∀ s ∈ l, 0 ≤ s ∧ s < n) → ∀ v, l.foldlM (fun m s => X s m) (put m1 r p v) =
      .ok (put m1 r p (l.foldl (fun r s => r - S (s :: p) * U (shift p (O s))) v)) := by
    intro l
    induction l with
    | nil => intros; rfl
    | cons s l ih =>
      intro hl v
      obtain ⟨a, b⟩ := hl s List.mem_cons_self
      rw [List.foldlM_cons, hX s a b _ (op v).ints, (holds_put (v := v) hr hR).assign hr (h.term hp (hu v) (hs v) a b (hr' v)), M.ok_bind, hput,
        ih fun s hs => hl s (List.mem_cons_of_mem _ hs)]
      rfl
  simp only [block]
  rw [h1, M.ok_bind]
  unfold doLoop
  rw [h2 _ (fun s hs => by have := mem_irange.1 hs; omega), M.ok_bind,
    (holds_put hr hR).assign hr (div_ok (hr' _) ((hs _).ref (h.inSt p hp 0 (by omega) (by omega)))), M.ok_bind, hput]
  rfl

/-- both loops -/
theorem jacobi_run {r : Arr} {R : List Int → T} {w : T} (h : Problem m box n tab st f u O S F U) (hr : ∀ p, InBounds box p → InBounds r.dims p)
    (hR : Holds m r R) (ru : Apart r u) {l : List (List Int)} {c d : List Int → Cmd T}
    (hb : ∀ p, p ∈ l ↔ InBounds box p) (hl : l.Pairwise Before)
    (hc : ∀ p ∈ l, ∀ m1 R, Holds m1 r R → Only [r] m m1 → c p m1 = .ok (put m1 r p (scaled n O S F U p)))
    (hd : ∀ p ∈ l, ∀ m1, d p m1 = assign u p (.ref u p + .const w * .ref r p) m1) :
    ∃ m' U', (runPts l c m >>= runPts l d) = .ok m' ∧ Holds m' u U' ∧ Only [u, r] m m' ∧ (∀ p, ¬ InBounds box p → U' p = U p) ∧
      (∀ p, InBounds box p → U' p = U p + w * scaled n O S F U p) ∧ ∀ p, InBounds box p → El m' r p (scaled n O S F U p) := by
  obtain ⟨m1, g1, g2, g3⟩ := sweep (G := fun p _ => scaled n O S F U p) hR Only.refl (fun p hp => hr p ((hb p).1 hp)) hc
  have hu1 : Holds m1 u U := h.holdsU.only g3 (by simpa using ru)
  have val1 : ∀ p ∈ l, swp (fun p _ => scaled n O S F U p) l R p = scaled n O S F U p := fun p hp => by
    obtain ⟨V, v1, -, -⟩ := swp_mem (G := fun p _ => scaled n O S F U p) (W := R) hl before_asymm hp
    exact v1
  obtain ⟨m2, k1, k2, k3⟩ := sweep (m0 := m1) (c := d) (G := fun p V => V p + w * scaled n O S F U p) hu1 Only.refl
    (fun p hp => h.inU p ((hb p).1 hp)) (fun p hp m2 V hV ho => by
      have hr2 := g2.only (m1 := m2) ho (by simpa using apart_symm ru)
      rw [hd p hp]
      refine hV.assign (h.inU p ((hb p).1 hp)) (add_ok' (hV.ref (h.inU p ((hb p).1 hp))) (mul_ok' rfl ?_))
      rw [hr2.ref (hr p ((hb p).1 hp)), val1 p hp])
  refine ⟨m2, _, ?_, k2, (g3.mono (by simp)).trans (k3.mono (by simp)), fun p hp => swp_not_mem fun h => hp ((hb p).1 h), fun p hp => ?_, fun p hp => ?_⟩
  · rw [g1, M.ok_bind, k1]
  · obtain ⟨V, v1, -, v3⟩ := swp_mem (G := fun p V => V p + w * scaled n O S F U p) (W := U) hl before_asymm ((hb p).2 hp)
    rw [v1, v3 p fun hq => before_asymm p p hq.2 hq.2]
  · rw [← val1 p ((hb p).2 hp)]
    exact (g2.only (m1 := m2) k3 (by simpa using apart_symm ru)) p (hr p hp)

end

/-! ### exact arithmetic -/

section
variable [Field T] {n : Int} {O : Int → List Int} {S F U : List Int → T} {p : List Int}

theorem foldl_sub {g : Int → T} : ∀ {l : List Int} {a : T}, l.foldl (fun r s => r - g s) a = a - (l.map g).sum
  | [], a => by simp
  | s :: l, a => by
    rw [List.foldl_cons, foldl_sub, List.map_cons, List.sum_cons]
    ring

theorem irange_zero (h : 1 ≤ n) : irange 0 (n - 1) = 0 :: irange 1 (n - 1) := by
  unfold irange
  rw [show (n - 1 - 0 + 1).toNat = (n - 1 - 1 + 1).toNat + 1 by omega, List.range_succ_eq_map, List.map_cons, List.map_map]
  simp only [Nat.cast_zero, add_zero, List.cons.injEq, true_and]
  refine List.map_congr_left fun k _ => ?_
  simp only [Function.comp_apply, Nat.succ_eq_add_one]
  push_cast
  ring

/-- the solution of the equation of a cell -/
theorem solve_iff (h : 1 ≤ n) (hd : shift p (O 0) = p) (h0 : S (0 :: p) ≠ 0) : solve n O S F U p = U p ↔ Eqn n O S F U p := by
  unfold solve Eqn Verif.F.sum
  rw [foldl_sub, irange_zero h, List.map_cons, List.sum_cons, hd, div_eq_iff h0]
  constructor <;> intro e <;> linear_combination -e

variable {m : Mem T} {box : List (Int × Int)} {tab st f u : Arr}

/-- a sweep changes nothing exactly when the cells satisfy their equations -/
theorem swept_fixed {U' : List Int → T} {P : List Int → Prop} [DecidablePred P] (hn : 1 ≤ n) (hd : ∀ p, P p → shift p (O 0) = p)
    (h0 : ∀ p, P p → S (0 :: p) ≠ 0) {l : List (List Int)} (hP : ∀ p, p ∈ l ↔ P p) (hl : l.Pairwise Before) (h : Swept P n O S F U U') :
    U' = U ↔ ∀ p, P p → Eqn n O S F U p := by
  constructor
  · rintro rfl p hp
    rw [← solve_iff hn (hd p hp) (h0 p hp)]
    have := h.cell p hp
    simp only [ite_self] at this
    exact this.symm
  · intro he
    refine swept_unique hP hl h ⟨fun _ _ => rfl, fun p hp => ?_⟩
    simp only [ite_self]
    exact ((solve_iff hn (hd p hp) (h0 p hp)).2 (he p hp)).symm

theorem shift_diag {N : Nat} {b : List (Int × Int)} (hb : InBounds b p) (hN : b.length = N) (hO : Diag N O) : shift p (O 0) = p := by
  have hl := inBounds_length hb
  rw [hO, ← hN, ← hl]
  clear hb hN hl hO
  induction p with
  | nil => rfl
  | cons x p ih =>
    simp only [shift, List.length_cons, List.replicate_succ, List.zipWith_cons_cons, List.cons.injEq] at ih ⊢
    exact ⟨by omega, ih⟩

/-- `Only`, `Holds` and equality of memories for the cells of the box -/
theorem Problem.same_iff {m1 : Mem T} {U1 : List Int → T} {P : List Int → Prop} [DecidablePred P] (h : Problem m box n tab st f u O S F U)
    (hb : ∀ p, P p → InBounds box p) (hU : Holds m1 u U1) (ho : Only [u] m m1) (hs : Swept P n O S F U U1) : m1 = m ↔ U1 = U := by
  rw [Only.eq_iff h.holdsU hU ho]
  constructor
  · intro he
    funext p
    by_cases hp : P p
    · exact he p (h.inU p (hb p hp))
    · exact hs.other p hp
  · rintro rfl _ _; rfl

/-- two sweeps over complementary sets of cells -/
theorem both_fixed {m1 m2 : Mem T} {U1 U2 : List Int → T} {P Q : List Int → Prop} [DecidablePred P] [DecidablePred Q]
    (h : Problem m box n tab st f u O S F U) (hb : ∀ p, P p → InBounds box p) (hb2 : ∀ p, Q p → InBounds box p) (hdis : ∀ p, P p → Q p → False)
    (hcov : ∀ p, InBounds box p → P p ∨ Q p) (hd : ∀ p, InBounds box p → shift p (O 0) = p) (h0 : ∀ p, InBounds box p → S (0 :: p) ≠ 0)
    {l l2 : List (List Int)} (hP : ∀ p, p ∈ l ↔ P p) (hQ : ∀ p, p ∈ l2 ↔ Q p) (hl : l.Pairwise Before) (hl2 : l2.Pairwise Before)
    (g3 : Only [u] m m1) (g4 : Swept P n O S F U U1)
    (k2 : Holds m2 u U2) (k3 : Only [u] m1 m2) (k4 : Swept Q n O S F U1 U2) :
    m2 = m ↔ ∀ p, InBounds box p → Eqn n O S F U p := by
  have f1 := swept_fixed h.size (fun p hp => hd p (hb p hp)) (fun p hp => h0 p (hb p hp)) hP hl g4
  have f2 := swept_fixed h.size (fun p hp => hd p (hb2 p hp)) (fun p hp => h0 p (hb2 p hp)) hQ hl2 k4
  have key : m2 = m ↔ U2 = U := by
    rw [Only.eq_iff h.holdsU k2 (g3.trans k3)]
    constructor
    · intro he
      funext p
      by_cases hp : InBounds box p
      · exact he p (h.inU p hp)
      · rw [k4.other p fun hq => hp (hb2 p hq), g4.other p fun hq => hp (hb p hq)]
    · rintro rfl _ _; rfl
  rw [key]
  constructor
  · intro e
    have e1 : U1 = U := by
      funext p
      by_cases hp : P p
      · rw [← k4.other p fun hq => hdis p hp hq, e]
      · exact g4.other p hp
    have e2 : U2 = U1 := by rw [e, e1]
    intro p hp
    rcases hcov p hp with hp | hp
    · exact f1.1 e1 p hp
    · have := f2.1 e2 p hp
      rwa [e1] at this
  · intro he
    have e1 : U1 = U := f1.2 fun p hp => he p (hb p hp)
    have e2 : U2 = U1 := f2.2 fun p hp => by rw [e1]; exact he p (hb2 p hp)
    rw [e2, e1]

theorem scaled_iff (h0 : S (0 :: p) ≠ 0) : scaled n O S F U p = 0 ↔ Eqn n O S F U p := by
  unfold scaled Eqn Verif.F.sum
  rw [foldl_sub, div_eq_zero_iff, or_iff_left h0, sub_eq_zero]
  exact eq_comm

end

end Verif.F
