import Verif.Lemmas.Shapes
import Verif.Lemmas.Values
import Verif.Model.Kernels.DotOffset
import Verif.Spec.Kernels.ApplyStencil

/-
A dot product statement against the Fortran loop over a stencil's entries.
-/

namespace Verif
open Spec

variable {T : Type}

/-! ### the Fortran side -/

theorem F.irange_one {n : Nat} : F.irange 1 n = (List.range n).map fun k : Nat => 1 + (k : Int) := by
  unfold F.irange
  rw [show ((n : Int) - 1 + 1).toNat = n by omega]

section
variable [Add T] [Sub T] [Mul T] [Div T] [Neg T]

theorem F.assign_ok {a : F.Arr} {is : List Int} {e : F.Expr T} {m : Mem T} {v w : T} (he : e.eval m = .ok v) (hb : F.InBounds a.dims is)
    (hw : m.val (a.addrT is) = some w) : F.assign a is e m = .ok { m with val := fun q => if q = a.addrT is then some v else m.val q } := by
  unfold F.assign
  rw [he, M.ok_bind, F.Arr.addr, if_pos hb, M.ok_bind]
  unfold F.Arr.addrT at hw
  rw [Mem.store, hw]; rfl

theorem F.ref_ok {a : F.Arr} {is : List Int} {m : Mem T} {v : T} (hb : F.InBounds a.dims is) (hv : m.val (a.addrT is) = some v) :
    (F.Expr.ref a is : F.Expr T).eval m = .ok v := by
  simp only [F.Expr.eval]
  rw [F.Arr.addr, if_pos hb, M.ok_bind]
  unfold F.Arr.addrT at hv
  unfold Mem.load
  rw [hv]

theorem F.add_ok {e f : F.Expr T} {m : Mem T} {x y : T} (he : e.eval m = .ok x) (hf : f.eval m = .ok y) : (F.Expr.add e f).eval m = .ok (x + y) := by
  rw [F.Expr.eval, he, M.ok_bind, hf]; rfl

theorem F.mul_ok {e f : F.Expr T} {m : Mem T} {x y : T} (he : e.eval m = .ok x) (hf : f.eval m = .ok y) : (F.Expr.mul e f).eval m = .ok (x * y) := by
  rw [F.Expr.eval, he, M.ok_bind, hf]; rfl

/-- the body of the stencil routines at one cell -/
theorem F.at_point {r f st u : F.Arr} {is : List Int} {N : Nat} {js : Nat → List Int} {a b fv : T} {cs us : Nat → T}
    {m : Mem T} {body : Int → F.Cmd T}
    (hbody : ∀ k : Nat, k < N → ∀ m2 : Mem T, m2.ints = m.ints →
      body (1 + k) m2 = F.assign r is (.ref r is + .const a * .ref st ((1 + (k : Int)) :: is) * .ref u (js k)) m2)
    (hr : F.InBounds r.dims is) (hra : ∃ w, m.val (r.addrT is) = some w) (hf : F.InBounds f.dims is) (hfv : m.val (f.addrT is) = some fv)
    (hst : ∀ k : Nat, k < N → F.InBounds st.dims ((1 + (k : Int)) :: is) ∧ m.val (st.addrT ((1 + (k : Int)) :: is)) = some (cs k) ∧
      st.addrT ((1 + (k : Int)) :: is) ≠ r.addrT is)
    (hu : ∀ k : Nat, k < N → F.InBounds u.dims (js k) ∧ m.val (u.addrT (js k)) = some (us k) ∧ u.addrT (js k) ≠ r.addrT is) :
    F.block [F.assign r is (.const b * .ref f is), F.doLoop 1 N body] m =
      .ok { m with val := fun q => if q = r.addrT is then some ((List.range N).foldl (fun acc k => acc + a * cs k * us k) (b * fv)) else m.val q } := by
  obtain ⟨w, hw⟩ := hra
  have h1 : F.assign r is (.const b * .ref f is) m = .ok { m with val := fun q => if q = r.addrT is then some (b * fv) else m.val q } :=
    F.assign_ok (by
      rw [F.mul_def]
      exact F.mul_ok rfl (F.ref_ok hf hfv)) hr hw
  have key : ∀ n : Nat, n ≤ N → (List.range n).foldlM (fun m (k : Nat) => body (1 + k) m) { m with val := fun q => if q = r.addrT is then some (b * fv) else m.val q }
      = .ok { m with val := fun q => if q = r.addrT is then some ((List.range n).foldl (fun acc k => acc + a * cs k * us k) (b * fv)) else m.val q } := by
    intro n
    induction n with
    | zero => intro _; rfl
    | succ n ih =>
      intro hn
      rw [List.range_succ, F.foldlM_append', ih (by omega), M.ok_bind, List.foldlM_cons]
      obtain ⟨s1, s2, s3⟩ := hst n (by omega)
      obtain ⟨u1, u2, u3⟩ := hu n (by omega)
      rw [hbody n (by omega) { m with val := fun q => if q = r.addrT is then some ((List.range n).foldl (fun acc k => acc + a * cs k * us k) (b * fv)) else m.val q } rfl]
      have hev : (F.Expr.ref r is + .const a * .ref st ((1 + (n : Int)) :: is) * .ref u (js n) : F.Expr T).eval
          { m with val := fun q => if q = r.addrT is then some ((List.range n).foldl (fun acc k => acc + a * cs k * us k) (b * fv)) else m.val q } =
          .ok ((List.range n).foldl (fun acc k => acc + a * cs k * us k) (b * fv) + a * cs n * us n) := by
        rw [F.add_def, F.mul_def, F.mul_def]
        have e1 := F.ref_ok (m := { m with val := fun q => if q = r.addrT is then some ((List.range n).foldl (fun acc k => acc + a * cs k * us k) (b * fv)) else m.val q })
          hr (by dsimp only; exact if_pos rfl)
        have e2 := F.ref_ok (m := { m with val := fun q => if q = r.addrT is then some ((List.range n).foldl (fun acc k => acc + a * cs k * us k) (b * fv)) else m.val q })
          s1 (by dsimp only; rw [if_neg s3]; exact s2)
        have e3 := F.ref_ok (m := { m with val := fun q => if q = r.addrT is then some ((List.range n).foldl (fun acc k => acc + a * cs k * us k) (b * fv)) else m.val q })
          u1 (by dsimp only; rw [if_neg u3]; exact u2)
        exact F.add_ok e1 (F.mul_ok (F.mul_ok rfl e2) e3)
      rw [F.assign_ok hev hr (by dsimp only; exact if_pos rfl), M.ok_bind, List.foldlM_nil]
      show Except.ok _ = _
      congr 2
      funext q
      dsimp only
      rw [List.foldl_append]
      split <;> rfl
  simp only [F.block]
  rw [h1, M.ok_bind]
  have h2 : ∀ m2 : Mem T, F.doLoop 1 N body m2 = (List.range N).foldlM (fun m (k : Nat) => body (1 + k) m) m2 := fun m2 => by
    unfold F.doLoop
    rw [F.irange_one, List.foldlM_map]
  rw [h2, key N (Nat.le_refl _)]; rfl

end

/-! ### the statement -/

section
variable [Zero T] [Add T] [Mul T]

/-- the sum a dot product forms at a point -/
def dotVal (m : Mem T) (st u : Span) (o : Ptr) (D : List DB) (w : Dim) (b : Bounds) (p : Pt) : T :=
  (List.range (b.last - b.first).toNat).foldl (fun r (j : Nat) =>
    r + ld m (cell st (setPt p w (b.first + j))) * ld m (cell u (offPt m.ints o (D.map (·.1)) j p))) 0

theorem dot_val {m : Mem T} {st u : Span} {o : Ptr} {D : List DB} {w : Dim} {b : Bounds} {p : Pt} (h : DotOK m.ints st u o D)
    (hw : st.geo.getLast? = some (w, b)) (hs : Allocated m st) (hu : Allocated m u) (hp : InDom D p) :
    den m (D.map (·.1)) (Cuda.dotE (T := T) st u o) p = .ok (.num (dotVal m st u o D w b p)) := by
  unfold Cuda.dotE
  simp only [den, hw]
  have key : ∀ n : Nat, n ≤ (b.last - b.first).toNat → dotSum (fun res x y : T => res + x * y) (fun i : Nat => m.load (cell st (setPt p w (b.first + i))))
      (fun i => m.load (cell u (offPt m.ints o (D.map (·.1)) i p))) n 0 =
      .ok ((List.range n).foldl (fun r (j : Nat) => r + ld m (cell st (setPt p w (b.first + j))) *
        ld m (cell u (offPt m.ints o (D.map (·.1)) j p))) 0) := by
    intro n
    induction n with
    | zero => intro _; rfl
    | succ n ih =>
      intro hle
      obtain ⟨e1, e2⟩ := dot_elements h hp hw (i := n) (by omega)
      simp only [dotSum]
      rw [ih (by omega), M.ok_bind]
      simp only [Mem.load, ld_some (hs _ e1), ld_some (hu _ e2), M.ok_bind]
      rw [List.range_succ, List.foldl_append]
      rfl
  rw [key _ (Nat.le_refl _), M.ok_bind]
  rfl

theorem dot_nest {lhs st u : Span} {o : Ptr} {D : List DB} {β : Backend} {m : Mem T} {w : Dim} {b : Bounds}
    (hβ : ValidBackend β) (hD : UnitDom D) (hl : ArrOK m lhs) (hwi : Within lhs.geo D) (hd : DotOK m.ints st u o D)
    (hw : st.geo.getLast? = some (w, b)) (hs : Allocated m st) (hu : Allocated m u) (as : Apart lhs st) (au : Apart lhs u) :
    ∃ m', (lhs.set (Cuda.dotE (T := T) st u o)).exec D β m = .ok m' ∧ Left D lhs (dotVal m st u o D w b) m m' ∧
      ∀ (r : List (Dim × Int × Int)) (p0 : Pt) (stmt : Pt → F.Cmd T), (r.map (·.1)).Nodup → (∀ d, d ∈ D.map (·.1) ↔ d ∈ r.map (·.1)) →
        (∀ p, InDom D p ↔ ∀ x ∈ r, x.2.1 ≤ p x.1 ∧ p x.1 ≤ x.2.2) →
        (∀ p, InDom D p → ∀ m1 : Mem T, m1.ints = m.ints → (∀ q, ¬ (Writes D lhs q ∧ q ≠ cell lhs p) → m1.val q = m.val q) →
          stmt p m1 = .ok { m1 with val := fun q => if q = cell lhs p then some (dotVal m st u o D w b p) else m1.val q }) →
        F.nest stmt r p0 m = .ok m' := by
  have hst : StmtOK m D ⟨lhs, .expr (Cuda.dotE (T := T) st u o)⟩ := {
    lhs := ⟨hl.geo, hwi.req hl.geo hD, hwi.len⟩
    rhs := hd
    typed := HasShape.dot
    lalloc := hl.alloc
    ralloc := fun s hm => by
      have : s = st ∨ s = u := by simpa [rhsArrays, Cuda.dotE, arrays] using hm
      rcases this with rfl | rfl
      · exact hs
      · exact hu
    noAlias := fun p q hp hq hm => by
      obtain ⟨s, h1, z, h2, h3⟩ := reads_elements (tab := m.ints) (e := Cuda.dotE (T := T) st u o) hq hd _ hm
      have : s = st ∨ s = u := by simpa [Cuda.dotE, arrays] using h1
      rcases this with rfl | rfl
      · exact absurd h3 (as _ _ (hwi.elem hl.geo hD hp) h2)
      · exact absurd h3 (au _ _ (hwi.elem hl.geo hD hp) h2) }
  have hval : ∀ p, InDom D p → rhsT m (D.map (·.1)) (.expr (Cuda.dotE (T := T) st u o)) p = dotVal m st u o D w b p := fun p hp =>
    rhsT_eq (by simp only [rhsDen]; rw [dot_val hd hw hs hu hp])
  obtain ⟨m', h1, h2⟩ := C15_assign hβ (hwi.int hl.geo hD) hst
  refine ⟨m', h1, ⟨fun p hp => ?_, fun q hq => h2.frame q fun p hp e => hq ⟨p, hp, e⟩, h2.ints⟩, fun r p0 stmt hn hr hb hbody => ?_⟩
  · obtain ⟨v, h3, h4⟩ := h2.at_ p hp
    rw [h4, ← hval p hp, rhsT_eq h3]
  · obtain ⟨m2, g1, g2, -⟩ := loop_run (p0 := p0) (stmt := stmt) hβ (hwi.int hl.geo hD) hst hn hr hb fun p hp m1 hi hag => by
      rw [hval p hp]; exact hbody p hp m1 hi hag
    rw [h1] at g1
    injection g1 with g1
    rw [g1]; exact g2

end

/-! ### the arrays -/

def sCoef1 (t : Ptr) (w1 i0 i1 g : Int) : Span := ⟨t, [(Dim.I, ⟨i0 - g, i1 + 1 + g, 1⟩), (Dim.W, ⟨0, w1, 1⟩)]⟩
def sCoef2 (t : Ptr) (w1 i0 j0 i1 j1 g : Int) : Span := ⟨t, [(Dim.J, ⟨j0 - g, j1 + 1 + g, 1⟩), (Dim.I, ⟨i0 - g, i1 + 1 + g, 1⟩), (Dim.W, ⟨0, w1, 1⟩)]⟩
def sCoef3 (t : Ptr) (w1 i0 j0 k0 i1 j1 k1 g : Int) : Span :=
  ⟨t, [(Dim.K, ⟨k0 - g, k1 + 1 + g, 1⟩), (Dim.J, ⟨j0 - g, j1 + 1 + g, 1⟩), (Dim.I, ⟨i0 - g, i1 + 1 + g, 1⟩), (Dim.W, ⟨0, w1, 1⟩)]⟩

macro "coef_eq" : tactic => `(tactic| (
  simp only [farr, sCoef1, sCoef2, sCoef3, F.coef1d, F.coef2d, F.coef3d, List.map_cons, List.map_nil, List.reverse_cons, List.reverse_nil, List.nil_append,
    List.cons_append, F.Arr.mk.injEq, List.cons.injEq, Prod.mk.injEq, and_true, true_and]
  omega))

theorem farr_coef1 {t w1 i0 i1 g} : farr (sCoef1 t w1 i0 i1 g) = F.coef1d t w1 i0 i1 g := by coef_eq
theorem farr_coef2 {t w1 i0 j0 i1 j1 g} : farr (sCoef2 t w1 i0 j0 i1 j1 g) = F.coef2d t w1 i0 j0 i1 j1 g := by coef_eq
theorem farr_coef3 {t w1 i0 j0 k0 i1 j1 k1 g} : farr (sCoef3 t w1 i0 j0 k0 i1 j1 k1 g) = F.coef3d t w1 i0 j0 k0 i1 j1 k1 g := by coef_eq

theorem cell_coef1 {t w1 i0 i1 g p} : cell (sCoef1 t w1 i0 i1 g) p = (F.coef1d t w1 i0 i1 g).addrT [p .W, p .I] := cell_farr farr_coef1
theorem cell_coef2 {t w1 i0 j0 i1 j1 g p} : cell (sCoef2 t w1 i0 j0 i1 j1 g) p = (F.coef2d t w1 i0 j0 i1 j1 g).addrT [p .W, p .I, p .J] := cell_farr farr_coef2
theorem cell_coef3 {t w1 i0 j0 k0 i1 j1 k1 g p} : cell (sCoef3 t w1 i0 j0 k0 i1 j1 k1 g) p = (F.coef3d t w1 i0 j0 k0 i1 j1 k1 g).addrT [p .W, p .I, p .J, p .K] :=
  cell_farr farr_coef3

/-- entries numbered from 1 and from 0 -/
theorem F.addrT_one {t : Ptr} {n s : Int} {ds : List (Int × Int)} {is : List Int} :
    (⟨t, (1, n) :: ds⟩ : F.Arr).addrT (s :: is) = (⟨t, (0, n - 1) :: ds⟩ : F.Arr).addrT ((s - 1) :: is) := by
  unfold F.Arr.addrT
  congr 1
  simp only [F.colMajor]
  ring

theorem F.inBounds_one {n s : Int} {ds : List (Int × Int)} {is : List Int} :
    F.InBounds ((1, n) :: ds) (s :: is) ↔ F.InBounds ((0, n - 1) :: ds) ((s - 1) :: is) := by
  simp only [F.InBounds]
  constructor
  · rintro ⟨h, h'⟩; exact ⟨by omega, h'⟩
  · rintro ⟨h, h'⟩; exact ⟨by omega, h'⟩

theorem F.arrOK_one {m : Mem T} {t : Ptr} {n : Int} {ds : List (Int × Int)} (hn : 0 ≤ n) (h : F.ArrOK m ⟨t, (1, n) :: ds⟩) : F.ArrOK m ⟨t, (0, n - 1) :: ds⟩ where
  alloc is hi := by
    cases is with
    | nil => exact hi.elim
    | cons s is =>
      have e : s = (s + 1) - 1 := by omega
      have hb : F.InBounds ((1, n) :: ds) ((s + 1) :: is) := F.inBounds_one.2 (by rw [← e]; exact hi)
      have a := F.addrT_one (t := t) (n := n) (s := s + 1) (ds := ds) (is := is)
      rw [← e] at a
      unfold F.Arr.addrT at a
      rw [← a]
      exact h.alloc _ hb
  fits := by
    have := h.fits
    simp only [List.map_cons, List.prod_cons] at this ⊢
    rw [show n - 1 - 0 + 1 = n - 1 + 1 by omega]
    exact this
  int d hd := by
    rcases List.mem_cons.1 hd with rfl | hd
    · have := h.int (1, n) List.mem_cons_self
      simp only [InInt] at this ⊢
      refine ⟨⟨?_, ?_⟩, ?_, ?_⟩ <;> omega
    · exact h.int d (List.mem_cons_of_mem _ hd)

theorem F.apart_one {a : F.Arr} {t : Ptr} {n : Int} {ds : List (Int × Int)} (h : F.Apart a ⟨t, (1, n) :: ds⟩) : F.Apart a ⟨t, (0, n - 1) :: ds⟩ := by
  intro is js hi hj
  cases js with
  | nil => exact hj.elim
  | cons s js =>
    have e : s = (s + 1) - 1 := by omega
    have a' := F.addrT_one (t := t) (n := n) (s := s + 1) (ds := ds) (is := js)
    rw [← e] at a'
    unfold F.Arr.addrT at a'
    rw [← a']
    exact h _ _ hi (F.inBounds_one.2 (by rw [← e]; exact hj))

theorem makeSpanOffset_win {t : Ptr} {g : Int} {bnds : List DB} {b : Bounds} (hW : ∀ x ∈ bnds, x.1 ≠ Dim.W)
    (h : ∀ x ∈ bnds, InInt (x.2.first - g) ∧ InInt (x.2.last + g)) :
    makeSpanOffset t g (bnds ++ [(Dim.W, b)]) = .ok ⟨t, (bnds.map fun x => (x.1, ⟨x.2.first - g, x.2.last + g, 1⟩)) ++ [(Dim.W, ⟨b.first, b.last, 1⟩)]⟩ := by
  unfold makeSpanOffset
  rw [mapM_ok (g := fun x : DB => if x.1 = Dim.W then ((x.1, ⟨x.2.first, x.2.last, 1⟩) : DB) else (x.1, ⟨x.2.first - g, x.2.last + g, 1⟩)) fun x hx => ?_]
  · rw [M.ok_bind, List.map_append]
    congr 3
    exact List.map_congr_left fun x hx => if_neg (hW x hx)
  · rcases List.mem_append.1 hx with hx | hx
    · have := h x hx
      unfold expandBounds Bounds.expand Bounds.subEq Bounds.addEq Bounds.unitStride
      rw [if_neg (hW x hx), if_neg (hW x hx)]
      dsimp only
      rw [isub_ok this.1]
      simp only [M.ok_bind]
      rw [iadd_ok this.2]
      rfl
    · rw [List.mem_singleton] at hx
      subst hx
      unfold expandBounds Bounds.unitStride
      rfl

/-- what a dot product needs, from the arrays and the table -/
theorem dotOK_of {tab : Ptr → Option Int} {st u : Span} {o : Ptr} {D G : List DB} {w : Dim} {b : Bounds} (hD : UnitDom D) (hs : GeoOK st.geo)
    (hg : st.geo = G ++ [(w, b)]) (hw : Within G D) (hu : GeoOK u.geo) (hwu : Within u.geo D)
    (ht : ∀ i : Nat, (i : Int) < b.last - b.first → (∀ j : Nat, j < D.length → ∃ z, tab (o.add (i * D.length + j)) = some z) ∧
      (∀ p, InDom D p → Inside u.geo (offPt tab o (D.map (·.1)) i p)) ∧ ((i : Int) + 1) * D.length ≤ 2147483647) : DotOK tab st u o D where
  ugeo := hs
  ureq := {
    ne := hD.ne
    nodup := hD.nodup
    nonempty := fun x hx => (hD.bnds x hx).2
    stride := fun x hx => by rw [(hD.bnds x hx).1]
    inside := fun x hx g hgm => by
      rw [hg] at hgm
      rcases List.mem_append.1 hgm with hgm | hgm
      · exact hw.inside x hx _ hgm rfl
      · have hn := hs.nodup
        rw [hg, List.map_append, List.nodup_append] at hn
        have hm : x.1 ∈ G.map (·.1) := hw.perm.mem_iff.2 (List.mem_map_of_mem hx)
        exact absurd rfl (hn.2.2 x.1 hm x.1 (List.mem_map.2 ⟨_, hgm, rfl⟩))
    fit := fun x hx => by
      have hm : x.1 ∈ G.map (·.1) := hw.perm.mem_iff.2 (List.mem_map_of_mem hx)
      obtain ⟨g, hgm, hge⟩ := List.mem_map.1 hm
      have := hw.inside x hx g hgm hge
      have hl : g.2.last - g.2.first ≤ (lengths st.geo).prod :=
        length_le_prod hs.pos _ (List.mem_map.2 ⟨g, by rw [hg]; exact List.mem_append_left _ hgm, rfl⟩)
      have hf := hs.fits
      rw [(hD.bnds x hx).1]
      omega
    fit' := fun x hx => by
      rw [(hD.bnds x hx).1, mul_one]
      exact (drop_prod_le _ hs.pos).trans hs.fits
    lead := by
      rw [hg, hw.len, List.take_left]
      exact hw.perm }
  ulen := by rw [hg, hw.len]; simp
  vgeo := hu
  vreq := hwu.req hu hD
  vlen := hwu.len
  unit x hx := (hD.bnds x hx).1
  table w' b' hwb i hi := by
    rw [hg, List.getLast?_concat] at hwb
    simp only [Option.some.injEq, Prod.mk.injEq] at hwb
    obtain ⟨rfl, rfl⟩ := hwb
    obtain ⟨h1, h2, h3⟩ := ht i hi
    exact ⟨h1, fun k h0 hk => h2 _ (pt_inDom (hwu.req hu hD).dom h0 hk), h3⟩

theorem F.IntEl.get {m : Mem T} {o : Ptr} {N n c s z : Int} (h : F.IntEl m (F.offsets o N n) [c, s] z) : m.ints (o.add ((s - 1) * N + (c - 1))) = some z := by
  have := h.2
  simp only [F.offsets, F.colMajor, mul_zero, add_zero] at this
  rw [show N - 1 + 1 = N by omega] at this
  rw [show (s - 1) * N + (c - 1) = c - 1 + N * (s - 1) by ring]
  exact this

theorem F.intRef_ok {m m1 : Mem T} {a : F.Arr} {is : List Int} {z : Int} (h : F.IntEl m a is z) (hm : m1.ints = m.ints) : F.intRef a is m1 = .ok z := by
  unfold F.intRef F.Arr.addr
  rw [if_pos h.1, M.ok_bind]
  unfold Mem.loadInt
  rw [hm, h.2]

/-- displacement along the dimension of column `c`, row `k` -/
def tb (m : Mem T) (o : Ptr) (N k c : Nat) : Int := (m.ints (o.add ((k : Int) * N + c))).getD 0

theorem F.Reach.tb {m : Mem T} {o : Ptr} {N : Nat} {n g : Int} (h : F.Reach m o N n g) {k c : Nat} (hk : (k : Int) < n) (hc : c < N) :
    F.IntEl m (F.offsets o N n) [(c : Int) + 1, 1 + (k : Int)] (tb m o N k c) ∧ -g ≤ Verif.tb m o N k c ∧ Verif.tb m o N k c ≤ g := by
  obtain ⟨z, h1, h2⟩ := h (1 + k) (c + 1) (by omega) (by omega) (by omega) (by omega)
  have := h1.get
  rw [show (1 + (k : Int) - 1) * N + ((c : Int) + 1 - 1) = k * N + c by ring] at this
  have e : Verif.tb m o N k c = z := by unfold Verif.tb; rw [this]; rfl
  rw [e]
  exact ⟨h1, h2⟩

theorem offPt_tb {m : Mem T} {o : Ptr} {dims : List Dim} {i : Nat} {p : Pt} {d : Dim} (N c : Nat) (hd : d ∈ dims) (hN : dims.length = N)
    (hc : dims.reverse.idxOf d = c) : offPt m.ints o dims i p d = p d + tb m o N i c := by
  unfold offPt tb
  rw [if_pos hd, hN, hc]

theorem tb_some {m : Mem T} {o : Ptr} {N : Nat} {n g : Int} (h : F.Reach m o N n g) {k c : Nat} (hk : (k : Int) < n) (hc : c < N) :
    ∃ z, m.ints (o.add ((k : Int) * N + c)) = some z := by
  have := (h.tb hk hc).1.get
  rw [show (1 + (k : Int) - 1) * N + ((c : Int) + 1 - 1) = k * N + c by ring] at this
  exact ⟨_, this⟩

theorem foldl_range_congr {α : Type} {f g : α → Nat → α} {n : Nat} {a b : α} (hab : a = b) (h : ∀ x k, k < n → f x k = g x k) :
    (List.range n).foldl f a = (List.range n).foldl g b := by
  subst hab
  induction n with
  | zero => rfl
  | succ n ih =>
    rw [List.range_succ, List.foldl_append, List.foldl_append, ih fun x k hk => h x k (by omega)]
    exact h _ _ (by omega)

/-! ### loops that fail -/

theorem F.foldlM_mem {P : Type} {f : Mem T → P → M (Mem T)} {x : P} : ∀ {l : List P} {m m' : Mem T}, l.foldlM f m = .ok m' → x ∈ l →
    ∃ m1 m2, f m1 x = .ok m2
  | y :: l, m, m', h, hx => by
    rw [List.foldlM_cons] at h
    obtain ⟨m1, h1, h2⟩ := bind_inv h
    rcases List.mem_cons.1 hx with rfl | hx
    · exact ⟨m, m1, h1⟩
    · exact F.foldlM_mem h2 hx

theorem F.doLoop_mem {lo hi i : Int} {body : Int → F.Cmd T} {m m' : Mem T} (h : F.doLoop lo hi body m = .ok m') (h1 : lo ≤ i) (h2 : i ≤ hi) :
    ∃ m1 m2, body i m1 = .ok m2 := F.foldlM_mem h (F.mem_irange.2 ⟨h1, h2⟩)

section
variable [Add T] [Sub T] [Mul T] [Div T] [Neg T]

theorem F.ref_inv {a : F.Arr} {is : List Int} {m : Mem T} {v : T} (h : (F.Expr.ref a is : F.Expr T).eval m = .ok v) : F.InBounds a.dims is := by
  rw [F.Expr.eval] at h
  obtain ⟨q, h1, -⟩ := bind_inv h
  unfold F.Arr.addr at h1
  split at h1
  · assumption
  · cases h1

theorem F.add_inv {e f : F.Expr T} {m : Mem T} {v : T} (h : (F.Expr.add e f).eval m = .ok v) : (∃ x, e.eval m = .ok x) ∧ ∃ y, f.eval m = .ok y := by
  rw [F.Expr.eval] at h
  obtain ⟨x, h1, h⟩ := bind_inv h
  obtain ⟨y, h2, -⟩ := bind_inv h
  exact ⟨⟨x, h1⟩, y, h2⟩

theorem F.mul_inv {e f : F.Expr T} {m : Mem T} {v : T} (h : (F.Expr.mul e f).eval m = .ok v) : (∃ x, e.eval m = .ok x) ∧ ∃ y, f.eval m = .ok y := by
  rw [F.Expr.eval] at h
  obtain ⟨x, h1, h⟩ := bind_inv h
  obtain ⟨y, h2, -⟩ := bind_inv h
  exact ⟨⟨x, h1⟩, y, h2⟩

end

/-! ### a memory with a table for the examples -/

/-- the arrays of `exRat`; in block 20, a table of 100 displacements -1, 0, 1 -/
def exDot : Mem Rat := ⟨exRat.val, fun q => if q.blk = 20 ∧ 0 ≤ q.off ∧ q.off < 100 then some (q.off % 3 - 1) else none⟩

theorem exDot_args {ins outs : List F.Arr} (h : F.Args exRat ins outs) : F.Args exDot ins outs :=
  ⟨fun a ha => ⟨(h.ok a ha).alloc, (h.ok a ha).fits, (h.ok a ha).int⟩, h.apart⟩

theorem exDot_reach {N n g : Int} (hn : N * n ≤ 100) (hg : 1 ≤ g) : F.Reach exDot ⟨20, 0⟩ N n g := by
  intro s c h1 h2 h3 h4
  have hb : F.InBounds (F.offsets ⟨20, 0⟩ N n).dims [c, s] := ⟨⟨h3, h4⟩, ⟨h1, h2⟩, trivial⟩
  have h := colMajor_range hb
  simp only [F.offsets, List.map_cons, List.map_nil, List.prod_cons, List.prod_nil, mul_one] at h
  rw [show (N - 1 + 1) * (n - 1 + 1) = N * n by ring] at h
  refine ⟨_, ⟨hb, if_pos ?_⟩, ?_, ?_⟩
  · refine ⟨rfl, ?_, ?_⟩ <;> simp only [Ptr.add, F.offsets] <;> omega
  · simp only [Ptr.add, F.offsets]; omega
  · simp only [Ptr.add, F.offsets]; omega

end Verif
