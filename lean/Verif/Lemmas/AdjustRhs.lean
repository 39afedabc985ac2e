import Verif.Model.Kernels.AdjustRhs
import Verif.Spec.AdjustRhs
import Verif.Lemmas.BlockSmooth

/-
Loops over a state that changes the contents of one array.
-/

namespace Verif.F

set_option linter.unusedVariables false
set_option linter.unusedSectionVars false

variable {T : Type}

/-! ### updates -/

/-- `c` changes the contents of the array at the indices `P`, each new value a function of the old one -/
def Updates {σ : Type} (Inv : σ → (List Int → T) → Prop) (G : List Int → T → T) (P : List Int → Prop) (c : σ → M σ) : Prop :=
  ∀ s W, Inv s W → ∃ s' W', c s = .ok s' ∧ Inv s' W' ∧ (∀ p, P p → W' p = G p (W p)) ∧ ∀ p, ¬ P p → W' p = W p

theorem Updates.mono {σ : Type} {Inv : σ → (List Int → T) → Prop} {G : List Int → T → T} {P Q : List Int → Prop} {c : σ → M σ}
    (h : Updates Inv G P c) (e : ∀ p, P p ↔ Q p) : Updates Inv G Q c := fun s W hs => by
  obtain ⟨s', W', a, b, c, d⟩ := h s W hs
  exact ⟨s', W', a, b, fun p hp => c p ((e p).2 hp), fun p hp => d p fun h => hp ((e p).1 h)⟩

theorem Updates.list {σ : Type} {Inv : σ → (List Int → T) → Prop} {G : List Int → T → T} {P : Int → List Int → Prop} {body : Int → σ → M σ} :
    ∀ {l : List Int}, l.Nodup → (∀ i ∈ l, ∀ j ∈ l, ∀ p, P i p → P j p → i = j) → (∀ i ∈ l, Updates Inv G (P i) (body i)) →
    Updates Inv G (fun p => ∃ i ∈ l, P i p) (fun s => l.foldlM (fun s i => body i s) s)
  | [], _, _, _ => fun s W hs => ⟨s, W, rfl, hs, fun p hp => by simp at hp, fun _ _ => rfl⟩
  | i :: l, hl, hd, h => fun s W hs => by
    obtain ⟨hi, hl⟩ := List.nodup_cons.1 hl
    obtain ⟨s1, W1, a1, b1, c1, d1⟩ := h i List.mem_cons_self s W hs
    obtain ⟨s2, W2, a2, b2, c2, d2⟩ := Updates.list hl (fun j hj k hk => hd j (List.mem_cons_of_mem _ hj) k (List.mem_cons_of_mem _ hk))
      (fun j hj => h j (List.mem_cons_of_mem _ hj)) s1 W1 b1
    refine ⟨s2, W2, ?_, b2, fun p hp => ?_, fun p hp => ?_⟩
    · show List.foldlM _ _ _ = _
      rw [List.foldlM_cons, a1, M.ok_bind]
      exact a2
    · obtain ⟨j, hj, hP⟩ := hp
      rcases List.mem_cons.1 hj with rfl | hj
      · rw [d2 p, c1 p hP]
        rintro ⟨k, hk, hk'⟩
        exact hi (hd j List.mem_cons_self k (List.mem_cons_of_mem _ hk) p hP hk' ▸ hk)
      · rw [c2 p ⟨j, hj, hP⟩, d1 p]
        intro hP'
        exact hi (hd i List.mem_cons_self j (List.mem_cons_of_mem _ hj) p hP' hP ▸ hj)
    · rw [d2 p fun ⟨j, hj, hP⟩ => hp ⟨j, List.mem_cons_of_mem _ hj, hP⟩, d1 p fun hP => hp ⟨i, List.mem_cons_self, hP⟩]

theorem irange_nodup {lo hi : Int} : (irange lo hi).Nodup := irange_lt.imp fun {a b} (h : a < b) (e : a = b) => by omega

theorem Updates.doSt {σ : Type} {Inv : σ → (List Int → T) → Prop} {G : List Int → T → T} {P : Int → List Int → Prop} {body : Int → σ → M σ} {lo hi : Int}
    (hd : ∀ i j p, P i p → P j p → i = j) (h : ∀ i, lo ≤ i → i ≤ hi → Updates Inv G (P i) (body i)) :
    Updates Inv G (fun p => ∃ i, (lo ≤ i ∧ i ≤ hi) ∧ P i p) (F.doSt lo hi body) :=
  (Updates.list irange_nodup (fun i _ j _ => hd i j) fun i hi => h i (mem_irange.1 hi).1 (mem_irange.1 hi).2).mono fun p => by
    simp only [mem_irange]

theorem Updates.doLoop {Inv : Mem T → (List Int → T) → Prop} {G : List Int → T → T} {P : Int → List Int → Prop} {body : Int → Cmd T} {lo hi : Int}
    (hd : ∀ i j p, P i p → P j p → i = j) (h : ∀ i, lo ≤ i → i ≤ hi → Updates Inv G (P i) (body i)) :
    Updates Inv G (fun p => ∃ i, (lo ≤ i ∧ i ≤ hi) ∧ P i p) (F.doLoop lo hi body) := Updates.doSt hd h

/-! ### local arrays -/

open Classical in
/-- the local array with the values `h` at the indices `P` -/
noncomputable def fillP (P : List Int → Prop) (h ul : List Int → T) : List Int → T := fun is => if P is then h is else ul is

theorem doSt_fill {body : Int → (List Int → T) → M (List Int → T)} {P : Int → List Int → Prop} {h : List Int → T} {lo hi : Int}
    (hb : ∀ i, lo ≤ i → i ≤ hi → ∀ ul, body i ul = .ok (fillP (P i) h ul)) (ul : List Int → T) :
    doSt lo hi body ul = .ok (fillP (fun is => ∃ i, (lo ≤ i ∧ i ≤ hi) ∧ P i is) h ul) := by
  have key : ∀ l : List Int, (∀ i ∈ l, lo ≤ i ∧ i ≤ hi) → ∀ ul, l.foldlM (fun s i => body i s) ul = .ok (fillP (fun is => ∃ i ∈ l, P i is) h ul) := by
    intro l
    induction l with
    | nil => exact fun _ ul => congrArg Except.ok (funext fun is => by simp [fillP])
    | cons i l ih =>
      intro hl ul
      rw [List.foldlM_cons, hb i (hl i List.mem_cons_self).1 (hl i List.mem_cons_self).2, M.ok_bind, ih fun j hj => hl j (List.mem_cons_of_mem _ hj)]
      congr 1
      funext is
      unfold fillP
      by_cases h1 : ∃ j ∈ l, P j is
      · rw [if_pos h1, if_pos]
        obtain ⟨j, hj, hP⟩ := h1
        exact ⟨j, List.mem_cons_of_mem _ hj, hP⟩
      · rw [if_neg h1]
        by_cases h2 : P i is
        · rw [if_pos h2, if_pos ⟨i, List.mem_cons_self, h2⟩]
        · rw [if_neg h2, if_neg]
          rintro ⟨j, hj, hP⟩
          rcases List.mem_cons.1 hj with rfl | hj
          · exact h2 hP
          · exact h1 ⟨j, hj, hP⟩
  have := key (irange lo hi) (fun i hi => mem_irange.1 hi) ul
  simp only [mem_irange] at this
  exact this

theorem locSet_fill {b : List (Int × Int)} {ul h : List Int → T} {p : List Int} {v : T} (hp : InBounds b p) (hv : v = h p) :
    locSet b ul p v = .ok (fillP (fun is => is = p) h ul) := by
  rw [locSet, if_pos hp]
  congr 1
  funext is
  unfold fillP
  by_cases e : is = p
  · rw [if_pos e, if_pos e, hv, e]
  · rw [if_neg e, if_neg e]

theorem fillP_pos {P : List Int → Prop} {h ul : List Int → T} {is : List Int} (hp : P is) : fillP P h ul is = h is := if_pos hp
theorem fillP_neg {P : List Int → Prop} {h ul : List Int → T} {is : List Int} (hp : ¬ P is) : fillP P h ul is = ul is := if_neg hp

/-! ### the loop over the table at a cell -/

theorem accum {m : Mem T} {r : Arr} {p : List Int} {X : Int → Cmd T} {g : T → Int → T} (hp : InBounds r.dims p) :
    ∀ {l : List Int} {m1 : Mem T} {V : List Int → T}, Holds m1 r V → Only [r] m m1 →
    (∀ s ∈ l, ∀ m2 V2, Holds m2 r V2 → Only [r] m m2 → X s m2 = .ok (put m2 r p (g (V2 p) s))) →
    ∃ m' V', l.foldlM (fun m s => X s m) m1 = .ok m' ∧ Holds m' r V' ∧ Only [r] m m' ∧ V' p = l.foldl g (V p) ∧ ∀ q, q ≠ p → V' q = V q
  | [], m1, V, hV, ho, _ => ⟨m1, V, rfl, hV, ho, rfl, fun _ _ => rfl⟩
  | s :: l, m1, V, hV, ho, hX => by
    obtain ⟨m', V', a, b, c, d, e⟩ := accum hp (l := l) (holds_put (v := g (V p) s) hp hV) (ho.trans (only_put hp))
      fun s' hs => hX s' (List.mem_cons_of_mem _ hs)
    refine ⟨m', V', ?_, b, c, ?_, fun q hq => ?_⟩
    · rw [List.foldlM_cons, hX s List.mem_cons_self m1 V hV ho, M.ok_bind]
      exact a
    · rw [d, upd, if_pos rfl]
      rfl
    · rw [e q hq, upd, if_neg hq]

theorem IntEl.ref {m m2 : Mem T} {a : Arr} {is : List Int} {z : Int} (h : IntEl m a is z) (hm : m2.ints = m.ints) : intRef a is m2 = .ok z := by
  unfold intRef Arr.addr Mem.loadInt
  rw [if_pos h.1, M.ok_bind, hm, h.2]

section
variable {m : Mem T} {box : List (Int × Int)} {first n : Int} {tab st f u : Arr} {O : Int → List Int} {S B U : List Int → T}

/-- the invariant: only the right hand side has changed -/
def RInv (m : Mem T) (f : Arr) (m1 : Mem T) (W : List Int → T) : Prop := Holds m1 f W ∧ Only [f] m m1

theorem RhsCall.tab1 {b0 : Int × Int} (h : RhsCall m [b0] first n tab st f u O S B U) {s : Int} (h0 : first ≤ s) (h1 : s < first + n) :
    ∃ a, O s = [a] ∧ ∀ m2 : Mem T, m2.ints = m.ints → intRef tab [first, s] m2 = .ok a := by
  obtain ⟨hl, ht⟩ := h.table s h0 h1
  match hO : O s, hl with
  | [a], _ =>
    rw [hO] at ht
    refine ⟨a, rfl, fun m2 hm => ?_⟩
    have := ht 0 a rfl
    rw [Nat.cast_zero, Int.add_zero] at this
    exact this.ref hm

theorem RhsCall.tab2 {b0 b1 : Int × Int} (h : RhsCall m [b0, b1] first n tab st f u O S B U) {s : Int} (h0 : first ≤ s) (h1 : s < first + n) :
    ∃ a b, O s = [a, b] ∧ ∀ m2 : Mem T, m2.ints = m.ints → intRef tab [first, s] m2 = .ok a ∧ intRef tab [first + 1, s] m2 = .ok b := by
  obtain ⟨hl, ht⟩ := h.table s h0 h1
  match hO : O s, hl with
  | [a, b], _ =>
    rw [hO] at ht
    refine ⟨a, b, rfl, fun m2 hm => ⟨?_, (ht 1 b rfl).ref hm⟩⟩
    have := ht 0 a rfl
    rw [Nat.cast_zero, Int.add_zero] at this
    exact this.ref hm

theorem RhsCall.tab3 {b0 b1 b2 : Int × Int} (h : RhsCall m [b0, b1, b2] first n tab st f u O S B U) {s : Int} (h0 : first ≤ s) (h1 : s < first + n) :
    ∃ a b c, O s = [a, b, c] ∧ ∀ m2 : Mem T, m2.ints = m.ints →
      intRef tab [first, s] m2 = .ok a ∧ intRef tab [first + 1, s] m2 = .ok b ∧ intRef tab [first + 2, s] m2 = .ok c := by
  obtain ⟨hl, ht⟩ := h.table s h0 h1
  match hO : O s, hl with
  | [a, b, c], _ =>
    rw [hO] at ht
    refine ⟨a, b, c, rfl, fun m2 hm => ⟨?_, (ht 1 b rfl).ref hm, (ht 2 c rfl).ref hm⟩⟩
    have := ht 0 a rfl
    rw [Nat.cast_zero, Int.add_zero] at this
    exact this.ref hm

variable [Add T] [Sub T] [Mul T] [Div T] [Neg T]

/-- terms added at a cell -/
theorem RhsCall.added (h : RhsCall m box first n tab st f u O S B U) {p : List Int} (hp : InBounds box p)
    (hn : ∀ s, first ≤ s → s < first + n → InBounds u.dims (shift p (O s))) {X : Int → Cmd T}
    (hX : ∀ s, first ≤ s → s < first + n → ∀ m2 : Mem T, m2.ints = m.ints → X s m2 = assign f p (f.el p + st.el (s :: p) * u.el (shift p (O s))) m2) :
    Updates (RInv m f) (fun p r => (irange first (first + n - 1)).foldl (fun r s => r + S (s :: p) * U (shift p (O s))) r) (fun q => q = p)
      (doLoop first (first + n - 1) X) := fun m1 V ⟨hV, ho⟩ => by
  have hf := h.inF p hp
  obtain ⟨m', V', a, b, c, d, e⟩ := accum (X := X) (g := fun r s => r + S (s :: p) * U (shift p (O s))) hf (l := irange first (first + n - 1)) hV ho
    fun s hs m2 V2 hV2 ho2 => by
      have := mem_irange.1 hs
      have h1 : s < first + n := by omega
      rw [hX s this.1 h1 m2 ho2.ints]
      exact hV2.assign hf (add_ok' (hV2.ref hf) (mul_ok' ((h.holdsSt.only ho2 (by simpa using h.apartSt)).ref (h.inSt p hp s this.1 h1))
        ((h.holdsU.only ho2 (by simpa using h.apartU)).ref (hn s this.1 h1))))
  exact ⟨m', V', a, ⟨b, c⟩, fun q hq => hq ▸ d, e⟩

variable [Zero T]

/-- terms subtracted at a cell, the values taken from a local array -/
theorem RhsCall.moved (h : RhsCall m box 0 n tab st f u O S B U) {p : List Int} (hp : InBounds box p) {L : List Int → T} {X : Int → Cmd T}
    (hX : ∀ s, 0 ≤ s → s < n → ∀ m2 : Mem T, m2.ints = m.ints → X s m2 = assign f p (f.el p - st.el (s :: p) * .const (L (shift p (O s)))) m2) :
    Updates (RInv m f) (fun p r => (irange 0 (n - 1)).foldl (fun r s => r - S (s :: p) * L (shift p (O s))) r) (fun q => q = p)
      (doLoop 0 (n - 1) X) := fun m1 V ⟨hV, ho⟩ => by
  have hf := h.inF p hp
  obtain ⟨m', V', a, b, c, d, e⟩ := accum (X := X) (g := fun r s => r - S (s :: p) * L (shift p (O s))) hf (l := irange 0 (n - 1)) hV ho
    fun s hs m2 V2 hV2 ho2 => by
      have := mem_irange.1 hs
      have h1 : s < n := by omega
      rw [hX s this.1 h1 m2 ho2.ints]
      exact hV2.assign hf (sub_ok (hV2.ref hf) (mul_ok' ((h.holdsSt.only ho2 (by simpa using h.apartSt)).ref (h.inSt p hp s this.1 (by omega))) rfl))
  exact ⟨m', V', a, ⟨b, c⟩, fun q hq => hq ▸ d, e⟩

/-- one term subtracted at a cell -/
theorem RhsCall.one (h : RhsCall m box 0 n tab st f u O S B U) {p q : List Int} (hp : InBounds box p) {s : Int} (h0 : 0 ≤ s) (h1 : s < n)
    (hq : q = shift p (O s)) (hu : InBounds u.dims q) :
    Updates (RInv m f) (fun p r => r - S (s :: p) * U (shift p (O s))) (fun q => q = p) (assign f p (f.el p - st.el (s :: p) * u.el q)) :=
  fun m1 V ⟨hV, ho⟩ => by
  have hf := h.inF p hp
  refine ⟨put m1 f p (V p - S (s :: p) * U q), upd V p _, ?_, ⟨holds_put hf hV, ho.trans (only_put hf)⟩, fun r hr => ?_, fun r hr => if_neg hr⟩
  · exact hV.assign hf (sub_ok (hV.ref hf) (mul_ok' ((h.holdsSt.only ho (by simpa using h.apartSt)).ref (h.inSt p hp s h0 (by omega)))
      ((h.holdsU.only ho (by simpa using h.apartU)).ref hu)))
  · rw [hr]
    subst hq
    exact if_pos rfl

end

/-! ### a layer of cells -/

/-- the invariant with the local array: it is 0 away from the layer -/
def LInv [Zero T] (m : Mem T) (f : Arr) (b : List (Int × Int)) (d : Nat) (e : Int) (s : (List Int → T) × Mem T) (W : List Int → T) : Prop :=
  RInv m f s.2 W ∧ ∀ is, InBounds b is → is[d]? ≠ some e → s.1 is = 0

theorem fillP_congr {P Q : List Int → Prop} {h ul : List Int → T} (e : ∀ is, P is ↔ Q is) : fillP P h ul = fillP Q h ul := by
  rw [show P = Q from funext fun is => propext (e is)]

section
variable {m : Mem T} {box : List (Int × Int)} {n : Int} {tab st f u : Arr} {O : Int → List Int} {S B U : List Int → T}
variable [Add T] [Sub T] [Mul T] [Div T] [Neg T] [Zero T]

/-- the statements at a cell: the local array filled on the layer, then the loop over the table -/
theorem RhsCall.layer_cell (h : RhsCall m box 0 n tab st f u O S B U) {p : List Int} (hp : InBounds box p) {b : List (Int × Int)} {d : Nat} {e x : Int}
    (he : ∀ o, InBounds b o → ((shift p o)[d]? = some x ↔ o[d]? = some e)) (hO : ∀ s, 0 ≤ s → s < n → InBounds b (O s))
    {fill : Mem T → (List Int → T) → M (List Int → T)}
    (hfill : ∀ m1 ul, Holds m1 u U → fill m1 ul = .ok (fillP (fun is => InBounds b is ∧ is[d]? = some e) (fun is => U (shift p is)) ul))
    {X : (List Int → T) → Int → Cmd T}
    (hX : ∀ ul s, 0 ≤ s → s < n → ∀ m2 : Mem T, m2.ints = m.ints →
      X ul s m2 = (do let x ← locRef b ul (O s); assign f p (f.el p - st.el (s :: p) * .const x) m2)) :
    Updates (LInv m f b d e) (fun p r => (irange 0 (n - 1)).foldl (fun r s => r - S (s :: p) * onLayer d x U (shift p (O s))) r) (fun q => q = p)
      (fun s : (List Int → T) × Mem T => do
        let ul ← fill s.2 s.1
        let m ← doLoop 0 (n - 1) (X ul) s.2
        .ok (ul, m)) := by
  rintro ⟨ul, m1⟩ V ⟨⟨hV, ho⟩, hz⟩
  have hf := hfill m1 ul (h.holdsU.only ho (by simpa using h.apartU))
  generalize hul : fillP (fun is => InBounds b is ∧ is[d]? = some e) (fun is => U (shift p is)) ul = ul' at hf
  have val : ∀ o, InBounds b o → ul' o = onLayer d x U (shift p o) := fun o hb => by
    rw [← hul, onLayer]
    by_cases hd : o[d]? = some e
    · rw [fillP_pos ⟨hb, hd⟩, if_pos ((he o hb).2 hd)]
    · rw [fillP_neg fun h => hd h.2, if_neg fun h => hd ((he o hb).1 h)]
      exact hz o hb hd
  obtain ⟨m', V', a, b', c, d'⟩ := h.moved hp (L := onLayer d x U) (X := X ul') (fun s h0 h1 m2 hm => by
    rw [hX ul' s h0 h1 m2 hm, locRef, if_pos (hO s h0 h1), M.ok_bind, val _ (hO s h0 h1)]) m1 V ⟨hV, ho⟩
  refine ⟨(ul', m'), V', ?_, ⟨b', fun is hb hd => ?_⟩, c, d'⟩
  · simp only
    rw [hf, M.ok_bind, a, M.ok_bind]
  · simp only
    rw [← hul, fillP_neg fun h => hd h.2]
    exact hz is hb hd

end

/-- the equation of a cell with the terms of the layer moved to the right hand side -/
theorem eqn_moved [Field T] {n : Int} {O : Int → List Int} {S B U W : List Int → T} {p : List Int} {d : Nat} {x : Int} {B' : List Int → T}
    (hB : B' p = (irange 0 (n - 1)).foldl (fun r s => r - S (s :: p) * onLayer d x U (shift p (O s))) (B p))
    (hW : ∀ q : List Int, q[d]? = some x → W q = U q) : Eqn n O S B W p ↔ Eqn n O S B' (offLayer d x W) p := by
  have e : ∀ q, W q = offLayer d x W q + onLayer d x U q := fun q => by
    unfold offLayer onLayer
    by_cases h : q[d]? = some x
    · rw [if_pos h, if_pos h, zero_add, hW q h]
    · rw [if_neg h, if_neg h, add_zero]
  have hs : ∀ l : List Int, (l.map fun s => S (s :: p) * W (shift p (O s))).sum =
      (l.map fun s => S (s :: p) * offLayer d x W (shift p (O s))).sum + (l.map fun s => S (s :: p) * onLayer d x U (shift p (O s))).sum := by
    intro l
    induction l with
    | nil => simp
    | cons s l ih =>
      simp only [List.map_cons, List.sum_cons]
      rw [ih, e (shift p (O s))]
      ring
  unfold Eqn Verif.F.sum
  rw [hB, foldl_sub, hs]
  constructor <;> intro h
  · rw [← h]; ring
  · rw [h]; ring

/-! ### memories -/

theorem Only.same {m m1 m2 : Mem T} {a : Arr} {V W : List Int → T} (h1 : Only [a] m m1) (h2 : Only [a] m m2) (k1 : Holds m1 a V) (k2 : Holds m2 a W)
    (e : ∀ p, InBounds a.dims p → V p = W p) : m1 = m2 := by
  have hv : m1.val = m2.val := by
    funext q
    by_cases hq : ∃ is, InBounds a.dims is ∧ a.ptr.add (colMajor a.dims is) = q
    · obtain ⟨is, hi, rfl⟩ := hq
      rw [(k1 is hi).2, (k2 is hi).2, e is hi]
    · have : ∀ b ∈ [a], ∀ is, InBounds b.dims is → b.ptr.add (colMajor b.dims is) ≠ q := fun b hb is hi he => hq (by
        rw [List.mem_singleton] at hb
        subst hb
        exact ⟨is, hi, he⟩)
      rw [h1.val q this, h2.val q this]
  have hi := h1.ints.trans h2.ints.symm
  cases m1
  cases m2
  simp only at hv hi
  rw [hv, hi]

end Verif.F
