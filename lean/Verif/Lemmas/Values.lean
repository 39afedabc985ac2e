import Verif.Lemmas.Fortran
import Verif.Spec.Elements

/-
What Fortran loops of assignments to one array leave in it, when nothing assigned is read.
-/

namespace Verif.F
open Spec

variable {T : Type}

/-! ### addresses -/

theorem colMajor_range : ∀ {ds : List (Int × Int)} {is : List Int}, InBounds ds is →
    0 ≤ colMajor ds is
  | [], [], _ => le_refl _
  | (l, u) :: ds, i :: is, h => by
    have := colMajor_range h.2
    have h1 := h.1
    simp only [colMajor]
    have : 0 ≤ (u - l + 1) * colMajor ds is := Int.mul_nonneg (by omega) this
    omega

theorem colMajor_inj : ∀ {ds : List (Int × Int)} {is js : List Int}, InBounds ds is → InBounds ds js → colMajor ds is = colMajor ds js → is = js
  | [], [], [], _, _, _ => rfl
  | (l, u) :: ds, i :: is, j :: js, h1, h2, h => by
    have a := h1.1
    have b := h2.1
    simp only [colMajor] at h
    have hn : 0 < u - l + 1 := by omega
    have e1 : (i - l + (u - l + 1) * colMajor ds is) % (u - l + 1) = i - l := by
      rw [Int.add_mul_emod_self_left]; exact Int.emod_eq_of_lt (by omega) (by omega)
    have e2 : (j - l + (u - l + 1) * colMajor ds js) % (u - l + 1) = j - l := by
      rw [Int.add_mul_emod_self_left]; exact Int.emod_eq_of_lt (by omega) (by omega)
    rw [h] at e1
    have e : i = j := by omega
    subst e
    have : colMajor ds is = colMajor ds js := Int.eq_of_mul_eq_mul_left (by omega) (by omega : (u - l + 1) * colMajor ds is = (u - l + 1) * colMajor ds js)
    rw [colMajor_inj h1.2 h2.2 this]

theorem addrT_inj {a : Arr} {is js : List Int} (h1 : InBounds a.dims is) (h2 : InBounds a.dims js) (h : a.addrT is = a.addrT js) : is = js := by
  unfold Arr.addrT Ptr.add at h
  injection h with _ h
  exact colMajor_inj h1 h2 (by omega)

theorem El.inj {m : Mem T} {a : Arr} {is : List Int} {v w : T} (h : El m a is v) (h' : El m a is w) : v = w := by
  have := h.2.symm.trans h'.2
  injection this

theorem ArrOK.el {m : Mem T} {a : Arr} (h : ArrOK m a) {is : List Int} (hi : InBounds a.dims is) : ∃ v, El m a is v := by
  obtain ⟨v, hv⟩ := h.alloc is hi
  exact ⟨v, hi, hv⟩

section
variable [Zero T]

theorem El.ld {m : Mem T} {a : Arr} {is : List Int} {v : T} (h : El m a is v) : ld m (a.addrT is) = v := by
  unfold Verif.ld Arr.addrT
  rw [h.2]; rfl

theorem ArrOK.el_ld {m : Mem T} {a : Arr} (h : ArrOK m a) {is : List Int} (hi : InBounds a.dims is) : El m a is (Verif.ld m (a.addrT is)) := by
  obtain ⟨v, hv⟩ := h.el hi
  rw [hv.ld]; exact hv

end

/-! ### a list of assignments -/

section
variable [Zero T] [Add T] [Sub T] [Mul T] [Div T] [Neg T]

/-- contents of an element -/
def rd (m : Mem T) (a : Arr) (is : List Int) : T := ld m (a.addrT is)

omit [Add T] [Sub T] [Mul T] [Div T] [Neg T] in
theorem El.rd {m : Mem T} {a : Arr} {is : List Int} {v : T} (h : El m a is v) : rd m a is = v := h.ld

omit [Add T] [Sub T] [Mul T] [Div T] [Neg T] in
theorem ArrOK.rd {m : Mem T} {a : Arr} (h : ArrOK m a) {is : List Int} (hi : InBounds a.dims is) : El m a is (rd m a is) := h.el_ld hi

/-- an assignment: array, indices, value -/
abbrev Asg (T : Type) := Arr × List Int × Expr T

/-- the assignments, one after the other -/
def seqn (L : List (Asg T)) : Cmd T := block (L.map fun x => assign x.1 x.2.1 x.2.2)

/-- the assignments are to different elements, none of which is read -/
structure Indep (m : Mem T) (L : List (Asg T)) : Prop where
  bounds : ∀ x ∈ L, InBounds x.1.dims x.2.1
  alloc : ∀ x ∈ L, ∃ v, m.val (x.1.addrT x.2.1) = some v
  nodup : (L.map fun x => x.1.addrT x.2.1).Nodup
  refs : ∀ x ∈ L, ∀ y ∈ x.2.2.refs, Good m (fun q => ∃ x ∈ L, x.1.addrT x.2.1 = q) y

/-- what assigning leaves -/
structure Wrote (L : List (Asg T)) (m m' : Mem T) : Prop where
  el : ∀ x ∈ L, El m' x.1 x.2.1 (x.2.2.evalT m)
  frame : ∀ q, (∀ x ∈ L, x.1.addrT x.2.1 ≠ q) → m'.val q = m.val q
  ints : m'.ints = m.ints

omit [Zero T] [Add T] [Sub T] [Mul T] [Div T] [Neg T] in
theorem block_append : ∀ {l l' : List (Cmd T)} {m : Mem T}, block (l ++ l') m = (block l m >>= block l')
  | [], _, _ => rfl
  | c :: l, l', m => by
    simp only [List.cons_append, block]
    cases c m with
    | error e => rfl
    | ok m1 => exact block_append

omit [Zero T] [Add T] [Sub T] [Mul T] [Div T] [Neg T] in
theorem runPts_block {P : Type} {f : P → List (Cmd T)} : ∀ {l : List P} {m : Mem T}, runPts l (fun p => block (f p)) m = block (l.flatMap f) m
  | [], _ => rfl
  | p :: l, m => by
    rw [List.flatMap_cons, block_append]
    unfold runPts
    rw [List.foldlM_cons]
    dsimp only
    cases block (f p) m with
    | error e => rfl
    | ok m1 => exact runPts_block

theorem Indep.run {m : Mem T} {L : List (Asg T)} (h : Indep m L) : ∃ m', seqn L m = .ok m' ∧ Wrote L m m' := by
  have key : ∀ (K : List (Asg T)) (m1 : Mem T), (∀ x ∈ K, x ∈ L) → (K.map fun x => x.1.addrT x.2.1).Nodup →
      (∀ q, (∀ x ∈ L, x.1.addrT x.2.1 ≠ q) → m1.val q = m.val q) → (∀ q, (∃ v, m.val q = some v) → ∃ v, m1.val q = some v) →
      ∃ m', seqn K m1 = .ok m' ∧ (∀ x ∈ K, El m' x.1 x.2.1 (x.2.2.evalT m)) ∧
        (∀ q, (∀ x ∈ K, x.1.addrT x.2.1 ≠ q) → m'.val q = m1.val q) ∧ m'.ints = m1.ints := by
    intro K
    induction K with
    | nil => exact fun m1 _ _ _ _ => ⟨m1, rfl, by simp, fun _ _ => rfl, rfl⟩
    | cons x K ih =>
      intro m1 hK hn h1 h2
      rw [List.map_cons, List.nodup_cons] at hn
      have hx := hK x List.mem_cons_self
      have hev := eval_good (m1 := m1) (fun q hq => h1 q fun z hz e => hq ⟨z, hz, e⟩) (h.refs x hx)
      obtain ⟨v, hv⟩ := h2 _ (h.alloc x hx)
      have hstep : assign x.1 x.2.1 x.2.2 m1 = .ok { m1 with val := fun z => if z = x.1.addrT x.2.1 then some (x.2.2.evalT m) else m1.val z } := by
        unfold Arr.addrT at hv
        unfold assign
        rw [hev, M.ok_bind, Arr.addr, if_pos (h.bounds x hx), M.ok_bind]
        rw [Mem.store, hv]; rfl
      obtain ⟨m2, g1, g2, g3, g4⟩ := ih { m1 with val := fun z => if z = x.1.addrT x.2.1 then some (x.2.2.evalT m) else m1.val z }
        (fun y hy => hK y (List.mem_cons_of_mem _ hy)) hn.2 (fun q hq => by
          dsimp only
          rw [if_neg fun e => hq x hx e.symm]; exact h1 q hq) (fun q hq => by
          dsimp only
          split
          · exact ⟨_, rfl⟩
          · exact h2 q hq)
      refine ⟨m2, ?_, ?_, ?_, g4⟩
      · unfold seqn
        simp only [List.map_cons, block]
        rw [hstep, M.ok_bind]; exact g1
      · intro y hy
        rcases List.mem_cons.1 hy with rfl | hy
        · refine ⟨h.bounds _ hx, ?_⟩
          have := g3 (y.1.addrT y.2.1) fun z hz e => hn.1 (by rw [← e]; exact List.mem_map_of_mem (f := fun x : Asg T => x.1.addrT x.2.1) hz)
          unfold Arr.addrT at this
          rw [this]; exact if_pos rfl
        · exact g2 y hy
      · intro q hq
        rw [g3 q fun z hz => hq z (List.mem_cons_of_mem _ hz)]
        dsimp only
        rw [if_neg fun e => hq x List.mem_cons_self e.symm]
  obtain ⟨m', g1, g2, g3, g4⟩ := key L m (fun _ hx => hx) h.nodup (fun _ _ => rfl) fun _ hq => hq
  exact ⟨m', g1, g2, g3, g4⟩

omit [Add T] [Sub T] [Mul T] [Div T] [Neg T] in
theorem evalT_frame [Add T] [Sub T] [Mul T] [Div T] [Neg T] {m m' : Mem T} : ∀ {e : Expr T}, (∀ y ∈ e.refs, m'.val (y.1.addrT y.2) = m.val (y.1.addrT y.2)) →
    e.evalT m' = e.evalT m
  | .const _, _ => rfl
  | .ref a is, h => by
    simp only [Expr.evalT, Verif.ld]
    rw [h (a, is) (by simp [Expr.refs])]
  | .neg e, h => by rw [Expr.evalT, Expr.evalT, evalT_frame (e := e) h]
  | .add e f, h | .sub e f, h | .mul e f, h | .div e f, h => by
    simp only [Expr.refs, List.mem_append] at h
    simp only [Expr.evalT]
    rw [evalT_frame (e := e) fun y hy => h y (.inl hy), evalT_frame (e := f) fun y hy => h y (.inr hy)]

theorem Wrote.alloc {m m' : Mem T} {L : List (Asg T)} (h : Wrote L m m') (q : Ptr) (hq : ∃ v, m.val q = some v) : ∃ v, m'.val q = some v := by
  by_cases hw : ∃ x ∈ L, x.1.addrT x.2.1 = q
  · obtain ⟨x, hx, rfl⟩ := hw
    exact ⟨_, (h.el x hx).2⟩
  · rw [h.frame q fun x hx e => hw ⟨x, hx, e⟩]; exact hq

/-- assigning once more changes nothing -/
theorem Indep.again {m m' : Mem T} {L : List (Asg T)} (h : Indep m L) (hw : Wrote L m m') : seqn L m' = .ok m' := by
  have h' : Indep m' L := ⟨h.bounds, fun x hx => hw.alloc _ (h.alloc x hx), h.nodup, fun x hx y hy =>
    ⟨(h.refs x hx y hy).bounds, hw.alloc _ (h.refs x hx y hy).alloc, (h.refs x hx y hy).other⟩⟩
  obtain ⟨m2, g, hw'⟩ := h'.run
  rw [g]
  congr 1
  have hv : m2.val = m'.val := by
    funext q
    by_cases hq : ∃ x ∈ L, x.1.addrT x.2.1 = q
    · obtain ⟨x, hx, rfl⟩ := hq
      have e : x.2.2.evalT m' = x.2.2.evalT m := evalT_frame fun y hy => hw.frame _ fun z hz e => (h.refs x hx y hy).other ⟨z, hz, e⟩
      have := (hw'.el x hx).2
      rw [e] at this
      exact this.trans (hw.el x hx).2.symm
    · exact hw'.frame q fun x hx e => hq ⟨x, hx, e⟩
  have hi := hw'.ints
  cases m2; cases m'
  cases hv; cases hi; rfl

/-! ### from arguments and loops -/

omit [Zero T] [Add T] [Sub T] [Mul T] [Div T] [Neg T] in
theorem apart_symm {a b : Arr} (h : Apart a b) : Apart b a := fun is js h1 h2 e => h js is h2 h1 e.symm

/-- the assignments go to `outs`, each element once, and read the inputs or elements of `outs` that are not assigned -/
structure Part (ins outs : List Arr) (L : List (Asg T)) : Prop where
  hout : ∀ x ∈ L, x.1 ∈ outs
  bounds : ∀ x ∈ L, InBounds x.1.dims x.2.1
  nodup : (L.map fun x => x.1.addrT x.2.1).Nodup
  refs : ∀ x ∈ L, ∀ y ∈ x.2.2.refs, InBounds y.1.dims y.2 ∧ (y.1 ∈ ins ∨ (y.1 ∈ outs ∧ ∀ z ∈ L, z.1.addrT z.2.1 ≠ y.1.addrT y.2))

omit [Zero T] [Add T] [Sub T] [Mul T] [Div T] [Neg T] in
theorem Part.append {ins o o' : List Arr} {L L' : List (Asg T)} (h : Part ins o L) (h' : Part ins o' L') (ha : ∀ a ∈ o, ∀ b ∈ o', Apart a b) :
    Part ins (o ++ o') (L ++ L') where
  hout x hx := List.mem_append.2 ((List.mem_append.1 hx).imp (h.hout x) (h'.hout x))
  bounds x hx := (List.mem_append.1 hx).elim (h.bounds x) (h'.bounds x)
  nodup := by
    rw [List.map_append, List.nodup_append]
    refine ⟨h.nodup, h'.nodup, fun q hq q' hq' e => ?_⟩
    obtain ⟨x, hx, rfl⟩ := List.mem_map.1 hq
    obtain ⟨y, hy, rfl⟩ := List.mem_map.1 hq'
    exact ha _ (h.hout x hx) _ (h'.hout y hy) _ _ (h.bounds x hx) (h'.bounds y hy) e
  refs x hx y hy := by
    rcases List.mem_append.1 hx with hx | hx
    · obtain ⟨k1, k2⟩ := h.refs x hx y hy
      refine ⟨k1, k2.imp_right fun k2 => ⟨List.mem_append_left _ k2.1, fun z hz e => ?_⟩⟩
      rcases List.mem_append.1 hz with hz | hz
      · exact k2.2 z hz e
      · exact ha _ k2.1 _ (h'.hout z hz) _ _ k1 (h'.bounds z hz) e.symm
    · obtain ⟨k1, k2⟩ := h'.refs x hx y hy
      refine ⟨k1, k2.imp_right fun k2 => ⟨List.mem_append_right _ k2.1, fun z hz e => ?_⟩⟩
      rcases List.mem_append.1 hz with hz | hz
      · exact ha _ (h.hout z hz) _ k2.1 _ _ (h.bounds z hz) k1 e
      · exact k2.2 z hz e

omit [Zero T] [Add T] [Sub T] [Mul T] [Div T] [Neg T] in
theorem Part.indep {m : Mem T} {ins outs : List Arr} {L : List (Asg T)} (h : Part ins outs L) (hm : Args m ins outs) : Indep m L where
  bounds := h.bounds
  alloc x hx := (hm.ok x.1 (List.mem_append_right _ (h.hout x hx))).alloc _ (h.bounds x hx)
  nodup := h.nodup
  refs x hx y hy := by
    obtain ⟨k1, k2⟩ := h.refs x hx y hy
    rcases k2 with k2 | ⟨k2, k3⟩
    · refine ⟨k1, (hm.ok y.1 (List.mem_append_left _ k2)).alloc _ k1, ?_⟩
      rintro ⟨z, hz, e⟩
      exact hm.apart _ (h.hout z hz) _ k2 _ _ (h.bounds z hz) k1 e
    · refine ⟨k1, (hm.ok y.1 (List.mem_append_right _ k2)).alloc _ k1, ?_⟩
      rintro ⟨z, hz, e⟩
      exact k3 z hz e

/-- the assignments of a loop nest -/
def nestL (r : List (Dim × Int × Int)) (p0 : Pt) (f : Pt → List (Asg T)) : List (Asg T) := (nestPts r p0).flatMap f

omit [Zero T] in
theorem nest_seqn {r : List (Dim × Int × Int)} {p0 : Pt} {f : Pt → List (Asg T)} :
    nest (fun p => block ((f p).map fun x => assign x.1 x.2.1 x.2.2)) r p0 = seqn (nestL r p0 f) := by
  funext m
  rw [nest_eq, runPts_block]
  unfold seqn nestL
  rw [List.map_flatMap]

omit [Zero T] in
theorem nest_seqn1 {r : List (Dim × Int × Int)} {p0 : Pt} {a : Pt → Arr} {is : Pt → List Int} {e : Pt → Expr T} :
    nest (fun p => assign (a p) (is p) (e p)) r p0 = seqn (nestL r p0 fun p => [(a p, is p, e p)]) := by
  rw [← nest_seqn]
  congr 1
  funext p m
  simp only [List.map_cons, List.map_nil, block]
  cases assign (a p) (is p) (e p) m <;> rfl

omit [Zero T] in
theorem seqn_append {L L' : List (Asg T)} : block [seqn L, seqn L'] = seqn (L ++ L') := by
  funext m
  unfold seqn
  rw [List.map_append, block_append]
  simp only [block]
  cases block (L.map fun x => assign x.1 x.2.1 x.2.2) m with
  | error e => rfl
  | ok m1 =>
    simp only [M.ok_bind]
    cases block (L'.map fun x => assign x.1 x.2.1 x.2.2) m1 <;> rfl

omit [Zero T] in
theorem seqn_append3 {L L' L'' : List (Asg T)} : block [seqn L, seqn L', seqn L''] = seqn (L ++ (L' ++ L'')) := by
  rw [← seqn_append, ← seqn_append]
  funext m
  simp only [block]
  cases seqn L m with
  | error e => rfl
  | ok m1 =>
    simp only [M.ok_bind]
    cases seqn L' m1 with
    | error e => rfl
    | ok m2 =>
      simp only [M.ok_bind]
      cases seqn L'' m2 <;> rfl

omit [Zero T] [Add T] [Sub T] [Mul T] [Div T] [Neg T] in
/-- a loop nest whose body assigns to one array -/
theorem Part.nest {ins : List Arr} {out : Arr} {r : List (Dim × Int × Int)} {p0 : Pt} {f : Pt → List (Asg T)} (hn : (r.map (·.1)).Nodup)
    (ho : ∀ p, ∀ x ∈ f p, x.1 = out)
    (hb : ∀ p, (∀ x ∈ r, x.2.1 ≤ p x.1 ∧ p x.1 ≤ x.2.2) → ∀ x ∈ f p, InBounds out.dims x.2.1)
    (hd : ∀ p, ((f p).map (·.2.1)).Nodup)
    (hi : ∀ p p', ∀ x ∈ f p, ∀ y ∈ f p', x.2.1 = y.2.1 → ∀ z ∈ r, p z.1 = p' z.1)
    (hr : ∀ p, (∀ x ∈ r, x.2.1 ≤ p x.1 ∧ p x.1 ≤ x.2.2) → ∀ x ∈ f p, ∀ y ∈ x.2.2.refs, InBounds y.1.dims y.2 ∧
      (y.1 ∈ ins ∨ (y.1 = out ∧ ∀ p', ∀ z ∈ f p', z.2.1 ≠ y.2))) : Part ins [out] (nestL r p0 f) := by
  have hmem : ∀ p ∈ nestPts r p0, ∀ x ∈ r, x.2.1 ≤ p x.1 ∧ p x.1 ≤ x.2.2 := fun p hp => ((mem_nestPts hn).1 hp).1
  refine ⟨fun x hx => ?_, fun x hx => ?_, ?_, fun x hx y hy => ?_⟩
  · obtain ⟨p, -, hx⟩ := List.mem_flatMap.1 hx
    rw [ho p x hx]; exact List.mem_singleton_self _
  · obtain ⟨p, hp, hx⟩ := List.mem_flatMap.1 hx
    rw [ho p x hx]; exact hb p (hmem p hp) x hx
  · unfold nestL
    rw [List.map_flatMap, List.nodup_flatMap]
    refine ⟨fun p hp => ?_, ?_⟩
    · have := hd p
      rw [List.nodup_iff_pairwise_ne, List.pairwise_map] at this
      rw [List.nodup_iff_pairwise_ne, List.pairwise_map]
      refine List.Pairwise.imp_of_mem (fun {x y} hx hy hne e => hne ?_) this
      rw [ho p x hx, ho p y hy] at e
      exact addrT_inj (hb p (hmem p hp) x hx) (hb p (hmem p hp) y hy) e
    · have := nodup_nestPts (p := p0) hn
      rw [List.nodup_iff_pairwise_ne] at this
      refine List.Pairwise.imp_of_mem (fun {p q} hp hq hne z h1 h2 => ?_) this
      obtain ⟨x, hx, e1⟩ := List.mem_map.1 h1
      obtain ⟨y, hy, e2⟩ := List.mem_map.1 h2
      rw [ho p x hx] at e1
      rw [ho q y hy] at e2
      have e := hi p q x hx y hy (addrT_inj (hb p (hmem p hp) x hx) (hb q (hmem q hq) y hy) (e1.trans e2.symm))
      refine hne (funext fun d => ?_)
      by_cases hd' : d ∈ r.map (·.1)
      · obtain ⟨z, hz, rfl⟩ := List.mem_map.1 hd'
        exact e z hz
      · rw [((mem_nestPts hn).1 hp).2 d hd', ((mem_nestPts hn).1 hq).2 d hd']
  · obtain ⟨p, hp, hx⟩ := List.mem_flatMap.1 hx
    obtain ⟨k1, k2⟩ := hr p (hmem p hp) x hx y hy
    refine ⟨k1, k2.imp_right fun k2 => ⟨by rw [k2.1]; exact List.mem_singleton_self _, fun z hz e => ?_⟩⟩
    obtain ⟨p', hp', hz⟩ := List.mem_flatMap.1 hz
    rw [ho p' z hz, k2.1] at e
    exact k2.2 p' z hz (addrT_inj (hb p' (hmem p' hp') z hz) (k2.1 ▸ k1) e)

omit [Zero T] [Add T] [Sub T] [Mul T] [Div T] [Neg T] in
theorem mem_nestL {r : List (Dim × Int × Int)} {p0 p : Pt} {f : Pt → List (Asg T)} {x : Asg T} (hn : (r.map (·.1)).Nodup)
    (hp : ∀ x ∈ r, x.2.1 ≤ p x.1 ∧ p x.1 ≤ x.2.2) (h0 : ∀ d, d ∉ r.map (·.1) → p d = p0 d) (hx : x ∈ f p) : x ∈ nestL r p0 f :=
  List.mem_flatMap.2 ⟨p, (mem_nestPts hn).2 ⟨hp, h0⟩, hx⟩

/-! ### what a routine leaves -/

/-- apart from `outs`, the memory is as before; what was allocated still is -/
structure Kept (outs : List Arr) (m m' : Mem T) : Prop where
  el : ∀ a, (∀ o ∈ outs, Apart o a) → ∀ is, InBounds a.dims is → m'.val (a.addrT is) = m.val (a.addrT is)
  alloc : ∀ q, (∃ v, m.val q = some v) → ∃ v, m'.val q = some v
  ints : m'.ints = m.ints

theorem Part.kept {ins outs : List Arr} {L : List (Asg T)} {m m' : Mem T} (h : Part ins outs L) (hw : Wrote L m m') : Kept outs m m' where
  el _ ha _ hi := hw.frame _ fun x hx e => ha _ (h.hout x hx) _ _ (h.bounds x hx) hi e
  alloc := hw.alloc
  ints := hw.ints

omit [Add T] [Sub T] [Mul T] [Div T] [Neg T] in
theorem Kept.rd {outs : List Arr} {m m' : Mem T} (h : Kept outs m m') {a : Arr} (ha : ∀ o ∈ outs, Apart o a) {is : List Int} (hi : InBounds a.dims is) :
    rd m' a is = rd m a is := by
  unfold F.rd Verif.ld
  rw [h.el a ha is hi]

omit [Zero T] [Add T] [Sub T] [Mul T] [Div T] [Neg T] in
theorem Kept.ok {outs : List Arr} {m m' : Mem T} (h : Kept outs m m') {a : Arr} (ha : ArrOK m a) : ArrOK m' a :=
  ⟨fun is hi => h.alloc _ (ha.alloc is hi), ha.fits, ha.int⟩

omit [Zero T] [Add T] [Sub T] [Mul T] [Div T] [Neg T] in
theorem Kept.args {outs ins os : List Arr} {m m' : Mem T} (h : Kept outs m m') (ha : Args m ins os) : Args m' ins os :=
  ⟨fun a hm => h.ok (ha.ok a hm), ha.apart⟩

omit [Zero T] [Add T] [Sub T] [Mul T] [Div T] [Neg T] in
theorem Args.sub {m : Mem T} {ins outs ins' outs' : List Arr} (h : Args m ins outs) (hi : ∀ a ∈ ins', a ∈ ins) (ho : ∀ a ∈ outs', a ∈ outs) : Args m ins' outs' :=
  ⟨fun a ha => h.ok a (List.mem_append.2 ((List.mem_append.1 ha).imp (hi a) (ho a))), fun o ho' a ha => h.apart o (ho o ho') a (hi a ha)⟩

/-- a routine that is a list of independent assignments -/
theorem Part.run {ins outs : List Arr} {L : List (Asg T)} {m : Mem T} {c : Cmd T} (h : Part ins outs L) (hc : c = seqn L) (hm : Args m ins outs) :
    ∃ m', c m = .ok m' ∧ c m' = .ok m' ∧ Kept outs m m' ∧ ∀ x ∈ L, El m' x.1 x.2.1 (x.2.2.evalT m) := by
  subst hc
  obtain ⟨m', g, hw⟩ := (h.indep hm).run
  exact ⟨m', g, (h.indep hm).again hw, h.kept hw, hw.el⟩

end

end Verif.F
