import Verif.Lemmas.Touched
import Verif.Lemmas.Values
import Verif.Spec.Sides
import Mathlib.Tactic.Tauto

/-
Commands that do not look at part of the memory; when the order of two of them does not matter.
-/

namespace Verif

variable {T : Type}

/-- Started with memories that differ only in `X`, the command treats every location alike: it leaves the same there, or it leaves the location alone in
both. -/
def Blind (X : Ptr → Prop) (c : F.Cmd T) : Prop := ∀ m m' n n', m.ints = n.ints → (∀ q, ¬ X q → m.val q = n.val q) → c m = .ok m' → c n = .ok n' →
  m'.ints = n'.ints ∧ ∀ q, m'.val q = n'.val q ∨ (X q ∧ m'.val q = m.val q ∧ n'.val q = n.val q)

variable {X : Ptr → Prop}

theorem blind_skip : Blind X (F.skip : F.Cmd T) := fun m m' n n' hi hv h1 h2 => by
  cases h1; cases h2
  refine ⟨hi, fun q => ?_⟩
  by_cases hq : X q
  · exact .inr ⟨hq, rfl, rfl⟩
  · exact .inl (hv q hq)

theorem eval_off [Add T] [Sub T] [Mul T] [Div T] [Neg T] {m n : Mem T} (hv : ∀ q, ¬ X q → m.val q = n.val q) : ∀ {e : F.Expr T},
    (∀ r ∈ e.refs, F.InBounds r.1.dims r.2 → ¬ X (r.1.addrT r.2)) → e.eval m = e.eval n
  | .const _, _ => rfl
  | .ref a is, h => by
    have h := h (a, is) (by simp [F.Expr.refs])
    simp only [F.Expr.eval, F.Arr.addr]
    split
    · rename_i hb
      have := hv _ (h hb)
      simp only [F.Arr.addrT] at this
      simp only [M.ok_bind, Mem.load, this]
    · rfl
  | .neg e, h => by simp only [F.Expr.eval]; rw [eval_off hv (e := e) h]
  | .add e f, h | .sub e f, h | .mul e f, h | .div e f, h => by
    simp only [F.Expr.refs, List.mem_append] at h
    simp only [F.Expr.eval]
    rw [eval_off hv (e := e) fun y hy => h y (.inl hy), eval_off hv (e := f) fun y hy => h y (.inr hy)]

theorem blind_assign [Add T] [Sub T] [Mul T] [Div T] [Neg T] {a : F.Arr} {is : List Int} {e : F.Expr T}
    (h : ∀ r ∈ e.refs, F.InBounds r.1.dims r.2 → ¬ X (r.1.addrT r.2)) : Blind X (F.assign a is e) := by
  intro m m' n n' hi hv h1 h2
  unfold F.assign at h1 h2
  rw [eval_off hv h] at h1
  rcases he : e.eval n with x | v
  · rw [he] at h1; cases h1
  rw [he] at h1 h2
  unfold F.Arr.addr at h1 h2
  by_cases hb : F.InBounds a.dims is
  · simp only [hb, M.ok_bind, if_true] at h1 h2
    unfold Mem.store at h1 h2
    split at h1
    · split at h2
      · cases h1; cases h2
        refine ⟨hi, fun q => ?_⟩
        by_cases hq : q = a.ptr.add (F.colMajor a.dims is)
        · left; simp [hq]
        · by_cases hx : X q
          · right; simp [hq, hx]
          · left; simp [hq, hv q hx]
      · cases h2
    · cases h1
  · simp only [hb, M.ok_bind, if_false] at h1
    cases h1

theorem Blind.seq {c d : F.Cmd T} (h : Blind X c) (h' : Blind X d) : Blind X fun m => c m >>= d := by
  intro m m' n n' hi hv h1 h2
  simp only [] at h1 h2
  rcases hx : c m with e | s
  · rw [hx] at h1; cases h1
  rcases hy : c n with e | t
  · rw [hy] at h2; cases h2
  rw [hx] at h1; rw [hy] at h2
  obtain ⟨i1, v1⟩ := h m s n t hi hv hx hy
  obtain ⟨i2, v2⟩ := h' s m' t n' i1 (fun q hq => (v1 q).resolve_right fun c => hq c.1) h1 h2
  refine ⟨i2, fun q => ?_⟩
  rcases v2 q with e | ⟨x, e1, e2⟩
  · exact .inl e
  · rcases v1 q with e | ⟨_, e3, e4⟩
    · exact .inl (by rw [e1, e2, e])
    · exact .inr ⟨x, e1.trans e3, e2.trans e4⟩

theorem blind_loop {lo hi : Int} {f : Int → F.Cmd T} (h : ∀ i, lo ≤ i → i ≤ hi → Blind X (f i)) : Blind X (F.doLoop lo hi f) := by
  have key : ∀ (l : List Int), (∀ i ∈ l, Blind X (f i)) → Blind X fun m => l.foldlM (fun m i => f i m) m := by
    intro l
    induction l with
    | nil => intro _; exact blind_skip
    | cons x xs ih =>
      intro hl
      simp only [List.foldlM_cons]
      exact (hl x (by simp)).seq (ih fun i hi => hl i (by simp [hi]))
  refine key _ fun i hi => ?_
  unfold F.irange at hi
  simp only [List.mem_map, List.mem_range] at hi
  obtain ⟨k, hk, rfl⟩ := hi
  exact h _ (by omega) (by omega)

theorem blind_ite {p : Prop} [Decidable p] {c c' : F.Cmd T} (h : p → Blind X c) (h' : Blind X c') : Blind X (if p then c else c') := by
  split
  · exact h ‹_›
  · exact h'

theorem blind_nil : Blind X (F.block ([] : List (F.Cmd T))) := blind_skip

theorem blind_cons {c : F.Cmd T} {cs : List (F.Cmd T)} (h : Blind X c) (h' : Blind X (F.block cs)) : Blind X (F.block (c :: cs)) := h.seq h'

/-! ### order -/

/-- the elements of `a` at indices that satisfy `P` -/
def elems (a : F.Arr) (P : List Int → Prop) (q : Ptr) : Prop := ∃ is, F.InBounds a.dims is ∧ P is ∧ q = a.addrT is

theorem mem_ext {m n : Mem T} (h : m.ints = n.ints) (hv : ∀ q, m.val q = n.val q) : m = n := by
  cases m; cases n
  simp only at h hv
  simp [h, funext hv]

section
variable {a : F.Arr} {P Q R : List Int → Prop} {c d : F.Cmd T}

theorem changes_off {m m' : Mem T} (h : F.Changes a P m m') {q : Ptr} (hq : ¬ elems a P q) : m'.val q = m.val q :=
  h.val q fun is hb hp e => hq ⟨is, hb, hp, e⟩

/-- a command that does not look at what it may change does nothing when repeated -/
theorem repeat_of (hc : Touches a P c) (bc : Blind (elems a R) c) (hP : ∀ p, P p → R p) {m m' m'' : Mem T} (h1 : c m = .ok m') (h2 : c m' = .ok m'') :
    m'' = m' := by
  have ch := hc _ _ h1
  obtain ⟨hi, hv⟩ := bc m m' m' m'' ch.ints.symm
    (fun q hq => (changes_off ch fun ⟨is, hb, hp, e⟩ => hq ⟨is, hb, hP _ hp, e⟩).symm) h1 h2
  refine mem_ext hi.symm fun q => ?_
  rcases hv q with e | ⟨_, e1, e2⟩
  · exact e.symm
  · exact e2

/-- two commands that change different elements, and do not look at any of them, can be exchanged -/
theorem swap_of (hc : Touches a P c) (hd : Touches a Q d) (bc : Blind (elems a R) c) (bd : Blind (elems a R) d) (hP : ∀ p, P p → R p) (hQ : ∀ p, Q p → R p)
    (hn : ∀ p, P p → ¬ Q p) {m m1 m2 n1 n2 : Mem T} (h1 : c m = .ok m1) (h2 : d m1 = .ok m2) (g1 : d m = .ok n1) (g2 : c n1 = .ok n2) : m2 = n2 := by
  have c1 := hc _ _ h1
  have d1 := hd _ _ g1
  have d2 := hd _ _ h2
  have c2 := hc _ _ g2
  refine mem_ext ?_ fun q => ?_
  · rw [d2.ints, c1.ints, c2.ints, d1.ints]
  by_cases hq : elems a P q
  · have hq' : ¬ elems a Q q := by
      rintro ⟨is, hb, hp, e⟩
      obtain ⟨js, hb', hp', e'⟩ := hq
      have := F.addrT_inj hb hb' (e.symm.trans e')
      subst this
      exact hn _ hp' hp
    obtain ⟨-, hv⟩ := bc m m1 n1 n2 d1.ints.symm (fun q hq => (changes_off d1 fun ⟨is, hb, hp, e⟩ => hq ⟨is, hb, hQ _ hp, e⟩).symm) h1 g2
    rw [changes_off d2 hq']
    rcases hv q with e | ⟨_, e1, e2⟩
    · exact e
    · rw [e1, e2, changes_off d1 hq']
  · obtain ⟨-, hv⟩ := bd m n1 m1 m2 c1.ints.symm (fun q hq => (changes_off c1 fun ⟨is, hb, hp, e⟩ => hq ⟨is, hb, hP _ hp, e⟩).symm) g1 h2
    rw [changes_off c2 hq]
    rcases hv q with e | ⟨_, e1, e2⟩
    · exact e.symm
    · rw [e1, e2, changes_off c1 hq]

end

/-! ### several calls -/

section
variable {C : Type} {call : C → Mem T → M (Mem T)} {Inv : Mem T → Prop} {A : C → Prop}

theorem inOrder_append {l1 l2 : List C} {m : Mem T} : Spec.inOrder call (l1 ++ l2) m = Spec.inOrder call l1 m >>= Spec.inOrder call l2 := by
  induction l1 generalizing m with
  | nil => rfl
  | cons c cs ih =>
    simp only [List.cons_append, Spec.inOrder]
    rcases call c m with e | s
    · rfl
    · simp only [M.ok_bind]; exact ih

theorem anyOrder_of {l : List C} (hl : ∀ c ∈ l, ∀ m, Inv m → ∃ m', call c m = .ok m' ∧ Inv m')
    (hs : ∀ c ∈ l, ∀ d ∈ l, ∀ m m1 m2 n1 n2, Inv m → call c m = .ok m1 → call d m1 = .ok m2 → call d m = .ok n1 → call c n1 = .ok n2 → m2 = n2)
    (hr : ∀ c ∈ l, ∀ m m1 m2, Inv m → call c m = .ok m1 → call c m1 = .ok m2 → m2 = m1) {m : Mem T} (hm : Inv m) : Spec.AnyOrder call l m := by
  have run : ∀ k : List C, (∀ c ∈ k, c ∈ l) → ∀ m, Inv m → ∃ m', Spec.inOrder call k m = .ok m' ∧ Inv m' := by
    intro k
    induction k with
    | nil => intro _ m hm; exact ⟨m, rfl, hm⟩
    | cons c cs ih =>
      intro hk m hm
      obtain ⟨m1, e1, i1⟩ := hl c (hk c (by simp)) m hm
      obtain ⟨m2, e2, i2⟩ := ih (fun d hd => hk d (by simp [hd])) m1 i1
      exact ⟨m2, by simp only [Spec.inOrder, e1, M.ok_bind, e2], i2⟩
  have perm : ∀ k k' : List C, k.Perm k' → (∀ c ∈ k, c ∈ l) → ∀ m, Inv m → Spec.inOrder call k m = Spec.inOrder call k' m := by
    intro k k' hp
    induction hp with
    | nil => intro _ _ _; rfl
    | cons c p ih =>
      intro hk m hm
      obtain ⟨m1, e1, i1⟩ := hl c (hk c (by simp)) m hm
      simp only [Spec.inOrder, e1, M.ok_bind]
      exact ih (fun d hd => hk d (by simp [hd])) m1 i1
    | swap c d k =>
      intro hk m hm
      obtain ⟨m1, e1, i1⟩ := hl c (hk c (by simp)) m hm
      obtain ⟨m2, e2, i2⟩ := hl d (hk d (by simp)) m1 i1
      obtain ⟨n1, f1, j1⟩ := hl d (hk d (by simp)) m hm
      obtain ⟨n2, f2, j2⟩ := hl c (hk c (by simp)) n1 j1
      have := hs c (hk c (by simp)) d (hk d (by simp)) m m1 m2 n1 n2 hm e1 e2 f1 f2
      simp only [Spec.inOrder, e1, e2, f1, f2, M.ok_bind, this]
    | trans p1 p2 ih1 ih2 =>
      intro hk m hm
      rw [ih1 hk m hm, ih2 (fun c hc => hk c (p1.mem_iff.2 hc)) m hm]
  obtain ⟨m', e, hm'⟩ := run l (fun _ h => h) m hm
  refine ⟨m', fun l' hp => (perm l l' hp (fun _ h => h) m hm).symm.trans e, fun c hc => ?_⟩
  obtain ⟨s, t, rfl⟩ := List.append_of_mem hc
  have hp : (s ++ c :: t).Perm ((s ++ t) ++ [c]) := by
    rw [List.append_assoc]
    exact List.Perm.append_left s (List.perm_append_singleton c t).symm
  have e' := (perm _ _ hp (fun _ h => h) m hm).symm.trans e
  obtain ⟨m1, e1, i1⟩ := run (s ++ t) (fun d hd => by simp at hd ⊢; tauto) m hm
  rw [inOrder_append, e1, M.ok_bind] at e'
  obtain ⟨m2, e2, i2⟩ := hl c hc m1 i1
  simp only [Spec.inOrder, e2, M.ok_bind] at e'
  injection e' with e'
  subst e'
  obtain ⟨m3, e3, -⟩ := hl c hc m2 i2
  rw [e3, hr c hc m1 m2 m3 i1 e2 e3]

end

end Verif
