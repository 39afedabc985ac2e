import Verif.Model.Kernels.LapackSmooth
import Verif.Lemmas.SmoothRun

/-
Computations that end or leave an array, and loops with a body that always leaves one.
-/

namespace Verif.F

/-- ends, or leaves an array -/
def OrOob {X : Type} (x : M X) : Prop := (∃ v, x = .ok v) ∨ x = .error .oob

theorem orOob_ok {X : Type} {v : X} : OrOob (.ok v : M X) := .inl ⟨v, rfl⟩

theorem orOob_bind {X Y : Type} {x : M X} {f : X → M Y} (hx : OrOob x) (hf : ∀ v, OrOob (f v)) : OrOob (x >>= f) := by
  rcases hx with ⟨v, rfl⟩ | rfl
  · exact hf v
  · exact .inr rfl

theorem orOob_ite {X : Type} {x y : M X} {c : Prop} [Decidable c] (hx : OrOob x) (hy : OrOob y) : OrOob (if c then x else y) := by
  split <;> assumption

theorem orOob_foldlM {X A : Type} {f : X → A → M X} (h : ∀ a x, OrOob (f x a)) : ∀ {l : List A} {x : X}, OrOob (l.foldlM f x)
  | [], _ => orOob_ok
  | a :: l, x => by
    rw [List.foldlM_cons]
    exact orOob_bind (h a x) fun _ => orOob_foldlM h

/-- an element at which the body leaves an array -/
theorem foldlM_oob {X A : Type} {f : X → A → M X} (h : ∀ a x, OrOob (f x a)) {a : A} (ha : ∀ x, f x a = .error .oob) : ∀ {l : List A} {x : X}, a ∈ l →
    l.foldlM f x = .error .oob
  | b :: l, x, hm => by
    rw [List.foldlM_cons]
    rcases List.mem_cons.1 hm with rfl | hm
    · rw [ha]; rfl
    · rcases h b x with ⟨v, e⟩ | e
      · rw [e, M.ok_bind]; exact foldlM_oob h ha hm
      · rw [e]; rfl

variable {T : Type}

theorem orOob_addr {a : Arr} {is : List Int} : OrOob (a.addr is) := orOob_ite orOob_ok (.inr rfl)

theorem orOob_load {m : Mem T} {q : Ptr} : OrOob (m.load q) := by
  unfold Mem.load
  split
  · exact orOob_ok
  · exact .inr rfl

theorem orOob_store {m : Mem T} {q : Ptr} {v : T} : OrOob (m.store q v) := by
  unfold Mem.store
  split
  · exact orOob_ok
  · exact .inr rfl

theorem orOob_intRef {a : Arr} {is : List Int} {m : Mem T} : OrOob (intRef a is m) := orOob_bind orOob_addr fun q => by
  unfold Mem.loadInt
  split
  · exact orOob_ok
  · exact .inr rfl

theorem intRef_oob {a : Arr} {is : List Int} {m : Mem T} (h : ¬ InBounds a.dims is) : intRef a is m = .error .oob := by
  unfold intRef Arr.addr
  rw [if_neg h]
  rfl

theorem orOob_vec {X : Type} {z : X} {lo hi : Int} {e : Int → M X} (h : ∀ c, OrOob (e c)) : OrOob (vec z lo hi e) :=
  orOob_foldlM fun c _ => orOob_bind (h c) fun _ => orOob_ok

variable [Add T] [Sub T] [Mul T] [Div T] [Neg T]

theorem orOob_eval {m : Mem T} : ∀ {e : Expr T}, OrOob (e.eval m)
  | .const _ => orOob_ok
  | .ref _ _ => orOob_bind orOob_addr fun _ => orOob_load
  | .neg _ => orOob_bind orOob_eval fun _ => orOob_ok
  | .add _ _ => orOob_bind orOob_eval fun _ => orOob_bind orOob_eval fun _ => orOob_ok
  | .sub _ _ => orOob_bind orOob_eval fun _ => orOob_bind orOob_eval fun _ => orOob_ok
  | .mul _ _ => orOob_bind orOob_eval fun _ => orOob_bind orOob_eval fun _ => orOob_ok
  | .div _ _ => orOob_bind orOob_eval fun _ => orOob_bind orOob_eval fun _ => orOob_ok

theorem orOob_assign {m : Mem T} {a : Arr} {is : List Int} {e : Expr T} : OrOob (assign a is e m) :=
  orOob_bind orOob_eval fun _ => orOob_bind orOob_addr fun _ => orOob_store

variable [Zero T] [NatCast T]

theorem orOob_vec3 {nx ny nz : Int} {e : Int → Int → Int → M T} (h : ∀ a b c, OrOob (e a b c)) : OrOob (vec3 nx ny nz e) :=
  orOob_vec fun _ => orOob_vec fun _ => orOob_vec fun _ => h _ _ _

/-- the loop over the table in `creatematrix` leaves the table -/
theorem creatematrix_oob {A : Int → Int → T} {n bx bY bz : Int} {st : List Int → T} {o : Ptr} {m : Mem T} (hn : 1 ≤ n) (hx : 1 ≤ bx) (hy : 1 ≤ bY)
    (hz : 1 ≤ bz) : creatematrix A n st (offset0 o 3 n) bx bY bz m = .error .oob := by
  unfold creatematrix
  have body : ∀ (A : Int → Int → T) (i j k s : Int), OrOob (do
      let o0 ← intRef (offset0 o 3 n) [0, s] m
      let o1 ← intRef (offset0 o 3 n) [1, s] m
      let o2 ← intRef (offset0 o 3 n) [2, s] m
      let ix := i + o0
      let iy := j + o1
      let iz := k + o2
      if ix ≥ 0 ∧ ix < bx ∧ iy ≥ 0 ∧ iy < bY ∧ iz ≥ 0 ∧ iz < bz then do
        let idxr := iz * bY * bx + iy * bx + ix
        let v ← (if InBounds [(0, n - 1), (0, bx - 1), (0, bY - 1), (0, bz - 1)] [s, i, j, k] then .ok (st [s, i, j, k]) else .error .oob : M T)
        (if InBounds [(0, bx * bY * bz - 1), (0, bx * bY * bz - 1)] [k * bY * bx + j * bx + i, idxr] then
          .ok (fun x y => if x = k * bY * bx + j * bx + i ∧ y = idxr then v else A x y) else .error .oob : M (Int → Int → T))
      else .ok A) := fun A i j k s =>
    orOob_bind orOob_intRef fun _ => orOob_bind orOob_intRef fun _ => orOob_bind orOob_intRef fun _ =>
      orOob_ite (orOob_bind (orOob_ite orOob_ok (.inr rfl)) fun _ => orOob_ite orOob_ok (.inr rfl)) orOob_ok
  have cell : ∀ (A : Int → Int → T) (i j k : Int), OrOob (do
      let v ← (if InBounds [(0, n - 1), (0, bx - 1), (0, bY - 1), (0, bz - 1)] [0, i, j, k] then .ok (st [0, i, j, k]) else .error .oob : M T)
      let A ← (if InBounds [(0, bx * bY * bz - 1), (0, bx * bY * bz - 1)] [k * bY * bx + j * bx + i, k * bY * bx + j * bx + i] then
          .ok (fun x y => if x = k * bY * bx + j * bx + i ∧ y = k * bY * bx + j * bx + i then v else A x y) else .error .oob : M (Int → Int → T))
      (irange 1 n).foldlM (fun A s => do
        let o0 ← intRef (offset0 o 3 n) [0, s] m
        let o1 ← intRef (offset0 o 3 n) [1, s] m
        let o2 ← intRef (offset0 o 3 n) [2, s] m
        let ix := i + o0
        let iy := j + o1
        let iz := k + o2
        if ix ≥ 0 ∧ ix < bx ∧ iy ≥ 0 ∧ iy < bY ∧ iz ≥ 0 ∧ iz < bz then do
          let idxr := iz * bY * bx + iy * bx + ix
          let v ← (if InBounds [(0, n - 1), (0, bx - 1), (0, bY - 1), (0, bz - 1)] [s, i, j, k] then .ok (st [s, i, j, k]) else .error .oob : M T)
          (if InBounds [(0, bx * bY * bz - 1), (0, bx * bY * bz - 1)] [k * bY * bx + j * bx + i, idxr] then
            .ok (fun x y => if x = k * bY * bx + j * bx + i ∧ y = idxr then v else A x y) else .error .oob : M (Int → Int → T))
        else .ok A) A) := fun A i j k =>
    orOob_bind (orOob_ite orOob_ok (.inr rfl)) fun _ => orOob_bind (orOob_ite orOob_ok (.inr rfl)) fun A => orOob_foldlM fun s A => body A i j k s
  have zx : (0 : Int) ∈ irange 0 (bx - 1) := mem_irange.2 (by omega)
  have zy : (0 : Int) ∈ irange 0 (bY - 1) := mem_irange.2 (by omega)
  have zz : (0 : Int) ∈ irange 0 (bz - 1) := mem_irange.2 (by omega)
  have last : n ∈ irange 1 n := mem_irange.2 (by omega)
  refine foldlM_oob (fun k A => orOob_foldlM fun j A => orOob_foldlM fun i A => cell A i j k) (fun A => ?_) zz
  refine foldlM_oob (fun j A => orOob_foldlM fun i A => cell A i j 0) (fun A => ?_) zy
  refine foldlM_oob (fun i A => cell A i 0 0) (fun A => ?_) zx
  have hl : ∀ A : Int → Int → T, (irange 1 n).foldlM (fun A s => do
        let o0 ← intRef (offset0 o 3 n) [0, s] m
        let o1 ← intRef (offset0 o 3 n) [1, s] m
        let o2 ← intRef (offset0 o 3 n) [2, s] m
        let ix := 0 + o0
        let iy := 0 + o1
        let iz := 0 + o2
        if ix ≥ 0 ∧ ix < bx ∧ iy ≥ 0 ∧ iy < bY ∧ iz ≥ 0 ∧ iz < bz then do
          let idxr := iz * bY * bx + iy * bx + ix
          let v ← (if InBounds [(0, n - 1), (0, bx - 1), (0, bY - 1), (0, bz - 1)] [s, 0, 0, 0] then .ok (st [s, 0, 0, 0]) else .error .oob : M T)
          (if InBounds [(0, bx * bY * bz - 1), (0, bx * bY * bz - 1)] [0 * bY * bx + 0 * bx + 0, idxr] then
            .ok (fun x y => if x = 0 * bY * bx + 0 * bx + 0 ∧ y = idxr then v else A x y) else .error .oob : M (Int → Int → T))
        else .ok A) A = .error .oob := fun A => foldlM_oob (fun s A => body A 0 0 0 s) (fun A => by
      rw [intRef_oob (by simp only [offset0, InBounds]; omega)]
      rfl) last
  rcases (orOob_ite orOob_ok (.inr rfl) : OrOob (if InBounds [(0, n - 1), (0, bx - 1), (0, bY - 1), (0, bz - 1)] [0, 0, 0, 0] then .ok (st [0, 0, 0, 0]) else .error .oob : M T)) with ⟨v, e⟩ | e
  · simp only [e, M.ok_bind]
    split
    · simp only [M.ok_bind]; exact hl _
    · rfl
  · simp only [e]; rfl

/-- every block -/
theorem cellblock_oob {solve : Lapack T} {st u r : Arr} {n bx bY bz i j k : Int} {o : Ptr} {w : T} {m : Mem T} (hn : 1 ≤ n) (hx : 1 ≤ bx) (hy : 1 ≤ bY)
    (hz : 1 ≤ bz) : cellblock solve (offset0 o 3 n) st u r n bx bY bz w i j k m = .error .oob := by
  unfold cellblock
  rcases orOob_vec3 (nx := bx) (ny := bY) (nz := bz) (e := fun a b c => (r.el [i + a, j + b, k + c]).eval m) fun _ _ _ => orOob_eval with ⟨v, e⟩ | e
  · rw [e, M.ok_bind]
    rcases orOob_vec (z := fun _ _ _ => (0 : T)) (lo := 0) (hi := n - 1)
      (e := fun s => vec3 bx bY bz fun a b c => (st.el [s, i + a, j + b, k + c]).eval m) fun _ => orOob_vec3 fun _ _ _ => orOob_eval with ⟨v, e⟩ | e
    · rw [e, M.ok_bind, creatematrix_oob hn hx hy hz]
      rfl
    · rw [e]; rfl
  · rw [e]; rfl

theorem orOob_doLoop {lo hi : Int} {body : Int → Cmd T} {m : Mem T} (h : ∀ i m, OrOob (body i m)) : OrOob (doLoop lo hi body m) :=
  orOob_foldlM fun i m => h i m

theorem orOob_block : ∀ {l : List (Cmd T)} {m : Mem T}, (∀ c ∈ l, ∀ m, OrOob (c m)) → OrOob (block l m)
  | [], _, _ => orOob_ok
  | c :: _, m, h => orOob_bind (h c List.mem_cons_self m) fun _ => orOob_block fun d hd => h d (List.mem_cons_of_mem _ hd)

/-- integers stay as they are -/
def KeepsInts (c : Cmd T) : Prop := ∀ m m', c m = .ok m' → m'.ints = m.ints

omit [Add T] [Sub T] [Mul T] [Div T] [Neg T] [Zero T] [NatCast T] in
theorem keeps_foldlM {A : Type} {f : Mem T → A → M (Mem T)} (h : ∀ a m m', f m a = .ok m' → m'.ints = m.ints) : ∀ {l : List A} {m m' : Mem T},
    l.foldlM f m = .ok m' → m'.ints = m.ints
  | [], _, _, e => by cases e; rfl
  | a :: l, m, m', e => by
    rw [List.foldlM_cons] at e
    cases e1 : f m a with
    | error x => rw [e1] at e; cases e
    | ok m1 =>
      rw [e1, M.ok_bind] at e
      exact (keeps_foldlM h e).trans (h a m m1 e1)

omit [Add T] [Sub T] [Mul T] [Div T] [Neg T] [Zero T] [NatCast T] in
theorem keeps_doLoop {lo hi : Int} {body : Int → Cmd T} (h : ∀ i, KeepsInts (body i)) : KeepsInts (doLoop lo hi body) :=
  fun _ _ e => keeps_foldlM (fun i m m' => h i m m') e

omit [Add T] [Sub T] [Mul T] [Div T] [Neg T] [Zero T] [NatCast T] in
theorem keeps_block : ∀ {l : List (Cmd T)}, (∀ c ∈ l, KeepsInts c) → KeepsInts (block l)
  | [], _, m, m', e => by cases e; rfl
  | c :: l, h, m, m', e => by
    simp only [block] at e
    cases e1 : c m with
    | error x => rw [e1] at e; cases e
    | ok m1 =>
      rw [e1, M.ok_bind] at e
      exact (keeps_block (fun d hd => h d (List.mem_cons_of_mem _ hd)) m1 m' e).trans (h c List.mem_cons_self m m1 e1)

omit [Zero T] [NatCast T] in
theorem keeps_assign {a : Arr} {is : List Int} {e : Expr T} : KeepsInts (assign a is e) := fun m m' h => by
  unfold assign at h
  cases e1 : e.eval m with
  | error x => rw [e1] at h; cases h
  | ok v =>
    rw [e1, M.ok_bind] at h
    cases e2 : a.addr is with
    | error x => rw [e2] at h; cases h
    | ok q =>
      rw [e2, M.ok_bind] at h
      unfold Mem.store at h
      split at h
      · cases h; rfl
      · cases h

omit [Add T] [Sub T] [Mul T] [Div T] [Neg T] [Zero T] [NatCast T] in
theorem keeps_bind {X : Type} {x : Mem T → M X} {f : X → Cmd T} (h : ∀ v, KeepsInts (f v)) : KeepsInts (fun m => x m >>= fun v => f v m) := fun m m' e => by
  cases e1 : x m with
  | error y => simp only [e1] at e; cases e
  | ok v =>
    simp only [e1, M.ok_bind] at e
    exact h v m m' e

theorem first_srange {lo hi st : Int} (h : lo ≤ hi) (hs : 1 ≤ st) : ∃ l, srange lo hi st = lo :: l := by
  unfold srange
  rw [Int.tdiv_eq_ediv_of_nonneg (by omega)]
  have : 1 ≤ (hi - lo + st) / st := by
    rw [Int.le_ediv_iff_mul_le (by omega)]
    omega
  obtain ⟨k, hk⟩ : ∃ k : Nat, ((hi - lo + st) / st).toNat = k + 1 := ⟨((hi - lo + st) / st).toNat - 1, by omega⟩
  rw [hk, List.range_succ_eq_map]
  exact ⟨_, by rw [List.map_cons]; congr 1; simp⟩

omit [Add T] [Sub T] [Mul T] [Div T] [Neg T] [Zero T] [NatCast T] in
theorem doStep_oob {lo hi st : Int} {body : Int → Cmd T} {m : Mem T} (h : lo ≤ hi) (hs : 1 ≤ st) (hb : body lo m = .error .oob) :
    doStep lo hi st body m = .error .oob := by
  obtain ⟨l, e⟩ := first_srange h hs
  unfold doStep
  rw [e, List.foldlM_cons, hb]
  rfl

end Verif.F
