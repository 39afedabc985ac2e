import Verif.Spec.BlockEqn
import Verif.Model.Kernels.LapackSmooth
import Verif.Lemmas.SmoothRun
import Verif.Lemmas.Sums

/-
The smoothers that call LAPACK: whole columns read and written, the loop over the cells, and what is left unchanged.
-/

namespace Verif.F

section
variable {T : Type}

theorem vec_aux {X : Type} {e : Int → M X} {x : Int → X} : ∀ {l : List Int} {v : Int → X}, (∀ c ∈ l, e c = .ok (x c)) →
    l.foldlM (fun v c => do
      let x ← e c
      (.ok (fun d => if d = c then x else v d) : M (Int → X))) v = .ok fun d => if d ∈ l then x d else v d
  | [], v, _ => by simp [pure, Except.pure]
  | c :: l, v, h => by
    rw [List.foldlM_cons, h c List.mem_cons_self]
    simp only [M.ok_bind]
    rw [vec_aux (l := l) fun d hd => h d (List.mem_cons_of_mem _ hd)]
    congr 1
    funext d
    by_cases hd : d ∈ l
    · simp [hd]
    · by_cases e : d = c
      · simp [e]
      · simp [hd, e]

/-- the values read -/
def cut {X : Type} (z : X) (lo hi : Int) (x : Int → X) (d : Int) : X := if lo ≤ d ∧ d ≤ hi then x d else z

theorem cut_in {X : Type} {z : X} {lo hi : Int} {x : Int → X} {d : Int} (h : lo ≤ d) (h' : d ≤ hi) : cut z lo hi x d = x d := if_pos ⟨h, h'⟩

theorem vec_ok {X : Type} {z : X} {lo hi : Int} {e : Int → M X} {x : Int → X} (h : ∀ c, lo ≤ c → c ≤ hi → e c = .ok (x c)) :
    vec z lo hi e = .ok (cut z lo hi x) := by
  unfold vec
  rw [vec_aux (x := x) fun c hc => h c (mem_irange.1 hc).1 (mem_irange.1 hc).2]
  congr 1
  funext d
  simp only [cut, mem_irange]

/-- one column changed -/
def updCol (d : Int) (p : List Int) (v : Int → T) (W : List Int → T) : List Int → T
  | [] => W []
  | c :: q => if q = p ∧ 1 ≤ c ∧ c ≤ d then v c else W (c :: q)

variable [Add T] [Sub T] [Mul T] [Div T] [Neg T]

theorem setColumn_aux {a : Arr} {p : List Int} {v : Int → T} : ∀ {l : List Int} {m : Mem T} {W : List Int → T}, Holds m a W →
    (∀ c ∈ l, InBounds a.dims (c :: p)) →
    ∃ m', l.foldlM (fun m c => assign a (c :: p) (.const (v c)) m) m = .ok m' ∧ Only [a] m m' ∧
      Holds m' a fun q => match q with
        | [] => W []
        | c :: q => if q = p ∧ c ∈ l then v c else W (c :: q)
  | [], m, W, h, _ => ⟨m, rfl, Only.refl, h.congr fun is _ => by cases is <;> simp⟩
  | c :: l, m, W, h, hb => by
    have hc := hb c List.mem_cons_self
    have e : assign a (c :: p) (.const (v c)) m = .ok (put m a (c :: p) (v c)) := h.assign hc rfl
    obtain ⟨m', g1, g2, g3⟩ := setColumn_aux (l := l) (v := v) (holds_put (v := v c) hc h) fun d hd => hb d (List.mem_cons_of_mem _ hd)
    refine ⟨m', ?_, (only_put hc).trans g2, g3.congr fun is _ => ?_⟩
    · rw [List.foldlM_cons, e, M.ok_bind, g1]
    · cases is with
      | nil => simp [upd]
      | cons d q =>
        simp only [upd, List.cons.injEq, List.mem_cons]
        by_cases h1 : q = p
        · by_cases h2 : d ∈ l
          · simp [h1, h2]
          · by_cases h3 : d = c
            · simp [h1, h3]
            · simp [h1, h2, h3]
        · simp [h1]

theorem setColumn_ok [Zero T] [NatCast T] {a : Arr} {p : List Int} {v : Int → T} {d : Int} {m : Mem T} {W : List Int → T} (h : Holds m a W)
    (hb : ∀ c, 1 ≤ c → c ≤ d → InBounds a.dims (c :: p)) :
    ∃ m', setColumn a d p v m = .ok m' ∧ Only [a] m m' ∧ Holds m' a (updCol d p v W) := by
  obtain ⟨m', g1, g2, g3⟩ := setColumn_aux (l := irange 1 d) (v := v) h fun c hc => hb c (mem_irange.1 hc).1 (mem_irange.1 hc).2
  refine ⟨m', g1, g2, g3.congr fun is _ => ?_⟩
  cases is with
  | nil => rfl
  | cons c q => simp only [updCol, mem_irange]

theorem column_ok [Zero T] [NatCast T] {a : Arr} {p : List Int} {d : Int} {m : Mem T} {W : List Int → T} (h : Holds m a W)
    (hb : ∀ c, 1 ≤ c → c ≤ d → InBounds a.dims (c :: p)) : column a d p m = .ok (cut 0 1 d fun c => W (c :: p)) :=
  vec_ok fun c h1 h2 => h.ref (hb c h1 h2)

theorem couplings_ok [Zero T] [NatCast T] {a : Arr} {p : List Int} {d s : Int} {m : Mem T} {S : List Int → T} (h : Holds m a S)
    (hb : ∀ c e, 1 ≤ c → c ≤ d → 1 ≤ e → e ≤ d → InBounds a.dims (s :: ((e - 1) * d + c) :: p)) :
    couplings a d s p m = .ok (cut (fun _ => 0) 1 d fun c => cut 0 1 d fun e => coup d S s p c e) :=
  vec_ok fun c h1 h2 => vec_ok fun e h3 h4 => h.ref (hb c e h1 h2 h3 h4)

theorem updCol_in {d c : Int} {p : List Int} {v : Int → T} {W : List Int → T} (h1 : 1 ≤ c) (h2 : c ≤ d) : updCol d p v W (c :: p) = v c := by
  simp [updCol, h1, h2]

theorem updCol_twice {d : Int} {p : List Int} {v w : Int → T} {W : List Int → T} : updCol d p v (updCol d p w W) = updCol d p v W := by
  funext q
  cases q with
  | nil => rfl
  | cons c q =>
    simp only [updCol]
    split <;> rfl

theorem block4 {a b c e : Cmd T} {m m1 m2 m3 m4 : Mem T} (h1 : a m = .ok m1) (h2 : b m1 = .ok m2) (h3 : c m2 = .ok m3) (h4 : e m3 = .ok m4) :
    block [a, b, c, e] m = .ok m4 := by
  simp only [block, h1, h2, h3, h4, M.ok_bind]

end

section
variable {T : Type} [Field T]

variable {m m1 : Mem T} {box : List (Int × Int)} {n d : Int} {tab st f u r : Arr} {O : Int → List Int} {S B U V R : List Int → T} {p : List Int}

/-- the vector handed to LAPACK at a cell -/
def blkRhs (d : Int) (O : Int → List Int) (S B V : List Int → T) (p : List Int) (n : Int) (a : Int) : T :=
  B (a :: p) - sum 2 n fun s => coupled d O S V s p a

/-- the vector LAPACK leaves -/
def blkInc (solve : Lapack T) (n d : Int) (O : Int → List Int) (S B V : List Int → T) (p : List Int) : Int → T :=
  solve d (cut (fun _ => 0) 1 d fun c => cut 0 1 d fun e => coup d S 1 p c e) (cut 0 1 d (blkRhs d O S B V p n))

theorem BlockProblem.tab3 {o : Ptr} {b0 b1 b2 : Int × Int} (h : BlockProblem m [b0, b1, b2] n d (offsets o 3 n) st f u r O S B U) {s : Int} (h0 : 1 ≤ s)
    (h1 : s ≤ n) : ∃ a b c, O s = [a, b, c] ∧ ∀ m1 : Mem T, m1.ints = m.ints → intRef (offsets o 3 n) [1, s] m1 = .ok a ∧
      intRef (offsets o 3 n) [2, s] m1 = .ok b ∧ intRef (offsets o 3 n) [3, s] m1 = .ok c := by
  obtain ⟨hl, ht⟩ := h.table s h0 h1
  match e : O s, hl with
  | [a, b, c], _ => exact ⟨a, b, c, rfl, fun m1 hm => ⟨intRef_ok (ht 0 a (by simp [e])) hm, intRef_ok (ht 1 b (by simp [e])) hm, intRef_ok (ht 2 c (by simp [e])) hm⟩⟩

theorem sum_upto {lo hi : Int} {g : Int → T} (h : lo ≤ hi + 1) : sum lo (hi + 1) g = sum lo hi g + g (hi + 1) := by
  unfold sum irange
  obtain ⟨k, hk⟩ : ∃ k : Nat, hi + 1 = lo + k := ⟨(hi + 1 - lo).toNat, by omega⟩
  rw [show (hi + 1 - lo + 1).toNat = k + 1 by omega, show (hi - lo + 1).toNat = k by omega, List.range_succ, hk]
  simp

/-- the loop over the table -/
theorem blk_loop {o : Ptr} {b0 b1 b2 : Int × Int} {i j k : Int} (h : BlockProblem m [b0, b1, b2] n d (offsets o 3 n) st f u r O S B U)
    (hp : InBounds [b0, b1, b2] [i, j, k]) (hU : Holds m1 u V) (ho : Only [u, r] m m1) (hR : Holds m1 r R)
    (hR0 : ∀ a, 1 ≤ a → a ≤ d → R (a :: [i, j, k]) = B (a :: [i, j, k])) (N : Nat) (hN : (N : Int) ≤ n - 1) :
    ∃ m2 R2, doLoop 2 (N + 1) (fun s m => do
        let io ← intRef (offsets o 3 n) [1, s] m
        let jo ← intRef (offsets o 3 n) [2, s] m
        let ko ← intRef (offsets o 3 n) [3, s] m
        let blk ← couplings st d s [i, j, k] m
        let x ← column r d [i, j, k] m
        let w ← column u d [i + io, j + jo, k + ko] m
        setColumn r d [i, j, k] (fun c => x c - matvec d blk w c) m) m1 = .ok m2 ∧ Holds m2 u V ∧ Only [u, r] m m2 ∧ Holds m2 r R2 ∧
      ∀ a, 1 ≤ a → a ≤ d → R2 (a :: [i, j, k]) = blkRhs d O S B V [i, j, k] (N + 1) a := by
  induction N with
  | zero =>
    refine ⟨m1, R, rfl, hU, ho, hR, fun a h1 h2 => ?_⟩
    rw [hR0 a h1 h2]
    simp [blkRhs, sum, irange]
  | succ N ih =>
    obtain ⟨m2, R2, g1, g2, g3, g4, g5⟩ := ih (by push_cast at hN; omega)
    push_cast at hN
    obtain ⟨a, b, c, e, g⟩ := h.tab3 (s := (N : Int) + 2) (by omega) (by omega)
    obtain ⟨t1, t2, t3⟩ := g m2 g3.ints
    have hs : Holds m2 st S := h.holdsSt.only g3 h.apartSt
    have k1 := couplings_ok (s := (N : Int) + 2) (p := [i, j, k]) (d := d) hs fun c e h1 h2 h3 h4 => h.inSt _ hp _ _ _ (by omega) (by omega) h1 h2 h3 h4
    have k2 := column_ok (p := [i, j, k]) (d := d) g4 fun c h1 h2 => h.inR _ hp c h1 h2
    have hsh : shift [i, j, k] (O ((N : Int) + 2)) = [i + a, j + b, k + c] := by rw [e]; rfl
    have k3 := column_ok (p := [i + a, j + b, k + c]) (d := d) g2 fun c' h1 h2 => by
      rw [← hsh]
      exact h.near _ hp _ _ (by omega) (by omega) h1 h2
    obtain ⟨m3, s1, s2, s3⟩ := setColumn_ok (p := [i, j, k]) (d := d) (v := fun x => cut 0 1 d (fun c => R2 (c :: [i, j, k])) x -
      matvec d (cut (fun _ => 0) 1 d fun c => cut 0 1 d fun e => coup d S ((N : Int) + 2) [i, j, k] c e) (cut 0 1 d fun c' => V (c' :: [i + a, j + b, k + c])) x) g4
      fun c h1 h2 => h.inR _ hp c h1 h2
    refine ⟨m3, _, ?_, g2.only s2 (by simpa using h.apartU), g3.trans (s2.mono (by simp)), s3, fun x h1 h2 => ?_⟩
    · unfold doLoop at g1 ⊢
      have : irange 2 ((((N + 1 : Nat) : Int)) + 1) = irange 2 ((N : Int) + 1) ++ [(N : Int) + 2] := by
        unfold irange
        rw [show (((N + 1 : Nat) : Int) + 1 - 2 + 1).toNat = N + 1 by omega, show ((N : Int) + 1 - 2 + 1).toNat = N by omega, List.range_succ]
        simp only [List.map_append, List.map_cons, List.map_nil]
        congr 2
        omega
      rw [this, foldlM_append', g1, M.ok_bind]
      simp only [List.foldlM_cons, List.foldlM_nil, t1, t2, t3, k1, k2, k3, M.ok_bind, s1]
      rfl
    · rw [updCol_in h1 h2, cut_in h1 h2, g5 x h1 h2]
      unfold blkRhs
      rw [show (((N + 1 : Nat) : Int) + 1) = ((N : Int) + 1) + 1 by omega, sum_upto (hi := (N : Int) + 1) (by omega), show ((N : Int) + 1) + 1 = (N : Int) + 2 by omega]
      have : matvec d (cut (fun _ => 0) 1 d fun c => cut 0 1 d fun e => coup d S ((N : Int) + 2) [i, j, k] c e) (cut 0 1 d fun c' => V (c' :: [i + a, j + b, k + c])) x =
          coupled d O S V ((N : Int) + 2) [i, j, k] x := by
        unfold matvec coupled
        refine sum_congr fun y h3 h4 => ?_
        rw [cut_in h1 h2, cut_in h3 h4, cut_in h3 h4, hsh]
      rw [this]
      ring

theorem cut_congr {X : Type} {z : X} {lo hi : Int} {x y : Int → X} (h : ∀ c, lo ≤ c → c ≤ hi → x c = y c) : cut z lo hi x = cut z lo hi y := by
  funext c
  unfold cut
  split
  · rename_i hc; exact h c hc.1 hc.2
  · rfl

/-- one cell -/
theorem blk_cell {solve : Lapack T} {o : Ptr} {b0 b1 b2 : Int × Int} {i j k : Int} (h : BlockProblem m [b0, b1, b2] n d (offsets o 3 n) st f u r O S B U)
    (hp : InBounds [b0, b1, b2] [i, j, k]) (hU : Holds m1 u V) (ho : Only [u, r] m m1) (hR : Holds m1 r R) :
    ∃ m2 R2, ccellblk solve (offsets o 3 n) st f u r n d i j k m1 = .ok m2 ∧
      Holds m2 u (updCol d [i, j, k] (fun c => V (c :: [i, j, k]) + blkInc solve n d O S B V [i, j, k] c) V) ∧ Only [u, r] m m2 ∧ Holds m2 r R2 := by
  have inR := fun c h1 h2 => h.inR _ hp c h1 h2
  have inU := fun c h1 h2 => h.inU _ hp c h1 h2
  have hf : Holds m1 f B := h.holdsB.only ho h.apartF
  -- r = f
  have a1 := column_ok (p := [i, j, k]) (d := d) hf fun c h1 h2 => h.inF _ hp c h1 h2
  obtain ⟨m2, b1', b2', b3⟩ := setColumn_ok (p := [i, j, k]) (d := d) (v := cut 0 1 d fun c => B (c :: [i, j, k])) hR inR
  have o2 : Only [u, r] m m2 := ho.trans (b2'.mono (by simp))
  have u2 : Holds m2 u V := hU.only b2' (by simpa using h.apartU)
  -- the loop
  obtain ⟨m3, R3, c1, u3, o3, c4, c5⟩ := blk_loop h hp u2 o2 b3 (fun a h1 h2 => by rw [updCol_in h1 h2, cut_in h1 h2]) (n - 1).toNat (by have := h.size; omega)
  have en : ((n - 1).toNat : Int) + 1 = n := by have := h.size; omega
  rw [en] at c1 c5
  -- the solve
  have hs : Holds m3 st S := h.holdsSt.only o3 h.apartSt
  have d1 := couplings_ok (s := 1) (p := [i, j, k]) (d := d) hs fun c e h1 h2 h3 h4 => h.inSt _ hp _ _ _ (by omega) h.size h1 h2 h3 h4
  have d2 := column_ok (p := [i, j, k]) (d := d) c4 inR
  rw [cut_congr (y := blkRhs d O S B V [i, j, k] n) c5] at d2
  obtain ⟨m4, e1, e2, e3⟩ := setColumn_ok (p := [i, j, k]) (d := d) (v := blkInc solve n d O S B V [i, j, k]) c4 inR
  have o4 : Only [u, r] m m4 := o3.trans (e2.mono (by simp))
  have u4 : Holds m4 u V := u3.only e2 (by simpa using h.apartU)
  -- the addition
  have f1 := column_ok (p := [i, j, k]) (d := d) u4 inU
  have f2 := column_ok (p := [i, j, k]) (d := d) e3 inR
  obtain ⟨m5, g1, g2, g3⟩ := setColumn_ok (p := [i, j, k]) (d := d) (v := fun c => cut 0 1 d (fun c => V (c :: [i, j, k])) c +
    cut 0 1 d (fun c => updCol d [i, j, k] (blkInc solve n d O S B V [i, j, k]) R3 (c :: [i, j, k])) c) u4 inU
  have o5 : Only [u, r] m m5 := o4.trans (g2.mono (by simp))
  have hru : Apart u r := fun is js hi hj => (h.apartU js is hj hi).symm
  refine ⟨m5, updCol d [i, j, k] (blkInc solve n d O S B V [i, j, k]) R3, block4 (m1 := m2) (m2 := m3) (m3 := m4) ?_ c1 ?_ ?_, g3.congr fun is _ => ?_, o5,
    e3.only g2 (by simpa using hru)⟩
  · simp only [a1, M.ok_bind, b1']
  · simp only [d1, d2, M.ok_bind]
    exact e1
  · simp only [f1, f2, M.ok_bind, g1]
  · cases is with
    | nil => rfl
    | cons c q =>
      simp only [updCol]
      split
      · rename_i hc
        rw [cut_in hc.2.1 hc.2.2, cut_in hc.2.1 hc.2.2, if_pos ⟨trivial, hc.2⟩]
      · rfl

/-! ### all cells -/

/-- the contents as one vector per cell, and back -/
def curry (W : List Int → T) : List Int → Int → T := fun p c => W (c :: p)
def flat (W : List Int → T) (X : List Int → Int → T) : List Int → T
  | [] => W []
  | c :: p => X p c

theorem sweepCol {u r : Arr} {c : List Int → Cmd T} {G : List Int → (List Int → T) → Int → T} {m0 : Mem T} : ∀ {l : List (List Int)} {m : Mem T}
    {X : List Int → Int → T} {R : List Int → T}, Holds m u (flat U X) → Holds m r R → Only [u, r] m0 m →
    (∀ p ∈ l, ∀ m1 V R, Holds m1 u V → Only [u, r] m0 m1 → Holds m1 r R →
      ∃ m2 R2, c p m1 = .ok m2 ∧ Holds m2 u (updCol d p (fun c => V (c :: p) + G p V c) V) ∧ Only [u, r] m0 m2 ∧ Holds m2 r R2) →
    ∃ m', runPts l c m = .ok m' ∧
      Holds m' u (flat U (swp (fun p X c => if 1 ≤ c ∧ c ≤ d then X p c + G p (flat U X) c else X p c) l X)) ∧ Only [u, r] m0 m'
  | [], m, X, R, h, _, ho, _ => ⟨m, rfl, h, ho⟩
  | p :: l, m, X, R, h, hR, ho, hc => by
    obtain ⟨m2, R2, g1, g2, g3, g4⟩ := hc p List.mem_cons_self m _ R h ho hR
    obtain ⟨m', k1, k2, k3⟩ := sweepCol (l := l) (X := upd X p fun c => if 1 ≤ c ∧ c ≤ d then X p c + G p (flat U X) c else X p c)
      (g2.congr fun is _ => by
        cases is with
        | nil => rfl
        | cons c q =>
          simp only [updCol, flat, upd]
          by_cases e : q = p
          · subst e
            simp
          · simp [e]) g4 g3 fun q hq => hc q (List.mem_cons_of_mem _ hq)
    refine ⟨m', ?_, k2, k3⟩
    simp only [runPts, List.foldlM_cons] at k1 ⊢
    rw [g1, M.ok_bind]
    exact k1

theorem solution_congr {A A' : Int → Int → T} {b b' x : Int → T} (hA : ∀ a c, 1 ≤ a → a ≤ d → 1 ≤ c → c ≤ d → A a c = A' a c)
    (hb : ∀ a, 1 ≤ a → a ≤ d → b a = b' a) (h : Solution d A b x) : Solution d A' b' x := fun a h1 h2 => by
  rw [← hb a h1 h2, ← h a h1 h2]
  exact sum_congr fun c h3 h4 => by rw [hA a c h1 h2 h3 h4]

theorem regular_congr {A A' : Int → Int → T} (hA : ∀ a c, 1 ≤ a → a ≤ d → 1 ≤ c → c ≤ d → A a c = A' a c) (h : Regular d A) : Regular d A' :=
  fun x hx => h x (solution_congr (fun a c h1 h2 h3 h4 => (hA a c h1 h2 h3 h4).symm) (fun _ _ _ => rfl) hx)

theorem cut_coup {s : Int} {a c : Int} (h1 : 1 ≤ a) (h2 : a ≤ d) (h3 : 1 ≤ c) (h4 : c ≤ d) :
    cut (fun _ => 0) 1 d (fun c => cut 0 1 d fun e => coup d S s p c e) a c = coup d S s p a c := by
  rw [cut_in h1 h2, cut_in h3 h4]

theorem blk_swept {solve : Lapack T} (hsolve : Solves solve) {l : List (List Int)} (hl : ∀ p, p ∈ l ↔ InBounds box p) (ho : l.Pairwise Before) {X : List Int → Int → T}
    (hX : X = swp (fun (p : List Int) (X : List Int → Int → T) (c : Int) => if 1 ≤ c ∧ c ≤ d then X p c + blkInc solve n d O S B (flat U X) p c else X p c) l (curry U)) :
    Added box n d O S B U (flat U X) := by
  constructor
  · intro q hq
    cases q with
    | nil => rfl
    | cons c q =>
      show X q c = U (c :: q)
      by_cases hm : q ∈ l
      · obtain ⟨V, v1, -, v3⟩ := swp_mem (G := fun (p : List Int) (X : List Int → Int → T) (c : Int) => if 1 ≤ c ∧ c ≤ d then X p c + blkInc solve n d O S B (flat U X) p c else X p c)
          (W := curry U) ho before_asymm hm
        rw [hX, v1]
        show (if 1 ≤ c ∧ c ≤ d then _ else _) = _
        rw [if_neg fun hc => hq ⟨c, q, rfl, hc.1, hc.2, (hl q).1 hm⟩, v3 q fun hh => before_asymm _ _ hh.2 hh.2]
        rfl
      · rw [hX, swp_not_mem hm]
        rfl
  · intro p hp
    have hm := (hl p).2 hp
    obtain ⟨V, v1, v2, v3⟩ := swp_mem (G := fun (p : List Int) (X : List Int → Int → T) (c : Int) => if 1 ≤ c ∧ c ≤ d then X p c + blkInc solve n d O S B (flat U X) p c else X p c)
      (W := curry U) ho before_asymm hm
    rw [← hX] at v1 v2
    have hp0 : V p = curry U p := v3 p fun hh => before_asymm _ _ hh.2 hh.2
    refine ⟨blkInc solve n d O S B (flat U V) p, fun a h1 h2 => ?_, fun hreg => ?_⟩
    · show X p a = _
      rw [v1]
      show (if 1 ≤ a ∧ a ≤ d then _ else _) = _
      rw [if_pos ⟨h1, h2⟩, hp0]
      rfl
    · refine solution_congr (fun a c h1 h2 h3 h4 => cut_coup h1 h2 h3 h4) (fun a h1 h2 => ?_)
        (hsolve d _ _ (regular_congr (fun a c h1 h2 h3 h4 => (cut_coup h1 h2 h3 h4).symm) hreg))
      rw [cut_in h1 h2]
      unfold blkRhs
      congr 1
      refine sum_congr fun s _ _ => sum_congr fun b _ _ => ?_
      congr 1
      show V (shift p (O s)) b = if InBounds box (shift p (O s)) ∧ Before (shift p (O s)) p then X (shift p (O s)) b else U (b :: shift p (O s))
      split
      · rename_i hq
        rw [v2 _ ((hl _).2 hq.1) hq.2]
      · rename_i hq
        rw [v3 _ fun hh => hq ⟨(hl _).1 hh.1, hh.2⟩]
        rfl

/-- what is left unchanged -/
theorem added_fixed {U' : List Int → T} (hreg : ∀ p, InBounds box p → Regular d (coup d S 1 p)) {l : List (List Int)} (hP : ∀ p, p ∈ l ↔ InBounds box p)
    (hl : l.Pairwise Before) (h : Added box n d O S B U U') :
    U' = U ↔ ∀ p, InBounds box p → ∀ a, 1 ≤ a → a ≤ d → sum 2 n (fun s => coupled d O S U s p a) = B (a :: p) := by
  constructor
  · rintro rfl p hp a h1 h2
    obtain ⟨x, hx, hs⟩ := h.cell p hp
    have hs := hs (hreg p hp) a h1 h2
    have x0 : ∀ a, 1 ≤ a → a ≤ d → x a = 0 := fun a h1 h2 => by simpa using hx a h1 h2
    rw [show sum 1 d (fun c => coup d S 1 p a c * x c) = 0 from by
      rw [sum_congr (g := fun _ => (0 : T)) fun c h3 h4 => by rw [x0 c h3 h4, mul_zero]]
      simp [sum]] at hs
    simp only [ite_self] at hs
    exact (sub_eq_zero.1 hs.symm).symm
  · intro he
    have key : ∀ l1 l2 : List (List Int), l = l1 ++ l2 → ∀ p ∈ l1, ∀ a, U' (a :: p) = U (a :: p) := by
      intro l1
      induction l1 using List.reverseRecOn with
      | nil => intro _ _ p hp; cases hp
      | append_singleton l1 a ih =>
        intro l2 e p hp
        have ih := ih (a :: l2) (by simpa using e)
        rcases List.mem_append.1 hp with hp | hp
        · exact ih p hp
        · rw [List.mem_singleton] at hp
          subst hp
          have hp : InBounds box p := (hP p).1 (by rw [e]; simp)
          obtain ⟨x, hx, hs⟩ := h.cell p hp
          have x0 := hreg p hp x (solution_congr (fun _ _ _ _ _ _ => rfl) (fun a h1 h2 => by
            rw [sub_eq_zero, ← he p hp a h1 h2]
            refine sum_congr fun s _ _ => sum_congr fun b _ _ => ?_
            congr 1
            show U (b :: shift p (O s)) = if InBounds box (shift p (O s)) ∧ Before (shift p (O s)) p then U' (b :: shift p (O s)) else U (b :: shift p (O s))
            split
            · rename_i hq
              refine (ih _ ?_ b).symm
              have hm := (hP _).2 hq.1
              rw [e] at hm hl
              rw [List.append_assoc, List.singleton_append, List.pairwise_append, List.pairwise_cons] at hl
              rw [List.append_assoc, List.singleton_append, List.mem_append, List.mem_cons] at hm
              rcases hm with hm | hm | hm
              · exact hm
              · rw [hm] at hq
                exact absurd hq.2 (before_asymm _ _ hq.2)
              · exact absurd hq.2 (before_asymm _ _ (hl.2.1.1 _ hm))
            · rfl) (hs (hreg p hp)))
          intro a
          by_cases ha : 1 ≤ a ∧ a ≤ d
          · rw [hx a ha.1 ha.2, x0 a ha.1 ha.2, add_zero]
          · refine h.other _ ?_
            rintro ⟨a', p', e', h1, h2, -⟩
            injection e' with e' _
            subst e'
            exact ha ⟨h1, h2⟩
    funext q
    by_cases hq : ∃ a p, q = a :: p ∧ 1 ≤ a ∧ a ≤ d ∧ InBounds box p
    · obtain ⟨a, p, rfl, -, -, hp⟩ := hq
      exact key l [] (by simp) p ((hP p).2 hp) a
    · exact h.other q hq

end

end Verif.F
