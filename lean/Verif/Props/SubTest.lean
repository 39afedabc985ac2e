import Verif.Props.FsTest

/-
C99: the test kernels of the submatrix iterator.
C100: the test kernel of the transpose iterator.
-/

namespace Verif
open Spec

variable {T : Type}

theorem zipWith_eq_map {f : Int → Int → Int} {a b : List Int} {n : Nat} (ha : a.length = n) (hb : b.length = n) :
    List.zipWith f a b = (List.range n).map fun i => f (a.getD i 0) (b.getD i 0) := by
  apply List.ext_getElem
  · simp [ha, hb]
  · intro i h1 h2
    have h3 : i < n := by simpa using h2
    simp [ha, hb, h3]

theorem prodFrom_ok : ∀ {l : List Int}, l ≠ [] → Pos l → l.prod ≤ 2147483647 → prodFrom l = .ok l.prod
  | [], h, _, _ => (h rfl).elim
  | s :: ss, _, hp, hN => by
    have := hp.head
    rw [prodFrom, prodLoop_ok (by omega) hp.tail (by simpa using hN)]
    simp

theorem getD_one {sz : List Int} {i : Nat} (hi : i < sz.length) : (sz.map fun _ => (1 : Int)).getD i 0 = 1 := by simp [hi]

/-- the view on a box with stride one: its elements and where they are -/
theorem submatrix_view {it : Ptr} {sz lb ub : List Int} (h : SubBox sz lb ub (sz.map fun _ => 1)) :
    ∃ s, makeSubmatrix it sz lb ub (sz.map fun _ => 1) = .ok s ∧ s.IsBegin ∧ s.n = List.zipWith (fun l u => u - l + 1) lb ub ∧ Pos s.n ∧ s.n.prod ≤ 2147483647 ∧
      (∀ k, 0 ≤ k → k < s.n.prod → (s.at_ k).addr = .ok (it.add (rowMajor sz (List.zipWith (· + ·) lb (coords s.n k)))) ∧
        InBox sz (List.zipWith (· + ·) lb (coords s.n k))) ∧
      (∀ k l, 0 ≤ k → k < s.n.prod → 0 ≤ l → l < s.n.prod →
        List.zipWith (· + ·) lb (coords s.n k) = List.zipWith (· + ·) lb (coords s.n l) → k = l) ∧
      ∀ x, InBox sz x → (∀ i, i < sz.length → lb.getD i 0 ≤ x.getD i 0 ∧ x.getD i 0 ≤ ub.getD i 0) →
        InBox s.n (List.zipWith (· - ·) x lb) ∧ List.zipWith (· + ·) lb (List.zipWith (· - ·) x lb) = x := by
  obtain ⟨s, es, hb, hn, hk⟩ := C05_submatrix (it := it) h
  have hl : s.n.length = sz.length := by simp [hn]
  have hn' : s.n = (List.range sz.length).map fun i => ub.getD i 0 - lb.getD i 0 + 1 := by
    rw [hn]
    refine List.map_congr_left fun i hi => ?_
    rw [getD_one (List.mem_range.1 hi), Int.ediv_one]
  have hz : ∀ k, List.zipWith (· + ·) lb (coords s.n k) = (List.range sz.length).map fun i => lb.getD i 0 + (coords s.n k).getD i 0 := fun k =>
    zipWith_eq_map h.ll (by rw [coords_length, hl])
  have hz' : ∀ k, ((List.range sz.length).map fun i => lb.getD i 0 + (sz.map fun _ => (1 : Int)).getD i 0 * (coords s.n k).getD i 0) =
      List.zipWith (· + ·) lb (coords s.n k) := fun k => by
    rw [hz]
    refine List.map_congr_left fun i hi => ?_
    rw [getD_one (List.mem_range.1 hi), one_mul]
  have hp : Pos s.n := hb.pos
  refine ⟨s, es, hb, by rw [hn', zipWith_eq_map h.ll h.lu], hp, ?_, fun k h0 h1 => ?_, fun k l k0 k1 l0 l1 e => ?_, fun x hx hlu => ?_⟩
  · have := hb.toWF.lt
    omega
  · obtain ⟨r, er, ha, hi, -⟩ := hk k h0 h1
    have e2 := MT.adv_at hb.toWF (le_refl 0) (by omega) (show 0 ≤ 0 + k by omega) (by omega)
    rw [zero_add, ← hb.eq_at, er] at e2
    injection e2 with e2
    rw [hz'] at ha hi
    rw [← e2]
    exact ⟨ha, hi⟩
  · rw [hz, hz] at e
    have : coords s.n k = coords s.n l := by
      rw [eq_map_getD (coords s.n k) (by rw [coords_length, hl]), eq_map_getD (coords s.n l) (by rw [coords_length, hl])]
      refine List.map_congr_left fun i hi => ?_
      have := List.map_inj_left.1 e i hi
      omega
    rw [← rowMajor_coords hp k0 k1, ← rowMajor_coords hp l0 l1, this]
  · have hxl : x.length = sz.length := hx.length_eq.symm
    rw [zipWith_eq_map hxl h.ll]
    constructor
    · rw [hn', InBox_map]
      intro i hi
      have := hlu i (List.mem_range.1 hi)
      omega
    · rw [zipWith_eq_map h.ll (by simp)]
      conv_rhs => rw [eq_map_getD x hxl]
      refine List.map_congr_left fun i hi => ?_
      rw [getD_map_range (List.mem_range.1 hi)]
      omega

/-- `tabulate`: an element of the box `lb..ub` gets minus its row-major number within the box; the rest of the array, and everything else, is as before. -/
theorem C99_tabulate [Neg T] [IntCast T] {sz lb ub : List Int} {v : Ptr} {b : Nat} {β : Backend} {m : Mem T} (hβ : ValidBackend β)
    (h : SubBox sz lb ub (sz.map fun _ => 1)) (hv : Cells m v sz.prod) (hb : Unused m b) :
    ∃ m', Cuda.subTabulate sz lb ub v b β m = .ok m' ∧
      (∀ x, InBox sz x → (∀ i, i < sz.length → lb.getD i 0 ≤ x.getD i 0 ∧ x.getD i 0 ≤ ub.getD i 0) →
        m'.val (v.add (rowMajor sz x)) = some (-((rowMajor (List.zipWith (fun l u => u - l + 1) lb ub) (List.zipWith (· - ·) x lb) : Int) : T))) ∧
      ∀ q, (∀ x, InBox sz x → (∀ i, i < sz.length → lb.getD i 0 ≤ x.getD i 0 ∧ x.getD i 0 ≤ ub.getD i 0) → q ≠ v.add (rowMajor sz x)) →
        m'.val q = m.val q := by
  obtain ⟨s, es, hbg, hn, hp, hN, hadr, hinj, hin⟩ := submatrix_view (it := ⟨b, 0⟩) h
  have hP := hp.prod_pos
  have hvb : v.blk ≠ b := hb.ne h.pos.prod_pos hv
  have within : ∀ k, 0 ≤ k → k < s.n.prod → ∀ i, i < sz.length →
      lb.getD i 0 ≤ (List.zipWith (· + ·) lb (coords s.n k)).getD i 0 ∧ (List.zipWith (· + ·) lb (coords s.n k)).getD i 0 ≤ ub.getD i 0 := by
    intro k h0 h1 i hi
    have hl : s.n.length = sz.length := by rw [hn]; simp [h.ll, h.lu]
    rw [zipWith_eq_map h.ll (by rw [coords_length, hl]), getD_map_range hi]
    have hc := coords_inBox hp h0 h1
    have hcl : (coords s.n k).length = sz.length := by rw [coords_length, hl]
    generalize coords s.n k = c at hc hcl ⊢
    rw [hn, zipWith_eq_map h.ll h.lu, eq_map_getD c hcl] at hc
    have := InBox_map.1 hc i (List.mem_range.2 hi)
    omega
  obtain ⟨m1, e1, i1, c1, f1⟩ := fromHost_ok (b := b) hv
  let adr : Int → Ptr := fun k => (⟨b, 0⟩ : Ptr).add (rowMajor sz (List.zipWith (· + ·) lb (coords s.n k)))
  have hadrb : ∀ k, adr k = ⟨b, rowMajor sz (List.zipWith (· + ·) lb (coords s.n k))⟩ := fun k => by simp [adr, Ptr.add]
  obtain ⟨m2, e2, i2, c2, f2⟩ := walk_run (m := m1) (out := s.at_) (adr := adr) (rd := fun k _ => .ok (-((k : Int) : T))) (x := fun k => -((k : Int) : T))
    (R := fun _ _ => False) hN (hβ s.n.prod 2) hbg.fwalk (fun k h0 h1 => (hadr k h0 h1).1)
    (fun k l k0 k1 l0 l1 e => hinj k l k0 k1 l0 l1 (rowMajor_inj (hadr k k0 k1).2 (hadr l l0 l1).2 (ptr_add_eq.1 e)))
    (fun k h0 h1 => by
      have hi := (hadr k h0 h1).2
      rw [hadrb, c1 _ (rowMajor_nonneg hi) (rowMajor_lt hi)]
      exact hv _ (rowMajor_nonneg hi) (rowMajor_lt hi))
    (fun _ _ _ => rfl) (fun _ _ _ _ _ _ _ _ => rfl) (fun _ _ _ _ _ _ => id)
  have a2 : ∀ k, 0 ≤ k → k < sz.prod → ∃ a, m2.val ⟨b, k⟩ = some a := by
    intro k h0 h1
    by_cases hk : ∃ l, 0 ≤ l ∧ l < s.n.prod ∧ adr l = ⟨b, k⟩
    · obtain ⟨l, l0, l1, e⟩ := hk
      exact ⟨_, by rw [← e]; exact c2 l l0 l1⟩
    · rw [f2 _ fun l l0 l1 e => hk ⟨l, l0, l1, e.symm⟩, c1 k h0 h1]
      exact hv k h0 h1
  obtain ⟨m3, e3, i3, c3, f3⟩ := toHost_ok (m := m2) (b := b) (n := sz.prod) (dst := v) hvb
    (fun k h0 h1 => by simpa [Ptr.add] using a2 k h0 h1)
    (fun k h0 h1 => by
      rw [f2 _ fun l _ _ e => hvb (by have := congrArg Ptr.blk e; simpa [hadrb, Ptr.add] using this), f1 (v.add k) hvb]
      exact hv k h0 h1)
  refine ⟨m3.free b, ?_, fun x hx hlu => ?_, fun q hq => ?_⟩
  · have k1 : prodFrom sz = .ok sz.prod := prodFrom_ok h.ne h.pos h.fits
    have k2 : ((List.range sz.length).mapM fun i => do
        let u ← get ub i
        let l ← get lb i
        let d ← isub u l
        iadd d 1) = .ok s.n := by
      rw [mapM_ok (g := fun i => ub.getD i 0 - lb.getD i 0 + 1)]
      · rw [hn, zipWith_eq_map h.ll h.lu]
      · intro i hi
        have hi := List.mem_range.1 hi
        obtain ⟨d1, d2, d3, d4, d5, -⟩ := h.dims i hi
        rw [getD_one hi] at d5
        rw [get_ok (by rw [h.lu]; exact hi), get_ok (by rw [h.ll]; exact hi)]
        simp only [M.ok_bind]
        rw [isub_ok (by unfold InInt; omega), M.ok_bind, iadd_ok (by unfold InInt; omega)]
    have k3 : prodFrom s.n = .ok s.n.prod := prodFrom_ok (by
      intro e
      have : s.n.length = 0 := by rw [e]; rfl
      rw [hn, zipWith_eq_map h.ll h.lu] at this
      have h3 := List.length_pos_iff.2 h.ne
      simp only [List.length_map, List.length_range] at this
      omega) hp hN
    have k4 : s.adv s.n.prod = .ok (s.at_ s.n.prod) := by
      have := MT.adv_at hbg.toWF (le_refl 0) (by omega) (show 0 ≤ 0 + s.n.prod by omega) (by omega)
      rwa [zero_add, ← hbg.eq_at] at this
    have k5 : s.distTo (s.at_ s.n.prod) = .ok s.n.prod := by
      have := MT.distTo_at hbg.toWF (le_refl 0) (by omega) (show 0 ≤ s.n.prod by omega) (le_refl _)
      rwa [sub_zero, ← hbg.eq_at] at this
    rw [← hbg.eq_at] at e2
    simp only [Cuda.subTabulate, k1, k2, k3, es, M.ok_bind, e1, k4, k5, e2, e3]
  · obtain ⟨hi, he⟩ := hin x hx hlu
    have r0 := rowMajor_nonneg hi
    have r1 := rowMajor_lt hi
    have := c2 _ r0 r1
    rw [hadrb, coords_rowMajor hi, he] at this
    have n1 : (v.add (rowMajor sz x)).blk ≠ b := hvb
    simp only [Mem.free, n1, ↓reduceIte]
    rw [c3 _ (rowMajor_nonneg hx) (rowMajor_lt hx), this, hn]
  · refine Mem.free_unused hb fun qb => ?_
    by_cases hk : ∃ k, 0 ≤ k ∧ k < sz.prod ∧ q = v.add k
    · obtain ⟨k, h0, h1, rfl⟩ := hk
      rw [c3 k h0 h1, f2 _ fun l l0 l1 e => ?_, c1 k h0 h1]
      rw [hadrb] at e
      injection e with _ e
      exact hq _ (hadr l l0 l1).2 (within l l0 l1) (by rw [e])
    · rw [f3 q fun k h0 h1 e => hk ⟨k, h0, h1, e⟩, f2 q fun l _ _ e => qb (by rw [e, hadrb]), f1 q qb]

theorem MT.IsBegin.moves {s : MT} (h : s.IsBegin) :
    (∀ k d, 0 ≤ k → k ≤ s.n.prod → 0 ≤ k + d → k + d ≤ s.n.prod → (s.at_ k).adv d = .ok (s.at_ (k + d))) ∧
    (∀ k, 0 ≤ k → k < s.n.prod → (s.at_ k).inc = .ok (s.at_ (k + 1))) ∧
    (∀ k, 0 < k → k ≤ s.n.prod → (s.at_ k).dec = .ok (s.at_ (k - 1))) ∧
    ∀ k, 0 ≤ k → k ≤ s.n.prod → (s.at_ 0).distTo (s.at_ k) = .ok k := by
  refine ⟨fun k d a b c e => MT.adv_at h.toWF a b c e, fun k a b => MT.inc_at h.toWF a b, fun k a b => ?_, fun k a b => ?_⟩
  · have := MT.dec_at h.toWF (show 0 ≤ k - 1 by omega) (by omega)
    rwa [sub_add_cancel] at this
  · have := MT.distTo_at h.toWF (le_refl 0) (by omega) a b
    rwa [sub_zero] at this

/-- several elements set, one after another -/
def Mem.puts [IntCast T] (adr : Int → Ptr) : Mem T → List (Int × Int) → Mem T
  | m, [] => m
  | m, w :: ws => Mem.puts adr (m.setAt (adr w.1) ((w.2 : Int) : T)) ws

theorem Mem.puts_val [IntCast T] {adr : Int → Ptr} {n : Int} (hinj : ∀ k l, 0 ≤ k → k < n → 0 ≤ l → l < n → adr k = adr l → k = l) {k : Int} (h0 : 0 ≤ k) (h1 : k < n) :
    ∀ {ws : List (Int × Int)} {m : Mem T}, (∀ w ∈ ws, 0 ≤ w.1 ∧ w.1 < n) → (Mem.puts adr m ws).val (adr k) =
      match (ws.filter (·.1 == k)).getLast? with
      | some w => some ((w.2 : Int) : T)
      | none => m.val (adr k)
  | [], m, _ => rfl
  | w :: ws, m, h => by
    rw [Mem.puts, Mem.puts_val hinj h0 h1 (ws := ws) fun w hw => h w (List.mem_cons_of_mem _ hw)]
    obtain ⟨w0, w1⟩ := h w List.mem_cons_self
    rcases hl : ws.filter (·.1 == k) with _ | ⟨a, as⟩
    · by_cases e : w.1 = k
      · simp [e, hl, Mem.setAt]
      · have : adr k ≠ adr w.1 := fun e' => e (hinj _ _ h0 h1 w0 w1 e').symm
        simp [e, hl, Mem.setAt, this]
    · by_cases e : w.1 = k
      · simp [e, hl, List.getLast?_cons]
      · simp [e, hl, List.getLast?_cons]

theorem Mem.puts_frame [IntCast T] {adr : Int → Ptr} {q : Ptr} : ∀ {ws : List (Int × Int)} {m : Mem T}, (∀ w ∈ ws, q ≠ adr w.1) →
    (Mem.puts adr m ws).val q = m.val q
  | [], _, _ => rfl
  | w :: ws, m, h => by
    rw [Mem.puts, Mem.puts_frame fun w hw => h w (List.mem_cons_of_mem _ hw)]
    simp [Mem.setAt, h w List.mem_cons_self]

/-- what `init` writes, in this order: position in the box (row-major number) and value; `n` are the extents of the box -/
def initWrites (n : List Int) : List (Int × Int) :=
  let l := n.getD (n.length - 1) 0
  [(0, -1), (1, -2), (l - 1, -3), (l, -4), (n.prod - 1, -5)] ++
    if n.length = 3 then [(n.getD 1 0 * l - 1, -6), (n.getD 1 0 * l, -7)] else []

/-- `init` in two and three dimensions: no assertion fails; an element of the box gets the value written last to it, if any; the rest is as before.  The box must
have more than one row, and more than one plane in three dimensions. -/
theorem C99_init [IntCast T] [BEq T] [ReflBEq T] {sz lb ub : List Int} {v : Ptr} {b : Nat} {m : Mem T}
    (h : SubBox sz lb ub (sz.map fun _ => 1)) (hd : sz.length = 2 ∨ sz.length = 3) (h0 : lb.getD 0 0 < ub.getD 0 0) (hv : Cells m v sz.prod) (hb : Unused m b) :
    ∃ m', Cuda.subInit sz lb ub v b m = .ok m' ∧
      (∀ x, InBox sz x → (∀ i, i < sz.length → lb.getD i 0 ≤ x.getD i 0 ∧ x.getD i 0 ≤ ub.getD i 0) →
        m'.val (v.add (rowMajor sz x)) = match ((initWrites (List.zipWith (fun l u => u - l + 1) lb ub)).filter
            (·.1 == rowMajor (List.zipWith (fun l u => u - l + 1) lb ub) (List.zipWith (· - ·) x lb))).getLast? with
          | some w => some ((w.2 : Int) : T)
          | none => m.val (v.add (rowMajor sz x))) ∧
      ∀ q, (∀ x, InBox sz x → (∀ i, i < sz.length → lb.getD i 0 ≤ x.getD i 0 ∧ x.getD i 0 ≤ ub.getD i 0) → q ≠ v.add (rowMajor sz x)) →
        m'.val q = m.val q := by
  obtain ⟨s, es, hbg, hn, hp, hN, hadr, hinj, hin⟩ := submatrix_view (it := ⟨b, 0⟩) h
  have hP := hp.prod_pos
  have hvb : v.blk ≠ b := hb.ne h.pos.prod_pos hv
  have hl : s.n.length = sz.length := by rw [hn]; simp [h.ll, h.lu]
  have n0 : 2 ≤ s.n.getD 0 0 := by
    rw [hn, zipWith_eq_map h.ll h.lu, getD_map_range (by omega)]
    omega
  have within : ∀ k, 0 ≤ k → k < s.n.prod → ∀ i, i < sz.length →
      lb.getD i 0 ≤ (List.zipWith (· + ·) lb (coords s.n k)).getD i 0 ∧ (List.zipWith (· + ·) lb (coords s.n k)).getD i 0 ≤ ub.getD i 0 := by
    intro k h0 h1 i hi
    rw [zipWith_eq_map h.ll (by rw [coords_length, hl]), getD_map_range hi]
    have hc := coords_inBox hp h0 h1
    have hcl : (coords s.n k).length = sz.length := by rw [coords_length, hl]
    generalize coords s.n k = c at hc hcl ⊢
    rw [hn, zipWith_eq_map h.ll h.lu, eq_map_getD c hcl] at hc
    have := InBox_map.1 hc i (List.mem_range.2 hi)
    omega
  -- the last extent and the size of a plane
  obtain ⟨L, K, hL, hK, L1, LP, hKK⟩ : ∃ L K : Int, get s.n (sz.length - 1) = .ok L ∧ get s.n 1 = .ok K ∧ 1 ≤ L ∧ L < s.n.prod ∧
      (initWrites s.n = [(0, -1), (1, -2), (L - 1, -3), (L, -4), (s.n.prod - 1, -5)] ++ if sz.length = 3 then [(K * L - 1, -6), (K * L, -7)] else []) ∧
      (sz.length = 3 → 1 ≤ K * L ∧ K * L < s.n.prod) := by
    have g : ∀ i, i < sz.length → 1 ≤ s.n.getD i 0 := fun i hi => hp _ (by rw [← hl] at hi; simp [List.getD_eq_getElem?_getD, hi])
    refine ⟨s.n.getD (sz.length - 1) 0, s.n.getD 1 0, get_ok (by omega), get_ok (by omega), g _ (by omega), ?_⟩
    have hw : initWrites s.n = [(0, -1), (1, -2), (s.n.getD (sz.length - 1) 0 - 1, -3), (s.n.getD (sz.length - 1) 0, -4), (s.n.prod - 1, -5)] ++
        if sz.length = 3 then [(s.n.getD 1 0 * s.n.getD (sz.length - 1) 0 - 1, -6), (s.n.getD 1 0 * s.n.getD (sz.length - 1) 0, -7)] else [] := by
      rw [initWrites, hl]
    refine ⟨?_, hw, ?_⟩
    · rcases hd with hd | hd
      · rw [hd] at hl g ⊢
        obtain ⟨a, c, e⟩ := List.length_eq_two.1 hl
        have g1 := g 1 (by omega)
        rw [e] at n0 g1 ⊢
        simp at n0 g1 ⊢
        nlinarith
      · rw [hd] at hl g ⊢
        obtain ⟨a, c, d, e⟩ := List.length_eq_three.1 hl
        have g1 := g 1 (by omega)
        have g2 := g 2 (by omega)
        rw [e] at n0 g1 g2 ⊢
        simp at n0 g1 g2 ⊢
        have : d ≤ c * d := by nlinarith
        nlinarith
    · intro hd
      rw [hd] at hl g ⊢
      obtain ⟨a, c, d, e⟩ := List.length_eq_three.1 hl
      have g1 := g 1 (by omega)
      have g2 := g 2 (by omega)
      rw [e] at n0 g1 g2 ⊢
      simp at n0 g1 g2 ⊢
      have : 1 ≤ c * d := by nlinarith
      exact ⟨this, by nlinarith⟩
  obtain ⟨hws, hKL⟩ := hKK
  obtain ⟨m1, e1, i1, c1, f1⟩ := fromHost_ok (b := b) hv
  let adr : Int → Ptr := fun k => (⟨b, 0⟩ : Ptr).add (rowMajor sz (List.zipWith (· + ·) lb (coords s.n k)))
  have hadrb : ∀ k, adr k = ⟨b, rowMajor sz (List.zipWith (· + ·) lb (coords s.n k))⟩ := fun k => by simp [adr, Ptr.add]
  have hadrinj : ∀ k l, 0 ≤ k → k < s.n.prod → 0 ≤ l → l < s.n.prod → adr k = adr l → k = l := fun k l k0 k1 l0 l1 e =>
    hinj k l k0 k1 l0 l1 (rowMajor_inj (hadr k k0 k1).2 (hadr l l0 l1).2 (ptr_add_eq.1 e))
  have al : ∀ k, 0 ≤ k → k < s.n.prod → ∃ a, m1.val (adr k) = some a := by
    intro k h0 h1
    have hi := (hadr k h0 h1).2
    rw [hadrb, c1 _ (rowMajor_nonneg hi) (rowMajor_lt hi)]
    exact hv _ (rowMajor_nonneg hi) (rowMajor_lt hi)
  have ad : ∀ k, 0 ≤ k → k < s.n.prod → (s.at_ k).addr = .ok (adr k) := fun k h0 h1 => (hadr k h0 h1).1
  obtain ⟨adv, inc, dec, dist⟩ := hbg.moves
  have hwr : ∀ w ∈ initWrites s.n, 0 ≤ w.1 ∧ w.1 < s.n.prod := by
    rw [hws]
    intro w hw
    simp only [List.mem_append, List.mem_cons, List.not_mem_nil, or_false] at hw
    rcases hw with (rfl | rfl | rfl | rfl | rfl) | hw
    all_goals try (constructor <;> dsimp only <;> omega)
    split at hw
    · rename_i h3
      obtain ⟨q1, q2⟩ := hKL h3
      simp only [List.mem_cons, List.not_mem_nil, or_false] at hw
      rcases hw with rfl | rfl <;> constructor <;> dsimp only <;> omega
    · simp at hw
  set m2 := Mem.puts adr m1 (initWrites s.n) with hm2
  have a2 : ∀ k, 0 ≤ k → k < sz.prod → ∃ a, m2.val ⟨b, k⟩ = some a := by
    have : ∀ (ws : List (Int × Int)) (m : Mem T) (q : Ptr), (∃ a, m.val q = some a) → ∃ a, (Mem.puts adr m ws).val q = some a := by
      intro ws
      induction ws with
      | nil => exact fun _ _ h => h
      | cons w ws ih => exact fun m q h => ih _ _ (Mem.setAt_alloc h)
    intro k h0 h1
    exact this _ _ _ (by rw [c1 k h0 h1]; exact hv k h0 h1)
  have off : ∀ q, q.blk ≠ b → m2.val q = m1.val q := fun q hq => Mem.puts_frame fun w _ e => hq (by rw [e, hadrb])
  obtain ⟨m3, e3, i3, c3, f3⟩ := toHost_ok (m := m2) (b := b) (n := sz.prod) (dst := v) hvb
    (fun k h0 h1 => by simpa [Ptr.add] using a2 k h0 h1)
    (fun k h0 h1 => by rw [off (v.add k) hvb, f1 (v.add k) hvb]; exact hv k h0 h1)
  refine ⟨m3.free b, ?_, fun x hx hlu => ?_, fun q hq => ?_⟩
  · have k1 : prodFrom sz = .ok sz.prod := prodFrom_ok h.ne h.pos h.fits
    have k2 : ((List.range sz.length).mapM fun i => do
        let u ← get ub i
        let l ← get lb i
        let d ← isub u l
        iadd d 1) = .ok s.n := by
      rw [mapM_ok (g := fun i => ub.getD i 0 - lb.getD i 0 + 1)]
      · rw [hn, zipWith_eq_map h.ll h.lu]
      · intro i hi
        have hi := List.mem_range.1 hi
        obtain ⟨d1, d2, d3, d4, d5, -⟩ := h.dims i hi
        rw [getD_one hi] at d5
        rw [get_ok (by rw [h.lu]; exact hi), get_ok (by rw [h.ll]; exact hi)]
        simp only [M.ok_bind]
        rw [isub_ok (by unfold InInt; omega), M.ok_bind, iadd_ok (by unfold InInt; omega)]
    have k3 : prodFrom s.n = .ok s.n.prod := prodFrom_ok (by intro e; rw [e] at hl; simp at hl; omega) hp hN
    have es' : makeSubmatrix ⟨b, 0⟩ sz lb ub (sz.map fun _ => 1) = .ok (s.at_ 0) := by rw [← hbg.eq_at]; exact es
    let p1 := m1.setAt (adr 0) ((-1 : Int) : T)
    let p2 := p1.setAt (adr 1) ((-2 : Int) : T)
    let p3 := p2.setAt (adr (L - 1)) ((-3 : Int) : T)
    let p4 := p3.setAt (adr L) ((-4 : Int) : T)
    let p5 := p4.setAt (adr (s.n.prod - 1)) ((-5 : Int) : T)
    let p6 := p5.setAt (adr (K * L - 1)) ((-6 : Int) : T)
    let p7 := p6.setAt (adr (K * L)) ((-7 : Int) : T)
    have al1 : ∀ k, 0 ≤ k → k < s.n.prod → ∃ a, p1.val (adr k) = some a := fun k h0 h1 => Mem.setAt_alloc (al k h0 h1)
    have al2 : ∀ k, 0 ≤ k → k < s.n.prod → ∃ a, p2.val (adr k) = some a := fun k h0 h1 => Mem.setAt_alloc (al1 k h0 h1)
    have al3 : ∀ k, 0 ≤ k → k < s.n.prod → ∃ a, p3.val (adr k) = some a := fun k h0 h1 => Mem.setAt_alloc (al2 k h0 h1)
    have al4 : ∀ k, 0 ≤ k → k < s.n.prod → ∃ a, p4.val (adr k) = some a := fun k h0 h1 => Mem.setAt_alloc (al3 k h0 h1)
    have al5 : ∀ k, 0 ≤ k → k < s.n.prod → ∃ a, p5.val (adr k) = some a := fun k h0 h1 => Mem.setAt_alloc (al4 k h0 h1)
    have al6 : ∀ k, 0 ≤ k → k < s.n.prod → ∃ a, p6.val (adr k) = some a := fun k h0 h1 => Mem.setAt_alloc (al5 k h0 h1)
    have s1 : m1.store (adr 0) ((-1 : Int) : T) = .ok p1 := Mem.store_setAt (al 0 (by omega) (by omega))
    have s2 : p1.store (adr 1) ((-2 : Int) : T) = .ok p2 := Mem.store_setAt (al1 1 (by omega) (by omega))
    have s3 : p2.store (adr (L - 1)) ((-3 : Int) : T) = .ok p3 := Mem.store_setAt (al2 _ (by omega) (by omega))
    have s4 : p3.store (adr L) ((-4 : Int) : T) = .ok p4 := Mem.store_setAt (al3 _ (by omega) (by omega))
    have s5 : p4.store (adr (s.n.prod - 1)) ((-5 : Int) : T) = .ok p5 := Mem.store_setAt (al4 _ (by omega) (by omega))
    have l1 : p1.load (adr 0) = .ok ((-1 : Int) : T) := Mem.load_setAt
    have l3 : p4.load (adr (L - 1)) = .ok ((-3 : Int) : T) := by
      show (p3.setAt (adr L) _).load _ = _
      rw [Mem.load_setAt_ne fun e => ?_]
      · exact Mem.load_setAt
      · have := hadrinj _ _ (by omega) (by omega) (by omega) (by omega) e
        omega
    have l4 : p4.load (adr L) = .ok ((-4 : Int) : T) := Mem.load_setAt
    have v00 := adv 0 0 (by omega) (by omega) (by omega) (by omega)
    have v01 := adv 0 1 (by omega) (by omega) (by omega) (by omega)
    have v0L := adv 0 L (by omega) (by omega) (by omega) (by omega)
    have vL1 := adv L (-1) (by omega) (by omega) (by omega) (by omega)
    have vE := adv 0 (s.n.prod - 1) (by omega) (by omega) (by omega) (by omega)
    have vP := adv 0 s.n.prod (by omega) (by omega) (by omega) (by omega)
    have x0 := inc 0 (by omega) (by omega)
    have xL := inc (L - 1) (by omega) (by omega)
    have xE := inc (s.n.prod - 1) (by omega) (by omega)
    have y1 := dec 1 (by omega) (by omega)
    have yL := dec L (by omega) (by omega)
    rw [zero_add] at v01 v0L vE vP x0
    rw [add_zero] at v00
    rw [sub_self] at y1
    rw [sub_add_cancel] at xL xE
    rw [← sub_eq_add_neg] at vL1
    have q1 := isub_ok (a := s.n.prod) (b := 1) (by unfold InInt; omega)
    simp only [Cuda.subInit, k1, k2, M.ok_bind, e1, es', ad 0 (by omega) (by omega), s1, v00, l1, check_self, v01, dist 1 (by omega) (by omega), x0, y1,
      ad 1 (by omega) (by omega), s2, hL, v0L, vL1, ad (L - 1) (by omega) (by omega), s3, dist (L - 1) (by omega) (by omega), xL,
      ad L (by omega) (by omega), s4, dist L (by omega) (by omega), yL, l3, l4, k3, q1, vE, dist (s.n.prod - 1) (by omega) (by omega),
      ad (s.n.prod - 1) (by omega) (by omega), s5, xE, dist s.n.prod (by omega) (by omega), vP]
    by_cases h3 : sz.length = 3
    · obtain ⟨g1, g2⟩ := hKL h3
      have s6 : p5.store (adr (K * L - 1)) ((-6 : Int) : T) = .ok p6 := Mem.store_setAt (al5 _ (by omega) (by omega))
      have s7 : p6.store (adr (K * L)) ((-7 : Int) : T) = .ok p7 := Mem.store_setAt (al6 _ (by omega) (by omega))
      have l6 : p7.load (adr (K * L - 1)) = .ok ((-6 : Int) : T) := by
        show (p6.setAt (adr (K * L)) _).load _ = _
        rw [Mem.load_setAt_ne fun e => ?_]
        · exact Mem.load_setAt
        · have := hadrinj _ _ (by omega) (by omega) (by omega) (by omega) e
          omega
      have u1 := adv 0 (K * L) (by omega) (by omega) (by omega) (by omega)
      have u2 := adv (K * L) (-1) (by omega) (by omega) (by omega) (by omega)
      have u3 := inc (K * L - 1) (by omega) (by omega)
      have u4 := dec (K * L) (by omega) (by omega)
      rw [zero_add] at u1
      rw [sub_add_cancel] at u3
      rw [← sub_eq_add_neg] at u2
      have q2 := imul_ok (a := K) (b := L) (by unfold InInt; omega)
      have hm : m2 = p7 := by
        rw [hm2, hws, if_pos h3]
        rfl
      rw [hm] at e3
      simp only [h3, ↓reduceIte, hK, M.ok_bind, q2, u1, u2, dist (K * L - 1) (by omega) (by omega), check_self, ad (K * L - 1) (by omega) (by omega), s6, u3,
        dist (K * L) (by omega) (by omega), ad (K * L) (by omega) (by omega), s7, u4, l6, e3]
    · have hm : m2 = p5 := by
        rw [hm2, hws, if_neg h3]
        rfl
      rw [hm] at e3
      simp only [h3, ↓reduceIte, M.ok_bind, e3]
  · obtain ⟨hi, he⟩ := hin x hx hlu
    have r0 := rowMajor_nonneg hi
    have r1 := rowMajor_lt hi
    have hk : adr (rowMajor s.n (List.zipWith (· - ·) x lb)) = ⟨b, rowMajor sz x⟩ := by rw [hadrb, coords_rowMajor hi, he]
    have n1 : (v.add (rowMajor sz x)).blk ≠ b := hvb
    simp only [Mem.free, n1, ↓reduceIte]
    rw [c3 _ (rowMajor_nonneg hx) (rowMajor_lt hx), ← hk, hm2, Mem.puts_val hadrinj r0 r1 hwr, hk, c1 _ (rowMajor_nonneg hx) (rowMajor_lt hx), hn]
  · refine Mem.free_unused hb fun qb => ?_
    by_cases hk : ∃ k, 0 ≤ k ∧ k < sz.prod ∧ q = v.add k
    · obtain ⟨k, h0, h1, rfl⟩ := hk
      rw [c3 k h0 h1, hm2, Mem.puts_frame fun w hw e => ?_, c1 k h0 h1]
      obtain ⟨w0, w1⟩ := hwr w hw
      rw [hadrb] at e
      injection e with _ e
      exact hq _ (hadr _ w0 w1).2 (within _ w0 w1) (by rw [e])
    · rw [f3 q fun k h0 h1 e => hk ⟨k, h0, h1, e⟩, off q qb, f1 q qb]

/-- `transpose_test_cuda<T, I...>::init`: `u` holds the transposed array: the element of `v` with coordinates `x` is at the coordinates `x[I]...` of the array with
extents `sz[I]...`; everything else is as before.  `u` may overlap `v`. -/
theorem C100_transpose {seq : List Nat} {sz : List Int} {v u : Ptr} {b : Nat} {β : Backend} {m : Mem T} (hβ : ValidBackend β) (hne : sz ≠ [])
    (hp : Pos sz) (hN : sz.prod ≤ 2147483647) (hperm : IsPerm seq sz.length) (hv : Cells m v sz.prod) (hu : Cells m u sz.prod) (hb : Unused m b) :
    ∃ m', Cuda.transposeInit seq sz v u b β m = .ok m' ∧
      (∀ x, InBox sz x → m'.val (u.add (rowMajor (seq.map fun i => sz.getD i 0) (seq.map fun i => x.getD i 0))) = m.val (v.add (rowMajor sz x))) ∧
      ∀ q, (∀ x, InBox sz x → q ≠ u.add (rowMajor (seq.map fun i => sz.getD i 0) (seq.map fun i => x.getD i 0))) → m'.val q = m.val q := by
  obtain ⟨s, es, hbg, hn, hsp, hk⟩ := C06_transpose (it := ⟨b, 0⟩) hne hp hN hperm
  have hP := hp.prod_pos
  have hvb : v.blk ≠ b := hb.ne hP hv
  have hub : u.blk ≠ b := hb.ne hP hu
  have hps : Pos s.n := hbg.pos
  have pos : ∀ k, 0 ≤ k → k < sz.prod → ∃ x, (s.at_ k).addr = .ok ⟨b, rowMajor sz x⟩ ∧ InBox sz x ∧
      (seq.map fun i => x.getD i 0) = coords (seq.map fun i => sz.getD i 0) k := by
    intro k h0 h1
    obtain ⟨r, x, er, ha, hx, hc⟩ := hk k h0 h1
    have e2 := MT.adv_at hbg.toWF (le_refl 0) (by omega) (show 0 ≤ 0 + k by omega) (by omega)
    rw [zero_add, ← hbg.eq_at, er] at e2
    injection e2 with e2
    refine ⟨x, ?_, hx, hc⟩
    rw [← e2, ha]
    simp [Ptr.add]
  choose! X hX using pos
  obtain ⟨m1, e1, i1, c1, f1⟩ := fromHost_ok (b := b) hv
  have hval : ∀ k, 0 ≤ k → k < sz.prod → ∃ a, m1.val ⟨b, rowMajor sz (X k)⟩ = some a ∧ m.val (v.add (rowMajor sz (X k))) = some a := by
    intro k h0 h1
    obtain ⟨-, hx, -⟩ := hX k h0 h1
    obtain ⟨a, ha⟩ := hv _ (rowMajor_nonneg hx) (rowMajor_lt hx)
    exact ⟨a, by rw [c1 _ (rowMajor_nonneg hx) (rowMajor_lt hx)]; exact ha, ha⟩
  have hT : Nonempty T := by
    obtain ⟨a, -⟩ := hv 0 (le_refl _) hP
    exact ⟨a⟩
  choose! A hA hA' using hval
  have fw : FWalk (β := MT) sz.prod s.at_ := by have := hbg.fwalk; rwa [hsp] at this
  have σ := hβ sz.prod 2
  obtain ⟨m2, e2, i2, c2, f2⟩ := walk_run (m := m1) (out := fun k => u.add k) (adr := fun k => u.add k)
    (rd := fun k m => do
      let t ← runMoves ((β sz.prod 2).rhist k) (s.at_ 0)
      let p ← t.addr
      m.load p) (x := A) (R := fun _ q => q.blk = b) hN σ
    ⟨fun h0 h1 => (Ptr.walk u sz.prod).inc h0 (by omega), fun h0 h1 h3 => (Ptr.walk u sz.prod).adv h0 (by omega) (by omega) (by omega)⟩
    (fun _ _ _ => rfl) (fun k l _ _ _ _ e => ptr_add_eq.1 e)
    (fun k h0 h1 => by rw [f1 (u.add k) hub]; exact hu k h0 h1)
    (fun k h0 h1 => by
      obtain ⟨w1, w2⟩ := σ.rhist k h0 h1
      simp only [fw.run hN w1, zero_add, w2, M.ok_bind, (hX k h0 h1).1, Mem.load, hA k h0 h1])
    (fun k h0 h1 a c _ _ hab => by
      obtain ⟨w1, w2⟩ := σ.rhist k h0 h1
      simp only [fw.run hN w1, zero_add, w2, M.ok_bind, (hX k h0 h1).1, Mem.load]
      rw [hab _ rfl])
    (fun k l _ _ _ _ e => hub e)
  have hsp' : (seq.map fun i => sz.getD i 0).prod = sz.prod := by rw [← hn, hsp]
  have num : ∀ x, InBox sz x → ∃ k, 0 ≤ k ∧ k < sz.prod ∧ X k = x ∧ rowMajor (seq.map fun i => sz.getD i 0) (seq.map fun i => x.getD i 0) = k := by
    intro x hx
    have hin : InBox (seq.map fun i => sz.getD i 0) (seq.map fun i => x.getD i 0) := by
      rw [InBox_map]
      intro i hi
      have hx' : InBox ((List.range sz.length).map fun i => sz.getD i 0) ((List.range sz.length).map fun i => x.getD i 0) := by
        rw [← eq_map_getD sz rfl, ← eq_map_getD x hx.length_eq.symm]
        exact hx
      exact InBox_map.1 hx' i (List.mem_range.2 ((hperm.2 i).1 hi))
    have r1 := rowMajor_lt hin
    rw [hsp'] at r1
    refine ⟨_, rowMajor_nonneg hin, r1, ?_, rfl⟩
    obtain ⟨-, hy, he⟩ := hX _ (rowMajor_nonneg hin) r1
    rw [coords_rowMajor hin] at he
    rw [eq_map_getD (X _) hy.length_eq.symm]
    conv_rhs => rw [eq_map_getD x hx.length_eq.symm]
    refine List.map_congr_left fun i hi => ?_
    exact List.map_inj_left.1 he i ((hperm.2 i).2 (List.mem_range.1 hi))
  refine ⟨m2.free b, ?_, fun x hx => ?_, fun q hq => ?_⟩
  · have k1 : prodFrom sz = .ok sz.prod := prodFrom_ok hne hp hN
    have k4 : s.adv sz.prod = .ok (s.at_ sz.prod) := by
      have := MT.adv_at hbg.toWF (le_refl 0) (by omega) (show 0 ≤ 0 + sz.prod by omega) (by omega)
      rwa [zero_add, ← hbg.eq_at] at this
    have k5 : s.distTo (s.at_ sz.prod) = .ok sz.prod := by
      have := MT.distTo_at hbg.toWF (le_refl 0) (by omega) (show 0 ≤ sz.prod by omega) (by omega)
      rwa [sub_zero, ← hbg.eq_at] at this
    have a0 : u.add 0 = u := by simp [Ptr.add]
    rw [← hbg.eq_at, a0] at e2
    simp only [Cuda.transposeInit, k1, es, M.ok_bind, e1, k4, k5, check, BEq.rfl, ↓reduceIte, e2]
  · obtain ⟨k, h0, h1, e, er⟩ := num x hx
    have n1 : (u.add (rowMajor (seq.map fun i => sz.getD i 0) (seq.map fun i => x.getD i 0))).blk ≠ b := hub
    simp only [Mem.free, n1, ↓reduceIte]
    rw [er, c2 k h0 h1, ← hA' k h0 h1, e]
  · refine Mem.free_unused hb fun qb => ?_
    rw [f2 q fun k h0 h1 => ?_, f1 q qb]
    obtain ⟨-, hx, he⟩ := hX k h0 h1
    have := hq _ hx
    rwa [he, rowMajor_coords (by rw [← hn]; exact hps) h0 (by rw [hsp']; exact h1)] at this

/-! ### examples -/

/-- rows 1 to 3, columns 2 to 4 of a 5 by 6 array -/
theorem exSub_box : SubBox [5, 6] [1, 2] [3, 4] ([5, 6].map fun _ => 1) := by
  refine ⟨by simp, by simp [Pos], by simp, rfl, rfl, rfl, ?_⟩
  intro i hi
  have : i = 0 ∨ i = 1 := by simp at hi; omega
  rcases this with rfl | rfl <;> simp

example : ∃ m', Cuda.subTabulate [5, 6] [1, 2] [3, 4] ⟨0, 0⟩ 1 revBackend exThirty = .ok m' ∧ m'.val ⟨0, 15⟩ = some (-4) ∧ m'.val ⟨0, 17⟩ = some 17 := by
  obtain ⟨m', h, h1, h2⟩ := C99_tabulate revBackend_ok exSub_box (v := ⟨0, 0⟩) (b := 1) (exThirty_cells (by decide)) (exThirty_unused (by decide))
  refine ⟨m', h, ?_, ?_⟩
  · refine h1 [2, 3] (by simp [InBox]) fun i hi => ?_
    have : i = 0 ∨ i = 1 := by simp at hi; omega
    rcases this with rfl | rfl <;> simp
  · rw [h2 ⟨0, 17⟩ fun x hx hlu e => ?_]
    · decide
    · have hl := hx.length_eq
      obtain ⟨a, c, rfl⟩ := List.length_eq_two.1 hl.symm
      have a0 := hlu 0 (by simp)
      have a1 := hlu 1 (by simp)
      simp [rowMajor, Ptr.add] at a0 a1 e
      omega

example : ∃ m', Cuda.subInit [5, 6] [1, 2] [3, 4] ⟨0, 0⟩ 1 exThirty = .ok m' ∧ m'.val ⟨0, 10⟩ = some (-3) ∧ m'.val ⟨0, 15⟩ = some 15 := by
  obtain ⟨m', h, h1, h2⟩ := C99_init exSub_box (by decide) (by decide) (v := ⟨0, 0⟩) (b := 1) (exThirty_cells (by decide)) (exThirty_unused (by decide))
  have inside : ∀ a c : Int, 1 ≤ a → a ≤ 3 → 2 ≤ c → c ≤ 4 → ∀ i, i < [5, 6].length →
      ([1, 2] : List Int).getD i 0 ≤ [a, c].getD i 0 ∧ [a, c].getD i 0 ≤ ([3, 4] : List Int).getD i 0 := by
    intro a c _ _ _ _ i hi
    have : i = 0 ∨ i = 1 := by simp at hi; omega
    rcases this with rfl | rfl <;> simp <;> omega
  exact ⟨m', h, h1 [1, 4] (by simp [InBox]) (inside 1 4 (by decide) (by decide) (by decide) (by decide)),
    h1 [2, 3] (by simp [InBox]) (inside 2 3 (by decide) (by decide) (by decide) (by decide))⟩

/-- the transpose of a 2 by 3 by 5 array with the dimensions in the order 2, 0, 1 -/
example : ∃ m', Cuda.transposeInit [2, 0, 1] [2, 3, 5] ⟨0, 0⟩ ⟨0, 0⟩ 1 revBackend exThirty = .ok m' ∧ m'.val ⟨0, 21⟩ = some 18 := by
  obtain ⟨m', h, h1, -⟩ := C100_transpose (seq := [2, 0, 1]) (sz := [2, 3, 5]) revBackend_ok (by simp) (by simp [Pos]) (by decide)
    ⟨by decide, fun i => by simp; omega⟩ (v := ⟨0, 0⟩) (u := ⟨0, 0⟩) (b := 1) (exThirty_cells (by decide)) (exThirty_cells (by decide)) (exThirty_unused (by decide))
  exact ⟨m', h, h1 [1, 0, 3] (by simp [InBox])⟩

end Verif
