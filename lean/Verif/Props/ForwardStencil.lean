import Verif.Lemmas.StencilGeo

/-
C07 - C09: the forward stencil iterator over a box view `it` (a begin iterator of any traversal), dimension `i`.

"The pair at position p" is specified through the view alone: the p-th row-major coordinate `c` of the box shortened by one
in dimension `i`, and `c` one step up in that dimension.
-/

namespace Verif
open Spec

/-- address of the element of the view at coordinate `c` -/
def MT.elemAddr (it : MT) (c : List Int) : M Ptr := MT.addr { it with current := c }

/-- the addresses of the neighbour pair at coordinate `c` -/
def MT.pairAddr (it : MT) (i : Nat) (c : List Int) : M (Ptr × Ptr) := do
  let a ← it.elemAddr c
  let b ← it.elemAddr (bump c i)
  .ok (a, b)

/-- 3 by 4 view of a 5 by 7 array -/
def exV : MT := ⟨⟨0, 8⟩, [7, 1], [0, 0], [3, 4]⟩

theorem exV_ok (i : Nat) (hi : i < 2) : exV.StOK i := by
  refine ⟨⟨⟨by decide, by simp [exV, Pos], by simp [exV], by simp [exV]⟩, rfl⟩, hi, ?_⟩
  have : i = 0 ∨ i = 1 := by omega
  rcases this with rfl | rfl <;> simp [exV]

/-! ### C07 -/

/-- incrementing `p` times from begin gives the `p`-th neighbour pair, both of whose coordinates lie in the box; the number
of pairs recorded by the iterator is the size of the shortened box -/
theorem C07_walk {it : MT} {i : Nat} (h : it.StOK i) :
    ∃ s, it.stencil i = .ok s ∧ s.distanceToLast = (boxList (shorten it.n i)).length ∧
      ∀ p : Nat, (p : Int) < (shorten it.n i).prod → ∃ r, iterM FS.inc p s = .ok r ∧
        r.addrs = it.pairAddr i (coords (shorten it.n i) p) ∧
        InBox it.n (coords (shorten it.n i) p) ∧ InBox it.n (bump (coords (shorten it.n i) p) i) := by
  have hp := shorten_pos h.pos h.h2
  have hpp := hp.prod_pos
  refine ⟨_, MT.stencil_ok h, ?_, ?_⟩
  · simp only [FS.make]
    rw [h.size_eq, boxList_eq hp, List.length_map, ints_length]; omega
  · intro p hlt
    have hw : ∀ p : Nat, (p : Int) < (shorten it.n i).prod →
        ∀ q : Int, 0 ≤ q → q + p < (shorten it.n i).prod →
        iterM FS.inc p (FS.at_ it.at_ (it.gS i) (it.gL i) (it.gB i) q) =
        .ok (FS.at_ it.at_ (it.gS i) (it.gL i) (it.gB i) (q + p)) := by
      intro p
      induction p with
      | zero => intro _ q _ _; simp [iterM]
      | succ p ih =>
        intro hp q q0 hq
        simp only [iterM]
        rw [FS.inc_at h.geo (MT.walk h.toWF) q0 (by rw [h.size_eq]; push_cast at hq; omega), M.ok_bind,
          ih (by push_cast at hp; omega) (q + 1) (by omega) (by push_cast at hq; omega)]
        congr 2; push_cast; omega
    have e := hw p hlt 0 (le_refl _) (by omega)
    rw [← h.begin_eq, zero_add] at e
    have hc := coords_inBox hp (k := p) (by omega) hlt
    refine ⟨_, e, h.addrs_at (by omega) hlt, (rowMajor_shorten h.hi h.pos hc h.h2).2, bump_inBox h.pos hc⟩

/-- the pairs visited are those of all coordinates of the shortened box, each once, in row-major order -/
theorem C07_all_pairs {it : MT} {i : Nat} (h : it.StOK i) {s : FS MT} (hs : it.stencil i = .ok s) :
    ∃ rs, (List.range (shorten it.n i).prod.toNat).mapM (fun p => iterM FS.inc p s) = .ok rs ∧
      rs.map FS.addrs = (boxList (shorten it.n i)).map (it.pairAddr i) := by
  obtain ⟨s', e, _, hk⟩ := C07_walk h
  have : s' = s := Except.ok.inj (e.symm.trans hs)
  subst this
  have hp := shorten_pos h.pos h.h2
  have hpp := hp.prod_pos
  have : ∀ p : Nat, ∃ r, (p : Int) < (shorten it.n i).prod → iterM FS.inc p s' = .ok r ∧
        r.addrs = it.pairAddr i (coords (shorten it.n i) p) := by
    intro p
    by_cases hlt : (p : Int) < (shorten it.n i).prod
    · obtain ⟨r, h1, h2, _⟩ := hk p hlt
      exact ⟨r, fun _ => ⟨h1, h2⟩⟩
    · exact ⟨s', fun h => absurd h hlt⟩
  choose f hf using this
  refine ⟨(List.range (shorten it.n i).prod.toNat).map f, mapM_ok fun p hp' => (hf p ?_).1, ?_⟩
  · have := List.mem_range.1 hp'; omega
  · rw [boxList_eq hp, ints, List.map_map, List.map_map, List.map_map]
    refine List.map_congr_left fun p hp' => ?_
    have := List.mem_range.1 hp'
    simp only [Function.comp]
    exact (hf p (by omega)).2

example : exV.StOK 0 ∧ exV.StOK 1 := ⟨exV_ok 0 (by omega), exV_ok 1 (by omega)⟩
example : (do let s ← exV.stencil 1; let r ← iterM FS.inc 4 s; r.addrs) = .ok (⟨0, 16⟩, ⟨0, 17⟩) := by decide

/-! ### C08, C09: histories of moves -/

/-- moves after which a forward stencil is where it should be: single steps, forward jumps, and backward jumps that do not
land on the first pair of an earlier block of `L` consecutive pairs -/
def Sound (L p : Int) : Move → Prop
  | .inc => True
  | .dec => True
  | .add k => 0 ≤ p % L + k ∨ (p + k) % L ≠ 0
  | .sub k => 0 ≤ p % L - k ∨ (p - k) % L ≠ 0

/-- all moves of a history are sound and none leaves `[0, T)` -/
def SoundHist (L T : Int) : Int → List Move → Prop
  | p, [] => 0 ≤ p ∧ p < T
  | p, m :: ms => (0 ≤ p ∧ p < T) ∧ Sound L p m ∧ SoundHist L T (p + delta m) ms

theorem SoundHist.head {L T p : Int} : ∀ {ms : List Move}, SoundHist L T p ms → 0 ≤ p ∧ p < T
  | [], h => h
  | _ :: _, h => h.1

theorem SoundHist.last {L T : Int} : ∀ {ms : List Move} {p : Int}, SoundHist L T p ms → 0 ≤ p + net ms ∧ p + net ms < T
  | [], p, h => by simp only [net, List.map_nil, List.sum_nil, add_zero]; exact h
  | m :: ms, p, h => by
    have := SoundHist.last h.2.2
    rw [net_cons]; omega

theorem FS.run_sound {β : Type} [RA β] {S L B T : Int} {st : Int → β} (g : FS.Geo S L B T) (w : RAWalk T st) :
    ∀ {ms : List Move} {p : Int}, SoundHist L (B * L) p ms →
      runMoves ms (FS.at_ st S L B p) = .ok (FS.at_ st S L B (p + net ms))
  | [], p, h => by simp [runMoves, net]
  | m :: ms, p, h => by
    obtain ⟨⟨h0, h1⟩, hsd, hs⟩ := h
    obtain ⟨g0, g1⟩ := SoundHist.head hs
    have hL := g.L_le
    have hI := g.hI
    have hm : m.run (FS.at_ st S L B p) = .ok (FS.at_ st S L B (p + delta m)) := by
      cases m with
      | inc => exact FS.inc_at g w h0 g1
      | dec =>
        have e : p = p + delta .dec + 1 := by simp only [delta]; omega
        simp only [Move.run]
        conv_lhs => rw [e]
        exact FS.dec_at g w g0 (by simp only [delta] at g1 ⊢; omega)
      | add k => exact FS.adv_at g w h0 h1 g0 g1 hsd
      | sub k =>
        simp only [Move.run, delta, Sound] at *
        rw [dsub_ok (by unfold InDiff; omega), M.ok_bind, zero_sub]
        exact FS.adv_at g w h0 h1 g0 g1 (by rcases hsd with h | h; exacts [.inl (by omega), .inr h])
    simp only [runMoves]
    rw [hm, M.ok_bind, FS.run_sound g w hs, net_cons]
    congr 2; omega

/-- length of a run of consecutive pairs (the code's `limit`): product of the extents from dimension `i` on, that one shortened -/
def runLength (n : List Int) (i : Nat) : Int := ((shorten n i).drop i).prod

theorem runLength_eq {it : MT} {i : Nat} (h : it.StOK i) : runLength it.n i = it.gL i := shorten_drop_prod h.hi

/-- a history in which the backward moves are single steps -/
def Forward : Move → Prop
  | .inc => True
  | .dec => True
  | .add k => 0 ≤ k
  | .sub k => k ≤ 0

/-- positions before the end, forward jumps and single steps: no other condition -/
def ForwardHist (T : Int) : Int → List Move → Prop
  | p, [] => 0 ≤ p ∧ p < T
  | p, m :: ms => (0 ≤ p ∧ p < T) ∧ Forward m ∧ ForwardHist T (p + delta m) ms

theorem ForwardHist.sound {L T : Int} (hL : 1 ≤ L) : ∀ {ms : List Move} {p : Int}, ForwardHist T p ms → SoundHist L T p ms
  | [], _, h => h
  | m :: ms, p, h => by
    refine ⟨h.1, ?_, ForwardHist.sound hL h.2.2⟩
    have hm := h.2.1
    have : 0 ≤ p % L := Int.emod_nonneg _ (by omega)
    cases m <;> simp only [Forward, Sound] at * <;> omega

/-- Any mix of `++`, `--` and forward jumps that stays before the end reaches the same state as stepping `++` once per
position, whose pair is the one at that position. -/
theorem C08_jumps_eq_steps {it : MT} {i : Nat} (h : it.StOK i) {s : FS MT} (hs : it.stencil i = .ok s) {ms : List Move}
    (hf : ForwardHist (shorten it.n i).prod 0 ms) :
    ∃ r, runMoves ms s = .ok r ∧ iterM FS.inc (net ms).toNat s = .ok r ∧ s.adv (net ms) = .ok r ∧
      r.addrs = it.pairAddr i (coords (shorten it.n i) (net ms)) := by
  have hs' : s = FS.make it (it.gS i) (it.gL i) (it.gB i * it.gL i) := Except.ok.inj (hs.symm.trans (MT.stencil_ok h))
  have hp := (shorten_pos h.pos h.h2).prod_pos
  have hsnd := hf.sound h.geo.hL
  have hl := SoundHist.last hsnd
  rw [zero_add] at hl
  have hsz := h.size_eq
  refine ⟨FS.at_ it.at_ (it.gS i) (it.gL i) (it.gB i) (net ms), ?_, ?_, ?_, ?_⟩
  · rw [hs', h.begin_eq, FS.run_sound h.geo (MT.walk h.toWF) (by rw [h.size_eq]; exact hsnd), zero_add]
  · obtain ⟨s', e, _, hk⟩ := C07_walk h
    have : s' = s := Except.ok.inj (e.symm.trans hs)
    have hrep : ∀ n : Nat, ∀ p : Int, 0 ≤ p → p + n < (shorten it.n i).prod →
        SoundHist (it.gL i) (it.gB i * it.gL i) p (List.replicate n .inc) := by
      intro n
      induction n with
      | zero => intro p p0 p1; exact ⟨p0, by push_cast at p1; omega⟩
      | succ n ih => intro p p0 p1; push_cast at p1; exact ⟨⟨p0, by omega⟩, trivial, ih (p + 1) (by omega) (by omega)⟩
    have hrun : ∀ (n : Nat) (x : FS MT), iterM FS.inc n x = runMoves (List.replicate n .inc) x := by
      intro n
      induction n with
      | zero => intro x; rfl
      | succ n ih =>
        intro x
        simp only [iterM, List.replicate_succ, runMoves, Move.run]
        congr 1
        funext y; exact ih y
    have hnet : ∀ n : Nat, net (List.replicate n .inc) = n := by
      intro n; simp [net, delta]
    rw [hrun, hs', h.begin_eq, FS.run_sound h.geo (MT.walk h.toWF) (hrep _ 0 (le_refl _) (by omega)), hnet]
    congr 2; omega
  · rw [hs', h.begin_eq, FS.adv_at h.geo (MT.walk h.toWF) (le_refl _) (by omega) (by omega) (by omega)
      (.inl (by rw [Int.zero_emod]; omega)), zero_add]
  · exact h.addrs_at hl.1 hl.2

/-- jump and steps commute: `(s + a)` then `b` increments is `b` increments then `+ a` -/
theorem C08_commute {it : MT} {i : Nat} (h : it.StOK i) {s : FS MT} (hs : it.stencil i = .ok s) {a : Int} {b : Nat}
    (ha : 0 ≤ a) (hab : a + b < (shorten it.n i).prod) :
    runMoves (.add a :: List.replicate b .inc) s = runMoves (List.replicate b .inc ++ [.add a]) s := by
  have hp := (shorten_pos h.pos h.h2).prod_pos
  have hnet : ∀ n : Nat, net (List.replicate n .inc) = n := by intro n; simp [net, delta]
  have hrep : ∀ n : Nat, ∀ p : Int, 0 ≤ p → p + n < (shorten it.n i).prod →
      ForwardHist (shorten it.n i).prod p (List.replicate n .inc) := by
    intro n
    induction n with
    | zero => intro p p0 p1; exact ⟨p0, by push_cast at p1; omega⟩
    | succ n ih => intro p p0 p1; push_cast at p1; exact ⟨⟨p0, by omega⟩, trivial, ih (p + 1) (by omega) (by omega)⟩
  have hrep' : ∀ n : Nat, ∀ p : Int, 0 ≤ p → p + n + a < (shorten it.n i).prod →
      ForwardHist (shorten it.n i).prod p (List.replicate n .inc ++ [.add a]) := by
    intro n
    induction n with
    | zero => intro p p0 p1; push_cast at p1; exact ⟨⟨p0, by omega⟩, ha, ⟨by simp only [delta]; omega, by simp only [delta]; omega⟩⟩
    | succ n ih => intro p p0 p1; push_cast at p1; exact ⟨⟨p0, by omega⟩, trivial, ih (p + 1) (by omega) (by omega)⟩
  obtain ⟨r, h1, _, h3, _⟩ := C08_jumps_eq_steps h hs (ms := .add a :: List.replicate b .inc)
    ⟨⟨le_refl _, by omega⟩, ha, hrep b _ (by simp only [delta]; omega) (by simp only [delta]; omega)⟩
  obtain ⟨r', h1', _, h3', _⟩ := C08_jumps_eq_steps h hs (ms := List.replicate b .inc ++ [.add a]) (hrep' b 0 (le_refl _) (by omega))
  have e1 : net (.add a :: List.replicate b .inc) = a + b := by rw [net_cons, hnet]; rfl
  have e2 : net (List.replicate b .inc ++ [.add a]) = a + b := by
    simp only [net, List.map_append, List.sum_append] at *
    rw [hnet b]; simp [delta]; omega
  rw [e1] at h3; rw [e2] at h3'
  rw [h1, h1', Except.ok.inj (h3.symm.trans h3')]

example : exV.StOK 1 ∧ ForwardHist (shorten exV.n 1).prod 0 [.add 5, .inc, .dec, .dec, .add 3] := by
  refine ⟨exV_ok 1 (by omega), ?_⟩
  simp [exV, shorten, ForwardHist, Forward, delta]

/-! ### C09

False of the code, so negated by concrete witnesses below; what does hold is the `_partial` theorem.  Full statement: for
all positions `p, q` in `[0, n]` and every history of moves that stays in `[0, n]`, the state depends only on the net distance
and the pair is the one at that position, `s + n == n-fold ++s`, and `--(s + n)` refers to pair `n - 1`. -/

/-- `begin + n` is not equal to `n`-fold `++begin`: the jump lands one base element further -/
theorem C09_end_differs_false :
    ∃ s a b, exV.stencil 1 = .ok s ∧ s.adv 9 = .ok a ∧ iterM FS.inc 9 s = .ok b ∧ a.equal b = false ∧
      a.distTo b = .ok 0 := by
  refine ⟨⟨exV, 1, 3, 9, 0⟩, ⟨{ exV with current := [2, 4] }, 1, 3, 0, 3⟩, ⟨{ exV with current := [2, 3] }, 1, 3, 0, 3⟩, ?_⟩
  decide

/-- stepping back from `begin + n` does not give the last pair -/
theorem C09_dec_end_false :
    ∃ s a b, exV.stencil 1 = .ok s ∧ s.adv 9 = .ok a ∧ a.dec = .ok b ∧
      b.addrs ≠ exV.pairAddr 1 (coords (shorten exV.n 1) 8) := by
  refine ⟨⟨exV, 1, 3, 9, 0⟩, ⟨{ exV with current := [2, 4] }, 1, 3, 0, 3⟩, ⟨{ exV with current := [2, 3] }, 1, 3, 1, 2⟩, ?_⟩
  decide

/-- a backward jump onto the first pair of an earlier row gives another pair: `(s + 8) + (-5)` is not `s + 3` -/
theorem C09_backward_false :
    ∃ s a b, exV.stencil 1 = .ok s ∧ s.adv 8 = .ok a ∧ a.adv (-5) = .ok b ∧ s.adv 3 ≠ .ok b ∧
      b.addrs ≠ exV.pairAddr 1 (coords (shorten exV.n 1) 3) := by
  refine ⟨⟨exV, 1, 3, 9, 0⟩, ⟨{ exV with current := [2, 2] }, 1, 3, 1, 2⟩, ⟨{ exV with current := [0, 3] }, 1, 3, 6, 3⟩, ?_⟩
  decide

/-- the end defect is not special to the witness: for every view and dimension, `begin + n` and `n`-fold `++begin` are
unequal iterators at distance zero -/
theorem C09_end_always_differs {it : MT} {i : Nat} (h : it.StOK i) {s : FS MT} (hs : it.stencil i = .ok s) :
    ∃ a b, s.adv s.distanceToLast = .ok a ∧ iterM FS.inc s.distanceToLast.toNat s = .ok b ∧ a.equal b = false ∧
      a.distTo b = .ok 0 := by
  have hs' : s = FS.make it (it.gS i) (it.gL i) (it.gB i * it.gL i) := Except.ok.inj (hs.symm.trans (MT.stencil_ok h))
  have g := h.geo
  have hBL : 1 ≤ it.gB i * it.gL i := by have := g.hL; have := g.hB; nlinarith
  have hBS : 0 ≤ (it.gB i - 1) * it.gS i := by have := g.hS; have := g.hB; nlinarith
  have hT := g.hT
  have hexp : it.gB i * (it.gL i + it.gS i) = it.gB i * it.gL i + (it.gB i - 1) * it.gS i + it.gS i := by ring
  have hS := g.hS
  have hd : s.distanceToLast = it.gB i * it.gL i := by rw [hs']; rfl
  have ha := FS.adv_to_end g (MT.walk h.toWF) (p := 0) (le_refl _) (by omega)
  rw [sub_zero, ← h.begin_eq, ← hs'] at ha
  have hinc : ∀ (n : Nat) (q : Int), 0 ≤ q → q + n + 1 = it.gB i * it.gL i →
      iterM FS.inc (n + 1) (FS.at_ it.at_ (it.gS i) (it.gL i) (it.gB i) q) =
        .ok (FS.end_ it.at_ (it.gS i) (it.gL i) (it.gB i)) := by
    intro n
    induction n with
    | zero =>
      intro q q0 hq
      have : q = it.gB i * it.gL i - 1 := by push_cast at hq; omega
      subst this
      simp only [iterM]
      rw [FS.inc_last g (MT.walk h.toWF), M.ok_bind]
    | succ n ih =>
      intro q q0 hq
      rw [iterM]
      rw [FS.inc_at g (MT.walk h.toWF) q0 (by push_cast at hq; omega), M.ok_bind, ih (q + 1) (by omega) (by push_cast at hq; omega)]
  have hb := hinc (s.distanceToLast.toNat - 1) 0 (le_refl _) (by omega)
  rw [← h.begin_eq, ← hs', show s.distanceToLast.toNat - 1 + 1 = s.distanceToLast.toNat by omega] at hb
  refine ⟨_, _, by rw [hd]; exact ha, hb, ?_, ?_⟩
  · rw [Bool.eq_false_iff]
    intro e
    have := (MT.equal_at h.toWF (j := it.gB i * it.gL i + (it.gB i - 1) * it.gS i + 1)
      (k := it.gB i * it.gL i + (it.gB i - 1) * it.gS i) (by omega) (by omega) (by omega) (by omega)).1 e
    omega
  · rfl

/-- What holds: every history that stays before the end and whose backward jumps do not land on the first pair of an
earlier run leaves the iterator in the state of one jump from begin over the net distance, at the right pair, and the
distance between two such iterators is the difference of their positions.  Missing: the end position reached by a jump, and
backward jumps onto the first pair of an earlier run (both false, see above). -/
theorem C09_laws_partial {it : MT} {i : Nat} (h : it.StOK i) {s : FS MT} (hs : it.stencil i = .ok s) {ms ms' : List Move}
    (hm : SoundHist (runLength it.n i) (shorten it.n i).prod 0 ms)
    (hm' : SoundHist (runLength it.n i) (shorten it.n i).prod 0 ms') :
    ∃ a b, runMoves ms s = .ok a ∧ runMoves ms' s = .ok b ∧ s.adv (net ms) = .ok a ∧
      a.addrs = it.pairAddr i (coords (shorten it.n i) (net ms)) ∧ a.distTo b = .ok (net ms' - net ms) ∧
      (a.equal b = true ↔ net ms = net ms') := by
  have hs' : s = FS.make it (it.gS i) (it.gL i) (it.gB i * it.gL i) := Except.ok.inj (hs.symm.trans (MT.stencil_ok h))
  have g := h.geo
  have hsz := h.size_eq
  rw [runLength_eq h, ← hsz] at hm hm'
  have hl := SoundHist.last hm
  have hl' := SoundHist.last hm'
  rw [zero_add] at hl hl'
  have hT := g.L_le
  have hI := g.hI
  obtain ⟨_, q0, _, _, _, q5⟩ := FS.pos_lt g hl.1 hl.2
  obtain ⟨_, q0', _, _, _, q5'⟩ := FS.pos_lt g hl'.1 hl'.2
  have hS := g.hS
  have hqS : 0 ≤ net ms / it.gL i * it.gS i := mul_nonneg q0 (by omega)
  have hqS' : 0 ≤ net ms' / it.gL i * it.gS i := mul_nonneg q0' (by omega)
  refine ⟨FS.at_ it.at_ (it.gS i) (it.gL i) (it.gB i) (net ms), FS.at_ it.at_ (it.gS i) (it.gL i) (it.gB i) (net ms'), ?_, ?_, ?_, ?_, ?_, ?_⟩
  · rw [hs', h.begin_eq, FS.run_sound g (MT.walk h.toWF) hm, zero_add]
  · rw [hs', h.begin_eq, FS.run_sound g (MT.walk h.toWF) hm', zero_add]
  · rw [hs', h.begin_eq, FS.adv_at g (MT.walk h.toWF) (le_refl _) (by omega) (by omega) (by omega)
      (.inl (by rw [Int.zero_emod]; omega)), zero_add]
  · exact h.addrs_at hl.1 (by rw [← hsz]; exact hl.2)
  · unfold FS.distTo FS.at_
    simp only []
    rw [dsub_ok (by unfold InDiff; omega)]
    congr 1; omega
  · unfold FS.equal FS.at_
    simp only []
    rw [MT.equal_at h.toWF (by omega) (by omega) (by omega) (by omega)]
    constructor
    · intro e
      rcases lt_trichotomy (net ms) (net ms') with hlt | heq | hgt
      · have := Int.ediv_le_ediv (show 0 < it.gL i by have := g.hL; omega) (le_of_lt hlt)
        have : net ms / it.gL i * it.gS i ≤ net ms' / it.gL i * it.gS i := mul_le_mul_of_nonneg_right this (by omega)
        omega
      · exact heq
      · have := Int.ediv_le_ediv (show 0 < it.gL i by have := g.hL; omega) (le_of_lt hgt)
        have : net ms' / it.gL i * it.gS i ≤ net ms / it.gL i * it.gS i := mul_le_mul_of_nonneg_right this (by omega)
        omega
    · intro e; rw [e]

example : exV.StOK 1 ∧ SoundHist (runLength exV.n 1) (shorten exV.n 1).prod 0 [.add 8, .sub 4, .dec, .inc, .add 3] := by
  refine ⟨exV_ok 1 (by omega), ?_⟩
  simp [exV, shorten, runLength, SoundHist, Sound, delta]

end Verif
