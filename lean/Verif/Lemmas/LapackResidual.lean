import Verif.Lemmas.SmoothRun

/-
The residual the block smoother with a dense solve forms at one cell.
-/

namespace Verif.F

variable {T : Type} [Add T] [Sub T] [Mul T] [Div T] [Neg T]
variable {m m1 : Mem T} {box : List (Int × Int)} {n : Int} {tab st f u : Arr} {O : Int → List Int} {S F U V : List Int → T} {p : List Int}

theorem residual_cell {r : Arr} {R : List Int → T} (h : Problem m box n tab st f u O S F U) (hp : InBounds box p) (hr : InBounds r.dims p)
    (hR : Holds m1 r R) (ho : Only [r] m m1) (ru : Apart r u) (rs : Apart r st) (rf : Apart r f) {X : Int → Cmd T}
    (hX : ∀ s, 0 ≤ s → s < n → ∀ m2 : Mem T, m2.ints = m.ints →
      X s m2 = assign r p (.ref r p - .ref st (s :: p) * .ref u (shift p (O s))) m2) :
    block [assign r p (f.el p), doLoop 0 (n - 1) X] m1 = .ok (put m1 r p ((irange 0 (n - 1)).foldl (fun x s => x - S (s :: p) * U (shift p (O s))) (F p))) := by
  have op : ∀ v, Only [r] m (put m1 r p v) := fun v => ho.trans (only_put hr)
  have hs : ∀ v, Holds (put m1 r p v) st S := fun v => h.holdsSt.only (op v) (by simpa using rs)
  have hu : ∀ v, Holds (put m1 r p v) u U := fun v => h.holdsU.only (op v) (by simpa using ru)
  have hr' : ∀ v, (Expr.ref r p : Expr T).eval (put m1 r p v) = .ok v := fun v => by
    have := (holds_put (v := v) hr hR).ref hr
    rw [this, upd, if_pos rfl]
  have hput : ∀ v w, put (put m1 r p v) r p w = put m1 r p w := fun v w => by
    unfold put
    congr 1
    funext q
    dsimp only
    split <;> rfl
  have h1 : assign r p (f.el p) m1 = .ok (put m1 r p (F p)) := hR.assign hr ((h.holdsF.only ho (by simpa using rf)).ref (h.inF p hp))
  have h2 : ∀ (l : List Int), (∀ s ∈ l, 0 ≤ s ∧ s < n) → ∀ v, l.foldlM (fun m s => X s m) (put m1 r p v) =
      .ok (put m1 r p (l.foldl (fun r s => r - S (s :: p) * U (shift p (O s))) v)) := by
    intro l
    induction l with
    | nil => intros; rfl
    | cons s l ih =>
      intro hl v
      obtain ⟨a, b⟩ := hl s List.mem_cons_self
      rw [List.foldlM_cons, hX s a b _ (op v).ints, (holds_put (v := v) hr hR).assign hr (h.term hp (hu v) (hs v) a b (hr' v)), M.ok_bind, hput,
        ih fun s hs => hl s (List.mem_cons_of_mem _ hs)]
      rfl
  rw [block2, h1, M.ok_bind]
  exact h2 _ (fun s hs => by have := mem_irange.1 hs; omega) _

theorem srange_none {lo hi st : Int} (hs : 1 ≤ st) (h : hi < lo) : srange lo hi st = [] := by
  have : ((hi - lo + st).tdiv st).toNat = 0 := by
    rcases lt_or_ge (hi - lo + st) 0 with a | a
    · have b : 0 ≤ (-(hi - lo + st)).tdiv st := Int.tdiv_nonneg (by omega) (by omega)
      rw [Int.neg_tdiv] at b
      omega
    · rw [Int.tdiv_eq_zero_of_lt a (by omega)]; rfl
  unfold srange
  rw [this]
  rfl

end Verif.F
