import Verif.Model.Kernels.BlockSmooth
import Verif.Lemmas.SmoothRun

/-
Loops that change two arrays cell by cell, each new value a function of the old value at the cell.
-/

namespace Verif.F

set_option linter.unusedVariables false

variable {T : Type}

theorem Holds.put_other {m : Mem T} {a b : Arr} {p : List Int} {v : T} {V : List Int → T} (h : Holds m a V) (hp : InBounds b.dims p) (hb : Apart b a) :
    Holds (put m b p v) a V := h.only (only_put hp) (by simpa using hb)

/-- one array -/
theorem local1 {u : Arr} {c : List Int → Cmd T} {G : List Int → T → T} {m : Mem T} {l : List (List Int)} {W : List Int → T}
    (hl : l.Pairwise Before) (h : Holds m u W) (hb : ∀ p ∈ l, InBounds u.dims p)
    (hc : ∀ p ∈ l, ∀ m1 V, Holds m1 u V → Only [u] m m1 → c p m1 = .ok (put m1 u p (G p (V p)))) :
    ∃ m' W', runPts l c m = .ok m' ∧ Holds m' u W' ∧ Only [u] m m' ∧ (∀ p, p ∉ l → W' p = W p) ∧ ∀ p ∈ l, W' p = G p (W p) := by
  obtain ⟨m', g1, g2, g3⟩ := sweep (G := fun p V => G p (V p)) h Only.refl hb hc
  refine ⟨m', _, g1, g2, g3, fun p hp => swp_not_mem hp, fun p hp => ?_⟩
  obtain ⟨V, v1, -, v3⟩ := swp_mem (G := fun p V => G p (V p)) (W := W) hl before_asymm hp
  rw [v1, v3 p fun hq => before_asymm p p hq.2 hq.2]

/-- two arrays -/
theorem local2 {u v : Arr} {c : List Int → Cmd T} {G H : List Int → T → T} {m0 : Mem T} (uv : Apart u v) : ∀ {l : List (List Int)} {m : Mem T} {W X : List Int → T},
    l.Nodup → Holds m u W → Holds m v X → Only [u, v] m0 m → (∀ p ∈ l, InBounds u.dims p) → (∀ p ∈ l, InBounds v.dims p) →
    (∀ p ∈ l, ∀ m1 V Y, Holds m1 u V → Holds m1 v Y → Only [u, v] m0 m1 → c p m1 = .ok (put (put m1 u p (G p (V p))) v p (H p (Y p)))) →
    ∃ m' W' X', runPts l c m = .ok m' ∧ Holds m' u W' ∧ Holds m' v X' ∧ Only [u, v] m0 m' ∧
      (∀ p, p ∉ l → W' p = W p ∧ X' p = X p) ∧ ∀ p ∈ l, W' p = G p (W p) ∧ X' p = H p (X p)
  | [], m, W, X, _, hu, hv, ho, _, _, _ => ⟨m, W, X, rfl, hu, hv, ho, fun _ _ => ⟨rfl, rfl⟩, fun _ h => by simp at h⟩
  | p :: l, m, W, X, hl, hu, hv, ho, bu, bv, hc => by
    have pu := bu p List.mem_cons_self
    have pv := bv p List.mem_cons_self
    obtain ⟨hpl, hl⟩ := List.nodup_cons.1 hl
    have hu1 : Holds (put (put m u p (G p (W p))) v p (H p (X p))) u (upd W p (G p (W p))) :=
      (holds_put pu hu).put_other pv (apart_symm uv)
    have hv1 : Holds (put (put m u p (G p (W p))) v p (H p (X p))) v (upd X p (H p (X p))) :=
      holds_put pv (hv.put_other pu uv)
    have ho1 : Only [u, v] m0 (put (put m u p (G p (W p))) v p (H p (X p))) :=
      (ho.trans ((only_put pu).mono (by simp))).trans ((only_put pv).mono (by simp))
    obtain ⟨m', W', X', g1, g2, g3, g4, g5, g6⟩ := local2 uv (l := l) hl hu1 hv1 ho1 (fun q hq => bu q (List.mem_cons_of_mem _ hq))
      (fun q hq => bv q (List.mem_cons_of_mem _ hq)) fun q hq => hc q (List.mem_cons_of_mem _ hq)
    refine ⟨m', W', X', ?_, g2, g3, g4, fun q hq => ?_, fun q hq => ?_⟩
    · simp only [runPts, List.foldlM_cons] at g1 ⊢
      rw [hc p List.mem_cons_self m W X hu hv ho, M.ok_bind]
      exact g1
    · rw [List.mem_cons, not_or] at hq
      obtain ⟨a, b⟩ := g5 q hq.2
      rw [a, b, upd, upd, if_neg hq.1, if_neg hq.1]
      exact ⟨rfl, rfl⟩
    · rcases List.mem_cons.1 hq with rfl | hq'
      · obtain ⟨a, b⟩ := g5 q hpl
        rw [a, b, upd, upd, if_pos rfl, if_pos rfl]
        exact ⟨rfl, rfl⟩
      · have hne : q ≠ p := fun e => hpl (e ▸ hq')
        obtain ⟨a, b⟩ := g6 q hq'
        rw [a, b, upd, upd, if_neg hne, if_neg hne]
        exact ⟨rfl, rfl⟩

theorem before_nodup {l : List (List Int)} (h : l.Pairwise Before) : l.Nodup := h.imp fun {a b} (hab : Before a b) (e : a = b) => before_asymm a b hab (e ▸ hab)

section
variable [NatCast T] [Add T] [Sub T] [Mul T] [Div T] [Neg T] {a f u g v : Arr} {A B B0 B1 U V : List Int → T} {m : Mem T} {box : List (Int × Int)} {w : T}

/-- the step for one unknown -/
theorem block1 {l : List (List Int)} (hl : l.Pairwise Before) (hb : ∀ p, p ∈ l ↔ InBounds box p)
    (ia : ∀ p, InBounds box p → InBounds a.dims p) (jf : ∀ p, InBounds box p → InBounds f.dims p) (iu : ∀ p, InBounds box p → InBounds u.dims p)
    (ha : Holds m a A) (hf : Holds m f B) (hu : Holds m u U) (ua : Apart u a) (uf : Apart u f) :
    ∃ m' U', runPts l (fun p => assign u p (u.el p + .const w * f.el p / a.el p)) m = .ok m' ∧ Holds m' u U' ∧ Only [u] m m' ∧
      (∀ p, ¬ InBounds box p → U' p = U p) ∧ ∀ p, InBounds box p → U' p = U p + w * B p / A p := by
  obtain ⟨m', U', g1, g2, g3, g4, g5⟩ := local1 (G := fun p x => x + w * B p / A p) (c := fun p => assign u p (u.el p + .const w * f.el p / a.el p))
    hl hu (fun p hp => iu p ((hb p).1 hp)) fun p hp m1 V hV ho => by
    have hp := (hb p).1 hp
    exact hV.assign (iu p hp) (add_ok' (hV.ref (iu p hp)) (div_ok (mul_ok' rfl ((hf.only ho (by simpa using uf)).ref (jf p hp)))
      ((ha.only ho (by simpa using ua)).ref (ia p hp))))
  exact ⟨m', U', g1, g2, g3, fun p hp => g4 p fun h => hp ((hb p).1 h), fun p hp => g5 p ((hb p).2 hp)⟩

/-- the cell of the step for two unknowns -/
def cell2 (a f g u v : Arr) (w : T) (p : List Int) : Cmd T := fun m => do
  let det ← (a.el (0 :: p) * a.el (3 :: p) - a.el (1 :: p) * a.el (2 :: p) : Expr T).eval m
  block [
    assign u p (u.el p + .const w * (a.el (3 :: p) * f.el p - a.el (1 :: p) * g.el p) / .const det),
    assign v p (v.el p + .const w * (a.el (0 :: p) * g.el p - a.el (2 :: p) * f.el p) / .const det)] m

/-- the step for two unknowns -/
theorem block2x2 {l : List (List Int)} (hl : l.Pairwise Before) (hb : ∀ p, p ∈ l ↔ InBounds box p)
    (ia : ∀ p, InBounds box p → ∀ s, 0 ≤ s → s < 4 → InBounds a.dims (s :: p)) (jf : ∀ p, InBounds box p → InBounds f.dims p)
    (jg : ∀ p, InBounds box p → InBounds g.dims p) (iu : ∀ p, InBounds box p → InBounds u.dims p) (iv : ∀ p, InBounds box p → InBounds v.dims p)
    (ha : Holds m a A) (hf : Holds m f B0) (hg : Holds m g B1) (hu : Holds m u U) (hv : Holds m v V)
    (ua : Apart u a) (uf : Apart u f) (ug : Apart u g) (va : Apart v a) (vf : Apart v f) (vg : Apart v g) (uv : Apart u v) :
    ∃ m' U' V', runPts l (cell2 a f g u v w) m = .ok m' ∧ Holds m' u U' ∧ Holds m' v V' ∧ Only [u, v] m m' ∧
      (∀ p, ¬ InBounds box p → U' p = U p ∧ V' p = V p) ∧ ∀ p, InBounds box p →
        U' p = U p + w * (A (3 :: p) * B0 p - A (1 :: p) * B1 p) / (A (0 :: p) * A (3 :: p) - A (1 :: p) * A (2 :: p)) ∧
        V' p = V p + w * (A (0 :: p) * B1 p - A (2 :: p) * B0 p) / (A (0 :: p) * A (3 :: p) - A (1 :: p) * A (2 :: p)) := by
  obtain ⟨m', U', V', g1, g2, g3, g4, g5, g6⟩ := local2 (c := cell2 a f g u v w)
    (G := fun p x => x + w * (A (3 :: p) * B0 p - A (1 :: p) * B1 p) / (A (0 :: p) * A (3 :: p) - A (1 :: p) * A (2 :: p)))
    (H := fun p x => x + w * (A (0 :: p) * B1 p - A (2 :: p) * B0 p) / (A (0 :: p) * A (3 :: p) - A (1 :: p) * A (2 :: p)))
    uv (before_nodup hl) hu hv Only.refl (fun p hp => iu p ((hb p).1 hp)) (fun p hp => iv p ((hb p).1 hp)) fun p hp m1 X Y hX hY ho => by
    have hp := (hb p).1 hp
    have a1 : ∀ s, 0 ≤ s → s < 4 → (a.el (s :: p) : Expr T).eval m1 = .ok (A (s :: p)) := fun s h0 h1 =>
      (ha.only ho (by simp [ua, va])).ref (ia p hp s h0 h1)
    have f1 := (hf.only ho (by simp [uf, vf])).ref (jf p hp)
    have e1 := (hg.only ho (by simp [ug, vg])).ref (jg p hp)
    have ho2 : ∀ x, Only [u, v] m (put m1 u p x) := fun x => ho.trans ((only_put (iu p hp)).mono (by simp))
    have a2 : ∀ x s, 0 ≤ s → s < 4 → (a.el (s :: p) : Expr T).eval (put m1 u p x) = .ok (A (s :: p)) := fun x s h0 h1 =>
      (ha.only (ho2 x) (by simp [ua, va])).ref (ia p hp s h0 h1)
    have f2 := fun x => (hf.only (ho2 x) (by simp [uf, vf])).ref (jf p hp)
    have e2 := fun x => (hg.only (ho2 x) (by simp [ug, vg])).ref (jg p hp)
    rw [cell2, sub_ok (mul_ok' (a1 0 (by decide) (by decide)) (a1 3 (by decide) (by decide)))
      (mul_ok' (a1 1 (by decide) (by decide)) (a1 2 (by decide) (by decide))), M.ok_bind, block2]
    rw [hX.assign (iu p hp) (add_ok' (hX.ref (iu p hp)) (div_ok (mul_ok' rfl (sub_ok (mul_ok' (a1 3 (by decide) (by decide)) f1)
      (mul_ok' (a1 1 (by decide) (by decide)) e1))) rfl)), M.ok_bind]
    exact (hY.put_other (iu p hp) uv).assign (iv p hp) (add_ok' ((hY.put_other (iu p hp) uv).ref (iv p hp)) (div_ok (mul_ok' rfl
      (sub_ok (mul_ok' (a2 _ 0 (by decide) (by decide)) (e2 _)) (mul_ok' (a2 _ 2 (by decide) (by decide)) (f2 _)))) rfl))
  exact ⟨m', U', V', g1, g2, g3, g4, fun p hp => g5 p fun h => hp ((hb p).1 h), fun p hp => g6 p ((hb p).2 hp)⟩

end

end Verif.F
