import Verif.Lemmas.SmoothRun

/-
A smoother written out for a fixed number of points and the one reading a table: the same statement at every cell.
-/

set_option linter.unusedSectionVars false

namespace Verif.F

variable {T : Type} [Add T] [Sub T] [Mul T] [Div T] [Neg T]

theorem mok {α β : Type} {x : α} {f : α → M β} : ((Except.ok x : M α) >>= f) = f x := rfl

theorem assign_ints {a : Arr} {is : List Int} {e : Expr T} {m m' : Mem T} (h : assign a is e m = .ok m') : m'.ints = m.ints := by
  unfold assign at h
  cases he : e.eval m with
  | error x => rw [he] at h; cases h
  | ok v =>
    rw [he] at h
    cases ha : a.addr is with
    | error x => rw [mok, ha] at h; cases h
    | ok q =>
      rw [mok, ha, mok] at h
      unfold Mem.store at h
      split at h
      · cases h; rfl
      · cases h

/-- loops over the same values with bodies that agree on memories with the same tables, and keep the tables -/
theorem foldlM_same {P : Type} {c d : P → Cmd T} {m0 : Mem T} : ∀ {l : List P} {m : Mem T},
    (∀ p m, m.ints = m0.ints → c p m = d p m) → (∀ p m m', m.ints = m0.ints → d p m = .ok m' → m'.ints = m0.ints) → m.ints = m0.ints →
    l.foldlM (fun m p => c p m) m = l.foldlM (fun m p => d p m) m ∧ ∀ m', l.foldlM (fun m p => d p m) m = .ok m' → m'.ints = m0.ints
  | [], m, _, _, h => ⟨rfl, fun m' hm => by cases hm; exact h⟩
  | p :: l, m, hc, hd, h => by
    rw [List.foldlM_cons, List.foldlM_cons, hc p m h]
    cases hp : d p m with
    | error x => exact ⟨rfl, fun m' hm => by cases hm⟩
    | ok m1 => exact foldlM_same (l := l) (m := m1) hc hd (hd p m m1 h hp)

theorem sub_bind {e g : Expr T} {m : Mem T} : (e - g).eval m = (e.eval m >>= fun r => (Expr.const r - g).eval m) := by
  show (Expr.sub e g).eval m = _
  rw [Expr.eval]
  rfl

theorem div_assign {a : Arr} {is : List Int} {e g : Expr T} {m : Mem T} :
    assign a is (e / g) m = (e.eval m >>= fun r => assign a is (Expr.const r / g) m) := by
  unfold assign
  show ((Expr.div e g).eval m >>= _) = _
  rw [Expr.eval]
  cases e.eval m <;> rfl

theorem ref_cases (a : Arr) (is : List Int) (m : Mem T) : (Expr.ref a is : Expr T).eval m = .error .oob ∨
    ∃ v, (Expr.ref a is : Expr T).eval m = .ok v := by
  rw [Expr.eval]
  unfold Arr.addr
  split
  · unfold Mem.load
    rw [mok]
    split
    · exact .inr ⟨_, rfl⟩
    · exact .inl rfl
  · exact .inl rfl

theorem bind_inv {α β : Type} {x : M α} {g : α → M β} {b : β} (h : (x >>= g) = .ok b) : ∃ a, g a = .ok b := by
  cases x with
  | error e => cases h
  | ok a => exact ⟨a, h⟩

/-- numerator stored first and then divided in place -/
theorem divide_in_place {u st : Arr} {p q : List Int} {e : Expr T} {m : Mem T} (hu : Apart u st) :
    block [assign u p e, assign u p (u.el p / st.el q)] m = (e.eval m >>= fun r => assign u p (Expr.const r / st.el q) m) := by
  rw [block2]
  cases he : e.eval m with
  | error x => unfold assign; rw [he]; rfl
  | ok r =>
    rw [mok]
    have hd : (Expr.const r / (st.el q : Expr T)).eval m = ((st.el q : Expr T).eval m >>= fun d => .ok (r / d)) := rfl
    by_cases hp : InBounds u.dims p
    · cases hv : m.val (u.addrT p) with
      | none =>
        have ha : u.addr p = .ok (u.addrT p) := if_pos hp
        have h1 : ∀ w : T, m.store (u.addrT p) w = .error .oob := fun w => by unfold Mem.store; rw [hv]
        unfold assign
        rw [he, hd, mok, ha, mok, h1]
        rcases ref_cases st q m with h | ⟨d, h⟩
        · rw [Arr.el, h]; rfl
        · rw [Arr.el, h, mok, mok, mok, h1]; rfl
      | some w =>
        rw [assign_ok he hp hv]
        show assign u p (u.el p / st.el q) (put m u p r) = _
        have h2 : (u.el p : Expr T).eval (put m u p r) = .ok r := ref_ok hp (if_pos rfl)
        have h3 : (st.el q : Expr T).eval (put m u p r) = (st.el q : Expr T).eval m := by
          by_cases hq : InBounds st.dims q
          · have ha : st.addr q = .ok (st.addrT q) := if_pos hq
            rw [Arr.el, Expr.eval, Expr.eval, ha, mok, mok]
            unfold Mem.load
            have : (put m u p r).val (st.addrT q) = m.val (st.addrT q) := if_neg fun h => hu p q hp hq h.symm
            rw [this]
          · have ha : st.addr q = .error .oob := if_neg hq
            rw [Arr.el, Expr.eval, Expr.eval, ha]; rfl
        have h4 : (u.el p / (st.el q : Expr T)).eval (put m u p r) = ((st.el q : Expr T).eval m >>= fun d => .ok (r / d)) := by
          rw [← h3]
          show ((u.el p : Expr T).eval _ >>= _) = _
          rw [h2]; rfl
        rcases ref_cases st q m with h | ⟨d, h⟩
        · unfold assign
          rw [h4, hd, Arr.el, h]; rfl
        · rw [Arr.el, h, mok] at h4 hd
          rw [assign_ok h4 hp (if_pos rfl), assign_ok hd hp hv]
          congr 2
          funext x
          show (if x = _ then _ else if x = _ then _ else _) = _
          split <;> rfl
    · have ha : u.addr p = .error .oob := if_neg hp
      unfold assign
      rw [he, hd, mok, ha]
      rcases ref_cases st q m with h | ⟨d, h⟩
      · rw [Arr.el, h]; rfl
      · rw [Arr.el, h]; rfl

end Verif.F
