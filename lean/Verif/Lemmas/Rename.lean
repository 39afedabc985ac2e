import Verif.Spec.Fortran

/-
Fortran routines do the same whatever blocks their arrays lie in.
-/

namespace Verif

variable {T : Type}

/-- a pointer into the block `s` says -/
def Ptr.ren (s : Nat → Nat) (p : Ptr) : Ptr := ⟨s p.blk, p.off⟩

/-- memory with the blocks renamed -/
def Mem.ren (s : Nat → Nat) (m : Mem T) : Mem T := { m with val := fun q => m.val (q.ren s) }

namespace F

def Arr.ren (s : Nat → Nat) (a : Arr) : Arr := ⟨a.ptr.ren s, a.dims⟩

def Expr.ren (s : Nat → Nat) : Expr T → Expr T
  | .const t => .const t
  | .ref a is => .ref (a.ren s) is
  | .neg e => .neg (e.ren s)
  | .add e f => .add (e.ren s) (f.ren s)
  | .sub e f => .sub (e.ren s) (f.ren s)
  | .mul e f => .mul (e.ren s) (f.ren s)
  | .div e f => .div (e.ren s) (f.ren s)

/-- `c'` does in renamed memory what `c` does -/
def Ren (s : Nat → Nat) (c c' : Cmd T) : Prop := ∀ m, c' (m.ren s) = (c m).map (Mem.ren s)

variable {s : Nat → Nat}

theorem addr_ren {a : Arr} {is : List Int} : (a.ren s).addr is = (a.addr is).map (Ptr.ren s) := by
  unfold Arr.addr Arr.ren
  dsimp only
  split <;> rfl

theorem load_ren (hs : ∀ k, s (s k) = k) {m : Mem T} {p : Ptr} : (m.ren s).load (p.ren s) = m.load p := by
  unfold Mem.load Mem.ren Ptr.ren
  simp only [hs]

theorem store_ren (hs : ∀ k, s (s k) = k) {m : Mem T} {p : Ptr} {v : T} : (m.ren s).store (p.ren s) v = (m.store p v).map (Mem.ren s) := by
  have e : (m.ren s).val (p.ren s) = m.val p := by
    unfold Mem.ren Ptr.ren
    simp only [hs]
  unfold Mem.store
  rw [e]
  cases m.val p with
  | none => rfl
  | some x =>
    simp only [Except.map]
    congr 1
    unfold Mem.ren
    congr 1
    funext q
    have : q = p.ren s ↔ q.ren s = p := by
      constructor
      · rintro rfl
        unfold Ptr.ren
        simp only [hs]
      · rintro rfl
        unfold Ptr.ren
        simp only [hs]
    simp only [this]

variable [Add T] [Sub T] [Mul T] [Div T] [Neg T]

theorem eval_ren (hs : ∀ k, s (s k) = k) {m : Mem T} : ∀ e : Expr T, (e.ren s).eval (m.ren s) = e.eval m
  | .const t => rfl
  | .ref a is => by
    simp only [Expr.ren, Expr.eval, addr_ren]
    cases a.addr is with
    | error => rfl
    | ok p => exact load_ren hs
  | .neg e => by simp only [Expr.ren, Expr.eval, eval_ren hs e]
  | .add e f => by simp only [Expr.ren, Expr.eval, eval_ren hs e, eval_ren hs f]
  | .sub e f => by simp only [Expr.ren, Expr.eval, eval_ren hs e, eval_ren hs f]
  | .mul e f => by simp only [Expr.ren, Expr.eval, eval_ren hs e, eval_ren hs f]
  | .div e f => by simp only [Expr.ren, Expr.eval, eval_ren hs e, eval_ren hs f]

theorem ren_assign (hs : ∀ k, s (s k) = k) {a a' : Arr} {is : List Int} {e e' : Expr T} (ha : a' = a.ren s) (he : e' = e.ren s) :
    Ren s (assign a is e) (assign a' is e') := by
  subst ha he
  intro m
  unfold assign
  rw [eval_ren hs, addr_ren]
  cases e.eval m with
  | error => rfl
  | ok v =>
    cases a.addr is with
    | error => rfl
    | ok p => exact store_ren hs

omit [Add T] [Sub T] [Mul T] [Div T] [Neg T]

theorem ren_skip : Ren s (skip : Cmd T) skip := fun _ => rfl

theorem ren_nil : Ren s (block ([] : List (Cmd T))) (block []) := fun _ => rfl

theorem ren_cons {c c' : Cmd T} {cs cs' : List (Cmd T)} (h : Ren s c c') (hs : Ren s (block cs) (block cs')) : Ren s (block (c :: cs)) (block (c' :: cs')) := by
  intro m
  simp only [block]
  rw [h m]
  cases c m with
  | error => rfl
  | ok m' => exact hs m'

theorem ren_doLoop {lo hi : Int} {b b' : Int → Cmd T} (h : ∀ i, Ren s (b i) (b' i)) : Ren s (doLoop lo hi b) (doLoop lo hi b') := by
  intro m
  unfold doLoop
  generalize irange lo hi = l
  induction l generalizing m with
  | nil => rfl
  | cons i l ih =>
    rw [List.foldlM_cons, List.foldlM_cons, h i m]
    cases b i m with
    | error => rfl
    | ok m' => exact ih m'

theorem ren_ite {p : Prop} [Decidable p] {c d c' d' : Cmd T} (h : Ren s c c') (h' : Ren s d d') : Ren s (if p then c else d) (if p then c' else d') := by
  split
  · exact h
  · exact h'

/-- the routine is built from the statements above -/
macro "renames" hs:term : tactic => `(tactic|
  (dsimp only
   repeat' first
    | exact ren_skip
    | exact ren_nil
    | exact ren_assign $hs rfl rfl
    | refine ren_cons ?_ ?_
    | refine ren_doLoop fun _ => ?_
    | refine ren_ite ?_ ?_))

end F
end Verif
