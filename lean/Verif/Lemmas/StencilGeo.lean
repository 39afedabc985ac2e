import Verif.Lemmas.ForwardStencil
import Verif.Lemmas.Moves
import Verif.Lemmas.Submatrix
import Verif.Spec.Box

namespace Verif
open Spec

theorem shrink_ok : ∀ {n : List Int} {i : Nat}, Pos n → n.prod ≤ 2147483647 → shrink n i = .ok (shorten n i)
  | [], _, _, _ => rfl
  | s :: ss, 0, hp, hN => by
    have h1 := hp.head
    have := mem_le_prod hp s List.mem_cons_self
    simp only [shrink, shorten]
    rw [isub_ok (by unfold InInt; omega), M.ok_bind]
  | s :: ss, i + 1, hp, hN => by
    have h1 := hp.head
    have h2 := hp.tail.prod_pos
    rw [List.prod_cons] at hN
    simp only [shrink, shorten]
    rw [shrink_ok hp.tail (by nlinarith), M.ok_bind]

theorem shorten_pos : ∀ {n : List Int} {i : Nat}, Pos n → 2 ≤ n.getD i 0 → Pos (shorten n i)
  | [], _, h, _ => h
  | s :: ss, 0, h, h2 => by
    intro x hx
    simp only [shorten, List.mem_cons] at hx
    simp at h2
    rcases hx with rfl | hx
    · omega
    · exact h.tail x hx
  | s :: ss, i + 1, h, h2 => by
    intro x hx
    simp only [shorten, List.mem_cons] at hx
    rcases hx with rfl | hx
    · exact h.head
    · exact shorten_pos h.tail (by simpa using h2) x hx

theorem shorten_drop_prod : ∀ {n : List Int} {i : Nat}, i < n.length →
    ((shorten n i).drop i).prod = (n.getD i 0 - 1) * weight n i
  | s :: ss, 0, _ => by simp [shorten, weight]
  | s :: ss, i + 1, h => by
    have := shorten_drop_prod (n := ss) (i := i) (by simpa using h)
    simpa [shorten, weight] using this

theorem shorten_prod : ∀ {n : List Int} {i : Nat}, i < n.length →
    (shorten n i).prod = (n.take i).prod * ((n.getD i 0 - 1) * weight n i)
  | s :: ss, 0, _ => by simp [shorten, weight]
  | s :: ss, i + 1, h => by
    have := shorten_prod (n := ss) (i := i) (by simpa using h)
    simp only [shorten, List.prod_cons, this, List.take_succ_cons, List.getD_cons_succ, weight, List.drop_succ_cons]
    ring

theorem prod_split : ∀ {n : List Int} {i : Nat}, i < n.length → n.prod = (n.take i).prod * (n.getD i 0 * weight n i)
  | s :: ss, 0, _ => by simp [weight]
  | s :: ss, i + 1, h => by
    have := prod_split (n := ss) (i := i) (by simpa using h)
    simp only [List.prod_cons, List.take_succ_cons, List.getD_cons_succ, weight, List.drop_succ_cons] at *
    rw [this]; ring

theorem shorten_length : ∀ (n : List Int) (i : Nat), (shorten n i).length = n.length
  | [], _ => rfl
  | _ :: _, 0 => rfl
  | _ :: ss, i + 1 => by simp [shorten, shorten_length ss i]

/-- position in the whole box of a coordinate of the shortened box -/
theorem rowMajor_shorten : ∀ {n c : List Int} {i : Nat}, i < n.length → Pos n → InBox (shorten n i) c → 2 ≤ n.getD i 0 →
    let p := rowMajor (shorten n i) c
    let L := (n.getD i 0 - 1) * weight n i
    rowMajor n c = p + p / L * weight n i ∧ InBox n c
  | s :: ss, [], 0, _, _, hc, _ => by simp [shorten, InBox] at hc
  | s :: ss, b :: r, 0, _, hp, hc, h2 => by
    simp only [shorten, InBox] at hc
    have h0 := rowMajor_nonneg hc.2
    have h1 := rowMajor_lt hc.2
    have hP := hp.tail.prod_pos
    simp only [shorten, rowMajor, List.getD_cons_zero, weight, List.drop_succ_cons, List.drop_zero]
    constructor
    · have hb := hc.1
      have : 0 ≤ b * ss.prod + rowMajor ss r := by
        have : 0 ≤ b * ss.prod := mul_nonneg hb.1 (by omega)
        omega
      rw [Int.ediv_eq_zero_of_lt this (by nlinarith)]
      ring
    · exact ⟨⟨hc.1.1, by omega⟩, hc.2⟩
  | s :: ss, [], i + 1, _, _, hc, _ => by simp [shorten, InBox] at hc
  | s :: ss, a :: cs, i + 1, hi, hp, hc, h2 => by
    simp only [shorten, InBox] at hc
    have hi' : i < ss.length := by simpa using hi
    obtain ⟨ih, ihb⟩ := rowMajor_shorten hi' hp.tail hc.2 (by simpa using h2)
    have hw := weight_pos hp.tail i
    have h2' : 2 ≤ ss.getD i 0 := by simpa using h2
    have hL : 1 ≤ (ss.getD i 0 - 1) * weight ss i := by nlinarith
    refine ⟨?_, ⟨hc.1, ihb⟩⟩
    have e1 : weight (s :: ss) (i + 1) = weight ss i := by simp [weight]
    simp only [shorten, rowMajor, List.getD_cons_succ, e1]
    rw [ih, shorten_prod hi', prod_split hi']
    generalize rowMajor (shorten ss i) cs = p at *
    generalize weight ss i = w at *
    generalize ss.getD i 0 = m at *
    generalize (ss.take i).prod = B at *
    have : a * (B * ((m - 1) * w)) + p = p + (m - 1) * w * (a * B) := by ring
    rw [this, Int.add_mul_ediv_left _ _ (by omega)]
    ring

/-- moving one step along dimension `i` -/
theorem rowMajor_bump : ∀ {n c : List Int} {i : Nat}, i < n.length → c.length = n.length →
    rowMajor n (bump c i) = rowMajor n c + weight n i
  | s :: ss, b :: r, 0, _, _ => by simp [bump, rowMajor, weight]; ring
  | s :: ss, a :: cs, i + 1, hi, hl => by
    have := rowMajor_bump (n := ss) (c := cs) (i := i) (by simpa using hi) (by simpa using hl)
    simp only [bump, rowMajor, this, weight, List.drop_succ_cons]; ring

theorem bump_inBox : ∀ {n c : List Int} {i : Nat}, Pos n → InBox (shorten n i) c → InBox n (bump c i)
  | [], [], _, _, _ => trivial
  | [], _ :: _, _, _, h => h.elim
  | s :: ss, [], 0, _, h => by simp [shorten, InBox] at h
  | s :: ss, [], i + 1, _, h => by simp [shorten, InBox] at h
  | s :: ss, b :: r, 0, hp, h => by
    simp only [shorten, InBox] at h
    exact ⟨⟨by omega, by omega⟩, h.2⟩
  | s :: ss, a :: cs, i + 1, hp, h => by
    simp only [shorten, InBox] at h
    exact ⟨h.1, bump_inBox hp.tail h.2⟩

namespace MT

/-- hypotheses under which a stencil in dimension `i` makes sense -/
structure StOK (it : MT) (i : Nat) : Prop extends it.IsBegin where
  hi : i < it.n.length
  h2 : 2 ≤ it.n.getD i 0

variable {it : MT} {i : Nat}

/-- gap, block length, block count -/
def gS (it : MT) (i : Nat) : Int := weight it.n i
def gL (it : MT) (i : Nat) : Int := (it.n.getD i 0 - 1) * weight it.n i
def gB (it : MT) (i : Nat) : Int := (it.n.take i).prod

theorem Pos.take {n : List Int} (h : Pos n) (i : Nat) : Pos (n.take i) := fun x hx => h x (List.mem_of_mem_take hx)

theorem StOK.geo (h : it.StOK i) : FS.Geo (it.gS i) (it.gL i) (it.gB i) it.n.prod := by
  have hw := weight_pos h.pos i
  have h2 := h.h2
  refine ⟨hw, ?_, (Pos.take h.pos i).prod_pos, ?_, h.lt⟩
  · unfold gL; nlinarith
  · rw [prod_split h.hi]; unfold gB gL gS
    apply le_of_eq; ring

theorem StOK.size_eq (h : it.StOK i) : it.gB i * it.gL i = (shorten it.n i).prod := (shorten_prod h.hi).symm

theorem stencil_ok (h : it.StOK i) :
    it.stencil i = .ok (FS.make it (it.gS i) (it.gL i) (it.gB i * it.gL i)) := by
  have hp := shorten_pos h.pos h.h2
  have hle : (shorten it.n i).prod ≤ 2147483647 := by
    have := h.geo.L_le
    rw [← h.size_eq]; have := h.lt; omega
  unfold MT.stencil
  rw [shrink_ok h.pos h.lt, M.ok_bind, strideDim_ok _ h.pos h.lt, M.ok_bind, strideDim_ok _ hp hle, M.ok_bind,
    strideDim_ok _ hp hle, M.ok_bind, shorten_drop_prod h.hi, List.drop_zero, ← h.size_eq]
  rfl

theorem StOK.begin_eq (h : it.StOK i) :
    FS.make it (it.gS i) (it.gL i) (it.gB i * it.gL i) = FS.at_ it.at_ (it.gS i) (it.gL i) (it.gB i) 0 := by
  unfold FS.make FS.at_
  rw [Int.zero_ediv, Int.zero_emod, sub_zero, zero_mul, add_zero, ← h.toIsBegin.eq_at]

/-- the pair of addresses at position `p` -/
theorem StOK.addrs_at (h : it.StOK i) {p : Int} (h0 : 0 ≤ p) (h1 : p < (shorten it.n i).prod) :
    (FS.at_ it.at_ (it.gS i) (it.gL i) (it.gB i) p).addrs = (do
      let a ← MT.addr { it with current := coords (shorten it.n i) p }
      let b ← MT.addr { it with current := bump (coords (shorten it.n i) p) i }
      .ok (a, b)) := by
  have hp := shorten_pos h.pos h.h2
  have hc := coords_inBox hp h0 h1
  obtain ⟨e, hin⟩ := rowMajor_shorten h.hi h.pos hc h.h2
  rw [rowMajor_coords hp h0 h1] at e
  have hb := bump_inBox h.pos hc
  have eb := rowMajor_bump (c := coords (shorten it.n i) p) h.hi (by rw [coords_length, shorten_length])
  have l0 := rowMajor_nonneg hin
  have l1 := rowMajor_lt hin
  have m0 := rowMajor_nonneg hb
  have m1 := rowMajor_lt hb
  unfold FS.addrs FS.at_
  simp only []
  show (MT.addr _ >>= fun a => MT.adv _ _ >>= fun f => MT.addr f >>= fun b => _) = _
  have e' : p + p / it.gL i * it.gS i = rowMajor it.n (coords (shorten it.n i) p) := e.symm
  rw [e', MT.adv_at h.toWF l0 (by omega) (by unfold gS; omega) (by unfold gS; omega)]
  have : rowMajor it.n (coords (shorten it.n i) p) + it.gS i = rowMajor it.n (bump (coords (shorten it.n i) p) i) := eb.symm
  rw [this]
  simp only [MT.at_, M.ok_bind]
  rw [posCoord_of_lt l1, posCoord_of_lt m1, coords_rowMajor hin, coords_rowMajor hb]

end MT
end Verif
