import Verif.Lemmas.BoundarySolve
import Mathlib.Tactic.ComputeDegree
import Verif.Lemmas.AssembleEx

/-
Data for the examples on boundary value problems.
-/

set_option linter.unusedSimpArgs false

namespace Verif
open Spec

theorem exWidth {n : Nat} : ∀ d, d < n → 0 < exDx d := fun d _ => by unfold exDx; positivity

/-- the zero field fulfils conditions with zero data -/
theorem F.fulfils_zero {T : Type} [Field T] {box : List (Int × Int)} {n : Int} {O : Int → List Int} {ps : List (F.Piece T)} {D X : List Int → T}
    (hf : ∀ k ∈ ps, F.First k.btype k.order ∧ ∀ p, k.cells p → ¬ F.InBounds box (F.shift p (O k.ghost))) (hX : ∀ p, X p = 0) (hD : ∀ p, ¬ F.InBounds box p → D p = 0) :
    F.Fulfils box n O ps D X := by
  refine ⟨fun k hk p hp => ⟨0, ?_, by simp [hX], by simp [hX]⟩, fun p hp e _ _ ho _ => by rw [hX, hD _ ho]⟩
  rw [hD _ ((hf k hk).2 p hp)]
  unfold F.Meets
  rcases (hf k hk).1 with ⟨a, b⟩ | a | ⟨a, b⟩ <;> simp [a, *]

/-- a linear field with Dirichlet data 1 on the lower and Robin data 9 on the upper side -/
example : F.Fulfils (T := Rat) [(0, 3)] 3 (F.row F.points1) [⟨F.layer1 (-1) 0, 1, 0, 1, 1, fun _ => 0⟩, ⟨F.layer1 4 1, 2, 4, 1, 1, fun _ => 2⟩]
    (fun p => if p = [-1] then 1 else 9) (fun p => p.sum + 3 / 2) := by
  refine ⟨fun k hk p hp => ?_, fun p hp e h0 h1 ho hn => ?_⟩
  · simp only [List.mem_cons, List.not_mem_nil, or_false] at hk
    rcases hk with rfl | rfl
    · obtain rfl : p = [0] := by simpa [F.layer1] using hp
      exact ⟨Polynomial.C 1 + Polynomial.X, Or.inl ⟨rfl, rfl, by compute_degree, by simp [F.shift, F.row, F.points1]⟩, by norm_num, by norm_num [F.shift, F.row, F.points1]⟩
    · obtain rfl : p = [3] := by simpa [F.layer1] using hp
      exact ⟨Polynomial.C 5 - Polynomial.X, Or.inr (.inr (.inr (.inl ⟨rfl, rfl, by compute_degree, by rw [F.shift1_2]; norm_num⟩))), by norm_num, by rw [F.shift1_2]; norm_num⟩
  · exfalso
    obtain ⟨i, rfl, hp⟩ := F.inBounds1.1 hp
    have : e = 1 ∨ e = 2 := by omega
    rcases this with rfl | rfl
    · rw [F.shift1_1, F.inBounds1] at ho
      refine hn _ List.mem_cons_self ?_ rfl
      have : i = 0 := by by_contra hh; exact ho ⟨i - 1, rfl, by omega⟩
      simp [F.layer1, this]
    · rw [F.shift1_2, F.inBounds1] at ho
      refine hn _ (List.mem_cons_of_mem _ List.mem_cons_self) ?_ rfl
      have : i = 3 := by by_contra hh; exact ho ⟨i + 1, rfl, by omega⟩
      simp [F.layer1, this]

def exSides1 : List F.Side1 := [⟨-1, -1, 0, 0, 1⟩, ⟨4, 4, 1, 4, 1⟩]

theorem exSides1_layer : ∀ s ∈ exSides1, Layer1 0 3 0 s.i0 s.i1 s.side := by
  simp only [exSides1, List.forall_mem_cons, List.not_mem_nil, false_implies, implies_true, and_true]
  refine ⟨?_, ?_⟩ <;> constructor <;> (try simp only [InInt]) <;> decide

theorem exSides1_out : ∀ s ∈ exSides1, s.Outside 0 3 := by
  simp only [exSides1, List.forall_mem_cons, List.not_mem_nil, false_implies, implies_true, and_true]
  refine ⟨?_, ?_⟩ <;> simp [F.Side1.Outside]

theorem exSides1_first : ∀ s ∈ exSides1, F.First s.btype s.order := by
  simp [exSides1, F.First]

theorem exSides1_disjoint {B0 : List Int → Rat} : F.Disjoint (exSides1.map (F.Side1.piece exDx B0)) := by
  simp [exSides1, F.Disjoint, F.Side1.piece]

theorem exSides1_fulfils {B0 : List Int → Rat} : F.Fulfils [(0, 3)] 3 (F.row F.points1) (exSides1.map (F.Side1.piece exDx B0)) (exIns 1 5) (exIns 1 0) := by
  refine F.fulfils_zero (fun k hk => ?_) exIns_none1 exIns_zero1
  obtain ⟨s, hs, rfl⟩ := List.mem_map.1 hk
  exact ⟨exSides1_first s hs, fun p hp => piece_out1 (exSides1_layer s hs) (exSides1_out s hs) hp⟩

theorem exRate2_v1_1 : ∀ i : Int, 0 ≤ i → i ≤ 3 → (1 - 99999 / 100000) * (2 * (2 / (exDx 0 * exDx 0) * (exRd (F.face1d ⟨2, 0⟩ 0 3 0) [i] + exRd (F.face1d ⟨2, 0⟩ 0 3 0) [i + 1])) + 3 * exRd (F.cell1d ⟨0, 0⟩ 0 3 1) [i]) ≤ 3 * exRd (F.cell1d ⟨0, 0⟩ 0 3 1) [i] := by
  intro i h0 h1
  have a := exRate_v1_1 i h0 h1
  have b := exEll_v1_1.cell i h0 h1
  linarith

theorem exRate2_v2_1 : ∀ i : Int, 0 ≤ i → i ≤ 3 → (1 - 99999 / 100000) * (2 * (2 / (exDx 0 * exDx 0) * (exRd (F.face1d ⟨2, 0⟩ 0 3 0) [i] + exRd (F.face1d ⟨2, 0⟩ 0 3 0) [i + 1])) + 3 * (fun _ => (1 : Rat)) [i]) ≤ 3 * (fun _ => (1 : Rat)) [i] := by
  intro i h0 h1
  have a := exRate_v2_1 i h0 h1
  have b := exEll_v2_1.cell i h0 h1
  linarith

def exSides2 : List F.Side2 := [⟨-1, 1, -1, 3, 0, 0, 4, 1⟩, ⟨0, 4, 2, 4, 1, 1, 1, 1⟩, ⟨0, 0, 2, 0, 1, 0, 0, 1⟩]

theorem exSides2_layer : ∀ s ∈ exSides2, Layer2 0 1 2 3 0 s.i0 s.j0 s.i1 s.j1 s.dir s.side := by
  simp only [exSides2, List.forall_mem_cons, List.not_mem_nil, false_implies, implies_true, and_true]
  refine ⟨?_, ?_, ?_⟩ <;> constructor <;> (try simp only [InInt]) <;> decide

theorem exSides2_out : ∀ s ∈ exSides2, s.Outside 0 1 2 3 := by
  simp only [exSides2, List.forall_mem_cons, List.not_mem_nil, false_implies, implies_true, and_true]
  refine ⟨?_, ?_, ?_⟩ <;> simp [F.Side2.Outside]

theorem exSides2_first : ∀ s ∈ exSides2, F.First s.btype s.order := by
  simp [exSides2, F.First]

theorem exSides2_disjoint {B0 B1 : List Int → Rat} : F.Disjoint (exSides2.map (F.Side2.piece exDx B0 B1)) := by
  simp [exSides2, F.Disjoint, F.Side2.piece]

theorem exSides2_rob : ∀ s ∈ exSides2, s.btype = 4 → s.dir = 0 := by
  simp [exSides2]

theorem exSides2_fulfils {B0 B1 : List Int → Rat} : F.Fulfils [(0, 2), (1, 3)] 5 (F.row F.points2) (exSides2.map (F.Side2.piece exDx B0 B1)) (exIns 2 5) (exIns 2 0) := by
  refine F.fulfils_zero (fun k hk => ?_) exIns_none2 exIns_zero2
  obtain ⟨s, hs, rfl⟩ := List.mem_map.1 hk
  exact ⟨exSides2_first s hs, fun p hp => piece_out2 (exSides2_layer s hs) (exSides2_out s hs) hp⟩

theorem exRate2_v1_2 : ∀ i j : Int, 0 ≤ i → i ≤ 2 → 1 ≤ j → j ≤ 3 → (1 - 99999 / 100000) * (2 * (2 / (exDx 0 * exDx 0) * (exRd (F.face2d0 ⟨2, 0⟩ 0 1 2 3 0) [i, j] + exRd (F.face2d0 ⟨2, 0⟩ 0 1 2 3 0) [i + 1, j]) + 2 / (exDx 1 * exDx 1) * (exRd (F.face2d1 ⟨3, 0⟩ 0 1 2 3 0) [j, i] + exRd (F.face2d1 ⟨3, 0⟩ 0 1 2 3 0) [j + 1, i])) + 3 * exRd (F.cell2d ⟨0, 0⟩ 0 1 2 3 1) [i, j]) ≤ 3 * exRd (F.cell2d ⟨0, 0⟩ 0 1 2 3 1) [i, j] := by
  intro i j h0 h1 h2 h3
  have a := exRate_v1_2 i j h0 h1 h2 h3
  have b := exEll_v1_2.cell i j h0 h1 h2 h3
  linarith

theorem exRate2_v2_2 : ∀ i j : Int, 0 ≤ i → i ≤ 2 → 1 ≤ j → j ≤ 3 → (1 - 99999 / 100000) * (2 * (2 / (exDx 0 * exDx 0) * (exRd (F.face2d0 ⟨2, 0⟩ 0 1 2 3 0) [i, j] + exRd (F.face2d0 ⟨2, 0⟩ 0 1 2 3 0) [i + 1, j]) + 2 / (exDx 1 * exDx 1) * (exRd (F.face2d1 ⟨3, 0⟩ 0 1 2 3 0) [j, i] + exRd (F.face2d1 ⟨3, 0⟩ 0 1 2 3 0) [j + 1, i])) + 3 * (fun _ => (1 : Rat)) [i, j]) ≤ 3 * (fun _ => (1 : Rat)) [i, j] := by
  intro i j h0 h1 h2 h3
  have a := exRate_v2_2 i j h0 h1 h2 h3
  have b := exEll_v2_2.cell i j h0 h1 h2 h3
  linarith

def exSides3 : List F.Side3 := [⟨-1, 1, 2, -1, 2, 3, 0, 0, 4, 1⟩, ⟨0, 3, 2, 1, 3, 3, 1, 1, 1, 1⟩, ⟨0, 1, 1, 1, 2, 1, 2, 0, 0, 1⟩]

theorem exSides3_layer : ∀ s ∈ exSides3, Layer3 0 1 2 1 2 3 0 s.i0 s.j0 s.k0 s.i1 s.j1 s.k1 s.dir s.side := by
  simp only [exSides3, List.forall_mem_cons, List.not_mem_nil, false_implies, implies_true, and_true]
  refine ⟨?_, ?_, ?_⟩ <;> constructor <;> (try simp only [InInt]) <;> decide

theorem exSides3_out : ∀ s ∈ exSides3, s.Outside 0 1 2 1 2 3 := by
  simp only [exSides3, List.forall_mem_cons, List.not_mem_nil, false_implies, implies_true, and_true]
  refine ⟨?_, ?_, ?_⟩ <;> simp [F.Side3.Outside]

theorem exSides3_first : ∀ s ∈ exSides3, F.First s.btype s.order := by
  simp [exSides3, F.First]

theorem exSides3_disjoint {B0 B1 B2 : List Int → Rat} : F.Disjoint (exSides3.map (F.Side3.piece exDx B0 B1 B2)) := by
  simp [exSides3, F.Disjoint, F.Side3.piece]

theorem exSides3_fulfils {B0 B1 B2 : List Int → Rat} : F.Fulfils [(0, 1), (1, 2), (2, 3)] 7 (F.row F.points3) (exSides3.map (F.Side3.piece exDx B0 B1 B2)) (exIns 3 5) (exIns 3 0) := by
  refine F.fulfils_zero (fun k hk => ?_) exIns_none3 exIns_zero3
  obtain ⟨s, hs, rfl⟩ := List.mem_map.1 hk
  exact ⟨exSides3_first s hs, fun p hp => piece_out3 (exSides3_layer s hs) (exSides3_out s hs) hp⟩

theorem exRate2_v1_3 : ∀ i j k : Int, 0 ≤ i → i ≤ 1 → 1 ≤ j → j ≤ 2 → 2 ≤ k → k ≤ 3 → (1 - 99999 / 100000) * (2 * (2 / (exDx 0 * exDx 0) * (exRd (F.face3d0 ⟨2, 0⟩ 0 1 2 1 2 3 0) [i, j, k] + exRd (F.face3d0 ⟨2, 0⟩ 0 1 2 1 2 3 0) [i + 1, j, k]) + 2 / (exDx 1 * exDx 1) * (exRd (F.face3d1 ⟨3, 0⟩ 0 1 2 1 2 3 0) [j, k, i] + exRd (F.face3d1 ⟨3, 0⟩ 0 1 2 1 2 3 0) [j + 1, k, i]) + 2 / (exDx 2 * exDx 2) * (exRd (F.face3d2 ⟨4, 0⟩ 0 1 2 1 2 3 0) [k, i, j] + exRd (F.face3d2 ⟨4, 0⟩ 0 1 2 1 2 3 0) [k + 1, i, j])) + 3 * exRd (F.cell3d ⟨0, 0⟩ 0 1 2 1 2 3 1) [i, j, k]) ≤ 3 * exRd (F.cell3d ⟨0, 0⟩ 0 1 2 1 2 3 1) [i, j, k] := by
  intro i j k h0 h1 h2 h3 h4 h5
  have a := exRate_v1_3 i j k h0 h1 h2 h3 h4 h5
  have b := exEll_v1_3.cell i j k h0 h1 h2 h3 h4 h5
  linarith

theorem exRate2_v2_3 : ∀ i j k : Int, 0 ≤ i → i ≤ 1 → 1 ≤ j → j ≤ 2 → 2 ≤ k → k ≤ 3 → (1 - 99999 / 100000) * (2 * (2 / (exDx 0 * exDx 0) * (exRd (F.face3d0 ⟨2, 0⟩ 0 1 2 1 2 3 0) [i, j, k] + exRd (F.face3d0 ⟨2, 0⟩ 0 1 2 1 2 3 0) [i + 1, j, k]) + 2 / (exDx 1 * exDx 1) * (exRd (F.face3d1 ⟨3, 0⟩ 0 1 2 1 2 3 0) [j, k, i] + exRd (F.face3d1 ⟨3, 0⟩ 0 1 2 1 2 3 0) [j + 1, k, i]) + 2 / (exDx 2 * exDx 2) * (exRd (F.face3d2 ⟨4, 0⟩ 0 1 2 1 2 3 0) [k, i, j] + exRd (F.face3d2 ⟨4, 0⟩ 0 1 2 1 2 3 0) [k + 1, i, j])) + 3 * (fun _ => (1 : Rat)) [i, j, k]) ≤ 3 * (fun _ => (1 : Rat)) [i, j, k] := by
  intro i j k h0 h1 h2 h3 h4 h5
  have a := exRate_v2_3 i j k h0 h1 h2 h3 h4 h5
  have b := exEll_v2_3.cell i j k h0 h1 h2 h3 h4 h5
  linarith

-- pieces of the examples

/-- the memory of the examples with every value `c` -/
def exConst (c : Rat) : Mem Rat where
  val q := Option.map (fun _ => c) (exRat.val q)
  ints := exRat.ints

theorem exConst_args {c : Rat} {ins outs : List F.Arr} (h : F.Args exRat ins outs) : F.Args (exConst c) ins outs := by
  refine ⟨fun a ha => ⟨fun is hi => ?_, (h.ok a ha).fits, (h.ok a ha).int⟩, h.apart⟩
  obtain ⟨v, hv⟩ := (h.ok a ha).alloc is hi
  exact ⟨c, by simp only [exConst]; rw [hv]; rfl⟩

theorem exConst_rd {c : Rat} {a : F.Arr} (ha : F.ArrOK exRat a) : F.Holds (exConst c) a (fun _ => c) := fun is hi => by
  obtain ⟨v, hv⟩ := ha.alloc is hi
  exact ⟨hi, by simp only [exConst]; rw [hv]; rfl⟩

theorem exPieces1 : F.Pieces (T := Rat) [(0, 3)] 3 (F.row F.points1) (exSides1.map (F.Side1.piece exDx (fun _ => 1))) := by
  constructor <;> intro q hq <;> obtain ⟨s, hs, rfl⟩ := List.mem_map.1 hq
  · exact exSides1_first s hs
  · simp only [exSides1, List.mem_cons, List.not_mem_nil, or_false] at hs
    rcases hs with rfl | rfl <;> simp [F.Side1.piece]
  · exact exWidth (n := _ + 1) _ (Nat.lt_succ_self _)
  · intro p hp
    simp only [exSides1, List.mem_cons, List.not_mem_nil, or_false] at hs
    rcases hs with rfl | rfl <;> simp only [F.Side1.piece, F.layer1] at hp
    · subst hp; simp [F.InBounds]
    · subst hp; simp [F.InBounds]
  · exact fun p hp => piece_out1 (exSides1_layer s hs) (exSides1_out s hs) hp
  · intro p hp
    simp only [F.Side1.piece, F.onFace1]
    split <;> (try split_ifs) <;> norm_num

theorem exTied1 {k : List Int → Rat} : F.Tied [(0, 3)] 3 (F.row F.points1) (exSides1.map (F.Side1.piece exDx (fun _ => 1))) k := by
  refine ⟨[0], by simp [F.InBounds], Or.inr ⟨1, by decide, by decide, by rw [F.shift1_1]; simp [F.InBounds], fun q hq _ he => ?_⟩⟩
  obtain ⟨s, hs, rfl⟩ := List.mem_map.1 hq
  simp only [exSides1, List.mem_cons, List.not_mem_nil, or_false] at hs
  rcases hs with rfl | rfl <;> simp_all [F.Side1.piece]

theorem exPieces2 : F.Pieces (T := Rat) [(0, 2), (1, 3)] 5 (F.row F.points2) (exSides2.map (F.Side2.piece exDx (fun _ => 1) (fun _ => 1))) := by
  constructor <;> intro q hq <;> obtain ⟨s, hs, rfl⟩ := List.mem_map.1 hq
  · exact exSides2_first s hs
  · simp only [exSides2, List.mem_cons, List.not_mem_nil, or_false] at hs
    rcases hs with rfl | rfl | rfl <;> simp [F.Side2.piece]
  · exact exWidth (n := _ + 1) _ (Nat.lt_succ_self _)
  · intro p hp
    simp only [exSides2, List.mem_cons, List.not_mem_nil, or_false] at hs
    rcases hs with rfl | rfl | rfl <;> simp only [F.Side2.piece, F.layer2] at hp
    all_goals
      obtain ⟨i, j, rfl, hp⟩ := hp
      exact F.inBounds2.2 ⟨i, j, rfl, by omega⟩
  · exact fun p hp => piece_out2 (exSides2_layer s hs) (exSides2_out s hs) hp
  · intro p hp
    simp only [F.Side2.piece, F.onFace2]
    split <;> (try split_ifs) <;> norm_num

theorem exTied2 {k : List Int → Rat} : F.Tied [(0, 2), (1, 3)] 5 (F.row F.points2) (exSides2.map (F.Side2.piece exDx (fun _ => 1) (fun _ => 1))) k := by
  refine ⟨[0, 1], by simp [F.InBounds], Or.inr ⟨1, by decide, by decide, by rw [F.shift2_1]; simp [F.InBounds], fun q hq _ he => ?_⟩⟩
  obtain ⟨s, hs, rfl⟩ := List.mem_map.1 hq
  simp only [exSides2, List.mem_cons, List.not_mem_nil, or_false] at hs
  rcases hs with rfl | rfl | rfl <;> simp_all [F.Side2.piece]

theorem exPieces3 : F.Pieces (T := Rat) [(0, 1), (1, 2), (2, 3)] 7 (F.row F.points3) (exSides3.map (F.Side3.piece exDx (fun _ => 1) (fun _ => 1) (fun _ => 1))) := by
  constructor <;> intro q hq <;> obtain ⟨s, hs, rfl⟩ := List.mem_map.1 hq
  · exact exSides3_first s hs
  · simp only [exSides3, List.mem_cons, List.not_mem_nil, or_false] at hs
    rcases hs with rfl | rfl | rfl <;> simp [F.Side3.piece]
  · exact exWidth (n := _ + 1) _ (Nat.lt_succ_self _)
  · intro p hp
    simp only [exSides3, List.mem_cons, List.not_mem_nil, or_false] at hs
    rcases hs with rfl | rfl | rfl <;> simp only [F.Side3.piece, F.layer3] at hp
    all_goals
      obtain ⟨i, j, k, rfl, hp⟩ := hp
      exact F.inBounds3.2 ⟨i, j, k, rfl, by omega⟩
  · exact fun p hp => piece_out3 (exSides3_layer s hs) (exSides3_out s hs) hp
  · intro p hp
    simp only [F.Side3.piece, F.onFace3]
    split <;> (try split_ifs) <;> norm_num

theorem exTied3 {k : List Int → Rat} : F.Tied [(0, 1), (1, 2), (2, 3)] 7 (F.row F.points3) (exSides3.map (F.Side3.piece exDx (fun _ => 1) (fun _ => 1) (fun _ => 1))) k := by
  refine ⟨[0, 1, 2], by simp [F.InBounds], Or.inr ⟨1, by decide, by decide, by rw [F.shift3_1]; simp [F.InBounds], fun q hq _ he => ?_⟩⟩
  obtain ⟨s, hs, rfl⟩ := List.mem_map.1 hq
  simp only [exSides3, List.mem_cons, List.not_mem_nil, or_false] at hs
  rcases hs with rfl | rfl | rfl <;> simp_all [F.Side3.piece]

end Verif
