import Verif.Spec.Fill

/-
Segments of the boundary for which ghost cells are filled or coefficients are adjusted.
-/

namespace Verif.Spec

variable {T : Type}

/-- 1D: the segment is the ghost cell next to the box on its side; index arithmetic on it does not overflow -/
def BcCall.Thin1 (i0 i1 : Int) (c : BcCall T) : Prop :=
  ((c.face = 0 ∧ c.lo 0 = i0 - 1 ∧ c.hi 0 = i0 - 1) ∨
    (c.face = 1 ∧ c.lo 0 = i1 + 1 ∧ c.hi 0 = i1 + 1)) ∧
  ∀ d < 1, InInt (c.lo d - 2) ∧ InInt (c.lo d + 2)

/-- 2D: the segment is one cell thick, part of the layer of ghost cells next to the box on its side -/
def BcCall.Thin2 (i0 j0 i1 j1 : Int) (c : BcCall T) : Prop :=
  ((c.face = 0 ∧ c.lo 0 = i0 - 1 ∧ c.hi 0 = i0 - 1 ∧ Part j0 j1 (c.lo 1) (c.hi 1)) ∨
    (c.face = 1 ∧ c.lo 0 = i1 + 1 ∧ c.hi 0 = i1 + 1 ∧ Part j0 j1 (c.lo 1) (c.hi 1)) ∨
    (c.face = 2 ∧ c.lo 1 = j0 - 1 ∧ c.hi 1 = j0 - 1 ∧ Part i0 i1 (c.lo 0) (c.hi 0)) ∨
    (c.face = 3 ∧ c.lo 1 = j1 + 1 ∧ c.hi 1 = j1 + 1 ∧ Part i0 i1 (c.lo 0) (c.hi 0))) ∧
  ∀ d < 2, InInt (c.lo d - 2) ∧ InInt (c.lo d + 2)

/-- 3D -/
def BcCall.Thin3 (i0 j0 k0 i1 j1 k1 : Int) (c : BcCall T) : Prop :=
  ((c.face = 0 ∧ c.lo 0 = i0 - 1 ∧ c.hi 0 = i0 - 1 ∧ Part j0 j1 (c.lo 1) (c.hi 1) ∧ Part k0 k1 (c.lo 2) (c.hi 2)) ∨
    (c.face = 1 ∧ c.lo 0 = i1 + 1 ∧ c.hi 0 = i1 + 1 ∧ Part j0 j1 (c.lo 1) (c.hi 1) ∧ Part k0 k1 (c.lo 2) (c.hi 2)) ∨
    (c.face = 2 ∧ c.lo 1 = j0 - 1 ∧ c.hi 1 = j0 - 1 ∧ Part i0 i1 (c.lo 0) (c.hi 0) ∧ Part k0 k1 (c.lo 2) (c.hi 2)) ∨
    (c.face = 3 ∧ c.lo 1 = j1 + 1 ∧ c.hi 1 = j1 + 1 ∧ Part i0 i1 (c.lo 0) (c.hi 0) ∧ Part k0 k1 (c.lo 2) (c.hi 2)) ∨
    (c.face = 4 ∧ c.lo 2 = k0 - 1 ∧ c.hi 2 = k0 - 1 ∧ Part i0 i1 (c.lo 0) (c.hi 0) ∧ Part j0 j1 (c.lo 1) (c.hi 1)) ∨
    (c.face = 5 ∧ c.lo 2 = k1 + 1 ∧ c.hi 2 = k1 + 1 ∧ Part i0 i1 (c.lo 0) (c.hi 0) ∧ Part j0 j1 (c.lo 1) (c.hi 1))) ∧
  ∀ d < 3, InInt (c.lo d - 2) ∧ InInt (c.lo d + 2)

/-- no two of the calls have a cell of their segments in common -/
def NoCommon {C : Type} (seg : C → List Int → Prop) (l : List C) : Prop := l.Pairwise fun c d => ∀ p, seg c p → ¬ seg d p

/-- what the kernels that adjust the coefficients are told about the segment of a call, 1D -/
def BcCall.side1 (c : BcCall T) : F.Side1 := ⟨c.lo 0, c.hi 0, c.face, c.btype, c.order⟩

/-- 2D: side `face % 2` in direction `face / 2` -/
def BcCall.side2 (c : BcCall T) : F.Side2 := ⟨c.lo 0, c.lo 1, c.hi 0, c.hi 1, c.face / 2, c.face % 2, c.btype, c.order⟩

/-- 3D -/
def BcCall.side3 (c : BcCall T) : F.Side3 := ⟨c.lo 0, c.lo 1, c.lo 2, c.hi 0, c.hi 1, c.hi 2, c.face / 2, c.face % 2, c.btype, c.order⟩

/-- `Y` is `V`, with 0 in the cells of the segments -/
def Cleared {C : Type} [Zero T] (seg : C → List Int → Prop) (l : List C) (V Y : List Int → T) : Prop :=
  (∀ c ∈ l, ∀ p, seg c p → Y p = 0) ∧ ∀ p, (∀ c ∈ l, ¬ seg c p) → Y p = V p

end Verif.Spec
