import Verif.Spec.Fortran
import Mathlib.Algebra.Field.Defs

/-
Transcription of the Fortran boundary condition routines: m4/cellsetcorrectionbc1d.m4, m4/cellsetcorrectionbc2d.m4,
m4/cellsetcorrectionbc3d.m4.

Local scalars are `let`s; `coeff(1)` and `coeff(2)` are the scalars `coeff1` and `coeff2`.  `write` to unit 0 is left out.  A literal such as
`3.0` is the number it denotes.
-/

namespace Verif.F

variable {T : Type} [Zero T] [One T] [NatCast T] [Add T] [Sub T] [Mul T] [Div T] [Neg T]

set_option linter.unusedVariables false

/-- `cellsetcorrectionbc1d` (m4/cellsetcorrectionbc1d.m4:28-130) -/
def cellsetcorrectionbc1d (lo0 hi0 : Int) (dx : Nat → T) (dgcw : Int) (d0_ : Ptr) (ugcw : Int) (u_ : Ptr) (bdrySegLo bdrySegHi : Nat → Int) (extrapOrder face bdryType : Int) (alpha beta : T) : Cmd T :=
  let d0 := face1d d0_ lo0 hi0 dgcw
  let u := cell1d u_ lo0 hi0 ugcw
  if face = 0 then
    let ilo := bdrySegLo 0 + 1
    let h : T := dx 0
    if bdryType = 0 then
      if extrapOrder = 1 then
        assign u [ilo - 1] (-u.el [ilo])
      else if extrapOrder = 2 then
        assign u [ilo - 1] ((-(Expr.const 2 * u.el [ilo])) + u.el [ilo + 1] / Expr.const 3)
      else
        skip
    else if bdryType = 1 then
      assign u [ilo - 1] (u.el [ilo])
    else if bdryType = 4 then
      if extrapOrder = 1 then
        let factor : Expr T := Expr.const (2 * alpha) * d0.el [ilo] - Expr.const (h * beta)
        let factor : Expr T := factor / (Expr.const (2 * alpha) * d0.el [ilo] + Expr.const (h * beta))
        assign u [ilo - 1] (factor * u.el [ilo])
      else if extrapOrder = 2 then
        let b : Expr T := d0.el [ilo]
        let coeff1 : Expr T := Expr.const (8 * alpha) * b - Expr.const (6 * beta * h)
        let coeff1 : Expr T := coeff1 / (Expr.const (8 * alpha) * b + Expr.const (3 * beta * h))
        let coeff2 : Expr T := Expr.const h / (Expr.const (8 * alpha) * b + Expr.const (3 * beta * h))
        assign u [ilo - 1] (coeff1 * u.el [ilo] + coeff2 * u.el [ilo + 1])
      else
        skip
    else
      skip
  else if face = 1 then
    let ihi := bdrySegHi 0 - 1
    let h : T := dx 0
    if bdryType = 0 then
      if extrapOrder = 1 then
        assign u [ihi + 1] (-u.el [ihi])
      else if extrapOrder = 2 then
        assign u [ihi + 1] ((-(Expr.const 2 * u.el [ihi])) + u.el [ihi - 1] / Expr.const 3)
      else
        skip
    else if bdryType = 1 then
      assign u [ihi + 1] (u.el [ihi])
    else if bdryType = 4 then
      if extrapOrder = 1 then
        let factor : Expr T := Expr.const (2 * alpha) * d0.el [ihi + 1] - Expr.const (h * beta)
        let factor : Expr T := factor / (Expr.const (2 * alpha) * d0.el [ihi + 1] + Expr.const (h * beta))
        assign u [ihi + 1] (factor * u.el [ihi])
      else if extrapOrder = 2 then
        let b : Expr T := d0.el [ihi + 1]
        let coeff1 : Expr T := (Expr.const (8 * alpha) * b - Expr.const (6 * beta * h)) / (Expr.const (8 * alpha) * b + Expr.const (3 * beta * h))
        let coeff2 : Expr T := Expr.const h / (Expr.const (8 * alpha) * b + Expr.const (3 * beta * h))
        assign u [ihi + 1] (coeff1 * u.el [ihi] + coeff2 * u.el [ihi - 1])
      else
        skip
    else
      skip
  else
    skip

/-- `cellsetpoissoncorrectionbc1d` (m4/cellsetcorrectionbc1d.m4:132-228) -/
def cellsetpoissoncorrectionbc1d (lo0 hi0 : Int) (dx : Nat → T) (ugcw : Int) (u_ : Ptr) (bdrySegLo bdrySegHi : Nat → Int) (extrapOrder face bdryType : Int) (alpha beta : T) : Cmd T :=
  let u := cell1d u_ lo0 hi0 ugcw
  if face = 0 then
    let ilo := bdrySegLo 0 + 1
    let h : T := dx 0
    if bdryType = 0 then
      if extrapOrder = 1 then
        assign u [ilo - 1] (-u.el [ilo])
      else if extrapOrder = 2 then
        assign u [ilo - 1] ((-(Expr.const 2 * u.el [ilo])) + u.el [ilo + 1] / Expr.const 3)
      else
        skip
    else if bdryType = 1 then
      assign u [ilo - 1] (u.el [ilo])
    else if bdryType = 4 then
      if extrapOrder = 1 then
        let factor : T := (4 - h) / (4 + h)
        assign u [ilo - 1] (Expr.const factor * u.el [ilo])
      else if extrapOrder = 2 then
        let b : T := 1
        let coeff1 : T := (16 * b - 6 * h) / (16 * b + 3 * h)
        let coeff2 : T := h / (16 * b + 3 * h)
        assign u [ilo - 1] (Expr.const coeff1 * u.el [ilo] + Expr.const coeff2 * u.el [ilo + 1])
      else
        skip
    else
      skip
  else if face = 1 then
    let ihi := bdrySegHi 0 - 1
    let h : T := dx 0
    if bdryType = 0 then
      if extrapOrder = 1 then
        assign u [ihi + 1] (-u.el [ihi])
      else if extrapOrder = 2 then
        assign u [ihi + 1] ((-(Expr.const 2 * u.el [ihi])) + u.el [ihi - 1] / Expr.const 3)
      else
        skip
    else if bdryType = 1 then
      assign u [ihi + 1] (u.el [ihi])
    else if bdryType = 4 then
      if extrapOrder = 1 then
        let factor : T := (4 - h) / (4 + h)
        assign u [ihi + 1] (Expr.const factor * u.el [ihi])
      else if extrapOrder = 2 then
        let b : T := 1
        let coeff1 : T := (16 * b - 6 * h) / (3 * h + 16 * b)
        let coeff2 : T := h / (3 * h + 16 * b)
        assign u [ihi + 1] (Expr.const coeff1 * u.el [ihi] + Expr.const coeff2 * u.el [ihi - 1])
      else
        skip
    else
      skip
  else
    skip

/-- `cellsetcorrectionbc2d` (m4/cellsetcorrectionbc2d.m4:38-283) -/
def cellsetcorrectionbc2d (lo0 hi0 lo1 hi1 : Int) (dx : Nat → T) (dgcw : Int) (d0_ d1_ : Ptr) (ugcw : Int) (u_ : Ptr) (bdrySegLo bdrySegHi : Nat → Int) (extrapOrder face type bdryType : Int) (alpha beta : T) : Cmd T :=
  let d0 := face2d0 d0_ lo0 lo1 hi0 hi1 dgcw
  let d1 := face2d1 d1_ lo0 lo1 hi0 hi1 dgcw
  let u := cell2d u_ lo0 lo1 hi0 hi1 ugcw
  if type = 1 then
    if face = 0 then
      let ilo := bdrySegLo 0 + 1
      let jlo := bdrySegLo 1
      let jhi := bdrySegHi 1
      let h : T := dx 0
      if bdryType = 0 then
        doLoop jlo jhi fun j =>
          if extrapOrder = 0 then
            assign u [ilo - 1, j] (Expr.const 0)
          else if extrapOrder = 1 then
            assign u [ilo - 1, j] (-u.el [ilo, j])
          else if extrapOrder = 2 then
            assign u [ilo - 1, j] ((-(Expr.const 2 * u.el [ilo, j])) + u.el [ilo + 1, j] / Expr.const 3)
          else
            skip
      else if bdryType = 1 then
        doLoop jlo jhi fun j =>
          assign u [ilo - 1, j] (u.el [ilo, j])
      else if bdryType = 4 then
        doLoop jlo jhi fun j =>
          if extrapOrder = 1 then
            let factor : Expr T := Expr.const (2 * alpha) * d0.el [ilo, j] - Expr.const (h * beta)
            let factor : Expr T := factor / (Expr.const (2 * alpha) * d0.el [ilo, j] + Expr.const (h * beta))
            assign u [ilo - 1, j] (factor * u.el [ilo, j])
          else if extrapOrder = 2 then
            let b : Expr T := d0.el [ilo, j]
            let coeff1 : Expr T := Expr.const (8 * alpha) * b - Expr.const (6 * beta * h)
            let coeff1 : Expr T := coeff1 / (Expr.const (8 * alpha) * b + Expr.const (3 * beta * h))
            let coeff2 : Expr T := Expr.const h / (Expr.const (8 * alpha) * b + Expr.const (3 * beta * h))
            assign u [ilo - 1, j] (coeff1 * u.el [ilo, j] + coeff2 * u.el [ilo + 1, j])
          else
            skip
      else
        skip
    else if face = 1 then
      let ihi := bdrySegHi 0 - 1
      let jlo := bdrySegLo 1
      let jhi := bdrySegHi 1
      let h : T := dx 0
      if bdryType = 0 then
        doLoop jlo jhi fun j =>
          if extrapOrder = 0 then
            assign u [ihi + 1, j] (Expr.const 0)
          else if extrapOrder = 1 then
            assign u [ihi + 1, j] (-u.el [ihi, j])
          else if extrapOrder = 2 then
            assign u [ihi + 1, j] ((-(Expr.const 2 * u.el [ihi, j])) + u.el [ihi - 1, j] / Expr.const 3)
          else
            skip
      else if bdryType = 1 then
        doLoop jlo jhi fun j =>
          assign u [ihi + 1, j] (u.el [ihi, j])
      else if bdryType = 4 then
        doLoop jlo jhi fun j =>
          if extrapOrder = 1 then
            let factor : Expr T := Expr.const (2 * alpha) * d0.el [ihi + 1, j] - Expr.const (h * beta)
            let factor : Expr T := factor / (Expr.const (2 * alpha) * d0.el [ihi + 1, j] + Expr.const (h * beta))
            assign u [ihi + 1, j] (factor * u.el [ihi, j])
          else if extrapOrder = 2 then
            let b : Expr T := d0.el [ihi + 1, j]
            let coeff1 : Expr T := Expr.const (8 * alpha) * b - Expr.const (6 * beta * h)
            let coeff1 : Expr T := coeff1 / (Expr.const (8 * alpha) * b + Expr.const (3 * beta * h))
            let coeff2 : Expr T := Expr.const h / (Expr.const (8 * alpha) * b + Expr.const (3 * beta * h))
            assign u [ihi + 1, j] (coeff1 * u.el [ihi, j] + coeff2 * u.el [ihi - 1, j])
          else
            skip
      else
        skip
    else if face = 2 then
      let jlo := bdrySegLo 1 + 1
      let ilo := bdrySegLo 0
      let ihi := bdrySegHi 0
      let h : T := dx 1
      if bdryType = 0 then
        doLoop ilo ihi fun i =>
          if extrapOrder = 0 then
            assign u [i, jlo - 1] (Expr.const 0)
          else if extrapOrder = 1 then
            assign u [i, jlo - 1] (-u.el [i, jlo])
          else if extrapOrder = 2 then
            assign u [i, jlo - 1] ((-(Expr.const 2 * u.el [i, jlo])) + u.el [i, jlo + 1] / Expr.const 3)
          else
            skip
      else if bdryType = 1 then
        doLoop ilo ihi fun i =>
          assign u [i, jlo - 1] (u.el [i, jlo])
      else if bdryType = 4 then
        doLoop ilo ihi fun i =>
          if extrapOrder = 1 then
            let factor : Expr T := Expr.const (2 * alpha) * d1.el [jlo, i] - Expr.const (h * beta)
            let factor : Expr T := factor / (Expr.const (2 * alpha) * d1.el [jlo, i] + Expr.const (h * beta))
            assign u [i, jlo - 1] (factor * u.el [i, jlo])
          else if extrapOrder = 2 then
            let b : Expr T := d1.el [jlo, i]
            let coeff1 : Expr T := Expr.const (8 * alpha) * b - Expr.const (6 * beta * h)
            let coeff1 : Expr T := coeff1 / (Expr.const (8 * alpha) * b + Expr.const (3 * beta * h))
            let coeff2 : Expr T := Expr.const h / (Expr.const (8 * alpha) * b + Expr.const (3 * beta * h))
            assign u [i, jlo - 1] (coeff1 * u.el [i, jlo] + coeff2 * u.el [i, jlo + 1])
          else
            skip
      else
        skip
    else if face = 3 then
      let jhi := bdrySegHi 1 - 1
      let ilo := bdrySegLo 0
      let ihi := bdrySegHi 0
      let h : T := dx 1
      if bdryType = 0 then
        doLoop ilo ihi fun i =>
          if extrapOrder = 0 then
            assign u [i, jhi + 1] (Expr.const 0)
          else if extrapOrder = 1 then
            assign u [i, jhi + 1] (-u.el [i, jhi])
          else if extrapOrder = 2 then
            assign u [i, jhi + 1] ((-(Expr.const 2 * u.el [i, jhi])) + u.el [i, jhi - 1] / Expr.const 3)
          else
            skip
      else if bdryType = 1 then
        doLoop ilo ihi fun i =>
          assign u [i, jhi + 1] (u.el [i, jhi])
      else if bdryType = 4 then
        doLoop ilo ihi fun i =>
          if extrapOrder = 1 then
            let factor : Expr T := Expr.const (2 * alpha) * d1.el [jhi + 1, i] - Expr.const (h * beta)
            let factor : Expr T := factor / (Expr.const (2 * alpha) * d1.el [jhi + 1, i] + Expr.const (h * beta))
            assign u [i, jhi + 1] (factor * u.el [i, jhi])
          else if extrapOrder = 2 then
            let b : Expr T := d1.el [jhi + 1, i]
            let coeff1 : Expr T := Expr.const (8 * alpha) * b - Expr.const (6 * beta * h)
            let coeff1 : Expr T := coeff1 / (Expr.const (8 * alpha) * b + Expr.const (3 * beta * h))
            let coeff2 : Expr T := Expr.const h / (Expr.const (8 * alpha) * b + Expr.const (3 * beta * h))
            assign u [i, jhi + 1] (coeff1 * u.el [i, jhi] + coeff2 * u.el [i, jhi - 1])
          else
            skip
      else
        skip
    else
      skip
  else if type = 2 then
    if face = 0 then
      let ilo := bdrySegLo 0
      let jlo := bdrySegLo 1
      assign u [ilo, jlo] ((-u.el [ilo + 1, jlo + 1]) + u.el [ilo, jlo + 1] + u.el [ilo + 1, jlo])
    else if face = 1 then
      let ihi := bdrySegHi 0
      let jlo := bdrySegLo 1
      assign u [ihi, jlo] ((-u.el [ihi - 1, jlo + 1]) + u.el [ihi, jlo + 1] + u.el [ihi - 1, jlo])
    else if face = 2 then
      let ilo := bdrySegLo 0
      let jhi := bdrySegHi 1
      assign u [ilo, jhi] ((-u.el [ilo + 1, jhi - 1]) + u.el [ilo, jhi - 1] + u.el [ilo + 1, jhi])
    else if face = 3 then
      let ihi := bdrySegHi 0
      let jhi := bdrySegHi 1
      assign u [ihi, jhi] ((-u.el [ihi - 1, jhi - 1]) + u.el [ihi, jhi - 1] + u.el [ihi - 1, jhi])
    else
      skip
  else
    skip

/-- `cellsetpoissoncorrectionbc2d` (m4/cellsetcorrectionbc2d.m4:285-489) -/
def cellsetpoissoncorrectionbc2d (lo0 hi0 lo1 hi1 : Int) (dx : Nat → T) (ugcw : Int) (u_ : Ptr) (bdrySegLo bdrySegHi : Nat → Int) (extrapOrder face type bdryType : Int) (alpha beta : T) : Cmd T :=
  let u := cell2d u_ lo0 lo1 hi0 hi1 ugcw
  if type = 1 then
    if face = 0 then
      let ilo := bdrySegLo 0 + 1
      let jlo := bdrySegLo 1
      let jhi := bdrySegHi 1
      let h : T := dx 0
      if bdryType = 0 then
        doLoop jlo jhi fun j =>
          if extrapOrder = 1 then
            assign u [ilo - 1, j] (-u.el [ilo, j])
          else if extrapOrder = 2 then
            assign u [ilo - 1, j] ((-(Expr.const 2 * u.el [ilo, j])) + u.el [ilo + 1, j] / Expr.const 3)
          else
            skip
      else if bdryType = 1 then
        doLoop jlo jhi fun j =>
          assign u [ilo - 1, j] (u.el [ilo, j])
      else if bdryType = 4 then
        doLoop jlo jhi fun j =>
          if extrapOrder = 1 then
            let factor : T := (2 * alpha - h * beta) / (2 * alpha + h * beta)
            assign u [ilo - 1, j] (Expr.const factor * u.el [ilo, j])
          else if extrapOrder = 2 then
            let b : T := 1
            let coeff1 : T := 8 * alpha * b - 6 * beta * h
            let coeff1 : T := coeff1 / (8 * alpha * b + 3 * beta * h)
            let coeff2 : T := h / (8 * alpha * b + 3 * beta * h)
            assign u [ilo - 1, j] (Expr.const coeff1 * u.el [ilo, j] + Expr.const coeff2 * u.el [ilo + 1, j])
          else
            skip
      else
        skip
    else if face = 1 then
      let ihi := bdrySegHi 0 - 1
      let jlo := bdrySegLo 1
      let jhi := bdrySegHi 1
      let h : T := dx 0
      if bdryType = 0 then
        doLoop jlo jhi fun j =>
          if extrapOrder = 1 then
            assign u [ihi + 1, j] (-u.el [ihi, j])
          else if extrapOrder = 2 then
            assign u [ihi + 1, j] ((-(Expr.const 2 * u.el [ihi, j])) + u.el [ihi - 1, j] / Expr.const 3)
          else
            skip
      else if bdryType = 1 then
        doLoop jlo jhi fun j =>
          assign u [ihi + 1, j] (u.el [ihi, j])
      else if bdryType = 4 then
        doLoop jlo jhi fun j =>
          if extrapOrder = 1 then
            let factor : T := (2 * alpha - h * beta) / (2 * alpha + h * beta)
            assign u [ihi + 1, j] (Expr.const factor * u.el [ihi, j])
          else if extrapOrder = 2 then
            let b : T := 1
            let coeff1 : T := 8 * alpha * b - 6 * beta * h
            let coeff1 : T := coeff1 / (8 * alpha * b + 3 * beta * h)
            let coeff2 : T := h / (8 * alpha * b + 3 * beta * h)
            assign u [ihi + 1, j] (Expr.const coeff1 * u.el [ihi, j] + Expr.const coeff2 * u.el [ihi - 1, j])
          else
            skip
      else
        skip
    else if face = 2 then
      let jlo := bdrySegLo 1 + 1
      let ilo := bdrySegLo 0
      let ihi := bdrySegHi 0
      if bdryType = 0 then
        doLoop ilo ihi fun i =>
          if extrapOrder = 1 then
            assign u [i, jlo - 1] (-u.el [i, jlo])
          else if extrapOrder = 2 then
            assign u [i, jlo - 1] ((-(Expr.const 2 * u.el [i, jlo])) + u.el [i, jlo + 1] / Expr.const 3)
          else
            skip
      else if bdryType = 1 then
        doLoop ilo ihi fun i =>
          assign u [i, jlo - 1] (u.el [i, jlo])
      else if bdryType = 4 then
        skip
      else
        skip
    else if face = 3 then
      let jhi := bdrySegHi 1 - 1
      let ilo := bdrySegLo 0
      let ihi := bdrySegHi 0
      if bdryType = 0 then
        doLoop ilo ihi fun i =>
          if extrapOrder = 1 then
            assign u [i, jhi + 1] (-u.el [i, jhi])
          else if extrapOrder = 2 then
            assign u [i, jhi + 1] ((-(Expr.const 2 * u.el [i, jhi])) + u.el [i, jhi - 1] / Expr.const 3)
          else
            skip
      else if bdryType = 1 then
        doLoop ilo ihi fun i =>
          assign u [i, jhi + 1] (u.el [i, jhi])
      else if bdryType = 4 then
        skip
      else
        skip
    else
      skip
  else if type = 2 then
    if face = 0 then
      let ilo := bdrySegLo 0
      let jlo := bdrySegLo 1
      assign u [ilo, jlo] ((-u.el [ilo + 1, jlo + 1]) + u.el [ilo, jlo + 1] + u.el [ilo + 1, jlo])
    else if face = 1 then
      let ihi := bdrySegHi 0
      let jlo := bdrySegLo 1
      assign u [ihi, jlo] ((-u.el [ihi - 1, jlo + 1]) + u.el [ihi, jlo + 1] + u.el [ihi - 1, jlo])
    else if face = 2 then
      let ilo := bdrySegLo 0
      let jhi := bdrySegHi 1
      assign u [ilo, jhi] ((-u.el [ilo + 1, jhi - 1]) + u.el [ilo, jhi - 1] + u.el [ilo + 1, jhi])
    else if face = 3 then
      let ihi := bdrySegHi 0
      let jhi := bdrySegHi 1
      assign u [ihi, jhi] ((-u.el [ihi - 1, jhi - 1]) + u.el [ihi, jhi - 1] + u.el [ihi - 1, jhi])
    else
      skip
  else
    skip

/-- `cellsetinteriorcornerbc2d` (m4/cellsetcorrectionbc2d.m4:491-574) -/
def cellsetinteriorcornerbc2d (lo0 hi0 lo1 hi1 gcw : Int) (dx : Nat → T) (d0_ d1_ u_ : Ptr) (bdrySegLo bdrySegHi : Nat → Int) (extrapOrder face type bdryType : Int) : Cmd T :=
  let d0 := face2d0 d0_ lo0 lo1 hi0 hi1 0
  let d1 := face2d1 d1_ lo0 lo1 hi0 hi1 0
  let u := cell2d u_ lo0 lo1 hi0 hi1 gcw
  if face = 0 then
    let ilo := bdrySegLo 0
    let jlo := bdrySegLo 1
    assign u [ilo, jlo] (-(Expr.const 5 * u.el [ilo + 1, jlo + 1]))
  else if face = 1 then
    let ihi := bdrySegHi 0
    let jlo := bdrySegLo 1
    assign u [ihi, jlo] (-(Expr.const 5 * u.el [ihi - 1, jlo + 1]))
  else if face = 2 then
    let ilo := bdrySegLo 0
    let jhi := bdrySegHi 1
    assign u [ilo, jhi] (-(Expr.const 5 * u.el [ilo + 1, jhi - 1]))
  else if face = 3 then
    let ihi := bdrySegHi 0
    let jhi := bdrySegHi 1
    assign u [ihi, jhi] (-(Expr.const 5 * u.el [ihi - 1, jhi - 1]))
  else
    skip

/-- The local array `coeff` of `cellsethomogenousbc2d` (m4/cellsetcorrectionbc2d.m4:605,612-626): the elements the routine sets; the others,
and those outside `1:4`, have no value -/
def homCoeff (extrapOrder iorder : Int) : Option T :=
  if extrapOrder = 1 then
    if iorder = 1 then some (-1) else none
  else if extrapOrder = 2 then
    if iorder = 1 then some (-2) else if iorder = 2 then some (1 / 3) else none
  else if extrapOrder = 3 then
    if iorder = 1 then some (-3) else if iorder = 2 then some 1 else if iorder = 3 then some (-1 / 5) else none
  else if extrapOrder = 4 then
    if iorder = 1 then some (-4) else if iorder = 2 then some 2 else if iorder = 3 then some (-4 / 5) else if iorder = 4 then some (1 / 7) else none
  else none

/-- Using `coeff(iorder)` in a statement; one without a value is undefined behaviour -/
def withCoeff (extrapOrder iorder : Int) (c : T → Cmd T) : Cmd T := fun m =>
  match homCoeff extrapOrder iorder with
  | some x => c x m
  | none => .error .oob

/-- `cellsethomogenousbc2d` (m4/cellsetcorrectionbc2d.m4:576-671) -/
def cellsethomogenousbc2d (lo0 lo1 hi0 hi1 face : Int) (segLo segHi : Nat → Int) (extrapOrder : Int) (var_ : Ptr) : Cmd T :=
  let var := cell2d var_ lo0 lo1 hi0 hi1 1
  if face = 0 then
    let ilo := lo0 - 1
    block [
      doLoop (max lo1 (segLo 1)) (min hi1 (segHi 1)) fun j =>
        block [
          assign var [ilo, j] (Expr.const 0),
          doLoop 1 extrapOrder fun iorder =>
            withCoeff extrapOrder iorder fun c =>
              assign var [ilo, j] (var.el [ilo, j] + Expr.const c * var.el [ilo + iorder, j])],
      assign var [ilo, lo1 - 1] (var.el [lo0, lo1]),
      assign var [ilo, hi1 + 1] (var.el [lo0, hi1])]
  else if face = 1 then
    let ihi := hi0 + 1
    block [
      doLoop (max lo1 (segLo 1)) (min hi1 (segHi 1)) fun j =>
        block [
          assign var [ihi, j] (Expr.const 0),
          doLoop 1 extrapOrder fun iorder =>
            withCoeff extrapOrder iorder fun c =>
              assign var [ihi, j] (var.el [ihi, j] + Expr.const c * var.el [ihi - iorder, j])],
      assign var [ihi, lo1 - 1] (var.el [hi0, lo1]),
      assign var [ihi, hi1 + 1] (var.el [hi0, hi1])]
  else if face = 2 then
    let jlo := lo1 - 1
    block [
      doLoop (max lo0 (segLo 0)) (min hi0 (segHi 0)) fun i =>
        block [
          assign var [i, jlo] (Expr.const 0),
          doLoop 1 extrapOrder fun jorder =>
            withCoeff extrapOrder jorder fun c =>
              assign var [i, jlo] (var.el [i, jlo] + Expr.const c * var.el [i, jlo + jorder])],
      assign var [lo0 - 1, jlo] (var.el [lo0, lo1]),
      assign var [hi0 + 1, jlo] (var.el [hi0, lo1])]
  else if face = 3 then
    let jhi := hi1 + 1
    block [
      doLoop (max lo0 (segLo 0)) (min hi0 (segHi 0)) fun i =>
        block [
          assign var [i, jhi] (Expr.const 0),
          doLoop 1 extrapOrder fun jorder =>
            withCoeff extrapOrder jorder fun c =>
              assign var [i, jhi] (var.el [i, jhi] + Expr.const c * var.el [i, jhi - jorder])],
      assign var [lo0 - 1, jhi] (var.el [lo0, hi1]),
      assign var [hi0 + 1, jhi] (var.el [hi0, hi1])]
  else
    skip

/-- `cellsetcorrectionbc3d` (m4/cellsetcorrectionbc3d.m4:45-520) -/
def cellsetcorrectionbc3d (lo0 hi0 lo1 hi1 lo2 hi2 : Int) (dx : Nat → T) (dgcw : Int) (d0_ d1_ d2_ : Ptr) (ugcw : Int) (u_ : Ptr) (bdrySegLo bdrySegHi : Nat → Int) (extrapOrder face type bdryType : Int) (alpha beta : T) : Cmd T :=
  let d0 := face3d0 d0_ lo0 lo1 lo2 hi0 hi1 hi2 dgcw
  let d1 := face3d1 d1_ lo0 lo1 lo2 hi0 hi1 hi2 dgcw
  let d2 := face3d2 d2_ lo0 lo1 lo2 hi0 hi1 hi2 dgcw
  let u := cell3d u_ lo0 lo1 lo2 hi0 hi1 hi2 ugcw
  if type = 1 then
    if face = 0 then
      let ilo := bdrySegLo 0 + 1
      let jlo := bdrySegLo 1
      let jhi := bdrySegHi 1
      let klo := bdrySegLo 2
      let khi := bdrySegHi 2
      let h : T := dx 0
      if bdryType = 0 then
        if extrapOrder = 1 then
          doLoop (max lo2 klo) (min hi2 khi) fun k =>
            doLoop (max lo1 jlo) (min hi1 jhi) fun j =>
              assign u [ilo - 1, j, k] (-u.el [ilo, j, k])
        else if extrapOrder = 2 then
          doLoop (max lo2 klo) (min hi2 khi) fun k =>
            doLoop (max lo1 jlo) (min hi1 jhi) fun j =>
              assign u [ilo - 1, j, k] ((-(Expr.const 2 * u.el [ilo, j, k])) + u.el [ilo + 1, j, k] / Expr.const 3)
        else
          skip
      else if bdryType = 1 then
        doLoop (max lo2 klo) (min hi2 khi) fun k =>
          doLoop (max lo1 jlo) (min hi1 jhi) fun j =>
            assign u [ilo - 1, j, k] (u.el [ilo, j, k])
      else if bdryType = 4 then
        if extrapOrder = 1 then
          doLoop (max lo2 klo) (min hi2 khi) fun k =>
            doLoop (max lo1 jlo) (min hi1 jhi) fun j =>
              let factor : Expr T := Expr.const (2 * alpha) * d0.el [ilo, j, k] - Expr.const (h * beta)
              let factor : Expr T := factor / (Expr.const (2 * alpha) * d0.el [ilo, j, k] + Expr.const (h * beta))
              assign u [ilo - 1, j, k] (factor * u.el [ilo, j, k])
        else if extrapOrder = 2 then
          doLoop (max lo2 klo) (min hi2 khi) fun k =>
            doLoop (max lo1 jlo) (min hi1 jhi) fun j =>
              let b : Expr T := d0.el [ilo, j, k]
              let coeff1 : Expr T := Expr.const (8 * alpha) * b - Expr.const (6 * beta * h)
              let coeff1 : Expr T := coeff1 / (Expr.const (8 * alpha) * b + Expr.const (3 * beta * h))
              let coeff2 : Expr T := Expr.const h / (Expr.const (8 * alpha) * b + Expr.const (3 * beta * h))
              assign u [ilo - 1, j, k] (coeff1 * u.el [ilo, j, k] + coeff2 * u.el [ilo + 1, j, k])
        else
          skip
      else
        skip
    else if face = 1 then
      let ihi := bdrySegHi 0 - 1
      let jlo := bdrySegLo 1
      let jhi := bdrySegHi 1
      let klo := bdrySegLo 2
      let khi := bdrySegHi 2
      let h : T := dx 0
      if bdryType = 0 then
        if extrapOrder = 1 then
          doLoop (max lo2 klo) (min hi2 khi) fun k =>
            doLoop (max lo1 jlo) (min hi1 jhi) fun j =>
              assign u [ihi + 1, j, k] (-u.el [ihi, j, k])
        else if extrapOrder = 2 then
          doLoop (max lo2 klo) (min hi2 khi) fun k =>
            doLoop (max lo1 jlo) (min hi1 jhi) fun j =>
              assign u [ihi + 1, j, k] ((-(Expr.const 2 * u.el [ihi, j, k])) + u.el [ihi - 1, j, k] / Expr.const 3)
        else
          skip
      else if bdryType = 1 then
        doLoop (max lo2 klo) (min hi2 khi) fun k =>
          doLoop (max lo1 jlo) (min hi1 jhi) fun j =>
            assign u [ihi + 1, j, k] (u.el [ihi, j, k])
      else if bdryType = 4 then
        if extrapOrder = 1 then
          doLoop (max lo2 klo) (min hi2 khi) fun k =>
            doLoop (max lo1 jlo) (min hi1 jhi) fun j =>
              let b : Expr T := d0.el [ihi + 1, j, k]
              let factor : Expr T := Expr.const (2 * alpha) * b - Expr.const (h * beta)
              let factor : Expr T := factor / (Expr.const (2 * alpha) * b + Expr.const (h * beta))
              assign u [ihi + 1, j, k] (factor * u.el [ihi, j, k])
        else if extrapOrder = 2 then
          doLoop (max lo2 klo) (min hi2 khi) fun k =>
            doLoop (max lo1 jlo) (min hi1 jhi) fun j =>
              let b : Expr T := d0.el [ihi + 1, j, k]
              let coeff1 : Expr T := Expr.const (8 * alpha) * b - Expr.const (6 * beta * h)
              let coeff1 : Expr T := coeff1 / (Expr.const (8 * alpha) * b + Expr.const (3 * beta * h))
              let coeff2 : Expr T := Expr.const h / (Expr.const (8 * alpha) * b + Expr.const (3 * beta * h))
              assign u [ihi + 1, j, k] (coeff1 * u.el [ihi, j, k] + coeff2 * u.el [ihi - 1, j, k])
        else
          skip
      else
        skip
    else if face = 2 then
      let jlo := bdrySegLo 1 + 1
      let ilo := bdrySegLo 0
      let ihi := bdrySegHi 0
      let klo := bdrySegLo 2
      let khi := bdrySegHi 2
      let h : T := dx 1
      if bdryType = 0 then
        if extrapOrder = 1 then
          doLoop (max lo2 klo) (min hi2 khi) fun k =>
            doLoop (max lo0 ilo) (min hi0 ihi) fun i =>
              assign u [i, jlo - 1, k] (-u.el [i, jlo, k])
        else if extrapOrder = 2 then
          doLoop (max lo2 klo) (min hi2 khi) fun k =>
            doLoop (max lo0 ilo) (min hi0 ihi) fun i =>
              assign u [i, jlo - 1, k] ((-(Expr.const 2 * u.el [i, jlo, k])) + u.el [i, jlo + 1, k] / Expr.const 3)
        else
          skip
      else if bdryType = 1 then
        doLoop (max lo2 klo) (min hi2 khi) fun k =>
          doLoop (max lo0 ilo) (min hi0 ihi) fun i =>
            assign u [i, jlo - 1, k] (u.el [i, jlo, k])
      else if bdryType = 4 then
        if extrapOrder = 1 then
          doLoop (max lo2 klo) (min hi2 khi) fun k =>
            doLoop (max lo0 ilo) (min hi0 ihi) fun i =>
              let b : Expr T := d1.el [jlo, k, i]
              let factor : Expr T := Expr.const (2 * alpha) * b - Expr.const (h * beta)
              let factor : Expr T := factor / (Expr.const (2 * alpha) * b + Expr.const (h * beta))
              assign u [i, jlo - 1, k] (factor * u.el [i, jlo, k])
        else if extrapOrder = 2 then
          doLoop (max lo2 klo) (min hi2 khi) fun k =>
            doLoop (max lo0 ilo) (min hi0 ihi) fun i =>
              let b : Expr T := d1.el [jlo, k, i]
              let coeff1 : Expr T := Expr.const (8 * alpha) * b - Expr.const (6 * beta * h)
              let coeff1 : Expr T := coeff1 / (Expr.const (8 * alpha) * b + Expr.const (3 * beta * h))
              let coeff2 : Expr T := Expr.const h / (Expr.const (8 * alpha) * b + Expr.const (3 * beta * h))
              assign u [i, jlo - 1, k] (coeff1 * u.el [i, jlo, k] + coeff2 * u.el [i, jlo + 1, k])
        else
          skip
      else
        skip
    else if face = 3 then
      let jhi := bdrySegHi 1 - 1
      let ilo := bdrySegLo 0
      let ihi := bdrySegHi 0
      let klo := bdrySegLo 2
      let khi := bdrySegHi 2
      let h : T := dx 1
      if bdryType = 0 then
        if extrapOrder = 1 then
          doLoop (max lo2 klo) (min hi2 khi) fun k =>
            doLoop (max lo0 ilo) (min hi0 ihi) fun i =>
              assign u [i, jhi + 1, k] (-u.el [i, jhi, k])
        else if extrapOrder = 2 then
          doLoop (max lo2 klo) (min hi2 khi) fun k =>
            doLoop (max lo0 ilo) (min hi0 ihi) fun i =>
              assign u [i, jhi + 1, k] ((-(Expr.const 2 * u.el [i, jhi, k])) + u.el [i, jhi - 1, k] / Expr.const 3)
        else
          skip
      else if bdryType = 1 then
        doLoop (max lo2 klo) (min hi2 khi) fun k =>
          doLoop (max lo0 ilo) (min hi0 ihi) fun i =>
            assign u [i, jhi + 1, k] (u.el [i, jhi, k])
      else if bdryType = 4 then
        if extrapOrder = 1 then
          doLoop (max lo2 klo) (min hi2 khi) fun k =>
            doLoop (max lo0 ilo) (min hi0 ihi) fun i =>
              let b : Expr T := d1.el [jhi + 1, k, i]
              let factor : Expr T := Expr.const (2 * alpha) * b - Expr.const (h * beta)
              let factor : Expr T := factor / (Expr.const (2 * alpha) * b + Expr.const (h * beta))
              assign u [i, jhi + 1, k] (factor * u.el [i, jhi, k])
        else if extrapOrder = 2 then
          doLoop (max lo2 klo) (min hi2 khi) fun k =>
            doLoop (max lo0 ilo) (min hi0 ihi) fun i =>
              let b : Expr T := d1.el [jhi + 1, k, i]
              let coeff1 : Expr T := Expr.const (8 * alpha) * b - Expr.const (6 * beta * h)
              let coeff1 : Expr T := coeff1 / (Expr.const (8 * alpha) * b + Expr.const (3 * beta * h))
              let coeff2 : Expr T := Expr.const h / (Expr.const (8 * alpha) * b + Expr.const (3 * beta * h))
              assign u [i, jhi + 1, k] (coeff1 * u.el [i, jhi, k] + coeff2 * u.el [i, jhi - 1, k])
        else
          skip
      else
        skip
    else if face = 4 then
      let klo := bdrySegLo 2 + 1
      let ilo := bdrySegLo 0
      let ihi := bdrySegHi 0
      let jlo := bdrySegLo 1
      let jhi := bdrySegHi 1
      let h : T := dx 2
      if bdryType = 0 then
        if extrapOrder = 1 then
          doLoop (max lo1 jlo) (min hi1 jhi) fun j =>
            doLoop (max lo0 ilo) (min hi0 ihi) fun i =>
              assign u [i, j, klo - 1] (-u.el [i, j, klo])
        else if extrapOrder = 2 then
          doLoop (max lo1 jlo) (min hi1 jhi) fun j =>
            doLoop (max lo0 ilo) (min hi0 ihi) fun i =>
              assign u [i, j, klo - 1] ((-(Expr.const 2 * u.el [i, j, klo])) + u.el [i, j, klo + 1] / Expr.const 3)
        else
          skip
      else if bdryType = 1 then
        doLoop (max lo1 jlo) (min hi1 jhi) fun j =>
          doLoop (max lo0 ilo) (min hi0 ihi) fun i =>
            assign u [i, j, klo - 1] (u.el [i, j, klo])
      else if bdryType = 4 then
        if extrapOrder = 1 then
          doLoop (max lo1 jlo) (min hi1 jhi) fun j =>
            doLoop (max lo0 ilo) (min hi0 ihi) fun i =>
              let b : Expr T := d2.el [klo, i, j]
              let factor : Expr T := Expr.const (2 * alpha) * b - Expr.const (h * beta)
              let factor : Expr T := factor / (Expr.const (2 * alpha) * b + Expr.const (h * beta))
              assign u [i, j, klo - 1] (factor * u.el [i, j, klo])
        else if extrapOrder = 2 then
          doLoop (max lo1 jlo) (min hi1 jhi) fun j =>
            doLoop (max lo0 ilo) (min hi0 ihi) fun i =>
              let b : Expr T := d2.el [klo, i, j]
              let coeff1 : Expr T := Expr.const (8 * alpha) * b - Expr.const (6 * beta * h)
              let coeff1 : Expr T := coeff1 / (Expr.const (8 * alpha) * b + Expr.const (3 * beta * h))
              let coeff2 : Expr T := Expr.const h / (Expr.const (8 * alpha) * b + Expr.const (3 * beta * h))
              assign u [i, j, klo - 1] (coeff1 * u.el [i, j, klo] + coeff2 * u.el [i, j, klo + 1])
        else
          skip
      else
        skip
    else if face = 5 then
      let khi := bdrySegHi 2 - 1
      let ilo := bdrySegLo 0
      let ihi := bdrySegHi 0
      let jlo := bdrySegLo 1
      let jhi := bdrySegHi 1
      let h : T := dx 2
      if bdryType = 0 then
        if extrapOrder = 1 then
          doLoop (max lo1 jlo) (min hi1 jhi) fun j =>
            doLoop (max lo0 ilo) (min hi0 ihi) fun i =>
              assign u [i, j, khi + 1] (-u.el [i, j, khi])
        else if extrapOrder = 2 then
          doLoop (max lo1 jlo) (min hi1 jhi) fun j =>
            doLoop (max lo0 ilo) (min hi0 ihi) fun i =>
              assign u [i, j, khi + 1] ((-(Expr.const 2 * u.el [i, j, khi])) + u.el [i, j, khi - 1] / Expr.const 3)
        else
          skip
      else if bdryType = 1 then
        doLoop (max lo1 jlo) (min hi1 jhi) fun j =>
          doLoop (max lo0 ilo) (min hi0 ihi) fun i =>
            assign u [i, j, khi + 1] (u.el [i, j, khi])
      else if bdryType = 4 then
        if extrapOrder = 1 then
          doLoop (max lo1 jlo) (min hi1 jhi) fun j =>
            doLoop (max lo0 ilo) (min hi0 ihi) fun i =>
              let b : Expr T := d2.el [khi + 1, i, j]
              let factor : Expr T := Expr.const (2 * alpha) * b - Expr.const (h * beta)
              let factor : Expr T := factor / (Expr.const (2 * alpha) * b + Expr.const (h * beta))
              assign u [i, j, khi + 1] (factor * u.el [i, j, khi])
        else if extrapOrder = 2 then
          doLoop (max lo1 jlo) (min hi1 jhi) fun j =>
            doLoop (max lo0 ilo) (min hi0 ihi) fun i =>
              let b : Expr T := d2.el [khi + 1, i, j]
              let coeff1 : Expr T := Expr.const (8 * alpha) * b - Expr.const (6 * beta * h)
              let coeff1 : Expr T := coeff1 / (Expr.const (8 * alpha) * b + Expr.const (3 * beta * h))
              let coeff2 : Expr T := Expr.const h / (Expr.const (8 * alpha) * b + Expr.const (3 * beta * h))
              assign u [i, j, khi + 1] (coeff1 * u.el [i, j, khi] + coeff2 * u.el [i, j, khi - 1])
        else
          skip
      else
        skip
    else
      skip
  else if type = 2 then
    let ilo := bdrySegLo 0
    let ihi := bdrySegHi 0
    let jlo := bdrySegLo 1
    let jhi := bdrySegHi 1
    let klo := bdrySegLo 2
    let khi := bdrySegHi 2
    if face = 0 then
      doLoop klo khi fun k =>
        assign u [ilo, jlo, k] ((-u.el [ilo + 1, jlo + 1, k]) + u.el [ilo + 1, jlo, k] + u.el [ilo, jlo + 1, k])
    else if face = 1 then
      doLoop klo khi fun k =>
        assign u [ilo, jlo, k] ((-u.el [ilo - 1, jlo + 1, k]) + u.el [ilo - 1, jlo, k] + u.el [ilo, jlo + 1, k])
    else if face = 2 then
      doLoop klo khi fun k =>
        assign u [ilo, jlo, k] ((-u.el [ilo + 1, jlo - 1, k]) + u.el [ilo + 1, jlo, k] + u.el [ilo, jlo - 1, k])
    else if face = 3 then
      doLoop klo khi fun k =>
        assign u [ilo, jlo, k] ((-u.el [ilo - 1, jlo - 1, k]) + u.el [ilo - 1, jlo, k] + u.el [ilo, jlo - 1, k])
    else if face = 4 then
      doLoop jlo jhi fun j =>
        assign u [ilo, j, klo] ((-u.el [ilo + 1, j, klo + 1]) + u.el [ilo + 1, j, klo] + u.el [ilo, j, klo + 1])
    else if face = 5 then
      doLoop jlo jhi fun j =>
        assign u [ilo, j, klo] ((-u.el [ilo - 1, j, klo + 1]) + u.el [ilo - 1, j, klo] + u.el [ilo, j, klo + 1])
    else if face = 6 then
      doLoop jlo jhi fun j =>
        assign u [ilo, j, klo] ((-u.el [ilo + 1, j, klo - 1]) + u.el [ilo + 1, j, klo] + u.el [ilo, j, klo - 1])
    else if face = 7 then
      doLoop jlo jhi fun j =>
        assign u [ilo, j, klo] ((-u.el [ilo - 1, j, klo - 1]) + u.el [ilo - 1, j, klo] + u.el [ilo, j, klo - 1])
    else if face = 8 then
      doLoop ilo ihi fun i =>
        assign u [i, jlo, klo] ((-u.el [i, jlo + 1, klo + 1]) + u.el [i, jlo + 1, klo] + u.el [i, jlo, klo + 1])
    else if face = 9 then
      doLoop ilo ihi fun i =>
        assign u [i, jlo, klo] ((-u.el [i, jlo - 1, klo + 1]) + u.el [i, jlo - 1, klo] + u.el [i, jlo, klo + 1])
    else if face = 10 then
      doLoop ilo ihi fun i =>
        assign u [i, jlo, klo] ((-u.el [i, jlo + 1, klo - 1]) + u.el [i, jlo + 1, klo] + u.el [i, jlo, klo - 1])
    else if face = 11 then
      doLoop ilo ihi fun i =>
        assign u [i, jlo, klo] ((-u.el [i, jlo - 1, klo - 1]) + u.el [i, jlo - 1, klo] + u.el [i, jlo, klo - 1])
    else
      skip
  else if type = 3 then
    let ilo := bdrySegLo 0
    let jlo := bdrySegLo 1
    let klo := bdrySegLo 2
    if face = 0 ∨ face = 4 then
      assign u [ilo, jlo, klo] ((-u.el [ilo + 1, jlo + 1, klo]) + u.el [ilo + 1, jlo, klo] + u.el [ilo, jlo + 1, klo])
    else if face = 1 ∨ face = 5 then
      assign u [ilo, jlo, klo] ((-u.el [ilo - 1, jlo + 1, klo]) + u.el [ilo - 1, jlo, klo] + u.el [ilo, jlo + 1, klo])
    else if face = 2 ∨ face = 6 then
      assign u [ilo, jlo, klo] ((-u.el [ilo + 1, jlo - 1, klo]) + u.el [ilo + 1, jlo, klo] + u.el [ilo, jlo - 1, klo])
    else if face = 3 ∨ face = 7 then
      assign u [ilo, jlo, klo] ((-u.el [ilo - 1, jlo - 1, klo]) + u.el [ilo - 1, jlo, klo] + u.el [ilo, jlo - 1, klo])
    else
      skip
  else
    skip

/-- `cellsetpoissoncorrectionbc3d` (m4/cellsetcorrectionbc3d.m4:522-984) -/
def cellsetpoissoncorrectionbc3d (lo0 hi0 lo1 hi1 lo2 hi2 : Int) (dx : Nat → T) (ugcw : Int) (u_ : Ptr) (bdrySegLo bdrySegHi : Nat → Int) (extrapOrder face type bdryType : Int) (alpha beta : T) : Cmd T :=
  let u := cell3d u_ lo0 lo1 lo2 hi0 hi1 hi2 ugcw
  if type = 1 then
    if face = 0 then
      let ilo := bdrySegLo 0 + 1
      let jlo := bdrySegLo 1
      let jhi := bdrySegHi 1
      let klo := bdrySegLo 2
      let khi := bdrySegHi 2
      let h : T := dx 0
      if bdryType = 0 then
        if extrapOrder = 1 then
          doLoop klo khi fun k =>
            doLoop jlo jhi fun j =>
              assign u [ilo - 1, j, k] (-u.el [ilo, j, k])
        else if extrapOrder = 2 then
          doLoop klo khi fun k =>
            doLoop jlo jhi fun j =>
              assign u [ilo - 1, j, k] ((-(Expr.const 2 * u.el [ilo, j, k])) + u.el [ilo + 1, j, k] / Expr.const 3)
        else
          skip
      else if bdryType = 1 then
        doLoop klo khi fun k =>
          doLoop jlo jhi fun j =>
            assign u [ilo - 1, j, k] (u.el [ilo, j, k])
      else if bdryType = 4 then
        if extrapOrder = 1 then
          let factor : T := (2 * alpha - h * beta) / (2 * alpha + h * beta)
          doLoop klo khi fun k =>
            doLoop jlo jhi fun j =>
              assign u [ilo - 1, j, k] (Expr.const factor * u.el [ilo, j, k])
        else if extrapOrder = 2 then
          let b : T := 1
          let coeff1 : T := 8 * alpha * b - 6 * beta * h
          let coeff1 : T := coeff1 / (8 * alpha * b + 3 * beta * h)
          let coeff2 : T := h / (8 * alpha * b + 3 * beta * h)
          doLoop klo khi fun k =>
            doLoop jlo jhi fun j =>
              assign u [ilo - 1, j, k] (Expr.const coeff1 * u.el [ilo, j, k] + Expr.const coeff2 * u.el [ilo + 1, j, k])
        else
          skip
      else
        skip
    else if face = 1 then
      let ihi := bdrySegHi 0 - 1
      let jlo := bdrySegLo 1
      let jhi := bdrySegHi 1
      let klo := bdrySegLo 2
      let khi := bdrySegHi 2
      let h : T := dx 0
      if bdryType = 0 then
        if extrapOrder = 1 then
          doLoop klo khi fun k =>
            doLoop jlo jhi fun j =>
              assign u [ihi + 1, j, k] (-u.el [ihi, j, k])
        else if extrapOrder = 2 then
          doLoop klo khi fun k =>
            doLoop jlo jhi fun j =>
              assign u [ihi + 1, j, k] ((-(Expr.const 2 * u.el [ihi, j, k])) + u.el [ihi - 1, j, k] / Expr.const 3)
        else
          skip
      else if bdryType = 1 then
        doLoop klo khi fun k =>
          doLoop jlo jhi fun j =>
            assign u [ihi + 1, j, k] (u.el [ihi, j, k])
      else if bdryType = 4 then
        if extrapOrder = 1 then
          let b : T := 1
          let factor : T := 2 * alpha * b - h * beta
          let factor : T := factor / (2 * alpha * b + h * beta)
          doLoop klo khi fun k =>
            doLoop jlo jhi fun j =>
              assign u [ihi + 1, j, k] (Expr.const factor * u.el [ihi, j, k])
        else if extrapOrder = 2 then
          let b : T := 1
          let coeff1 : T := 8 * alpha * b - 6 * beta * h
          let coeff1 : T := coeff1 / (8 * alpha * b + 3 * beta * h)
          let coeff2 : T := h / (8 * alpha * b + 3 * beta * h)
          doLoop klo khi fun k =>
            doLoop jlo jhi fun j =>
              assign u [ihi + 1, j, k] (Expr.const coeff1 * u.el [ihi, j, k] + Expr.const coeff2 * u.el [ihi - 1, j, k])
        else
          skip
      else
        skip
    else if face = 2 then
      let jlo := bdrySegLo 1 + 1
      let ilo := bdrySegLo 0
      let ihi := bdrySegHi 0
      let klo := bdrySegLo 2
      let khi := bdrySegHi 2
      let h : T := dx 1
      if bdryType = 0 then
        if extrapOrder = 1 then
          doLoop klo khi fun k =>
            doLoop ilo ihi fun i =>
              assign u [i, jlo - 1, k] (-u.el [i, jlo, k])
        else if extrapOrder = 2 then
          doLoop klo khi fun k =>
            doLoop ilo ihi fun i =>
              assign u [i, jlo - 1, k] ((-(Expr.const 2 * u.el [i, jlo, k])) + u.el [i, jlo + 1, k] / Expr.const 3)
        else
          skip
      else if bdryType = 1 then
        doLoop klo khi fun k =>
          doLoop ilo ihi fun i =>
            assign u [i, jlo - 1, k] (u.el [i, jlo, k])
      else if bdryType = 4 then
        if extrapOrder = 1 then
          let b : T := 1
          let factor : T := 2 * alpha * b - h * beta
          let factor : T := factor / (2 * alpha * b + h * beta)
          doLoop klo khi fun k =>
            doLoop ilo ihi fun i =>
              assign u [i, jlo - 1, k] (Expr.const factor * u.el [i, jlo, k])
        else if extrapOrder = 2 then
          let b : T := 1
          let coeff1 : T := 8 * alpha * b - 6 * beta * h
          let coeff1 : T := coeff1 / (8 * alpha * b + 3 * beta * h)
          let coeff2 : T := h / (8 * alpha * b + 3 * beta * h)
          doLoop klo khi fun k =>
            doLoop ilo ihi fun i =>
              assign u [i, jlo - 1, k] (Expr.const coeff1 * u.el [i, jlo, k] + Expr.const coeff2 * u.el [i, jlo + 1, k])
        else
          skip
      else
        skip
    else if face = 3 then
      let jhi := bdrySegHi 1 - 1
      let ilo := bdrySegLo 0
      let ihi := bdrySegHi 0
      let klo := bdrySegLo 2
      let khi := bdrySegHi 2
      let h : T := dx 1
      if bdryType = 0 then
        if extrapOrder = 1 then
          doLoop klo khi fun k =>
            doLoop ilo ihi fun i =>
              assign u [i, jhi + 1, k] (-u.el [i, jhi, k])
        else if extrapOrder = 2 then
          doLoop klo khi fun k =>
            doLoop ilo ihi fun i =>
              assign u [i, jhi + 1, k] ((-(Expr.const 2 * u.el [i, jhi, k])) + u.el [i, jhi - 1, k] / Expr.const 3)
        else
          skip
      else if bdryType = 1 then
        doLoop klo khi fun k =>
          doLoop ilo ihi fun i =>
            assign u [i, jhi + 1, k] (u.el [i, jhi, k])
      else if bdryType = 4 then
        if extrapOrder = 1 then
          let b : T := 1
          let factor : T := 2 * alpha * b - h * beta
          let factor : T := factor / (2 * alpha * b + h * beta)
          doLoop klo khi fun k =>
            doLoop ilo ihi fun i =>
              assign u [i, jhi + 1, k] (Expr.const factor * u.el [i, jhi, k])
        else if extrapOrder = 2 then
          let b : T := 1
          let coeff1 : T := 8 * alpha * b - 6 * beta * h
          let coeff1 : T := coeff1 / (8 * alpha * b + 3 * beta * h)
          let coeff2 : T := h / (8 * alpha * b + 3 * beta * h)
          doLoop klo khi fun k =>
            doLoop ilo ihi fun i =>
              assign u [i, jhi + 1, k] (Expr.const coeff1 * u.el [i, jhi, k] + Expr.const coeff2 * u.el [i, jhi - 1, k])
        else
          skip
      else
        skip
    else if face = 4 then
      let klo := bdrySegLo 2 + 1
      let ilo := bdrySegLo 0
      let ihi := bdrySegHi 0
      let jlo := bdrySegLo 1
      let jhi := bdrySegHi 1
      let h : T := dx 2
      if bdryType = 0 then
        if extrapOrder = 1 then
          doLoop jlo jhi fun j =>
            doLoop ilo ihi fun i =>
              assign u [i, j, klo - 1] (-u.el [i, j, klo])
        else if extrapOrder = 2 then
          doLoop jlo jhi fun j =>
            doLoop ilo ihi fun i =>
              assign u [i, j, klo - 1] ((-(Expr.const 2 * u.el [i, j, klo])) + u.el [i, j, klo + 1] / Expr.const 3)
        else
          skip
      else if bdryType = 1 then
        doLoop jlo jhi fun j =>
          doLoop ilo ihi fun i =>
            assign u [i, j, klo - 1] (u.el [i, j, klo])
      else if bdryType = 4 then
        if extrapOrder = 1 then
          let b : T := 1
          let factor : T := 2 * alpha * b - h * beta
          let factor : T := factor / (2 * alpha * b + h * beta)
          doLoop jlo jhi fun j =>
            doLoop ilo ihi fun i =>
              assign u [i, j, klo - 1] (Expr.const factor * u.el [i, j, klo])
        else if extrapOrder = 2 then
          let b : T := 1
          let coeff1 : T := 8 * alpha * b - 6 * beta * h
          let coeff1 : T := coeff1 / (8 * alpha * b + 3 * beta * h)
          let coeff2 : T := h / (8 * alpha * b + 3 * beta * h)
          doLoop jlo jhi fun j =>
            doLoop ilo ihi fun i =>
              assign u [i, j, klo - 1] (Expr.const coeff1 * u.el [i, j, klo] + Expr.const coeff2 * u.el [i, j, klo + 1])
        else
          skip
      else
        skip
    else if face = 5 then
      let khi := bdrySegHi 2 - 1
      let ilo := bdrySegLo 0
      let ihi := bdrySegHi 0
      let jlo := bdrySegLo 1
      let jhi := bdrySegHi 1
      let h : T := dx 2
      if bdryType = 0 then
        if extrapOrder = 1 then
          doLoop jlo jhi fun j =>
            doLoop ilo ihi fun i =>
              assign u [i, j, khi + 1] (-u.el [i, j, khi])
        else if extrapOrder = 2 then
          doLoop jlo jhi fun j =>
            doLoop ilo ihi fun i =>
              assign u [i, j, khi + 1] ((-(Expr.const 2 * u.el [i, j, khi])) + u.el [i, j, khi - 1] / Expr.const 3)
        else
          skip
      else if bdryType = 1 then
        doLoop jlo jhi fun j =>
          doLoop ilo ihi fun i =>
            assign u [i, j, khi + 1] (u.el [i, j, khi])
      else if bdryType = 4 then
        if extrapOrder = 1 then
          let b : T := 1
          let factor : T := 2 * alpha * b - h * beta
          let factor : T := factor / (2 * alpha * b + h * beta)
          doLoop jlo jhi fun j =>
            doLoop ilo ihi fun i =>
              assign u [i, j, khi + 1] (Expr.const factor * u.el [i, j, khi])
        else if extrapOrder = 2 then
          let b : T := 1
          let coeff1 : T := 8 * alpha * b - 6 * beta * h
          let coeff1 : T := coeff1 / (8 * alpha * b + 3 * beta * h)
          let coeff2 : T := h / (8 * alpha * b + 3 * beta * h)
          doLoop jlo jhi fun j =>
            doLoop ilo ihi fun i =>
              assign u [i, j, khi + 1] (Expr.const coeff1 * u.el [i, j, khi] + Expr.const coeff2 * u.el [i, j, khi - 1])
        else
          skip
      else
        skip
    else
      skip
  else if type = 2 then
    let ilo := bdrySegLo 0
    let ihi := bdrySegHi 0
    let jlo := bdrySegLo 1
    let jhi := bdrySegHi 1
    let klo := bdrySegLo 2
    let khi := bdrySegHi 2
    if face = 0 then
      doLoop klo khi fun k =>
        assign u [ilo, jlo, k] ((-u.el [ilo + 1, jlo + 1, k]) + u.el [ilo + 1, jlo, k] + u.el [ilo, jlo + 1, k])
    else if face = 1 then
      doLoop klo khi fun k =>
        assign u [ilo, jlo, k] ((-u.el [ilo - 1, jlo + 1, k]) + u.el [ilo - 1, jlo, k] + u.el [ilo, jlo + 1, k])
    else if face = 2 then
      doLoop klo khi fun k =>
        assign u [ilo, jlo, k] ((-u.el [ilo + 1, jlo - 1, k]) + u.el [ilo + 1, jlo, k] + u.el [ilo, jlo - 1, k])
    else if face = 3 then
      doLoop klo khi fun k =>
        assign u [ilo, jlo, k] ((-u.el [ilo - 1, jlo - 1, k]) + u.el [ilo - 1, jlo, k] + u.el [ilo, jlo - 1, k])
    else if face = 4 then
      doLoop jlo jhi fun j =>
        assign u [ilo, j, klo] ((-u.el [ilo + 1, j, klo + 1]) + u.el [ilo + 1, j, klo] + u.el [ilo, j, klo + 1])
    else if face = 5 then
      doLoop jlo jhi fun j =>
        assign u [ilo, j, klo] ((-u.el [ilo - 1, j, klo + 1]) + u.el [ilo - 1, j, klo] + u.el [ilo, j, klo + 1])
    else if face = 6 then
      doLoop jlo jhi fun j =>
        assign u [ilo, j, klo] ((-u.el [ilo + 1, j, klo - 1]) + u.el [ilo + 1, j, klo] + u.el [ilo, j, klo - 1])
    else if face = 7 then
      doLoop jlo jhi fun j =>
        assign u [ilo, j, klo] ((-u.el [ilo - 1, j, klo - 1]) + u.el [ilo - 1, j, klo] + u.el [ilo, j, klo - 1])
    else if face = 8 then
      doLoop ilo ihi fun i =>
        assign u [i, jlo, klo] ((-u.el [i, jlo + 1, klo + 1]) + u.el [i, jlo + 1, klo] + u.el [i, jlo, klo + 1])
    else if face = 9 then
      doLoop ilo ihi fun i =>
        assign u [i, jlo, klo] ((-u.el [i, jlo - 1, klo + 1]) + u.el [i, jlo - 1, klo] + u.el [i, jlo, klo + 1])
    else if face = 10 then
      doLoop ilo ihi fun i =>
        assign u [i, jlo, klo] ((-u.el [i, jlo + 1, klo - 1]) + u.el [i, jlo + 1, klo] + u.el [i, jlo, klo - 1])
    else if face = 11 then
      doLoop ilo ihi fun i =>
        assign u [i, jlo, klo] ((-u.el [i, jlo - 1, klo - 1]) + u.el [i, jlo - 1, klo] + u.el [i, jlo, klo - 1])
    else
      skip
  else if type = 3 then
    let ilo := bdrySegLo 0
    let jlo := bdrySegLo 1
    let klo := bdrySegLo 2
    if face = 0 ∨ face = 4 then
      assign u [ilo, jlo, klo] ((-u.el [ilo + 1, jlo + 1, klo]) + u.el [ilo + 1, jlo, klo] + u.el [ilo, jlo + 1, klo])
    else if face = 1 ∨ face = 5 then
      assign u [ilo, jlo, klo] ((-u.el [ilo - 1, jlo + 1, klo]) + u.el [ilo - 1, jlo, klo] + u.el [ilo, jlo + 1, klo])
    else if face = 2 ∨ face = 6 then
      assign u [ilo, jlo, klo] ((-u.el [ilo + 1, jlo - 1, klo]) + u.el [ilo + 1, jlo, klo] + u.el [ilo, jlo - 1, klo])
    else if face = 3 ∨ face = 7 then
      assign u [ilo, jlo, klo] ((-u.el [ilo - 1, jlo - 1, klo]) + u.el [ilo - 1, jlo, klo] + u.el [ilo, jlo - 1, klo])
    else
      skip
  else
    skip

end Verif.F
