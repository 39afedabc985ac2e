import Verif.Lemmas.Rounded
import Verif.Model.Kernels.Apply
import Verif.Spec.Kernels.Apply

/-
C49: residual and operator kernels and Fortran routines in arithmetic without laws, such as rounded arithmetic.
-/

namespace Verif
open Spec

variable {T : Type} [Zero T] [Add T] [Sub T] [Mul T] [Div T] [Neg T]

/-- `cd_apply_1d_cuda::diffusion_v1_res` and `celldiffusionv1res1d` leave the same memory in every arithmetic where the two ways of summing the residual give the same, for every schedule. -/
theorem C49_v1_res_1d {i0 i1 agcw ugcw fgcw rgcw : Int} {alpha beta : T} {dx : Nat → T} {a u f f0 res : Ptr} {β : Nat → Backend} {m : Mem T}
    (hβ : ∀ n, ValidBackend (β n)) (hs : ∀ x y z : T, x + y - z = x - (-y + z)) (hi : i0 ≤ i1) (hagcw : 0 ≤ agcw) (hugcw : 0 ≤ ugcw) (hfgcw : 0 ≤ fgcw) (hrgcw : 0 ≤ rgcw)
    (h : F.Args m [F.cell1d a i0 i1 agcw, F.cell1d u i0 i1 ugcw, F.cell1d f i0 i1 fgcw, F.face1d f0 i0 i1 0]
      [F.cell1d res i0 i1 rgcw]) :
    ∃ m', Cuda.diffusionV1Res1d i0 i1 alpha beta dx agcw a ugcw u fgcw f f0 rgcw res β m = .ok m' ∧ F.celldiffusionv1res1d i0 i1 alpha beta dx agcw a ugcw u fgcw f f0 rgcw res m = .ok m' := by
  have ha := h.ok (F.cell1d a i0 i1 agcw) (by simp)
  have hu := h.ok (F.cell1d u i0 i1 ugcw) (by simp)
  have hf := h.ok (F.cell1d f i0 i1 fgcw) (by simp)
  have hres := h.ok (F.cell1d res i0 i1 rgcw) (by simp)
  have hf0 := h.ok (F.face1d f0 i0 i1 0) (by simp)
  have Ia := ha.int
  have Iu := hu.int
  have If := hf.int
  have Ires := hres.int
  have If0 := hf0.int
  simp only [F.cell1d, F.face1d, List.mem_cons, List.not_mem_nil, or_false, forall_eq, InInt] at Ia Iu If Ires If0
  have mkI := mkB_ok (d := .I) (lo := i0) (hi := i1) (by list_omega)
  have plI := plus_ok (d := .I) (b := ⟨i0, i1 + 1, 1⟩) (x := 1) (by omega) (by list_omega)
  have spa : makeSpanOffset a agcw [(.I, ⟨i0, i1 + 1, 1⟩)] = .ok (sCell1 a i0 i1 agcw) := makeSpanOffset_ok (by simp) (by list_omega)
  have spu : makeSpanOffset u ugcw [(.I, ⟨i0, i1 + 1, 1⟩)] = .ok (sCell1 u i0 i1 ugcw) := makeSpanOffset_ok (by simp) (by list_omega)
  have spf : makeSpanOffset f fgcw [(.I, ⟨i0, i1 + 1, 1⟩)] = .ok (sCell1 f i0 i1 fgcw) := makeSpanOffset_ok (by simp) (by list_omega)
  have spres : makeSpanOffset res rgcw [(.I, ⟨i0, i1 + 1, 1⟩)] = .ok (sCell1 res i0 i1 rgcw) := makeSpanOffset_ok (by simp) (by list_omega)
  have Aa : ArrOK m (sCell1 a i0 i1 agcw) := by arr_ok ha
  have Au : ArrOK m (sCell1 u i0 i1 ugcw) := by arr_ok hu
  have Af : ArrOK m (sCell1 f i0 i1 fgcw) := by arr_ok hf
  have Ares : ArrOK m (sCell1 res i0 i1 rgcw) := by arr_ok hres
  have Af0 : ArrOK m (sFace1 f0 i0 i1) := by arr_ok hf0
  have Pa : Apart (sCell1 res i0 i1 rgcw) (sCell1 a i0 i1 agcw) := by apart_ok (h.apart _ (by simp) _ (by simp))
  have Pu : Apart (sCell1 res i0 i1 rgcw) (sCell1 u i0 i1 ugcw) := by apart_ok (h.apart _ (by simp) _ (by simp))
  have Pf : Apart (sCell1 res i0 i1 rgcw) (sCell1 f i0 i1 fgcw) := by apart_ok (h.apart _ (by simp) _ (by simp))
  have Pf0 : Apart (sCell1 res i0 i1 rgcw) (sFace1 f0 i0 i1) := by apart_ok (h.apart _ (by simp) _ (by simp))
  obtain ⟨m', c, f', x⟩ := stmt_nest (lhs := sCell1 res i0 i1 rgcw) (e := (sCell1 f i0 i1 fgcw).e T + beta * ((sFace1 f0 i0 i1).grad .I (dx 0)) - alpha * (sCell1 a i0 i1 agcw).e T * (sCell1 u i0 i1 ugcw).e T)
    (D := [(.I, ⟨i0, i1 + 1, 1⟩)]) (r := [(.I, i0, i1)]) (p0 := fun _ => 0)
    (stmt := fun p => F.assign (F.cell1d res i0 i1 rgcw) [p .I] (.ref (F.cell1d f i0 i1 fgcw) [p .I] - (-(.const beta * ((.ref (F.face1d f0 i0 i1 0) [p .I + 1] - .ref (F.face1d f0 i0 i1 0) [p .I]) / .const (dx 0))) + .const alpha * .ref (F.cell1d a i0 i1 agcw) [p .I] * .ref (F.cell1d u i0 i1 ugcw) [p .I])))
    (hβ 0) (by unit_dom) Ares (by within) (by operands) (by fits) (by typed) (by dims) (by same_dims) (by intro p; list_omega) (by body_ops hs)
  refine ⟨m', ?_, ?_⟩
  · unfold Cuda.diffusionV1Res1d
    exact bind_step mkI <| bind_step spa <| bind_step spu <| bind_step spf <| bind_step spres <| bind_step plI <| bind_step c rfl
  · exact f'

example : ∃ m', Cuda.diffusionV1Res1d 0 3 3 2 exDx 1 ⟨0, 0⟩ 2 ⟨1, 0⟩ 1 ⟨2, 0⟩ ⟨3, 0⟩ 1 ⟨4, 0⟩ (fun _ => revBackend) exRat = .ok m' ∧
    F.celldiffusionv1res1d 0 3 3 2 exDx 1 ⟨0, 0⟩ 2 ⟨1, 0⟩ 1 ⟨2, 0⟩ ⟨3, 0⟩ 1 ⟨4, 0⟩ exRat = .ok m' :=
  C49_v1_res_1d (fun _ => revBackend_ok) (fun _ _ _ => by ring) (by decide) (by decide) (by decide) (by decide) (by decide) (by ex_args)

/-- `cd_apply_1d_cuda::diffusion_v2_res` and `celldiffusionv2res1d` leave the same memory in every arithmetic where the two ways of summing the residual give the same, for every schedule. -/
theorem C49_v2_res_1d {i0 i1 ugcw fgcw rgcw : Int} {alpha beta : T} {dx : Nat → T} {u f f0 res : Ptr} {β : Nat → Backend} {m : Mem T}
    (hβ : ∀ n, ValidBackend (β n)) (hs : ∀ x y z : T, x + y - z = x - (-y + z)) (hi : i0 ≤ i1) (hugcw : 0 ≤ ugcw) (hfgcw : 0 ≤ fgcw) (hrgcw : 0 ≤ rgcw)
    (h : F.Args m [F.cell1d u i0 i1 ugcw, F.cell1d f i0 i1 fgcw, F.face1d f0 i0 i1 0]
      [F.cell1d res i0 i1 rgcw]) :
    ∃ m', Cuda.diffusionV2Res1d i0 i1 alpha beta dx ugcw u fgcw f f0 rgcw res β m = .ok m' ∧ F.celldiffusionv2res1d i0 i1 alpha beta dx ugcw u fgcw f f0 rgcw res m = .ok m' := by
  have hu := h.ok (F.cell1d u i0 i1 ugcw) (by simp)
  have hf := h.ok (F.cell1d f i0 i1 fgcw) (by simp)
  have hres := h.ok (F.cell1d res i0 i1 rgcw) (by simp)
  have hf0 := h.ok (F.face1d f0 i0 i1 0) (by simp)
  have Iu := hu.int
  have If := hf.int
  have Ires := hres.int
  have If0 := hf0.int
  simp only [F.cell1d, F.face1d, List.mem_cons, List.not_mem_nil, or_false, forall_eq, InInt] at Iu If Ires If0
  have mkI := mkB_ok (d := .I) (lo := i0) (hi := i1) (by list_omega)
  have plI := plus_ok (d := .I) (b := ⟨i0, i1 + 1, 1⟩) (x := 1) (by omega) (by list_omega)
  have spu : makeSpanOffset u ugcw [(.I, ⟨i0, i1 + 1, 1⟩)] = .ok (sCell1 u i0 i1 ugcw) := makeSpanOffset_ok (by simp) (by list_omega)
  have spf : makeSpanOffset f fgcw [(.I, ⟨i0, i1 + 1, 1⟩)] = .ok (sCell1 f i0 i1 fgcw) := makeSpanOffset_ok (by simp) (by list_omega)
  have spres : makeSpanOffset res rgcw [(.I, ⟨i0, i1 + 1, 1⟩)] = .ok (sCell1 res i0 i1 rgcw) := makeSpanOffset_ok (by simp) (by list_omega)
  have Au : ArrOK m (sCell1 u i0 i1 ugcw) := by arr_ok hu
  have Af : ArrOK m (sCell1 f i0 i1 fgcw) := by arr_ok hf
  have Ares : ArrOK m (sCell1 res i0 i1 rgcw) := by arr_ok hres
  have Af0 : ArrOK m (sFace1 f0 i0 i1) := by arr_ok hf0
  have Pu : Apart (sCell1 res i0 i1 rgcw) (sCell1 u i0 i1 ugcw) := by apart_ok (h.apart _ (by simp) _ (by simp))
  have Pf : Apart (sCell1 res i0 i1 rgcw) (sCell1 f i0 i1 fgcw) := by apart_ok (h.apart _ (by simp) _ (by simp))
  have Pf0 : Apart (sCell1 res i0 i1 rgcw) (sFace1 f0 i0 i1) := by apart_ok (h.apart _ (by simp) _ (by simp))
  obtain ⟨m', c, f', x⟩ := stmt_nest (lhs := sCell1 res i0 i1 rgcw) (e := (sCell1 f i0 i1 fgcw).e T + beta * ((sFace1 f0 i0 i1).grad .I (dx 0)) - alpha * (sCell1 u i0 i1 ugcw).e T)
    (D := [(.I, ⟨i0, i1 + 1, 1⟩)]) (r := [(.I, i0, i1)]) (p0 := fun _ => 0)
    (stmt := fun p => F.assign (F.cell1d res i0 i1 rgcw) [p .I] (.ref (F.cell1d f i0 i1 fgcw) [p .I] - (-(.const beta * ((.ref (F.face1d f0 i0 i1 0) [p .I + 1] - .ref (F.face1d f0 i0 i1 0) [p .I]) / .const (dx 0))) + .const alpha * .ref (F.cell1d u i0 i1 ugcw) [p .I])))
    (hβ 0) (by unit_dom) Ares (by within) (by operands) (by fits) (by typed) (by dims) (by same_dims) (by intro p; list_omega) (by body_ops hs)
  refine ⟨m', ?_, ?_⟩
  · unfold Cuda.diffusionV2Res1d
    exact bind_step mkI <| bind_step spu <| bind_step spf <| bind_step spres <| bind_step plI <| bind_step c rfl
  · exact f'

example : ∃ m', Cuda.diffusionV2Res1d 0 3 3 2 exDx 1 ⟨0, 0⟩ 2 ⟨1, 0⟩ ⟨2, 0⟩ 1 ⟨3, 0⟩ (fun _ => revBackend) exRat = .ok m' ∧
    F.celldiffusionv2res1d 0 3 3 2 exDx 1 ⟨0, 0⟩ 2 ⟨1, 0⟩ ⟨2, 0⟩ 1 ⟨3, 0⟩ exRat = .ok m' :=
  C49_v2_res_1d (fun _ => revBackend_ok) (fun _ _ _ => by ring) (by decide) (by decide) (by decide) (by decide) (by ex_args)

/-- `cd_apply_1d_cuda::poisson_v1_res` and `cellpoissonv1res1d` leave the same memory in every arithmetic where subtracting the opposite is adding, for every schedule. -/
theorem C49_poisson_res_1d {i0 i1 fgcw rgcw : Int} {beta : T} {dx : Nat → T} {f f0 res : Ptr} {β : Nat → Backend} {m : Mem T}
    (hβ : ∀ n, ValidBackend (β n)) (hs : ∀ x y : T, x + y = x - -y) (hi : i0 ≤ i1) (hfgcw : 0 ≤ fgcw) (hrgcw : 0 ≤ rgcw)
    (h : F.Args m [F.cell1d f i0 i1 fgcw, F.face1d f0 i0 i1 0]
      [F.cell1d res i0 i1 rgcw]) :
    ∃ m', Cuda.poissonV1Res1d i0 i1 beta dx fgcw f f0 rgcw res β m = .ok m' ∧ F.cellpoissonv1res1d i0 i1 beta dx fgcw f f0 rgcw res m = .ok m' := by
  have hf := h.ok (F.cell1d f i0 i1 fgcw) (by simp)
  have hres := h.ok (F.cell1d res i0 i1 rgcw) (by simp)
  have hf0 := h.ok (F.face1d f0 i0 i1 0) (by simp)
  have If := hf.int
  have Ires := hres.int
  have If0 := hf0.int
  simp only [F.cell1d, F.face1d, List.mem_cons, List.not_mem_nil, or_false, forall_eq, InInt] at If Ires If0
  have mkI := mkB_ok (d := .I) (lo := i0) (hi := i1) (by list_omega)
  have plI := plus_ok (d := .I) (b := ⟨i0, i1 + 1, 1⟩) (x := 1) (by omega) (by list_omega)
  have spf : makeSpanOffset f fgcw [(.I, ⟨i0, i1 + 1, 1⟩)] = .ok (sCell1 f i0 i1 fgcw) := makeSpanOffset_ok (by simp) (by list_omega)
  have spres : makeSpanOffset res rgcw [(.I, ⟨i0, i1 + 1, 1⟩)] = .ok (sCell1 res i0 i1 rgcw) := makeSpanOffset_ok (by simp) (by list_omega)
  have Af : ArrOK m (sCell1 f i0 i1 fgcw) := by arr_ok hf
  have Ares : ArrOK m (sCell1 res i0 i1 rgcw) := by arr_ok hres
  have Af0 : ArrOK m (sFace1 f0 i0 i1) := by arr_ok hf0
  have Pf : Apart (sCell1 res i0 i1 rgcw) (sCell1 f i0 i1 fgcw) := by apart_ok (h.apart _ (by simp) _ (by simp))
  have Pf0 : Apart (sCell1 res i0 i1 rgcw) (sFace1 f0 i0 i1) := by apart_ok (h.apart _ (by simp) _ (by simp))
  obtain ⟨m', c, f', x⟩ := stmt_nest (lhs := sCell1 res i0 i1 rgcw) (e := (sCell1 f i0 i1 fgcw).e T + beta * ((sFace1 f0 i0 i1).grad .I (dx 0)))
    (D := [(.I, ⟨i0, i1 + 1, 1⟩)]) (r := [(.I, i0, i1)]) (p0 := fun _ => 0)
    (stmt := fun p => F.assign (F.cell1d res i0 i1 rgcw) [p .I] (.ref (F.cell1d f i0 i1 fgcw) [p .I] - -(.const beta * ((.ref (F.face1d f0 i0 i1 0) [p .I + 1] - .ref (F.face1d f0 i0 i1 0) [p .I]) / .const (dx 0)))))
    (hβ 0) (by unit_dom) Ares (by within) (by operands) (by fits) (by typed) (by dims) (by same_dims) (by intro p; list_omega) (by body_ops hs)
  refine ⟨m', ?_, ?_⟩
  · unfold Cuda.poissonV1Res1d
    exact bind_step mkI <| bind_step spf <| bind_step spres <| bind_step plI <| bind_step c rfl
  · exact f'

example : ∃ m', Cuda.poissonV1Res1d 0 3 2 exDxB 1 ⟨0, 0⟩ ⟨1, 0⟩ 1 ⟨2, 0⟩ (fun _ => revBackend) exB64 = .ok m' ∧
    F.cellpoissonv1res1d 0 3 2 exDxB 1 ⟨0, 0⟩ ⟨1, 0⟩ 1 ⟨2, 0⟩ exB64 = .ok m' :=
  C49_poisson_res_1d (fun _ => revBackend_ok) B64.sub_neg (by decide) (by decide) (by decide) (by ex_argsB)

/-- `cd_apply_1d_cuda::diffusion_v1_apply` and `celldiffusionv1apply1d` leave the same memory in every arithmetic where the sign of a factor is the sign of the product, for every schedule. -/
theorem C49_v1_apply_1d {i0 i1 agcw ugcw rgcw : Int} {alpha beta : T} {dx : Nat → T} {a u f0 res : Ptr} {β : Nat → Backend} {m : Mem T}
    (hβ : ∀ n, ValidBackend (β n)) (hs : ∀ x y : T, -x * y = -(x * y)) (hi : i0 ≤ i1) (hagcw : 0 ≤ agcw) (hugcw : 0 ≤ ugcw) (hrgcw : 0 ≤ rgcw)
    (h : F.Args m [F.cell1d a i0 i1 agcw, F.cell1d u i0 i1 ugcw, F.face1d f0 i0 i1 0]
      [F.cell1d res i0 i1 rgcw]) :
    ∃ m', Cuda.diffusionV1Apply1d i0 i1 alpha beta dx agcw a ugcw u f0 rgcw res β m = .ok m' ∧ F.celldiffusionv1apply1d i0 i1 alpha beta dx agcw a ugcw u f0 rgcw res m = .ok m' := by
  have ha := h.ok (F.cell1d a i0 i1 agcw) (by simp)
  have hu := h.ok (F.cell1d u i0 i1 ugcw) (by simp)
  have hres := h.ok (F.cell1d res i0 i1 rgcw) (by simp)
  have hf0 := h.ok (F.face1d f0 i0 i1 0) (by simp)
  have Ia := ha.int
  have Iu := hu.int
  have Ires := hres.int
  have If0 := hf0.int
  simp only [F.cell1d, F.face1d, List.mem_cons, List.not_mem_nil, or_false, forall_eq, InInt] at Ia Iu Ires If0
  have mkI := mkB_ok (d := .I) (lo := i0) (hi := i1) (by list_omega)
  have plI := plus_ok (d := .I) (b := ⟨i0, i1 + 1, 1⟩) (x := 1) (by omega) (by list_omega)
  have spa : makeSpanOffset a agcw [(.I, ⟨i0, i1 + 1, 1⟩)] = .ok (sCell1 a i0 i1 agcw) := makeSpanOffset_ok (by simp) (by list_omega)
  have spu : makeSpanOffset u ugcw [(.I, ⟨i0, i1 + 1, 1⟩)] = .ok (sCell1 u i0 i1 ugcw) := makeSpanOffset_ok (by simp) (by list_omega)
  have spres : makeSpanOffset res rgcw [(.I, ⟨i0, i1 + 1, 1⟩)] = .ok (sCell1 res i0 i1 rgcw) := makeSpanOffset_ok (by simp) (by list_omega)
  have Aa : ArrOK m (sCell1 a i0 i1 agcw) := by arr_ok ha
  have Au : ArrOK m (sCell1 u i0 i1 ugcw) := by arr_ok hu
  have Ares : ArrOK m (sCell1 res i0 i1 rgcw) := by arr_ok hres
  have Af0 : ArrOK m (sFace1 f0 i0 i1) := by arr_ok hf0
  have Pa : Apart (sCell1 res i0 i1 rgcw) (sCell1 a i0 i1 agcw) := by apart_ok (h.apart _ (by simp) _ (by simp))
  have Pu : Apart (sCell1 res i0 i1 rgcw) (sCell1 u i0 i1 ugcw) := by apart_ok (h.apart _ (by simp) _ (by simp))
  have Pf0 : Apart (sCell1 res i0 i1 rgcw) (sFace1 f0 i0 i1) := by apart_ok (h.apart _ (by simp) _ (by simp))
  obtain ⟨m', c, f', x⟩ := stmt_nest (lhs := sCell1 res i0 i1 rgcw) (e := -beta * ((sFace1 f0 i0 i1).grad .I (dx 0)) + alpha * (sCell1 a i0 i1 agcw).e T * (sCell1 u i0 i1 ugcw).e T)
    (D := [(.I, ⟨i0, i1 + 1, 1⟩)]) (r := [(.I, i0, i1)]) (p0 := fun _ => 0)
    (stmt := fun p => F.assign (F.cell1d res i0 i1 rgcw) [p .I] (-(.const beta * ((.ref (F.face1d f0 i0 i1 0) [p .I + 1] - .ref (F.face1d f0 i0 i1 0) [p .I]) / .const (dx 0))) + .const alpha * .ref (F.cell1d a i0 i1 agcw) [p .I] * .ref (F.cell1d u i0 i1 ugcw) [p .I]))
    (hβ 0) (by unit_dom) Ares (by within) (by operands) (by fits) (by typed) (by dims) (by same_dims) (by intro p; list_omega) (by body_ops hs)
  refine ⟨m', ?_, ?_⟩
  · unfold Cuda.diffusionV1Apply1d
    exact bind_step mkI <| bind_step spa <| bind_step spu <| bind_step spres <| bind_step plI <| bind_step c rfl
  · exact f'

example : ∃ m', Cuda.diffusionV1Apply1d 0 3 3 2 exDxB 1 ⟨0, 0⟩ 2 ⟨1, 0⟩ ⟨2, 0⟩ 1 ⟨3, 0⟩ (fun _ => revBackend) exB64 = .ok m' ∧
    F.celldiffusionv1apply1d 0 3 3 2 exDxB 1 ⟨0, 0⟩ 2 ⟨1, 0⟩ ⟨2, 0⟩ 1 ⟨3, 0⟩ exB64 = .ok m' :=
  C49_v1_apply_1d (fun _ => revBackend_ok) B64.neg_mul (by decide) (by decide) (by decide) (by decide) (by ex_argsB)

/-- `cd_apply_1d_cuda::diffusion_v2_apply` and `celldiffusionv2apply1d` leave the same memory in every arithmetic where the sign of a factor is the sign of the product, for every schedule. -/
theorem C49_v2_apply_1d {i0 i1 ugcw rgcw : Int} {alpha beta : T} {dx : Nat → T} {u f0 res : Ptr} {β : Nat → Backend} {m : Mem T}
    (hβ : ∀ n, ValidBackend (β n)) (hs : ∀ x y : T, -x * y = -(x * y)) (hi : i0 ≤ i1) (hugcw : 0 ≤ ugcw) (hrgcw : 0 ≤ rgcw)
    (h : F.Args m [F.cell1d u i0 i1 ugcw, F.face1d f0 i0 i1 0]
      [F.cell1d res i0 i1 rgcw]) :
    ∃ m', Cuda.diffusionV2Apply1d i0 i1 alpha beta dx ugcw u f0 rgcw res β m = .ok m' ∧ F.celldiffusionv2apply1d i0 i1 alpha beta dx ugcw u f0 rgcw res m = .ok m' := by
  have hu := h.ok (F.cell1d u i0 i1 ugcw) (by simp)
  have hres := h.ok (F.cell1d res i0 i1 rgcw) (by simp)
  have hf0 := h.ok (F.face1d f0 i0 i1 0) (by simp)
  have Iu := hu.int
  have Ires := hres.int
  have If0 := hf0.int
  simp only [F.cell1d, F.face1d, List.mem_cons, List.not_mem_nil, or_false, forall_eq, InInt] at Iu Ires If0
  have mkI := mkB_ok (d := .I) (lo := i0) (hi := i1) (by list_omega)
  have plI := plus_ok (d := .I) (b := ⟨i0, i1 + 1, 1⟩) (x := 1) (by omega) (by list_omega)
  have spu : makeSpanOffset u ugcw [(.I, ⟨i0, i1 + 1, 1⟩)] = .ok (sCell1 u i0 i1 ugcw) := makeSpanOffset_ok (by simp) (by list_omega)
  have spres : makeSpanOffset res rgcw [(.I, ⟨i0, i1 + 1, 1⟩)] = .ok (sCell1 res i0 i1 rgcw) := makeSpanOffset_ok (by simp) (by list_omega)
  have Au : ArrOK m (sCell1 u i0 i1 ugcw) := by arr_ok hu
  have Ares : ArrOK m (sCell1 res i0 i1 rgcw) := by arr_ok hres
  have Af0 : ArrOK m (sFace1 f0 i0 i1) := by arr_ok hf0
  have Pu : Apart (sCell1 res i0 i1 rgcw) (sCell1 u i0 i1 ugcw) := by apart_ok (h.apart _ (by simp) _ (by simp))
  have Pf0 : Apart (sCell1 res i0 i1 rgcw) (sFace1 f0 i0 i1) := by apart_ok (h.apart _ (by simp) _ (by simp))
  obtain ⟨m', c, f', x⟩ := stmt_nest (lhs := sCell1 res i0 i1 rgcw) (e := -beta * ((sFace1 f0 i0 i1).grad .I (dx 0)) + alpha * (sCell1 u i0 i1 ugcw).e T)
    (D := [(.I, ⟨i0, i1 + 1, 1⟩)]) (r := [(.I, i0, i1)]) (p0 := fun _ => 0)
    (stmt := fun p => F.assign (F.cell1d res i0 i1 rgcw) [p .I] (-(.const beta * ((.ref (F.face1d f0 i0 i1 0) [p .I + 1] - .ref (F.face1d f0 i0 i1 0) [p .I]) / .const (dx 0))) + .const alpha * .ref (F.cell1d u i0 i1 ugcw) [p .I]))
    (hβ 0) (by unit_dom) Ares (by within) (by operands) (by fits) (by typed) (by dims) (by same_dims) (by intro p; list_omega) (by body_ops hs)
  refine ⟨m', ?_, ?_⟩
  · unfold Cuda.diffusionV2Apply1d
    exact bind_step mkI <| bind_step spu <| bind_step spres <| bind_step plI <| bind_step c rfl
  · exact f'

example : ∃ m', Cuda.diffusionV2Apply1d 0 3 3 2 exDxB 1 ⟨0, 0⟩ ⟨1, 0⟩ 1 ⟨2, 0⟩ (fun _ => revBackend) exB64 = .ok m' ∧
    F.celldiffusionv2apply1d 0 3 3 2 exDxB 1 ⟨0, 0⟩ ⟨1, 0⟩ 1 ⟨2, 0⟩ exB64 = .ok m' :=
  C49_v2_apply_1d (fun _ => revBackend_ok) B64.neg_mul (by decide) (by decide) (by decide) (by ex_argsB)

/-- `cd_apply_1d_cuda::poisson_v2_apply` and `cellpoissonv2apply1d` leave the same memory in every arithmetic where the sign of a factor is the sign of the product, for every schedule. -/
theorem C49_poisson_apply_1d {i0 i1 rgcw : Int} {beta : T} {dx : Nat → T} {f0 res : Ptr} {β : Nat → Backend} {m : Mem T}
    (hβ : ∀ n, ValidBackend (β n)) (hs : ∀ x y : T, -x * y = -(x * y)) (hi : i0 ≤ i1) (hrgcw : 0 ≤ rgcw)
    (h : F.Args m [F.face1d f0 i0 i1 0]
      [F.cell1d res i0 i1 rgcw]) :
    ∃ m', Cuda.poissonV2Apply1d i0 i1 beta dx f0 rgcw res β m = .ok m' ∧ F.cellpoissonv2apply1d i0 i1 beta dx f0 rgcw res m = .ok m' := by
  have hres := h.ok (F.cell1d res i0 i1 rgcw) (by simp)
  have hf0 := h.ok (F.face1d f0 i0 i1 0) (by simp)
  have Ires := hres.int
  have If0 := hf0.int
  simp only [F.cell1d, F.face1d, List.mem_cons, List.not_mem_nil, or_false, forall_eq, InInt] at Ires If0
  have mkI := mkB_ok (d := .I) (lo := i0) (hi := i1) (by list_omega)
  have plI := plus_ok (d := .I) (b := ⟨i0, i1 + 1, 1⟩) (x := 1) (by omega) (by list_omega)
  have spres : makeSpanOffset res rgcw [(.I, ⟨i0, i1 + 1, 1⟩)] = .ok (sCell1 res i0 i1 rgcw) := makeSpanOffset_ok (by simp) (by list_omega)
  have Ares : ArrOK m (sCell1 res i0 i1 rgcw) := by arr_ok hres
  have Af0 : ArrOK m (sFace1 f0 i0 i1) := by arr_ok hf0
  have Pf0 : Apart (sCell1 res i0 i1 rgcw) (sFace1 f0 i0 i1) := by apart_ok (h.apart _ (by simp) _ (by simp))
  obtain ⟨m', c, f', x⟩ := stmt_nest (lhs := sCell1 res i0 i1 rgcw) (e := -beta * ((sFace1 f0 i0 i1).grad .I (dx 0)))
    (D := [(.I, ⟨i0, i1 + 1, 1⟩)]) (r := [(.I, i0, i1)]) (p0 := fun _ => 0)
    (stmt := fun p => F.assign (F.cell1d res i0 i1 rgcw) [p .I] (-(.const beta * ((.ref (F.face1d f0 i0 i1 0) [p .I + 1] - .ref (F.face1d f0 i0 i1 0) [p .I]) / .const (dx 0)))))
    (hβ 0) (by unit_dom) Ares (by within) (by operands) (by fits) (by typed) (by dims) (by same_dims) (by intro p; list_omega) (by body_ops hs)
  refine ⟨m', ?_, ?_⟩
  · unfold Cuda.poissonV2Apply1d
    exact bind_step mkI <| bind_step spres <| bind_step plI <| bind_step c rfl
  · exact f'

example : ∃ m', Cuda.poissonV2Apply1d 0 3 2 exDxB ⟨0, 0⟩ 1 ⟨1, 0⟩ (fun _ => revBackend) exB64 = .ok m' ∧
    F.cellpoissonv2apply1d 0 3 2 exDxB ⟨0, 0⟩ 1 ⟨1, 0⟩ exB64 = .ok m' :=
  C49_poisson_apply_1d (fun _ => revBackend_ok) B64.neg_mul (by decide) (by decide) (by ex_argsB)

/-- `cd_apply_2d_cuda::diffusion_v1_res` and `celldiffusionv1res2d` leave the same memory in every arithmetic where the two ways of summing the residual give the same, for every schedule. -/
theorem C49_v1_res_2d {i0 i1 j0 j1 agcw ugcw fgcw rgcw : Int} {alpha beta : T} {dx : Nat → T} {a u f f0 f1 res : Ptr} {β : Nat → Backend} {m : Mem T}
    (hβ : ∀ n, ValidBackend (β n)) (hs : ∀ x y z : T, x + y - z = x - (-y + z)) (hi : i0 ≤ i1) (hj : j0 ≤ j1) (hagcw : 0 ≤ agcw) (hugcw : 0 ≤ ugcw) (hfgcw : 0 ≤ fgcw) (hrgcw : 0 ≤ rgcw)
    (h : F.Args m [F.cell2d a i0 j0 i1 j1 agcw, F.cell2d u i0 j0 i1 j1 ugcw, F.cell2d f i0 j0 i1 j1 fgcw, F.face2d0 f0 i0 j0 i1 j1 0, F.face2d1 f1 i0 j0 i1 j1 0]
      [F.cell2d res i0 j0 i1 j1 rgcw]) :
    ∃ m', Cuda.diffusionV1Res2d i0 i1 j0 j1 alpha beta dx agcw a ugcw u fgcw f f0 f1 rgcw res β m = .ok m' ∧ F.celldiffusionv1res2d i0 i1 j0 j1 alpha beta dx agcw a ugcw u fgcw f f0 f1 rgcw res m = .ok m' := by
  have ha := h.ok (F.cell2d a i0 j0 i1 j1 agcw) (by simp)
  have hu := h.ok (F.cell2d u i0 j0 i1 j1 ugcw) (by simp)
  have hf := h.ok (F.cell2d f i0 j0 i1 j1 fgcw) (by simp)
  have hres := h.ok (F.cell2d res i0 j0 i1 j1 rgcw) (by simp)
  have hf0 := h.ok (F.face2d0 f0 i0 j0 i1 j1 0) (by simp)
  have hf1 := h.ok (F.face2d1 f1 i0 j0 i1 j1 0) (by simp)
  have Ia := ha.int
  have Iu := hu.int
  have If := hf.int
  have Ires := hres.int
  have If0 := hf0.int
  have If1 := hf1.int
  simp only [F.cell2d, F.face2d0, F.face2d1, List.mem_cons, List.not_mem_nil, or_false, forall_eq_or_imp, forall_eq, InInt] at Ia Iu If Ires If0 If1
  have mkI := mkB_ok (d := .I) (lo := i0) (hi := i1) (by list_omega)
  have plI := plus_ok (d := .I) (b := ⟨i0, i1 + 1, 1⟩) (x := 1) (by omega) (by list_omega)
  have mkJ := mkB_ok (d := .J) (lo := j0) (hi := j1) (by list_omega)
  have plJ := plus_ok (d := .J) (b := ⟨j0, j1 + 1, 1⟩) (x := 1) (by omega) (by list_omega)
  have spa : makeSpanOffset a agcw [(.J, ⟨j0, j1 + 1, 1⟩), (.I, ⟨i0, i1 + 1, 1⟩)] = .ok (sCell2 a i0 j0 i1 j1 agcw) := makeSpanOffset_ok (by simp) (by list_omega)
  have spu : makeSpanOffset u ugcw [(.J, ⟨j0, j1 + 1, 1⟩), (.I, ⟨i0, i1 + 1, 1⟩)] = .ok (sCell2 u i0 j0 i1 j1 ugcw) := makeSpanOffset_ok (by simp) (by list_omega)
  have spf : makeSpanOffset f fgcw [(.J, ⟨j0, j1 + 1, 1⟩), (.I, ⟨i0, i1 + 1, 1⟩)] = .ok (sCell2 f i0 j0 i1 j1 fgcw) := makeSpanOffset_ok (by simp) (by list_omega)
  have spres : makeSpanOffset res rgcw [(.J, ⟨j0, j1 + 1, 1⟩), (.I, ⟨i0, i1 + 1, 1⟩)] = .ok (sCell2 res i0 j0 i1 j1 rgcw) := makeSpanOffset_ok (by simp) (by list_omega)
  have Aa : ArrOK m (sCell2 a i0 j0 i1 j1 agcw) := by arr_ok ha
  have Au : ArrOK m (sCell2 u i0 j0 i1 j1 ugcw) := by arr_ok hu
  have Af : ArrOK m (sCell2 f i0 j0 i1 j1 fgcw) := by arr_ok hf
  have Ares : ArrOK m (sCell2 res i0 j0 i1 j1 rgcw) := by arr_ok hres
  have Af0 : ArrOK m (sFace20 f0 i0 j0 i1 j1) := by arr_ok hf0
  have Af1 : ArrOK m (sFace21 f1 i0 j0 i1 j1) := by arr_ok hf1
  have Pa : Apart (sCell2 res i0 j0 i1 j1 rgcw) (sCell2 a i0 j0 i1 j1 agcw) := by apart_ok (h.apart _ (by simp) _ (by simp))
  have Pu : Apart (sCell2 res i0 j0 i1 j1 rgcw) (sCell2 u i0 j0 i1 j1 ugcw) := by apart_ok (h.apart _ (by simp) _ (by simp))
  have Pf : Apart (sCell2 res i0 j0 i1 j1 rgcw) (sCell2 f i0 j0 i1 j1 fgcw) := by apart_ok (h.apart _ (by simp) _ (by simp))
  have Pf0 : Apart (sCell2 res i0 j0 i1 j1 rgcw) (sFace20 f0 i0 j0 i1 j1) := by apart_ok (h.apart _ (by simp) _ (by simp))
  have Pf1 : Apart (sCell2 res i0 j0 i1 j1 rgcw) (sFace21 f1 i0 j0 i1 j1) := by apart_ok (h.apart _ (by simp) _ (by simp))
  obtain ⟨m', c, f', x⟩ := stmt_nest (lhs := sCell2 res i0 j0 i1 j1 rgcw) (e := (sCell2 f i0 j0 i1 j1 fgcw).e T + beta * ((sFace20 f0 i0 j0 i1 j1).grad .I (dx 0) + (sFace21 f1 i0 j0 i1 j1).grad .J (dx 1)) - alpha * (sCell2 a i0 j0 i1 j1 agcw).e T * (sCell2 u i0 j0 i1 j1 ugcw).e T)
    (D := [(.J, ⟨j0, j1 + 1, 1⟩), (.I, ⟨i0, i1 + 1, 1⟩)]) (r := [(.J, j0, j1), (.I, i0, i1)]) (p0 := fun _ => 0)
    (stmt := fun p => F.assign (F.cell2d res i0 j0 i1 j1 rgcw) [p .I, p .J] (.ref (F.cell2d f i0 j0 i1 j1 fgcw) [p .I, p .J] - (-(.const beta * ((.ref (F.face2d0 f0 i0 j0 i1 j1 0) [p .I + 1, p .J] - .ref (F.face2d0 f0 i0 j0 i1 j1 0) [p .I, p .J]) / .const (dx 0) + (.ref (F.face2d1 f1 i0 j0 i1 j1 0) [p .J + 1, p .I] - .ref (F.face2d1 f1 i0 j0 i1 j1 0) [p .J, p .I]) / .const (dx 1))) + .const alpha * .ref (F.cell2d a i0 j0 i1 j1 agcw) [p .I, p .J] * .ref (F.cell2d u i0 j0 i1 j1 ugcw) [p .I, p .J])))
    (hβ 0) (by unit_dom) Ares (by within) (by operands) (by fits) (by typed) (by dims) (by same_dims) (by intro p; list_omega) (by body_ops hs)
  refine ⟨m', ?_, ?_⟩
  · unfold Cuda.diffusionV1Res2d
    exact bind_step mkI <| bind_step mkJ <| bind_step spa <| bind_step spu <| bind_step spf <| bind_step spres <| bind_step plI <| bind_step plJ <| bind_step c rfl
  · exact f'

example : ∃ m', Cuda.diffusionV1Res2d 0 2 1 3 3 2 exDx 1 ⟨0, 0⟩ 2 ⟨1, 0⟩ 1 ⟨2, 0⟩ ⟨3, 0⟩ ⟨4, 0⟩ 1 ⟨5, 0⟩ (fun _ => revBackend) exRat = .ok m' ∧
    F.celldiffusionv1res2d 0 2 1 3 3 2 exDx 1 ⟨0, 0⟩ 2 ⟨1, 0⟩ 1 ⟨2, 0⟩ ⟨3, 0⟩ ⟨4, 0⟩ 1 ⟨5, 0⟩ exRat = .ok m' :=
  C49_v1_res_2d (fun _ => revBackend_ok) (fun _ _ _ => by ring) (by decide) (by decide) (by decide) (by decide) (by decide) (by decide) (by ex_args)

/-- `cd_apply_2d_cuda::diffusion_v2_res` and `celldiffusionv2res2d` leave the same memory in every arithmetic where the two ways of summing the residual give the same, for every schedule. -/
theorem C49_v2_res_2d {i0 i1 j0 j1 ugcw fgcw rgcw : Int} {alpha beta : T} {dx : Nat → T} {u f f0 f1 res : Ptr} {β : Nat → Backend} {m : Mem T}
    (hβ : ∀ n, ValidBackend (β n)) (hs : ∀ x y z : T, x + y - z = x - (-y + z)) (hi : i0 ≤ i1) (hj : j0 ≤ j1) (hugcw : 0 ≤ ugcw) (hfgcw : 0 ≤ fgcw) (hrgcw : 0 ≤ rgcw)
    (h : F.Args m [F.cell2d u i0 j0 i1 j1 ugcw, F.cell2d f i0 j0 i1 j1 fgcw, F.face2d0 f0 i0 j0 i1 j1 0, F.face2d1 f1 i0 j0 i1 j1 0]
      [F.cell2d res i0 j0 i1 j1 rgcw]) :
    ∃ m', Cuda.diffusionV2Res2d i0 i1 j0 j1 alpha beta dx ugcw u fgcw f f0 f1 rgcw res β m = .ok m' ∧ F.celldiffusionv2res2d i0 i1 j0 j1 alpha beta dx ugcw u fgcw f f0 f1 rgcw res m = .ok m' := by
  have hu := h.ok (F.cell2d u i0 j0 i1 j1 ugcw) (by simp)
  have hf := h.ok (F.cell2d f i0 j0 i1 j1 fgcw) (by simp)
  have hres := h.ok (F.cell2d res i0 j0 i1 j1 rgcw) (by simp)
  have hf0 := h.ok (F.face2d0 f0 i0 j0 i1 j1 0) (by simp)
  have hf1 := h.ok (F.face2d1 f1 i0 j0 i1 j1 0) (by simp)
  have Iu := hu.int
  have If := hf.int
  have Ires := hres.int
  have If0 := hf0.int
  have If1 := hf1.int
  simp only [F.cell2d, F.face2d0, F.face2d1, List.mem_cons, List.not_mem_nil, or_false, forall_eq_or_imp, forall_eq, InInt] at Iu If Ires If0 If1
  have mkI := mkB_ok (d := .I) (lo := i0) (hi := i1) (by list_omega)
  have plI := plus_ok (d := .I) (b := ⟨i0, i1 + 1, 1⟩) (x := 1) (by omega) (by list_omega)
  have mkJ := mkB_ok (d := .J) (lo := j0) (hi := j1) (by list_omega)
  have plJ := plus_ok (d := .J) (b := ⟨j0, j1 + 1, 1⟩) (x := 1) (by omega) (by list_omega)
  have spu : makeSpanOffset u ugcw [(.J, ⟨j0, j1 + 1, 1⟩), (.I, ⟨i0, i1 + 1, 1⟩)] = .ok (sCell2 u i0 j0 i1 j1 ugcw) := makeSpanOffset_ok (by simp) (by list_omega)
  have spf : makeSpanOffset f fgcw [(.J, ⟨j0, j1 + 1, 1⟩), (.I, ⟨i0, i1 + 1, 1⟩)] = .ok (sCell2 f i0 j0 i1 j1 fgcw) := makeSpanOffset_ok (by simp) (by list_omega)
  have spres : makeSpanOffset res rgcw [(.J, ⟨j0, j1 + 1, 1⟩), (.I, ⟨i0, i1 + 1, 1⟩)] = .ok (sCell2 res i0 j0 i1 j1 rgcw) := makeSpanOffset_ok (by simp) (by list_omega)
  have Au : ArrOK m (sCell2 u i0 j0 i1 j1 ugcw) := by arr_ok hu
  have Af : ArrOK m (sCell2 f i0 j0 i1 j1 fgcw) := by arr_ok hf
  have Ares : ArrOK m (sCell2 res i0 j0 i1 j1 rgcw) := by arr_ok hres
  have Af0 : ArrOK m (sFace20 f0 i0 j0 i1 j1) := by arr_ok hf0
  have Af1 : ArrOK m (sFace21 f1 i0 j0 i1 j1) := by arr_ok hf1
  have Pu : Apart (sCell2 res i0 j0 i1 j1 rgcw) (sCell2 u i0 j0 i1 j1 ugcw) := by apart_ok (h.apart _ (by simp) _ (by simp))
  have Pf : Apart (sCell2 res i0 j0 i1 j1 rgcw) (sCell2 f i0 j0 i1 j1 fgcw) := by apart_ok (h.apart _ (by simp) _ (by simp))
  have Pf0 : Apart (sCell2 res i0 j0 i1 j1 rgcw) (sFace20 f0 i0 j0 i1 j1) := by apart_ok (h.apart _ (by simp) _ (by simp))
  have Pf1 : Apart (sCell2 res i0 j0 i1 j1 rgcw) (sFace21 f1 i0 j0 i1 j1) := by apart_ok (h.apart _ (by simp) _ (by simp))
  obtain ⟨m', c, f', x⟩ := stmt_nest (lhs := sCell2 res i0 j0 i1 j1 rgcw) (e := (sCell2 f i0 j0 i1 j1 fgcw).e T + beta * ((sFace20 f0 i0 j0 i1 j1).grad .I (dx 0) + (sFace21 f1 i0 j0 i1 j1).grad .J (dx 1)) - alpha * (sCell2 u i0 j0 i1 j1 ugcw).e T)
    (D := [(.J, ⟨j0, j1 + 1, 1⟩), (.I, ⟨i0, i1 + 1, 1⟩)]) (r := [(.J, j0, j1), (.I, i0, i1)]) (p0 := fun _ => 0)
    (stmt := fun p => F.assign (F.cell2d res i0 j0 i1 j1 rgcw) [p .I, p .J] (.ref (F.cell2d f i0 j0 i1 j1 fgcw) [p .I, p .J] - (-(.const beta * ((.ref (F.face2d0 f0 i0 j0 i1 j1 0) [p .I + 1, p .J] - .ref (F.face2d0 f0 i0 j0 i1 j1 0) [p .I, p .J]) / .const (dx 0) + (.ref (F.face2d1 f1 i0 j0 i1 j1 0) [p .J + 1, p .I] - .ref (F.face2d1 f1 i0 j0 i1 j1 0) [p .J, p .I]) / .const (dx 1))) + .const alpha * .ref (F.cell2d u i0 j0 i1 j1 ugcw) [p .I, p .J])))
    (hβ 0) (by unit_dom) Ares (by within) (by operands) (by fits) (by typed) (by dims) (by same_dims) (by intro p; list_omega) (by body_ops hs)
  refine ⟨m', ?_, ?_⟩
  · unfold Cuda.diffusionV2Res2d
    exact bind_step mkI <| bind_step mkJ <| bind_step spu <| bind_step spf <| bind_step spres <| bind_step plI <| bind_step plJ <| bind_step c rfl
  · exact f'

example : ∃ m', Cuda.diffusionV2Res2d 0 2 1 3 3 2 exDx 1 ⟨0, 0⟩ 2 ⟨1, 0⟩ ⟨2, 0⟩ ⟨3, 0⟩ 1 ⟨4, 0⟩ (fun _ => revBackend) exRat = .ok m' ∧
    F.celldiffusionv2res2d 0 2 1 3 3 2 exDx 1 ⟨0, 0⟩ 2 ⟨1, 0⟩ ⟨2, 0⟩ ⟨3, 0⟩ 1 ⟨4, 0⟩ exRat = .ok m' :=
  C49_v2_res_2d (fun _ => revBackend_ok) (fun _ _ _ => by ring) (by decide) (by decide) (by decide) (by decide) (by decide) (by ex_args)

/-- `cd_apply_2d_cuda::poisson_v1_res` and `cellpoissonv1res2d` leave the same memory in every arithmetic where subtracting the opposite is adding, for every schedule. -/
theorem C49_poisson_res_2d {i0 i1 j0 j1 fgcw rgcw : Int} {beta : T} {dx : Nat → T} {f f0 f1 res : Ptr} {β : Nat → Backend} {m : Mem T}
    (hβ : ∀ n, ValidBackend (β n)) (hs : ∀ x y : T, x + y = x - -y) (hi : i0 ≤ i1) (hj : j0 ≤ j1) (hfgcw : 0 ≤ fgcw) (hrgcw : 0 ≤ rgcw)
    (h : F.Args m [F.cell2d f i0 j0 i1 j1 fgcw, F.face2d0 f0 i0 j0 i1 j1 0, F.face2d1 f1 i0 j0 i1 j1 0]
      [F.cell2d res i0 j0 i1 j1 rgcw]) :
    ∃ m', Cuda.poissonV1Res2d i0 i1 j0 j1 beta dx fgcw f f0 f1 rgcw res β m = .ok m' ∧ F.cellpoissonv1res2d i0 i1 j0 j1 beta dx fgcw f f0 f1 rgcw res m = .ok m' := by
  have hf := h.ok (F.cell2d f i0 j0 i1 j1 fgcw) (by simp)
  have hres := h.ok (F.cell2d res i0 j0 i1 j1 rgcw) (by simp)
  have hf0 := h.ok (F.face2d0 f0 i0 j0 i1 j1 0) (by simp)
  have hf1 := h.ok (F.face2d1 f1 i0 j0 i1 j1 0) (by simp)
  have If := hf.int
  have Ires := hres.int
  have If0 := hf0.int
  have If1 := hf1.int
  simp only [F.cell2d, F.face2d0, F.face2d1, List.mem_cons, List.not_mem_nil, or_false, forall_eq_or_imp, forall_eq, InInt] at If Ires If0 If1
  have mkI := mkB_ok (d := .I) (lo := i0) (hi := i1) (by list_omega)
  have plI := plus_ok (d := .I) (b := ⟨i0, i1 + 1, 1⟩) (x := 1) (by omega) (by list_omega)
  have mkJ := mkB_ok (d := .J) (lo := j0) (hi := j1) (by list_omega)
  have plJ := plus_ok (d := .J) (b := ⟨j0, j1 + 1, 1⟩) (x := 1) (by omega) (by list_omega)
  have spf : makeSpanOffset f fgcw [(.J, ⟨j0, j1 + 1, 1⟩), (.I, ⟨i0, i1 + 1, 1⟩)] = .ok (sCell2 f i0 j0 i1 j1 fgcw) := makeSpanOffset_ok (by simp) (by list_omega)
  have spres : makeSpanOffset res rgcw [(.J, ⟨j0, j1 + 1, 1⟩), (.I, ⟨i0, i1 + 1, 1⟩)] = .ok (sCell2 res i0 j0 i1 j1 rgcw) := makeSpanOffset_ok (by simp) (by list_omega)
  have Af : ArrOK m (sCell2 f i0 j0 i1 j1 fgcw) := by arr_ok hf
  have Ares : ArrOK m (sCell2 res i0 j0 i1 j1 rgcw) := by arr_ok hres
  have Af0 : ArrOK m (sFace20 f0 i0 j0 i1 j1) := by arr_ok hf0
  have Af1 : ArrOK m (sFace21 f1 i0 j0 i1 j1) := by arr_ok hf1
  have Pf : Apart (sCell2 res i0 j0 i1 j1 rgcw) (sCell2 f i0 j0 i1 j1 fgcw) := by apart_ok (h.apart _ (by simp) _ (by simp))
  have Pf0 : Apart (sCell2 res i0 j0 i1 j1 rgcw) (sFace20 f0 i0 j0 i1 j1) := by apart_ok (h.apart _ (by simp) _ (by simp))
  have Pf1 : Apart (sCell2 res i0 j0 i1 j1 rgcw) (sFace21 f1 i0 j0 i1 j1) := by apart_ok (h.apart _ (by simp) _ (by simp))
  obtain ⟨m', c, f', x⟩ := stmt_nest (lhs := sCell2 res i0 j0 i1 j1 rgcw) (e := (sCell2 f i0 j0 i1 j1 fgcw).e T + beta * ((sFace20 f0 i0 j0 i1 j1).grad .I (dx 0) + (sFace21 f1 i0 j0 i1 j1).grad .J (dx 1)))
    (D := [(.J, ⟨j0, j1 + 1, 1⟩), (.I, ⟨i0, i1 + 1, 1⟩)]) (r := [(.J, j0, j1), (.I, i0, i1)]) (p0 := fun _ => 0)
    (stmt := fun p => F.assign (F.cell2d res i0 j0 i1 j1 rgcw) [p .I, p .J] (.ref (F.cell2d f i0 j0 i1 j1 fgcw) [p .I, p .J] - -(.const beta * ((.ref (F.face2d0 f0 i0 j0 i1 j1 0) [p .I + 1, p .J] - .ref (F.face2d0 f0 i0 j0 i1 j1 0) [p .I, p .J]) / .const (dx 0) + (.ref (F.face2d1 f1 i0 j0 i1 j1 0) [p .J + 1, p .I] - .ref (F.face2d1 f1 i0 j0 i1 j1 0) [p .J, p .I]) / .const (dx 1)))))
    (hβ 0) (by unit_dom) Ares (by within) (by operands) (by fits) (by typed) (by dims) (by same_dims) (by intro p; list_omega) (by body_ops hs)
  refine ⟨m', ?_, ?_⟩
  · unfold Cuda.poissonV1Res2d
    exact bind_step mkI <| bind_step mkJ <| bind_step spf <| bind_step spres <| bind_step plI <| bind_step plJ <| bind_step c rfl
  · exact f'

example : ∃ m', Cuda.poissonV1Res2d 0 2 1 3 2 exDxB 1 ⟨0, 0⟩ ⟨1, 0⟩ ⟨2, 0⟩ 1 ⟨3, 0⟩ (fun _ => revBackend) exB64 = .ok m' ∧
    F.cellpoissonv1res2d 0 2 1 3 2 exDxB 1 ⟨0, 0⟩ ⟨1, 0⟩ ⟨2, 0⟩ 1 ⟨3, 0⟩ exB64 = .ok m' :=
  C49_poisson_res_2d (fun _ => revBackend_ok) B64.sub_neg (by decide) (by decide) (by decide) (by decide) (by ex_argsB)

/-- `cd_apply_2d_cuda::diffusion_v1_apply` and `celldiffusionv1apply2d` leave the same memory in every arithmetic where the sign of a factor is the sign of the product, for every schedule. -/
theorem C49_v1_apply_2d {i0 i1 j0 j1 agcw ugcw rgcw : Int} {alpha beta : T} {dx : Nat → T} {a u f0 f1 res : Ptr} {β : Nat → Backend} {m : Mem T}
    (hβ : ∀ n, ValidBackend (β n)) (hs : ∀ x y : T, -x * y = -(x * y)) (hi : i0 ≤ i1) (hj : j0 ≤ j1) (hagcw : 0 ≤ agcw) (hugcw : 0 ≤ ugcw) (hrgcw : 0 ≤ rgcw)
    (h : F.Args m [F.cell2d a i0 j0 i1 j1 agcw, F.cell2d u i0 j0 i1 j1 ugcw, F.face2d0 f0 i0 j0 i1 j1 0, F.face2d1 f1 i0 j0 i1 j1 0]
      [F.cell2d res i0 j0 i1 j1 rgcw]) :
    ∃ m', Cuda.diffusionV1Apply2d i0 i1 j0 j1 alpha beta dx agcw a ugcw u f0 f1 rgcw res β m = .ok m' ∧ F.celldiffusionv1apply2d i0 i1 j0 j1 alpha beta dx agcw a ugcw u f0 f1 rgcw res m = .ok m' := by
  have ha := h.ok (F.cell2d a i0 j0 i1 j1 agcw) (by simp)
  have hu := h.ok (F.cell2d u i0 j0 i1 j1 ugcw) (by simp)
  have hres := h.ok (F.cell2d res i0 j0 i1 j1 rgcw) (by simp)
  have hf0 := h.ok (F.face2d0 f0 i0 j0 i1 j1 0) (by simp)
  have hf1 := h.ok (F.face2d1 f1 i0 j0 i1 j1 0) (by simp)
  have Ia := ha.int
  have Iu := hu.int
  have Ires := hres.int
  have If0 := hf0.int
  have If1 := hf1.int
  simp only [F.cell2d, F.face2d0, F.face2d1, List.mem_cons, List.not_mem_nil, or_false, forall_eq_or_imp, forall_eq, InInt] at Ia Iu Ires If0 If1
  have mkI := mkB_ok (d := .I) (lo := i0) (hi := i1) (by list_omega)
  have plI := plus_ok (d := .I) (b := ⟨i0, i1 + 1, 1⟩) (x := 1) (by omega) (by list_omega)
  have mkJ := mkB_ok (d := .J) (lo := j0) (hi := j1) (by list_omega)
  have plJ := plus_ok (d := .J) (b := ⟨j0, j1 + 1, 1⟩) (x := 1) (by omega) (by list_omega)
  have spa : makeSpanOffset a agcw [(.J, ⟨j0, j1 + 1, 1⟩), (.I, ⟨i0, i1 + 1, 1⟩)] = .ok (sCell2 a i0 j0 i1 j1 agcw) := makeSpanOffset_ok (by simp) (by list_omega)
  have spu : makeSpanOffset u ugcw [(.J, ⟨j0, j1 + 1, 1⟩), (.I, ⟨i0, i1 + 1, 1⟩)] = .ok (sCell2 u i0 j0 i1 j1 ugcw) := makeSpanOffset_ok (by simp) (by list_omega)
  have spres : makeSpanOffset res rgcw [(.J, ⟨j0, j1 + 1, 1⟩), (.I, ⟨i0, i1 + 1, 1⟩)] = .ok (sCell2 res i0 j0 i1 j1 rgcw) := makeSpanOffset_ok (by simp) (by list_omega)
  have Aa : ArrOK m (sCell2 a i0 j0 i1 j1 agcw) := by arr_ok ha
  have Au : ArrOK m (sCell2 u i0 j0 i1 j1 ugcw) := by arr_ok hu
  have Ares : ArrOK m (sCell2 res i0 j0 i1 j1 rgcw) := by arr_ok hres
  have Af0 : ArrOK m (sFace20 f0 i0 j0 i1 j1) := by arr_ok hf0
  have Af1 : ArrOK m (sFace21 f1 i0 j0 i1 j1) := by arr_ok hf1
  have Pa : Apart (sCell2 res i0 j0 i1 j1 rgcw) (sCell2 a i0 j0 i1 j1 agcw) := by apart_ok (h.apart _ (by simp) _ (by simp))
  have Pu : Apart (sCell2 res i0 j0 i1 j1 rgcw) (sCell2 u i0 j0 i1 j1 ugcw) := by apart_ok (h.apart _ (by simp) _ (by simp))
  have Pf0 : Apart (sCell2 res i0 j0 i1 j1 rgcw) (sFace20 f0 i0 j0 i1 j1) := by apart_ok (h.apart _ (by simp) _ (by simp))
  have Pf1 : Apart (sCell2 res i0 j0 i1 j1 rgcw) (sFace21 f1 i0 j0 i1 j1) := by apart_ok (h.apart _ (by simp) _ (by simp))
  obtain ⟨m', c, f', x⟩ := stmt_nest (lhs := sCell2 res i0 j0 i1 j1 rgcw) (e := -beta * ((sFace20 f0 i0 j0 i1 j1).grad .I (dx 0) + (sFace21 f1 i0 j0 i1 j1).grad .J (dx 1)) + alpha * (sCell2 a i0 j0 i1 j1 agcw).e T * (sCell2 u i0 j0 i1 j1 ugcw).e T)
    (D := [(.J, ⟨j0, j1 + 1, 1⟩), (.I, ⟨i0, i1 + 1, 1⟩)]) (r := [(.J, j0, j1), (.I, i0, i1)]) (p0 := fun _ => 0)
    (stmt := fun p => F.assign (F.cell2d res i0 j0 i1 j1 rgcw) [p .I, p .J] (-(.const beta * ((.ref (F.face2d0 f0 i0 j0 i1 j1 0) [p .I + 1, p .J] - .ref (F.face2d0 f0 i0 j0 i1 j1 0) [p .I, p .J]) / .const (dx 0) + (.ref (F.face2d1 f1 i0 j0 i1 j1 0) [p .J + 1, p .I] - .ref (F.face2d1 f1 i0 j0 i1 j1 0) [p .J, p .I]) / .const (dx 1))) + .const alpha * .ref (F.cell2d a i0 j0 i1 j1 agcw) [p .I, p .J] * .ref (F.cell2d u i0 j0 i1 j1 ugcw) [p .I, p .J]))
    (hβ 0) (by unit_dom) Ares (by within) (by operands) (by fits) (by typed) (by dims) (by same_dims) (by intro p; list_omega) (by body_ops hs)
  refine ⟨m', ?_, ?_⟩
  · unfold Cuda.diffusionV1Apply2d
    exact bind_step mkI <| bind_step mkJ <| bind_step spa <| bind_step spu <| bind_step spres <| bind_step plI <| bind_step plJ <| bind_step c rfl
  · exact f'

example : ∃ m', Cuda.diffusionV1Apply2d 0 2 1 3 3 2 exDxB 1 ⟨0, 0⟩ 2 ⟨1, 0⟩ ⟨2, 0⟩ ⟨3, 0⟩ 1 ⟨4, 0⟩ (fun _ => revBackend) exB64 = .ok m' ∧
    F.celldiffusionv1apply2d 0 2 1 3 3 2 exDxB 1 ⟨0, 0⟩ 2 ⟨1, 0⟩ ⟨2, 0⟩ ⟨3, 0⟩ 1 ⟨4, 0⟩ exB64 = .ok m' :=
  C49_v1_apply_2d (fun _ => revBackend_ok) B64.neg_mul (by decide) (by decide) (by decide) (by decide) (by decide) (by ex_argsB)

/-- `cd_apply_2d_cuda::diffusion_v2_apply` and `celldiffusionv2apply2d` leave the same memory in every arithmetic where the sign of a factor is the sign of the product, for every schedule. -/
theorem C49_v2_apply_2d {i0 i1 j0 j1 ugcw rgcw : Int} {alpha beta : T} {dx : Nat → T} {u f0 f1 res : Ptr} {β : Nat → Backend} {m : Mem T}
    (hβ : ∀ n, ValidBackend (β n)) (hs : ∀ x y : T, -x * y = -(x * y)) (hi : i0 ≤ i1) (hj : j0 ≤ j1) (hugcw : 0 ≤ ugcw) (hrgcw : 0 ≤ rgcw)
    (h : F.Args m [F.cell2d u i0 j0 i1 j1 ugcw, F.face2d0 f0 i0 j0 i1 j1 0, F.face2d1 f1 i0 j0 i1 j1 0]
      [F.cell2d res i0 j0 i1 j1 rgcw]) :
    ∃ m', Cuda.diffusionV2Apply2d i0 i1 j0 j1 alpha beta dx ugcw u f0 f1 rgcw res β m = .ok m' ∧ F.celldiffusionv2apply2d i0 i1 j0 j1 alpha beta dx ugcw u f0 f1 rgcw res m = .ok m' := by
  have hu := h.ok (F.cell2d u i0 j0 i1 j1 ugcw) (by simp)
  have hres := h.ok (F.cell2d res i0 j0 i1 j1 rgcw) (by simp)
  have hf0 := h.ok (F.face2d0 f0 i0 j0 i1 j1 0) (by simp)
  have hf1 := h.ok (F.face2d1 f1 i0 j0 i1 j1 0) (by simp)
  have Iu := hu.int
  have Ires := hres.int
  have If0 := hf0.int
  have If1 := hf1.int
  simp only [F.cell2d, F.face2d0, F.face2d1, List.mem_cons, List.not_mem_nil, or_false, forall_eq_or_imp, forall_eq, InInt] at Iu Ires If0 If1
  have mkI := mkB_ok (d := .I) (lo := i0) (hi := i1) (by list_omega)
  have plI := plus_ok (d := .I) (b := ⟨i0, i1 + 1, 1⟩) (x := 1) (by omega) (by list_omega)
  have mkJ := mkB_ok (d := .J) (lo := j0) (hi := j1) (by list_omega)
  have plJ := plus_ok (d := .J) (b := ⟨j0, j1 + 1, 1⟩) (x := 1) (by omega) (by list_omega)
  have spu : makeSpanOffset u ugcw [(.J, ⟨j0, j1 + 1, 1⟩), (.I, ⟨i0, i1 + 1, 1⟩)] = .ok (sCell2 u i0 j0 i1 j1 ugcw) := makeSpanOffset_ok (by simp) (by list_omega)
  have spres : makeSpanOffset res rgcw [(.J, ⟨j0, j1 + 1, 1⟩), (.I, ⟨i0, i1 + 1, 1⟩)] = .ok (sCell2 res i0 j0 i1 j1 rgcw) := makeSpanOffset_ok (by simp) (by list_omega)
  have Au : ArrOK m (sCell2 u i0 j0 i1 j1 ugcw) := by arr_ok hu
  have Ares : ArrOK m (sCell2 res i0 j0 i1 j1 rgcw) := by arr_ok hres
  have Af0 : ArrOK m (sFace20 f0 i0 j0 i1 j1) := by arr_ok hf0
  have Af1 : ArrOK m (sFace21 f1 i0 j0 i1 j1) := by arr_ok hf1
  have Pu : Apart (sCell2 res i0 j0 i1 j1 rgcw) (sCell2 u i0 j0 i1 j1 ugcw) := by apart_ok (h.apart _ (by simp) _ (by simp))
  have Pf0 : Apart (sCell2 res i0 j0 i1 j1 rgcw) (sFace20 f0 i0 j0 i1 j1) := by apart_ok (h.apart _ (by simp) _ (by simp))
  have Pf1 : Apart (sCell2 res i0 j0 i1 j1 rgcw) (sFace21 f1 i0 j0 i1 j1) := by apart_ok (h.apart _ (by simp) _ (by simp))
  obtain ⟨m', c, f', x⟩ := stmt_nest (lhs := sCell2 res i0 j0 i1 j1 rgcw) (e := -beta * ((sFace20 f0 i0 j0 i1 j1).grad .I (dx 0) + (sFace21 f1 i0 j0 i1 j1).grad .J (dx 1)) + alpha * (sCell2 u i0 j0 i1 j1 ugcw).e T)
    (D := [(.J, ⟨j0, j1 + 1, 1⟩), (.I, ⟨i0, i1 + 1, 1⟩)]) (r := [(.J, j0, j1), (.I, i0, i1)]) (p0 := fun _ => 0)
    (stmt := fun p => F.assign (F.cell2d res i0 j0 i1 j1 rgcw) [p .I, p .J] (-(.const beta * ((.ref (F.face2d0 f0 i0 j0 i1 j1 0) [p .I + 1, p .J] - .ref (F.face2d0 f0 i0 j0 i1 j1 0) [p .I, p .J]) / .const (dx 0) + (.ref (F.face2d1 f1 i0 j0 i1 j1 0) [p .J + 1, p .I] - .ref (F.face2d1 f1 i0 j0 i1 j1 0) [p .J, p .I]) / .const (dx 1))) + .const alpha * .ref (F.cell2d u i0 j0 i1 j1 ugcw) [p .I, p .J]))
    (hβ 0) (by unit_dom) Ares (by within) (by operands) (by fits) (by typed) (by dims) (by same_dims) (by intro p; list_omega) (by body_ops hs)
  refine ⟨m', ?_, ?_⟩
  · unfold Cuda.diffusionV2Apply2d
    exact bind_step mkI <| bind_step mkJ <| bind_step spu <| bind_step spres <| bind_step plI <| bind_step plJ <| bind_step c rfl
  · exact f'

example : ∃ m', Cuda.diffusionV2Apply2d 0 2 1 3 3 2 exDxB 1 ⟨0, 0⟩ ⟨1, 0⟩ ⟨2, 0⟩ 1 ⟨3, 0⟩ (fun _ => revBackend) exB64 = .ok m' ∧
    F.celldiffusionv2apply2d 0 2 1 3 3 2 exDxB 1 ⟨0, 0⟩ ⟨1, 0⟩ ⟨2, 0⟩ 1 ⟨3, 0⟩ exB64 = .ok m' :=
  C49_v2_apply_2d (fun _ => revBackend_ok) B64.neg_mul (by decide) (by decide) (by decide) (by decide) (by ex_argsB)

/-- `cd_apply_2d_cuda::poisson_v2_apply` and `cellpoissonv2apply2d` leave the same memory in every arithmetic where the sign of a factor is the sign of the product, for every schedule. -/
theorem C49_poisson_apply_2d {i0 i1 j0 j1 rgcw : Int} {beta : T} {dx : Nat → T} {f0 f1 res : Ptr} {β : Nat → Backend} {m : Mem T}
    (hβ : ∀ n, ValidBackend (β n)) (hs : ∀ x y : T, -x * y = -(x * y)) (hi : i0 ≤ i1) (hj : j0 ≤ j1) (hrgcw : 0 ≤ rgcw)
    (h : F.Args m [F.face2d0 f0 i0 j0 i1 j1 0, F.face2d1 f1 i0 j0 i1 j1 0]
      [F.cell2d res i0 j0 i1 j1 rgcw]) :
    ∃ m', Cuda.poissonV2Apply2d i0 i1 j0 j1 beta dx f0 f1 rgcw res β m = .ok m' ∧ F.cellpoissonv2apply2d i0 i1 j0 j1 beta dx f0 f1 rgcw res m = .ok m' := by
  have hres := h.ok (F.cell2d res i0 j0 i1 j1 rgcw) (by simp)
  have hf0 := h.ok (F.face2d0 f0 i0 j0 i1 j1 0) (by simp)
  have hf1 := h.ok (F.face2d1 f1 i0 j0 i1 j1 0) (by simp)
  have Ires := hres.int
  have If0 := hf0.int
  have If1 := hf1.int
  simp only [F.cell2d, F.face2d0, F.face2d1, List.mem_cons, List.not_mem_nil, or_false, forall_eq_or_imp, forall_eq, InInt] at Ires If0 If1
  have mkI := mkB_ok (d := .I) (lo := i0) (hi := i1) (by list_omega)
  have plI := plus_ok (d := .I) (b := ⟨i0, i1 + 1, 1⟩) (x := 1) (by omega) (by list_omega)
  have mkJ := mkB_ok (d := .J) (lo := j0) (hi := j1) (by list_omega)
  have plJ := plus_ok (d := .J) (b := ⟨j0, j1 + 1, 1⟩) (x := 1) (by omega) (by list_omega)
  have spres : makeSpanOffset res rgcw [(.J, ⟨j0, j1 + 1, 1⟩), (.I, ⟨i0, i1 + 1, 1⟩)] = .ok (sCell2 res i0 j0 i1 j1 rgcw) := makeSpanOffset_ok (by simp) (by list_omega)
  have Ares : ArrOK m (sCell2 res i0 j0 i1 j1 rgcw) := by arr_ok hres
  have Af0 : ArrOK m (sFace20 f0 i0 j0 i1 j1) := by arr_ok hf0
  have Af1 : ArrOK m (sFace21 f1 i0 j0 i1 j1) := by arr_ok hf1
  have Pf0 : Apart (sCell2 res i0 j0 i1 j1 rgcw) (sFace20 f0 i0 j0 i1 j1) := by apart_ok (h.apart _ (by simp) _ (by simp))
  have Pf1 : Apart (sCell2 res i0 j0 i1 j1 rgcw) (sFace21 f1 i0 j0 i1 j1) := by apart_ok (h.apart _ (by simp) _ (by simp))
  obtain ⟨m', c, f', x⟩ := stmt_nest (lhs := sCell2 res i0 j0 i1 j1 rgcw) (e := -beta * ((sFace20 f0 i0 j0 i1 j1).grad .I (dx 0) + (sFace21 f1 i0 j0 i1 j1).grad .J (dx 1)))
    (D := [(.J, ⟨j0, j1 + 1, 1⟩), (.I, ⟨i0, i1 + 1, 1⟩)]) (r := [(.J, j0, j1), (.I, i0, i1)]) (p0 := fun _ => 0)
    (stmt := fun p => F.assign (F.cell2d res i0 j0 i1 j1 rgcw) [p .I, p .J] (-(.const beta * ((.ref (F.face2d0 f0 i0 j0 i1 j1 0) [p .I + 1, p .J] - .ref (F.face2d0 f0 i0 j0 i1 j1 0) [p .I, p .J]) / .const (dx 0) + (.ref (F.face2d1 f1 i0 j0 i1 j1 0) [p .J + 1, p .I] - .ref (F.face2d1 f1 i0 j0 i1 j1 0) [p .J, p .I]) / .const (dx 1)))))
    (hβ 0) (by unit_dom) Ares (by within) (by operands) (by fits) (by typed) (by dims) (by same_dims) (by intro p; list_omega) (by body_ops hs)
  refine ⟨m', ?_, ?_⟩
  · unfold Cuda.poissonV2Apply2d
    exact bind_step mkI <| bind_step mkJ <| bind_step spres <| bind_step plI <| bind_step plJ <| bind_step c rfl
  · exact f'

example : ∃ m', Cuda.poissonV2Apply2d 0 2 1 3 2 exDxB ⟨0, 0⟩ ⟨1, 0⟩ 1 ⟨2, 0⟩ (fun _ => revBackend) exB64 = .ok m' ∧
    F.cellpoissonv2apply2d 0 2 1 3 2 exDxB ⟨0, 0⟩ ⟨1, 0⟩ 1 ⟨2, 0⟩ exB64 = .ok m' :=
  C49_poisson_apply_2d (fun _ => revBackend_ok) B64.neg_mul (by decide) (by decide) (by decide) (by ex_argsB)

/-- `cd_apply_3d_cuda::diffusion_v1_res` and `celldiffusionv1res3d` leave the same memory in every arithmetic where the two ways of summing the residual give the same, for every schedule. -/
theorem C49_v1_res_3d {i0 i1 j0 j1 k0 k1 agcw ugcw fgcw rgcw : Int} {alpha beta : T} {dx : Nat → T} {a u f f0 f1 f2 res : Ptr} {β : Nat → Backend} {m : Mem T}
    (hβ : ∀ n, ValidBackend (β n)) (hs : ∀ x y z : T, x + y - z = x - (-y + z)) (hi : i0 ≤ i1) (hj : j0 ≤ j1) (hk : k0 ≤ k1) (hagcw : 0 ≤ agcw) (hugcw : 0 ≤ ugcw) (hfgcw : 0 ≤ fgcw) (hrgcw : 0 ≤ rgcw)
    (h : F.Args m [F.cell3d a i0 j0 k0 i1 j1 k1 agcw, F.cell3d u i0 j0 k0 i1 j1 k1 ugcw, F.cell3d f i0 j0 k0 i1 j1 k1 fgcw, F.face3d0 f0 i0 j0 k0 i1 j1 k1 0, F.face3d1 f1 i0 j0 k0 i1 j1 k1 0, F.face3d2 f2 i0 j0 k0 i1 j1 k1 0]
      [F.cell3d res i0 j0 k0 i1 j1 k1 rgcw]) :
    ∃ m', Cuda.diffusionV1Res3d i0 i1 j0 j1 k0 k1 alpha beta dx agcw a ugcw u fgcw f f0 f1 f2 rgcw res β m = .ok m' ∧ F.celldiffusionv1res3d i0 i1 j0 j1 k0 k1 alpha beta dx agcw a ugcw u fgcw f f0 f1 f2 rgcw res m = .ok m' := by
  have ha := h.ok (F.cell3d a i0 j0 k0 i1 j1 k1 agcw) (by simp)
  have hu := h.ok (F.cell3d u i0 j0 k0 i1 j1 k1 ugcw) (by simp)
  have hf := h.ok (F.cell3d f i0 j0 k0 i1 j1 k1 fgcw) (by simp)
  have hres := h.ok (F.cell3d res i0 j0 k0 i1 j1 k1 rgcw) (by simp)
  have hf0 := h.ok (F.face3d0 f0 i0 j0 k0 i1 j1 k1 0) (by simp)
  have hf1 := h.ok (F.face3d1 f1 i0 j0 k0 i1 j1 k1 0) (by simp)
  have hf2 := h.ok (F.face3d2 f2 i0 j0 k0 i1 j1 k1 0) (by simp)
  have Ia := ha.int
  have Iu := hu.int
  have If := hf.int
  have Ires := hres.int
  have If0 := hf0.int
  have If1 := hf1.int
  have If2 := hf2.int
  simp only [F.cell3d, F.face3d0, F.face3d1, F.face3d2, List.mem_cons, List.not_mem_nil, or_false, forall_eq_or_imp, forall_eq, InInt] at Ia Iu If Ires If0 If1 If2
  have mkI := mkB_ok (d := .I) (lo := i0) (hi := i1) (by list_omega)
  have plI := plus_ok (d := .I) (b := ⟨i0, i1 + 1, 1⟩) (x := 1) (by omega) (by list_omega)
  have mkJ := mkB_ok (d := .J) (lo := j0) (hi := j1) (by list_omega)
  have plJ := plus_ok (d := .J) (b := ⟨j0, j1 + 1, 1⟩) (x := 1) (by omega) (by list_omega)
  have mkK := mkB_ok (d := .K) (lo := k0) (hi := k1) (by list_omega)
  have plK := plus_ok (d := .K) (b := ⟨k0, k1 + 1, 1⟩) (x := 1) (by omega) (by list_omega)
  have spa : makeSpanOffset a agcw [(.K, ⟨k0, k1 + 1, 1⟩), (.J, ⟨j0, j1 + 1, 1⟩), (.I, ⟨i0, i1 + 1, 1⟩)] = .ok (sCell3 a i0 j0 k0 i1 j1 k1 agcw) := makeSpanOffset_ok (by simp) (by list_omega)
  have spu : makeSpanOffset u ugcw [(.K, ⟨k0, k1 + 1, 1⟩), (.J, ⟨j0, j1 + 1, 1⟩), (.I, ⟨i0, i1 + 1, 1⟩)] = .ok (sCell3 u i0 j0 k0 i1 j1 k1 ugcw) := makeSpanOffset_ok (by simp) (by list_omega)
  have spf : makeSpanOffset f fgcw [(.K, ⟨k0, k1 + 1, 1⟩), (.J, ⟨j0, j1 + 1, 1⟩), (.I, ⟨i0, i1 + 1, 1⟩)] = .ok (sCell3 f i0 j0 k0 i1 j1 k1 fgcw) := makeSpanOffset_ok (by simp) (by list_omega)
  have spres : makeSpanOffset res rgcw [(.K, ⟨k0, k1 + 1, 1⟩), (.J, ⟨j0, j1 + 1, 1⟩), (.I, ⟨i0, i1 + 1, 1⟩)] = .ok (sCell3 res i0 j0 k0 i1 j1 k1 rgcw) := makeSpanOffset_ok (by simp) (by list_omega)
  have Aa : ArrOK m (sCell3 a i0 j0 k0 i1 j1 k1 agcw) := by arr_ok ha
  have Au : ArrOK m (sCell3 u i0 j0 k0 i1 j1 k1 ugcw) := by arr_ok hu
  have Af : ArrOK m (sCell3 f i0 j0 k0 i1 j1 k1 fgcw) := by arr_ok hf
  have Ares : ArrOK m (sCell3 res i0 j0 k0 i1 j1 k1 rgcw) := by arr_ok hres
  have Af0 : ArrOK m (sFace30 f0 i0 j0 k0 i1 j1 k1) := by arr_ok hf0
  have Af1 : ArrOK m (sFace31 f1 i0 j0 k0 i1 j1 k1) := by arr_ok hf1
  have Af2 : ArrOK m (sFace32 f2 i0 j0 k0 i1 j1 k1) := by arr_ok hf2
  have Pa : Apart (sCell3 res i0 j0 k0 i1 j1 k1 rgcw) (sCell3 a i0 j0 k0 i1 j1 k1 agcw) := by apart_ok (h.apart _ (by simp) _ (by simp))
  have Pu : Apart (sCell3 res i0 j0 k0 i1 j1 k1 rgcw) (sCell3 u i0 j0 k0 i1 j1 k1 ugcw) := by apart_ok (h.apart _ (by simp) _ (by simp))
  have Pf : Apart (sCell3 res i0 j0 k0 i1 j1 k1 rgcw) (sCell3 f i0 j0 k0 i1 j1 k1 fgcw) := by apart_ok (h.apart _ (by simp) _ (by simp))
  have Pf0 : Apart (sCell3 res i0 j0 k0 i1 j1 k1 rgcw) (sFace30 f0 i0 j0 k0 i1 j1 k1) := by apart_ok (h.apart _ (by simp) _ (by simp))
  have Pf1 : Apart (sCell3 res i0 j0 k0 i1 j1 k1 rgcw) (sFace31 f1 i0 j0 k0 i1 j1 k1) := by apart_ok (h.apart _ (by simp) _ (by simp))
  have Pf2 : Apart (sCell3 res i0 j0 k0 i1 j1 k1 rgcw) (sFace32 f2 i0 j0 k0 i1 j1 k1) := by apart_ok (h.apart _ (by simp) _ (by simp))
  obtain ⟨m', c, f', x⟩ := stmt_nest (lhs := sCell3 res i0 j0 k0 i1 j1 k1 rgcw) (e := (sCell3 f i0 j0 k0 i1 j1 k1 fgcw).e T + beta * ((sFace30 f0 i0 j0 k0 i1 j1 k1).grad .I (dx 0) + (sFace31 f1 i0 j0 k0 i1 j1 k1).grad .J (dx 1) + (sFace32 f2 i0 j0 k0 i1 j1 k1).grad .K (dx 2)) - alpha * (sCell3 a i0 j0 k0 i1 j1 k1 agcw).e T * (sCell3 u i0 j0 k0 i1 j1 k1 ugcw).e T)
    (D := [(.K, ⟨k0, k1 + 1, 1⟩), (.J, ⟨j0, j1 + 1, 1⟩), (.I, ⟨i0, i1 + 1, 1⟩)]) (r := [(.K, k0, k1), (.J, j0, j1), (.I, i0, i1)]) (p0 := fun _ => 0)
    (stmt := fun p => F.assign (F.cell3d res i0 j0 k0 i1 j1 k1 rgcw) [p .I, p .J, p .K] (.ref (F.cell3d f i0 j0 k0 i1 j1 k1 fgcw) [p .I, p .J, p .K] - (-(.const beta * ((.ref (F.face3d0 f0 i0 j0 k0 i1 j1 k1 0) [p .I + 1, p .J, p .K] - .ref (F.face3d0 f0 i0 j0 k0 i1 j1 k1 0) [p .I, p .J, p .K]) / .const (dx 0) + (.ref (F.face3d1 f1 i0 j0 k0 i1 j1 k1 0) [p .J + 1, p .K, p .I] - .ref (F.face3d1 f1 i0 j0 k0 i1 j1 k1 0) [p .J, p .K, p .I]) / .const (dx 1) + (.ref (F.face3d2 f2 i0 j0 k0 i1 j1 k1 0) [p .K + 1, p .I, p .J] - .ref (F.face3d2 f2 i0 j0 k0 i1 j1 k1 0) [p .K, p .I, p .J]) / .const (dx 2))) + .const alpha * .ref (F.cell3d a i0 j0 k0 i1 j1 k1 agcw) [p .I, p .J, p .K] * .ref (F.cell3d u i0 j0 k0 i1 j1 k1 ugcw) [p .I, p .J, p .K])))
    (hβ 0) (by unit_dom) Ares (by within) (by operands) (by fits) (by typed) (by dims) (by same_dims) (by intro p; list_omega) (by body_ops hs)
  refine ⟨m', ?_, ?_⟩
  · unfold Cuda.diffusionV1Res3d
    exact bind_step mkI <| bind_step mkJ <| bind_step mkK <| bind_step spa <| bind_step spu <| bind_step spf <| bind_step spres <| bind_step plI <| bind_step plJ <| bind_step plK <| bind_step c rfl
  · exact f'

example : ∃ m', Cuda.diffusionV1Res3d 0 2 1 3 2 3 3 2 exDx 1 ⟨0, 0⟩ 2 ⟨1, 0⟩ 1 ⟨2, 0⟩ ⟨3, 0⟩ ⟨4, 0⟩ ⟨5, 0⟩ 1 ⟨6, 0⟩ (fun _ => revBackend) exRat = .ok m' ∧
    F.celldiffusionv1res3d 0 2 1 3 2 3 3 2 exDx 1 ⟨0, 0⟩ 2 ⟨1, 0⟩ 1 ⟨2, 0⟩ ⟨3, 0⟩ ⟨4, 0⟩ ⟨5, 0⟩ 1 ⟨6, 0⟩ exRat = .ok m' :=
  C49_v1_res_3d (fun _ => revBackend_ok) (fun _ _ _ => by ring) (by decide) (by decide) (by decide) (by decide) (by decide) (by decide) (by decide) (by ex_args)

/-- `cd_apply_3d_cuda::diffusion_v2_res` and `celldiffusionv2res3d` leave the same memory in every arithmetic where the two ways of summing the residual give the same, for every schedule. -/
theorem C49_v2_res_3d {i0 i1 j0 j1 k0 k1 ugcw fgcw rgcw : Int} {alpha beta : T} {dx : Nat → T} {u f f0 f1 f2 res : Ptr} {β : Nat → Backend} {m : Mem T}
    (hβ : ∀ n, ValidBackend (β n)) (hs : ∀ x y z : T, x + y - z = x - (-y + z)) (hi : i0 ≤ i1) (hj : j0 ≤ j1) (hk : k0 ≤ k1) (hugcw : 0 ≤ ugcw) (hfgcw : 0 ≤ fgcw) (hrgcw : 0 ≤ rgcw)
    (h : F.Args m [F.cell3d u i0 j0 k0 i1 j1 k1 ugcw, F.cell3d f i0 j0 k0 i1 j1 k1 fgcw, F.face3d0 f0 i0 j0 k0 i1 j1 k1 0, F.face3d1 f1 i0 j0 k0 i1 j1 k1 0, F.face3d2 f2 i0 j0 k0 i1 j1 k1 0]
      [F.cell3d res i0 j0 k0 i1 j1 k1 rgcw]) :
    ∃ m', Cuda.diffusionV2Res3d i0 i1 j0 j1 k0 k1 alpha beta dx ugcw u fgcw f f0 f1 f2 rgcw res β m = .ok m' ∧ F.celldiffusionv2res3d i0 i1 j0 j1 k0 k1 alpha beta dx ugcw u fgcw f f0 f1 f2 rgcw res m = .ok m' := by
  have hu := h.ok (F.cell3d u i0 j0 k0 i1 j1 k1 ugcw) (by simp)
  have hf := h.ok (F.cell3d f i0 j0 k0 i1 j1 k1 fgcw) (by simp)
  have hres := h.ok (F.cell3d res i0 j0 k0 i1 j1 k1 rgcw) (by simp)
  have hf0 := h.ok (F.face3d0 f0 i0 j0 k0 i1 j1 k1 0) (by simp)
  have hf1 := h.ok (F.face3d1 f1 i0 j0 k0 i1 j1 k1 0) (by simp)
  have hf2 := h.ok (F.face3d2 f2 i0 j0 k0 i1 j1 k1 0) (by simp)
  have Iu := hu.int
  have If := hf.int
  have Ires := hres.int
  have If0 := hf0.int
  have If1 := hf1.int
  have If2 := hf2.int
  simp only [F.cell3d, F.face3d0, F.face3d1, F.face3d2, List.mem_cons, List.not_mem_nil, or_false, forall_eq_or_imp, forall_eq, InInt] at Iu If Ires If0 If1 If2
  have mkI := mkB_ok (d := .I) (lo := i0) (hi := i1) (by list_omega)
  have plI := plus_ok (d := .I) (b := ⟨i0, i1 + 1, 1⟩) (x := 1) (by omega) (by list_omega)
  have mkJ := mkB_ok (d := .J) (lo := j0) (hi := j1) (by list_omega)
  have plJ := plus_ok (d := .J) (b := ⟨j0, j1 + 1, 1⟩) (x := 1) (by omega) (by list_omega)
  have mkK := mkB_ok (d := .K) (lo := k0) (hi := k1) (by list_omega)
  have plK := plus_ok (d := .K) (b := ⟨k0, k1 + 1, 1⟩) (x := 1) (by omega) (by list_omega)
  have spu : makeSpanOffset u ugcw [(.K, ⟨k0, k1 + 1, 1⟩), (.J, ⟨j0, j1 + 1, 1⟩), (.I, ⟨i0, i1 + 1, 1⟩)] = .ok (sCell3 u i0 j0 k0 i1 j1 k1 ugcw) := makeSpanOffset_ok (by simp) (by list_omega)
  have spf : makeSpanOffset f fgcw [(.K, ⟨k0, k1 + 1, 1⟩), (.J, ⟨j0, j1 + 1, 1⟩), (.I, ⟨i0, i1 + 1, 1⟩)] = .ok (sCell3 f i0 j0 k0 i1 j1 k1 fgcw) := makeSpanOffset_ok (by simp) (by list_omega)
  have spres : makeSpanOffset res rgcw [(.K, ⟨k0, k1 + 1, 1⟩), (.J, ⟨j0, j1 + 1, 1⟩), (.I, ⟨i0, i1 + 1, 1⟩)] = .ok (sCell3 res i0 j0 k0 i1 j1 k1 rgcw) := makeSpanOffset_ok (by simp) (by list_omega)
  have Au : ArrOK m (sCell3 u i0 j0 k0 i1 j1 k1 ugcw) := by arr_ok hu
  have Af : ArrOK m (sCell3 f i0 j0 k0 i1 j1 k1 fgcw) := by arr_ok hf
  have Ares : ArrOK m (sCell3 res i0 j0 k0 i1 j1 k1 rgcw) := by arr_ok hres
  have Af0 : ArrOK m (sFace30 f0 i0 j0 k0 i1 j1 k1) := by arr_ok hf0
  have Af1 : ArrOK m (sFace31 f1 i0 j0 k0 i1 j1 k1) := by arr_ok hf1
  have Af2 : ArrOK m (sFace32 f2 i0 j0 k0 i1 j1 k1) := by arr_ok hf2
  have Pu : Apart (sCell3 res i0 j0 k0 i1 j1 k1 rgcw) (sCell3 u i0 j0 k0 i1 j1 k1 ugcw) := by apart_ok (h.apart _ (by simp) _ (by simp))
  have Pf : Apart (sCell3 res i0 j0 k0 i1 j1 k1 rgcw) (sCell3 f i0 j0 k0 i1 j1 k1 fgcw) := by apart_ok (h.apart _ (by simp) _ (by simp))
  have Pf0 : Apart (sCell3 res i0 j0 k0 i1 j1 k1 rgcw) (sFace30 f0 i0 j0 k0 i1 j1 k1) := by apart_ok (h.apart _ (by simp) _ (by simp))
  have Pf1 : Apart (sCell3 res i0 j0 k0 i1 j1 k1 rgcw) (sFace31 f1 i0 j0 k0 i1 j1 k1) := by apart_ok (h.apart _ (by simp) _ (by simp))
  have Pf2 : Apart (sCell3 res i0 j0 k0 i1 j1 k1 rgcw) (sFace32 f2 i0 j0 k0 i1 j1 k1) := by apart_ok (h.apart _ (by simp) _ (by simp))
  obtain ⟨m', c, f', x⟩ := stmt_nest (lhs := sCell3 res i0 j0 k0 i1 j1 k1 rgcw) (e := (sCell3 f i0 j0 k0 i1 j1 k1 fgcw).e T + beta * ((sFace30 f0 i0 j0 k0 i1 j1 k1).grad .I (dx 0) + (sFace31 f1 i0 j0 k0 i1 j1 k1).grad .J (dx 1) + (sFace32 f2 i0 j0 k0 i1 j1 k1).grad .K (dx 2)) - alpha * (sCell3 u i0 j0 k0 i1 j1 k1 ugcw).e T)
    (D := [(.K, ⟨k0, k1 + 1, 1⟩), (.J, ⟨j0, j1 + 1, 1⟩), (.I, ⟨i0, i1 + 1, 1⟩)]) (r := [(.K, k0, k1), (.J, j0, j1), (.I, i0, i1)]) (p0 := fun _ => 0)
    (stmt := fun p => F.assign (F.cell3d res i0 j0 k0 i1 j1 k1 rgcw) [p .I, p .J, p .K] (.ref (F.cell3d f i0 j0 k0 i1 j1 k1 fgcw) [p .I, p .J, p .K] - (-(.const beta * ((.ref (F.face3d0 f0 i0 j0 k0 i1 j1 k1 0) [p .I + 1, p .J, p .K] - .ref (F.face3d0 f0 i0 j0 k0 i1 j1 k1 0) [p .I, p .J, p .K]) / .const (dx 0) + (.ref (F.face3d1 f1 i0 j0 k0 i1 j1 k1 0) [p .J + 1, p .K, p .I] - .ref (F.face3d1 f1 i0 j0 k0 i1 j1 k1 0) [p .J, p .K, p .I]) / .const (dx 1) + (.ref (F.face3d2 f2 i0 j0 k0 i1 j1 k1 0) [p .K + 1, p .I, p .J] - .ref (F.face3d2 f2 i0 j0 k0 i1 j1 k1 0) [p .K, p .I, p .J]) / .const (dx 2))) + .const alpha * .ref (F.cell3d u i0 j0 k0 i1 j1 k1 ugcw) [p .I, p .J, p .K])))
    (hβ 0) (by unit_dom) Ares (by within) (by operands) (by fits) (by typed) (by dims) (by same_dims) (by intro p; list_omega) (by body_ops hs)
  refine ⟨m', ?_, ?_⟩
  · unfold Cuda.diffusionV2Res3d
    exact bind_step mkI <| bind_step mkJ <| bind_step mkK <| bind_step spu <| bind_step spf <| bind_step spres <| bind_step plI <| bind_step plJ <| bind_step plK <| bind_step c rfl
  · exact f'

example : ∃ m', Cuda.diffusionV2Res3d 0 2 1 3 2 3 3 2 exDx 1 ⟨0, 0⟩ 2 ⟨1, 0⟩ ⟨2, 0⟩ ⟨3, 0⟩ ⟨4, 0⟩ 1 ⟨5, 0⟩ (fun _ => revBackend) exRat = .ok m' ∧
    F.celldiffusionv2res3d 0 2 1 3 2 3 3 2 exDx 1 ⟨0, 0⟩ 2 ⟨1, 0⟩ ⟨2, 0⟩ ⟨3, 0⟩ ⟨4, 0⟩ 1 ⟨5, 0⟩ exRat = .ok m' :=
  C49_v2_res_3d (fun _ => revBackend_ok) (fun _ _ _ => by ring) (by decide) (by decide) (by decide) (by decide) (by decide) (by decide) (by ex_args)

/-- `cd_apply_3d_cuda::poisson_v1_res` and `cellpoissonv1res3d` leave the same memory in every arithmetic where subtracting the opposite is adding, for every schedule. -/
theorem C49_poisson_res_3d {i0 i1 j0 j1 k0 k1 fgcw rgcw : Int} {beta : T} {dx : Nat → T} {f f0 f1 f2 res : Ptr} {β : Nat → Backend} {m : Mem T}
    (hβ : ∀ n, ValidBackend (β n)) (hs : ∀ x y : T, x + y = x - -y) (hi : i0 ≤ i1) (hj : j0 ≤ j1) (hk : k0 ≤ k1) (hfgcw : 0 ≤ fgcw) (hrgcw : 0 ≤ rgcw)
    (h : F.Args m [F.cell3d f i0 j0 k0 i1 j1 k1 fgcw, F.face3d0 f0 i0 j0 k0 i1 j1 k1 0, F.face3d1 f1 i0 j0 k0 i1 j1 k1 0, F.face3d2 f2 i0 j0 k0 i1 j1 k1 0]
      [F.cell3d res i0 j0 k0 i1 j1 k1 rgcw]) :
    ∃ m', Cuda.poissonV1Res3d i0 i1 j0 j1 k0 k1 beta dx fgcw f f0 f1 f2 rgcw res β m = .ok m' ∧ F.cellpoissonv1res3d i0 i1 j0 j1 k0 k1 beta dx fgcw f f0 f1 f2 rgcw res m = .ok m' := by
  have hf := h.ok (F.cell3d f i0 j0 k0 i1 j1 k1 fgcw) (by simp)
  have hres := h.ok (F.cell3d res i0 j0 k0 i1 j1 k1 rgcw) (by simp)
  have hf0 := h.ok (F.face3d0 f0 i0 j0 k0 i1 j1 k1 0) (by simp)
  have hf1 := h.ok (F.face3d1 f1 i0 j0 k0 i1 j1 k1 0) (by simp)
  have hf2 := h.ok (F.face3d2 f2 i0 j0 k0 i1 j1 k1 0) (by simp)
  have If := hf.int
  have Ires := hres.int
  have If0 := hf0.int
  have If1 := hf1.int
  have If2 := hf2.int
  simp only [F.cell3d, F.face3d0, F.face3d1, F.face3d2, List.mem_cons, List.not_mem_nil, or_false, forall_eq_or_imp, forall_eq, InInt] at If Ires If0 If1 If2
  have mkI := mkB_ok (d := .I) (lo := i0) (hi := i1) (by list_omega)
  have plI := plus_ok (d := .I) (b := ⟨i0, i1 + 1, 1⟩) (x := 1) (by omega) (by list_omega)
  have mkJ := mkB_ok (d := .J) (lo := j0) (hi := j1) (by list_omega)
  have plJ := plus_ok (d := .J) (b := ⟨j0, j1 + 1, 1⟩) (x := 1) (by omega) (by list_omega)
  have mkK := mkB_ok (d := .K) (lo := k0) (hi := k1) (by list_omega)
  have plK := plus_ok (d := .K) (b := ⟨k0, k1 + 1, 1⟩) (x := 1) (by omega) (by list_omega)
  have spf : makeSpanOffset f fgcw [(.K, ⟨k0, k1 + 1, 1⟩), (.J, ⟨j0, j1 + 1, 1⟩), (.I, ⟨i0, i1 + 1, 1⟩)] = .ok (sCell3 f i0 j0 k0 i1 j1 k1 fgcw) := makeSpanOffset_ok (by simp) (by list_omega)
  have spres : makeSpanOffset res rgcw [(.K, ⟨k0, k1 + 1, 1⟩), (.J, ⟨j0, j1 + 1, 1⟩), (.I, ⟨i0, i1 + 1, 1⟩)] = .ok (sCell3 res i0 j0 k0 i1 j1 k1 rgcw) := makeSpanOffset_ok (by simp) (by list_omega)
  have Af : ArrOK m (sCell3 f i0 j0 k0 i1 j1 k1 fgcw) := by arr_ok hf
  have Ares : ArrOK m (sCell3 res i0 j0 k0 i1 j1 k1 rgcw) := by arr_ok hres
  have Af0 : ArrOK m (sFace30 f0 i0 j0 k0 i1 j1 k1) := by arr_ok hf0
  have Af1 : ArrOK m (sFace31 f1 i0 j0 k0 i1 j1 k1) := by arr_ok hf1
  have Af2 : ArrOK m (sFace32 f2 i0 j0 k0 i1 j1 k1) := by arr_ok hf2
  have Pf : Apart (sCell3 res i0 j0 k0 i1 j1 k1 rgcw) (sCell3 f i0 j0 k0 i1 j1 k1 fgcw) := by apart_ok (h.apart _ (by simp) _ (by simp))
  have Pf0 : Apart (sCell3 res i0 j0 k0 i1 j1 k1 rgcw) (sFace30 f0 i0 j0 k0 i1 j1 k1) := by apart_ok (h.apart _ (by simp) _ (by simp))
  have Pf1 : Apart (sCell3 res i0 j0 k0 i1 j1 k1 rgcw) (sFace31 f1 i0 j0 k0 i1 j1 k1) := by apart_ok (h.apart _ (by simp) _ (by simp))
  have Pf2 : Apart (sCell3 res i0 j0 k0 i1 j1 k1 rgcw) (sFace32 f2 i0 j0 k0 i1 j1 k1) := by apart_ok (h.apart _ (by simp) _ (by simp))
  obtain ⟨m', c, f', x⟩ := stmt_nest (lhs := sCell3 res i0 j0 k0 i1 j1 k1 rgcw) (e := (sCell3 f i0 j0 k0 i1 j1 k1 fgcw).e T + beta * ((sFace30 f0 i0 j0 k0 i1 j1 k1).grad .I (dx 0) + (sFace31 f1 i0 j0 k0 i1 j1 k1).grad .J (dx 1) + (sFace32 f2 i0 j0 k0 i1 j1 k1).grad .K (dx 2)))
    (D := [(.K, ⟨k0, k1 + 1, 1⟩), (.J, ⟨j0, j1 + 1, 1⟩), (.I, ⟨i0, i1 + 1, 1⟩)]) (r := [(.K, k0, k1), (.J, j0, j1), (.I, i0, i1)]) (p0 := fun _ => 0)
    (stmt := fun p => F.assign (F.cell3d res i0 j0 k0 i1 j1 k1 rgcw) [p .I, p .J, p .K] (.ref (F.cell3d f i0 j0 k0 i1 j1 k1 fgcw) [p .I, p .J, p .K] - -(.const beta * ((.ref (F.face3d0 f0 i0 j0 k0 i1 j1 k1 0) [p .I + 1, p .J, p .K] - .ref (F.face3d0 f0 i0 j0 k0 i1 j1 k1 0) [p .I, p .J, p .K]) / .const (dx 0) + (.ref (F.face3d1 f1 i0 j0 k0 i1 j1 k1 0) [p .J + 1, p .K, p .I] - .ref (F.face3d1 f1 i0 j0 k0 i1 j1 k1 0) [p .J, p .K, p .I]) / .const (dx 1) + (.ref (F.face3d2 f2 i0 j0 k0 i1 j1 k1 0) [p .K + 1, p .I, p .J] - .ref (F.face3d2 f2 i0 j0 k0 i1 j1 k1 0) [p .K, p .I, p .J]) / .const (dx 2)))))
    (hβ 0) (by unit_dom) Ares (by within) (by operands) (by fits) (by typed) (by dims) (by same_dims) (by intro p; list_omega) (by body_ops hs)
  refine ⟨m', ?_, ?_⟩
  · unfold Cuda.poissonV1Res3d
    exact bind_step mkI <| bind_step mkJ <| bind_step mkK <| bind_step spf <| bind_step spres <| bind_step plI <| bind_step plJ <| bind_step plK <| bind_step c rfl
  · exact f'

example : ∃ m', Cuda.poissonV1Res3d 0 2 1 3 2 3 2 exDxB 1 ⟨0, 0⟩ ⟨1, 0⟩ ⟨2, 0⟩ ⟨3, 0⟩ 1 ⟨4, 0⟩ (fun _ => revBackend) exB64 = .ok m' ∧
    F.cellpoissonv1res3d 0 2 1 3 2 3 2 exDxB 1 ⟨0, 0⟩ ⟨1, 0⟩ ⟨2, 0⟩ ⟨3, 0⟩ 1 ⟨4, 0⟩ exB64 = .ok m' :=
  C49_poisson_res_3d (fun _ => revBackend_ok) B64.sub_neg (by decide) (by decide) (by decide) (by decide) (by decide) (by ex_argsB)

/-- `cd_apply_3d_cuda::diffusion_v1_apply` and `celldiffusionv1apply3d` leave the same memory in every arithmetic where the sign of a factor is the sign of the product, for every schedule. -/
theorem C49_v1_apply_3d {i0 i1 j0 j1 k0 k1 agcw ugcw rgcw : Int} {alpha beta : T} {dx : Nat → T} {a u f0 f1 f2 res : Ptr} {β : Nat → Backend} {m : Mem T}
    (hβ : ∀ n, ValidBackend (β n)) (hs : ∀ x y : T, -x * y = -(x * y)) (hi : i0 ≤ i1) (hj : j0 ≤ j1) (hk : k0 ≤ k1) (hagcw : 0 ≤ agcw) (hugcw : 0 ≤ ugcw) (hrgcw : 0 ≤ rgcw)
    (h : F.Args m [F.cell3d a i0 j0 k0 i1 j1 k1 agcw, F.cell3d u i0 j0 k0 i1 j1 k1 ugcw, F.face3d0 f0 i0 j0 k0 i1 j1 k1 0, F.face3d1 f1 i0 j0 k0 i1 j1 k1 0, F.face3d2 f2 i0 j0 k0 i1 j1 k1 0]
      [F.cell3d res i0 j0 k0 i1 j1 k1 rgcw]) :
    ∃ m', Cuda.diffusionV1Apply3d i0 i1 j0 j1 k0 k1 alpha beta dx agcw a ugcw u f0 f1 f2 rgcw res β m = .ok m' ∧ F.celldiffusionv1apply3d i0 i1 j0 j1 k0 k1 alpha beta dx agcw a ugcw u f0 f1 f2 rgcw res m = .ok m' := by
  have ha := h.ok (F.cell3d a i0 j0 k0 i1 j1 k1 agcw) (by simp)
  have hu := h.ok (F.cell3d u i0 j0 k0 i1 j1 k1 ugcw) (by simp)
  have hres := h.ok (F.cell3d res i0 j0 k0 i1 j1 k1 rgcw) (by simp)
  have hf0 := h.ok (F.face3d0 f0 i0 j0 k0 i1 j1 k1 0) (by simp)
  have hf1 := h.ok (F.face3d1 f1 i0 j0 k0 i1 j1 k1 0) (by simp)
  have hf2 := h.ok (F.face3d2 f2 i0 j0 k0 i1 j1 k1 0) (by simp)
  have Ia := ha.int
  have Iu := hu.int
  have Ires := hres.int
  have If0 := hf0.int
  have If1 := hf1.int
  have If2 := hf2.int
  simp only [F.cell3d, F.face3d0, F.face3d1, F.face3d2, List.mem_cons, List.not_mem_nil, or_false, forall_eq_or_imp, forall_eq, InInt] at Ia Iu Ires If0 If1 If2
  have mkI := mkB_ok (d := .I) (lo := i0) (hi := i1) (by list_omega)
  have plI := plus_ok (d := .I) (b := ⟨i0, i1 + 1, 1⟩) (x := 1) (by omega) (by list_omega)
  have mkJ := mkB_ok (d := .J) (lo := j0) (hi := j1) (by list_omega)
  have plJ := plus_ok (d := .J) (b := ⟨j0, j1 + 1, 1⟩) (x := 1) (by omega) (by list_omega)
  have mkK := mkB_ok (d := .K) (lo := k0) (hi := k1) (by list_omega)
  have plK := plus_ok (d := .K) (b := ⟨k0, k1 + 1, 1⟩) (x := 1) (by omega) (by list_omega)
  have spa : makeSpanOffset a agcw [(.K, ⟨k0, k1 + 1, 1⟩), (.J, ⟨j0, j1 + 1, 1⟩), (.I, ⟨i0, i1 + 1, 1⟩)] = .ok (sCell3 a i0 j0 k0 i1 j1 k1 agcw) := makeSpanOffset_ok (by simp) (by list_omega)
  have spu : makeSpanOffset u ugcw [(.K, ⟨k0, k1 + 1, 1⟩), (.J, ⟨j0, j1 + 1, 1⟩), (.I, ⟨i0, i1 + 1, 1⟩)] = .ok (sCell3 u i0 j0 k0 i1 j1 k1 ugcw) := makeSpanOffset_ok (by simp) (by list_omega)
  have spres : makeSpanOffset res rgcw [(.K, ⟨k0, k1 + 1, 1⟩), (.J, ⟨j0, j1 + 1, 1⟩), (.I, ⟨i0, i1 + 1, 1⟩)] = .ok (sCell3 res i0 j0 k0 i1 j1 k1 rgcw) := makeSpanOffset_ok (by simp) (by list_omega)
  have Aa : ArrOK m (sCell3 a i0 j0 k0 i1 j1 k1 agcw) := by arr_ok ha
  have Au : ArrOK m (sCell3 u i0 j0 k0 i1 j1 k1 ugcw) := by arr_ok hu
  have Ares : ArrOK m (sCell3 res i0 j0 k0 i1 j1 k1 rgcw) := by arr_ok hres
  have Af0 : ArrOK m (sFace30 f0 i0 j0 k0 i1 j1 k1) := by arr_ok hf0
  have Af1 : ArrOK m (sFace31 f1 i0 j0 k0 i1 j1 k1) := by arr_ok hf1
  have Af2 : ArrOK m (sFace32 f2 i0 j0 k0 i1 j1 k1) := by arr_ok hf2
  have Pa : Apart (sCell3 res i0 j0 k0 i1 j1 k1 rgcw) (sCell3 a i0 j0 k0 i1 j1 k1 agcw) := by apart_ok (h.apart _ (by simp) _ (by simp))
  have Pu : Apart (sCell3 res i0 j0 k0 i1 j1 k1 rgcw) (sCell3 u i0 j0 k0 i1 j1 k1 ugcw) := by apart_ok (h.apart _ (by simp) _ (by simp))
  have Pf0 : Apart (sCell3 res i0 j0 k0 i1 j1 k1 rgcw) (sFace30 f0 i0 j0 k0 i1 j1 k1) := by apart_ok (h.apart _ (by simp) _ (by simp))
  have Pf1 : Apart (sCell3 res i0 j0 k0 i1 j1 k1 rgcw) (sFace31 f1 i0 j0 k0 i1 j1 k1) := by apart_ok (h.apart _ (by simp) _ (by simp))
  have Pf2 : Apart (sCell3 res i0 j0 k0 i1 j1 k1 rgcw) (sFace32 f2 i0 j0 k0 i1 j1 k1) := by apart_ok (h.apart _ (by simp) _ (by simp))
  obtain ⟨m', c, f', x⟩ := stmt_nest (lhs := sCell3 res i0 j0 k0 i1 j1 k1 rgcw) (e := -beta * ((sFace30 f0 i0 j0 k0 i1 j1 k1).grad .I (dx 0) + (sFace31 f1 i0 j0 k0 i1 j1 k1).grad .J (dx 1) + (sFace32 f2 i0 j0 k0 i1 j1 k1).grad .K (dx 2)) + alpha * (sCell3 a i0 j0 k0 i1 j1 k1 agcw).e T * (sCell3 u i0 j0 k0 i1 j1 k1 ugcw).e T)
    (D := [(.K, ⟨k0, k1 + 1, 1⟩), (.J, ⟨j0, j1 + 1, 1⟩), (.I, ⟨i0, i1 + 1, 1⟩)]) (r := [(.K, k0, k1), (.J, j0, j1), (.I, i0, i1)]) (p0 := fun _ => 0)
    (stmt := fun p => F.assign (F.cell3d res i0 j0 k0 i1 j1 k1 rgcw) [p .I, p .J, p .K] (-(.const beta * ((.ref (F.face3d0 f0 i0 j0 k0 i1 j1 k1 0) [p .I + 1, p .J, p .K] - .ref (F.face3d0 f0 i0 j0 k0 i1 j1 k1 0) [p .I, p .J, p .K]) / .const (dx 0) + (.ref (F.face3d1 f1 i0 j0 k0 i1 j1 k1 0) [p .J + 1, p .K, p .I] - .ref (F.face3d1 f1 i0 j0 k0 i1 j1 k1 0) [p .J, p .K, p .I]) / .const (dx 1) + (.ref (F.face3d2 f2 i0 j0 k0 i1 j1 k1 0) [p .K + 1, p .I, p .J] - .ref (F.face3d2 f2 i0 j0 k0 i1 j1 k1 0) [p .K, p .I, p .J]) / .const (dx 2))) + .const alpha * .ref (F.cell3d a i0 j0 k0 i1 j1 k1 agcw) [p .I, p .J, p .K] * .ref (F.cell3d u i0 j0 k0 i1 j1 k1 ugcw) [p .I, p .J, p .K]))
    (hβ 0) (by unit_dom) Ares (by within) (by operands) (by fits) (by typed) (by dims) (by same_dims) (by intro p; list_omega) (by body_ops hs)
  refine ⟨m', ?_, ?_⟩
  · unfold Cuda.diffusionV1Apply3d
    exact bind_step mkI <| bind_step mkJ <| bind_step mkK <| bind_step spa <| bind_step spu <| bind_step spres <| bind_step plI <| bind_step plJ <| bind_step plK <| bind_step c rfl
  · exact f'

example : ∃ m', Cuda.diffusionV1Apply3d 0 2 1 3 2 3 3 2 exDxB 1 ⟨0, 0⟩ 2 ⟨1, 0⟩ ⟨2, 0⟩ ⟨3, 0⟩ ⟨4, 0⟩ 1 ⟨5, 0⟩ (fun _ => revBackend) exB64 = .ok m' ∧
    F.celldiffusionv1apply3d 0 2 1 3 2 3 3 2 exDxB 1 ⟨0, 0⟩ 2 ⟨1, 0⟩ ⟨2, 0⟩ ⟨3, 0⟩ ⟨4, 0⟩ 1 ⟨5, 0⟩ exB64 = .ok m' :=
  C49_v1_apply_3d (fun _ => revBackend_ok) B64.neg_mul (by decide) (by decide) (by decide) (by decide) (by decide) (by decide) (by ex_argsB)

/-- `cd_apply_3d_cuda::diffusion_v2_apply` and `celldiffusionv2apply3d` leave the same memory in every arithmetic where the sign of a factor is the sign of the product, for every schedule. -/
theorem C49_v2_apply_3d {i0 i1 j0 j1 k0 k1 ugcw rgcw : Int} {alpha beta : T} {dx : Nat → T} {u f0 f1 f2 res : Ptr} {β : Nat → Backend} {m : Mem T}
    (hβ : ∀ n, ValidBackend (β n)) (hs : ∀ x y : T, -x * y = -(x * y)) (hi : i0 ≤ i1) (hj : j0 ≤ j1) (hk : k0 ≤ k1) (hugcw : 0 ≤ ugcw) (hrgcw : 0 ≤ rgcw)
    (h : F.Args m [F.cell3d u i0 j0 k0 i1 j1 k1 ugcw, F.face3d0 f0 i0 j0 k0 i1 j1 k1 0, F.face3d1 f1 i0 j0 k0 i1 j1 k1 0, F.face3d2 f2 i0 j0 k0 i1 j1 k1 0]
      [F.cell3d res i0 j0 k0 i1 j1 k1 rgcw]) :
    ∃ m', Cuda.diffusionV2Apply3d i0 i1 j0 j1 k0 k1 alpha beta dx ugcw u f0 f1 f2 rgcw res β m = .ok m' ∧ F.celldiffusionv2apply3d i0 i1 j0 j1 k0 k1 alpha beta dx ugcw u f0 f1 f2 rgcw res m = .ok m' := by
  have hu := h.ok (F.cell3d u i0 j0 k0 i1 j1 k1 ugcw) (by simp)
  have hres := h.ok (F.cell3d res i0 j0 k0 i1 j1 k1 rgcw) (by simp)
  have hf0 := h.ok (F.face3d0 f0 i0 j0 k0 i1 j1 k1 0) (by simp)
  have hf1 := h.ok (F.face3d1 f1 i0 j0 k0 i1 j1 k1 0) (by simp)
  have hf2 := h.ok (F.face3d2 f2 i0 j0 k0 i1 j1 k1 0) (by simp)
  have Iu := hu.int
  have Ires := hres.int
  have If0 := hf0.int
  have If1 := hf1.int
  have If2 := hf2.int
  simp only [F.cell3d, F.face3d0, F.face3d1, F.face3d2, List.mem_cons, List.not_mem_nil, or_false, forall_eq_or_imp, forall_eq, InInt] at Iu Ires If0 If1 If2
  have mkI := mkB_ok (d := .I) (lo := i0) (hi := i1) (by list_omega)
  have plI := plus_ok (d := .I) (b := ⟨i0, i1 + 1, 1⟩) (x := 1) (by omega) (by list_omega)
  have mkJ := mkB_ok (d := .J) (lo := j0) (hi := j1) (by list_omega)
  have plJ := plus_ok (d := .J) (b := ⟨j0, j1 + 1, 1⟩) (x := 1) (by omega) (by list_omega)
  have mkK := mkB_ok (d := .K) (lo := k0) (hi := k1) (by list_omega)
  have plK := plus_ok (d := .K) (b := ⟨k0, k1 + 1, 1⟩) (x := 1) (by omega) (by list_omega)
  have spu : makeSpanOffset u ugcw [(.K, ⟨k0, k1 + 1, 1⟩), (.J, ⟨j0, j1 + 1, 1⟩), (.I, ⟨i0, i1 + 1, 1⟩)] = .ok (sCell3 u i0 j0 k0 i1 j1 k1 ugcw) := makeSpanOffset_ok (by simp) (by list_omega)
  have spres : makeSpanOffset res rgcw [(.K, ⟨k0, k1 + 1, 1⟩), (.J, ⟨j0, j1 + 1, 1⟩), (.I, ⟨i0, i1 + 1, 1⟩)] = .ok (sCell3 res i0 j0 k0 i1 j1 k1 rgcw) := makeSpanOffset_ok (by simp) (by list_omega)
  have Au : ArrOK m (sCell3 u i0 j0 k0 i1 j1 k1 ugcw) := by arr_ok hu
  have Ares : ArrOK m (sCell3 res i0 j0 k0 i1 j1 k1 rgcw) := by arr_ok hres
  have Af0 : ArrOK m (sFace30 f0 i0 j0 k0 i1 j1 k1) := by arr_ok hf0
  have Af1 : ArrOK m (sFace31 f1 i0 j0 k0 i1 j1 k1) := by arr_ok hf1
  have Af2 : ArrOK m (sFace32 f2 i0 j0 k0 i1 j1 k1) := by arr_ok hf2
  have Pu : Apart (sCell3 res i0 j0 k0 i1 j1 k1 rgcw) (sCell3 u i0 j0 k0 i1 j1 k1 ugcw) := by apart_ok (h.apart _ (by simp) _ (by simp))
  have Pf0 : Apart (sCell3 res i0 j0 k0 i1 j1 k1 rgcw) (sFace30 f0 i0 j0 k0 i1 j1 k1) := by apart_ok (h.apart _ (by simp) _ (by simp))
  have Pf1 : Apart (sCell3 res i0 j0 k0 i1 j1 k1 rgcw) (sFace31 f1 i0 j0 k0 i1 j1 k1) := by apart_ok (h.apart _ (by simp) _ (by simp))
  have Pf2 : Apart (sCell3 res i0 j0 k0 i1 j1 k1 rgcw) (sFace32 f2 i0 j0 k0 i1 j1 k1) := by apart_ok (h.apart _ (by simp) _ (by simp))
  obtain ⟨m', c, f', x⟩ := stmt_nest (lhs := sCell3 res i0 j0 k0 i1 j1 k1 rgcw) (e := -beta * ((sFace30 f0 i0 j0 k0 i1 j1 k1).grad .I (dx 0) + (sFace31 f1 i0 j0 k0 i1 j1 k1).grad .J (dx 1) + (sFace32 f2 i0 j0 k0 i1 j1 k1).grad .K (dx 2)) + alpha * (sCell3 u i0 j0 k0 i1 j1 k1 ugcw).e T)
    (D := [(.K, ⟨k0, k1 + 1, 1⟩), (.J, ⟨j0, j1 + 1, 1⟩), (.I, ⟨i0, i1 + 1, 1⟩)]) (r := [(.K, k0, k1), (.J, j0, j1), (.I, i0, i1)]) (p0 := fun _ => 0)
    (stmt := fun p => F.assign (F.cell3d res i0 j0 k0 i1 j1 k1 rgcw) [p .I, p .J, p .K] (-(.const beta * ((.ref (F.face3d0 f0 i0 j0 k0 i1 j1 k1 0) [p .I + 1, p .J, p .K] - .ref (F.face3d0 f0 i0 j0 k0 i1 j1 k1 0) [p .I, p .J, p .K]) / .const (dx 0) + (.ref (F.face3d1 f1 i0 j0 k0 i1 j1 k1 0) [p .J + 1, p .K, p .I] - .ref (F.face3d1 f1 i0 j0 k0 i1 j1 k1 0) [p .J, p .K, p .I]) / .const (dx 1) + (.ref (F.face3d2 f2 i0 j0 k0 i1 j1 k1 0) [p .K + 1, p .I, p .J] - .ref (F.face3d2 f2 i0 j0 k0 i1 j1 k1 0) [p .K, p .I, p .J]) / .const (dx 2))) + .const alpha * .ref (F.cell3d u i0 j0 k0 i1 j1 k1 ugcw) [p .I, p .J, p .K]))
    (hβ 0) (by unit_dom) Ares (by within) (by operands) (by fits) (by typed) (by dims) (by same_dims) (by intro p; list_omega) (by body_ops hs)
  refine ⟨m', ?_, ?_⟩
  · unfold Cuda.diffusionV2Apply3d
    exact bind_step mkI <| bind_step mkJ <| bind_step mkK <| bind_step spu <| bind_step spres <| bind_step plI <| bind_step plJ <| bind_step plK <| bind_step c rfl
  · exact f'

example : ∃ m', Cuda.diffusionV2Apply3d 0 2 1 3 2 3 3 2 exDxB 1 ⟨0, 0⟩ ⟨1, 0⟩ ⟨2, 0⟩ ⟨3, 0⟩ 1 ⟨4, 0⟩ (fun _ => revBackend) exB64 = .ok m' ∧
    F.celldiffusionv2apply3d 0 2 1 3 2 3 3 2 exDxB 1 ⟨0, 0⟩ ⟨1, 0⟩ ⟨2, 0⟩ ⟨3, 0⟩ 1 ⟨4, 0⟩ exB64 = .ok m' :=
  C49_v2_apply_3d (fun _ => revBackend_ok) B64.neg_mul (by decide) (by decide) (by decide) (by decide) (by decide) (by ex_argsB)

/-- `cd_apply_3d_cuda::poisson_v2_apply` and `cellpoissonv2apply3d` leave the same memory in every arithmetic where the sign of a factor is the sign of the product, for every schedule. -/
theorem C49_poisson_apply_3d {i0 i1 j0 j1 k0 k1 rgcw : Int} {beta : T} {dx : Nat → T} {f0 f1 f2 res : Ptr} {β : Nat → Backend} {m : Mem T}
    (hβ : ∀ n, ValidBackend (β n)) (hs : ∀ x y : T, -x * y = -(x * y)) (hi : i0 ≤ i1) (hj : j0 ≤ j1) (hk : k0 ≤ k1) (hrgcw : 0 ≤ rgcw)
    (h : F.Args m [F.face3d0 f0 i0 j0 k0 i1 j1 k1 0, F.face3d1 f1 i0 j0 k0 i1 j1 k1 0, F.face3d2 f2 i0 j0 k0 i1 j1 k1 0]
      [F.cell3d res i0 j0 k0 i1 j1 k1 rgcw]) :
    ∃ m', Cuda.poissonV2Apply3d i0 i1 j0 j1 k0 k1 beta dx f0 f1 f2 rgcw res β m = .ok m' ∧ F.cellpoissonv2apply3d i0 i1 j0 j1 k0 k1 beta dx f0 f1 f2 rgcw res m = .ok m' := by
  have hres := h.ok (F.cell3d res i0 j0 k0 i1 j1 k1 rgcw) (by simp)
  have hf0 := h.ok (F.face3d0 f0 i0 j0 k0 i1 j1 k1 0) (by simp)
  have hf1 := h.ok (F.face3d1 f1 i0 j0 k0 i1 j1 k1 0) (by simp)
  have hf2 := h.ok (F.face3d2 f2 i0 j0 k0 i1 j1 k1 0) (by simp)
  have Ires := hres.int
  have If0 := hf0.int
  have If1 := hf1.int
  have If2 := hf2.int
  simp only [F.cell3d, F.face3d0, F.face3d1, F.face3d2, List.mem_cons, List.not_mem_nil, or_false, forall_eq_or_imp, forall_eq, InInt] at Ires If0 If1 If2
  have mkI := mkB_ok (d := .I) (lo := i0) (hi := i1) (by list_omega)
  have plI := plus_ok (d := .I) (b := ⟨i0, i1 + 1, 1⟩) (x := 1) (by omega) (by list_omega)
  have mkJ := mkB_ok (d := .J) (lo := j0) (hi := j1) (by list_omega)
  have plJ := plus_ok (d := .J) (b := ⟨j0, j1 + 1, 1⟩) (x := 1) (by omega) (by list_omega)
  have mkK := mkB_ok (d := .K) (lo := k0) (hi := k1) (by list_omega)
  have plK := plus_ok (d := .K) (b := ⟨k0, k1 + 1, 1⟩) (x := 1) (by omega) (by list_omega)
  have spres : makeSpanOffset res rgcw [(.K, ⟨k0, k1 + 1, 1⟩), (.J, ⟨j0, j1 + 1, 1⟩), (.I, ⟨i0, i1 + 1, 1⟩)] = .ok (sCell3 res i0 j0 k0 i1 j1 k1 rgcw) := makeSpanOffset_ok (by simp) (by list_omega)
  have Ares : ArrOK m (sCell3 res i0 j0 k0 i1 j1 k1 rgcw) := by arr_ok hres
  have Af0 : ArrOK m (sFace30 f0 i0 j0 k0 i1 j1 k1) := by arr_ok hf0
  have Af1 : ArrOK m (sFace31 f1 i0 j0 k0 i1 j1 k1) := by arr_ok hf1
  have Af2 : ArrOK m (sFace32 f2 i0 j0 k0 i1 j1 k1) := by arr_ok hf2
  have Pf0 : Apart (sCell3 res i0 j0 k0 i1 j1 k1 rgcw) (sFace30 f0 i0 j0 k0 i1 j1 k1) := by apart_ok (h.apart _ (by simp) _ (by simp))
  have Pf1 : Apart (sCell3 res i0 j0 k0 i1 j1 k1 rgcw) (sFace31 f1 i0 j0 k0 i1 j1 k1) := by apart_ok (h.apart _ (by simp) _ (by simp))
  have Pf2 : Apart (sCell3 res i0 j0 k0 i1 j1 k1 rgcw) (sFace32 f2 i0 j0 k0 i1 j1 k1) := by apart_ok (h.apart _ (by simp) _ (by simp))
  obtain ⟨m', c, f', x⟩ := stmt_nest (lhs := sCell3 res i0 j0 k0 i1 j1 k1 rgcw) (e := -beta * ((sFace30 f0 i0 j0 k0 i1 j1 k1).grad .I (dx 0) + (sFace31 f1 i0 j0 k0 i1 j1 k1).grad .J (dx 1) + (sFace32 f2 i0 j0 k0 i1 j1 k1).grad .K (dx 2)))
    (D := [(.K, ⟨k0, k1 + 1, 1⟩), (.J, ⟨j0, j1 + 1, 1⟩), (.I, ⟨i0, i1 + 1, 1⟩)]) (r := [(.K, k0, k1), (.J, j0, j1), (.I, i0, i1)]) (p0 := fun _ => 0)
    (stmt := fun p => F.assign (F.cell3d res i0 j0 k0 i1 j1 k1 rgcw) [p .I, p .J, p .K] (-(.const beta * ((.ref (F.face3d0 f0 i0 j0 k0 i1 j1 k1 0) [p .I + 1, p .J, p .K] - .ref (F.face3d0 f0 i0 j0 k0 i1 j1 k1 0) [p .I, p .J, p .K]) / .const (dx 0) + (.ref (F.face3d1 f1 i0 j0 k0 i1 j1 k1 0) [p .J + 1, p .K, p .I] - .ref (F.face3d1 f1 i0 j0 k0 i1 j1 k1 0) [p .J, p .K, p .I]) / .const (dx 1) + (.ref (F.face3d2 f2 i0 j0 k0 i1 j1 k1 0) [p .K + 1, p .I, p .J] - .ref (F.face3d2 f2 i0 j0 k0 i1 j1 k1 0) [p .K, p .I, p .J]) / .const (dx 2)))))
    (hβ 0) (by unit_dom) Ares (by within) (by operands) (by fits) (by typed) (by dims) (by same_dims) (by intro p; list_omega) (by body_ops hs)
  refine ⟨m', ?_, ?_⟩
  · unfold Cuda.poissonV2Apply3d
    exact bind_step mkI <| bind_step mkJ <| bind_step mkK <| bind_step spres <| bind_step plI <| bind_step plJ <| bind_step plK <| bind_step c rfl
  · exact f'

example : ∃ m', Cuda.poissonV2Apply3d 0 2 1 3 2 3 2 exDxB ⟨0, 0⟩ ⟨1, 0⟩ ⟨2, 0⟩ 1 ⟨3, 0⟩ (fun _ => revBackend) exB64 = .ok m' ∧
    F.cellpoissonv2apply3d 0 2 1 3 2 3 2 exDxB ⟨0, 0⟩ ⟨1, 0⟩ ⟨2, 0⟩ 1 ⟨3, 0⟩ exB64 = .ok m' :=
  C49_poisson_apply_3d (fun _ => revBackend_ok) B64.neg_mul (by decide) (by decide) (by decide) (by decide) (by ex_argsB)

/-- `cd_apply_1d_cuda::diffusion_v1_res` and `celldiffusionv1res1d` sum in different orders: on one cell, with `f` equal to `2^53` and the other two
terms equal to 1, the residuals in 53 bit arithmetic differ. -/
theorem C49_v1_res_1d_false : ∃ (alpha beta : B64) (dx : Nat → B64) (a u f f0 res : Ptr) (m : Mem B64),
    F.Args m [F.cell1d a 0 0 0, F.cell1d u 0 0 0, F.cell1d f 0 0 0, F.face1d f0 0 0 0]
      [F.cell1d res 0 0 0] ∧
    ∃ m1 m2, Cuda.diffusionV1Res1d 0 0 alpha beta dx 0 a 0 u 0 f f0 0 res (fun _ => seqBackend) m = .ok m1 ∧ F.celldiffusionv1res1d 0 0 alpha beta dx 0 a 0 u 0 f f0 0 res m = .ok m2 ∧ m1 ≠ m2 :=
  ⟨1, 1, fun _ => 1, ⟨0, 0⟩, ⟨1, 0⟩, ⟨2, 0⟩, ⟨3, 0⟩, ⟨6, 0⟩, (wB fun b o => if b < 2 then 1 else if b = 2 then 2 ^ 53 else if b = 3 then o else 0), by w_args,
    differ_ne (q := ⟨6, 0⟩) (by decide +kernel)⟩

/-- `cd_apply_1d_cuda::diffusion_v2_res` and `celldiffusionv2res1d` sum in different orders: on one cell, with `f` equal to `2^53` and the other two
terms equal to 1, the residuals in 53 bit arithmetic differ. -/
theorem C49_v2_res_1d_false : ∃ (alpha beta : B64) (dx : Nat → B64) (u f f0 res : Ptr) (m : Mem B64),
    F.Args m [F.cell1d u 0 0 0, F.cell1d f 0 0 0, F.face1d f0 0 0 0]
      [F.cell1d res 0 0 0] ∧
    ∃ m1 m2, Cuda.diffusionV2Res1d 0 0 alpha beta dx 0 u 0 f f0 0 res (fun _ => seqBackend) m = .ok m1 ∧ F.celldiffusionv2res1d 0 0 alpha beta dx 0 u 0 f f0 0 res m = .ok m2 ∧ m1 ≠ m2 :=
  ⟨1, 1, fun _ => 1, ⟨1, 0⟩, ⟨2, 0⟩, ⟨3, 0⟩, ⟨6, 0⟩, (wB fun b o => if b < 2 then 1 else if b = 2 then 2 ^ 53 else if b = 3 then o else 0), by w_args,
    differ_ne (q := ⟨6, 0⟩) (by decide +kernel)⟩

/-- `cd_apply_2d_cuda::diffusion_v1_res` and `celldiffusionv1res2d` sum in different orders: on one cell, with `f` equal to `2^53` and the other two
terms equal to 1, the residuals in 53 bit arithmetic differ. -/
theorem C49_v1_res_2d_false : ∃ (alpha beta : B64) (dx : Nat → B64) (a u f f0 f1 res : Ptr) (m : Mem B64),
    F.Args m [F.cell2d a 0 0 0 0 0, F.cell2d u 0 0 0 0 0, F.cell2d f 0 0 0 0 0, F.face2d0 f0 0 0 0 0 0, F.face2d1 f1 0 0 0 0 0]
      [F.cell2d res 0 0 0 0 0] ∧
    ∃ m1 m2, Cuda.diffusionV1Res2d 0 0 0 0 alpha beta dx 0 a 0 u 0 f f0 f1 0 res (fun _ => seqBackend) m = .ok m1 ∧ F.celldiffusionv1res2d 0 0 0 0 alpha beta dx 0 a 0 u 0 f f0 f1 0 res m = .ok m2 ∧ m1 ≠ m2 :=
  ⟨1, 1, fun _ => 1, ⟨0, 0⟩, ⟨1, 0⟩, ⟨2, 0⟩, ⟨3, 0⟩, ⟨4, 0⟩, ⟨6, 0⟩, (wB fun b o => if b < 2 then 1 else if b = 2 then 2 ^ 53 else if b = 3 then o else 0), by w_args,
    differ_ne (q := ⟨6, 0⟩) (by decide +kernel)⟩

/-- `cd_apply_2d_cuda::diffusion_v2_res` and `celldiffusionv2res2d` sum in different orders: on one cell, with `f` equal to `2^53` and the other two
terms equal to 1, the residuals in 53 bit arithmetic differ. -/
theorem C49_v2_res_2d_false : ∃ (alpha beta : B64) (dx : Nat → B64) (u f f0 f1 res : Ptr) (m : Mem B64),
    F.Args m [F.cell2d u 0 0 0 0 0, F.cell2d f 0 0 0 0 0, F.face2d0 f0 0 0 0 0 0, F.face2d1 f1 0 0 0 0 0]
      [F.cell2d res 0 0 0 0 0] ∧
    ∃ m1 m2, Cuda.diffusionV2Res2d 0 0 0 0 alpha beta dx 0 u 0 f f0 f1 0 res (fun _ => seqBackend) m = .ok m1 ∧ F.celldiffusionv2res2d 0 0 0 0 alpha beta dx 0 u 0 f f0 f1 0 res m = .ok m2 ∧ m1 ≠ m2 :=
  ⟨1, 1, fun _ => 1, ⟨1, 0⟩, ⟨2, 0⟩, ⟨3, 0⟩, ⟨4, 0⟩, ⟨6, 0⟩, (wB fun b o => if b < 2 then 1 else if b = 2 then 2 ^ 53 else if b = 3 then o else 0), by w_args,
    differ_ne (q := ⟨6, 0⟩) (by decide +kernel)⟩

/-- `cd_apply_3d_cuda::diffusion_v1_res` and `celldiffusionv1res3d` sum in different orders: on one cell, with `f` equal to `2^53` and the other two
terms equal to 1, the residuals in 53 bit arithmetic differ. -/
theorem C49_v1_res_3d_false : ∃ (alpha beta : B64) (dx : Nat → B64) (a u f f0 f1 f2 res : Ptr) (m : Mem B64),
    F.Args m [F.cell3d a 0 0 0 0 0 0 0, F.cell3d u 0 0 0 0 0 0 0, F.cell3d f 0 0 0 0 0 0 0, F.face3d0 f0 0 0 0 0 0 0 0, F.face3d1 f1 0 0 0 0 0 0 0, F.face3d2 f2 0 0 0 0 0 0 0]
      [F.cell3d res 0 0 0 0 0 0 0] ∧
    ∃ m1 m2, Cuda.diffusionV1Res3d 0 0 0 0 0 0 alpha beta dx 0 a 0 u 0 f f0 f1 f2 0 res (fun _ => seqBackend) m = .ok m1 ∧ F.celldiffusionv1res3d 0 0 0 0 0 0 alpha beta dx 0 a 0 u 0 f f0 f1 f2 0 res m = .ok m2 ∧ m1 ≠ m2 :=
  ⟨1, 1, fun _ => 1, ⟨0, 0⟩, ⟨1, 0⟩, ⟨2, 0⟩, ⟨3, 0⟩, ⟨4, 0⟩, ⟨5, 0⟩, ⟨6, 0⟩, (wB fun b o => if b < 2 then 1 else if b = 2 then 2 ^ 53 else if b = 3 then o else 0), by w_args,
    differ_ne (q := ⟨6, 0⟩) (by decide +kernel)⟩

/-- `cd_apply_3d_cuda::diffusion_v2_res` and `celldiffusionv2res3d` sum in different orders: on one cell, with `f` equal to `2^53` and the other two
terms equal to 1, the residuals in 53 bit arithmetic differ. -/
theorem C49_v2_res_3d_false : ∃ (alpha beta : B64) (dx : Nat → B64) (u f f0 f1 f2 res : Ptr) (m : Mem B64),
    F.Args m [F.cell3d u 0 0 0 0 0 0 0, F.cell3d f 0 0 0 0 0 0 0, F.face3d0 f0 0 0 0 0 0 0 0, F.face3d1 f1 0 0 0 0 0 0 0, F.face3d2 f2 0 0 0 0 0 0 0]
      [F.cell3d res 0 0 0 0 0 0 0] ∧
    ∃ m1 m2, Cuda.diffusionV2Res3d 0 0 0 0 0 0 alpha beta dx 0 u 0 f f0 f1 f2 0 res (fun _ => seqBackend) m = .ok m1 ∧ F.celldiffusionv2res3d 0 0 0 0 0 0 alpha beta dx 0 u 0 f f0 f1 f2 0 res m = .ok m2 ∧ m1 ≠ m2 :=
  ⟨1, 1, fun _ => 1, ⟨1, 0⟩, ⟨2, 0⟩, ⟨3, 0⟩, ⟨4, 0⟩, ⟨5, 0⟩, ⟨6, 0⟩, (wB fun b o => if b < 2 then 1 else if b = 2 then 2 ^ 53 else if b = 3 then o else 0), by w_args,
    differ_ne (q := ⟨6, 0⟩) (by decide +kernel)⟩

end Verif
