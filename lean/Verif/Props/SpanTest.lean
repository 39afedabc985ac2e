import Verif.Lemmas.SpanTest

/-
C95: the span test kernels.
-/

namespace Verif
open Spec

variable {T : Type} [Zero T]

theorem dimNe : (Dim.J == Dim.I) = false ∧ (Dim.I == Dim.J) = false ∧ (Dim.K == Dim.I) = false ∧ (Dim.I == Dim.K) = false ∧ (Dim.K == Dim.J) = false ∧
    (Dim.J == Dim.K) = false := by decide

theorem stride_iff {lo hi s i : Int} (hs : 1 ≤ s) : IsPoint ⟨lo, hi + 1, s⟩ i ↔ F.OnStride lo hi s i := by
  unfold IsPoint InRange F.OnStride
  dsimp only
  constructor
  · rintro ⟨⟨h1, h2⟩, k, hk⟩
    have : 0 ≤ k := by
      by_contra hn
      have : s * k ≤ s * (-1) := Int.mul_le_mul_of_nonneg_left (by omega) (by omega)
      omega
    exact ⟨h1, by omega, k.toNat, by rw [Int.toNat_of_nonneg this]; omega⟩
  · rintro ⟨h1, h2, k, hk⟩
    exact ⟨⟨h1, by omega⟩, k, by omega⟩

section
variable [Mul T]

/-- `md_device_span_cuda::stride` in one dimension: every `is`-th element gets `beta` times the element of `u` with the same index, whatever the
ghost widths and the schedule; nothing else changes. -/
theorem C95_stride_1d {i0 i1 is ugcw rgcw : Int} {beta : T} {dx : Nat → T} {u res : Ptr} {β : Nat → Backend} {m : Mem T}
    (hβ : ∀ n, ValidBackend (β n)) (hi : i0 ≤ i1) (hs : 1 ≤ is) (hfit : i1 - i0 + is ≤ 2147483647) (hu : 0 ≤ ugcw) (hr : 0 ≤ rgcw)
    (h : F.Args m [F.cell1d u i0 i1 ugcw] [F.cell1d res i0 i1 rgcw]) :
    ∃ m', Cuda.spanStride1d i0 i1 is beta dx ugcw u rgcw res β m = .ok m' ∧
      F.Sets (F.cell1d res i0 i1 rgcw) (fun c => ∃ i, c = [i] ∧ F.OnStride i0 i1 is i) (fun c => beta * F.rd m (F.cell1d u i0 i1 ugcw) c) m m' := by
  have ku := h.ok (F.cell1d u i0 i1 ugcw) (by simp)
  have kr := h.ok (F.cell1d res i0 i1 rgcw) (by simp)
  have Iu := ku.int
  have Ir := kr.int
  simp only [F.cell1d, List.mem_cons, List.not_mem_nil, or_false, forall_eq, InInt] at Iu Ir
  have mkI := mkBS_ok (d := .I) (lo := i0) (hi := i1) (s := is) (by list_omega)
  have spu : makeSpanOffset u ugcw [(.I, ⟨i0, i1 + 1, is⟩)] = .ok (sCell1 u i0 i1 ugcw) := makeSpanOffset_ok (by simp) (by list_omega)
  have spr : makeSpanOffset res rgcw [(.I, ⟨i0, i1 + 1, is⟩)] = .ok (sCell1 res i0 i1 rgcw) := makeSpanOffset_ok (by simp) (by list_omega)
  have Au : ArrOK m (sCell1 u i0 i1 ugcw) := by arr_ok ku
  have Ar : ArrOK m (sCell1 res i0 i1 rgcw) := by arr_ok kr
  have P : Apart (sCell1 res i0 i1 rgcw) (sCell1 u i0 i1 ugcw) := by apart_ok (h.apart _ (by simp) _ (by simp))
  have rq : ∀ {t : Ptr} {g : Int}, 0 ≤ g → ReqOK (sCell1 t i0 i1 g).geo [(.I, ⟨i0, i1 + 1, is⟩)] := fun hg => {
    ne := by simp
    nodup := by simp
    nonempty := by list_omega
    stride := by simpa using hs
    inside := by list_omega
    fit := by list_omega
    fit' := by simp [sCell1, lengths]; omega
    lead := by simp [sCell1] }
  obtain ⟨m', c, x⟩ := assign_left (β := β 0) (hβ 0) (by unfold DomInt; list_omega) (scaleOK (t := beta) Ar Au P (rq hr) rfl (rq hu) rfl)
  refine ⟨m', ?_, x.sets farr_cell1 (fun p hp => inside_full Ar.geo (rq hr) rfl hp) (fun p hp => ⟨p .I, rfl, (stride_iff hs).1 (hp _ List.mem_cons_self)⟩) ?_⟩
  · unfold Cuda.spanStride1d
    exact bind_step mkI <| bind_step spu <| bind_step spr <| bind_step c rfl
  · rintro _ ⟨i, rfl, hi⟩
    refine ⟨pt1 i, ?_, rfl, ?_⟩
    · simpa [InDom, pt1] using (stride_iff hs).2 hi
    · simp only [nmul_def, Span.e, denT, accCell, arith, okOr, Val.first, cell_cell1]
      rfl

example : ∃ m', Cuda.spanStride1d 3 8 2 (5 : Rat) exDx 2 ⟨0, 0⟩ 3 ⟨1, 0⟩ (fun _ => revBackend) exRat = .ok m' ∧
    F.Sets (F.cell1d ⟨1, 0⟩ 3 8 3) (fun c => ∃ i, c = [i] ∧ F.OnStride 3 8 2 i) (fun c => 5 * F.rd exRat (F.cell1d ⟨0, 0⟩ 3 8 2) c) exRat m' :=
  C95_stride_1d (fun _ => revBackend_ok) (by decide) (by decide) (by decide) (by decide) (by decide) (by ex_args)

/-- `md_device_span_cuda::stride` in two dimensions: `u` is stored with `j` fastest, `res` with `i` fastest, and the strides of the directions
differ; element (i, j) of `res` gets `beta` times element (i, j) of `u` at the points of the strided box, nothing else changes. -/
theorem C95_stride_2d {i0 i1 is j0 j1 js ugcw rgcw : Int} {beta : T} {dx : Nat → T} {u res : Ptr} {β : Nat → Backend} {m : Mem T}
    (hβ : ∀ n, ValidBackend (β n)) (hi : i0 ≤ i1) (hj : j0 ≤ j1) (his : 1 ≤ is) (hjs : 1 ≤ js) (hfi : i1 - i0 + is ≤ 2147483647)
    (hfj : j1 - j0 + js ≤ 2147483647) (hwu : (j1 - j0 + 1 + 2 * ugcw) * is ≤ 2147483647) (hwr : (i1 - i0 + 1 + 2 * rgcw) * js ≤ 2147483647)
    (hu : 0 ≤ ugcw) (hr : 0 ≤ rgcw) (h : F.Args m [F.cell2d u j0 i0 j1 i1 ugcw] [F.cell2d res i0 j0 i1 j1 rgcw]) :
    ∃ m', Cuda.spanStride2d i0 i1 is j0 j1 js beta dx ugcw u rgcw res β m = .ok m' ∧
      F.Sets (F.cell2d res i0 j0 i1 j1 rgcw) (fun c => ∃ i j, c = [i, j] ∧ F.OnStride i0 i1 is i ∧ F.OnStride j0 j1 js j)
        (fun c => beta * F.rd m (F.cell2d u j0 i0 j1 i1 ugcw) c.reverse) m m' := by
  have ku := h.ok (F.cell2d u j0 i0 j1 i1 ugcw) (by simp)
  have kr := h.ok (F.cell2d res i0 j0 i1 j1 rgcw) (by simp)
  have Iu := ku.int
  have Ir := kr.int
  simp only [F.cell2d, List.mem_cons, List.not_mem_nil, or_false, forall_eq_or_imp, forall_eq, InInt] at Iu Ir
  have mkI := mkBS_ok (d := .I) (lo := i0) (hi := i1) (s := is) (by list_omega)
  have mkJ := mkBS_ok (d := .J) (lo := j0) (hi := j1) (s := js) (by list_omega)
  have spu : makeSpanOffset u ugcw [(.I, ⟨i0, i1 + 1, is⟩), (.J, ⟨j0, j1 + 1, js⟩)] = .ok (tCell2 u i0 j0 i1 j1 ugcw) :=
    makeSpanOffset_ok (by simp) (by list_omega)
  have spr : makeSpanOffset res rgcw [(.J, ⟨j0, j1 + 1, js⟩), (.I, ⟨i0, i1 + 1, is⟩)] = .ok (sCell2 res i0 j0 i1 j1 rgcw) :=
    makeSpanOffset_ok (by simp) (by list_omega)
  have Au : ArrOK m (tCell2 u i0 j0 i1 j1 ugcw) := arrOK_farr (by rw [farr_tcell2]; exact ku) (by simp [tCell2]) (by simp [tCell2])
    (by simp [tCell2]; omega)
  have Ar : ArrOK m (sCell2 res i0 j0 i1 j1 rgcw) := by arr_ok kr
  have P : Apart (sCell2 res i0 j0 i1 j1 rgcw) (tCell2 u i0 j0 i1 j1 ugcw) := apart_farr (by
    rw [farr_tcell2, farr_cell2]; exact h.apart _ (by simp) _ (by simp))
  have rqr : ReqOK (sCell2 res i0 j0 i1 j1 rgcw).geo [(.J, ⟨j0, j1 + 1, js⟩), (.I, ⟨i0, i1 + 1, is⟩)] := {
    ne := by simp
    nodup := by simp
    nonempty := by list_omega
    stride := by simp; omega
    inside := by list_omega
    fit := by list_omega
    fit' := by
      have e : i1 + 1 + rgcw - (i0 - rgcw) = i1 - i0 + 1 + 2 * rgcw := by ring
      simp [sCell2, lengths, List.idxOf_cons, dimNe, e]; omega
    lead := by simp [sCell2] }
  have rqu : ReqOK (tCell2 u i0 j0 i1 j1 ugcw).geo [(.J, ⟨j0, j1 + 1, js⟩), (.I, ⟨i0, i1 + 1, is⟩)] := {
    ne := by simp
    nodup := by simp
    nonempty := by list_omega
    stride := by simp; omega
    inside := by simp [tCell2]; omega
    fit := by list_omega
    fit' := by
      have e : j1 + 1 + ugcw - (j0 - ugcw) = j1 - j0 + 1 + 2 * ugcw := by ring
      simp [tCell2, lengths, List.idxOf_cons, dimNe, e]; omega
    lead := by simp [tCell2]; decide }
  obtain ⟨m', c, x⟩ := assign_left (β := β 0) (hβ 0) (by unfold DomInt; list_omega) (scaleOK (t := beta) Ar Au P rqr rfl rqu rfl)
  refine ⟨m', ?_, x.sets farr_cell2 (fun p hp => inside_full Ar.geo rqr rfl hp) (fun p hp => ⟨p .I, p .J, rfl,
    (stride_iff his).1 (hp _ (List.mem_cons_of_mem _ List.mem_cons_self)), (stride_iff hjs).1 (hp _ List.mem_cons_self)⟩) ?_⟩
  · unfold Cuda.spanStride2d
    exact bind_step mkI <| bind_step mkJ <| bind_step spu <| bind_step spr <| bind_step c rfl
  · rintro _ ⟨i, j, rfl, hi, hj⟩
    refine ⟨pt2 i j, ?_, rfl, ?_⟩
    · simpa [InDom, pt2] using ⟨(stride_iff hjs).2 hj, (stride_iff his).2 hi⟩
    · simp only [nmul_def, Span.e, denT, accCell, arith, okOr, Val.first, cell_tcell2]
      rfl

example : ∃ m', Cuda.spanStride2d 3 8 2 4 9 3 (5 : Rat) exDx 2 ⟨0, 0⟩ 3 ⟨1, 0⟩ (fun _ => revBackend) exRat = .ok m' ∧
    F.Sets (F.cell2d ⟨1, 0⟩ 3 4 8 9 3) (fun c => ∃ i j, c = [i, j] ∧ F.OnStride 3 8 2 i ∧ F.OnStride 4 9 3 j)
      (fun c => 5 * F.rd exRat (F.cell2d ⟨0, 0⟩ 4 3 9 8 2) c.reverse) exRat m' :=
  C95_stride_2d (fun _ => revBackend_ok) (by decide) (by decide) (by decide) (by decide) (by decide) (by decide) (by decide) (by decide) (by decide) (by decide)
    (by ex_args)

/-- `md_device_span_cuda::stride` in three dimensions: `u` is stored with `k` fastest, `res` with `i` fastest; element (i, j, k) of `res` gets
`beta` times element (i, j, k) of `u` at the points of the strided box, nothing else changes. -/
theorem C95_stride_3d {i0 i1 is j0 j1 js k0 k1 ks ugcw rgcw : Int} {beta : T} {dx : Nat → T} {u res : Ptr} {β : Nat → Backend} {m : Mem T}
    (hβ : ∀ n, ValidBackend (β n)) (hi : i0 ≤ i1) (hj : j0 ≤ j1) (hk : k0 ≤ k1) (his : 1 ≤ is) (hjs : 1 ≤ js) (hks : 1 ≤ ks)
    (hfi : i1 - i0 + is ≤ 2147483647) (hfj : j1 - j0 + js ≤ 2147483647) (hfk : k1 - k0 + ks ≤ 2147483647)
    (hwu : (j1 - j0 + 1 + 2 * ugcw) * (k1 - k0 + 1 + 2 * ugcw) * is ≤ 2147483647) (hwu' : (k1 - k0 + 1 + 2 * ugcw) * js ≤ 2147483647)
    (hwr : (j1 - j0 + 1 + 2 * rgcw) * (i1 - i0 + 1 + 2 * rgcw) * ks ≤ 2147483647) (hwr' : (i1 - i0 + 1 + 2 * rgcw) * js ≤ 2147483647)
    (hu : 0 ≤ ugcw) (hr : 0 ≤ rgcw) (h : F.Args m [F.cell3d u k0 j0 i0 k1 j1 i1 ugcw] [F.cell3d res i0 j0 k0 i1 j1 k1 rgcw]) :
    ∃ m', Cuda.spanStride3d i0 i1 is j0 j1 js k0 k1 ks beta dx ugcw u rgcw res β m = .ok m' ∧
      F.Sets (F.cell3d res i0 j0 k0 i1 j1 k1 rgcw)
        (fun c => ∃ i j k, c = [i, j, k] ∧ F.OnStride i0 i1 is i ∧ F.OnStride j0 j1 js j ∧ F.OnStride k0 k1 ks k)
        (fun c => beta * F.rd m (F.cell3d u k0 j0 i0 k1 j1 i1 ugcw) c.reverse) m m' := by
  have ku := h.ok (F.cell3d u k0 j0 i0 k1 j1 i1 ugcw) (by simp)
  have kr := h.ok (F.cell3d res i0 j0 k0 i1 j1 k1 rgcw) (by simp)
  have Iu := ku.int
  have Ir := kr.int
  simp only [F.cell3d, List.mem_cons, List.not_mem_nil, or_false, forall_eq_or_imp, forall_eq, InInt] at Iu Ir
  have mkI := mkBS_ok (d := .I) (lo := i0) (hi := i1) (s := is) (by list_omega)
  have mkJ := mkBS_ok (d := .J) (lo := j0) (hi := j1) (s := js) (by list_omega)
  have mkK := mkBS_ok (d := .K) (lo := k0) (hi := k1) (s := ks) (by list_omega)
  have spu : makeSpanOffset u ugcw [(.I, ⟨i0, i1 + 1, is⟩), (.J, ⟨j0, j1 + 1, js⟩), (.K, ⟨k0, k1 + 1, ks⟩)] = .ok (tCell3 u i0 j0 k0 i1 j1 k1 ugcw) :=
    makeSpanOffset_ok (by simp) (by list_omega)
  have spr : makeSpanOffset res rgcw [(.K, ⟨k0, k1 + 1, ks⟩), (.J, ⟨j0, j1 + 1, js⟩), (.I, ⟨i0, i1 + 1, is⟩)] = .ok (sCell3 res i0 j0 k0 i1 j1 k1 rgcw) :=
    makeSpanOffset_ok (by simp) (by list_omega)
  have Au : ArrOK m (tCell3 u i0 j0 k0 i1 j1 k1 ugcw) := arrOK_farr (by rw [farr_tcell3]; exact ku) (by simp [tCell3]) (by simp [tCell3])
    (by simp [tCell3]; omega)
  have Ar : ArrOK m (sCell3 res i0 j0 k0 i1 j1 k1 rgcw) := by arr_ok kr
  have P : Apart (sCell3 res i0 j0 k0 i1 j1 k1 rgcw) (tCell3 u i0 j0 k0 i1 j1 k1 ugcw) := apart_farr (by
    rw [farr_tcell3, farr_cell3]; exact h.apart _ (by simp) _ (by simp))
  have rqr : ReqOK (sCell3 res i0 j0 k0 i1 j1 k1 rgcw).geo [(.K, ⟨k0, k1 + 1, ks⟩), (.J, ⟨j0, j1 + 1, js⟩), (.I, ⟨i0, i1 + 1, is⟩)] := {
    ne := by simp
    nodup := by simp
    nonempty := by list_omega
    stride := by simp; omega
    inside := by list_omega
    fit := by list_omega
    fit' := by
      have e : i1 + 1 + rgcw - (i0 - rgcw) = i1 - i0 + 1 + 2 * rgcw := by ring
      have e' : j1 + 1 + rgcw - (j0 - rgcw) = j1 - j0 + 1 + 2 * rgcw := by ring
      simp [sCell3, lengths, List.idxOf_cons, dimNe, e, e']; omega
    lead := by simp [sCell3] }
  have rqu : ReqOK (tCell3 u i0 j0 k0 i1 j1 k1 ugcw).geo [(.K, ⟨k0, k1 + 1, ks⟩), (.J, ⟨j0, j1 + 1, js⟩), (.I, ⟨i0, i1 + 1, is⟩)] := {
    ne := by simp
    nodup := by simp
    nonempty := by list_omega
    stride := by simp; omega
    inside := by simp [tCell3]; omega
    fit := by list_omega
    fit' := by
      have e : k1 + 1 + ugcw - (k0 - ugcw) = k1 - k0 + 1 + 2 * ugcw := by ring
      have e' : j1 + 1 + ugcw - (j0 - ugcw) = j1 - j0 + 1 + 2 * ugcw := by ring
      simp [tCell3, lengths, List.idxOf_cons, dimNe, e, e']; omega
    lead := by simp [tCell3]; decide }
  obtain ⟨m', c, x⟩ := assign_left (β := β 0) (hβ 0) (by unfold DomInt; list_omega) (scaleOK (t := beta) Ar Au P rqr rfl rqu rfl)
  refine ⟨m', ?_, x.sets farr_cell3 (fun p hp => inside_full Ar.geo rqr rfl hp) (fun p hp => ⟨p .I, p .J, p .K, rfl,
    (stride_iff his).1 (hp _ (List.mem_cons_of_mem _ (List.mem_cons_of_mem _ List.mem_cons_self))), (stride_iff hjs).1 (hp _ (List.mem_cons_of_mem _ List.mem_cons_self)), (stride_iff hks).1 (hp _ List.mem_cons_self)⟩) ?_⟩
  · unfold Cuda.spanStride3d
    exact bind_step mkI <| bind_step mkJ <| bind_step mkK <| bind_step spu <| bind_step spr <| bind_step c rfl
  · rintro _ ⟨i, j, k, rfl, hi, hj, hk⟩
    refine ⟨pt3 i j k, ?_, rfl, ?_⟩
    · simpa [InDom, pt3] using ⟨(stride_iff hks).2 hk, (stride_iff hjs).2 hj, (stride_iff his).2 hi⟩
    · simp only [nmul_def, Span.e, denT, accCell, arith, okOr, Val.first, cell_tcell3]
      rfl

example : ∃ m', Cuda.spanStride3d 3 5 2 4 5 3 7 10 2 (5 : Rat) exDx 1 ⟨0, 0⟩ 2 ⟨1, 0⟩ (fun _ => revBackend) exRat = .ok m' ∧
    F.Sets (F.cell3d ⟨1, 0⟩ 3 4 7 5 5 10 2)
      (fun c => ∃ i j k, c = [i, j, k] ∧ F.OnStride 3 5 2 i ∧ F.OnStride 4 5 3 j ∧ F.OnStride 7 10 2 k)
      (fun c => 5 * F.rd exRat (F.cell3d ⟨0, 0⟩ 7 4 3 10 5 5 1) c.reverse) exRat m' :=
  C95_stride_3d (fun _ => revBackend_ok) (by decide) (by decide) (by decide) (by decide) (by decide) (by decide) (by decide) (by decide) (by decide) (by decide)
    (by decide) (by decide) (by decide) (by decide) (by decide) (by ex_args)

end

section
variable [Add T] [Sub T] [Mul T] [Div T] [OfNat T 2] [OfNat T 3] [OfNat T 10]

/-- `md_device_span_cuda::init` in one dimension: twice the sum of the lower and the upper difference quotient, divided by `u + 10`, at every cell of
the box; nothing else changes, and the pair read afterwards exists. -/
theorem C95_init_1d {i0 i1 ugcw rgcw : Int} {beta : T} {dx : Nat → T} {u res : Ptr} {β : Nat → Backend} {m : Mem T}
    (hβ : ∀ n, ValidBackend (β n)) (hi : i0 ≤ i1) (hu : 1 ≤ ugcw) (hr : 0 ≤ rgcw) (h : F.Args m [F.cell1d u i0 i1 ugcw] [F.cell1d res i0 i1 rgcw]) :
    ∃ m', Cuda.spanInit1d i0 i1 beta dx ugcw u rgcw res β m = .ok m' ∧
      F.Sets (F.cell1d res i0 i1 rgcw) (fun c => ∃ i, c = [i] ∧ i0 ≤ i ∧ i ≤ i1) (fun c =>
        2 * ((F.rd m (F.cell1d u i0 i1 ugcw) c - F.rd m (F.cell1d u i0 i1 ugcw) (c.map (· - 1))) / dx 0 +
          (F.rd m (F.cell1d u i0 i1 ugcw) (c.map (· + 1)) - F.rd m (F.cell1d u i0 i1 ugcw) c) / dx 0) / (F.rd m (F.cell1d u i0 i1 ugcw) c + 10)) m m' := by
  have ku := h.ok (F.cell1d u i0 i1 ugcw) (by simp)
  have kr := h.ok (F.cell1d res i0 i1 rgcw) (by simp)
  have Iu := ku.int
  have Ir := kr.int
  simp only [F.cell1d, List.mem_cons, List.not_mem_nil, or_false, forall_eq, InInt] at Iu Ir
  have mkI := mkB_ok (d := .I) (lo := i0) (hi := i1) (by list_omega)
  have spu : makeSpanOffset u ugcw [(.I, ⟨i0, i1 + 1, 1⟩)] = .ok (sCell1 u i0 i1 ugcw) := makeSpanOffset_ok (by simp) (by list_omega)
  have spr : makeSpanOffset res rgcw [(.I, ⟨i0, i1 + 1, 1⟩)] = .ok (sCell1 res i0 i1 rgcw) := makeSpanOffset_ok (by simp) (by list_omega)
  have Au : ArrOK m (sCell1 u i0 i1 ugcw) := by arr_ok ku
  have Ar : ArrOK m (sCell1 res i0 i1 rgcw) := by arr_ok kr
  have P : Apart (sCell1 res i0 i1 rgcw) (sCell1 u i0 i1 ugcw) := by apart_ok (h.apart _ (by simp) _ (by simp))
  have hD : UnitDom [(Dim.I, (⟨i0, i1 + 1, 1⟩ : Bounds))] := by unit_dom
  have hw : Within (sCell1 res i0 i1 rgcw).geo [(Dim.I, (⟨i0, i1 + 1, 1⟩ : Bounds))] := by within
  obtain ⟨m', c, x⟩ := assign_left (β := β 0) (hβ 0) (hw.int Ar.geo hD) (stmtOK_of
    (e := .zip (arith (· / ·)) (.right (arith (· * ·)) (2 : T) (.zip (arith (· + ·)) ((sCell1 u i0 i1 ugcw).grad .I (dx 0) down) ((sCell1 u i0 i1 ugcw).grad .I (dx 0))))
      (.left (arith (· + ·)) ((sCell1 u i0 i1 ugcw).e T) (10 : T))) hD Ar hw
    (by operands) (by fits) (by
      refine .zip (.right (.zip ?_ ?_ opShape_arith_num) opShape_arith_num) (.left .acc opShape_arith_num) opShape_arith_num <;>
      exact .right .stencil opShape_grad))
  have hst : ExprOK m'.ints [(Dim.I, (⟨i0, i1 + 1, 1⟩ : Bounds))] (.right (arith (· * ·)) (3 : T) (.stencil 1 .I (sCell1 u i0 i1 ugcw)) : Expr T) :=
    exprOK_of hD (by intro s hs; simp only [arrays, List.mem_singleton] at hs; subst hs; exact Au.geo) (by fits)
  have hn : npts [(Dim.I, (⟨i0, i1 + 1, 1⟩ : Bounds))] ≤ 2147483647 := by
    have := ku.fits
    simp only [F.cell1d, List.map_cons, List.map_nil, List.prod_cons, List.prod_nil] at this
    simp [npts, extents, count]
    omega
  obtain ⟨it, h1, h2⟩ := C14_pointwise (hw.int Ar.geo hD) hst hn
  obtain ⟨i', h3, h4⟩ := h2 [] (by
    simp [Fwd, npts, extents, count]; omega)
  have h3 : it = i' := by injection h3
  subst h3
  obtain ⟨y, h5, h6⟩ := C14_value (m := m') (D := [(Dim.I, (⟨i0, i1 + 1, 1⟩ : Bounds))]) (p := pt [(Dim.I, (⟨i0, i1 + 1, 1⟩ : Bounds))] (net []))
    (.right .stencil opShape_arith_right) hst (by
      intro s hs; simp only [arrays, List.mem_singleton] at hs; subst hs; exact (Au.of_alloc x.alloc).alloc) (by
      simp [InDom, pt, npts, extents, net, IsPoint, InRange]; omega)
  have h7 : ∃ ab, y.asPair = .ok ab := by
    cases y with
    | num a => cases h6
    | pair a b => exact ⟨_, rfl⟩
  obtain ⟨ab, h7⟩ := h7
  refine ⟨m', ?_, x.sets farr_cell1 (fun p hp => hw.elem Ar.geo hD hp) (fun p hp => ⟨p .I, rfl, ?_⟩) ?_⟩
  · unfold Cuda.spanInit1d
    exact bind_step mkI <| bind_step spu <| bind_step spr <| bind_step (bind_step c rfl) <| bind_step h1 <| bind_step ((h4 m' rfl).trans h5) <| bind_step h7 rfl
  · have := hp _ List.mem_cons_self
    unfold IsPoint InRange at this
    dsimp only at this
    omega
  · rintro _ ⟨i, rfl, hi⟩
    refine ⟨pt1 i, ?_, rfl, ?_⟩
    · simp [InDom, pt1, IsPoint, InRange]; omega
    · simp only [Span.grad, Expr.grad, Span.e, denT, accCell, arith, gradOp, okOr, Val.first, cell_cell1, lowPt, shiftPt, down, pt1]
      have e : i + -1 + 1 = i := by omega
      simp [F.rd, shiftPt, pt1, sub_eq_add_neg, e]

example : ∃ m', Cuda.spanInit1d 3 8 (5 : Rat) exDx 1 ⟨0, 0⟩ 2 ⟨1, 0⟩ (fun _ => revBackend) exRat = .ok m' ∧
    F.Sets (F.cell1d ⟨1, 0⟩ 3 8 2) (fun c => ∃ i, c = [i] ∧ 3 ≤ i ∧ i ≤ 8) (fun c =>
      2 * ((F.rd exRat (F.cell1d ⟨0, 0⟩ 3 8 1) c - F.rd exRat (F.cell1d ⟨0, 0⟩ 3 8 1) (c.map (· - 1))) / exDx 0 +
        (F.rd exRat (F.cell1d ⟨0, 0⟩ 3 8 1) (c.map (· + 1)) - F.rd exRat (F.cell1d ⟨0, 0⟩ 3 8 1) c) / exDx 0) / (F.rd exRat (F.cell1d ⟨0, 0⟩ 3 8 1) c + 10))
      exRat m' :=
  C95_init_1d (fun _ => revBackend_ok) (by decide) (by decide) (by decide) (by ex_args)

/-- `md_device_span_cuda::init` in two dimensions: three times the sum of the upper difference quotients of `u`, which is stored with `j` fastest, at
every cell of the box of `res`, stored with `i` fastest; nothing else changes. -/
theorem C95_init_2d {i0 i1 j0 j1 ugcw rgcw : Int} {beta : T} {dx : Nat → T} {u res : Ptr} {β : Nat → Backend} {m : Mem T}
    (hβ : ∀ n, ValidBackend (β n)) (hi : i0 ≤ i1) (hj : j0 ≤ j1) (hu : 1 ≤ ugcw) (hr : 0 ≤ rgcw)
    (h : F.Args m [F.cell2d u j0 i0 j1 i1 ugcw] [F.cell2d res i0 j0 i1 j1 rgcw]) :
    ∃ m', Cuda.spanInit2d i0 i1 j0 j1 beta dx ugcw u rgcw res β m = .ok m' ∧
      (∀ i j, i0 ≤ i → i ≤ i1 → j0 ≤ j → j ≤ j1 → F.El m' (F.cell2d res i0 j0 i1 j1 rgcw) [i, j]
        (3 * ((F.rd m (F.cell2d u j0 i0 j1 i1 ugcw) [j + 1, i] - F.rd m (F.cell2d u j0 i0 j1 i1 ugcw) [j, i]) / dx 1 +
          (F.rd m (F.cell2d u j0 i0 j1 i1 ugcw) [j, i + 1] - F.rd m (F.cell2d u j0 i0 j1 i1 ugcw) [j, i]) / dx 0))) ∧
      F.Changes (F.cell2d res i0 j0 i1 j1 rgcw) (fun c => ∃ i j, c = [i, j] ∧ i0 ≤ i ∧ i ≤ i1 ∧ j0 ≤ j ∧ j ≤ j1) m m' := by
  have ku := h.ok (F.cell2d u j0 i0 j1 i1 ugcw) (by simp)
  have kr := h.ok (F.cell2d res i0 j0 i1 j1 rgcw) (by simp)
  have Iu := ku.int
  have Ir := kr.int
  simp only [F.cell2d, List.mem_cons, List.not_mem_nil, or_false, forall_eq_or_imp, forall_eq, InInt] at Iu Ir
  have mkI := mkB_ok (d := .I) (lo := i0) (hi := i1) (by list_omega)
  have mkJ := mkB_ok (d := .J) (lo := j0) (hi := j1) (by list_omega)
  have spu : makeSpanOffset u ugcw [(.I, ⟨i0, i1 + 1, 1⟩), (.J, ⟨j0, j1 + 1, 1⟩)] = .ok (tCell2 u i0 j0 i1 j1 ugcw) :=
    makeSpanOffset_ok (by simp) (by list_omega)
  have spr : makeSpanOffset res rgcw [(.J, ⟨j0, j1 + 1, 1⟩), (.I, ⟨i0, i1 + 1, 1⟩)] = .ok (sCell2 res i0 j0 i1 j1 rgcw) :=
    makeSpanOffset_ok (by simp) (by list_omega)
  have Au : ArrOK m (tCell2 u i0 j0 i1 j1 ugcw) := arrOK_farr (by rw [farr_tcell2]; exact ku) (by simp [tCell2]) (by simp [tCell2])
    (by simp [tCell2]; omega)
  have Ar : ArrOK m (sCell2 res i0 j0 i1 j1 rgcw) := by arr_ok kr
  have P : Apart (sCell2 res i0 j0 i1 j1 rgcw) (tCell2 u i0 j0 i1 j1 ugcw) := apart_farr (by
    rw [farr_tcell2, farr_cell2]; exact h.apart _ (by simp) _ (by simp))
  have hD : UnitDom [(Dim.J, (⟨j0, j1 + 1, 1⟩ : Bounds)), (Dim.I, (⟨i0, i1 + 1, 1⟩ : Bounds))] := by unit_dom
  have hw : Within (sCell2 res i0 j0 i1 j1 rgcw).geo [(Dim.J, (⟨j0, j1 + 1, 1⟩ : Bounds)), (Dim.I, (⟨i0, i1 + 1, 1⟩ : Bounds))] := by within
  obtain ⟨m', c, x⟩ := assign_left (β := β 0) (hβ 0) (hw.int Ar.geo hD) (stmtOK_of
    (e := .right (arith (· * ·)) (3 : T) (.zip (arith (· + ·)) ((tCell2 u i0 j0 i1 j1 ugcw).grad .J (dx 1)) ((tCell2 u i0 j0 i1 j1 ugcw).grad .I (dx 0)))) hD Ar hw
    (by operands) (by
      refine ⟨⟨.inl rfl, by simp, ?_, ?_⟩, .inl rfl, by simp, ?_, ?_⟩
      · simp [tCell2, extDom]; decide
      · simp [tCell2, extDom]; omega
      · simp [tCell2, extDom]; decide
      · simp [tCell2, extDom]; omega) (by
      refine .right (.zip ?_ ?_ opShape_arith_num) opShape_arith_num <;> exact .right .stencil opShape_grad))
  have key : F.Sets (F.cell2d res i0 j0 i1 j1 rgcw) (fun c => ∃ i j, c = [i, j] ∧ i0 ≤ i ∧ i ≤ i1 ∧ j0 ≤ j ∧ j ≤ j1) (fun c =>
      ((3 : T) * ((F.rd m (F.cell2d u j0 i0 j1 i1 ugcw) [c.getD 1 0 + 1, c.getD 0 0] - F.rd m (F.cell2d u j0 i0 j1 i1 ugcw) [c.getD 1 0, c.getD 0 0]) / dx 1 +
          (F.rd m (F.cell2d u j0 i0 j1 i1 ugcw) [c.getD 1 0, c.getD 0 0 + 1] - F.rd m (F.cell2d u j0 i0 j1 i1 ugcw) [c.getD 1 0, c.getD 0 0]) / dx 0))) m m' := by
    refine x.sets farr_cell2 (fun p hp => hw.elem Ar.geo hD hp) (fun p hp => ⟨p .I, p .J, rfl, ?_⟩) ?_
    · have h1 := hp _ List.mem_cons_self
      have h2 := hp _ (List.mem_cons_of_mem _ List.mem_cons_self)
      unfold IsPoint InRange at h1 h2
      dsimp only at h1 h2
      omega
    · rintro _ ⟨i, j, rfl, hi⟩
      refine ⟨pt2 i j, ?_, rfl, ?_⟩
      · simp [InDom, pt2, IsPoint, InRange]; omega
      · simp only [Span.grad, Expr.grad, denT, arith, gradOp, okOr, Val.first, cell_tcell2, lowPt, shiftPt, pt2]
        simp [F.rd, shiftPt, pt2]
  refine ⟨m', ?_, fun i j h1 h2 h3 h4 => key.at_ [i, j] ⟨i, j, rfl, h1, h2, h3, h4⟩, key.rest⟩
  unfold Cuda.spanInit2d
  exact bind_step mkI <| bind_step mkJ <| bind_step spu <| bind_step spr <| bind_step c rfl

example : ∃ m', Cuda.spanInit2d 3 5 4 8 (5 : Rat) exDx 1 ⟨0, 0⟩ 2 ⟨1, 0⟩ (fun _ => revBackend) exRat = .ok m' ∧
    (∀ i j, 3 ≤ i → i ≤ 5 → 4 ≤ j → j ≤ 8 → F.El m' (F.cell2d ⟨1, 0⟩ 3 4 5 8 2) [i, j]
      (3 * ((F.rd exRat (F.cell2d ⟨0, 0⟩ 4 3 8 5 1) [j + 1, i] - F.rd exRat (F.cell2d ⟨0, 0⟩ 4 3 8 5 1) [j, i]) / exDx 1 +
        (F.rd exRat (F.cell2d ⟨0, 0⟩ 4 3 8 5 1) [j, i + 1] - F.rd exRat (F.cell2d ⟨0, 0⟩ 4 3 8 5 1) [j, i]) / exDx 0))) ∧
    F.Changes (F.cell2d ⟨1, 0⟩ 3 4 5 8 2) (fun c => ∃ i j, c = [i, j] ∧ 3 ≤ i ∧ i ≤ 5 ∧ 4 ≤ j ∧ j ≤ 8) exRat m' :=
  C95_init_2d (fun _ => revBackend_ok) (by decide) (by decide) (by decide) (by decide) (by ex_args)

end
end Verif
