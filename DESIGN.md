# Design of the formal model of thrust-iterators

Source: `/repo` (lanl/thrust-iterators, pinned commit). Language of the model: Lean 4.33.0 with
selected Mathlib modules. Nothing is built or executed from `/repo`; the model is a hand
transcription, function by function, and every definition cites the lines it transcribes.

## 1. How the code is modelled

* **Integers.** C++ `int` is a mathematical integer plus a range check: every `+ - * / %` on `int`
  in the index code goes through a checked operation that returns the distinct outcome
  `UB.overflow` (or `UB.divZero`) instead of a value. `diff_t` (64 bit) operations are checked
  against the 64 bit range. `/` and `%` truncate towards zero (`Int.tdiv`, `Int.tmod`). The implicit
  narrowing `diff_t -> int` in `advance` is an error outcome when the value does not fit (in C++ it
  would wrap).
* **Memory.** A pointer is a block and an offset; memory is a partial function from pointers to
  values. Reading or writing an address that holds nothing is the distinct outcome `UB.oob`. Merely
  forming an out-of-range pointer is not an error in the model (in C++ it is, strictly, undefined).
* **Programs the compiler rejects**, and calls whose arguments have the wrong number of dimensions,
  are the outcome `UB.illFormed`.
* **Arrays `int[N]`** are lists of length N; loops over `i < N` are list recursions.
* **Values.** The element type is an arbitrary type and the operators carried by an expression
  are arbitrary functions, so the theorems about iteration, expressions, assignment and schedules
  hold for floating point as well. Theorems that compare two differently associated formulas
  (Fortran versus C++, conservation, extrapolation, ...) take the element type to be a field;
  rounding is not modelled there, except that C49 proves the flux and operator comparisons over arbitrary
  operations and states exactly which identity each kernel needs.
* **Parallel backend (thrust).** `copy_n`/`fill_n`/`for_each_n` over n elements is modelled by an
  arbitrary *trace*: each element is a thread with a list of steps; a trace is any list of element
  numbers in which each of 0 .. n-1 occurs once per step and nothing else occurs, and each occurrence
  performs the next step of that element. So reads and writes of an element may be interleaved with
  those of all other elements. The iterator for element k is reached by any history of `++` and
  forward `+=` that stays on the elements and nets k, chosen separately for reads and writes. A
  *backend* chooses such a schedule for every call. In `Model/Parallel` all loads of one
  computation are one step; in `Model/Steps` every single load and store is a step, and C16_loads and
  C24_loads show that this gives the same memory. For n <= 0 the backend does nothing. Thrust
  itself is trusted to be of this form.
* **Templates.** Parameter packs (storage order, request order) become lists of dimensions; a
  template instantiation is an application of a Lean function to such lists. Compile-time checks
  (`static_assert`, SFINAE) are hypotheses.
* **Kernels.** The AMR kernels in `src/cuda/*_cuda.cpp` are transcribed as programs in the modelled
  DSL. The Fortran m4 kernels are transcribed separately as loops over Fortran arrays (column-major
  with declared bounds, out-of-bounds access an error) and serve as specification.

Specifications (`Verif/Spec`) do not use model helpers: row-major position of a coordinate, k-th
coordinate of a box, index set of a strided range, storage address of a coordinate, pointwise update
of a memory, values of expressions, Fortran loops, polynomials sampled at cell centres.

## 2. Layout

* `Verif/Model/*` transcription of the C++ library; `Verif/Model/Kernels/*` of the C++ kernels.
* `Verif/Spec/*` specifications; `Verif/Spec/Fortran.lean` a small Fortran;
  `Verif/Spec/Kernels/*` the Fortran routines written in it; `Verif/Spec/Elements.lean` reading
  array elements; `Verif/Spec/Extrapolation.lean` boundary conditions and polynomials.
* `Verif/Lemmas/*` helper lemmas.
* `Verif/Props/*` the property theorems (named `Cnn_...`), with `example`s showing that the
  hypotheses are satisfiable. Names ending in `_partial` prove less than the English property; names
  ending in `_false` prove that the code violates it on a concrete (or every) input.

## 3. Properties

### C01 Linear index and N-D coordinate are mutually inverse (proved)

- Modelled: `ravel`, `unravel` (the N=1,2,3 branches and the general one with its "last" fix-up), `Model/MatrixUtils`.
- Proof: induction on the list of extents against `Spec.rowMajor`.
- Theorems (`Props/Traversal.lean`): `C01_ravel_unravel`, `C01_ravel_rowMajor`, `C01_unravel_ravel`
- Scope: ravel/unravel for every number of dimensions; the specialised N=1,2,3 branches of unravel are separate cases of the model.

### C02 Movement of a traversal iterator depends only on net distance (proved)

- Modelled: `increment`, `decrement`, `advance` of `matrix_traversal_iterator`, `Model/Traversal`.
- Proof: every reachable state is "the state at position k"; induction over the history.
- Theorems (`Props/Traversal.lean`): `C02_net_distance`, `C02_same_net`
- Scope: Histories of ++, --, +=, -= of any length that stay inside [begin, end].

### C03 Distance and equality agree with movement (proved)

- Modelled: `distance_to`, `equal`, `size`.
- Proof: from the position representation of C02.
- Theorems (`Props/Traversal.lean`): `C03_distance`, `C03_size`
- Scope: distance, equality and size for all reachable pairs of positions.

### C04 A traversal visits each coordinate of the view exactly once in row-major order (proved)

- Modelled: the loop `for (it = begin; it != end; ++it)` (`visitLoop`).
- Proof: C02 plus bijectivity of the k-th coordinate of a box.
- Theorems (`Props/Traversal.lean`): `C04_visits`, `C04_boxList`
- Scope: The loop from begin to begin+size visits boxList, which holds each coordinate once, in row-major order.

### C05 A submatrix view addresses exactly the requested elements (proved)

- Modelled: `make_submatrix_helper`, `Model/Submatrix`.
- Proof: address algebra on lists.
- Theorems (`Props/Views.lean`): `C05_submatrix`
- Scope: All boxes inside the parent, all positive steps; preconditions: products formed by the code fit an int.

### C06 A transposed view enumerates the array in the requested dimension order (proved)

- Modelled: `make_transpose`.
- Proof: permuting the terms of the address sum; the sequence is a permutation.
- Theorems (`Props/Views.lean`): `C06_transpose`, `C06_permutes`
- Scope: All permutations of the dimensions; C06_permutes: every array element is met at exactly one position.

### C07 Forward stencil walk yields each neighbour pair once (proved)

- Modelled: `stencil` and the forward stencil iterator, `Model/ForwardStencil`.
- Proof: runs and gaps; induction on the number of steps.
- Theorems (`Props/ForwardStencil.lean`): `C07_walk`, `C07_all_pairs`
- Scope: Over any begin traversal iterator (submatrix, transposed, strided) with extent at least 2 in the stencil dimension.

### C08 Forward stencil jumps agree with stepping (proved)

- Modelled: forward stencil `advance`.
- Proof: closed form of the state at position k for both ways of moving.
- Theorems (`Props/ForwardStencil.lean`): `C08_jumps_eq_steps`, `C08_commute`
- Scope: All mixes of ++, -- and forward jumps before the end.

### C09 Forward stencil obeys the random access iterator laws (partial)

- Modelled: as C07, C08.
- Proof: witnesses by evaluation of the model; general disproof for every shape; the laws for the remaining histories from the closed form.
- Theorems (`Props/ForwardStencil.lean`): `C09_end_differs_false`, `C09_dec_end_false`, `C09_backward_false`, `C09_end_always_differs`, `C09_laws_partial`
- Scope: False of the code: begin+n differs from n-fold ++begin for every shape (C09_end_always_differs), --(begin+n) and backward jumps onto the first pair of an earlier run give wrong pairs (witnesses C09_*_false). C09_laws_partial proves the laws for all other histories.

### C10 Bounds arithmetic means what it says on index sets (proved)

- Modelled: every operation of `bounds` and `dir_bounds`, `Model/Bounds`.
- Proof: membership in the index set is integer arithmetic.
- Theorems (`Props/Bounds.lean`): `C10_make`, `C10_add`, `C10_sub`, `C10_expand`, `C10_shift`, `C10_expand_bounds`, `C10_unit_stride`, `C10_lb_ub`
- Scope: Index-set meaning of every bounds operation, preconditions: results fit an int.

### C11 size() counts the points of the domain (partial)

- Modelled: `bounds::size` and the extent computed by `call_helper`.
- Proof: division lemmas; witness.
- Theorems (`Props/Bounds.lean`): `C11_iterator_extent`, `C11_size_iff`, `C11_size_false`, `C11_size_partial`
- Scope: False of the code for strides that do not divide the range (C11_size_false, C11_size_iff gives the exact condition). The iterator extent does count the points (C11_iterator_extent).

### C12 A span is addressed by coordinates, whatever its storage order (proved)

- Modelled: `make_md_span`, `call_helper`, `map_index`, `transpose_sequence`, `Model/Span`.
- Proof: look up each requested dimension in the storage order; permutation of the address sum.
- Theorems (`Props/Span.lean`): `C12_call`, `C12_every_point_once`, `C12_lock_step`, `C12_call_window`, `C12_window_first_false`
- Scope: Any storage order and request order, any positive strides; windowed (fewer bounds) calls need the missing dimension stored last (C12_window_first_false shows what happens otherwise).

### C13 Element access at() is the inverse of the storage map (proved)

- Modelled: `md_device_span::at`.
- Proof: agreement with the traversal address; injectivity of row-major positions.
- Theorems (`Props/Span.lean`): `C13_at_eq_traversal`, `C13_at_injective`, `C13_at_surjective`
- Scope: at() agrees with traversal, is injective and onto the allocation.

### C14 Lazy expressions evaluate pointwise (proved)

- Modelled: `iter_math` operators, `transform`, `zip`, gradients, shifts, dot, coarse-to-fine as one syntax tree `Expr` and one iterator tree `It`, `Model/Expr`.
- Proof: structural induction; the value is the specification `Spec` of the expression at the coordinate, over arbitrary operations.
- Theorems (`Props/Expr.lean`): `C14_pointwise`, `C14_reads`, `C14_value`, `C14_components`, `C14_operators`
- Scope: All expression trees over spans, shifts, neighbour pairs, gradients, dot products, coarse-to-fine and numbers; operations are arbitrary functions; the element may be reached by any forward history of ++ and +=. C14_value: accepted expressions on allocated arrays always have a value. C14_components and C14_operators pin down componentwise application and operand order for neighbour pairs.

### C15 Assignment writes exactly the domain (proved)

- Modelled: `assign_proxy`, `with_domain`, `with_lhs_domain`, memory, schedules; `Model/Assign`, `Model/Parallel`.
- Proof: invariant over traces: steps done so far determine the memory.
- Theorems (`Props/Assign.lean`): `C15_assign`, `C15_statements`, `C15_lhs_domain`
- Scope: Single statements, lists of statements (with_domain(...)(s1, s2, ...)) and statements over the whole left hand side; for every valid backend.

### C16 Assignment does not depend on the parallel schedule (proved)

- Modelled: as C15.
- Proof: C15 gives one result for all valid backends; single accesses (`Model/Steps`): a computation that does not depend on other cells does not load them, so around each element memory looks as if it were alone.
- Theorems (`Props/Assign.lean`, `Props/Steps.lean`): `C16_schedule`, `C16_statements`, `C16_loads`
- Scope: A backend is any interleaving of the read and write steps of all elements with any forward way of reaching each element, chosen per call. C16_loads: the same with every single load and store a step of its own, for all interleavings; nothing gets stuck, each element makes a bounded number of accesses, all finished executions leave the same memory.

### C17 Schedule dependence is possible exactly through aliasing (proved)

- Modelled: as C15.
- Proof: witness with two schedules; converse by C16.
- Theorems (`Props/Assign.lean`): `C17_aliasing`, `C17_only_aliasing`
- Scope: Concrete witness with two legal schedules; C17_only_aliasing: different results imply such aliasing.

### C18 Gradients use the right neighbours for every storage order (proved)

- Modelled: `stencil_helper`, `grad_x/y/z`.
- Proof: C07, C12 and C14.
- Theorems (`Props/Expr.lean`): `C18_up`, `C18_down`, `C18_reads`
- Scope: All storage and request orders, data, step sizes; C18_reads: only the two named cells matter.

### C19 Gradients on strided domains (partial)

- Modelled: as C18 with strides.
- Proof: witnesses; the part that holds reuses C18.
- Theorems (`Props/Expr.lean`): `C19_neighbour_false`, `C19_count_false`, `C19_partial`
- Scope: False of the code: witnesses C19_neighbour_false (neighbour taken one stride away) and C19_count_false (missing value). C19_partial: holds when the stride along the gradient axis is one, others arbitrary.

### C20 Shifts compose and translate (proved)

- Modelled: `shift_helper`, `shift_x/y/z`.
- Proof: the shifted request is a translate of the request; C12.
- Theorems (`Props/Expr.lean`): `C20_translate`, `C20_call`, `C20_add`, `C20_comm`, `C20_zero`
- Scope: Chains of shifts of any length; commutation, addition and identity as equality of the iterators produced.

### C21 Strided domains touch exactly the strided points (proved)

- Modelled: as C12, C15 with strides.
- Proof: index-set bijection; frame of C15.
- Theorems (`Props/Assign.lean`): `C21_points`, `C21_between`
- Scope: C21_points: bijection between iterator positions and strided points; C21_between: frame inside the array.

### C22 An empty domain writes nothing (partial)

- Modelled: `Assign.exec` on domains with non-positive extents.
- Proof: the size product is not positive, so the backend does nothing; witness for two negative extents.
- Theorems (`Props/Assign.lean`): `C22_empty_partial`, `C22_two_empty_false`
- Scope: False of the code for two dimensions with upper bound at least a stride below the lower one (C22_two_empty_false). C22_empty_partial: exactly one empty dimension, or one empty by less than a stride. Backends are taken to do nothing for n <= 0.

### C23 Window statements change only the named stencil entries (proved)

- Modelled: `window_iterator`, `stencil_proxy`, the functor of window statements; `Model/Window`.
- Proof: frame invariant over all interleavings of micro steps.
- Theorems (`Props/Window.lean`): `C23_frame`, `C23_kept`
- Scope: Lists of st(i) = number/array expression/stencil expression and st(i,j) = stencil pair, any window size and storage order, any valid backend, any strides.

### C24 Window statements run in program order (proved)

- Modelled: as C23, with lists of statements.
- Proof: each point owns its window; the interleaving can be sorted point by point.
- Theorems (`Props/Steps.lean`, `Props/Window.lean`): `C24_loads`, `C24_program_order`, `C24_schedule`, `C24_split`
- Scope: Each statement at each point is a sequence of micro steps interleaved arbitrarily with those of other points; bare array operands are read when used, composite ones before the first statement (as zip_iterator does). Domains whose strides divide their extent (see C26). C24_loads: the same with every single load and store a step of its own. C24_split: one call with two groups = two calls.

### C25 Arrays inside stencil expressions are matched with their own operand (partial)

- Modelled: `stencil_proxy` operators with their operand tuples.
- Proof: syntactic characterisation (`Exact`) proved sound and complete for in-place evaluation; witnesses.
- Theorems (`Props/Window.lean`): `C25_exactly`, `C25_partial`, `C25_swap_false`, `C25_clash_false`
- Scope: False of the code: C25_swap_false (a * (st(1) + b) computes b * (st(1) + a)), C25_clash_false (an array used twice). C25_exactly characterises the expressions evaluated in place; C25_partial: the statement stores the intended value for those.

### C26 Window statements over a domain cover every point (partial)

- Modelled: `with_domain` of window statements, which uses `bounds::size`.
- Proof: as C11, C24.
- Theorems (`Props/Window.lean`): `C26_false`, `C26_reached`, `C26_partial`
- Scope: False of the code for strides that do not divide the extent (C26_false). C26_reached says exactly which points are updated; C26_partial covers dividing strides (stride one in particular).

### C27 Self-update statements subtract the evaluated product (proved)

- Modelled: `self_assign_proxy`, `-=`.
- Proof: evaluation of the built expression in a ring.
- Theorems (`Props/Window.lean`): `C27_subtract`, `C27_self_update`
- Scope: Any ring, any stencil expression with arrays in order (C27_subtract), in particular st(i) * u with a shifted or plain array (C27_self_update); domains whose strides divide their extent; no aliasing between rhs and what is read at any point.

### C28 Coarse index is floor division (partial)

- Modelled: `coarse_index`, `Model/CoarseFine`.
- Proof: truncated versus floor division.
- Theorems (`Props/Expr.lean`): `C28_floor_partial`, `C28_int_max_false`
- Scope: Proved for every int except INT_MAX (C28_floor_partial); for INT_MAX the code overflows (C28_int_max_false).

### C29 Coarse-to-fine fill is piecewise constant injection (proved)

- Modelled: `coarse_to_fine_iterator`, `md_device_span::fine`.
- Proof: closed form of the iterator at position k; C28.
- Theorems (`Props/Assign.lean`): `C29_fine`
- Scope: Lines of fine cells along any axis, any ratio, alignment and sign; the fine domain must have one index in all other dimensions (as the kernels use it).

### C30 Stencil dot product sums coefficient times offset neighbour (partial)

- Modelled: `offset_iterator`, `dot_impl`, `dot`.
- Proof: loop invariant over the table; a run on a domain of stride 2 for the negation.
- Theorems (`Props/DotStride.lean`, `Props/Expr.lean`): `C30_strided_false`, `C30_dot_partial`
- Scope: Proved for domains with unit stride (C30_dot_partial), all window sizes, tables, storage orders, left-to-right accumulation as in the code. On a strided domain the offsets are scaled by the stride and the claim is false (C30_strided_false).

### C31 Index arithmetic does not overflow for arrays below 2^31 elements (partial)

- Modelled: all checked integer operations.
- Proof: every theorem about iteration concludes the non-error outcome; bounds on partial products.
- Theorems (`Props/Assign.lean`): `C31_unit_partial`, `C31_statement_partial`, `C31_stride_false`
- Scope: False as stated when strides are large: the code forms ub-lb+stride and rowlength*stride (C31_stride_false). C31_unit_partial: with unit strides the array size alone suffices; C31_statement_partial: any strides for which these products fit.

### C32 No access outside the arrays (proved)

- Modelled: memory with only the arrays of the statement.
- Proof: C14, C15 in the restricted memory.
- Theorems (`Props/Assign.lean`): `C32_reads`, `C32_exec`
- Scope: Statements run in a memory where only the elements of their own arrays exist (any other access is an error outcome), for every valid backend.

### C33 Diffusion and Poisson flux kernels equal the Fortran reference (proved)

- Modelled: `cdf_1d/2d/3d_cuda.cpp` (`Model/Kernels/Flux`), `celldiffusionflux*.m4` (`Spec/Kernels/Flux`).
- Proof: both programs are brought to the same list of pointwise updates; field identities.
- Theorems (`Props/Flux.lean`): `C33_1d`, `C33_poisson_1d`, `C33_2d`, `C33_poisson_2d`, `C33_3d`, `C33_poisson_3d`
- Scope: For every box, ghost width at least 1, schedule and memory in which the arguments are allocated and the outputs do not overlap the inputs, each of the six flux kernels (diffusion and Poisson, 1D/2D/3D) and its Fortran routine both terminate without error and leave the identical memory. Values range over an arbitrary field; floating point rounding is out of scope.

### C34 Residual and apply kernels equal the Fortran reference (proved)

- Modelled: `cd_apply_*_cuda.cpp` (`Model/Kernels/Apply`), `celldiffusionapply*.m4`.
- Proof: as C33.
- Theorems (`Props/Apply.lean`): `C34_v1_res_1d`, `C34_v2_res_1d`, `C34_poisson_res_1d`, `C34_v1_apply_1d`, `C34_v2_apply_1d`, `C34_poisson_apply_1d`, `C34_v1_res_2d`, `C34_v2_res_2d`, `C34_poisson_res_2d`, `C34_v1_apply_2d`, `C34_v2_apply_2d`, `C34_poisson_apply_2d`, `C34_v1_res_3d`, `C34_v2_res_3d`, `C34_poisson_res_3d`, `C34_v1_apply_3d`, `C34_v2_apply_3d`, `C34_poisson_apply_3d`
- Scope: For every box, nonnegative ghost widths, schedule and memory in which the arguments are allocated and the output does not overlap the inputs, each of the eighteen residual/operator kernels (diffusion v1/v2, Poisson; residual and apply; 1D/2D/3D) and its Fortran routine both terminate without error and leave the identical memory. Values range over an arbitrary field; floating point rounding is out of scope.

### C35 Boundary condition kernels equal the Fortran reference (partial)

- Modelled: `cd_correct_bc_*_cuda.cpp` (`Model/Kernels/Bc`), `cellsetcorrectionbc*.m4`.
- Proof: a common description of faces, edges, nodes ("sites") for both programs; concrete runs for the differences.
- Theorems (`Props/Bc.lean`): `C35_1d`, `C35_poisson_1d`, `C35_2d_partial`, `C35_poisson_2d_partial`, `C35_3d_partial`, `C35_poisson_3d_partial`, `C35_corner_2d`, `C35_homogenous_2d_partial`, `C35_2d_segment_false`, `C35_poisson_2d_segment_false`, `C35_poisson_3d_segment_false`, `C35_3d_edge_false`, `C35_3d_missed_false`, `C35_homogenous_2d_false`, `C35_homogenous_2d_order_false`
- Scope: 1D in full (C35_1d, C35_poisson_1d), corner routine in full (C35_corner_2d). 2D, 3D and the homogeneous routine: proved for every face, type, boundary type, order, schedule and data when the segment lies along the box (2D faces, 3D Poisson faces, 3D edges), respectively meets it (3D diffusion faces, where both programs clip), and the order of the homogeneous routine is 1..4. Outside these hypotheses the programs do differ, shown by concrete runs: unclipped Fortran segments (C35_2d_segment_false, C35_poisson_2d_segment_false, C35_poisson_3d_segment_false, C35_3d_edge_false), a segment missing the box along both axes (C35_3d_missed_false), order 0 and order 5 of the homogeneous routine (C35_homogenous_2d_false, C35_homogenous_2d_order_false). Any field; rounding out of scope.

### C36 Stencil coefficient kernels equal the Fortran reference (proved)

- Modelled: `cd_stencil_*_cuda.cpp` (`Model/Kernels/Stencil`), `celldiffusionstencilcoeffs*.m4`.
- Proof: window statements reduced by C24; as C33.
- Theorems (`Props/Stencil.lean`): `C36_offdiag_1d`, `C36_poisson_offdiag_1d`, `C36_v1diag_1d`, `C36_v2diag_1d`, `C36_poisson_diag_1d`, `C36_offdiag_2d`, `C36_poisson_offdiag_2d`, `C36_v1diag_2d`, `C36_v2diag_2d`, `C36_poisson_diag_2d`, `C36_offdiag_3d`, `C36_poisson_offdiag_3d`, `C36_v1diag_3d`, `C36_v2diag_3d`, `C36_poisson_diag_3d`, `C36_adj_diag_1d`, `C36_adj_poisson_diag_1d`, `C36_adj_cf_diag_1d`, `C36_adj_poisson_cf_diag_1d`, `C36_adj_offdiag_1d`, `C36_adj_poisson_offdiag_1d`, `C36_adj_cf_offdiag_1d`, `C36_readj_offdiag_1d`, `C36_adj_cf_bdryrhs_1d`, `C36_adj_diag_2d`, `C36_adj_poisson_diag_2d`, `C36_adj_cf_diag_2d`, `C36_adj_poisson_cf_diag_2d`, `C36_adj_offdiag_2d`, `C36_adj_poisson_offdiag_2d`, `C36_adj_cf_offdiag_2d`, `C36_readj_offdiag_2d`, `C36_adj_cf_bdryrhs_2d`, `C36_adj_diag_3d`, `C36_adj_poisson_diag_3d`, `C36_adj_cf_diag_3d`, `C36_adj_poisson_cf_diag_3d`, `C36_adj_offdiag_3d`, `C36_adj_poisson_offdiag_3d`, `C36_adj_cf_offdiag_3d`, `C36_readj_offdiag_3d`, `C36_adj_cf_bdryrhs_3d`
- Scope: All fourteen coefficient kernels (offdiag, poisson_offdiag, v1diag, v2diag, poisson_diag, the adj_* and readj_* corrections and adj_cf_bdryrhs) in 1D, 2D and 3D, against the fourteen Fortran subroutines: both terminate without error and leave the identical memory, for every direction, side, boundary type, order, schedule and data. Hypotheses: nonempty box, arguments allocated and outputs apart from inputs, nonempty layer inside the array (without which Fortran itself is out of bounds), index arithmetic in int. Values range over an arbitrary field; floating point rounding is out of scope.

### C37 Coarse-to-fine copy kernels equal the Fortran reference (proved)

- Modelled: `coarse_to_fine_cuda.cpp` (`Model/Kernels/CoarseFine`), `copycoarsetofine*.m4`.
- Proof: C29 and induction on nests of lines.
- Theorems (`Props/CoarseFine.lean`): `C37_copy_x`, `C37_copy_y`, `C37_copy_z`, `C37_copy_other`, `C37_corner`
- Scope: Axis 0, 1, 2 (C37_copy_x/y/z), any other axis (C37_copy_other, both do nothing), corner (C37_corner). Any value type. Lines of at least one fine cell; ratio at least 1; arguments do not overflow when one is added.

### C38 Matrix-free operator and assembled stencil agree (proved)

- Modelled: programs of C33, C34, C36 run one after the other.
- Proof: pointwise values from C33/C34/C36, then field arithmetic.
- Theorems (`Props/Operator.lean`): `C38_v1_1d`, `C38_v2_1d`, `C38_poisson_1d`, `C38_v1_2d`, `C38_v2_2d`, `C38_poisson_2d`, `C38_v1_3d`, `C38_v2_3d`, `C38_poisson_3d`
- Scope: 1D, 2D, 3D; variable-coefficient (v1), constant-alpha (v2) and Poisson operators: what flux + apply leave at a cell is the sum over the cell and its neighbours of the coefficients left by offdiag + diag times u. Any field (exact arithmetic), any schedule of the four kernels, all ghost widths (at least 1 for u).

### C39 The assembled off-diagonal part is symmetric (proved)

- Modelled: programs of C36.
- Proof: pointwise values.
- Theorems (`Props/Operator.lean`): `C39_1d`, `C39_poisson_1d`, `C39_2d`, `C39_poisson_2d`, `C39_3d`, `C39_poisson_3d`
- Scope: offdiag and poisson_offdiag in 1D, 2D, 3D, every direction, also when the coefficient box is larger than the cell box.

### C40 Discrete conservation (proved)

- Modelled: programs of C33 and C34.
- Proof: telescoping sums over the box.
- Theorems (`Props/Operator.lean`): `C40_poisson_1d`, `C40_diffusion_1d`, `C40_v1_1d`, `C40_v2_1d`, `C40_poisson_2d`, `C40_diffusion_2d`, `C40_v1_2d`, `C40_v2_2d`, `C40_poisson_3d`, `C40_diffusion_3d`, `C40_v1_3d`, `C40_v2_3d`
- Scope: 1D, 2D, 3D; diffusion and Poisson flux followed by the Poisson apply kernel, and the v1 and v2 apply kernels with the term without derivatives split off. Nonzero cell widths, any field.

### C41 Boundary extrapolation reproduces polynomials (proved)

- Modelled: programs of C35.
- Proof: pointwise values; Lagrange extrapolation identities in a field of characteristic zero.
- Theorems (`Props/Ghost.lean`): `C41_1d`, `C41_poisson_1d`, `C41_2d`, `C41_poisson_2d`, `C41_3d`, `C41_poisson_3d`, `C41_homogenous_2d`
- Scope: set_bc and set_poisson_bc in 1D, 2D, 3D, orders 1 and 2 (2D set_bc also order 0), all faces, and set_homogenous_bc, orders 1 to 4, after the corner copies that follow it. Any field of characteristic zero, any spacing, any schedule; every cell of the segment that lies along the box.

### C42 Host view shows the last device contents (proved)

- Modelled: `md_device_vector.hpp` as a state machine (`Model/DeviceVector`).
- Proof: induction over histories of calls.
- Theorems (`Props/DeviceVector.lean`): `C42_host_current`, `C42_no_second_copy`, `C42_after_data`, `C42_kept_pointer_false`
- Scope: All histories of calls after construction; C42_after_data drops even the discipline on earlier pointers and host stores. C42_kept_pointer_false shows that asking for the pointer before each launch is needed.

### C43 Element-wise host writes do not lose device results (partial)

- Modelled: `set_offset`.
- Proof: as C42; witness.
- Theorems (`Props/DeviceVector.lean`): `C43_general`, `C43_synced_partial`, `C43_after_host_partial`, `C43_iff`, `C43_lost_false`, `C43_table`
- Scope: False of the code: C43_lost_false. C43_iff says exactly when the device entries survive; C43_general what happens in every state; C43_synced_partial / C43_after_host_partial cover states where host and device agree; C43_table the way the tables are built.

### C44 Flux and apply kernels are idempotent and linear (proved)

- Modelled: programs of C33, C34.
- Proof: outputs do not occur among inputs; linear algebra on pointwise values.
- Theorems (`Props/Operator.lean`): `C44_flux_twice_1d`, `C44_poisson_flux_twice_1d`, `C44_v1_apply_twice_1d`, `C44_v2_apply_twice_1d`, `C44_poisson_apply_twice_1d`, `C44_v1_linear_1d`, `C44_v2_linear_1d`, `C44_poisson_linear_1d`, `C44_flux_twice_2d`, `C44_poisson_flux_twice_2d`, `C44_v1_apply_twice_2d`, `C44_v2_apply_twice_2d`, `C44_poisson_apply_twice_2d`, `C44_v1_linear_2d`, `C44_v2_linear_2d`, `C44_poisson_linear_2d`, `C44_flux_twice_3d`, `C44_poisson_flux_twice_3d`, `C44_v1_apply_twice_3d`, `C44_v2_apply_twice_3d`, `C44_poisson_apply_twice_3d`, `C44_v1_linear_3d`, `C44_v2_linear_3d`, `C44_poisson_linear_3d`
- Scope: The six flux and nine apply kernels: a second run under any schedule leaves the memory as it is (C44_*_twice_*). Linearity in u of the fluxes and of flux followed by apply (C44_*_linear_*): three memories, u in the third a combination of u in the first two, coefficients equal.

### C45 A device vector and a span made from the same bounds agree (partial)

- Modelled: constructors of `md_device_vector` and `make_md_span`.
- Proof: equality of the size products; witness.
- Theorems (`Props/DeviceVector.lean`): `C45_unit_partial`, `C45_ghost_partial`, `C45_stride_false`
- Scope: False of the code for bounds with a stride (C45_stride_false): the vector divides by the stride, make_md_span does not. Proved for unit strides, with and without ghost cells.

### C46 Neumann and Robin ghost values reproduce polynomials (partial)

- Modelled: programs of C35, boundary types 1 and 4.
- Proof: as C41; concrete runs for the failures.
- Theorems (`Props/Ghost.lean`): `C46_neumann_1d`, `C46_neumann_poisson_1d`, `C46_neumann_2d`, `C46_neumann_poisson_2d`, `C46_neumann_3d`, `C46_neumann_poisson_3d`, `C46_robin1_1d`, `C46_robin1_poisson_1d_partial`, `C46_robin1_2d`, `C46_robin1_poisson_2d_partial`, `C46_robin1_3d`, `C46_robin1_poisson_3d`, `C46_robin2_1d_partial`, `C46_robin2_poisson_1d_partial`, `C46_robin2_2d_partial`, `C46_robin2_poisson_2d_partial`, `C46_robin2_3d_partial`, `C46_robin2_poisson_3d_partial`, `C46_robin2_false`, `C46_robin_poisson_1d_false`, `C46_robin_poisson_2d_false`
- Scope: Neumann in full for the six kernels. Robin of order 1 in full for set_bc 1D/2D/3D and set_poisson_bc 3D. Robin of order 2 is false of the code when beta is not 1 (C46_robin2_false; the Fortran routines agree with the kernels) and proved for beta = 1. set_poisson_bc in 1D ignores alpha and beta (C46_robin_poisson_1d_false) and is proved exact for alpha = 2, beta = 1; in 2D it leaves the ghost cells across the second axis alone (C46_robin_poisson_2d_false) and is proved for the first axis. The Robin denominators must not vanish.

### C47 Corner and edge values continue separable sums (proved)

- Modelled: corner, edge and node branches of the programs of C35.
- Proof: as C41 with sums of one-dimensional functions.
- Theorems (`Props/Corner.lean`): `C47_2d`, `C47_poisson_2d`, `C47_3d_edge_ij`, `C47_3d_edge_ik`, `C47_3d_edge_jk`, `C47_3d_node`, `C47_poisson_3d_edge_ij`, `C47_poisson_3d_edge_ik`, `C47_poisson_3d_edge_jk`, `C47_poisson_3d_node`
- Scope: Corners in 2D, edges along each axis and nodes in 3D, for set_bc and set_poisson_bc, any schedule. In 3D edges and nodes the place is where the code puts it, at bLo of both axes for every face number; the node uses only the i and j directions.

### C48 Dot product with an offset table equals the Fortran stencil routines (partial)

- Modelled: `dot_offset_test.cpp` (`Model/Kernels/DotOffset`); the Fortran stencil routines (`Spec/Kernels/ApplyStencil`).
- Proof: unfolding of the offset rows into Fortran subscripts; one induction over the table rows, one over the loop nest; witness family for the exchanged bounds.
- Theorems (`Props/DotOffset.lean`): `C48_value_1d`, `C48_value_2d`, `C48_value_3d`, `C48_point_1d`, `C48_patch_1d`, `C48_point_2d`, `C48_patch_2d_partial`, `C48_patch_2d_false`, `C48_point_3d`, `C48_patch_3d`
- Scope: Values left by the three dot kernels (C48_value_1d/2d/3d, any value type), equality with calling the Fortran point routine at every cell (C48_point_1d/2d/3d) and with the Fortran patch routine in 1D and 3D (C48_patch_1d, C48_patch_3d). The 2D patch routine exchanges the loop bounds of its axes: on every box whose two axes differ in bounds it leaves its arrays while the kernel succeeds (C48_patch_2d_false); proved equal for boxes with the same bounds on both axes (C48_patch_2d_partial). Full statement: the 2D patch routine on every box.

### C49 Kernels and Fortran routines agree in rounded arithmetic (partial)

- Modelled: programs of C33 to C36 over any operations; `Spec/Binary64` rounds every operation to 53 bits; `Spec/Rounding` lists the laws rounding keeps.
- Proof: as C33 to C36, the point statement closed by `rfl` or by the named identity; witnesses evaluated by the kernel in `B64`; powers of two by `rnd_scale`, rounding commutes with them.
- Theorems (`Props/RoundAdjust.lean`, `Props/RoundApply.lean`, `Props/RoundBc.lean`, `Props/RoundDyadic.lean`, `Props/RoundFalse.lean`, `Props/RoundFlux.lean`, `Props/RoundStencil.lean`): `C49_adj_diag_1d`, `C49_adj_poisson_diag_1d`, `C49_adj_cf_diag_1d`, `C49_adj_poisson_cf_diag_1d`, `C49_adj_offdiag_1d`, `C49_adj_poisson_offdiag_1d`, `C49_adj_cf_offdiag_1d`, `C49_adj_diag_2d`, `C49_adj_poisson_diag_2d`, `C49_adj_cf_diag_2d`, `C49_adj_poisson_cf_diag_2d`, `C49_adj_offdiag_2d`, `C49_adj_poisson_offdiag_2d`, `C49_adj_cf_offdiag_2d`, `C49_adj_diag_3d`, `C49_adj_poisson_diag_3d`, `C49_adj_cf_diag_3d`, `C49_adj_poisson_cf_diag_3d`, `C49_adj_offdiag_3d`, `C49_adj_poisson_offdiag_3d`, `C49_adj_cf_offdiag_3d`, `C49_v1_res_1d`, `C49_v2_res_1d`, `C49_poisson_res_1d`, `C49_v1_apply_1d`, `C49_v2_apply_1d`, `C49_poisson_apply_1d`, `C49_v1_res_2d`, `C49_v2_res_2d`, `C49_poisson_res_2d`, `C49_v1_apply_2d`, `C49_v2_apply_2d`, `C49_poisson_apply_2d`, `C49_v1_res_3d`, `C49_v2_res_3d`, `C49_poisson_res_3d`, `C49_v1_apply_3d`, `C49_v2_apply_3d`, `C49_poisson_apply_3d`, `C49_v1_res_1d_false`, `C49_v2_res_1d_false`, `C49_v1_res_2d_false`, `C49_v2_res_2d_false`, `C49_v1_res_3d_false`, `C49_v2_res_3d_false`, `C49_bc_1d`, `C49_poisson_bc_1d`, `C49_bc_2d_partial`, `C49_poisson_bc_2d_partial`, `C49_bc_3d_partial`, `C49_poisson_bc_3d_partial`, `C49_corner_bc_2d`, `C49_homogenous_bc_2d_partial`, `C49_flux_1d_dyadic`, `C49_flux_2d_dyadic`, `C49_flux_3d_dyadic`, `C49_adj_diag_1d_dyadic`, `C49_adj_diag_2d_dyadic_partial`, `C49_adj_diag_3d_dyadic_partial`, `C49_adj_poisson_diag_3d_dyadic`, `C49_adj_cf_diag_1d_dyadic_partial`, `C49_adj_cf_diag_2d_dyadic_partial`, `C49_adj_cf_diag_3d_dyadic_partial`, `C49_adj_poisson_cf_diag_1d_dyadic`, `C49_adj_poisson_cf_diag_2d_dyadic`, `C49_adj_poisson_cf_diag_3d_dyadic`, `C49_adj_diag_1d_type4_false`, `C49_adj_cf_diag_1d_order1_false`, `C49_adj_cf_diag_1d_order2_false`, `C49_adj_poisson_cf_diag_1d_order1_false`, `C49_adj_poisson_cf_diag_1d_order2_false`, `C49_adj_cf_offdiag_1d_order1_false`, `C49_adj_cf_offdiag_1d_order2_false`, `C49_adj_offdiag_1d_type0_false`, `C49_adj_poisson_offdiag_1d_type0_false`, `C49_adj_diag_2d_type4_false`, `C49_adj_diag_2d_type0_false`, `C49_adj_cf_diag_2d_order1_false`, `C49_adj_cf_diag_2d_order2_false`, `C49_adj_poisson_cf_diag_2d_order1_false`, `C49_adj_poisson_cf_diag_2d_order2_false`, `C49_adj_cf_offdiag_2d_order1_false`, `C49_adj_cf_offdiag_2d_order2_false`, `C49_adj_offdiag_2d_type0_false`, `C49_adj_poisson_offdiag_2d_type0_false`, `C49_adj_diag_3d_type4_false`, `C49_adj_diag_3d_type0_false`, `C49_adj_poisson_diag_3d_type0_false`, `C49_adj_cf_diag_3d_order1_false`, `C49_adj_cf_diag_3d_order2_false`, `C49_adj_poisson_cf_diag_3d_order1_false`, `C49_adj_poisson_cf_diag_3d_order2_false`, `C49_adj_cf_offdiag_3d_order1_false`, `C49_adj_cf_offdiag_3d_order2_false`, `C49_adj_offdiag_3d_type0_false`, `C49_adj_poisson_offdiag_3d_type0_false`, `C49_bc_2d_corner_false`, `C49_bc_3d_edge_false`, `C49_bc_3d_corner_false`, `C49_poisson_bc_2d_corner_false`, `C49_poisson_bc_3d_edge_false`, `C49_poisson_bc_3d_corner_false`, `C49_flux_1d`, `C49_flux_poisson_1d`, `C49_flux_2d`, `C49_flux_poisson_2d`, `C49_flux_3d`, `C49_flux_poisson_3d`, `C49_flux_1d_false`, `C49_flux_2d_false`, `C49_flux_3d_false`, `C49_offdiag_1d`, `C49_poisson_offdiag_1d`, `C49_v1diag_1d`, `C49_v2diag_1d`, `C49_poisson_diag_1d`, `C49_offdiag_2d`, `C49_poisson_offdiag_2d`, `C49_v1diag_2d`, `C49_v2diag_2d`, `C49_poisson_diag_2d`, `C49_offdiag_3d`, `C49_poisson_offdiag_3d`, `C49_v1diag_3d`, `C49_v2diag_3d`, `C49_poisson_diag_3d`, `C49_readj_offdiag_1d`, `C49_adj_cf_bdryrhs_1d`, `C49_readj_offdiag_2d`, `C49_adj_cf_bdryrhs_2d`, `C49_readj_offdiag_3d`, `C49_adj_cf_bdryrhs_3d`
- Scope: All 24 flux, residual and operator kernels, all 42 stencil coefficient kernels and the 8 boundary condition kernels, in 1D, 2D, 3D, over any type with +, -, *, / and no laws; each theorem names the identities it needs (for the ghost cells the structure Rounding, which B64.rounding proves of 53 bit arithmetic), Poisson flux and readj_offdiag need none. C33, C34, C35 and C36 are corollaries. The full statement, the same bits in 53 bit arithmetic for every kernel, is false: C49_flux_*_false, C49_v1_res_*_false, C49_v2_res_*_false, the 30 C49_adj_*_false (adjustments at boundary type 4 or 0 and order 2, and at coarse-fine boundaries) and the 6 C49_*bc_*_false (edges and corners), because the C++ and the Fortran formulas associate differently. C49_*_dyadic: with mesh widths that are powers of two the flux, adj_diag, adj_poisson_diag, adj_cf_diag at order 2 and adj_poisson_cf_diag kernels agree in 53 bits after all. As in C35 the 2D and 3D boundary condition theorems ask for segments along the box. Fused multiply-add, overflow and subnormal numbers are outside the arithmetic.

### C50 Damped Jacobi changes all cells from the old values (partial)

- Modelled: the smoothers (`Model/Kernels/Smooth`); equation of a cell, residual, order of visits (`Spec/Smooth`).
- Proof: induction over the cells visited with the contents of `u` and the work array as state; fixed points by algebra of the residual.
- Theorems (`Props/Smooth.lean`): `C50_jacobi_1d`, `C50_fixed_1d`, `C50_jacobi_2d`, `C50_fixed_2d`, `C50_jacobi_3d`, `C50_fixed_3d`, `C50_factor_2d_false`
- Scope: C50_jacobi_1d/2d/3d in every arithmetic; C50_fixed_* over any field. Two dimensions: the factor is the single precision constant 0.8, so the new values are not those of the factor 8/10 (C50_factor_2d_false); C50_jacobi_2d is proved with the factor 13421773/16777216 the routine does use.

### C51 Gauss-Seidel sweeps solve cell by cell in loop order (partial)

- Modelled: as C50.
- Proof: one induction: contents of `u` after a list of cells = fold of single updates; the recursive description `Swept` follows from the order being asymmetric, and determines the values by induction along the order.
- Theorems (`Props/Smooth.lean`): `C51_gs_1d_partial`, `C51_fixed_1d_partial`, `C51_determined_1d`, `C51_gs_2d`, `C51_fixed_2d`, `C51_determined_2d`, `C51_gs_3d`, `C51_fixed_3d`, `C51_determined_3d`, `C51_gs_1d_false`
- Scope: 2D and 3D in full. cellgs1d declares f with the bounds of u: false when they differ (C51_gs_1d_false), proved when the lower bounds agree (C51_gs_1d_partial, C51_fixed_1d_partial). Results in every arithmetic, fixed points over any field.

### C52 Red-black sweeps update one colour, and both colours together every cell (partial)

- Modelled: as C50; `Colour` gives the chequerboard.
- Proof: as C51 with the coloured cells as list; cells of one colour do not read each other when displacements are odd.
- Theorems (`Props/Smooth.lean`): `C52_sweep_1d`, `C52_equation_1d`, `C52_both_1d`, `C52_sweep_2d_partial`, `C52_equation_2d_partial`, `C52_both_2d_partial`, `C52_sweep_3d`, `C52_equation_3d`, `C52_both_3d`, `C52_sweep_2d_false`, `C52_nine_false`
- Scope: 1D (nonnegative colour) and 3D (nonnegative colour) in full. 2D: Fortran mod(j + color, 2) is negative for negative odd rows and a cell outside the box is changed (C52_sweep_2d_false); proved when lo1 + color is not negative (C52_*_2d_partial). The nine-point routine joins cells of one colour, so its cells need not satisfy their equations (C52_nine_false).

### C53 Smoothers written out for 5, 7 and 9 points equal the general one (proved)

- Modelled: as C50.
- Proof: loop congruence over memories with the same tables; one cell by unfolding the table and associativity of sequencing.
- Theorems (`Props/SmoothUnrolled.lean`): `C53_five`, `C53_nine`, `C53_seven`
- Scope: Equality of outcomes, errors included, for every memory; the seven-point routine stores the numerator in u first, so u must not share elements with the coefficients.

### C54 Weak form of the discrete operators (proved)

- Modelled: the flux and operator kernels of C01-C12 run one after the other; spec: bilinear forms over sums in Spec/Energy.
- Proof: closed form of the result from C38-C40, then summation by parts in each direction, exchange of sums.
- Theorems (`Props/Energy.lean`): `C54_v1_1d`, `C54_v2_1d`, `C54_poisson_1d`, `C54_v1_2d`, `C54_v2_2d`, `C54_poisson_2d`, `C54_v1_3d`, `C54_v2_3d`, `C54_poisson_3d`
- Scope: For diffusion v1, v2 and Poisson in one, two and three dimensions. "Outside the box" in the hypothesis on V means every index that is not in the box.

### C55 The discrete operators are symmetric (proved)

- Modelled: as C54.
- Proof: C54 twice and symmetry of the form.
- Theorems (`Props/Energy.lean`): `C55_v1_1d`, `C55_v2_1d`, `C55_poisson_1d`, `C55_v1_2d`, `C55_v2_2d`, `C55_poisson_2d`, `C55_v1_3d`, `C55_v2_3d`, `C55_poisson_3d`
- Scope: As C54; both fields vanish outside the box.

### C56 The discrete operators are positive definite (proved)

- Modelled: as C54, over linearly ordered fields.
- Proof: the form is a sum of nonnegative terms; a zero sum makes every difference across a face zero, so the field is constant along each line, and zero at its end outside the box.
- Theorems (`Props/EnergyOrdered.lean`): `C56_v1_1d`, `C56_v2_1d`, `C56_poisson_1d`, `C56_v1_2d`, `C56_v2_2d`, `C56_poisson_2d`, `C56_v1_3d`, `C56_v2_3d`, `C56_poisson_3d`
- Scope: Over any linearly ordered field. The sign conditions are the structure F.Elliptic1/2/3, shown satisfiable beside each theorem.

### C57 The result of the operator determines the field (proved)

- Modelled: as C56.
- Proof: difference of the two fields in the form, then C56's argument.
- Theorems (`Props/EnergyOrdered.lean`): `C57_v1_1d`, `C57_v2_1d`, `C57_poisson_1d`, `C57_v1_2d`, `C57_v2_2d`, `C57_poisson_2d`, `C57_v1_3d`, `C57_v2_3d`, `C57_poisson_3d`
- Scope: As C56; the two fields agree on every index outside the box.

### C58 Discrete maximum principle (proved)

- Modelled: as C56.
- Proof: test function max(U - M, 0): the form bounds its energy from below, the sign of the result from above, so it vanishes.
- Theorems (`Props/EnergyOrdered.lean`): `C58_v1_1d`, `C58_v2_1d`, `C58_poisson_1d`, `C58_v1_2d`, `C58_v2_2d`, `C58_poisson_2d`, `C58_v1_3d`, `C58_v2_3d`, `C58_poisson_3d`
- Scope: As C56; for Poisson the bound may have either sign, for the others it is not negative.

### C59 The smoothers converge on diagonally dominant equations (partial)

- Modelled: `F.times` (repeating a call), as C50 to C52.
- Proof: the error of a cell after its update is at most the weighted mean of the errors it reads; invariant over the sweep (cells already updated have the new bound, q <= 1), then induction on the number of sweeps.
- Theorems (`Props/SmoothConv.lean`): `C59_jacobi_1d`, `C59_gs_1d_partial`, `C59_rbgs_1d`, `C59_jacobi_2d`, `C59_gs_2d`, `C59_rbgs_2d_partial`, `C59_jacobi_3d`, `C59_gs_3d`, `C59_rbgs_3d`
- Scope: Jacobi in full in 1D, 2D, 3D (2D with the single precision factor the routine uses), Gauss-Seidel in 2D and 3D, red-black in 1D and 3D (nonnegative colours of different parity). Missing, because the routines misbehave there: Gauss-Seidel 1D when f and u have different lower bounds (C51_gs_1d_false), red-black 2D when lo1 + color is negative (C52_sweep_2d_false).

### C60 What a sweep leaves unchanged is the only solution (partial)

- Modelled: as C59.
- Proof: fixed points solve the equations (C50, C51); the cell with the largest weighted difference of two solutions cannot exist unless the difference is zero.
- Theorems (`Props/SmoothConv.lean`): `C60_jacobi_1d`, `C60_gs_1d_partial`, `C60_jacobi_2d`, `C60_gs_2d`, `C60_jacobi_3d`, `C60_gs_3d`, `C60_rbgs_1d`, `C60_rbgs_2d_partial`, `C60_rbgs_3d`
- Scope: Jacobi in 1D, 2D, 3D, Gauss-Seidel in 2D and 3D and red-black Gauss-Seidel (a call for each colour) in 1D and 3D in full; Gauss-Seidel 1D when the lower bounds of f and u agree (see C51_gs_1d_false), red-black 2D when lo1 + color is not negative (see C52_sweep_2d_false).

### C61 The assembled coefficients form an M-matrix (proved)

- Modelled: programs of C36 run one after the other.
- Proof: pointwise values of C36; signs of products and quotients.
- Theorems (`Props/Assemble.lean`): `C61_v1_1d`, `C61_v2_1d`, `C61_poisson_1d`, `C61_v1_2d`, `C61_v2_2d`, `C61_poisson_2d`, `C61_v1_3d`, `C61_v2_3d`, `C61_poisson_3d`
- Scope: Diffusion v1, v2 and Poisson, one, two and three dimensions. Sign conditions as in C56 (F.Elliptic1/2/3).

### C62 Assembling and sweeping solves the equation of the operator kernels (diffusion) (partial)

- Modelled: programs of C33, C34, C36 and C50 to C52 run one after the other.
- Proof: the assembled equation at a cell is the operator of C54 (field arithmetic), dominance follows from C61, then C59.
- Theorems (`Props/AssembleSolve.lean`): `C62_jacobi_v1_1d`, `C62_gs_v1_1d_partial`, `C62_rbgs_v1_1d`, `C62_jacobi_v2_1d`, `C62_gs_v2_1d_partial`, `C62_rbgs_v2_1d`, `C62_jacobi_v1_2d`, `C62_gs_v1_2d`, `C62_rbgs_v1_2d_partial`, `C62_jacobi_v2_2d`, `C62_gs_v2_2d`, `C62_rbgs_v2_2d_partial`, `C62_jacobi_v1_3d`, `C62_gs_v1_3d`, `C62_rbgs_v1_3d`, `C62_jacobi_v2_3d`, `C62_gs_v2_3d`, `C62_rbgs_v2_3d`
- Scope: v1 and v2 with Jacobi, Gauss-Seidel and red-black Gauss-Seidel in 1D, 2D, 3D. Missing, because the routines misbehave there: Gauss-Seidel 1D when right hand side and unknowns have different ghost widths (C51_gs_1d_false), red-black 2D when j0 + color is negative (C52_sweep_2d_false). The offset table holds the cell and its neighbours in the order of the coefficients.

### C63 Convergence rate of the smoothers on the Poisson equation (partial)

- Modelled: as C62, Poisson.
- Proof: C59 with weights that fall off quadratically from the middle of the box to its faces; neighbouring weights along an axis add up to twice the weight minus two.
- Theorems (`Props/AssembleSolve.lean`): `C63_jacobi_1d`, `C63_gs_1d_partial`, `C63_rbgs_1d`, `C63_jacobi_2d`, `C63_gs_2d`, `C63_rbgs_2d_partial`, `C63_jacobi_3d`, `C63_gs_3d`, `C63_rbgs_3d`
- Scope: Jacobi, Gauss-Seidel and red-black Gauss-Seidel in 1D, 2D, 3D; the same two exceptions as C62.

### C64 The flux routines for node data compute the fluxes of the kernels (partial)

- Modelled: The node flux routines (`Spec/Kernels/Node.lean`), statement by statement.
- Proof: 1D, 2D and the Poisson routines are textually the cell routines, so C33 applies; 3D by comparing the values each loop leaves; the negations from the first element read out of bounds, and from a one-cell run.
- Theorems (`Props/Node.lean`): `C64_1d`, `C64_poisson_1d`, `C64_2d`, `C64_poisson_2d`, `C64_3d_partial`, `C64_3d_false`, `C64_cube_false`, `C64_poisson_3d`
- Scope: All routines in full except nodediffusionflux3d, which reads b1 where it means b2 (line 82): it leaves its arrays on every box that is not a cube (C64_3d_false) and computes other numbers on a cube (C64_cube_false). C64_3d_partial: it agrees on cubes where the two coefficient arrays hold the same values.

### C65 The operator routines for node data compute b f + a L u (partial)

- Modelled: The node operator routines (`Spec/Kernels/Node.lean`); `F.Filled` (`Spec/Filled.lean`) says that a memory is another one with the elements of an array in a box replaced.
- Proof: Value lemmas for the loops of the routine and for the cell routines (C34); two memories filled with equal values are equal.
- Theorems (`Props/Node.lean`): `C65_v1_1d`, `C65_v1_apply_1d`, `C65_v1_res_1d`, `C65_v2_1d`, `C65_v2_apply_1d`, `C65_v2_res_1d`, `C65_poisson_1d`, `C65_poisson_apply_1d`, `C65_poisson_res_1d`, `C65_v1_2d`, `C65_v1_apply_2d`, `C65_v1_res_2d`, `C65_v2_2d`, `C65_v2_apply_2d`, `C65_v2_res_2d`, `C65_poisson_2d`, `C65_poisson_apply_2d`, `C65_poisson_res_2d`, `C65_v1_3d`, `C65_v1_apply_3d`, `C65_v1_res_3d`, `C65_v2_3d_partial`, `C65_v2_3d_false`, `C65_v2_cube_false`, `C65_poisson_3d_partial`, `C65_poisson_3d_false`, `C65_poisson_cube_false`
- Scope: All routines in full except nodediffusionv2apply3d (line 131) and nodepoissonapply3d (line 181), which read flux1 where they mean flux2: they leave their arrays on every box that is not a cube (C65_v2_3d_false, C65_poisson_3d_false) and compute other numbers on a cube (C65_v2_cube_false, C65_poisson_cube_false). The _3d_partial theorems: they are right on cubes where the two fluxes hold the same values.

### C66 The block smoothers relax the equations of each cell (partial)

- Modelled: `Model/Kernels/BlockSmooth.lean`, statement by statement.
- Proof: Each cell is updated once from values the loops do not change; the error formula from solving the equations of the cell.
- Theorems (`Props/BlockSmooth.lean`): `C66_1x1_1d`, `C66_1x1_error_1d`, `C66_2x2_value_1d`, `C66_2x2_1d`, `C66_2x2_error_1d`, `C66_1x1_2d`, `C66_1x1_error_2d`, `C66_2x2_value_2d`, `C66_2x2_2d`, `C66_2x2_error_2d`, `C66_factor_2d_false`
- Scope: 1x1 and 2x2, 1D and 2D, in full with the factors the routines use. In two dimensions the factor is not 0.8: it is written as a single precision constant and is 13421773/2^24 (C66_factor_2d_false).

### C67 The patch right-hand-side routines add the terms of the offset table (partial)

- Modelled: `Model/Kernels/AdjustRhs.lean`; `F.RhsCall` (`Spec/AdjustRhs.lean`) describes a call.
- Proof: `F.Updates`: a command that changes exactly the listed cells by a given function of the old value, closed under loops over disjoint cells; the negation follows the first access out of bounds.
- Theorems (`Props/AdjustRhs.lean`): `C67_1d`, `C67_sum_1d`, `C67_2d_partial`, `C67_sum_2d_partial`, `C67_2d_false`
- Scope: 1D in full. In two dimensions the loops use the bounds of the other dimension: the routine leaves its arrays on every box that has not the same bounds in both dimensions (C67_2d_false); the _2d_partial theorems cover the boxes that have.

### C68 Known values next to a coarse-fine boundary move to the right hand side (proved)

- Modelled: `Model/Kernels/AdjustRhs.lean`, the local array as a function with declared bounds and arbitrary initial contents; `F.onLayer`, `F.offLayer` (`Spec/AdjustRhs.lean`).
- Proof: As C67, with the invariant that the local array is 0 away from the layer; the kernel by C36 and comparison of the values left behind.
- Theorems (`Props/AdjustRhs.lean`): `C68_1d`, `C68_1d_eqn`, `C68_kernel_1d`, `C68_2d_0`, `C68_2d_0_eqn`, `C68_kernel_2d_0`, `C68_2d_1`, `C68_2d_1_eqn`, `C68_kernel_2d_1`, `C68_3d_0`, `C68_3d_0_eqn`, `C68_kernel_3d_0`, `C68_3d_1`, `C68_3d_1_eqn`, `C68_kernel_3d_1`, `C68_3d_2`, `C68_3d_2_eqn`, `C68_kernel_3d_2`
- Scope: C68_1d, C68_2d_*, C68_3d_*: what is subtracted, for every arithmetic; _eqn: the equivalence of the equations, in exact arithmetic; C68_kernel_*: agreement with the kernels.

### C69 The coefficient routines for node data assemble what the kernels assemble (partial)

- Modelled: The node coefficient routines (`Spec/Kernels/NodeStencil.lean`), statement by statement.
- Proof: 1D and 2D are textually the cell routines without ghost layer, so C36 applies; in 3D, `Lemmas/NodeStencil.lean` proves the two texts equal outside the branches that differ; the negations from runs on boxes of four and eight cells.
- Theorems (`Props/NodeStencil.lean`): `C69_offdiag_1d`, `C69_poisson_offdiag_1d`, `C69_v1diag_1d`, `C69_v2diag_1d`, `C69_poisson_diag_1d`, `C69_offdiag_2d`, `C69_poisson_offdiag_2d`, `C69_v1diag_2d`, `C69_v2diag_2d`, `C69_poisson_diag_2d`, `C69_offdiag_3d`, `C69_poisson_offdiag_3d`, `C69_v1diag_3d`, `C69_v2diag_3d`, `C69_poisson_diag_3d`, `C69_adj_diag_1d`, `C69_adj_poisson_diag_1d`, `C69_adj_cf_diag_1d`, `C69_adj_poisson_cf_diag_1d`, `C69_adj_offdiag_1d`, `C69_adj_poisson_offdiag_1d`, `C69_adj_cf_offdiag_1d`, `C69_readj_offdiag_1d`, `C69_adj_cf_bdryrhs_1d`, `C69_adj_diag_2d_partial`, `C69_adj_poisson_diag_2d`, `C69_adj_cf_diag_2d`, `C69_adj_poisson_cf_diag_2d`, `C69_adj_offdiag_2d`, `C69_adj_poisson_offdiag_2d`, `C69_adj_cf_offdiag_2d`, `C69_readj_offdiag_2d`, `C69_adj_cf_bdryrhs_2d`, `C69_adj_diag_3d_partial`, `C69_adj_poisson_diag_3d_partial`, `C69_adj_cf_diag_3d_partial`, `C69_adj_poisson_cf_diag_3d`, `C69_adj_offdiag_3d_partial`, `C69_adj_poisson_offdiag_3d_partial`, `C69_adj_cf_offdiag_3d`, `C69_readj_offdiag_3d_partial`, `C69_adj_cf_bdryrhs_3d`, `C69_adj_diag_2d_false`, `C69_adj_diag_3d_false`, `C69_adj_poisson_diag_3d_false`, `C69_adj_cf_diag_3d_false`, `C69_adj_offdiag_3d_false`, `C69_adj_poisson_offdiag_3d_false`, `C69_readj_offdiag_3d_false`
- Scope: 1D in full, and the 35 of 42 routines without suffix. The full statement is false: seven routines carry _partial with a matching _false theorem. adj_diag 2D (kernel and routine leave the array at the upper side of a Dirichlet boundary), adj_diag and adj_poisson_diag 3D (the routine leaves its array there), adj_cf_diag 3D (third direction reads the array of the second), adj_offdiag and adj_poisson_offdiag 3D (Robin, order 2, upper side: index 1 for i), readj_offdiag 3D (third direction takes the index of the second).

### C70 The operator kernels are stable in the maximum norm (proved)

- Modelled: The flux and apply kernels, as in C57.
- Proof: Discrete maximum principle for the operator (`Elliptic*.compare` in `Lemmas/Stability.lean`, from the energy identity applied to the positive part), used with the constant E and with the parabola (i - i0 + 1)(i1 + 1 - i) as comparison functions.
- Theorems (`Props/Stability.lean`): `C70_v1_1d`, `C70_v2_1d`, `C70_poisson_1d`, `C70_v1_2d`, `C70_v2_2d`, `C70_poisson_2d`, `C70_v1_3d`, `C70_v2_3d`, `C70_poisson_3d`
- Scope: Two runs from two memories; the bound is for the exact values of the type (over any ordered field), not for rounded results. The Poisson bound is stated for every axis.

### C71 The operator kernels approximate the differential operator to second order (proved)

- Modelled: The flux and apply kernels, as in C57, over the real numbers; `Spec/Accuracy.lean` samples functions in centres of cells and faces and writes the differential operator with `deriv` of Mathlib.
- Proof: `Lemmas/Taylor.lean`: the central difference of a function is within K h^2 / 24 of its derivative (three integrations of a bound); the error of the difference quotient of phi has itself a small derivative, so the mean value theorem gives the error of the flux difference.
- Theorems (`Props/Accuracy.lean`): `C71_v1_1d`, `C71_v2_1d`, `C71_poisson_1d`, `C71_v1_2d`, `C71_v2_2d`, `C71_poisson_2d`, `C71_v1_3d`, `C71_v2_3d`, `C71_poisson_3d`
- Scope: Over the real numbers (exact arithmetic). Derivative bounds are asked for along the grid lines only.

### C72 Fields that solve the difference equations converge to the solution of the differential equation (proved)

- Modelled: As C71.
- Proof: C71 and the stability of C70, comparing the field with the samples of phi.
- Theorems (`Props/Convergence.lean`): `C72_v1_1d`, `C72_v2_1d`, `C72_poisson_1d`, `C72_v1_2d`, `C72_v2_2d`, `C72_poisson_2d`, `C72_v1_3d`, `C72_v2_3d`, `C72_poisson_3d`
- Scope: Over the real numbers (exact arithmetic). A bound on the distance, for a field that meets the equations up to t; that there is just one field that meets them exactly is C57 and C73. The ghost cells hold values within D of phi in their centres; the error the boundary condition kernels make in filling them is not part of the statement.

### C73 The equations of the operator kernels have exactly one solution (proved)

- Modelled: The flux and apply kernels, as in C57; `F.Within` (`Spec/Solve.lean`) says which elements of memory may differ.
- Proof: The operator is linear and takes only 0 to 0 (maximum principle), fields on the box form a space of finite dimension, so it is onto (`LinearMap.injective_iff_surjective`); the memory is then built element by element.
- Theorems (`Props/Solve.lean`): `C73_v1_1d`, `C73_v2_1d`, `C73_poisson_1d`, `C73_v1_2d`, `C73_v2_2d`, `C73_poisson_2d`, `C73_v1_3d`, `C73_v2_3d`, `C73_poisson_3d`
- Scope: Stated as existence and uniqueness of a memory that differs from the given one only in the box of the unknown. The unknown shares no element with the coefficients.

### C74 Adjusted rows act on boundary values as plain rows act on ghost values (partial)

- Modelled: The kernels `adj_offdiag`, diagonal, `adj_diag` in this order, on any memory; `F.Meets` and `F.Eliminates` (`Spec/Eliminate.lean`) say with polynomials along the normal what the ghost value is.
- Proof: The kernels change two entries of a row by factors (`F.Adj`), the diagonal kernels then take the sum over the changed row; the identity is the extrapolation formula solved for the ghost value. The witnesses run the kernels on a memory of ones and show a constant or linear polynomial whose rows differ.
- Theorems (`Props/Eliminate.lean`): `C74_v1_1d_partial`, `C74_v2_1d_partial`, `C74_poisson_1d_partial`, `C74_v1_2d_partial`, `C74_v2_2d_partial`, `C74_poisson_2d_partial`, `C74_v1_3d_partial`, `C74_v2_3d_partial`, `C74_poisson_3d_partial`, `C74_v2_1d_robin2_false`, `C74_poisson_1d_robin2_false`, `C74_v2_2d_robin2_false`, `C74_v2_2d_robin_dir1_false`, `C74_v2_2d_dirichlet2_false`, `C74_poisson_2d_robin2_false`, `C74_poisson_2d_robin_dir1_false`, `C74_v2_3d_robin2_false`, `C74_v2_3d_dirichlet2_false`, `C74_poisson_3d_robin2_false`, `C74_poisson_3d_dirichlet2_false`
- Scope: Proved for Dirichlet of order 1 (with dir_factor = 2), Neumann, Robin of order 1 (in 2D only in direction 0), and Dirichlet of order 2 where adj_diag does nothing (1D, and 2D for Poisson). False, with witnesses, for the rest: Robin of order 2 in every dimension, Dirichlet of order 2 in 2D (diffusion) and 3D, Robin in direction 1 of 2D.

### C75 Rows adjusted at coarse-fine boundaries act on coarse values as plain rows act on ghost values (partial)

- Modelled: The kernels `offdiag`, diagonal, `adj_cf_diag`, `adj_cf_offdiag` in this order, on any memory; `F.Bridges` (`Spec/Bridge.lean`) places the coarse cell at `-r h/2`.
- Proof: Because the off-diagonal kernel leaves `-beta b / h^2` in the ghost entry, `adj_cf_diag` adds a multiple of that entry to the diagonal; the three weights add up to 1 and reproduce polynomials of degree 2 (of degree 1 with `r = 2`). The witnesses run the kernels on a memory of ones with `r = 4`.
- Theorems (`Props/Bridge.lean`): `C75_v1_1d_partial`, `C75_v2_1d_partial`, `C75_poisson_1d_partial`, `C75_v1_2d_partial`, `C75_v2_2d_partial`, `C75_poisson_2d_partial`, `C75_v1_3d_partial`, `C75_v2_3d_partial`, `C75_poisson_3d_partial`, `C75_v2_1d_ratio4_false`, `C75_poisson_1d_ratio4_false`, `C75_v2_2d_ratio4_false`, `C75_poisson_2d_ratio4_false`, `C75_v2_3d_ratio4_false`, `C75_poisson_3d_ratio4_false`
- Scope: Order 2 for every refinement ratio (other than -1 and -3), order 1 for ratio 2. For order 1 and ratio 4 false, with witnesses in every dimension: the kernels take the weights of ratio 2 whatever the ratio.

### C76 The boundary condition kernels write only in the segment they are called for (proved)

- Modelled: The model functions of C34 and C35; `F.Changes` (`Spec/Touched.lean`) says which elements of which array may differ; the segments are sets of index lists, stated without the kernels.
- Proof: Every branch of the kernels is a loop that writes in one place for each point; `Touches` says that a computation writes only in a set and passes through sequences, branches and loops (`Lemmas/Touched.lean`). That the kernels end is C35.
- Theorems (`Props/Touched.lean`): `C76_1d`, `C76_poisson_1d`, `C76_2d`, `C76_poisson_2d`, `C76_3d`, `C76_poisson_3d`, `C76_corner_2d`, `C76_homogenous_2d`
- Scope: Over any field. The segment lies within reach of the array, as in C35. Each kernel is stated with its own segment (F.onSeg1, F.onSeg2, F.onSeg3, F.beside2).

### C77 Filling ghost cells and applying plain rows is the same as applying adjusted rows without ghost cells (partial)

- Modelled: The kernels of C34 and of C74 one after the other on one memory, whose arrays do not overlap; `F.Folded` (`Spec/Folded.lean`).
- Proof: The ghost value is that of the polynomial of least degree through the boundary condition and the cells (`Lemmas/GhostRow.lean`, with C76 for the cells that stay); C74 holds for every such polynomial.
- Theorems (`Props/GhostRow.lean`): `C77_v1_1d_partial`, `C77_v2_1d_partial`, `C77_poisson_1d_partial`, `C77_v1_2d_partial`, `C77_v2_2d_partial`, `C77_poisson_2d_partial`, `C77_v1_3d_partial`, `C77_v2_3d_partial`, `C77_poisson_3d_partial`
- Scope: Proved for Dirichlet of order 1 (with dir_factor = 2) and, where C74 has it, of order 2, for Neumann, and for Robin of order 1 with coefficients 2 and 1 (in 2D only in direction 0); the segment is one cell thick. Missing: the cases in which the adjusted rows are wrong (see the witnesses of C74).

### C78 The block Jacobi routine leaves solutions unchanged (partial)

- Modelled: `F.ccellblkjacobi3d` (`Model/Kernels/LapackSmooth.lean`): whole columns read before they are written, `dgesv` a parameter. `Spec/BlockEqn.lean` states the equations and what a solver promises; `Lemmas/LapackEx.lean` shows that a solver exists.
- Proof: The loop over the table subtracts one matrix-vector product after the other; the loop over the cells is a sweep over vectors. Unchanged fields by induction along the order of the cells.
- Theorems (`Props/LapackSmooth.lean`): `C78_added`, `C78_unchanged_iff`, `C78_solution_partial`, `C78_false`
- Scope: False of the code (C78_false): the routine adds to the unknowns what it should replace them by. C78_added says in full what a call leaves, C78_unchanged_iff which fields it leaves unchanged, C78_solution_partial that among the solutions it is just the zero field. LAPACK is a parameter that solves regular systems.

### C79 The block smoother with a dense solve relaxes the equations of each block (partial)

- Modelled: `F.creatematrix`, `F.cellblock`, `F.cellblockjacobi3d` (`Model/Kernels/LapackSmooth.lean`) with the declared bounds of the table.
- Proof: All statements before end or leave an array (`Lemmas/OnlyOob.lean`); the last pass of the loop over the table leaves it whatever the memory. Calls without a block: the residuals cell by cell (`residual_cell`), as for damped Jacobi.
- Theorems (`Props/LapackResidual.lean`, `Props/LapackSmooth.lean`): `C79_residual_partial`, `C79_creatematrix_false`, `C79_cellblockjacobi_false`
- Scope: False of the code on every call with at least one block: creatematrix runs over the table from 1 to stencilSize, the table ends at stencilSize - 1 (C79_creatematrix_false, C79_cellblockjacobi_false). A call without a block ends and leaves the residuals of the box in the work array (C79_residual_partial).

### C80 Boundary segments of one kind can be filled in any order and more than once (proved)

- Modelled: The boundary condition kernels of C35; lists of calls, their segments and what it means that the order does not matter in `Spec/Sides.lean`.
- Proof: Each call is the Fortran routine (C35). The routine changes only cells with at least as many indices outside the box as the kind of segment says (`seg2_out`, C76), and reads no such cell (`Lemmas/BlindBc.lean`), so what it leaves there depends on the rest only: two calls commute and a call repeated does nothing (`Lemmas/Blind.lean`); permutations follow from exchanges.
- Theorems (`Props/Sides.lean`): `C80_1d`, `C80_poisson_1d`, `C80_2d`, `C80_poisson_2d`, `C80_3d`, `C80_poisson_3d`, `C80_corner_2d`, `C80_narrow_false`, `C80_mixed_false`
- Scope: For boxes at least two cells wide; on a box one cell wide it is false (C80_narrow_false, order 2: each side reads the ghost cell of the other). Calls of different kinds do not commute (C80_mixed_false: corners read the ghost cells of the sides).

### C81 No sweep of a smoother increases the energy of the error (partial)

- Modelled: The smoothers of C50 to C52 and the assembly kernels of C62; cells of a box, the coefficient with which one cell enters the equation of another, symmetry and energy in `Spec/ErrorEnergy.lean`.
- Proof: Setting one unknown to the solution of its equation lowers the energy by the diagonal coefficient times the square of the change (`step_energy`, `swp_energy`), and a Gauss-Seidel sweep is such steps in order (`swept_energy`). For damped Jacobi the energy of the change is at most twice its diagonal part by weak dominance (`quad_le`), so the energy falls by `2 w (1 - w)` times the diagonal part of the scaled residual (`jacobi_energy`). Symmetry of the assembled table: the two cells beside a face use the same face coefficient (`sym1`, `sym2`, `sym3`).
- Theorems (`Props/ErrorEnergy.lean`): `C81_jacobi_1d`, `C81_gs_1d_partial`, `C81_rbgs_1d`, `C81_jacobi_2d`, `C81_gs_2d`, `C81_rbgs_2d_partial`, `C81_jacobi_3d`, `C81_gs_3d`, `C81_rbgs_3d`, `C81_nonneg`, `C81_assembled_v1_1d`, `C81_assembled_v2_1d`, `C81_assembled_poisson_1d`, `C81_assembled_v1_2d`, `C81_assembled_v2_2d`, `C81_assembled_poisson_2d`, `C81_assembled_v1_3d`, `C81_assembled_v2_3d`, `C81_assembled_poisson_3d`
- Scope: Proved for damped Jacobi and for Gauss-Seidel and red-black Gauss-Seidel with two exceptions inherited from C51 and C52, where the routine does not make the sweep it should: 1D Gauss-Seidel reads f with the lower bound of u (C81_gs_1d_partial needs equal bounds, C51_gs_1d_false), and 2D red-black takes a negative j + color to the wrong colour (C81_rbgs_2d_partial, C52_sweep_2d_false).

### C82 In double precision fluxes, operator values, residuals and coefficients are off by a few rounding errors only (proved)

- Modelled: The flux, apply, residual and coefficient kernels over the numbers of `Spec/Binary64.lean`; the exact flux, second difference and the sizes of the terms in `Spec/RoundError.lean`.
- Proof: `Near k a x s`: `a` is off `x` by at most `(1 + u)^k - 1` times `s` (`Lemmas/Near.lean`), with one rule for each operation. The kernels are run in any arithmetic (`Lemmas/FluxOrder.lean`, `Lemmas/KernelValues.lean`, the C49 theorems carry the coefficient kernels over to the Cuda code; the residual kernels are run themselves in `Lemmas/RoundRes.lean`, for they sum in another order than the Fortran code), the rules are applied to the expression each cell gets, and `(1 + u)^k - 1 ≤ (k + 1) u` for the `k` that occur.
- Theorems (`Props/RoundErrApply.lean`, `Props/RoundErrCoef.lean`, `Props/RoundErrFlux.lean`, `Props/RoundErrRes.lean`): `C82_apply_v1_1d`, `C82_apply_v2_1d`, `C82_apply_diffusion_1d`, `C82_apply_poisson_1d`, `C82_apply_v1_2d`, `C82_apply_v2_2d`, `C82_apply_diffusion_2d`, `C82_apply_poisson_2d`, `C82_apply_v1_3d`, `C82_apply_v2_3d`, `C82_apply_diffusion_3d`, `C82_apply_poisson_3d`, `C82_apply_relative_false`, `C82_coef_v1_1d`, `C82_coef_v2_1d`, `C82_coef_poisson_1d`, `C82_diag_relative_1d`, `C82_coef_v1_2d`, `C82_coef_v2_2d`, `C82_coef_poisson_2d`, `C82_diag_relative_2d`, `C82_coef_v1_3d`, `C82_coef_v2_3d`, `C82_coef_poisson_3d`, `C82_diag_relative_3d`, `C82_flux_1d`, `C82_poisson_flux_1d`, `C82_flux_2d`, `C82_poisson_flux_2d`, `C82_flux_3d`, `C82_poisson_flux_3d`, `C82_res_v1_1d`, `C82_res_v2_1d`, `C82_res_diffusion_1d`, `C82_res_poisson_1d`, `C82_res_v1_2d`, `C82_res_v2_2d`, `C82_res_diffusion_2d`, `C82_res_poisson_2d`, `C82_res_v1_3d`, `C82_res_v2_3d`, `C82_res_diffusion_3d`, `C82_res_poisson_3d`
- Scope: The operator value is not accurate relative to itself, as nothing computed from such differences could be: C82_apply_relative_false has an exact value of 2/9 where the kernel leaves 0. Overflow and underflow are outside the model of the arithmetic (unbounded exponent).

### C83 In double precision the smoothers converge down to the size of the rounding errors of one sweep (partial)

- Modelled: The smoothers of C50 to C52 over the numbers of `Spec/Binary64.lean`; values, accumulated rounding and the size of the data in `Spec/RoundSmooth.lean`.
- Proof: The sweep theorems C50 to C52 need no laws of arithmetic, so they hold for rounded numbers too: each unknown becomes the rounded solution of its equation. `solve_near` bounds the rounding errors of that solution by `g` times the size of its terms, dominance turns this into `(1 + g) q e + g Z` for an error `e` of the neighbours (`round_bound`, `round_swept`, `jacobi_cell_bound`), and `level` sums the geometric series over the sweeps.
- Theorems (`Props/RoundSmooth.lean`): `C83_jacobi_1d`, `C83_gs_1d_partial`, `C83_rbgs_1d`, `C83_jacobi_2d`, `C83_gs_2d`, `C83_rbgs_2d_partial`, `C83_jacobi_3d`, `C83_gs_3d`, `C83_rbgs_3d`
- Scope: Proved for damped Jacobi and for Gauss-Seidel and red-black Gauss-Seidel with the two exceptions inherited from C51 and C52, where the routine does not make the sweep it should: 1D Gauss-Seidel reads f with the lower bound of u (C83_gs_1d_partial needs equal bounds, C51_gs_1d_false), and 2D red-black takes a negative j + color to the wrong colour (C83_rbgs_2d_partial, C52_sweep_2d_false).

### C84 Assembling, adjusting for the boundary conditions and sweeping solves the boundary value problem (partial)

- Modelled: The assembly kernels `offdiag`, `adj_offdiag`, `v1diag`, `v2diag`, `adj_diag`, the operator kernels and the three smoothers. `Spec/Boundary.lean` says what pieces of the boundary are and when a field with its ghost values fulfils the conditions, by polynomials across each face (`Fulfils`).
- Proof: The adjustments multiply the coefficients of the ghost cells by a factor per piece (C74, folded over the list in `fold_adj`). Where the conditions are fulfilled, the ghost value is eliminated by that factor, so the operator equation of the field is the equation of the adjusted row (`bv_eqn`); factors are between 0 and 2, so rows stay dominated with the rate of the reaction over twice the couplings (`bv_dom`). C59 then gives the convergence.
- Theorems (`Props/BoundarySolve.lean`): `C84_jacobi_v1_1d`, `C84_gs_v1_1d_partial`, `C84_rbgs_v1_1d`, `C84_jacobi_v2_1d`, `C84_gs_v2_1d_partial`, `C84_rbgs_v2_1d`, `C84_jacobi_v1_2d_partial`, `C84_gs_v1_2d_partial`, `C84_rbgs_v1_2d_partial`, `C84_jacobi_v2_2d_partial`, `C84_gs_v2_2d_partial`, `C84_rbgs_v2_2d_partial`, `C84_jacobi_v1_3d`, `C84_gs_v1_3d`, `C84_rbgs_v1_3d`, `C84_jacobi_v2_3d`, `C84_gs_v2_3d`, `C84_rbgs_v2_3d`
- Scope: Only conditions of first order: the assembly kernels treat the higher orders differently from the ghost fill (C74, C77). 2D: no Robin segments across the second direction, where adj_offdiag takes the wrong coefficient (C74_v2_2d_robin_dir1_false). 1D Gauss-Seidel with equal bounds of f and u (C51_gs_1d_false), 2D red-black with the colour of C52_sweep_2d_false.

### C85 The boundary value problems of the operator kernels have exactly one solution, unless nothing ties its level (proved)

- Modelled: The flux and operator kernels; `Spec/Boundary.lean` for the conditions, the pieces and what ties the level (`Tied`).
- Proof: The ghost values are affine functions of the cell values, and eliminating them leaves a linear system for the cells (`bv_one`). A solution of the homogeneous system takes its largest value on the whole box, by going from cell to neighbour (`tied_zero`, `conn1` to `conn3`), and where the level is tied that value is not positive; so the system is injective, hence solvable (`solvable`).
- Theorems (`Props/BoundaryOne.lean`): `C85_v1_1d`, `C85_v2_1d`, `C85_poisson_1d`, `C85_v1_2d`, `C85_v2_2d`, `C85_poisson_2d`, `C85_v1_3d`, `C85_v2_3d`, `C85_poisson_3d`, `C85_poisson_1d_neumann_false`
- Scope: The proviso is needed: C85_poisson_1d_neumann_false has two constant fields that solve the same Poisson problem with Neumann conditions on both sides.

### C86 The operator and assembly kernels treat all directions alike, and both orientations of each (proved)

- Modelled: The flux, operator and assembly kernels as they are; the transformed data are given by the permuted or reversed index in the statement.
- Proof: Both runs are values of `F.op1` to `F.op3` or of the coefficients `F.Coef1` to `F.Coef3`, and these formulas are symmetric.
- Theorems (`Props/Symmetry.lean`): `C86_reflect_v1_1d`, `C86_reflect_coef_v1_1d`, `C86_reflect_v2_1d`, `C86_reflect_coef_v2_1d`, `C86_reflect_poisson_1d`, `C86_reflect_coef_poisson_1d`, `C86_exchange_v1_2d`, `C86_exchange_coef_v1_2d`, `C86_exchange_v2_2d`, `C86_exchange_coef_v2_2d`, `C86_exchange_poisson_2d`, `C86_exchange_coef_poisson_2d`, `C86_reflect_v1_2d`, `C86_reflect_coef_v1_2d`, `C86_reflect_v2_2d`, `C86_reflect_coef_v2_2d`, `C86_reflect_poisson_2d`, `C86_reflect_coef_poisson_2d`, `C86_rotate_v1_3d`, `C86_rotate_coef_v1_3d`, `C86_rotate_v2_3d`, `C86_rotate_coef_v2_3d`, `C86_rotate_poisson_3d`, `C86_rotate_coef_poisson_3d`, `C86_exchange_v1_3d`, `C86_exchange_coef_v1_3d`, `C86_exchange_v2_3d`, `C86_exchange_coef_v2_3d`, `C86_exchange_poisson_3d`, `C86_exchange_coef_poisson_3d`, `C86_reflect_v1_3d`, `C86_reflect_coef_v1_3d`, `C86_reflect_v2_3d`, `C86_reflect_coef_v2_3d`, `C86_reflect_poisson_3d`, `C86_reflect_coef_poisson_3d`
- Scope: 

### C87 On data that do not depend on the last direction the operator kernels give the results of one dimension less (proved)

- Modelled: The flux and operator kernels as they are.
- Proof: Both runs are values of `F.op1` to `F.op3`; the differences across the last direction cancel.
- Theorems (`Props/Reduce.lean`): `C87_v1_2d`, `C87_v2_2d`, `C87_poisson_2d`, `C87_v1_3d`, `C87_v2_3d`, `C87_poisson_3d`
- Scope: 

### C88 The boundary condition kernels of two and three dimensions act on each line across the boundary as the one of one dimension (partial)

- Modelled: `set_bc` and `set_poisson_bc` as they are, edges and corners apart.
- Proof: `ghosts_1d` to `ghosts_3d` give the value left in a ghost cell by one formula, `ghost`; for the conditions in `Stored` it does not depend on what the kernels differ in.
- Theorems (`Props/Lines.lean`): `C88_2d_i_lower_partial`, `C88_2d_i_upper_partial`, `C88_2d_j_lower_partial`, `C88_2d_j_upper_partial`, `C88_poisson_2d_i_lower_partial`, `C88_poisson_2d_i_upper_partial`, `C88_poisson_2d_j_lower_partial`, `C88_poisson_2d_j_upper_partial`, `C88_3d_i_lower_partial`, `C88_3d_i_upper_partial`, `C88_3d_j_lower_partial`, `C88_3d_j_upper_partial`, `C88_3d_k_lower_partial`, `C88_3d_k_upper_partial`, `C88_poisson_3d_i_lower_partial`, `C88_poisson_3d_i_upper_partial`, `C88_poisson_3d_j_lower_partial`, `C88_poisson_3d_j_upper_partial`, `C88_poisson_3d_k_lower_partial`, `C88_poisson_3d_k_upper_partial`, `C88_2d_order0_false`, `C88_poisson_2d_robin_false`, `C88_poisson_1d_robin_false`
- Scope: Conditions for which all kernels store a value: Dirichlet and Robin of order 1 and 2, and Neumann. False for Dirichlet conditions of order 0 in 2D (C88_2d_order0_false), for Poisson Robin conditions across the second direction in 2D (C88_poisson_2d_robin_false) and, unless alpha = 2 and beta = 1, for those of the other faces (C88_poisson_1d_robin_false).

### C89 Fields that meet the boundary conditions and the difference equations converge to second order to the solution of the boundary value problem (proved)

- Modelled: The flux and operator kernels over the real numbers; `Spec/Boundary.lean` for fields that fulfil conditions, `Spec/BoundaryExact.lean` for functions that do, by their values on the normals of the faces.
- Proof: The conditions hold for the samples of the function up to `M h^2/24` times `h` in the slope and `P h^2/8` in the mean (`mean_near`, `slope_near`). A comparison function made of a constant and of parabolas with their lowest point in the middle of the box, steep enough at the faces to take up the errors of the slopes, bounds the difference (`Elliptic*.conv`, `Elliptic*.convp*` in `Lemmas/BoundaryConvDim.lean`).
- Theorems (`Props/BoundaryConv.lean`): `C89_v1_1d`, `C89_v2_1d`, `C89_poisson_1d_axis0`, `C89_v1_2d`, `C89_v2_2d`, `C89_poisson_2d_axis0`, `C89_poisson_2d_axis1`, `C89_v1_3d`, `C89_v2_3d`, `C89_poisson_3d_axis0`, `C89_poisson_3d_axis1`, `C89_poisson_3d_axis2`
- Scope: Over the real numbers (exact arithmetic). Conditions of first order; a field that meets the conditions and the equations exists and is unique by C85, and that the boundary kernels set ghost values of this kind is C76 and C77.

### C90 Calls of the boundary condition kernels leave a field that fulfils the boundary conditions on their pieces, and change nothing else (partial)

- Modelled: The `set_bc` and `set_poisson_bc` kernels; `Spec/Fill.lean` for the piece of the boundary that a call is for and for what a list of calls has to leave, in terms of the pieces and fields of `Spec/Boundary.lean`.
- Proof: The calls commute and repeating one changes nothing (C80), so each call leaves the final contents as they are, and the ghost values of these are those the kernel computes from them (`ghosts_*`), which lie on a polynomial that meets the condition (`fit_first`). The two false cases are found by running the kernel.
- Theorems (`Props/Fill.lean`, `Props/Fill3.lean`): `C90_1d`, `C90_poisson_1d_partial`, `C90_2d`, `C90_poisson_2d_partial`, `C90_poisson_1d_false`, `C90_poisson_2d_false`, `C90_3d`, `C90_poisson_3d`
- Scope: Proved for set_bc in all dimensions and set_poisson_bc in 3D. False for Robin conditions of set_poisson_bc in 1D unless alpha = 2 beta (C90_poisson_1d_false) and in 2D across the second direction (C90_poisson_2d_false), which the _partial theorems leave out. Boxes at least two cells wide.

### C91 Filling the ghost cells and applying the operator gives what the assembled and adjusted coefficients give (partial)

- Modelled: The `set_bc`, flux and apply kernels on one side, `offdiag`, `adj_offdiag`, `v1diag`/`v2diag`, `adj_diag` and the dot product kernel on the other; `Spec/MatrixFree.lean` for the segments (one cell thick, next to the box, no common cells), for what the adjusting kernels are told about a call and for the field with zeros in the segments.
- Proof: The filled field fulfils the conditions with the cleared field as data (C90), so the adjusted rows on the cleared field have the value of the unadjusted rows on the filled field (`F.bv_eqn`), which is the operator (`F.eqn1` to `F.eqn3`), and the flux and apply kernels compute the operator (`energy_*`). The dot product kernel adds up the adjusted row (C48). The false case is found by running both programs.
- Theorems (`Props/MatrixFree.lean`, `Props/MatrixFree3.lean`): `C91_v1_1d`, `C91_v2_1d`, `C91_v1_2d_partial`, `C91_v2_2d_partial`, `C91_v2_2d_false`, `C91_v1_3d`, `C91_v2_3d`
- Scope: Proved in 1D and 3D. In 2D adj_offdiag has no Robin conditions across the second direction, and the two ways differ there (C91_v2_2d_false); the _partial theorems leave these out.

### C92 The operator together with the boundary condition kernels is symmetric (partial)

- Modelled: The `set_bc`/`set_poisson_bc`, flux and apply kernels run one after the other; `Spec/Walls.lean` for the ghost cells that belong to no segment and for the sign conditions on a call, `Spec/Energy.lean` for ellipticity, `Spec/Boundary.lean` for what ties the level.
- Proof: By C90 the filled field has in each ghost cell of a segment a fixed multiple of the value beside it, and the old value elsewhere (`wall_*`). Summation by parts with the test function cut to the box gives a bilinear form whose boundary terms are products of the values beside the faces, so it is symmetric (`Walled.symm`).
- Theorems (`Props/Walls.lean`, `Props/Walls3.lean`): `C92_v1_1d`, `C92_v2_1d`, `C92_poisson_1d`, `C92_v1_2d`, `C92_v2_2d`, `C92_poisson_2d_partial`, `C92_poisson_2d_false`, `C92_v1_3d`, `C92_v2_3d`, `C92_poisson_3d`
- Scope: Proved in 1D and 3D and for the diffusion operators in 2D. set_poisson_bc has no Robin conditions across the second direction in 2D: what it leaves in the ghost cells is not symmetric (C92_poisson_2d_false); C92_poisson_2d_partial leaves these out.

### C93 The operator together with the boundary condition kernels is positive, and definite unless nothing ties the level (partial)

- Modelled: The `set_bc`/`set_poisson_bc`, flux and apply kernels run one after the other; `Spec/Walls.lean` for the ghost cells that belong to no segment and for the sign conditions on a call, `Spec/Energy.lean` for ellipticity, `Spec/Boundary.lean` for what ties the level.
- Proof: The same form with the field as its own test function is a sum of squares with weights that are not negative; if it vanishes there are no jumps along the lines of the box, and the tie makes the level zero (`Leaky.nonneg`, `Leaky.zero`).
- Theorems (`Props/Walls.lean`, `Props/Walls3.lean`): `C93_v1_1d`, `C93_v2_1d`, `C93_poisson_1d`, `C93_v1_2d`, `C93_v2_2d`, `C93_poisson_2d_partial`, `C93_poisson_2d_false`, `C93_v1_3d`, `C93_v2_3d`, `C93_poisson_3d`
- Scope: Proved in 1D and 3D and for the diffusion operators in 2D. set_poisson_bc has no Robin conditions across the second direction in 2D, and positivity fails there (C93_poisson_2d_false); C93_poisson_2d_partial leaves these out.

### C94 The operator together with the boundary condition kernels preserves order (comparison principle) (partial)

- Modelled: The `set_bc`/`set_poisson_bc`, flux and apply kernels run one after the other; `Spec/Walls.lean` for the ghost cells that belong to no segment and for the sign conditions on a call, `Spec/Energy.lean` for ellipticity, `Spec/Boundary.lean` for what ties the level.
- Proof: The positive part of the difference of the two filled fields as test function: the form is at most zero by R <= S and at least the sum of squares of the positive part, so the latter vanishes (`leaky_max`, `Leaky.zero`).
- Theorems (`Props/Walls.lean`, `Props/Walls3.lean`): `C94_v1_1d`, `C94_v2_1d`, `C94_poisson_1d`, `C94_v1_2d`, `C94_v2_2d`, `C94_poisson_2d_partial`, `C94_poisson_2d_false`, `C94_v1_3d`, `C94_v2_3d`, `C94_poisson_3d`
- Scope: Proved in 1D and 3D and for the diffusion operators in 2D. set_poisson_bc has no Robin conditions across the second direction in 2D, and order is not preserved there (C94_poisson_2d_false); C94_poisson_2d_partial leaves these out.

### C95 Strided and permuted assignments between arrays touch exactly the points of the strided box (proved)

- Modelled: `Model/Kernels/SpanTest.lean`: the kernels of `md_device_span_test.cpp` on the modelled spans, bounds with strides and schedules; `Spec/SpanTest.lean` for the strided box (`OnStride`) and what a kernel sets (`Sets`).
- Proof: The assignment theorem (C15) gives the value at each visited point and the frame; the points of the strided domain are identified with the strided box by division with remainder.
- Theorems (`Props/SpanTest.lean`): `C95_stride_1d`, `C95_stride_2d`, `C95_stride_3d`, `C95_init_1d`, `C95_init_2d`
- Scope: The md_device_span test kernels: stride in 1D, 2D and 3D, init in 1D and 2D. The int products the code forms are assumed to fit.

### C96 The coarse to fine assignment gives every fine cell the value of the coarse cell that contains it, also for negative indices (proved)

- Modelled: `Model/Kernels/SpanTest.lean`: the coarse to fine test kernel.
- Proof: The assignment theorem with the coarse-to-fine operand; floor division identifies the coarse cell.
- Theorems (`Props/FineTest.lean`): `C96_fine`
- Scope: The coarse to fine test kernel, for all index ranges.

### C97 Window statements over interleaved arrays read and write the entries of their own window only (proved)

- Modelled: `Model/Kernels/SpanTest.lean`: the kernels of `window_iterator_test.cpp` as window statements (`windowExec`), and `init` step by step.
- Proof: The window theorem (C23) per kernel; its hypotheses are checked for the statements, and the values are read off.
- Theorems (`Props/WindowTest.lean`): `C97_init`, `C97_transform`, `C97_transform2`, `C97_transform3`, `C97_transform4`, `C97_rhs`
- Scope: All six window test kernels; sizes are those the kernels assert.

### C98 The forward stencil iterator over an array of any dimension visits each pair of neighbours once, in row-major order (partial)

- Modelled: `Model/Kernels/IterTest.lean`: device vectors as blocks of memory of their own, copies, `fsTransform` and `fsInit` with every assertion as a check; `Spec/Box.lean` for neighbours (`bump`) and the shortened box.
- Proof: `walk_run` (a thrust algorithm with any output iterator, any schedule) on the walk of the forward stencil iterator; assertions by explicit states of the iterator (`fsAt`).
- Theorems (`Props/FsTest.lean`, `Props/IterTest.lean`): `C98_init_partial`, `C98_init_false`, `C98_transform`
- Scope: transform is proved for all arrays. The assertions of init fail for some arrays (C98_init_false: two elements along the last direction, or a single row); C98_init_partial leaves these out.

### C99 The submatrix iterator writes exactly the elements of its box, in row-major order (proved)

- Modelled: `Model/Kernels/IterTest.lean`: `subTabulate`, `subInit` (every step and assertion).
- Proof: C05 for the positions of the view, `walk_run` for tabulate; for init the straight line of stores is a list of writes, of which the last one at a position wins (`Mem.puts_val`).
- Theorems (`Props/SubTest.lean`): `C99_tabulate`, `C99_init`
- Scope: tabulate for any number of dimensions; init in two and three dimensions (those instantiated), for boxes with at least two rows (planes): with fewer the kernel writes outside its box.

### C100 Copying through the transpose iterator transposes an array (proved)

- Modelled: `Model/Kernels/IterTest.lean`: `transposeInit`.
- Proof: C06 for the positions of the transposed view and `walk_run`; a permutation determines coordinates from their permuted list.
- Theorems (`Props/SubTest.lean`): `C100_transpose`
- Scope: Any number of dimensions and any permutation.

### C101 The offset iterator is a random access iterator over the elements at the tabulated offsets (proved)

- Modelled: `Model/Kernels/IterTest.lean`: `OffIt` (`offset_iterator`), `strideFromSize`, `offsetInit`; the table of offsets is memory of ints.
- Proof: The iterator is a walk (`OffIt.walk`), so histories reduce to net distances as in C02; the loop of dereference sums up to the row-major position by induction over the dimensions; init by induction over the table.
- Theorems (`Props/OffsetTest.lean`): `C101_moves`, `C101_address`, `C101_init`
- Scope: Iterator laws, addresses, and the test kernel.

### C102 The flux tests pass, whatever they pick (proved)

- Modelled: `Model/Tests/Driver.lean`: host and device memory of the vectors of a test, calls on either, conversion, comparison, on top of the class `md_device_vector` of C42. `Model/Tests/Flux.lean`: the test cases. `Approx` is modelled as equality; the random numbers are arguments.
- Proof: After setting up, host and device memory are equal, and exchanging the blocks of each compared vector and its partner does not change them. Fortran routines commute with renaming blocks (`Lemmas/Rename.lean`, `Lemmas/FluxRename.lean`), so the equality of routine and kernel on the same pointers (C33) carries over to the two copies (`compare_ok`).
- Theorems (`Props/FluxDriver.lean`): `C102_flux_1d`, `C102_flux_poisson_1d`, `C102_flux_2d`, `C102_flux_poisson_2d`, `C102_flux_3d`, `C102_flux_poisson_3d`
- Scope: All six test cases; exact arithmetic.

### C103 The residual and operator tests pass, whatever they pick (proved)

- Modelled: `Model/Tests/Driver.lean`: host and device memory of the vectors of a test, calls on either, conversion, comparison, on top of the class `md_device_vector` of C42. `Model/Tests/Apply.lean`: the test cases. `Approx` is modelled as equality; the random numbers are arguments.
- Proof: After setting up, host and device memory are equal, and exchanging the blocks of each compared vector and its partner does not change them. Fortran routines commute with renaming blocks (`Lemmas/Rename.lean`, `Lemmas/ApplyRename.lean`), so the equality of routine and kernel on the same pointers (C34) carries over to the two copies (`compare_ok`).
- Theorems (`Props/ApplyDriver.lean`): `C103_v1_res_1d`, `C103_v2_res_1d`, `C103_poisson_res_1d`, `C103_v1_apply_1d`, `C103_v2_apply_1d`, `C103_poisson_apply_1d`, `C103_v1_res_2d`, `C103_v2_res_2d`, `C103_poisson_res_2d`, `C103_v1_apply_2d`, `C103_v2_apply_2d`, `C103_poisson_apply_2d`, `C103_v1_res_3d`, `C103_v2_res_3d`, `C103_poisson_res_3d`, `C103_v1_apply_3d`, `C103_v2_apply_3d`, `C103_poisson_apply_3d`
- Scope: All eighteen test cases; exact arithmetic.

### C104 The coefficient tests pass, whatever they pick (proved)

- Modelled: `Model/Tests/Driver.lean`: host and device memory of the vectors of a test, calls on either, conversion, comparison, on top of the class `md_device_vector` of C42. `Model/Tests/Stencil.lean`: the test cases. `Approx` is modelled as equality; the random numbers are arguments.
- Proof: After setting up, host and device memory are equal, and exchanging the blocks of each compared vector and its partner does not change them. Fortran routines commute with renaming blocks (`Lemmas/Rename.lean`, `Lemmas/StencilRename.lean`), so the equality of routine and kernel on the same pointers (C36) carries over to the two copies (`compare_ok`).
- Theorems (`Props/StencilDriver.lean`): `C104_offdiag_1d`, `C104_poisson_offdiag_1d`, `C104_v1diag_1d`, `C104_v2diag_1d`, `C104_poisson_diag_1d`, `C104_adj_diag_1d`, `C104_adj_poisson_diag_1d`, `C104_adj_cf_diag_1d`, `C104_adj_poisson_cf_diag_1d`, `C104_adj_offdiag_1d`, `C104_adj_poisson_offdiag_1d`, `C104_adj_cf_offdiag_1d`, `C104_readj_offdiag_1d`, `C104_adj_cf_bdryrhs_1d`, `C104_offdiag_2d`, `C104_poisson_offdiag_2d`, `C104_v1diag_2d`, `C104_v2diag_2d`, `C104_poisson_diag_2d`, `C104_adj_diag_2d`, `C104_adj_poisson_diag_2d`, `C104_adj_cf_diag_2d`, `C104_adj_poisson_cf_diag_2d`, `C104_adj_offdiag_2d`, `C104_adj_poisson_offdiag_2d`, `C104_adj_cf_offdiag_2d`, `C104_readj_offdiag_2d`, `C104_adj_cf_bdryrhs_2d`, `C104_offdiag_3d`, `C104_poisson_offdiag_3d`, `C104_v1diag_3d`, `C104_v2diag_3d`, `C104_poisson_diag_3d`, `C104_adj_diag_3d`, `C104_adj_poisson_diag_3d`, `C104_adj_cf_diag_3d`, `C104_adj_poisson_cf_diag_3d`, `C104_adj_offdiag_3d`, `C104_adj_poisson_offdiag_3d`, `C104_adj_cf_offdiag_3d`, `C104_readj_offdiag_3d`, `C104_adj_cf_bdryrhs_3d`
- Scope: All forty-two test cases; exact arithmetic.

### C105 The boundary condition tests pass, whatever they pick (proved)

- Modelled: `Model/Tests/Driver.lean`: host and device memory of the vectors of a test, calls on either, conversion, comparison, on top of the class `md_device_vector` of C42. `Model/Tests/Bc.lean`: the test cases. `Approx` is modelled as equality; the random numbers are arguments.
- Proof: After setting up, host and device memory are equal, and exchanging the blocks of each compared vector and its partner does not change them. Fortran routines commute with renaming blocks (`Lemmas/Rename.lean`, `Lemmas/BcRename.lean`), so the equality of routine and kernel on the same pointers (C35) carries over to the two copies (`compare_ok`).
- Theorems (`Props/BcDriver.lean`): `C105_bc_1d`, `C105_bc_poisson_1d`, `C105_bc_2d`, `C105_bc_poisson_2d`, `C105_bc_corner_2d`, `C105_bc_homogenous_2d`, `C105_bc_3d`, `C105_bc_poisson_3d`
- Scope: All eight test cases, for segments as in C35 (those of the tests are among them); exact arithmetic.

### C106 The coarse to fine tests pass, whatever they pick (proved)

- Modelled: `Model/Tests/Driver.lean`: host and device memory of the vectors of a test, calls on either, conversion, comparison, on top of the class `md_device_vector` of C42. `Model/Tests/CoarseFine.lean`: the test cases. `Approx` is modelled as equality; the random numbers are arguments.
- Proof: After setting up, host and device memory are equal, and exchanging the blocks of each compared vector and its partner does not change them. Fortran routines commute with renaming blocks (`Lemmas/Rename.lean`, `Lemmas/CoarseFineRename.lean`), so the equality of routine and kernel on the same pointers (C37) carries over to the two copies (`compare_ok`).
- Theorems (`Props/CoarseFineDriver.lean`): `C106_copy_x`, `C106_copy_y`, `C106_copy_z`, `C106_corner`
- Scope: Both test cases, copy along each axis; exact arithmetic.

### C107 A test passes exactly if routine and kernel leave the same elements (proved)

- Modelled: `Model/Tests/Driver.lean`, with the routine and the kernel as parameters.
- Proof: Conversions do not change what later conversions yield, so the comparisons reduce to equality of the blocks in host and device memory after the calls.
- Theorems (`Props/DriverOracle.lean`): `C107_compare`
- Scope: Any routine, any kernel.

### C108 The operator kernels are bounded above and below in the mean square norm (proved)

- Modelled: The flux and apply kernels run one after the other; `Spec/Spectral.lean` for the bounds on coefficients and the constants.
- Proof: Upper bound: (x - y)^2 <= 2 x^2 + 2 y^2 along each line. Lower bound: along a line with n cells the squares of the differences exceed 2 / (k (n + 1 - k)) times the squares of the values, from the parabola k (n + 1 - k) as comparison function (`line_low1`). The bounds for the result itself follow from the form of U - t R with t one over the upper bound (`Lemmas/Spectral.lean`).
- Theorems (`Props/Spectral.lean`): `C108_v1_1d`, `C108_v2_1d`, `C108_poisson_1d`, `C108_v1_2d`, `C108_v2_2d`, `C108_poisson_2d`, `C108_v1_3d`, `C108_v2_3d`, `C108_poisson_3d`
- Scope: All nine operator kernels.

### C109 Explicit steps with the operator kernels bring fields closer to each other (proved)

- Modelled: As C108, two runs.
- Proof: The square of the difference after the step expands into the form and the square of the result, and C108 bounds the second by the first (`step_le`, `res_le`).
- Theorems (`Props/StepContract.lean`): `C109_v1_1d`, `C109_v2_1d`, `C109_poisson_1d`, `C109_v1_2d`, `C109_v2_2d`, `C109_poisson_2d`, `C109_v1_3d`, `C109_v2_3d`, `C109_poisson_3d`
- Scope: All nine operator kernels; the step itself is written down in the statement, it is not in the code.

### C110 Explicit steps with the operator kernels preserve order and bounds (proved)

- Modelled: As C108, two runs for the order, one for the bounds.
- Proof: With the condition on t the value after the step is a sum of the values at the cell and its neighbours with weights that are not negative (`op1_mono` to `op3_mono`).
- Theorems (`Props/StepOrder.lean`): `C110_order_v1_1d`, `C110_bounds_v1_1d`, `C110_order_v2_1d`, `C110_bounds_v2_1d`, `C110_order_poisson_1d`, `C110_bounds_poisson_1d`, `C110_order_v1_2d`, `C110_bounds_v1_2d`, `C110_order_v2_2d`, `C110_bounds_v2_2d`, `C110_order_poisson_2d`, `C110_bounds_poisson_2d`, `C110_order_v1_3d`, `C110_bounds_v1_3d`, `C110_order_v2_3d`, `C110_bounds_v2_3d`, `C110_order_poisson_3d`, `C110_bounds_poisson_3d`
- Scope: All nine operator kernels; the step itself is written down in the statement, it is not in the code.

### C111 With Neumann conditions on all sides the operator kernels conserve the total (proved)

- Modelled: The `set_bc`/`set_poisson_bc`, flux and apply kernels run one after the other; `Spec/Insulated.lean` for a list of calls that covers the boundary (`F.Covered`).
- Proof: The sum of the results is the form of `Spec/Energy.lean` with the indicator of the box as test function; Neumann conditions make the form symmetric on the filled fields, and the form of the indicator with itself extended has only the reaction term (`form1_one`, ...).
- Theorems (`Props/Insulated.lean`): `C111_v1_1d`, `C111_v2_1d`, `C111_poisson_1d`, `C111_v1_2d`, `C111_v2_2d`, `C111_poisson_2d`, `C111_v1_3d`, `C111_v2_3d`, `C111_poisson_3d`
- Scope: All nine operators. Boxes at least two cells wide in each direction; in the 1D and 2D Poisson case the wall lemma is used with all conditions Neumann, so the Robin defects of set_poisson_bc do not matter.

### C112 The span tests pass, whatever they pick (proved)

- Modelled: `Model/Tests/Host.lean` (subscripts of host vectors, undefined behaviour outside; loops with int counters) and `Model/Tests/Span.lean`, the host side of each test case.
- Proof: A loop is followed by an invariant (`Settles`): the entries named by the indices passed so far have their final values, the others are as before; the linear indices of the test are shown to be the column-major numbers of the cells, and C95 says what the kernel leaves in them.
- Theorems (`Props/SpanDriver.lean`): `C112_stride_1d`, `C112_init_1d`, `C112_stride_2d`, `C112_stride_3d`, `C112_init_2d`
- Scope: All five test cases, also outside the sizes the tests take, as long as the sizes of the vectors and the linear indices fit int; exact arithmetic.

### C113 The window tests pass, whatever they pick (proved)

- Modelled: `Model/Tests/Host.lean` and `Model/Tests/Window.lean`, the host side of each test case.
- Proof: The sizes are constants, so the elements the kernel leaves (C97) and those the loop computes are written down as lists of expressions in the data and compared by `ring`; a round of a loop is a lemma about any list.
- Theorems (`Props/WindowDriver.lean`): `C113_init`, `C113_transform`, `C113_transform2`, `C113_transform3`, `C113_transform4`, `C113_rhs`
- Scope: All six test cases with the sizes of the tests, any data; exact arithmetic.

### C114 The transpose and forward difference tests pass for all sizes and data (proved)

- Modelled: `Model/Tests/Iter.lean`, the host side of each test case: vectors as lists, loops that may leave the vector or overflow, calls of the device code of C98 and C100 on fresh blocks.
- Proof: The loops are followed by an invariant: the first elements of the answer are those of the list the kernel leaves, and the write position is their number; kernel and loop agree element by element by C98 and C100.
- Theorems (`Props/IterDriver.lean`): `C114_transpose_3d`, `C114_transpose_2d`, `C114_forward_1d`, `C114_forward_2d`, `C114_forward_basic`, `C114_forward_basic_2d`, `C114_forward_3d`
- Scope: All test cases of the two files for all sizes and data; exact arithmetic.

### C115 The submatrix tests pass for all boxes (proved)

- Modelled: `Model/Tests/Iter.lean`, the host side of each test case.
- Proof: The elements the kernel leaves come from C99; the checked positions are the places of the box with the ranks of the writes, and the later writes of `init` go elsewhere because the box is large enough. The loop of the 3D tabulate test is followed by an invariant on all elements of the grid.
- Theorems (`Props/SubDriver.lean`): `C115_basic`, `C115_3d`, `C115_tabulate_2d`, `C115_tabulate_3d`
- Scope: All four test cases; three of them for all sizes and boxes, the 2D tabulate test with its constants, since its expected answer is a literal list; exact arithmetic.

### C116 The tests of the refinement view and the offset iterator pass (proved)

- Modelled: `Model/Tests/Offset.lean`, the host side of each test case, with `make_offset_vec` and `set_offset` from `Model/DeviceVector.lean`; the table of displacements lies in memory as numbers of type int.
- Proof: What the kernels leave comes from C96 and C101; the table is computed, and the elements the tests ask for are those the table names.
- Theorems (`Props/OffsetDriver.lean`): `C116_fine`, `C116_offset_1d`, `C116_offset_2d`, `C116_offset_3d`
- Scope: All four test cases; the tests have no random numbers, so the sizes are their constants; exact arithmetic.

### C117 The tests of the dot product with displacements pass, whatever they pick (proved)

- Modelled: `Model/Tests/Offset.lean`, the host side of each test case with its nested loops over cells and displacements.
- Proof: What the kernel leaves comes from C48; a loop that adds to one element leaves the sum (`accumulate`), the loops over the cells settle every element of the box and no other.
- Theorems (`Props/DotDriver.lean`): `C117_1d`, `C117_2d`, `C117_3d`
- Scope: All three test cases for all boxes, ghost widths and data; the tables of displacements are the constants of the tests; exact arithmetic.

### C118 The forward difference tests pass only for functions that leave the differences (proved)

- Modelled: `Test.forward1dOf`, `forward2dOf`, `forward3dOf` of `Model/Tests/Iter.lean`: the host side of the test cases with the function under test as an argument; the test cases of C114 are these with `Cuda.fsTransform`.
- Proof: The loops on the host fill the list of references whatever the function leaves (`forward1d_of` to `forward3d_of`), the comparison is equality of lists, and equality of lists over the box is equality at each position (`ext_box`).
- Theorems (): 
- Scope: The three difference tests with an arbitrary function in place of transform; the size checks of the same file make no comparison of values.

### C119 The limit on explicit steps is sharp (proved)

- Modelled: As C110, two runs of the flux and apply kernels on memories whose fields agree except at one cell.
- Proof: The difference of the two operators at that cell is the diagonal times the difference of the values (`op1_bump` to `op3_bump`), so the step multiplies the difference by one minus t times the diagonal.
- Theorems (`Props/StepSharp.lean`): `C119_v1_1d`, `C119_v2_1d`, `C119_poisson_1d`, `C119_v1_2d`, `C119_v2_2d`, `C119_poisson_2d`, `C119_v1_3d`, `C119_v2_3d`, `C119_poisson_3d`
- Scope: All nine operator kernels; the step itself is written down in the statement, it is not in the code.

### C120 The dot product tests pass only for functions that leave the sums (proved)

- Modelled: `Test.dotOffset1dOf` to `dotOffset3dOf` of `Model/Tests/Offset.lean`: the host side with the function under test as an argument; the test cases of C117 are these with the kernels.
- Proof: The host loops leave the list with the sums in the box and zeros elsewhere, as in C117, whatever the function leaves; two lists of that length agree exactly if they agree at every cell (`judge`, with `colMajor_onto`: every position of the vector is that of a cell).
- Theorems (`Props/DotOracle.lean`): `C120_1d`, `C120_2d`, `C120_3d`
- Scope: All three test cases with an arbitrary function in place of the kernel; the sums are written out with the displacements of the tests; exact arithmetic.

### C121 The tests of the offset iterator and of the coarse to fine iterator pass only for functions that write what they should and nothing else (partial)

- Modelled: `Test.offset1dOf` to `offset3dOf` and `Test.fineInitOf` of `Model/Tests/Offset.lean`, the host side with the function under test as an argument.
- Proof: The host side reads three elements of the vector (the coarse to fine test all five fine ones) and compares each with a constant; the witnesses are functions that store one more element.
- Theorems (`Props/OffsetOracle.lean`): `C121_offset_1d_partial`, `C121_unnoticed_1d`, `C121_offset_2d_partial`, `C121_unnoticed_2d`, `C121_offset_3d_partial`, `C121_unnoticed_3d`, `C121_fine_partial`, `C121_unnoticed_fine`
- Scope: False as stated: the offset tests look at the three listed elements only, the coarse to fine test at the fine elements only. Proved: the test passes exactly if these are right (C121_offset_*_partial, C121_fine_partial); a function that also overwrites another element passes (C121_unnoticed_*).

### C122 Explicit steps longer than two over the diagonal move fields apart (proved)

- Modelled: As C119.
- Proof: At the cell the difference is multiplied by one minus t times the diagonal (`op1_far` to `op3_far`); the sum before the step is its square (`sum_only`), the sum after it is at least the square at the cell (`le_sum`).
- Theorems (`Props/StepFar.lean`): `C122_v1_1d`, `C122_v2_1d`, `C122_poisson_1d`, `C122_v1_2d`, `C122_v2_2d`, `C122_poisson_2d`, `C122_v1_3d`, `C122_v2_3d`, `C122_poisson_3d`
- Scope: All nine operator kernels; the step itself is written down in the statement, it is not in the code.

### C123 The transpose tests pass only for functions that transpose (partial)

- Modelled: The drivers of C114 with the kernels replaced by arbitrary functions (`transpose2dOf`, `transpose3dOf`).
- Proof: The value of the test is computed from what the three calls leave. The 3D claim is false: `copyOnly` passes (`C123_unnoticed_3d`), and what it leaves differs from the transposed values at a stated place.
- Theorems (`Props/IterOracle.lean`): `C123_transpose_2d`, `C123_transpose_3d_partial`, `C123_unnoticed_3d`
- Scope: The 2D test is as stated. The 3D test is not: it compares with the input only after a round trip, so it passes with a function that copies whatever the permutation is, for all sizes and data (C123_unnoticed_3d). C123_transpose_3d_partial says exactly what it requires.

### C124 The submatrix tests pass only for functions that write the submatrix and nothing else (partial)

- Modelled: The drivers of C115 with the kernels replaced by arbitrary functions (`subBasicOf`, `sub3dOf`, `tabulate2dOf`, `tabulate3dOf`).
- Proof: The value of the test is computed from the vector the call leaves; for the 3D tabulation the vector the test builds is the one of C115. The access tests do not see other elements: `spoil` overwrites one after the kernel and the test passes.
- Theorems (`Props/IterOracle.lean`): `C124_basic_partial`, `C124_unnoticed_basic`, `C124_3d_partial`, `C124_unnoticed_3d`, `C124_tabulate_2d`, `C124_tabulate_3d`
- Scope: The tabulation tests are as stated. The two access tests look at five and seven elements; any other element may be overwritten without notice (C124_unnoticed_basic, C124_unnoticed_3d). The _partial theorems say exactly what they require.

### C125 The window tests pass only for functions that compute from the values they were given (partial)

- Modelled: The drivers of C113 with the kernels replaced by arbitrary functions (`windowInitOf` to `windowRhsOf`).
- Proof: The loop of the test is run on the values the function leaves; the comparison then says which relations hold between them. False as stated for five of the six tests: `flood` and `forget2` to `forget5` pass for all data.
- Theorems (`Props/WindowOracle.lean`): `C125_init_partial`, `C125_unnoticed_init`, `C125_transform`, `C125_transform2_partial`, `C125_unnoticed_transform2`, `C125_transform3_partial`, `C125_unnoticed_transform3`, `C125_transform4_partial`, `C125_unnoticed_transform4`, `C125_rhs_partial`, `C125_unnoticed_rhs`
- Scope: The test of transform is as stated. The tests of transform2, transform3, transform4 and rhs compute their reference from the vectors after the call, so that functions that never read the windows pass for all data (C125_unnoticed_*); the basic test looks at four of ten elements. The _partial theorems say exactly what each requires.

### C126 The span tests pass only for functions that leave the expected values (proved)

- Modelled: `Test.spanInit1dOf` to `spanStride3dOf` of `Model/Tests/Span.lean`: the host side with the function under test as an argument; the test cases of C112 are these with the kernels.
- Proof: As C120: the host loops leave the list of expected values whatever the function leaves (the proof of C112), and `judge2` compares it with the vector the function leaves cell by cell. `C126_unnoticed_stride_1d` runs the stride test with `wipe`, which puts zeros into `u` and computes nothing.
- Theorems (`Props/SpanOracle.lean`): `C126_stride_1d`, `C126_unnoticed_stride_1d`, `C126_init_1d`, `C126_stride_2d`, `C126_stride_3d`, `C126_init_2d`
- Scope: All five test cases with an arbitrary function in place of the kernel, with a witness that the condition on u is needed (1D stride test); exact arithmetic.

### C127 In double precision the flux and residual kernels stay within 5 rounding errors of the Fortran routines they replace (proved)

- Modelled: The flux and residual kernels and the Fortran routines over the numbers of `Spec/Binary64.lean`; the flux in `Spec/RoundError.lean`, the sizes of the terms of the residual written out in the theorems.
- Proof: Both sides are run (`Lemmas/FluxOrder.lean`, `Lemmas/RoundRes.lean`, `Lemmas/KernelValues.lean`, `Lemmas/RoundClose.lean`). The two expressions share their rounded parts, so only the last two operations differ: each is off the same exact value by at most `(1 + u)^2 - 1` of the sizes of the rounded parts (`close_face`, `close_sum`), and the rounded parts exceed the exact ones by a factor `(1 + u)^k`.
- Theorems (`Props/RoundErrClose.lean`): `C127_flux_1d`, `C127_flux_2d`, `C127_flux_3d`, `C127_res_v1_1d`, `C127_res_v2_1d`, `C127_res_v1_2d`, `C127_res_v2_2d`, `C127_res_v1_3d`, `C127_res_v2_3d`
- Scope: That they do differ is C49_flux_*_false, C49_v1_res_*_false and C49_v2_res_*_false; the Poisson kernels agree bit for bit (C49). Overflow and underflow are outside the model of the arithmetic (unbounded exponent).

### C128 The relative comparison of the tests accepts the fluxes for all data; no relative tolerance accepts the residuals for all data (proved)

- Modelled: The comparison of the tests in `Spec/Approx.lean`, with the tolerance left open and with either vector as the reference; kernels and routines as in C127.
- Proof: Fluxes: the kernel's flux is within 4 rounding errors of the exact one and within 5 of the routine's, so both are nearly as large as the exact flux, relative to which the distance is measured (`approx_face`). Residuals: with fluxes that grow by `2^-10` and values that are that difference over the spacing, the divergence term and the cell term are the same double, and a right hand side of `2^-80` is lost when it is added to the one before the other is subtracted; the values left by both sides are those of `Lemmas/RoundRes.lean` and `Lemmas/RoundClose.lean`, evaluated by the kernel in the first cell.
- Theorems (`Props/RoundTests.lean`): `C128_flux_1d`, `C128_flux_2d`, `C128_flux_3d`, `C128_res_v1_1d_false`, `C128_res_v2_1d_false`, `C128_res_v1_2d_false`, `C128_res_v2_2d_false`, `C128_res_v1_3d_false`, `C128_res_v2_3d_false`
- Scope: The fluxes for all data (C128_flux_*); for the residuals the claim is that no tolerance suffices (C128_res_*_false), in 1D on the box and with the spacing of the test, in 2D and 3D on a box of one cell with the spacing of the test. Overflow and underflow are outside the model of the arithmetic (unbounded exponent); the default tolerance of Catch2 is left open.

## 4. Where code and intention differ

Each of these is a statement about the code as written. Proved ones name the theorem.

1. Forward stencil: `begin + n` and `n` times `++begin` are different iterators at the end of the
   range, for every shape (`C09_end_always_differs`); `--` from `begin + n` and backward jumps onto
   the first pair of an earlier run give wrong pairs (`C09_dec_end_false`, `C09_backward_false`).
2. `a * (st(1) + b)` computes `b * (st(1) + a)`: prepending an operand to a stencil expression does
   not renumber those already there (`C25_swap_false`). Joining two stencil expressions makes both
   read the same operand (`C25_clash_false`).
3. `bounds::size()` rounds down while the iterator extents round up (`C11_size_false`), hence window
   statements over strided domains miss points (`C26_false`).
4. Gradients over a domain strided along the gradient axis use a neighbour one stride away
   (`C19_neighbour_false`) and produce too few values (`C19_count_false`).
5. Two empty dimensions multiply to a positive size (`C22_two_empty_false`). An extent of zero makes
   `advance` divide by zero in two or more dimensions, even for `advance(0)`.
6. A request with fewer bounds than the span has dimensions assumes the missing dimension is stored
   last (`C12_window_first_false`).
7. `coarse_index(r, INT_MAX)` overflows (`C28_int_max_false`).
8. Large strides overflow although the array is small (`C31_stride_false`).
9. `md_device_vector`: a device pointer kept across `host()` leaves later host views stale
   (`C42_kept_pointer_false`); `set_offset` copies a stale host buffer over device results
   (`C43_lost_false`); a vector made from strided bounds is smaller than the span `make_md_span` lays
   over it (`C45_stride_false`). A default-constructed vector leaves its `sync` flag indeterminate.
10. Boundary kernels against Fortran: the kernels clip the segment to the box, Fortran does not
    (2D, 3D Poisson faces, 3D edges; `C35_*_segment_false`, `C35_3d_edge_false`); a segment that
    misses the box along both axes has two negative extents and is filled (`C35_3d_missed_false`); order 0
    and 5 of the homogeneous routine (`C35_homogenous_2d_false`, `C35_homogenous_2d_order_false`).
11. Second-order Robin ghost values multiply `u2` by `h/(8αd+3βh)` where `βh/(8αd+3βh)` is needed;
    the Fortran routines do the same (`C46_robin2_false`). 1D Poisson Robin hard-codes alpha = 2,
    beta = 1 (`C46_robin_poisson_1d_false`); 2D Poisson Robin does nothing on faces 2 and 3
    (`C46_robin_poisson_2d_false`).
12. 3D edges and nodes always sit at `bLo` of their axes, whatever the face number, in both programs
    (visible in the statements of C47).
13. The Fortran routine `applystencilonpatch2d` exchanges the loop bounds of its two axes and leaves its
    arrays on every box whose axes have different bounds (`C48_patch_2d_false`).
14. Rounding: the diffusion flux kernels divide before multiplying, Fortran after; the diffusion residual kernels
    compute `(f + βd) - αau`, Fortran `f - (-βd + αau)`. In 53 bit arithmetic the results differ
    (`C49_flux_*_false`, `C49_v1_res_*_false`, `C49_v2_res_*_false`). So do several coefficient adjustments (`beta/h*b` against
    `beta*b/h`, `x*(8/3)` against `8*x/3`, `3*h*h` against `3*h**2`; `C49_adj_*_false`) and the ghost cells on edges
    and corners (`u2+u3-u1` against `-u1+u2+u3`; `C49_*bc_*_false`). All other kernels of C49 agree bit for bit.
15. Fortran smoothers: `cellgs1d` declares `f` with the bounds of `u` (`C51_gs_1d_false`); the 2D red-black
    routines start rows with `mod(j+color,2)`, negative for negative odd rows, and change a cell outside the
    box (`C52_sweep_2d_false`; the 3D routine takes the absolute value); cells of one colour are neighbours in
    the nine-point stencil (`C52_nine_false`); `celljacobi2d` damps with the single precision 0.8
    (`C50_factor_2d_false`).
16. Fortran routines for nodes: `nodediffusionflux3d` reads `b1` for `b2` (`C64_3d_false`, `C64_cube_false`);
    `nodediffusionv2apply3d` and `nodepoissonapply3d` read `flux1` for `flux2` (`C65_v2_3d_false`,
    `C65_poisson_3d_false`, `C65_v2_cube_false`, `C65_poisson_cube_false`).
17. `celladjustsystemrhspatch2d` loops over the bounds of the other dimension (`C67_2d_false`). The block
    smoothers of `cellblocksmooth2d.m4` use the single precision constant 0.8 (`C66_factor_2d_false`).
18. The node coefficient routines in three dimensions: Dirichlet at an upper side leaves the array
    (`adjnodediffusiondiag3d`, `adjnodepoissondiag3d`), `adjnodediffusioncfdiag3d` reads `b1` for `b2`,
    `adjnode*offdiag3d` write `stencil(SS,1,...)` and `stencil(BB,1,...)` for `i`,
    `readjnodediffusionoffdiag3d` takes `pfirst1` for `pfirst2` (`C69_*_false`).
19. Diagonal adjustment next to a boundary, in C++ and Fortran alike: Robin of order 2 multiplies by `3h+16b` where it
    should divide, so that rows are wrong even on constants (`C74_*_robin2_false`); Dirichlet of order 2 in 2D and 3D adds
    `βb/(3h²)` to a diagonal that is right without it (`C74_*_dirichlet2_false`; in 2D on side 1 to the row of the ghost cell),
    while 1D and 2D Poisson rightly do nothing; 2D Robin in direction 1 adjusts nothing (`C74_*_robin_dir1_false`).
20. Coarse-fine adjustment of order 1 uses the weights 2/3 and 1/3 for every refinement ratio; they are right for ratio 2
    only (`C75_*_ratio4_false`).
21. `ccellblkjacobi3d` adds the solution of the block equations to the unknowns instead of replacing them
    (`C78_false`), and updates in place, so it is a Gauss-Seidel sweep; `creatematrix` reads entry `stencilSize` of a table
    that ends at `stencilSize - 1` on every call (`C79_creatematrix_false`, `C79_cellblockjacobi_false`).
22. `set_poisson_bc` in 2D has no Robin branch across the second direction, and its 1D Robin values use another coefficient
    than the diagonal adjustment unless `alpha = 2 beta`: what it leaves does not fulfil the condition
    (`C90_poisson_1d_false`, `C90_poisson_2d_false`), and the operator applied to it is neither symmetric, nor positive, nor order
    preserving (`C92_poisson_2d_false`, `C93_poisson_2d_false`, `C94_poisson_2d_false`). In 2D `adj_offdiag` has no Robin branch across the
    second direction either, while `set_bc` has one, so that the two representations of the operator differ (`C91_v2_2d_false`).
23. The assertions in the forward stencil test hold for the arrays of its driver, but not for every array: a jump back over a block
    of length one and a jump to the end of a single row differ from the same distance in single steps (`C98_init_false`). The
    submatrix test writes past its box if the box has a single row or plane.
24. `dot` over a strided domain scales the offsets of the table by the stride (`C30_strided_false`). Two tests in one dimension
    (`adj cfdiag`, `adj poisson cfdiag`) make their coefficient vectors for seven entries per cell although the routines use three;
    C104 covers them, the rest of the vector stays as it is.
25. The tests of `offset_iterator` compare three elements of 10, 70 and 770 and no other; a kernel that also overwrites other
    elements passes (C121). The tests of `dot_offset` and the differences of `forward_stencil_iterator` compare all elements and pass for no
    wrong result (C118, C120). The element access tests of `submatrix_iterator` look at five and seven elements (C124). The 3D test of
    `transpose_iterator` compares only after a round trip: a function that copies whatever the permutation is passes it (C123). The tests
    `transform2`, `transform3`, `transform4` and `rhs` of `window_iterator` take their reference from the vectors after the call: functions that
    never read the windows pass them, whatever the data (C125). The span tests compare all elements, but take `u` as it is after the call: a
    function that wipes `u` and computes nothing passes the stride test (C126).
26. The tests of `diffusion_v1_res` and `diffusion_v2_res` compare the residuals of the two codes relative to their size. Where the terms of a
    residual cancel both codes are right up to rounding (C82, C127) but their residuals need not agree in any digit: for data the tests may draw one is 0 and the other
    not, and the comparison fails for every tolerance (C128). The comparison of the fluxes cannot fail. The comparison should be relative to the sizes of the terms.
27. Not proved, seen while reading: the five-argument constructor of `window_helper` cannot compile;
    `make_offset_span` for const and non-const data start from different bases; `ls_apply_st_3d_cuda.cpp` calls a free function `dot` that does
    not exist;
    `prototypes*.h` declare four Fortran routines that no source defines (`celladjustsystemrhspatch3d_`, `cells9rbgs3d_`,
    `cellblock1x1jacobi3d_`, `cellblock2x2jacobi3d_`).

## 5. Trusted base

* The Lean kernel. No axioms of our own, no `sorry`, no `native_decide`.
* Axioms each theorem depends on (`#print axioms` on every theorem of `MANIFEST.json`):
  - `propext` only: `C09_end_differs_false`, `C09_dec_end_false`, `C09_backward_false`, `C10_sub`, `C10_expand`, `C10_expand_bounds`, `C10_unit_stride`, `C11_size_false`, `C12_window_first_false`, `C19_neighbour_false`, `C19_count_false`, `C26_false`, `C31_stride_false`, `C42_host_current`, `C42_no_second_copy`, `C42_after_data`, `C42_kept_pointer_false`, `C43_lost_false`, `C45_stride_false`, `C98_init_false`.
  - `Quot.sound` and `propext` only: `C14_reads`, `C14_components`, `C14_operators`, `C18_reads`, `C20_translate`, `C20_add`, `C20_comm`, `C20_zero`, `C22_two_empty_false`, `C25_swap_false`, `C25_clash_false`, `C53_five`, `C53_nine`, `C53_seven`, `C123_transpose_2d`, `C124_tabulate_2d`.
  - `propext`, `Classical.choice`, `Quot.sound`: all 1208 others.
* The transcription from C++ and Fortran to Lean.
* Thrust algorithms behave as an instance of the schedule model; `iterator_facade`, `zip_iterator`,
  `transform_iterator` forward `*`, `++`, `+=` to the components; `device_ptr` behaves as a pointer.
* C++ overload resolution and template deduction select the transcribed functions.

Modelled: from `src/cuda`: `matrix_utils.hpp`, `matrix_traversal_iterator.hpp`,
`submatrix_iterator.hpp`, `transpose_iterator.hpp`, `forward_stencil_iterator.hpp`,
`stencil_impl.hpp`, `md_bounds.hpp`, `md_device_span.hpp`, `iter_math.hpp`, `stencil_proxy.hpp`,
`offset_iterator.hpp`, `coarse_to_fine_iterator.hpp`, the kernels
`cdf_*_cuda.cpp`, `cd_apply_*_cuda.cpp`, `cd_stencil_*_cuda.cpp`, `cd_correct_bc_*_cuda.cpp`,
`coarse_to_fine_cuda.cpp`; `md_device_vector.hpp`, `dot_offset_test.cpp`. From the Fortran sources: `celldiffusionflux*`,
`celldiffusionapply*`, `celldiffusionstencilcoeffs*`, `cellsetcorrectionbc*`, `copycoarsetofine*`, `applystencil*`, `cellsmooth*`, `nodediffusionflux*`, `nodediffusionapply*`, `cellblocksmooth*`, `celladjustrhs*`, `nodediffusionstencilcoeffs*`.

Not modelled: floating-point rounding outside C49, C82, C127 and C128, overflow and underflow, and promotions between `float`, `double` and `int` literals;
the CUDA memory model beyond the schedule model; the parts of `traits.hpp` and `tuple_utils.hpp` that only inspect types (what they compute is modelled where used: `next_proxy_index`, `map_index`, `transpose_sequence`, `missing_index`, `shift_v`, `merge_tuples`
); `random.cpp`; `ls_apply_st_3d_cuda.cpp` (unfinished); the free function `window` of `window_iterator.hpp` (cannot compile and is not used; `window()` of the span is modelled); the random number generator and the tolerance of `Approx` in the test drivers;
LAPACK (a parameter of the routines that call it, C78 and C79); the build
system.
