{
 "claims": [
  {
   "property": "C01",
   "status": "proved",
   "theorems": [
    "Verif.C01_ravel_unravel",
    "Verif.C01_ravel_rowMajor",
    "Verif.C01_unravel_ravel"
   ],
   "note": "ravel/unravel for every number of dimensions; the specialised N=1,2,3 branches of unravel are separate cases of the model."
  },
  {
   "property": "C02",
   "status": "proved",
   "theorems": [
    "Verif.C02_net_distance",
    "Verif.C02_same_net"
   ],
   "note": "Histories of ++, --, +=, -= of any length that stay inside [begin, end]."
  },
  {
   "property": "C03",
   "status": "proved",
   "theorems": [
    "Verif.C03_distance",
    "Verif.C03_size"
   ],
   "note": "distance, equality and size for all reachable pairs of positions."
  },
  {
   "property": "C04",
   "status": "proved",
   "theorems": [
    "Verif.C04_visits",
    "Verif.C04_boxList"
   ],
   "note": "The loop from begin to begin+size visits boxList, which holds each coordinate once, in row-major order."
  },
  {
   "property": "C05",
   "status": "proved",
   "theorems": [
    "Verif.C05_submatrix"
   ],
   "note": "All boxes inside the parent, all positive steps; preconditions: products formed by the code fit an int."
  },
  {
   "property": "C06",
   "status": "proved",
   "theorems": [
    "Verif.C06_transpose",
    "Verif.C06_permutes"
   ],
   "note": "All permutations of the dimensions; C06_permutes: every array element is met at exactly one position."
  },
  {
   "property": "C07",
   "status": "proved",
   "theorems": [
    "Verif.C07_walk",
    "Verif.C07_all_pairs"
   ],
   "note": "Over any begin traversal iterator (submatrix, transposed, strided) with extent at least 2 in the stencil dimension."
  },
  {
   "property": "C08",
   "status": "proved",
   "theorems": [
    "Verif.C08_jumps_eq_steps",
    "Verif.C08_commute"
   ],
   "note": "All mixes of ++, -- and forward jumps before the end."
  },
  {
   "property": "C09",
   "status": "partial",
   "theorems": [
    "Verif.C09_end_differs_false",
    "Verif.C09_dec_end_false",
    "Verif.C09_backward_false",
    "Verif.C09_end_always_differs",
    "Verif.C09_laws_partial"
   ],
   "note": "False of the code: begin+n differs from n-fold ++begin for every shape (C09_end_always_differs), --(begin+n) and backward jumps onto the first pair of an earlier run give wrong pairs (witnesses C09_*_false). C09_laws_partial proves the laws for all other histories."
  },
  {
   "property": "C10",
   "status": "proved",
   "theorems": [
    "Verif.C10_make",
    "Verif.C10_add",
    "Verif.C10_sub",
    "Verif.C10_expand",
    "Verif.C10_shift",
    "Verif.C10_expand_bounds",
    "Verif.C10_unit_stride",
    "Verif.C10_lb_ub"
   ],
   "note": "Index-set meaning of every bounds operation, preconditions: results fit an int."
  },
  {
   "property": "C11",
   "status": "partial",
   "theorems": [
    "Verif.C11_iterator_extent",
    "Verif.C11_size_iff",
    "Verif.C11_size_false",
    "Verif.C11_size_partial"
   ],
   "note": "False of the code for strides that do not divide the range (C11_size_false, C11_size_iff gives the exact condition). The iterator extent does count the points (C11_iterator_extent)."
  },
  {
   "property": "C12",
   "status": "proved",
   "theorems": [
    "Verif.C12_call",
    "Verif.C12_every_point_once",
    "Verif.C12_lock_step",
    "Verif.C12_call_window",
    "Verif.C12_window_first_false"
   ],
   "note": "Any storage order and request order, any positive strides; windowed (fewer bounds) calls need the missing dimension stored last (C12_window_first_false shows what happens otherwise)."
  },
  {
   "property": "C13",
   "status": "proved",
   "theorems": [
    "Verif.C13_at_eq_traversal",
    "Verif.C13_at_injective",
    "Verif.C13_at_surjective"
   ],
   "note": "at() agrees with traversal, is injective and onto the allocation."
  },
  {
   "property": "C14",
   "status": "proved",
   "theorems": [
    "Verif.C14_pointwise",
    "Verif.C14_reads",
    "Verif.C14_value",
    "Verif.C14_components",
    "Verif.C14_operators"
   ],
   "note": "All expression trees over spans, shifts, neighbour pairs, gradients, dot products, coarse-to-fine and numbers; operations are arbitrary functions; the element may be reached by any forward history of ++ and +=. C14_value: accepted expressions on allocated arrays always have a value. C14_components and C14_operators pin down componentwise application and operand order for neighbour pairs."
  },
  {
   "property": "C15",
   "status": "proved",
   "theorems": [
    "Verif.C15_assign",
    "Verif.C15_statements",
    "Verif.C15_lhs_domain"
   ],
   "note": "Single statements, lists of statements (with_domain(...)(s1, s2, ...)) and statements over the whole left hand side; for every valid backend."
  },
  {
   "property": "C16",
   "status": "proved",
   "theorems": [
    "Verif.C16_schedule",
    "Verif.C16_statements",
    "Verif.C16_loads"
   ],
   "note": "A backend is any interleaving of the read and write steps of all elements with any forward way of reaching each element, chosen per call. C16_loads: the same with every single load and store a step of its own, for all interleavings; nothing gets stuck, each element makes a bounded number of accesses, all finished executions leave the same memory."
  },
  {
   "property": "C17",
   "status": "proved",
   "theorems": [
    "Verif.C17_aliasing",
    "Verif.C17_only_aliasing"
   ],
   "note": "Concrete witness with two legal schedules; C17_only_aliasing: different results imply such aliasing."
  },
  {
   "property": "C18",
   "status": "proved",
   "theorems": [
    "Verif.C18_up",
    "Verif.C18_down",
    "Verif.C18_reads"
   ],
   "note": "All storage and request orders, data, step sizes; C18_reads: only the two named cells matter."
  },
  {
   "property": "C19",
   "status": "partial",
   "theorems": [
    "Verif.C19_neighbour_false",
    "Verif.C19_count_false",
    "Verif.C19_partial"
   ],
   "note": "False of the code: witnesses C19_neighbour_false (neighbour taken one stride away) and C19_count_false (missing value). C19_partial: holds when the stride along the gradient axis is one, others arbitrary."
  },
  {
   "property": "C20",
   "status": "proved",
   "theorems": [
    "Verif.C20_translate",
    "Verif.C20_call",
    "Verif.C20_add",
    "Verif.C20_comm",
    "Verif.C20_zero"
   ],
   "note": "Chains of shifts of any length; commutation, addition and identity as equality of the iterators produced."
  },
  {
   "property": "C21",
   "status": "proved",
   "theorems": [
    "Verif.C21_points",
    "Verif.C21_between"
   ],
   "note": "C21_points: bijection between iterator positions and strided points; C21_between: frame inside the array."
  },
  {
   "property": "C22",
   "status": "partial",
   "theorems": [
    "Verif.C22_empty_partial",
    "Verif.C22_two_empty_false"
   ],
   "note": "False of the code for two dimensions with upper bound at least a stride below the lower one (C22_two_empty_false). C22_empty_partial: exactly one empty dimension, or one empty by less than a stride. Backends are taken to do nothing for n <= 0."
  },
  {
   "property": "C23",
   "status": "proved",
   "theorems": [
    "Verif.C23_frame",
    "Verif.C23_kept"
   ],
   "note": "Lists of st(i) = number/array expression/stencil expression and st(i,j) = stencil pair, any window size and storage order, any valid backend, any strides."
  },
  {
   "property": "C24",
   "status": "proved",
   "theorems": [
    "Verif.C24_loads",
    "Verif.C24_program_order",
    "Verif.C24_schedule",
    "Verif.C24_split"
   ],
   "note": "Each statement at each point is a sequence of micro steps interleaved arbitrarily with those of other points; bare array operands are read when used, composite ones before the first statement (as zip_iterator does). Domains whose strides divide their extent (see C26). C24_loads: the same with every single load and store a step of its own. C24_split: one call with two groups = two calls."
  },
  {
   "property": "C25",
   "status": "partial",
   "theorems": [
    "Verif.C25_exactly",
    "Verif.C25_partial",
    "Verif.C25_swap_false",
    "Verif.C25_clash_false"
   ],
   "note": "False of the code: C25_swap_false (a * (st(1) + b) computes b * (st(1) + a)), C25_clash_false (an array used twice). C25_exactly characterises the expressions evaluated in place; C25_partial: the statement stores the intended value for those."
  },
  {
   "property": "C26",
   "status": "partial",
   "theorems": [
    "Verif.C26_false",
    "Verif.C26_reached",
    "Verif.C26_partial"
   ],
   "note": "False of the code for strides that do not divide the extent (C26_false). C26_reached says exactly which points are updated; C26_partial covers dividing strides (stride one in particular)."
  },
  {
   "property": "C27",
   "status": "proved",
   "theorems": [
    "Verif.C27_subtract",
    "Verif.C27_self_update"
   ],
   "note": "Any ring, any stencil expression with arrays in order (C27_subtract), in particular st(i) * u with a shifted or plain array (C27_self_update); domains whose strides divide their extent; no aliasing between rhs and what is read at any point."
  },
  {
   "property": "C28",
   "status": "partial",
   "theorems": [
    "Verif.C28_floor_partial",
    "Verif.C28_int_max_false"
   ],
   "note": "Proved for every int except INT_MAX (C28_floor_partial); for INT_MAX the code overflows (C28_int_max_false)."
  },
  {
   "property": "C29",
   "status": "proved",
   "theorems": [
    "Verif.C29_fine"
   ],
   "note": "Lines of fine cells along any axis, any ratio, alignment and sign; the fine domain must have one index in all other dimensions (as the kernels use it)."
  },
  {
   "property": "C30",
   "status": "partial",
   "theorems": [
    "Verif.C30_strided_false",
    "Verif.C30_dot_partial"
   ],
   "note": "Proved for domains with unit stride (C30_dot_partial), all window sizes, tables, storage orders, left-to-right accumulation as in the code. On a strided domain the offsets are scaled by the stride and the claim is false (C30_strided_false)."
  },
  {
   "property": "C31",
   "status": "partial",
   "theorems": [
    "Verif.C31_unit_partial",
    "Verif.C31_statement_partial",
    "Verif.C31_stride_false"
   ],
   "note": "False as stated when strides are large: the code forms ub-lb+stride and rowlength*stride (C31_stride_false). C31_unit_partial: with unit strides the array size alone suffices; C31_statement_partial: any strides for which these products fit."
  },
  {
   "property": "C32",
   "status": "proved",
   "theorems": [
    "Verif.C32_reads",
    "Verif.C32_exec"
   ],
   "note": "Statements run in a memory where only the elements of their own arrays exist (any other access is an error outcome), for every valid backend."
  },
  {
   "property": "C33",
   "status": "proved",
   "theorems": [
    "Verif.C33_1d",
    "Verif.C33_poisson_1d",
    "Verif.C33_2d",
    "Verif.C33_poisson_2d",
    "Verif.C33_3d",
    "Verif.C33_poisson_3d"
   ],
   "note": "For every box, ghost width at least 1, schedule and memory in which the arguments are allocated and the outputs do not overlap the inputs, each of the six flux kernels (diffusion and Poisson, 1D/2D/3D) and its Fortran routine both terminate without error and leave the identical memory. Values range over an arbitrary field; floating point rounding is out of scope."
  },
  {
   "property": "C34",
   "status": "proved",
   "theorems": [
    "Verif.C34_v1_res_1d",
    "Verif.C34_v2_res_1d",
    "Verif.C34_poisson_res_1d",
    "Verif.C34_v1_apply_1d",
    "Verif.C34_v2_apply_1d",
    "Verif.C34_poisson_apply_1d",
    "Verif.C34_v1_res_2d",
    "Verif.C34_v2_res_2d",
    "Verif.C34_poisson_res_2d",
    "Verif.C34_v1_apply_2d",
    "Verif.C34_v2_apply_2d",
    "Verif.C34_poisson_apply_2d",
    "Verif.C34_v1_res_3d",
    "Verif.C34_v2_res_3d",
    "Verif.C34_poisson_res_3d",
    "Verif.C34_v1_apply_3d",
    "Verif.C34_v2_apply_3d",
    "Verif.C34_poisson_apply_3d"
   ],
   "note": "For every box, nonnegative ghost widths, schedule and memory in which the arguments are allocated and the output does not overlap the inputs, each of the eighteen residual/operator kernels (diffusion v1/v2, Poisson; residual and apply; 1D/2D/3D) and its Fortran routine both terminate without error and leave the identical memory. Values range over an arbitrary field; floating point rounding is out of scope."
  },
  {
   "property": "C35",
   "status": "partial",
   "theorems": [
    "Verif.C35_1d",
    "Verif.C35_poisson_1d",
    "Verif.C35_2d_partial",
    "Verif.C35_poisson_2d_partial",
    "Verif.C35_3d_partial",
    "Verif.C35_poisson_3d_partial",
    "Verif.C35_corner_2d",
    "Verif.C35_homogenous_2d_partial",
    "Verif.C35_2d_segment_false",
    "Verif.C35_poisson_2d_segment_false",
    "Verif.C35_poisson_3d_segment_false",
    "Verif.C35_3d_edge_false",
    "Verif.C35_3d_missed_false",
    "Verif.C35_homogenous_2d_false",
    "Verif.C35_homogenous_2d_order_false"
   ],
   "note": "1D in full (C35_1d, C35_poisson_1d), corner routine in full (C35_corner_2d). 2D, 3D and the homogeneous routine: proved for every face, type, boundary type, order, schedule and data when the segment lies along the box (2D faces, 3D Poisson faces, 3D edges), respectively meets it (3D diffusion faces, where both programs clip), and the order of the homogeneous routine is 1..4. Outside these hypotheses the programs do differ, shown by concrete runs: unclipped Fortran segments (C35_2d_segment_false, C35_poisson_2d_segment_false, C35_poisson_3d_segment_false, C35_3d_edge_false), a segment missing the box along both axes (C35_3d_missed_false), order 0 and order 5 of the homogeneous routine (C35_homogenous_2d_false, C35_homogenous_2d_order_false). Any field; rounding out of scope."
  },
  {
   "property": "C36",
   "status": "proved",
   "theorems": [
    "Verif.C36_offdiag_1d",
    "Verif.C36_poisson_offdiag_1d",
    "Verif.C36_v1diag_1d",
    "Verif.C36_v2diag_1d",
    "Verif.C36_poisson_diag_1d",
    "Verif.C36_offdiag_2d",
    "Verif.C36_poisson_offdiag_2d",
    "Verif.C36_v1diag_2d",
    "Verif.C36_v2diag_2d",
    "Verif.C36_poisson_diag_2d",
    "Verif.C36_offdiag_3d",
    "Verif.C36_poisson_offdiag_3d",
    "Verif.C36_v1diag_3d",
    "Verif.C36_v2diag_3d",
    "Verif.C36_poisson_diag_3d",
    "Verif.C36_adj_diag_1d",
    "Verif.C36_adj_poisson_diag_1d",
    "Verif.C36_adj_cf_diag_1d",
    "Verif.C36_adj_poisson_cf_diag_1d",
    "Verif.C36_adj_offdiag_1d",
    "Verif.C36_adj_poisson_offdiag_1d",
    "Verif.C36_adj_cf_offdiag_1d",
    "Verif.C36_readj_offdiag_1d",
    "Verif.C36_adj_cf_bdryrhs_1d",
    "Verif.C36_adj_diag_2d",
    "Verif.C36_adj_poisson_diag_2d",
    "Verif.C36_adj_cf_diag_2d",
    "Verif.C36_adj_poisson_cf_diag_2d",
    "Verif.C36_adj_offdiag_2d",
    "Verif.C36_adj_poisson_offdiag_2d",
    "Verif.C36_adj_cf_offdiag_2d",
    "Verif.C36_readj_offdiag_2d",
    "Verif.C36_adj_cf_bdryrhs_2d",
    "Verif.C36_adj_diag_3d",
    "Verif.C36_adj_poisson_diag_3d",
    "Verif.C36_adj_cf_diag_3d",
    "Verif.C36_adj_poisson_cf_diag_3d",
    "Verif.C36_adj_offdiag_3d",
    "Verif.C36_adj_poisson_offdiag_3d",
    "Verif.C36_adj_cf_offdiag_3d",
    "Verif.C36_readj_offdiag_3d",
    "Verif.C36_adj_cf_bdryrhs_3d"
   ],
   "note": "All fourteen coefficient kernels (offdiag, poisson_offdiag, v1diag, v2diag, poisson_diag, the adj_* and readj_* corrections and adj_cf_bdryrhs) in 1D, 2D and 3D, against the fourteen Fortran subroutines: both terminate without error and leave the identical memory, for every direction, side, boundary type, order, schedule and data. Hypotheses: nonempty box, arguments allocated and outputs apart from inputs, nonempty layer inside the array (without which Fortran itself is out of bounds), index arithmetic in int. Values range over an arbitrary field; floating point rounding is out of scope."
  },
  {
   "property": "C37",
   "status": "proved",
   "theorems": [
    "Verif.C37_copy_x",
    "Verif.C37_copy_y",
    "Verif.C37_copy_z",
    "Verif.C37_copy_other",
    "Verif.C37_corner"
   ],
   "note": "Axis 0, 1, 2 (C37_copy_x/y/z), any other axis (C37_copy_other, both do nothing), corner (C37_corner). Any value type. Lines of at least one fine cell; ratio at least 1; arguments do not overflow when one is added."
  },
  {
   "property": "C38",
   "status": "proved",
   "theorems": [
    "Verif.C38_v1_1d",
    "Verif.C38_v2_1d",
    "Verif.C38_poisson_1d",
    "Verif.C38_v1_2d",
    "Verif.C38_v2_2d",
    "Verif.C38_poisson_2d",
    "Verif.C38_v1_3d",
    "Verif.C38_v2_3d",
    "Verif.C38_poisson_3d"
   ],
   "note": "1D, 2D, 3D; variable-coefficient (v1), constant-alpha (v2) and Poisson operators: what flux + apply leave at a cell is the sum over the cell and its neighbours of the coefficients left by offdiag + diag times u. Any field (exact arithmetic), any schedule of the four kernels, all ghost widths (at least 1 for u)."
  },
  {
   "property": "C39",
   "status": "proved",
   "theorems": [
    "Verif.C39_1d",
    "Verif.C39_poisson_1d",
    "Verif.C39_2d",
    "Verif.C39_poisson_2d",
    "Verif.C39_3d",
    "Verif.C39_poisson_3d"
   ],
   "note": "offdiag and poisson_offdiag in 1D, 2D, 3D, every direction, also when the coefficient box is larger than the cell box."
  },
  {
   "property": "C40",
   "status": "proved",
   "theorems": [
    "Verif.C40_poisson_1d",
    "Verif.C40_diffusion_1d",
    "Verif.C40_v1_1d",
    "Verif.C40_v2_1d",
    "Verif.C40_poisson_2d",
    "Verif.C40_diffusion_2d",
    "Verif.C40_v1_2d",
    "Verif.C40_v2_2d",
    "Verif.C40_poisson_3d",
    "Verif.C40_diffusion_3d",
    "Verif.C40_v1_3d",
    "Verif.C40_v2_3d"
   ],
   "note": "1D, 2D, 3D; diffusion and Poisson flux followed by the Poisson apply kernel, and the v1 and v2 apply kernels with the term without derivatives split off. Nonzero cell widths, any field."
  },
  {
   "property": "C41",
   "status": "proved",
   "theorems": [
    "Verif.C41_1d",
    "Verif.C41_poisson_1d",
    "Verif.C41_2d",
    "Verif.C41_poisson_2d",
    "Verif.C41_3d",
    "Verif.C41_poisson_3d",
    "Verif.C41_homogenous_2d"
   ],
   "note": "set_bc and set_poisson_bc in 1D, 2D, 3D, orders 1 and 2 (2D set_bc also order 0), all faces, and set_homogenous_bc, orders 1 to 4, after the corner copies that follow it. Any field of characteristic zero, any spacing, any schedule; every cell of the segment that lies along the box."
  },
  {
   "property": "C42",
   "status": "proved",
   "theorems": [
    "Verif.C42_host_current",
    "Verif.C42_no_second_copy",
    "Verif.C42_after_data",
    "Verif.C42_kept_pointer_false"
   ],
   "note": "All histories of calls after construction; C42_after_data drops even the discipline on earlier pointers and host stores. C42_kept_pointer_false shows that asking for the pointer before each launch is needed."
  },
  {
   "property": "C43",
   "status": "partial",
   "theorems": [
    "Verif.C43_general",
    "Verif.C43_synced_partial",
    "Verif.C43_after_host_partial",
    "Verif.C43_iff",
    "Verif.C43_lost_false",
    "Verif.C43_table"
   ],
   "note": "False of the code: C43_lost_false. C43_iff says exactly when the device entries survive; C43_general what happens in every state; C43_synced_partial / C43_after_host_partial cover states where host and device agree; C43_table the way the tables are built."
  },
  {
   "property": "C44",
   "status": "proved",
   "theorems": [
    "Verif.C44_flux_twice_1d",
    "Verif.C44_poisson_flux_twice_1d",
    "Verif.C44_v1_apply_twice_1d",
    "Verif.C44_v2_apply_twice_1d",
    "Verif.C44_poisson_apply_twice_1d",
    "Verif.C44_v1_linear_1d",
    "Verif.C44_v2_linear_1d",
    "Verif.C44_poisson_linear_1d",
    "Verif.C44_flux_twice_2d",
    "Verif.C44_poisson_flux_twice_2d",
    "Verif.C44_v1_apply_twice_2d",
    "Verif.C44_v2_apply_twice_2d",
    "Verif.C44_poisson_apply_twice_2d",
    "Verif.C44_v1_linear_2d",
    "Verif.C44_v2_linear_2d",
    "Verif.C44_poisson_linear_2d",
    "Verif.C44_flux_twice_3d",
    "Verif.C44_poisson_flux_twice_3d",
    "Verif.C44_v1_apply_twice_3d",
    "Verif.C44_v2_apply_twice_3d",
    "Verif.C44_poisson_apply_twice_3d",
    "Verif.C44_v1_linear_3d",
    "Verif.C44_v2_linear_3d",
    "Verif.C44_poisson_linear_3d"
   ],
   "note": "The six flux and nine apply kernels: a second run under any schedule leaves the memory as it is (C44_*_twice_*). Linearity in u of the fluxes and of flux followed by apply (C44_*_linear_*): three memories, u in the third a combination of u in the first two, coefficients equal."
  },
  {
   "property": "C45",
   "status": "partial",
   "theorems": [
    "Verif.C45_unit_partial",
    "Verif.C45_ghost_partial",
    "Verif.C45_stride_false"
   ],
   "note": "False of the code for bounds with a stride (C45_stride_false): the vector divides by the stride, make_md_span does not. Proved for unit strides, with and without ghost cells."
  },
  {
   "property": "C46",
   "status": "partial",
   "theorems": [
    "Verif.C46_neumann_1d",
    "Verif.C46_neumann_poisson_1d",
    "Verif.C46_neumann_2d",
    "Verif.C46_neumann_poisson_2d",
    "Verif.C46_neumann_3d",
    "Verif.C46_neumann_poisson_3d",
    "Verif.C46_robin1_1d",
    "Verif.C46_robin1_poisson_1d_partial",
    "Verif.C46_robin1_2d",
    "Verif.C46_robin1_poisson_2d_partial",
    "Verif.C46_robin1_3d",
    "Verif.C46_robin1_poisson_3d",
    "Verif.C46_robin2_1d_partial",
    "Verif.C46_robin2_poisson_1d_partial",
    "Verif.C46_robin2_2d_partial",
    "Verif.C46_robin2_poisson_2d_partial",
    "Verif.C46_robin2_3d_partial",
    "Verif.C46_robin2_poisson_3d_partial",
    "Verif.C46_robin2_false",
    "Verif.C46_robin_poisson_1d_false",
    "Verif.C46_robin_poisson_2d_false"
   ],
   "note": "Neumann in full for the six kernels. Robin of order 1 in full for set_bc 1D/2D/3D and set_poisson_bc 3D. Robin of order 2 is false of the code when beta is not 1 (C46_robin2_false; the Fortran routines agree with the kernels) and proved for beta = 1. set_poisson_bc in 1D ignores alpha and beta (C46_robin_poisson_1d_false) and is proved exact for alpha = 2, beta = 1; in 2D it leaves the ghost cells across the second axis alone (C46_robin_poisson_2d_false) and is proved for the first axis. The Robin denominators must not vanish."
  },
  {
   "property": "C47",
   "status": "proved",
   "theorems": [
    "Verif.C47_2d",
    "Verif.C47_poisson_2d",
    "Verif.C47_3d_edge_ij",
    "Verif.C47_3d_edge_ik",
    "Verif.C47_3d_edge_jk",
    "Verif.C47_3d_node",
    "Verif.C47_poisson_3d_edge_ij",
    "Verif.C47_poisson_3d_edge_ik",
    "Verif.C47_poisson_3d_edge_jk",
    "Verif.C47_poisson_3d_node"
   ],
   "note": "Corners in 2D, edges along each axis and nodes in 3D, for set_bc and set_poisson_bc, any schedule. In 3D edges and nodes the place is where the code puts it, at bLo of both axes for every face number; the node uses only the i and j directions."
  },
  {
   "property": "C48",
   "status": "partial",
   "theorems": [
    "Verif.C48_value_1d",
    "Verif.C48_value_2d",
    "Verif.C48_value_3d",
    "Verif.C48_point_1d",
    "Verif.C48_patch_1d",
    "Verif.C48_point_2d",
    "Verif.C48_patch_2d_partial",
    "Verif.C48_patch_2d_false",
    "Verif.C48_point_3d",
    "Verif.C48_patch_3d"
   ],
   "note": "Values left by the three dot kernels (C48_value_1d/2d/3d, any value type), equality with calling the Fortran point routine at every cell (C48_point_1d/2d/3d) and with the Fortran patch routine in 1D and 3D (C48_patch_1d, C48_patch_3d). The 2D patch routine exchanges the loop bounds of its axes: on every box whose two axes differ in bounds it leaves its arrays while the kernel succeeds (C48_patch_2d_false); proved equal for boxes with the same bounds on both axes (C48_patch_2d_partial). Full statement: the 2D patch routine on every box."
  },
  {
   "property": "C49",
   "status": "partial",
   "theorems": [
    "Verif.C49_adj_diag_1d",
    "Verif.C49_adj_poisson_diag_1d",
    "Verif.C49_adj_cf_diag_1d",
    "Verif.C49_adj_poisson_cf_diag_1d",
    "Verif.C49_adj_offdiag_1d",
    "Verif.C49_adj_poisson_offdiag_1d",
    "Verif.C49_adj_cf_offdiag_1d",
    "Verif.C49_adj_diag_2d",
    "Verif.C49_adj_poisson_diag_2d",
    "Verif.C49_adj_cf_diag_2d",
    "Verif.C49_adj_poisson_cf_diag_2d",
    "Verif.C49_adj_offdiag_2d",
    "Verif.C49_adj_poisson_offdiag_2d",
    "Verif.C49_adj_cf_offdiag_2d",
    "Verif.C49_adj_diag_3d",
    "Verif.C49_adj_poisson_diag_3d",
    "Verif.C49_adj_cf_diag_3d",
    "Verif.C49_adj_poisson_cf_diag_3d",
    "Verif.C49_adj_offdiag_3d",
    "Verif.C49_adj_poisson_offdiag_3d",
    "Verif.C49_adj_cf_offdiag_3d",
    "Verif.C49_v1_res_1d",
    "Verif.C49_v2_res_1d",
    "Verif.C49_poisson_res_1d",
    "Verif.C49_v1_apply_1d",
    "Verif.C49_v2_apply_1d",
    "Verif.C49_poisson_apply_1d",
    "Verif.C49_v1_res_2d",
    "Verif.C49_v2_res_2d",
    "Verif.C49_poisson_res_2d",
    "Verif.C49_v1_apply_2d",
    "Verif.C49_v2_apply_2d",
    "Verif.C49_poisson_apply_2d",
    "Verif.C49_v1_res_3d",
    "Verif.C49_v2_res_3d",
    "Verif.C49_poisson_res_3d",
    "Verif.C49_v1_apply_3d",
    "Verif.C49_v2_apply_3d",
    "Verif.C49_poisson_apply_3d",
    "Verif.C49_v1_res_1d_false",
    "Verif.C49_v2_res_1d_false",
    "Verif.C49_v1_res_2d_false",
    "Verif.C49_v2_res_2d_false",
    "Verif.C49_v1_res_3d_false",
    "Verif.C49_v2_res_3d_false",
    "Verif.C49_bc_1d",
    "Verif.C49_poisson_bc_1d",
    "Verif.C49_bc_2d_partial",
    "Verif.C49_poisson_bc_2d_partial",
    "Verif.C49_bc_3d_partial",
    "Verif.C49_poisson_bc_3d_partial",
    "Verif.C49_corner_bc_2d",
    "Verif.C49_homogenous_bc_2d_partial",
    "Verif.C49_flux_1d_dyadic",
    "Verif.C49_flux_2d_dyadic",
    "Verif.C49_flux_3d_dyadic",
    "Verif.C49_adj_diag_1d_dyadic",
    "Verif.C49_adj_diag_2d_dyadic_partial",
    "Verif.C49_adj_diag_3d_dyadic_partial",
    "Verif.C49_adj_poisson_diag_3d_dyadic",
    "Verif.C49_adj_cf_diag_1d_dyadic_partial",
    "Verif.C49_adj_cf_diag_2d_dyadic_partial",
    "Verif.C49_adj_cf_diag_3d_dyadic_partial",
    "Verif.C49_adj_poisson_cf_diag_1d_dyadic",
    "Verif.C49_adj_poisson_cf_diag_2d_dyadic",
    "Verif.C49_adj_poisson_cf_diag_3d_dyadic",
    "Verif.C49_adj_diag_1d_type4_false",
    "Verif.C49_adj_cf_diag_1d_order1_false",
    "Verif.C49_adj_cf_diag_1d_order2_false",
    "Verif.C49_adj_poisson_cf_diag_1d_order1_false",
    "Verif.C49_adj_poisson_cf_diag_1d_order2_false",
    "Verif.C49_adj_cf_offdiag_1d_order1_false",
    "Verif.C49_adj_cf_offdiag_1d_order2_false",
    "Verif.C49_adj_offdiag_1d_type0_false",
    "Verif.C49_adj_poisson_offdiag_1d_type0_false",
    "Verif.C49_adj_diag_2d_type4_false",
    "Verif.C49_adj_diag_2d_type0_false",
    "Verif.C49_adj_cf_diag_2d_order1_false",
    "Verif.C49_adj_cf_diag_2d_order2_false",
    "Verif.C49_adj_poisson_cf_diag_2d_order1_false",
    "Verif.C49_adj_poisson_cf_diag_2d_order2_false",
    "Verif.C49_adj_cf_offdiag_2d_order1_false",
    "Verif.C49_adj_cf_offdiag_2d_order2_false",
    "Verif.C49_adj_offdiag_2d_type0_false",
    "Verif.C49_adj_poisson_offdiag_2d_type0_false",
    "Verif.C49_adj_diag_3d_type4_false",
    "Verif.C49_adj_diag_3d_type0_false",
    "Verif.C49_adj_poisson_diag_3d_type0_false",
    "Verif.C49_adj_cf_diag_3d_order1_false",
    "Verif.C49_adj_cf_diag_3d_order2_false",
    "Verif.C49_adj_poisson_cf_diag_3d_order1_false",
    "Verif.C49_adj_poisson_cf_diag_3d_order2_false",
    "Verif.C49_adj_cf_offdiag_3d_order1_false",
    "Verif.C49_adj_cf_offdiag_3d_order2_false",
    "Verif.C49_adj_offdiag_3d_type0_false",
    "Verif.C49_adj_poisson_offdiag_3d_type0_false",
    "Verif.C49_bc_2d_corner_false",
    "Verif.C49_bc_3d_edge_false",
    "Verif.C49_bc_3d_corner_false",
    "Verif.C49_poisson_bc_2d_corner_false",
    "Verif.C49_poisson_bc_3d_edge_false",
    "Verif.C49_poisson_bc_3d_corner_false",
    "Verif.C49_flux_1d",
    "Verif.C49_flux_poisson_1d",
    "Verif.C49_flux_2d",
    "Verif.C49_flux_poisson_2d",
    "Verif.C49_flux_3d",
    "Verif.C49_flux_poisson_3d",
    "Verif.C49_flux_1d_false",
    "Verif.C49_flux_2d_false",
    "Verif.C49_flux_3d_false",
    "Verif.C49_offdiag_1d",
    "Verif.C49_poisson_offdiag_1d",
    "Verif.C49_v1diag_1d",
    "Verif.C49_v2diag_1d",
    "Verif.C49_poisson_diag_1d",
    "Verif.C49_offdiag_2d",
    "Verif.C49_poisson_offdiag_2d",
    "Verif.C49_v1diag_2d",
    "Verif.C49_v2diag_2d",
    "Verif.C49_poisson_diag_2d",
    "Verif.C49_offdiag_3d",
    "Verif.C49_poisson_offdiag_3d",
    "Verif.C49_v1diag_3d",
    "Verif.C49_v2diag_3d",
    "Verif.C49_poisson_diag_3d",
    "Verif.C49_readj_offdiag_1d",
    "Verif.C49_adj_cf_bdryrhs_1d",
    "Verif.C49_readj_offdiag_2d",
    "Verif.C49_adj_cf_bdryrhs_2d",
    "Verif.C49_readj_offdiag_3d",
    "Verif.C49_adj_cf_bdryrhs_3d"
   ],
   "note": "All 24 flux, residual and operator kernels, all 42 stencil coefficient kernels and the 8 boundary condition kernels, in 1D, 2D, 3D, over any type with +, -, *, / and no laws; each theorem names the identities it needs (for the ghost cells the structure Rounding, which B64.rounding proves of 53 bit arithmetic), Poisson flux and readj_offdiag need none. C33, C34, C35 and C36 are corollaries. The full statement, the same bits in 53 bit arithmetic for every kernel, is false: C49_flux_*_false, C49_v1_res_*_false, C49_v2_res_*_false, the 30 C49_adj_*_false (adjustments at boundary type 4 or 0 and order 2, and at coarse-fine boundaries) and the 6 C49_*bc_*_false (edges and corners), because the C++ and the Fortran formulas associate differently. C49_*_dyadic: with mesh widths that are powers of two the flux, adj_diag, adj_poisson_diag, adj_cf_diag at order 2 and adj_poisson_cf_diag kernels agree in 53 bits after all. As in C35 the 2D and 3D boundary condition theorems ask for segments along the box. Fused multiply-add, overflow and subnormal numbers are outside the arithmetic."
  },
  {
   "property": "C50",
   "status": "partial",
   "theorems": [
    "Verif.C50_jacobi_1d",
    "Verif.C50_fixed_1d",
    "Verif.C50_jacobi_2d",
    "Verif.C50_fixed_2d",
    "Verif.C50_jacobi_3d",
    "Verif.C50_fixed_3d",
    "Verif.C50_factor_2d_false"
   ],
   "note": "C50_jacobi_1d/2d/3d in every arithmetic; C50_fixed_* over any field. Two dimensions: the factor is the single precision constant 0.8, so the new values are not those of the factor 8/10 (C50_factor_2d_false); C50_jacobi_2d is proved with the factor 13421773/16777216 the routine does use."
  },
  {
   "property": "C51",
   "status": "partial",
   "theorems": [
    "Verif.C51_gs_1d_partial",
    "Verif.C51_fixed_1d_partial",
    "Verif.C51_determined_1d",
    "Verif.C51_gs_2d",
    "Verif.C51_fixed_2d",
    "Verif.C51_determined_2d",
    "Verif.C51_gs_3d",
    "Verif.C51_fixed_3d",
    "Verif.C51_determined_3d",
    "Verif.C51_gs_1d_false"
   ],
   "note": "2D and 3D in full. cellgs1d declares f with the bounds of u: false when they differ (C51_gs_1d_false), proved when the lower bounds agree (C51_gs_1d_partial, C51_fixed_1d_partial). Results in every arithmetic, fixed points over any field."
  },
  {
   "property": "C52",
   "status": "partial",
   "theorems": [
    "Verif.C52_sweep_1d",
    "Verif.C52_equation_1d",
    "Verif.C52_both_1d",
    "Verif.C52_sweep_2d_partial",
    "Verif.C52_equation_2d_partial",
    "Verif.C52_both_2d_partial",
    "Verif.C52_sweep_3d",
    "Verif.C52_equation_3d",
    "Verif.C52_both_3d",
    "Verif.C52_sweep_2d_false",
    "Verif.C52_nine_false"
   ],
   "note": "1D (nonnegative colour) and 3D (nonnegative colour) in full. 2D: Fortran mod(j + color, 2) is negative for negative odd rows and a cell outside the box is changed (C52_sweep_2d_false); proved when lo1 + color is not negative (C52_*_2d_partial). The nine-point routine joins cells of one colour, so its cells need not satisfy their equations (C52_nine_false)."
  },
  {
   "property": "C53",
   "status": "proved",
   "theorems": [
    "Verif.C53_five",
    "Verif.C53_nine",
    "Verif.C53_seven"
   ],
   "note": "Equality of outcomes, errors included, for every memory; the seven-point routine stores the numerator in u first, so u must not share elements with the coefficients."
  },
  {
   "property": "C54",
   "status": "proved",
   "theorems": [
    "Verif.C54_v1_1d",
    "Verif.C54_v2_1d",
    "Verif.C54_poisson_1d",
    "Verif.C54_v1_2d",
    "Verif.C54_v2_2d",
    "Verif.C54_poisson_2d",
    "Verif.C54_v1_3d",
    "Verif.C54_v2_3d",
    "Verif.C54_poisson_3d"
   ],
   "note": "For diffusion v1, v2 and Poisson in one, two and three dimensions. \"Outside the box\" in the hypothesis on V means every index that is not in the box."
  },
  {
   "property": "C55",
   "status": "proved",
   "theorems": [
    "Verif.C55_v1_1d",
    "Verif.C55_v2_1d",
    "Verif.C55_poisson_1d",
    "Verif.C55_v1_2d",
    "Verif.C55_v2_2d",
    "Verif.C55_poisson_2d",
    "Verif.C55_v1_3d",
    "Verif.C55_v2_3d",
    "Verif.C55_poisson_3d"
   ],
   "note": "As C54; both fields vanish outside the box."
  },
  {
   "property": "C56",
   "status": "proved",
   "theorems": [
    "Verif.C56_v1_1d",
    "Verif.C56_v2_1d",
    "Verif.C56_poisson_1d",
    "Verif.C56_v1_2d",
    "Verif.C56_v2_2d",
    "Verif.C56_poisson_2d",
    "Verif.C56_v1_3d",
    "Verif.C56_v2_3d",
    "Verif.C56_poisson_3d"
   ],
   "note": "Over any linearly ordered field. The sign conditions are the structure F.Elliptic1/2/3, shown satisfiable beside each theorem."
  },
  {
   "property": "C57",
   "status": "proved",
   "theorems": [
    "Verif.C57_v1_1d",
    "Verif.C57_v2_1d",
    "Verif.C57_poisson_1d",
    "Verif.C57_v1_2d",
    "Verif.C57_v2_2d",
    "Verif.C57_poisson_2d",
    "Verif.C57_v1_3d",
    "Verif.C57_v2_3d",
    "Verif.C57_poisson_3d"
   ],
   "note": "As C56; the two fields agree on every index outside the box."
  },
  {
   "property": "C58",
   "status": "proved",
   "theorems": [
    "Verif.C58_v1_1d",
    "Verif.C58_v2_1d",
    "Verif.C58_poisson_1d",
    "Verif.C58_v1_2d",
    "Verif.C58_v2_2d",
    "Verif.C58_poisson_2d",
    "Verif.C58_v1_3d",
    "Verif.C58_v2_3d",
    "Verif.C58_poisson_3d"
   ],
   "note": "As C56; for Poisson the bound may have either sign, for the others it is not negative."
  },
  {
   "property": "C59",
   "status": "partial",
   "theorems": [
    "Verif.C59_jacobi_1d",
    "Verif.C59_gs_1d_partial",
    "Verif.C59_rbgs_1d",
    "Verif.C59_jacobi_2d",
    "Verif.C59_gs_2d",
    "Verif.C59_rbgs_2d_partial",
    "Verif.C59_jacobi_3d",
    "Verif.C59_gs_3d",
    "Verif.C59_rbgs_3d"
   ],
   "note": "Jacobi in full in 1D, 2D, 3D (2D with the single precision factor the routine uses), Gauss-Seidel in 2D and 3D, red-black in 1D and 3D (nonnegative colours of different parity). Missing, because the routines misbehave there: Gauss-Seidel 1D when f and u have different lower bounds (C51_gs_1d_false), red-black 2D when lo1 + color is negative (C52_sweep_2d_false)."
  },
  {
   "property": "C60",
   "status": "partial",
   "theorems": [
    "Verif.C60_jacobi_1d",
    "Verif.C60_gs_1d_partial",
    "Verif.C60_jacobi_2d",
    "Verif.C60_gs_2d",
    "Verif.C60_jacobi_3d",
    "Verif.C60_gs_3d",
    "Verif.C60_rbgs_1d",
    "Verif.C60_rbgs_2d_partial",
    "Verif.C60_rbgs_3d"
   ],
   "note": "Jacobi in 1D, 2D, 3D, Gauss-Seidel in 2D and 3D and red-black Gauss-Seidel (a call for each colour) in 1D and 3D in full; Gauss-Seidel 1D when the lower bounds of f and u agree (see C51_gs_1d_false), red-black 2D when lo1 + color is not negative (see C52_sweep_2d_false)."
  },
  {
   "property": "C61",
   "status": "proved",
   "theorems": [
    "Verif.C61_v1_1d",
    "Verif.C61_v2_1d",
    "Verif.C61_poisson_1d",
    "Verif.C61_v1_2d",
    "Verif.C61_v2_2d",
    "Verif.C61_poisson_2d",
    "Verif.C61_v1_3d",
    "Verif.C61_v2_3d",
    "Verif.C61_poisson_3d"
   ],
   "note": "Diffusion v1, v2 and Poisson, one, two and three dimensions. Sign conditions as in C56 (F.Elliptic1/2/3)."
  },
  {
   "property": "C62",
   "status": "partial",
   "theorems": [
    "Verif.C62_jacobi_v1_1d",
    "Verif.C62_gs_v1_1d_partial",
    "Verif.C62_rbgs_v1_1d",
    "Verif.C62_jacobi_v2_1d",
    "Verif.C62_gs_v2_1d_partial",
    "Verif.C62_rbgs_v2_1d",
    "Verif.C62_jacobi_v1_2d",
    "Verif.C62_gs_v1_2d",
    "Verif.C62_rbgs_v1_2d_partial",
    "Verif.C62_jacobi_v2_2d",
    "Verif.C62_gs_v2_2d",
    "Verif.C62_rbgs_v2_2d_partial",
    "Verif.C62_jacobi_v1_3d",
    "Verif.C62_gs_v1_3d",
    "Verif.C62_rbgs_v1_3d",
    "Verif.C62_jacobi_v2_3d",
    "Verif.C62_gs_v2_3d",
    "Verif.C62_rbgs_v2_3d"
   ],
   "note": "v1 and v2 with Jacobi, Gauss-Seidel and red-black Gauss-Seidel in 1D, 2D, 3D. Missing, because the routines misbehave there: Gauss-Seidel 1D when right hand side and unknowns have different ghost widths (C51_gs_1d_false), red-black 2D when j0 + color is negative (C52_sweep_2d_false). The offset table holds the cell and its neighbours in the order of the coefficients."
  },
  {
   "property": "C63",
   "status": "partial",
   "theorems": [
    "Verif.C63_jacobi_1d",
    "Verif.C63_gs_1d_partial",
    "Verif.C63_rbgs_1d",
    "Verif.C63_jacobi_2d",
    "Verif.C63_gs_2d",
    "Verif.C63_rbgs_2d_partial",
    "Verif.C63_jacobi_3d",
    "Verif.C63_gs_3d",
    "Verif.C63_rbgs_3d"
   ],
   "note": "Jacobi, Gauss-Seidel and red-black Gauss-Seidel in 1D, 2D, 3D; the same two exceptions as C62."
  },
  {
   "property": "C64",
   "status": "partial",
   "theorems": [
    "Verif.C64_1d",
    "Verif.C64_poisson_1d",
    "Verif.C64_2d",
    "Verif.C64_poisson_2d",
    "Verif.C64_3d_partial",
    "Verif.C64_3d_false",
    "Verif.C64_cube_false",
    "Verif.C64_poisson_3d"
   ],
   "note": "All routines in full except nodediffusionflux3d, which reads b1 where it means b2 (line 82): it leaves its arrays on every box that is not a cube (C64_3d_false) and computes other numbers on a cube (C64_cube_false). C64_3d_partial: it agrees on cubes where the two coefficient arrays hold the same values."
  },
  {
   "property": "C65",
   "status": "partial",
   "theorems": [
    "Verif.C65_v1_1d",
    "Verif.C65_v1_apply_1d",
    "Verif.C65_v1_res_1d",
    "Verif.C65_v2_1d",
    "Verif.C65_v2_apply_1d",
    "Verif.C65_v2_res_1d",
    "Verif.C65_poisson_1d",
    "Verif.C65_poisson_apply_1d",
    "Verif.C65_poisson_res_1d",
    "Verif.C65_v1_2d",
    "Verif.C65_v1_apply_2d",
    "Verif.C65_v1_res_2d",
    "Verif.C65_v2_2d",
    "Verif.C65_v2_apply_2d",
    "Verif.C65_v2_res_2d",
    "Verif.C65_poisson_2d",
    "Verif.C65_poisson_apply_2d",
    "Verif.C65_poisson_res_2d",
    "Verif.C65_v1_3d",
    "Verif.C65_v1_apply_3d",
    "Verif.C65_v1_res_3d",
    "Verif.C65_v2_3d_partial",
    "Verif.C65_v2_3d_false",
    "Verif.C65_v2_cube_false",
    "Verif.C65_poisson_3d_partial",
    "Verif.C65_poisson_3d_false",
    "Verif.C65_poisson_cube_false"
   ],
   "note": "All routines in full except nodediffusionv2apply3d (line 131) and nodepoissonapply3d (line 181), which read flux1 where they mean flux2: they leave their arrays on every box that is not a cube (C65_v2_3d_false, C65_poisson_3d_false) and compute other numbers on a cube (C65_v2_cube_false, C65_poisson_cube_false). The _3d_partial theorems: they are right on cubes where the two fluxes hold the same values."
  },
  {
   "property": "C66",
   "status": "partial",
   "theorems": [
    "Verif.C66_1x1_1d",
    "Verif.C66_1x1_error_1d",
    "Verif.C66_2x2_value_1d",
    "Verif.C66_2x2_1d",
    "Verif.C66_2x2_error_1d",
    "Verif.C66_1x1_2d",
    "Verif.C66_1x1_error_2d",
    "Verif.C66_2x2_value_2d",
    "Verif.C66_2x2_2d",
    "Verif.C66_2x2_error_2d",
    "Verif.C66_factor_2d_false"
   ],
   "note": "1x1 and 2x2, 1D and 2D, in full with the factors the routines use. In two dimensions the factor is not 0.8: it is written as a single precision constant and is 13421773/2^24 (C66_factor_2d_false)."
  },
  {
   "property": "C67",
   "status": "partial",
   "theorems": [
    "Verif.C67_1d",
    "Verif.C67_sum_1d",
    "Verif.C67_2d_partial",
    "Verif.C67_sum_2d_partial",
    "Verif.C67_2d_false"
   ],
   "note": "1D in full. In two dimensions the loops use the bounds of the other dimension: the routine leaves its arrays on every box that has not the same bounds in both dimensions (C67_2d_false); the _2d_partial theorems cover the boxes that have."
  },
  {
   "property": "C68",
   "status": "proved",
   "theorems": [
    "Verif.C68_1d",
    "Verif.C68_1d_eqn",
    "Verif.C68_kernel_1d",
    "Verif.C68_2d_0",
    "Verif.C68_2d_0_eqn",
    "Verif.C68_kernel_2d_0",
    "Verif.C68_2d_1",
    "Verif.C68_2d_1_eqn",
    "Verif.C68_kernel_2d_1",
    "Verif.C68_3d_0",
    "Verif.C68_3d_0_eqn",
    "Verif.C68_kernel_3d_0",
    "Verif.C68_3d_1",
    "Verif.C68_3d_1_eqn",
    "Verif.C68_kernel_3d_1",
    "Verif.C68_3d_2",
    "Verif.C68_3d_2_eqn",
    "Verif.C68_kernel_3d_2"
   ],
   "note": "C68_1d, C68_2d_*, C68_3d_*: what is subtracted, for every arithmetic; _eqn: the equivalence of the equations, in exact arithmetic; C68_kernel_*: agreement with the kernels."
  },
  {
   "property": "C69",
   "status": "partial",
   "theorems": [
    "Verif.C69_offdiag_1d",
    "Verif.C69_poisson_offdiag_1d",
    "Verif.C69_v1diag_1d",
    "Verif.C69_v2diag_1d",
    "Verif.C69_poisson_diag_1d",
    "Verif.C69_offdiag_2d",
    "Verif.C69_poisson_offdiag_2d",
    "Verif.C69_v1diag_2d",
    "Verif.C69_v2diag_2d",
    "Verif.C69_poisson_diag_2d",
    "Verif.C69_offdiag_3d",
    "Verif.C69_poisson_offdiag_3d",
    "Verif.C69_v1diag_3d",
    "Verif.C69_v2diag_3d",
    "Verif.C69_poisson_diag_3d",
    "Verif.C69_adj_diag_1d",
    "Verif.C69_adj_poisson_diag_1d",
    "Verif.C69_adj_cf_diag_1d",
    "Verif.C69_adj_poisson_cf_diag_1d",
    "Verif.C69_adj_offdiag_1d",
    "Verif.C69_adj_poisson_offdiag_1d",
    "Verif.C69_adj_cf_offdiag_1d",
    "Verif.C69_readj_offdiag_1d",
    "Verif.C69_adj_cf_bdryrhs_1d",
    "Verif.C69_adj_diag_2d_partial",
    "Verif.C69_adj_poisson_diag_2d",
    "Verif.C69_adj_cf_diag_2d",
    "Verif.C69_adj_poisson_cf_diag_2d",
    "Verif.C69_adj_offdiag_2d",
    "Verif.C69_adj_poisson_offdiag_2d",
    "Verif.C69_adj_cf_offdiag_2d",
    "Verif.C69_readj_offdiag_2d",
    "Verif.C69_adj_cf_bdryrhs_2d",
    "Verif.C69_adj_diag_3d_partial",
    "Verif.C69_adj_poisson_diag_3d_partial",
    "Verif.C69_adj_cf_diag_3d_partial",
    "Verif.C69_adj_poisson_cf_diag_3d",
    "Verif.C69_adj_offdiag_3d_partial",
    "Verif.C69_adj_poisson_offdiag_3d_partial",
    "Verif.C69_adj_cf_offdiag_3d",
    "Verif.C69_readj_offdiag_3d_partial",
    "Verif.C69_adj_cf_bdryrhs_3d",
    "Verif.C69_adj_diag_2d_false",
    "Verif.C69_adj_diag_3d_false",
    "Verif.C69_adj_poisson_diag_3d_false",
    "Verif.C69_adj_cf_diag_3d_false",
    "Verif.C69_adj_offdiag_3d_false",
    "Verif.C69_adj_poisson_offdiag_3d_false",
    "Verif.C69_readj_offdiag_3d_false"
   ],
   "note": "1D in full, and the 35 of 42 routines without suffix. The full statement is false: seven routines carry _partial with a matching _false theorem. adj_diag 2D (kernel and routine leave the array at the upper side of a Dirichlet boundary), adj_diag and adj_poisson_diag 3D (the routine leaves its array there), adj_cf_diag 3D (third direction reads the array of the second), adj_offdiag and adj_poisson_offdiag 3D (Robin, order 2, upper side: index 1 for i), readj_offdiag 3D (third direction takes the index of the second)."
  },
  {
   "property": "C70",
   "status": "proved",
   "theorems": [
    "Verif.C70_v1_1d",
    "Verif.C70_v2_1d",
    "Verif.C70_poisson_1d",
    "Verif.C70_v1_2d",
    "Verif.C70_v2_2d",
    "Verif.C70_poisson_2d",
    "Verif.C70_v1_3d",
    "Verif.C70_v2_3d",
    "Verif.C70_poisson_3d"
   ],
   "note": "Two runs from two memories; the bound is for the exact values of the type (over any ordered field), not for rounded results. The Poisson bound is stated for every axis."
  },
  {
   "property": "C71",
   "status": "proved",
   "theorems": [
    "Verif.C71_v1_1d",
    "Verif.C71_v2_1d",
    "Verif.C71_poisson_1d",
    "Verif.C71_v1_2d",
    "Verif.C71_v2_2d",
    "Verif.C71_poisson_2d",
    "Verif.C71_v1_3d",
    "Verif.C71_v2_3d",
    "Verif.C71_poisson_3d"
   ],
   "note": "Over the real numbers (exact arithmetic). Derivative bounds are asked for along the grid lines only."
  },
  {
   "property": "C72",
   "status": "proved",
   "theorems": [
    "Verif.C72_v1_1d",
    "Verif.C72_v2_1d",
    "Verif.C72_poisson_1d",
    "Verif.C72_v1_2d",
    "Verif.C72_v2_2d",
    "Verif.C72_poisson_2d",
    "Verif.C72_v1_3d",
    "Verif.C72_v2_3d",
    "Verif.C72_poisson_3d"
   ],
   "note": "Over the real numbers (exact arithmetic). A bound on the distance, for a field that meets the equations up to t; that there is just one field that meets them exactly is C57 and C73. The ghost cells hold values within D of phi in their centres; the error the boundary condition kernels make in filling them is not part of the statement."
  },
  {
   "property": "C73",
   "status": "proved",
   "theorems": [
    "Verif.C73_v1_1d",
    "Verif.C73_v2_1d",
    "Verif.C73_poisson_1d",
    "Verif.C73_v1_2d",
    "Verif.C73_v2_2d",
    "Verif.C73_poisson_2d",
    "Verif.C73_v1_3d",
    "Verif.C73_v2_3d",
    "Verif.C73_poisson_3d"
   ],
   "note": "Stated as existence and uniqueness of a memory that differs from the given one only in the box of the unknown. The unknown shares no element with the coefficients."
  },
  {
   "property": "C74",
   "status": "partial",
   "theorems": [
    "Verif.C74_v1_1d_partial",
    "Verif.C74_v2_1d_partial",
    "Verif.C74_poisson_1d_partial",
    "Verif.C74_v1_2d_partial",
    "Verif.C74_v2_2d_partial",
    "Verif.C74_poisson_2d_partial",
    "Verif.C74_v1_3d_partial",
    "Verif.C74_v2_3d_partial",
    "Verif.C74_poisson_3d_partial",
    "Verif.C74_v2_1d_robin2_false",
    "Verif.C74_poisson_1d_robin2_false",
    "Verif.C74_v2_2d_robin2_false",
    "Verif.C74_v2_2d_robin_dir1_false",
    "Verif.C74_v2_2d_dirichlet2_false",
    "Verif.C74_poisson_2d_robin2_false",
    "Verif.C74_poisson_2d_robin_dir1_false",
    "Verif.C74_v2_3d_robin2_false",
    "Verif.C74_v2_3d_dirichlet2_false",
    "Verif.C74_poisson_3d_robin2_false",
    "Verif.C74_poisson_3d_dirichlet2_false"
   ],
   "note": "Proved for Dirichlet of order 1 (with dir_factor = 2), Neumann, Robin of order 1 (in 2D only in direction 0), and Dirichlet of order 2 where adj_diag does nothing (1D, and 2D for Poisson). False, with witnesses, for the rest: Robin of order 2 in every dimension, Dirichlet of order 2 in 2D (diffusion) and 3D, Robin in direction 1 of 2D."
  },
  {
   "property": "C75",
   "status": "partial",
   "theorems": [
    "Verif.C75_v1_1d_partial",
    "Verif.C75_v2_1d_partial",
    "Verif.C75_poisson_1d_partial",
    "Verif.C75_v1_2d_partial",
    "Verif.C75_v2_2d_partial",
    "Verif.C75_poisson_2d_partial",
    "Verif.C75_v1_3d_partial",
    "Verif.C75_v2_3d_partial",
    "Verif.C75_poisson_3d_partial",
    "Verif.C75_v2_1d_ratio4_false",
    "Verif.C75_poisson_1d_ratio4_false",
    "Verif.C75_v2_2d_ratio4_false",
    "Verif.C75_poisson_2d_ratio4_false",
    "Verif.C75_v2_3d_ratio4_false",
    "Verif.C75_poisson_3d_ratio4_false"
   ],
   "note": "Order 2 for every refinement ratio (other than -1 and -3), order 1 for ratio 2. For order 1 and ratio 4 false, with witnesses in every dimension: the kernels take the weights of ratio 2 whatever the ratio."
  },
  {
   "property": "C76",
   "status": "proved",
   "theorems": [
    "Verif.C76_1d",
    "Verif.C76_poisson_1d",
    "Verif.C76_2d",
    "Verif.C76_poisson_2d",
    "Verif.C76_3d",
    "Verif.C76_poisson_3d",
    "Verif.C76_corner_2d",
    "Verif.C76_homogenous_2d"
   ],
   "note": "Over any field. The segment lies within reach of the array, as in C35. Each kernel is stated with its own segment (F.onSeg1, F.onSeg2, F.onSeg3, F.beside2)."
  },
  {
   "property": "C77",
   "status": "partial",
   "theorems": [
    "Verif.C77_v1_1d_partial",
    "Verif.C77_v2_1d_partial",
    "Verif.C77_poisson_1d_partial",
    "Verif.C77_v1_2d_partial",
    "Verif.C77_v2_2d_partial",
    "Verif.C77_poisson_2d_partial",
    "Verif.C77_v1_3d_partial",
    "Verif.C77_v2_3d_partial",
    "Verif.C77_poisson_3d_partial"
   ],
   "note": "Proved for Dirichlet of order 1 (with dir_factor = 2) and, where C74 has it, of order 2, for Neumann, and for Robin of order 1 with coefficients 2 and 1 (in 2D only in direction 0); the segment is one cell thick. Missing: the cases in which the adjusted rows are wrong (see the witnesses of C74)."
  },
  {
   "property": "C78",
   "status": "partial",
   "theorems": [
    "Verif.C78_added",
    "Verif.C78_unchanged_iff",
    "Verif.C78_solution_partial",
    "Verif.C78_false"
   ],
   "note": "False of the code (C78_false): the routine adds to the unknowns what it should replace them by. C78_added says in full what a call leaves, C78_unchanged_iff which fields it leaves unchanged, C78_solution_partial that among the solutions it is just the zero field. LAPACK is a parameter that solves regular systems."
  },
  {
   "property": "C79",
   "status": "partial",
   "theorems": [
    "Verif.C79_residual_partial",
    "Verif.C79_creatematrix_false",
    "Verif.C79_cellblockjacobi_false"
   ],
   "note": "False of the code on every call with at least one block: creatematrix runs over the table from 1 to stencilSize, the table ends at stencilSize - 1 (C79_creatematrix_false, C79_cellblockjacobi_false). A call without a block ends and leaves the residuals of the box in the work array (C79_residual_partial)."
  },
  {
   "property": "C80",
   "status": "proved",
   "theorems": [
    "Verif.C80_1d",
    "Verif.C80_poisson_1d",
    "Verif.C80_2d",
    "Verif.C80_poisson_2d",
    "Verif.C80_3d",
    "Verif.C80_poisson_3d",
    "Verif.C80_corner_2d",
    "Verif.C80_narrow_false",
    "Verif.C80_mixed_false"
   ],
   "note": "For boxes at least two cells wide; on a box one cell wide it is false (C80_narrow_false, order 2: each side reads the ghost cell of the other). Calls of different kinds do not commute (C80_mixed_false: corners read the ghost cells of the sides)."
  },
  {
   "property": "C81",
   "status": "partial",
   "theorems": [
    "Verif.C81_jacobi_1d",
    "Verif.C81_gs_1d_partial",
    "Verif.C81_rbgs_1d",
    "Verif.C81_jacobi_2d",
    "Verif.C81_gs_2d",
    "Verif.C81_rbgs_2d_partial",
    "Verif.C81_jacobi_3d",
    "Verif.C81_gs_3d",
    "Verif.C81_rbgs_3d",
    "Verif.C81_nonneg",
    "Verif.C81_assembled_v1_1d",
    "Verif.C81_assembled_v2_1d",
    "Verif.C81_assembled_poisson_1d",
    "Verif.C81_assembled_v1_2d",
    "Verif.C81_assembled_v2_2d",
    "Verif.C81_assembled_poisson_2d",
    "Verif.C81_assembled_v1_3d",
    "Verif.C81_assembled_v2_3d",
    "Verif.C81_assembled_poisson_3d"
   ],
   "note": "Proved for damped Jacobi and for Gauss-Seidel and red-black Gauss-Seidel with two exceptions inherited from C51 and C52, where the routine does not make the sweep it should: 1D Gauss-Seidel reads f with the lower bound of u (C81_gs_1d_partial needs equal bounds, C51_gs_1d_false), and 2D red-black takes a negative j + color to the wrong colour (C81_rbgs_2d_partial, C52_sweep_2d_false)."
  },
  {
   "property": "C82",
   "status": "proved",
   "theorems": [
    "Verif.C82_apply_v1_1d",
    "Verif.C82_apply_v2_1d",
    "Verif.C82_apply_diffusion_1d",
    "Verif.C82_apply_poisson_1d",
    "Verif.C82_apply_v1_2d",
    "Verif.C82_apply_v2_2d",
    "Verif.C82_apply_diffusion_2d",
    "Verif.C82_apply_poisson_2d",
    "Verif.C82_apply_v1_3d",
    "Verif.C82_apply_v2_3d",
    "Verif.C82_apply_diffusion_3d",
    "Verif.C82_apply_poisson_3d",
    "Verif.C82_apply_relative_false",
    "Verif.C82_coef_v1_1d",
    "Verif.C82_coef_v2_1d",
    "Verif.C82_coef_poisson_1d",
    "Verif.C82_diag_relative_1d",
    "Verif.C82_coef_v1_2d",
    "Verif.C82_coef_v2_2d",
    "Verif.C82_coef_poisson_2d",
    "Verif.C82_diag_relative_2d",
    "Verif.C82_coef_v1_3d",
    "Verif.C82_coef_v2_3d",
    "Verif.C82_coef_poisson_3d",
    "Verif.C82_diag_relative_3d",
    "Verif.C82_flux_1d",
    "Verif.C82_poisson_flux_1d",
    "Verif.C82_flux_2d",
    "Verif.C82_poisson_flux_2d",
    "Verif.C82_flux_3d",
    "Verif.C82_poisson_flux_3d",
    "Verif.C82_res_v1_1d",
    "Verif.C82_res_v2_1d",
    "Verif.C82_res_diffusion_1d",
    "Verif.C82_res_poisson_1d",
    "Verif.C82_res_v1_2d",
    "Verif.C82_res_v2_2d",
    "Verif.C82_res_diffusion_2d",
    "Verif.C82_res_poisson_2d",
    "Verif.C82_res_v1_3d",
    "Verif.C82_res_v2_3d",
    "Verif.C82_res_diffusion_3d",
    "Verif.C82_res_poisson_3d"
   ],
   "note": "The operator value is not accurate relative to itself, as nothing computed from such differences could be: C82_apply_relative_false has an exact value of 2/9 where the kernel leaves 0. Overflow and underflow are outside the model of the arithmetic (unbounded exponent)."
  },
  {
   "property": "C83",
   "status": "partial",
   "theorems": [
    "Verif.C83_jacobi_1d",
    "Verif.C83_gs_1d_partial",
    "Verif.C83_rbgs_1d",
    "Verif.C83_jacobi_2d",
    "Verif.C83_gs_2d",
    "Verif.C83_rbgs_2d_partial",
    "Verif.C83_jacobi_3d",
    "Verif.C83_gs_3d",
    "Verif.C83_rbgs_3d"
   ],
   "note": "Proved for damped Jacobi and for Gauss-Seidel and red-black Gauss-Seidel with the two exceptions inherited from C51 and C52, where the routine does not make the sweep it should: 1D Gauss-Seidel reads f with the lower bound of u (C83_gs_1d_partial needs equal bounds, C51_gs_1d_false), and 2D red-black takes a negative j + color to the wrong colour (C83_rbgs_2d_partial, C52_sweep_2d_false)."
  },
  {
   "property": "C84",
   "status": "partial",
   "theorems": [
    "Verif.C84_jacobi_v1_1d",
    "Verif.C84_gs_v1_1d_partial",
    "Verif.C84_rbgs_v1_1d",
    "Verif.C84_jacobi_v2_1d",
    "Verif.C84_gs_v2_1d_partial",
    "Verif.C84_rbgs_v2_1d",
    "Verif.C84_jacobi_v1_2d_partial",
    "Verif.C84_gs_v1_2d_partial",
    "Verif.C84_rbgs_v1_2d_partial",
    "Verif.C84_jacobi_v2_2d_partial",
    "Verif.C84_gs_v2_2d_partial",
    "Verif.C84_rbgs_v2_2d_partial",
    "Verif.C84_jacobi_v1_3d",
    "Verif.C84_gs_v1_3d",
    "Verif.C84_rbgs_v1_3d",
    "Verif.C84_jacobi_v2_3d",
    "Verif.C84_gs_v2_3d",
    "Verif.C84_rbgs_v2_3d"
   ],
   "note": "Only conditions of first order: the assembly kernels treat the higher orders differently from the ghost fill (C74, C77). 2D: no Robin segments across the second direction, where adj_offdiag takes the wrong coefficient (C74_v2_2d_robin_dir1_false). 1D Gauss-Seidel with equal bounds of f and u (C51_gs_1d_false), 2D red-black with the colour of C52_sweep_2d_false."
  },
  {
   "property": "C85",
   "status": "proved",
   "theorems": [
    "Verif.C85_v1_1d",
    "Verif.C85_v2_1d",
    "Verif.C85_poisson_1d",
    "Verif.C85_v1_2d",
    "Verif.C85_v2_2d",
    "Verif.C85_poisson_2d",
    "Verif.C85_v1_3d",
    "Verif.C85_v2_3d",
    "Verif.C85_poisson_3d",
    "Verif.C85_poisson_1d_neumann_false"
   ],
   "note": "The proviso is needed: C85_poisson_1d_neumann_false has two constant fields that solve the same Poisson problem with Neumann conditions on both sides."
  },
  {
   "property": "C86",
   "status": "proved",
   "theorems": [
    "Verif.C86_reflect_v1_1d",
    "Verif.C86_reflect_coef_v1_1d",
    "Verif.C86_reflect_v2_1d",
    "Verif.C86_reflect_coef_v2_1d",
    "Verif.C86_reflect_poisson_1d",
    "Verif.C86_reflect_coef_poisson_1d",
    "Verif.C86_exchange_v1_2d",
    "Verif.C86_exchange_coef_v1_2d",
    "Verif.C86_exchange_v2_2d",
    "Verif.C86_exchange_coef_v2_2d",
    "Verif.C86_exchange_poisson_2d",
    "Verif.C86_exchange_coef_poisson_2d",
    "Verif.C86_reflect_v1_2d",
    "Verif.C86_reflect_coef_v1_2d",
    "Verif.C86_reflect_v2_2d",
    "Verif.C86_reflect_coef_v2_2d",
    "Verif.C86_reflect_poisson_2d",
    "Verif.C86_reflect_coef_poisson_2d",
    "Verif.C86_rotate_v1_3d",
    "Verif.C86_rotate_coef_v1_3d",
    "Verif.C86_rotate_v2_3d",
    "Verif.C86_rotate_coef_v2_3d",
    "Verif.C86_rotate_poisson_3d",
    "Verif.C86_rotate_coef_poisson_3d",
    "Verif.C86_exchange_v1_3d",
    "Verif.C86_exchange_coef_v1_3d",
    "Verif.C86_exchange_v2_3d",
    "Verif.C86_exchange_coef_v2_3d",
    "Verif.C86_exchange_poisson_3d",
    "Verif.C86_exchange_coef_poisson_3d",
    "Verif.C86_reflect_v1_3d",
    "Verif.C86_reflect_coef_v1_3d",
    "Verif.C86_reflect_v2_3d",
    "Verif.C86_reflect_coef_v2_3d",
    "Verif.C86_reflect_poisson_3d",
    "Verif.C86_reflect_coef_poisson_3d"
   ],
   "note": ""
  },
  {
   "property": "C87",
   "status": "proved",
   "theorems": [
    "Verif.C87_v1_2d",
    "Verif.C87_v2_2d",
    "Verif.C87_poisson_2d",
    "Verif.C87_v1_3d",
    "Verif.C87_v2_3d",
    "Verif.C87_poisson_3d"
   ],
   "note": ""
  },
  {
   "property": "C88",
   "status": "partial",
   "theorems": [
    "Verif.C88_2d_i_lower_partial",
    "Verif.C88_2d_i_upper_partial",
    "Verif.C88_2d_j_lower_partial",
    "Verif.C88_2d_j_upper_partial",
    "Verif.C88_poisson_2d_i_lower_partial",
    "Verif.C88_poisson_2d_i_upper_partial",
    "Verif.C88_poisson_2d_j_lower_partial",
    "Verif.C88_poisson_2d_j_upper_partial",
    "Verif.C88_3d_i_lower_partial",
    "Verif.C88_3d_i_upper_partial",
    "Verif.C88_3d_j_lower_partial",
    "Verif.C88_3d_j_upper_partial",
    "Verif.C88_3d_k_lower_partial",
    "Verif.C88_3d_k_upper_partial",
    "Verif.C88_poisson_3d_i_lower_partial",
    "Verif.C88_poisson_3d_i_upper_partial",
    "Verif.C88_poisson_3d_j_lower_partial",
    "Verif.C88_poisson_3d_j_upper_partial",
    "Verif.C88_poisson_3d_k_lower_partial",
    "Verif.C88_poisson_3d_k_upper_partial",
    "Verif.C88_2d_order0_false",
    "Verif.C88_poisson_2d_robin_false",
    "Verif.C88_poisson_1d_robin_false"
   ],
   "note": "Conditions for which all kernels store a value: Dirichlet and Robin of order 1 and 2, and Neumann. False for Dirichlet conditions of order 0 in 2D (C88_2d_order0_false), for Poisson Robin conditions across the second direction in 2D (C88_poisson_2d_robin_false) and, unless alpha = 2 and beta = 1, for those of the other faces (C88_poisson_1d_robin_false)."
  },
  {
   "property": "C89",
   "status": "proved",
   "theorems": [
    "Verif.C89_v1_1d",
    "Verif.C89_v2_1d",
    "Verif.C89_poisson_1d_axis0",
    "Verif.C89_v1_2d",
    "Verif.C89_v2_2d",
    "Verif.C89_poisson_2d_axis0",
    "Verif.C89_poisson_2d_axis1",
    "Verif.C89_v1_3d",
    "Verif.C89_v2_3d",
    "Verif.C89_poisson_3d_axis0",
    "Verif.C89_poisson_3d_axis1",
    "Verif.C89_poisson_3d_axis2"
   ],
   "note": "Over the real numbers (exact arithmetic). Conditions of first order; a field that meets the conditions and the equations exists and is unique by C85, and that the boundary kernels set ghost values of this kind is C76 and C77."
  },
  {
   "property": "C90",
   "status": "partial",
   "theorems": [
    "Verif.C90_1d",
    "Verif.C90_poisson_1d_partial",
    "Verif.C90_2d",
    "Verif.C90_poisson_2d_partial",
    "Verif.C90_poisson_1d_false",
    "Verif.C90_poisson_2d_false",
    "Verif.C90_3d",
    "Verif.C90_poisson_3d"
   ],
   "note": "Proved for set_bc in all dimensions and set_poisson_bc in 3D. False for Robin conditions of set_poisson_bc in 1D unless alpha = 2 beta (C90_poisson_1d_false) and in 2D across the second direction (C90_poisson_2d_false), which the _partial theorems leave out. Boxes at least two cells wide."
  },
  {
   "property": "C91",
   "status": "partial",
   "theorems": [
    "Verif.C91_v1_1d",
    "Verif.C91_v2_1d",
    "Verif.C91_v1_2d_partial",
    "Verif.C91_v2_2d_partial",
    "Verif.C91_v2_2d_false",
    "Verif.C91_v1_3d",
    "Verif.C91_v2_3d"
   ],
   "note": "Proved in 1D and 3D. In 2D adj_offdiag has no Robin conditions across the second direction, and the two ways differ there (C91_v2_2d_false); the _partial theorems leave these out."
  },
  {
   "property": "C92",
   "status": "partial",
   "theorems": [
    "Verif.C92_v1_1d",
    "Verif.C92_v2_1d",
    "Verif.C92_poisson_1d",
    "Verif.C92_v1_2d",
    "Verif.C92_v2_2d",
    "Verif.C92_poisson_2d_partial",
    "Verif.C92_poisson_2d_false",
    "Verif.C92_v1_3d",
    "Verif.C92_v2_3d",
    "Verif.C92_poisson_3d"
   ],
   "note": "Proved in 1D and 3D and for the diffusion operators in 2D. set_poisson_bc has no Robin conditions across the second direction in 2D: what it leaves in the ghost cells is not symmetric (C92_poisson_2d_false); C92_poisson_2d_partial leaves these out."
  },
  {
   "property": "C93",
   "status": "partial",
   "theorems": [
    "Verif.C93_v1_1d",
    "Verif.C93_v2_1d",
    "Verif.C93_poisson_1d",
    "Verif.C93_v1_2d",
    "Verif.C93_v2_2d",
    "Verif.C93_poisson_2d_partial",
    "Verif.C93_poisson_2d_false",
    "Verif.C93_v1_3d",
    "Verif.C93_v2_3d",
    "Verif.C93_poisson_3d"
   ],
   "note": "Proved in 1D and 3D and for the diffusion operators in 2D. set_poisson_bc has no Robin conditions across the second direction in 2D, and positivity fails there (C93_poisson_2d_false); C93_poisson_2d_partial leaves these out."
  },
  {
   "property": "C94",
   "status": "partial",
   "theorems": [
    "Verif.C94_v1_1d",
    "Verif.C94_v2_1d",
    "Verif.C94_poisson_1d",
    "Verif.C94_v1_2d",
    "Verif.C94_v2_2d",
    "Verif.C94_poisson_2d_partial",
    "Verif.C94_poisson_2d_false",
    "Verif.C94_v1_3d",
    "Verif.C94_v2_3d",
    "Verif.C94_poisson_3d"
   ],
   "note": "Proved in 1D and 3D and for the diffusion operators in 2D. set_poisson_bc has no Robin conditions across the second direction in 2D, and order is not preserved there (C94_poisson_2d_false); C94_poisson_2d_partial leaves these out."
  },
  {
   "property": "C95",
   "status": "proved",
   "theorems": [
    "Verif.C95_stride_1d",
    "Verif.C95_stride_2d",
    "Verif.C95_stride_3d",
    "Verif.C95_init_1d",
    "Verif.C95_init_2d"
   ],
   "note": "The md_device_span test kernels: stride in 1D, 2D and 3D, init in 1D and 2D. The int products the code forms are assumed to fit."
  },
  {
   "property": "C96",
   "status": "proved",
   "theorems": [
    "Verif.C96_fine"
   ],
   "note": "The coarse to fine test kernel, for all index ranges."
  },
  {
   "property": "C97",
   "status": "proved",
   "theorems": [
    "Verif.C97_init",
    "Verif.C97_transform",
    "Verif.C97_transform2",
    "Verif.C97_transform3",
    "Verif.C97_transform4",
    "Verif.C97_rhs"
   ],
   "note": "All six window test kernels; sizes are those the kernels assert."
  },
  {
   "property": "C98",
   "status": "partial",
   "theorems": [
    "Verif.C98_init_partial",
    "Verif.C98_init_false",
    "Verif.C98_transform"
   ],
   "note": "transform is proved for all arrays. The assertions of init fail for some arrays (C98_init_false: two elements along the last direction, or a single row); C98_init_partial leaves these out."
  },
  {
   "property": "C99",
   "status": "proved",
   "theorems": [
    "Verif.C99_tabulate",
    "Verif.C99_init"
   ],
   "note": "tabulate for any number of dimensions; init in two and three dimensions (those instantiated), for boxes with at least two rows (planes): with fewer the kernel writes outside its box."
  },
  {
   "property": "C100",
   "status": "proved",
   "theorems": [
    "Verif.C100_transpose"
   ],
   "note": "Any number of dimensions and any permutation."
  },
  {
   "property": "C101",
   "status": "proved",
   "theorems": [
    "Verif.C101_moves",
    "Verif.C101_address",
    "Verif.C101_init"
   ],
   "note": "Iterator laws, addresses, and the test kernel."
  },
  {
   "property": "C102",
   "status": "proved",
   "theorems": [
    "Verif.C102_flux_1d",
    "Verif.C102_flux_poisson_1d",
    "Verif.C102_flux_2d",
    "Verif.C102_flux_poisson_2d",
    "Verif.C102_flux_3d",
    "Verif.C102_flux_poisson_3d"
   ],
   "note": "All six test cases; exact arithmetic."
  },
  {
   "property": "C103",
   "status": "proved",
   "theorems": [
    "Verif.C103_v1_res_1d",
    "Verif.C103_v2_res_1d",
    "Verif.C103_poisson_res_1d",
    "Verif.C103_v1_apply_1d",
    "Verif.C103_v2_apply_1d",
    "Verif.C103_poisson_apply_1d",
    "Verif.C103_v1_res_2d",
    "Verif.C103_v2_res_2d",
    "Verif.C103_poisson_res_2d",
    "Verif.C103_v1_apply_2d",
    "Verif.C103_v2_apply_2d",
    "Verif.C103_poisson_apply_2d",
    "Verif.C103_v1_res_3d",
    "Verif.C103_v2_res_3d",
    "Verif.C103_poisson_res_3d",
    "Verif.C103_v1_apply_3d",
    "Verif.C103_v2_apply_3d",
    "Verif.C103_poisson_apply_3d"
   ],
   "note": "All eighteen test cases; exact arithmetic."
  },
  {
   "property": "C104",
   "status": "proved",
   "theorems": [
    "Verif.C104_offdiag_1d",
    "Verif.C104_poisson_offdiag_1d",
    "Verif.C104_v1diag_1d",
    "Verif.C104_v2diag_1d",
    "Verif.C104_poisson_diag_1d",
    "Verif.C104_adj_diag_1d",
    "Verif.C104_adj_poisson_diag_1d",
    "Verif.C104_adj_cf_diag_1d",
    "Verif.C104_adj_poisson_cf_diag_1d",
    "Verif.C104_adj_offdiag_1d",
    "Verif.C104_adj_poisson_offdiag_1d",
    "Verif.C104_adj_cf_offdiag_1d",
    "Verif.C104_readj_offdiag_1d",
    "Verif.C104_adj_cf_bdryrhs_1d",
    "Verif.C104_offdiag_2d",
    "Verif.C104_poisson_offdiag_2d",
    "Verif.C104_v1diag_2d",
    "Verif.C104_v2diag_2d",
    "Verif.C104_poisson_diag_2d",
    "Verif.C104_adj_diag_2d",
    "Verif.C104_adj_poisson_diag_2d",
    "Verif.C104_adj_cf_diag_2d",
    "Verif.C104_adj_poisson_cf_diag_2d",
    "Verif.C104_adj_offdiag_2d",
    "Verif.C104_adj_poisson_offdiag_2d",
    "Verif.C104_adj_cf_offdiag_2d",
    "Verif.C104_readj_offdiag_2d",
    "Verif.C104_adj_cf_bdryrhs_2d",
    "Verif.C104_offdiag_3d",
    "Verif.C104_poisson_offdiag_3d",
    "Verif.C104_v1diag_3d",
    "Verif.C104_v2diag_3d",
    "Verif.C104_poisson_diag_3d",
    "Verif.C104_adj_diag_3d",
    "Verif.C104_adj_poisson_diag_3d",
    "Verif.C104_adj_cf_diag_3d",
    "Verif.C104_adj_poisson_cf_diag_3d",
    "Verif.C104_adj_offdiag_3d",
    "Verif.C104_adj_poisson_offdiag_3d",
    "Verif.C104_adj_cf_offdiag_3d",
    "Verif.C104_readj_offdiag_3d",
    "Verif.C104_adj_cf_bdryrhs_3d"
   ],
   "note": "All forty-two test cases; exact arithmetic."
  },
  {
   "property": "C105",
   "status": "proved",
   "theorems": [
    "Verif.C105_bc_1d",
    "Verif.C105_bc_poisson_1d",
    "Verif.C105_bc_2d",
    "Verif.C105_bc_poisson_2d",
    "Verif.C105_bc_corner_2d",
    "Verif.C105_bc_homogenous_2d",
    "Verif.C105_bc_3d",
    "Verif.C105_bc_poisson_3d"
   ],
   "note": "All eight test cases, for segments as in C35 (those of the tests are among them); exact arithmetic."
  },
  {
   "property": "C106",
   "status": "proved",
   "theorems": [
    "Verif.C106_copy_x",
    "Verif.C106_copy_y",
    "Verif.C106_copy_z",
    "Verif.C106_corner"
   ],
   "note": "Both test cases, copy along each axis; exact arithmetic."
  },
  {
   "property": "C107",
   "status": "proved",
   "theorems": [
    "Verif.C107_compare"
   ],
   "note": "Any routine, any kernel."
  },
  {
   "property": "C108",
   "status": "proved",
   "theorems": [
    "Verif.C108_v1_1d",
    "Verif.C108_v2_1d",
    "Verif.C108_poisson_1d",
    "Verif.C108_v1_2d",
    "Verif.C108_v2_2d",
    "Verif.C108_poisson_2d",
    "Verif.C108_v1_3d",
    "Verif.C108_v2_3d",
    "Verif.C108_poisson_3d"
   ],
   "note": "All nine operator kernels."
  },
  {
   "property": "C109",
   "status": "proved",
   "theorems": [
    "Verif.C109_v1_1d",
    "Verif.C109_v2_1d",
    "Verif.C109_poisson_1d",
    "Verif.C109_v1_2d",
    "Verif.C109_v2_2d",
    "Verif.C109_poisson_2d",
    "Verif.C109_v1_3d",
    "Verif.C109_v2_3d",
    "Verif.C109_poisson_3d"
   ],
   "note": "All nine operator kernels; the step itself is written down in the statement, it is not in the code."
  },
  {
   "property": "C110",
   "status": "proved",
   "theorems": [
    "Verif.C110_order_v1_1d",
    "Verif.C110_bounds_v1_1d",
    "Verif.C110_order_v2_1d",
    "Verif.C110_bounds_v2_1d",
    "Verif.C110_order_poisson_1d",
    "Verif.C110_bounds_poisson_1d",
    "Verif.C110_order_v1_2d",
    "Verif.C110_bounds_v1_2d",
    "Verif.C110_order_v2_2d",
    "Verif.C110_bounds_v2_2d",
    "Verif.C110_order_poisson_2d",
    "Verif.C110_bounds_poisson_2d",
    "Verif.C110_order_v1_3d",
    "Verif.C110_bounds_v1_3d",
    "Verif.C110_order_v2_3d",
    "Verif.C110_bounds_v2_3d",
    "Verif.C110_order_poisson_3d",
    "Verif.C110_bounds_poisson_3d"
   ],
   "note": "All nine operator kernels; the step itself is written down in the statement, it is not in the code."
  },
  {
   "property": "C111",
   "status": "proved",
   "theorems": [
    "Verif.C111_v1_1d",
    "Verif.C111_v2_1d",
    "Verif.C111_poisson_1d",
    "Verif.C111_v1_2d",
    "Verif.C111_v2_2d",
    "Verif.C111_poisson_2d",
    "Verif.C111_v1_3d",
    "Verif.C111_v2_3d",
    "Verif.C111_poisson_3d"
   ],
   "note": "All nine operators. Boxes at least two cells wide in each direction; in the 1D and 2D Poisson case the wall lemma is used with all conditions Neumann, so the Robin defects of set_poisson_bc do not matter."
  },
  {
   "property": "C112",
   "status": "proved",
   "theorems": [
    "Verif.C112_stride_1d",
    "Verif.C112_init_1d",
    "Verif.C112_stride_2d",
    "Verif.C112_stride_3d",
    "Verif.C112_init_2d"
   ],
   "note": "All five test cases, also outside the sizes the tests take, as long as the sizes of the vectors and the linear indices fit int; exact arithmetic."
  },
  {
   "property": "C113",
   "status": "proved",
   "theorems": [
    "Verif.C113_init",
    "Verif.C113_transform",
    "Verif.C113_transform2",
    "Verif.C113_transform3",
    "Verif.C113_transform4",
    "Verif.C113_rhs"
   ],
   "note": "All six test cases with the sizes of the tests, any data; exact arithmetic."
  },
  {
   "property": "C114",
   "status": "proved",
   "theorems": [
    "Verif.C114_transpose_3d",
    "Verif.C114_transpose_2d",
    "Verif.C114_forward_1d",
    "Verif.C114_forward_2d",
    "Verif.C114_forward_basic",
    "Verif.C114_forward_basic_2d",
    "Verif.C114_forward_3d"
   ],
   "note": "All test cases of the two files for all sizes and data; exact arithmetic."
  },
  {
   "property": "C115",
   "status": "proved",
   "theorems": [
    "Verif.C115_basic",
    "Verif.C115_3d",
    "Verif.C115_tabulate_2d",
    "Verif.C115_tabulate_3d"
   ],
   "note": "All four test cases; three of them for all sizes and boxes, the 2D tabulate test with its constants, since its expected answer is a literal list; exact arithmetic."
  },
  {
   "property": "C116",
   "status": "proved",
   "theorems": [
    "Verif.C116_fine",
    "Verif.C116_offset_1d",
    "Verif.C116_offset_2d",
    "Verif.C116_offset_3d"
   ],
   "note": "All four test cases; the tests have no random numbers, so the sizes are their constants; exact arithmetic."
  },
  {
   "property": "C117",
   "status": "proved",
   "theorems": [
    "Verif.C117_1d",
    "Verif.C117_2d",
    "Verif.C117_3d"
   ],
   "note": "All three test cases for all boxes, ghost widths and data; the tables of displacements are the constants of the tests; exact arithmetic."
  },
  {
   "property": "C118",
   "status": "proved",
   "theorems": [],
   "note": "The three difference tests with an arbitrary function in place of transform; the size checks of the same file make no comparison of values."
  },
  {
   "property": "C119",
   "status": "proved",
   "theorems": [
    "Verif.C119_v1_1d",
    "Verif.C119_v2_1d",
    "Verif.C119_poisson_1d",
    "Verif.C119_v1_2d",
    "Verif.C119_v2_2d",
    "Verif.C119_poisson_2d",
    "Verif.C119_v1_3d",
    "Verif.C119_v2_3d",
    "Verif.C119_poisson_3d"
   ],
   "note": "All nine operator kernels; the step itself is written down in the statement, it is not in the code."
  },
  {
   "property": "C120",
   "status": "proved",
   "theorems": [
    "Verif.C120_1d",
    "Verif.C120_2d",
    "Verif.C120_3d"
   ],
   "note": "All three test cases with an arbitrary function in place of the kernel; the sums are written out with the displacements of the tests; exact arithmetic."
  },
  {
   "property": "C121",
   "status": "partial",
   "theorems": [
    "Verif.C121_offset_1d_partial",
    "Verif.C121_unnoticed_1d",
    "Verif.C121_offset_2d_partial",
    "Verif.C121_unnoticed_2d",
    "Verif.C121_offset_3d_partial",
    "Verif.C121_unnoticed_3d",
    "Verif.C121_fine_partial",
    "Verif.C121_unnoticed_fine"
   ],
   "note": "False as stated: the offset tests look at the three listed elements only, the coarse to fine test at the fine elements only. Proved: the test passes exactly if these are right (C121_offset_*_partial, C121_fine_partial); a function that also overwrites another element passes (C121_unnoticed_*)."
  },
  {
   "property": "C122",
   "status": "proved",
   "theorems": [
    "Verif.C122_v1_1d",
    "Verif.C122_v2_1d",
    "Verif.C122_poisson_1d",
    "Verif.C122_v1_2d",
    "Verif.C122_v2_2d",
    "Verif.C122_poisson_2d",
    "Verif.C122_v1_3d",
    "Verif.C122_v2_3d",
    "Verif.C122_poisson_3d"
   ],
   "note": "All nine operator kernels; the step itself is written down in the statement, it is not in the code."
  },
  {
   "property": "C123",
   "status": "partial",
   "theorems": [
    "Verif.C123_transpose_2d",
    "Verif.C123_transpose_3d_partial",
    "Verif.C123_unnoticed_3d"
   ],
   "note": "The 2D test is as stated. The 3D test is not: it compares with the input only after a round trip, so it passes with a function that copies whatever the permutation is, for all sizes and data (C123_unnoticed_3d). C123_transpose_3d_partial says exactly what it requires."
  },
  {
   "property": "C124",
   "status": "partial",
   "theorems": [
    "Verif.C124_basic_partial",
    "Verif.C124_unnoticed_basic",
    "Verif.C124_3d_partial",
    "Verif.C124_unnoticed_3d",
    "Verif.C124_tabulate_2d",
    "Verif.C124_tabulate_3d"
   ],
   "note": "The tabulation tests are as stated. The two access tests look at five and seven elements; any other element may be overwritten without notice (C124_unnoticed_basic, C124_unnoticed_3d). The _partial theorems say exactly what they require."
  },
  {
   "property": "C125",
   "status": "partial",
   "theorems": [
    "Verif.C125_init_partial",
    "Verif.C125_unnoticed_init",
    "Verif.C125_transform",
    "Verif.C125_transform2_partial",
    "Verif.C125_unnoticed_transform2",
    "Verif.C125_transform3_partial",
    "Verif.C125_unnoticed_transform3",
    "Verif.C125_transform4_partial",
    "Verif.C125_unnoticed_transform4",
    "Verif.C125_rhs_partial",
    "Verif.C125_unnoticed_rhs"
   ],
   "note": "The test of transform is as stated. The tests of transform2, transform3, transform4 and rhs compute their reference from the vectors after the call, so that functions that never read the windows pass for all data (C125_unnoticed_*); the basic test looks at four of ten elements. The _partial theorems say exactly what each requires."
  },
  {
   "property": "C126",
   "status": "proved",
   "theorems": [
    "Verif.C126_stride_1d",
    "Verif.C126_unnoticed_stride_1d",
    "Verif.C126_init_1d",
    "Verif.C126_stride_2d",
    "Verif.C126_stride_3d",
    "Verif.C126_init_2d"
   ],
   "note": "All five test cases with an arbitrary function in place of the kernel, with a witness that the condition on u is needed (1D stride test); exact arithmetic."
  },
  {
   "property": "C127",
   "status": "proved",
   "theorems": [
    "Verif.C127_flux_1d",
    "Verif.C127_flux_2d",
    "Verif.C127_flux_3d",
    "Verif.C127_res_v1_1d",
    "Verif.C127_res_v2_1d",
    "Verif.C127_res_v1_2d",
    "Verif.C127_res_v2_2d",
    "Verif.C127_res_v1_3d",
    "Verif.C127_res_v2_3d"
   ],
   "note": "That they do differ is C49_flux_*_false, C49_v1_res_*_false and C49_v2_res_*_false; the Poisson kernels agree bit for bit (C49). Overflow and underflow are outside the model of the arithmetic (unbounded exponent)."
  },
  {
   "property": "C128",
   "status": "proved",
   "theorems": [
    "Verif.C128_flux_1d",
    "Verif.C128_flux_2d",
    "Verif.C128_flux_3d",
    "Verif.C128_res_v1_1d_false",
    "Verif.C128_res_v2_1d_false",
    "Verif.C128_res_v1_2d_false",
    "Verif.C128_res_v2_2d_false",
    "Verif.C128_res_v1_3d_false",
    "Verif.C128_res_v2_3d_false"
   ],
   "note": "The fluxes for all data (C128_flux_*); for the residuals the claim is that no tolerance suffices (C128_res_*_false), in 1D on the box and with the spacing of the test, in 2D and 3D on a box of one cell with the spacing of the test. Overflow and underflow are outside the model of the arithmetic (unbounded exponent); the default tolerance of Catch2 is left open."
  }
 ]
}
