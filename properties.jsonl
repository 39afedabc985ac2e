{"id": "C01", "title": "Linear index and N-D coordinate are mutually inverse", "statement": "For an N-dimensional array of positive extents, turning a coordinate into a linear index and back returns the coordinate, turning any index of the array into a coordinate and back returns the index, every such coordinate lies inside the array, and the one-past-the-end index maps to the designated end coordinate and back. For every N, including the hand-specialised N=1,2,3.", "quantifier": "every number of dimensions, every tuple of positive extents whose product fits an int, every coordinate, every index from 0 to the size inclusive", "why_tests_cant": "extents and indices range over unbounded families; tests fix three or four shapes", "anchors": ["src/cuda/matrix_utils.hpp: ravel, unravel, stride_dim"]}
{"id": "C02", "title": "Movement of a traversal iterator depends only on net distance", "statement": "Starting from begin, any sequence of ++, --, += k, -= k that stays between begin and end leaves the iterator in the same state as begin + (net distance): increments, decrements and jumps can be mixed freely, including through row boundaries and to and from end.", "quantifier": "every shape, every finite history of moves that stays inside [begin, end]", "why_tests_cant": "quantifies over all operation histories", "anchors": ["src/cuda/matrix_traversal_iterator.hpp: increment, decrement, advance"]}
{"id": "C03", "title": "Distance and equality agree with movement", "statement": "For two traversal iterators over the same view, b - a is the number d with a + d == b; a == b exactly when b - a is 0; size() is end - begin.", "quantifier": "every shape, every pair of positions inside [begin, end]", "why_tests_cant": "quantifies over all pairs of positions of all shapes", "anchors": ["src/cuda/matrix_traversal_iterator.hpp: distance_to, equal, size"]}
{"id": "C04", "title": "A traversal visits each coordinate of the view exactly once in row-major order", "statement": "Walking from begin to end visits every coordinate of the view once, none twice, in row-major (last requested dimension fastest) order, and nothing else.", "quantifier": "every number of dimensions and all positive extents", "why_tests_cant": "exactly-once over all shapes is not testable", "anchors": ["src/cuda/matrix_traversal_iterator.hpp: increment, dereference"]}
{"id": "C05", "title": "A submatrix view addresses exactly the requested elements", "statement": "The k-th element of a submatrix view with lower corner lb, upper corner ub and step s is the element of the parent array at coordinate lb + s*c where c is the k-th row-major coordinate of the box of extents floor((ub-lb)/s)+1; it never touches memory outside the parent array when the box lies inside it.", "quantifier": "every dimension count, parent extents, corners inside the parent, positive steps, every k", "why_tests_cant": "unbounded families of boxes and steps", "anchors": ["src/cuda/submatrix_iterator.hpp: make_submatrix, make_submatrix_helper"]}
{"id": "C06", "title": "A transposed view enumerates the array in the requested dimension order", "statement": "make_transpose<I...> over an array visits, at position k, the element whose coordinate along dimension I_j is the j-th row-major coordinate of the permuted extents; consequently it is a permutation of the whole array.", "quantifier": "every extents tuple and every permutation of the dimensions", "why_tests_cant": "all permutations of all shapes", "anchors": ["src/cuda/transpose_iterator.hpp: make_transpose"]}
{"id": "C07", "title": "Forward stencil walk yields each neighbour pair once", "statement": "Walking a forward stencil in dimension I over a box from begin with ++ yields, in row-major order of the box shortened by one in dimension I, the pair (value at p, value at p + 1 in dimension I), every such p exactly once, and never touches an element outside the box.", "quantifier": "every dimension count, every extents tuple (extent at least 2 in the stencil dimension), every stencil dimension", "why_tests_cant": "unbounded families of shapes", "anchors": ["src/cuda/forward_stencil_iterator.hpp: increment, dereference", "src/cuda/matrix_traversal_iterator.hpp: stencil"]}
{"id": "C08", "title": "Forward stencil jumps agree with stepping", "statement": "begin + k and k increments reach the same pair for every k before the end, from any already reached position, and a forward jump followed by increments equals increments followed by a forward jump. This is what lets a parallel backend start each thread with a jump and continue by stepping.", "quantifier": "every shape, every split of a position into a jump and steps", "why_tests_cant": "all splits of all positions of all shapes", "anchors": ["src/cuda/forward_stencil_iterator.hpp: advance, increment"]}
{"id": "C09", "title": "Forward stencil obeys the random access iterator laws", "statement": "For a forward stencil iterator, (s + m) + n equals s + (m + n) for all positions in [begin, end], s + n == n-fold ++s including at end, and --(s + n) refers to the pair at n - 1.", "quantifier": "every shape, every pair of moves staying inside [begin, end], backward as well as forward", "why_tests_cant": "histories with backward jumps are unbounded; the shipped test compares distances only", "anchors": ["src/cuda/forward_stencil_iterator.hpp: advance, increment, decrement, equal"]}
{"id": "C10", "title": "Bounds arithmetic means what it says on index sets", "statement": "For dir_bounds: b + x with x >= 0 adds the x indices above the top, with x < 0 adds -x indices below the bottom; b - x adds x indices below; expand(x) adds both; shift(x) translates the set by x; a window dimension is never expanded by a ghost width; unit_stride keeps the end points.", "quantifier": "all bounds, all amounts", "why_tests_cant": "all integers", "anchors": ["src/cuda/md_bounds.hpp: bounds, dir_bounds, expand_bounds"]}
{"id": "C11", "title": "size() counts the points of the domain", "statement": "bounds.size() equals the number of indices first, first+stride, ... not exceeding the inclusive upper bound, i.e. the number of points that an assignment over that domain visits.", "quantifier": "all bounds with positive stride", "why_tests_cant": "all bounds and strides; tests only use strides that divide", "anchors": ["src/cuda/md_bounds.hpp: size", "src/cuda/submatrix_iterator.hpp: make_submatrix_helper", "src/cuda/md_device_span.hpp: with_domain"]}
{"id": "C12", "title": "A span is addressed by coordinates, whatever its storage order", "statement": "Calling a span with bounds in any dimension order yields an iterator whose k-th element is the stored element with the k-th coordinate of the requested domain, where coordinates are row-major in the order the bounds were given and the storage order only decides the address; two spans with different storage orders called with the same bounds are therefore visited at the same coordinates in lock step.", "quantifier": "every storage order, every request order, all domains (any positive stride) inside the span, every k", "why_tests_cant": "all order pairs and domains", "anchors": ["src/cuda/md_device_span.hpp: call_helper, operator()", "src/cuda/traits.hpp: transpose_sequence_t, map_index_v"]}
{"id": "C13", "title": "Element access at() is the inverse of the storage map", "statement": "at(c...) with coordinates in the declared order refers to the element that every domain traversal visits at those coordinates, different coordinates refer to different elements, and every element of the allocation is reached by exactly one coordinate.", "quantifier": "all spans, all coordinates inside the bounds", "why_tests_cant": "all shapes and coordinates", "anchors": ["src/cuda/md_device_span.hpp: at", "src/md_device_vector.hpp: index"]}
{"id": "C14", "title": "Lazy expressions evaluate pointwise", "statement": "An arithmetic expression built from spans, numbers, gradients, stencil pairs and shifts, evaluated over a domain, has at its k-th element the value obtained by applying the same operations, in the same association, to the operand values at the k-th coordinate; the representation of the expression adds no reordering.", "quantifier": "every expression tree, every domain, every mix of storage orders, arbitrary operations (not only exact arithmetic)", "why_tests_cant": "structural induction over all expressions", "anchors": ["src/cuda/iter_math.hpp: transform_op, apply_left, apply_right, apply_zip", "src/cuda/md_device_span.hpp"]}
{"id": "C15", "title": "Assignment writes exactly the domain", "statement": "with_domain(...)(x = e) stores at every coordinate of the domain the value of e there computed from the memory before the statement, and changes no other memory cell, provided e does not read other cells that the statement writes.", "quantifier": "every expression, domain, memory content", "why_tests_cant": "frame property over all memories", "anchors": ["src/cuda/md_device_span.hpp: assign_proxy, with_domain"]}
{"id": "C16", "title": "Assignment does not depend on the parallel schedule", "statement": "If e does not read cells written at other coordinates, the result of x = e is the same for every backend schedule: every assignment of elements to threads, every interleaving of element reads and element writes, and every way a thread reaches its element (jump, steps, or both).", "quantifier": "every schedule and interleaving", "why_tests_cant": "schedules cannot be enumerated by tests", "anchors": ["src/cuda/md_device_span.hpp: assign_proxy (thrust::copy_n / fill_n)"]}
{"id": "C17", "title": "Schedule dependence is possible exactly through aliasing", "statement": "When e reads cells the statement writes at other coordinates (for example u = u.shift_x(1)), two legal schedules give different results; the library does not detect this.", "quantifier": "existential: a concrete witness", "why_tests_cant": "a test observes one schedule", "anchors": ["src/cuda/md_device_span.hpp: assign_proxy"]}
{"id": "C18", "title": "Gradients use the right neighbours for every storage order", "statement": "grad_x/y/z(h) at coordinate p is (u(p+1)-u(p))/h and with `down` is (u(p)-u(p-1))/h along the named axis, whatever the storage order of u and whatever order the domain is given in; no element outside [p, p+1] (resp. [p-1, p]) is read.", "quantifier": "all storage orders, request orders, unit-stride domains, data", "why_tests_cant": "all order pairs, shapes and data", "anchors": ["src/cuda/md_device_span.hpp: grad_x, grad_y, grad_z, stencil_helper", "src/cuda/iter_math.hpp: gradient"]}
{"id": "C19", "title": "Gradients on strided domains", "statement": "grad and stencil over a domain with stride s still use the neighbour one cell away and produce one value per domain point.", "quantifier": "all strides", "why_tests_cant": "no test combines a stride with a gradient", "anchors": ["src/cuda/md_device_span.hpp: stencil_helper"]}
{"id": "C20", "title": "Shifts compose and translate", "statement": "shift by a vector reads the operand at p + vector; shifts along different axes commute and shifts along the same axis add; a zero shift is the identity.", "quantifier": "all spans, shift amounts, domains", "why_tests_cant": "all amounts", "anchors": ["src/cuda/md_device_span.hpp: shift_helper, shift_x, shift_y, shift_z, shift_xy, shift_xz, shift_yz"]}
{"id": "C21", "title": "Strided domains touch exactly the strided points", "statement": "An assignment over a domain with strides visits first, first+stride, ... up to the upper bound in each dimension, writes each of these once and leaves the points in between unchanged.", "quantifier": "all positive strides and bounds", "why_tests_cant": "all strides", "anchors": ["src/cuda/submatrix_iterator.hpp: make_submatrix_helper", "src/cuda/md_device_span.hpp: call_helper"]}
{"id": "C22", "title": "An empty domain writes nothing", "statement": "If the domain has no points (upper bound below lower bound in some dimension) an assignment over it leaves memory unchanged.", "quantifier": "all domains", "why_tests_cant": "negative extents in several dimensions are never tested", "anchors": ["src/cuda/submatrix_iterator.hpp: make_submatrix_helper", "src/cuda/matrix_traversal_iterator.hpp: size"]}
{"id": "C23", "title": "Window statements change only the named stencil entries", "statement": "with_domain(st.window(), ...)(st(a) = ..., st(b) = ...) changes, at every coordinate of the domain, only the entries a, b, ... of the coefficient window at that coordinate; all other entries, all other coordinates and all other arrays keep their values.", "quantifier": "all statement lists, windows sizes, domains, memories", "why_tests_cant": "frame property", "anchors": ["src/cuda/md_device_span.hpp: with_domain (window), window", "src/cuda/stencil_proxy.hpp: stencil_assign_proxy, tp_invoke"]}
{"id": "C24", "title": "Window statements run in program order", "statement": "In a list of window statements a later statement sees the values written by the earlier ones at the same coordinate, exactly as if the assignments were executed one after the other.", "quantifier": "all statement lists", "why_tests_cant": "all programs", "anchors": ["src/cuda/stencil_proxy.hpp: tp_invoke"]}
{"id": "C25", "title": "Arrays inside stencil expressions are matched with their own operand", "statement": "An expression mixing stencil entries with arrays, such as a * (st(0) + b), evaluates with every array in the place where it was written.", "quantifier": "all stencil expressions", "why_tests_cant": "all expression shapes; the shipped kernels only use one shape", "anchors": ["src/cuda/stencil_proxy.hpp: stencil_proxy::get_iterators, maybe_invoke_with", "src/cuda/tuple_utils.hpp: prepend_to_tuple", "src/cuda/traits.hpp: next_proxy_index"]}
{"id": "C26", "title": "Window statements over a domain cover every point", "statement": "A window statement over a domain updates every point of the domain, including when the domain has a stride.", "quantifier": "all domains and strides", "why_tests_cant": "all strides", "anchors": ["src/cuda/md_device_span.hpp: with_domain (window overload)"]}
{"id": "C27", "title": "Self-update statements subtract the evaluated product", "statement": "rhs -= st(w) * u over a domain leaves rhs(p) - st(w, p)*u(p) at every p and touches nothing else.", "quantifier": "all domains, shifts of u, memories", "why_tests_cant": "frame and all data", "anchors": ["src/cuda/stencil_proxy.hpp: self_assign_proxy, tp_layered_invoke", "src/cuda/md_device_span.hpp: operator-="]}
{"id": "C28", "title": "Coarse index is floor division", "statement": "The coarse cell index computed for a fine index is floor(fine / ratio) for every fine index, negative ones included, so that each coarse cell owns exactly ratio consecutive fine cells.", "quantifier": "all integers, all positive ratios", "why_tests_cant": "all integers", "anchors": ["src/cuda/coarse_to_fine_iterator.hpp: coarse_index"]}
{"id": "C29", "title": "Coarse-to-fine fill is piecewise constant injection", "statement": "f = c.fine(r, fixed coordinates) over a line of fine cells stores in fine cell i the value of the coarse cell floor(i/r) on the line with the fixed coarse coordinates, for every start alignment and sign of the fine range, and never reads outside the coarse array when those cells lie inside it.", "quantifier": "all ratios, all fine ranges, axes, storage orders, data", "why_tests_cant": "all alignments", "anchors": ["src/cuda/coarse_to_fine_iterator.hpp", "src/cuda/md_device_span.hpp: fine, coarse_to_fine"]}
{"id": "C30", "title": "Stencil dot product sums coefficient times offset neighbour", "statement": "st.dot(u.offset(o)) at p equals the sum over the window of st(w,p) * u(p + offset_w) with the offset triples given in x,y,z order, independent of the storage order of u's iterator.", "quantifier": "all window sizes, offsets, domains, data", "why_tests_cant": "all offsets and window sizes", "anchors": ["src/cuda/md_device_span.hpp: dot_impl, dot_helper, offset_helper", "src/cuda/offset_iterator.hpp"]}
{"id": "C31", "title": "Index arithmetic does not overflow for arrays below 2^31 elements", "statement": "If every array has fewer than 2^31 elements, its bounds are representable and the domain lies inside it, no int computation made while iterating overflows.", "quantifier": "all sizes below the limit", "why_tests_cant": "the limit cannot be exercised on test sizes", "anchors": ["src/cuda/matrix_utils.hpp", "src/cuda/matrix_traversal_iterator.hpp", "src/cuda/submatrix_iterator.hpp"]}
{"id": "C32", "title": "No access outside the arrays", "statement": "If the domain, enlarged by the shifts and gradients of the expression, lies inside each operand's bounds, no access made by an assignment leaves the allocations.", "quantifier": "all expressions, domains, schedules", "why_tests_cant": "all domains", "anchors": ["src/cuda/md_device_span.hpp", "src/cuda/forward_stencil_iterator.hpp: dereference"]}
{"id": "C33", "title": "Diffusion and Poisson flux kernels equal the Fortran reference", "statement": "For 1, 2 and 3 dimensions the flux kernels produce the same face arrays as the Fortran subroutines celldiffusionflux*/cellpoissonflux* on the same inputs, for every box, ghost width and data, and change nothing else.", "quantifier": "all boxes, ghost widths, data, in exact arithmetic", "why_tests_cant": "tests compare a few random boxes", "anchors": ["src/cuda/cdf_1d_cuda.cpp", "src/cuda/cdf_2d_cuda.cpp", "src/cuda/cdf_3d_cuda.cpp", "m4/celldiffusionflux1d.m4", "m4/celldiffusionflux2d.m4", "m4/celldiffusionflux3d.m4"]}
{"id": "C34", "title": "Residual and apply kernels equal the Fortran reference", "statement": "For 1, 2 and 3 dimensions the residual/apply kernels (diffusion v1, v2, Poisson) produce the same arrays as the Fortran subroutines on the same inputs, for every box, ghost widths and data.", "quantifier": "all boxes, ghost widths, coefficients and data, in exact arithmetic", "why_tests_cant": "tests compare a few random boxes", "anchors": ["src/cuda/cd_apply_1d_cuda.cpp", "src/cuda/cd_apply_2d_cuda.cpp", "src/cuda/cd_apply_3d_cuda.cpp", "m4/celldiffusionapply1d.m4", "m4/celldiffusionapply2d.m4", "m4/celldiffusionapply3d.m4"]}
{"id": "C35", "title": "Boundary condition kernels equal the Fortran reference", "statement": "For 1, 2 and 3 dimensions the correction boundary-condition kernels leave the same ghost cells as the Fortran subroutines for every face, location type, boundary type, extrapolation order and data.", "quantifier": "all faces, types, orders, segments and data, in exact arithmetic", "why_tests_cant": "tests sample a few combinations", "anchors": ["src/cuda/cd_correct_bc_1d_cuda.cpp", "src/cuda/cd_correct_bc_2d_cuda.cpp", "src/cuda/cd_correct_bc_3d_cuda.cpp", "m4/cellsetcorrectionbc1d.m4", "m4/cellsetcorrectionbc2d.m4", "m4/cellsetcorrectionbc3d.m4"]}
{"id": "C36", "title": "Stencil coefficient kernels equal the Fortran reference", "statement": "For 1, 2 and 3 dimensions the stencil coefficient kernels leave the same coefficient arrays as the Fortran subroutines for every box, side, boundary type, order and data.", "quantifier": "all boxes, sides, boundary types, orders and data, in exact arithmetic", "why_tests_cant": "tests sample a few combinations", "anchors": ["src/cuda/cd_stencil_1d_cuda.cpp", "src/cuda/cd_stencil_2d_cuda.cpp", "src/cuda/cd_stencil_3d_cuda.cpp", "m4/celldiffusionstencilcoeffs1d.m4", "m4/celldiffusionstencilcoeffs2d.m4", "m4/celldiffusionstencilcoeffs3d.m4"]}
{"id": "C37", "title": "Coarse-to-fine copy kernels equal the Fortran reference", "statement": "The coarse-to-fine edge copy for each axis and the corner copy leave the same fine array as the Fortran subroutines.", "quantifier": "all boxes, ratios, axes and data", "why_tests_cant": "all alignments", "anchors": ["src/cuda/coarse_to_fine_cuda.cpp", "m4/copycoarsetofine.m4"]}
{"id": "C38", "title": "Matrix-free operator and assembled stencil agree", "statement": "Applying the coefficients assembled by the off-diagonal and diagonal kernels to u gives at every cell the same number as running the flux kernel and then the apply kernel.", "quantifier": "all boxes and data, in exact arithmetic", "why_tests_cant": "relates four kernels for all data", "anchors": ["src/cuda/cd_stencil_1d_cuda.cpp", "src/cuda/cd_apply_1d_cuda.cpp", "src/cuda/cdf_1d_cuda.cpp", "and 2d, 3d variants"]}
{"id": "C39", "title": "The assembled off-diagonal part is symmetric", "statement": "For neighbouring cells p and q the coefficient coupling p to q equals the one coupling q to p.", "quantifier": "all boxes and face coefficients", "why_tests_cant": "all data", "anchors": ["src/cuda/cd_stencil_1d_cuda.cpp: offdiag", "cd_stencil_2d_cuda.cpp", "cd_stencil_3d_cuda.cpp"]}
{"id": "C40", "title": "Discrete conservation", "statement": "Summed over the box and scaled by the cell width, the divergence computed by the flux and Poisson apply kernels telescopes to the difference of the boundary fluxes.", "quantifier": "all boxes and data", "why_tests_cant": "all box sizes", "anchors": ["src/cuda/cdf_1d_cuda.cpp", "src/cuda/cd_apply_1d_cuda.cpp", "and 2d, 3d variants"]}
{"id": "C41", "title": "Boundary extrapolation reproduces polynomials", "statement": "The homogeneous Dirichlet ghost value of order n equals the value at the ghost cell of every polynomial of degree at most n that vanishes on the boundary face and matches the interior cells.", "quantifier": "all polynomials of the given degree, all boxes", "why_tests_cant": "all polynomials", "anchors": ["src/cuda/cd_correct_bc_1d_cuda.cpp", "src/cuda/cd_correct_bc_2d_cuda.cpp: set_homogenous_bc"]}
{"id": "C42", "title": "Host view shows the last device contents", "statement": "After any history of kernel launches that obtain the device pointer through data(), host() returns the device contents; repeated host() calls without a data() in between do not copy again and return the same.", "quantifier": "all histories of operations", "why_tests_cant": "histories", "anchors": ["src/md_device_vector.hpp: data, host, host_data, fill_random"]}
{"id": "C43", "title": "Element-wise host writes do not lose device results", "statement": "set_offset updates one offset entry and leaves the other entries of host and device as they were, whatever happened before.", "quantifier": "all histories of operations", "why_tests_cant": "histories", "anchors": ["src/md_device_vector.hpp: set_offset"]}
{"id": "C44", "title": "Flux and apply kernels are idempotent and linear", "statement": "Running a flux or apply kernel twice equals running it once, and the result is linear in the unknown.", "quantifier": "all boxes and data", "why_tests_cant": "all data", "anchors": ["src/cuda/cdf_*_cuda.cpp", "src/cuda/cd_apply_*_cuda.cpp"]}
{"id": "C45", "title": "A device vector and a span made from the same bounds agree", "statement": "make_md_vec and make_md_span given the same bounds (and ghost width) agree: the vector has one element per point the span can address, and index(p) is the place at which the span keeps p.", "quantifier": "all bounds, orders, numbers of dimensions and ghost widths", "why_tests_cant": "all bounds", "anchors": ["src/md_device_vector.hpp: constructor, index, make_md_vec", "src/cuda/md_device_span.hpp: at, make_md_span", "src/cuda/md_bounds.hpp: bounds_sz, expand_bounds"]}
{"id": "C46", "title": "Neumann and Robin ghost values reproduce polynomials", "statement": "The Neumann ghost value is the value at the ghost cell of every polynomial of degree at most 2 without slope on the face that matches the interior cell; the Robin ghost value of order n is that of every polynomial of degree at most n that meets the Robin condition on the face and matches the interior cells.", "quantifier": "all polynomials of the given degree, all boxes, coefficients and data", "why_tests_cant": "all polynomials", "anchors": ["src/cuda/cd_correct_bc_1d_cuda.cpp", "src/cuda/cd_correct_bc_2d_cuda.cpp", "src/cuda/cd_correct_bc_3d_cuda.cpp: set_bc, set_poisson_bc"]}
{"id": "C47", "title": "Corner and edge values continue separable sums", "statement": "The value set_bc and set_poisson_bc leave in a corner, edge or node is f(0) + g(0) for all functions f and g of the two coordinates across it whose sums its three neighbours contain.", "quantifier": "all functions, all boxes and data", "why_tests_cant": "all functions", "anchors": ["src/cuda/cd_correct_bc_2d_cuda.cpp", "src/cuda/cd_correct_bc_3d_cuda.cpp: t2"]}
{"id": "C48", "title": "Dot product with an offset table equals the Fortran stencil routines", "statement": "The dot kernels leave in every cell of the box the left-to-right sum, over the rows of the offset table, of coefficient times the field at the cell moved by that row, and change nothing else; this is what the Fortran routine applystencilatpoint computes at each cell and applystencilonpatch on the box, for a = 1 and b = 0.", "quantifier": "all boxes, ghost widths, stencil sizes, offset tables whose rows stay inside the ghost cells, schedules and data", "why_tests_cant": "all offset tables and boxes; the tests use one table and one box", "anchors": ["src/cuda/dot_offset_test.cpp", "src/cuda/md_device_span.hpp: dot_impl, dot_helper", "m4/applystencil1d.m4", "m4/applystencil2d.m4", "m4/applystencil3d.m4"]}
{"id": "C49", "title": "Kernels and Fortran routines agree in rounded arithmetic", "statement": "The kernels leave the same bits as the Fortran routines in 53 bit arithmetic: Poisson flux and readj_offdiag in every arithmetic, with or without rounding; the operator kernels, the Poisson residual, the stencil coefficients, their adjustment on Dirichlet, Neumann and Poisson boundaries where the formulas coincide, and the ghost cells on faces in every arithmetic with the laws rounding to nearest keeps. Where the two formulas associate differently (diffusion flux and residual, some adjustments at order 2 and at coarse-fine boundaries, ghost cells on edges and corners) they agree whenever the identity that separates them holds; for flux and most adjustments it holds when the mesh widths are powers of two.", "quantifier": "all arithmetics on all value types, all boxes, ghost widths, schedules and data", "why_tests_cant": "the tests compare with a tolerance, on one set of random data, so they cannot tell equal from nearly equal", "anchors": ["src/cuda/cdf_*_cuda.cpp", "src/cuda/cd_apply_*_cuda.cpp", "src/cuda/cd_stencil_*_cuda.cpp", "src/cuda/cd_correct_bc_*_cuda.cpp", "m4/celldiffusionflux*.m4", "m4/celldiffusionapply*.m4", "m4/celldiffusionstencilcoeffs*.m4", "m4/cellsetcorrectionbc*.m4"]}
{"id": "C50", "title": "Damped Jacobi changes all cells from the old values", "statement": "celljacobi adds to every cell of its box the damping factor times the residual of the old values over the diagonal coefficient, changes nothing else but its work array, and leaves the unknowns unchanged exactly when every cell of the box satisfies its equation. The factor is 2/3 in one dimension and 0.8 in two and three.", "quantifier": "all boxes, array bounds, stencil sizes, tables of displacements, data and arithmetics", "why_tests_cant": "all tables and boxes; a test sees one sweep on one set of data", "anchors": ["m4/cellsmooth1d.m4: celljacobi1d", "m4/cellsmooth2d.m4: celljacobi2d", "m4/cellsmooth3d.m4: celljacobi3d"]}
{"id": "C51", "title": "Gauss-Seidel sweeps solve cell by cell in loop order", "statement": "cellgs gives each cell of its box the solution of its equation formed from the new values of cells visited before and the old values of the others; this determines the result; nothing else changes; the unknowns are left as they are exactly when every cell of the box satisfies its equation.", "quantifier": "all boxes, array bounds, stencil sizes, tables of displacements, data and arithmetics", "why_tests_cant": "all tables and boxes", "anchors": ["m4/cellsmooth1d.m4: cellgs1d", "m4/cellsmooth2d.m4: cellgs2d", "m4/cellsmooth3d.m4: cellgs3d"]}
{"id": "C52", "title": "Red-black sweeps update one colour, and both colours together every cell", "statement": "cellrbgs with colour c updates exactly the cells of the box of that colour as Gauss-Seidel does; if every displacement after the first joins cells of different colours, each coloured cell satisfies its equation when the call ends and the order of cells does not matter; a call for each colour leaves the unknowns unchanged exactly when every cell of the box satisfies its equation.", "quantifier": "all boxes, array bounds, nonnegative colours, tables of displacements, data and arithmetics", "why_tests_cant": "all boxes including those with negative indices, all tables", "anchors": ["m4/cellsmooth1d.m4: cellrbgs1d", "m4/cellsmooth2d.m4: cellrbgs2d, cells9rbgs2d", "m4/cellsmooth3d.m4: cellrbgs3d"]}
{"id": "C53", "title": "Smoothers written out for 5, 7 and 9 points equal the general one", "statement": "cells5rbgs2d, cells9rbgs2d and cells7rbgs3d have the same outcome, memory or error, as cellrbgs2d and cellrbgs3d given the table of the five-, nine- and seven-point stencil.", "quantifier": "all memories, boxes, array bounds, colours and arithmetics", "why_tests_cant": "equality on all memories in all arithmetics", "anchors": ["m4/cellsmooth2d.m4: cells5rbgs2d, cells9rbgs2d", "m4/cellsmooth3d.m4: cells7rbgs3d"]}
{"id": "C54", "title": "Weak form of the discrete operators", "statement": "Flux kernel followed by operator kernel: for every test field V that vanishes outside the box, the sum over the box of V times the result is the bilinear form alpha * sum(a U V) + sum over faces of beta * b * difference of U * difference of V (each direction with its 1/h^2), boundary faces included; summation by parts holds exactly, on every box.", "quantifier": "all boxes, ghost widths, schedules, data, test fields, over any field", "why_tests_cant": "an identity for all fields U and V; a test compares numbers for one U", "anchors": ["src/cuda/cdf_*_cuda.cpp", "src/cuda/cd_apply_*_cuda.cpp: v1_apply, v2_apply, poisson_v2_apply"]}
{"id": "C55", "title": "The discrete operators are symmetric", "statement": "Two runs of flux kernel and operator kernel with the same coefficients on fields U and V that vanish outside the box: the sum of V times the result for U equals the sum of U times the result for V.", "quantifier": "all boxes, ghost widths, schedules, coefficients and fields", "why_tests_cant": "compares two runs on all pairs of fields", "anchors": ["src/cuda/cdf_*_cuda.cpp", "src/cuda/cd_apply_*_cuda.cpp: v1_apply, v2_apply, poisson_v2_apply"]}
{"id": "C56", "title": "The discrete operators are positive definite", "statement": "With positive beta and face coefficients and nonnegative alpha * a, and U vanishing outside the box, the sum of U times the result is nonnegative, and is zero only if U vanishes in the box.", "quantifier": "all boxes, ghost widths, schedules, coefficients and fields, over any ordered field", "why_tests_cant": "a strict inequality for all nonzero fields", "anchors": ["src/cuda/cdf_*_cuda.cpp", "src/cuda/cd_apply_*_cuda.cpp: v1_apply, v2_apply, poisson_v2_apply"]}
{"id": "C57", "title": "The result of the operator determines the field", "statement": "With the same sign conditions, two runs with the same coefficients on fields that agree outside the box and give the same result agree inside the box.", "quantifier": "all boxes, ghost widths, schedules, coefficients and pairs of fields", "why_tests_cant": "injectivity over all pairs of fields", "anchors": ["src/cuda/cdf_*_cuda.cpp", "src/cuda/cd_apply_*_cuda.cpp: v1_apply, v2_apply, poisson_v2_apply"]}
{"id": "C58", "title": "Discrete maximum principle", "statement": "With the same sign conditions, if U is at most M outside the box (M nonnegative unless the operator is Poisson's) and the result is nowhere positive in the box, then U is at most M inside the box.", "quantifier": "all boxes, ghost widths, schedules, coefficients, fields and bounds", "why_tests_cant": "all fields on all boxes", "anchors": ["src/cuda/cdf_*_cuda.cpp", "src/cuda/cd_apply_*_cuda.cpp: v1_apply, v2_apply, poisson_v2_apply"]}
{"id": "C59", "title": "The smoothers converge on diagonally dominant equations", "statement": "If in every cell of the box the off-diagonal coefficients in absolute value, weighted with a positive function w at the displaced cells, add up to at most q times the weighted diagonal one (w = 1 is ordinary dominance), and X solves the equations and agrees with the unknowns outside the box, then an initial error of at most E w is reduced by k sweeps to at most q^k E w (Gauss-Seidel, q at most 1; red-black: k times one call per colour) or (1 - d + d q)^k E w (Jacobi with the factor d of the routine); nothing but the unknowns (and the work array) changes.", "quantifier": "all boxes, array bounds, offset tables with the cell itself first, coefficients, right hand sides, starting values and all k, over any ordered field", "why_tests_cant": "a rate for every number of sweeps and all coefficients; a test observes finitely many sweeps on one matrix", "anchors": ["m4/cellsmooth1d.m4, cellsmooth2d.m4, cellsmooth3d.m4: celljacobi*, cellgs*, cellrbgs*"]}
{"id": "C60", "title": "What a sweep leaves unchanged is the only solution", "statement": "For dominant coefficients with q less than 1, two sets of unknowns that agree outside the box and that a sweep (Jacobi, Gauss-Seidel, red-black Gauss-Seidel with a call for each colour) with the same coefficients and right hand side leaves as they are, are equal.", "quantifier": "all boxes, array bounds, offset tables, coefficients, right hand sides, over any ordered field", "why_tests_cant": "uniqueness over all pairs of fields", "anchors": ["m4/cellsmooth1d.m4, cellsmooth2d.m4, cellsmooth3d.m4: celljacobi*, cellgs*, cellrbgs*"]}
{"id": "C61", "title": "The assembled coefficients form an M-matrix", "statement": "With positive beta and face coefficients and nonnegative alpha * a, the off-diagonal kernel followed by the diagonal kernel leaves in every cell a positive diagonal coefficient and negative neighbour coefficients, which add up to exactly the reaction term (alpha * a, alpha, or 0 for Poisson); nothing else in memory changes.", "quantifier": "all boxes, ghost widths, schedules and coefficients with these signs, over any ordered field", "why_tests_cant": "sign conditions and an exact identity for all coefficients", "anchors": ["src/cuda/cd_stencil_*_cuda.cpp: offdiag, poisson_offdiag, v1diag, v2diag, poisson_diag"]}
{"id": "C62", "title": "Assembling and sweeping solves the equation of the operator kernels (diffusion)", "statement": "If flux kernel and operator kernel take the field X to G, then assembling the coefficients with the off-diagonal and diagonal kernels and running l sweeps of a Fortran smoother with right hand side G brings unknowns that agree with X outside the box and differ by at most E inside to within q^l E of X (Jacobi: (1 - d + d q)^l E), for every q at most 1 with (1 - q) (sum of the face weights + alpha a) <= alpha a in every cell.", "quantifier": "all boxes, ghost widths, schedules of the four kernels, coefficients, fields, starting values and all l, over any ordered field", "why_tests_cant": "joins six programs in two languages over any number of sweeps", "anchors": ["src/cuda/cdf_*_cuda.cpp", "src/cuda/cd_apply_*_cuda.cpp: v1_apply, v2_apply, poisson_v2_apply", "src/cuda/cd_stencil_*_cuda.cpp: offdiag, poisson_offdiag, v1diag, v2diag, poisson_diag", "m4/cellsmooth1d.m4, cellsmooth2d.m4, cellsmooth3d.m4: celljacobi*, cellgs*, cellrbgs*"]}
{"id": "C63", "title": "Convergence rate of the smoothers on the Poisson equation", "statement": "As the previous property for the Poisson kernels, with the rate computed from the box: after l sweeps the error is at most (1 - 4/K)^l (K/4) E (Jacobi: (1 - d + d (1 - 4/K))^l (K/4) E), K the sum over the axes of (number of cells + 1)^2.", "quantifier": "all boxes, ghost widths, schedules, spacings, fields, starting values and all l, over any ordered field", "why_tests_cant": "a rate in terms of the box size for every box and every number of sweeps", "anchors": ["src/cuda/cdf_*_cuda.cpp", "src/cuda/cd_apply_*_cuda.cpp: v1_apply, v2_apply, poisson_v2_apply", "src/cuda/cd_stencil_*_cuda.cpp: offdiag, poisson_offdiag, v1diag, v2diag, poisson_diag", "m4/cellsmooth1d.m4, cellsmooth2d.m4, cellsmooth3d.m4: celljacobi*, cellgs*, cellrbgs*"]}
{"id": "C64", "title": "The flux routines for node data compute the fluxes of the kernels", "statement": "The Fortran routines nodediffusionflux and nodepoissonflux leave the same memory as the flux and poisson_flux kernels, whatever the schedule of the kernels.", "quantifier": "all boxes with at least one cell per axis, ghost widths at least one, arrays apart from each other, memory contents, over any field", "why_tests_cant": "the routines have no C++ counterpart and no test; a wrong array shows only on boxes and data that tell it apart", "anchors": ["src/cuda/cdf_1d_cuda.cpp, cdf_2d_cuda.cpp, cdf_3d_cuda.cpp: flux, poisson_flux", "m4/nodediffusionflux1d.m4, nodediffusionflux2d.m4, nodediffusionflux3d.m4", "m4/nodediffusionapply1d.m4, nodediffusionapply2d.m4, nodediffusionapply3d.m4"]}
{"id": "C65", "title": "The operator routines for node data compute b f + a L u", "statement": "The Fortran routines nodediffusionv1apply, nodediffusionv2apply and nodepoissonapply replace the result in every cell of the box by b f + a L u, L u being the operator of the kernels, and change nothing else; with a = 1, b = 0 they leave the memory of the apply kernels, with a = -1, b = 1 that of the residual kernels.", "quantifier": "all boxes with at least one cell per axis, ghost widths, coefficients a and b, arrays apart from each other, memory contents, over any field", "why_tests_cant": "one routine against two kernels for all data; a flux read from the wrong axis may be in bounds and even equal on symmetric data", "anchors": ["src/cuda/cd_apply_1d_cuda.cpp, cd_apply_2d_cuda.cpp, cd_apply_3d_cuda.cpp: v1_apply, v1_res, v2_apply, v2_res, poisson_apply, poisson_res", "m4/nodediffusionflux1d.m4, nodediffusionflux2d.m4, nodediffusionflux3d.m4", "m4/nodediffusionapply1d.m4, nodediffusionapply2d.m4, nodediffusionapply3d.m4"]}
{"id": "C66", "title": "The block smoothers relax the equations of each cell", "statement": "cellblock1x1jacobi and cellblock2x2jacobi (1D, 2D), given residuals, change the unknowns of every cell of the box by the damping factor of the routine (2/3 in one dimension, 0.8 in two) times the solution of the one or two equations of the cell, so that the error of a cell is multiplied by 1 less the factor, and change nothing else.", "quantifier": "all boxes, ghost widths, coefficients with nonzero determinant, residuals, unknowns, memory contents", "why_tests_cant": "an identity for all coefficient blocks; the routines have no test", "anchors": ["m4/cellblocksmooth1d.m4, cellblocksmooth2d.m4: cellblock1x1jacobi*, cellblock2x2jacobi*"]}
{"id": "C67", "title": "The patch right-hand-side routines add the terms of the offset table", "statement": "celladjustsystemrhspatch adds to the right hand side of every cell of the box the products of its coefficients with the values at the displaced cells, and changes nothing else.", "quantifier": "all boxes, tables of displacements, ghost widths, coefficients, values, memory contents", "why_tests_cant": "swapped loop bounds go unnoticed on square boxes", "anchors": ["m4/celladjustrhs1d.m4, celladjustrhs2d.m4: celladjustsystemrhspatch*"]}
{"id": "C68", "title": "Known values next to a coarse-fine boundary move to the right hand side", "statement": "adjcellcrsfinebdryrhs subtracts from the right hand side of every cell next to a layer of cells the terms that refer to the layer, whatever its local array contains at the start, and changes nothing else; values that agree with the known ones on the layer satisfy the old equations exactly if, set to 0 on the layer, they satisfy the new ones; with the table of the star the kernel adj_cf_bdryrhs leaves the same memory.", "quantifier": "dimensions 1 to 3, all directions, both sides, boxes, layers, tables of displacements of length at most one per axis, coefficients, values, schedules of the kernel", "why_tests_cant": "an equivalence of equations for all values, and a comparison of two programs that store the terms differently", "anchors": ["m4/celladjustrhs1d.m4, celladjustrhs2d.m4, celladjustrhs3d.m4: adjcellcrsfinebdryrhs*", "src/cuda/cd_stencil_*_cuda.cpp: adj_cf_bdryrhs"]}
{"id": "C69", "title": "The coefficient routines for node data assemble what the kernels assemble", "statement": "The Fortran routines that assemble and adjust stencil coefficients for node data leave the memory the stencil coefficient kernels leave when the coefficients have no ghost layer.", "quantifier": "all 42 routines (fourteen in each dimension), boxes, patches, sides, boundary types, orders, coefficients, memory contents, schedules of the kernels, over any field", "why_tests_cant": "42 pairs of programs over all boxes and boundary data; the routines have no C++ caller and no test", "anchors": ["src/cuda/cd_stencil_1d_cuda.cpp, cd_stencil_2d_cuda.cpp, cd_stencil_3d_cuda.cpp", "m4/nodediffusionstencilcoeffs1d.m4, nodediffusionstencilcoeffs2d.m4, nodediffusionstencilcoeffs3d.m4"]}
{"id": "C70", "title": "The operator kernels are stable in the maximum norm", "statement": "If two runs of flux and apply kernels start from fields that differ by at most E in the cells around the box and their results differ by at most c E in the box, c a lower bound of the reaction coefficient, the fields differ by at most E in the box; for the Poisson kernels, if the fields differ by at most D around the box and the results by at most t in it, the fields differ in cell i of every axis by at most D + t (i - i0 + 1)(i1 + 1 - i) h^2 / (2 beta).", "quantifier": "dimensions 1 to 3, all boxes, mesh widths, positive face coefficients, nonnegative reaction coefficients, both diffusion operators and the Poisson operator, pairs of fields, ghost widths, memory contents, schedules, over any ordered field", "why_tests_cant": "a bound on the inverse of the operator, uniform in the number of cells; tests compare the operator with itself on one grid", "anchors": ["src/cuda/cd_apply_1d_cuda.cpp, cd_apply_2d_cuda.cpp, cd_apply_3d_cuda.cpp: v1_apply, v2_apply, poisson_apply", "src/cuda/cdf_1d_cuda.cpp, cdf_2d_cuda.cpp, cdf_3d_cuda.cpp: flux, poisson_flux"]}
{"id": "C71", "title": "The operator kernels approximate the differential operator to second order", "statement": "If the field is sampled from a function with four continuous derivatives in the centres of the cells of the box and the layer around it, and the face coefficients from functions with three continuous derivatives in the centres of the faces, the flux and apply kernels give in every cell the value of alpha a phi - beta div(b grad phi) in its centre, with an error of at most |beta| times the sum over the axes of C h^2 / 24, C bounding the third derivative of b phi' plus the product of bounds of b' and the third derivative of phi plus that of b and the fourth; for the Poisson kernels at most |beta| times the sum of M h^2 / 12, M a bound of the fourth derivative.", "quantifier": "dimensions 1 to 3, all smooth functions and coefficients, boxes, mesh widths (different on every axis), ghost widths, memory contents, schedules, over the real numbers", "why_tests_cant": "a statement about all smooth functions and all mesh widths; a consistent but first order scheme passes tests with linear or quadratic data", "anchors": ["src/cuda/cd_apply_1d_cuda.cpp, cd_apply_2d_cuda.cpp, cd_apply_3d_cuda.cpp: v1_apply, v2_apply, poisson_apply", "src/cuda/cdf_1d_cuda.cpp, cdf_2d_cuda.cpp, cdf_3d_cuda.cpp: flux, poisson_flux"]}
{"id": "C72", "title": "Fields that solve the difference equations converge to the solution of the differential equation", "statement": "If the results of the flux and apply kernels differ by at most t from a smooth function's alpha a phi - beta div(b grad phi) in the centres of the cells, and the field differs by at most D from phi in the layer of cells around the box, the field differs from phi in the box by at most the larger of D and (t + truncation error of C71) / c, c > 0 a lower bound of alpha a; for the Poisson kernels by at most D + (t + truncation error) (i - i0 + 1)(i1 + 1 - i) h^2 / (2 beta) for each axis.", "quantifier": "dimensions 1 to 3, all smooth functions, positive coefficients, boxes, mesh widths, ghost widths, fields, tolerances, memory contents, schedules, over the real numbers", "why_tests_cant": "an error bound uniform in the number of cells; tests run on finitely many grids and compare with Fortran, not with solutions", "anchors": ["src/cuda/cd_apply_1d_cuda.cpp, cd_apply_2d_cuda.cpp, cd_apply_3d_cuda.cpp: v1_apply, v2_apply, poisson_apply", "src/cuda/cdf_1d_cuda.cpp, cdf_2d_cuda.cpp, cdf_3d_cuda.cpp: flux, poisson_flux"]}
{"id": "C73", "title": "The equations of the operator kernels have exactly one solution", "statement": "Whatever the cells around the box contain and whatever right hand side is given, there is exactly one way to fill the box of the field so that the flux kernel followed by the apply kernel runs and leaves the right hand side in the result.", "quantifier": "dimensions 1 to 3, both diffusion operators and the Poisson operator, all boxes, mesh widths, positive face coefficients, nonnegative reaction coefficients, ghost widths, memory contents, schedules, over any ordered field", "why_tests_cant": "existence and uniqueness of the preimage of every right hand side", "anchors": ["src/cuda/cd_apply_1d_cuda.cpp, cd_apply_2d_cuda.cpp, cd_apply_3d_cuda.cpp: v1_apply, v2_apply, poisson_apply", "src/cuda/cdf_1d_cuda.cpp, cdf_2d_cuda.cpp, cdf_3d_cuda.cpp: flux, poisson_flux"]}
{"id": "C74", "title": "Adjusted rows act on boundary values as plain rows act on ghost values", "statement": "Adjust the off-diagonal coefficients for a side, assemble the diagonal, adjust the diagonal: the rows of the cells next to the side, applied to values that have the boundary value in the ghost cell, give what the rows without the adjustments give with the extrapolated ghost value, for every polynomial of the order's degree that meets the boundary condition; the rows of the other cells are the same.", "quantifier": "dimensions 1 to 3, both diffusion operators and the Poisson operator, all directions, both sides, boundary types 0, 1 and 4, both orders, coefficients in memory, polynomials, boundary values, mesh widths, ghost widths, schedules, over any field", "why_tests_cant": "an identity for all polynomials and coefficients; C++ and Fortran share the errors, so comparing them shows nothing", "anchors": ["src/cuda/cd_stencil_1d_cuda.cpp, cd_stencil_2d_cuda.cpp, cd_stencil_3d_cuda.cpp: adj_offdiag, adj_diag, adj_poisson_offdiag, adj_poisson_diag, v1diag, v2diag, poisson_diag", "m4/celldiffusionstencilcoeffs1d.m4, celldiffusionstencilcoeffs2d.m4, celldiffusionstencilcoeffs3d.m4"]}
{"id": "C75", "title": "Rows adjusted at coarse-fine boundaries act on coarse values as plain rows act on ghost values", "statement": "Assemble off-diagonals and diagonal, then run adj_cf_diag and adj_cf_offdiag for a side with refinement ratio r: the rows of the cells next to the side, applied to values that have the value of the coarse cell in the ghost cell, give what the rows before the adjustment give with the interpolated ghost value, for every polynomial of degree at most the order of the interpolation; the rows of the other cells are the same.", "quantifier": "dimensions 1 to 3, both diffusion operators and the Poisson operator, all directions, both sides, both orders, refinement ratios, polynomials, coefficients, mesh widths, ghost widths, memory contents, schedules, over any field of characteristic 0", "why_tests_cant": "an identity for all polynomials and coefficients; C++ and Fortran contain the same constants, so comparing them shows nothing", "anchors": ["src/cuda/cd_stencil_1d_cuda.cpp, cd_stencil_2d_cuda.cpp, cd_stencil_3d_cuda.cpp: adj_cf_diag, adj_poisson_cf_diag, adj_cf_offdiag, offdiag, poisson_offdiag, v1diag, v2diag, poisson_diag", "m4/celldiffusionstencilcoeffs1d.m4, celldiffusionstencilcoeffs2d.m4, celldiffusionstencilcoeffs3d.m4"]}
{"id": "C76", "title": "The boundary condition kernels write only in the segment they are called for", "statement": "set_bc, set_poisson_bc, set_corner_bc and set_homogenous_bc end without undefined behaviour and leave every element of memory as it was, except the elements of u that belong to cells of the segment (and, for the corner and homogenous kernels, the cells beside the box on the side given), for every boundary type, extrapolation order and face number, known or not.", "quantifier": "dimensions 1 to 3, all segments within reach of the array, boundary types, orders, face numbers, mesh widths, ghost widths, memory contents, schedules, over any field", "why_tests_cant": "a frame condition over every memory contents and every address; tests compare u with the Fortran result and would not notice a write both make", "anchors": ["src/cuda/cd_correct_bc_1d_cuda.cpp, cd_correct_bc_2d_cuda.cpp, cd_correct_bc_3d_cuda.cpp: set_bc, set_poisson_bc, set_corner_bc, set_homogenous_bc"]}
{"id": "C77", "title": "Filling ghost cells and applying plain rows is the same as applying adjusted rows without ghost cells", "statement": "Fill the ghost cells of a side without a boundary value by set_bc or set_poisson_bc, then assemble the rows: their value in the cells next to the side, for every field, is the value that the rows adjusted for the side give with 0 in the ghost cell, and the rows of the other cells are the same in both.", "quantifier": "dimensions 1 to 3, both diffusion operators and the Poisson operator, all directions, both sides, boundary types 0, 1 and 4, both orders, fields, coefficients, mesh widths, ghost widths, memory contents, schedules, over any field of characteristic 0", "why_tests_cant": "relates two pieces of code that no test runs on the same data, for every field and coefficient", "anchors": ["src/cuda/cd_correct_bc_1d_cuda.cpp, cd_correct_bc_2d_cuda.cpp, cd_correct_bc_3d_cuda.cpp: set_bc, set_poisson_bc", "src/cuda/cd_stencil_1d_cuda.cpp, cd_stencil_2d_cuda.cpp, cd_stencil_3d_cuda.cpp: adj_offdiag, adj_poisson_offdiag, v1diag, v2diag, poisson_diag"]}
{"id": "C78", "title": "The block Jacobi routine leaves solutions unchanged", "statement": "For a system with several unknowns per cell, ccellblkjacobi3d ends, changes only u and r, and leaves u unchanged exactly when the equations of all cells hold.", "quantifier": "all boxes, numbers of unknowns per cell, tables, coefficients with regular diagonal blocks, right hand sides, fields, ghost widths, every solver that keeps LAPACK's promise, over any field", "why_tests_cant": "a fixed point statement for all systems and solvers; no test calls the routine", "anchors": ["m4/cellsmooth3d.m4:281-339"]}
{"id": "C79", "title": "The block smoother with a dense solve relaxes the equations of each block", "statement": "creatematrix assembles the couplings within the block, and cellblockjacobi3d ends and adds to the unknowns of each block the damped solution of its equations.", "quantifier": "all boxes, block sizes, tables, coefficients, fields, solvers, over any arithmetic", "why_tests_cant": "no test calls the routine; that every call goes wrong is a statement about all calls", "anchors": ["m4/cellblocksmooth3d.m4:7-45, 80-188"]}
{"id": "C80", "title": "Boundary segments of one kind can be filled in any order and more than once", "statement": "Several calls of a boundary condition kernel for one field, all for sides of the box (or all for edges, or all for corners), with segments that have no cell in common, leave the same memory in whatever order they are made, and making any of them again changes nothing.", "quantifier": "dimensions 1 to 3, all finite lists of calls and all their permutations, segments, boundary types, orders, coefficients, face numbers known or not, mesh widths, ghost widths, memory contents, schedules that may differ between the calls, boxes at least two cells wide, over any field", "why_tests_cant": "a statement about all permutations of all lists of calls; the tests make one call on one field", "anchors": ["src/cuda/cd_correct_bc_1d_cuda.cpp, cd_correct_bc_2d_cuda.cpp, cd_correct_bc_3d_cuda.cpp: set_bc, set_poisson_bc, set_corner_bc"]}
{"id": "C81", "title": "No sweep of a smoother increases the energy of the error", "statement": "If the equations of the cells are symmetric with positive diagonal, then one sweep of Gauss-Seidel, of one colour of red-black Gauss-Seidel or, if moreover each row is weakly dominated by its diagonal, of damped Jacobi, does not increase the energy of the difference to a solution, and leaves it equal only if the equations of all cells swept held before. The coefficients that the assembly kernels leave in the table for positive face coefficients are of this kind.", "quantifier": "dimensions 1 to 3, all boxes, tables, symmetric coefficients, right hand sides, unknowns, array bounds, colours, memory contents, over any ordered field; for the assembly also all mesh widths, coefficients, ghost widths and schedules", "why_tests_cant": "an inequality for every symmetric system and every iterate; it does not need strict dominance, so it is not a consequence of the rates of convergence (C59)", "anchors": ["m4/cellsmooth1d.m4, cellsmooth2d.m4, cellsmooth3d.m4: jacobi, gs, rbgs", "src/cuda/cd_stencil_1d_cuda.cpp, cd_stencil_2d_cuda.cpp, cd_stencil_3d_cuda.cpp: offdiag, poisson_offdiag, v1diag, v2diag, poisson_diag"]}
{"id": "C82", "title": "In double precision fluxes, operator values, residuals and coefficients are off by a few rounding errors only", "statement": "Computed with 53 bit rounding after every operation, a flux is off the exact flux of the stored data by at most 4 of its rounding errors (3 without a coefficient), an off-diagonal coefficient by at most 5, the value of the operator and the diagonal coefficient by at most 10 and the residual by at most 11 rounding errors of the sum of the sizes of their terms; so the diagonal coefficient of an equation with coefficients of one sign has full relative accuracy, while the operator value has none, for its terms cancel.", "quantifier": "dimensions 1 to 3, both diffusion operators, the diffusion and the Poisson operator, all boxes, ghost widths, fields, coefficients, scalars, mesh widths other than 0, memory contents, schedules; 53 bit round to nearest even with unbounded exponent", "why_tests_cant": "a worst case over all doubles; tests compare with another rounded computation and a tolerance", "anchors": ["src/cuda/cdf_1d_cuda.cpp, cdf_2d_cuda.cpp, cdf_3d_cuda.cpp", "src/cuda/cd_apply_1d_cuda.cpp, cd_apply_2d_cuda.cpp, cd_apply_3d_cuda.cpp", "src/cuda/cd_stencil_1d_cuda.cpp, cd_stencil_2d_cuda.cpp, cd_stencil_3d_cuda.cpp: offdiag, poisson_offdiag, v1diag, v2diag, poisson_diag"]}
{"id": "C83", "title": "In double precision the smoothers converge down to the size of the rounding errors of one sweep", "statement": "If the stored equations are dominated by their diagonal with rate q < 1, then after k sweeps in 53 bit arithmetic the unknowns are off the exact solution by at most r^k times the error at the start plus g Z / (1 - r), where r exceeds the exact rate only by the order of the rounding errors g of one sweep, and Z is the size of the data over the diagonal. No number of sweeps lets rounding errors pile up.", "quantifier": "dimensions 1 to 3, damped Jacobi, Gauss-Seidel, red-black Gauss-Seidel, all boxes, tables, coefficients, right hand sides, start values, numbers of sweeps, array bounds, memory contents; 53 bit round to nearest even with unbounded exponent", "why_tests_cant": "a bound for every number of sweeps and all doubles; a test makes one sweep and compares with a tolerance", "anchors": ["m4/cellsmooth1d.m4, cellsmooth2d.m4, cellsmooth3d.m4: jacobi, gs, rbgs"]}
{"id": "C84", "title": "Assembling, adjusting for the boundary conditions and sweeping solves the boundary value problem", "statement": "Let a field with ghost values fulfil Dirichlet, Neumann and Robin conditions of first order on segments of the boundary, and let the operator kernels give G for it. Then assembling the coefficients, adjusting them for the boundary segments one after the other (in any order), and sweeping with right hand side G, the boundary data in the ghost cells, moves any start values towards that field, by a factor r < 1 with every sweep; no ghost cell is changed.", "quantifier": "dimensions 1 to 3, both diffusion operators, damped Jacobi, Gauss-Seidel, red-black Gauss-Seidel, all boxes, lists of disjoint boundary segments, data, coefficients with reaction, mesh widths, ghost widths, start values, numbers of sweeps, schedules, memory contents, over any ordered field", "why_tests_cant": "relates six kernels and any number of sweeps, for all fields that fulfil the conditions; the tests compare single kernels", "anchors": ["src/cuda/cd_stencil_1d_cuda.cpp, cd_stencil_2d_cuda.cpp, cd_stencil_3d_cuda.cpp: offdiag, adj_offdiag, v1diag, v2diag, adj_diag", "src/cuda/cdf_1d_cuda.cpp, cdf_2d_cuda.cpp, cdf_3d_cuda.cpp", "src/cuda/cd_apply_1d_cuda.cpp, cd_apply_2d_cuda.cpp, cd_apply_3d_cuda.cpp", "m4/cellsmooth1d.m4, cellsmooth2d.m4, cellsmooth3d.m4: jacobi, gs, rbgs"]}
{"id": "C85", "title": "The boundary value problems of the operator kernels have exactly one solution, unless nothing ties its level", "statement": "For Dirichlet, Neumann and Robin conditions of first order on pieces of the boundary, given values on the rest, and any right hand side, there is a field with ghost values that fulfils the conditions and for which the operator kernels give the right hand side, and any two such fields agree in the box, provided that some cell has a positive reaction or some boundary face has no Neumann condition.", "quantifier": "dimensions 1 to 3, both diffusion operators and the Poisson operator, all boxes, disjoint pieces, data, right hand sides, positive face coefficients, reactions not negative, mesh widths, ghost widths, schedules, memory contents, over any ordered field", "why_tests_cant": "existence and uniqueness for all data; not a property of any single run", "anchors": ["src/cuda/cdf_1d_cuda.cpp, cdf_2d_cuda.cpp, cdf_3d_cuda.cpp", "src/cuda/cd_apply_1d_cuda.cpp, cd_apply_2d_cuda.cpp, cd_apply_3d_cuda.cpp"]}
{"id": "C86", "title": "The operator and assembly kernels treat all directions alike, and both orientations of each", "statement": "Exchanging the directions of the box together with mesh widths, face coefficients and data, or turning one direction round, exchanges or turns round the results of the operator kernels and, with the coefficients of the neighbours, those of the assembly kernels.", "quantifier": "dimensions 1 to 3, both diffusion operators and the Poisson operator, all boxes, data, coefficients, mesh widths, ghost widths, schedules of both runs, memory contents, over any field", "why_tests_cant": "relates two runs on all data; a kernel with the wrong width or coefficient in one direction passes tests with equal widths and constant coefficients", "anchors": ["src/cuda/cdf_1d_cuda.cpp, cdf_2d_cuda.cpp, cdf_3d_cuda.cpp", "src/cuda/cd_apply_1d_cuda.cpp, cd_apply_2d_cuda.cpp, cd_apply_3d_cuda.cpp", "src/cuda/cd_stencil_1d_cuda.cpp, cd_stencil_2d_cuda.cpp, cd_stencil_3d_cuda.cpp: offdiag, poisson_offdiag, v1diag, v2diag, poisson_diag"]}
{"id": "C87", "title": "On data that do not depend on the last direction the operator kernels give the results of one dimension less", "statement": "If the values do not change along the last direction and the coefficients of the other faces do not either, the operator kernels of two dimensions leave in each row the results of the ones of one dimension, and those of three dimensions leave in each plane the results of the ones of two, whatever the width and the face coefficients of the last direction.", "quantifier": "2D against 1D and 3D against 2D, both diffusion operators and the Poisson operator, all boxes, data, coefficients, mesh widths, ghost widths, schedules of both runs, memory contents, over any field", "why_tests_cant": "relates kernels written separately, for all data; the tests never compare kernels of different dimensions", "anchors": ["src/cuda/cdf_1d_cuda.cpp, cdf_2d_cuda.cpp, cdf_3d_cuda.cpp", "src/cuda/cd_apply_1d_cuda.cpp, cd_apply_2d_cuda.cpp, cd_apply_3d_cuda.cpp"]}
{"id": "C88", "title": "The boundary condition kernels of two and three dimensions act on each line across the boundary as the one of one dimension", "statement": "The value that the boundary condition kernels of two and three dimensions leave in a ghost cell of a face is the one that the kernel of one dimension leaves when it is given the values and face coefficients on the line through that cell and the mesh width of its direction.", "quantifier": "2D and 3D, all faces, diffusion and Poisson, boundary types and orders, boxes, segments, data, coefficients, alpha and beta, mesh widths, ghost widths, schedules of both runs, memory contents, over any field", "why_tests_cant": "relates kernels written separately, for all data; the tests never compare kernels of different dimensions", "anchors": ["src/cuda/cd_correct_bc_1d_cuda.cpp, cd_correct_bc_2d_cuda.cpp, cd_correct_bc_3d_cuda.cpp: set_bc, set_poisson_bc"]}
{"id": "C89", "title": "Fields that meet the boundary conditions and the difference equations converge to second order to the solution of the boundary value problem", "statement": "Let a smooth function fulfil Dirichlet, Neumann and Robin conditions of first order exactly on the pieces of the boundary, and let a field with its ghost values fulfil the same conditions in the sense in which the boundary kernels set ghost values. If the result of the operator kernels is within t of the differential operator applied to the function, the field is within a bound of the function that is linear in t, in the distance of the ghost values that belong to no piece, and in the squares of the mesh widths, with constants that depend on bounds of derivatives, the reaction (or, for the Poisson operator, the extent of a direction without Neumann and Robin conditions) and the extents of the box, but not on the number of cells. So Neumann and Robin conditions of first order do not lower the order of convergence.", "quantifier": "dimensions 1 to 3, both diffusion operators with positive reaction and the Poisson operator with any one direction without Neumann and Robin conditions, all boxes, pieces, data, smooth functions and coefficients, mesh widths, ghost widths, schedules, memory contents, over the real numbers", "why_tests_cant": "a bound for all functions, pieces and meshes; the tests compare a few meshes and one solution", "anchors": ["src/cuda/cdf_1d_cuda.cpp, cdf_2d_cuda.cpp, cdf_3d_cuda.cpp", "src/cuda/cd_apply_1d_cuda.cpp, cd_apply_2d_cuda.cpp, cd_apply_3d_cuda.cpp", "src/cuda/cd_correct_bc_1d_cuda.cpp, cd_correct_bc_2d_cuda.cpp, cd_correct_bc_3d_cuda.cpp"]}
{"id": "C90", "title": "Calls of the boundary condition kernels leave a field that fulfils the boundary conditions on their pieces, and change nothing else", "statement": "Calls of set_bc or set_poisson_bc for parts of the sides of a box, with Dirichlet, Neumann or Robin conditions of first order, made in any order, end with one and the same contents: on each part the ghost values and the values beside them lie on a polynomial that meets the homogeneous condition there with the coefficient of the face between them, the ghost cells of no part hold what they held before, and no element of memory but the ghost cells of the parts has changed.", "quantifier": "dimensions 1 to 3, diffusion and Poisson, all boxes at least two cells wide, all lists of calls for parts without common cells, their orders, data, face coefficients, alpha and beta, mesh widths, ghost widths, schedules, memory contents, over any field of characteristic 0", "why_tests_cant": "about lists of calls on all data; the tests make single calls and compare with the Fortran", "anchors": ["src/cuda/cd_correct_bc_1d_cuda.cpp, cd_correct_bc_2d_cuda.cpp, cd_correct_bc_3d_cuda.cpp: set_bc, set_poisson_bc"]}
{"id": "C91", "title": "Filling the ghost cells and applying the operator gives what the assembled and adjusted coefficients give", "statement": "From a field on a box, calls of set_bc for segments of the boundary, then the flux kernel and the apply kernel, on the one hand, and offdiag, adj_offdiag for the same segments, the diagonal kernel, adj_diag, and then the dot product kernel on the field with 0 in the ghost cells of the segments, on the other hand, leave the same value in every cell of the box: the two ways in which the library represents the operator with its boundary conditions agree, also where ghost cells belong to no segment.", "quantifier": "dimensions 1 to 3, both diffusion operators, all boxes at least two cells wide, all lists of segments without common cells with homogeneous Dirichlet, Neumann and Robin conditions of first order (alpha = 2 beta), fields, coefficients, mesh widths, ghost widths, schedules, memory contents and layouts, over any field of characteristic 0", "why_tests_cant": "equality of two programs of several kernels for all data; the tests compare each kernel with its Fortran counterpart and never one way with the other", "anchors": ["src/cuda/cd_correct_bc_1d_cuda.cpp, cd_correct_bc_2d_cuda.cpp, cd_correct_bc_3d_cuda.cpp: set_bc", "src/cuda/cdf_1d_cuda.cpp, cdf_2d_cuda.cpp, cdf_3d_cuda.cpp", "src/cuda/cd_apply_1d_cuda.cpp, cd_apply_2d_cuda.cpp, cd_apply_3d_cuda.cpp", "src/cuda/cd_stencil_1d_cuda.cpp, cd_stencil_2d_cuda.cpp, cd_stencil_3d_cuda.cpp", "src/cuda/dot_offset_test.cpp"]}
{"id": "C92", "title": "The operator together with the boundary condition kernels is symmetric", "statement": "For two fields U and V that are zero in the ghost cells for which no boundary condition is set, set_bc (or set_poisson_bc), the flux kernel and the apply kernel leave results R and S with sum V R = sum U S over the box, whatever the fields hold in the ghost cells of the segments beforehand: setting ghost values does not destroy the symmetry that conjugate gradient methods rely on.", "quantifier": "dimensions 1 to 3, both diffusion operators and the Poisson operator, all boxes at least two cells wide, all lists of calls for parts of the boundary without common cells (Dirichlet, Neumann and Robin of first order; Poisson in 1D with alpha = 2 beta), fields, coefficients, mesh widths, ghost widths, schedules, memory contents, over any field of characteristic 0", "why_tests_cant": "an identity between two runs, for all fields and all lists of boundary calls; the tests check single kernels against the Fortran", "anchors": ["src/cuda/cd_correct_bc_1d_cuda.cpp, cd_correct_bc_2d_cuda.cpp, cd_correct_bc_3d_cuda.cpp: set_bc, set_poisson_bc", "src/cuda/cdf_1d_cuda.cpp, cdf_2d_cuda.cpp, cdf_3d_cuda.cpp", "src/cuda/cd_apply_1d_cuda.cpp, cd_apply_2d_cuda.cpp, cd_apply_3d_cuda.cpp"]}
{"id": "C93", "title": "The operator together with the boundary condition kernels is positive, and definite unless nothing ties the level", "statement": "For a field U that is zero in the ghost cells for which no boundary condition is set, set_bc (or set_poisson_bc), the flux kernel and the apply kernel leave a result R with sum U R >= 0 over the box, and sum U R = 0 only if U vanishes in the box, provided that some cell has a positive reaction or some boundary face has no Neumann condition.", "quantifier": "dimensions 1 to 3, both diffusion operators and the Poisson operator, all boxes at least two cells wide, all lists of calls for parts of the boundary without common cells (Dirichlet, Neumann and Robin of first order; Poisson in 1D with alpha = 2 beta), fields, coefficients, mesh widths, ghost widths, schedules, memory contents, over any ordered field; face coefficients positive, reactions not negative", "why_tests_cant": "an inequality for all fields and lists of boundary calls; single runs can only sample it", "anchors": ["src/cuda/cd_correct_bc_1d_cuda.cpp, cd_correct_bc_2d_cuda.cpp, cd_correct_bc_3d_cuda.cpp: set_bc, set_poisson_bc", "src/cuda/cdf_1d_cuda.cpp, cdf_2d_cuda.cpp, cdf_3d_cuda.cpp", "src/cuda/cd_apply_1d_cuda.cpp, cd_apply_2d_cuda.cpp, cd_apply_3d_cuda.cpp"]}
{"id": "C94", "title": "The operator together with the boundary condition kernels preserves order (comparison principle)", "statement": "If set_bc (or set_poisson_bc), the flux kernel and the apply kernel give results R <= S in the box for fields U and V with U <= V in the ghost cells for which no boundary condition is set, then U <= V in the box, provided that some cell has a positive reaction or some boundary face has no Neumann condition.", "quantifier": "dimensions 1 to 3, both diffusion operators and the Poisson operator, all boxes at least two cells wide, all lists of calls for parts of the boundary without common cells (Dirichlet, Neumann and Robin of first order; Poisson in 1D with alpha = 2 beta), fields, coefficients, mesh widths, ghost widths, schedules, memory contents, over any ordered field; face coefficients positive, reactions not negative", "why_tests_cant": "relates two runs for all data; an implication that single runs cannot settle", "anchors": ["src/cuda/cd_correct_bc_1d_cuda.cpp, cd_correct_bc_2d_cuda.cpp, cd_correct_bc_3d_cuda.cpp: set_bc, set_poisson_bc", "src/cuda/cdf_1d_cuda.cpp, cdf_2d_cuda.cpp, cdf_3d_cuda.cpp", "src/cuda/cd_apply_1d_cuda.cpp, cd_apply_2d_cuda.cpp, cd_apply_3d_cuda.cpp"]}
{"id": "C95", "title": "Strided and permuted assignments between arrays touch exactly the points of the strided box", "statement": "md_device_span_cuda::stride sets every point of the strided box of the result to beta times the element of u with the same indices, although u is stored with the directions in the opposite order and has other ghost widths, and changes nothing else; md_device_span_cuda::init sets every cell of the box to its difference expression and changes nothing else.", "quantifier": "dimensions 1 to 3 (init: 1 and 2), all boxes, strides, ghost widths, data, memory layouts of the two arrays and schedules for which the int products fit, over any type of numbers", "why_tests_cant": "for all boxes and strides; the tests run a few fixed ones", "anchors": ["src/cuda/md_device_span_test.cpp", "src/cuda/md_device_span.hpp"]}
{"id": "C96", "title": "The coarse to fine assignment gives every fine cell the value of the coarse cell that contains it, also for negative indices", "statement": "test::init of the coarse to fine test sets each fine cell i to the coarse cell k with k ratio <= i < (k+1) ratio, and changes nothing else.", "quantifier": "all fine and coarse boxes, also with negative indices, ratios, data, layouts and schedules", "why_tests_cant": "for all index ranges and ratios; the tests run a few fixed ones", "anchors": ["src/cuda/coarse_to_fine_iterator_test.cpp", "src/cuda/coarse_to_fine_iterator.hpp"]}
{"id": "C97", "title": "Window statements over interleaved arrays read and write the entries of their own window only", "statement": "The window test kernels (init, transform, transform2, transform3, transform4, rhs) leave in each window exactly the values of their statements, evaluated in order with the entries of that window and the array element beside it, and change nothing else.", "quantifier": "all six kernels, all data, layouts of the arrays without common elements, schedules, over any ring", "why_tests_cant": "for all data and schedules; the tests run one array each", "anchors": ["src/cuda/window_iterator_test.cpp", "src/cuda/stencil_proxy.hpp", "src/cuda/md_device_span.hpp"]}
{"id": "C98", "title": "The forward stencil iterator over an array of any dimension visits each pair of neighbours once, in row-major order", "statement": "forward_stencil_test_cuda::transform leaves in u the forward differences of v along the chosen direction, one for each pair of neighbours, in row-major order, also if u overlaps v, and changes nothing else; forward_stencil_test_cuda::init passes all its assertions on distances, steps and jumps.", "quantifier": "any number of dimensions, any direction with at least two elements, all extents, data, layouts, schedules", "why_tests_cant": "for all extents; the tests run three arrays", "anchors": ["src/cuda/forward_stencil_iterator_test.cpp", "src/cuda/forward_stencil_iterator.hpp"]}
{"id": "C99", "title": "The submatrix iterator writes exactly the elements of its box, in row-major order", "statement": "submatrix_test_cuda::tabulate sets every element of the box lb..ub to minus its row-major number within the box and changes nothing else. submatrix_test_cuda::init passes all its assertions on steps, jumps and distances across row and plane ends, leaves in each element of the box the value written last to it, and changes nothing else.", "quantifier": "any number of dimensions (init: two and three, with more than one row and more than one plane), all boxes inside all arrays, data, layouts, schedules", "why_tests_cant": "for all boxes and arrays; the tests run a few fixed ones", "anchors": ["src/cuda/submatrix_iterator_test.cpp", "src/cuda/submatrix_iterator.hpp", "src/cuda/matrix_traversal_iterator.hpp"]}
{"id": "C100", "title": "Copying through the transpose iterator transposes an array", "statement": "transpose_test_cuda::init leaves the element of v with coordinates x at the coordinates x[I]... of the array u with extents sz[I]..., also if u overlaps v, and changes nothing else.", "quantifier": "any number of dimensions, any permutation, all extents, data, layouts, schedules", "why_tests_cant": "for all permutations and extents; the tests run a few", "anchors": ["src/cuda/transpose_iterator_test.cpp", "src/cuda/transpose_iterator.hpp"]}
{"id": "C101", "title": "The offset iterator is a random access iterator over the elements at the tabulated offsets", "statement": "Any history of ++, --, += and -= inside the table ends where one jump over its net distance ends, distances are differences of positions, and iterators are equal exactly if their distance is zero. Element i is the array element at the coordinates in row i of the table, with the strides of stride_from_size. offset_test_cuda::init passes its assertions, leaves -1 - i in the element at offset i (the last such i if offsets repeat), and changes nothing else.", "quantifier": "any number of dimensions, all extents, all tables of offsets inside the array, also with repetitions, data, layouts, histories of moves", "why_tests_cant": "for all tables and histories; the tests run one table per dimension", "anchors": ["src/cuda/offset_iterator.hpp", "src/cuda/offset_iterator_test.cpp", "src/cuda/matrix_utils.hpp:23-28"]}
{"id": "C102", "title": "The flux tests pass, whatever they pick", "statement": "Each test case of cd_flux_1d, cd_flux_2d and cd_flux_3d (setting up vectors on host and device, filling them, calling the Fortran routine on the host copies and the kernel on the device copies, converting and comparing) runs to its end and finds the compared vectors equal.", "quantifier": "all boxes, ghost widths, spacings and other numbers meeting the conditions of the kernels, all random data, all valid schedules; each example has the numbers of the test case with everything it picks or generates as a variable; exact arithmetic over any field with decidable equality", "why_tests_cant": "the tests run with the numbers one random seed picks; this is about all seeds, all sizes and all orders in which a device may work", "anchors": ["src/cd_flux_1d.t.cpp", "src/cd_flux_2d.t.cpp", "src/cd_flux_3d.t.cpp", "src/md_device_vector.hpp"]}
{"id": "C103", "title": "The residual and operator tests pass, whatever they pick", "statement": "Each of the eighteen test cases of cd_apply_1d, cd_apply_2d and cd_apply_3d runs to its end and finds the compared vectors equal.", "quantifier": "all boxes, ghost widths, spacings and other numbers meeting the conditions of the kernels, all random data, all valid schedules; each example has the numbers of the test case with everything it picks or generates as a variable; exact arithmetic over any field with decidable equality", "why_tests_cant": "the tests run with the numbers one random seed picks; this is about all seeds, all sizes and all orders in which a device may work", "anchors": ["src/cd_apply_1d.t.cpp", "src/cd_apply_2d.t.cpp", "src/cd_apply_3d.t.cpp", "src/md_device_vector.hpp"]}
{"id": "C104", "title": "The coefficient tests pass, whatever they pick", "statement": "Each of the forty-two test cases of cd_stencil_1d, cd_stencil_2d and cd_stencil_3d runs to its end and finds the compared vectors equal, for every combination of direction, side, boundary type and order the test generates.", "quantifier": "all boxes, ghost widths, spacings and other numbers meeting the conditions of the kernels, all random data, all valid schedules; each example has the numbers of the test case with everything it picks or generates as a variable; exact arithmetic over any field with decidable equality", "why_tests_cant": "the tests run with the numbers one random seed picks; this is about all seeds, all sizes and all orders in which a device may work", "anchors": ["src/cd_stencil_1d.t.cpp", "src/cd_stencil_2d.t.cpp", "src/cd_stencil_3d.t.cpp", "src/md_device_vector.hpp"]}
{"id": "C105", "title": "The boundary condition tests pass, whatever they pick", "statement": "Each of the eight test cases of cd_correct_bc_1d, cd_correct_bc_2d and cd_correct_bc_3d runs to its end and finds the compared vectors equal, for every combination of face, type, boundary type and order the test generates.", "quantifier": "all boxes, ghost widths, spacings and other numbers meeting the conditions of the kernels, all random data, all valid schedules; each example has the numbers of the test case with everything it picks or generates as a variable; exact arithmetic over any field with decidable equality", "why_tests_cant": "the tests run with the numbers one random seed picks; this is about all seeds, all sizes and all orders in which a device may work", "anchors": ["src/cd_correct_bc_1d.t.cpp", "src/cd_correct_bc_2d.t.cpp", "src/cd_correct_bc_3d.t.cpp", "src/md_device_vector.hpp"]}
{"id": "C106", "title": "The coarse to fine tests pass, whatever they pick", "statement": "Both test cases of coarse_to_fine, copy along each of the three axes and corner, run to their end and find the compared vectors equal.", "quantifier": "all boxes, ghost widths, spacings and other numbers meeting the conditions of the kernels, all random data, all valid schedules; each example has the numbers of the test case with everything it picks or generates as a variable; exact arithmetic over any field with decidable equality", "why_tests_cant": "the tests run with the numbers one random seed picks; this is about all seeds, all sizes and all orders in which a device may work", "anchors": ["src/coarse_to_fine.t.cpp", "src/md_device_vector.hpp"]}
{"id": "C107", "title": "A test passes exactly if routine and kernel leave the same elements", "statement": "For vectors whose copies agree at the start, and for any routine on host memory and any kernel on device memory, the comparisons at the end of a test say yes if and only if each vector on the host has as many elements as its partner on the device and after the calls the same elements: no comparison looks at a stale copy.", "quantifier": "all numbers and sizes of vectors, all routines and kernels that keep what is allocated, all lists of comparisons of a vector the kernel does not get with a vector it gets", "why_tests_cant": "the tests run with the numbers one random seed picks; this is about all seeds, all sizes and all orders in which a device may work", "anchors": ["src/md_device_vector.hpp:46-93", "src/md_device_vector.hpp:158-164", "src/cd_flux_2d.t.cpp:34-38"]}
{"id": "C108", "title": "The operator kernels are bounded above and below in the mean square norm", "statement": "With positive beta and face coefficients of at least bmin, alpha * a of at least amin >= 0, and U vanishing outside the box, the sum of U times the result lies between amin + beta * bmin * (sum over the directions of 8 / ((n + 1) h)^2) and the largest sum of absolute values in a row, times the sum of the squares of U; the sum of the squares of the result lies between the squares of these bounds, times the sum of the squares of U. So the condition number grows at most as the square of the number of cells in a direction.", "quantifier": "all boxes, ghost widths, schedules, coefficients and fields, over any ordered field", "why_tests_cant": "an inequality for all fields with a constant in terms of the number of cells", "anchors": ["src/cuda/cdf_*_cuda.cpp", "src/cuda/cd_apply_*_cuda.cpp: v1_apply, v2_apply, poisson_v2_apply"]}
{"id": "C109", "title": "Explicit steps with the operator kernels bring fields closer to each other", "statement": "For two fields that agree outside the box, replacing each by itself minus t times the result of the flux and apply kernels, with t not negative and t times the largest row sum L at most 2, multiplies the sum of the squares of their difference by at most 1 - t (2 - t L) times the lower bound of C108; it never grows.", "quantifier": "all boxes, ghost widths, schedules, coefficients, pairs of fields and step lengths under the bound, over any ordered field", "why_tests_cant": "a contraction factor for all pairs of fields", "anchors": ["src/cuda/cdf_*_cuda.cpp", "src/cuda/cd_apply_*_cuda.cpp: v1_apply, v2_apply, poisson_v2_apply"]}
{"id": "C110", "title": "Explicit steps with the operator kernels preserve order and bounds", "statement": "If t is not negative and t times the diagonal entry alpha * a + beta * (sum of the coefficients of the faces of the cell over h^2) is at most 1 in every cell, then U <= V in the box and next to it implies U - t R <= V - t S in the box for the results R and S of the kernels, and bounds cl <= U <= cu (with cl <= 0 <= cu, or any for the Poisson operator) hold for U - t R.", "quantifier": "all boxes, ghost widths, schedules, coefficients, fields, bounds and step lengths under the condition, over any ordered field", "why_tests_cant": "no sample of fields can exclude that a step overshoots", "anchors": ["src/cuda/cdf_*_cuda.cpp", "src/cuda/cd_apply_*_cuda.cpp: v1_apply, v2_apply, poisson_v2_apply"]}
{"id": "C111", "title": "With Neumann conditions on all sides the operator kernels conserve the total", "statement": "If the calls of set_bc (set_poisson_bc) prescribe Neumann conditions and cover all faces of the box, the results of the boundary condition, flux and apply kernels run one after the other add up to alpha times the sum of A U over the box (v1), to alpha times the sum of U (v2), and to zero (Poisson): nothing leaves through the sides and the fluxes between cells cancel.", "quantifier": "all boxes, ghost widths, schedules, face coefficients, fields, and lists of calls that cover the boundary, over any field of characteristic zero", "why_tests_cant": "a sum over a box of any size, for any way of cutting the boundary into segments", "anchors": ["src/cuda/cdf_*_cuda.cpp", "src/cuda/cd_apply_*_cuda.cpp: v1_apply, v2_apply, poisson_v2_apply", "src/cuda/cd_correct_bc_*_cuda.cpp: set_bc, set_poisson_bc"]}
{"id": "C112", "title": "The span tests pass, whatever they pick", "statement": "Each test case of md_device_span (init and stride in one and two dimensions, stride in three) sets up its vectors, runs the kernel on the device, computes the expected values in loops over the host copies with explicit linear indices, and finds the results equal.", "quantifier": "all boxes, ghost widths, spacings and other numbers meeting the conditions of the kernels, all random data, all valid schedules; each example has the numbers of the test case with everything it picks or generates as a variable; exact arithmetic over any field with decidable equality", "why_tests_cant": "the tests run with the numbers one random seed picks; this is about all seeds, all sizes and all orders in which a device may work", "anchors": ["src/md_device_span.t.cpp", "src/md_device_vector.hpp", "src/cuda/md_device_span_test.cpp"]}
{"id": "C113", "title": "The window tests pass, whatever they pick", "statement": "Each of the six test cases of window_iterator runs its kernel and finds the result equal to what its loop over the windows on the host computes.", "quantifier": "all random data, all valid schedules, exact arithmetic over any field with decidable equality; the sizes are constants of the test", "why_tests_cant": "the tests run with the numbers one random seed picks; this is about all seeds, all sizes and all orders in which a device may work", "anchors": ["src/window_iterator.t.cpp", "src/md_device_vector.hpp", "src/cuda/window_iterator_test.cpp"]}
{"id": "C114", "title": "The transpose and forward difference tests pass for all sizes and data", "statement": "Each test case of transpose_iterator (2D and 3D) and forward_stencil_iterator (the two size checks, and the differences in 1D, 2D and 3D in every direction) runs to its end and every assertion holds: the differences the kernel leaves are the differences the host loops compute, in the same order, and transposing in the cyclic order the test asks for gives the original back.", "quantifier": "all sizes whose product is at most INT_MAX and that the test can build (at least one, at least two where a difference is taken), all data, all valid schedules; exact arithmetic", "why_tests_cant": "the tests run with the numbers one random seed picks; this is about all seeds, all sizes and all orders in which a device may work", "anchors": ["src/transpose_iterator.t.cpp", "src/forward_stencil_iterator.t.cpp", "src/cuda/transpose_iterator_test.cpp", "src/cuda/forward_stencil_iterator_test.cpp"]}
{"id": "C115", "title": "The submatrix tests pass for all boxes", "statement": "Each test case of submatrix_iterator runs to its end and every assertion holds: the five and the seven elements the first two check hold the numbers written last to them, and tabulating a box leaves, inside the box, minus the number of the element in row major order, and outside the box what was there.", "quantifier": "all sizes whose product is at most INT_MAX and all boxes inside them large enough for the elements the test looks at to be distinct (2D tabulate: the numbers of the test), all valid schedules; exact arithmetic over any field with decidable equality", "why_tests_cant": "the tests run with the numbers one random seed picks; this is about all seeds, all sizes and all orders in which a device may work", "anchors": ["src/submatrix_iterator.t.cpp", "src/cuda/submatrix_iterator_test.cpp", "src/cuda/submatrix_iterator.hpp"]}
{"id": "C116", "title": "The tests of the refinement view and the offset iterator pass", "statement": "The test case of coarse_to_fine_iterator and the three test cases of offset_iterator run to their end and every assertion holds: the fine array holds the coarse elements each repeated by the ratio and shifted as the bounds say, and the elements at the listed coordinates hold the numbers written through the iterator.", "quantifier": "all valid schedules; exact arithmetic over any field with decidable equality; the sizes, bounds and tables are constants of the tests", "why_tests_cant": "the tests run with the numbers one random seed picks; this is about all seeds, all sizes and all orders in which a device may work", "anchors": ["src/coarse_to_fine_iterator.t.cpp", "src/offset_iterator.t.cpp", "src/cuda/coarse_to_fine_iterator_test.cpp", "src/cuda/offset_iterator_test.cpp", "src/md_device_vector.hpp"]}
{"id": "C117", "title": "The tests of the dot product with displacements pass, whatever they pick", "statement": "Each of the three test cases of dot_offset sets up coefficients, vectors and a table of displacements, runs the kernel, adds up the products in loops over cells and displacements on the host, and finds the results equal, in the ghost cells as well.", "quantifier": "all boxes and ghost widths for which the arrays fit into an int, with at least one layer of ghost cells around the vector that is read, all random data, all valid schedules; exact arithmetic over any commutative ring with decidable equality; the tables of displacements are those of the tests; each example has the numbers of the test case with the ghost widths and data as variables", "why_tests_cant": "the tests run with the numbers one random seed picks; this is about all seeds, all sizes and all orders in which a device may work", "anchors": ["src/dot_offset.t.cpp", "src/cuda/dot_offset_test.cpp", "src/md_device_vector.hpp"]}
{"id": "C118", "title": "The forward difference tests pass only for functions that leave the differences", "statement": "Put any function in place of the call of transform in the difference tests of forward_stencil_iterator: if it comes to an end, leaves the data as they are and keeps the results allocated, the test case comes to an end as well, and every assertion holds exactly if the function leaves, at each position of the array of results, the element after minus the element at that position in the direction of the call. A wrong element anywhere makes the test fail, on any data.", "quantifier": "all sizes of at least two in each direction whose product is at most INT_MAX, all data, all functions of the memory that meet the three conditions, in 1D, 2D and 3D (the 3D test calls the function three times)", "why_tests_cant": "the tests run with the numbers one random seed picks; this is about all seeds, all sizes and all orders in which a device may work", "anchors": ["src/forward_stencil_iterator.t.cpp"]}
{"id": "C119", "title": "The limit on explicit steps is sharp", "statement": "Let U and V agree in the box and in the layer next to it except at one cell of the box, where U < V, and let t times the diagonal of the operator at that cell (alpha A plus beta times the sum over the directions of the two face coefficients over the squared width) be more than one. Then after the flux and apply kernels have run on both, V - t R(V) is below U - t R(U) at that cell: the step turns the order round, so the limit t * diagonal <= 1 in the property about explicit steps (order and bounds) cannot be weakened.", "quantifier": "all boxes, ghost widths, valid schedules, coefficients of any sign, fields and cells, over any linearly ordered field, in 1D, 2D and 3D, for the v1, v2 and Poisson operators", "why_tests_cant": "an inequality at any cell of a box of any size, for all coefficients", "anchors": ["src/cuda/cdf_*_cuda.cpp", "src/cuda/cd_apply_*_cuda.cpp: v1_apply, v2_apply, poisson_v2_apply"]}
{"id": "C120", "title": "The dot product tests pass only for functions that leave the sums", "statement": "Put any function in place of the kernel in the three test cases of dot_offset: if it comes to an end on the memory the test hands it, leaves the coefficients and the vector it reads as they are and keeps what is allocated, the test case comes to an end as well, and it passes exactly if the function leaves, in each cell of the box, the sum over the displacements of the test of the vector at the displaced cell times the coefficient, and zero in each ghost cell.", "quantifier": "all boxes and ghost widths for which the arrays fit into an int, with at least one layer of ghost cells around the vector that is read, all data, all functions of the memory that meet the conditions, in 1D, 2D and 3D; exact arithmetic over any commutative ring with decidable equality", "why_tests_cant": "the tests run with the numbers one random seed picks; this is about all seeds, all sizes and all orders in which a device may work", "anchors": ["src/dot_offset.t.cpp", "src/md_device_vector.hpp"]}
{"id": "C121", "title": "The tests of the offset iterator and of the coarse to fine iterator pass only for functions that write what they should and nothing else", "statement": "Put any function in place of the kernel in the three test cases of offset_iterator: if it comes to an end and keeps what is allocated, the test passes exactly if the function leaves -1, -2 and -3 at the three listed coordinates and leaves every other element as it was. Likewise for the test case of coarse_to_fine_iterator: it passes exactly if the function leaves in every fine element the number of the coarse element around it and leaves the coarse elements as they were.", "quantifier": "all functions of the memory that come to an end and keep the vector allocated, in 1D, 2D and 3D; the sizes and coordinates are constants of the tests; exact arithmetic over any field with decidable equality", "why_tests_cant": "the tests run with the numbers one random seed picks; this is about all seeds, all sizes and all orders in which a device may work", "anchors": ["src/offset_iterator.t.cpp", "src/coarse_to_fine_iterator.t.cpp:27-60"]}
{"id": "C122", "title": "Explicit steps longer than two over the diagonal move fields apart", "statement": "Let U and V agree in the box and in the layer next to it except at one cell of the box, and let t times the diagonal of the operator at that cell be more than two. Then the sum over the box of the squares of the difference of U - t R(U) and V - t R(V), with the results of the flux and apply kernels, is larger than that of U and V: the contraction that holds for t L <= 2 (L a bound on the row sums) fails for every step beyond two over a diagonal entry.", "quantifier": "all boxes, ghost widths, valid schedules, coefficients of any sign, fields and cells, over any linearly ordered field, in 1D, 2D and 3D, for the v1, v2 and Poisson operators", "why_tests_cant": "a strict inequality between sums over a box of any size, for all coefficients", "anchors": ["src/cuda/cdf_*_cuda.cpp", "src/cuda/cd_apply_*_cuda.cpp: v1_apply, v2_apply, poisson_v2_apply"]}
{"id": "C123", "title": "The transpose tests pass only for functions that transpose", "statement": "The 2D transpose test, with an arbitrary function in place of the one under test, passes only if the function leaves the transposed values in each of its three calls. The 3D test, for any sizes and data, passes only if the function copies for the identity permutation and leaves the transposed values for the other two.", "quantifier": "all functions in place of the kernel, all sizes and data", "why_tests_cant": "the tests run with the numbers one random seed picks; this is about all seeds, all sizes and all orders in which a device may work", "anchors": ["src/transpose_iterator.t.cpp:26-47", "src/transpose_iterator.t.cpp:49-70"]}
{"id": "C124", "title": "The submatrix tests pass only for functions that write the submatrix and nothing else", "statement": "The submatrix tests, with an arbitrary function in place of the one under test, pass only if every element of the submatrix that the kernel writes is right and no other element of the matrix is changed: in the two tests of the element access and in the two tests of the tabulation.", "quantifier": "all functions in place of the kernel, all matrix and submatrix sizes the tests' own accesses allow", "why_tests_cant": "the tests run with the numbers one random seed picks; this is about all seeds, all sizes and all orders in which a device may work", "anchors": ["src/submatrix_iterator.t.cpp:21-39", "src/submatrix_iterator.t.cpp:41-67", "src/submatrix_iterator.t.cpp:69-90", "src/submatrix_iterator.t.cpp:92-119"]}
{"id": "C125", "title": "The window tests pass only for functions that compute from the values they were given", "statement": "The window iterator tests, with an arbitrary function in place of the one under test, pass only if the function leaves in every window the values the test expects of the data the vectors held before the call, and changes nothing else.", "quantifier": "all functions in place of the kernel, all data", "why_tests_cant": "the tests run with the numbers one random seed picks; this is about all seeds, all sizes and all orders in which a device may work", "anchors": ["src/window_iterator.t.cpp:31-44", "src/window_iterator.t.cpp:46-56", "src/window_iterator.t.cpp:58-81", "src/window_iterator.t.cpp:83-110", "src/window_iterator.t.cpp:112-140", "src/window_iterator.t.cpp:142-171"]}
{"id": "C126", "title": "The span tests pass only for functions that leave the expected values", "statement": "Put any function in place of the kernel in the five test cases of md_device_span: if it comes to an end on the memory the test hands it, leaves the vector it reads as it is and keeps what is allocated, the test case comes to an end as well, and it passes exactly if the function leaves the expected value (beta times the element of u, or the quotient or sum of differences) in each cell on the steps or in the box, and zero in each other cell, ghost cells included. The condition on the vector it reads is needed: the stride test passes for a function that wipes u and computes nothing.", "quantifier": "all boxes, steps, ghost widths and factors for which the arrays and loop ends fit into an int, all data, all functions of the memory that meet the conditions; exact arithmetic over any field with decidable equality", "why_tests_cant": "the tests run with the numbers one random seed picks; this is about all seeds, all sizes and all orders in which a device may work", "anchors": ["src/md_device_span.t.cpp:35-72", "src/md_device_span.t.cpp:74-109", "src/md_device_span.t.cpp:111-148", "src/md_device_span.t.cpp:150-193", "src/md_device_span.t.cpp:195-253"]}
{"id": "C127", "title": "In double precision the flux and residual kernels stay within 5 rounding errors of the Fortran routines they replace", "statement": "The flux kernels multiply and divide in another order than the Fortran routines, and the residual kernels of the diffusion operators sum in another order, so in 53 bit arithmetic the two do not agree bit for bit (C49). On the same data the two fluxes of a face are never more than 5 rounding errors of the flux apart, and the two residuals of a cell never more than 5 rounding errors of the sum of the sizes of the right hand side, the divergence term and the cell term, in every dimension.", "quantifier": "dimensions 1 to 3, both diffusion operators, all boxes, ghost widths, fields, coefficients, scalars, mesh widths other than 0, memory contents, schedules; 53 bit round to nearest even with unbounded exponent", "why_tests_cant": "a worst case over all doubles; the tests compare the two on random data with a tolerance chosen by hand, which shows neither that the tolerance is large enough for all data nor how small it could be", "anchors": ["src/cuda/cdf_1d_cuda.cpp, cdf_2d_cuda.cpp, cdf_3d_cuda.cpp", "src/cuda/cd_apply_1d_cuda.cpp, cd_apply_2d_cuda.cpp, cd_apply_3d_cuda.cpp: diffusion_v1_res, diffusion_v2_res", "m4/celldiffusionflux1d.m4, celldiffusionflux2d.m4, celldiffusionflux3d.m4", "m4/celldiffusionapply1d.m4, celldiffusionapply2d.m4, celldiffusionapply3d.m4"]}
{"id": "C128", "title": "The relative comparison of the tests accepts the fluxes for all data; no relative tolerance accepts the residuals for all data", "statement": "The tests compare the vectors of the kernel and of the Fortran routine element by element, relative to the size of an element and without an absolute margin. For the diffusion fluxes a relative tolerance of 6 rounding errors suffices for all data, whichever of the two is the reference, however much the values of neighbouring cells cancel. For the residuals of the two diffusion operators no relative tolerance below 1 suffices: data in [0, 1), as the tests draw them, exist for which the kernel leaves 0 where the routine does not, under all schedules, although each is within a few rounding errors of the exact residual (C82, C127).", "quantifier": "fluxes: dimensions 1 to 3, all boxes, ghost widths, fields, coefficients, mesh widths other than 0, memory contents, schedules, tolerances of at least 6 rounding errors; residuals: for each dimension and operator one memory, all schedules, all tolerances below 1", "why_tests_cant": "whether a tolerance suffices is a statement about all doubles; a test that passes on the data it drew says nothing about the data it did not draw", "anchors": ["src/cd_flux_1d.t.cpp:38", "src/cd_flux_2d.t.cpp:37", "src/cd_flux_3d.t.cpp:37", "src/cd_apply_1d.t.cpp:34-157", "src/cd_apply_2d.t.cpp:34-177", "src/cd_apply_3d.t.cpp:34-194", "src/cuda/cdf_1d_cuda.cpp, cdf_2d_cuda.cpp, cdf_3d_cuda.cpp", "src/cuda/cd_apply_1d_cuda.cpp, cd_apply_2d_cuda.cpp, cd_apply_3d_cuda.cpp: diffusion_v1_res, diffusion_v2_res"]}
