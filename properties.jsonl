{"id": "C01", "title": "Parameter database behaves like a map with last write wins", "statement": "After any sequence of AddPar, AddOrModifyPar, Sets, Appends and Set_pdb_iStart_AtPar calls that does not abort, Gets(name) returns the (translated) value of the most recent assignment to that name, AddPar of an existing name leaves its value alone, assignments to one name never change the value of another, no two entries share a name, and the search start hint never changes any answer.", "quantifier": "every finite history of parameter calls, every set of names and values, every position of the search hint", "why_tests_cant": "The history space is unbounded and the outcome depends on an internal search hint and on insertion order; tests only sample a few histories.", "anchors": ["src/main/main/parameters.c: makeparameter, setparameter, findparameterindex, AddPar, AddOrModifyPar, Sets, Gets, GetsLax, Set_pdb_iStart_AtPar"]}
{"id": "C02", "title": "Cached numerical and boolean parameter values are always those of the current string", "statement": "In every reachable database the value returned by GetCachedNumValByParIndex / GetCachedBoolValByParIndex for a parameter equals the number / boolean obtained by converting the string that Gets returns for it.", "quantifier": "every finite history of parameter calls, every parameter", "why_tests_cant": "A stale cache shows up only after particular call sequences; no finite sample covers all.", "anchors": ["src/main/main/parameters.c: set_numericalvalue_byIndex, set_booleanvalue_byIndex, GetCachedNumValByParIndex, GetCachedBoolValByParIndex"]}
{"id": "C03", "title": "Parameter files are read back exactly, whatever their layout", "statement": "For every parameter file consisting of 'name = value value ...' entries, laid out with arbitrary white space, line breaks, quotes and # comments between tokens and with or without blanks around '=', parsing produces exactly the listed (name, values joined by one blank) pairs in file order.", "quantifier": "all lists of well-formed entries and all layouts of them", "why_tests_cant": "The set of layouts and file lengths is infinite and the parser works by in-place buffer surgery with look-ahead of two characters.", "anchors": ["src/main/main/parameters.c: parse_parameter_file"]}
{"id": "C04", "title": "Getv is list membership", "statement": "Getv(name, value) returns 1 exactly if value is one of the blank separated entries of the parameter.", "quantifier": "all parameter strings and all query words", "why_tests_cant": "Depends on the relative position of every substring occurrence; a counterexample needs a particular overlap between entries.", "anchors": ["src/main/main/parameters.c: GetvFlag, Getv, GetvLax"]}
{"id": "C05", "title": "NextEntry enumerates the entries of a list", "statement": "Calling NextEntry repeatedly on the same list returns each blank separated entry once, in order, then NULL, and then starts over.", "quantifier": "all lists of entries, any number of rounds", "why_tests_cant": "NextEntry keeps hidden static state between calls; correctness is about unbounded call histories.", "anchors": ["src/main/main/parameters.c: NextEntry"]}
{"id": "C06", "title": "Appends adds an entry once", "statement": "Appends(name, value) leaves the parameter unchanged if value is already an entry, otherwise appends it after one blank; repeated Appends of the same word does not change the parameter again, and all older entries stay.", "quantifier": "all parameter strings and words", "why_tests_cant": "Needs all combinations of existing entries and new words.", "anchors": ["src/main/main/parameters.c: Appends, GetvFlag"]}
{"id": "C07", "title": "Runs over iterated parameters visit each value once and then stop", "statement": "With iterate_parameters on, successive calls of iterate_parameters assign the first, second, ... value listed for each iterated parameter, one call per value, and stop after the last one; without it exactly one run is made.", "quantifier": "all lists of iterated parameters and values, any number of calls", "why_tests_cant": "The stop decision depends on the lengths of all lists and on static state across calls.", "anchors": ["src/main/main/parameters.c: iterate_parameters"]}
{"id": "C08", "title": "Every line of an argument file is run by exactly one MPI rank", "statement": "When sgrid is started with an argument file on any number of ranks, each argument line is executed by exactly one rank, and each rank executes its lines in file order.", "quantifier": "all numbers of ranks, all numbers of lines", "why_tests_cant": "Quantifies over every rank count and every file length.", "anchors": ["src/main/main/main.c: main, get_next_argument_line"]}
{"id": "C09", "title": "Functions in a bin run in registration order", "statement": "RunFun(bin) runs exactly the functions registered for that bin with AddFun before the first restart, each as often as it was registered, in order of registration; functions registered during restarts are not added; after remove_all_Funs every bin is empty.", "quantifier": "all histories of AddFun, restart and remove_all_Funs calls, all bins", "why_tests_cant": "Linked list with a sentinel tail; correctness is over unbounded registration histories.", "anchors": ["src/main/main/skeleton.c: AddFun, RunFun, remove_all_Funs"]}
{"id": "C10", "title": "Tensor component parities are (-1) to the number of indices along the direction", "statement": "For every index string accepted when a tensor variable is added, the reflection parity stored for each component and each direction is the product over the component's indices of -1 for an index in this direction and +1 otherwise.", "quantifier": "all supported tensor index strings, all components, all three directions", "why_tests_cant": "Every index type and every component must be right; the table is hand written per type.", "anchors": ["src/main/main/tensors.c: tensorindexlist"]}
{"id": "C11", "title": "Tensor component lists contain each independent component exactly once", "statement": "For every supported index string the list of components contains no component twice, contains for every index assignment exactly one representative under the declared symmetries, and the component names are distinct.", "quantifier": "all supported tensor index strings and all index assignments", "why_tests_cant": "A missed or duplicated component only matters for particular tensors; completeness is over all assignments.", "anchors": ["src/main/main/tensors.c: tensorindexlist", "src/main/main/variables.c: AddVar"]}
{"id": "C12", "title": "Variable database: names and indices are in bijection", "statement": "After any sequence of AddVar, AddConstantVar, AddDuplicate calls that does not abort, Ind(VarName(i)) = i for every variable, distinct variables have distinct names, indices already handed out never change, IndComponent0(i) is the index of the first component of the tensor i belongs to and VarNComponents is the same for all its components.", "quantifier": "every history of variable creation, every search hint", "why_tests_cant": "Ranges over all histories and all tensor types.", "anchors": ["src/main/main/variables.c: AddVar, IndLax, Ind, VarName, VarNComponents, IndComponent0"]}
{"id": "C13", "title": "Variable list editing behaves like list editing", "statement": "vlpush appends all components of a variable in order, vlpushvl appends a list, vldrop removes exactly the first occurrence of each component of the variable, vldropn removes the last n, vlduplicate yields an equal but independent list.", "quantifier": "all variable lists and variables", "why_tests_cant": "Ranges over all lists including duplicates and self-append.", "anchors": ["src/main/main/variables.c: vlpush, vlpushone, vlpushvl, vldrop, vldropone, vldropn, vlduplicate"]}
{"id": "C14", "title": "Linear combinations of variable lists", "statement": "vladd(r,ca,a,cb,b) sets every component of r at every point of every active box to ca*a+cb*b using the values before the call, also if r is a or b, and sets the time of r to the same combination of times; vladdto, vlcopy, vlswap, vlaverage, vlsubtract and vlsetconstant set what their names say; nothing else changes and inactive boxes are untouched.", "quantifier": "all grids, all variable lists, all coefficients, every aliasing pattern between list arguments", "why_tests_cant": "Aliasing patterns and inactive boxes are combinatorial; the special zero-coefficient paths each change which memory is read.", "anchors": ["src/main/main/variables.c: vladd, vladdto, vlcopy, vlswap, vlaverage, vlsubtract, vlsetconstant, varadd, varcopy"]}
{"id": "C15", "title": "Zero coefficients never read memory", "statement": "vladd and vladdto with a zero coefficient give the correct result even if the corresponding variable list has no storage (or is NULL).", "quantifier": "all grids and variable lists, all coefficients", "why_tests_cant": "Reads of disabled storage crash only for particular combinations of coefficients and storage states.", "anchors": ["src/main/main/variables.c: vladd, vladdto"]}
{"id": "C16", "title": "Variable storage is reference consistent", "statement": "After any sequence of enablevar / disablevar / enablevarlist calls a variable has storage exactly if it was enabled more recently than disabled, the count of enabled variables equals the number of variables with storage, newly enabled storage is zero, and enabling twice keeps the data.", "quantifier": "every history of enable and disable calls on every grid", "why_tests_cant": "Leaks and double frees need particular histories.", "anchors": ["src/main/MemoryMan/storage.c: enablevarcomp_inbox, disablevarcomp_inbox, enablevar, disablevar"]}
{"id": "C17", "title": "Point lists hold exactly what was added", "statement": "AddToPointList appends the point to the list of its box and records the box in the box list once; DropFromPointList removes it; DuplicatePointList yields the same points; a loop over the point list visits exactly these points.", "quantifier": "every history of additions and removals", "why_tests_cant": "Includes growth of the box list past its initial allocation and empty lists, which small tests do not reach.", "anchors": ["src/main/MemoryMan/points.c: AddToPointList, DropFromPointList, DuplicatePointList_for_grid, addto_blist"]}
{"id": "C18", "title": "Boundary face bookkeeping", "statement": "After any sequence of adding and removing boundary faces each face's stored number is its position in the box, and removal removes exactly the requested face and keeps the order of the rest.", "quantifier": "every history of face additions and removals", "why_tests_cant": "Index maintenance bugs appear only after particular removal orders.", "anchors": ["src/main/MemoryMan/storage.c: add_empty_bface, remove_bface, remove_bfaces_with_NULL_fpts"]}
{"id": "C19", "title": "Numbering of active boxes", "statement": "IndexOf_ith_ActiveBox(i) is the number of the i-th box that is not switched off, for every i below the number of active boxes, and the loops over active boxes visit exactly these in increasing order.", "quantifier": "all grids and all activity patterns", "why_tests_cant": "Exponentially many activity patterns.", "anchors": ["src/main/MemoryMan/grid.c: IndexOf_ith_ActiveBox, set_ninactive, activate/deactivate functions"]}
{"id": "C20", "title": "Integer list container refines lists and sets", "statement": "push, pushlist, unionpush, unionpushlist, dropindex, drop, droplist, droplastn, duplicate, in and index of the list container act as append, append-if-absent, delete, membership and position on an abstract list; unions never create duplicates.", "quantifier": "all lists, all elements and every sequence of operations on different list objects", "why_tests_cant": "Unbounded lists and operation sequences.", "anchors": ["src/main/MemoryMan/list_templates.c"]}
{"id": "C21", "title": "Point index arithmetic is a bijection", "statement": "Index(i,j,k) maps the grid points of an n1*n2*n3 box one to one onto 0..n1*n2*n3-1 and kOfInd, jOfInd, iOfInd invert it; the plane loops visit every point of their plane exactly once.", "quantifier": "all box sizes and all indices", "why_tests_cant": "Unbounded sizes.", "anchors": ["src/main/main/sgrid_main.h: Index, iOfInd, jOfInd, kOfInd", "src/main/MemoryMan/sgrid_MemoryMan_loops.h: forplane1, forplane2, forplane3, forplaneN"]}
{"id": "C22", "title": "finit recognises exactly the finite doubles", "statement": "finit(x) is 0 exactly for the bit patterns of infinities and NaNs and 1 for all others.", "quantifier": "all 2^64 bit patterns", "why_tests_cant": "2^64 inputs.", "anchors": ["src/main/main/utilities.c: finit"]}
{"id": "C23", "title": "Checkpoint byte order is portable", "statement": "Doubles written by the little-endian (big-endian) writer and read by the corresponding reader give back the same bits on machines of the same or of opposite byte order; the byte stream is the same on both kinds of machines.", "quantifier": "all arrays of values of any item size, both byte orders on either side", "why_tests_cant": "Needs machines of both byte orders and all data.", "anchors": ["src/main/main/endianIO.c: SGRID_fwrite_little, SGRID_fread_little, SGRID_fwrite_big, SGRID_fread_big, SGRID_fwrite_swapbytes, SGRID_fread_swapbytes"]}
{"id": "C24", "title": "An interrupted checkpoint never destroys the previous one", "statement": "At whatever point a run dies while writing a checkpoint, either the file under the checkpoint's final name is the complete previous checkpoint or the complete new one.", "quantifier": "all crash points, all checkpoint contents and any number of earlier checkpoints", "why_tests_cant": "Crash points between and inside system calls cannot be enumerated by tests.", "anchors": ["src/utility/checkpoint/checkpoint_write.c: checkpoint_write", "src/utility/checkpoint/checkpoint.c: checkpoint"]}
{"id": "C25", "title": "Parameters survive a checkpoint", "statement": "All parameters written to a checkpoint are restored to the same strings when it is read, except those on the list of parameters not to be read.", "quantifier": "all parameter databases with printable values", "why_tests_cant": "Arbitrary values, including empty ones and ones with blanks.", "anchors": ["src/utility/checkpoint/parameterio.c: write_current_pars, update_pars", "src/utility/checkpoint/checkpoint_write.c: checkpoint_write_local", "src/utility/checkpoint/checkpoint_read.c: checkpoint_read_ParsAndIterations_local", "src/utility/checkpoint/wolfio.c: extrstr_before_after_EQ, fscanline"]}
{"id": "C26", "title": "Evolution loop: number of steps and time", "statement": "The main loop performs steps until the iteration limit (or the limit implied by the final time) is reached, after k steps iteration is k and time is k*dt, and per step the bins run in the fixed order.", "quantifier": "all limits, time steps and restart iterations", "why_tests_cant": "Unbounded numbers of iterations.", "anchors": ["src/main/main/main.c: evolve_grid"]}
{"id": "C27", "title": "Generic Runge-Kutta step is the Butcher scheme", "statement": "For every explicit Butcher table the generic integrator computes u_new = u_old + dt * sum_i b_i k_i with k_i = f(u_old + dt * sum_{j<i} a_ij k_j), for any right hand side, and the storage of all stages is sufficient.", "quantifier": "all explicit tables, all right hand sides, all states, all time steps", "why_tests_cant": "Quantifies over functions.", "anchors": ["src/utility/evolve/rk.c: evolve_rk_generic, evolve_rk"]}
{"id": "C28", "title": "Runge-Kutta tables have their advertised order", "statement": "The tables offered under the names of order 1 to 5 satisfy all order conditions up to that order (row sums included).", "quantifier": "each table offered, each rooted tree up to the order; hence all smooth right hand sides", "why_tests_cant": "Convergence order is an asymptotic statement about all right hand sides.", "anchors": ["src/utility/evolve/rk.c: rk1, rk2, rk2a, rk3, rk3a, rk3b, rk4, rk4a, rk5"]}
{"id": "C29", "title": "Low-storage RK4 equals classical RK4", "statement": "The optimised fourth order integrator, which uses fewer temporary lists, gives for every right hand side exactly the classical fourth order Runge-Kutta result.", "quantifier": "all right hand sides, states and time steps", "why_tests_cant": "Quantifies over functions.", "anchors": ["src/utility/evolve/rk.c: evolve_rk_rk4"]}
{"id": "C30", "title": "Iterative Crank-Nicholson and Euler steps", "statement": "The ICN integrator computes u_old + dt f((u_old+u_2)/2) with u_2 = u_old + dt f((u_old+u_1)/2), u_1 = u_old + dt f(u_old); the Euler integrator u_old + dt f(u_old).", "quantifier": "all right hand sides, states, time steps", "why_tests_cant": "Quantifies over functions.", "anchors": ["src/utility/evolve/icn.c: evolve_icn_3, evolve_euler"]}
{"id": "C31", "title": "Chebyshev transform on extrema points is invertible", "statement": "Coefficients computed from the values at the Chebyshev extrema reproduce these values when evaluated at the same points.", "quantifier": "all numbers of points and all values", "why_tests_cant": "Unbounded sizes and all real data.", "anchors": ["src/utility/Spectral/explicit_Cheb_trafos.c: cheb_coeffs_fromExtrema, cheb_eval_onExtrema"]}
{"id": "C32", "title": "Chebyshev transform on zeros is invertible", "statement": "Coefficients computed from the values at the Chebyshev zeros reproduce these values when evaluated at the same points.", "quantifier": "all numbers of points and all values", "why_tests_cant": "Unbounded sizes and all real data.", "anchors": ["src/utility/Spectral/explicit_Cheb_trafos.c: cheb_coeffs_fromZeros, cheb_eval_onZeros"]}
{"id": "C33", "title": "Fourier transform is invertible", "statement": "Fourier coefficients computed from point values reproduce them when evaluated at the points, for even and odd numbers of points.", "quantifier": "all numbers of points and all values", "why_tests_cant": "Unbounded sizes, parity dependent special cases.", "anchors": ["src/utility/Spectral/explicit_Four_trafos.c: four_coeffs, four_eval, four_coeffs_alt, four_eval_alt"]}
{"id": "C34", "title": "Chebyshev coefficient derivative is the derivative", "statement": "The coefficients produced by the derivative recurrence are those of the derivative with respect to X of the Chebyshev series on [a,b].", "quantifier": "all series lengths, all coefficients, all intervals a<>b, all X", "why_tests_cant": "Unbounded sizes and all real data.", "anchors": ["src/utility/Spectral/explicit_Cheb_trafos.c: cheb_deriv"]}
{"id": "C35", "title": "Chebyshev integrals are exact", "statement": "The coefficients produced by the integration recurrence are an antiderivative (for series without the top coefficient) and the definite integral formula gives the integral over [a,b] of the series.", "quantifier": "all series lengths, coefficients and intervals", "why_tests_cant": "Unbounded sizes and all real data.", "anchors": ["src/utility/Spectral/explicit_Cheb_trafos.c: cheb_int", "src/utility/Spectral/integrals.c: spec_Integral1"]}
{"id": "C36", "title": "Clenshaw evaluation equals the series", "statement": "The fast evaluation routine returns the value of the Chebyshev series with halved zeroth coefficient.", "quantifier": "all lengths, coefficients, intervals, arguments", "why_tests_cant": "Unbounded sizes and all real data.", "anchors": ["src/utility/Spectral/explicit_Cheb_trafos.c: cheb_eval, cheb_basisfunc"]}
{"id": "C37", "title": "Fourier coefficient derivative is the derivative", "statement": "The coefficients produced by the Fourier derivative routine are those of the derivative with respect to X of the trigonometric series of period b-a.", "quantifier": "all lengths, coefficients, intervals, X", "why_tests_cant": "Unbounded sizes, parity dependent special cases.", "anchors": ["src/utility/Spectral/explicit_Four_trafos.c: four_deriv"]}
{"id": "C38", "title": "Spectral interpolation reproduces grid values", "statement": "Interpolating a variable to the coordinates of a grid point returns the value at this grid point, for every basis and every box extent.", "quantifier": "all boxes, all values, all grid points", "why_tests_cant": "Depends on the box extent in every direction and unbounded sizes.", "anchors": ["src/utility/Spectral/interpolate.c: spec_interpolate, spec_Coeffs", "src/utility/Spectral/explicit_Four_trafos.c: four_basisfunc", "src/utility/Spectral/explicit_Cheb_trafos.c: cheb_basisfunc"]}
{"id": "C39", "title": "Spectral filters are projections", "statement": "Filtering removes exactly the requested number of highest coefficients, leaves the others, and filtering twice equals filtering once.", "quantifier": "all sizes, filter strengths and data", "why_tests_cant": "Unbounded sizes and all real data.", "anchors": ["src/utility/Spectral/filters.c: initfiltermatrix, spec_filter1", "src/utility/Spectral/explicit_Cheb_trafos.c: cheb_filter"]}
{"id": "C40", "title": "Finite difference stencils are exact on quadratics", "statement": "The second order first and second derivative stencils (periodic, one sided and centred on non-uniform grids) are exact for all polynomials of the degree their order promises, at interior and boundary points.", "quantifier": "all grid sizes, spacings, quadratic polynomials, all points", "why_tests_cant": "All sizes and data; boundary points use separate formulas.", "anchors": ["src/utility/Spectral/finite_differences.c: fd2_deriv_onesidedBC, fd2_2ndderiv_onesidedBC, fd2_deriv_periodic, fd2_2ndderiv_periodic", "src/utility/Spectral/diffmatrices.c: init_fdcentered_diffmatrix"]}
{"id": "C41", "title": "Directional operations act line by line", "statement": "Applying a matrix along direction 1, 2 or 3 of a 3d array changes every grid line of this direction by the matrix and mixes no two lines; lines can be read and written back without change.", "quantifier": "all array sizes, all three directions, all matrices and data", "why_tests_cant": "Unbounded sizes.", "anchors": ["src/utility/Spectral/derivs.c: get_memline, put_memline, spec_Deriv1", "src/utility/Spectral/matrices.c: matrix_times_vector"]}
{"id": "C42", "title": "Sparse matrix products equal dense products", "statement": "Products of a sparse matrix stored by lines with a vector, and of its transpose with a vector, equal the dense sums, whatever the order of insertion and with repeated positions added.", "quantifier": "all sparse matrices and vectors", "why_tests_cant": "Unbounded sizes and insertion histories.", "anchors": ["src/utility/LinAlg/SparseVector_utils.c: AddToSparseVector, GetSparseVectorComponent, SparseMatrixLines_times_vector, vector_times_SparseMatrixLines, SparseMatrixLinesTranspose_times_vector"]}
{"id": "C43", "title": "Parallel loops give the sequential result under every schedule", "statement": "The loops marked for parallel execution in the sparse matrix products give the same result for every interleaving of the threads.", "quantifier": "all interleavings, all matrices and vectors", "why_tests_cant": "Schedules cannot be controlled by tests.", "anchors": ["src/utility/LinAlg/SparseVector_utils.c: SparseMatrixLines_times_vector, vector_times_SparseMatrixLines, SparseMatrixLinesTranspose_times_vector"]}
{"id": "C44", "title": "Matrix read off from a linear operator represents it", "statement": "The sparse matrix obtained by applying a linear operator to unit vectors multiplies any vector exactly as the operator does (no entries dropped).", "quantifier": "all linear operators on all grids, all vectors", "why_tests_cant": "Quantifies over functions.", "anchors": ["src/utility/LinAlg/ReadMatrixFrom_Fx.c: SetMatrixLines_slowly"]}
{"id": "C45", "title": "Copying variable lists to arrays and back", "statement": "Copying a variable list into a flat array and back leaves the list unchanged; copying an array into a list and back gives the array; each array slot corresponds to exactly one (box, point, variable).", "quantifier": "all grids, lists and data; both orderings", "why_tests_cant": "Unbounded sizes and multi box offsets.", "anchors": ["src/utility/GridIterators/utility.c: copy_varlist_into_array, copy_array_into_varlist, copy_varlist_into_array_forSortedVars, copy_array_into_varlist_forSortedVars, copy_vl_into_array_outervlloop, copy_array_into_vl_outervlloop"]}
{"id": "C46", "title": "LU solver solves the linear system", "statement": "If lu_decomp returns 0 and no pivot vanished, lu_solve overwrites b with the exact solution of A x = b, and lu_det is the determinant of A; a nonzero return value names a zero row or column and leaves A unchanged.", "quantifier": "all matrix sizes, matrices and right hand sides (exact arithmetic)", "why_tests_cant": "Unbounded sizes; pivoting depends on the data.", "anchors": ["src/utility/numerics/lu.c: lu_decomp, lu_solve, lu_det"]}
{"id": "C47", "title": "Bracketed root finders return a point close to a root", "statement": "If rtbisect or rtbrent_brak returns an iteration number within the limit for a continuous function, the returned point is within the requested accuracy of a root and inside the original bracket; if the function does not change sign a negative code is returned.", "quantifier": "all continuous functions, brackets, tolerances, iteration limits", "why_tests_cant": "Quantifies over functions.", "anchors": ["src/utility/numerics/newton1d_brak.c: rtbisect", "src/utility/numerics/rtbrent_brak.c: rtbrent_brak", "src/utility/numerics/rt_brak.c: rt_brak"]}
{"id": "C48", "title": "Output happens once per output time", "statement": "With an output interval dt not smaller than the time step, every multiple of dt that is reached is output exactly once, and outputs are numbered consecutively; with an iteration interval output happens exactly at multiples of it.", "quantifier": "all time steps, output intervals and iterations", "why_tests_cant": "All ratios of the two steps, unbounded run lengths.", "anchors": ["src/utility/output/output.c: timeforoutput_di_dt"]}
{"id": "C49", "title": "Nearest grid point search", "statement": "find_ind_closest_to_X0 returns the index of a grid point closest to the given coordinate for every increasing coordinate line.", "quantifier": "all increasing coordinate lines and all X0", "why_tests_cant": "Unbounded sizes, all positions.", "anchors": ["src/utility/output/output.c: find_ind_closest_to_X0, find_ind_closest_to_Y0, find_ind_closest_to_Z0"]}
{"id": "C50", "title": "bicgstab reports failure to converge", "statement": "If bicgstab returns a non-negative number the residual norm it reports is at most the tolerance.", "quantifier": "all linear operators, preconditioners, right hand sides, iteration limits", "why_tests_cant": "Quantifies over operators.", "anchors": ["src/utility/GridIterators/bicgstab.c: bicgstab"]}
{"id": "C51", "title": "Cubed sphere coordinates are inverted exactly", "statement": "lamAB_of_xyz_CubSph undoes xyz_of_lamAB_CubSph for all points of the box (away from the degenerate centre) for all four patch types and all six domains.", "quantifier": "all patch types, domains, surface functions, coordinates", "why_tests_cant": "Continuum of inputs.", "anchors": ["src/utility/Coordinates/coordtrans_CubedSphere.c: xyz_of_lamAB_CubSph, lamAB_of_xyz_CubSph"]}
{"id": "C52", "title": "Arg returns the polar angle", "statement": "For (x,y) not zero Arg returns the angle in (-pi,pi] and Arg_plus the angle in [0,2pi) with x = r cos, y = r sin.", "quantifier": "all points of the plane", "why_tests_cant": "Continuum of inputs, branch dependent.", "anchors": ["src/utility/Coordinates/ComplexFunctions.c: Arg, Arg_plus"]}
{"id": "C53", "title": "Double covered points are made consistent", "statement": "After reset_doubleCoveredPoints every pair of grid points describing the same physical point holds the same value, namely the average of the two old ones, all other points keep theirs, and applying it again changes nothing.", "quantifier": "all box sizes with even n2 and n3, all data", "why_tests_cant": "Unbounded sizes; in place update order matters.", "anchors": ["src/utility/Coordinates/doubleCovering.c: reset_doubleCoveredPoints_SphericalDF, copy_to_doubleCoveredPoints_SphericalDF"]}
{"id": "C54", "title": "BSSN algebraic constraints hold after enforcement", "statement": "After BSSN_AlgConstr with both options on, det g = 1 and the trace of A with respect to g vanishes at every point where det g was positive.", "quantifier": "all metrics with positive determinant, all A, all points", "why_tests_cant": "Continuum of inputs.", "anchors": ["src/physics/BSSN/BSSN_AlgConstr.c: BSSN_AlgConstr"]}
{"id": "C55", "title": "Power of two test", "statement": "is_power_of_two(N) returns 1 exactly for the powers of two.", "quantifier": "all integers N", "why_tests_cant": "All integers.", "anchors": ["src/utility/Spectral/spec_coeffs.c: is_power_of_two"]}
{"id": "C56", "title": "String utilities", "statement": "trim_whitespace removes exactly the leading and trailing white space; construct_argv splits at blanks; extrstr_before_after_EQ splits at the first '='.", "quantifier": "all strings", "why_tests_cant": "All strings.", "anchors": ["src/main/main/utilities.c: trim_whitespace, construct_argv", "src/utility/checkpoint/wolfio.c: extrstr_before_after_EQ"]}
{"id": "C57", "title": "Minimum and maximum searches", "statement": "min/max_in_1d_array return an extreme entry and its first position; the 2d and 3d variants return the extreme of the combined arrays.", "quantifier": "all nonempty arrays", "why_tests_cant": "Unbounded sizes.", "anchors": ["src/main/main/utilities.c: min_in_1d_array, max_in_1d_array, min2_in_1d_array, min3_in_1d_array"]}
{"id": "C58", "title": "Output variable lists are read entry by entry", "statement": "Every variable named in an output parameter is output exactly once per output time.", "quantifier": "all blank separated lists", "why_tests_cant": "Depends on the white space layout of the list.", "anchors": ["src/utility/output/output.c: write_grid"]}
{"id": "C59", "title": "Storing into a parameter its own value", "statement": "Assigning to a parameter a string obtained from the database is safe and has the expected effect.", "quantifier": "all databases and names", "why_tests_cant": "Use after free is not visible in most runs.", "anchors": ["src/main/main/parameters.c: setparameter, Gets, Sets"]}
{"id": "C60", "title": "Checkpoint times", "statement": "A checkpoint is written at exactly the iterations implied by checkpoint_di or checkpoint_dt, for every choice of these parameters.", "quantifier": "all values of both parameters, all iterations", "why_tests_cant": "All ratios; includes intervals smaller than the time step.", "anchors": ["src/utility/checkpoint/checkpoint.c: checkpoint"]}
{"id": "C61", "title": "Constant flag of variables", "statement": "AddConstantVar marks all components of the variable it is called for as constant and no other variable.", "quantifier": "every history of variable creation and restarts", "why_tests_cant": "The flag only matters for later output and the failure needs a particular order of calls in a restart.", "anchors": ["src/main/main/variables.c: AddConstantVar, VarNameSetConstantFlag", "src/main/main/main.c: main"]}
{"id": "C63", "title": "Passing the same list object twice", "statement": "pushlist(v,v) appends a copy of the list to itself and droplist(v,v) empties the list.", "quantifier": "all lists", "why_tests_cant": "Self-application is not a usual test case; whether it works depends on how loop bounds are evaluated.", "anchors": ["src/main/MemoryMan/list_templates.c"]}
{"id": "C62", "title": "vlswap does not depend on the thread schedule", "statement": "The parallel loop of vlswap exchanges the values of the two lists for every schedule of the threads.", "quantifier": "all interleavings of the loop iterations", "why_tests_cant": "A data race shows up only for rare schedules.", "anchors": ["src/main/main/variables.c: vlswap", "src/main/main/sgrid_main.h: SGRID_LEVEL3_Pragma"]}
{"id": "C64", "title": "Variables survive a checkpoint bit by bit", "statement": "If a set of variables is written to a checkpoint file on one machine and read on another one of possibly different byte order, every variable known to the reader and having storage there gets exactly the numbers written for it, box by box; variables that are unknown or without storage are skipped and nothing else changes. A box with another number of points makes the reader abort.", "quantifier": "all grids, all sets of variables, all numberings of variables in the reader, all double values, all four combinations of byte orders", "why_tests_cant": "Binary data follow text headers in the same file, so any byte pattern in the data could confuse the scanner; the space of data is infinite.", "anchors": ["src/utility/checkpoint/checkpoint_write.c: checkpoint_write_local", "src/utility/checkpoint/checkpoint_read.c: checkpoint_read_Vars_local", "src/utility/checkpoint/wolfio.c"]}
{"id": "C65", "title": "Restarting never loses the newest checkpoint", "statement": "Whatever series of runs is started in the same output directory and wherever each of them dies, the newest complete checkpoint is in outdir, or outdir has no checkpoint and it is in outdir_previous.", "quantifier": "all series of runs, all crash points between two file system operations, all contents of the directories", "why_tests_cant": "Needs crashes between any two system calls over several restarts; tests never do this.", "anchors": ["src/main/main/main.c: make_output_directory", "src/utility/checkpoint/checkpoint.c: checkpoint_copy_output, checkpoint_checkifrestart", "src/main/main/utilities.c: remove_dir, system3"]}
{"id": "C66", "title": "Right hand sides are evaluated at the times of their stages", "statement": "Whenever an integrator evaluates the right hand side, the time of the list passed is the time the scheme belongs to: t + c_i dt for stage i of a Runge-Kutta scheme, t for the first and t + dt/2 for the later evaluations of iterative Crank-Nicholson; after a step the list has the new time.", "quantifier": "all right hand sides depending on time, all states and time steps", "why_tests_cant": "Only right hand sides with explicit time dependence are affected, and only the convergence order suffers.", "anchors": ["src/utility/evolve/rk.c: evolve_rk, evolve_rk_generic, evolve_rk_rk4", "src/utility/evolve/icn.c: evolve_icn", "src/main/main/variables.c: vladd, vlaverage"]}
{"id": "C67", "title": "Integrators have the lists they use", "statement": "In every step of every run each list used by the chosen integrator exists, also after a restart from a checkpoint.", "quantifier": "all methods, all sequences of iteration numbers, all values of checkpoint_restart_it", "why_tests_cant": "Needs restarts with unusual settings of the restart iteration.", "anchors": ["src/utility/evolve/evolve.c: evolve", "src/utility/evolve/rk.c: evolve_rk", "src/utility/checkpoint/checkpoint.c: checkpoint"]}
{"id": "C68", "title": "Fourier integrals are exact", "statement": "The coefficients produced by the Fourier integration routine give, at the grid points, an antiderivative of the trigonometric series (without the highest frequency if the number of points is even), and the formula for the definite integral gives the integral over one period.", "quantifier": "all lengths, coefficients and intervals", "why_tests_cant": "Unbounded sizes, parity dependent special cases.", "anchors": ["src/utility/Spectral/explicit_Four_trafos.c: four_int", "src/utility/Spectral/integrals.c: spec_Integral1"]}
{"id": "C70", "title": "Matrices read off from line routines represent them", "statement": "The matrix that initMatrix, initdiffmatrix, initdiffmatrix2 or initIntegrationMatrix builds by applying the transform routines to unit vectors gives, multiplied with any line, the result of the routines applied to this line; matrix products agree with the composition.", "quantifier": "all sizes, all linear line routines, all data, any initial contents of the arrays", "why_tests_cant": "Needs all sizes and all data; the equality rests on the routines being linear.", "anchors": ["src/utility/Spectral/diffmatrices.c: initdiffmatrix, initdiffmatrix2", "src/utility/Spectral/spec_coeffs.c: initMatrix_ForCoeffs, initMatrix_ToEvaluate", "src/utility/Spectral/matrices.c"]}
{"id": "C71", "title": "Differentiation matrices are exact on the function space of the basis", "statement": "For Chebyshev extrema and zeros the first and second differentiation matrix applied to the values of a polynomial of degree below the number of points give the exact derivatives at the grid points; for Fourier the same holds for trigonometric series.", "quantifier": "all intervals, numbers of points and polynomials", "why_tests_cant": "Unbounded sizes and all real data.", "anchors": ["src/utility/Spectral/diffmatrices.c: initdiffmatrix", "src/main/MemoryMan/grid.c: make_box", "src/utility/Spectral/explicit_Cheb_trafos.c"]}
{"id": "C72", "title": "Order of second derivatives does not matter for matrices", "statement": "spec_allDerivs computes the same three first and six second derivatives for every accepted value of second_deriv_order when differentiation matrices are used, each of them is the composition of the line derivatives of its directions, and no other array changes.", "quantifier": "all box sizes, line operators, data and accepted orders", "why_tests_cant": "There are six orders and unbounded sizes; mixed derivatives agree only because line operators in different directions commute.", "anchors": ["src/utility/Spectral/derivs.c: spec_allDerivs, spec_allDerivs_diffmatrix"]}
{"id": "C73", "title": "Spectral integrals over surfaces and boxes are exact", "statement": "spec_3dIntegral returns the triple integral over the box and spec_2dIntegral the double integrals over the coordinate surfaces, for every function that in each coordinate is a polynomial of degree below the number of points or a trigonometric series.", "quantifier": "all boxes with Chebyshev and Fourier directions, all intervals, numbers of points and functions of the space", "why_tests_cant": "Unbounded sizes and all real data; exactness needs the transforms, the quadrature and the line loops to fit together.", "anchors": ["src/utility/Spectral/integrals.c: spec_Integral1, spec_2dIntegral, spec_3dIntegral"]}
{"id": "C74", "title": "Parallel loops over points and grid lines give the serial result", "statement": "The loops over points of the variable list arithmetic and the loops over grid lines of the spectral routines give, for every schedule of the threads, the same arrays as the serial loops.", "quantifier": "all box sizes, data, line operators and interleavings of the memory accesses", "why_tests_cant": "Schedules cannot be controlled by tests.", "anchors": ["src/main/main/variables.c: vlsetconstant, vlcopy, vlaverage, vlsubtract, vladd, vladdto", "src/utility/Spectral/derivs.c: spec_Deriv1, spec_allDerivs", "src/utility/Spectral/spec_coeffs.c: spec_analysis1, spec_synthesis1", "src/utility/Spectral/OpenMPsave_loops.h"]}
{"id": "C75", "title": "Name and value are read from a string", "statement": "get_par_from_str returns the part before the first delimiter as name and the part behind it as value, both without surrounding white space, and returns 0 if there is no delimiter.", "quantifier": "all strings and delimiters", "why_tests_cant": "All strings; the failing ones (empty, several delimiters) are unusual.", "anchors": ["src/main/main/utilities.c: get_par_from_str"]}
{"id": "C76", "title": "Finite numbers are recognised from their bits", "statement": "finit returns 0 exactly for the doubles that are infinite or not a number, judged by the exponent bits of IEEE 754.", "quantifier": "all 64 bit patterns", "why_tests_cant": "2^64 bit patterns.", "anchors": ["src/main/main/utilities.c: finit"]}
{"id": "C77", "title": "Complex functions and their derivatives are right", "statement": "Argtanh, Abstanh, Retanh, Imtanh, Argsech and Abssech return argument, absolute value, real and imaginary part of tanh(x+iy) and 1/cosh(x+iy); the functions for the first and second derivatives of Arg, Arg_plus, Argtanh and Abstanh return these derivatives; BaseAngle shifts an angle by whole periods into one period above p0.", "quantifier": "all points where the functions are defined and not on a cut", "why_tests_cant": "Continuum of inputs; long formulas with special cases on the axes.", "anchors": ["src/utility/Coordinates/ComplexFunctions.c"]}
{"id": "C78", "title": "First derivatives of the inverse coordinate transformations", "statement": "For each of the coordinates Polar, PolarCE, SphericalDF, compactSphericalDF, Spherical, Spherical2, Spherical3 and tan_stretch the functions installed in box->dX_dx are the first derivatives of the inverse of the transformation installed in box->x_of_X, at every point where the transformation is regular.", "quantifier": "for all coordinate systems in the list, all points off the singular set, and all differentiable paths through the point", "why_tests_cant": "The derivative functions are long formulas that are only compared with finite differences at grid points; a wrong formula in a rarely used coordinate system (as in PolarCE) goes unnoticed.", "anchors": ["src/utility/Coordinates/Coordinates.c:76-370", "src/utility/Coordinates/Coordinates.c:1172-1330", "src/utility/Coordinates/Coordinates.c:1760-2265"]}
{"id": "C79", "title": "Second derivatives of the inverse coordinate transformations", "statement": "For SphericalDF, compactSphericalDF, Spherical, Spherical2, Spherical3 and tan_stretch the functions installed in box->ddX_dxdx are the derivatives of the functions in box->dX_dx with respect to the Cartesian coordinates, and they are symmetric in the two derivative indices.", "quantifier": "for all coordinate systems in the list, all points off the singular set, and all differentiable paths through the point", "why_tests_cant": "There are 18 formulas per coordinate system, some a page long and generated by computer algebra; a comment in the source says that some may have bugs. Tests sample a few points.", "anchors": ["src/utility/Coordinates/Coordinates.c:142-370", "src/utility/Coordinates/Coordinates.c:1434-1757", "src/utility/Coordinates/Coordinates.c:1813-2280"]}
{"id": "C80", "title": "Derivatives of the cubed sphere coordinates", "statement": "The nine numbers computed by dlamAB_dxyz_CubSph are the derivatives of lam, A, B with respect to x, y, z for all four patch types, all six domains and all differentiable surfaces; drhoAB_dxyz_CubSph gives those of the stretched coordinates; r_dr_dlam_of_lamAB_CubSph gives the distance from the centre and its derivative; on a grid point CubedSphere_sigma reads the value of the surface variable on the right face.", "quantifier": "for all patch types, domains, surface functions and points off the centre, and all differentiable paths", "why_tests_cant": "Continuum of inputs; the formulas have separate copies per direction and a sign or index slip in one copy affects two of six patches only.", "anchors": ["src/utility/Coordinates/coordtrans_CubedSphere.c:239-465", "src/utility/Coordinates/coordtrans_CubedSphere.c:607-758", "src/utility/Coordinates/coordtrans_CubedSphere.c:926-1035"]}
{"id": "C81", "title": "Polar angles of the cubed sphere patches", "statement": "ThetaPhi_of_AB_CubSph returns the polar angle in [0,pi] and the azimuth in [0,2pi) of all points of the patch with the given A, B, and ThetaPhi_dThetaPhidAB_of_AB_CubSph returns the partial derivatives of these angles.", "quantifier": "for all domains and all A, B (derivatives: off the poles and, for the azimuth itself, off its jump)", "why_tests_cant": "Continuum of inputs, branch dependent; comments in the source are unsure about the derivatives near the poles.", "anchors": ["src/utility/Coordinates/coordtrans_CubedSphere.c:766-910"]}
{"id": "C82", "title": "Dot product and norms of variable lists", "statement": "GridDotProduct is the sum of the products over all entries of the lists, active boxes and points, it is the dot product of the arrays into which the lists are copied in any of the three orders, symmetric and linear; GridL2Norm is the root of the mean square, it vanishes only if all values do, and scales with the size of a factor; the box norms are the same for one box.", "quantifier": "all grids with active and inactive boxes, all lists and data", "why_tests_cant": "Unbounded numbers of boxes, points and variables.", "anchors": ["src/utility/GridIterators/utility.c: GridDotProduct, GridL2Norm, BoxL2Norm, varBoxL2Norm"]}
{"id": "C83", "title": "Subboxes are a partition of a box and can be copied", "statement": "The subboxes of a box are disjoint and cover it; copying a subbox into an array and back leaves the box unchanged, copying an array into a subbox and back gives the array, no other point and no other array entry is written.", "quantifier": "all box sizes, numbers of subboxes and data", "why_tests_cant": "Unbounded sizes; integer division rounds differently for each combination.", "anchors": ["src/utility/GridIterators/sgrid_GridIterators.h: IndexRangesInSubbox", "src/utility/GridIterators/utility.c: copy_varlistCompInSubbox_into_array, copy_array_into_varlistCompInSubbox"]}
{"id": "C84", "title": "Blocks of the matrix of a linear operator", "statement": "The columns that are computed for one variable in one box or subbox are the block of the matrix of the operator, for every distribution of the points over threads; the block multiplies as the operator does if the rest of the list is zero.", "quantifier": "all linear operators, grids, blocks and thread schedules", "why_tests_cant": "Quantifies over functions and schedules.", "anchors": ["src/utility/LinAlg/ReadMatrixFrom_Fx.c: SetMatrixColumns_ForOneVarInOneBox_slowly, SetMatrixColumns_ForOneVarInOneSubBox_slowly"]}
{"id": "C85", "title": "Newton's method with a bracket", "statement": "newton1d_brak and rtsafe_itsP return a point inside the bracket, and a negative code exactly if the function has the same sign at both ends. If the slope of the function is between m and M in the bracket, a return within the iteration limit means that a root is closer than (1+M/m) times the requested accuracy.", "quantifier": "all differentiable functions, brackets, guesses, tolerances, iteration limits", "why_tests_cant": "Quantifies over functions.", "anchors": ["src/utility/numerics/newton1d_brak.c: newton1d_brak", "src/utility/NumericUtils/rtsafe_itsP.c: rtsafe_itsP"]}
{"id": "C86", "title": "Minimisation in one dimension", "statement": "brent_with_pointer_to_pars and minbrent_brak return a point inside the bracket with the function value there; this value is not larger than the one at the starting point, and if the function has a single valley in the bracket and the iteration limit is not exhausted, the point is closer to the minimum than 2 (tol |x| + 1e-10).", "quantifier": "all functions, brackets, tolerances, iteration limits", "why_tests_cant": "Quantifies over functions; the use of a variable before it is set stays invisible when the memory holds a small number by chance.", "anchors": ["src/utility/NumericUtils/brent.c: brent_with_pointer_to_pars", "src/utility/numerics/minbrent_brak.c: minbrent_brak"]}
{"id": "C87", "title": "Bracketing a minimum", "statement": "The middle one of the three points returned by min_brak lies strictly between the other two, its function value is not larger than the one of the first point and the ones at the two starting points, and not larger than the one of the last point unless the iteration limit is exhausted.", "quantifier": "all functions, all starting points, all numbers of passes", "why_tests_cant": "Quantifies over functions.", "anchors": ["src/utility/numerics/minbrent_brak.c: min_brak"]}
{"id": "C88", "title": "Integrals in one dimension", "statement": "integrate_trapez_1Dgrid is exact for polynomials of degree 1, integrate_simpson_1Dgrid and integrate_simpson_old_1Dgrid are exact for polynomials of degree 3, for even and odd numbers of points; integral returns a trapezoidal rule with a power of two of panels; polint evaluates the interpolating polynomial; rombintegral is exact for polynomials of degree 9.", "quantifier": "all grids, polynomials, intervals, tolerances, iteration limits, contents of uninitialised memory", "why_tests_cant": "Quantifies over functions and sizes; few points and few iterations are special cases.", "anchors": ["src/utility/NumericUtils/integrals_1Dgrid.c: integrate_trapez_1Dgrid, integrate_simpson_1Dgrid, integrate_simpson_old_1Dgrid", "src/utility/NumericUtils/integral.c: integral, trapezit, rombintegral, polint"]}
{"id": "C90", "title": "Attenuation functions", "statement": "Attenuation01, Att_0to1 and Att_1to0 have values between 0 and 1, are monotone, have the value 0 and 1 at the two ends, Att_1to0 is one minus Att_0to1, and dAtt_0to1, dAtt_1to0 are the derivatives.", "quantifier": "all arguments and parameters", "why_tests_cant": "Continuum of inputs; branches close to the ends.", "anchors": ["src/utility/numerics/attenuation.c"]}
{"id": "C92", "title": "Successive overrelaxation", "statement": "SOR_step computes one Gauss-Seidel sweep with relaxation and stops exactly if a diagonal element vanishes; its fixed points are the solutions; for symmetric matrices with positive diagonal and 0 < omega < 2 the energy never increases; for diagonally dominant matrices and 0 < omega <= 1 the error contracts and matrix_SOR reaches every positive tolerance. The number returned by matrix_SOR is the first step at which the residual is at most tol, or itmax+1.", "quantifier": "all sizes, matrices, right hand sides, relaxation parameters, tolerances, iteration limits", "why_tests_cant": "Quantifies over all matrices and limits.", "anchors": ["src/utility/GridIterators/SOR.c: SOR_step, matrix_SOR"]}
{"id": "C91", "title": "Newton solver on the grid", "statement": "The residual reported by Newton is the norm of F at the u it leaves; a return value below itmax means that it is at most tol. The linear solver is always given F at the current u. A step with backtracking does not increase the residual. If the derivative is bounded from below, F is approximated by its derivative up to a quadratic error, and the linear solver keeps its tolerance, the residual shrinks by a fixed factor in every step and the tolerance is reached.", "quantifier": "all functions, linear solvers, hooks, starting points, tolerances, iteration limits", "why_tests_cant": "Quantifies over functions and linear solvers.", "anchors": ["src/utility/GridIterators/Newton.c: Newton, do_Newton_step, do_partial_Newton_step, Newton_residual_of_lambda"]}
{"id": "C89", "title": "Ordinary differential equations", "statement": "rkck is the Runge-Kutta step of Cash and Karp: the weights satisfy the order conditions of order 5 and the error is the difference to weights of order 4. rkqs goes a part of the step it was asked for, in the same direction, keeps the error bounds, proposes a next step of 0.9 to 5.1 times the size and ends if small steps are good enough. odeintegrate returns status 0 only at x2; every statement about (x,y) preserved by the steps holds for the result and for the points kept in the arrays, which are ordered, farther apart than dxsav, not more than kmax, and begin with the start if dxsav is not zero and end with the end; otherwise ystart is unchanged.", "quantifier": "all right hand sides, intervals in both directions, steppers, tolerances, step limits, kmax >= 0", "why_tests_cant": "Quantifies over functions; the order conditions are statements about all rooted trees.", "anchors": ["src/utility/NumericUtils/rkck.c: rkck, rkckP", "src/utility/NumericUtils/rkqs.c: rkqs, rkqsP", "src/utility/NumericUtils/odeintegrate.c: odeintegrate, odeintegrateP"]}
{"id": "C93", "title": "Ordinary differential equations with the GSL", "statement": "odeintegrate returns status 0 only if it has reached x2; then it keeps kmax points at equal distances from x1 to x2, and every statement about (x,y) preserved by the integrations of the GSL holds at these points.", "quantifier": "all right hand sides, intervals, kmax, behaviours of the GSL", "why_tests_cant": "Failures of the GSL are rare.", "anchors": ["src/utility/numerics/GSL_odeint.c: odeintegrate, odeintegrateP"]}
{"id": "C94", "title": "Newton's method with line search", "statement": "fd_jacobian_nl gives difference quotients with the first step size that does not give a zero column, and the exact matrix for affine functions. The Newton step solves the linear system and is a descent direction. linesrchP minimises the parabola, then the cubic through the known values and halves at least, and always ends. newton_linesearch returns 0 or a positive number only if the maximum of |F| is below the tolerance with check=0, or with check=1 at a spurious minimum; |F| never increases; one step solves affine equations.", "quantifier": "all functions, dimensions, starting points, tolerances, iteration limits", "why_tests_cant": "Quantifies over functions; the branches of the line search are reached only by special functions.", "anchors": ["src/utility/numerics/newton_linesearch.c: newton_linesearch, linesrchP, fd_jacobian_nl"]}
{"id": "C95", "title": "Extrapolation out of the range of a function", "statement": "newton_lnsrch_vec_within_range tells if a vector is in a box. For a vector outside, newton_lnsrch_set_vecs_for_lininterp finds the point on the boundary on the way from the centre and a point inside, and newton_lnsrch_get_fvec_by_lininterp extrapolates from these two points along the line, exactly for affine functions.", "quantifier": "all dimensions, boxes, vectors, affine functions", "why_tests_cant": "Continuum of inputs; the order of the coordinates matters.", "anchors": ["src/utility/numerics/newton_linesearch.c: newton_lnsrch_vec_within_range, newton_lnsrch_set_vecs_for_lininterp, newton_lnsrch_get_fvec_by_lininterp", "src/utility/NumericUtils/newton_lnsrch.c"]}
{"id": "C96", "title": "Iteration in the direction of steepest descent", "statement": "WTiterator goes from x in the direction of steepest descent of the squared residual of the linear equations, with the first of the factors 1, 0.1, 0.01, ... for which the residual does not grow. The reported residual is that of the x it leaves and is never larger than at the start. It returns a number up to itmax exactly if the residual is at most tol, it always ends, and it reaches every positive tolerance if there is a solution.", "quantifier": "all linear operators and transposes, right hand sides, starting points, tolerances, iteration limits", "why_tests_cant": "Quantifies over operators; the steps are unbounded in number.", "anchors": ["src/utility/GridIterators/WTsolver.c: WTiterator"]}
{"id": "C97", "title": "Matrices for UMFPACK and the solvers that use it", "statement": "set_umfpack_di/dl_matrix_from_lines and ..._from_columns put a matrix into compressed columns as UMFPACK needs them: column starts, ascending line numbers, no entries of size up to dropbelow, and never more entries than allocated. The columns set by SetMatrixColumns_slowly are in ascending order for every number of threads. If UMFPACK_solve_wrapper returns 0, the operator applied to the result gives the right hand side up to the dropped entries; warnings give negative numbers and errors end the program.", "quantifier": "all matrices, sizes, limits for dropping, linear operators, shares of the points among threads, orders of the adds", "why_tests_cant": "Orders of adds depend on timing; quantifies over operators.", "anchors": ["src/utility/LinAlg/umfpack_dl_interface.c: set_umfpack_dl_matrix_from_lines, set_umfpack_dl_matrix_from_columns, umfpack_dl_solve_fromAcolumns", "src/utility/LinAlg/umfpack_di_interface.c: umfpack_di_solve_fromAlines, umfpack_di_solve_fromAcolumns, umfpack_di_solve_forSortedVars_fromAcolumns", "src/utility/GridIterators/wrappers_for_UMFPACK.c: UMFPACK_solve_wrapper, UMFPACK_solve_forSortedVars_wrapper", "src/utility/LinAlg/SuiteSparseQR_C_interface.c: translate_SuiteSparse_warnings"]}
{"id": "C98", "title": "Jacobi and block Jacobi preconditioners", "statement": "IndexOf_ith_ActiveBox finds the active box with i active boxes before it and -1 if there is none; forallVarsBoxesAndSubboxes_defIndices visits each block (variable, active box, subbox) once. The Jacobi preconditioner divides each value by the diagonal element of the operator, and a zero on the diagonal is an error. The block preconditioner solves in each block the equations of the operator restricted to the points of the block, for every interleaving of the threads, and divides by the diagonal if the factorisation fails. Every solver with the name Jacobi uses the preconditioner of its own operator.", "quantifier": "all grids, flags of boxes, lists of variables, subdivisions, linear operators, shares of the points among threads, interleavings", "why_tests_cant": "Races depend on timing; quantifies over operators.", "anchors": ["src/utility/GridIterators/wrappers_for_JacobiPrecon.c: Jacobi_Preconditioner_from_DiagM, linSolve_with_Jacobi_precon, Matrix_BlockJacobi_Solve, BlockJacobi_Preconditioner_from_Blocks, linSolve_with_BlockJacobi_precon", "src/utility/GridIterators/sgrid_GridIterators.h: forallVarsBoxesAndSubboxes_defIndices", "src/main/MemoryMan/grid.c: IndexOf_ith_ActiveBox, set_ninactive, set_box_inactiveflags"]}
{"id": "C99", "title": "Cartesian derivatives", "statement": "cart_partials and cart_partial_all transform the derivatives in the directions of a box to Cartesian derivatives by the chain rule, the same with stored and with computed derivatives of the coordinates, for every interleaving of the threads, and change nothing else. If the derivatives of the coordinates and of the function are exact, so are the results. The functions for tensors put the derivative S_ab,c into the component abc of the tensor (ij)k and S_ab,cd into the component abcd of (ij)(kl), and the same for vectors and scalars.", "quantifier": "all boxes, variables, coordinate transformations, derivative operators, interleavings, components", "why_tests_cant": "Races depend on timing; quantifies over transformations and functions; wrong components are hidden by symmetric data.", "anchors": ["src/utility/Coordinates/cartesianDerivs.c: cart_partials, cart_partial_all, FirstDerivsOf_Sab, FirstAndSecondDerivsOf_Sab, allDerivsOf_Sab, FirstDerivsOf_Sa, FirstAndSecondDerivsOf_Sa, allDerivsOf_Sa, FirstDerivsOf_S, FirstAndSecondDerivsOf_S, allDerivsOf_S, D_and_DD_of_Sab", "src/utility/Coordinates/Coordinates.c: compute_xyz_dXYZdxyz_ddXYZddxyz"]}
{"id": "C69", "title": "Derivatives of inverse and composed coordinate transformations", "statement": "The functions of transfDerivs.c give the determinant, inverse, transpose and product of 3x3 matrices. From the first and second derivatives of a transformation dXdx_from_dxdX and ddXdxdx_from_dXdx_ddxdXdX give the first and second derivatives of its inverse, and dxdX_from_dxdU_dUdX and ddxdXdX_from_dxdU_dUdX_ddxdUdU_ddUdXdX those of a composition. init_dXdx_generic and init_ddXdxdx_generic store the first and second derivatives of the inverse at every point if the derivatives in the directions of the box are exact.", "quantifier": "all matrices, twice differentiable transformations with nonzero determinant, boxes, arrangements of variables", "why_tests_cant": "Continuum of inputs; wrong index orders are hidden by symmetric matrices.", "anchors": ["src/utility/Coordinates/transfDerivs.c", "src/utility/Coordinates/Coordinates.c: init_dXdx_generic, init_ddXdxdx_generic, init_CoordTransform_And_Derivs"]}
{"id": "C100", "title": "Surface integrals", "statement": "spec_SurfaceIntegral gives at every point the integral of a function over the surface of constant coordinate through the point with the surface element of the metric, which in flat space is the length of the cross product of the tangent vectors. A wrong direction, or a transformation without stored derivatives, is an error.", "quantifier": "all boxes with Chebyshev or Fourier bases, directions, metrics, transformations, functions in the span of the basis", "why_tests_cant": "Continuum of functions and metrics.", "anchors": ["src/utility/Spectral/integrals.c: spec_SurfaceIntegral"]}
{"id": "C101", "title": "Boundary conditions of the evolution systems", "statement": "initialize_BoundaryPointLists puts the points of the non-periodic faces of every active box, of the outer faces of the last box and of the inner face of a spherical box 0 on the lists, each list with the points the flags ask for. set_boundary_radiative gives -v(u-u0)/r - v x.grad(u)/r, which is the time derivative of every outgoing wave u0+w(r-vt)/r; the analytic version does this for the difference to the initial values. set_boundary_constant keeps the old values, set_boundary_value sets a value, simple excision copies the change of the neighbour, and the functions for normal derivatives make the computed derivative equal to the given number. set_boundary does this for every variable with its speed and limit, and restarts give the same results.", "quantifier": "all grids, variables, values, time steps, schedules of threads, wave forms", "why_tests_cant": "Continuum of waves and grids; wrong list entries only show in the long run.", "anchors": ["src/utility/boundary/boundary.c", "src/utility/boundary/radiative.c", "src/utility/boundary/excision.c", "src/utility/boundary/BCs.c"]}
{"id": "C102", "title": "Fast Fourier transforms", "statement": "numrec_four1 computes the discrete Fourier transform with the given sign, numrec_realft, numrec_cosft1 and numrec_cosft2 the real and the cosine transforms, in place and without touching anything outside the given entries. The line routines made of them (four_coeffs_numrecFFT etc.) set exactly the same arrays as the explicit sums. Choosing NUMREC_FFT in the parameters does not change any coefficient or value.", "quantifier": "all powers of two, both signs, all arrays of numbers, all bases", "why_tests_cant": "The continuum of data and all lengths; a wrong index in the bit reversal or a wrong angle only shows for longer lines.", "anchors": ["src/utility/Spectral/FFTs_for_sgrid.c", "src/utility/Spectral/spec_coeffs.c: set_TransformType_flags_inbox, get_spec_functionpointerTO_get_coeffs, get_spec_functionpointerTO_eval_onPoints"]}
{"id": "C103", "title": "Finding coordinates", "statement": "XYZ_of_xyz returns a number that is not negative only if the Cartesian coordinates of the result agree with the given ones up to the tolerance, also when it starts at a singularity. b_XYZ_of_xyz returns the first box that contains the point, with coordinates inside of the box, and a negative number and the old coordinates if there is none; the same for lists of boxes and for X at given Y and Z. The functions for nearest points give the index, coordinates and distance of a nearest point in a box, inside of a box, in a plane and in all boxes. XYZ_on_face finds the faces a point is on, moveXYZ_off_face moves it off the faces and keeps it inside, find_i_Of_X etc. give the index of a coordinate.", "quantifier": "all boxes, transformations, points, lists of boxes, start values, tolerances", "why_tests_cant": "Continuum of points and transformations; failures of Newton's method are rare.", "anchors": ["src/utility/Coordinates/findXYZ_of_xyz.c", "src/utility/Coordinates/find_ijk.c", "src/utility/Coordinates/Singularities.c"]}
{"id": "C104", "title": "Coefficients and interpolation in planes and along lines", "statement": "spec_analysis1_inplaneN and spec_synthesis1_inplaneN transform exactly the lines of one direction that are in the given plane and leave everything else as it was; equal or wrong directions stop the program. spec_Coeffs_inplaneN followed by spec_Eval_inplaneN gives back the values in the plane. spec_interpolate_inplaneN gives the same as spec_interpolate at the point of the plane, spec_interpolate_in_dir_at_i1_i2 interpolates along a line, both are exact for functions in the spaces of the bases. spec_interpolate_Var_from_grid2_to_grid1 sets the variable on grid 1 to the function on grid 2 at the coordinates of the points.", "quantifier": "all sizes of boxes, planes, directions, arrays, bases, points", "why_tests_cant": "Wrong planes or exchanged directions do not show in tests with symmetric data or equal sizes; continuum of points.", "anchors": ["src/utility/Spectral/spec_coeffs.c", "src/utility/Spectral/interpolate.c"]}
{"id": "C105", "title": "Boundary conditions between boxes", "statement": "For every point of a box face the boundary condition FPsi is Psi minus the value of Psi of the other box at the same place (from a copy, from interpolation in the face, or from interpolation in space, exact for all fields that the bases resolve), or the same for the derivative along the outward unit normal of the face; nothing but FPsi at points of the face changes. Normals have length 1, are orthogonal to the face and point out of the box; the outward direction follows the coordinate line.", "quantifier": "all boxes, faces, bases, fields, point lists and flags", "why_tests_cant": "Tests of elliptic solvers see the sum of all conditions; a wrong sign of a normal, a wrong plane or a wrong partner on one kind of face only slows or shifts convergence.", "anchors": ["src/utility/boundary/BCs_from_bfaces.c:10-209", "src/utility/boundary/BCs_from_bfaces.c:218-855"]}
{"id": "C106", "title": "ADM and BSSN variables", "statement": "ADMtoBSSN gives a conformal metric of determinant 1 with g_ij = exp(4 phi) gt_ij, K is the trace of K_ij with respect to the physical metric psi^4 g_ij, At_ij is free of trace and K_ij = psi^4 exp(4 phi) (At_ij + K gt_ij/3), the lapse density has weight w, and G^i is minus the divergence of the inverse conformal metric and the contracted Christoffel symbols. BSSNtoADM is the inverse of ADMtoBSSN in both orders. The term in the right hand side of the lapse makes its time derivative vanish.", "quantifier": "all metrics of positive determinant, all extrinsic curvatures, psi not zero, all weights and derivatives", "why_tests_cant": "The tests start from conformally flat or Kerr-Schild data; wrong components of the inverse metric or of the derivatives show only for general metrics.", "anchors": ["src/physics/BSSN/BSSN_init.c:16-353", "src/physics/BSSN/BSSN.c:63-169"]}
{"id": "C107", "title": "Filters of evolved variables", "statement": "filter_with2o3rule_inX, _minus1_inX and _inXYZ keep exactly the coefficients below 2(n/3) (or one less), BSSN_filter_unew keeps exactly the coefficients in a rectangle or an ellipse in the Y and Z modes, coordinateDependentFilter keeps exactly the Fourier modes m <= (n3/2) sin(theta) for every theta. What is kept is not changed, functions without coefficients outside are not changed at all, filters are idempotent, every variable of the list in every active box is filtered once, and nothing else is changed. BSSN_ChooseAndApplyFilters filters the list that is passed.", "quantifier": "all boxes, bases, numbers of points, fields, lists of variables, parameters", "why_tests_cant": "Evolutions stay stable or unstable for many reasons; one coefficient too much or too little does not show in tests.", "anchors": ["src/physics/BSSN/BSSN.c:285-590", "src/physics/ScalarOnKerr/ScalarOnKerr.c:1757-1848", "src/utility/Coordinates/coordFilters.c"]}
{"id": "C108", "title": "Legendre transforms and the filter with spherical harmonics", "statement": "The tables of s2kit have the normalised associated Legendre functions at the angles (2j+1)pi/(4bw), the weights integrate all polynomials of degree below 2bw exactly, synthesis followed by analysis gives the coefficients back for every band width and order, P_eval is the sum of the functions. Naive_YlmFilter_lmshift projects the Fourier coefficient k of every variable in every active box onto the functions P_l^m with m = (k+1)/2 and l < bw + lmshift, copies the result to the other half of the sphere, keeps data that have only such modes, is idempotent, changes nothing else, and stops for sizes it cannot handle.", "quantifier": "all band widths, orders, boxes, fields, lists of variables, lmshift", "why_tests_cant": "Tests see a few low modes; an error in a coefficient of the recurrence, in one weight or one index of the loops that do four steps at once shows only for special l, m or sizes.", "anchors": ["src/utility/s2kit/s2kit_primitive.c:61-335", "src/utility/s2kit/s2kit_pmls.c:60-160", "src/utility/s2kit/s2kit_makeweights.c:74-98", "src/utility/s2kit/s2kit_naive_synthesis.c:83-203", "src/utility/s2kit/YlmFilter.c:16-147"]}
{"id": "C109", "title": "Integrals over spheres", "statement": "spec_sphericalDF2dIntegral puts r^2 times the integral of u sin(theta) over theta from 0 to pi and over phi into U at every point of the sphere of radius r, for every u that is a Fourier series in the angle Y of the double covering and is resolved in phi; theta is Y plus half a grid spacing (a quarter for odd n2). The version for one radial index does the same on one sphere, spec_sphericalDF3dIntegral returns the volume integral. No other array and nothing outside of the box changes. Other bases in direction 2 stop the program.", "quantifier": "all boxes with at least 3 points in direction 2, all bases in the other directions, all functions that the bases resolve", "why_tests_cant": "Each sphere mixes all Fourier coefficients; a missing or wrong weight of a high coefficient is invisible for smooth low modes.", "anchors": ["src/utility/Spectral/integrals.c: spec_sphericalDF2dIntegral, spec_sphericalDF3dIntegral, spec_sphericalDF2dIntegral_at_radial_index_i"]}
{"id": "C110", "title": "Spin weighted spherical harmonics", "statement": "Wigner_d_function_WT is the matrix of the rotation of binary forms of degree 2l: it satisfies the addition theorem, is the identity at angle 0, its inverse is the transposed matrix, it is orthogonal, and its entries with equal m, s and different l are orthogonal on the sphere with norm 2/(2l+1). Re_sYlm and Im_sYlm are therefore orthonormal on the sphere for each spin weight s, and they are zero for l < |s|. fact is the factorial. The version Wigner_d_function_PG agrees for angles in [0,pi] if |m|, |s| <= l.", "quantifier": "all l, m, s with |m|, |s| <= l, all angles", "why_tests_cant": "A wrong sign or limit of the sums only shows for a few combinations of l, m and s; tests compare a few functions at a few angles.", "anchors": ["src/physics/ModeComputer/SpinWeightedSphericalHarmonics.c: fact, Wigner_d_function_PG, Wigner_d_function_WT, Re_sYlm, Im_sYlm"]}
{"id": "C111", "title": "The modes written by ModeComputer are the coefficients of the data", "statement": "ModeComputer sets up a box with one radius for each pair (l,m), l<=lmax, in the order l=0; l=1,m=-1,0,1; ... . If the two data files contain the real and the imaginary part of sum_{l<=L,|m|<=l} (A+iB)_{lm}(t) sYlm on the part of the sphere from which the chosen symmetry (bitant, rotant, quadrant, octant or none) gives the rest, at growing times, and n2 and n3 are even and greater than 2(lmax+L), then for exactly the times that occur in both files the output has the lines l, m, t, A_{lm}(t), B_{lm}(t) for all l<=lmax, |m|<=l, zero for l>L. An odd n2 or n3 ends the run with an error.", "quantifier": "all spins, lmax, L, numbers of points, coefficients, times, contents of the memory, orders of the parallel passes", "why_tests_cant": "A test uses one set of modes, one symmetry and a few times; the theorem says that quadrature on the doubly covered sphere, copying between the hemispheres, symmetries, numbering of the modes and matching of the times are right together for all of them.", "anchors": ["src/physics/ModeComputer/ModeComputer.c:27-437", "src/utility/Coordinates/doubleCovering.c:88-116"]}
{"id": "C112", "title": "The constraints computed by ADMconstraints are the constraints of the physical metric", "statement": "If the memory contains the values and the first and second derivatives of the conformal factor psi, of g, of K and of alpha at a point, then ADMconstraints computes ham = R + K^2 - K_ij K^ij - 16 pi rho, where R is the textbook Ricci scalar of the physical metric psi^4 g, mom_a = D^b(K_ab - gamma_ab K) - 8 pi j_a, trK = K and, if rho and S are both present or both absent, dtrKdt = -D^2 alpha + alpha(R + K^2) + beta^a d_a K + 4 pi alpha (S - 3 rho).", "quantifier": "all fields in a ring with three commuting derivatives, in particular all smooth fields with a metric that is nowhere degenerate; all points", "why_tests_cant": "The code is generated and has hundreds of assignments; tests look at data for which most of the terms are zero or compare with the same script.", "anchors": ["src/physics/ADMvars/ADMconstraints.c"]}
{"id": "C113", "title": "The normalised constraints are a fraction of the constraints", "statement": "With ADMvars_normalizedConstraints the absolute values of normham and normmom_a are at most one, and they are zero exactly where ham and mom_a are zero.", "quantifier": "all fields and points, both values of ADMvars_ConstraintNorm", "why_tests_cant": "A norm that vanishes where the constraint does not looks like a good result; it only shows if the terms of the denominator are compared one by one with the terms of the constraint.", "anchors": ["src/physics/ADMvars/ADMconstraints.c:2163-3130"]}
{"id": "C114", "title": "The BSSN evolution equations are the evolution equations of general relativity", "statement": "If the conformal metric has determinant 1 (as the geometry demands), A has no trace and G is the contracted Christoffel symbol, then the right hand sides of BSSN_rhs for phi, g, A and K, put together to the physical metric e^{4 phi} psi^4 g and the physical K_ab, are -2 alpha K_ab + L_beta gamma_ab and -D_a D_b alpha + alpha (R_ab + K K_ab - 2 K_ac K^c_b) + L_beta K_ab plus (RtoRminusHfactor - 1)/3 alpha gamma_ab times the Hamiltonian constraint, and the one for K is -D^2 alpha + alpha K_ab K^ab + beta^a d_a K.", "quantifier": "all fields in a ring with three commuting derivatives, in particular all smooth fields; all points; all values of the parameters", "why_tests_cant": "The generated code has 638 assignments; tests evolve data with symmetries in which most of the terms vanish, and an error of a small term looks like a discretisation error.", "anchors": ["src/physics/BSSN/BSSN_rhs.c:703-3100"]}
{"id": "C115", "title": "The BSSN equations keep the constraints", "statement": "The right hand side for G^a is the time derivative of the contracted Christoffel symbols of the conformal metric plus 2 alpha times the momentum constraint; the time derivative of det g vanishes; the time derivative of the trace of A is alpha RtoRminusHfactor times the Hamiltonian constraint.", "quantifier": "all fields in a ring with three commuting derivatives; all points; all values of the parameters", "why_tests_cant": "A violation grows slowly and is taken for an instability of the evolution.", "anchors": ["src/physics/BSSN/BSSN_rhs.c:1500-3000"]}
{"id": "C116", "title": "Gauge, linear step and options of BSSN_rhs", "statement": "With addlinear the result is the old variable plus dt times the right hand side. normalizedetg gives det g = 1, subtractA and recomputeAzz give an A without trace, recomputegzz gives det g = 1. The lapse and the shift follow the equations of the chosen gauge (1+log, harmonic, constant lapse, Gamma driver), the density of the lapse is consistent with the lapse.", "quantifier": "all values of the fields, derivatives and parameters", "why_tests_cant": "Every combination of flags is a different program; most are never run.", "anchors": ["src/physics/BSSN/BSSN_rhs.c:2700-3260"]}
{"id": "C117", "title": "The Kerr-Schild data are a stationary black hole in vacuum", "statement": "At every point where Kerr's radius is positive and 1 + 2H > 0, the metric psi^4 g, the extrinsic curvature, lapse and shift that SingleBHKS writes are values of smooth fields; for these fields ADMconstraints computes ham = 0, mom = 0 and dtrKdt = 0, and -2 alpha K_ij + L_beta gamma_ij = 0. psi dpsiopsi and psi ddpsiopsi are the first and second derivatives of psi.", "quantifier": "all masses and spins (M >= 0 with a conformal factor), all points where the metric is regular", "why_tests_cant": "Initial data with a small error in one component still look like a black hole; the constraints are only seen to converge to zero with resolution if all derivatives are exact.", "anchors": ["src/physics/SingleBH/SingleBHKS.c", "src/physics/ADMvars/ADMconstraints.c"]}
{"id": "C118", "title": "Kerr3d writes a black hole and its connection", "statement": "With a = S/M, at every point where Kerr's metric is regular, Kerr3d writes a metric, its inverse, lapse, shift, extrinsic curvature and trace, the Christoffel symbols, their contraction, and the derivatives of lapse and shift of smooth fields that satisfy both constraints and for which the metric does not change in time.", "quantifier": "all masses and spins, all points where the metric is regular", "why_tests_cant": "The code is generated, with 50 output variables; an evolution of a scalar field on this background does not show which of the coefficients is wrong.", "anchors": ["src/physics/ScalarOnKerr/Kerr3d.c"]}
{"id": "C119", "title": "The two programs for Kerr black holes agree", "statement": "For the same mass and spin Kerr3d and SingleBHKS (without conformal factor) write the same lapse, shift, metric and extrinsic curvature.", "quantifier": "all masses and spins, all points", "why_tests_cant": "The two functions are never run in one simulation, and for M = 1 they agree.", "anchors": ["src/physics/ScalarOnKerr/Kerr3d.c:193-206", "src/physics/SingleBH/SingleBHKS.c"]}
{"id": "C120", "title": "The isotropic data are a static black hole in vacuum", "statement": "For the fields that SingleBHisotropic writes ADMconstraints computes ham = 0, mom = 0, trK = 0 and dtrKdt = 0 everywhere off the origin where 1 + M/(2r) is not zero; alpha R_ij = D_i D_j alpha with the lapse of the code, so that nothing changes in time; psi dpsiopsi and psi ddpsiopsi are the derivatives of psi; the options for lapse and shift change nothing else.", "quantifier": "all masses, with and without conformal factor, all points where the conformal factor does not vanish", "why_tests_cant": "A sign error in ddpsiopsi or in the lapse shows up only as a slow drift of an evolution.", "anchors": ["src/physics/SingleBH/SingleBHisotropic.c", "src/physics/SingleBH/SingleBH.c:41-84"]}
{"id": "C121", "title": "The right hand sides of the Z4 formulation are its equations", "statement": "At a point where the derivatives are those of smooth fields Z4secondO_rhs computes d_t g = -2 alpha K + L_beta g; d_t K = -DD alpha + alpha (R + DZ + (DZ)^T - 2 K K + K (trK - 2 Theta)) + L_beta K; the equations for Theta and Z with the Hamiltonian and momentum constraint, Lie derivatives and damping terms; with Theta = Z = 0 these are Einstein's equations and the sources of Theta and Z are multiples of the constraints; the lapse condition for all options, the shift and B are constant; with dt != 0 it writes pre + dt rhs.", "quantifier": "all smooth fields, all invertible metrics, all options", "why_tests_cant": "The code is generated, 2000 lines long; a wrong term that vanishes for Theta = Z = 0 or for one symmetric test case is not seen in runs that satisfy the constraints.", "anchors": ["src/physics/Z4secondO/Z4secondO_rhs.c:17-2043"]}
{"id": "C122", "title": "The gauge wave data solve Einstein's equations", "statement": "Where its metric is positive, the metric, extrinsic curvature, lapse and shift that TestID_1dGaugeWave writes are values of smooth fields for which ADMconstraints computes ham = 0 and mom = 0; with the wave moved by t they solve the evolution equations of the metric and of the extrinsic curvature in time. With the default amplitude 1 the metric and the lapse vanish at a point of the box.", "quantifier": "all amplitudes, box lengths, times and points where the metric is positive", "why_tests_cant": "A wrong factor in K_xx only shows up as a drift of the evolved wave; the default amplitude fails only on points that a grid may miss.", "anchors": ["src/physics/TestID/TestID_1dGaugeWave.c", "src/physics/TestID/TestID.c:44-85"]}
{"id": "C123", "title": "The linear wave data violate the constraints only at second order", "statement": "For the data that TestID_1dLinearWave writes ADMconstraints computes ham = 2 E, mom_x = E, mom_y = mom_z = 0 with an error |E| <= 4/3 (2 pi A/L)^2 for |A| <= 1/2, and E = 2 (pi A/L)^2 at x = t; the wave moved by t solves the evolution equations up to E in the xx component.", "quantifier": "all amplitudes, box lengths, times and points where the metric is positive", "why_tests_cant": "For the amplitude 1e-8 of the test the second order error is at round-off, so a run cannot tell it from an error of first order in a small coefficient.", "anchors": ["src/physics/TestID/TestID_1dLinearWave.c"]}
{"id": "C124", "title": "Random noise is small and leaves the metric positive definite", "statement": "The fields written by TestID_RandomNoise differ from flat space by at most 2.5e-7/n1^2 in every component for all sequences of random numbers, and the metric is positive definite; the gauge options of TestID overwrite lapse and shift and nothing else.", "quantifier": "all random numbers between 0 and RAND_MAX, all numbers of points, all options", "why_tests_cant": "Tests see one sequence of random numbers.", "anchors": ["src/physics/TestID/TestID_RandomNoise.c", "src/physics/TestID/TestID.c:44-85"]}
{"id": "C125", "title": "The scalar wave equation conserves the energy the code computes", "statement": "The right hand side of ScalarWave is the wave equation with the derivative of the potential n (psi^2 - log(1 + psi^2))/2; for every smooth solution the energy density rho that the code computes satisfies d_t rho = d_i(psidot d_i psi), rho >= 0, and rho = 0 only for the vacuum; with dt != 0 the functions write pre + dt rhs.", "quantifier": "all smooth solutions, all values of the nonlinear coefficient, all points", "why_tests_cant": "An energy that does not belong to the equation changes slowly in runs like an energy with truncation error.", "anchors": ["src/physics/ScalarWave/ScalarWave.c:17-61", "src/physics/ScalarWave/ScalarWave.c:279-281"]}
{"id": "C126", "title": "The initial scalar waves are ingoing waves", "statement": "The spherical initial data of ScalarWave are f(r+t)/r and its time derivative at t = 0, which solves the equation that the code evolves without the nonlinear term; the ellipsoidal data have psidot r = derivative of psi r in the radial direction; the data of testwave are a wave that moves to the right for the equation of testwave; the boundary loop of testwave zeroes the first and last point of every line and nothing else.", "quantifier": "all parameters, all points off the origin, all times, all box sizes", "why_tests_cant": "A wrong sign of psidot gives an outgoing wave, which looks as good in a run.", "anchors": ["src/physics/ScalarWave/ScalarWave.c:191-228", "src/physics/testwave/testwave.c"]}
{"id": "C127", "title": "The ADM energy of a black hole is its mass", "statement": "ADMenergy_spheric_intergrand writes det(gamma)/(16 pi) n_a gamma^ab gamma^cd (d_d gamma_bc - d_b gamma_cd) with the physical metric gamma and the radial normal, and 0 at the origin; for a black hole of mass M in isotropic coordinates the spectral integral over a sphere of radius r of this integrand is M (1 + M/(2r))^7, which tends to M for large r.", "quantifier": "all metrics and derivatives, all points, all masses, all radii, all boxes with spherical coordinates", "why_tests_cant": "The generated sum has two hundred products; a wrong one changes the energy by an amount that looks like a finite radius effect.", "anchors": ["src/physics/ADMvars/ADMenergy_spheric_intergrand.c:17-427", "src/physics/ADMvars/ADMvars.c", "src/utility/Spectral/integrals.c"]}
{"id": "C128", "title": "The helpers of ADMvars compute determinant, inverse, trace and the trivial conformal split", "statement": "ADMvars_detg returns the determinant; ADMvars_invg returns it and writes the inverse matrix if there is one; set_K_initial writes the trace of K with the inverse of psi^4 g; ADMvars_undo_conformal_split leaves psi^4 g as it is, writes psi = 1 and zero derivatives.", "quantifier": "all values of the fields", "why_tests_cant": "A wrong cofactor shows up only for metrics that are not diagonal.", "anchors": ["src/physics/ADMvars/utility.c:9-125"]}
{"id": "C129", "title": "Kerr writes the four dimensional metric of a black hole, its inverse and its Christoffel symbols", "statement": "At every point where the Kerr metric with the parameter a = S/M is regular, Kerr writes the metric that belongs to the lapse, the shift and the three dimensional metric of Kerr3d, its inverse, all forty Christoffel symbols and their contraction.", "quantifier": "all masses, all spins, all points of the regular domain", "why_tests_cant": "A wrong sign in one of the generated Christoffel symbols acts like a small force on the field; no test compares the metric with its derivatives.", "anchors": ["src/physics/ScalarOnKerr/Kerr.c:16-1433"]}
{"id": "C130", "title": "The first order evolution of the scalar field on a black hole solves the wave equation and keeps its constraint", "statement": "ScalarOnKerr_evolve_1stO: if phi is the gradient of psi and Pi its normal derivative, the right hand side of Pi is the time derivative of Pi exactly where g^ab nabla_a nabla_b psi = rho, with the four dimensional metric of this lapse and shift, and the right hand sides of psi and phi are their time derivatives; if phi is not the gradient, the difference is dragged along the shift and has no other source.", "quantifier": "all backgrounds (also those that depend on time), all fields, all sources, all points", "why_tests_cant": "A missing term with the derivatives of lapse or shift vanishes for the flat background, on which the solution is known.", "anchors": ["src/physics/ScalarOnKerr/ScalarOnKerr.c:2317-2500"]}
{"id": "C131", "title": "The second order evolution of the scalar field on a black hole solves the same wave equation", "statement": "ScalarOnKerr_evolve: the right hand side of Pi is the time derivative of Pi exactly where g^ab nabla_a nabla_b psi = rho, for every choice of the parameters ScalarOnKerr_Pi_def and ScalarOnKerr_1stOrder_inSpace. On the background written by Kerr and Kerr3d this is the same equation that ScalarOnKerr_evolve_1stO solves.", "quantifier": "all metrics with g^00 different from 0, all fields, all sources, all points", "why_tests_cant": "A variable that is not set has a value in every run, and the error is as large as what the compiler left in the register.", "anchors": ["src/physics/ScalarOnKerr/ScalarOnKerr.c:592-861", "src/physics/ScalarOnKerr/ScalarOnKerr.c:2317-2500", "src/physics/ScalarOnKerr/Kerr.c"]}
{"id": "C132", "title": "Characteristic variables make the scalar field agree between shells", "statement": "After set_Up_Um_U0_onBoundary and compute_unew_from_Up_Um_U0_onBoundary psi, Pi and phi agree on both sides of every interface between shells: the part that moves outward comes from the inner shell, all other parts from the outer one. Fields that agree already are not changed, nor is any point away from the interfaces, and the parts are those that move with the speeds of light of the evolution equations.", "quantifier": "all numbers of shells and points, all fields, all metrics that agree on both sides of an interface", "why_tests_cant": "Taking a part from the wrong side is stable for a short time and drifts later.", "anchors": ["src/physics/ScalarOnKerr/ScalarOnKerr.c:3008-3274", "src/physics/ScalarOnKerr/ScalarOnKerr.c:2317-2500"]}
{"id": "C133", "title": "The outer boundary condition of the first order scalar field lets waves out", "statement": "set_psi_Pi_phi_boundary and set_psi_Pi_phi_boundary_CP keep the rate of the part that moves outward, set the rate of psi to what the equations demand, and let outgoing spherical waves in flat space pass exactly; with a step dt the new values are those after a step with these rates. No other point changes.", "quantifier": "all fields, metrics, steps and points of the outer boundary; for the waves all profiles", "why_tests_cant": "A rate that is wrong at some points of the sphere by a term with the shift looks like a weak reflection.", "anchors": ["src/physics/ScalarOnKerr/ScalarOnKerr.c:2504-2828"]}
{"id": "C134", "title": "The characteristic variables of the second order scalar field are set and inverted consistently", "statement": "The coefficients of the characteristic variables of ScalarOnKerr_evolve belong to the two radial light rays, set_psi_Pi_boundary gives the rate of an outgoing wave in flat space, compute_unew_from_Up_Um_onBoundary finds Pi and psi that have the given characteristic variables, with the derivative of the new psi, and the penalty terms vanish where the sides agree.", "quantifier": "all metrics with timelike time and spacelike radius, all differentiation matrices, all fields", "why_tests_cant": "The inversion is exact in the first and in the last box, so that tests with two boxes see nothing.", "anchors": ["src/physics/ScalarOnKerr/ScalarOnKerr.c:864-957", "src/physics/ScalarOnKerr/ScalarOnKerr.c:1256-1681"]}
{"id": "C135", "title": "The source of the scalar field rotates rigidly, by its Fourier modes as by its formula", "statement": "ScalarOnKerr_rho_from_rho0_four3modes gives at the angle phi the value at phi - Omega t of the trigonometric series of the source at t = 0, with Omega the angular velocity of the circular orbit at r0 = 10 M; at t = 0 it gives the source back; for the l=m=2 test source and at least five points on the circle it gives exactly what ScalarOnKerr_Source returns at time t.", "quantifier": "all numbers of points, even and odd, all masses, times and sources", "why_tests_cant": "With an even number of points the highest cosine has no sine; a mistake there vanishes for all smooth sources in use.", "anchors": ["src/physics/ScalarOnKerr/ScalarOnKerr.c:437-588"]}
{"id": "C136", "title": "The Poisson test problems: their linearisations and the solutions they are compared with", "statement": "J_Poisson, J_Poisson2 and J_Poisson3 compute the derivatives of F_Poisson, F_Poisson2 and F_Poisson3 in the direction of the linearised variables, on the boundaries too; the functions with which Poisson*_analyze compares solve the equations with the sources and boundary values of Poisson*_startup.", "quantifier": "all values of the variables and their derivatives; all points where the solutions are defined; all radii and places of the stars", "why_tests_cant": "With a wrong linearisation Newton's method still converges where the wrong term is small, only more slowly.", "anchors": ["src/physics/Poisson/Poisson.c:465-618", "src/physics/Poisson2/Poisson2.c:255-398", "src/physics/Poisson3/Poisson3.c:330-425", "src/physics/Poisson3/Poisson3_BCs.c:17-152"]}
{"id": "C137", "title": "The post-Newtonian equations of the orbit keep the spins, the total angular momentum and the symmetry of the two stars", "statement": "PN_CircOrbit_derivs: the lengths of both spins and of the direction of the orbital angular momentum do not change, precession leaves the sum of the Newtonian orbital angular momentum and both spins alone, and exchanging the two stars exchanges the equations, for all eight kinds of equations of motion and for PN_CircOrbit_compute_r. The versions with a cutoff stop the growth of the frequency at the given speed and agree with those without in all orders these contain. TaylorT4 agrees with the equations of Buonanno et al. without spins, in the coupling of spin and orbit and in the coupling of both spins.", "quantifier": "all masses, spins, frequencies and directions; all flags except where they are named", "why_tests_cant": "The equations of motion have more than a hundred numbers; a wrong one changes the phase by a little after many orbits, which nothing can be compared with.", "anchors": ["src/physics/PN_CircularOrbit_GWs/PN_CircOrbit.c:26-529"]}
{"id": "C138", "title": "The gravitational waves belong to the orbit and do not depend on which star is called 1", "statement": "compute_hcross_hplus: separation, velocity and angular momentum are a right handed triad, and along a solution of the equations of the orbit the separation turns in the plane of the orbit with the angular velocity y[1]; the polarisations are transverse, traceless and orthonormal and h is symmetric; at leading order the wave is the quadrupole formula, with the factor that fades it out after tsdamp; exchanging masses, spins and positions of the stars does not change the wave.", "quantifier": "all directions of the orbit and of the observer, all masses, spins, phases and times", "why_tests_cant": "A term with the wrong symmetry is a small part of the amplitude for unequal masses and vanishes for equal ones.", "anchors": ["src/physics/PN_CircularOrbit_GWs/compute_GWs.c:12-447", "src/physics/PN_CircularOrbit_GWs/PN_CircOrbit.c:484-488"]}
{"id": "C139", "title": "The tables of Legendre functions and spherical harmonics hold the orthonormal spherical harmonics", "statement": "set_PlmTab and PLegendre compute the associated Legendre functions with the Condon-Shortley sign and fill every entry l <= lmax, m <= l and no other; set_YlmTabs and Ylm_from_Tabs give Y_l^m = sqrt((2l+1)/(4 pi) (l-m)!/(l+m)!) P_l^m(cos theta) exp(i m phi) for positive and negative m; these functions are orthonormal on the sphere.", "quantifier": "all lmax, l, m and all angles with sin(theta) >= 0", "why_tests_cant": "The test in the file is commented out; it compares l <= 4 with another function that has the same conventions.", "anchors": ["src/utility/Spectral/SphericalHarmonics.c:13-154"]}
{"id": "C140", "title": "The surface function of a cubed sphere is the sum of its spherical harmonics and the derivative functions give its derivatives", "statement": "FSurf_CubSph_sigma01_func returns the real sum of c_l^m Y_l^m with the coefficients of the given surface, SphHarm_dphi_forRealFunc and SphHarm_sin_theta_dtheta_forRealFunc compute the coefficients of the derivatives by phi and theta, and FSurf_CubSph_sigma01_derivs returns the derivatives of the surface function by A and B.", "quantifier": "all coefficients, all A, B, all six domains, both surfaces", "why_tests_cant": "The highest coefficients are small for smooth surfaces, so that a derivative without them looks like a truncation error.", "anchors": ["src/utility/Coordinates/FSurf_CubedSpheres.c:19-202", "src/utility/Spectral/SphericalHarmonics.c:252-335"]}
{"id": "C141", "title": "The coefficients of the surface function are the integrals with the spherical harmonics over the six boxes", "statement": "FSurf_CubSph_set_Ylm and FSurf_CubSph_get_Ylm_integrals store each Y_l^m in its own layer and segment, integrate conj(Y_l^m) times the variable with the element of solid angle over the surface, and write real and imaginary parts where the surface function reads them, and nothing else; FSurf_CubSph_set_Ylm_coeffs adds the six boxes; if the integration is exact, the surface function is the function the coefficients were computed from.", "quantifier": "all numbers of points, all lmax that fit, both surfaces, all variables", "why_tests_cant": "The layers wrap around into further segments only if lmax is large for n1; a wrong index then mixes coefficients that are small.", "anchors": ["src/utility/Coordinates/FSurf_CubedSpheres.c:205-449"]}
{"id": "C142", "title": "The arrangements of cubed spheres fill space without gaps and without overlap", "statement": "convert_6boxes_to_CubedSphere sets the ranges of A and B, the centre, the distances and the surfaces of six boxes and nothing else. The boxes made by arrange_12CubSph_into_empty_cube, arrange_1box12CubSph_into_full_cube, two_full_cubes_touching_at_x0, sphere_around_two_full_cubes_touching_at_x0 and two_spheres_around_two_full_cubes cover exactly the region between two cubes, a cube, two cubes, a ball and a larger ball: every point of the region and no other point is the image of the coordinates of some box, and no inner point of one box is an inner point of another. The returned index is the one after the last box.", "quantifier": "all distances for which the cubes and spheres lie inside each other, all centres, all numbers of points, with and without the variable for the surface, all first boxes", "why_tests_cant": "A wrong range in one of the six domains leaves a gap or an overlap that only shows up as a point that is not found, far into a run.", "anchors": ["src/utility/Coordinates/setup_CubedSpheres.c:11-99", "src/utility/Coordinates/setup_CubedSpheres.c:137-346", "src/utility/Coordinates/setup_CubedSpheres.c:393-609"]}
{"id": "C143", "title": "Of two boundary faces that touch exactly one sets the normal derivative", "statement": "set_consistent_flags_in_all_bfaces: if two boundary faces name each other as the face on the other side and both have touch=1, then afterwards setnormalderiv is 1 for exactly one of them, for every choice of setnormalderiv_order1 to 4, and it is known for which one; the flag of a face with no other box changes only at the ends of cubes. The program goes on if and only if the touch flags agree.", "quantifier": "all grids of boxes and boundary faces, all orders, all flags before", "why_tests_cant": "If both faces set the field, or both the normal derivative, the linear system is singular or wrong at this interface only; the tests have the few arrangements in the par files.", "anchors": ["src/utility/Coordinates/Coordinates_set_bfaces.c:1396-1652"]}
{"id": "C144", "title": "The number of the face on the other side is found, and several faces can be told apart by bits", "statement": "set_ofi_in_all_bfaces leaves in ofi -1 if no face of the other box names our box, the number of the face if there is one, and minus the sum of 2^(k+1) over the faces k if there are several; then ofi is even and below -1 and the bits give back the faces. r_from_cbt_OR_nbt always returns an int above 1, the union of the bits if it fits and an odd number otherwise. mark_all_bfaces_without_ob_as_outerbound marks exactly the faces with no other box.", "quantifier": "all grids with up to 30 boundary faces per box; all pairs of 32 bit numbers", "why_tests_cant": "Several faces between the same two boxes occur only when boxes overlap, and the overflow only with more than 30 faces.", "anchors": ["src/utility/Coordinates/Coordinates_set_bfaces.c:626-732"]}
{"id": "C145", "title": "Every point of an external face of a box belongs to exactly one boundary face of it", "statement": "set_bfaces_on_boxface adds boundary faces that have at least one point each, no two of them for the same other box; a point of the face is in the boundary face of the first other box in which the place just outside of it is found, or in the one with no other box. The loop of Coordinates_set_bfaces_oldWT gives this for all external faces and nothing on the others.", "quantifier": "all numbers of points and boxes, all answers of the search, all choices of external faces", "why_tests_cant": "A point that is in no boundary face gets no boundary condition, one that is in two gets the last one; both only change the solution near an edge.", "anchors": ["src/utility/Coordinates/Coordinates_set_bfaces.c:471-624", "src/utility/Coordinates/Coordinates_set_bfaces.c:735-751", "src/utility/Coordinates/Coordinates_set_bfaces.c:805-814"]}
{"id": "C146", "title": "Faces of different boxes with the same points are joined in pairs", "statement": "set_touching_bfaces_of_boxes_with_same_facepoints leaves every face either without another box, points and flags, or joined with a face of another box that is joined with it; one of the two sets the normal derivative and the other does not. For b0 = 0 the points of the two are in the same order at the same places, and no pair is left out: if all points of a face are on a face of another box, one of the two has been joined. The value returned is the number of pairs. Afterwards set_all_bfaces_with_ob_minus1_to_outerbound gives the faces that are left all their points and marks them, and nothing else.", "quantifier": "all numbers of boxes and points, all results of the search for the nearest point", "why_tests_cant": "The conditions at a face are wrong without an error message if two lists of points are not in the same order or a face is joined with the wrong one.", "anchors": ["src/utility/Coordinates/Coordinates_set_bfaces.c:1658-1802", "src/utility/Coordinates/Coordinates_set_bfaces.c:1806-1844"]}
{"id": "C147", "title": "Minimisation by golden sections, and the last step of a least squares fit", "statement": "golden returns a place inside the bracket with the value there, not above the value in the middle; if the function falls to z and rises after it, the place is within 2 tol |x|/(1-tol) of z; and the loop ends. dpythag(a,b) is the root of a^2+b^2. If A = U diag(w) V^T with orthonormal columns, dsvbksb gives the vector with the smallest residual, and of all such vectors the shortest.", "quantifier": "all functions, brackets and tolerances; all sizes, matrices with given decomposition, singular values that are 0 or not", "why_tests_cant": "A fit with a singular value of 0 that is treated wrongly still gives a vector, and golden looks at two points per pass that are easily swapped.", "anchors": ["src/utility/NumericUtils/golden.c:1-39", "src/utility/NumericUtils/dpythag.c:5-12", "src/utility/NumericUtils/dsvbksb.c:4-23"]}
{"id": "C148", "title": "Minimisation along lines in several dimensions", "statement": "linmin moves the point along the direction and replaces the direction by the step; the value is the one at the new point, not above the values at the old point and at the old point plus the direction; if there is one bottom along the line, the step goes there up to the tolerance of brent. powell never writes column 0 of the directions. If it returns, the value is the one at the point that is returned, not above the first value, after at most 200 sweeps, and the last sweep along the directions that are returned changed the value by no more than the tolerance. A direction is replaced only if it had the largest drop.", "quantifier": "all functions of n numbers, all n, points, directions and tolerances", "why_tests_cant": "The index ibig is 0 at the start of each sweep, and only arithmetic shows that it is never used as 0.", "anchors": ["src/utility/NumericUtils/linmin.c:8-62", "src/utility/NumericUtils/powell.c:6-56"]}
{"id": "C149", "title": "Newton's method with a given linear solver never makes the residual larger", "statement": "WT_newton returns for every function and every linear solver, and the sum of squares at the point returned is not above the one at the start. The value 0 means a root at the start; 1 to MAXITS a root, a point next to a root, a point where the line search fails (check=1), or a tiny step; -its-1 a failure of the linear solver in pass its; and MAXITS+1 that no root was found. If the linear solver gives a step to a root that is neither too long nor tiny, this root is returned after one pass.", "quantifier": "all functions of n variables, all linear solvers, all numbers of passes and tolerances, all starting points", "why_tests_cant": "The slope is taken as -2f, which holds only for an exact solution of the linear system; the tests use good linear solvers.", "anchors": ["src/utility/NumericUtils/WT_newton.c:13-214"]}
{"id": "C150", "title": "The derivatives of the map from (X, R, phi) to (x, y, z) and of the rescaling of B", "statement": "Away from X = R = 0, the tables dxyz and ddxyz are the first and second derivatives of the point xyz returned beside them, and the point is given by the conformal map b/2 (z^2 + z^-2) turned around the x axis by phi. The tables of the rescaling of B are its derivatives everywhere; it maps [0,1] onto itself, grows, and has slope 1/2 at both ends.", "quantifier": "all points except X = R = 0, all b, all paths through the point", "why_tests_cant": "The 54 entries were printed by a computer algebra system; one wrong sign spoils second derivatives at some points by a few percent only.", "anchors": ["src/utility/Coordinates/coordtrans_AnsorgXRphi.c:23-67", "src/utility/Coordinates/coordtrans_Bfunc.c:23-65"]}
{"id": "C151", "title": "The derivatives of the Ansorg coordinates in the four domains", "statement": "If the given derivatives of sigma are its derivatives and sigma(1,phi) does not depend on phi, the tables dXRphi and ddXRphi are the first and second derivatives of the point XRphi returned beside them. At A = 0 the square of X + i R is tanh((sigma + i pi B)/4), and at A = 1 the point is 1 in domain 0, i in domain 3, and on the diagonal in the domains 1 and 2.", "quantifier": "all surface functions sigma, all A, all B with 0 < B < 2, all phi, all paths through the point", "why_tests_cant": "About ninety formulas with square roots of tanh of complex numbers, where the derivative with respect to phi of the end point is left out on purpose.", "anchors": ["src/utility/Coordinates/coordtrans_AnsorgNS0.c:28-116", "src/utility/Coordinates/coordtrans_AnsorgNS1.c:28-116", "src/utility/Coordinates/coordtrans_AnsorgNS2.c:28-116", "src/utility/Coordinates/coordtrans_AnsorgNS3.c:28-116"]}
{"id": "C152", "title": "The composed Ansorg coordinates and their inverse", "statement": "In each of the four domains the function returns the point xyz with its first and second derivatives with respect to A, B, phi, also with the rescaling of B in front; the inverted tables are the first and second derivatives of A, B, phi with respect to x, y, z. On the axis (B = 0 or 1, in domains 0 and 3 also A = 1) the values of the neighbouring point at distance dequaleps are returned. Any other number of the domain stops the program.", "quantifier": "all surface functions, all b and dequaleps, all points with 0 < B < 2 off B = 1 (in domains 0 and 3 off A = 1) whose image is not X = R = 0; for the inverse also a nonzero determinant", "why_tests_cant": "The chain rule for second derivatives and the inversion run over stored halves of symmetric arrays; mixed-up indices give wrong derivatives only where the mixed terms do not vanish.", "anchors": ["src/utility/Coordinates/Coordinates_AnsorgNS.c:97-203"]}
{"id": "C153", "title": "Lists of boxes by attribute and by neighbourhood", "statement": "bladd_ifAttrib appends the numbers of exactly the boxes with the given value of the attribute, in increasing order, bladd_ifnotAttrib those of the others; bl2_ifAttrib and bl2_ifnotAttrib do the same within another list. bladd_neighbors adds each box behind a face once and keeps the old entries in front. bladd_neighbors_of_neighbors appends each neighbour of a neighbour that is neither a neighbour nor the box itself, once. All return the length of the list.", "quantifier": "all grids, all attributes, all faces (several faces may lead to the same box, faces without a neighbour have a negative number), all lists", "why_tests_cant": "Double faces, boxes that touch themselves and boxes that are both first and second neighbours occur only in special grids.", "anchors": ["src/main/MemoryMan/boxlists.c:23-133"]}
{"id": "C154", "title": "Coordinates that move with the particle: derivative tables and inertial frame", "statement": "The tables Dx, Dy, Dz and DDx, DDy, DDz of eval_THZ hold the first and second derivatives of the coordinates x, y, z with respect to (ts, r, theta, phi), and the second are symmetric. The particle is at x = y = z = 0 at all times. For the frequencies of a circular orbit the gradients of x, y, z are orthonormal at the particle in the Schwarzschild metric, and the first derivatives of their products vanish there.", "quantifier": "all masses, radii and frequencies and all points for the tables; all times and all orbits with 0 < 3M < R for the frame", "why_tests_cant": "The tables have 60 entries with up to 35 terms each; a wrong sign in one of them changes the source by an amount that looks like truncation error.", "anchors": ["src/physics/ScalarOnKerr/DV_CircSchwSource/THZ.c:26-356"]}
{"id": "C155", "title": "Effective source of the particle", "statement": "DPsi and DDPsi hold the derivatives of the singular field Q/rho, DW and DDW those of the window. The sums of eval_source are the wave operator of the Schwarzschild metric, (1/sqrt(-g)) d_i(sqrt(-g) g^ij d_j), applied to the product of window and singular field. eval_source never takes the sums on the axis; it takes them at the point asked for unless that is near the particle or the axis. SourceInKerrSchild goes to spherical coordinates correctly at every point. current_x, current_y, current_z is where the coordinates that move with the particle vanish.", "quantifier": "all points with rho, r, r-2M, sin(theta) not zero for the source; all powers N >= 0 and all widths of the window except zero; all points (x,y,z) for the angles; all times for the particle", "why_tests_cant": "The source has no other implementation to compare with, and errors in the terms with derivatives of the window show up only in the region where the window falls off.", "anchors": ["src/physics/ScalarOnKerr/DV_CircSchwSource/Source.c:57-272", "src/physics/ScalarOnKerr/DV_CircSchwSource/Singular.c:24-62", "src/physics/ScalarOnKerr/DV_CircSchwSource/Window_DONUT.c:25-78", "src/physics/ScalarOnKerr/DV_CircSchwSource/Schwarzschild.c:73-109"]}
{"id": "C156", "title": "Parameters and kept results of the effective source", "statement": "set_parameters sets up a circular orbit with the radius that is asked for, which is at least 6M. A call of eval_source, eval_singular or eval_WPsi gives the value for the point that is asked for and for the current parameters, whatever was computed before.", "quantifier": "all masses, charges, radii; all sequences of calls", "why_tests_cant": "Runs use one mass, M = 1, set the parameters once, and call only eval_source.", "anchors": ["src/physics/ScalarOnKerr/DV_CircSchwSource/Constants.c:19-37", "src/physics/ScalarOnKerr/DV_CircSchwSource/THZ.c:26-34", "src/physics/ScalarOnKerr/DV_CircSchwSource/Singular.c:24-42", "src/physics/ScalarOnKerr/DV_CircSchwSource/Source.c:46-159"]}
{"id": "C157", "title": "The finite difference Jacobian", "statement": "fd_jacobian returns x unchanged and sets df[i][j], for i and j from 1 to n, to (F_i(x + h e_j) - fvec[i])/h with h = max(1e-7 |x[j]|, 1e-10) > 0, and nothing else. If fvec is F(x) and F can be differentiated, df[i][j] is the partial derivative of F_i at a point between x and x + h e_j; it is exact for functions that are linear in x_j. fd_jacobianP does the same with h times 10^k, where k < 8 is the smallest one for which some component of the function changes (7 if none).", "quantifier": "all functions, all points, all n", "why_tests_cant": "The step depends on each coordinate; whether x is restored in all cases, and the larger steps for flat functions, show only for special points.", "anchors": ["src/utility/NumericUtils/fd_jacobian.c:10-58"]}
{"id": "C158", "title": "Counting values that are not finite", "statement": "NumberChecker_CheckIfFinite returns the number of points where the variable is not finite or too large, in all boxes that have it, without any access out of bounds; the sum over a list of variables is the sum of these numbers. If ExitIfNAN finds something in a pass of the evolution loop, this pass is the last one.", "quantifier": "all grids, all values, all numbers of points per box; all states of the evolution", "why_tests_cant": "NaNs that reach from the end of one box into the next occur only when a run has already gone wrong.", "anchors": ["src/utility/NumberChecker/NumberChecker.c:11-159", "src/main/main/main.c:440-475"]}
{"id": "C159", "title": "The time step fits into the required time", "statement": "With a scaling other than no ParManipulator sets a positive dt that is at most dtfac*coeff/n1^2 (or dtfac*coeff/n1) for every box, and such that the required time, if it is positive, is a whole number of steps. This number is the smallest one possible for the box with the smallest step, or one more than needed if the limit itself fits.", "quantifier": "all lists of boxes, all positive coefficients and factors, all required times", "why_tests_cant": "Rounding to a whole number of steps interacts with the minimum over the boxes.", "anchors": ["src/utility/ParManipulator/ParManipulator.c:100-125"]}
{"id": "C160", "title": "The integral in three dimensions", "statement": "integral3D gives the iterated integral of the integrator it is given: the integral over z, with limits that depend on x and y, is integrated over y, with limits that depend on x, and the result over x. If the integrator is exact for these functions, so is the result. It does not depend on what was computed before.", "quantifier": "all integrators that choose their points in any way, all integrands and limits without side effects, all values of the static variables", "why_tests_cant": "The function passes x, y and the limits in static variables; which values are seen depends on the order of the calls in the integrator.", "anchors": ["src/utility/NumericUtils/integral3D.c:20-85"]}
{"id": "C161", "title": "Dissipation terms of the evolution", "statement": "addDissipation adds the factor times the sum of the dissipative derivatives of the current fields to each of the new variables at each point, and changes no other variable but its temporary storage. With a factor that is not positive nothing changes.", "quantifier": "all lists of variables, all values, all derivative operators, all boxes", "why_tests_cant": "Temporary storage that is shared with variables would show only in runs where both are switched on.", "anchors": ["src/utility/evolve/addDissipation.c:11-78"]}
{"id": "C162", "title": "Numbers written for a variable in a box", "statement": "The numbers written by output0d_boxvar are the maximum, the minimum, the root mean square, the mean of the absolute value, the mean and the volume integral of the variable: the maximum and minimum are attained and no value is beyond, the mean is between them, and |mean| <= meanAbs <= rms.", "quantifier": "all values in a box with at least one point; all positive linear integrals, and the sums over points", "why_tests_cant": "The two kinds of norm use the same code with different functions; most runs use only one.", "anchors": ["src/utility/output/output0d.c:26-145"]}
{"id": "C163", "title": "Search for the extremum of a variable", "statement": "The function that box_extremum_of_F gives to the Newton solver is the gradient inside the box; outside of it each component is the one at the closest point of the box times the distance from the side, so that the solver is not led further out. The point that is returned is in the box, the value is the one there, and the result tells which sides were crossed.", "quantifier": "all boxes, all gradients, all points, all results of the solver", "why_tests_cant": "The continuation outside the box matters only if the solver leaves the box on its way.", "anchors": ["src/utility/Coordinates/find_extrema.c:22-147"]}
{"id": "C164", "title": "Overlapping shells", "statement": "ScalarOnKerr_setup_boxes moves each shell as a whole and leaves the first one in place, so that the overlap with the shell before holds two points of each and at least one common point: the first point is at or below the last but one of the shell before, the second is at or below the last one, and one of these pairs coincides.", "quantifier": "all numbers of shells, all positions of their points", "why_tests_cant": "Runs use two or three shells of the same size.", "anchors": ["src/physics/ScalarOnKerr/setupgrid.c:26-46"]}
{"id": "C165", "title": "The advection test", "statement": "Where the first coordinate is the distance from the origin, the function used as solution in ConvTest solves the equation that is evolved: its derivative with respect to time is the right hand side computed from its own gradient. The step sets the last surface to zero and all other points to the old value plus dt times the right hand side (the right hand side itself for dt = 0). The error is zero only where the values are those of the solution.", "quantifier": "all times, all points with r > 0; all fields, all numbers of points, all dt", "why_tests_cant": "A wrong solution shows up as a convergence order that looks too low; the boundary overlaps the loop over all points.", "anchors": ["src/physics/ConvTest/ConvTest.c:33-53", "src/physics/ConvTest/ConvTest.c:94-104", "src/physics/ConvTest/ConvTest.c:135-147"]}
{"id": "C166", "title": "LU decomposition of Numerical Recipes", "statement": "For every invertible matrix ludcmp returns, lubksb overwrites every right hand side with the solution, and d times the product of the diagonal is the determinant. ludcmp stops exactly for matrices with a row of zeros. In all other cases lubksb solves the equations of a matrix that differs only in some entries to which TINY was added, and only if the matrix is singular. ludcmpSing reports the first column or row of zeros and leaves the matrix as it was, else it does the same as ludcmp.", "quantifier": "all matrices of all sizes over an ordered field, all right hand sides, all contents of uninitialised memory", "why_tests_cant": "Pivoting and the shortcut for leading zeros of the right hand side depend on the values.", "anchors": ["src/utility/NumericUtils/ludcmp.c:8-136", "src/utility/NumericUtils/lubksb.c:3-22"]}
{"id": "C167", "title": "Byte order of VTK files", "statement": "For every choice of text or binary and double or float, the functions that write variables and points to VTK files append exactly the chosen numbers in order, in a binary file with the most significant byte first on every machine, and stop for contradictory choices.", "quantifier": "all machines, all buffers, strides, offsets and lengths, all choices of format", "why_tests_cant": "Tests run on one machine, so that only one of the byte orders is ever used.", "anchors": ["src/utility/output/VTK_out.c:28-119", "src/utility/output/VTK_out.c:122-255"]}
{"id": "C168", "title": "Vectors, matrices and tensors of Numerical Recipes", "statement": "For all ranges of indices with at least one row (and column, for tensors), vector, matrix, submatrix, convert_matrix and f3tensor return pointers such that every element with indices in the ranges is inside the allocated block, different elements are at different places, rows follow each other without a gap, and the free functions pass the starts of the blocks to free. The casts of a[1][1] to an array with n columns find the same elements if the matrix was made with n columns.", "quantifier": "all ranges of indices, also negative ones, all contents of uninitialised memory", "why_tests_cant": "A wrong offset by one element usually hits other allocated memory and goes unnoticed.", "anchors": ["src/utility/NumericUtils/nrutil.c:25-295", "src/utility/numerics/NumericUtils_shims.c:81-105", "src/utility/numerics/NumericUtils_shims.c:146-201"]}
{"id": "C169", "title": "Solvers of the Templates library", "statement": "For every solver of the library, every matrix and every preconditioner, the wrappers give the solver the products alpha A x + beta y and M b through global variables, copy its result into x, and return its status. Calls may be nested up to the limit: the global variables of the outer call are as before after an inner call. A solver used as preconditioner computes a fixed function of the right hand side.", "quantifier": "all solvers that use matvec and psolveLEFT in any order and number, all linear operators and preconditioners, all depths of nesting", "why_tests_cant": "The library is a closed part that calls back, and nested calls happen only for one choice of preconditioner.", "anchors": ["src/utility/GridIterators/wrappers_for_templates.c:24-133", "src/utility/GridIterators/wrappers_for_templates.c:196-487", "src/utility/GridIterators/wrappers_for_templates.c:903-969"]}
{"id": "C170", "title": "The test of the time integrators", "statement": "For every choice of the method and every positive time step up to 1, the test problem du/dt = -u is solved such that each step multiplies u with the Taylor polynomial of exp(-dt) up to the order of the method (for rk5 with the additional term dt^6/600), the time advances by dt, and the normalised error that the test reports after n steps is at most 3 t exp(3 t dt^p) with t = n dt, when the order given is the order p of the method.", "quantifier": "all methods, all time steps in (0,1], all numbers of steps, all grids and numbers of points", "why_tests_cant": "The test itself is run with one method and a few time steps and its output is looked at by eye; it shows no bound.", "anchors": ["src/utility/evolve/evolve_test.c:14-42", "src/utility/evolve/evolve_test.c:80-103", "src/utility/evolve/rk.c:40-112"]}
{"id": "C171", "title": "Least squares fit with a singular value decomposition", "statement": "For all data, weights and basis functions, dsvdfit decomposes the matrix f_j(x_i)/sigma_i and returns the weighted sum of squares of its result. If the decomposition is right, the coefficients use no direction with a singular value below 1e-8 of the largest one, and no coefficients without such directions have a smaller sum of squares. Without small singular values other than 0 the sum of squares is the least of all.", "quantifier": "all numbers of data and of basis functions, all data, weights and functions, all contents of uninitialised memory", "why_tests_cant": "A fit that is not optimal still looks like a fit.", "anchors": ["src/utility/NumericUtils/dsvdfit.c:5-40", "src/utility/NumericUtils/dsvbksb.c:4-23"]}
{"id": "C172", "title": "Parameters taken from another checkpoint", "statement": "For every list of parameter names and every number of boxes, checkpoint_interpolate_Vars_get_Pars builds the list of these names and of the eight parameters with the position of each box within its buffer, and gives each parameter in it the value of the other checkpoint; all other parameters keep their values.", "quantifier": "all lists of names, all numbers of boxes, all data bases, all states of NextEntry", "why_tests_cant": "The buffer is sized with a guess for the length of a name; an overflow by a few bytes does not show.", "anchors": ["src/utility/checkpoint/read_other_checkpoints.c:51-96"]}
{"id": "C173", "title": "Output of chosen variables right now", "statement": "For every list of names, time and iteration, quick_Vars_output calls write_grid with these names in the four output lists, with output in every iteration and with the time and iteration given; afterwards the nine parameters it changed, the time and the iteration are as before, whatever write_grid did. quick_VarList_output makes the list of the names of its variables within its buffer.", "quantifier": "all names, times, iterations, data bases, all functions in place of write_grid, all lists of variables", "why_tests_cant": "A parameter that is not restored changes only later output.", "anchors": ["src/utility/output/quick_out.c:22-73", "src/utility/output/quick_out.c:93-110"]}
{"id": "C174", "title": "Planes written for gnuplot", "statement": "For every size of a box, each of the three directions and every plane in the box, write_plane writes each point of this plane once and no other points, in rows with an empty line after each row and one more empty line at the end.", "quantifier": "all sizes of a box, all directions, all planes", "why_tests_cant": "A point left out at the edge of a plane does not show in a picture.", "anchors": ["src/utility/output/gnuplot_out2d.c:40-81"]}
{"id": "C175", "title": "Lines written for xgraph", "statement": "For every size of a box, each of the three directions and every line in the box, write_line writes the points of this line in their order and no other points, and an empty line at the end.", "quantifier": "all sizes of a box, all directions, all lines", "why_tests_cant": "A line through the wrong point looks like any other line.", "anchors": ["src/utility/output/xgraph_out1d.c:39-96"]}
