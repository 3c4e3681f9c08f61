# Formal model of sgrid in Lean 4

## Layout

* `lean/Verif/Model/*.lean`  the model. Every definition cites the file and lines of
  `/repo` it transcribes and says where it simplifies.
* `lean/Verif/Spec/*.lean`   notions the properties are stated with.
* `lean/Verif/Lemmas/*.lean` helper lemmas.
* `lean/Verif/Props/*.lean`  the property theorems, further small specifications, and a
  concrete non-trivial `example` beside each theorem.
* `properties.jsonl`         the properties C01, C02, ...
* `MANIFEST.json`            property -> theorem names and status.
* `AXIOMS.md`                the axioms of every theorem named in `MANIFEST.json`.
* `seeded/LOG.jsonl`         log of wrong programs tried against the theorems.

## Trusted base

1. Lean's kernel (4.33.0). Nothing in the build uses `native_decide`, `bv_decide`,
   `sorry`, `admit` or own axioms. Finite tables are checked by `decide +kernel`, that is
   by evaluation inside the kernel.
2. The axioms `propext`, `Classical.choice` and `Quot.sound`. `AXIOMS.md` lists for every
   theorem which of them it uses. No theorem uses anything else.
3. The statements: the definitions in `Spec` and those at the top of the `Props` files,
   and Mathlib's definitions of real numbers, derivatives, integrals, polynomials.
4. The transcription of C into Lean. It was done by hand, line by line, without running
   the code. Each definition cites its lines so that it can be compared with the source.
   `C`'s own semantics (`int`, arrays, `strstr`, evaluation order) is trusted to be what
   the next section says.

## General modelling decisions

* **Strings** are `List Char` without NUL. `strstr`, `strcmp`, `strlen` are the obvious
  list functions. Static variables become explicit state.
* **Doubles** are elements of `ℝ`, or of an arbitrary (ordered) field where nothing else
  is needed. Rounding, overflow and NaN are NOT modelled: numerical theorems are about
  exact arithmetic. The exceptions are C22, C76 (bit patterns of doubles), C23, C64
  (bytes of doubles in files).
* **Outcomes**: `errorexit` is `abort`; undefined behaviour (read of freed, unallocated or
  uninitialised memory, access outside an array, NULL call, integer division by zero) is
  `ub`. Both are visible in the statements.
* **Function pointers** (right hand sides, linear operators, solvers, user hooks) are
  arbitrary functions.
* **Memory** exhaustion is not modelled. `int` is unbounded except where the property is
  about bits or overflow.
* **OpenMP** loops are interleavings of atomic loads and stores in one order seen by all
  threads where the property is about schedules, and sequential elsewhere.
* **Loops** that need not end carry a number of rounds ("fuel"). The theorems either hold
  for every number, or say which number suffices.
* **Printing** to the terminal, timing and leaks are left out. Files are modelled where the
  property is about them.

## What is modelled

Paths are below `/repo/src`.

| code | model | properties |
|------|-------|-----------|
| main/main/parameters.c (database, caches, parser, lists of words, iteration) | Params, ParFile, NextEntry, ParamAlias | C01-C07, C59 |
| main/main/main.c (evolution loop, initial directories, lines for MPI ranks) | Evolve, CheckpointFiles, Skeleton | C08, C26, C65 |
| main/main/skeleton.c | Skeleton | C09 |
| main/main/tensors.c | Tensors | C10, C11 |
| main/main/variables.c (variables, lists, arithmetic, swap) | Variables, VarList, VarArith, ParLoops | C12-C15, C61, C62 |
| main/main/utilities.c (strings, powers of two, finite numbers, minima, copies) | Utilities, Endian, GridPoints | C22, C49, C55-C57, C75, C76 |
| main/MemoryMan/storage.c, grid.c (storage, copies of grids), points.c, list_templates.c, loops | Storage, ReadMatrix, PointList, IntList, Index, Lines | C16-C21, C63, C74 |
| utility/checkpoint (all of writing and reading, endianIO.c, wolfio.c) | Checkpoint, CheckpointFiles, Endian, Wolfio, Evolve | C23-C25, C60, C64, C65 |
| utility/evolve (rk.c, icn.c, evolve.c) | RungeKutta | C27-C30, C66, C67 |
| utility/Spectral/explicit_Cheb_trafos.c, explicit_Four_trafos.c, finite_differences.c, matrices.c, diffmatrices.c, derivs.c, integrals.c, interpolate.c, filters, spec_coeffs.c, FFTs_for_sgrid.c (without FFTW3) | Cheb, Fourier, FiniteDiff, Lines, Matrices, Integrals, SurfaceInt, SphInt, Fft, InPlane | C31-C41, C68, C70-C73, C100, C102, C104, C109 |
| utility/LinAlg/SparseVector_utils.c, ReadMatrixFrom_Fx.c, umfpack_di_interface.c, umfpack_dl_interface.c (matrix formats, solvers from lines and columns) | Sparse, ReadMatrix, Umfpack | C42-C44, C84, C97 |
| utility/GridIterators/utility.c, bicgstab.c, SOR.c (matrix_SOR), Newton.c, WTsolver.c (WTiterator), wrappers_for_UMFPACK.c (direct solvers), wrappers_for_JacobiPrecon.c, sgrid_GridIterators.h | GridArrays, Bicgstab, Sor, Newton, WTiter, Umfpack, Jacobi | C45, C50, C82, C83, C91, C92, C96-C98 |
| utility/numerics/lu.c, rt_brak.c, rtbrent_brak.c, newton1d_brak.c, minbrent_brak.c, attenuation.c, GSL_odeint.c, newton_linesearch.c | LU, RootFind, Minimize, Attenuation, Ode, NewtonLine, RangeExtra | C46, C47, C85-C87, C90, C93-C95 |
| utility/NumericUtils/zbrac.c, zbrent.c, rtsafe, brent.c, mnbrak.c, integral.c, integrals_1Dgrid.c, rkck.c, rkqs.c, odeintegrate.c | RootFind, Minimize, Quadrature, Ode | C47, C85-C89 |
| utility/output/output.c (times of output, lists of variables) | Output | C48, C58 |
| utility/Coordinates/coordtrans_CubedSphere.c, ComplexFunctions.c, doubleCovering.c, Coordinates.c (transformations with derivatives up to line ~2200, compute_xyz_dXYZdxyz_ddXYZddxyz, generic derivatives), cartesianDerivs.c, transfDerivs.c, findXYZ_of_xyz.c, find_ijk.c, Singularities.c | CubedSphere, ComplexFun, DoubleCover, CoordTrafo, CartDerivs, TransfDerivs, FindXYZ | C51-C53, C69, C77-C81, C99, C103 |
| utility/boundary (boundary faces, boundary.c, radiative.c, excision.c, BCs.c, BCs_from_bfaces.c) | Storage, Boundary, Interbox | C18, C19, C101, C105 |
| physics/BSSN/BSSN_AlgConstr.c | Bssn | C54 |
| physics/BSSN/BSSN_init.c, BSSN.c (BSSNtoADM, ADMtoBSSN) | BssnInit | C106 |
| physics/BSSN/BSSN.c (filters), ScalarOnKerr.c (filter_unew, filter_unew_radially), utility/Coordinates/coordFilters.c | Filters | C107 |
| utility/s2kit: s2kit_primitive.c, s2kit_pmls.c, s2kit_makeweights.c, s2kit_naive_synthesis.c, YlmFilter.c; PI = 3.14159265358979 and 0.707106781186547 stand for π and 1/√2 | Ylm | C108 |
| physics/ModeComputer/SpinWeightedSphericalHarmonics.c | Wigner | C110 |
| physics/ModeComputer/ModeComputer.c | Modes | C111 |
| physics/ADMvars/ADMconstraints.c (at one point, one definition for every assignment) | AdmConstraints | C112, C113 |
| physics/BSSN/BSSN_rhs.c (at one point, one definition for every assignment; the derivatives computed in lines 656-703 are input) | BssnRhs | C114-C116 |
| physics/SingleBH/SingleBHKS.c, physics/ScalarOnKerr/Kerr3d.c (at one point, one definition for every assignment) | KerrData | C117-C119 |
| physics/SingleBH/SingleBHisotropic.c, SingleBH.c (lines 41-84) | IsotropicBH | C120 |
| physics/Z4secondO/Z4secondO_rhs.c (at one point, one definition for every assignment; the derivatives computed before are input) | Z4Rhs | C121 |
| physics/TestID/TestID_1dGaugeWave.c, TestID_1dLinearWave.c, TestID_RandomNoise.c, TestID.c (lines 44-85) | TestID | C122-C124 |
| physics/ScalarWave/ScalarWave.c (lines 17-61, 191-228, 279-281), testwave.c | ScalarWave | C125, C126 |
| physics/ADMvars/ADMenergy_spheric_intergrand.c, utility.c | AdmEnergy | C127, C128 |
| physics/ScalarOnKerr/Kerr.c (at one point, one definition for every assignment) | Kerr4 | C129 |
| physics/ScalarOnKerr/ScalarOnKerr.c (lines 592-835 and 2317-2476 at one point; derivatives and source are input) | ScalarKerr | C130, C131 |
| physics/ScalarOnKerr/ScalarOnKerr.c (boundaries: lines 864-957, 1256-1681, 2504-2828, 3008-3274) | ScalarBoundary | C132-C134 |
| physics/ScalarOnKerr/ScalarOnKerr.c (lines 437-588 without the calls into DV_CircSchwSource) | ScalarSource | C135 |
| physics/Poisson/Poisson.c (lines 465-618), Poisson2/Poisson2.c (255-398), Poisson3/Poisson3.c (330-425), Poisson3_BCs.c, at one point | Poisson | C136 |
| physics/PN_CircularOrbit_GWs/PN_CircOrbit.c (lines 26-529) | PNOrbit | C137 |
| physics/PN_CircularOrbit_GWs/compute_GWs.c | PNWaves | C138 |
| utility/Spectral/SphericalHarmonics.c | SphHarm | C139, C140 |
| utility/Coordinates/FSurf_CubedSpheres.c:19-202 | SphHarm | C140 |
| utility/Coordinates/FSurf_CubedSpheres.c:205-449 | FSurfCoeffs | C141 |
| utility/Coordinates/setup_CubedSpheres.c:11-99, 137-346, 393-609 | CubedSetup | C142 |
| utility/Coordinates/Coordinates_set_bfaces.c:626-732, 1396-1652 | BfaceFlags | C143, C144 |
| utility/Coordinates/Coordinates_set_bfaces.c:471-624, 735-751, 805-814 | FaceSplit | C145 |
| utility/Coordinates/Coordinates_set_bfaces.c:1656-1844 | TouchFaces | C146 |
| utility/NumericUtils/golden.c, dpythag.c, dsvbksb.c, linmin.c, powell.c | MultiMin | C147, C148 |
| utility/NumericUtils/WT_newton.c | WTNewton | C149 |
| utility/Coordinates/coordtrans_AnsorgXRphi.c, coordtrans_Bfunc.c, coordtrans_AnsorgNS0.c to coordtrans_AnsorgNS3.c, Coordinates_AnsorgNS.c:97-203 | AnsorgXR, AnsorgNS, AnsorgFull | C150, C151, C152 |
| main/MemoryMan/boxlists.c | BoxLists | C153 |
| physics/ScalarOnKerr/DV_CircSchwSource: THZ.c, Singular.c, Window_DONUT.c, Source.c, Constants.c, Schwarzschild.c (lines 73-109) | Thz, DVSource, DVCache | C154, C155, C156 |
| utility/NumericUtils/fd_jacobian.c | FdJacobian | C157 |
| utility/NumberChecker/NumberChecker.c | NumberChecker | C158 |
| utility/ParManipulator/ParManipulator.c:100-125 | TimeStep | C159 |
| utility/NumericUtils/integral3D.c | Integral3D | C160 |
| utility/evolve/addDissipation.c | Dissipation | C161 |
| utility/output/output0d.c:26-145 | Output0d | C162 |
| utility/Coordinates/find_extrema.c:22-147 | FindExtrema | C163 |
| physics/ScalarOnKerr/setupgrid.c:26-46 | ShellSetup | C164 |
| physics/ConvTest/ConvTest.c | ConvTest | C165 |
| utility/NumericUtils/ludcmp.c, lubksb.c | NrLu | C166 |
| utility/output/VTK_out.c:28-255 | VtkOut | C167; the bytes of numbers and the formats of fprintf are parameters |
| utility/NumericUtils/nrutil.c, numerics/NumericUtils_shims.c:81-105, 146-201 | NrUtil, NrTensor | C168; pointers outside their block are allowed while they are not used |
| utility/GridIterators/wrappers_for_templates.c:24-133, 196-487, 903-969 | Templates | C169; the solvers of the library are arbitrary, variable lists are flat arrays (C45), all of the same length |
| utility/evolve/evolve_test.c:14-42, 80-103 | EvolveTest | C170; the printing is left out, boxes that are not active are left alone, the order is a natural number |
| utility/NumericUtils/dsvdfit.c | SvdFit | C171; dsvdcmp is an arbitrary function, the basis functions have no state |
| utility/checkpoint/read_other_checkpoints.c:51-96 | OtherCheckpoint | C172; reading the file and the interpolation are left out |
| utility/output/quick_out.c:22-73, 93-110 | QuickOut | C173; write_grid is an arbitrary function |
| utility/output/gnuplot_out2d.c:40-81 | Gnuplot2d | C174; only which points are written in which order, not the numbers in a line |
| utility/output/xgraph_out1d.c:39-96 | Xgraph | C175; as for C174 |

## What is not modelled

* The physics modules other than ModeComputer, ADMconstraints.c, ADMenergy_spheric_intergrand.c, ADMvars/utility.c, BSSN_AlgConstr.c, BSSN_init.c, BSSN_rhs.c, BSSNtoADM, Z4secondO_rhs.c, SingleBH, Kerr3d.c, Kerr.c, TestID, ScalarWave.c, testwave.c, the right hand sides, boundary conditions, test source and filters in ScalarOnKerr.c, the equations in Poisson, Poisson2 and Poisson3, PN_CircOrbit.c, compute_GWs.c, DV_CircSchwSource, setupgrid.c in ScalarOnKerr, ConvTest.c and the filters in BSSN.c, and the Mathematica scripts.
* External libraries (UMFPACK, SuiteSparseQR, GSL, FFTW, MPI, templates) and the code that
  only passes data to them. Where needed they are arbitrary functions.
* The FFTW3 versions of the transforms in FFTs_for_sgrid.c, the transforms over the whole sphere in s2kit (sgrid_s2kit.c).
* The filling of boundary faces from the geometry of the boxes in populate_bfaces_AR.c, and in Coordinates_set_bfaces.c
  the search for external faces, the comparison of points (touch, sameX, same_fpts) and oX, oY, oZ; the wrappers in Coordinates_AnsorgNS.c that return one entry of the tables, the choice of lmax and of the variables
  for the surfaces of cubed spheres (FSurf_CubedSpheres.c:451-595).
* Output formats (headers of VTK files, xg, gnuplot), the shell commands behind `system`.
* The Numerical Recipes routines for several dimensions (most of newton_lnsrch.c, dsvdcmp.c).

## Where the code disagrees with the property

Every item is a theorem (`..._counterexample`, or named in the note in `MANIFEST.json`),
unless it is marked with (r), which means: seen while reading, not modelled.

Parameters and variables
* Getv takes a word that is a suffix of a longer entry for the entry (C04). Appends
  inherits this (C06).
* A list with a leading blank makes NextEntry return entries without end (C05).
* Iterated parameters with lists of different length go beyond the end of the list (C07).
* A parameter file without `=` makes the reader leave its buffer (C03).
* Sets(n, Gets(n)) reads freed memory (C59).
* get_par_from_str dereferences NULL for empty strings and cuts values (C75).
* Tensor type `(ab)(ij)` has a wrong parity, tensors.c:269-270 (C10).
* AddDuplicate of a variable from an incomplete tensor copies foreign components (C12).
* AddConstantVar loses the flag in restarts (C61).
* vldrop with a component that is not the first; vlpushvl(v,v) (C13). pushlist(v,v) and
  droplist(v,v) (C63).
* vladd and similar with operands at earlier places of the result list (C14).
* vlswap shares its temporary variable between threads, variables.c:643 (C62).
* DuplicatePointList writes beyond its array for more than two boxes; the loop over a point
  list reads the list of a box that has none (C17).
* (r) full names are cut at 99 characters; remove_bface leaves `ofi` of neighbours as it was.

Checkpoints and evolution
* no_read_parlist works only if it contains itself (C25).
* A full disk is not noticed and replaces a good checkpoint (C24).
* An interrupted `cp -pr` loses the checkpoint at the next start (C65).
* The list of parameters to take from another checkpoint has no room for its end without boxes, and an empty list
  stops the program (C172). (r) new parameters in the other checkpoint change npdb for both data bases.
* checkpoint_dt < dt and checkpoint_di = 0 divide by zero (C60).
* Lists of output variables with two blanks (C58).
* (r) quick_Vars_output sets arrange_as_1d in 3dformat, which write3d_boxvar uses only together with fakepoints.
* The c arrays of rk1, rk2, rk4a, rk5 are wrong (C28, they are not used).
* Low-storage RK4 adds to a field after the algebraic conditions (C29).
* ICN evaluates all right hand sides at the old time (C66).
* u_p is NULL in the first step with checkpoint_restart_it <= 0 (C67).
* boundary = constant with a Runge-Kutta method returns the old variable as right hand
  side, simpleExcision has the same fault (r); radiative_analytic reads from a NULL pointer
  after a restart at a time other than 0 (C101).
* BSSN_filter_type = simple filters BSSNvars instead of the list that is passed (C107).
* (r) with --keep_previous a restart removes an outdir that may hold a newer checkpoint.

Spectral methods
* four_eval_alt loses the highest frequency (C33); four_basisfunc uses X instead of X-a
  (C38).
* fdcentered on non-uniform points is not exact on quadratics (C40); the filter for finite
  differences does nothing, initfiltermatrix leaves old entries, filt > n1 writes c[-1]
  (C39).
* spec_Deriv1/2 with matrices in direction 1 with output = input (C41).
* The FFTs accept one Fourier point and two ChebExtrema points, but give wrong coefficients
  and write behind the array (C102).
* spec_allDerivs stops for orders other than 123 with FFTs (C72), integrals stop for
  finite differences (C73).
* spec_sphericalDF2dIntegral leaves out a mode if n2 % 4 = 1 (C109).
* Wigner_d_function_PG (not used) is not zero for l < |s| (C110).
* (r) the static buffers of the `_diffmatrix` routines are shared by threads;
  spec_allDerivs_diffmatrix keeps the first value of second_deriv_order; boxes with the
  finite difference bases call a NULL pointer in make_grid.

Linear algebra and solvers
* vector_times_SparseMatrixLines clears too few entries (C42), its OpenMP version has a
  race (C43).
* SetMatrixLines_slowly without LEVEL6_Pragmas copies the grid before setting vlx to zero
  (C44).
* lu_det of a singular matrix is not zero (C46).
* bicgstab returns itmax+1 when it did not converge and -11 after an early success (C50);
  matrix_SOR also returns itmax+1 (C92).
* Newton calls the next linear solver with a stale right hand side; backtracking can
  increase the residual (C91).
* newton_linesearch reports success without a root if the step is tiny or the matrix is
  singular (C94); the extrapolation out of the range reads an uninitialised variable
  (C95).
* WTiterator accepts equal residuals and can go back and forth for ever (C96).
* A negative LinAlg limit for dropping entries makes set_umfpack_*_matrix_from_lines write
  beyond its arrays (C97).
* The error message for a singular diagonal in linSolve_with_Jacobi_precon cannot occur;
  the qmr and bicg wrappers with Jacobi preconditioner use a NULL or freed pointer (C98).
* minbrent_brak reads an uninitialised variable (C86).
* rombintegral with max < 5 returns uninitialised memory; integrate_simpson_old reads
  beyond the last point (C88).
* odeintegrate: dxsav = 0 does not keep the first point; kmax < 0 writes to the arrays
  (C89). The GSL version always reports success (C93).
* The accuracy of newton1d_brak can be missed by any factor (C85).
* (r) copy_*_LEVEL3 only call errorexit; the shims rkqs, zbrac_P do nothing. linesrchP can
  loop for ever if it is called with a positive slope. The first return of WTsolver leaks
  memory.

Coordinates
* The radius row of PolarCE uses the wrong argument, Coordinates.c:129-130 (C78).
* Spherical3: d2phi/dxdy contains tan(phi) (C79).
* At the poles of the cubed sphere angles arbitrary numbers are returned (C81).
* Generic second derivatives are zero if only they are generic and
  CoordinateTransforms_stored = no; a singular matrix of first derivatives gives no error
  (C69).
* X_of_x_forgiven_YZ and Y_of_y_forgiven_XZ count some failures of Newton's method as
  success, so that b_X_of_x_forgiven_YZ accepts a wrong point (C103).
* FPsi_1Dinterp_for_bface stops the program at the first point, so two equal coordinates
  (e.g. sameX and sameY) cannot be used; FPsi_copy_for_bface reads index -1 when a point has no
  partner; set_interbox_BCs_for_bface with setnormalderiv on a face that does not touch does the
  interpolation and then stops; set_interbox_BC_onface puts its argument into a field of one bit,
  so 2 means 0 (C105).
* (r) set_box_CI_pars passes a wrong size to strncat.

Constraints
* The normalised constraints with TermByTerm lose terms and can be zero where the constraints
  are not: RB, codelKB and codelKC are taken for symmetric (C113).
* With rho and without S dtrKdt has no matter term; with S and without rho a null pointer is
  read (C112).
* recomputegzz in BSSN_rhs.c:3090-3094 adds 1 to the quotient instead of to its numerator, so
  that the determinant is not 1 (C116).
* SingleBHKS.c:448-503: with spin, the derivatives of the conformal factor `1 + 2M/r` are computed with `x/r` for the
  gradient of Kerr's radius `r` (C117).
* SingleBHKS.c takes the parameter for the spin as Kerr's `a`, Kerr3d.c and Kerr.c divide it by the mass (C119).
* (r) Z4secondO_rhs.c takes the metric for the physical one: the factor psi^4 is commented out in the script, but the
  lapse still contains a power of psi. The shift is never evolved.
* ADMenergy_spheric_intergrand.c has det(gamma) where the surface element has its square root: at radius r the energy of a black
  hole is M (1 + M/(2r))^7 (C127).
* ScalarOnKerr.c:744-752 does not set psixy to psizy, which lines 783-788 read if ScalarOnKerr_Pi_def is ScheelsPi; line 728 reads
  cphix in place of cphiz (C131). (r) The latter is not reached because startup registers the other function.
* ScalarOnKerr.c:2570 reads the shift and phi at `[i]`, where `i` is n1-1, instead of `[ijk]`: the rate of psi on the outer boundary has the
  shift term of one point for the whole sphere (C133).
* ScalarOnKerr.c:2615 and 2792 (set_psi_Pi_phi_boundary, set_psi_Pi_phi_boundary_CP) take nPi and nphi for rates also with dt different
  from 0, where they are new values (C133).
* DV_CircSchwSource/Constants.c:28 multiplies the radius by M once more: ScalarOnKerr.c:461 passes r0 = 10 M, and the
  orbit is at 10 M*M; line 21 compares the radius before the multiplication, so that an orbit inside the hole is
  accepted for M = 1/10. The charge that is passed is not used (C156).
* DV_CircSchwSource: eval_singular copies x, y, z before it calls eval_THZ, and eval_WPsi copies W and Psi before they
  are computed; only eval_source calls eval_THZ first. The results that are kept for the point of the last call
  are also used after a change of the parameters (C156).
* NumberChecker.c:90-95 prints the end of a row of bad points with the arrays of the current box, also when the row
  ended in the box before: it reads beyond the end of a smaller box, and shows a value of the wrong box (C158).
* NumberChecker_ExitIfNAN is meant to prevent output of NaNs, but the output of that pass is still written, under the
  iteration iterationmax+1 (C158).
* output0d.c:103-107: with 0doutput_normtype other than integral the "volume integral" is the root mean square, so that
  mean and meanAbs are the root mean square, rms is the fourth root of the mean fourth power, and VolInt is never
  negative (C162).
* find_extrema.c:121-137: the flag check of the Newton solver (stuck at a point that is no root) does not get into the
  result; the function given to the solver jumps at the sides of the box, though the comment says that it is continued
  linearly (C163). (r) box_extremum_of_F_in_dir does not free c if no bracket is found (line 216), and zbrac_P may
  search beyond the box.
* integral3D keeps its arguments in static variables: an integrand that calls integral3D gives wrong values (C160).
* VTK_out.c:171-176 writes the first halves of doubles as floats if the machine is big endian, and binary output without
  double or float writes nothing there, while a little endian machine stops. Text without double is written as float,
  though the comment says that double is the default (C167).
* matrix of nrutil.c writes beyond the end of its block if there are no rows. ludcmpSing and lubksb of
  NumericUtils_shims.c are right only for a matrix with exactly n columns (C168). (r) zbrac_P of NumericUtils_shims.c:65-69 has no
  return statement, but find_extrema.c:215 uses its value. (r) ode_initialval.c frees y and dy with the range 1 to 2,
  which does no harm since only the start is used.
* templates_Preconditioner_for_templates_solver does not set vlx before the inner solver starts from it. There it finds what
  matvec or the last call left, so that the same vector may be preconditioned to different results (C169).
* (r) templates_qmr_wrapper and templates_bicg_wrapper read the matrix, which leaves zeros in x, before they copy the first guess
  from x: they always start from zero. A column without an entry on the diagonal gets DiagAinv = 0 and no error, unlike one with an entry 0.
* (r) addDissipation.c uses ADMvars_dgxx and others as temporary storage.
* (r) Newton_linesrch.c never sets *normres and ignores linSolv_tol. ADMvars/CheckIfFinite.c has the same faults as
  NumberChecker.c, except that a row of bad points is ended at the end of a box if it has more than one point.
* (r) ParManipulator.c:113-115 leaves ParManipulator_ds_min at the value of the last box, not at the smallest one.
* ScalarOnKerr.c:1528 computes npsiX once before compute_unew_from_Up_Um_onBoundary changes both ends of a line, so that in the boxes
  between the first and the last the new fields do not have the characteristic variables they were computed from (C134).
* Poisson3.c:419 has `2.0*lChi*Psizz` where the derivative of the equation is `2.0*Chi*lChi*Psizz` (C136).
  (r) Poisson3_BCs.c:53-55 exchanges y and z, without effect on the radius.
* compute_GWs.c:383 lacks the factor NN_dot_n, so that the wave depends on which star is called 1 (C138).
* compute_GWs.c:326-328 renormalises Ln_cap with components it has already changed; a vector that is not a unit vector does not become
  one (C138).
* With its default amplitude 1 the gauge wave of TestID has a point with g_xx = 0 and alpha = 0 in every box (C122).
* (r) forceKzero overwrites K and its derivatives in the current variables; densitizedLapse
  needs the linear step, other integrators stop; densWithoutShift subtracts K0 in a term
  in which the other branch does not.
* SphericalHarmonics.c:293-335 computes the coefficients of sin(theta) df/dtheta up to lmax only, but this function
  has a part with l = lmax+1, so FSurf_CubSph_sigma01_derivs does not give the derivatives of the surface (C140).
  It also reads c[i+2(l+1)] for l = lmax, that is 2(lmax+1) entries after the coefficients: the array's unused part,
  or memory after the array's end for the second surface of a small box (nnodes = 16, lmax = 1 reads 16 and 17).
* FSurf_CubedSpheres.c:103 moves the point A = B = 0 in all six boxes, though only +-z have Theta = 0 there (C140).
* FSurf_CubedSpheres.c:360-363: at A = B = 0 of the boxes +-z the Jacobian is computed as 0, where the element of solid
  angle is 1, so that with an odd number of points this point is left out of the integrals (C141).
* convert_1box_to_cube reads grid->box[b0] before it tests whether this box exists (C142).
* The functions that set setnormalderiv compare the number of the face on the other side, not its box, so that a third
  face can spoil a pair; this does not happen with the numbers from set_ofi_in_all_bfaces (C143).
* set_ofi_in_all_bfaces computes 1<<(ofi+1) for an int before it tests for an overflow; with more than 30 faces this is
  undefined (on common machines face 32 then counts as face 0) (C144).
* add_boxface_as_outerbound_bface uses n1 for the plane in all directions (C145); it is never called with this effect.
* set_touching_bfaces_of_boxes_with_same_facepoints takes npoints[b] instead of npoints[b0+b], so that for b0 other than 0 two faces
  with one common point are joined; and if the second face has more points than the first, the others are in no list (C146).
* The loop in golden stops when the bracket is shorter than `tol*(fabs(x1)+fabs(x2))`. If the bottom is at 0 this never
  happens in exact arithmetic for tol < 1/2 (C147). With doubles it happens when the numbers underflow.
* WT_newton returns MAXITS+1, which is not negative, if no root was found, though the comment says that errors give negative
  values. The tolerance for the linear solver is computed with `newton_linesrch_fvec[i]>test` without fabs; it is 0 if no
  entry is positive, so that `3-x` is solved and `x-3` is not by a solver that cannot reach the tolerance 0 (C149).

## How the theorems were tested

Wrong versions of the model were built in a copy: swapped comparisons, off-by-one limits,
missing terms, wrong signs, exchanged variables, dropped steps. `seeded/LOG.jsonl` has a
line for each wrong version that was caught, with the theorems that failed to compile afterwards.

The log is not complete for the others. The script that made most of the wrong versions wrote
only the caught ones to it. Survivors were looked at and entered by hand, and some were
forgotten. Those found in the saved output of the script were tried again at the end against the present theorems, and
the result was entered. The output of some runs was overwritten; survivors in them that were
not entered at the time are lost. Many survivors became caught after a theorem was tightened and then
appear only as caught, so the number of survivors in the log is too small and says nothing about how often a
theorem was too weak. Versions that do not compile are not in the log.

Survivors marked "real gap" or "gap" in the log are wrong programs that no theorem here excludes.

A wrong version counts as caught if the proof of a theorem fails. This says that the
theorem depends on the changed line. It does not say that the statement is the one that
users of the code want; for that the statements have to be read.
