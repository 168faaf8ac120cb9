# booz_xform in Lean 4: design

## 1. What is modelled, and how

The model follows the C++ (and, for the drivers and plots, the Python) source function by
function.  Every definition of the model cites the lines of `/repo` it models.

| code | model module |
|---|---|
| C++ faults, `int`, Eigen `ArrayXd/ArrayXi/ArrayXXd`, `for` loops | `Verif/Basic.lean` |
| floating-point operations used by the code | `Verif/Arith.lean` |
| `class Booz_xform`, constructor | `Verif/Model/State.lean` |
| `init_trig.cpp` | `Verif/Model/InitTrig.lean` |
| `init.cpp` | `Verif/Model/Init.lean` |
| `surface_solve.cpp`, `check_accuracy.cpp` | `Verif/Model/SurfaceSolve.lean`, `CheckAccuracy.lean` |
| `run.cpp` (sequential, and its OpenMP loop as interleaved micro-steps) | `Verif/Model/Run.lean`, `Parallel.lean` |
| `init_from_vmec.cpp` | `Verif/Model/InitFromVmec.lean` |
| `netcdf_reader.cpp`, `netcdf_writer.cpp` over an abstract NetCDF-classic file | `Verif/Model/NetCDF.lean`, `NetCDFWriter.lean` |
| `read_wout.cpp`, `write_boozmn.cpp`, `read_boozmn.cpp` | `Verif/Model/ReadWout.lean`, `WriteBoozmn.lean`, `ReadBoozmn.lean` |
| calls on one object (`bindings.cpp`) | `Verif/Model/Session.lean` |
| assignment of input attributes (`bindings.cpp:108-290`) | `Verif/Model/Attributes.lean`, `Verif/Model/AttrViews.lean` |
| `driver.cpp`, `_cli.py` | `Verif/Model/Driver.lean`, `Cli.lean` |
| `plots.py` (selection and evaluation logic) | `Verif/Model/Plots.lean` |

**Faults are outcomes.**  A computation of type `Res β` either returns a value or faults:
`throw msg` (a C++ exception), `ub why` (undefined behaviour: index outside an Eigen array, use
of an indeterminate value, integer division by zero, signed overflow), `assert` (a failing
`assert`, only in a debug build).  Nothing is totalised: array reads and writes check bounds,
32-bit `int` results are range-checked where the code computes sizes.

**Indeterminate memory is visible.**  Array cells are `Option α`; `none` is a cell that was
allocated (`resize`) but never written.  Scalar members that the constructor does not
initialise are `Option` too.

**Floating point is a parameter.**  The model is polymorphic over a class `Arith α` giving the
operations the code uses (`+ - * /`, unary minus, `sqrt`, `sin`, `cos`, `abs`, `max`,
conversion from `int`, the constants) with *no laws*.  The order of operations is that of the
source.  Theorems about memory safety, independence, determinism, scheduling, files and
drivers are proved for **every** `Arith α`, hence also for IEEE doubles including NaN and
infinities.  Theorems about mathematics (trig tables, quadrature, orthogonality, calculus) are
about the instance `Arith ℝ`: exact real arithmetic.  C53 and C69–C73 treat rounding errors
through error bounds on each operation (`Spec/Rounding.lean`).

**Refinement.**  For each loop nest of the code-level model a lemma shows that on well-formed
state it terminates without fault in a state given in closed form (`tab n f`: the array with
entries `f 0 … f (n-1)`).  Property theorems are then stated about the code-level functions
(`run`, `initFromVmec`, `writeBoozmn` …) and a small specification (`Verif/Spec/*`), which
mentions only Mathlib notions (`Finset.sum`, `Real.cos`, `HasDerivAt`, `List.Perm` …).

## 2. Trusted base

* Lean 4.33.0's kernel; Mathlib definitions used in statements.
* Axioms: at most `propext`, `Classical.choice`, `Quot.sound` (no others; no `sorry`,
  no `native_decide`, no `bv_decide`).
* The reading of the C++/Python source recorded in the comments of the model.
* Assumed library behaviour: Eigen `setZero/resize`, coefficient access and column-major
  storage; libnetcdf classic-format behaviour as documented in `Verif/Model/NetCDF.lean`
  (names, dimension length 0 = unlimited and at most one of them, whole-variable get/put copying
  `product of dimensions` elements from/to the given pointer, numeric conversion); `std::sort`;
  iostream extraction of `int` and `std::string` in the C locale (0 is stored when no number can be read,
  nothing when the stream is already in a failed state or at its end); Python `str.split`, `int(str)` and
  pybind11/NumPy conversion to `int` as described in `Verif/Model/Cli.lean`, array attributes being
  views of Eigen storage that is replaced exactly when the number of elements changes (`Verif/Model/Views.lean`), input files being ASCII; OpenMP `parallel for`
  executing each iteration once on some thread, and `critical` giving mutual exclusion; programs without
  data races behave as some interleaving of their steps (C++ memory model); one line sent to `std::cout` is one step.

Not modelled: the build system, the text of messages on stdout other than the numbers of the accuracy
report and the lines printed by the two drivers themselves, allocation failure, matplotlib/plotly rendering, performance,
compiler floating-point contraction.

## 3. Properties: what is modelled and how each is proved

* **C01** (Trig tables are exact cosines and sines): init_trig over ℝ; induction on the column index with the addition theorems; frame by closed form of the tables.
* **C02** (Output mode list is exactly the half-plane of modes, without repetition): closed form of the mode loop of init; induction on m for the flattening j ↦ (m,n), count formula by ring arithmetic; Nodup and membership lemmas.
* **C03** (mboz is the largest poloidal mode number of the output): negation proved for every resolution from C02 (no mode has m = mboz, the maximum is mboz-1); `_partial` gives the true maximum for m and n.
* **C04** (Integration grid is the uniform tensor grid on one field period): closed form of theta_grid/zeta_grid over ℝ.
* **C05** (run() never leaves its arrays, divides by integer zero or overflows an int on well-formed input): refinement lemmas: run on a state satisfying a decidable well-formedness predicate returns `ok`; for all Arith.
* **C06** (Input accepted by init_from_vmec is safe to process): negations by concrete witnesses; `_partial`: no UB under ns ≥ 3 or no m = 1 mode, nonempty mode lists, verbose ≤ 1 or enough entries.
* **C07** (init_from_vmec rejects exactly the inconsistent shapes it lists): model of the validation cascade; iff with an independently written predicate `Consistent`; false for empty mode lists (`C07_false`: undefined behaviour precedes the shape checks), hence `_partial`.
* **C08** (A rejected load leaves the object unchanged): negation by witness (ns_in changes); `_partial`: nothing but ns_in changes.
* **C09** (Half-grid quantities are loaded without their leading dummy surface): closed form of the copy loops.
* **C10** (Even-m harmonics of R and Z are averaged onto the half grid): closed form of the interpolation loop, real arithmetic.
* **C11** (Odd-m harmonics of R and Z are interpolated through sqrt(s)): same, with Real.sqrt algebra.
* **C12** (The input radial grid is the uniform half grid): closed form over ℝ.
* **C13** (Defaults after loading): closed form of the whole final state (frame included).
* **C14** (Loading does not depend on what the object held before): negation by witness; `_partial`: equal results whenever the old compute_surfs is admissible.
* **C15** (Boozer_I and Boozer_G are the m=n=0 covariant harmonics): closed form of init/transpmn loops.
* **C16** (Every output harmonic is the quadrature of the theory's integral): refinement to closed form + trig tables + parity folding of the half grid.
* **C17** (The angle difference turns the covariant field components into flux functions): termwise derivative of the Fourier series (HasDerivAt).
* **C18** (The Jacobian used is the determinant of the angle map): HasDerivAt of the angle map, determinant.
* **C19** (Field lines stay straight): algebra on the spec functions used in C16.
* **C20** (gmnc_b is the spectrum of (G+iota*I)/B^2): corollary of C16.
* **C21** (Coordinates that are already Boozer are left alone, exactly): discrete orthogonality by sums of roots of unity gives the aliasing formula (`foldCos`, `foldSin`) from C16; with modes that fit, adding up the output series gives the input series; a single harmonic is unchanged if nothing else is aliased to it.
* **C22** (Stellarator-symmetric and general mode agree): C16 in both modes gives the same full-grid sum; odd integrands sum to zero.
* **C23** (Asymmetric arrays are ignored in symmetric runs): the run of two states differing in the asymmetric arrays is related step by step.
* **C24** (Asymmetric outputs are empty after a symmetric run): witness for the negation; `_partial` for fresh objects.
* **C25** (Surfaces are independent): closed form of a column mentions one surface only.
* **C26** (Selecting surfaces selects columns): same closed form.
* **C27** (Re-running is idempotent and history-free): closed form of the final state in terms of inputs.
* **C28** (verbose does not affect results): same.
* **C29** (The result does not depend on threads or scheduling): each iteration as a program of loads, stores, prints and critical-section steps (`Act`), shown equal to `surfaceSolve` when run alone; threads take any iteration and interleave arbitrarily (`Step`).  Every access of iteration b is to column b, so an invariant over configurations (agreement with the sequential memory column by column, use of the critical section) gives: no fault, no race, no deadlock, a fixed number of steps, the sequential object, whole report blocks.
* **C30** (The accuracy report is what it says): closed form of check_accuracy over ℝ.
* **C31** (R and Z transform linearly): linearity of the full-grid sums.
* **C32** (Field-strength scaling): homogeneity of the full-grid sums.
* **C33** (boozmn files round-trip): the writer model yields a file in closed form (`bzFile`); it is shown to have the specified `Layout`; the reader model run on any file with that layout gives `ReadBack`. The writer keeps pointers and dereferences them in write_and_close, as the code does. Uses only `-(-x) = x` of the arithmetic.
* **C34** (boozmn file layout): same, stated through row-major indexing of the file; totality: `ok`, or an exception and some library call failed.
* **C35** (Unimplemented fields are written as zero): negation: beta_b cells are indeterminate; `_partial`.
* **C36** (Writing does not change the object): negation by witness; `_partial`: only phip[0].
* **C37** (Every value an object holds after read_boozmn comes from the file): negation by witness; `_partial`: with chi_b present.
* **C38** (Copying a file through an object loses nothing): negation; `_partial` lists the equal variables.
* **C39** (read_wout loads the variables it names): symbolic execution of read_wout; missing variable ⇒ throw.
* **C40** (write_boozmn writes what was computed): negation in general (any other nonzero length is undefined behaviour) and by witness (wrong jlist at equal length); `_partial`: at equal length the results are those computed.
* **C41** (Empty selection): direct from the dimension rule of the NetCDF model.
* **C42** (Failure or crash while writing): every library call logs the file system; invariant over the whole program for every object and environment; negations for every successful write and for a failing second call.
* **C43** (Command-line driver runs what the input file asks for): executable driver model over a file system; the input language is specified by inductive predicates (`Spec/Driver.lean`); composition with C39, C56 and C34 gives the exact condition for success.
* **C44** (C++ and Python drivers are interchangeable): two parsers over `List Char`; agreement proved for plain files; negation by witness, and for all files that list a surface beyond the range of `int` (`C44_range`).
* **C45** (mpol may be the largest poloidal mode number of the input, as documented): negation by witness; the correct precondition is part of C05.
* **C46** (Single-harmonic inputs are handled): negation for all such inputs.
* **C47** (Resolution limits): checked int arithmetic in init; iff.
* **C48** (modeplot shows the largest modes): figures as lists of drawn objects; the theorem holds for every `argsort` that sorts (NumPy's is not stable), by permutation and `Pairwise` reasoning. Refuted for surfaces listed inwards; `_partial`: largest at the *last* output surface.
* **C49** (symplot classifies every mode by helicity): specification of the classes, disjoint and exhaustive (`C49_classes`); list of everything drawn, in order. Refuted twice (legend of 'Other helical' in detail mode; missing legend entry without it); `_partial`: everything else.
* **C50** (surfplot evaluates the Boozer series): loop in closed form over ℝ; `np.linspace` grid; periodicity of series.
* **C51** (wireplot draws the requested curves on the surface): closed form of the sums; selection of rows and columns by `np.mod` as a `filterMap` lemma. Refuted for `refine=1`, for the default `js`, and (C63) for files; `_partial`: refine ≥ 2.
* **C52** (Output harmonics converge to the theory's integrals): C16 + error of the trapezoidal rule for smooth doubly periodic functions (`Lemmas/Trapezoid.lean`, `Lemmas/Smooth.lean`: by induction on the order, comparing the grid average with that of the derivative); the integrands are smooth because they are built from finite trigonometric sums and nonvanishing denominators. Error bound of every order at every resolution; because a run needs sizes that fit in an `int`, hence only finitely many resolutions, the same constant is also required for the quadratures on *all* grids.
* **C53** (Rounding errors of the trig recurrence stay small): standard model of rounding as a structure `Rounded` over any `Arith` (relative error, underflow, library sine and cosine); induction on m with the pair as a complex number.
* **C54** (Safe sessions): calls as a datatype over object and file system (`Model/Session.lean`); legality stated by the history of calls (`Spec/Session.lean`); invariant by induction on the session, composing C06/C39 (loading), C57 (run), C34/C36/C42 (write) and C33 (read back). Refuted for `run` on a new object or after `read_boozmn`; `_partial`: runs only while a `wout` file is loaded.
* **C55** (Point-reflection covariance): reindexing of the full-grid sum.
* **C56** (What was loaded can be transformed): composition of the loader theorem with C57; iff. `C56_read_choose_run`, `C56_read_run`: the same for `read_wout` into any object, the condition stated on the file.
* **C57** (Exact contract of run): success of each phase inverted (`Lemmas/RunExact.lean`); iff.
* **C58** (Nonsense resolutions): refuted by a concrete execution; partial from C57 and the sign of the sizes. Props/Negative: the refuted case (both -1, stellarator symmetry) is the only one — `C58_negative_partial` inverts `init` and `surface_solve`: the tables of the Boozer angles have mboz + 1 and nboz + 1 columns, of which two are filled as soon as there is a grid point.
* **C59** (Malformed input files): refuted for all three kinds of file; partial for all other files, and all files in Python. `C59_accepts`, `C59_py_accepts`: exact acceptance, against grammars of numerals and words (Spec/DriverExact) written without the parser; `C59_malformed`: no disk change on any other file.
* **C60** (Same console output): the printed lines in closed form; refuted for every well-formed file while reading it; the lines printed afterwards agree (`C60_after`), and announce the surfaces in the order run (`C43_console`).
* **C61** (Nonexistent surface): refuted for every loadable wout file through C56.
* **C62** (Full magnitudes in modeplot): refuted by witness; `_partial` for stellarator symmetry, from C48.
* **C63** (Plots from files): every plotting function depends only on members restored by C33; refuted for the original curves of `wireplot`.
* **C64** (Solid surface of wireplot): derivative of the series and plane geometry; refuted by witness without stellarator symmetry; `_partial` with it.
* **C65** (Output harmonics are the amplitudes printed in the theory section): refuted (factor 2 off (0,0)) by uniqueness of limits and by an exact run; `_partial`: doubled amplitudes; `C65_full_series`: the printed equations hold with the sum over all m, n.
* **C66** (Boozer angles are coordinates): the angles as a map of the plane commuting with the lattice (`Lemmas/TorusMap.lean`); the mean of the determinant times a trigonometric polynomial of the new angles is the mean of the polynomial (integration by parts), hence surjectivity (bump functions); with nonvanishing determinant local homeomorphism, positivity, injectivity by counting preimages, smooth inverse (`Lemmas/TorusDiffeo.lean`).
* **C67** (Output harmonics are Fourier coefficients in Boozer angles): change of variables `TorusMap.mean_new` by density of trigonometric polynomials (`Lemmas/TrigDense.lean`); C52 for the outputs.
* **C68** (The output series reconstruct the quantities): decay and completeness give uniform convergence of Fourier series on the torus (`Lemmas/FourierTorus.lean`); bijection between the selected output modes and the half plane; C52 for the errors of finitely many coefficients. Only a fixed truncation is claimed: for the highest output modes (m near mboz) the quadrature error is an aliasing error that need not be small.
* **C69** (Rounding errors of the whole transformation): `Spec/Rounding.lean` states the precision of an arithmetic (`Precision`: error at most u(1+|exact|) per operation while |exact| ≤ 1/u, no monotonicity or symmetry assumed). `Lemmas/Stable.lean`: a quantity computed on all machines is *stable* at a real r if it is finite and within C·u of r for all u ≤ u₀; closed under the operations (division and square root where the exact value is nonzero), folds and the trigonometric recurrence. `Lemmas/StableRun.lean`: every closed form of the run is stable; the closed forms hold for every arithmetic (`run_ok`). C and u₀ depend on the data and the resolution. Release build (the assertions of the debug build are C72); `check_accuracy` reports are not compared.
* **C70** (The transformation is well posed): C69 on the arithmetic ℝ, of which every u > 0 is a precision.
* **C71** (Rounding errors of loading): as C69 for the closed form of `init_from_vmec` (`Lemmas/StableLoad.lean`), composed with C69. Flux profiles (copied or scaled, not used by `run`) are not compared.
* **C72** (Assertions of the debug build in floating point): `Spec/RoundingDebug.lean` states a relative precision; error analysis of the two grid nodes compared by the accuracy check, for all sizes below 2^31; composed with `run_ok` and C69.
* **C73** (What is computed in floating point is the Boozer spectrum): composition of C67 (discretisation error, coefficients in Boozer angles), C69 and C71 (rounding). D and u₀ depend on the resolution, C does not.
* **C74** (Refining mboz and nboz): the trapezoidal error is the sum of the aliased Fourier coefficients; each is bounded by repeated integration by parts with the phase of the mode included (non-stationary phase), uniformly in the mode as long as the phase advances by less than a full turn per grid step (`Lemmas/NonStationary.lean`, `Lemmas/UniformQuad.lean`); the truncation error by the decay of the Fourier coefficients (`Lemmas/FourierRate.lean`). The resolution condition is a hypothesis (`Spec/Resolution.lean`): it concerns the given equilibrium and, as ntheta = 4 mboz + 2, holds for all proportional mboz, nboz when the Boozer angles are not too far from VMEC's. `C74_all_harmonics` is the case nboz ≥ 1; axisymmetric inputs with nboz = 0 are `C74_axisymmetric` (one toroidal grid point, the condition on the poloidal grid only).
* **C75** (A clean report means an accurate transformation): first half false at every resolution (`C75_false`: |B| = 2 + (cos mθ − cos (m+2)θ)/2 with m just beyond the output modes equals its mean at the four points of the report; via C21 and C30); second half `C75_partial`, from C74.
* **C76** (Symmetry-breaking harmonics and quasisymmetry): `Spec/Quasisymmetry.lean` states that |B| is a function of Mθ_B − Nζ_B. By C67 the limits of the harmonics are the Fourier coefficients of |B| in Boozer angles; `Lemmas/Shift.lean` proves that coefficients off the direction (M, N) vanish iff the function depends on Mt − Nz only (translation invariance one way, completeness of the Fourier system the other).
* **C77** (Moving the origin of the angles): `Spec/Translation.lean` rotates the input amplitudes; `Props/Translation.lean` shows that the surface functions, Boozer angles and determinant are translated, that grid sums of periodic functions are invariant under grid steps, and (via C52 and `mean2_shift`) the integrals under all translations. Half turns, which keep stellarator symmetry, in `Props/HalfTurn.lean`.
* **C78** (Axisymmetric equilibria): invariance under one toroidal grid step and C77's exact rotation leave only harmonics with nzeta | n/nfp, that is n = 0; independence of nboz is a sum of equal terms.
* **C79** (Independence of the poloidal angle): `Spec/Reparam.lean` states when two inputs describe the same field on a surface. The difference of the potentials has constant gradient and is periodic, hence I and G agree and w differs by I χ and a constant; the determinant transforms by the chain rule; change of variables `TorusMap.mean_new` for (χ, 0); C52 for the outputs of both runs.
* **C80** (Direction of ζ, sign of the field): mirrored surfaces have the angles (θ_B, -ζ_B) at (θ, -ζ) and the same determinant; the grid is invariant under ζ → -ζ (`gridSum_negZ`), so the quadrature of (m, n) is that of (m, -n); `mirrorMode` is the row of (m, -n). Scaling the covariant components leaves the angle map unchanged (`SameAngles`).
* **C81** (Arrays taken from attributes): `Model/Views.lean` adds to a session, for each array attribute, how often it got new storage (Eigen: exactly when the number of elements changes); a view remembers attribute, storage and shape. `C81_false`: two legal sessions (contents change; storage freed). `C81_partial`: by induction over arbitrary calls, including failing ones, what every view shows. Frame lemma: `read_wout` never touches the outputs, also when it throws (`KeepsOut.readWout`). Assignments `b.name = value` (`Model/AttrViews.lean`): `C81_assign_partial` says what an array taken before shows afterwards, `C81_assign_false` that it need not keep its contents.
* **C82** (Exponential convergence): `Lemmas/Strip.lean` treats families of real functions with a bounded holomorphic extension to a strip (closed under sums, products, cosines, inverses bounded away from zero); for periodic ones, shifting the contour (Cauchy's theorem for rectangles in Mathlib) bounds the Fourier coefficients and, with the aliasing formula of C74, the trapezoidal rule. λ, w, ν, R, Z, |B| and the determinant are trigonometric polynomials, so every rate holds for them; the Jacobian has the rate given by a strip in which |B| does not vanish. `Props/Exponential.lean`. Strengthens C52 (every power).
* **C83** (Only the functions matter): `Lemmas/FnCongr.lean` writes each quantity of the closed form of a surface as a functional of the input functions: the currents are their means and w is an integral of B_θ, B_ζ minus the means (`wOf_series`), so two lists of harmonics with the same functions give the same columns and the same report. `Spec/Functions.lean` states equality of the functions of a surface, of the outputs, and what it is to list the modes in another order. `Props/Functions.lean`: `C83_partial` (any two lists, (0,0) once in the Nyquist list), `C83_reordered` (permutations), `C83_debug` (a debug build runs iff the first Nyquist mode is (0,0), else aborts), `C83_false` (Boozer_I_all and Boozer_G_all read row 0), `C83_repeated` (of several (0,0) modes only the last counts).
* **C84** (Attributes documented as unused or passed on): the closed forms of the run do not mention them except `s_b` (`unused_out`); refuted for `toroidal_flux` (not among the variables of the file) and for an unset `s_in` (out-of-bounds read, from the inversion of a successful `init`); `_partial`: `toroidal_flux` equal to the last element of `phi`.
* **C85** (Data supplied attribute by attribute): one constructor per writable attribute (`Model/Attributes.lean`); `Spec/Attributes.lean` states that a list of assignments copies an object, for any order and repetition. Induction over the list (`setAll_ok`): afterwards the needed attributes agree. Then C23 (asymmetric arrays unread), C27 (history) and the closed form of the file.
* **C86** (Flux profiles assigned by the user): the proof of C34 split at the flux profiles (`define_head`), which needs nothing about them; too short profiles fail at the address of an empty array or when the data are fetched (`write_flux_ub`), long ones are cut (`write_long`). Exact iff; refuted; `_partial`: long enough profiles. `C86_assigned_partial` starts from the program that assigns the profiles, in any order and with repetitions: the value assigned last reaches the variable of its name (added because a mutant that stores `chi` in `phi` left the other theorems of C86 intact).
* **C87** (Attributes show what their names say): `Spec/Shown.lean` speaks of attribute names only. Results: closed form of the run (C16) read through a fresh view; assignments (`Model/AttrViews.lean`): case by case, the named member is replaced and no other.
* **C88** (Declared number of field periods): the grid sum over k field periods is regrouped period by period (`gridSum_turns`); the phases of a mode advance by a k-th root of unity per period, so that the sum is k times that of one period or 0 (`quad_turns`). Exact for odd k, where the grids can be matched; any k: C52 for both descriptions of the same surface, and the integrals of the other modes are limits of zeros.
* **C89** (Failed calls leave no file open): `Model/Handles.lean` carries out the calls in a process that counts its open files (open, create and close statement by statement). False of the code, for every limit (`C89_false`, by induction on the number of failures, `C89_exhausts`). Proved: which calls keep a file; a session with fewer failures than the limit is a session of the model without counting, and conversely (induction on sessions). Not modelled: `nc_inq` or `nc_close` failing on a file opened for reading.
* **C90** (The printed accuracy report is right on a real machine): `check_accuracy` as in C30, in an arbitrary arithmetic of precision `u` with exact `abs` and `max` (`Spec/ReportRounding.lean`). Proved from forward error bounds for every closed form of the report (`Lemmas/StableReport.lean`), which extend those of C69; `C90_meaning` combines them with C30 and C74.
* **C91** (From wout file to boozmn file): the whole of `xbooz_xform`: driver (C43), `read_wout` (C39), `init_from_vmec` (C23, C71), `run` (C67, C69, C73), `write_boozmn` (C34), in an arbitrary arithmetic of precision `u` (`Spec/FileSpectrum.lean`). Two files with nearby data load alike, the driver's settings are those of C73, and the layout of the file carries the bounds over; `C91_python` follows through C44.
* **C92** (`verbose = 0` means no output): the calls of a session again, with the messages they print and where they stand between statements that can throw (`Model/Stdout.lean`); of the numbers in messages only the reports are kept. False: `C92_false`. Leaving out the messages gives back the calls of `Model/Session.lean` (`C92_same`), by a simulation through the statements; the counts of messages by composing bounds along each method, then induction over the session.
* **C93** (calling `init_from_vmec` from Python): pybind11's matching of positional and named arguments with the declared parameters, and its conversions to `int`, `Vector`, `Matrix` (`Model/Keywords.lean`; pybind11 itself is trusted to do what its documentation says). False: `C93_false`. By induction on the parameter list, matching succeeds exactly for the calls described in `Spec/Keywords.lean` (`C93_partial`, `C93_rejected`).
* **C94** (contradictory `wout` files): what `nc_get_var` stores depends only on the variable in the file, so the model makes a store of more values than the array has undefined behaviour (`Model/NetCDF.lean`). False: `C94_contradictory`, `C94_false`. Proved by inverting each statement of `read_wout` in turn: a normal return means that the contents fitted (`C94_partial`). For the tables the last entry of each is read by the interpolation that follows, so a shorter table would be a read of an uninitialised value: a normal return means that the sizes are exact (`C94_complete`).
* **C95** (incomplete or contradictory boozmn files): same model of `nc_get_var`. Incomplete files: reading a part of a file does the same as reading the file, or throws (`SameOrExc`, by following both reads statement by statement); together with the inversion lemmas this gives `C95_missing`. Contradictory files: false, in general (`C95_contradictory`, `C95_too_few`, `C95_scrambled`) and for concrete files (`C95_false`). What a normal return implies: `C95_partial`.
* **C96** (default range of logarithmic plots): `np.max`, the default of `ymin` and the call that sets the lower end are part of `Model/Plots.lean`; `Spec.Shows` collects the values on the curves of a figure. False for both functions: `C96_false`. Loop invariant for the maximum (`npMax_total`); `C96_partial`, `C96_modeplot_partial` with the mode selection of C48, C49.
* **C97** (limits of `symplot`): from the exact description of the figure in C49. False for every run with `nboz` above the limit (`C97_false`: index of the first helical mode in the mode list); `C97_partial` for the lines without label.
* **C98** (documented sizes of `lmnc`, `lmns`; extra entries): `Spec/Covers.lean` says when inputs hold the same entries and more. `Lemmas/Covers.lean` follows `run` function by function with a simulation relation (every normal result is also the result on the larger inputs), giving `C98_extra`. `C98_partial` applies it to the documented sizes; `C98_too_few`, `C98_false` show the out-of-range read for `mnmax_nyq < mnmax`.
* **C99** (the field in space): `Spec/Field.lean` states the equations of `theory.rst` with vectors, gradients and cross products in three-dimensional space, without reference to the formulas of the code. `C99_field` derives from them, C17 and C18 that the determinant does not vanish (`√g B² = (G + ι I) det`), both equations of Boozer coordinates for the field, and that `jacobian`, `gmnc_b`, `gmns_b` belong to the Jacobian of (ψ, θ_B, ζ_B). The continuation of the angles off the surface is arbitrary (differentiable in ψ). Example: a cylinder described in skewed angles.
* **C100** (uniqueness): for two pairs of Boozer angles of one field, `I θ_B + G ζ_B` and `θ_B - ι ζ_B` have the same surface derivatives (`boozer_diff`), so they differ by constants; going once round each way shows that ι, I, G agree, and `G + ι I ≠ 0` separates the two angles. `C100_unique` applies this to the angles of C99.
* **C101** (values left over): false of the code. The reader asks netCDF for the whole variable and does not compare its length with that of the buffer, and Eigen's `resize` keeps the contents when the size does not change, so a list shorter than the declared number of modes is completed by the object's earlier values. `C101_stale` is the exact description of what is stored, for any file (inversion of the reader, no assumption on the contents); `C101_leftover` says that the load does not distinguish a short `xn` from the list completed by the old values; `C101_false` is a concrete file; `C101_partial` covers files whose lists have the declared length.
* **C102** (levels of `verbose`): the specification lists the messages of each call once, with the level of each; `C102_levels` says that a call that returns has printed the list filtered by the level (composition along each method, `Says`). `C102_brief`, `C102_more`: consequences for `verbose = 1` and for two levels.
* **C103** (one equilibrium per file): false of the code. `C103_kept`: `read_wout` never touches the results of an earlier run, whatever the file and the outcome (every step of the program leaves `out` and `grid` alone). `C103_mixed`: for any object with results and any valid `wout` file with as many surfaces, loading the file and writing returns normally and the boozmn file combines the old spectra with the new nfp, iota, profiles, resolution (`Spec.Mixture`). `C103_false`: two concrete files and a concrete session. `C103_partial`: with only writes and changes of `verbose` in between, the file is that of the run (invariant over `Passively`).
* **C104** (`read_boozmn` replaces the equilibrium): false of the code. `C104_kept`: input spectra, mode lists, `s_in` and `aspect` survive `read_boozmn` for every file and outcome (frame of every statement). `C104_grafted`, `C104_false`: `run` afterwards returns, with the iota, surfaces and resolution of the file and the spectra of the earlier equilibrium. `C104_aspect`: a copy of the file states the earlier aspect ratio. `C104_chi`: a file without `chi_b` leaves an earlier `chi` of the same length. `C104_partial`: all other members depend on the file only (closed form of the reader).
* **C105** (sums of squares of harmonics): proved. `Lemmas/Parseval`: Parseval's identity for smooth functions on the torus, Bessel's inequality for continuous ones, and the closest function of `M t − N z` (its harmonics are those parallel to (M, N)). `C105_mean_squares`, `C105_asymmetry`: for every ε there is a K0 such that for K ≥ K0 the sums of squares over the output modes up to K are within ε + C·gridError of the mean squares over the Boozer angles, resp. of the least mean square distance `Q` from functions of `Mh θ_B − Nh ζ_B` (spec `Surface.Asymmetry`: attained and minimal over all continuous such functions). `C105_zero`: `Q = 0` iff quasisymmetric. `C105_all_mean_squares`, `C105_all_asymmetry`: under the resolution condition of C74 the sums over all output modes are within C/M^p, every p. Hypotheses as for C68/C74 (nonvanishing G+ιI, |B| and Jacobian determinant). `C105_machine`, `C105_file` (`Props/Broken`, spec `Spec/Broken`): with rounding, the root mean square of all stored harmonics of |B| that break the symmetry, resp. of those in the `boozmn` file that `xbooz_xform` writes, is within C/M^p + D u of √Q, and the root mean squares of all five quantities (from the file: of |B| and the Jacobian) are as near to those over the Boozer angles; by `C105_numbers`, `C105_total`: a series over a list of distinct modes that is within e of |B| everywhere has this root mean square within e of √Q.
* **C106** (volume and flux surface averages): proved. Spec/Volume defines the shell between ψ₀ and ψ₀ + h as a set of points of space, the volume rate as the limit of its Lebesgue measure divided by h, and the flux surface average as the limit of volume averages (Mathlib's `volume` on ℝ³). `Lemmas/Shell`: change of variables and dominated convergence. `C106_flux_average`: volume rate and averages of all continuous functions in terms of the Boozer angles; `C106_outputs`: `gmnc_b`, `Boozer_I`, `Boozer_G` of `run()`. Hypotheses as for C99, and `Nested` (positions continuously differentiable near ψ₀ and one-to-one within a period). Example: the cylinder of C99, whose volume rate comes out as 4π². `C106_machine` (Props/VolumeRounding) adds the rounding of `run()` through C69. `C106_file` (Props/VolumeFile) goes from the `wout` file to the numbers in the `boozmn` file, with the file of C108 as instance.
* **C107** (circulation and currents): proved. Spec/FieldLine defines closed C¹ curves on the surface with their numbers of turns, and the circulation as the integral of `B · dr/dt` with Mathlib's derivative of the position in space. Proof: chain rule along the curve (`curve_deriv`), gradients of the Boozer angles from C99, the fundamental theorem of calculus, and the turns of the Boozer angles (`angles_turn`). Exact at every resolution. Currents follow by Ampère's law (factor 2π/μ₀), which is not part of the statement. `C107_file`: from the `wout` file to `buco_b`, `bvco_b` in the `boozmn` file of `xbooz_xform`, for every surface of the equilibrium and any machine arithmetic, since these numbers are only copied.
* **C108** (integrals along field lines): proved. A field line is a curve whose velocity is a positive multiple of `B`; the integral of `F(|B|) dl/|B|` is over the curve in space. `C108_field_lines` gives straightness, the exact formula in terms of |B| as function of Boozer angles, and that every straight line is a field line; `C108_outputs` and `C108_rate` replace it by the outputs of `run()`. Their first parts hold for the harmonics by quadrature at unbounded resolution, the second for what `run()` stores wherever its index arithmetic does not overflow (so the limit is not vacuous). Real arithmetic. The cylinder is the instance: its field lines have length `2π · 5/4`, its circulation along a helix is `2π · 11/4`. `C108_numbers` is the stability statement: approximate ι, I, G and |B| give the integral with an error proportional to theirs (an error of ι grows along the line, hence the factor `1 + |Δζ_B|`). `C108_machine` applies it to what `run()` stores on a machine with relative error u (Spec/LineRounding: `MachineField`), with the cylinder as instance; the integral itself is then taken exactly. `C108_file` is the same for `xbooz_xform` and the numbers in the `boozmn` file it leaves (`FileField`); the condition that the discretisation error be small is an inequality between constants of the surface, whose size is not computed. Its instance is a `wout` file whose first surface is a cylinder of constant |B| with straight field lines, in non-uniform angles.
* **C109** (positions from the outputs): proved. Input points and output points are those of the specification of wireplot (Spec/Plots: `inputPoint`, `boozerPoint`). Pointwise bound from C74's rate for R, Z, ν and the Lipschitz constants of cos and sin; `ζ_B - ν = ζ` is exact. Stated pointwise, for all pairs of Boozer angles (C66), and for the Hausdorff distance (maximum metric on the three coordinates; Mathlib's `hausdorffDist` would be 0 for sets at infinite distance, which the pointwise parts exclude). As for C108 the first part is at unbounded resolution, the second about the outputs of `run()`. Real arithmetic.
* **C110** (functions and positions from the file, on a machine): proved. C74's uniform rate for the sums over all harmonics plus C69's bound for each harmonic, times the number of modes (so `D` depends on the resolution, `C` does not); positions as in C109; then C71 (`C110_load`) and the steps of C91 (`C110_file`) carry it to files. The values of the file's numbers are added exactly: the reader's own rounding is not part of the claim. The same file is left by the Python script under the conditions of C44. The example is a `wout` file with λ = 0 and one harmonic of the covariant field (`Ex.soft`), loaded and transformed on machines with any number of bits.
* **C111** (what the figures show): proved. C50 and C51 say which sums are drawn, C74's rate (through `surface_rate`) and C109 what these sums are, C63 carries the figures over to the file. `Spec/Figures.lean` states it for any drawing function. The solid surface of `wireplot` is not part of the claim (C64), nor is `refine = 1` (C51), nor the interpolation between the points by the plotting libraries. `C111_machine` (Props/FigureRounding) adds rounding for `surfplot`: the plane drawn is written as one expression over any arithmetic (`surfplot_any`), which is `Stable`; over ℝ it is the sum of C50. `C111_file` goes from the `wout` file through `xbooz_xform` and the `boozmn` file to the figure on a machine; its hypothesis that negating twice changes nothing (true of IEEE numbers) comes from C33. `C111_machine_wires` and `C111_file_wires` (Props/WireRounding) are the same for the lines of `wireplot`: those of constant Boozer angles with error `C / mboz^p + D u`, and those of the original angles (objects only, C51) with error `D u`. The solid surface is not part of the statements.
* **C112** (accuracy of the radial interpolation): proved. `Spec/Interp.lean` states what a regular profile is and which surfaces it describes; the bounds are Taylor's formula with a Lipschitz derivative (`Lemmas/Bends.lean`), applied to the formulas of C10 and C11, then summed over the modes, then carried through the quadrature. The extrapolation to the axis for `m = 1` has the larger constant 3/8. `C112_wout` and `C112_file` (`Props/InterpFile.lean`) carry it from a `wout` file through `read_wout` and the driver to the points rebuilt from the `boozmn` file, by the triangle inequality with C110.
* **C113** (constant in λ): proved. The added amplitude adds `c` to the series of λ (`surface_shiftLam`); ν, the angles and the determinant follow, and the quadratures on the same grid are rotated exactly (no convergence argument needed, unlike C77 for general origins).
* **C114** (derivatives in the Boozer angles): proved. Spec/Derivatives: iterated partial derivatives (Mathlib's `iteratedDeriv`) of the quantity as function of the Boozer angles, and term-by-term differentiation of the series of the stored numbers; `C114_termwise`: the latter is the derivative of the sum. `C114_series` follows from C74's rate for all p by Landau's inequality (Lemmas/Landau): the difference is smaller than every power of 1/M, its derivatives grow at most like a power of M, so every derivative is smaller than every power. `C114_machine` adds rounding through C69, for the outputs of `run()`. Props/DerivFile: `C114_load` (all selected surfaces, VMEC data loaded from rounded arguments), `C114_file` (the numbers of the boozmn file that `xbooz_xform` leaves, -ν for `pmns_b`).
* **C115** (extremes of |B| and fraction of trapped particles): proved. Spec/Trapped: largest and smallest value, mirror ratio, averages in Boozer angles with weight 1/B², effective fraction of trapped particles. Lemmas/Trapped: the fraction is continuous in |B| under uniform convergence (dominated convergence three times; the inner average is bounded below away from l = 1/Bmax). `C115_machine` and `C115_file` follow from C110; `C115_field` identifies extremes and averages with those of the field in space, by C106. The tolerance of the fraction comes with an η instead of a rate, since the integrand has a square root singularity at l B = 1.
* **C116** (radial plots show the Boozer spectrum): proved. C48 and C49 (any arithmetic) say which rows of `bmnc_b` are drawn, C73 what these rows are on a machine with rounding; `curve_near` combines them for one mode, including the removed helicity and the absolute values of the logarithmic axis (Spec/RadialPlots: `CurveNear`, `shownValue`). Absolute values are assumed exact (`Compares`, as for the report, C90). In asymmetric configurations the sine coefficients are not drawn at all (C62). `C116_file` goes from the `wout` file through `xbooz_xform` and the `boozmn` file to the figures (C43, C71, C63). `fields_exist` shows that |B| is a function of the Boozer angles where these are coordinates.
* **C117** (`modeplot` shows the largest Boozer harmonics): proved (`C117_largest`). C48 (any arithmetic) gives the ranking of the stored numbers; `quad_uniform` bounds the error of the quadrature for all output modes at once, C69 the rounding, C67 identifies the integrals with the Fourier coefficients of |B| in Boozer angles; a comparison of the machine is therefore right up to twice the error (Spec/LargestModes: `ShowsLargest`). Beyond precision and exact absolute values (`Compares`) the order by which `argsort` sorts must agree with that of the numbers represented. The ranking is on the last output surface only, as in the code. `C117_file` is the same from the `wout` file through `xbooz_xform` and the `boozmn` file to the figure; the last surface is then that of the last entry of `jlist`. `C117_exact`: if the largest coefficients are separated from each other and from the rest, the legend is exactly the true list at all sufficiently high resolutions and precisions (`ranking_unique`); the example is a cylinder, where |B| is constant.
