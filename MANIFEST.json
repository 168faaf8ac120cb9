{
 "claims": [
  {
   "property": "C01",
   "status": "proved",
   "theorems": [
    "Booz.C01_trig_tables"
   ],
   "note": "exact real arithmetic"
  },
  {
   "property": "C02",
   "status": "proved",
   "theorems": [
    "Booz.C02_mode_list"
   ],
   "note": "every number type"
  },
  {
   "property": "C03",
   "status": "partial",
   "theorems": [
    "Booz.C03_false",
    "Booz.C03_partial"
   ],
   "note": "false of the code for every resolution; the true maxima are proved"
  },
  {
   "property": "C04",
   "status": "proved",
   "theorems": [
    "Booz.C04_grid"
   ],
   "note": "exact real arithmetic"
  },
  {
   "property": "C05",
   "status": "proved",
   "theorems": [
    "Booz.C05_run_safe",
    "Booz.C05_run_safe_debug",
    "Booz.C05_run_safe_debug_quiet"
   ],
   "note": "release build: every number type; debug build: exact arithmetic, or any arithmetic without the accuracy check"
  },
  {
   "property": "C06",
   "status": "partial",
   "theorems": [
    "Booz.C06_partial",
    "Booz.C06_false",
    "Booz.C06_false_empty"
   ],
   "note": "Exact condition for an accepted load to be free of undefined behaviour; the full property is false (two surfaces with an m=1 mode; empty mode lists), with witnesses."
  },
  {
   "property": "C07",
   "status": "partial",
   "theorems": [
    "Booz.C07_partial",
    "Booz.C07_false"
   ],
   "note": "Throws exactly on inconsistent arguments when there is at least one mode of each kind and nfp*ntor fits in an int; false without that restriction (witness)."
  },
  {
   "property": "C08",
   "status": "partial",
   "theorems": [
    "Booz.C08_partial",
    "Booz.C08_false"
   ],
   "note": "After a throw only ns_in differs; the full property is false (ns_in is overwritten before validation), with witness."
  },
  {
   "property": "C09",
   "status": "proved",
   "theorems": [
    "Booz.C09_half_grid_copies"
   ],
   "note": "Any arithmetic; includes shapes and that asymmetric arrays are untouched when asym is false."
  },
  {
   "property": "C10",
   "status": "proved",
   "theorems": [
    "Booz.C10_even_modes"
   ],
   "note": "Exact arithmetic; mean, bounds and exactness on affine profiles."
  },
  {
   "property": "C100",
   "status": "proved",
   "theorems": [
    "Booz.C100_unique"
   ],
   "note": "real arithmetic; angles up to additive constants"
  },
  {
   "property": "C101",
   "status": "partial",
   "theorems": [
    "Booz.C101_stale",
    "Booz.C101_leftover",
    "Booz.C101_false",
    "Booz.C101_partial"
   ],
   "note": "False of the code: a variable shorter than declared is completed by the values the object held before (C101_false, C101_leftover). C101_stale describes exactly what is stored for every file; C101_partial: complete lists are taken over whole."
  },
  {
   "property": "C102",
   "status": "proved",
   "theorems": [
    "Booz.C102_levels",
    "Booz.C102_brief",
    "Booz.C102_more"
   ],
   "note": "For calls that return. Of the numbers in the messages only those of the accuracy report are modelled."
  },
  {
   "property": "C103",
   "status": "partial",
   "theorems": [
    "Booz.C103_kept",
    "Booz.C103_mixed",
    "Booz.C103_false",
    "Booz.C103_partial"
   ],
   "note": "False of the code: read_wout keeps the results of an earlier run, so write_boozmn after it combines two equilibria (C103_mixed for all files, C103_false for a concrete session). C103_partial covers sessions that only write or set verbose after the run."
  },
  {
   "property": "C104",
   "status": "partial",
   "theorems": [
    "Booz.C104_kept",
    "Booz.C104_grafted",
    "Booz.C104_aspect",
    "Booz.C104_chi",
    "Booz.C104_false",
    "Booz.C104_partial"
   ],
   "note": "False of the code: aspect, the input spectra and mode lists survive read_boozmn (C104_kept, all files and outcomes), so a later run or write combines two equilibria (C104_grafted, C104_aspect, C104_false); a file without chi_b leaves an earlier chi (C104_chi). C104_partial: every member that a complete file describes depends on the file only."
  },
  {
   "property": "C105",
   "status": "proved",
   "theorems": [
    "Booz.C105_mean_squares",
    "Booz.C105_asymmetry",
    "Booz.C105_zero",
    "Booz.C105_all_mean_squares",
    "Booz.C105_all_asymmetry",
    "Booz.C105_machine",
    "Booz.C105_file"
   ],
   "note": "Exact arithmetic, sums over modes up to K, and over all output modes under the resolution condition of C74; with rounding, and from the file (there for |B| and the Jacobian), for the roots of the sums over all output modes."
  },
  {
   "property": "C106",
   "status": "proved",
   "theorems": [
    "Booz.C106_flux_average",
    "Booz.C106_outputs",
    "Booz.C106_machine",
    "Booz.C106_file"
   ],
   "note": "Volumes and volume averages are Lebesgue measures and integrals in three-dimensional space; hypotheses as for C99 plus nested surfaces (C1 positions, one-to-one within a period). C106_machine covers rounding in run(), C106_file the way from wout file to boozmn file."
  },
  {
   "property": "C107",
   "status": "proved",
   "theorems": [
    "Booz.C107_circulation",
    "Booz.C107_file"
   ],
   "note": "exact at every resolution; C107_file: the same from wout file to boozmn file with the error of the wout data only, in any arithmetic"
  },
  {
   "property": "C108",
   "status": "proved",
   "theorems": [
    "Booz.C108_field_lines",
    "Booz.C108_outputs",
    "Booz.C108_rate",
    "Booz.C108_numbers",
    "Booz.C108_machine",
    "Booz.C108_file"
   ],
   "note": "M and N comparable and the grid resolving the angles, as in C74; C108_machine and C108_file cover rounding in run() and the way through the files, with the integral of the stored numbers taken exactly"
  },
  {
   "property": "C109",
   "status": "proved",
   "theorems": [
    "Booz.C109_positions"
   ],
   "note": "real arithmetic; M and N comparable and the grid resolving the angles, as in C74"
  },
  {
   "property": "C11",
   "status": "proved",
   "theorems": [
    "Booz.C11_odd_exact",
    "Booz.C11_odd_formula"
   ],
   "note": "Exact arithmetic; documented formula and exactness on sqrt(s)(c+d s), including the innermost surface."
  },
  {
   "property": "C110",
   "status": "proved",
   "theorems": [
    "Booz.C110_machine",
    "Booz.C110_load",
    "Booz.C110_file"
   ],
   "note": "C110_machine: run() on every machine of small enough precision with inputs near exact ones; C110_load: the same from VMEC data through init_from_vmec; C110_file: from the wout file to the boozmn file through the driver. Error C/mboz^p + D u, C independent of resolution and machine. The sum of the file's numbers is taken exactly."
  },
  {
   "property": "C111",
   "status": "proved",
   "theorems": [
    "Booz.C111_figures",
    "Booz.C111_machine",
    "Booz.C111_file",
    "Booz.C111_machine_wires",
    "Booz.C111_file_wires"
   ],
   "note": "For all parameters of surfplot and wireplot, object or file; error C/mboz^p for every p with C independent of the resolution. C111_machine, C111_machine_wires: surfplot and all lines of wireplot with rounding; C111_file, C111_file_wires: from the wout file through xbooz_xform and the boozmn file to the figure on a machine. Not included: the solid surface of wireplot (C64), refine = 1 (C51, false)."
  },
  {
   "property": "C112",
   "status": "proved",
   "theorems": [
    "Booz.C112_harmonics",
    "Booz.C112_surfaces",
    "Booz.C112_outputs",
    "Booz.C112_wout",
    "Booz.C112_file"
   ],
   "note": "Second-order error bounds for the loaded harmonics, the loaded surfaces, the output harmonics of R and Z, and the points rebuilt from the boozmn file."
  },
  {
   "property": "C113",
   "status": "proved",
   "theorems": [
    "Booz.C113_constant"
   ],
   "note": "Exact rotation of all harmonics; the origin of the angles moves."
  },
  {
   "property": "C114",
   "status": "proved",
   "theorems": [
    "Booz.C114_termwise",
    "Booz.C114_series",
    "Booz.C114_machine",
    "Booz.C114_load",
    "Booz.C114_file"
   ],
   "note": "M and N comparable and the grid resolving the angles, as in C74; the constants depend on the orders of the derivatives"
  },
  {
   "property": "C115",
   "status": "proved",
   "theorems": [
    "Booz.C115_machine",
    "Booz.C115_file",
    "Booz.C115_field"
   ],
   "note": "Extremes of |B|, mirror ratio and effective fraction of trapped particles from the stored harmonics and from the file, in machine arithmetic; identified with those of the field in space."
  },
  {
   "property": "C116",
   "status": "proved",
   "theorems": [
    "Booz.C116_radial_plots",
    "Booz.C116_file"
   ],
   "note": "modeplot: every curve labelled (m, n); symplot: the unlabelled curve of each output mode within the limits. Both axes, both scales, removed helicity included, from the object and from the boozmn file. Absolute values without rounding (Compares)."
  },
  {
   "property": "C117",
   "status": "proved",
   "theorems": [
    "Booz.C117_largest",
    "Booz.C117_file",
    "Booz.C117_exact"
   ],
   "note": "machine arithmetic, from state and from the files; ranking on the last output surface up to quadrature and rounding error; exact for separated coefficients (from state)"
  },
  {
   "property": "C12",
   "status": "proved",
   "theorems": [
    "Booz.C12_half_grid"
   ],
   "note": "Exact arithmetic."
  },
  {
   "property": "C13",
   "status": "proved",
   "theorems": [
    "Booz.C13_defaults"
   ],
   "note": "Any arithmetic; includes the frame condition."
  },
  {
   "property": "C14",
   "status": "partial",
   "theorems": [
    "Booz.C14_false",
    "Booz.C14_partial"
   ],
   "note": "False of the code: a left-over compute_surfs is validated against the new ns (C14_false, concrete file and objects). Proved for all pairs of objects whose selections are legal for the new ns."
  },
  {
   "property": "C15",
   "status": "proved",
   "theorems": [
    "Booz.C15_flux_functions"
   ],
   "note": "every number type"
  },
  {
   "property": "C16",
   "status": "proved",
   "theorems": [
    "Booz.C16_quadrature"
   ],
   "note": "exact real arithmetic"
  },
  {
   "property": "C17",
   "status": "proved",
   "theorems": [
    "Booz.C17_covariant"
   ],
   "note": "exact real arithmetic"
  },
  {
   "property": "C18",
   "status": "proved",
   "theorems": [
    "Booz.C18_weight"
   ],
   "note": "exact real arithmetic"
  },
  {
   "property": "C19",
   "status": "proved",
   "theorems": [
    "Booz.C19_field_lines"
   ],
   "note": "exact real arithmetic"
  },
  {
   "property": "C20",
   "status": "proved",
   "theorems": [
    "Booz.C20_product",
    "Booz.C20_scaling",
    "Booz.C16_quadrature"
   ],
   "note": "exact real arithmetic; that the harmonics are those of (G+iota I)/B^2 is a clause of C16"
  },
  {
   "property": "C21",
   "status": "proved",
   "theorems": [
    "Booz.C21_aliasing",
    "Booz.C21_identity",
    "Booz.C21_harmonic"
   ],
   "note": "Exact real arithmetic; the aliasing formula holds without any assumption on the resolution."
  },
  {
   "property": "C22",
   "status": "proved",
   "theorems": [
    "Booz.C22_symmetric_agrees"
   ],
   "note": "exact real arithmetic"
  },
  {
   "property": "C23",
   "status": "proved",
   "theorems": [
    "Booz.C23_run",
    "Booz.C23_load"
   ],
   "note": "Any arithmetic: run() ignores the asymmetric members, init_from_vmec the asymmetric arguments, when asym is false."
  },
  {
   "property": "C24",
   "status": "partial",
   "theorems": [
    "Booz.C24_false",
    "Booz.C24_partial"
   ],
   "note": "false of the code after an asymmetric run; proved for objects whose asymmetric outputs start empty"
  },
  {
   "property": "C25",
   "status": "proved",
   "theorems": [
    "Booz.C25_surfaces_independent"
   ],
   "note": "every number type"
  },
  {
   "property": "C26",
   "status": "proved",
   "theorems": [
    "Booz.C26_selection"
   ],
   "note": "every number type"
  },
  {
   "property": "C27",
   "status": "proved",
   "theorems": [
    "Booz.C27_history_free",
    "Booz.C27_idempotent",
    "Booz.C27_inputs_kept"
   ],
   "note": "every number type"
  },
  {
   "property": "C28",
   "status": "proved",
   "theorems": [
    "Booz.C28_verbose"
   ],
   "note": "every number type"
  },
  {
   "property": "C29",
   "status": "proved",
   "theorems": [
    "Booz.C29_parallel",
    "Booz.C29_lines",
    "Booz.C29_completes",
    "Booz.C29_ready"
   ],
   "note": "Every number of threads, assignment and interleaving of loads, stores and prints; exact equality of all outputs in any arithmetic, race freedom, termination, contiguous report blocks. Trusted: OpenMP gives the interleavings described, race-free programs have interleaving semantics, one line is printed as a whole."
  },
  {
   "property": "C30",
   "status": "proved",
   "theorems": [
    "Booz.C30_report"
   ],
   "note": "exact real arithmetic"
  },
  {
   "property": "C31",
   "status": "proved",
   "theorems": [
    "Booz.C31_linear_R",
    "Booz.C31_linear_Z",
    "Booz.C31_linear_B"
   ],
   "note": "exact real arithmetic"
  },
  {
   "property": "C32",
   "status": "proved",
   "theorems": [
    "Booz.C32_field_scaling"
   ],
   "note": "exact real arithmetic"
  },
  {
   "property": "C33",
   "status": "proved",
   "theorems": [
    "Booz.C33_roundtrip",
    "Booz.C33_roundtrip_s_b",
    "Booz.C33_loaded_grid"
   ],
   "note": "For every object with results (HasResults, established for run by C34_run), every pattern of library failures under which the write returned, and every receiving object. s_b is restored when s_in is the half grid, which init_from_vmec sets."
  },
  {
   "property": "C34",
   "status": "proved",
   "theorems": [
    "Booz.C34_layout",
    "Booz.C34_total",
    "Booz.C34_run"
   ],
   "note": ""
  },
  {
   "property": "C35",
   "status": "partial",
   "theorems": [
    "Booz.C35_false",
    "Booz.C35_partial"
   ],
   "note": "False for beta_b with flux profiles present: C35_false exhibits indeterminate cells; C35_partial proves everything else, and that all of beta_b is then indeterminate."
  },
  {
   "property": "C36",
   "status": "partial",
   "theorems": [
    "Booz.C36_false",
    "Booz.C36_partial"
   ],
   "note": "False: phip[0] is set to 0. C36_partial: nothing else ever changes, for every object, environment and outcome."
  },
  {
   "property": "C37",
   "status": "partial",
   "theorems": [
    "Booz.C37_false",
    "Booz.C37_partial"
   ],
   "note": "False without chi_b in the file. C37_partial: with chi_b and determinate file contents every member set is determinate."
  },
  {
   "property": "C38",
   "status": "partial",
   "theorems": [
    "Booz.C38_false",
    "Booz.C38_partial"
   ],
   "note": "False for aspect_b and beta_b. C38_partial: dimensions and the data of all other variables are equal."
  },
  {
   "property": "C39",
   "status": "proved",
   "theorems": [
    "Booz.C39_loads",
    "Booz.C39_missing",
    "Booz.C39_unreadable",
    "Booz.C39_safe"
   ],
   "note": "readWout (model of read_wout.cpp:11-115 and netcdf_reader.cpp) against the specification Spec/Wout.lean, which states itself how values are converted (integers read as doubles, doubles truncated to integers). Standing hypothesis WoutShapes: variables that are present have the documented types and lengths."
  },
  {
   "property": "C40",
   "status": "partial",
   "theorems": [
    "Booz.C40_false",
    "Booz.C40_wrong_length",
    "Booz.C40_partial"
   ],
   "note": "False: every nonempty reassignment of another length gives undefined behaviour (C40_wrong_length); values changed at equal length give a wrong jlist (C40_false). C40_partial: at equal length the computed results are written."
  },
  {
   "property": "C41",
   "status": "proved",
   "theorems": [
    "Booz.C41_empty_selection"
   ],
   "note": ""
  },
  {
   "property": "C42",
   "status": "partial",
   "theorems": [
    "Booz.C42_false",
    "Booz.C42_window",
    "Booz.C42_lost",
    "Booz.C42_partial"
   ],
   "note": "False for every successful write (C42_window) and after a failed call (C42_lost). C42_partial: the target is old, unreadable or complete, complete exactly on return; other files are never touched."
  },
  {
   "property": "C43",
   "status": "proved",
   "theorems": [
    "Booz.C43_correct",
    "Booz.C43_usage",
    "Booz.C43_exact",
    "Booz.C43_console"
   ],
   "note": "For input files of the documented form (Spec.Asks): on return the boozmn file is the one of the requested transformation and no other file changed; exact condition for success when the wout file loads and system calls succeed (otherwise undefined behaviour, see C61). C43_console: the surfaces announced on the console are those run, in the order run."
  },
  {
   "property": "C44",
   "status": "partial",
   "theorems": [
    "Booz.C44_partial",
    "Booz.C44_no_file",
    "Booz.C44_false",
    "Booz.C44_range"
   ],
   "note": "False for files such as \"16 8 x 5abc\" or \"1_6 8 x\" (C44_false), and whenever a listed surface does not fit in an int (C44_range: C++ silently drops it and all that follow). Proved: same request, same outcome and same files for input files with plain 32-bit integers."
  },
  {
   "property": "C45",
   "status": "partial",
   "theorems": [
    "Booz.C45_false",
    "Booz.C45_partial"
   ],
   "note": "false of the code; proved for mpol one larger than documented"
  },
  {
   "property": "C46",
   "status": "partial",
   "theorems": [
    "Booz.C46_false",
    "Booz.C46_partial"
   ],
   "note": "false of the code; proved when declared with one extra poloidal mode"
  },
  {
   "property": "C47",
   "status": "proved",
   "theorems": [
    "Booz.C47_fits",
    "Booz.C47_overflow"
   ],
   "note": "every number type"
  },
  {
   "property": "C48",
   "status": "partial",
   "theorems": [
    "Booz.C48_partial",
    "Booz.C48_real_partial",
    "Booz.C48_false"
   ],
   "note": "Every sorting argsort, all spectra and parameters, including the exception when nmodes is too large. False as stated when the surfaces are listed inwards (C48_false): the largest modes at the last output surface are shown, whether or not it is the outermost one; the partial theorems say exactly that."
  },
  {
   "property": "C49",
   "status": "partial",
   "theorems": [
    "Booz.C49_classes",
    "Booz.C49_partial",
    "Booz.C49_false_detail",
    "Booz.C49_false_missing"
   ],
   "note": "C49_partial lists everything that is drawn, in order. The clause on the legend is false: in detail mode Other helical may show an n=+-nfp*m mode (C49_false_detail); without detail the Helical entry is missing when all helical modes have n=+-nfp*m (C49_false_missing)."
  },
  {
   "property": "C50",
   "status": "proved",
   "theorems": [
    "Booz.C50_surfplot",
    "Booz.C50_index"
   ],
   "note": "Real arithmetic. Column agreement uses that nfp divides xn_b (true after run). C50_index: a surface index out of range raises IndexError and draws nothing."
  },
  {
   "property": "C51",
   "status": "partial",
   "theorems": [
    "Booz.C51_partial",
    "Booz.C51_count",
    "Booz.C51_false_refine",
    "Booz.C51_false_default",
    "Booz.C63_false"
   ],
   "note": "refine >= 2, real arithmetic. False for refine=1 (no curve is drawn), for the default js when surfaces are listed inwards, and for the original curves of an object read from a file (C63_false)."
  },
  {
   "property": "C52",
   "status": "proved",
   "theorems": [
    "Booz.C52_convergence",
    "Booz.C52_limit"
   ],
   "note": "For fixed data, one constant per mode and order p bounds the error of all ten families of harmonics at every resolution (spectral accuracy: faster than every power of the grid size). Exact arithmetic; integrals over the whole torus."
  },
  {
   "property": "C53",
   "status": "proved",
   "theorems": [
    "Booz.C53_tables",
    "Booz.C53_linear"
   ],
   "note": "Standard model of rounding with underflow, on finite numbers of moderate size; constant c = 8. Witnessed by 53-bit round-to-nearest arithmetic."
  },
  {
   "property": "C54",
   "status": "partial",
   "theorems": [
    "Booz.C54_partial",
    "Booz.C54_false"
   ],
   "note": "Proved for all sessions, of any length, that continue after exceptions and in which runs happen while a wout file is loaded. As stated it is false: run on a new object or after read_boozmn uses unassigned members."
  },
  {
   "property": "C55",
   "status": "proved",
   "theorems": [
    "Booz.C55_reflection"
   ],
   "note": "exact real arithmetic"
  },
  {
   "property": "C56",
   "status": "proved",
   "theorems": [
    "Booz.C56_load_choose_run",
    "Booz.C56_load_run",
    "Booz.C56_load_run_debug",
    "Booz.C56_read_choose_run",
    "Booz.C56_read_run"
   ],
   "note": "Exact condition (iff) for run() after a successful init_from_vmec, for the default and for any later choice of resolution, verbosity and nonempty selection; debug build in exact arithmetic. Hypotheses: no uninitialised data handed to the loader, mpol_nyq assigned, no xn_nyq entry equal to INT_MIN. C56_read_choose_run, C56_read_run: the same for read_wout into any object, with the condition in terms of the file."
  },
  {
   "property": "C57",
   "status": "proved",
   "theorems": [
    "Booz.C57_exact",
    "Booz.C57_otherwise"
   ],
   "note": "Iff for every arithmetic (release build); otherwise undefined behaviour. Hypotheses: Prepared (members assigned, array lengths as declared, nfp>=1, a surface selected), nboz>=0."
  },
  {
   "property": "C58",
   "status": "partial",
   "theorems": [
    "Booz.C58_false",
    "Booz.C58_partial",
    "Booz.C58_negative_partial"
   ],
   "note": "False of the code: mboz=nboz=-1 returns normally on a symmetric input (C58_false). Proved: every other pair with mboz<1 or nboz<0, and this pair on asymmetric inputs, gives undefined behaviour, never a result (C58_negative_partial)."
  },
  {
   "property": "C59",
   "status": "partial",
   "theorems": [
    "Booz.C59_partial",
    "Booz.C59_messages",
    "Booz.C59_false",
    "Booz.C59_accepts",
    "Booz.C59_py_accepts",
    "Booz.C59_malformed",
    "Booz.C59_wrong_file"
   ],
   "note": "False of the C++ driver for blank files, one-number files and files not starting with a number that fits in an int (C59_false). Proved for all other files, and for all files in Python. C59_accepts: the C++ driver accepts exactly the files that start with two integers and a word. C59_malformed: with all other files it does not return normally and changes no file, and the Python driver raises an exception. C59_wrong_file: a missing file, or a NetCDF file in place of the input file."
  },
  {
   "property": "C60",
   "status": "partial",
   "theorems": [
    "Booz.C60_partial",
    "Booz.C60_false",
    "Booz.C60_after",
    "Booz.C43_console"
   ],
   "note": "False for every well-formed file (C60_false). Proved: while reading the file C++ prints what Python prints plus one or two lines (C60_partial); after that the two print the same (C60_after)."
  },
  {
   "property": "C61",
   "status": "partial",
   "theorems": [
    "Booz.C61_partial",
    "Booz.C61_false"
   ],
   "note": "False for every loadable wout file (C61_false: undefined behaviour). Proved: the driver never returns normally in that case."
  },
  {
   "property": "C62",
   "status": "partial",
   "theorems": [
    "Booz.C62_partial",
    "Booz.C62_false"
   ],
   "note": "Holds for stellarator-symmetric objects; the sine coefficients are ignored otherwise (witness)."
  },
  {
   "property": "C63",
   "status": "partial",
   "theorems": [
    "Booz.C63_partial",
    "Booz.C63_false"
   ],
   "note": "Any arithmetic with -(-x)=x. wireplot only with orig=False: with orig=True (the default) the result depends on an indeterminate member (C63_false, for every written file)."
  },
  {
   "property": "C64",
   "status": "partial",
   "theorems": [
    "Booz.C64_partial",
    "Booz.C64_false"
   ],
   "note": "Holds for stellarator symmetry wherever the curve is regular; false otherwise (witness)."
  },
  {
   "property": "C65",
   "status": "partial",
   "theorems": [
    "Booz.C65_false",
    "Booz.C65_false_run",
    "Booz.C65_partial",
    "Booz.C65_full_series"
   ],
   "note": "False as stated, by a factor 2 for (m,n) != (0,0): C65_false, and a run without discretisation error in C65_false_run. C65_partial: the limits are the printed amplitudes, doubled off the origin; C65_full_series: the printed equations hold with the sum over all m, n."
  },
  {
   "property": "C66",
   "status": "proved",
   "theorems": [
    "Booz.C66_coordinates",
    "Booz.C66_all_angles"
   ],
   "note": "Global diffeomorphism theorem for maps of the plane that commute with the lattice; degree argument by Fourier series."
  },
  {
   "property": "C67",
   "status": "proved",
   "theorems": [
    "Booz.C67_coefficients",
    "Booz.C67_outputs"
   ],
   "note": "Change of variables on the torus, with C52 for the outputs."
  },
  {
   "property": "C68",
   "status": "proved",
   "theorems": [
    "Booz.C68_reconstruct"
   ],
   "note": "Uniform convergence of Fourier series of smooth functions on the torus, C66, C67 and C52."
  },
  {
   "property": "C69",
   "status": "proved",
   "theorems": [
    "Booz.C69_rounding"
   ],
   "note": "release build; outputs compared: harmonics, s_b, Boozer_I, Boozer_G; constants depend on data and resolution"
  },
  {
   "property": "C70",
   "status": "proved",
   "theorems": [
    "Booz.C70_wellposed"
   ],
   "note": "exact arithmetic, both builds"
  },
  {
   "property": "C71",
   "status": "proved",
   "theorems": [
    "Booz.C71_load",
    "Booz.C71_load_run"
   ],
   "note": "flux profiles not compared"
  },
  {
   "property": "C72",
   "status": "proved",
   "theorems": [
    "Booz.C72_debug",
    "Booz.C72_rounding_debug"
   ],
   "note": "relative precision on numbers in [2^-64, 2^64]; ints below 2^31 exact"
  },
  {
   "property": "C73",
   "status": "proved",
   "theorems": [
    "Booz.C73_spectrum",
    "Booz.C73_load_spectrum"
   ],
   "note": "release build; constants depend on data (C) and also on the resolution (D, u0)"
  },
  {
   "property": "C74",
   "status": "proved",
   "theorems": [
    "Booz.C74_all_harmonics",
    "Booz.C74_axisymmetric",
    "Booz.C74_report"
   ],
   "note": "Under the stated condition that the grid resolves the change of angles (rho < 1); exact arithmetic. C74_all_harmonics: nboz >= 1; C74_axisymmetric: axisymmetric inputs with nboz = 0. First part of each is about the quadratures for all M, N, also beyond sizes that fit 32-bit integers, so that the constant is really uniform; second part about run. C74_report: the errors of the report are at most the reconstruction error over min |B|."
  },
  {
   "property": "C75",
   "status": "partial",
   "theorems": [
    "Booz.C75_false",
    "Booz.C75_partial"
   ],
   "note": "The first half is false of the code for every mboz, nboz (C75_false): inputs with zero reported errors and |B| off by half its mean. The second half holds: C75_partial."
  },
  {
   "property": "C76",
   "status": "proved",
   "theorems": [
    "Booz.C76_quasisymmetric",
    "Booz.C76_detect",
    "Booz.axi_quasi"
   ],
   "note": "Via C67 (limits of the harmonics are the Fourier coefficients in Boozer angles): a translation-invariant function on the torus has vanishing coefficients off the direction, and conversely by uniqueness of Fourier series."
  },
  {
   "property": "C77",
   "status": "proved",
   "theorems": [
    "Booz.C77_grid_steps",
    "Booz.C77_translation",
    "Booz.C77_half_turn"
   ],
   "note": "Exact covariance of the quadratures under grid translations (periodicity), of the integrals under all translations; real arithmetic."
  },
  {
   "property": "C78",
   "status": "proved",
   "theorems": [
    "Booz.C78_axisymmetric",
    "Booz.C78_nboz"
   ],
   "note": "An axisymmetric surface is invariant under one toroidal grid step, which multiplies the harmonic by a phase different from 1; real arithmetic."
  },
  {
   "property": "C79",
   "status": "proved",
   "theorems": [
    "Booz.C79_angles",
    "Booz.C79_outputs",
    "Booz.C79_symmetric"
   ],
   "note": "Exact arithmetic; conditions: RunReady, field periodicity, one (0,0) Nyquist mode in front, |B| and G+iota I nonzero, no radial current (mode by mode). chi need not make the angle monotonic."
  },
  {
   "property": "C80",
   "status": "proved",
   "theorems": [
    "Booz.C80_mirror",
    "Booz.C80_reversed_field"
   ],
   "note": "Exact arithmetic; RunReady, field periodicity, one (0,0) Nyquist mode in front, regular surfaces."
  },
  {
   "property": "C81",
   "status": "partial",
   "theorems": [
    "Booz.C81_partial",
    "Booz.C81_false",
    "Booz.C81_assign_partial",
    "Booz.C81_assign_false"
   ],
   "note": "C81_false: a legal session in which the contents of an array taken before change, and one in which using it is undefined behaviour; C81_partial says exactly what an array taken before shows. pybind11 (reference_internal) and Eigen (new storage iff the number of elements changes) are assumed, see Model/Views.lean."
  },
  {
   "property": "C82",
   "status": "proved",
   "theorems": [
    "Booz.C82_exponential"
   ],
   "note": "Integrands extend to bounded holomorphic functions of a strip in each angle (every width for |B|, R, Z, nu; some width for the Jacobian because |B| does not vanish on the real torus); Fourier coefficients by shifting the contour; aliasing; grid in two angles."
  },
  {
   "property": "C83",
   "status": "partial",
   "theorems": [
    "Booz.C83_partial",
    "Booz.C83_reordered",
    "Booz.C83_debug",
    "Booz.C83_false",
    "Booz.C83_repeated"
   ],
   "note": "Exact arithmetic. Proved for every output except Boozer_I_all and Boozer_G_all, for any two lists with the same functions in which the Nyquist mode (0,0) occurs once, anywhere; for all outputs if it is first in both. The full statement is false of the code. C83_false: init.cpp:155-156 fills Boozer_I_all and Boozer_G_all (buco_b, bvco_b in the output file) from row 0 whatever mode that is, and a debug build aborts exactly when the first Nyquist mode is not (0,0) (C83_debug), although surface_solve.cpp:91-107 finds that mode wherever it is. C83_repeated: with (0,0) listed twice surface_solve.cpp:103-104 assigns where it should add, so only the last counts."
  },
  {
   "property": "C84",
   "status": "partial",
   "theorems": [
    "Booz.C84_results",
    "Booz.C84_s_in",
    "Booz.C84_s_in_false",
    "Booz.C84_file",
    "Booz.C84_flux_false",
    "Booz.C84_partial",
    "Booz.C84_loaded"
   ],
   "note": "False of the code in two respects: toroidal_flux is never written to the file, a reader takes phi[ns_in] instead (C84_flux_false; C84_file for every object), and a run with s_in shorter than a selected surface has undefined behaviour (C84_s_in, C84_s_in_false). Proved: none of these attributes influences the results, s_in only s_b (C84_results); aspect is in the file (C84_file); toroidal_flux survives when it is the last element of phi (C84_partial), as after loading VMEC data with flux profiles (C84_loaded)."
  },
  {
   "property": "C85",
   "status": "proved",
   "theorems": [
    "Booz.C85_copy",
    "Booz.C85_file"
   ],
   "note": "For every list of assignments, every history of the receiving object and every arithmetic. Integers must fit in an int (other values are refused by the bindings). C85_file needs flux profiles absent or of length ns_in+1."
  },
  {
   "property": "C86",
   "status": "partial",
   "theorems": [
    "Booz.C86_exact",
    "Booz.C86_false",
    "Booz.C86_dropped",
    "Booz.C86_partial",
    "Booz.C86_assigned_partial"
   ],
   "note": "False of the code: write_boozmn looks at the length of phip only. Exact contract (C86_exact): a file is written iff phip is empty or all four profiles have at least ns_in+1 elements, otherwise the behaviour is undefined (array read past its end); C86_false: only phip assigned. Without phip the other profiles are dropped and zeros written (C86_dropped). C86_partial: profiles that are long enough are stored, the first element of phip as 0. C86_assigned_partial: the same for programs that assign the four profiles in any order and with repetitions; the last values count."
  },
  {
   "property": "C87",
   "status": "proved",
   "theorems": [
    "Booz.C87_run",
    "Booz.C87_assign"
   ],
   "note": "Ideal real arithmetic for the results; any arithmetic for the assignments. pybind11 and Eigen (views without copies, assignment copies) are assumptions of Model/Views.lean and Model/AttrViews.lean."
  },
  {
   "property": "C88",
   "status": "proved",
   "theorems": [
    "Booz.C88_exact",
    "Booz.C88_limit"
   ],
   "note": "Ideal real arithmetic. That both descriptions are well-formed inputs (sizes fit in an int) is a hypothesis."
  },
  {
   "property": "C89",
   "status": "partial",
   "theorems": [
    "Booz.C89_false",
    "Booz.C89_partial",
    "Booz.C89_possible_partial",
    "Booz.C89_exhausts",
    "Booz.C89_call",
    "Booz.C89_unreadable",
    "Booz.C89_missing",
    "Booz.C89_rejected",
    "Booz.C89_write"
   ],
   "note": "Full statement is false of the code (C89_false, C89_exhausts). Proved: which calls keep a file open, and that sessions with fewer failures than the limit are exactly those of the model without counting."
  },
  {
   "property": "C90",
   "status": "proved",
   "theorems": [
    "Booz.C90_report",
    "Booz.C90_meaning"
   ],
   "note": "Compares says that abs and max are exact on finite numbers, as in IEEE 754; as in C69 the constant is not computed. The printed digits (printf %12g etc.) are not modelled: the report is the list of numbers handed to the output stream."
  },
  {
   "property": "C91",
   "status": "proved",
   "theorems": [
    "Booz.C91_file",
    "Booz.C91_python"
   ],
   "note": "C depends on the equilibrium, the list of surfaces, (m, n) and p; D and u0 also on the resolution and K; none is computed. NoFailure excludes failing system calls and VersionOk a version string that cannot be stored, as in C43. CanRun is the exact condition of C43 under which the driver returns."
  },
  {
   "property": "C92",
   "status": "partial",
   "theorems": [
    "Booz.C92_false",
    "Booz.C92_partial",
    "Booz.C92_session_partial",
    "Booz.C92_same",
    "Booz.C92_run"
   ],
   "note": "False of the code: NetCDFReader::ERR prints unconditionally, and read_boozmn catches the error of a missing chi_b after it has been printed (C92_false). Proved: with verbose <= 0 a call that returns prints nothing except one error message for a boozmn file without chi_b; a failing call prints at most its error messages; over sessions of any length. Also the messages do not affect the calls (C92_same), and run with verbose > 0 prints one report per surface (C92_run)."
  },
  {
   "property": "C93",
   "status": "partial",
   "theorems": [
    "Booz.C93_false",
    "Booz.C93_partial",
    "Booz.C93_rejected",
    "Booz.C93_phip",
    "Booz.C93_omitted",
    "Booz.C93_symmetric",
    "Booz.C93_order"
   ],
   "note": "False of the code: C93_false (documented keyword phip, and documented omissions, raise TypeError). C93_partial and C93_rejected say exactly which calls work and what they do; missing is only what the code does not do."
  },
  {
   "property": "C94",
   "status": "partial",
   "theorems": [
    "Booz.C94_false",
    "Booz.C94_contradictory",
    "Booz.C94_partial",
    "Booz.C94_complete",
    "Booz.C39_safe",
    "Booz.C39_missing"
   ],
   "note": "False in general: C94_contradictory (every numeric file whose contents do not fit gives undefined behaviour), with concrete files in C94_false (nfp = 0; one surface too many). C94_partial: a normal return means that the contents fitted. C94_complete: and that every profile and table had exactly as many values as the scalars say. Files that fit: C39_safe, C39_missing."
  },
  {
   "property": "C95",
   "status": "partial",
   "theorems": [
    "Booz.C95_missing",
    "Booz.C95_false",
    "Booz.C95_contradictory",
    "Booz.C95_too_few",
    "Booz.C95_scrambled",
    "Booz.C95_partial"
   ],
   "note": "C95_missing: incomplete files are reported by an exception. Contradictory files, false in general: C95_contradictory, C95_too_few (undefined behaviour), C95_scrambled (loads with values attached to other modes), with concrete files in C95_false. C95_partial: what a normal return implies."
  },
  {
   "property": "C96",
   "status": "partial",
   "theorems": [
    "Booz.C96_false",
    "Booz.C96_partial",
    "Booz.C96_modeplot_partial"
   ],
   "note": "False of the code when modes are left out: C96_false. Proved when the largest amplitude is positive and drawn (modeplot: and on the last surface)."
  },
  {
   "property": "C97",
   "status": "partial",
   "theorems": [
    "Booz.C97_false",
    "Booz.C97_partial"
   ],
   "note": "False of the code: legend lines ignore the limits (C97_false, every run with nboz above max_n). Proved for all lines without a legend label."
  },
  {
   "property": "C98",
   "status": "partial",
   "theorems": [
    "Booz.C98_false",
    "Booz.C98_too_few",
    "Booz.C98_partial",
    "Booz.C98_extra"
   ],
   "note": "False of the code as stated (C98_false): with mnmax_nyq < mnmax the documented lmns has too few rows and every run over a surface reads out of range (C98_too_few). C98_partial covers mnmax <= mnmax_nyq; C98_extra is the general statement that further entries of input arrays have no effect on a run that returns."
  },
  {
   "property": "C99",
   "status": "proved",
   "theorems": [
    "Booz.C99_field"
   ],
   "note": "real arithmetic; field equations stated in space (Spec/Field.lean)"
  }
 ]
}