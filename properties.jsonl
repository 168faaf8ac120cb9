{"id": "C01", "title": "Trig tables are exact cosines and sines", "statement": "init_trig, given tables that start out zero and have at least mmax+1 (and 2) poloidal and nmax+1 toroidal columns, fills them so that, in exact arithmetic, column m of the poloidal tables holds cos(m*theta_j) and sin(m*theta_j) and column n of the toroidal tables holds cos(n*nfp*zeta_j) and sin(n*nfp*zeta_j), for every m<=mmax, n<=nmax and every point j, and no other entry changes.", "quantifier": "all grids (any number of points, any real angles), all mmax, nmax, nfp", "why_tests_cant": "The doctest checks one 13-point grid with mpol=5, ntor=7, nfp=3; the recurrence has to be right for every column index and every angle.", "anchors": ["src/_booz_xform/init_trig.cpp: booz_xform::init_trig"]}
{"id": "C02", "title": "Output mode list is exactly the half-plane of modes, without repetition", "statement": "After run(), mnboz=(2*nboz+1)*(mboz-1)+nboz+1, xm_b and xn_b have that length, entry 0 is (0,0), and the list of pairs contains each (m, n*nfp) with 0<=m<=mboz-1, |n|<=nboz and (m>0 or n>=0) exactly once and nothing else, in lexicographic order.", "quantifier": "all mboz>=1, nboz>=0, nfp", "why_tests_cant": "Tests look at four (mboz,nboz) pairs; the counting formula, the absence of duplicates and the order must hold for every resolution.", "anchors": ["src/_booz_xform/init.cpp: Booz_xform::init (lines 40-63)"]}
{"id": "C03", "title": "mboz is the largest poloidal mode number of the output", "statement": "The documentation calls mboz the maximum poloidal mode number of the output: for every resolution some output mode should have m = mboz and none a larger m. (The code stops at mboz-1; nboz by contrast is reached.)", "quantifier": "all mboz>=1, nboz>=0", "why_tests_cant": "It is a claim about every resolution; a regression test against reference files cannot show that the documented maximum is never reached.", "anchors": ["src/_booz_xform/init.cpp: Booz_xform::init (lines 53-62)", "src/_booz_xform/booz_xform.hpp: Booz_xform::mboz"]}
{"id": "C04", "title": "Integration grid is the uniform tensor grid on one field period", "statement": "run() integrates on ntheta*nzeta points theta=2*pi*a/ntheta, zeta=2*pi*b/(nfp*nzeta) with ntheta=4*mboz+2 and nzeta=4*nboz+2 (1 when nboz=0); without stellarator symmetry a runs over the whole circle, with stellarator symmetry over 0..ntheta/2 inclusive; zeta is the fast index.", "quantifier": "all mboz>=1, nboz>=0, nfp>=1, both values of asym", "why_tests_cant": "Off-by-one errors in the half grid only appear for particular parities and resolutions; tests use four.", "anchors": ["src/_booz_xform/init.cpp: Booz_xform::init (lines 34-38, 88-120)"]}
{"id": "C05", "title": "run() never leaves its arrays, divides by integer zero or overflows an int on well-formed input", "statement": "For an object whose input arrays have the documented sizes, with nfp>=1, xn multiples of nfp, mode numbers within (mpol,ntor) and (mpol_nyq,ntor_nyq), at least two poloidal columns, mboz>=1, nboz>=0, grid size below 2^31 and compute_surfs within 0..ns_in-1, run() completes normally: no out-of-range access, no read of an indeterminate value, no integer division by zero and no signed overflow. If moreover the first Nyquist mode is (0,0), no assertion fails in a debug build, in exact arithmetic or, without the accuracy check (verbose<=0), in any arithmetic (C72 treats the accuracy check with rounding).", "quantifier": "all well-formed objects of any size, any arithmetic on the floating-point values and any verbosity (debug build: as stated)", "why_tests_cant": "Out-of-range accesses in a Release build are silent, and tests sample a handful of sizes.", "anchors": ["src/_booz_xform/run.cpp: Booz_xform::run", "src/_booz_xform/init.cpp: Booz_xform::init", "src/_booz_xform/surface_solve.cpp: Booz_xform::surface_solve", "src/_booz_xform/check_accuracy.cpp: Booz_xform::check_accuracy"]}
{"id": "C06", "title": "Input accepted by init_from_vmec is safe to process", "statement": "Whenever init_from_vmec does not throw, it performs no out-of-range access, whatever the sizes and contents of its arguments.", "quantifier": "all ns, all matrices and vectors, all prior object states, all verbosity levels", "why_tests_cant": "The failing shapes (ns=2 together with an m=1 mode, empty mode lists, verbose=2 with tiny arrays) are corner cases of an unbounded input space.", "anchors": ["src/_booz_xform/init_from_vmec.cpp: Booz_xform::init_from_vmec (lines 34-93, 187-193, 260-281)"]}
{"id": "C07", "title": "init_from_vmec rejects exactly the inconsistent shapes it lists", "statement": "init_from_vmec throws exactly when ns<2, or nfp<1, or iotas (or a supplied flux profile) does not have length ns, or xm/xn/xm_nyq/xn_nyq do not have length mnmax/mnmax_nyq, or the first modes are not (0,0), or the last toroidal modes are not nfp*ntor / nfp*ntor_nyq, or a used matrix does not have ns columns and mnmax (mnmax_nyq) rows, or the current compute_surfs has an entry outside 0..ns-2.", "quantifier": "all arguments and all prior object states", "why_tests_cant": "A validation routine has about forty independent conditions; tests exercise none of the rejecting branches.", "anchors": ["src/_booz_xform/init_from_vmec.cpp: Booz_xform::init_from_vmec (lines 30-93)"]}
{"id": "C08", "title": "A rejected load leaves the object unchanged", "statement": "If init_from_vmec throws, the object is exactly as it was before the call.", "quantifier": "all arguments and prior states for which it throws", "why_tests_cant": "Exception safety concerns every throw point; tests never make it throw. (In the code ns_in is overwritten before validation.)", "anchors": ["src/_booz_xform/init_from_vmec.cpp: Booz_xform::init_from_vmec (line 30)"]}
{"id": "C09", "title": "Half-grid quantities are loaded without their leading dummy surface", "statement": "After a successful init_from_vmec, iota[j]=iotas[j+1] and lmns, lmnc, bmnc, bmns, bsubumnc, bsubumns, bsubvmnc, bsubvmns at (k,j) equal the argument of the same name at (k,j+1), for every mode k and surface j in 0..ns-2, where the asymmetric arrays are set only when asym is true.", "quantifier": "all accepted inputs", "why_tests_cant": "An index shift or a swapped array is visible only on data with distinct values everywhere; tests compare four equilibria after a long computation.", "anchors": ["src/_booz_xform/init_from_vmec.cpp: Booz_xform::init_from_vmec (lines 97-175)"]}
{"id": "C10", "title": "Even-m harmonics of R and Z are averaged onto the half grid", "statement": "After a successful load, for even m every radial entry of rmnc, zmns (rmns, zmnc when asym) is the mean of the two neighbouring full-grid values; it therefore lies between them, and a harmonic that is an affine function of s is reproduced exactly at s=(j+1/2)/(ns-1).", "quantifier": "all accepted inputs, all even modes, all surfaces", "why_tests_cant": "Holds for every profile, not the four sampled ones.", "anchors": ["src/_booz_xform/init_from_vmec.cpp: Booz_xform::init_from_vmec (lines 226-237)"]}
{"id": "C11", "title": "Odd-m harmonics of R and Z are interpolated through sqrt(s)", "statement": "After a successful load with ns>=3, a harmonic with odd m of the form sqrt(s)*(a+b*s) for m=1, or with odd m other than 1 and any profile sqrt(s)*(b*s), is reproduced exactly at every half-grid point s=(j+1/2)/(ns-1), including the innermost one; in general the value is the documented combination of the two neighbours (of points 1 and 2 for m=1 on the innermost surface).", "quantifier": "all accepted inputs with ns>=3, all odd modes, all surfaces", "why_tests_cant": "The axis treatment of m=1 affects a single radial point of some modes; only a universally quantified statement separates it from a near miss.", "anchors": ["src/_booz_xform/init_from_vmec.cpp: Booz_xform::init_from_vmec (lines 211-284)"]}
{"id": "C12", "title": "The input radial grid is the uniform half grid", "statement": "After a successful load s_in has length ns-1, s_in[j]=(j+1/2)/(ns-1), its entries lie strictly between 0 and 1, increase strictly and are symmetric about 1/2.", "quantifier": "all ns>=2", "why_tests_cant": "All ns.", "anchors": ["src/_booz_xform/init_from_vmec.cpp: Booz_xform::init_from_vmec (lines 211-220)"]}
{"id": "C13", "title": "Defaults after loading", "statement": "After a successful load ns_in=ns-1, compute_surfs=0..ns_in-1, mboz=6*mpol, nboz=max(2*ntor-1,0); flux profiles chi, pres, phi are the supplied ones, phip is -phip/(2*pi) and toroidal_flux is the last phi when profiles are supplied, otherwise these profiles are empty and toroidal_flux is 0; xm, xn, xm_nyq, xn_nyq, nfp, asym, verbose, aspect and all outputs are untouched.", "quantifier": "all accepted inputs and all prior states", "why_tests_cant": "Frame conditions ('nothing else changes') are not observable by finitely many tests.", "anchors": ["src/_booz_xform/init_from_vmec.cpp: Booz_xform::init_from_vmec (lines 97-123, 297-299)"]}
{"id": "C14", "title": "Loading does not depend on what the object held before", "statement": "Calling read_wout on a used object succeeds exactly when it succeeds on a fresh one and gives the same input data. (False in the code: the compute_surfs left by an earlier load or user choice is validated against the new ns before being replaced.)", "quantifier": "all histories of the object", "why_tests_cant": "Depends on the history of the object; tests that reuse an object use files of equal size.", "anchors": ["src/_booz_xform/init_from_vmec.cpp: Booz_xform::init_from_vmec (lines 90-93, 122-123)"]}
{"id": "C15", "title": "Boozer_I and Boozer_G are the m=n=0 covariant harmonics", "statement": "After run(), Boozer_I_all[j] and Boozer_G_all[j] equal the first rows of bsubumnc and bsubvmnc on every input surface and, when (0,0) occurs once in (xm_nyq,xn_nyq), Boozer_I[k] and Boozer_G[k] equal these arrays at compute_surfs[k].", "quantifier": "all well-formed inputs, all selections of surfaces, any arithmetic", "why_tests_cant": "Selection and ordering bugs show only for particular compute_surfs.", "anchors": ["src/_booz_xform/init.cpp: Booz_xform::init (lines 148-157)", "src/_booz_xform/surface_solve.cpp: Booz_xform::surface_solve (lines 91-107)"]}
{"id": "C16", "title": "Every output harmonic is the quadrature of the theory's integral", "statement": "In exact arithmetic, after run(), each entry of bmnc_b, bmns_b, rmnc_b, rmns_b, zmns_b, zmnc_b, numns_b, numnc_b, gmnc_b, gmns_b equals 2/(ntheta*nzeta) (1/(ntheta*nzeta) for m=n=0) times the sum over the full uniform grid of quantity * d(theta_B,zeta_B)/d(theta,zeta) * cos or sin(m*theta_B-n*zeta_B), with theta_B=theta+lambda+iota*nu, zeta_B=zeta+nu, nu=(w-I*lambda)/(G+iota*I) and all quantities the Fourier series of the input harmonics; in the stellarator-symmetric case too, although only half the grid is summed there.", "quantifier": "all well-formed inputs, every surface, every mode, both symmetries; throughout: toroidal mode numbers multiples of nfp, (0,0) first and once among the Nyquist modes, G + iota I and |B| nonzero on the selected surfaces", "why_tests_cant": "This is the functional correctness of the whole transformation; regression tests compare four equilibria with a reference code.", "anchors": ["src/_booz_xform/surface_solve.cpp: Booz_xform::surface_solve", "src/_booz_xform/init.cpp: Booz_xform::init", "src/_booz_xform/init_trig.cpp: booz_xform::init_trig"]}
{"id": "C17", "title": "The angle difference turns the covariant field components into flux functions", "statement": "In exact arithmetic, if the input covariant harmonics carry no radial current (m*bsubv=-n*bsubu mode by mode), the nu used by run() satisfies, at every (theta,zeta), B_theta=(1+d lambda/d theta)*I+(G+iota*I)*d nu/d theta and B_zeta=G+I*d lambda/d zeta+(G+iota*I)*d nu/d zeta, so that in the new angles the covariant components are exactly I and G.", "quantifier": "all inputs without radial current and with G+iota*I nonzero, all angles; throughout: toroidal mode numbers multiples of nfp, (0,0) first and once among the Nyquist modes", "why_tests_cant": "A differential identity on a continuum of points; a wrong sign in one mode class (m=0) is invisible on most equilibria.", "anchors": ["src/_booz_xform/surface_solve.cpp: Booz_xform::surface_solve (lines 91-107, 201-212)"]}
{"id": "C18", "title": "The Jacobian used is the determinant of the angle map", "statement": "In exact arithmetic the derivative arrays are the true partial derivatives of lambda and nu, and the weight used in the quadrature is the determinant of the derivative of (theta,zeta)->(theta_B,zeta_B), at every point.", "quantifier": "all inputs, all angles; throughout: toroidal mode numbers multiples of nfp, (0,0) first and once among the Nyquist modes", "why_tests_cant": "Requires calculus over a continuum.", "anchors": ["src/_booz_xform/surface_solve.cpp: Booz_xform::surface_solve (lines 140-216)"]}
{"id": "C19", "title": "Field lines stay straight", "statement": "At every point theta_B-iota*zeta_B=theta+lambda-iota*zeta: the new angles have the same field-line label as the old straight-field-line angle.", "quantifier": "all inputs, all angles; throughout: (0,0) first and once among the Nyquist modes", "why_tests_cant": "All points and all data.", "anchors": ["src/_booz_xform/surface_solve.cpp: Booz_xform::surface_solve (lines 200-208)"]}
{"id": "C20", "title": "gmnc_b is the spectrum of (G+iota*I)/B^2", "statement": "In exact arithmetic the Jacobian harmonics written by run() are those of (G+iota*I)/B^2, so scaling |B| alone by c divides them by c^2 and the field-strength and Jacobian grids multiply to G+iota*I wherever B is nonzero.", "quantifier": "all well-formed inputs; throughout: toroidal mode numbers multiples of nfp, (0,0) first and once among the Nyquist modes", "why_tests_cant": "All data.", "anchors": ["src/_booz_xform/surface_solve.cpp: Booz_xform::surface_solve (lines 261-262, 315, 321)"]}
{"id": "C21", "title": "Coordinates that are already Boozer are left alone, exactly", "statement": "In exact arithmetic, if lambda has no harmonics and the covariant field has only its (0,0) harmonic, then numns_b=numnc_b=0 and the output series for |B|, R and Z, evaluated at any angles, equal the input series, provided the input modes fit in the output resolution; more generally each output harmonic equals the input harmonic as long as no input mode aliases on the grid.", "quantifier": "all inputs of that kind, all resolutions, both symmetries, all angles; throughout: toroidal mode numbers multiples of nfp, G + iota I and |B| nonzero on the selected surfaces", "why_tests_cant": "Exactness of the quadrature (discrete orthogonality with halved end points) for every resolution cannot be sampled.", "anchors": ["src/_booz_xform/surface_solve.cpp: Booz_xform::surface_solve (lines 242-323)", "src/_booz_xform/init.cpp: Booz_xform::init"]}
{"id": "C22", "title": "Stellarator-symmetric and general mode agree", "statement": "In exact arithmetic, running a stellarator-symmetric configuration with asym=true and zero asymmetric arrays gives the same bmnc_b, rmnc_b, zmns_b, numns_b, gmnc_b as asym=false, and zero bmns_b, rmns_b, zmnc_b, numnc_b, gmns_b.", "quantifier": "all well-formed symmetric inputs, all resolutions; throughout: toroidal mode numbers multiples of nfp, (0,0) first and once among the Nyquist modes, G + iota I and |B| nonzero on the selected surfaces", "why_tests_cant": "Equality of a half-grid and a full-grid computation for every resolution.", "anchors": ["src/_booz_xform/surface_solve.cpp: Booz_xform::surface_solve (lines 245-286)", "src/_booz_xform/init.cpp: Booz_xform::init (lines 88-106)"]}
{"id": "C23", "title": "Asymmetric arrays are ignored in symmetric runs", "statement": "With asym=false the outcome of run() and of init_from_vmec does not depend on rmns, zmnc, lmnc, bmns, bsubumns, bsubvmns, which may be empty.", "quantifier": "all states, any arithmetic", "why_tests_cant": "Non-interference is a relation between all pairs of inputs.", "anchors": ["src/_booz_xform/surface_solve.cpp: Booz_xform::surface_solve (lines 97, 100, 148, 190, 316)", "src/_booz_xform/init_from_vmec.cpp: Booz_xform::init_from_vmec (lines 74-88, 152-175)"]}
{"id": "C24", "title": "Asymmetric outputs are empty after a symmetric run", "statement": "The header promises that for a stellarator-symmetric configuration bmns_b, gmns_b, rmns_b, zmnc_b, numnc_b have size 0 x 0 after run(). (True for a fresh object; false for an object whose previous run was asymmetric, which keeps the stale arrays.)", "quantifier": "all histories of the object", "why_tests_cant": "History-dependent; tests use fresh objects for output checks.", "anchors": ["src/_booz_xform/init.cpp: Booz_xform::init (lines 160-172)", "src/_booz_xform/booz_xform.hpp: Booz_xform::bmns_b"]}
{"id": "C25", "title": "Surfaces are independent", "statement": "Column k of every output of run() depends only on the input data of surface compute_surfs[k]: changing the data of any other surface changes no entry of that column.", "quantifier": "all pairs of well-formed inputs that agree on one surface, any arithmetic", "why_tests_cant": "Non-interference over all pairs of inputs.", "anchors": ["src/_booz_xform/surface_solve.cpp: Booz_xform::surface_solve", "src/_booz_xform/run.cpp: Booz_xform::run"]}
{"id": "C26", "title": "Selecting surfaces selects columns", "statement": "For any compute_surfs, including reordered, repeated or partial selections, column k of every output equals the column obtained for surface compute_surfs[k] when all surfaces are transformed, and s_b[k]=s_in[compute_surfs[k]].", "quantifier": "all selections, all well-formed inputs, any arithmetic", "why_tests_cant": "Unboundedly many selections.", "anchors": ["src/_booz_xform/run.cpp: Booz_xform::run", "src/_booz_xform/init.cpp: Booz_xform::init (lines 145-147)"]}
{"id": "C27", "title": "Re-running is idempotent and history-free", "statement": "Two objects with the same inputs give the same outputs after run(), whatever they computed before; in particular run();run() equals run().", "quantifier": "all pairs of states with equal inputs, any arithmetic", "why_tests_cant": "The outputs are accumulated in place with +=; whether stale data leaks depends on every possible history.", "anchors": ["src/_booz_xform/init.cpp: Booz_xform::init (lines 148-172)", "src/_booz_xform/surface_solve.cpp: Booz_xform::surface_solve (lines 311-321)"]}
{"id": "C28", "title": "verbose does not affect results", "statement": "The numerical outputs of run() are the same for every value of verbose, although printing recomputes and overwrites work tables.", "quantifier": "all well-formed inputs, all pairs of verbosity levels", "why_tests_cant": "Non-interference.", "anchors": ["src/_booz_xform/check_accuracy.cpp: Booz_xform::check_accuracy", "src/_booz_xform/surface_solve.cpp: Booz_xform::surface_solve (lines 327-329)"]}
{"id": "C29", "title": "The result does not depend on threads or scheduling", "statement": "For every number of threads, every assignment of loop iterations to threads and every interleaving of their loads and stores to the shared object, the outputs of run() equal those of the sequential loop, and the accuracy report consists of the same two-line blocks in some order.", "quantifier": "all schedules and interleavings, all well-formed inputs", "why_tests_cant": "Interleavings cannot be enumerated or controlled by a unit test.", "anchors": ["src/_booz_xform/run.cpp: Booz_xform::run (lines 22-25)", "src/_booz_xform/surface_solve.cpp: Booz_xform::surface_solve", "src/_booz_xform/check_accuracy.cpp: Booz_xform::check_accuracy (line 126)"]}
{"id": "C30", "title": "The accuracy report is what it says", "statement": "In exact arithmetic, the values reported for each surface are |B| of the input at (theta,zeta) in {0,pi}x{0,pi/nfp} (zeta=0 twice when nboz=0) and the output Boozer series evaluated at the Boozer angles of exactly those points, and the error is their difference relative to the larger one.", "quantifier": "all well-formed inputs, all resolutions; throughout: toroidal mode numbers multiples of nfp, (0,0) first and once among the Nyquist modes, G + iota I and |B| nonzero on the selected surfaces", "why_tests_cant": "The routine reuses half-weighted tables and relies on stale zeros in them; it must be right for all resolutions.", "anchors": ["src/_booz_xform/check_accuracy.cpp: Booz_xform::check_accuracy"]}
{"id": "C31", "title": "R and Z transform linearly", "statement": "In exact arithmetic, for fixed lambda, iota and covariant field, rmnc_b and rmns_b are linear in (rmnc,rmns) and do not depend on the other quantities' harmonics, and likewise for Z and |B|.", "quantifier": "all well-formed inputs, all linear combinations; throughout: toroidal mode numbers multiples of nfp, (0,0) first and once among the Nyquist modes, G + iota I and |B| nonzero on the selected surfaces", "why_tests_cant": "Relation between arbitrary triples of inputs.", "anchors": ["src/_booz_xform/surface_solve.cpp: Booz_xform::surface_solve"]}
{"id": "C32", "title": "Field-strength scaling", "statement": "In exact arithmetic, multiplying bsubumnc, bsubumns, bsubvmnc, bsubvmns by a nonzero constant c and bmnc, bmns by c multiplies Boozer_I, Boozer_G, bmnc_b, bmns_b by c, divides gmnc_b, gmns_b by c and leaves rmnc_b, rmns_b, zmns_b, zmnc_b, numns_b, numnc_b unchanged.", "quantifier": "all well-formed inputs, all c != 0; throughout: toroidal mode numbers multiples of nfp, (0,0) first and once among the Nyquist modes", "why_tests_cant": "All data and all constants.", "anchors": ["src/_booz_xform/surface_solve.cpp: Booz_xform::surface_solve (lines 91-107, 199-216, 262)"]}
{"id": "C33", "title": "boozmn files round-trip", "statement": "Writing a computed object with write_boozmn and reading the file with read_boozmn into any object restores asym, nfp, mboz, nboz, mnboz, ns_b, ns_in, xm_b, xn_b, compute_surfs, s_b, iota, Boozer_G_all, Boozer_I_all, the five symmetric spectra, the five others when asym (otherwise they come back empty), and, when flux data were present, phip (with its first entry zeroed), chi, pres, phi and toroidal_flux; without flux data these profiles read back as zeros.", "quantifier": "all computed objects, all target objects, any arithmetic in which -(-x)=x", "why_tests_cant": "The round trip must hold for all sizes and contents; tests use twelve.", "anchors": ["src/_booz_xform/write_boozmn.cpp: Booz_xform::write_boozmn", "src/_booz_xform/read_boozmn.cpp: Booz_xform::read_boozmn", "src/_booz_xform/netcdf_writer.cpp: NetCDFWriter", "src/_booz_xform/netcdf_reader.cpp: NetCDFReader"]}
{"id": "C34", "title": "boozmn file layout", "statement": "In a file written by write_boozmn, element [k][i] (surface k slow, mode i fast) of bmnc_b, rmnc_b, zmns_b, gmn_b (and bmns_b, rmns_b, zmnc_b, gmns_b when asym) is entry (i,k) of the object's array, pmns_b and pmnc_b are minus numns_b and numnc_b, jlist=compute_surfs+2, iota_b, buco_b and bvco_b are iota, Boozer_I_all and Boozer_G_all with one 0 prepended, ns_b=ns_in+1, the dimensions have the lengths of the arrays, and the version text lies on a dimension of its own length, named dim_ and that length in at least five digits; asymmetric variables are present exactly when asym.", "quantifier": "all computed objects", "why_tests_cant": "Transposition, offset and sign errors cancel in a write/read round trip, so only an independent description of the file for all objects settles them.", "anchors": ["src/_booz_xform/write_boozmn.cpp: Booz_xform::write_boozmn", "src/_booz_xform/netcdf_writer.cpp: NetCDFWriter::put", "src/_booz_xform/netcdf_writer.cpp: NetCDFWriter::write_and_close"]}
{"id": "C35", "title": "Unimplemented fields are written as zero", "statement": "rmax_b, rmin_b, betaxis_b and beta_b are written as zeros, as their description attribute says. (False for beta_b when flux profiles are present: it is written from an uninitialised array.)", "quantifier": "all computed objects", "why_tests_cant": "Uninitialised memory is often zero in a test process.", "anchors": ["src/_booz_xform/write_boozmn.cpp: Booz_xform::write_boozmn (lines 43-52, 80-91)"]}
{"id": "C36", "title": "Writing does not change the object", "statement": "write_boozmn leaves the object unchanged. (False: phip[0] is set to 0 when flux profiles are present; nothing else changes.)", "quantifier": "all objects", "why_tests_cant": "Frame condition over all members.", "anchors": ["src/_booz_xform/write_boozmn.cpp: Booz_xform::write_boozmn (line 97)"]}
{"id": "C37", "title": "Every value an object holds after read_boozmn comes from the file", "statement": "After read_boozmn returns, no member it sets is indeterminate. (False when the file has no chi_b variable: chi is resized but never filled.)", "quantifier": "all boozmn files the reader accepts", "why_tests_cant": "Indeterminate memory cannot be tested for.", "anchors": ["src/_booz_xform/read_boozmn.cpp: Booz_xform::read_boozmn (lines 43-53)"]}
{"id": "C38", "title": "Copying a file through an object loses nothing", "statement": "Reading a boozmn file written by this program into a fresh object and writing it again gives an equal file. (False: aspect_b is not read back, and beta_b becomes indeterminate; all other variables are equal.)", "quantifier": "all files written by write_boozmn", "why_tests_cant": "Quantifies over all files.", "anchors": ["src/_booz_xform/read_boozmn.cpp: Booz_xform::read_boozmn", "src/_booz_xform/write_boozmn.cpp: Booz_xform::write_boozmn"]}
{"id": "C39", "title": "read_wout loads the variables it names", "statement": "When a wout file contains all the required variables with the documented shapes, read_wout performs no out-of-range access and behaves as init_from_vmec applied to the file's arrays, with asym, nfp, mpol, ntor, mnmax, mnmax_nyq, aspect, xm, xn, xm_nyq, xn_nyq from the file, mpol_nyq and ntor_nyq from the last Nyquist mode, and the flux profiles used only when flux=true; when a required variable is missing it throws.", "quantifier": "all wout files, all prior states, both values of flux", "why_tests_cant": "All files, including malformed ones.", "anchors": ["src/_booz_xform/read_wout.cpp: Booz_xform::read_wout", "src/_booz_xform/netcdf_reader.cpp: NetCDFReader::get"]}
{"id": "C40", "title": "write_boozmn writes what was computed", "statement": "After run(), whatever the user then assigns to inputs such as compute_surfs, write_boozmn either writes the computed results or reports an error. (False: enlarging compute_surfs after run() makes it read past the ends of the result arrays.)", "quantifier": "all computed objects, all later values of compute_surfs", "why_tests_cant": "Depends on the sequence of user actions.", "anchors": ["src/_booz_xform/write_boozmn.cpp: Booz_xform::write_boozmn (lines 25-26, 55-57, 104-124)"]}
{"id": "C41", "title": "Empty selection", "statement": "With an empty compute_surfs run() succeeds with empty outputs, and write_boozmn throws instead of writing a file, because a zero-length NetCDF dimension means unlimited and only one is allowed.", "quantifier": "all objects with an empty selection", "why_tests_cant": "Boundary of the input space crossing a library convention.", "anchors": ["src/_booz_xform/write_boozmn.cpp: Booz_xform::write_boozmn (lines 25-26)", "src/_booz_xform/netcdf_writer.cpp: NetCDFWriter::dim"]}
{"id": "C42", "title": "Failure or crash while writing", "statement": "At every crash point of write_boozmn the target file is either the old file or the complete new one. (False: the old file is truncated first; the property that does hold is that once the last variable is written and the file closed it is complete, and that other files are never touched.)", "quantifier": "all crash points, all prior contents of the file system", "why_tests_cant": "Crash points cannot be enumerated by unit tests.", "anchors": ["src/_booz_xform/netcdf_writer.cpp: NetCDFWriter::NetCDFWriter", "src/_booz_xform/netcdf_writer.cpp: NetCDFWriter::write_and_close"]}
{"id": "C43", "title": "Command-line driver runs what the input file asks for", "statement": "xbooz_xform with a readable input file runs the transformation of wout_<extension>.nc with mboz and nboz equal to the larger of the requested and the default resolution, on the sorted listed surfaces (all when none are listed), and writes boozmn_<extension>.nc; with a wrong number of arguments it prints usage, touches nothing and returns 0.", "quantifier": "all argument vectors and input file contents", "why_tests_cant": "All token sequences.", "anchors": ["src/_booz_xform/driver.cpp: booz_xform::driver"]}
{"id": "C44", "title": "C++ and Python drivers are interchangeable", "statement": "For every input file the C++ driver and the Python port read the same mboz, nboz, extension and surfaces or both report an error. (False for files such as '16 8 x 5abc': C++ reads surface 5, Python none; true for files whose tokens are plain 32-bit integers around the extension.)", "quantifier": "all input file contents", "why_tests_cant": "Two parsers agreeing on all strings.", "anchors": ["src/_booz_xform/driver.cpp: booz_xform::driver (lines 48-68)", "src/booz_xform/_cli.py: _parse_input_file", "src/booz_xform/_cli.py: main"]}
{"id": "C45", "title": "mpol may be the largest poloidal mode number of the input, as documented", "statement": "The header documents mpol as the maximum poloidal mode number of the input arrays; an object set up that way can be run safely. (False: the tables have only mpol columns, so a mode with m=mpol is read out of range; mpol must exceed every m.)", "quantifier": "all inputs set up as documented", "why_tests_cant": "Out-of-range reads are silent.", "anchors": ["src/_booz_xform/init.cpp: Booz_xform::init (lines 122-133)", "src/_booz_xform/surface_solve.cpp: Booz_xform::surface_solve (lines 141-142)", "src/_booz_xform/booz_xform.hpp: Booz_xform::mpol"]}
{"id": "C46", "title": "Single-harmonic inputs are handled", "statement": "An input with only m=0 modes (mpol=1 or mpol_nyq=0) can be transformed. (False: the table initialisation writes column 1 unconditionally.)", "quantifier": "all inputs with mpol=1 or mpol_nyq=0", "why_tests_cant": "Boundary of the input space with a silent heap overflow.", "anchors": ["src/_booz_xform/init_trig.cpp: booz_xform::init_trig (lines 23-28)", "src/_booz_xform/init.cpp: Booz_xform::init (lines 122-137)"]}
{"id": "C47", "title": "Resolution limits", "statement": "All integer quantities computed by run() fit in 32 bits exactly when the grid size (and mode count) does; for a resolution whose grid has 2^31 points or more the size computation overflows.", "quantifier": "all mboz>=1, nboz>=0", "why_tests_cant": "Resolutions near the limit cannot be run.", "anchors": ["src/_booz_xform/init.cpp: Booz_xform::init (lines 34-40, 93, 108)"]}
{"id": "C48", "title": "modeplot shows the largest modes", "statement": "modeplot plots the nmodes harmonics with the largest |amplitude| at the outermost surface, in decreasing order and without repetition, restricted to non-(0,0) modes when B0 is false and with the removed helicity treated as zero; it raises IndexError when nmodes exceeds the number of modes.", "quantifier": "all spectra and parameters", "why_tests_cant": "All spectra, including ties and short lists.", "anchors": ["src/booz_xform/plots.py: modeplot"]}
{"id": "C49", "title": "symplot classifies every mode by helicity", "statement": "symplot draws each mode with |m|<=max_m and |n|<=max_n*nfp exactly once after the legend, in the colour of its class (background, quasi-axisymmetric, mirror, helical and, in detail mode, n=+-nfp*m), the classes being disjoint and exhaustive; and the legend line of a class shows a mode of that class. (The last clause is false in detail mode: 'Other helical' may show an n=+-nfp*m mode.)", "quantifier": "all mode lists and parameters", "why_tests_cant": "All mode lists.", "anchors": ["src/booz_xform/plots.py: symplot"]}
{"id": "C50", "title": "surfplot evaluates the Boozer series", "statement": "The field plotted by surfplot at (phi,theta) is the output series of |B| at these Boozer angles (including the sine part exactly when asym), and is periodic: its first and last rows and columns agree.", "quantifier": "all computed objects, all grid sizes", "why_tests_cant": "All data and sizes.", "anchors": ["src/booz_xform/plots.py: surfplot"]}
{"id": "C51", "title": "wireplot draws the requested curves on the surface", "statement": "wireplot draws ntheta+1 constant-poloidal-angle and nphi+1 constant-toroidal-angle Boozer curves (and as many original ones) for refine>=2, each point being the point of the surface whose Boozer angles are the grid values. (False for refine=1, which draws no curves; and an object read from a boozmn file has no input data for the original curves.)", "quantifier": "all parameters and objects", "why_tests_cant": "All parameters.", "anchors": ["src/booz_xform/plots.py: wireplot"]}
{"id": "C52", "title": "Output harmonics converge to the theory's integrals", "statement": "In exact arithmetic, for fixed input data with |B| nonvanishing, as mboz and nboz grow every output harmonic converges to (1/(2*pi^2) or 1/(4*pi^2) for m=n=0) times the double integral of the theory section over one period.", "quantifier": "all inputs, all harmonics; throughout: toroidal mode numbers multiples of nfp, (0,0) first and once among the Nyquist modes", "why_tests_cant": "A limit.", "anchors": ["src/_booz_xform/surface_solve.cpp: Booz_xform::surface_solve", "docs/source/theory.rst"]}
{"id": "C53", "title": "Rounding errors of the trig recurrence stay small", "statement": "In any arithmetic whose operations have relative error at most u, the recurrence of init_trig computes cos(m*theta), sin(m*theta) with an error growing at most like (1+c*u)^m-1, i.e. linearly in m for m*u<<1.", "quantifier": "all angles, all m, all rounding patterns with relative error at most u", "why_tests_cant": "Rounding patterns cannot be enumerated.", "anchors": ["src/_booz_xform/init_trig.cpp: booz_xform::init_trig (lines 36-50)"]}
{"id": "C54", "title": "Safe sessions", "statement": "Any sequence of API calls on one object made of loads of valid files, legal assignments to mboz, nboz, verbose, compute_surfs, runs, writes after a run with unchanged selection, and reads of files written by the program never has undefined behaviour, and after each run the output sizes are consistent with mnboz and ns_b.", "quantifier": "all finite call sequences", "why_tests_cant": "Histories are unbounded.", "anchors": ["src/_booz_xform/booz_xform.hpp: class Booz_xform", "src/_booz_xform/bindings.cpp: PYBIND11_MODULE"]}
{"id": "C55", "title": "Point-reflection covariance", "statement": "In exact arithmetic with asym=true, replacing every configuration by its image under (theta,zeta)->(-theta,-zeta) with Z->-Z (negate rmns, zmnc, lmnc, bmns, bsubumns, bsubvmns) negates rmns_b, zmnc_b, numnc_b, bmns_b, gmns_b and leaves rmnc_b, zmns_b, numns_b, bmnc_b, gmnc_b unchanged.", "quantifier": "all well-formed asymmetric inputs; throughout: toroidal mode numbers multiples of nfp, (0,0) first and once among the Nyquist modes, G + iota I and |B| nonzero on the selected surfaces", "why_tests_cant": "Relation between all pairs of mirror inputs.", "anchors": ["src/_booz_xform/surface_solve.cpp: Booz_xform::surface_solve"]}
{"id": "C56", "title": "What was loaded can be transformed", "statement": "A configuration accepted by init_from_vmec (or read_wout) can be transformed by run(), with the default settings or after assigning mboz, nboz>=0, verbose and a nonempty compute_surfs, exactly when all its mode numbers respect the declared maxima (0<=xm<mpol, |xn|/nfp<=ntor, 0<=xm_nyq<=mpol_nyq, |xn_nyq|/nfp<=ntor_nyq, mpol>=2, mpol_nyq>=1), mboz>=1, the surfaces exist and the grid sizes are representable; the loader itself checks only the first and last entries of the mode lists.", "quantifier": "all arguments of init_from_vmec, all later choices of resolution and surfaces", "why_tests_cant": "Equivalence over all equilibria and settings; the failing side is undefined behaviour, which a test may not notice.", "anchors": ["src/_booz_xform/init_from_vmec.cpp: Booz_xform::init_from_vmec", "src/_booz_xform/run.cpp: Booz_xform::run"]}
{"id": "C57", "title": "The exact contract of run()", "statement": "For an object whose members are assigned and whose arrays have the declared lengths, with nboz>=0 and at least one surface selected, run() returns if and only if mboz>=1, mpol>=2, mpol_nyq>=1, all mode numbers are within the declared maxima, all compute_surfs are valid surface indices and the grid sizes fit in 32-bit integers; otherwise it has undefined behaviour (it never throws).", "quantifier": "all objects, all arithmetics", "why_tests_cant": "Needs both directions for all inputs; out-of-range accesses in a release build often go unnoticed.", "anchors": ["src/_booz_xform/run.cpp: Booz_xform::run", "src/_booz_xform/init.cpp: Booz_xform::init", "src/_booz_xform/surface_solve.cpp: Booz_xform::surface_solve"]}
{"id": "C58", "title": "Nonsense resolutions are rejected", "statement": "run() with mboz < 1 or nboz < 0 never produces a result. (False: mboz = nboz = -1 on a stellarator-symmetric input returns normally with two zero harmonics.)", "quantifier": "all objects, all values of mboz and nboz", "why_tests_cant": "All pairs of integers; most invalid pairs crash or corrupt memory instead of failing a test.", "anchors": ["src/_booz_xform/init.cpp: Booz_xform::init (lines 35-63)"]}
{"id": "C59", "title": "Malformed input files are reported as errors", "statement": "If the input file of xbooz_xform does not start with two integers followed by an extension, the program reports an error (a C++ exception with a message, or a Python exception) and touches no file. (False in C++: with an empty file, a file holding one number, or a file whose first word is not a number, driver() prints an uninitialised variable, which is undefined behaviour, before it checks the stream. True for every file in Python.)", "quantifier": "all input file contents", "why_tests_cant": "Infinitely many malformed files; reading an uninitialised int usually looks like a normal error message.", "anchors": ["src/_booz_xform/driver.cpp: booz_xform::driver (lines 47-57)", "src/booz_xform/_cli.py: _parse_input_file"]}
{"id": "C60", "title": "The two drivers print the same", "statement": "While reading the input file the Python port prints the lines the C++ driver prints, as its documentation promises. (False for every well-formed file: C++ prints one or two more lines; the usage messages differ, too.)", "quantifier": "all well-formed input files", "why_tests_cant": "All files.", "anchors": ["src/_booz_xform/driver.cpp: booz_xform::driver (lines 20-75)", "src/booz_xform/_cli.py: USAGE, _parse_input_file"]}
{"id": "C61", "title": "A listed surface that does not exist is reported", "statement": "If the input file lists a surface outside 0..ns-2, xbooz_xform reports an error. (False: for every wout file that loads and every such list the behaviour is undefined.)", "quantifier": "all input files, all wout files, all surface numbers", "why_tests_cant": "An out-of-range read of an Eigen array in a release build may go unnoticed.", "anchors": ["src/_booz_xform/driver.cpp: booz_xform::driver (lines 77-102)", "src/_booz_xform/init.cpp: Booz_xform::init"]}
{"id": "C62", "title": "Radial plots rank harmonics by their full magnitude", "statement": "modeplot shows the harmonics of |B| with the largest magnitude sqrt(bmnc_b^2 + bmns_b^2) (the sine part counting when asym is true) at the last output surface. (False for asymmetric configurations: the sine coefficients are ignored.)", "quantifier": "all computed objects and parameters", "why_tests_cant": "All spectra.", "anchors": ["src/booz_xform/plots.py: modeplot (lines 300-332)"]}
{"id": "C63", "title": "Plots made from a file equal plots made from the object", "statement": "After run() on VMEC's half grid and a successful write_boozmn, calling surfplot, symplot, modeplot or wireplot with the file name gives the figure (or exception) that the object itself gives, for all parameters. (False for wireplot with orig=True, the default: the file holds no input data, and the plot depends on a member that was never set.)", "quantifier": "all inputs, resolutions, selections, plot parameters, file systems", "why_tests_cant": "Unbounded data and parameters; indeterminate members behave differently from run to run.", "anchors": ["src/booz_xform/plots.py: handle_b_input, wireplot (lines 478-493)", "src/_booz_xform/read_boozmn.cpp"]}
{"id": "C64", "title": "The solid surface of wireplot lies just inside the flux surface", "statement": "With surf=True every point of the solid surface lies, in the poloidal plane of the corresponding point of the flux surface, at distance 0.002 from it along the inward perpendicular of the curve theta -> (R,Z). (False for asymmetric configurations: the asymmetric terms are missing from the tangent.)", "quantifier": "all computed objects and parameters", "why_tests_cant": "All surfaces.", "anchors": ["src/booz_xform/plots.py: wireplot (lines 409-442)"]}
{"id": "C65", "title": "Output harmonics are the amplitudes printed in the theory section", "statement": "With growing resolution the output harmonics tend to the amplitudes of equation change_variables of the theory section, as printed with the factor 1/(4 pi^2). (False except for (m,n)=(0,0): the printed amplitudes belong to a sum over all positive and negative m, n, the output is folded onto a half plane and is twice as large.)", "quantifier": "all inputs, surfaces, modes; throughout: toroidal mode numbers multiples of nfp, G + iota I and |B| nonzero on the surface", "why_tests_cant": "Statement about integrals and all inputs.", "anchors": ["docs/source/theory.rst:210-243", "src/_booz_xform/surface_solve.cpp: fourier_factor"]}
{"id": "C66", "title": "The Boozer angles are coordinates of the flux surface", "statement": "If the Jacobian determinant of the computed map (theta,zeta) -> (theta_B,zeta_B) vanishes nowhere on a surface, it is positive, the map is a bijection, and every smooth periodic quantity is in exactly one way a smooth function of the Boozer angles with the same periods. Without the condition every pair of Boozer angles is still attained.", "quantifier": "all inputs and surfaces, all points, all smooth quantities; throughout: toroidal mode numbers multiples of nfp, G + iota I nonzero on the surface", "why_tests_cant": "Global injectivity and surjectivity on a continuum.", "anchors": ["src/_booz_xform/surface_solve.cpp", "docs/source/theory.rst: section 1"]}
{"id": "C67", "title": "Output harmonics are the Fourier coefficients in Boozer angles", "statement": "The limits of the output harmonics are the Fourier coefficients of |B|, R, Z, nu and the Jacobian as functions of the Boozer angles (not only integrals over the original angles), with an error at finite resolution smaller than any power of the grid spacing.", "quantifier": "all inputs, surfaces, modes, resolutions, orders; throughout: toroidal mode numbers multiples of nfp, (0,0) first and once among the Nyquist modes, G + iota I and |B| nonzero on the selected surfaces", "why_tests_cant": "Change of variables under a map that is only known implicitly, for all inputs.", "anchors": ["docs/source/theory.rst:203-243", "src/_booz_xform/surface_solve.cpp"]}
{"id": "C68", "title": "The output series reconstruct the quantities", "statement": "Summing the output harmonics with m <= K, |n| <= K nfp at the Boozer angles of any point gives |B|, R, Z, nu and the Jacobian at that point, with an error at most eps + C (1/ntheta^p + 1/nzeta^p) for all resolutions mboz > K, nboz >= K, once K is large enough for eps (surfaces with nonvanishing Jacobian determinant).", "quantifier": "all inputs, surfaces, points, tolerances, orders, truncations, resolutions; throughout: toroidal mode numbers multiples of nfp, (0,0) first and once among the Nyquist modes", "why_tests_cant": "Uniform statement about a continuum of points and all resolutions.", "anchors": ["src/_booz_xform/surface_solve.cpp", "src/_booz_xform/init.cpp", "docs/source/theory.rst"]}
{"id": "C69", "title": "Rounding errors of the whole transformation stay proportional to the precision", "statement": "Fix real input data with nonvanishing G + iota I and |B| on the selected surfaces. There are C and u0 > 0 such that on every arithmetic of precision u <= u0 (each elementary operation and library function within u (1 + |exact|) of the exact result while the exact result is at most 1/u in magnitude), run() on these data rounded to within K u completes, all outputs are finite, and every output harmonic, s_b, Boozer_I and Boozer_G is within C u of its value in exact arithmetic.", "quantifier": "all inputs, resolutions, surface selections, arithmetics of the given precision; throughout: toroidal mode numbers multiples of nfp, (0,0) first and once among the Nyquist modes", "why_tests_cant": "A test compares one precision with another on one input; it cannot bound the distance to exact arithmetic, or exclude overflow and division by zero for all data.", "anchors": ["src/_booz_xform/surface_solve.cpp", "src/_booz_xform/init_trig.cpp", "src/_booz_xform/init.cpp"]}
{"id": "C70", "title": "The transformation is well posed", "statement": "In exact arithmetic, changing the profiles and Fourier coefficients of the input by at most e (mode numbers, resolution and surfaces unchanged) changes no output by more than C e, for all e up to some e0 > 0; C and e0 depend on the unperturbed data only. In particular G + iota I and |B| stay nonzero on the grid.", "quantifier": "all inputs with nonvanishing G + iota I and |B|, all small perturbations; throughout: toroidal mode numbers multiples of nfp, (0,0) first and once among the Nyquist modes", "why_tests_cant": "Quantifies over a neighbourhood in the space of inputs.", "anchors": ["src/_booz_xform/surface_solve.cpp"]}
{"id": "C71", "title": "Rounding errors of loading VMEC data, and of loading and running", "statement": "Fix real VMEC data that init_from_vmec accepts. There are C and u0 > 0 such that on every arithmetic of precision u <= u0, loading these data rounded to within K u gives s_in, iota and all interpolated or shifted harmonics within C u of the exactly computed ones (including the extrapolation of odd modes divided by sqrt(s) near the axis). If moreover surfaces and resolution are chosen and G + iota I and |B| do not vanish, the run that follows completes with outputs within C' u of the exact ones.", "quantifier": "all VMEC data, mode lists, numbers of surfaces, resolutions, arithmetics; throughout: toroidal mode numbers multiples of nfp, (0,0) first and once among the Nyquist modes, G + iota I and |B| nonzero on the selected surfaces", "why_tests_cant": "As C69; the division by sqrt(s) near the axis amplifies errors and only a proof bounds the amplification for all data.", "anchors": ["src/_booz_xform/init_from_vmec.cpp", "src/_booz_xform/surface_solve.cpp"]}
{"id": "C72", "title": "The assertions of the debug build hold in floating-point arithmetic", "statement": "In every arithmetic with relative error at most 2^-52 on numbers of moderate size (IEEE doubles), for well-formed inputs whose first Nyquist mode is (0,0), no assertion of the debug build fails, whatever the resolution, number of field periods and verbosity: run() returns the same result in the debug and in the release build. Hence C69 also holds for the debug build.", "quantifier": "all inputs, resolutions with representable grid sizes, nfp, verbosity levels, arithmetics of relative precision 2^-52; throughout: G + iota I and |B| nonzero on the selected surfaces", "why_tests_cant": "The accuracy check compares grid nodes with pi and pi/nfp with an absolute tolerance of 1e-13; that the tolerance suffices for every grid size is a statement about all of them.", "anchors": ["src/_booz_xform/check_accuracy.cpp:39-76", "src/_booz_xform/init.cpp:99-121"]}
{"id": "C73", "title": "What is computed in floating point is the Boozer spectrum", "statement": "Fix data with nonvanishing G + iota I and |B| on the selected surfaces, a mode (m,n) and an order p. There is C, and for every resolution D and u0 > 0, such that on every arithmetic of precision u <= u0 the harmonics of |B|, R, Z, nu and the Jacobian that run() stores for (m,n) are finite and within C (1/ntheta^p + 1/nzeta^p) + D u of the Fourier coefficients of these quantities as functions of the Boozer angles; also when the data were loaded with init_from_vmec in the same arithmetic.", "quantifier": "all inputs, VMEC data, modes, orders, resolutions, arithmetics; throughout: toroidal mode numbers multiples of nfp, (0,0) first and once among the Nyquist modes", "why_tests_cant": "Relates floating-point output of a discretisation to integrals over a continuum in implicitly defined coordinates, for all data.", "anchors": ["src/_booz_xform/surface_solve.cpp", "src/_booz_xform/init_from_vmec.cpp", "docs/source/theory.rst"]}
{"id": "C74", "title": "Refining mboz and nboz makes the sum of all output harmonics, and the report's errors, converge", "statement": "If the Jacobian determinant of the Boozer angles vanishes nowhere on the selected surfaces and, for fixed c and rho < 1, mboz <= c nboz, nboz <= c mboz and along either angle the phases m theta_B - n zeta_B of the output modes change by at most rho 2 pi per grid step, then the sum of all harmonics that run() stores, at the Boozer angles of any point, differs from |B|, R, Z, nu and the Jacobian at the point by at most C / mboz^p, for every p, with C independent of mboz, nboz, the mode, the point. The errors in the report of verbose > 0 are at most this divided by the minimum of |B|. For axisymmetric inputs the same holds with nboz = 0 and the condition on the poloidal grid alone.", "quantifier": "all inputs, orders p, resolutions, points; throughout: toroidal mode numbers multiples of nfp, (0,0) first and once among the Nyquist modes", "why_tests_cant": "Infinitely many resolutions and points; the number of harmonics summed grows with the resolution, so the error has to be bounded uniformly in the mode.", "anchors": ["src/_booz_xform/surface_solve.cpp", "src/_booz_xform/check_accuracy.cpp", "docs/source/theory.rst", "docs/source/usage.rst"]}
{"id": "C75", "title": "A clean accuracy report means an accurate transformation", "statement": "If all errors in the report that run() prints with verbose > 0 vanish for a surface, the |B| series of the output agrees with |B| on the whole surface; if the report shows an error, the output does not reconstruct the surface to that accuracy.", "quantifier": "all inputs, resolutions, surfaces; throughout: toroidal mode numbers multiples of nfp, (0,0) first and once among the Nyquist modes, G + iota I and |B| nonzero on the selected surfaces", "why_tests_cant": "A claim about all points of all surfaces of all inputs; the counterexample has to be constructed for every resolution.", "anchors": ["src/_booz_xform/check_accuracy.cpp", "docs/source/usage.rst"]}
{"id": "C76", "title": "Symmetry-breaking harmonics vanish under refinement exactly when |B| is quasisymmetric", "statement": "On a selected surface whose Boozer angles have a nowhere vanishing Jacobian determinant: if |B| is a function of M theta_B - N zeta_B only, then every harmonic bmnc_b, bmns_b of run() with (m, n) not a multiple of (M, N) is at most C times the p-th order grid error, for every p, with C depending on the mode and p but not on mboz, nboz. If |B| is not such a function, there is a mode that is not a multiple of (M, N) and a delta > 0 such that at every resolution whose output list has the mode, bmnc_b or bmns_b of the mode is at least delta minus C times the grid error. Hence the harmonics that symplot() draws as symmetry breaking decide quasisymmetry in the limit. An axisymmetric surface is quasisymmetric with (1, 0).", "quantifier": "all inputs, helicities M and N, orders p, resolutions; throughout: toroidal mode numbers multiples of nfp, (0,0) first and once among the Nyquist modes", "why_tests_cant": "Concerns the limit of infinitely many resolutions, and all equilibria; no finite set of runs can show that a harmonic tends to zero.", "anchors": ["src/_booz_xform/surface_solve.cpp", "src/booz_xform/plots.py", "docs/source/theory.rst"]}
{"id": "C77", "title": "Moving the origin of the input angles rotates the output harmonics", "statement": "Describe the same equilibrium with angles theta - theta0, zeta - zeta0, that is rotate each pair of cosine and sine input amplitudes by m theta0 - n zeta0. Then run() stores harmonics in which each (cosine, sine) pair of |B|, R, Z, nu and the Jacobian is rotated by m theta0 - n zeta0 of the output mode: exactly, at every resolution, if (theta0, zeta0) are multiples of the grid steps, with Boozer I and G unchanged; up to C times the p-th order grid error, for every p, for any translation. Translations by half a poloidal turn or half a field period, which keep stellarator symmetry, multiply every harmonic by a sign, exactly.", "quantifier": "all inputs, translations, modes, orders p, resolutions; throughout: toroidal mode numbers multiples of nfp, (0,0) first and once among the Nyquist modes, G + iota I and |B| nonzero on the selected surfaces; asymmetric inputs for translations other than half turns; with nboz = 0 toroidal translations by an even number of half periods", "why_tests_cant": "All translations of all equilibria; exactness for some translations and asymptotic statements for others cannot be told apart by running the code.", "anchors": ["src/_booz_xform/surface_solve.cpp", "src/_booz_xform/init.cpp", "docs/source/theory.rst"]}
{"id": "C78", "title": "Axisymmetric equilibria give exactly axisymmetric outputs, whatever nboz", "statement": "If all input modes have n = 0, every harmonic with n != 0 stored by run() is exactly zero at every resolution, and the harmonics with n = 0 do not depend on nboz: nboz = 0 gives the same values as any nboz > 0.", "quantifier": "all axisymmetric inputs, mboz, nboz, modes; throughout: toroidal mode numbers multiples of nfp, (0,0) first and once among the Nyquist modes, G + iota I and |B| nonzero on the selected surfaces", "why_tests_cant": "All axisymmetric equilibria and all pairs of resolutions; exact zeros need a cancellation argument over the whole grid.", "anchors": ["src/_booz_xform/surface_solve.cpp", "src/_booz_xform/init.cpp", "docs/source/usage.rst"]}
{"id": "C79", "title": "The transformation does not depend on the poloidal angle of the input", "statement": "If two inputs describe the same magnetic field on the same flux surface with different poloidal angles (theta -> theta + chi(theta, zeta); lambda, R, Z, |B| and the covariant components transformed accordingly, no radial current), then Boozer I and G are equal, every position has the same Boozer angles in both runs up to two constants, and the harmonics of every quantity and mode agree, up to the corresponding rotation and to discretisation errors which vanish faster than any power of the resolution. In stellarator symmetry with a common origin they agree without rotation.", "quantifier": "all pairs of inputs describing the same field, all smooth changes of the poloidal angle, all modes, orders and pairs of resolutions; throughout: toroidal mode numbers multiples of nfp, (0,0) first and once among the Nyquist modes, G + iota I and |B| nonzero on the selected surfaces", "why_tests_cant": "The poloidal angle is a free function; VMEC's spectral condensation picks a different one for every equilibrium and resolution, and equality holds only in a limit.", "anchors": ["src/_booz_xform/surface_solve.cpp", "docs/source/theory.rst"]}
{"id": "C80", "title": "The direction of the toroidal angle and the sign of the field do not matter", "statement": "In exact arithmetic: (a) describing the equilibrium with the toroidal angle -zeta (negating xn, xn_nyq, iota, bsubvmnc, bsubvmns) leaves Boozer_I, negates Boozer_G, and makes every harmonic (m,n) the former (m,-n), with nu and the Jacobian negated; (b) reversing the field (negating the covariant components), or multiplying them by any nonzero c, multiplies Boozer_I, Boozer_G and the Jacobian harmonics by c and leaves all other harmonics as they are.", "quantifier": "all well-formed inputs, all modes, surfaces and resolutions, all c != 0; throughout: toroidal mode numbers multiples of nfp, (0,0) first and once among the Nyquist modes, G + iota I and |B| nonzero on the selected surfaces", "why_tests_cant": "Relation between arbitrary pairs of inputs; equilibrium files come with both orientations and both signs.", "anchors": ["src/_booz_xform/surface_solve.cpp", "src/_booz_xform/init.cpp"]}
{"id": "C81", "title": "An array taken from an attribute keeps its contents", "statement": "A numpy array obtained by reading an array attribute (v = b.bmnc_b, v = b.s_b, ...) keeps the values it had when it was taken, whatever is called on the object afterwards; the documentation says that data are copied between Python and C++. (False: the attribute gives a view of the storage of the object. A later run for other surfaces changes the values of an array taken before; a later run with another number of elements frees the storage, and using the old array is then undefined behaviour. True for outputs as long as neither run nor read_boozmn is called; while the number of elements stays the same the array shows the current contents of the attribute.)", "quantifier": "all array attributes, all sequences of calls (including failing ones) after the array was taken, all elements", "why_tests_cant": "Whether an old array still holds its values depends on the sequence of later calls and their sizes; a use of freed storage often shows the old values in a test.", "anchors": ["src/_booz_xform/bindings.cpp:145-393", "docs/source/api.rst:30-36", "src/_booz_xform/init.cpp:145-172", "src/_booz_xform/read_boozmn.cpp:27-113"]}
{"id": "C82", "title": "Exponential convergence of the harmonics with the resolution", "statement": "For a fixed equilibrium there is a rate tau > 0 such that, for every Boozer mode (m, n) and every rate sigma > 0 however large, there is one constant C such that for every resolution mboz, nboz the harmonics of that mode written by run() differ from the integrals of the theory section of the documentation by at most C (exp(-sigma ntheta) + exp(-sigma nzeta)) for |B|, R, Z and nu, and by at most C (exp(-tau ntheta) + exp(-tau nzeta)) for the Jacobian. Doubling the resolution squares the error factor, whatever its rate.", "quantifier": "all input data a run accepts with regular surfaces (nonvanishing G + iota I and |B|), all modes, all rates sigma, all resolutions, all listed surfaces, symmetric and asymmetric; throughout: toroidal mode numbers multiples of nfp, (0,0) first and once among the Nyquist modes", "why_tests_cant": "A test compares finitely many resolutions and cannot separate exponential from fast algebraic decay, nor exhibit one constant for all resolutions.", "anchors": ["src/_booz_xform/surface_solve.cpp", "src/_booz_xform/init.cpp:60-100", "docs/source/theory.rst"]}
{"id": "C83", "title": "Only the functions matter, not how their harmonics are listed", "statement": "Two equilibria whose listed surfaces have the same functions R, Z, lambda, |B|, B_theta, B_zeta and the same iota give the same outputs and the same accuracy report from run(), however their harmonics are listed: modes in another order, additional modes with zero amplitude, an amplitude split over a repeated mode, another mpol or ntor. In particular permuting xm, xn with the rows of rmnc, ... and xm_nyq, xn_nyq with the rows of bmnc, ... changes no output, in either build.", "quantifier": "all pairs of inputs a run accepts whose functions agree on the listed surfaces, all permutations of the modes, all resolutions, symmetric and asymmetric, both builds; throughout: toroidal mode numbers multiples of nfp, (0,0) first and once among the Nyquist modes", "why_tests_cant": "Tests use the mode order of VMEC files; infinitely many lists of modes represent the same functions, and nothing in a passing run shows which outputs read a fixed row.", "anchors": ["src/_booz_xform/init.cpp:148-157", "src/_booz_xform/surface_solve.cpp:50-130", "src/_booz_xform/write_boozmn.cpp:68"]}
{"id": "C84", "title": "Attributes documented as unused or passed on", "statement": "As documented, aspect and toroidal_flux need not be set, have no influence on the results, and are passed on to the boozmn file; s_in is not needed for the transformation itself (only s_b depends on it); the flux profiles have no influence on the results. An object that reads the file has the aspect and toroidal_flux that were assigned.", "quantifier": "all inputs a run accepts, all values of these attributes including unset, all arithmetics, all environments in which the file is written", "why_tests_cant": "Tests load VMEC files, where toroidal_flux happens to equal the last element of phi and s_in is always filled; what happens to other values, or when they are left unset, needs all objects.", "anchors": ["src/_booz_xform/bindings.cpp:171-176", "src/_booz_xform/bindings.cpp:280-290", "src/_booz_xform/init.cpp:147", "src/_booz_xform/write_boozmn.cpp:41", "src/_booz_xform/read_boozmn.cpp:61"]}
{"id": "C85", "title": "Data supplied attribute by attribute", "statement": "Equilibrium data can be supplied by assigning attributes instead of loading a file: if a program gives an object, of any history, the values another object has, in any order and with repetitions, leaving out only attributes documented as optional (and the asymmetric arrays when asym is false), then every assignment succeeds, run() returns for both objects, and outputs and report are the same; if aspect and the flux profiles are copied too, write_boozmn writes the same file.", "quantifier": "all objects a run accepts, all lists of assignments that copy them, all previous histories of the receiving object, symmetric and asymmetric, all arithmetics, all file systems", "why_tests_cant": "The orders of assignment and histories of the receiving object are infinite in number; a stale or swapped member shows only for particular combinations.", "anchors": ["src/_booz_xform/bindings.cpp:108-290", "src/_booz_xform/init.cpp:11-160", "src/_booz_xform/write_boozmn.cpp:11-146"]}
{"id": "C86", "title": "Flux profiles assigned by the user reach the file", "statement": "The attributes phi, chi, phip and pres are inputs; whichever of them have been assigned are stored in phi_b, chi_b, phip_b and pres_b of the file write_boozmn writes, and writing is safe whichever of them have been assigned.", "quantifier": "all objects with results, all profiles of all lengths, symmetric and asymmetric, all arithmetics, all file systems", "why_tests_cant": "Tests load VMEC files, which have all profiles or none; profiles assigned one by one or of other lengths form an infinite space, and reading past an array may go unnoticed.", "anchors": ["src/_booz_xform/bindings.cpp:182-195", "src/_booz_xform/write_boozmn.cpp:83-102", "src/_booz_xform/netcdf_writer.cpp:142-167"]}
{"id": "C87", "title": "Attributes show what their names say", "statement": "After run(), reading an output attribute of the Python object gives, at [k, b], the harmonic of the quantity the attribute is documented to hold, for the mode numbers xm_b[k], xn_b[k] and the surface compute_surfs[b]; the profiles hold the flux label and the flux functions of the surfaces. After an assignment to an array attribute, reading the attribute gives the value assigned, and every other array attribute shows what it showed before.", "quantifier": "all well-formed inputs, resolutions and histories of the object; all attributes, all values assigned; throughout: toroidal mode numbers multiples of nfp, (0,0) first and once among the Nyquist modes, G + iota I and |B| nonzero on the selected surfaces", "why_tests_cant": "Tests look at a few attributes of a few runs; a name bound to a neighbouring member (sine for cosine, one covariant component for the other) shows only on configurations where the two differ.", "anchors": ["src/_booz_xform/bindings.cpp:108-393", "src/_booz_xform/surface_solve.cpp:199-372"]}
{"id": "C88", "title": "The declared number of field periods does not matter", "statement": "An equilibrium with nfp = k f field periods may be given to booz_xform as having only f of them. For odd k and the toroidal resolution with 2 nboz' + 1 = k (2 nboz + 1) the results are the same spectrum padded with zeros: harmonics with toroidal number a multiple of nfp are the same, all others are exactly 0, and the profiles are the same. For every k and independent resolutions the harmonics agree up to the quadrature errors, with one constant for all resolutions, and those not respecting the symmetry are bounded by the quadrature error.", "quantifier": "all well-formed regular equilibria, all k and f, all resolutions, symmetric or not, exact arithmetic; throughout: (0,0) first and once among the Nyquist modes, toroidal mode numbers multiples of nfp, G + iota I and |B| nonzero on the selected surfaces; nboz >= 1 for the exact part", "why_tests_cant": "Tests use the number of field periods of the file; the claim relates two runs for every equilibrium, ratio and resolution.", "anchors": ["src/_booz_xform/init.cpp:39-120", "src/_booz_xform/surface_solve.cpp:199-372", "src/_booz_xform/bindings.cpp:117-141"]}
{"id": "C89", "title": "Failed calls leave no file open", "statement": "However many calls of read_wout, read_boozmn and write_boozmn failed in a process, a later call works as it would in a new process: no call leaves a file open once it has returned or thrown. (False of the code: the reader and writer classes have no destructor, so a NetCDF file in which a variable is missing, or a file whose writing failed, stays open; after as many such failures as the process may have open files no file can be read or written any more. True: calls that return, paths that are no NetCDF file, and data that init_from_vmec rejects leave nothing open; a session with fewer failures than the limit is not affected.)", "quantifier": "all sessions of calls, all limits on open files, all objects and files", "why_tests_cant": "The effect appears only after as many failures as the operating system allows open files; the claim is about every sequence of calls.", "anchors": ["src/_booz_xform/netcdf_reader.hpp:10-29", "src/_booz_xform/netcdf_reader.cpp:9-22,83-86", "src/_booz_xform/netcdf_writer.hpp:28-52", "src/_booz_xform/netcdf_writer.cpp:16-26,142-167", "src/_booz_xform/read_wout.cpp:14,103", "src/_booz_xform/read_boozmn.cpp:15,117"]}
{"id": "C90", "title": "The printed accuracy report is right on a real machine", "statement": "With verbose > 0 the report that run prints on a machine with rounded arithmetic has one entry per selected surface, and its three columns at the four check points (|B| of the input, |B| reconstructed from the harmonics, their relative difference) are finite and within a constant times the machine precision of the report in exact arithmetic. So the printed |B| of the input is the input field at (0,0), (pi,0), (0,pi/nfp), (pi,pi/nfp) up to rounding, and a printed error is at most the true reconstruction error relative to the smallest |B|, up to rounding.", "quantifier": "all inputs whose selected surfaces have G + iota I nonzero and |B| positive, all arithmetics of sufficiently small unit roundoff that take absolute values and maxima exactly, all roundings of the inputs within a constant times the precision; throughout: toroidal mode numbers multiples of nfp, (0,0) first and once among the Nyquist modes", "why_tests_cant": "The report is itself the tests' measure of accuracy and is computed with the same rounded tables; a test sees the numbers of one machine and one equilibrium.", "anchors": ["src/_booz_xform/check_accuracy.cpp:20-148", "src/_booz_xform/surface_solve.cpp:20-409", "src/_booz_xform/run.cpp:8-26"]}
{"id": "C91", "title": "From wout file to boozmn file: the file holds the Boozer spectrum of the equilibrium", "statement": "If xbooz_xform is given an input file and a wout file whose numbers are those of an equilibrium up to rounding, and the request can be carried out, then it returns 0 and leaves a boozmn file whose jlist names exactly the requested surfaces (all if none is listed), whose mode list contains a mode exactly if the resolution does, and in which, wherever jlist, ixm_b and ixn_b say surface j and mode (m, n), the entries bmnc_b, rmnc_b, zmns_b, pmns_b, gmn_b (and the asymmetric ones) are finite and within C (1/ntheta^p + 1/nzeta^p) + D u of the Fourier coefficients of |B|, R, Z, -nu and the Jacobian as functions of the Boozer angles on that surface. The Python script leaves the same file.", "quantifier": "all wout files that read_wout accepts with G + iota I and |B| nonzero on the surfaces, all requests within range, all modes, all orders p, all arithmetics of sufficiently small unit roundoff u, all roundings of the file within K u; throughout: toroidal mode numbers multiples of nfp, (0,0) first and once among the Nyquist modes", "why_tests_cant": "The regression tests compare a few stored files with each other to a tolerance; they cannot say that what is in the file is the spectrum of the physical field for every equilibrium, resolution and machine, nor that labels and numbers in the file belong together for all of them.", "anchors": ["src/_booz_xform/driver.cpp:12-105", "src/_booz_xform/read_wout.cpp:10-115", "src/_booz_xform/init_from_vmec.cpp:9-301", "src/_booz_xform/run.cpp:8-26", "src/_booz_xform/surface_solve.cpp:20-409", "src/_booz_xform/write_boozmn.cpp:10-149", "src/booz_xform/_cli.py: main"]}
{"id": "C92", "title": "verbose = 0 means no output to standard output", "statement": "The documentation says: set verbose to 0 for no output to stdout. So with verbose at most 0, no method call, successful or not, writes anything to standard output; with verbose positive, run reports one line of accuracy figures per surface; and the messages change nothing about what the calls do. (False of the code: the NetCDF reader prints its errors whatever verbose is, even when read_boozmn catches the error of a missing chi_b and returns normally. What holds: nothing else is ever printed.)", "quantifier": "all objects, file systems, sequences of method calls and attribute assignments that do not make verbose positive, and all library failures", "why_tests_cant": "The tests set verbose = 0 to keep their own output short and never capture standard output; whether some path through reading, running or writing prints anyway depends on which file is malformed and where.", "anchors": ["src/_booz_xform/bindings.cpp:108-110", "src/_booz_xform/netcdf_reader.cpp:18-22", "src/_booz_xform/read_boozmn.cpp:11-119", "src/_booz_xform/read_wout.cpp:11-115", "src/_booz_xform/init_from_vmec.cpp:177-195", "src/_booz_xform/run.cpp:7-19", "src/_booz_xform/init.cpp:44-48", "src/_booz_xform/write_boozmn.cpp:10"]}
{"id": "C93", "title": "init_from_vmec can be called from Python as documented", "statement": "The documentation of init_from_vmec names its parameters ns, iotas, rmnc0, ..., bsubvmns0, phip, chi, pres, phi, says that the last four default to empty, and says that for stellarator-symmetric configurations rmns0, zmnc0, lmnc0, bmns0, bsubumns0 and bsubvmns0 need not be specified. So a call with these names, which may leave those out, does what the C++ function does with the same arrays. (False of the code: the keyword is phips, so any call with phip raises TypeError; and leaving out any of the first fourteen raises TypeError, for symmetric configurations too. What holds: the calls that work are exactly those that supply the first fourteen, in any mixture and order of positional and named arguments with the names that work; they do what the C++ function does; every other call raises TypeError and leaves the object unchanged; and for symmetric configurations the six arrays may be anything.)", "quantifier": "all objects, all positional and named arguments of a call, in any order", "why_tests_cant": "The tests never call init_from_vmec from Python, and there are unboundedly many mixtures of positional and named arguments.", "anchors": ["src/_booz_xform/bindings.cpp:30-85", "src/_booz_xform/booz_xform.hpp:14-15", "src/_booz_xform/booz_xform.hpp:436-453"]}
{"id": "C94", "title": "A wout file whose contents contradict each other is reported", "statement": "For every NetCDF file, read_wout either loads the file or throws an exception; in particular a file whose scalars (ns, nfp, mnmax, mnmax_nyq) contradict each other or the lengths of its arrays is reported by an exception and not by a crash or by corrupted memory. (False of the code: the sanity checks come after the arrays have been read. Each array is sized from the scalars in the file and nc_get_var then stores the whole variable, so an array longer than the scalars say is stored past the end of the allocation; and the largest Nyquist mode number is divided by nfp before nfp is tested. What holds: a file whose contents fit is read without undefined behaviour, a missing variable is reported by an exception, and whenever read_wout returns normally, every array in the file had at most as many values as its scalars say, nfp was not zero, ns was at least 2, mnmax and mnmax_nyq were positive, and every profile and coefficient table had exactly as many values as its scalars say.)", "quantifier": "all NetCDF files that hold the integer scalars, all objects, with and without flux profiles", "why_tests_cant": "The tests read only consistent files. A store past the end of an array often goes unnoticed in a run, and the files to consider are unbounded in number.", "anchors": ["src/_booz_xform/read_wout.cpp:20-103", "src/_booz_xform/netcdf_reader.cpp:34-81"]}
{"id": "C95", "title": "A boozmn file that is incomplete, or whose contents contradict each other, is reported", "statement": "For every NetCDF file, read_boozmn either loads what the file holds or throws an exception; in particular a file that lacks one of the required variables or dimensions, or whose numbers of modes and surfaces disagree with the lengths of its variables, is reported. (Incomplete files are reported. For contradictory files this is false of the code: if mnboz_b says fewer modes than the file holds, reading stores past the end of arrays; if it says more, reading succeeds, the values in each coefficient table are attached to other modes and surfaces than they belong to, and the extra mode numbers are left uninitialised or stale. What holds: whenever read_boozmn returns normally, all required variables were present, no variable had more values than the sizes say, there was at least one mode and one surface, and iota_b, bvco_b and buco_b had exactly as many values as there are surfaces.)", "quantifier": "all NetCDF files that hold the scalars lasym__logical__ and mnboz_b as integers; for incomplete files, all well-formed files with any set of required variables or dimensions removed; all objects", "why_tests_cant": "The tests read only files written by the code itself. Reading a file with a wrong mnboz_b raises no error, and stores past the end of an array often go unnoticed.", "anchors": ["src/_booz_xform/read_boozmn.cpp:11-119", "src/_booz_xform/netcdf_reader.cpp:34-81"]}
{"id": "C96", "title": "The default range of a logarithmic plot shows the largest curves", "statement": "If ymin is not given, symplot and modeplot with log=True choose the lower end of the vertical axis such that the plot mostly shows the largest modes: it is 1e-4 of the largest value on the figure, so the largest curve is visible. (False of the code: the default is computed from all modes including those that are not drawn, so with B0=False every curve may lie below the lower end of the axis. What holds: the default is 1e-4 of the greatest entry of the amplitudes, which is 1e-4 of the largest value on the figure whenever the amplitude that is largest in magnitude is positive and belongs to a mode that is drawn; for modeplot, which selects modes by the last surface, whenever it is also on that surface.)", "quantifier": "all objects holding results, all arguments of symplot and modeplot, every way in which argsort may order equal keys", "why_tests_cant": "Tests of the plots only check that they run. Whether the curves are within the range depends on the amplitudes of all modes and on the choice of modes.", "anchors": ["src/booz_xform/plots.py:152-156", "src/booz_xform/plots.py:254-256", "src/booz_xform/plots.py:299-303", "src/booz_xform/plots.py:363-365"]}
{"id": "C97", "title": "symplot shows no modes beyond max_m and max_n", "statement": "symplot(b, max_m, max_n) includes only modes with |m| <= max_m and |n| <= max_n nfp. (False of the code: the lines drawn to make the legend are chosen without looking at the limits. After every run with mboz, nboz >= 2 and max_n < nboz, for instance with nboz = 32 as in the usage guide and the default limit 20, the helical legend line shows the mode m = 1, n = -nboz nfp. What holds: every line without a legend label is within the limits.)", "quantifier": "all runs, all objects holding results, all arguments of symplot, any figure drawn before", "why_tests_cant": "The tests do not look at what is drawn, and the mode shown depends on the resolution of the run and on both limits.", "anchors": ["src/booz_xform/plots.py:90-125", "src/booz_xform/plots.py:175-247"]}
{"id": "C98", "title": "Documented sizes of lmnc and lmns; entries beyond the needed ones are ignored", "statement": "An object whose attributes have the sizes given in their descriptions (in particular lmnc and lmns of size mnmax_nyq x ns_in) can be transformed. (False of the code: rows 0..mnmax-1 of lmns are read, so with mnmax_nyq < mnmax every run over at least one surface reads out of range. What holds: with mnmax <= mnmax_nyq the run returns, and the rows beyond mnmax have no effect. More generally, if run() returns, then giving any of the input arrays further entries, rows or columns, or values in places never assigned, changes nothing about the results and the printed reports.)", "quantifier": "all inputs of the documented sizes; all runs that return and all larger inputs that keep the entries in place; debug and release builds", "why_tests_cant": "Every test takes its arrays from wout files, where lmnc and lmns have mnmax rows and mnmax_nyq is larger; an out-of-range read need not show.", "anchors": ["src/_booz_xform/bindings.cpp:218-230", "src/_booz_xform/surface_solve.cpp:127-155", "src/_booz_xform/surface_solve.cpp:91-107", "src/_booz_xform/surface_solve.cpp:169-200", "src/_booz_xform/init.cpp:145-172"]}
{"id": "C99", "title": "For a magnetic field in space the outputs are its Boozer coordinates and their Jacobian", "statement": "Let the input arrays of a selected surface describe a magnetic field in three-dimensional space: B = grad psi x grad(theta+lambda) + iota grad zeta x grad psi, with the given covariant components and |B|, no radial current, and G + iota I and |B| nonzero. Then the map from the input angles to (theta_B, zeta_B) has a nowhere vanishing determinant, so the Boozer angles are coordinates of the surface; however these angles are continued to neighbouring surfaces, the field satisfies B = grad psi x grad theta_B + iota grad zeta_B x grad psi and B = beta grad psi + I grad theta_B + G grad zeta_B with I, G the outputs Boozer_I, Boozer_G; and gmnc_b (and gmns_b) are the harmonics of the Jacobian 1/(grad psi . grad theta_B x grad zeta_B), as documented.", "quantifier": "all well-formed inputs, all resolutions, all positions x(psi, theta, zeta), fields and continuations of the angles with these properties (real arithmetic); throughout: toroidal mode numbers multiples of nfp, (0,0) first and once among the Nyquist modes", "why_tests_cant": "Concerns the geometry in space of every field; the tests compare stored harmonics with another program's for a few equilibria, and no output holds the field vector.", "anchors": ["src/_booz_xform/surface_solve.cpp:208-246", "src/_booz_xform/bindings.cpp:324-333", "docs/source/theory.rst:20-120", "docs/source/theory.rst:241-256"]}
{"id": "C100", "title": "Boozer coordinates are unique: any Boozer angles of the field are the computed ones up to constants", "statement": "Let the input arrays of a selected surface describe a magnetic field in space as in C99, and let t, z be any poloidal and toroidal angle of the surface (growing by 2 pi along one way round, unchanged along the other) satisfying the two equations of Boozer coordinates for this field with any constants in the place of iota, I and G. Then these constants are the iota of the input and the outputs Boozer_I and Boozer_G, the angles computed by run() equal t and z at every grid point up to two additive constants, and gmnc_b (gmns_b) are the harmonics of the Jacobian of (psi, t, z).", "quantifier": "all well-formed inputs, all resolutions, all fields in space described by them, all Boozer angles of these fields (real arithmetic); throughout: toroidal mode numbers multiples of nfp, (0,0) first and once among the Nyquist modes, G + iota I and |B| nonzero on the selected surfaces", "why_tests_cant": "A statement about all coordinate systems of all fields; tests only compare with one other program, which may share the same convention or error.", "anchors": ["src/_booz_xform/surface_solve.cpp:198-215", "src/_booz_xform/bindings.cpp:324-333", "docs/source/theory.rst:20-120"]}
{"id": "C101", "title": "After read_wout every scalar and mode number of the object comes from the file", "statement": "When read_wout(filename) returns normally, nfp, mpol, ntor, mnmax, mnmax_nyq, aspect and the lists xm, xn, xm_nyq, xn_nyq of the object consist of the values of the variables of these names in the file, in their order, and of nothing else: no value of an equilibrium that the object held before remains.", "quantifier": "all file contents, all earlier states of the object, with and without flux profiles", "why_tests_cant": "Tests load complete files into fresh objects; the claim is about every file and every history of the object.", "anchors": ["src/_booz_xform/read_wout.cpp:23-58", "src/_booz_xform/netcdf_reader.cpp:34-70"]}
{"id": "C102", "title": "The levels of verbose: no, some and lots of output", "statement": "A method call that returns normally has printed its messages in a fixed order, and of them exactly those of the level of verbose at the time of the call: none for verbose <= 0 (except the message about a boozmn file without chi_b), the brief ones for verbose = 1 (at most five for reading and writing; three lines and one report per surface for run), and for verbose >= 2 also the lists of arrays after loading and one line per surface before it is solved. A higher level prints everything that a lower one does, in the same order.", "quantifier": "all calls, all objects and files, all values of verbose", "why_tests_cant": "Tests do not look at standard output; the claim covers every call, level and file.", "anchors": ["src/_booz_xform/bindings.cpp:108-110", "src/_booz_xform/init_from_vmec.cpp:177-195", "src/_booz_xform/read_boozmn.cpp:14-115", "src/_booz_xform/run.cpp:7-19", "src/_booz_xform/surface_solve.cpp:20"]}
{"id": "C103", "title": "A boozmn file describes one equilibrium", "statement": "All variables of a file written by write_boozmn belong together: the spectra, mode numbers and currents in it were computed from the equilibrium whose nfp, aspect ratio, iota, profiles, surfaces and resolution it states.", "quantifier": "all sessions of read_wout, run, assignments of verbose and write_boozmn on one object; all wout files", "why_tests_cant": "Tests load one file per object. The claim is about all orders of calls on one object, in particular loading a second equilibrium between a run and a write.", "anchors": ["src/_booz_xform/read_wout.cpp:11-115", "src/_booz_xform/init_from_vmec.cpp:177-301", "src/_booz_xform/write_boozmn.cpp:9-149"]}
{"id": "C104", "title": "read_boozmn replaces the equilibrium", "statement": "After read_boozmn the object describes the equilibrium of that file: what the object held before has no influence on any attribute documented as describing the equilibrium, nor on later calls of run() and write_boozmn().", "quantifier": "all boozmn files, all objects, all outcomes of read_boozmn", "why_tests_cant": "Tests read into new objects. The claim compares all objects with arbitrary earlier contents and every file.", "anchors": ["src/_booz_xform/read_boozmn.cpp:11-119", "src/_booz_xform/run.cpp:5-25", "src/_booz_xform/write_boozmn.cpp:9-149"]}
{"id": "C105", "title": "Sums of squares of the output harmonics are mean squares over the Boozer angles; those that break a symmetry measure the distance from it", "statement": "On a selected surface whose Boozer angles have a nowhere vanishing Jacobian determinant, c_00^2 plus half the sum of the squares of the other harmonics that run() stores tends, as mboz and nboz grow, to the mean over the Boozer angles of the square of |B| (and of R, Z, nu and the Jacobian). The same sum over the harmonics of |B| that are not multiples of (M, N) tends to the least mean square distance of |B| from functions of M theta_B - N zeta_B; this distance is attained, and zero exactly when |B| is quasisymmetric. If the grid resolves the change of angles the sum over all output harmonics converges faster than every power of 1/mboz. The roots of these sums (in the file: those for |B| and the Jacobian), computed from the rounded numbers that run() stores or from the boozmn file that xbooz_xform writes, are within C/mboz^p + D u of the roots of the mean squares and of the least mean square distance, u being the precision of the machine.", "quantifier": "all inputs, surfaces, helicities, orders, tolerances, resolutions, machine precisions, wout files and requests; throughout: toroidal mode numbers multiples of nfp, (0,0) first and once among the Nyquist modes", "why_tests_cant": "Tests compare single harmonics with reference files. The claim is about limits over all resolutions and a minimum over all symmetric functions.", "anchors": ["src/_booz_xform/surface_solve.cpp:17-409", "src/booz_xform/plots.py:90-258", "docs/source/theory.rst:128-249"]}
{"id": "C106", "title": "The (0,0) harmonic of the Jacobian gives the volume, and with I and G the flux surface average of B^2", "statement": "Let the input arrays of a selected surface describe a magnetic field in space (C99) and let the flux surfaces near it be nested. The first output mode is (0,0), and as mboz and nboz grow, 4 pi^2 |gmnc_b(0,0)| tends, faster than every power of the grid spacings, to the rate at which the volume inside the flux surface grows with psi, and (Boozer_G + iota Boozer_I) / gmnc_b(0,0) to the flux surface average of B^2. The flux surface average of any continuous function of position is its average over the Boozer angles with the Jacobian as weight. In arithmetic with relative error u, and with input data rounded to within K u, the same two numbers computed from what the machine stores are off by at most D u more. So are those computed from gmn_b(0,0), iota_b, buco_b and bvco_b in the boozmn file which xbooz_xform writes for a wout file rounded to within K u.", "quantifier": "all inputs, fields in space, surfaces, continuous functions of position, orders, resolutions, wout files, input files, machines; throughout: toroidal mode numbers multiples of nfp, (0,0) first and once among the Nyquist modes, G + iota I and |B| nonzero on the selected surfaces", "why_tests_cant": "The claim relates stored numbers to volumes of regions of space and limits of volume averages; tests compare the numbers with reference files computed by the same formulas.", "anchors": ["src/_booz_xform/booz_xform.hpp:300-330", "src/_booz_xform/surface_solve.cpp:17-409", "docs/source/theory.rst:1-249"]}
{"id": "C107", "title": "Boozer_I and Boozer_G are the circulations of the field, that is the currents", "statement": "Let the input arrays of a selected surface describe a magnetic field in space (C99) whose surface is smooth. For every closed curve on the surface, going k times round the poloidal way and l times round the toroidal way, the circulation of B along the curve is exactly 2 pi (k Boozer_I + l Boozer_G) with the numbers run() puts out for that surface, at every resolution. The same holds of the file: for every surface of the equilibrium in a wout file, asked for or not, the numbers buco_b and bvco_b which xbooz_xform writes give the circulation up to 2 pi (|k| + |l|) e on every machine whose wout file is within e of the exact data: the transformation adds no error of its own.", "quantifier": "all inputs, fields in space, selected surfaces, closed C1 curves, winding numbers, resolutions, wout files, input files, machines; throughout: toroidal mode numbers multiples of nfp, (0,0) first and once among the Nyquist modes, G + iota I and |B| nonzero on the selected surface", "why_tests_cant": "Tests compare Boozer_I and Boozer_G with stored numbers; the claim is about line integrals in space along arbitrary curves.", "anchors": ["src/_booz_xform/booz_xform.hpp:367-393", "src/_booz_xform/init.cpp:1-142", "docs/source/theory.rst:1-249"]}
{"id": "C108", "title": "Integrals along field lines can be computed from iota, Boozer_I, Boozer_G and the harmonics of |B|", "statement": "Let the input arrays of a selected surface describe a magnetic field in space (C99) whose surface is smooth. Along every field line on the surface theta_B - iota zeta_B is constant, every such straight line is a field line, and for every continuous F the integral of F(|B|) dl/|B| along it is the integral of F(f) (G + iota I) / f^2 over zeta_B, f being |B| as a function of the Boozer angles. With f replaced by the sum of the harmonics bmnc_b (and bmns_b) of run(), and I, G by its Boozer_I, Boozer_G, the error per unit of zeta_B tends to 0 as the resolution grows, uniformly over all field lines; if F is continuously differentiable, faster than every power of 1/mboz. When run() is executed in arithmetic with relative error u, the same holds with iota, I, G and the harmonics as the machine stores them, with a further error of at most D u (1 + |zeta_B1 - zeta_B0|) per unit of zeta_B. The same holds for xbooz_xform from a wout file to a boozmn file: if the errors are small enough, the integrals computed from bmnc_b (and bmns_b), iota_b, buco_b and bvco_b as stored in the file are off by at most (C/mboz^p + D u)(1 + |zeta_B1 - zeta_B0|) per unit of zeta_B.", "quantifier": "all inputs, fields in space, surfaces, field lines, functions F, tolerances and orders, resolutions, wout files, input files, machines; throughout: toroidal mode numbers multiples of nfp, (0,0) first and once among the Nyquist modes, G + iota I and |B| nonzero on the selected surfaces", "why_tests_cant": "The claim compares line integrals in space over all field lines with an expression in the outputs and includes a limit; no finite set of runs settles it.", "anchors": ["src/_booz_xform/booz_xform.hpp:319-393", "src/_booz_xform/surface_solve.cpp:17-409", "docs/source/theory.rst:1-249"]}
{"id": "C109", "title": "The harmonics of R, Z and nu give the positions of the points with given Boozer angles", "statement": "Where the Boozer angles of a selected surface are coordinates, the point of space with cylindrical coordinates R, zeta_B - nu, Z computed from rmnc_b, zmns_b, numns_b (and their asymmetric partners) at Boozer angles (theta_B, zeta_B) tends to the point of the input surface which has these Boozer angles, uniformly over the surface and faster than every power of 1/mboz as the resolution grows; all pairs of Boozer angles occur. So the surface drawn from the outputs and the input surface approach each other in the Hausdorff distance.", "quantifier": "all inputs, selected surfaces, pairs of Boozer angles, orders, resolutions (comparable numbers of modes, grid resolving the angles); throughout: toroidal mode numbers multiples of nfp, (0,0) first and once among the Nyquist modes, G + iota I and |B| nonzero on the selected surfaces", "why_tests_cant": "Tests look at single harmonics of single equilibria; the claim is a uniform limit over all points of all surfaces.", "anchors": ["src/_booz_xform/booz_xform.hpp:331-365", "src/_booz_xform/surface_solve.cpp:17-409", "src/booz_xform/plots.py:395-440"]}
{"id": "C110", "title": "From the wout file to functions and positions: sums over the boozmn file on a machine with rounding", "statement": "Let xbooz_xform, on a machine with finite precision u, read a wout file whose numbers are within K u of those of an exact equilibrium on whose requested surfaces the Boozer angles are coordinates, with comparable numbers of poloidal and toroidal modes and a grid that resolves the angles. Then it returns 0 and leaves a boozmn file in which the sums over all modes of bmnc_b, bmns_b and of gmn_b, gmns_b at Boozer angles are |B| and the Jacobian at the point of the surface with these angles, the point with cylindrical coordinates from rmnc_b, rmns_b, zmns_b, zmnc_b and angle zeta_B + p from pmns_b, pmnc_b is this point of the surface, and iota_b, buco_b, bvco_b of the surface are its rotational transform and covariant components, up to C/mboz^p + D u. The constant C does not depend on the resolution or on the machine.", "quantifier": "all wout files, requests, resolutions, orders p, machines with a standard error model, pairs of Boozer angles; throughout: toroidal mode numbers multiples of nfp, (0,0) first and once among the Nyquist modes, G + iota I and |B| nonzero on the selected surfaces", "why_tests_cant": "Tests compare single harmonics of a few files to loose tolerances on one machine; the claim is a uniform bound over all angles, all orders and all machines.", "anchors": ["src/_booz_xform/driver.cpp:12-105", "src/_booz_xform/read_wout.cpp:10-115", "src/_booz_xform/init_from_vmec.cpp:9-301", "src/_booz_xform/run.cpp:8-26", "src/_booz_xform/surface_solve.cpp:20-409", "src/_booz_xform/write_boozmn.cpp:10-149", "src/booz_xform/_cli.py: main"]}
{"id": "C111", "title": "surfplot and wireplot show the equilibrium", "statement": "Where the Boozer angles of a selected surface are coordinates, the field contoured by surfplot differs from |B| at the points of the surface with the plotted Boozer angles, and the Boozer curves drawn by wireplot differ from the true curves of constant Boozer angles on the input surface, by at most C/mboz^p for every order p, for all parameters of the plots (surface index, numbers of points and curves, refinement of at least 2), at every resolution with comparable numbers of modes and a grid that resolves the angles. The same holds of the plots made from the file written by write_boozmn (without the original curves). On a machine with finite precision u whose input numbers are within K u of the exact ones, surfplot draws finite numbers within D u of the uniform grid of angles and within C/mboz^p + D u of |B|, and wireplot lines with finite coordinates within C/mboz^p + D u of the true lines of constant Boozer angles, and, from an object, lines of the original angles within D u of the true ones; so also when the figure is made from the boozmn file that xbooz_xform computed from a wout file.", "quantifier": "all inputs, selected surfaces, orders, resolutions, plot parameters, file names, disks, machines with a standard error model; throughout: toroidal mode numbers multiples of nfp, (0,0) first and once among the Nyquist modes, G + iota I and |B| nonzero on the selected surfaces", "why_tests_cant": "The tests only check that the plotting functions run; no test compares a picture with the equilibrium, let alone for all resolutions.", "anchors": ["src/booz_xform/plots.py:32-89", "src/booz_xform/plots.py:368-538", "src/_booz_xform/surface_solve.cpp:17-409", "src/_booz_xform/write_boozmn.cpp:10-149", "src/_booz_xform/read_boozmn.cpp:10-119", "src/_booz_xform/driver.cpp:12-105", "src/_booz_xform/read_wout.cpp:10-115"]}
{"id": "C112", "title": "The radial interpolation of R and Z is second-order accurate in 1/(ns-1)", "statement": "If the harmonics of R and Z in the data given to init_from_vmec are those of an equilibrium whose profiles are regular at the magnetic axis (a function of s with second derivative at most K for even m; sqrt(s) times one for odd m, vanishing on the axis unless m=1), every loaded harmonic differs from the exact one at its half-grid point by at most 3/8 K/(ns-1)^2, and by at most 1/8 K/(ns-1)^2 except for m=1 on the innermost surface. R and Z of the loaded surface differ from the exact ones at all angles by at most 3/4 K mnmax/(ns-1)^2, and every harmonic of R and Z that run() stores by at most 3/2 J K mnmax/(ns-1)^2 from the one that the exact surface gives on the same grid, J being a bound on the Jacobian determinant of the Boozer angles. If a wout file samples such an equilibrium, whoever sums the series in the boozmn file that xbooz_xform writes finds the points of the equilibrium's surface at s=(j+1/2)/(ns-1) up to C/mboz^p + D u + 3/4 K mnmax/(ns-1)^2, u being the rounding unit.", "quantifier": "all ns, mode lists, profiles, bounds K and J, selected surfaces and resolutions; throughout: toroidal mode numbers multiples of nfp, (0,0) first and once among the Nyquist modes", "why_tests_cant": "The tests compare with files from another code that interpolates in the same way; they cannot bound the interpolation error for all profiles and numbers of surfaces.", "anchors": ["src/_booz_xform/init_from_vmec.cpp:197-283", "src/_booz_xform/surface_solve.cpp:289-323"]}
{"id": "C113", "title": "A constant in lambda only moves the origin of the Boozer angles", "statement": "Without stellarator symmetry, adding a constant c to lambda on a surface (through lmnc of the mode m=n=0) leaves Boozer_I and Boozer_G unchanged, moves the Boozer angles by (G c, -I c)/(G + iota I), and exactly, at every resolution, rotates each pair of cosine and sine harmonics of |B|, R, Z and the Jacobian by the corresponding phase of its mode; the harmonics of nu are the rotated ones of nu - I c/(G + iota I).", "quantifier": "all inputs without stellarator symmetry, constants (one per surface), selected surfaces, resolutions and modes; throughout: toroidal mode numbers multiples of nfp, (0,0) first and once among the Nyquist modes, G + iota I and |B| nonzero on the selected surfaces", "why_tests_cant": "The asymmetric test cases have one fixed lambda each; the covariance is a statement about all pairs of inputs.", "anchors": ["src/_booz_xform/surface_solve.cpp:121-286", "src/_booz_xform/surface_solve.cpp:289-323", "src/_booz_xform/booz_xform.hpp:176-186"]}
{"id": "C114", "title": "Derivatives of the output series are the derivatives with respect to the Boozer angles", "statement": "Take the sum over all output modes of the harmonics of |B| (or R, Z, nu, the Jacobian) that run() stores for a surface, or of the numbers of the boozmn file which xbooz_xform writes (where pmns_b, pmnc_b belong to -nu), and differentiate it term by term, any number of times in theta_B and zeta_B: factors m and -n, and a quarter turn of the phase per derivative. If the Boozer angles are coordinates of the surface and the grid resolves them, the result is within C/mboz^p + D u of the same derivative of the quantity as a function of the Boozer angles, for every order p and all angles, u being the relative error of the arithmetic.", "quantifier": "all regular input states, or wout files and requests, all selected surfaces whose Boozer angles are coordinates, all orders of differentiation, all powers p, all resolutions with comparable mboz and nboz that resolve the angles, all angles, all arithmetics of sufficient precision; throughout: toroidal mode numbers multiples of nfp, (0,0) first and once among the Nyquist modes", "why_tests_cant": "Differentiating amplifies the error of each harmonic by powers of its mode number, so accuracy of the sums says nothing by itself about their derivatives; tests compare harmonics of a few files with stored values.", "anchors": ["src/_booz_xform/surface_solve.cpp:121-286", "src/_booz_xform/surface_solve.cpp:289-323", "src/_booz_xform/booz_xform.hpp:176-186", "src/_booz_xform/write_boozmn.cpp:85-149"]}
{"id": "C115", "title": "Extremes of |B| and the fraction of trapped particles can be read off the output harmonics", "statement": "Let |B| be positive on a selected surface whose Boozer angles are coordinates, and let the grid resolve them. The largest and smallest value of the Fourier series with the harmonics bmnc_b (and bmns_b) that run() stores, or that the boozmn file holds, are within e = C/mboz^p + D u of the largest and smallest |B| on the surface, for every order p, u being the relative error of the arithmetic; the mirror ratio formed from them is within 2e/(Bmax + Bmin - 2e) of that of the field; and for every tolerance there is an eta such that, if e <= eta, the effective fraction of trapped particles computed from the series - with averages weighted by 1/B^2 in the Boozer angles - is within the tolerance of 1 - (3/4) <B^2> integral of l dl / <sqrt(1 - l B)> from 0 to 1/Bmax with the flux surface averages of the field.", "quantifier": "all regular input states, or wout files and requests, with positive |B| on the surface; all selected surfaces whose Boozer angles are coordinates; all powers p, all tolerances, all resolutions with comparable mboz and nboz that resolve the angles, all arithmetics of sufficient precision; throughout: toroidal mode numbers multiples of nfp, (0,0) first and once among the Nyquist modes; for the flux surface averages, data which describe a magnetic field in space on nested surfaces", "why_tests_cant": "Extremes and averages over the surface are taken over all angles, of a sum of all harmonics; the trapped fraction has an integrand that is not smooth where l B = 1. Tests compare single harmonics with stored values.", "anchors": ["src/_booz_xform/surface_solve.cpp:121-286", "src/_booz_xform/surface_solve.cpp:289-323", "src/_booz_xform/write_boozmn.cpp:85-149"]}
{"id": "C116", "title": "symplot and modeplot show the Boozer spectrum of |B|", "statement": "Fix input data with nonvanishing G + iota I and |B| on the selected surfaces, a mode (m, n) and an order p. After run(), on arithmetic of precision u, every curve that modeplot labels (m, n), and the curve that symplot draws for (m, n) in the colour of its class when it is an output mode within max_m and max_n, has one point per output surface: its abscissa is the normalised flux of that surface (within K u, or the square root of such a number if sqrts), and its ordinate is finite and within C (1/ntheta^p + 1/nzeta^p) + D u of the (m, n) cosine coefficient of |B| as a function of the Boozer angles - its magnitude on a logarithmic axis, and zero for the modes of the removed helicity. C does not depend on mboz and nboz. The same holds for the figures drawn from the boozmn file that xbooz_xform writes when it is given a wout file whose numbers are within K u of the exact ones.", "quantifier": "all regular input states with at least one selected surface, or wout files and requests that can be carried out, all modes, orders, resolutions, all parameters of the two plots (every sorting argsort, nmodes >= 0), all arithmetics of sufficient precision; throughout: toroidal mode numbers multiples of nfp, (0,0) once among the Nyquist modes", "why_tests_cant": "The coefficients are integrals over Boozer angles that are not known in closed form; a test can compare a plot with the arrays that are plotted, not with the field, and not for all resolutions, precisions and plot parameters.", "anchors": ["src/booz_xform/plots.py:90-257", "src/booz_xform/plots.py:260-365", "src/_booz_xform/surface_solve.cpp:11-409", "src/_booz_xform/write_boozmn.cpp:85-149", "src/_booz_xform/read_boozmn.cpp:1-119"]}
{"id": "C117", "title": "modeplot shows the largest Boozer harmonics of |B|", "statement": "Fix input data with nonvanishing G + iota I and |B| on the selected surfaces, such that |B| on the last one is a function f of the Boozer angles, a ratio c, and an order p >= 2. After run() with M = mboz and N = nboz, M <= c N and N <= c M, that resolve the Boozer angles on the last surface, on arithmetic of sufficient precision u whose comparisons are right, modeplot with nmodes at most the number of available modes shows exactly nmodes curves, labelled with distinct output modes ((0,0) only if B0), in the order of decreasing magnitude of the cosine coefficients of f, and no output mode left out has a larger coefficient than one that is shown; each comparison is right up to 2 (C (1/ntheta^p + 1/nzeta^p) + D u). Coefficients of the removed helicity count as zero. C does not depend on M and N. The same holds for the figure drawn from the boozmn file that xbooz_xform writes when it is given a wout file whose numbers are within K u of the exact ones; the surface is that of the last entry of jlist. If the nmodes largest coefficients are separated from each other and from all others by a positive gap, then at all sufficiently high resolutions and precisions the legend lists exactly these modes in decreasing order.", "quantifier": "all regular input states with at least one selected surface, or wout files and requests that can be carried out, all resolutions with comparable mboz and nboz that resolve the last output surface, all orders p >= 2, all parameters of modeplot with 0 <= nmodes <= available modes, every sorting argsort, all arithmetics of sufficient precision; toroidal mode numbers multiples of nfp, (0,0) once among the Nyquist modes", "why_tests_cant": "The ranking is of integrals over Boozer angles that are not known in closed form, over a set of modes that grows with the resolution; a test can only rank the arrays that run() produced on chosen inputs.", "anchors": ["src/booz_xform/plots.py:260-365", "src/_booz_xform/surface_solve.cpp:11-409", "src/_booz_xform/init.cpp:38-62", "src/_booz_xform/write_boozmn.cpp:85-149", "src/_booz_xform/read_boozmn.cpp:1-119"]}
