{"id": "C01", "title": "Shape-function evaluators are mutually consistent derivatives", "statement": "The first- and second-derivative evaluators of the approximation functions return, at every point of the panel, the true derivative of the value evaluator up to the decimal rounding of the printed coefficients, with the same edge flags multiplying the same terms.", "quantifier": "every term 0..29, every real xi in [-1,1], every value of the four edge flags", "why_tests_cant": "a test samples finitely many xi; a wrong digit in one of ~1300 coefficients is invisible at sampled points within tolerance", "anchors": ["panels/core/src/bardell_functions.cpp:vec_f", "panels/core/src/bardell_functions.cpp:vec_fp", "panels/core/src/bardell_functions.cpp:vec_fpp", "panels/core/src/bardell_functions.cpp:f", "panels/core/src/bardell_functions.cpp:fp", "panels/core/src/bardell_functions.cpp:fpp"]}
{"id": "C02", "title": "Edge flags really remove edge displacement and edge rotation", "statement": "If a panel is built with the translation (rotation) flag of an edge set to 0, then whatever Ritz constants are obtained, the displacement (slope) on that edge is zero, up to coefficient rounding that is bounded explicitly; with the flag set to 1 exactly one term controls the edge displacement (slope) with factor 1 (1/2) and every other term vanishes there.", "quantifier": "all numbers of terms m<=30, all Ritz constants, both edges, all flag values", "why_tests_cant": "the restraint must hold for the unknown solution vector of every later analysis, not for the sampled one", "anchors": ["panels/core/src/bardell_functions.cpp:vec_f", "panels/core/src/bardell_functions.cpp:vec_fp", "panels/models/clpt_bardell_field.pyx:cfuvw"]}
{"id": "C03", "title": "Closed-form integral tables are the integrals of the shape functions", "statement": "Every entry of the six product-integral tables used by the analytical stiffness, mass and geometric matrices equals the integral over [-1,1] of the product of the corresponding Bardell functions/derivatives, including every entry that the table silently defaults to zero, up to an absolute error below 1e-15, and is multiplied by exactly the edge flags of its two functions.", "quantifier": "all 6 tables x 30 x 30 entries, all flag values", "why_tests_cant": "numerical tests compare a few entries through quadrature with loose tolerance; omitted (defaulted) entries are never looked at", "anchors": ["panels/core/src/bardell.cpp:integral_ff", "panels/core/src/bardell.cpp:integral_ffp", "panels/core/src/bardell.cpp:integral_ffpp", "panels/core/src/bardell.cpp:integral_fpfp", "panels/core/src/bardell.cpp:integral_fpfpp", "panels/core/src/bardell.cpp:integral_fppfpp"]}
{"id": "C04", "title": "Swap symmetry of the integral tables", "statement": "integral_ff, integral_fpfp and integral_fppfpp are unchanged when the two functions (index and flags) are exchanged, so analytically assembled matrices cannot depend on the order in which two terms are visited.", "quantifier": "all index pairs (also outside 0..29) and all flag values", "why_tests_cant": "requires every pair of the 900-entry tables with symbolic flags", "anchors": ["panels/core/src/bardell.cpp:integral_ff", "panels/core/src/bardell.cpp:integral_fpfp", "panels/core/src/bardell.cpp:integral_fppfpp"]}
{"id": "C05", "title": "Quadrature tables are Gauss rules", "statement": "For every supported number of points the Legendre-Gauss points are strictly increasing, lie strictly inside (-1,1), are symmetric about 0, the weights are positive and symmetric, and the rule integrates every polynomial of degree <= 2n-1 with an error below 1e-53 times the sum of its absolute coefficients.", "quantifier": "all n in 2..64, all real polynomials of degree <= 2n-1", "why_tests_cant": "the polynomial space is infinite; tests check a handful of n with 1e-10 tolerances", "anchors": ["panels/core/src/legendre_gauss_quadrature.cpp:leggauss_quad", "panels/legendre_gauss_quadrature.pyx:get_points_weights"]}
{"id": "C06", "title": "A requested quadrature rule always integrates constants", "statement": "Whatever number of integration points is requested (directly through nx, ny or implicitly through m, n for distributed loads), the rule that is actually used integrates the constant 1 over [-1,1] to 2; it never silently degenerates.", "quantifier": "all integers n >= 1", "why_tests_cant": "the failing values (n = 1 and n > 64) are exactly the ones no test uses and nothing is raised", "anchors": ["panels/core/src/legendre_gauss_quadrature.cpp:leggauss_quad", "panels/legendre_gauss_quadrature.pyx:get_points_weights", "panels/shell_fext.py:shell_fext", "panels/models/plate_clpt_donnell_bardell_num.pyx:fkC_num"]}
{"id": "C07", "title": "Terms beyond the implemented 30 are inert in the matrices", "statement": "Asking for more than 30 terms adds rows and columns but no stiffness: every scalar evaluator and every integral table returns 0 for an index >= 30, so the additional degrees of freedom have identically zero rows in kC, kG and kM.", "quantifier": "all indices >= 30, all points, all flags", "why_tests_cant": "nothing fails when m = 31 is requested; the matrix is silently singular", "anchors": ["panels/core/src/bardell_functions.cpp:f", "panels/core/src/bardell_functions.cpp:fp", "panels/core/src/bardell_functions.cpp:fpp", "panels/core/src/bardell.cpp:integral_ff"]}
{"id": "C08", "title": "Analytical plate stiffness is the classical-laminate strain energy", "statement": "The finalised matrix returned by calc_kC for a flat linear panel satisfies 1/2 c^T kC c = integral over the panel of 1/2 eps^T ABD eps, with eps the six linear Donnell/Kirchhoff strains of the displacement field that uvw reports for c.", "quantifier": "all m, n, all Ritz vectors c, all a, b > 0, all symmetric ABD, all 24 edge flags, all row/column offsets", "why_tests_cant": "tests compare a few eigenvalues; an error in one coupling term (B16, D26, ...) only shows for special laminates", "anchors": ["panels/models/plate_clpt_donnell_bardell.pyx:fk0", "panels/shell.py:Shell.calc_kC"]}
{"id": "C09", "title": "Numerically integrated plate stiffness is the same energy", "statement": "The finalised numerical stiffness (used when c or ABDnxny is given) equals, as a quadratic form, the quadrature sum of eps^T ABD(point) eps, with one laminate per integration point when ABDnxny is supplied; with geometric non-linearity off it does not depend on the state c.", "quantifier": "all m, n, nx, ny, states, laminates per point, sub-domains x1..x2, y1..y2", "why_tests_cant": "the variable-stiffness case has nx*ny*36 free inputs", "anchors": ["panels/models/plate_clpt_donnell_bardell_num.pyx:fkC_num", "panels/shell.py:Shell.calc_kC"]}
{"id": "C10", "title": "Analytical and numerical linear stiffness agree", "statement": "For a full-domain panel with constant laminate, the analytical and the numerically integrated kC have identical entries whenever the tables are the exact integrals and the rule integrates the products of the shape functions exactly; for the actual tables the difference of each entry is bounded.", "quantifier": "all m, n, laminates, dimensions, flags", "why_tests_cant": "tests compare the two paths for a few laminates and m, n", "anchors": ["panels/models/plate_clpt_donnell_bardell.pyx:fk0", "panels/models/plate_clpt_donnell_bardell_num.pyx:fkC_num"]}
{"id": "C11", "title": "Cylindrical shell stiffness is the Donnell strain energy", "statement": "The analytical and numerical cylindrical-shell kC equal the strain energy with the circumferential strain v,y + w/r and all other strains as for the plate.", "quantifier": "all r != 0 and everything quantified in C08/C09", "why_tests_cant": "curvature terms couple w with every membrane and bending term; tests only check a few buckling loads", "anchors": ["panels/models/cylshell_clpt_donnell_bardell.pyx:fk0", "panels/models/cylshell_clpt_donnell_bardell_num.pyx:fkC_num"]}
{"id": "C12", "title": "A cylindrical shell flattens to a plate as r grows", "statement": "Every entry of the cylindrical-shell kC tends to the corresponding plate entry as r tends to infinity (the mass, geometric and y-flow aerodynamic matrices do not depend on r at all).", "quantifier": "all entries, all laminates, all m, n", "why_tests_cant": "a limit statement over all entries; tests use one large r", "anchors": ["panels/models/cylshell_clpt_donnell_bardell.pyx:fk0", "panels/models/plate_clpt_donnell_bardell.pyx:fk0", "panels/models/cylshell_clpt_donnell_bardell_num.pyx:fkC_num", "panels/models/plate_clpt_donnell_bardell_num.pyx:fkC_num"]}
{"id": "C13", "title": "Constitutive stiffness is positive semidefinite and vanishes on strain-free fields", "statement": "If the laminate ABD matrix is positive semidefinite then kC (linear or tangent, plate or shell, analytical or numerical with the tabulated rules) is positive semidefinite; if in addition the strain field of c is zero then c^T kC c = 0.", "quantifier": "all laminates with ABD >= 0, all c, all states", "why_tests_cant": "definiteness is a statement over all vectors", "anchors": ["panels/models/plate_clpt_donnell_bardell.pyx:fk0", "panels/models/plate_clpt_donnell_bardell_num.pyx:fkC_num", "panels/models/cylshell_clpt_donnell_bardell.pyx:fk0", "panels/models/cylshell_clpt_donnell_bardell_num.pyx:fkC_num"]}
{"id": "C14", "title": "Non-linear kC is the material part of the tangent", "statement": "With geometric non-linearity on, d^T kC(c) d equals the quadrature of (delta eps)^T ABD (delta eps), where delta eps is the derivative at c in direction d of the von Karman strains (including w,x w,y in the shear strain).", "quantifier": "all states c, all directions d, all laminates, plates and cylindrical shells", "why_tests_cant": "bilinear in two arbitrary vectors", "anchors": ["panels/models/plate_clpt_donnell_bardell_num.pyx:fkC_num", "panels/models/cylshell_clpt_donnell_bardell_num.pyx:fkC_num"]}
{"id": "C15", "title": "Internal force is the gradient of the strain energy", "statement": "calc_fint(c) is the gradient of the strain energy of the von Karman strains at c, i.e. its product with any virtual vector d is the virtual work of the stresses produced by c on delta eps(c; d).", "quantifier": "all c, d, all laminates", "why_tests_cant": "Newton iterations still converge for the tested cases when the shear strain is wrong; only an exact statement exposes the factor", "anchors": ["panels/models/plate_clpt_donnell_bardell_num.pyx:calc_fint", "panels/models/cylshell_clpt_donnell_bardell_num.pyx:calc_fint", "panels/shell.py:Shell.calc_fint"]}
{"id": "C16", "title": "Tangent stiffness is the Jacobian of the internal force", "statement": "calc_kT(c) applied to d is the derivative of calc_fint at c in the direction d.", "quantifier": "all c, d, all laminates, plate and shell", "why_tests_cant": "finite differences at sampled states cannot separate a wrong factor from truncation error", "anchors": ["panels/shell.py:Shell.calc_kT", "panels/models/plate_clpt_donnell_bardell_num.pyx:fkC_num", "panels/models/plate_clpt_donnell_bardell_num.pyx:fkG_num", "panels/models/plate_clpt_donnell_bardell_num.pyx:calc_fint"]}
{"id": "C17", "title": "Internal force linearises to the linear stiffness", "statement": "The derivative of calc_fint at the undeformed state is the linear kC: calc_fint(t c) = t kC c + O(t^2), with no constant term.", "quantifier": "all c, all laminates, all m, n, nx, ny", "why_tests_cant": "limit statement over all vectors", "anchors": ["panels/models/plate_clpt_donnell_bardell_num.pyx:calc_fint", "panels/models/plate_clpt_donnell_bardell_num.pyx:fkC_num"]}
{"id": "C18", "title": "Geometric stiffness of prescribed in-plane loads is the initial-stress energy", "statement": "c^T kG c = integral of Nxx w,x^2 + 2 Nxy w,x w,y + Nyy w,y^2 for the field w of c; it is linear in (Nxx, Nyy, Nxy) and does not involve u or v.", "quantifier": "all c, loads, m, n, dimensions, flags", "why_tests_cant": "Nxy changes no eigenvalue in symmetric test cases", "anchors": ["panels/models/plate_clpt_donnell_bardell.pyx:fkG0", "panels/models/cylshell_clpt_donnell_bardell.pyx:fkG0", "panels/shell.py:Shell.calc_kG"]}
{"id": "C19", "title": "State-dependent geometric stiffness uses the membrane stresses of the state plus the prescribed ones", "statement": "The numerical kG for a state c equals the initial-stress energy with, at every integration point, N = N_prescribed + [A B] eps(c); with a zero state it coincides with the prescribed-load kG under the same rule.", "quantifier": "all c, loads, laminates, per-point laminates", "why_tests_cant": "two-vector statement, pointwise laminates", "anchors": ["panels/models/plate_clpt_donnell_bardell_num.pyx:fkG_num", "panels/models/cylshell_clpt_donnell_bardell_num.pyx:fkG_num"]}
{"id": "C20", "title": "Mass matrix is kinetic energy of a through-thickness rotation field", "statement": "v^T kM v is the kinetic energy rho h integral of (u + d w,x)^2 + (v + d w,y)^2 + w^2 + (h^2/12)(w,x^2 + w,y^2) of the velocity field of v (with 1/12 as the printed decimal), for analytical and numerical (pointwise h and rho) versions; hence kM is positive semidefinite for rho, h >= 0.", "quantifier": "all v, offsets d, thickness and density fields, m, n, flags", "why_tests_cant": "positive semidefiniteness over all vectors", "anchors": ["panels/models/plate_clpt_donnell_bardell.pyx:fkM", "panels/models/plate_clpt_donnell_bardell_num.pyx:fkM_num", "panels/models/cylshell_clpt_donnell_bardell.pyx:fkM", "panels/shell.py:Shell.calc_kM"]}
{"id": "C21", "title": "Mass and stiffness use the same offset convention", "statement": "For a laminate with a non-zero offset, the mass matrix is the kinetic energy of the same kinematics u - z w,x, with z measured through the same offset laminate, on which the stiffness matrix is based.", "quantifier": "all offsets", "why_tests_cant": "tests only vary the offset sign symmetrically in a dispersion test with loose tolerance", "anchors": ["panels/models/plate_clpt_donnell_bardell.pyx:fkM", "panels/models/plate_clpt_donnell_bardell.pyx:fk0", "panels/shell.py:Shell._rebuild", "panels/shell.py:Shell.calc_kM"]}
{"id": "C22", "title": "Aerodynamic matrix is the piston-theory operator", "statement": "Before skew-symmetrisation, d^T kA c is the quadrature of -beta w_d,x w_c + gamma w_d w_c (x-flow; -beta w_d,y w_c for y-flow), restricted to the stored upper triangle, and the finalised matrix is exactly skew-symmetric off the diagonal.", "quantifier": "all c, d, m, n, beta, gamma, flags", "why_tests_cant": "non-symmetric operator stored by halves", "anchors": ["panels/models/plate_clpt_donnell_bardell_num.pyx:fkAx_num", "panels/models/plate_clpt_donnell_bardell_num.pyx:fkAy_num", "panels/models/cylshell_clpt_donnell_bardell_num.pyx:fkAx_num", "panels/shell.py:Shell.calc_kA"]}
{"id": "C23", "title": "Piston-theory parameters follow the flight condition", "statement": "calc_kA computes beta = rho V^2/sqrt(M^2-1) and gamma = beta/(2 r sqrt(M^2-1)) (0 for flat panels) from the current Mach, V, rho_air; it raises for a missing or subsonic Mach and for a flow direction other than x/y, and treats Mach 1 as 1.0001; changing Mach, V or rho_air between calls changes beta accordingly.", "quantifier": "all Mach, V, rho_air, r, flow strings, call sequences", "why_tests_cant": "state carried between calls (cached beta/gamma) needs call sequences", "anchors": ["panels/shell.py:Shell.calc_kA"]}
{"id": "C24", "title": "Sparse assembly never writes outside its buffers or the requested matrix", "statement": "Every matrix builder writes at most as many triplets as it allocated, and every row and column index lies inside [row0, row0+3mn) x [col0, col0+3mn), hence inside the matrix when the block fits; bounds checking is disabled in the compiled code.", "quantifier": "all m, n >= 0, all offsets, all builders", "why_tests_cant": "buffer overruns corrupt memory silently; sizes are symbolic polynomials in m and n", "anchors": ["panels/models/plate_clpt_donnell_bardell.pyx:fk0", "panels/models/plate_clpt_donnell_bardell_num.pyx:fkC_num", "panels/models/plate_clpt_donnell_bardell_num.pyx:fkM_num", "panels/multidomain/connections/kCSB.pyx", "panels/multidomain/connections/kCBFxcte.pyx", "panels/stiffener/models/bladestiff1d_clt_donnell_bardell.pyx:fkMf"]}
{"id": "C25", "title": "Finalised matrices are symmetric and independent of the discarded triangle", "statement": "Finalising a matrix yields an exactly symmetric matrix whose quadratic form equals that of the full (untruncated) symmetric operator, although the builders skip blocks below the block diagonal.", "quantifier": "all triplet lists produced by the builders", "why_tests_cant": "needs the interplay of the skip rule, within-block lower entries and mirroring for every m, n", "anchors": ["panels/shell.py:Shell.calc_kC", "panels/models/plate_clpt_donnell_bardell.pyx:fk0"]}
{"id": "C26", "title": "Block offsets only translate the matrix", "statement": "Building a matrix with row0 = col0 = s gives exactly the unshifted triplets translated by s; values do not change.", "quantifier": "all s, m, n, builders with c-independent values", "why_tests_cant": "multi-domain assembly relies on it for every offset", "anchors": ["panels/models/plate_clpt_donnell_bardell.pyx:fk0", "panels/models/plate_clpt_donnell_bardell.pyx:fkM", "panels/models/plate_clpt_donnell_bardell.pyx:fkG0"]}
{"id": "C27", "title": "Sub-domain integration is additive and covers the full domain by default", "statement": "Numerical integration over [x1,x2] of any polynomial integrand up to the exactness degree equals the exact integral over the sub-domain, so splitting a panel at any station and adding the two matrices reproduces the full-domain matrix; leaving x1, x2 (y1, y2) at -1 integrates over the full panel.", "quantifier": "all stations, all polynomials within exactness degree, all a, b > 0", "why_tests_cant": "one split position and tolerance is tested", "anchors": ["panels/models/plate_clpt_donnell_bardell_num.pyx:fkC_num", "panels/models/plate_clpt_donnell_bardell_num.pyx:fkM_num", "panels/models/cylshell_clpt_donnell_bardell_num.pyx:fkC_num"]}
{"id": "C28", "title": "Every stiffness path honours the sub-domain", "statement": "If x1, x2, y1, y2 are set, the matrices returned by calc_kC, calc_kG and calc_kM are those of the sub-domain, whichever integration path is selected.", "quantifier": "all sub-domains, all call variants", "why_tests_cant": "the analytical default path is never combined with a sub-domain in the tests, although stiffened-panel bays do so for every skin panel", "anchors": ["panels/shell.py:Shell.calc_kC", "panels/shell.py:Shell.calc_kG", "panels/shell.py:Shell.calc_kM", "panels/models/plate_clpt_donnell_bardell.pyx:fk0", "panels/stiffpanelbay/stiffpanelbay.py:StiffPanelBay.add_panel"]}
{"id": "C29", "title": "Field output is independent of the number of cores", "statement": "uvw and strain return, in order, the point-wise values for every requested point, whatever out_num_cores is used and whether or not it divides the number of points.", "quantifier": "all point lists, all positive core counts", "why_tests_cant": "padding/reshaping bugs only show for particular remainders", "anchors": ["panels/models/clpt_bardell_field.pyx:fuvw", "panels/models/clpt_bardell_field.pyx:fstrain", "panels/shell.py:Shell.uvw", "panels/shell.py:Shell.strain"]}
{"id": "C30", "title": "Displacement field is linear in the Ritz constants and matches the load interpolation", "statement": "u, v, w, phix, phiy returned by uvw are linear in c, phix = -dw/dx, phiy = -dw/dy, and equal the product of the interpolation matrix used for loads and constraints with c.", "quantifier": "all c, points, m, n, flags", "why_tests_cant": "tests evaluate the two code paths separately", "anchors": ["panels/models/clpt_bardell_field.pyx:cfuvw", "panels/models/clpt_bardell_field.pyx:cfg", "panels/models/clpt_bardell_field.pyx:fg"]}
{"id": "C31", "title": "Strain output equals the derivatives of the displacement output", "statement": "strain returns the Donnell strains of the field returned by uvw: exx = u,x (+ w,x^2/2), eyy = v,y + w/r (+ w,y^2/2), gxy = u,y + v,x (+ w,x w,y), kxx = -w,xx, kyy = -w,yy, kxy = -2 w,xy; non-linear terms only when NLgeom is set.", "quantifier": "all c, all points, all r, flag NLgeom", "why_tests_cant": "tests compare strains with stored numbers from the same code", "anchors": ["panels/models/clpt_bardell_field.pyx:cfstrain", "panels/shell.py:Shell.strain"]}
{"id": "C32", "title": "Stress output is ABD times strain output and half their product is the energy density", "statement": "stress returns N, M = ABD * strain with the given ABD or the panel ABD, and raises when neither exists.", "quantifier": "all ABD, strains", "why_tests_cant": "row/column mix-ups are invisible for symmetric specially orthotropic laminates", "anchors": ["panels/shell.py:Shell.stress"]}
{"id": "C33", "title": "External forces do the right work", "statement": "For any displacement vector c, calc_fext . c equals the sum over point loads of F . u(point), plus the quadrature over distributed loads of q . u, with incremented loads scaled by inc and constant ones not; the vector is zero outside the block of the panel, affine in inc, and additive in the list of loads.", "quantifier": "all load lists, inc, offsets, c", "why_tests_cant": "work-conjugacy holds for all virtual displacements", "anchors": ["panels/shell_fext.py:shell_fext", "panels/shell.py:Shell.calc_fext", "panels/shell.py:Shell.add_point_load"]}
{"id": "C34", "title": "Point constraints are exact penalty energies", "statement": "calc_stiffness_point_constraint returns a symmetric positive semidefinite matrix whose quadratic form is the sum of k times the squares of the selected displacement/rotation components at the point.", "quantifier": "all selections of components, stiffness >= 0, points, c", "why_tests_cant": "quadratic-form statement over all c", "anchors": ["panels/shell.py:Shell.calc_stiffness_point_constraint"]}
{"id": "C35", "title": "Prescribed point displacements minimise a penalty potential", "statement": "The point-displacement penalty matrix together with the penalty force from add_point_pd is the gradient of 1/2 sum k (u - u_prescribed)^2 at the point.", "quantifier": "all c, k, prescribed values, points", "why_tests_cant": "the two halves live in different modules and are tested only end-to-end with tolerance", "anchors": ["panels/multidomain/connections/kCpd.pyx:fkCpd", "panels/shell.py:Shell.add_point_pd", "panels/shell_fext.py:shell_fext"]}
{"id": "C36", "title": "Prescribed line displacements penalise the component they name", "statement": "For a line of prescribed displacements with penalties ku, kv, kw the penalty matrix is the energy ku u^2 + kv v^2 + kw w^2 integrated along the line.", "quantifier": "all c, ku, kv, kw", "why_tests_cant": "tests prescribe only w, for which the misplaced entries are invisible", "anchors": ["panels/multidomain/connections/kCpd.pyx:fkCld_xcte", "panels/multidomain/connections/kCpd.pyx:fkCld_ycte", "panels/multidomain/multidomain.py:MultiDomain.get_kC_conn"]}
{"id": "C37", "title": "Degree-of-freedom numbering is a bijection", "statement": "The (term i, term j, component) -> position map 3(j m + i)+component is a bijection onto 0..3mn-1 and get_size is its cardinality, so no two unknowns share a row and no row is unused.", "quantifier": "all m, n", "why_tests_cant": "all sizes", "anchors": ["panels/shell.py:Shell.get_size", "panels/models/plate_clpt_donnell_bardell.pyx:fk0", "panels/models/clpt_bardell_field.pyx:cfuvw"]}
{"id": "C38", "title": "calc_kC chooses the formulation the caller asked for", "statement": "The analytical matrix is used exactly when neither a state, nor a laminate field, nor geometric non-linearity is requested; the geometric contribution of a constant pre-stress is added exactly when a pre-stress is defined; wrong-sized states are rejected; the call does not fail for any documented combination of arguments.", "quantifier": "all combinations of the optional arguments", "why_tests_cant": "2^6 argument combinations, several only reachable together", "anchors": ["panels/shell.py:Shell.calc_kC", "panels/shell.py:check_c"]}
{"id": "C39", "title": "Multi-domain degrees of freedom are partitioned", "statement": "The blocks [col_start, col_end) assigned to the panels of a MultiDomain are contiguous, pairwise disjoint and cover exactly 0..size-1.", "quantifier": "all lists of panels with any m, n", "why_tests_cant": "all list lengths", "anchors": ["panels/multidomain/multidomain.py:MultiDomain.__init__", "panels/multidomain/multidomain.py:MultiDomain.get_size"]}
{"id": "C40", "title": "Multi-domain matrices superpose panel energies and connection energies", "statement": "c^T kC c of the assembly equals the sum of each panel energy evaluated on its own slice of c plus the connection energies.", "quantifier": "all panel lists, all c", "why_tests_cant": "unbounded number of panels", "anchors": ["panels/multidomain/multidomain.py:MultiDomain.calc_kC", "panels/multidomain/multidomain.py:MultiDomain.calc_kM", "panels/multidomain/multidomain.py:MultiDomain.calc_kG"]}
{"id": "C41", "title": "Skin-skin connections penalise exactly the displacement and slope jumps", "statement": "The x-constant (y-constant) skin-skin connection matrix is the energy of kt times the squared jumps of u, v, w plus kr times the squared jump of the normal slope of w along the joint; it is non-negative and is zero exactly when the (integrated) jumps vanish.", "quantifier": "all c, all panel pairs with their own m, n, a, b, flags, stations, kt, kr >= 0", "why_tests_cant": "the three blocks are built by three functions; a wrong sign or length factor in one still gives plausible results", "anchors": ["panels/multidomain/connections/kCSSxcte.pyx", "panels/multidomain/connections/kCSSycte.pyx"]}
{"id": "C42", "title": "Base-flange connections penalise exactly the 90-degree compatibility", "statement": "The base-flange connection matrices are the energies of (u1-u2), (v1-w2), (w1+v2), and slope jump (y-constant) resp. (u1-w2), (v1-v2), (w1+u2), slope jump (x-constant).", "quantifier": "all c, panel pairs, kt, kr", "why_tests_cant": "same as C41", "anchors": ["panels/multidomain/connections/kCBFxcte.pyx", "panels/multidomain/connections/kCBFycte.pyx"]}
{"id": "C43", "title": "Stacked-panel connections penalise exactly the interface slip and separation", "statement": "The skin-base connection matrix is the energy kt[(u1 + d w1,x - u2)^2 + (v1 + d w1,y - v2)^2 + (w1 - w2)^2] over the panel area, non-negative for kt >= 0.", "quantifier": "all c, panel pairs of equal size, d, kt", "why_tests_cant": "same as C41", "anchors": ["panels/multidomain/connections/kCSB.pyx"]}
{"id": "C44", "title": "Connection penalties are symmetric, positive and bounded", "statement": "The automatic penalty constants are positive for positive stiffness and thickness, do not depend on the order of the two panels when the joint type is symmetric, and lie between the values obtained from either panel alone; unsupported joint types do not silently return nothing.", "quantifier": "all laminate stiffnesses and thicknesses > 0, all joint types", "why_tests_cant": "real-valued inequality", "anchors": ["panels/multidomain/connections/penalties.py:calc_kt_kr"]}
{"id": "C45", "title": "Connection matrices depend only on the connection list given", "statement": "get_kC_conn returns the matrix of the connection list it is given: calling it again with another list gives the matrix of the other list, evaluating the same list twice (also by two assemblies) gives the same matrix, and listing the two panels of a symmetric joint in the other order does not change it.", "quantifier": "all connection lists, all call sequences", "why_tests_cant": "caching and in-place modification of the caller dictionaries only show in call sequences", "anchors": ["panels/multidomain/multidomain.py:MultiDomain.get_kC_conn"]}
{"id": "C46", "title": "Documented multi-domain and panel operations do not fail on valid input", "statement": "MultiDomain.calc_kT, Shell.calc_cA and StiffPanelBay.calc_cA return a matrix for every valid model.", "quantifier": "all valid models", "why_tests_cant": "these entry points have no test; the failure is independent of the data", "anchors": ["panels/multidomain/multidomain.py:MultiDomain.calc_kT", "panels/shell.py:Shell.calc_cA", "panels/stiffpanelbay/stiffpanelbay.py:StiffPanelBay.calc_cA"]}
{"id": "C47", "title": "Multi-domain field evaluation at integration points samples every panel over its own range", "statement": "With no explicit points, the integration-point fields of each panel are sampled on a grid spanning that panel's own length and width.", "quantifier": "all panel lists with different a, b", "why_tests_cant": "tests use panels of equal size or one panel", "anchors": ["panels/multidomain/multidomain.py:MultiDomain.uvw_gauss_points", "panels/multidomain/multidomain.py:MultiDomain.strain_gauss_points", "panels/multidomain/multidomain.py:MultiDomain.stress_gauss_points"]}
{"id": "C48", "title": "Blade stiffener (1D) stiffness is beam energy", "statement": "The 1D flange stiffness is the energy of a beam at distance df from the skin: E1 (u,x + df w,xx)^2 + F1 w,xx^2 + Jxx w,xy^2 - 2 S1 (u,x + df w,xx) w,xy along y = ys; it is positive semidefinite when E1, F1, Jxx >= 0 and S1^2 <= E1 Jxx; the geometric part is Fx w,x^2.", "quantifier": "all c, stiffener data, m, n", "why_tests_cant": "quadratic form over all c; S1 = 0 in most tested layups", "anchors": ["panels/stiffener/models/bladestiff1d_clt_donnell_bardell.pyx:fkCf", "panels/stiffener/models/bladestiff1d_clt_donnell_bardell.pyx:fkGf", "panels/stiffener/bladestiff1d.py:BladeStiff1D"]}
{"id": "C49", "title": "Blade stiffener (1D) mass is a kinetic energy", "statement": "The 1D flange mass matrix is the kinetic energy of the flange and therefore positive semidefinite for a non-negative density.", "quantifier": "all c, flange data", "why_tests_cant": "a wrong coupling factor leaves frequencies of the tested stiffeners nearly unchanged", "anchors": ["panels/stiffener/models/bladestiff1d_clt_donnell_bardell.pyx:fkMf"]}
{"id": "C50", "title": "Blade stiffener (2D) connection penalises the skin-flange jumps", "statement": "The skin-skin, skin-flange and flange-flange matrices of the 2D blade stiffener together are the energy kt[(u-uf)^2 + (v-wf)^2 + (w+vf)^2] + kr (w,y - wf,y)^2 along the stiffener line.", "quantifier": "all c, m, n, m1, n1, kt, kr", "why_tests_cant": "same as C41", "anchors": ["panels/stiffener/models/bladestiff2d_clt_donnell_bardell.pyx:fkCss", "panels/stiffener/models/bladestiff2d_clt_donnell_bardell.pyx:fkCsf", "panels/stiffener/models/bladestiff2d_clt_donnell_bardell.pyx:fkCff"]}
{"id": "C51", "title": "Adding a stiffener attaches it to the two panels that meet at its station", "statement": "add_bladestiff1d/2d(ys) connects the stiffener to the panel ending at ys and the one starting at ys and fails when no such pair exists.", "quantifier": "all panel layouts, all ys", "why_tests_cant": "order-dependent lookup over arbitrary lists", "anchors": ["panels/stiffpanelbay/stiffpanelbay.py:StiffPanelBay.add_bladestiff1d", "panels/stiffpanelbay/stiffpanelbay.py:StiffPanelBay.add_bladestiff2d"]}
{"id": "C52", "title": "Stiffened-bay size and offsets give each 2D stiffener its own block", "statement": "get_size is the skin size plus the sum of the flange sizes, and the offsets used by calc_kC, calc_kG, calc_kM for successive 2D stiffeners are disjoint blocks inside it.", "quantifier": "all numbers and sizes of stiffeners", "why_tests_cant": "unbounded lists", "anchors": ["panels/stiffpanelbay/stiffpanelbay.py:StiffPanelBay.get_size", "panels/stiffpanelbay/stiffpanelbay.py:StiffPanelBay.calc_kC", "panels/stiffpanelbay/stiffpanelbay.py:StiffPanelBay.calc_kM"]}
{"id": "C53", "title": "save/load round trip", "statement": "A panel saved with name N is read back by load(N) for every name.", "quantifier": "all names", "why_tests_cant": "string-suffix rule over all strings", "anchors": ["panels/shell.py:Shell.save", "panels/shell.py:load"]}
{"id": "C54", "title": "Rebuilding is idempotent and makes defaults effective", "statement": "Re-running the internal rebuild on an unchanged panel changes nothing, guarantees nx >= m and ny >= n, selects the plate model exactly when r is None, and uses the current laminate definition (stack, ply thickness, density).", "quantifier": "all panels, all edit sequences", "why_tests_cant": "sequences of edits; lists cached on first use", "anchors": ["panels/shell.py:Shell._rebuild"]}
{"id": "C55", "title": "Forcing an orthotropic laminate removes all extension/bending-twist couplings and nothing else", "statement": "With force_orthotropic_laminate the ABD matrix keeps every entry except A16, A26, B16, B26, D16, D26 and their transposes, which become 0; symmetry is preserved.", "quantifier": "all ABD", "why_tests_cant": "36-entry matrix", "anchors": ["panels/shell.py:Shell._get_lam_ABD"]}
{"id": "C56", "title": "The matrices of a stiffened bay do not depend on how its skin is divided into panels", "statement": "Dividing the skin of a StiffPanelBay into k panels with add_panel gives the same kC, kG and kM as one panel over the whole width.", "quantifier": "all skins, all divisions", "why_tests_cant": "all numbers and limits of panels", "anchors": ["panels/stiffpanelbay/stiffpanelbay.py:StiffPanelBay.add_panel", "panels/stiffpanelbay/stiffpanelbay.py:StiffPanelBay.calc_kC", "panels/stiffpanelbay/stiffpanelbay.py:StiffPanelBay.calc_kG", "panels/stiffpanelbay/stiffpanelbay.py:StiffPanelBay.calc_kM"]}
{"id": "C57", "title": "Every matrix of a well-formed stiffened bay exists", "statement": "If a bay can be rebuilt and has a size, calc_kC, calc_kG and calc_kM give a matrix, whatever stiffeners, with or without base, it has and whatever was calculated before.", "quantifier": "all bays, all stiffeners", "why_tests_cant": "all combinations of parts and call orders", "anchors": ["panels/stiffpanelbay/stiffpanelbay.py:StiffPanelBay.calc_kM", "panels/stiffener/bladestiff1d.py:BladeStiff1D.calc_kM", "panels/stiffener/bladestiff2d.py:BladeStiff2D.calc_kM"]}
{"id": "C58", "title": "The base of a stiffener lies on the skin", "statement": "In the matrices of a bay the base of every blade stiffener has the offset -(h + hb)/2, with hb its thickness and h the mean thickness of the two panels it is on, however the skin laminate was given; its domain is the strip of the width bb centred on the line of the stiffener.", "quantifier": "all bays, all skins, all stiffeners", "why_tests_cant": "depends on the order of construction and rebuild", "anchors": ["panels/stiffener/bladestiff2d.py:BladeStiff2D.__init__", "panels/stiffener/bladestiff2d.py:BladeStiff2D._rebuild", "panels/stiffener/bladestiff1d.py:BladeStiff1D._rebuild"]}
{"id": "C59", "title": "The finalised aerodynamic matrix is the operator in both triangles", "statement": "Entry (r, q) of the finalised aerodynamic matrix equals the quadrature of the piston operator (beta times the slope of mode q in the flow direction plus gamma times mode q) tested with mode r, for every pair of modes, also below the diagonal where the code completes the matrix by skew symmetry.", "quantifier": "every panel, flow direction, beta, gamma, pair of modes and number of integration points for which the rule is exact", "why_tests_cant": "A test compares a flutter speed or one matrix; whether the completion by skew symmetry is the operator depends on the edge flags, on the curvature and on the direction of the flow.", "anchors": ["panels/shell.py:Shell.calc_kA", "panels/models/plate_clpt_donnell_bardell_num.pyx:fkAx_num", "panels/models/plate_clpt_donnell_bardell_num.pyx:fkAy_num"]}
{"id": "C60", "title": "The aerodynamic matrix of a bay", "statement": "calc_kA of a bay has as many rows as the stiffness matrix of the bay, is the piston operator over the whole skin however the skin is divided into panels, and uses the flight condition (or beta) given on the bay.", "quantifier": "all bays, all divisions of the skin, all flight conditions", "why_tests_cant": "depends on the number of panels, on stiffeners with their own unknowns and on the order of the calls", "anchors": ["panels/stiffpanelbay/stiffpanelbay.py:StiffPanelBay.calc_kA", "panels/stiffpanelbay/stiffpanelbay.py:StiffPanelBay.get_size"]}
{"id": "C61", "title": "The external forces of a bay", "statement": "The vector of calc_fext of a bay has the size of the bay, and its product with a vector of amplitudes is the work of the forces on the skin.", "quantifier": "all bays, all lists of forces, all vectors of amplitudes", "why_tests_cant": "work identity over all amplitudes; failures depend on the contents of the bay", "anchors": ["panels/stiffpanelbay/stiffpanelbay.py:StiffPanelBay.calc_fext", "panels/models/clpt_bardell_field.pyx:fg"]}
{"id": "C62", "title": "The displacements of a bay", "statement": "For every full vector of amplitudes uvw_skin gives the displacements of the skin and uvw_stiffener those of the flange of the stiffener asked for, taken from its own block of the vector, at the points given or on the default grid.", "quantifier": "all bays, vectors, stiffeners, points", "why_tests_cant": "offset of the block for every number and order of stiffeners", "anchors": ["panels/stiffpanelbay/stiffpanelbay.py:StiffPanelBay.uvw_skin", "panels/stiffpanelbay/stiffpanelbay.py:StiffPanelBay.uvw_stiffener", "panels/stiffpanelbay/stiffpanelbay.py:StiffPanelBay._default_field"]}
{"id": "C63", "title": "A bay can be saved", "statement": "A bay saved under a name is read back by load with that name.", "quantifier": "all bays, all names without the extension", "why_tests_cant": "depends on the attributes that panels may have", "anchors": ["panels/stiffpanelbay/stiffpanelbay.py:StiffPanelBay.save", "panels/stiffpanelbay/stiffpanelbay.py:StiffPanelBay._clear_matrices", "panels/stiffpanelbay/stiffpanelbay.py:load", "panels/shell.py:Shell"]}
{"id": "C64", "title": "Closed cylinder", "statement": "create_cylinder_assy lays equal panels that cover the circumference without gap or overlap and joins each to the next and the last to the first, so the stiffness matrix is the strain energy of all panels plus springs on the jumps across every one of the edges; create_cylinder_blade_stiffened adds the strain energy of the blades and springs between each blade and the first edge of its panel.", "quantifier": "all radii, heights, numbers of panels and terms, laminates, amplitudes", "why_tests_cant": "the closing joint is handled by a separate branch, and the claim is about an energy identity for any number of panels", "anchors": ["panels/multidomain/cylinder.py:create_cylinder_assy", "panels/multidomain/cylinder_blade_stiffened.py:create_cylinder_blade_stiffened"]}
{"id": "C65", "title": "Axial load of each panel", "statement": "The compression functions for cylinders load every panel with its own given value of Nxx, whether the value is used directly or through a static analysis, and cylinder_spla loads the edge with the given Nxx.", "quantifier": "all cylinders, lists of loads and amplitudes", "why_tests_cant": "the loads are closures whose values are read later; a test with equal values on all panels cannot see which value is read", "anchors": ["panels/multidomain/cylinder.py:cylinder_compression_lb_Nxx_cte", "panels/multidomain/cylinder.py:cylinder_compression_lb_Nxx_from_static", "panels/multidomain/cylinder.py:cylinder_spla", "panels/multidomain/cylinder_blade_stiffened.py:cylinder_blade_stiffened_compression_lb_Nxx_cte", "panels/multidomain/cylinder_blade_stiffened.py:cylinder_blade_stiffened_compression_lb_Nxx_from_static"]}
{"id": "C66", "title": "Panel with a T stiffener and a defect", "statement": "The fifteen panels of tstiff2d_1stiff_compression and tstiff2d_1stiff_freq cover the skin without gap or overlap; panels of the skin, of the base and of the flange that meet are joined where they meet and nowhere else, each once; the base is bonded to the skin under it except over the defect, and the flange stands on the centre line of the base; only the outer edges of the skin and the ends of the flange are supported. The stiffness matrix is the strain energy of the panels plus the energy of the springs of these joints, the geometric matrix the work of the axial load of each group, the mass matrix the kinetic energy, and the static forces do the work of the axial loads on the edge x = 0 of exactly the panels that reach it.", "quantifier": "all dimensions with the base inside the skin and the defect shorter than the panel, all laminates, numbers of terms, loads and amplitudes", "why_tests_cant": "the layout has two dozen hand-written joints and edge flags whose errors change results by little, and the identities quantify over all amplitudes", "anchors": ["panels/multidomain/tstiff2d_1stiff_compression.py:tstiff2d_1stiff_compression", "panels/multidomain/tstiff2d_1stiff_freq.py:tstiff2d_1stiff_freq"]}
{"id": "C67", "title": "Force vectors of an assembly", "statement": "The external force vector of an assembly does the work of the loads of all its panels on their own displacements, and the internal force vector is the gradient of the energy of panels and connections together.", "quantifier": "all assemblies, loads, amplitudes and variations", "why_tests_cant": "gradient and work identities over all amplitudes and every number and order of panels", "anchors": ["panels/multidomain/multidomain.py:MultiDomain.calc_fint", "panels/multidomain/multidomain.py:MultiDomain.calc_fext"]}
{"id": "C68", "title": "Closed-form aerodynamic matrices", "statement": "The closed-form matrices fkAx, fkAy of the plate and the cylinder hold, in the upper triangle they store, the piston-theory operator (pressure beta times slope along the flow, with the curvature term gamma) integrated exactly over the panel, the same operator the numerical builders hold; fcA with both triangles is minus mu times the integral of the squared deflection and takes energy out for every motion.", "quantifier": "all panels, numbers of terms, edge flags, offsets, beta, gamma, mu and amplitudes", "why_tests_cant": "the identity quantifies over all amplitudes and edge flags; nothing in the test-suite compares the closed form with the numerical matrices when gamma is not zero", "anchors": ["panels/models/plate_clpt_donnell_bardell.pyx:fkAx", "panels/models/plate_clpt_donnell_bardell.pyx:fkAy", "panels/models/plate_clpt_donnell_bardell.pyx:fcA", "panels/models/cylshell_clpt_donnell_bardell.pyx:fkAx", "panels/models/cylshell_clpt_donnell_bardell.pyx:fkAy", "panels/models/cylshell_clpt_donnell_bardell.pyx:fcA"]}
{"id": "C69", "title": "Flutter matrices of the T-stiffened panel", "statement": "For a sonic or supersonic flow the flutter function of the panel with one T stiffener makes the stiffness, mass and geometric matrices of the whole assembly and an aerodynamic matrix whose entries are the work of the piston-theory pressure on all nine panels of the skin, with or without a static case before; without a Mach number, or with a subsonic one, it raises ValueError.", "quantifier": "all dimensions, numbers of terms, laminates, loads, flight conditions and solver results", "why_tests_cant": "an identity of every entry of the aerodynamic matrix for all assemblies; the one test compares a single eigenvalue with an earlier run", "anchors": ["panels/multidomain/tstiff2d_1stiff_flutter.py:tstiff2d_1stiff_flutter", "panels/shell.py:Shell.calc_kA"]}
{"id": "C70", "title": "Fields of an assembly on grids", "statement": "uvw, strain and stress of an assembly give, for exactly the panels of the requested group in their order, the displacements, strains and stress resultants of the panel's own part of the vector, at the points of a grid over the panel from edge to edge with the requested numbers of points.", "quantifier": "all assemblies, groups, vectors, grids, laminates and numbers of threads", "why_tests_cant": "the fields are functions of all amplitudes; the tests look at maxima of a few results", "anchors": ["panels/multidomain/multidomain.py:MultiDomain.uvw", "panels/multidomain/multidomain.py:MultiDomain.strain", "panels/multidomain/multidomain.py:MultiDomain.stress"]}
{"id": "C71", "title": "Contour plot of an assembly", "statement": "The plot of an assembly draws every panel of the group once, at its own position, with the values of the requested documented component at its points; the colour scale is common to all panels and runs from the given or the least to the given or the greatest value in equal steps; the data returned are those drawn.", "quantifier": "all assemblies, groups, vectors, components, grids and scale limits", "why_tests_cant": "the pictures are not compared by any test and the statement is about every point of every component", "anchors": ["panels/multidomain/multidomain.py:MultiDomain.plot"]}
{"id": "C72", "title": "Contour plot of a panel and its stored fields", "statement": "uvw, strain and stress of a panel store the mesh of the requested points and the fields at these points and leave the other fields; the plot of a panel draws the requested documented component at the requested points, shifted and displaced as asked, with an even scale, and afterwards the fields stored before are there again and belong to the stored mesh.", "quantifier": "all panels, vectors, components, points or grids, offsets, scale limits and stored fields", "why_tests_cant": "the pictures are not compared by any test; the state after a plot depends on everything done before", "anchors": ["panels/plot_shell.py:plot_shell", "panels/shell.py:Shell.uvw", "panels/shell.py:Shell.strain", "panels/shell.py:Shell.stress"]}
{"id": "C73", "title": "Contour plots of a bay", "statement": "The plots of the skin and of a stiffener flange of a bay draw the requested documented component of that part, from its own part of the vector, at the requested points, displaced as asked, with an even scale; fields and mesh stored before stay.", "quantifier": "all bays, stiffeners, vectors, components, points or grids, scale limits and stored fields", "why_tests_cant": "the pictures are not compared by any test; the stored mesh is shared with the picture by reference", "anchors": ["panels/stiffpanelbay/stiffpanelbay.py:StiffPanelBay.plot_skin", "panels/stiffpanelbay/stiffpanelbay.py:StiffPanelBay.plot_stiffener", "panels/stiffpanelbay/stiffpanelbay.py:StiffPanelBay.uvw_skin", "panels/stiffpanelbay/stiffpanelbay.py:StiffPanelBay.uvw_stiffener"]}
{"id": "C74", "title": "The evaluators are Bardell's functions, the integrated Legendre polynomials", "statement": "Each printed function, first and second derivative is Bardell's closed formula to the accuracy of the printed decimals, so the evaluators and the integral tables describe the same functions; beyond the four cubics the second derivative is the Legendre polynomial of degree i-2, the first derivative and the function are its integrals and vanish at both ends, and the table of products of second derivatives is diagonal.", "quantifier": "all 30 printed functions, all points of [-1, 1], all flags; all indices for the exact functions", "why_tests_cant": "tests compare the evaluators with each other at a few points, not with an independent definition on the whole interval", "anchors": ["panels/core/src/bardell_functions.cpp:f", "panels/core/src/bardell_functions.cpp:fp", "panels/core/src/bardell_functions.cpp:fpp", "panels/core/src/bardell_functions.cpp:vec_f", "panels/core/src/bardell.cpp:integral_fppfpp"]}
{"id": "C75", "title": "The displacement field determines the amplitudes", "statement": "Two sets of Ritz constants give the same displacement output on a grid with at least four points and at least as many points as terms per direction exactly when they agree in all constants that the edge flags switch on; from the 31st term on the constants have no effect.", "quantifier": "all panels, numbers of terms up to 30 (any number for the exact functions), flags, grids and amplitudes", "why_tests_cant": "linear independence of all combinations of 900 functions cannot be sampled", "anchors": ["panels/core/src/bardell_functions.cpp:vec_f", "panels/models/clpt_bardell_field.pyx:cfuvw"]}
{"id": "C76", "title": "The stiffness of a supported panel and the mass of every panel are positive definite", "statement": "With a positive definite laminate and edge flags that prevent the motions without strain, the constitutive stiffness (closed form, numerical, and numerical about any deformed state) is positive for every non-zero set of the amplitudes that are switched on and ignores all others; so is the mass matrix without any support; hence a static problem has exactly one solution.", "quantifier": "all panels with up to 30 terms and rules of at least max(4, m) and at most 64 points (any number of terms in closed form), sub-domains, laminate fields, states, offsets, densities, thicknesses and loads", "why_tests_cant": "definiteness is a statement about all directions and states; tests solve single problems", "anchors": ["panels/models/plate_clpt_donnell_bardell.pyx:fk0", "panels/models/plate_clpt_donnell_bardell_num.pyx:fkC_num", "panels/models/plate_clpt_donnell_bardell_num.pyx:fkM_num", "panels/models/cylshell_clpt_donnell_bardell.pyx:fk0", "panels/models/cylshell_clpt_donnell_bardell_num.pyx:fkC_num", "panels/shell.py:Shell.calc_kC", "panels/shell.py:Shell.calc_kM"]}
{"id": "C77", "title": "The linear stiffness is positive definite exactly when the edges prevent every motion without strain", "statement": "A displacement field of the panel has no strain energy exactly when it is a motion without strain of the surface (two translations and a rotation in the plane, an affine deflection, with the membrane displacements a curved surface needs) that vanishes where the edge flags say so; hence the linear stiffness (closed form or numerical, flat or cylindrical) is positive definite on the amplitudes that are switched on if and only if rest is the only such motion. The flags of a new Shell and of a new StiffPanelBay prevent all motions; a panel without any fixed edge is never definite; a cylinder with free deflection and held membrane displacements is definite while the flat panel with the same flags is not.", "quantifier": "all panels with 4 to 30 terms in each direction (any number from 4 on in closed form), all edge flags, curvatures, sub-domains, positive definite laminate fields and rules of at least max(4, m) and at most 64 points", "why_tests_cant": "the equivalence ranges over all combinations of real edge flags and all directions; tests use a few supports and never check that a missing support makes the matrix singular", "anchors": ["panels/models/plate_clpt_donnell_bardell.pyx:fk0", "panels/models/plate_clpt_donnell_bardell_num.pyx:fkC_num", "panels/models/cylshell_clpt_donnell_bardell.pyx:fk0", "panels/models/cylshell_clpt_donnell_bardell_num.pyx:fkC_num", "panels/core/src/bardell_functions.cpp:f", "panels/shell.py:Shell.__init__", "panels/stiffpanelbay/stiffpanelbay.py:StiffPanelBay.__init__"]}
{"id": "C78", "title": "The stiffness of an assembly is positive definite exactly when supports and joints prevent every motion without strain", "statement": "The matrix of panels joined by edge or area connections is positive for every set of amplitudes of which one that is switched on is not zero, and zero for all others, if and only if rest is the only set of motions without strain of the panels that respects the edge flags of each and keeps every joint shut; then every set of forces has exactly one solution. Supports of one panel are handed on through a chain of joints; an assembly of panels joined on one another's edges or faces with no support along x is never definite. The ready-made cylinders, the stiffened cylinders and the panel with a T stiffener, as their builders and analyses make them, are definite.", "quantifier": "all assemblies of panels with 4 to 30 terms in each direction, all joints, edge flags, curvatures, positive definite laminates; all arguments of the ready-made builders with at least two panels, positive dimensions and laminates with positive penalties", "why_tests_cant": "the equivalence ranges over all networks of panels and joints and all directions; the tests solve a few assemblies and would not see a missing joint that leaves one panel loose with small penalties", "anchors": ["panels/multidomain/multidomain.py:MultiDomain.calc_kC", "panels/multidomain/multidomain.py:MultiDomain.get_kC_conn", "panels/multidomain/cylinder.py:create_cylinder_assy", "panels/multidomain/cylinder.py:cylinder_compression_lb_Nxx_cte", "panels/multidomain/cylinder.py:cylinder_compression_lb_Nxx_from_static", "panels/multidomain/cylinder_blade_stiffened.py:create_cylinder_blade_stiffened", "panels/multidomain/cylinder_blade_stiffened.py:cylinder_blade_stiffened_compression_lb_Nxx_cte", "panels/multidomain/cylinder_blade_stiffened.py:cylinder_blade_stiffened_compression_lb_Nxx_from_static", "panels/multidomain/tstiff2d_1stiff_compression.py:tstiff2d_1stiff_compression", "panels/multidomain/tstiff2d_1stiff_flutter.py:tstiff2d_1stiff_flutter", "panels/multidomain/tstiff2d_1stiff_freq.py:tstiff2d_1stiff_freq"]}
{"id": "C79", "title": "More terms refine the model: matrices with fewer terms are blocks of those with more", "statement": "Stiffness, geometric stiffness, mass and aerodynamic matrices of a panel with m by n terms, in closed form and by quadrature, are the blocks, for the terms they share, of the matrices with m' by n' terms (m <= m', n <= n'); the tangent matrices and the internal forces of a state agree likewise when the additional amplitudes are zero. Hence a set of amplitudes has the same energy in both models, a lower bound of the ratio of two energies in the larger model holds in the smaller one (the lowest frequency and buckling load never rise with more terms), and the work of given forces in a linear static analysis never falls with more terms.", "quantifier": "all panels (plates and cylindrical panels), all numbers of terms m <= m', n <= n', all positions of the block in the global matrix, all laminates, loads, states, numbers of points", "why_tests_cant": "a mistake that depends on the number of terms (an index built with n instead of m, a sum over the wrong range) shows in some sizes only; tests compare a few sizes with tolerances", "anchors": ["panels/models/plate_clpt_donnell_bardell.pyx:fk0", "panels/models/plate_clpt_donnell_bardell.pyx:fkG0", "panels/models/plate_clpt_donnell_bardell.pyx:fkM", "panels/models/plate_clpt_donnell_bardell.pyx:fkAx", "panels/models/cylshell_clpt_donnell_bardell.pyx:fk0", "panels/models/plate_clpt_donnell_bardell_num.pyx:fkC_num", "panels/models/plate_clpt_donnell_bardell_num.pyx:fkG_num", "panels/models/plate_clpt_donnell_bardell_num.pyx:calc_fint", "panels/models/cylshell_clpt_donnell_bardell_num.pyx:fkC_num", "panels/models/cylshell_clpt_donnell_bardell_num.pyx:calc_fint"]}
{"id": "C80", "title": "Frequencies and buckling loads are real, complete and mean what they should", "statement": "The pairs of matrices given to the eigenvalue solvers (stiffness and mass, stiffness and geometric stiffness) of a panel held by its supports, of the ready-made cylinders, stiffened cylinders and the panel with a T stiffener have, on the amplitudes that are switched on, a complete set of modes orthogonal in mass; the frequencies are real and positive, and no other complex number is an eigenvalue; the lowest is the minimum of the ratio of the energies and never rises with more terms; critical load multipliers are real and not zero, and under loads that grow in proportion the energy stays positive definite exactly until the smallest positive one; with tension only there is no positive multiplier, with compression only no negative one.", "quantifier": "all panels with 4 to 30 terms (any number in closed form), all supports that hold them, positive definite laminates, densities and thicknesses, loads; all arguments of the ready-made builders with positive dimensions", "why_tests_cant": "a test checks a few numbers of one solution; that no complex or negative eigenvalue exists, that the modes are complete, and that the smallest positive multiplier is the stability limit are statements about all vectors", "anchors": ["panels/shell.py:Shell.calc_kC", "panels/shell.py:Shell.calc_kG", "panels/shell.py:Shell.calc_kM", "panels/multidomain/multidomain.py:MultiDomain.calc_kC", "panels/multidomain/multidomain.py:MultiDomain.calc_kG", "panels/multidomain/multidomain.py:MultiDomain.calc_kM", "panels/multidomain/cylinder.py:cylinder_compression_lb_Nxx_cte", "panels/multidomain/cylinder_blade_stiffened.py:cylinder_blade_stiffened_compression_lb_Nxx_cte", "panels/multidomain/tstiff2d_1stiff_compression.py:tstiff2d_1stiff_compression", "panels/multidomain/tstiff2d_1stiff_freq.py:tstiff2d_1stiff_freq"]}
{"id": "C81", "title": "A stiffened bay is stiff exactly when skin and flanges are held", "statement": "The stiffness matrix of a StiffPanelBay with 1D and 2D blade stiffeners, with or without bases, is positive definite on the amplitudes that are switched on exactly when the edge supports of skin and flanges and the joints along the stiffeners leave no motion without strain but rest; one part held by its own edges suffices, so a single 2D stiffener made by add_bladestiff2d holds any skin, and a bay without any support along x never is held; then every set of forces has one solution, buckling multipliers are real and bound the stable loads, and, for bays without bases and 1D stiffeners, frequencies are real, positive and complete.", "quantifier": "all bays made by add_panel, add_bladestiff1d, add_bladestiff2d with positive sides and flange widths, flat or curved, all edge flags, all symmetric positive definite laminates, beam sections of non-negative energy, 4 to 30 terms (any number in closed form) for the converse", "why_tests_cant": "definiteness speaks of all displacement fields, and the exact condition of all combinations of edge flags, stiffener positions and numbers of stiffeners; a test solves one bay", "anchors": ["panels/stiffpanelbay/stiffpanelbay.py:StiffPanelBay.calc_kC", "panels/stiffpanelbay/stiffpanelbay.py:StiffPanelBay.calc_kG", "panels/stiffpanelbay/stiffpanelbay.py:StiffPanelBay.calc_kM", "panels/stiffpanelbay/stiffpanelbay.py:StiffPanelBay.add_bladestiff2d", "panels/stiffener/bladestiff1d.py:BladeStiff1D.calc_kC", "panels/stiffener/bladestiff2d.py:BladeStiff2D.calc_kC"]}
{"id": "C82", "title": "Results of a panel do not depend on the system of units", "statement": "Every method of a Shell commutes with a change of the units of length, force and time: given all inputs converted to the new units, _rebuild, calc_kC, calc_kG, calc_kT, calc_kM, calc_kA, calc_fint, calc_fext, uvw, strain, stress, the constraints and the added loads return the old results converted, with the same amplitudes converted as lengths, and fail on the same inputs with the same error; so static solutions, buckling multipliers and frequencies measured in the new units are those of the old ones.", "quantifier": "all panels (models, edge flags, stacking, radii, loads, pre-stress, sub-domains, numbers of terms and integration points), all non-zero factors of length, force and time, all vectors of amplitudes, analytical and numerical paths", "why_tests_cant": "every formula term by term must have one dimension; a test compares numbers of one system of units with a tolerance, and a term of wrong dimension that is small in the units of the test stays unseen", "anchors": ["panels/shell.py:Shell.calc_kC", "panels/shell.py:Shell.calc_kG", "panels/shell.py:Shell.calc_kM", "panels/shell.py:Shell.calc_kA", "panels/shell.py:Shell.calc_fint", "panels/shell.py:Shell.calc_fext", "panels/shell.py:Shell.strain", "panels/shell.py:Shell.stress", "panels/models/clpt_bardell_field.pyx:fstrain", "panels/shell.py:Shell.add_distr_pd_fixed_x"]}
{"id": "C83", "title": "Results of assemblies do not depend on the system of units", "statement": "The methods of MultiDomain (connection matrix, stiffness, geometric stiffness, tangent stiffness, mass, internal and external forces, displacements, strains, stresses) and the ready-made cylinders, bladed cylinders and T-stiffened panels (buckling, vibration, flutter) give, for inputs converted to other units of length, force and time, the converted results with the same failures, with all penalties computed by the code converted by themselves; so static solutions, buckling multipliers and frequencies of assemblies are the same physical quantities in all units.", "quantifier": "all assemblies, lists of joints, amplitudes, all positive factors of length and all non-zero factors of force and time, all arguments of the ready-made functions, every linear solver", "why_tests_cant": "a penalty with a hidden dimension changes results only when the units change; tests use one system of units and a tolerance", "anchors": ["panels/multidomain/multidomain.py:MultiDomain.get_kC_conn", "panels/multidomain/multidomain.py:MultiDomain.calc_kC", "panels/multidomain/multidomain.py:MultiDomain.calc_fint", "panels/multidomain/connections/penalties.py:calc_kt_kr", "panels/multidomain/connections/penalties.py:calc_kw_tsl", "panels/multidomain/cylinder.py:cylinder_compression_lb_Nxx_cte", "panels/multidomain/tstiff2d_1stiff_compression.py:tstiff2d_1stiff_compression", "panels/multidomain/tstiff2d_1stiff_flutter.py:tstiff2d_1stiff_flutter"]}
{"id": "C84", "title": "The section constants of a 1D flange are those of its laminate", "statement": "E1, F1 and S1 of a BladeStiff1D are the integrals over the stacked plies of the axial stiffness (transverse stress zero) and of the first moment, about the middle plane of the flange, of the coupling of axial strain and shear stress; F1 is E1 bf^2/12, Jxx the polar second moment of the bf x hf section, and dbf the height of the middle of the flange above the middle of the skin, with the base in between.", "quantifier": "all stacks of plies with any thicknesses and stiffnesses, all stiffeners, with and without base", "why_tests_cant": "tests use symmetric balanced stacks, for which the position of the plies and the coupling cancel; the claim is about every stack", "anchors": ["panels/stiffener/bladestiff1d.py:BladeStiff1D._rebuild"]}
{"id": "C85", "title": "Amplitudes that do not fit are refused", "statement": "The methods of panels and assemblies that take amplitudes (calc_kC with c and c_cte, calc_kG, calc_kT, calc_fint) return a result only for one-dimensional arrays with exactly the size of the system, and raise TypeError or ValueError otherwise.", "quantifier": "all panels, all assemblies (also without panels), all arguments c of any type and length", "why_tests_cant": "a test with a wrong vector shows one refusal of one method; a missing check in one path gives reads outside of arrays that may go unnoticed", "anchors": ["panels/shell.py:check_c", "panels/shell.py:Shell.calc_kC", "panels/shell.py:Shell.calc_kG", "panels/shell.py:Shell.calc_kT", "panels/shell.py:Shell.calc_fint", "panels/multidomain/multidomain.py:MultiDomain.calc_kC", "panels/multidomain/multidomain.py:MultiDomain.calc_kG", "panels/multidomain/multidomain.py:MultiDomain.calc_fint"]}
{"id": "C86", "title": "Results of stiffened bays do not depend on the system of units", "statement": "Adding panels and stiffeners to a StiffPanelBay, its stiffness, geometric stiffness, mass and aerodynamic matrices, and the displacements of skin and flanges give, for inputs converted to other units of length, force and time, the converted results with the same failures; so buckling multipliers and frequencies of bays are the same physical quantities in all units.", "quantifier": "all bays with any panels and 1D and 2D stiffeners, all positive factors of length and all non-zero factors of force and time, all amplitudes, points and arguments", "why_tests_cant": "a term without the right dimension, or an absolute tolerance, is invisible in one system of units; tests use one", "anchors": ["panels/stiffpanelbay/stiffpanelbay.py:StiffPanelBay.calc_kC", "panels/stiffpanelbay/stiffpanelbay.py:StiffPanelBay.calc_kG", "panels/stiffpanelbay/stiffpanelbay.py:StiffPanelBay.calc_kM", "panels/stiffpanelbay/stiffpanelbay.py:StiffPanelBay.calc_kA", "panels/stiffpanelbay/stiffpanelbay.py:StiffPanelBay.add_bladestiff1d", "panels/stiffpanelbay/stiffpanelbay.py:StiffPanelBay.add_bladestiff2d", "panels/stiffener/bladestiff1d.py:BladeStiff1D._rebuild", "panels/stiffener/models/bladestiff1d_clt_donnell_bardell.pyx:fkCf"]}
{"id": "C87", "title": "Static analysis obeys reciprocity, the energy theorem and minimum potential energy", "statement": "For the stiffness (or tangent stiffness) matrix and the force vectors of calc_fext: the work of one set of loads on the displacements under another set is the work of the second on the displacements under the first, so that exchanging point and direction of a force and of a displacement leaves the displacement unchanged; the sum of two sets of loads is balanced by the sum of the amplitudes; in equilibrium the strain energy is half the work of the loads; equilibrium is the minimum of strain energy minus work of the loads, and that minimum exists and is unique when the supports hold the structure.", "quantifier": "all panels, all assemblies of joined panels, all loads (on the same or on different panels), all sets of free amplitudes, all laminates with symmetric (for the minimum: positive) matrix", "why_tests_cant": "tests compare one deflection with a reference number; that the force vector and the matrix belong to the same energy is a statement about all loads and all displacements", "anchors": ["panels/shell.py:Shell.calc_kC", "panels/shell.py:Shell.calc_kT", "panels/shell.py:Shell.calc_fext", "panels/multidomain/multidomain.py:MultiDomain.calc_kC", "panels/multidomain/multidomain.py:MultiDomain.calc_fext"]}
{"id": "C88", "title": "Stiffening never lowers, softening never raises any frequency or the first buckling load", "statement": "The ordered frequencies of a structure are determined by its stiffness and mass matrices, whichever modes a solver returns. No frequency (the n-th, for every n) rises when Ritz terms are added, when edges are released, when the laminate is replaced by a softer one, or when the density grows; none falls when tension is applied or joints are added to an assembly. The range of stable load multipliers never shrinks when edges are supported, the laminate stiffened or joints added.", "quantifier": "all panels, all numbers of terms, all edge flags, all pairs of laminates ordered by energy, all assemblies and all further joints, every mode number", "why_tests_cant": "convergence tests look at the first few values of one panel for a few numbers of terms; the claim is about every mode and every structure", "anchors": ["panels/shell.py:Shell.calc_kC", "panels/shell.py:Shell.calc_kM", "panels/shell.py:Shell.calc_kG", "panels/models/plate_clpt_donnell_bardell.pyx:fk0", "panels/models/cylshell_clpt_donnell_bardell.pyx:fk0", "panels/multidomain/multidomain.py:MultiDomain.calc_kC"]}
{"id": "C89", "title": "A mirrored panel behaves as the mirror image", "statement": "Mirror a panel in the middle line of its length, of its width, or of both: exchange the flags of opposite edges, the integration domain, the signs of the 16 and 26 terms of the laminate, the loads and the state. With at least four terms in every mirrored direction the closed-form stiffness, mass and geometric stiffness matrices, the matrices by quadrature (also with properties varying from point to point and about a deflected state), the internal forces and the vector of external forces are those of the panel with the terms exchanged and their signs. Frequencies and critical loads are therefore the same, and the displacements under load are mirrored at every point. With fewer terms the set of functions is not symmetric and even the number of unknowns differs.", "quantifier": "all panels, all edge flags, all domains, all symmetric laminate matrices, all loads, all states, all numbers of terms from four on and all numbers of points with a symmetric table (2 to 64 of the code)", "why_tests_cant": "tests compare single values of particular panels; a sign lost in one of the hundreds of printed polynomial products would be seen only for flags and laminates no test uses", "anchors": ["panels/models/plate_clpt_donnell_bardell.pyx:fk0", "panels/models/cylshell_clpt_donnell_bardell.pyx:fk0", "panels/models/plate_clpt_donnell_bardell_num.pyx:fkC_num", "panels/models/plate_clpt_donnell_bardell_num.pyx:calc_fint", "panels/shell.py:Shell.calc_fext", "panels/core/src/bardell_functions.cpp:vec_f", "panels/core/src/legendre_gauss_quadrature.cpp:leggauss_quad"]}
{"id": "C90", "title": "A plate does not depend on which axis is called x", "statement": "Describe a flat plate with the axes exchanged: length and width, numbers of terms, edge flags of u and v, integration domain, points of integration, the rows of the laminate, the prescribed resultants and the loads. Every stiffness, mass and geometric stiffness matrix (closed form and by quadrature, also with properties varying from point to point and about a deflected state), the internal forces and the vector of external forces are the same with the terms renumbered. Frequencies, critical loads and the displacements under load are the same.", "quantifier": "all plates, all numbers of terms, all edge flags and domains, all symmetric laminate matrices, all loads, all states, all numbers of points", "why_tests_cant": "an x for a y in one of the hundreds of products is invisible in tests of square, isotropic or symmetric plates", "anchors": ["panels/models/plate_clpt_donnell_bardell.pyx:fk0", "panels/models/plate_clpt_donnell_bardell.pyx:fkG0", "panels/models/plate_clpt_donnell_bardell.pyx:fkM", "panels/models/plate_clpt_donnell_bardell_num.pyx:fkC_num", "panels/models/plate_clpt_donnell_bardell_num.pyx:fkG_num", "panels/models/plate_clpt_donnell_bardell_num.pyx:fkM_num", "panels/models/plate_clpt_donnell_bardell_num.pyx:calc_fint", "panels/shell.py:Shell.calc_fext"]}
{"id": "C91", "title": "A closed cylinder has no first panel", "statement": "Hand the axial loads of the panels of a cylinder on round the ring by any number of panels (and, for a cylinder with blades, the stackings and widths of the blades and their loads alike). Stiffness and geometric stiffness matrices are the same with the unknowns handed on alike, the amplitudes switched on are the same, and so are all critical loads, with multiplicities. The stiffness matrix of the cylinder without loads is the same seen from any panel.", "quantifier": "all numbers of panels from two, all numbers of terms, all radii, heights and laminates that the constructor accepts, all loads, all blades, all rotations", "why_tests_cant": "the joint that closes the ring is made by another branch (panels and edges exchanged, index wrapped round) than the rest; a wrong edge or panel there changes only loads that are not the same on all panels, which no test uses", "anchors": ["panels/multidomain/cylinder.py:create_cylinder_assy", "panels/multidomain/cylinder.py:cylinder_compression_lb_Nxx_cte", "panels/multidomain/cylinder_blade_stiffened.py:create_cylinder_blade_stiffened", "panels/multidomain/cylinder_blade_stiffened.py:cylinder_blade_stiffened_compression_lb_Nxx_cte"]}
{"id": "C92", "title": "An assembly of plates does not depend on which axis is called x", "statement": "Describe every flat plate of an assembly with the axes exchanged, and every joint along x = const as a joint along y = const at the same positions. The stiffness matrix of the assembly (panels and joints), its geometric stiffness and mass matrices and its vector of external forces are the same with the terms of every panel renumbered in its block; frequencies, critical loads and the displacements under load are the same. The code keeps this for line joints (in line and at right angles), and for joints over an area and the constants for prescribed displacements only if A11 = A22.", "quantifier": "all numbers of plates, sizes, terms, flags and laminates; all lists of joints, all positions; all prescribed resultants and loads", "why_tests_cant": "the kernels and constants of the xcte and ycte joints are separate pieces of code, and every test has joints in one direction and a laminate whose two directions do not tell them apart", "anchors": ["panels/multidomain/multidomain.py:MultiDomain.get_kC_conn", "panels/multidomain/connections/kCSSxcte.pyx:fkCSSxcte11", "panels/multidomain/connections/kCSSycte.pyx:fkCSSycte11", "panels/multidomain/connections/kCBFxcte.pyx:fkCBFxcte11", "panels/multidomain/connections/kCBFycte.pyx:fkCBFycte11", "panels/multidomain/connections/kCSB.pyx:fkCSB11", "panels/multidomain/connections/penalties.py:calc_kt_kr", "panels/multidomain/connections/penalties.py:calc_ku_kv_kw_point_pd"]}
{"id": "C93", "title": "Flutter of a plate does not depend on the description of the plate", "statement": "The aerodynamic matrix of a flat plate described with the axes exchanged, the flow along y instead of along x, is the same matrix with the terms renumbered. The matrix of the mirror image of the plate is the image of the matrix, with the sign of the flow for a mirror along the flow. Hence the complex eigenvalues of the stiffness, aerodynamic and mass matrices are the same for the two descriptions, and for held edges they are the same for a flow from the other side. The code keeps the part about mirror images across the flow only if the edges crossed by the flow are held.", "quantifier": "all flat plates, sizes, terms, flags, laminates, flow data and complex numbers; all rules of integration exact for the products of the functions", "why_tests_cant": "the only test of flutter has one simply supported panel and one direction of flow, and compares one number", "anchors": ["panels/shell.py:Shell.calc_kA", "panels/models/plate_clpt_donnell_bardell_num.pyx:fkAx_num", "panels/models/plate_clpt_donnell_bardell_num.pyx:fkAy_num"]}
{"id": "C94", "title": "A new stiffener is the one described", "statement": "add_bladestiff1d and add_bladestiff2d refuse a stiffener without plies and a stack without thicknesses or properties. Otherwise the stiffener has the plies given (one value means all plies), the density given or that of the bay, a base that is a strip of width bb about ys and moves with the skin, and a flange of width bf with mf x nf terms whose ends are held, and whose edges at the skin and opposite to it are free to move and to turn, whatever the supports of the bay. A 1D stiffener asked for its matrices in another block has the same matrices there.", "quantifier": "all bays, stations, arguments, numbers of terms, amplitudes and offsets", "why_tests_cant": "the tests check one number of one stiffened panel; wrong plies, supports or blocks of a part change it slightly or not at all", "anchors": ["panels/stiffpanelbay/stiffpanelbay.py:StiffPanelBay.add_bladestiff1d", "panels/stiffpanelbay/stiffpanelbay.py:StiffPanelBay.add_bladestiff2d", "panels/stiffener/bladestiff1d.py:BladeStiff1D._rebuild", "panels/stiffener/bladestiff2d.py:BladeStiff2D.__init__"]}
{"id": "C95", "title": "An assembly behaves as its mirror image", "statement": "Mirroring a whole assembly in a plane - each panel along its own axes, with its supports, laminate, preloads, offset, loads and the positions of its joints - gives stiffness, geometric stiffness and mass matrices and forces that are those of the original with the terms exchanged and their signs changed. Frequencies (with multiplicities) and buckling loads are the same, and the static displacements are the mirrored ones at every point of every panel.", "quantifier": "all assemblies of plates and cylindrical panels joined by the connections of the package, all mirror planes along the axes of the panels, all numbers of terms from 4 along a mirrored axis, all loads", "why_tests_cant": "no test mirrors an assembly; a wrong sign at one end of one joint or in one coupling term is visible only in a particular unsymmetric assembly", "anchors": ["panels/multidomain/multidomain.py:MultiDomain.calc_kC", "panels/multidomain/multidomain.py:MultiDomain.calc_kG", "panels/multidomain/multidomain.py:MultiDomain.calc_kM", "panels/multidomain/multidomain.py:MultiDomain.calc_fext", "panels/multidomain/connections/kCBFycte.pyx:fkCBFycte11"]}
{"id": "C96", "title": "Expanding printed powers keeps the values", "statement": "The functions that print the kernels replace x**n and pow(x, n) by products in the printed text. For every printed expression the text returned is that of an expression without powers of words which has the same value, whatever the names, decimals and functions in it mean.", "quantifier": "all expressions built from names, numbers, sums, products, quotients, powers and function calls", "why_tests_cant": "the functions are not tested at all; texts that contain each other (x**1 in x**12, x**2 in ax**2) appear only in particular expressions", "anchors": ["panels/dev/matrixtools.py:pow2mult", "panels/dev/matrixtools.py:mprint_as_array"]}
{"id": "C97", "title": "A printed kernel writes every entry once", "statement": "Running the lines printed by mprint_as_sparse writes each entry of the matrix that is not zero exactly once (of the upper triangle only, for a symmetric matrix), at its row and column of the block, with its value, in consecutive places of the arrays, and exactly as many as announced in the header. mprint_as_array prints one line for each entry that is not zero, at its place row by row or column by column.", "quantifier": "all matrices of printed expressions, all suffixes, block offsets and both orders", "why_tests_cant": "the functions are not tested; a wrong count shows only as memory overwritten by the compiled kernel", "anchors": ["panels/dev/matrixtools.py:mprint_as_sparse", "panels/dev/matrixtools.py:mprint_as_array"]}
{"id": "C98", "title": "The order of the panels of an assembly does not matter", "statement": "The same panels, loads and joints handed to MultiDomain in another order give the same structure: kC, kG, kM and the external forces with the blocks of the panels exchanged, the same frequencies with multiplicities, the same buckling loads and the same displacements at every point of every panel.", "quantifier": "all assemblies of any number of panels and joints, all permutations of the panels, all laminates, loads and edge flags", "why_tests_cant": "every test fixes one order of the panels; the roles of the two panels of a joint are taken from their numbers, which no test varies", "anchors": ["panels/multidomain/multidomain.py:get_kC_conn", "panels/multidomain/multidomain.py:calc_kC", "panels/multidomain/multidomain.py:calc_kG", "panels/multidomain/multidomain.py:calc_kM", "panels/multidomain/multidomain.py:calc_fext"]}
{"id": "C99", "title": "An assembly that admits more motions is never stiffer", "statement": "Giving panels of an assembly more terms, releasing held edges or dropping joints never raises any natural frequency (the k-th frequency of the freer assembly is at most the k-th one of the given assembly), never raises the buckling load, and never lessens the work that the loads do on the static displacements; every motion of the given assembly is a motion of the freer one with the same displacements.", "quantifier": "all assemblies of any number of panels and joints, all numbers of terms, all sets of released edges, all subsets of the joints, all laminates, loads (with the number of terms kept along loaded lines) and exact hierarchical shape functions", "why_tests_cant": "a convergence test compares a few numbers of terms of one structure; monotony over all of them, and under every combination of released edges and dropped joints, is an infinite claim", "anchors": ["panels/multidomain/multidomain.py:calc_kC", "panels/multidomain/multidomain.py:get_kC_conn", "panels/multidomain/multidomain.py:calc_kG", "panels/multidomain/multidomain.py:calc_kM", "panels/multidomain/multidomain.py:calc_fext", "panels/shell.py:calc_kC"]}
{"id": "C100", "title": "A stiffener never weakens a bay", "statement": "Adding stiffeners to a stiffened bay never makes its stiffness smaller for any motion; a bay that is held by its supports stays held; stiffeners that carry no load leave the geometric stiffness as it is and lower no buckling load; and forces on the unknowns of the given bay do no more work on the static displacements with the stiffeners than without them.", "quantifier": "all bays with any number of skin panels and stiffeners, all lists of 1D and 2D stiffeners added with any positions, bases, flanges and numbers of terms, all definite laminates, all motions and forces", "why_tests_cant": "a test compares a bay with and without one stiffener for one load; that no stiffener at any position, of any layup and with any number of terms, can lower a buckling load needs the sign of every term of the energy", "anchors": ["panels/stiffpanelbay/stiffpanelbay.py:add_bladestiff1d", "panels/stiffpanelbay/stiffpanelbay.py:add_bladestiff2d", "panels/stiffpanelbay/stiffpanelbay.py:calc_kC", "panels/stiffpanelbay/stiffpanelbay.py:calc_kG", "panels/stiffener/bladestiff1d.py:calc_kC", "panels/stiffener/bladestiff2d.py:calc_kC"]}
{"id": "C101", "title": "A bay does not depend on the order of its stiffeners", "statement": "If the stiffeners of a bay are given in another order, the bay can still be rebuilt, has the same size, and its stiffness, geometric stiffness and mass matrices are those of the given bay entry by entry with the blocks of the flanges exchanged; frequencies, buckling loads and the displacements of the skin and of every flange under the same forces are the same.", "quantifier": "all bays with any number of skin panels and of 1D and 2D stiffeners, all orders of the 1D stiffeners and all permutations of the 2D stiffeners, all numbers of terms of the flanges, all entries of the matrices", "why_tests_cant": "the offset of every flange depends on the sizes of all flanges before it, so a test of one order of two stiffeners says nothing of an offset that is wrong for the third of four with different numbers of terms", "anchors": ["panels/stiffpanelbay/stiffpanelbay.py:calc_kC", "panels/stiffpanelbay/stiffpanelbay.py:calc_kG", "panels/stiffpanelbay/stiffpanelbay.py:calc_kM", "panels/stiffpanelbay/stiffpanelbay.py:_rebuild", "panels/stiffpanelbay/stiffpanelbay.py:get_size"]}
{"id": "C102", "title": "A bay behaves as its mirror image", "statement": "If a stiffened bay is mirrored along its stiffeners, across them or both (panels, edge conditions, laminates, stiffener positions and the two panels of each stiffener), the stiffness, geometric stiffness and mass matrices are those of the given bay entry by entry, with the amplitudes of the mirrored functions exchanged and signed; frequencies and buckling loads are the same, and the displacements of skin and flanges are mirrored at every point.", "quantifier": "all bays with any number of skin panels, 1D and 2D stiffeners, all positions, edge conditions, laminates and numbers of terms, all four combinations of mirrored axes, all entries of the matrices, all points", "why_tests_cant": "a test of one symmetric bay cannot see a term that is wrong only when the stiffener is off centre or the two panels next to it differ, and the amplitudes of the mirrored bay carry signs that depend on the parity of every function", "anchors": ["panels/stiffpanelbay/stiffpanelbay.py:calc_kC", "panels/stiffpanelbay/stiffpanelbay.py:calc_kG", "panels/stiffpanelbay/stiffpanelbay.py:calc_kM", "panels/stiffener/bladestiff1d.py:_rebuild", "panels/stiffener/bladestiff1d.py:calc_kC", "panels/stiffener/bladestiff2d.py:calc_kC"]}
{"id": "C103", "title": "A bay and the assembly of its parts are the same structure", "statement": "A stiffened bay whose stiffeners are flanges without bases has, entry by entry, the stiffness, geometric stiffness and mass matrices of the multidomain assembly of its skin and flanges joined along the lines on which the flanges stand, with the same numbering of the amplitudes and the same size.", "quantifier": "all bays with any number of 2D stiffeners without bases, all positions, edge conditions, laminates, radii, loads and numbers of terms, all entries of the matrices", "why_tests_cant": "the two classes have separate code for offsets, springs and sums; a test compares a few frequencies of one structure and needs one whose two descriptions are known to agree, and it cannot show that every entry agrees for every number of flanges and terms", "anchors": ["panels/stiffpanelbay/stiffpanelbay.py:calc_kC", "panels/stiffpanelbay/stiffpanelbay.py:calc_kG", "panels/stiffpanelbay/stiffpanelbay.py:calc_kM", "panels/stiffener/bladestiff2d.py:calc_kC", "panels/multidomain/multidomain.py:get_kC_conn", "panels/multidomain/multidomain.py:calc_kC", "panels/multidomain/multidomain.py:calc_kG", "panels/multidomain/multidomain.py:calc_kM"]}
{"id": "C104", "title": "A stiffener is accepted exactly when its description is complete", "statement": "A call that adds a 1D or 2D stiffener succeeds exactly when the base or the flange has a stack, every given stack comes with thickness, properties and a width, and two panels of the skin of the same kind meet at the station; otherwise the exception tells which of these is missing. The matrices of a bay with an accepted stiffener can be calculated.", "quantifier": "all bays with any number of panels and stiffeners, all stations, all combinations of given and missing arguments, all laminates the library accepts", "why_tests_cant": "there are hundreds of combinations of given and missing arguments, and a test that a complete call works says nothing about the incomplete ones that get through and fail later, or the complete ones that are refused", "anchors": ["panels/stiffpanelbay/stiffpanelbay.py:add_bladestiff1d", "panels/stiffpanelbay/stiffpanelbay.py:add_bladestiff2d", "panels/stiffpanelbay/stiffpanelbay.py:get_size", "panels/stiffener/bladestiff1d.py:_rebuild", "panels/stiffener/bladestiff2d.py:_rebuild"]}
{"id": "C105", "title": "A stiffened bay that admits more motions is never stiffer", "statement": "With more terms in skin, bases and flanges and fewer of their edges held, every motion of a stiffened bay is still possible and stores the same elastic, geometric and kinetic energy. Hence no natural frequency rises, no buckling load rises, and given loads do no less work.", "quantifier": "all bays with any number of panels, 1D and 2D stiffeners with and without bases, all numbers of terms for which the functions are hierarchical, all edges released, all motions, all frequencies in order", "why_tests_cant": "convergence studies compare a few numbers of terms of one bay and look at the lowest value only; a term that is put in the wrong place of a larger matrix can lower as well as raise it", "anchors": ["panels/stiffpanelbay/stiffpanelbay.py:calc_kC", "panels/stiffpanelbay/stiffpanelbay.py:calc_kG", "panels/stiffpanelbay/stiffpanelbay.py:calc_kM", "panels/stiffpanelbay/stiffpanelbay.py:get_size", "panels/stiffener/bladestiff1d.py:calc_kC", "panels/stiffener/bladestiff2d.py:calc_kC"]}
{"id": "C106", "title": "Buckling of a stiffened bay about a calculated state", "statement": "The geometric stiffness of a stiffened bay about a state of amplitudes c is the work, through the slopes, of the membrane forces in every part of the bay: those given for the part and those of the state, in the skin panels, the bases, the flanges and the beams.", "quantifier": "all bays with panels and stiffeners whose laminates are good, all states of the right length, all motions", "why_tests_cant": "tests call the bay's buckling analysis with given skin forces and compare one load factor; a part whose share is left out changes the number a little, and nothing says by how much it should change", "anchors": ["panels/stiffpanelbay/stiffpanelbay.py:calc_kG", "panels/stiffener/bladestiff1d.py:calc_kG", "panels/stiffener/bladestiff2d.py:calc_kG", "panels/shell.py:Shell.calc_kG"]}
{"id": "C107", "title": "Linear buckling is exact for a panel that stays flat", "statement": "Along states p c of a panel that have no deflection, the internal force is p times the linear stiffness times c, and the tangent stiffness is the linear stiffness plus p times the linear geometric stiffness about c. Hence the tangent is singular exactly at the critical multipliers that linear buckling finds, and positive definite exactly below the first of them.", "quantifier": "all plates and cylindrical panels without constant pre-stress, all states without deflection, all multipliers, all laminates per point, places in a larger matrix and quadrature rules, all motions", "why_tests_cant": "a test follows one path of one panel to a tolerance; that four separately coded methods agree along every path needs all states and all multipliers", "anchors": ["panels/shell.py:Shell.calc_kT", "panels/shell.py:Shell.calc_fint", "panels/shell.py:Shell.calc_kC", "panels/shell.py:Shell.calc_kG"]}
{"id": "C108", "title": "Static analysis of a stiffened bay obeys reciprocity, the energy theorem and minimum potential energy", "statement": "For the stiffness matrix of a StiffPanelBay and point forces on its skin and flanges: the displacement of one part under a force on another is the same when the two are exchanged; displacements of two sets of forces add up; in equilibrium twice the strain energy is the work of the forces; equilibrium is the minimum of the strain energy minus that work, and exists and is unique when supports and joints hold the bay; a force never moves its point against its direction, and a force in the middle of a part moves it.", "quantifier": "all bays with any panels and any 1D and 2D stiffeners, with or without bases, all lists of forces at all points of skin and flanges in all directions; moves_middle for parts with five terms or more", "why_tests_cant": "a test solves one bay with one force to a tolerance; the statements relate all pairs of forces and compare with every possible motion", "anchors": ["panels/stiffpanelbay/stiffpanelbay.py:StiffPanelBay.calc_kC", "panels/stiffpanelbay/stiffpanelbay.py:StiffPanelBay.calc_fext", "panels/stiffener/bladestiff1d.py:BladeStiff1D.calc_kC", "panels/stiffener/bladestiff2d.py:BladeStiff2D.calc_kC"]}
{"id": "C109", "title": "Linear static analysis is exact for assemblies whose panels stay flat", "statement": "After MultiDomain.calc_kC was called with a state, MultiDomain.calc_fint gives, for all amplitudes r c without deflection of any panel, r times that matrix times c, the springs of all connections included. Hence amplitudes that balance forces in the linear analysis balance them in the nonlinear one, and r times the amplitudes balance r times the forces.", "quantifier": "all assemblies of distinct plates and cylindrical panels without constant pre-stress, all connection lists, all amplitudes without deflection, all multipliers, all motions; the matrix may be calculated at any state", "why_tests_cant": "a test compares one vector of one assembly to a tolerance; that the matrix and the separately coded internal force agree for every such state and every connection list needs a proof", "anchors": ["panels/multidomain/multidomain.py:MultiDomain.calc_kC", "panels/multidomain/multidomain.py:MultiDomain.calc_fint", "panels/multidomain/multidomain.py:MultiDomain.get_kC_conn"]}
{"id": "C110", "title": "The geometric stiffness about calculated states superposes", "statement": "With the linear kinematics, Shell.calc_kG, MultiDomain.calc_kG and StiffPanelBay.calc_kG about the state r c + q d give r times the matrix about c plus q times the matrix about d, plus (1-r-q) times the matrix of the loads given beside the state. Without such loads, p is a critical multiplier about r c exactly when r p is one about c, whatever the stiffness and the kept amplitudes.", "quantifier": "all plates and cylindrical panels with symmetric laminates, all assemblies of distinct such panels, all stiffened bays without 1D stiffeners, all states c and d, all real r and q, all complex p, all stiffness matrices and sets of kept amplitudes", "why_tests_cant": "a test compares two states to a tolerance; the quadrature loops of four kernels depend on the state through many products, and only a proof shows that no entry holds a square or a constant of the state", "anchors": ["panels/shell.py:Shell.calc_kG", "panels/multidomain/multidomain.py:MultiDomain.calc_kG", "panels/stiffpanelbay/stiffpanelbay.py:StiffPanelBay.calc_kG", "panels/models/plate_clpt_donnell_bardell_num.pyx:fkG_num", "panels/models/cylshell_clpt_donnell_bardell_num.pyx:fkG_num"]}
{"id": "C111", "title": "Buckling and vibration of pre-stressed panels", "statement": "If the constant forces Nxx_cte, Nyy_cte, Nxy_cte are r times the forces Nxx, Nyy, Nxy, every entry of calc_kC is that of the unstressed structure plus r times that of calc_kG. Hence p is a critical multiplier of the pre-stressed structure exactly when r+p is one of the unstressed structure; the pre-stressed structure has a motion of zero frequency exactly when r is critical; and, for r>=0, it has a full set of modes with real positive frequencies exactly when r is below every positive critical multiplier.", "quantifier": "all plates and cylindrical panels whose rebuild succeeds, all assemblies of distinct such panels with any joints that give a matrix, all stiffened bays whose 1D stiffeners carry no force and whose bases have none, all states and laminate fields of the documented shapes, all real r, all complex p, all sets of kept amplitudes, all mass matrices", "why_tests_cant": "a test compares a few eigenvalues to a tolerance; the two matrices come from different branches and kernels, and the equivalences speak about all multipliers, also the complex ones", "anchors": ["panels/shell.py:Shell.calc_kC", "panels/shell.py:Shell.calc_kG", "panels/multidomain/multidomain.py:MultiDomain.calc_kC", "panels/multidomain/multidomain.py:MultiDomain.calc_kG", "panels/multidomain/multidomain.py:MultiDomain.get_kC_conn", "panels/stiffpanelbay/stiffpanelbay.py:StiffPanelBay.calc_kC", "panels/stiffpanelbay/stiffpanelbay.py:StiffPanelBay.calc_kG"]}
{"id": "C112", "title": "Combined loads: the carried loads form a convex region, and Dunkerley's bound", "statement": "calc_kG of the forces r N + q N' is r times calc_kG of N plus q times calc_kG of N'. Hence, if N has no positive critical multiplier up to a and N' none up to b, then r N + q N' (r, q >= 0) has none up to any c with c (r/a + q/b) <= 1. With r + q = 1 and a = b = c = 1 the loads that the structure carries form a convex region; with r = q = 1 the first critical multiplier p of both loads together obeys 1/p <= 1/a + 1/b.", "quantifier": "all plates and cylindrical panels whose rebuild succeeds, all assemblies of distinct such panels with forces of their own, all stiffened bays with forces of their own in each panel, flange and 1D stiffener, all forces and real factors, all symmetric stiffness matrices that are positive definite on the kept amplitudes", "why_tests_cant": "a test samples a few points of the interaction curve; convexity and the bound speak about all combinations of loads and about all multipliers of an eigenvalue problem", "anchors": ["panels/shell.py:Shell.calc_kG", "panels/multidomain/multidomain.py:MultiDomain.calc_kG", "panels/stiffpanelbay/stiffpanelbay.py:StiffPanelBay.calc_kG", "panels/models/plate_clpt_donnell_bardell.pyx:fkG0", "panels/models/cylshell_clpt_donnell_bardell.pyx:fkG0", "panels/stiffener/models/bladestiff1d_clt_donnell_bardell.pyx:fkGf"]}
{"id": "C113", "title": "The lowest frequency under pre-stress", "statement": "The constant forces Nxx_cte, Nyy_cte, Nxy_cte are r times the forces Nxx, Nyy, Nxy. Say that x is a floor at r if all eigenvalues of calc_kC against the mass matrix are real and not below x. If x is a floor at r1 and y at r2, then t x + (1-t) y is one at t r1 + (1-t) r2 for all t in [0,1]: the square of the lowest frequency is a concave function of the pre-stress. If the structure without pre-stress has a positive definite stiffness, the floor x and no critical multiplier of calc_kG in (0,p), then (1 - r/p) x is a floor at every r in [0,p].", "quantifier": "all plates and cylindrical panels whose rebuild succeeds, all assemblies of distinct such panels with any joints that give a matrix, all stiffened bays whose 1D stiffeners carry no force and whose bases have none, all states and laminate fields of the documented shapes, all real pre-stress factors, all sets of kept amplitudes, all symmetric mass matrices positive definite on them", "why_tests_cant": "a test samples a few pre-stresses and compares computed eigenvalues to a tolerance; the claim bounds every eigenvalue, also a complex one, at every pre-stress", "anchors": ["panels/shell.py:Shell.calc_kC", "panels/shell.py:Shell.calc_kG", "panels/multidomain/multidomain.py:MultiDomain.calc_kC", "panels/multidomain/multidomain.py:MultiDomain.calc_kG", "panels/stiffpanelbay/stiffpanelbay.py:StiffPanelBay.calc_kC", "panels/stiffpanelbay/stiffpanelbay.py:StiffPanelBay.calc_kG"]}
{"id": "C114", "title": "Tension lowers no frequency and never buckles", "statement": "The membrane forces pull in every direction: Nxx >= 0, Nyy >= 0 and Nxy^2 <= Nxx Nyy. If the constant forces are r times these, then for r <= r' every lower bound of the eigenvalues of calc_kC against the mass matrix at r is one at r', and with the eigenvalues in increasing order each one at r is not above that at r'. Every critical multiplier of calc_kG of such forces is real and negative, whatever the positive definite stiffness.", "quantifier": "all plates and cylindrical panels with positive sides whose rebuild succeeds, all assemblies of distinct such panels with any joints that give a matrix, all stiffened bays with valid laminates whose 1D stiffeners carry no force and whose bases have none, all such forces (different in each panel and flange), all real r <= r', all states of an assembly, all sets of kept amplitudes, all symmetric mass and stiffness matrices positive definite on them", "why_tests_cant": "a test takes a few forces; the claim is about the sign of a quadratic form of a large matrix for every tensile state, and about every multiplier, also a complex one", "anchors": ["panels/shell.py:Shell.calc_kC", "panels/shell.py:Shell.calc_kG", "panels/multidomain/multidomain.py:MultiDomain.calc_kC", "panels/multidomain/multidomain.py:MultiDomain.calc_kG", "panels/stiffpanelbay/stiffpanelbay.py:StiffPanelBay.calc_kC", "panels/stiffpanelbay/stiffpanelbay.py:StiffPanelBay.calc_kG", "panels/models/plate_clpt_donnell_bardell.pyx:fkG0", "panels/models/cylshell_clpt_donnell_bardell.pyx:fkG0"]}
