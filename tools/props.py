import json
P=[]
def p(id,title,statement,quant,why,anchors):
    P.append(dict(id=id,title=title,statement=statement,quantifier=quant,why_tests_cant=why,anchors=anchors))
BF='panels/core/src/bardell_functions.cpp'
BI='panels/core/src/bardell.cpp'
GL='panels/core/src/legendre_gauss_quadrature.cpp'
PA='panels/models/plate_clpt_donnell_bardell.pyx'
PN='panels/models/plate_clpt_donnell_bardell_num.pyx'
CA='panels/models/cylshell_clpt_donnell_bardell.pyx'
CN='panels/models/cylshell_clpt_donnell_bardell_num.pyx'
FL='panels/models/clpt_bardell_field.pyx'
SH='panels/shell.py'
FE='panels/shell_fext.py'
MD='panels/multidomain/multidomain.py'
CO='panels/multidomain/connections/'
SP='panels/stiffpanelbay/stiffpanelbay.py'
S1='panels/stiffener/models/bladestiff1d_clt_donnell_bardell.pyx'
S2='panels/stiffener/models/bladestiff2d_clt_donnell_bardell.pyx'
p('C01','Shape-function evaluators are mutually consistent derivatives',
 'The first- and second-derivative evaluators of the approximation functions return, at every point of the panel, the true derivative of the value evaluator up to the decimal rounding of the printed coefficients, with the same edge flags multiplying the same terms.',
 'every term 0..29, every real xi in [-1,1], every value of the four edge flags',
 'a test samples finitely many xi; a wrong digit in one of ~1300 coefficients is invisible at sampled points within tolerance',
 [BF+':vec_f',BF+':vec_fp',BF+':vec_fpp',BF+':f',BF+':fp',BF+':fpp'])
p('C02','Edge flags really remove edge displacement and edge rotation',
 'If a panel is built with the translation (rotation) flag of an edge set to 0, then whatever Ritz constants are obtained, the displacement (slope) on that edge is zero, up to coefficient rounding that is bounded explicitly; with the flag set to 1 exactly one term controls the edge displacement (slope) with factor 1 (1/2) and every other term vanishes there.',
 'all numbers of terms m<=30, all Ritz constants, both edges, all flag values',
 'the restraint must hold for the unknown solution vector of every later analysis, not for the sampled one',
 [BF+':vec_f',BF+':vec_fp',FL+':cfuvw'])
p('C03','Closed-form integral tables are the integrals of the shape functions',
 'Every entry of the six product-integral tables used by the analytical stiffness, mass and geometric matrices equals the integral over [-1,1] of the product of the corresponding Bardell functions/derivatives, including every entry that the table silently defaults to zero, up to an absolute error below 1e-15, and is multiplied by exactly the edge flags of its two functions.',
 'all 6 tables x 30 x 30 entries, all flag values',
 'numerical tests compare a few entries through quadrature with loose tolerance; omitted (defaulted) entries are never looked at',
 [BI+':integral_ff',BI+':integral_ffp',BI+':integral_ffpp',BI+':integral_fpfp',BI+':integral_fpfpp',BI+':integral_fppfpp'])
p('C04','Swap symmetry of the integral tables',
 'integral_ff, integral_fpfp and integral_fppfpp are unchanged when the two functions (index and flags) are exchanged, so analytically assembled matrices cannot depend on the order in which two terms are visited.',
 'all index pairs (also outside 0..29) and all flag values',
 'requires every pair of the 900-entry tables with symbolic flags',
 [BI+':integral_ff',BI+':integral_fpfp',BI+':integral_fppfpp'])
p('C05','Quadrature tables are Gauss rules',
 'For every supported number of points the Legendre-Gauss points are strictly increasing, lie strictly inside (-1,1), are symmetric about 0, the weights are positive and symmetric, and the rule integrates every polynomial of degree <= 2n-1 with an error below 1e-53 times the sum of its absolute coefficients.',
 'all n in 2..64, all real polynomials of degree <= 2n-1',
 'the polynomial space is infinite; tests check a handful of n with 1e-10 tolerances',
 [GL+':leggauss_quad','panels/legendre_gauss_quadrature.pyx:get_points_weights'])
p('C06','A requested quadrature rule always integrates constants',
 'Whatever number of integration points is requested (directly through nx, ny or implicitly through m, n for distributed loads), the rule that is actually used integrates the constant 1 over [-1,1] to 2; it never silently degenerates.',
 'all integers n >= 1',
 'the failing values (n = 1 and n > 64) are exactly the ones no test uses and nothing is raised',
 [GL+':leggauss_quad','panels/legendre_gauss_quadrature.pyx:get_points_weights',FE+':shell_fext',PN+':fkC_num'])
p('C07','Terms beyond the implemented 30 are inert in the matrices',
 'Asking for more than 30 terms adds rows and columns but no stiffness: every scalar evaluator and every integral table returns 0 for an index >= 30, so the additional degrees of freedom have identically zero rows in kC, kG and kM.',
 'all indices >= 30, all points, all flags',
 'nothing fails when m = 31 is requested; the matrix is silently singular',
 [BF+':f',BF+':fp',BF+':fpp',BI+':integral_ff'])
p('C08','Analytical plate stiffness is the classical-laminate strain energy',
 'The finalised matrix returned by calc_kC for a flat linear panel satisfies 1/2 c^T kC c = integral over the panel of 1/2 eps^T ABD eps, with eps the six linear Donnell/Kirchhoff strains of the displacement field that uvw reports for c.',
 'all m, n, all Ritz vectors c, all a, b > 0, all symmetric ABD, all 24 edge flags, all row/column offsets',
 'tests compare a few eigenvalues; an error in one coupling term (B16, D26, ...) only shows for special laminates',
 [PA+':fk0',SH+':Shell.calc_kC'])
p('C09','Numerically integrated plate stiffness is the same energy',
 'The finalised numerical stiffness (used when c or ABDnxny is given) equals, as a quadratic form, the quadrature sum of eps^T ABD(point) eps, with one laminate per integration point when ABDnxny is supplied; with geometric non-linearity off it does not depend on the state c.',
 'all m, n, nx, ny, states, laminates per point, sub-domains x1..x2, y1..y2',
 'the variable-stiffness case has nx*ny*36 free inputs',
 [PN+':fkC_num',SH+':Shell.calc_kC'])
p('C10','Analytical and numerical linear stiffness agree',
 'For a full-domain panel with constant laminate, the analytical and the numerically integrated kC have identical entries whenever the tables are the exact integrals and the rule integrates the products of the shape functions exactly; for the actual tables the difference of each entry is bounded.',
 'all m, n, laminates, dimensions, flags',
 'tests compare the two paths for a few laminates and m, n',
 [PA+':fk0',PN+':fkC_num'])
p('C11','Cylindrical shell stiffness is the Donnell strain energy',
 'The analytical and numerical cylindrical-shell kC equal the strain energy with the circumferential strain v,y + w/r and all other strains as for the plate.',
 'all r != 0 and everything quantified in C08/C09',
 'curvature terms couple w with every membrane and bending term; tests only check a few buckling loads',
 [CA+':fk0',CN+':fkC_num'])
p('C12','A cylindrical shell flattens to a plate as r grows',
 'Every entry of the cylindrical-shell kC tends to the corresponding plate entry as r tends to infinity (the mass, geometric and y-flow aerodynamic matrices do not depend on r at all).',
 'all entries, all laminates, all m, n',
 'a limit statement over all entries; tests use one large r',
 [CA+':fk0',PA+':fk0',CN+':fkC_num',PN+':fkC_num'])
p('C13','Constitutive stiffness is positive semidefinite and vanishes on strain-free fields',
 'If the laminate ABD matrix is positive semidefinite then kC (linear or tangent, plate or shell, analytical or numerical with the tabulated rules) is positive semidefinite; if in addition the strain field of c is zero then c^T kC c = 0.',
 'all laminates with ABD >= 0, all c, all states',
 'definiteness is a statement over all vectors',
 [PA+':fk0',PN+':fkC_num',CA+':fk0',CN+':fkC_num'])
p('C14','Non-linear kC is the material part of the tangent',
 'With geometric non-linearity on, d^T kC(c) d equals the quadrature of (delta eps)^T ABD (delta eps), where delta eps is the derivative at c in direction d of the von Karman strains (including w,x w,y in the shear strain).',
 'all states c, all directions d, all laminates, plates and cylindrical shells',
 'bilinear in two arbitrary vectors',
 [PN+':fkC_num',CN+':fkC_num'])
p('C15','Internal force is the gradient of the strain energy',
 'calc_fint(c) is the gradient of the strain energy of the von Karman strains at c, i.e. its product with any virtual vector d is the virtual work of the stresses produced by c on delta eps(c; d).',
 'all c, d, all laminates',
 'Newton iterations still converge for the tested cases when the shear strain is wrong; only an exact statement exposes the factor',
 [PN+':calc_fint',CN+':calc_fint',SH+':Shell.calc_fint'])
p('C16','Tangent stiffness is the Jacobian of the internal force',
 'calc_kT(c) applied to d is the derivative of calc_fint at c in the direction d.',
 'all c, d, all laminates, plate and shell',
 'finite differences at sampled states cannot separate a wrong factor from truncation error',
 [SH+':Shell.calc_kT',PN+':fkC_num',PN+':fkG_num',PN+':calc_fint'])
p('C17','Internal force linearises to the linear stiffness',
 'The derivative of calc_fint at the undeformed state is the linear kC: calc_fint(t c) = t kC c + O(t^2), with no constant term.',
 'all c, all laminates, all m, n, nx, ny',
 'limit statement over all vectors',
 [PN+':calc_fint',PN+':fkC_num'])
p('C18','Geometric stiffness of prescribed in-plane loads is the initial-stress energy',
 'c^T kG c = integral of Nxx w,x^2 + 2 Nxy w,x w,y + Nyy w,y^2 for the field w of c; it is linear in (Nxx, Nyy, Nxy) and does not involve u or v.',
 'all c, loads, m, n, dimensions, flags',
 'Nxy changes no eigenvalue in symmetric test cases',
 [PA+':fkG0',CA+':fkG0',SH+':Shell.calc_kG'])
p('C19','State-dependent geometric stiffness uses the membrane stresses of the state plus the prescribed ones',
 'The numerical kG for a state c equals the initial-stress energy with, at every integration point, N = N_prescribed + [A B] eps(c); with a zero state it coincides with the prescribed-load kG under the same rule.',
 'all c, loads, laminates, per-point laminates',
 'two-vector statement, pointwise laminates',
 [PN+':fkG_num',CN+':fkG_num'])
p('C20','Mass matrix is kinetic energy of a through-thickness rotation field',
 'v^T kM v is the kinetic energy rho h integral of (u + d w,x)^2 + (v + d w,y)^2 + w^2 + (h^2/12)(w,x^2 + w,y^2) of the velocity field of v (with 1/12 as the printed decimal), for analytical and numerical (pointwise h and rho) versions; hence kM is positive semidefinite for rho, h >= 0.',
 'all v, offsets d, thickness and density fields, m, n, flags',
 'positive semidefiniteness over all vectors',
 [PA+':fkM',PN+':fkM_num',CA+':fkM',SH+':Shell.calc_kM'])
p('C21','Mass and stiffness use the same offset convention',
 'For a laminate with a non-zero offset, the mass matrix is the kinetic energy of the same kinematics u - z w,x, with z measured through the same offset laminate, on which the stiffness matrix is based.',
 'all offsets',
 'tests only vary the offset sign symmetrically in a dispersion test with loose tolerance',
 [PA+':fkM',PA+':fk0',SH+':Shell._rebuild',SH+':Shell.calc_kM'])
p('C22','Aerodynamic matrix is the piston-theory operator',
 'Before skew-symmetrisation, d^T kA c is the quadrature of -beta w_d,x w_c + gamma w_d w_c (x-flow; -beta w_d,y w_c for y-flow), restricted to the stored upper triangle, and the finalised matrix is exactly skew-symmetric off the diagonal.',
 'all c, d, m, n, beta, gamma, flags',
 'non-symmetric operator stored by halves',
 [PN+':fkAx_num',PN+':fkAy_num',CN+':fkAx_num',SH+':Shell.calc_kA'])
p('C23','Piston-theory parameters follow the flight condition',
 'calc_kA computes beta = rho V^2/sqrt(M^2-1) and gamma = beta/(2 r sqrt(M^2-1)) (0 for flat panels) from the current Mach, V, rho_air; it raises for a missing or subsonic Mach and for a flow direction other than x/y, and treats Mach 1 as 1.0001; changing Mach, V or rho_air between calls changes beta accordingly.',
 'all Mach, V, rho_air, r, flow strings, call sequences',
 'state carried between calls (cached beta/gamma) needs call sequences',
 [SH+':Shell.calc_kA'])
p('C24','Sparse assembly never writes outside its buffers or the requested matrix',
 'Every matrix builder writes at most as many triplets as it allocated, and every row and column index lies inside [row0, row0+3mn) x [col0, col0+3mn), hence inside the matrix when the block fits; bounds checking is disabled in the compiled code.',
 'all m, n >= 0, all offsets, all builders',
 'buffer overruns corrupt memory silently; sizes are symbolic polynomials in m and n',
 [PA+':fk0',PN+':fkC_num',PN+':fkM_num',CO+'kCSB.pyx',CO+'kCBFxcte.pyx',S1+':fkMf'])
p('C25','Finalised matrices are symmetric and independent of the discarded triangle',
 'Finalising a matrix yields an exactly symmetric matrix whose quadratic form equals that of the full (untruncated) symmetric operator, although the builders skip blocks below the block diagonal.',
 'all triplet lists produced by the builders',
 'needs the interplay of the skip rule, within-block lower entries and mirroring for every m, n',
 [SH+':Shell.calc_kC',PA+':fk0'])
p('C26','Block offsets only translate the matrix',
 'Building a matrix with row0 = col0 = s gives exactly the unshifted triplets translated by s; values do not change.',
 'all s, m, n, builders with c-independent values',
 'multi-domain assembly relies on it for every offset',
 [PA+':fk0',PA+':fkM',PA+':fkG0'])
p('C27','Sub-domain integration is additive and covers the full domain by default',
 'Numerical integration over [x1,x2] of any polynomial integrand up to the exactness degree equals the exact integral over the sub-domain, so splitting a panel at any station and adding the two matrices reproduces the full-domain matrix; leaving x1, x2 (y1, y2) at -1 integrates over the full panel.',
 'all stations, all polynomials within exactness degree, all a, b > 0',
 'one split position and tolerance is tested',
 [PN+':fkC_num',PN+':fkM_num',CN+':fkC_num'])
p('C28','Every stiffness path honours the sub-domain',
 'If x1, x2, y1, y2 are set, the matrices returned by calc_kC, calc_kG and calc_kM are those of the sub-domain, whichever integration path is selected.',
 'all sub-domains, all call variants',
 'the analytical default path is never combined with a sub-domain in the tests, although stiffened-panel bays do so for every skin panel',
 [SH+':Shell.calc_kC',SH+':Shell.calc_kG',SH+':Shell.calc_kM',PA+':fk0',SP+':StiffPanelBay.add_panel'])
p('C29','Field output is independent of the number of cores',
 'uvw and strain return, in order, the point-wise values for every requested point, whatever out_num_cores is used and whether or not it divides the number of points.',
 'all point lists, all positive core counts',
 'padding/reshaping bugs only show for particular remainders',
 [FL+':fuvw',FL+':fstrain',SH+':Shell.uvw',SH+':Shell.strain'])
p('C30','Displacement field is linear in the Ritz constants and matches the load interpolation',
 'u, v, w, phix, phiy returned by uvw are linear in c, phix = -dw/dx, phiy = -dw/dy, and equal the product of the interpolation matrix used for loads and constraints with c.',
 'all c, points, m, n, flags',
 'tests evaluate the two code paths separately',
 [FL+':cfuvw',FL+':cfg',FL+':fg'])
p('C31','Strain output equals the derivatives of the displacement output',
 'strain returns the Donnell strains of the field returned by uvw: exx = u,x (+ w,x^2/2), eyy = v,y + w/r (+ w,y^2/2), gxy = u,y + v,x (+ w,x w,y), kxx = -w,xx, kyy = -w,yy, kxy = -2 w,xy; non-linear terms only when NLgeom is set.',
 'all c, all points, all r, flag NLgeom',
 'tests compare strains with stored numbers from the same code',
 [FL+':cfstrain',SH+':Shell.strain'])
p('C32','Stress output is ABD times strain output and half their product is the energy density',
 'stress returns N, M = ABD * strain with the given ABD or the panel ABD, and raises when neither exists.',
 'all ABD, strains',
 'row/column mix-ups are invisible for symmetric specially orthotropic laminates',
 [SH+':Shell.stress'])
p('C33','External forces do the right work',
 'For any displacement vector c, calc_fext . c equals the sum over point loads of F . u(point), plus the quadrature over distributed loads of q . u, with incremented loads scaled by inc and constant ones not; the vector is zero outside the block of the panel, affine in inc, and additive in the list of loads.',
 'all load lists, inc, offsets, c',
 'work-conjugacy holds for all virtual displacements',
 [FE+':shell_fext',SH+':Shell.calc_fext',SH+':Shell.add_point_load'])
p('C34','Point constraints are exact penalty energies',
 'calc_stiffness_point_constraint returns a symmetric positive semidefinite matrix whose quadratic form is the sum of k times the squares of the selected displacement/rotation components at the point.',
 'all selections of components, stiffness >= 0, points, c',
 'quadratic-form statement over all c',
 [SH+':Shell.calc_stiffness_point_constraint'])
p('C35','Prescribed point displacements minimise a penalty potential',
 'The point-displacement penalty matrix together with the penalty force from add_point_pd is the gradient of 1/2 sum k (u - u_prescribed)^2 at the point.',
 'all c, k, prescribed values, points',
 'the two halves live in different modules and are tested only end-to-end with tolerance',
 [CO+'kCpd.pyx:fkCpd',SH+':Shell.add_point_pd',FE+':shell_fext'])
p('C36','Prescribed line displacements penalise the component they name',
 'For a line of prescribed displacements with penalties ku, kv, kw the penalty matrix is the energy ku u^2 + kv v^2 + kw w^2 integrated along the line.',
 'all c, ku, kv, kw',
 'tests prescribe only w, for which the misplaced entries are invisible',
 [CO+'kCpd.pyx:fkCld_xcte',CO+'kCpd.pyx:fkCld_ycte',MD+':MultiDomain.get_kC_conn'])
p('C37','Degree-of-freedom numbering is a bijection',
 'The (term i, term j, component) -> position map 3(j m + i)+component is a bijection onto 0..3mn-1 and get_size is its cardinality, so no two unknowns share a row and no row is unused.',
 'all m, n',
 'all sizes',
 [SH+':Shell.get_size',PA+':fk0',FL+':cfuvw'])
p('C38','calc_kC chooses the formulation the caller asked for',
 'The analytical matrix is used exactly when neither a state, nor a laminate field, nor geometric non-linearity is requested; the geometric contribution of a constant pre-stress is added exactly when a pre-stress is defined; wrong-sized states are rejected; the call does not fail for any documented combination of arguments.',
 'all combinations of the optional arguments',
 '2^6 argument combinations, several only reachable together',
 [SH+':Shell.calc_kC',SH+':check_c'])
p('C39','Multi-domain degrees of freedom are partitioned',
 'The blocks [col_start, col_end) assigned to the panels of a MultiDomain are contiguous, pairwise disjoint and cover exactly 0..size-1.',
 'all lists of panels with any m, n',
 'all list lengths',
 [MD+':MultiDomain.__init__',MD+':MultiDomain.get_size'])
p('C40','Multi-domain matrices superpose panel energies and connection energies',
 'c^T kC c of the assembly equals the sum of each panel energy evaluated on its own slice of c plus the connection energies.',
 'all panel lists, all c',
 'unbounded number of panels',
 [MD+':MultiDomain.calc_kC',MD+':MultiDomain.calc_kM',MD+':MultiDomain.calc_kG'])
p('C41','Skin-skin connections penalise exactly the displacement and slope jumps',
 'The x-constant (y-constant) skin-skin connection matrix is the energy of kt times the squared jumps of u, v, w plus kr times the squared jump of the normal slope of w along the joint; it is non-negative and is zero exactly when the (integrated) jumps vanish.',
 'all c, all panel pairs with their own m, n, a, b, flags, stations, kt, kr >= 0',
 'the three blocks are built by three functions; a wrong sign or length factor in one still gives plausible results',
 [CO+'kCSSxcte.pyx',CO+'kCSSycte.pyx'])
p('C42','Base-flange connections penalise exactly the 90-degree compatibility',
 'The base-flange connection matrices are the energies of (u1-u2), (v1-w2), (w1+v2), and slope jump (y-constant) resp. (u1-w2), (v1-v2), (w1+u2), slope jump (x-constant).',
 'all c, panel pairs, kt, kr',
 'same as C41',
 [CO+'kCBFxcte.pyx',CO+'kCBFycte.pyx'])
p('C43','Stacked-panel connections penalise exactly the interface slip and separation',
 'The skin-base connection matrix is the energy kt[(u1 + d w1,x - u2)^2 + (v1 + d w1,y - v2)^2 + (w1 - w2)^2] over the panel area, non-negative for kt >= 0.',
 'all c, panel pairs of equal size, d, kt',
 'same as C41',
 [CO+'kCSB.pyx'])
p('C44','Connection penalties are symmetric, positive and bounded',
 'The automatic penalty constants are positive for positive stiffness and thickness, do not depend on the order of the two panels when the joint type is symmetric, and lie between the values obtained from either panel alone; unsupported joint types do not silently return nothing.',
 'all laminate stiffnesses and thicknesses > 0, all joint types',
 'real-valued inequality',
 [CO+'penalties.py:calc_kt_kr'])
p('C45','Connection matrices depend only on the connection list given',
 'get_kC_conn returns the matrix of the connection list it is given: calling it again with another list gives the matrix of the other list, evaluating the same list twice (also by two assemblies) gives the same matrix, and listing the two panels of a symmetric joint in the other order does not change it.',
 'all connection lists, all call sequences',
 'caching and in-place modification of the caller dictionaries only show in call sequences',
 [MD+':MultiDomain.get_kC_conn'])
p('C46','Documented multi-domain and panel operations do not fail on valid input',
 'MultiDomain.calc_kT, Shell.calc_cA and StiffPanelBay.calc_cA return a matrix for every valid model.',
 'all valid models',
 'these entry points have no test; the failure is independent of the data',
 [MD+':MultiDomain.calc_kT',SH+':Shell.calc_cA',SP+':StiffPanelBay.calc_cA'])
p('C47','Multi-domain field evaluation at integration points samples every panel over its own range',
 'With no explicit points, the integration-point fields of each panel are sampled on a grid spanning that panel\'s own length and width.',
 'all panel lists with different a, b',
 'tests use panels of equal size or one panel',
 [MD+':MultiDomain.uvw_gauss_points',MD+':MultiDomain.strain_gauss_points',MD+':MultiDomain.stress_gauss_points'])
p('C48','Blade stiffener (1D) stiffness is beam energy',
 'The 1D flange stiffness is the energy of a beam at distance df from the skin: E1 (u,x + df w,xx)^2 + F1 w,xx^2 + Jxx w,xy^2 - 2 S1 (u,x + df w,xx) w,xy along y = ys; it is positive semidefinite when E1, F1, Jxx >= 0 and S1^2 <= E1 Jxx; the geometric part is Fx w,x^2.',
 'all c, stiffener data, m, n',
 'quadratic form over all c; S1 = 0 in most tested layups',
 [S1+':fkCf',S1+':fkGf','panels/stiffener/bladestiff1d.py:BladeStiff1D'])
p('C49','Blade stiffener (1D) mass is a kinetic energy',
 'The 1D flange mass matrix is the kinetic energy of the flange and therefore positive semidefinite for a non-negative density.',
 'all c, flange data',
 'a wrong coupling factor leaves frequencies of the tested stiffeners nearly unchanged',
 [S1+':fkMf'])
p('C50','Blade stiffener (2D) connection penalises the skin-flange jumps',
 'The skin-skin, skin-flange and flange-flange matrices of the 2D blade stiffener together are the energy kt[(u-uf)^2 + (v-wf)^2 + (w+vf)^2] + kr (w,y - wf,y)^2 along the stiffener line.',
 'all c, m, n, m1, n1, kt, kr',
 'same as C41',
 [S2+':fkCss',S2+':fkCsf',S2+':fkCff'])
p('C51','Adding a stiffener attaches it to the two panels that meet at its station',
 'add_bladestiff1d/2d(ys) connects the stiffener to the panel ending at ys and the one starting at ys and fails when no such pair exists.',
 'all panel layouts, all ys',
 'order-dependent lookup over arbitrary lists',
 [SP+':StiffPanelBay.add_bladestiff1d',SP+':StiffPanelBay.add_bladestiff2d'])
p('C52','Stiffened-bay size and offsets give each 2D stiffener its own block',
 'get_size is the skin size plus the sum of the flange sizes, and the offsets used by calc_kC, calc_kG, calc_kM for successive 2D stiffeners are disjoint blocks inside it.',
 'all numbers and sizes of stiffeners',
 'unbounded lists',
 [SP+':StiffPanelBay.get_size',SP+':StiffPanelBay.calc_kC',SP+':StiffPanelBay.calc_kM'])
p('C53','save/load round trip',
 'A panel saved with name N is read back by load(N) for every name.',
 'all names',
 'string-suffix rule over all strings',
 [SH+':Shell.save',SH+':load'])
p('C54','Rebuilding is idempotent and makes defaults effective',
 'Re-running the internal rebuild on an unchanged panel changes nothing, guarantees nx >= m and ny >= n, selects the plate model exactly when r is None, and uses the current laminate definition (stack, ply thickness, density).',
 'all panels, all edit sequences',
 'sequences of edits; lists cached on first use',
 [SH+':Shell._rebuild'])
p('C55','Forcing an orthotropic laminate removes all extension/bending-twist couplings and nothing else',
 'With force_orthotropic_laminate the ABD matrix keeps every entry except A16, A26, B16, B26, D16, D26 and their transposes, which become 0; symmetry is preserved.',
 'all ABD',
 '36-entry matrix',
 [SH+':Shell._get_lam_ABD'])
with open('/verif/properties.jsonl','w') as f:
    for q in P: f.write(json.dumps(q)+'\n')
print(len(P))
