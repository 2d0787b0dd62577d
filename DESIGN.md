# Formal model of `panels` — design

This directory holds a Lean 4 model of the Python/Cython/C++ package in `/repo`
(semi-analytical plates and cylindrical shells) and kernel-checked proofs of the
properties listed in `properties.jsonl`.

## 1. Trusted base

* The Lean 4.33.0 kernel and the Mathlib sources it re-checks.
* Axioms: every theorem uses at most `propext`, `Classical.choice` and
  `Quot.sound`.  No axiom is added; no `sorry`, `native_decide`, `bv_decide`.
  Finite tables are checked with `decide +kernel` (kernel evaluation only).
* The reading of the source text.  Shape-function, integral and quadrature tables
  and all matrix-entry expressions are produced by `tools/*.py`, which parse the
  C++/Cython text of `/repo` and print Lean; the printed definitions carry the
  source lines.  They were spot checked by hand; the translators are part of the
  trusted base.
* Arithmetic: `double` is modelled by an arbitrary (ordered) field `K` or by ℝ/ℚ.
  Floating-point rounding, overflow, NaN are **not** modelled.  The decimal literals of
  the source are kept exactly as printed (e.g. `0.0833333333333333`).
* C `int`/`long` indices are modelled by ℕ (no wrap-around).
* External libraries by contract: `scipy.sparse.coo_matrix` = list of triplets,
  duplicates add; `structsolve.finalize_symmetric_matrix` = keep triplets with
  `row <= col`, mirror those with `row < col`; `make_skew_symmetric` = the same with a
  sign; `composites.laminated_plate` = an opaque ABD matrix and thickness.
* Not modelled: drawing (of a plot only the numbers handed to `contourf` are), logging, pickling format, memory management, OpenMP
  scheduling (the parallel loop is modelled by its partition of the points).

## 2. Layout

* `Verif/Basic/*` – triplet lists, finalisation, quadratic forms, index arithmetic.
* `Verif/Model/*` – the code, function by function, with file/line citations.
* `Verif/Gen/*` – generated tables and entry expressions (still model code).
* `Verif/Spec/*` – independent specifications: displacement fields, strains,
  energies, polynomial integration, Bardell's closed formula.
* `Verif/Proofs/*` – helper lemmas.
* `Verif/Props/Cxx.lean` – property theorems with examples beside them.

## 3. Key modelling decisions

* A matrix builder is a function producing the list of triplets that the loop nest
  writes (loop order kept), followed by the zero triplets that remain in the
  pre-allocated buffer.
* Shape functions enter the builders through a record (`f`, `fp`, `fpp` with the four
  flags), so that the energy theorems hold for *any* shape functions; the Bardell
  tables instantiate it.
* Integrals: the numerical builders use a list of (point, weight) pairs; the
  analytical builders use a record of six product-integral functions.  The energy
  theorems for analytical builders assume that the record is represented by some
  linear functional on the products (true for exact integrals of polynomials); C03
  states how far the printed tables are from the exact integrals.
* Exceptions are values of an error type.  `Fail` separates a Python exception from a
  read of an unbound local, a missing key, and undefined behaviour (a compiled routine
  reading an array that was not given).
* Classes: a method is a function from the state before the call to the result and the
  state after it.  `Shell` objects of an assembly live in a store and are named by
  numbers, because the assembly writes to the objects of the caller.

### What is modelled

| file | modelled | not modelled |
|------|----------|--------------|
| `core/src/bardell*.cpp`, `legendre_gauss_quadrature.cpp` | all tables and default branches | – |
| `models/plate_clpt_donnell_bardell.pyx`, `cylshell_…pyx` | `fk0`, `fkG0`, `fkM`, `fkAx`, `fkAy`, `fcA` | – |
| `models/*_num.pyx` | `fkC_num`, `fkG_num`, `fkM_num`, `fkAx_num`, `fkAy_num`, `calc_fint` | – |
| `models/clpt_bardell_field.pyx` | `fuvw`, `fstrain`, `fg`, thread split | – |
| `shell.py` | constructor defaults, `_rebuild`, `calc_kC/kG/kM/kA/cA/fext/fint`, `uvw`, `strain`, `stress` with the stored fields, `add_*`, `save`, `load` | `calc_*` of external solvers |
| `shell_fext.py` | all | – |
| `multidomain/multidomain.py` | numbering, `get_kC_conn`, `calc_*`, `uvw/strain/stress` and the Gauss-point versions, numbers of `plot` | figures |
| `multidomain/connections/*` | all builders called, `penalties.py` | – |
| `stiffpanelbay.py`, `bladestiff1d.py`, `bladestiff2d.py` and their builders | sizes, `add_*`, `calc_*`, `uvw_*`, `save`, numbers of `plot_*` | figures, `tstiff2ds` (never filled) |
| `multidomain/cylinder*.py`, `tstiff2d_*.py` | the assemblies, matrices and forces up to the calls of the solvers | eigenvalue solvers, plots; the linear solver is a parameter; `Nxx_* = None` |
| `plot_shell.py` | numbers handed to `contourf`, fields and mesh afterwards | figure, colour bar, labels, files |
| `dev/matrixtools.py` | `pow2mult`, `mprint_as_sparse`, `mprint_as_array` | `subs`, `collect_for`, `use_cse` (sympy), names and files |

### Where each part of the model is

| module | content | source |
|--------|---------|--------|
| `Model/Aero.lean` | Piston theory: `calc_kA` | `shell.py`, `stiffpanelbay/stiffpanelbay.py` |
| `Model/Assy.lean` | Ready-made assemblies | `multidomain/cylinder.py`, `multidomain/cylinder_blade_stiffened.py`, `multidomain/tstiff2d_1stiff_compression.py` |
| `Model/Bay.lean` | The class `StiffPanelBay` and its stiffeners | `shell.py`, `stiffener/bladestiff1d.py`, `stiffener/bladestiff2d.py`, `stiffpanelbay/stiffpanelbay.py` |
| `Model/BayOut.lean` | Loads, displacements and saving of a bay | `shell.py`, `stiffpanelbay/stiffpanelbay.py` |
| `Model/BayPlot.lean` | The contour plots of a bay | `stiffpanelbay/stiffpanelbay.py` |
| `Model/Builders.lean` | The analytical builders | `models/cylshell_clpt_donnell_bardell.pyx`, `models/plate_clpt_donnell_bardell.pyx` |
| `Model/Conn.lean` | Builders of the penalty connections | `multidomain/connections/kCBFxcte.pyx`, `multidomain/connections/kCBFycte.pyx`, `multidomain/connections/kCSB.pyx`, `multidomain/connections/kCSSxcte.pyx`, `multidomain/connections/kCSSycte.pyx`, `multidomain/connections/kCpd.pyx` |
| `Model/ConnAll.lean` | The three blocks of a connection, as summed by `get_kC_conn` | `multidomain/multidomain.py` |
| `Model/Defaults.lean` | Edge flags of new panels and bays | `shell.py`, `stiffpanelbay/stiffpanelbay.py` |
| `Model/Dev.lean` | Printing of expressions | `dev/matrixtools.py` |
| `Model/Fext.lean` | External forces | `shell.py`, `shell_fext.py` |
| `Model/FieldOut.lean` | Displacement, strain and stress output | `modelDB.py`, `models/clpt_bardell_field.pyx`, `shell.py` |
| `Model/Multi.lean` | The class `MultiDomain` | `multidomain/multidomain.py`, `shell.py` |
| `Model/MultiField.lean` | Fields of an assembly at given points | `multidomain/multidomain.py` |
| `Model/MultiForce.lean` | Force vectors of an assembly | `multidomain/multidomain.py`, `shell.py` |
| `Model/MultiPlot.lean` | Fields of an assembly on grids, and what its contour plot shows | `multidomain/multidomain.py` |
| `Model/Num.lean` | The numerically integrated builders | `core/src/legendre_gauss_quadrature.cpp`, `models/cylshell_clpt_donnell_bardell_num.pyx`, `models/plate_clpt_donnell_bardell_num.pyx` |
| `Model/Penalty.lean` | Penalty constants | `multidomain/connections/penalties.py` |
| `Model/Save.lean` | Saving and loading | `shell.py`, `stiffpanelbay/stiffpanelbay.py` |
| `Model/Shell.lean` | The class `Shell`: state, rebuild and matrix calculations | `modelDB.py`, `shell.py` |
| `Model/ShellPlot.lean` | The stored fields of a panel and its contour plot | `plot_shell.py`, `shell.py` |
| `Model/Stiff.lean` | Builders of the stiffeners | `stiffener/bladestiff2d.py`, `stiffener/models/bladestiff1d_clt_donnell_bardell.pyx`, `stiffener/models/bladestiff2d_clt_donnell_bardell.pyx` |
| `Model/TStiff.lean` | Panel with one T stiffener and a debonding defect | `multidomain/tstiff2d_1stiff_compression.py`, `multidomain/tstiff2d_1stiff_freq.py`, `multidomain/tstiff2d_1stiff_flutter.py` |
| `Model/TableTypes.lean` | Data types of the generated tables | – |
| `Model/Tables.lean` | Look-up functions around the generated tables | `core/src/bardell.cpp`, `core/src/bardell_functions.cpp`, `core/src/legendre_gauss_quadrature.cpp` |
| `Model/Types.lean` | Data read by the builders | `core/src/bardell.cpp`, `core/src/bardell_functions.cpp`, `core/src/legendre_gauss_quadrature.cpp`, `shell.py` |

### Simplifications

* `lam.A`, `lam.B`, `lam.D` are blocks of the one ABD matrix of the laminate; the
  laminate calculation itself is a parameter (`Env.mkLam`).
* `row_start = col_start` in a panel (the code always sets them together).
* An empty `plyts` stands for `None` where the code treats both alike; a panel of a bay
  has `[]` as the code does.
* In `MultiField` and `BayOut` the Ritz vector is a total function; reading past its end
  is not modelled.
* `x**0.5` in piston theory is a parameter `root`, instantiated by `Real.sqrt`.
* Division by zero gives 0 in the model; theorems carry the hypotheses `a ≠ 0`, `b ≠ 0`,
  `r ≠ 0` where it matters.
* Negative list indices are not modelled.
* In `dev/matrixtools.py` characters are ASCII and `int` takes no underscores.

## 4. Plan per property

| id | modelled | how proved |
|----|----------|------------|
| C01 | coefficient tables of `vec_f`, `vec_fp`, `vec_fpp` | kernel evaluation of the coefficient error sum, lifted to all ξ by the triangle inequality, `HasDerivAt` |
| C02 | same | kernel evaluation at ±1, lifted to sums over terms |
| C03 | six tables | kernel evaluation of exact rational integrals, lifted to real interval integrals and symbolic flags |
| C04 | six tables | case analysis over the finite table |
| C05 | quadrature tables | kernel evaluation of all moments, lifted to polynomials |
| C06 | quadrature tables + default branch | **violated** for n=1, n>64: witness; partial for 2..64 |
| C07 | default branches | direct |
| C08 | `fk0` plate | bilinear expansion of entries, symmetric-assembly lemma |
| C09 | `fkC_num` plate | same |
| C10 | both | corollary |
| C11 | cylindrical versions | same as C08/C09 |
| C12 | both | entry-wise limit |
| C13 | energies | sums of squares |
| C14 | `fkC_num` NL | same as C09 with state-dependent strains |
| C15 | `calc_fint` | **violated** (factor 2 on w,x w,y in the shear strain): witness; partial |
| C16 | `calc_kT` | **violated** for the same reason; partial |
| C17 | `calc_fint` | polynomial expansion in t |
| C18 | `fkG0` | as C08 |
| C19 | `fkG_num` | as C09 |
| C20 | `fkM`, `fkM_num` | as C08 |
| C21 | offset sign | **violated**: witness; partial for d = 0 |
| C22 | `fkAx_num`, `fkAy_num` | as C09 |
| C23 | `calc_kA` branches | case analysis; cache **violated**: witness |
| C24 | all builders | list length and index bounds |
| C25 | finalisation | generic lemma |
| C26 | builders | list map |
| C27 | sub-domain map | change of variables on polynomials |
| C28 | analytical builders | **violated**: witness; partial for the numerical path |
| C29 | padding/partition | list lemma |
| C30–C31 | field functions | finite sums, `HasDerivAt`; shear factor **violated** |
| C32 | `stress` | direct |
| C33 | `shell_fext` | induction on load lists |
| C34–C36 | penalties | quadratic forms; C36 **violated** |
| C37 | numbering | div/mod |
| C38 | `calc_kC` decision logic | case analysis; violations recorded |
| C39–C40 | MultiDomain | induction on panel list |
| C41–C43 | connections | as C08 with two panels |
| C44 | penalties | ordered-field inequalities |
| C45 | `get_kC_conn` state | witnesses |
| C46–C47 | API failures | witnesses |
| C48–C50 | stiffeners | as C08; C49 **violated** |
| C51–C52 | StiffPanelBay | list lemmas |
| C53–C55 | misc | direct |
| C56 | bay `calc_kC/kG/kM` | **violated** (each panel adds the whole skin): for all bays; one panel holds |
| C57 | bay matrices with stiffeners | total calculation; kM **violated** with bases |
| C58 | base offsets | 1D proved; 2D **violated**: stale offset |
| C59 | skew completion of kA | exact defect; **violated** for γ ≠ 0 or free edges |
| C60–C63 | bay `calc_kA`, `calc_fext`, `uvw_*`, `save` | exact success conditions; **violated** |
| C64 | cylinders | joints by C40, closing joint by its own branch, energy of the ring |
| C65 | loads of cylinders | `Nxx_cte` proved; late-bound closures and `cylinder_spla` **violated** |
| C66 | T-stiffened panel | grid of the fifteen panels; finite tables of joints and flags by cases; energies from `Fit` |
| C67 | forces of an assembly | work by C33, gradient by C15 and C40 |
| C68 | closed-form `fkAx`, `fkAy`, `fcA` | as C08, bilinear; curvature term **violated** |
| C69 | flutter of the T-stiffened panel | C66 with C22 for each skin panel; below the diagonal **violated** |
| C70 | fields of an assembly on grids | induction over the loop with the grid as invariant; C30, C31 at each point; shear strain **violated** (C31) |
| C71 | plot of an assembly | C70, folds of `min` and `max`; transverse components **violated** |
| C72 | plot of a panel, stored fields | as C70 for one panel, with the dictionaries; mesh, flag, transverse components **violated** |
| C73 | plots of a bay | C62 with the attributes; mesh, given points, strains, later stiffeners **violated** |
| C74 | printed evaluators, exact functions | coefficients of Bonnet's recursion for all degrees; orthogonality by induction on the recursion; kernel comparison of the 90 printed rows with Bardell's formula |
| C75 | `cfuvw` | leading coefficients in each direction, roots of polynomials, products |
| C76 | `kC`, `kM` | C13, C20 with C75 for strains: zero energy, zero strain at the points, zero amplitudes; linear algebra |
| C77 | `kC`, `Shell.__init__`, `StiffPanelBay.__init__` | zero strain at the points leaves only the four cubics (degree comparison with a remainder, strain by strain), whose amplitudes are those of a motion with six parameters; flags against edge values; converse by giving the amplitudes; `restrained_iff` shows that the six parameters are all fields without strain |
| C78 | `MultiDomain.calc_kC`, the builders in `multidomain/` of cylinders, stiffened cylinders and panels with a T stiffener, and their analyses | energy of an assembly = strain energy of the panels + penalties on the gaps (C44, C64–C66); zero energy = a motion without strain of each panel with all joints shut; converse by gluing the amplitudes of the panels; support handed on from panel to panel along the joints |
| C79 | the matrix builders of `plate_clpt_donnell_bardell*.pyx` and `cylshell_clpt_donnell_bardell*.pyx`, `calc_fint` | entries as sums over the triplets of one pair of terms, which do not depend on the number of terms; states extended by zeros have the same strains; minimum of the potential over a larger set |
| C80 | pairs of matrices for `structsolve` made by `Shell`, `MultiDomain`, and the ready-made analyses in `multidomain/` | symmetric matrices, one definite (C76–C78, mass of assemblies from C66): spectral theorem in the inner product of the definite one; complex eigenvectors projected on the modes; energies as sums over the modes |
| C81 | `StiffPanelBay.calc_kC/kG/kM`, `BladeStiff1D/2D`, `add_panel`, `add_bladestiff1d/2d` | energy of the bay (C52) as a sum of non-negative parts; its kernel is that of the assembly of skin and flanges joined along lines (`Spec/BayPlan.lean`), then C78; beams of orthotropic plies have non-negative energy; what the `add_*` methods make is kept by `_rebuild` |
| C82 | all methods of `Shell` | each value expression is multiplied by one power product of the factors of length, force and time when its inputs are converted (`Proofs/UnitsVal.lean` from the translated expressions), lifted to builders, dispatch and failures; corollaries for solutions and eigenvalues. The laminate calculator (external package) is assumed to commute with units (`UnitSys.Homog`) |
| C83 | `MultiDomain`, `penalties.py`, the functions in `multidomain/` | the joints of C82's kind for the connection formulas; penalties as power products; loops over panels and connections, stored objects and failures; the ready-made functions by inversion of their steps. The linear solver is assumed to commute with units (`UnitSys.Linear`). Violated for `SB_TSL` |
| C84 | `BladeStiff1D._rebuild` | induction over the plies with the lower face of the next ply as invariant; change of the reference plane of a first moment. Violated for `S1` |
| C85 | `check_c` and its callers | inversion of every caller; violated for `calc_fint` |
| C86 | `StiffPanelBay`, `bladestiff1d.py`, `bladestiff2d.py` | the builders of the stiffeners as power products, rebuilding, loops and failures as in C82 and C83; violated for the torsion of 1D flanges and for the search of panels |
| C87 | `calc_kC`, `calc_kT`, `calc_fext` of panels and assemblies | `Spec/Static.lean`; symmetry of the finalized matrices, C33 and C67 for the work, C08, C11, C13 for the energy, C77 and C78 for existence |
| C88 | the same matrices, `calc_kM`, `calc_kG`, joints | `Spec/Modes.lean`; the comparison of Courant and Fischer through a linear map of the amplitudes, energies of C08, C11, C18, C20, C40, nesting of C79 |
| C89 | the same matrices, matrices by quadrature, `calc_fint`, `calc_fext`; tables of functions and of points | `Spec/Mirror.lean`; parity of the Bardell functions and of the Gauss tables, energies of C08, C11, C13, C18, C20, work of C33 |
| C90 | the same matrices and vectors of flat plates | `Spec/Exchange.lean`; the energies and works of C89 with the order of integration exchanged |
| C91 | the matrices of closed cylinders, plain and with blades | `Spec/Rotate.lean` (numbers handed on round a ring); the energies of C64 and C65 |
| C92 | the matrices and loads of assemblies of flat plates | `Spec/ExchangeAll.lean` (joints and parts described with the axes exchanged, terms renumbered panel by panel) |
| C93 | the aerodynamic matrix with the other matrices of a plate | `Spec/Flutter.lean` (complex eigenvalues on the active terms; the same flow in two descriptions) |
| C94 | `add_bladestiff1d`, `add_bladestiff2d`, the matrices of a 1D stiffener | `Spec/Added.lean` (plies, strip of the base, supports of the flange) |
| C95 | the matrices and forces of `MultiDomain` | `Spec/MirrorAll.lean` (the mirror image of an assembly) |
| C96 | `pow2mult`, the powers of `mprint_as_array` | `Spec/Printed.lean` (expressions, their texts and values) |
| C97 | `mprint_as_sparse`, `mprint_as_array` | `Spec/Kernel.lean` (running a printed kernel) |
| C98 | `MultiDomain` with its panels in another order | `Spec/Renumber.lean` (`MovedAssy`, `Keeps`) |
| C99 | `MultiDomain` with more terms, released edges and fewer joints | `Spec/Freer.lean` (`Freer`, `FreerAssy`) |
| C100 | `StiffPanelBay.calc_kC`, `calc_kG` with stiffeners added | `Spec/Stiffer.lean` (`stiffened`, `Blade1Idle`, `Blade2Idle`) |
| C101 | `StiffPanelBay.calc_kC`, `calc_kG`, `calc_kM`, `_rebuild` with the stiffeners in another order | `Spec/MovedBay.lean` (`MovedBay`), `Spec/Renumber.lean` (`moveNo`) |
| C102 | `StiffPanelBay.calc_kC`, `calc_kG`, `calc_kM` of the mirrored bay | `Spec/MirBay.lean` (`MirBay`, `EvenSkin`), the numbers and signs of C95. Violated across the stiffeners, see section 5 |
| C103 | `StiffPanelBay.calc_kC`, `calc_kG`, `calc_kM` against `MultiDomain.calc_kC`, `calc_kG`, `calc_kM` | `Spec/BayParts.lean` (`bayAssy`, `SameMatrix`). Holds for a skin of one panel; **violated** for a skin of several, see section 5 |
| C104 | `StiffPanelBay.add_bladestiff1d`, `add_bladestiff2d`, `get_size`, `BladeStiff1D._rebuild`, `BladeStiff2D._rebuild` | `Spec/Accept.lean` (`Complete`). Holds for beams with a flange and, as to acceptance, for plates of given width; **violated** for stiffeners that are a base only, see section 5 |
| C105 | `StiffPanelBay` and its stiffeners with more terms and released edges | `Spec/FreerBay.lean` (`FreerShell`, `FreerBlade1`, `FreerBlade2`, `FreerBay`) |
| C106 | `StiffPanelBay.calc_kG(c)` about a calculated state | `stateWork`, `slopeWork`, `Spec/StateBay.lean` (`AllFree`, `freed`, `loadBase`). Holds for the skin; **violated** for 1D stiffeners, flanges and bases, see section 5 |
| C107 | `Shell.calc_kT`, `calc_fint`, `calc_kC`, `calc_kG` along states without deflection | `Flat` (in `Props/C107.lean`), `Critical` of `Spec/Modes.lean` |
| C108 | `StiffPanelBay.calc_kC` with forces on skin and flanges | `PartForce`, `forceWork`, `forceVector` of `Spec/BayForce.lean`, `Balanced`, `Smallest` of `Spec/Static.lean` |
| C109 | `MultiDomain.calc_kC` with a state, then `calc_fint`, without deflection | `AllFlat` (in `Props/C109.lean`), `Balanced` of `Spec/Static.lean` |
| C110 | `Shell.calc_kG`, `MultiDomain.calc_kG` and `StiffPanelBay.calc_kG` about a state, linear kinematics | `mix` (in `Props/C110.lean`), `Coo.entry`, `Critical` of `Spec/Modes.lean` |
| C111 | `Shell.calc_kC` with constant forces against `Shell.calc_kG`, and the same for `MultiDomain` and `StiffPanelBay` | `pre`, `Shifted`, `Results` (in `Props/C111.lean`), `onBay` (in `Props/C111Bay.lean`), `Coo.entry`, `Critical`, `Eigen`, `Vibrates` of `Spec/Modes.lean` |
| C112 | `Shell.calc_kG`, `MultiDomain.calc_kG` and `StiffPanelBay.calc_kG` of given forces | `Safe`, `Combined`, `load` (in `Props/C112.lean`), `laden` (in `Props/C112Bay.lean`), `Coo.entry`, `Critical` of `Spec/Modes.lean` |
| C113 | `Shell.calc_kC` with constant forces against `Shell.calc_kG`, and the same for `MultiDomain` and `StiffPanelBay` | `Floor`, `Lowest` (in `Props/C113.lean`), `pre`, `onBay` (as C111), `Coo.entry`, `Critical`, `Eigen` of `Spec/Modes.lean` |
| C114 | `Shell.calc_kC` with constant forces, `Shell.calc_kG`, and the same for `MultiDomain` and `StiffPanelBay` | `Pulled`, `Tension` (in `Props/C114.lean`), `Floor` (in `Props/C113.lean`), `pre`, `onBay` (as C111), `Critical`, `Eigen` of `Spec/Modes.lean` |

"Violated" means that the code read in `/repo` does not satisfy the property: the
negation is proved with a concrete witness, and the part that does hold is proved in
a theorem whose name ends in `_partial`.

## 5. Disagreements between the code and the properties

Each line names the theorem that proves the disagreement.

* No default branch in `leggauss_quad`: n = 1 and n > 64 leave zero points and weights
  (`C06.integrates_constants_violated`).
* The non-linear shear strain is `2 w,x w,y` in `calc_fint`, `fkG_num` and `fstrain`, but
  its variation is that of `w,x w,y` (`C15.fint_gradient_violated`,
  `C16.kT_jacobian_violated`, `C19.kG_nonlinear_violated`, `C31.strain_shear_violated`).
* The mass matrix uses the offset with the sign opposite to the stiffness
  (`C21.same_offset_violated`).
* `beta` and `gamma` are kept from the first `calc_kA` (`C23.claim_violated`); the skew
  completion of the upper triangle is wrong with `gamma` and with free edges crossed by
  the flow (`C59.gamma_violated`, `C59.edge_violated`).
* The closed-form `fkAx` of the plate drops `gamma`, that of the cylinder has it with the
  sign opposite to `fkAx_num` (`C68.gamma_violated`).
* `tstiff2d_1stiff_flutter`: `kA` is made skew-symmetric after the sum over the skin panels.  These are free
  along the seams, so below the diagonal the flux through the edges of every panel misses
  (`C69.lower_violated`, for every flat panel and any exact rule).
* The closed-form matrices ignore the sub-domain (`C28.claim_violated`).
* `fkCld_xcte`, `fkCld_ycte` write all three values at the w-w position (`C36.claim_iff`).
* `calc_kC` with a laminate field and `NLgeom` but no state, and with `NLgeom` and constant
  pre-stress but no `c_cte`, reads an array that was not given (`C38.claim_violated`).  `calc_kT` passes `NLgeom` but no
  `c_cte`, so it is undefined for every panel with a constant pre-stress (`C16.calcKT_prestress`).
* Offsets stored on shared panel objects (`C39.repeated`, `C39.shared`).
* Penalties: bot-top depends on the order, bounds, unknown type (`C44.*`).
* `get_kC_conn` keeps its first matrix and swaps joints in the caller's list
  (`C45.other_list_violated`, `C45.two_assemblies_violated`).
* `Shell.calc_cA`, `MultiDomain.calc_kT`, `StiffPanelBay.calc_cA` never return (`C46.*`).
* Gauss-point fields take the first panel's grid for the whole group (`C47.claim_violated`).
* `fkMf` doubles its cross terms: the 1D stiffener mass is never positive semidefinite
  (`C49.never_psd`).
* A stiffener near an edge of the bay gets the same panel twice (`C51.near_violated`).
* A 2D stiffener without flange makes `get_size` fail (`C52.no_flange`).
* A file name containing the extension elsewhere is not read back (`C53.claim_violated`).
* Edits of the model name and ply lists after the first rebuild are ignored
  (`C54.claim_violated`).
* Every panel of a bay adds the whole skin (`C56.claim_violated`).
* `calc_kM` of a bay with stiffener bases (`C57.kM_base1`, `C57.kM_fresh2`), stale base
  offset (`C58.base2_violated`).
* The bay's `calc_kA` is that of its first panel (`C60.claim_violated`); `calc_fext` fails
  with any skin force or 2D stiffener (`C61.claim_violated`); `uvw_stiffener` works only
  for the first stiffener (`C62.claim_violated`); `save` fails with any panel
  (`C63.claim_violated`).
* `MultiDomain.calc_fint` asks for the connection matrix without an argument and so fails
  for an assembly whose own list is `None` (`C67.fint_needs_conn`).
* The cylinder functions that take `Nxx` from a static analysis add `lambda`s that read the
  loop variable after the loop: every panel is loaded with the last value
  (`C65.from_static_violated`, `C65.blades_from_static_violated`).  `cylinder_spla` never
  reads its `Nxx` (`C65.spla_violated`).
* Plots: the documented `gyz`, `gxz`, `Qy`, `Qx` are never computed and cannot be drawn
  (`C71.transverse_violated`, `C72.transverse_violated`); `MultiDomain.plot` has `xs`, `ys`
  arguments that nothing reads (no argument of the model), and fails for panels without
  position (`C71.no_position`); strains need `r`, also for plates (`C70.strain_fresh`); strain
  plots of a panel ignore `NLgeom` (`C72.flag_ignored`); a plot puts the old fields back but
  not the old mesh (`C72.mesh_violated`).
* Plots of a bay: only displacements, though strains and stresses are documented
  (`C73.undisplayed`); given points are replaced by the old mesh (`C73.given_violated`); a
  deformed plot changes the stored mesh (`C73.mesh_violated`); only the first stiffener
  (`C73.later_violated`).
* The penalty of the joint `SB_TSL` is the bare number `1e4` over the area of the panel, so
  its matrix has the same numbers in all units (`C83.tsl_fixed`, `C83.tsl_violated`).
* `S1` of the 1D stiffener takes the positions of the plies from the lower face of the flange
  instead of its middle plane (`C84.plane_violated`), and reduces the coupling with `q16` where
  `q26` belongs (`C84.coupling_violated`); both vanish for plies without coupling.
* `Shell.calc_fint` has no check of its vector: longer ones are taken, and it reads outside of
  shorter ones (`C85.fint_violated`, `C85.fint_shorter`), which `MultiDomain.calc_fint` inherits
  (`C85.multi_fint_violated`).
* The torsion term of a flange as a beam (`fkCf`, line 108) is the second moment `Jxx`, with no shear
  modulus: it has the same numbers for every material and in all units of force
  (`C86.torsion_fixed`, `C86.torsion_violated`).
* The search for the panels of a stiffener compares positions with an absolute tolerance of `1e-8`, so it
  can fail in millimetres and succeed in metres (`C86.close_violated`).
* The penalty of a joint over an area is computed from `A11` alone, and so is the third constant for
  prescribed displacements: an assembly with such a joint described with the axes exchanged has another
  matrix unless `A11 = A22` (`C92.area_iff`, `C92.area_differs`, `C92.point_pd_iff`, `C92.line_pd_iff`).
* The aerodynamic matrix is stored above the diagonal and completed by skew symmetry, which is right only
  if the edges crossed by the flow are held.  With such an edge free, the matrix of a plate that is its own
  mirror image across the flow is not its own mirror image (`C93.across_violated`).
* The flags of the flange of a 2D stiffener switch off the slopes of the membrane displacements across its
  free edges, so the strain across a free edge is zero (`C94.flange_rigid`); nothing in the documentation asks
  for that, and it makes the flange stiffer.
* `mprint_as_array` expands powers in the order in which they are found, so `x**2*ax**2` is printed as
  `(x*x)*a(x*x)` (`C96.array_spoils`); `pow2mult` takes longer texts first and is right.
* `get_kC_conn` takes the panel with the smaller number as the base of a base-flange joint and as the panel whose
  lower face is tied in a joint over an area, whatever `p1` and `p2` say.  A flange listed before its base is
  tied as if it stood on the other side (`C98.flange_turned`, `C98.flange_violated`), and two equal panels laid
  over each other change places (`C98.stack_turned`, `C98.stack_violated`).
* The springs of a flange without base are calculated from the flange and `panel1` (`bladestiff2d.py` line 123), so a
  bay whose panels at both sides of the flange differ and its mirror image have other springs
  (`C102.springs_violated`).  The coupling `S1` of a 1D stiffener does not change sign when its plies are turned over
  (`C102.section_violated`), since it is measured from one face (C84).
* A bay and the assembly of its skin and flanges have the same matrices only while the skin is one panel.  With `n`
  like panels the bay has `n - 1` times the skin more (`C103.stiffness_counted`, `geometric_counted`, `mass_counted`),
  so a bay with a flange between two panels is stiffer than the same parts joined by `MultiDomain`
  (`C103.stiffness_violated`).
* A 1D stiffener that is a base only needs the width of the flange it does not have: `bladestiff1d.py` line 95 uses
  `self.bf` always, and without it the call ends in a `TypeError` (`C104.base_only_violated`); the value given does
  not matter for acceptance (`C104.base_only_partial`).  A 2D stiffener that is a base only is accepted, but
  `StiffPanelBay.get_size` (line 221) asks for the size of its flange, so no matrix of the bay can be calculated
  (`C104.plate_base_only_violated`).
* **C106**: `BladeStiff2D.calc_kG` (bladestiff2d.py:171-183) takes `c` and does not pass it on, so a flange
  stretched by the state does no work through its slopes (`C106.flanges_violated`), and leaves out the base, so
  forces given there change nothing (`C106.bases_violated`).  `BladeStiff1D.calc_kG` (bladestiff1d.py:155-156)
  raises as soon as there is a state (`C106.beams_violated`).  What the matrix is: `C106.state_partial`.

## 6. Testing the theorems

`tools/mutate.py` applies one wrong edit at a time to a scratch copy of the model and
builds everything; `seeded/mutants*.py` hold the edits, `seeded/LOG.jsonl` the outcome:
which theorems failed, or which were tightened after an edit survived.  "Blocked" lists
property files that import a failed helper file.

How much a stopped edit says.  "Failed" means that a proof no longer goes through.  It does
not show by itself that the claim is false for the edited model: a proof can also break
because its script no longer fits, and many edits stop at a helper file so that the property
files behind it are only "blocked", not tried.  The entries K10, K13 and K14 are edits that
leave some or all of the stated claims true and carry a note saying so.
