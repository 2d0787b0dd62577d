{"claims": [
 {"property": "C01", "status": "proved", "theorems": ["Verif.C01.derivative_evaluators", "Verif.C01.derivative_evaluators_low", "Verif.C01.vec_eq_scalar"], "note": "Printed decimals as exact rationals."},
 {"property": "C02", "status": "proved", "theorems": ["Verif.C02.edge_values", "Verif.C02.edge_values_exact", "Verif.C02.edge_displacement", "Verif.C02.edge_slope"], "note": "Rounding of the printed coefficients bounded by 2e-9 (values) and 9e-8 (slopes)."},
 {"property": "C03", "status": "proved", "theorems": ["Verif.C03.integral_tables", "Verif.C03.flag_off"], "note": "Integrals of the functions as printed in the code."},
 {"property": "C04", "status": "proved", "theorems": ["Verif.C04.swap_symmetric"], "note": ""},
 {"property": "C05", "status": "proved", "theorems": ["Verif.C05.gauss_points_weights", "Verif.C05.gauss_exactness"], "note": "Tables as printed in the code."},
 {"property": "C06", "status": "partial", "theorems": ["Verif.C06.integrates_constants_partial", "Verif.C06.integrates_constants_violated", "Verif.C06.integrates_constants_iff", "Verif.C06.unsupported_zero"], "note": "Violated by the code for n = 1 and n > 64 (no default branch); proved for exactly the supported n."},
 {"property": "C07", "status": "proved", "theorems": ["Verif.C07.evaluators_high", "Verif.C07.tables_high", "Verif.C07.high_terms_zero_rows"], "note": "Analytical builders; the numerical builders read fixed buffers of 30 entries (out-of-bounds reads are not modelled)."},
 {"property": "C08", "status": "proved", "theorems": ["Verif.C08.plate_fk0_energy", "Verif.C08.plate_fk0_strain_energy"], "note": "Exact tables and arithmetic."},
 {"property": "C09", "status": "proved", "theorems": ["Verif.C09.fkC_num_energy", "Verif.C09.fkC_num_energy_field", "Verif.C09.fkC_num_strain_energy", "Verif.C09.fkC_num_state_independent"], "note": "Quadratic form of the finalised numeric linear stiffness equals the Gauss sum of the Donnell strain energy density, for one laminate and for one per point, all m, n, nx, ny; independent of the state."},
 {"property": "C10", "status": "proved", "theorems": ["Verif.C10.plate_entries_agree", "Verif.C10.cyl_entries_agree", "Verif.C10.plate_entries_close", "Verif.C10.cyl_entries_close"], "note": "Entrywise equality of the analytical and numerical stiffness when the rule integrates the products exactly, and an explicit bound for the printed tables."},
 {"property": "C100", "status": "proved", "theorems": ["Verif.C100.added", "Verif.C100.stiffness", "Verif.C100.held", "Verif.C100.geometric", "Verif.C100.buckling", "Verif.C100.compliance"], "note": "For bays with any skin panels, any stiffeners they have and any list of 1D and 2D stiffeners added behind them (SolidBay: definite laminates without initial loads, sections with nonnegative beam energy, every flange as long as the bay). geometric and buckling: the added stiffeners have no loads of their own, as add_bladestiff1d and add_bladestiff2d make them (added). compliance: the forces act on the unknowns of the given bay. Nothing is claimed of frequencies, since stiffeners also add mass."},
 {"property": "C101", "status": "proved", "theorems": ["Verif.C101.solid", "Verif.C101.stiffness", "Verif.C101.geometric", "Verif.C101.mass", "Verif.C101.mass_exists", "Verif.C101.frequencies", "Verif.C101.frequency_list", "Verif.C101.buckling", "Verif.C101.static"], "note": "For bays with any skin panels and any 1D and 2D stiffeners in any two orders (SolidBay: definite laminates without initial loads, every flange as long as the bay). mass is for bays whose mass matrix exists, which C57 shows is not every bay; mass_exists gives it where C57 does. static takes forces on the unknowns, since calc_fext of a bay with flanges fails in the code."},
 {"property": "C102", "status": "partial", "theorems": ["Verif.C102.num_num", "Verif.C102.sign_sq", "Verif.C102.stiffness_partial", "Verif.C102.geometric", "Verif.C102.mass", "Verif.C102.mem_actives", "Verif.C102.frequencies", "Verif.C102.frequency_list", "Verif.C102.buckling", "Verif.C102.static", "Verif.C102.springs_violated", "Verif.C102.section_violated"], "note": "Proved for mirroring along the stiffeners of every bay, and across them for bays whose 1D stiffeners have a section with the mirrored coupling (MirSection) and whose flanges without base stand between like panels (EvenSkin). The rest is false of the code: the springs of a flange without base are those of panel1 only, so a bay of unlike panels and its mirror image have other springs (springs_violated), and S1 of a 1D stiffener does not change sign when its plies are turned over (section_violated, see C84). mass is for bays whose mass matrices exist (C57)."},
 {"property": "C103", "status": "partial", "theorems": ["Verif.C103.start", "Verif.C103.size", "Verif.C103.fit", "Verif.C103.stiffness_partial", "Verif.C103.geometric_partial", "Verif.C103.mass_partial", "Verif.C103.stiffness_counted", "Verif.C103.geometric_counted", "Verif.C103.mass_counted", "Verif.C103.stiffness_violated"], "note": "Proved for a skin of one panel (flanges on the edges): every entry of the three matrices agrees, and so do numbers and size. For n panels that differ in the part of the skin they cover only, the bay has n-1 times the matrix of the skin more (*_counted), so the claim is false of the code for every such skin that its edges hold (stiffness_violated). mass_* needs flanges with their ply thicknesses written out, as add_bladestiff2d makes them."},
 {"property": "C104", "status": "partial", "theorems": ["Verif.C104.outcome1", "Verif.C104.outcome2", "Verif.C104.accepted1_partial", "Verif.C104.accepted2", "Verif.C104.base_only_partial", "Verif.C104.base_only_violated", "Verif.C104.plate_base_only_violated"], "note": "outcome1/outcome2 classify every call: success with a complete description, or one of four exceptions with what is missing. Acceptance = completeness is proved for beams with a flange and for plates; a beam that is only a base needs the width of a flange it does not have (base_only_violated), and a plate that is only a base is accepted although no matrix can be calculated then (plate_base_only_violated). A 2D flange without width is left out by the hypothesis Wide (the code keeps b = None, the model stops at once)."},
 {"property": "C105", "status": "proved", "theorems": ["Verif.C105.displacement", "Verif.C105.stiffness", "Verif.C105.geometric", "Verif.C105.mass", "Verif.C105.frequencies", "Verif.C105.buckling", "Verif.C105.compliance", "Verif.C105.rebuilt"], "note": "The amplitudes of the given bay, put at their places in the larger one (wide), give the same displacements of skin and flanges and the same stiffness, geometric and mass forms; from this no frequency rises, no buckling load rises and loads that do the same work on the same motion do no less work. Frequencies: of bays whose mass matrix is that of a kinetic energy (no bases and no 1D stiffeners, C49, C57). rebuilt carries the relation from the bays as given to the bays as rebuilt."},
 {"property": "C106", "status": "partial", "theorems": ["Verif.C106.state_partial", "Verif.C106.beams_violated", "Verif.C106.flanges_violated", "Verif.C106.bases_violated"], "note": "state_partial: for bays without 1D stiffeners, of panels without forced orthotropy, the matrix exists for every state of the right length and is the work of given forces and state in the skin panels, of the given forces only in the flanges, and nothing in the bases. The rest is violated by the code: flanges_violated (a stretched free flange), bases_violated (forces given on the bases), beams_violated (any 1D stiffener)."},
 {"property": "C107", "status": "proved", "theorems": ["Verif.C107.equilibrium", "Verif.C107.tangent", "Verif.C107.entries", "Verif.C107.singular", "Verif.C107.stable", "Verif.C107.held"], "note": "For the methods calc_kC, calc_kG, calc_kT and calc_fint with all their arguments. The linear stiffness is the one by quadrature, which calc_kC returns when it is given a state (C38); its agreement with the closed form is C10. Loads given beside the state do not grow with it and are kept apart in tangent; singular, stable and held are for panels without them. The wrong shear strain of C15 plays no part where there is no deflection."},
 {"property": "C108", "status": "proved", "theorems": ["Verif.C108.reciprocal", "Verif.C108.exchange", "Verif.C108.energy", "Verif.C108.superposed", "Verif.C108.minimum", "Verif.C108.along", "Verif.C108.solved", "Verif.C108.moves", "Verif.C108.moves_middle"], "note": "Exact arithmetic; for the matrix that StiffPanelBay.calc_kC returns. calc_fext of a bay accepts no force at all (C61), so the force vector is defined by the work of the forces (Spec/BayForce.lean). Energy statements need definite laminates and sections of nonnegative energy (SolidBay, as in C81)."},
 {"property": "C109", "status": "proved", "theorems": ["Verif.C109.form", "Verif.C109.force", "Verif.C109.static"], "note": "For MultiDomain.calc_kC with a state (the stiffness by quadrature; its agreement with the closed form is C10) and calc_fint called afterwards on the same assembly, for every list of connections. Panels without constant pre-stress and with symmetric laminates. Nothing is said of MultiDomain.calc_kT, which never returns (C46)."},
 {"property": "C11", "status": "proved", "theorems": ["Verif.C11.cyl_fk0_energy", "Verif.C11.cyl_fk0_strain_energy", "Verif.C11.cyl_fkC_num_strain_energy", "Verif.C11.cyl_fkC_num_strain_energy_one"], "note": "Cylindrical panel, analytical and numeric."},
 {"property": "C110", "status": "proved", "theorems": ["Verif.C110.panel", "Verif.C110.panel_critical", "Verif.C110.multi", "Verif.C110.bay", "Verif.C110.bay_critical"], "note": "For Shell.calc_kG with a state and NLgeom=False, MultiDomain.calc_kG and StiffPanelBay.calc_kG, which always use the linear kinematics. Loads given beside the state are not multiplied: panel, multi and bay state their share, the critical multipliers are for none. Bays are those without 1D stiffeners, as others refuse every state (C106), of panels without forced orthotropy."},
 {"property": "C111", "status": "proved", "theorems": ["Verif.C111.panel", "Verif.C111.panel_results", "Verif.C111.multi", "Verif.C111.bay"], "note": "For Shell.calc_kC with c_cte=None, NLgeom=False and finalize=True, MultiDomain.calc_kC with any joints that give a matrix, and StiffPanelBay.calc_kC with the constant forces in the skin and the flanges; the bases have none, as calc_kG of a bay leaves their forces out (C106), and the 1D stiffeners carry no force Fx, as they have no constant one. The unstressed matrix is calc_kC with Nxx_cte, Nyy_cte and Nxy_cte zero. That all frequencies are real and positive is for r>=0 and positive definite stiffness and mass on the kept amplitudes, as in C80."},
 {"property": "C112", "status": "proved", "theorems": ["Verif.C112.panel", "Verif.C112.multi", "Verif.C112.bay", "Verif.C112.safe_mix"], "note": "For the matrices without a state: Shell.calc_kG with c=None, NLgeom=False and finalize=True, MultiDomain.calc_kG and StiffPanelBay.calc_kG with c=None. Each panel, flange and 1D stiffener has its own forces; forces on the bases of stiffeners do nothing (C106). The stiffness is any symmetric matrix that is positive definite on the kept amplitudes, as that of a supported structure is (C77, C78, C81)."},
 {"property": "C113", "status": "proved", "theorems": ["Verif.C113.panel", "Verif.C113.multi", "Verif.C113.bay", "Verif.C113.lowest", "Verif.C113.floor_iff"], "note": "Shell.calc_kC with NLgeom=False, finalize=True and no c_cte against Shell.calc_kG without a state; for assemblies and bays as in C111 (1D stiffeners without forces; bases carry none, C106). The mass matrix is any symmetric matrix that is positive definite on the kept amplitudes, as the mass of a panel is (C76) and that of the structures of C80 is."},
 {"property": "C114", "status": "proved", "theorems": ["Verif.C114.panel", "Verif.C114.multi", "Verif.C114.bay", "Verif.C114.tension", "Verif.C114.pulled_iff"], "note": "For exact integrals of the products of the shape functions (the gap to the printed tables is C03). calc_kC and calc_kG of a panel with their default arguments; for assemblies as in C111; for bays whose parts have valid laminates (as in C81), 1D stiffeners without forces, and bases without any (C106). Extends the tension theorem of C88, which is for one panel without the classes."},
 {"property": "C12", "status": "proved", "theorems": ["Verif.C12.ana_limit", "Verif.C12.num_limit", "Verif.C12.geo_limit", "Verif.C12.fint_limit", "Verif.C12.ana_expansion", "Verif.C12.num_expansion", "Verif.C12.geo_expansion", "Verif.C12.fint_expansion", "Verif.C12.ana_independent", "Verif.C12.num_independent", "Verif.C12.geo_independent", "Verif.C12.finite_radius"], "note": "Every entry of the cylinder kC, closed form or numerical (linear and tangent, any sub-domain), equals the plate entry plus A/r + B/r^2 with A, B independent of r, hence tends to it; likewise kG of a state and the internal force. Mass, kG of prescribed forces, y-flow kA and damping closed forms do not contain r."},
 {"property": "C13", "status": "proved", "theorems": ["Verif.C13.analytical_psd", "Verif.C13.numerical_psd", "Verif.C13.analytical_strain_free", "Verif.C13.numerical_strain_free", "Verif.C13.gaussTab_wt_nonneg"], "note": "Positive semidefinite for symmetric positive semidefinite laminates; zero energy on strain-free fields. Exact arithmetic with exact integral tables for the analytical part."},
 {"property": "C14", "status": "proved", "theorems": ["Verif.C14.material_tangent", "Verif.C14.material_tangent_one", "Verif.C14.strain_differentiable"], "note": "The strain entering the material tangent is the directional derivative of the von Karman strain at the state."},
 {"property": "C15", "status": "partial", "theorems": ["Verif.C15.fint_gradient_partial", "Verif.C15.fint_gradient_violated", "Verif.C15.fint_gradient_false", "Verif.C15.fint_defect", "Verif.C15.energy_differentiable", "Verif.C16.shell_fint"], "note": "The statement is false as coded: the nonlinear shear strain is 2 w,x w,y while its variation is that of w,x w,y. The exact defect is proved, a witness gives the negation, and the gradient property is proved where the shear term does no work. shell_fint states the defect for the method calc_fint with all its arguments."},
 {"property": "C16", "status": "partial", "theorems": ["Verif.C16.kT_jacobian_partial", "Verif.C16.kT_jacobian_violated", "Verif.C16.kT_jacobian_false", "Verif.C16.kT_defect", "Verif.C16.fint_differentiable", "Verif.C16.shell_jacobian_partial", "Verif.C16.shell_tangent", "Verif.C16.calcKT_eq", "Verif.C16.calcKT_prestress"], "note": "False as coded for the same reason as C15 (factor 2 in the shear strain); exact defect, witness and the restricted theorem are proved. The same for the methods calc_kT and calc_fint with all their arguments; calc_kT of a panel with a constant pre-stress is undefined."},
 {"property": "C17", "status": "proved", "theorems": ["Verif.C17.fint_linearises", "Verif.C17.fint_derivative_at_zero"], "note": ""},
 {"property": "C18", "status": "proved", "theorems": ["Verif.C18.plate_fkG0_energy", "Verif.C18.cyl_fkG0_energy", "Verif.C18.fkG0_initial_stress", "Verif.C18.fkG0_linear"], "note": "Exact tables and arithmetic."},
 {"property": "C19", "status": "partial", "theorems": ["Verif.C19.kG_linear", "Verif.C19.kG_linear_one", "Verif.C19.kG_zero_state", "Verif.C19.kG_nonlinear_partial", "Verif.C19.kG_nonlinear_violated", "Verif.C19.kG_defect"], "note": "Proved for NL=0 and for zero state; for NL=1 the resultants use 2 w,x w,y in the shear strain (witness), exact defect proved."},
 {"property": "C20", "status": "proved", "theorems": ["Verif.C20.fkM_kinetic", "Verif.C20.fkM_num_kinetic", "Verif.C20.fkM_psd", "Verif.C20.fkM_num_psd"], "note": "The rotary inertia factor is the printed 0.0833333333333333, not 1/12."},
 {"property": "C21", "status": "partial", "theorems": ["Verif.C21.same_offset_partial", "Verif.C21.same_offset_violated", "Verif.C21.same_offset_iff", "Verif.C21.opposite_offset", "Verif.C21.kinetic_thickness"], "note": "The code violates the property: the mass matrix belongs to the offset of opposite sign (same_offset_violated). It holds exactly when the offset is zero or the coupling vanishes (same_offset_iff, same_offset_partial)."},
 {"property": "C22", "status": "proved", "theorems": ["Verif.C22.plate_x", "Verif.C22.cyl_x", "Verif.C22.both_y", "Verif.C22.fkA_entry", "Verif.C22.stored", "Verif.C22.finalised", "Verif.C22.skew"], "note": "Above the diagonal the entries are the quadrature of the piston operator; the finalised matrix is skew. Below the diagonal see C59."},
 {"property": "C23", "status": "partial", "theorems": ["Verif.C23.first_call", "Verif.C23.follows_unique", "Verif.C23.no_mach", "Verif.C23.subsonic", "Verif.C23.bad_flow", "Verif.C23.exists_call", "Verif.C23.follows_partial", "Verif.C23.stale", "Verif.C23.calls_stale", "Verif.C23.claim_violated"], "note": "The first call uses the formulas; beta and gamma are then stored, so a later change of the flight condition has no effect (claim_violated)."},
 {"property": "C24", "status": "proved", "theorems": ["Verif.C24.plateFk0_fits", "Verif.C24.plateFkG0_fits", "Verif.C24.plateFkM_fits", "Verif.C24.plateFkAx_fits", "Verif.C24.plateFkAy_fits", "Verif.C24.plateFcA_fits", "Verif.C24.cylFk0_fits", "Verif.C24.cylFkG0_fits", "Verif.C24.cylFkM_fits", "Verif.C24.cylFkAx_fits", "Verif.C24.cylFkAy_fits", "Verif.C24.cylFcA_fits", "Verif.C24.plateFkCnumF_fits", "Verif.C24.cylFkCnumF_fits", "Verif.C24.plateFkGnumF_fits", "Verif.C24.cylFkGnumF_fits", "Verif.C24.fkMnumF_fits", "Verif.C24.plateFkAxNum_fits", "Verif.C24.cylFkAxNum_fits", "Verif.C24.fkAyNum_fits", "Verif.C24.plateFintF_inside", "Verif.C24.cylFintF_inside", "Verif.C24.fkCSSxcte11_fits", "Verif.C24.fkCSSxcte12_fits", "Verif.C24.fkCSSxcte22_fits", "Verif.C24.fkCSSycte11_fits", "Verif.C24.fkCSSycte12_fits", "Verif.C24.fkCSSycte22_fits", "Verif.C24.fkCBFxcte11_fits", "Verif.C24.fkCBFxcte12_fits", "Verif.C24.fkCBFxcte22_fits", "Verif.C24.fkCBFycte11_fits", "Verif.C24.fkCBFycte12_fits", "Verif.C24.fkCBFycte22_fits", "Verif.C24.fkCSB11_fits", "Verif.C24.fkCSB12_fits", "Verif.C24.fkCSB22_fits", "Verif.C24.fkCpd_fits", "Verif.C24.fkCldXcte_fits", "Verif.C24.fkCldYcte_fits", "Verif.C24.fkCf_fits", "Verif.C24.fkGf_fits", "Verif.C24.fkMf_fits", "Verif.C24.fkCss_fits", "Verif.C24.fkCsf_fits", "Verif.C24.fkCff_fits"], "note": "Every builder writes at most fdim triplets, all inside its declared block."},
 {"property": "C25", "status": "proved", "theorems": ["Verif.C25.finalised_symmetric", "Verif.C25.finalised_reads_upper", "Verif.C25.entries_full", "Verif.C25.half_is_full", "Verif.C25.plateFk0_full", "Verif.C25.plateFkG0_full", "Verif.C25.plateFkM_full", "Verif.C25.plateFcA_full", "Verif.C25.cylFk0_full", "Verif.C25.cylFkG0_full", "Verif.C25.cylFkM_full", "Verif.C25.cylFcA_full", "Verif.C25.fkCSSxcte11_full", "Verif.C25.fkCSSxcte22_full", "Verif.C25.fkCSSycte11_full", "Verif.C25.fkCSSycte22_full", "Verif.C25.fkCBFxcte11_full", "Verif.C25.fkCBFxcte22_full", "Verif.C25.fkCBFycte11_full", "Verif.C25.fkCBFycte22_full", "Verif.C25.fkCSB11_full", "Verif.C25.fkCSB22_full", "Verif.C25.fkCpd_full", "Verif.C25.fkCf_full", "Verif.C25.fkGf_full", "Verif.C25.fkMf_full", "Verif.C25.fkCss_full", "Verif.C25.fkCff_full", "Verif.C25.plateFkCnumF_full", "Verif.C25.cylFkCnumF_full", "Verif.C25.fkMnumF_full", "Verif.C25.plateFkGnumF_full", "Verif.C25.cylFkGnumF_full", "Verif.C25.later_kM", "Verif.C25.later_kG", "Verif.C25.later_kC", "Verif.C25.no_panels"], "note": "Finalised matrices are symmetric and equal the operator assembled without the row > col skip."},
 {"property": "C26", "status": "proved", "theorems": ["Verif.C26.entries_translated", "Verif.C26.entries_before", "Verif.C26.plateFk0_translated", "Verif.C26.plateFkG0_translated", "Verif.C26.plateFkM_translated", "Verif.C26.plateFkAx_translated", "Verif.C26.plateFkAy_translated", "Verif.C26.plateFcA_translated", "Verif.C26.cylFk0_translated", "Verif.C26.cylFkG0_translated", "Verif.C26.cylFkM_translated", "Verif.C26.cylFkAx_translated", "Verif.C26.cylFkAy_translated", "Verif.C26.cylFcA_translated", "Verif.C26.plateFkCnumF_translated", "Verif.C26.cylFkCnumF_translated", "Verif.C26.plateFkGnumF_translated", "Verif.C26.cylFkGnumF_translated", "Verif.C26.fkMnumF_translated", "Verif.C26.plateFkAxNum_translated", "Verif.C26.cylFkAxNum_translated", "Verif.C26.fkAyNum_translated", "Verif.C26.fkCSSxcte11_translated", "Verif.C26.fkCSSxcte22_translated", "Verif.C26.fkCSSycte11_translated", "Verif.C26.fkCSSycte22_translated", "Verif.C26.fkCBFxcte11_translated", "Verif.C26.fkCBFxcte22_translated", "Verif.C26.fkCBFycte11_translated", "Verif.C26.fkCBFycte22_translated", "Verif.C26.fkCSB11_translated", "Verif.C26.fkCSB22_translated", "Verif.C26.fkCpd_translated", "Verif.C26.fkCldXcte_translated", "Verif.C26.fkCldYcte_translated", "Verif.C26.fkCf_translated", "Verif.C26.fkGf_translated", "Verif.C26.fkMf_translated", "Verif.C26.fkCss_translated", "Verif.C26.fkCff_translated"], "note": "Block offsets only translate the entries."},
 {"property": "C27", "status": "proved", "theorems": ["Verif.C27.rule_interval", "Verif.C27.printed_interval", "Verif.C27.gauss_integral", "Verif.C27.kC_integral", "Verif.C27.kC_default", "Verif.C27.kC_split_x", "Verif.C27.kC_split_y", "Verif.C27.kM_integral", "Verif.C27.kM_split_x", "Verif.C27.kM_split_y", "Verif.C27.only_x1", "Verif.C27.bardell_poly"], "note": "For shape functions that are polynomials of degree d (bardell_poly for the exact Bardell functions) and a rule exact up to degree 2d, the quadratic form of the numerical kC (plate and cylinder) and kM of a sub-domain is the integral of the energy density over the sub-domain, and the parts of a panel split at any station add up to the whole. The printed rules are exact up to 1e-53 per moment (printed_interval). A station at exactly -1 is not recognised by the code and is excluded."},
 {"property": "C28", "status": "partial", "theorems": ["Verif.C28.kC_ignores", "Verif.C28.kG_ignores", "Verif.C28.kM_ignores", "Verif.C28.parts_double", "Verif.C28.claim_violated", "Verif.C28.kC_partial", "Verif.C28.kG_partial", "Verif.C28.kM_partial"], "note": "The claim is false for the closed-form path, the default: calc_kC, calc_kG and calc_kM without state, laminate field or non-linearity ignore x1, x2, y1, y2 (proved for all shells and arguments of that path), so two halves add up to twice the panel (claim_violated). On the numerical path (a state given; for calc_kM a thickness field) the matrices are the integrals over the sub-domain. Non-linear calls are not covered."},
 {"property": "C29", "status": "proved", "theorems": ["Verif.C29.uvw_points", "Verif.C29.uvw_cores", "Verif.C29.strain_cores", "Verif.C29.strain_points"], "note": "For all point lists and all positive core counts: the padded, reshaped and cut result is the list of point-wise values in order. The threads of prange are modelled as a loop over the rows."},
 {"property": "C30", "status": "proved", "theorems": ["Verif.C30.linear", "Verif.C30.interpolation", "Verif.C30.interpolation_reused", "Verif.C30.rotations", "Verif.C30.series"], "note": "Linearity and the interpolation identity over any field; rotations as true derivatives over the reals for twice differentiable shape functions (the Bardell functions are)."},
 {"property": "C31", "status": "partial", "theorems": ["Verif.C31.strain_eq", "Verif.C31.strain_linear", "Verif.C31.strain_nonlinear_partial", "Verif.C31.strain_shear_excess", "Verif.C31.strain_claim_iff", "Verif.C31.strain_shear_violated"], "note": "Linear strains proved in full. With NLgeom the code violates the claim for gxy: the product of slopes is counted twice (strain_shear_violated, exact condition in strain_claim_iff); the other five components are proved."},
 {"property": "C32", "status": "proved", "theorems": ["Verif.C32.stress_eq", "Verif.C32.stress_raises", "Verif.C32.energy_density", "Verif.C32.energy_derivative"], "note": "Result, priority of the given matrix, the error without a matrix, and the relation to the energy density."},
 {"property": "C33", "status": "proved", "theorems": ["Verif.C33.work", "Verif.C33.outside", "Verif.C33.element", "Verif.C33.affine", "Verif.C33.additive", "Verif.C33.wellFormed_add", "Verif.C33.point_load_work", "Verif.C33.one_term_vanishes"], "note": "For all load lists, increments, sizes and offsets that fit. Loads are arbitrary functions; the quadrature is the m- or n-point rule of the code. one_term_vanishes records that a distributed load along a direction with one term is lost."},
 {"property": "C34", "status": "proved", "theorems": ["Verif.C34.symmetric", "Verif.C34.form_eq", "Verif.C34.energy", "Verif.C34.psd", "Verif.C34.zero_iff"], "note": "Symmetry, exact energy, semidefiniteness and kernel for every selection of components."},
 {"property": "C35", "status": "proved", "theorems": ["Verif.C35.matrix", "Verif.C35.force", "Verif.C35.functional", "Verif.C35.gradient", "Verif.C35.zero_iff", "Verif.C35.minimiser"], "note": "Matrix (fkCpd, symmetrised) and force (add_point_pd through shell_fext, with any other loads present) are the Hessian and the linear part of the penalty potential at the point; non-constant prescriptions are scaled by inc."},
 {"property": "C36", "status": "partial", "theorems": ["Verif.C36.line_springs_partial", "Verif.C36.claim_iff", "Verif.C36.actual_x", "Verif.C36.actual_y", "Verif.C36.actual_same_flags", "Verif.C36.blind"], "note": "Violated by the code: all three values are written to the w-w position, so the claim holds exactly for ku = kv = 0 (claim_iff). The energy actually computed is given for both directions."},
 {"property": "C37", "status": "proved", "theorems": ["Verif.C37.bijective", "Verif.C37.of_position", "Verif.C37.size", "Verif.C37.stored", "Verif.C37.stiffness_rows", "Verif.C37.unit_state"], "note": "Numbering is a bijection onto 0..3mn-1, get_size its cardinality, every unknown has a row in the stiffness matrix, and the displacement output reads the same numbering."},
 {"property": "C38", "status": "partial", "theorems": ["Verif.C38.outcome_partial", "Verif.C38.wrong_state", "Verif.C38.no_vector", "Verif.C38.wrong_cte", "Verif.C38.state_unused", "Verif.C38.state_missing", "Verif.C38.cte_state_missing", "Verif.C38.claim_violated"], "note": "Which builder is used, proved for every combination of the optional arguments except two. The code violates the last part of the claim for those two: (laminate field + NLgeom, no state) and (NLgeom + constant pre-stress, no c_cte) make the compiled builder read an array that was not given."},
 {"property": "C39", "status": "partial", "theorems": ["Verif.C39.blocks_partial", "Verif.C39.contiguous_partial", "Verif.C39.partition_partial", "Verif.C39.others_kept", "Verif.C39.repeated", "Verif.C39.shared"], "note": "Proved for lists of distinct panel objects. Violated for a list that names one object twice (repeated) and for a panel shared by two assemblies (shared), because the offsets are stored on the panel object."},
 {"property": "C40", "status": "proved", "theorems": ["Verif.C40.kC_energy", "Verif.C40.kG_energy", "Verif.C40.kM_energy", "Verif.C40.conn_sum", "Verif.C40.joint_energy", "Verif.C40.conn_energy"], "note": "Assemblies of distinct panels. kC_energy: panel energies on slices plus the quadratic form of the connection matrix; conn_energy: that form is the sum of the spring energies of the connections (first evaluation; see C45 for the stored matrix)."},
 {"property": "C41", "status": "proved", "theorems": ["Verif.C41.SSxcte_joint", "Verif.C41.SSxcte_kernel", "Verif.C41.SSycte_joint", "Verif.C41.SSycte_kernel", "Verif.C41.SSxcte_joint_same_length"], "note": "Energy of the finalised SSxcte and SSycte blocks equals the penalty energy of the displacement and slope jumps along the joint; kernel characterised. kt = 0 is excluded because the printed expressions divide by kt; edges of different length are matched through the natural coordinate."},
 {"property": "C42", "status": "proved", "theorems": ["Verif.C42.BFxcte_joint", "Verif.C42.BFxcte_kernel", "Verif.C42.BFycte_joint", "Verif.C42.BFycte_kernel"], "note": "Energy and kernel of the base-flange connections."},
 {"property": "C43", "status": "proved", "theorems": ["Verif.C43.SB_joint", "Verif.C43.SB_joint_same_size", "Verif.C43.SB_kernel"], "note": "Energy and kernel of the skin-base (surface) connection, including the offset d between the mid-surfaces."},
 {"property": "C44", "status": "partial", "theorems": ["Verif.C44.positive", "Verif.C44.symmetric", "Verif.C44.bot_top_symmetric_partial", "Verif.C44.bot_top_order_matters", "Verif.C44.self_value", "Verif.C44.bounded_above", "Verif.C44.bounded_below_partial", "Verif.C44.below_both_witness", "Verif.C44.unknown_type_returns_nothing", "Verif.C44.pd_positive", "Verif.C44.tsl_domain", "Verif.C44.used_x", "Verif.C44.used_y", "Verif.C44.used_face", "Verif.C44.used_flange"], "note": "The full claim is false for the code: bot-top depends on the order of the panels, the lower bound fails for different thicknesses and an unknown type returns None; the negations are proved with witnesses beside the parts that hold."},
 {"property": "C45", "status": "partial", "theorems": ["Verif.C45.cached", "Verif.C45.same_assembly", "Verif.C45.two_assemblies_partial", "Verif.C45.reversed_partial", "Verif.C45.other_list_violated", "Verif.C45.two_assemblies_violated"], "note": "Violated: another list gives the stored matrix of the first (other_list_violated), and a reversed joint is changed in the caller's dictionary, so a second assembly gets another matrix (two_assemblies_violated). Proved: repeated calls on one assembly, two assemblies with joints in block order, and independence of the naming order for a first evaluation."},
 {"property": "C46", "status": "partial", "theorems": ["Verif.C46.shell_cA", "Verif.C46.shell_cA_never", "Verif.C46.multi_kT", "Verif.C46.bay_cA_never", "Verif.C46.bay_cA"], "note": "The claim is violated for every input: Shell.calc_cA, MultiDomain.calc_kT and StiffPanelBay.calc_cA never return a matrix. Proved: none of the three succeeds for any model state, and which exception each raises."},
 {"property": "C47", "status": "partial", "theorems": ["Verif.C47.panels_of", "Verif.C47.given", "Verif.C47.first", "Verif.C47.none_given", "Verif.C47.own_x_iff", "Verif.C47.own_y_iff", "Verif.C47.mesh_length", "Verif.C47.uvw_values", "Verif.C47.claim_violated", "Verif.C47.strain_values", "Verif.C47.stress_values"], "note": "The claim is violated (claim_violated). Proved for all groups: with neither grid the call raises; with one grid the other is the first panel's, so the claim holds exactly when all panels of the group share that dimension."},
 {"property": "C48", "status": "proved", "theorems": ["Verif.C48.stiffness_energy", "Verif.C48.stiffness_nonneg", "Verif.C48.section_necessary", "Verif.C48.geometric_energy", "Verif.C48.geometric_sign"], "note": "Quadratic forms of the finalised flange matrices as physical line integrals, for every m, n, panel offset and vector c; the section condition is shown necessary as well as sufficient."},
 {"property": "C49", "status": "partial", "theorems": ["Verif.C49.bladeKinetic_eq", "Verif.C49.bladeKinetic_nonneg", "Verif.C49.mass_form", "Verif.C49.never_psd", "Verif.C49.not_kinetic_energy", "Verif.C49.mass_kinetic_partial", "Verif.C49.mass_deviation_partial"], "note": "The code violates the claim: the cross terms of fkMf are doubled, and for every consistently dimensioned blade with positive density there is a panel and a vector with negative mass form (never_psd). The actual form and its deviation from the kinetic energy are proved for all inputs."},
 {"property": "C50", "status": "proved", "theorems": ["Verif.C50.blade_joint", "Verif.C50.blade_joint_same_length", "Verif.C50.blade_kernel"], "note": "The sum of the three blocks, finalised, is the penalty energy of the skin-flange mismatch along the stiffener line, for all c, m, n, m1, n1, kt, kr; its kernel is characterised for positive penalties."},
 {"property": "C51", "status": "partial", "theorems": ["Verif.C51.search", "Verif.C51.search_fails", "Verif.C51.interior_partial", "Verif.C51.interior_fails_partial", "Verif.C51.interior_two_partial", "Verif.C51.added1", "Verif.C51.added2", "Verif.C51.not_added", "Verif.C51.edges", "Verif.C51.near_violated"], "note": "search and search_fails say for all panel lists and all stations what is found. For stations not close to 0 or b this is the claim: the last panel ending and the last panel starting at the station, and a failure when either is missing. At the two edges, and for stations merely close to them (near_violated), both panels are the same one, so the English claim fails there."},
 {"property": "C52", "status": "partial", "theorems": ["Verif.C52.size_iff", "Verif.C52.start_zero", "Verif.C52.disjoint", "Verif.C52.filled", "Verif.C52.inside", "Verif.C52.kC_energy", "Verif.C52.kG_energy", "Verif.C52.kM_energy", "Verif.C52.no_flange", "Verif.C52.terms_addPanel", "Verif.C52.terms_addBlade1", "Verif.C52.terms_addBlade2"], "note": "Proved for all bays: get_size succeeds exactly when the model is known and every 2D stiffener has a flange, and is then skin plus flanges; the blocks are disjoint and fill the matrix; whenever calc_kC, calc_kG (c=None) or calc_kM returns, its quadratic form is the sum over panels and stiffeners with every flange on its own block. The claim is violated for a 2D stiffener without flange, which the class allows (no_flange)."},
 {"property": "C53", "status": "partial", "theorems": ["Verif.C53.round_trip_partial", "Verif.C53.full_name", "Verif.C53.not_read", "Verif.C53.round_trip_iff", "Verif.C53.claim_violated", "Verif.C53.others_kept", "Verif.C53.last_wins"], "note": "The round trip holds exactly for names in which the extension does not occur (round_trip_iff); the code violates the claim for the other names (claim_violated)."},
 {"property": "C54", "status": "partial", "theorems": ["Verif.C54.rebuild_ok_iff", "Verif.C54.idempotent", "Verif.C54.points", "Verif.C54.untouched", "Verif.C54.size_eq", "Verif.C54.first_rebuild_partial", "Verif.C54.edits_ignored", "Verif.C54.model_kept", "Verif.C54.stack_edit", "Verif.C54.claim_violated"], "note": "First rebuild uses the given definitions, rebuilding is idempotent, integration points are at least the number of terms. The claim is violated for edits between rebuilds: model name and lists per ply are kept from the first rebuild (witness claim_violated)."},
 {"property": "C55", "status": "proved", "theorems": ["Verif.C55.ortho_entries", "Verif.C55.coupling_names", "Verif.C55.not_forced", "Verif.C55.symmetric", "Verif.C55.mirror_invariant", "Verif.C55.idempotent", "Verif.C55.rebuilt", "Verif.C55.analytical_matrix"], "note": "Forcing removes exactly the coupling entries; the energy is then invariant under the mirror y -> -y; the closed-form builder reads lam.ABD, so forcing reaches it only if the composites object hands out the same array each time (stated as parameter Env.shared)."},
 {"property": "C56", "status": "partial", "theorems": ["Verif.C56.kC_counted", "Verif.C56.kG_counted", "Verif.C56.kM_counted", "Verif.C56.claim_violated", "Verif.C56.kC_partial", "Verif.C56.kG_partial", "Verif.C56.kM_partial"], "note": "Violated: n panels give n times the matrix of the whole skin, whatever their limits, so divisions with different numbers of panels differ wherever the skin has stiffness. Holds for one panel."},
 {"property": "C57", "status": "partial", "theorems": ["Verif.C57.kC_exists", "Verif.C57.kG_exists", "Verif.C57.kM_exists_partial", "Verif.C57.kM_base1", "Verif.C57.kM_base2", "Verif.C57.kM_fresh2", "Verif.C57.kG_state"], "note": "kC and kG exist. Violated for kM: never for a 1D stiffener with a base, and for a 2D stiffener with a base only after its base got a model from another calculation; also calc_kG with a state fails with any 1D stiffener."},
 {"property": "C58", "status": "partial", "theorems": ["Verif.C58.base1", "Verif.C58.base2", "Verif.C58.kept", "Verif.C58.base2_partial", "Verif.C58.base2_violated", "Verif.C58.strip1", "Verif.C58.strip2"], "note": "Proved for 1D stiffeners. Violated for 2D stiffeners when the skin is given by plyt: the offset is fixed when the stiffener is added, before the panels have lists of thicknesses."},
 {"property": "C59", "status": "partial", "theorems": ["Verif.C59.x_defect", "Verif.C59.y_defect", "Verif.C59.full_x_partial", "Verif.C59.full_y_partial", "Verif.C59.gamma_violated", "Verif.C59.edge_violated"], "note": "Holds for gamma = 0 and edges crossed by the flow held; otherwise the exact difference is beta*edge - 2*gamma*mass (x_defect, y_defect)."},
 {"property": "C60", "status": "partial", "theorems": ["Verif.C60.first_panel", "Verif.C60.needs_size", "Verif.C60.rows", "Verif.C60.rows_partial", "Verif.C60.rows_short", "Verif.C60.beta_ignored", "Verif.C60.beta_fails", "Verif.C60.sound_needed", "Verif.C60.others_ignored", "Verif.C60.entries", "Verif.C60.exists_call", "Verif.C60.claim_violated", "Verif.C60.rows_violated"], "note": "The matrix is that of the first panel alone: its rows, its sub-domain, its own beta; holds for a bay of one panel without flanges."},
 {"property": "C61", "status": "partial", "theorems": ["Verif.C61.ok_iff", "Verif.C61.force_fails", "Verif.C61.stiffened_fails", "Verif.C61.work_partial", "Verif.C61.skin_loop", "Verif.C61.claim_violated"], "note": "calc_fext succeeds only without forces on the skin and without 2D stiffeners; the loop itself would be right."},
 {"property": "C62", "status": "partial", "theorems": ["Verif.C62.skin", "Verif.C62.skin_exists", "Verif.C62.array_fails", "Verif.C62.flange_partial", "Verif.C62.later_fails", "Verif.C62.listed_add1", "Verif.C62.listed_add2", "Verif.C62.claim_violated"], "note": "Skin: for all grids and all one-dimensional points. Flanges: only the first stiffener of the list; every later one fails."},
 {"property": "C63", "status": "partial", "theorems": ["Verif.C63.ok_iff", "Verif.C63.panel_fails", "Verif.C63.round_trip_partial", "Verif.C63.claim_violated"], "note": "Saving fails for every bay with a panel."},
 {"property": "C64", "status": "proved", "theorems": ["Verif.C64.accepted", "Verif.C64.tiles", "Verif.C64.panels", "Verif.C64.stiffness", "Verif.C64.blades_accepted", "Verif.C64.blades_stiffness"], "note": "Tiling of the circumference and the energy identity for the closed ring, without and with blades, for laminates with a symmetric ABD of positive stiffness (needed for the penalty constants to exist). The laminate calculation is a parameter."},
 {"property": "C65", "status": "partial", "theorems": ["Verif.C65.nxx_cte", "Verif.C65.nxx_cte_length", "Verif.C65.blades_nxx_cte", "Verif.C65.from_static", "Verif.C65.from_static_partial", "Verif.C65.from_static_violated", "Verif.C65.blades_from_static", "Verif.C65.blades_from_static_partial", "Verif.C65.blades_from_static_violated", "Verif.C65.spla", "Verif.C65.spla_violated"], "note": "Proved for the functions that use the values directly. False of the code for the functions that go through a static analysis (the closures all read the last value) and for cylinder_spla (its Nxx is never read): exact description of the forces, counterexamples, and the claim for equal values."},
 {"property": "C66", "status": "proved", "theorems": ["Verif.C66.skin_tiles", "Verif.C66.joints_meet", "Verif.C66.joined_y", "Verif.C66.joined_x", "Verif.C66.bonded", "Verif.C66.flange_joined", "Verif.C66.supports", "Verif.C66.conns_once", "Verif.C66.compression", "Verif.C66.static", "Verif.C66.freq"], "note": "Layout, joints and supports for all sensible dimensions; energies and forces for panels that can be built with positive stiffnesses and a radius that is absent or not zero. With a static case the geometric matrix is that of the displacements given by the linear solver, which is a parameter. The eigenvalue solvers and the plots are not modelled; the flutter variant is C69."},
 {"property": "C67", "status": "partial", "theorems": ["Verif.C67.fext_work", "Verif.C67.fext_unique", "Verif.C67.fint_sum", "Verif.C67.fint_needs_conn", "Verif.C67.fint_gradient_partial"], "note": "The external force vector exists for every assembly whose panels rebuild and whose loads are well formed, and does the work of the loads of all panels; it is the only vector that does. The internal force vector is the sum of the panels' internal forces and of the connection matrix times the amplitudes, and is the gradient of the total energy; partial because the gradient is proved only at states where C15 holds (deflection in one direction only), the code being wrong elsewhere, and because calc_fint raises RuntimeError for an assembly whose own connection list is None (fint_needs_conn), even when the matrix is known."},
 {"property": "C68", "status": "partial", "theorems": ["Verif.C68.flow_x_partial", "Verif.C68.flow_y", "Verif.C68.damping", "Verif.C68.damping_sign", "Verif.C68.gamma_violated"], "note": "Proved for fkAy and fcA, and for fkAx without curvature term. With gamma != 0 the claim is false: the plate drops the term and the cylinder has it with the opposite sign (gamma_violated); flow_x_partial says what is stored instead."},
 {"property": "C69", "status": "partial", "theorems": ["Verif.C69.flutter_partial", "Verif.C69.flutter_static_partial", "Verif.C69.subsonic", "Verif.C69.below_x", "Verif.C69.lower_violated"], "note": "Proved: stiffness, mass and geometric matrices, and kA on and above the diagonal; a missing or subsonic Mach number is refused. Below the diagonal the claim is false for every flat panel with at least three terms along y (lower_violated): one make_skew_symmetric of the sum drops the flux through the edges of each panel, which are free inside the skin; below_x says what misses. The linear solver is a parameter; loads given as None are not modelled."},
 {"property": "C70", "status": "partial", "theorems": ["Verif.C70.uvw", "Verif.C70.uvw_exists", "Verif.C70.strain_partial", "Verif.C70.strain_exists", "Verif.C70.stress_partial", "Verif.C70.stress_exists", "Verif.C70.strain_linear", "Verif.C70.strain_nonlinear", "Verif.C70.strain_fresh"], "note": "displacements and linear strains and stresses in full; with NLgeom the shear strain has the excess of C31; panels whose r is None have no strains"},
 {"property": "C71", "status": "partial", "theorems": ["Verif.C71.computed", "Verif.C71.shown", "Verif.C71.spread", "Verif.C71.scale", "Verif.C71.between", "Verif.C71.data_only", "Verif.C71.exists_displ", "Verif.C71.unknown", "Verif.C71.transverse_violated", "Verif.C71.no_position"], "note": "every panel, value and position drawn; violated for the documented transverse components and for panels without position; shear strain as C70; only the numbers handed to contourf are modelled"},
 {"property": "C72", "status": "partial", "theorems": ["Verif.C72.uvw", "Verif.C72.strain", "Verif.C72.stress", "Verif.C72.shown_partial", "Verif.C72.scale", "Verif.C72.kept", "Verif.C72.exists_displ", "Verif.C72.unknown", "Verif.C72.transverse_violated", "Verif.C72.flag_ignored", "Verif.C72.mesh_violated"], "note": "stored fields, picture and scale; violated: transverse components, NLgeom for strains, mesh of the fields put back; shear strain as C70"},
 {"property": "C73", "status": "partial", "theorems": ["Verif.C73.skin", "Verif.C73.flange", "Verif.C73.skin_partial", "Verif.C73.stiffener_partial", "Verif.C73.scale", "Verif.C73.kept", "Verif.C73.skin_exists", "Verif.C73.stiffener_exists", "Verif.C73.undisplayed", "Verif.C73.given_violated", "Verif.C73.later_violated", "Verif.C73.mesh_violated"], "note": "displacements on grids for the skin and the first flange; violated: given points, documented strains and stresses, later stiffeners, stored mesh"},
 {"property": "C74", "status": "proved", "theorems": ["Verif.C74.second", "Verif.C74.first", "Verif.C74.value", "Verif.C74.ends", "Verif.C74.legendre_orthogonal", "Verif.C74.orthogonal", "Verif.C74.table_diagonal", "Verif.C74.printed", "Verif.C74.printed_exact", "Verif.C74.printed_second"], "note": "Exact functions for all indices by coefficients (Bonnet's recursion as the independent definition); printed tables compared coefficient by coefficient in the kernel, 4e-9, 2e-7 and 1e-6 times the flag, exact derivatives up to term 16. Orthogonality of the Legendre polynomials, hence of the second derivatives, for all degrees by induction on the recursion."},
 {"property": "C75", "status": "proved", "theorems": ["Verif.C75.hier", "Verif.C75.printed", "Verif.C75.exact", "Verif.C75.beyond"], "note": "On the output of the displacement evaluator."},
 {"property": "C76", "status": "proved", "theorems": ["Verif.C76.stiffness_num", "Verif.C76.stiffness_ana", "Verif.C76.mass_num", "Verif.C76.mass_ana", "Verif.C76.solvable"], "note": "Numerical matrices with the printed functions and rules; closed-form matrices with exact integrals. `Supported` is sufficient: deflection held against tilting along one direction, membrane displacements against translation and rotation."},
 {"property": "C77", "status": "proved", "theorems": ["Verif.C77.stiffness_num", "Verif.C77.stiffness_ana", "Verif.C77.definite_iff", "Verif.C77.field", "Verif.C77.motion_strain", "Verif.C77.strain_motion", "Verif.C77.restrained_iff", "Verif.C77.supported", "Verif.C77.defaults", "Verif.C77.free", "Verif.C77.membrane_restrained", "Verif.C77.corner_restrained"], "note": "Printed functions and rules for the numerical matrices (4 to 30 terms), exact functions for the closed form; linear stiffness (NL other than 1). With fewer than four terms only the direction from Restrained to definite holds (definite_iff). The tangent at a deformed state is covered by C76."},
 {"property": "C78", "status": "proved", "theorems": ["Verif.C78.definite_iff", "Verif.C78.solvable", "Verif.C78.linked", "Verif.C78.floating", "Verif.C78.cylinder", "Verif.C78.cylinder_nxx", "Verif.C78.cylinder_static", "Verif.C78.blades", "Verif.C78.blades_nxx", "Verif.C78.blades_static", "Verif.C78.corner_restrained", "Verif.C78.restrained_T", "Verif.C78.tstiff", "Verif.C78.tstiff_matrices"], "note": "Over the reals, linear strains, exact rules.  definite_iff: matrix of MultiDomain.calc_kC with given connections.  The matrices are those returned by the builders' analyses (create_cylinder*, tstiff2d_1stiff_*)."},
 {"property": "C79", "status": "proved", "theorems": ["Verif.C79.stiffness_ana", "Verif.C79.geometric_ana", "Verif.C79.mass_ana", "Verif.C79.aero_ana", "Verif.C79.mass_num", "Verif.C79.aero_num", "Verif.C79.stiffness_num", "Verif.C79.geometric_num", "Verif.C79.fint", "Verif.C79.energy", "Verif.C79.lowest", "Verif.C79.compliance"], "note": "Over any field for the matrices, over the reals for energies and static work.  The same rule of integration (numbers of points) in both models; calc_fext with distributed loads picks its number of points from m and n and is therefore not included. All frequencies (not only the lowest) are covered by C88."},
 {"property": "C80", "status": "proved", "theorems": ["Verif.C80.modes", "Verif.C80.energies", "Verif.C80.lowest", "Verif.C80.eigen_iff", "Verif.C80.positive_iff", "Verif.C80.critical_iff", "Verif.C80.critical_real", "Verif.C80.stable_iff", "Verif.C80.critical_sign", "Verif.C80.buckles", "Verif.C80.vibrates", "Verif.C80.panel_frequencies", "Verif.C80.panel_buckling", "Verif.C80.panel_num", "Verif.C80.refine", "Verif.C80.cylinder", "Verif.C80.blades", "Verif.C80.tstiff_freq", "Verif.C80.tstiff_compression"], "note": "Over the reals, exact rules.  About the pairs of matrices that the code hands to the eigenvalue solvers of structsolve; the solvers themselves are not part of the repository.  tstiff_compression with loads from a static analysis: for whatever displacements the static solver returns. All frequencies (not only the lowest) are covered by C88."},
 {"property": "C81", "status": "proved", "theorems": ["Verif.C81.definite_iff", "Verif.C81.held", "Verif.C81.floating", "Verif.C81.solvable", "Verif.C81.symmetric", "Verif.C81.buckling", "Verif.C81.mass", "Verif.C81.frequencies", "Verif.C81.flange_holds", "Verif.C81.solid", "Verif.C81.Shaped.rebuild", "Verif.C81.shaped_addPanel", "Verif.C81.shaped_addBlade1", "Verif.C81.shaped_addBlade2", "Verif.C81.section_ok"], "note": "Exact arithmetic. The laminates (package composites) are assumed symmetric and positive definite; a 1D stiffener must have a section of non-negative energy (section_ok gives it for orthotropic plies). With bases there is no mass matrix at all (C57) and the mass of a 1D stiffener is not a kinetic energy (C49), so frequencies are stated for bays without them."},
 {"property": "C82", "status": "proved", "theorems": ["Verif.C82.rebuild", "Verif.C82.kC", "Verif.C82.kG", "Verif.C82.kT", "Verif.C82.kM", "Verif.C82.kA", "Verif.C82.fint", "Verif.C82.fext", "Verif.C82.uvw", "Verif.C82.strain", "Verif.C82.stress", "Verif.C82.constraint", "Verif.C82.point_load", "Verif.C82.distr_load", "Verif.C82.point_pd", "Verif.C82.distr_pd", "Verif.C82.clear", "Verif.C82.static", "Verif.C82.buckling", "Verif.C82.frequency"], "note": "All methods of a single panel commute with a change of the units of length, force and time, for analytical and numerical paths, including the failures; corollaries for static solutions, buckling multipliers and frequencies. The laminate calculator (external package) is assumed to commute with units; limits of integration must not become the sentinel -1, which holds for limits on the panel."},
 {"property": "C83", "status": "partial", "theorems": ["Verif.C83.penalties", "Verif.C83.springs", "Verif.C83.spring_matrices", "Verif.C83.conn_partial", "Verif.C83.kC_partial", "Verif.C83.kG", "Verif.C83.kM", "Verif.C83.kT_partial", "Verif.C83.fint_partial", "Verif.C83.fext", "Verif.C83.fields", "Verif.C83.points", "Verif.C83.tsl_fixed", "Verif.C83.tsl_violated", "Verif.C83.cylinder", "Verif.C83.blades", "Verif.C83.tstiff", "Verif.C83.flutter", "Verif.C83.static", "Verif.C83.buckling", "Verif.C83.frequency"], "note": "All methods of assemblies and the ready-made functions commute with a change of units except for the joint SB_TSL, whose numbers are proved to be the same in all units (tsl_fixed), with a concrete violation (tsl_violated). The _partial theorems exclude that joint. The laminate calculator and the linear solver (external packages) are assumed to commute with units; limits of integration must not become the sentinel -1."},
 {"property": "C84", "status": "partial", "theorems": ["Verif.C84.face", "Verif.C84.axial", "Verif.C84.section_iff", "Verif.C84.section_partial", "Verif.C84.plane_violated", "Verif.C84.coupling_violated", "Verif.C84.bending", "Verif.C84.axis"], "note": "E1, F1, Jxx and dbf are proved for all stacks. S1 violates the claim: the plies are placed from the lower face, and the coupling is reduced with q16 in the place of q26; section_iff says when S1 is right, section_partial covers plies without coupling. That Jxx enters the energy without a shear modulus is not part of this claim."},
 {"property": "C85", "status": "partial", "theorems": ["Verif.C85.fits_or", "Verif.C85.refusal", "Verif.C85.shell_kC", "Verif.C85.shell_kG", "Verif.C85.shell_kT", "Verif.C85.multi_refusal", "Verif.C85.multi_kC_kG", "Verif.C85.multi_fint", "Verif.C85.fint_longer", "Verif.C85.fint_shorter", "Verif.C85.fint_violated", "Verif.C85.multi_fint_violated"], "note": "Proved for calc_kC (both vectors), calc_kG, calc_kT of panels and calc_kC, calc_kG of assemblies with the exact exceptions; MultiDomain.calc_fint returns only for fitting vectors. Violated by calc_fint, which has no check: longer vectors are taken by a panel, shorter ones are read outside."},
 {"property": "C86", "status": "partial", "theorems": ["Verif.C86.rebuild", "Verif.C86.size", "Verif.C86.kC_partial", "Verif.C86.kG", "Verif.C86.kM", "Verif.C86.kA", "Verif.C86.torsion_fixed", "Verif.C86.torsion_violated", "Verif.C86.panel", "Verif.C86.blade1_partial", "Verif.C86.blade2_partial", "Verif.C86.close", "Verif.C86.close_violated", "Verif.C86.skin", "Verif.C86.flange", "Verif.C86.buckling_partial", "Verif.C86.frequency_partial"], "note": "The claim fails in two places. The torsion term of fkCf has the second moment Jxx where a stiffness G Jxx is needed: torsion_fixed says which number it becomes, torsion_violated shows a bay whose stiffness changes; kC_partial and the solutions exclude 1D flanges, or systems where force is not len^3. isclose has an absolute tolerance of 1e-8: close_violated shows a stiffener that is refused in mm and accepted in m; the partial theorems about adding stiffeners assume that isclose answers alike, which close gives for positions that agree or are far apart. The linear elastic laminate calculators are assumed homogeneous (HomogBay), limits equal to the marker -1 are excluded (ClearBay, Off)."},
 {"property": "C87", "status": "proved", "theorems": ["Verif.C87.reciprocal", "Verif.C87.panel_reciprocal", "Verif.C87.panel_exchange", "Verif.C87.panel_superposed", "Verif.C87.balanced_iff", "Verif.C87.panel_energy", "Verif.C87.panel_minimum", "Verif.C87.panel_along", "Verif.C87.panel_solved", "Verif.C87.multi_reciprocal", "Verif.C87.multi_exchange", "Verif.C87.multi_energy", "Verif.C87.multi_minimum", "Verif.C87.multi_solved"], "note": "Balanced says that the amplitudes solve the equations of the free amplitudes, whatever solver found them. Reciprocity, exchange and superposition hold over any field, for the stiffness and the tangent stiffness, from any state; the energy statements of panels are for the closed-form matrices over the reals with exact tables, those of assemblies for the matrix calc_kC returns."},
 {"property": "C88", "status": "proved", "theorems": ["Verif.C88.compare", "Verif.C88.values", "Verif.C88.softer", "Verif.C88.buckling", "Verif.C88.more_terms", "Verif.C88.panel_more_terms", "Verif.C88.panel_frequencies", "Verif.C88.panel_buckling", "Verif.C88.tension", "Verif.C88.joints_le", "Verif.C88.joints_frequencies", "Verif.C88.joints_buckling"], "note": "Modes (Spec/Modes.lean) is what an eigenvalue solver should return, ordered; C80 shows that modes exist. Released changes edge flags only from zero. Laminates are compared by their energy density. The statements about panels are for the closed-form matrices with exact tables over the reals; frequencies are compared through their squares. Joints are those of types SSxcte, SSycte, BFxcte, BFycte and SB between different panels."},
 {"property": "C89", "status": "proved", "theorems": ["Verif.C89.displacements", "Verif.C89.stiffness", "Verif.C89.mass", "Verif.C89.geometric", "Verif.C89.stiffness_num", "Verif.C89.geometric_num", "Verif.C89.mass_num", "Verif.C89.internal", "Verif.C89.gaussTab_even", "Verif.C89.load_work", "Verif.C89.forces", "Verif.C89.eigen_iff", "Verif.C89.critical_iff", "Verif.C89.balanced", "Verif.C89.values", "Verif.C89.mem_actives", "Verif.C89.panel_frequencies", "Verif.C89.panel_buckling", "Verif.C89.panel_static", "Verif.C89.few_terms"], "note": "Turned (Spec/Mirror.lean) is the mirror image of a panel. Shape.Even and GaussTab.Even are the parity of the functions and of the points: proved for the Bardell functions of the derivation and for both printed sets (bardellShape_even, vecShape_even, scShape_even in Proofs/Mirror.lean) and for the printed points (gaussTab_even). Closed-form matrices are for exact tables over the reals. few_terms shows that four terms are needed. The aerodynamic matrix is in C93."},
 {"property": "C90", "status": "proved", "theorems": ["Verif.C90.displacements", "Verif.C90.stiffness", "Verif.C90.mass", "Verif.C90.geometric", "Verif.C90.stiffness_num", "Verif.C90.geometric_num", "Verif.C90.mass_num", "Verif.C90.internal", "Verif.C90.load_work", "Verif.C90.forces", "Verif.C90.eigen_iff", "Verif.C90.critical_iff", "Verif.C90.balanced", "Verif.C90.values", "Verif.C90.mem_actives", "Verif.C90.plate_frequencies", "Verif.C90.plate_buckling", "Verif.C90.plate_static"], "note": "Exchanged (Spec/Exchange.lean) is the description of a plate with the axes exchanged. Closed-form matrices are for exact tables over the reals. The aerodynamic matrix is in C93; a curved panel has a preferred axis."},
 {"property": "C91", "status": "proved", "theorems": ["Verif.C91.perm_of_quad", "Verif.C91.critical_iff", "Verif.C91.values", "Verif.C91.actives_rot", "Verif.C91.Turned.critical", "Verif.C91.Turned.values", "Verif.C91.stiffness", "Verif.C91.cylinder", "Verif.C91.fit_rotate", "Verif.C91.blades"], "note": "Rotated (Spec/Rotate.lean) is equality entry by entry with the unknowns handed on round the ring. Exact integral tables over the reals; Turned.values assumes the stiffness positive definite, which is C78. Only the two functions with constant loads: those with loads from a static analysis use the last value on every panel (C65), so they are not symmetric."},
 {"property": "C92", "status": "partial", "theorems": ["Verif.C92.matrices_partial", "Verif.C92.displacement", "Verif.C92.frequencies", "Verif.C92.frequency_list", "Verif.C92.buckling", "Verif.C92.forces", "Verif.C92.static", "Verif.C92.area_iff", "Verif.C92.area_differs", "Verif.C92.point_pd_iff", "Verif.C92.line_pd_iff"], "note": "Renumbered is equality entry by entry with the terms of every panel renumbered by swapNo. matrices_partial needs A11 = A22 of both panels of every joint over an area (EvenAreas); without it the claim is false of the code: area_iff gives the constants, area_differs the matrices, point_pd_iff and line_pd_iff the constants for prescribed displacements. Flat plates, exact integral tables over the reals, prescribed resultants, no pre-stress from a state."},
 {"property": "C93", "status": "partial", "theorems": ["Verif.C93.eigen_transpose", "Verif.C93.reverse", "Verif.C93.axes", "Verif.C93.mirror_partial", "Verif.C93.skew_held", "Verif.C93.flutter_axes", "Verif.C93.flutter_mirror", "Verif.C93.plate_axes", "Verif.C93.plate_mirror", "Verif.C93.across_violated"], "note": "Flutter (Spec/Flutter.lean) is the eigenvalue problem over the complex numbers on the active terms. axes holds for every support; mirror_partial needs the edges crossed by the flow to be held (Held), or a mirror along the flow only; across_violated shows that the claim fails without that, because the code stores the upper triangle and completes it by skew symmetry. Flat plates (gamma = 0) and a rule of integration that is exact for the products of the functions; curved panels: C59."},
 {"property": "C94", "status": "proved", "theorems": ["Verif.C94.refused", "Verif.C94.base1", "Verif.C94.parts2", "Verif.C94.base_moves", "Verif.C94.flange_edges", "Verif.C94.flange_rigid", "Verif.C94.moved_kC", "Verif.C94.moved_kG", "Verif.C94.moved_kM"], "note": "Layers, Strip and Edges (Spec/Added.lean) are the plies, the place and the supports that the arguments mean. Edges is about the Bardell functions over the reals, at least 5 terms along and 4 across the flange. flange_rigid records that the flags of the code suppress the slopes of the membrane displacements across the free edges. moved_* are for the stiffener in both blocks; that it has matrices is C57."},
 {"property": "C95", "status": "proved", "theorems": ["Verif.C95.matrices", "Verif.C95.frequencies", "Verif.C95.frequency_list", "Verif.C95.buckling", "Verif.C95.forces", "Verif.C95.static"], "note": "MirAssy (Spec/MirrorAll.lean) is the mirror image in terms of the user's data: sizes, supports, laminates, joints, preloads and loads. Plates and cylinders, at least 4 terms along a mirrored axis, symmetric quadrature points, joints inside the domains of C80/C92 (Fit), no prestress in kC. Panels laid over each other (SB) are mirrored along x and y only. The example has a skin, an upright flange and a second skin laid over the first."},
 {"property": "C96", "status": "partial", "theorems": ["Verif.C96.pow2mult_value", "Verif.C96.array_value_partial", "Verif.C96.array_spoils", "Verif.C96.decimal_spoiled", "Verif.C96.zero_spoiled", "Verif.C96.name_refused", "Verif.C96.symbol_refused"], "note": "pow2mult_value is for every expression of the grammar of Spec/Printed.lean (names, whole numbers, decimals, sums, products, quotients, powers, functions) and every meaning of its words. Missing: mprint_as_array replaces in the order found and spoils a power that contains an earlier one (array_spoils, a defect of the code); array_value_partial holds without such powers. decimal_spoiled, zero_spoiled, name_refused and symbol_refused show that the limits of the grammar are those of the code."},
 {"property": "C97", "status": "proved", "theorems": ["Verif.C97.sparse_writes", "Verif.C97.array_writes"], "note": "Spec/Kernel.lean runs the printed lines. Options subs, collect_for and use_cse are left to sympy and not modelled."},
 {"property": "C98", "status": "partial", "theorems": ["Verif.C98.matrices_partial", "Verif.C98.frequencies", "Verif.C98.frequency_list", "Verif.C98.buckling", "Verif.C98.forces", "Verif.C98.static", "Verif.C98.flange_turned", "Verif.C98.stack_turned", "Verif.C98.flange_violated", "Verif.C98.stack_violated"], "note": "For every permutation of the panels, every number of panels and joints. Missing: joints that tell their two panels apart (base and flange, panels laid over each other) whose panels exchange their order, because get_kC_conn gives the roles by the numbers (a defect of the code: flange_turned and stack_turned give the difference, flange_violated and stack_violated concrete assemblies); and skins joined along edges of different lengths, where the position along the edge is that of the first panel. matrices_partial holds for all other joints (Keeps)."},
 {"property": "C99", "status": "proved", "theorems": ["Verif.C99.matrices", "Verif.C99.frequencies", "Verif.C99.buckling", "Verif.C99.forces", "Verif.C99.compliance"], "note": "For assemblies of any number of panels and joints, any numbers of terms, any edges released and any joints dropped (at least one is left, since get_kC_conn refuses an empty list). forces and compliance: the number of terms is kept along loaded lines, because the code integrates a line load with as many points as the panel has terms there, so that the load itself changes with the terms; point loads need no such condition. buckling and compliance: the freer assembly is still held (Pos, characterised in C78)."}
]}
