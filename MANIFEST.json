{
 "claims": [
  {
   "property": "C01",
   "status": "proved",
   "theorems": [
    "PyBox.C01_inverse",
    "PyBox.C01_indices",
    "PyBox.C01_no_photon",
    "PyBox.C01_order"
   ],
   "note": ""
  },
  {
   "property": "C02",
   "status": "proved",
   "theorems": [
    "PyBox.C02_tables_indexed",
    "PyBox.C02_indexed_iff"
   ],
   "note": "The photon marker 'hv' can be a key of the gain table with an empty entry; it is not a species (C01_no_photon)."
  },
  {
   "property": "C03",
   "status": "proved",
   "theorems": [
    "PyBox.C03_round_trip"
   ],
   "note": ""
  },
  {
   "property": "C04",
   "status": "proved",
   "theorems": [
    "PyBox.C04_line_breaks",
    "PyBox.C04_tabs"
   ],
   "note": ""
  },
  {
   "property": "C05",
   "status": "proved",
   "theorems": [
    "PyBox.C05_loss_coefficients"
   ],
   "note": ""
  },
  {
   "property": "C06",
   "status": "partial",
   "theorems": [
    "PyBox.C06_gain_coefficients_partial",
    "PyBox.C06_exact",
    "PyBox.C06_false",
    "PyBox.C06_false_dropped"
   ],
   "note": "False in general (C06_false): line 282 tests the last reactant. Proved exactly when it holds."
  },
  {
   "property": "C07",
   "status": "partial",
   "theorems": [
    "PyBox.C07_bare_name",
    "PyBox.C07_coefficient_partial",
    "PyBox.C07_wrong",
    "PyBox.C07_false"
   ],
   "note": "False for names containing a digit (C07_wrong: always wrong there)."
  },
  {
   "property": "C08",
   "status": "proved",
   "theorems": [
    "PyBox.C08_accepts_iff",
    "PyBox.C08_rejects",
    "PyBox.C08_rate_count",
    "PyBox.C08_integer",
    "PyBox.C08_negative",
    "PyBox.pyInt_iff"
   ],
   "note": ""
  },
  {
   "property": "C09",
   "status": "proved",
   "theorems": [
    "PyBox.C09_extension"
   ],
   "note": ""
  },
  {
   "property": "C10",
   "status": "partial",
   "theorems": [
    "PyBox.C10_value",
    "PyBox.C10_mass_action_partial",
    "PyBox.C10_exact",
    "PyBox.C10_false"
   ],
   "note": "False when a reactant is written more than once (each occurrence is raised to the summed coefficient). C10_exact gives the condition."
  },
  {
   "property": "C11",
   "status": "proved",
   "theorems": [
    "PyBox.C11_same_programs",
    "PyBox.C11_same_factors",
    "PyBox.C11_photon_only"
   ],
   "note": "C11_photon_only records the one case where neither routine writes the cell."
  },
  {
   "property": "C12",
   "status": "proved",
   "theorems": [
    "PyBox.C12_gain_minus_loss",
    "PyBox.C12_written"
   ],
   "note": ""
  },
  {
   "property": "C13",
   "status": "partial",
   "theorems": [
    "PyBox.C13_value",
    "PyBox.C13_exact",
    "PyBox.C13_same_partial",
    "PyBox.C13_false"
   ],
   "note": "False for coefficients other than one: the Fortran generator writes the coefficient plus one. C13_exact gives the condition."
  },
  {
   "property": "C14",
   "status": "partial",
   "theorems": [
    "PyBox.C14_exact",
    "PyBox.C14_matrix_partial",
    "PyBox.C14_false"
   ],
   "note": "False when a species occurs on both sides of a reaction. C14_exact gives the condition."
  },
  {
   "property": "C15",
   "status": "proved",
   "theorems": [
    "PyBox.C15_constant",
    "PyBox.C15_never_written",
    "PyBox.C15_jacobian_rows"
   ],
   "note": ""
  },
  {
   "property": "C16",
   "status": "partial",
   "theorems": [
    "PyBox.C16_conservation_partial",
    "PyBox.C16_false"
   ],
   "note": "False when a repeated product is recorded wrongly (C06)."
  },
  {
   "property": "C17",
   "status": "proved",
   "theorems": [
    "PyBox.C17_quasi_positive"
   ],
   "note": ""
  },
  {
   "property": "C18",
   "status": "partial",
   "theorems": [
    "PyBox.C18_valid_iff",
    "PyBox.C18_valid_iff_fortran",
    "PyBox.C18_valid_partial",
    "PyBox.C18_false"
   ],
   "note": "False when the parser drops the only occurrence of a species; C18_valid_iff is the exact condition."
  },
  {
   "property": "C19",
   "status": "partial",
   "theorems": [
    "PyBox.C19_exact",
    "PyBox.C19_derivative_partial",
    "PyBox.C19_false"
   ],
   "note": "False for repeated reactants and coefficients other than one; C19_exact gives the condition reaction by reaction."
  },
  {
   "property": "C20",
   "status": "proved",
   "theorems": [
    "PyBox.C20_same_matrix"
   ],
   "note": ""
  },
  {
   "property": "C21",
   "status": "proved",
   "theorems": [
    "PyBox.C21_order_independent"
   ],
   "note": ""
  },
  {
   "property": "C22",
   "status": "proved",
   "theorems": [
    "PyBox.C22_sparsity_sound"
   ],
   "note": ""
  },
  {
   "property": "C23",
   "status": "proved",
   "theorems": [
    "PyBox.C23_work_splitting",
    "PyBox.C23_balanced",
    "PyBox.withOmp_region",
    "PyBox.C23_empty"
   ],
   "note": "With no lines at all the region is unbalanced (C23_empty). The rate file uses the same layout (C30)."
  },
  {
   "property": "C24",
   "status": "proved",
   "theorems": [
    "PyBox.C24_any_schedule"
   ],
   "note": ""
  },
  {
   "property": "C25",
   "status": "proved",
   "theorems": [
    "PyBox.C25_pass_through"
   ],
   "note": ""
  },
  {
   "property": "C26",
   "status": "proved",
   "theorems": [
    "PyBox.C26_expression",
    "PyBox.C26_idempotent"
   ],
   "note": ""
  },
  {
   "property": "C27",
   "status": "partial",
   "theorems": [
    "PyBox.C27_false",
    "PyBox.C27_kept_fortran",
    "PyBox.C27_kept_numba",
    "PyBox.C27_translated_partial"
   ],
   "note": "False for all three converters: the loop restarts from the original text, so only the last name of the list is translated. C27_kept_* show the other names always survive."
  },
  {
   "property": "C28",
   "status": "proved",
   "theorems": [
    "PyBox.C28_array_references",
    "PyBox.C28_well_bracketed",
    "PyBox.C28_plain_restored",
    "PyBox.C28_plain_python_wrong"
   ],
   "note": "For the numba converter used by the drivers; the unused plain Python converter does not keep brackets (C28_plain_python_wrong)."
  },
  {
   "property": "C29",
   "status": "partial",
   "theorems": [
    "PyBox.C29_literals_partial",
    "PyBox.C29_fortran_partial",
    "PyBox.C29_altered_exact",
    "PyBox.C29_false",
    "PyBox.C29_zero_exponent"
   ],
   "note": "False for exponents starting with 0 and for identifiers with D before a digit or sign; C29_altered_exact says exactly which texts are changed."
  },
  {
   "property": "C30",
   "status": "proved",
   "theorems": [
    "PyBox.C30_one_assignment"
   ],
   "note": "Read back from the written text; also with OpenMP directives and after repeated conversion."
  },
  {
   "property": "C31",
   "status": "partial",
   "theorems": [
    "PyBox.C31_once",
    "PyBox.C31_exact",
    "PyBox.C31_radicals_partial",
    "PyBox.C31_false",
    "PyBox.C31_none_fails"
   ],
   "note": "False: nine entries of the list in the source are misspelled, so ten published radicals are never counted (among them HOCH2CO3, present in the shipped mechanisms). C31_exact is the exact condition; without any listed radical the sum raises an error (C31_none_fails)."
  },
  {
   "property": "C32",
   "status": "proved",
   "theorems": [
    "PyBox.C32_output_times",
    "PyBox.C32_any_rounding"
   ],
   "note": "C32_output_times for exact arithmetic; C32_any_rounding for any rounding of the clock."
  },
  {
   "property": "C33",
   "status": "partial",
   "theorems": [
    "PyBox.C33_exact",
    "PyBox.C32_C33_whole_batches",
    "PyBox.C33_failure",
    "PyBox.C33_false",
    "PyBox.C33_whole_seconds",
    "PyBox.C33_false_rounding"
   ],
   "note": "False: a run completes exactly when the simulated time is a whole number of batches (C33_exact); in binary64 even a whole number of batches can fail (C33_false_rounding), whole seconds never do (C33_whole_seconds)."
  },
  {
   "property": "C34",
   "status": "partial",
   "theorems": [
    "PyBox.C34_exact",
    "PyBox.C34_periodic_partial",
    "PyBox.C34_false"
   ],
   "note": "False for right-hand sides that depend on the time of day: every batch restarts the clock at start_time. C34_exact says which system is solved instead; C34_periodic_partial covers right-hand sides without time dependence."
  },
  {
   "property": "C35",
   "status": "proved",
   "theorems": [
    "PyBox.C35_gas",
    "PyBox.C35_gas_unknown",
    "PyBox.C35_aerosol",
    "PyBox.C35_aerosol_unknown"
   ],
   "note": ""
  },
  {
   "property": "C49",
   "status": "partial",
   "theorems": [
    "PyBox.C49_outcome",
    "PyBox.C49_always_fails",
    "PyBox.C49_false",
    "PyBox.C49_completes_partial"
   ],
   "note": "False: with the constants in the file the rows run out after 630 of 3600 seconds. C49_outcome gives the result for all lengths."
  },
  {
   "property": "C36",
   "status": "proved",
   "theorems": [
    "PyBox.C36_exchange",
    "PyBox.C36_total"
   ],
   "note": "For one thread; C51_breaks_conservation shows it can fail with several threads."
  },
  {
   "property": "C37",
   "status": "proved",
   "theorems": [
    "PyBox.C37_excluded"
   ],
   "note": ""
  },
  {
   "property": "C38",
   "status": "proved",
   "theorems": [
    "PyBox.C38_layout",
    "PyBox.C38_own_bin"
   ],
   "note": ""
  },
  {
   "property": "C39",
   "status": "proved",
   "theorems": [
    "PyBox.C39_rate",
    "PyBox.C39_driven",
    "PyBox.C39_radius"
   ],
   "note": "The radius is the one of spheres that hold the volume of the bin, with the constant 3.1415927 the routine uses for pi."
  },
  {
   "property": "C40",
   "status": "proved",
   "theorems": [
    "PyBox.C40_between",
    "PyBox.C40_routine",
    "PyBox.C40_decreasing",
    "PyBox.C40_accommodation"
   ],
   "note": ""
  },
  {
   "property": "C41",
   "status": "proved",
   "theorems": [
    "PyBox.C41_mass",
    "PyBox.C41_water",
    "PyBox.C41_nonneg"
   ],
   "note": ""
  },
  {
   "property": "C51",
   "status": "partial",
   "theorems": [
    "PyBox.C51_one_thread",
    "PyBox.C51_synced_partial",
    "PyBox.C51_lost_update",
    "PyBox.C51_breaks_conservation",
    "PyBox.C51_false",
    "PyBox.C51_private_repair"
   ],
   "note": "False: index1 and index2 are shared between threads, so with two bins and two threads the first bin can lose its update. C51_private_repair: declaring them private is enough."
  },
  {
   "property": "C42",
   "status": "proved",
   "theorems": [
    "PyBox.C42_split",
    "PyBox.C42_complete",
    "PyBox.C42_arrays"
   ],
   "note": ""
  },
  {
   "property": "C43",
   "status": "partial",
   "theorems": [
    "PyBox.C43_water_partial",
    "PyBox.C43_exact",
    "PyBox.C43_false",
    "PyBox.C43_layout"
   ],
   "note": "False when a species has no structure and nothing is ignored: the arrays then differ in length from the condensing species. C43_exact gives the exact condition."
  },
  {
   "property": "C44",
   "status": "partial",
   "theorems": [
    "PyBox.C44_sizes_partial",
    "PyBox.C44_narrow",
    "PyBox.C44_one_bin",
    "PyBox.C44_exact",
    "PyBox.C44_false",
    "PyBox.C44_shape"
   ],
   "note": "False for a geometric standard deviation up to 1 (numbers are nan) and for one bin (only the lower limit is used); C44_exact: these are the only exceptions."
  },
  {
   "property": "C52",
   "status": "proved",
   "theorems": [
    "PyBox.C52_admissible",
    "PyBox.C52_velocity",
    "PyBox.C52_diffusivity",
    "PyBox.C52_heavier",
    "PyBox.C52_path"
   ],
   "note": ""
  },
  {
   "property": "C53",
   "status": "proved",
   "theorems": [
    "PyBox.C53_water_slots",
    "PyBox.C53_saturated",
    "PyBox.C53_activity"
   ],
   "note": ""
  },
  {
   "property": "C54",
   "status": "proved",
   "theorems": [
    "PyBox.C54_dry_size",
    "PyBox.C54_close"
   ],
   "note": ""
  },
  {
   "property": "C45",
   "status": "proved",
   "theorems": [
    "PyBox.C45_species",
    "PyBox.C45_dense",
    "PyBox.C45_order",
    "PyBox.C45_first",
    "PyBox.C45_reads"
   ],
   "note": "C45_reads gives the exact condition under which reading succeeds; a blank line makes it fail."
  },
  {
   "property": "C46",
   "status": "partial",
   "theorems": [
    "PyBox.C46_own_partial",
    "PyBox.C46_exact",
    "PyBox.C46_objects",
    "PyBox.C46_irrelevant",
    "PyBox.C46_false",
    "PyBox.C46_first_missing"
   ],
   "note": "False: a species whose record has no structure silently gets the structure of the record before it. C46_exact says what is stored in every case."
  },
  {
   "property": "C55",
   "status": "partial",
   "theorems": [
    "PyBox.C55_value",
    "PyBox.C55_kinetics_partial",
    "PyBox.C55_no_radicals",
    "PyBox.C55_false"
   ],
   "note": "False: a reaction that repeats a reactant gets a wrong product (C55_false), and a mechanism without listed radicals raises an error on every call (C55_no_radicals). C55_value says what is computed in every case."
  },
  {
   "property": "C56",
   "status": "partial",
   "theorems": [
    "PyBox.C56_derivative",
    "PyBox.C56_exact",
    "PyBox.C56_jacobian_partial",
    "PyBox.C56_false"
   ],
   "note": "False when a rate coefficient depends on the peroxy radicals: the Jacobian leaves that dependence out (C56_exact: exactly then)."
  },
  {
   "property": "C57",
   "status": "proved",
   "theorems": [
    "PyBox.C57_coupled",
    "PyBox.C57_defined",
    "PyBox.C57_fixed_yield",
    "PyBox.C57_rate"
   ],
   "note": "For layouts in which the slots of the condensing species are distinct gases. One thread; more threads are C51."
  },
  {
   "property": "C58",
   "status": "partial",
   "theorems": [
    "PyBox.C58_exact",
    "PyBox.C58_humidity_partial",
    "PyBox.C58_saturation",
    "PyBox.C58_false"
   ],
   "note": "False as stated: the humidity is recorded with gas constant 8.314, the partitioning routine uses 8.3144598. C58_exact gives the exact relation, C58_humidity_partial the error of at most 6e-5."
  },
  {
   "property": "C59",
   "status": "proved",
   "theorems": [
    "PyBox.C59_conserved",
    "PyBox.C59_not_gained",
    "PyBox.C59_conserved_fortran",
    "PyBox.C59_not_gained_fortran"
   ],
   "note": "Python and Fortran version; the latter for mechanisms whose net coefficients the Fortran writer leaves right (C13). The solver is assumed exact; C61 shows that an exact solver exists. Without the condition on products the statement fails (C16_false)."
  },
  {
   "property": "C60",
   "status": "proved",
   "theorems": [
    "PyBox.C60_nonneg",
    "PyBox.C60_nonneg_fortran"
   ],
   "note": "The solver is assumed exact; C61 shows that an exact solver exists."
  },
  {
   "property": "C61",
   "status": "proved",
   "theorems": [
    "PyBox.C61_solution",
    "PyBox.C61_exists",
    "PyBox.C61_unique",
    "PyBox.C61_solution_fortran",
    "PyBox.C61_exists_fortran",
    "PyBox.C61_unique_fortran",
    "PyBox.radical_run",
    "PyBox.radical_run_fortran"
   ],
   "note": "No condition on repeated products (C06); Fortran versions: GainsLess (C99). A solution is continuous and satisfies the equation except at finitely many times (rates that follow the sun jump at sunrise). radical_run and radical_run_fortran are cases that meet all hypotheses of C59 to C61."
  },
  {
   "property": "C62",
   "status": "proved",
   "theorems": [
    "PyBox.C62_conserved",
    "PyBox.C62_water",
    "PyBox.C62_held",
    "PyBox.C62_not_gained",
    "PyBox.C62_fixed_yield"
   ],
   "note": "The solver is assumed exact; C64 shows that an exact solver exists. One thread (C51 is about more)."
  },
  {
   "property": "C63",
   "status": "proved",
   "theorems": [
    "PyBox.C63_nonneg",
    "PyBox.C63_fixed_yield"
   ],
   "note": "The solver is assumed exact; C64 shows that an exact solver exists."
  },
  {
   "property": "C64",
   "status": "proved",
   "theorems": [
    "PyBox.C64_exists",
    "PyBox.C64_unique",
    "PyBox.C64_exists_fixed_yield",
    "PyBox.C64_unique_fixed_yield",
    "PyBox.radical_aerosol_run",
    "PyBox.fixed_yield_run"
   ],
   "note": "radical_aerosol_run and fixed_yield_run are cases that meet the hypotheses of C62 to C64."
  },
  {
   "property": "C65",
   "status": "partial",
   "theorems": [
    "PyBox.C65_course",
    "PyBox.C65_daylight",
    "PyBox.C65_exact",
    "PyBox.C65_false",
    "PyBox.C65_continuous_partial",
    "PyBox.C65_pieces"
   ],
   "note": "Everything but continuity holds. The rates are switched off when the cosine of the zenith angle falls below 1e-30, so they jump there (C65_exact: exactly there); the jump is at most l*exp(-n*1e30) (C65_continuous_partial)."
  },
  {
   "property": "C66",
   "status": "proved",
   "theorems": [
    "PyBox.C66_value",
    "PyBox.C66_piecewise",
    "PyBox.C66_nonneg",
    "PyBox.C66_defined"
   ],
   "note": "For the backends the drivers use, over the reals. Rate texts must be expressions of the modelled language, polynomial in peroxy radicals and photolysis rates; an evaluation (a test, not a proof) found this for all 3178 distinct rate texts shipped. radical_generated is a case."
  },
  {
   "property": "C67",
   "status": "proved",
   "theorems": [
    "PyBox.C67_same"
   ],
   "note": "Over the reals; the condition on the texts is a syntactic comparison that an evaluation found to hold for all rate texts shipped. radical_generated is a case."
  },
  {
   "property": "C68",
   "status": "proved",
   "theorems": [
    "PyBox.C68_same_system",
    "PyBox.C68_same_rows",
    "PyBox.C68_exists",
    "PyBox.radical_generated"
   ],
   "note": "Over the reals with exact solvers. radical_generated is a mechanism that meets all hypotheses."
  },
  {
   "property": "C69",
   "status": "proved",
   "theorems": [
    "PyBox.C69_python",
    "PyBox.C69_fortran",
    "PyBox.C69_rates"
   ],
   "note": ""
  },
  {
   "property": "C70",
   "status": "proved",
   "theorems": [
    "PyBox.C70_reactants_python",
    "PyBox.C70_reactants_fortran",
    "PyBox.C70_tendency_python",
    "PyBox.C70_tendency_fortran",
    "PyBox.C70_jacobian_python",
    "PyBox.C70_jacobian_fortran",
    "PyBox.C70_rhs_python",
    "PyBox.C70_rhs_fortran",
    "PyBox.C70_rate_law",
    "PyBox.C70_same_jacobian"
   ],
   "note": "The rate law for mechanisms with regular reactions (C55); the other theorems for every mechanism."
  },
  {
   "property": "C71",
   "status": "proved",
   "theorems": [
    "PyBox.C71_exact",
    "PyBox.C71_one_thread",
    "PyBox.C71_synced",
    "PyBox.C71_race",
    "PyBox.C71_crossed",
    "PyBox.C71_shared"
   ],
   "note": "Over the reals; a statement of the loop is executed as a whole. C71_exact is the outcome for every order of execution; C71_race and C71_crossed are the two ways in which threads go wrong (the driver compiles with -fopenmp), C71_shared the cause."
  },
  {
   "property": "C72",
   "status": "proved",
   "theorems": [
    "PyBox.C72_files",
    "PyBox.C72_rate_law",
    "PyBox.C72_system",
    "PyBox.C72_defined",
    "PyBox.C72_handed",
    "PyBox.C72_same_system",
    "PyBox.C72_conserved",
    "PyBox.C72_nonneg",
    "PyBox.C72_exists",
    "PyBox.C72_unique"
   ],
   "note": "Over the reals, with the reading of the files of C66, C70 and C71. Existence and definedness need no recorded products. Hypotheses (single reactant names, recorded products, Fortran coefficients right, a listed peroxy radical, no damaged name) exclude the cases in which C05, C06, C13, C31 and C55 show the code to be wrong. The solver is an exact solution operator."
  },
  {
   "property": "C73",
   "status": "proved",
   "theorems": [
    "PyBox.C73_files_python",
    "PyBox.C73_files_fortran",
    "PyBox.C73_rate_law_python",
    "PyBox.C73_rate_law_fortran",
    "PyBox.C73_system_python",
    "PyBox.C73_system_fortran",
    "PyBox.C73_same_system",
    "PyBox.C73_same_rows",
    "PyBox.C73_exists",
    "PyBox.C73_results",
    "PyBox.C73_jacobian_file",
    "PyBox.C73_jacobian"
   ],
   "note": "As for C72."
  },
  {
   "property": "C74",
   "status": "partial",
   "theorems": [
    "PyBox.C74_partial",
    "PyBox.C74_reactants",
    "PyBox.C74_tendency",
    "PyBox.C74_jacobian",
    "PyBox.C74_rates",
    "PyBox.C74_partition",
    "PyBox.C74_false"
   ],
   "note": "The full statement is false (C74_false): nothing breaks the lines of Reactants_conc.f90 or of the rates. C74_partial: all lines fit if at most two molecules react in each reaction, converted rate texts have at most 107 characters, printed coefficients at most nine. C74_reactants bounds the number of reactants for any width of the coefficients. Partitioning.f90 always fits (C74_partition)."
  },
  {
   "property": "C75",
   "status": "partial",
   "theorems": [
    "PyBox.Files.C75_restart",
    "PyBox.Files.C75_own",
    "PyBox.Files.C75_anywhere",
    "PyBox.Files.C75_python",
    "PyBox.Files.C75_fortran",
    "PyBox.Files.C75_simulates",
    "PyBox.Files.C75_last",
    "PyBox.Files.C75_history",
    "PyBox.Files.C75_partial",
    "PyBox.Files.C75_mixed",
    "PyBox.Files.C75_stale",
    "PyBox.Files.C75_aerosol",
    "PyBox.Files.C75_aerosol_repaired",
    "PyBox.Files.C75_prepares_python",
    "PyBox.Files.C75_prepares_fortran",
    "PyBox.Files.C75_false"
   ],
   "note": "The full statement is false (C75_false): preparing a second mechanism with the Fortran gas driver leaves the saved tables of the first and replaces the routines, so that a restart of the first mixes the two (C75_mixed). It holds for the Python gas driver after any series of runs, failed ones included (C75_partial, C75_history, C75_last), and for a restart directly after the preparing run in both versions (C75_restart). C75_stale: a failing compiler goes unnoticed and leaves the routines of another mechanism in use. C75_aerosol: the aerosol drivers cannot restart at all, the number of reactions is never saved; it is the only thing missing (C75_aerosol_repaired). C75_simulates joins this with C73."
  },
  {
   "property": "C76",
   "status": "proved",
   "theorems": [
    "PyBox.C76_prepared",
    "PyBox.C76_humidity",
    "PyBox.C76_reported",
    "PyBox.C76_radius",
    "PyBox.C76_structures",
    "PyBox.C76_exact",
    "PyBox.C76_run",
    "PyBox.C76_determined"
   ],
   "note": "Reals are exact. C76_radius: up to one part in a hundred million, because the partitioning routine writes pi as 3.1415927 (C54). A species H2O of the mechanism itself starts at zero and is no longer reached by its name; water added by the driver is a separate entry (field gases of Ready). C76_reported: the gas is in equilibrium with the settings only up to a function of the temperature, as the driver and the solver use different formulas for the saturation pressure of water."
  },
  {
   "property": "C77",
   "status": "proved",
   "theorems": [
    "PyBox.C77_prepared",
    "PyBox.C77_activity",
    "PyBox.C77_humidity",
    "PyBox.C77_mass",
    "PyBox.C77_radius",
    "PyBox.C77_exact",
    "PyBox.C77_file",
    "PyBox.C77_system",
    "PyBox.C77_run",
    "PyBox.C77_determined"
   ],
   "note": "Reals are exact. C77_mass: what the driver hands over is the mass of its settings only near 298.3 K, as one of two conversions assumes 25 degrees; three percent less at its own 288.15 K."
  },
  {
   "property": "C78",
   "status": "proved",
   "theorems": [
    "PyBox.C78_present",
    "PyBox.C78_present_fortran"
   ],
   "note": "Reals are exact and so is the solver. Hypotheses: reactants have coefficient one (WholeReactants) and no product is dropped by the parser (ProductsKept); without the latter a product is not made (C02 to C05). RunTogether: every reaction runs between two common times of the batch, alone or with peroxy radicals, or not at all."
  },
  {
   "property": "C79",
   "status": "proved",
   "theorems": [
    "PyBox.C79_fixed_yield",
    "PyBox.C79_present",
    "PyBox.C79_yield_run"
   ],
   "note": "As C78, for the Fortran coefficients the aerosol version uses. C79_yield_run needs a positive mass and relative humidity, without which there is nothing to condense."
  },
  {
   "property": "C80",
   "status": "proved",
   "theorems": [
    "PyBox.C80_charts",
    "PyBox.C80_excluded",
    "PyBox.C80_exact",
    "PyBox.C80_title",
    "PyBox.C80_run"
   ],
   "note": "Reals are exact; the title before it is rounded to two decimals. What Matplotlib does with the bars is not modelled. C80_excluded: with species that do not condense the call fails with an index error, which the solver reports as a problem of Matplotlib; the fixed-yield driver never excludes one (C77)."
  },
  {
   "property": "C81",
   "status": "proved",
   "theorems": [
    "PyBox.C81_gas",
    "PyBox.C81_gas_fortran",
    "PyBox.C81_aerosol",
    "PyBox.C81_fixed_yield",
    "PyBox.C81_lower",
    "PyBox.C81_rounding",
    "PyBox.C81_drift",
    "PyBox.C81_drift_fortran",
    "PyBox.C81_drift_aerosol",
    "PyBox.C81_drift_fixed_yield",
    "PyBox.C81_versions",
    "PyBox.radical_near"
   ],
   "note": "The constant depends on the mechanism, the initial state and the run; the errors must be below a threshold (Reproducible). C81_rounding: a right-hand side that is off by eta along the path counts as an error of that kind. That the solver stays within the bounds is assumed. radical_near is a solver with errors that meets the hypotheses."
  },
  {
   "property": "C82",
   "status": "partial",
   "theorems": [
    "PyBox.C82_kinds_partial",
    "PyBox.C82_runs",
    "PyBox.C82_same_partial",
    "PyBox.C82_zero",
    "PyBox.C82_false"
   ],
   "note": "The statement is false for rate texts with integer divisions (C82_zero: accepted, and zero in Fortran). For texts that pass the check of kinds it holds (C82_kinds_partial), the file runs (C82_runs), and it agrees with the numba file (C82_same_partial). No rounding here; an evaluation (a test) found that all rate texts shipped pass the check."
  },
  {
   "property": "C83",
   "status": "proved",
   "theorems": [
    "PyBox.C83_coefficients",
    "PyBox.C83_rates"
   ],
   "note": "Rounding of each operation as in `ieee` (Rate/Kinds.lean): relative error 2^-24 plus 2^-150 in single precision (anything above 10^38), 2^-52 in double precision, library functions included. The analysis is a function of the rate text, proved correct for all texts and temperatures; photolysis coefficients are not covered by it. An evaluation (a test) gives all shipped rate texts without photolysis an error of at most 1.6e-5."
  },
  {
   "property": "C84",
   "status": "proved",
   "theorems": [
    "PyBox.C84_listings",
    "PyBox.C84_matrix",
    "PyBox.C84_mass_action"
   ],
   "note": "Exact arithmetic. The product with the logarithms is commented out in ODE_solver.py; the matrix is saved by write_reactants_indices."
  },
  {
   "property": "C85",
   "status": "proved",
   "theorems": [
    "PyBox.C85_photolysis",
    "PyBox.C85_rates"
   ],
   "note": "Rounding as in C83. Times up to 10^9 s. An evaluation (a test) of the analysis of C85_rates on all 3177 rate texts shipped gives each of them a relative error of at most 3.1e-5 and an absolute error of at most 4e-5 of the scales of its photolysis coefficients."
  },
  {
   "property": "C86",
   "status": "proved",
   "theorems": [
    "PyBox.C86_gas",
    "PyBox.C86_gas_fortran",
    "PyBox.C86_rounding",
    "PyBox.C86_versions",
    "PyBox.C86_exact",
    "PyBox.C86_exact_fortran",
    "PyBox.C86_aerosol",
    "PyBox.C86_aerosol_exact"
   ],
   "note": "The constant comes from Gronwall's inequality and is large for stiff mechanisms. C86_gas, C86_gas_fortran, C86_rounding and C86_versions: while both paths keep within a bound and their sums of peroxy radicals are not negative; C86_aerosol: while no concentration is negative. The exact versions need no such assumption."
  },
  {
   "property": "C87",
   "status": "proved",
   "theorems": [
    "PyBox.C87_reactants",
    "PyBox.C87_tendency",
    "PyBox.C87_jacobian",
    "PyBox.C87_partition",
    "PyBox.C87_rates",
    "PyBox.C87_mechanism",
    "PyBox.C87_uncalled"
   ],
   "note": "Statements, names and declarations as in Gen/Names.lean; OpenMP directives count as comments. Rate texts must not contain `&` or line ends. An evaluation (a test) found all names of the rate texts shipped among those declared."
  },
  {
   "property": "C88",
   "status": "proved",
   "theorems": [
    "PyBox.C88_reactants",
    "PyBox.C88_tendency",
    "PyBox.C88_exact",
    "PyBox.C88_slope",
    "PyBox.C88_sum",
    "PyBox.C88_effect",
    "PyBox.C88_python",
    "PyBox.C88_fortran"
   ],
   "note": "Double precision is taken to have an unlimited range, as in C83. Python: the errors of the rate coefficients are a hypothesis; Fortran: they come from C83 and C85. Coefficients in Fortran must lie between 0 and 1e37 unless they have few binary digits."
  },
  {
   "property": "C89",
   "status": "proved",
   "theorems": [
    "PyBox.C89_gas_batch",
    "PyBox.C89_partition_batch",
    "PyBox.C89_conserved",
    "PyBox.C89_water",
    "PyBox.C89_held",
    "PyBox.C89_ignored",
    "PyBox.C89_not_gained",
    "PyBox.C89_nonneg",
    "PyBox.C89_exists",
    "PyBox.C89_unique"
   ],
   "note": "For the rows that go with a reported time. The partitioning routine with masks is taken as it would compute if its undeclared array were declared (C87)."
  },
  {
   "property": "C90",
   "status": "partial",
   "theorems": [
    "PyBox.C90_false",
    "PyBox.C90_exact",
    "PyBox.C90_clock",
    "PyBox.C90_half_partial",
    "PyBox.C90_first_row",
    "PyBox.C90_sun"
   ],
   "note": "False as stated; C90_exact says which state each row is."
  },
  {
   "property": "C91",
   "status": "proved",
   "theorems": [
    "PyBox.C91_coefficients",
    "PyBox.C91_photolysis",
    "PyBox.C91_rates",
    "PyBox.C91_runs",
    "PyBox.C91_python"
   ],
   "note": "Numba backend, which the driver uses. All arithmetic of the file is taken in double precision of unlimited range; the addition of the elapsed time to the start time is exact."
  },
  {
   "property": "C92",
   "status": "proved",
   "theorems": [
    "PyBox.C92_results",
    "PyBox.C92_exact",
    "PyBox.C92_small",
    "PyBox.C92_direction"
   ],
   "note": "One thread (see C71 for several). Double precision of unlimited range. The reader of this routine does not keep the kinds of literals: each one that single precision does not represent may have a single-precision error, which includes those written with D0."
  },
  {
   "property": "C93",
   "status": "proved",
   "theorems": [
    "PyBox.C93_conserved",
    "PyBox.C93_small"
   ],
   "note": "One thread; computed values are real numbers (no overflow, no division by zero in the sense of IEEE)."
  },
  {
   "property": "C94",
   "status": "proved",
   "theorems": [
    "PyBox.C94_runs",
    "PyBox.C94_gas",
    "PyBox.C94_aerosol",
    "PyBox.C94_rounded",
    "PyBox.C94_fortran",
    "PyBox.C94_python",
    "PyBox.C94_fortran_slope",
    "PyBox.C94_python_slope",
    "PyBox.C94_terms",
    "PyBox.C94_radicals",
    "PyBox.C94_bounds",
    "PyBox.C94_lipschitz_aerosol",
    "PyBox.C94_sharp"
   ],
   "note": "The runs are assumed to stay in the set of states on which the bounds hold. The elapsed time is added to the start time without error."
  },
  {
   "property": "C95",
   "status": "proved",
   "theorems": [
    "PyBox.C95_slope",
    "PyBox.C95_runs",
    "PyBox.C95_bounds"
   ],
   "note": "One thread in the partitioning routine. Core masses and vapour pressures, which dydt_func computes in the same way in every call, are handed over without rounding errors. C95_bounds needs a non-negative surface tension."
  },
  {
   "property": "C96",
   "status": "proved",
   "theorems": [
    "PyBox.C96_between",
    "PyBox.C96_versions"
   ],
   "note": "As for C94. radical_versions is a case, with the existence of all bounds and of both right-hand sides."
  },
  {
   "property": "C97",
   "status": "partial",
   "theorems": [
    "PyBox.C97_partial",
    "PyBox.C97_KBPPN",
    "PyBox.C97_limits",
    "PyBox.C97_KBPPN_half",
    "PyBox.C97_false"
   ],
   "note": "The code makes the full statement false (C97_false): KBPPN. C97_partial has the other 38 coefficients, C97_KBPPN the exact value of this one. The table of laws was written from the formulas named in the comments of the code (IUPAC, MCM); the publications themselves were not at hand."
  },
  {
   "property": "C98",
   "status": "proved",
   "theorems": [
    "PyBox.C98_formulas",
    "PyBox.C98_vapour",
    "PyBox.C98_reported"
   ],
   "note": "C98_reported needs the value of the constant of Avogadro that the driver sets."
  },
  {
   "property": "C99",
   "status": "proved",
   "theorems": [
    "PyBox.C99_recorded",
    "PyBox.C99_kinetics",
    "PyBox.C99_conserved_iff",
    "PyBox.C99_conserved",
    "PyBox.C99_never_more",
    "PyBox.C99_never_more_fortran",
    "PyBox.C99_aerosol",
    "PyBox.C99_split",
    "PyBox.C99_lost",
    "PyBox.C99_lost_fortran",
    "PyBox.C99_aerosol_lost",
    "PyBox.lossy_run",
    "PyBox.lossy_aerosol_run"
   ],
   "note": "C99_kinetics and C99_conserved_iff need an entry in the tables for every species that is not held constant (AllWritten; without it the right-hand side is not defined, C18) and a listed peroxy radical. Fortran versions: where the writer alters the coefficient of a product it alters that of the reactant of the same name (GainsLess). lossy_run and lossy_aerosol_run: three reactions of the shipped alpha-pinene mechanism meet all hypotheses and strictly lose."
  },
  {
   "property": "C100",
   "status": "proved",
   "theorems": [
    "PyBox.C100_same_species",
    "PyBox.C100_tendencies",
    "PyBox.C100_tendencies_fortran",
    "PyBox.C100_rows",
    "PyBox.C100_rows_fortran",
    "PyBox.C100_files_python",
    "PyBox.C100_files_fortran",
    "PyBox.C100_order_of_products",
    "PyBox.swapped_reordered",
    "PyBox.swapped_run"
   ],
   "note": "SameReaction: same reactants, products, recorded products and rate text up to order; for reactions that are recorded correctly the recorded products agree by themselves (SameReaction.of_good). C100_order_of_products: for a reaction of the shipped alpha-pinene mechanism another order of its products gives other tables. Exact solvers; for particles see C101."
  },
  {
   "property": "C101",
   "status": "proved",
   "theorems": [
    "PyBox.C101_tendencies",
    "PyBox.C101_soa",
    "PyBox.C101_rows",
    "PyBox.C101_files",
    "PyBox.C101_fixed_yield",
    "PyBox.swapped_particles",
    "PyBox.swapped_aerosol_run"
   ],
   "note": "SameSlot pairs the places of the state; SameParticles says that the properties belong to the species. Exact solvers, one thread in the partitioning routine."
  },
  {
   "property": "C102",
   "status": "proved",
   "theorems": [
    "PyBox.C102_between",
    "PyBox.C102_python",
    "PyBox.C102_fortran",
    "PyBox.swapped_rounded_runs"
   ],
   "note": "C102_between is for any two systems that correspond under a renaming; the bound K is that of the first file. Gas simulations."
  },
  {
   "property": "C103",
   "status": "proved",
   "theorems": [
    "PyBox.C103_species",
    "PyBox.C103_added",
    "PyBox.C103_tendencies",
    "PyBox.C103_tendencies_fortran",
    "PyBox.C103_rows",
    "PyBox.C103_rows_fortran",
    "PyBox.C103_files_python",
    "PyBox.C103_files_fortran",
    "PyBox.C103_consumed",
    "PyBox.eaten_written",
    "PyBox.tracer_run"
   ],
   "note": "Tracers is a condition on what is recorded; LeavesAlone.of_good gives it for reactions recorded correctly. C103_consumed: written as a tracer, recorded as a sink. Gas simulations, exact solvers."
  },
  {
   "property": "C104",
   "status": "proved",
   "theorems": [
    "PyBox.C104_species",
    "PyBox.C104_tendencies",
    "PyBox.C104_rows",
    "PyBox.C104_files_python",
    "PyBox.C104_tendencies_fortran",
    "PyBox.C104_fortran_differs",
    "PyBox.merged_split_text",
    "PyBox.channel_run"
   ],
   "note": "Channels is a condition on the recorded products and on the values of the rate texts. C104_fortran_differs: the two files of the example, for all rates, states and numbers of cores. Gas simulations, exact solvers."
  },
  {
   "property": "C105",
   "status": "proved",
   "theorems": [
    "PyBox.C105_tendencies",
    "PyBox.C105_soa",
    "PyBox.C105_rows",
    "PyBox.C105_files",
    "PyBox.tracer_none",
    "PyBox.tracer_aerosol_run"
   ],
   "note": "NoneCondense: every condensing species of the second simulation is one of the first. What a condensing tracer does to the others is not stated. Exact solvers."
  },
  {
   "property": "C106",
   "status": "proved",
   "theorems": [
    "PyBox.C106_size",
    "PyBox.C106_tendencies",
    "PyBox.C106_totals",
    "PyBox.C106_soa",
    "PyBox.C106_rows",
    "PyBox.C106_fixed_yield",
    "PyBox.C106_files",
    "PyBox.divided_bins",
    "PyBox.divided_run"
   ],
   "note": "DividedBins gives the division and its shares, SharedState the gas and the shares of the condensed matter. Over the reals, exact solvers. How the driver chooses the bins is not part of this."
  },
  {
   "property": "C107",
   "status": "proved",
   "theorems": [
    "PyBox.C107_rates_day",
    "PyBox.C107_day_python",
    "PyBox.C107_day_fortran",
    "PyBox.C107_day_aerosol",
    "PyBox.C107_running_python",
    "PyBox.C107_running_fortran",
    "PyBox.C107_running_aerosol",
    "PyBox.C107_night"
   ],
   "note": "What C34 says of any right-hand side, here from the texts of the generated files: Sunless and ClockHarmless speak of the parsed rate texts. C107_night is about radicalText; that other systems with photolysis report something else than the uninterrupted solution is not claimed in general. Over the reals, exact solvers."
  },
  {
   "property": "C108",
   "status": "proved",
   "theorems": [
    "PyBox.C108_tendencies",
    "PyBox.C108_rows",
    "PyBox.C108_rows_fortran",
    "PyBox.C108_files_python",
    "PyBox.C108_files_fortran",
    "PyBox.C108_monotone",
    "PyBox.generated_radicalFree"
   ],
   "note": "FirstOrder speaks of the reactions of the file, RadicalFree of the parsed rate texts; chain_run is a concrete case with photolysis and a peroxy radical. Over the reals, exact solvers."
  },
  {
   "property": "C109",
   "status": "proved",
   "theorems": [
    "PyBox.C109_tendencies",
    "PyBox.C109_rows",
    "PyBox.C109_rows_fortran",
    "PyBox.C109_files_python",
    "PyBox.C109_files_fortran",
    "PyBox.generated_steady"
   ],
   "note": "OfOrder speaks of the reactions of the file, Sunless and RadicalFree of the parsed rate texts; pair_run is a concrete case. A reactant written twice is excluded because the code gives it the wrong power. Over the reals, exact solvers."
  },
  {
   "property": "C110",
   "status": "proved",
   "theorems": [
    "PyBox.C110_places",
    "PyBox.C110_system",
    "PyBox.C110_system_fortran",
    "PyBox.C110_system_aerosol",
    "PyBox.C110_files_python",
    "PyBox.C110_files_fortran",
    "PyBox.C110_files_aerosol",
    "PyBox.C110_rows_python",
    "PyBox.C110_rows_fortran",
    "PyBox.C110_rows_aerosol"
   ],
   "note": "Renaming and renamed speak of the reactions read from the files; that both files are accepted and read so is a hypothesis, since a new name may contain a separator. renamed_system is a concrete case in which a peroxy radical and NO2 get new names. Over the reals."
  },
  {
   "property": "C47",
   "status": "proved",
   "theorems": [
    "PyBox.C47_photolysis",
    "PyBox.C47_other_slots",
    "PyBox.C47_plain_python_undefined"
   ],
   "note": "For the backends the drivers use. The unused plain Python writer raises a negative number to a fractional power at night (C47_plain_python_undefined)."
  },
  {
   "property": "C48",
   "status": "proved",
   "theorems": [
    "PyBox.C48_same_coefficients",
    "PyBox.C48_same_photolysis"
   ],
   "note": "Over the reals; see C82 for the kinds of Fortran literals."
  },
  {
   "property": "C50",
   "status": "proved",
   "theorems": [
    "PyBox.C50_defined_positive",
    "PyBox.C50_names"
   ],
   "note": ""
  }
 ]
}