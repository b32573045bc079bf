import json
C=[]
def c(p,status,theorems,note=""):
    C.append(dict(property=p,status=status,theorems=["PyBox."+t for t in theorems],note=note))
c("C01","proved",["C01_inverse","C01_indices","C01_no_photon","C01_order"])
c("C02","proved",["C02_tables_indexed","C02_indexed_iff"],"The photon marker 'hv' can be a key of the gain table with an empty entry; it is not a species (C01_no_photon).")
c("C03","proved",["C03_round_trip"])
c("C04","proved",["C04_line_breaks","C04_tabs"])
c("C05","proved",["C05_loss_coefficients"])
c("C06","partial",["C06_gain_coefficients_partial","C06_exact","C06_false","C06_false_dropped"],"False in general (C06_false): line 282 tests the last reactant. Proved exactly when it holds.")
c("C07","partial",["C07_bare_name","C07_coefficient_partial","C07_wrong","C07_false"],"False for names containing a digit (C07_wrong: always wrong there).")
c("C08","proved",["C08_accepts_iff","C08_rejects","C08_rate_count","C08_integer","C08_negative","pyInt_iff"])
c("C09","proved",["C09_extension"])
c("C10","partial",["C10_value","C10_mass_action_partial","C10_exact","C10_false"],"False when a reactant is written more than once (each occurrence is raised to the summed coefficient). C10_exact gives the condition.")
c("C11","proved",["C11_same_programs","C11_same_factors","C11_photon_only"],"C11_photon_only records the one case where neither routine writes the cell.")
c("C12","proved",["C12_gain_minus_loss","C12_written"])
c("C13","partial",["C13_value","C13_exact","C13_same_partial","C13_false"],"False for coefficients other than one: the Fortran generator writes the coefficient plus one. C13_exact gives the condition.")
c("C14","partial",["C14_exact","C14_matrix_partial","C14_false"],"False when a species occurs on both sides of a reaction. C14_exact gives the condition.")
c("C15","proved",["C15_constant","C15_never_written","C15_jacobian_rows"])
c("C16","partial",["C16_conservation_partial","C16_false"],"False when a repeated product is recorded wrongly (C06).")
c("C17","proved",["C17_quasi_positive"])
c("C18","partial",["C18_valid_iff","C18_valid_iff_fortran","C18_valid_partial","C18_false"],"False when the parser drops the only occurrence of a species; C18_valid_iff is the exact condition.")
c("C19","partial",["C19_exact","C19_derivative_partial","C19_false"],"False for repeated reactants and coefficients other than one; C19_exact gives the condition reaction by reaction.")
c("C20","proved",["C20_same_matrix"])
c("C21","proved",["C21_order_independent"])
c("C22","proved",["C22_sparsity_sound"])
c("C23","proved",["C23_work_splitting","C23_balanced","withOmp_region","C23_empty"],"With no lines at all the region is unbalanced (C23_empty). The rate file uses the same layout (C30).")
c("C24","proved",["C24_any_schedule"])
c("C25","proved",["C25_pass_through"])
c("C26","proved",["C26_expression","C26_idempotent"])
c("C27","partial",["C27_false","C27_kept_fortran","C27_kept_numba","C27_translated_partial"],"False for all three converters: the loop restarts from the original text, so only the last name of the list is translated. C27_kept_* show the other names always survive.")
c("C28","proved",["C28_array_references","C28_well_bracketed","C28_plain_restored","C28_plain_python_wrong"],"For the numba converter used by the drivers; the unused plain Python converter does not keep brackets (C28_plain_python_wrong).")
c("C29","partial",["C29_literals_partial","C29_fortran_partial","C29_altered_exact","C29_false","C29_zero_exponent"],"False for exponents starting with 0 and for identifiers with D before a digit or sign; C29_altered_exact says exactly which texts are changed.")
c("C30","proved",["C30_one_assignment"],"Read back from the written text; also with OpenMP directives and after repeated conversion.")
c("C31","partial",["C31_once","C31_exact","C31_radicals_partial","C31_false","C31_none_fails"],"False: nine entries of the list in the source are misspelled, so ten published radicals are never counted (among them HOCH2CO3, present in the shipped mechanisms). C31_exact is the exact condition; without any listed radical the sum raises an error (C31_none_fails).")
c("C32","proved",["C32_output_times","C32_any_rounding"],"C32_output_times for exact arithmetic; C32_any_rounding for any rounding of the clock.")
c("C33","partial",["C33_exact","C32_C33_whole_batches","C33_failure","C33_false","C33_whole_seconds","C33_false_rounding"],"False: a run completes exactly when the simulated time is a whole number of batches (C33_exact); in binary64 even a whole number of batches can fail (C33_false_rounding), whole seconds never do (C33_whole_seconds).")
c("C34","partial",["C34_exact","C34_periodic_partial","C34_false"],"False for right-hand sides that depend on the time of day: every batch restarts the clock at start_time. C34_exact says which system is solved instead; C34_periodic_partial covers right-hand sides without time dependence.")
c("C35","proved",["C35_gas","C35_gas_unknown","C35_aerosol","C35_aerosol_unknown"])
c("C49","partial",["C49_outcome","C49_always_fails","C49_false","C49_completes_partial"],"False: with the constants in the file the rows run out after 630 of 3600 seconds. C49_outcome gives the result for all lengths.")
c("C36","proved",["C36_exchange","C36_total"],"For one thread; C51_breaks_conservation shows it can fail with several threads.")
c("C37","proved",["C37_excluded"])
c("C38","proved",["C38_layout","C38_own_bin"])
c("C39","proved",["C39_rate","C39_driven","C39_radius"],"The radius is the one of spheres that hold the volume of the bin, with the constant 3.1415927 the routine uses for pi.")
c("C40","proved",["C40_between","C40_routine","C40_decreasing","C40_accommodation"])
c("C41","proved",["C41_mass","C41_water","C41_nonneg"])
c("C51","partial",["C51_one_thread","C51_synced_partial","C51_lost_update","C51_breaks_conservation","C51_false","C51_private_repair"],"False: index1 and index2 are shared between threads, so with two bins and two threads the first bin can lose its update. C51_private_repair: declaring them private is enough.")
c("C42","proved",["C42_split","C42_complete","C42_arrays"],"")
c("C43","partial",["C43_water_partial","C43_exact","C43_false","C43_layout"],"False when a species has no structure and nothing is ignored: the arrays then differ in length from the condensing species. C43_exact gives the exact condition.")
c("C44","partial",["C44_sizes_partial","C44_narrow","C44_one_bin","C44_exact","C44_false","C44_shape"],"False for a geometric standard deviation up to 1 (numbers are nan) and for one bin (only the lower limit is used); C44_exact: these are the only exceptions.")
c("C52","proved",["C52_admissible","C52_velocity","C52_diffusivity","C52_heavier","C52_path"],"")
c("C53","proved",["C53_water_slots","C53_saturated","C53_activity"],"")
c("C54","proved",["C54_dry_size","C54_close"],"")
c("C45","proved",["C45_species","C45_dense","C45_order","C45_first","C45_reads"],"C45_reads gives the exact condition under which reading succeeds; a blank line makes it fail.")
c("C46","partial",["C46_own_partial","C46_exact","C46_objects","C46_irrelevant","C46_false","C46_first_missing"],"False: a species whose record has no structure silently gets the structure of the record before it. C46_exact says what is stored in every case.")
c("C55","partial",["C55_value","C55_kinetics_partial","C55_no_radicals","C55_false"],"False: a reaction that repeats a reactant gets a wrong product (C55_false), and a mechanism without listed radicals raises an error on every call (C55_no_radicals). C55_value says what is computed in every case.")
c("C56","partial",["C56_derivative","C56_exact","C56_jacobian_partial","C56_false"],"False when a rate coefficient depends on the peroxy radicals: the Jacobian leaves that dependence out (C56_exact: exactly then).")
c("C57","proved",["C57_coupled","C57_defined","C57_fixed_yield","C57_rate"],"For layouts in which the slots of the condensing species are distinct gases. One thread; more threads are C51.")
c("C58","partial",["C58_exact","C58_humidity_partial","C58_saturation","C58_false"],"False as stated: the humidity is recorded with gas constant 8.314, the partitioning routine uses 8.3144598. C58_exact gives the exact relation, C58_humidity_partial the error of at most 6e-5.")
c("C59","proved",["C59_conserved","C59_not_gained","C59_conserved_fortran","C59_not_gained_fortran"],"Python and Fortran version; the latter for mechanisms whose net coefficients the Fortran writer leaves right (C13). The solver is assumed exact; C61 shows that an exact solver exists. Without the condition on products the statement fails (C16_false).")
c("C60","proved",["C60_nonneg","C60_nonneg_fortran"],"The solver is assumed exact; C61 shows that an exact solver exists.")
c("C61","proved",["C61_solution","C61_exists","C61_unique","C61_solution_fortran","C61_exists_fortran","C61_unique_fortran","radical_run","radical_run_fortran"],"No condition on repeated products (C06); Fortran versions: GainsLess (C99). A solution is continuous and satisfies the equation except at finitely many times (rates that follow the sun jump at sunrise). radical_run and radical_run_fortran are cases that meet all hypotheses of C59 to C61.")
c("C62","proved",["C62_conserved","C62_water","C62_held","C62_not_gained","C62_fixed_yield"],"The solver is assumed exact; C64 shows that an exact solver exists. One thread (C51 is about more).")
c("C63","proved",["C63_nonneg","C63_fixed_yield"],"The solver is assumed exact; C64 shows that an exact solver exists.")
c("C64","proved",["C64_exists","C64_unique","C64_exists_fixed_yield","C64_unique_fixed_yield","radical_aerosol_run","fixed_yield_run"],"radical_aerosol_run and fixed_yield_run are cases that meet the hypotheses of C62 to C64.")
c("C65","partial",["C65_course","C65_daylight","C65_exact","C65_false","C65_continuous_partial","C65_pieces"],"Everything but continuity holds. The rates are switched off when the cosine of the zenith angle falls below 1e-30, so they jump there (C65_exact: exactly there); the jump is at most l*exp(-n*1e30) (C65_continuous_partial).")
c("C66","proved",["C66_value","C66_piecewise","C66_nonneg","C66_defined"],"For the backends the drivers use, over the reals. Rate texts must be expressions of the modelled language, polynomial in peroxy radicals and photolysis rates; an evaluation (a test, not a proof) found this for all 3178 distinct rate texts shipped. radical_generated is a case.")
c("C67","proved",["C67_same"],"Over the reals; the condition on the texts is a syntactic comparison that an evaluation found to hold for all rate texts shipped. radical_generated is a case.")
c("C68","proved",["C68_same_system","C68_same_rows","C68_exists","radical_generated"],"Over the reals with exact solvers. radical_generated is a mechanism that meets all hypotheses.")
c("C69","proved",["C69_python","C69_fortran","C69_rates"])
c("C70","proved",["C70_reactants_python","C70_reactants_fortran","C70_tendency_python","C70_tendency_fortran","C70_jacobian_python","C70_jacobian_fortran","C70_rhs_python","C70_rhs_fortran","C70_rate_law","C70_same_jacobian"],"The rate law for mechanisms with regular reactions (C55); the other theorems for every mechanism.")
c("C71","proved",["C71_exact","C71_one_thread","C71_synced","C71_race","C71_crossed","C71_shared"],"Over the reals; a statement of the loop is executed as a whole. C71_exact is the outcome for every order of execution; C71_race and C71_crossed are the two ways in which threads go wrong (the driver compiles with -fopenmp), C71_shared the cause.")
c("C72","proved",["C72_files","C72_rate_law","C72_system","C72_defined","C72_handed","C72_same_system","C72_conserved","C72_nonneg","C72_exists","C72_unique"],"Over the reals, with the reading of the files of C66, C70 and C71. Existence and definedness need no recorded products. Hypotheses (single reactant names, recorded products, Fortran coefficients right, a listed peroxy radical, no damaged name) exclude the cases in which C05, C06, C13, C31 and C55 show the code to be wrong. The solver is an exact solution operator.")
c("C73","proved",["C73_files_python","C73_files_fortran","C73_rate_law_python","C73_rate_law_fortran","C73_system_python","C73_system_fortran","C73_same_system","C73_same_rows","C73_exists","C73_results","C73_jacobian_file","C73_jacobian"],"As for C72.")
c("C74","partial",["C74_partial","C74_reactants","C74_tendency","C74_jacobian","C74_rates","C74_partition","C74_false"],"The full statement is false (C74_false): nothing breaks the lines of Reactants_conc.f90 or of the rates. C74_partial: all lines fit if at most two molecules react in each reaction, converted rate texts have at most 107 characters, printed coefficients at most nine. C74_reactants bounds the number of reactants for any width of the coefficients. Partitioning.f90 always fits (C74_partition).")
c("C75","partial",["Files.C75_restart","Files.C75_own","Files.C75_anywhere","Files.C75_python","Files.C75_fortran","Files.C75_simulates","Files.C75_last","Files.C75_history","Files.C75_partial","Files.C75_mixed","Files.C75_stale","Files.C75_aerosol","Files.C75_aerosol_repaired","Files.C75_prepares_python","Files.C75_prepares_fortran","Files.C75_false"],"The full statement is false (C75_false): preparing a second mechanism with the Fortran gas driver leaves the saved tables of the first and replaces the routines, so that a restart of the first mixes the two (C75_mixed). It holds for the Python gas driver after any series of runs, failed ones included (C75_partial, C75_history, C75_last), and for a restart directly after the preparing run in both versions (C75_restart). C75_stale: a failing compiler goes unnoticed and leaves the routines of another mechanism in use. C75_aerosol: the aerosol drivers cannot restart at all, the number of reactions is never saved; it is the only thing missing (C75_aerosol_repaired). C75_simulates joins this with C73.")
c("C76","proved",["C76_prepared","C76_humidity","C76_reported","C76_radius","C76_structures","C76_exact","C76_run","C76_determined"],"Reals are exact. C76_radius: up to one part in a hundred million, because the partitioning routine writes pi as 3.1415927 (C54). A species H2O of the mechanism itself starts at zero and is no longer reached by its name; water added by the driver is a separate entry (field gases of Ready). C76_reported: the gas is in equilibrium with the settings only up to a function of the temperature, as the driver and the solver use different formulas for the saturation pressure of water.")
c("C77","proved",["C77_prepared","C77_activity","C77_humidity","C77_mass","C77_radius","C77_exact","C77_file","C77_system","C77_run","C77_determined"],"Reals are exact. C77_mass: what the driver hands over is the mass of its settings only near 298.3 K, as one of two conversions assumes 25 degrees; three percent less at its own 288.15 K.")
c("C78","proved",["C78_present","C78_present_fortran"],"Reals are exact and so is the solver. Hypotheses: reactants have coefficient one (WholeReactants) and no product is dropped by the parser (ProductsKept); without the latter a product is not made (C02 to C05). RunTogether: every reaction runs between two common times of the batch, alone or with peroxy radicals, or not at all.")
c("C79","proved",["C79_fixed_yield","C79_present","C79_yield_run"],"As C78, for the Fortran coefficients the aerosol version uses. C79_yield_run needs a positive mass and relative humidity, without which there is nothing to condense.")
c("C80","proved",["C80_charts","C80_excluded","C80_exact","C80_title","C80_run"],"Reals are exact; the title before it is rounded to two decimals. What Matplotlib does with the bars is not modelled. C80_excluded: with species that do not condense the call fails with an index error, which the solver reports as a problem of Matplotlib; the fixed-yield driver never excludes one (C77).")
c("C81","proved",["C81_gas","C81_gas_fortran","C81_aerosol","C81_fixed_yield","C81_lower","C81_rounding","C81_drift","C81_drift_fortran","C81_drift_aerosol","C81_drift_fixed_yield","C81_versions","radical_near"],"The constant depends on the mechanism, the initial state and the run; the errors must be below a threshold (Reproducible). C81_rounding: a right-hand side that is off by eta along the path counts as an error of that kind. That the solver stays within the bounds is assumed. radical_near is a solver with errors that meets the hypotheses.")
c("C82","partial",["C82_kinds_partial","C82_runs","C82_same_partial","C82_zero","C82_false"],"The statement is false for rate texts with integer divisions (C82_zero: accepted, and zero in Fortran). For texts that pass the check of kinds it holds (C82_kinds_partial), the file runs (C82_runs), and it agrees with the numba file (C82_same_partial). No rounding here; an evaluation (a test) found that all rate texts shipped pass the check.")
c("C83","proved",["C83_coefficients","C83_rates"],"Rounding of each operation as in `ieee` (Rate/Kinds.lean): relative error 2^-24 plus 2^-150 in single precision (anything above 10^38), 2^-52 in double precision, library functions included. The analysis is a function of the rate text, proved correct for all texts and temperatures; photolysis coefficients are not covered by it. An evaluation (a test) gives all shipped rate texts without photolysis an error of at most 1.6e-5.")
c("C84","proved",["C84_listings","C84_matrix","C84_mass_action"],"Exact arithmetic. The product with the logarithms is commented out in ODE_solver.py; the matrix is saved by write_reactants_indices.")
c("C85","proved",["C85_photolysis","C85_rates"],"Rounding as in C83. Times up to 10^9 s. An evaluation (a test) of the analysis of C85_rates on all 3177 rate texts shipped gives each of them a relative error of at most 3.1e-5 and an absolute error of at most 4e-5 of the scales of its photolysis coefficients.")
c("C86","proved",["C86_gas","C86_gas_fortran","C86_rounding","C86_versions","C86_exact","C86_exact_fortran","C86_aerosol","C86_aerosol_exact"],"The constant comes from Gronwall's inequality and is large for stiff mechanisms. C86_gas, C86_gas_fortran, C86_rounding and C86_versions: while both paths keep within a bound and their sums of peroxy radicals are not negative; C86_aerosol: while no concentration is negative. The exact versions need no such assumption.")
c("C87","proved",["C87_reactants","C87_tendency","C87_jacobian","C87_partition","C87_rates","C87_mechanism","C87_uncalled"],"Statements, names and declarations as in Gen/Names.lean; OpenMP directives count as comments. Rate texts must not contain `&` or line ends. An evaluation (a test) found all names of the rate texts shipped among those declared.")
c("C88","proved",["C88_reactants","C88_tendency","C88_exact","C88_slope","C88_sum","C88_effect","C88_python","C88_fortran"],"Double precision is taken to have an unlimited range, as in C83. Python: the errors of the rate coefficients are a hypothesis; Fortran: they come from C83 and C85. Coefficients in Fortran must lie between 0 and 1e37 unless they have few binary digits.")
c("C89","proved",["C89_gas_batch","C89_partition_batch","C89_conserved","C89_water","C89_held","C89_ignored","C89_not_gained","C89_nonneg","C89_exists","C89_unique"],"For the rows that go with a reported time. The partitioning routine with masks is taken as it would compute if its undeclared array were declared (C87).")
c("C90","partial",["C90_false","C90_exact","C90_clock","C90_half_partial","C90_first_row","C90_sun"],"False as stated; C90_exact says which state each row is.")
c("C91","proved",["C91_coefficients","C91_photolysis","C91_rates","C91_runs","C91_python"],"Numba backend, which the driver uses. All arithmetic of the file is taken in double precision of unlimited range; the addition of the elapsed time to the start time is exact.")
c("C92","proved",["C92_results","C92_exact","C92_small","C92_direction"],"One thread (see C71 for several). Double precision of unlimited range. The reader of this routine does not keep the kinds of literals: each one that single precision does not represent may have a single-precision error, which includes those written with D0.")
c("C93","proved",["C93_conserved","C93_small"],"One thread; computed values are real numbers (no overflow, no division by zero in the sense of IEEE).")
c("C94","proved",["C94_runs","C94_gas","C94_aerosol","C94_rounded","C94_fortran","C94_python","C94_fortran_slope","C94_python_slope","C94_terms","C94_radicals","C94_bounds","C94_lipschitz_aerosol","C94_sharp"],"The runs are assumed to stay in the set of states on which the bounds hold. The elapsed time is added to the start time without error.")
c("C95","proved",["C95_slope","C95_runs","C95_bounds"],"One thread in the partitioning routine. Core masses and vapour pressures, which dydt_func computes in the same way in every call, are handed over without rounding errors. C95_bounds needs a non-negative surface tension.")
c("C96","proved",["C96_between","C96_versions"],"As for C94. radical_versions is a case, with the existence of all bounds and of both right-hand sides.")
c("C97","partial",["C97_partial","C97_KBPPN","C97_limits","C97_KBPPN_half","C97_false"],"The code makes the full statement false (C97_false): KBPPN. C97_partial has the other 38 coefficients, C97_KBPPN the exact value of this one. The table of laws was written from the formulas named in the comments of the code (IUPAC, MCM); the publications themselves were not at hand.")
c("C98","proved",["C98_formulas","C98_vapour","C98_reported"],"C98_reported needs the value of the constant of Avogadro that the driver sets.")
c("C99","proved",["C99_recorded","C99_kinetics","C99_conserved_iff","C99_conserved","C99_never_more","C99_never_more_fortran","C99_aerosol","C99_split","C99_lost","C99_lost_fortran","C99_aerosol_lost","lossy_run","lossy_aerosol_run"],"C99_kinetics and C99_conserved_iff need an entry in the tables for every species that is not held constant (AllWritten; without it the right-hand side is not defined, C18) and a listed peroxy radical. Fortran versions: where the writer alters the coefficient of a product it alters that of the reactant of the same name (GainsLess). lossy_run and lossy_aerosol_run: three reactions of the shipped alpha-pinene mechanism meet all hypotheses and strictly lose.")
c("C100","proved",["C100_same_species","C100_tendencies","C100_tendencies_fortran","C100_rows","C100_rows_fortran","C100_files_python","C100_files_fortran","C100_order_of_products","swapped_reordered","swapped_run"],"SameReaction: same reactants, products, recorded products and rate text up to order; for reactions that are recorded correctly the recorded products agree by themselves (SameReaction.of_good). C100_order_of_products: for a reaction of the shipped alpha-pinene mechanism another order of its products gives other tables. Exact solvers; for particles see C101.")
c("C101","proved",["C101_tendencies","C101_soa","C101_rows","C101_files","C101_fixed_yield","swapped_particles","swapped_aerosol_run"],"SameSlot pairs the places of the state; SameParticles says that the properties belong to the species. Exact solvers, one thread in the partitioning routine.")
c("C102","proved",["C102_between","C102_python","C102_fortran","swapped_rounded_runs"],"C102_between is for any two systems that correspond under a renaming; the bound K is that of the first file. Gas simulations.")
c("C103","proved",["C103_species","C103_added","C103_tendencies","C103_tendencies_fortran","C103_rows","C103_rows_fortran","C103_files_python","C103_files_fortran","C103_consumed","eaten_written","tracer_run"],"Tracers is a condition on what is recorded; LeavesAlone.of_good gives it for reactions recorded correctly. C103_consumed: written as a tracer, recorded as a sink. Gas simulations, exact solvers.")
c("C104","proved",["C104_species","C104_tendencies","C104_rows","C104_files_python","C104_tendencies_fortran","C104_fortran_differs","merged_split_text","channel_run"],"Channels is a condition on the recorded products and on the values of the rate texts. C104_fortran_differs: the two files of the example, for all rates, states and numbers of cores. Gas simulations, exact solvers.")
c("C105","proved",["C105_tendencies","C105_soa","C105_rows","C105_files","tracer_none","tracer_aerosol_run"],"NoneCondense: every condensing species of the second simulation is one of the first. What a condensing tracer does to the others is not stated. Exact solvers.")
c("C106","proved",["C106_size","C106_tendencies","C106_totals","C106_soa","C106_rows","C106_fixed_yield","C106_files","divided_bins","divided_run"],"DividedBins gives the division and its shares, SharedState the gas and the shares of the condensed matter. Over the reals, exact solvers. How the driver chooses the bins is not part of this.")
c("C107","proved",["C107_rates_day","C107_day_python","C107_day_fortran","C107_day_aerosol","C107_running_python","C107_running_fortran","C107_running_aerosol","C107_night"],"What C34 says of any right-hand side, here from the texts of the generated files: Sunless and ClockHarmless speak of the parsed rate texts. C107_night is about radicalText; that other systems with photolysis report something else than the uninterrupted solution is not claimed in general. Over the reals, exact solvers.")
c("C108","proved",["C108_tendencies","C108_rows","C108_rows_fortran","C108_files_python","C108_files_fortran","C108_monotone","generated_radicalFree"],"FirstOrder speaks of the reactions of the file, RadicalFree of the parsed rate texts; chain_run is a concrete case with photolysis and a peroxy radical. Over the reals, exact solvers.")
c("C109","proved",["C109_tendencies","C109_rows","C109_rows_fortran","C109_files_python","C109_files_fortran","generated_steady"],"OfOrder speaks of the reactions of the file, Sunless and RadicalFree of the parsed rate texts; pair_run is a concrete case. A reactant written twice is excluded because the code gives it the wrong power. Over the reals, exact solvers.")
c("C110","proved",["C110_places","C110_system","C110_system_fortran","C110_system_aerosol","C110_files_python","C110_files_fortran","C110_files_aerosol","C110_rows_python","C110_rows_fortran","C110_rows_aerosol"],"Renaming and renamed speak of the reactions read from the files; that both files are accepted and read so is a hypothesis, since a new name may contain a separator. renamed_system is a concrete case in which a peroxy radical and NO2 get new names. Over the reals.")
c("C47","proved",["C47_photolysis","C47_other_slots","C47_plain_python_undefined"],"For the backends the drivers use. The unused plain Python writer raises a negative number to a fractional power at night (C47_plain_python_undefined).")
c("C48","proved",["C48_same_coefficients","C48_same_photolysis"],"Over the reals; see C82 for the kinds of Fortran literals.")
c("C50","proved",["C50_defined_positive","C50_names"])
json.dump({"claims":C},open("/verif/MANIFEST.json","w"),indent=1)
