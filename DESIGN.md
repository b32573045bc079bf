# Formal model of PyBox: design and trusted base

Everything is in Lean 4.33.0 with single Mathlib modules, under `lean/Verif/`. `/repo` is only read as
text; it is never run. `properties.jsonl` lists the properties, `MANIFEST.json` the theorems for each,
`seeded/LOG.jsonl` the wrong programs the theorems were tested against. `tools/props.py`,
`tools/manifest.py` and `tools/design.py` write `properties.jsonl`, `MANIFEST.json` and this file.

## Method

* The code is modelled function by function as Lean functions (a shallow embedding). A definition cites
  the file and lines it models. Exceptions are values (`Except PyErr`), loops are folds or structural
  recursion, strings are lists of characters, dictionaries are insertion-ordered association lists.
* A generator of code is modelled by the program it writes, and the program has a semantics of its own:
  token lists with an evaluator for the gas phase routines (`Gen/Expr.lean`), a parsed language for the
  fixed part of the rate files (`Rate/Lang.lean`), a direct transcription for the partitioning routine
  (`Aerosol/Partition.lean`). A right-hand side that is not an expression, or divides by zero, evaluates
  to `none`.
* Specifications are separate definitions in the namespace `PyBox.Spec` (`Spec/Reaction.lean` and the head
  of each file in `Props/`); they speak about reactions as written, concentrations, bins, trajectories.
* Theorems named `Cxx_...` are the properties. Where the code does not have a property, the property is a
  definition `Cxx_Statement`, `Cxx_false` refutes it with a concrete input, `Cxx_..._partial` is the part
  that holds, and (in most cases) `Cxx_exact` or another theorem says exactly when it holds.
* Every theorem with hypotheses has an `example` or a named theorem (`sample_...`, `radical_...`,
  `water_...`) near it with a non-trivial case that meets them.

## Layers of the model

| layer | modules | code in /repo |
|---|---|---|
| Python built-ins | `Py/*` | `str` methods, `dict` order, a backtracking regular expression engine for the patterns used |
| mechanism parser | `Parse/Model` (model); other files in `Parse/` (lemmas) | `Parse_eqn_file.extract_mechanism` 46–310 |
| species and structure files | `Parse/Structures` | `extract_smiles_species` 312–357, `extract_species` 359–427 |
| rate text conversion | `Rate/Model` | `rate_coeff_conversion.py` |
| fixed part of rate files | `Rate/Sources` (text), `Rate/Lang` (reader, semantics), `Rate/Sym`, `Rate/Signs` (analyses proved correct) | `write_rate_file` 429–790, `write_rate_file_numba` 888–1262, `write_rate_file_fortran` 1312–1743 |
| kinds of Fortran numbers | `Rate/Kinds` (reader and semantics with kinds), `Rate/KindCheck` (check proved correct) | `write_rate_file_fortran` 1312–1768 |
| rounding in Fortran rate files | `Rate/Errors`, `Rate/ErrorOps`, `Rate/ErrorRun` `Rate/Mixed` (analysis proved correct), `Rate/FactsErrors`, `Rate/FactsSun` (run on the text) | `write_rate_file_fortran` 1312–1768 |
| rate assignments | `Rate/File` | 803–806, 1271–1274, 1745–1768 |
| peroxy radicals | `Gen/Peroxy` | `write_RO2_indices` 1787–2120 |
| gas routines | `Gen/Model`, `Gen/Expr` (programs), `Gen/Sources`, `Gen/Text` (files and a reader) | `write_reactants_indices(_fortran)`, `write_loss_gain_matrix`, `write_loss_gain_fortran`, `write_gas_jacobian_numba`, `write_gas_jacobian_fortran` 2129–3200 |
| partitioning routine | `Aerosol/Partition`, `Aerosol/Source` and `Aerosol/PartText` (file), `Aerosol/Fortran` (reader, semantics), `Aerosol/Rounded` (semantics with rounding) | `write_partitioning_section_fortran_ignore` 3418–3650 |
| functions handed to the solver | `Sim/Rhs`, `Aerosol/Rhs`, `Aerosol/Split` | `dydt_func`, `jacobian` of all `ODE_solver*.py` |
| batch loops | `Sim/Model` | `run_simulation` of all `ODE_solver*.py` |
| initial state | `Props/Initial`, `Aerosol/Slices` | initial vectors of the drivers |
| files of a run, restart | `Sim/Files` | `files_exist` branches of the four drivers |
| species properties, water | `Aerosol/Properties` | `Property_calculation.py`, section 5 of `Aerosol_simulation_f2py.py` |
| preparation of an aerosol run | `Sim/AerosolDriver` | sections 1 and 4 to 10 of `Aerosol_simulation_f2py.py`, initial vector of `Aerosol/f2py/ODE_solver.py` |
| preparation of a fixed-yield run | `Sim/YieldDriver` | `Aerosol_sim_fixed_yield.py` 67–431, initial vector of `ODE_solver_fixedyield.py` |
| charts of a fixed-yield run | `Sim/Chart` | `Aerosol/f2py/Fixed_yield/Plotting.py` |
| size distribution | `Aerosol/Sizes` | `Size_distributions.py`, section 8 of `Aerosol_simulation_f2py.py` |

## Trusted base

* Lean's kernel, and the axioms `propext`, `Classical.choice` and `Quot.sound` (table at the end). No
  other axiom, no `sorry`, no `native_decide`, no `bv_decide`. `decide +kernel` is used for concrete
  witnesses and for facts about the fixed texts in the source; it is evaluated by the kernel.
* The reading of `/repo` into Lean definitions. Long tables are copied by scripts, not by hand:
  `tools/rate_sources.py` (the `f.write` texts of the rate files), `tools/gas_sources.py` (those of the gas
  routines), `tools/partition_source.py` (those of the partitioning routine) and `tools/ro2.py` (the radical names).
  The elaborator `chars%` (`Py/Chars.lean`) only turns a string literal into a list of characters.
* Arithmetic. Coefficients in mechanism files are exact rationals, concentrations and rates exact reals;
  `C32_any_rounding`, `C33_false_rounding` and `C33_whole_seconds` treat the rounding of the clock. How
  Python prints a coefficient is a parameter of C70 (any unsigned decimal numeral, of any value). The kinds
  of Fortran literals (integer, single, double precision) are modelled for rate files in C82 without rounding, and in C83, C85,
  C88 (gas routines), C91 (Python, all numbers double), C92 and C93 (partitioning routine, every literal possibly single), C95 (all of them) with rounding: each operation may return any value within the relative error of its precision (`ieee`).
* The readers of Python and Fortran text in `Rate/Lang.lean`, `Gen/Text.lean` and `Aerosol/Fortran.lean`:
  comments, line breaks, continuations, tokens, precedence, array elements, in the last also declarations,
  array sections, whole-array operations and OpenMP clauses. The gas routines and the partitioning routine are
  proved equal to their texts (C70, C71).
* The working directory (C75): a dictionary from names to contents without subdirectories; a pickle gives back the
  saved value; a compiled module behaves as the source it was compiled from.
* f2py hands zero-filled arrays to the output arguments of the generated gas routines (not assumed in C71).
* OpenMP: a block runs as an interleaving of the reads and writes of its threads (C24), or of whole statements
  (C51, C71); private variables start with arbitrary contents.
* External libraries are parameters: the ODE solver (Assimulo CVode) is an arbitrary function in C32, C33,
  C49 and an exact solver in C34, C59 to C64, C68, C72, C73, C76 to C79 and C89, and a solver with bounded errors in C81; UManSysProp, Pybel and `float` are arbitrary functions;
  `scipy.stats.lognorm` is the formula of its documentation; minidom gives a list of nodes.

## Not modelled

* Printing, what Matplotlib draws, timing, command line prompts, the
  compilation of generated files (`f2py_*.py`), `test/`.
* The organic mass `write_partitioning_section_fortran` (3203–3416) adds up in an output it never sets, and code that is
  commented out.
* That the solver raises or does not reach its tolerance.

## Plan and outcome per property

Parser (C01–C09, C45, C46): induction over the list of terms and equations with an invariant on the tables;
C03 and C04 by round trip lemmas for the two brace patterns and for `split`; C08 by an exact description of
the accepted texts. Code generators (C10–C24, C30, C31): evaluation of the written lines, with sums and
products over the reactions as specification; C19 with `HasDerivAt`, C24 by commuting writes. Rate text
(C25–C29): substitutions on strings. Fixed part of the rate files (C47, C48, C50): a sign analysis and a
symbolic comparison, both proved correct for all programs, run by the kernel on the texts of the source.
Whole rate files (C65 to C68): the text before the assignments parses on its own (`Rate/Whole`), so a file
is the fixed program followed by one assignment per reaction; C68 composes this with C61.
Text of the gas routines (C69, C70): C69 by invariants of the generators; C70 by lexing and parsing the printed
tokens back (`Gen/Read`), the fixed parts by computation with symbolic sizes (`Gen/Frames`).
Text of the partitioning routine (C71): the file is lexed and parsed with symbolic sizes (`Aerosol/PartRead`,
`Aerosol/PartRoutine`); an invariant of the loop, over every prefix of every possible order of its statements
(`Aerosol/PartLoop`), gives the contents of memory.
Files of a run (C75): what a series of steps leaves in a file is decided by the last step touching its name, and names
are told apart by their endings; the file written last marks a complete run.
Preparation of an aerosol run (C76): the theorems about its parts (C01, C35, C42 to C44, C46, C52 to C54) composed along
the driver, then with C62 and C72. Fixed yields (C77): the same with C45 for the yield file, C62 to C64 and C71.
Species there in the results (C78, C79): entries decay at most exponentially, so what is there stays; where the right-hand
side is positive an entry leaves zero, and a set of entries that no right-hand side lifts stays zero (`Sim/Presence.lean`).
Induction over the chains of reactions, and over gas and bins of a species, turns this into an exact description.
Charts (C80): the loop over the species is summed up in closed form; C79 gives that no bin is empty.
Solvers with errors (C81): a tube around the exact trajectory in which the right-hand side is Lipschitz (compactness),
Gronwall's inequality in it, and induction over the batches (`Sim/Near.lean`).
Kinds of Fortran numbers (C82): a second reader keeps the kinds; without them it is the first reader (`kRead_erase`,
`kRate_reads`). A check of kinds is proved correct for all expressions and run by the kernel on the fixed part.
Rounding (C83): an analysis bounds relative errors, absolute errors and ranges of all variables of a program; it is proved
correct for all programs and all ways to round (`Rate/ErrorRun.lean`) and run by the kernel on the fixed part, with a table
of hints that it checks (`Rate/FactsErrors.lean`). Photolysis (C85): the hour is compared with the hour counted from the
day the computed time falls in, which changes the hour angle by a multiple of a full turn only; heights of the sun above
0.005 are divided into bands to each of which the analysis is applied; below, both rates are negligible.
Errors of rate coefficients (C86): two right-hand sides that differ by a bounded amount on a bounded set of states, on which
one of them is Lipschitz; Gronwall's inequality and induction over the batches (`Sim/Sensitive.lean`); totals that do not
grow give a set that all exact solutions stay in, whatever the rates.
Rounding in the gas routines (C88): the printed lines are parsed with the kinds of their literals; an error is kept as an
exponent relative to the sum of sizes (`Near`, `Gen/Rounded.lean`), which adds up along products and does not grow along sums.
Double precision in Python (C91): the program is turned into one with kinds in which every number is double
(`Rate/Doubles.lean`), and the analysis of C83 and C85 is applied to it, with three bands of the height of the sun
(`Rate/FactsDouble.lean`); then composed with C88 and C86. Not modelled: the rounding of `start + t` in the driver.
Rounding in the partitioning routine (C92, C93): executions of the text of C71 in which every operation may round
(`Aerosol/Rounded.lean`); each statement of a pass adds to the error of what it reads (`Aerosol/RoundedSteps.lean`), the
difference of gas and equilibrium turns factors into errors relative to the sum; conservation needs the types of the
variables only (`Aerosol/RoundedConserve.lean`). Executions without errors are among them (`Aerosol/RoundedExact.lean`).
Errors in numbers (C94, C95): as C86 with the Lipschitz constant and the bounds on the terms written out (`Sim/Explicit.lean`);
the difference of the slopes is bounded term by term. The bounds exist because continuously differentiable functions are
bounded and Lipschitz on boxes. For `y' = K y` the bound is attained. C95 adds the errors of C92 and of one addition.
C96: a run with rounding is a run of the system without rounding with a larger error of the solver; then C94 and C68.
C97: a table of laws (`Rate/Published`); each law is written once as an expression whose value on the reals is
proved to be that of the law; the kernel compares its normal form with that of the symbolic run of the text.
C98: the derivative of the logarithm of the ratio is a rational function; its numerator has positive coefficients in
the Bernstein basis of the interval; the value at one end from bounds on logarithms.
Wrongly recorded products (C99): the list of recorded products from `C06_exact` (`Props/Recorded`); weights of
the recorded net coefficients; strict loss from a one-sided derivative that is negative at one moment
(`Props/RepeatedProducts`). The existence theorems (C61, C64, C72, C73, C89) use only that no weight is gained.
Order of the reactions (C100): the tendencies are sums over the reactions of terms that depend only on the reaction and
on concentrations looked up by name, so a permutation of the reactions gives the same sum; a permutation of the
components carries exact solutions of one system to exact solutions of the other, and uniqueness (C61) does the rest.
Order of the species with particles (C101): places of the state are paired by species and bin; sums over the condensing
species agree under the pairing, so the tendencies do, and the pairing is a bijection of the components (C100).
Order with rounding (C102): a renaming carries an approximate run of one system to one of the other with the same errors;
then C94 for each of the two and C96.
Added reactions (C103): the sum over the reactions splits into those of the file and the added ones; with no contribution of
the latter the projection of a solution of the larger system solves the smaller one, and its solutions are unique.
Channels (C104): the sum over the reactions is grouped by the reaction the channels belong to; then as C103.
Tracers with particles (C105): the condensing species are paired, so the exchange is that of C101; the chemistry is that of
C103, and the projection to the places of the smaller state maps solutions to solutions.
Divided bins (C106): amount, mass and volume of a bin are the shares, so radius and mole fractions are the same and the
exchange is the share; the sum over the bins of the gas is grouped by the bin divided; the shares of a solution are the solution.
The clock (C107): rate values depend on the time through the height of the sun only, which has the period of a day; shifted
solutions are solutions, and solutions are unique. In the night the initial state is a solution (`Props/ClockNight`).
First order (C108): with one reactant the product computed for a reaction is a concentration and the rates do not depend on
the state, so sums of solutions are solutions; solutions are unique (`Props/Linear`).
One order (C109): products of concentrations are homogeneous; a solution with scaled amounts and scaled time is a
solution, and solutions are unique (`Props/Order`).
Names (C110): registration, recorded coefficients and products commute with injective renamings; the list of peroxy radicals
is permuted (`Props/Renamed`).
Width of the Fortran lines (C74): columns are followed through the printed tokens, with the counter of the
continuation lines as invariant (`Gen/Width`).
Drivers (C32–C35, C49): the loop with an arbitrary solver; C34 with exact solutions. Aerosol (C36–C44,
C51–C54): real arithmetic over bins and species; C51 by interleavings of threads. Functions handed to the
solver (C55–C58): composition of the above. Trajectories (C59–C64): the right-hand sides are shown to be
locally Lipschitz and quasi-positive; invariance of non-negative states, uniqueness (Gronwall) and existence
for all times (Picard–Lindelöf with a bound from non-growing totals) are proved for all such systems in
`Sim/Positive.lean`, `Sim/Exists.lean` and `Sim/Tame.lean`.
Whole simulations from their files (C72, C73): the text theorems C66, C70 and C71 composed with C55 to C64 and C68.
Operator splitting (C89, C90): for species that are not masked the routine with masks agrees with the other one, for the
others it gives 0, so the partitioning system is a weighted form of the fixed-yield system (`Props/SplitRhs.lean`); rows are
followed batch by batch as in C62 to C64. C90 by induction over the batches, for flows that commute.
Declarations (C87): a file is cut into statements of names and signs (`Gen/Names.lean`); the fixed parts are checked by the
kernel once, numbers in them do not matter, and the lines of reactions contain only names of arrays.

| property | status | theorems | remarks |
|---|---|---|---|
| C01 Species numbering is a bijection | proved | `C01_inverse`, `C01_indices`, `C01_no_photon`, `C01_order` |  |
| C02 Species table and reaction tables name the same species | proved | `C02_tables_indexed`, `C02_indexed_iff` | The photon marker 'hv' can be a key of the gain table with an empty entry; it is not a species (C01_no_photon). |
| C03 Parsing a well-formed mechanism file recovers the mechanism | proved | `C03_round_trip` |  |
| C04 Line breaks and tabs do not change the parsed mechanism | proved | `C04_line_breaks`, `C04_tabs` |  |
| C05 Loss coefficients are the sum over repeated reactants | proved | `C05_loss_coefficients` |  |
| C06 Gain coefficients are the sum over repeated products | partial | `C06_gain_coefficients_partial`, `C06_exact`, `C06_false`, `C06_false_dropped` | False in general (C06_false): line 282 tests the last reactant. Proved exactly when it holds. |
| C07 Leading coefficients are separated from names | partial | `C07_bare_name`, `C07_coefficient_partial`, `C07_wrong`, `C07_false` | False for names containing a digit (C07_wrong: always wrong there). |
| C08 Parsing fails exactly on malformed files | proved | `C08_accepts_iff`, `C08_rejects`, `C08_rate_count`, `C08_integer`, `C08_negative`, `pyInt_iff` |  |
| C09 Appending reactions never changes earlier ones | proved | `C09_extension` |  |
| C10 Reactant products follow the law of mass action | partial | `C10_value`, `C10_mass_action_partial`, `C10_exact`, `C10_false` | False when a reactant is written more than once (each occurrence is raised to the summed coefficient). C10_exact gives the condition. |
| C100 The order in which a mechanism file lists its reactions does not change the result | proved | `C100_same_species`, `C100_tendencies`, `C100_tendencies_fortran`, `C100_rows`, `C100_rows_fortran`, `C100_files_python`, `C100_files_fortran`, `C100_order_of_products`, `swapped_reordered`, `swapped_run` | SameReaction: same reactants, products, recorded products and rate text up to order; for reactions that are recorded correctly the recorded products agree by themselves (SameReaction.of_good). C100_order_of_products: for a reaction of the shipped alpha-pinene mechanism another order of its products gives other tables. Exact solvers; for particles see C101. |
| C101 The order of the species does not change a simulation with particles | proved | `C101_tendencies`, `C101_soa`, `C101_rows`, `C101_files`, `C101_fixed_yield`, `swapped_particles`, `swapped_aerosol_run` | SameSlot pairs the places of the state; SameParticles says that the properties belong to the species. Exact solvers, one thread in the partitioning routine. |
| C102 With rounding the order of the reactions changes what is reported by no more than a bound in numbers | proved | `C102_between`, `C102_python`, `C102_fortran`, `swapped_rounded_runs` | C102_between is for any two systems that correspond under a renaming; the bound K is that of the first file. Gas simulations. |
| C103 Added reactions change the species of a mechanism only by what they record for them; tracers change nothing | proved | `C103_species`, `C103_added`, `C103_tendencies`, `C103_tendencies_fortran`, `C103_rows`, `C103_rows_fortran`, `C103_files_python`, `C103_files_fortran`, `C103_consumed`, `eaten_written`, `tracer_run` | Tracers is a condition on what is recorded; LeavesAlone.of_good gives it for reactions recorded correctly. C103_consumed: written as a tracer, recorded as a sink. Gas simulations, exact solvers. |
| C104 One reaction with fractional products and separate channels give the same result in the Python version, and not in Fortran | proved | `C104_species`, `C104_tendencies`, `C104_rows`, `C104_files_python`, `C104_tendencies_fortran`, `C104_fortran_differs`, `merged_split_text`, `channel_run` | Channels is a condition on the recorded products and on the values of the rate texts. C104_fortran_differs: the two files of the example, for all rates, states and numbers of cores. Gas simulations, exact solvers. |
| C105 Tracers that do not condense change nothing in simulations with particles | proved | `C105_tendencies`, `C105_soa`, `C105_rows`, `C105_files`, `tracer_none`, `tracer_aerosol_run` | NoneCondense: every condensing species of the second simulation is one of the first. What a condensing tracer does to the others is not stated. Exact solvers. |
| C106 Particles may be kept in one bin or divided among several | proved | `C106_size`, `C106_tendencies`, `C106_totals`, `C106_soa`, `C106_rows`, `C106_fixed_yield`, `C106_files`, `divided_bins`, `divided_run` | DividedBins gives the division and its shares, SharedState the gas and the shares of the condensed matter. Over the reals, exact solvers. How the driver chooses the bins is not part of this. |
| C107 The clock of a simulation: days repeat, batches of whole days and simulations without photolysis follow the clock, others can stay in the night | proved | `C107_rates_day`, `C107_day_python`, `C107_day_fortran`, `C107_day_aerosol`, `C107_running_python`, `C107_running_fortran`, `C107_running_aerosol`, `C107_night` | What C34 says of any right-hand side, here from the texts of the generated files: Sunless and ClockHarmless speak of the parsed rate texts. C107_night is about radicalText; that other systems with photolysis report something else than the uninterrupted solution is not claimed in general. Over the reals, exact solvers. |
| C108 Mechanisms of first order are linear: results of simulations add up | proved | `C108_tendencies`, `C108_rows`, `C108_rows_fortran`, `C108_files_python`, `C108_files_fortran`, `C108_monotone`, `generated_radicalFree` | FirstOrder speaks of the reactions of the file, RadicalFree of the parsed rate texts; chain_run is a concrete case with photolysis and a peroxy radical. Over the reals, exact solvers. |
| C109 With reactions of one order, more concentrated means faster | proved | `C109_tendencies`, `C109_rows`, `C109_rows_fortran`, `C109_files_python`, `C109_files_fortran`, `generated_steady` | OfOrder speaks of the reactions of the file, Sunless and RadicalFree of the parsed rate texts; pair_run is a concrete case. A reactant written twice is excluded because the code gives it the wrong power. Over the reals, exact solvers. |
| C11 Python and Fortran backends compute the same reactant products | proved | `C11_same_programs`, `C11_same_factors`, `C11_photon_only` | C11_photon_only records the one case where neither routine writes the cell. |
| C110 Names of species decide only what is a photon, held constant or a peroxy radical | proved | `C110_places`, `C110_system`, `C110_system_fortran`, `C110_system_aerosol`, `C110_files_python`, `C110_files_fortran`, `C110_files_aerosol`, `C110_rows_python`, `C110_rows_fortran`, `C110_rows_aerosol` | Renaming and renamed speak of the reactions read from the files; that both files are accepted and read so is a hypothesis, since a new name may contain a separator. renamed_system is a concrete case in which a peroxy radical and NO2 get new names. Over the reals. |
| C12 Generated tendencies equal gain minus loss | proved | `C12_gain_minus_loss`, `C12_written` |  |
| C13 Fortran tendencies agree with Python tendencies | partial | `C13_value`, `C13_exact`, `C13_same_partial`, `C13_false` | False for coefficients other than one: the Fortran generator writes the coefficient plus one. C13_exact gives the condition. |
| C14 Saved stoichiometric matrix agrees with the generated tendency code | partial | `C14_exact`, `C14_matrix_partial`, `C14_false` | False when a species occurs on both sides of a reaction. C14_exact gives the condition. |
| C15 Bath gases and photons are held constant | proved | `C15_constant`, `C15_never_written`, `C15_jacobian_rows` |  |
| C16 Balanced mechanisms conserve every element | partial | `C16_conservation_partial`, `C16_false` | False when a repeated product is recorded wrongly (C06). |
| C17 Tendencies never drive an absent species negative | proved | `C17_quasi_positive` |  |
| C18 Generated tendency code is always a valid program | partial | `C18_valid_iff`, `C18_valid_iff_fortran`, `C18_valid_partial`, `C18_false` | False when the parser drops the only occurrence of a species; C18_valid_iff is the exact condition. |
| C19 The Jacobian code is the derivative of the tendency code | partial | `C19_exact`, `C19_derivative_partial`, `C19_false` | False for repeated reactants and coefficients other than one; C19_exact gives the condition reaction by reaction. |
| C20 Python and Fortran Jacobians agree | proved | `C20_same_matrix` |  |
| C21 Jacobian values do not depend on set iteration order | proved | `C21_order_independent` |  |
| C22 Jacobian sparsity is sound | proved | `C22_sparsity_sound` |  |
| C23 OpenMP work splitting covers each reaction exactly once | proved | `C23_work_splitting`, `C23_balanced`, `withOmp_region`, `C23_empty` | With no lines at all the region is unbalanced (C23_empty). The rate file uses the same layout (C30). |
| C24 Parallel blocks can run in any order | proved | `C24_any_schedule` |  |
| C25 Rate text without special patterns is passed through unchanged | proved | `C25_pass_through` |  |
| C26 Fortran rate conversion is idempotent | proved | `C26_expression`, `C26_idempotent` |  |
| C27 Every mathematical function in a rate expression is translated | partial | `C27_false`, `C27_kept_fortran`, `C27_kept_numba`, `C27_translated_partial` | False for all three converters: the loop restarts from the original text, so only the last name of the list is translated. C27_kept_* show the other names always survive. |
| C28 Photolysis references become array references | proved | `C28_array_references`, `C28_well_bracketed`, `C28_plain_restored`, `C28_plain_python_wrong` | For the numba converter used by the drivers; the unused plain Python converter does not keep brackets (C28_plain_python_wrong). |
| C29 Double-precision literals keep their value and names are not damaged | partial | `C29_literals_partial`, `C29_fortran_partial`, `C29_altered_exact`, `C29_false`, `C29_zero_exponent` | False for exponents starting with 0 and for identifiers with D before a digit or sign; C29_altered_exact says exactly which texts are changed. |
| C30 One rate assignment per reaction | proved | `C30_one_assignment` | Read back from the written text; also with OpenMP directives and after repeated conversion. |
| C31 The peroxy-radical sum counts each listed radical present exactly once | partial | `C31_once`, `C31_exact`, `C31_radicals_partial`, `C31_false`, `C31_none_fails` | False: nine entries of the list in the source are misspelled, so ten published radicals are never counted (among them HOCH2CO3, present in the shipped mechanisms). C31_exact is the exact condition; without any listed radical the sum raises an error (C31_none_fails). |
| C32 Output times are the multiples of the batch length | proved | `C32_output_times`, `C32_any_rounding` | C32_output_times for exact arithmetic; C32_any_rounding for any rounding of the clock. |
| C33 A run completes for every simulation length | partial | `C33_exact`, `C32_C33_whole_batches`, `C33_failure`, `C33_false`, `C33_whole_seconds`, `C33_false_rounding` | False: a run completes exactly when the simulated time is a whole number of batches (C33_exact); in binary64 even a whole number of batches can fail (C33_false_rounding), whole seconds never do (C33_whole_seconds). |
| C34 Splitting a run into batches does not change the trajectory | partial | `C34_exact`, `C34_periodic_partial`, `C34_false` | False for right-hand sides that depend on the time of day: every batch restarts the clock at start_time. C34_exact says which system is solved instead; C34_periodic_partial covers right-hand sides without time dependence. |
| C35 Initial concentrations land in the right slots | proved | `C35_gas`, `C35_gas_unknown`, `C35_aerosol`, `C35_aerosol_unknown` |  |
| C36 Gas-particle exchange conserves molecules | proved | `C36_exchange`, `C36_total` | For one thread; C51_breaks_conservation shows it can fail with several threads. |
| C37 Species excluded from partitioning are not changed by it | proved | `C37_excluded` |  |
| C38 Condensed-phase slots are disjoint and complete | proved | `C38_layout`, `C38_own_bin` |  |
| C39 Condensation is driven by supersaturation | proved | `C39_rate`, `C39_driven`, `C39_radius` | The radius is the one of spheres that hold the volume of the bin, with the constant 3.1415927 the routine uses for pi. |
| C40 The transition-regime correction lies between 0 and 1 | proved | `C40_between`, `C40_routine`, `C40_decreasing`, `C40_accommodation` |  |
| C41 Reported secondary organic mass ignores water and is additive over bins | proved | `C41_mass`, `C41_water`, `C41_nonneg` |  |
| C42 Every species is either partitioned or ignored | proved | `C42_split`, `C42_complete`, `C42_arrays` |  |
| C43 Water is the last gas species and the last condensed species | partial | `C43_water_partial`, `C43_exact`, `C43_false`, `C43_layout` | False when a species has no structure and nothing is ignored: the arrays then differ in length from the condensing species. C43_exact gives the exact condition. |
| C44 The initial size distribution carries the requested number | partial | `C44_sizes_partial`, `C44_narrow`, `C44_one_bin`, `C44_exact`, `C44_false`, `C44_shape` | False for a geometric standard deviation up to 1 (numbers are nan) and for one bin (only the lower limit is used); C44_exact: these are the only exceptions. |
| C45 Species snapshot files: first entry wins, numbering is dense | proved | `C45_species`, `C45_dense`, `C45_order`, `C45_first`, `C45_reads` | C45_reads gives the exact condition under which reading succeeds; a blank line makes it fail. |
| C46 Structures are attached to the right species | partial | `C46_own_partial`, `C46_exact`, `C46_objects`, `C46_irrelevant`, `C46_false`, `C46_first_missing` | False: a species whose record has no structure silently gets the structure of the record before it. C46_exact says what is stored in every case. |
| C47 Photolysis vanishes at night and is never negative | proved | `C47_photolysis`, `C47_other_slots`, `C47_plain_python_undefined` | For the backends the drivers use. The unused plain Python writer raises a negative number to a fractional power at night (C47_plain_python_undefined). |
| C48 Backends use the same generic rate coefficients | proved | `C48_same_coefficients`, `C48_same_photolysis` | Over the reals; see C82 for the kinds of Fortran literals. |
| C49 Operator splitting stays within its storage | partial | `C49_outcome`, `C49_always_fails`, `C49_false`, `C49_completes_partial` | False: with the constants in the file the rows run out after 630 of 3600 seconds. C49_outcome gives the result for all lengths. |
| C50 The rate programs run without numerical error and give positive coefficients | proved | `C50_defined_positive`, `C50_names` |  |
| C51 Partitioning does not depend on how threads are scheduled | partial | `C51_one_thread`, `C51_synced_partial`, `C51_lost_update`, `C51_breaks_conservation`, `C51_false`, `C51_private_repair` | False: index1 and index2 are shared between threads, so with two bins and two threads the first bin can lose its update. C51_private_repair: declaring them private is enough. |
| C52 Kinetic properties passed to the partitioning routine are physically admissible | proved | `C52_admissible`, `C52_velocity`, `C52_diffusivity`, `C52_heavier`, `C52_path` |  |
| C53 Initial particle water is in equilibrium with the relative humidity | proved | `C53_water_slots`, `C53_saturated`, `C53_activity` |  |
| C54 The particle size of the routine agrees with the size distribution | proved | `C54_dry_size`, `C54_close` |  |
| C55 The function handed to the solver is the kinetic system of the mechanism | partial | `C55_value`, `C55_kinetics_partial`, `C55_no_radicals`, `C55_false` | False: a reaction that repeats a reactant gets a wrong product (C55_false), and a mechanism without listed radicals raises an error on every call (C55_no_radicals). C55_value says what is computed in every case. |
| C56 The Jacobian handed to the solver is the derivative of the function handed to the solver | partial | `C56_derivative`, `C56_exact`, `C56_jacobian_partial`, `C56_false` | False when a rate coefficient depends on the peroxy radicals: the Jacobian leaves that dependence out (C56_exact: exactly then). |
| C57 Gas chemistry and partitioning add up to the rates handed to the solver | proved | `C57_coupled`, `C57_defined`, `C57_fixed_yield`, `C57_rate` | For layouts in which the slots of the condensing species are distinct gases. One thread; more threads are C51. |
| C58 Water is in equilibrium at the humidity the simulation reports | partial | `C58_exact`, `C58_humidity_partial`, `C58_saturation`, `C58_false` | False as stated: the humidity is recorded with gas constant 8.314, the partitioning routine uses 8.3144598. C58_exact gives the exact relation, C58_humidity_partial the error of at most 6e-5. |
| C59 Element totals are constant along a gas simulation | proved | `C59_conserved`, `C59_not_gained`, `C59_conserved_fortran`, `C59_not_gained_fortran` | Python and Fortran version; the latter for mechanisms whose net coefficients the Fortran writer leaves right (C13). The solver is assumed exact; C61 shows that an exact solver exists. Without the condition on products the statement fails (C16_false). |
| C60 Concentrations of a gas simulation stay non-negative | proved | `C60_nonneg`, `C60_nonneg_fortran` | The solver is assumed exact; C61 shows that an exact solver exists. |
| C61 A gas simulation has exactly one exact result | proved | `C61_solution`, `C61_exists`, `C61_unique`, `C61_solution_fortran`, `C61_exists_fortran`, `C61_unique_fortran`, `radical_run`, `radical_run_fortran` | No condition on repeated products (C06); Fortran versions: GainsLess (C99). A solution is continuous and satisfies the equation except at finitely many times (rates that follow the sun jump at sunrise). radical_run and radical_run_fortran are cases that meet all hypotheses of C59 to C61. |
| C62 A simulation with particles conserves totals over gas and bins | proved | `C62_conserved`, `C62_water`, `C62_held`, `C62_not_gained`, `C62_fixed_yield` | The solver is assumed exact; C64 shows that an exact solver exists. One thread (C51 is about more). |
| C63 Concentrations of a simulation with particles stay non-negative | proved | `C63_nonneg`, `C63_fixed_yield` | The solver is assumed exact; C64 shows that an exact solver exists. |
| C64 A simulation with particles has exactly one exact result | proved | `C64_exists`, `C64_unique`, `C64_exists_fixed_yield`, `C64_unique_fixed_yield`, `radical_aerosol_run`, `fixed_yield_run` | radical_aerosol_run and fixed_yield_run are cases that meet the hypotheses of C62 to C64. |
| C65 Photolysis rates follow the day without jumps | partial | `C65_course`, `C65_daylight`, `C65_exact`, `C65_false`, `C65_continuous_partial`, `C65_pieces` | Everything but continuity holds. The rates are switched off when the cosine of the zenith angle falls below 1e-30, so they jump there (C65_exact: exactly there); the jump is at most l*exp(-n*1e30) (C65_continuous_partial). |
| C66 Each reaction gets the value of its own rate expression | proved | `C66_value`, `C66_piecewise`, `C66_nonneg`, `C66_defined` | For the backends the drivers use, over the reals. Rate texts must be expressions of the modelled language, polynomial in peroxy radicals and photolysis rates; an evaluation (a test, not a proof) found this for all 3178 distinct rate texts shipped. radical_generated is a case. |
| C67 Python and Fortran rate files give the same rate coefficients | proved | `C67_same` | Over the reals; the condition on the texts is a syntactic comparison that an evaluation found to hold for all rate texts shipped. radical_generated is a case. |
| C68 The Python and the Fortran version of a gas simulation report the same result | proved | `C68_same_system`, `C68_same_rows`, `C68_exists`, `radical_generated` | Over the reals with exact solvers. radical_generated is a mechanism that meets all hypotheses. |
| C69 Generated routines stay within their arrays | proved | `C69_python`, `C69_fortran`, `C69_rates` |  |
| C70 The text of the generated gas routines is a routine that computes the rate law | proved | `C70_reactants_python`, `C70_reactants_fortran`, `C70_tendency_python`, `C70_tendency_fortran`, `C70_jacobian_python`, `C70_jacobian_fortran`, `C70_rhs_python`, `C70_rhs_fortran`, `C70_rate_law`, `C70_same_jacobian` | The rate law for mechanisms with regular reactions (C55); the other theorems for every mechanism. |
| C71 The text of the partitioning routine computes the modelled exchange | proved | `C71_exact`, `C71_one_thread`, `C71_synced`, `C71_race`, `C71_crossed`, `C71_shared` | Over the reals; a statement of the loop is executed as a whole. C71_exact is the outcome for every order of execution; C71_race and C71_crossed are the two ways in which threads go wrong (the driver compiles with -fopenmp), C71_shared the cause. |
| C72 The generated files of a simulation with particles determine it | proved | `C72_files`, `C72_rate_law`, `C72_system`, `C72_defined`, `C72_handed`, `C72_same_system`, `C72_conserved`, `C72_nonneg`, `C72_exists`, `C72_unique` | Over the reals, with the reading of the files of C66, C70 and C71. Existence and definedness need no recorded products. Hypotheses (single reactant names, recorded products, Fortran coefficients right, a listed peroxy radical, no damaged name) exclude the cases in which C05, C06, C13, C31 and C55 show the code to be wrong. The solver is an exact solution operator. |
| C73 The generated files of a gas simulation determine it, and both versions agree | proved | `C73_files_python`, `C73_files_fortran`, `C73_rate_law_python`, `C73_rate_law_fortran`, `C73_system_python`, `C73_system_fortran`, `C73_same_system`, `C73_same_rows`, `C73_exists`, `C73_results`, `C73_jacobian_file`, `C73_jacobian` | As for C72. |
| C74 The lines of the generated Fortran files fit the 132 characters of free-form Fortran | partial | `C74_partial`, `C74_reactants`, `C74_tendency`, `C74_jacobian`, `C74_rates`, `C74_partition`, `C74_false` | The full statement is false (C74_false): nothing breaks the lines of Reactants_conc.f90 or of the rates. C74_partial: all lines fit if at most two molecules react in each reaction, converted rate texts have at most 107 characters, printed coefficients at most nine. C74_reactants bounds the number of reactants for any width of the coefficients. Partitioning.f90 always fits (C74_partition). |
| C75 Starting from saved files repeats the simulation the files were prepared for | partial | `Files.C75_restart`, `Files.C75_own`, `Files.C75_anywhere`, `Files.C75_python`, `Files.C75_fortran`, `Files.C75_simulates`, `Files.C75_last`, `Files.C75_history`, `Files.C75_partial`, `Files.C75_mixed`, `Files.C75_stale`, `Files.C75_aerosol`, `Files.C75_aerosol_repaired`, `Files.C75_prepares_python`, `Files.C75_prepares_fortran`, `Files.C75_false` | The full statement is false (C75_false): preparing a second mechanism with the Fortran gas driver leaves the saved tables of the first and replaces the routines, so that a restart of the first mixes the two (C75_mixed). It holds for the Python gas driver after any series of runs, failed ones included (C75_partial, C75_history, C75_last), and for a restart directly after the preparing run in both versions (C75_restart). C75_stale: a failing compiler goes unnoticed and leaves the routines of another mechanism in use. C75_aerosol: the aerosol drivers cannot restart at all, the number of reactions is never saved; it is the only thing missing (C75_aerosol_repaired). C75_simulates joins this with C73. |
| C76 The aerosol driver prepares the simulation its settings describe | proved | `C76_prepared`, `C76_humidity`, `C76_reported`, `C76_radius`, `C76_structures`, `C76_exact`, `C76_run`, `C76_determined` | Reals are exact. C76_radius: up to one part in a hundred million, because the partitioning routine writes pi as 3.1415927 (C54). A species H2O of the mechanism itself starts at zero and is no longer reached by its name; water added by the driver is a separate entry (field gases of Ready). C76_reported: the gas is in equilibrium with the settings only up to a function of the temperature, as the driver and the solver use different formulas for the saturation pressure of water. |
| C77 The fixed-yield driver prepares the simulation its settings describe | proved | `C77_prepared`, `C77_activity`, `C77_humidity`, `C77_mass`, `C77_radius`, `C77_exact`, `C77_file`, `C77_system`, `C77_run`, `C77_determined` | Reals are exact. C77_mass: what the driver hands over is the mass of its settings only near 298.3 K, as one of two conversions assumes 25 degrees; three percent less at its own 288.15 K. |
| C78 A gas simulation contains exactly the species that can be made | proved | `C78_present`, `C78_present_fortran` | Reals are exact and so is the solver. Hypotheses: reactants have coefficient one (WholeReactants) and no product is dropped by the parser (ProductsKept); without the latter a product is not made (C02 to C05). RunTogether: every reaction runs between two common times of the batch, alone or with peroxy radicals, or not at all. |
| C79 A species that can condense is in the gas and in every bin, or nowhere | proved | `C79_fixed_yield`, `C79_present`, `C79_yield_run` | As C78, for the Fortran coefficients the aerosol version uses. C79_yield_run needs a positive mass and relative humidity, without which there is nothing to condense. |
| C80 The bar charts of a fixed-yield run show the composition of its bins | proved | `C80_charts`, `C80_excluded`, `C80_exact`, `C80_title`, `C80_run` | Reals are exact; the title before it is rounded to two decimals. What Matplotlib does with the bars is not modelled. C80_excluded: with species that do not condense the call fails with an index error, which the solver reports as a problem of Matplotlib; the fixed-yield driver never excludes one (C77). |
| C81 A solver that makes small errors reports nearly what an exact one would | proved | `C81_gas`, `C81_gas_fortran`, `C81_aerosol`, `C81_fixed_yield`, `C81_lower`, `C81_rounding`, `C81_drift`, `C81_drift_fortran`, `C81_drift_aerosol`, `C81_drift_fixed_yield`, `C81_versions`, `radical_near` | The constant depends on the mechanism, the initial state and the run; the errors must be below a threshold (Reproducible). C81_rounding: a right-hand side that is off by eta along the path counts as an error of that kind. That the solver stays within the bounds is assumed. radical_near is a solver with errors that meets the hypotheses. |
| C82 Whole numbers in rate texts do not change rates in Fortran | partial | `C82_kinds_partial`, `C82_runs`, `C82_same_partial`, `C82_zero`, `C82_false` | The statement is false for rate texts with integer divisions (C82_zero: accepted, and zero in Fortran). For texts that pass the check of kinds it holds (C82_kinds_partial), the file runs (C82_runs), and it agrees with the numba file (C82_same_partial). No rounding here; an evaluation (a test) found that all rate texts shipped pass the check. |
| C83 Rounding in Fortran changes rate coefficients by less than 2 parts in 100,000 | proved | `C83_coefficients`, `C83_rates` | Rounding of each operation as in `ieee` (Rate/Kinds.lean): relative error 2^-24 plus 2^-150 in single precision (anything above 10^38), 2^-52 in double precision, library functions included. The analysis is a function of the rate text, proved correct for all texts and temperatures; photolysis coefficients are not covered by it. An evaluation (a test) gives all shipped rate texts without photolysis an error of at most 1.6e-5. |
| C84 Listings of reactions per species and the saved reactant matrix are complete | proved | `C84_listings`, `C84_matrix`, `C84_mass_action` | Exact arithmetic. The product with the logarithms is commented out in ODE_solver.py; the matrix is saved by write_reactants_indices. |
| C85 Rounding in Fortran leaves photolysis coefficients almost exact | proved | `C85_photolysis`, `C85_rates` | Rounding as in C83. Times up to 10^9 s. An evaluation (a test) of the analysis of C85_rates on all 3177 rate texts shipped gives each of them a relative error of at most 3.1e-5 and an absolute error of at most 4e-5 of the scales of its photolysis coefficients. |
| C86 Errors in rate coefficients change results in proportion | proved | `C86_gas`, `C86_gas_fortran`, `C86_rounding`, `C86_versions`, `C86_exact`, `C86_exact_fortran`, `C86_aerosol`, `C86_aerosol_exact` | The constant comes from Gronwall's inequality and is large for stiff mechanisms. C86_gas, C86_gas_fortran, C86_rounding and C86_versions: while both paths keep within a bound and their sums of peroxy radicals are not negative; C86_aerosol: while no concentration is negative. The exact versions need no such assumption. |
| C87 The generated Fortran files declare the names they use | proved | `C87_reactants`, `C87_tendency`, `C87_jacobian`, `C87_partition`, `C87_rates`, `C87_mechanism`, `C87_uncalled` | Statements, names and declarations as in Gen/Names.lean; OpenMP directives count as comments. Rate texts must not contain `&` or line ends. An evaluation (a test) found all names of the rate texts shipped among those declared. |
| C88 Rounding in the generated gas routines stays relative to the turnover | proved | `C88_reactants`, `C88_tendency`, `C88_exact`, `C88_slope`, `C88_sum`, `C88_effect`, `C88_python`, `C88_fortran` | Double precision is taken to have an unlimited range, as in C83. Python: the errors of the rate coefficients are a hypothesis; Fortran: they come from C83 and C85. Coefficients in Fortran must lie between 0 and 1e37 unless they have few binary digits. |
| C89 Operator-split batches change only what they should | proved | `C89_gas_batch`, `C89_partition_batch`, `C89_conserved`, `C89_water`, `C89_held`, `C89_ignored`, `C89_not_gained`, `C89_nonneg`, `C89_exists`, `C89_unique` | For the rows that go with a reported time. The partitioning routine with masks is taken as it would compute if its undeclared array were declared (C87). |
| C90 Operator splitting advances both processes by the simulated time | partial | `C90_false`, `C90_exact`, `C90_clock`, `C90_half_partial`, `C90_first_row`, `C90_sun` | False as stated; C90_exact says which state each row is. |
| C91 Double precision suffices for the rate coefficients of the Python version | proved | `C91_coefficients`, `C91_photolysis`, `C91_rates`, `C91_runs`, `C91_python` | Numba backend, which the driver uses. All arithmetic of the file is taken in double precision of unlimited range; the addition of the elapsed time to the start time is exact. |
| C92 Rounding in the partitioning routine costs at most a millionth of the exchange | proved | `C92_results`, `C92_exact`, `C92_small`, `C92_direction` | One thread (see C71 for several). Double precision of unlimited range. The reader of this routine does not keep the kinds of literals: each one that single precision does not represent may have a single-precision error, which includes those written with D0. |
| C93 Rounding in the partitioning routine does not create or destroy matter | proved | `C93_conserved`, `C93_small` | One thread; computed values are real numbers (no overflow, no division by zero in the sense of IEEE). |
| C94 How far errors can move the reported concentrations, in numbers | proved | `C94_runs`, `C94_gas`, `C94_aerosol`, `C94_rounded`, `C94_fortran`, `C94_python`, `C94_fortran_slope`, `C94_python_slope`, `C94_terms`, `C94_radicals`, `C94_bounds`, `C94_lipschitz_aerosol`, `C94_sharp` | The runs are assumed to stay in the set of states on which the bounds hold. The elapsed time is added to the start time without error. |
| C95 Rounding in all files of a simulation with particles, in numbers | proved | `C95_slope`, `C95_runs`, `C95_bounds` | One thread in the partitioning routine. Core masses and vapour pressures, which dydt_func computes in the same way in every call, are handed over without rounding errors. C95_bounds needs a non-negative surface tension. |
| C96 Both versions of a gas simulation agree up to their rounding errors, in numbers | proved | `C96_between`, `C96_versions` | As for C94. radical_versions is a case, with the existence of all bounds and of both right-hand sides. |
| C97 The generic rate coefficients have the values of their kinetic laws | partial | `C97_partial`, `C97_KBPPN`, `C97_limits`, `C97_KBPPN_half`, `C97_false` | The code makes the full statement false (C97_false): KBPPN. C97_partial has the other 38 coefficients, C97_KBPPN the exact value of this one. The table of laws was written from the formulas named in the comments of the code (IUPAC, MCM); the publications themselves were not at hand. |
| C98 The humidity a simulation begins with is the one set, although two formulas are used | proved | `C98_formulas`, `C98_vapour`, `C98_reported` | C98_reported needs the value of the constant of Avogadro that the driver sets. |
| C99 With products recorded wrongly a simulation is that of the recorded reactions and only loses | proved | `C99_recorded`, `C99_kinetics`, `C99_conserved_iff`, `C99_conserved`, `C99_never_more`, `C99_never_more_fortran`, `C99_aerosol`, `C99_split`, `C99_lost`, `C99_lost_fortran`, `C99_aerosol_lost`, `lossy_run`, `lossy_aerosol_run` | C99_kinetics and C99_conserved_iff need an entry in the tables for every species that is not held constant (AllWritten; without it the right-hand side is not defined, C18) and a listed peroxy radical. Fortran versions: where the writer alters the coefficient of a product it alters that of the reactant of the same name (GainsLess). lossy_run and lossy_aerosol_run: three reactions of the shipped alpha-pinene mechanism meet all hypotheses and strictly lose. |

## Axioms

Output of `#print axioms` for all theorems of the manifest, grouped.

* `Classical.choice`, `Quot.sound`, `propext`: `C01_indices`, `C01_inverse`, `C01_no_photon`, `C01_order`, `C02_indexed_iff`, `C02_tables_indexed`, `C03_round_trip`, `C04_line_breaks`, `C04_tabs`, `C05_loss_coefficients`, `C06_exact`, `C06_false`, `C06_false_dropped`, `C06_gain_coefficients_partial`, `C07_bare_name`, `C07_coefficient_partial`, `C07_false`, `C07_wrong`, `C08_accepts_iff`, `C08_integer`, `C08_negative`, `C08_rate_count`, `C08_rejects`, `C09_extension`, `C100_files_fortran`, `C100_files_python`, `C100_order_of_products`, `C100_rows`, `C100_rows_fortran`, `C100_same_species`, `C100_tendencies`, `C100_tendencies_fortran`, `C101_files`, `C101_fixed_yield`, `C101_rows`, `C101_soa`, `C101_tendencies`, `C102_between`, `C102_fortran`, `C102_python`, `C103_added`, `C103_consumed`, `C103_files_fortran`, `C103_files_python`, `C103_rows`, `C103_rows_fortran`, `C103_species`, `C103_tendencies`, `C103_tendencies_fortran`, `C104_files_python`, `C104_fortran_differs`, `C104_rows`, `C104_species`, `C104_tendencies`, `C104_tendencies_fortran`, `C105_files`, `C105_rows`, `C105_soa`, `C105_tendencies`, `C106_files`, `C106_fixed_yield`, `C106_rows`, `C106_size`, `C106_soa`, `C106_tendencies`, `C106_totals`, `C107_day_aerosol`, `C107_day_fortran`, `C107_day_python`, `C107_night`, `C107_rates_day`, `C107_running_aerosol`, `C107_running_fortran`, `C107_running_python`, `C108_files_fortran`, `C108_files_python`, `C108_monotone`, `C108_rows`, `C108_rows_fortran`, `C108_tendencies`, `C109_files_fortran`, `C109_files_python`, `C109_rows`, `C109_rows_fortran`, `C109_tendencies`, `C10_exact`, `C10_false`, `C10_mass_action_partial`, `C10_value`, `C110_files_aerosol`, `C110_files_fortran`, `C110_files_python`, `C110_places`, `C110_rows_aerosol`, `C110_rows_fortran`, `C110_rows_python`, `C110_system`, `C110_system_aerosol`, `C110_system_fortran`, `C11_photon_only`, `C11_same_factors`, `C11_same_programs`, `C12_gain_minus_loss`, `C12_written`, `C13_exact`, `C13_false`, `C13_same_partial`, `C13_value`, `C14_exact`, `C14_false`, `C14_matrix_partial`, `C15_constant`, `C15_jacobian_rows`, `C15_never_written`, `C16_conservation_partial`, `C16_false`, `C17_quasi_positive`, `C18_false`, `C18_valid_iff`, `C18_valid_iff_fortran`, `C18_valid_partial`, `C19_derivative_partial`, `C19_exact`, `C19_false`, `C20_same_matrix`, `C21_order_independent`, `C22_sparsity_sound`, `C23_balanced`, `C23_work_splitting`, `C24_any_schedule`, `C25_pass_through`, `C26_expression`, `C26_idempotent`, `C27_false`, `C27_kept_fortran`, `C27_kept_numba`, `C27_translated_partial`, `C28_array_references`, `C28_plain_python_wrong`, `C28_well_bracketed`, `C29_altered_exact`, `C29_false`, `C29_fortran_partial`, `C29_literals_partial`, `C29_zero_exponent`, `C30_one_assignment`, `C31_exact`, `C31_false`, `C31_none_fails`, `C31_once`, `C31_radicals_partial`, `C32_C33_whole_batches`, `C32_any_rounding`, `C32_output_times`, `C33_exact`, `C33_failure`, `C33_false`, `C33_false_rounding`, `C33_whole_seconds`, `C34_exact`, `C34_false`, `C34_periodic_partial`, `C35_aerosol`, `C35_aerosol_unknown`, `C35_gas`, `C35_gas_unknown`, `C36_exchange`, `C36_total`, `C37_excluded`, `C38_own_bin`, `C39_driven`, `C39_radius`, `C39_rate`, `C40_accommodation`, `C40_between`, `C40_decreasing`, `C40_routine`, `C41_mass`, `C41_nonneg`, `C41_water`, `C42_arrays`, `C42_complete`, `C42_split`, `C43_exact`, `C43_false`, `C43_layout`, `C43_water_partial`, `C44_exact`, `C44_false`, `C44_narrow`, `C44_one_bin`, `C44_shape`, `C44_sizes_partial`, `C45_dense`, `C45_first`, `C45_order`, `C45_reads`, `C45_species`, `C46_exact`, `C46_false`, `C46_first_missing`, `C46_irrelevant`, `C46_objects`, `C46_own_partial`, `C47_other_slots`, `C47_photolysis`, `C47_plain_python_undefined`, `C48_same_coefficients`, `C48_same_photolysis`, `C49_always_fails`, `C49_completes_partial`, `C49_false`, `C49_outcome`, `C50_defined_positive`, `C50_names`, `C51_breaks_conservation`, `C51_false`, `C51_lost_update`, `C51_one_thread`, `C51_private_repair`, `C51_synced_partial`, `C52_admissible`, `C52_diffusivity`, `C52_heavier`, `C52_path`, `C52_velocity`, `C53_activity`, `C53_saturated`, `C53_water_slots`, `C54_close`, `C54_dry_size`, `C55_false`, `C55_kinetics_partial`, `C55_no_radicals`, `C55_value`, `C56_derivative`, `C56_exact`, `C56_false`, `C56_jacobian_partial`, `C57_coupled`, `C57_defined`, `C57_fixed_yield`, `C57_rate`, `C58_exact`, `C58_false`, `C58_humidity_partial`, `C58_saturation`, `C59_conserved`, `C59_conserved_fortran`, `C59_not_gained`, `C59_not_gained_fortran`, `C60_nonneg`, `C60_nonneg_fortran`, `C61_exists`, `C61_exists_fortran`, `C61_solution`, `C61_solution_fortran`, `C61_unique`, `C61_unique_fortran`, `C62_conserved`, `C62_fixed_yield`, `C62_held`, `C62_not_gained`, `C62_water`, `C63_fixed_yield`, `C63_nonneg`, `C64_exists`, `C64_exists_fixed_yield`, `C64_unique`, `C64_unique_fixed_yield`, `C65_continuous_partial`, `C65_course`, `C65_daylight`, `C65_exact`, `C65_false`, `C65_pieces`, `C66_defined`, `C66_nonneg`, `C66_piecewise`, `C66_value`, `C67_same`, `C68_exists`, `C68_same_rows`, `C68_same_system`, `C69_fortran`, `C69_python`, `C69_rates`, `C70_jacobian_fortran`, `C70_jacobian_python`, `C70_rate_law`, `C70_reactants_fortran`, `C70_reactants_python`, `C70_rhs_fortran`, `C70_rhs_python`, `C70_same_jacobian`, `C70_tendency_fortran`, `C70_tendency_python`, `C71_crossed`, `C71_exact`, `C71_one_thread`, `C71_race`, `C71_shared`, `C71_synced`, `C72_conserved`, `C72_defined`, `C72_exists`, `C72_files`, `C72_handed`, `C72_nonneg`, `C72_rate_law`, `C72_same_system`, `C72_system`, `C72_unique`, `C73_exists`, `C73_files_fortran`, `C73_files_python`, `C73_jacobian`, `C73_jacobian_file`, `C73_rate_law_fortran`, `C73_rate_law_python`, `C73_results`, `C73_same_rows`, `C73_same_system`, `C73_system_fortran`, `C73_system_python`, `C74_false`, `C74_jacobian`, `C74_partial`, `C74_partition`, `C74_rates`, `C74_reactants`, `C74_tendency`, `C76_determined`, `C76_exact`, `C76_humidity`, `C76_prepared`, `C76_radius`, `C76_reported`, `C76_run`, `C76_structures`, `C77_activity`, `C77_determined`, `C77_exact`, `C77_file`, `C77_humidity`, `C77_mass`, `C77_prepared`, `C77_radius`, `C77_run`, `C77_system`, `C78_present`, `C78_present_fortran`, `C79_fixed_yield`, `C79_present`, `C79_yield_run`, `C80_charts`, `C80_exact`, `C80_excluded`, `C80_run`, `C80_title`, `C81_aerosol`, `C81_drift`, `C81_drift_aerosol`, `C81_drift_fixed_yield`, `C81_drift_fortran`, `C81_fixed_yield`, `C81_gas`, `C81_gas_fortran`, `C81_lower`, `C81_rounding`, `C81_versions`, `C82_false`, `C82_kinds_partial`, `C82_runs`, `C82_same_partial`, `C82_zero`, `C83_coefficients`, `C83_rates`, `C84_listings`, `C84_mass_action`, `C84_matrix`, `C85_photolysis`, `C85_rates`, `C86_aerosol`, `C86_aerosol_exact`, `C86_exact`, `C86_exact_fortran`, `C86_gas`, `C86_gas_fortran`, `C86_rounding`, `C86_versions`, `C87_jacobian`, `C87_mechanism`, `C87_rates`, `C87_reactants`, `C87_tendency`, `C88_effect`, `C88_exact`, `C88_fortran`, `C88_python`, `C88_reactants`, `C88_slope`, `C88_sum`, `C88_tendency`, `C89_conserved`, `C89_exists`, `C89_gas_batch`, `C89_held`, `C89_ignored`, `C89_nonneg`, `C89_not_gained`, `C89_partition_batch`, `C89_unique`, `C89_water`, `C90_clock`, `C90_exact`, `C90_false`, `C90_first_row`, `C90_half_partial`, `C90_sun`, `C91_coefficients`, `C91_photolysis`, `C91_python`, `C91_rates`, `C91_runs`, `C92_direction`, `C92_exact`, `C92_results`, `C92_small`, `C93_conserved`, `C93_small`, `C94_aerosol`, `C94_bounds`, `C94_fortran`, `C94_fortran_slope`, `C94_gas`, `C94_lipschitz_aerosol`, `C94_python`, `C94_python_slope`, `C94_radicals`, `C94_rounded`, `C94_runs`, `C94_sharp`, `C94_terms`, `C95_bounds`, `C95_runs`, `C95_slope`, `C96_between`, `C96_versions`, `C97_KBPPN`, `C97_KBPPN_half`, `C97_false`, `C97_limits`, `C97_partial`, `C98_formulas`, `C98_reported`, `C98_vapour`, `C99_aerosol`, `C99_aerosol_lost`, `C99_conserved`, `C99_conserved_iff`, `C99_kinetics`, `C99_lost`, `C99_lost_fortran`, `C99_never_more`, `C99_never_more_fortran`, `C99_recorded`, `C99_split`, `Files.C75_anywhere`, `Files.C75_false`, `Files.C75_fortran`, `Files.C75_history`, `Files.C75_last`, `Files.C75_mixed`, `Files.C75_own`, `Files.C75_partial`, `Files.C75_prepares_fortran`, `Files.C75_prepares_python`, `Files.C75_python`, `Files.C75_restart`, `Files.C75_simulates`, `Files.C75_stale`, `channel_run`, `divided_bins`, `divided_run`, `eaten_written`, `fixed_yield_run`, `generated_radicalFree`, `generated_steady`, `lossy_aerosol_run`, `lossy_run`, `merged_split_text`, `pyInt_iff`, `radical_aerosol_run`, `radical_generated`, `radical_near`, `radical_run`, `radical_run_fortran`, `swapped_aerosol_run`, `swapped_particles`, `swapped_reordered`, `swapped_rounded_runs`, `swapped_run`, `tracer_aerosol_run`, `tracer_none`, `tracer_run`, `withOmp_region`
* `Quot.sound`, `propext`: `C23_empty`, `C28_plain_restored`, `C38_layout`, `C87_partition`, `C87_uncalled`, `Files.C75_aerosol`, `Files.C75_aerosol_repaired`
