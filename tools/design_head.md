# Formal model of PyBox: design and trusted base

Everything is in Lean 4.33.0 with single Mathlib modules, under `lean/Verif/`. `/repo` is only read as
text; it is never run. `properties.jsonl` lists the properties, `MANIFEST.json` the theorems for each,
`seeded/LOG.jsonl` the wrong programs the theorems were tested against. `tools/props.py`,
`tools/manifest.py` and `tools/design.py` write `properties.jsonl`, `MANIFEST.json` and this file.

## Method

* The code is modelled function by function as Lean functions (a shallow embedding). A definition cites
  the file and lines it models. Exceptions are values (`Except PyErr`), loops are folds or structural
  recursion, strings are lists of characters, dictionaries are insertion-ordered association lists.
* A generator of code is modelled by the program it writes, and the program has a semantics of its own:
  token lists with an evaluator for the gas phase routines (`Gen/Expr.lean`), a parsed language for the
  fixed part of the rate files (`Rate/Lang.lean`), a direct transcription for the partitioning routine
  (`Aerosol/Partition.lean`). A right-hand side that is not an expression, or divides by zero, evaluates
  to `none`.
* Specifications are separate definitions in the namespace `PyBox.Spec` (`Spec/Reaction.lean` and the head
  of each file in `Props/`); they speak about reactions as written, concentrations, bins, trajectories.
* Theorems named `Cxx_...` are the properties. Where the code does not have a property, the property is a
  definition `Cxx_Statement`, `Cxx_false` refutes it with a concrete input, `Cxx_..._partial` is the part
  that holds, and (in most cases) `Cxx_exact` or another theorem says exactly when it holds.
* Every theorem with hypotheses has an `example` or a named theorem (`sample_...`, `radical_...`,
  `water_...`) near it with a non-trivial case that meets them.

## Layers of the model

| layer | modules | code in /repo |
|---|---|---|
| Python built-ins | `Py/*` | `str` methods, `dict` order, a backtracking regular expression engine for the patterns used |
| mechanism parser | `Parse/Model` (model); other files in `Parse/` (lemmas) | `Parse_eqn_file.extract_mechanism` 46–310 |
| species and structure files | `Parse/Structures` | `extract_smiles_species` 312–357, `extract_species` 359–427 |
| rate text conversion | `Rate/Model` | `rate_coeff_conversion.py` |
| fixed part of rate files | `Rate/Sources` (text), `Rate/Lang` (reader, semantics), `Rate/Sym`, `Rate/Signs` (analyses proved correct) | `write_rate_file` 429–790, `write_rate_file_numba` 888–1262, `write_rate_file_fortran` 1312–1743 |
| kinds of Fortran numbers | `Rate/Kinds` (reader and semantics with kinds), `Rate/KindCheck` (check proved correct) | `write_rate_file_fortran` 1312–1768 |
| rounding in Fortran rate files | `Rate/Errors`, `Rate/ErrorOps`, `Rate/ErrorRun` `Rate/Mixed` (analysis proved correct), `Rate/FactsErrors`, `Rate/FactsSun` (run on the text) | `write_rate_file_fortran` 1312–1768 |
| rate assignments | `Rate/File` | 803–806, 1271–1274, 1745–1768 |
| peroxy radicals | `Gen/Peroxy` | `write_RO2_indices` 1787–2120 |
| gas routines | `Gen/Model`, `Gen/Expr` (programs), `Gen/Sources`, `Gen/Text` (files and a reader) | `write_reactants_indices(_fortran)`, `write_loss_gain_matrix`, `write_loss_gain_fortran`, `write_gas_jacobian_numba`, `write_gas_jacobian_fortran` 2129–3200 |
| partitioning routine | `Aerosol/Partition`, `Aerosol/Source` and `Aerosol/PartText` (file), `Aerosol/Fortran` (reader, semantics), `Aerosol/Rounded` (semantics with rounding) | `write_partitioning_section_fortran_ignore` 3418–3650 |
| functions handed to the solver | `Sim/Rhs`, `Aerosol/Rhs`, `Aerosol/Split` | `dydt_func`, `jacobian` of all `ODE_solver*.py` |
| batch loops | `Sim/Model` | `run_simulation` of all `ODE_solver*.py` |
| initial state | `Props/Initial`, `Aerosol/Slices` | initial vectors of the drivers |
| files of a run, restart | `Sim/Files` | `files_exist` branches of the four drivers |
| species properties, water | `Aerosol/Properties` | `Property_calculation.py`, section 5 of `Aerosol_simulation_f2py.py` |
| preparation of an aerosol run | `Sim/AerosolDriver` | sections 1 and 4 to 10 of `Aerosol_simulation_f2py.py`, initial vector of `Aerosol/f2py/ODE_solver.py` |
| preparation of a fixed-yield run | `Sim/YieldDriver` | `Aerosol_sim_fixed_yield.py` 67–431, initial vector of `ODE_solver_fixedyield.py` |
| charts of a fixed-yield run | `Sim/Chart` | `Aerosol/f2py/Fixed_yield/Plotting.py` |
| size distribution | `Aerosol/Sizes` | `Size_distributions.py`, section 8 of `Aerosol_simulation_f2py.py` |

## Trusted base

* Lean's kernel, and the axioms `propext`, `Classical.choice` and `Quot.sound` (table at the end). No
  other axiom, no `sorry`, no `native_decide`, no `bv_decide`. `decide +kernel` is used for concrete
  witnesses and for facts about the fixed texts in the source; it is evaluated by the kernel.
* The reading of `/repo` into Lean definitions. Long tables are copied by scripts, not by hand:
  `tools/rate_sources.py` (the `f.write` texts of the rate files), `tools/gas_sources.py` (those of the gas
  routines), `tools/partition_source.py` (those of the partitioning routine) and `tools/ro2.py` (the radical names).
  The elaborator `chars%` (`Py/Chars.lean`) only turns a string literal into a list of characters.
* Arithmetic. Coefficients in mechanism files are exact rationals, concentrations and rates exact reals;
  `C32_any_rounding`, `C33_false_rounding` and `C33_whole_seconds` treat the rounding of the clock. How
  Python prints a coefficient is a parameter of C70 (any unsigned decimal numeral, of any value). The kinds
  of Fortran literals (integer, single, double precision) are modelled for rate files in C82 without rounding, and in C83, C85,
  C88 (gas routines), C91 (Python, all numbers double), C92 and C93 (partitioning routine, every literal possibly single), C95 (all of them) with rounding: each operation may return any value within the relative error of its precision (`ieee`).
* The readers of Python and Fortran text in `Rate/Lang.lean`, `Gen/Text.lean` and `Aerosol/Fortran.lean`:
  comments, line breaks, continuations, tokens, precedence, array elements, in the last also declarations,
  array sections, whole-array operations and OpenMP clauses. The gas routines and the partitioning routine are
  proved equal to their texts (C70, C71).
* The working directory (C75): a dictionary from names to contents without subdirectories; a pickle gives back the
  saved value; a compiled module behaves as the source it was compiled from.
* f2py hands zero-filled arrays to the output arguments of the generated gas routines (not assumed in C71).
* OpenMP: a block runs as an interleaving of the reads and writes of its threads (C24), or of whole statements
  (C51, C71); private variables start with arbitrary contents.
* External libraries are parameters: the ODE solver (Assimulo CVode) is an arbitrary function in C32, C33,
  C49 and an exact solver in C34, C59 to C64, C68, C72, C73, C76 to C79 and C89, and a solver with bounded errors in C81; UManSysProp, Pybel and `float` are arbitrary functions;
  `scipy.stats.lognorm` is the formula of its documentation; minidom gives a list of nodes.

## Not modelled

* Printing, what Matplotlib draws, timing, command line prompts, the
  compilation of generated files (`f2py_*.py`), `test/`.
* The organic mass `write_partitioning_section_fortran` (3203–3416) adds up in an output it never sets, and code that is
  commented out.
* That the solver raises or does not reach its tolerance.

## Plan and outcome per property

Parser (C01–C09, C45, C46): induction over the list of terms and equations with an invariant on the tables;
C03 and C04 by round trip lemmas for the two brace patterns and for `split`; C08 by an exact description of
the accepted texts. Code generators (C10–C24, C30, C31): evaluation of the written lines, with sums and
products over the reactions as specification; C19 with `HasDerivAt`, C24 by commuting writes. Rate text
(C25–C29): substitutions on strings. Fixed part of the rate files (C47, C48, C50): a sign analysis and a
symbolic comparison, both proved correct for all programs, run by the kernel on the texts of the source.
Whole rate files (C65 to C68): the text before the assignments parses on its own (`Rate/Whole`), so a file
is the fixed program followed by one assignment per reaction; C68 composes this with C61.
Text of the gas routines (C69, C70): C69 by invariants of the generators; C70 by lexing and parsing the printed
tokens back (`Gen/Read`), the fixed parts by computation with symbolic sizes (`Gen/Frames`).
Text of the partitioning routine (C71): the file is lexed and parsed with symbolic sizes (`Aerosol/PartRead`,
`Aerosol/PartRoutine`); an invariant of the loop, over every prefix of every possible order of its statements
(`Aerosol/PartLoop`), gives the contents of memory.
Files of a run (C75): what a series of steps leaves in a file is decided by the last step touching its name, and names
are told apart by their endings; the file written last marks a complete run.
Preparation of an aerosol run (C76): the theorems about its parts (C01, C35, C42 to C44, C46, C52 to C54) composed along
the driver, then with C62 and C72. Fixed yields (C77): the same with C45 for the yield file, C62 to C64 and C71.
Species there in the results (C78, C79): entries decay at most exponentially, so what is there stays; where the right-hand
side is positive an entry leaves zero, and a set of entries that no right-hand side lifts stays zero (`Sim/Presence.lean`).
Induction over the chains of reactions, and over gas and bins of a species, turns this into an exact description.
Charts (C80): the loop over the species is summed up in closed form; C79 gives that no bin is empty.
Solvers with errors (C81): a tube around the exact trajectory in which the right-hand side is Lipschitz (compactness),
Gronwall's inequality in it, and induction over the batches (`Sim/Near.lean`).
Kinds of Fortran numbers (C82): a second reader keeps the kinds; without them it is the first reader (`kRead_erase`,
`kRate_reads`). A check of kinds is proved correct for all expressions and run by the kernel on the fixed part.
Rounding (C83): an analysis bounds relative errors, absolute errors and ranges of all variables of a program; it is proved
correct for all programs and all ways to round (`Rate/ErrorRun.lean`) and run by the kernel on the fixed part, with a table
of hints that it checks (`Rate/FactsErrors.lean`). Photolysis (C85): the hour is compared with the hour counted from the
day the computed time falls in, which changes the hour angle by a multiple of a full turn only; heights of the sun above
0.005 are divided into bands to each of which the analysis is applied; below, both rates are negligible.
Errors of rate coefficients (C86): two right-hand sides that differ by a bounded amount on a bounded set of states, on which
one of them is Lipschitz; Gronwall's inequality and induction over the batches (`Sim/Sensitive.lean`); totals that do not
grow give a set that all exact solutions stay in, whatever the rates.
Rounding in the gas routines (C88): the printed lines are parsed with the kinds of their literals; an error is kept as an
exponent relative to the sum of sizes (`Near`, `Gen/Rounded.lean`), which adds up along products and does not grow along sums.
Double precision in Python (C91): the program is turned into one with kinds in which every number is double
(`Rate/Doubles.lean`), and the analysis of C83 and C85 is applied to it, with three bands of the height of the sun
(`Rate/FactsDouble.lean`); then composed with C88 and C86. Not modelled: the rounding of `start + t` in the driver.
Rounding in the partitioning routine (C92, C93): executions of the text of C71 in which every operation may round
(`Aerosol/Rounded.lean`); each statement of a pass adds to the error of what it reads (`Aerosol/RoundedSteps.lean`), the
difference of gas and equilibrium turns factors into errors relative to the sum; conservation needs the types of the
variables only (`Aerosol/RoundedConserve.lean`). Executions without errors are among them (`Aerosol/RoundedExact.lean`).
Errors in numbers (C94, C95): as C86 with the Lipschitz constant and the bounds on the terms written out (`Sim/Explicit.lean`);
the difference of the slopes is bounded term by term. The bounds exist because continuously differentiable functions are
bounded and Lipschitz on boxes. For `y' = K y` the bound is attained. C95 adds the errors of C92 and of one addition.
C96: a run with rounding is a run of the system without rounding with a larger error of the solver; then C94 and C68.
C97: a table of laws (`Rate/Published`); each law is written once as an expression whose value on the reals is
proved to be that of the law; the kernel compares its normal form with that of the symbolic run of the text.
C98: the derivative of the logarithm of the ratio is a rational function; its numerator has positive coefficients in
the Bernstein basis of the interval; the value at one end from bounds on logarithms.
Wrongly recorded products (C99): the list of recorded products from `C06_exact` (`Props/Recorded`); weights of
the recorded net coefficients; strict loss from a one-sided derivative that is negative at one moment
(`Props/RepeatedProducts`). The existence theorems (C61, C64, C72, C73, C89) use only that no weight is gained.
Order of the reactions (C100): the tendencies are sums over the reactions of terms that depend only on the reaction and
on concentrations looked up by name, so a permutation of the reactions gives the same sum; a permutation of the
components carries exact solutions of one system to exact solutions of the other, and uniqueness (C61) does the rest.
Order of the species with particles (C101): places of the state are paired by species and bin; sums over the condensing
species agree under the pairing, so the tendencies do, and the pairing is a bijection of the components (C100).
Order with rounding (C102): a renaming carries an approximate run of one system to one of the other with the same errors;
then C94 for each of the two and C96.
Added reactions (C103): the sum over the reactions splits into those of the file and the added ones; with no contribution of
the latter the projection of a solution of the larger system solves the smaller one, and its solutions are unique.
Channels (C104): the sum over the reactions is grouped by the reaction the channels belong to; then as C103.
Tracers with particles (C105): the condensing species are paired, so the exchange is that of C101; the chemistry is that of
C103, and the projection to the places of the smaller state maps solutions to solutions.
Divided bins (C106): amount, mass and volume of a bin are the shares, so radius and mole fractions are the same and the
exchange is the share; the sum over the bins of the gas is grouped by the bin divided; the shares of a solution are the solution.
The clock (C107): rate values depend on the time through the height of the sun only, which has the period of a day; shifted
solutions are solutions, and solutions are unique. In the night the initial state is a solution (`Props/ClockNight`).
First order (C108): with one reactant the product computed for a reaction is a concentration and the rates do not depend on
the state, so sums of solutions are solutions; solutions are unique (`Props/Linear`).
One order (C109): products of concentrations are homogeneous; a solution with scaled amounts and scaled time is a
solution, and solutions are unique (`Props/Order`).
Names (C110): registration, recorded coefficients and products commute with injective renamings; the list of peroxy radicals
is permuted (`Props/Renamed`).
Width of the Fortran lines (C74): columns are followed through the printed tokens, with the counter of the
continuation lines as invariant (`Gen/Width`).
Drivers (C32–C35, C49): the loop with an arbitrary solver; C34 with exact solutions. Aerosol (C36–C44,
C51–C54): real arithmetic over bins and species; C51 by interleavings of threads. Functions handed to the
solver (C55–C58): composition of the above. Trajectories (C59–C64): the right-hand sides are shown to be
locally Lipschitz and quasi-positive; invariance of non-negative states, uniqueness (Gronwall) and existence
for all times (Picard–Lindelöf with a bound from non-growing totals) are proved for all such systems in
`Sim/Positive.lean`, `Sim/Exists.lean` and `Sim/Tame.lean`.
Whole simulations from their files (C72, C73): the text theorems C66, C70 and C71 composed with C55 to C64 and C68.
Operator splitting (C89, C90): for species that are not masked the routine with masks agrees with the other one, for the
others it gives 0, so the partitioning system is a weighted form of the fixed-yield system (`Props/SplitRhs.lean`); rows are
followed batch by batch as in C62 to C64. C90 by induction over the batches, for flows that commute.
Declarations (C87): a file is cut into statements of names and signs (`Gen/Names.lean`); the fixed parts are checked by the
kernel once, numbers in them do not matter, and the lines of reactions contain only names of arrays.

