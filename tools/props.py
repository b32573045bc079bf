import json
P=[]
def p(id,title,statement,quantifier,why,anchors):
    P.append(dict(id=id,title=title,statement=statement,quantifier=quantifier,why_tests_cant=why,anchors=anchors))
PE="Parse_eqn_file.py"
p("C01","Species numbering is a bijection",
 "If a mechanism file parses, the name->index map and the index->name map returned to the caller are mutually inverse, the indices used are exactly 0..n-1 with no gaps or repeats, species are numbered in order of first appearance, and the photon marker 'hv' never receives an index.",
 "every text whose parse succeeds","The set of mechanism files is infinite; a repeated or skipped index appears only for particular interleavings of old and new names.",
 [PE+":extract_mechanism"])
p("C02","Species table and reaction tables name the same species",
 "After a successful parse every species that occurs as a reactant, in the loss table or in the gain table has an index, and every indexed species occurs as a reactant or product of at least one reaction below the reported reaction count.",
 "every text whose parse succeeds","Dangling or orphan names depend on the whole file history, not on any one reaction.",
 [PE+":extract_mechanism"])
p("C03","Parsing a well-formed mechanism file recovers the mechanism",
 "Writing any list of coefficient-free reactions in the documented '{n.} A + B = C + D : rate ;' layout and parsing the text returns exactly those reactions: the number of reactions, for each reaction its reactants in order, and its rate expression with white space removed.",
 "every finite list of reactions over legal names and rate expressions","Round trip over an unbounded language; tests only show it for a few files.",
 [PE+":extract_mechanism"])
p("C04","Line breaks and tabs do not change the parsed mechanism",
 "Two mechanism texts that differ only in line breaks give the same result, including the same error; tabs inserted in the body of an equation do not change that equation's reactants, products or rate.",
 "every text and every choice of places for line breaks and tabs","All placements of line breaks in all files.",
 [PE+":extract_mechanism"])
p("C05","Loss coefficients are the sum over repeated reactants",
 "The loss coefficient recorded for a species in a reaction is the sum of the stoichiometric coefficients of all its occurrences on the left-hand side; species that do not occur there have no entry.",
 "every mechanism, reaction and species","Repeated reactants in every order and multiplicity; an overwrite instead of an accumulation shows only for particular orders.",
 [PE+":extract_mechanism","loss_dict"])
p("C06","Gain coefficients are the sum over repeated products",
 "The gain coefficient recorded for a species in a reaction is the sum of the coefficients of all its occurrences on the right-hand side, and no product is dropped.",
 "every mechanism, reaction and species","The recorded coefficient depends on the whole ordered list of products and on the last reactant.",
 [PE+":extract_mechanism","gain_dict"])
p("C07","Leading coefficients are separated from names",
 "For every coefficient c and every legal species name s, the term written as c immediately followed by s is read as coefficient c and name s, and the term s alone is read as coefficient 1 and name s.",
 "every decimal coefficient and every name (letters and digits, not starting with a digit)","Names and numbers are unbounded strings; the outcome depends on which digits the name contains.",
 [PE+":extract_mechanism"])
p("C08","Parsing fails exactly on malformed files",
 "Parsing returns a result if and only if the last brace label is an integer n, there are at least n equation bodies, and each of the first n has a ':' , a '=' before it, and no blank reactant; otherwise an exception is raised and nothing is returned. The number of rate expressions returned is exactly n.",
 "every text","Every malformed text must be rejected and every well-formed one accepted.",
 [PE+":extract_mechanism"])
p("C09","Appending reactions never changes earlier ones",
 "If a mechanism is extended with more reactions at the end, all species indices, reactants, rate expressions, loss and gain coefficients of the earlier reactions are unchanged and new species are numbered after the old ones.",
 "every mechanism and every extension of it","Relates two runs over unbounded inputs.",
 [PE+":extract_mechanism"])
p("C10","Reactant products follow the law of mass action",
 "The generated code sets the concentration factor of each reaction to the product over its distinct reactants of concentration raised to the total stoichiometric coefficient.",
 "every mechanism and every concentration vector","Generated code is different for every mechanism and must be right for every concentration vector.",
 [PE+":write_reactants_indices",PE+":write_reactants_indices_fortran"])
p("C11","Python and Fortran backends compute the same reactant products",
 "For the same mechanism and the same concentrations the two generated programs assign the same value to the factor of every reaction.",
 "every mechanism and concentration vector","Equivalence of two generated programs for all mechanisms.",
 [PE+":write_reactants_indices",PE+":write_reactants_indices_fortran"])
p("C12","Generated tendencies equal gain minus loss",
 "The generated Python code sets dy/dt of each species to the sum over reactions of (gain coefficient minus loss coefficient) times the reaction rate.",
 "every mechanism, species and rate vector","Generated code over all mechanisms and real inputs.",
 [PE+":write_loss_gain_matrix"])
p("C13","Fortran tendencies agree with Python tendencies",
 "For the same mechanism and rate vector the generated Fortran and Python programs produce the same dy/dt.",
 "every mechanism and rate vector","Equivalence of two generated programs for all mechanisms, in particular coefficients other than one.",
 [PE+":write_loss_gain_fortran",PE+":write_loss_gain_matrix"])
p("C14","Saved stoichiometric matrix agrees with the generated tendency code",
 "Multiplying the sparse loss/gain matrix saved to disk by the rate vector gives the same dy/dt as the generated function.",
 "every mechanism and rate vector","Agreement is lost only for species on both sides of a reaction; needs all mechanisms.",
 [PE+":write_loss_gain_matrix"])
p("C15","Bath gases and photons are held constant",
 "AIR, H2O, O2 and hv have zero tendency whatever the mechanism says about them, in both backends, and their entries are never written.",
 "every mechanism, concentration and rate vector","All mechanisms including those listing them as reactants or products.",
 [PE+":write_loss_gain_matrix",PE+":write_loss_gain_fortran",PE+":write_gas_jacobian_numba"])
p("C16","Balanced mechanisms conserve every element",
 "If every reaction as written in the mechanism is balanced for a weight (for example the number of carbon atoms) and held-constant species weigh nothing, the weighted sum of the generated tendencies is zero.",
 "every mechanism, every balanced weight, every concentration and rate vector","Conservation for all states is a statement about infinitely many real inputs.",
 [PE+":extract_mechanism",PE+":write_loss_gain_matrix"])
p("C17","Tendencies never drive an absent species negative",
 "With non-negative concentrations and rate coefficients and positive written stoichiometric coefficients, a species whose concentration is zero has a non-negative tendency.",
 "every mechanism, every non-negative state","Holds for all states on the boundary of the positive orthant.",
 [PE+":write_reactants_indices",PE+":write_loss_gain_matrix"])
p("C18","Generated tendency code is always a valid program",
 "Every assignment written to the generated tendency file has a non-empty right-hand side that parses as an arithmetic expression.",
 "every mechanism that parses","Depends on the parse history of the whole file.",
 [PE+":extract_mechanism",PE+":write_loss_gain_matrix",PE+":write_loss_gain_fortran"])
p("C19","The Jacobian code is the derivative of the tendency code",
 "Each entry (s,x) of the generated Jacobian equals the partial derivative of the generated tendency of s with respect to the concentration of x, rate coefficients held fixed.",
 "every mechanism, every concentration and rate vector","A derivative identity over the reals for every mechanism.",
 [PE+":write_gas_jacobian_numba",PE+":write_gas_jacobian_fortran","ODE_solver.py:run_simulation"])
p("C20","Python and Fortran Jacobians agree",
 "For the same mechanism, concentrations and rate coefficients the two generated Jacobian programs produce the same matrix.",
 "every mechanism, concentration and rate vector, and every iteration order of the reactant sets used by either run","Set iteration order differs from run to run and the domain is infinite.",
 [PE+":write_gas_jacobian_numba",PE+":write_gas_jacobian_fortran"])
p("C21","Jacobian values do not depend on set iteration order",
 "Python's arbitrary iteration order over sets of reactant names changes the text of the generated Jacobian but never the value it computes.",
 "every mechanism, every iteration order, every input","Hash randomisation makes the order different in every process.",
 [PE+":write_gas_jacobian_numba"])
p("C22","Jacobian sparsity is sound",
 "If no entry (s,x) is written, the tendency of s does not depend on the concentration of x.",
 "every mechanism and pair of species","Independence for all concentration vectors.",
 [PE+":write_gas_jacobian_numba",PE+":write_reactants_indices",PE+":write_loss_gain_matrix"])
p("C23","OpenMP work splitting covers each reaction exactly once",
 "For every number of cores and every mechanism with at least one reaction and species the generated parallel region is well bracketed, every reaction line is inside exactly one SINGLE block and is emitted exactly once, in order, removing the pragmas gives the serial program, and no block gets more than one line above an even share.",
 "every number of cores, every number of reactions","Unbounded combinations of machine size and mechanism size, including more cores than reactions.",
 [PE+":write_reactants_indices_fortran",PE+":write_loss_gain_fortran",PE+":write_rate_file_fortran"])
p("C24","Parallel blocks can run in any order",
 "Executing the SINGLE blocks of the generated Fortran program in any order and interleaving gives the serial result, because no two lines write the same cell and none reads a cell another writes.",
 "every mechanism and every schedule of blocks over threads","Schedules are exponentially many and not reproducible in a test.",
 [PE+":write_reactants_indices_fortran",PE+":write_loss_gain_fortran"])
p("C25","Rate text without special patterns is passed through unchanged",
 "A rate expression containing no function name, no double-precision exponent and no bracket is written to the generated code character for character.",
 "every rate expression","Unbounded strings; an over-eager replacement appears only on particular substrings.",
 ["rate_coeff_conversion.py:convert_rate_mcm_numba","rate_coeff_conversion.py:convert_rate_mcm_fortran"])
p("C26","Fortran rate conversion is idempotent",
 "Converting an already converted rate table again leaves it unchanged, so calling the conversion twice, as the aerosol driver does, is harmless.",
 "every rate expression","Idempotence of a chain of textual substitutions on arbitrary strings.",
 ["rate_coeff_conversion.py:convert_rate_mcm_fortran","Aerosol/f2py/Aerosol_simulation_f2py.py"])
p("C27","Every mathematical function in a rate expression is translated",
 "Each function of the list the converter documents is replaced by its target-language name wherever it occurs.",
 "every rate expression","All combinations and positions of function names.",
 ["rate_coeff_conversion.py:convert_rate_mcm","rate_coeff_conversion.py:convert_rate_mcm_numba","rate_coeff_conversion.py:convert_rate_mcm_fortran"])
p("C28","Photolysis references become array references",
 "In the Python backend every 'J(n)' becomes 'J[n]' with the matching bracket, and every other bracket of the expression is kept, so the expression stays well bracketed.",
 "every rate expression with any number of photolysis references","Position-dependent rewriting of unbounded strings.",
 ["rate_coeff_conversion.py:convert_rate_mcm_numba"])
p("C29","Double-precision literals keep their value and names are not damaged",
 "Each literal written with a D exponent is rewritten to the same number in E notation, and no identifier is altered by that rewriting.",
 "every literal and every identifier","All mantissas, exponents and identifiers.",
 ["rate_coeff_conversion.py:convert_rate_mcm_fortran","rate_coeff_conversion.py:convert_rate_mcm_numba"])
p("C30","One rate assignment per reaction",
 "The generated rate program assigns each reaction's rate exactly once, to its own slot, and to no other slot, in both index conventions.",
 "every mechanism","Every number of reactions.",
 [PE+":write_rate_file",PE+":write_rate_file_numba",PE+":write_rate_file_fortran"])
p("C31","The peroxy-radical sum counts each listed radical present exactly once",
 "The index list saved for the RO2 sum contains the index of every species of the mechanism whose name is in the published radical list, each exactly once, and no other index; all indices are in range.",
 "every mechanism","All subsets of species that a mechanism may contain.",
 [PE+":write_RO2_indices"])
p("C32","Output times are the multiples of the batch length",
 "A completed run reports the times batch, 2*batch, ... in order, one row of the output matrix per time, and the row at position k is the state the solver reached at the end of batch k+1.",
 "every simulation length, batch length and solver behaviour","Unbounded number of batches and arbitrary solver.",
 ["ODE_solver.py:run_simulation","f2py/ODE_solver.py:run_simulation","Aerosol/f2py/ODE_solver.py:run_simulation"])
p("C33","A run completes for every simulation length",
 "A run with positive simulation and batch lengths completes and covers the requested time.",
 "every pair of positive lengths","All pairs of lengths; failure occurs only when one does not divide the other.",
 ["ODE_solver.py:run_simulation"])
p("C34","Splitting a run into batches does not change the trajectory",
 "With an exact solver, the state reported at time t is the exact solution at time t started from the initial state, however the run is cut into batches.",
 "every right-hand side, including ones that depend on time of day, and every batch length","Equality of flows for all right-hand sides.",
 ["ODE_solver.py:run_simulation","ODE_solver.py:dydt_func"])
p("C35","Initial concentrations land in the right slots",
 "The initial state has each given concentration, converted from ppb, at the index of its species, and zero elsewhere; an unknown name raises an error before any simulation.",
 "every mechanism and every table of initial concentrations","All tables and orders of entries.",
 ["ODE_solver.py:run_simulation"])
p("C36","Gas-particle exchange conserves molecules",
 "For every species, the change of its gas concentration caused by partitioning is minus the sum over size bins of the change of its condensed concentration.",
 "every state, every number of bins, every set of condensing species","Real-valued identity for all states and sizes.",
 [PE+":write_partitioning_section_fortran_ignore"])
p("C37","Species excluded from partitioning are not changed by it",
 "A gas species not selected for condensation has zero tendency from partitioning.",
 "every state and every selection","All selections.",
 [PE+":write_partitioning_section_fortran_ignore","Aerosol/Property_calculation.py:Pure_component1"])
p("C38","Condensed-phase slots are disjoint and complete",
 "The slices of the state vector used for the gas phase and for each size bin are pairwise disjoint and cover the vector, so every entry has exactly one meaning.",
 "every number of species, condensing species and bins","All sizes.",
 [PE+":write_partitioning_section_fortran_ignore","Aerosol/f2py/ODE_solver.py:run_simulation"])
p("C39","Condensation is driven by supersaturation",
 "In each bin a species condenses when its gas concentration exceeds the equilibrium value over the particle, evaporates when it is below, and is unchanged at equality.",
 "every physical state (positive sizes, numbers, diffusivities, accommodation in (0,1])","All real states.",
 [PE+":write_partitioning_section_fortran_ignore"])
p("C40","The transition-regime correction lies between 0 and 1",
 "For accommodation coefficients in (0,1] and positive Knudsen number the correction factor is strictly between 0 and 1.",
 "every real Knudsen number and accommodation coefficient","All reals.",
 [PE+":write_partitioning_section_fortran_ignore"])
p("C41","Reported secondary organic mass ignores water and is additive over bins",
 "The reported mass is the sum over bins and over condensed species other than water; changing the water content leaves it unchanged and it is non-negative for non-negative states.",
 "every state","All real states.",
 [PE+":write_partitioning_section_fortran_ignore",PE+":write_partitioning_section_fortran"])
p("C42","Every species is either partitioned or ignored",
 "Property calculation splits the species indices into an included and an ignored list: disjoint, complete, increasing, and a species is included exactly when it has a structure and its vapour pressure does not exceed the cut-off (or no cut-off is used).",
 "every species table, structure table and cut-off","All tables.",
 ["Aerosol/Property_calculation.py:Pure_component1"])
p("C43","Water is the last gas species and the last condensed species",
 "After water is appended, its gas index is the last one, it is the last included species, every included index is a valid gas index and property arrays have one entry per included species in the same order.",
 "every mechanism and selection","All mechanisms.",
 ["Aerosol/f2py/Aerosol_simulation_f2py.py"])
p("C44","The initial size distribution carries the requested number",
 "The discretised log-normal distribution has the requested number of bins, non-negative numbers that add up to the requested total, and increasing sizes that start and end at the requested limits.",
 "every set of positive parameters","All real parameters.",
 ["Aerosol/Size_distributions.py:lognormal"])
p("C45","Species snapshot files: first entry wins, numbering is dense",
 "Reading a species snapshot gives each distinct structure one index 0..n-1 in order of first appearance with the concentration of its first line; later repeats are ignored; array lengths agree.",
 "every snapshot file","All files and repetitions.",
 [PE+":extract_species"])
p("C46","Structures are attached to the right species",
 "After structures are loaded, the structure stored for a species is the one given in that species' own record.",
 "every structure file and mechanism","Depends on the order of records.",
 [PE+":extract_smiles_species"])
p("C47","Photolysis vanishes at night and is never negative",
 "In the numba and Fortran backends, for every time, each photolysis rate has the value of the parameterisation at the height of the sun; it is never negative, and it is zero whenever the sun is at or below the horizon.",
 "every time, every photolysis entry","All real times.",
 [PE+":write_rate_file_numba",PE+":write_rate_file_fortran"])
p("C48","Backends use the same generic rate coefficients",
 "For every temperature, pressure-related input and humidity the generic rate coefficients defined by the three generated rate programs have the same values.",
 "every real input","Equality of many real functions for all inputs.",
 [PE+":write_rate_file",PE+":write_rate_file_numba",PE+":write_rate_file_fortran"])
p("C49","Operator splitting stays within its storage",
 "The operator-split driver alternates phases and completes the requested simulation without running past the rows allocated for output.",
 "every simulation length","All lengths.",
 ["Aerosol/f2py/ODE_solver_opsplit.py"])
p("C50","The rate programs run without numerical error and give positive coefficients",
 "For every positive temperature, non-negative water concentration and every time, executing the generated numba or Fortran rate program never divides by zero, takes the logarithm of a non-positive number or a fractional power of a negative number; every name is defined before it is used; every generic coefficient is positive.",
 "every real input","All real inputs; floating-point tests sample a few temperatures.",
 [PE+":write_rate_file_numba",PE+":write_rate_file_fortran"])
p("C51","Partitioning does not depend on how threads are scheduled",
 "The array returned by the generated partitioning routine is the same for every number of OpenMP threads and every order in which they execute their statements.",
 "every number of bins, every distribution of the bins over threads, every interleaving","Races show up rarely and on particular machines; the set of schedules is unbounded.",
 [PE+":write_partitioning_section_fortran_ignore"])
p("C52","Kinetic properties passed to the partitioning routine are physically admissible",
 "For positive molecular weight, gas constant and temperature, diffusivity, mean thermal speed and mean free path of every condensing species are positive, and heavier molecules are slower and diffuse less.",
 "every positive molecular weight, gas constant and temperature","Real formulas with powers and roots; all positive inputs.",
 ["Aerosol/Property_calculation.py:Pure_component1","Aerosol/Property_calculation.py:Pure_component2"])
p("C53","Initial particle water is in equilibrium with the relative humidity",
 "In the initial state water sits in the last entry of every bin, everything else is zero, and the water activity that the partitioning routine computes for each bin equals the relative humidity; at 100 percent relative humidity there is no initial state.",
 "every number of bins and species, core and relative humidity below 1","Index arithmetic over all bins together with a rational identity.",
 ["Aerosol/f2py/Aerosol_simulation_f2py.py","Parse_eqn_file.py:write_partitioning_section_fortran_ignore"])
p("C54","The particle size of the routine agrees with the size distribution",
 "For a bin without condensed matter the radius computed inside the partitioning routine is the radius of the size distribution, up to the difference of the two values of pi in use (relative error at most 1e-8).",
 "every positive radius, core density, molecular weight and number","All real inputs; involves the transcendental pi.",
 ["Aerosol/f2py/Aerosol_simulation_f2py.py","Parse_eqn_file.py:write_partitioning_section_fortran_ignore"])
p("C55","The function handed to the solver is the kinetic system of the mechanism",
 "For every accepted mechanism, state and time, dydt_func returns for every species the sum over the reactions of its net stoichiometric coefficient as written times the rate coefficient (evaluated at the time of day and with the total of all peroxy radicals) times the mass action product, and zero for the species held constant.",
 "every mechanism text, every rate function, every state and time","The composition of parser, four generated routines and the radical sum has to hold for every mechanism and state.",
 ["ODE_solver.py:dydt_func","f2py/ODE_solver.py:dydt_func","Parse_eqn_file.py:extract_mechanism"])
p("C56","The Jacobian handed to the solver is the derivative of the function handed to the solver",
 "For every accepted mechanism whose Jacobian terms are written correctly (C19) and rate coefficients that depend smoothly on the peroxy radical total, the matrix returned by jacobian is the derivative of dydt_func at every state and time.",
 "every mechanism text, every smooth rate function, every state","Derivatives at all states; a finite-difference test covers single points and hides errors in small entries.",
 ["ODE_solver.py:jacobian","ODE_solver.py:dydt_func"])
p("C57","Gas chemistry and partitioning add up to the rates handed to the solver",
 "In a simulation with particles the function handed to the solver is, for every state: the gas chemistry of the first num_species-1 gases, minus for every condensing gas what all bins take up of it, and for every bin slot exactly that uptake. Water is changed by uptake only, and whatever condenses leaves the gas, so the gas plus particle total of every species changes by chemistry alone. The call succeeds exactly when the gas routines do.",
 "every mechanism text, every number of bins and condensing species, every state","The identity has to hold for every layout and every state; a run checks one and hides small leaks in the tolerance of the solver.",
 ["Aerosol/f2py/ODE_solver.py:dydt_func","Aerosol/f2py/Fixed_yield/ODE_solver_fixedyield.py:dydt_func"])
p("C58","Water is in equilibrium at the humidity the simulation reports",
 "A bin takes up no water exactly when the relative humidity recorded by dydt_func equals the water activity of the bin times its Kelvin factor.",
 "every layout, every composition and size of a bin, every temperature","An equation between two formulas with different constants; a run compares numbers only to a tolerance.",
 ["Aerosol/f2py/ODE_solver.py:dydt_func","Parse_eqn_file.py:write_partitioning_section_fortran_ignore"])
p("C59","Element totals are constant along a gas simulation",
 "If the products of all reactions are recorded as written (C06) and the solver is exact, then every reported row of a gas simulation has the same total, for every weighting of the species that all reactions balance (atoms of an element, for instance) and that is zero for the species held constant. A weighting that no reaction gains never grows from one row to a later one. The same holds for the Fortran version if the mechanism meets the condition of C13.",
 "every mechanism text, every weighting, every rate function, every run length","A statement about all trajectories of all mechanisms; a run checks one trajectory to the tolerance of the solver.",
 ["ODE_solver.py:run_simulation","ODE_solver.py:dydt_func","Parse_eqn_file.py:write_loss_gain_matrix"])
p("C60","Concentrations of a gas simulation stay non-negative",
 "If all stoichiometric coefficients are positive, the coefficients of reactants at least 1, the rate coefficients non-negative and locally Lipschitz in the peroxy radicals, and the solver is exact, then a gas simulation that starts from non-negative concentrations reports only non-negative concentrations.",
 "every mechanism text, every rate function of the kind, every non-negative initial state, every run length","Forward invariance of the non-negative states for all systems the parser can generate.",
 ["ODE_solver.py:run_simulation","ODE_solver.py:dydt_func"])
p("C61","A gas simulation has exactly one exact result",
 "If in addition every species that is not held constant has a positive weight in some total that no reaction gains, and the rate coefficients are continuous in time except for finitely many jumps, then the system handed to the solver has a solution (satisfying the equation at all but finitely many times, and at all times if the rates have no jumps) from every non-negative state for every duration, so an exact solver exists; and any two exact solvers report the same times and rows.",
 "every mechanism text, every rate function of the kind, every non-negative initial state, every duration","Existence and uniqueness for all systems the parser can generate; blow-up in finite time cannot be excluded by running.",
 ["ODE_solver.py:run_simulation","ODE_solver.py:dydt_func"])
p("C62","A simulation with particles conserves totals over gas and bins",
 "With an exact solver, products recorded as written (C06) and net coefficients written right (C13), every reported row of a simulation with particles has the same total over the gas and all bins, for every weighting of the species that all reactions balance and that is zero for the species held constant. Water, species held constant, and in fixed yield simulations every species, keep their amount over gas and bins. A weighting that no reaction gains never grows.",
 "every mechanism text, every layout of condensing species and bins, every rate function, every run length","A statement about all trajectories; a run checks one to the tolerance of the solver.",
 ["Aerosol/f2py/ODE_solver.py:run_simulation","Aerosol/f2py/ODE_solver.py:dydt_func","Aerosol/f2py/Fixed_yield/ODE_solver_fixedyield.py:dydt_func","Parse_eqn_file.py:write_partitioning_section_fortran_ignore"])
p("C63","Concentrations of a simulation with particles stay non-negative",
 "With an exact solver, physically meaningful constants (positive core, densities, molecular weights, diffusion and accommodation coefficients) and the conditions of C60 on the mechanism, a simulation with particles that starts from non-negative concentrations reports only non-negative concentrations, in the gas and in all bins.",
 "every mechanism text, every layout, all constants of the kind, every non-negative initial state, every run length","Forward invariance: no bin can evaporate more than it holds, no gas condense more than there is, for all states.",
 ["Aerosol/f2py/ODE_solver.py:run_simulation","Aerosol/f2py/ODE_solver.py:dydt_func","Aerosol/f2py/Fixed_yield/ODE_solver_fixedyield.py:dydt_func","Parse_eqn_file.py:write_partitioning_section_fortran_ignore"])
p("C64","A simulation with particles has exactly one exact result",
 "Under the conditions of C63, with rate coefficients that are continuous in time except for finitely many jumps and a non-growing total for every reacting species, an exact solver exists for all runs from non-negative states, and any two exact solvers report the same times and rows. For fixed yields no condition on totals is needed.",
 "every mechanism text, every layout, all constants of the kind, every non-negative initial state, every duration","Existence for all durations and uniqueness for all systems the parser can generate.",
 ["Aerosol/f2py/ODE_solver.py:run_simulation","Aerosol/f2py/ODE_solver.py:dydt_func","Aerosol/f2py/Fixed_yield/ODE_solver_fixedyield.py:dydt_func"])
p("C65","Photolysis rates follow the day without jumps",
 "In the numba and Fortran backends every photolysis rate repeats each day, is symmetric about noon, rises until noon and falls after it, is positive exactly within a fixed span around noon that is the same for all rates, and changes continuously with time.",
 "every time, every photolysis entry, every temperature and composition","Monotonicity, periodicity and continuity over all real times.",
 [PE+":write_rate_file_numba",PE+":write_rate_file_fortran"])
p("C66","Each reaction gets the value of its own rate expression",
 "The rate file generated for a mechanism is a valid program of its language. After a call, the entry of each reaction holds the value of the expression written for this reaction in the mechanism file, with the names of generic coefficients, photolysis rates, temperature, water and peroxy radicals meaning what they stand for; nothing else (other reactions, earlier calls, left-over memory, number of cores) has an influence. The rates are bounded and Lipschitz in the peroxy radicals, continuous in time but for finitely many jumps and, when the signs in the expressions work out, defined and not negative for every temperature, humidity and time.",
 "every accepted mechanism whose rate texts are expressions in the known names, every temperature, humidity, time and composition","The generated text is different for every mechanism and its value is a real function of four variables.",
 [PE+":write_rate_file_numba",PE+":write_rate_file_fortran","rate_coeff_conversion.py:convert_rate_mcm_numba","rate_coeff_conversion.py:convert_rate_mcm_fortran"])
p("C67","Python and Fortran rate files give the same rate coefficients",
 "If the converted texts of each rate agree up to upper and lower case and the order of factors, the rate files of the numba and the Fortran backend give every reaction the same rate coefficient.",
 "every accepted mechanism with readable rates, every temperature, humidity, time and composition, any number of cores","Equality of two generated programs on all real inputs.",
 [PE+":write_rate_file_numba",PE+":write_rate_file_fortran"])
p("C68","The Python and the Fortran version of a gas simulation report the same result",
 "For a mechanism whose net coefficients the Fortran writer leaves right and whose rates read the same in both languages, the Python and the Fortran version, each with all its generated files, hand the same system to the solver; with exact solvers, which exist, they report the same times and the same rows.",
 "every such mechanism, every non-negative initial state, temperature, humidity, start time and duration","Equality of the results of two code generators for all mechanisms and all states.",
 ["ODE_solver.py:run_simulation","f2py/ODE_solver.py:run_simulation",PE+":write_rate_file_numba",PE+":write_rate_file_fortran"])
p("C69","Generated routines stay within their arrays",
 "Every array element a generated routine reads or assigns exists: concentrations and tendencies have one element per species, rates and reactant products one per reaction, the Jacobian one row and column per species, the photolysis array the size its file gives it. Python subscripts start at 0, Fortran subscripts at 1.",
 "every accepted mechanism, any set order, any number of cores; for rate files every mechanism with readable rates","Fortran does not check subscripts; an access outside an array shows only for particular mechanisms and may not even crash.",
 [PE+":write_reactants_indices",PE+":write_reactants_indices_fortran",PE+":write_loss_gain_matrix",PE+":write_loss_gain_fortran",PE+":write_gas_jacobian_numba",PE+":write_gas_jacobian_fortran",PE+":write_rate_file_fortran"])
p("C70","The text of the generated gas routines is a routine that computes the rate law",
 "The characters written to Reactants_conc, Loss_Gain and Jacobian (Python and Fortran), read back as a source file of the language, form exactly one routine with the expected name, arguments and array sizes; its statements assign the values that the generator means, with every number taken as printed; called as the solver does, the two routines give each species the rate law of the mechanism, and both versions fill the same Jacobian.",
 "all tables, any set order and number of cores, any time stamp without a line break, any way of printing numbers as unsigned decimals","A missing bracket, a subscript glued to the next token or a continuation in the wrong place depends on the coefficients and on how many reactions a species has.",
 [PE+":write_reactants_indices",PE+":write_reactants_indices_fortran",PE+":write_loss_gain_matrix",PE+":write_loss_gain_fortran",PE+":write_gas_jacobian_numba",PE+":write_gas_jacobian_fortran"])
p("C71","The text of the partitioning routine computes the modelled exchange",
 "The characters written to Partitioning.f90, read back as a Fortran source file, form one subroutine dydt_partition. Called with the arguments of the solver it returns the SOA mass, the water activities, the sizes and the rates of change of the model, whatever uninitialised memory contains and whatever the nine arguments hold that it never reads. With one thread this is always so; with several threads exactly the orders in which the shared scalars index1 and index2 belong to one bin at every write return a result, the first three results are then right, and the rates are right if they belong to the bin being written; otherwise values of a bin can be lost or the two sides of the assignment differ in length. No subscript leaves its array and, for physical arguments, no operation is undefined.",
 "every layout of bins and species, all arguments, any contents of memory, any number of threads and any possible order of their statements","The routine is written for each simulation; errors in the text or in the OpenMP clauses depend on the list of condensing species and on the timing of threads.",
 [PE+":write_partitioning_section_fortran_ignore","Aerosol/f2py/ODE_solver.py:dydt_func"])
p("C72","The generated files of a simulation with particles determine it",
 "What dydt_func computes with the texts of the four generated files is the rate law of the mechanism file, with for each reaction the rate coefficient its own text stands for, plus the exchange of the particle model. It does not depend on the number of cores the files were written for, on how coefficients are printed, on dates, on the contents of memory or, as long as the shared indices belong to the bin being written, on threads. Hence with an exact solver the files have exactly one result; it conserves totals over gas and particles and is never negative.",
 "every mechanism file with readable rate texts and recorded products whose Fortran coefficients are right, every layout of bins, all constants, states and times","A test runs a few mechanisms and compares a few numbers; the statement links every character of the input to the reported rows.",
 ["Aerosol/f2py/ODE_solver.py:dydt_func","Aerosol/f2py/Aerosol_simulation_f2py.py",PE+":write_partitioning_section_fortran_ignore",PE+":write_rate_file_fortran"])
p("C73","The generated files of a gas simulation determine it, and both versions agree",
 "What dydt_func computes with the texts of the generated rate, reactant and loss-gain files is the rate law of the mechanism file, with for each reaction the rate coefficient its own text stands for. The files of the Python and of the Fortran version give the same system of equations and with exact solvers the same rows. If no rate mentions the peroxy radicals, the text of the generated Jacobian file computes the partial derivatives of the function computed from the other files.",
 "every mechanism file with readable rate texts and recorded products (Fortran: whose Fortran coefficients are right), all states, times and contents of memory","Comparing outputs of both versions covers only the mechanisms tried.",
 ["ODE_solver.py:dydt_func","ODE_solver.py:jacobian","f2py/ODE_solver.py:dydt_func",PE+":write_rate_file_numba",PE+":write_loss_gain_fortran"])
p("C74","The lines of the generated Fortran files fit the 132 characters of free-form Fortran",
 "No line of Rate_coefficients.f90 (from the declarations on), Reactants_conc.f90, Loss_Gain.f90, Jacobian.f90 and Partitioning.f90 is longer than 132 characters, after which a Fortran compiler may cut it (the drivers call f2py without a flag for longer lines): however many reactions a species takes part in, the continuation lines come in time.",
 "every mechanism file, all sizes up to 99999 species and reactions, any number of cores, any order of sets","The longest line depends on the mechanism: number of reactants, digits of the subscripts, printed coefficients and length of the rate expressions. A cut line can still compile and then changes the result.",
 [PE+":write_loss_gain_fortran",PE+":write_gas_jacobian_fortran",PE+":write_reactants_indices_fortran",PE+":write_rate_file_fortran","f2py/Gas_simulation_f2py.py"])
p("C75","Starting from saved files repeats the simulation the files were prepared for",
 "After any series of runs that prepare files (files_exist = False), a run that starts from the saved files of a mechanism (files_exist = True) hands the same dictionaries, number of reactions, peroxy radical indices and generated routines to the solver as a preparing run for that mechanism; what a preparing run simulates does not depend on files left by earlier runs.",
 "every version of the driver, all mechanism files and names, any series of runs on any directory, runs that fail half way","The result depends on the history of the working directory: which files each run removes, overwrites or leaves, and where a failed run stopped. Tests start from one clean directory.",
 ["Gas_simulation.py","f2py/Gas_simulation_f2py.py","Aerosol/f2py/Aerosol_simulation_f2py.py","Aerosol/f2py/Fixed_yield/Aerosol_sim_fixed_yield.py","ODE_solver.py:run_simulation","f2py/ODE_solver.py:run_simulation",PE+":write_RO2_indices"])
p("C76","The aerosol driver prepares the simulation its settings describe",
 "From a mechanism file, the structures of its species and the settings, the aerosol driver prepares: a layout with water last among gases and condensing species and exactly the species with a structure and a vapour pressure up to the cut-off condensing; the properties of each species at its place; particles of the asked total number and lognormal shape, filled with core material, whose radius and water activity the partitioning routine finds as set; an initial vector with the given concentrations, water vapour and equilibrium water. Run with the generated files and exact solver calls this stays non-negative, keeps the conserved totals of the initial concentrations and the water of gas and particles together, and all exact solvers report the same rows. It is prepared exactly if the spread exceeds one, the relative humidity is not one and every name in the initial concentrations is known.",
 "every mechanism file, all structures, library results and settings below saturation, all generated files, threads and solvers that are exact","The driver's numbers depend on each other through a dozen arrays with different index conventions; a wrong place shows up only as a different number.",
 ["Aerosol/f2py/Aerosol_simulation_f2py.py","Aerosol/Property_calculation.py:Pure_component1","Aerosol/Size_distributions.py:lognormal","Aerosol/f2py/ODE_solver.py:run_simulation"])
p("C77","The fixed-yield driver prepares the simulation its settings describe",
 "From a file of structures and yields and the settings, the fixed-yield driver prepares a layout in which all species and water are in the gas and in every bin at the same places, with the properties of each structure at its place and as gas the share of the precursor that the first line naming it gives; particles of the asked number, shape and radius, in equilibrium with the relative humidity; water vapour whose humidity the solver reports as that of the settings up to one part in ten thousand. Run with the text of the generated partitioning file and exact solver calls this stays non-negative, each species keeps its share over gas and particles and water its total, and all exact solvers report the same rows. It is prepared exactly if the file can be read, the molecular weight of the precursor is not zero, the spread exceeds one and the relative humidity is not one.",
 "every file of structures and yields, all library results and settings below saturation, any memory, threads and exact solvers","The numbers pass through a dozen arrays and two conversions of units; a wrong place or factor shows up only as a different number.",
 ["Aerosol/f2py/Fixed_yield/Aerosol_sim_fixed_yield.py","Aerosol/f2py/Fixed_yield/ODE_solver_fixedyield.py:dydt_func",PE+":extract_species","Aerosol/Property_calculation.py:Pure_component1"])
p("C78","A gas simulation contains exactly the species that can be made",
 "For a mechanism whose reactants count whole and whose products are all recorded, with non-negative rate coefficients, piecewise smooth in time, and a time in each batch when all reactions run that run at all: in every reported row the concentration of a species is positive exactly if the species was there at the start or is a product, not held constant, of a reaction that runs and all of whose reactants can be made; a reaction whose rate needs peroxy radicals counts if one of them can be made. All other concentrations are exactly zero.",
 "every such mechanism file, non-negative initial concentrations, any number of batches, both versions of the generated code, all exact solvers","Whether a species is made at all is decided by a chain of reactions of any length; numerical output shows tiny positive or negative numbers for both cases.",
 ["ODE_solver.py:dydt_func","ODE_solver.py:run_simulation","f2py/ODE_solver.py:run_simulation",PE+":extract_mechanism"])
p("C79","A species that can condense is in the gas and in every bin, or nowhere",
 "In every reported row of a simulation with particles a species that can condense is positive in the gas and in every bin, or zero in all of them, and which is decided by the start: with fixed yields by whether there was any of it in any phase, with reactions by whether it can be made (as in C78) from what there was in any phase. In a run the fixed-yield driver prepares, these are the species with a positive yield on their first line, and water is everywhere.",
 "every layout and physical constants, every mechanism file as in C78, every yield file, non-negative initial states, all exact solvers","Exchange with a bin starts from exactly zero in all bins; an error in one index leaves one entry zero, which looks like a species that does not condense.",
 ["Aerosol/f2py/ODE_solver.py:run_simulation","Aerosol/f2py/Fixed_yield/ODE_solver_fixedyield.py:dydt_func",PE+":write_partitioning_section_fortran_ignore","Aerosol/f2py/Fixed_yield/Aerosol_sim_fixed_yield.py"])
p("C80","The bar charts of a fixed-yield run show the composition of its bins",
 "For every reported row the fixed-yield driver draws one chart: in a bin with any organic mass the bars of the species are stacked without gap or overlap from zero to one, each as high as the share of its species in the organic mass of that bin, and the title is the organic mass the partitioning routine computes for the same row. In a run the driver prepares with a positive yield no bin is empty, the visible bars are those of the species with a positive yield, and the title never exceeds the mass of the vapours at the start. The charts are drawn exactly if all species condense.",
 "every yield file and settings as in C77, every row, layout and molecular weights, negative concentrations included","The slices of the state are computed from the number of condensing species, not of gases; charts are looked at, not tested.",
 ["Aerosol/f2py/Fixed_yield/Plotting.py:stacked_bar","Aerosol/f2py/Fixed_yield/ODE_solver_fixedyield.py:run_simulation"])
p("C81","A solver that makes small errors reports nearly what an exact one would",
 "Let a solver follow, in every batch, a path whose slope misses the function handed to it by at most eta, and hand back a state that misses the end of the path by at most eps; both versions of the gas simulation, the simulation with particles and the one with fixed yields are meant. Then the reported times are those of the exact run, and all reported concentrations differ from the exact ones by at most a constant times eta + eps (plus the distance of the initial states), so that they are negative by at most that. Totals that all reactions balance drift by at most (eta*batch+eps) times the sum of the weights per batch, whatever the rates. Python and Fortran versions with different solvers differ by at most a constant times their errors.",
 "every mechanism as in C59 to C64 and C68, every non-negative initial state, duration and batch length, every solver within the error bounds, initial states nearby included","Every test runs with a solver that makes errors, on one mechanism; it cannot tell whether errors grow without bound for another mechanism or whether a difference between versions is due to a wrong coefficient.",
 ["ODE_solver.py:run_simulation","f2py/ODE_solver.py:run_simulation","Aerosol/f2py/ODE_solver.py:run_simulation","Aerosol/f2py/Fixed_yield/ODE_solver_fixedyield.py:run_simulation"])
p("C82","Whole numbers in rate texts do not change rates in Fortran",
 "A Fortran rate file, read with the kinds its numbers have in Fortran (integers divide without remainder), gives every reaction the value its rate expression has in Python. True for the whole fixed part of the file and for every mechanism whose rate texts pass a simple check of kinds, where it also gives the coefficients of the Python file; false in general: a rate text such as 1/2*KMT10 is accepted and means zero in Fortran.",
 "every mechanism with readable rate texts, every number of cores, positive temperature, time, water and radicals; the check is a function of the rate text","Rate texts with a division of integers are rare; a test needs one, and it must compare rates between languages rather than look for an error: nothing fails, a reaction is just switched off.",
 ["Parse_eqn_file.py:write_rate_file_fortran","rate_coeff_conversion.py:convert_rate_mcm_fortran"])
p("C83","Rounding in Fortran changes rate coefficients by less than 2 parts in 100,000",
 "The Fortran rate files hold most literals and some variables in single precision. However each operation and library function rounds within the bounds of its precision, every temperature-dependent generic coefficient a Fortran rate file computes at 200 to 330 K is within a factor exp(1.6e-5) of its exact value, and has its sign; the rate of every reaction whose rate text passes an error analysis is within the factor the analysis gives. An intermediate result that cancels, or a literal that leaves the range of single precision, would break this.",
 "every temperature from 200 to 330 K, non-negative water and radicals, every way the operations may round within IEEE bounds, every mechanism with readable rate texts","Rounding errors of single precision are of the size one would blame on the solver; whether some temperature makes an exponent cancel cannot be seen by sampling temperatures.",
 ["Parse_eqn_file.py:write_rate_file_fortran","rate_coeff_conversion.py:convert_rate_mcm_fortran"])
p("C84","Listings of reactions per species and the saved reactant matrix are complete",
 "The parser's listings of reactions per species (species_hess_loss_data, species_hess_gain_data) contain for every species exactly the reactions that consume or produce it, in order, once per occurrence. The sparse matrix of reactants saved to disk holds, for each reaction and species, the total coefficient with which the reaction consumes the species and nothing else; multiplied by the logarithms of positive concentrations it gives the logarithm of the law of mass action for every reaction, also those with a repeated reactant, for which the generated code differs (C10).",
 "every mechanism the parser accepts, every reaction and species, every positive state","Assigning instead of adding an entry goes unnoticed unless a mechanism repeats a reactant; the listings are not used by any driver, so no simulation shows an error in them.",
 [PE+":extract_mechanism",PE+":write_reactants_indices","ODE_solver.py:dydt_func"])
p("C85","Rounding in Fortran leaves photolysis coefficients almost exact",
 "The Fortran rate file computes the height of the sun and all 36 photolysis coefficients with single precision literals. However each operation rounds within the bounds of its precision, at every time of the first thirty years each coefficient is not negative, is exactly zero when the sun is below the horizon, differs from the exact parameterisation by at most 4e-5 of the coefficient's scale factor, and is within a factor exp(1.2e-4) of it when the sine of the sun's height is at least 0.1. This includes the instants near midnight, where the computed time may fall on the other side of a change of day, and near sunrise and sunset, where the branch for night may be taken on one side only. The rate of a reaction whose text sums or scales photolysis and other coefficients is off by at most the relative and absolute error an analysis of the text gives.",
 "every time from 0 to 10^9 seconds, every row of the photolysis table, every temperature, every way the operations may round within IEEE bounds","The critical instants (change of day, sunrise, sunset) are single points of time; and the dependence on the height of the sun is singular at the horizon.",
 ["Parse_eqn_file.py:write_rate_file_fortran"])
p("C86","Errors in rate coefficients change results in proportion",
 "If the rate coefficients of a simulation are changed, each by at most a relative error e and an absolute error d, every concentration the simulation reports at any of its output times changes by at most a constant times e + d plus the errors of the solvers and of the initial state; the constant depends on the mechanism, the original rate coefficients, the length of the run and a bound on the concentrations, not on the errors, which need not be small. For exact solvers a bound on the initial concentrations is enough. The same holds for simulations with particles. In particular the rounding in the Fortran rate files (C83, C85) changes what a Fortran simulation reports by at most a constant times the rounding errors of the rate coefficients, also in comparison with the Python version.",
 "every accepted mechanism with whole reactant coefficients, all rate coefficients within the errors, all initial states, all solvers that follow their right-hand side and hand back the end of a batch up to given errors, every number of batches","A test compares two runs; how errors of rate coefficients build up over a simulation depends on all the states it passes.",
 ["ODE_solver.py:dydt_func","ODE_solver.py:run_simulation","f2py/ODE_solver.py:dydt_func","Aerosol/f2py/ODE_solver.py:dydt_func"])
p("C87","The generated Fortran files declare the names they use",
 "Every Fortran file PyBox writes starts its one subroutine with implicit none, declares all names, its arguments included, once and before any other statement, and uses no other names: Reactants_conc.f90, Loss_Gain.f90, Jacobian.f90 and Partitioning.f90 for every mechanism, number of species, bins and cores; Rate_coefficients.f90 exactly if each name in a converted rate text is, without case, one of the 180 the file declares or an intrinsic function. The other writer of partitioning routines (write_partitioning_section_fortran, which no driver calls) always writes a file that cannot be compiled: it uses total_SOA_mass_array without declaring it.",
 "every mechanism, table of rate texts, date, number of species, reactions, bins and cores; any printing of coefficients as unsigned numerals","Whether a file compiles is known for the mechanisms one has tried; the body of the files depends on the mechanism, and no test calls the other writer.",
 [PE+":write_reactants_indices_fortran",PE+":write_loss_gain_fortran",PE+":write_gas_jacobian_fortran",PE+":write_rate_file_fortran",PE+":write_partitioning_section_fortran_ignore",PE+":write_partitioning_section_fortran"])
p("C88","Rounding in the generated gas routines stays relative to the turnover",
 "Computed in floating point, however each operation rounds within the bounds of its precision, the generated routines of both versions give: for every reaction a product of reactants within a factor exp(2 n 2^-52) of the exact one, n being its number of reactants; for every species that is not held constant a slope whose error is at most exp(s + (t + 2 n + 2) 2^-52) - 1 times the turnover of the species, that is the sum of its gains and losses without cancellation, t being its number of terms and s the error of the printed coefficients (one unit of double precision in Python; 6e-8 in Fortran, whose files hold them in single precision; 0 if they have few binary digits); and exactly 0 for species held constant. A simulation with such errors, with errors in the sum of the peroxy radicals and in the rate coefficients, in particular a Fortran simulation with rounding in all of its files, reports concentrations that differ from the exact ones by at most a constant, which does not depend on the errors, times the errors.",
 "every accepted mechanism whose orders single precision represents, every printing of coefficients as numerals, every state and all rate coefficients, every way the operations and any order of the summation may round within IEEE bounds; for the last part mechanisms with whole reactant coefficients","Rounding errors depend on the state; that no intermediate result magnifies them is a statement about the form of the generated expressions for all mechanisms.",
 [PE+":write_reactants_indices",PE+":write_reactants_indices_fortran",PE+":write_loss_gain_matrix",PE+":write_loss_gain_fortran","ODE_solver.py:dydt_func","f2py/ODE_solver.py:dydt_func"])
p("C89","Operator-split batches change only what they should",
 "In an operator-split simulation with exact solvers a gas-phase batch leaves the contents of all bins and the water vapour as they are, and a partitioning batch only moves species between gas and bins and does not touch the species to be ignored. Over the whole run every total over all phases with weights balanced in all reactions, the water, and the species held constant are the same in all reported rows, totals that no reaction gains never grow, concentrations stay non-negative, exact solvers exist, and all exact solvers report the same rows.",
 "every accepted mechanism with whole reactant coefficients, every number of bins, every list of ignored species, all lengths of the batches, every initial state (non-negative where stated), regular rate coefficients","The masking of ignored species happens in two places in two languages, by index and by flag; a slip in either moves mass without an error. No driver runs the operator-split solver, so no run shows it.",
 ["Aerosol/f2py/ODE_solver_opsplit.py",PE+":write_partitioning_section_fortran"])
p("C90","Operator splitting advances both processes by the simulated time",
 "At a reported time of an operator-split simulation both gas-phase chemistry and partitioning have acted for this time, so that for processes that commute the rows are those of the coupled simulation. False: the lengths of gas-phase and partitioning batches are added to one clock, so the reported time is the sum of the two advances (of each 30 s the driver reports after the first 100 s the chemistry acts for 10 s and the partitioning for 20 s); with batches of one length every second row is the coupled state at half the reported time. The time of day seen by the chemistry stays within the length of one batch after the start.",
 "all lengths of the batches and of the simulation, all pairs of commuting processes","A split run looks plausible; the wrong clock shows only against a coupled run whose splitting error is known to be small.",
 ["Aerosol/f2py/ODE_solver_opsplit.py"])
p("C91","Double precision suffices for the rate coefficients of the Python version",
 "The rate file of the Python version, computed in double precision however each operation rounds within IEEE bounds, gives every generic rate coefficient within a factor exp(9e-13) of its value in real numbers; photolysis rates that are never negative, 0 when the sun is below the horizon (height below -6e-11), off by at most 9e-9 of their scale at any height, and within a factor exp(5e-9) when the sine of the height is at least 0.1; and for every reaction a rate coefficient whose error is bounded by what an analysis of its expression yields. The file has a value for all inputs. Together with the rounding of the gas routines (C88), a Python simulation reports concentrations that differ from those with real numbers by at most a constant, which does not depend on the errors, times the errors.",
 "every temperature from 200 to 330 K, all times of day up to 1e9 s from midnight of the first day, all non-negative peroxy-radical sums and water concentrations, every accepted mechanism with readable rate expressions, every way the operations may round","Cancellation in the solar geometry depends on the time; near the horizon a relative error of the rate is unbounded while the absolute one is not, which no list of sampled times shows.",
 [PE+":write_rate_file_numba","rate_coeff_conversion.py:convert_rate_mcm_numba","ODE_solver.py:dydt_func"])
p("C92","Rounding in the partitioning routine costs at most a millionth of the exchange",
 "The generated Partitioning.f90, run by one thread with every operation rounded to double precision and every literal possibly to single precision, returns in every possible case an SOA mass, water activities and particle radii within given factors close to 1 of those in real numbers, and rates of change that differ from those in real numbers by at most a small fraction of the exchange, condensation and evaporation added. With at most a million condensing species and bins, radii between exp(-100) and exp(100) metres and Kelvin exponents up to 1 the fraction is 1e-6, and the routine mistakes condensation for evaporation only if the gas is within three millionths of equilibrium.",
 "every layout of bins and species, all physically meaningful arguments, any uninitialised memory, every way in which literals, operations and sums may round","The text has literals of single precision in otherwise double precision arithmetic, divisions by small numbers, a cube root and an exponential whose argument depends on rounded values; near equilibrium the relative error of a rate has no bound.",
 [PE+":write_partitioning_section_fortran_ignore","Aerosol/f2py/ODE_solver.py:dydt_func"])
p("C93","Rounding in the partitioning routine does not create or destroy matter",
 "Whatever arguments the generated Partitioning.f90 is called with and however each operation rounds, the rate of change of a condensing species in the gas and its rates in the bins add up to zero but for the rounding of one sum: with at most a thousand bins, for at most 1e-12 of the sum of the sizes of the rates in the bins. The rate of change of every other gas is exactly zero.",
 "every layout of bins and species, all arguments including negative concentrations, any uninitialised memory, every way in which literals, operations and sums may round","It holds whatever values the rest of the routine computes, so agreement on any set of samples would not distinguish it from an accident of the errors.",
 [PE+":write_partitioning_section_fortran_ignore"])
p("C94","How far errors can move the reported concentrations, in numbers",
 "Take two runs of run_simulation, one with the right-hand side in real numbers and one with errors in the rate coefficients or with rounding in the rate file and the gas routines. At time t, in the k-th row, every concentration differs by at most exp(K t) times (the difference in the beginning, plus t times the largest error of a slope and of the two solvers, plus k times the errors of the solvers at the end of a batch), where K is a Lipschitz constant of the right-hand side; the error of a slope is bounded by the relative and absolute errors times the sum of the sizes of the terms in the equation of a species, with and without rate coefficients, plus the effect of the error in the peroxy-radical sum. All these bounds exist for every mechanism whose reactant coefficients are whole numbers, and no smaller function of K and the difference in the beginning would do.",
 "every accepted mechanism, both gas backends and the simulation with particles, any number of batches, any bounded set of states, all solvers up to given errors, every way in which operations may round","The earlier bound with an unspecified constant would hold for errors of any fixed size; that the constant is this product, for all mechanisms and errors at once, cannot be read off any finite set of runs.",
 [PE+":write_rate_file",PE+":write_loss_gain_matrix",PE+":write_RO2_indices","ODE_solver.py:run_simulation","f2py/ODE_solver.py:run_simulation","Aerosol/f2py/ODE_solver.py:run_simulation"])
p("C95","Rounding in all files of a simulation with particles, in numbers",
 "The right-hand side of the simulation with particles, computed from the generated rate file, gas routines and partitioning routine with rounding in all of them, in the peroxy-radical sum and in the addition of the two parts, differs from the one in real numbers by at most the error of the gas (C94), plus the relative error of the partitioning routine (C92) times the exchange, plus 2^-52 times what is added; what a run reports differs by at most the bound of C94 with this error of a slope. On states with non-negative concentrations up to any B all needed bounds exist, and there is such a right-hand side.",
 "every accepted mechanism with readable rate expressions, every layout of bins and species, temperatures from 200 to 330 K, all non-negative states, any uninitialised memory, every way in which literals and operations may round, any number of batches","Four generated files with different precisions are combined; particle radii and Kelvin factors depend on the state, so an error bound for a sample of states says nothing about the states a simulation passes through.",
 [PE+":write_rate_file_fortran",PE+":write_loss_gain_fortran",PE+":write_partitioning_section_fortran_ignore","Aerosol/f2py/ODE_solver.py:dydt_func","Aerosol/f2py/ODE_solver.py:run_simulation"])
p("C96","Both versions of a gas simulation agree up to their rounding errors, in numbers",
 "Take a run of the Python version and a run of the Fortran version of a gas simulation of the same mechanism, each computed with rounding in its own rate file, reactant and loss-gain files, each with its own solver. If the rates read the same in both languages, at time t, in the k-th row, every concentration differs by at most exp(K t) times (the difference in the beginning, plus t times the sum of the two errors of the slopes and of the solvers, plus k times the errors of the solvers at the end of a batch), with the bounds of C94.",
 "every accepted mechanism with readable rate expressions whose net coefficients the Fortran writer leaves right, temperatures from 200 to 330 K, any number of batches, any bounded set of states, every way in which operations may round in either version","The versions round differently at every operation, the Fortran one partly to single precision, so their results never agree exactly; a tolerance that holds for the compared runs says nothing about other mechanisms or times.",
 [PE+":write_rate_file_numba",PE+":write_rate_file_fortran",PE+":write_loss_gain_matrix",PE+":write_loss_gain_fortran","ODE_solver.py:run_simulation","f2py/ODE_solver.py:run_simulation"])
p("C97","The generic rate coefficients have the values of their kinetic laws",
 "After the fixed part of a generated rate file, in each of the three languages, every generic coefficient has the value of its law at the temperature: A (T/300)^n exp(E/T) for the simple ones, the falloff law of Troe k0 ki/(k0+ki) 10^(log10 Fc/(1+(log10(k0/ki)/(0.75-1.27 log10 Fc))^2)) for KFPAN, KBPAN, KBPPN and KMT01-04, 07-10, 12-17, and the special laws of KMT05, KMT06, KMT11 and KMT18; so a falloff coefficient lies below both of its limits and above the curve without broadening times Fc. False for KBPPN: the computed broadening factor FPPN is not used, Fc itself is, and the coefficient is less than half of the law's value at every temperature up to 500 K.",
 "every temperature, water concentration, time, peroxy radical sum, every value left in the variables, all 39 coefficients, all three languages","A comparison of the languages with each other cannot see an error that all three share, as that of KBPPN; a table of values at some temperatures shows neither the limits nor that the laws hold elsewhere.",
 [PE+":write_rate_file",PE+":write_rate_file_numba",PE+":write_rate_file_fortran"])
p("C98","The humidity a simulation begins with is the one set, although two formulas are used",
 "The drivers turn the relative humidity into molecules of water with one formula for the saturation pressure; the right-hand side turns them back with another one, and other constants. From 0 to 40 degrees Celsius the formulas differ by at most 1.35 %, the drivers' being the lower one; the water vapour computed is that of an ideal gas at the set fraction of saturation up to 1.4 %; and the relative humidity reported for the first state of a simulation with particles is the set one up to 1.4 % of it.",
 "every temperature from 273.15 to 313.15 K, every relative humidity, every accepted mechanism, library and settings of the driver","The deviation depends on the temperature through two unrelated formulas with an exponential and a logarithm each; tests at some temperatures do not bound it in between, and it hides in the noise of a comparison of runs.",
 ["Gas_simulation.py","f2py/Gas_simulation_f2py.py","Aerosol/f2py/Aerosol_simulation_f2py.py","Aerosol/f2py/ODE_solver.py:run_simulation"])
p("C99","With products recorded wrongly a simulation is that of the recorded reactions and only loses",
 "Where the parser records the products of a reaction wrongly (C06), the table of gains holds for every reaction exactly the products of a recorded reaction that can be read off the written one: products up to the first that repeats the last reactant, each with its last coefficient, plus later repetitions of these. The right-hand side is the kinetic system of the recorded reactions; a total is constant for all rate coefficients and states exactly if every recorded reaction balances, and then it is the same in all reported rows. With positive coefficients no more is recorded than written, so any total with non-negative weights that no written reaction gains never grows, in the gas simulations of both versions, with particles and with operator splitting. If the recorded products of one reaction weigh less than its reactants, its reactants are present at the start and it runs during the first batch, every reported row holds strictly less than the initial state, even if all written reactions balance.",
 "every accepted mechanism with positive coefficients and whole reactants, every non-negative initial state, rate function, duration, batch length and exact solver; all weights, layouts of particles and numbers of bins","The shipped mechanisms contain such reactions (20 of 836 for alpha-pinene); a run completes and looks plausible, and the loss shows only in a balance over all species that no test makes.",
 [PE+":extract_mechanism","ODE_solver.py:run_simulation","f2py/ODE_solver.py:run_simulation","Aerosol/f2py/ODE_solver.py:run_simulation","Aerosol/f2py/ODE_solver_opsplit.py"])
p("C100","The order in which a mechanism file lists its reactions does not change the result",
 "Take two mechanism files that list the same reactions in different orders, with reactants and products of each reaction in any order for which the parser records the same products. Both files have the same species. In states that hold the same concentration for every species, the right-hand sides give every species the same tendency, although species and reactions have other numbers in the tables, in the generated files and in the state. Two simulations with exact solvers from the same initial concentrations report the same times and the same concentration of every species, in both versions, for any numbers of cores, also when the right-hand sides are those of the texts of the generated files. Without the condition on the recorded products the order of the products of one reaction matters.",
 "every pair of accepted mechanism files with the same reactions up to order, positive coefficients and whole reactants; every non-negative initial state, duration, batch length, pair of exact solvers, contents of memory and numbers of cores","A file with k reactions has k! orders; a test compares one or two of them, and only on one mechanism.",
 [PE+":extract_mechanism",PE+":write_rate_file_numba",PE+":write_reactants_indices",PE+":write_loss_gain_matrix","ODE_solver.py:run_simulation","f2py/ODE_solver.py:run_simulation"])
p("C101","The order of the species does not change a simulation with particles",
 "Take two simulations with particles whose mechanism files list the same reactions in different orders (C100), so that the species have other places in the gas, other places among the condensing species, and the arrays of molar masses, densities, diffusivities, accommodation coefficients, mean free paths and vapour pressures are in another order. If the same species condense, each with its own properties, the bins and their cores are the same and the last condensing species (water) is the same, then in states that hold the same for every species in the gas and in every bin, dydt_func gives every species the same tendency in the gas and in every bin and the same mass of organic aerosol, and two exact runs of run_simulation report the same times and the same concentrations, also when the right-hand sides are those of the texts of the generated files. The same holds for fixed yield simulations for any pairing of their species.",
 "every pair of accepted mechanism files with the same reactions up to order, every layout of bins and condensing species, all physical constants, every non-negative initial state, duration, batch length, pair of exact solvers and numbers of cores","Gas index, place among the condensing species and place in the state follow three different orders, and a property looked up by the wrong one shows only for some orders of the file; the number of orders grows like a factorial.",
 [PE+":extract_mechanism",PE+":write_partitioning_section_fortran_ignore","Aerosol/f2py/ODE_solver.py:dydt_func","Aerosol/f2py/ODE_solver.py:run_simulation","Aerosol/f2py/Fixed_yield/ODE_solver_fixedyield.py:run_simulation"])
p("C102","With rounding the order of the reactions changes what is reported by no more than a bound in numbers",
 "Take two mechanism files that list the same reactions in different orders (C100) and a run of each, with rounding in the files generated from it and with its own solver. The order changes which terms are added first, so the reports differ; but at time t, in the k-th row, the concentration of every species differs by at most exp(K t) times (the difference in the beginning, plus t times the sum of the two errors of the slopes and of the solvers, plus k times the errors of the solvers at the end of a batch), with the bounds of C94, in each version and for any numbers of cores.",
 "every pair of accepted mechanism files with the same reactions up to order and readable rate expressions, temperatures from 200 to 330 K, any number of batches, any bounded set of states, every way in which operations may round in either run","Rounding depends on the order of additions, so a comparison of two orders always shows differences; whether one is a defect or rounding can only be told with a bound that holds for every mechanism and order.",
 [PE+":write_rate_file_numba",PE+":write_rate_file_fortran",PE+":write_loss_gain_matrix",PE+":write_loss_gain_fortran","ODE_solver.py:run_simulation","f2py/ODE_solver.py:run_simulation"])
p("C103","Added reactions change the species of a mechanism only by what they record for them; tracers change nothing",
 "Take a mechanism file and another with the same reactions and further ones, in any order, whose peroxy radicals are all species of the first. Every species of the first file is one of the second. In states that hold the same concentrations for the species of the first file, the right-hand side of the second gives each of them the tendency of the first plus, for each added reaction, its recorded net coefficient times its product of concentrations times its rate coefficient. If the added reactions record as much gained as lost for the species of the first file, as reactions of tracers do, these tendencies are the same, and two simulations with exact solvers from the same concentrations of these species, with any concentrations of the added ones, report the same times and the same concentrations of them, in both versions, for any numbers of cores, also when the right-hand sides are those of the texts of the generated files. It is not enough that the added reactions are written so: one that is written with what it takes given back, but whose products are recorded incompletely, consumes a species of the first file.",
 "every pair of accepted mechanism files of which one extends the other, positive coefficients and whole reactants; every non-negative initial state, duration, batch length, pair of exact solvers, contents of memory and numbers of cores","Adding a reaction renumbers species and reactions in all tables and files; a test compares a mechanism with one extension of it at one tolerance of the solver.",
 [PE+":extract_mechanism",PE+":write_rate_file_numba",PE+":write_reactants_indices",PE+":write_loss_gain_matrix","ODE_solver.py:dydt_func","ODE_solver.py:run_simulation","f2py/ODE_solver.py:run_simulation"])
p("C104","One reaction with fractional products and separate channels give the same result in the Python version, and not in Fortran",
 "Take two mechanism files, the second of which has, in place of reactions of the first, their channels: reactions with the same reactants, each with a share of the rate coefficient, the shares adding up to one, and with products that add up to those of the reaction when weighted with the shares; reactions may be in any order. Both files have the same species. In the Python version the right-hand sides give every species the same tendency in states with the same concentrations, and two simulations with exact solvers from the same concentrations report the same times and the same concentrations of all species, also when the right-hand sides are those of the texts of the generated files. In the Fortran version this holds if the coefficients that the generated routine uses add up in the same way; it uses the coefficient plus one unless it is one (C13), and for a reaction that makes 0.7 of a product the tendency of the product is 17/7 times that of the file with channels.",
 "every pair of accepted mechanism files of which one has channels in place of reactions of the other, positive coefficients and whole reactants; every non-negative initial state, duration, batch length, pair of exact solvers and contents of memory","A test compares one pair of files at the tolerance of a solver, and in the Python version only it would pass.",
 [PE+":extract_mechanism",PE+":write_rate_file_numba",PE+":write_loss_gain_matrix",PE+":write_loss_gain_fortran","ODE_solver.py:dydt_func","ODE_solver.py:run_simulation"])
p("C105","Tracers that do not condense change nothing in simulations with particles",
 "Take a mechanism file and another with the same reactions and further ones of tracers as in C103, and simulations of both with the same bins and cores and the same condensing species with the same properties, where no added species condenses. The added species move the places of all species in the state and of the condensing species in include_index. In states that hold the same for every species of the first file and for water, in the gas and in every bin, dydt_func of both gives these the same tendencies, and the reported mass of organic aerosol is the same. Two simulations with exact solvers from such states, with any concentrations of the added species, report the same times and the same concentrations of the species of the first file in the gas and in every bin, also when the right-hand sides are those of the texts of the generated files, for any numbers of cores, printed coefficients, contents of memory, threads and orders of execution.",
 "every pair of accepted mechanism files of which one extends the other by tracers, every pair of layouts with distinct condensing species, of which none is added, positive constants; every non-negative initial state, duration, batch length and pair of exact solvers","Every index of the state, of include_index and of the arrays of properties is shifted by the added species; a test compares one pair of runs at one tolerance of the solver.",
 [PE+":extract_mechanism",PE+":write_partitioning_section_fortran_ignore",PE+":write_loss_gain_fortran","Aerosol/f2py/ODE_solver.py:dydt_func","Aerosol/f2py/ODE_solver.py:run_simulation"])
p("C106","Particles may be kept in one bin or divided among several",
 "Take a simulation with particles and a second one of the same mechanism in which the particles of every bin are divided among one or more bins, each with a positive share of the number of particles, of the cores and of the condensed matter, the shares of a bin adding up to one, and all else the same. In states with the same gas and these shares of the condensed matter the particles have the same radius, dydt_func of both gives the gas the same tendencies and the matter in the bins the shares of the tendencies, the amounts of every condensed species in all bins together are the same, and so is the reported mass of organic aerosol. Two simulations with exact solvers from such states report the same times, the same gas and the shares in the bins, with the chemistry of a mechanism file as well as with fixed yields, also when the right-hand sides are those of the texts of the generated files, for any numbers of cores, printed coefficients, contents of memory, threads and orders of execution.",
 "every accepted mechanism file, layout with distinct condensing species, positive constants, division of the bins into positive shares; every non-negative initial state, duration, batch length and pair of exact solvers","The divided bins change the length of the state, the bounds of every loop over bins and the generated partitioning file; a wrong power of the number of particles in one factor cancels in a test with one layout.",
 [PE+":write_partitioning_section_fortran_ignore","Aerosol/f2py/ODE_solver.py:dydt_func","Aerosol/f2py/ODE_solver.py:run_simulation","Aerosol/f2py/Fixed_yield/ODE_solver_fixedyield.py:dydt_func"])
p("C107","The clock of a simulation: days repeat, batches of whole days and simulations without photolysis follow the clock, others can stay in the night",
 "The rate coefficients computed by the generated rate files repeat every day, so that a simulation, of gas in both versions or with particles, has the same right-hand side whichever day it starts on. If the batches last whole days, or no rate text mentions a photolysis rate, an exact solver reports at every time the uninterrupted solution, although every batch begins with the time of day the simulation began with. Otherwise it need not: a gas simulation of a mechanism in which NO2 is destroyed by light, started at midnight with NO2 and no peroxy radicals, reports in batches of 100 seconds, as set in Gas_simulation.py, nothing but what it began with, however long it lasts, while every uninterrupted solution has less NO2 after a day.",
 "every accepted mechanism with readable non-negative rates, start, number of days, initial state, duration and exact solver; the last part: one mechanism, every temperature, amount of water, duration, exact solver and initial state with NO2 and without peroxy radicals","Simulations of a few hours, as in tests, do not show that the time of day is reset; showing that reports of any length do not move needs a proof about all batches.",
 ["ODE_solver.py:dydt_func","ODE_solver.py:run_simulation","Aerosol/f2py/ODE_solver.py:dydt_func","Aerosol/f2py/ODE_solver.py:run_simulation",PE+":write_rate_file_numba",PE+":write_rate_file_fortran","Gas_simulation.py"])
p("C108","Mechanisms of first order are linear: results of simulations add up",
 "Take an accepted mechanism file in which every reaction consumes one species with coefficient 1 and no rate text mentions the sum of the peroxy radicals; photolysis is allowed. Then the right-hand side of the gas simulations of both versions is linear in the concentrations: in a state that is the sum of one state and a times another, the tendencies are the same sum. Three simulations with exact solvers, the third started with the sum of the concentrations of the first and a times those of the second, a any number for which the sum is not negative, report at the same times, and every row of the third is the same sum of the rows of the other two, also when the right-hand sides are those of the texts of the generated files, for any numbers of cores and contents of memory. In particular twice the initial concentrations give twice the reports. If one simulation starts with no less of any species than another, it never reports less of any species.",
 "every accepted mechanism file of first order with positive coefficients and readable non-negative rates, every factor, pair of non-negative initial states, duration, batch length, three exact solvers, start, temperature, water and numbers of cores","A product of concentrations taken over the wrong indices, a concentration added where it should be multiplied, or a limit on small values breaks the sum in some states only; a test compares three runs at the tolerance of a solver.",
 [PE+":extract_mechanism",PE+":write_reactants_indices",PE+":write_loss_gain_matrix",PE+":write_loss_gain_fortran","ODE_solver.py:dydt_func","ODE_solver.py:run_simulation","f2py/ODE_solver.py:run_simulation"])
p("C109","With reactions of one order, more concentrated means faster",
 "Take an accepted mechanism file in which the coefficients of the reactants add up to the same order k in every reaction, no reactant is written twice, and no rate text mentions a photolysis rate or the sum of the peroxy radicals. Then in both versions the right-hand side of a gas simulation gives c to the power k times the tendencies when all concentrations are c times as large, at any time. With l equal to c to the power k-1, two simulations with exact solvers, the second started with c times the concentrations of the first and with a duration and batches l times shorter, have as many rows; every time of the first is l times that of the second and every row of the second is c times that of the first, also when the right-hand sides are those of the texts of the generated files, for any numbers of cores and contents of memory. So with reactions of second order three times the concentrations make everything happen three times as fast.",
 "every accepted mechanism file of one order with positive coefficients, whole reactants and readable non-negative rates, every positive c and rational l with c^k = c l, non-negative initial state, duration, batch length, pair of exact solvers, start, temperature, water and numbers of cores","An exponent or an index of a reactant that is lost in one of the generated files changes the order of one reaction, which shows in one run only as another plausible number.",
 [PE+":extract_mechanism",PE+":write_reactants_indices",PE+":write_loss_gain_matrix",PE+":write_loss_gain_fortran","ODE_solver.py:dydt_func","ODE_solver.py:run_simulation","f2py/ODE_solver.py:run_simulation"])
p("C110","Names of species decide only what is a photon, held constant or a peroxy radical",
 "Take two accepted mechanism files, the second of which is the first with every species named anew: different species get different names, hv stays hv, AIR, H2O and O2 keep among themselves, peroxy radicals of the list of the code get names of that list, and no other species get such names; the rate texts are the same. Then every species has the same place in the state, the right-hand sides of the gas simulations of both files are the same function, in the Python version and in the Fortran version for any numbers of cores, and so are those of the simulations with particles with the same bins, constants and places of condensing species, and those of the texts of the generated files for any printed coefficients, contents of memory, threads and orders of execution. Two simulations with exact solvers from the same state report the same times and rows.",
 "every pair of accepted mechanism files that differ by such a renaming, readable rates, every state, start, temperature, water, numbers of cores and contents of memory; for the reported rows positive coefficients, whole reactants, non-negative rates and initial state, every duration, batch length and pair of exact solvers","A name that is a part of another name, that looks like a number or a key word, or that sorts differently can be treated differently by string handling; tests use the names of one mechanism.",
 [PE+":extract_mechanism",PE+":write_RO2_indices",PE+":write_reactants_indices",PE+":write_loss_gain_matrix",PE+":write_loss_gain_fortran","ODE_solver.py:dydt_func","ODE_solver.py:run_simulation","Aerosol/f2py/ODE_solver.py:dydt_func"])
open('/verif/properties.jsonl','w').write("".join(json.dumps(x)+"\n" for x in P))
print(len(P))
