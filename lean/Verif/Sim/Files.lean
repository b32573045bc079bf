import Verif.Props.GasFiles

/-!
# Preparing a simulation on disk and starting from saved files

The part of the drivers between choosing a mechanism and calling `run_simulation`:
`/repo/Gas_simulation.py` 94–187, `/repo/f2py/Gas_simulation_f2py.py` 94–201,
`/repo/Aerosol/f2py/Aerosol_simulation_f2py.py` 137–280, 418–426 and 469,
`/repo/Aerosol/f2py/Fixed_yield/Aerosol_sim_fixed_yield.py` 137–230.

Simplified: the working directory is a dictionary from file names to what the files hold, without
subdirectories; a pickle or `.npy` file gives back the value that was saved; matrices that no run loads and the
contents of the files of the aerosol versions are not described further (`other`).  The mechanism file is given by its
text.  The caches removed from `__pycache__` (`/repo/Gas_simulation.py` 101–105) are left out.
-/

namespace PyBox
namespace Files

open Rl

/-- What a file holds. -/
inductive Content where
  /-- a text file -/
  | text (s : Str)
  /-- a text file, given by what its successive `f.write` calls write -/
  | writes (l : List Str)
  /-- a pickled or saved value -/
  | index (d : Dict Str ℕ)
  | species (d : Dict ℕ Str)
  | count (n : ℤ)
  | indices (l : List ℕ)
  /-- an extension module compiled from a source file -/
  | compiled (c : Content)
  | other
  deriving DecidableEq

/-- How a run can stop before the simulation. -/
inductive FileErr where
  /-- `FileNotFoundError`, or `ImportError` for a module -/
  | noFile
  /-- the file holds something else than expected -/
  | kind
  /-- an exception raised while parsing or generating -/
  | py (e : PyErr)
  deriving DecidableEq

/-- The working directory. -/
abbrev Disk := Dict Str Content

/-- `any(p in fname for p in patterns)`. -/
def hits (patterns : List Str) (fname : Str) : Bool := patterns.any (fun p => decide (p <:+: fname))

/-- What a driver does to the working directory. -/
inductive Step where
  /-- the loop over `os.listdir('.')`: one `if pattern in fname: os.remove(fname)` after the other -/
  | remove (patterns : List Str)
  /-- a file is written; computing what it holds may raise an exception -/
  | save (file : Str) (c : Except PyErr Content)
  /-- a source file is written and `os.system('f2py -c -m …')` called, whose exit status is ignored:
  if the compiler fails, whatever module was there stays -/
  | build (source target : Str) (compiles : Bool) (c : Except PyErr Content)

/-- One step. A file whose name contains two of the patterns is removed twice, which raises an exception; the files
removed before that are not described. -/
def Step.run (disk : Disk) : Step → Disk × Option FileErr
  | .remove patterns =>
    if disk.any (fun p => decide (2 ≤ patterns.countP (fun q => decide (q <:+: p.1)))) then (disk, some .noFile)
    else (disk.filter (fun p => !hits patterns p.1), none)
  | .save _ (.error e) => (disk, some (.py e))
  | .save file (.ok c) => (disk.set file c, none)
  | .build _ _ _ (.error e) => (disk, some (.py e))
  | .build source target compiles (.ok c) =>
    (if compiles then (disk.set source c).set target (.compiled c) else disk.set source c, none)

/-- The steps up to the first that raises an exception. -/
def runSteps : List Step → Disk → Disk × Option FileErr
  | [], disk => (disk, none)
  | s :: rest, disk => match s.run disk with
    | (d, none) => runSteps rest d
    | (d, some e) => (d, some e)

/-- What the generated files depend on besides the mechanism: the printing of coefficients, the order of sets, the
date, the number of cores used by the Fortran writers (`none` if OpenMP is off) and whether the compiler succeeds. -/
structure Env where
  num : ℚ → Str
  ord : SetOrder
  date : Str
  cores : Option ℕ
  compiles : Str → Bool

inductive Version where
  | python
  | fortran
  deriving DecidableEq

section

variable (e : Env) (name text : Str)

def indexFile : Str := name ++ chars% "_species_dict2array.pickle"
def speciesFile : Str := name ++ chars% "_species_dict.pickle"
def equationsFile : Str := name ++ chars% "_equations.pickle"
def radicalsFile : Str := name ++ chars% "_RO2_indices.npy"
def sparseFile : Str := chars% "reactants_indices_sparse_" ++ name ++ chars% ".npz"
def netFile : Str := chars% "loss_gain_" ++ name ++ chars% ".npz"

/-- `pickle.dump` of the three values a restart needs (`/repo/Gas_simulation.py` 141–146). -/
def saveTables : List Step :=
  [.save (indexFile name) ((extractMechanism text).map (fun m => .index m.tables.index)),
   .save (speciesFile name) ((extractMechanism text).map (fun m => .species m.tables.species)),
   .save (equationsFile name) ((extractMechanism text).map (fun m => .count m.equations))]

/-- The text of a generated file. -/
def generated {κ : Type} [Place κ] (L : Layout) (write : Mechanism → Except PyErr (List (Line κ))) :
    Except PyErr Content :=
  (extractMechanism text).bind (fun m => (write m).map (fun P =>
    .text (fileText L e.num e.date m.tables.species.length m.equations.toNat P)))

/-- `files_exist is False` in `/repo/Gas_simulation.py` 98–169. -/
def preparePython : List Step :=
  [.remove [chars% ".npy", chars% ".pickle", chars% ".npz", chars% ".eqn.txt"],
   .save (name ++ chars% ".eqn.txt") (.ok (.text text))] ++ saveTables name text ++
  [.save (chars% "Rate_coefficients_numba.py") ((extractMechanism text).map (fun m =>
      .writes (ratesFile .numba none (convertTable (convertOf .numba) m.tables.rate)))),
   .save (name ++ chars% "_reactant_indices.npy") (.ok .other),
   .save (name ++ chars% "_reactants_stoich_indices.npy") (.ok .other),
   .save (sparseFile name) (.ok .other),
   .save (chars% "Reactants_conc_numba.py")
      (generated e text reactantsPyLayout (fun m => writeReactantsPy m.tables.gen m.equations.toNat)),
   .save (netFile name) (.ok .other),
   .save (chars% "Loss_Gain_numba.py")
      (generated e text lossGainPyLayout (fun m => .ok (writeLossGainPy m.tables.gen))),
   .save (chars% "Jacobian_numba.py")
      (generated e text jacobianPyLayout (fun m => writeJacobianPy m.tables.gen e.ord)),
   .save (radicalsFile name) ((extractMechanism text).map (fun m => .indices (ro2Indices m.tables.index)))]

/-- `files_exist is False` in `/repo/f2py/Gas_simulation_f2py.py` 98–183. Saved tables are not removed. The rate texts
are converted twice, in place (lines 122 and 154). -/
def prepareFortran : List Step :=
  [.remove [chars% ".f90", chars% ".eqn.txt"],
   .save (name ++ chars% ".eqn.txt") (.ok (.text text))] ++ saveTables name text ++
  [.build (chars% "Rate_coefficients.f90") (chars% "rate_coeff_f2py.so") (e.compiles (chars% "rate_coeff_f2py"))
      ((extractMechanism text).map (fun m =>
        .writes (ratesFile .fortran e.cores ((convertTable (convertOf .fortran))^[2] m.tables.rate)))),
   .save (name ++ chars% "_reactant_indices.npy") (.ok .other),
   .save (name ++ chars% "_reactants_stoich_indices.npy") (.ok .other),
   .build (chars% "Reactants_conc.f90") (chars% "reactants_conc_f2py.so") (e.compiles (chars% "reactants_conc_f2py"))
      (generated e text reactantsFLayout (fun m => writeReactantsF m.tables.gen m.equations.toNat e.cores)),
   .build (chars% "Loss_Gain.f90") (chars% "loss_gain_f2py.so") (e.compiles (chars% "loss_gain_f2py"))
      (generated e text lossGainFLayout (fun m => .ok (writeLossGainF m.tables.gen m.tables.species.length e.cores))),
   .save (radicalsFile name) ((extractMechanism text).map (fun m => .indices (ro2Indices m.tables.index))),
   .build (chars% "Jacobian.f90") (chars% "jacobian_f2py.so") (e.compiles (chars% "jacobian_f2py"))
      (generated e text jacobianFLayout
        (fun m => writeJacobianF m.tables.gen e.ord m.tables.species.length e.cores))]

def prepare : Version → List Step
  | .python => preparePython e name text
  | .fortran => prepareFortran e name text

end

/-- What `run_simulation` works with: the values the driver hands over and the routines it imports. -/
structure Session where
  index : Dict Str ℕ
  species : Dict ℕ Str
  equations : ℤ
  radicals : List ℕ
  files : Spec.GasFiles
  jacobian : Str

def readFile (disk : Disk) (file : Str) : Except FileErr Content :=
  match disk.get? file with
  | none => .error .noFile
  | some c => .ok c

def Content.asIndex : Content → Except FileErr (Dict Str ℕ)
  | .index d => .ok d
  | _ => .error .kind

def Content.asSpecies : Content → Except FileErr (Dict ℕ Str)
  | .species d => .ok d
  | _ => .error .kind

def Content.asCount : Content → Except FileErr ℤ
  | .count n => .ok n
  | _ => .error .kind

def Content.asIndices : Content → Except FileErr (List ℕ)
  | .indices l => .ok l
  | _ => .error .kind

/-- A routine imported from a Python file, or from a compiled module. -/
def Content.asText : Version → Content → Except FileErr Str
  | .python, .text s => .ok s
  | .fortran, .compiled (.text s) => .ok s
  | _, _ => .error .kind

def Content.asWrites : Version → Content → Except FileErr (List Str)
  | .python, .writes l => .ok l
  | .fortran, .compiled (.writes l) => .ok l
  | _, _ => .error .kind

def ratesModule : Version → Str
  | .python => chars% "Rate_coefficients_numba.py"
  | .fortran => chars% "rate_coeff_f2py.so"

def reactantsModule : Version → Str
  | .python => chars% "Reactants_conc_numba.py"
  | .fortran => chars% "reactants_conc_f2py.so"

def lossGainModule : Version → Str
  | .python => chars% "Loss_Gain_numba.py"
  | .fortran => chars% "loss_gain_f2py.so"

def jacobianModule : Version → Str
  | .python => chars% "Jacobian_numba.py"
  | .fortran => chars% "jacobian_f2py.so"

/-- From "Ready to run simulation" on, for both branches: `numpy.load(filename+'_RO2_indices.npy')`
(`/repo/Gas_simulation.py` 187, `/repo/f2py/Gas_simulation_f2py.py` 201) and the imports of `run_simulation`
(`/repo/ODE_solver.py` 180–183, `/repo/f2py/ODE_solver.py` 134–137). -/
def session (v : Version) (name : Str) (index : Dict Str ℕ) (species : Dict ℕ Str) (equations : ℤ) (disk : Disk) :
    Except FileErr Session := do
  let radicals ← (← readFile disk (radicalsFile name)).asIndices
  let rates ← (← readFile disk (ratesModule v)).asWrites v
  let reactants ← (← readFile disk (reactantsModule v)).asText v
  let lossGain ← (← readFile disk (lossGainModule v)).asText v
  let jacobian ← (← readFile disk (jacobianModule v)).asText v
  return ⟨index, species, equations, radicals, ⟨rates, reactants, lossGain⟩, jacobian⟩

/-- A run with `files_exist = False`: the directory it leaves behind and what it simulates. -/
def startFresh (v : Version) (e : Env) (name text : Str) (disk : Disk) : Disk × Except FileErr Session :=
  match runSteps (prepare e name text v) disk with
  | (d, some err) => (d, .error err)
  | (d, none) => (d, match extractMechanism text with
    | .error err => .error (.py err)
    | .ok m => session v name m.tables.index m.tables.species m.equations d)

/-- A run with `files_exist = True` (`/repo/Gas_simulation.py` 175–180, `/repo/f2py/Gas_simulation_f2py.py` 189–194).
The directory stays as it is. -/
def startSaved (v : Version) (name : Str) (disk : Disk) : Except FileErr Session := do
  let index ← (← readFile disk (indexFile name)).asIndex
  let species ← (← readFile disk (speciesFile name)).asSpecies
  let equations ← (← readFile disk (equationsFile name)).asCount
  session v name index species equations disk

/-! ### The aerosol versions -/

inductive AerosolVersion where
  | mechanism
  | fixedYield
  deriving DecidableEq

/-- `files_exist is False` in the aerosol drivers (`/repo/Aerosol/f2py/Aerosol_simulation_f2py.py` 141–250 and 418–426,
`/repo/Aerosol/f2py/Fixed_yield/Aerosol_sim_fixed_yield.py` 142–203 and 371–379). What the files hold is left open: `c` gives it
for every file, or the exception raised on the way. -/
def prepareAerosol (name : Str) (c : Str → Except PyErr Content) (compiles : Str → Bool) :
    AerosolVersion → List Step
  | .mechanism =>
    [.remove [chars% ".f90"],
     .remove [chars% ".npy", chars% ".pickle", chars% ".npz", chars% ".eqn.txt"]] ++
    [name ++ chars% ".eqn.txt", indexFile name, speciesFile name, name ++ chars% "_Pybel_object_dict.pickle",
     name ++ chars% "_SMILES_dict.pickle", name ++ chars% "_num_species_gas.pickle"].map (fun f => .save f (c f)) ++
    [.build (chars% "Rate_coefficients.f90") (chars% "rate_coeff_f2py.so") (compiles (chars% "rate_coeff_f2py"))
       (c (chars% "Rate_coefficients.f90")),
     .save (name ++ chars% "_reactant_indices.npy") (c (name ++ chars% "_reactant_indices.npy")),
     .save (name ++ chars% "_reactants_stoich_indices.npy") (c (name ++ chars% "_reactants_stoich_indices.npy")),
     .build (chars% "Reactants_conc.f90") (chars% "reactants_conc_f2py.so") (compiles (chars% "reactants_conc_f2py"))
       (c (chars% "Reactants_conc.f90")),
     .build (chars% "Loss_Gain.f90") (chars% "loss_gain_f2py.so") (compiles (chars% "loss_gain_f2py"))
       (c (chars% "Loss_Gain.f90")),
     .save (radicalsFile name) (c (radicalsFile name)),
     .build (chars% "Partitioning.f90") (chars% "partition_f2py.so") (compiles (chars% "partition_f2py"))
       (c (chars% "Partitioning.f90"))]
  | .fixedYield =>
    [.remove [chars% ".f90"], .remove [chars% ".npy", chars% ".pickle", chars% ".npz"]] ++
    [indexFile name, speciesFile name, name ++ chars% "_Pybel_object_dict.pickle",
     name ++ chars% "_SMILES_dict.pickle", name ++ chars% "_num_species_gas.pickle",
     name ++ chars% "concentration_dict.pickle"].map (fun f => .save f (c f)) ++
    [.build (chars% "Partitioning.f90") (chars% "partition_f2py.so") (compiles (chars% "partition_f2py"))
       (c (chars% "Partitioning.f90"))]

/-- `files_exist is True` in the aerosol drivers (`/repo/Aerosol/f2py/Aerosol_simulation_f2py.py` 260–275,
`/repo/Aerosol/f2py/Fixed_yield/Aerosol_sim_fixed_yield.py` 209–226): the values loaded, in this order. -/
def loadAerosol (v : AerosolVersion) (name : Str) (disk : Disk) : Except FileErr (List Content) :=
  ([indexFile name, speciesFile name, equationsFile name, name ++ chars% "_Pybel_object_dict.pickle",
    name ++ chars% "_SMILES_dict.pickle", name ++ chars% "_num_species_gas.pickle"] ++
    match v with
    | .mechanism => []
    | .fixedYield => [name ++ chars% "concentration_dict.pickle"]).mapM (readFile disk)

end Files
end PyBox
