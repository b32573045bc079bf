import Verif.Aerosol.Rhs
import Verif.Aerosol.Sizes
import Verif.Aerosol.Properties
import Verif.Sim.Model

/-!
# What the driver hands to a simulation with particles

Model of `/repo/Aerosol/f2py/Aerosol_simulation_f2py.py` from the species tables on (lines 70-127 and 192-196,
281-480) together with the initial vector of `/repo/Aerosol/f2py/ODE_solver.py` (205-223): the arrays of
`input_dict`, the layout the partitioning file is generated for, and the initial state.

Reals are exact.  The parts are modelled in `Aerosol/Properties` (sections 4 to 6), `Aerosol/Sizes` (section 8)
and `Sim/Model` (initial vector).  Left out: arrays the generated routine does not read (enthalpies, latent heats,
`ignore_index_fortran`, constants of air), the ions added to `species_dict2array` under keys that are not names,
plots and messages.
-/

namespace PyBox
namespace Aerosol

/-- The numbers set in the driver: temperature and relative humidity (75-76), constants (99-109), vapour pressure
cut-off (125), size distribution and core material (353-395), initial concentrations without water in ppb (338-340).
The driver uses the option `ignore_vp=True`. -/
structure Settings where
  temp : ℝ
  rh : ℝ
  rGas : ℝ
  sigma : ℝ
  na : ℝ
  cutoff : ℚ
  numBins : ℕ
  total : ℝ
  mean : ℝ
  std : ℝ
  lower : ℝ
  upper : ℝ
  coreDensity : ℝ
  coreMw : ℝ
  coreDiss : ℝ
  conc : Dict Str ℝ

open Classical in
/-- `H2O`, the water vapour in molecules per cc (83-93). -/
noncomputable def waterVapour (temp rh : ℝ) : Except PyErr ℝ :=
  let celsius := temp - 273.15
  if celsius + 238.3 = 0 ∨ celsius + 273.16 = 0 then .error .zeroDiv
  else
    let psat := 610.78 * Real.exp (celsius / (celsius + 238.3) * 17.2694)
    let pw := rh * psat
    let w := 0.002166 * (pw / (celsius + 273.16))
    .ok (w * 0.000001 * (1 / 0.018) * 602214090000000000000000)

/-- What `run_simulation` starts with. -/
structure Prepared where
  layout : Layout
  const : AeroConst
  h2o : ℝ
  index : Dict Str ℕ
  y0 : List ℝ

/-- Core material per bin (397-401). -/
noncomputable def coreOf (s : Settings) (numbers x : List ℝ) (b : ℕ) : ℝ :=
  coreMolecules (x.getD b 0) s.coreDensity s.coreMw s.na (numbers.getD b 0)

/-- Section 6 (319-323) and the entries of `input_dict` (433-471).  The logarithm of the vapour pressure of water (304) does
not enter `appendWater`, whose numbers are rational; it is put in its place here. -/
noncomputable def inputDict (s : Settings) (w : WithWater) (numbers x : List ℝ) : AeroConst where
  ycore := coreOf s numbers x
  coreMw := fun _ => s.coreMw
  coreDensity := fun _ => s.coreDensity
  nPerBin := fun b => numbers.getD b 0
  densityInput := fun j => ((w.density.getD j 0 : ℚ) : ℝ)
  dStar := fun j => diffusivity ((w.mw.getD j 0 : ℚ) : ℝ)
  alpha := fun _ => alphaOrg
  gamma := fun j => meanFreePath s.rGas s.temp ((w.mw.getD j 0 : ℚ) : ℝ)
  mw := fun j => ((w.mw.getD j 0 : ℚ) : ℝ)
  satVp := fun j => if j + 1 = w.numCond then Real.logb 10 (satVapWater s.temp * 0.00000986923)
    else ((w.satVp.getD j 0 : ℚ) : ℝ)
  coreDiss := s.coreDiss
  sigma := s.sigma
  na := s.na
  rGas := s.rGas
  temp := s.temp

/-- Sections 1, 4 to 8 and 10 of the driver and the initial vector.  `none`: the numbers of particles are `nan`. -/
noncomputable def prepareRun {O : Type} (s : Settings) (m : Mechanism) (smiles : Dict Str Str) (pybel : Dict Str O)
    (props : O → PureProps) : Except PyErr (Option Prepared) := do
  let h2o ← waterVapour s.temp s.rh
  let r ← pureComponent1 m.tables.species.length m.tables.species m.tables.index smiles pybel props true s.cutoff
  let w ← appendWater r true m.tables.species.length m.tables.index 0
  match lognormal s.numBins s.total s.mean s.std s.lower s.upper with
  | none => return none
  | some (numbers, x) => do
    let cond ← initialCond w.numCond s.numBins (coreOf s numbers x) s.coreDiss s.rh
    let y0 ← initialAerosol w.numSpecies w.numCond s.numBins w.index (s.conc.set "H2O".toList h2o) cond
    return some
      { layout := ⟨s.numBins, w.numSpecies, w.numCond, w.incl⟩
        const := inputDict s w numbers x
        h2o := h2o
        index := w.index
        y0 := y0 }

end Aerosol
end PyBox
