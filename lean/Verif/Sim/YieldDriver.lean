import Verif.Sim.AerosolDriver
import Verif.Parse.Structures

/-!
# What the driver hands to a simulation with fixed yields

Model of `/repo/Aerosol/f2py/Fixed_yield/Aerosol_sim_fixed_yield.py` (67-431) up to the call of `run_simulation`, with the
initial vector of `ODE_solver_fixedyield.py` (185).  Same simplifications as in `Sim/AerosolDriver`.
-/

namespace PyBox
namespace Aerosol

/-- The numbers set in the driver: those it shares with the other aerosol driver (its initial concentrations are not
used), the mass and the molecular weight of the precursor (260-261). -/
structure YieldSettings extends Settings where
  mass : ℝ
  vocMw : ℝ

/-- `H2O` (81-88 only for their divisions, 108): `RH*NA*sat_vap_water*1.0E-6/(8.314472*temp)`. -/
noncomputable def yieldVapour (s : Settings) : Except PyErr ℝ := do
  let _ ← waterVapour s.temp s.rh
  if s.temp = 0 then .error .zeroDiv
  else return s.rh * s.na * satVapWater s.temp * 0.000001 / (8.314472 * s.temp)

/-- `total_voc_ppb` (262). -/
noncomputable def totalPpb (s : YieldSettings) : ℝ := s.mass * (273.15 + (s.temp - 273.15)) / (12.187 * s.vocMw)

/-- `y_gas` (263-265). -/
noncomputable def yieldGas {O : Type} (s : YieldSettings) (r : Snapshot O) : Except PyErr (List ℝ) :=
  if 12.187 * s.vocMw = 0 then .error .zeroDiv
  else r.pybel.foldlM (fun y p => do
    let c ← lookup r.concOf p.2.1
    let i ← lookup r.index p.1
    pyAssign y i ((c : ℝ) * totalPpb s * 24600000000)) (List.replicate r.next 0)

/-- Sections 1 to 8 and 10 of the driver and the initial vector `y_gas+y_cond`.  `none`: the numbers of particles are
`nan`. -/
noncomputable def prepareYield {O : Type} (s : YieldSettings) (toFloat : Str → Except PyErr ℚ) (read : Str → Except PyErr O)
    (props : O → PureProps) (lines : List Str) : Except PyErr (Option Prepared) := do
  let h2o ← yieldVapour s.toSettings
  let r ← extractSpecies toFloat read lines
  let p ← pureComponent1 r.next r.species r.index r.smiles r.pybel (fun o => props o.2) false s.cutoff
  let gas ← yieldGas s r
  let w ← appendWater p false r.next r.index 0
  match lognormal s.numBins s.total s.mean s.std s.lower s.upper with
  | none => return none
  | some (numbers, x) => do
    let cond ← initialCond w.numCond s.numBins (coreOf s.toSettings numbers x) s.coreDiss s.rh
    return some
      { layout := ⟨s.numBins, w.numSpecies, w.numCond, w.incl⟩
        const := inputDict s.toSettings w numbers x
        h2o := h2o
        index := w.index
        y0 := gas ++ [h2o] ++ cond }

end Aerosol
end PyBox
