import Verif.Props.Rhs
import Verif.Props.Partition
import Mathlib.Analysis.SpecialFunctions.Log.Base

/-!
# The right-hand side of a simulation with particles

Model of `dydt_func` in `/repo/Aerosol/f2py/ODE_solver.py` (57-156) and in
`/repo/Aerosol/f2py/Fixed_yield/ODE_solver_fixedyield.py` (59-136): gas chemistry
for all gas species but the last (water), then the partitioning routine for the
whole state.

Arrays Python sees are indexed from 0, the arguments of the partitioning routine
from 1 (`Aerosol.PartInput`).  Powers and exponentials are those of the reals.
-/

namespace PyBox
namespace Aerosol

/-- Everything `dydt_func` reads besides the state: the arrays of `input_dict`
(160-225), here indexed from 0.  `satVp` is the array before its last entry is
overwritten. -/
structure AeroConst where
  ycore : ℕ → ℝ
  coreMw : ℕ → ℝ
  coreDensity : ℕ → ℝ
  nPerBin : ℕ → ℝ
  densityInput : ℕ → ℝ
  dStar : ℕ → ℝ
  alpha : ℕ → ℝ
  gamma : ℕ → ℝ
  mw : ℕ → ℝ
  satVp : ℕ → ℝ
  coreDiss : ℝ
  sigma : ℝ
  na : ℝ
  rGas : ℝ
  temp : ℝ

/-- `sat_vap_water`, the saturation vapour pressure of water in Pa (103-105). -/
noncomputable def satVapWater (T : ℝ) : ℝ :=
  Real.exp (-5800.2206 / T + 1.3914993 - 0.048640239 * T + 0.000041764768 * T ^ 2
    - 0.000000014452093 * T ^ 3 + 6.5459673 * Real.log T)

/-- `sat_vp[-1]=log10(sat_vap_water*9.86923E-6); Psat=power(10.0,sat_vp)` (106-107), in
atmospheres, for condensing species `j` counted from 0. -/
noncomputable def psatAtm (L : Layout) (C : AeroConst) (j : ℕ) : ℝ :=
  Real.rpow 10 (if j + 1 = L.numCond then Real.logb 10 (satVapWater C.temp * 0.00000986923)
    else C.satVp j)

/-- The arguments of `dydt_partition_fortran` for a state (113-134):
`core_mass_array=ycore/NA*core_molw` and `C_g_i_t=y[0:num_species][include_index]`. -/
noncomputable def partArgs (L : Layout) (C : AeroConst) (y : ℕ → ℝ) : PartInput where
  y := fun i => y (i - 1)
  ycore := fun i => C.ycore (i - 1)
  coreMass := fun i => C.ycore (i - 1) / C.na * C.coreMw (i - 1)
  coreDensity := fun i => C.coreDensity (i - 1)
  nPerBin := fun i => C.nPerBin (i - 1)
  densityInput := fun i => C.densityInput (i - 1)
  dStar := fun i => C.dStar (i - 1)
  alpha := fun i => C.alpha (i - 1)
  gamma := fun i => C.gamma (i - 1)
  cgas := fun i => y (L.incl.getD (i - 1) 0)
  mw := fun i => C.mw (i - 1)
  psat := fun i => psatAtm L C (i - 1)
  coreDiss := C.coreDiss
  sigma := C.sigma
  na := C.na
  rGas := C.rGas
  temp := C.temp

/-- `y_asnumpy[0:n]`, with zeros where the slice has no entry. -/
def firstEntries (n : ℕ) (y : ℕ → ℝ) : ℕ → ℝ := fun i => if i < n then y i else 0

/-- `dy_dt=zeros; dy_dt[0:num_species-1]=dydt_gas; dy_dt[0:..]+=dy_dt_calc` (68, 98, 139). -/
noncomputable def addUp (L : Layout) (gas part : ℕ → ℝ) : ℕ → ℝ := fun i =>
  (if i < L.numSpecies - 1 then gas i else 0)
    + (if i < L.numSpecies + L.numCond * L.numBins then part i else 0)

/-- `dydt_func(t,y)` of `/repo/Aerosol/f2py/ODE_solver.py`, with one thread.  `none`: the sum
over the radicals or a generated gas routine is not defined. -/
noncomputable def aerosolRhs (t : Tables) (equations : ℕ) (cores : Option ℕ) (L : Layout)
    (C : AeroConst) (indices : List ℕ) (rates : Rates) (start h2o time : ℝ) (y : ℕ → ℝ) :
    Option (ℕ → ℝ) :=
  (ro2Total indices y).bind (fun ro2 =>
    (gasRhsF t equations (L.numSpecies - 1) cores (fun _ => 0) (fun _ => 0)
      (rates (start + time) ro2 h2o C.temp) (firstEntries (L.numSpecies - 1) y)).map (fun gas =>
        addUp L gas (partition L (partArgs L C y))))

/-- `dydt_func(t,y)` of `/repo/Aerosol/f2py/Fixed_yield/ODE_solver_fixedyield.py`: no gas
chemistry. -/
noncomputable def fixedYieldRhs (L : Layout) (C : AeroConst) (y : ℕ → ℝ) : ℕ → ℝ :=
  addUp L (fun _ => 0) (partition L (partArgs L C y))

/-- `Pressure_gas=(y/NA)*8.314E+6*Model_temp` (111). -/
noncomputable def pressureGas (C : AeroConst) (y : ℕ → ℝ) (i : ℕ) : ℝ :=
  y i / C.na * 8314000 * C.temp

/-- `dydt_func.RH=Pressure_gas[-1]/(Psat[-1]*101325.0)` (152). -/
noncomputable def reportedRH (L : Layout) (C : AeroConst) (y : ℕ → ℝ) : ℝ :=
  pressureGas C y (L.numSpecies - 1) / (psatAtm L C (L.numCond - 1) * 101325)

end Aerosol
end PyBox
