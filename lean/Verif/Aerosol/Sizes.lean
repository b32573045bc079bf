import Verif.Aerosol.Partition
import Verif.Parse.Model
import Mathlib.Analysis.SpecialFunctions.Log.Basic
import Mathlib.Analysis.SpecialFunctions.Sqrt
import Mathlib.Analysis.Real.Pi.Bounds

/-!
# The initial size distribution and the initial particles

Model of `/repo/Aerosol/Size_distributions.py` (`lognormal`, lines 37-88) and of
section 8 of `/repo/Aerosol/f2py/Aerosol_simulation_f2py.py` (lines 345-412).

Real arithmetic is exact.  `scipy.stats.lognorm.pdf` is modelled by the formula
of its documentation; it returns `nan` when its shape parameter is not positive,
which is `none` here.
-/

namespace PyBox
namespace Aerosol

/-- `numpy.linspace(a,b,num=n)`: `n` values, the last one replaced by `b`. -/
noncomputable def linspace (a b : ℝ) (n : ℕ) : List ℝ :=
  (List.range n).map (fun k =>
    if 1 < n ∧ k + 1 = n then b else (k : ℝ) * ((b - a) / ((n : ℝ) - 1)) + a)

open Classical in
/-- `stats.lognorm.pdf(x, s, loc=0, scale=scale)`. -/
noncomputable def lognormPdf (s scale x : ℝ) : Option ℝ :=
  if s ≤ 0 ∨ scale ≤ 0 then none
  else if x ≤ 0 then some 0
  else some (1 / (s * x * Real.sqrt (2 * Real.pi)) *
    Real.exp (-(Real.log (x / scale)) ^ 2 / (2 * s ^ 2)))

/-- `lognormal`: numbers per bin and sizes; `none` when the numbers are `nan`.
The unused curve over 400 points (48-49) is left out.  Division by a zero sum is
the total function of Lean; the theorems show that the sum is positive where
they need it. -/
noncomputable def lognormal (numBins : ℕ) (total mean std lower upper : ℝ) :
    Option (List ℝ × List ℝ) := do
  let mu := Real.log mean
  let sigma := Real.log std
  let scale := Real.exp mu
  let x := (linspace (Real.log lower) (Real.log upper) numBins).map Real.exp
  let pdf ← x.mapM (lognormPdf sigma scale)
  return (pdf.map (fun p => p / pdf.sum * total), x)

/-- Core material of one bin, in molecules per cc (397-401): radius `x` in
microns, density in kg/m3, molecular weight in g/mol. -/
noncomputable def coreMolecules (x coreDensity coreMw na number : ℝ) : ℝ :=
  4 / 3 * Real.pi * Real.rpow (x * 0.000001) 3 * coreDensity / (coreMw * 0.001) * na * number

open Classical in
/-- Water added to the last entry of every bin (406-412): `y_cond` starts with
zeros (355) and each pass of the loop assigns one entry. -/
noncomputable def initialCond (numCond numBins : ℕ) (ycore : ℕ → ℝ) (coreDiss rh : ℝ) :
    Except PyErr (List ℝ) :=
  (List.range numBins).foldlM (fun y k =>
    if 1 - rh = 0 then .error .zeroDiv
    else
      let i := (numCond - 1) + k * numCond
      if i < y.length then .ok (y.set i (ycore k * coreDiss * (rh / (1 - rh))))
      else .error .index) (List.replicate (numCond * numBins) 0)

end Aerosol
end PyBox
