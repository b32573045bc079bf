import Verif.Parse.Species
import Verif.Aerosol.Partition
import Mathlib.Algebra.Order.Field.Rat
import Mathlib.Analysis.Real.Pi.Bounds

/-!
# Property calculation and the appending of water

Model of `/repo/Aerosol/Property_calculation.py` (`Pure_component1` lines 41-161,
`Pure_component2` lines 163-202) and of section 5 of
`/repo/Aerosol/f2py/Aerosol_simulation_f2py.py` (lines 283-319).

The UManSysProp library is not part of the repository: the properties it
computes from a Pybel object are an arbitrary function.  Its numbers are exact
rationals (no `nan`).  The oxygen and hydrogen ratios `o_c`, `h_c` are computed
by the code but used by no driver; they and their possible division by zero
(a structure without carbon) are left out.
-/

namespace PyBox
namespace Aerosol

/-- What the library computes for a compound: density [g/cc], molecular weight
and log10 of the vapour pressure [atm]. -/
structure PureProps where
  density : ℚ
  mw : ℚ
  vp : ℚ

/-- Result of `Pure_component1`. -/
structure Pure1 where
  density : List ℚ
  mw : List ℚ
  satVp : List ℚ
  ign : List ℕ
  ignFortran : List ℚ
  incl : List ℕ
  deriving DecidableEq

/-- `l[i]=v`. -/
def setAt (l : List ℚ) (i : ℕ) (v : ℚ) : Except PyErr (List ℚ) :=
  if i < l.length then .ok (l.set i v) else .error .index

/-- `d[k]`. -/
def lookup {α β : Type} [DecidableEq α] (d : Dict α β) (k : α) : Except PyErr β :=
  match d.get? k with
  | none => .error .key
  | some v => .ok v

/-- The body of the loop over compounds (lines 108-145). -/
def pureStep {O : Type} (index : Dict Str ℕ) (smiles : Dict Str Str) (pybel : Dict Str O)
    (props : O → PureProps) (ignoreVp : Bool) (cutoff : ℚ) (r : Pure1) (compound : Str) :
    Except PyErr Pure1 :=
  match smiles.get? compound with
  | some sm => do
    let o ← lookup pybel sm
    let i ← lookup index compound
    let density ← setAt r.density i ((props o).density * 1000)
    let mw ← setAt r.mw i (props o).mw
    let satVp ← setAt r.satVp i (props o).vp
    if ignoreVp = true then
      if (props o).vp > cutoff then do
        let f ← setAt r.ignFortran i 1
        return { density := density, mw := mw, satVp := satVp, ign := r.ign ++ [i],
                 ignFortran := f, incl := r.incl }
      else
        return { density := density, mw := mw, satVp := satVp, ign := r.ign,
                 ignFortran := r.ignFortran, incl := r.incl ++ [i] }
    else
      return { density := density, mw := mw, satVp := satVp, ign := r.ign,
               ignFortran := r.ignFortran, incl := r.incl ++ [i] }
  | none => do
    let i ← lookup index compound
    let f ← setAt r.ignFortran i 1
    return { r with ign := r.ign ++ [i], ignFortran := f }

/-- `Pure_component1`: arrays filled with defaults (lines 70-82), then the loop
over `species_dict.values()`. -/
def pureComponent1 {O : Type} (numSpecies : ℕ) (species : Dict ℕ Str) (index : Dict Str ℕ)
    (smiles : Dict Str Str) (pybel : Dict Str O) (props : O → PureProps) (ignoreVp : Bool)
    (cutoff : ℚ) : Except PyErr Pure1 :=
  species.values.foldlM (pureStep index smiles pybel props ignoreVp cutoff)
    { density := List.replicate numSpecies 1000
      mw := List.replicate numSpecies 200
      satVp := List.replicate numSpecies 100
      ign := []
      ignFortran := List.replicate numSpecies 0
      incl := [] }

/-- `numpy.array(a)[idx]`. -/
def takeAt (a : List ℚ) (idx : List ℕ) : Except PyErr (List ℚ) :=
  idx.mapM (fun i => match a[i]? with
    | none => .error .index
    | some v => .ok v)

/-- What section 5 of the driver hands on. -/
structure WithWater where
  density : List ℚ
  mw : List ℚ
  satVp : List ℚ
  incl : List ℕ
  numSpecies : ℕ
  numCond : ℕ
  index : Dict Str ℕ
  deriving DecidableEq

/-- Section 5 of the driver: `include_index` is sorted, the arrays are cut down
to it when `ignore_vp` is set, and water is appended everywhere.  `waterVp` is
the logarithm computed for water. -/
def appendWater (r : Pure1) (ignoreVp : Bool) (numSpecies : ℕ) (index : Dict Str ℕ)
    (waterVp : ℚ) : Except PyErr WithWater := do
  let incl := r.incl.mergeSort (fun a b => decide (a ≤ b))
  let density ← if ignoreVp = true then takeAt r.density incl else .ok r.density
  let mw ← if ignoreVp = true then takeAt r.mw incl else .ok r.mw
  let satVp ← if ignoreVp = true then takeAt r.satVp incl else .ok r.satVp
  let n := numSpecies + 1
  return { density := density ++ [1000]
           mw := mw ++ [18]
           satVp := satVp ++ [waterVp]
           incl := incl ++ [n - 1]
           numSpecies := n
           numCond := (density ++ [1000]).length
           index := index.set "H2O".toList (n - 1) }

/-- `Pure_component2`, per species: accommodation coefficient. -/
noncomputable def alphaOrg : ℝ := 0.1

/-- `DStar_org = 1.9E0*numpy.power(y_mw,-2.0E0/3.0E0)` [cm2/s]. -/
noncomputable def diffusivity (mw : ℝ) : ℝ := 1.9 * Real.rpow mw (-2 / 3)

/-- `mean_them_vel` [m/s]. -/
noncomputable def thermalVelocity (rGas temp mw : ℝ) : ℝ :=
  Real.rpow ((8 * rGas * temp) / (Real.pi * (mw * 0.001))) 0.5

/-- `gamma_gas`, mean free path [m]. -/
noncomputable def meanFreePath (rGas temp mw : ℝ) : ℝ :=
  ((3 * diffusivity mw) / (thermalVelocity rGas temp mw * 100)) * 0.01

end Aerosol
end PyBox
