import Verif.Aerosol.Rhs

/-!
# The two right-hand sides of an operator-split simulation

Model of `dydt_func_gas_only` (39-74) and `dydt_func_aerosol_only` (76-140) in
`/repo/Aerosol/f2py/ODE_solver_opsplit.py`, and of the routine written by
`write_partitioning_section_fortran` in `/repo/Parse_eqn_file.py` (3203-3416), which the second one calls:
every gas species has an entry in every bin, and species to be ignored are masked.

Not modelled: the routine does not compile as it is written (`C87`) and adds the organic mass to an output
that it never sets; here it is what it computes otherwise.  One thread, reals instead of floating point
numbers.
-/

namespace PyBox
namespace Aerosol

/-- The sizes of an operator-split simulation: `total_length_y=num_species+(num_species*num_bins)`. -/
def allLayout (bins species : ℕ) : Layout := ⟨bins, species, species, List.range species⟩

/-- `ignore_index_fortran` (`/repo/Aerosol/Property_calculation.py`, 81, 132-133, 143-144), indexed from 1:
1 for the species of `ignore_index`, else 0. -/
def ignoreFlag (ignored : List ℕ) (i : ℕ) : ℤ := if i - 1 ∈ ignored then 1 else 0

section Routine

/-! The statements not repeated here are those of `write_partitioning_section_fortran_ignore`, with as many
condensing as gas species (`Aerosol/Partition.lean`). -/

variable (L : Layout) (P : PartInput) (flag : ℕ → ℤ) (b : ℕ)

/-- `WHERE (ignore_index==1) y_mole_fractions = 0.0d0` (3338). -/
noncomputable def maskedFraction (i : ℕ) : ℝ := if flag i = 1 then 0 else moleFraction L P b i

/-- `Pressure_eq(:)=kelvin_factor(:)*y_mole_fractions(:)*Psat(:)*101325.0D0` (3380). -/
noncomputable def maskedPressure (i : ℕ) : ℝ :=
  kelvin L P b i * maskedFraction L P flag b i * P.psat i * 101325

/-- `Cstar_i_m_t(:)=Pressure_eq(:)*(NA/(8.3144598D6*Model_temp))` (3384). -/
noncomputable def maskedCStar (i : ℕ) : ℝ :=
  maskedPressure L P flag b i * (P.na / (8314459.8 * P.temp))

/-- `dm_dt(:)=k_i_m_t(:)*(C_g_i_t(:)-Cstar_i_m_t(:))` (3401). -/
noncomputable def maskedDmDt (i : ℕ) : ℝ :=
  kTransfer L P b i * (P.cgas i - maskedCStar L P flag b i)

end Routine

/-- `dy_dt` after the loop over the bins, with
`dy_dt_gas_matrix(1:num_species,size_step)=dm_dt(1:num_species)` (3405) and
`dy_dt(1:num_species)=dy_dt(1:num_species)-SUM(dy_dt_gas_matrix, DIM=2)` (3413), seen from Python. -/
noncomputable def partitionAll (L : Layout) (P : PartInput) (flag : ℕ → ℤ) (i : ℕ) : ℝ :=
  let dm := maskedDmDt L P flag
  let D := (runEvents L dm (serialEvents L.numBins) ⟨0, 0, fun _ => 0⟩).dyDt
  let column := fun b => assignSlice (fun _ => 0) 1 L.numSpecies (dm b)
  if 1 ≤ i + 1 ∧ i + 1 ≤ L.numSpecies then
    D (i + 1) - fsum L.numBins (fun b => column b (i + 1))
  else D (i + 1)

/-- The arguments of the routine (100-121): `C_g_i_t=y_asnumpy[0:num_species,]` and
`C_g_i_t[ignore_index]=0.0`.  `C_g_i_t` is a view of `y_asnumpy`, so the gas entries of the ignored species
in `y` become 0 too. -/
noncomputable def splitArgs (L : Layout) (C : AeroConst) (ignored : List ℕ) (y : ℕ → ℝ) : PartInput :=
  { partArgs L C (fun i => if i < L.numSpecies ∧ i ∈ ignored then 0 else y i) with
    cgas := fun i => if i - 1 ∈ ignored then 0 else y (i - 1) }

/-- `dydt_func_aerosol_only(t,y)` (76-140). -/
noncomputable def aerosolOnlyRhs (L : Layout) (C : AeroConst) (ignored : List ℕ) (y : ℕ → ℝ) : ℕ → ℝ :=
  addUp L (fun _ => 0) (partitionAll L (splitArgs L C ignored y) (ignoreFlag ignored))

/-- `dydt_func_gas_only(t,y)` (39-74).  `none`: the sum over the radicals or a generated gas routine is not
defined. -/
noncomputable def gasOnlyRhs (t : Tables) (equations : ℕ) (cores : Option ℕ) (L : Layout) (temp : ℝ)
    (indices : List ℕ) (rates : Rates) (start h2o time : ℝ) (y : ℕ → ℝ) : Option (ℕ → ℝ) :=
  (ro2Total indices y).bind (fun ro2 =>
    (gasRhsF t equations (L.numSpecies - 1) cores (fun _ => 0) (fun _ => 0)
      (rates (start + time) ro2 h2o temp) (firstEntries (L.numSpecies - 1) y)).map (fun gas =>
        addUp L gas (fun _ => 0)))

end Aerosol
end PyBox
