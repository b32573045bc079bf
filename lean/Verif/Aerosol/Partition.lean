import Mathlib.Analysis.SpecialFunctions.Pow.Real
import Mathlib.Analysis.SpecialFunctions.Exp
import Mathlib.Algebra.BigOperators.Intervals
import Mathlib.Algebra.Order.BigOperators.Group.Finset

/-!
# The generated partitioning routine

Model of the Fortran subroutine `dydt_partition` written by
`write_partitioning_section_fortran_ignore`
(`/repo/Parse_eqn_file.py` 3418-3650).

Arrays are functions `ℕ → ℝ` indexed from 1 as in the Fortran text, so every
formula can be compared with the written line.  `REAL(8)` arithmetic is
modelled by exact real arithmetic.  The literal `Pi = 3.1415927` (3515) is the
rational number it denotes; single precision literals (`1.0E0`, `4.0E0`) are
exact.

The routine is written once per simulation, with the sizes and the list of
condensing species put into the text: that is `Layout`.  Its arguments are
`PartInput`.  The arguments `ignore_index`, `Latent_heat`, `GRAV`, `Updraft`,
`kb`, `Rv`, `cp`, `Ra` and `Lv_water_vapour` are never read by the routine and
are left out.  C71 (`Props/PartitionText.lean`) proves that the written text,
read as Fortran and called with all its arguments, computes this model.
-/

namespace PyBox
namespace Aerosol

/-- What the generator puts into the text (3418): numbers of bins, gas species
and condensing species, and the gas indices (from 0) of the condensing
species. -/
structure Layout where
  numBins : ℕ
  numSpecies : ℕ
  numCond : ℕ
  incl : List ℕ

/-- Arguments of the subroutine that it reads (3463-3493). -/
structure PartInput where
  y : ℕ → ℝ
  ycore : ℕ → ℝ
  coreMass : ℕ → ℝ
  coreDensity : ℕ → ℝ
  nPerBin : ℕ → ℝ
  densityInput : ℕ → ℝ
  dStar : ℕ → ℝ
  alpha : ℕ → ℝ
  gamma : ℕ → ℝ
  cgas : ℕ → ℝ
  mw : ℕ → ℝ
  psat : ℕ → ℝ
  coreDiss : ℝ
  sigma : ℝ
  na : ℝ
  rGas : ℝ
  temp : ℝ

/-- `SUM` of the entries `1..n` of an array. -/
noncomputable def fsum (n : ℕ) (f : ℕ → ℝ) : ℝ := ∑ i ∈ Finset.range n, f (i + 1)

/-- `REAL(8), PARAMETER :: Pi = 3.1415927`. -/
noncomputable def fPi : ℝ := 3.1415927

section Bin

variable (L : Layout) (P : PartInput) (b : ℕ)

/-- `temp_array(:)=y(num_species+1+((size_step-1)*num_species_condensed):...)`. -/
noncomputable def tempArray (i : ℕ) : ℝ :=
  P.y (L.numSpecies + 1 + (b - 1) * L.numCond + (i - 1))

/-- `total_moles=SUM(temp_array(:))+ycore(size_step)*core_diss`. -/
noncomputable def totalMoles : ℝ :=
  fsum L.numCond (tempArray L P b) + P.ycore b * P.coreDiss

/-- `y_mole_fractions(:)=temp_array(:)/total_moles`. -/
noncomputable def moleFraction (i : ℕ) : ℝ := tempArray L P b i / totalMoles L P b

/-- `mass_array`: `(temp_array(:)/NA)*mw_array(:)` for the condensed species,
then the core mass in the last entry. -/
noncomputable def massArray (i : ℕ) : ℝ :=
  if i = L.numCond + 1 then P.coreMass b else tempArray L P b i / P.na * P.mw i

/-- `density_array`: the given densities, then the core density. -/
noncomputable def densityArray (i : ℕ) : ℝ :=
  if i = L.numCond + 1 then P.coreDensity b else P.densityInput i

/-- `total_SOA_mass_array(size_step)=SUM(mass_array(1:num_species_condensed-1))`. -/
noncomputable def soaMassBin : ℝ := fsum (L.numCond - 1) (massArray L P b)

/-- `aw_array(size_step)=temp_array(num_species_condensed)/total_moles`. -/
noncomputable def waterActivity : ℝ := tempArray L P b L.numCond / totalMoles L P b

/-- `total_mass=SUM(mass_array(:))`. -/
noncomputable def totalMass : ℝ := fsum (L.numCond + 1) (massArray L P b)

/-- `mass_fractions_array(:)=mass_array(:)/total_mass`. -/
noncomputable def massFraction (i : ℕ) : ℝ := massArray L P b i / totalMass L P b

/-- `density=1.0D0/(SUM(mass_fractions_array(:)/density_array(:)))`. -/
noncomputable def density : ℝ :=
  1 / fsum (L.numCond + 1) (fun i => massFraction L P b i / densityArray L P b i)

/-- `size_array(size_step)=((3.0D0*((total_mass*1.0D3)/(N_perbin(size_step)*1.0D6)))/
(4.0D0*Pi*density))**(1.0D0/3.0D0)`. -/
noncomputable def sizeArray : ℝ :=
  Real.rpow ((3 * (totalMass L P b * 1000 / (P.nPerBin b * 1000000))) /
    (4 * fPi * density L P b)) (1 / 3)

/-- `Kn(:)=gamma_gas(:)/size_array(size_step)`. -/
noncomputable def knudsen (i : ℕ) : ℝ := P.gamma i / sizeArray L P b

/-- `Inverse_Kn(:)=1.0D0/Kn(:)`. -/
noncomputable def inverseKn (i : ℕ) : ℝ := 1 / knudsen L P b i

/-- `Correction_part1(:)=(1.33D0+0.71D0*Inverse_Kn(:))/(1.0D0+Inverse_Kn(:))`. -/
noncomputable def correction1 (i : ℕ) : ℝ :=
  (1.33 + 0.71 * inverseKn L P b i) / (1 + inverseKn L P b i)

/-- `Correction_part2(:)=(4.0D0*(1.0D0-alpha_d_org(:)))/(3.0D0*alpha_d_org(:))`. -/
noncomputable def correction2 (P : PartInput) (i : ℕ) : ℝ :=
  (4 * (1 - P.alpha i)) / (3 * P.alpha i)

/-- `Correction_part3(:)=1.0E0+(Correction_part1(:)+Correction_part2(:))*Kn(:)`. -/
noncomputable def correction3 (i : ℕ) : ℝ :=
  1 + (correction1 L P b i + correction2 P i) * knudsen L P b i

/-- `Correction(:)=1.0D0/Correction_part3(:)`. -/
noncomputable def correction (i : ℕ) : ℝ := 1 / correction3 L P b i

/-- `kelvin_factor(:)=EXP((4.0E0*mw_array(:)*1.0D-3*sigma)/
(R_gas*Model_temp*size_array(size_step)*2.0D0*density))`. -/
noncomputable def kelvin (i : ℕ) : ℝ :=
  Real.exp ((4 * P.mw i * 0.001 * P.sigma) /
    (P.rGas * P.temp * sizeArray L P b * 2 * density L P b))

/-- `Pressure_eq(:)=kelvin_factor(:)*y_mole_fractions(:)*Psat(:)*101325.0D0`. -/
noncomputable def pressureEq (i : ℕ) : ℝ :=
  kelvin L P b i * moleFraction L P b i * P.psat i * 101325

/-- `Cstar_i_m_t(:)=Pressure_eq(:)*(NA/(8.3144598D6*Model_temp))`. -/
noncomputable def cStar (i : ℕ) : ℝ := pressureEq L P b i * (P.na / (8314459.8 * P.temp))

/-- `k_i_m_t_part1(:) = DStar_org(:)*Correction(:)`. -/
noncomputable def kPart1 (i : ℕ) : ℝ := P.dStar i * correction L P b i

/-- `k_i_m_t(:)=4.0D0*Pi*size_array(size_step)*1.0D2*N_perbin(size_step)*k_i_m_t_part1(:)`. -/
noncomputable def kTransfer (i : ℕ) : ℝ :=
  4 * fPi * sizeArray L P b * 100 * P.nPerBin b * kPart1 L P b i

/-- `dm_dt(:)=k_i_m_t(:)*(C_g_i_t(:)-Cstar_i_m_t(:))`. -/
noncomputable def dmDt (i : ℕ) : ℝ := kTransfer L P b i * (P.cgas i - cStar L P b i)

end Bin

/-- The column of `dy_dt_gas_matrix` of one bin: zero, then one assignment
`dy_dt_gas_matrix(num+1,size_step)=dm_dt(step+1)` per entry of
`include_index`, in that order (3633-3636). -/
noncomputable def gasColumn (incl : List ℕ) (dm : ℕ → ℝ) : ℕ → ℝ :=
  incl.zipIdx.foldl (fun M p => Function.update M (p.1 + 1) (dm (p.2 + 1))) (fun _ => 0)

/-- Statements of one pass of the loop that touch the shared variables
`index1`, `index2` and `dy_dt` (3639-3641). -/
inductive Stage
  | setIndex1 | setIndex2 | writeSlice
  deriving DecidableEq, Repr

/-- A statement executed for a bin. -/
structure Event where
  bin : ℕ
  stage : Stage
  deriving DecidableEq, Repr

/-- Shared storage touched by these statements. -/
structure Shared where
  index1 : ℕ
  index2 : ℕ
  dyDt : ℕ → ℝ

/-- `index1=num_species+1+((size_step-1)*num_species_condensed)`. -/
def firstIndex (L : Layout) (b : ℕ) : ℕ := L.numSpecies + 1 + (b - 1) * L.numCond

/-- `index2=num_species+((size_step)*num_species_condensed)`. -/
def lastIndex (L : Layout) (b : ℕ) : ℕ := L.numSpecies + b * L.numCond

/-- `dy_dt(i1:i2)=v(1:..)`. -/
def assignSlice (D : ℕ → ℝ) (i1 i2 : ℕ) (v : ℕ → ℝ) : ℕ → ℝ :=
  fun i => if i1 ≤ i ∧ i ≤ i2 then v (i - i1 + 1) else D i

/-- One statement.  `index1` and `index2` are in no `PRIVATE` clause
(3534-3546), so all threads share them. -/
def step (L : Layout) (dm : ℕ → ℕ → ℝ) (s : Shared) : Event → Shared
  | ⟨b, .setIndex1⟩ => { s with index1 := firstIndex L b }
  | ⟨b, .setIndex2⟩ => { s with index2 := lastIndex L b }
  | ⟨b, .writeSlice⟩ => { s with dyDt := assignSlice s.dyDt s.index1 s.index2 (dm b) }

/-- Execution of a schedule. -/
def runEvents (L : Layout) (dm : ℕ → ℕ → ℝ) (ev : List Event) (s : Shared) : Shared :=
  ev.foldl (step L dm) s

/-- The statements of one pass. -/
def binEvents (b : ℕ) : List Event :=
  [⟨b, .setIndex1⟩, ⟨b, .setIndex2⟩, ⟨b, .writeSlice⟩]

/-- `DO size_step=1,num_bins` executed by one thread. -/
def serialEvents (n : ℕ) : List Event := (List.range n).flatMap (fun k => binEvents (k + 1))

/-- The array `dy_dt` returned, when the loop statements are executed in the
order `ev`: after the loop,
`dy_dt(1:num_species)=dy_dt(1:num_species)-SUM(dy_dt_gas_matrix, DIM=2)` (3645). -/
noncomputable def dyDtWith (L : Layout) (P : PartInput) (ev : List Event) : ℕ → ℝ :=
  let D := (runEvents L (fun b => dmDt L P b) ev ⟨0, 0, fun _ => 0⟩).dyDt
  fun i =>
    if 1 ≤ i ∧ i ≤ L.numSpecies then
      D i - fsum L.numBins (fun b => gasColumn L.incl (dmDt L P b) i)
    else D i

/-- What Python receives: the array with its first entry at 0. -/
noncomputable def partitionWith (L : Layout) (P : PartInput) (ev : List Event) (i : ℕ) : ℝ :=
  dyDtWith L P ev (i + 1)

/-- The result with one thread. -/
noncomputable def partition (L : Layout) (P : PartInput) : ℕ → ℝ :=
  partitionWith L P (serialEvents L.numBins)

/-- `total_SOA_mass=SUM(total_SOA_mass_array)*(1.0D12)` (3646). -/
noncomputable def totalSoaMass (L : Layout) (P : PartInput) : ℝ :=
  fsum L.numBins (soaMassBin L P) * 1000000000000

end Aerosol
end PyBox
