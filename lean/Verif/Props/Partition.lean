import Verif.Aerosol.Slices
import Mathlib.Algebra.BigOperators.Field

/-!
# Properties of the partitioning routine (C36-C41)

Species, bins and state entries are counted from 0 here, as Python sees them:
the gas species are entries `0..ns-1` of the state and condensed species `j` of
bin `b` is entry `ns + b*nc + j`.
-/

namespace PyBox

open Aerosol

namespace Spec

/-- What the driver guarantees about a layout: one gas index per condensing
species, all different, all valid. -/
structure GoodLayout (L : Layout) : Prop where
  len : L.incl.length = L.numCond
  nodup : L.incl.Nodup
  valid : ∀ s ∈ L.incl, s < L.numSpecies

/-- Concentration of condensed species `j` in bin `b`. -/
def conc (L : Layout) (P : PartInput) (b j : ℕ) : ℝ :=
  P.y (L.numSpecies + b * L.numCond + j + 1)

/-- Mass of condensed species `j` in bin `b` per volume of air. -/
noncomputable def mass (L : Layout) (P : PartInput) (b j : ℕ) : ℝ :=
  conc L P b j / P.na * P.mw (j + 1)

/-- All the matter in a bin. -/
noncomputable def binMass (L : Layout) (P : PartInput) (b : ℕ) : ℝ :=
  ∑ j ∈ Finset.range L.numCond, mass L P b j + P.coreMass (b + 1)

/-- Volume of that matter if the components keep their own densities. -/
noncomputable def binVolume (L : Layout) (P : PartInput) (b : ℕ) : ℝ :=
  ∑ j ∈ Finset.range L.numCond, mass L P b j / P.densityInput (j + 1)
    + P.coreMass (b + 1) / P.coreDensity (b + 1)

/-- `r` is the radius of the particles of bin `b`: `N` spheres of radius `r`
hold the volume of the bin (masses converted from g/cc to kg/m3, numbers from
1/cc to 1/m3). -/
def IsRadius (L : Layout) (P : PartInput) (b : ℕ) (r : ℝ) : Prop :=
  0 ≤ r ∧ (4 / 3 * fPi * r ^ 3) * (P.nPerBin (b + 1) * 10 ^ 6) = binVolume L P b * 10 ^ 3

/-- Transition-regime correction of Fuchs and Sutugin as a function of the
Knudsen number and the accommodation coefficient. -/
noncomputable def fuchs (kn a : ℝ) : ℝ :=
  1 / (1 + ((1.33 + 0.71 / kn) / (1 + 1 / kn) + 4 * (1 - a) / (3 * a)) * kn)

/-- Equilibrium gas concentration of condensed species `j` over particles of
bin `b` and radius `r`: Raoult's law, Kelvin's factor and the ideal gas law. -/
noncomputable def equilibrium (L : Layout) (P : PartInput) (b j : ℕ) (r : ℝ) : ℝ :=
  let x := conc L P b j /
    (∑ k ∈ Finset.range L.numCond, conc L P b k + P.ycore (b + 1) * P.coreDiss)
  let rho := binMass L P b / binVolume L P b
  let kelvin := Real.exp (4 * (P.mw (j + 1) / 1000) * P.sigma /
    (P.rGas * P.temp * (2 * r) * rho))
  kelvin * x * (P.psat (j + 1) * 101325) * P.na / (8.3144598e6 * P.temp)

/-- A physically meaningful state of bin `b`. -/
structure Physical (L : Layout) (P : PartInput) (b : ℕ) : Prop where
  conc : ∀ j < L.numCond, 0 ≤ Spec.conc L P b j
  na : 0 < P.na
  mw : ∀ j < L.numCond, 0 < P.mw (j + 1)
  core : 0 < P.coreMass (b + 1)
  rho : ∀ j < L.numCond, 0 < P.densityInput (j + 1)
  coreRho : 0 < P.coreDensity (b + 1)
  number : 0 < P.nPerBin (b + 1)
  diff : ∀ j < L.numCond, 0 < P.dStar (j + 1)
  acc : ∀ j < L.numCond, 0 < P.alpha (j + 1) ∧ P.alpha (j + 1) ≤ 1
  path : ∀ j < L.numCond, 0 < P.gamma (j + 1)

end Spec

open Spec

/-! ## Reading the routine -/

theorem tempArray_eq (L : Layout) (P : PartInput) (b j : ℕ) :
    tempArray L P (b + 1) (j + 1) = conc L P b j := by
  unfold tempArray conc
  congr 1
  simp only [Nat.add_sub_cancel]
  ring

theorem massArray_lt (L : Layout) (P : PartInput) (b j : ℕ) (h : j < L.numCond) :
    massArray L P (b + 1) (j + 1) = mass L P b j := by
  rw [massArray, if_neg (by omega), tempArray_eq, mass]

theorem massArray_core (L : Layout) (P : PartInput) (b : ℕ) :
    massArray L P (b + 1) (L.numCond + 1) = P.coreMass (b + 1) := by
  rw [massArray, if_pos rfl]

theorem totalMass_eq (L : Layout) (P : PartInput) (b : ℕ) :
    totalMass L P (b + 1) = binMass L P b := by
  unfold totalMass fsum binMass
  rw [Finset.sum_range_succ, massArray_core]
  congr 1
  exact Finset.sum_congr rfl (fun j hj => massArray_lt L P b j (Finset.mem_range.1 hj))

theorem totalMoles_eq (L : Layout) (P : PartInput) (b : ℕ) :
    totalMoles L P (b + 1)
      = ∑ k ∈ Finset.range L.numCond, conc L P b k + P.ycore (b + 1) * P.coreDiss := by
  unfold totalMoles fsum
  congr 1
  exact Finset.sum_congr rfl (fun j _ => tempArray_eq L P b j)

theorem specific_volume (L : Layout) (P : PartInput) (b : ℕ) :
    fsum (L.numCond + 1) (fun i => massFraction L P (b + 1) i / densityArray L P (b + 1) i)
      = binVolume L P b / binMass L P b := by
  unfold fsum binVolume massFraction
  rw [Finset.sum_range_succ]
  beta_reduce
  rw [massArray_core, totalMass_eq, add_div, Finset.sum_div]
  congr 1
  · refine Finset.sum_congr rfl (fun j hj => ?_)
    have h := Finset.mem_range.1 hj
    rw [massArray_lt L P b j h, densityArray, if_neg (by omega)]
    exact div_right_comm _ _ _
  · rw [densityArray, if_pos rfl]
    exact div_right_comm _ _ _

theorem density_eq (L : Layout) (P : PartInput) (b : ℕ) :
    density L P (b + 1) = binMass L P b / binVolume L P b := by
  rw [density, specific_volume, one_div_div]

theorem fPi_pos : 0 < fPi := by unfold fPi; norm_num

namespace Spec.Physical

variable {L : Layout} {P : PartInput} {b : ℕ}

theorem mass_nonneg (h : Physical L P b) {j : ℕ} (hj : j < L.numCond) : 0 ≤ mass L P b j :=
  mul_nonneg (div_nonneg (h.conc j hj) h.na.le) (h.mw j hj).le

theorem binMass_pos (h : Physical L P b) : 0 < binMass L P b :=
  add_pos_of_nonneg_of_pos
    (Finset.sum_nonneg (fun _ hj => h.mass_nonneg (Finset.mem_range.1 hj))) h.core

theorem binVolume_pos (h : Physical L P b) : 0 < binVolume L P b :=
  add_pos_of_nonneg_of_pos
    (Finset.sum_nonneg (fun j hj => div_nonneg (h.mass_nonneg (Finset.mem_range.1 hj))
      (h.rho j (Finset.mem_range.1 hj)).le)) (div_pos h.core h.coreRho)

theorem size_arg (h : Physical L P b) :
    (3 * (totalMass L P (b + 1) * 1000 / (P.nPerBin (b + 1) * 1000000))) /
      (4 * fPi * density L P (b + 1))
      = 3 * (binVolume L P b * 10 ^ 3) / (4 * fPi * (P.nPerBin (b + 1) * 10 ^ 6)) := by
  rw [totalMass_eq, density_eq]
  have h1 := h.binMass_pos.ne'
  have h2 := h.binVolume_pos.ne'
  have h3 := h.number.ne'
  have h4 := fPi_pos.ne'
  field_simp
  norm_num

theorem size_pos (h : Physical L P b) : 0 < sizeArray L P (b + 1) := by
  rw [sizeArray, h.size_arg]
  refine Real.rpow_pos_of_pos (div_pos ?_ ?_) _
  · have := h.binVolume_pos; positivity
  · have := fPi_pos; have := h.number; positivity

theorem size_isRadius (h : Physical L P b) : IsRadius L P b (sizeArray L P (b + 1)) := by
  refine ⟨h.size_pos.le, ?_⟩
  have h3 := h.number
  have h4 := fPi_pos
  have h2 := h.binVolume_pos
  have e : sizeArray L P (b + 1) ^ 3
      = 3 * (binVolume L P b * 10 ^ 3) / (4 * fPi * (P.nPerBin (b + 1) * 10 ^ 6)) := by
    rw [sizeArray, h.size_arg]
    have h0 : (0 : ℝ) ≤ 3 * (binVolume L P b * 10 ^ 3) /
        (4 * fPi * (P.nPerBin (b + 1) * 10 ^ 6)) := by positivity
    have := Real.rpow_inv_natCast_pow h0 (n := 3) (by norm_num)
    rw [Real.rpow_eq_pow]
    rw [show (1 / 3 : ℝ) = ((3 : ℕ) : ℝ)⁻¹ by norm_num]
    exact this
  rw [e]
  field_simp

theorem radius_unique (h : Physical L P b) {r r' : ℝ} (hr : IsRadius L P b r)
    (hr' : IsRadius L P b r') : r = r' := by
  have h3 := h.number
  have h4 := fPi_pos
  have e : r ^ 3 = r' ^ 3 := by
    have h5 := hr.2.trans hr'.2.symm
    have h6 : P.nPerBin (b + 1) * 10 ^ 6 ≠ 0 := by positivity
    have h7 := mul_right_cancel₀ h6 h5
    have h8 : (4 / 3 * fPi) ≠ 0 := by positivity
    exact mul_left_cancel₀ h8 h7
  exact (pow_left_inj₀ hr.1 hr'.1 (by norm_num)).1 e

theorem size_eq (h : Physical L P b) {r : ℝ} (hr : IsRadius L P b r) :
    sizeArray L P (b + 1) = r := h.radius_unique h.size_isRadius hr

end Spec.Physical

theorem cStar_eq (L : Layout) (P : PartInput) (b j : ℕ) :
    cStar L P (b + 1) (j + 1) = equilibrium L P b j (sizeArray L P (b + 1)) := by
  simp only [cStar, pressureEq, kelvin, moleFraction, equilibrium]
  rw [tempArray_eq, totalMoles_eq, density_eq]
  rw [show (4 * P.mw (j + 1) * 0.001 * P.sigma) = 4 * (P.mw (j + 1) / 1000) * P.sigma by ring,
    show P.rGas * P.temp * sizeArray L P (b + 1) * 2 = P.rGas * P.temp * (2 * sizeArray L P (b + 1))
      by ring]
  rw [show (8314459.8 : ℝ) = 8.3144598e6 by norm_num]
  ring

theorem correction_eq (L : Layout) (P : PartInput) (b i : ℕ) :
    correction L P b i = fuchs (knudsen L P b i) (P.alpha i) := by
  simp only [correction, correction3, correction1, correction2, inverseKn, fuchs]
  rw [show (0.71 : ℝ) * (1 / knudsen L P b i) = 0.71 / knudsen L P b i by ring]

/-! ## C40: the correction -/

/-- C40: the correction factor lies strictly between 0 and 1. -/
theorem C40_between (kn a : ℝ) (hkn : 0 < kn) (ha : 0 < a) (ha1 : a ≤ 1) :
    0 < fuchs kn a ∧ fuchs kn a < 1 := by
  have hA : 0 < (1.33 + 0.71 / kn) / (1 + 1 / kn) := by positivity
  have hB : 0 ≤ 4 * (1 - a) / (3 * a) := by
    have : 0 ≤ 1 - a := by linarith
    positivity
  have hX : 0 < ((1.33 + 0.71 / kn) / (1 + 1 / kn) + 4 * (1 - a) / (3 * a)) * kn := by positivity
  constructor
  · unfold fuchs; positivity
  · unfold fuchs
    rw [div_lt_one (by linarith)]
    linarith

example : (0 : ℝ) < 1 ∧ (0 : ℝ) < 0.1 ∧ (0.1 : ℝ) ≤ 1 := by norm_num

/-- C40 for the value the routine computes. -/
theorem C40_routine (L : Layout) (P : PartInput) (b j : ℕ) (h : Physical L P b)
    (hj : j < L.numCond) :
    0 < correction L P (b + 1) (j + 1) ∧ correction L P (b + 1) (j + 1) < 1 := by
  rw [correction_eq]
  exact C40_between _ _ (div_pos (h.path j hj) h.size_pos) (h.acc j hj).1 (h.acc j hj).2

/-- C40: smaller particles are corrected more. -/
theorem C40_decreasing (a : ℝ) (ha : 0 < a) (ha1 : a ≤ 1) {k k' : ℝ} (hk : 0 < k) (h : k < k') :
    fuchs k' a < fuchs k a := by
  have hk' : 0 < k' := hk.trans h
  have hB : 0 ≤ 4 * (1 - a) / (3 * a) := by
    have : 0 ≤ 1 - a := by linarith
    positivity
  have key : ∀ x : ℝ, 0 < x → ((1.33 + 0.71 / x) / (1 + 1 / x)) * x
      = 1.33 * x - 0.62 + 0.62 / (x + 1) := by
    intro x hx
    have : x + 1 ≠ 0 := by positivity
    field_simp
    ring
  unfold fuchs
  apply one_div_lt_one_div_of_lt
  · have : 0 < (1.33 + 0.71 / k) / (1 + 1 / k) := by positivity
    positivity
  · rw [add_mul, add_mul, key k hk, key k' hk']
    have e : (0.62 : ℝ) / (k + 1) - 0.62 / (k' + 1) = 0.62 * (k' - k) / ((k + 1) * (k' + 1)) := by
      have : k + 1 ≠ 0 := by positivity
      have : k' + 1 ≠ 0 := by positivity
      field_simp
      ring
    have e2 : 0.62 * (k' - k) / ((k + 1) * (k' + 1)) < 0.62 * (k' - k) := by
      have hp : 0 < 0.62 * (k' - k) := by
        have : 0 < k' - k := by linarith
        positivity
      rw [div_lt_iff₀ (by positivity)]
      nlinarith [mul_pos hk hk', mul_pos hp (mul_pos hk hk'), mul_pos hp hk, mul_pos hp hk']
    have e3 : 4 * (1 - a) / (3 * a) * k ≤ 4 * (1 - a) / (3 * a) * k' :=
      mul_le_mul_of_nonneg_left h.le hB
    nlinarith

/-- C40: better accommodation brings the factor closer to 1. -/
theorem C40_accommodation (k : ℝ) (hk : 0 < k) {a a' : ℝ} (ha : 0 < a) (h : a < a')
    (ha1 : a' ≤ 1) : fuchs k a < fuchs k a' := by
  have ha' : 0 < a' := ha.trans h
  have e : ∀ x : ℝ, 0 < x → 4 * (1 - x) / (3 * x) = 4 / 3 * (1 / x) - 4 / 3 := by
    intro x hx; field_simp
  have hlt : 1 / a' < 1 / a := one_div_lt_one_div_of_lt ha h
  have h1 : 4 * (1 - a') / (3 * a') < 4 * (1 - a) / (3 * a) := by
    rw [e a ha, e a' ha']; linarith
  have hB : 0 ≤ 4 * (1 - a') / (3 * a') := by
    have : 0 ≤ 1 - a' := by linarith
    positivity
  unfold fuchs
  have : 0 < (1.33 + 0.71 / k) / (1 + 1 / k) := by positivity
  apply one_div_lt_one_div_of_lt
  · positivity
  · nlinarith

/-! ## The returned array -/

theorem partition_slot (L : Layout) (P : PartInput) (b j : ℕ) (hb : b < L.numBins)
    (hj : j < L.numCond) :
    partition L P (L.numSpecies + b * L.numCond + j) = dmDt L P (b + 1) (j + 1) := by
  unfold partition partitionWith dyDtWith
  rw [if_neg (by omega), serial_slot L _ _ _ b j hj, if_pos hb]

theorem partition_gas (L : Layout) (P : PartInput) (s : ℕ) (hs : s < L.numSpecies) :
    partition L P s
      = - ∑ b ∈ Finset.range L.numBins, gasColumn L.incl (dmDt L P (b + 1)) (s + 1) := by
  unfold partition partitionWith dyDtWith
  rw [if_pos (by omega), serial_gas L _ _ _ _ (by omega), fsum, zero_sub]

/-! ## C36: conservation -/

/-- C36: what a condensing species gains in the particles it loses from the
gas. -/
theorem C36_exchange (L : Layout) (P : PartInput) (hL : GoodLayout L) (j : ℕ)
    (hj : j < L.incl.length) :
    partition L P L.incl[j]
      = - ∑ b ∈ Finset.range L.numBins, partition L P (L.numSpecies + b * L.numCond + j) := by
  rw [partition_gas L P _ (hL.valid _ (List.getElem_mem hj))]
  congr 1
  refine Finset.sum_congr rfl (fun b hb => ?_)
  rw [partition_slot L P b j (Finset.mem_range.1 hb) (hL.len ▸ hj),
    gasColumn_get _ _ hL.nodup]

/-- C37: a species that is not condensing is untouched. -/
theorem C37_excluded (L : Layout) (P : PartInput) (s : ℕ) (hs : s < L.numSpecies)
    (h : s ∉ L.incl) : partition L P s = 0 := by
  rw [partition_gas L P s hs]
  simp [gasColumn_not_mem _ _ _ h]

theorem sum_slots (ns nc n : ℕ) (f : ℕ → ℝ) :
    ∑ i ∈ Finset.range (ns + n * nc), f i
      = ∑ i ∈ Finset.range ns, f i
        + ∑ b ∈ Finset.range n, ∑ j ∈ Finset.range nc, f (ns + b * nc + j) := by
  induction n with
  | zero => simp
  | succ n ih =>
    rw [show ns + (n + 1) * nc = (ns + n * nc) + nc by ring, Finset.sum_range_add, ih,
      Finset.sum_range_succ, add_assoc]

theorem sum_gas (L : Layout) (P : PartInput) (hL : GoodLayout L) :
    ∑ s ∈ Finset.range L.numSpecies, partition L P s
      = ∑ j ∈ Finset.range L.numCond,
          - ∑ b ∈ Finset.range L.numBins, partition L P (L.numSpecies + b * L.numCond + j) := by
  have h1 : ∑ s ∈ Finset.range L.numSpecies, partition L P s
      = ∑ s ∈ L.incl.toFinset, partition L P s := by
    symm
    apply Finset.sum_subset
    · intro s hs
      exact Finset.mem_range.2 (hL.valid s (List.mem_toFinset.1 hs))
    · intro s hs hn
      exact C37_excluded L P s (Finset.mem_range.1 hs) (fun h => hn (List.mem_toFinset.2 h))
  rw [h1, List.sum_toFinset _ hL.nodup]
  generalize hf : (fun j => - ∑ b ∈ Finset.range L.numBins,
    partition L P (L.numSpecies + b * L.numCond + j)) = f
  rw [← hL.len, ← Fin.sum_univ_eq_sum_range f, ← List.sum_ofFn]
  congr 1
  apply List.ext_getElem
  · simp
  · intro i h1 h2
    simp only [List.getElem_map, List.getElem_ofFn]
    rw [C36_exchange L P hL i (by simpa using h1), ← hf]

/-- C36: the total number of molecules, gas and particles together, is not
changed by partitioning. -/
theorem C36_total (L : Layout) (P : PartInput) (hL : GoodLayout L) :
    ∑ i ∈ Finset.range (L.numSpecies + L.numBins * L.numCond), partition L P i = 0 := by
  rw [sum_slots, sum_gas L P hL]
  rw [Finset.sum_neg_distrib, Finset.sum_comm]
  ring

/-! ## C38: the layout of the state -/

/-- C38: every entry of the state is either a gas species or one condensed
species of one bin. -/
theorem C38_layout (ns nc nb i : ℕ) (hi : i < ns + nb * nc) :
    (i < ns ∧ ∀ b j, b < nb → j < nc → i ≠ ns + b * nc + j) ∨
    (ns ≤ i ∧ ∃! p : ℕ × ℕ, p.1 < nb ∧ p.2 < nc ∧ i = ns + p.1 * nc + p.2) := by
  by_cases h : i < ns
  · exact Or.inl ⟨h, fun b j _ _ => by omega⟩
  · have hnc : 0 < nc := by
      rcases Nat.eq_zero_or_pos nc with h0 | h0
      · subst h0; omega
      · exact h0
    refine Or.inr ⟨by omega, ((i - ns) / nc, (i - ns) % nc), ⟨?_, ?_, ?_⟩, ?_⟩
    · show (i - ns) / nc < nb
      rw [Nat.div_lt_iff_lt_mul hnc]; omega
    · exact Nat.mod_lt _ hnc
    · have e : (i - ns) / nc * nc + (i - ns) % nc = i - ns := by
        rw [Nat.mul_comm]; exact Nat.div_add_mod _ _
      show i = ns + (i - ns) / nc * nc + (i - ns) % nc
      omega
    · rintro ⟨b, j⟩ ⟨_, hj, he⟩
      simp only at hj he
      have e : (i - ns) / nc * nc + (i - ns) % nc = i - ns := by
        rw [Nat.mul_comm]; exact Nat.div_add_mod _ _
      have := slot_inj (nc := nc) (b := b) (j := j)
        (b' := (i - ns) / nc) hj (Nat.mod_lt (i - ns) hnc) (by omega)
      exact Prod.ext this.1 this.2

/-- C38: the slice of bin `b` read and written by the routine is exactly the
entries of that bin: the tendency of an entry depends only on the entries of
its own bin (and on the gas). -/
theorem C38_own_bin (L : Layout) (P P' : PartInput) (b j : ℕ) (hb : b < L.numBins)
    (hj : j < L.numCond) (y' : ℕ → ℝ) (hP : P' = { P with y := y' })
    (hy : ∀ k < L.numCond, y' (L.numSpecies + b * L.numCond + k + 1)
      = P.y (L.numSpecies + b * L.numCond + k + 1)) :
    partition L P' (L.numSpecies + b * L.numCond + j)
      = partition L P (L.numSpecies + b * L.numCond + j) := by
  rw [partition_slot L P b j hb hj, partition_slot L P' b j hb hj]
  have hc : ∀ k < L.numCond, conc L P' b k = conc L P b k := by
    intro k hk; subst hP; exact hy k hk
  have hm : ∀ k < L.numCond, mass L P' b k = mass L P b k := by
    intro k hk; unfold mass; rw [hc k hk]; subst hP; rfl
  have hbm : binMass L P' b = binMass L P b := by
    unfold binMass
    rw [Finset.sum_congr rfl (fun k hk => hm k (Finset.mem_range.1 hk))]
    subst hP; rfl
  have hbv : binVolume L P' b = binVolume L P b := by
    unfold binVolume
    rw [Finset.sum_congr rfl (fun k hk => by rw [hm k (Finset.mem_range.1 hk)])]
    subst hP; rfl
  have hs : sizeArray L P' (b + 1) = sizeArray L P (b + 1) := by
    unfold sizeArray
    rw [totalMass_eq, totalMass_eq, density_eq, density_eq, hbm, hbv]
    subst hP; rfl
  have hk : knudsen L P' (b + 1) (j + 1) = knudsen L P (b + 1) (j + 1) := by
    unfold knudsen; rw [hs]; subst hP; rfl
  have hcor : correction L P' (b + 1) (j + 1) = correction L P (b + 1) (j + 1) := by
    rw [correction_eq, correction_eq, hk]; subst hP; rfl
  have hst : cStar L P' (b + 1) (j + 1) = cStar L P (b + 1) (j + 1) := by
    rw [cStar_eq, cStar_eq, hs]
    simp only [equilibrium]
    rw [hbm, hbv, hc j hj, Finset.sum_congr rfl (fun k hk => hc k (Finset.mem_range.1 hk))]
    subst hP; rfl
  unfold dmDt kTransfer kPart1
  rw [hs, hcor, hst]
  subst hP; rfl

/-! ## C39: the driving force -/

/-- C39: the tendency of a condensed species is a mass-transfer coefficient
times the supersaturation over particles of the radius that holds the matter
of the bin. -/
theorem C39_rate (L : Layout) (P : PartInput) (b j : ℕ) (hb : b < L.numBins)
    (hj : j < L.numCond) (h : Physical L P b) (r : ℝ) (hr : IsRadius L P b r) :
    partition L P (L.numSpecies + b * L.numCond + j)
      = 4 * fPi * (r * 100) * P.nPerBin (b + 1) * P.dStar (j + 1)
          * fuchs (P.gamma (j + 1) / r) (P.alpha (j + 1))
          * (P.cgas (j + 1) - equilibrium L P b j r) := by
  rw [partition_slot L P b j hb hj, dmDt, kTransfer, kPart1, correction_eq, cStar_eq, knudsen,
    h.size_eq hr]
  ring

/-- C39: condensation, evaporation and equilibrium. -/
theorem C39_driven (L : Layout) (P : PartInput) (b j : ℕ) (hb : b < L.numBins)
    (hj : j < L.numCond) (h : Physical L P b) (r : ℝ) (hr : IsRadius L P b r) :
    (0 < partition L P (L.numSpecies + b * L.numCond + j)
        ↔ equilibrium L P b j r < P.cgas (j + 1)) ∧
    (partition L P (L.numSpecies + b * L.numCond + j) < 0
        ↔ P.cgas (j + 1) < equilibrium L P b j r) ∧
    (partition L P (L.numSpecies + b * L.numCond + j) = 0
        ↔ P.cgas (j + 1) = equilibrium L P b j r) := by
  have hrp : 0 < r := h.size_eq hr ▸ h.size_pos
  have hk : 0 < 4 * fPi * (r * 100) * P.nPerBin (b + 1) * P.dStar (j + 1)
          * fuchs (P.gamma (j + 1) / r) (P.alpha (j + 1)) := by
    have h1 := (C40_between (P.gamma (j + 1) / r) (P.alpha (j + 1))
      (div_pos (h.path j hj) hrp) (h.acc j hj).1 (h.acc j hj).2).1
    have h2 := fPi_pos
    have h3 := h.number
    have h4 := h.diff j hj
    positivity
  rw [C39_rate L P b j hb hj h r hr]
  refine ⟨?_, ?_, ?_⟩
  · rw [mul_pos_iff_of_pos_left hk, sub_pos]
  · rw [mul_neg_iff]
    constructor
    · rintro (⟨_, h2⟩ | ⟨h1, _⟩)
      · linarith
      · linarith
    · intro h2; exact Or.inl ⟨hk, by linarith⟩
  · rw [mul_eq_zero_iff_left hk.ne', sub_eq_zero]

/-- Every physical state has exactly one radius, the size the routine
returns. -/
theorem C39_radius (L : Layout) (P : PartInput) (b : ℕ) (h : Physical L P b) :
    IsRadius L P b (sizeArray L P (b + 1)) ∧
      ∀ r, IsRadius L P b r → r = sizeArray L P (b + 1) :=
  ⟨h.size_isRadius, fun _ hr => (h.size_eq hr).symm⟩

/-! ## C41: the organic mass -/

theorem soa_eq (L : Layout) (P : PartInput) :
    totalSoaMass L P = 10 ^ 12 * ∑ b ∈ Finset.range L.numBins,
      ∑ j ∈ Finset.range (L.numCond - 1), conc L P b j / P.na * P.mw (j + 1) := by
  unfold totalSoaMass fsum soaMassBin
  rw [mul_comm]
  congr 1
  · norm_num
  · refine Finset.sum_congr rfl (fun b _ => ?_)
    refine Finset.sum_congr rfl (fun j hj => ?_)
    have := Finset.mem_range.1 hj
    rw [massArray_lt L P b j (by omega), mass]

/-- C41: the reported mass, in micrograms per cubic metre, is the sum over bins
and over every condensed species but the last one (water). -/
theorem C41_mass (L : Layout) (P : PartInput) :
    totalSoaMass L P = 10 ^ 12 * ∑ b ∈ Finset.range L.numBins,
      ∑ j ∈ Finset.range (L.numCond - 1), mass L P b j := soa_eq L P

/-- C41: it does not depend on the amount of water. -/
theorem C41_water (L : Layout) (P : PartInput) (y' : ℕ → ℝ)
    (hy : ∀ b j, b < L.numBins → j + 1 < L.numCond →
      y' (L.numSpecies + b * L.numCond + j + 1) = P.y (L.numSpecies + b * L.numCond + j + 1)) :
    totalSoaMass L { P with y := y' } = totalSoaMass L P := by
  rw [soa_eq, soa_eq]
  congr 1
  refine Finset.sum_congr rfl (fun b hb => Finset.sum_congr rfl (fun j hj => ?_))
  have h1 := Finset.mem_range.1 hb
  have h2 := Finset.mem_range.1 hj
  have : conc L { P with y := y' } b j = conc L P b j := hy b j h1 (by omega)
  rw [this]

/-- C41: it is not negative in a state without negative concentrations. -/
theorem C41_nonneg (L : Layout) (P : PartInput) (hna : 0 < P.na)
    (hmw : ∀ j < L.numCond, 0 ≤ P.mw (j + 1))
    (hy : ∀ b j, b < L.numBins → j < L.numCond → 0 ≤ conc L P b j) :
    0 ≤ totalSoaMass L P := by
  rw [soa_eq]
  refine mul_nonneg (by norm_num) (Finset.sum_nonneg (fun b hb => Finset.sum_nonneg
    (fun j hj => mul_nonneg (div_nonneg (hy b j (Finset.mem_range.1 hb) ?_) hna.le) (hmw j ?_))))
  all_goals have := Finset.mem_range.1 hj; omega

/-! ## A state that meets the hypotheses -/

/-- Two bins, three gas species of which two condense. -/
def sampleLayout : Layout := ⟨2, 3, 2, [0, 2]⟩

/-- Some positive values. -/
noncomputable def sampleInput : PartInput where
  y := fun i => i
  ycore := fun _ => 1
  coreMass := fun _ => 1
  coreDensity := fun _ => 1
  nPerBin := fun _ => 1
  densityInput := fun _ => 1
  dStar := fun _ => 1
  alpha := fun _ => 0.1
  gamma := fun _ => 1
  cgas := fun i => i
  mw := fun _ => 18
  psat := fun _ => 1
  coreDiss := 3
  sigma := 1
  na := 1
  rGas := 8
  temp := 300

example : GoodLayout sampleLayout :=
  ⟨rfl, by decide, by decide⟩

theorem sampleInput_physical : Physical sampleLayout sampleInput 1 where
  conc := by intro j _; simp only [conc, sampleInput]; positivity
  na := by norm_num [sampleInput]
  mw := by intro j _; norm_num [sampleInput]
  core := by norm_num [sampleInput]
  rho := by intro j _; norm_num [sampleInput]
  coreRho := by norm_num [sampleInput]
  number := by norm_num [sampleInput]
  diff := by intro j _; norm_num [sampleInput]
  acc := by intro j _; norm_num [sampleInput]
  path := by intro j _; norm_num [sampleInput]

example : ∃ r, IsRadius sampleLayout sampleInput 1 r :=
  ⟨_, (C39_radius _ _ _ sampleInput_physical).1⟩

end PyBox
