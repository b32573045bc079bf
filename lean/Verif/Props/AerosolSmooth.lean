import Verif.Props.AerosolRhs
import Verif.Props.Kinetic
import Mathlib.Analysis.SpecialFunctions.ExpDeriv
import Mathlib.Analysis.SpecialFunctions.Pow.Deriv

/-!
# The exchange with the particles is smooth

Near every state without negative concentrations the partitioning routine is a differentiable function of
the state.
-/

namespace PyBox

open Set Spec Aerosol

namespace Spec

/-- Physically meaningful constants of a simulation with particles. -/
structure PhysConst (L : Aerosol.Layout) (C : AeroConst) : Prop where
  na : 0 < C.na
  rGas : 0 < C.rGas
  temp : 0 < C.temp
  coreDiss : 0 < C.coreDiss
  ycore : ∀ b < L.numBins, 0 < C.ycore b
  coreMw : ∀ b < L.numBins, 0 < C.coreMw b
  coreDensity : ∀ b < L.numBins, 0 < C.coreDensity b
  number : ∀ b < L.numBins, 0 < C.nPerBin b
  mw : ∀ j < L.numCond, 0 < C.mw j
  density : ∀ j < L.numCond, 0 < C.densityInput j
  dStar : ∀ j < L.numCond, 0 < C.dStar j
  alpha : ∀ j < L.numCond, 0 < C.alpha j ∧ C.alpha j ≤ 1
  gamma : ∀ j < L.numCond, 0 < C.gamma j

end Spec

section

variable {L : Aerosol.Layout} {C : AeroConst}

theorem conc_partArgs (y : ℕ → ℝ) (b j : ℕ) :
    conc L (partArgs L C y) b j = y (L.numSpecies + b * L.numCond + j) := by
  simp only [conc, partArgs, Nat.add_sub_cancel]

theorem Spec.PhysConst.physical (hC : PhysConst L C) {y : ℕ → ℝ} (hy : ∀ i, 0 ≤ y i) {b : ℕ}
    (hb : b < L.numBins) : Physical L (partArgs L C y) b where
  conc := fun j _ => by rw [conc_partArgs]; exact hy _
  na := hC.na
  mw := fun j hj => hC.mw j hj
  core := by
    simp only [partArgs, Nat.add_sub_cancel]
    exact mul_pos (div_pos (hC.ycore b hb) hC.na) (hC.coreMw b hb)
  rho := fun j hj => hC.density j hj
  coreRho := hC.coreDensity b hb
  number := hC.number b hb
  diff := fun j hj => hC.dStar j hj
  acc := fun j hj => hC.alpha j hj
  path := fun j hj => hC.gamma j hj

theorem Spec.PhysConst.totalMoles_pos (hC : PhysConst L C) {y : ℕ → ℝ} (hy : ∀ i, 0 ≤ y i) {b : ℕ}
    (hb : b < L.numBins) : 0 < totalMoles L (partArgs L C y) (b + 1) := by
  rw [totalMoles_eq]
  refine add_pos_of_nonneg_of_pos (Finset.sum_nonneg fun j _ => ?_) ?_
  · rw [conc_partArgs]; exact hy _
  · simp only [partArgs, Nat.add_sub_cancel]
    exact mul_pos (hC.ycore b hb) hC.coreDiss

/-! ## Signs -/

theorem Spec.PhysConst.kTransfer_nonneg (hC : PhysConst L C) {y : ℕ → ℝ} (hy : ∀ i, 0 ≤ y i) {b j : ℕ}
    (hb : b < L.numBins) (hj : j < L.numCond) : 0 ≤ kTransfer L (partArgs L C y) (b + 1) (j + 1) := by
  have hP := hC.physical hy hb
  have h1 := (C40_routine L (partArgs L C y) b j hP hj).1
  have h2 := hP.size_pos
  have h3 := hP.number
  have h4 := hP.diff j hj
  have h5 := fPi_pos
  unfold kTransfer kPart1
  positivity

theorem cStar_partArgs (y : ℕ → ℝ) (b j : ℕ) :
    cStar L (partArgs L C y) (b + 1) (j + 1) = kelvin L (partArgs L C y) (b + 1) (j + 1) *
      (y (L.numSpecies + b * L.numCond + j) / totalMoles L (partArgs L C y) (b + 1)) * psatAtm L C j * 101325
      * (C.na / (8314459.8 * C.temp)) := by
  unfold cStar pressureEq moleFraction
  rw [tempArray_eq, conc_partArgs]
  simp only [partArgs, Nat.add_sub_cancel]

theorem Spec.PhysConst.cStar_nonneg (hC : PhysConst L C) {y : ℕ → ℝ} (hy : ∀ i, 0 ≤ y i) {b : ℕ} (j : ℕ)
    (hb : b < L.numBins) : 0 ≤ cStar L (partArgs L C y) (b + 1) (j + 1) := by
  rw [cStar_partArgs]
  have h1 := hC.totalMoles_pos hy hb
  have h2 := hy (L.numSpecies + b * L.numCond + j)
  have h3 := psat_water_pos L C j
  have h4 := hC.na
  have h5 := hC.temp
  have h6 : 0 < kelvin L (partArgs L C y) (b + 1) (j + 1) := Real.exp_pos _
  positivity

theorem cgas_partArgs (y : ℕ → ℝ) {j s : ℕ} (hjs : L.incl[j]? = some s) :
    (partArgs L C y).cgas (j + 1) = y s := by
  simp only [partArgs, Nat.add_sub_cancel]
  rw [List.getD_eq_getElem?_getD, hjs]
  rfl

/-- Without the species in the gas, it does not condense. -/
theorem Spec.PhysConst.no_condensation (hC : PhysConst L C) {y : ℕ → ℝ} (hy : ∀ i, 0 ≤ y i) {b j s : ℕ}
    (hb : b < L.numBins) (hj : j < L.numCond) (hjs : L.incl[j]? = some s) (h0 : y s = 0) :
    dmDt L (partArgs L C y) (b + 1) (j + 1) ≤ 0 := by
  unfold dmDt
  rw [cgas_partArgs y hjs, h0]
  refine mul_nonpos_of_nonneg_of_nonpos (hC.kTransfer_nonneg hy hb hj) ?_
  have := hC.cStar_nonneg hy j hb
  linarith

/-- Without the species in the bin, it does not evaporate. -/
theorem Spec.PhysConst.no_evaporation (hC : PhysConst L C) {y : ℕ → ℝ} (hy : ∀ i, 0 ≤ y i) {b j s : ℕ}
    (hb : b < L.numBins) (hj : j < L.numCond) (hjs : L.incl[j]? = some s)
    (h0 : y (L.numSpecies + b * L.numCond + j) = 0) :
    0 ≤ dmDt L (partArgs L C y) (b + 1) (j + 1) := by
  unfold dmDt
  rw [cgas_partArgs y hjs, cStar_partArgs, h0]
  refine mul_nonneg (hC.kTransfer_nonneg hy hb hj) ?_
  have := hy s
  simpa using this

/-! ## Smoothness -/

variable {n : ℕ}

theorem stateOf_contDiff (i : ℕ) : ContDiff ℝ 1 (fun z : Fin n → ℝ => stateOf z i) := by
  unfold stateOf
  by_cases hi : i < n
  · simp only [dif_pos hi]
    exact contDiff_apply ℝ ℝ _
  · simp only [dif_neg hi]
    exact contDiff_const

theorem conc_contDiff (b j : ℕ) :
    ContDiff ℝ 1 (fun z : Fin n → ℝ => conc L (partArgs L C (stateOf z)) b j) := by
  simp only [conc_partArgs]
  exact stateOf_contDiff _

theorem mass_contDiff (b j : ℕ) :
    ContDiff ℝ 1 (fun z : Fin n → ℝ => mass L (partArgs L C (stateOf z)) b j) := by
  unfold mass
  simp only [partArgs]
  exact ((conc_contDiff (L := L) (C := C) b j).div_const _).mul contDiff_const

theorem binMass_contDiff (b : ℕ) :
    ContDiff ℝ 1 (fun z : Fin n → ℝ => binMass L (partArgs L C (stateOf z)) b) := by
  unfold binMass
  exact (ContDiff.sum fun j _ => mass_contDiff b j).add contDiff_const

theorem binVolume_contDiff (b : ℕ) :
    ContDiff ℝ 1 (fun z : Fin n → ℝ => binVolume L (partArgs L C (stateOf z)) b) := by
  unfold binVolume
  exact (ContDiff.sum fun j _ => (mass_contDiff b j).div_const _).add
    (contDiff_const (c := C.ycore b / C.na * C.coreMw b / C.coreDensity b))

theorem totalMoles_contDiff (b : ℕ) :
    ContDiff ℝ 1 (fun z : Fin n → ℝ => totalMoles L (partArgs L C (stateOf z)) (b + 1)) := by
  simp only [totalMoles_eq]
  exact (ContDiff.sum fun j _ => conc_contDiff b j).add (contDiff_const (c := C.ycore b * C.coreDiss))

section At

variable (hC : PhysConst L C) {z : Fin n → ℝ} (hz : ∀ i, 0 ≤ z i) {b : ℕ} (hb : b < L.numBins)
include hC hz hb

theorem density_contDiffAt :
    ContDiffAt ℝ 1 (fun z : Fin n → ℝ => density L (partArgs L C (stateOf z)) (b + 1)) z := by
  simp only [density_eq]
  exact (binMass_contDiff b).contDiffAt.div (binVolume_contDiff b).contDiffAt
    (hC.physical (stateOf_nonneg hz) hb).binVolume_pos.ne'

theorem density_pos : 0 < density L (partArgs L C (stateOf z)) (b + 1) := by
  have hP := hC.physical (stateOf_nonneg hz) hb
  rw [density_eq]
  exact div_pos hP.binMass_pos hP.binVolume_pos

theorem sizeArray_contDiffAt :
    ContDiffAt ℝ 1 (fun z : Fin n → ℝ => sizeArray L (partArgs L C (stateOf z)) (b + 1)) z := by
  have hP := hC.physical (stateOf_nonneg hz) hb
  unfold sizeArray
  have hd := density_pos hC hz hb
  have hm := hP.binMass_pos
  have hn := hP.number
  have hp := fPi_pos
  refine ContDiffAt.rpow_const_of_ne (p := 1 / 3) (ContDiffAt.div ?_ ?_ ?_) ?_
  · simp only [totalMass_eq]
    refine contDiffAt_const.mul ?_
    exact ((binMass_contDiff (L := L) (C := C) b).contDiffAt.mul contDiffAt_const).div_const
      (C.nPerBin b * 1000000)
  · exact contDiffAt_const.mul (density_contDiffAt hC hz hb)
  · positivity
  · rw [totalMass_eq]
    positivity

variable {j : ℕ}

theorem knudsen_contDiffAt :
    ContDiffAt ℝ 1 (fun z : Fin n → ℝ => knudsen L (partArgs L C (stateOf z)) (b + 1) (j + 1)) z := by
  unfold knudsen
  exact contDiffAt_const.div (sizeArray_contDiffAt hC hz hb)
    (hC.physical (stateOf_nonneg hz) hb).size_pos.ne'

variable (hj : j < L.numCond)
include hj

theorem knudsen_pos : 0 < knudsen L (partArgs L C (stateOf z)) (b + 1) (j + 1) := by
  have hP := hC.physical (stateOf_nonneg hz) hb
  exact div_pos (hP.path j hj) hP.size_pos

theorem correction_contDiffAt :
    ContDiffAt ℝ 1 (fun z : Fin n → ℝ => correction L (partArgs L C (stateOf z)) (b + 1) (j + 1)) z := by
  have hk := knudsen_contDiffAt hC hz hb (j := j)
  have hk0 := knudsen_pos hC hz hb hj
  have hP := hC.physical (stateOf_nonneg hz) hb
  have hi : ContDiffAt ℝ 1
      (fun z : Fin n → ℝ => inverseKn L (partArgs L C (stateOf z)) (b + 1) (j + 1)) z := by
    unfold inverseKn
    exact contDiffAt_const.div hk hk0.ne'
  have hi0 : 0 < inverseKn L (partArgs L C (stateOf z)) (b + 1) (j + 1) := one_div_pos.2 hk0
  have h1 : ContDiffAt ℝ 1
      (fun z : Fin n → ℝ => correction1 L (partArgs L C (stateOf z)) (b + 1) (j + 1)) z := by
    unfold correction1
    exact (contDiffAt_const.add (contDiffAt_const.mul hi)).div (contDiffAt_const.add hi) (by positivity)
  have h3 : ContDiffAt ℝ 1
      (fun z : Fin n → ℝ => correction3 L (partArgs L C (stateOf z)) (b + 1) (j + 1)) z := by
    unfold correction3
    exact contDiffAt_const.add
      ((h1.add (contDiffAt_const (c := 4 * (1 - C.alpha j) / (3 * C.alpha j)))).mul hk)
  unfold correction
  refine contDiffAt_const.div h3 ?_
  have h4 := (C40_routine L _ b j hP hj).1
  unfold correction at h4
  exact (one_div_pos.1 h4).ne'

omit hj in
theorem cStar_contDiffAt :
    ContDiffAt ℝ 1 (fun z : Fin n → ℝ => cStar L (partArgs L C (stateOf z)) (b + 1) (j + 1)) z := by
  have hP := hC.physical (stateOf_nonneg hz) hb
  have hk : ContDiffAt ℝ 1
      (fun z : Fin n → ℝ => kelvin L (partArgs L C (stateOf z)) (b + 1) (j + 1)) z := by
    unfold kelvin
    refine ((contDiffAt_const (c := 4 * C.mw j * 0.001 * C.sigma)).div ?_ ?_).exp
    · exact (((contDiffAt_const (c := C.rGas * C.temp)).mul (sizeArray_contDiffAt hC hz hb)).mul
        contDiffAt_const).mul (density_contDiffAt hC hz hb)
    · have h1 := hP.size_pos
      have h2 := density_pos hC hz hb
      have h3 := hC.rGas
      have h4 := hC.temp
      have : 0 < (partArgs L C (stateOf z)).rGas * (partArgs L C (stateOf z)).temp := mul_pos h3 h4
      positivity
  simp only [cStar_partArgs]
  refine (((hk.mul ?_).mul contDiffAt_const).mul contDiffAt_const).mul contDiffAt_const
  exact (stateOf_contDiff _).contDiffAt.div (totalMoles_contDiff b).contDiffAt
    (hC.totalMoles_pos (stateOf_nonneg hz) hb).ne'

theorem dmDt_contDiffAt :
    ContDiffAt ℝ 1 (fun z : Fin n → ℝ => dmDt L (partArgs L C (stateOf z)) (b + 1) (j + 1)) z := by
  unfold dmDt kTransfer kPart1
  refine ContDiffAt.mul ?_ (ContDiffAt.sub ?_ (cStar_contDiffAt hC hz hb))
  · refine ContDiffAt.mul ?_ (contDiffAt_const.mul (correction_contDiffAt hC hz hb hj))
    exact ((contDiffAt_const.mul (sizeArray_contDiffAt hC hz hb)).mul contDiffAt_const).mul contDiffAt_const
  · exact (stateOf_contDiff _).contDiffAt

end At

/-- The returned array, at the entries of the state. -/
theorem partition_contDiffAt (hL : GoodLayout L) (hC : PhysConst L C) {z : Fin n → ℝ} (hz : ∀ i, 0 ≤ z i)
    {i : ℕ} (hi : i < L.numSpecies + L.numBins * L.numCond) :
    ContDiffAt ℝ 1 (fun z : Fin n → ℝ => partition L (partArgs L C (stateOf z)) i) z := by
  have hslot : ∀ b j, b < L.numBins → j < L.numCond → ContDiffAt ℝ 1
      (fun z : Fin n → ℝ => partition L (partArgs L C (stateOf z)) (L.numSpecies + b * L.numCond + j)) z := by
    intro b j hb hj
    simp only [partition_slot L _ b j hb hj]
    exact dmDt_contDiffAt hC hz hb hj
  rcases C38_layout L.numSpecies L.numCond L.numBins i hi with ⟨h1, -⟩ | ⟨-, ⟨b, j⟩, ⟨h1, h2, h3⟩, -⟩
  · by_cases hm : i ∈ L.incl
    · obtain ⟨j, hj, rfl⟩ := List.mem_iff_getElem.1 hm
      simp only [C36_exchange L _ hL j hj]
      exact (ContDiffAt.sum fun b hb => hslot b j (Finset.mem_range.1 hb) (hL.len ▸ hj)).neg
    · simp only [C37_excluded L _ i h1 hm]
      exact contDiffAt_const
  · simp only at h1 h2 h3
    rw [h3]
    exact hslot b j h1 h2

end

/-! ## From smoothness to Lipschitz conditions -/

theorem NearLip.of_contDiffAt {n : ℕ} {t : ℝ} {y : Fin n → ℝ} {f : (Fin n → ℝ) → ℝ}
    (hf : ContDiffAt ℝ 1 f y) : NearLip t y (fun _ => f) := by
  obtain ⟨K, s, hs, hK⟩ := hf.exists_lipschitzOnWith
  obtain ⟨ε, hε, hball⟩ := Metric.mem_nhds_iff.1 hs
  refine ⟨K, |f y| + K * ε, ε, K.2, by have := K.2; positivity, hε, fun s hs z hz => ⟨?_, fun z' hz' => ?_⟩⟩
  · have h1 := hK.dist_le_mul z (hball hz) y (hball (Metric.mem_ball_self hε))
    rw [Real.dist_eq] at h1
    have h2 := abs_sub_abs_le_abs_sub (f z) (f y)
    have h3 : (K : ℝ) * dist z y ≤ K * ε := mul_le_mul_of_nonneg_left (Metric.mem_ball.1 hz).le K.2
    linarith
  · have h1 := hK.dist_le_mul z (hball hz) z' (hball hz')
    rwa [Real.dist_eq] at h1

theorem box_compact {n : ℕ} (R : ℝ) : IsCompact (box R : Set (Fin n → ℝ)) := by
  have : (box R : Set (Fin n → ℝ)) = Set.univ.pi fun _ => Icc 0 R := by
    ext z
    simp only [box, Set.mem_ofPred_eq, Set.mem_univ_pi, Set.mem_Icc]
  rw [this]
  exact isCompact_univ_pi fun _ => isCompact_Icc

theorem box_convex {n : ℕ} (R : ℝ) : Convex ℝ (box R : Set (Fin n → ℝ)) := by
  have : (box R : Set (Fin n → ℝ)) = Set.univ.pi fun _ => Icc 0 R := by
    ext z
    simp only [box, Set.mem_ofPred_eq, Set.mem_univ_pi, Set.mem_Icc]
  rw [this]
  exact convex_pi fun _ _ => convex_Icc _ _

theorem SetLip.of_contDiffAt {n : ℕ} {A : Set ℝ} {R : ℝ} {f : (Fin n → ℝ) → ℝ}
    (hf : ∀ z, (∀ i, 0 ≤ z i) → ContDiffAt ℝ 1 f z) : SetLip A (box R) (fun _ => f) := by
  have hon : ContDiffOn ℝ 1 f (box R) := fun z hz => (hf z fun i => (hz i).1).contDiffWithinAt
  obtain ⟨K, hK⟩ := hon.exists_lipschitzOnWith one_ne_zero (box_convex R) (box_compact R)
  obtain ⟨M, hM⟩ := (box_compact R).exists_bound_of_continuousOn hon.continuousOn
  refine ⟨K, max M 0, K.2, le_max_right _ _, fun s _ z hz => ⟨(hM z hz).trans (le_max_left _ _), ?_⟩⟩
  intro z' hz'
  have h1 := hK.dist_le_mul z hz z' hz'
  rwa [Real.dist_eq] at h1

end PyBox
