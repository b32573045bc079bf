import Verif.Props.TracersAerosol

/-!
# C106: particles of one kind in several bins

Bins are how the simulation keeps the particles, not a property of the air. If the particles of a bin are divided among
several bins, each with a share of the number, of the cores and of the condensed matter, the routine of the exchange
(`/repo/Parse_eqn_file.py`, 3418-3650) makes the same of them.
-/

namespace PyBox

open Set Spec Aerosol Rl

namespace Spec

/-- The second simulation keeps the particles of bin `π b` of the first in the bins `b`, with the share `w b` of their
number and of their cores. Everything else is the same. -/
structure DividedBins (π : ℕ → ℕ) (w : ℕ → ℝ) (L L' : Aerosol.Layout) (C C' : AeroConst) : Prop where
  species : L'.numSpecies = L.numSpecies
  cond : L'.numCond = L.numCond
  incl : L'.incl = L.incl
  bin : ∀ b < L'.numBins, π b < L.numBins
  share : ∀ b < L'.numBins, 0 < w b
  whole : ∀ b < L.numBins, ∑ b' ∈ Finset.range L'.numBins with π b' = b, w b' = 1
  ycore : ∀ b < L'.numBins, C'.ycore b = w b * C.ycore (π b)
  nPerBin : ∀ b < L'.numBins, C'.nPerBin b = w b * C.nPerBin (π b)
  coreMw : ∀ b < L'.numBins, C'.coreMw b = C.coreMw (π b)
  coreDensity : ∀ b < L'.numBins, C'.coreDensity b = C.coreDensity (π b)
  densityInput : ∀ j < L.numCond, C'.densityInput j = C.densityInput j
  dStar : ∀ j < L.numCond, C'.dStar j = C.dStar j
  alpha : ∀ j < L.numCond, C'.alpha j = C.alpha j
  gamma : ∀ j < L.numCond, C'.gamma j = C.gamma j
  mw : ∀ j < L.numCond, C'.mw j = C.mw j
  satVp : ∀ j, j + 1 < L.numCond → C'.satVp j = C.satVp j
  coreDiss : C'.coreDiss = C.coreDiss
  sigma : C'.sigma = C.sigma
  na : C'.na = C.na
  rGas : C'.rGas = C.rGas
  temp : C'.temp = C.temp

/-- What the second simulation holds at `k'` is the share `c` of what the first holds at `k`. -/
def ShareSlot (π : ℕ → ℕ) (w : ℕ → ℝ) (L L' : Aerosol.Layout) (k k' : ℕ) (c : ℝ) : Prop :=
  (k = k' ∧ k < L.numSpecies ∧ c = 1) ∨
    ∃ b j, b < L'.numBins ∧ j < L.numCond ∧ k = L.numSpecies + π b * L.numCond + j ∧
      k' = L'.numSpecies + b * L'.numCond + j ∧ c = w b

/-- The gas is the same, and every bin of the second simulation holds its share. -/
def SharedState (π : ℕ → ℕ) (w : ℕ → ℝ) (L L' : Aerosol.Layout) {n n' : ℕ} (y : Fin n → ℝ) (y' : Fin n' → ℝ) : Prop :=
  ∀ (k : Fin n) (k' : Fin n') c, ShareSlot π w L L' k k' c → y' k' = c * y k

end Spec

/-! ## The exchange with the particles -/

section

variable {π : ℕ → ℕ} {w : ℕ → ℝ} {L L' : Aerosol.Layout} {C C' : AeroConst} {n n' : ℕ} {y : Fin n → ℝ} {y' : Fin n' → ℝ}

theorem Spec.DividedBins.good (hd : DividedBins π w L L' C C') (hL : GoodLayout L) : GoodLayout L' :=
  ⟨by rw [hd.incl, hd.cond, hL.len], by rw [hd.incl]; exact hL.nodup, by rw [hd.incl, hd.species]; exact hL.valid⟩

theorem Spec.DividedBins.phys (hd : DividedBins π w L L' C C') (hC : PhysConst L C) : PhysConst L' C' where
  na := by rw [hd.na]; exact hC.na
  rGas := by rw [hd.rGas]; exact hC.rGas
  temp := by rw [hd.temp]; exact hC.temp
  coreDiss := by rw [hd.coreDiss]; exact hC.coreDiss
  ycore b hb := by rw [hd.ycore b hb]; exact mul_pos (hd.share b hb) (hC.ycore _ (hd.bin b hb))
  coreMw b hb := by rw [hd.coreMw b hb]; exact hC.coreMw _ (hd.bin b hb)
  coreDensity b hb := by rw [hd.coreDensity b hb]; exact hC.coreDensity _ (hd.bin b hb)
  number b hb := by rw [hd.nPerBin b hb]; exact mul_pos (hd.share b hb) (hC.number _ (hd.bin b hb))
  mw j hj := by rw [hd.cond] at hj; rw [hd.mw j hj]; exact hC.mw j hj
  density j hj := by rw [hd.cond] at hj; rw [hd.densityInput j hj]; exact hC.density j hj
  dStar j hj := by rw [hd.cond] at hj; rw [hd.dStar j hj]; exact hC.dStar j hj
  alpha j hj := by rw [hd.cond] at hj; rw [hd.alpha j hj]; exact hC.alpha j hj
  gamma j hj := by rw [hd.cond] at hj; rw [hd.gamma j hj]; exact hC.gamma j hj

theorem Spec.SharedState.lookup (hn : n = L.numSpecies + L.numBins * L.numCond)
    (hn' : n' = L'.numSpecies + L'.numBins * L'.numCond) (hd : DividedBins π w L L' C C')
    (hy : SharedState π w L L' y y') {k k' : ℕ} {c : ℝ} (hk : ShareSlot π w L L' k k' c) :
    stateOf y' k' = c * stateOf y k := by
  have h1 : k < n ∧ k' < n' := by
    rcases hk with ⟨rfl, a, -⟩ | ⟨b, j, hb, hj, rfl, rfl, -⟩
    · have := hd.species
      omega
    · exact ⟨hn ▸ bin_place_lt (hd.bin b hb) hj, hn' ▸ bin_place_lt hb (hd.cond ▸ hj)⟩
  unfold stateOf
  rw [dif_pos h1.1, dif_pos h1.2]
  exact hy ⟨k, h1.1⟩ ⟨k', h1.2⟩ c hk

variable (hn : n = L.numSpecies + L.numBins * L.numCond) (hn' : n' = L'.numSpecies + L'.numBins * L'.numCond)
  (hd : DividedBins π w L L' C C') (hy : SharedState π w L L' y y')

include hn hn' hd hy

theorem conc_share {b j : ℕ} (hb : b < L'.numBins) (hj : j < L.numCond) :
    conc L' (partArgs L' C' (stateOf y')) b j = w b * conc L (partArgs L C (stateOf y)) (π b) j := by
  unfold conc partArgs
  dsimp only
  rw [Nat.add_sub_cancel, Nat.add_sub_cancel]
  exact hy.lookup hn hn' hd (.inr ⟨b, j, hb, hj, rfl, rfl, rfl⟩)

theorem mass_share {b j : ℕ} (hb : b < L'.numBins) (hj : j < L.numCond) :
    mass L' (partArgs L' C' (stateOf y')) b j = w b * mass L (partArgs L C (stateOf y)) (π b) j := by
  unfold mass
  rw [conc_share hn hn' hd hy hb hj]
  simp only [partArgs, Nat.add_sub_cancel, hd.mw j hj, hd.na]
  ring

theorem moles_share {b : ℕ} (hb : b < L'.numBins) :
    totalMoles L' (partArgs L' C' (stateOf y')) (b + 1) = w b * totalMoles L (partArgs L C (stateOf y)) (π b + 1) := by
  rw [totalMoles_eq, totalMoles_eq, mul_add, Finset.mul_sum, hd.cond]
  refine congrArg₂ (· + ·) (Finset.sum_congr rfl fun j hj => conc_share hn hn' hd hy hb (Finset.mem_range.1 hj)) ?_
  simp only [partArgs, Nat.add_sub_cancel, hd.ycore b hb, hd.coreDiss]
  ring

theorem binMass_share {b : ℕ} (hb : b < L'.numBins) :
    binMass L' (partArgs L' C' (stateOf y')) b = w b * binMass L (partArgs L C (stateOf y)) (π b) := by
  unfold binMass
  rw [mul_add, Finset.mul_sum, hd.cond]
  refine congrArg₂ (· + ·) (Finset.sum_congr rfl fun j hj => mass_share hn hn' hd hy hb (Finset.mem_range.1 hj)) ?_
  simp only [partArgs, Nat.add_sub_cancel, hd.ycore b hb, hd.na, hd.coreMw b hb]
  ring

theorem binVolume_share {b : ℕ} (hb : b < L'.numBins) :
    binVolume L' (partArgs L' C' (stateOf y')) b = w b * binVolume L (partArgs L C (stateOf y)) (π b) := by
  unfold binVolume
  rw [mul_add, Finset.mul_sum, hd.cond]
  refine congrArg₂ (· + ·) (Finset.sum_congr rfl fun j hj => ?_) ?_
  · rw [mass_share hn hn' hd hy hb (Finset.mem_range.1 hj)]
    simp only [partArgs, Nat.add_sub_cancel, hd.densityInput j (Finset.mem_range.1 hj)]
    ring
  · simp only [partArgs, Nat.add_sub_cancel, hd.ycore b hb, hd.na, hd.coreMw b hb, hd.coreDensity b hb]
    ring

theorem density_share {b : ℕ} (hb : b < L'.numBins) :
    density L' (partArgs L' C' (stateOf y')) (b + 1) = density L (partArgs L C (stateOf y)) (π b + 1) := by
  rw [density_eq, density_eq, binMass_share hn hn' hd hy hb, binVolume_share hn hn' hd hy hb,
    mul_div_mul_left _ _ (hd.share b hb).ne']

/-- **C106**: the particles have the same radius. -/
theorem C106_size {b : ℕ} (hb : b < L'.numBins) :
    sizeArray L' (partArgs L' C' (stateOf y')) (b + 1) = sizeArray L (partArgs L C (stateOf y)) (π b + 1) := by
  unfold sizeArray
  rw [totalMass_eq, totalMass_eq, density_share hn hn' hd hy hb, binMass_share hn hn' hd hy hb]
  simp only [partArgs, Nat.add_sub_cancel, hd.nPerBin b hb]
  rw [mul_assoc (w b), mul_assoc (w b), mul_div_mul_left _ _ (hd.share b hb).ne']

theorem dmDt_share (hL : GoodLayout L) {b j : ℕ} (hb : b < L'.numBins) (hj : j < L.numCond) :
    dmDt L' (partArgs L' C' (stateOf y')) (b + 1) (j + 1) = w b * dmDt L (partArgs L C (stateOf y)) (π b + 1) (j + 1) := by
  have hgas : (partArgs L' C' (stateOf y')).cgas (j + 1) = (partArgs L C (stateOf y)).cgas (j + 1) := by
    have hj' : j < L.incl.length := hL.len ▸ hj
    simp only [partArgs, Nat.add_sub_cancel, hd.incl, List.getD_eq_getElem?_getD, List.getElem?_eq_getElem hj',
      Option.getD_some]
    rw [hy.lookup hn hn' hd (.inl ⟨rfl, hL.valid _ (List.getElem_mem hj'), rfl⟩), one_mul]
  have hps : (partArgs L' C' (stateOf y')).psat (j + 1) = (partArgs L C (stateOf y)).psat (j + 1) := by
    simp only [partArgs, Nat.add_sub_cancel, psatAtm, hd.cond, hd.temp]
    by_cases hl : j + 1 = L.numCond
    · rw [if_pos hl, if_pos hl]
    · rw [if_neg hl, if_neg hl, hd.satVp j (by omega)]
  unfold dmDt kTransfer kPart1 correction correction3 correction1 correction2 inverseKn knudsen cStar pressureEq kelvin
    moleFraction
  rw [hgas, hps, C106_size hn hn' hd hy hb, moles_share hn hn' hd hy hb, density_share hn hn' hd hy hb, tempArray_eq,
    tempArray_eq, conc_share hn hn' hd hy hb hj, mul_div_mul_left _ _ (hd.share b hb).ne']
  simp only [partArgs, Nat.add_sub_cancel, hd.nPerBin b hb, hd.dStar j hj, hd.alpha j hj, hd.gamma j hj, hd.mw j hj,
    hd.sigma, hd.rGas, hd.temp, hd.na]
  ring

omit hn hn' hy in
/-- Shares of what belongs to the bins add up. -/
theorem sum_shares (f : ℕ → ℝ) :
    ∑ b' ∈ Finset.range L'.numBins, w b' * f (π b') = ∑ b ∈ Finset.range L.numBins, f b := by
  rw [← Finset.sum_fiberwise_of_maps_to (s := Finset.range L'.numBins) (t := Finset.range L.numBins) (g := π)
    (fun b hb => Finset.mem_range.2 (hd.bin b (Finset.mem_range.1 hb)))]
  refine Finset.sum_congr rfl fun b hb => ?_
  have e : ∀ b' ∈ (Finset.range L'.numBins).filter (fun b' => π b' = b), w b' * f (π b') = w b' * f b :=
    fun b' hb' => by rw [(Finset.mem_filter.1 hb').2]
  rw [Finset.sum_congr rfl e, ← Finset.sum_mul, hd.whole b (Finset.mem_range.1 hb), one_mul]

theorem partition_share (hL : GoodLayout L) {k k' : ℕ} {c : ℝ} (hk : ShareSlot π w L L' k k' c) :
    partition L' (partArgs L' C' (stateOf y')) k' = c * partition L (partArgs L C (stateOf y)) k := by
  have hL' := hd.good hL
  rcases hk with ⟨rfl, hlt, rfl⟩ | ⟨b, j, hb, hj, rfl, rfl, rfl⟩
  · rw [one_mul]
    by_cases hi : k ∈ L.incl
    · obtain ⟨j, hj, rfl⟩ := List.mem_iff_getElem.1 hi
      have e : L.incl[j] = L'.incl[j]'(by rw [hd.incl]; exact hj) := by simp only [hd.incl]
      rw [C36_exchange L _ hL j hj, e, C36_exchange L' _ hL' j (by rw [hd.incl]; exact hj)]
      have hj2 : j < L.numCond := hL.len ▸ hj
      refine congrArg _ ?_
      rw [← sum_shares hd]
      refine Finset.sum_congr rfl fun b hb => ?_
      have hb := Finset.mem_range.1 hb
      rw [partition_slot L' _ b j hb (hd.cond ▸ hj2), partition_slot L _ (π b) j (hd.bin b hb) hj2]
      exact dmDt_share hn hn' hd hy hL hb hj2
    · rw [C37_excluded L _ k hlt hi, C37_excluded L' _ k (hd.species ▸ hlt) (by rw [hd.incl]; exact hi)]
  · rw [partition_slot L' _ b j hb (hd.cond ▸ hj), partition_slot L _ (π b) j (hd.bin b hb) hj]
    exact dmDt_share hn hn' hd hy hL hb hj

/-- **C106**: the amount of a condensed species in all bins is the same. -/
theorem C106_totals {j : ℕ} (hj : j < L.numCond) :
    ∑ b ∈ Finset.range L'.numBins, stateOf y' (L'.numSpecies + b * L'.numCond + j) =
      ∑ b ∈ Finset.range L.numBins, stateOf y (L.numSpecies + b * L.numCond + j) := by
  rw [← sum_shares hd]
  exact Finset.sum_congr rfl fun b hb =>
    hy.lookup hn hn' hd (.inr ⟨b, j, Finset.mem_range.1 hb, hj, rfl, rfl, rfl⟩)

/-- **C106**: the reported mass of organic aerosol is the same. -/
theorem C106_soa : totalSoaMass L' (partArgs L' C' (stateOf y')) = totalSoaMass L (partArgs L C (stateOf y)) := by
  unfold totalSoaMass fsum
  refine congrArg (· * _) ?_
  rw [← sum_shares hd fun b => soaMassBin L (partArgs L C (stateOf y)) (b + 1)]
  refine Finset.sum_congr rfl fun b hb => ?_
  unfold soaMassBin fsum
  rw [hd.cond, Finset.mul_sum]
  refine Finset.sum_congr rfl fun j hj => ?_
  have hj : j < L.numCond := by
    have := Finset.mem_range.1 hj
    omega
  rw [massArray_lt L' _ b j (hd.cond ▸ hj), massArray_lt L _ (π b) j hj]
  exact mass_share hn hn' hd hy (Finset.mem_range.1 hb) hj

end

/-! ## Runs -/

section

variable {ι κ : Type} [Fintype ι] [Fintype κ]

theorem SolvesOn.lift {F : ℝ → (ι → ℝ) → ι → ℝ} {F' : ℝ → (κ → ℝ) → κ → ℝ} (σ : κ → ι) (c : κ → ℝ)
    (hc : ∀ t z, F' t (fun k => c k * z (σ k)) = fun k => c k * F t z (σ k)) {u : ℝ → ι → ℝ} {a b : ℝ}
    (hu : SolvesOn F u a b) : SolvesOn F' (fun t k => c k * u t (σ k)) a b := by
  obtain ⟨h1, S, hS, h2⟩ := hu
  refine ⟨continuousOn_pi.2 fun k => continuousOn_const.mul ((continuousOn_pi.1 h1) _), S, hS, fun t ht htS => ?_⟩
  rw [hc]
  exact hasDerivWithinAt_pi.2 fun k => (hasDerivWithinAt_pi.1 (h2 t ht htS) (σ k)).const_mul (c k)

/-- A system whose components are multiples of those of another: exact solvers report these multiples. -/
theorem Tame.rows_lift {F : ℝ → (ι → ℝ) → ι → ℝ} {F' : ℝ → (κ → ℝ) → κ → ℝ} (hF' : Tame F') (hB' : BoxPieces F')
    (σ : κ → ι) (c : κ → ℝ) (hc : ∀ t z, F' t (fun k => c k * z (σ k)) = fun k => c k * F t z (σ k))
    {solve : (ι → ℝ) → ℚ → ι → ℝ} {solve' : (κ → ℝ) → ℚ → κ → ℝ} {sim batch : ℚ} (hs : 0 < sim) (hb : 0 < batch)
    {zero y0 : ι → ℝ} {zero' : κ → ℝ} (hy0 : ∀ k, 0 ≤ c k * y0 (σ k)) {times times' : List ℚ} {rows : List (ι → ℝ)}
    {rows' : List (κ → ℝ)} (hrun : runSimulation id solve zero y0 sim batch = .ok (times, rows))
    (hrun' : runSimulation id solve' zero' (fun k => c k * y0 (σ k)) sim batch = .ok (times', rows'))
    (hex : ExactBatches F solve batch y0 rows.length)
    (hex' : ExactBatches F' solve' batch (fun k => c k * y0 (σ k)) rows'.length) :
    times = times' ∧ rows' = rows.map fun z k => c k * z (σ k) := by
  obtain ⟨k, rfl, rfl, hk⟩ := C32_output_times hs hb hrun
  obtain ⟨k', rfl, rfl, hk'⟩ := C32_output_times hs hb hrun'
  have hkk : k = k' := by
    have := hk.symm.trans hk'
    exact_mod_cast mul_right_cancel₀ hb.ne' this
  subst hkk
  rw [List.length_map, List.length_range] at hex hex'
  have hb' : (0 : ℝ) ≤ batch := by exact_mod_cast hb.le
  have hlip : ∀ R, 0 ≤ R → ∃ K, ∀ t ∈ Icc (0 : ℝ) batch, LipschitzOnWith K (F' t) (box R) := by
    intro R hR
    obtain ⟨K, M, hKM⟩ := SetLip.components (A := Icc (0 : ℝ) batch) (B := box R) (hB'.lip batch R hR)
    exact ⟨K, fun t ht => (hKM t ht).1⟩
  have key : ∀ j ≤ k, (∀ i, 0 ≤ afterBatches solve' batch (fun k => c k * y0 (σ k)) j i) ∧
      afterBatches solve' batch (fun k => c k * y0 (σ k)) j = fun k => c k * afterBatches solve batch y0 j (σ k) := by
    intro j
    induction j with
    | zero => exact fun _ => ⟨hy0, rfl⟩
    | succ j ih =>
      intro hj
      obtain ⟨i1, i2⟩ := ih (by omega)
      obtain ⟨u, u0, hu, u1⟩ := hex j hj
      obtain ⟨v, v0, hv, v1⟩ := hex' j hj
      have hw := SolvesOn.lift σ c hc hu
      have hvw : v 0 = (fun t k => c k * u t (σ k)) 0 := by
        dsimp only
        rw [v0, i2, u0]
      have hvn := hF'.nonneg hv (by rw [v0]; exact i1)
      have hend := PyBox.SolvesOn.unique_nonneg hv hw hvn
        (hF'.nonneg hw fun i => (v0 ▸ i1 i : 0 ≤ v 0 i).trans_eq (congrFun hvw i)) hlip hvw
        ⟨hb', le_rfl⟩
      rw [← u1, ← v1]
      exact ⟨hvn _ ⟨hb', le_rfl⟩, hend⟩
  refine ⟨rfl, ?_⟩
  rw [List.map_map]
  exact List.map_congr_left fun j hj => (key (j + 1) (List.mem_range.1 hj)).2

end

section

variable {π : ℕ → ℕ} {w : ℕ → ℝ} {L L' : Aerosol.Layout} {C C' : AeroConst} {G G' : ℝ → (ℕ → ℝ) → ℕ → ℝ} {n n' : ℕ}
  {F : ℝ → (Fin n → ℝ) → Fin n → ℝ} {F' : ℝ → (Fin n' → ℝ) → Fin n' → ℝ} {solve : (Fin n → ℝ) → ℚ → Fin n → ℝ}
  {solve' : (Fin n' → ℝ) → ℚ → Fin n' → ℝ} {sim batch : ℚ} {zero y0 : Fin n → ℝ} {zero' y0' : Fin n' → ℝ}
  {times times' : List ℚ} {rows : List (Fin n → ℝ)} {rows' : List (Fin n' → ℝ)}

theorem MixedSystem.tendency_share (hF : MixedSystem L C G F) (hF' : MixedSystem L' C' G' F') (hL : GoodLayout L)
    (hd : DividedBins π w L L' C C') {t : ℝ} {y : Fin n → ℝ} {y' : Fin n' → ℝ} (hy : SharedState π w L L' y y')
    (hG : ∀ i < L.numSpecies - 1, G' t (stateOf y') i = G t (stateOf y) i) : SharedState π w L L' (F t y) (F' t y') := by
  intro k k' c hk
  rw [hF.entry, hF'.entry, partition_share hF.size hF'.size hd hy hL hk, mul_add]
  refine congrArg (· + _) ?_
  rcases hk with ⟨e, h1, rfl⟩ | ⟨b, j, hb, hj, e, e', -⟩
  · rw [hd.species, ← e, one_mul]
    by_cases h : (k : ℕ) < L.numSpecies - 1
    · rw [if_pos h, if_pos h, hG _ h]
    · rw [if_neg h, if_neg h]
  · rw [if_neg (by omega), if_neg (by omega), mul_zero]

/-- Every place of the second state holds a share of one place of the first. -/
theorem share_places (hd : DividedBins π w L L' C C') (hn : n = L.numSpecies + L.numBins * L.numCond)
    (hn' : n' = L'.numSpecies + L'.numBins * L'.numCond) :
    ∃ (σ : Fin n' → Fin n) (c : Fin n' → ℝ), (∀ k, 0 < c k) ∧ ∀ (k : Fin n) (k' : Fin n') a,
      ShareSlot π w L L' k k' a ↔ k = σ k' ∧ a = c k' := by
  have hr : ∀ k' : Fin n', ∃ k : Fin n, ∃ c, 0 < c ∧ ShareSlot π w L L' k k' c := by
    intro k'
    by_cases hN : (k' : ℕ) < L.numSpecies
    · exact ⟨⟨k', by omega⟩, 1, one_pos, .inl ⟨rfl, hN, rfl⟩⟩
    · obtain ⟨b, j, h1, h2, e⟩ := bin_place (k'.2.trans_eq hn') (by rw [hd.species]; exact hN)
      rw [hd.cond] at h2
      exact ⟨⟨_, hn ▸ bin_place_lt (hd.bin b h1) h2⟩, w b, hd.share b h1, .inr ⟨b, j, h1, h2, rfl, e, rfl⟩⟩
  choose σ c hc hσ using hr
  refine ⟨σ, c, hc, fun k k' a => ⟨fun h => ?_, fun h => by rw [h.1, h.2]; exact hσ k'⟩⟩
  have hsp := hd.species
  rcases hσ k' with ⟨a1, a2, a3⟩ | ⟨b, j, hb, hj, e1, e2, e3⟩
  · rcases h with ⟨b1, b2, b3⟩ | ⟨b', j', hb', hj', -, e2', -⟩
    · exact ⟨Fin.ext (b1.trans a1.symm), b3.trans a3.symm⟩
    · omega
  · rcases h with ⟨b1, b2, b3⟩ | ⟨b', j', hb', hj', e1', e2', e3'⟩
    · omega
    · obtain ⟨rfl, rfl⟩ := bin_place_inj (hd.cond ▸ hj) (hd.cond ▸ hj') (e2.symm.trans e2')
      exact ⟨Fin.ext (e1'.trans e1.symm), e3'.trans e3.symm⟩

theorem MixedSystem.rows_share (hF : MixedSystem L C G F) (hF' : MixedSystem L' C' G' F') (hT : Tame F')
    (hB : BoxPieces F') (hd : DividedBins π w L L' C C')
    (hsys : ∀ t y y', SharedState π w L L' y y' → SharedState π w L L' (F t y) (F' t y'))
    (hs : 0 < sim) (hb : 0 < batch) (hy0 : ∀ i, 0 ≤ y0 i) (hyy : SharedState π w L L' y0 y0')
    (hrun : runSimulation id solve zero y0 sim batch = .ok (times, rows))
    (hrun' : runSimulation id solve' zero' y0' sim batch = .ok (times', rows'))
    (hex : ExactBatches F solve batch y0 rows.length) (hex' : ExactBatches F' solve' batch y0' rows'.length) :
    times = times' ∧ List.Forall₂ (SharedState π w L L') rows rows' := by
  obtain ⟨σ, c, hc, hσ⟩ := share_places hd hF.size hF'.size
  have hiff : ∀ (y : Fin n → ℝ) (y' : Fin n' → ℝ), SharedState π w L L' y y' ↔ y' = fun k => c k * y (σ k) :=
    fun y y' => by
      constructor
      · intro h
        funext k
        exact h _ _ _ ((hσ _ _ _).2 ⟨rfl, rfl⟩)
      · rintro rfl k k' a hk
        rw [((hσ _ _ _).1 hk).1, ((hσ _ _ _).1 hk).2]
  obtain rfl := (hiff y0 y0').1 hyy
  obtain ⟨h1, rfl⟩ := hT.rows_lift hB σ c (fun t z => (hiff _ _).1 (hsys t z _ ((hiff _ _).2 rfl))) hs hb
    (fun k => mul_nonneg (hc k).le (hy0 _)) hrun hrun' hex hex'
  refine ⟨h1, ?_⟩
  rw [List.forall₂_map_right_iff]
  exact List.forall₂_same.2 fun y _ => (hiff _ _).2 rfl

/-- **C106**, fixed yields: two simulations with exact solvers, the second with divided bins, report the same times, the
same gas and in every bin the share of what the bin of the first holds. -/
theorem C106_fixed_yield (hL : GoodLayout L) (hC : PhysConst L C) (hd : DividedBins π w L L' C C')
    (hF : FixedYieldSystem L C F) (hF' : FixedYieldSystem L' C' F') (hs : 0 < sim) (hb : 0 < batch) (hy0 : ∀ i, 0 ≤ y0 i)
    (hyy : SharedState π w L L' y0 y0')
    (hrun : runSimulation id solve zero y0 sim batch = .ok (times, rows))
    (hrun' : runSimulation id solve' zero' y0' sim batch = .ok (times', rows'))
    (hex : ExactBatches F solve batch y0 rows.length) (hex' : ExactBatches F' solve' batch y0' rows'.length) :
    times = times' ∧ List.Forall₂ (SharedState π w L L') rows rows' :=
  hF.mixed.rows_share hF'.mixed (hF'.tame (hd.good hL) (hd.phys hC)) (hF'.boxPieces (hd.good hL) (hd.phys hC)) hd
    (fun _ _ _ hy => hF.mixed.tendency_share hF'.mixed hL hd hy fun _ _ => rfl) hs hb hy0 hyy hrun hrun' hex hex'

end

section

variable {text : Str} {m : Mechanism} {qs : List RawEqn} {cores cores' : Option ℕ} {π : ℕ → ℕ} {w : ℕ → ℝ}
  {L L' : Aerosol.Layout} {C C' : AeroConst} {rates : Rates} {start h2o : ℝ} {n n' : ℕ}
  {F : ℝ → (Fin n → ℝ) → Fin n → ℝ} {F' : ℝ → (Fin n' → ℝ) → Fin n' → ℝ}

/-- The chemistry depends on the gas only. -/
theorem kineticValue_gas {A : Str → ℕ → ℝ} {temp : ℝ} (h : extractMechanism text = .ok m)
    (hq : Reads text m.equations.toNat qs) (s : Str) (t : ℝ) {z z' : ℕ → ℝ}
    (hz : ∀ i < m.tables.species.length, z' i = z i) :
    kineticValue m qs A rates start h2o temp s t z' = kineticValue m qs A rates start h2o temp s t z := by
  have hz' : ∀ s i i', m.tables.index.get? s = some i → m.tables.index.get? s = some i' → z' i = z i' := by
    intro s i i' hi hi'
    obtain rfl := Option.some.inj (hi.symm.trans hi')
    exact hz i ((C01_indices h i).1 ⟨s, hi⟩)
  unfold kineticValue
  rw [radicals_value (fun _ h => h) (fun _ _ h => h) hz']
  by_cases hs : s ∈ heldConstant
  · rw [if_pos hs, if_pos hs]
  rw [if_neg hs, if_neg hs]
  refine Finset.sum_congr rfl fun e he => ?_
  congr 2
  unfold reactionProduct
  have hqe := List.getElem?_eq_getElem (Finset.mem_range.1 he)
  rw [hqe]
  dsimp only
  refine (Spec.SameReaction.refl _).product fun x hx => ?_
  obtain ⟨j, hj⟩ := (indexed_iff qs x).2 ⟨_, List.getElem_mem (Finset.mem_range.1 he), mem_occurrences.2 (.inl hx)⟩
  rw [← (extract_tables h hq).1] at hj
  rw [← concOf_holds _ _ _ _ hj, ← concOf_holds _ _ _ _ hj, hz' x j j hj hj]

/-- **C106**: if the gas is the same and the bins hold their shares, `dydt_func` gives the gas the same tendencies and
the matter in the bins their shares of the tendencies. -/
theorem C106_tendencies (h : extractMechanism text = .ok m) (hq : Reads text m.equations.toNat qs)
    (hns : L.numSpecies = m.tables.species.length + 1) (hL : GoodLayout L) (hd : DividedBins π w L L' C C')
    (hF : AerosolSystem m cores L C rates start h2o F) (hF' : AerosolSystem m cores' L' C' rates start h2o F')
    (t : ℝ) {y : Fin n → ℝ} {y' : Fin n' → ℝ} (hy : SharedState π w L L' y y') :
    SharedState π w L L' (F t y) (F' t y') := by
  obtain ⟨sp, hsp, -⟩ := index_sum h hq rfl
  refine (hF.mixed h hq hns hsp).tendency_share (hF'.mixed h hq (hd.species.trans hns) hsp) hL hd hy fun i hi => ?_
  unfold gasPart
  have hl : i < m.tables.species.length := by omega
  rw [dif_pos hl, dif_pos hl, hd.temp]
  refine kineticValue_gas h hq _ t fun j hj => ?_
  rw [hy.lookup hF.1 hF'.1 hd (.inl ⟨rfl, by omega, rfl⟩), one_mul]

/-- **C106**: two simulations with particles and exact solvers, the second with divided bins, started with the same gas
and the shares of the condensed matter, report the same times, the same gas and in every bin the share. -/
theorem C106_rows (h : extractMechanism text = .ok m) (hq : Reads text m.equations.toNat qs)
    (hns : L.numSpecies = m.tables.species.length + 1) (hL : GoodLayout L) (hC : PhysConst L C)
    (hd : DividedBins π w L L' C C')
    (hpos : ∀ q ∈ qs, ∀ p ∈ chemReactants q ++ chemProducts q, 0 < p.1) (hone : WholeReactants qs)
    (hr : PiecewiseRates rates start h2o C.temp)
    (hF : AerosolSystem m cores L C rates start h2o F) (hF' : AerosolSystem m cores' L' C' rates start h2o F')
    {solve : (Fin n → ℝ) → ℚ → Fin n → ℝ} {solve' : (Fin n' → ℝ) → ℚ → Fin n' → ℝ} {sim batch : ℚ}
    {zero y0 : Fin n → ℝ} {zero' y0' : Fin n' → ℝ}
    {times times' : List ℚ} {rows : List (Fin n → ℝ)} {rows' : List (Fin n' → ℝ)}
    (hs : 0 < sim) (hb : 0 < batch) (hy0 : ∀ i, 0 ≤ y0 i) (hyy : SharedState π w L L' y0 y0')
    (hrun : runSimulation id solve zero y0 sim batch = .ok (times, rows))
    (hrun' : runSimulation id solve' zero' y0' sim batch = .ok (times', rows'))
    (hex : ExactBatches F solve batch y0 rows.length) (hex' : ExactBatches F' solve' batch y0' rows'.length) :
    times = times' ∧ List.Forall₂ (SharedState π w L L') rows rows' := by
  obtain ⟨sp, hsp, -⟩ := index_sum h hq rfl
  have hns' := hd.species.trans hns
  rw [← hd.temp] at hr
  exact (hF.mixed h hq hns hsp).rows_share (hF'.mixed h hq hns' hsp)
    (hF'.tame h hq hns' (hd.good hL) (hd.phys hC) hpos hone hr.regular)
    (hF'.boxPieces h hq hns' (hd.good hL) (hd.phys hC) hone hr) hd
    (fun t y y' hy => C106_tendencies h hq hns hL hd hF hF' t hy) hs hb hy0 hyy hrun hrun' hex hex'

variable {conv : ℕ} {num num' : ℚ → Str} {f f' : AeroFiles} {junk junk' : Vals} {M : ℝ → (ℕ → ℝ) → Machine L}
  {M' : ℝ → (ℕ → ℝ) → Machine L'}

/-- **C106**: the same for the systems given by the texts of the generated files, which are written for different numbers
of bins. -/
theorem C106_files (h : extractMechanism text = .ok m) (hq : Reads text m.equations.toNat qs)
    (hns : L.numSpecies = m.tables.species.length + 1) (hL : GoodLayout L) (hc : 1 ≤ L.numCond) (hC : PhysConst L C)
    (hd : DividedBins π w L L' C C')
    (hpos : ∀ q ∈ qs, ∀ p ∈ chemReactants q ++ chemProducts q, 0 < p.1) (hone : WholeReactants qs)
    (hw : Prints num id m.tables) (hw' : Prints num' id m.tables)
    (hf : f.WrittenFor m cores conv num L) (hf' : f'.WrittenFor m cores' conv num' L')
    (hread : ReadableRates .fortran ((convertOf .fortran)^[conv]) qs)
    (hnn : NonnegRates .fortran ((convertOf .fortran)^[conv]) qs h2o C.temp)
    (hM : ∀ t y, (M t y).Orderly) (hM' : ∀ t y, (M' t y).Orderly)
    (hF : FileSystem f m L C junk M start h2o F) (hF' : FileSystem f' m L' C' junk' M' start h2o F')
    {solve : (Fin n → ℝ) → ℚ → Fin n → ℝ} {solve' : (Fin n' → ℝ) → ℚ → Fin n' → ℝ} {sim batch : ℚ}
    {zero y0 : Fin n → ℝ} {zero' y0' : Fin n' → ℝ}
    {times times' : List ℚ} {rows : List (Fin n → ℝ)} {rows' : List (Fin n' → ℝ)}
    (hs : 0 < sim) (hb : 0 < batch) (hy0 : ∀ i, 0 ≤ y0 i) (hyy : SharedState π w L L' y0 y0')
    (hrun : runSimulation id solve zero y0 sim batch = .ok (times, rows))
    (hrun' : runSimulation id solve' zero' y0' sim batch = .ok (times', rows'))
    (hex : ExactBatches F solve batch y0 rows.length) (hex' : ExactBatches F' solve' batch y0' rows'.length) :
    times = times' ∧ List.Forall₂ (SharedState π w L L') rows rows' := by
  obtain ⟨p, hpr, -⟩ := C66_value h hq (b := .fortran) (by decide) cores hread
  obtain ⟨p', hpr', -⟩ := C66_value h hq (b := .fortran) (by decide) cores' hread
  have hns' := hd.species.trans hns
  have hA := ((C72_system h hw hL hc hf (hf.rates ▸ hpr) hM).1 hF).congr h hq hns
    (rates' := generatedRates .fortran p fun _ => 0) fun t r e he =>
      fortran_rates_eq h hq hread hpr hpr junk (fun _ => 0) t r h2o C.temp he
  have hA' := ((C72_system h hw' (hd.good hL) (by rw [hd.cond]; exact hc) hf' (hf'.rates ▸ hpr') hM').1 hF').congr h hq hns'
    (rates' := generatedRates .fortran p fun _ => 0) fun t r e he =>
      fortran_rates_eq h hq hread hpr' hpr junk' (fun _ => 0) t r h2o C'.temp he
  exact C106_rows h hq hns hL hC hd hpos hone
    (C66_piecewise h hq (by decide) hread hpr (fun _ => le_refl _) start hnn) hA hA' hs hb hy0 hyy hrun hrun' hex hex'

end

/-! ## A case the theorems apply to -/

/-- `threeLayout` with the first of its two bins divided. -/
def dividedLayout : Aerosol.Layout := ⟨3, 6, 3, [2, 3, 5]⟩

/-- Bins of the first simulation. -/
def dividedBin (b : ℕ) : ℕ := [0, 0, 1].getD b 0

/-- Shares of the particles. -/
noncomputable def dividedShare (b : ℕ) : ℝ := [1 / 4, 3 / 4, 1].getD b 1

noncomputable def dividedConst : AeroConst :=
  { threeConst with
    ycore := fun b => dividedShare b * threeConst.ycore (dividedBin b)
    nPerBin := fun b => dividedShare b * threeConst.nPerBin (dividedBin b)
    coreMw := fun b => threeConst.coreMw (dividedBin b)
    coreDensity := fun b => threeConst.coreDensity (dividedBin b) }

theorem divided_bins : DividedBins dividedBin dividedShare threeLayout dividedLayout threeConst dividedConst where
  species := rfl
  cond := rfl
  incl := rfl
  bin b hb := by
    have hb : b < 3 := hb
    interval_cases b <;> decide
  share b hb := by
    have hb : b < 3 := hb
    interval_cases b <;> norm_num [dividedShare]
  whole b hb := by
    have hb : b < 2 := hb
    rw [Finset.sum_filter]
    show ∑ b' ∈ Finset.range 3, _ = _
    interval_cases b <;> norm_num [dividedShare, dividedBin, Finset.sum_range_succ]
  ycore _ _ := rfl
  nPerBin _ _ := rfl
  coreMw _ _ := rfl
  coreDensity _ _ := rfl
  densityInput _ _ := rfl
  dStar _ _ := rfl
  alpha _ _ := rfl
  gamma _ _ := rfl
  mw _ _ := rfl
  satVp _ _ := rfl
  coreDiss := rfl
  sigma := rfl
  na := rfl
  rGas := rfl
  temp := rfl

/-- All hypotheses are met by `radicalText` with two bins and with three: both systems exist, both have exact solvers,
and two simulations started from the same gas and shares of the condensed matter report the same gas and the shares. -/
theorem divided_run (cores cores' : Option ℕ) :
    ∃ (F : ℝ → (Fin 12 → ℝ) → Fin 12 → ℝ) (F' : ℝ → (Fin 15 → ℝ) → Fin 15 → ℝ) (solve : (Fin 12 → ℝ) → ℚ → Fin 12 → ℝ)
      (solve' : (Fin 15 → ℝ) → ℚ → Fin 15 → ℝ),
      AerosolSystem radicalMechanism cores threeLayout threeConst wavyRates 0 0 F ∧
      AerosolSystem radicalMechanism cores' dividedLayout dividedConst wavyRates 0 0 F' ∧
      ∀ y0 : Fin 12 → ℝ, (∀ i, 0 ≤ y0 i) → ∀ y0' : Fin 15 → ℝ, (∀ i, 0 ≤ y0' i) →
        SharedState dividedBin dividedShare threeLayout dividedLayout y0 y0' →
        (∀ k, ExactBatches F solve 60 y0 k) ∧ (∀ k, ExactBatches F' solve' 60 y0' k) ∧
        ∃ rows rows', runSimulation id solve (fun _ => 0) y0 (((2 : ℕ) : ℚ) * 60) 60 = .ok ([60, 120], rows) ∧
          runSimulation id solve' (fun _ => 0) y0' (((2 : ℕ) : ℚ) * 60) 60 = .ok ([60, 120], rows') ∧
          List.Forall₂ (SharedState dividedBin dividedShare threeLayout dividedLayout) rows rows' := by
  have hg : ∀ q ∈ radicalReactions, GainGood q := fun q hq => (radical_regular q hq).gain
  have hro : ∃ s ∈ ro2Names, (radicalMechanism.tables.index.get? s).isSome := ⟨"CH3O2".toList, by decide +kernel⟩
  obtain ⟨F, hF⟩ := written_aerosol radical_parses (allWritten_of_good radical_parses radical_reads hg) hro cores
    threeLayout three_species threeConst wavyRates 0 0 (n := 12) rfl
  obtain ⟨F', hF'⟩ := written_aerosol radical_parses (allWritten_of_good radical_parses radical_reads hg) hro cores'
    dividedLayout three_species dividedConst wavyRates 0 0 (n := 15) rfl
  obtain ⟨solve, hs⟩ := C64_exists radical_parses radical_reads radical_sameNet.less threeLayout_good
    threeConst_phys three_species (by decide) radical_positive.1 radical_positive.2 radical_weights
    (wavyRates_smooth 0 0 _).piecewise hF (batch := 60) (by norm_num)
  obtain ⟨solve', hs'⟩ := C64_exists radical_parses radical_reads radical_sameNet.less (divided_bins.good threeLayout_good)
    (divided_bins.phys threeConst_phys) three_species (by decide) radical_positive.1 radical_positive.2 radical_weights
    (wavyRates_smooth 0 0 _).piecewise hF' (batch := 60) (by norm_num)
  refine ⟨F, F', solve, solve', hF, hF', fun y0 hy0 y0' hy0' hyy => ⟨hs y0 hy0, hs' y0' hy0', ?_⟩⟩
  obtain ⟨rows, hrun⟩ := two_batches solve y0
  obtain ⟨rows', hrun'⟩ := two_batches solve' y0'
  exact ⟨_, _, hrun, hrun', (C106_rows radical_parses radical_reads three_species threeLayout_good threeConst_phys
    divided_bins radical_positive.1 radical_positive.2 (wavyRates_smooth 0 0 _).piecewise hF hF' (by norm_num)
    (by norm_num) hy0 hyy hrun hrun' (hs y0 hy0 _) (hs' y0' hy0' _)).2⟩

end PyBox
