import Verif.Props.Reordered
import Verif.Props.AerosolFiles

/-!
# C101: the order of the species in simulations with particles

The state of a simulation with particles holds the gas species in the order of the mechanism file, then water, then
for every size bin the condensing species in the order of `include_index` (`/repo/Aerosol/f2py/ODE_solver.py`,
57-156). A file with the reactions in another order moves the entries, and the arrays with the properties of the
condensing species with them. The simulated concentration of every species in every bin is the same.
-/

namespace PyBox

open Set Spec Aerosol Rl

namespace Spec

/-- Gas places that hold the same species: the same name, or water, which comes after all species of the
mechanism. -/
def SameGas (m m' : Mechanism) (i i' : ℕ) : Prop :=
  (∃ s, m.tables.index.get? s = some i ∧ m'.tables.index.get? s = some i') ∨
    (i = m.tables.species.length ∧ i' = m'.tables.species.length)

/-- Places of the same species among the condensing ones, for a relation between gas places. -/
def SameCond (R : ℕ → ℕ → Prop) (L L' : Aerosol.Layout) (j j' : ℕ) : Prop :=
  ∃ i i', L.incl[j]? = some i ∧ L'.incl[j']? = some i' ∧ R i i'

/-- Places of the state that hold the same species, in the gas or in the same bin. -/
def SameSlot (R : ℕ → ℕ → Prop) (L L' : Aerosol.Layout) (k k' : ℕ) : Prop :=
  (k < L.numSpecies ∧ k' < L'.numSpecies ∧ R k k') ∨
    ∃ b j j', b < L.numBins ∧ SameCond R L L' j j' ∧ k = L.numSpecies + b * L.numCond + j ∧
      k' = L'.numSpecies + b * L'.numCond + j'

/-- Two states that hold the same for every species in the gas and in every bin. -/
def SameState (R : ℕ → ℕ → Prop) (L L' : Aerosol.Layout) {n n' : ℕ} (y : Fin n → ℝ) (y' : Fin n' → ℝ) : Prop :=
  ∀ (k : Fin n) (k' : Fin n'), SameSlot R L L' k k' → y k = y' k'

/-- Two simulations with the same particles and the same condensing species, in another order: the same species
condense, the bins and their cores are the same, and the properties belong to the species and not to the places.
The last condensing species, whose vapour pressure is replaced by that of water, is the same. -/
structure SameParticles (R : ℕ → ℕ → Prop) (L L' : Aerosol.Layout) (C C' : AeroConst) : Prop where
  bins : L.numBins = L'.numBins
  condense : ∀ i i', R i i' → (i ∈ L.incl ↔ i' ∈ L'.incl)
  last : ∀ j j', SameCond R L L' j j' → (j + 1 = L.numCond ↔ j' + 1 = L'.numCond)
  ycore : ∀ b < L.numBins, C.ycore b = C'.ycore b
  coreMw : ∀ b < L.numBins, C.coreMw b = C'.coreMw b
  coreDensity : ∀ b < L.numBins, C.coreDensity b = C'.coreDensity b
  nPerBin : ∀ b < L.numBins, C.nPerBin b = C'.nPerBin b
  densityInput : ∀ j j', SameCond R L L' j j' → C.densityInput j = C'.densityInput j'
  dStar : ∀ j j', SameCond R L L' j j' → C.dStar j = C'.dStar j'
  alpha : ∀ j j', SameCond R L L' j j' → C.alpha j = C'.alpha j'
  gamma : ∀ j j', SameCond R L L' j j' → C.gamma j = C'.gamma j'
  mw : ∀ j j', SameCond R L L' j j' → C.mw j = C'.mw j'
  satVp : ∀ j j', SameCond R L L' j j' → j + 1 ≠ L.numCond → C.satVp j = C'.satVp j'
  coreDiss : C.coreDiss = C'.coreDiss
  sigma : C.sigma = C'.sigma
  na : C.na = C'.na
  rGas : C.rGas = C'.rGas
  temp : C.temp = C'.temp

/-- A relation that pairs the numbers below `n` with those below `n'`. -/
structure Pairs (R : ℕ → ℕ → Prop) (n n' : ℕ) : Prop where
  left : ∀ i < n, ∃ i' < n', R i i'
  right : ∀ i' < n', ∃ i < n, R i i'
  unique : ∀ i i' k', i < n → i' < n' → k' < n' → R i i' → R i k' → i' = k'
  injective : ∀ i k i', i < n → k < n → i' < n' → R i i' → R k i' → i = k

/-- A relation that gives every number below `n` a number below `n'` of its own. -/
structure PlacesIn (R : ℕ → ℕ → Prop) (n n' : ℕ) : Prop where
  left : ∀ i < n, ∃ i' < n', R i i'
  unique : ∀ i i' k', i < n → i' < n' → k' < n' → R i i' → R i k' → i' = k'
  injective : ∀ i k i', i < n → k < n → i' < n' → R i i' → R k i' → i = k

end Spec

/-! ## Pairs -/

theorem Spec.Pairs.placesIn {R : ℕ → ℕ → Prop} {n n' : ℕ} (h : Pairs R n n') : PlacesIn R n n' :=
  ⟨h.left, h.unique, h.injective⟩

theorem Spec.Pairs.equiv {R : ℕ → ℕ → Prop} {n n' : ℕ} (h : Pairs R n n') :
    ∃ ρ : Fin n' ≃ Fin n, ∀ (i : Fin n) (i' : Fin n'), R i i' ↔ i = ρ i' := by
  have hl : ∀ i : Fin n, ∃ i' : Fin n', R i i' := fun i => by
    obtain ⟨i', hi, hr⟩ := h.left i i.2
    exact ⟨⟨i', hi⟩, hr⟩
  have hr : ∀ i' : Fin n', ∃ i : Fin n, R i i' := fun i' => by
    obtain ⟨i, hi, hr⟩ := h.right i' i'.2
    exact ⟨⟨i, hi⟩, hr⟩
  choose f hf using hl
  choose g hg using hr
  refine ⟨⟨g, f, fun i' => ?_, fun i => ?_⟩, fun i i' => ⟨fun hR => ?_, fun e => ?_⟩⟩
  · exact Fin.ext (h.unique _ _ _ (g i').2 (f (g i')).2 i'.2 (hf (g i')) (hg i'))
  · exact Fin.ext (h.injective _ _ _ (g (f i)).2 i.2 (f i).2 (hg (f i)) (hf i))
  · exact Fin.ext (h.injective _ _ _ i.2 (g i').2 i'.2 hR (hg i'))
  · rw [e]
    exact hg i'

theorem Spec.Pairs.sum {R : ℕ → ℕ → Prop} {n n' : ℕ} (h : Pairs R n n') {f f' : ℕ → ℝ}
    (hf : ∀ i i', i < n → i' < n' → R i i' → f i = f' i') :
    ∑ i ∈ Finset.range n, f i = ∑ i ∈ Finset.range n', f' i := by
  obtain ⟨ρ, hρ⟩ := h.equiv
  rw [← Fin.sum_univ_eq_sum_range, ← Fin.sum_univ_eq_sum_range, ← Equiv.sum_comp ρ]
  exact Finset.sum_congr rfl fun i' _ => hf _ _ (ρ i').2 i'.2 ((hρ _ _).2 rfl)

section

variable {R : ℕ → ℕ → Prop} {L L' : Aerosol.Layout} {C C' : AeroConst}

theorem Spec.SameCond.lt (hL : GoodLayout L) (hL' : GoodLayout L') {j j' : ℕ} (h : SameCond R L L' j j') :
    j < L.numCond ∧ j' < L'.numCond := by
  obtain ⟨i, i', h1, h2, -⟩ := h
  exact ⟨hL.len ▸ (List.getElem?_eq_some_iff.1 h1).1, hL'.len ▸ (List.getElem?_eq_some_iff.1 h2).1⟩

theorem condPairs_within (hR : PlacesIn R L.numSpecies L'.numSpecies) (hL : GoodLayout L) (hL' : GoodLayout L')
    (hp : ∀ i i', R i i' → (i ∈ L.incl ↔ i' ∈ L'.incl)) (hadd : ∀ i' ∈ L'.incl, ∃ i < L.numSpecies, R i i') :
    Pairs (SameCond R L L') L.numCond L'.numCond where
  left j hj := by
    rw [← hL.len] at hj
    obtain ⟨i', hi', hr⟩ := hR.left _ (hL.valid _ (List.getElem_mem hj))
    obtain ⟨j', hj', e⟩ := List.mem_iff_getElem.1 ((hp _ _ hr).1 (List.getElem_mem hj))
    exact ⟨j', hL'.len ▸ hj', _, _, List.getElem?_eq_getElem hj, e ▸ List.getElem?_eq_getElem hj', hr⟩
  right j' hj' := by
    rw [← hL'.len] at hj'
    obtain ⟨i, hi, hr⟩ := hadd _ (List.getElem_mem hj')
    obtain ⟨j, hj, e⟩ := List.mem_iff_getElem.1 ((hp _ _ hr).2 (List.getElem_mem hj'))
    exact ⟨j, hL.len ▸ hj, _, _, e ▸ List.getElem?_eq_getElem hj, List.getElem?_eq_getElem hj', hr⟩
  unique j j' k' _ hj' _ h1 h2 := by
    obtain ⟨i, i', a1, a2, a3⟩ := h1
    obtain ⟨_, l', b1, b2, b3⟩ := h2
    rw [a1] at b1
    obtain rfl := Option.some.inj b1
    have e := hR.unique _ _ _ (hL.valid _ (List.mem_of_getElem? a1)) (hL'.valid _ (List.mem_of_getElem? a2))
      (hL'.valid _ (List.mem_of_getElem? b2)) a3 b3
    rw [← e, ← a2] at b2
    exact ((List.getElem?_inj (hL'.len ▸ hj') hL'.nodup).1 b2.symm)
  injective j k j' hj _ _ h1 h2 := by
    obtain ⟨i, i', a1, a2, a3⟩ := h1
    obtain ⟨l, _, b1, b2, b3⟩ := h2
    rw [a2] at b2
    obtain rfl := Option.some.inj b2
    have e := hR.injective _ _ _ (hL.valid _ (List.mem_of_getElem? a1)) (hL.valid _ (List.mem_of_getElem? b1))
      (hL'.valid _ (List.mem_of_getElem? a2)) a3 b3
    rw [← e, ← a1] at b1
    exact ((List.getElem?_inj (hL.len ▸ hj) hL.nodup).1 b1.symm)

theorem condPairs (hR : Pairs R L.numSpecies L'.numSpecies) (hL : GoodLayout L) (hL' : GoodLayout L')
    (hp : ∀ i i', R i i' → (i ∈ L.incl ↔ i' ∈ L'.incl)) : Pairs (SameCond R L L') L.numCond L'.numCond :=
  condPairs_within hR.placesIn hL hL' hp fun i' hi' => hR.right i' (hL'.valid i' hi')

/-- A place in the bins. -/
theorem bin_place {k N nb nc : ℕ} (hk : k < N + nb * nc) (hN : ¬ k < N) :
    ∃ b j, b < nb ∧ j < nc ∧ k = N + b * nc + j := by
  have hc : 0 < nc := by
    rcases Nat.eq_zero_or_pos nc with rfl | h
    · omega
    · exact h
  refine ⟨(k - N) / nc, (k - N) % nc, (Nat.div_lt_iff_lt_mul hc).2 (by omega), Nat.mod_lt _ hc, ?_⟩
  have := Nat.div_add_mod' (k - N) nc
  omega

theorem bin_place_inj {N nc b j b' j' : ℕ} (hj : j < nc) (hj' : j' < nc)
    (e : N + b * nc + j = N + b' * nc + j') : b = b' ∧ j = j' := by
  have hc : 0 < nc := by omega
  have e1 : b * nc + j = b' * nc + j' := by omega
  have h1 := congrArg (· / nc) e1
  simp only [Nat.mul_comm _ nc, Nat.mul_add_div hc, Nat.div_eq_of_lt hj, Nat.div_eq_of_lt hj', Nat.add_zero] at h1
  subst h1
  exact ⟨rfl, by omega⟩

theorem bin_place_lt {N nb nc b j : ℕ} (hb : b < nb) (hj : j < nc) : N + b * nc + j < N + nb * nc := by
  have : (b + 1) * nc ≤ nb * nc := Nat.mul_le_mul_right _ hb
  rw [Nat.add_mul] at this
  omega

theorem slotPairs (hR : Pairs R L.numSpecies L'.numSpecies) (hL : GoodLayout L) (hL' : GoodLayout L')
    (hp : ∀ i i', R i i' → (i ∈ L.incl ↔ i' ∈ L'.incl)) (hb : L.numBins = L'.numBins) :
    Pairs (SameSlot R L L') (L.numSpecies + L.numBins * L.numCond) (L'.numSpecies + L'.numBins * L'.numCond) where
  left k hk := by
    by_cases hN : k < L.numSpecies
    · obtain ⟨k', hk', hr⟩ := hR.left k hN
      exact ⟨k', by omega, .inl ⟨hN, hk', hr⟩⟩
    · obtain ⟨b, j, h1, h2, rfl⟩ := bin_place hk hN
      obtain ⟨j', hj', hS⟩ := (condPairs hR hL hL' hp).left j h2
      exact ⟨_, bin_place_lt (hb ▸ h1) hj', .inr ⟨b, j, j', h1, hS, rfl, rfl⟩⟩
  right k' hk' := by
    by_cases hN : k' < L'.numSpecies
    · obtain ⟨k, hk, hr⟩ := hR.right k' hN
      exact ⟨k, by omega, .inl ⟨hk, hN, hr⟩⟩
    · obtain ⟨b, j', h1, h2, rfl⟩ := bin_place hk' hN
      obtain ⟨j, hj, hS⟩ := (condPairs hR hL hL' hp).right j' h2
      exact ⟨_, bin_place_lt (hb ▸ h1) hj, .inr ⟨b, j, j', hb ▸ h1, hS, rfl, rfl⟩⟩
  unique k k' l' _ _ _ h1 h2 := by
    rcases h1 with ⟨a1, a2, a3⟩ | ⟨b, j, j', a1, a2, rfl, rfl⟩
    · rcases h2 with ⟨b1, b2, b3⟩ | ⟨b, j, j', b1, b2, rfl, rfl⟩
      · exact hR.unique _ _ _ a1 a2 b2 a3 b3
      · omega
    · rcases h2 with ⟨b1, b2, b3⟩ | ⟨b', l, l', b1, b2, e, rfl⟩
      · omega
      · obtain ⟨rfl, rfl⟩ := bin_place_inj (a2.lt hL hL').1 (b2.lt hL hL').1 e
        rw [(condPairs hR hL hL' hp).unique _ _ _ (a2.lt hL hL').1 (a2.lt hL hL').2 (b2.lt hL hL').2 a2 b2]
  injective k l k' _ _ _ h1 h2 := by
    rcases h1 with ⟨a1, a2, a3⟩ | ⟨b, j, j', a1, a2, rfl, rfl⟩
    · rcases h2 with ⟨b1, b2, b3⟩ | ⟨b, j, j', b1, b2, rfl, rfl⟩
      · exact hR.injective _ _ _ a1 b1 a2 a3 b3
      · omega
    · rcases h2 with ⟨b1, b2, b3⟩ | ⟨b', l, l', b1, b2, rfl, e⟩
      · omega
      · obtain ⟨rfl, rfl⟩ := bin_place_inj (a2.lt hL hL').2 (b2.lt hL hL').2 e
        rw [(condPairs hR hL hL' hp).injective _ _ _ (a2.lt hL hL').1 (b2.lt hL hL').1 (a2.lt hL hL').2 a2 b2]

/-! ## The exchange with the particles -/

section

variable {n n' : ℕ} {y : Fin n → ℝ} {y' : Fin n' → ℝ}

theorem Spec.SameState.lookup (hn : n = L.numSpecies + L.numBins * L.numCond)
    (hn' : n' = L'.numSpecies + L'.numBins * L'.numCond) (hL : GoodLayout L) (hL' : GoodLayout L')
    (hb : L.numBins = L'.numBins) (hy : SameState R L L' y y') {k k' : ℕ} (hk : SameSlot R L L' k k') :
    stateOf y k = stateOf y' k' := by
  have h1 : k < n ∧ k' < n' := by
    rcases hk with ⟨a1, a2, -⟩ | ⟨b, j, j', a1, a2, rfl, rfl⟩
    · omega
    · exact ⟨hn ▸ bin_place_lt a1 (a2.lt hL hL').1, hn' ▸ bin_place_lt (hb ▸ a1) (a2.lt hL hL').2⟩
  unfold stateOf
  rw [dif_pos h1.1, dif_pos h1.2]
  exact hy ⟨k, h1.1⟩ ⟨k', h1.2⟩ hk

variable (hn : n = L.numSpecies + L.numBins * L.numCond)
    (hn' : n' = L'.numSpecies + L'.numBins * L'.numCond) (hR : Pairs (SameCond R L L') L.numCond L'.numCond)
    (hL : GoodLayout L) (hL' : GoodLayout L') (hp : SameParticles R L L' C C') (hy : SameState R L L' y y')

include hn hn' hL hL' hp hy

theorem conc_same {b j j' : ℕ} (hb : b < L.numBins) (hj : SameCond R L L' j j') :
    conc L (partArgs L C (stateOf y)) b j = conc L' (partArgs L' C' (stateOf y')) b j' := by
  unfold conc partArgs
  dsimp only
  rw [Nat.add_sub_cancel, Nat.add_sub_cancel]
  exact hy.lookup hn hn' hL hL' hp.bins (.inr ⟨b, j, j', hb, hj, rfl, rfl⟩)

theorem mass_same {b j j' : ℕ} (hb : b < L.numBins) (hj : SameCond R L L' j j') :
    mass L (partArgs L C (stateOf y)) b j = mass L' (partArgs L' C' (stateOf y')) b j' := by
  unfold mass
  rw [conc_same hn hn' hL hL' hp hy hb hj]
  simp only [partArgs, Nat.add_sub_cancel, hp.mw j j' hj, hp.na]

include hR

theorem moles_same {b : ℕ} (hb : b < L.numBins) :
    totalMoles L (partArgs L C (stateOf y)) (b + 1) = totalMoles L' (partArgs L' C' (stateOf y')) (b + 1) := by
  rw [totalMoles_eq, totalMoles_eq]
  refine congrArg₂ (· + ·) (hR.sum fun j j' _ _ hj =>
    conc_same hn hn' hL hL' hp hy hb hj) ?_
  simp only [partArgs, Nat.add_sub_cancel, hp.ycore b hb, hp.coreDiss]

theorem binMass_same {b : ℕ} (hb : b < L.numBins) :
    binMass L (partArgs L C (stateOf y)) b = binMass L' (partArgs L' C' (stateOf y')) b := by
  unfold binMass
  refine congrArg₂ (· + ·) (hR.sum fun j j' _ _ hj =>
    mass_same hn hn' hL hL' hp hy hb hj) ?_
  simp only [partArgs, Nat.add_sub_cancel, hp.ycore b hb, hp.na, hp.coreMw b hb]

theorem binVolume_same {b : ℕ} (hb : b < L.numBins) :
    binVolume L (partArgs L C (stateOf y)) b = binVolume L' (partArgs L' C' (stateOf y')) b := by
  unfold binVolume
  refine congrArg₂ (· + ·) (hR.sum fun j j' _ _ hj => ?_) ?_
  · rw [mass_same hn hn' hL hL' hp hy hb hj]
    simp only [partArgs, Nat.add_sub_cancel, hp.densityInput j j' hj]
  · simp only [partArgs, Nat.add_sub_cancel, hp.ycore b hb, hp.na, hp.coreMw b hb, hp.coreDensity b hb]

theorem size_same {b : ℕ} (hb : b < L.numBins) :
    sizeArray L (partArgs L C (stateOf y)) (b + 1) = sizeArray L' (partArgs L' C' (stateOf y')) (b + 1) := by
  unfold sizeArray
  rw [totalMass_eq, totalMass_eq, density_eq, density_eq, binMass_same hn hn' hR hL hL' hp hy hb,
    binVolume_same hn hn' hR hL hL' hp hy hb]
  simp only [partArgs, Nat.add_sub_cancel, hp.nPerBin b hb]

theorem dmDt_same {b j j' : ℕ} (hb : b < L.numBins) (hj : SameCond R L L' j j') :
    dmDt L (partArgs L C (stateOf y)) (b + 1) (j + 1) = dmDt L' (partArgs L' C' (stateOf y')) (b + 1) (j' + 1) := by
  have hgas : (partArgs L C (stateOf y)).cgas (j + 1) = (partArgs L' C' (stateOf y')).cgas (j' + 1) := by
    obtain ⟨i, i', h1, h2, h3⟩ := hj
    simp only [partArgs, Nat.add_sub_cancel, List.getD_eq_getElem?_getD, h1, h2, Option.getD_some]
    exact hy.lookup hn hn' hL hL' hp.bins
      (.inl ⟨hL.valid _ (List.mem_of_getElem? h1), hL'.valid _ (List.mem_of_getElem? h2), h3⟩)
  have hps : (partArgs L C (stateOf y)).psat (j + 1) = (partArgs L' C' (stateOf y')).psat (j' + 1) := by
    simp only [partArgs, Nat.add_sub_cancel, psatAtm]
    by_cases hl : j + 1 = L.numCond
    · rw [if_pos hl, if_pos ((hp.last j j' hj).1 hl), hp.temp]
    · rw [if_neg hl, if_neg (fun h => hl ((hp.last j j' hj).2 h)), hp.satVp j j' hj hl]
  unfold dmDt kTransfer kPart1 correction correction3 correction1 correction2 inverseKn knudsen cStar pressureEq kelvin
    moleFraction
  rw [hgas, hps, size_same hn hn' hR hL hL' hp hy hb, moles_same hn hn' hR hL hL' hp hy hb, density_eq, density_eq,
    binMass_same hn hn' hR hL hL' hp hy hb, binVolume_same hn hn' hR hL hL' hp hy hb, tempArray_eq, tempArray_eq,
    conc_same hn hn' hL hL' hp hy hb hj]
  simp only [partArgs, Nat.add_sub_cancel, hp.nPerBin b hb, hp.dStar j j' hj, hp.alpha j j' hj, hp.gamma j j' hj,
    hp.mw j j' hj, hp.sigma, hp.rGas, hp.temp, hp.na]

theorem partition_same {k k' : ℕ} (hk : SameSlot R L L' k k') :
    partition L (partArgs L C (stateOf y)) k = partition L' (partArgs L' C' (stateOf y')) k' := by
  rcases hk with ⟨h1, h2, h3⟩ | ⟨b, j, j', hb, hj, rfl, rfl⟩
  · by_cases hi : k ∈ L.incl
    · have hi' := (hp.condense k k' h3).1 hi
      obtain ⟨j, hj, rfl⟩ := List.mem_iff_getElem.1 hi
      obtain ⟨j', hj', rfl⟩ := List.mem_iff_getElem.1 hi'
      rw [C36_exchange L _ hL j hj, C36_exchange L' _ hL' j' hj', ← hp.bins]
      refine congrArg _ (Finset.sum_congr rfl fun b hb => ?_)
      have hb := Finset.mem_range.1 hb
      rw [partition_slot L _ b j hb (hL.len ▸ hj), partition_slot L' _ b j' (hp.bins ▸ hb) (hL'.len ▸ hj')]
      exact dmDt_same hn hn' hR hL hL' hp hy hb
        ⟨_, _, List.getElem?_eq_getElem hj, List.getElem?_eq_getElem hj', h3⟩
    · rw [C37_excluded L _ k h1 hi, C37_excluded L' _ k' h2 (fun h => hi ((hp.condense k k' h3).2 h))]
  · rw [partition_slot L _ b j hb (hj.lt hL hL').1, partition_slot L' _ b j' (hp.bins ▸ hb) (hj.lt hL hL').2]
    exact dmDt_same hn hn' hR hL hL' hp hy hb hj

/-- **C101**: the reported mass of organic aerosol is the same. -/
theorem C101_soa : totalSoaMass L (partArgs L C (stateOf y)) = totalSoaMass L' (partArgs L' C' (stateOf y')) := by
  have e : ∀ (M : Aerosol.Layout) (P : PartInput) (b : ℕ), soaMassBin M P (b + 1)
      = ∑ j ∈ Finset.range M.numCond, if j + 1 = M.numCond then 0 else mass M P b j := by
    intro M P b
    unfold soaMassBin fsum
    rcases Nat.eq_zero_or_pos M.numCond with h0 | h0
    · rw [h0, Finset.range_zero, Finset.sum_empty, Finset.sum_empty]
    · obtain ⟨c, hc⟩ := Nat.exists_eq_succ_of_ne_zero h0.ne'
      rw [hc, Finset.sum_range_succ, if_pos rfl, add_zero]
      refine Finset.sum_congr rfl fun j hj => ?_
      have hj := Finset.mem_range.1 hj
      rw [if_neg (by omega), massArray_lt M P b j (by omega)]
  unfold totalSoaMass fsum
  rw [← hp.bins]
  refine congrArg (· * _) (Finset.sum_congr rfl fun b hb => ?_)
  rw [e, e]
  refine hR.sum fun j j' _ _ hj => ?_
  rw [mass_same hn hn' hL hL' hp hy (Finset.mem_range.1 hb) hj]
  exact if_congr (hp.last j j' hj) rfl rfl

end

/-! ## Runs -/

variable {G G' : ℝ → (ℕ → ℝ) → ℕ → ℝ} {n n' : ℕ} {F : ℝ → (Fin n → ℝ) → Fin n → ℝ}
  {F' : ℝ → (Fin n' → ℝ) → Fin n' → ℝ} {solve : (Fin n → ℝ) → ℚ → Fin n → ℝ}
  {solve' : (Fin n' → ℝ) → ℚ → Fin n' → ℝ} {sim batch : ℚ} {zero y0 : Fin n → ℝ} {zero' y0' : Fin n' → ℝ}
  {times times' : List ℚ} {rows : List (Fin n → ℝ)} {rows' : List (Fin n' → ℝ)}

theorem MixedSystem.tendency_same (hF : MixedSystem L C G F) (hF' : MixedSystem L' C' G' F')
    (hR : Pairs (SameCond R L L') L.numCond L'.numCond) (hlast : ∀ i i', i < L.numSpecies → i' < L'.numSpecies → R i i' →
      (i < L.numSpecies - 1 ↔ i' < L'.numSpecies - 1))
    (hL : GoodLayout L) (hL' : GoodLayout L') (hp : SameParticles R L L' C C') {t : ℝ} {y : Fin n → ℝ}
    {y' : Fin n' → ℝ} (hy : SameState R L L' y y')
    (hG : ∀ i i', i < L.numSpecies - 1 → i' < L'.numSpecies - 1 → R i i' →
      G t (stateOf y) i = G' t (stateOf y') i') : SameState R L L' (F t y) (F' t y') := by
  intro k k' hk
  rw [hF.entry, hF'.entry]
  refine congrArg₂ (· + ·) ?_ (partition_same hF.size hF'.size hR hL hL' hp hy hk)
  rcases hk with ⟨h1, h2, h3⟩ | ⟨b, j, j', hb, hj, e, e'⟩
  · have hl := hlast _ _ h1 h2 h3
    by_cases h : (k : ℕ) < L.numSpecies - 1
    · rw [if_pos h, if_pos (hl.1 h)]
      exact hG _ _ h (hl.1 h) h3
    · rw [if_neg h, if_neg fun h' => h (hl.2 h')]
  · rw [if_neg (by omega), if_neg (by omega)]

theorem MixedSystem.rows_same (hF : MixedSystem L C G F) (hF' : MixedSystem L' C' G' F') (hT : Tame F)
    (hB : BoxPieces F) (hR : Pairs R L.numSpecies L'.numSpecies) (hL : GoodLayout L) (hL' : GoodLayout L')
    (hp : SameParticles R L L' C C')
    (hsys : ∀ t y y', SameState R L L' y y' → SameState R L L' (F t y) (F' t y'))
    (hs : 0 < sim) (hb : 0 < batch) (hy0 : ∀ i, 0 ≤ y0 i) (hyy : SameState R L L' y0 y0')
    (hrun : runSimulation id solve zero y0 sim batch = .ok (times, rows))
    (hrun' : runSimulation id solve' zero' y0' sim batch = .ok (times', rows'))
    (hex : ExactBatches F solve batch y0 rows.length) (hex' : ExactBatches F' solve' batch y0' rows'.length) :
    times = times' ∧ List.Forall₂ (SameState R L L') rows rows' := by
  obtain ⟨ρ, hρ⟩ : ∃ ρ : Fin n' ≃ Fin n, ∀ (i : Fin n) (i' : Fin n'), SameSlot R L L' i i' ↔ i = ρ i' := by
    obtain rfl := hF.size
    obtain rfl := hF'.size
    exact (slotPairs hR hL hL' hp.condense hp.bins).equiv
  have hiff : ∀ (y : Fin n → ℝ) (y' : Fin n' → ℝ), SameState R L L' y y' ↔ y' = y ∘ ρ := fun y y' => by
    constructor
    · intro h
      funext k'
      exact (h _ _ ((hρ _ _).2 rfl)).symm
    · rintro rfl k k' hk
      rw [Function.comp_apply, ← (hρ _ _).1 hk]
  obtain rfl := (hiff y0 y0').1 hyy
  obtain ⟨h1, rfl⟩ := hT.rows_renamed hB ρ
    (fun t y => (hiff _ _).1 (hsys t y _ ((hiff _ _).2 rfl))) hs hb hy0 hrun hrun' hex hex'
  refine ⟨h1, ?_⟩
  rw [List.forall₂_map_right_iff]
  exact List.forall₂_same.2 fun y _ => (hiff _ _).2 rfl

/-- **C101**, fixed yields: for any relation that pairs the gas species, with the last ones paired, two simulations
with exact solvers report the same times and the same concentrations. -/
theorem C101_fixed_yield (hR : Pairs R L.numSpecies L'.numSpecies) (hL : GoodLayout L) (hL' : GoodLayout L')
    (hC : PhysConst L C) (hp : SameParticles R L L' C C') (hF : FixedYieldSystem L C F)
    (hF' : FixedYieldSystem L' C' F') (hs : 0 < sim) (hb : 0 < batch) (hy0 : ∀ i, 0 ≤ y0 i)
    (hyy : SameState R L L' y0 y0')
    (hrun : runSimulation id solve zero y0 sim batch = .ok (times, rows))
    (hrun' : runSimulation id solve' zero' y0' sim batch = .ok (times', rows'))
    (hex : ExactBatches F solve batch y0 rows.length) (hex' : ExactBatches F' solve' batch y0' rows'.length) :
    times = times' ∧ List.Forall₂ (SameState R L L') rows rows' := by
  refine hF.mixed.rows_same hF'.mixed (hF.tame hL hC) (hF.boxPieces hL hC) hR hL hL' hp (fun t y y' hy k k' hk => ?_)
    hs hb hy0 hyy hrun hrun' hex hex'
  rw [hF.mixed.entry, hF'.mixed.entry, ite_self, ite_self,
    partition_same hF.1 hF'.1 (condPairs hR hL hL' hp.condense) hL hL' hp hy hk]

end

section

variable {text text' : Str} {m m' : Mechanism} {qs qs' : List RawEqn} {cores cores' : Option ℕ}
  {L L' : Aerosol.Layout} {C C' : AeroConst} {rates rates' : Rates} {start h2o : ℝ} {n n' : ℕ}
  {F : ℝ → (Fin n → ℝ) → Fin n → ℝ} {F' : ℝ → (Fin n' → ℝ) → Fin n' → ℝ}

theorem gasPairs (h : extractMechanism text = .ok m) (hq : Reads text m.equations.toNat qs)
    (h' : extractMechanism text' = .ok m') (hq' : Reads text' m'.equations.toNat qs') (hre : Reordered qs qs')
    (hns : L.numSpecies = m.tables.species.length + 1) (hns' : L'.numSpecies = m'.tables.species.length + 1) :
    Pairs (SameGas m m') L.numSpecies L'.numSpecies := by
  obtain ⟨sp, hsp, -⟩ := index_sum h hq rfl
  obtain ⟨sp', hsp', -⟩ := index_sum h' hq' rfl
  have hlt : ∀ {s i}, m.tables.index.get? s = some i → i < m.tables.species.length := fun hi => (C01_indices h _).1 ⟨_, hi⟩
  have hlt' : ∀ {s i}, m'.tables.index.get? s = some i → i < m'.tables.species.length :=
    fun hi => (C01_indices h' _).1 ⟨_, hi⟩
  have hinj : ∀ {s s' i}, m.tables.index.get? s = some i → m.tables.index.get? s' = some i → s = s' :=
    fun h1 h2 => ((hsp ⟨_, hlt h1⟩ _).1 h1).trans ((hsp ⟨_, hlt h1⟩ _).1 h2).symm
  have hinj' : ∀ {s s' i}, m'.tables.index.get? s = some i → m'.tables.index.get? s' = some i → s = s' :=
    fun h1 h2 => ((hsp' ⟨_, hlt' h1⟩ _).1 h1).trans ((hsp' ⟨_, hlt' h1⟩ _).1 h2).symm
  refine ⟨fun i hi => ?_, fun i' hi' => ?_, fun i i' k' _ _ _ h1 h2 => ?_, fun i k i' _ _ _ h1 h2 => ?_⟩
  · by_cases hl : i < m.tables.species.length
    · obtain ⟨s, hs⟩ := (C01_indices h i).2 hl
      obtain ⟨i', hi'⟩ := (C100_same_species h hq h' hq' hre s).1 ⟨i, hs⟩
      have := hlt' hi'
      exact ⟨i', by omega, .inl ⟨s, hs, hi'⟩⟩
    · exact ⟨m'.tables.species.length, by omega, .inr ⟨by omega, rfl⟩⟩
  · by_cases hl : i' < m'.tables.species.length
    · obtain ⟨s, hs⟩ := (C01_indices h' i').2 hl
      obtain ⟨i, hi⟩ := (C100_same_species h hq h' hq' hre s).2 ⟨i', hs⟩
      have := hlt hi
      exact ⟨i, by omega, .inl ⟨s, hi, hs⟩⟩
    · exact ⟨m.tables.species.length, by omega, .inr ⟨rfl, by omega⟩⟩
  · rcases h1 with ⟨s, a, a'⟩ | ⟨a, a'⟩ <;> rcases h2 with ⟨s', b, b'⟩ | ⟨b, b'⟩
    · obtain rfl := hinj a b
      exact Option.some.inj (a'.symm.trans b')
    · have := hlt a
      omega
    · have := hlt b
      omega
    · omega
  · rcases h1 with ⟨s, a, a'⟩ | ⟨a, a'⟩ <;> rcases h2 with ⟨s', b, b'⟩ | ⟨b, b'⟩
    · obtain rfl := hinj' a' b'
      exact Option.some.inj (a.symm.trans b)
    · have := hlt' a'
      omega
    · have := hlt' b'
      omega
    · omega

/-- **C101**: in states that hold the same for every species in the gas and in every bin, `dydt_func` of both
simulations gives every species the same tendency there. -/
theorem C101_tendencies (h : extractMechanism text = .ok m) (hq : Reads text m.equations.toNat qs)
    (h' : extractMechanism text' = .ok m') (hq' : Reads text' m'.equations.toNat qs') (hre : Reordered qs qs')
    (hns : L.numSpecies = m.tables.species.length + 1) (hns' : L'.numSpecies = m'.tables.species.length + 1)
    (hL : GoodLayout L) (hL' : GoodLayout L') (hp : SameParticles (SameGas m m') L L' C C')
    (hF : AerosolSystem m cores L C rates start h2o F) (hF' : AerosolSystem m' cores' L' C' rates' start h2o F')
    {K : Str → ℝ → ℝ → ℝ} (hK : RatesByText qs rates h2o C.temp K) (hK' : RatesByText qs' rates' h2o C'.temp K)
    (t : ℝ) {y : Fin n → ℝ} {y' : Fin n' → ℝ} (hy : SameState (SameGas m m') L L' y y') :
    SameState (SameGas m m') L L' (F t y) (F' t y') := by
  obtain ⟨sp, hsp, -⟩ := index_sum h hq rfl
  obtain ⟨sp', hsp', -⟩ := index_sum h' hq' rfl
  have hR := gasPairs h hq h' hq' hre hns hns'
  have hlt : ∀ {s i}, m.tables.index.get? s = some i → i < m.tables.species.length := fun hi => (C01_indices h _).1 ⟨_, hi⟩
  have hlt' : ∀ {s i}, m'.tables.index.get? s = some i → i < m'.tables.species.length :=
    fun hi => (C01_indices h' _).1 ⟨_, hi⟩
  refine (hF.mixed h hq hns hsp).tendency_same (hF'.mixed h' hq' hns' hsp') (condPairs hR hL hL' hp.condense) (fun i i' _ _ hi => ?_) hL hL' hp hy
    (fun i i' hi hi' hg => ?_)
  · rcases hi with ⟨s, a, a'⟩ | ⟨a, a'⟩
    · have := hlt a
      have := hlt' a'
      omega
    · omega
  · have hl : i < m.tables.species.length := by omega
    have hl' : i' < m'.tables.species.length := by omega
    obtain ⟨s, a, a'⟩ : ∃ s, m.tables.index.get? s = some i ∧ m'.tables.index.get? s = some i' := by
      rcases hg with hg | ⟨e, -⟩
      · exact hg
      · omega
    unfold gasPart
    rw [dif_pos hl, dif_pos hl', ← (hsp ⟨i, hl⟩ s).1 a, ← (hsp' ⟨i', hl'⟩ s).1 a', ← hp.temp]
    rw [← hp.temp] at hK'
    refine kineticValue_reordered h hq hre (netF_of h hq) (netF_of h' hq') netOfF_same hK hK' t (fun s => ?_) s
    by_cases hs : ∃ i, m.tables.index.get? s = some i
    · obtain ⟨i, hi⟩ := hs
      obtain ⟨i', hi'⟩ := (C100_same_species h hq h' hq' hre s).1 ⟨i, hi⟩
      rw [hi, hi', Option.map_some, Option.map_some]
      have := hlt hi
      have := hlt' hi'
      exact congrArg _ (hy.lookup hF.1 hF'.1 hL hL' hp.bins (.inl ⟨by omega, by omega, .inl ⟨s, hi, hi'⟩⟩))
    · have hs' : ¬ ∃ i, m'.tables.index.get? s = some i := fun hc =>
        hs ((C100_same_species h hq h' hq' hre s).2 hc)
      rw [Option.eq_none_iff_forall_ne_some.2 fun i hi => hs ⟨i, hi⟩,
        Option.eq_none_iff_forall_ne_some.2 fun i hi => hs' ⟨i, hi⟩]
      rfl

/-- **C101**: two simulations with particles and exact solvers, of mechanism files that list the same reactions in
different orders, with the same particles and started with the same concentrations, report the same times and at each
the same concentration of every species in the gas and in every bin. -/
theorem C101_rows (h : extractMechanism text = .ok m) (hq : Reads text m.equations.toNat qs)
    (h' : extractMechanism text' = .ok m') (hq' : Reads text' m'.equations.toNat qs') (hre : Reordered qs qs')
    (hns : L.numSpecies = m.tables.species.length + 1) (hns' : L'.numSpecies = m'.tables.species.length + 1)
    (hL : GoodLayout L) (hL' : GoodLayout L') (hC : PhysConst L C) (hp : SameParticles (SameGas m m') L L' C C')
    (hpos : ∀ q ∈ qs, ∀ p ∈ chemReactants q ++ chemProducts q, 0 < p.1) (hone : WholeReactants qs)
    (hr : PiecewiseRates rates start h2o C.temp)
    (hF : AerosolSystem m cores L C rates start h2o F) (hF' : AerosolSystem m' cores' L' C' rates' start h2o F')
    {K : Str → ℝ → ℝ → ℝ} (hK : RatesByText qs rates h2o C.temp K) (hK' : RatesByText qs' rates' h2o C'.temp K)
    {solve : (Fin n → ℝ) → ℚ → Fin n → ℝ} {solve' : (Fin n' → ℝ) → ℚ → Fin n' → ℝ} {sim batch : ℚ}
    {zero y0 : Fin n → ℝ} {zero' y0' : Fin n' → ℝ}
    {times times' : List ℚ} {rows : List (Fin n → ℝ)} {rows' : List (Fin n' → ℝ)}
    (hs : 0 < sim) (hb : 0 < batch) (hy0 : ∀ i, 0 ≤ y0 i) (hyy : SameState (SameGas m m') L L' y0 y0')
    (hrun : runSimulation id solve zero y0 sim batch = .ok (times, rows))
    (hrun' : runSimulation id solve' zero' y0' sim batch = .ok (times', rows'))
    (hex : ExactBatches F solve batch y0 rows.length) (hex' : ExactBatches F' solve' batch y0' rows'.length) :
    times = times' ∧ List.Forall₂ (SameState (SameGas m m') L L') rows rows' := by
  obtain ⟨sp, hsp, -⟩ := index_sum h hq rfl
  obtain ⟨sp', hsp', -⟩ := index_sum h' hq' rfl
  exact (hF.mixed h hq hns hsp).rows_same (hF'.mixed h' hq' hns' hsp') (hF.tame h hq hns hL hC hpos hone hr.regular)
    (hF.boxPieces h hq hns hL hC hone hr) (gasPairs h hq h' hq' hre hns hns') hL hL' hp
    (fun t y y' hy => C101_tendencies h hq h' hq' hre hns hns' hL hL' hp hF hF' hK hK' t hy)
    hs hb hy0 hyy hrun hrun' hex hex'

variable {conv : ℕ} {num num' : ℚ → Str} {f f' : AeroFiles} {junk junk' : Vals} {M : ℝ → (ℕ → ℝ) → Machine L}
  {M' : ℝ → (ℕ → ℝ) → Machine L'}

/-- **C101**: the same for the systems given by the texts of the generated files, whatever the numbers of cores, the
printed coefficients, the memory, threads and orders of execution. -/
theorem C101_files (h : extractMechanism text = .ok m) (hq : Reads text m.equations.toNat qs)
    (h' : extractMechanism text' = .ok m') (hq' : Reads text' m'.equations.toNat qs') (hre : Reordered qs qs')
    (hns : L.numSpecies = m.tables.species.length + 1) (hns' : L'.numSpecies = m'.tables.species.length + 1)
    (hL : GoodLayout L) (hL' : GoodLayout L') (hc : 1 ≤ L.numCond) (hC : PhysConst L C)
    (hp : SameParticles (SameGas m m') L L' C C')
    (hpos : ∀ q ∈ qs, ∀ p ∈ chemReactants q ++ chemProducts q, 0 < p.1) (hone : WholeReactants qs)
    (hw : Prints num id m.tables) (hw' : Prints num' id m'.tables)
    (hf : f.WrittenFor m cores conv num L) (hf' : f'.WrittenFor m' cores' conv num' L')
    (hread : ReadableRates .fortran ((convertOf .fortran)^[conv]) qs)
    (hnn : NonnegRates .fortran ((convertOf .fortran)^[conv]) qs h2o C.temp)
    (hM : ∀ t y, (M t y).Orderly) (hM' : ∀ t y, (M' t y).Orderly)
    (hF : FileSystem f m L C junk M start h2o F) (hF' : FileSystem f' m' L' C' junk' M' start h2o F')
    {solve : (Fin n → ℝ) → ℚ → Fin n → ℝ} {solve' : (Fin n' → ℝ) → ℚ → Fin n' → ℝ} {sim batch : ℚ}
    {zero y0 : Fin n → ℝ} {zero' y0' : Fin n' → ℝ}
    {times times' : List ℚ} {rows : List (Fin n → ℝ)} {rows' : List (Fin n' → ℝ)}
    (hs : 0 < sim) (hb : 0 < batch) (hy0 : ∀ i, 0 ≤ y0 i) (hyy : SameState (SameGas m m') L L' y0 y0')
    (hrun : runSimulation id solve zero y0 sim batch = .ok (times, rows))
    (hrun' : runSimulation id solve' zero' y0' sim batch = .ok (times', rows'))
    (hex : ExactBatches F solve batch y0 rows.length) (hex' : ExactBatches F' solve' batch y0' rows'.length) :
    times = times' ∧ List.Forall₂ (SameState (SameGas m m') L L') rows rows' := by
  have hread' : ReadableRates .fortran ((convertOf .fortran)^[conv]) qs' := fun q' hqm' => by
    obtain ⟨q, hqm, hsame⟩ := hre.right hqm'
    rw [← hsame.rate]
    exact hread q hqm
  have hc' : 1 ≤ L'.numCond := by
    obtain ⟨j', hj', -⟩ := (condPairs (gasPairs h hq h' hq' hre hns hns') hL hL' hp.condense).left 0 hc
    omega
  obtain ⟨p, hpr, -⟩ := C66_value h hq (b := .fortran) (by decide) cores hread
  obtain ⟨p', hpr', -⟩ := C66_value h' hq' (b := .fortran) (by decide) cores' hread'
  have hA := ((C72_system h hw hL hc hf (hf.rates ▸ hpr) hM).1 hF).congr h hq hns
    (rates' := generatedRates .fortran p fun _ => 0) fun t r e he =>
      fortran_rates_eq h hq hread hpr hpr junk (fun _ => 0) t r h2o C.temp he
  have hA' := (C72_system h' hw' hL' hc' hf' (hf'.rates ▸ hpr') hM').1 hF'
  exact C101_rows h hq h' hq' hre hns hns' hL hL' hC hp hpos hone
    (C66_piecewise h hq (by decide) hread hpr (fun _ => le_refl _) start hnn) hA hA'
    (generated_by_text h hq (by decide) hread hpr _ h2o C.temp)
    (by rw [← hp.temp]; exact generated_by_text h' hq' (by decide) hread' hpr' _ h2o C.temp)
    hs hb hy0 hyy hrun hrun' hex hex'

end

/-! ## A case the theorems apply to -/

/-- `radicalText` with two bins, where formaldehyde, nitrogen dioxide and water condense. -/
def threeLayout : Aerosol.Layout := ⟨2, 6, 3, [2, 3, 5]⟩

/-- The same for `swappedText`: nitrogen dioxide comes first. -/
def swappedLayout : Aerosol.Layout := ⟨2, 6, 3, [0, 4, 5]⟩

/-- Constants with different molar masses and vapour pressures. -/
noncomputable def threeConst : AeroConst :=
  { waterConst with mw := fun j => [30, 46, 18].getD j 1, satVp := fun j => [1, 2].getD j 7 }

noncomputable def swappedConst : AeroConst :=
  { waterConst with mw := fun j => [46, 30, 18].getD j 1, satVp := fun j => [2, 1].getD j 8 }

theorem threeLayout_good : GoodLayout threeLayout := ⟨rfl, by decide, by decide⟩

theorem swappedLayout_good : GoodLayout swappedLayout := ⟨rfl, by decide, by decide⟩

theorem three_species : threeLayout.numSpecies = (build radicalReactions).species.length + 1 := by decide +kernel

theorem swapped_species : swappedLayout.numSpecies = (build swappedReactions).species.length + 1 := by decide +kernel

theorem three_mw {j : ℕ} (hj : j < 3) : 0 < ([30, 46, 18] : List ℝ).getD j 1 ∧ 0 < ([46, 30, 18] : List ℝ).getD j 1 := by
  interval_cases j <;> norm_num

theorem threeConst_phys : PhysConst threeLayout threeConst := by
  have h := waterConst_phys threeLayout
  constructor <;> first | exact h.1 | skip
  all_goals first | (intro j hj; exact (three_mw hj).1) | ((try intro _ _); norm_num [threeConst, waterConst])

theorem swappedConst_phys : PhysConst swappedLayout swappedConst := by
  have h := waterConst_phys swappedLayout
  constructor <;> first | exact h.1 | skip
  all_goals first | (intro j hj; exact (three_mw hj).2) | ((try intro _ _); norm_num [swappedConst, waterConst])

abbrev radicalMechanism : Mechanism := ⟨build radicalReactions, 2⟩

abbrev swappedMechanism : Mechanism := ⟨build swappedReactions, 2⟩

theorem swapped_gasPairs : Pairs (SameGas radicalMechanism swappedMechanism) 6 6 :=
  gasPairs (L := threeLayout) (L' := swappedLayout) radical_parses radical_reads swapped_parses swapped_reads
    swapped_reordered three_species swapped_species

/-- The place of every gas in the other simulation. -/
theorem swapped_gas {i i' : ℕ} (hi : i < 6) (hi' : i' < 6) (h : SameGas radicalMechanism swappedMechanism i i') :
    i' = [3, 2, 4, 0, 1, 5].getD i 0 := by
  have hu := fun k' (hk : k' < 6) hR => swapped_gasPairs.unique i i' k' hi hi' hk h hR
  interval_cases i
  · exact hu 3 (by omega) (.inl ⟨"CH3O2".toList, by decide +kernel, by decide +kernel⟩)
  · exact hu 2 (by omega) (.inl ⟨"NO".toList, by decide +kernel, by decide +kernel⟩)
  · exact hu 4 (by omega) (.inl ⟨"HCHO".toList, by decide +kernel, by decide +kernel⟩)
  · exact hu 0 (by omega) (.inl ⟨"NO2".toList, by decide +kernel, by decide +kernel⟩)
  · exact hu 1 (by omega) (.inl ⟨"O".toList, by decide +kernel, by decide +kernel⟩)
  · exact hu 5 (by omega) (.inr ⟨by decide +kernel, by decide +kernel⟩)

theorem swapped_cond {j j' : ℕ} (h : SameCond (SameGas radicalMechanism swappedMechanism) threeLayout swappedLayout j j') :
    (j = 0 ∧ j' = 1) ∨ (j = 1 ∧ j' = 0) ∨ (j = 2 ∧ j' = 2) := by
  have hlt := h.lt threeLayout_good swappedLayout_good
  obtain ⟨i, i', h1, h2, h3⟩ := h
  have e := swapped_gas (threeLayout_good.valid _ (List.mem_of_getElem? h1))
    (swappedLayout_good.valid _ (List.mem_of_getElem? h2)) h3
  obtain ⟨a, b⟩ := hlt
  simp only [threeLayout, swappedLayout] at a b h1 h2
  interval_cases j <;> interval_cases j' <;> simp at h1 h2 <;> subst h1 <;> subst h2 <;> simp at e <;> simp

theorem swapped_lt {i i' : ℕ} (h : SameGas radicalMechanism swappedMechanism i i') : i < 6 ∧ i' < 6 := by
  have e : (build radicalReactions).species.length = 5 := by decide +kernel
  have e' := swapped_five
  rcases h with ⟨s, a, a'⟩ | ⟨a, a'⟩
  · have h1 := (C01_indices radical_parses i).1 ⟨s, a⟩
    have h2 := (C01_indices swapped_parses i').1 ⟨s, a'⟩
    dsimp only at h1 h2
    omega
  · dsimp only at a a'
    omega

theorem swapped_particles :
    SameParticles (SameGas radicalMechanism swappedMechanism) threeLayout swappedLayout threeConst swappedConst where
  bins := rfl
  condense i i' h := by
    obtain ⟨a, b⟩ := swapped_lt h
    have e := swapped_gas a b h
    subst e
    interval_cases i <;> decide
  last j j' h := by
    rcases swapped_cond h with ⟨rfl, rfl⟩ | ⟨rfl, rfl⟩ | ⟨rfl, rfl⟩ <;> decide
  ycore _ _ := rfl
  coreMw _ _ := rfl
  coreDensity _ _ := rfl
  nPerBin _ _ := rfl
  densityInput _ _ _ := rfl
  dStar _ _ _ := rfl
  alpha _ _ _ := rfl
  gamma _ _ _ := rfl
  mw j j' h := by
    rcases swapped_cond h with ⟨rfl, rfl⟩ | ⟨rfl, rfl⟩ | ⟨rfl, rfl⟩ <;> rfl
  satVp j j' h hl := by
    rcases swapped_cond h with ⟨rfl, rfl⟩ | ⟨rfl, rfl⟩ | ⟨rfl, rfl⟩
    · rfl
    · rfl
    · exact absurd rfl hl
  coreDiss := rfl
  sigma := rfl
  na := rfl
  rGas := rfl
  temp := rfl

theorem swapped_sameNet : SameNet ⟨build swappedReactions, 2⟩ := by
  have h1 : ∀ l ∈ [(build swappedReactions).gain, (build swappedReactions).loss],
      ∀ p ∈ l, ∀ r ∈ p.2, r.2 = 1 := by decide +kernel
  have h2 : ∀ (l : Dict Str (Dict ℕ ℚ)) s e, (∀ p ∈ l, ∀ r ∈ p.2, r.2 = 1) →
      altered (cell l s e) = false := by
    intro l s e hl
    cases hc : cell l s e with
    | none => rfl
    | some c =>
      unfold cell at hc
      cases hd : l.get? s with
      | none =>
        unfold Dict.getD at hc
        rw [hd] at hc
        cases hc
      | some d =>
        rw [getD_of_get? hd] at hc
        have := hl _ (Dict.mem_of_get?_eq_some hd) _ (Dict.mem_of_get?_eq_some hc)
        simp only at this
        simp [altered, this]
  intro s i e _ _
  exact (h2 _ s e (h1 _ (by simp))).trans (h2 _ s e (h1 _ (by simp))).symm

theorem written_aerosol {text : Str} {m : Mechanism} (h : extractMechanism text = .ok m) (hw : AllWritten m)
    (hr : ∃ s ∈ ro2Names, (m.tables.index.get? s).isSome) (cores : Option ℕ) (L : Aerosol.Layout)
    (hns : L.numSpecies = m.tables.species.length + 1) (C : AeroConst) (rates : Rates) (start h2o : ℝ) {n : ℕ}
    (hn : n = L.numSpecies + L.numBins * L.numCond) :
    ∃ F : ℝ → (Fin n → ℝ) → Fin n → ℝ, AerosolSystem m cores L C rates start h2o F := by
  have hsome : ∀ time y, (aerosolRhs m.tables m.equations.toNat cores L C (ro2Indices m.tables.index) rates start h2o
      time y).isSome := by
    intro time y
    refine (C57_defined h cores L hns C rates start h2o time y).2 ?_
    unfold dydtFuncF
    rw [ro2Total_some (radicals_ne hr), Option.bind_some]
    exact (gasRhsF_isSome h _ _ _ _ _ _).2 hw
  exact ⟨fun t y i => (aerosolRhs m.tables m.equations.toNat cores L C (ro2Indices m.tables.index) rates start h2o
      t (stateOf y)).get (hsome _ _) i,
    hn, fun t y => ⟨_, (Option.some_get (hsome t (stateOf y))).symm, fun _ => rfl⟩⟩

/-- All hypotheses are met by `radicalText` and `swappedText` with two bins and three condensing species: both
systems exist, both have exact solvers, and two simulations started with the same concentrations report the same
concentrations in the gas and in the bins. -/
theorem swapped_aerosol_run (cores cores' : Option ℕ) :
    ∃ (F F' : ℝ → (Fin 12 → ℝ) → Fin 12 → ℝ) (solve solve' : (Fin 12 → ℝ) → ℚ → Fin 12 → ℝ),
      AerosolSystem radicalMechanism cores threeLayout threeConst wavyRates 0 0 F ∧
      AerosolSystem swappedMechanism cores' swappedLayout swappedConst wavyRates 0 0 F' ∧
      ∀ y0 : Fin 12 → ℝ, (∀ i, 0 ≤ y0 i) → ∀ y0' : Fin 12 → ℝ, (∀ i, 0 ≤ y0' i) →
        SameState (SameGas radicalMechanism swappedMechanism) threeLayout swappedLayout y0 y0' →
        (∀ k, ExactBatches F solve 60 y0 k) ∧ (∀ k, ExactBatches F' solve' 60 y0' k) ∧
        ∃ rows rows', runSimulation id solve (fun _ => 0) y0 (((2 : ℕ) : ℚ) * 60) 60 = .ok ([60, 120], rows) ∧
          runSimulation id solve' (fun _ => 0) y0' (((2 : ℕ) : ℚ) * 60) 60 = .ok ([60, 120], rows') ∧
          List.Forall₂ (SameState (SameGas radicalMechanism swappedMechanism) threeLayout swappedLayout) rows rows' := by
  have hg : ∀ q ∈ radicalReactions, GainGood q := fun q hq => (radical_regular q hq).gain
  have hg' : ∀ q ∈ swappedReactions, GainGood q := by decide +kernel
  have hro : ∃ s ∈ ro2Names, (radicalMechanism.tables.index.get? s).isSome := ⟨"CH3O2".toList, by decide +kernel⟩
  have hro' : ∃ s ∈ ro2Names, (swappedMechanism.tables.index.get? s).isSome := ⟨"CH3O2".toList, by decide +kernel⟩
  have hpos' : (∀ q ∈ swappedReactions, ∀ p ∈ chemReactants q ++ chemProducts q, 0 < p.1) ∧
      (∀ q ∈ swappedReactions, ∀ s ∈ names (chemReactants q), 1 ≤ coef (chemReactants q) s) := by decide +kernel
  obtain ⟨F, hF⟩ := written_aerosol radical_parses (allWritten_of_good radical_parses radical_reads hg) hro cores
    threeLayout three_species threeConst wavyRates 0 0 (n := 12) rfl
  obtain ⟨F', hF'⟩ := written_aerosol swapped_parses (allWritten_of_good swapped_parses swapped_reads hg') hro' cores'
    swappedLayout swapped_species swappedConst wavyRates 0 0 (n := 12) rfl
  obtain ⟨solve, hs⟩ := C64_exists radical_parses radical_reads radical_sameNet.less threeLayout_good
    threeConst_phys three_species (by decide) radical_positive.1 radical_positive.2 radical_weights
    (wavyRates_smooth 0 0 _).piecewise hF (batch := 60) (by norm_num)
  obtain ⟨solve', hs'⟩ := C64_exists swapped_parses swapped_reads swapped_sameNet.less swappedLayout_good
    swappedConst_phys swapped_species (by decide) hpos'.1 hpos'.2 swapped_weights
    (wavyRates_smooth 0 0 _).piecewise hF' (batch := 60) (by norm_num)
  refine ⟨F, F', solve, solve', hF, hF', fun y0 hy0 y0' hy0' hyy => ⟨hs y0 hy0, hs' y0' hy0', ?_⟩⟩
  have hrun := C32_C33_whole_batches (n := 2) (batch := 60) (by norm_num) (by norm_num)
    (exact_id 60 2) solve (fun _ => 0) y0
  have hrun' := C32_C33_whole_batches (n := 2) (batch := 60) (by norm_num) (by norm_num)
    (exact_id 60 2) solve' (fun _ => 0) y0'
  have ht : (List.range 2).map (fun k : ℕ => ((k : ℚ) + 1) * 60) = [60, 120] := by decide +kernel
  rw [ht] at hrun hrun'
  exact ⟨_, _, hrun, hrun', (C101_rows (K := fun _ t r => 2 + Real.sin t + |r|) radical_parses radical_reads
    swapped_parses swapped_reads swapped_reordered three_species swapped_species threeLayout_good swappedLayout_good
    threeConst_phys swapped_particles radical_positive.1 radical_positive.2 (wavyRates_smooth 0 0 _).piecewise hF hF'
    (fun _ _ _ _ _ => rfl) (fun _ _ _ _ _ => rfl) (by norm_num) (by norm_num) hy0 hyy hrun hrun' (hs y0 hy0 _)
    (hs' y0' hy0' _)).2⟩

end PyBox
