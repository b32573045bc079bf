import Verif.Props.Presence
import Verif.Props.YieldDriver

/-!
# C79: which species the gas and the particles of a simulation contain

With an exact solver, in the results of a simulation with particles a species that can condense is there
in the gas and in every bin, or nowhere.
-/

namespace PyBox

open Set Spec Aerosol

namespace Spec

/-- In the results `y`, gas species `s` is there in the gas and, if it can condense, in every bin,
exactly if `p` holds. -/
def ThereIff (L : Aerosol.Layout) (y : ℕ → ℝ) (s : ℕ) (p : Prop) : Prop :=
  (0 < y s ↔ p) ∧ ∀ j, L.incl[j]? = some s → ∀ b < L.numBins, (0 < y (L.numSpecies + b * L.numCond + j) ↔ p)

end Spec

/-! ## The exchange of single species -/

section

variable {L : Aerosol.Layout} {C : AeroConst}

theorem Spec.PhysConst.kTransfer_pos (hC : PhysConst L C) {y : ℕ → ℝ} (hy : ∀ i, 0 ≤ y i) {b j : ℕ}
    (hb : b < L.numBins) (hj : j < L.numCond) : 0 < kTransfer L (partArgs L C y) (b + 1) (j + 1) := by
  have hP := hC.physical hy hb
  have h1 := (C40_routine L (partArgs L C y) b j hP hj).1
  have h2 := hP.size_pos
  have h3 := hP.number
  have h4 := hP.diff j hj
  have h5 := fPi_pos
  unfold kTransfer kPart1
  positivity

/-- A species that is in the gas and not in a bin condenses. -/
theorem Spec.PhysConst.condenses (hC : PhysConst L C) {y : ℕ → ℝ} (hy : ∀ i, 0 ≤ y i) {b j s : ℕ}
    (hb : b < L.numBins) (hj : j < L.numCond) (hjs : L.incl[j]? = some s)
    (h0 : y (L.numSpecies + b * L.numCond + j) = 0) (hs : 0 < y s) :
    0 < dmDt L (partArgs L C y) (b + 1) (j + 1) := by
  unfold dmDt
  rw [cgas_partArgs y hjs, cStar_partArgs, h0]
  refine mul_pos (hC.kTransfer_pos hy hb hj) ?_
  simpa using hs

/-- A species that is in a bin and not in the gas evaporates. -/
theorem Spec.PhysConst.evaporates (hC : PhysConst L C) {y : ℕ → ℝ} (hy : ∀ i, 0 ≤ y i) {b j s : ℕ}
    (hb : b < L.numBins) (hj : j < L.numCond) (hjs : L.incl[j]? = some s) (h0 : y s = 0)
    (hs : 0 < y (L.numSpecies + b * L.numCond + j)) :
    dmDt L (partArgs L C y) (b + 1) (j + 1) < 0 := by
  unfold dmDt
  rw [cgas_partArgs y hjs, h0, zero_sub]
  refine mul_neg_of_pos_of_neg (hC.kTransfer_pos hy hb hj) (neg_neg_of_pos ?_)
  rw [cStar_partArgs]
  have h1 := hC.totalMoles_pos hy hb
  have h3 := psat_water_pos L C j
  have h4 := hC.na
  have h5 := hC.temp
  have h6 : 0 < kelvin L (partArgs L C y) (b + 1) (j + 1) := Real.exp_pos _
  positivity

/-- A species that is neither in the gas nor in a bin is not exchanged. -/
theorem dmDt_zero {y : ℕ → ℝ} {b j s : ℕ} (hjs : L.incl[j]? = some s) (h0 : y s = 0)
    (h1 : y (L.numSpecies + b * L.numCond + j) = 0) :
    dmDt L (partArgs L C y) (b + 1) (j + 1) = 0 := by
  unfold dmDt
  rw [cgas_partArgs y hjs, cStar_partArgs, h0, h1]
  simp

end

/-! ## Exchange and chemistry -/

/-- The gas species an entry of the state belongs to. -/
def slotOwner (L : Aerosol.Layout) (i : ℕ) : ℕ :=
  if i < L.numSpecies then i else L.incl.getD ((i - L.numSpecies) % L.numCond) 0

theorem slotOwner_gas {L : Aerosol.Layout} {i : ℕ} (h : i < L.numSpecies) : slotOwner L i = i := if_pos h

theorem slotOwner_slot {L : Aerosol.Layout} (hL : GoodLayout L) {b j s : ℕ} (hjs : L.incl[j]? = some s) :
    slotOwner L (L.numSpecies + b * L.numCond + j) = s := by
  obtain ⟨hj, -⟩ := List.getElem?_eq_some_iff.1 hjs
  have hj' : j < L.numCond := hL.len ▸ hj
  unfold slotOwner
  rw [if_neg (by omega)]
  have : (L.numSpecies + b * L.numCond + j - L.numSpecies) % L.numCond = j := by
    rw [show L.numSpecies + b * L.numCond + j - L.numSpecies = j + b * L.numCond by omega,
      Nat.add_mul_mod_self_right, Nat.mod_eq_of_lt hj']
  rw [this, List.getD_eq_getElem?_getD, hjs]
  rfl

section Mixed

variable {L : Aerosol.Layout} {C : AeroConst} {G : ℝ → (ℕ → ℝ) → ℕ → ℝ} {n : ℕ}
  {F : ℝ → (Fin n → ℝ) → Fin n → ℝ}

/-- What there is of a species in all phases is positive if one entry is. -/
theorem allPhases_pos {y : ℕ → ℝ} {s : ℕ} (h : 0 < allPhases L y s) :
    0 < y s ∨ ∃ j b, j < L.numCond ∧ L.incl[j]? = some s ∧ b < L.numBins ∧
      0 < y (L.numSpecies + b * L.numCond + j) := by
  by_contra hn
  push Not at hn
  obtain ⟨h1, h2⟩ := hn
  unfold allPhases at h
  have : ∑ j ∈ Finset.range L.numCond, (if L.incl[j]? = some s then
      ∑ b ∈ Finset.range L.numBins, y (L.numSpecies + b * L.numCond + j) else 0) ≤ 0 := by
    refine Finset.sum_nonpos fun j hj => ?_
    split
    · rename_i hjs
      exact Finset.sum_nonpos fun b hb => h2 j b (Finset.mem_range.1 hj) hjs (Finset.mem_range.1 hb)
    · exact le_rfl
  linarith

theorem allPhases_of_gas {y : ℕ → ℝ} (hy : ∀ i, 0 ≤ y i) {s : ℕ} (h : 0 < y s) : 0 < allPhases L y s := by
  unfold allPhases
  refine add_pos_of_pos_of_nonneg h (Finset.sum_nonneg fun j _ => ?_)
  split
  · exact Finset.sum_nonneg fun b _ => hy _
  · exact le_rfl

theorem allPhases_of_slot {y : ℕ → ℝ} (hy : ∀ i, 0 ≤ y i) {s b j : ℕ} (hj : j < L.numCond)
    (hjs : L.incl[j]? = some s) (hb : b < L.numBins) (h : 0 < y (L.numSpecies + b * L.numCond + j)) :
    0 < allPhases L y s := by
  unfold allPhases
  refine add_pos_of_nonneg_of_pos (hy s) (Finset.sum_pos' (fun j _ => ?_) ⟨j, Finset.mem_range.2 hj, ?_⟩)
  · split
    · exact Finset.sum_nonneg fun b _ => hy _
    · exact le_rfl
  · rw [if_pos hjs]
    exact Finset.sum_pos' (fun b _ => hy _) ⟨b, Finset.mem_range.2 hb, h⟩

theorem MixedSystem.entry_gas (hF : MixedSystem L C G F) (hL : GoodLayout L) (t : ℝ) (z : Fin n → ℝ)
    (i : Fin n) {j s : ℕ} (hi : (i : ℕ) = s) (hjs : L.incl[j]? = some s) :
    F t z i = (if s < L.numSpecies - 1 then G t (stateOf z) s else 0)
      - ∑ b ∈ Finset.range L.numBins, dmDt L (partArgs L C (stateOf z)) (b + 1) (j + 1) := by
  subst hi
  obtain ⟨hj, hji⟩ := List.getElem?_eq_some_iff.1 hjs
  rw [hF.entry, sub_eq_add_neg]
  congr 1
  have := C36_exchange L (partArgs L C (stateOf z)) hL j hj
  rw [hji] at this
  rw [this]
  congr 1
  exact Finset.sum_congr rfl fun b hb => partition_slot L _ b j (Finset.mem_range.1 hb) (hL.len ▸ hj)

theorem MixedSystem.entry_slot (hF : MixedSystem L C G F) (t : ℝ) (z : Fin n → ℝ) (i : Fin n) {b j : ℕ}
    (hb : b < L.numBins) (hj : j < L.numCond) (hi : (i : ℕ) = L.numSpecies + b * L.numCond + j) :
    F t z i = dmDt L (partArgs L C (stateOf z)) (b + 1) (j + 1) := by
  rw [hF.entry, if_neg (by omega), zero_add, hi, partition_slot L _ b j hb hj]

/-- The species there in the results, for a chemistry with the property `Pres`. -/
theorem MixedSystem.present (hF : MixedSystem L C G F) (hL : GoodLayout L) (hC : PhysConst L C)
    (hT : Tame F) (hB : BoxPieces F)
    (hquasi : ∀ i < L.numSpecies - 1, ∀ t (y : ℕ → ℝ), (∀ i, 0 ≤ y i) → y i = 0 → 0 ≤ G t y i)
    {solve : (Fin n → ℝ) → ℚ → Fin n → ℝ} {sim batch : ℚ} (hs : 0 < sim) (hb : 0 < batch)
    {zero y0 : Fin n → ℝ} (hy0 : ∀ i, 0 ≤ y0 i) {times : List ℚ} {rows : List (Fin n → ℝ)}
    (hrun : runSimulation id solve zero y0 sim batch = .ok (times, rows))
    (hex : ExactBatches F solve batch y0 rows.length) {Pres : ℕ → Prop}
    (hstart : ∀ s < L.numSpecies, 0 < allPhases L (stateOf y0) s → Pres s)
    {a c : ℝ} (ha : 0 ≤ a) (hac : a < c) (hcb : c ≤ batch)
    (hreach : ∀ Q : ℕ → Prop, (∀ s < L.numSpecies, 0 < allPhases L (stateOf y0) s → Q s) →
      (∀ s < L.numSpecies - 1, (∀ t ∈ Ioo a c, ∀ y : ℕ → ℝ, (∀ j, 0 ≤ y j) →
        (∀ r < L.numSpecies, Q r → 0 < y r) → y s = 0 → 0 < G t y s) → Q s) →
      ∀ s < L.numSpecies, Pres s → Q s)
    (hclosed : ∀ t ∈ Ico (0 : ℝ) batch, ∀ y : ℕ → ℝ, (∀ j, 0 ≤ y j) →
      (∀ r < L.numSpecies, ¬ Pres r → y r = 0) → ∀ s < L.numSpecies - 1, ¬ Pres s → G t y s ≤ 0)
    {row : Fin n → ℝ} (hrow : row ∈ rows) {s : ℕ} (hlt : s < L.numSpecies) :
    ThereIff L (stateOf row) s (Pres s) := by
  have hsize := hF.size
  have hgas : ∀ s < L.numSpecies, s < n := fun s h => by omega
  have hslot : ∀ b j, b < L.numBins → j < L.numCond → L.numSpecies + b * L.numCond + j < n := by
    intro b j hb' hj
    have : (b + 1) * L.numCond ≤ L.numBins * L.numCond := Nat.mul_le_mul_right _ hb'
    rw [Nat.add_mul, Nat.one_mul] at this
    omega
  have hlen : ∀ {j s : ℕ}, L.incl[j]? = some s → j < L.numCond ∧ s < L.numSpecies := by
    intro j s hjs
    obtain ⟨hj, -⟩ := List.getElem?_eq_some_iff.1 hjs
    exact ⟨hL.len ▸ hj, hL.valid _ (List.mem_of_getElem? hjs)⟩
  -- every entry is a gas species or a slot
  have hcases : ∀ i : Fin n, (i : ℕ) < L.numSpecies ∨ ∃ b j s, b < L.numBins ∧ j < L.numCond ∧
      L.incl[j]? = some s ∧ (i : ℕ) = L.numSpecies + b * L.numCond + j := by
    intro i
    rcases C38_layout L.numSpecies L.numCond L.numBins i (hF.size ▸ i.2) with
      ⟨h1, -⟩ | ⟨-, ⟨b, j⟩, ⟨h1, h2, h3⟩, -⟩
    · exact Or.inl h1
    · simp only at h1 h2 h3
      have hj : j < L.incl.length := hL.len.symm ▸ h2
      exact Or.inr ⟨b, j, _, h1, h2, List.getElem?_eq_getElem hj, h3⟩
  have key := hT.rows_present hB hs hb hy0 hrun hex (P := fun i => Pres (slotOwner L i))
    (fun i hi => ?_) ha hac hcb (fun Q hQ hstep => ?_) (fun t ht y hy hz i hi => ?_) row hrow
  · constructor
    · have := key ⟨s, hgas s hlt⟩
      rw [slotOwner_gas hlt] at this
      rwa [← stateOf_fin row] at this
    · intro j hjs b hb'
      have := key ⟨_, hslot b j hb' (hlen hjs).1⟩
      rw [slotOwner_slot hL hjs] at this
      rwa [← stateOf_fin row] at this
  · -- the start
    have hpos : 0 < stateOf y0 i := by rw [stateOf_fin]; exact hi
    rcases hcases i with h1 | ⟨b, j, s, hb', hj, hjs, hi'⟩
    · rw [slotOwner_gas h1]
      exact hstart _ h1 (allPhases_of_gas (stateOf_nonneg hy0) hpos)
    · rw [hi', slotOwner_slot hL hjs]
      rw [hi'] at hpos
      exact hstart _ (hlen hjs).2 (allPhases_of_slot (stateOf_nonneg hy0) hj hjs hb' hpos)
  · -- what can be made
    have hdown : ∀ i k : Fin n, ∀ b j, b < L.numBins → L.incl[j]? = some (i : ℕ) →
        (k : ℕ) = L.numSpecies + b * L.numCond + j → Q i → Q k := by
      intro i k b j hb' hjs hk hi
      refine hstep k fun t _ y hy hQy h0 => ?_
      rw [hF.entry_slot t y k hb' (hlen hjs).1 hk]
      refine hC.condenses (stateOf_nonneg hy) hb' (hlen hjs).1 hjs ?_ ?_
      · rw [← hk, stateOf_fin, h0]
      · rw [stateOf_fin]; exact hQy i hi
    have hup : ∀ i k : Fin n, ∀ b j, b < L.numBins → L.incl[j]? = some (i : ℕ) →
        (k : ℕ) = L.numSpecies + b * L.numCond + j → Q k → Q i := by
      intro i k b j hb' hjs hk hi
      refine hstep i fun t _ y hy hQy h0 => ?_
      have hy' := stateOf_nonneg hy
      have h0' : stateOf y i = 0 := by rw [stateOf_fin, h0]
      rw [hF.entry_gas hL t y i rfl hjs]
      have hneg : ∑ b ∈ Finset.range L.numBins, dmDt L (partArgs L C (stateOf y)) (b + 1) (j + 1) < 0 := by
        have := Finset.sum_lt_sum (s := Finset.range L.numBins)
          (f := fun b => dmDt L (partArgs L C (stateOf y)) (b + 1) (j + 1)) (g := fun _ => 0)
          (fun b hb => hC.no_condensation hy' (Finset.mem_range.1 hb) (hlen hjs).1 hjs h0')
          ⟨b, Finset.mem_range.2 hb', hC.evaporates hy' hb' (hlen hjs).1 hjs h0' (by
            rw [← hk, stateOf_fin]; exact hQy k hi)⟩
        simpa using this
      have hch : 0 ≤ (if (i : ℕ) < L.numSpecies - 1 then G t (stateOf y) i else 0) := by
        split
        · exact hquasi i (by assumption) t _ hy' h0'
        · exact le_rfl
      linarith
    have hall : ∀ s (h : s < L.numSpecies), Q ⟨s, hgas s h⟩ → ∀ i : Fin n, slotOwner L i = s → Q i := by
      intro s h hq i hi
      rcases hcases i with h1 | ⟨b, j, s', hb', hj, hjs, hi'⟩
      · rw [slotOwner_gas h1] at hi
        have : i = ⟨s, hgas s h⟩ := Fin.ext hi
        rw [this]; exact hq
      · rw [hi', slotOwner_slot hL hjs] at hi
        subst hi
        exact hdown ⟨s', hgas s' h⟩ i b j hb' hjs hi' hq
    have howner : ∀ i : Fin n, slotOwner L i < L.numSpecies := by
      intro i
      rcases hcases i with h1 | ⟨b, j, s', hb', hj, hjs, hi'⟩
      · rw [slotOwner_gas h1]; exact h1
      · rw [hi', slotOwner_slot hL hjs]; exact (hlen hjs).2
    intro i hi
    refine hreach (fun s => ∀ i : Fin n, slotOwner L i = s → Q i) (fun s h h0 => ?_)
      (fun s h hmade => ?_) _ (howner i) hi i rfl
    · refine hall s h ?_
      rcases allPhases_pos h0 with h1 | ⟨j, b, hj, hjs, hb', h1⟩
      · refine hQ _ ?_
        rwa [← stateOf_fin y0]
      · refine hup ⟨s, hgas s h⟩ ⟨_, hslot b j hb' hj⟩ b j hb' hjs rfl (hQ _ ?_)
        rwa [← stateOf_fin y0]
    · have h' : s < L.numSpecies := by omega
      refine hall s h' (hstep _ fun t ht y hy hQy h0 => ?_)
      have hy' := stateOf_nonneg hy
      have h0' : stateOf y s = 0 := (stateOf_fin y ⟨s, hgas s h'⟩).trans h0
      have hG : 0 < G t (stateOf y) s := hmade t ht _ hy' (fun r hr hQr => by
        have := hQy ⟨r, hgas r hr⟩ (hQr ⟨r, hgas r hr⟩ (slotOwner_gas hr))
        rwa [← stateOf_fin y] at this) h0'
      by_cases hm : s ∈ L.incl
      · obtain ⟨j, hj, hji⟩ := List.mem_iff_getElem.1 hm
        have hjs : L.incl[j]? = some s := by rw [List.getElem?_eq_getElem hj, hji]
        rw [hF.entry_gas hL t y ⟨s, hgas s h'⟩ rfl hjs, if_pos h]
        have := Finset.sum_nonpos (s := Finset.range L.numBins)
          (f := fun b => dmDt L (partArgs L C (stateOf y)) (b + 1) (j + 1))
          (fun b hb => hC.no_condensation hy' (Finset.mem_range.1 hb) (hlen hjs).1 hjs h0')
        linarith
      · rw [hF.entry, C37_excluded L _ s h' hm, if_pos h, add_zero]
        exact hG
  · -- what cannot
    have hy' := stateOf_nonneg hy
    have hzero : ∀ r < L.numSpecies, ¬ Pres r → stateOf y r = 0 := by
      intro r hr hn
      have := hz ⟨r, hgas r hr⟩ (by rw [slotOwner_gas hr]; exact hn)
      rwa [← stateOf_fin y] at this
    have hzero' : ∀ b j s, b < L.numBins → L.incl[j]? = some s → ¬ Pres s →
        stateOf y (L.numSpecies + b * L.numCond + j) = 0 := by
      intro b j s hb' hjs hn
      have := hz ⟨_, hslot b j hb' (hlen hjs).1⟩ (by rw [slotOwner_slot hL hjs]; exact hn)
      rwa [← stateOf_fin y] at this
    rcases hcases i with h1 | ⟨b, j, s', hb', hj, hjs, hi'⟩
    · rw [slotOwner_gas h1] at hi
      have hch : (if (i : ℕ) < L.numSpecies - 1 then G t (stateOf y) i else 0) ≤ 0 := by
        split
        · exact hclosed t ht _ hy' hzero i (by assumption) hi
        · exact le_rfl
      by_cases hm : (i : ℕ) ∈ L.incl
      · obtain ⟨j, hj, hji⟩ := List.mem_iff_getElem.1 hm
        have hjs : L.incl[j]? = some (i : ℕ) := by rw [List.getElem?_eq_getElem hj, hji]
        rw [hF.entry_gas hL t y i rfl hjs, Finset.sum_eq_zero (fun b hb => dmDt_zero hjs (hzero _ h1 hi)
          (hzero' b j _ (Finset.mem_range.1 hb) hjs hi)), sub_zero]
        exact hch
      · rw [hF.entry, C37_excluded L _ _ h1 hm, add_zero]
        exact hch
    · rw [hi', slotOwner_slot hL hjs] at hi
      rw [hF.entry_slot t y i hb' hj hi', dmDt_zero hjs (hzero _ (hlen hjs).2 hi) (hzero' b j _ hb' hjs hi)]

end Mixed

/-! ## The two simulations with particles -/

section Systems

variable {text : Str} {m : Mechanism} {qs : List RawEqn} {cores : Option ℕ} {L : Aerosol.Layout}
  {C : AeroConst} {rates : Rates} {start h2o : ℝ} {n : ℕ} {F : ℝ → (Fin n → ℝ) → Fin n → ℝ}

/-- C79, fixed yields: with an exact solver, in every reported row a species is in the gas and, if it can condense, in every
bin, exactly if there was some of it anywhere at the start. -/
theorem C79_fixed_yield (hL : GoodLayout L) (hC : PhysConst L C) (hF : FixedYieldSystem L C F)
    {solve : (Fin n → ℝ) → ℚ → Fin n → ℝ} {sim batch : ℚ} (hs : 0 < sim) (hb : 0 < batch)
    {zero y0 : Fin n → ℝ} (hy0 : ∀ i, 0 ≤ y0 i) {times : List ℚ} {rows : List (Fin n → ℝ)}
    (hrun : runSimulation id solve zero y0 sim batch = .ok (times, rows))
    (hex : ExactBatches F solve batch y0 rows.length) :
    ∀ row ∈ rows, ∀ s < L.numSpecies,
      ThereIff L (stateOf row) s (0 < allPhases L (stateOf y0) s) := by
  intro row hrow s hlt
  have hb' : (0 : ℝ) < batch := by exact_mod_cast hb
  exact hF.mixed.present hL hC (hF.tame hL hC) (hF.boxPieces hL hC) (fun _ _ _ _ _ _ => le_rfl) hs hb hy0
    hrun hex (fun _ _ h => h) le_rfl hb' le_rfl (fun Q hQ _ s hs h => hQ s hs h)
    (fun _ _ _ _ _ _ _ _ => le_rfl) hrow hlt

/-- C79: with an exact solver, in every reported row of a simulation with particles a species of the mechanism is in the gas
and, if it can condense, in every bin, exactly if it can be made by reactions that run from
the species there anywhere at the start. -/
theorem C79_present (h : extractMechanism text = .ok m) (hq : Reads text m.equations.toNat qs)
    (hk : ∀ q ∈ qs, ProductsKept q) (hL : GoodLayout L) (hC : PhysConst L C)
    (hns : L.numSpecies = m.tables.species.length + 1)
    (hpos : ∀ q ∈ qs, ∀ p ∈ chemReactants q ++ chemProducts q, 0 < p.1) (hone : WholeReactants qs)
    (hr : PiecewiseRates rates start h2o C.temp)
    (hF : AerosolSystem m cores L C rates start h2o F) {solve : (Fin n → ℝ) → ℚ → Fin n → ℝ}
    {sim batch : ℚ} (hs : 0 < sim) (hb : 0 < batch) {a c : ℝ} (ha : 0 ≤ a) (hac : a < c) (hcb : c ≤ batch)
    (htog : RunTogether qs.length rates start h2o C.temp batch a c)
    {zero y0 : Fin n → ℝ} (hy0 : ∀ i, 0 ≤ y0 i) {times : List ℚ} {rows : List (Fin n → ℝ)}
    (hrun : runSimulation id solve zero y0 sim batch = .ok (times, rows))
    (hex : ExactBatches F solve batch y0 rows.length) :
    ∀ row ∈ rows, (∀ s i, m.tables.index.get? s = some i → ThereIff L (stateOf row) i
      (Appears qs (RunsAlone rates start h2o C.temp a c) (RunsWithRadicals rates start h2o C.temp a c)
        (PresentIn m (allPhases L (stateOf y0))) s)) ∧
      ThereIff L (stateOf row) (L.numSpecies - 1) (0 < allPhases L (stateOf y0) (L.numSpecies - 1)) := by
  obtain ⟨sp, hsp, -⟩ := index_sum h hq rfl
  have hA := (recorded_loss_only h hq hpos).2
  have hgain := (recorded_gains h hq hpos hk).2
  have hidx : ∀ {s : Str} {i : ℕ}, m.tables.index.get? s = some i → i < m.tables.species.length :=
    fun {s i} hi => (C01_indices h i).1 ⟨s, hi⟩
  have hinj : ∀ {s s' : Str} {i : ℕ}, m.tables.index.get? s = some i → m.tables.index.get? s' = some i →
      s = s' := by
    intro s s' i h1 h2
    rw [(hsp ⟨i, hidx h1⟩ s).1 h1, (hsp ⟨i, hidx h1⟩ s').1 h2]
  set app : Str → Prop := Appears qs (RunsAlone rates start h2o C.temp a c)
    (RunsWithRadicals rates start h2o C.temp a c) (PresentIn m (allPhases L (stateOf y0))) with happ
  -- a gas species: one of the mechanism, or water
  set Pres : ℕ → Prop := fun i => (∀ s, m.tables.index.get? s = some i → app s) ∧
    (i = m.tables.species.length → 0 < allPhases L (stateOf y0) i) with hPres
  have hPs : ∀ {s i}, m.tables.index.get? s = some i → (Pres i ↔ app s) := by
    intro s i hi
    refine ⟨fun hp => hp.1 s hi, fun ha => ⟨fun s' hs' => hinj hi hs' ▸ ha, fun he => ?_⟩⟩
    have := hidx hi
    omega
  have hPw : Pres m.tables.species.length ↔ 0 < allPhases L (stateOf y0) m.tables.species.length := by
    refine ⟨fun hp => hp.2 rfl, fun ha => ⟨fun s hs => ?_, fun _ => ha⟩⟩
    have := hidx hs
    omega
  have hpart : ∀ i (hi : i < m.tables.species.length) t y, gasPart m qs rates start h2o C.temp sp t y i
      = kineticValue m qs (netFortran m.tables) rates start h2o C.temp (sp ⟨i, hi⟩) t y := by
    intro i hi t y
    rw [gasPart, dif_pos hi]
  have hrn := hr.regular.nonneg
  have key : ∀ row ∈ rows, ∀ i < L.numSpecies, ThereIff L (stateOf row) i (Pres i) := by
    intro row hrow i hlt
    refine (hF.mixed h hq hns hsp).present hL hC (hF.tame h hq hns hL hC hpos hone hr.regular)
      (hF.boxPieces h hq hns hL hC hone hr) ?_ hs hb hy0 hrun hex ?_ ha hac hcb ?_ ?_ hrow hlt
    · intro i hi t y hy h0
      have hi' : i < m.tables.species.length := by omega
      rw [hpart i hi']
      refine kineticValue_nonneg hA (left_pos hpos) hrn t hy ?_
      rw [← concOf_holds _ _ _ _ ((hsp ⟨i, hi'⟩ _).2 rfl)]
      exact h0
    · intro i hi h0
      exact ⟨fun s hs => Appears.start ⟨i, hs, h0⟩, fun _ => h0⟩
    · intro Q hQ hstep i hi hp
      by_cases hi' : i < m.tables.species.length
      · have hi'' := (hsp ⟨i, hi'⟩ _).2 rfl
        refine appears_induct h hq hA hgain (left_pos hpos) hrn
          (Q := fun s => ∀ i, m.tables.index.get? s = some i → Q i)
          (fun s ⟨i, hi, _⟩ => ⟨i, hi⟩) ?_ ?_ (hp.1 _ hi'') i hi''
        · rintro s ⟨j, hj, hj0⟩ i hi
          have : i = j := Option.some.inj (hi.symm.trans hj)
          rw [this]
          exact hQ j (by have := hidx hj; omega) hj0
        · rintro s j hj hc hmade i hi
          have hij : i = j := Option.some.inj (hi.symm.trans hj)
          subst hij
          have hlt' := hidx hi
          refine hstep i (by omega) fun t ht y hy hQy h0 => ?_
          rw [hpart i hlt', ← (hsp ⟨i, hlt'⟩ s).1 hi]
          refine hmade t ht y hy (fun r k hk hr' => hQy k ?_ (hr' k hk)) h0
          have := hidx hk
          omega
      · have : i = m.tables.species.length := by omega
        exact hQ i hi (hp.2 this)
    · intro t ht y hy hz i hi hn
      have hi' : i < m.tables.species.length := by omega
      have hi'' := (hsp ⟨i, hi'⟩ _).2 rfl
      rw [hpart i hi']
      refine (appears_closed h hq hgain (left_pos hpos) htog ht hy (fun r k hk hr' => ?_) hi''
        (fun ha => hn ((hPs hi'').2 ha))).le
      exact hz k (by have := hidx hk; omega) fun hp => hr' ((hPs hk).1 hp)
  intro row hrow
  constructor
  · intro s i hi
    have := key row hrow i (by have := hidx hi; omega)
    rwa [ThereIff, hPs hi] at this
  · have := key row hrow (L.numSpecies - 1) (by omega)
    rw [show L.numSpecies - 1 = m.tables.species.length by omega] at this ⊢
    rwa [ThereIff, hPw] at this

end Systems

/-! ## The prepared simulation with fixed yields -/

section Yield

variable {O : Type} {s : YieldSettings} {toFloat : Str → Except PyErr ℚ} {read : Str → Except PyErr O}
  {props : O → PureProps} {lines : List Str} {r : Snapshot O} {P : Prepared}
  {M : ℝ → (ℕ → ℝ) → Machine P.layout} {n : ℕ} {F : ℝ → (Fin n → ℝ) → Fin n → ℝ} {d : Str}

/-- C79 for what the driver prepares: in every reported row a species is in the gas and in every bin if the
yield on its first line is positive, and nowhere otherwise. Water is everywhere. -/
theorem C79_yield_run (h : extractSpecies toFloat read lines = .ok r) (hg : GoodYield s) (hl : GoodLibrary props)
    (hyield : ∀ c ∈ r.conc, 0 ≤ c) (hmass : 0 < s.mass) (hrh : 0 < s.rh)
    (hP : prepareYield s toFloat read props lines = .ok (some P)) (hd : '\n' ∉ d)
    (hM : ∀ t y, (M t y).Orderly) (hF : YieldFileSystem
      (Ft.partText d P.layout (P.layout.numSpecies + P.layout.numBins * P.layout.numCond)) P.layout P.const M F)
    {solve : (Fin n → ℝ) → ℚ → Fin n → ℝ} {sim batch : ℚ} (hsim : 0 < sim) (hb : 0 < batch) {zero : Fin n → ℝ}
    {ts : List ℚ} {rows : List (Fin n → ℝ)}
    (hrun : runSimulation id solve zero (startVector P n) sim batch = .ok (ts, rows))
    (hex : ExactBatches F solve batch (startVector P n) rows.length) : ∀ row ∈ rows,
    (∀ k name v i c, FirstLine lines k name v → r.index.get? name = some i → toFloat v = .ok c →
      (0 < stateOf row i ↔ 0 < c) ∧
      ∀ b < s.numBins, (0 < stateOf row (r.next + 1 + b * (r.next + 1) + i) ↔ 0 < c)) ∧
    0 < stateOf row r.next ∧ ∀ b < s.numBins, 0 < stateOf row (r.next + 1 + b * (r.next + 1) + r.next) := by
  have hr := yield_ready_of h hg hl hP
  have hlen := (C45_dense h).2.2.2.2.1
  have hcond : 1 ≤ P.layout.numCond := by rw [hr.layout]; exact Nat.succ_le_succ (Nat.zero_le _)
  have hS := (C77_system hd hr.good hcond hM).1 hF
  have hsize : n = P.y0.length := by rw [hF.1, hr.length]
  have htemp : 0 < s.temp := by have := hg.temp; norm_num at this; linarith
  have hy0 : ∀ i, 0 ≤ startVector P n i := by
    intro i
    unfold startVector
    have hi : (i : ℕ) < P.y0.length := by have := i.2; omega
    rw [List.getD_eq_getElem?_getD, List.getElem?_eq_getElem hi]
    exact hr.nonneg hg hyield _ (List.getElem_mem hi)
  intro row hrow
  have key : ∀ i < r.next + 1, (0 < stateOf row i ↔ 0 < allPhases P.layout (stateOf (startVector P n)) i) ∧
      ∀ b < s.numBins, (0 < stateOf row (r.next + 1 + b * (r.next + 1) + i) ↔
        0 < allPhases P.layout (stateOf (startVector P n)) i) := by
    intro i hi
    have := C79_fixed_yield hr.good hr.phys hS hsim hb hy0 hrun hex row hrow i (by rw [hr.layout]; exact hi)
    refine ⟨this.1, fun b hb' => ?_⟩
    have h2 := this.2 i (by rw [hr.layout]; simp [hi]) b (by rw [hr.layout]; exact hb')
    simpa only [hr.layout] using h2
  refine ⟨?_, ?_⟩
  · intro k name v i c hf hi hv
    have hlt := ((C45_dense h).2.2.1 i).1 ⟨name, hi⟩
    obtain ⟨k', v', c', o, f1, f2, -, f4, -⟩ := C45_first h hi
    obtain rfl : v = v' := firstLine_value hf f1
    rw [hv] at f2
    cases f2
    have e : (P.y0.take r.next)[i]? = some (yieldOf s (c : ℚ)) := by
      rw [hr.gases, List.getElem?_map, f4]
      rfl
    rw [List.getElem?_take_of_lt hlt] at e
    have e2 : allPhases P.layout (stateOf (startVector P n)) i = yieldOf s (c : ℚ) := by
      rw [hr.start_phases hsize (by omega), if_neg (by omega), add_zero, List.getD_eq_getElem?_getD, e,
        Option.getD_some]
    have e3 : 0 < yieldOf s (c : ℚ) ↔ 0 < c := by
      have hv := hg.vocMw
      have : 0 < s.mass * s.temp / (12.187 * s.vocMw) := by positivity
      unfold yieldOf
      rw [mul_pos_iff_of_pos_right (by norm_num), mul_pos_iff_of_pos_right this]
      exact_mod_cast Iff.rfl
    rw [← e3, ← e2]
    exact key i (by omega)
  · have hpos : 0 < allPhases P.layout (stateOf (startVector P n)) r.next := by
      refine allPhases_of_gas (stateOf_nonneg hy0) ?_
      have hlt : r.next < n := by
        rw [hF.1, hr.layout]
        exact Nat.lt_add_right _ (Nat.lt_succ_self _)
      have e : stateOf (startVector P n) r.next = P.h2o := by
        rw [show r.next = ((⟨r.next, hlt⟩ : Fin n) : ℕ) from rfl, stateOf_fin]
        unfold startVector
        rw [List.getD_eq_getElem?_getD, hr.vapour.2, Option.getD_some]
      rw [e, hr.vapour.1]
      have h1 : 0 < satVapWater s.temp := Real.exp_pos _
      have h2 := hg.na
      positivity
    exact ⟨(key _ (by omega)).1.2 hpos, fun b hb' => ((key _ (by omega)).2 b hb').2 hpos⟩

end Yield

/-! ## Cases the theorems apply to -/

theorem yieldLines_positive : ∃ r, extractSpecies (fun v => Except.ok (pyFloat v)) (fun n => Except.ok n) yieldLines = .ok r ∧
    r.next = 21 ∧ ∀ c ∈ r.conc, 0 < c := by
  have hd : (match extractSpecies (fun v => Except.ok (pyFloat v)) (fun n => Except.ok n) yieldLines with
      | .ok r => decide (r.next = 21 ∧ ∀ c ∈ r.conc, 0 < c)
      | .error _ => false) = true := by decide +kernel
  revert hd
  cases extractSpecies (fun v => Except.ok (pyFloat v)) (fun n => Except.ok n) yieldLines with
  | error e => simp
  | ok r => exact fun h => ⟨r, rfl, of_decide_eq_true h⟩

/-- With the file and the settings of the driver, all 21 species and water are there in the gas and in all 16 bins
after each of 36 batches, though the organic species start in the gas only. -/
example (props : Str → PureProps) (hl : GoodLibrary props) : ∃ P,
    prepareYield yieldSettings (fun v => Except.ok (pyFloat v)) (fun n => Except.ok n) props yieldLines = .ok (some P) ∧
    ∀ (M : ℝ → (ℕ → ℝ) → Machine P.layout) (_ : ∀ t y, (M t y).Orderly) (d : Str) (_ : '\n' ∉ d),
    ∃ (F : ℝ → (Fin P.y0.length → ℝ) → Fin P.y0.length → ℝ) (solve : (Fin P.y0.length → ℝ) → ℚ → Fin P.y0.length → ℝ)
      (ts : List ℚ) (rows : List (Fin P.y0.length → ℝ)), YieldFileSystem
        (Ft.partText d P.layout (P.layout.numSpecies + P.layout.numBins * P.layout.numCond)) P.layout P.const M F ∧
      runSimulation id solve (fun _ => 0) (startVector P P.y0.length) 3600 100 = .ok (ts, rows) ∧
      ExactBatches F solve 100 (startVector P P.y0.length) rows.length ∧ rows.length = 36 ∧
      ∀ row ∈ rows, ∀ i < 22, 0 < stateOf row i ∧ ∀ b < 16, 0 < stateOf row (22 + b * 22 + i) := by
  obtain ⟨r, h, hn, hc⟩ := yieldLines_positive
  have hc' : ∀ c ∈ r.conc, 0 ≤ c := fun c hc'' => (hc c hc'').le
  obtain ⟨P, hP, -⟩ := C77_prepared (props := props) h yieldSettings_good hl
  refine ⟨P, hP, fun M hM d hd => ?_⟩
  obtain ⟨⟨F, hF, solve, hsolve⟩, -⟩ := C77_determined (n := 0) h yieldSettings_good hl hc' hP hd hM (batch := 100)
    (by norm_num)
  have hrun := C32_C33_whole_batches (n := 36) (batch := 100) (by norm_num) (by norm_num)
    (exact_id 100 36) solve (fun _ => 0) (startVector P P.y0.length)
  rw [show ((36 : ℕ) : ℚ) * 100 = 3600 by norm_num] at hrun
  refine ⟨F, solve, _, _, hF, hrun, hsolve _, by simp, fun row hrow i hi => ?_⟩
  obtain ⟨h1, h2, h3⟩ := C79_yield_run h yieldSettings_good hl hc' (by norm_num [yieldSettings])
    (by norm_num [yieldSettings, driverSettings]) hP hd hM hF (by norm_num) (by norm_num) hrun (hsolve _) row hrow
  have hbins : yieldSettings.numBins = 16 := rfl
  rw [hn, hbins] at h1 h3
  rw [hn] at h2
  rcases Nat.lt_or_ge i 21 with hlt | hge
  · obtain ⟨name, hname⟩ := ((C45_dense h).2.2.1 i).2 (by omega)
    obtain ⟨k, v, c, o, f1, f2, -, f4, -⟩ := C45_first h hname
    have hpos := hc c (List.mem_of_getElem? f4)
    have := h1 k name v i c f1 hname f2
    exact ⟨this.1.2 hpos, fun b hb => (this.2 b hb).2 hpos⟩
  · obtain rfl : i = 21 := by omega
    exact ⟨h2, h3⟩

/-- With reactions: from methyl peroxy, NO and water vapour, formaldehyde is made and there in the gas and both bins
after each batch, though there are no particles with formaldehyde at the start. -/
theorem radical_aerosol_present :
    ∃ (F : ℝ → (Fin 10 → ℝ) → Fin 10 → ℝ) (solve : (Fin 10 → ℝ) → ℚ → Fin 10 → ℝ),
      AerosolSystem ⟨build radicalReactions, 2⟩ none radicalLayout waterConst wavyRates 0 0 F ∧
      ∃ rows, runSimulation id solve (fun _ => 0) ![1, 1, 0, 0, 0, 1, 0, 0, 0, 0] (((2 : ℕ) : ℚ) * 60) 60
          = .ok ([60, 120], rows) ∧ rows.length = 2 ∧
        ∀ row ∈ rows, 0 < row 2 ∧ 0 < row 6 ∧ 0 < row 8 ∧ 0 < row 7 ∧ 0 < row 9 := by
  obtain ⟨F, hF⟩ := radical_aerosol none waterConst wavyRates 0 0
  have hg : ∀ q ∈ radicalReactions, GainGood q := fun q hq => (radical_regular q hq).gain
  have hns : radicalLayout.numSpecies = (build radicalReactions).species.length + 1 := by decide +kernel
  have hwater : radicalLayout.numSpecies - 1 ∈ radicalLayout.incl := by decide
  obtain ⟨solve, hsolve⟩ := C64_exists radical_parses radical_reads radical_sameNet.less radicalLayout_good
    (waterConst_phys _) hns hwater radical_positive.1 radical_positive.2 radical_weights
    (wavyRates_smooth 0 0 _).piecewise hF (batch := 60) (by norm_num)
  have hy0 : ∀ i, (0 : ℝ) ≤ (![1, 1, 0, 0, 0, 1, 0, 0, 0, 0] : Fin 10 → ℝ) i := by
    intro i; fin_cases i <;> simp
  have hrun := C32_C33_whole_batches (n := 2) (batch := 60) (by norm_num) (by norm_num)
    (exact_id 60 2) solve (fun _ => 0) (![1, 1, 0, 0, 0, 1, 0, 0, 0, 0] : Fin 10 → ℝ)
  have ht : (List.range 2).map (fun k : ℕ => ((k : ℚ) + 1) * 60) = [60, 120] := by decide +kernel
  rw [ht] at hrun
  refine ⟨F, solve, hF, _, hrun, by simp, fun row hrow => ?_⟩
  have hidx : ∀ i : Fin 5, (build radicalReactions).index.get?
      (["CH3O2".toList, "NO".toList, "HCHO".toList, "NO2".toList, "O".toList].getD i []) = some (i : ℕ) := by
    decide +kernel
  have h60 : (0 : ℝ) < ((60 : ℚ) : ℝ) := by norm_num
  obtain ⟨h1, h2⟩ := C79_present radical_parses radical_reads (fun q hq => (hg q hq).kept) radicalLayout_good
    (waterConst_phys _) hns radical_positive.1 radical_positive.2 (wavyRates_smooth 0 0 _).piecewise hF
    (by norm_num) (by norm_num) le_rfl h60 le_rfl
    (wavyRates_together radicalReactions.length 0 0 _ ((60 : ℚ) : ℝ)) hy0 hrun (hsolve _ hy0 _) row hrow
  have hy0' := stateOf_nonneg hy0
  have hin : ∀ i : Fin 10, 0 < (![1, 1, 0, 0, 0, 1, 0, 0, 0, 0] : Fin 10 → ℝ) i →
      0 < allPhases radicalLayout (stateOf (![1, 1, 0, 0, 0, 1, 0, 0, 0, 0] : Fin 10 → ℝ)) i := fun i hi =>
    allPhases_of_gas hy0' (by rw [stateOf_fin]; exact hi)
  have hh : ThereIff radicalLayout (stateOf row) 2 _ := h1 _ 2 (hidx 2)
  have happ : Appears radicalReactions (RunsAlone wavyRates 0 0 waterConst.temp 0 ((60 : ℚ) : ℝ))
      (RunsWithRadicals wavyRates 0 0 waterConst.temp 0 ((60 : ℚ) : ℝ))
      (PresentIn ⟨build radicalReactions, 2⟩
        (allPhases radicalLayout (stateOf (![1, 1, 0, 0, 0, 1, 0, 0, 0, 0] : Fin 10 → ℝ)))) "HCHO".toList := by
    refine .made (e := 0) (q := radicalReactions[0]) rfl (by decide +kernel) ?_ ?_ (by decide +kernel)
      (by decide +kernel)
    · intro t ht ro2 h
      have h1 := Real.neg_one_le_sin (0 + t)
      have h2 := abs_nonneg ro2
      unfold wavyRates
      linarith
    · have : names (chemReactants radicalReactions[0]) = ["CH3O2".toList, "NO".toList] := by decide +kernel
      rw [this]
      intro r hr
      simp only [List.mem_cons, List.not_mem_nil, or_false] at hr
      rcases hr with rfl | rfl
      · exact .start ⟨0, hidx 0, hin 0 (by simp)⟩
      · exact .start ⟨1, hidx 1, hin 1 (by simp)⟩
  have hw : 0 < allPhases radicalLayout (stateOf (![1, 1, 0, 0, 0, 1, 0, 0, 0, 0] : Fin 10 → ℝ)) 5 :=
    hin 5 (by simp)
  have at_ : ∀ i : Fin 10, 0 < stateOf row i → 0 < row i := fun i hi => by rwa [stateOf_fin] at hi
  refine ⟨at_ 2 (hh.1.2 happ), at_ 6 ((hh.2 0 rfl 0 (by decide)).2 happ),
    at_ 8 ((hh.2 0 rfl 1 (by decide)).2 happ), at_ 7 ((h2.2 1 rfl 0 (by decide)).2 hw),
    at_ 9 ((h2.2 1 rfl 1 (by decide)).2 hw)⟩

end PyBox
