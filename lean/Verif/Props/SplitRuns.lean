import Verif.Props.SplitRhs
import Verif.Sim.Split

/-!
# C89: operator-split simulations along their trajectories

What the gas-phase and the partitioning batches change and what they keep, that concentrations stay
non-negative, and that there is exactly one exact result. The rows that go with a reported time are
`rows.take times.length`; rows allocated but not used stay 0 (`C49_outcome`).
-/

namespace PyBox

open Set Spec Aerosol

namespace Spec

/-- What there is of species `s` in the gas and in all bins, when every species has an entry in every
bin. -/
noncomputable def everyPhase (bins species : ℕ) (y : ℕ → ℝ) (s : ℕ) : ℝ :=
  y s + ∑ b ∈ Finset.range bins, y (species + b * species + s)

/-- `F` is the function handed to the solver for the gas-phase batches. -/
def GasOnlySystem (m : Mechanism) (cores : Option ℕ) (bins species : ℕ) (temp : ℝ) (rates : Rates)
    (start h2o : ℝ) {n : ℕ} (F : ℝ → (Fin n → ℝ) → Fin n → ℝ) : Prop :=
  n = species + bins * species ∧ ∀ (time : ℝ) (y : Fin n → ℝ), ∃ out,
    gasOnlyRhs m.tables m.equations.toNat cores (allLayout bins species) temp (ro2Indices m.tables.index)
      rates start h2o time (stateOf y) = some out ∧ ∀ i : Fin n, F time y i = out i

/-- `F` is the function handed to the solver for the partitioning batches. -/
def AerosolOnlySystem (bins species : ℕ) (C : AeroConst) (ignored : List ℕ) {n : ℕ}
    (F : ℝ → (Fin n → ℝ) → Fin n → ℝ) : Prop :=
  n = species + bins * species ∧ ∀ (time : ℝ) (y : Fin n → ℝ) (i : Fin n),
    F time y i = aerosolOnlyRhs (allLayout bins species) C ignored (stateOf y) i

end Spec

/-! ## Chemistry `G` and weighted exchange -/

/-- `F` is the chemistry `G` and `μ` times the exchange with the particles. -/
structure WeightedSystem (L : Aerosol.Layout) (C : AeroConst) (G : ℝ → (ℕ → ℝ) → ℕ → ℝ) (μ : ℕ → ℝ) {n : ℕ}
    (F : ℝ → (Fin n → ℝ) → Fin n → ℝ) : Prop where
  size : n = L.numSpecies + L.numBins * L.numCond
  weight : ∀ s, 0 ≤ μ s
  value : ∀ t z (i : Fin n), F t z i = (if (i : ℕ) < L.numSpecies - 1 then G t (stateOf z) i else 0)
    + slotWeight L μ i * fixedYieldRhs L C (stateOf z) i

section Weighted

variable {L : Aerosol.Layout} {C : AeroConst} {G : ℝ → (ℕ → ℝ) → ℕ → ℝ} {μ : ℕ → ℝ} {n : ℕ}
  {F : ℝ → (Fin n → ℝ) → Fin n → ℝ}

theorem WeightedSystem.fixed (hF : WeightedSystem L C G μ F) :
    FixedYieldSystem L C (fun (_ : ℝ) (z : Fin n → ℝ) (i : Fin n) => fixedYieldRhs L C (stateOf z) i) :=
  ⟨hF.size, fun _ _ _ => rfl⟩

theorem WeightedSystem.tame (hF : WeightedSystem L C G μ F) (hL : GoodLayout L) (hC : PhysConst L C)
    (hnear : ∀ i < L.numSpecies - 1, ∀ t (y : Fin n → ℝ), (∀ i, 0 ≤ y i) →
      NearLip t y (fun t z => G t (stateOf z) i))
    (hquasi : ∀ i < L.numSpecies - 1, ∀ t (y : ℕ → ℝ), (∀ i, 0 ≤ y i) → y i = 0 → 0 ≤ G t y i) :
    Tame F := by
  have hT := hF.fixed.tame hL hC
  constructor
  · intro t y hy i
    simp only [hF.value]
    refine NearLip.add ?_ (NearLip.mul (NearLip.const _) (hT.near t y hy i))
    by_cases hi : (i : ℕ) < L.numSpecies - 1
    · simp only [if_pos hi]
      exact hnear i hi t y hy
    · simp only [if_neg hi]
      exact NearLip.const 0
  · intro t y hy i hi
    rw [hF.value]
    refine add_nonneg ?_ (mul_nonneg (slotWeight_nonneg hF.weight i) (hT.quasi t y hy i hi))
    split
    · exact hquasi i (by assumption) t _ (stateOf_nonneg hy) (by rw [stateOf_fin, hi])
    · exact le_rfl

theorem WeightedSystem.boxPieces (hF : WeightedSystem L C G μ F) (hL : GoodLayout L) (hC : PhysConst L C)
    (hlip : ∀ i < L.numSpecies - 1, ∀ T R, 0 ≤ R →
      SetLip (Icc 0 T) (box R) (fun t (z : Fin n → ℝ) => G t (stateOf z) i))
    (htime : ∀ i < L.numSpecies - 1, PiecewiseContinuous
      fun (y : {y : Fin n → ℝ // ∀ i, 0 ≤ y i}) t => G t (stateOf y.1) i) : BoxPieces F := by
  have hT := hF.fixed.boxPieces hL hC
  constructor
  · intro T R hR i
    simp only [hF.value]
    refine SetLip.add ?_ (SetLip.mul (SetLip.const _) (hT.lip T R hR i))
    by_cases hi : (i : ℕ) < L.numSpecies - 1
    · simp only [if_pos hi]
      exact hlip i hi T R hR
    · simp only [if_neg hi]
      exact SetLip.const 0
  · refine PiecewiseContinuous.pi fun i => ?_
    simp only [hF.value]
    by_cases hi : (i : ℕ) < L.numSpecies - 1
    · simp only [if_pos hi]
      exact (htime i hi).map_continuous (φ := fun y x => x + _) fun _ => by fun_prop
    · simp only [if_neg hi]
      exact PiecewiseContinuous.of_continuous fun _ => continuous_const

theorem slotWeight_mul (W μ : ℕ → ℝ) (i : ℕ) :
    slotWeight L W i * slotWeight L μ i = slotWeight L (fun s => W s * μ s) i := by
  unfold slotWeight
  split
  · rfl
  · cases L.incl[(i - L.numSpecies) % L.numCond]? with
    | none => exact mul_zero _
    | some s => rfl

/-- Only chemistry changes totals over all phases. -/
theorem WeightedSystem.total (hF : WeightedSystem L C G μ F) (hL : GoodLayout L)
    (hw : L.numSpecies - 1 ∈ L.incl) (W : ℕ → ℝ) (t : ℝ) (z : Fin n → ℝ) :
    ∑ i : Fin n, slotWeight L W i * F t z i
      = ∑ s ∈ Finset.range (L.numSpecies - 1), W s * G t (stateOf z) s := by
  have hM : MixedSystem L C G (fun (t : ℝ) (z : Fin n → ℝ) (i : Fin n) =>
      (if (i : ℕ) < L.numSpecies - 1 then G t (stateOf z) i else 0) + fixedYieldRhs L C (stateOf z) i) := by
    refine ⟨hF.size, fun t z i => ?_⟩
    unfold fixedYieldRhs addUp
    rw [ite_self, zero_add]
  have h1 := hM.total hL hw W t z
  have h2 := fun W => hF.fixed.mixed.total hL hw W t z
  simp only [mul_zero, Finset.sum_const_zero] at h2
  have e : ∀ i : Fin n, slotWeight L W i * F t z i
      = slotWeight L W i * ((if (i : ℕ) < L.numSpecies - 1 then G t (stateOf z) i else 0)
          + fixedYieldRhs L C (stateOf z) i)
        - slotWeight L W i * fixedYieldRhs L C (stateOf z) i
        + slotWeight L (fun s => W s * μ s) i * fixedYieldRhs L C (stateOf z) i := by
    intro i
    rw [hF.value, ← slotWeight_mul]
    ring
  simp only [e]
  rw [Finset.sum_add_distrib, Finset.sum_sub_distrib, h1, h2, h2]
  ring

theorem WeightedSystem.total_state (hF : WeightedSystem L C G μ F) (hL : GoodLayout L) (W : ℕ → ℝ)
    (y : Fin n → ℝ) : ∑ i : Fin n, slotWeight L W i * y i
      = ∑ s ∈ Finset.range L.numSpecies, W s * allPhases L (stateOf y) s :=
  hF.fixed.mixed.total_state hL W y

theorem WeightedSystem.dissipative (hF : WeightedSystem L C G μ F) (hL : GoodLayout L)
    (hw : L.numSpecies - 1 ∈ L.incl)
    (hW : ∀ s < L.numSpecies, ∃ W : ℕ → ℝ, (∀ i, 0 ≤ W i) ∧ 0 < W s ∧ ∀ t y, (∀ i, 0 ≤ y i) →
      ∑ s ∈ Finset.range (L.numSpecies - 1), W s * G t y s ≤ 0) : Dissipative F := by
  intro i
  have hs : ∃ s < L.numSpecies, ∀ W : ℕ → ℝ, slotWeight L W i = W s := by
    rcases C38_layout L.numSpecies L.numCond L.numBins i (hF.size ▸ i.2) with
      ⟨h1, -⟩ | ⟨-, ⟨b, j⟩, ⟨-, h2, h3⟩, -⟩
    · exact ⟨i, h1, fun W => by unfold slotWeight; rw [if_pos h1]⟩
    · simp only at h2 h3
      have hj : j < L.incl.length := hL.len.symm ▸ h2
      refine ⟨L.incl[j], hL.valid _ (List.getElem_mem hj), fun W => ?_⟩
      rw [h3, slotWeight_slot hL W (List.getElem?_eq_getElem hj)]
  obtain ⟨s, hlt, hsW⟩ := hs
  obtain ⟨W, h0, hpos, htot⟩ := hW s hlt
  refine ⟨fun i => slotWeight L W i, fun i => slotWeight_nonneg h0 i, lt_of_lt_of_eq hpos (hsW W).symm,
    fun t y hy => ?_⟩
  rw [hF.total hL hw]
  exact htot t _ (stateOf_nonneg hy)

end Weighted

theorem everyPhase_eq (bins species : ℕ) (y : ℕ → ℝ) {s : ℕ} (hs : s < species) :
    allPhases (allLayout bins species) y s = everyPhase bins species y s := by
  unfold allPhases everyPhase
  congr 1
  have hs' : s ∈ Finset.range (allLayout bins species).numCond := Finset.mem_range.2 hs
  rw [Finset.sum_eq_single_of_mem s hs']
  · exact if_pos (List.getElem?_range hs)
  · intro j hj hne
    refine if_neg fun h => hne ?_
    have hj' : j < species := Finset.mem_range.1 hj
    have : (List.range species)[j]? = some s := h
    rw [List.getElem?_range hj'] at this
    exact Option.some.inj this

/-! ## The two systems of an operator-split simulation -/

section Systems

variable {text : Str} {m : Mechanism} {qs : List RawEqn} {cores : Option ℕ} {bins species : ℕ}
  {C : AeroConst} {ignored : List ℕ} {rates : Rates} {start h2o temp : ℝ} {n : ℕ}
  {Fg Fp : ℝ → (Fin n → ℝ) → Fin n → ℝ}

theorem Spec.GasOnlySystem.weighted (hF : GasOnlySystem m cores bins species temp rates start h2o Fg)
    (h : extractMechanism text = .ok m)
    (hq : Reads text m.equations.toNat qs) (hns : species = m.tables.species.length + 1)
    {sp : Fin m.tables.species.length → Str}
    (hsp : ∀ (i : Fin m.tables.species.length) s, m.tables.index.get? s = some (i : ℕ) ↔ s = sp i)
    (C : AeroConst) :
    WeightedSystem (allLayout bins species) C (gasPart m qs rates start h2o temp sp) (fun _ => 0) Fg := by
  have hz : ∀ i, slotWeight (allLayout bins species) (fun _ => 0) i = 0 := by
    intro i
    unfold slotWeight
    split
    · rfl
    · split <;> rfl
  refine ⟨hF.1, fun _ => le_rfl, fun t z i => ?_⟩
  rw [hz, zero_mul, add_zero]
  obtain ⟨out, hout, hFi⟩ := hF.2 t z
  rw [hFi]
  unfold gasOnlyRhs at hout
  obtain ⟨ro2, hro2, hgas⟩ := Option.bind_eq_some_iff.1 hout
  obtain ⟨gas, hg, rfl⟩ := Option.map_eq_some_iff.1 hgas
  have hN : (allLayout bins species).numSpecies - 1 = m.tables.species.length := by
    show species - 1 = _
    omega
  unfold ro2Total at hro2
  split at hro2
  · cases hro2
  · rw [← Option.some.inj hro2] at hg
    rw [gasRhsF_congr h _ _ _ _ _ (y' := stateOf z) (fun j hj => by
      unfold firstEntries; rw [if_pos (by omega)])] at hg
    unfold addUp
    rw [ite_self, add_zero]
    by_cases hi : (i : ℕ) < (allLayout bins species).numSpecies - 1
    · have hi' : (i : ℕ) < m.tables.species.length := by omega
      rw [if_pos hi, if_pos hi, gasPart, dif_pos hi']
      exact gasRhsF_kinetic h hq hg ((hsp ⟨i, hi'⟩ _).2 rfl)
    · rw [if_neg hi, if_neg hi]

theorem Spec.AerosolOnlySystem.weighted (hF : AerosolOnlySystem bins species C ignored Fp) :
    WeightedSystem (allLayout bins species) C (fun _ _ _ => 0) (keptWeight ignored) Fp := by
  refine ⟨hF.1, fun s => ?_, fun t z i => ?_⟩
  · unfold keptWeight
    split
    · exact le_rfl
    · exact zero_le_one
  · rw [hF.2, aerosolOnly_eq bins species C ignored _ (hF.1 ▸ i.2), ite_self, zero_add]

theorem allLayout_water (hsp : 0 < species) :
    (allLayout bins species).numSpecies - 1 ∈ (allLayout bins species).incl :=
  List.mem_range.2 (show species - 1 < species by omega)

theorem Spec.GasOnlySystem.tame (hF : GasOnlySystem m cores bins species C.temp rates start h2o Fg)
    (h : extractMechanism text = .ok m) (hq : Reads text m.equations.toNat qs)
    (hns : species = m.tables.species.length + 1) (hC : PhysConst (allLayout bins species) C)
    (hpos : ∀ q ∈ qs, ∀ p ∈ chemReactants q ++ chemProducts q, 0 < p.1) (hone : WholeReactants qs)
    (hr : RegularRates rates start h2o C.temp) : Tame Fg := by
  obtain ⟨sp, hsp, -⟩ := index_sum h hq rfl
  have hN : (allLayout bins species).numSpecies - 1 = m.tables.species.length := by
    show species - 1 = _
    omega
  refine (hF.weighted h hq hns hsp C).tame (allLayout_good _ _) hC (fun i hi t y hy => ?_)
    (fun i hi t y hy h0 => ?_)
  · have hi' : i < m.tables.species.length := by omega
    simp only [gasPart, dif_pos hi']
    exact kineticValue_nearLip hone hr hy _
  · have hi' : i < m.tables.species.length := by omega
    rw [gasPart, dif_pos hi']
    refine kineticValue_nonneg (recorded_loss_only h hq hpos).2 (left_pos hpos) hr.nonneg t hy ?_
    unfold concOf
    rw [getD_of_get? ((hsp ⟨i, hi'⟩ _).2 rfl)]
    exact h0

theorem Spec.GasOnlySystem.boxPieces (hF : GasOnlySystem m cores bins species C.temp rates start h2o Fg)
    (h : extractMechanism text = .ok m) (hq : Reads text m.equations.toNat qs)
    (hns : species = m.tables.species.length + 1) (hC : PhysConst (allLayout bins species) C)
    (hone : WholeReactants qs) (hr : PiecewiseRates rates start h2o C.temp) : BoxPieces Fg := by
  obtain ⟨sp, hsp, -⟩ := index_sum h hq rfl
  have hN : (allLayout bins species).numSpecies - 1 = m.tables.species.length := by
    show species - 1 = _
    omega
  refine (hF.weighted h hq hns hsp C).boxPieces (allLayout_good _ _) hC (fun i hi T R hR => ?_)
    (fun i hi => ?_)
  · have hi' : i < m.tables.species.length := by omega
    simp only [gasPart, dif_pos hi']
    exact kineticValue_setLip hone hr hR (SizeAtMost.box _) _
  · have hi' : i < m.tables.species.length := by omega
    simp only [gasPart, dif_pos hi']
    exact kineticValue_pieces hr _ _

theorem Spec.AerosolOnlySystem.tame (hF : AerosolOnlySystem bins species C ignored Fp)
    (hC : PhysConst (allLayout bins species) C) : Tame Fp :=
  hF.weighted.tame (allLayout_good _ _) hC (fun _ _ _ _ _ => NearLip.const 0) (fun _ _ _ _ _ _ => le_rfl)

theorem Spec.AerosolOnlySystem.boxPieces (hF : AerosolOnlySystem bins species C ignored Fp)
    (hC : PhysConst (allLayout bins species) C) : BoxPieces Fp :=
  hF.weighted.boxPieces (allLayout_good _ _) hC (fun _ _ _ _ _ => SetLip.const 0)
    (fun _ _ => PiecewiseContinuous.of_continuous fun _ => continuous_const)

theorem Spec.AerosolOnlySystem.dissipative (hF : AerosolOnlySystem bins species C ignored Fp)
    (hsp : 0 < species) : Dissipative Fp :=
  hF.weighted.dissipative (allLayout_good _ _) (allLayout_water hsp)
    fun s _ => ⟨fun _ => 1, fun _ => zero_le_one, zero_lt_one, fun t y _ => by simp⟩

/-- An operator-split gas phase has the same chemistry as one coupled to the particles. -/
theorem Spec.GasOnlySystem.dissipative
    (hF : GasOnlySystem m cores bins species temp rates start h2o Fg)
    (h : extractMechanism text = .ok m) (hq : Reads text m.equations.toNat qs)
    (hpos : ∀ q ∈ qs, ∀ p ∈ chemReactants q ++ chemProducts q, 0 < p.1) (hless : GainsLess m)
    (hns : species = m.tables.species.length + 1)
    (hr : ∀ e time ro2, 0 ≤ ro2 → 0 ≤ rates (start + time) ro2 h2o temp e)
    (hw : ∀ s i, m.tables.index.get? s = some i → s ∉ heldConstant → ∃ w : Str → ℝ,
      (∀ s, 0 ≤ w s) ∧ 0 < w s ∧ (∀ s ∈ heldConstant, w s = 0) ∧ ∀ q ∈ qs, NotGained w q)
    (C : AeroConst) :
    Dissipative Fg := by
  obtain ⟨sp, hsp, hsum⟩ := index_sum h hq rfl
  have hN : (allLayout bins species).numSpecies - 1 = m.tables.species.length := by
    show species - 1 = _
    omega
  refine (hF.weighted h hq hns hsp C).dissipative (allLayout_good _ _) (allLayout_water (by omega))
    fun s hs => ?_
  rw [hN]
  have hind : (∀ hi : s < m.tables.species.length, sp ⟨s, hi⟩ ∈ heldConstant) →
      ∃ W : ℕ → ℝ, (∀ i, 0 ≤ W i) ∧ 0 < W s ∧ ∀ t y, (∀ i, 0 ≤ y i) →
        ∑ i ∈ Finset.range m.tables.species.length,
          W i * gasPart m qs rates start h2o temp sp t y i ≤ 0 := by
    intro hx
    refine ⟨fun i => if i = s then 1 else 0, fun i => by dsimp only; split <;> norm_num, by simp,
      fun t y _ => le_of_eq (Finset.sum_eq_zero fun k hk => ?_)⟩
    have hk' := Finset.mem_range.1 hk
    dsimp only
    split
    · rename_i hks
      subst hks
      rw [gasPart, dif_pos hk', kineticValue, if_pos (hx hk'), mul_zero]
    · rw [zero_mul]
  by_cases hi : s < m.tables.species.length
  · by_cases hx : sp ⟨s, hi⟩ ∈ heldConstant
    · exact hind fun _ => hx
    · obtain ⟨w, hw0, hwi, hwc, hwq⟩ := hw _ s ((hsp ⟨s, hi⟩ _).2 rfl) hx
      refine ⟨nameWeight sp w, fun i => ?_, by rw [nameWeight, dif_pos hi]; exact hwi, fun t y hy =>
        gasPart_light hsp hsum (fortran_lightWeights h hq hpos hless) hw0 hwq hwc hr t hy⟩
      unfold nameWeight
      split
      · exact hw0 _
      · exact le_rfl
  · exact hind fun hi' => absurd hi' hi

/-! ## C89: single batches -/

/-- C89, gas-phase batches change only the gas species of the mechanism: what is in the bins, and the water
vapour, is in the next row what it was in the row before. -/
theorem C89_gas_batch (h : extractMechanism text = .ok m) (hns : species = m.tables.species.length + 1)
    (hFg : GasOnlySystem m cores bins species temp rates start h2o Fg)
    {solveGas solvePart : (Fin n → ℝ) → ℚ → Fin n → ℝ} {sim batch gasTime partTime : ℚ} (hs : 0 < sim)
    (hb : 0 < batch) (hg : 0 < gasTime) (hp : 0 < partTime) {zero y0 : Fin n → ℝ} {times : List ℚ}
    {rows : List (Fin n → ℝ)}
    (hrun : runSplit id solveGas solvePart zero y0 sim batch gasTime partTime = .ok (times, rows))
    (hex : ExactSplit Fg Fp solveGas solvePart batch gasTime partTime y0 times.length)
    {k : ℕ} (hk : k < times.length) (heven : k % 2 = 0) {before after : Fin n → ℝ}
    (ha : (y0 :: rows)[k]? = some before) (hb' : rows[k]? = some after)
    {i : Fin n} (hi : species - 1 ≤ i) : after i = before i := by
  obtain ⟨qs, hq, -⟩ := extract_reads h
  obtain ⟨sp, hsp, -⟩ := index_sum h hq rfl
  have hW := hFg.weighted h hq hns hsp waterConst
  obtain ⟨u, d, hd, rfl, rfl, hu⟩ := split_rows_step hs hb hg hp hrun hex hk ha hb'
  rw [if_pos heven] at hu
  refine entry_const i (fun t y => ?_) hd hu
  rw [hW.value, if_neg (show ¬ (i : ℕ) < (allLayout bins species).numSpecies - 1 from not_lt.2 hi),
    zero_add]
  have : slotWeight (allLayout bins species) (fun _ => 0) i = 0 := by
    unfold slotWeight
    split
    · rfl
    · split <;> rfl
  rw [this, zero_mul]

/-- C89, partitioning batches only move species between gas and bins, and do not move the species to be
ignored. -/
theorem C89_partition_batch (hspec : 0 < species) (hFp : AerosolOnlySystem bins species C ignored Fp)
    {solveGas solvePart : (Fin n → ℝ) → ℚ → Fin n → ℝ} {sim batch gasTime partTime : ℚ} (hs : 0 < sim)
    (hb : 0 < batch) (hg : 0 < gasTime) (hp : 0 < partTime) {zero y0 : Fin n → ℝ} {times : List ℚ}
    {rows : List (Fin n → ℝ)}
    (hrun : runSplit id solveGas solvePart zero y0 sim batch gasTime partTime = .ok (times, rows))
    (hex : ExactSplit Fg Fp solveGas solvePart batch gasTime partTime y0 times.length)
    {k : ℕ} (hk : k < times.length) (hodd : k % 2 = 1) {before after : Fin n → ℝ}
    (ha : (y0 :: rows)[k]? = some before) (hb' : rows[k]? = some after) {s : ℕ} (hlt : s < species) :
    everyPhase bins species (stateOf after) s = everyPhase bins species (stateOf before) s ∧
      (s ∈ ignored → stateOf after s = stateOf before s ∧
        ∀ b < bins, stateOf after (species + b * species + s) = stateOf before (species + b * species + s)) := by
  have hW := hFp.weighted
  have hL := allLayout_good bins species
  obtain ⟨u, d, hd, rfl, rfl, hu⟩ := split_rows_step hs hb hg hp hrun hex hk ha hb'
  rw [if_neg (by omega)] at hu
  refine ⟨?_, fun hign => ?_⟩
  · have := linear_const (fun i : Fin n => slotWeight (allLayout bins species)
      (fun k => if k = s then 1 else 0) i) (fun t y => by
        rw [hW.total hL (allLayout_water hspec)]
        simp) hd hu
    rw [hW.total_state hL, hW.total_state hL] at this
    rw [sum_indicator (N := (allLayout bins species).numSpecies) hlt,
      sum_indicator (N := (allLayout bins species).numSpecies) hlt, everyPhase_eq _ _ _ hlt,
      everyPhase_eq _ _ _ hlt] at this
    exact this
  · have hkept : keptWeight ignored s = 0 := if_pos hign
    have key : ∀ i : Fin n, slotWeight (allLayout bins species) (keptWeight ignored) i = 0 →
        u d i = u 0 i := by
      intro i hi
      refine entry_const i (fun t y => ?_) hd hu
      rw [hW.value, hi, ite_self, zero_mul, add_zero]
    have hsize : n = species + bins * species := hFp.1
    constructor
    · have hs' : s < n := by
        rw [hsize]; omega
      have := key ⟨s, hs'⟩ (by
        unfold slotWeight
        exact (if_pos (show s < (allLayout bins species).numSpecies from hlt)).trans hkept)
      rwa [← stateOf_fin (u d), ← stateOf_fin (u 0)] at this
    · intro b hb
      have hs' : species + b * species + s < n := by
        rw [hsize]
        have := Aerosol.slot_lt (nc := species) hb hlt
        omega
      have := key ⟨_, hs'⟩ (by
        have := slotWeight_slot (L := allLayout bins species) hL (keptWeight ignored) (b := b) (j := s) (s := s)
          (List.getElem?_range hlt)
        exact this.trans hkept)
      rwa [← stateOf_fin (u d), ← stateOf_fin (u 0)] at this

/-! ## C89: whole runs -/

theorem weightedTotal_everyPhase (h : extractMechanism text = .ok m)
    (hns : species = m.tables.species.length + 1) (w : Str → ℝ) (y : ℕ → ℝ) :
    weightedTotal m w (allPhases (allLayout bins species) y)
      = weightedTotal m w (everyPhase bins species y) := by
  obtain ⟨qs, hq, -⟩ := extract_reads h
  obtain ⟨sp, -, hsum⟩ := index_sum h hq rfl
  rw [hsum, hsum]
  refine Finset.sum_congr rfl fun i _ => ?_
  rw [everyPhase_eq _ _ _ (by omega)]

/-- C89: with exact solvers every reported row of an operator-split simulation holds the same weighted total
over all phases, for all weights that every reaction balances. -/
theorem C89_conserved (h : extractMechanism text = .ok m) (hq : Reads text m.equations.toNat qs)
    (hgood : ∀ q ∈ qs, GainGood q) (hsame : SameNet m) (hns : species = m.tables.species.length + 1)
    (w : Str → ℝ) (hbal : ∀ q ∈ qs, Spec.Balanced w q) (hconst : ∀ s ∈ heldConstant, w s = 0)
    (hFg : GasOnlySystem m cores bins species temp rates start h2o Fg)
    (hFp : AerosolOnlySystem bins species C ignored Fp)
    {solveGas solvePart : (Fin n → ℝ) → ℚ → Fin n → ℝ} {sim batch gasTime partTime : ℚ} (hs : 0 < sim)
    (hb : 0 < batch) (hg : 0 < gasTime) (hp : 0 < partTime) {zero y0 : Fin n → ℝ} {times : List ℚ}
    {rows : List (Fin n → ℝ)}
    (hrun : runSplit id solveGas solvePart zero y0 sim batch gasTime partTime = .ok (times, rows))
    (hex : ExactSplit Fg Fp solveGas solvePart batch gasTime partTime y0 times.length) :
    ∀ row ∈ rows.take times.length, weightedTotal m w (everyPhase bins species (stateOf row))
      = weightedTotal m w (everyPhase bins species (stateOf y0)) := by
  obtain ⟨sp, hsp, hsum⟩ := index_sum h hq rfl
  have hL := allLayout_good bins species
  have hwater := allLayout_water (bins := bins) (species := species) (by omega)
  have hWg := hFg.weighted h hq hns hsp C
  have hWp := hFp.weighted
  have hns' : (allLayout bins species).numSpecies = m.tables.species.length + 1 := hns
  have hN : (allLayout bins species).numSpecies - 1 = m.tables.species.length := by omega
  intro row hrow
  have := split_constant (fun i : Fin n => slotWeight (allLayout bins species) (nameWeight sp w) i)
    (fun t y => by
      rw [hWg.total hL hwater, hN,
        gasPart_zero hsp hsum (fortran_trueWeights h hq hgood hsame) hbal hconst])
    (fun t y => by rw [hWp.total hL hwater]; simp) hs hb hg hp hrun hex row hrow
  rw [hWg.total_state hL, hWg.total_state hL, nameWeight_allPhases hns' hsum,
    nameWeight_allPhases hns' hsum] at this
  rwa [weightedTotal_everyPhase h hns, weightedTotal_everyPhase h hns] at this

/-- A species that chemistry does not change is only moved between the phases. -/
theorem split_species (h : extractMechanism text = .ok m) (hq : Reads text m.equations.toNat qs)
    (hns : species = m.tables.species.length + 1) {sp : Fin m.tables.species.length → Str}
    (hsp : ∀ (i : Fin m.tables.species.length) s, m.tables.index.get? s = some (i : ℕ) ↔ s = sp i)
    (hFg : GasOnlySystem m cores bins species temp rates start h2o Fg)
    (hFp : AerosolOnlySystem bins species C ignored Fp) {s : ℕ} (hlt : s < species)
    (hG : s < species - 1 → ∀ t y, gasPart m qs rates start h2o temp sp t y s = 0)
    {solveGas solvePart : (Fin n → ℝ) → ℚ → Fin n → ℝ} {sim batch gasTime partTime : ℚ} (hs : 0 < sim)
    (hb : 0 < batch) (hg : 0 < gasTime) (hp : 0 < partTime) {zero y0 : Fin n → ℝ} {times : List ℚ}
    {rows : List (Fin n → ℝ)}
    (hrun : runSplit id solveGas solvePart zero y0 sim batch gasTime partTime = .ok (times, rows))
    (hex : ExactSplit Fg Fp solveGas solvePart batch gasTime partTime y0 times.length) :
    ∀ row ∈ rows.take times.length,
      everyPhase bins species (stateOf row) s = everyPhase bins species (stateOf y0) s := by
  have hL := allLayout_good bins species
  have hwater := allLayout_water (bins := bins) (species := species) (by omega)
  have hWg := hFg.weighted h hq hns hsp C
  have hWp := hFp.weighted
  intro row hrow
  have := split_constant (fun i : Fin n => slotWeight (allLayout bins species)
      (fun k => if k = s then 1 else 0) i)
    (fun t y => by
      rw [hWg.total hL hwater]
      refine Finset.sum_eq_zero fun k hk => ?_
      split
      · rename_i hks
        rw [hks, hG (hks ▸ Finset.mem_range.1 hk), mul_zero]
      · rw [zero_mul])
    (fun t y => by rw [hWp.total hL hwater]; simp) hs hb hg hp hrun hex row hrow
  rw [hWg.total_state hL, hWg.total_state hL] at this
  rwa [sum_indicator (N := (allLayout bins species).numSpecies) hlt,
    sum_indicator (N := (allLayout bins species).numSpecies) hlt, everyPhase_eq _ _ _ hlt,
    everyPhase_eq _ _ _ hlt] at this

/-- C89, water: gas and bins together always hold the same amount of water. -/
theorem C89_water (h : extractMechanism text = .ok m) (hns : species = m.tables.species.length + 1)
    (hFg : GasOnlySystem m cores bins species temp rates start h2o Fg)
    (hFp : AerosolOnlySystem bins species C ignored Fp)
    {solveGas solvePart : (Fin n → ℝ) → ℚ → Fin n → ℝ} {sim batch gasTime partTime : ℚ} (hs : 0 < sim)
    (hb : 0 < batch) (hg : 0 < gasTime) (hp : 0 < partTime) {zero y0 : Fin n → ℝ} {times : List ℚ}
    {rows : List (Fin n → ℝ)}
    (hrun : runSplit id solveGas solvePart zero y0 sim batch gasTime partTime = .ok (times, rows))
    (hex : ExactSplit Fg Fp solveGas solvePart batch gasTime partTime y0 times.length) :
    ∀ row ∈ rows.take times.length, everyPhase bins species (stateOf row) (species - 1)
      = everyPhase bins species (stateOf y0) (species - 1) := by
  obtain ⟨qs, hq, -⟩ := extract_reads h
  obtain ⟨sp, hsp, -⟩ := index_sum h hq rfl
  exact split_species h hq hns hsp hFg hFp (by omega) (fun hlt => absurd hlt (lt_irrefl _)) hs hb hg hp
    hrun hex

/-- C89, species held constant by the gas chemistry: they are only moved between the phases. -/
theorem C89_held (h : extractMechanism text = .ok m) (hns : species = m.tables.species.length + 1)
    (hFg : GasOnlySystem m cores bins species temp rates start h2o Fg)
    (hFp : AerosolOnlySystem bins species C ignored Fp) {s : Str} {i : ℕ}
    (hsi : m.tables.index.get? s = some i) (hx : s ∈ heldConstant)
    {solveGas solvePart : (Fin n → ℝ) → ℚ → Fin n → ℝ} {sim batch gasTime partTime : ℚ} (hs : 0 < sim)
    (hb : 0 < batch) (hg : 0 < gasTime) (hp : 0 < partTime) {zero y0 : Fin n → ℝ} {times : List ℚ}
    {rows : List (Fin n → ℝ)}
    (hrun : runSplit id solveGas solvePart zero y0 sim batch gasTime partTime = .ok (times, rows))
    (hex : ExactSplit Fg Fp solveGas solvePart batch gasTime partTime y0 times.length) :
    ∀ row ∈ rows.take times.length, everyPhase bins species (stateOf row) i
      = everyPhase bins species (stateOf y0) i := by
  obtain ⟨qs, hq, -⟩ := extract_reads h
  obtain ⟨sp, hsp, -⟩ := index_sum h hq rfl
  have hi : i < m.tables.species.length := (C01_indices h i).1 ⟨s, hsi⟩
  refine split_species h hq hns hsp hFg hFp (by omega) (fun _ t y => ?_) hs hb hg hp hrun hex
  rw [gasPart, dif_pos hi, ← (hsp ⟨i, hi⟩ s).1 hsi, kineticValue, if_pos hx]

/-- C89, species to be ignored: what there is of them in a bin stays there. -/
theorem C89_ignored (h : extractMechanism text = .ok m) (hns : species = m.tables.species.length + 1)
    (hFg : GasOnlySystem m cores bins species temp rates start h2o Fg)
    (hFp : AerosolOnlySystem bins species C ignored Fp) {s : ℕ} (hlt : s < species) (hign : s ∈ ignored)
    {b : ℕ} (hbin : b < bins)
    {solveGas solvePart : (Fin n → ℝ) → ℚ → Fin n → ℝ} {sim batch gasTime partTime : ℚ} (hs : 0 < sim)
    (hb : 0 < batch) (hg : 0 < gasTime) (hp : 0 < partTime) {zero y0 : Fin n → ℝ} {times : List ℚ}
    {rows : List (Fin n → ℝ)}
    (hrun : runSplit id solveGas solvePart zero y0 sim batch gasTime partTime = .ok (times, rows))
    (hex : ExactSplit Fg Fp solveGas solvePart batch gasTime partTime y0 times.length) :
    ∀ row ∈ rows.take times.length,
      stateOf row (species + b * species + s) = stateOf y0 (species + b * species + s) := by
  obtain ⟨qs, hq, -⟩ := extract_reads h
  obtain ⟨sp, hsp, -⟩ := index_sum h hq rfl
  have hL := allLayout_good bins species
  have hWg := hFg.weighted h hq hns hsp C
  have hWp := hFp.weighted
  have hlt' : species + b * species + s < n := by
    rw [hFp.1]
    have := Aerosol.slot_lt (nc := species) hbin hlt
    omega
  have hslot : ∀ μ : ℕ → ℝ, slotWeight (allLayout bins species) μ (species + b * species + s) = μ s :=
    fun μ => slotWeight_slot (L := allLayout bins species) hL μ (List.getElem?_range hlt)
  have hno : ¬ (species + b * species + s < (allLayout bins species).numSpecies - 1) := by
    show ¬ (_ < species - 1)
    omega
  have key := split_rows_invariant hs hb hg hp hrun hex
    (S := fun y => y ⟨_, hlt'⟩ = y0 ⟨_, hlt'⟩) rfl
    (fun u d hd hu h0 => (entry_const ⟨_, hlt'⟩ (fun t y => by
      rw [hWg.value, if_neg hno, hslot]; ring) hd hu).trans h0)
    (fun u d hd hu h0 => (entry_const ⟨_, hlt'⟩ (fun t y => by
      rw [hWp.value, if_neg hno, hslot, keptWeight, if_pos hign]; ring) hd hu).trans h0)
  intro row hrow
  have := key row hrow
  rwa [← stateOf_fin row, ← stateOf_fin y0] at this

/-- C89, sources and sinks: a total over all phases whose weights no reaction gains never grows. -/
theorem C89_not_gained (h : extractMechanism text = .ok m) (hq : Reads text m.equations.toNat qs)
    (hgood : ∀ q ∈ qs, GainGood q) (hsame : SameNet m) (hns : species = m.tables.species.length + 1)
    (hC : PhysConst (allLayout bins species) C)
    (hpos : ∀ q ∈ qs, ∀ p ∈ chemReactants q ++ chemProducts q, 0 < p.1) (hone : WholeReactants qs)
    (w : Str → ℝ) (hw : ∀ q ∈ qs, NotGained w q) (hconst : ∀ s ∈ heldConstant, w s = 0)
    (hr : RegularRates rates start h2o C.temp)
    (hFg : GasOnlySystem m cores bins species C.temp rates start h2o Fg)
    (hFp : AerosolOnlySystem bins species C ignored Fp)
    {solveGas solvePart : (Fin n → ℝ) → ℚ → Fin n → ℝ} {sim batch gasTime partTime : ℚ} (hs : 0 < sim)
    (hb : 0 < batch) (hg : 0 < gasTime) (hp : 0 < partTime) {zero y0 : Fin n → ℝ} (hy0 : ∀ i, 0 ≤ y0 i)
    {times : List ℚ} {rows : List (Fin n → ℝ)}
    (hrun : runSplit id solveGas solvePart zero y0 sim batch gasTime partTime = .ok (times, rows))
    (hex : ExactSplit Fg Fp solveGas solvePart batch gasTime partTime y0 times.length) :
    (y0 :: rows.take times.length).Pairwise fun a b =>
      weightedTotal m w (everyPhase bins species (stateOf b))
        ≤ weightedTotal m w (everyPhase bins species (stateOf a)) := by
  obtain ⟨sp, hsp, hsum⟩ := index_sum h hq rfl
  have hL := allLayout_good bins species
  have hwater := allLayout_water (bins := bins) (species := species) (by omega)
  have hWg := hFg.weighted h hq hns hsp C
  have hWp := hFp.weighted
  have hns' : (allLayout bins species).numSpecies = m.tables.species.length + 1 := hns
  have hN : (allLayout bins species).numSpecies - 1 = m.tables.species.length := by omega
  have := (hFg.tame h hq hns hC hpos hone hr).split_total (hFp.tame hC)
    (fun i : Fin n => slotWeight (allLayout bins species) (nameWeight sp w) i)
    (fun t y hy => by
      rw [hWg.total hL hwater, hN]
      exact gasPart_le hsp hsum (fortran_trueWeights h hq hgood hsame) hw hconst hr.nonneg t
        (stateOf_nonneg hy))
    (fun t y _ => by rw [hWp.total hL hwater]; simp) hs hb hg hp hy0 hrun hex
  refine this.imp fun {a b} hab => ?_
  rw [hWg.total_state hL, hWg.total_state hL, nameWeight_allPhases hns' hsum,
    nameWeight_allPhases hns' hsum] at hab
  rwa [weightedTotal_everyPhase h hns, weightedTotal_everyPhase h hns] at hab

/-- C89: with exact solvers an operator-split simulation that starts from non-negative concentrations
reports only non-negative concentrations. -/
theorem C89_nonneg (h : extractMechanism text = .ok m) (hq : Reads text m.equations.toNat qs)
    (hns : species = m.tables.species.length + 1) (hC : PhysConst (allLayout bins species) C)
    (hpos : ∀ q ∈ qs, ∀ p ∈ chemReactants q ++ chemProducts q, 0 < p.1) (hone : WholeReactants qs)
    (hr : RegularRates rates start h2o C.temp)
    (hFg : GasOnlySystem m cores bins species C.temp rates start h2o Fg)
    (hFp : AerosolOnlySystem bins species C ignored Fp)
    {solveGas solvePart : (Fin n → ℝ) → ℚ → Fin n → ℝ} {sim batch gasTime partTime : ℚ} (hs : 0 < sim)
    (hb : 0 < batch) (hg : 0 < gasTime) (hp : 0 < partTime) {zero y0 : Fin n → ℝ} (hy0 : ∀ i, 0 ≤ y0 i)
    {times : List ℚ} {rows : List (Fin n → ℝ)}
    (hrun : runSplit id solveGas solvePart zero y0 sim batch gasTime partTime = .ok (times, rows))
    (hex : ExactSplit Fg Fp solveGas solvePart batch gasTime partTime y0 times.length) :
    ∀ row ∈ rows.take times.length, ∀ i, 0 ≤ row i :=
  (hFg.tame h hq hns hC hpos hone hr).split_nonneg (hFp.tame hC) hs hb hg hp hy0 hrun hex

/-- C89, existence: two solvers that are exact for every operator-split run from non-negative
concentrations. -/
theorem C89_exists (h : extractMechanism text = .ok m) (hq : Reads text m.equations.toNat qs)
    (hless : GainsLess m) (hns : species = m.tables.species.length + 1)
    (hC : PhysConst (allLayout bins species) C)
    (hpos : ∀ q ∈ qs, ∀ p ∈ chemReactants q ++ chemProducts q, 0 < p.1) (hone : WholeReactants qs)
    (hw : ∀ s i, m.tables.index.get? s = some i → s ∉ heldConstant → ∃ w : Str → ℝ,
      (∀ s, 0 ≤ w s) ∧ 0 < w s ∧ (∀ s ∈ heldConstant, w s = 0) ∧ ∀ q ∈ qs, NotGained w q)
    (hr : PiecewiseRates rates start h2o C.temp)
    (hFg : GasOnlySystem m cores bins species C.temp rates start h2o Fg)
    (hFp : AerosolOnlySystem bins species C ignored Fp) :
    ∃ solveGas solvePart : (Fin n → ℝ) → ℚ → Fin n → ℝ, ∀ (batch gasTime partTime : ℚ), 0 < batch →
      0 < gasTime → 0 < partTime → ∀ y0, (∀ i, 0 ≤ y0 i) → ∀ k,
        ExactSplit Fg Fp solveGas solvePart batch gasTime partTime y0 k :=
  (hFg.tame h hq hns hC hpos hone hr.regular).split_exact_solvers (hFp.tame hC)
    (hFg.boxPieces h hq hns hC hone hr) (hFp.boxPieces hC)
    (hFg.dissipative h hq hpos hless hns hr.regular.nonneg hw C) (hFp.dissipative (by omega))

/-- C89, uniqueness: all exact solvers report the same. -/
theorem C89_unique (h : extractMechanism text = .ok m) (hq : Reads text m.equations.toNat qs)
    (hns : species = m.tables.species.length + 1) (hC : PhysConst (allLayout bins species) C)
    (hpos : ∀ q ∈ qs, ∀ p ∈ chemReactants q ++ chemProducts q, 0 < p.1) (hone : WholeReactants qs)
    (hr : PiecewiseRates rates start h2o C.temp)
    (hFg : GasOnlySystem m cores bins species C.temp rates start h2o Fg)
    (hFp : AerosolOnlySystem bins species C ignored Fp)
    {solveGas solvePart solveGas' solvePart' : (Fin n → ℝ) → ℚ → Fin n → ℝ}
    {sim batch gasTime partTime : ℚ} (hs : 0 < sim)
    (hb : 0 < batch) (hg : 0 < gasTime) (hp : 0 < partTime) {zero y0 : Fin n → ℝ} (hy0 : ∀ i, 0 ≤ y0 i)
    {times times' : List ℚ} {rows rows' : List (Fin n → ℝ)}
    (hrun : runSplit id solveGas solvePart zero y0 sim batch gasTime partTime = .ok (times, rows))
    (hrun' : runSplit id solveGas' solvePart' zero y0 sim batch gasTime partTime = .ok (times', rows'))
    (hex : ExactSplit Fg Fp solveGas solvePart batch gasTime partTime y0 times.length)
    (hex' : ExactSplit Fg Fp solveGas' solvePart' batch gasTime partTime y0 times'.length) :
    times = times' ∧ rows = rows' :=
  (hFg.tame h hq hns hC hpos hone hr.regular).split_unique (hFp.tame hC)
    (hFg.boxPieces h hq hns hC hone hr) (hFp.boxPieces hC) hs hb hg hp hy0 hrun hrun' hex hex'

end Systems

/-! ## A case the theorems apply to -/

theorem radical_gas_only (cores : Option ℕ) (bins : ℕ) (temp : ℝ) (rates : Rates) (start h2o : ℝ) :
    ∃ F : ℝ → (Fin (6 + bins * 6) → ℝ) → Fin (6 + bins * 6) → ℝ,
      GasOnlySystem ⟨build radicalReactions, 2⟩ cores bins 6 temp rates start h2o F := by
  have hsome : ∀ time y, (gasOnlyRhs (build radicalReactions) 2 cores (allLayout bins 6) temp
      (ro2Indices (build radicalReactions).index) rates start h2o time y).isSome := by
    intro time y
    unfold gasOnlyRhs
    rw [ro2Total_some (by decide +kernel), Option.bind_some, Option.isSome_map]
    refine (gasRhsF_isSome radical_parses _ _ _ _ _ _).2 fun s i hs hx => ?_
    refine (C18_valid_iff radical_parses
      ⟨firstEntries ((allLayout bins 6).numSpecies - 1) y, fun _ => 0⟩ (fun _ => 0)).1 ?_ s i hs hx
    rw [exec_isSome_iff]
    intro k rhs hm
    exact (C18_valid_partial radical_parses radical_reads
      (fun q hq => (radical_regular q hq).gain) k rhs hm).2 _
  exact ⟨fun t y i => (gasOnlyRhs (build radicalReactions) 2 cores (allLayout bins 6) temp
      (ro2Indices (build radicalReactions).index) rates start h2o t (stateOf y)).get (hsome _ _) i,
    rfl, fun t y => ⟨_, (Option.some_get (hsome t (stateOf y))).symm, fun _ => rfl⟩⟩

/-- For `radicalText` with two bins, one species being ignored, all hypotheses of `C89` are met: there are
exact solvers, and with them a run of a minute completes, keeps the total of `radicalWeight` over all phases
and stays non-negative. -/
theorem radical_split_run :
    ∃ (Fg Fp : ℝ → (Fin 18 → ℝ) → Fin 18 → ℝ) (solveGas solvePart : (Fin 18 → ℝ) → ℚ → Fin 18 → ℝ),
      GasOnlySystem ⟨build radicalReactions, 2⟩ none 2 6 waterConst.temp wavyRates 0 0 Fg ∧
      AerosolOnlySystem 2 6 waterConst [0] Fp ∧
      ∀ y0 : Fin 18 → ℝ, (∀ i, 0 ≤ y0 i) →
        (∀ k, ExactSplit Fg Fp solveGas solvePart 10 10 20 y0 k) ∧
        ∃ times rows, runSplit id solveGas solvePart (fun _ => 0) y0 60 10 10 20 = .ok (times, rows) ∧
          ∀ row ∈ rows.take times.length, (∀ i, 0 ≤ row i) ∧
            weightedTotal ⟨build radicalReactions, 2⟩ (fun s => (radicalWeight s : ℝ))
                (everyPhase 2 6 (stateOf row))
              = weightedTotal ⟨build radicalReactions, 2⟩ (fun s => (radicalWeight s : ℝ))
                (everyPhase 2 6 (stateOf y0)) := by
  obtain ⟨Fg, hFg⟩ := radical_gas_only none 2 waterConst.temp wavyRates 0 0
  have hFp : AerosolOnlySystem 2 6 waterConst [0]
      (fun (_ : ℝ) (y : Fin 18 → ℝ) (i : Fin 18) => aerosolOnlyRhs (allLayout 2 6) waterConst [0]
        (stateOf y) i) := ⟨rfl, fun _ _ _ => rfl⟩
  have hgood : ∀ q ∈ radicalReactions, GainGood q := fun q hq => (radical_regular q hq).gain
  have hns : 6 = (build radicalReactions).species.length + 1 := by decide +kernel
  obtain ⟨solveGas, solvePart, hsolve⟩ := C89_exists radical_parses radical_reads radical_sameNet.less hns
    (waterConst_phys _) radical_positive.1 radical_positive.2 radical_weights
    (wavyRates_smooth 0 0 _).piecewise hFg hFp
  refine ⟨Fg, _, solveGas, solvePart, hFg, hFp, fun y0 hy0 => ?_⟩
  have hex := hsolve 10 10 20 (by norm_num) (by norm_num) (by norm_num) y0 hy0
  obtain ⟨⟨times, rows⟩, hrun⟩ := C49_completes_partial solveGas solvePart (fun _ => 0) y0 (sim := 60)
    (batch := 10) (gasTime := 10) (partTime := 20) (by norm_num) (by norm_num) le_rfl (by norm_num)
    ⟨6, by norm_num⟩
  refine ⟨hex, times, rows, hrun, fun row hrow => ⟨?_, ?_⟩⟩
  · exact C89_nonneg radical_parses radical_reads hns (waterConst_phys _)
      radical_positive.1 radical_positive.2 (wavyRates_smooth 0 0 _).regular hFg hFp (by norm_num)
      (by norm_num) (by norm_num) (by norm_num) hy0 hrun (hex _) row hrow
  · exact C89_conserved radical_parses radical_reads hgood radical_sameNet hns _
      radical_balanced radical_held hFg hFp (by norm_num) (by norm_num) (by norm_num) (by norm_num) hrun
      (hex _) row hrow

end PyBox
