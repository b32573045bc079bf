import Verif.Props.AerosolSmooth
import Verif.Props.WellPosed

/-!
# C62 to C64: simulations with particles along their trajectories

What a simulation with particles conserves, that it stays non-negative, and that it has exactly one exact
result. The solver is taken to be exact as in `C59` to `C61`. Fixed yield simulations
(`/repo/Aerosol/f2py/Fixed_yield`) have no chemistry, so there every species is conserved.
-/

namespace PyBox

open Set Spec Aerosol

namespace Spec

/-- What there is of gas species `s` in the gas and in all bins together. -/
noncomputable def allPhases (L : Aerosol.Layout) (y : ℕ → ℝ) (s : ℕ) : ℝ :=
  y s + ∑ j ∈ Finset.range L.numCond, if L.incl[j]? = some s then
    ∑ b ∈ Finset.range L.numBins, y (L.numSpecies + b * L.numCond + j) else 0

/-- `F` is the function handed to the solver of a simulation with particles. -/
def AerosolSystem (m : Mechanism) (cores : Option ℕ) (L : Aerosol.Layout) (C : AeroConst) (rates : Rates)
    (start h2o : ℝ) {n : ℕ} (F : ℝ → (Fin n → ℝ) → Fin n → ℝ) : Prop :=
  n = L.numSpecies + L.numBins * L.numCond ∧ ∀ (time : ℝ) (y : Fin n → ℝ), ∃ out,
    aerosolRhs m.tables m.equations.toNat cores L C (ro2Indices m.tables.index) rates start h2o time
      (stateOf y) = some out ∧ ∀ i : Fin n, F time y i = out i

/-- `F` is the function handed to the solver of a fixed yield simulation. -/
def FixedYieldSystem (L : Aerosol.Layout) (C : AeroConst) {n : ℕ} (F : ℝ → (Fin n → ℝ) → Fin n → ℝ) : Prop :=
  n = L.numSpecies + L.numBins * L.numCond ∧ ∀ (time : ℝ) (y : Fin n → ℝ) (i : Fin n),
    F time y i = fixedYieldRhs L C (stateOf y) i

end Spec

/-! ## Exchange with chemistry `G` -/

/-- `F` adds the exchange with the particles to the chemistry `G`. -/
structure MixedSystem (L : Aerosol.Layout) (C : AeroConst) (G : ℝ → (ℕ → ℝ) → ℕ → ℝ) {n : ℕ}
    (F : ℝ → (Fin n → ℝ) → Fin n → ℝ) : Prop where
  size : n = L.numSpecies + L.numBins * L.numCond
  value : ∀ t z (i : Fin n), F t z i
    = addUp L (G t (stateOf z)) (partition L (partArgs L C (stateOf z))) i

section Mixed

variable {L : Aerosol.Layout} {C : AeroConst} {G : ℝ → (ℕ → ℝ) → ℕ → ℝ} {n : ℕ}
  {F : ℝ → (Fin n → ℝ) → Fin n → ℝ}

theorem MixedSystem.entry (hF : MixedSystem L C G F) (t : ℝ) (z : Fin n → ℝ) (i : Fin n) :
    F t z i = (if (i : ℕ) < L.numSpecies - 1 then G t (stateOf z) i else 0)
      + partition L (partArgs L C (stateOf z)) i := by
  rw [hF.value]
  unfold addUp
  rw [if_pos (show (i : ℕ) < L.numSpecies + L.numCond * L.numBins by
    rw [Nat.mul_comm, ← hF.size]; exact i.2)]

theorem MixedSystem.tame (hF : MixedSystem L C G F) (hL : GoodLayout L) (hC : PhysConst L C)
    (hnear : ∀ i < L.numSpecies - 1, ∀ t (y : Fin n → ℝ), (∀ i, 0 ≤ y i) →
      NearLip t y (fun t z => G t (stateOf z) i))
    (hquasi : ∀ i < L.numSpecies - 1, ∀ t (y : ℕ → ℝ), (∀ i, 0 ≤ y i) → y i = 0 → 0 ≤ G t y i) :
    Tame F := by
  constructor
  · intro t y hy i
    simp only [hF.entry]
    refine NearLip.add ?_ (NearLip.of_contDiffAt (partition_contDiffAt hL hC hy (hF.size ▸ i.2)))
    by_cases hi : (i : ℕ) < L.numSpecies - 1
    · simp only [if_pos hi]
      exact hnear i hi t y hy
    · simp only [if_neg hi]
      exact NearLip.const 0
  · intro t y hy i hi
    have hy' := stateOf_nonneg hy
    have hi' : stateOf y i = 0 := by rw [stateOf_fin, hi]
    rw [hF.entry]
    refine add_nonneg ?_ ?_
    · split
      · exact hquasi i (by assumption) t _ hy' hi'
      · exact le_rfl
    · rcases C38_layout L.numSpecies L.numCond L.numBins i (hF.size ▸ i.2) with
        ⟨h1, -⟩ | ⟨-, ⟨b, j⟩, ⟨h1, h2, h3⟩, -⟩
      · by_cases hm : (i : ℕ) ∈ L.incl
        · obtain ⟨j, hj, hji⟩ := List.mem_iff_getElem.1 hm
          have hjs : L.incl[j]? = some (i : ℕ) := by rw [List.getElem?_eq_getElem hj, hji]
          have hj' : j < L.numCond := hL.len ▸ hj
          have := C36_exchange L (partArgs L C (stateOf y)) hL j hj
          rw [hji] at this
          rw [this, neg_nonneg]
          refine Finset.sum_nonpos fun b hb => ?_
          have hb' := Finset.mem_range.1 hb
          rw [partition_slot L _ b j hb' hj']
          exact hC.no_condensation hy' hb' hj' hjs hi'
        · rw [C37_excluded L _ _ h1 hm]
      · simp only at h1 h2 h3
        rw [h3, partition_slot L _ b j h1 h2]
        have hj : j < L.incl.length := hL.len ▸ h2
        exact hC.no_evaporation hy' h1 h2 (List.getElem?_eq_getElem hj) (by rw [← h3]; exact hi')

theorem MixedSystem.boxPieces (hF : MixedSystem L C G F) (hL : GoodLayout L) (hC : PhysConst L C)
    (hlip : ∀ i < L.numSpecies - 1, ∀ T R, 0 ≤ R →
      SetLip (Icc 0 T) (box R) (fun t (z : Fin n → ℝ) => G t (stateOf z) i))
    (htime : ∀ i < L.numSpecies - 1, PiecewiseContinuous
      fun (y : {y : Fin n → ℝ // ∀ i, 0 ≤ y i}) t => G t (stateOf y.1) i) : BoxPieces F := by
  constructor
  · intro T R hR i
    simp only [hF.entry]
    refine SetLip.add ?_ (SetLip.of_contDiffAt fun z hz =>
      partition_contDiffAt hL hC hz (hF.size ▸ i.2))
    by_cases hi : (i : ℕ) < L.numSpecies - 1
    · simp only [if_pos hi]
      exact hlip i hi T R hR
    · simp only [if_neg hi]
      exact SetLip.const 0
  · refine PiecewiseContinuous.pi fun i => ?_
    simp only [hF.entry]
    by_cases hi : (i : ℕ) < L.numSpecies - 1
    · simp only [if_pos hi]
      exact (htime i hi).map_continuous (φ := fun y x => x + _) fun _ => by fun_prop
    · simp only [if_neg hi]
      exact PiecewiseContinuous.of_continuous fun _ => continuous_const

/-! ## Totals over all phases -/

/-- The weights of the entries of the state when gas species `s` has weight `W s`. -/
def slotWeight (L : Aerosol.Layout) (W : ℕ → ℝ) (i : ℕ) : ℝ :=
  if i < L.numSpecies then W i else
    match L.incl[(i - L.numSpecies) % L.numCond]? with
    | some s => W s
    | none => 0

theorem slotWeight_slot (hL : GoodLayout L) (W : ℕ → ℝ) {b j s : ℕ} (hjs : L.incl[j]? = some s) :
    slotWeight L W (L.numSpecies + b * L.numCond + j) = W s := by
  obtain ⟨hj, -⟩ := List.getElem?_eq_some_iff.1 hjs
  have hj' : j < L.numCond := hL.len ▸ hj
  unfold slotWeight
  rw [if_neg (by omega)]
  have : (L.numSpecies + b * L.numCond + j - L.numSpecies) % L.numCond = j := by
    rw [show L.numSpecies + b * L.numCond + j - L.numSpecies = j + b * L.numCond by omega,
      Nat.add_mul_mod_self_right, Nat.mod_eq_of_lt hj']
  rw [this, hjs]

theorem slotWeight_nonneg {W : ℕ → ℝ} (hW : ∀ i, 0 ≤ W i) (i : ℕ) : 0 ≤ slotWeight L W i := by
  unfold slotWeight
  split
  · exact hW i
  · split
    · exact hW _
    · exact le_rfl

theorem sum_allPhases (hL : GoodLayout L) (W y : ℕ → ℝ) :
    ∑ i ∈ Finset.range (L.numSpecies + L.numBins * L.numCond), slotWeight L W i * y i
      = ∑ s ∈ Finset.range L.numSpecies, W s * allPhases L y s := by
  rw [sum_slots]
  have h1 : ∑ i ∈ Finset.range L.numSpecies, slotWeight L W i * y i
      = ∑ i ∈ Finset.range L.numSpecies, W i * y i := by
    refine Finset.sum_congr rfl fun i hi => ?_
    unfold slotWeight
    rw [if_pos (Finset.mem_range.1 hi)]
  have h2 : ∑ b ∈ Finset.range L.numBins, ∑ j ∈ Finset.range L.numCond,
        slotWeight L W (L.numSpecies + b * L.numCond + j) * y (L.numSpecies + b * L.numCond + j)
      = ∑ s ∈ Finset.range L.numSpecies, W s * ∑ j ∈ Finset.range L.numCond,
          if L.incl[j]? = some s then
            ∑ b ∈ Finset.range L.numBins, y (L.numSpecies + b * L.numCond + j) else 0 := by
    rw [Finset.sum_comm]
    simp only [Finset.mul_sum]
    rw [Finset.sum_comm (s := Finset.range L.numSpecies)]
    refine Finset.sum_congr rfl fun j hj => ?_
    have hj' : j < L.incl.length := hL.len.symm ▸ Finset.mem_range.1 hj
    have hjs : L.incl[j]? = some L.incl[j] := List.getElem?_eq_getElem hj'
    have hlt : L.incl[j] ∈ Finset.range L.numSpecies :=
      Finset.mem_range.2 (hL.valid _ (List.getElem_mem hj'))
    rw [Finset.sum_eq_single_of_mem _ hlt]
    · rw [if_pos hjs, Finset.mul_sum]
      exact Finset.sum_congr rfl fun b _ => by rw [slotWeight_slot hL W hjs]
    · intro s _ hs
      rw [if_neg, mul_zero]
      rw [hjs]
      intro h
      exact hs (Option.some.inj h).symm
  rw [h1, h2, ← Finset.sum_add_distrib]
  exact Finset.sum_congr rfl fun s _ => by unfold allPhases; ring

/-- The exchange leaves what there is of a species in all phases to the chemistry. -/
theorem allPhases_coupled (hL : GoodLayout L) {gas out : ℕ → ℝ} (h : Coupled L gas out) {s : ℕ}
    (hs : s < L.numSpecies) (hw : L.numSpecies - 1 ∈ L.incl) :
    allPhases L out s = if s < L.numSpecies - 1 then gas s else 0 := by
  unfold allPhases
  by_cases hm : s ∈ L.incl
  · obtain ⟨j, hj, hjs⟩ := List.mem_iff_getElem.1 hm
    have hj' : j < L.numCond := hL.len ▸ hj
    have hjs' : L.incl[j]? = some s := by rw [List.getElem?_eq_getElem hj, hjs]
    rw [Finset.sum_eq_single_of_mem j (Finset.mem_range.2 hj')]
    · rw [if_pos hjs']
      by_cases hlt : s < L.numSpecies - 1
      · rw [if_pos hlt, h.shared j s hjs' hlt]
      · have : s = L.numSpecies - 1 := by omega
        rw [if_neg hlt, this]
        exact h.water j (this ▸ hjs')
    · intro k hk hkj
      rw [if_neg]
      intro hks
      have hk' : k < L.incl.length := hL.len.symm ▸ Finset.mem_range.1 hk
      rw [List.getElem?_eq_getElem hk'] at hks
      exact hkj ((List.Nodup.getElem_inj_iff hL.nodup).1 ((Option.some.inj hks).trans hjs.symm))
  · rw [Finset.sum_eq_zero, add_zero]
    · have hlt : s < L.numSpecies - 1 := by
        by_contra hc
        have : s = L.numSpecies - 1 := by omega
        exact hm (this ▸ hw)
      rw [if_pos hlt, h.stays s hlt hm]
    · intro j _
      rw [if_neg]
      exact fun hjs => hm (List.mem_of_getElem? hjs)

theorem MixedSystem.sum_fin (hF : MixedSystem L C G F) (c y : ℕ → ℝ) :
    ∑ i : Fin n, c i * y i
      = ∑ i ∈ Finset.range (L.numSpecies + L.numBins * L.numCond), c i * y i := by
  rw [Fin.sum_univ_eq_sum_range (fun i => c i * y i), hF.size]

theorem MixedSystem.total_state (hF : MixedSystem L C G F) (hL : GoodLayout L) (W : ℕ → ℝ)
    (y : Fin n → ℝ) : ∑ i : Fin n, slotWeight L W i * y i
      = ∑ s ∈ Finset.range L.numSpecies, W s * allPhases L (stateOf y) s := by
  rw [← sum_allPhases hL, ← hF.sum_fin]
  exact Finset.sum_congr rfl fun i _ => by rw [stateOf_fin]

/-- Only chemistry changes totals over all phases. -/
theorem MixedSystem.total (hF : MixedSystem L C G F) (hL : GoodLayout L)
    (hw : L.numSpecies - 1 ∈ L.incl) (W : ℕ → ℝ) (t : ℝ) (z : Fin n → ℝ) :
    ∑ i : Fin n, slotWeight L W i * F t z i
      = ∑ s ∈ Finset.range (L.numSpecies - 1), W s * G t (stateOf z) s := by
  have h1 : ∑ i : Fin n, slotWeight L W i * F t z i = ∑ i : Fin n, slotWeight L W i *
      addUp L (G t (stateOf z)) (partition L (partArgs L C (stateOf z))) i :=
    Finset.sum_congr rfl fun i _ => by rw [hF.value]
  rw [h1, hF.sum_fin, sum_allPhases hL]
  have hcp := addUp_coupled hL (G t (stateOf z)) (partArgs L C (stateOf z))
  have hlt := hL.valid _ hw
  have hsucc : L.numSpecies = (L.numSpecies - 1) + 1 := by omega
  have h2 : ∀ s ∈ Finset.range L.numSpecies, W s * allPhases L
      (addUp L (G t (stateOf z)) (partition L (partArgs L C (stateOf z)))) s
      = W s * if s < L.numSpecies - 1 then G t (stateOf z) s else 0 := fun s hs => by
    rw [allPhases_coupled hL hcp (Finset.mem_range.1 hs) hw]
  rw [Finset.sum_congr rfl h2, hsucc, Finset.sum_range_succ]
  simp only [Nat.add_sub_cancel, lt_irrefl, if_false, mul_zero, add_zero]
  exact Finset.sum_congr rfl fun s hs => by rw [if_pos (Finset.mem_range.1 hs)]

theorem MixedSystem.dissipative (hF : MixedSystem L C G F) (hL : GoodLayout L)
    (hw : L.numSpecies - 1 ∈ L.incl)
    (hW : ∀ s < L.numSpecies, ∃ W : ℕ → ℝ, (∀ i, 0 ≤ W i) ∧ 0 < W s ∧ ∀ t y, (∀ i, 0 ≤ y i) →
      ∑ s ∈ Finset.range (L.numSpecies - 1), W s * G t y s ≤ 0) : Dissipative F := by
  intro i
  have hs : ∃ s < L.numSpecies, ∀ W : ℕ → ℝ, slotWeight L W i = W s := by
    rcases C38_layout L.numSpecies L.numCond L.numBins i (hF.size ▸ i.2) with
      ⟨h1, -⟩ | ⟨-, ⟨b, j⟩, ⟨-, h2, h3⟩, -⟩
    · exact ⟨i, h1, fun W => by unfold slotWeight; rw [if_pos h1]⟩
    · simp only at h2 h3
      have hj : j < L.incl.length := hL.len.symm ▸ h2
      refine ⟨L.incl[j], hL.valid _ (List.getElem_mem hj), fun W => ?_⟩
      rw [h3, slotWeight_slot hL W (List.getElem?_eq_getElem hj)]
  obtain ⟨s, hlt, hsW⟩ := hs
  obtain ⟨W, h0, hpos, htot⟩ := hW s hlt
  refine ⟨fun i => slotWeight L W i, fun i => slotWeight_nonneg h0 i, lt_of_lt_of_eq hpos (hsW W).symm,
    fun t y hy => ?_⟩
  rw [hF.total hL hw]
  exact htot t _ (stateOf_nonneg hy)

theorem MixedSystem.rows_allPhases (hF : MixedSystem L C G F) (hL : GoodLayout L)
    (hw : L.numSpecies - 1 ∈ L.incl) (W : ℕ → ℝ)
    (hW : ∀ t y, ∑ s ∈ Finset.range (L.numSpecies - 1), W s * G t y s = 0)
    {solve : (Fin n → ℝ) → ℚ → Fin n → ℝ} {sim batch : ℚ} (hs : 0 < sim) (hb : 0 < batch)
    {zero y0 : Fin n → ℝ} {times : List ℚ} {rows : List (Fin n → ℝ)}
    (hrun : runSimulation id solve zero y0 sim batch = .ok (times, rows))
    (hex : ExactBatches F solve batch y0 rows.length) : ∀ row ∈ rows,
      ∑ s ∈ Finset.range L.numSpecies, W s * allPhases L (stateOf row) s
        = ∑ s ∈ Finset.range L.numSpecies, W s * allPhases L (stateOf y0) s := by
  intro row hrow
  rw [← hF.total_state hL, ← hF.total_state hL]
  exact rows_constant (fun i : Fin n => slotWeight L W i) (fun t y => by rw [hF.total hL hw, hW])
    hs hb hrun hex row hrow

theorem sum_indicator {N s : ℕ} (hs : s < N) (f : ℕ → ℝ) :
    ∑ k ∈ Finset.range N, (if k = s then (1 : ℝ) else 0) * f k = f s := by
  simp [Finset.sum_ite_eq', hs]

/-- A species without chemistry is only moved between the phases. -/
theorem MixedSystem.rows_species (hF : MixedSystem L C G F) (hL : GoodLayout L)
    (hw : L.numSpecies - 1 ∈ L.incl) {s : ℕ} (hlt : s < L.numSpecies)
    (hG : s < L.numSpecies - 1 → ∀ t y, G t y s = 0)
    {solve : (Fin n → ℝ) → ℚ → Fin n → ℝ} {sim batch : ℚ} (hs : 0 < sim) (hb : 0 < batch)
    {zero y0 : Fin n → ℝ} {times : List ℚ} {rows : List (Fin n → ℝ)}
    (hrun : runSimulation id solve zero y0 sim batch = .ok (times, rows))
    (hex : ExactBatches F solve batch y0 rows.length) :
    ∀ row ∈ rows, allPhases L (stateOf row) s = allPhases L (stateOf y0) s := by
  intro row hrow
  have := hF.rows_allPhases hL hw (fun k => if k = s then 1 else 0) (fun t y => ?_) hs hb hrun hex row hrow
  · rwa [sum_indicator hlt, sum_indicator hlt] at this
  · refine Finset.sum_eq_zero fun k hk => ?_
    split
    · rename_i hks
      rw [hks, hG (hks ▸ Finset.mem_range.1 hk), mul_zero]
    · rw [zero_mul]

end Mixed

/-! ## The two simulations with particles -/

section Systems

variable {text : Str} {m : Mechanism} {qs : List RawEqn} {cores : Option ℕ} {L : Aerosol.Layout}
  {C : AeroConst} {rates : Rates} {start h2o : ℝ} {n : ℕ} {F : ℝ → (Fin n → ℝ) → Fin n → ℝ}

/-- The chemistry of a simulation with particles: the tendency of the species with index `i`. -/
noncomputable def gasPart (m : Mechanism) (qs : List RawEqn) (rates : Rates) (start h2o temp : ℝ)
    (sp : Fin m.tables.species.length → Str) (t : ℝ) (y : ℕ → ℝ) (i : ℕ) : ℝ :=
  if hi : i < m.tables.species.length then
    kineticValue m qs (netFortran m.tables) rates start h2o temp (sp ⟨i, hi⟩) t y else 0

theorem Spec.AerosolSystem.mixed (h : extractMechanism text = .ok m)
    (hq : Reads text m.equations.toNat qs) (hns : L.numSpecies = m.tables.species.length + 1)
    (hF : AerosolSystem m cores L C rates start h2o F) {sp : Fin m.tables.species.length → Str}
    (hsp : ∀ (i : Fin m.tables.species.length) s, m.tables.index.get? s = some (i : ℕ) ↔ s = sp i) :
    MixedSystem L C (gasPart m qs rates start h2o C.temp sp) F := by
  refine ⟨hF.1, fun t z i => ?_⟩
  obtain ⟨out, hout, hFi⟩ := hF.2 t z
  rw [hFi]
  unfold aerosolRhs at hout
  obtain ⟨ro2, hro2, hgas⟩ := Option.bind_eq_some_iff.1 hout
  obtain ⟨gas, hg, rfl⟩ := Option.map_eq_some_iff.1 hgas
  unfold ro2Total at hro2
  split at hro2
  · cases hro2
  · rw [← Option.some.inj hro2] at hg
    rw [gasRhsF_congr h _ _ _ _ _ (y' := stateOf z) (fun j hj => by
      unfold firstEntries; rw [if_pos (by omega)])] at hg
    unfold addUp
    refine congrArg₂ (· + ·) ?_ rfl
    by_cases hi : (i : ℕ) < L.numSpecies - 1
    · have hi' : (i : ℕ) < m.tables.species.length := by omega
      rw [if_pos hi, if_pos hi, gasPart, dif_pos hi']
      exact gasRhsF_kinetic h hq hg ((hsp ⟨i, hi'⟩ _).2 rfl)
    · rw [if_neg hi, if_neg hi]

theorem Spec.FixedYieldSystem.mixed (hF : FixedYieldSystem L C F) :
    MixedSystem L C (fun _ _ _ => 0) F :=
  ⟨hF.1, fun t z i => hF.2 t z i⟩

theorem Spec.FixedYieldSystem.tame (hF : FixedYieldSystem L C F) (hL : GoodLayout L)
    (hC : PhysConst L C) : Tame F :=
  hF.mixed.tame hL hC (fun _ _ _ _ _ => NearLip.const 0) (fun _ _ _ _ _ _ => le_rfl)

theorem Spec.FixedYieldSystem.boxPieces (hF : FixedYieldSystem L C F) (hL : GoodLayout L)
    (hC : PhysConst L C) : BoxPieces F :=
  hF.mixed.boxPieces hL hC (fun _ _ _ _ _ => SetLip.const 0)
    (fun _ _ => PiecewiseContinuous.of_continuous fun _ => continuous_const)

theorem Spec.FixedYieldSystem.dissipative (hF : FixedYieldSystem L C F) (hL : GoodLayout L)
    (hw : L.numSpecies - 1 ∈ L.incl) : Dissipative F :=
  hF.mixed.dissipative hL hw fun s _ => ⟨fun _ => 1, fun _ => zero_le_one, zero_lt_one, fun t y _ => by simp⟩

theorem Spec.AerosolSystem.tame (hF : AerosolSystem m cores L C rates start h2o F)
    (h : extractMechanism text = .ok m) (hq : Reads text m.equations.toNat qs)
    (hns : L.numSpecies = m.tables.species.length + 1) (hL : GoodLayout L) (hC : PhysConst L C)
    (hpos : ∀ q ∈ qs, ∀ p ∈ chemReactants q ++ chemProducts q, 0 < p.1) (hone : WholeReactants qs)
    (hr : RegularRates rates start h2o C.temp) : Tame F := by
  obtain ⟨sp, hsp, -⟩ := index_sum h hq rfl
  refine (hF.mixed h hq hns hsp).tame hL hC (fun i hi t y hy => ?_) (fun i hi t y hy h0 => ?_)
  · have hi' : i < m.tables.species.length := by omega
    simp only [gasPart, dif_pos hi']
    exact kineticValue_nearLip hone hr hy _
  · have hi' : i < m.tables.species.length := by omega
    rw [gasPart, dif_pos hi']
    refine kineticValue_nonneg (recorded_loss_only h hq hpos).2 (left_pos hpos) hr.nonneg t hy ?_
    unfold concOf
    rw [getD_of_get? ((hsp ⟨i, hi'⟩ _).2 rfl)]
    exact h0

theorem Spec.AerosolSystem.boxPieces (hF : AerosolSystem m cores L C rates start h2o F)
    (h : extractMechanism text = .ok m) (hq : Reads text m.equations.toNat qs)
    (hns : L.numSpecies = m.tables.species.length + 1) (hL : GoodLayout L) (hC : PhysConst L C)
    (hone : WholeReactants qs) (hr : PiecewiseRates rates start h2o C.temp) : BoxPieces F := by
  obtain ⟨sp, hsp, -⟩ := index_sum h hq rfl
  refine (hF.mixed h hq hns hsp).boxPieces hL hC (fun i hi T R hR => ?_) (fun i hi => ?_)
  · have hi' : i < m.tables.species.length := by omega
    simp only [gasPart, dif_pos hi']
    exact kineticValue_setLip hone hr hR (SizeAtMost.box _) _
  · have hi' : i < m.tables.species.length := by omega
    simp only [gasPart, dif_pos hi']
    exact kineticValue_pieces hr _ _

/-- Weights of the gas species from weights of names; water has none. -/
noncomputable def nameWeight (sp : Fin n → Str) (w : Str → ℝ) (i : ℕ) : ℝ :=
  if hi : i < n then w (sp ⟨i, hi⟩) else 0

theorem nameWeight_sum (sp : Fin n → Str) (w : Str → ℝ) (f : ℕ → ℝ) :
    ∑ i ∈ Finset.range n, nameWeight sp w i * f i = ∑ i : Fin n, w (sp i) * f i := by
  rw [← Fin.sum_univ_eq_sum_range (fun i => nameWeight sp w i * f i)]
  exact Finset.sum_congr rfl fun i _ => by rw [nameWeight, dif_pos i.2]

theorem gasPart_total {sp : Fin m.tables.species.length → Str} {w : Str → ℝ}
    (hw : ∀ s ∈ heldConstant, w s = 0) {temp : ℝ} (t : ℝ) (y : ℕ → ℝ) :
    ∑ i ∈ Finset.range m.tables.species.length,
        nameWeight sp w i * gasPart m qs rates start h2o temp sp t y i
      = ∑ e ∈ Finset.range qs.length, (∑ i, w (sp i) * netFortran m.tables (sp i) e) *
          (reactionProduct qs m.tables y e *
          rates (start + t) ((ro2Indices m.tables.index).map y).sum h2o temp e) := by
  rw [nameWeight_sum, ← kineticValue_total sp hw]
  exact Finset.sum_congr rfl fun i _ => by rw [gasPart, dif_pos i.2]

theorem gasPart_le {sp : Fin m.tables.species.length → Str}
    (hsp : ∀ (i : Fin m.tables.species.length) s, m.tables.index.get? s = some (i : ℕ) ↔ s = sp i)
    (hsum : ∀ (w : Str → ℝ) (y : ℕ → ℝ), weightedTotal m w y = ∑ i, w (sp i) * y i)
    (hA : TrueWeights m qs (netFortran m.tables)) {w : Str → ℝ} (hw : ∀ q ∈ qs, NotGained w q)
    (hconst : ∀ s ∈ heldConstant, w s = 0) {temp : ℝ}
    (hr : ∀ e time ro2, 0 ≤ ro2 → 0 ≤ rates (start + time) ro2 h2o temp e) (t : ℝ) {y : ℕ → ℝ}
    (hy : ∀ i, 0 ≤ y i) : ∑ i ∈ Finset.range m.tables.species.length,
        nameWeight sp w i * gasPart m qs rates start h2o temp sp t y i ≤ 0 := by
  rw [gasPart_total hconst]
  refine Finset.sum_nonpos fun e he => mul_nonpos_of_nonpos_of_nonneg ?_ ?_
  · have hlt := Finset.mem_range.1 he
    have hqe : qs[e]? = some qs[e] := List.getElem?_eq_getElem hlt
    rw [hA _ sp hsum hsp w hconst e _ hqe]
    exact sub_nonpos.2 (hw _ (List.getElem_mem hlt))
  · refine mul_nonneg (reactionProduct_nonneg _ _ hy e) (hr _ _ _ (List.sum_nonneg fun x hx => ?_))
    obtain ⟨i, -, rfl⟩ := List.mem_map.1 hx
    exact hy i

theorem gasPart_light {sp : Fin m.tables.species.length → Str}
    (hsp : ∀ (i : Fin m.tables.species.length) s, m.tables.index.get? s = some (i : ℕ) ↔ s = sp i)
    (hsum : ∀ (w : Str → ℝ) (y : ℕ → ℝ), weightedTotal m w y = ∑ i, w (sp i) * y i)
    (hA : LightWeights m qs (netFortran m.tables)) {w : Str → ℝ} (hw0 : ∀ s, 0 ≤ w s)
    (hw : ∀ q ∈ qs, NotGained w q)
    (hconst : ∀ s ∈ heldConstant, w s = 0) {temp : ℝ}
    (hr : ∀ e time ro2, 0 ≤ ro2 → 0 ≤ rates (start + time) ro2 h2o temp e) (t : ℝ) {y : ℕ → ℝ}
    (hy : ∀ i, 0 ≤ y i) : ∑ i ∈ Finset.range m.tables.species.length,
        nameWeight sp w i * gasPart m qs rates start h2o temp sp t y i ≤ 0 := by
  rw [gasPart_total hconst]
  refine Finset.sum_nonpos fun e he => mul_nonpos_of_nonpos_of_nonneg ?_ ?_
  · have hlt := Finset.mem_range.1 he
    have hqe : qs[e]? = some qs[e] := List.getElem?_eq_getElem hlt
    exact (hA _ sp hsum hsp w hw0 hconst e _ hqe).trans (sub_nonpos.2 (hw _ (List.getElem_mem hlt)))
  · refine mul_nonneg (reactionProduct_nonneg _ _ hy e) (hr _ _ _ (List.sum_nonneg fun x hx => ?_))
    obtain ⟨i, -, rfl⟩ := List.mem_map.1 hx
    exact hy i

theorem gasPart_zero {sp : Fin m.tables.species.length → Str}
    (hsp : ∀ (i : Fin m.tables.species.length) s, m.tables.index.get? s = some (i : ℕ) ↔ s = sp i)
    (hsum : ∀ (w : Str → ℝ) (y : ℕ → ℝ), weightedTotal m w y = ∑ i, w (sp i) * y i)
    (hA : TrueWeights m qs (netFortran m.tables)) {w : Str → ℝ} (hw : ∀ q ∈ qs, Spec.Balanced w q)
    (hconst : ∀ s ∈ heldConstant, w s = 0) {temp : ℝ} (t : ℝ) (y : ℕ → ℝ) :
    ∑ i ∈ Finset.range m.tables.species.length,
        nameWeight sp w i * gasPart m qs rates start h2o temp sp t y i = 0 := by
  rw [gasPart_total hconst]
  refine Finset.sum_eq_zero fun e he => ?_
  have hlt := Finset.mem_range.1 he
  have hqe : qs[e]? = some qs[e] := List.getElem?_eq_getElem hlt
  rw [hA _ sp hsum hsp w hconst e _ hqe, (hw _ (List.getElem_mem hlt)).symm, sub_self, zero_mul]

theorem nameWeight_allPhases (hns : L.numSpecies = m.tables.species.length + 1)
    {sp : Fin m.tables.species.length → Str}
    (hsum : ∀ (w : Str → ℝ) (y : ℕ → ℝ), weightedTotal m w y = ∑ i, w (sp i) * y i) (w : Str → ℝ)
    (f : ℕ → ℝ) : ∑ s ∈ Finset.range L.numSpecies, nameWeight sp w s * f s = weightedTotal m w f := by
  rw [hns, Finset.sum_range_succ, nameWeight_sum, hsum]
  simp [nameWeight]

theorem Spec.AerosolSystem.dissipative (hF : AerosolSystem m cores L C rates start h2o F)
    (h : extractMechanism text = .ok m) (hq : Reads text m.equations.toNat qs)
    (hpos : ∀ q ∈ qs, ∀ p ∈ chemReactants q ++ chemProducts q, 0 < p.1) (hless : GainsLess m)
    (hns : L.numSpecies = m.tables.species.length + 1) (hL : GoodLayout L)
    (hwater : L.numSpecies - 1 ∈ L.incl)
    (hr : ∀ e time ro2, 0 ≤ ro2 → 0 ≤ rates (start + time) ro2 h2o C.temp e)
    (hw : ∀ s i, m.tables.index.get? s = some i → s ∉ heldConstant → ∃ w : Str → ℝ,
      (∀ s, 0 ≤ w s) ∧ 0 < w s ∧ (∀ s ∈ heldConstant, w s = 0) ∧ ∀ q ∈ qs, NotGained w q) :
    Dissipative F := by
  obtain ⟨sp, hsp, hsum⟩ := index_sum h hq rfl
  have hN : L.numSpecies - 1 = m.tables.species.length := by omega
  refine (hF.mixed h hq hns hsp).dissipative hL hwater fun s hs => ?_
  rw [hN]
  have hind : (∀ hi : s < m.tables.species.length, sp ⟨s, hi⟩ ∈ heldConstant) →
      ∃ W : ℕ → ℝ, (∀ i, 0 ≤ W i) ∧ 0 < W s ∧ ∀ t y, (∀ i, 0 ≤ y i) →
        ∑ i ∈ Finset.range m.tables.species.length,
          W i * gasPart m qs rates start h2o C.temp sp t y i ≤ 0 := by
    intro hx
    refine ⟨fun i => if i = s then 1 else 0, fun i => by dsimp only; split <;> norm_num, by simp,
      fun t y _ => le_of_eq (Finset.sum_eq_zero fun k hk => ?_)⟩
    have hk' := Finset.mem_range.1 hk
    dsimp only
    split
    · rename_i hks
      subst hks
      rw [gasPart, dif_pos hk', kineticValue, if_pos (hx hk'), mul_zero]
    · rw [zero_mul]
  by_cases hi : s < m.tables.species.length
  · by_cases hx : sp ⟨s, hi⟩ ∈ heldConstant
    · exact hind fun _ => hx
    · obtain ⟨w, hw0, hwi, hwc, hwq⟩ := hw _ s ((hsp ⟨s, hi⟩ _).2 rfl) hx
      refine ⟨nameWeight sp w, fun i => ?_, by rw [nameWeight, dif_pos hi]; exact hwi, fun t y hy =>
        gasPart_light hsp hsum (fortran_lightWeights h hq hpos hless) hw0 hwq hwc hr t hy⟩
      unfold nameWeight
      split
      · exact hw0 _
      · exact le_rfl
  · exact hind fun hi' => absurd hi' hi

/-! ## C62: what is conserved -/

/-- C62: with an exact solver every reported row of a simulation with particles holds the same weighted
total over all phases, for all weights that every reaction balances. -/
theorem C62_conserved (h : extractMechanism text = .ok m) (hq : Reads text m.equations.toNat qs)
    (hg : ∀ q ∈ qs, GainGood q) (hsame : SameNet m) (hL : GoodLayout L)
    (hns : L.numSpecies = m.tables.species.length + 1) (hwater : L.numSpecies - 1 ∈ L.incl)
    (w : Str → ℝ) (hbal : ∀ q ∈ qs, Spec.Balanced w q) (hconst : ∀ s ∈ heldConstant, w s = 0)
    (hF : AerosolSystem m cores L C rates start h2o F) {solve : (Fin n → ℝ) → ℚ → Fin n → ℝ}
    {sim batch : ℚ} (hs : 0 < sim) (hb : 0 < batch) {zero y0 : Fin n → ℝ} {times : List ℚ}
    {rows : List (Fin n → ℝ)}
    (hrun : runSimulation id solve zero y0 sim batch = .ok (times, rows))
    (hex : ExactBatches F solve batch y0 rows.length) :
    ∀ row ∈ rows, weightedTotal m w (allPhases L (stateOf row))
      = weightedTotal m w (allPhases L (stateOf y0)) := by
  obtain ⟨sp, hsp, hsum⟩ := index_sum h hq rfl
  have hN : L.numSpecies - 1 = m.tables.species.length := by omega
  intro row hrow
  have := (hF.mixed h hq hns hsp).rows_allPhases hL hwater (nameWeight sp w) (fun t y => by
    rw [hN, gasPart_zero hsp hsum (fortran_trueWeights h hq hg hsame) hbal hconst]) hs hb hrun hex row hrow
  rwa [nameWeight_allPhases hns hsum, nameWeight_allPhases hns hsum] at this

/-- C62, water: gas and bins together always hold the same amount of water. -/
theorem C62_water (h : extractMechanism text = .ok m) (hL : GoodLayout L)
    (hns : L.numSpecies = m.tables.species.length + 1) (hwater : L.numSpecies - 1 ∈ L.incl)
    (hF : AerosolSystem m cores L C rates start h2o F) {solve : (Fin n → ℝ) → ℚ → Fin n → ℝ}
    {sim batch : ℚ} (hs : 0 < sim) (hb : 0 < batch) {zero y0 : Fin n → ℝ} {times : List ℚ}
    {rows : List (Fin n → ℝ)}
    (hrun : runSimulation id solve zero y0 sim batch = .ok (times, rows))
    (hex : ExactBatches F solve batch y0 rows.length) :
    ∀ row ∈ rows, allPhases L (stateOf row) (L.numSpecies - 1)
      = allPhases L (stateOf y0) (L.numSpecies - 1) := by
  obtain ⟨qs, hq, -⟩ := extract_reads h
  obtain ⟨sp, hsp, -⟩ := index_sum h hq rfl
  exact (hF.mixed h hq hns hsp).rows_species hL hwater (hL.valid _ hwater)
    (fun hlt => absurd hlt (lt_irrefl _)) hs hb hrun hex

/-- C62, species held constant by the gas chemistry: they are only moved between the phases. -/
theorem C62_held (h : extractMechanism text = .ok m) (hL : GoodLayout L)
    (hns : L.numSpecies = m.tables.species.length + 1) (hwater : L.numSpecies - 1 ∈ L.incl)
    (hF : AerosolSystem m cores L C rates start h2o F) {s : Str} {i : ℕ}
    (hsi : m.tables.index.get? s = some i) (hx : s ∈ heldConstant)
    {solve : (Fin n → ℝ) → ℚ → Fin n → ℝ}
    {sim batch : ℚ} (hs : 0 < sim) (hb : 0 < batch) {zero y0 : Fin n → ℝ} {times : List ℚ}
    {rows : List (Fin n → ℝ)}
    (hrun : runSimulation id solve zero y0 sim batch = .ok (times, rows))
    (hex : ExactBatches F solve batch y0 rows.length) :
    ∀ row ∈ rows, allPhases L (stateOf row) i = allPhases L (stateOf y0) i := by
  obtain ⟨qs, hq, -⟩ := extract_reads h
  obtain ⟨sp, hsp, -⟩ := index_sum h hq rfl
  have hi : i < m.tables.species.length := (C01_indices h i).1 ⟨s, hsi⟩
  refine (hF.mixed h hq hns hsp).rows_species hL hwater (by omega) (fun _ t y => ?_) hs hb hrun hex
  rw [gasPart, dif_pos hi, ← (hsp ⟨i, hi⟩ s).1 hsi, kineticValue, if_pos hx]

/-- C62, sources and sinks: a total over all phases whose weights no reaction gains never grows from one
reported row to a later one. -/
theorem C62_not_gained (h : extractMechanism text = .ok m) (hq : Reads text m.equations.toNat qs)
    (hg : ∀ q ∈ qs, GainGood q) (hsame : SameNet m) (hL : GoodLayout L) (hC : PhysConst L C)
    (hns : L.numSpecies = m.tables.species.length + 1) (hwater : L.numSpecies - 1 ∈ L.incl)
    (hpos : ∀ q ∈ qs, ∀ p ∈ chemReactants q ++ chemProducts q, 0 < p.1) (hone : WholeReactants qs)
    (w : Str → ℝ) (hw : ∀ q ∈ qs, NotGained w q) (hconst : ∀ s ∈ heldConstant, w s = 0)
    (hr : RegularRates rates start h2o C.temp)
    (hF : AerosolSystem m cores L C rates start h2o F) {solve : (Fin n → ℝ) → ℚ → Fin n → ℝ}
    {sim batch : ℚ} (hs : 0 < sim) (hb : 0 < batch) {zero y0 : Fin n → ℝ} (hy0 : ∀ i, 0 ≤ y0 i)
    {times : List ℚ} {rows : List (Fin n → ℝ)}
    (hrun : runSimulation id solve zero y0 sim batch = .ok (times, rows))
    (hex : ExactBatches F solve batch y0 rows.length) :
    (y0 :: rows).Pairwise fun a b => weightedTotal m w (allPhases L (stateOf b))
      ≤ weightedTotal m w (allPhases L (stateOf a)) := by
  obtain ⟨sp, hsp, hsum⟩ := index_sum h hq rfl
  have hN : L.numSpecies - 1 = m.tables.species.length := by omega
  have hM := hF.mixed h hq hns hsp
  have := (hF.tame h hq hns hL hC hpos hone hr).rows_total (fun i => slotWeight L (nameWeight sp w) i)
    (fun t y hy => by
      rw [hM.total hL hwater, hN]
      exact gasPart_le hsp hsum (fortran_trueWeights h hq hg hsame) hw hconst hr.nonneg t
        (stateOf_nonneg hy)) hs hb hy0 hrun hex
  refine this.imp fun {a b} hab => ?_
  rw [hM.total_state hL, hM.total_state hL, nameWeight_allPhases hns hsum,
    nameWeight_allPhases hns hsum] at hab
  exact hab

/-- C62, fixed yields: gas and bins together always hold the same amount of every species. -/
theorem C62_fixed_yield (hL : GoodLayout L) (hwater : L.numSpecies - 1 ∈ L.incl)
    (hF : FixedYieldSystem L C F) {solve : (Fin n → ℝ) → ℚ → Fin n → ℝ}
    {sim batch : ℚ} (hs : 0 < sim) (hb : 0 < batch) {zero y0 : Fin n → ℝ} {times : List ℚ}
    {rows : List (Fin n → ℝ)}
    (hrun : runSimulation id solve zero y0 sim batch = .ok (times, rows))
    (hex : ExactBatches F solve batch y0 rows.length) :
    ∀ row ∈ rows, ∀ s < L.numSpecies, allPhases L (stateOf row) s = allPhases L (stateOf y0) s :=
  fun row hrow _ hlt =>
    hF.mixed.rows_species hL hwater hlt (fun _ _ _ => rfl) hs hb hrun hex row hrow

/-! ## C63: concentrations stay non-negative -/

/-- C63: with an exact solver a simulation with particles that starts from non-negative concentrations
reports only non-negative concentrations, in the gas and in all bins. -/
theorem C63_nonneg (h : extractMechanism text = .ok m) (hq : Reads text m.equations.toNat qs)
    (hL : GoodLayout L) (hC : PhysConst L C) (hns : L.numSpecies = m.tables.species.length + 1)
    (hpos : ∀ q ∈ qs, ∀ p ∈ chemReactants q ++ chemProducts q, 0 < p.1) (hone : WholeReactants qs)
    (hr : RegularRates rates start h2o C.temp)
    (hF : AerosolSystem m cores L C rates start h2o F) {solve : (Fin n → ℝ) → ℚ → Fin n → ℝ}
    {sim batch : ℚ} (hs : 0 < sim) (hb : 0 < batch) {zero y0 : Fin n → ℝ} (hy0 : ∀ i, 0 ≤ y0 i)
    {times : List ℚ} {rows : List (Fin n → ℝ)}
    (hrun : runSimulation id solve zero y0 sim batch = .ok (times, rows))
    (hex : ExactBatches F solve batch y0 rows.length) : ∀ row ∈ rows, ∀ i, 0 ≤ row i :=
  (hF.tame h hq hns hL hC hpos hone hr).rows_nonneg hs hb hy0 hrun hex

/-- C63, fixed yields. -/
theorem C63_fixed_yield (hL : GoodLayout L) (hC : PhysConst L C) (hF : FixedYieldSystem L C F)
    {solve : (Fin n → ℝ) → ℚ → Fin n → ℝ}
    {sim batch : ℚ} (hs : 0 < sim) (hb : 0 < batch) {zero y0 : Fin n → ℝ} (hy0 : ∀ i, 0 ≤ y0 i)
    {times : List ℚ} {rows : List (Fin n → ℝ)}
    (hrun : runSimulation id solve zero y0 sim batch = .ok (times, rows))
    (hex : ExactBatches F solve batch y0 rows.length) : ∀ row ∈ rows, ∀ i, 0 ≤ row i :=
  (hF.tame hL hC).rows_nonneg hs hb hy0 hrun hex

/-! ## C64: exactly one exact result -/

/-- C64, existence: if every reacting species has a positive weight in some total that no reaction gains,
then one solver is exact for every run that starts from non-negative concentrations. -/
theorem C64_exists (h : extractMechanism text = .ok m) (hq : Reads text m.equations.toNat qs)
    (hless : GainsLess m) (hL : GoodLayout L) (hC : PhysConst L C)
    (hns : L.numSpecies = m.tables.species.length + 1) (hwater : L.numSpecies - 1 ∈ L.incl)
    (hpos : ∀ q ∈ qs, ∀ p ∈ chemReactants q ++ chemProducts q, 0 < p.1) (hone : WholeReactants qs)
    (hw : ∀ s i, m.tables.index.get? s = some i → s ∉ heldConstant → ∃ w : Str → ℝ,
      (∀ s, 0 ≤ w s) ∧ 0 < w s ∧ (∀ s ∈ heldConstant, w s = 0) ∧ ∀ q ∈ qs, NotGained w q)
    (hr : PiecewiseRates rates start h2o C.temp)
    (hF : AerosolSystem m cores L C rates start h2o F) {batch : ℚ} (hb : 0 < batch) :
    ∃ solve : (Fin n → ℝ) → ℚ → Fin n → ℝ, ∀ y0, (∀ i, 0 ≤ y0 i) → ∀ k,
      ExactBatches F solve batch y0 k :=
  (hF.tame h hq hns hL hC hpos hone hr.regular).exact_solver (hF.boxPieces h hq hns hL hC hone hr)
    (hF.dissipative h hq hpos hless hns hL hwater hr.regular.nonneg hw) hb

/-- C64, existence for fixed yields: no condition on weights is needed. -/
theorem C64_exists_fixed_yield (hL : GoodLayout L) (hC : PhysConst L C)
    (hwater : L.numSpecies - 1 ∈ L.incl) (hF : FixedYieldSystem L C F) {batch : ℚ} (hb : 0 < batch) :
    ∃ solve : (Fin n → ℝ) → ℚ → Fin n → ℝ, ∀ y0, (∀ i, 0 ≤ y0 i) → ∀ k,
      ExactBatches F solve batch y0 k :=
  (hF.tame hL hC).exact_solver (hF.boxPieces hL hC) (hF.dissipative hL hwater) hb

/-- C64, uniqueness: two exact solvers report the same rows. -/
theorem C64_unique (h : extractMechanism text = .ok m) (hq : Reads text m.equations.toNat qs)
    (hL : GoodLayout L) (hC : PhysConst L C) (hns : L.numSpecies = m.tables.species.length + 1)
    (hpos : ∀ q ∈ qs, ∀ p ∈ chemReactants q ++ chemProducts q, 0 < p.1) (hone : WholeReactants qs)
    (hr : PiecewiseRates rates start h2o C.temp)
    (hF : AerosolSystem m cores L C rates start h2o F)
    {solve solve' : (Fin n → ℝ) → ℚ → Fin n → ℝ} {sim batch : ℚ} (hs : 0 < sim) (hb : 0 < batch)
    {zero y0 : Fin n → ℝ} (hy0 : ∀ i, 0 ≤ y0 i) {times times' : List ℚ} {rows rows' : List (Fin n → ℝ)}
    (hrun : runSimulation id solve zero y0 sim batch = .ok (times, rows))
    (hrun' : runSimulation id solve' zero y0 sim batch = .ok (times', rows'))
    (hex : ExactBatches F solve batch y0 rows.length)
    (hex' : ExactBatches F solve' batch y0 rows'.length) : times = times' ∧ rows = rows' :=
  (hF.tame h hq hns hL hC hpos hone hr.regular).rows_unique (hF.boxPieces h hq hns hL hC hone hr)
    hs hb hy0 hrun hrun' hex hex'

/-- C64, uniqueness for fixed yields. -/
theorem C64_unique_fixed_yield (hL : GoodLayout L) (hC : PhysConst L C) (hF : FixedYieldSystem L C F)
    {solve solve' : (Fin n → ℝ) → ℚ → Fin n → ℝ} {sim batch : ℚ} (hs : 0 < sim) (hb : 0 < batch)
    {zero y0 : Fin n → ℝ} (hy0 : ∀ i, 0 ≤ y0 i) {times times' : List ℚ} {rows rows' : List (Fin n → ℝ)}
    (hrun : runSimulation id solve zero y0 sim batch = .ok (times, rows))
    (hrun' : runSimulation id solve' zero y0 sim batch = .ok (times', rows'))
    (hex : ExactBatches F solve batch y0 rows.length)
    (hex' : ExactBatches F solve' batch y0 rows'.length) : times = times' ∧ rows = rows' :=
  (hF.tame hL hC).rows_unique (hF.boxPieces hL hC) hs hb hy0 hrun hrun' hex hex'

end Systems

/-! ## Cases the theorems apply to -/

/-- The mechanism of `radicalText` with two bins, where formaldehyde and water condense. -/
def radicalLayout : Aerosol.Layout := ⟨2, 6, 2, [2, 5]⟩

theorem radicalLayout_good : GoodLayout radicalLayout := ⟨rfl, by decide, by decide⟩

theorem waterConst_phys (L : Aerosol.Layout) : PhysConst L waterConst := by
  constructor <;> (try intro _ _) <;> norm_num [waterConst]

theorem radical_aerosol (cores : Option ℕ) (C : AeroConst) (rates : Rates) (start h2o : ℝ) :
    ∃ F : ℝ → (Fin 10 → ℝ) → Fin 10 → ℝ,
      AerosolSystem ⟨build radicalReactions, 2⟩ cores radicalLayout C rates start h2o F := by
  have hns : radicalLayout.numSpecies = (build radicalReactions).species.length + 1 := by decide +kernel
  have hsome : ∀ time y, (aerosolRhs (build radicalReactions) 2 cores radicalLayout C
      (ro2Indices (build radicalReactions).index) rates start h2o time y).isSome := by
    intro time y
    refine (C57_defined radical_parses cores radicalLayout hns C rates start h2o time y).2 ?_
    unfold dydtFuncF
    rw [ro2Total_some (by decide +kernel), Option.bind_some]
    refine (gasRhsF_isSome radical_parses _ _ _ _ _ _).2 fun s i hs hx => ?_
    refine (C18_valid_iff radical_parses ⟨y, fun _ => 0⟩ (fun _ => 0)).1 ?_ s i hs hx
    rw [exec_isSome_iff]
    intro k rhs hm
    exact (C18_valid_partial radical_parses radical_reads
      (fun q hq => (radical_regular q hq).gain) k rhs hm).2 _
  exact ⟨fun t y i => (aerosolRhs (build radicalReactions) 2 cores radicalLayout C
      (ro2Indices (build radicalReactions).index) rates start h2o t (stateOf y)).get (hsome _ _) i,
    rfl, fun t y => ⟨_, (Option.some_get (hsome t (stateOf y))).symm, fun _ => rfl⟩⟩

/-- For `radicalText` with two bins all hypotheses of `C62` to `C64` are met: there is an exact solver, and
with it a run of two batches keeps the total of `radicalWeight` over all phases and stays non-negative. -/
theorem radical_aerosol_run :
    ∃ (F : ℝ → (Fin 10 → ℝ) → Fin 10 → ℝ) (solve : (Fin 10 → ℝ) → ℚ → Fin 10 → ℝ),
      AerosolSystem ⟨build radicalReactions, 2⟩ none radicalLayout waterConst wavyRates 0 0 F ∧
      ∀ y0 : Fin 10 → ℝ, (∀ i, 0 ≤ y0 i) → (∀ k, ExactBatches F solve 60 y0 k) ∧
        ∃ rows, runSimulation id solve (fun _ => 0) y0 (((2 : ℕ) : ℚ) * 60) 60 = .ok ([60, 120], rows) ∧
          rows.length = 2 ∧ ∀ row ∈ rows, (∀ i, 0 ≤ row i) ∧
            weightedTotal ⟨build radicalReactions, 2⟩ (fun s => (radicalWeight s : ℝ))
                (allPhases radicalLayout (stateOf row))
              = weightedTotal ⟨build radicalReactions, 2⟩ (fun s => (radicalWeight s : ℝ))
                (allPhases radicalLayout (stateOf y0)) := by
  obtain ⟨F, hF⟩ := radical_aerosol none waterConst wavyRates 0 0
  have hg : ∀ q ∈ radicalReactions, GainGood q := fun q hq => (radical_regular q hq).gain
  have hns : radicalLayout.numSpecies = (build radicalReactions).species.length + 1 := by decide +kernel
  have hwater : radicalLayout.numSpecies - 1 ∈ radicalLayout.incl := by decide
  obtain ⟨solve, hsolve⟩ := C64_exists radical_parses radical_reads radical_sameNet.less radicalLayout_good
    (waterConst_phys _) hns hwater radical_positive.1 radical_positive.2 radical_weights
    (wavyRates_smooth 0 0 _).piecewise hF (batch := 60) (by norm_num)
  refine ⟨F, solve, hF, fun y0 hy0 => ⟨hsolve y0 hy0, ?_⟩⟩
  have hrun := C32_C33_whole_batches (n := 2) (batch := 60) (by norm_num) (by norm_num)
    (exact_id 60 2) solve (fun _ => 0) y0
  have ht : (List.range 2).map (fun k : ℕ => ((k : ℚ) + 1) * 60) = [60, 120] := by decide +kernel
  rw [ht] at hrun
  refine ⟨_, hrun, by simp, fun row hrow => ⟨?_, ?_⟩⟩
  · exact C63_nonneg radical_parses radical_reads radicalLayout_good (waterConst_phys _) hns
      radical_positive.1 radical_positive.2 (wavyRates_smooth 0 0 _).regular hF (by norm_num)
      (by norm_num) hy0 hrun (hsolve y0 hy0 _) row hrow
  · exact C62_conserved radical_parses radical_reads hg radical_sameNet radicalLayout_good hns hwater _
      radical_balanced radical_held hF (by norm_num) (by norm_num) hrun (hsolve y0 hy0 _) row hrow

/-- Fixed yields, one gas besides water, two bins: an exact solver exists. -/
theorem fixed_yield_run :
    ∃ (F : ℝ → (Fin 6 → ℝ) → Fin 6 → ℝ) (solve : (Fin 6 → ℝ) → ℚ → Fin 6 → ℝ),
      FixedYieldSystem ⟨2, 2, 2, [0, 1]⟩ waterConst F ∧
      ∀ y0 : Fin 6 → ℝ, (∀ i, 0 ≤ y0 i) → ∀ k, ExactBatches F solve 60 y0 k := by
  have hF : FixedYieldSystem ⟨2, 2, 2, [0, 1]⟩ waterConst
      (fun (_ : ℝ) (y : Fin 6 → ℝ) (i : Fin 6) => fixedYieldRhs ⟨2, 2, 2, [0, 1]⟩ waterConst (stateOf y) i) :=
    ⟨rfl, fun _ _ _ => rfl⟩
  obtain ⟨solve, hsolve⟩ := C64_exists_fixed_yield ⟨rfl, by decide, by decide⟩ (waterConst_phys _)
    (by decide) hF (batch := 60) (by norm_num)
  exact ⟨_, solve, hF, hsolve⟩

end PyBox
