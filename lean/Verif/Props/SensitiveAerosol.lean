import Verif.Props.Sensitive

/-!
# C86 for simulations with particles

The same with particles, where the gas chemistry is one part of the right-hand side.
-/

namespace PyBox

open Set Rl Spec Aerosol

section

variable {text : Str} {m : Mechanism} {qs : List RawEqn} {cores : Option ℕ} {L : Aerosol.Layout} {C : AeroConst}
  {rates : Rates} {start h2o : ℝ} {n : ℕ} {F : ℝ → (Fin n → ℝ) → Fin n → ℝ}

/-- **C86**, particles: as `C86_gas_fortran`, as long as no concentration is negative. -/
theorem C86_aerosol (h : extractMechanism text = .ok m) (hq : Reads text m.equations.toNat qs)
    (hL : GoodLayout L) (hC : PhysConst L C) (hns : L.numSpecies = m.tables.species.length + 1)
    (hone : WholeReactants qs) (hr : PiecewiseRates rates start h2o C.temp)
    (hF : AerosolSystem m cores L C rates start h2o F) {sim batch : ℚ} (hs : 0 < sim) (hb : 0 < batch) {B : ℝ}
    (hB : 0 ≤ B) :
    BoundedEffect {z | ∀ i, 0 ≤ z i ∧ z i ≤ B} F (fun e d G => ∃ cores' rates',
      RatesWithin e d batch qs.length start h2o C.temp rates rates' ∧ AerosolSystem m cores' L C rates' start h2o G)
      sim batch := by
  obtain ⟨sp, hsp, -⟩ := index_sum h hq rfl
  have hmix := hF.mixed h hq hns hsp
  have hsz := SizeAtMost.box (n := n) B
  obtain ⟨K, _, hK⟩ := SetLip.components ((hF.boxPieces h hq hns hL hC hone hr).lip batch B hB)
  choose M hM H using fun i => kineticValue_apart (m := m) (A := netFortran m.tables) hone hr hB hsz
    (fun z hz => listState_nonneg (fun i => (hz i).1) _) batch (sp i)
  obtain ⟨C', hC', hruns⟩ := runs_apart (P := box B) (F := F) hs hb (K := max K 1) (le_max_right _ _)
    (fun s hs z hz z' hz' => ((hK s (Ico_subset_Icc_self hs)).1.dist_le_mul z hz z' hz').trans
      (mul_le_mul_of_nonneg_right (le_max_left _ _) dist_nonneg))
  have hS : 0 ≤ ∑ i, M i := Finset.sum_nonneg fun i _ => hM i
  refine ⟨C' * (∑ i, M i + 1), mul_nonneg hC' (by linarith), fun e d η ε η' ε' δ G zero zero' y0 y0' solve solve' times
    times' rows rows' he hd h2 h3 h4 h5 h6 ⟨cores', rates', hw, hG⟩ hδ hrun hrun' hn hn' => ?_⟩
  have hmix' := hG.mixed h hq hns hsp
  obtain ⟨a1, a2, a3⟩ := hruns G ((∑ i, M i) * (e + d)) η ε η' ε' δ zero zero' y0 y0' solve solve' times times' rows
    rows' (mul_nonneg hS (by linarith)) h2 h3 h4 h5 h6 (fun s hs z hz i => by
      rw [hmix.entry, hmix'.entry, add_sub_add_right_eq_sub]
      by_cases hi : (i : ℕ) < L.numSpecies - 1
      · have hi' : (i : ℕ) < m.tables.species.length := by omega
        rw [if_pos hi, if_pos hi, gasPart, gasPart, dif_pos hi', dif_pos hi']
        refine (H ⟨i, hi'⟩ e d rates' he hd hw s hs z hz).trans (mul_le_mul_of_nonneg_right ?_ (by linarith))
        exact Finset.single_le_sum (f := M) (fun i _ => hM i) (Finset.mem_univ _)
      · rw [if_neg hi, if_neg hi, sub_self, abs_zero]
        exact mul_nonneg hS (by linarith)) hδ hrun hrun' hn hn'
  refine ⟨a1, a2, fun k row row' hk hk' i => (a3 k row row' hk hk' i).trans ?_⟩
  rw [mul_assoc]
  refine mul_le_mul_of_nonneg_left ?_ hC'
  nlinarith [mul_nonneg hS (show 0 ≤ (η + ε) + (η' + ε') + δ by linarith)]

/-- Totals over all phases that do not grow, whatever the rates. -/
theorem aerosol_weights (h : extractMechanism text = .ok m) (hq : Reads text m.equations.toNat qs)
    (hpos : ∀ q ∈ qs, ∀ p ∈ chemReactants q ++ chemProducts q, 0 < p.1) (hless : GainsLess m) (hL : GoodLayout L)
    (hns : L.numSpecies = m.tables.species.length + 1) (hwater : L.numSpecies - 1 ∈ L.incl)
    (hw : ∀ s i, m.tables.index.get? s = some i → s ∉ heldConstant → ∃ w : Str → ℝ,
      (∀ s, 0 ≤ w s) ∧ 0 < w s ∧ (∀ s ∈ heldConstant, w s = 0) ∧ ∀ q ∈ qs, NotGained w q)
    (hn : n = L.numSpecies + L.numBins * L.numCond) (i : Fin n) :
    ∃ c : Fin n → ℝ, (∀ j, 0 ≤ c j) ∧ 0 < c i ∧ ∀ (cores : Option ℕ) (rates : Rates) (start h2o : ℝ)
      (F : ℝ → (Fin n → ℝ) → Fin n → ℝ), AerosolSystem m cores L C rates start h2o F →
      (∀ e time ro2, 0 ≤ ro2 → 0 ≤ rates (start + time) ro2 h2o C.temp e) →
      ∀ t y, (∀ j, 0 ≤ y j) → ∑ j, c j * F t y j ≤ 0 := by
  obtain ⟨sp, hsp, hsum⟩ := index_sum h hq rfl
  have hN : L.numSpecies - 1 = m.tables.species.length := by omega
  have hslot : ∃ s < L.numSpecies, ∀ W : ℕ → ℝ, slotWeight L W i = W s := by
    rcases C38_layout L.numSpecies L.numCond L.numBins i (hn ▸ i.2) with
      ⟨h1, -⟩ | ⟨-, ⟨b, j⟩, ⟨-, h2, h3⟩, -⟩
    · exact ⟨i, h1, fun W => by unfold slotWeight; rw [if_pos h1]⟩
    · simp only at h2 h3
      have hj : j < L.incl.length := hL.len.symm ▸ h2
      refine ⟨L.incl[j], hL.valid _ (List.getElem_mem hj), fun W => ?_⟩
      rw [h3, slotWeight_slot hL W (List.getElem?_eq_getElem hj)]
  obtain ⟨s, hlt, hsW⟩ := hslot
  have hW : ∃ W : ℕ → ℝ, (∀ i, 0 ≤ W i) ∧ 0 < W s ∧ ∀ (rates : Rates) (start h2o : ℝ),
      (∀ e time ro2, 0 ≤ ro2 → 0 ≤ rates (start + time) ro2 h2o C.temp e) → ∀ t y, (∀ i, 0 ≤ y i) →
        ∑ i ∈ Finset.range m.tables.species.length, W i * gasPart m qs rates start h2o C.temp sp t y i ≤ 0 := by
    have hind : (∀ hi : s < m.tables.species.length, sp ⟨s, hi⟩ ∈ heldConstant) →
        ∃ W : ℕ → ℝ, (∀ i, 0 ≤ W i) ∧ 0 < W s ∧ ∀ (rates : Rates) (start h2o : ℝ),
      (∀ e time ro2, 0 ≤ ro2 → 0 ≤ rates (start + time) ro2 h2o C.temp e) → ∀ t y, (∀ i, 0 ≤ y i) →
        ∑ i ∈ Finset.range m.tables.species.length, W i * gasPart m qs rates start h2o C.temp sp t y i ≤ 0 := by
      intro hx
      refine ⟨fun i => if i = s then 1 else 0, fun i => by dsimp only; split <;> norm_num, by simp,
        fun rates start h2o _ t y _ => le_of_eq (Finset.sum_eq_zero fun k hk => ?_)⟩
      have hk' := Finset.mem_range.1 hk
      dsimp only
      split
      · rename_i hks
        subst hks
        rw [gasPart, dif_pos hk', kineticValue, if_pos (hx hk'), mul_zero]
      · rw [zero_mul]
    by_cases hi : s < m.tables.species.length
    · by_cases hx : sp ⟨s, hi⟩ ∈ heldConstant
      · exact hind fun _ => hx
      · obtain ⟨w, hw0, hwi, hwc, hwq⟩ := hw (sp ⟨s, hi⟩) s ((hsp ⟨s, hi⟩ _).2 rfl) hx
        refine ⟨nameWeight sp w, fun j => ?_, ?_, fun rates start h2o hr t y hy =>
          gasPart_light hsp hsum (fortran_lightWeights h hq hpos hless) hw0 hwq hwc hr t hy⟩
        · unfold nameWeight
          split
          · exact hw0 _
          · exact le_rfl
        · unfold nameWeight
          rw [dif_pos hi]
          exact hwi
    · exact hind fun hi' => absurd hi' hi
  obtain ⟨W, h0, hpos, htot⟩ := hW
  refine ⟨fun i => slotWeight L W i, fun i => slotWeight_nonneg h0 i, lt_of_lt_of_eq hpos (hsW W).symm,
    fun cores rates start h2o F hF hr t y hy => ?_⟩
  rw [(hF.mixed h hq hns hsp).total hL hwater, hN]
  exact htot rates start h2o hr t _ (stateOf_nonneg hy)

/-- **C86**, particles, exact solvers. -/
theorem C86_aerosol_exact (h : extractMechanism text = .ok m) (hq : Reads text m.equations.toNat qs)
    (hless : GainsLess m)
    (hL : GoodLayout L) (hC : PhysConst L C) (hns : L.numSpecies = m.tables.species.length + 1)
    (hwater : L.numSpecies - 1 ∈ L.incl)
    (hpos : ∀ q ∈ qs, ∀ p ∈ chemReactants q ++ chemProducts q, 0 < p.1) (hone : WholeReactants qs)
    (hw : ∀ s i, m.tables.index.get? s = some i → s ∉ heldConstant → ∃ w : Str → ℝ,
      (∀ s, 0 ≤ w s) ∧ 0 < w s ∧ (∀ s ∈ heldConstant, w s = 0) ∧ ∀ q ∈ qs, NotGained w q)
    (hr : PiecewiseRates rates start h2o C.temp)
    (hF : AerosolSystem m cores L C rates start h2o F) {sim batch : ℚ} (hs : 0 < sim) (hb : 0 < batch) {Y : ℝ}
    (hY : 0 ≤ Y) :
    BoundedEffectExact F (fun e d G => ∃ cores' rates',
      RatesWithin e d batch qs.length start h2o C.temp rates rates' ∧ PiecewiseRates rates' start h2o C.temp ∧
      AerosolSystem m cores' L C rates' start h2o G) sim batch Y := by
  choose c hc0 hci hc using aerosol_weights (C := C) h hq hpos hless hL hns hwater hw hF.1
  obtain ⟨B, hB0, hB⟩ := total_bound hc0 hci (y0 := fun _ => Y) fun _ => hY
  obtain ⟨C', hC', heff⟩ := C86_aerosol h hq hL hC hns hone hr hF hs hb hB0
  have hP : ∀ z : Fin n → ℝ, (∀ i, 0 ≤ z i) → (∀ i, z i ≤ B) → z ∈ {z : Fin n → ℝ | ∀ i, 0 ≤ z i ∧ z i ≤ B} :=
    fun z hz hzB i => ⟨hz i, hzB i⟩
  have hstart : ∀ y : Fin n → ℝ, (∀ i, 0 ≤ y i ∧ y i ≤ Y) → ∀ i, ∑ j, c i j * y j ≤ c i i * B := fun y hy i =>
    (Finset.sum_le_sum fun j _ => mul_le_mul_of_nonneg_left (hy j).2 (hc0 i j)).trans (hB i)
  refine ⟨C', hC', fun e d δ G zero zero' y0 y0' solve solve' times times' rows rows' he hd hδ0
    ⟨cores', rates', hw', hr', hG⟩ hy0 hy0' hδ hrun hrun' hex hex' => ?_⟩
  obtain ⟨a1, a2, a3⟩ := heff e d 0 0 0 0 δ G zero zero' y0 y0' solve solve' times times' rows rows' he hd le_rfl le_rfl
    le_rfl le_rfl hδ0 ⟨cores', rates', hw', hG⟩ hδ hrun hrun'
    ((hF.tame h hq hns hL hC hpos hone hr.regular).batches_in hc0 hci
      (fun i t y hy => hc i cores rates start h2o F hF hr.regular.nonneg t y hy) hb.le (fun i => (hy0 i).1)
      (hstart y0 hy0) hP hex)
    ((hG.tame h hq hns hL hC hpos hone hr'.regular).batches_in hc0 hci
      (fun i t y hy => hc i cores' rates' start h2o G hG hr'.regular.nonneg t y hy) hb.le (fun i => (hy0' i).1)
      (hstart y0' hy0') hP hex')
  refine ⟨a1, a2, fun k row row' hk hk' i => (a3 k row row' hk hk' i).trans (le_of_eq ?_)⟩
  ring

end

/-- For `radicalText` with particles, rate coefficients that are all 0.1 % too high meet the hypotheses of
`C86_aerosol_exact`. -/
theorem radical_aerosol_sensitive :
    ∃ (F G : ℝ → (Fin 10 → ℝ) → Fin 10 → ℝ) (solve solve' : (Fin 10 → ℝ) → ℚ → Fin 10 → ℝ),
      AerosolSystem ⟨build radicalReactions, 2⟩ none radicalLayout waterConst wavyRates 0 0 F ∧
      AerosolSystem ⟨build radicalReactions, 2⟩ none radicalLayout waterConst
        (fun t r h T e => 1.001 * wavyRates t r h T e) 0 0 G ∧
      ∃ C : ℝ, 0 ≤ C ∧ ∀ y0 : Fin 10 → ℝ, (∀ i, 0 ≤ y0 i ∧ y0 i ≤ 1e12) → ∃ rows rows',
        runSimulation id solve (fun _ => 0) y0 (((2 : ℕ) : ℚ) * 60) 60 = .ok ([60, 120], rows) ∧
        runSimulation id solve' (fun _ => 0) y0 (((2 : ℕ) : ℚ) * 60) 60 = .ok ([60, 120], rows') ∧
        ∀ (k : ℕ) (row row' : Fin 10 → ℝ), rows[k]? = some row → rows'[k]? = some row' →
          ∀ i, |row' i - row i| ≤ C * 0.001 := by
  obtain ⟨F, hF⟩ := radical_aerosol none waterConst wavyRates 0 0
  obtain ⟨G, hG⟩ := radical_aerosol none waterConst (fun t r h T e => 1.001 * wavyRates t r h T e) 0 0
  have hg : ∀ q ∈ radicalReactions, GainGood q := fun q hq => (radical_regular q hq).gain
  have hns : radicalLayout.numSpecies = (build radicalReactions).species.length + 1 := by decide +kernel
  have hwater : radicalLayout.numSpecies - 1 ∈ radicalLayout.incl := by decide
  have hr := (wavyRates_smooth 0 0 waterConst.temp).piecewise
  have hr' := higherRates_piecewise 0 0 waterConst.temp
  obtain ⟨solve, hsolve⟩ := C64_exists radical_parses radical_reads radical_sameNet.less radicalLayout_good
    (waterConst_phys _) hns hwater radical_positive.1 radical_positive.2 radical_weights hr hF (batch := 60) (by norm_num)
  obtain ⟨solve', hsolve'⟩ := C64_exists radical_parses radical_reads radical_sameNet.less radicalLayout_good
    (waterConst_phys _) hns hwater radical_positive.1 radical_positive.2 radical_weights hr' hG (batch := 60) (by norm_num)
  obtain ⟨C, hC, heff⟩ := C86_aerosol_exact radical_parses radical_reads radical_sameNet.less radicalLayout_good
    (waterConst_phys _) hns hwater radical_positive.1 radical_positive.2 radical_weights hr hF
    (sim := ((2 : ℕ) : ℚ) * 60) (batch := 60) (by norm_num) (by norm_num) (Y := 1e12) (by norm_num)
  have ht : (List.range 2).map (fun k : ℕ => ((k : ℚ) + 1) * 60) = [60, 120] := by decide +kernel
  refine ⟨F, G, solve, solve', hF, hG, C, hC, fun y0 hy0 => ?_⟩
  have hrun := fun solve => C32_C33_whole_batches (n := 2) (batch := 60) (by norm_num) (by norm_num)
    (exact_id 60 2) solve (fun _ => 0) y0
  rw [ht] at hrun
  refine ⟨_, _, hrun solve, hrun solve', fun k row row' hk hk' i => ?_⟩
  exact ((heff 0.001 0 0 G _ _ y0 y0 solve solve' _ _ _ _ (by norm_num) le_rfl le_rfl
    ⟨_, _, higherRates_within _ _ _ _ _, hr', hG⟩ hy0 hy0 (fun i => by simp) (hrun solve) (hrun solve')
    (hsolve _ (fun i => (hy0 i).1) _) (hsolve' _ (fun i => (hy0 i).1) _)).2.2 k row row' hk hk' i).trans
    (le_of_eq (by ring))

end PyBox
