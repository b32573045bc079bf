import Verif.Props.Invariants

/-!
# C61: gas simulations have exactly one exact result

`C61` shows that the exact solver assumed by `C59` and `C60` exists, and that there is only one.
-/

namespace PyBox

open Set Spec

/-- C61, existence: if every species that is not held constant has a positive weight in some total that no
reaction gains, then from every non-negative state there is a solution for every duration. Rate coefficients that are
continuous in time leave no exceptional times. -/
theorem C61_solution {text : Str} {m : Mechanism} (h : extractMechanism text = .ok m)
    {qs : List RawEqn} (hq : Reads text m.equations.toNat qs)
    (hpos : ∀ q ∈ qs, ∀ p ∈ chemReactants q ++ chemProducts q, 0 < p.1) (hone : WholeReactants qs)
    (hw : ∀ s i, m.tables.index.get? s = some i → s ∉ heldConstant → ∃ w : Str → ℝ,
      (∀ s, 0 ≤ w s) ∧ 0 < w s ∧ (∀ s ∈ heldConstant, w s = 0) ∧ ∀ q ∈ qs, NotGained w q)
    {rates : Rates} {start h2o temp : ℝ} (hr : SmoothRates rates start h2o temp) {n : ℕ}
    {F : ℝ → (Fin n → ℝ) → Fin n → ℝ} (hF : GasSystem m rates start h2o temp F)
    {y0 : Fin n → ℝ} (hy0 : ∀ i, 0 ≤ y0 i) {T : ℝ} (hT : 0 ≤ T) :
    ∃ u, u 0 = y0 ∧ SolvesEverywhere F u 0 T :=
  ((hF.kinetic h hq).tame h (recorded_loss_only h hq hpos).1 (left_pos hpos) hone hr.regular).solution
    ((hF.kinetic h hq).boxLip h hone hr)
    ((hF.kinetic h hq).dissipative h hq (recorded_lightWeights h hq hpos) hr.regular.nonneg hw) hy0 hT

/-- C61, existence, Fortran version: if every species that is not held constant has a positive weight in some total that no
reaction gains, then from every non-negative state there is a solution for every duration. Rate coefficients that are
continuous in time leave no exceptional times. -/
theorem C61_solution_fortran {text : Str} {m : Mechanism} (h : extractMechanism text = .ok m)
    {qs : List RawEqn} (hq : Reads text m.equations.toNat qs)
    (hless : GainsLess m)
    (hpos : ∀ q ∈ qs, ∀ p ∈ chemReactants q ++ chemProducts q, 0 < p.1) (hone : WholeReactants qs)
    (hw : ∀ s i, m.tables.index.get? s = some i → s ∉ heldConstant → ∃ w : Str → ℝ,
      (∀ s, 0 ≤ w s) ∧ 0 < w s ∧ (∀ s ∈ heldConstant, w s = 0) ∧ ∀ q ∈ qs, NotGained w q)
    {cores : Option ℕ} {rates : Rates} {start h2o temp : ℝ} (hr : SmoothRates rates start h2o temp) {n : ℕ}
    {F : ℝ → (Fin n → ℝ) → Fin n → ℝ} (hF : GasSystemF m cores rates start h2o temp F)
    {y0 : Fin n → ℝ} (hy0 : ∀ i, 0 ≤ y0 i) {T : ℝ} (hT : 0 ≤ T) :
    ∃ u, u 0 = y0 ∧ SolvesEverywhere F u 0 T :=
  ((hF.kinetic h hq).tame h (recorded_loss_only h hq hpos).2 (left_pos hpos) hone hr.regular).solution
    ((hF.kinetic h hq).boxLip h hone hr)
    ((hF.kinetic h hq).dissipative h hq (fortran_lightWeights h hq hpos hless) hr.regular.nonneg hw) hy0 hT

/-- C61, existence of an exact solver: one solver is exact for every run that starts from non-negative
concentrations. -/
theorem C61_exists {text : Str} {m : Mechanism} (h : extractMechanism text = .ok m)
    {qs : List RawEqn} (hq : Reads text m.equations.toNat qs)
    (hpos : ∀ q ∈ qs, ∀ p ∈ chemReactants q ++ chemProducts q, 0 < p.1) (hone : WholeReactants qs)
    (hw : ∀ s i, m.tables.index.get? s = some i → s ∉ heldConstant → ∃ w : Str → ℝ,
      (∀ s, 0 ≤ w s) ∧ 0 < w s ∧ (∀ s ∈ heldConstant, w s = 0) ∧ ∀ q ∈ qs, NotGained w q)
    {rates : Rates} {start h2o temp : ℝ} (hr : PiecewiseRates rates start h2o temp) {n : ℕ}
    {F : ℝ → (Fin n → ℝ) → Fin n → ℝ} (hF : GasSystem m rates start h2o temp F)
    {batch : ℚ} (hb : 0 < batch) :
    ∃ solve : (Fin n → ℝ) → ℚ → Fin n → ℝ, ∀ y0, (∀ i, 0 ≤ y0 i) → ∀ k,
      ExactBatches F solve batch y0 k :=
  ((hF.kinetic h hq).tame h (recorded_loss_only h hq hpos).1 (left_pos hpos) hone hr.regular).exact_solver
    ((hF.kinetic h hq).boxPieces h hone hr)
    ((hF.kinetic h hq).dissipative h hq (recorded_lightWeights h hq hpos) hr.regular.nonneg hw) hb

/-- C61, existence of an exact solver, Fortran version: one solver is exact for every run that starts from non-negative
concentrations. -/
theorem C61_exists_fortran {text : Str} {m : Mechanism} (h : extractMechanism text = .ok m)
    {qs : List RawEqn} (hq : Reads text m.equations.toNat qs)
    (hless : GainsLess m)
    (hpos : ∀ q ∈ qs, ∀ p ∈ chemReactants q ++ chemProducts q, 0 < p.1) (hone : WholeReactants qs)
    (hw : ∀ s i, m.tables.index.get? s = some i → s ∉ heldConstant → ∃ w : Str → ℝ,
      (∀ s, 0 ≤ w s) ∧ 0 < w s ∧ (∀ s ∈ heldConstant, w s = 0) ∧ ∀ q ∈ qs, NotGained w q)
    {cores : Option ℕ} {rates : Rates} {start h2o temp : ℝ} (hr : PiecewiseRates rates start h2o temp) {n : ℕ}
    {F : ℝ → (Fin n → ℝ) → Fin n → ℝ} (hF : GasSystemF m cores rates start h2o temp F)
    {batch : ℚ} (hb : 0 < batch) :
    ∃ solve : (Fin n → ℝ) → ℚ → Fin n → ℝ, ∀ y0, (∀ i, 0 ≤ y0 i) → ∀ k,
      ExactBatches F solve batch y0 k :=
  ((hF.kinetic h hq).tame h (recorded_loss_only h hq hpos).2 (left_pos hpos) hone hr.regular).exact_solver
    ((hF.kinetic h hq).boxPieces h hone hr)
    ((hF.kinetic h hq).dissipative h hq (fortran_lightWeights h hq hpos hless) hr.regular.nonneg hw) hb

/-- C61, uniqueness: two exact solvers report the same rows. -/
theorem C61_unique {text : Str} {m : Mechanism} (h : extractMechanism text = .ok m)
    {qs : List RawEqn} (hq : Reads text m.equations.toNat qs)
    (hpos : ∀ q ∈ qs, ∀ p ∈ chemReactants q ++ chemProducts q, 0 < p.1) (hone : WholeReactants qs)
    {rates : Rates} {start h2o temp : ℝ} (hr : PiecewiseRates rates start h2o temp) {n : ℕ}
    {F : ℝ → (Fin n → ℝ) → Fin n → ℝ} (hF : GasSystem m rates start h2o temp F)
    {solve solve' : (Fin n → ℝ) → ℚ → Fin n → ℝ} {sim batch : ℚ} (hs : 0 < sim) (hb : 0 < batch)
    {zero y0 : Fin n → ℝ} (hy0 : ∀ i, 0 ≤ y0 i) {times times' : List ℚ} {rows rows' : List (Fin n → ℝ)}
    (hrun : runSimulation id solve zero y0 sim batch = .ok (times, rows))
    (hrun' : runSimulation id solve' zero y0 sim batch = .ok (times', rows'))
    (hex : ExactBatches F solve batch y0 rows.length)
    (hex' : ExactBatches F solve' batch y0 rows'.length) : times = times' ∧ rows = rows' :=
  ((hF.kinetic h hq).tame h (recorded_loss_only h hq hpos).1 (left_pos hpos) hone hr.regular).rows_unique
    ((hF.kinetic h hq).boxPieces h hone hr) hs hb hy0 hrun hrun' hex hex'

/-- C61, uniqueness, Fortran version: two exact solvers report the same rows. -/
theorem C61_unique_fortran {text : Str} {m : Mechanism} (h : extractMechanism text = .ok m)
    {qs : List RawEqn} (hq : Reads text m.equations.toNat qs)
    (hpos : ∀ q ∈ qs, ∀ p ∈ chemReactants q ++ chemProducts q, 0 < p.1) (hone : WholeReactants qs)
    {cores : Option ℕ} {rates : Rates} {start h2o temp : ℝ} (hr : PiecewiseRates rates start h2o temp) {n : ℕ}
    {F : ℝ → (Fin n → ℝ) → Fin n → ℝ} (hF : GasSystemF m cores rates start h2o temp F)
    {solve solve' : (Fin n → ℝ) → ℚ → Fin n → ℝ} {sim batch : ℚ} (hs : 0 < sim) (hb : 0 < batch)
    {zero y0 : Fin n → ℝ} (hy0 : ∀ i, 0 ≤ y0 i) {times times' : List ℚ} {rows rows' : List (Fin n → ℝ)}
    (hrun : runSimulation id solve zero y0 sim batch = .ok (times, rows))
    (hrun' : runSimulation id solve' zero y0 sim batch = .ok (times', rows'))
    (hex : ExactBatches F solve batch y0 rows.length)
    (hex' : ExactBatches F solve' batch y0 rows'.length) : times = times' ∧ rows = rows' :=
  ((hF.kinetic h hq).tame h (recorded_loss_only h hq hpos).2 (left_pos hpos) hone hr.regular).rows_unique
    ((hF.kinetic h hq).boxPieces h hone hr) hs hb hy0 hrun hrun' hex hex'

/-! ## Cases the theorems apply to -/

theorem weight_rat (w : Str → ℚ) (terms : List (ℚ × Str)) :
    weight (fun s => (w s : ℝ)) terms = ((terms.map (fun p => p.1 * w p.2)).sum : ℚ) := by
  unfold weight
  induction terms with
  | nil => simp
  | cons p l ih => simp only [List.map_cons, List.sum_cons, ih]; push_cast; ring

/-- Weights that both reactions of `radicalText` balance, positive for all its species. -/
def radicalWeight (s : Str) : ℚ :=
  if s = "CH3O2".toList ∨ s = "NO2".toList then 2 else
    if s = "NO".toList ∨ s = "HCHO".toList ∨ s = "O".toList then 1 else 0

theorem radical_balanced : ∀ q ∈ radicalReactions, Balanced (fun s => (radicalWeight s : ℝ)) q := by
  have h : ∀ q ∈ radicalReactions, ((chemReactants q).map (fun p => p.1 * radicalWeight p.2)).sum
      = ((chemProducts q).map (fun p => p.1 * radicalWeight p.2)).sum := by decide +kernel
  intro q hq
  unfold Spec.Balanced
  rw [weight_rat, weight_rat, h q hq]

/-- Rate coefficients that depend on the time of day and on the radicals. -/
noncomputable def wavyRates : Rates := fun time ro2 _ _ _ => 2 + Real.sin time + |ro2|

theorem wavyRates_smooth (start h2o temp : ℝ) : SmoothRates wavyRates start h2o temp := by
  intro e
  refine ⟨fun time ro2 _ => ?_, fun ro2 => ?_, fun R => ⟨1, 3 + R, fun time r r' _ hr _ => ⟨?_, ?_⟩⟩⟩
  · have h1 := Real.neg_one_le_sin (start + time)
    have h2 := abs_nonneg ro2
    unfold wavyRates
    linarith
  · unfold wavyRates
    fun_prop
  · have h1 := Real.neg_one_le_sin (start + time)
    have h3 := Real.sin_le_one (start + time)
    have h2 := abs_nonneg r
    unfold wavyRates
    rw [abs_of_nonneg (by linarith)]
    linarith
  · unfold wavyRates
    rw [one_mul]
    have e : 2 + Real.sin (start + time) + |r| - (2 + Real.sin (start + time) + |r'|) = |r| - |r'| := by
      ring
    rw [e]
    exact abs_abs_sub_abs_le r r'

/-- The system of `radicalText`. -/
theorem radical_system (rates : Rates) (start h2o temp : ℝ) :
    ∃ F : ℝ → (Fin 5 → ℝ) → Fin 5 → ℝ,
      GasSystem ⟨build radicalReactions, 2⟩ rates start h2o temp F := by
  choose f hf using radical_dydt rates start h2o temp
  exact ⟨fun t y i => f t (stateOf y) i, by decide +kernel, fun t y => ⟨_, hf t _, fun _ => rfl⟩⟩

theorem radical_positive :
    (∀ q ∈ radicalReactions, ∀ p ∈ chemReactants q ++ chemProducts q, 0 < p.1) ∧
    (∀ q ∈ radicalReactions, ∀ s ∈ names (chemReactants q), 1 ≤ coef (chemReactants q) s) := by
  decide +kernel

theorem radical_sameNet : SameNet ⟨build radicalReactions, 2⟩ := by
  have h1 : ∀ l ∈ [(build radicalReactions).gain, (build radicalReactions).loss],
      ∀ p ∈ l, ∀ r ∈ p.2, r.2 = 1 := by decide +kernel
  have h2 : ∀ (l : Dict Str (Dict ℕ ℚ)) s e, (∀ p ∈ l, ∀ r ∈ p.2, r.2 = 1) →
      altered (cell l s e) = false := by
    intro l s e hl
    cases hc : cell l s e with
    | none => rfl
    | some c =>
      unfold cell at hc
      cases hd : l.get? s with
      | none =>
        unfold Dict.getD at hc
        rw [hd] at hc
        cases hc
      | some d =>
        rw [getD_of_get? hd] at hc
        have := hl _ (Dict.mem_of_get?_eq_some hd) _ (Dict.mem_of_get?_eq_some hc)
        simp only at this
        simp [altered, this]
  intro s i e _ _
  exact (h2 _ s e (h1 _ (by simp))).trans (h2 _ s e (h1 _ (by simp))).symm

/-- The Fortran version of the system of `radicalText`. -/
theorem radical_systemF (cores : Option ℕ) (rates : Rates) (start h2o temp : ℝ) :
    ∃ F : ℝ → (Fin 5 → ℝ) → Fin 5 → ℝ,
      GasSystemF ⟨build radicalReactions, 2⟩ cores rates start h2o temp F := by
  have hsome : ∀ time y, (dydtFuncF (build radicalReactions) 2 5 cores
      (ro2Indices (build radicalReactions).index) rates start h2o temp time y).isSome := by
    intro time y
    unfold dydtFuncF
    rw [ro2Total_some (by decide +kernel), Option.bind_some]
    refine (gasRhsF_isSome radical_parses _ _ _ _ _ _).2 fun s i hs hx => ?_
    refine (C18_valid_iff radical_parses ⟨y, fun _ => 0⟩ (fun _ => 0)).1 ?_ s i hs hx
    rw [exec_isSome_iff]
    intro k rhs hm
    exact (C18_valid_partial radical_parses radical_reads
      (fun q hq => (radical_regular q hq).gain) k rhs hm).2 _
  refine ⟨fun t y i => (dydtFuncF (build radicalReactions) 2 5 cores
      (ro2Indices (build radicalReactions).index) rates start h2o temp t (stateOf y)).get (hsome _ _) i,
    by decide +kernel, fun t y => ⟨_, (Option.some_get (hsome t (stateOf y))).symm, fun _ => rfl⟩⟩

theorem radical_held : ∀ s ∈ heldConstant, (radicalWeight s : ℝ) = 0 := by
  have : ∀ s ∈ heldConstant, radicalWeight s = 0 := by decide +kernel
  intro s hs
  rw [this s hs, Rat.cast_zero]

theorem radical_weights : ∀ s i, (build radicalReactions).index.get? s = some i → s ∉ heldConstant →
    ∃ w : Str → ℝ, (∀ s, 0 ≤ w s) ∧ 0 < w s ∧ (∀ s ∈ heldConstant, w s = 0) ∧
      ∀ q ∈ radicalReactions, NotGained w q := by
  have hnn : ∀ s, 0 ≤ radicalWeight s := by
    intro s
    unfold radicalWeight
    split
    · norm_num
    · split <;> norm_num
  intro s i hs _
  refine ⟨fun s => (radicalWeight s : ℝ), fun s => Rat.cast_nonneg.2 (hnn s), ?_, radical_held,
    fun q hq => (radical_balanced q hq).symm.le⟩
  obtain ⟨q, hq, hs'⟩ := (indexed_iff radicalReactions s).1 ⟨i, hs⟩
  have hall : ∀ q ∈ radicalReactions, ∀ s ∈ occurrences q, 0 < radicalWeight s := by decide +kernel
  exact Rat.cast_pos.2 (hall q hq s hs')

theorem radical_batches (solve : (Fin 5 → ℝ) → ℚ → Fin 5 → ℝ) (y0 : Fin 5 → ℝ) :
    ∃ rows, runSimulation id solve (fun _ => 0) y0 (((2 : ℕ) : ℚ) * 60) 60 = .ok ([60, 120], rows) ∧
      rows.length = 2 := by
  have hrun := C32_C33_whole_batches (n := 2) (batch := 60) (by norm_num) (by norm_num)
    (exact_id 60 2) solve (fun _ => 0) y0
  have ht : (List.range 2).map (fun k : ℕ => ((k : ℚ) + 1) * 60) = [60, 120] := by decide +kernel
  rw [ht] at hrun
  exact ⟨_, hrun, by simp⟩

/-- For `radicalText` all hypotheses of `C59_conserved`, `C59_not_gained`, `C60_nonneg`, `C61_exists` and
`C61_unique` are met: there is an exact solver, and with it a run of two batches keeps the total of
`radicalWeight`, stays non-negative, and is the only one. -/
theorem radical_run : ∃ (F : ℝ → (Fin 5 → ℝ) → Fin 5 → ℝ) (solve : (Fin 5 → ℝ) → ℚ → Fin 5 → ℝ),
    GasSystem ⟨build radicalReactions, 2⟩ wavyRates 0 0 0 F ∧
    ∀ y0 : Fin 5 → ℝ, (∀ i, 0 ≤ y0 i) → (∀ k, ExactBatches F solve 60 y0 k) ∧
      ∃ rows, runSimulation id solve (fun _ => 0) y0 (((2 : ℕ) : ℚ) * 60) 60 = .ok ([60, 120], rows) ∧
        rows.length = 2 ∧ ∀ row ∈ rows, (∀ i, 0 ≤ row i) ∧
          weightedTotal ⟨build radicalReactions, 2⟩ (fun s => (radicalWeight s : ℝ)) (stateOf row)
            = weightedTotal ⟨build radicalReactions, 2⟩ (fun s => (radicalWeight s : ℝ)) (stateOf y0) := by
  obtain ⟨F, hF⟩ := radical_system wavyRates 0 0 0
  have hg : ∀ q ∈ radicalReactions, GainGood q := fun q hq => (radical_regular q hq).gain
  obtain ⟨solve, hsolve⟩ := C61_exists radical_parses radical_reads radical_positive.1
    radical_positive.2 radical_weights (wavyRates_smooth 0 0 0).piecewise hF (batch := 60) (by norm_num)
  refine ⟨F, solve, hF, fun y0 hy0 => ⟨hsolve y0 hy0, ?_⟩⟩
  obtain ⟨rows, hrun, hlen⟩ := radical_batches solve y0
  refine ⟨rows, hrun, hlen, fun row hrow => ⟨?_, ?_⟩⟩
  · exact C60_nonneg radical_parses radical_reads radical_positive.1 radical_positive.2
      (wavyRates_smooth 0 0 0).regular hF (by norm_num) (by norm_num) hy0 hrun (hsolve y0 hy0 _) row hrow
  · exact C59_conserved radical_parses radical_reads hg _ radical_balanced radical_held hF (by norm_num)
      (by norm_num) hrun (hsolve y0 hy0 _) row hrow

/-- The same for the Fortran version. -/
theorem radical_run_fortran : ∃ (F : ℝ → (Fin 5 → ℝ) → Fin 5 → ℝ) (solve : (Fin 5 → ℝ) → ℚ → Fin 5 → ℝ),
    GasSystemF ⟨build radicalReactions, 2⟩ none wavyRates 0 0 0 F ∧
    ∀ y0 : Fin 5 → ℝ, (∀ i, 0 ≤ y0 i) → (∀ k, ExactBatches F solve 60 y0 k) ∧
      ∃ rows, runSimulation id solve (fun _ => 0) y0 (((2 : ℕ) : ℚ) * 60) 60 = .ok ([60, 120], rows) ∧
        rows.length = 2 ∧ ∀ row ∈ rows, (∀ i, 0 ≤ row i) ∧
          weightedTotal ⟨build radicalReactions, 2⟩ (fun s => (radicalWeight s : ℝ)) (stateOf row)
            = weightedTotal ⟨build radicalReactions, 2⟩ (fun s => (radicalWeight s : ℝ)) (stateOf y0) := by
  obtain ⟨F, hF⟩ := radical_systemF none wavyRates 0 0 0
  have hg : ∀ q ∈ radicalReactions, GainGood q := fun q hq => (radical_regular q hq).gain
  obtain ⟨solve, hsolve⟩ := C61_exists_fortran radical_parses radical_reads radical_sameNet.less radical_positive.1
    radical_positive.2 radical_weights (wavyRates_smooth 0 0 0).piecewise hF (batch := 60) (by norm_num)
  refine ⟨F, solve, hF, fun y0 hy0 => ⟨hsolve y0 hy0, ?_⟩⟩
  obtain ⟨rows, hrun, hlen⟩ := radical_batches solve y0
  refine ⟨rows, hrun, hlen, fun row hrow => ⟨?_, ?_⟩⟩
  · exact C60_nonneg_fortran radical_parses radical_reads radical_positive.1 radical_positive.2
      (wavyRates_smooth 0 0 0).regular hF (by norm_num) (by norm_num) hy0 hrun (hsolve y0 hy0 _) row hrow
  · exact C59_conserved_fortran radical_parses radical_reads hg radical_sameNet _ radical_balanced radical_held hF (by norm_num)
      (by norm_num) hrun (hsolve y0 hy0 _) row hrow

end PyBox
