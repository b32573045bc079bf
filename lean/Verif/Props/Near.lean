import Verif.Sim.Near
import Verif.Props.AerosolTraj
import Verif.Props.GeneratedRates

/-!
# C81: solvers that make errors

The properties of trajectories (`C59` to `C64`) speak of exact solvers. `C81` says what they mean for a
solver that makes errors, which may be of both kinds that occur: in the right-hand side it follows, such as
rounding, and in the state it hands back, such as its tolerance.
-/

namespace PyBox

open Set Spec Aerosol

theorem ball_within {n : ℕ} (y : Fin n → ℝ) : SizeAtMost (‖y‖ + 1) (Metric.ball y 1) := by
  intro z hz i
  have h1 : ‖z i‖ ≤ ‖z‖ := norm_le_pi_norm z i
  have h2 : ‖z‖ ≤ ‖y‖ + dist z y := by
    rw [dist_eq_norm]
    have := norm_add_le y (z - y)
    rwa [add_sub_cancel] at this
  rw [Real.norm_eq_abs] at h1
  have := Metric.mem_ball.1 hz
  linarith

theorem kineticValue_around {m : Mechanism} {qs : List RawEqn} {A : Str → ℕ → ℝ} {rates : Rates}
    {start h2o temp : ℝ} (h1 : WholeReactants qs) (hr : PiecewiseRates rates start h2o temp) {n : ℕ}
    (T : ℝ) (y : Fin n → ℝ) (s : Str) : SetLip (Icc 0 T) (Metric.ball y 1) (fun t (z : Fin n → ℝ) =>
      kineticValue m qs A rates start h2o temp s t (stateOf z)) :=
  kineticValue_setLip h1 hr (by positivity) (ball_within y) s

theorem KineticSystem.around {text : Str} {m : Mechanism} {qs : List RawEqn} {A : Str → ℕ → ℝ} {rates : Rates}
    {start h2o temp : ℝ} {n : ℕ} {F : ℝ → (Fin n → ℝ) → Fin n → ℝ}
    (hF : KineticSystem m qs A rates start h2o temp F)
    (h : extractMechanism text = .ok m) (h1 : WholeReactants qs)
    (hr : PiecewiseRates rates start h2o temp) : AroundLip F := by
  intro T y _ i
  obtain ⟨s, hs⟩ := hF.species h i
  refine ⟨1, one_pos, ?_⟩
  simp only [hF.value s i hs]
  exact kineticValue_around h1 hr T y s

theorem SetLip.around {n : ℕ} {A : Set ℝ} {y : Fin n → ℝ} {f : (Fin n → ℝ) → ℝ} (hf : ContDiffAt ℝ 1 f y) :
    ∃ ε > 0, SetLip A (Metric.ball y ε) (fun _ => f) := by
  obtain ⟨K, M, ε, hK, hM, hε, h⟩ := NearLip.of_contDiffAt (t := 0) hf
  exact ⟨ε, hε, K, M, hK, hM, fun _ _ z hz => h 0 ⟨le_rfl, by linarith⟩ z hz⟩

theorem MixedSystem.around {L : Aerosol.Layout} {C : AeroConst} {G : ℝ → (ℕ → ℝ) → ℕ → ℝ} {n : ℕ}
    {F : ℝ → (Fin n → ℝ) → Fin n → ℝ} (hF : MixedSystem L C G F) (hL : GoodLayout L) (hC : PhysConst L C)
    (hG : ∀ i < L.numSpecies - 1, ∀ T (y : Fin n → ℝ),
      SetLip (Icc 0 T) (Metric.ball y 1) (fun t z => G t (stateOf z) i)) : AroundLip F := by
  intro T y hy i
  obtain ⟨ε, hε, hp⟩ := SetLip.around (A := Icc 0 T) (partition_contDiffAt hL hC hy
    (show (i : ℕ) < L.numSpecies + L.numBins * L.numCond from hF.size ▸ i.2))
  refine ⟨min 1 ε, lt_min one_pos hε, ?_⟩
  simp only [hF.entry]
  refine SetLip.add ?_ (hp.mono (Metric.ball_subset_ball (min_le_right _ _)))
  by_cases hi : (i : ℕ) < L.numSpecies - 1
  · simp only [if_pos hi]
    exact (hG i hi T y).mono (Metric.ball_subset_ball (min_le_left _ _))
  · simp only [if_neg hi]
    exact SetLip.const 0

/-! ## Gas -/

/-- **C81**, gas: what an exact solver reports, every solver with small errors reports up to a constant times
the errors. -/
theorem C81_gas {text : Str} {m : Mechanism} (h : extractMechanism text = .ok m)
    {qs : List RawEqn} (hq : Reads text m.equations.toNat qs)
    (hpos : ∀ q ∈ qs, ∀ p ∈ chemReactants q ++ chemProducts q, 0 < p.1) (hone : WholeReactants qs)
    {rates : Rates} {start h2o temp : ℝ} (hr : PiecewiseRates rates start h2o temp) {n : ℕ}
    {F : ℝ → (Fin n → ℝ) → Fin n → ℝ} (hF : GasSystem m rates start h2o temp F)
    {solve : (Fin n → ℝ) → ℚ → Fin n → ℝ} {sim batch : ℚ} (hs : 0 < sim) (hb : 0 < batch)
    {zero y0 : Fin n → ℝ} (hy0 : ∀ i, 0 ≤ y0 i) {times : List ℚ} {rows : List (Fin n → ℝ)}
    (hrun : runSimulation id solve zero y0 sim batch = .ok (times, rows))
    (hex : ExactBatches F solve batch y0 rows.length) : Reproducible F sim batch zero y0 times rows :=
  ((hF.kinetic h hq).around h hone hr).reproducible
    ((hF.kinetic h hq).tame h (recorded_loss_only h hq hpos).1 (left_pos hpos) hone hr.regular) hs hb hy0 hrun hex

/-- **C81**, gas, Fortran version. -/
theorem C81_gas_fortran {text : Str} {m : Mechanism} (h : extractMechanism text = .ok m)
    {qs : List RawEqn} (hq : Reads text m.equations.toNat qs)
    (hpos : ∀ q ∈ qs, ∀ p ∈ chemReactants q ++ chemProducts q, 0 < p.1) (hone : WholeReactants qs)
    {cores : Option ℕ} {rates : Rates} {start h2o temp : ℝ} (hr : PiecewiseRates rates start h2o temp) {n : ℕ}
    {F : ℝ → (Fin n → ℝ) → Fin n → ℝ} (hF : GasSystemF m cores rates start h2o temp F)
    {solve : (Fin n → ℝ) → ℚ → Fin n → ℝ} {sim batch : ℚ} (hs : 0 < sim) (hb : 0 < batch)
    {zero y0 : Fin n → ℝ} (hy0 : ∀ i, 0 ≤ y0 i) {times : List ℚ} {rows : List (Fin n → ℝ)}
    (hrun : runSimulation id solve zero y0 sim batch = .ok (times, rows))
    (hex : ExactBatches F solve batch y0 rows.length) : Reproducible F sim batch zero y0 times rows :=
  ((hF.kinetic h hq).around h hone hr).reproducible
    ((hF.kinetic h hq).tame h (recorded_loss_only h hq hpos).2 (left_pos hpos) hone hr.regular) hs hb hy0 hrun hex

theorem KineticSystem.drift {text : Str} {m : Mechanism} {qs : List RawEqn} {A : Str → ℕ → ℝ} {rates : Rates}
    {start h2o temp : ℝ} {n : ℕ} {F : ℝ → (Fin n → ℝ) → Fin n → ℝ}
    (hF : KineticSystem m qs A rates start h2o temp F)
    (h : extractMechanism text = .ok m) (hq : Reads text m.equations.toNat qs)
    (hA : TrueWeights m qs A) (w : Str → ℝ) (hbal : ∀ q ∈ qs, Spec.Balanced w q)
    (hconst : ∀ s ∈ heldConstant, w s = 0) {η ε : ℝ} {solve : (Fin n → ℝ) → ℚ → Fin n → ℝ}
    {sim batch : ℚ} (hs : 0 < sim) (hb : 0 < batch) {zero y0 : Fin n → ℝ} {times : List ℚ}
    {rows : List (Fin n → ℝ)}
    (hrun : runSimulation id solve zero y0 sim batch = .ok (times, rows))
    (hex : NearBatches F η ε solve batch y0 rows.length) :
    ∀ (k : ℕ) (row : Fin n → ℝ), rows[k]? = some row →
      |weightedTotal m w (stateOf row) - weightedTotal m w (stateOf y0)|
        ≤ (k + 1) * (η * batch + ε) * weightedTotal m (fun s => |w s|) fun _ => 1 := by
  obtain ⟨sp, hsp, hsum⟩ := index_sum h hq hF.size
  intro k row hk
  rw [stateOf_total hsum, stateOf_total hsum, hsum]
  have := rows_drift (fun i => w (sp i)) (hF.total_zero hsp hconst fun e he => by
    have hqe : qs[e]? = some qs[e] := List.getElem?_eq_getElem he
    rw [hA n sp hsum hsp w hconst e _ hqe, sub_eq_zero]
    exact (hbal _ (List.getElem_mem he)).symm) hs hb hrun hex k row hk
  simpa only [mul_one] using this

/-- **C81**, gas: with a solver that makes errors a total that every reaction balances drifts by at most the
errors, batch by batch. Nothing is required of the rate coefficients. -/
theorem C81_drift {text : Str} {m : Mechanism} (h : extractMechanism text = .ok m)
    {qs : List RawEqn} (hq : Reads text m.equations.toNat qs) (hg : ∀ q ∈ qs, GainGood q)
    (w : Str → ℝ) (hbal : ∀ q ∈ qs, Spec.Balanced w q) (hconst : ∀ s ∈ heldConstant, w s = 0)
    {rates : Rates} {start h2o temp : ℝ} {n : ℕ} {F : ℝ → (Fin n → ℝ) → Fin n → ℝ}
    (hF : GasSystem m rates start h2o temp F) {η ε : ℝ} {solve : (Fin n → ℝ) → ℚ → Fin n → ℝ}
    {sim batch : ℚ} (hs : 0 < sim) (hb : 0 < batch) {zero y0 : Fin n → ℝ} {times : List ℚ}
    {rows : List (Fin n → ℝ)}
    (hrun : runSimulation id solve zero y0 sim batch = .ok (times, rows))
    (hex : NearBatches F η ε solve batch y0 rows.length) :
    ∀ (k : ℕ) (row : Fin n → ℝ), rows[k]? = some row →
      |weightedTotal m w (stateOf row) - weightedTotal m w (stateOf y0)|
        ≤ (k + 1) * (η * batch + ε) * weightedTotal m (fun s => |w s|) fun _ => 1 :=
  (hF.kinetic h hq).drift h hq (recorded_trueWeights h hq hg) w hbal hconst hs hb hrun hex

/-- **C81**, gas, Fortran version. -/
theorem C81_drift_fortran {text : Str} {m : Mechanism} (h : extractMechanism text = .ok m)
    {qs : List RawEqn} (hq : Reads text m.equations.toNat qs) (hg : ∀ q ∈ qs, GainGood q) (hsame : SameNet m)
    (w : Str → ℝ) (hbal : ∀ q ∈ qs, Spec.Balanced w q) (hconst : ∀ s ∈ heldConstant, w s = 0)
    {cores : Option ℕ} {rates : Rates} {start h2o temp : ℝ} {n : ℕ} {F : ℝ → (Fin n → ℝ) → Fin n → ℝ}
    (hF : GasSystemF m cores rates start h2o temp F) {η ε : ℝ} {solve : (Fin n → ℝ) → ℚ → Fin n → ℝ}
    {sim batch : ℚ} (hs : 0 < sim) (hb : 0 < batch) {zero y0 : Fin n → ℝ} {times : List ℚ}
    {rows : List (Fin n → ℝ)}
    (hrun : runSimulation id solve zero y0 sim batch = .ok (times, rows))
    (hex : NearBatches F η ε solve batch y0 rows.length) :
    ∀ (k : ℕ) (row : Fin n → ℝ), rows[k]? = some row →
      |weightedTotal m w (stateOf row) - weightedTotal m w (stateOf y0)|
        ≤ (k + 1) * (η * batch + ε) * weightedTotal m (fun s => |w s|) fun _ => 1 :=
  (hF.kinetic h hq).drift h hq (fortran_trueWeights h hq hg hsame) w hbal hconst hs hb hrun hex

/-! ## Particles -/

theorem slotWeight_abs (L : Aerosol.Layout) (W : ℕ → ℝ) (i : ℕ) :
    |slotWeight L W i| = slotWeight L (fun s => |W s|) i := by
  unfold slotWeight
  split
  · rfl
  · split
    · rfl
    · exact abs_zero

theorem MixedSystem.drift {L : Aerosol.Layout} {C : AeroConst} {G : ℝ → (ℕ → ℝ) → ℕ → ℝ} {n : ℕ}
    {F : ℝ → (Fin n → ℝ) → Fin n → ℝ} (hF : MixedSystem L C G F) (hL : GoodLayout L)
    (hw : L.numSpecies - 1 ∈ L.incl) (W : ℕ → ℝ)
    (hW : ∀ t y, ∑ s ∈ Finset.range (L.numSpecies - 1), W s * G t y s = 0) {η ε : ℝ}
    {solve : (Fin n → ℝ) → ℚ → Fin n → ℝ} {sim batch : ℚ} (hs : 0 < sim) (hb : 0 < batch)
    {zero y0 : Fin n → ℝ} {times : List ℚ} {rows : List (Fin n → ℝ)}
    (hrun : runSimulation id solve zero y0 sim batch = .ok (times, rows))
    (hex : NearBatches F η ε solve batch y0 rows.length) :
    ∀ (k : ℕ) (row : Fin n → ℝ), rows[k]? = some row →
      |∑ s ∈ Finset.range L.numSpecies, W s * allPhases L (stateOf row) s
        - ∑ s ∈ Finset.range L.numSpecies, W s * allPhases L (stateOf y0) s|
        ≤ (k + 1) * (η * batch + ε) *
          ∑ s ∈ Finset.range L.numSpecies, |W s| * allPhases L (fun _ => 1) s := by
  intro k row hk
  have := rows_drift (fun i : Fin n => slotWeight L W i) (fun t y => by rw [hF.total hL hw, hW])
    hs hb hrun hex k row hk
  rw [hF.total_state hL, hF.total_state hL] at this
  refine this.trans (le_of_eq ?_)
  rw [← sum_allPhases hL (fun s => |W s|), ← hF.sum_fin (fun i => slotWeight L (fun s => |W s|) i)]
  simp only [slotWeight_abs, mul_one]

section

variable {text : Str} {m : Mechanism} {qs : List RawEqn} {cores : Option ℕ} {L : Aerosol.Layout} {C : AeroConst}
  {rates : Rates} {start h2o : ℝ} {n : ℕ} {F : ℝ → (Fin n → ℝ) → Fin n → ℝ}

theorem Spec.AerosolSystem.around (hF : AerosolSystem m cores L C rates start h2o F)
    (h : extractMechanism text = .ok m) (hq : Reads text m.equations.toNat qs)
    (hns : L.numSpecies = m.tables.species.length + 1) (hL : GoodLayout L) (hC : PhysConst L C)
    (hone : WholeReactants qs) (hr : PiecewiseRates rates start h2o C.temp) : AroundLip F := by
  obtain ⟨sp, hsp, -⟩ := index_sum h hq rfl
  refine (hF.mixed h hq hns hsp).around hL hC fun i hi T y => ?_
  have hi' : i < m.tables.species.length := by omega
  simp only [gasPart, dif_pos hi']
  exact kineticValue_around hone hr T y _

/-- **C81**, particles: what an exact solver reports, every solver with small errors reports up to a constant
times the errors. -/
theorem C81_aerosol (h : extractMechanism text = .ok m) (hq : Reads text m.equations.toNat qs)
    (hL : GoodLayout L) (hC : PhysConst L C) (hns : L.numSpecies = m.tables.species.length + 1)
    (hpos : ∀ q ∈ qs, ∀ p ∈ chemReactants q ++ chemProducts q, 0 < p.1) (hone : WholeReactants qs)
    (hr : PiecewiseRates rates start h2o C.temp)
    (hF : AerosolSystem m cores L C rates start h2o F)
    {solve : (Fin n → ℝ) → ℚ → Fin n → ℝ} {sim batch : ℚ} (hs : 0 < sim) (hb : 0 < batch)
    {zero y0 : Fin n → ℝ} (hy0 : ∀ i, 0 ≤ y0 i) {times : List ℚ} {rows : List (Fin n → ℝ)}
    (hrun : runSimulation id solve zero y0 sim batch = .ok (times, rows))
    (hex : ExactBatches F solve batch y0 rows.length) : Reproducible F sim batch zero y0 times rows :=
  (hF.around h hq hns hL hC hone hr).reproducible (hF.tame h hq hns hL hC hpos hone hr.regular)
    hs hb hy0 hrun hex

/-- **C81**, fixed yields. -/
theorem C81_fixed_yield (hL : GoodLayout L) (hC : PhysConst L C) (hF : FixedYieldSystem L C F)
    {solve : (Fin n → ℝ) → ℚ → Fin n → ℝ} {sim batch : ℚ} (hs : 0 < sim) (hb : 0 < batch)
    {zero y0 : Fin n → ℝ} (hy0 : ∀ i, 0 ≤ y0 i) {times : List ℚ} {rows : List (Fin n → ℝ)}
    (hrun : runSimulation id solve zero y0 sim batch = .ok (times, rows))
    (hex : ExactBatches F solve batch y0 rows.length) : Reproducible F sim batch zero y0 times rows :=
  (hF.mixed.around hL hC fun _ _ _ _ => SetLip.const 0).reproducible (hF.tame hL hC) hs hb hy0 hrun hex

/-- **C81**, particles: with a solver that makes errors a total over all phases that every reaction balances
drifts by at most the errors, batch by batch. -/
theorem C81_drift_aerosol (h : extractMechanism text = .ok m) (hq : Reads text m.equations.toNat qs)
    (hg : ∀ q ∈ qs, GainGood q) (hsame : SameNet m) (hL : GoodLayout L)
    (hns : L.numSpecies = m.tables.species.length + 1) (hwater : L.numSpecies - 1 ∈ L.incl)
    (w : Str → ℝ) (hbal : ∀ q ∈ qs, Spec.Balanced w q) (hconst : ∀ s ∈ heldConstant, w s = 0)
    (hF : AerosolSystem m cores L C rates start h2o F) {η ε : ℝ} {solve : (Fin n → ℝ) → ℚ → Fin n → ℝ}
    {sim batch : ℚ} (hs : 0 < sim) (hb : 0 < batch) {zero y0 : Fin n → ℝ} {times : List ℚ}
    {rows : List (Fin n → ℝ)}
    (hrun : runSimulation id solve zero y0 sim batch = .ok (times, rows))
    (hex : NearBatches F η ε solve batch y0 rows.length) :
    ∀ (k : ℕ) (row : Fin n → ℝ), rows[k]? = some row →
      |weightedTotal m w (allPhases L (stateOf row)) - weightedTotal m w (allPhases L (stateOf y0))|
        ≤ (k + 1) * (η * batch + ε) * weightedTotal m (fun s => |w s|) (allPhases L fun _ => 1) := by
  obtain ⟨sp, hsp, hsum⟩ := index_sum h hq rfl
  have hN : L.numSpecies - 1 = m.tables.species.length := by omega
  intro k row hk
  have := (hF.mixed h hq hns hsp).drift hL hwater (nameWeight sp w) (fun t y => by
    rw [hN, gasPart_zero hsp hsum (fortran_trueWeights h hq hg hsame) hbal hconst]) hs hb hrun hex k row hk
  rw [nameWeight_allPhases hns hsum, nameWeight_allPhases hns hsum] at this
  refine this.trans (le_of_eq ?_)
  have habs : ∀ s, |nameWeight sp w s| = nameWeight sp (fun s => |w s|) s := by
    intro s
    unfold nameWeight
    split
    · rfl
    · exact abs_zero
  simp only [habs]
  rw [nameWeight_allPhases hns hsum]

/-- **C81**, fixed yields: what there is of a species in gas and bins together drifts by at most the errors in
its entries, batch by batch. -/
theorem C81_drift_fixed_yield (hL : GoodLayout L) (hwater : L.numSpecies - 1 ∈ L.incl)
    (hF : FixedYieldSystem L C F) {η ε : ℝ} {solve : (Fin n → ℝ) → ℚ → Fin n → ℝ}
    {sim batch : ℚ} (hs : 0 < sim) (hb : 0 < batch) {zero y0 : Fin n → ℝ} {times : List ℚ}
    {rows : List (Fin n → ℝ)}
    (hrun : runSimulation id solve zero y0 sim batch = .ok (times, rows))
    (hex : NearBatches F η ε solve batch y0 rows.length) :
    ∀ (k : ℕ) (row : Fin n → ℝ), rows[k]? = some row → ∀ s < L.numSpecies,
      |allPhases L (stateOf row) s - allPhases L (stateOf y0) s|
        ≤ (k + 1) * (η * batch + ε) * allPhases L (fun _ => 1) s := by
  intro k row hk s hlt
  have := hF.mixed.drift hL hwater (fun k => if k = s then 1 else 0) (fun t y => by simp) hs hb hrun hex k row hk
  rw [sum_indicator hlt, sum_indicator hlt] at this
  refine this.trans (le_of_eq ?_)
  have habs : ∀ k, |if k = s then (1 : ℝ) else 0| = if k = s then (1 : ℝ) else 0 := by
    intro k
    split
    · exact abs_one
    · exact abs_zero
  simp only [habs]
  rw [sum_indicator hlt]

end

section

open Rl

/-! ## The two versions -/

/-- **C81**, versions: the Python and the Fortran version of a gas simulation, each with the rate file
generated for it and with a solver of its own that makes small errors, report the same up to a constant times
the errors. -/
theorem C81_versions {text : Str} {m : Mechanism} (h : extractMechanism text = .ok m)
    {qs : List RawEqn} (hq : Reads text m.equations.toNat qs) (hsame : SameNet m)
    (hpos : ∀ q ∈ qs, ∀ p ∈ chemReactants q ++ chemProducts q, 0 < p.1) (hone : WholeReactants qs)
    (hw : ∀ s i, m.tables.index.get? s = some i → s ∉ heldConstant → ∃ w : Str → ℝ,
      (∀ s, 0 ≤ w s) ∧ 0 < w s ∧ (∀ s ∈ heldConstant, w s = 0) ∧ ∀ q ∈ qs, NotGained w q)
    {cores cores' : Option Nat} {i j : Nat}
    (hn : ReadableRates .numba ((convertOf .numba)^[i]) qs)
    (hf : ReadableRates .fortran ((convertOf .fortran)^[j]) qs)
    (hexp : SameExpressions ((convertOf .numba)^[i]) ((convertOf .fortran)^[j]) qs) {p p' : List Rl.Stmt}
    (hp : program .numba (ratesFile .numba none ((convertTable (convertOf .numba))^[i] m.tables.rate)) = some p)
    (hp' : program .fortran (ratesFile .fortran cores
      ((convertTable (convertOf .fortran))^[j] m.tables.rate)) = some p')
    {junk junk' : Rl.Vals} (hjunk : ∀ e, 0 ≤ junk (Backend.numba.rateVar e)) {start h2o temp : ℝ}
    (hnn : NonnegRates .numba ((convertOf .numba)^[i]) qs h2o temp)
    {n : ℕ} {F F' : ℝ → (Fin n → ℝ) → Fin n → ℝ}
    (hF : GasSystem m (generatedRates .numba p junk) start h2o temp F)
    (hF' : GasSystemF m cores' (generatedRates .fortran p' junk') start h2o temp F')
    {sim batch : ℚ} (hs : 0 < sim) (hb : 0 < batch) {zero y0 : Fin n → ℝ} (hy0 : ∀ i, 0 ≤ y0 i) :
    ∃ r > 0, ∃ C : ℝ, 0 ≤ C ∧ ∀ (η ε η' ε' : ℝ) (solve solve' : (Fin n → ℝ) → ℚ → Fin n → ℝ)
      (times times' : List ℚ) (rows rows' : List (Fin n → ℝ)), 0 ≤ η → 0 ≤ ε → 0 ≤ η' → 0 ≤ ε' →
      η + ε ≤ r → η' + ε' ≤ r →
      runSimulation id solve zero y0 sim batch = .ok (times, rows) →
      runSimulation id solve' zero y0 sim batch = .ok (times', rows') →
      NearBatches F η ε solve batch y0 rows.length → NearBatches F' η' ε' solve' batch y0 rows'.length →
      times = times' ∧ rows.length = rows'.length ∧ ∀ (k : ℕ) (row row' : Fin n → ℝ), rows[k]? = some row →
        rows'[k]? = some row' → ∀ i, |row i - row' i| ≤ C * (η + ε + η' + ε') := by
  obtain rfl := C68_same_system h hq hsame hn hf hexp hp hp' hF hF'
  have hr := C66_piecewise h hq (by decide) hn hp hjunk start hnn
  obtain ⟨exact, hex⟩ := C61_exists h hq hpos hone hw hr hF hb
  exact ((hF.kinetic h hq).around h hone hr).agree
    ((hF.kinetic h hq).tame h (recorded_loss_only h hq hpos).1 (left_pos hpos) hone hr.regular) hs hb hy0
    (hex y0 hy0)

end

/-! ## A case the theorems apply to -/

/-- For `radicalText` a solver that hands back `ε` too much of everything meets the hypotheses of `C81_gas` and
`C81_drift`. -/
theorem radical_near : ∃ (F : ℝ → (Fin 5 → ℝ) → Fin 5 → ℝ) (solve : (Fin 5 → ℝ) → ℚ → Fin 5 → ℝ),
    GasSystem ⟨build radicalReactions, 2⟩ wavyRates 0 0 0 F ∧
    ∀ y0 : Fin 5 → ℝ, (∀ i, 0 ≤ y0 i) →
      (∃ rows, runSimulation id solve (fun _ => 0) y0 (((2 : ℕ) : ℚ) * 60) 60 = .ok ([60, 120], rows) ∧
        Reproducible F (((2 : ℕ) : ℚ) * 60) 60 (fun _ => 0) y0 [60, 120] rows) ∧
      ∀ ε, 0 ≤ ε → ∃ rows,
        runSimulation id (fun y d i => solve y d i + ε) (fun _ => 0) y0 (((2 : ℕ) : ℚ) * 60) 60
          = .ok ([60, 120], rows) ∧
        NearBatches F 0 ε (fun y d i => solve y d i + ε) 60 y0 rows.length ∧
        ∀ (k : ℕ) (row : Fin 5 → ℝ), rows[k]? = some row →
          |weightedTotal ⟨build radicalReactions, 2⟩ (fun s => (radicalWeight s : ℝ)) (stateOf row)
            - weightedTotal ⟨build radicalReactions, 2⟩ (fun s => (radicalWeight s : ℝ)) (stateOf y0)|
          ≤ (k + 1) * (0 * (60 : ℚ) + ε) * weightedTotal ⟨build radicalReactions, 2⟩
              (fun s => |(radicalWeight s : ℝ)|) fun _ => 1 := by
  obtain ⟨F, solve, hF, h⟩ := radical_run
  have hg : ∀ q ∈ radicalReactions, GainGood q := fun q hq => (radical_regular q hq).gain
  refine ⟨F, solve, hF, fun y0 hy0 => ⟨?_, fun ε hε => ?_⟩⟩
  · obtain ⟨hex, rows, hrun, -, -⟩ := h y0 hy0
    exact ⟨rows, hrun, C81_gas radical_parses radical_reads radical_positive.1 radical_positive.2
      (wavyRates_smooth 0 0 0).piecewise hF (by norm_num) (by norm_num) hy0 hrun (hex _)⟩
  · obtain ⟨rows, hrun, -⟩ := radical_batches (fun y d i => solve y d i + ε) y0
    have hT := (hF.kinetic radical_parses radical_reads).tame radical_parses
      (recorded_loss_only radical_parses radical_reads radical_positive.1).1 (left_pos radical_positive.1)
      radical_positive.2 (wavyRates_smooth 0 0 0).regular
    have hnear := shifted_near (batch := 60) (by norm_num) hT (fun y hy => (h y hy).1) hε hy0 rows.length
    exact ⟨rows, hrun, hnear, C81_drift radical_parses radical_reads hg _ radical_balanced radical_held hF
      (by norm_num) (by norm_num) hrun hnear⟩

end PyBox
