import Verif.Props.WellPosed
import Verif.Props.SplitRuns

/-!
# C99: simulations of mechanisms whose products are recorded wrongly

`C06_exact` says which products the parser records for a reaction. The shipped mechanisms contain reactions
for which they are not the products in the file: a repeated product counts once, and products written after
the last reactant, where this is a product too, are dropped. Here is what the simulations of such mechanisms
do: they are the simulations of the recorded reactions, and lose what was not recorded.
-/

namespace PyBox

open Set Spec Aerosol

/-! ## The recorded reactions -/

/-- C99: for every reaction the table of gains holds the products of the recorded reaction. -/
theorem C99_recorded {text : Str} {m : Mechanism} (h : extractMechanism text = .ok m)
    {qs : List RawEqn} (hq : Reads text m.equations.toNat qs) (s : Str) (e : ℕ) :
    cell m.tables.gain s e = (qs[e]?).bind fun q => gainCoef (asRecorded q) s := by
  rw [cell_gain h hq]
  cases qs[e]? with
  | none => rfl
  | some q =>
    rw [Option.bind_some, Option.bind_some]
    unfold gainCoef
    rw [chemProducts_asRecorded, coef_recorded]
    by_cases hs : s ∈ names (recordedProducts q)
    · rw [if_pos hs, gainEntry_eq, if_pos (mem_names_recorded.1 hs)]
      rfl
    · rw [if_neg hs, gainEntry_eq, if_neg fun hc => hs (mem_names_recorded.2 hc)]

theorem sum_range_eq_zipIdx : ∀ (l : List RawEqn) (k : ℕ) (F : ℕ → ℝ) (G : RawEqn → ℕ → ℝ),
    (∀ e q, l[e]? = some q → F e = G q (k + e)) →
    ∑ e ∈ Finset.range l.length, F e = ((l.zipIdx k).map fun p => G p.1 p.2).sum
  | [], _, _, _, _ => rfl
  | a :: l, k, F, G, h => by
    rw [List.length_cons, Finset.sum_range_succ', List.zipIdx_cons, List.map_cons, List.sum_cons, add_comm,
      h 0 a rfl, sum_range_eq_zipIdx l (k + 1) (fun e => F (e + 1)) G]
    · rfl
    · intro e q he
      rw [h (e + 1) q he]
      congr 1
      omega

theorem radicals_ne {m : Mechanism} (hrad : ∃ s ∈ ro2Names, (m.tables.index.get? s).isSome) :
    ro2Indices m.tables.index ≠ [] := by
  obtain ⟨s, hs, hg⟩ := hrad
  rw [ro2Indices_eq]
  intro he
  rw [List.filterMap_eq_nil_iff] at he
  rw [he s hs] at hg
  cases hg

/-- C99: the right-hand side is the kinetic system of the recorded reactions. -/
theorem C99_kinetics {text : Str} {m : Mechanism} (h : extractMechanism text = .ok m)
    {qs : List RawEqn} (hq : Reads text m.equations.toNat qs) (hall : AllWritten m)
    (hsome : ∀ q ∈ qs, chemReactants q ≠ []) (honce : ∀ q ∈ qs, (names (chemReactants q)).Nodup)
    (hrad : ∃ s ∈ ro2Names, (m.tables.index.get? s).isSome)
    (hn : ∀ s ∈ lostRadicals ++ damagedEntries, m.tables.index.get? s = none)
    (rates : Rates) (start h2o temp : ℝ) :
    KineticRhs m (qs.map asRecorded) rates start h2o temp := by
  intro time y
  have hne := radicals_ne hrad
  obtain ⟨out, hout⟩ := Option.isSome_iff_exists.1
    ((gasRhs_isSome_iff h (rates (start + time) ((ro2Indices m.tables.index).map y).sum h2o temp) y).2 hall)
  have hrun := (dydtFunc_eq hne _ _ rates start h2o temp time y).trans hout
  refine ⟨out, hrun, fun s i hs => ?_⟩
  rw [C55_value h hq rates start h2o temp time y out hrun hs, radicalSum_eq h hn]
  by_cases hx : s ∈ heldConstant
  · rw [if_pos hx, if_pos hx]
  · rw [if_neg hx, if_neg hx]
    rw [sum_range_eq_zipIdx qs 0 _ fun q e => ((coef (recordedProducts q) s : ℝ) - (coef (chemReactants q) s : ℝ)) *
      (rates (start + time) (radicalSum m.tables.index y) h2o temp e * massAction (concOf m.tables y) q)]
    · unfold rateLaw
      rw [List.zipIdx_map, List.map_map]
      refine congrArg List.sum (List.map_congr_left fun p _ => ?_)
      dsimp only [Function.comp_apply, Prod.map_fst, Prod.map_snd, id_eq]
      rw [chemProducts_asRecorded, chemReactants_asRecorded]
      rfl
    · intro e q he
      have hqm := List.mem_of_getElem? he
      rw [zero_add, net_recorded h hq he, he]
      dsimp only
      unfold codeProduct massAction
      rw [if_neg (hsome q hqm), List.prod_toFinset _ (honce q hqm)]
      ring

/-! ## Systems -/

/-- A mechanism with a listed radical and entries for all species has a system. -/
theorem gasSystem_exists {text : Str} {m : Mechanism} (h : extractMechanism text = .ok m) (hall : AllWritten m)
    (hrad : ∃ s ∈ ro2Names, (m.tables.index.get? s).isSome) (rates : Rates) (start h2o temp : ℝ) {n : ℕ}
    (hn : n = m.tables.species.length) :
    ∃ F : ℝ → (Fin n → ℝ) → Fin n → ℝ, GasSystem m rates start h2o temp F := by
  have hsome : ∀ time y, (dydtFunc m.tables m.equations.toNat (ro2Indices m.tables.index) rates start h2o temp
      time y).isSome := fun time y => by
    rw [dydtFunc_eq (radicals_ne hrad)]
    exact (gasRhs_isSome_iff h _ _).2 hall
  exact ⟨fun t y i => (dydtFunc m.tables m.equations.toNat (ro2Indices m.tables.index) rates start h2o temp
      t (stateOf y)).get (hsome _ _) i, hn,
    fun t y => ⟨_, (Option.some_get (hsome t (stateOf y))).symm, fun _ => rfl⟩⟩

theorem gasSystemF_exists {text : Str} {m : Mechanism} (h : extractMechanism text = .ok m) (hall : AllWritten m)
    (hrad : ∃ s ∈ ro2Names, (m.tables.index.get? s).isSome) (cores : Option ℕ) (rates : Rates)
    (start h2o temp : ℝ) {n : ℕ} (hn : n = m.tables.species.length) :
    ∃ F : ℝ → (Fin n → ℝ) → Fin n → ℝ, GasSystemF m cores rates start h2o temp F := by
  have hsome : ∀ time y, (dydtFuncF m.tables m.equations.toNat n cores
      (ro2Indices m.tables.index) rates start h2o temp time y).isSome := fun time y => by
    unfold dydtFuncF
    rw [ro2Total_some (radicals_ne hrad), Option.bind_some]
    exact (gasRhsF_isSome h _ _ _ _ _ _).2 hall
  exact ⟨fun t y i => (dydtFuncF m.tables m.equations.toNat n cores
      (ro2Indices m.tables.index) rates start h2o temp t (stateOf y)).get (hsome _ _) i, hn,
    fun t y => ⟨_, (Option.some_get (hsome t (stateOf y))).symm, fun _ => rfl⟩⟩

theorem reactionProduct_pos {qs : List RawEqn} {tb : Tables} {y : ℕ → ℝ} {e : ℕ} {q : RawEqn}
    (hqe : qs[e]? = some q) (hne : chemReactants q ≠ [])
    (hy : ∀ s ∈ names (chemReactants q), 0 < concOf tb y s) : 0 < reactionProduct qs tb y e := by
  unfold reactionProduct
  rw [hqe]
  dsimp only
  unfold codeProduct
  rw [if_neg hne]
  refine List.prod_pos fun x hx => ?_
  obtain ⟨s, hs, rfl⟩ := List.mem_map.1 hx
  exact Real.rpow_pos_of_pos (hy s hs) _

/-! ## What is conserved -/

/-- C99: the total with weights `w` is constant, for all rate coefficients and states, exactly if every
recorded reaction balances. -/
theorem C99_conserved_iff {text : Str} {m : Mechanism} (h : extractMechanism text = .ok m)
    {qs : List RawEqn} (hq : Reads text m.equations.toNat qs) (hall : AllWritten m)
    (hsome : ∀ q ∈ qs, chemReactants q ≠ [])
    (hrad : ∃ s ∈ ro2Names, (m.tables.index.get? s).isSome)
    (w : Str → ℝ) (hconst : ∀ s ∈ heldConstant, w s = 0) :
    (∀ (rates : Rates) (start h2o temp time : ℝ) (y out : ℕ → ℝ),
      dydtFunc m.tables m.equations.toNat (ro2Indices m.tables.index) rates start h2o temp time y = some out →
        weightedTotal m w out = 0) ↔
      ∀ q ∈ qs, Spec.Balanced w (asRecorded q) := by
  obtain ⟨sp, hsp, hsum⟩ := index_sum h hq rfl
  have htot : ∀ (rates : Rates) (start h2o temp time : ℝ) (y out : ℕ → ℝ),
      dydtFunc m.tables m.equations.toNat (ro2Indices m.tables.index) rates start h2o temp time y = some out →
        weightedTotal m w out = ∑ e ∈ Finset.range qs.length,
          (∑ i, w (sp i) * netRecorded m.tables (sp i) e) * (reactionProduct qs m.tables y e *
            rates (start + time) ((ro2Indices m.tables.index).map y).sum h2o temp e) := by
    intro rates start h2o temp time y out hout
    rw [hsum, ← kineticValue_total sp hconst]
    refine Finset.sum_congr rfl fun i _ => ?_
    rw [C55_value h hq rates start h2o temp time y out hout ((hsp i _).2 rfl)]
    rfl
  constructor
  · intro hz q hqm
    obtain ⟨e, he⟩ := List.getElem?_of_mem hqm
    obtain ⟨out, hout⟩ : ∃ out, dydtFunc m.tables m.equations.toNat (ro2Indices m.tables.index)
        (fun _ _ _ _ e' => if e' = e then 1 else 0) 0 0 0 0 (fun _ => 1) = some out := by
      rw [dydtFunc_eq (radicals_ne hrad)]
      exact Option.isSome_iff_exists.1 ((gasRhs_isSome_iff h _ _).2 hall)
    have h0 := hz _ _ _ _ _ _ _ hout
    have hlt : e < qs.length := (List.getElem?_eq_some_iff.1 he).1
    rw [htot _ _ _ _ _ _ _ hout, Finset.sum_eq_single_of_mem e (Finset.mem_range.2 hlt)
      (fun b _ hb => by simp only [if_neg hb, mul_zero]), if_pos rfl, mul_one,
      recorded_weight h hq hsum w he] at h0
    have hp := reactionProduct_pos (tb := m.tables) (y := fun _ => 1) he (hsome q hqm)
      fun s _ => by unfold concOf; exact one_pos
    unfold Spec.Balanced
    rw [chemProducts_asRecorded, chemReactants_asRecorded]
    linarith [(mul_eq_zero.1 h0).resolve_right hp.ne']
  · intro hb rates start h2o temp time y out hout
    rw [htot _ _ _ _ _ _ _ hout]
    refine Finset.sum_eq_zero fun e he => ?_
    have hlt := Finset.mem_range.1 he
    have := hb _ (List.getElem_mem hlt)
    unfold Spec.Balanced at this
    rw [chemProducts_asRecorded, chemReactants_asRecorded] at this
    rw [recorded_weight h hq hsum w (List.getElem?_eq_getElem hlt), this, sub_self, zero_mul]

/-- C99: with an exact solver every reported row holds the same weighted total as the initial state, for all
weights that the recorded reactions balance. -/
theorem C99_conserved {text : Str} {m : Mechanism} (h : extractMechanism text = .ok m)
    {qs : List RawEqn} (hq : Reads text m.equations.toNat qs)
    (w : Str → ℝ) (hbal : ∀ q ∈ qs, Spec.Balanced w (asRecorded q)) (hconst : ∀ s ∈ heldConstant, w s = 0)
    {rates : Rates} {start h2o temp : ℝ} {n : ℕ} {F : ℝ → (Fin n → ℝ) → Fin n → ℝ}
    (hF : GasSystem m rates start h2o temp F) {solve : (Fin n → ℝ) → ℚ → Fin n → ℝ}
    {sim batch : ℚ} (hs : 0 < sim) (hb : 0 < batch) {zero y0 : Fin n → ℝ} {times : List ℚ}
    {rows : List (Fin n → ℝ)}
    (hrun : runSimulation id solve zero y0 sim batch = .ok (times, rows))
    (hex : ExactBatches F solve batch y0 rows.length) :
    ∀ row ∈ rows, weightedTotal m w (stateOf row) = weightedTotal m w (stateOf y0) := by
  obtain ⟨sp, hsp, hsum⟩ := index_sum h hq hF.1
  intro row hrow
  rw [stateOf_total hsum, stateOf_total hsum]
  refine rows_constant (fun i => w (sp i)) ((hF.kinetic h hq).total_zero hsp hconst fun e he => ?_)
    hs hb hrun hex row hrow
  have hbe := hbal _ (List.getElem_mem he)
  unfold Spec.Balanced at hbe
  rw [chemProducts_asRecorded, chemReactants_asRecorded] at hbe
  rw [recorded_weight h hq hsum w (List.getElem?_eq_getElem he), hbe, sub_self]

/-! ## What never grows -/

/-- C99: with an exact solver and non-negative concentrations, a total whose weights are not negative and
which no reaction of the file gains never grows from one reported row to a later one. -/
theorem C99_never_more {text : Str} {m : Mechanism} (h : extractMechanism text = .ok m)
    {qs : List RawEqn} (hq : Reads text m.equations.toNat qs)
    (hpos : ∀ q ∈ qs, ∀ p ∈ chemReactants q ++ chemProducts q, 0 < p.1) (hone : WholeReactants qs)
    (w : Str → ℝ) (hw0 : ∀ s, 0 ≤ w s) (hw : ∀ q ∈ qs, NotGained w q) (hconst : ∀ s ∈ heldConstant, w s = 0)
    {rates : Rates} {start h2o temp : ℝ} (hr : RegularRates rates start h2o temp) {n : ℕ}
    {F : ℝ → (Fin n → ℝ) → Fin n → ℝ} (hF : GasSystem m rates start h2o temp F)
    {solve : (Fin n → ℝ) → ℚ → Fin n → ℝ} {sim batch : ℚ} (hs : 0 < sim) (hb : 0 < batch)
    {zero y0 : Fin n → ℝ} (hy0 : ∀ i, 0 ≤ y0 i) {times : List ℚ} {rows : List (Fin n → ℝ)}
    (hrun : runSimulation id solve zero y0 sim batch = .ok (times, rows))
    (hex : ExactBatches F solve batch y0 rows.length) :
    (y0 :: rows).Pairwise fun a b => weightedTotal m w (stateOf b) ≤ weightedTotal m w (stateOf a) :=
  (hF.kinetic h hq).never_more h hq (recorded_lightWeights h hq hpos)
    ((hF.kinetic h hq).tame h (recorded_loss_only h hq hpos).1 (left_pos hpos) hone hr) hr.nonneg
    w hw0 hw hconst hs hb hy0 hrun hex

/-- C99, Fortran version: the same if the writer alters no gain without the loss. -/
theorem C99_never_more_fortran {text : Str} {m : Mechanism} (h : extractMechanism text = .ok m)
    {qs : List RawEqn} (hq : Reads text m.equations.toNat qs) (hless : GainsLess m)
    (hpos : ∀ q ∈ qs, ∀ p ∈ chemReactants q ++ chemProducts q, 0 < p.1) (hone : WholeReactants qs)
    (w : Str → ℝ) (hw0 : ∀ s, 0 ≤ w s) (hw : ∀ q ∈ qs, NotGained w q) (hconst : ∀ s ∈ heldConstant, w s = 0)
    {cores : Option ℕ} {rates : Rates} {start h2o temp : ℝ} (hr : RegularRates rates start h2o temp) {n : ℕ}
    {F : ℝ → (Fin n → ℝ) → Fin n → ℝ} (hF : GasSystemF m cores rates start h2o temp F)
    {solve : (Fin n → ℝ) → ℚ → Fin n → ℝ} {sim batch : ℚ} (hs : 0 < sim) (hb : 0 < batch)
    {zero y0 : Fin n → ℝ} (hy0 : ∀ i, 0 ≤ y0 i) {times : List ℚ} {rows : List (Fin n → ℝ)}
    (hrun : runSimulation id solve zero y0 sim batch = .ok (times, rows))
    (hex : ExactBatches F solve batch y0 rows.length) :
    (y0 :: rows).Pairwise fun a b => weightedTotal m w (stateOf b) ≤ weightedTotal m w (stateOf a) :=
  (hF.kinetic h hq).never_more h hq (fortran_lightWeights h hq hpos hless)
    ((hF.kinetic h hq).tame h (recorded_loss_only h hq hpos).2 (left_pos hpos) hone hr) hr.nonneg
    w hw0 hw hconst hs hb hy0 hrun hex

section Particles

variable {text : Str} {m : Mechanism} {qs : List RawEqn} {cores : Option ℕ} {L : Aerosol.Layout} {C : Aerosol.AeroConst}
  {rates : Rates} {start h2o : ℝ} {n : ℕ} {F : ℝ → (Fin n → ℝ) → Fin n → ℝ}

/-- C99, simulations with particles: such a total over all phases never grows. -/
theorem C99_aerosol (h : extractMechanism text = .ok m) (hq : Reads text m.equations.toNat qs)
    (hless : GainsLess m) (hL : GoodLayout L) (hC : PhysConst L C)
    (hns : L.numSpecies = m.tables.species.length + 1) (hwater : L.numSpecies - 1 ∈ L.incl)
    (hpos : ∀ q ∈ qs, ∀ p ∈ chemReactants q ++ chemProducts q, 0 < p.1) (hone : WholeReactants qs)
    (w : Str → ℝ) (hw0 : ∀ s, 0 ≤ w s) (hw : ∀ q ∈ qs, NotGained w q) (hconst : ∀ s ∈ heldConstant, w s = 0)
    (hr : RegularRates rates start h2o C.temp)
    (hF : AerosolSystem m cores L C rates start h2o F) {solve : (Fin n → ℝ) → ℚ → Fin n → ℝ}
    {sim batch : ℚ} (hs : 0 < sim) (hb : 0 < batch) {zero y0 : Fin n → ℝ} (hy0 : ∀ i, 0 ≤ y0 i)
    {times : List ℚ} {rows : List (Fin n → ℝ)}
    (hrun : runSimulation id solve zero y0 sim batch = .ok (times, rows))
    (hex : ExactBatches F solve batch y0 rows.length) :
    (y0 :: rows).Pairwise fun a b => weightedTotal m w (allPhases L (stateOf b))
      ≤ weightedTotal m w (allPhases L (stateOf a)) := by
  obtain ⟨sp, hsp, hsum⟩ := index_sum h hq rfl
  have hN : L.numSpecies - 1 = m.tables.species.length := by omega
  have hM := hF.mixed h hq hns hsp
  have := (hF.tame h hq hns hL hC hpos hone hr).rows_total (fun i => slotWeight L (nameWeight sp w) i)
    (fun t y hy => by
      rw [hM.total hL hwater, hN]
      exact gasPart_light hsp hsum (fortran_lightWeights h hq hpos hless) hw0 hw hconst hr.nonneg t
        (stateOf_nonneg hy)) hs hb hy0 hrun hex
  refine this.imp fun {a b} hab => ?_
  rw [hM.total_state hL, hM.total_state hL, nameWeight_allPhases hns hsum,
    nameWeight_allPhases hns hsum] at hab
  exact hab

/-- C99, operator-split simulations: such a total over all phases never grows. -/
theorem C99_split {bins species : ℕ} {ignored : List ℕ} {Fg Fp : ℝ → (Fin n → ℝ) → Fin n → ℝ}
    (h : extractMechanism text = .ok m) (hq : Reads text m.equations.toNat qs)
    (hless : GainsLess m) (hns : species = m.tables.species.length + 1)
    (hC : PhysConst (allLayout bins species) C)
    (hpos : ∀ q ∈ qs, ∀ p ∈ chemReactants q ++ chemProducts q, 0 < p.1) (hone : WholeReactants qs)
    (w : Str → ℝ) (hw0 : ∀ s, 0 ≤ w s) (hw : ∀ q ∈ qs, NotGained w q) (hconst : ∀ s ∈ heldConstant, w s = 0)
    (hr : RegularRates rates start h2o C.temp)
    (hFg : GasOnlySystem m cores bins species C.temp rates start h2o Fg)
    (hFp : AerosolOnlySystem bins species C ignored Fp)
    {solveGas solvePart : (Fin n → ℝ) → ℚ → Fin n → ℝ} {sim batch gasTime partTime : ℚ} (hs : 0 < sim)
    (hb : 0 < batch) (hg : 0 < gasTime) (hp : 0 < partTime) {zero y0 : Fin n → ℝ} (hy0 : ∀ i, 0 ≤ y0 i)
    {times : List ℚ} {rows : List (Fin n → ℝ)}
    (hrun : runSplit id solveGas solvePart zero y0 sim batch gasTime partTime = .ok (times, rows))
    (hex : ExactSplit Fg Fp solveGas solvePart batch gasTime partTime y0 times.length) :
    (y0 :: rows.take times.length).Pairwise fun a b =>
      weightedTotal m w (everyPhase bins species (stateOf b))
        ≤ weightedTotal m w (everyPhase bins species (stateOf a)) := by
  obtain ⟨sp, hsp, hsum⟩ := index_sum h hq rfl
  have hL := allLayout_good bins species
  have hwater := allLayout_water (bins := bins) (species := species) (by omega)
  have hWg := hFg.weighted h hq hns hsp C
  have hWp := hFp.weighted
  have hns' : (allLayout bins species).numSpecies = m.tables.species.length + 1 := hns
  have hN : (allLayout bins species).numSpecies - 1 = m.tables.species.length := by omega
  have := (hFg.tame h hq hns hC hpos hone hr).split_total (hFp.tame hC)
    (fun i : Fin n => slotWeight (allLayout bins species) (nameWeight sp w) i)
    (fun t y hy => by
      rw [hWg.total hL hwater, hN]
      exact gasPart_light hsp hsum (fortran_lightWeights h hq hpos hless) hw0 hw hconst hr.nonneg t
        (stateOf_nonneg hy))
    (fun t y _ => by rw [hWp.total hL hwater]; simp) hs hb hg hp hy0 hrun hex
  refine this.imp fun {a b} hab => ?_
  rw [hWg.total_state hL, hWg.total_state hL, nameWeight_allPhases hns' hsum,
    nameWeight_allPhases hns' hsum] at hab
  rwa [weightedTotal_everyPhase h hns, weightedTotal_everyPhase h hns] at hab

end Particles

/-! ## What is lost -/

/-- A quantity whose slope is never positive, and negative at one moment, is lower at the end. -/
theorem lt_off_finite {S : Set ℝ} (hS : S.Finite) {f f' : ℝ → ℝ} {b : ℝ} (hc : ContinuousOn f (Icc 0 b))
    (hd : ∀ t ∈ Ico 0 b, t ∉ S → HasDerivWithinAt f (f' t) (Ici t) t ∧ f' t ≤ 0) {t : ℝ} (ht : t ∈ Ico 0 b)
    (htS : t ∉ S) (hneg : f' t < 0) : f b < f 0 := by
  have h1 : f t ≤ f 0 := le_off_finite hS ht.1 (hc.mono (Icc_subset_Icc le_rfl ht.2.le))
    fun s hs => hd s ⟨hs.1, hs.2.trans ht.2⟩
  obtain ⟨x, hx, hlt⟩ : ∃ x ∈ Ioo t b, f x < f t := by
    have hslope := hasDerivWithinAt_iff_tendsto_slope.1 (hd t ht htS).1
    have hev := hslope.eventually_lt_const hneg
    have hset : Ici t \ {t} = Ioi t := by
      ext z
      simp only [mem_sdiff, mem_Ici, mem_singleton_iff, mem_Ioi]
      exact ⟨fun hz => lt_of_le_of_ne hz.1 (Ne.symm hz.2), fun hz => ⟨hz.le, hz.ne'⟩⟩
    rw [hset] at hev
    obtain ⟨x, hx, hxb⟩ := (hev.and (Ioo_mem_nhdsGT ht.2)).exists
    refine ⟨x, hxb, ?_⟩
    rw [slope_def_field, div_lt_iff₀ (sub_pos.2 hxb.1), zero_mul] at hx
    linarith
  have h2 : f b ≤ f x := le_off_finite hS hx.2.le (hc.mono (Icc_subset_Icc (ht.1.trans hx.1.le) le_rfl))
    fun s hs => hd s ⟨(ht.1.trans hx.1.le).trans hs.1, hs.2⟩
  linarith

/-- A total that never grows, and falls while the quantities in `I` are present, is lower in all rows of a run
that starts with them. -/
theorem Tame.rows_lost {ι : Type} [Fintype ι] {F : ℝ → (ι → ℝ) → ι → ℝ} (hF : Tame F) (c : ι → ℝ)
    (hc : ∀ t y, (∀ j, 0 ≤ y j) → ∑ j, c j * F t y j ≤ 0) {I : Set ι}
    {solve : (ι → ℝ) → ℚ → ι → ℝ} {sim batch : ℚ} (hs : 0 < sim) (hb : 0 < batch)
    (hneg : ∀ t ∈ Ioo 0 (batch : ℝ), ∀ y, (∀ j, 0 ≤ y j) → (∀ j ∈ I, 0 < y j) → ∑ j, c j * F t y j < 0)
    {zero y0 : ι → ℝ} (hy0 : ∀ i, 0 ≤ y0 i) (hI : ∀ j ∈ I, 0 < y0 j) {times : List ℚ} {rows : List (ι → ℝ)}
    (hrun : runSimulation id solve zero y0 sim batch = .ok (times, rows))
    (hex : ExactBatches F solve batch y0 rows.length) :
    ∀ row ∈ rows, ∑ j, c j * row j < ∑ j, c j * y0 j := by
  have hbR : (0 : ℝ) < batch := by exact_mod_cast hb
  have hmono := hF.rows_total c hc hs hb hy0 hrun hex
  cases hrows : rows with
  | nil => intro row hrow; cases hrow
  | cons r0 rest =>
    subst hrows
    have hfirst : ∑ j, c j * r0 j < ∑ j, c j * y0 j := by
      obtain ⟨k, -, hr', -⟩ := C32_output_times hs hb hrun
      have hk0 : 0 < k := by
        rcases Nat.eq_zero_or_pos k with h0 | h0
        · rw [h0] at hr'; cases hr'
        · exact h0
      obtain ⟨u, hu0, hu, hu1⟩ := hex 0 (by simp)
      have hr0 : r0 = afterBatches solve batch y0 1 := by
        have := congrArg (fun l => l[0]?) hr'
        simp only [List.getElem?_cons_zero, List.getElem?_map, List.getElem?_range hk0, Option.map_some,
          Option.some.injEq] at this
        simpa using this
      have hu0' : u 0 = y0 := hu0
      have hnn := hF.nonneg hu (by rw [hu0']; exact hy0)
      rw [hr0, ← hu1, ← hu0']
      obtain ⟨S, hS, hud⟩ := hu.2
      have hpres : ∀ᶠ t in nhdsWithin 0 (Ioi 0), ∀ j ∈ I, 0 < u t j := by
        have hall : ∀ j, ∀ᶠ t in nhdsWithin 0 (Ioi 0), j ∈ I → 0 < u t j := by
          intro j
          by_cases hj : j ∈ I
          · have hcont : ContinuousWithinAt (fun t => u t j) (Icc 0 (batch : ℝ)) 0 :=
              ((continuous_apply j).comp_continuousOn hu.1) 0 ⟨le_rfl, hbR.le⟩
            have hpos : 0 < u 0 j := by rw [hu0']; exact hI j hj
            have hev := hcont.tendsto.eventually_const_lt hpos
            rw [nhdsWithin_Icc_eq_nhdsGE hbR] at hev
            exact (hev.filter_mono (nhdsWithin_mono _ Ioi_subset_Ici_self)).mono fun t ht _ => ht
          · exact Filter.Eventually.of_forall fun t hj' => absurd hj' hj
        exact Filter.eventually_all.2 hall
      obtain ⟨t, htS, htp, ht1⟩ : ∃ t, t ∉ S ∧ (∀ j ∈ I, 0 < u t j) ∧ t ∈ Ioo 0 (batch : ℝ) := by
        have h1 : ∀ᶠ t in nhdsWithin (0 : ℝ) (Ioi 0), t ∉ S := by
          have : (S \ {0})ᶜ ∈ nhds (0 : ℝ) := (hS.subset sdiff_subset).isClosed.isOpen_compl.mem_nhds (by simp)
          filter_upwards [mem_nhdsWithin_of_mem_nhds this, self_mem_nhdsWithin] with t h1 h2 h3
          exact h1 ⟨h3, (ne_of_gt h2)⟩
        exact (h1.and (hpres.and (Ioo_mem_nhdsGT hbR))).exists
      refine lt_off_finite hS (f := fun t => ∑ i, c i * u t i)
        (f' := fun t => ∑ i, c i * F t (u t) i) ?_ ?_ (t := t) ⟨ht1.1.le, ht1.2⟩ htS
        (hneg t ht1 _ (hnn t ⟨ht1.1.le, ht1.2.le⟩) htp)
      · exact continuousOn_finsetSum _ fun i _ =>
          continuousOn_const.mul ((continuous_apply i).comp_continuousOn hu.1)
      · intro s hs' hsS
        exact ⟨HasDerivWithinAt.fun_sum fun i _ => (hasDerivWithinAt_pi.1 (hud s hs' hsS) i).const_mul _,
          hc s _ (hnn s ⟨hs'.1, hs'.2.le⟩)⟩
    intro row hrow
    rcases List.mem_cons.1 hrow with rfl | hrow
    · exact hfirst
    · exact ((List.pairwise_cons.1 (List.pairwise_cons.1 hmono).2).1 row hrow).trans_lt hfirst

section Lost

variable {text : Str} {m : Mechanism} {qs : List RawEqn} {rates : Rates}
  {start h2o temp : ℝ} {n : ℕ} {F : ℝ → (Fin n → ℝ) → Fin n → ℝ}

/-- The entries of the state that hold the reactants of a reaction. -/
def reactantEntries (m : Mechanism) (q : RawEqn) (n : ℕ) : Set (Fin n) :=
  {i | ∃ s ∈ names (chemReactants q), m.tables.index.get? s = some (i : ℕ)}

theorem present_product (h : extractMechanism text = .ok m) (hq : Reads text m.equations.toNat qs) {e : ℕ}
    {q : RawEqn} (he : qs[e]? = some q) (hne : chemReactants q ≠ []) (hn : m.tables.species.length ≤ n)
    {y : Fin n → ℝ} (hy : ∀ i ∈ reactantEntries m q n, 0 < y i) :
    0 < reactionProduct qs m.tables (stateOf y) e := by
  refine reactionProduct_pos he hne fun s hs => ?_
  obtain ⟨h2, -⟩ := extract_tables h hq
  obtain ⟨i, hi⟩ := (indexed_iff qs s).2 ⟨q, List.mem_of_getElem? he, mem_occurrences_left hs⟩
  rw [← h2] at hi
  have hlt : i < n := lt_of_lt_of_le ((C01_indices h i).1 ⟨s, hi⟩) hn
  rw [← concOf_holds m.tables _ s i hi]
  have := hy ⟨i, hlt⟩ ⟨s, hs, hi⟩
  unfold stateOf
  rwa [dif_pos hlt]

/-- The Fortran version loses at least as much. -/
theorem fortran_le_recorded (hless : GainsLess m) {k : ℕ} {sp : Fin k → Str}
    (hsp : ∀ (i : Fin k) s, m.tables.index.get? s = some (i : ℕ) ↔ s = sp i) {w : Str → ℝ} (hw0 : ∀ s, 0 ≤ w s)
    (hw : ∀ s ∈ heldConstant, w s = 0) (e : ℕ) :
    ∑ i, w (sp i) * netFortran m.tables (sp i) e ≤ ∑ i, w (sp i) * netRecorded m.tables (sp i) e := by
  refine Finset.sum_le_sum fun i _ => ?_
  by_cases hx : sp i ∈ heldConstant
  · rw [hw _ hx, zero_mul, zero_mul]
  · exact mul_le_mul_of_nonneg_left (hless.le ((hsp i _).2 rfl) hx e) (hw0 _)

/-- A sum over the reactions in which one term is negative and none positive. -/
theorem kinetic_sum_neg {a : ℕ → ℝ} (ha : ∀ e < qs.length, a e ≤ 0) {e : ℕ} {q : RawEqn} (he : qs[e]? = some q)
    (hlow : a e < 0) {tb : Tables} {y : ℕ → ℝ} (hy : ∀ i, 0 ≤ y i) (hp : 0 < reactionProduct qs tb y e)
    {k : ℕ → ℝ} (hk0 : ∀ e, 0 ≤ k e) (hk : 0 < k e) :
    ∑ e ∈ Finset.range qs.length, a e * (reactionProduct qs tb y e * k e) < 0 := by
  have hlt : e < qs.length := (List.getElem?_eq_some_iff.1 he).1
  refine Finset.sum_neg' (fun e' he' => ?_) ⟨e, Finset.mem_range.2 hlt, ?_⟩
  · exact mul_nonpos_of_nonpos_of_nonneg (ha e' (Finset.mem_range.1 he'))
      (mul_nonneg (reactionProduct_nonneg _ _ hy e') (hk0 e'))
  · exact mul_neg_of_neg_of_pos hlow (mul_pos hp hk)

theorem light_le {A : Str → ℕ → ℝ} (hA : LightWeights m qs A) {k : ℕ} {sp : Fin k → Str}
    (hsum : ∀ (w : Str → ℝ) (y : ℕ → ℝ), weightedTotal m w y = ∑ i, w (sp i) * y i)
    (hsp : ∀ (i : Fin k) s, m.tables.index.get? s = some (i : ℕ) ↔ s = sp i) {w : Str → ℝ} (hw0 : ∀ s, 0 ≤ w s)
    (hconst : ∀ s ∈ heldConstant, w s = 0) (hw : ∀ q ∈ qs, NotGained w q) :
    ∀ e < qs.length, ∑ i, w (sp i) * A (sp i) e ≤ 0 := fun e he =>
  (hA k sp hsum hsp w hw0 hconst e _ (List.getElem?_eq_getElem he)).trans
    (sub_nonpos.2 (hw _ (List.getElem_mem he)))

theorem KineticSystem.lost {A : Str → ℕ → ℝ} (hF : KineticSystem m qs A rates start h2o temp F)
    (h : extractMechanism text = .ok m) (hq : Reads text m.equations.toNat qs) (hA : LightWeights m qs A)
    (ht : Tame F) (hr : ∀ e time ro2, 0 ≤ ro2 → 0 ≤ rates (start + time) ro2 h2o temp e)
    (w : Str → ℝ) (hw0 : ∀ s, 0 ≤ w s) (hw : ∀ q ∈ qs, NotGained w q) (hconst : ∀ s ∈ heldConstant, w s = 0)
    {e : ℕ} {q : RawEqn} (he : qs[e]? = some q) (hne : chemReactants q ≠ [])
    (hlow : ∀ (sp : Fin n → Str), (∀ (w : Str → ℝ) (y : ℕ → ℝ), weightedTotal m w y = ∑ i, w (sp i) * y i) →
      (∀ (i : Fin n) s, m.tables.index.get? s = some (i : ℕ) ↔ s = sp i) → ∑ i, w (sp i) * A (sp i) e < 0)
    {solve : (Fin n → ℝ) → ℚ → Fin n → ℝ} {sim batch : ℚ} (hs : 0 < sim) (hb : 0 < batch)
    (hk : ∀ time ∈ Ioo 0 (batch : ℝ), ∀ ro2, 0 ≤ ro2 → 0 < rates (start + time) ro2 h2o temp e)
    {zero y0 : Fin n → ℝ} (hy0 : ∀ i, 0 ≤ y0 i) (hpres : ∀ i ∈ reactantEntries m q n, 0 < y0 i)
    {times : List ℚ} {rows : List (Fin n → ℝ)}
    (hrun : runSimulation id solve zero y0 sim batch = .ok (times, rows))
    (hex : ExactBatches F solve batch y0 rows.length) :
    ∀ row ∈ rows, weightedTotal m w (stateOf row) < weightedTotal m w (stateOf y0) := by
  obtain ⟨sp, hsp, hsum⟩ := index_sum h hq hF.size
  have hle := light_le hA hsum hsp hw0 hconst hw
  intro row hrow
  rw [stateOf_total hsum, stateOf_total hsum]
  refine ht.rows_lost (fun i => w (sp i)) (fun t y hy => hF.total_le hsp hconst hle hr t hy) hs hb
    (fun t ht1 y hy hI => ?_) hy0 hpres hrun hex row hrow
  rw [hF.total hsp hconst]
  exact kinetic_sum_neg hle he (hlow sp hsum hsp) (stateOf_nonneg hy)
    (present_product h hq he hne hF.size.ge hI) (fun e => hr _ _ _ (listState_nonneg hy _))
    (hk t ht1 _ (listState_nonneg hy _))

/-- C99: if the recorded products of one reaction weigh less than its reactants, the reactants are present
at the start and the reaction runs during the first batch, then every reported row holds less than the
initial state. -/
theorem C99_lost (h : extractMechanism text = .ok m) (hq : Reads text m.equations.toNat qs)
    (hpos : ∀ q ∈ qs, ∀ p ∈ chemReactants q ++ chemProducts q, 0 < p.1) (hone : WholeReactants qs)
    (w : Str → ℝ) (hw0 : ∀ s, 0 ≤ w s) (hw : ∀ q ∈ qs, NotGained w q) (hconst : ∀ s ∈ heldConstant, w s = 0)
    (hr : RegularRates rates start h2o temp) (hF : GasSystem m rates start h2o temp F)
    {e : ℕ} {q : RawEqn} (he : qs[e]? = some q) (hne : chemReactants q ≠ [])
    (hlow : weight w (recordedProducts q) < weight w (chemReactants q))
    {solve : (Fin n → ℝ) → ℚ → Fin n → ℝ} {sim batch : ℚ} (hs : 0 < sim) (hb : 0 < batch)
    (hk : ∀ time ∈ Ioo 0 (batch : ℝ), ∀ ro2, 0 ≤ ro2 → 0 < rates (start + time) ro2 h2o temp e)
    {zero y0 : Fin n → ℝ} (hy0 : ∀ i, 0 ≤ y0 i) (hpres : ∀ i ∈ reactantEntries m q n, 0 < y0 i)
    {times : List ℚ} {rows : List (Fin n → ℝ)}
    (hrun : runSimulation id solve zero y0 sim batch = .ok (times, rows))
    (hex : ExactBatches F solve batch y0 rows.length) :
    ∀ row ∈ rows, weightedTotal m w (stateOf row) < weightedTotal m w (stateOf y0) :=
  (hF.kinetic h hq).lost h hq (recorded_lightWeights h hq hpos)
    ((hF.kinetic h hq).tame h (recorded_loss_only h hq hpos).1 (left_pos hpos) hone hr) hr.nonneg
    w hw0 hw hconst he hne
    (fun _ hsum _ => by rw [recorded_weight h hq hsum w he]; exact sub_neg.2 hlow) hs hb hk hy0 hpres hrun hex

/-- C99, Fortran version. -/
theorem C99_lost_fortran (h : extractMechanism text = .ok m) (hq : Reads text m.equations.toNat qs)
    (hless : GainsLess m)
    (hpos : ∀ q ∈ qs, ∀ p ∈ chemReactants q ++ chemProducts q, 0 < p.1) (hone : WholeReactants qs)
    (w : Str → ℝ) (hw0 : ∀ s, 0 ≤ w s) (hw : ∀ q ∈ qs, NotGained w q) (hconst : ∀ s ∈ heldConstant, w s = 0)
    (hr : RegularRates rates start h2o temp) {cores : Option ℕ}
    (hF : GasSystemF m cores rates start h2o temp F)
    {e : ℕ} {q : RawEqn} (he : qs[e]? = some q) (hne : chemReactants q ≠ [])
    (hlow : weight w (recordedProducts q) < weight w (chemReactants q))
    {solve : (Fin n → ℝ) → ℚ → Fin n → ℝ} {sim batch : ℚ} (hs : 0 < sim) (hb : 0 < batch)
    (hk : ∀ time ∈ Ioo 0 (batch : ℝ), ∀ ro2, 0 ≤ ro2 → 0 < rates (start + time) ro2 h2o temp e)
    {zero y0 : Fin n → ℝ} (hy0 : ∀ i, 0 ≤ y0 i) (hpres : ∀ i ∈ reactantEntries m q n, 0 < y0 i)
    {times : List ℚ} {rows : List (Fin n → ℝ)}
    (hrun : runSimulation id solve zero y0 sim batch = .ok (times, rows))
    (hex : ExactBatches F solve batch y0 rows.length) :
    ∀ row ∈ rows, weightedTotal m w (stateOf row) < weightedTotal m w (stateOf y0) :=
  (hF.kinetic h hq).lost h hq (fortran_lightWeights h hq hpos hless)
    ((hF.kinetic h hq).tame h (recorded_loss_only h hq hpos).2 (left_pos hpos) hone hr) hr.nonneg
    w hw0 hw hconst he hne
    (fun _ hsum hsp => (fortran_le_recorded hless hsp hw0 hconst e).trans_lt
      (by rw [recorded_weight h hq hsum w he]; exact sub_neg.2 hlow)) hs hb hk hy0 hpres hrun hex

/-- C99, simulations with particles: the total over all phases is lower in every reported row. -/
theorem C99_aerosol_lost {L : Aerosol.Layout} {C : AeroConst} {cores : Option ℕ}
    (h : extractMechanism text = .ok m) (hq : Reads text m.equations.toNat qs)
    (hless : GainsLess m) (hL : GoodLayout L) (hC : PhysConst L C)
    (hns : L.numSpecies = m.tables.species.length + 1) (hwater : L.numSpecies - 1 ∈ L.incl)
    (hpos : ∀ q ∈ qs, ∀ p ∈ chemReactants q ++ chemProducts q, 0 < p.1) (hone : WholeReactants qs)
    (w : Str → ℝ) (hw0 : ∀ s, 0 ≤ w s) (hw : ∀ q ∈ qs, NotGained w q) (hconst : ∀ s ∈ heldConstant, w s = 0)
    (hr : RegularRates rates start h2o C.temp)
    (hF : AerosolSystem m cores L C rates start h2o F)
    {e : ℕ} {q : RawEqn} (he : qs[e]? = some q) (hne : chemReactants q ≠ [])
    (hlow : weight w (recordedProducts q) < weight w (chemReactants q))
    {solve : (Fin n → ℝ) → ℚ → Fin n → ℝ} {sim batch : ℚ} (hs : 0 < sim) (hb : 0 < batch)
    (hk : ∀ time ∈ Ioo 0 (batch : ℝ), ∀ ro2, 0 ≤ ro2 → 0 < rates (start + time) ro2 h2o C.temp e)
    {zero y0 : Fin n → ℝ} (hy0 : ∀ i, 0 ≤ y0 i) (hpres : ∀ i ∈ reactantEntries m q n, 0 < y0 i)
    {times : List ℚ} {rows : List (Fin n → ℝ)}
    (hrun : runSimulation id solve zero y0 sim batch = .ok (times, rows))
    (hex : ExactBatches F solve batch y0 rows.length) :
    ∀ row ∈ rows, weightedTotal m w (allPhases L (stateOf row)) < weightedTotal m w (allPhases L (stateOf y0)) := by
  obtain ⟨sp, hsp, hsum⟩ := index_sum h hq rfl
  have hN : L.numSpecies - 1 = m.tables.species.length := by omega
  have hM := hF.mixed h hq hns hsp
  have hA := fortran_lightWeights h hq hpos hless
  have hsize : m.tables.species.length ≤ n := by
    rw [hF.1, hns]
    omega
  intro row hrow
  have := (hF.tame h hq hns hL hC hpos hone hr).rows_lost (fun i => slotWeight L (nameWeight sp w) i)
    (fun t y hy => by
      rw [hM.total hL hwater, hN]
      exact gasPart_light hsp hsum hA hw0 hw hconst hr.nonneg t (stateOf_nonneg hy))
    hs hb (I := reactantEntries m q n)
    (fun t ht1 y hy hI => by
      rw [hM.total hL hwater, hN, gasPart_total hconst]
      exact kinetic_sum_neg (light_le hA hsum hsp hw0 hconst hw) he
        ((fortran_le_recorded hless hsp hw0 hconst e).trans_lt
          (by rw [recorded_weight h hq hsum w he]; exact sub_neg.2 hlow)) (stateOf_nonneg hy)
        (present_product h hq he hne hsize hI) (fun e => hr.nonneg _ _ _ (listState_nonneg hy _))
        (hk t ht1 _ (listState_nonneg hy _))) hy0 hpres hrun hex row hrow
  rwa [hM.total_state hL, hM.total_state hL, nameWeight_allPhases hns hsum,
    nameWeight_allPhases hns hsum] at this

end Lost

/-! ## Cases the theorems apply to -/

/-- Reactions 783, 173 and 176 of the shipped alpha-pinene mechanism. -/
def lossyText : Str :=
  "{1.}HCOCO3+HO2=HO2+CO+OH:KAPHO2*0.44;{2.}HCHO=CO+HO2+HO2:J(11);{3.}OH+HCHO=HO2+CO:5.4D-12*EXP(135/TEMP);".toList

def lossyReactions : List RawEqn :=
  [{ reactants := [(1, "HCOCO3".toList), (1, "HO2".toList)],
     products := [(1, "HO2".toList), (1, "CO".toList), (1, "OH".toList)],
     rate := "KAPHO2*0.44".toList },
   { reactants := [(1, "HCHO".toList)],
     products := [(1, "CO".toList), (1, "HO2".toList), (1, "HO2".toList)],
     rate := "J(11)".toList },
   { reactants := [(1, "OH".toList), (1, "HCHO".toList)],
     products := [(1, "HO2".toList), (1, "CO".toList)],
     rate := "5.4D-12*EXP(135/TEMP)".toList }]

theorem lossy_parses :
    extractMechanism lossyText = .ok { tables := build lossyReactions, equations := 3 } := by
  rw [extract_ok_iff]
  refine ⟨"3.".toList, 3, lossyReactions, ?_, by decide +kernel, ?_, rfl⟩
  · rw [labels_eq _ (not_mem_removeChar _ _)]; decide +kernel
  · rw [bodies_eq _ (not_mem_removeChar _ _)]; decide +kernel

theorem lossy_reads : Reads lossyText 3 lossyReactions := by
  unfold Reads bodyTexts; decide +kernel

/-- The first two reactions are recorded wrongly: `HCOCO3 + HO2 = HO2` and `HCHO = CO + HO2`. -/
theorem lossy_recorded :
    lossyReactions.map recordedProducts = [[(1, "HO2".toList)], [(1, "CO".toList), (1, "HO2".toList)],
      [(1, "HO2".toList), (1, "CO".toList)]] := by decide +kernel

theorem lossy_written : AllWritten ⟨build lossyReactions, 3⟩ := by
  have h : ∀ p ∈ (build lossyReactions).index, ∃ e ∈ [0, 1, 2],
      cell (build lossyReactions).gain p.1 e ≠ none ∨ cell (build lossyReactions).loss p.1 e ≠ none := by
    decide +kernel
  intro s i hs _
  obtain ⟨e, -, he⟩ := h (s, i) (Dict.mem_of_get?_eq_some hs)
  exact ⟨e, he⟩

theorem lossy_positive :
    (∀ q ∈ lossyReactions, ∀ p ∈ chemReactants q ++ chemProducts q, 0 < p.1) ∧
    (∀ q ∈ lossyReactions, ∀ s ∈ names (chemReactants q), 1 ≤ coef (chemReactants q) s) := by
  decide +kernel

/-- Weights that no reaction gains, positive for all species. -/
def lossyWeight (s : Str) : ℚ :=
  if s = "HCHO".toList then 3 else if s = "HCOCO3".toList then 2 else
    if s = "HO2".toList ∨ s = "CO".toList ∨ s = "OH".toList then 1 else 0

theorem lossyWeight_nonneg (s : Str) : 0 ≤ lossyWeight s := by
  unfold lossyWeight
  split
  · norm_num
  · split
    · norm_num
    · split <;> norm_num

theorem lossy_held : ∀ s ∈ heldConstant, (lossyWeight s : ℝ) = 0 := by
  have : ∀ s ∈ heldConstant, lossyWeight s = 0 := by decide +kernel
  intro s hs
  rw [this s hs, Rat.cast_zero]

theorem lossy_notGained : ∀ q ∈ lossyReactions, NotGained (fun s => (lossyWeight s : ℝ)) q := by
  have h : ∀ q ∈ lossyReactions, ((chemProducts q).map (fun p => p.1 * lossyWeight p.2)).sum
      ≤ ((chemReactants q).map (fun p => p.1 * lossyWeight p.2)).sum := by decide +kernel
  intro q hq
  unfold NotGained
  rw [weight_rat, weight_rat]
  exact_mod_cast h q hq

theorem lossy_weights : ∀ s i, (build lossyReactions).index.get? s = some i → s ∉ heldConstant →
    ∃ w : Str → ℝ, (∀ s, 0 ≤ w s) ∧ 0 < w s ∧ (∀ s ∈ heldConstant, w s = 0) ∧
      ∀ q ∈ lossyReactions, NotGained w q := by
  intro s i hs _
  refine ⟨fun s => (lossyWeight s : ℝ), fun s => Rat.cast_nonneg.2 (lossyWeight_nonneg s), ?_, lossy_held,
    lossy_notGained⟩
  obtain ⟨q, hq, hs'⟩ := (indexed_iff lossyReactions s).1 ⟨i, hs⟩
  have hall : ∀ q ∈ lossyReactions, ∀ s ∈ occurrences q, 0 < lossyWeight s := by decide +kernel
  exact Rat.cast_pos.2 (hall q hq s hs')

theorem lossy_radical : ∃ s ∈ ro2Names, ((build lossyReactions).index.get? s).isSome :=
  ⟨"HCOCO3".toList, by decide +kernel⟩

/-- The hypotheses of `C99_kinetics` and of `C99_conserved_iff` are met, by reactions recorded wrongly. -/
example : extractMechanism lossyText = .ok ⟨build lossyReactions, 3⟩ ∧ Reads lossyText 3 lossyReactions ∧
    AllWritten ⟨build lossyReactions, 3⟩ ∧
    (∀ q ∈ lossyReactions, chemReactants q ≠ [] ∧ (names (chemReactants q)).Nodup) ∧
    (∃ s ∈ ro2Names, ((build lossyReactions).index.get? s).isSome) ∧
    (∀ s ∈ lostRadicals ++ damagedEntries, (build lossyReactions).index.get? s = none) ∧
    ¬ ∀ q ∈ lossyReactions, GainGood q :=
  ⟨lossy_parses, lossy_reads, lossy_written, by decide +kernel, lossy_radical, by decide +kernel,
    by decide +kernel⟩

theorem lossy_low : weight (fun s => (lossyWeight s : ℝ)) (recordedProducts lossyReactions[0])
    < weight (fun s => (lossyWeight s : ℝ)) (chemReactants lossyReactions[0]) := by
  rw [weight_rat, weight_rat]
  have : ((recordedProducts lossyReactions[0]).map (fun p => p.1 * lossyWeight p.2)).sum
      < ((chemReactants lossyReactions[0]).map (fun p => p.1 * lossyWeight p.2)).sum := by decide +kernel
  exact_mod_cast this

theorem wavyRates_pos (t ro2 h2o temp : ℝ) (e : ℕ) : 0 < wavyRates t ro2 h2o temp e := by
  have h1 := Real.neg_one_le_sin t
  have h2 := abs_nonneg ro2
  unfold wavyRates
  linarith

/-- For `lossyText` the hypotheses of the other theorems are met too: there is an exact solver, and with it
two batches that start with one molecule of each species report strictly less in total. -/
theorem lossy_run : ∃ (F : ℝ → (Fin 5 → ℝ) → Fin 5 → ℝ) (solve : (Fin 5 → ℝ) → ℚ → Fin 5 → ℝ),
    GasSystem ⟨build lossyReactions, 3⟩ wavyRates 0 0 0 F ∧
      ∃ rows, runSimulation id solve (fun _ => 0) (fun _ => 1) (((2 : ℕ) : ℚ) * 60) 60 = .ok ([60, 120], rows) ∧
        rows.length = 2 ∧ ExactBatches F solve 60 (fun _ => 1) 2 ∧ ∀ row ∈ rows,
          weightedTotal ⟨build lossyReactions, 3⟩ (fun s => (lossyWeight s : ℝ)) (stateOf row)
            < weightedTotal ⟨build lossyReactions, 3⟩ (fun s => (lossyWeight s : ℝ))
              (stateOf (fun _ : Fin 5 => (1 : ℝ))) := by
  obtain ⟨F, hF⟩ := gasSystem_exists lossy_parses lossy_written lossy_radical wavyRates 0 0 0 (n := 5)
    (by decide +kernel)
  have hy0 : ∀ i : Fin 5, (0 : ℝ) ≤ (fun _ : Fin 5 => (1 : ℝ)) i := fun _ => zero_le_one
  obtain ⟨solve, hsolve⟩ := C61_exists lossy_parses lossy_reads lossy_positive.1
    lossy_positive.2 lossy_weights (wavyRates_smooth 0 0 0).piecewise hF (batch := 60) (by norm_num)
  obtain ⟨rows, hrun, hlen⟩ := radical_batches solve fun _ => 1
  refine ⟨F, solve, hF, rows, hrun, hlen, hsolve _ hy0 2, ?_⟩
  exact C99_lost lossy_parses lossy_reads lossy_positive.1 lossy_positive.2 _
    (fun s => Rat.cast_nonneg.2 (lossyWeight_nonneg s)) lossy_notGained lossy_held
    (wavyRates_smooth 0 0 0).regular hF (e := 0) (q := lossyReactions[0]) rfl (by decide +kernel) lossy_low
    (by norm_num) (by norm_num) (fun time _ ro2 _ => wavyRates_pos _ _ _ _ _) hy0 (fun _ _ => one_pos) hrun
    (hsolve _ hy0 _)

theorem lossy_less : GainsLess ⟨build lossyReactions, 3⟩ := by
  have h1 : ∀ p ∈ (build lossyReactions).gain, ∀ r ∈ p.2, r.2 = 1 := by decide +kernel
  intro s i e _ _ hal
  exfalso
  dsimp only at hal
  cases hc : cell (build lossyReactions).gain s e with
  | none => rw [hc] at hal; cases hal
  | some c =>
    have : c = 1 := by
      unfold cell at hc
      cases hd : (build lossyReactions).gain.get? s with
      | none =>
        unfold Dict.getD at hc
        rw [hd] at hc
        cases hc
      | some d =>
        rw [getD_of_get? hd] at hc
        exact h1 _ (Dict.mem_of_get?_eq_some hd) _ (Dict.mem_of_get?_eq_some hc)
    rw [hc, this] at hal
    simp [altered] at hal

/-- The same with particles, in the Fortran version. -/
theorem lossy_aerosol_run :
    ∃ (F : ℝ → (Fin 10 → ℝ) → Fin 10 → ℝ) (solve : (Fin 10 → ℝ) → ℚ → Fin 10 → ℝ),
      AerosolSystem ⟨build lossyReactions, 3⟩ none radicalLayout waterConst wavyRates 0 0 F ∧
      ∃ rows, runSimulation id solve (fun _ => 0) (fun _ => 1) (((2 : ℕ) : ℚ) * 60) 60 = .ok ([60, 120], rows) ∧
        rows.length = 2 ∧ ∀ row ∈ rows,
          weightedTotal ⟨build lossyReactions, 3⟩ (fun s => (lossyWeight s : ℝ))
              (allPhases radicalLayout (stateOf row))
            < weightedTotal ⟨build lossyReactions, 3⟩ (fun s => (lossyWeight s : ℝ))
              (allPhases radicalLayout (stateOf (fun _ : Fin 10 => (1 : ℝ)))) := by
  have hns : radicalLayout.numSpecies = (build lossyReactions).species.length + 1 := by decide +kernel
  have hwater : radicalLayout.numSpecies - 1 ∈ radicalLayout.incl := by decide
  have hsome : ∀ time y, (aerosolRhs (build lossyReactions) 3 none radicalLayout waterConst
      (ro2Indices (build lossyReactions).index) wavyRates 0 0 time y).isSome := by
    intro time y
    refine (C57_defined lossy_parses none radicalLayout hns waterConst wavyRates 0 0 time y).2 ?_
    unfold dydtFuncF
    rw [ro2Total_some (radicals_ne (m := ⟨build lossyReactions, 3⟩) lossy_radical), Option.bind_some]
    exact (gasRhsF_isSome lossy_parses _ _ _ _ _ _).2 lossy_written
  have hF : AerosolSystem ⟨build lossyReactions, 3⟩ none radicalLayout waterConst wavyRates 0 0
      (fun t (y : Fin 10 → ℝ) (i : Fin 10) => (aerosolRhs (build lossyReactions) 3 none radicalLayout waterConst
        (ro2Indices (build lossyReactions).index) wavyRates 0 0 t (stateOf y)).get (hsome _ _) i) :=
    ⟨rfl, fun t y => ⟨_, (Option.some_get (hsome t (stateOf y))).symm, fun _ => rfl⟩⟩
  obtain ⟨solve, hsolve⟩ := C64_exists lossy_parses lossy_reads lossy_less radicalLayout_good
    (waterConst_phys _) hns hwater lossy_positive.1 lossy_positive.2 lossy_weights
    (wavyRates_smooth 0 0 _).piecewise hF (batch := 60) (by norm_num)
  have hy0 : ∀ i : Fin 10, (0 : ℝ) ≤ (fun _ : Fin 10 => (1 : ℝ)) i := fun _ => zero_le_one
  have hrun := C32_C33_whole_batches (n := 2) (batch := 60) (by norm_num) (by norm_num)
    (exact_id 60 2) solve (fun _ => 0) (fun _ : Fin 10 => (1 : ℝ))
  have ht : (List.range 2).map (fun k : ℕ => ((k : ℚ) + 1) * 60) = [60, 120] := by decide +kernel
  rw [ht] at hrun
  refine ⟨_, solve, hF, _, hrun, by simp, ?_⟩
  exact C99_aerosol_lost lossy_parses lossy_reads lossy_less radicalLayout_good (waterConst_phys _) hns hwater
    lossy_positive.1 lossy_positive.2 _
    (fun s => Rat.cast_nonneg.2 (lossyWeight_nonneg s)) lossy_notGained lossy_held
    (wavyRates_smooth 0 0 _).regular hF (e := 0) (q := lossyReactions[0]) rfl (by decide +kernel) lossy_low
    (by norm_num) (by norm_num) (fun time _ ro2 _ => wavyRates_pos _ _ _ _ _) hy0 (fun _ _ => one_pos) hrun
    (hsolve _ hy0 _)

end PyBox
