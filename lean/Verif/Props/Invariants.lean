import Verif.Props.Recorded

/-!
# C59, C60: what a gas simulation conserves and cannot make negative

The solver is taken to be exact here: the state at the end of a batch is the value of a solution of
the system given by `dydt_func`. The theorems come in pairs, for the Python version
(`/repo/ODE_solver.py`) and the Fortran version (`/repo/f2py/ODE_solver.py`).
-/

namespace PyBox

open Set Spec

namespace Spec

/-- `F` is the function handed to the solver for the mechanism `m`, Python version. -/
def GasSystem (m : Mechanism) (rates : Rates) (start h2o temp : ℝ) {n : ℕ}
    (F : ℝ → (Fin n → ℝ) → Fin n → ℝ) : Prop :=
  n = m.tables.species.length ∧ ∀ (time : ℝ) (y : Fin n → ℝ), ∃ out,
    dydtFunc m.tables m.equations.toNat (ro2Indices m.tables.index) rates start h2o temp time
      (stateOf y) = some out ∧ ∀ i : Fin n, F time y i = out i

/-- `F` is the function handed to the solver for the mechanism `m`, Fortran version. -/
def GasSystemF (m : Mechanism) (cores : Option ℕ) (rates : Rates) (start h2o temp : ℝ) {n : ℕ}
    (F : ℝ → (Fin n → ℝ) → Fin n → ℝ) : Prop :=
  n = m.tables.species.length ∧ ∀ (time : ℝ) (y : Fin n → ℝ), ∃ out,
    dydtFuncF m.tables m.equations.toNat n cores (ro2Indices m.tables.index) rates start h2o temp time
      (stateOf y) = some out ∧ ∀ i : Fin n, F time y i = out i

/-- The products of a reaction weigh no more than its reactants. -/
def NotGained (w : Str → ℝ) (q : RawEqn) : Prop :=
  weight w (chemProducts q) ≤ weight w (chemReactants q)

/-- The condition of `C13_exact`: Python and Fortran version use the same net coefficients. -/
def SameNet (m : Mechanism) : Prop :=
  ∀ s i e, m.tables.index.get? s = some i → s ∉ heldConstant →
    altered (cell m.tables.gain s e) = altered (cell m.tables.loss s e)

/-- A weaker condition: where the Fortran version alters the coefficient of a product it alters that of the
reactant of the same name too. -/
def GainsLess (m : Mechanism) : Prop :=
  ∀ s i e, m.tables.index.get? s = some i → s ∉ heldConstant →
    altered (cell m.tables.gain s e) → altered (cell m.tables.loss s e)

end Spec

/-! ## Both versions have the form of kinetics -/

/-- The net coefficients of the Fortran version. -/
noncomputable def netFortran (t : Tables) (s : Str) (e : ℕ) : ℝ :=
  (offByOne (cell t.gain s e) : ℝ) - (offByOne (cell t.loss s e) : ℝ)

theorem Spec.GasSystem.kinetic {text : Str} {m : Mechanism} (h : extractMechanism text = .ok m)
    {qs : List RawEqn} (hq : Reads text m.equations.toNat qs) {rates : Rates} {start h2o temp : ℝ} {n : ℕ}
    {F : ℝ → (Fin n → ℝ) → Fin n → ℝ} (hF : GasSystem m rates start h2o temp F) :
    KineticSystem m qs (netRecorded m.tables) rates start h2o temp F := by
  refine ⟨hF.1, fun s i hs t z => ?_⟩
  obtain ⟨out, hout, hFi⟩ := hF.2 t z
  rw [hFi]
  exact C55_value h hq rates start h2o temp t (stateOf z) out hout hs

/-- What the gas routines of the Fortran version return for a species. -/
theorem gasRhsF_kinetic {text : Str} {m : Mechanism} (h : extractMechanism text = .ok m)
    {qs : List RawEqn} (hq : Reads text m.equations.toNat qs) {n : ℕ} {cores : Option ℕ} {rates : Rates}
    {start h2o temp t : ℝ} {y out : ℕ → ℝ}
    (hrun : gasRhsF m.tables m.equations.toNat n cores (fun _ => 0) (fun _ => 0)
      (rates (start + t) ((ro2Indices m.tables.index).map y).sum h2o temp) y = some out) {s : Str} {i : ℕ}
    (hs : m.tables.index.get? s = some i) :
    out i = kineticValue m qs (netFortran m.tables) rates start h2o temp s t y := by
  unfold kineticValue
  by_cases hx : s ∈ heldConstant
  · rw [if_pos hx]
    refine gasRhsF_other h hrun fun s' hs' => ?_
    obtain ⟨h2, -⟩ := extract_tables h hq
    rw [h2] at hs hs'
    rw [index_inj' qs hs' hs]
    exact hx
  · rw [if_neg hx]
    exact gasRhsF_value h hq hrun hs hx

theorem Spec.GasSystemF.kinetic {text : Str} {m : Mechanism} (h : extractMechanism text = .ok m)
    {qs : List RawEqn} (hq : Reads text m.equations.toNat qs) {cores : Option ℕ} {rates : Rates}
    {start h2o temp : ℝ} {n : ℕ} {F : ℝ → (Fin n → ℝ) → Fin n → ℝ}
    (hF : GasSystemF m cores rates start h2o temp F) :
    KineticSystem m qs (netFortran m.tables) rates start h2o temp F := by
  refine ⟨hF.1, fun s i hs t z => ?_⟩
  obtain ⟨out, hout, hFi⟩ := hF.2 t z
  rw [hFi]
  unfold dydtFuncF at hout
  obtain ⟨ro2, hro2, hgas⟩ := Option.bind_eq_some_iff.1 hout
  unfold ro2Total at hro2
  split at hro2
  · cases hro2
  · rw [← Option.some.inj hro2] at hgas
    exact gasRhsF_kinetic h hq hgas hs

theorem recorded_loss_only {text : Str} {m : Mechanism} (h : extractMechanism text = .ok m)
    {qs : List RawEqn} (hq : Reads text m.equations.toNat qs)
    (hpos : ∀ q ∈ qs, ∀ p ∈ chemReactants q ++ chemProducts q, 0 < p.1) :
    LossOnly qs (netRecorded m.tables) ∧ LossOnly qs (netFortran m.tables) := by
  have key : ∀ s e q, qs[e]? = some q → s ∉ names (chemReactants q) →
      cell m.tables.loss s e = none ∧ ∀ c, cell m.tables.gain s e = some c → 0 ≤ c := by
    intro s e q he hs
    rw [C05_loss_coefficients h hq, cell_gain h hq, he]
    refine ⟨by rw [Option.bind_some, if_neg hs], fun c hc => ?_⟩
    rw [Option.bind_some] at hc
    exact gainEntry_nonneg (fun p hp => hpos q (List.mem_of_getElem? he) p (List.mem_append_right _ hp)) hc
  constructor
  · intro s e q he hs
    obtain ⟨k1, k2⟩ := key s e q he hs
    unfold netRecorded recorded
    rw [k1]
    have : 0 ≤ (cell m.tables.gain s e).getD 0 := by
      cases hc : cell m.tables.gain s e with
      | none => simp
      | some c => exact k2 c hc
    have h2 : (0 : ℝ) ≤ ((cell m.tables.gain s e).getD 0 : ℚ) := Rat.cast_nonneg.2 this
    simpa using h2
  · intro s e q he hs
    obtain ⟨k1, k2⟩ := key s e q he hs
    unfold netFortran
    rw [k1]
    have : 0 ≤ offByOne (cell m.tables.gain s e) := by
      cases hc : cell m.tables.gain s e with
      | none => simp [offByOne]
      | some c =>
        have := k2 c hc
        unfold offByOne
        dsimp only
        split
        · norm_num
        · linarith
    have h2 : (0 : ℝ) ≤ (offByOne (cell m.tables.gain s e) : ℚ) := Rat.cast_nonneg.2 this
    simpa [offByOne] using h2

theorem Spec.SameNet.eq {m : Mechanism} (hsame : SameNet m) {s : Str} {i : ℕ}
    (hs : m.tables.index.get? s = some i) (hx : s ∉ heldConstant) (e : ℕ) :
    netFortran m.tables s e = netRecorded m.tables s e := by
  unfold netFortran netRecorded recorded
  rw [offByOne_sub, offByOne_sub, hsame s i e hs hx]
  push_cast
  ring

/-- Where the Fortran writer alters a gain it alters the loss, so the net coefficients are at most the recorded
ones. -/
theorem Spec.GainsLess.le {m : Mechanism} (hless : GainsLess m) {s : Str} {i : ℕ}
    (hs : m.tables.index.get? s = some i) (hx : s ∉ heldConstant) (e : ℕ) :
    netFortran m.tables s e ≤ netRecorded m.tables s e := by
  unfold netFortran netRecorded recorded
  rw [offByOne_sub, offByOne_sub]
  have := hless s i e hs hx
  push_cast
  by_cases hg : altered (cell m.tables.gain s e)
  · rw [if_pos hg, if_pos (this hg)]
    exact le_of_eq (by ring)
  · rw [if_neg hg]
    by_cases hl : altered (cell m.tables.loss s e)
    · rw [if_pos hl]
      push_cast
      linarith
    · rw [if_neg hl]
      exact le_of_eq (by ring)

theorem Spec.SameNet.less {m : Mechanism} (hsame : SameNet m) : GainsLess m :=
  fun s i e hs hx hg => (hsame s i e hs hx) ▸ hg

theorem stateOf_total {m : Mechanism} {n : ℕ} {sp : Fin n → Str}
    (hsum : ∀ (w : Str → ℝ) (y : ℕ → ℝ), weightedTotal m w y = ∑ i, w (sp i) * y i) (w : Str → ℝ)
    (y : Fin n → ℝ) : weightedTotal m w (stateOf y) = ∑ i, w (sp i) * y i := by
  rw [hsum]
  exact Finset.sum_congr rfl fun i _ => by rw [stateOf_fin]

/-! ## C59: conservation -/

section Generic

variable {text : Str} {m : Mechanism} {qs : List RawEqn} {A : Str → ℕ → ℝ} {rates : Rates}
  {start h2o temp : ℝ} {n : ℕ} {F : ℝ → (Fin n → ℝ) → Fin n → ℝ}

/-- The net coefficients have the weights of the reactions as written. -/
def TrueWeights (m : Mechanism) (qs : List RawEqn) (A : Str → ℕ → ℝ) : Prop :=
  ∀ (n : ℕ) (sp : Fin n → Str),
    (∀ (w : Str → ℝ) (y : ℕ → ℝ), weightedTotal m w y = ∑ i, w (sp i) * y i) →
    (∀ (i : Fin n) s, m.tables.index.get? s = some (i : ℕ) ↔ s = sp i) →
    ∀ w : Str → ℝ, (∀ s ∈ heldConstant, w s = 0) → ∀ e q, qs[e]? = some q →
      ∑ i, w (sp i) * A (sp i) e = weight w (chemProducts q) - weight w (chemReactants q)

/-- The net coefficients have at most the weights of the reactions as written. -/
def LightWeights (m : Mechanism) (qs : List RawEqn) (A : Str → ℕ → ℝ) : Prop :=
  ∀ (n : ℕ) (sp : Fin n → Str),
    (∀ (w : Str → ℝ) (y : ℕ → ℝ), weightedTotal m w y = ∑ i, w (sp i) * y i) →
    (∀ (i : Fin n) s, m.tables.index.get? s = some (i : ℕ) ↔ s = sp i) →
    ∀ w : Str → ℝ, (∀ s, 0 ≤ w s) → (∀ s ∈ heldConstant, w s = 0) → ∀ e q, qs[e]? = some q →
      ∑ i, w (sp i) * A (sp i) e ≤ weight w (chemProducts q) - weight w (chemReactants q)

theorem KineticSystem.conserved (hF : KineticSystem m qs A rates start h2o temp F)
    (h : extractMechanism text = .ok m) (hq : Reads text m.equations.toNat qs) (hA : TrueWeights m qs A)
    (w : Str → ℝ) (hbal : ∀ q ∈ qs, Spec.Balanced w q) (hconst : ∀ s ∈ heldConstant, w s = 0)
    {solve : (Fin n → ℝ) → ℚ → Fin n → ℝ}
    {sim batch : ℚ} (hs : 0 < sim) (hb : 0 < batch) {zero y0 : Fin n → ℝ} {times : List ℚ}
    {rows : List (Fin n → ℝ)}
    (hrun : runSimulation id solve zero y0 sim batch = .ok (times, rows))
    (hex : ExactBatches F solve batch y0 rows.length) :
    ∀ row ∈ rows, weightedTotal m w (stateOf row) = weightedTotal m w (stateOf y0) := by
  obtain ⟨sp, hsp, hsum⟩ := index_sum h hq hF.size
  intro row hrow
  rw [stateOf_total hsum, stateOf_total hsum]
  refine rows_constant (fun i => w (sp i)) (hF.total_zero hsp hconst fun e he => ?_) hs hb hrun hex row hrow
  have hqe : qs[e]? = some qs[e] := List.getElem?_eq_getElem he
  rw [hA n sp hsum hsp w hconst e _ hqe, sub_eq_zero]
  exact (hbal _ (List.getElem_mem he)).symm

theorem KineticSystem.not_gained (hF : KineticSystem m qs A rates start h2o temp F)
    (h : extractMechanism text = .ok m) (hq : Reads text m.equations.toNat qs) (hA : TrueWeights m qs A)
    (ht : Tame F) (hr : ∀ e time ro2, 0 ≤ ro2 → 0 ≤ rates (start + time) ro2 h2o temp e)
    (w : Str → ℝ) (hw : ∀ q ∈ qs, NotGained w q) (hconst : ∀ s ∈ heldConstant, w s = 0)
    {solve : (Fin n → ℝ) → ℚ → Fin n → ℝ} {sim batch : ℚ} (hs : 0 < sim) (hb : 0 < batch)
    {zero y0 : Fin n → ℝ} (hy0 : ∀ i, 0 ≤ y0 i) {times : List ℚ} {rows : List (Fin n → ℝ)}
    (hrun : runSimulation id solve zero y0 sim batch = .ok (times, rows))
    (hex : ExactBatches F solve batch y0 rows.length) :
    (y0 :: rows).Pairwise fun a b => weightedTotal m w (stateOf b) ≤ weightedTotal m w (stateOf a) := by
  obtain ⟨sp, hsp, hsum⟩ := index_sum h hq hF.size
  have := ht.rows_total (fun i => w (sp i)) (fun t y hy => hF.total_le hsp hconst (fun e he => ?_) hr t hy)
    hs hb hy0 hrun hex
  · refine this.imp fun {a b} hab => ?_
    rw [stateOf_total hsum, stateOf_total hsum]
    exact hab
  · have hqe : qs[e]? = some qs[e] := List.getElem?_eq_getElem he
    rw [hA n sp hsum hsp w hconst e _ hqe]
    exact sub_nonpos.2 (hw _ (List.getElem_mem he))

theorem KineticSystem.dissipative (hF : KineticSystem m qs A rates start h2o temp F)
    (h : extractMechanism text = .ok m) (hq : Reads text m.equations.toNat qs) (hA : LightWeights m qs A)
    (hr : ∀ e time ro2, 0 ≤ ro2 → 0 ≤ rates (start + time) ro2 h2o temp e)
    (hw : ∀ s i, m.tables.index.get? s = some i → s ∉ heldConstant → ∃ w : Str → ℝ,
      (∀ s, 0 ≤ w s) ∧ 0 < w s ∧ (∀ s ∈ heldConstant, w s = 0) ∧ ∀ q ∈ qs, NotGained w q) :
    Dissipative F := by
  classical
  intro i
  obtain ⟨sp, hsp, hsum⟩ := index_sum h hq hF.size
  have hsi := (hsp i _).2 rfl
  by_cases hx : sp i ∈ heldConstant
  · refine ⟨fun j => if j = i then 1 else 0, fun j => by dsimp only; split <;> norm_num,
      by simp, fun t y _ => ?_⟩
    have : F t y i = 0 := by rw [hF.value _ i hsi]; unfold kineticValue; rw [if_pos hx]
    simp [this]
  · obtain ⟨w, hw0, hwi, hwc, hwq⟩ := hw (sp i) i hsi hx
    refine ⟨fun j => w (sp j), fun j => hw0 _, hwi, fun t y hy => hF.total_le hsp hwc (fun e he => ?_) hr t hy⟩
    have hqe : qs[e]? = some qs[e] := List.getElem?_eq_getElem he
    exact (hA n sp hsum hsp w hw0 hwc e _ hqe).trans (sub_nonpos.2 (hwq _ (List.getElem_mem he)))

/-- `KineticSystem.not_gained` for weights that are not negative. -/
theorem KineticSystem.never_more (hF : KineticSystem m qs A rates start h2o temp F)
    (h : extractMechanism text = .ok m) (hq : Reads text m.equations.toNat qs) (hA : LightWeights m qs A)
    (ht : Tame F) (hr : ∀ e time ro2, 0 ≤ ro2 → 0 ≤ rates (start + time) ro2 h2o temp e)
    (w : Str → ℝ) (hw0 : ∀ s, 0 ≤ w s) (hw : ∀ q ∈ qs, NotGained w q) (hconst : ∀ s ∈ heldConstant, w s = 0)
    {solve : (Fin n → ℝ) → ℚ → Fin n → ℝ} {sim batch : ℚ} (hs : 0 < sim) (hb : 0 < batch)
    {zero y0 : Fin n → ℝ} (hy0 : ∀ i, 0 ≤ y0 i) {times : List ℚ} {rows : List (Fin n → ℝ)}
    (hrun : runSimulation id solve zero y0 sim batch = .ok (times, rows))
    (hex : ExactBatches F solve batch y0 rows.length) :
    (y0 :: rows).Pairwise fun a b => weightedTotal m w (stateOf b) ≤ weightedTotal m w (stateOf a) := by
  obtain ⟨sp, hsp, hsum⟩ := index_sum h hq hF.size
  have := ht.rows_total (fun i => w (sp i)) (fun t y hy => hF.total_le hsp hconst (fun e he => ?_) hr t hy)
    hs hb hy0 hrun hex
  · refine this.imp fun {a b} hab => ?_
    rw [stateOf_total hsum, stateOf_total hsum]
    exact hab
  · have hqe : qs[e]? = some qs[e] := List.getElem?_eq_getElem he
    exact (hA n sp hsum hsp w hw0 hconst e _ hqe).trans (sub_nonpos.2 (hw _ (List.getElem_mem he)))

end Generic

theorem recorded_trueWeights {text : Str} {m : Mechanism} (h : extractMechanism text = .ok m)
    {qs : List RawEqn} (hq : Reads text m.equations.toNat qs) (hg : ∀ q ∈ qs, GainGood q) :
    TrueWeights m qs (netRecorded m.tables) := by
  intro n sp hsum _ w _ e q he
  have hqm := List.mem_of_getElem? he
  rw [recorded_weight h hq hsum w he, weight_good h hq hsum w hqm (hg q hqm)]

theorem fortran_trueWeights {text : Str} {m : Mechanism} (h : extractMechanism text = .ok m)
    {qs : List RawEqn} (hq : Reads text m.equations.toNat qs) (hg : ∀ q ∈ qs, GainGood q)
    (hsame : SameNet m) : TrueWeights m qs (netFortran m.tables) := by
  intro n sp hsum hsp w hw e q he
  rw [← recorded_trueWeights h hq hg n sp hsum hsp w hw e q he]
  refine Finset.sum_congr rfl fun i _ => ?_
  by_cases hx : sp i ∈ heldConstant
  · rw [hw _ hx, zero_mul, zero_mul]
  · rw [hsame.eq ((hsp i _).2 rfl) hx]

theorem recorded_lightWeights {text : Str} {m : Mechanism} (h : extractMechanism text = .ok m)
    {qs : List RawEqn} (hq : Reads text m.equations.toNat qs)
    (hpos : ∀ q ∈ qs, ∀ p ∈ chemReactants q ++ chemProducts q, 0 < p.1) :
    LightWeights m qs (netRecorded m.tables) := by
  intro n sp hsum _ w hw0 _ e q he
  have hqm := List.mem_of_getElem? he
  rw [recorded_weight h hq hsum w he]
  exact sub_le_sub_right (weight_le h hq hsum hw0 hqm fun p hp => hpos q hqm p (List.mem_append_right _ hp)) _

theorem fortran_lightWeights {text : Str} {m : Mechanism} (h : extractMechanism text = .ok m)
    {qs : List RawEqn} (hq : Reads text m.equations.toNat qs)
    (hpos : ∀ q ∈ qs, ∀ p ∈ chemReactants q ++ chemProducts q, 0 < p.1) (hless : GainsLess m) :
    LightWeights m qs (netFortran m.tables) := by
  intro n sp hsum hsp w hw0 hw e q he
  refine le_trans (Finset.sum_le_sum fun i _ => ?_) (recorded_lightWeights h hq hpos n sp hsum hsp w hw0 hw e q he)
  by_cases hx : sp i ∈ heldConstant
  · rw [hw _ hx, zero_mul, zero_mul]
  · exact mul_le_mul_of_nonneg_left (hless.le ((hsp i _).2 rfl) hx e) (hw0 _)

theorem left_pos {qs : List RawEqn}
    (hpos : ∀ q ∈ qs, ∀ p ∈ chemReactants q ++ chemProducts q, 0 < p.1) :
    ∀ q ∈ qs, ∀ p ∈ chemReactants q, 0 < p.1 := fun q hq p hp => hpos q hq p (List.mem_append_left _ hp)

/-- C59: with an exact solver every reported row of a gas simulation holds the same weighted total as the
initial state, for all weights that every reaction balances. -/
theorem C59_conserved {text : Str} {m : Mechanism} (h : extractMechanism text = .ok m)
    {qs : List RawEqn} (hq : Reads text m.equations.toNat qs) (hg : ∀ q ∈ qs, GainGood q)
    (w : Str → ℝ) (hbal : ∀ q ∈ qs, Spec.Balanced w q) (hconst : ∀ s ∈ heldConstant, w s = 0)
    {rates : Rates} {start h2o temp : ℝ} {n : ℕ} {F : ℝ → (Fin n → ℝ) → Fin n → ℝ}
    (hF : GasSystem m rates start h2o temp F) {solve : (Fin n → ℝ) → ℚ → Fin n → ℝ}
    {sim batch : ℚ} (hs : 0 < sim) (hb : 0 < batch) {zero y0 : Fin n → ℝ} {times : List ℚ}
    {rows : List (Fin n → ℝ)}
    (hrun : runSimulation id solve zero y0 sim batch = .ok (times, rows))
    (hex : ExactBatches F solve batch y0 rows.length) :
    ∀ row ∈ rows, weightedTotal m w (stateOf row) = weightedTotal m w (stateOf y0) :=
  (hF.kinetic h hq).conserved h hq (recorded_trueWeights h hq hg) w hbal hconst hs hb hrun hex

/-- C59, Fortran version: with an exact solver every reported row of a gas simulation holds the same weighted total as the
initial state, for all weights that every reaction balances, if the
Fortran writer leaves the net coefficients right (`C13_exact`). -/
theorem C59_conserved_fortran {text : Str} {m : Mechanism} (h : extractMechanism text = .ok m)
    {qs : List RawEqn} (hq : Reads text m.equations.toNat qs) (hg : ∀ q ∈ qs, GainGood q)
    (hsame : SameNet m)
    (w : Str → ℝ) (hbal : ∀ q ∈ qs, Spec.Balanced w q) (hconst : ∀ s ∈ heldConstant, w s = 0)
    {cores : Option ℕ} {rates : Rates} {start h2o temp : ℝ} {n : ℕ} {F : ℝ → (Fin n → ℝ) → Fin n → ℝ}
    (hF : GasSystemF m cores rates start h2o temp F) {solve : (Fin n → ℝ) → ℚ → Fin n → ℝ}
    {sim batch : ℚ} (hs : 0 < sim) (hb : 0 < batch) {zero y0 : Fin n → ℝ} {times : List ℚ}
    {rows : List (Fin n → ℝ)}
    (hrun : runSimulation id solve zero y0 sim batch = .ok (times, rows))
    (hex : ExactBatches F solve batch y0 rows.length) :
    ∀ row ∈ rows, weightedTotal m w (stateOf row) = weightedTotal m w (stateOf y0) :=
  (hF.kinetic h hq).conserved h hq (fortran_trueWeights h hq hg hsame) w hbal hconst hs hb hrun hex

/-- C59, sources and sinks: with an exact solver and non-negative concentrations, a total whose weights no
reaction gains never grows from one reported row to a later one. -/
theorem C59_not_gained {text : Str} {m : Mechanism} (h : extractMechanism text = .ok m)
    {qs : List RawEqn} (hq : Reads text m.equations.toNat qs) (hg : ∀ q ∈ qs, GainGood q)
    (hpos : ∀ q ∈ qs, ∀ p ∈ chemReactants q ++ chemProducts q, 0 < p.1) (hone : WholeReactants qs)
    (w : Str → ℝ) (hw : ∀ q ∈ qs, NotGained w q) (hconst : ∀ s ∈ heldConstant, w s = 0)
    {rates : Rates} {start h2o temp : ℝ} (hr : RegularRates rates start h2o temp) {n : ℕ}
    {F : ℝ → (Fin n → ℝ) → Fin n → ℝ} (hF : GasSystem m rates start h2o temp F)
    {solve : (Fin n → ℝ) → ℚ → Fin n → ℝ} {sim batch : ℚ} (hs : 0 < sim) (hb : 0 < batch)
    {zero y0 : Fin n → ℝ} (hy0 : ∀ i, 0 ≤ y0 i) {times : List ℚ} {rows : List (Fin n → ℝ)}
    (hrun : runSimulation id solve zero y0 sim batch = .ok (times, rows))
    (hex : ExactBatches F solve batch y0 rows.length) :
    (y0 :: rows).Pairwise fun a b => weightedTotal m w (stateOf b) ≤ weightedTotal m w (stateOf a) :=
  (hF.kinetic h hq).not_gained h hq (recorded_trueWeights h hq hg)
    ((hF.kinetic h hq).tame h (recorded_loss_only h hq hpos).1 (left_pos hpos) hone hr) hr.nonneg
    w hw hconst hs hb hy0 hrun hex

/-- C59, sources and sinks, Fortran version: with an exact solver and non-negative concentrations, a total whose weights no
reaction gains never grows from one reported row to a later one. -/
theorem C59_not_gained_fortran {text : Str} {m : Mechanism} (h : extractMechanism text = .ok m)
    {qs : List RawEqn} (hq : Reads text m.equations.toNat qs) (hg : ∀ q ∈ qs, GainGood q)
    (hsame : SameNet m)
    (hpos : ∀ q ∈ qs, ∀ p ∈ chemReactants q ++ chemProducts q, 0 < p.1) (hone : WholeReactants qs)
    (w : Str → ℝ) (hw : ∀ q ∈ qs, NotGained w q) (hconst : ∀ s ∈ heldConstant, w s = 0)
    {cores : Option ℕ} {rates : Rates} {start h2o temp : ℝ} (hr : RegularRates rates start h2o temp) {n : ℕ}
    {F : ℝ → (Fin n → ℝ) → Fin n → ℝ} (hF : GasSystemF m cores rates start h2o temp F)
    {solve : (Fin n → ℝ) → ℚ → Fin n → ℝ} {sim batch : ℚ} (hs : 0 < sim) (hb : 0 < batch)
    {zero y0 : Fin n → ℝ} (hy0 : ∀ i, 0 ≤ y0 i) {times : List ℚ} {rows : List (Fin n → ℝ)}
    (hrun : runSimulation id solve zero y0 sim batch = .ok (times, rows))
    (hex : ExactBatches F solve batch y0 rows.length) :
    (y0 :: rows).Pairwise fun a b => weightedTotal m w (stateOf b) ≤ weightedTotal m w (stateOf a) :=
  (hF.kinetic h hq).not_gained h hq (fortran_trueWeights h hq hg hsame)
    ((hF.kinetic h hq).tame h (recorded_loss_only h hq hpos).2 (left_pos hpos) hone hr) hr.nonneg
    w hw hconst hs hb hy0 hrun hex

/-! ## C60: concentrations stay non-negative -/

/-- C60: with an exact solver a gas simulation that starts from non-negative concentrations reports only
non-negative concentrations, for mechanisms whose stoichiometric coefficients are positive and whose
reactants have total coefficients of at least 1. -/
theorem C60_nonneg {text : Str} {m : Mechanism} (h : extractMechanism text = .ok m)
    {qs : List RawEqn} (hq : Reads text m.equations.toNat qs)
    (hpos : ∀ q ∈ qs, ∀ p ∈ chemReactants q ++ chemProducts q, 0 < p.1) (hone : WholeReactants qs)
    {rates : Rates} {start h2o temp : ℝ} (hr : RegularRates rates start h2o temp) {n : ℕ}
    {F : ℝ → (Fin n → ℝ) → Fin n → ℝ} (hF : GasSystem m rates start h2o temp F)
    {solve : (Fin n → ℝ) → ℚ → Fin n → ℝ} {sim batch : ℚ} (hs : 0 < sim) (hb : 0 < batch)
    {zero y0 : Fin n → ℝ} (hy0 : ∀ i, 0 ≤ y0 i) {times : List ℚ} {rows : List (Fin n → ℝ)}
    (hrun : runSimulation id solve zero y0 sim batch = .ok (times, rows))
    (hex : ExactBatches F solve batch y0 rows.length) : ∀ row ∈ rows, ∀ i, 0 ≤ row i :=
  ((hF.kinetic h hq).tame h (recorded_loss_only h hq hpos).1 (left_pos hpos) hone hr).rows_nonneg
    hs hb hy0 hrun hex

/-- C60, Fortran version: with an exact solver a gas simulation that starts from non-negative concentrations reports only
non-negative concentrations, for mechanisms whose stoichiometric coefficients are positive and whose
reactants have total coefficients of at least 1. -/
theorem C60_nonneg_fortran {text : Str} {m : Mechanism} (h : extractMechanism text = .ok m)
    {qs : List RawEqn} (hq : Reads text m.equations.toNat qs)
    (hpos : ∀ q ∈ qs, ∀ p ∈ chemReactants q ++ chemProducts q, 0 < p.1) (hone : WholeReactants qs)
    {cores : Option ℕ} {rates : Rates} {start h2o temp : ℝ} (hr : RegularRates rates start h2o temp) {n : ℕ}
    {F : ℝ → (Fin n → ℝ) → Fin n → ℝ} (hF : GasSystemF m cores rates start h2o temp F)
    {solve : (Fin n → ℝ) → ℚ → Fin n → ℝ} {sim batch : ℚ} (hs : 0 < sim) (hb : 0 < batch)
    {zero y0 : Fin n → ℝ} (hy0 : ∀ i, 0 ≤ y0 i) {times : List ℚ} {rows : List (Fin n → ℝ)}
    (hrun : runSimulation id solve zero y0 sim batch = .ok (times, rows))
    (hex : ExactBatches F solve batch y0 rows.length) : ∀ row ∈ rows, ∀ i, 0 ≤ row i :=
  ((hF.kinetic h hq).tame h (recorded_loss_only h hq hpos).2 (left_pos hpos) hone hr).rows_nonneg
    hs hb hy0 hrun hex

end PyBox
