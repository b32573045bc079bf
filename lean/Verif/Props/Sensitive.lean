import Verif.Sim.Sensitive
import Verif.Props.Near
import Verif.Props.RoundingTexts

/-!
# C86: what errors in rate coefficients do to results

Two simulations whose rate coefficients differ, by a relative error and an absolute one, report concentrations that
differ by at most a constant times these errors and those of the solvers. With C85 this holds for the Fortran
version with the rounding of its rate files.
-/

namespace PyBox

open Set Rl

namespace Spec

/-- Rate coefficients of the first `N` reactions within relative and absolute errors, for `T` seconds from `start` on
and as long as the peroxy radicals are not negative. -/
def RatesWithin (e d : ℝ) (T : ℝ) (N : ℕ) (start h2o temp : ℝ) (rates rates' : Rates) : Prop :=
  ∀ t ∈ Ico 0 T, ∀ r, 0 ≤ r → ∀ k < N, |rates' (start + t) r h2o temp k - rates (start + t) r h2o temp k|
    ≤ e * rates (start + t) r h2o temp k + d

/-- States with concentrations of at most `B` and a sum of peroxy radicals that is not negative. -/
def radicalStates (m : Mechanism) (n : ℕ) (B : ℝ) : Set (Fin n → ℝ) :=
  {z | (∀ i, |z i| ≤ B) ∧ 0 ≤ ((ro2Indices m.tables.index).map (stateOf z)).sum}

/-- Two right-hand sides of a simulation, the second one of which is any that `other` allows with rate errors of `e` and
`d`: what is reported differs by at most a constant times the errors of rates, solvers and initial state. -/
def BoundedEffect {n : ℕ} (P : Set (Fin n → ℝ)) (F : ℝ → (Fin n → ℝ) → Fin n → ℝ)
    (other : ℝ → ℝ → (ℝ → (Fin n → ℝ) → Fin n → ℝ) → Prop) (sim batch : ℚ) : Prop :=
  ∃ C : ℝ, 0 ≤ C ∧ ∀ (e d η ε η' ε' δ : ℝ) (G : ℝ → (Fin n → ℝ) → Fin n → ℝ) (zero zero' y0 y0' : Fin n → ℝ)
    (solve solve' : (Fin n → ℝ) → ℚ → Fin n → ℝ) (times times' : List ℚ) (rows rows' : List (Fin n → ℝ)),
    0 ≤ e → 0 ≤ d → 0 ≤ η → 0 ≤ ε → 0 ≤ η' → 0 ≤ ε' → 0 ≤ δ → other e d G → (∀ i, |y0' i - y0 i| ≤ δ) →
    runSimulation id solve zero y0 sim batch = .ok (times, rows) →
    runSimulation id solve' zero' y0' sim batch = .ok (times', rows') →
    NearBatchesIn P F η ε solve batch y0 rows.length →
    NearBatchesIn P G η' ε' solve' batch y0' rows'.length →
    times' = times ∧ rows'.length = rows.length ∧ ∀ (k : ℕ) (row row' : Fin n → ℝ), rows[k]? = some row →
      rows'[k]? = some row' → ∀ i, |row' i - row i| ≤ C * ((e + d) + (η + ε) + (η' + ε') + δ)

end Spec

open Spec

theorem radicalStates_size (m : Mechanism) (n : ℕ) (B : ℝ) : SizeAtMost |B| (radicalStates m n B) :=
  fun _ hz i => (hz.1 i).trans (le_abs_self B)

section

variable {m : Mechanism} {qs : List RawEqn} {A : Str → ℕ → ℝ} {rates : Rates} {start h2o temp : ℝ}

/-- What errors in the rates do to the slope of a species. -/
theorem kineticValue_apart (h1 : WholeReactants qs) (hr : PiecewiseRates rates start h2o temp) {n : ℕ} {R : ℝ}
    {P : Set (Fin n → ℝ)} (hR : 0 ≤ R) (hB : SizeAtMost R P)
    (hP : ∀ z ∈ P, 0 ≤ ((ro2Indices m.tables.index).map (stateOf z)).sum) (T : ℝ) (s : Str) : ∃ M : ℝ, 0 ≤ M ∧ ∀ (e d : ℝ) (rates' : Rates), 0 ≤ e → 0 ≤ d →
      RatesWithin e d T qs.length start h2o temp rates rates' → ∀ t ∈ Ico 0 T, ∀ z ∈ P,
        |kineticValue m qs A rates' start h2o temp s t (stateOf z)
          - kineticValue m qs A rates start h2o temp s t (stateOf z)| ≤ M * (e + d) := by
  have hp := fun k => product_setLip (A := Icc 0 T) h1 hR hB m.tables k
  have hq := fun k => rates_setLip (T := T) hr hR hB (ro2Indices m.tables.index) k
  choose K1 M1 hK1 hM1 H1 using hp
  choose K2 M2 hK2 hM2 H2 using hq
  refine ⟨∑ k ∈ Finset.range qs.length, |A s k| * (M1 k * (M2 k + 1)),
    Finset.sum_nonneg fun k _ => mul_nonneg (abs_nonneg _) (mul_nonneg (hM1 k) (by linarith [hM2 k])),
    fun e d rates' he hd hw t ht z hz => ?_⟩
  have ht' : t ∈ Icc 0 T := Ico_subset_Icc_self ht
  unfold kineticValue
  by_cases hx : s ∈ heldConstant
  · rw [if_pos hx, if_pos hx, sub_self, abs_zero]
    exact mul_nonneg (Finset.sum_nonneg fun k _ =>
      mul_nonneg (abs_nonneg _) (mul_nonneg (hM1 k) (by linarith [hM2 k]))) (by linarith)
  · rw [if_neg hx, if_neg hx, ← Finset.sum_sub_distrib, Finset.sum_mul]
    refine (Finset.abs_sum_le_sum_abs _ _).trans (Finset.sum_le_sum fun k hk => ?_)
    rw [← mul_sub, ← mul_sub, abs_mul, abs_mul, mul_assoc |A s k|, mul_assoc (M1 k)]
    refine mul_le_mul_of_nonneg_left ?_ (abs_nonneg _)
    have a1 := (H1 k t ht' z hz).1
    have a2 := (abs_le.1 (H2 k t ht' z hz).1).2
    have a3 := hw t ht _ (hP z hz) k (Finset.mem_range.1 hk)
    have a4 := hM2 k
    refine mul_le_mul a1 (a3.trans ?_) (abs_nonneg _) (hM1 k)
    nlinarith

theorem KineticSystem.effect {text : Str} (h : extractMechanism text = .ok m) {n : ℕ}
    {F : ℝ → (Fin n → ℝ) → Fin n → ℝ} (hF : KineticSystem m qs A rates start h2o temp F) (h1 : WholeReactants qs)
    (hr : PiecewiseRates rates start h2o temp) {sim batch : ℚ} (hs : 0 < sim) (hb : 0 < batch) (B : ℝ) :
    BoundedEffect (radicalStates m n B) F (fun e d G => ∃ rates',
      RatesWithin e d batch qs.length start h2o temp rates rates' ∧ KineticSystem m qs A rates' start h2o temp G)
      sim batch := by
  have hB := radicalStates_size m n B
  choose nm hnm using hF.species h
  have hcomp : ∀ i, SetLip (Icc 0 (batch : ℝ)) (radicalStates m n B) (fun s z => F s z i) := fun i => by
    simp only [hF.value _ i (hnm i)]
    exact kineticValue_setLip h1 hr (abs_nonneg B) hB (nm i)
  obtain ⟨K, _, hK⟩ := SetLip.components hcomp
  choose M hM H using fun i => kineticValue_apart (m := m) (A := A) h1 hr (abs_nonneg B) hB (fun z hz => hz.2) batch (nm i)
  obtain ⟨C, hC, hruns⟩ := runs_apart (P := radicalStates m n B) (F := F) hs hb (K := max K 1) (le_max_right _ _)
    (fun s hs z hz z' hz' => ((hK s (Ico_subset_Icc_self hs)).1.dist_le_mul z hz z' hz').trans
      (mul_le_mul_of_nonneg_right (le_max_left _ _) dist_nonneg))
  have hS : 0 ≤ ∑ i, M i := Finset.sum_nonneg fun i _ => hM i
  refine ⟨C * (∑ i, M i + 1), mul_nonneg hC (by linarith), fun e d η ε η' ε' δ G zero zero' y0 y0' solve solve' times
    times' rows rows' he hd h2 h3 h4 h5 h6 ⟨rates', hw, hG⟩ hδ hrun hrun' hn hn' => ?_⟩
  obtain ⟨a1, a2, a3⟩ := hruns G ((∑ i, M i) * (e + d)) η ε η' ε' δ zero zero' y0 y0' solve solve' times times' rows
    rows' (mul_nonneg hS (by linarith)) h2 h3 h4 h5 h6 (fun s hs z hz i => by
      rw [hF.value _ i (hnm i), hG.value _ i (hnm i)]
      refine (H i e d rates' he hd hw s hs z hz).trans (mul_le_mul_of_nonneg_right ?_ (by linarith))
      exact Finset.single_le_sum (f := M) (fun i _ => hM i) (Finset.mem_univ i)) hδ hrun hrun' hn hn'
  refine ⟨a1, a2, fun k row row' hk hk' i => (a3 k row row' hk hk' i).trans ?_⟩
  rw [mul_assoc]
  refine mul_le_mul_of_nonneg_left ?_ hC
  nlinarith [mul_nonneg hS (show 0 ≤ (η + ε) + (η' + ε') + δ by linarith)]

end

theorem Spec.BoundedEffect.mono {n : ℕ} {P : Set (Fin n → ℝ)} {F : ℝ → (Fin n → ℝ) → Fin n → ℝ}
    {other other' : ℝ → ℝ → (ℝ → (Fin n → ℝ) → Fin n → ℝ) → Prop} {sim batch : ℚ}
    (h : BoundedEffect P F other sim batch) (ho : ∀ e d G, other' e d G → other e d G) :
    BoundedEffect P F other' sim batch := by
  obtain ⟨C, hC, h⟩ := h
  exact ⟨C, hC, fun e d η ε η' ε' δ G zero zero' y0 y0' solve solve' times times' rows rows' h1 h2 h3 h4 h5 h6 h7 hG =>
    h e d η ε η' ε' δ G zero zero' y0 y0' solve solve' times times' rows rows' h1 h2 h3 h4 h5 h6 h7 (ho e d G hG)⟩

/-- **C86**, gas: results depend on rate coefficients in a controlled way. -/
theorem C86_gas {text : Str} {m : Mechanism} (h : extractMechanism text = .ok m)
    {qs : List RawEqn} (hq : Reads text m.equations.toNat qs) (hone : WholeReactants qs)
    {rates : Rates} {start h2o temp : ℝ} (hr : PiecewiseRates rates start h2o temp) {n : ℕ}
    {F : ℝ → (Fin n → ℝ) → Fin n → ℝ} (hF : GasSystem m rates start h2o temp F) {sim batch : ℚ} (hs : 0 < sim)
    (hb : 0 < batch) (B : ℝ) :
    BoundedEffect (radicalStates m n B) F (fun e d G => ∃ rates',
      RatesWithin e d batch qs.length start h2o temp rates rates' ∧ GasSystem m rates' start h2o temp G) sim batch :=
  ((hF.kinetic h hq).effect h hone hr hs hb B).mono fun _ _ _ ⟨rates', h1, h2⟩ => ⟨rates', h1, h2.kinetic h hq⟩

/-- **C86**, gas, Fortran version. -/
theorem C86_gas_fortran {text : Str} {m : Mechanism} (h : extractMechanism text = .ok m)
    {qs : List RawEqn} (hq : Reads text m.equations.toNat qs) (hone : WholeReactants qs) {cores : Option ℕ}
    {rates : Rates} {start h2o temp : ℝ} (hr : PiecewiseRates rates start h2o temp) {n : ℕ}
    {F : ℝ → (Fin n → ℝ) → Fin n → ℝ} (hF : GasSystemF m cores rates start h2o temp F) {sim batch : ℚ} (hs : 0 < sim)
    (hb : 0 < batch) (B : ℝ) :
    BoundedEffect (radicalStates m n B) F (fun e d G => ∃ cores' rates',
      RatesWithin e d batch qs.length start h2o temp rates rates' ∧ GasSystemF m cores' rates' start h2o temp G)
      sim batch :=
  ((hF.kinetic h hq).effect h hone hr hs hb B).mono fun _ _ _ ⟨_, rates', h1, h2⟩ => ⟨rates', h1, h2.kinetic h hq⟩

/-! ## Rounding -/

namespace Spec

/-- Rate coefficients computed by a Fortran file with rounding of each operation, whatever the memory contained. -/
def RoundedRates (p : List KStmt) (T start h2o temp : ℝ) (rates : Rates) : Prop :=
  ∀ t ∈ Ico 0 T, ∀ r, 0 ≤ r → ∃ junk env, EvRun ieee (ambient .fortran temp (start + t) r h2o junk) p env ∧
    ∀ k, rates (start + t) r h2o temp k = env (Backend.fortran.rateVar k)

end Spec

/-- The rounded rates are within the errors of the analysis. -/
theorem rounded_within {text : Str} {m : Mechanism} (h : extractMechanism text = .ok m)
    {qs : List RawEqn} (hq : Reads text m.equations.toNat qs) {cores cores' : Option Nat} {times : Nat}
    (hread : ReadableRates .fortran ((convertOf .fortran)^[times]) qs) {p : List KStmt}
    (hp : kProgram (ratesFile .fortran cores ((convertTable (convertOf .fortran))^[times] m.tables.rate)) = some p)
    {p' : List Rl.Stmt}
    (hp' : program .fortran (ratesFile .fortran cores' ((convertTable (convertOf .fortran))^[times] m.tables.rate))
      = some p') (junk : Vals)
    {T start h2o temp : ℝ} (h1 : 200 ≤ temp) (h2 : temp ≤ 330) (hh : 0 ≤ h2o) (ht : 0 ≤ start)
    (ht' : start + T ≤ 1000000000) {e d : ℚ}
    (he : ∀ q ∈ qs, SmallMixed e d ((convertOf .fortran)^[times] q.rate)) {rates : Rates}
    (hr : RoundedRates p T start h2o temp rates) :
    RatesWithin e d T qs.length start h2o temp (generatedRates .fortran p' junk) rates := by
  intro t hT r hr0 k hk
  obtain ⟨junk', env, hrun, henv⟩ := hr t hT r hr0
  have hkq : qs[k]? = some qs[k] := List.getElem?_eq_getElem hk
  obtain ⟨x, hx, -⟩ := hread _ (List.getElem_mem hk)
  obtain ⟨_, g1, g2⟩ := C66_value h hq (b := .fortran) (by decide) cores' hread
  rw [hp'] at g1
  obtain rfl := Option.some.inj g1
  rw [henv, (g2 junk temp (start + t) r h2o).1 k _ x hkq hx]
  exact (C85_rates h hq hread hp h1 h2 hr0 hh (by linarith [hT.1]) (by linarith [hT.2]) hrun hkq hx
    (he _ (List.getElem_mem hk))).2

/-- **C86**, rounding: a Fortran simulation whose rate file is computed in single and double precision reports the same
as one with exact rate coefficients, up to a constant times the errors of the coefficients and the solvers. -/
theorem C86_rounding {text : Str} {m : Mechanism} (h : extractMechanism text = .ok m)
    {qs : List RawEqn} (hq : Reads text m.equations.toNat qs) (hone : WholeReactants qs)
    {cores cores' cores'' : Option Nat} {i : Nat}
    (hread : ReadableRates .fortran ((convertOf .fortran)^[i]) qs) {p : List KStmt}
    (hp : kProgram (ratesFile .fortran cores ((convertTable (convertOf .fortran))^[i] m.tables.rate)) = some p)
    {p' : List Rl.Stmt}
    (hp' : program .fortran (ratesFile .fortran cores' ((convertTable (convertOf .fortran))^[i] m.tables.rate))
      = some p') {junk : Vals} (hjunk : ∀ e, 0 ≤ junk (Backend.fortran.rateVar e))
    {start h2o temp : ℝ} (hnn : NonnegRates .fortran ((convertOf .fortran)^[i]) qs h2o temp)
    (h1 : 200 ≤ temp) (h2 : temp ≤ 330) (hh : 0 ≤ h2o) {sim batch : ℚ} (hs : 0 < sim) (hb : 0 < batch)
    (ht : 0 ≤ start) (ht' : start + batch ≤ 1000000000) {n : ℕ} {F : ℝ → (Fin n → ℝ) → Fin n → ℝ}
    (hF : GasSystemF m cores'' (generatedRates .fortran p' junk) start h2o temp F) (B : ℝ) :
    BoundedEffect (radicalStates m n B) F (fun e d G => ∃ (e' d' : ℚ) (cores : Option ℕ) (rates : Rates),
      e = e' ∧ d = d' ∧ (∀ q ∈ qs, SmallMixed e' d' ((convertOf .fortran)^[i] q.rate)) ∧
      RoundedRates p batch start h2o temp rates ∧ GasSystemF m cores rates start h2o temp G) sim batch :=
  (C86_gas_fortran h hq hone (C66_piecewise h hq (by decide) hread hp' hjunk start hnn) hF hs hb B).mono
    fun _ _ _ ⟨e', d', cores, rates, he, hd, hsm, hr, hG⟩ => ⟨cores, rates, by
      rw [he, hd]
      exact rounded_within h hq hread hp hp' junk h1 h2 hh ht ht' hsm hr, hG⟩

/-- **C86**, versions: the same for a Fortran simulation with rounding in its rate file compared with a Python
simulation with exact rate coefficients. -/
theorem C86_versions {text : Str} {m : Mechanism} (h : extractMechanism text = .ok m)
    {qs : List RawEqn} (hq : Reads text m.equations.toNat qs) (hsame : SameNet m) (hone : WholeReactants qs)
    {cores : Option Nat} {i j : Nat}
    (hn : ReadableRates .numba ((convertOf .numba)^[i]) qs)
    (hf : ReadableRates .fortran ((convertOf .fortran)^[j]) qs)
    (hexp : SameExpressions ((convertOf .numba)^[i]) ((convertOf .fortran)^[j]) qs) {p : List Rl.Stmt}
    (hp : program .numba (ratesFile .numba none ((convertTable (convertOf .numba))^[i] m.tables.rate)) = some p)
    {p' : List KStmt}
    (hp' : kProgram (ratesFile .fortran cores ((convertTable (convertOf .fortran))^[j] m.tables.rate)) = some p')
    {junk : Rl.Vals} (hjunk : ∀ e, 0 ≤ junk (Backend.numba.rateVar e)) {start h2o temp : ℝ}
    (hnn : NonnegRates .numba ((convertOf .numba)^[i]) qs h2o temp)
    (h1 : 200 ≤ temp) (h2 : temp ≤ 330) (hh : 0 ≤ h2o) {sim batch : ℚ} (hs : 0 < sim) (hb : 0 < batch)
    (ht : 0 ≤ start) (ht' : start + batch ≤ 1000000000) {n : ℕ} {F : ℝ → (Fin n → ℝ) → Fin n → ℝ}
    (hF : GasSystem m (generatedRates .numba p junk) start h2o temp F) (B : ℝ) :
    BoundedEffect (radicalStates m n B) F (fun e d G => ∃ (e' d' : ℚ) (cores : Option ℕ) (rates : Rates),
      e = e' ∧ d = d' ∧ (∀ q ∈ qs, SmallMixed e' d' ((convertOf .fortran)^[j] q.rate)) ∧
      RoundedRates p' batch start h2o temp rates ∧ GasSystemF m cores rates start h2o temp G) sim batch := by
  have hA : ∀ (s : Str) (i e : ℕ), m.tables.index.get? s = some i → s ∉ heldConstant →
      netFortran m.tables s e = netRecorded m.tables s e := fun s i e hs hx => hsame.eq hs hx e
  obtain ⟨p'', hp'', -⟩ := C66_value h hq (b := .fortran) (by decide) cores hf
  refine ((hF.kinetic h hq).effect h hone (C66_piecewise h hq (by decide) hn hp hjunk start hnn) hs hb B).mono
    fun _ _ G ⟨e', d', cores', rates, he, hd, hsm, hr, hG⟩ => ⟨rates, ?_, (hG.kinetic h hq).size, ?_⟩
  · rw [he, hd]
    have hw := rounded_within h hq hf hp' hp'' (fun _ => 0) h1 h2 hh ht ht' hsm hr
    intro t hT r hr0 k hk
    rw [C67_same h hq hn hf hexp hp hp'' junk (fun _ => 0) (start + t) r h2o temp hk]
    exact hw t hT r hr0 k hk
  · intro s i hsi t z
    rw [(hG.kinetic h hq).value s i hsi]
    unfold kineticValue
    by_cases hx : s ∈ heldConstant
    · rw [if_pos hx, if_pos hx]
    · rw [if_neg hx, if_neg hx]
      exact Finset.sum_congr rfl fun e _ => by rw [hA s i e hsi hx]

/-! ## Exact solvers -/

namespace Spec

/-- Exact solvers for rate coefficients that differ by `e` and `d`, from states of at most `Y` of everything: what is
reported differs by at most a constant times the errors of rates and initial states. -/
def BoundedEffectExact {n : ℕ} (F : ℝ → (Fin n → ℝ) → Fin n → ℝ)
    (other : ℝ → ℝ → (ℝ → (Fin n → ℝ) → Fin n → ℝ) → Prop) (sim batch : ℚ) (Y : ℝ) : Prop :=
  ∃ C : ℝ, 0 ≤ C ∧ ∀ (e d δ : ℝ) (G : ℝ → (Fin n → ℝ) → Fin n → ℝ) (zero zero' y0 y0' : Fin n → ℝ)
    (solve solve' : (Fin n → ℝ) → ℚ → Fin n → ℝ) (times times' : List ℚ) (rows rows' : List (Fin n → ℝ)),
    0 ≤ e → 0 ≤ d → 0 ≤ δ → other e d G → (∀ i, 0 ≤ y0 i ∧ y0 i ≤ Y) → (∀ i, 0 ≤ y0' i ∧ y0' i ≤ Y) →
    (∀ i, |y0' i - y0 i| ≤ δ) →
    runSimulation id solve zero y0 sim batch = .ok (times, rows) →
    runSimulation id solve' zero' y0' sim batch = .ok (times', rows') →
    ExactBatches F solve batch y0 rows.length → ExactBatches G solve' batch y0' rows'.length →
    times' = times ∧ rows'.length = rows.length ∧ ∀ (k : ℕ) (row row' : Fin n → ℝ), rows[k]? = some row →
      rows'[k]? = some row' → ∀ i, |row' i - row i| ≤ C * (e + d + δ)

end Spec

/-- Totals that do not grow, whatever the rates. -/
theorem kinetic_weights {text : Str} {m : Mechanism} (h : extractMechanism text = .ok m)
    {qs : List RawEqn} (hq : Reads text m.equations.toNat qs) {A : Str → ℕ → ℝ} (hA : LightWeights m qs A)
    (hw : ∀ s i, m.tables.index.get? s = some i → s ∉ heldConstant → ∃ w : Str → ℝ,
      (∀ s, 0 ≤ w s) ∧ 0 < w s ∧ (∀ s ∈ heldConstant, w s = 0) ∧ ∀ q ∈ qs, NotGained w q)
    {n : ℕ} (hn : n = m.tables.species.length) (i : Fin n) :
    ∃ c : Fin n → ℝ, (∀ j, 0 ≤ c j) ∧ 0 < c i ∧ ∀ (rates : Rates) (start h2o temp : ℝ)
      (F : ℝ → (Fin n → ℝ) → Fin n → ℝ), KineticSystem m qs A rates start h2o temp F →
      (∀ e time ro2, 0 ≤ ro2 → 0 ≤ rates (start + time) ro2 h2o temp e) →
      ∀ t y, (∀ j, 0 ≤ y j) → ∑ j, c j * F t y j ≤ 0 := by
  classical
  obtain ⟨sp, hsp, hsum⟩ := index_sum h hq hn
  have hsi := (hsp i _).2 rfl
  by_cases hx : sp i ∈ heldConstant
  · refine ⟨fun j => if j = i then 1 else 0, fun j => by dsimp only; split <;> norm_num,
      by simp, fun rates start h2o temp F hF _ t y _ => ?_⟩
    have : F t y i = 0 := by rw [hF.value _ i hsi]; unfold kineticValue; rw [if_pos hx]
    simp [this]
  · obtain ⟨w, hw0, hwi, hwc, hwq⟩ := hw (sp i) i hsi hx
    refine ⟨fun j => w (sp j), fun j => hw0 _, hwi, fun rates start h2o temp F hF hr t y hy =>
      hF.total_le hsp hwc (fun e he => ?_) hr t hy⟩
    have hqe : qs[e]? = some qs[e] := List.getElem?_eq_getElem he
    exact (hA n sp hsum hsp w hw0 hwc e _ hqe).trans (sub_nonpos.2 (hwq _ (List.getElem_mem he)))

theorem KineticSystem.effect_exact {text : Str} {m : Mechanism} (h : extractMechanism text = .ok m)
    {qs : List RawEqn} (hq : Reads text m.equations.toNat qs) {A : Str → ℕ → ℝ} (hA : LightWeights m qs A)
    (hL : LossOnly qs A) (hpos : ∀ q ∈ qs, ∀ p ∈ chemReactants q, 0 < p.1)
    (hw : ∀ s i, m.tables.index.get? s = some i → s ∉ heldConstant → ∃ w : Str → ℝ,
      (∀ s, 0 ≤ w s) ∧ 0 < w s ∧ (∀ s ∈ heldConstant, w s = 0) ∧ ∀ q ∈ qs, NotGained w q)
    {rates : Rates} {start h2o temp : ℝ} {n : ℕ}
    {F : ℝ → (Fin n → ℝ) → Fin n → ℝ} (hF : KineticSystem m qs A rates start h2o temp F) (h1 : WholeReactants qs)
    (hr : PiecewiseRates rates start h2o temp) {sim batch : ℚ} (hs : 0 < sim) (hb : 0 < batch) {Y : ℝ} (hY : 0 ≤ Y) :
    BoundedEffectExact F (fun e d G => ∃ rates', RatesWithin e d batch qs.length start h2o temp rates rates' ∧
      PiecewiseRates rates' start h2o temp ∧ KineticSystem m qs A rates' start h2o temp G) sim batch Y := by
  choose c hc0 hci hc using kinetic_weights h hq hA hw hF.size
  obtain ⟨B, hB0, hB⟩ := total_bound hc0 hci (y0 := fun _ => Y) fun _ => hY
  obtain ⟨C, hC, heff⟩ := hF.effect h h1 hr hs hb B
  have hP : ∀ z : Fin n → ℝ, (∀ i, 0 ≤ z i) → (∀ i, z i ≤ B) → z ∈ radicalStates m n B := fun z hz hzB =>
    ⟨fun i => by rw [abs_of_nonneg (hz i)]; exact hzB i, listState_nonneg hz _⟩
  have hstart : ∀ y : Fin n → ℝ, (∀ i, 0 ≤ y i ∧ y i ≤ Y) → ∀ i, ∑ j, c i j * y j ≤ c i i * B := fun y hy i =>
    (Finset.sum_le_sum fun j _ => mul_le_mul_of_nonneg_left (hy j).2 (hc0 i j)).trans (hB i)
  refine ⟨C, hC, fun e d δ G zero zero' y0 y0' solve solve' times times' rows rows' he hd hδ0 ⟨rates', hw', hr', hG⟩
    hy0 hy0' hδ hrun hrun' hex hex' => ?_⟩
  obtain ⟨a1, a2, a3⟩ := heff e d 0 0 0 0 δ G zero zero' y0 y0' solve solve' times times' rows rows' he hd le_rfl le_rfl
    le_rfl le_rfl hδ0 ⟨rates', hw', hG⟩ hδ hrun hrun'
    ((hF.tame h hL hpos h1 hr.regular).batches_in hc0 hci
      (fun i t y hy => hc i rates start h2o temp F hF hr.regular.nonneg t y hy) hb.le (fun i => (hy0 i).1)
      (hstart y0 hy0) hP hex)
    ((hG.tame h hL hpos h1 hr'.regular).batches_in hc0 hci
      (fun i t y hy => hc i rates' start h2o temp G hG hr'.regular.nonneg t y hy) hb.le (fun i => (hy0' i).1)
      (hstart y0' hy0') hP hex')
  refine ⟨a1, a2, fun k row row' hk hk' i => (a3 k row row' hk hk' i).trans (le_of_eq ?_)⟩
  ring

/-- **C86**, exact solvers: nothing need be known about the solutions. -/
theorem C86_exact {text : Str} {m : Mechanism} (h : extractMechanism text = .ok m)
    {qs : List RawEqn} (hq : Reads text m.equations.toNat qs)
    (hpos : ∀ q ∈ qs, ∀ p ∈ chemReactants q ++ chemProducts q, 0 < p.1) (hone : WholeReactants qs)
    (hw : ∀ s i, m.tables.index.get? s = some i → s ∉ heldConstant → ∃ w : Str → ℝ,
      (∀ s, 0 ≤ w s) ∧ 0 < w s ∧ (∀ s ∈ heldConstant, w s = 0) ∧ ∀ q ∈ qs, NotGained w q)
    {rates : Rates} {start h2o temp : ℝ} (hr : PiecewiseRates rates start h2o temp) {n : ℕ}
    {F : ℝ → (Fin n → ℝ) → Fin n → ℝ} (hF : GasSystem m rates start h2o temp F) {sim batch : ℚ} (hs : 0 < sim)
    (hb : 0 < batch) {Y : ℝ} (hY : 0 ≤ Y) :
    BoundedEffectExact F (fun e d G => ∃ rates', RatesWithin e d batch qs.length start h2o temp rates rates' ∧
      PiecewiseRates rates' start h2o temp ∧ GasSystem m rates' start h2o temp G) sim batch Y := by
  obtain ⟨C, hC, heff⟩ := (hF.kinetic h hq).effect_exact h hq (recorded_lightWeights h hq hpos)
    (recorded_loss_only h hq hpos).1 (left_pos hpos) hw hone hr hs hb hY
  exact ⟨C, hC, fun e d δ G zero zero' y0 y0' solve solve' times times' rows rows' he hd hδ ⟨rates', h1, h2, h3⟩ =>
    heff e d δ G zero zero' y0 y0' solve solve' times times' rows rows' he hd hδ ⟨rates', h1, h2, h3.kinetic h hq⟩⟩

/-- **C86**, exact solvers, Fortran version. -/
theorem C86_exact_fortran {text : Str} {m : Mechanism} (h : extractMechanism text = .ok m)
    {qs : List RawEqn} (hq : Reads text m.equations.toNat qs) (hless : GainsLess m)
    (hpos : ∀ q ∈ qs, ∀ p ∈ chemReactants q ++ chemProducts q, 0 < p.1) (hone : WholeReactants qs)
    (hw : ∀ s i, m.tables.index.get? s = some i → s ∉ heldConstant → ∃ w : Str → ℝ,
      (∀ s, 0 ≤ w s) ∧ 0 < w s ∧ (∀ s ∈ heldConstant, w s = 0) ∧ ∀ q ∈ qs, NotGained w q)
    {cores : Option ℕ} {rates : Rates} {start h2o temp : ℝ} (hr : PiecewiseRates rates start h2o temp) {n : ℕ}
    {F : ℝ → (Fin n → ℝ) → Fin n → ℝ} (hF : GasSystemF m cores rates start h2o temp F) {sim batch : ℚ} (hs : 0 < sim)
    (hb : 0 < batch) {Y : ℝ} (hY : 0 ≤ Y) :
    BoundedEffectExact F (fun e d G => ∃ cores' rates', RatesWithin e d batch qs.length start h2o temp rates rates' ∧
      PiecewiseRates rates' start h2o temp ∧ GasSystemF m cores' rates' start h2o temp G) sim batch Y := by
  obtain ⟨C, hC, heff⟩ := (hF.kinetic h hq).effect_exact h hq (fortran_lightWeights h hq hpos hless)
    (recorded_loss_only h hq hpos).2 (left_pos hpos) hw hone hr hs hb hY
  exact ⟨C, hC, fun e d δ G zero zero' y0 y0' solve solve' times times' rows rows' he hd hδ ⟨_, rates', h1, h2, h3⟩ =>
    heff e d δ G zero zero' y0 y0' solve solve' times times' rows rows' he hd hδ ⟨rates', h1, h2, h3.kinetic h hq⟩⟩

/-! ## Cases the theorems apply to -/

/-- Rate coefficients that are all 0.1 % too high. -/
theorem higherRates_piecewise (start h2o temp : ℝ) :
    PiecewiseRates (fun t r h T e => 1.001 * wavyRates t r h T e) start h2o temp := by
  refine SmoothRates.piecewise fun e => ?_
  obtain ⟨w1, w2, w3⟩ := wavyRates_smooth start h2o temp e
  refine ⟨fun t r hr => mul_nonneg (by norm_num) (w1 t r hr), fun r => continuous_const.mul (w2 r), fun R => ?_⟩
  obtain ⟨K, M, hKM⟩ := w3 R
  refine ⟨1.001 * K, 1.001 * M, fun t r r' ht hr hr' => ?_⟩
  obtain ⟨a1, a2⟩ := hKM t r r' ht hr hr'
  rw [← mul_sub, abs_mul, abs_mul, abs_of_nonneg (by norm_num : (0 : ℝ) ≤ 1.001), mul_assoc]
  exact ⟨mul_le_mul_of_nonneg_left a1 (by norm_num), mul_le_mul_of_nonneg_left a2 (by norm_num)⟩

theorem higherRates_within (T : ℝ) (N : ℕ) (start h2o temp : ℝ) :
    RatesWithin 0.001 0 T N start h2o temp wavyRates fun t r h T e => 1.001 * wavyRates t r h T e := by
  intro t _ r hr0 k _
  have hn := (wavyRates_smooth start h2o temp k).1 t r hr0
  rw [show (1.001 : ℝ) * wavyRates (start + t) r h2o temp k - wavyRates (start + t) r h2o temp k
    = 0.001 * wavyRates (start + t) r h2o temp k by ring, abs_of_nonneg (mul_nonneg (by norm_num) hn), add_zero]

/-- For `radicalText`, rate coefficients that are all 0.1 % too high meet the hypotheses of `C86_exact`: there are exact
solvers for both, runs of two batches, and the differences are bounded. -/
theorem radical_sensitive : ∃ (F G : ℝ → (Fin 5 → ℝ) → Fin 5 → ℝ) (solve solve' : (Fin 5 → ℝ) → ℚ → Fin 5 → ℝ),
    GasSystem ⟨build radicalReactions, 2⟩ wavyRates 0 0 0 F ∧
    GasSystem ⟨build radicalReactions, 2⟩ (fun t r h T e => 1.001 * wavyRates t r h T e) 0 0 0 G ∧
    ∃ C : ℝ, 0 ≤ C ∧ ∀ y0 : Fin 5 → ℝ, (∀ i, 0 ≤ y0 i ∧ y0 i ≤ 1e12) → ∃ rows rows',
      runSimulation id solve (fun _ => 0) y0 (((2 : ℕ) : ℚ) * 60) 60 = .ok ([60, 120], rows) ∧
      runSimulation id solve' (fun _ => 0) y0 (((2 : ℕ) : ℚ) * 60) 60 = .ok ([60, 120], rows') ∧
      ∀ (k : ℕ) (row row' : Fin 5 → ℝ), rows[k]? = some row → rows'[k]? = some row' →
        ∀ i, |row' i - row i| ≤ C * 0.001 := by
  obtain ⟨F, hF⟩ := radical_system wavyRates 0 0 0
  obtain ⟨G, hG⟩ := radical_system (fun t r h T e => 1.001 * wavyRates t r h T e) 0 0 0
  have hg : ∀ q ∈ radicalReactions, GainGood q := fun q hq => (radical_regular q hq).gain
  have hr := (wavyRates_smooth 0 0 0).piecewise
  have hr' := higherRates_piecewise 0 0 0
  obtain ⟨solve, hsolve⟩ := C61_exists radical_parses radical_reads radical_positive.1
    radical_positive.2 radical_weights hr hF (batch := 60) (by norm_num)
  obtain ⟨solve', hsolve'⟩ := C61_exists radical_parses radical_reads radical_positive.1
    radical_positive.2 radical_weights hr' hG (batch := 60) (by norm_num)
  obtain ⟨C, hC, heff⟩ := C86_exact radical_parses radical_reads radical_positive.1 radical_positive.2
    radical_weights hr hF (sim := ((2 : ℕ) : ℚ) * 60) (batch := 60) (by norm_num) (by norm_num) (Y := 1e12) (by norm_num)
  refine ⟨F, G, solve, solve', hF, hG, C, hC, fun y0 hy0 => ?_⟩
  obtain ⟨rows, hrun, -⟩ := radical_batches solve y0
  obtain ⟨rows', hrun', -⟩ := radical_batches solve' y0
  refine ⟨rows, rows', hrun, hrun', fun k row row' hk hk' i => ?_⟩
  refine ((heff 0.001 0 0 G _ _ y0 y0 solve solve' _ _ rows rows' (by norm_num) le_rfl le_rfl
    ⟨_, higherRates_within _ _ _ _ _, hr', hG⟩ hy0 hy0 (fun i => by simp) hrun hrun' (hsolve _ (fun i => (hy0 i).1) _)
    (hsolve' _ (fun i => (hy0 i).1) _)).2.2 k row row' hk hk' i).trans (le_of_eq (by ring))

theorem SmallMixed.mono {e d e' d' : ℚ} {s : Str} (h : SmallMixed e d s) (he : e ≤ e') (hd : d ≤ d') :
    SmallMixed e' d' s := fun x hx => by
  obtain ⟨p, hp, h1, h2⟩ := h x hx
  exact ⟨p, hp, h1.trans he, h2.trans hd⟩

/-- The rate texts of `radicalText`. -/
theorem radical_small : ∀ q ∈ radicalReactions, SmallMixed 1e-6 4.66e-7 ((convertOf .fortran)^[2] q.rate) := by
  have h : ∀ q ∈ radicalReactions, q.rate = "2.30D-12*EXP(360/TEMP)".toList ∨ q.rate = "J(4)".toList := by
    decide +kernel
  intro q hq
  rcases h q hq with h | h <;> rw [h]
  · exact SmallMixed.mono (mixedSmall_spec (e := 1e-6) (d := 0) (by decide +kernel)) le_rfl (by norm_num)
  · exact SmallMixed.mono sunTexts_small.1 (by norm_num) le_rfl

/-- For `radicalText`, its Fortran rate file and a start at noon the hypotheses of `C86_rounding` are met; rounded rates
exist. -/
theorem radical_rounding : ∃ (p : List KStmt) (F : ℝ → (Fin 5 → ℝ) → Fin 5 → ℝ),
    kProgram (ratesFile .fortran (some 2) ((convertTable (convertOf .fortran))^[2] (build radicalReactions).rate))
      = some p ∧ (∃ rates, RoundedRates p 60 43200 0 298.15 rates) ∧
    ∀ B : ℝ, BoundedEffect (radicalStates ⟨build radicalReactions, 2⟩ 5 B) F (fun e d G => e = 1e-6 ∧ d = 4.66e-7 ∧
      ∃ rates, RoundedRates p 60 43200 0 298.15 rates ∧
        GasSystemF ⟨build radicalReactions, 2⟩ none rates 43200 0 298.15 G) (((2 : ℕ) : ℚ) * 60) 60 := by
  obtain ⟨-, c2, -⟩ := radical_rates
  obtain ⟨f1, f2⟩ := rateTextCheck_reads c2
  obtain ⟨l, hp, -⟩ := kRate_file radical_parses radical_reads (some 2) f1
  obtain ⟨p', hp', -⟩ := C66_value radical_parses radical_reads (b := .fortran) (by decide) (some 2) f1
  obtain ⟨F, hF⟩ := radical_systemF none (generatedRates .fortran p' fun _ => 0) 43200 0 298.15
  refine ⟨_, F, hp, ?_, fun B => (C86_rounding radical_parses radical_reads radical_positive.2 f1 hp hp'
    (junk := fun _ => 0) (fun _ => le_rfl) (C66_nonneg (by decide) f1 f2 (by norm_num) le_rfl) (by norm_num) (by norm_num) le_rfl
    (sim := ((2 : ℕ) : ℚ) * 60) (batch := 60) (by norm_num) (by norm_num) (by norm_num) (by norm_num) hF B).mono ?_⟩
  · refine ⟨fun t r h T e => if hc : 0 ≤ r ∧ |t| ≤ 10 ^ 12 then
      (C82_runs radical_parses radical_reads f1 f2 radical_kinds hp (T := 298.15) (t := t)
        (h2o := 0) (by norm_num) hc.1 le_rfl hc.2 fun _ => 0).choose (Backend.fortran.rateVar e) else 0, ?_⟩
    intro t ht r hr
    have hc : 0 ≤ r ∧ |43200 + t| ≤ (10 : ℝ) ^ 12 := by
      refine ⟨hr, abs_le.2 ⟨by linarith [ht.1], by linarith [ht.2]⟩⟩
    refine ⟨fun _ => 0, _, ((C82_runs radical_parses radical_reads f1 f2 radical_kinds hp (T := 298.15) (t := 43200 + t)
      (h2o := 0) (by norm_num) hc.1 le_rfl hc.2 fun _ => 0).choose_spec).mono fun p x y => exactly_ieee, fun k => ?_⟩
    exact dif_pos hc
  · rintro e d G ⟨rfl, rfl, rates, hr, hG⟩
    exact ⟨1e-6, 4.66e-7, none, rates, by push_cast; norm_num, by push_cast; norm_num, radical_small,
      by push_cast; exact hr, hG⟩

end PyBox
