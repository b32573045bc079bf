import Verif.Sim.Explicit
import Verif.Props.SensitiveAerosol
import Verif.Props.PythonRounded

/-!
# C94: the effect of errors on results, in numbers

C86 and C88 say that results differ by at most a constant times the errors. Here the constant is written out, from a
Lipschitz constant of the right-hand side and bounds on the terms of the tendencies.
-/

namespace PyBox

open Set Rl Spec Aerosol

namespace Spec

/-- Bounds on the terms of the tendencies in a set of states: `W` on their sum with the rate coefficients, `V` on their
sum without. -/
structure TermBounds (m : Mechanism) (qs : List RawEqn) (A : Str → ℕ → ℝ) (rates : Rates) (T start h2o temp : ℝ) {n : ℕ}
    (P : Set (Fin n → ℝ)) (W V : ℝ) : Prop where
  rate : ∀ t ∈ Ico 0 T, ∀ z ∈ P, ∀ s i, m.tables.index.get? s = some i → ∑ k ∈ Finset.range qs.length,
    |A s k| * (|reactionProduct qs m.tables (stateOf z) k| * rates (start + t) ((ro2Indices m.tables.index).map (stateOf z)).sum h2o temp k) ≤ W
  product : ∀ z ∈ P, ∀ s i, m.tables.index.get? s = some i →
    ∑ k ∈ Finset.range qs.length, |A s k| * |reactionProduct qs m.tables (stateOf z) k| ≤ V
  nonneg : 0 ≤ W ∧ 0 ≤ V

/-- The sizes of the coefficients of the reactions in the equation of a species. -/
noncomputable def grossIn (lang : Lang) (t : Tables) (s : Str) (e : ℕ) : ℝ :=
  |(coefIn lang (cell t.gain s e) : ℝ)| + |(coefIn lang (cell t.loss s e) : ℝ)|

/-- How the rates change the terms of the tendencies: the peroxy radicals sum up to at most `S` in size, and the terms
change by at most `Λ` times a change of the sum. -/
structure RadicalBounds (lang : Lang) (m : Mechanism) (qs : List RawEqn) (rates : Rates) (T start h2o temp : ℝ) {n : ℕ}
    (P : Set (Fin n → ℝ)) (Λ S : ℝ) : Prop where
  size : ∀ z ∈ P, ((ro2Indices m.tables.index).map fun i => |stateOf z i|).sum ≤ S
  change : ∀ t ∈ Ico 0 T, ∀ z ∈ P, ∀ s i, m.tables.index.get? s = some i → ∀ r, 0 ≤ r →
    |r - ((ro2Indices m.tables.index).map (stateOf z)).sum| ≤ S → ∑ k ∈ Finset.range qs.length,
    grossIn lang m.tables s k * (|reactionProduct qs m.tables (stateOf z) k| * |rates (start + t) r h2o temp k
      - rates (start + t) ((ro2Indices m.tables.index).map (stateOf z)).sum h2o temp k|)
      ≤ Λ * |r - ((ro2Indices m.tables.index).map (stateOf z)).sum|
  nonneg : 0 ≤ Λ ∧ 0 ≤ S

end Spec

section

variable {text : Str} {m : Mechanism} {qs : List RawEqn} {A : Str → ℕ → ℝ} {rates rates' : Rates}
  {start h2o temp : ℝ} {n : ℕ} {P : Set (Fin n → ℝ)} {T W V e d : ℝ}

/-- Errors of rate coefficients in the slope of a species. -/
theorem kineticValue_explicit (hW : TermBounds m qs A rates T start h2o temp P W V) (he : 0 ≤ e) (hd : 0 ≤ d)
    (hP : ∀ z ∈ P, 0 ≤ ((ro2Indices m.tables.index).map (stateOf z)).sum)
    (hr : RatesWithin e d T qs.length start h2o temp rates rates') {t : ℝ} (ht : t ∈ Ico 0 T) {z : Fin n → ℝ} (hz : z ∈ P)
    {s : Str} {i : ℕ} (hi : m.tables.index.get? s = some i) : |kineticValue m qs A rates' start h2o temp s t (stateOf z)
      - kineticValue m qs A rates start h2o temp s t (stateOf z)| ≤ e * W + d * V := by
  have h0 : 0 ≤ e * W + d * V := add_nonneg (mul_nonneg he hW.nonneg.1) (mul_nonneg hd hW.nonneg.2)
  unfold kineticValue
  by_cases hx : s ∈ heldConstant
  · rw [if_pos hx, if_pos hx, sub_self, abs_zero]
    exact h0
  rw [if_neg hx, if_neg hx, ← Finset.sum_sub_distrib]
  refine (Finset.abs_sum_le_sum_abs _ _).trans (le_trans ?_ (add_le_add
    (mul_le_mul_of_nonneg_left (hW.rate t ht z hz s i hi) he) (mul_le_mul_of_nonneg_left (hW.product z hz s i hi) hd)))
  rw [Finset.mul_sum, Finset.mul_sum, ← Finset.sum_add_distrib]
  refine Finset.sum_le_sum fun k hk => ?_
  rw [← mul_sub, ← mul_sub, abs_mul, abs_mul]
  have a := hr t ht _ (hP z hz) k (Finset.mem_range.1 hk)
  refine (mul_le_mul_of_nonneg_left (mul_le_mul_of_nonneg_left a (abs_nonneg _)) (abs_nonneg _)).trans (le_of_eq ?_)
  ring

/-- **C94** for rate coefficients with errors, gas: as C86, in numbers. -/
theorem C94_gas (h : extractMechanism text = .ok m) {F G : ℝ → (Fin n → ℝ) → Fin n → ℝ}
    (hF : KineticSystem m qs A rates start h2o temp F) (hG : KineticSystem m qs A rates' start h2o temp G)
    {sim batch : ℚ} (hs : 0 < sim) (hb : 0 < batch) {K δ η ε η' ε' : ℝ} (hK : LipschitzSlope F batch P K)
    (hP : ∀ z ∈ P, 0 ≤ ((ro2Indices m.tables.index).map (stateOf z)).sum)
    (hW : TermBounds m qs A rates batch start h2o temp P W V) (he : 0 ≤ e) (hd : 0 ≤ d)
    (hr : RatesWithin e d batch qs.length start h2o temp rates rates') {times times' : List ℚ}
    {rows rows' : List (Fin n → ℝ)} (hrun : TwoRuns P F G sim batch δ η ε η' ε' times times' rows rows') :
    RowsWithin (fun t k => apartBy K (e * W + d * V) δ η ε η' ε' t k) times times' rows rows' := by
  choose nm hnm using hF.species h
  refine C94_runs hs hb hK ⟨add_nonneg (mul_nonneg he hW.nonneg.1) (mul_nonneg hd hW.nonneg.2), fun s hs z hz i => ?_⟩ hrun
  rw [hF.value _ i (hnm i), hG.value _ i (hnm i)]
  exact kineticValue_explicit hW he hd hP hr hs hz (hnm i)

/-- **C94** for rate coefficients with errors, particles. -/
theorem C94_aerosol (h : extractMechanism text = .ok m) (hq : Reads text m.equations.toNat qs)
    {L : Aerosol.Layout} {C : AeroConst} (hns : L.numSpecies = m.tables.species.length + 1) {cores cores' : Option ℕ}
    {F G : ℝ → (Fin n → ℝ) → Fin n → ℝ} (hF : AerosolSystem m cores L C rates start h2o F)
    (hG : AerosolSystem m cores' L C rates' start h2o G)
    {sim batch : ℚ} (hs : 0 < sim) (hb : 0 < batch) {K δ η ε η' ε' : ℝ} (hK : LipschitzSlope F batch P K)
    (hP : ∀ z ∈ P, 0 ≤ ((ro2Indices m.tables.index).map (stateOf z)).sum)
    (hW : TermBounds m qs (netFortran m.tables) rates batch start h2o C.temp P W V) (he : 0 ≤ e) (hd : 0 ≤ d)
    (hr : RatesWithin e d batch qs.length start h2o C.temp rates rates') {times times' : List ℚ}
    {rows rows' : List (Fin n → ℝ)} (hrun : TwoRuns P F G sim batch δ η ε η' ε' times times' rows rows') :
    RowsWithin (fun t k => apartBy K (e * W + d * V) δ η ε η' ε' t k) times times' rows rows' := by
  obtain ⟨sp, hsp, -⟩ := index_sum h hq rfl
  have h0 : 0 ≤ e * W + d * V := add_nonneg (mul_nonneg he hW.nonneg.1) (mul_nonneg hd hW.nonneg.2)
  refine C94_runs hs hb hK ⟨h0, fun s hs z hz i => ?_⟩ hrun
  rw [(hF.mixed h hq hns hsp).entry, (hG.mixed h hq hns hsp).entry, add_sub_add_right_eq_sub]
  by_cases hi : (i : ℕ) < L.numSpecies - 1
  · have hi' : (i : ℕ) < m.tables.species.length := by omega
    rw [if_pos hi, if_pos hi, gasPart, gasPart, dif_pos hi', dif_pos hi']
    exact kineticValue_explicit hW he hd hP hr hs hz ((hsp ⟨i, hi'⟩ _).2 rfl)
  · rw [if_neg hi, if_neg hi, sub_self, abs_zero]
    exact h0

end

section

variable {text : Str} {m : Mechanism} {qs : List RawEqn} {lang : Lang} {rates : Rates}
  {start h2o temp : ℝ} {n : ℕ} {P : Set (Fin n → ℝ)} {T W V Λ S e d : ℝ}

/-- The error of the slopes from rounding. -/
noncomputable def Spec.slopeError (e d W V Λ S : ℝ) : ℝ :=
  e * ((2 + e) * W + (1 + e) ^ 2 * (Λ * S)) + (1 + e) * (d * V)

theorem slopeError_nonneg (he : 0 ≤ e) (hd : 0 ≤ d) (hW : 0 ≤ W) (hV : 0 ≤ V) (hΛ : 0 ≤ Λ) (hS : 0 ≤ S) :
    0 ≤ slopeError e d W V Λ S := by
  unfold slopeError
  positivity

/-- The slope of a species for an imprecise right-hand side. -/
theorem imprecise_explicit (hrn : ∀ t ∈ Ico 0 T, ∀ r k, 0 ≤ r → 0 ≤ rates (start + t) r h2o temp k)
    (hP : ∀ z ∈ P, 0 ≤ ((ro2Indices m.tables.index).map (stateOf z)).sum)
    (hW : TermBounds m qs (grossIn lang m.tables) rates T start h2o temp P W V)
    (hΛ : RadicalBounds lang m qs rates T start h2o temp P Λ S) (he : 0 ≤ e) (he1 : e ≤ 1) (hd : 0 ≤ d)
    {G : ℝ → (Fin n → ℝ) → Fin n → ℝ} (hG : Imprecise lang m qs rates T start h2o temp P e d G) {t : ℝ}
    (ht : t ∈ Ico 0 T) {z : Fin n → ℝ} (hz : z ∈ P) {s : Str} {i : Fin n} (hi : m.tables.index.get? s = some (i : ℕ)) :
    |G t z i - kineticValue m qs (netIn lang m.tables) rates start h2o temp s t (stateOf z)| ≤
      slopeError e d W V Λ S := by
  obtain ⟨r, k, hr0, hrd, hk, hslope⟩ := hG t ht z hz
  obtain ⟨g1, g2⟩ := hslope s i hi
  unfold kineticValue
  by_cases hx : s ∈ heldConstant
  · rw [if_pos hx, g1 hx, sub_self, abs_zero]
    exact slopeError_nonneg he hd hW.nonneg.1 hW.nonneg.2 hΛ.nonneg.1 hΛ.nonneg.2
  rw [if_neg hx]
  set r0 := ((ro2Indices m.tables.index).map (stateOf z)).sum
  have hg : ∀ j, 0 ≤ grossIn lang m.tables s j := fun j => add_nonneg (abs_nonneg _) (abs_nonneg _)
  have w1 := hW.rate t ht z hz s i hi
  have w2 := hW.product z hz s i hi
  have hrS : |r - r0| ≤ e * S := hrd.trans (mul_le_mul_of_nonneg_left (hΛ.size z hz) he)
  have w3 := hΛ.change t ht z hz s i hi r hr0 (hrS.trans (mul_le_of_le_one_left hΛ.nonneg.2 he1))
  have w4 : Λ * |r - r0| ≤ Λ * (e * S) :=
    mul_le_mul_of_nonneg_left hrS hΛ.nonneg.1
  simp only [abs_of_nonneg (hg _)] at w1 w2
  set Q := fun j => reactionProduct qs m.tables (stateOf z) j
  -- the sums with the exact rates, without them, and of the changes
  have h1 : |tendency lang m.tables qs.length s (fun j => Q j * k j) - ∑ j ∈ Finset.range qs.length,
      netIn lang m.tables s j * (Q j * rates (start + t) r0 h2o temp j)| ≤
      ∑ j ∈ Finset.range qs.length, grossIn lang m.tables s j * (|Q j| * |k j - rates (start + t) r0 h2o temp j|) := by
    unfold tendency
    rw [← Finset.sum_sub_distrib]
    refine (Finset.abs_sum_le_sum_abs _ _).trans (Finset.sum_le_sum fun j _ => ?_)
    unfold netIn
    rw [← mul_sub, ← mul_sub, abs_mul, abs_mul]
    exact mul_le_mul_of_nonneg_right (abs_sub _ _) (by positivity)
  have h2 : ∑ j ∈ Finset.range qs.length, grossIn lang m.tables s j * (|Q j| * |k j - rates (start + t) r0 h2o temp j|) ≤
      e * W + (1 + e) * (Λ * (e * S)) + d * V := by
    have : ∑ j ∈ Finset.range qs.length, grossIn lang m.tables s j * (|Q j| * |k j - rates (start + t) r0 h2o temp j|) ≤
        e * (∑ j ∈ Finset.range qs.length, grossIn lang m.tables s j * (|Q j| * rates (start + t) r0 h2o temp j)) +
        (1 + e) * (∑ j ∈ Finset.range qs.length, grossIn lang m.tables s j *
          (|Q j| * |rates (start + t) r h2o temp j - rates (start + t) r0 h2o temp j|)) +
        d * ∑ j ∈ Finset.range qs.length, grossIn lang m.tables s j * |Q j| := by
      rw [Finset.mul_sum, Finset.mul_sum, Finset.mul_sum, ← Finset.sum_add_distrib, ← Finset.sum_add_distrib]
      refine Finset.sum_le_sum fun j hj => ?_
      have b := hk j (Finset.mem_range.1 hj)
      have c := abs_sub_le (k j) (rates (start + t) r h2o temp j) (rates (start + t) r0 h2o temp j)
      have c' := le_abs_self (rates (start + t) r h2o temp j - rates (start + t) r0 h2o temp j)
      have key : |k j - rates (start + t) r0 h2o temp j| ≤ e * rates (start + t) r0 h2o temp j +
          (1 + e) * |rates (start + t) r h2o temp j - rates (start + t) r0 h2o temp j| + d := by
        have := mul_le_mul_of_nonneg_left c' he
        linarith
      refine (mul_le_mul_of_nonneg_left (mul_le_mul_of_nonneg_left key (abs_nonneg (Q j))) (hg j)).trans (le_of_eq ?_)
      ring
    refine this.trans (add_le_add (add_le_add (mul_le_mul_of_nonneg_left w1 he) (mul_le_mul_of_nonneg_left
      (w3.trans w4) (by linarith))) (mul_le_mul_of_nonneg_left w2 hd))
  have h3 : turnover lang m.tables qs.length s (fun j => Q j * k j) ≤ W + (e * W + (1 + e) * (Λ * (e * S)) + d * V) := by
    refine le_trans ?_ (add_le_add w1 h2)
    unfold turnover
    rw [← Finset.sum_add_distrib]
    refine Finset.sum_le_sum fun j _ => ?_
    have r1 := hrn t ht r0 j (hP z hz)
    have r2 := abs_add_le (k j - rates (start + t) r0 h2o temp j) (rates (start + t) r0 h2o temp j)
    rw [sub_add_cancel, abs_of_nonneg r1] at r2
    rw [abs_mul]
    refine (mul_le_mul_of_nonneg_left (mul_le_mul_of_nonneg_left r2 (abs_nonneg (Q j))) (hg j)).trans (le_of_eq ?_)
    ring
  refine (abs_sub_le _ (tendency lang m.tables qs.length s (fun j => Q j * k j)) _).trans
    ((add_le_add ((g2 hx).trans (mul_le_mul_of_nonneg_left h3 he)) (h1.trans h2)).trans (le_of_eq ?_))
  unfold slopeError
  ring

/-- The slopes of an imprecise right-hand side. -/
theorem C94_slope (h : extractMechanism text = .ok m) {F G : ℝ → (Fin n → ℝ) → Fin n → ℝ}
    (hF : KineticSystem m qs (netIn lang m.tables) rates start h2o temp F)
    (hrn : ∀ t ∈ Ico 0 T, ∀ r k, 0 ≤ r → 0 ≤ rates (start + t) r h2o temp k)
    (hP : ∀ z ∈ P, 0 ≤ ((ro2Indices m.tables.index).map (stateOf z)).sum)
    (hW : TermBounds m qs (grossIn lang m.tables) rates T start h2o temp P W V)
    (hΛ : RadicalBounds lang m qs rates T start h2o temp P Λ S) (he : 0 ≤ e) (he1 : e ≤ 1) (hd : 0 ≤ d)
    (hG : Imprecise lang m qs rates T start h2o temp P e d G) : SlopesWithin (slopeError e d W V Λ S) T P F G := by
  choose nm hnm using hF.species h
  refine ⟨slopeError_nonneg he hd hW.nonneg.1 hW.nonneg.2 hΛ.nonneg.1 hΛ.nonneg.2, fun s hs z hz i => ?_⟩
  rw [hF.value _ i (hnm i)]
  exact imprecise_explicit hrn hP hW hΛ he he1 hd hG hs hz (hnm i)

/-- **C94** for rounding, gas: as C88, in numbers. `Imprecise` is what `rounded_imprecise` shows about generated files. -/
theorem C94_rounded (h : extractMechanism text = .ok m) {F G : ℝ → (Fin n → ℝ) → Fin n → ℝ}
    (hF : KineticSystem m qs (netIn lang m.tables) rates start h2o temp F) {sim batch : ℚ} (hs : 0 < sim) (hb : 0 < batch)
    (hrn : ∀ t ∈ Ico 0 (batch : ℝ), ∀ r k, 0 ≤ r → 0 ≤ rates (start + t) r h2o temp k)
    {K δ η ε η' ε' : ℝ} (hK : LipschitzSlope F batch P K)
    (hP : ∀ z ∈ P, 0 ≤ ((ro2Indices m.tables.index).map (stateOf z)).sum)
    (hW : TermBounds m qs (grossIn lang m.tables) rates batch start h2o temp P W V)
    (hΛ : RadicalBounds lang m qs rates batch start h2o temp P Λ S) (he : 0 ≤ e) (he1 : e ≤ 1) (hd : 0 ≤ d)
    (hG : Imprecise lang m qs rates batch start h2o temp P e d G) {times times' : List ℚ}
    {rows rows' : List (Fin n → ℝ)} (hrun : TwoRuns P F G sim batch δ η ε η' ε' times times' rows rows') :
    RowsWithin (fun t k => apartBy K (slopeError e d W V Λ S) δ η ε η' ε' t k) times times' rows rows' :=
  C94_runs hs hb hK (C94_slope h hF hrn hP hW hΛ he he1 hd hG) hrun

end

/-! ## Generated files -/

namespace Spec

/-- The bounds that C94 needs for a gas simulation. -/
structure GasBounds (lang : Lang) (m : Mechanism) (qs : List RawEqn) (rates : Rates) (T start h2o temp : ℝ) {n : ℕ}
    (F : ℝ → (Fin n → ℝ) → Fin n → ℝ) (P : Set (Fin n → ℝ)) (K W V Λ S : ℝ) : Prop where
  lipschitz : LipschitzSlope F T P K
  terms : TermBounds m qs (grossIn lang m.tables) rates T start h2o temp P W V
  radicals : RadicalBounds lang m qs rates T start h2o temp P Λ S

end Spec

section

variable {text : Str} {m : Mechanism} {qs : List RawEqn} {num : ℚ → Str} {cores cores' cores'' : Option ℕ} {t₁ t₂ : Str}
  {L : ℕ} {start h2o temp B K W V Λ S e d δ η ε η' ε' : ℝ} {sim batch : ℚ} {n : ℕ}
  {F G : ℝ → (Fin n → ℝ) → Fin n → ℝ} {times times' : List ℚ} {rows rows' : List (Fin n → ℝ)}

/-- The slopes computed with rounding in the files of the Fortran version. -/
theorem C94_fortran_slope (h : extractMechanism text = .ok m) (hq : Reads text m.equations.toNat qs)
    (hw : Prints num id m.tables) (hx : ExactOrders qs) (hL : ∀ q ∈ qs, (names (chemReactants q)).length ≤ L) {conv : ℕ}
    (hread : ReadableRates .fortran ((convertOf .fortran)^[conv]) qs) {p : List KStmt}
    (hp : kProgram (ratesFile .fortran cores ((convertTable (convertOf .fortran))^[conv] m.tables.rate)) = some p)
    {p' : List Rl.Stmt}
    (hp' : program .fortran (ratesFile .fortran cores' ((convertTable (convertOf .fortran))^[conv] m.tables.rate))
      = some p') {junk : Vals} (hjunk : ∀ e, 0 ≤ junk (Backend.fortran.rateVar e))
    (hnn : NonnegRates .fortran ((convertOf .fortran)^[conv]) qs h2o temp)
    (h1 : 200 ≤ temp) (h2 : temp ≤ 330) (hh : 0 ≤ h2o)
    (ht : 0 ≤ start) (ht' : start + batch ≤ 1000000000)
    (hF : GasSystemF m cores'' (generatedRates .fortran p' junk) start h2o temp F)
    (hB : GasBounds .fortran m qs (generatedRates .fortran p' junk) batch start h2o temp F (radicalStates m n B) K W V Λ S)
    (he : 0 ≤ e) (he1 : e ≤ 1) (hd : 0 ≤ d) (hu : RoundingUnits m .fortran L e) {e' d' : ℚ} (hee : e' ≤ e) (hdd : d' ≤ d)
    (hsm : ∀ q ∈ qs, SmallMixed e' d' ((convertOf .fortran)^[conv] q.rate)) (htx : GasTexts m cores num t₁ t₂ .fortran)
    (hG : RoundedFortran m p t₁ t₂ batch start h2o temp (radicalStates m n B) G) :
    SlopesWithin (slopeError e d W V Λ S) batch (radicalStates m n B) F G := by
  have hr := C66_piecewise h hq (by decide) hread hp' hjunk start hnn
  refine C94_slope (lang := .fortran) h (hF.kinetic h hq) (fun t _ r k hr0 => (hr k).1 t r hr0)
    (fun z hz => hz.2) hB.terms hB.radicals he he1 hd (rounded_imprecise h hq hw hx hL htx hu ?_)
  intro t hT z hz
  obtain ⟨r, junk', env, out, g1, g2, g3, g4, g5⟩ := hG t hT z hz
  refine ⟨r, fun j => env (Backend.fortran.rateVar j), out, g1, g2, fun j hj => ?_, g4, g5⟩
  have hkq : qs[j]? = some qs[j] := List.getElem?_eq_getElem hj
  obtain ⟨x, hx, -⟩ := hread _ (List.getElem_mem hj)
  obtain ⟨_, f1, f2⟩ := C66_value h hq (b := .fortran) (by decide) cores' hread
  rw [hp'] at f1
  obtain rfl := Option.some.inj f1
  rw [(f2 junk temp (start + t) r h2o).1 j _ x hkq hx]
  obtain ⟨c1, c2⟩ := C85_rates h hq hread hp h1 h2 g2 hh (by linarith [hT.1]) (by linarith [hT.2]) g3 hkq hx
    (hsm _ (List.getElem_mem hj))
  exact c2.trans (add_le_add (mul_le_mul_of_nonneg_right hee c1) hdd)

/-- **C94**, Fortran version: rounding in the rate file and the gas routines, as C88, in numbers. -/
theorem C94_fortran (h : extractMechanism text = .ok m) (hq : Reads text m.equations.toNat qs)
    (hw : Prints num id m.tables) (hx : ExactOrders qs) (hL : ∀ q ∈ qs, (names (chemReactants q)).length ≤ L) {conv : ℕ}
    (hread : ReadableRates .fortran ((convertOf .fortran)^[conv]) qs) {p : List KStmt}
    (hp : kProgram (ratesFile .fortran cores ((convertTable (convertOf .fortran))^[conv] m.tables.rate)) = some p)
    {p' : List Rl.Stmt}
    (hp' : program .fortran (ratesFile .fortran cores' ((convertTable (convertOf .fortran))^[conv] m.tables.rate))
      = some p') {junk : Vals} (hjunk : ∀ e, 0 ≤ junk (Backend.fortran.rateVar e))
    (hnn : NonnegRates .fortran ((convertOf .fortran)^[conv]) qs h2o temp)
    (h1 : 200 ≤ temp) (h2 : temp ≤ 330) (hh : 0 ≤ h2o) (hs : 0 < sim) (hb : 0 < batch)
    (ht : 0 ≤ start) (ht' : start + batch ≤ 1000000000)
    (hF : GasSystemF m cores'' (generatedRates .fortran p' junk) start h2o temp F)
    (hB : GasBounds .fortran m qs (generatedRates .fortran p' junk) batch start h2o temp F (radicalStates m n B) K W V Λ S)
    (he : 0 ≤ e) (he1 : e ≤ 1) (hd : 0 ≤ d) (hu : RoundingUnits m .fortran L e) {e' d' : ℚ} (hee : e' ≤ e) (hdd : d' ≤ d)
    (hsm : ∀ q ∈ qs, SmallMixed e' d' ((convertOf .fortran)^[conv] q.rate)) (htx : GasTexts m cores num t₁ t₂ .fortran)
    (hG : RoundedFortran m p t₁ t₂ batch start h2o temp (radicalStates m n B) G)
    (hrun : TwoRuns (radicalStates m n B) F G sim batch δ η ε η' ε' times times' rows rows') :
    RowsWithin (fun t k => apartBy K (slopeError e d W V Λ S) δ η ε η' ε' t k) times times' rows rows' :=
  C94_runs hs hb hB.lipschitz (C94_fortran_slope h hq hw hx hL hread hp hp' hjunk hnn h1 h2 hh ht ht' hF hB he he1 hd hu
    hee hdd hsm htx hG) hrun

/-- The slopes computed with rounding in the files of the Python version. -/
theorem C94_python_slope (h : extractMechanism text = .ok m) (hq : Reads text m.equations.toNat qs)
    (hw : Prints num id m.tables) (hx : ExactOrders qs) (hL : ∀ q ∈ qs, (names (chemReactants q)).length ≤ L) {conv : ℕ}
    (hread : ReadableRates .numba ((convertOf .numba)^[conv]) qs) {p : List Rl.Stmt}
    (hp : program .numba (ratesFile .numba cores ((convertTable (convertOf .numba))^[conv] m.tables.rate)) = some p)
    {k : List KStmt} (hk : InDouble p k) {junk : Vals} (hjunk : ∀ e, 0 ≤ junk (Backend.numba.rateVar e))
    (hnn : NonnegRates .numba ((convertOf .numba)^[conv]) qs h2o temp)
    (h1 : 200 ≤ temp) (h2 : temp ≤ 330) (hh : 0 ≤ h2o)
    (ht : 0 ≤ start) (ht' : start + batch ≤ 1000000000)
    (hF : GasSystem m (generatedRates .numba p junk) start h2o temp F)
    (hB : GasBounds .python m qs (generatedRates .numba p junk) batch start h2o temp F (radicalStates m n B) K W V Λ S)
    (he : 0 ≤ e) (he1 : e ≤ 1) (hd : 0 ≤ d) (hu : RoundingUnits m .python L e) {e' d' : ℚ} (hee : e' ≤ e) (hdd : d' ≤ d)
    (hsm : ∀ q ∈ qs, SmallDouble e' d' ((convertOf .numba)^[conv] q.rate)) (htx : GasTexts m none num t₁ t₂ .python)
    (hG : RoundedNumba m k t₁ t₂ batch start h2o temp (radicalStates m n B) G) :
    SlopesWithin (slopeError e d W V Λ S) batch (radicalStates m n B) F G := by
  have hr := C66_piecewise h hq (by decide) hread hp hjunk start hnn
  refine C94_slope (lang := .python) h (hF.kinetic h hq) (fun t _ r k hr0 => (hr k).1 t r hr0)
    (fun z hz => hz.2) hB.terms hB.radicals he he1 hd (rounded_imprecise h hq hw hx hL htx hu ?_)
  intro t hT z hz
  obtain ⟨r, junk', env, out, g1, g2, g3, g4, g5⟩ := hG t hT z hz
  refine ⟨r, fun j => env (Backend.numba.rateVar j), out, g1, g2, fun j hj => ?_, g4, g5⟩
  have hkq : qs[j]? = some qs[j] := List.getElem?_eq_getElem hj
  obtain ⟨x, hx, -⟩ := hread _ (List.getElem_mem hj)
  obtain ⟨_, f1, f2⟩ := C66_value h hq (b := .numba) (by decide) cores hread
  rw [hp] at f1
  obtain rfl := Option.some.inj f1
  rw [(f2 junk temp (start + t) r h2o).1 j _ x hkq hx]
  obtain ⟨c1, c2⟩ := C91_rates h hq hread hp hk h1 h2 g2 hh (by linarith [hT.1]) (by linarith [hT.2]) g3 hkq hx
    (hsm _ (List.getElem_mem hj))
  exact c2.trans (add_le_add (mul_le_mul_of_nonneg_right hee c1) hdd)

/-- **C94**, Python version: as C91, in numbers. -/
theorem C94_python (h : extractMechanism text = .ok m) (hq : Reads text m.equations.toNat qs)
    (hw : Prints num id m.tables) (hx : ExactOrders qs) (hL : ∀ q ∈ qs, (names (chemReactants q)).length ≤ L) {conv : ℕ}
    (hread : ReadableRates .numba ((convertOf .numba)^[conv]) qs) {p : List Rl.Stmt}
    (hp : program .numba (ratesFile .numba cores ((convertTable (convertOf .numba))^[conv] m.tables.rate)) = some p)
    {k : List KStmt} (hk : InDouble p k) {junk : Vals} (hjunk : ∀ e, 0 ≤ junk (Backend.numba.rateVar e))
    (hnn : NonnegRates .numba ((convertOf .numba)^[conv]) qs h2o temp)
    (h1 : 200 ≤ temp) (h2 : temp ≤ 330) (hh : 0 ≤ h2o) (hs : 0 < sim) (hb : 0 < batch)
    (ht : 0 ≤ start) (ht' : start + batch ≤ 1000000000)
    (hF : GasSystem m (generatedRates .numba p junk) start h2o temp F)
    (hB : GasBounds .python m qs (generatedRates .numba p junk) batch start h2o temp F (radicalStates m n B) K W V Λ S)
    (he : 0 ≤ e) (he1 : e ≤ 1) (hd : 0 ≤ d) (hu : RoundingUnits m .python L e) {e' d' : ℚ} (hee : e' ≤ e) (hdd : d' ≤ d)
    (hsm : ∀ q ∈ qs, SmallDouble e' d' ((convertOf .numba)^[conv] q.rate)) (htx : GasTexts m none num t₁ t₂ .python)
    (hG : RoundedNumba m k t₁ t₂ batch start h2o temp (radicalStates m n B) G)
    (hrun : TwoRuns (radicalStates m n B) F G sim batch δ η ε η' ε' times times' rows rows') :
    RowsWithin (fun t k => apartBy K (slopeError e d W V Λ S) δ η ε η' ε' t k) times times' rows rows' :=
  C94_runs hs hb hB.lipschitz (C94_python_slope h hq hw hx hL hread hp hk hjunk hnn h1 h2 hh ht ht' hF hB he he1 hd hu
    hee hdd hsm htx hG) hrun

end

/-! ## There are such bounds -/

section

variable {text : Str} {m : Mechanism} {qs : List RawEqn} {lang : Lang} {rates : Rates}
  {start h2o temp : ℝ} {n : ℕ} {P : Set (Fin n → ℝ)} {R : ℝ}

/-- The bounds of C94 exist for every bounded set of states. -/
theorem C94_terms (h : extractMechanism text = .ok m) (hq : Reads text m.equations.toNat qs) (h1 : WholeReactants qs)
    (hr : PiecewiseRates rates start h2o temp) (hR : 0 ≤ R)
    (hB : SizeAtMost R P) (hP : ∀ z ∈ P, 0 ≤ ((ro2Indices m.tables.index).map (stateOf z)).sum) (T : ℝ)
    (A : Str → ℕ → ℝ) : ∃ W V, TermBounds m qs A rates T start h2o temp P W V := by
  obtain ⟨sp, hsp, -⟩ := index_sum h hq rfl
  have hname : ∀ s i, m.tables.index.get? s = some i → ∃ j, s = sp j := fun s i hs =>
    ⟨⟨i, index_lt h hs⟩, (hsp ⟨i, index_lt h hs⟩ s).1 hs⟩
  choose K1 M1 hK1 hM1 H1 using fun k => product_setLip (A := Icc 0 (max T 0)) h1 hR hB m.tables k
  choose K2 M2 hK2 hM2 H2 using fun k => rates_setLip (T := T) hr hR hB (ro2Indices m.tables.index) k
  have n1 : ∀ j, 0 ≤ ∑ k ∈ Finset.range qs.length, |A (sp j) k| * (M1 k * M2 k) := fun j =>
    Finset.sum_nonneg fun k _ => mul_nonneg (abs_nonneg _) (mul_nonneg (hM1 k) (hM2 k))
  have n2 : ∀ j, 0 ≤ ∑ k ∈ Finset.range qs.length, |A (sp j) k| * M1 k := fun j =>
    Finset.sum_nonneg fun k _ => mul_nonneg (abs_nonneg _) (hM1 k)
  refine ⟨∑ j, ∑ k ∈ Finset.range qs.length, |A (sp j) k| * (M1 k * M2 k),
    ∑ j, ∑ k ∈ Finset.range qs.length, |A (sp j) k| * M1 k, fun t ht z hz s i hs => ?_, fun z hz s i hs => ?_,
    Finset.sum_nonneg fun j _ => n1 j, Finset.sum_nonneg fun j _ => n2 j⟩
  · obtain ⟨j, rfl⟩ := hname s i hs
    refine le_trans (Finset.sum_le_sum fun k _ => ?_) (Finset.single_le_sum (fun j _ => n1 j) (Finset.mem_univ j))
    have a1 := (H1 k 0 ⟨le_rfl, le_max_right _ _⟩ z hz).1
    have a2 := (le_abs_self _).trans (H2 k t (Ico_subset_Icc_self ht) z hz).1
    exact mul_le_mul_of_nonneg_left (mul_le_mul a1 a2 ((hr k).1 t _ (hP z hz)) (hM1 k)) (abs_nonneg _)
  · obtain ⟨j, rfl⟩ := hname s i hs
    refine le_trans (Finset.sum_le_sum fun k _ => ?_) (Finset.single_le_sum (fun j _ => n2 j) (Finset.mem_univ j))
    exact mul_le_mul_of_nonneg_left (H1 k 0 ⟨le_rfl, le_max_right _ _⟩ z hz).1 (abs_nonneg _)

theorem C94_radicals (h : extractMechanism text = .ok m) (hq : Reads text m.equations.toNat qs) (h1 : WholeReactants qs)
    (hr : PiecewiseRates rates start h2o temp) (hR : 0 ≤ R) (hB : SizeAtMost R P) (T : ℝ) (lang : Lang) :
    ∃ Λ S, RadicalBounds lang m qs rates T start h2o temp P Λ S := by
  obtain ⟨sp, hsp, -⟩ := index_sum h hq rfl
  have hname : ∀ s i, m.tables.index.get? s = some i → ∃ j, s = sp j := fun s i hs =>
    ⟨⟨i, index_lt h hs⟩, (hsp ⟨i, index_lt h hs⟩ s).1 hs⟩
  choose K1 M1 hK1 hM1 H1 using fun k => product_setLip (A := Icc 0 (max T 0)) h1 hR hB m.tables k
  set S : ℝ := (ro2Indices m.tables.index).length * R
  have hS0 : 0 ≤ S := by positivity
  have hS : ∀ z ∈ P, ((ro2Indices m.tables.index).map fun i => |stateOf z i|).sum ≤ S := fun z hz =>
    sizes_le hR (hB z hz) _
  choose K2 M2 H2 using fun k => (hr k).2.2 (max |T| (2 * S))
  have hg : ∀ s k, 0 ≤ grossIn lang m.tables s k := fun s k => add_nonneg (abs_nonneg _) (abs_nonneg _)
  have n1 : ∀ j, 0 ≤ ∑ k ∈ Finset.range qs.length, grossIn lang m.tables (sp j) k * (M1 k * |K2 k|) := fun j =>
    Finset.sum_nonneg fun k _ => mul_nonneg (hg _ _) (mul_nonneg (hM1 k) (abs_nonneg _))
  refine ⟨∑ j, ∑ k ∈ Finset.range qs.length, grossIn lang m.tables (sp j) k * (M1 k * |K2 k|), S, hS,
    fun t ht z hz s i hs r hr0 hrS => ?_, Finset.sum_nonneg fun j _ => n1 j, hS0⟩
  obtain ⟨j, rfl⟩ := hname s i hs
  set r0 := ((ro2Indices m.tables.index).map (stateOf z)).sum
  have hsu : |r0| ≤ S := (abs_sum_le (ro2Indices m.tables.index) (stateOf z)).trans (hS z hz)
  refine le_trans ?_ (mul_le_mul_of_nonneg_right (Finset.single_le_sum (fun j _ => n1 j) (Finset.mem_univ j))
    (abs_nonneg _))
  rw [Finset.sum_mul]
  refine Finset.sum_le_sum fun k _ => ?_
  have a1 := (H1 k 0 ⟨le_rfl, le_max_right _ _⟩ z hz).1
  have hts : |t| ≤ max |T| (2 * S) := (abs_le_abs_of_nonneg ht.1 ht.2.le).trans (le_max_left _ _)
  have hr' : |r| ≤ max |T| (2 * S) := by
    refine le_trans ?_ (le_max_right _ _)
    have := abs_sub_abs_le_abs_sub r r0
    linarith
  have a2 := (H2 k t r r0 hts hr' (hsu.trans ((by linarith : S ≤ 2 * S).trans (le_max_right _ _)))).2
  rw [mul_assoc, mul_assoc]
  refine mul_le_mul_of_nonneg_left (mul_le_mul a1 (a2.trans ?_) (abs_nonneg _) (hM1 k)) (hg _ _)
  exact mul_le_mul_of_nonneg_right (le_abs_self _) (abs_nonneg _)

/-- A Lipschitz constant exists. -/
theorem C94_lipschitz {F : ℝ → (Fin n → ℝ) → Fin n → ℝ} {T : ℝ} (h : ∀ i, SetLip (Icc 0 T) P (fun s z => F s z i)) :
    ∃ K, LipschitzSlope F T P K := by
  obtain ⟨K, _, hK⟩ := SetLip.components h
  refine ⟨K, K.2, fun s hs z hz z' hz' D hD i => ?_⟩
  have h1 := (hK s (Ico_subset_Icc_self hs)).1.dist_le_mul z hz z' hz'
  rw [← Real.dist_eq]
  refine (dist_le_pi_dist _ _ i).trans (h1.trans (mul_le_mul_of_nonneg_left ?_ K.2))
  exact (dist_pi_le_iff ((abs_nonneg _).trans (hD i))).2 fun i => by rw [Real.dist_eq]; exact hD i

theorem C94_lipschitz_gas (h : extractMechanism text = .ok m) {A : Str → ℕ → ℝ} {F : ℝ → (Fin n → ℝ) → Fin n → ℝ}
    (hF : KineticSystem m qs A rates start h2o temp F) (h1 : WholeReactants qs)
    (hr : PiecewiseRates rates start h2o temp) (hR : 0 ≤ R) (hB : SizeAtMost R P) (T : ℝ) :
    ∃ K, LipschitzSlope F T P K := by
  choose nm hnm using hF.species h
  exact C94_lipschitz fun i => by
    simp only [hF.value _ i (hnm i)]
    exact kineticValue_setLip h1 hr hR hB (nm i)

/-- All of the bounds of C94 exist for a gas simulation. -/
theorem C94_bounds (h : extractMechanism text = .ok m) (hq : Reads text m.equations.toNat qs)
    {F : ℝ → (Fin n → ℝ) → Fin n → ℝ} (hF : KineticSystem m qs (netIn lang m.tables) rates start h2o temp F)
    (h1 : WholeReactants qs) (hr : PiecewiseRates rates start h2o temp) (T B : ℝ) :
    ∃ K W V Λ S, GasBounds lang m qs rates T start h2o temp F (radicalStates m n B) K W V Λ S := by
  have hB := radicalStates_size m n B
  obtain ⟨K, hK⟩ := C94_lipschitz_gas h hF h1 hr (abs_nonneg B) hB T
  obtain ⟨W, V, hW⟩ := C94_terms h hq h1 hr (abs_nonneg B) hB (fun z hz => hz.2) T (grossIn lang m.tables)
  obtain ⟨Λ, S, hΛ⟩ := C94_radicals h hq h1 hr (abs_nonneg B) hB T lang
  exact ⟨K, W, V, Λ, S, hK, hW, hΛ⟩

theorem C94_lipschitz_aerosol (h : extractMechanism text = .ok m) (hq : Reads text m.equations.toNat qs)
    {L : Aerosol.Layout} {C : AeroConst} (hns : L.numSpecies = m.tables.species.length + 1) {cores : Option ℕ}
    {F : ℝ → (Fin n → ℝ) → Fin n → ℝ} (hL : GoodLayout L) (hC : PhysConst L C) (h1 : WholeReactants qs)
    (hr : PiecewiseRates rates start h2o C.temp) (hF : AerosolSystem m cores L C rates start h2o F) (T : ℝ) {B : ℝ}
    (hB : 0 ≤ B) : ∃ K, LipschitzSlope F T {z | ∀ i, 0 ≤ z i ∧ z i ≤ B} K :=
  C94_lipschitz ((hF.boxPieces h hq hns hL hC h1 hr).lip T B hB)

end

/-! ## The bound is attained -/

/-- Two exact runs of `y' = K y` from states `δ` apart: nothing smaller than the bound of C94 would do. -/
theorem C94_sharp (K δ : ℝ) (hK : 0 ≤ K) (hδ : 0 ≤ δ) : ∃ (F : ℝ → (Fin 1 → ℝ) → Fin 1 → ℝ) (rows rows' : List (Fin 1 → ℝ)),
    LipschitzSlope F ((60 : ℚ) : ℝ) univ K ∧ SlopesWithin 0 ((60 : ℚ) : ℝ) univ F F ∧
    TwoRuns univ F F 120 60 δ 0 0 0 0 [60, 120] [60, 120] rows rows' ∧
    ∀ (k : ℕ) (t : ℚ) (row row' : Fin 1 → ℝ), [60, 120][k]? = some t → rows[k]? = some row → rows'[k]? = some row' →
      |row' 0 - row 0| = apartBy K 0 δ 0 0 0 0 t (k + 1) := by
  have ht : (List.range 2).map (fun k : ℕ => ((k : ℚ) + 1) * 60) = [60, 120] := by decide +kernel
  have hrun := fun solve y0 => C32_C33_whole_batches (n := 2) (batch := 60) (by norm_num) (by norm_num)
    (exact_id 60 2) solve (fun _ => (0 : ℝ)) (y0 : Fin 1 → ℝ)
  rw [ht] at hrun
  simp only [show (((2 : ℕ) : ℚ) * 60) = 120 by norm_num] at hrun
  set solve : (Fin 1 → ℝ) → ℚ → Fin 1 → ℝ := fun y t i => Real.exp (K * (t : ℝ)) * y i
  have hafter : ∀ (y0 : Fin 1 → ℝ) k, afterBatches solve 60 y0 k = fun i => Real.exp (K * (k * 60)) * y0 i := by
    intro y0 k
    induction k with
    | zero => simp [afterBatches]
    | succ k ih =>
      have : afterBatches solve 60 y0 (k + 1) = solve (afterBatches solve 60 y0 k) 60 := by
        simp [afterBatches, Function.iterate_succ_apply']
      rw [this, ih]
      funext i
      simp only [solve]
      rw [← mul_assoc, ← Real.exp_add]
      push_cast
      rw [show K * 60 + K * (k * 60) = K * ((k + 1) * 60) by ring]
  have hnear : ∀ y0 k, NearBatchesIn univ (fun _ z i => K * z i) 0 0 solve 60 y0 k := by
    intro y0 k j hj
    refine ⟨fun t i => Real.exp (K * t) * afterBatches solve 60 y0 j i, by simp, ⟨?_, ∅, finite_empty, fun t ht _ =>
      ⟨fun i => K * (Real.exp (K * t) * afterBatches solve 60 y0 j i), ?_, by simp⟩⟩, fun _ _ => mem_univ _, ?_⟩
    · exact (continuous_pi fun i => by fun_prop).continuousOn
    · refine (hasDerivAt_pi.2 fun i => ?_).hasDerivWithinAt
      have h1 : HasDerivAt (fun t : ℝ => Real.exp (K * t)) (Real.exp (K * t) * (K * 1)) t :=
        ((hasDerivAt_id t).const_mul K).exp
      have h2 := h1.mul_const (afterBatches solve 60 y0 j i)
      rwa [show Real.exp (K * t) * (K * 1) * afterBatches solve 60 y0 j i =
        K * (Real.exp (K * t) * afterBatches solve 60 y0 j i) by ring] at h2
    · have : afterBatches solve 60 y0 (j + 1) = solve (afterBatches solve 60 y0 j) 60 := by
        simp [afterBatches, Function.iterate_succ_apply']
      rw [this]
      simp [solve]
  refine ⟨fun _ z i => K * z i, _, _, ⟨hK, fun s _ z _ z' _ D hD i => ?_⟩, ⟨le_rfl, fun s _ z _ i => by simp⟩,
    ⟨⟨solve, _, fun _ => 0, solve, _, fun _ => δ, hrun _ _, hrun _ _, fun i => by simp [abs_of_nonneg hδ], hnear _ _,
      hnear _ _⟩, hδ, ⟨le_rfl, le_rfl⟩, le_rfl, le_rfl⟩, fun k t row row' hk hr hr' => ?_⟩
  · rw [← mul_sub, abs_mul, abs_of_nonneg hK]
    exact mul_le_mul_of_nonneg_left (hD i) hK
  · obtain ⟨hk2, rfl⟩ := List.getElem?_eq_some_iff.1 hr
    obtain ⟨hk2', rfl⟩ := List.getElem?_eq_some_iff.1 hr'
    simp only [List.length_map, List.length_range] at hk2
    simp only [List.getElem_map, List.getElem_range, hafter]
    rw [← ht, List.getElem?_map, List.getElem?_range hk2] at hk
    obtain rfl := Option.some.inj hk
    unfold apartBy
    rw [mul_zero, sub_zero, abs_of_nonneg (mul_nonneg (Real.exp_pos _).le hδ)]
    push_cast
    simp

/-- For `radicalText` with the Fortran files of the example of `C88_fortran`: bounds exist, and with them the rows of any
run with rounding are within the bound of C94, whatever the rounding errors. -/
theorem radical_explicit : ∃ (p : List KStmt) (p' : List Rl.Stmt) (F : ℝ → (Fin 5 → ℝ) → Fin 5 → ℝ),
    kProgram (ratesFile .fortran (some 2) ((convertTable (convertOf .fortran))^[2] (build radicalReactions).rate)) = some p ∧
    GasSystemF ⟨build radicalReactions, 2⟩ none (generatedRates .fortran p' fun _ => 0) 43200 0 298.15 F ∧
    ∀ B : ℝ, ∃ K W V Λ S, GasBounds .fortran ⟨build radicalReactions, 2⟩ radicalReactions
        (generatedRates .fortran p' fun _ => 0) ((60 : ℚ) : ℝ) 43200 0 298.15 F
        (radicalStates ⟨build radicalReactions, 2⟩ 5 B) K W V Λ S ∧
      ∀ (G : ℝ → (Fin 5 → ℝ) → Fin 5 → ℝ) (δ η ε η' ε' : ℝ) (times times' : List ℚ) (rows rows' : List (Fin 5 → ℝ)),
        RoundedFortran ⟨build radicalReactions, 2⟩ p radicalFortran.reactants radicalFortran.lossGain ((60 : ℚ) : ℝ)
          43200 0 298.15 (radicalStates ⟨build radicalReactions, 2⟩ 5 B) G →
        TwoRuns (radicalStates ⟨build radicalReactions, 2⟩ 5 B) F G 120 60 δ η ε η' ε' times times' rows rows' →
        RowsWithin (fun t k => apartBy K (slopeError 1e-6 4.66e-7 W V Λ S) δ η ε η' ε' t k) times times' rows rows' := by
  obtain ⟨-, c2, -⟩ := radical_rates
  obtain ⟨f1, f2⟩ := rateTextCheck_reads c2
  obtain ⟨l, hp, -⟩ := kRate_file radical_parses radical_reads (some 2) f1
  obtain ⟨p', hp', -⟩ := C66_value radical_parses radical_reads (b := .fortran) (by decide) (some 2) f1
  obtain ⟨F, hF⟩ := radical_systemF none (generatedRates .fortran p' fun _ => 0) 43200 0 298.15
  have hnn := C66_nonneg (h2o := 0) (temp := 298.15) (by decide) f1 f2 (by norm_num) le_rfl
  refine ⟨_, p', F, hp, hF, fun B => ?_⟩
  obtain ⟨K, W, V, Λ, S, hB⟩ := C94_bounds (lang := .fortran) radical_parses radical_reads
    (hF.kinetic radical_parses radical_reads) radical_positive.2
    (C66_piecewise radical_parses radical_reads (by decide) f1 hp' (junk := fun _ => 0) (fun _ => le_rfl) 43200 hnn)
    ((60 : ℚ) : ℝ) B
  refine ⟨K, W, V, Λ, S, hB, fun G δ η ε η' ε' times times' rows rows' hG hrun => ?_⟩
  exact C94_fortran (L := 2) radical_parses radical_reads radical_prints radical_orders (by decide +kernel) f1 hp hp'
    (junk := fun _ => 0) (fun _ => le_rfl) hnn (by norm_num) (by norm_num) le_rfl (by norm_num) (by norm_num) (by norm_num)
    (by norm_num) hF hB (by norm_num) (by norm_num) (by norm_num) radical_units (e' := 1e-6) (d' := 4.66e-7)
    (by push_cast; norm_num) (by push_cast; norm_num) radical_small radical_texts hG hrun

end PyBox
