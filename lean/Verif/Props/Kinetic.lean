import Verif.Sim.Tame
import Verif.Props.Rhs

/-!
# Systems with the form of reaction kinetics

The Python and the Fortran version of the gas phase hand functions of the same form to the solver:
every reaction adds its rate times a number of its own to every species. This file treats the form;
`Props/Invariants.lean` and `Props/WellPosed.lean` apply it to the generated programs.
-/

namespace PyBox

open Set Spec

namespace Spec

/-- A state vector as the array the generated routines read. -/
def stateOf {n : ℕ} (y : Fin n → ℝ) : ℕ → ℝ := fun i => if h : i < n then y ⟨i, h⟩ else 0

/-- Weighted total of a state: `w s` is for instance the number of nitrogen atoms of species `s`. -/
noncomputable def weightedTotal (m : Mechanism) (w : Str → ℝ) (y : ℕ → ℝ) : ℝ :=
  (m.tables.index.map (fun p => w p.1 * y p.2)).sum

/-- What is required of the rate coefficients: not negative, and Lipschitz in the peroxy radicals,
near every radical total and from every time on for a while. -/
def RegularRates (rates : Rates) (start h2o temp : ℝ) : Prop :=
  ∀ (e : ℕ) (time ro2 : ℝ), 0 ≤ ro2 → 0 ≤ rates (start + time) ro2 h2o temp e ∧
    ∃ K M ε : ℝ, 0 < ε ∧ ∀ s ∈ Ico time (time + ε), ∀ r r', |r - ro2| < ε → |r' - ro2| < ε →
      |rates (start + s) r h2o temp e| ≤ M ∧
      |rates (start + s) r h2o temp e - rates (start + s) r' h2o temp e| ≤ K * |r - r'|

/-- Rate coefficients that are not negative, continuous in time, and bounded and Lipschitz in the peroxy
radicals as long as times and radicals are bounded. -/
def SmoothRates (rates : Rates) (start h2o temp : ℝ) : Prop :=
  ∀ e : ℕ, (∀ time ro2 : ℝ, 0 ≤ ro2 → 0 ≤ rates (start + time) ro2 h2o temp e) ∧
    (∀ ro2 : ℝ, Continuous fun time => rates (start + time) ro2 h2o temp e) ∧
    ∀ R : ℝ, ∃ K M : ℝ, ∀ time r r', |time| ≤ R → |r| ≤ R → |r'| ≤ R →
      |rates (start + time) r h2o temp e| ≤ M ∧
      |rates (start + time) r h2o temp e - rates (start + time) r' h2o temp e| ≤ K * |r - r'|

/-- Rate coefficients that are not negative, continuous in time but for finitely many jumps in any bounded
time, and bounded and Lipschitz in the peroxy radicals as long as times and radicals are bounded. -/
def PiecewiseRates (rates : Rates) (start h2o temp : ℝ) : Prop :=
  ∀ e : ℕ, (∀ time ro2 : ℝ, 0 ≤ ro2 → 0 ≤ rates (start + time) ro2 h2o temp e) ∧
    PiecewiseContinuous (fun ro2 time => rates (start + time) ro2 h2o temp e) ∧
    ∀ R : ℝ, ∃ K M : ℝ, ∀ time r r', |time| ≤ R → |r| ≤ R → |r'| ≤ R →
      |rates (start + time) r h2o temp e| ≤ M ∧
      |rates (start + time) r h2o temp e - rates (start + time) r' h2o temp e| ≤ K * |r - r'|

/-- All reactants have total coefficients of at least 1. -/
def WholeReactants (qs : List RawEqn) : Prop :=
  ∀ q ∈ qs, ∀ s ∈ names (chemReactants q), 1 ≤ coef (chemReactants q) s

end Spec

theorem Spec.SmoothRates.piecewise {rates : Rates} {start h2o temp : ℝ}
    (h : SmoothRates rates start h2o temp) : PiecewiseRates rates start h2o temp :=
  fun e => ⟨(h e).1, PiecewiseContinuous.of_continuous (h e).2.1, (h e).2.2⟩

theorem Spec.PiecewiseRates.regular {rates : Rates} {start h2o temp : ℝ}
    (h : PiecewiseRates rates start h2o temp) : RegularRates rates start h2o temp := by
  intro e time ro2 h0
  obtain ⟨h1, -, h3⟩ := h e
  obtain ⟨K, M, hKM⟩ := h3 (|time| + |ro2| + 1)
  refine ⟨h1 time ro2 h0, K, M, 1, one_pos, fun s hs r r' hr hr' => ?_⟩
  have a1 : |s| ≤ |time| + 1 := by
    have : |s - time| ≤ 1 := by rw [abs_of_nonneg (by linarith [hs.1])]; linarith [hs.2]
    have := abs_sub_abs_le_abs_sub s time
    linarith
  have a2 : |r| ≤ |ro2| + 1 := by have := abs_sub_abs_le_abs_sub r ro2; linarith
  have a3 : |r'| ≤ |ro2| + 1 := by have := abs_sub_abs_le_abs_sub r' ro2; linarith
  have b1 := abs_nonneg time
  have b2 := abs_nonneg ro2
  exact hKM s r r' (by linarith) (by linarith) (by linarith)

theorem Spec.SmoothRates.regular {rates : Rates} {start h2o temp : ℝ}
    (h : SmoothRates rates start h2o temp) : RegularRates rates start h2o temp := h.piecewise.regular

theorem Spec.RegularRates.nonneg {rates : Rates} {start h2o temp : ℝ}
    (h : RegularRates rates start h2o temp) (e : ℕ) (time ro2 : ℝ) (h0 : 0 ≤ ro2) :
    0 ≤ rates (start + time) ro2 h2o temp e := (h e time ro2 h0).1

/-! ## States -/

theorem stateOf_nonneg {n : ℕ} {y : Fin n → ℝ} (hy : ∀ i, 0 ≤ y i) (i : ℕ) : 0 ≤ stateOf y i := by
  unfold stateOf
  split
  · exact hy _
  · exact le_rfl

theorem stateOf_fin {n : ℕ} (y : Fin n → ℝ) (i : Fin n) : stateOf y i = y i := by
  unfold stateOf
  rw [dif_pos i.2]

theorem stateOf_nearLip {n : ℕ} {t : ℝ} {y : Fin n → ℝ} (i : ℕ) :
    NearLip t y (fun _ z => stateOf z i) := by
  unfold stateOf
  by_cases hi : i < n
  · simp only [dif_pos hi]
    exact NearLip.coord _
  · simp only [dif_neg hi]
    exact NearLip.const 0

/-- States with entries of at most `R` in size. -/
def SizeAtMost {n : ℕ} (R : ℝ) (B : Set (Fin n → ℝ)) : Prop := ∀ z ∈ B, ∀ i, |z i| ≤ R

theorem SizeAtMost.box {n : ℕ} (R : ℝ) : SizeAtMost R (box R : Set (Fin n → ℝ)) := fun z hz i => by
  rw [abs_of_nonneg (hz i).1]
  exact (hz i).2

theorem stateOf_setLip {n : ℕ} {A : Set ℝ} {R : ℝ} {B : Set (Fin n → ℝ)} (hR : 0 ≤ R) (hB : SizeAtMost R B)
    (i : ℕ) : SetLip A B (fun _ (z : Fin n → ℝ) => stateOf z i) := by
  unfold stateOf
  by_cases hi : i < n
  · simp only [dif_pos hi]
    refine ⟨1, R, zero_le_one, hR, fun s _ z hz => ⟨hB z hz _, fun z' _ => ?_⟩⟩
    rw [one_mul, ← Real.dist_eq]
    exact dist_le_pi_dist z z' _
  · simp only [dif_neg hi]
    exact SetLip.const 0

theorem listState_nonneg {n : ℕ} {y : Fin n → ℝ} (hy : ∀ i, 0 ≤ y i) (l : List ℕ) :
    0 ≤ (l.map (stateOf y)).sum :=
  List.sum_nonneg fun x hx => by
    obtain ⟨i, -, rfl⟩ := List.mem_map.1 hx
    exact stateOf_nonneg hy i

/-- A total over the species table as a sum over the state. -/
theorem index_sum {text : Str} {m : Mechanism} (h : extractMechanism text = .ok m)
    {qs : List RawEqn} (hq : Reads text m.equations.toNat qs) {n : ℕ}
    (hn : n = m.tables.species.length) :
    ∃ sp : Fin n → Str, (∀ (i : Fin n) s, m.tables.index.get? s = some (i : ℕ) ↔ s = sp i) ∧
      ∀ (w : Str → ℝ) (y : ℕ → ℝ), weightedTotal m w y = ∑ i, w (sp i) * y i := by
  obtain ⟨h2, -⟩ := extract_tables h hq
  have hi := spInv_build qs
  have hex : ∀ i : Fin n, ∃ s, m.tables.index.get? s = some (i : ℕ) := fun i =>
    (C01_indices h i).2 (lt_of_lt_of_eq i.2 hn)
  choose sp hsp using hex
  have hreg : ∀ (k : ℕ) s, m.tables.index.get? s = some k ↔ (registered qs)[k]? = some s := by
    intro k s
    rw [h2, ← index_mem_iff, hi.index_eq]
    exact List.mem_zipIdx_iff_getElem?
  have hlen : (registered qs).length = n := by
    apply Nat.le_antisymm
    · by_contra hc
      push Not at hc
      have : (registered qs)[n]? = some (registered qs)[n] := List.getElem?_eq_getElem hc
      have := (C01_indices h n).1 ⟨_, (hreg n _).2 this⟩
      omega
    · by_contra hc
      push Not at hc
      obtain ⟨s, hs⟩ := (C01_indices h (registered qs).length).2 (by omega)
      have := (hreg _ _).1 hs
      rw [List.getElem?_eq_none le_rfl] at this
      cases this
  refine ⟨sp, fun i s => ⟨fun hs => ?_, fun hs => hs ▸ hsp i⟩, fun w y => ?_⟩
  · have a := (hreg _ _).1 hs
    have b := (hreg _ _).1 (hsp i)
    rw [a] at b
    exact Option.some.inj b
  · unfold weightedTotal
    have hzip : m.tables.index = List.ofFn (fun i : Fin n => (sp i, (i : ℕ))) := by
      rw [h2, hi.index_eq]
      apply List.ext_getElem?
      intro k
      rw [List.getElem?_zipIdx, List.getElem?_ofFn]
      by_cases hk : k < n
      · rw [dif_pos hk, (hreg k _).1 (hsp ⟨k, hk⟩)]
        simp
      · rw [dif_neg hk, List.getElem?_eq_none (by omega)]
        rfl
    rw [hzip, List.map_ofFn, List.sum_ofFn]
    rfl

/-! ## Rates of reactions -/

/-- The product of the concentrations of a reaction as the programs compute it, from the index table
`tb`. -/
noncomputable def reactionProduct (qs : List RawEqn) (tb : Tables) (y : ℕ → ℝ) (e : ℕ) : ℝ :=
  match qs[e]? with
  | some q => codeProduct q (concOf tb y)
  | none => 0

theorem reactionProduct_nonneg (qs : List RawEqn) (tb : Tables) {y : ℕ → ℝ} (hy : ∀ i, 0 ≤ y i) (e : ℕ) :
    0 ≤ reactionProduct qs tb y e := by
  unfold reactionProduct
  split
  · unfold codeProduct
    split
    · exact le_rfl
    · refine List.prod_nonneg fun x hx => ?_
      obtain ⟨s, -, rfl⟩ := List.mem_map.1 hx
      exact Real.rpow_nonneg (by unfold concOf; exact hy _) _
  · exact le_rfl

theorem reactionProduct_zero {qs : List RawEqn} (tb : Tables) {y : ℕ → ℝ} {e : ℕ} {q : RawEqn}
    (hqe : qs[e]? = some q) (hpos : ∀ p ∈ chemReactants q, 0 < p.1) {s : Str}
    (hs : s ∈ names (chemReactants q)) (h0 : concOf tb y s = 0) : reactionProduct qs tb y e = 0 := by
  unfold reactionProduct
  rw [hqe]
  dsimp only
  unfold codeProduct
  rw [if_neg (by rintro hn; rw [hn] at hs; simp [names] at hs)]
  apply List.prod_eq_zero
  rw [List.mem_map]
  refine ⟨s, hs, ?_⟩
  rw [h0]
  apply Real.zero_rpow
  have : (0 : ℝ) < (coef (chemReactants q) s : ℝ) := by exact_mod_cast coef_pos hpos hs
  exact this.ne'

/-- The product of the concentrations of a reaction along states. -/
theorem product_nearLip {qs : List RawEqn} (h1 : WholeReactants qs) {n : ℕ} {t : ℝ} {y : Fin n → ℝ}
    (tb : Tables) (e : ℕ) : NearLip t y (fun _ z => reactionProduct qs tb (stateOf z) e) := by
  unfold reactionProduct
  cases hqe : qs[e]? with
  | none => exact NearLip.const 0
  | some q =>
    dsimp only
    unfold codeProduct
    by_cases hn : chemReactants q = []
    · simp only [if_pos hn]
      exact NearLip.const 0
    · simp only [if_neg hn]
      refine NearLip.listProd (names (chemReactants q))
        (F := fun s _ z => concOf tb (stateOf z) s ^ (coef (chemReactants q) s : ℝ)) fun s hs => ?_
      unfold concOf
      exact (stateOf_nearLip _).rpow (by exact_mod_cast h1 q (List.mem_of_getElem? hqe) s hs)

theorem product_setLip {qs : List RawEqn} (h1 : WholeReactants qs) {n : ℕ} {A : Set ℝ} {R : ℝ}
    {B : Set (Fin n → ℝ)} (hR : 0 ≤ R) (hB : SizeAtMost R B) (tb : Tables) (e : ℕ) :
    SetLip A B (fun _ (z : Fin n → ℝ) => reactionProduct qs tb (stateOf z) e) := by
  unfold reactionProduct
  cases hqe : qs[e]? with
  | none => exact SetLip.const 0
  | some q =>
    dsimp only
    unfold codeProduct
    by_cases hn : chemReactants q = []
    · simp only [if_pos hn]
      exact SetLip.const 0
    · simp only [if_neg hn]
      refine SetLip.listProd (names (chemReactants q))
        (F := fun s _ z => concOf tb (stateOf z) s ^ (coef (chemReactants q) s : ℝ)) fun s hs => ?_
      unfold concOf
      exact (stateOf_setLip hR hB _).rpow (by exact_mod_cast h1 q (List.mem_of_getElem? hqe) s hs)

/-- The rate coefficients along states. -/
theorem rates_nearLip {rates : Rates} {start h2o temp : ℝ} (hr : RegularRates rates start h2o temp)
    {n : ℕ} {t : ℝ} {y : Fin n → ℝ} (hy : ∀ i, 0 ≤ y i) (l : List ℕ) (e : ℕ) :
    NearLip t y (fun s z => rates (start + s) (l.map (stateOf z)).sum h2o temp e) := by
  have hsum : NearLip t y (fun _ z => (l.map (fun i => stateOf z i)).sum) :=
    NearLip.listSum l (F := fun i _ z => stateOf z i) fun i _ => stateOf_nearLip i
  obtain ⟨-, K, M, ε, hε, hR⟩ := hr e t _ (listState_nonneg hy l)
  obtain ⟨K', M', ε', hK', hM', hε', hS⟩ := hsum
  have hK1 : (0 : ℝ) < K' + 1 := by linarith
  set η := min (min ε ε') (ε / (K' + 1)) with hη
  have hη0 : 0 < η := lt_min (lt_min hε hε') (by positivity)
  have hηε : η ≤ ε := (min_le_left _ _).trans (min_le_left _ _)
  have hηε' : η ≤ ε' := (min_le_left _ _).trans (min_le_right _ _)
  have hηK : η ≤ ε / (K' + 1) := min_le_right _ _
  have hclose : ∀ z ∈ Metric.ball y η, |(l.map (stateOf z)).sum - (l.map (stateOf y)).sum| < ε := by
    intro z hz
    have h1 := (hS t ⟨le_rfl, by linarith⟩ z (Metric.ball_subset_ball hηε' hz)).2 y
      (Metric.mem_ball_self hε')
    refine lt_of_le_of_lt h1 ?_
    have h2 : dist z y < ε / (K' + 1) := lt_of_lt_of_le hz hηK
    rw [lt_div_iff₀ hK1] at h2
    nlinarith [dist_nonneg (x := z) (y := y)]
  refine ⟨|K| * K', |M|, η, by positivity, abs_nonneg _, hη0, fun s hs z hz => ?_⟩
  have hs' : s ∈ Ico t (t + ε) := ⟨hs.1, hs.2.trans_le (by linarith)⟩
  have hs'' : s ∈ Ico t (t + ε') := ⟨hs.1, hs.2.trans_le (by linarith)⟩
  refine ⟨(hR s hs' _ _ (hclose z hz) (hclose z hz)).1.trans (le_abs_self M), fun z' hz' => ?_⟩
  refine (hR s hs' _ _ (hclose z hz) (hclose z' hz')).2.trans ?_
  have h3 := (hS s hs'' z (Metric.ball_subset_ball hηε' hz)).2 z' (Metric.ball_subset_ball hηε' hz')
  rw [mul_assoc]
  exact mul_le_mul (le_abs_self K) h3 (abs_nonneg _) (abs_nonneg _)

theorem rates_setLip {rates : Rates} {start h2o temp : ℝ} (hr : PiecewiseRates rates start h2o temp)
    {n : ℕ} {T R : ℝ} {B : Set (Fin n → ℝ)} (hR : 0 ≤ R) (hB : SizeAtMost R B) (l : List ℕ) (e : ℕ) :
    SetLip (Icc 0 T) B
      (fun s (z : Fin n → ℝ) => rates (start + s) (l.map (stateOf z)).sum h2o temp e) := by
  have hsum : SetLip (Icc 0 T) B (fun _ (z : Fin n → ℝ) => (l.map (fun i => stateOf z i)).sum) :=
    SetLip.listSum l (F := fun i _ z => stateOf z i) fun i _ => stateOf_setLip hR hB i
  obtain ⟨K', M', hK', hM', hS⟩ := hsum
  obtain ⟨-, -, h3⟩ := hr e
  obtain ⟨K, M, hKM⟩ := h3 (max |T| M')
  have habs : ∀ s ∈ Icc 0 T, |s| ≤ max |T| M' := fun s hs =>
    (abs_le_abs_of_nonneg hs.1 hs.2).trans (le_max_left _ _)
  refine ⟨|K| * K', |M|, by positivity, abs_nonneg _, fun s hs z hz => ?_⟩
  have h1 : ∀ z ∈ B, |(l.map (stateOf z)).sum| ≤ max |T| M' := fun z hz =>
    ((hS s hs z hz).1).trans (le_max_right _ _)
  refine ⟨(hKM s _ _ (habs s hs) (h1 z hz) (h1 z hz)).1.trans (le_abs_self M), fun z' hz' => ?_⟩
  refine (hKM s _ _ (habs s hs) (h1 z hz) (h1 z' hz')).2.trans ?_
  rw [mul_assoc]
  exact mul_le_mul (le_abs_self K) ((hS s hs z hz).2 z' hz') (abs_nonneg _) (abs_nonneg _)

/-! ## The form -/

/-- The tendency of species `s` in a state: every reaction `e` adds `A s e` times its rate; species held
constant have none. -/
noncomputable def kineticValue (m : Mechanism) (qs : List RawEqn) (A : Str → ℕ → ℝ) (rates : Rates)
    (start h2o temp : ℝ) (s : Str) (t : ℝ) (y : ℕ → ℝ) : ℝ :=
  if s ∈ heldConstant then 0 else
    ∑ e ∈ Finset.range qs.length, A s e * (reactionProduct qs m.tables y e *
      rates (start + t) ((ro2Indices m.tables.index).map y).sum h2o temp e)

section Form

variable {m : Mechanism} {qs : List RawEqn} {A : Str → ℕ → ℝ} {rates : Rates} {start h2o temp : ℝ}

theorem kineticValue_nearLip (h1 : WholeReactants qs) (hr : RegularRates rates start h2o temp) {n : ℕ}
    {t : ℝ} {y : Fin n → ℝ} (hy : ∀ i, 0 ≤ y i) (s : Str) :
    NearLip t y (fun t z => kineticValue m qs A rates start h2o temp s t (stateOf z)) := by
  unfold kineticValue
  by_cases hx : s ∈ heldConstant
  · simp only [if_pos hx]
    exact NearLip.const 0
  · simp only [if_neg hx]
    refine NearLip.sum (Finset.range qs.length) (F := fun e t z => A s e *
      (reactionProduct qs m.tables (stateOf z) e *
        rates (start + t) ((ro2Indices m.tables.index).map (stateOf z)).sum h2o temp e)) fun e _ => ?_
    exact (NearLip.const _).mul ((product_nearLip h1 m.tables e).mul (rates_nearLip hr hy _ e))

theorem kineticValue_setLip (h1 : WholeReactants qs) (hr : PiecewiseRates rates start h2o temp) {n : ℕ}
    {T R : ℝ} {B : Set (Fin n → ℝ)} (hR : 0 ≤ R) (hB : SizeAtMost R B) (s : Str) :
    SetLip (Icc 0 T) B (fun t (z : Fin n → ℝ) =>
      kineticValue m qs A rates start h2o temp s t (stateOf z)) := by
  unfold kineticValue
  by_cases hx : s ∈ heldConstant
  · simp only [if_pos hx]
    exact SetLip.const 0
  · simp only [if_neg hx]
    refine SetLip.sum (Finset.range qs.length) (F := fun e t z => A s e *
      (reactionProduct qs m.tables (stateOf z) e *
        rates (start + t) ((ro2Indices m.tables.index).map (stateOf z)).sum h2o temp e)) fun e _ => ?_
    exact (SetLip.const _).mul ((product_setLip h1 hR hB m.tables e).mul (rates_setLip hr hR hB _ e))

theorem kineticValue_continuous (hr : SmoothRates rates start h2o temp) (s : Str) (y : ℕ → ℝ) :
    Continuous fun t => kineticValue m qs A rates start h2o temp s t y := by
  unfold kineticValue
  by_cases hx : s ∈ heldConstant
  · simp only [if_pos hx]
    exact continuous_const
  · simp only [if_neg hx]
    refine continuous_finsetSum _ fun e _ => ?_
    exact continuous_const.mul (continuous_const.mul ((hr e).2.1 _))

theorem kineticValue_pieces (hr : PiecewiseRates rates start h2o temp) (s : Str) {β : Type}
    (y : β → ℕ → ℝ) :
    PiecewiseContinuous fun b t => kineticValue m qs A rates start h2o temp s t (y b) := by
  unfold kineticValue
  by_cases hx : s ∈ heldConstant
  · simp only [if_pos hx]
    exact PiecewiseContinuous.of_continuous fun _ => continuous_const
  · simp only [if_neg hx, ← mul_assoc]
    exact PiecewiseContinuous.sum (Finset.range qs.length)
      (fun e b => A s e * reactionProduct qs m.tables (y b) e)
      (f := fun e b t => rates (start + t) ((ro2Indices m.tables.index).map (y b)).sum h2o temp e)
      fun e _ => (hr e).2.1.reindex fun b => ((ro2Indices m.tables.index).map (y b)).sum

/-- A species that is not there is not consumed. -/
theorem kineticValue_nonneg (hA : ∀ s e q, qs[e]? = some q → s ∉ names (chemReactants q) → 0 ≤ A s e)
    (hpos : ∀ q ∈ qs, ∀ p ∈ chemReactants q, 0 < p.1)
    (hr : ∀ e time ro2, 0 ≤ ro2 → 0 ≤ rates (start + time) ro2 h2o temp e) {s : Str} (t : ℝ) {y : ℕ → ℝ}
    (hy : ∀ i, 0 ≤ y i) (h0 : concOf m.tables y s = 0) :
    0 ≤ kineticValue m qs A rates start h2o temp s t y := by
  unfold kineticValue
  split
  · exact le_rfl
  · refine Finset.sum_nonneg fun e he => ?_
    have hlt := Finset.mem_range.1 he
    have hqe : qs[e]? = some qs[e] := List.getElem?_eq_getElem hlt
    by_cases hs : s ∈ names (chemReactants qs[e])
    · rw [reactionProduct_zero m.tables hqe (hpos _ (List.getElem_mem hlt)) hs h0]
      simp
    · refine mul_nonneg (hA s e _ hqe hs) (mul_nonneg (reactionProduct_nonneg _ _ hy e) (hr _ _ _ ?_))
      exact List.sum_nonneg fun x hx => by
        obtain ⟨i, -, rfl⟩ := List.mem_map.1 hx
        exact hy i

/-- The rate of change of a weighted total. -/
theorem kineticValue_total {n : ℕ} (sp : Fin n → Str) {w : Str → ℝ} (hw : ∀ s ∈ heldConstant, w s = 0)
    (t : ℝ) (y : ℕ → ℝ) :
    ∑ i, w (sp i) * kineticValue m qs A rates start h2o temp (sp i) t y
      = ∑ e ∈ Finset.range qs.length, (∑ i, w (sp i) * A (sp i) e) * (reactionProduct qs m.tables y e *
          rates (start + t) ((ro2Indices m.tables.index).map y).sum h2o temp e) := by
  have h1 : ∀ i, w (sp i) * kineticValue m qs A rates start h2o temp (sp i) t y
      = ∑ e ∈ Finset.range qs.length, w (sp i) * A (sp i) e * (reactionProduct qs m.tables y e *
          rates (start + t) ((ro2Indices m.tables.index).map y).sum h2o temp e) := by
    intro i
    unfold kineticValue
    split
    · rename_i hx
      rw [hw _ hx]
      simp
    · rw [Finset.mul_sum]
      exact Finset.sum_congr rfl fun e _ => by ring
  simp only [h1]
  rw [Finset.sum_comm]
  exact Finset.sum_congr rfl fun e _ => by rw [Finset.sum_mul]

end Form

/-! ## Systems of the form -/

/-- The components of `F` are the tendencies of the species of the mechanism. -/
structure KineticSystem (m : Mechanism) (qs : List RawEqn) (A : Str → ℕ → ℝ) (rates : Rates)
    (start h2o temp : ℝ) {n : ℕ} (F : ℝ → (Fin n → ℝ) → Fin n → ℝ) : Prop where
  size : n = m.tables.species.length
  value : ∀ s (i : Fin n), m.tables.index.get? s = some (i : ℕ) → ∀ t z,
    F t z i = kineticValue m qs A rates start h2o temp s t (stateOf z)

/-- A reaction adds a negative amount only to its reactants. -/
def LossOnly (qs : List RawEqn) (A : Str → ℕ → ℝ) : Prop :=
  ∀ s e q, qs[e]? = some q → s ∉ names (chemReactants q) → 0 ≤ A s e

section System

variable {text : Str} {m : Mechanism} {qs : List RawEqn} {A : Str → ℕ → ℝ} {rates : Rates}
  {start h2o temp : ℝ} {n : ℕ} {F : ℝ → (Fin n → ℝ) → Fin n → ℝ}

theorem KineticSystem.species (hF : KineticSystem m qs A rates start h2o temp F)
    (h : extractMechanism text = .ok m) (i : Fin n) : ∃ s, m.tables.index.get? s = some (i : ℕ) :=
  (C01_indices h i).2 (lt_of_lt_of_eq i.2 hF.size)

theorem KineticSystem.tame (hF : KineticSystem m qs A rates start h2o temp F)
    (h : extractMechanism text = .ok m) (hA : LossOnly qs A)
    (hpos : ∀ q ∈ qs, ∀ p ∈ chemReactants q, 0 < p.1) (h1 : WholeReactants qs)
    (hr : RegularRates rates start h2o temp) : Tame F := by
  constructor
  · intro t y hy i
    obtain ⟨s, hs⟩ := hF.species h i
    simp only [hF.value s i hs]
    exact kineticValue_nearLip h1 hr hy s
  · intro t y hy i hi
    obtain ⟨s, hs⟩ := hF.species h i
    rw [hF.value s i hs]
    refine kineticValue_nonneg hA hpos (fun e time ro2 h0 => (hr e time ro2 h0).1) t (stateOf_nonneg hy) ?_
    rw [← concOf_holds m.tables _ s i hs, stateOf_fin, hi]

theorem KineticSystem.boxLip (hF : KineticSystem m qs A rates start h2o temp F)
    (h : extractMechanism text = .ok m) (h1 : WholeReactants qs)
    (hr : SmoothRates rates start h2o temp) : BoxLip F := by
  constructor
  · intro T R hR i
    obtain ⟨s, hs⟩ := hF.species h i
    simp only [hF.value s i hs]
    exact kineticValue_setLip h1 hr.piecewise hR (SizeAtMost.box R) s
  · intro y _
    refine continuous_pi fun i => ?_
    obtain ⟨s, hs⟩ := hF.species h i
    simp only [hF.value s i hs]
    exact kineticValue_continuous hr s _

theorem KineticSystem.boxPieces (hF : KineticSystem m qs A rates start h2o temp F)
    (h : extractMechanism text = .ok m) (h1 : WholeReactants qs)
    (hr : PiecewiseRates rates start h2o temp) : BoxPieces F := by
  constructor
  · intro T R hR i
    obtain ⟨s, hs⟩ := hF.species h i
    simp only [hF.value s i hs]
    exact kineticValue_setLip h1 hr hR (SizeAtMost.box R) s
  · refine PiecewiseContinuous.pi fun i => ?_
    obtain ⟨s, hs⟩ := hF.species h i
    simp only [hF.value s i hs]
    exact kineticValue_pieces hr s _

/-- The rate of change of a weighted total. -/
theorem KineticSystem.total (hF : KineticSystem m qs A rates start h2o temp F)
    {sp : Fin n → Str} (hsp : ∀ (i : Fin n) s, m.tables.index.get? s = some (i : ℕ) ↔ s = sp i)
    {w : Str → ℝ} (hw : ∀ s ∈ heldConstant, w s = 0) (t : ℝ) (y : Fin n → ℝ) :
    ∑ i, w (sp i) * F t y i
      = ∑ e ∈ Finset.range qs.length, (∑ i, w (sp i) * A (sp i) e) *
          (reactionProduct qs m.tables (stateOf y) e *
          rates (start + t) ((ro2Indices m.tables.index).map (stateOf y)).sum h2o temp e) := by
  rw [← kineticValue_total sp hw]
  refine Finset.sum_congr rfl fun i _ => ?_
  rw [hF.value (sp i) i ((hsp i _).2 rfl)]

theorem KineticSystem.total_le (hF : KineticSystem m qs A rates start h2o temp F)
    {sp : Fin n → Str} (hsp : ∀ (i : Fin n) s, m.tables.index.get? s = some (i : ℕ) ↔ s = sp i)
    {w : Str → ℝ} (hw : ∀ s ∈ heldConstant, w s = 0)
    (hA : ∀ e < qs.length, ∑ i, w (sp i) * A (sp i) e ≤ 0)
    (hr : ∀ e time ro2, 0 ≤ ro2 → 0 ≤ rates (start + time) ro2 h2o temp e) (t : ℝ) {y : Fin n → ℝ}
    (hy : ∀ i, 0 ≤ y i) : ∑ i, w (sp i) * F t y i ≤ 0 := by
  rw [hF.total hsp hw]
  refine Finset.sum_nonpos fun e he => mul_nonpos_of_nonpos_of_nonneg (hA e (Finset.mem_range.1 he)) ?_
  exact mul_nonneg (reactionProduct_nonneg _ _ (stateOf_nonneg hy) e) (hr _ _ _ (listState_nonneg hy _))

theorem KineticSystem.total_zero (hF : KineticSystem m qs A rates start h2o temp F)
    {sp : Fin n → Str} (hsp : ∀ (i : Fin n) s, m.tables.index.get? s = some (i : ℕ) ↔ s = sp i)
    {w : Str → ℝ} (hw : ∀ s ∈ heldConstant, w s = 0)
    (hA : ∀ e < qs.length, ∑ i, w (sp i) * A (sp i) e = 0) (t : ℝ) (y : Fin n → ℝ) :
    ∑ i, w (sp i) * F t y i = 0 := by
  rw [hF.total hsp hw]
  exact Finset.sum_eq_zero fun e he => by rw [hA e (Finset.mem_range.1 he), zero_mul]

end System

end PyBox
