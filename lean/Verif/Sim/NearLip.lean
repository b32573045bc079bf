import Verif.Sim.Positive
import Mathlib.Analysis.Calculus.ContDiff.RCLike
import Mathlib.Analysis.Calculus.ContDiff.Operations
import Mathlib.Analysis.SpecialFunctions.Pow.Deriv

/-!
# Functions of time and state that are Lipschitz near a state

Closure properties used to show that the right-hand sides of the simulations meet the hypothesis
`Spec.LipschitzNear` of `SolvesOn.nonneg`.
-/

namespace PyBox

open Set Spec

variable {ι : Type} [Fintype ι]

/-- From time `t` on, for a while, `f` is bounded and Lipschitz near `y`. -/
def NearLip (t : ℝ) (y : ι → ℝ) (f : ℝ → (ι → ℝ) → ℝ) : Prop :=
  ∃ K M ε : ℝ, 0 ≤ K ∧ 0 ≤ M ∧ 0 < ε ∧ ∀ s ∈ Ico t (t + ε), ∀ z ∈ Metric.ball y ε,
    |f s z| ≤ M ∧ ∀ z' ∈ Metric.ball y ε, |f s z - f s z'| ≤ K * dist z z'

namespace NearLip

variable {t : ℝ} {y : ι → ℝ} {f g : ℝ → (ι → ℝ) → ℝ}

theorem const (c : ℝ) : NearLip t y (fun _ _ => c) :=
  ⟨0, |c|, 1, le_rfl, abs_nonneg c, one_pos, fun _ _ _ _ => ⟨le_rfl, fun _ _ => by simp⟩⟩

theorem coord (i : ι) : NearLip t y (fun _ z => z i) := by
  refine ⟨1, |y i| + 1, 1, zero_le_one, by positivity, one_pos, fun s _ z hz => ⟨?_, ?_⟩⟩
  · have h1 : dist (z i) (y i) < 1 := lt_of_le_of_lt (dist_le_pi_dist z y i) hz
    rw [Real.dist_eq] at h1
    have h2 : |z i| ≤ |z i - y i| + |y i| := by
      have := abs_add_le (z i - y i) (y i)
      simpa using this
    linarith
  · intro z' _
    rw [one_mul, ← Real.dist_eq]
    exact dist_le_pi_dist z z' i

theorem add (hf : NearLip t y f) (hg : NearLip t y g) : NearLip t y (fun s z => f s z + g s z) := by
  obtain ⟨K, M, ε, hK, hM, hε, h⟩ := hf
  obtain ⟨K', M', ε', hK', hM', hε', h'⟩ := hg
  refine ⟨K + K', M + M', min ε ε', by positivity, by positivity, lt_min hε hε', ?_⟩
  intro s hs z hz
  have hs1 : s ∈ Ico t (t + ε) := ⟨hs.1, hs.2.trans_le (by linarith [min_le_left ε ε'])⟩
  have hs2 : s ∈ Ico t (t + ε') := ⟨hs.1, hs.2.trans_le (by linarith [min_le_right ε ε'])⟩
  have b1 := Metric.ball_subset_ball (x := y) (min_le_left ε ε')
  have b2 := Metric.ball_subset_ball (x := y) (min_le_right ε ε')
  obtain ⟨h1, h2⟩ := h s hs1 z (b1 hz)
  obtain ⟨h1', h2'⟩ := h' s hs2 z (b2 hz)
  refine ⟨(abs_add_le _ _).trans (add_le_add h1 h1'), fun z' hz' => ?_⟩
  have e : f s z + g s z - (f s z' + g s z') = (f s z - f s z') + (g s z - g s z') := by ring
  rw [e, add_mul]
  exact (abs_add_le _ _).trans (add_le_add (h2 z' (b1 hz')) (h2' z' (b2 hz')))

theorem mul (hf : NearLip t y f) (hg : NearLip t y g) : NearLip t y (fun s z => f s z * g s z) := by
  obtain ⟨K, M, ε, hK, hM, hε, h⟩ := hf
  obtain ⟨K', M', ε', hK', hM', hε', h'⟩ := hg
  refine ⟨K * M' + M * K', M * M', min ε ε', by positivity, by positivity, lt_min hε hε', ?_⟩
  intro s hs z hz
  have hs1 : s ∈ Ico t (t + ε) := ⟨hs.1, hs.2.trans_le (by linarith [min_le_left ε ε'])⟩
  have hs2 : s ∈ Ico t (t + ε') := ⟨hs.1, hs.2.trans_le (by linarith [min_le_right ε ε'])⟩
  have b1 := Metric.ball_subset_ball (x := y) (min_le_left ε ε')
  have b2 := Metric.ball_subset_ball (x := y) (min_le_right ε ε')
  obtain ⟨h1, h2⟩ := h s hs1 z (b1 hz)
  obtain ⟨h1', h2'⟩ := h' s hs2 z (b2 hz)
  refine ⟨?_, fun z' hz' => ?_⟩
  · rw [abs_mul]
    exact mul_le_mul h1 h1' (abs_nonneg _) hM
  · have e : f s z * g s z - f s z' * g s z'
        = (f s z - f s z') * g s z + f s z' * (g s z - g s z') := by ring
    obtain ⟨h3, -⟩ := h s hs1 z' (b1 hz')
    rw [e]
    refine (abs_add_le _ _).trans ?_
    rw [abs_mul, abs_mul]
    have a1 : |f s z - f s z'| * |g s z| ≤ K * dist z z' * M' :=
      mul_le_mul (h2 z' (b1 hz')) h1' (abs_nonneg _) (mul_nonneg hK dist_nonneg)
    have a2 : |f s z'| * |g s z - g s z'| ≤ M * (K' * dist z z') :=
      mul_le_mul h3 (h2' z' (b2 hz')) (abs_nonneg _) hM
    calc _ ≤ K * dist z z' * M' + M * (K' * dist z z') := add_le_add a1 a2
      _ = _ := by ring

theorem neg (hf : NearLip t y f) : NearLip t y (fun s z => - f s z) := by
  have := (const (t := t) (y := y) (-1)).mul hf
  simpa using this

theorem sub (hf : NearLip t y f) (hg : NearLip t y g) : NearLip t y (fun s z => f s z - g s z) := by
  have := hf.add hg.neg
  simpa [sub_eq_add_neg] using this

theorem sum {α : Type} (S : Finset α) {F : α → ℝ → (ι → ℝ) → ℝ} (h : ∀ a ∈ S, NearLip t y (F a)) :
    NearLip t y (fun s z => ∑ a ∈ S, F a s z) := by
  classical
  induction S using Finset.induction_on with
  | empty => simpa using const (t := t) (y := y) 0
  | insert a S ha ih =>
    simp only [Finset.sum_insert ha]
    exact (h a (Finset.mem_insert_self a S)).add
      (ih fun b hb => h b (Finset.mem_insert_of_mem hb))

theorem listSum {α : Type} (l : List α) {F : α → ℝ → (ι → ℝ) → ℝ} (h : ∀ a ∈ l, NearLip t y (F a)) :
    NearLip t y (fun s z => (l.map (fun a => F a s z)).sum) := by
  induction l with
  | nil => simpa using const (t := t) (y := y) 0
  | cons a l ih =>
    simp only [List.map_cons, List.sum_cons]
    exact (h a (by simp)).add (ih fun b hb => h b (by simp [hb]))

theorem listProd {α : Type} (l : List α) {F : α → ℝ → (ι → ℝ) → ℝ} (h : ∀ a ∈ l, NearLip t y (F a)) :
    NearLip t y (fun s z => (l.map (fun a => F a s z)).prod) := by
  induction l with
  | nil => simpa using const (t := t) (y := y) 1
  | cons a l ih =>
    simp only [List.map_cons, List.prod_cons]
    exact (h a (by simp)).mul (ih fun b hb => h b (by simp [hb]))

/-- Composition with a smooth function. -/
theorem comp_smooth (hf : NearLip t y f) {φ : ℝ → ℝ} (hφ : ContDiff ℝ 1 φ) :
    NearLip t y (fun s z => φ (f s z)) := by
  obtain ⟨K, M, ε, hK, hM, hε, h⟩ := hf
  obtain ⟨L, hL⟩ := hφ.contDiffOn (s := Icc (-M) M) |>.exists_lipschitzOnWith one_ne_zero
    (convex_Icc _ _) isCompact_Icc
  obtain ⟨B, hB⟩ := isCompact_Icc.exists_bound_of_continuousOn (s := Icc (-M) M)
    hφ.continuous.continuousOn
  refine ⟨L * K, max B 0, ε, mul_nonneg L.2 hK, le_max_right _ _, hε, fun s hs z hz => ?_⟩
  obtain ⟨h1, h2⟩ := h s hs z hz
  have hm : f s z ∈ Icc (-M) M := abs_le.1 h1
  refine ⟨?_, fun z' hz' => ?_⟩
  · have := hB _ hm
    rw [Real.norm_eq_abs] at this
    exact this.trans (le_max_left _ _)
  · have hm' : f s z' ∈ Icc (-M) M := abs_le.1 (h s hs z' hz').1
    have := hL.dist_le_mul _ hm _ hm'
    rw [Real.dist_eq, Real.dist_eq] at this
    refine this.trans ?_
    rw [mul_assoc]
    exact mul_le_mul_of_nonneg_left (h2 z' hz') L.2

/-- A constant power of at least one. -/
theorem rpow (hf : NearLip t y f) {p : ℝ} (hp : 1 ≤ p) : NearLip t y (fun s z => f s z ^ p) :=
  hf.comp_smooth (φ := fun x => x ^ p) (Real.contDiff_rpow_const_of_le (n := 1) (by simpa using hp))

/-- Composition of a function without time with one that is smooth at the value taken. -/
theorem comp_at {f : (ι → ℝ) → ℝ} (hf : NearLip t y (fun _ => f)) {φ : ℝ → ℝ}
    (hφ : ContDiffAt ℝ 1 φ (f y)) : NearLip t y (fun _ z => φ (f z)) := by
  obtain ⟨K, M, ε, hK, hM, hε, h⟩ := hf
  obtain ⟨L, U, hU, hL⟩ := hφ.exists_lipschitzOnWith
  obtain ⟨V, hV, hVb⟩ : ∃ V ∈ nhds (f y), ∀ x ∈ V, |φ x| ≤ |φ (f y)| + 1 := by
    have hc := hφ.continuousAt
    have : {x | |φ x| < |φ (f y)| + 1} ∈ nhds (f y) :=
      hc.abs.eventually_lt continuousAt_const (by linarith)
    exact ⟨_, this, fun x hx => le_of_lt hx⟩
  obtain ⟨δ, hδ, hδs⟩ := Metric.mem_nhds_iff.1 (Filter.inter_mem hU hV)
  set η := min ε (δ / (K + 1)) with hη
  have hηpos : 0 < η := lt_min hε (by positivity)
  have hin : ∀ z ∈ Metric.ball y η, f z ∈ Metric.ball (f y) δ := by
    intro z hz
    have hz' : z ∈ Metric.ball y ε := Metric.ball_subset_ball (min_le_left _ _) hz
    have h1 := (h t ⟨le_rfl, by linarith⟩ z hz').2 y (Metric.mem_ball_self hε)
    rw [Metric.mem_ball, Real.dist_eq]
    refine lt_of_le_of_lt h1 ?_
    have h2 : dist z y < δ / (K + 1) := lt_of_lt_of_le hz (min_le_right _ _)
    have h3 : (K + 1) * dist z y < δ := by
      rw [lt_div_iff₀ (by positivity)] at h2
      linarith
    have : K * dist z y ≤ (K + 1) * dist z y := by nlinarith [dist_nonneg (x := z) (y := y)]
    linarith
  refine ⟨L * K, |φ (f y)| + 1, η, mul_nonneg L.2 hK, by positivity, hηpos, fun s hs z hz => ?_⟩
  have hs' : s ∈ Ico t (t + ε) := ⟨hs.1, hs.2.trans_le (by linarith [min_le_left ε (δ / (K + 1))])⟩
  refine ⟨hVb _ (hδs (hin z hz)).2, fun z' hz' => ?_⟩
  have := hL.dist_le_mul _ (hδs (hin z hz)).1 _ (hδs (hin z' hz')).1
  rw [Real.dist_eq, Real.dist_eq] at this
  refine this.trans ?_
  rw [mul_assoc]
  exact mul_le_mul_of_nonneg_left ((h s hs' z (Metric.ball_subset_ball (min_le_left _ _) hz)).2 z'
    (Metric.ball_subset_ball (min_le_left _ _) hz')) L.2

theorem div {f g : (ι → ℝ) → ℝ} (hf : NearLip t y (fun _ => f)) (hg : NearLip t y (fun _ => g))
    (h0 : g y ≠ 0) : NearLip t y (fun _ z => f z / g z) := by
  have h1 : NearLip t y (fun _ z => (g z)⁻¹) := hg.comp_at (contDiffAt_inv ℝ h0)
  simpa [div_eq_mul_inv] using hf.mul h1

theorem exp (hf : NearLip t y f) : NearLip t y (fun s z => Real.exp (f s z)) :=
  hf.comp_smooth Real.contDiff_exp

end NearLip

/-- A right-hand side whose components are all Lipschitz near a state is. -/
theorem LipschitzNear.of_components {G : ℝ → (ι → ℝ) → ι → ℝ} {t : ℝ} {y : ι → ℝ}
    (h : ∀ i, NearLip t y (fun s z => G s z i)) : LipschitzNear G t y := by
  classical
  choose K M ε hK hM hε hh using h
  -- common constants
  obtain ⟨δ, hδ, hδε⟩ : ∃ δ > 0, ∀ i, δ ≤ ε i := by
    by_cases hne : Nonempty ι
    · refine ⟨Finset.univ.inf' Finset.univ_nonempty ε, ?_, fun i => Finset.inf'_le _ (Finset.mem_univ i)⟩
      rw [gt_iff_lt, Finset.lt_inf'_iff]
      exact fun i _ => hε i
    · exact ⟨1, one_pos, fun i => absurd ⟨i⟩ hne⟩
  have hS : 0 ≤ ∑ i, K i := Finset.sum_nonneg fun i _ => hK i
  refine ⟨(∑ i, K i).toNNReal, δ, hδ, fun s hs => ?_⟩
  refine LipschitzOnWith.of_dist_le_mul fun z hz z' hz' => ?_
  rw [Real.coe_toNNReal _ hS, dist_pi_le_iff (mul_nonneg hS dist_nonneg)]
  intro i
  have b := Metric.ball_subset_ball (x := y) (hδε i)
  have := (hh i s ⟨hs.1, hs.2.trans_le (by linarith [hδε i])⟩ z (b hz)).2 z' (b hz')
  rw [Real.dist_eq]
  refine this.trans (mul_le_mul_of_nonneg_right ?_ dist_nonneg)
  exact Finset.single_le_sum (fun i _ => hK i) (Finset.mem_univ i)

end PyBox
